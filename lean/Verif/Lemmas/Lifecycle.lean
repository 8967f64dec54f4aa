import Verif.Spec.Lifecycle
import Verif.Props.Serial
/-! # The steps of a connection -/
namespace Gsm
open List Spec

/-- What holds at any moment if `connect` is called only when no read thread is active. -/
structure LifeOk (x : Life) : Prop where
  ports : x.ports.length = x.readers.length
  one : ∀ i r, x.readers[i]? = some r → i + 1 ≠ x.readers.length → ¬ Active r
  closing : x.app = .joining ∨ x.app = .shutting → x.comms.alive = false
  gone : x.app = .shutting → ∀ r ∈ x.readers, ¬ Active r
  opened : (∃ r ∈ x.readers, Active r) → x.isOpen = true
  fatal : ∀ i ∈ x.fatal, ∃ r, x.readers[i]? = some r ∧ ¬ Active r
  nodup : x.fatal.Nodup

theorem lifeOk_init : LifeOk {} :=
  ⟨rfl, fun _ _ h => (nomatch h), fun _ => rfl, fun h => (nomatch h), fun ⟨_, h, _⟩ => (nomatch h), fun _ h => (nomatch h), List.nodup_nil⟩

/-- The read thread `i`, which is `r`, becomes `r'`. -/
theorem lifeOk_set {x : Life} (h : LifeOk x) {i : Nat} {r r' : Reader} (hi : x.readers[i]? = some r) {c : Comms} (ha : c.alive = x.comms.alive) (hr : Active r' → Active r) :
    LifeOk { x with comms := c, readers := x.readers.set i r' } := by
  have hl := (List.getElem?_eq_some_iff.1 hi).1
  have key : ∀ (j : Nat) r0, (x.readers.set i r')[j]? = some r0 → ∃ r1, x.readers[j]? = some r1 ∧ (Active r0 → Active r1) := by
    intro j r0 hj
    by_cases hij : i = j
    · subst hij
      rw [List.getElem?_set_self hl] at hj
      cases hj
      exact ⟨r, hi, hr⟩
    · rw [List.getElem?_set_ne hij] at hj
      exact ⟨r0, hj, id⟩
  have key' : ∀ r0 ∈ x.readers.set i r', Active r0 → ∃ r1 ∈ x.readers, Active r1 := by
    intro r0 hm ha
    obtain ⟨j, hj⟩ := List.mem_iff_getElem?.1 hm
    obtain ⟨r1, h1, h2⟩ := key j r0 hj
    exact ⟨r1, List.mem_of_getElem? h1, h2 ha⟩
  refine ⟨by simpa using h.ports, fun j r0 hj hne ha => ?_, fun ha' => by rw [← h.closing ha']; exact ha, fun hs r0 hm ha => ?_, fun ⟨r0, hm, ha⟩ => h.opened (key' r0 hm ha), fun j hj => ?_, h.nodup⟩
  · obtain ⟨r1, h1, h2⟩ := key j r0 hj
    exact h.one j r1 h1 (by simpa using hne) (h2 ha)
  · obtain ⟨r1, h1, h2⟩ := key' r0 hm ha
    exact h.gone hs r1 h1 h2
  · obtain ⟨r1, h1, h2⟩ := h.fatal j hj
    by_cases hij : i = j
    · subst hij
      rw [hi] at h1
      cases h1
      exact ⟨r', List.getElem?_set_self hl, fun ha => h2 (hr ha)⟩
    · exact ⟨r1, by dsimp only; rw [List.getElem?_set_ne hij, h1], h2⟩

theorem lifeOk_fails {x : Life} (h : LifeOk x) {i : Nat} {r : Reader} (hi : x.readers[i]? = some r) (hr : r.phase = .reading) : LifeOk (x.fails i r) := by
  have hl := (List.getElem?_eq_some_iff.1 hi).1
  have ha : Active r := .inr hr
  have hlast : i + 1 = x.readers.length := Classical.byContradiction fun hne => h.one i r hi hne ha
  have hn : ∀ r0 ∈ x.readers.set i { r with phase := .inCallback }, ¬ Active r0 := by
    intro r0 hm ha0
    obtain ⟨j, hj⟩ := List.mem_iff_getElem?.1 hm
    by_cases hij : i = j
    · subst hij
      rw [List.getElem?_set_self hl] at hj
      cases hj
      exact ha0.elim (fun h => nomatch h) fun h => nomatch h
    · rw [List.getElem?_set_ne hij] at hj
      exact h.one j r0 hj (by omega) ha0
  refine ⟨by simpa [Life.fails, Life.shutPort] using h.ports, fun j r0 hj _ => hn r0 (List.mem_of_getElem? hj), fun _ => rfl, fun _ => hn, fun ⟨r0, hm, ha0⟩ => absurd ha0 (hn r0 hm), fun j hj => ?_, ?_⟩
  · have hj' : j < x.readers.length := by
      rcases List.mem_append.1 hj with hj | hj
      · obtain ⟨r1, h1, _⟩ := h.fatal j hj
        exact (List.getElem?_eq_some_iff.1 h1).1
      · rw [List.mem_singleton.1 hj]; exact hl
    have hj2 : j < (x.readers.set i { r with phase := .inCallback }).length := by rw [List.length_set]; exact hj'
    exact ⟨_, List.getElem?_eq_getElem hj2, hn _ (List.getElem_mem hj2)⟩
  · show (x.fatal ++ [i]).Nodup
    refine List.nodup_append.2 ⟨h.nodup, by simp, fun a hm b hb e => ?_⟩
    obtain ⟨r1, h1, h2⟩ := h.fatal a hm
    rw [e, List.mem_singleton.1 hb, hi] at h1
    cases h1
    exact h2 ha

theorem getLast_phase {x : Life} {p : RPhase} (h : x.readers.getLast?.map (·.phase) = some p) : ∃ i r, x.readers[i]? = some r ∧ i + 1 = x.readers.length ∧ r.phase = p := by
  obtain ⟨r, h1, h2⟩ := Option.map_eq_some_iff.1 h
  have hne : x.readers ≠ [] := fun e => by rw [e] at h1; cases h1
  have hpos := List.length_pos_iff.2 hne
  exact ⟨x.readers.length - 1, r, by rw [← List.getLast?_eq_getElem?]; exact h1, by omega, h2⟩

/-- Only `comms`, `app` and `raised` change, and nothing begins or ends. -/
theorem lifeOk_app {x : Life} (h : LifeOk x) {c : Comms} {a : AppPhase} {es : List LifeErr} (hc : a = .joining ∨ a = .shutting → c.alive = false) (hg : a = .shutting → ∀ r ∈ x.readers, ¬ Active r) :
    LifeOk { x with comms := c, app := a, raised := es } := ⟨h.ports, h.one, hc, hg, h.opened, h.fatal, h.nodup⟩

theorem sstep_alive {c : Comms} {e : SEvent} (he : e = .finish ∨ e = .expire) : (sstep c e).alive = c.alive := by
  rcases he with rfl | rfl
  · simp only [sstep]; split <;> rfl
  · simp only [sstep]; split <;> rfl

theorem readChar_alive (s : Comms) (c : Nat) (m : Bool) : (readChar s c m).alive = s.alive := by
  have hh : ∀ (s : Comms) l ct m, (handleLineRead s l ct m).alive = s.alive := by
    intro s l ct m
    unfold handleLineRead
    dsimp only
    split
    · rfl
    · split <;> rfl
  rcases readChar_cases s c m with ⟨l, _, _, h⟩ | ⟨_, h⟩ | ⟨_, q, _, _, h⟩ | ⟨_, _, h⟩ <;> rw [h]
  · exact hh _ _ _ _
  · exact hh _ _ _ _

theorem lifeOk_step {x : Life} (h : LifeOk x) {e : LEvent} (ho : ∀ works, e = .connect works → ∀ r ∈ x.readers, ¬ Active r) : LifeOk (lstep x e) := by
  have reader : ∀ i, e.reader? = some i → LifeOk (lstep x e) := by
    intro i hi
    unfold lstep
    rw [hi]
    dsimp only
    cases hr : x.readers[i]? with
    | none => exact h
    | some r =>
      dsimp only
      cases e <;> simp only [LEvent.reader?, reduceCtorEq, Option.some.injEq] at hi <;> simp only [Life.readerStep]
      · split
        · next ht => exact lifeOk_set h hr rfl fun _ => .inl ht
        · exact h
      · split
        · next ht =>
          split
          · exact lifeOk_set h hr (readChar_alive _ _ _) fun _ => .inr ht
          · exact lifeOk_fails h hr ht
        · exact h
      · split
        · next ht =>
          split
          · exact lifeOk_set h hr rfl fun _ => .inr ht
          · exact lifeOk_fails h hr ht
        · exact h
      · split
        · next ht => exact lifeOk_fails h hr ht
        · exact h
      · split
        · exact lifeOk_set h hr rfl fun ha => ha.elim (fun h => nomatch h) fun h => nomatch h
        · exact h
      · split
        · exact lifeOk_app h (fun _ => rfl) h.gone
        · exact h
  cases he : e.reader? with
  | some i => exact reader i he
  | none =>
    unfold lstep
    rw [he]
    dsimp only
    cases e <;> simp only [LEvent.reader?, reduceCtorEq] at he <;> simp only [Life.appStep]
    · next works =>
      have hno := ho works rfl
      split
      · exact h
      · next hidle =>
        have hidle' : x.app = .idle := Classical.byContradiction hidle
        split
        · refine ⟨by simpa using h.ports, fun i r hi hne => ?_, fun ha => ?_, fun ha => ?_, fun _ => by simp [Life.isOpen], fun i hi => ?_, h.nodup⟩
          · have hlt : i < x.readers.length := by
              have h1 := (List.getElem?_eq_some_iff.1 hi).1
              simp only [List.length_append, List.length_singleton] at h1 hne
              omega
            dsimp only at hi
            rw [List.getElem?_append_left hlt] at hi
            exact hno r (List.mem_of_getElem? hi)
          · dsimp only at ha; rw [hidle'] at ha; exact ha.elim (fun h => nomatch h) fun h => nomatch h
          · dsimp only at ha; rw [hidle'] at ha; cases ha
          · obtain ⟨r, h1, h2⟩ := h.fatal i hi
            exact ⟨r, by dsimp only; rw [List.getElem?_append_left (List.getElem?_eq_some_iff.1 h1).1, h1], h2⟩
        · exact lifeOk_app h h.closing h.gone
    · split
      · exact h
      · split
        · exact lifeOk_app h (fun _ => rfl) h.gone
        · exact lifeOk_app h (fun _ => rfl) fun h => nomatch h
    · split
      · next hj =>
        refine lifeOk_app h (fun _ => h.closing (.inl hj.1)) fun _ r hm ha => ?_
        obtain ⟨i, r0, h1, h2, h3⟩ := getLast_phase hj.2
        obtain ⟨j, hjr⟩ := List.mem_iff_getElem?.1 hm
        by_cases hji : j + 1 = x.readers.length
        · have : j = i := by omega
          subst this
          rw [h1] at hjr
          cases hjr
          exact ha.elim (fun h => by rw [h3] at h; cases h) fun h => by rw [h3] at h; cases h
        · exact h.one j r hjr hji ha
      · exact h
    · split
      · next hs =>
        have hn := h.gone hs
        exact ⟨by simpa [Life.shutPort] using h.ports, h.one, (fun h => h.elim (fun h => nomatch h) fun h => nomatch h), fun h => (nomatch h), fun ⟨r, hm, ha⟩ => absurd ha (hn r hm), h.fatal, h.nodup⟩
      · exact h
    · split
      · exact h
      · next hidle =>
        have hidle' : x.app = .idle := Classical.byContradiction hidle
        split
        · exact lifeOk_app h (fun h => h.elim (fun h => nomatch h) fun h => nomatch h) fun h => nomatch h
        · exact lifeOk_app h (fun h => by rw [hidle'] at h; exact h.elim (fun h => nomatch h) fun h => nomatch h) h.gone
    · split
      · exact lifeOk_app h (fun h => h.elim (fun h => nomatch h) fun h => nomatch h) fun h => nomatch h
      · exact h
    · split
      · exact lifeOk_app h (fun h => h.elim (fun h => nomatch h) fun h => nomatch h) fun h => nomatch h
      · exact h

theorem lifeOk_run {es : List LEvent} : ∀ {x : Life}, LifeOk x → Orderly es x → LifeOk (lrun es x) := by
  induction es with
  | nil => exact fun h _ => h
  | cons e es ih => exact fun h ho => ih (lifeOk_step h ho.1) ho.2

theorem lrun_append (a b : List LEvent) (x : Life) : lrun (a ++ b) x = lrun b (lrun a x) := List.foldl_append

end Gsm
