import Verif.Lemmas.Lifecycle
import Verif.Props.Serial
/-! # Property C81: connections of `SerialComms` from `connect` to `close` -/
namespace Gsm
open List Spec

/-- At any moment only the newest read thread may be active, and then the port is open. -/
theorem C81_one_reader {es : List LEvent} (ho : Orderly es {}) {x : Life} (hx : lrun es = x) :
    (∀ i r, x.readers[i]? = some r → Active r → i + 1 = x.readers.length) ∧ ((∃ r ∈ x.readers, Active r) → x.isOpen = true) := by
  subst hx
  have h := lifeOk_run lifeOk_init ho
  exact ⟨fun i r hi ha => Classical.byContradiction fun hne => h.one i r hi hne ha, h.opened⟩

/-! ### After `close` -/

theorem inactive_step {x : Life} (h : ∀ r ∈ x.readers, ¬ Active r) {e : LEvent} (he : ∀ works, e ≠ .connect works) :
    (∀ r ∈ (lstep x e).readers, ¬ Active r) ∧ (lstep x e).comms.handed = x.comms.handed ∧ (lstep x e).comms.notified = x.comms.notified ∧ (lstep x e).fatal = x.fatal := by
  have hf : ∀ e', e' = .finish ∨ e' = .expire → (sstep x.comms e').handed = x.comms.handed ∧ (sstep x.comms e').notified = x.comms.notified := by
    rintro e' (rfl | rfl)
    · simp only [sstep]; split <;> exact ⟨rfl, rfl⟩
    · simp only [sstep]; split <;> exact ⟨rfl, rfl⟩
  unfold lstep
  cases hr : e.reader? with
  | none =>
    dsimp only
    cases e <;> simp only [LEvent.reader?, reduceCtorEq] at hr <;> simp only [Life.appStep]
    · next w => exact absurd rfl (he w)
    · split
      · exact ⟨h, rfl, rfl, rfl⟩
      · split <;> exact ⟨h, rfl, rfl, rfl⟩
    · split <;> exact ⟨h, rfl, rfl, rfl⟩
    · split <;> exact ⟨h, rfl, rfl, rfl⟩
    · split
      · exact ⟨h, rfl, rfl, rfl⟩
      · split <;> exact ⟨h, rfl, rfl, rfl⟩
    · split
      · exact ⟨h, (hf _ (.inl rfl)).1, (hf _ (.inl rfl)).2, rfl⟩
      · exact ⟨h, rfl, rfl, rfl⟩
    · split
      · exact ⟨h, (hf _ (.inr rfl)).1, (hf _ (.inr rfl)).2, rfl⟩
      · exact ⟨h, rfl, rfl, rfl⟩
  | some i =>
    dsimp only
    cases hi : x.readers[i]? with
    | none => exact ⟨h, rfl, rfl, rfl⟩
    | some r =>
      have hn := h r (List.mem_of_getElem? hi)
      have h1 : r.phase ≠ .top := fun e => hn (.inl e)
      have h2 : r.phase ≠ .reading := fun e => hn (.inr e)
      dsimp only
      cases e <;> simp only [LEvent.reader?, reduceCtorEq] at hr <;> simp only [Life.readerStep, if_neg h1, if_neg h2]
      · exact ⟨h, trivial, trivial, trivial⟩
      · exact ⟨h, trivial, trivial, trivial⟩
      · exact ⟨h, trivial, trivial, trivial⟩
      · exact ⟨h, trivial, trivial, trivial⟩
      · split
        · refine ⟨fun r0 hm => ?_, rfl, rfl, rfl⟩
          rcases List.mem_or_eq_of_mem_set hm with hm | rfl
          · exact h r0 hm
          · exact fun ha => ha.elim (fun h => nomatch h) fun h => nomatch h
        · exact ⟨h, rfl, rfl, rfl⟩
      · split <;> exact ⟨h, rfl, rfl, rfl⟩

theorem inactive_run {es : List LEvent} : ∀ {x : Life}, (∀ r ∈ x.readers, ¬ Active r) → (∀ works, .connect works ∉ es) →
    (∀ r ∈ (lrun es x).readers, ¬ Active r) ∧ (lrun es x).comms.handed = x.comms.handed ∧ (lrun es x).comms.notified = x.comms.notified ∧ (lrun es x).fatal = x.fatal := by
  induction es with
  | nil => exact fun h _ => ⟨h, rfl, rfl, rfl⟩
  | cons e es ih =>
    intro x h hc
    obtain ⟨h1, h2, h3, h4⟩ := inactive_step h (e := e) fun w he => hc w (by rw [he]; simp)
    obtain ⟨h5, h6, h7, h8⟩ := ih h1 fun w hm => hc w (List.mem_cons_of_mem _ hm)
    exact ⟨h5, h6.trans h2, h7.trans h3, h8.trans h4⟩

/-- When `close` returns, the port is closed and no read thread is active. After that, until the next `connect`, no line is handled and neither callback is called. -/
theorem C81_closed {es : List LEvent} (ho : Orderly es {}) {x : Life} (hx : lrun es = x) (hs : x.app = .shutting) {y : Life} (hy : lstep x .shut = y) :
    y.app = .idle ∧ y.isOpen = false ∧ (∀ r ∈ y.readers, ¬ Active r) ∧
    ∀ es', (∀ works, .connect works ∉ es') → (lrun es' y).comms.handed = y.comms.handed ∧ (lrun es' y).comms.notified = y.comms.notified ∧ (lrun es' y).fatal = y.fatal := by
  subst hx
  have h := lifeOk_run lifeOk_init ho
  generalize lrun es = x at h hs hy
  have e1 : lstep x .shut = { x with ports := x.shutPort, app := .idle } := by
    show x.appStep .shut = _
    simp only [Life.appStep, if_pos hs]
  rw [e1] at hy
  subst hy
  refine ⟨rfl, ?_, h.gone hs, fun es' hc => (inactive_run (x := { x with ports := x.shutPort, app := .idle }) (h.gone hs) hc).2⟩
  unfold Life.isOpen Life.shutPort
  dsimp only
  cases hp : x.ports.getLast? with
  | none => rw [List.getLast?_eq_none_iff.1 hp]; rfl
  | some b =>
    obtain ⟨ps, hps⟩ := List.getLast?_eq_some_iff.1 hp
    rw [hps]
    simp

/-- `close` returns: whatever the read thread is doing, it ends when its read times out. (It must not be the read thread that calls `close`.) -/
theorem C81_close_returns (es : List LEvent) {x : Life} (ho : Orderly es {}) (hx : lrun es = x) (hj : x.app = .joining) :
    ∃ es', (∀ e ∈ es', e = .joined ∨ e = .shut ∨ ∃ i, e = .check i ∨ e = .nothing i ∨ e = .returned i) ∧ (lrun es' x).app = .idle ∧ (lrun es' x).isOpen = false := by
  subst hx
  have hok := lifeOk_run lifeOk_init ho
  generalize hx : lrun es = x at hok hj
  have hne : x.readers ≠ [] := by
    have key : ∀ (es : List LEvent) (x : Life), (x.app = .joining → x.readers ≠ []) → (lrun es x).app = .joining → (lrun es x).readers ≠ [] := by
      intro es
      induction es with
      | nil => exact fun x h => h
      | cons e es ih =>
        refine fun x h => ih (lstep x e) ?_
        have hset : ∀ i r, x.readers.set i r ≠ [] ↔ x.readers ≠ [] := fun i r => by simp
        unfold lstep
        cases hr : e.reader? with
        | none =>
          dsimp only
          cases e <;> simp only [LEvent.reader?, reduceCtorEq] at hr <;> simp only [Life.appStep]
          all_goals (repeat' split)
          all_goals first
            | exact h
            | (intro _; assumption)
            | (intro _; simp; done)
            | (intro ha; cases ha; done)
        | some i =>
          dsimp only
          cases hi : x.readers[i]? with
          | none => exact h
          | some r =>
            dsimp only
            cases e <;> simp only [LEvent.reader?, reduceCtorEq] at hr <;> simp only [Life.readerStep, Life.reads, Life.fails]
            all_goals (repeat' split)
            all_goals first
              | exact h
              | exact fun ha => (hset _ _).2 (h ha)
    subst hx
    exact key es {} (fun h => nomatch h) hj
  have hlen := List.length_pos_iff.2 hne
  obtain ⟨n, hn⟩ : ∃ n, n + 1 = x.readers.length := ⟨x.readers.length - 1, by omega⟩
  -- once the read thread has ended
  have final : ∀ y : Life, LifeOk y → y.app = .joining → (∃ r, y.readers[n]? = some r ∧ r.phase = .ended) → n + 1 = y.readers.length →
      (lrun [.joined, .shut] y).app = .idle ∧ (lrun [.joined, .shut] y).isOpen = false := by
    intro y hy h1 ⟨r, h2, h3⟩ h4
    have hl : y.readers.getLast?.map (·.phase) = some .ended := by
      rw [List.getLast?_eq_getElem?, ← h4, Nat.add_sub_cancel, h2, Option.map_some, h3]
    have e1 : lrun [.joined, .shut] y = { y with ports := y.shutPort, app := .idle } := by
      show Life.appStep (Life.appStep y .joined) .shut = _
      simp only [Life.appStep, h1, hl, and_self, if_true]
      rfl
    rw [e1]
    refine ⟨rfl, ?_⟩
    unfold Life.isOpen Life.shutPort
    dsimp only
    cases hp : y.ports.getLast? with
    | none => rw [List.getLast?_eq_none_iff.1 hp]; rfl
    | some b =>
      obtain ⟨ps, hps⟩ := List.getLast?_eq_some_iff.1 hp
      rw [hps]
      simp
  obtain ⟨r, hr⟩ : ∃ r, x.readers[n]? = some r := ⟨_, List.getElem?_eq_getElem (by omega)⟩
  have hal := hok.closing (.inl hj)
  have step : ∀ (e : LEvent) (y : Life) (r : Reader), e.reader? = some n → y.readers[n]? = some r → lstep y e = y.readerStep n r e := by
    intro e y r h1 h2
    unfold lstep
    rw [h1]
    dsimp only
    rw [h2]
  have hself : ∀ r' : Reader, (x.readers.set n r')[n]? = some r' := fun r' => List.getElem?_set_self (by omega)
  have noc : ∀ {e : LEvent} {i : Nat}, e.reader? = some i → ∀ (y : Life) works, e = .connect works → ∀ r ∈ y.readers, ¬ Active r := by
    rintro e i h y works rfl
    cases h
  cases hp : r.phase with
  | ended => exact ⟨[.joined, .shut], by simp, final x hok hj ⟨r, hr, hp⟩ hn⟩
  | inCallback =>
    have e1 : lstep x (.returned n) = { x with readers := x.readers.set n { r with phase := .ended } } := by
      rw [step _ x r rfl hr]
      simp only [Life.readerStep, hp, if_true]
    refine ⟨[.returned n, .joined, .shut], by simp, ?_⟩
    show (lrun [.joined, .shut] (lstep x (.returned n))).app = _ ∧ (lrun [.joined, .shut] (lstep x (.returned n))).isOpen = _
    have hok' := lifeOk_step hok (e := .returned n) (noc rfl x)
    rw [e1] at hok' ⊢
    exact final _ hok' hj ⟨_, hself _, rfl⟩ (by simpa using hn)
  | top =>
    have e1 : lstep x (.check n) = { x with readers := x.readers.set n { r with phase := .ended } } := by
      rw [step _ x r rfl hr]
      simp only [Life.readerStep, hp, if_true, hal, Bool.false_eq_true, if_false]
    refine ⟨[.check n, .joined, .shut], by simp, ?_⟩
    show (lrun [.joined, .shut] (lstep x (.check n))).app = _ ∧ (lrun [.joined, .shut] (lstep x (.check n))).isOpen = _
    have hok' := lifeOk_step hok (e := .check n) (noc rfl x)
    rw [e1] at hok' ⊢
    exact final _ hok' hj ⟨_, hself _, rfl⟩ (by simpa using hn)
  | reading =>
    have hopen := hok.opened ⟨r, List.mem_of_getElem? hr, .inr hp⟩
    have e1 : lstep x (.nothing n) = { x with readers := x.readers.set n { r with phase := .top } } := by
      rw [step _ x r rfl hr]
      simp only [Life.readerStep, hp, if_true, hopen]
    have e2 : lstep { x with readers := x.readers.set n { r with phase := .top } } (.check n) = { x with readers := x.readers.set n { r with phase := .ended } } := by
      rw [step _ _ { r with phase := .top } rfl (hself _)]
      simp only [Life.readerStep, if_true, hal, Bool.false_eq_true, if_false, List.set_set]
    refine ⟨[.nothing n, .check n, .joined, .shut], by simp, ?_⟩
    show (lrun [.joined, .shut] (lstep (lstep x (.nothing n)) (.check n))).app = _ ∧ (lrun [.joined, .shut] (lstep (lstep x (.nothing n)) (.check n))).isOpen = _
    have hok' := lifeOk_step (lifeOk_step hok (e := .nothing n) (noc rfl x)) (e := .check n) (noc rfl _)
    rw [e1, e2] at hok' ⊢
    exact final _ hok' hj ⟨_, hself _, rfl⟩ (by simpa using hn)

/-! ### Fatal errors -/

theorem fatal_step {x : Life} (h : LifeOk x) (e : LEvent) : (lstep x e).fatal = x.fatal ∨ ∃ i, e = .broken i ∧ (lstep x e).fatal = x.fatal ++ [i] := by
  unfold lstep
  cases hr : e.reader? with
  | none =>
    left
    dsimp only
    cases e <;> simp only [LEvent.reader?, reduceCtorEq] at hr <;> simp only [Life.appStep]
    all_goals (repeat' split)
    all_goals rfl
  | some i =>
    dsimp only
    cases hi : x.readers[i]? with
    | none => exact .inl rfl
    | some r =>
      dsimp only
      cases e <;> simp only [LEvent.reader?, reduceCtorEq, Option.some.injEq] at hr <;> simp only [Life.readerStep]
      · left; split <;> rfl
      · left
        split
        · next ht => rw [if_pos (h.opened ⟨r, List.mem_of_getElem? hi, .inr ht⟩)]; rfl
        · rfl
      · left
        split
        · next ht => rw [if_pos (h.opened ⟨r, List.mem_of_getElem? hi, .inr ht⟩)]
        · rfl
      · subst hr
        split
        · exact .inr ⟨_, rfl, rfl⟩
        · exact .inl rfl
      · left; split <;> rfl
      · left; split <;> rfl

/-- The fatal error callback is called at most once by each read thread, only when reading failed (never because of `close`), and the thread reads no more. -/
theorem C81_fatal {es : List LEvent} (ho : Orderly es {}) {x : Life} (hx : lrun es = x) :
    x.fatal.Nodup ∧ ∀ i ∈ x.fatal, .broken i ∈ es ∧ ∃ r, x.readers[i]? = some r ∧ ¬ Active r := by
  subst hx
  have h := lifeOk_run lifeOk_init ho
  refine ⟨h.nodup, fun i hi => ⟨?_, h.fatal i hi⟩⟩
  have key : ∀ (es : List LEvent) (x : Life), LifeOk x → Orderly es x → i ∈ (lrun es x).fatal → i ∈ x.fatal ∨ .broken i ∈ es := by
    intro es
    induction es with
    | nil => exact fun x _ _ h => .inl h
    | cons e es ih =>
      intro x hx ho hi
      rcases ih (lstep x e) (lifeOk_step hx ho.1) ho.2 hi with hi | hi
      · rcases fatal_step hx e with he | ⟨j, rfl, he⟩ <;> rw [he] at hi
        · exact .inl hi
        · rcases List.mem_append.1 hi with hi | hi
          · exact .inl hi
          · exact .inr (by rw [List.mem_singleton.1 hi]; simp)
      · exact .inr (List.mem_cons_of_mem _ hi)
  exact (key es {} lifeOk_init ho hi).elim (fun h => nomatch h) id

/-- No read thread stops in silence: without `close`, each one is active or has called the fatal error callback. -/
theorem C81_ends {es : List LEvent} (ho : Orderly es {}) (hc : NeverClosed es) {x : Life} (hx : lrun es = x) {i : Nat} {r : Reader} (hi : x.readers[i]? = some r) (ha : ¬ Active r) : i ∈ x.fatal := by
  subst hx
  have step : ∀ (x : Life) (e : LEvent), LifeOk x → (∀ works, e = .connect works → ∀ r ∈ x.readers, ¬ Active r) → e ≠ .close → (∀ i, e ≠ .closeWithin i) →
      (∀ i r, x.readers[i]? = some r → ¬ Active r → i ∈ x.fatal) → ((∃ r ∈ x.readers, Active r) → x.comms.alive = true) →
      (∀ i r, (lstep x e).readers[i]? = some r → ¬ Active r → i ∈ (lstep x e).fatal) ∧ ((∃ r ∈ (lstep x e).readers, Active r) → (lstep x e).comms.alive = true) := by
    intro x e hok hcon hcl hcw h1 h2
    have setActive : ∀ {i : Nat} {r r' : Reader} {c : Comms}, x.readers[i]? = some r → Active r → Active r' → c.alive = x.comms.alive →
        (∀ j r0, (x.readers.set i r')[j]? = some r0 → ¬ Active r0 → j ∈ x.fatal) ∧ ((∃ r ∈ x.readers.set i r', Active r) → c.alive = true) := by
      intro i r r' c hi ha ha' hc
      refine ⟨fun j r0 hj hn => ?_, fun _ => hc.trans (h2 ⟨r, List.mem_of_getElem? hi, ha⟩)⟩
      by_cases hij : i = j
      · subst hij
        rw [List.getElem?_set_self (List.getElem?_eq_some_iff.1 hi).1] at hj
        cases hj
        exact absurd ha' hn
      · rw [List.getElem?_set_ne hij] at hj
        exact h1 j r0 hj hn
    unfold lstep
    cases hr : e.reader? with
    | none =>
      dsimp only
      cases e <;> simp only [LEvent.reader?, reduceCtorEq] at hr <;> simp only [Life.appStep]
      · next works =>
        split
        · exact ⟨h1, h2⟩
        · split
          · refine ⟨fun j r0 hj hn => ?_, fun _ => rfl⟩
            dsimp only at hj ⊢
            by_cases hl : j < x.readers.length
            · rw [List.getElem?_append_left hl] at hj
              exact h1 j r0 hj hn
            · rw [List.getElem?_append_right (by omega)] at hj
              have := List.mem_of_getElem? hj
              rw [List.mem_singleton.1 this] at hn
              exact absurd (.inl rfl) hn
          · exact ⟨h1, h2⟩
      · exact absurd rfl hcl
      · split <;> exact ⟨h1, h2⟩
      · split <;> exact ⟨h1, h2⟩
      · split
        · exact ⟨h1, h2⟩
        · split <;> exact ⟨h1, h2⟩
      · split
        · exact ⟨h1, fun h => (sstep_alive (.inl rfl)).trans (h2 h)⟩
        · exact ⟨h1, h2⟩
      · split
        · exact ⟨h1, fun h => (sstep_alive (.inr rfl)).trans (h2 h)⟩
        · exact ⟨h1, h2⟩
    | some i =>
      dsimp only
      cases hi : x.readers[i]? with
      | none => exact ⟨h1, h2⟩
      | some r =>
        have hm := List.mem_of_getElem? hi
        have hfail : r.phase = .reading → (∀ j r0, (x.fails i r).readers[j]? = some r0 → ¬ Active r0 → j ∈ (x.fails i r).fatal) ∧ ((∃ r1 ∈ (x.fails i r).readers, Active r1) → (x.fails i r).comms.alive = true) := by
          intro ht
          have hok' := lifeOk_fails hok hi ht
          refine ⟨fun j r0 hj hn => ?_, fun hact => ?_⟩
          · simp only [Life.fails] at hj ⊢
            by_cases hij : i = j
            · subst hij; simp
            · rw [List.getElem?_set_ne hij] at hj
              exact List.mem_append_left _ (h1 j r0 hj hn)
          · obtain ⟨r0, hm0, ha0⟩ := hact
            obtain ⟨j, hj⟩ := List.mem_iff_getElem?.1 hm0
            simp only [Life.fails] at hj
            by_cases hij : i = j
            · subst hij
              rw [List.getElem?_set_self (List.getElem?_eq_some_iff.1 hi).1] at hj
              cases hj
              exact ha0.elim (fun h => nomatch h) fun h => nomatch h
            · rw [List.getElem?_set_ne hij] at hj
              have a1 := Classical.byContradiction fun hne => hok.one j r0 hj hne ha0
              have a2 := Classical.byContradiction fun hne => hok.one i r hi hne (.inr ht)
              omega
        dsimp only
        cases e <;> simp only [LEvent.reader?, reduceCtorEq, Option.some.injEq] at hr <;> simp only [Life.readerStep]
        · split
          · next ht =>
            have hal := h2 ⟨r, hm, .inl ht⟩
            rw [if_pos hal]
            exact setActive hi (.inl ht) (.inr rfl) rfl
          · exact ⟨h1, h2⟩
        · split
          · next ht =>
            split
            · exact setActive hi (.inr ht) (.inl rfl) (readChar_alive _ _ _)
            · exact hfail ht
          · exact ⟨h1, h2⟩
        · split
          · next ht =>
            split
            · exact setActive hi (.inr ht) (.inl rfl) rfl
            · exact hfail ht
          · exact ⟨h1, h2⟩
        · split
          · next ht => exact hfail ht
          · exact ⟨h1, h2⟩
        · split
          · next ht =>
            have hna : ¬ Active r := fun ha => ha.elim (fun h => by rw [ht] at h; cases h) fun h => by rw [ht] at h; cases h
            refine ⟨fun j r0 hj hn => ?_, fun ⟨r0, hm0, ha0⟩ => ?_⟩
            · dsimp only at hj ⊢
              by_cases hij : i = j
              · subst hij; exact h1 i r hi hna
              · rw [List.getElem?_set_ne hij] at hj
                exact h1 j r0 hj hn
            · rcases List.mem_or_eq_of_mem_set hm0 with hm0 | rfl
              · exact h2 ⟨r0, hm0, ha0⟩
              · exact ha0.elim (fun h => nomatch h) fun h => nomatch h
          · exact ⟨h1, h2⟩
        · next j => exact absurd rfl (hcw j)
  have run : ∀ (es : List LEvent) (x : Life), LifeOk x → Orderly es x → NeverClosed es →
      (∀ i r, x.readers[i]? = some r → ¬ Active r → i ∈ x.fatal) → ((∃ r ∈ x.readers, Active r) → x.comms.alive = true) →
      ∀ i r, (lrun es x).readers[i]? = some r → ¬ Active r → i ∈ (lrun es x).fatal := by
    intro es
    induction es with
    | nil => exact fun x _ _ _ h _ => h
    | cons e es ih =>
      intro x hok ho hc h1 h2
      obtain ⟨h3, h4⟩ := step x e hok ho.1 (hc e (by simp)).1 (hc e (by simp)).2 h1 h2
      exact ih (lstep x e) (lifeOk_step hok ho.1) ho.2 (fun e he => hc e (List.mem_cons_of_mem _ he)) h3 h4
  exact run es {} lifeOk_init ho hc (fun _ _ h => nomatch h) (fun ⟨_, h, _⟩ => nomatch h) i r hi ha

/-! ### Lines -/

/-- What a character does to the buffer, and which lines it completes, does not depend on the lines before. -/
theorem readChar_new (s : Comms) (c : Nat) (m : Bool) : ∃ new b, ∀ h a, (readChar { s with handed := h, alive := a } c m).handed = h ++ new ∧ (readChar { s with handed := h, alive := a } c m).rxBuffer = b := by
  have hr : ∀ (s : Comms) l ct m, (handleLineRead s l ct m).rxBuffer = s.rxBuffer := by
    intro s l ct m
    unfold handleLineRead
    dsimp only
    split
    · rfl
    · split <;> rfl
  unfold readChar
  dsimp only
  by_cases h1 : endsWith (s.rxBuffer ++ [c]) [13, 10] = true
  · simp only [h1, if_true]
    by_cases h2 : (List.take ((s.rxBuffer ++ [c]).length - 2) (s.rxBuffer ++ [c])).length > 0
    · simp only [if_pos h2]
      exact ⟨_, [], fun h a => ⟨handleLineRead_handed _ _ _ _, hr _ _ _ _⟩⟩
    · simp only [if_neg h2]
      exact ⟨[], [], fun h a => ⟨by simp, rfl⟩⟩
  · simp only [Bool.not_eq_true] at h1
    simp only [h1, Bool.false_eq_true, if_false]
    cases h3 : s.expect with
    | none => exact ⟨[], _, fun h a => ⟨by simp, rfl⟩⟩
    | some q =>
      dsimp only
      by_cases h4 : endsWith (s.rxBuffer ++ [c]) q = true
      · simp only [h4, if_true]
        exact ⟨_, [], fun h a => ⟨handleLineRead_handed _ _ _ _, hr _ _ _ _⟩⟩
      · simp only [Bool.not_eq_true] at h4
        simp only [h4, Bool.false_eq_true, if_false]
        exact ⟨[], _, fun h a => ⟨by simp, rfl⟩⟩

/-- `ls` are the lines of each connection when `acc` are the characters. -/
structure Frames (P : PyStr → Prop) (acc : Nat → PyStr) (ls : List (List PyStr)) (x : Life) : Prop where
  len : ls.length = x.readers.length
  handed : x.comms.handed = ls.flatten
  framed : ∀ i r, x.readers[i]? = some r → ∃ l, ls[i]? = some l ∧ Framed P (acc i) l r.rxBuffer
  expect : ∀ q, x.comms.expect = some q → P q
  later : ∀ i, x.readers.length ≤ i → acc i = []

theorem readChar_expect (s : Comms) (c : Nat) (m : Bool) : (readChar s c m).expect = s.expect := by
  have hh : ∀ (s : Comms) l ct m, (handleLineRead s l ct m).expect = s.expect := by
    intro s l ct m
    unfold handleLineRead
    dsimp only
    split
    · rfl
    · split <;> rfl
  rcases readChar_cases s c m with ⟨l, _, _, h3⟩ | ⟨_, h3⟩ | ⟨_, q, _, _, h3⟩ | ⟨_, _, h3⟩ <;> rw [h3]
  · rw [hh]
  · rw [hh]

/-- Nothing is read, and the read threads keep their buffers. -/
theorem frames_same {P : PyStr → Prop} {acc ls} {x y : Life} (h : Frames P acc ls x) (h1 : y.readers.map (·.rxBuffer) = x.readers.map (·.rxBuffer)) (h2 : y.comms.handed = x.comms.handed)
    (h3 : ∀ q, y.comms.expect = some q → P q) : Frames P acc ls y := by
  have hl : y.readers.length = x.readers.length := by simpa using congrArg List.length h1
  refine ⟨h.len.trans hl.symm, h2.trans h.handed, fun i r hi => ?_, h3, fun i hi => h.later i (hl ▸ hi)⟩
  have e : (y.readers.map (·.rxBuffer))[i]? = some r.rxBuffer := by rw [List.getElem?_map, hi]; rfl
  rw [h1, List.getElem?_map] at e
  obtain ⟨r0, e1, e2⟩ := Option.map_eq_some_iff.1 e
  obtain ⟨l, hl1, hl2⟩ := h.framed i r0 e1
  exact ⟨l, hl1, e2 ▸ hl2⟩

theorem set_buffers {rs : List Reader} {i : Nat} {r : Reader} (h : rs[i]? = some r) (p : RPhase) : (rs.set i { r with phase := p }).map (·.rxBuffer) = rs.map (·.rxBuffer) := by
  rw [List.map_set]
  obtain ⟨hl, rfl⟩ := List.getElem?_eq_some_iff.1 h
  apply List.ext_getElem?
  intro j
  by_cases hij : i = j
  · subst hij
    rw [List.getElem?_set_self (by simpa using hl), List.getElem?_map, h]
    rfl
  · rw [List.getElem?_set_ne hij]

theorem sstep_expect {s : Comms} {e : SEvent} (he : e = .finish ∨ e = .expire) {q : PyStr} (h : (sstep s e).expect = some q) : s.expect = some q := by
  rcases he with rfl | rfl
  · simp only [sstep] at h
    split at h
    · cases h
    · exact h
  · simp only [sstep] at h
    split at h
    · cases h
    · exact h

theorem sstep_handed {s : Comms} {e : SEvent} (he : e = .finish ∨ e = .expire) : (sstep s e).handed = s.handed := by
  rcases he with rfl | rfl
  · simp only [sstep]; split <;> rfl
  · simp only [sstep]; split <;> rfl

theorem frames_step {P : PyStr → Prop} {acc ls} {x : Life} (hok : LifeOk x) (h : Frames P acc ls x) (e : LEvent) (hP : ∀ q, q ≠ [] → e = .write (some q) → P q) :
    ∃ ls', Frames P (fun i => acc i ++ readIn i e x) ls' (lstep x e) := by
  have none : (∀ i, readIn i e x = []) → (lstep x e).readers.map (·.rxBuffer) = x.readers.map (·.rxBuffer) → (lstep x e).comms.handed = x.comms.handed →
      (∀ q, (lstep x e).comms.expect = some q → P q) → ∃ ls', Frames P (fun i => acc i ++ readIn i e x) ls' (lstep x e) := by
    intro h0 h1 h2 h3
    have : (fun i => acc i ++ readIn i e x) = acc := funext fun i => by rw [h0 i, List.append_nil]
    rw [this]
    exact ⟨ls, frames_same h h1 h2 h3⟩
  have hbegins : ∀ p, e = .write p → ∀ q, (x.begins p).expect = some q → P q := by
    intro p hp q hq
    simp only [Life.begins] at hq
    cases he : expectOf p with
    | none => rw [he] at hq; exact h.expect q hq
    | some q' =>
      rw [he] at hq
      cases hq
      obtain ⟨rfl, h2⟩ := expectOf_some he
      exact hP _ h2 hp
  cases hr : e.reader? with
  | none =>
    have hst : lstep x e = x.appStep e := by unfold lstep; rw [hr]
    cases e <;> simp only [LEvent.reader?, reduceCtorEq] at hr
    · next works =>
      rw [hst]
      simp only [Life.appStep, readIn, List.append_nil]
      split
      · exact ⟨ls, h⟩
      · split
        · refine ⟨ls ++ [[]], by simp [h.len], by simp [h.handed], fun i r hi => ?_, h.expect, fun i hi => h.later i (by simp at hi; omega)⟩
          dsimp only at hi
          by_cases hl : i < x.readers.length
          · rw [List.getElem?_append_left hl] at hi
            rw [List.getElem?_append_left (h.len ▸ hl)]
            exact h.framed i r hi
          · have hil : i = x.readers.length := by
              have := (List.getElem?_eq_some_iff.1 hi).1
              simp at this
              omega
            subst hil
            rw [List.getElem?_append_right (Nat.le_refl _), Nat.sub_self] at hi
            cases hi
            refine ⟨[], by rw [← h.len, List.getElem?_append_right (Nat.le_refl _), Nat.sub_self]; rfl, ?_⟩
            rw [h.later _ (Nat.le_refl _)]
            exact .rest noEol_nil
        · exact ⟨ls, h.len, h.handed, h.framed, h.expect, h.later⟩
    · refine none (fun _ => rfl) ?_ ?_ ?_ <;> rw [hst] <;> simp only [Life.appStep]
      · split
        · rfl
        · split <;> rfl
      · split
        · rfl
        · split <;> rfl
      · split
        · exact h.expect
        · split <;> exact h.expect
    · refine none (fun _ => rfl) ?_ ?_ ?_ <;> rw [hst] <;> simp only [Life.appStep]
      · split <;> rfl
      · split <;> rfl
      · split <;> exact h.expect
    · refine none (fun _ => rfl) ?_ ?_ ?_ <;> rw [hst] <;> simp only [Life.appStep]
      · split <;> rfl
      · split <;> rfl
      · split <;> exact h.expect
    · next p =>
      refine none (fun _ => rfl) ?_ ?_ ?_ <;> rw [hst] <;> simp only [Life.appStep]
      · split
        · rfl
        · split <;> rfl
      · split
        · rfl
        · split <;> rfl
      · split
        · exact h.expect
        · split <;> exact hbegins p rfl
    · refine none (fun _ => rfl) ?_ ?_ ?_ <;> rw [hst] <;> simp only [Life.appStep]
      · split <;> rfl
      · split
        · exact sstep_handed (.inl rfl)
        · rfl
      · split
        · exact fun q hq => h.expect q (sstep_expect (.inl rfl) hq)
        · exact h.expect
    · refine none (fun _ => rfl) ?_ ?_ ?_ <;> rw [hst] <;> simp only [Life.appStep]
      · split <;> rfl
      · split
        · exact sstep_handed (.inr rfl)
        · rfl
      · split
        · exact fun q hq => h.expect q (sstep_expect (.inr rfl) hq)
        · exact h.expect
  | some i =>
    cases hi : x.readers[i]? with
    | none =>
      have hst : lstep x e = x := by unfold lstep; rw [hr]; dsimp only; rw [hi]
      refine none (fun j => ?_) (by rw [hst]) (by rw [hst]) (by rw [hst]; exact h.expect)
      cases e <;> simp only [LEvent.reader?, reduceCtorEq, Option.some.injEq] at hr <;> try rfl
      subst hr
      simp only [readIn, hi, Option.map_none, reduceCtorEq, false_and, and_false, if_false]
    | some r =>
      have hst : lstep x e = x.readerStep i r e := by unfold lstep; rw [hr]; dsimp only; rw [hi]
      have hfails : (x.fails i r).readers.map (·.rxBuffer) = x.readers.map (·.rxBuffer) := set_buffers hi _
      cases e <;> simp only [LEvent.reader?, reduceCtorEq, Option.some.injEq] at hr
      · refine none (fun _ => rfl) ?_ ?_ ?_ <;> rw [hst] <;> simp only [Life.readerStep]
        · split
          · exact set_buffers hi _
          · rfl
        · split <;> rfl
        · split <;> exact h.expect
      · next j c more =>
        subst hr
        by_cases ht : r.phase = .reading ∧ x.isOpen = true
        · obtain ⟨ht, hop⟩ := ht
          have hlast : j + 1 = x.readers.length := Classical.byContradiction fun hne => hok.one j r hi hne (.inr ht)
          rw [hst]
          simp only [Life.readerStep, ht, hop, if_true]
          obtain ⟨l, hl1, hl2⟩ := h.framed j r hi
          obtain ⟨new, b, hnew⟩ := readChar_new { x.comms with rxBuffer := r.rxBuffer } c more
          have hfr : Framed P (acc j ++ [c]) (l ++ new) b := by
            have := framing_from P [.rx c more] { x.comms with rxBuffer := r.rxBuffer, handed := l, alive := true } (acc j) rfl h.expect (fun q hq => by simp [promptsOf] at hq) hl2
            have e1 : srun [.rx c more] { x.comms with rxBuffer := r.rxBuffer, handed := l, alive := true } = readChar { x.comms with rxBuffer := r.rxBuffer, handed := l, alive := true } c more := rfl
            rw [e1, (hnew l true).1, (hnew l true).2] at this
            simpa [received] using this
          have hx := hnew x.comms.handed x.comms.alive
          have hsplit : ls = ls.take j ++ [l] := by
            have hlen : ls.length = j + 1 := by rw [h.len, ← hlast]
            have h1 := List.take_append_getElem (l := ls) (i := j) (by omega)
            rw [List.take_of_length_le (i := j + 1) (by omega)] at h1
            have h2 : ls[j]'(by omega) = l := (List.getElem?_eq_some_iff.1 hl1).2
            rw [h2] at h1
            exact h1.symm
          have hjl : (ls.take j).length = j := by rw [List.length_take, h.len]; omega
          refine ⟨ls.take j ++ [l ++ new], ?_, ?_, fun k r0 hk => ?_, ?_, fun k hk => ?_⟩
          · simp only [Life.reads, List.length_set, List.length_append, hjl, List.length_singleton]; exact hlast
          · simp only [Life.reads]
            refine hx.1.trans ?_
            rw [h.handed, show ls.flatten = (ls.take j ++ [l]).flatten from congrArg _ hsplit]
            simp
          · simp only [Life.reads] at hk
            by_cases hkj : j = k
            · subst hkj
              rw [List.getElem?_set_self (by omega)] at hk
              cases hk
              refine ⟨l ++ new, by rw [List.getElem?_append_right (by omega), hjl, Nat.sub_self]; rfl, ?_⟩
              simp only [readIn, hi, Option.map_some, ht, hop, and_self, if_true]
              have := hx.2
              dsimp only at this ⊢
              rw [this]
              exact hfr
            · rw [List.getElem?_set_ne hkj] at hk
              have hlt : k < j := by have := (List.getElem?_eq_some_iff.1 hk).1; omega
              obtain ⟨l', hl', hf'⟩ := h.framed k r0 hk
              refine ⟨l', ?_, ?_⟩
              · rw [List.getElem?_append_left (by omega), List.getElem?_take, if_pos hlt]
                exact hl'
              · simp only [readIn, hkj, false_and, if_false, List.append_nil]
                exact hf'
          · simp only [Life.reads]
            rw [readChar_expect]
            exact h.expect
          · simp only [Life.reads, List.length_set] at hk
            have hkj : j ≠ k := by omega
            simp only [readIn, hkj, false_and, if_false, List.append_nil]
            exact h.later k hk
        · refine none (fun k => ?_) ?_ ?_ ?_
          · simp only [readIn, hi, Option.map_some, Option.some.injEq]
            exact if_neg fun hh => ht hh.2
          all_goals rw [hst]; simp only [Life.readerStep]
          all_goals
            split
            · rw [if_neg fun h2 => ht ⟨by assumption, h2⟩]
              first | exact hfails | exact h.expect | rfl
            · first | exact h.expect | rfl
      · refine none (fun _ => rfl) ?_ ?_ ?_ <;> rw [hst] <;> simp only [Life.readerStep]
        · split
          · split
            · exact set_buffers hi _
            · exact hfails
          · rfl
        · split
          · split <;> rfl
          · rfl
        · split
          · split <;> exact h.expect
          · exact h.expect
      · refine none (fun _ => rfl) ?_ ?_ ?_ <;> rw [hst] <;> simp only [Life.readerStep]
        · split
          · exact hfails
          · rfl
        · split <;> rfl
        · split <;> exact h.expect
      · refine none (fun _ => rfl) ?_ ?_ ?_ <;> rw [hst] <;> simp only [Life.readerStep]
        · split
          · exact set_buffers hi _
          · rfl
        · split <;> rfl
        · split <;> exact h.expect
      · refine none (fun _ => rfl) ?_ ?_ ?_ <;> rw [hst] <;> simp only [Life.readerStep]
        · split <;> rfl
        · split <;> rfl
        · split <;> exact h.expect

/-- Each connection is divided into lines by itself: the lines handled are the lines of the first connection, then those of the second, and so on, and what is left of a line when a connection ends does not get into the next. -/
theorem C81_lines {es : List LEvent} (ho : Orderly es {}) {x : Life} (hx : lrun es = x) : ∃ ls : List (List PyStr), ls.length = x.readers.length ∧ x.comms.handed = ls.flatten ∧
    ∀ i r, x.readers[i]? = some r → ∃ l, ls[i]? = some l ∧ Framed (fun q => q ≠ [] ∧ .write (some q) ∈ es) (readBy i es {}) l r.rxBuffer := by
  subst hx
  have run : ∀ (P : PyStr → Prop) (es : List LEvent) (x : Life) acc ls, LifeOk x → Orderly es x → (∀ q, q ≠ [] → .write (some q) ∈ es → P q) → Frames P acc ls x →
      ∃ ls', Frames P (fun i => acc i ++ readBy i es x) ls' (lrun es x) := by
    intro P es
    induction es with
    | nil =>
      intro x acc ls _ _ _ h
      simp only [readBy, List.append_nil]
      exact ⟨ls, h⟩
    | cons e es ih =>
      intro x acc ls hok ho hP h
      obtain ⟨ls1, h1⟩ := frames_step hok h e fun q h1 h2 => hP q h1 (by rw [h2]; simp)
      obtain ⟨ls2, h2⟩ := ih (lstep x e) _ ls1 (lifeOk_step hok ho.1) ho.2 (fun q h1 h2 => hP q h1 (List.mem_cons_of_mem _ h2)) h1
      simp only [List.append_assoc] at h2
      exact ⟨ls2, h2⟩
  obtain ⟨ls, h⟩ := run (fun q => q ≠ [] ∧ .write (some q) ∈ es) es {} (fun _ => []) [] lifeOk_init ho (fun q h1 h2 => ⟨h1, h2⟩)
    ⟨rfl, rfl, fun _ _ h => (nomatch h), fun _ h => (nomatch h), fun _ _ => rfl⟩
  refine ⟨ls, h.len, h.handed, fun i r hi => ?_⟩
  have := h.framed i r hi
  simpa using this

/-- The invariant of `C81_no_loss`. -/
def Kept (x : Life) : Prop := (x.app ≠ .waiting → x.comms.pending = none) ∧ Shuffle (responseLines x.comms) (notificationLines x.comms) x.comms.handed

theorem shuffle_readChar {s : Comms} (h : Shuffle (responseLines s) (notificationLines s) s.handed) (c : Nat) (m : Bool) :
    Shuffle (responseLines (readChar s c m)) (notificationLines (readChar s c m)) (readChar s c m).handed := by
  rcases readChar_cases s c m with ⟨l, _, _, h3⟩ | ⟨_, h3⟩ | ⟨_, q, _, _, h3⟩ | ⟨_, _, h3⟩ <;> rw [h3]
  · exact shuffle_handle (s := { s with rxBuffer := [] }) h l true m
  · exact h
  · exact shuffle_handle (s := { s with rxBuffer := [] }) h _ false m
  · exact h

theorem readChar_pending {s : Comms} (h : s.pending = none) (c : Nat) (m : Bool) : (readChar s c m).pending = none := by
  have hh : ∀ (s : Comms) l ct m, s.pending = none → (handleLineRead s l ct m).pending = none := by
    intro s l ct m h
    unfold handleLineRead
    simp only [h]
    split <;> rfl
  rcases readChar_cases s c m with ⟨l, _, _, h3⟩ | ⟨_, h3⟩ | ⟨_, q, _, _, h3⟩ | ⟨_, _, h3⟩ <;> rw [h3]
  · exact hh _ _ _ _ h
  · exact h
  · exact hh _ _ _ _ h
  · exact h

theorem shuffle_finish {s : Comms} (h : Shuffle (responseLines s) (notificationLines s) s.handed) {e : SEvent} (he : e = .finish ∨ e = .expire) :
    Shuffle (responseLines (sstep s e)) (notificationLines (sstep s e)) (sstep s e).handed := by
  rcases he with rfl | rfl
  · simp only [sstep]
    split
    · next r hp =>
      have e1 : ∀ oc : Outcome, oc.lines = r → responseLines { s with pending := none, expect := none, outcomes := s.outcomes ++ [oc] } = responseLines s := by
        intro oc ho; simp [responseLines, hp, ho]
      rw [e1 _ rfl]
      exact h
    · exact h
  · simp only [sstep]
    split
    · next r b hp =>
      have e1 : ∀ oc : Outcome, oc.lines = r → responseLines { s with pending := none, expect := none, outcomes := s.outcomes ++ [oc] } = responseLines s := by
        intro oc ho; simp [responseLines, hp, ho]
      rw [e1 _ ?_]
      · exact h
      · cases r <;> simp [Outcome.lines]
    · exact h

theorem kept_step {x : Life} (h : Kept x) {e : LEvent} (hw : ∀ p, e = .write p → x.app = .idle → x.isOpen = true) : Kept (lstep x e) := by
  obtain ⟨h1, h2⟩ := h
  cases hr : e.reader? with
  | none =>
    have hst : lstep x e = x.appStep e := by unfold lstep; rw [hr]
    rw [hst]
    cases e <;> simp only [LEvent.reader?, reduceCtorEq] at hr <;> simp only [Life.appStep]
    · split
      · exact ⟨h1, h2⟩
      · split <;> exact ⟨h1, h2⟩
    · split
      · exact ⟨h1, h2⟩
      · next hi =>
        split
        · exact ⟨h1, h2⟩
        · exact ⟨fun _ => h1 fun h => hi (by rw [h]; exact fun h => nomatch h), h2⟩
    · split
      · next hj => exact ⟨fun _ => h1 (by rw [hj.1]; exact fun h => nomatch h), h2⟩
      · exact ⟨h1, h2⟩
    · split
      · next hj => exact ⟨fun _ => h1 (by rw [hj]; exact fun h => nomatch h), h2⟩
      · exact ⟨h1, h2⟩
    · next p =>
      split
      · exact ⟨h1, h2⟩
      · next hi =>
        have hi : x.app = .idle := Classical.byContradiction hi
        rw [if_pos (hw p rfl hi)]
        have hn := h1 (by rw [hi]; exact fun h => nomatch h)
        refine ⟨fun h => absurd rfl h, ?_⟩
        have e1 : responseLines (x.begins p) = responseLines x.comms := by simp [responseLines, Life.begins, hn]
        dsimp only
        rw [e1]
        exact h2
    · split
      · next hp => exact ⟨fun _ => by simp only [sstep, hp], shuffle_finish h2 (.inl rfl)⟩
      · exact ⟨h1, h2⟩
    · split
      · refine ⟨fun _ => ?_, shuffle_finish h2 (.inr rfl)⟩
        simp only [sstep]
        split
        · rfl
        · assumption
      · exact ⟨h1, h2⟩
  | some i =>
    cases hi : x.readers[i]? with
    | none =>
      have hst : lstep x e = x := by unfold lstep; rw [hr]; dsimp only; rw [hi]
      rw [hst]; exact ⟨h1, h2⟩
    | some r =>
      have hst : lstep x e = x.readerStep i r e := by unfold lstep; rw [hr]; dsimp only; rw [hi]
      rw [hst]
      cases e <;> simp only [LEvent.reader?, reduceCtorEq, Option.some.injEq] at hr <;> simp only [Life.readerStep]
      · split <;> exact ⟨h1, h2⟩
      · split
        · split
          · exact ⟨fun h => readChar_pending (s := { x.comms with rxBuffer := r.rxBuffer }) (h1 h) _ _, shuffle_readChar (s := { x.comms with rxBuffer := r.rxBuffer }) h2 _ _⟩
          · exact ⟨h1, h2⟩
        · exact ⟨h1, h2⟩
      · split
        · split <;> exact ⟨h1, h2⟩
        · exact ⟨h1, h2⟩
      · split <;> exact ⟨h1, h2⟩
      · split <;> exact ⟨h1, h2⟩
      · split <;> exact ⟨h1, h2⟩

/-- No line is lost or used twice, over any number of connections, as long as `write` is called only when the port is open. -/
theorem C81_no_loss {es : List LEvent} (hw : WritesWork es {}) {x : Life} (hx : lrun es = x) : Shuffle (responseLines x.comms) (notificationLines x.comms) x.comms.handed := by
  subst hx
  have run : ∀ (es : List LEvent) (x : Life), WritesWork es x → Kept x → Kept (lrun es x) := by
    intro es
    induction es with
    | nil => exact fun x _ h => h
    | cons e es ih => exact fun x hw h => ih (lstep x e) hw.2 (kept_step h hw.1)
  exact (run es {} hw ⟨fun _ => rfl, .nil⟩).2

/-! ### What goes wrong otherwise -/

/-- The read thread `i` reads `s`; `more` tells whether `inWaiting` is positive. -/
def feeds (i : Nat) (s : PyStr) (more : Bool := false) : List LEvent := s.flatMap fun c => [.check i, .got i c more]

/-- `SerialComms.write` fails because the port has been closed, but leaves `_responseEvent` in place. After the next `connect` a notification is taken for its response, and then it is lost. -/
def writeFailed : List LEvent := [.connect true, .check 0, .broken 0, .returned 0, .write none, .connect true] ++ feeds 1 py!"RING\r\n" ++ [.write none] ++ feeds 1 py!"OK\r\n" ++ [.answered]

theorem C81_lost_line : Orderly writeFailed {} ∧ (lrun writeFailed).raised = [.serialException] ∧ (lrun writeFailed).comms.handed = [py!"RING", py!"OK"] ∧
    (lrun writeFailed).comms.outcomes = [.returned [py!"OK"]] ∧ (lrun writeFailed).comms.notified = [] ∧ (lrun writeFailed).comms.notification = [] ∧ (lrun writeFailed).comms.pending = none := by
  refine ⟨?_, by decide +kernel⟩
  have h : ∀ (es : List LEvent) (x : Life), (∀ works, .connect works ∉ es) → Orderly es x := by
    intro es
    induction es with
    | nil => exact fun _ _ => trivial
    | cons e es ih => exact fun x hc => ⟨fun w he => absurd (by rw [he]; simp) (hc w), ih _ fun w hm => hc w (List.mem_cons_of_mem _ hm)⟩
  refine ⟨fun _ _ r hr => (nomatch hr), fun _ h => (nomatch h), fun _ h => (nomatch h), fun _ h => (nomatch h), fun _ h => (nomatch h), fun _ _ r hr => ?_, h _ _ ?_⟩
  · have e : (lstep (lstep (lstep (lstep (lstep {} (.connect true)) (.check 0)) (.broken 0)) (.returned 0)) (.write none)).readers = [⟨.ended, []⟩] := by decide +kernel
    rw [e] at hr
    rw [List.mem_singleton.1 hr]
    exact fun ha => ha.elim (fun h => nomatch h) fun h => nomatch h
  · intro w
    cases w <;> decide +kernel

/-- Two calls of `connect` without `close`: two read threads share the characters, and neither gets the line. -/
def connectedTwice : List LEvent := [.connect true, .connect true] ++ feeds 0 py!"RI" ++ feeds 1 py!"NG\r" ++ feeds 0 py!"\n"

theorem C81_two_readers : (lrun connectedTwice).comms.handed = [] ∧ (lrun connectedTwice).readers.map (·.rxBuffer) = [py!"RI\n", py!"NG\r"] := by decide +kernel

/-- After two calls of `connect`, one read thread is left after `close`; it calls the fatal error callback because the port is closed. -/
theorem C81_false_alarm : let es : List LEvent := [.connect true, .connect true, .check 0, .check 1, .close, .nothing 1, .check 1, .joined, .shut, .nothing 0]
    (∀ i, .broken i ∉ es) ∧ (lrun es).app = .idle ∧ (lrun es).fatal = [0] := by
  refine ⟨fun i => ?_, by decide +kernel⟩
  simp

/-- The lines of a notification that was not complete when the connection broke are delivered with the first notification of the next connection. -/
theorem C81_stale_lines : let es : List LEvent := [.connect true] ++ feeds 0 py!"+CMTI: 1\r\n" true ++ [.check 0, .broken 0, .returned 0, .connect true] ++ feeds 1 py!"RING\r\n"
    (lrun es).comms.notified = [[py!"+CMTI: 1", py!"RING"]] := by decide +kernel

/-- `close` cannot be called before `connect`, nor by the fatal error callback. -/
theorem C81_close_errors : (lrun [.close]).raised = [.attributeError] ∧ (lrun [.connect true, .check 0, .broken 0, .closeWithin 0]).raised = [.runtimeError] := by decide +kernel

/-! ### Examples -/

/-- A program that connects, gets an answer and closes, and connects again. -/
def twoConnections : List LEvent := [.connect true, .write none] ++ feeds 0 py!"OK\r\nRI" ++ [.answered, .close, .check 0, .joined, .shut, .connect true] ++ feeds 1 py!"NG\r\n"

example : (lrun twoConnections).comms.handed = [py!"OK", py!"NG"] ∧ (lrun twoConnections).comms.outcomes = [.returned [py!"OK"]] ∧ (lrun twoConnections).comms.notified = [[py!"NG"]] ∧
    (lrun twoConnections).readers.map (·.rxBuffer) = [py!"RI", []] ∧ readBy 0 twoConnections {} = py!"OK\r\nRI" ∧ readBy 1 twoConnections {} = py!"NG\r\n" ∧
    (lrun twoConnections).fatal = [] ∧ (lrun twoConnections).raised = [] := by decide +kernel

-- `C81_closed` and `C81_close_returns` apply
example : (lrun [.connect true, .close]).app = .joining ∧ (lrun [.connect true, .close, .check 0, .joined]).app = .shutting := by decide +kernel

example : Orderly [.connect true, .close] {} := ⟨fun _ _ _ hr => (nomatch hr), fun _ h => (nomatch h), trivial⟩

-- `C81_ends`: the thread is not active after an error
example : (lrun [.connect true, .check 0, .broken 0]).readers = [⟨.inCallback, []⟩] ∧ (lrun [.connect true, .check 0, .broken 0]).fatal = [0] := by decide +kernel

end Gsm
