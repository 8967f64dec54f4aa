import Verif.Lemmas.Progress
import Verif.Props.ModemNotify
import Verif.Props.ModemCalls
/-! # Property C65: call progress notifications -/
namespace Gsm
open M Spec

variable {env : Env}

/-! ### Lines -/

/-- The handler a line leads to. -/
def Spec.Progress.run : Progress → M Unit
  | .started a b => handleCallInitiated a b
  | .answered a => handleCallAnswered (some (a : Int))
  | .someAnswered => handleCallAnswered none
  | .ended a => handleCallEnded (some (a : Int)) false false
  | .someRejected => handleCallEnded none true true

theorem none_of {α : Type} {o : Option α} (h : ∀ g, o = some g → False) : o = none := by
  cases o with
  | none => rfl
  | some g => exact (h g rfl).elim

theorem no_ring_of {l : PyStr} {c : Nat} (hc : c ∈ py!"RING") (h : c ∉ l) : ¬ py!"RING" <:+: l := fun hr => h (hr.subset hc)

theorem digit_digits {a : Nat} (h : a ≤ 9) : Digits [48 + a] := ⟨by simp, fun c hc => by simp at hc; omega⟩
theorem pyInt_digit {a : Nat} (h : a ≤ 9) : pyInt [48 + a] = .ok (a : Int) := by
  rw [pyInt_of_digits (digit_digits h)]
  simp [decVal]

theorem end_cases {t : PyStr} {c : Nat} (h : LineEnd t) (hc : c ∈ t) : c = 10 := by
  rcases h with rfl | rfl
  · cases hc
  · simpa using hc

theorem initiated_run (a b : Int) (s : St) : handleCallInitiated a b env s =
    (.ok (), if s.dialEvent.isSome then { s with dialResponse := some (a, b), dialEvent := some true } else s) := by
  unfold handleCallInitiated
  rw [run_bind, run_get]
  dsimp only
  split <;> rfl

theorem run_int {α : Type} {a : Nat} (h : a ≤ 9) (f : Int → M α) (s : St) : (do let x ← ofExcept (pyInt [48 + a]); f x) env s = f a env s := by
  rw [pyInt_digit h, run_bind, run_ofExcept]

/-- Every such line is recognised, and leads to its handler. -/
theorem says_run {t : CallTable} {line : PyStr} {p : Progress} (h : Says t line p) :
    ∃ hd g, Announces (callTable t) line (.call hd g) ∧ ∀ s, runCallHandler hd g env s = p.run env s := by
  cases h with
  | @orig a b t ha hb ht =>
    refine ⟨.initiated, [[48 + a], [48 + b]], .call (before := []) (no_ring_of (c := 78) (by simp) ?_) (by simp) (by simp) (by simp) rfl (by simp)
      (two_iff.2 ⟨a, b, t, ha, hb, rfl, rfl, ht⟩), fun s => ?_⟩
    · have : 78 ∉ t := fun h => absurd (end_cases ht h) (by decide)
      simp; exact ⟨by omega, by omega, this⟩
    · unfold runCallHandler
      dsimp only
      rw [run_bind, run_get]
      dsimp only
      cases hd : s.dialEvent with
      | none => simp only [Progress.run, initiated_run, hd]; rfl
      | some d => rw [if_pos (by rfl), run_int ha, run_int hb]; rfl
  | @conn a b t ha hb ht =>
    refine ⟨.answered, [[48 + a], [48 + b]], .call (before := [(origRegex, .initiated)]) (no_ring_of (c := 82) (by simp) ?_) (by simp) (by simp) (by simp) rfl ?_
      (two_iff.2 ⟨a, b, t, ha, hb, rfl, rfl, ht⟩), fun s => ?_⟩
    · have : 82 ∉ t := fun h => absurd (end_cases ht h) (by decide)
      simp; exact ⟨by omega, by omega, this⟩
    · intro x hx
      rw [List.mem_singleton.1 hx]
      refine none_of fun g hg => ?_
      obtain ⟨_, _, _, _, _, _, h, _⟩ := two_iff.1 hg
      simp at h
    · unfold runCallHandler
      dsimp only
      rw [run_int ha]; rfl
  | @cend a b c d t ha hb hc hd ht =>
    obtain ⟨g, hg⟩ := cend_some ha hb hc hd ht
    have hh : g.head? = some [48 + a] := by
      obtain ⟨a', b', c', d', t', _, _, _, _, _, h, hl⟩ := cend_iff hg
      rw [h]
      simp at hl
      rw [hl.1]
    refine ⟨.ended, g, .call (before := [(origRegex, .initiated), (connRegex, .answered)]) (no_ring_of (c := 82) (by simp) ?_) (by simp) (by simp) (by simp) rfl ?_ hg, fun s => ?_⟩
    · have h1 : 82 ∉ t := fun h => absurd (end_cases ht h) (by decide)
      have h2 : 82 ∉ c := fun h => by have := hc.2 _ h; omega
      have h3 : 82 ∉ d := fun h => by have := hd.2 _ h; omega
      simp; exact ⟨by omega, by omega, h2, h3, h1⟩
    · intro x hx
      simp only [List.mem_cons, List.not_mem_nil, or_false] at hx
      rcases hx with rfl | rfl <;> refine none_of fun g hg => ?_ <;> obtain ⟨_, _, _, _, _, _, h, _⟩ := two_iff.1 hg <;> simp at h
    · cases g with
      | nil => cases hh
      | cons g0 gs =>
        obtain rfl : g0 = [48 + a] := by simpa using hh
        unfold runCallHandler
        dsimp only
        rw [run_int ha]; rfl
  | @wind5 a t ha ht =>
    refine ⟨.initiated, [[48 + a]], .call (before := []) (no_ring_of (c := 82) (by simp) ?_) (by simp) (by simp) (by simp) rfl (by simp)
      (one_iff.2 ⟨a, t, ha, rfl, rfl, ht⟩), fun s => ?_⟩
    · have : 82 ∉ t := fun h => absurd (end_cases ht h) (by decide)
      simp; exact ⟨by omega, this⟩
    · unfold runCallHandler
      dsimp only
      rw [run_bind, run_get]
      dsimp only
      cases hd : s.dialEvent with
      | none => simp only [Progress.run, initiated_run, hd]; rfl
      | some d => rw [if_pos (by rfl), run_int ha]; rfl
  | @wind6 a t ha ht =>
    refine ⟨.ended, [[48 + a]], .call (before := [(wind5Regex, .initiated), (okRegex, .answered)]) (no_ring_of (c := 82) (by simp) ?_) (by simp) (by simp) (by simp) rfl ?_
      (one_iff.2 ⟨a, t, ha, rfl, rfl, ht⟩), fun s => ?_⟩
    · have : 82 ∉ t := fun h => absurd (end_cases ht h) (by decide)
      simp; exact ⟨by omega, this⟩
    · intro x hx
      simp only [List.mem_cons, List.not_mem_nil, or_false] at hx
      rcases hx with rfl | rfl <;> refine none_of fun g hg => ?_
      · obtain ⟨_, _, _, _, h, _⟩ := one_iff.1 hg
        simp at h
      · obtain ⟨_, _, h, _⟩ := bare_iff.1 hg
        simp at h
    · unfold runCallHandler
      dsimp only
      rw [run_int ha]; rfl
  | @wavecomOk t ht =>
    refine ⟨.answered, [], .call (before := [(wind5Regex, .initiated)]) (no_ring_of (c := 82) (by simp) ?_) (by simp) (by simp) (by simp) rfl ?_
      (bare_iff.2 ⟨rfl, t, rfl, ht⟩), fun s => rfl⟩
    · have : 82 ∉ t := fun h => absurd (end_cases ht h) (by decide)
      simpa
    · intro x hx
      rw [List.mem_singleton.1 hx]
      refine none_of fun g hg => ?_
      obtain ⟨_, _, _, _, h, _⟩ := one_iff.1 hg
      simp at h
  | @connect t ht =>
    refine ⟨.answered, [], .call (before := []) (no_ring_of (c := 82) (by simp) ?_) (by simp) (by simp) (by simp) rfl (by simp)
      (bare_iff.2 ⟨rfl, t, rfl, ht⟩), fun s => rfl⟩
    have : 82 ∉ t := fun h => absurd (end_cases ht h) (by decide)
    simpa
  | @hangup b ds t hb hd ht =>
    refine ⟨.ended, [ds], .call (before := [(connectRegex, .answered)]) (no_ring_of (c := 82) (by simp) ?_) (by simp) (by simp) (by simp) rfl ?_
      (hangup_iff.2 ⟨b, ds, t, hb, hd, ht, rfl, rfl⟩), fun s => ?_⟩
    · have h1 : 82 ∉ t := fun h => absurd (end_cases ht h) (by decide)
      have h2 : 82 ∉ b := fun h => absurd (spaces_iff.1 hb _ h) (by decide)
      have h3 : 82 ∉ ds := fun h => by have := hd.2 _ h; omega
      simp; exact ⟨h2, h3, h1⟩
    · intro x hx
      rw [List.mem_singleton.1 hx]
      refine none_of fun g hg => ?_
      obtain ⟨_, _, h, _⟩ := bare_iff.1 hg
      simp at h
    · unfold runCallHandler
      dsimp only
      rw [pyInt_of_digits hd, run_bind, run_ofExcept]; rfl
  | @zteOk t ht =>
    refine ⟨.rejected, [], .call (before := [(connectRegex, .answered), (hangupRegex, .ended)]) (no_ring_of (c := 82) (by simp) ?_) (by simp) (by simp) (by simp) rfl ?_
      (bare_iff.2 ⟨rfl, t, rfl, ht⟩), fun s => rfl⟩
    · have : 82 ∉ t := fun h => absurd (end_cases ht h) (by decide)
      simpa
    · intro x hx
      simp only [List.mem_cons, List.not_mem_nil, or_false] at hx
      rcases hx with rfl | rfl <;> refine none_of fun g hg => ?_
      · obtain ⟨_, _, h, _⟩ := bare_iff.1 hg
        simp at h
      · obtain ⟨_, _, _, _, _, _, _, h⟩ := hangup_iff.1 hg
        simp at h

/-- The recognised lines are exactly the lines of the specification. -/
theorem C65_lines {t : CallTable} {line : PyStr} : (∃ h g, Announces (callTable t) line (.call h g)) ↔ ∃ p, Says t line p := by
  constructor
  · rintro ⟨h, g, ha⟩
    cases ha with
    | call h1 h2 h3 h4 h5 h6 h7 =>
      have hm : ∀ {l b a : List (List Rx × CallHandler)} {x}, l = b ++ x :: a → x ∈ l := by rintro _ _ _ _ rfl; simp
      have := hm h5
      cases t with
      | none => cases this
      | huawei =>
        simp only [callTable, List.mem_cons, List.not_mem_nil, or_false, Prod.mk.injEq] at this
        rcases this with ⟨rfl, _⟩ | ⟨rfl, _⟩ | ⟨rfl, _⟩
        · obtain ⟨_, _, _, ha, hb, _, rfl, ht⟩ := two_iff.1 h7
          exact ⟨_, .orig ha hb ht⟩
        · obtain ⟨_, _, _, ha, hb, _, rfl, ht⟩ := two_iff.1 h7
          exact ⟨_, .conn ha hb ht⟩
        · obtain ⟨_, _, _, _, _, ha, hb, hc, hd, ht, _, rfl⟩ := cend_iff h7
          exact ⟨_, .cend ha hb hc hd ht⟩
      | wavecom =>
        simp only [callTable, List.mem_cons, List.not_mem_nil, or_false, Prod.mk.injEq] at this
        rcases this with ⟨rfl, _⟩ | ⟨rfl, _⟩ | ⟨rfl, _⟩
        · obtain ⟨_, _, ha, _, rfl, ht⟩ := one_iff.1 h7
          exact ⟨_, .wind5 ha ht⟩
        · obtain ⟨_, _, rfl, ht⟩ := bare_iff.1 h7
          exact ⟨_, .wavecomOk ht⟩
        · obtain ⟨_, _, ha, _, rfl, ht⟩ := one_iff.1 h7
          exact ⟨_, .wind6 ha ht⟩
      | zte =>
        simp only [callTable, List.mem_cons, List.not_mem_nil, or_false, Prod.mk.injEq] at this
        rcases this with ⟨rfl, _⟩ | ⟨rfl, _⟩ | ⟨rfl, _⟩
        · obtain ⟨_, _, rfl, ht⟩ := bare_iff.1 h7
          exact ⟨_, .connect ht⟩
        · obtain ⟨_, _, _, hb, hd, ht, _, rfl⟩ := hangup_iff.1 h7
          exact ⟨_, .hangup hb hd ht⟩
        · obtain ⟨_, _, rfl, ht⟩ := bare_iff.1 h7
          exact ⟨_, .zteOk ht⟩
  · rintro ⟨p, hp⟩
    obtain ⟨h, g, ha, _⟩ := says_run (env := goodModem) hp
    exact ⟨h, g, ha⟩

/-! ### Effects -/

def unansweredB (s : St) (i : Nat) : Bool := match s.calls[i]? with | some c => !c.incoming && !c.answered | none => false

theorem unanswered_iff {s : St} {i : Nat} : unansweredB s i = true ↔ Unanswered s i := by
  unfold unansweredB Unanswered
  cases s.calls[i]? <;> simp

theorem first_eq (s : St) : firstOutgoing s true = (s.activeCalls.find? fun e => unansweredB s e.2).map (·.2) := by
  unfold firstOutgoing
  rw [List.find?_map]
  congr 2

theorem first_some {s : St} {e : Int × Nat} : (s.activeCalls.find? fun e => unansweredB s e.2) = some e ↔ FirstUnanswered s e.1 e.2 := by
  rw [List.find?_eq_some_iff_append]
  unfold FirstUnanswered
  constructor
  · rintro ⟨h, b, a, h1, h2⟩
    exact ⟨b, a, h1, unanswered_iff.1 h, fun x hx hu => by have := h2 x hx; rw [unanswered_iff.2 hu] at this; simp at this⟩
  · rintro ⟨b, a, h1, h, h2⟩
    refine ⟨unanswered_iff.2 h, b, a, h1, fun x hx => ?_⟩
    cases hu : unansweredB s x.2
    · rfl
    · exact absurd (unanswered_iff.1 hu) (h2 x hx)

theorem first_none {s : St} : (s.activeCalls.find? fun e => unansweredB s e.2) = none ↔ ∀ k i, (k, i) ∈ s.activeCalls → ¬ Unanswered s i := by
  rw [List.find?_eq_none]
  constructor
  · intro h k i hi hu
    exact h _ hi (unanswered_iff.2 hu)
  · rintro h ⟨k, i⟩ hi hu
    exact h k i hi (unanswered_iff.1 hu)

theorem first_mem {s : St} {k : Int} {i : Nat} (h : FirstUnanswered s k i) : (k, i) ∈ s.activeCalls := by
  obtain ⟨b, a, h, _⟩ := h
  rw [h]; simp

/-- The handlers do what the specification says. -/
theorem run_changes {s : St} (hs : TableOk s) (p : Progress) : Changes s p (p.run env s).1 (p.run env s).2 := by
  cases p with
  | started a b =>
    simp only [Progress.run, initiated_run]
    cases hd : s.dialEvent with
    | none => exact .notAwaited hd
    | some d => exact .awaited (by simp [hd])
  | answered a =>
    simp only [Progress.run, handleCallAnswered, run_bind, run_get]
    cases hg : dictGet s.activeCalls (a : Int) with
    | none => exact .unknown fun i hi => dictGet_none.1 hg (List.mem_map.2 ⟨_, hi, rfl⟩)
    | some i =>
      obtain ⟨c, hc, _⟩ := hs.2 _ _ (dictGet_mem hg)
      dsimp only
      rw [setAnswered_run hc]
      exact .answered (dictGet_mem hg) hc
  | someAnswered =>
    simp only [Progress.run, handleCallAnswered, run_bind, run_get, first_eq]
    cases hf : s.activeCalls.find? fun e => unansweredB s e.2 with
    | none => exact .noneAnswered (first_none.1 hf)
    | some e =>
      have hu := first_some.1 hf
      obtain ⟨c, hc, _⟩ := hs.2 _ _ (first_mem hu)
      simp only [Option.map_some]
      rw [setAnswered_run hc]
      exact .first hu hc
  | ended a =>
    simp only [Progress.run, ended_run, endedId]
    by_cases h0 : (a : Int) = 0
    · simp only [h0, Bool.false_eq_true, if_false, if_true]
      exact .notThere (.inl (by omega))
    · simp only [Bool.false_eq_true, if_false, h0]
      cases hg : dictGet s.activeCalls (a : Int) with
      | none => exact .notThere (.inr fun i hi => dictGet_none.1 hg (List.mem_map.2 ⟨_, hi, rfl⟩))
      | some i =>
        obtain ⟨c, hc, _⟩ := hs.2 _ _ (dictGet_mem hg)
        simp only [hc]
        exact .ended (by omega) (dictGet_mem hg) hc
  | someRejected =>
    simp only [Progress.run, ended_run, endedId, first_eq, if_true]
    cases hf : s.activeCalls.find? fun e => unansweredB s e.2 with
    | none => exact .noneRejected (first_none.1 hf)
    | some e =>
      have hu := first_some.1 hf
      obtain ⟨c, hc, hid, _⟩ := hs.2 _ _ (first_mem hu)
      simp only [Option.map_some, hc, hid]
      by_cases h0 : e.1 = 0
      · rw [if_pos h0]
        rw [h0] at hu
        exact .zero hu
      · rw [if_neg h0, dictGet_of_mem hs.1 (first_mem hu)]
        simp only [hc]
        exact .rejected hu h0 hc

theorem mem_unique {s : St} (hs : TableOk s) {k : Int} {i j : Nat} (hi : (k, i) ∈ s.activeCalls) (hj : (k, j) ∈ s.activeCalls) : i = j := by
  have h1 := dictGet_of_mem hs.1 hi
  rw [dictGet_of_mem hs.1 hj] at h1
  exact (Option.some.inj h1).symm

theorem first_uniq {s : St} {k k' : Int} {i i' : Nat} (h : FirstUnanswered s k i) (h' : FirstUnanswered s k' i') : k = k' ∧ i = i' := by
  have h1 := first_some (e := (k, i)).2 h
  rw [first_some (e := (k', i')).2 h'] at h1
  simpa [eq_comm] using h1

theorem first_absurd {s : St} {k : Int} {i : Nat} (h : FirstUnanswered s k i) (h' : ∀ k i, (k, i) ∈ s.activeCalls → ¬ Unanswered s i) : False := by
  obtain ⟨b, a, h1, h2, _⟩ := id h
  exact h' k i (first_mem h) h2

/-- What happens is determined. -/
theorem changes_unique {s : St} (hs : TableOk s) {p : Progress} {r r' : Except PyErr Unit} {s1 s2 : St} (h : Changes s p r s1) (h' : Changes s p r' s2) : r = r' ∧ s1 = s2 := by
  cases h with
  | awaited h => cases h' with
    | awaited _ => exact ⟨rfl, rfl⟩
    | notAwaited h' => exact (h h').elim
  | notAwaited h => cases h' with
    | awaited h' => exact (h' h).elim
    | notAwaited _ => exact ⟨rfl, rfl⟩
  | answered h hc => cases h' with
    | answered h' hc' =>
      obtain rfl := mem_unique hs h h'
      rw [hc] at hc'; cases hc'; exact ⟨rfl, rfl⟩
    | unknown h' => exact (h' _ h).elim
  | unknown h => cases h' with
    | answered h' _ => exact (h _ h').elim
    | unknown _ => exact ⟨rfl, rfl⟩
  | first h hc => cases h' with
    | first h' hc' =>
      obtain ⟨rfl, rfl⟩ := first_uniq h h'
      rw [hc] at hc'; cases hc'; exact ⟨rfl, rfl⟩
    | noneAnswered h' => exact (first_absurd h h').elim
  | noneAnswered h => cases h' with
    | first h' _ => exact (first_absurd h' h).elim
    | noneAnswered _ => exact ⟨rfl, rfl⟩
  | ended h0 h hc => cases h' with
    | ended _ h' hc' =>
      obtain rfl := mem_unique hs h h'
      rw [hc] at hc'; cases hc'; exact ⟨rfl, rfl⟩
    | notThere h' => rcases h' with h' | h'
                     · exact (h0 h').elim
                     · exact (h' _ h).elim
  | notThere h => cases h' with
    | ended h0 h' _ => rcases h with h | h
                       · exact (h0 h).elim
                       · exact (h _ h').elim
    | notThere _ => exact ⟨rfl, rfl⟩
  | rejected h h0 hc => cases h' with
    | rejected h' _ hc' =>
      obtain ⟨rfl, rfl⟩ := first_uniq h h'
      rw [hc] at hc'; cases hc'; exact ⟨rfl, rfl⟩
    | zero h' => exact (h0 (first_uniq h h').1).elim
    | noneRejected h' => exact (first_absurd h h').elim
  | zero h => cases h' with
    | rejected h' h0 _ => exact (h0 (first_uniq h' h).1).elim
    | zero _ => exact ⟨rfl, rfl⟩
    | noneRejected h' => exact (first_absurd h h').elim
  | noneRejected h => cases h' with
    | rejected h' _ _ => exact (first_absurd h' h).elim
    | zero h' => exact (first_absurd h' h).elim
    | noneRejected _ => exact ⟨rfl, rfl⟩

/-- A line about the progress of a call has exactly the effect of the specification. -/
theorem C65_effect {s s' : St} (hs : TableOk s) {line : PyStr} {p : Progress} (h : Says s.callStatusUpdates line p) {pre post : List PyStr}
    (hpre : ∀ l ∈ pre, ∀ d, ¬ Announces (callTable s.callStatusUpdates) l d) {r : Except PyErr Unit} :
    handleNotification (pre ++ line :: post) env s = (r, s') ↔ Changes s p r s' := by
  obtain ⟨hd, g, ha, hr⟩ := says_run (env := env) h
  rw [C43_first hpre ha]
  simp only [handlerOf, hr]
  have := run_changes (env := env) hs p
  constructor
  · intro he
    rw [he] at this
    exact this
  · intro hc
    obtain ⟨rfl, rfl⟩ := changes_unique hs this hc
    rfl

/-- A line says at most one thing. -/
theorem C65_unique {t : CallTable} {line : PyStr} {p p' : Progress} (h : Says t line p) (h' : Says t line p') : p = p' := by
  obtain ⟨line', hl, h'⟩ : ∃ line', line = line' ∧ Says t line' p' := ⟨line, rfl, h'⟩
  rename_i h0
  clear h0
  cases h with
  | orig => cases h' <;> simp at hl; simp [hl]
  | conn => cases h' <;> simp at hl; simp [hl]
  | cend => cases h' <;> simp at hl; simp [hl]
  | wind5 => cases h' <;> simp at hl; simp [hl]
  | wind6 => cases h' <;> simp at hl; simp [hl]
  | wavecomOk => cases h' <;> simp at hl; rfl
  | connect => cases h' <;> simp at hl; rfl
  | hangup hb hd ht =>
    cases h' with
    | connect => simp at hl
    | zteOk => simp at hl
    | hangup hb' hd' ht' =>
      have h1 := hangup_iff.2 ⟨_, _, _, hb, hd, ht, rfl, rfl⟩
      rw [hl, hangup_iff.2 ⟨_, _, _, hb', hd', ht', rfl, rfl⟩] at h1
      simp at h1
      rw [h1]
  | zteOk => cases h' <;> simp at hl; rfl

/-- Two calls that we dialled: the first has been answered. -/
def twoOutgoing (t : CallTable) : St :=
  { callStatusUpdates := t
    calls := [{ incoming := false, id := 1, type := some 0, number := some py!"0123", answered := true }, { incoming := false, id := 2, type := some 0, number := some py!"0456", callback := true }]
    activeCalls := [(1, 0), (2, 1)] }

theorem twoOutgoing_ok (t : CallTable) : TableOk (twoOutgoing t) := by
  refine ⟨by simp [twoOutgoing], fun k i h => ?_⟩
  simp only [twoOutgoing, List.mem_cons, Prod.mk.injEq, List.not_mem_nil, or_false] at h
  rcases h with ⟨rfl, rfl⟩ | ⟨rfl, rfl⟩ <;> exact ⟨_, rfl, rfl, rfl⟩

example : Says .huawei py!"^CEND:1,0,104,16" (.ended 1) := .cend (c := py!"104") (d := py!"16") (t := []) (a := 1) (b := 0) (by decide) (by decide) (by simp [Digits]) (by simp [Digits]) (.inl rfl)
example : ∃ i c, Changes (twoOutgoing .wavecom) .someAnswered (.ok ()) (markAnswered (twoOutgoing .wavecom) i c) ∧ i = 1 :=
  ⟨1, _, .first (k := 2) ⟨[(1, 0)], [], rfl, ⟨_, rfl, rfl, rfl⟩, by rintro e he ⟨c, hc, _, ha⟩; rw [List.mem_singleton.1 he] at hc; cases hc; cases ha⟩ rfl, rfl⟩
example : (handleNotification [py!"OK"] goodModem (twoOutgoing .wavecom)).2.calls.map (·.answered) = [true, true] := by decide +kernel
example : (handleNotification [py!"OK"] goodModem (twoOutgoing .zte)).2.activeCalls = [(1, 0)] := by decide +kernel
example : (handleNotification [py!"^CEND:1,0,104,16"] goodModem (twoOutgoing .huawei)).2.activeCalls = [(2, 1)] := by decide +kernel

/-- The line `OK` alone says that a call is answered, even when it is the answer to something else; and
nothing tells which call. -/
theorem C65_any_ok {s : St} (hs : TableOk s) (ht : s.callStatusUpdates = .wavecom) {k : Int} {i : Nat} {c : CallObj} (hf : FirstUnanswered s k i) (hc : s.calls[i]? = some c) :
    handleNotification [py!"OK"] env s = (.ok (), markAnswered s i c) :=
  (C65_effect hs (pre := []) (post := []) (line := py!"OK") (p := .someAnswered) (by rw [ht]; exact .wavecomOk (t := []) (.inl rfl)) (by simp)).2 (.first hf hc)

/-- An answer for a call that is not known ends the handler with an exception; an end does not. -/
theorem C65_unknown {s : St} (hs : TableOk s) (ht : s.callStatusUpdates = .huawei) {a b : Nat} (ha : a ≤ 9) (hb : b ≤ 9) (hu : ∀ i, ((a : Int), i) ∉ s.activeCalls) :
    handleNotification [py!"^CONN:" ++ ([48 + a] ++ (py!"," ++ ([48 + b] ++ [])))] env s = (.error .keyError, s) ∧
      handleNotification [py!"^CEND:" ++ ([48 + a] ++ (py!"," ++ ([48 + b] ++ (py!"," ++ (py!"104" ++ (py!"," ++ (py!"16" ++ [])))))))] env s = (.ok (), s) :=
  ⟨(C65_effect hs (pre := []) (post := []) (p := .answered a) (by rw [ht]; exact .conn ha hb (.inl rfl)) (by simp)).2 (.unknown hu),
    (C65_effect hs (pre := []) (post := []) (p := .ended a) (by rw [ht]; exact .cend ha hb (by simp [Digits]) (by simp [Digits]) (.inl rfl)) (by simp)).2 (.notThere (.inr hu))⟩

end Gsm
