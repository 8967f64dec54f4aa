import Verif.Lemmas.Incoming
import Verif.Props.ModemCalls
/-! # Property C67: incoming calls -/
namespace Gsm
open M Spec

variable {env : Env}

theorem nodup_entries {s : St} (h : TableOk s) : (s.activeCalls.map (·.2)).Nodup := by
  obtain ⟨h1, h2⟩ := h
  refine List.Nodup.map_on ?_ (List.Nodup.of_map _ h1)
  rintro ⟨k, i⟩ hx ⟨k', i'⟩ hy (rfl : i = i')
  obtain ⟨c, a1, a2, _⟩ := h2 k i hx
  obtain ⟨d, b1, b2, _⟩ := h2 k' i hy
  rw [a1] at b1; cases b1
  rw [← a2, ← b2]

theorem ring_table {s s1 : St} {line : PyStr} {r : Except PyErr (Option PyStr)} (h : RingType env s line r s1) (ht : TableOk s) : TableOk s1 := by
  cases h <;> exact ht

/-- What follows when the type and the caller are known. -/
theorem rung_run {s : St} (ht : TableOk s) (n ton type : Option PyStr) : ∃ r s2, Rung s n ton type r s2 ∧
    (do
      match ← ringLoop n s.activeCalls none with
      | some i => callback (.incomingCall i)
      | none => do
        let type ← callTypeOf type
        let i ← registerNext { incoming := true, id := 0, type := type, number := n, ton := ton, ringing := true, ringCount := 1 }
        callback (.incomingCall i) : M Unit) env s = (r, s2) := by
  rcases ringLoop_run (env := env) n s.activeCalls none s (nodup_entries ht) with ⟨h1, h2⟩ | ⟨is, j, js, h0, h1, h2, h3⟩
  · rw [run_bind, h2]
    cases hl : (callsIn s n s.activeCalls).getLast? with
    | some j =>
      exact ⟨_, _, .more hl h1, rfl⟩
    | none =>
      have hnil := List.getLast?_eq_none_iff.1 hl
      rw [hnil, ringMore_nil]
      cases type with
      | none => exact ⟨_, _, .new hnil rfl, rfl⟩
      | some t =>
        by_cases hv : t = py!"VOICE"
        · subst hv; exact ⟨_, _, .newVoice hnil rfl, rfl⟩
        · refine ⟨_, _, .otherType hnil rfl hv, ?_⟩
          simp only [Option.or_none, run_bind, callTypeOf, if_neg hv]
          rfl
  · refine ⟨_, _, .ours h0 h1 h2, ?_⟩
    rw [run_bind, h3]

/-- A ring: the type of the call and the caller are found, and the ring is counted or makes a new call. If the
type is missing and the modem does not answer, nothing more is done. -/
theorem C67_incoming (hd : 0 < env.depth) {s : St} (ht : TableOk s) (line : PyStr) (rest : List PyStr) :
    (∃ e s1, RingType env s line (.error e) s1 ∧ handleIncomingCall (line :: rest) env s = (.error e, s1)) ∨
    ∃ type s1 number ton r s2, RingType env s line (.ok type) s1 ∧ Caller s1 rest number ton ∧ Rung s1 number ton type r s2 ∧
      handleIncomingCall (line :: rest) env s = (r, s2) := by
  have h1 := ringType_spec hd line s
  unfold handleIncomingCall
  dsimp only
  rw [run_bind]
  rcases hr : ringType line env s with ⟨_ | type, s1⟩
  · rw [hr] at h1
    exact .inl ⟨_, _, h1, rfl⟩
  · rw [hr] at h1
    obtain ⟨r, s2, h2, h3⟩ := rung_run (env := env) (ring_table h1 ht) (callerOf s1 rest).1 (callerOf s1 rest).2 type
    exact .inr ⟨type, s1, _, _, r, s2, h1, callerOf_spec s1 rest, h2, h3⟩

/-- The line determines the caller. -/
theorem C67_caller {s : St} {lines : List PyStr} {n t n' t' : Option PyStr} (h : Caller s lines n t) (h' : Caller s lines n' t') : n = n' ∧ t = t' :=
  caller_unique h h'

theorem takes_unique {p : Nat → Bool} : ∀ {is is' js js' : List Nat} {j j' : Nat}, is ++ j :: js = is' ++ j' :: js' → (∀ i ∈ is, p i = true) → p j = false →
    (∀ i ∈ is', p i = true) → p j' = false → is = is'
  | [], [], _, _, _, _, _, _, _, _, _ => rfl
  | [], a :: is', _, _, _, _, h, _, hj, h', _ => by
    simp only [List.nil_append, List.cons_append, List.cons.injEq] at h
    rw [h.1, h' a (by simp)] at hj; cases hj
  | a :: is, [], _, _, _, _, h, h1, _, _, hj => by
    simp only [List.nil_append, List.cons_append, List.cons.injEq] at h
    rw [← h.1, h1 a (by simp)] at hj; cases hj
  | a :: is, b :: is', _, _, _, _, h, h1, hj, h', hj' => by
    simp only [List.cons_append, List.cons.injEq] at h
    rw [h.1, takes_unique h.2 (fun i hi => h1 i (by simp [hi])) hj (fun i hi => h' i (by simp [hi])) hj']

/-- So is the effect of the ring determined. -/
theorem C67_unique {s s1 s2 : St} {n ton type : Option PyStr} {r1 r2 : Except PyErr Unit} (h : Rung s n ton type r1 s1) (h' : Rung s n ton type r2 s2) :
    r1 = r2 ∧ s1 = s2 := by
  cases h with
  | more h1 h2 =>
    cases h' with
    | more h3 h4 =>
      rw [h1] at h3
      cases h3
      exact ⟨rfl, rfl⟩
    | ours h3 _ h4 =>
      rw [h2 _ (by rw [h3]; simp)] at h4; cases h4
    | new h3 _ => simp [h3] at h1
    | newVoice h3 _ => simp [h3] at h1
    | otherType h3 _ _ => simp [h3] at h1
  | ours h1 h2 h2' =>
    cases h' with
    | more h3 h4 =>
      rw [h4 _ (by rw [h1]; simp)] at h2'; cases h2'
    | ours h3 h4 h5 =>
      rw [h1] at h3
      rw [takes_unique h3 h2 h2' h4 h5]
      exact ⟨rfl, rfl⟩
    | new h3 _ => simp [h1] at h3
    | newVoice h3 _ => simp [h1] at h3
    | otherType h3 _ _ => simp [h1] at h3
  | new h1 h2 =>
    cases h' with
    | more h3 _ => simp [h1] at h3
    | ours h3 _ _ => simp [h1] at h3
    | new _ _ => exact ⟨rfl, rfl⟩
    | newVoice _ h3 => rw [h2] at h3; cases h3
    | otherType _ h3 _ => rw [h2] at h3; cases h3
  | newVoice h1 h2 =>
    cases h' with
    | more h3 _ => simp [h1] at h3
    | ours h3 _ _ => simp [h1] at h3
    | new _ h3 => rw [h2] at h3; cases h3
    | newVoice _ _ => exact ⟨rfl, rfl⟩
    | otherType _ h3 h4 => rw [h2] at h3; cases h3; exact absurd rfl h4
  | otherType h1 h2 h2' =>
    cases h' with
    | more h3 _ => simp [h1] at h3
    | ours h3 _ _ => simp [h1] at h3
    | new _ h3 => rw [h2] at h3; cases h3
    | newVoice _ h3 => rw [h2] at h3; cases h3; exact absurd rfl h2'
    | otherType _ _ _ => exact ⟨rfl, rfl⟩

/-! ### Examples -/

/-- The modem accepts everything. -/
def ringEnv : Env := { depth := 3, reply := fun _ => .lines [py!"OK"], order := id, order_perm := fun _ => .refl _ }

example : ClipLine py!"+CLIP: \"+27821234567\",145,\"\",,\"\",0" py!"+27821234567" py!"145" :=
  ⟨[32], py!",\"\",,\"\",0", [], by decide, by simp [Spaces], .inr ⟨py!"27821234567", rfl, by simp [Digits]⟩, by simp [Digits], by simp, by decide, .inl rfl⟩

/-- Both indications are on. -/
def ringState : St := { ({} : St) with callingLineIdentification := true, extendedIncomingCallIndication := true }

/-- Two rings. -/
def twoRings : M Unit := do
  handleIncomingCall [py!"+CRING: VOICE", py!"+CLIP: \"+2782\",145"]
  handleIncomingCall [py!"+CRING: VOICE", py!"+CLIP: \"+2782\",145"]

/-- Two rings with a number are one call that has rung twice. -/
example : ((twoRings ringEnv ringState).2.calls.map fun c => (c.number, c.ton, c.ringCount, c.type)) = [(some py!"+2782", some py!"145", 2, some 0)] ∧
    (twoRings ringEnv ringState).2.callbacks = [.incomingCall 0, .incomingCall 0] := by decide +kernel

/-- Without the type, the modem is told to give it. -/
example : (handleIncomingCall [py!"RING"] ringEnv ringState).2.log = [py!"AT+CRC=1\r"] := by decide +kernel

/-- Somebody calls from the number that we are calling: no callback, but an exception. -/
theorem C67_same_number : ∃ s : St, TableOk s ∧ (handleIncomingCall [py!"+CRING: VOICE", py!"+CLIP: \"+2782\",145"] ringEnv s).1 = .error .attributeError ∧
    (handleIncomingCall [py!"+CRING: VOICE", py!"+CLIP: \"+2782\",145"] ringEnv s).2.callbacks = [] :=
  ⟨{ ringState with calls := [newCall py!"+2782" false 1 0], activeCalls := [(1, 0)] },
    ⟨by simp, fun k i h => by simp at h; obtain ⟨rfl, rfl⟩ := h; exact ⟨_, rfl, rfl, rfl⟩⟩, by decide +kernel, by decide +kernel⟩

/-- Two callers without number are taken for one. -/
theorem C67_anonymous : (((do handleIncomingCall [py!"RING"]; handleIncomingCall [py!"RING"]) : M Unit) ringEnv {}).2.calls.map (·.ringCount) = [2] := by decide +kernel

/-- A call that is not a voice call is not reported. -/
theorem C67_fax : (handleIncomingCall [py!"+CRING: FAX"] ringEnv ringState).1 = .error .keyError ∧
    (handleIncomingCall [py!"+CRING: FAX"] ringEnv ringState).2.callbacks = [] := by decide +kernel

end Gsm
