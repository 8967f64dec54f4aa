import Verif.Spec.Calls
import Verif.Lemmas.Calls
import Verif.Spec.ExampleModem
import Mathlib.Data.List.Nodup
import Mathlib.Tactic.IntervalCases
/-! # Properties C46 to C48: calls -/
namespace Gsm
open M Spec

variable {env : Env}

/-! ### C46 -/

theorem table_set {a b : St} {i : Nat} {c c' : CallObj} (hc : a.calls[i]? = some c) (hb : b.calls = a.calls.set i c') (hid : c'.id = c.id)
    (hact : c'.active = c.active) (ht : b.activeCalls = a.activeCalls) (h : TableOk a) : TableOk b := by
  refine ⟨ht ▸ h.1, fun k j hk => ?_⟩
  rw [ht] at hk
  obtain ⟨d, h1, h2, h3⟩ := h.2 k j hk
  by_cases hij : j = i
  · subst hij
    rw [hc] at h1
    cases h1
    exact ⟨c', by rw [hb]; exact get_set_self hc, hid.trans h2, hact.trans h3⟩
  · exact ⟨d, by rw [hb, List.getElem?_set_ne (Ne.symm hij)]; exact h1, h2, h3⟩

theorem table_del {a b : St} {i : Nat} {c c' : CallObj} {k : Int} (hc : a.calls[i]? = some c) (hb : b.calls = a.calls.set i c')
    (hk : (k, i) ∈ a.activeCalls ∨ c.id = k) (ht : b.activeCalls = dictDel a.activeCalls k) (h : TableOk a) : TableOk b := by
  refine ⟨ht ▸ dictDel_nodup h.1, fun k' j hk' => ?_⟩
  rw [ht, dictDel_mem] at hk'
  obtain ⟨d, h1, h2, h3⟩ := h.2 k' j hk'.1
  by_cases hij : j = i
  · subst hij
    rw [hc] at h1
    cases h1
    rcases hk with hk | hk
    · obtain ⟨d, g1, g2, _⟩ := h.2 k j hk
      rw [hc] at g1; cases g1
      exact absurd (h2.symm.trans g2) hk'.2
    · exact absurd (h2.symm.trans hk) hk'.2
  · exact ⟨d, by rw [hb, List.getElem?_set_ne (Ne.symm hij)]; exact h1, h2, h3⟩

theorem table_atom (a b : St) (h : Atom env a b) (ha : TableOk a) : TableOk b := by
  cases atom_calls h with
  | same h1 h2 => unfold TableOk; rw [h1, h2]; exact ha
  | ring hc h1 h2 => exact table_set hc h1 rfl rfl h2 ha
  | @new c g1 g2 g3 g4 h1 h2 =>
    refine ⟨h2 ▸ dictSet_nodup ha.1, fun k i hk => ?_⟩
    rw [h2] at hk
    rcases dictSet_mem ha.1 hk with ⟨rfl, rfl⟩ | ⟨_, hk⟩
    · exact ⟨c, by rw [h1]; simp, rfl, g1⟩
    · obtain ⟨d, k1, k2, k3⟩ := ha.2 k i hk
      exact ⟨d, by rw [h1, List.getElem?_append_left (List.getElem?_eq_some_iff.1 k1).1]; exact k1, k2, k3⟩
  | answered hk hc h1 h2 => exact table_set hc h1 rfl rfl h2 ha
  | lost hk hc =>
    obtain ⟨d, k1, _⟩ := ha.2 _ _ (dictGet_mem hk)
    rw [hc] at k1; cases k1
  | ended hk hc h1 h2 => exact table_del hc h1 (.inl (dictGet_mem hk)) h2 ha
  | quiet hc h1 h2 => exact table_set hc h1 (by unfold quiet; split <;> rfl) (by unfold quiet; split <;> rfl) h2 ha
  | hungUp hc h1 h2 => exact table_del hc h1 (.inr rfl) h2 ha
  | answer hc _ _ h1 h2 => exact table_set hc h1 rfl rfl h2 ha

/-- After any history every entry of the table is keyed by the id of its call, and this call is active. -/
theorem C46_table [PyUnicode] {s : St} (h : s.activeCalls = []) (ops : List Op) : TableOk (runOps env ops s) :=
  runOps_inv table_atom ops ⟨by simp [h], by simp [h]⟩

/-- So calls that ended are not in it. -/
theorem C46_ended_not_in_table [PyUnicode] {s : St} (h : s.activeCalls = []) (ops : List Op) {i : Nat} {c : CallObj}
    (hc : (runOps env ops s).calls[i]? = some c) (ha : c.active = false) : ¬ InTable (runOps env ops s) i := by
  rintro ⟨k, hk⟩
  obtain ⟨d, h1, _, h3⟩ := (C46_table h ops).2 k i hk
  rw [hc] at h1; cases h1
  rw [ha] at h3; cases h3

/-- The end of a call: exactly its entry is removed; the call is not active and not answered. -/
theorem C46_call_ended {s : St} (h : TableOk s) {k : Int} {i : Nat} (h0 : k ≠ 0) (hk : (k, i) ∈ s.activeCalls) (f : Bool) :
    ∃ s1 c, handleCallEnded (some k) false f env s = (.ok (), s1) ∧ s1.calls[i]? = some c ∧ c.active = false ∧ c.answered = false ∧
      (∀ k' j, (k', j) ∈ s1.activeCalls ↔ (k', j) ∈ s.activeCalls ∧ k' ≠ k) ∧ (∀ j, j ≠ i → s1.calls[j]? = s.calls[j]?) ∧ ¬ InTable s1 i := by
  obtain ⟨c, h1, h2, h3⟩ := h.2 k i hk
  rw [ended_run]
  simp only [endedId, Bool.false_eq_true, if_false, h0, dictGet_of_mem h.1 hk, h1]
  refine ⟨_, _, rfl, get_set_self h1, rfl, rfl, fun k' j => dictDel_mem, fun j hj => List.getElem?_set_ne (Ne.symm hj), ?_⟩
  rintro ⟨k', hk'⟩
  rw [dictDel_mem] at hk'
  obtain ⟨d, g1, g2, _⟩ := h.2 k' i hk'.1
  rw [h1] at g1; cases g1
  exact hk'.2 (g2.symm.trans h2)

/-- The end of a call that is not known does nothing. -/
theorem C46_unknown_ended {s : St} {k : Int} (hk : k ∉ s.activeCalls.map (·.1)) (f : Bool) : handleCallEnded (some k) false f env s = (.ok (), s) := by
  rw [ended_run]
  simp only [endedId, Bool.false_eq_true, if_false, dictGet_none.2 hk]
  split <;> rfl

/-- A call with id 0 never ends. -/
theorem C46_id_zero (f : Bool) (s : St) : handleCallEnded (some 0) false f env s = (.ok (), s) := by
  rw [ended_run]
  rfl

/-- An accepted hangup removes the entry, and the call is not active any more. -/
theorem C46_hung_up {s s1 : St} (h : TableOk s) {i : Nat} {c : CallObj} (hc : s.calls[i]? = some c) (hh : hangup i env s = (.ok (), s1)) :
    ∃ c1, s1.calls[i]? = some c1 ∧ c1.active = false ∧ c1.ringing = (c.ringing && !c.incoming) ∧
      (∀ k' j, (k', j) ∈ s1.activeCalls ↔ (k', j) ∈ s.activeCalls ∧ k' ≠ c.id) ∧ (∀ j, j ≠ i → s1.calls[j]? = s.calls[j]?) ∧ ¬ InTable s1 i := by
  have hq : (quiet c).ringing = (c.ringing && !c.incoming) := by unfold quiet; split <;> simp_all
  have hn : ∀ {k'}, (k', i) ∈ dictDel s.activeCalls c.id → False := by
    intro k' hk'
    rw [dictDel_mem] at hk'
    obtain ⟨d, g1, g2, _⟩ := h.2 k' i hk'.1
    rw [hc] at g1; cases g1
    exact hk'.2 g2.symm
  cases ha : c.active
  · rw [hangup_inactive hc ha] at hh
    cases hh
    refine ⟨quiet c, get_set_self hc, ?_, hq, fun k' j => dictDel_mem, fun j hj => List.getElem?_set_ne (Ne.symm hj), fun ⟨k', hk'⟩ => hn hk'⟩
    unfold quiet; split <;> exact ha
  · obtain ⟨ok, s2, h1, _, ⟨_, h3⟩ | ⟨_, e, h3⟩⟩ := hangup_active (env := env) hc ha
    · rw [h3] at hh
      cases hh
      exact ⟨_, get_set_self hc, rfl, hq, fun k' j => dictDel_mem, fun j hj => List.getElem?_set_ne (Ne.symm hj), fun ⟨k', hk'⟩ => hn hk'⟩
    · rw [h3] at hh
      cases hh

/-- An outgoing call that is answered is active. -/
def OutgoingOk (s : St) : Prop := ∀ (i : Nat) (c : CallObj), s.calls[i]? = some c → c.incoming = false → c.answered = true → c.active = true

theorem outgoing_set {a b : St} {i : Nat} {c c' : CallObj} (hc : a.calls[i]? = some c) (hb : b.calls = a.calls.set i c')
    (h' : c'.incoming = false → c'.answered = true → c'.active = true) (h : OutgoingOk a) : OutgoingOk b := by
  intro j d hd h1 h2
  by_cases hij : j = i
  · subst hij
    rw [hb, get_set_self hc] at hd
    cases hd
    exact h' h1 h2
  · rw [hb, List.getElem?_set_ne (Ne.symm hij)] at hd
    exact h j d hd h1 h2

theorem outgoing_atom (a b : St) (h : Atom env a b) (ha : TableOk a ∧ OutgoingOk a) : TableOk b ∧ OutgoingOk b := by
  refine ⟨table_atom a b h ha.1, ?_⟩
  obtain ⟨ht, ha⟩ := ha
  cases atom_calls h with
  | same h1 _ => unfold OutgoingOk; rw [h1]; exact ha
  | lost _ _ h1 _ => unfold OutgoingOk; rw [h1]; exact ha
  | @ring i c hc h1 h2 => exact outgoing_set hc h1 (fun k1 k2 => ha i c hc k1 k2) ha
  | @new c g1 g2 g3 g4 h1 h2 =>
    intro j d hd k1 k2
    rw [h1] at hd
    rcases Nat.lt_or_ge j a.calls.length with hj | hj
    · rw [List.getElem?_append_left hj] at hd
      exact ha j d hd k1 k2
    · rw [List.getElem?_append_right hj] at hd
      obtain ⟨rfl⟩ : d = c := by
        have := List.mem_of_getElem? hd
        simpa using this
      exact g1
  | answered hk hc h1 h2 =>
    refine outgoing_set hc h1 (fun _ _ => ?_) ha
    obtain ⟨d, g1, _, g3⟩ := ht.2 _ _ hk
    rw [hc] at g1; cases g1
    exact g3
  | ended hk hc h1 h2 => exact outgoing_set hc h1 (by simp) ha
  | @quiet i c hc h1 h2 =>
    refine outgoing_set hc h1 ?_ ha
    unfold quiet
    split
    · simp_all
    · exact ha i c hc
  | @hungUp i c hc h1 h2 =>
    refine outgoing_set hc h1 ?_ ha
    have : (quiet c).incoming = c.incoming := by unfold quiet; split <;> rfl
    simp only [this, Bool.and_eq_true, Bool.not_eq_true']
    intro h3 ⟨h4, h5⟩
    exact h5.symm.trans (ha i c hc h3 h4)
  | answer hc hi _ h1 h2 => exact outgoing_set hc h1 (by simp [hi]) ha

/-- After any history an outgoing call that is answered is active. -/
theorem C46_outgoing_answered [PyUnicode] {s : St} (h1 : s.activeCalls = []) (h2 : s.calls = []) (ops : List Op) : OutgoingOk (runOps env ops s) :=
  (runOps_inv outgoing_atom ops ⟨⟨by simp [h1], by simp [h1]⟩, by simp [OutgoingOk, h2]⟩).2

/-- Hanging up a call that has ended removes the entry of another call that has its id by now; that call stays active and nothing is written. -/
theorem C46_other_removed {s : St} (h : TableOk s) {i j : Nat} {c : CallObj} (hc : s.calls[i]? = some c) (ha : c.active = false) (hj : (c.id, j) ∈ s.activeCalls) :
    ∃ s1 d, hangup i env s = (.ok (), s1) ∧ s1.log = s.log ∧ s1.calls[j]? = some d ∧ d.active = true ∧ ¬ InTable s1 j := by
  obtain ⟨d, h1, h2, h3⟩ := h.2 _ _ hj
  have hij : i ≠ j := by
    rintro rfl
    rw [hc] at h1; cases h1
    rw [ha] at h3; cases h3
  rw [hangup_inactive hc ha]
  refine ⟨_, d, rfl, rfl, (List.getElem?_set_ne hij).trans h1, h3, ?_⟩
  rintro ⟨k', hk'⟩
  rw [dictDel_mem] at hk'
  obtain ⟨d', g1, g2, _⟩ := h.2 k' j hk'.1
  rw [h1] at g1; cases g1
  exact hk'.2 (g2.symm.trans h2)

/-- The example: two calls come in, the first is hung up. -/
def twoCalls : List Op := [.event (.notify [py!"+CRING: VOICE", py!"+CLIP: \"+111\",145"]), .event (.notify [py!"+CRING: VOICE", py!"+CLIP: \"+222\",145"])]

attribute [local instance] asciiUnicode in
example : (runOps goodModem twoCalls (connected goodModem)).activeCalls = [(1, 0), (2, 1)] ∧
    (runOps goodModem (twoCalls ++ [.hangup 0]) (connected goodModem)).activeCalls = [(2, 1)] := by decide +kernel
example : (connected goodModem).activeCalls = [] ∧ (connected goodModem).calls = [] := by decide +kernel

/-! ### A ring -/

theorem ringLoop_keeps (n : Option PyStr) : ∀ (l : List (Int × Nat)) (o : Option Nat) (s : St),
    (ringLoop n l o env s).2.activeCalls = s.activeCalls ∧ (ringLoop n l o env s).2.calls.length = s.calls.length
  | [], o, s => ⟨rfl, rfl⟩
  | (k, i) :: l, o, s => by
    unfold ringLoop
    rw [run_bind, run_get]
    dsimp only
    cases hc : s.calls[i]? with
    | none => exact ringLoop_keeps n l o s
    | some c =>
      dsimp only
      split
      · split
        · rw [run_bind, run_modify]
          have := ringLoop_keeps n l (some i) { s with calls := s.calls.modify i fun c => { c with ringCount := c.ringCount + 1 } }
          exact ⟨this.1, this.2.trans (by simp)⟩
        · exact ⟨rfl, rfl⟩
      · exact ringLoop_keeps n l o s

/-- No active call has this number. -/
def NoSuch (s : St) (n : Option PyStr) : Prop := ∀ k i c, (k, i) ∈ s.activeCalls → s.calls[i]? = some c → c.number ≠ n

theorem ringLoop_none {n : Option PyStr} {s : St} : ∀ {l : List (Int × Nat)} {o : Option Nat}, (∀ k i c, (k, i) ∈ l → s.calls[i]? = some c → c.number ≠ n) →
    ringLoop n l o env s = (.ok o, s)
  | [], o, h => rfl
  | (k, i) :: l, o, h => by
    unfold ringLoop
    rw [run_bind, run_get]
    have ih := ringLoop_none (l := l) (o := o) fun k' j c hj => h k' j c (List.mem_cons_of_mem _ hj)
    dsimp only
    cases hc : s.calls[i]? with
    | none => exact ih
    | some c =>
      dsimp only
      rw [if_neg (h k i c List.mem_cons_self hc)]
      exact ih

theorem ringType_keeps (l : PyStr) (s : St) : callPart (ringType l env s).2 = callPart s ∧ (ringType l env s).2.callingLineIdentification = s.callingLineIdentification := by
  have : Steps env (Frame (fun _ => True) fun s => (callPart s, s.callingLineIdentification)) (ringType l) := by
    unfold ringType
    (steps frame_pre) <;> first | exact frame_write trivial (fun _ _ _ => rfl) | exact frame_same rfl rfl
  have := (this.run s).2
  exact ⟨congrArg Prod.fst this, congrArg Prod.snd this⟩

theorem callerOf_congr {s s1 : St} (h : s1.callingLineIdentification = s.callingLineIdentification) (lines : List PyStr) : callerOf s1 lines = callerOf s lines := by
  unfold callerOf; rw [h]

theorem callTypeOf_state (o : Option PyStr) (s : St) : (callTypeOf o env s).2 = s := by
  unfold callTypeOf
  split
  · rfl
  · split <;> rfl

/-- What an incoming call does to the table. -/
theorem incoming_table (lines : List PyStr) (s : St) : (handleIncomingCall lines env s).2.activeCalls = s.activeCalls ∨
    (handleIncomingCall lines env s).2.activeCalls = dictSet s.activeCalls ((s.activeCalls.length : Int) + 1) s.calls.length := by
  cases lines with
  | nil => exact .inl rfl
  | cons l lines =>
    unfold handleIncomingCall
    dsimp only
    rw [run_bind]
    obtain ⟨h1, h2⟩ := ringType_keeps (env := env) l s
    have h3 : (ringType l env s).2.activeCalls = s.activeCalls := congrArg Prod.snd h1
    have h4 : (ringType l env s).2.calls = s.calls := congrArg Prod.fst h1
    generalize ringType l env s = r at *
    obtain ⟨r, s1⟩ := r
    dsimp only at *
    cases r with
    | error e => exact .inl h3
    | ok t =>
      dsimp only
      rw [run_bind, run_get]
      dsimp only
      rw [run_bind]
      obtain ⟨h5, h6⟩ := ringLoop_keeps (env := env) (callerOf s1 lines).1 s1.activeCalls none s1
      generalize ringLoop (callerOf s1 lines).1 s1.activeCalls none env s1 = r at *
      obtain ⟨r, s2⟩ := r
      dsimp only at *
      rw [h3] at h5
      rw [h4] at h6
      cases r with
      | error e => exact .inl h5
      | ok o =>
        cases o with
        | some i => exact .inl h5
        | none =>
          dsimp only
          rw [run_bind]
          have h7 := callTypeOf_state (env := env) t s2
          generalize callTypeOf t env s2 = r at *
          obtain ⟨r, s3⟩ := r
          dsimp only at h7
          subst h7
          cases r with
          | error e => exact .inl h5
          | ok ty =>
            refine .inr ?_
            show dictSet s3.activeCalls ((s3.activeCalls.length : Int) + 1) s3.calls.length = _
            rw [h5, h6]

/-! ### C47 -/

theorem contiguous_next {d : List (Int × Nat)} {v : Nat} (h1 : (d.map (·.1)).Nodup) (h2 : ∀ k : Int, k ∈ d.map (·.1) ↔ 1 ≤ k ∧ k ≤ d.length) :
    (((dictSet d ((d.length : Int) + 1) v).map (·.1)).Nodup ∧ ∀ k : Int, k ∈ (dictSet d ((d.length : Int) + 1) v).map (·.1) ↔ 1 ≤ k ∧ k ≤ (dictSet d ((d.length : Int) + 1) v).length) ∧
    ∀ e ∈ d, e ∈ dictSet d ((d.length : Int) + 1) v := by
  have hn : (d.length : Int) + 1 ∉ d.map (·.1) := by rw [h2]; omega
  have hk : (dictSet d ((d.length : Int) + 1) v).map (·.1) = d.map (·.1) ++ [(d.length : Int) + 1] := by rw [dictSet_keys, if_neg hn]
  have hl : (dictSet d ((d.length : Int) + 1) v).length = d.length + 1 := by
    have := congrArg List.length hk
    simpa using this
  refine ⟨⟨dictSet_nodup h1, fun k => ?_⟩, fun ⟨k, i⟩ he => ?_⟩
  · rw [hk, hl, List.mem_append, h2, List.mem_singleton]
    push_cast
    omega
  · refine dictGet_mem ?_
    rw [dictGet_set, if_neg, dictGet_of_mem h1 he]
    rintro rfl
    exact hn (List.mem_map.2 ⟨_, he, rfl⟩)

/-- While the ids are contiguous, no incoming call takes over an entry, and the ids stay contiguous. -/
theorem C47_incoming_safe {s : St} (h : Contiguous s) (lines : List PyStr) :
    Contiguous (handleIncomingCall lines env s).2 ∧ ∀ e ∈ s.activeCalls, e ∈ (handleIncomingCall lines env s).2.activeCalls := by
  unfold Contiguous
  rcases incoming_table (env := env) lines s with h1 | h1 <;> rw [h1]
  · exact ⟨h, fun e he => he⟩
  · exact contiguous_next h.1 h.2

/-- A call that is dialled without waiting for its id. -/
theorem dial_table (number : PyStr) (t : Nat) (cb : Bool) (es : List Event) {s : St} (hw : s.waitForCallInitUpdate = false) :
    ((∃ e, (dial number t cb es env s).1 = .error e) ∧ (dial number t cb es env s).2.activeCalls = s.activeCalls) ∨
    ((dial number t cb es env s).1 = .ok s.calls.length ∧
      (dial number t cb es env s).2.activeCalls = dictSet s.activeCalls ((s.activeCalls.length : Int) + 1) s.calls.length ∧
      (dial number t cb es env s).2.calls = s.calls ++ [{ incoming := false, id := (s.activeCalls.length : Int) + 1, type := some 0, number := some number, callback := cb }]) := by
  unfold dial
  rw [run_bind, run_get]
  dsimp only
  rw [hw]
  simp only [Bool.false_eq_true, if_false]
  rw [run_bind]
  have h1 : callPart (writeAtd number env s).2 = callPart s := by
    have : Steps env (Frame (fun _ => True) callPart) (writeAtd number) := by
      unfold writeAtd
      (steps frame_pre) <;> first | exact frame_write trivial (fun _ _ _ => rfl) | exact ⟨fun s => ⟨⟨[_], rfl, fun _ _ => trivial⟩, rfl⟩⟩
    exact (this.run s).2
  have h3 : (writeAtd number env s).2.activeCalls = s.activeCalls := congrArg Prod.snd h1
  have h4 : (writeAtd number env s).2.calls = s.calls := congrArg Prod.fst h1
  generalize writeAtd number env s = r at *
  obtain ⟨r, s1⟩ := r
  dsimp only at *
  cases r with
  | error e => exact .inl ⟨⟨e, rfl⟩, h3⟩
  | ok u =>
    refine .inr ⟨?_, ?_, ?_⟩
    · show Except.ok s1.calls.length = _
      rw [h4]
    · show dictSet s1.activeCalls ((s1.activeCalls.length : Int) + 1) s1.calls.length = _
      rw [h3, h4]
    · show s1.calls ++ [_] = _
      rw [h4, h3]

theorem C47_dial_safe {s : St} (h : Contiguous s) (hw : s.waitForCallInitUpdate = false) (number : PyStr) (t : Nat) (cb : Bool) (es : List Event) :
    Contiguous (dial number t cb es env s).2 ∧ ∀ e ∈ s.activeCalls, e ∈ (dial number t cb es env s).2.activeCalls := by
  unfold Contiguous
  rcases dial_table (env := env) number t cb es hw with ⟨_, h1⟩ | ⟨_, h1, _⟩ <;> rw [h1]
  · exact ⟨h, fun e he => he⟩
  · exact contiguous_next h.1 h.2

/-- A first ring of a caller: a new call. -/
theorem incoming_new {s : St} (hx : s.extendedIncomingCallIndication = false) (l : PyStr) (lines : List PyStr) (hn : NoSuch s (callerOf s lines).1) :
    handleIncomingCall (l :: lines) env s = (.ok (), { s with calls := s.calls ++ [{ incoming := true, id := (s.activeCalls.length : Int) + 1, type := none, number := (callerOf s lines).1, ton := (callerOf s lines).2, ringing := true, ringCount := 1 }], activeCalls := dictSet s.activeCalls ((s.activeCalls.length : Int) + 1) s.calls.length, callbacks := .incomingCall s.calls.length :: s.callbacks }) := by
  have h1 : ringType l env s = (.ok none, s) := by
    unfold ringType
    rw [run_bind, run_get]
    dsimp only
    rw [hx]
    rfl
  unfold handleIncomingCall
  dsimp only
  rw [run_bind, h1]
  dsimp only
  rw [run_bind, run_get]
  dsimp only
  rw [run_bind, ringLoop_none hn]
  rfl

theorem taken_over {s s1 : St} {k : Int} {j : Nat} (h : TableOk s) (hj : (k, j) ∈ s.activeCalls) (ht : s1.activeCalls = dictSet s.activeCalls k s.calls.length)
    (hc : ∀ i, i < s.calls.length → s1.calls[i]? = s.calls[i]?) : ¬ InTable s1 j ∧ ∃ d, s1.calls[j]? = some d ∧ d.active = true := by
  obtain ⟨d, h1, h2, h3⟩ := h.2 _ _ hj
  have hl : j < s.calls.length := (List.getElem?_eq_some_iff.1 h1).1
  refine ⟨?_, d, (hc j hl).trans h1, h3⟩
  rintro ⟨k', hk'⟩
  rw [ht] at hk'
  rcases dictSet_mem h.1 hk' with ⟨_, rfl⟩ | ⟨hne, hm⟩
  · omega
  · obtain ⟨d', g1, g2, _⟩ := h.2 _ _ hm
    rw [h1] at g1; cases g1
    exact hne (g2.symm.trans h2)

/-- If an active call has the id that is one more than the number of active calls, the next incoming call takes it over: the other call is lost. -/
theorem C47_incoming_takes_over {s : St} (h : TableOk s) (hx : s.extendedIncomingCallIndication = false) (l : PyStr) (lines : List PyStr)
    (hn : NoSuch s (callerOf s lines).1) {j : Nat} (hj : ((s.activeCalls.length : Int) + 1, j) ∈ s.activeCalls) :
    ¬ InTable (handleIncomingCall (l :: lines) env s).2 j ∧ ∃ d, (handleIncomingCall (l :: lines) env s).2.calls[j]? = some d ∧ d.active = true := by
  rw [incoming_new hx l lines hn]
  exact taken_over h hj rfl fun i hi => List.getElem?_append_left hi

/-- So does the next call that is dialled without waiting for its id. -/
theorem C47_dial_takes_over {s s1 : St} (h : TableOk s) (hw : s.waitForCallInitUpdate = false) {number : PyStr} {t : Nat} {cb : Bool} {es : List Event} {i j : Nat}
    (hd : dial number t cb es env s = (.ok i, s1)) (hj : ((s.activeCalls.length : Int) + 1, j) ∈ s.activeCalls) :
    ¬ InTable s1 j ∧ ∃ d, s1.calls[j]? = some d ∧ d.active = true := by
  rcases dial_table (env := env) number t cb es hw with ⟨⟨e, h1⟩, _⟩ | ⟨_, h1, h2⟩
  · rw [hd] at h1; cases h1
  · rw [hd] at h1 h2
    refine taken_over h hj h1 fun i hi => ?_
    dsimp only at h2
    rw [h2]
    exact List.getElem?_append_left hi

theorem dictDel_length {d : List (Int × Nat)} {k : Int} (h : (d.map (·.1)).Nodup) (hk : k ∈ d.map (·.1)) : (dictDel d k).length + 1 = d.length := by
  induction d with
  | nil => simp at hk
  | cons p d ih =>
    simp only [List.map_cons, List.nodup_cons] at h
    unfold dictDel
    rw [List.filter_cons]
    by_cases hp : p.1 = k
    · have : ∀ e ∈ d, decide (e.1 ≠ k) = true := by
        rintro e he
        simp only [ne_eq, decide_not, Bool.not_eq_eq_eq_not, Bool.not_true, decide_eq_false_iff_not]
        rintro rfl
        exact h.1 (hp ▸ List.mem_map.2 ⟨e, he, rfl⟩)
      simp only [hp, ne_eq, not_true_eq_false, decide_false, Bool.false_eq_true, if_false]
      rw [List.filter_eq_self.2 this]
      rfl
    · have hk' : k ∈ d.map (·.1) := by
        rcases List.mem_cons.1 hk with h1 | h1
        · exact absurd h1.symm hp
        · exact h1
      simp only [ne_eq, hp, not_false_eq_true, decide_true, if_true, List.length_cons]
      have := ih h.2 hk'
      unfold dictDel at this
      simp only [ne_eq] at this
      omega

/-- When one of several calls ends that is not the last one, the last one has the id that the next call gets. -/
theorem C47_end_collides {s s1 : St} (h : Contiguous s) {k : Int} (h1 : 1 ≤ k) (h2 : k < s.activeCalls.length) (ht : s1.activeCalls = dictDel s.activeCalls k) :
    ((s1.activeCalls.length : Int) + 1) ∈ s1.activeCalls.map (·.1) := by
  have hl : (dictDel s.activeCalls k).length + 1 = s.activeCalls.length := dictDel_length h.1 ((h.2 k).2 ⟨h1, by omega⟩)
  have : ((s1.activeCalls.length : Int) + 1) = (s.activeCalls.length : Int) := by rw [ht]; omega
  rw [this]
  obtain ⟨⟨k', i⟩, hm, hk⟩ := List.mem_map.1 ((h.2 (s.activeCalls.length : Int)).2 ⟨by omega, by omega⟩)
  dsimp only at hk
  subst hk
  rw [ht]
  exact List.mem_map.2 ⟨_, dictDel_mem.2 ⟨hm, by omega⟩, rfl⟩

/-- When the last one ends, the ids stay contiguous. -/
theorem C47_end_last {s s1 : St} (h : Contiguous s) (h0 : s.activeCalls ≠ []) (ht : s1.activeCalls = dictDel s.activeCalls s.activeCalls.length) : Contiguous s1 := by
  have hp : 0 < s.activeCalls.length := List.length_pos_iff.2 h0
  have hl : (dictDel s.activeCalls (s.activeCalls.length : Int)).length + 1 = s.activeCalls.length := dictDel_length h.1 ((h.2 _).2 ⟨by omega, by omega⟩)
  unfold Contiguous
  rw [ht]
  refine ⟨dictDel_nodup h.1, fun k => ?_⟩
  constructor
  · intro hk
    obtain ⟨⟨k', i⟩, hm, rfl⟩ := List.mem_map.1 hk
    rw [dictDel_mem] at hm
    have := (h.2 k').1 (List.mem_map.2 ⟨_, hm.1, rfl⟩)
    have := hm.2
    dsimp only
    omega
  · intro hk
    obtain ⟨⟨k', i⟩, hm, rfl⟩ := List.mem_map.1 ((h.2 k).2 ⟨hk.1, by omega⟩)
    dsimp only at hk
    exact List.mem_map.2 ⟨_, dictDel_mem.2 ⟨hm, by omega⟩, rfl⟩

/-- Three calls come in; the first is hung up before the third rings. -/
def threeCalls : List Op := twoCalls ++ [.hangup 0, .event (.notify [py!"+CRING: VOICE", py!"+CLIP: \"+333\",145"])]

attribute [local instance] asciiUnicode in
/-- So a call that is active need not be in the table. -/
theorem C47_witness : ¬ ∀ (ops : List Op) (i : Nat) (c : CallObj), (runOps goodModem ops (connected goodModem)).calls[i]? = some c → c.active = true →
    InTable (runOps goodModem ops (connected goodModem)) i := by
  intro h
  have h1 : ((runOps goodModem threeCalls (connected goodModem)).calls[1]?).map (·.active) = some true := by decide +kernel
  have h2 : (runOps goodModem threeCalls (connected goodModem)).activeCalls = [(2, 2)] := by decide +kernel
  rw [Option.map_eq_some_iff] at h1
  obtain ⟨c, hc, ha⟩ := h1
  obtain ⟨k, hk⟩ := h threeCalls 1 c hc ha
  rw [h2] at hk
  simp at hk

attribute [local instance] asciiUnicode in
example : (runOps goodModem twoCalls (connected goodModem)).calls.map (·.number) = [some py!"+111", some py!"+222"] := by decide +kernel
example : Contiguous { activeCalls := [(2, 5), (1, 3)] : St } := by
  refine ⟨by decide, fun k => ?_⟩
  simp
  omega

/-! ### C48 -/

/-- What stays so whatever happens: a call that ended does not become active, one that does not ring does not ring again. -/
def Later (a b : St) : Prop := ∀ (i : Nat) (c : CallObj), a.calls[i]? = some c → ∃ c', b.calls[i]? = some c' ∧ c'.incoming = c.incoming ∧ c'.id = c.id ∧
  (c.active = false → c'.active = false) ∧ (c.ringing = false → c'.ringing = false)

theorem Later.refl (s : St) : Later s s := fun _ c h => ⟨c, h, rfl, rfl, id, id⟩
theorem Later.trans {a b c : St} (h1 : Later a b) (h2 : Later b c) : Later a c := by
  intro i d hd
  obtain ⟨d1, e1, e2, e3, e4, e5⟩ := h1 i d hd
  obtain ⟨d2, f1, f2, f3, f4, f5⟩ := h2 i d1 e1
  exact ⟨d2, f1, f2.trans e2, f3.trans e3, fun h => f4 (e4 h), fun h => f5 (e5 h)⟩

theorem later_set {a b : St} {i : Nat} {c c' : CallObj} (hc : a.calls[i]? = some c) (hb : b.calls = a.calls.set i c') (h1 : c'.incoming = c.incoming) (h2 : c'.id = c.id)
    (h3 : c.active = false → c'.active = false) (h4 : c.ringing = false → c'.ringing = false) : Later a b := by
  intro j d hd
  by_cases hij : j = i
  · subst hij
    rw [hc] at hd; cases hd
    exact ⟨c', by rw [hb]; exact get_set_self hc, h1, h2, h3, h4⟩
  · exact ⟨d, by rw [hb, List.getElem?_set_ne (Ne.symm hij)]; exact hd, rfl, rfl, id, id⟩

theorem later_atom (a b : St) (h : Atom env a b) : Later a b := by
  cases atom_calls h with
  | same h1 _ => intro i c hc; exact ⟨c, by rw [h1]; exact hc, rfl, rfl, id, id⟩
  | lost _ _ h1 _ => intro i c hc; exact ⟨c, by rw [h1]; exact hc, rfl, rfl, id, id⟩
  | ring hc h1 h2 => exact later_set hc h1 rfl rfl id id
  | new g1 g2 g3 g4 h1 h2 =>
    intro i c hc
    exact ⟨c, by rw [h1, List.getElem?_append_left (List.getElem?_eq_some_iff.1 hc).1]; exact hc, rfl, rfl, id, id⟩
  | answered hk hc h1 h2 => exact later_set hc h1 rfl rfl id id
  | ended hk hc h1 h2 => exact later_set hc h1 rfl rfl (fun _ => rfl) id
  | @quiet i c hc h1 h2 =>
    refine later_set hc h1 ?_ ?_ ?_ ?_ <;> (unfold quiet; split <;> simp)
  | @hungUp i c hc h1 h2 =>
    refine later_set hc h1 ?_ ?_ ?_ ?_ <;> (unfold quiet; split <;> simp)
  | answer hc _ _ h1 h2 => exact later_set hc h1 rfl rfl id (fun _ => rfl)

theorem later_ops [PyUnicode] (ops : List Op) (s : St) : Later s (runOps env ops s) :=
  runOps_inv (J := Later s) (fun a b h hs => hs.trans (later_atom a b h)) ops (.refl s)

/-- Once a hangup was accepted (or found the call ended), whatever happens then, further hangups write nothing and the call stays inactive. -/
theorem C48_hangup_once [PyUnicode] {s s1 : St} {i : Nat} {c : CallObj} (hc : s.calls[i]? = some c) (hh : hangup i env s = (.ok (), s1)) (ops : List Op) :
    ∃ s3 d, hangup i env (runOps env ops s1) = (.ok (), s3) ∧ s3.log = (runOps env ops s1).log ∧ s3.calls[i]? = some d ∧ d.active = false := by
  have : ∃ c1, s1.calls[i]? = some c1 ∧ c1.active = false := by
    cases ha : c.active
    · rw [hangup_inactive hc ha] at hh
      cases hh
      exact ⟨_, get_set_self hc, by unfold quiet; split <;> exact ha⟩
    · obtain ⟨ok, s2, h1, _, ⟨_, h3⟩ | ⟨_, e, h3⟩⟩ := hangup_active (env := env) hc ha
      · rw [h3] at hh
        cases hh
        exact ⟨_, get_set_self hc, rfl⟩
      · rw [h3] at hh
        cases hh
  obtain ⟨c1, h1, h2⟩ := this
  obtain ⟨c2, h3, _, _, h4, _⟩ := later_ops (env := env) ops s1 i c1 h1
  rw [hangup_inactive h3 (h4 h2)]
  exact ⟨_, _, rfl, rfl, get_set_self h3, by unfold quiet; split <;> exact h4 h2⟩

/-- A hangup of an active call is one command, `ATH` (repeated only while the modem says it is busy); if it is accepted, the call is not active and not answered. -/
theorem C48_hangup_command {s : St} {i : Nat} {c : CallObj} (hc : s.calls[i]? = some c) (ha : c.active = true) :
    ∃ ok s1, (hangup i env s).2 = s1 ∧ Transmission env.reply [py!"ATH\r"] s.log s1.log ok ∧
      (ok = true → (hangup i env s).1 = .ok () ∧ ∃ d, s1.calls[i]? = some d ∧ d.active = false ∧ d.answered = false) ∧
      (ok = false → (∃ e, (hangup i env s).1 = .error e) ∧ ∃ d, s1.calls[i]? = some d ∧ d.active = true ∧ s1.activeCalls = s.activeCalls) := by
  obtain ⟨ok, s1, ⟨l, w, rfl⟩, h2, ⟨rfl, h3⟩ | ⟨rfl, e, h3⟩⟩ := hangup_active (env := env) hc ha
  · rw [h3]
    exact ⟨true, _, rfl, h2, fun _ => ⟨rfl, _, get_set_self hc, rfl, rfl⟩, (nomatch ·)⟩
  · rw [h3]
    exact ⟨false, _, rfl, h2, (nomatch ·), fun _ => ⟨⟨e, rfl⟩, _, get_set_self hc, by unfold quiet; split <;> exact ha, rfl⟩⟩

/-- After any hangup, accepted or not, and whatever happens then, `answer` does nothing. -/
theorem C48_no_answer_after_hangup [PyUnicode] {s : St} {i : Nat} {c : CallObj} (hc : s.calls[i]? = some c) (ops : List Op) :
    answer i env (runOps env ops (hangup i env s).2) = (.ok (), runOps env ops (hangup i env s).2) := by
  have : ∃ c1, (hangup i env s).2.calls[i]? = some c1 ∧ ¬ (c1.incoming = true ∧ c1.ringing = true) := by
    have hq : ¬ ((quiet c).incoming = true ∧ (quiet c).ringing = true) := by
      unfold quiet; split <;> simp_all
    cases ha : c.active
    · rw [hangup_inactive hc ha]
      exact ⟨_, get_set_self hc, hq⟩
    · obtain ⟨ok, s2, ⟨l, w, rfl⟩, _, ⟨_, h3⟩ | ⟨_, e, h3⟩⟩ := hangup_active (env := env) hc ha
      · rw [h3]
        exact ⟨_, get_set_self hc, hq⟩
      · rw [h3]
        exact ⟨_, get_set_self hc, hq⟩
  obtain ⟨c1, h1, h2⟩ := this
  obtain ⟨c2, h3, h4, _, _, h5⟩ := later_ops (env := env) ops _ i c1 h1
  refine answer_quiet h3 fun ⟨g1, g2⟩ => h2 ⟨h4 ▸ g1, ?_⟩
  by_contra hr
  rw [h5 (by simpa using hr)] at g2
  cases g2

/-- Answering a call that rings is one command, `ATA`; if it is accepted, the call is answered and does not ring any more. -/
theorem C48_answer_command {s : St} {i : Nat} {c : CallObj} (hc : s.calls[i]? = some c) (hi : c.incoming = true) (hr : c.ringing = true) :
    ∃ ok s1, (answer i env s).2 = s1 ∧ Transmission env.reply [py!"ATA\r"] s.log s1.log ok ∧
      (ok = true → (answer i env s).1 = .ok () ∧ s1.calls[i]? = some { c with ringing := false, answered := true }) ∧
      (ok = false → (∃ e, (answer i env s).1 = .error e) ∧ s1.calls = s.calls) := by
  obtain ⟨ok, s1, ⟨l, w, rfl⟩, h2, ⟨rfl, h3⟩ | ⟨rfl, e, h3⟩⟩ := answer_ringing (env := env) hc hi hr
  · rw [h3]
    exact ⟨true, _, rfl, h2, fun _ => ⟨rfl, get_set_self hc⟩, (nomatch ·)⟩
  · rw [h3]
    exact ⟨false, _, rfl, h2, (nomatch ·), fun _ => ⟨⟨e, rfl⟩, rfl⟩⟩

/-- Once an answer was accepted, whatever happens then, further ones do nothing. -/
theorem C48_answer_once [PyUnicode] {s s1 : St} {i : Nat} (hh : answer i env s = (.ok (), s1)) (hc : i < s.calls.length) (ops : List Op) :
    answer i env (runOps env ops s1) = (.ok (), runOps env ops s1) := by
  obtain ⟨c, hc⟩ : ∃ c, s.calls[i]? = some c := ⟨_, List.getElem?_eq_getElem hc⟩
  have : ∃ c1, s1.calls[i]? = some c1 ∧ ¬ (c1.incoming = true ∧ c1.ringing = true) := by
    by_cases hr : c.incoming = true ∧ c.ringing = true
    · obtain ⟨ok, s2, ⟨l, w, rfl⟩, _, ⟨_, h3⟩ | ⟨_, e, h3⟩⟩ := answer_ringing (env := env) hc hr.1 hr.2
      · rw [h3] at hh
        cases hh
        exact ⟨_, get_set_self hc, by simp⟩
      · rw [h3] at hh
        cases hh
    · rw [answer_quiet hc hr] at hh
      cases hh
      exact ⟨c, hc, hr⟩
  obtain ⟨c1, h1, h2⟩ := this
  obtain ⟨c2, h3, h4, _, _, h5⟩ := later_ops (env := env) ops _ i c1 h1
  refine answer_quiet h3 fun ⟨g1, g2⟩ => h2 ⟨h4 ▸ g1, ?_⟩
  by_contra hr
  rw [h5 (by simpa using hr)] at g2
  cases g2

/-- A call that the other side ended still rings: `answer` sends `ATA`, and marks a call as answered that is not active. -/
theorem C48_answer_after_end {s : St} (h : TableOk s) {k : Int} {i : Nat} {c : CallObj} (h0 : k ≠ 0) (hk : (k, i) ∈ s.activeCalls) (hc : s.calls[i]? = some c)
    (hi : c.incoming = true) (hr : c.ringing = true) (f : Bool) :
    ∃ ok s1, (answer i env (handleCallEnded (some k) false f env s).2).2 = s1 ∧ Transmission env.reply [py!"ATA\r"] s.log s1.log ok ∧
      (ok = true → ∃ d, s1.calls[i]? = some d ∧ d.answered = true ∧ d.active = false) := by
  have he : handleCallEnded (some k) false f env s = (.ok (), { s with calls := s.calls.set i { c with answered := false, active := false }, callbacks := (if c.callback then .callStatus i :: s.callbacks else s.callbacks), activeCalls := dictDel s.activeCalls k }) := by
    rw [ended_run]
    simp only [endedId, Bool.false_eq_true, if_false, h0, dictGet_of_mem h.1 hk, hc]
  rw [he]
  obtain ⟨ok, s1, h1, h2, h3, _⟩ := C48_answer_command (env := env) (s := { s with calls := s.calls.set i { c with answered := false, active := false }, callbacks := (if c.callback then .callStatus i :: s.callbacks else s.callbacks), activeCalls := dictDel s.activeCalls k })
    (i := i) (get_set_self hc) hi hr
  exact ⟨ok, s1, h1, h2, fun hok => ⟨_, (h3 hok).2, rfl, rfl⟩⟩

attribute [local instance] asciiUnicode in
example : (runOps goodModem (twoCalls ++ [.answer 0, .answer 0, .hangup 0, .hangup 0, .answer 0]) (connected goodModem)).log.take 3 =
    [py!"ATH\r", py!"ATA\r", (connected goodModem).log.head?.getD []] := by decide +kernel

end Gsm
