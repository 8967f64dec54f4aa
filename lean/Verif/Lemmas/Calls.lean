import Verif.Lemmas.ModemFrame
import Verif.Lemmas.ModemTrans
import Verif.Props.ModemReference
/-! # Call objects and the table of active calls -/
namespace Gsm
open M Spec

variable {env : Env}

theorem modify_eq_set {α : Type} {f : α → α} : ∀ {l : List α} {i : Nat} {c : α}, l[i]? = some c → l.modify i f = l.set i (f c)
  | [], i, c, h => by simp at h
  | x :: l, 0, c, h => by simp at h; simp [h]
  | x :: l, i + 1, c, h => by simp at h; simp [modify_eq_set h]

theorem modify_eq_self {α : Type} {f : α → α} : ∀ {l : List α} {i : Nat}, l[i]? = none → l.modify i f = l
  | [], i, h => by simp
  | x :: l, 0, h => by simp at h
  | x :: l, i + 1, h => by simp at h; simp [modify_eq_self (f := f) (List.getElem?_eq_none h)]

theorem get_set_self {α : Type} {l : List α} {i : Nat} {c d : α} (h : l[i]? = some c) : (l.set i d)[i]? = some d := by
  obtain ⟨hi, _⟩ := List.getElem?_eq_some_iff.1 h
  simp [hi]

/-! ### The effect of the handlers -/

/-- The effect of setting `answered`. -/
def withAnswered (i : Nat) (c : CallObj) (v : Bool) (s : St) : St :=
  { s with calls := s.calls.set i { c with answered := v }, callbacks := if c.callback then .callStatus i :: s.callbacks else s.callbacks }

theorem setAnswered_run {i : Nat} {v : Bool} {s : St} {c : CallObj} (h : s.calls[i]? = some c) :
    setAnswered i v env s = (.ok (), withAnswered i c v s) := by
  simp only [setAnswered, run_bind, run_modify, run_get, modify_eq_set h, get_set_self h]
  cases hc : c.callback <;> simp [run_pure, callback, run_modify, withAnswered, hc]

theorem setAnswered_none {i : Nat} {v : Bool} {s : St} (h : s.calls[i]? = none) : setAnswered i v env s = (.ok (), s) := by
  simp only [setAnswered, run_bind, run_modify, run_get, modify_eq_self h, h, run_pure]

/-- An incoming call does not ring any more. -/
def quiet (c : CallObj) : CallObj := if c.incoming then { c with ringing := false } else c

theorem hangup_none {i : Nat} {s : St} (h : s.calls[i]? = none) : hangup i env s = (.ok (), s) := by
  simp only [hangup, run_bind, run_get, h, run_pure]

theorem quiet_run {i : Nat} {s : St} {c : CallObj} (h : s.calls[i]? = some c) :
    stopRinging i c env s = (.ok (), { s with calls := s.calls.set i (quiet c) }) := by
  unfold stopRinging quiet
  split
  · rw [run_modify, modify_eq_set h]
  · have : s.calls.set i c = s.calls := by
      obtain ⟨hi, rfl⟩ := List.getElem?_eq_some_iff.1 h
      exact List.set_getElem_self hi
    rw [run_pure, this]

/-- Hanging up an active call: one command; when it fails, the call only stops ringing. -/
theorem hangup_active {i : Nat} {s : St} {c : CallObj} (h : s.calls[i]? = some c) (ha : c.active = true) : ∃ ok s1,
    OnlyLog { s with calls := s.calls.set i (quiet c) } s1 ∧ Transmission env.reply [py!"ATH\r"] s.log s1.log ok ∧
    ((ok = true ∧ hangup i env s = (.ok (), { s1 with calls := s.calls.set i { quiet c with answered := false, active := false }, callbacks := (if c.callback then .callStatus i :: s.callbacks else s.callbacks), activeCalls := dictDel s.activeCalls c.id })) ∨
      (ok = false ∧ ∃ e, hangup i env s = (.error e, s1))) := by
  obtain ⟨ok, s1, h1, h2, h3⟩ := write_trans (env := env) py!"ATH" [13] { s with calls := s.calls.set i (quiet c) }
  refine ⟨ok, s1, h1, h2, ?_⟩
  unfold hangup
  rw [run_bind, run_get]
  simp only [h]
  rw [run_bind, quiet_run h]
  simp only [hangupActive, ha, if_true, run_bind]
  rcases h3 with ⟨rfl, h3⟩ | ⟨rfl, e, h3⟩
  · refine .inl ⟨rfl, ?_⟩
    rw [h3]
    obtain ⟨l, w, rfl⟩ := h1
    have hq : ({ s with calls := s.calls.set i (quiet c), log := l, writeWait := w } : St).calls[i]? = some (quiet c) := get_set_self h
    have hcb : (quiet c).callback = c.callback := by unfold quiet; split <;> rfl
    dsimp only
    rw [setAnswered_run hq]
    simp only [run_modify, withAnswered, hcb]
    rw [modify_eq_set (get_set_self (get_set_self h))]
    simp [List.set_set]
  · refine .inr ⟨rfl, e, ?_⟩
    rw [h3]

/-- Hanging up a call that is not active. -/
theorem hangup_inactive {i : Nat} {s : St} {c : CallObj} (h : s.calls[i]? = some c) (ha : c.active = false) :
    hangup i env s = (.ok (), { s with calls := s.calls.set i (quiet c), activeCalls := dictDel s.activeCalls c.id }) := by
  unfold hangup
  rw [run_bind, run_get]
  simp only [h]
  rw [run_bind, quiet_run h]
  simp only [hangupActive, ha, Bool.false_eq_true, if_false, run_bind, run_pure, run_modify]

theorem answer_none {i : Nat} {s : St} (h : s.calls[i]? = none) : answer i env s = (.ok (), s) := by
  simp only [answer, run_bind, run_get, h, run_pure]

theorem answer_quiet {i : Nat} {s : St} {c : CallObj} (h : s.calls[i]? = some c) (hr : ¬ (c.incoming = true ∧ c.ringing = true)) :
    answer i env s = (.ok (), s) := by
  simp only [answer, run_bind, run_get, h]
  rw [if_neg hr, run_pure]

/-- Answering a call that rings. -/
theorem answer_ringing {i : Nat} {s : St} {c : CallObj} (h : s.calls[i]? = some c) (hi : c.incoming = true) (hr : c.ringing = true) : ∃ ok s1,
    OnlyLog s s1 ∧ Transmission env.reply [py!"ATA\r"] s.log s1.log ok ∧
    ((ok = true ∧ answer i env s = (.ok (), { s1 with calls := s.calls.set i { c with ringing := false, answered := true }, callbacks := if c.callback then .callStatus i :: s.callbacks else s.callbacks })) ∨
      (ok = false ∧ ∃ e, answer i env s = (.error e, s1))) := by
  obtain ⟨ok, s1, h1, h2, h3⟩ := write_trans (env := env) py!"ATA" [13] s
  refine ⟨ok, s1, h1, h2, ?_⟩
  unfold answer
  rw [run_bind, run_get]
  simp only [h]
  rw [if_pos ⟨hi, hr⟩]
  simp only [run_bind]
  rcases h3 with ⟨rfl, h3⟩ | ⟨rfl, e, h3⟩
  · refine .inl ⟨rfl, ?_⟩
    rw [h3]
    obtain ⟨l, w, rfl⟩ := h1
    simp only [run_modify, modify_eq_set h]
    rw [setAnswered_run (c := { c with ringing := false }) (get_set_self h)]
    simp [withAnswered, List.set_set]
  · refine .inr ⟨rfl, e, ?_⟩
    rw [h3]

/-- The id of the call that an end notification is about. -/
def endedId (callId : Option Int) (search filter : Bool) (s : St) : Option Int :=
  if search then
    match firstOutgoing s filter with
    | some i => (s.calls[i]?).map (·.id)
    | none => callId
  else callId

theorem ended_run (callId : Option Int) (search filter : Bool) (s : St) : handleCallEnded callId search filter env s =
    match endedId callId search filter s with
    | none => (.ok (), s)
    | some id => if id = 0 then (.ok (), s) else
      match dictGet s.activeCalls id with
      | none => (.ok (), s)
      | some i =>
        match s.calls[i]? with
        | none => (.ok (), { s with activeCalls := dictDel s.activeCalls id })
        | some c => (.ok (), { s with calls := s.calls.set i { c with answered := false, active := false }, callbacks := (if c.callback then .callStatus i :: s.callbacks else s.callbacks), activeCalls := dictDel s.activeCalls id }) := by
  unfold handleCallEnded
  rw [run_bind, run_get]
  dsimp only
  change (match endedId callId search filter s with
    | none => pure ()
    | some id => if id ≠ 0 then
        match dictGet s.activeCalls id with
        | none => pure ()
        | some i => do
          setAnswered i false
          M.modify fun s => { s with calls := s.calls.modify i (fun c => { c with active := false }), activeCalls := dictDel s.activeCalls id }
      else pure () : M Unit) env s = _
  cases endedId callId search filter s with
  | none => rfl
  | some id =>
    by_cases h0 : id = 0
    · simp [h0, run_pure]
    · simp only [ne_eq, h0, not_false_eq_true, if_true, if_false]
      cases dictGet s.activeCalls id with
      | none => rfl
      | some i =>
        dsimp only
        rw [run_bind]
        cases hc : s.calls[i]? with
        | none => rw [setAnswered_none hc]; simp only [run_modify, modify_eq_self hc]
        | some c =>
          rw [setAnswered_run hc]
          simp only [run_modify, withAnswered]
          rw [modify_eq_set (get_set_self hc)]
          simp [List.set_set]

/-! ### Dictionaries -/

theorem dictGet_mem {α : Type} {d : List (Int × α)} {k : Int} {v : α} (h : dictGet d k = some v) : (k, v) ∈ d := by
  unfold dictGet at h
  rw [Option.map_eq_some_iff] at h
  obtain ⟨⟨k', v'⟩, h1, rfl⟩ := h
  have := List.find?_some h1
  simp only [decide_eq_true_eq] at this
  subst this
  exact List.mem_of_find?_eq_some h1

theorem dictGet_of_mem {α : Type} {d : List (Int × α)} {k : Int} {v : α} (hd : (d.map (·.1)).Nodup) (h : (k, v) ∈ d) : dictGet d k = some v := by
  induction d with
  | nil => cases h
  | cons p d ih =>
    simp only [List.map_cons, List.nodup_cons] at hd
    unfold dictGet
    rw [List.find?_cons]
    rcases List.mem_cons.1 h with rfl | h
    · simp
    · have : p.1 ≠ k := by
        rintro rfl
        exact hd.1 (List.mem_map.2 ⟨_, h, rfl⟩)
      simp only [this, decide_false]
      exact ih hd.2 h

theorem dictGet_none {α : Type} {d : List (Int × α)} {k : Int} : dictGet d k = none ↔ k ∉ d.map (·.1) := by
  unfold dictGet
  rw [Option.map_eq_none_iff, List.find?_eq_none]
  constructor
  · rintro h hk
    obtain ⟨x, hx, rfl⟩ := List.mem_map.1 hk
    exact h x hx (by simp)
  · rintro h x hx
    simp only [decide_eq_true_eq]
    rintro rfl
    exact h (List.mem_map.2 ⟨x, hx, rfl⟩)

theorem dictDel_mem {α : Type} {d : List (Int × α)} {k k' : Int} {v : α} : (k', v) ∈ dictDel d k ↔ (k', v) ∈ d ∧ k' ≠ k := by
  unfold dictDel
  simp [List.mem_filter]

theorem dictDel_nodup {α : Type} {d : List (Int × α)} {k : Int} (h : (d.map (·.1)).Nodup) : ((dictDel d k).map (·.1)).Nodup := by
  unfold dictDel
  exact (List.filter_sublist.map _).nodup h

theorem dictSet_keys {α : Type} {d : List (Int × α)} {k : Int} {v : α} : (dictSet d k v).map (·.1) = if k ∈ d.map (·.1) then d.map (·.1) else d.map (·.1) ++ [k] := by
  induction d with
  | nil => simp [dictSet]
  | cons p d ih =>
    unfold dictSet
    by_cases h : p.1 = k
    · simp [h]
    · rw [if_neg h, List.map_cons, ih]
      by_cases hk : k ∈ d.map (·.1)
      · simp [hk]
      · simp [hk, Ne.symm h]

theorem dictSet_nodup {α : Type} {d : List (Int × α)} {k : Int} {v : α} (h : (d.map (·.1)).Nodup) : ((dictSet d k v).map (·.1)).Nodup := by
  rw [dictSet_keys]
  split
  · exact h
  · next hk => exact List.nodup_append.2 ⟨h, by simp, by rintro a ha b hb rfl; simp at hb; exact hk (hb ▸ ha)⟩

theorem dictSet_mem {α : Type} {d : List (Int × α)} {k k' : Int} {v v' : α} (hd : (d.map (·.1)).Nodup) (h : (k', v') ∈ dictSet d k v) :
    (k' = k ∧ v' = v) ∨ (k' ≠ k ∧ (k', v') ∈ d) := by
  have h1 := dictGet_of_mem (dictSet_nodup hd) h
  rw [dictGet_set] at h1
  by_cases hk : k' = k
  · rw [if_pos hk] at h1
    exact .inl ⟨hk, (Option.some.inj h1).symm⟩
  · rw [if_neg hk] at h1
    exact .inr ⟨hk, dictGet_mem h1⟩

/-! ### What the operations do to the calls -/

/-- One change of the calls and of the table. -/
inductive CallStep (a b : St) : Prop
  | same : b.calls = a.calls → b.activeCalls = a.activeCalls → CallStep a b
  | ring {i c} : a.calls[i]? = some c → b.calls = a.calls.set i { c with ringCount := c.ringCount + 1 } → b.activeCalls = a.activeCalls → CallStep a b
  | new {c : CallObj} : c.active = true → c.ringing = c.incoming → c.answered = false → (c.incoming = true → c.id = a.activeCalls.length + 1) →
      b.calls = a.calls ++ [c] → b.activeCalls = dictSet a.activeCalls c.id a.calls.length → CallStep a b
  | answered {k i c} : (k, i) ∈ a.activeCalls → a.calls[i]? = some c → b.calls = a.calls.set i { c with answered := true } →
      b.activeCalls = a.activeCalls → CallStep a b
  | lost {k i} : dictGet a.activeCalls k = some i → a.calls[i]? = none → b.calls = a.calls → b.activeCalls = dictDel a.activeCalls k → CallStep a b
  | ended {k i c} : dictGet a.activeCalls k = some i → a.calls[i]? = some c → b.calls = a.calls.set i { c with answered := false, active := false } →
      b.activeCalls = dictDel a.activeCalls k → CallStep a b
  | quiet {i c} : a.calls[i]? = some c → b.calls = a.calls.set i (quiet c) → b.activeCalls = a.activeCalls → CallStep a b
  | hungUp {i c} : a.calls[i]? = some c → b.calls = a.calls.set i { quiet c with answered := (c.answered && !c.active), active := false } →
      b.activeCalls = dictDel a.activeCalls c.id → CallStep a b
  | answer {i c} : a.calls[i]? = some c → c.incoming = true → c.ringing = true →
      b.calls = a.calls.set i { c with ringing := false, answered := true } → b.activeCalls = a.activeCalls → CallStep a b

def callPart (s : St) : List CallObj × List (Int × Nat) := (s.calls, s.activeCalls)

theorem cp_textMode (v : Bool) (a : St) : callPart (setSmsTextMode v env a).2 = callPart a := by
  have : Steps env (Frame (fun _ => True) callPart) (setSmsTextMode v) := by
    unfold setSmsTextMode
    (steps frame_pre) <;> first | exact frame_write trivial (fun _ _ _ => rfl) | exact frame_same rfl rfl
  exact (this.run a).2
theorem cp_getSmsc (a : St) : callPart (getSmsc env a).2 = callPart a := by
  have : Steps env (Frame (fun _ => True) callPart) (getSmsc) := by
    unfold getSmsc
    (steps frame_pre) <;> first | exact frame_write trivial (fun _ _ _ => rfl) | exact frame_same rfl rfl
  exact (this.run a).2
theorem cp_setSmsc (n : Option PyStr) (a : St) : callPart (setSmsc n env a).2 = callPart a := by
  have : Steps env (Frame (fun _ => True) callPart) (setSmsc n) := by
    unfold setSmsc
    (steps frame_pre) <;> first | exact frame_write trivial (fun _ _ _ => rfl) | exact frame_same rfl rfl
  exact (this.run a).2
theorem cp_memory (m : Option PyStr) (a : St) : callPart (setSmsMemory m none env a).2 = callPart a := by
  have : Steps env (Frame (fun _ => True) callPart) (setSmsMemory m none) := by
    unfold setSmsMemory
    (steps frame_pre) <;> first | exact frame_write trivial (fun _ _ _ => rfl) | exact frame_same rfl rfl
  exact (this.run a).2

theorem firstOutgoing_mem {s : St} {f : Bool} {i : Nat} (h : firstOutgoing s f = some i) : ∃ k c, (k, i) ∈ s.activeCalls ∧ s.calls[i]? = some c ∧ c.incoming = false := by
  unfold firstOutgoing at h
  have h1 := List.find?_some h
  have h2 := List.mem_of_find?_eq_some h
  obtain ⟨⟨k, i'⟩, h3, rfl⟩ := List.mem_map.1 h2
  dsimp only at h1
  cases hc : s.calls[i']? with
  | none => rw [hc] at h1; cases h1
  | some c =>
    rw [hc] at h1
    refine ⟨k, c, h3, rfl, ?_⟩
    cases hi : c.incoming
    · rfl
    · simp [hi] at h1

theorem atom_calls {a b : St} (h : Atom env a b) : CallStep a b := by
  cases h with
  | textMode v => exact .same (congrArg Prod.fst (cp_textMode v a)) (congrArg Prod.snd (cp_textMode v a))
  | memory m => exact .same (congrArg Prod.fst (cp_memory m a)) (congrArg Prod.snd (cp_memory m a))
  | getSmsc => exact .same (congrArg Prod.fst (cp_getSmsc a)) (congrArg Prod.snd (cp_getSmsc a))
  | setSmsc n => exact .same (congrArg Prod.fst (cp_setSmsc n a)) (congrArg Prod.snd (cp_setSmsc n a))
  | ring i =>
    cases hc : a.calls[i]? with
    | none => exact .same (modify_eq_self hc) rfl
    | some c => exact .ring hc (modify_eq_set hc) rfl
  | newCall c h1 h2 h3 h4 => exact .new h1 h2 h3 h4 rfl rfl
  | answered i k hk =>
    cases hc : a.calls[i]? with
    | none => rw [setAnswered_none hc]; exact .same rfl rfl
    | some c => rw [setAnswered_run hc]; exact .answered (dictGet_mem hk) hc rfl rfl
  | answeredFirst i hi =>
    obtain ⟨k, c, h1, h2, _⟩ := firstOutgoing_mem hi
    rw [setAnswered_run h2]; exact .answered h1 h2 rfl rfl
  | ended callId se fi =>
    rw [ended_run]
    split
    · exact .same rfl rfl
    · split
      · exact .same rfl rfl
      · split
        · exact .same rfl rfl
        · next hk =>
          split
          · next hc => exact .lost hk hc rfl rfl
          · next hc => exact .ended hk hc rfl rfl
  | hangup i =>
    cases hc : a.calls[i]? with
    | none => rw [hangup_none hc]; exact .same rfl rfl
    | some c =>
      cases ha : c.active
      · rw [hangup_inactive hc ha]
        refine .hungUp hc ?_ rfl
        have : ({ quiet c with answered := (c.answered && !c.active), active := false } : CallObj) = quiet c := by
          unfold quiet; split <;> (cases c; simp_all)
        rw [this]
      · obtain ⟨ok, s1, ⟨l, w, rfl⟩, _, ⟨_, h3⟩ | ⟨_, e, h3⟩⟩ := hangup_active (env := env) hc ha
        · rw [h3]
          refine .hungUp hc ?_ rfl
          simp [ha]
        · rw [h3]
          exact .quiet hc rfl rfl
  | answer i =>
    cases hc : a.calls[i]? with
    | none => rw [answer_none hc]; exact .same rfl rfl
    | some c =>
      by_cases hr : c.incoming = true ∧ c.ringing = true
      · obtain ⟨ok, s1, ⟨l, w, rfl⟩, _, ⟨_, h3⟩ | ⟨_, e, h3⟩⟩ := answer_ringing (env := env) hc hr.1 hr.2
        · rw [h3]; exact .answer hc hr.1 hr.2 rfl rfl
        · rw [h3]; exact .same rfl rfl
      · rw [answer_quiet hc hr]; exact .same rfl rfl
  | _ => exact .same rfl rfl

end Gsm
