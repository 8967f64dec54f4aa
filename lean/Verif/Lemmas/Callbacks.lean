import Verif.Model.Callbacks
import Verif.Lemmas.Calls
import Verif.Lemmas.Delivery
import Verif.Spec.Callbacks
import Verif.Props.ModemCalls
import Verif.Props.ModemProcessing
/-! # Callbacks that do something: lemmas -/
namespace Gsm
open M Spec

variable {env : Env}

/-! ### The code that only records is the model of the modem -/

theorem setAnsweredWith_same : setAnsweredWith callback = setAnswered := rfl
theorem callbackAllWith_same : callbackAllWith callback = callbackAll := by
  funext ms
  induction ms with
  | nil => rfl
  | cons m ms ih => rw [callbackAllWith, callbackAll, ih]
theorem processWith_same (u : Bool) : processStoredSmsWith callback u = processStoredSms u := by
  unfold processStoredSmsWith processStoredSms
  rw [callbackAllWith_same]
theorem receivedWith_same : handleSmsReceivedWith callback = handleSmsReceived := rfl
theorem reportWith_same : handleSmsStatusReportWith callback = handleSmsStatusReport := rfl
theorem incomingWith_same : handleIncomingCallWith callback = handleIncomingCall := by
  funext ls
  cases ls <;> rfl
theorem answeredWith_same : handleCallAnsweredWith callback = handleCallAnswered := by
  funext o
  cases o <;> rfl

theorem setAnsweredWith_none {cb : UserCode} {i : Nat} {s : St} {v : Bool} (h : s.calls[i]? = none) : setAnsweredWith cb i v env s = (.ok (), s) := by
  have hn : (s.calls.modify i fun c => { c with answered := v })[i]? = none := by simp [h]
  simp only [setAnsweredWith, run_bind, run_modify, run_get]
  rw [hn, modify_eq_self h]
  rfl

theorem setAnsweredWith_run {cb : UserCode} {i : Nat} {s : St} {c : CallObj} {v : Bool} (h : s.calls[i]? = some c) : setAnsweredWith cb i v env s =
    if c.callback then cb (.callStatus i) env { s with calls := s.calls.set i { c with answered := v } }
    else (.ok (), { s with calls := s.calls.set i { c with answered := v } }) := by
  simp only [setAnsweredWith, run_bind, run_modify, run_get]
  rw [modify_eq_set h, get_set_self h]
  cases hc : c.callback <;> rfl

/-- The end of a call, with any code. -/
theorem endedWith_run (cb : UserCode) (callId : Option Int) (search filter : Bool) (s : St) : handleCallEndedWith cb callId search filter env s =
    match endedId callId search filter s with
    | none => (.ok (), s)
    | some id => if id = 0 then (.ok (), s) else
      match dictGet s.activeCalls id with
      | none => (.ok (), s)
      | some i => (do setAnsweredWith cb i false; endEntry id : M Unit) env s := by
  unfold handleCallEndedWith
  rw [run_bind, run_get]
  dsimp only
  change (match endedId callId search filter s with
    | none => pure ()
    | some id => if id ≠ 0 then
        match dictGet s.activeCalls id with
        | none => pure ()
        | some i => do
          setAnsweredWith cb i false
          endEntry id
      else pure () : M Unit) env s = _
  cases endedId callId search filter s with
  | none => rfl
  | some id =>
    by_cases h0 : id = 0
    · simp [h0, run_pure]
    · simp only [ne_eq, h0, not_false_eq_true, if_true, if_false]
      cases dictGet s.activeCalls id with
      | none => rfl
      | some i => rfl

theorem endEntry_run {k : Int} {i : Nat} {s : St} (h : dictGet s.activeCalls k = some i) : endEntry k env s =
    (.ok (), { s with calls := s.calls.modify i (fun c => { c with active := false }), activeCalls := dictDel s.activeCalls k }) := by
  simp only [endEntry, run_bind, run_get, h, run_modify]
theorem endEntry_gone {k : Int} {s : St} (h : dictGet s.activeCalls k = none) : endEntry k env s = (.error .keyError, s) := by
  simp only [endEntry, run_bind, run_get, h]
  rfl

theorem endedWith_same : handleCallEndedWith callback = handleCallEnded := by
  funext callId search filter env s
  rw [endedWith_run, ended_run]
  cases endedId callId search filter s with
  | none => rfl
  | some id =>
    dsimp only
    by_cases h0 : id = 0
    · simp [h0]
    · rw [if_neg h0, if_neg h0]
      cases hk : dictGet s.activeCalls id with
      | none => rfl
      | some i =>
        dsimp only
        rw [run_bind]
        cases hc : s.calls[i]? with
        | none =>
          rw [setAnsweredWith_none hc]
          dsimp only
          rw [endEntry_run hk, modify_eq_self hc]
        | some c =>
          rw [setAnsweredWith_run hc]
          have h1 : ∀ b, (s.calls.set i { c with answered := false, callback := b }).modify i (fun c => { c with active := false }) = s.calls.set i { c with answered := false, active := false, callback := b } := by
            intro b
            rw [modify_eq_set (get_set_self hc)]
            simp [List.set_set]
          cases hb : c.callback
          · simp only [Bool.false_eq_true, if_false]
            refine (endEntry_run (by exact hk)).trans ?_
            simp only [hb, Bool.false_eq_true, if_false, ← h1]
          · simp only [if_true, callback, run_modify]
            refine (endEntry_run (by exact hk)).trans ?_
            simp only [hb, if_true, ← h1]

theorem hangupWith_same : hangupWith callback = hangup := rfl
theorem answerWith_same : answerWith callback = answer := rfl
theorem runCallHandlerWith_same : runCallHandlerWith callback = runCallHandler := by
  funext h g
  unfold runCallHandlerWith runCallHandler
  rw [endedWith_same, answeredWith_same]
  rfl
theorem dispatchLoopWith_same (all : List PyStr) : ∀ ls, dispatchLoopWith callback all ls = dispatchLoop all ls
  | [] => rfl
  | l :: ls => by
    rw [dispatchLoopWith, dispatchLoop, incomingWith_same, receivedWith_same, reportWith_same, runCallHandlerWith_same, dispatchLoopWith_same all ls]
    rfl
theorem notificationWith_same : handleNotificationWith callback = handleNotification := funext fun ls => dispatchLoopWith_same ls ls
theorem pollStepWith_same : pollStepWith callback = pollStep := by
  funext p o
  unfold pollStepWith pollStep
  rw [endedWith_same, answeredWith_same]
  rfl
theorem pollRoundWith_same : pollRoundWith callback = pollRound := by
  funext p
  unfold pollRoundWith pollRound
  rw [pollStepWith_same]
theorem eventWith_same (e : Event) : e.runWith callback = e.run := by
  cases e with
  | notify ls => simp only [Event.runWith, Event.run, notificationWith_same]; rfl
  | poll k => simp only [Event.runWith, Event.run, pollRoundWith_same]; rfl
theorem awaitWith_same (f : St → Bool) : ∀ es, awaitEventWith callback f es = awaitEvent f es
  | [] => rfl
  | e :: es => by rw [awaitEventWith, awaitEvent, eventWith_same, awaitWith_same f es]
theorem awaitWith_same' : awaitEventWith callback = awaitEvent := funext fun f => funext fun es => awaitWith_same f es
theorem opWith_same [PyUnicode] (op : Op) : op.runWith callback = op.run := by
  cases op with
  | event e => exact eventWith_same e
  | process u => exact processWith_same u
  | sendWait d t f e du =>
    show discard _ = discard _
    unfold sendSmsWaitWith sendSmsWait
    rw [awaitWith_same']
  | ussd s du =>
    show discard _ = discard _
    unfold sendUssdWith sendUssd
    rw [awaitWith_same']
  | ussdReply u s du =>
    show discard _ = discard _
    unfold Ussd.replyWith Ussd.reply sendUssdWith sendUssd
    rw [awaitWith_same']
  | dial n t c du =>
    show discard _ = discard _
    unfold dialWith dial
    rw [awaitWith_same']
    rfl
  | answer c => rfl
  | hangup c => rfl
  | _ => rfl
theorem runOpsWith_same [PyUnicode] : ∀ (ops : List Op) (s : St), runOpsWith callback env ops s = runOps env ops s
  | [], _ => rfl
  | op :: ops, s => by rw [runOpsWith, runOps, opWith_same, runOpsWith_same ops]

/-! ### The code is asked once -/

theorem Spec.AskedOnce.of_eq {m m' : UserCode → M Unit} {s s' : St} (h : ∀ cb, m cb env s = m' cb env s') (h' : AskedOnce m' env s') : AskedOnce m env s := by
  cases h' with
  | never r hr => exact .never r fun cb => (h cb).trans (hr cb)
  | once c s1 f h1 h2 h3 => exact .once c s1 f (fun cb => (h cb).trans (h1 cb)) h2 h3

theorem Spec.AskedOnce.const (m : M Unit) (s : St) : AskedOnce (fun _ => m) env s := .never _ fun _ => rfl
theorem Spec.AskedOnce.here (c : Callback) (s : St) : AskedOnce (fun cb => cb c) env s := .once c s id (fun _ => rfl) (fun _ _ => rfl) fun _ => rfl

theorem Spec.AskedOnce.bind {α : Type} {p : M α} {q : α → UserCode → M Unit} {s : St} (h : ∀ a s1, p env s = (.ok a, s1) → AskedOnce (q a) env s1) :
    AskedOnce (fun cb => p >>= fun a => q a cb) env s := by
  rcases hp : p env s with ⟨e | a, s1⟩
  · exact .never (.error e, s1) fun cb => by rw [run_bind, hp]
  · exact .of_eq (m' := q a) (s' := s1) (fun cb => by rw [run_bind, hp]) (h a s1 hp)

theorem Spec.AskedOnce.setAnswered (i : Nat) (v : Bool) (s : St) : AskedOnce (fun cb => setAnsweredWith cb i v) env s := by
  cases hc : s.calls[i]? with
  | none => exact .never _ fun cb => setAnsweredWith_none hc
  | some c =>
    cases hb : c.callback
    · exact .never _ fun cb => by rw [setAnsweredWith_run hc, hb]; rfl
    · exact .of_eq (m' := fun cb => cb (.callStatus i)) (s' := { s with calls := s.calls.set i { c with answered := v } })
        (fun cb => by rw [setAnsweredWith_run hc, hb]; rfl) (.here _ _)

/-- A change of the call and its end. -/
theorem Spec.AskedOnce.ended (i : Nat) (k : Int) (s : St) : AskedOnce (fun cb => do setAnsweredWith cb i false; endEntry k) env s := by
  cases hc : s.calls[i]? with
  | none => exact .never (endEntry k env s) fun cb => by rw [run_bind, setAnsweredWith_none hc]
  | some c =>
    cases hb : c.callback
    · exact .never _ fun cb => by rw [run_bind, setAnsweredWith_run hc, hb]; rfl
    · refine .once (.callStatus i) { s with calls := s.calls.set i { c with answered := false } }
        (fun r => match r with | (.ok _, s2) => endEntry k env s2 | (.error e, s2) => (.error e, s2)) (fun cb => ?_) (fun _ _ => rfl) (fun h => absurd rfl (h i))
      rw [run_bind, setAnsweredWith_run hc, if_pos hb]
      generalize cb (.callStatus i) env _ = r
      rcases r with ⟨_ | _, _⟩ <;> rfl

theorem once_received (line : PyStr) (s : St) : AskedOnce (fun cb => handleSmsReceivedWith cb line) env s := by
  unfold handleSmsReceivedWith
  split
  · exact .bind fun _ _ _ => .bind fun _ _ _ => .here _ _
  · exact .const _ _
theorem once_report (line : PyStr) (s : St) : AskedOnce (fun cb => handleSmsStatusReportWith cb line) env s := by
  unfold handleSmsStatusReportWith
  split
  · refine .bind fun m _ _ => .bind fun _ _ _ => ?_
    cases m with
    | received => exact .const _ _
    | report =>
      refine .bind fun _ _ _ => .bind fun s2 _ _ => ?_
      cases s2.smsStatusReportEvent.isSome
      · exact .here _ _
      · exact .const _ _
  · exact .const _ _
theorem once_incoming (lines : List PyStr) (s : St) : AskedOnce (fun cb => handleIncomingCallWith cb lines) env s := by
  cases lines with
  | nil => exact .const _ _
  | cons l ls =>
    refine .bind fun _ _ _ => .bind fun _ _ _ => .bind fun o _ _ => ?_
    cases o with
    | some i => exact .here _ _
    | none => exact .bind fun _ _ _ => .bind fun _ _ _ => .here _ _
theorem once_answered (o : Option Int) (s : St) : AskedOnce (fun cb => handleCallAnsweredWith cb o) env s := by
  cases o with
  | some k =>
    refine .bind fun s1 _ _ => ?_
    cases dictGet s1.activeCalls k with
    | some i => exact .setAnswered _ _ _
    | none => exact .const _ _
  | none =>
    refine .bind fun s1 _ _ => ?_
    cases firstOutgoing s1 true with
    | some i => exact .setAnswered _ _ _
    | none => exact .const _ _
theorem once_ended (callId : Option Int) (search filter : Bool) (s : St) : AskedOnce (fun cb => handleCallEndedWith cb callId search filter) env s := by
  refine .of_eq (fun cb => endedWith_run cb callId search filter s) (m' := fun cb _ _ => _) (s' := s) ?_
  cases endedId callId search filter s with
  | none => exact .never _ fun _ => rfl
  | some id =>
    dsimp only
    split
    · exact .never _ fun _ => rfl
    · cases dictGet s.activeCalls id with
      | none => exact .never _ fun _ => rfl
      | some i => exact .of_eq (fun cb => rfl) (.ended i id s)
theorem once_callHandler (h : CallHandler) (g : List PyStr) (s : St) : AskedOnce (fun cb => runCallHandlerWith cb h g) env s := by
  cases h with
  | initiated => exact .never _ fun _ => rfl
  | answered =>
    rcases g with _ | ⟨g0, _ | ⟨g1, gs⟩⟩
    · exact once_answered none _
    · exact once_answered none _
    · exact .bind fun _ _ _ => once_answered _ _
  | ended =>
    rcases g with _ | ⟨g0, gs⟩
    · exact once_ended _ _ _ _
    · exact .bind fun _ _ _ => once_ended _ _ _ _
  | rejected =>
    rcases g with _ | ⟨g0, gs⟩
    · exact once_ended _ _ _ _
    · exact .bind fun _ _ _ => once_ended _ _ _ _
theorem once_dispatch (all : List PyStr) : ∀ (ls : List PyStr) (s : St), AskedOnce (fun cb => dispatchLoopWith cb all ls) env s
  | [], _ => .const _ _
  | l :: ls, s => by
    refine .bind fun s1 s2 _ => ?_
    cases recognise (callTable s1.callStatusUpdates) l with
    | none => exact once_dispatch all ls _
    | some d =>
      cases d with
      | ring => exact once_incoming _ _
      | cmti => exact once_received _ _
      | cusd => exact .const _ _
      | cdsi => exact once_report _ _
      | call h g => exact once_callHandler _ _ _

/-! ### The table of calls -/

/-- A consistent table stays consistent, and calls keep their ids. -/
def TableKept (a b : St) : Prop :=
  (TableOk a → TableOk b) ∧ ∀ (i : Nat) (c : CallObj), a.calls[i]? = some c → ∃ d, b.calls[i]? = some d ∧ d.id = c.id

theorem kept_pre : IsPre TableKept where
  refl s := ⟨id, fun i c h => ⟨c, h, rfl⟩⟩
  trans h1 h2 := ⟨fun h => h2.1 (h1.1 h), fun i c h => by
    obtain ⟨d, h3, h4⟩ := h1.2 i c h
    obtain ⟨e, h5, h6⟩ := h2.2 i d h3
    exact ⟨e, h5, h6.trans h4⟩⟩

theorem ids_set {a b : List CallObj} {i : Nat} {c c' : CallObj} (hc : a[i]? = some c) (hb : b = a.set i c') (hid : c'.id = c.id) (j : Nat) (d : CallObj)
    (hd : a[j]? = some d) : ∃ e, b[j]? = some e ∧ e.id = d.id := by
  subst hb
  by_cases hij : j = i
  · subst hij
    rw [hc] at hd; cases hd
    exact ⟨c', get_set_self hc, hid⟩
  · exact ⟨d, (List.getElem?_set_ne (Ne.symm hij)).trans hd, rfl⟩

theorem kept_atom {a b : St} (h : Atom env a b) : TableKept a b := by
  refine ⟨table_atom a b h, fun i c hi => ?_⟩
  cases atom_calls h with
  | same h1 h2 => exact ⟨c, by rw [h1]; exact hi, rfl⟩
  | ring hc h1 h2 => exact ids_set hc h1 rfl i c hi
  | @new c' g1 g2 g3 g4 h1 h2 =>
    exact ⟨c, by rw [h1, List.getElem?_append_left (List.getElem?_eq_some_iff.1 hi).1]; exact hi, rfl⟩
  | answered hk hc h1 h2 => exact ids_set hc h1 rfl i c hi
  | lost hk hc h1 h2 => exact ⟨c, by rw [h1]; exact hi, rfl⟩
  | ended hk hc h1 h2 => exact ids_set hc h1 rfl i c hi
  | quiet hc h1 h2 => exact ids_set hc h1 (by unfold quiet; split <;> rfl) i c hi
  | hungUp hc h1 h2 => exact ids_set hc h1 (by unfold quiet; split <;> rfl) i c hi
  | answer hc _ _ h1 h2 => exact ids_set hc h1 rfl i c hi

theorem kept_reach {a b : St} (h : Reach env a b) : TableKept a b := by
  induction h with
  | refl => exact kept_pre.refl _
  | step h _ ih => exact kept_pre.trans (kept_atom h) ih

theorem tk {α : Type} {m : M α} (h : Steps env (Reach env) m) : Steps env TableKept m := h.mono fun _ _ => kept_reach

syntax "kept_step" : tactic
macro_rules
  | `(tactic| kept_step) => `(tactic| first
    | (with_reducible exact Steps.pure kept_pre _)
    | (with_reducible exact Steps.get kept_pre)
    | (with_reducible exact Steps.raise kept_pre _)
    | (with_reducible exact Steps.ofExcept kept_pre _)
    | (with_reducible exact Steps.firstLine kept_pre _)
    | assumption
    | (with_reducible refine Steps.bind kept_pre ?_ ?_)
    | (with_reducible refine Steps.except kept_pre ?_ ?_)
    | (with_reducible refine tk (Steps.modify fun s => .one ?_); first
        | exact .ussd s _ _ | exact .reportEvent s _ | exact .dialEvent s _ _ | exact .callback s _
        | exact .extended s | exact .ring s _ | exact .pollers s _)
    | (with_reducible dsimp only)
    | intro _
    | split)
macro "kept" : tactic => `(tactic| repeat' kept_step)

section
variable {cb : UserCode}

theorem kept_callbackAll (h : ∀ c, Steps env TableKept (cb c)) : ∀ ms, Steps env TableKept (callbackAllWith cb ms)
  | [] => by unfold callbackAllWith; kept
  | m :: ms => by
    have h1 := h (.smsReceived m)
    have h2 := kept_callbackAll h ms
    unfold callbackAllWith; kept
theorem kept_process (h : ∀ c, Steps env TableKept (cb c)) (u : Bool) : Steps env TableKept (processStoredSmsWith cb u) := by
  have h1 := tk (reach_list (env := env) 1 none true)
  have h2 := tk (reach_list (env := env) 0 none true)
  have h3 := kept_callbackAll h
  unfold processStoredSmsWith; kept <;> exact h3 _
theorem kept_received (h : ∀ c, Steps env TableKept (cb c)) (l : PyStr) : Steps env TableKept (handleSmsReceivedWith cb l) := by
  unfold handleSmsReceivedWith; kept <;> first | exact tk (reach_read _ _) | exact tk (reach_delete _ _) | exact h _
theorem kept_report (h : ∀ c, Steps env TableKept (cb c)) (l : PyStr) : Steps env TableKept (handleSmsStatusReportWith cb l) := by
  have h4 : ∀ st reference ds number t1 t2, Steps env TableKept (updateSent (.report st reference number t1 t2 ds) reference ds) :=
    fun st reference ds number t1 t2 => tk ⟨fun s => .one (.report s st reference ds number t1 t2)⟩
  unfold handleSmsStatusReportWith; kept <;> first | exact tk (reach_read _ _) | exact tk (reach_delete _ _) | exact h _ | exact h4 _ _ _ _ _ _
theorem kept_told {s : St} {i : Nat} {c : CallObj} (hc : s.calls[i]? = some c) (v : Bool) : TableKept s { s with calls := s.calls.set i { c with answered := v } } :=
  ⟨fun h => table_set hc rfl rfl rfl rfl h, ids_set hc rfl rfl⟩
theorem kept_setAnswered (h : ∀ c, Steps env TableKept (cb c)) (i : Nat) (v : Bool) : Steps env TableKept (setAnsweredWith cb i v) := by
  refine ⟨fun s => ?_⟩
  cases hc : s.calls[i]? with
  | none => rw [setAnsweredWith_none hc]; exact kept_pre.refl _
  | some c =>
    rw [setAnsweredWith_run hc]
    split
    · exact kept_pre.trans (kept_told hc v) ((h _).run _)
    · exact kept_told hc v
theorem kept_incoming (h : ∀ c, Steps env TableKept (cb c)) (ls : List PyStr) : Steps env TableKept (handleIncomingCallWith cb ls) := by
  unfold handleIncomingCallWith
  kept <;> first | exact tk (reach_ringLoop _ _ _) | exact h _ | exact tk (reach_ringType _) | exact tk (reach_callTypeOf _) | exact tk (reach_registerNext rfl rfl rfl)
theorem kept_answered (h : ∀ c, Steps env TableKept (cb c)) (o : Option Int) : Steps env TableKept (handleCallAnsweredWith cb o) := by
  have h1 := kept_setAnswered h
  unfold handleCallAnsweredWith; kept <;> exact h1 _ _
theorem kept_endCall (k : Int) : Steps env TableKept (endEntry k) := by
  refine ⟨fun s => ?_⟩
  cases hk : dictGet s.activeCalls k with
  | none => rw [endEntry_gone hk]; exact kept_pre.refl _
  | some i =>
    rw [endEntry_run hk]
    cases hc : s.calls[i]? with
    | none =>
      refine ⟨fun h => ?_, fun j d hd => ⟨d, by simp only [modify_eq_self hc]; exact hd, rfl⟩⟩
      obtain ⟨d, h1, _⟩ := h.2 k i (dictGet_mem hk)
      rw [hc] at h1; cases h1
    | some c =>
      exact ⟨fun h => table_del hc (modify_eq_set hc) (.inl (dictGet_mem hk)) rfl h, ids_set hc (modify_eq_set hc) rfl⟩
theorem kept_ended (h : ∀ c, Steps env TableKept (cb c)) (o : Option Int) (a b : Bool) : Steps env TableKept (handleCallEndedWith cb o a b) := by
  refine ⟨fun s => ?_⟩
  rw [endedWith_run]
  have h1 : ∀ i k, Steps env TableKept (do setAnsweredWith cb i false; endEntry k) := fun i k =>
    Steps.bind kept_pre (kept_setAnswered h i false) fun _ => kept_endCall k
  split
  · exact kept_pre.refl _
  · split
    · exact kept_pre.refl _
    · split
      · exact kept_pre.refl _
      · exact (h1 _ _).run s
theorem kept_answer (h : ∀ c, Steps env TableKept (cb c)) (i : Nat) : Steps env TableKept (answerWith cb i) := by
  have h1 := kept_setAnswered h i true
  have h2 : Steps env TableKept (write py!"ATA") := tk (reach_write (calm_const _))
  have h3 : Steps env TableKept (M.modify fun s => { s with calls := s.calls.modify i fun c => { c with ringing := false } }) := by
    refine ⟨fun s => ?_⟩
    rw [run_modify]
    cases hc : s.calls[i]? with
    | none => rw [modify_eq_self hc]; exact kept_pre.refl _
    | some c => rw [modify_eq_set hc]; exact ⟨fun h => table_set hc rfl rfl rfl rfl h, ids_set hc rfl rfl⟩
  unfold answerWith; kept
theorem set_self {α : Type} {l : List α} {i : Nat} {a : α} (h : l[i]? = some a) : l.set i a = l := by
  apply List.ext_getElem?
  intro j
  by_cases hj : j = i
  · subst hj; rw [get_set_self h, h]
  · rw [List.getElem?_set_ne (Ne.symm hj)]
theorem kept_hangup (h : ∀ c, Steps env TableKept (cb c)) (i : Nat) : Steps env TableKept (hangupWith cb i) := by
  have h2 : Steps env TableKept (write py!"ATH") := tk (reach_write (calm_const _))
  refine ⟨fun s => ?_⟩
  unfold hangupWith
  rw [run_bind, run_get]
  dsimp only
  cases hc : s.calls[i]? with
  | none => exact kept_pre.refl _
  | some c =>
    dsimp only
    rw [run_bind, quiet_run hc]
    dsimp only
    have hq : TableKept s { s with calls := s.calls.set i (quiet c) } :=
      ⟨fun h => table_set hc rfl (by unfold quiet; split <;> rfl) (by unfold quiet; split <;> rfl) rfl h, ids_set hc rfl (by unfold quiet; split <;> rfl)⟩
    obtain ⟨b, hb⟩ : ∃ b : St, b = { s with calls := s.calls.set i (quiet c) } := ⟨_, rfl⟩
    rw [← hb] at hq ⊢
    refine kept_pre.trans hq ?_
    obtain ⟨d, hd, hid⟩ := hq.2 i c hc
    rw [run_bind]
    unfold hangupActiveWith
    cases ha : c.active
    · simp only [Bool.false_eq_true, if_false, run_pure, run_modify]
      exact ⟨fun h => table_del (c' := d) hd (set_self hd).symm (.inr hid) rfl h, fun j e he => ⟨e, he, rfl⟩⟩
    · have hw := h2.run b
      rw [if_pos rfl, run_bind]
      rcases hr : write py!"ATH" true [13] env b with ⟨e | ls, b1⟩
      · rw [hr] at hw; exact hw
      · rw [hr] at hw
        dsimp only
        rw [run_bind]
        have ha := (kept_setAnswered (env := env) h i false).run b1
        rcases hr2 : setAnsweredWith cb i false env b1 with ⟨e | ls, b2⟩
        · rw [hr2] at ha; exact kept_pre.trans hw ha
        · rw [hr2] at ha
          dsimp only
          refine kept_pre.trans hw (kept_pre.trans ha ?_)
          obtain ⟨d1, hd1, hid1⟩ := (kept_pre.trans hw ha).2 i d hd
          simp only [run_modify]
          exact ⟨fun h => table_del hd1 (modify_eq_set hd1) (.inr (hid1.trans hid)) rfl h, ids_set hd1 (modify_eq_set hd1) rfl⟩
theorem kept_callHandler (h : ∀ c, Steps env TableKept (cb c)) (ha : CallHandler) (g : List PyStr) : Steps env TableKept (runCallHandlerWith cb ha g) := by
  unfold runCallHandlerWith
  kept <;> first | exact tk (reach_handleCallInitiated _ _) | exact kept_answered h _ | exact kept_ended h _ _ _
theorem kept_dispatch (h : ∀ c, Steps env TableKept (cb c)) (all : List PyStr) : ∀ ls, Steps env TableKept (dispatchLoopWith cb all ls)
  | [] => by unfold dispatchLoopWith; kept
  | l :: ls => by
    have h0 := kept_dispatch h all ls
    have h3 := tk (reach_handleUssd (env := env) all)
    unfold dispatchLoopWith
    kept <;> first | exact kept_incoming h _ | exact kept_received h _ | exact kept_report h _ | exact kept_callHandler h _ _
theorem kept_pollStep (h : ∀ c, Steps env TableKept (cb c)) (p : Poller) (seen : Option (Int × Int × Int × Int)) : Steps env TableKept (pollStepWith cb p seen) := by
  unfold pollStepWith
  kept <;> first | exact tk (reach_handleCallInitiated _ _) | exact kept_answered h _ | exact kept_ended h _ _ _
theorem kept_pollRound (h : ∀ c, Steps env TableKept (cb c)) (p : Poller) : Steps env TableKept (pollRoundWith cb p) := by
  have h0 := tk (reach_clccQuery (env := env))
  unfold pollRoundWith
  kept <;> exact kept_pollStep h _ _
theorem kept_event (h : ∀ c, Steps env TableKept (cb c)) (e : Event) : Steps env TableKept (e.runWith cb) := by
  cases e with
  | notify ls => exact ⟨fun s => (kept_dispatch h ls ls).run s⟩
  | poll k =>
    refine ⟨fun s => ?_⟩
    simp only [Event.runWith]
    split
    · exact kept_pre.refl _
    · next p _ =>
      have := (kept_pollRound h p).run s
      split
      · next he => rw [he] at this; exact kept_pre.trans this (kept_atom (env := env) (.pollers _ _))
      · next he => rw [he] at this; exact kept_pre.trans this (kept_atom (env := env) (.pollers _ _))
theorem kept_await (h : ∀ c, Steps env TableKept (cb c)) (f : St → Bool) : ∀ es, Steps env TableKept (awaitEventWith cb f es)
  | [] => by unfold awaitEventWith; kept
  | e :: es => by
    have h1 := kept_await h f es
    have h2 := kept_event h e
    unfold awaitEventWith; kept
theorem kept_sendUssd (h : ∀ c, Steps env TableKept (cb c)) (x : PyStr) (du : List Event) : Steps env TableKept (sendUssdWith cb x du) := by
  have h1 := kept_await h
  have h2 : Steps env TableKept (write (cusdCmd x)) := tk (reach_write (by simpa [cusdCmd] using calm_prefix py!"AT+CUSD" _))
  unfold sendUssdWith; kept <;> exact h1 _ _
theorem kept_op [PyUnicode] (h : ∀ c, Steps env TableKept (cb c)) (op : Op) : Steps env TableKept (op.runWith cb) := by
  have hd : ∀ {α : Type} {m : M α}, Steps env TableKept m → Steps env TableKept (discard m) := by
    intro α m h
    unfold discard; kept
  have h1 := kept_await h
  have ht : ∀ op' : Op, op'.runWith cb = op'.run → Steps env TableKept (op'.runWith cb) := fun op' he => he ▸ tk (Op.run_reach op')
  cases op with
  | event e => exact kept_event h e
  | process u => exact kept_process h u
  | sendWait d t f e du =>
    refine hd ?_
    have h2 := tk (reach_send (env := env) d t f)
    unfold sendSmsWaitWith; kept <;> exact h1 _ _
  | ussd s du => exact hd (kept_sendUssd h s du)
  | ussdReply u s du =>
    refine hd ?_
    have h2 := kept_sendUssd h s du
    unfold Ussd.replyWith; kept
  | dial n t c du =>
    refine hd ?_
    have h2 := tk (reach_writeAtd (env := env) n)
    unfold dialWith
    kept <;> first | exact h1 _ _ | exact tk (reach_registerNext rfl rfl rfl) | exact tk (reach_registerCall rfl rfl rfl rfl)
  | answer c => exact kept_answer h c
  | hangup c => exact kept_hangup h c
  | _ => exact ht _ rfl
theorem kept_prog [PyUnicode] (h : ∀ c, Steps env TableKept (cb c)) : ∀ p : UserProg, Steps env TableKept (p.run cb)
  | .done => by unfold UserProg.run; kept
  | .raise _ => by unfold UserProg.run; kept
  | .act op next => ⟨fun s => kept_pre.trans ((kept_op h op).run s) ((kept_prog h (next _ _)).run _)⟩
end

theorem kept_user [PyUnicode] (user : Callback → St → UserProg) : ∀ (n : Nat) (c : Callback), Steps env TableKept (userCode user n c)
  | 0, _ => by unfold userCode; kept
  | n + 1, c => by
    have h1 := tk (reach_callback (env := env) c)
    unfold userCode
    kept
    exact kept_prog (kept_user user n) _
theorem kept_runOps [PyUnicode] {cb : UserCode} (h : ∀ c, Steps env TableKept (cb c)) : ∀ (ops : List Op) (s : St), TableKept s (runOpsWith cb env ops s)
  | [], _ => kept_pre.refl _
  | op :: ops, s => kept_pre.trans ((kept_op h op).run s) (kept_runOps h ops _)

/-! ### Stored messages -/

theorem callbackAllWith_fine {bad : Callback → Bool} : ∀ (ms : List Msg) (s : St), (∀ m ∈ ms, bad (.smsReceived m) = false) →
    callbackAllWith (raisingOn bad) ms env s = (.ok (), { s with callbacks := passOn ms s.callbacks })
  | [], s, _ => rfl
  | m :: ms, s, h => by
    rw [callbackAllWith, run_bind]
    simp only [raisingOn, h m (by simp), Bool.false_eq_true, if_false]
    rw [callbackAllWith_fine ms _ fun m' hm => h m' (by simp [hm])]
    simp [passOn]

theorem callbackAllWith_raises {bad : Callback → Bool} {m : Msg} {lost : List Msg} (hb : bad (.smsReceived m) = true) : ∀ (ms : List Msg) (s : St),
    (∀ m' ∈ ms, bad (.smsReceived m') = false) →
    callbackAllWith (raisingOn bad) (ms ++ m :: lost) env s = (.error .callback, { s with callbacks := passOn (ms ++ [m]) s.callbacks })
  | [], s, _ => by
    rw [List.nil_append, callbackAllWith, run_bind]
    simp only [raisingOn, hb, if_true]
    rfl
  | m1 :: ms, s, h => by
    rw [List.cons_append, callbackAllWith, run_bind]
    simp only [raisingOn, h m1 (by simp), Bool.false_eq_true, if_false]
    rw [callbackAllWith_raises hb ms _ fun m' hm => h m' (by simp [hm])]
    simp [passOn]

/-- Either no element has the property, or there is a first one. -/
theorem first_or_none {α : Type} (f : α → Bool) (l : List α) : (∀ x ∈ l, f x = false) ∨ ∃ a x b, l = a ++ x :: b ∧ (∀ y ∈ a, f y = false) ∧ f x = true := by
  induction l with
  | nil => exact .inl (by simp)
  | cons x l ih =>
    cases hx : f x
    · rcases ih with ih | ⟨a, y, b, rfl, h1, h2⟩
      · exact .inl (by simpa [hx] using ih)
      · exact .inr ⟨x :: a, y, b, rfl, by simpa [hx] using h1, h2⟩
    · exact .inr ⟨[], x, l, rfl, by simp, hx⟩

/-- The loop over the states. -/
def processAllWith (cb : UserCode) : List Bool → M Unit
  | [] => pure ()
  | st :: sts => do
    let messages ← listStoredSms (stateNumber st) none true
    callbackAllWith cb messages
    processAllWith cb sts

theorem processWith_eq (cb : UserCode) (unreadOnly : Bool) (s : St) :
    processStoredSmsWith cb unreadOnly env s = processAllWith cb (processedStates unreadOnly) env s := by
  have h0 : ∀ s, (do let messages ← listStoredSms 0 none true; callbackAllWith cb messages : M Unit) env s = processAllWith cb [false] env s := by
    intro s
    have e : processAllWith cb [false] = (do let messages ← listStoredSms 0 none true; callbackAllWith cb messages; pure () : M Unit) := rfl
    rw [e]
    simp only [run_bind]
    rcases listStoredSms 0 none true env s with ⟨_ | ms, s1⟩
    · rfl
    · dsimp only
      rcases callbackAllWith cb ms env s1 with ⟨_ | ms, s1⟩ <;> rfl
  unfold processedStates
  cases unreadOnly
  · have e : processAllWith cb [true, false] = (do let messages ← listStoredSms 1 none true; callbackAllWith cb messages; processAllWith cb [false] : M Unit) := rfl
    simp only [Bool.false_eq_true, if_false, e]
    rw [processStoredSmsWith]
    simp only [Bool.not_false, if_true, run_bind]
    rcases listStoredSms 1 none true env s with ⟨_ | ms, s1⟩
    · rfl
    · dsimp only
      rcases callbackAllWith cb ms env s1 with ⟨_ | u, s2⟩
      · rfl
      · dsimp only
        rw [← h0]
        simp only [run_bind]
  · exact h0 s

theorem stagesWith_run (bad : Callback → Bool) : ∀ (sts : List Bool) (s : St), ListsWell env.reply s.smsTextMode →
    ∃ r s', processAllWith (raisingOn bad) sts env s = (r, s') ∧ ProcessedWith bad env s sts r s'
  | [], s, _ => ⟨_, _, rfl, .all (ms := []) (LogMem.refl s) .done (by simp)⟩
  | st :: sts, s, hw => by
    rcases stage_run st s hw with ⟨e, s1, h1, h2, h3⟩ | ⟨l, answer, is, cs, ms, s1, h1, h2, h3, h4, h5, h6, h7⟩
    · refine ⟨.error e, s1, by simp only [processAllWith, run_bind, h3], ?_⟩
      have := ProcessedWith.failed (bad := bad) (e := e) (pre := []) (st := st) (rest := sts) (ms := []) rfl h1 .done h2 (by simp)
      obtain ⟨_, _, _, rfl⟩ := h1
      exact this
    · have hm := h1.textMode
      rcases first_or_none (fun m => bad (.smsReceived m)) ms with hb | ⟨a, m, lost, rfl, ha, hb⟩
      · have hrun : processAllWith (raisingOn bad) (st :: sts) env s = processAllWith (raisingOn bad) sts env { s1 with callbacks := passOn ms s1.callbacks } := by
          simp only [processAllWith, run_bind, h7, callbackAllWith_fine ms s1 hb]
        obtain ⟨r, s', k1, k2⟩ := stagesWith_run bad sts { s1 with callbacks := passOn ms s1.callbacks } (by rw [← hm] at hw; exact hw)
        refine ⟨r, s', hrun.trans k1, ?_⟩
        have hcb : s1.callbacks = s.callbacks := by obtain ⟨_, _, _, rfl⟩ := h1; rfl
        have hpre : ∀ {pre l' ms'}, Emptied env.reply s1.smsTextMode pre s1.log l' ms' → Emptied env.reply s.smsTextMode (st :: pre) s.log l' (ms ++ ms') :=
          fun h => .next h2 h3 h4 h5 h6 (hm ▸ h)
        have hback : ∀ {s2 : St}, OnlyWritten { s1 with callbacks := passOn ms s1.callbacks } s2 → OnlyWritten s { s2 with callbacks := s.callbacks } := by
          rintro s2 ⟨_, _, _, rfl⟩
          obtain ⟨_, _, _, rfl⟩ := h1
          exact ⟨_, _, _, rfl⟩
        have hall : ∀ {ms' : List Msg}, (∀ m ∈ ms', bad (.smsReceived m) = false) → ∀ m ∈ ms ++ ms', bad (.smsReceived m) = false := by
          intro ms' h m hmem
          rcases List.mem_append.1 hmem with h' | h'
          · exact hb m h'
          · exact h m h'
        cases k2 with
        | @all ms' s2 g1 g2 g3 =>
          have := ProcessedWith.all (hback g1) (hpre g2) (hall g3)
          simpa [passOn_append, hcb] using this
        | @failed e pre st' rest l' ms' s2 g0 g1 g2 g3 g4 =>
          have := ProcessedWith.failed (bad := bad) (e := e) (pre := st :: pre) (st := st') (rest := rest) (states := st :: sts) (by rw [g0]; rfl) (hback g1) (hpre g2) (hm ▸ g3) (hall g4)
          simpa [passOn_append, hcb] using this
        | @raised pre st' rest ms' m' lost s2 g0 g1 g2 g3 g4 =>
          have g2' := hpre g2
          rw [← List.append_assoc] at g2'
          have := ProcessedWith.raised (pre := st :: pre) (st := st') (rest := rest) (states := st :: sts) (by rw [g0]; rfl) (hback g1) g2' (hall g3) g4
          simpa [passOn_append, hcb] using this
      · refine ⟨_, _, by simp only [processAllWith, run_bind, h7, callbackAllWith_raises hb a s1 ha]; rfl, ?_⟩
        have hcb : s1.callbacks = s.callbacks := by obtain ⟨_, _, _, rfl⟩ := h1; rfl
        rw [hcb]
        refine ProcessedWith.raised (pre := []) (st := st) (rest := sts) (lost := lost) rfl h1 ?_ ha hb
        have := Emptied.next h2 h3 h4 h5 h6 .done
        rwa [List.append_nil] at this

end Gsm
