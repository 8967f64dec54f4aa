import Verif.Spec.AskedWith
import Verif.Lemmas.Asked
/-! # Lemmas: which commands are sent by whom, with callbacks that do something -/
namespace Gsm
open M Spec

variable {env : Env} {ks : List Purpose} {cb : UserCode}

/-- The code of the user sends lines of these kinds only. -/
abbrev CodeSends (env : Env) (ks : List Purpose) (cb : UserCode) : Prop := ∀ c, Steps env (SendsOnly ks) (cb c)

theorem aw_callbackAll (h : CodeSends env ks cb) : ∀ ms : List Msg, Steps env (SendsOnly ks) (callbackAllWith cb ms)
  | [] => by unfold callbackAllWith; askedNone
  | m :: ms => by
    have h1 := aw_callbackAll h ms
    have h2 := h (.smsReceived m)
    unfold callbackAllWith; askedNone
theorem aw_process (h : CodeSends env ks cb) (hl : .list ∈ ks) (he : .erase ∈ ks) (u : Bool) : Steps env (SendsOnly ks) (processStoredSmsWith cb u) := by
  have h1 := as_list (env := env) (m := none) (.inr rfl) hl 1 true (fun _ => he)
  have h2 := as_list (env := env) (m := none) (.inr rfl) hl 0 true (fun _ => he)
  have h3 := aw_callbackAll h
  unfold processStoredSmsWith; askedNone <;> exact h3 _
theorem aw_received (h : CodeSends env ks cb) (hm : .memory ∈ ks) (hf : .fetch ∈ ks) (he : .erase ∈ ks) (l : PyStr) :
    Steps env (SendsOnly ks) (handleSmsReceivedWith cb l) := by
  have h1 := fun i m => as_read (env := env) hm hf i m
  have h2 := fun i => as_deleteHere (env := env) he i
  unfold handleSmsReceivedWith; askedNone <;> first | exact h1 _ _ | exact h2 _ | exact h _
theorem aw_report (h : CodeSends env ks cb) (hm : .memory ∈ ks) (hf : .fetch ∈ ks) (he : .erase ∈ ks) (l : PyStr) :
    Steps env (SendsOnly ks) (handleSmsStatusReportWith cb l) := by
  have h1 := fun i m => as_read (env := env) hm hf i m
  have h2 := fun i => as_deleteHere (env := env) he i
  unfold handleSmsStatusReportWith updateSent; askedNone <;> first | exact h1 _ _ | exact h2 _ | exact h _
theorem aw_setAnswered (h : CodeSends env ks cb) (i : Nat) (v : Bool) : Steps env (SendsOnly ks) (setAnsweredWith cb i v) := by
  have h := h (.callStatus i)
  unfold setAnsweredWith; askedNone
theorem aw_incoming (h : CodeSends env ks cb) (hr : .ringType ∈ ks) (ls : List PyStr) : Steps env (SendsOnly ks) (handleIncomingCallWith cb ls) := by
  unfold handleIncomingCallWith; askedNone
  all_goals first | exact as_ringLoop _ _ _ | exact h _ | exact as_ringType hr _ | exact as_callTypeOf _ | exact as_registerNext _
theorem aw_answered (h : CodeSends env ks cb) (o : Option Int) : Steps env (SendsOnly ks) (handleCallAnsweredWith cb o) := by
  unfold handleCallAnsweredWith; askedNone
  all_goals exact aw_setAnswered h _ _
theorem aw_endEntry (c : Int) : Steps env (SendsOnly ks) (endEntry c) := by unfold endEntry; askedNone
theorem aw_ended (h : CodeSends env ks cb) (c : Option Int) (a b : Bool) : Steps env (SendsOnly ks) (handleCallEndedWith cb c a b) := by
  unfold handleCallEndedWith; askedNone
  all_goals first | exact aw_setAnswered h _ _ | exact aw_endEntry _
theorem aw_runCallHandler (h : CodeSends env ks cb) (c : CallHandler) (g : List PyStr) : Steps env (SendsOnly ks) (runCallHandlerWith cb c g) := by
  unfold runCallHandlerWith; askedNone
  all_goals first | exact as_initiated _ _ | exact aw_answered h _ | exact aw_ended h _ _ _
theorem aw_dispatch (h : CodeSends env ks cb) (hr : .ringType ∈ ks) (hm : .memory ∈ ks) (hf : .fetch ∈ ks) (he : .erase ∈ ks) (all : List PyStr) :
    ∀ ls : List PyStr, Steps env (SendsOnly ks) (dispatchLoopWith cb all ls)
  | [] => by unfold dispatchLoopWith; askedNone
  | l :: ls => by
    have h0 := aw_dispatch h hr hm hf he all ls
    have h1 := aw_incoming h hr all
    have h2 := aw_received h hm hf he l
    have h3 := as_handleUssd (env := env) (ks := ks) all
    have h4 := aw_report h hm hf he l
    unfold dispatchLoopWith; askedNone
    all_goals exact aw_runCallHandler h _ _
theorem aw_pollStep (h : CodeSends env ks cb) (p : Poller) (seen : Option (Int × Int × Int × Int)) : Steps env (SendsOnly ks) (pollStepWith cb p seen) := by
  unfold pollStepWith; askedNone
  all_goals first | exact as_initiated _ _ | exact aw_answered h _ | exact aw_ended h _ _ _
theorem aw_pollRound (h : CodeSends env ks cb) (ha : .ask ∈ ks) (p : Poller) : Steps env (SendsOnly ks) (pollRoundWith cb p) := by
  have h0 : Steps env (SendsOnly ks) clccQuery := by unfold clccQuery; askedFor ha
  unfold pollRoundWith; askedNone
  all_goals exact aw_pollStep h _ _
theorem aw_event {e : Event} (hc : CodeSends env ks cb) (h : ∀ k ∈ eventMay e, k ∈ ks) : Steps env (SendsOnly ks) (e.runWith cb) := by
  cases e with
  | notify ls => exact ⟨fun s => (aw_dispatch hc (h _ (by simp [eventMay])) (h _ (by simp [eventMay])) (h _ (by simp [eventMay])) (h _ (by simp [eventMay])) ls ls).run s⟩
  | poll k =>
    refine ⟨fun s => ?_⟩
    simp only [Event.runWith]
    split
    · exact frame_pre.refl s
    · next p _ =>
      have := (aw_pollRound hc (h .ask (by simp [eventMay])) p).run s
      split
      · next he => rw [he] at this; exact frame_pre.trans this (frame_same rfl rfl)
      · next he => rw [he] at this; exact frame_pre.trans this (frame_same rfl rfl)
theorem aw_await (hc : CodeSends env ks cb) (f : St → Bool) : ∀ es : List Event, (∀ k ∈ es.flatMap eventMay, k ∈ ks) → Steps env (SendsOnly ks) (awaitEventWith cb f es)
  | [], _ => by unfold awaitEventWith; askedNone
  | e :: es, he => by
    have h1 := aw_await hc f es (fun x hx => he x (by simp at hx ⊢; exact .inr hx))
    have h2 := aw_event (e := e) hc (fun x hx => he x (by simp; exact .inl hx))
    unfold awaitEventWith; askedNone
theorem aw_sendWait [PyUnicode] (hc : CodeSends env ks cb) (hp : .post ∈ ks) (hb : .body ∈ ks) (d t : PyStr) (f : Bool) {e du : List Event}
    (he : ∀ k ∈ e.flatMap eventMay, k ∈ ks) (hdu : ∀ k ∈ du.flatMap eventMay, k ∈ ks) : Steps env (SendsOnly ks) (sendSmsWaitWith cb d t f e du) := by
  have h1 := as_send (env := env) hp hb d t f
  unfold sendSmsWaitWith; askedNone
  all_goals first | exact aw_await hc _ _ he | exact aw_await hc _ _ hdu
theorem aw_ussd (hc : CodeSends env ks cb) (hu : .ussd ∈ ks) (x : PyStr) {du : List Event} (hdu : ∀ k ∈ du.flatMap eventMay, k ∈ ks) :
    Steps env (SendsOnly ks) (sendUssdWith cb x du) := by
  have h2 : Steps env (SendsOnly ks) (write (cusdCmd x)) := asked_write hu (by
    have := kind_of (k := .ussd) (p := py!"AT+CUSD=1") (rest := (cusdCmd x).drop 9) (by decide) (by decide)
    simpa [cusdCmd] using this)
  unfold sendUssdWith; askedNone
  all_goals exact aw_await hc _ _ hdu
theorem aw_dial (hc : CodeSends env ks cb) (hk : .dial ∈ ks) (n : PyStr) (t : Nat) (b : Bool) {du : List Event} (hdu : ∀ k ∈ du.flatMap eventMay, k ∈ ks) :
    Steps env (SendsOnly ks) (dialWith cb n t b du) := by
  have hp : Purpose.dial.Of (atdCmd n ++ [13]) := by
    have := kind_of (k := .dial) (p := py!"ATD") (rest := (atdCmd n).drop 3) (by decide) (by decide)
    simpa [atdCmd] using this
  have h1 : Steps env (SendsOnly ks) (write (atdCmd n)) := asked_write hk hp
  have h2 : Steps env (SendsOnly ks) (writeNoWait (atdCmd n)) := ⟨fun s => ⟨⟨[atdCmd n ++ [13]], rfl, fun c hc => ⟨_, hk, by rw [List.mem_singleton.1 hc]; exact hp⟩⟩, rfl⟩⟩
  unfold dialWith writeAtd; askedNone
  all_goals first | exact aw_await hc _ _ hdu | exact as_registerNext _ | exact as_registerCall _
theorem aw_hangup (hc : CodeSends env ks cb) (h : .hangUp ∈ ks) (i : Nat) : Steps env (SendsOnly ks) (hangupWith cb i) := by
  unfold hangupWith stopRinging hangupActiveWith; askedFor h
  all_goals exact aw_setAnswered hc _ _
theorem aw_answer (hc : CodeSends env ks cb) (h : .answer ∈ ks) (i : Nat) : Steps env (SendsOnly ks) (answerWith cb i) := by
  unfold answerWith; askedFor h
  all_goals exact aw_setAnswered hc _ _

theorem sendsOnly_mono {ks' : List Purpose} (h : ∀ k ∈ ks, k ∈ ks') {α : Type} {m : M α} (hm : Steps env (SendsOnly ks) m) : Steps env (SendsOnly ks') m := by
  refine ⟨fun s => ?_⟩
  obtain ⟨⟨new, h1, h2⟩, h3⟩ := hm.run s
  exact ⟨⟨new, h1, fun c hc => (h2 c hc).imp fun k hk => ⟨h k hk.1, hk.2⟩⟩, h3⟩

/-- Every operation. -/
theorem aw_op [PyUnicode] (op : Op) (h : ∀ k ∈ opMay op, k ∈ ks) (hc : CodeSends env ks cb) : Steps env (SendsOnly ks) (op.runWith cb) := by
  cases op with
  | event e => exact aw_event hc h
  | process u => exact aw_process hc (h _ (by simp [opMay])) (h _ (by simp [opMay])) u
  | sendWait d t f e du =>
    refine as_discard (aw_sendWait hc (h _ (by simp [opMay])) (h _ (by simp [opMay])) d t f ?_ ?_)
    · intro k hk; refine h _ ?_; simp only [opMay, List.flatMap_append, List.mem_append]; exact .inr (.inl hk)
    · intro k hk; refine h _ ?_; simp only [opMay, List.flatMap_append, List.mem_append]; exact .inr (.inr hk)
  | ussd x du => exact as_discard (aw_ussd hc (h _ (by simp [opMay])) x fun k hk => h _ (List.mem_cons_of_mem _ hk))
  | ussdReply u x du =>
    refine as_discard ?_
    unfold Ussd.replyWith
    by_cases hu : u.sessionActive
    · rw [if_pos hu]; simp only [opMay, if_pos hu] at h
      exact aw_ussd hc (h _ (by simp)) x fun k hk => h _ (List.mem_cons_of_mem _ hk)
    · rw [if_neg hu]; askedNone
  | dial n t b du => exact as_discard (aw_dial hc (h _ (by simp [opMay])) n t b fun k hk => h _ (List.mem_cons_of_mem _ hk))
  | answer i => exact aw_answer hc (h _ (by simp [opMay])) i
  | hangup i => exact aw_hangup hc (h _ (by simp [opMay])) i
  | _ => exact sendsOnly_mono h (as_op _)

theorem aw_prog [PyUnicode] (hc : CodeSends env ks cb) {p : UserProg} (hp : UsesOnly ks p) : Steps env (SendsOnly ks) (p.run cb) := by
  induction hp with
  | done => exact Steps.pure frame_pre _
  | raise e => exact Steps.raise frame_pre _
  | act hop _ ih => exact ⟨fun s => frame_pre.trans ((aw_op _ hop hc).run s) ((ih _ _).run _)⟩

theorem aw_userCode [PyUnicode] {user : Callback → St → UserProg} (hu : ∀ c s, UsesOnly ks (user c s)) : ∀ depth, CodeSends env ks (userCode user depth)
  | 0, _ => Steps.raise frame_pre _
  | d + 1, c => by
    have h1 := as_callback (env := env) (ks := ks) c
    refine Steps.bind frame_pre h1 fun _ => Steps.bind frame_pre (Steps.get frame_pre) fun s => aw_prog (aw_userCode hu d) (hu c s)

end Gsm
