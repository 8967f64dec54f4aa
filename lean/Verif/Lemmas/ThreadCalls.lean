import Verif.Spec.ThreadCalls
import Verif.Lemmas.Threads
import Verif.Lemmas.Calls
/-! # Calls in steps, without other threads -/
namespace Gsm
open M Spec

variable {env : Env}

namespace Prog

theorem run_except {α : Type} (p : Prog α) (c : PyErr → Bool) (h : PyErr → Prog α) (s : St) : run env (p.except c h) s =
    match run env p s with | (.ok a, s) => (.ok a, s) | (.error e, s) => if c e then run env (h e) s else (.error e, s) := by
  induction p generalizing s with
  | done r =>
    cases r with
    | ok a => rfl
    | error e =>
      show run env (if c e then h e else _) s = if c e then _ else _
      split <;> rfl
  | io t k ih => exact ih _ _
  | act f k ih => exact ih _ _ _

theorem same_except {α : Type} {p : Prog α} {m : M α} {c : PyErr → Bool} {h : PyErr → Prog α} {g : PyErr → M α} (hp : Same p m) (hh : ∀ e, Same (h e) (g e)) :
    Same (p.except c h) (M.except m c g) := by
  intro env s
  rw [run_except, hp]
  unfold M.except
  rcases m env s with ⟨e | a, s'⟩
  · dsimp only
    split
    · exact hh e env s'
    · rfl
  · rfl

theorem same_tryCommand {α : Type} {p : Prog α} {m : M α} (hp : Same p m) : Same (tryCommand p) (M.tryCommand m) :=
  same_except (same_bind hp fun _ => same_pure _) fun _ => same_pure _

theorem run_look {α : Type} (f : St → Prog α) (s : St) : run env (look >>= f) s = run env (f s) s := rfl
theorem run_change {α : Type} (g : St → St) (f : Unit → Prog α) (s : St) : run env (change g >>= f) s = run env (f ()) (g s) := rfl

theorem same_ussd (lines : List PyStr) : Same (handleUssd lines) (Gsm.handleUssd lines) := by
  intro env s
  unfold handleUssd Gsm.handleUssd
  rw [run_look, Gsm.run_bind, run_get]
  dsimp only
  by_cases h : s.ussdSessionEvent.isSome = true
  · rw [if_pos h, if_pos h, run_bind, same_ofExcept (parseCusdResponse lines) env s, Gsm.run_bind]
    cases parseCusdResponse lines with
    | error e => rfl
    | ok r =>
      rw [run_ofExcept]
      dsimp only
      rw [run_change]
      unfold run
      simp only [h, if_true]
      rfl
  · rw [if_neg h, if_neg h]; rfl

theorem same_setAnswered (i : Nat) (v : Bool) : Same (setAnswered i v) (Gsm.setAnswered i v) := by
  refine same_bind (same_change _) fun _ => same_bind same_look fun s => ?_
  cases s.calls[i]? with
  | none => exact same_pure _
  | some c => exact same_ite (same_callback _) (same_pure _)

theorem same_register (c : CallObj) : Same (registerCall c) (Gsm.registerCall c) := fun _ _ => rfl
theorem same_registerNext (c : CallObj) : Same (registerNext c) (Gsm.registerNext c) := fun _ _ => rfl

theorem run_sameSize {α : Type} {n : Nat} {f : Unit → Prog α} {s : St} (h : s.activeCalls.length = n) : run env (sameSize n >>= f) s = run env (f ()) s := by
  unfold sameSize
  rw [run_bind, run_look, if_pos h]
  rfl

theorem run_countRing (i : Nat) {c : CallObj} {s : St} (h : s.calls[i]? = some c) : run env (countRing i) s =
    (.ok (), { s with calls := s.calls.modify i fun c => { c with ringCount := c.ringCount + 1 } }) := by
  unfold countRing
  rw [run_look]
  simp only [h]
  show (Except.ok (), { s with calls := s.calls.modify i fun c' => { c' with ringCount := c.ringCount + 1 } }) = _
  rw [modify_eq_set h, modify_eq_set h]

theorem run_ringLoop (n : Option PyStr) : ∀ (is : List (Int × Nat)) (call : Option Nat) (s : St), run env (ringLoop n s.activeCalls.length is call) s = Gsm.ringLoop n is call env s
  | [], call, s => by unfold ringLoop; rw [run_sameSize rfl]; rfl
  | (k, i) :: is, call, s => by
    unfold ringLoop Gsm.ringLoop
    rw [run_sameSize rfl, run_look, Gsm.run_bind, run_get]
    dsimp only
    cases h : s.calls[i]? with
    | none => exact run_ringLoop n is call s
    | some c =>
      dsimp only
      by_cases h1 : c.number = n
      · rw [if_pos h1, if_pos h1]
        by_cases h2 : c.incoming = true
        · rw [if_pos h2, if_pos h2, run_bind, run_countRing i h, Gsm.run_bind, run_modify]
          exact run_ringLoop n is (some i) { s with calls := s.calls.modify i fun c => { c with ringCount := c.ringCount + 1 } }
        · rw [if_neg h2, if_neg h2]; rfl
      · rw [if_neg h1, if_neg h1]
        exact run_ringLoop n is call s

theorem same_ringType (l : PyStr) : Same (ringType l) (Gsm.ringType l) := by
  refine same_bind same_look fun s => same_ite ?_ (same_pure _)
  cases afterSpace l with
  | some t => exact same_pure _
  | none =>
    refine same_bind (same_tryCommand (same_write _ _ _)) fun r => ?_
    cases r with
    | some _ => exact same_pure _
    | none => exact same_bind (same_change _) fun _ => same_pure _

theorem run_newIncoming (t n ton : Option PyStr) : Same (newIncoming t n ton) (do
      let type ← Gsm.callTypeOf t
      let i ← Gsm.registerNext { incoming := true, id := 0, type := type, number := n, ton := ton, ringing := true, ringCount := 1 }
      Gsm.callback (.incomingCall i)) := by
  intro env s
  unfold newIncoming
  rw [run_look]
  cases t with
  | none => rfl
  | some t =>
    by_cases h : t = py!"VOICE"
    · subst h; rfl
    · simp only [callTypeOf, Gsm.callTypeOf, if_neg h]; rfl

theorem same_incoming (lines : List PyStr) : Same (handleIncomingCall lines) (Gsm.handleIncomingCall lines) := by
  cases lines with
  | nil => exact same_raise _
  | cons l lines =>
    refine same_bind (same_ringType l) fun t => ?_
    intro env s
    rw [run_look, run_look, Gsm.run_bind, run_get, run_bind, run_ringLoop]
    dsimp only
    rw [Gsm.run_bind]
    rcases Gsm.ringLoop (callerOf s lines).1 s.activeCalls none env s with ⟨e | r, s'⟩
    · rfl
    · cases r with
      | some i => rfl
      | none => exact run_newIncoming _ _ _ env s'

theorem run_tellDial (a b : Int) {s : St} (h : s.dialEvent.isSome = true) : run env (tellDial a b) s = (.ok (), { s with dialResponse := some (a, b), dialEvent := some true }) := by
  unfold tellDial
  rw [run_change]
  unfold run
  simp only [h, if_true]
  rfl

theorem same_initiated (a b : Int) : Same (handleCallInitiated a b) (Gsm.handleCallInitiated a b) := by
  intro env s
  unfold handleCallInitiated Gsm.handleCallInitiated
  rw [run_look, Gsm.run_bind, run_get]
  dsimp only
  by_cases h : s.dialEvent.isSome = true
  · rw [if_pos h, if_pos h, run_tellDial a b h]; rfl
  · rw [if_neg h, if_neg h]; rfl

theorem run_firstOutgoing (f : Bool) (s : St) : ∀ is : List (Int × Nat), run env (firstOutgoing f s.activeCalls.length is) s =
    (.ok ((is.map (·.2)).find? fun i => match s.calls[i]? with | some c => !c.incoming && (!f || !c.answered) | none => false), s)
  | [] => by unfold firstOutgoing; rw [run_sameSize rfl]; rfl
  | (k, i) :: is => by
    unfold firstOutgoing
    rw [run_sameSize rfl, run_look, List.map_cons, List.find?_cons]
    cases h : s.calls[i]? with
    | none => simpa [h] using run_firstOutgoing f s is
    | some c =>
      cases hc : !c.incoming && (!f || !c.answered) with
      | true => simp only [h, hc]; rfl
      | false => simp only [h, hc]; exact run_firstOutgoing f s is

theorem run_lookUp {k : Int} {s : St} : run env (lookUp k) s = match dictGet s.activeCalls k with | some i => (.ok i, s) | none => (.error .keyError, s) := by
  unfold lookUp
  rw [run_look]
  cases dictGet s.activeCalls k <;> rfl

theorem same_answered (k : Option Int) : Same (handleCallAnswered k) (Gsm.handleCallAnswered k) := by
  intro env s
  cases k with
  | some k =>
    show run env (lookUp k >>= fun i => setAnswered i true) s = (match dictGet s.activeCalls k with | some i => Gsm.setAnswered i true | none => M.raise .keyError) env s
    rw [run_bind, run_lookUp]
    cases dictGet s.activeCalls k with
    | none => rfl
    | some i => exact same_setAnswered i true env s
  | none =>
    show run env (firstOutgoing true s.activeCalls.length s.activeCalls >>= fun r => match r with | some i => setAnswered i true | none => pure ()) s =
      (match Gsm.firstOutgoing s true with | some i => Gsm.setAnswered i true | none => pure ()) env s
    rw [run_bind, run_firstOutgoing]
    show run env (match Gsm.firstOutgoing s true with | some i => setAnswered i true | none => pure ()) s = _
    cases Gsm.firstOutgoing s true with
    | none => rfl
    | some i => exact same_setAnswered i true env s

theorem run_removeCall {k : Int} {i : Nat} {s : St} (h : dictGet s.activeCalls k = some i) : run env (removeCall k) s = (.ok (), { s with activeCalls := dictDel s.activeCalls k }) := by
  unfold removeCall run
  simp only [h, Option.isSome_some, if_true]
  rfl

/-- What ends a call, in the method. -/
theorem run_endCall (k : Option Int) (s : St) : run env (endCall k) s =
    match k with
    | none => (.ok (), s)
    | some id => if id = 0 then (.ok (), s) else
      match dictGet s.activeCalls id with
      | none => (.ok (), s)
      | some i =>
        match s.calls[i]? with
        | none => (.ok (), { s with activeCalls := dictDel s.activeCalls id })
        | some c => (.ok (), { s with calls := s.calls.set i { c with answered := false, active := false }, callbacks := (if c.callback then .callStatus i :: s.callbacks else s.callbacks), activeCalls := dictDel s.activeCalls id }) := by
  cases k with
  | none => rfl
  | some k =>
    unfold endCall
    by_cases h0 : k = 0
    · subst h0; rfl
    · simp only [ne_eq, h0, not_false_eq_true, if_true, if_false]
      rw [run_look]
      cases hk : dictGet s.activeCalls k with
      | none => rfl
      | some i =>
        simp only [Option.isSome_some, if_true]
        rw [run_bind, run_lookUp, hk]
        dsimp only
        rw [run_bind, same_setAnswered i false env s]
        cases hc : s.calls[i]? with
        | none =>
          rw [setAnswered_none hc]
          dsimp only
          rw [run_bind, run_lookUp, hk]
          dsimp only
          unfold changeCall
          rw [run_change, run_removeCall (i := i) (by exact hk)]
          simp only [modify_eq_self hc]
        | some c =>
          rw [setAnswered_run hc]
          dsimp only
          rw [run_bind, run_lookUp]
          simp only [withAnswered, hk]
          unfold changeCall
          rw [run_change, run_removeCall (i := i) (by exact hk)]
          simp only
          rw [modify_eq_set (get_set_self hc)]
          simp [List.set_set]

theorem same_ended (k : Option Int) (search filter : Bool) : Same (handleCallEnded k search filter) (Gsm.handleCallEnded k search filter) := by
  intro env s
  refine .trans ?_ ((run_endCall (env := env) _ s).trans (ended_run k search filter s).symm)
  unfold handleCallEnded endedId
  cases search with
  | false => rfl
  | true =>
    simp only [if_true]
    rw [run_look, run_bind, run_firstOutgoing]
    show run env (match Gsm.firstOutgoing s filter with | some i => _ | none => _) s = run env (endCall (match Gsm.firstOutgoing s filter with | some i => (s.calls[i]?).map (·.id) | none => k)) s
    cases Gsm.firstOutgoing s filter with
    | none => rfl
    | some i => rfl

theorem same_handler (h : CallHandler) (g : List PyStr) : Same (runCallHandler h g) (Gsm.runCallHandler h g) := by
  cases h with
  | initiated =>
    intro env s
    unfold runCallHandler Gsm.runCallHandler
    dsimp only
    rw [run_look, Gsm.run_bind, run_get]
    dsimp only
    by_cases h : s.dialEvent.isSome = true
    · rw [if_pos h, if_pos h]
      have tell : ∀ a b, run env (tellDial a b) s = Gsm.handleCallInitiated a b env s := fun a b => by
        rw [← same_initiated a b env s]
        unfold handleCallInitiated
        rw [run_look, if_pos h]
      rcases g with _ | ⟨g0, _ | ⟨g1, g⟩⟩
      · rfl
      · dsimp only
        rw [run_bind, Gsm.run_bind, same_ofExcept (pyInt g0) env s, run_ofExcept]
        cases pyInt g0 with
        | error e => rfl
        | ok a => exact tell a 1
      · dsimp only
        rw [run_bind, Gsm.run_bind, same_ofExcept (pyInt g0) env s, run_ofExcept]
        cases pyInt g0 with
        | error e => rfl
        | ok a =>
          dsimp only
          rw [run_bind, Gsm.run_bind, same_ofExcept (pyInt g1) env s, run_ofExcept]
          cases pyInt g1 with
          | error e => rfl
          | ok b => exact tell a b
    · rw [if_neg h, if_neg h]; rfl
  | answered =>
    rcases g with _ | ⟨g0, _ | ⟨g1, g⟩⟩
    · exact same_answered none
    · exact same_answered none
    · exact same_bind (same_ofExcept _) fun a => same_answered (some a)
  | ended =>
    rcases g with _ | ⟨g0, g⟩
    · exact same_ended _ _ _
    · exact same_bind (same_ofExcept _) fun a => same_ended _ _ _
  | rejected =>
    rcases g with _ | ⟨g0, g⟩
    · exact same_ended _ _ _
    · exact same_bind (same_ofExcept _) fun a => same_ended _ _ _

theorem same_dispatch (lines : List PyStr) : ∀ ls, Same (dispatchLoop lines ls) (Gsm.dispatchLoop lines ls)
  | [] => same_pure _
  | l :: ls => by
    refine same_bind same_look fun s => ?_
    cases recognise (callTable s.callStatusUpdates) l with
    | none => exact same_dispatch lines ls
    | some d =>
      cases d with
      | ring => exact same_incoming _
      | cmti => exact same_received _
      | cusd => exact same_ussd _
      | cdsi => exact same_statusReport _
      | call h g => exact same_handler h g

theorem same_clcc : Same clccQuery Gsm.clccQuery := by
  refine same_except (same_bind (same_write _ _ _) fun ls => same_bind (same_ofExcept _) fun l => ?_) fun _ => same_pure _
  rcases rxGroups clccRegex l with _ | ⟨_ | ⟨a, _ | ⟨b, _ | ⟨c, _ | ⟨d, g⟩⟩⟩⟩⟩ <;> try exact same_pure _
  exact same_bind (same_ofExcept _) fun _ => same_bind (same_ofExcept _) fun _ => same_bind (same_ofExcept _) fun _ => same_bind (same_ofExcept _) fun _ => same_pure _

theorem same_pollStep (p : Poller) (r : Option (Int × Int × Int × Int)) : Same (pollStep p r) (Gsm.pollStep p r) := by
  rcases r with _ | ⟨a, b, c, d⟩
  · exact same_ite (same_bind (same_ended _ _ _) fun _ => same_pure _) (same_ite (same_bind (same_ended _ _ _) fun _ => same_pure _) (same_pure _))
  · exact same_ite (same_ite (same_ite (same_bind (same_initiated _ _) fun _ => same_pure _) (same_pure _))
      (same_ite (same_ite (same_bind (same_answered _) fun _ => same_pure _) (same_pure _)) (same_pure _))) (same_pure _)

theorem same_pollRound (p : Poller) : Same (pollRound p) (Gsm.pollRound p) :=
  same_bind same_look fun _ => same_ite (same_bind same_clcc fun _ => same_pollStep _ _) (same_pure _)

theorem same_poll : ∀ (n : Nat) (p : Poller), Same (poll n p) (pollRounds n p)
  | 0, _ => same_pure _
  | n + 1, p => same_bind (same_pollRound p) fun p' => same_ite (same_pure _) (same_poll n p')

theorem same_dial (n : PyStr) (cb : Bool) : Same (dialNow n cb) (do
    writeAtd n
    discard (Gsm.registerNext { incoming := false, id := 0, type := some 0, number := some n, callback := cb })) := by
  have tail : ∀ c, Same (registerNext c >>= fun _ => (pure () : Prog Unit)) (discard (Gsm.registerNext c)) := fun c => same_bind (same_registerNext c) fun _ => same_pure _
  intro env s
  unfold dialNow writeAtd
  rw [run_look, Gsm.run_bind, Gsm.run_bind, run_get]
  dsimp only
  by_cases h : s.waitForAtdResponse = true
  · rw [if_pos h, if_pos h, run_bind, same_write _ _ _ env s, Gsm.run_bind]
    rcases Gsm.write (atdCmd n) true [13] env s with ⟨e | r, s'⟩
    · rfl
    · exact tail _ env s'
  · rw [if_neg h, if_neg h]
    exact tail _ env _

theorem dictDel_absent {α : Type} {d : List (Int × α)} {k : Int} (h : dictGet d k = none) : dictDel d k = d := by
  rw [dictGet_none] at h
  unfold dictDel
  rw [List.filter_eq_self]
  intro x hx
  simp only [decide_eq_true_eq]
  exact fun hk => h (hk ▸ List.mem_map_of_mem hx)

theorem same_removeIfThere (k : Int) : Same (removeIfThere k) (M.modify fun s => { s with activeCalls := dictDel s.activeCalls k }) := by
  intro env s
  unfold removeIfThere
  rw [run_look]
  cases h : dictGet s.activeCalls k with
  | none =>
    rw [run_modify, dictDel_absent h]; rfl
  | some i => exact run_removeCall h

theorem same_hangupActive (i : Nat) (c : CallObj) : Same (hangupActive i c) (Gsm.hangupActive i c) :=
  same_ite (same_bind (same_write _ _ _) fun _ => same_bind (same_setAnswered _ _) fun _ => same_change _) (same_pure _)

theorem same_hangup (i : Nat) : Same (hangup i) (Gsm.hangup i) := by
  intro env s
  unfold hangup Gsm.hangup stopRinging changeCall
  rw [run_change, run_look, Gsm.run_bind, run_get]
  dsimp only
  cases h : s.calls[i]? with
  | none =>
    rw [modify_eq_self h]
    simp only [h]
    rfl
  | some c =>
    rw [modify_eq_set h]
    simp only [get_set_self h]
    rw [Gsm.run_bind, quiet_run h]
    dsimp only
    have hq : (if c.incoming then { c with ringing := false } else c) = quiet c := rfl
    rw [hq]
    have h1 : (quiet c).id = c.id := by unfold quiet; split <;> rfl
    have h2 : (quiet c).active = c.active := by unfold quiet; split <;> rfl
    have h3 : hangupActive i (quiet c) = hangupActive i c := by unfold hangupActive; rw [h2]
    rw [h1, h3]
    exact same_bind (same_hangupActive i c) (fun _ => same_removeIfThere c.id) env _

theorem same_answer (i : Nat) : Same (answer i) (Gsm.answer i) := by
  refine same_bind same_look fun s => ?_
  cases s.calls[i]? with
  | none => exact same_pure _
  | some c => exact same_ite (same_bind (same_write _ _ _) fun _ => same_bind (same_change _) fun _ => same_setAnswered _ _) (same_pure _)

theorem same_dtmf (i : Nat) (t : PyStr) : Same (sendDtmfTone i t) (Gsm.sendDtmfTone i t) := by
  refine same_bind same_look fun s => ?_
  cases s.calls[i]? with
  | none => exact same_pure _
  | some c => exact same_ite (same_bind (same_ofExcept _) fun _ => same_except (same_bind (same_write _ _ _) fun _ => same_pure _) fun _ => same_raise _) (same_raise _)

end Prog
end Gsm
