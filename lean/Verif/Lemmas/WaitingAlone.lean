import Verif.Lemmas.WaitingTold
import Verif.Props.ThreadCalls
/-! # Jobs without other threads -/
namespace Gsm
open M Spec

variable {env : Env}

namespace Proc

theorem run_bind {α β : Type} (p : Proc α) (f : α → Proc β) (w : Shared) :
    run env (p >>= f) w = match run env p w with | (.ok a, w') => run env (f a) w' | (.error e, w') => (.error e, w') := by
  show run env (p.bind f) w = _
  induction p generalizing w with
  | done r => cases r <;> rfl
  | io t k ih => exact ih _ _
  | act g k ih => exact ih _ _ _

theorem run_lift {α : Type} (q : Prog α) (w : Shared) : run env (lift q) w = ((q.run env w.st).1, { w with st := (q.run env w.st).2 }) := by
  induction q generalizing w with
  | done r => rfl
  | io t k ih => exact ih _ _
  | act f k ih => exact ih _ _ _

theorem run_look {α : Type} (f : Shared → Proc α) (w : Shared) : run env (look >>= f) w = run env (f w) w := rfl
theorem run_change {α : Type} (g : Shared → Shared) (f : Unit → Proc α) (w : Shared) : run env (change g >>= f) w = run env (f ()) (g w) := rfl

/-- The result and the modem object. -/
def view {α : Type} (x : Except PyErr α × Shared) : Except PyErr α × St := (x.1, x.2.st)

/-- The steps do the same as those of `q`. -/
def Alike {α : Type} (env : Env) (p : Proc α) (q : Prog α) (w : Shared) : Prop := view (run env p w) = q.run env w.st

theorem alike_lift {α : Type} (q : Prog α) (w : Shared) : Alike env (lift q) q w := by unfold Alike; rw [run_lift]; rfl

theorem alike_bindLift {α β : Type} {q : Prog α} {f : α → Proc β} {g : α → Prog β} {w : Shared}
    (h : ∀ a s, q.run env w.st = (.ok a, s) → Alike env (f a) (g a) { w with st := s }) : Alike env (lift q >>= f) (q >>= g) w := by
  unfold Alike
  rw [run_bind, run_lift, Prog.run_bind]
  rcases hr : q.run env w.st with ⟨e | a, s⟩
  · rfl
  · exact h a s hr

theorem alike_ite {α : Type} {c : Prop} [Decidable c] {p p' : Proc α} {q q' : Prog α} {w : Shared} (h : c → Alike env p q w) (h' : ¬ c → Alike env p' q' w) :
    Alike env (if c then p else p') (if c then q else q') w := by
  split
  · exact h ‹_›
  · exact h' ‹_›

theorem run_set {x : Slot} {w : Shared} {e : Nat} (h : w.attr x = some e) : view (run env (set x) w) = (.ok (), w.st.withEvent x (some true)) := by
  unfold set
  rw [run_bind]
  unfold eventOf
  rw [run_look, h]
  show view (run env (change fun w => w.setEvent x e) w) = _
  show (Except.ok (), (w.setEvent x e).st) = _
  unfold Shared.setEvent
  rw [if_pos h]

theorem alike_ussd (lines : List PyStr) {w : Shared} (h : (w.attr .ussd).isSome = w.st.ussdSessionEvent.isSome) : Alike env (handleUssd lines) (Prog.handleUssd lines) w := by
  unfold Alike handleUssd Prog.handleUssd
  rw [run_look, Prog.run_look, h]
  by_cases hs : w.st.ussdSessionEvent.isSome = true
  · rw [if_pos hs, if_pos hs]
    obtain ⟨e, he⟩ := Option.isSome_iff_exists.1 (h.trans hs)
    cases parseCusdResponse lines with
    | error e => rfl
    | ok u =>
      show view (run env (set .ussd) { w with st := { w.st with ussdResponse := some u } }) = _
      rw [run_set (w := { w with st := { w.st with ussdResponse := some u } }) he]
      show _ = Prog.run env (Prog.change (fun s => { s with ussdResponse := some u }) >>= fun _ => _) w.st
      rw [Prog.run_change]
      unfold Prog.run
      simp only [hs, if_true]
      rfl
  · rw [if_neg hs, if_neg hs]; rfl

theorem alike_tellDial (a b : Int) {w : Shared} (h : (w.attr .dial).isSome = w.st.dialEvent.isSome) (hs : w.st.dialEvent.isSome = true) :
    Alike env (tellDial a b) (Prog.tellDial a b) w := by
  obtain ⟨e, he⟩ := Option.isSome_iff_exists.1 (h.trans hs)
  unfold Alike
  rw [Prog.run_tellDial a b hs]
  show view (run env (set .dial) { w with st := { w.st with dialResponse := some (a, b) } }) = _
  rw [run_set (w := { w with st := { w.st with dialResponse := some (a, b) } }) he]
  rfl

theorem alike_initiated (a b : Int) {w : Shared} (h : (w.attr .dial).isSome = w.st.dialEvent.isSome) : Alike env (handleCallInitiated a b) (Prog.handleCallInitiated a b) w := by
  unfold Alike handleCallInitiated Prog.handleCallInitiated
  rw [run_look, Prog.run_look, h]
  by_cases hs : w.st.dialEvent.isSome = true
  · rw [if_pos hs, if_pos hs]; exact alike_tellDial a b h hs
  · rw [if_neg hs, if_neg hs]; rfl

theorem alike_groups (g : List PyStr) {w : Shared} (h : (w.attr .dial).isSome = w.st.dialEvent.isSome) :
    Alike env (handleInitiatedGroups g) (Prog.runCallHandler .initiated g) w := by
  unfold Alike handleInitiatedGroups Prog.runCallHandler
  rw [run_look, Prog.run_look, h]
  by_cases hs : w.st.dialEvent.isSome = true
  · rw [if_pos hs, if_pos hs]
    rcases g with _ | ⟨g0, _ | ⟨g1, g⟩⟩
    · rfl
    · dsimp only
      cases pyInt g0 with
      | error e => rfl
      | ok a => exact alike_tellDial _ _ h hs
    · dsimp only
      cases pyInt g0 with
      | error e => rfl
      | ok a =>
        cases pyInt g1 with
        | error e => rfl
        | ok b => exact alike_tellDial _ _ h hs
  · rw [if_neg hs, if_neg hs]; rfl

theorem alike_statusReport (l : PyStr) {w : Shared} (h : (w.attr .report).isSome = w.st.smsStatusReportEvent.isSome) :
    Alike env (handleSmsStatusReport l) (Prog.handleSmsStatusReport l) w := by
  unfold handleSmsStatusReport Prog.handleSmsStatusReport
  rcases rxGroups cdsiRegex l with _ | ⟨_ | ⟨a, _ | ⟨b, _ | ⟨c, g⟩⟩⟩⟩ <;> try rfl
  refine alike_bindLift fun report s1 h1 => alike_bindLift fun _ s2 h2 => ?_
  cases report with
  | received => rfl
  | report st r n t1 t2 d =>
    rw [Prog.same_read] at h1
    rw [Prog.same_delete] at h2
    have e1 : s1.smsStatusReportEvent = w.st.smsStatusReportEvent := by
      have := (sf_read (env := env) b (some a)).run w.st
      rw [h1] at this
      exact congrArg (·.2.2) this.2
    have e2 : s2.smsStatusReportEvent = s1.smsStatusReportEvent := by
      have := (sf_delete (env := env) b none).run s1
      rw [h2] at this
      exact congrArg (·.2.2) this.2
    refine alike_bindLift fun _ s3 h3 => ?_
    have e3 : s3.smsStatusReportEvent = s2.smsStatusReportEvent := by
      rw [show s3 = _ from (congrArg Prod.snd h3).symm]; rfl
    have hw : (w.attr .report).isSome = s3.smsStatusReportEvent.isSome := by rw [e3, e2, e1]; exact h
    unfold Alike
    rw [run_look]
    dsimp only
    rw [hw]
    show _ = Prog.run env _ s3
    unfold Prog.run
    by_cases hs : s3.smsStatusReportEvent.isSome = true
    · simp only [hs, if_true]
      obtain ⟨e, he⟩ := Option.isSome_iff_exists.1 (hw.trans hs)
      rw [run_set (w := { w with st := s3 }) he]
      rfl
    · simp only [hs, Bool.false_eq_true, if_false]
      rw [run_lift]
      rfl

theorem alike_dispatch (lines : List PyStr) {w : Shared} (h : Linked w) : ∀ ls, Alike env (dispatchLoop lines ls) (Prog.dispatchLoop lines ls) w
  | [] => rfl
  | l :: ls => by
    unfold Alike dispatchLoop Prog.dispatchLoop
    rw [run_look, Prog.run_look]
    cases recognise (callTable w.st.callStatusUpdates) l with
    | none => exact alike_dispatch lines h ls
    | some d =>
      cases d with
      | ring => exact alike_lift _ w
      | cmti => exact alike_lift _ w
      | cusd => exact alike_ussd lines h.1
      | cdsi => exact alike_statusReport l h.2.2
      | call hd g =>
        dsimp only
        split
        · rename_i hh; subst hh; exact alike_groups g h.2.1
        · exact alike_lift _ w

/-- What a program keeps, it has kept at its end. -/
theorem keeps_run {α : Type} {G : St → St → Prop} {Q : α → Prop} {q : Prog α} (h : Prog.Keeps env Prog.Always G Q q) (hr : ∀ s, G s s) (ht : ∀ a b c, G a b → G b c → G a c) (s : St) :
    G s (q.run env s).2 := by
  induction q generalizing s with
  | done r => exact hr s
  | io t k ih => exact ht _ _ _ (h s trivial).1 (ih _ (h s trivial).2 _)
  | act f k ih => exact ht _ _ _ (h s trivial).1 (ih _ _ (h s trivial).2 _)

theorem aside_run {α : Type} {q : Prog α} (h : Prog.Quiet env q) (s : St) : Aside s (q.run env s).2 :=
  keeps_run h (fun _ => ⟨rfl, rfl, rfl, rfl⟩) (fun _ _ _ h h' => ⟨h'.1.trans h.1, h'.2.1.trans h.2.1, h'.2.2.1.trans h.2.2.1, h'.2.2.2.trans h.2.2.2⟩) s

/-- The same for a program whose end matters. -/
def AlikeDial {α : Type} (env : Env) (p : Proc α) (q : Prog α) (w : Shared) : Prop :=
  Alike env p q w ∧ ((run env p w).2.attr .dial).isSome = (run env p w).2.st.dialEvent.isSome

theorem alikeDial_lift {α : Type} {q : Prog α} (hq : Prog.Quiet env q) {w : Shared} (h : (w.attr .dial).isSome = w.st.dialEvent.isSome) : AlikeDial env (lift q) q w := by
  refine ⟨alike_lift q w, ?_⟩
  rw [run_lift]
  dsimp only
  rw [(aside_run hq w.st).2.2.2]
  exact h

theorem alikeDial_bind {α β : Type} {p : Proc α} {q : Prog α} {f : α → Proc β} {g : α → Prog β} {w : Shared} (h : AlikeDial env p q w)
    (hf : ∀ a w', (w'.attr .dial).isSome = w'.st.dialEvent.isSome → AlikeDial env (f a) (g a) w') : AlikeDial env (p >>= f) (q >>= g) w := by
  obtain ⟨h1, h2⟩ := h
  unfold AlikeDial Alike at *
  rw [run_bind, Prog.run_bind, ← h1]
  rcases hr : run env p w with ⟨e | a, w'⟩
  · rw [hr] at h2; exact ⟨rfl, h2⟩
  · rw [hr] at h2; exact hf a w' h2

theorem alikeDial_pollRound (p : Poller) {w : Shared} (h : (w.attr .dial).isSome = w.st.dialEvent.isSome) : AlikeDial env (pollRound p) (Prog.pollRound p) w := by
  show AlikeDial env (look >>= _) (Prog.look >>= _) w
  unfold AlikeDial Alike
  rw [run_look, Prog.run_look]
  by_cases hc : w.st.alive ∧ ¬ p.done ∧ 0 < p.timeLeft
  · rw [if_pos hc, if_pos hc]
    refine alikeDial_bind (alikeDial_lift Prog.quiet_clcc h) fun seen w1 h1 => ?_
    generalize (if p.expectedState = 0 then { p with timeLeft := p.timeLeft - 1 } else p) = p'
    rcases seen with _ | ⟨cid, dir, stat, mode⟩
    · exact alikeDial_lift (Prog.quiet_pollStep (by simp)) h1
    · unfold pollStep
      dsimp only
      by_cases hb : dir = 0 ∧ p'.expectedState = 0 ∧ (stat = 2 ∨ stat = 3)
      · rw [if_pos hb]
        show AlikeDial env _ (if dir = 0 then _ else _) w1
        rw [if_pos hb.1, if_pos hb.2.1, if_pos hb.2.2]
        refine alikeDial_bind ⟨alike_initiated cid mode h1, ?_⟩ fun _ w2 h2 => ⟨rfl, h2⟩
        unfold handleCallInitiated
        rw [run_look]
        split
        · rename_i hs
          obtain ⟨e, he⟩ := Option.isSome_iff_exists.1 hs
          unfold tellDial changeSt
          rw [run_change]
          have hv := run_set (env := env) (w := { w1 with st := { w1.st with dialResponse := some (cid, mode) } }) he
          have hst : (run env (set .dial) { w1 with st := { w1.st with dialResponse := some (cid, mode) } }).2.st = _ := congrArg (·.2) hv
          rw [hst]
          show ((run env (set .dial) _).2.attr .dial).isSome = true
          unfold set eventOf
          rw [run_bind, run_look]
          dsimp only
          rw [he]
          exact congrArg Option.isSome he
        · exact h1
      · rw [if_neg hb]
        exact alikeDial_lift (Prog.quiet_pollStep (by rintro a b c d hh; cases hh; exact hb)) h1
  · rw [if_neg hc, if_neg hc]; exact ⟨rfl, h⟩

theorem alikeDial_poll : ∀ (n : Nat) (p : Poller) {w : Shared}, (w.attr .dial).isSome = w.st.dialEvent.isSome → AlikeDial env (poll n p) (Prog.poll n p) w
  | 0, _, _, h => ⟨rfl, h⟩
  | n + 1, p, _, h => alikeDial_bind (alikeDial_pollRound p h) fun p' w' h' => by
    split
    · exact ⟨rfl, h'⟩
    · exact alikeDial_poll n p' h'

theorem alike_task [PyUnicode] (a : Task) {w : Shared} (h : Linked w) : Alike env a.proc a.prog w := by
  cases a with
  | message m =>
    have hm : Alike env (lift m.prog) m.prog w := alike_lift _ w
    cases m with
    | statusReport l => exact alike_statusReport l h.2.2
    | _ => exact hm
  | notify lines => exact alike_dispatch lines h lines
  | poll n p => exact (alikeDial_poll n p h.2.1).1
  | dial n cb => exact alike_lift _ w
  | answer i => exact alike_lift _ w
  | hangup i => exact alike_lift _ w
  | dtmf i tones => exact alike_lift _ w

/-! ### Waiting with nobody to tell -/

/-- A fresh event that nobody sets. -/
theorem run_wait {x : Slot} {α : Type} (f : Bool → Proc α) {w : Shared} {e : Nat} (h : w.attr x = some e) :
    run env (wait x >>= f) w = run env (f ((w.events x)[e]?.getD false)) w := by
  rw [run_bind]
  unfold wait eventOf
  rw [run_bind, run_look, h]
  rfl

theorem run_wait_at {x : Slot} {α : Type} (f : Bool → Proc α) {s : St} {events : Slot → List Bool} {attr : Slot → Option Nat} {e : Nat} (h : attr x = some e) :
    run env (wait x >>= f) ⟨s, events, attr⟩ = run env (f ((events x)[e]?.getD false)) ⟨s, events, attr⟩ := run_wait f h

theorem run_onError {α : Type} (p : Proc α) (h : Proc Unit) (w : Shared) :
    run env (p.onError h) w = match run env p w with | (.ok a, w') => (.ok a, w') | (.error e, w') => run env (do h; raise e) w' := by
  induction p generalizing w with
  | done r => cases r <;> rfl
  | io t k ih => exact ih _ _
  | act g k ih => exact ih _ _ _

theorem create_false (x : Slot) (w : Shared) : (w.create x).attr x = some (w.events x).length ∧ ((w.create x).events x)[(w.events x).length]?.getD false = false := by
  refine ⟨if_pos rfl, ?_⟩
  have he : (w.create x).events x = w.events x ++ [false] := if_pos rfl
  rw [he, List.getElem?_concat_length]; rfl

theorem alone_ussd (s : PyStr) (w : Shared) : view (run env (sendUssd s) w) = Gsm.sendUssd s [] env w.st := by
  unfold sendUssd Gsm.sendUssd
  rw [run_change, run_bind, run_onError, run_lift, Prog.same_write, Gsm.run_bind, run_modify]
  dsimp only
  rw [Gsm.run_bind]
  unfold M.except
  obtain ⟨ok, s1, ⟨l, wt, h1⟩, _, h3⟩ := write_trans (env := env) (cusdCmd s) [13] { w.st with ussdSessionEvent := some false }
  have hst : (w.create .ussd).st = { w.st with ussdSessionEvent := some false } := rfl
  rw [hst]
  obtain ⟨ha, hb⟩ := create_false .ussd w
  rcases h3 with ⟨_, h3⟩ | ⟨_, e, h3⟩
  · rw [h3]
    dsimp only
    generalize lastAnswer env s1.log = ls
    unfold awaitUssd
    by_cases hc : ls.length > 1 ∧ lineStartingWith py!"+CUSD" ls ≠ none
    · rw [if_pos hc, if_pos hc, run_change, Gsm.run_bind, run_modify]
      dsimp only
      cases parseCusdResponse ls <;> rfl
    · rw [if_neg hc, if_neg hc, run_wait_at _ ha, hb, run_change, Gsm.run_bind]
      subst h1
      rfl
  · rw [h3]
    rfl

theorem alone_dial (n : PyStr) (k : Nat) (cb : Bool) {w : Shared} (hw : w.st.waitForCallInitUpdate = true) : view (run env (dialWait n k cb) w) = dial n k cb [] env w.st := by
  have hsame : Prog.Same (writeAtd n) (Gsm.writeAtd n) := Prog.same_bind Prog.same_look fun _ => Prog.same_ite (Prog.same_bind (Prog.same_write _ _ _) fun _ => Prog.same_pure _) (Prog.same_change _)
  obtain ⟨ha, hb⟩ := create_false .dial w
  unfold dialWait dial
  rw [run_change, run_bind, run_onError, run_lift, Gsm.run_bind, run_get]
  dsimp only
  rw [if_pos hw, Gsm.run_bind, run_modify, hsame]
  dsimp only
  rw [Gsm.run_bind]
  unfold M.except
  have hst : (w.create .dial).st = { w.st with dialEvent := some false } := rfl
  rw [hst]
  have hsteady : (Gsm.writeAtd n env { w.st with dialEvent := some false }).2.dialEvent = some false ∧
      (Gsm.writeAtd n env { w.st with dialEvent := some false }).2.mustPollCallStatus = w.st.mustPollCallStatus := by
    unfold Gsm.writeAtd
    rw [Gsm.run_bind, run_get]
    dsimp only
    split
    · obtain ⟨ok, s1, ⟨l, wt, h1⟩, _, h3⟩ := write_trans (env := env) (atdCmd n) [13] { w.st with dialEvent := some false }
      subst h1
      rcases h3 with ⟨_, h3⟩ | ⟨_, e, h3⟩ <;> rw [Gsm.run_bind, h3] <;> exact ⟨rfl, rfl⟩
    · exact ⟨rfl, rfl⟩
  rcases hr : Gsm.writeAtd n env { w.st with dialEvent := some false } with ⟨e | _, s1⟩
  · rfl
  · rw [hr] at hsteady
    obtain ⟨h1, h2⟩ := hsteady
    dsimp only at h1 h2 ⊢
    rw [run_look]
    dsimp only
    rw [h2]
    unfold awaitDial
    split
    · unfold changeSt
      rw [run_change, run_wait_at _ ha, hb, run_change, Gsm.run_bind, run_modify]
      dsimp only
      rw [Gsm.run_bind]
      unfold awaitEvent
      rw [Gsm.run_bind, run_get]
      dsimp only
      rw [h1]
      rfl
    · rw [run_wait_at _ ha, hb, run_change, Gsm.run_bind]
      unfold awaitEvent
      rw [Gsm.run_bind, run_get]
      dsimp only
      rw [h1]
      rfl

theorem alone_sendWait [PyUnicode] (d tx : PyStr) (f : Bool) (w : Shared) : view (run env (sendSmsWait d tx f) w) = Gsm.sendSmsWait d tx f [] [] env w.st := by
  unfold sendSmsWait Gsm.sendSmsWait
  rw [run_bind, run_lift, Prog.same_send, Gsm.run_bind]
  rcases Gsm.sendSms d tx f env w.st with ⟨e | i, s1⟩
  · rfl
  · dsimp only
    obtain ⟨ha, hb⟩ := create_false .report { w with st := s1 }
    unfold awaitReport
    rw [run_change, run_wait _ ha, hb, run_change]
    rfl

theorem alone_job [PyUnicode] (y : Job) {w : Shared} (h : Linked w) (hd : DialWaits y w.st) : view (run env y.proc w) = jobAlone y env w.st := by
  have fin : ∀ {α : Type} {p : Proc α} {m : M α} {f : α → Value}, view (run env p w) = m env w.st →
      view (run env (p >>= fun a => pure (f a)) w) = (m >>= fun a => pure (f a)) env w.st := by
    intro α p m f hp
    rw [run_bind, Gsm.run_bind, ← hp]
    rcases run env p w with ⟨e | a, w'⟩ <;> rfl
  cases y with
  | task a => exact fin ((alike_task a h).trans (same_task a env w.st))
  | ussd s => exact fin (alone_ussd s w)
  | dial n k cb => exact fin (alone_dial n k cb hd)
  | sendWait d tx f => exact fin (alone_sendWait d tx f w)

end Proc
end Gsm
