import Verif.Spec.OwnMode
import Verif.Lemmas.OwnMode
import Verif.Lemmas.AskedThreads
/-! # Lemmas: the mode in which threads write about messages, with threads that wait -/
namespace Gsm
open Spec

namespace Proc

variable {v : Bool}

/-- The same for threads that wait. -/
def Abides {α : Type} (v : Bool) : Proc α → Prop
  | done _ => True
  | io t k => FitsMode v t ∧ ∀ r, Abides v (k r)
  | act f k => ∀ env w, w.st.smsTextMode = v → (∃ new, (f env w).st.log = new ++ w.st.log ∧ ∀ c ∈ new, FitsMode v c) ∧ (f env w).st.smsTextMode = v ∧ Abides v (k env w)

theorem aj_pure {α : Type} (a : α) : Abides v (pure a : Proc α) := trivial
theorem aj_raise {α : Type} (e : PyErr) : Abides v (raise e : Proc α) := trivial
theorem aj_ofExcept {α : Type} (r : Except PyErr α) : Abides v (ofExcept r) := trivial
theorem aj_change {f : Shared → Shared} (h : ∀ w, (f w).st.log = w.st.log ∧ (f w).st.smsTextMode = w.st.smsTextMode) : Abides v (change f) :=
  fun _ w hw => ⟨⟨[], (h w).1, by simp⟩, (h w).2.trans hw, trivial⟩
theorem aj_changeSt {f : St → St} (h : ∀ s, (f s).log = s.log ∧ (f s).smsTextMode = s.smsTextMode) : Abides v (changeSt f) := aj_change fun w => h w.st
theorem aj_look : Abides v look := fun _ _ hw => ⟨⟨[], rfl, by simp⟩, hw, trivial⟩
theorem aj_bind {α β : Type} {p : Proc α} {f : α → Proc β} (h : Abides v p) (hf : ∀ a, Abides v (f a)) : Abides v (p >>= f) := by
  show Abides v (p.bind f)
  induction p with
  | done r => cases r with
    | ok a => exact hf a
    | error e => trivial
  | io t k ih => exact ⟨h.1, fun r => ih r (h.2 r)⟩
  | act g k ih => exact fun env s hs => ⟨(h env s hs).1, (h env s hs).2.1, ih env s (h env s hs).2.2⟩
theorem aj_onError {α : Type} {p : Proc α} {g : Proc Unit} (h : Abides v p) (hg : Abides v g) : Abides v (p.onError g) := by
  induction p with
  | done r => cases r with
    | ok a => trivial
    | error e => exact aj_bind hg fun _ => trivial
  | io t k ih => exact ⟨h.1, fun r => ih r (h.2 r)⟩
  | act f k ih => exact fun env s hs => ⟨(h env s hs).1, (h env s hs).2.1, ih env s (h env s hs).2.2⟩
theorem aj_ite {α : Type} {c : Prop} [Decidable c] {p p' : Proc α} (h : Abides v p) (h' : Abides v p') : Abides v (if c then p else p') := by split <;> assumption
theorem aj_lift {α : Type} {p : Prog α} (h : p.Abides v) : Abides v (lift p) := by
  induction p with
  | done r => trivial
  | io t k ih => exact ⟨h.1, fun r => ih r (h.2 r)⟩
  | act f k ih => exact fun env w hw => ⟨(h env w.st hw).1, (h env w.st hw).2.1, ih env w.st (h env w.st hw).2.2⟩

theorem withEvent_mode (s : St) (x : Slot) (b : Option Bool) : (s.withEvent x b).smsTextMode = s.smsTextMode := by cases x <;> rfl
theorem aj_create (x : Slot) : Abides v (change fun w => w.create x) := aj_change fun w => ⟨withEvent_log _ _ _, withEvent_mode _ _ _⟩
theorem aj_forget (x : Slot) : Abides v (change fun w => w.forget x) := aj_change fun w => ⟨withEvent_log _ _ _, withEvent_mode _ _ _⟩

macro "abidesAll" : tactic => `(tactic| repeat' first
  | assumption
  | with_reducible exact aj_pure _
  | with_reducible exact aj_raise _
  | with_reducible exact aj_ofExcept _
  | with_reducible exact aj_create _
  | with_reducible exact aj_forget _
  | ((with_reducible apply aj_changeSt); intro _; exact ⟨rfl, rfl⟩)
  | with_reducible exact aj_look
  | with_reducible refine aj_bind ?_ fun _ => ?_
  | with_reducible refine aj_ite ?_ ?_
  | with_reducible refine aj_onError ?_ ?_
  | with_reducible refine aj_lift ?_
  | split)

theorem aj_eventOf (x : Slot) : Abides v (eventOf x) := by unfold eventOf; abidesAll
theorem aj_wait (x : Slot) : Abides v (wait x) := by
  have := aj_eventOf (v := v) x
  unfold wait; abidesAll
theorem aj_set (x : Slot) : Abides v (set x) := by
  refine aj_bind (aj_eventOf x) fun e => aj_change fun w => ?_
  show (if w.attr x = some e then w.st.withEvent x (some true) else w.st).log = w.st.log ∧ (if w.attr x = some e then w.st.withEvent x (some true) else w.st).smsTextMode = w.st.smsTextMode
  split
  · exact ⟨withEvent_log _ _ _, withEvent_mode _ _ _⟩
  · exact ⟨rfl, rfl⟩
theorem aj_handleUssd (ls : List PyStr) : Abides v (handleUssd ls) := by
  have := aj_set (v := v) .ussd
  unfold handleUssd; abidesAll
theorem aj_report (l : PyStr) : Abides v (handleSmsStatusReport l) := by
  have h0 := aj_set (v := v) .report
  unfold handleSmsStatusReport; abidesAll
  all_goals first | exact Prog.ab_read _ _ | exact Prog.ab_delete _ none | exact Prog.ab_updateSent _ _ _ | exact Prog.ab_callback _
theorem aj_tellDial (a b : Int) : Abides v (tellDial a b) := by
  have := aj_set (v := v) .dial
  unfold tellDial; abidesAll
theorem aj_initiatedGroups (g : List PyStr) : Abides v (handleInitiatedGroups g) := by
  unfold handleInitiatedGroups; abidesAll
  all_goals exact aj_tellDial _ _
theorem aj_initiated (a b : Int) : Abides v (handleCallInitiated a b) := by
  have := aj_tellDial (v := v) a b
  unfold handleCallInitiated; abidesAll
theorem aj_dispatch (all : List PyStr) : ∀ ls : List PyStr, Abides v (dispatchLoop all ls)
  | [] => trivial
  | l :: ls => by
    have h0 := aj_dispatch all ls
    unfold dispatchLoop; abidesAll
    all_goals first
      | exact Prog.ab_incoming _ | exact Prog.ab_received _ | exact aj_handleUssd _ | exact aj_report _ | exact aj_initiatedGroups _ | exact Prog.ab_handler _ _
theorem aj_pollStep (p : Poller) (seen : Option (Int × Int × Int × Int)) : Abides v (pollStep p seen) := by
  unfold pollStep; abidesAll
  all_goals first | exact aj_initiated _ _ | exact Prog.ab_pollStep _ _
theorem aj_pollRound (p : Poller) : Abides v (pollRound p) := by
  have h1 := Prog.ab_clcc (v := v)
  unfold pollRound; abidesAll
  all_goals exact aj_pollStep _ _
theorem aj_poll : ∀ (n : Nat) (p : Poller), Abides v (poll n p)
  | 0, _ => trivial
  | n + 1, p => aj_bind (aj_pollRound p) fun p => aj_ite trivial (aj_poll n p)
theorem aj_awaitUssd (ls : List PyStr) : Abides v (awaitUssd ls) := by
  have := aj_wait (v := v) .ussd
  unfold awaitUssd; abidesAll
theorem aj_ussd (x : PyStr) : Abides v (sendUssd x) := by
  have h2 : Prog.Abides v (Prog.write (cusdCmd x)) := Prog.ab_other (by simp [cusdCmd])
  unfold sendUssd; abidesAll
  exact aj_awaitUssd _
theorem aj_dial (n : PyStr) (t : Nat) (cb : Bool) : Abides v (dialWait n t cb) := by
  have h0 : FitsMode v (atdCmd n ++ [13]) := fits_other (by simp [atdCmd]) (by simp [atdCmd]) (by simp [atdCmd])
  have h1 : Prog.Abides v (writeAtd n) :=
    Prog.ab_bind Prog.ab_state fun _ => Prog.ab_ite (Prog.ab_bind (Prog.ab_write h0) fun _ => trivial)
      fun _ s hs => ⟨⟨[atdCmd n ++ [13]], rfl, fun c hc => by rw [List.mem_singleton.1 hc]; exact h0⟩, hs, trivial⟩
  have h2 := aj_wait (v := v) .dial
  unfold dialWait awaitDial; abidesAll
  all_goals exact Prog.ab_register _
theorem aj_sendWait [PyUnicode] (d t : PyStr) (f : Bool) : Abides v (sendSmsWait d t f) := by
  have h1 := Prog.ab_send (v := v) d t f
  have h2 := aj_wait (v := v) .report
  unfold sendSmsWait awaitReport; abidesAll

theorem aj_job [PyUnicode] {j : Job} (hj : ∀ x, j = .task x → OneModeTask v x) : Abides v j.proc := by
  cases j with
  | task x =>
    have hx := hj x rfl
    refine aj_bind ?_ fun _ => trivial
    cases x with
    | message m =>
      cases m with
      | statusReport l => exact aj_report l
      | _ => exact aj_lift (ab_task hx)
    | notify ls => exact aj_dispatch ls ls
    | poll n p => exact aj_poll n p
    | _ => exact aj_lift (ab_task hx)
  | ussd x => exact aj_bind (aj_ussd x) fun _ => trivial
  | dial n t cb => exact aj_bind (aj_dial n t cb) fun _ => trivial
  | sendWait d t f => exact aj_bind (aj_sendWait d t f) fun _ => trivial

theorem aj_step {env : Env} {α : Type} {p : Proc α} (h : Abides v p) {w : Shared} (hw : w.st.smsTextMode = v) :
    Abides v (p.step env w).1 ∧ (p.step env w).2.st.smsTextMode = v ∧ ∃ new, (p.step env w).2.st.log = new ++ w.st.log ∧ ∀ c ∈ new, FitsMode v c := by
  cases p with
  | done r => exact ⟨h, hw, [], rfl, by simp⟩
  | io t k => exact ⟨h.2 _, hw, [t], rfl, fun c hc => by rw [List.mem_singleton.1 hc]; exact h.1⟩
  | act f k => exact ⟨(h env w hw).2.2, (h env w hw).2.1, (h env w hw).1⟩

end Proc

open Proc in
theorem aj_threads {env : Env} {v : Bool} : ∀ (schedule : List Nat) (threads : List (Proc Value)) (w : Shared), (∀ p ∈ threads, p.Abides v) → w.st.smsTextMode = v →
    (runProcs env schedule (threads, w)).2.st.smsTextMode = v ∧ ∃ new, (runProcs env schedule (threads, w)).2.st.log = new ++ w.st.log ∧ ∀ c ∈ new, FitsMode v c
  | [], _, _, _, hs => ⟨hs, [], rfl, by simp⟩
  | j :: is, threads, w, h, hs => by
    unfold runProcs
    cases hp : threads[j]? with
    | none => exact aj_threads is threads w h hs
    | some p =>
      obtain ⟨h1, h2, new, h3, h4⟩ := aj_step (env := env) (h p (List.mem_of_getElem? hp)) hs
      obtain ⟨h5, new', h6, h7⟩ := aj_threads (env := env) is (threads.set j (p.step env w).1) (p.step env w).2 (fun q hq => by
        rcases List.mem_or_eq_of_mem_set hq with hq | rfl
        · exact h q hq
        · exact h1) h2
      refine ⟨h5, new' ++ new, by rw [h6, h3]; simp, fun c hc => ?_⟩
      rcases List.mem_append.1 hc with hc | hc
      · exact h7 c hc
      · exact h4 c hc

end Gsm
