import Verif.Spec.OwnMode
import Verif.Lemmas.OwnMode
import Verif.Lemmas.OwnModeJobs
/-! # C130: commands in the form of the mode in use, while threads set no other -/
namespace Gsm
open Spec

variable {env : Env}

/-- If no thread sets another mode than the one noted, it stays noted at every moment, no command sets a mode, and every listing and announcement is in its form. -/
theorem C130_form [PyUnicode] {tasks : List Task} {s : St} {text : Bool} (h : ∀ x ∈ tasks, OneModeTask text x) (hs : s.smsTextMode = text) (schedule : List Nat) :
    (performTasks env schedule tasks s).2.smsTextMode = text ∧
    ∃ new, (performTasks env schedule tasks s).2.log = new ++ s.log ∧ ∀ c ∈ new, ¬ SelectsMode c ∧ InForm text c :=
  ab_threads schedule _ s (fun p hp => by
    obtain ⟨x, hx, rfl⟩ := List.mem_map.1 hp
    exact ab_task (h x hx)) hs

/-- If the modem was in this mode at first, it is at every line, so what it shows and takes is in the form that the library expects. -/
theorem C130_in_use [PyUnicode] {tasks : List Task} {s : St} {text : Bool} (h : ∀ x ∈ tasks, OneModeTask text x) (hs : s.smsTextMode = text) (hm : ModeInUse env text s.log)
    (schedule : List Nat) {past : List PyStr} (h1 : s.log <:+ past) (h2 : past <:+ (performTasks env schedule tasks s).2.log) : ModeInUse env text past := by
  obtain ⟨_, new, hl, hn⟩ := C130_form (env := env) h hs schedule
  obtain ⟨l2, rfl⟩ := h1
  obtain ⟨l1, h3⟩ := h2
  rw [hl, ← List.append_assoc] at h3
  have := List.append_cancel_right h3
  exact modeInUse_lines hm l2 fun c hc => (hn c (by rw [← this]; exact List.mem_append_right _ hc)).1

/-- The same for threads that wait for events: for dialed calls, USSD answers, and delivery reports. -/
theorem C130_waiting [PyUnicode] {jobs : List Job} {w : Shared} {text : Bool} (h : ∀ x, .task x ∈ jobs → OneModeTask text x) (hs : w.st.smsTextMode = text) (schedule : List Nat) :
    (performJobs env schedule jobs w).2.st.smsTextMode = text ∧
    ∃ new, (performJobs env schedule jobs w).2.st.log = new ++ w.st.log ∧ (∀ c ∈ new, ¬ SelectsMode c ∧ InForm text c) ∧
      (ModeInUse env text w.st.log → ∀ past, past <:+ new → ModeInUse env text (past ++ w.st.log)) := by
  obtain ⟨h1, new, h2, h3⟩ := aj_threads (env := env) schedule (jobs.map Job.proc) w (fun p hp => by
    obtain ⟨x, hx, rfl⟩ := List.mem_map.1 hp
    exact Proc.aj_job fun y hy => h y (hy ▸ hx)) hs
  exact ⟨h1, new, h2, h3, fun hm past hp => modeInUse_lines hm past fun c hc => (h3 c (hp.subset hc)).1⟩

/-! ### Examples -/

section
attribute [local instance] asciiUnicode

def textTasks : List Task := [.message (.list 4 none false), .message (.setTextMode true), .message (.send py!"12" py!"Hi" false)]
def textState : St := { alive := true, smsTextMode := true, log := [py!"AT+CMGF=1\r"] }

/-- Threads that list, set the mode that is noted, and send. -/
example : (∀ x ∈ textTasks, OneModeTask true x) ∧ ModeInUse storeModem true textState.log ∧
    (performTasks storeModem ([0, 1, 2, 0, 1, 2] ++ List.replicate 9 1 ++ List.replicate 9 0 ++ List.replicate 9 2) textTasks textState).2.log.reverse =
      [py!"AT+CMGF=1\r", py!"AT+CMGL=\"ALL\"\r", py!"AT+CMGS=\"12\"\r", py!"Hi" ++ [26]] := by
  refine ⟨fun x hx => ?_, .here (Or.inr rfl) ⟨_, _, rfl, rfl, by decide +kernel, by decide +kernel⟩, by decide +kernel⟩
  simp only [textTasks, List.mem_cons, List.not_mem_nil, or_false] at hx
  rcases hx with rfl | rfl | rfl
  · exact trivial
  · exact rfl
  · exact trivial

/-- A thread that sends and waits for the report, while another lists. -/
example : (∀ x, .task x ∈ [Job.sendWait py!"12" py!"Hi" false, .task (.message (.list 4 none false))] → OneModeTask true x) ∧
    (performJobs storeModem ([0, 1, 0, 1] ++ List.replicate 12 1 ++ List.replicate 20 0) [.sendWait py!"12" py!"Hi" false, .task (.message (.list 4 none false))] { st := textState }).2.st.log.reverse =
      [py!"AT+CMGF=1\r", py!"AT+CMGL=\"ALL\"\r", py!"AT+CMGS=\"12\"\r", py!"Hi" ++ [26]] := by
  refine ⟨fun x hx => ?_, by decide +kernel⟩
  simp only [List.mem_cons, List.not_mem_nil, or_false, reduceCtorEq, false_or, Job.task.injEq] at hx
  subst hx
  exact trivial

/-- If a thread sets the other mode, a thread that lists messages can ask for them in the form of the mode before. -/
theorem C130_other_mode_violated : ∃ past, py!"AT+CMGL=4\r" :: past =
      (performTasks storeModem ([0] ++ List.replicate 9 1 ++ List.replicate 9 0) [.message (.list 4 none false), .message (.setTextMode true)] { alive := true, log := [py!"AT+CMGF=0\r"] }).2.log ∧
    ModeInUse storeModem true past ∧ ¬ InForm true py!"AT+CMGL=4\r" :=
  ⟨[py!"AT+CMGF=1\r", py!"AT+CMGF=0\r"], by decide +kernel, .here (Or.inr rfl) ⟨_, _, rfl, rfl, by decide +kernel, by decide +kernel⟩, fun h =>
    absurd ((h py!"AT+CMGL=" (Or.inl rfl) (by decide) (by decide)).2 rfl) (by decide)⟩

end

end Gsm
