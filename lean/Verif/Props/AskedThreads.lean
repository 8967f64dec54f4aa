import Verif.Lemmas.AskedThreads
import Verif.Props.Asked
/-! # C126: Several threads together send nothing that none of them may send

Methods, notifications and polling in threads of their own, which take their steps in any order and wait for each other. -/
namespace Gsm
open Spec

variable {env : Env}

/-- Every line is one that a thread may send which has taken a step. -/
theorem C126_threads [PyUnicode] (jobs : List Job) (schedule : List Nat) (w : Shared) :
    ∃ sent, (performJobs env schedule jobs w).2.st.log = sent ++ w.st.log ∧ ∀ c ∈ sent, ∃ i ∈ schedule, ∃ j, jobs[i]? = some j ∧ JobLine j c := by
  refine emits_procs env (Q := fun i c => ∃ j, jobs[i]? = some j ∧ JobLine j c) schedule _ w fun i p hp => ?_
  rw [List.getElem?_map] at hp
  cases hj : jobs[i]? with
  | none => rw [hj] at hp; cases hp
  | some j =>
    rw [hj] at hp
    cases hp
    have key : ∀ {α : Type} {P Q : PyStr → Prop} {p : Proc α}, (∀ c, P c → Q c) → p.Emits P → p.Emits Q := by
      intro α P Q p hpq h
      induction p with
      | done r => trivial
      | io t k ih => exact ⟨hpq _ h.1, fun r => ih r (h.2 r)⟩
      | act f k ih => exact ⟨fun env w => (h.1 env w).imp fun new hn => ⟨hn.1, fun c hc => hpq c (hn.2 c hc)⟩, fun env w => ih env w (h.2 env w)⟩
    exact key (fun c hc => ⟨j, rfl, hc⟩) (Proc.eo_job j)

/-- A kind of lines that none of the threads may send is not sent, unless the program writes it itself. -/
theorem C126_not_sent [PyUnicode] {k : Purpose} {jobs : List Job} (h : ∀ j ∈ jobs, k ∉ jobMay j) (ha : ∀ command, Job.task (.message (.ask command)) ∈ jobs → ¬ k.Of (command ++ [13]))
    (schedule : List Nat) (w : Shared) : ∃ sent, (performJobs env schedule jobs w).2.st.log = sent ++ w.st.log ∧ ∀ c ∈ sent, ¬ k.Of c := by
  obtain ⟨sent, h1, h2⟩ := C126_threads (env := env) jobs schedule w
  refine ⟨sent, h1, fun c hc hk => ?_⟩
  obtain ⟨i, -, j, hj, hl⟩ := h2 c hc
  have hj := List.mem_of_getElem? hj
  rcases hl with ⟨k', hk', hc'⟩ | ⟨command, rfl, rfl⟩
  · exact h j hj (C115_kinds hk hc' ▸ hk')
  · exact ha command hj hk

/-- What comes from outside, in as many threads as there are notifications: the program never dials, takes or ends calls, or sends messages or requests. -/
theorem C126_events [PyUnicode] {jobs : List Job} (h : ∀ j ∈ jobs, (∃ lines, j = .task (.notify lines)) ∨ ∃ n p, j = .task (.poll n p)) (schedule : List Nat) (w : Shared) :
    SentOnly [.ringType, .memory, .fetch, .erase, .ask] w.st.log (performJobs env schedule jobs w).2.st.log := by
  obtain ⟨sent, h1, h2⟩ := C126_threads (env := env) jobs schedule w
  refine ⟨sent, h1, fun c hc => ?_⟩
  obtain ⟨i, -, j, hj, hl⟩ := h2 c hc
  rcases hl with ⟨k, hk, hc'⟩ | ⟨command, rfl, -⟩
  · refine ⟨k, ?_, hc'⟩
    rcases h j (List.mem_of_getElem? hj) with ⟨ls, rfl⟩ | ⟨n, p, rfl⟩ <;> simp [jobMay, taskMay] at hk ⊢ <;> grind
  · rcases h _ (List.mem_of_getElem? hj) with ⟨ls, hx⟩ | ⟨n, p, hx⟩ <;> simp at hx

/-! ### Who may do what -/

/-- Only the threads that dial dial; only those that send messages send them; only those for USSD send requests; only those for it answer, hang up or send tones. -/
theorem C126_who {j : Job} : (Purpose.dial ∈ jobMay j → (∃ n cb, j = .task (.dial n cb)) ∨ ∃ n t cb, j = .dial n t cb) ∧
    (Purpose.post ∈ jobMay j ∨ Purpose.body ∈ jobMay j → (∃ d t f, j = .task (.message (.send d t f))) ∨ ∃ d t f, j = .sendWait d t f) ∧
    (Purpose.ussd ∈ jobMay j → ∃ x, j = .ussd x) ∧ (Purpose.answer ∈ jobMay j → ∃ i, j = .task (.answer i)) ∧
    (Purpose.hangUp ∈ jobMay j → ∃ i, j = .task (.hangup i)) ∧ (Purpose.tones ∈ jobMay j → ∃ i t, j = .task (.dtmf i t)) := by
  cases j with
  | task x =>
    cases x with
    | message m => cases m <;> simp [jobMay, taskMay, methodMay] <;> (try (split <;> simp))
    | _ => simp [jobMay, taskMay]
  | _ => simp [jobMay]

/-! ### Examples -/

attribute [local instance] asciiUnicode

/-- A notification and a call that is dialled, mixed: each line is of one of the two. -/
example : (performJobs (modemWith fun _ => none) [0, 1, 0, 0, 0, 1, 1, 0, 0, 1, 0, 0, 1, 0] [.task (.notify [py!"+CMTI: \"SM\",3"]), .dial py!"12" 5 false] { st := {} }).2.st.log =
    [py!"AT+CMGR=3\r", py!"ATD12;\r", py!"AT+CPMS=\"SM\"\r"] := by decide +kernel

/-- A thread that has taken no step sends nothing. -/
example : (performJobs (modemWith fun _ => none) [0, 0, 0, 0, 0, 0, 0, 0] [.task (.notify [py!"+CUSD: 0,\"x\",15"]), .dial py!"12" 5 false] { st := {} }).2.st.log = [] := by decide +kernel

end Gsm
