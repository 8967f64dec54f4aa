import Verif.Spec.OwnMemory
import Verif.Lemmas.OwnMemory
import Verif.Lemmas.OwnMemoryJobs
/-! # C129: threads that name one memory read and delete in it -/
namespace Gsm
open Spec

variable {env : Env}

/-- `linesWithPast` has the lines of the threads: each line after the start belongs to a thread, with what was sent before it, and nothing else does. -/
theorem C129_lines [PyUnicode] {tasks : List Task} {s : St} {m : PyStr} (h : ∀ x ∈ tasks, OneMemoryTask m x) (hs : s.smsMemReadDelete = some m → MemoryInUse env m s.log)
    (schedule : List Nat) (c : PyStr) (past : List PyStr) :
    (∃ i, (c, past) ∈ linesWithPast env i schedule (tasks.map Task.prog, s)) ↔ s.log <:+ past ∧ c :: past <:+ (performTasks env schedule tasks s).2.log := by
  have hk := knowing_start h hs
  constructor
  · rintro ⟨i, hi⟩
    exact lines_log schedule _ s hk _ hi
  · rintro ⟨⟨l2, rfl⟩, l1, hl⟩
    obtain ⟨new, h1, h2⟩ := log_lines schedule _ s hk
    unfold performTasks at hl
    rw [h1] at hl
    have he : (l1 ++ c :: l2) ++ s.log = new ++ s.log := by simpa using hl
    exact h2 l1 c l2 (List.append_cancel_right he).symm

/-- If no thread names another memory, a thread that names one reads, lists and deletes messages only while it is the last that the modem has agreed to use; at first, any memory may be in use,
provided that it is not noted wrongly. -/
theorem C129_memory [PyUnicode] {tasks : List Task} {s : St} {m : PyStr} (h : ∀ x ∈ tasks, OneMemoryTask m x) (hs : s.smsMemReadDelete = some m → MemoryInUse env m s.log)
    {i : Nat} {x : Task} (hx : tasks[i]? = some x) (hn : NamesMemoryTask m x) (schedule : List Nat) {c : PyStr} {past : List PyStr}
    (hc : (c, past) ∈ linesWithPast env i schedule (tasks.map Task.prog, s)) (hu : UsesMemory c) : MemoryInUse env m past :=
  knowing_lines ⟨x, hx, hn⟩ schedule _ s (knowing_start h hs) _ hc hu

/-- The memory stays noted rightly, so that the same holds of the threads that come later. -/
theorem C129_noted [PyUnicode] {tasks : List Task} {s : St} {m : PyStr} (h : ∀ x ∈ tasks, OneMemoryTask m x) (hs : s.smsMemReadDelete = some m → MemoryInUse env m s.log)
    (schedule : List Nat) (hm : (performTasks env schedule tasks s).2.smsMemReadDelete = some m) : MemoryInUse env m (performTasks env schedule tasks s).2.log :=
  (knowing_end schedule _ s (knowing_start h hs)).noted hm

/-- If all threads name the memory, nothing is read or deleted in another. -/
theorem C129_all [PyUnicode] {tasks : List Task} {s : St} {m : PyStr} (h : ∀ x ∈ tasks, OneMemoryTask m x ∧ NamesMemoryTask m x) (hs : s.smsMemReadDelete = some m → MemoryInUse env m s.log)
    (schedule : List Nat) : UsedOnlyWith env.reply (memoryCmd m) s.log (performTasks env schedule tasks s).2.log := by
  have hk := knowing_start (fun x hx => (h x hx).1) hs
  obtain ⟨new, h1, h2⟩ := log_lines schedule _ s hk
  refine ⟨new, h1, fun l1 c l2 he hu => ?_⟩
  obtain ⟨i, hi⟩ := h2 l1 c l2 he
  cases hx : tasks[i]? with
  | some x => exact C129_memory (fun x hx => (h x hx).1) hs hx (h x (List.mem_of_getElem? hx)).2 schedule hi hu
  | none =>
    exfalso
    have no : ∀ (sch : List Nat) (threads : List (Prog Unit)) (s : St), threads[i]? = none → linesWithPast env i sch (threads, s) = [] := by
      intro sch
      induction sch with
      | nil => exact fun _ _ _ => rfl
      | cons j js ih =>
        intro threads s hn
        unfold linesWithPast
        cases hp : threads[j]? with
        | none => exact ih threads s hn
        | some p =>
          have hij : j ≠ i := fun e => by rw [e, hn] at hp; cases hp
          dsimp only
          rw [ih _ _ (by rw [List.getElem?_set_ne hij]; exact hn)]
          cases p <;> simp [hij]
    rw [no schedule _ s (by simp [hx])] at hi
    cases hi

/-- The same for threads that wait for events: the memory stays noted rightly, and if all name it, nothing is read or deleted in another. -/
theorem C129_waiting [PyUnicode] {jobs : List Job} {w : Shared} {m : PyStr} (h : ∀ x ∈ jobs, OneMemoryJob m x) (hs : w.st.smsMemReadDelete = some m → MemoryInUse env m w.st.log)
    (schedule : List Nat) :
    ((performJobs env schedule jobs w).2.st.smsMemReadDelete = some m → MemoryInUse env m (performJobs env schedule jobs w).2.st.log) ∧
    ((∀ x ∈ jobs, NamesMemoryJob m x) → UsedOnlyWith env.reply (memoryCmd m) w.st.log (performJobs env schedule jobs w).2.st.log) :=
  hj_threads schedule (jobs.map Job.proc) w hs fun p hp => by
    obtain ⟨x, hx, rfl⟩ := List.mem_map.1 hp
    exact ⟨False, False.elim, False, Proc.hj_claim (Proc.hj_job (h x hx)) fun hn => hn x hx⟩

/-! ### Examples -/

section
attribute [local instance] asciiUnicode

/-- The thread of a notification, one that reads a message of the same memory, and one that dials. -/
def sameMemoryTwice : List Task := [.message (.received py!"+CMTI: \"ME\",3"), .message (.read py!"3" (some py!"ME")), .dial py!"12" false]

theorem notes_ME : OneMemory py!"ME" (.received py!"+CMTI: \"ME\",3") ∧ NamesMemory py!"ME" (.received py!"+CMTI: \"ME\",3") := by
  have hg : rxGroups cmtiRegex py!"+CMTI: \"ME\",3" = some [py!"ME", py!"3"] := by decide +kernel
  rw [cmti_rx] at hg
  constructor
  · intro mem idx h
    have h1 := stored_iff.2 ⟨mem, idx, rfl, h⟩
    rw [hg] at h1
    simp at h1
    exact h1.1.symm
  · obtain ⟨mem, idx, he, h⟩ := stored_iff.1 hg
    simp at he
    exact ⟨idx, he.1 ▸ h⟩

/-- When no memory is noted: both threads select it, and use it. -/
example : (∀ x ∈ sameMemoryTwice, OneMemoryTask py!"ME" x ∧ NamesMemoryTask py!"ME" x) ∧
    (linesWithPast storeModem 0 ([0, 1, 0, 1, 2, 2, 2, 0, 1, 0, 1] ++ List.replicate 20 0 ++ List.replicate 20 1) (sameMemoryTwice.map Task.prog, { smsTextMode := true })).map Prod.fst =
      [py!"AT+CPMS=\"ME\"\r", py!"AT+CMGR=3\r", py!"AT+CMGD=3,0\r"] ∧
    linesWithPast storeModem 1 ([0, 1, 0, 1, 2, 2, 2, 0, 1, 0, 1] ++ List.replicate 20 0 ++ List.replicate 20 1) (sameMemoryTwice.map Task.prog, { smsTextMode := true }) =
      [(py!"AT+CPMS=\"ME\"\r", [py!"AT+CPMS=\"ME\"\r", py!"ATD12;\r"]),
       (py!"AT+CMGR=3\r", [py!"AT+CMGD=3,0\r", py!"AT+CMGR=3\r", py!"AT+CPMS=\"ME\"\r", py!"AT+CPMS=\"ME\"\r", py!"ATD12;\r"])] := by
  refine ⟨fun x hx => ?_, by decide +kernel, by decide +kernel⟩
  simp only [sameMemoryTwice, List.mem_cons, List.not_mem_nil, or_false] at hx
  rcases hx with rfl | rfl | rfl
  · exact notes_ME
  · exact ⟨Or.inr rfl, rfl⟩
  · exact ⟨trivial, trivial⟩

/-- A thread that reads a message, and one that dials and waits. -/
example : (∀ x ∈ [Job.task (.message (.read py!"3" (some py!"ME"))), .dial py!"12" 5 false], OneMemoryJob py!"ME" x ∧ NamesMemoryJob py!"ME" x) ∧
    (performJobs storeModem ([0, 1, 0, 1, 0, 1, 1, 1] ++ List.replicate 20 0) [.task (.message (.read py!"3" (some py!"ME"))), .dial py!"12" 5 false] { st := { smsTextMode := true } }).2.st.log.reverse =
      [py!"AT+CPMS=\"ME\"\r", py!"ATD12;\r", py!"AT+CMGR=3\r"] := by
  refine ⟨fun x hx => ?_, by decide +kernel⟩
  simp only [List.mem_cons, List.not_mem_nil, or_false] at hx
  rcases hx with rfl | rfl
  · exact ⟨Or.inr rfl, rfl⟩
  · exact ⟨trivial, trivial⟩

/-- With two memories it fails: the thread that names SM reads while ME is in use. -/
theorem C129_two_memories_violated : ∃ past, NamesMemory py!"SM" (.read py!"3" (some py!"SM")) ∧ twoReads[0]? = some (.read py!"3" (some py!"SM")) ∧
    (py!"AT+CMGR=3\r", past) ∈ linesWithPast storeModem 0 staleSchedule (twoReads.map Method.prog, { smsTextMode := true }) ∧ MemoryInUse storeModem py!"ME" past :=
  ⟨[py!"AT+CPMS=\"ME\"\r", py!"AT+CPMS=\"SM\"\r"], rfl, rfl, by decide +kernel, .here (memoryCmd_selects py!"ME") ⟨_, _, rfl, rfl, by decide +kernel, by decide +kernel⟩⟩

end

end Gsm
