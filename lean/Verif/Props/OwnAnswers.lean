import Verif.Lemmas.OwnAnswers
import Verif.Props.OwnLines
/-! # C128: A thread whose command is refused sends nothing more

Threads that have to do with messages among any others, which take their steps in any order. -/
namespace Gsm
open Spec

variable {env : Env}

/-- The lines with answers are those of the thread. -/
theorem C128_lines (i : Nat) (schedule : List Nat) (x : List (Proc Value) × Shared) : (ownTalk env i schedule x).map Prod.fst = ownLines i (utterances env schedule x) :=
  ownTalk_lines env i schedule x

/-- The commands of the thread are carried out one after the other: the next is sent only after the modem has taken the one before, and a command is repeated only while the modem is busy. If the thread succeeds, all were taken. -/
theorem C128_own [PyUnicode] {jobs : List Job} {i : Nat} {j : Job} {c0 : List PyStr} (hj : jobs[i]? = some j) (hc : JobCommands j c0) (schedule : List Nat) (w : Shared) :
    ∃ cs, JobCommands j cs ∧ Proceeds cs (ownTalk env i schedule (jobs.map Job.proc, w)) ∧
      ∀ v, (performJobs env schedule jobs w).1[i]? = some (.done (.ok v)) → ProceedsAll cs (ownTalk env i schedule (jobs.map Job.proc, w)) := by
  obtain ⟨o, h1, h2⟩ := spoke_own env (i := i) schedule (jobs.map Job.proc) w j.proc (by rw [List.getElem?_map, hj]; rfl)
  obtain ⟨cs, h3, h4, h5⟩ := Proc.conducts_job hc _ _ h1
  exact ⟨cs, h3, h4, fun v hv => h5 v (h2 _ hv)⟩

/-- After a refusal, after a timeout and after an answer without lines the thread sends nothing more, though other threads may. -/
theorem C128_refused [PyUnicode] {jobs : List Job} {i : Nat} {j : Job} {c0 : List PyStr} (hj : jobs[i]? = some j) (hc : JobCommands j c0) {schedule : List Nat} {w : Shared}
    {a b : List (PyStr × Option Reply)} {c : PyStr} {r : Reply} (hx : ownTalk env i schedule (jobs.map Job.proc, w) = a ++ (c, some r) :: b) (hy : ¬ SaysYes r) (hb : ¬ SaysBusy r) : b = [] := by
  obtain ⟨cs, -, h2, -⟩ := C128_own (env := env) hj hc schedule w
  obtain ⟨k, r', -, hr, h3, -⟩ := proceeds_split h2 hx
  cases hr
  cases b with
  | nil => rfl
  | cons y b => rcases h3 (by simp) with h | h <;> contradiction

/-- Every line of such a thread is sent to be answered. -/
theorem C128_answered [PyUnicode] {jobs : List Job} {i : Nat} {j : Job} {c0 : List PyStr} (hj : jobs[i]? = some j) (hc : JobCommands j c0) {schedule : List Nat} {w : Shared}
    {x : PyStr × Option Reply} (hx : x ∈ ownTalk env i schedule (jobs.map Job.proc, w)) : ∃ r, x.2 = some r := by
  obtain ⟨cs, -, h2, -⟩ := C128_own (env := env) hj hc schedule w
  obtain ⟨a, b, hab⟩ := List.append_of_mem hx
  obtain ⟨k, r, -, hr, -⟩ := proceeds_split h2 hab
  exact ⟨r, hr⟩

/-- If `sendSms` succeeds, every part of the message was announced and sent, and the modem has taken each of these lines. -/
theorem C128_sent [PyUnicode] {jobs : List Job} {i : Nat} {d t : PyStr} {f : Bool} {v : Value} {schedule : List Nat} {w : Shared}
    (hj : jobs[i]? = some (.task (.message (.send d t f))) ∨ jobs[i]? = some (.sendWait d t f)) (hv : (performJobs env schedule jobs w).1[i]? = some (.done (.ok v))) :
    ∃ cs, SendingCommands d t f cs ∧ ∀ c ∈ cs, ∃ r, SaysYes r ∧ (c, some r) ∈ ownTalk env i schedule (jobs.map Job.proc, w) := by
  rcases hj with hj | hj
  · obtain ⟨cs, h1, -, h2⟩ := C128_own (env := env) hj (.send .text) schedule w
    cases h1 with
    | send h1 => exact ⟨cs, h1, proceedsAll_each (h2 v hv)⟩
  · obtain ⟨cs, h1, -, h2⟩ := C128_own (env := env) hj (.sendWait .text) schedule w
    cases h1 with
    | sendWait h1 => exact ⟨cs, h1, proceedsAll_each (h2 v hv)⟩

/-- The text of a message is only sent after the modem has taken an announcement of the same thread. -/
theorem C128_text [PyUnicode] {jobs : List Job} {i : Nat} {d t : PyStr} {f : Bool} (hj : jobs[i]? = some (.task (.message (.send d t f))) ∨ jobs[i]? = some (.sendWait d t f))
    {schedule : List Nat} {w : Shared} {a b : List (PyStr × Option Reply)} {x : PyStr × Option Reply} (hx : ownTalk env i schedule (jobs.map Job.proc, w) = a ++ x :: b) (h26 : x.1.getLast? = some 26) :
    ∃ c r, SaysYes r ∧ (c, some r) ∈ a ∧ py!"AT+CMGS=" <+: c := by
  have key : ∃ cs, SendingCommands d t f cs ∧ Proceeds cs (ownTalk env i schedule (jobs.map Job.proc, w)) := by
    rcases hj with hj | hj
    · obtain ⟨cs, h1, h2, -⟩ := C128_own (env := env) hj (.send .text) schedule w
      cases h1 with
      | send h1 => exact ⟨cs, h1, h2⟩
    · obtain ⟨cs, h1, h2, -⟩ := C128_own (env := env) hj (.sendWait .text) schedule w
      cases h1 with
      | sendWait h1 => exact ⟨cs, h1, h2⟩
  obtain ⟨cs, h1, h2⟩ := key
  obtain ⟨k, r, hk, -, -, hbefore⟩ := proceeds_split h2 hx
  cases h1 with
  | text =>
    match k with
    | 0 =>
      simp only [List.getElem?_cons_zero, Option.some.injEq] at hk
      have h13 : (py!"AT+CMGS=\"" ++ d ++ py!"\"\r").getLast? = some 13 := by rw [List.getLast?_append]; rfl
      rw [← hk] at h26
      exact absurd (h13.symm.trans h26) (by decide)
    | k + 1 =>
      obtain ⟨y, hy, hm⟩ := hbefore _ (by rw [List.take_succ_cons]; exact List.mem_cons_self)
      exact ⟨_, y, hy, hm, py!"\"" ++ (d ++ py!"\"\r"), by simp⟩
  | pdus r he =>
    obtain ⟨c, hc, hp⟩ := announced_before _ hk h26
    obtain ⟨y, hy, hm⟩ := hbefore c hc
    exact ⟨c, y, hy, hm, hp⟩

/-- The thread of a notification deletes the message only after the modem has shown it. -/
theorem C128_shown [PyUnicode] {jobs : List Job} {i : Nat} {line mem idx : PyStr}
    (hj : jobs[i]? = some (.task (.message (.received line))) ∧ StoredAt py!"+CMTI:" line mem idx ∨ jobs[i]? = some (.task (.message (.statusReport line))) ∧ StoredAt py!"+CDSI:" line mem idx)
    {schedule : List Nat} {w : Shared} {a b : List (PyStr × Option Reply)} {x : PyStr × Option Reply} (hx : ownTalk env i schedule (jobs.map Job.proc, w) = a ++ x :: b) (hd : py!"AT+CMGD=" <+: x.1) :
    ∃ r, SaysYes r ∧ (py!"AT+CMGR=" ++ idx ++ [13], some r) ∈ a := by
  have key : ∃ mem cs, FetchCommands mem idx cs ∧ Proceeds cs (ownTalk env i schedule (jobs.map Job.proc, w)) := by
    rcases hj with ⟨hj, hl⟩ | ⟨hj, hl⟩
    · obtain ⟨cs, h1, h2, -⟩ := C128_own (env := env) hj (.received hl .chosen) schedule w
      cases h1 with
      | received hl' h1 =>
        have := (stored_iff.2 ⟨_, _, rfl, hl⟩).symm.trans (stored_iff.2 ⟨_, _, rfl, hl'⟩)
        simp at this
        obtain ⟨rfl, rfl⟩ := this
        exact ⟨_, cs, h1, h2⟩
    · obtain ⟨cs, h1, h2, -⟩ := C128_own (env := env) hj (.report hl .chosen) schedule w
      cases h1 with
      | report hl' h1 =>
        have := (stored_iff.2 ⟨_, _, rfl, hl⟩).symm.trans (stored_iff.2 ⟨_, _, rfl, hl'⟩)
        simp at this
        obtain ⟨rfl, rfl⟩ := this
        exact ⟨_, cs, h1, h2⟩
  obtain ⟨m, cs, h1, h2⟩ := key
  obtain ⟨k, r, hk, -, -, hbefore⟩ := proceeds_split h2 hx
  cases h1 with
  | chosen =>
    match k with
    | 0 => simp only [List.getElem?_cons_zero, Option.some.injEq] at hk; rw [← hk] at hd; simp at hd
    | 1 => exact hbefore _ (by simp)
    | k + 2 => simp at hk
  | choose =>
    match k with
    | 0 => simp only [List.getElem?_cons_zero, Option.some.injEq] at hk; rw [← hk] at hd; simp at hd
    | 1 => simp only [List.getElem?_cons_succ, List.getElem?_cons_zero, Option.some.injEq] at hk; rw [← hk] at hd; simp at hd
    | 2 => exact hbefore _ (by simp)
    | k + 3 => simp at hk

/-- A thread that lists messages deletes only if it was asked to, and only after the modem has given it a listing. -/
theorem C128_listed [PyUnicode] {jobs : List Job} {i : Nat} {st : Int} {m : Option PyStr} {d : Bool} (hj : jobs[i]? = some (.task (.message (.list st m d))))
    {schedule : List Nat} {w : Shared} {a b : List (PyStr × Option Reply)} {x : PyStr × Option Reply} (hx : ownTalk env i schedule (jobs.map Job.proc, w) = a ++ x :: b) (hd : py!"AT+CMGD=" <+: x.1) :
    d = true ∧ ∃ c r, ListCommand st c ∧ SaysYes r ∧ (c, some r) ∈ a := by
  obtain ⟨c0, hc0⟩ := Prog.clean_nonempty st d
  obtain ⟨cs, h1, h2, -⟩ := C128_own (env := env) hj (.list (.chosen m) .pdu hc0) schedule w
  obtain ⟨k, r, hk, -, -, hbefore⟩ := proceeds_split h2 hx
  generalize hjob : Job.task (.message (.list st m d)) = job at h1
  cases h1 <;> try (simp at hjob; done)
  next st' m' d' c0 c1 c hm hl hcl =>
  simp at hjob
  obtain ⟨rfl, rfl, rfl⟩ := hjob
  have hlist : ¬ py!"AT+CMGD=" <+: c := by cases hl <;> simp
  have hmem : ∀ c ∈ c0, ¬ py!"AT+CMGD=" <+: c := by
    intro c hc
    cases hm with
    | chosen => cases hc
    | choose m => simp at hc; subst hc; simp
  rcases Nat.lt_trichotomy k c0.length with h | h | h
  · rw [List.getElem?_append_left h] at hk
    exact absurd hd (hmem _ (List.mem_of_getElem? hk))
  · subst h
    rw [List.getElem?_append_right (Nat.le_refl _), Nat.sub_self, List.getElem?_cons_zero] at hk
    cases hk
    exact absurd hd hlist
  · obtain ⟨n, rfl⟩ : ∃ n, k = c0.length + (n + 1) := ⟨k - c0.length - 1, by omega⟩
    rw [List.getElem?_append_right (by omega), Nat.add_sub_cancel_left, List.getElem?_cons_succ] at hk
    refine ⟨?_, ?_⟩
    · cases hcl with
      | keep => cases hk
      | all => rfl
      | each => rfl
    · obtain ⟨y, hy, hm⟩ := hbefore c (by rw [List.take_length_add_append, List.take_succ_cons]; simp)
      exact ⟨c, y, hl, hy, hm⟩

/-! ### Examples -/

section
attribute [local instance] asciiUnicode

/-- A modem that refuses the memory, and takes everything else. -/
def noMemoryModem : Env := modemWith fun log => if py!"AT+CPMS" <+: log.head?.getD [] then some (.lines [py!"+CMS ERROR: 302"]) else
  if (log.head?.getD []).getLast? = some 26 then some (.lines [py!"+CMGS: 7", py!"OK"]) else none

/-- What is deleted need not be what was listed: another thread chooses its memory in between, and all messages of that memory are deleted, which nobody has listed. -/
theorem C128_other_memory_violated :
    utterances (modemWith fun _ => none) (List.replicate 4 0 ++ List.replicate 3 1 ++ List.replicate 12 0)
        ([Job.task (.message (.list 4 (some py!"SM") true)), .task (.message (.read py!"3" (some py!"ME")))].map Job.proc, { st := { smsMemReadDelete := some py!"SM" } }) =
      [(0, py!"AT+CMGL=4\r"), (1, py!"AT+CPMS=\"ME\"\r"), (0, py!"AT+CMGD=1,4\r")] := by decide +kernel

/-- A listing that is refused deletes nothing; one that is given does. -/
example : let jobs := [Job.task (.message (.list 4 none true))].map Job.proc
    ownLines 0 (utterances (modemWith fun _ => some (.lines [py!"+CMS ERROR: 302"])) (List.replicate 20 0) (jobs, { st := {} })) = [py!"AT+CMGL=4\r"] ∧
    ownLines 0 (utterances (modemWith fun _ => none) (List.replicate 20 0) (jobs, { st := {} })) = [py!"AT+CMGL=4\r", py!"AT+CMGD=1,4\r"] := by decide +kernel

/-- The thread of the notification stops at the refusal; the one that sends is not disturbed. -/
example : let x := (busyJobs.map Job.proc, { st := { smsTextMode := true } : Shared })
    let schedule := [2, 2, 2, 2, 2, 2, 2] ++ List.replicate 12 0
    ownLines 2 (utterances noMemoryModem schedule x) = [py!"AT+CPMS=\"ME\"\r"] ∧ (ownTalk noMemoryModem 2 schedule x).length = 1 ∧
      ownLines 0 (utterances noMemoryModem schedule x) = [py!"AT+CMGS=\"12\"\r", py!"Hi" ++ [26]] := by decide +kernel

example : ¬ SaysYes (.lines [py!"+CMS ERROR: 302"]) ∧ SaysYes (.lines [py!"+CMGS: 7", py!"OK"]) := by
  refine ⟨?_, [py!"+CMGS: 7", py!"OK"], py!"OK", rfl, rfl, by decide, by decide⟩
  rintro ⟨ls, line, h1, h2, h3, -⟩
  cases h1
  cases h2
  exact h3 (by decide)

end

end Gsm
