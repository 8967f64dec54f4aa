import Verif.Lemmas.OwnLines
import Verif.Props.Threads
/-! # C127: Each thread keeps the order of its own lines

Threads that have to do with messages among any others, which take their steps in any order. -/
namespace Gsm
open Spec

variable {env : Env}

/-- The lines of the threads make up what is sent: none is lost, and none comes from nowhere. -/
theorem C127_log [PyUnicode] (jobs : List Job) (schedule : List Nat) (w : Shared) :
    (performJobs env schedule jobs w).2.st.log = ((utterances env schedule (jobs.map Job.proc, w)).map Prod.snd).reverse ++ w.st.log := by
  refine utterances_log env schedule _ w fun i p hp => ?_
  rw [List.getElem?_map] at hp
  cases hj : jobs[i]? with
  | none => rw [hj] at hp; cases hp
  | some j =>
    rw [hj] at hp
    cases hp
    have key : ∀ {α : Type} {P : PyStr → Prop} {p : Proc α}, p.Emits P → p.Emits fun _ => True := by
      intro α P p h
      induction p with
      | done r => trivial
      | io t k ih => exact ⟨trivial, fun r => ih r (h.2 r)⟩
      | act f k ih => exact ⟨fun env w => (h.1 env w).imp fun new hn => ⟨hn.1, fun _ _ => trivial⟩, fun env w => ih env w (h.2 env w)⟩
    exact key (Proc.eo_job j)

/-- The threads spoken of in the following: those of all methods for messages, and of notifications that say where a message is. -/
theorem C127_which [PyUnicode] : (∀ x : Method, (∀ l, x ≠ .received l) → (∀ l, x ≠ .statusReport l) → ∃ cs, JobCommands (.task (.message x)) cs) ∧
    (∀ d t f, ∃ cs, JobCommands (.sendWait d t f) cs) ∧
    (∀ l mem idx, StoredAt py!"+CMTI:" l mem idx → ∃ cs, JobCommands (.task (.message (.received l))) cs) ∧
    ∀ l mem idx, StoredAt py!"+CDSI:" l mem idx → ∃ cs, JobCommands (.task (.message (.statusReport l))) cs := by
  refine ⟨fun x h1 h2 => ?_, fun d t f => ⟨_, .sendWait .text⟩, fun l mem idx h => ⟨_, .received h .chosen⟩, fun l mem idx h => ⟨_, .report h .chosen⟩⟩
  cases x with
  | read i m => exact ⟨_, .read (.chosen m)⟩
  | delete i m => exact ⟨_, .delete (.chosen m)⟩
  | deleteMultiple f m => exact ⟨_, .deleteMultiple (.chosen m)⟩
  | list st m d =>
    obtain ⟨cs, h⟩ := Prog.clean_nonempty st d
    exact ⟨_, .list (.chosen m) .pdu h⟩
  | received l => exact absurd rfl (h1 l)
  | statusReport l => exact absurd rfl (h2 l)
  | send d t f => exact ⟨_, .send .text⟩
  | setTextMode v => exact ⟨_, .sameMode⟩
  | ask c => exact ⟨_, .ask⟩

/-- A thread that has to do with messages says its commands in their order and leaves none out; it repeats one only if the modem is busy. Whatever the other threads do, and whether it comes to its end or not. -/
theorem C127_own [PyUnicode] {jobs : List Job} {i : Nat} {j : Job} {c0 : List PyStr} (hj : jobs[i]? = some j) (hc : JobCommands j c0) (schedule : List Nat) (w : Shared) :
    ∃ cs, JobCommands j cs ∧ Recites (∃ log, AnsweredBusy env.reply log) cs (ownLines i (utterances env schedule (jobs.map Job.proc, w))) ∧
      ∀ v, (performJobs env schedule jobs w).1[i]? = some (.done (.ok v)) →
        RecitesAll (∃ log, AnsweredBusy env.reply log) cs (ownLines i (utterances env schedule (jobs.map Job.proc, w))) := by
  obtain ⟨o, h1, h2⟩ := said_own env (i := i) schedule (jobs.map Job.proc) w j.proc (by rw [List.getElem?_map, hj]; rfl)
  have hB : ∀ r, ReplyOf env r → SaysBusy r → ∃ log, AnsweredBusy env.reply log := by
    rintro _ ⟨log, rfl⟩ ⟨n, ls, line, h3, h4, h5⟩
    exact ⟨log, n, ls, line, h3, h4, h5⟩
  obtain ⟨cs, h3, h4, h5⟩ := Proc.performs_job hB hc _ _ h1
  exact ⟨cs, h3, h4, fun v hv => h5 v (h2 _ hv)⟩

/-- If the modem is never busy, its lines are the first of its commands, each once; and all of them if it succeeds. -/
theorem C127_once [PyUnicode] (hb : NeverBusy env.reply) {jobs : List Job} {i : Nat} {j : Job} {c0 : List PyStr} (hj : jobs[i]? = some j) (hc : JobCommands j c0) (schedule : List Nat) (w : Shared) :
    ∃ cs, JobCommands j cs ∧ ownLines i (utterances env schedule (jobs.map Job.proc, w)) <+: cs ∧
      ∀ v, (performJobs env schedule jobs w).1[i]? = some (.done (.ok v)) → ownLines i (utterances env schedule (jobs.map Job.proc, w)) = cs := by
  obtain ⟨cs, h1, h2, h3⟩ := C127_own (env := env) hj hc schedule w
  have hB : ¬ ∃ log, AnsweredBusy env.reply log := fun ⟨log, h⟩ => hb log h
  exact ⟨cs, h1, recites_prefix hB h2, fun v hv => recitesAll_eq hB (h3 v hv)⟩

/-- The text of a message is only sent by a thread that has announced one before. -/
theorem C127_announced [PyUnicode] {jobs : List Job} {i : Nat} {d t : PyStr} {f : Bool} (hj : jobs[i]? = some (.task (.message (.send d t f))) ∨ jobs[i]? = some (.sendWait d t f))
    {schedule : List Nat} {w : Shared} {a b : List PyStr} {x : PyStr} (hx : ownLines i (utterances env schedule (jobs.map Job.proc, w)) = a ++ x :: b) (h26 : x.getLast? = some 26) :
    ∃ c ∈ a, py!"AT+CMGS=" <+: c := by
  have key : ∃ cs, SendingCommands d t f cs ∧ Recites (∃ log, AnsweredBusy env.reply log) cs (ownLines i (utterances env schedule (jobs.map Job.proc, w))) := by
    rcases hj with hj | hj
    · obtain ⟨cs, h1, h2, -⟩ := C127_own (env := env) hj (.send .text) schedule w
      cases h1 with
      | send h1 => exact ⟨cs, h1, h2⟩
    · obtain ⟨cs, h1, h2, -⟩ := C127_own (env := env) hj (.sendWait .text) schedule w
      cases h1 with
      | sendWait h1 => exact ⟨cs, h1, h2⟩
  obtain ⟨cs, h1, h2⟩ := key
  obtain ⟨k, hk, hbefore⟩ := recites_before h2 hx
  cases h1 with
  | text =>
    match k with
    | 0 =>
      simp only [List.getElem?_cons_zero, Option.some.injEq] at hk
      subst hk
      have h13 : (py!"AT+CMGS=\"" ++ d ++ py!"\"\r").getLast? = some 13 := by rw [List.getLast?_append]; rfl
      exact absurd (h13.symm.trans h26) (by decide)
    | k + 1 => exact ⟨_, hbefore _ (by rw [List.take_succ_cons]; exact List.mem_cons_self), ⟨py!"\"" ++ (d ++ py!"\"\r"), by simp⟩⟩
  | pdus r he =>
    obtain ⟨c, hc, hp⟩ := announced_before _ hk h26
    exact ⟨c, hbefore c hc, hp⟩

/-- The thread of a notification deletes the message only after it has read it itself. -/
theorem C127_read_first [PyUnicode] {jobs : List Job} {i : Nat} {line mem idx : PyStr}
    (hj : jobs[i]? = some (.task (.message (.received line))) ∧ StoredAt py!"+CMTI:" line mem idx ∨ jobs[i]? = some (.task (.message (.statusReport line))) ∧ StoredAt py!"+CDSI:" line mem idx)
    {schedule : List Nat} {w : Shared} {a b : List PyStr} {x : PyStr} (hx : ownLines i (utterances env schedule (jobs.map Job.proc, w)) = a ++ x :: b) (hd : py!"AT+CMGD=" <+: x) :
    x = py!"AT+CMGD=" ++ idx ++ py!",0\r" ∧ py!"AT+CMGR=" ++ idx ++ [13] ∈ a := by
  have key : ∃ mem cs, FetchCommands mem idx cs ∧ Recites (∃ log, AnsweredBusy env.reply log) cs (ownLines i (utterances env schedule (jobs.map Job.proc, w))) := by
    rcases hj with ⟨hj, hl⟩ | ⟨hj, hl⟩
    · obtain ⟨cs, h1, h2, -⟩ := C127_own (env := env) hj (.received hl .chosen) schedule w
      cases h1 with
      | received hl' h1 =>
        have := (stored_iff.2 ⟨_, _, rfl, hl⟩).symm.trans (stored_iff.2 ⟨_, _, rfl, hl'⟩)
        simp at this
        obtain ⟨rfl, rfl⟩ := this
        exact ⟨_, cs, h1, h2⟩
    · obtain ⟨cs, h1, h2, -⟩ := C127_own (env := env) hj (.report hl .chosen) schedule w
      cases h1 with
      | report hl' h1 =>
        have := (stored_iff.2 ⟨_, _, rfl, hl⟩).symm.trans (stored_iff.2 ⟨_, _, rfl, hl'⟩)
        simp at this
        obtain ⟨rfl, rfl⟩ := this
        exact ⟨_, cs, h1, h2⟩
  obtain ⟨m, cs, h1, h2⟩ := key
  obtain ⟨k, hk, hbefore⟩ := recites_before h2 hx
  cases h1 with
  | chosen =>
    match k with
    | 0 => simp only [List.getElem?_cons_zero, Option.some.injEq] at hk; subst hk; simp at hd
    | 1 => simp at hk; exact ⟨by simp [← hk], hbefore _ (by simp)⟩
    | k + 2 => simp at hk
  | choose =>
    match k with
    | 0 => simp only [List.getElem?_cons_zero, Option.some.injEq] at hk; subst hk; simp at hd
    | 1 => simp at hk; subst hk; simp at hd
    | 2 => simp at hk; exact ⟨by simp [← hk], hbefore _ (by simp)⟩
    | k + 3 => simp at hk

/-! ### What does not hold -/

/-- The order of a thread is kept, but its lines need not follow each other: the command of another thread comes between the announcement and the message. -/
theorem C127_apart_violated :
    let _ : PyUnicode := asciiUnicode
    utterances (sendModem py!"5") (List.replicate 4 0 ++ List.replicate 2 1 ++ List.replicate 6 0)
        ([Job.task (.message (.send py!"12" py!"Hi" false)), .task (.message (.ask py!"AT+CSQ"))].map Job.proc, { st := {} }) =
      [(0, py!"AT+CMGS=10\r"), (1, py!"AT+CSQ\r"), (0, py!"00210002A121000002C834" ++ [26])] := by decide +kernel

/-! ### Examples -/

section
attribute [local instance] asciiUnicode

/-- A message that is sent, a question, and a message that arrives, in a thread each. -/
def busyJobs : List Job := [.task (.message (.send py!"12" py!"Hi" false)), .task (.message (.ask py!"AT+CSQ")), .task (.message (.received py!"+CMTI: \"ME\",3"))]

example : JobCommands (.task (.message (.send py!"12" py!"Hi" false))) [py!"AT+CMGS=\"12\"\r", py!"Hi" ++ [26]] := .send .text

example : let all := utterances (sendModem py!"5") [0, 2, 0, 2, 0, 2, 1, 0, 2, 1, 0, 2, 0, 2, 0, 2, 0, 2] (busyJobs.map Job.proc, { st := { smsTextMode := true } })
    ownLines 0 all = [py!"AT+CMGS=\"12\"\r", py!"Hi" ++ [26]] ∧ ownLines 1 all = [py!"AT+CSQ\r"] ∧ ownLines 2 all = [py!"AT+CPMS=\"ME\"\r", py!"AT+CMGR=3\r"] ∧
      all.map (·.1) = [0, 2, 1, 0, 2] := by decide +kernel

/-- A modem that is busy for the first message text: it is said twice. -/
example : let env := modemWith fun log => if log.length = 2 then some (.lines [py!"+CMS ERROR: 515"]) else if log.length = 3 then some (.lines [py!"+CMGS: 7", py!"OK"]) else none
    ownLines 0 (utterances env (List.replicate 20 0) (busyJobs.map Job.proc, { st := { smsTextMode := true } })) = [py!"AT+CMGS=\"12\"\r", py!"Hi" ++ [26], py!"Hi" ++ [26]] := by decide +kernel

end

end Gsm
