import Verif.Lemmas.StackPlay
import Verif.Spec.ExampleModem
/-! # Property C80: the whole library, from the characters on the serial line to the results of the methods -/
namespace Gsm
open List Spec

variable {lim : Limits}

theorem settled_done {env : Env} {x : Stack} {i : Nat} {r : Except PyErr Value} (h : x.threads[i]? = some (.done r)) : (x.settled env)[i]? = some (.done r) := by
  unfold Stack.settled
  split
  · exact h
  · next y _ =>
    split
    · next hy =>
      rw [List.getElem?_set_ne, h]
      rintro rfl
      rw [h] at hy
      cases hy
    · exact h

/-- Whatever arrives, whenever, and whatever the threads do meanwhile: there is a modem (with answers that can be heard) with which the threads, one for each batch of notifications
added, have done the same in some order; commands that were answered have had the answers that were read for them. -/
theorem C80_sound [PyUnicode] (jobs : List Job) (w : Shared) (hs : List StackEvent) {x : Stack} (hx : Stack.runs lim hs (Stack.start jobs w) = x) :
    ∃ (env : Env) (schedule : List Nat) (ts : List (Proc Value)), env.toLimits = lim ∧ Audible env ∧ (∀ b ∈ x.comms.notified, Batch b) ∧ performJobs env schedule (withBatches jobs x.comms.notified) w = (ts, x.shared) ∧
      (∀ (i : Nat) (r : Except PyErr Value), x.threads[i]? = some (.done r) → ts[i]? = some (.done r)) ∧ (x.inWrite = none → ts = x.threads) ∧ Exchanged env x.shared.st.log x.comms.outcomes.reverse := by
  subst hx
  obtain ⟨env, keys, h1, h2, h3⟩ := stack_forward lim jobs w hs
  obtain ⟨schedule, h4⟩ := h3.threads
  rw [List.drop_length, List.map_nil, List.append_nil] at h4
  refine ⟨env, schedule, _, h1, h2, h3.comms.notified, h4, fun i r => settled_done, fun h => by unfold Stack.settled; rw [h], exchanged_grow h3.exchanged ?_⟩
  unfold Stack.before
  split
  · next y hy =>
    obtain ⟨t, k, log, _, h5, h6⟩ := h3.writing y hy
    rw [h5] at h6 ⊢
    exact (List.suffix_cons t log).trans h6
  · exact List.suffix_rfl

/-- These are all: when no command is being written, exactly this can have happened. -/
theorem C80_exact [PyUnicode] (jobs : List Job) (w w' : Shared) (ts : List (Proc Value)) (batches : List (List PyStr)) :
    (∃ hs x, Stack.runs lim hs (Stack.start jobs w) = x ∧ x.inWrite = none ∧ x.threads = ts ∧ x.shared = w' ∧ x.comms.notified = batches) ↔
    ∃ env schedule, env.toLimits = lim ∧ Audible env ∧ (∀ b ∈ batches, Batch b) ∧ performJobs env schedule (withBatches jobs batches) w = (ts, w') := by
  constructor
  · rintro ⟨hs, x, hx, h1, rfl, rfl, rfl⟩
    obtain ⟨env, schedule, ts, h2, h3, h4, h5, _, h6, _⟩ := C80_sound jobs w hs hx
    rw [h6 h1] at h5
    exact ⟨env, schedule, h2, h3, h4, h5⟩
  · rintro ⟨env, schedule, h1, h2, h3, h4⟩
    obtain ⟨hs, h5, h6, h7⟩ := stack_backward h1 h2 jobs w batches h3 schedule
    unfold withBatches at h4
    rw [h4] at h7
    cases h7
    exact ⟨hs, _, rfl, h5, rfl, rfl, h6⟩

/-! ### Characters and lines -/

theorem comms_history [PyUnicode] (hs : List StackEvent) : ∀ x : Stack,
    ∃ es, (Stack.runs lim hs x).comms = srun es x.comms ∧ received es = arrived hs ∧ ∀ q, .start (some q) ∈ es → q = py!"> " := by
  induction hs with
  | nil => exact fun x => ⟨[], rfl, rfl, fun _ h => (nomatch h)⟩
  | cons e hs ih =>
    intro x
    obtain ⟨es, h1, h2, h3⟩ := ih (x.happens lim e)
    have cons_ok : ∀ (e' : SEvent), (x.happens lim e).comms = sstep x.comms e' → received (e' :: es) = arrived (e :: hs) → (∀ q, e' = .start (some q) → q = py!"> ") →
        ∃ es, (Stack.runs lim (e :: hs) x).comms = srun es x.comms ∧ received es = arrived (e :: hs) ∧ ∀ q, .start (some q) ∈ es → q = py!"> " := by
      intro e' h4 h5 h6
      refine ⟨e' :: es, ?_, h5, fun q hq => ?_⟩
      · show (Stack.runs lim hs (x.happens lim e)).comms = srun es (sstep x.comms e')
        rw [h1, h4]
      · rcases List.mem_cons.1 hq with hq | hq
        · exact h6 q hq.symm
        · exact h3 q hq
    have same_ok : (x.happens lim e).comms = x.comms → arrived (e :: hs) = arrived hs →
        ∃ es, (Stack.runs lim (e :: hs) x).comms = srun es x.comms ∧ received es = arrived (e :: hs) ∧ ∀ q, .start (some q) ∈ es → q = py!"> " := by
      intro h4 h5
      refine ⟨es, ?_, h2.trans h5.symm, h3⟩
      show (Stack.runs lim hs (x.happens lim e)).comms = _
      rw [h1, h4]
    have hans : ∀ e, (x.answered e).comms = x.comms ∨ (x.answered e).comms = sstep x.comms e := by
      intro e
      unfold Stack.answered
      split
      · exact .inl rfl
      · split
        · exact .inr rfl
        · exact .inl rfl
    cases e with
    | arrives c m => exact cons_ok (.rx c m) rfl (congrArg (c :: ·) h2) fun q h => nomatch h
    | breaks => exact cons_ok .fail rfl rfl fun q h => nomatch h
    | late =>
      rcases hans .expire with h | h
      · exact same_ok h rfl
      · exact cons_ok .expire h h2 fun q h => nomatch h
    | thread i =>
      cases hi : x.threads[i]? with
      | none => exact same_ok (by simp only [Stack.happens, hi]) rfl
      | some p =>
        cases p with
        | done r => exact same_ok (by simp only [Stack.happens, hi]) rfl
        | act f k => exact same_ok (by simp only [Stack.happens, hi]) rfl
        | io t k =>
          have he : x.happens lim (.thread i) = x.begin i t := by simp only [Stack.happens, hi]
          cases hy : x.inWrite with
          | none =>
            refine cons_ok (.start (promptOf t)) (by rw [he]; unfold Stack.begin; rw [hy]) h2 fun q hq => ?_
            have hq' : promptOf t = some q := by injection hq
            unfold promptOf at hq'
            split at hq'
            · cases hq'; rfl
            · cases hq'
          | some y =>
            by_cases hyi : y.thread = i
            · have e2 : x.happens lim (.thread i) = x.answered .finish := by rw [he]; unfold Stack.begin; rw [hy]; exact if_pos hyi
              rcases hans .finish with h | h
              · exact same_ok (by rw [e2, h]) rfl
              · exact cons_ok .finish (by rw [e2, h]) h2 fun q h => nomatch h
            · exact same_ok (by rw [he]; unfold Stack.begin; rw [hy]; exact congrArg Stack.comms (if_neg hyi)) rfl

/-- No character and no line is lost or invented on the way: what arrived are the lines that were read (a prompt being one) and an incomplete rest, and each line is in one place: in what a
command came to, in the answer that is being read, in a batch for which a thread was started, or in the batch that is being read. -/
theorem C80_lines [PyUnicode] (jobs : List Job) (w : Shared) (hs : List StackEvent) {x : Stack} (hx : Stack.runs lim hs (Stack.start jobs w) = x) :
    ∃ lines rest, Framed (· = py!"> ") (arrived hs) lines rest ∧
      Shuffle ((x.comms.outcomes.map Outcome.linesOf).flatten ++ (x.comms.pending.map (·.response)).getD []) (x.comms.notified.flatten ++ x.comms.notification) lines := by
  subst hx
  obtain ⟨es, h1, h2, h3⟩ := comms_history (lim := lim) hs (Stack.start jobs w)
  refine ⟨(srun es).handed, (srun es).rxBuffer, ?_, ?_⟩
  · have := framing_from (· = py!"> ") es {} [] rfl (by intro q hq; cases hq) (fun q hq => h3 q hq.2) (.rest noEol_nil)
    rw [List.nil_append, h2] at this
    exact this
  · have h4 := C29_no_loss_no_duplicate es
    have h5 : (Stack.runs lim hs (Stack.start jobs w)).comms = srun es := h1
    rw [h5]
    unfold responseLines notificationLines at h4
    have e1 : (srun es).outcomes.map Outcome.linesOf = (srun es).outcomes.map Outcome.lines := List.map_congr_left fun o _ => by
      cases o with
      | returned ls => rfl
      | timeout d => cases d <;> rfl
    rw [e1]
    cases hp : (srun es).pending with
    | none => rw [hp] at h4; exact h4
    | some p => rw [hp] at h4; exact h4

/-! ### What the methods come to -/

theorem onlyWaits_batches {s : Slot} {i : Nat} {jobs : List Job} (h : OnlyWaits s i jobs) (bs : List (List PyStr)) : OnlyWaits s i (withBatches jobs bs) := by
  intro j y hj hy
  unfold withBatches at hy
  by_cases hl : j < jobs.length
  · rw [List.getElem?_append_left hl] at hy
    exact h j y hj hy
  · rw [List.getElem?_append_right (by omega), List.getElem?_map] at hy
    obtain ⟨b, _, rfl⟩ := Option.map_eq_some_iff.1 hy
    exact id

theorem job_batches {i : Nat} {jobs : List Job} {y : Job} (h : jobs[i]? = some y) (bs : List (List PyStr)) : (withBatches jobs bs)[i]? = some y := by
  unfold withBatches
  rw [List.getElem?_append_left (List.getElem?_eq_some_iff.1 h).1, h]

/-- A USSD request, if no other thread makes one: with a result that was read in a batch of notifications or was handled by another job, with what the answer says, or with an error. -/
theorem C80_ussd [PyUnicode] {jobs : List Job} {w : Shared} {i : Nat} {text : PyStr} (hi : jobs[i]? = some (.ussd text)) (ho : OnlyWaits .ussd i jobs) {hs : List StackEvent} {x : Stack}
    (hx : Stack.runs lim hs (Stack.start jobs w) = x) {r : Except PyErr Value} (hd : x.threads[i]? = some (.done r)) :
    (∃ env, env.toLimits = lim ∧ Audible env ∧ Exchanged env x.shared.st.log x.comms.outcomes.reverse ∧ UssdEnds env w.st.callStatusUpdates (withBatches jobs x.comms.notified) text r) ∧
    x.shared.attr .ussd = none := by
  obtain ⟨env, schedule, ts, h1, h2, _, h4, h5, _, h6⟩ := C80_sound jobs w hs hx
  have h7 := C78_ussd (env := env) (w := w) (schedule := schedule) (job_batches hi x.comms.notified) (onlyWaits_batches ho _) (r := r) (by rw [h4]; exact h5 i r hd)
  rw [h4] at h7
  exact ⟨⟨env, h1, h2, h6, h7.1⟩, h7.2⟩

/-- Dialling, if no other thread dials. -/
theorem C80_dial [PyUnicode] {jobs : List Job} {w : Shared} {i k : Nat} {number : PyStr} {cb : Bool} (hi : jobs[i]? = some (.dial number k cb)) (ho : OnlyWaits .dial i jobs) {hs : List StackEvent}
    {x : Stack} (hx : Stack.runs lim hs (Stack.start jobs w) = x) {r : Except PyErr Value} (hd : x.threads[i]? = some (.done r)) :
    (∃ env, env.toLimits = lim ∧ Audible env ∧ Exchanged env x.shared.st.log x.comms.outcomes.reverse ∧
      DialEnds env w.st.callStatusUpdates (withBatches jobs x.comms.notified) number cb x.shared.st.calls r) ∧ x.shared.attr .dial = none := by
  obtain ⟨env, schedule, ts, h1, h2, _, h4, h5, _, h6⟩ := C80_sound jobs w hs hx
  have h7 := C78_dial (env := env) (w := w) (schedule := schedule) (job_batches hi x.comms.notified) (onlyWaits_batches ho _) (r := r) (by rw [h4]; exact h5 i r hd)
  rw [h4] at h7
  exact ⟨⟨env, h1, h2, h6, h7.1⟩, h7.2⟩

/-- Sending with a delivery report, if no other thread waits for one. -/
theorem C80_report [PyUnicode] {jobs : List Job} {w : Shared} {i : Nat} {destination text : PyStr} {flash : Bool} (hi : jobs[i]? = some (.sendWait destination text flash))
    (ho : OnlyWaits .report i jobs) (hn : w.attr .report = none) {hs : List StackEvent} {x : Stack} (hx : Stack.runs lim hs (Stack.start jobs w) = x) {r : Except PyErr Value}
    (hd : x.threads[i]? = some (.done r)) :
    x.shared.attr .report = none ∧ ∀ v, r = .ok v → (∃ env, env.toLimits = lim ∧ Audible env ∧ Exchanged env x.shared.st.log x.comms.outcomes.reverse ∧
      SentOut env destination text flash w.st x.shared.st) ∧ ReportSince w.st x.shared.st := by
  obtain ⟨env, schedule, ts, h1, h2, _, h4, h5, _, h6⟩ := C80_sound jobs w hs hx
  have h7 := C78_report (env := env) (w := w) (schedule := schedule) (job_batches hi x.comms.notified) (onlyWaits_batches ho _) hn (r := r) (by rw [h4]; exact h5 i r hd)
  rw [h4] at h7
  exact ⟨h7.1, fun v hv => ⟨⟨env, h1, h2, h6, (h7.2 v hv).1⟩, (h7.2 v hv).2⟩⟩

/-- Call objects keep what they are, the log of commands only grows, and removed calls stay removed. -/
theorem C80_grow [PyUnicode] (jobs : List Job) {w : Shared} (hw : EventsOk w) (hs : List StackEvent) {x : Stack} (hx : Stack.runs lim hs (Stack.start jobs w) = x) :
    CallsGrow w.st x.shared.st ∧ EventsOk x.shared := by
  obtain ⟨env, schedule, ts, _, _, _, h4, _⟩ := C80_sound jobs w hs hx
  have h7 := C78_grow (env := env) (withBatches jobs x.comms.notified) schedule hw
  rw [h4] at h7
  exact ⟨h7.1, h7.2.1⟩

/-! ### No deadlock -/

/-- When the time is over, the lock is free. -/
theorem late_free [PyUnicode] (jobs : List Job) (w : Shared) (hs : List StackEvent) : (Stack.runs lim (hs ++ [.late]) (Stack.start jobs w)).inWrite = none := by
  obtain ⟨env, keys, _, _, h⟩ := stack_forward lim jobs w hs
  rw [runs_append]
  generalize Stack.runs lim hs (Stack.start jobs w) = x at h ⊢
  show (x.answered .expire).inWrite = none
  unfold Stack.answered
  cases hy : x.inWrite with
  | none => exact hy
  | some y =>
    obtain ⟨t, k, log, h1, _⟩ := h.writing y hy
    dsimp only
    rw [h1]
    cases hp : x.comms.pending with
    | none => rw [h.free.2 hp] at hy; cases hy
    | some r =>
      obtain ⟨ls, b⟩ := r
      simp only [sstep, hp, List.drop_left]

/-- From every state, a thread can come to its end when the modem says nothing more. -/
theorem thread_ends [PyUnicode] (i : Nat) (p : Proc Value) : ∀ x : Stack, x.threads[i]? = some p → x.inWrite = none → x.comms.pending = none →
    ∃ hs r, (Stack.runs lim hs x).threads = x.threads.set i (.done r) ∧ (Stack.runs lim hs x).inWrite = none ∧ (Stack.runs lim hs x).comms.pending = none ∧
      ∀ e ∈ hs, e = .late ∨ ∃ j, e = .thread j := by
  induction p with
  | done r =>
    intro x h h1 h2
    refine ⟨[], r, ?_, h1, h2, fun _ h => (nomatch h)⟩
    obtain ⟨hl, he⟩ := List.getElem?_eq_some_iff.1 h
    rw [← he, List.set_getElem_self]
    rfl
  | act f k ih =>
    intro x h h1 h2
    have e1 : x.happens lim (.thread i) = { x with threads := x.threads.set i (k lim x.shared), shared := f lim x.shared } := by simp only [Stack.happens, h]
    obtain ⟨hs, r, h3, h4, h5, h6⟩ := ih lim x.shared { x with threads := x.threads.set i (k lim x.shared), shared := f lim x.shared }
      (by simp [(List.getElem?_eq_some_iff.1 h).1]) h1 h2
    refine ⟨.thread i :: hs, r, ?_⟩
    show (Stack.runs lim hs (x.happens lim (.thread i))).threads = _ ∧ (Stack.runs lim hs (x.happens lim (.thread i))).inWrite = none ∧ (Stack.runs lim hs (x.happens lim (.thread i))).comms.pending = none ∧ _
    rw [e1]
    exact ⟨by rw [h3]; simp, h4, h5, fun e he => (List.mem_cons.1 he).elim (fun h => .inr ⟨i, h⟩) (h6 e)⟩
  | io t k ih =>
    intro x h h1 h2
    obtain ⟨c1, hc1⟩ : ∃ c1, c1 = sstep x.comms (.start (promptOf t)) := ⟨_, rfl⟩
    have hp1 : c1.pending = some ⟨[], false⟩ := by rw [hc1]; simp only [sstep, h2]
    have e1 : x.happens lim (.thread i) = { x with comms := c1, shared := x.shared.written t, inWrite := some ⟨i, t :: x.shared.st.log⟩ } := by
      simp only [Stack.happens, h, Stack.begin, h1, hc1]
    have e2 : Stack.happens lim { x with comms := c1, shared := x.shared.written t, inWrite := some ⟨i, t :: x.shared.st.log⟩ } .late =
        { x with comms := sstep c1 .expire, threads := x.threads.set i (k (.timeout none)), shared := x.shared.written t, inWrite := none } := by
      simp only [Stack.happens, Stack.answered, h]
      simp [sstep, hp1, Outcome.reply]
    obtain ⟨hs, r, h3, h4, h5, h6⟩ := ih (.timeout none) { x with comms := sstep c1 .expire, threads := x.threads.set i (k (.timeout none)), shared := x.shared.written t, inWrite := none }
      (by simp [(List.getElem?_eq_some_iff.1 h).1]) rfl (by simp [sstep, hp1])
    refine ⟨.thread i :: .late :: hs, r, ?_⟩
    show (Stack.runs lim hs ((x.happens lim (.thread i)).happens lim .late)).threads = _ ∧ (Stack.runs lim hs ((x.happens lim (.thread i)).happens lim .late)).inWrite = none ∧
      (Stack.runs lim hs ((x.happens lim (.thread i)).happens lim .late)).comms.pending = none ∧ _
    rw [e1, e2]
    exact ⟨by rw [h3]; simp, h4, h5, fun e he => (List.mem_cons.1 he).elim (fun h => .inr ⟨i, h⟩) fun he => (List.mem_cons.1 he).elim .inl (h6 e)⟩

theorem threads_end [PyUnicode] (n : Nat) : ∀ x : Stack, x.inWrite = none → x.comms.pending = none → n ≤ x.threads.length →
    ∃ hs, (Stack.runs lim hs x).threads.length = x.threads.length ∧ (∀ i, i < n → ∃ r, (Stack.runs lim hs x).threads[i]? = some (.done r)) ∧ (Stack.runs lim hs x).inWrite = none ∧
      (Stack.runs lim hs x).comms.pending = none ∧ ∀ e ∈ hs, e = .late ∨ ∃ j, e = .thread j := by
  induction n with
  | zero => exact fun x h1 h2 _ => ⟨[], rfl, fun i h => absurd h (Nat.not_lt_zero i), h1, h2, fun _ h => (nomatch h)⟩
  | succ n ih =>
    intro x h1 h2 hn
    obtain ⟨hs, h3, h4, h5, h6, h7⟩ := ih x h1 h2 (by omega)
    have hl : n < (Stack.runs lim hs x).threads.length := by omega
    obtain ⟨hs', r, h8, h9, h10, h11⟩ := thread_ends (lim := lim) n _ _ (List.getElem?_eq_getElem hl) h5 h6
    refine ⟨hs ++ hs', ?_⟩
    rw [runs_append]
    refine ⟨by rw [h8, List.length_set, h3], fun i hi => ?_, h9, h10, fun e he => (List.mem_append.1 he).elim (h7 e) (h11 e)⟩
    rw [h8]
    by_cases hin : i = n
    · subst hin
      exact ⟨r, by simp [hl]⟩
    · rw [List.getElem?_set_ne (by omega)]
      exact h4 i (by omega)

/-- There is no deadlock: whatever has happened, all threads come to an end if only the waits end, even when nothing more is heard from the modem. -/
theorem C80_no_deadlock [PyUnicode] (jobs : List Job) (w : Shared) (hs : List StackEvent) :
    ∃ hs', (∀ e ∈ hs', e = .late ∨ ∃ j, e = .thread j) ∧ ∀ p ∈ (Stack.runs lim (hs ++ hs') (Stack.start jobs w)).threads, ∃ r, p = .done r := by
  have h1 := late_free (lim := lim) jobs w hs
  obtain ⟨_, _, _, _, hsim⟩ := stack_forward lim jobs w (hs ++ [.late])
  obtain ⟨hs', h2, h3, _, _, h6⟩ := threads_end (lim := lim) _ _ h1 (hsim.free.1 h1) (Nat.le_refl _)
  refine ⟨.late :: hs', fun e he => (List.mem_cons.1 he).elim .inl (h6 e), fun p hp => ?_⟩
  have e1 : hs ++ .late :: hs' = (hs ++ [.late]) ++ hs' := by simp
  rw [e1, runs_append] at hp
  obtain ⟨i, hi⟩ := List.mem_iff_getElem?.1 hp
  obtain ⟨r, hr⟩ := h3 i (h2 ▸ (List.getElem?_eq_some_iff.1 hi).1)
  rw [hr] at hi
  cases hi
  exact ⟨r, rfl⟩

/-! ### What can happen -/

attribute [local instance] asciiUnicode

/-- The text arrives; after it nothing is waiting. -/
def told (s : PyStr) : List StackEvent := s.dropLast.map (fun c => .arrives c true) ++ (s.getLast?.toList.map fun c => .arrives c false)

def goesOn (i n : Nat) : List StackEvent := List.replicate n (.thread i)

/-- A request, the answer, the notification that starts a thread, and the result: from characters to the value that `sendUssd` returns. -/
example : ends (Stack.runs goodModem.toLimits (goesOn 0 3 ++ told py!"OK\r\n" ++ goesOn 0 2 ++ told py!"+CUSD: 2,\"ten\",15\r\n" ++ goesOn 1 9 ++ goesOn 0 9) (Stack.start [.ussd py!"*1#"] { st := {} })).threads =
    [some (.ok gotTen), some (.ok .nothing)] := by decide +kernel

/-- The same when the notification follows the answer at once. -/
example : ends (Stack.runs goodModem.toLimits (goesOn 0 3 ++ told py!"OK\r\n+CUSD: 2,\"ten\",15\r\n" ++ goesOn 1 9 ++ goesOn 0 9) (Stack.start [.ussd py!"*1#"] { st := {} })).threads =
    [some (.ok gotTen), some (.ok .nothing)] := by decide +kernel

/-- While one thread waits for its answer, another cannot write. -/
example : (Stack.runs goodModem.toLimits (goesOn 0 3 ++ goesOn 1 9) (Stack.start [.ussd py!"*1#", .ussd py!"*2#"] { st := {} })).shared.st.log = [ussdRequest py!"*1#"] := by decide +kernel

/-- The answers of `goodModem` can be heard. -/
example : Audible goodModem := by
  have hl : ∀ l : PyStr, l ≠ [] → ¬ [13, 10] <:+: l → LineText l := fun l h1 h2 => ⟨h1, h2⟩
  have ok : ∀ p : Option PyStr, Comes p (.lines [py!"OK"]) := fun p => .answer (.code (pre := []) begun_nil (hl _ (by decide) (by decide)) (.inl (by decide)) fun _ _ _ h => nomatch h)
  have err : ∀ p : Option PyStr, Comes p (.lines [py!"ERROR"]) := fun p => .answer (.code (pre := []) begun_nil (hl _ (by decide) (by decide)) (.inr (.inl (by decide))) fun _ _ _ h => nomatch h)
  have two : ∀ a : PyStr, a ≠ [] → ¬ [13, 10] <:+: a → isResponseTerm a = false → Comes none (.lines [a, py!"OK"]) := fun a h1 h2 h3 =>
    .answer (.code (pre := [a]) ⟨fun l h => by cases List.mem_singleton.1 h; exact hl _ h1 h2, fun _ h => (nomatch h), fun l h hf => by
      cases List.mem_singleton.1 h; rw [isResponseTerm_iff.2 hf] at h3; cases h3⟩ (hl _ (by decide) (by decide)) (.inl (by decide)) fun _ h => nomatch h)
  intro t log
  rw [← comes_promptOf]
  show Comes (promptOf t) (goodReply t)
  unfold goodReply
  repeat' split
  all_goals first
    | exact ok _
    | exact err _
    | (next h => subst h; exact two _ (by decide) (by decide) (by decide +kernel))

/-- The answer to a request whose time was over is taken for the answer to the next: the first `ERROR` began to arrive in time for the first request, and the second request fails with it. -/
theorem C80_answer_of_other :
    ends (Stack.runs goodModem.toLimits (goesOn 0 3 ++ (told py!"ERR" ++ [.late]) ++ goesOn 0 9 ++ goesOn 1 3 ++ told py!"OR\r\n" ++ goesOn 1 9) (Stack.start [.ussd py!"*1#", .ussd py!"*2#"] { st := {} })).threads =
      [some (.error (.timeout none)), some (.error (.command .command none))] := by decide +kernel

end Gsm
