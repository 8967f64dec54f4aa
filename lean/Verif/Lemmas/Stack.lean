import Verif.Lemmas.StackComms
import Verif.Props.Waiting
/-! # What happens on the serial line, as a schedule of the threads -/
namespace Gsm
open List Spec

variable {lim : Limits} {env : Env}

/-! ### The reader -/

theorem notified_grows (c : Comms) (e : SEvent) : c.notified <+: (sstep c e).notified := by
  have hh : ∀ (c : Comms) l ct m, c.notified <+: (handleLineRead c l ct m).notified := by
    intro c l ct m
    unfold handleLineRead
    dsimp only
    split
    · exact List.prefix_rfl
    · split
      · exact List.prefix_rfl
      · exact List.prefix_append _ _
  cases e with
  | rx x m =>
    simp only [sstep]
    split
    · rcases readChar_cases c x m with ⟨l, _, _, h⟩ | ⟨_, h⟩ | ⟨_, q, _, _, h⟩ | ⟨_, _, h⟩ <;> rw [h]
      · exact hh { c with rxBuffer := [] } _ _ _
      · exact List.prefix_rfl
      · exact hh { c with rxBuffer := [] } _ _ _
      · exact List.prefix_rfl
    · exact List.prefix_rfl
  | start p => simp only [sstep]; split <;> exact List.prefix_rfl
  | finish => simp only [sstep]; split <;> exact List.prefix_rfl
  | expire => simp only [sstep]; split <;> exact List.prefix_rfl
  | fail => exact List.prefix_rfl

theorem rx_keeps (c : Comms) (x : Nat) (m : Bool) : (sstep c (.rx x m)).outcomes = c.outcomes ∧ ((sstep c (.rx x m)).pending = none ↔ c.pending = none) := by
  have hh : ∀ (c : Comms) l ct m, ((handleLineRead c l ct m).pending = none ↔ c.pending = none) := by
    intro c l ct m
    unfold handleLineRead
    dsimp only
    split
    · next h => simp [h]
    · split <;> exact Iff.rfl
  simp only [sstep]
  split
  · rcases readChar_cases c x m with ⟨l, _, _, h⟩ | ⟨_, h⟩ | ⟨_, q, _, _, h⟩ | ⟨_, _, h⟩ <;> rw [h]
    · exact ⟨by simp, hh { c with rxBuffer := [] } _ _ _⟩
    · exact ⟨rfl, Iff.rfl⟩
    · exact ⟨by simp, hh { c with rxBuffer := [] } _ _ _⟩
    · exact ⟨rfl, Iff.rfl⟩
  · exact ⟨rfl, Iff.rfl⟩

/-! ### Schedules -/

theorem runProcs_one {threads : List (Proc Value)} {w : Shared} {i : Nat} {p : Proc Value} (h : threads[i]? = some p) :
    runProcs env [i] (threads, w) = (threads.set i (p.step env w).1, (p.step env w).2) := by simp only [runProcs, h]

/-! ### The threads of a stack -/

/-- The thread for a batch of notifications. -/
def notifyProc [PyUnicode] (batch : List PyStr) : Proc Value := (Job.task (.notify batch)).proc

/-- The threads when the command that is being written has been answered. -/
def Stack.settled (env : Env) (x : Stack) : List (Proc Value) :=
  match x.inWrite with
  | none => x.threads
  | some y =>
    match x.threads[y.thread]? with
    | some (.io _ k) => x.threads.set y.thread (k (env.reply y.log))
    | _ => x.threads

/-- The prompt that is waited for. -/
def Stack.awaits (x : Stack) : Option PyStr :=
  match x.inWrite with
  | some ⟨_, t :: _⟩ => promptOf t
  | _ => none

/-- The commands that were written before the one whose answer is waited for. -/
def Stack.before (x : Stack) : List PyStr :=
  match x.inWrite with
  | some y => y.log.tail
  | none => x.shared.st.log

/-- The command that was answered, and how. -/
def exchange [PyUnicode] (lim : Limits) (x : Stack) (e : StackEvent) : Option (List PyStr × Reply) :=
  match x.inWrite, (x.happens lim e).inWrite, (x.happens lim e).comms.outcomes.getLast? with
  | some y, none, some o => some (y.log, o.reply)
  | _, _, _ => none

structure StackSim [PyUnicode] (env : Env) (jobs : List Job) (w : Shared) (total : List (List PyStr)) (keys : List (List PyStr)) (x : Stack) : Prop where
  threads : ∃ schedule, performJobs env schedule (jobs ++ total.map fun b => .task (.notify b)) w =
    (x.settled env ++ (total.drop x.comms.notified.length).map notifyProc, x.shared)
  comms : CommsOk x.awaits x.comms
  writing : ∀ y, x.inWrite = some y → ∃ t k log, x.threads[y.thread]? = some (.io t k) ∧ y.log = t :: log ∧ y.log <:+ x.shared.st.log
  free : x.inWrite = none ↔ x.comms.pending = none
  exchanged : Exchanged env x.before x.comms.outcomes.reverse
  keys : ∀ l ∈ keys, l.length ≤ x.before.length

theorem exchanged_grow {log log' : List PyStr} {os : List Outcome} (h : Exchanged env log os) (hs : log <:+ log') : Exchanged env log' os := by
  obtain ⟨a, rfl⟩ := hs
  induction a with
  | nil => exact h
  | cons t a ih => exact .unheard t ih

theorem settled_append {x : Stack} {new : List (Proc Value)} (c : Comms) (h : ∀ y, x.inWrite = some y → ∃ t k log, x.threads[y.thread]? = some (.io t k) ∧ y.log = t :: log ∧ y.log <:+ x.shared.st.log) :
    Stack.settled env { x with comms := c, threads := x.threads ++ new } = x.settled env ++ new := by
  unfold Stack.settled
  dsimp only
  cases hy : x.inWrite with
  | none => rfl
  | some y =>
    obtain ⟨t, k, _, ht, _⟩ := h y hy
    have hl := (List.getElem?_eq_some_iff.1 ht).1
    dsimp only
    rw [List.getElem?_append_left hl, ht]
    dsimp only
    rw [List.set_append_left _ _ hl]

/-- The reader goes on. -/
theorem stacksim_reader [PyUnicode] {jobs : List Job} {w : Shared} {total keys : List (List PyStr)} {x : Stack} (h : StackSim env jobs w total keys x) {e : SEvent}
    (h1 : CommsOk x.awaits (sstep x.comms e)) (h2 : (sstep x.comms e).outcomes = x.comms.outcomes) (h3 : (sstep x.comms e).pending = none ↔ x.comms.pending = none)
    (ht : (sstep x.comms e).notified <+: total) : StackSim env jobs w total keys (x.reader e) := by
  obtain ⟨new, hn⟩ := notified_grows x.comms e
  obtain ⟨rest, hr⟩ := ht
  have hd : (sstep x.comms e).notified.drop x.comms.notified.length = new := by rw [← hn, List.drop_left]
  have ht1 : total.drop x.comms.notified.length = new ++ rest := by rw [← hr, ← hn, List.append_assoc, List.drop_left]
  have ht2 : total.drop (sstep x.comms e).notified.length = rest := by rw [← hr, List.drop_left]
  have he : x.reader e = { x with comms := sstep x.comms e, threads := x.threads ++ new.map notifyProc } := by unfold Stack.reader; rw [hd]; rfl
  rw [he]
  refine ⟨?_, h1, fun y hy => ?_, h.free.trans h3.symm, ?_, h.keys⟩
  · obtain ⟨schedule, hs⟩ := h.threads
    refine ⟨schedule, hs.trans ?_⟩
    rw [settled_append _ h.writing, ht1]
    dsimp only
    rw [ht2, List.map_append, List.append_assoc]
  · obtain ⟨t, k, log, a, b, c⟩ := h.writing y hy
    exact ⟨t, k, log, by dsimp only; rw [List.getElem?_append_left (List.getElem?_eq_some_iff.1 a).1, a], b, c⟩
  · show Exchanged env x.before (sstep x.comms e).outcomes.reverse
    rw [h2]
    exact h.exchanged

theorem awaits_some {x : Stack} {y : InWrite} (h : x.inWrite = some y) {t : PyStr} {log : List PyStr} (hl : y.log = t :: log) : x.awaits = promptOf t := by
  unfold Stack.awaits
  rw [h]
  obtain ⟨i, l⟩ := y
  dsimp only at hl
  subst hl
  rfl

theorem awaits_ne (x : Stack) : x.awaits ≠ some [] := by
  unfold Stack.awaits
  split
  · exact promptOf_ne _
  · simp

/-- The wait is over. -/
theorem answered_cases [PyUnicode] {jobs : List Job} {w : Shared} {total keys : List (List PyStr)} {x : Stack} (h : StackSim env jobs w total keys x) {e : SEvent} (he : e = .finish ∨ e = .expire) :
    x.answered e = x ∨ ∃ y t k log o, x.inWrite = some y ∧ x.threads[y.thread]? = some (.io t k) ∧ y.log = t :: log ∧ y.log <:+ x.shared.st.log ∧
      (sstep x.comms e).outcomes = x.comms.outcomes ++ [o] ∧ Comes (promptOf t) o.reply ∧ (sstep x.comms e).pending = none ∧ (sstep x.comms e).notified = x.comms.notified ∧
      CommsOk none (sstep x.comms e) ∧ x.answered e = { x with comms := sstep x.comms e, threads := x.threads.set y.thread (k o.reply), inWrite := none } := by
  unfold Stack.answered
  cases hy : x.inWrite with
  | none => exact .inl rfl
  | some y =>
    obtain ⟨t, k, log, ht, hl, hs⟩ := h.writing y hy
    dsimp only
    rw [ht]
    rcases commsOk_over (p' := none) h.comms he with hc | ⟨o, h1, h2, h3, h4, h5⟩
    · left
      rw [hc, List.drop_length]
    · right
      refine ⟨y, t, k, log, o, rfl, ht, hl, hs, h1, awaits_some hy hl ▸ h2, h3, h4, h5, ?_⟩
      rw [h1, List.drop_left]

theorem exchange_same [PyUnicode] {x : Stack} {e : StackEvent} (h : (x.happens lim e).inWrite = x.inWrite) : exchange lim x e = none := by
  unfold exchange
  rw [h]
  cases x.inWrite <;> rfl

theorem stacksim_same [PyUnicode] {jobs : List Job} {w : Shared} {total keys : List (List PyStr)} {x : Stack} (h : StackSim env jobs w total keys x) {e : StackEvent} (he : x.happens lim e = x) :
    StackSim env jobs w total (keys ++ ((exchange lim x e).map (·.1)).toList) (x.happens lim e) := by
  rw [exchange_same (by rw [he]), he]
  simpa using h

theorem stacksim_answered [PyUnicode] {jobs : List Job} {w : Shared} {total keys : List (List PyStr)} {x : Stack} (h : StackSim env jobs w total keys x) {e : SEvent} (he : e = .finish ∨ e = .expire)
    {ev : StackEvent} (hv : x.happens lim ev = x.answered e) :
    ((∀ L r, exchange lim x ev = some (L, r) → env.reply L = r) → StackSim env jobs w total (keys ++ ((exchange lim x ev).map (·.1)).toList) (x.happens lim ev)) ∧
    ∀ L r, exchange lim x ev = some (L, r) → (∃ t log, L = t :: log ∧ Comes (promptOf t) r) ∧ ∀ l ∈ keys, l.length < L.length := by
  rcases answered_cases h he with ha | ⟨y, t, k, log, o, hy, ht, hl, hs, h1, h2, h3, h4, h5, ha⟩
  · rw [ha] at hv
    exact ⟨fun _ => stacksim_same h hv, fun L r hx => by rw [exchange_same (by rw [hv])] at hx; cases hx⟩
  · have hx : exchange lim x ev = some (y.log, o.reply) := by
      unfold exchange
      rw [hv, ha, hy]
      dsimp only
      rw [h1, List.getLast?_concat]
    rw [hx, hv, ha]
    have hb : x.before = log := by unfold Stack.before; rw [hy]; dsimp only; rw [hl]; rfl
    refine ⟨fun hag => ?_, fun L r hLr => ?_⟩
    · have hr := hag _ _ rfl
      obtain ⟨schedule, hsch⟩ := h.threads
      refine ⟨⟨schedule, hsch.trans ?_⟩, h5, fun _ h => (nomatch h), ⟨fun _ => h3, fun _ => rfl⟩, ?_, ?_⟩
      · have e1 : x.settled env = x.threads.set y.thread (k (env.reply y.log)) := by unfold Stack.settled; rw [hy]; dsimp only; rw [ht]
        rw [e1, hr]
        dsimp only
        rw [h4]
        rfl
      · show Exchanged env x.shared.st.log (sstep x.comms e).outcomes.reverse
        rw [h1, List.reverse_append]
        refine exchanged_grow ?_ hs
        have hex := h.exchanged
        rw [hb] at hex
        rw [hl] at hr ⊢
        show Exchanged env (t :: log) (o :: x.comms.outcomes.reverse)
        cases o with
        | returned ls => exact .returned hex hr
        | timeout d => exact .timeout hex hr
      · intro l hm
        show l.length ≤ x.shared.st.log.length
        have hle := hs.length_le
        rcases List.mem_append.1 hm with hm | hm
        · have := h.keys l hm
          rw [hb] at this
          rw [hl, List.length_cons] at hle
          omega
        · simp only [Option.map_some, Option.toList_some, List.mem_singleton] at hm
          rw [hm]
          exact hle
    · cases hLr
      refine ⟨⟨t, log, hl, h2⟩, fun l hm => ?_⟩
      have := h.keys l hm
      rw [hb] at this
      rw [hl, List.length_cons]
      omega

theorem stacksim_step [PyUnicode] {jobs : List Job} {w : Shared} {total keys : List (List PyStr)} {x : Stack} (hlim : env.toLimits = lim) (h : StackSim env jobs w total keys x) (ev : StackEvent)
    (ht : (x.happens lim ev).comms.notified <+: total) :
    ((∀ L r, exchange lim x ev = some (L, r) → env.reply L = r) → StackSim env jobs w total (keys ++ ((exchange lim x ev).map (·.1)).toList) (x.happens lim ev)) ∧
    ∀ L r, exchange lim x ev = some (L, r) → (∃ t log, L = t :: log ∧ Comes (promptOf t) r) ∧ ∀ l ∈ keys, l.length < L.length := by
  have none_ok : exchange lim x ev = none → StackSim env jobs w total keys (x.happens lim ev) →
      ((∀ L r, exchange lim x ev = some (L, r) → env.reply L = r) → StackSim env jobs w total (keys ++ ((exchange lim x ev).map (·.1)).toList) (x.happens lim ev)) ∧
      ∀ L r, exchange lim x ev = some (L, r) → (∃ t log, L = t :: log ∧ Comes (promptOf t) r) ∧ ∀ l ∈ keys, l.length < L.length := by
    intro h1 h2
    rw [h1]
    exact ⟨fun _ => by simpa using h2, fun L r hx => (nomatch hx)⟩
  have same_ok : x.happens lim ev = x → _ := fun he => none_ok (exchange_same (by rw [he])) (by rw [he]; exact h)
  cases ev with
  | arrives c m =>
    obtain ⟨h1, h2⟩ := rx_keeps x.comms c m
    exact none_ok (exchange_same rfl) (stacksim_reader h (commsOk_rx (awaits_ne x) h.comms c m) h1 h2 ht)
  | breaks => exact none_ok (exchange_same rfl) (stacksim_reader h (commsOk_fail h.comms) rfl Iff.rfl ht)
  | late => exact stacksim_answered h (.inr rfl) rfl
  | thread i =>
    cases hi : x.threads[i]? with
    | none => exact same_ok (by simp only [Stack.happens, hi])
    | some p =>
      cases p with
      | done r => exact same_ok (by simp only [Stack.happens, hi])
      | io t k =>
        have he : x.happens lim (.thread i) = x.begin i t := by simp only [Stack.happens, hi]
        cases hy : x.inWrite with
        | none =>
          have he' : x.happens lim (.thread i) = { x with comms := sstep x.comms (.start (promptOf t)), shared := x.shared.written t, inWrite := some ⟨i, t :: x.shared.st.log⟩ } := by
            rw [he]; unfold Stack.begin; rw [hy]
          refine none_ok (by unfold exchange; rw [hy]) ?_
          rw [he']
          have hp := h.free.1 hy
          have hc : sstep x.comms (.start (promptOf t)) = { x.comms with pending := some ⟨[], false⟩, expect := (expectOf (promptOf t)).or x.comms.expect } := by simp only [sstep, hp]
          have hb : x.before = x.shared.st.log := by unfold Stack.before; rw [hy]
          refine ⟨?_, commsOk_start (promptOf_ne t) h.comms hp, fun y hy' => ?_, ⟨fun h => (nomatch h), fun h => ?_⟩, ?_, ?_⟩
          · obtain ⟨schedule, hs⟩ := h.threads
            refine ⟨schedule ++ [i], ?_⟩
            unfold performJobs at hs ⊢
            have e1 : x.settled env = x.threads := by unfold Stack.settled; rw [hy]
            have hl := (List.getElem?_eq_some_iff.1 hi).1
            rw [procs_append, hs, e1, runProcs_one (p := .io t k) (by rw [List.getElem?_append_left hl, hi]), List.set_append_left _ _ hl, hc]
            refine Prod.ext ?_ rfl
            dsimp only [Proc.step]
            have e2 : ∀ c : Comms, Stack.settled env { x with comms := c, shared := x.shared.written t, inWrite := some ⟨i, t :: x.shared.st.log⟩ } = x.threads.set i (k (env.reply (t :: x.shared.st.log))) := by
              intro c
              unfold Stack.settled
              dsimp only
              rw [hi]
            rw [e2]
          · cases hy'
            exact ⟨t, k, _, hi, rfl, List.suffix_rfl⟩
          · rw [hc] at h
            cases h
          · show Exchanged env x.shared.st.log (sstep x.comms (.start (promptOf t))).outcomes.reverse
            rw [hc, ← hb]
            exact h.exchanged
          · show ∀ l ∈ keys, l.length ≤ x.shared.st.log.length
            rw [← hb]
            exact h.keys
        | some y =>
          by_cases hyi : y.thread = i
          · have he' : x.happens lim (.thread i) = x.answered .finish := by
              rw [he]; unfold Stack.begin; rw [hy]; exact if_pos hyi
            exact stacksim_answered h (.inl rfl) he'
          · refine same_ok ?_
            rw [he]; unfold Stack.begin; rw [hy]; exact if_neg hyi
      | act f k =>
        have he : x.happens lim (.thread i) = { x with threads := x.threads.set i (k lim x.shared), shared := f lim x.shared } := by simp only [Stack.happens, hi]
        refine none_ok (exchange_same (by rw [he])) ?_
        rw [he]
        have hl := (List.getElem?_eq_some_iff.1 hi).1
        have hne : ∀ y, x.inWrite = some y → y.thread ≠ i := by
          rintro y hy rfl
          obtain ⟨t, k', _, h1, _⟩ := h.writing y hy
          rw [h1] at hi
          cases hi
        obtain ⟨schedule, hs⟩ := h.threads
        have hsi : (x.settled env)[i]? = some (.act f k) ∧ i < (x.settled env).length := by
          unfold Stack.settled
          cases hy : x.inWrite with
          | none => exact ⟨hi, hl⟩
          | some y =>
            obtain ⟨t, k', _, h1, _⟩ := h.writing y hy
            dsimp only
            rw [h1]
            dsimp only
            exact ⟨by rw [List.getElem?_set_ne (hne y hy), hi], by rw [List.length_set]; exact hl⟩
        have hat : (x.settled env ++ (total.drop x.comms.notified.length).map notifyProc)[i]? = some (.act f k) := by rw [List.getElem?_append_left hsi.2, hsi.1]
        -- the log grows
        have hgrow : x.shared.st.log <:+ (f lim x.shared).st.log := by
          obtain ⟨_, hg⟩ := goes_jobs (env := env) .ussd (jobs ++ total.map fun b => .task (.notify b)) w schedule
          rw [hs] at hg
          obtain ⟨w1, h1, h2⟩ := hg i _ hat
          have := (h1 x.shared h2).1.grow.grows.log
          rw [hlim] at this
          exact this
        refine ⟨⟨schedule ++ [i], ?_⟩, h.comms, fun y hy => ?_, h.free, ?_, ?_⟩
        · unfold performJobs at hs ⊢
          rw [procs_append, hs, runProcs_one hat, List.set_append_left _ _ hsi.2]
          dsimp only [Proc.step]
          rw [hlim]
          refine Prod.ext ?_ rfl
          dsimp only
          congr 1
          unfold Stack.settled
          dsimp only
          cases hy : x.inWrite with
          | none => rfl
          | some y =>
            obtain ⟨t, k', _, h1, _⟩ := h.writing y hy
            dsimp only
            rw [List.getElem?_set_ne (Ne.symm (hne y hy)), h1]
            dsimp only
            rw [List.set_comm _ _ (hne y hy)]
        · obtain ⟨t, k', log, h1, h2, h3⟩ := h.writing y hy
          exact ⟨t, k', log, by dsimp only; rw [List.getElem?_set_ne (Ne.symm (hne y hy)), h1], h2, h3.trans hgrow⟩
        · have hex := h.exchanged
          unfold Stack.before at hex ⊢
          dsimp only
          cases hy : x.inWrite with
          | none => rw [hy] at hex; exact exchanged_grow hex hgrow
          | some y => rw [hy] at hex; exact hex
        · have hk := h.keys
          unfold Stack.before at hk ⊢
          dsimp only
          cases hy : x.inWrite with
          | none => rw [hy] at hk; exact fun l hm => Nat.le_trans (hk l hm) hgrow.length_le
          | some y => rw [hy] at hk; exact hk

/-! ### All that happens -/

/-- The commands that were answered, and how. -/
def exchanges [PyUnicode] (lim : Limits) : List StackEvent → Stack → List (List PyStr × Reply)
  | [], _ => []
  | e :: hs, x => (exchange lim x e).toList ++ exchanges lim hs (x.happens lim e)

/-- The answer to a command, from those that were given. -/
def lookupReply (xs : List (List PyStr × Reply)) (log : List PyStr) : Reply :=
  match xs.find? (fun x => x.1 == log) with
  | some x => x.2
  | none => .timeout none

theorem runs_notified [PyUnicode] (hs : List StackEvent) (x : Stack) : x.comms.notified <+: (Stack.runs lim hs x).comms.notified := by
  induction hs generalizing x with
  | nil => exact List.prefix_rfl
  | cons e hs ih =>
    refine List.IsPrefix.trans ?_ (ih (x.happens lim e))
    have hans : ∀ e, x.comms.notified <+: (x.answered e).comms.notified := by
      intro e
      unfold Stack.answered
      split
      · exact List.prefix_rfl
      · split
        · exact notified_grows _ _
        · exact List.prefix_rfl
    cases e with
    | arrives c m => exact notified_grows _ _
    | breaks => exact notified_grows _ _
    | late => exact hans _
    | thread i =>
      simp only [Stack.happens]
      split
      · unfold Stack.begin
        split
        · exact notified_grows _ _
        · split
          · exact hans _
          · exact List.prefix_rfl
      · exact List.prefix_rfl
      · exact List.prefix_rfl

theorem stacksim_runs [PyUnicode] {jobs : List Job} {w : Shared} {total : List (List PyStr)} (hlim : env.toLimits = lim) (hs : List StackEvent) :
    ∀ (x : Stack) (old : List (List PyStr × Reply)), StackSim env jobs w total (old.map (·.1)) x → (Stack.runs lim hs x).comms.notified <+: total →
      (∀ L, env.reply L = lookupReply (old ++ exchanges lim hs x) L) →
      (∃ keys, StackSim env jobs w total keys (Stack.runs lim hs x)) ∧ ∀ z ∈ exchanges lim hs x, ∃ t log, z.1 = t :: log ∧ Comes (promptOf t) z.2 := by
  induction hs with
  | nil => exact fun x old h _ _ => ⟨⟨_, h⟩, fun _ h => (nomatch h)⟩
  | cons e hs ih =>
    intro x old h ht hr
    obtain ⟨h1, h2⟩ := stacksim_step hlim h e ((runs_notified hs _).trans ht)
    have hx : ∀ L r, exchange lim x e = some (L, r) → env.reply L = r := by
      intro L r hLr
      have hnone : old.find? (fun x => x.1 == L) = none := by
        refine List.find?_eq_none.2 fun z hz he => ?_
        have := (h2 L r hLr).2 z.1 (List.mem_map.2 ⟨z, hz, rfl⟩)
        rw [eq_of_beq he] at this
        omega
      rw [hr, exchanges, hLr]
      simp [lookupReply, List.find?_append, hnone]
    have h3 := h1 hx
    have e1 : old.map (·.1) ++ ((exchange lim x e).map (·.1)).toList = (old ++ (exchange lim x e).toList).map (·.1) := by
      cases exchange lim x e <;> simp
    rw [e1] at h3
    obtain ⟨h4, h5⟩ := ih _ _ h3 ht (by intro L; rw [hr, exchanges, List.append_assoc])
    refine ⟨h4, fun z hz => ?_⟩
    rcases List.mem_append.1 hz with hz | hz
    · exact (h2 z.1 z.2 (by simpa using hz)).1
    · exact h5 z hz

/-- What happens on the serial line is a schedule of the threads, with answers that can be heard. -/
theorem stack_forward [PyUnicode] (lim : Limits) (jobs : List Job) (w : Shared) (hs : List StackEvent) :
    ∃ env keys, env.toLimits = lim ∧ Audible env ∧ StackSim env jobs w (Stack.runs lim hs (Stack.start jobs w)).comms.notified keys (Stack.runs lim hs (Stack.start jobs w)) := by
  obtain ⟨env, henv⟩ : ∃ env : Env, env = { toLimits := lim, reply := lookupReply (exchanges lim hs (Stack.start jobs w)) } := ⟨_, rfl⟩
  have hlim : env.toLimits = lim := by rw [henv]
  have hrep : ∀ L, env.reply L = lookupReply (exchanges lim hs (Stack.start jobs w)) L := by rw [henv]; exact fun _ => rfl
  have h0 : StackSim env jobs w (Stack.runs lim hs (Stack.start jobs w)).comms.notified [] (Stack.start jobs w) := by
    refine ⟨⟨[], ?_⟩, commsOk_init, fun _ h => (nomatch h), ⟨fun _ => rfl, fun _ => rfl⟩, .nil _, fun _ h => (nomatch h)⟩
    simp [performJobs, runProcs, Stack.start, Stack.settled, notifyProc, Function.comp_def]
  obtain ⟨⟨keys, h1⟩, h2⟩ := stacksim_runs hlim hs _ [] h0 List.prefix_rfl (by simpa using hrep)
  refine ⟨env, keys, hlim, fun t log => ?_, h1⟩
  rw [← comes_promptOf, hrep]
  unfold lookupReply
  split
  · next z hz =>
    obtain ⟨t', log', e, hc⟩ := h2 z (List.mem_of_find?_eq_some hz)
    have e' : z.1 = t :: log := by simpa using List.find?_some hz
    rw [e'] at e
    cases e
    exact hc
  · exact .silence

end Gsm
