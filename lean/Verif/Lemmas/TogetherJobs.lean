import Verif.Lemmas.Together
/-! # What a thread may spend that waits for others -/
namespace Gsm
open Spec

namespace Proc

/-- Whatever the other threads do, the steps of this one add at most `n` to the measure. -/
def Spends {α : Type} (μ : St → Nat) (env : Env) : Proc α → Nat → Prop
  | done _, _ => True
  | io t k, n => ∃ m, (∀ w : Shared, μ (w.written t).st + m ≤ μ w.st + n) ∧ ∀ log, Spends μ env (k (env.reply (t :: log))) m
  | act f k, n => ∃ m, (∀ w : Shared, μ (f env w).st + m ≤ μ w.st + n) ∧ ∀ w, Spends μ env (k env w) m

variable {μ : St → Nat} {env : Env} {α β : Type} {n : Nat}

theorem Spends.mono {p : Proc α} : ∀ {n n' : Nat}, Spends μ env p n → n ≤ n' → Spends μ env p n' := by
  induction p with
  | done r => intros; trivial
  | io t k ih =>
    rintro n n' ⟨m, h1, h2⟩ h
    exact ⟨m + (n' - n), fun s => by have := h1 s; omega, fun log => ih _ (h2 log) (by omega)⟩
  | act f k ih =>
    rintro n n' ⟨m, h1, h2⟩ h
    exact ⟨m + (n' - n), fun s => by have := h1 s; omega, fun s => ih _ _ (h2 s) (by omega)⟩

theorem Spends.bind {p : Proc α} {f : α → Proc β} {k l : Nat} (hp : Spends μ env p k) (hf : ∀ a, Spends μ env (f a) l) (h : k + l ≤ n) : Spends μ env (p >>= f) n := by
  refine Spends.mono (n := k + l) ?_ h
  clear h
  induction p generalizing k with
  | done r =>
    cases r with
    | error e => trivial
    | ok a => exact (hf a).mono (by omega)
  | io t g ih =>
    obtain ⟨m, h1, h2⟩ := hp
    exact ⟨m + l, fun s => by have := h1 s; omega, fun log => ih _ (h2 log)⟩
  | act g q ih =>
    obtain ⟨m, h1, h2⟩ := hp
    exact ⟨m + l, fun s => by have := h1 s; omega, fun s => ih _ _ (h2 s)⟩

theorem Spends.onError {p : Proc α} {h : Proc Unit} (hp : Spends μ env p n) (hh : Spends μ env h 0) : Spends μ env (onError p h) n := by
  induction p generalizing n with
  | done r =>
    cases r with
    | ok a => trivial
    | error e => exact Spends.bind (l := 0) hh (fun _ => trivial) (by omega)
  | io t g ih =>
    obtain ⟨m, h1, h2⟩ := hp
    exact ⟨m, h1, fun log => ih _ (h2 log)⟩
  | act g q ih =>
    obtain ⟨m, h1, h2⟩ := hp
    exact ⟨m, h1, fun s => ih _ _ (h2 s)⟩

/-- Steps that have nothing to do with events cost the same. -/
theorem Spends.lift {p : Prog α} (h : Prog.Spends μ env p n) : Spends μ env (lift p) n := by
  induction p generalizing n with
  | done r => trivial
  | io t k ih =>
    obtain ⟨m, h1, h2⟩ := h
    exact ⟨m, fun w => h1 w.st, fun log => ih _ (h2 log)⟩
  | act f k ih =>
    obtain ⟨m, h1, h2⟩ := h
    exact ⟨m, fun w => h1 w.st, fun w => ih _ _ (h2 w.st)⟩

theorem Spends.pure (a : α) : Spends μ env (pure a : Proc α) n := trivial
theorem Spends.raise (e : PyErr) : Spends μ env (raise e : Proc α) n := trivial
theorem Spends.ofExcept (e : Except PyErr α) : Spends μ env (ofExcept e) n := trivial
theorem Spends.then {p : Proc α} {f : α → Proc β} (hp : Spends μ env p 0) (hf : ∀ a, Spends μ env (f a) n) : Spends μ env (p >>= f) n := .bind hp hf (by omega)
theorem Spends.after {p : Proc α} {f : α → Proc β} (hp : Spends μ env p n) (hf : ∀ a, Spends μ env (f a) 0) : Spends μ env (p >>= f) n := .bind hp hf (by omega)
theorem Spends.look : Spends μ env look n := ⟨n, fun _ => Nat.le_refl _, fun _ => trivial⟩
theorem Spends.lookThen {f : Shared → Proc α} (hf : ∀ a, Spends μ env (f a) n) : Spends μ env (Proc.look >>= f) n := .then .look hf
theorem Spends.change {f : Shared → Shared} (h : ∀ w, μ (f w).st ≤ μ w.st) : Spends μ env (change f) n := ⟨n, fun w => Nat.add_le_add_right (h w) _, fun _ => trivial⟩
theorem Spends.ite {c : Prop} [Decidable c] {x y : Proc α} (hx : c → Spends μ env x n) (hy : ¬ c → Spends μ env y n) : Spends μ env (if c then x else y) n := by
  split
  · next h => exact hx h
  · next h => exact hy h

section
variable {w c t o : Nat} (G : Prog.Gauge μ env w c t o)
include G

theorem spends_st {f : St → St} (h : ∀ s, (f s).log = s.log ∧ (f s).callbacks = s.callbacks ∧ (f s).sent = s.sent ∧ (f s).calls = s.calls) : Spends μ env (changeSt f) n :=
  .change fun w => G.same (h w.st)
theorem same_event (s : St) (x : Slot) (b : Option Bool) : μ (s.withEvent x b) ≤ μ s := by cases x <;> exact G.same ⟨rfl, rfl, rfl, rfl⟩
theorem spends_create (x : Slot) : Spends μ env (change fun w => w.create x) n := .change fun w => same_event G w.st x _
theorem spends_forget (x : Slot) : Spends μ env (change fun w => w.forget x) n := .change fun w => same_event G w.st x _
theorem spends_setEvent (x : Slot) (e : Nat) : Spends μ env (change fun w => w.setEvent x e) n := by
  refine .change fun w => ?_
  unfold Shared.setEvent
  dsimp only
  split
  · exact same_event G w.st x _
  · exact Nat.le_refl _
omit G in
theorem spends_eventOf (x : Slot) : Spends μ env (eventOf x) n := by
  unfold eventOf
  refine .lookThen fun w => ?_
  split
  · exact .pure _
  · exact .raise _
omit G in
theorem spends_wait (x : Slot) : Spends μ env (wait x) n := .then (spends_eventOf x) fun _ => .lookThen fun _ => .pure _
theorem spends_set (x : Slot) : Spends μ env (set x) n := .then (spends_eventOf x) fun e => spends_setEvent G x e

theorem spends_ussdNote (ls : List PyStr) : Spends μ env (handleUssd ls) n :=
  .lookThen fun _ => .ite (fun _ => .then (.ofExcept _) fun _ => .then (spends_st G fun _ => ⟨rfl, rfl, rfl, rfl⟩) fun _ => spends_set G _) fun _ => .pure _

theorem spends_report (l : PyStr) : Spends μ env (handleSmsStatusReport l) (3 * w + c) := by
  unfold handleSmsStatusReport
  split
  · next mem idx _ =>
    refine .bind (k := 2 * w) (l := w + c) (.lift (Prog.spends_read G idx (some mem))) (fun m => ?_) (by omega)
    refine .bind (k := w) (l := c) (.lift (by simpa [selecting] using Prog.spends_delete G idx none)) (fun _ => ?_) (Nat.le_refl _)
    split
    · exact .raise _
    · exact .then (.lift (Prog.spends_updateSent G _ _ _)) fun _ => .lookThen fun _ => .ite (fun _ => spends_set G _) fun _ => .lift (G.callback _)
  · exact .pure _

theorem spends_tellDial (a d : Int) : Spends μ env (tellDial a d) n := .then (spends_st G fun _ => ⟨rfl, rfl, rfl, rfl⟩) fun _ => spends_set G _
theorem spends_initiatedGroups (g : List PyStr) : Spends μ env (handleInitiatedGroups g) n := by
  unfold handleInitiatedGroups
  refine .lookThen fun _ => .ite (fun _ => ?_) fun _ => .pure _
  split
  · exact .then (.ofExcept _) fun _ => .then (.ofExcept _) fun _ => spends_tellDial G _ _
  · exact .then (.ofExcept _) fun _ => spends_tellDial G _ _
  · exact .raise _
theorem spends_initiated (a d : Int) : Spends μ env (handleCallInitiated a d) n := .lookThen fun _ => .ite (fun _ => spends_tellDial G a d) fun _ => .pure _

theorem spends_dispatch (all : List PyStr) : ∀ ls : List PyStr, Spends μ env (dispatchLoop all ls) (3 * w + c + o)
  | [] => .pure _
  | l :: ls => by
    rw [dispatchLoop]
    refine .lookThen fun s => ?_
    split
    · exact .mono (.lift (Prog.spends_incoming G all)) (by omega)
    · exact .mono (.lift (Prog.spends_received G l)) (by omega)
    · exact spends_ussdNote G all
    · exact (spends_report G l).mono (by omega)
    · exact .ite (fun _ => spends_initiatedGroups G _) fun _ => .mono (.lift (Prog.spends_handler G _ _)) (by omega)
    · exact spends_dispatch all ls

omit G in
theorem bind_assoc {α β γ : Type} (p : Proc α) (f : α → Proc β) (g : β → Proc γ) : (p >>= f) >>= g = p >>= fun a => f a >>= g := by
  show (p.bind f).bind g = p.bind fun a => (f a).bind g
  induction p with
  | done r => cases r <;> rfl
  | io t k ih => simp only [Proc.bind, ih]
  | act f k ih => simp only [Proc.bind, ih]

omit G in
theorem lift_bind {α β : Type} (p : Prog α) (f : α → Prog β) : lift (p >>= f) = lift p >>= fun a => lift (f a) := by
  show lift (p.bind f) = (lift p).bind fun a => lift (f a)
  induction p with
  | done r => cases r <;> rfl
  | io t k ih => simp only [Prog.bind, Proc.lift, Proc.bind, ih]
  | act f k ih => simp only [Prog.bind, Proc.lift, Proc.bind, ih]

theorem spends_poll : ∀ (k : Nat) (p : Poller), Spends μ env (poll k p) (k * w + Prog.watchCost c p)
  | 0, _ => .pure _
  | k + 1, p => by
    have ih := spends_poll k
    have hrest : ∀ p : Poller, Spends μ env (if p.done then Pure.pure () else poll k p : Proc Unit) (k * w + Prog.watchCost c p) := fun p => .ite (fun _ => .pure _) fun _ => ih p
    rw [poll, pollRound, bind_assoc]
    refine .lookThen fun s => ?_
    by_cases hg : s.st.alive ∧ ¬ p.done ∧ 0 < p.timeLeft
    · rw [if_pos hg, bind_assoc]
      refine .bind (l := k * w + Prog.watchCost c p) (.lift (Prog.spends_clcc G)) (fun seen => ?_) (by rw [Nat.succ_mul]; omega)
      have hq : (if p.expectedState = 0 then { p with timeLeft := p.timeLeft - 1 } else p).expectedState = p.expectedState := by split <;> rfl
      generalize (if p.expectedState = 0 then { p with timeLeft := p.timeLeft - 1 } else p) = q at hq
      have hw : Prog.watchCost c p = Prog.watchCost c q := by unfold Prog.watchCost; rw [hq]
      rw [hw]
      have hrq := hrest q
      cases seen with
      | none =>
        simp only [pollStep, Prog.pollStep]
        split
        · rw [lift_bind, bind_assoc]
          exact .bind (l := 0) (.lift (Prog.spends_ended G _ _ _)) (fun _ => show Spends μ env (Pure.pure () : Proc Unit) 0 from .pure _) (by have := (Prog.watch_le (c := c) q).1; omega)
        · split
          · rw [lift_bind, bind_assoc]
            exact .bind (l := 0) (.lift (Prog.spends_ended G _ _ _)) (fun _ => show Spends μ env (Pure.pure () : Proc Unit) 0 from .pure _) (by have := (Prog.watch_le (c := c) q).1; omega)
          · exact hrq
      | some r =>
        obtain ⟨cid, dir, stat, type⟩ := r
        simp only [pollStep]
        by_cases h0 : dir = 0 ∧ q.expectedState = 0 ∧ (stat = 2 ∨ stat = 3)
        · rw [if_pos h0, bind_assoc]
          refine .then (spends_initiated G _ _) fun _ => (hrest _).mono ?_
          simp [Prog.watchCost, h0.2.1]
        · rw [if_neg h0]
          simp only [Prog.pollStep]
          split
          · next hd =>
            split
            · next h1 =>
              split
              · next h2 => exact absurd ⟨hd, h1, h2⟩ h0
              · exact hrq
            · split
              · next h1 =>
                split
                · rw [lift_bind, bind_assoc]
                  refine .bind (.lift (Prog.spends_answered G _)) (fun _ => hrest _) ?_
                  simp [Prog.watchCost, h1]
                  omega
                · exact hrq
              · exact hrq
          · exact hrq
    · rw [if_neg hg]
      exact show Spends μ env (Pure.pure () : Proc Unit) _ from .pure _

theorem spends_task [PyUnicode] {L : Nat} (x : Task) (hL : deletesListed x = true → w ≠ 0 → Brief env.reply L) :
    Spends μ env x.proc (taskCommands L x * w + taskCallbacks x * c + taskSent x * t + taskCalls x * o) := by
  have hlift := Spends.lift (Prog.spends_task G x hL)
  unfold Task.proc
  split
  · exact (spends_report G _).mono (by simp only [taskCommands, taskCallbacks, taskSent, taskCalls]; omega)
  · exact (spends_dispatch G _ _).mono (by simp only [taskCommands, taskCallbacks, taskSent, taskCalls]; omega)
  · refine (spends_poll G _ _).mono ?_
    simp only [taskCommands, taskCallbacks, taskSent, taskCalls, Prog.watchCost]
    split <;> omega
  · exact hlift

theorem spends_ussd (x : PyStr) : Spends μ env (sendUssd x) w := by
  unfold sendUssd
  refine .then (spends_create G _) fun _ => .after (.onError (.lift (G.write _ _ _)) (spends_forget G _)) fun ls => ?_
  unfold awaitUssd
  refine .ite (fun _ => .then (spends_forget G _) fun _ => .then (.ofExcept _) fun _ => .pure _) fun _ => ?_
  exact .then (spends_wait _) fun ok => .then (spends_forget G _) fun _ => .ite (fun _ => .lookThen fun _ => .pure _) fun _ => .raise _

theorem spends_dialWait (x : PyStr) (k : Nat) (cb : Bool) : Spends μ env (dialWait x k cb) (w + o) := by
  unfold dialWait
  refine .then (spends_create G _) fun _ => .bind (.onError (.lift ?_) (spends_forget G _)) (fun _ => ?_) (Nat.le_refl _)
  · exact .lookThen fun s => .ite (fun _ => .after (G.write _ _ _) fun _ => .pure _) fun _ => G.send _
  · have hend : Spends μ env (awaitDial x cb) o := by
      unfold awaitDial
      refine .then (spends_wait _) fun ok => .then (spends_forget G _) fun _ => .ite (fun _ => .lookThen fun _ => ?_) fun _ => .raise _
      split
      · exact .raise _
      · exact .lift (Prog.spends_register G _)
    exact .lookThen fun _ => .ite (fun _ => .then (spends_st G fun _ => ⟨rfl, rfl, rfl, rfl⟩) fun _ => hend) fun _ => hend

theorem spends_sendWait [PyUnicode] (d x : PyStr) (f : Bool) : Spends μ env (sendSmsWait d x f) (mostToSend x * w + t) := by
  unfold sendSmsWait
  refine .after (.lift (Prog.spends_send G d x f)) fun i => ?_
  exact .then (spends_create G _) fun _ => .then (spends_wait _) fun ok => .then (spends_forget G _) fun _ => .ite (fun _ => .pure _) fun _ => .raise _

theorem spends_job [PyUnicode] {L : Nat} (x : Job) (hL : jobDeletes x = true → w ≠ 0 → Brief env.reply L) :
    Spends μ env x.proc (jobCommands L x * w + jobCallbacks x * c + jobSent x * t + jobCalls x * o) := by
  cases x with
  | task x => exact .after (spends_task G x hL) fun _ => .pure _
  | ussd x => exact .after ((spends_ussd G x).mono (by simp only [jobCommands]; omega)) fun _ => .pure _
  | dial x k cb => exact .after ((spends_dialWait G x k cb).mono (by simp only [jobCommands, jobCallbacks, jobSent, jobCalls]; omega)) fun _ => .pure _
  | sendWait d x f => exact .after ((spends_sendWait G d x f).mono (by simp only [jobCommands, jobCallbacks, jobSent, jobCalls]; omega)) fun _ => .pure _

end

/-! ### All threads -/

theorem step_spends {p : Proc α} {k : Nat} (h : Spends μ env p k) (w : Shared) : ∃ m, Spends μ env (p.step env w).1 m ∧ μ (p.step env w).2.st + m ≤ μ w.st + k := by
  cases p with
  | done r => exact ⟨k, trivial, Nat.le_refl _⟩
  | io t f => obtain ⟨m, h1, h2⟩ := h; exact ⟨m, h2 _, h1 w⟩
  | act g f => obtain ⟨m, h1, h2⟩ := h; exact ⟨m, h2 w, h1 w⟩

theorem procs_spend : ∀ (sched : List Nat) (threads : List (Proc Value)) (budget : List Nat) (w : Shared), budget.length = threads.length →
    (∀ (i : Nat) p k, threads[i]? = some p → budget[i]? = some k → Spends μ env p k) → μ (runProcs env sched (threads, w)).2.st ≤ μ w.st + budget.sum
  | [], _, _, _, _, _ => by simp [runProcs]
  | j :: js, threads, budget, w, hl, h => by
    simp only [runProcs]
    cases hj : threads[j]? with
    | none => exact procs_spend js threads budget w hl h
    | some p =>
      have hlt : j < threads.length := (List.getElem?_eq_some_iff.1 hj).1
      have hk : budget[j]? = some budget[j] := List.getElem?_eq_getElem (by omega)
      obtain ⟨m, h1, h2⟩ := step_spends (h j p _ hj hk) w
      have h3 := procs_spend js (threads.set j (p.step env w).1) (budget.set j m) (p.step env w).2 (by simp [hl]) (by
        intro i q k hq hk'
        by_cases hi : i = j
        · subst hi
          rw [List.getElem?_set_self (by omega)] at hq hk'
          cases hq; cases hk'
          exact h1
        · rw [List.getElem?_set_ne (by omega)] at hq hk'
          exact h i q k hq hk')
      have h4 := Prog.sum_set budget j _ m hk
      dsimp only
      omega

theorem jobs_spend [PyUnicode] (sched : List Nat) (xs : List Job) (f : Job → Nat) (h : ∀ x ∈ xs, Spends μ env x.proc (f x)) (w : Shared) :
    μ (performJobs env sched xs w).2.st ≤ μ w.st + (xs.map f).sum := by
  refine procs_spend sched (xs.map Job.proc) (xs.map f) w (by simp) ?_
  intro i p k hp hk
  rw [List.getElem?_map] at hp hk
  cases hx : xs[i]? with
  | none => rw [hx] at hp; cases hp
  | some x =>
    rw [hx] at hp hk
    cases hp; cases hk
    exact h x (List.mem_of_getElem? hx)

/-! ### Every thread comes to its end -/

theorem runProcs_append (env : Env) : ∀ (xs ys : List Nat) (z : List (Proc Value) × Shared), runProcs env (xs ++ ys) z = runProcs env ys (runProcs env xs z)
  | [], _, _ => rfl
  | i :: xs, ys, (threads, s) => by
    simp only [List.cons_append, runProcs]
    split
    · exact runProcs_append env xs ys _
    · exact runProcs_append env xs ys _

theorem run_succ (σ : Nat → Nat) (n : Nat) (z : List (Proc Value) × Shared) :
    runProcs env (firstSteps σ (n + 1)) z = runProcs env [σ n] (runProcs env (firstSteps σ n) z) := by
  rw [Prog.firstSteps_succ, runProcs_append]

theorem one_step_self {i : Nat} {z : List (Proc Value) × Shared} {p : Proc Value} (h : z.1[i]? = some p) : (runProcs env [i] z).1[i]? = some (p.step env z.2).1 := by
  obtain ⟨threads, s⟩ := z
  dsimp only at h
  simp only [runProcs, h]
  exact List.getElem?_set_self (List.getElem?_eq_some_iff.1 h).1

theorem one_step_other {i j : Nat} (hj : j ≠ i) {z : List (Proc Value) × Shared} {p : Proc Value} (h : z.1[i]? = some p) : (runProcs env [j] z).1[i]? = some p := by
  obtain ⟨threads, s⟩ := z
  dsimp only at h
  simp only [runProcs]
  split
  · exact h
  · dsimp only
    rw [List.getElem?_set_ne hj]
    exact h

/-- When the schedule comes to the thread again, it takes its next step. -/
theorem next_step {σ : Nat → Nat} {i : Nat} {z : List (Proc Value) × Shared} {p : Proc Value} : ∀ (d n : Nat), σ (n + d) = i → (runProcs env (firstSteps σ n) z).1[i]? = some p →
    ∃ m w, n < m ∧ (runProcs env (firstSteps σ m) z).1[i]? = some (p.step env w).1
  | 0, n, hd, h => by
    have h1 := one_step_self (env := env) h
    rw [show i = σ n from hd.symm, ← run_succ σ n z, show σ n = i from hd] at h1
    exact ⟨n + 1, _, by omega, h1⟩
  | d + 1, n, hd, h => by
    by_cases hn : σ n = i
    · have h1 := one_step_self (env := env) h
      rw [show i = σ n from hn.symm, ← run_succ σ n z, hn] at h1
      exact ⟨n + 1, _, by omega, h1⟩
    · have h1 := one_step_other (env := env) hn h
      rw [← run_succ σ n z] at h1
      obtain ⟨m, w, hm, hr⟩ := next_step d (n + 1) (by rw [← hd]; congr 1; omega) h1
      exact ⟨m, w, by omega, hr⟩

/-- A thread that the schedule does not forget comes to its end. -/
theorem comes_to_end {σ : Nat → Nat} {i : Nat} (hf : Fair σ i) (z : List (Proc Value) × Shared) (p : Proc Value) :
    ∀ n, (runProcs env (firstSteps σ n) z).1[i]? = some p → ∃ m r, n ≤ m ∧ (runProcs env (firstSteps σ m) z).1[i]? = some (done r) := by
  have next : ∀ (p : Proc Value) n, (runProcs env (firstSteps σ n) z).1[i]? = some p → ∃ m w, n < m ∧ (runProcs env (firstSteps σ m) z).1[i]? = some (p.step env w).1 := by
    intro p n h
    obtain ⟨m, h1, h2⟩ := hf n
    exact next_step (m - n) n (by rw [← h2]; congr 1; omega) h
  induction p with
  | done r => exact fun n h => ⟨n, r, Nat.le_refl _, h⟩
  | io t k ih =>
    intro n h
    obtain ⟨m, w, hm, h1⟩ := next _ n h
    obtain ⟨m', r, hm', hr⟩ := ih _ m h1
    exact ⟨m', r, by omega, hr⟩
  | act f k ih =>
    intro n h
    obtain ⟨m, w, hm, h1⟩ := next _ n h
    obtain ⟨m', r, hm', hr⟩ := ih _ _ m h1
    exact ⟨m', r, by omega, hr⟩

/-- What is done stays done. -/
theorem stays_done {σ : Nat → Nat} {i : Nat} {z : List (Proc Value) × Shared} {r : Except PyErr Value} {n : Nat} (h : (runProcs env (firstSteps σ n) z).1[i]? = some (done r)) :
    ∀ d, (runProcs env (firstSteps σ (n + d)) z).1[i]? = some (done r)
  | 0 => h
  | d + 1 => by
    have ih := stays_done h d
    rw [← Nat.add_assoc, run_succ]
    by_cases hi : σ (n + d) = i
    · have := one_step_self (env := env) ih
      rw [hi, this]
      rfl
    · exact one_step_other hi ih

end Proc
end Gsm
