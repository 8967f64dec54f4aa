import Verif.Lemmas.TogetherJobs
import Verif.Props.Commands
/-! # C109: what threads send and create together, and that they come to their end -/
namespace Gsm
open Spec

variable {env : Env}

theorem sum_mul {α : Type} (f : α → Nat) (k : Nat) : ∀ xs : List α, (xs.map fun x => f x * k).sum = (xs.map f).sum * k
  | [] => by simp
  | x :: xs => by simp only [List.map_cons, List.sum_cons, Nat.add_mul, sum_mul f k xs]

/-- However the threads take turns, and wherever they are in their work: together they have sent no more commands than each of them may alone. -/
theorem C109_commands [PyUnicode] {lines : Nat} (hd : 0 < env.depth) (schedule : List Nat) (xs : List Activity) (hL : ∀ x ∈ xs, activityDeletes x = true → Brief env.reply lines) (s : St) :
    (performActivities env schedule xs s).2.log.length ≤ s.log.length + (xs.map (activityCommands lines)).sum * env.depth ∧
      (NeverBusy env.reply → (performActivities env schedule xs s).2.log.length ≤ s.log.length + (xs.map (activityCommands lines)).sum) := by
  constructor
  · have := Prog.activities_spend (μ := fun s => s.log.length) schedule xs (fun x => activityCommands lines x * env.depth)
      (fun x hx => (Prog.spends_activity (Prog.gauge_depth hd) x fun h _ => hL x hx h).mono (by omega)) s
    rw [sum_mul] at this
    exact this
  · intro hb
    exact Prog.activities_spend (μ := fun s => s.log.length) schedule xs (activityCommands lines)
      (fun x hx => (Prog.spends_activity (Prog.gauge_once hb) x fun h _ => hL x hx h).mono (by omega)) s

/-- The same for threads that wait for each other. -/
theorem C109_jobs_commands [PyUnicode] {lines : Nat} (hd : 0 < env.depth) (schedule : List Nat) (xs : List Job) (hL : ∀ x ∈ xs, jobDeletes x = true → Brief env.reply lines) (w : Shared) :
    (performJobs env schedule xs w).2.st.log.length ≤ w.st.log.length + (xs.map (jobCommands lines)).sum * env.depth ∧
      (NeverBusy env.reply → (performJobs env schedule xs w).2.st.log.length ≤ w.st.log.length + (xs.map (jobCommands lines)).sum) := by
  constructor
  · have := Proc.jobs_spend (μ := fun s => s.log.length) schedule xs (fun x => jobCommands lines x * env.depth)
      (fun x hx => (Proc.spends_job (Prog.gauge_depth hd) x fun h _ => hL x hx h).mono (by omega)) w
    rw [sum_mul] at this
    exact this
  · intro hb
    exact Proc.jobs_spend (μ := fun s => s.log.length) schedule xs (jobCommands lines)
      (fun x hx => (Proc.spends_job (Prog.gauge_once hb) x fun h _ => hL x hx h).mono (by omega)) w

/-- Nothing is told or created more often than there was a cause: a callback for each notification, and for each thing done to a call; an object for each message sent,
and for each call dialled or announced. -/
theorem C109_objects [PyUnicode] (schedule : List Nat) (xs : List Activity) (s : St) :
    (performActivities env schedule xs s).2.callbacks.length ≤ s.callbacks.length + (xs.map activityCallbacks).sum ∧
      (performActivities env schedule xs s).2.sent.length ≤ s.sent.length + (xs.map activitySent).sum ∧
      (performActivities env schedule xs s).2.calls.length ≤ s.calls.length + (xs.map activityCalls).sum := by
  have free : ∀ {x : Activity}, activityDeletes x = true → (0 : Nat) ≠ 0 → Brief env.reply 0 := fun _ h => absurd rfl h
  exact ⟨Prog.activities_spend (μ := fun s => s.callbacks.length) schedule xs activityCallbacks (fun x _ => (Prog.spends_activity Prog.gauge_callbacks x free).mono (by omega)) s,
    Prog.activities_spend (μ := fun s => s.sent.length) schedule xs activitySent (fun x _ => (Prog.spends_activity Prog.gauge_sent x free).mono (by omega)) s,
    Prog.activities_spend (μ := fun s => s.calls.length) schedule xs activityCalls (fun x _ => (Prog.spends_activity Prog.gauge_calls x free).mono (by omega)) s⟩

/-- The same for threads that wait for each other. -/
theorem C109_jobs_objects [PyUnicode] (schedule : List Nat) (xs : List Job) (w : Shared) :
    (performJobs env schedule xs w).2.st.callbacks.length ≤ w.st.callbacks.length + (xs.map jobCallbacks).sum ∧
      (performJobs env schedule xs w).2.st.sent.length ≤ w.st.sent.length + (xs.map jobSent).sum ∧
      (performJobs env schedule xs w).2.st.calls.length ≤ w.st.calls.length + (xs.map jobCalls).sum := by
  have free : ∀ {x : Job}, jobDeletes x = true → (0 : Nat) ≠ 0 → Brief env.reply 0 := fun _ h => absurd rfl h
  exact ⟨Proc.jobs_spend (μ := fun s => s.callbacks.length) schedule xs jobCallbacks (fun x _ => (Proc.spends_job Prog.gauge_callbacks x free).mono (by omega)) w,
    Proc.jobs_spend (μ := fun s => s.sent.length) schedule xs jobSent (fun x _ => (Proc.spends_job Prog.gauge_sent x free).mono (by omega)) w,
    Proc.jobs_spend (μ := fun s => s.calls.length) schedule xs jobCalls (fun x _ => (Proc.spends_job Prog.gauge_calls x free).mono (by omega)) w⟩

/-! ### Every thread comes to its end -/

/-- A thread that is not forgotten comes to its end, whatever the modem answers and whatever the others do, though these may be forgotten in the middle of their work. -/
theorem C109_ends [PyUnicode] {σ : Nat → Nat} {i : Nat} (hf : Fair σ i) (xs : List Activity) (hi : i < xs.length) (s : St) :
    ∃ n r, ∀ m, n ≤ m → (performActivities env (firstSteps σ m) xs s).1[i]? = some (.done r) := by
  obtain ⟨n, r, -, h⟩ := Prog.comes_to_end (env := env) hf (xs.map Activity.prog, s) (xs[i].prog) 0 (by simp [firstSteps, runThreads, hi])
  refine ⟨n, r, fun m hm => ?_⟩
  have := Prog.stays_done h (m - n)
  rwa [show n + (m - n) = m by omega] at this

theorem C109_jobs_end [PyUnicode] {σ : Nat → Nat} {i : Nat} (hf : Fair σ i) (xs : List Job) (hi : i < xs.length) (w : Shared) :
    ∃ n r, ∀ m, n ≤ m → (performJobs env (firstSteps σ m) xs w).1[i]? = some (.done r) := by
  obtain ⟨n, r, -, h⟩ := Proc.comes_to_end (env := env) hf (xs.map Job.proc, w) (xs[i].proc) 0 (by simp [firstSteps, runProcs, hi])
  refine ⟨n, r, fun m hm => ?_⟩
  have := Proc.stays_done h (m - n)
  rwa [show n + (m - n) = m by omega] at this

/-- If none is forgotten, there is a time when all are at their end. -/
theorem all_at_once {P : Nat → Nat → Prop} : ∀ k : Nat, (∀ i, i < k → ∃ n, ∀ m, n ≤ m → P i m) → ∃ n, ∀ m, n ≤ m → ∀ i, i < k → P i m
  | 0, _ => ⟨0, fun _ _ _ h => absurd h (Nat.not_lt_zero _)⟩
  | k + 1, h => by
    obtain ⟨n1, h1⟩ := all_at_once k fun i hi => h i (by omega)
    obtain ⟨n2, h2⟩ := h k (by omega)
    refine ⟨max n1 n2, fun m hm i hi => ?_⟩
    by_cases hk : i = k
    · subst hk; exact h2 m (by omega)
    · exact h1 m (by omega) i (by omega)

theorem C109_all_end [PyUnicode] {σ : Nat → Nat} (xs : List Activity) (hf : ∀ i, i < xs.length → Fair σ i) (s : St) :
    ∃ n, ∀ m, n ≤ m → ∀ i, i < xs.length → ∃ r, (performActivities env (firstSteps σ m) xs s).1[i]? = some (.done r) :=
  all_at_once _ fun i hi => by
    obtain ⟨n, r, h⟩ := C109_ends (env := env) (hf i hi) xs hi s
    exact ⟨n, fun m hm => ⟨r, h m hm⟩⟩

theorem C109_all_jobs_end [PyUnicode] {σ : Nat → Nat} (xs : List Job) (hf : ∀ i, i < xs.length → Fair σ i) (w : Shared) :
    ∃ n, ∀ m, n ≤ m → ∀ i, i < xs.length → ∃ r, (performJobs env (firstSteps σ m) xs w).1[i]? = some (.done r) :=
  all_at_once _ fun i hi => by
    obtain ⟨n, r, h⟩ := C109_jobs_end (env := env) (hf i hi) xs hi w
    exact ⟨n, fun m hm => ⟨r, h m hm⟩⟩

/-- Taking turns, nobody is forgotten. -/
theorem fair_turns {k i : Nat} (hi : i < k) : Fair (fun n => n % k) i := fun n => ⟨n * k + i, by
  have : n * 1 ≤ n * k := Nat.mul_le_mul_left n (by omega)
  omega, by dsimp only; rw [Nat.add_comm, Nat.add_mul_mod_self_right]; exact Nat.mod_eq_of_lt hi⟩

/-! ### The bounds are reached -/

def isDone : Prog Unit → Bool
  | .done _ => true
  | _ => false

/-- Two messages are announced. -/
def twoAnnounced : List Activity := [.task (.notify [py!"+CMTI: \"SM\",3"]), .task (.notify [py!"+CMTI: \"SM\",4"])]

/-- A call that is watched: dialled, answered, ended. -/
def watched : Env where
  reply log := match log.length with
    | 1 => .lines [py!"+CLCC: 1,0,2,0,0,\"123\",129", py!"OK"]
    | 2 => .lines [py!"+CLCC: 1,0,0,0,0,\"123\",129", py!"OK"]
    | _ => .lines [py!"OK"]
  depth := 10
  order l := l
  order_perm _ := .refl _

def dialled : St := { alive := true, calls := [{ incoming := false, id := 1, type := some 0, number := some py!"123", callback := true }], activeCalls := [(1, 0)] }

attribute [local instance] asciiUnicode in
/-- Taking turns, both threads select the memory, so each needs its three commands; one after the other, the second need not. Two threads that are told of the same call create an
object each. Watching a call gives two callbacks. -/
theorem C109_reached :
    ((performActivities (sameAnswer oneRead) (firstSteps (fun n => n % 2) 24) twoAnnounced {}).1.all isDone = true ∧
      (performActivities (sameAnswer oneRead) (firstSteps (fun n => n % 2) 24) twoAnnounced {}).2.log.length = (twoAnnounced.map (activityCommands 2)).sum ∧
      (performActivities (sameAnswer oneRead) (firstSteps (fun n => n % 2) 24) twoAnnounced {}).2.callbacks.length = (twoAnnounced.map activityCallbacks).sum) ∧
    (performActivities (sameAnswer oneRead) (List.replicate 12 0 ++ List.replicate 12 1) twoAnnounced {}).2.log.length = 5 ∧
    (performActivities (sameAnswer [py!"OK"]) (firstSteps (fun n => n % 2) 24) [.task (.notify [py!"RING"]), .task (.notify [py!"RING"])] {}).2.calls.length = 2 ∧
    (performActivities watched (List.replicate 60 0) [.task (.poll 3 ⟨0, none, 5, false⟩)] dialled).2.callbacks.length = activityCallbacks (.task (.poll 3 ⟨0, none, 5, false⟩)) := by
  decide +kernel

end Gsm
