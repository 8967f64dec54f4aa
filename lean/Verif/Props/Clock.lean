import Verif.Lemmas.ClockBound
/-! # C104: how long a method may block -/
namespace Gsm
open Spec

variable {env : Env} {wait : List PyStr → Nat}

/-- `write` in steps takes the time it takes line by line, and does the same. -/
theorem C104_write (data : PyStr) (parseError : Bool) (term : PyStr) (s : St) :
    timedWrite env wait data parseError term s = (write data parseError term env s, (Prog.write data parseError term).elapsed env wait s) := by
  have h : (Prog.write data parseError term).elapsed env wait s = (Prog.writeN env.depth data parseError term).elapsed env wait s := by
    simp only [Prog.write, Prog.elapsed, Prog.actTime]
    rw [if_neg (by omega), if_neg (by omega)]
    omega
  rw [h, ← Prog.same_write data parseError term env s]
  exact Prog.timedWriteN_eq env.depth data parseError term s

/-- Two busy answers, then `OK`; each answer takes 20 milliseconds. -/
example : timedWrite busyTwice (fun _ => 20) py!"AT" true [13] {} =
    ((.ok [py!"OK"], { log := [py!"AT\r", py!"AT\r", py!"AT\r"], writeWait := 0 }), 20 + 200 + 20 + 200 + 400 + 20 + 400) := by decide +kernel

/-! ### A modem that is not busy -/

/-- If the modem is never busy, a method takes the time that the modem takes, and the delay once for each answer; and it leaves the delay as it was. -/
theorem C104_calm [PyUnicode] (hb : NeverBusy env.reply) (t : Task) (ht : waitsAlways t = true) (s : St) :
    (t.prog.run env s).2.writeWait = s.writeWait ∧ ∃ new, (t.prog.run env s).2.log = new ++ s.log ∧
      t.prog.elapsed env wait s = waitedFor wait new.length (t.prog.run env s).2.log + 100 * s.writeWait * answeredAmong env.reply new.length (t.prog.run env s).2.log := by
  obtain ⟨new, h1, h2, h3⟩ := Prog.elapsed_calm (wait := wait) hb t.prog (Prog.calm_task t ht) s
  exact ⟨h2, new, h1, h3⟩

/-- The number of commands. -/
theorem cost_task [PyUnicode] {b lines : Nat} (W : WritesAtMost env b) (t : Task) (hL : deletesListed t = true → Brief env.reply lines) (s : St) :
    (t.prog.run env s).2.log.length ≤ s.log.length + taskCommands lines t * b := by
  have key : ∀ {m : M Unit} {n : Nat}, Prog.Same t.prog m → Cost env b n m → (t.prog.run env s).2.log.length ≤ s.log.length + n * b := by
    intro m n h1 h2
    rw [h1 env s]
    exact h2.run s
  have keep : ∀ {α : Type} {p : Prog α} {m : M α}, Prog.Same p m → Prog.Same (do let _ ← p; pure ()) (discard m) := fun h => Prog.same_bind h fun _ => Prog.same_pure _
  cases t with
  | message m =>
    cases m with
    | read i m => exact key (keep (Prog.same_read i m)) (cost_read W i m).discard
    | delete i m => exact key (Prog.same_delete i m) (cost_delete W i m)
    | deleteMultiple f m => exact key (Prog.same_deleteMultiple f m) (cost_deleteMultiple W f m)
    | list st m d => exact key (keep (Prog.same_list st m d)) (cost_list W st m d hL).discard
    | received l => exact key (Prog.same_received l) (cost_received W l)
    | statusReport l => exact key (Prog.same_statusReport l) (cost_report W l)
    | send d t f => exact key (keep (Prog.same_send d t f)) (cost_send W d t f).discard
    | setTextMode v => exact key (Prog.same_textMode v) (cost_textMode W v)
    | ask c => exact key (keep (Prog.same_write c true [13])) (Cost.write (n := 0) W).discard
  | notify ls => exact key (Prog.same_dispatch ls ls) (cost_dispatch W ls ls)
  | poll n p =>
    refine key (n := n) (Prog.same_poll n p) ?_
    clear key keep hL
    induction n generalizing p with
    | zero => exact .pure _
    | succ n ih => exact .one (cost_pollRound W p) fun p' => .ite (fun _ => .pure _) fun _ => ih p'
  | dial n cb => exact key (Prog.same_dial n cb) (.one (cost_atd W n) fun _ => (cost_registerNext _).discard)
  | answer i => exact key (Prog.same_answer i) (cost_answer W i)
  | hangup i => exact key (Prog.same_hangup i) (cost_hangup W i)
  | dtmf i t => exact key (Prog.same_dtmf i t) (cost_dtmf W i t)

theorem waited_le {T : Nat} (hT : ∀ log, wait log ≤ T) : ∀ (n : Nat) (log : List PyStr), waitedFor wait n log ≤ n * T
  | 0, log => by rw [Prog.waited_zero]; omega
  | n + 1, [] => Nat.zero_le _
  | n + 1, c :: log => by
    have := waited_le hT n log
    have := hT (c :: log)
    simp only [waitedFor]
    rw [Nat.succ_mul]
    omega

theorem answered_le {reply : List PyStr → Reply} : ∀ (n : Nat) (log : List PyStr), answeredAmong reply n log ≤ n
  | 0, log => by rw [Prog.answered_zero]
  | n + 1, [] => Nat.zero_le _
  | n + 1, c :: log => by
    have := answered_le (reply := reply) n log
    simp only [answeredAmong]
    have h : isAnswer (reply (c :: log)) ≤ 1 := by unfold isAnswer; split <;> omega
    omega

/-- If besides the modem is waited for at most `T` for each command, the method takes at most that and the delay, for each command that it may need. -/
theorem C104_calm_limit [PyUnicode] {T lines : Nat} (hb : NeverBusy env.reply) (hT : ∀ log, wait log ≤ T) (t : Task) (ht : waitsAlways t = true)
    (hL : deletesListed t = true → Brief env.reply lines) (s : St) : t.prog.elapsed env wait s ≤ taskCommands lines t * (T + 100 * s.writeWait) := by
  obtain ⟨-, new, h1, h2⟩ := C104_calm (wait := wait) hb t ht s
  have h3 := cost_task (writes_once hb) t hL s
  rw [h1, List.length_append] at h3
  have h4 := waited_le hT new.length (t.prog.run env s).2.log
  have h5 := Nat.mul_le_mul_left (100 * s.writeWait) (answered_le (reply := env.reply) new.length (t.prog.run env s).2.log)
  have h6 : new.length * (T + 100 * s.writeWait) ≤ taskCommands lines t * (T + 100 * s.writeWait) := Nat.mul_le_mul_right _ (by omega)
  rw [Nat.mul_add, Nat.mul_comm new.length (100 * s.writeWait)] at h6
  rw [h2]
  omega

/-- Reads a message from another memory: two commands, of half a second each, with a delay of 0.1 seconds. -/
example : (Prog.readStoredSms py!"3" (some py!"SM")).elapsed { busyTwice with reply := fun _ => .lines [py!"OK"] } (fun _ => 500) { writeWait := 1 } = 1200 := by decide +kernel

/-! ### Any modem -/

/-- Whatever the modem answers: the time is that of the modem, and pauses that grow with the number of busy answers. -/
theorem C104_bound [PyUnicode] (t : Task) (s : St) : ∃ new, (t.prog.run env s).2.log = new ++ s.log ∧
    t.prog.elapsed env wait s ≤ waitedFor wait new.length (t.prog.run env s).2.log +
      100 * ((new.length + busyAmong env.reply new.length (t.prog.run env s).2.log) * (max s.writeWait 1 + 2 * busyAmong env.reply new.length (t.prog.run env s).2.log)) := by
  obtain ⟨new, h1, h2⟩ := Prog.elapsed_tame (env := env) (wait := wait) t.prog False (Prog.tame_task t) s
  exact ⟨new, h1, by simpa using h2⟩

theorem busy_le {reply : List PyStr → Reply} : ∀ (n : Nat) (log : List PyStr), busyAmong reply n log ≤ n
  | 0, log => by rw [Prog.busy_zero]
  | n + 1, [] => Nat.zero_le _
  | n + 1, c :: log => by
    have := busy_le (reply := reply) n log
    simp only [busyAmong]
    split <;> omega

/-- So no method blocks for ever, if answers come in time and do not have too many lines. -/
theorem C104_ends [PyUnicode] {T lines : Nat} (hd : 0 < env.depth) (hT : ∀ log, wait log ≤ T) (t : Task) (hL : deletesListed t = true → Brief env.reply lines) (s : St) :
    t.prog.elapsed env wait s ≤ taskCommands lines t * env.depth * T +
      100 * (2 * (taskCommands lines t * env.depth) * (max s.writeWait 1 + 2 * (taskCommands lines t * env.depth))) := by
  obtain ⟨new, h1, h2⟩ := C104_bound (env := env) (wait := wait) t s
  have h3 := cost_task (writes_depth hd) t hL s
  rw [h1, List.length_append] at h3
  have h4 := waited_le hT new.length (t.prog.run env s).2.log
  have h5 := busy_le (reply := env.reply) new.length (t.prog.run env s).2.log
  generalize busyAmong env.reply new.length (t.prog.run env s).2.log = k at h2 h5
  generalize taskCommands lines t * env.depth = N at h3 ⊢
  have h6 : new.length * T ≤ N * T := Nat.mul_le_mul_right _ (by omega)
  have h7 : (new.length + k) * (max s.writeWait 1 + 2 * k) ≤ 2 * N * (max s.writeWait 1 + 2 * N) := Nat.mul_le_mul (by omega) (by omega)
  omega

/-- If the modem does not answer, the method ends at the first command, with an exception, and has waited for that one only. -/
theorem C104_silent [PyUnicode] (hs : Silent env.reply) (t : Task) (ht : givesUp t = true) (s : St) :
    ((t.prog.run env s).2.log = s.log ∧ t.prog.elapsed env wait s = 0) ∨
      ∃ c d, (t.prog.run env s).2.log = c :: s.log ∧ (t.prog.run env s).1 = .error (.timeout d) ∧ t.prog.elapsed env wait s = wait (c :: s.log) :=
  Prog.elapsed_quits hs t.prog (Prog.quits_task t ht) s

example : (Prog.readStoredSms py!"3" (some py!"SM")).elapsed { busyTwice with reply := fun _ => .timeout none } (fun _ => 5000) { writeWait := 9 } = 5000 := by decide +kernel

/-- To dial on a modem whose answer is not waited for takes just the delay, whatever the modem does. -/
theorem C104_dial [PyUnicode] (number : PyStr) (cb : Bool) (s : St) (hw : s.waitForAtdResponse = false) :
    (Task.dial number cb).prog.elapsed env wait s = 100 * s.writeWait := by
  cases s
  subst hw
  simp only [Task.prog, Prog.dialNow, Prog.look, bind, Prog.bind, pure, Prog.elapsed, Prog.actTime, Prog.writeNoWait, Prog.change, Prog.registerNext, Prog.registerCall, Bool.false_eq_true, if_false,
    List.length_cons, nap_eq]
  rw [if_neg (by omega), if_neg (by omega), if_pos (by omega)]
  simp

attribute [local instance] asciiUnicode in
example : (Task.dial py!"123" true).prog.elapsed busyTwice (fun _ => 700) { writeWait := 3, waitForAtdResponse := false } = 300 := C104_dial _ _ _ rfl

/-! ### A modem that is busy -/

theorem elapsed_retry {depth : Nat} {data term : PyStr} {code : Nat} {s : St} {ls : List PyStr} {line : PyStr}
    (hr : env.reply ((data ++ term) :: s.log) = .lines ls) (hl : ls.getLast? = some line) (hb : Busy code line) :
    (timedWriteN env wait (depth + 1) data true term s).2 =
      wait ((data ++ term) :: s.log) + 100 * (2 * s.writeWait + 2) +
        (timedWriteN env wait depth data true term { s with log := (data ++ term) :: s.log, writeWait := s.writeWait + 2 }).2 := by
  simp only [timedWriteN, hr, hl, busy_classify hb, if_true, nap_eq]
  rcases timedWriteN env wait depth data true term _ with ⟨⟨e | r, s'⟩, t⟩ <;> dsimp only <;> omega

theorem timed_busy {data term : PyStr} {codes : List Nat} {depth : Nat} {s : St} (hd : codes.length < depth) (hb : BusyTimes env s.log (data ++ term) codes)
    (hf : ¬ AnsweredBusy env.reply (List.replicate (codes.length + 1) (data ++ term) ++ s.log)) :
    (timedWriteN env wait depth data true term s).2 = waitedFor wait (codes.length + 1) (List.replicate (codes.length + 1) (data ++ term) ++ s.log) +
      100 * (2 * s.writeWait * codes.length + 2 * codes.length * codes.length +
        isAnswer (env.reply (List.replicate (codes.length + 1) (data ++ term) ++ s.log)) * (s.writeWait + 2 * codes.length)) := by
  induction codes generalizing depth s with
  | nil =>
    obtain ⟨depth, rfl⟩ : ∃ d, depth = d + 1 := ⟨depth - 1, by simp at hd; omega⟩
    have e : List.replicate (([] : List Nat).length + 1) (data ++ term) ++ s.log = (data ++ term) :: s.log := rfl
    rw [e] at hf ⊢
    simp only [List.length_nil, Nat.zero_add, waitedFor, Prog.waited_zero, timedWriteN, Nat.mul_zero, Nat.add_zero]
    cases hr : env.reply ((data ++ term) :: s.log) with
    | timeout d => simp [isAnswer]
    | lines ls =>
      simp only [isAnswer, nap_eq, Nat.one_mul]
      cases hl : ls.getLast? with
      | none => rfl
      | some line =>
        dsimp only
        cases hc : classify line with
        | fine => rfl
        | failed e => rfl
        | busy code => exact absurd (busy_iff.mpr ⟨ls, line, code, hr, hl, hc⟩) hf
  | cons c codes ih =>
    obtain ⟨depth, rfl⟩ : ∃ d, depth = d + 1 := ⟨depth - 1, by simp at hd; omega⟩
    obtain ⟨ls, line, hr, hl, hc⟩ := hb 0 (by simp)
    have e : List.replicate ((c :: codes).length + 1) (data ++ term) ++ s.log = List.replicate (codes.length + 1) (data ++ term) ++ (data ++ term) :: s.log := by
      rw [List.length_cons, List.replicate_succ' (n := codes.length + 1)]
      simp
    rw [e] at hf ⊢
    have hr' : env.reply ((data ++ term) :: s.log) = .lines ls := hr
    rw [elapsed_retry hr' hl hc, ih (s := { s with log := (data ++ term) :: s.log, writeWait := s.writeWait + 2 }) (by simpa using hd) (busyTimes_tail hb) hf]
    have hw := Prog.waited_append (wait := wait) (List.replicate (codes.length + 1) (data ++ term)) s.log (data ++ term)
    rw [List.length_replicate] at hw
    simp only [List.length_cons]
    rw [hw]
    generalize codes.length = k
    generalize isAnswer _ = x
    have h1 : 2 * (s.writeWait + 2) * k = 2 * s.writeWait * k + 4 * k := by rw [Nat.mul_add, Nat.add_mul]
    have h2 : 2 * s.writeWait * (k + 1) = 2 * s.writeWait * k + 2 * s.writeWait := Nat.mul_succ _ _
    have h3 : 2 * (k + 1) * (k + 1) = 2 * k * k + 4 * k + 2 := by
      simp only [Nat.mul_add, Nat.add_mul, Nat.mul_one]
      omega
    have h4 : s.writeWait + 2 + 2 * k = s.writeWait + 2 * (k + 1) := by omega
    rw [h1, h2, h3, h4]
    omega

/-- If the modem is busy `k` times, the pauses take `2wk + 2k²` tenths of a second, and `w + 2k` more after the last answer, where `w` is the delay at the beginning. -/
theorem C104_busy {s : St} {data term : PyStr} {codes : List Nat} (hd : codes.length < env.depth) (hb : BusyTimes env s.log (data ++ term) codes)
    (hf : ¬ AnsweredBusy env.reply (List.replicate (codes.length + 1) (data ++ term) ++ s.log)) :
    (Prog.write data true term).elapsed env wait s = waitedFor wait (codes.length + 1) (List.replicate (codes.length + 1) (data ++ term) ++ s.log) +
      100 * (2 * s.writeWait * codes.length + 2 * codes.length * codes.length +
        isAnswer (env.reply (List.replicate (codes.length + 1) (data ++ term) ++ s.log)) * (s.writeWait + 2 * codes.length)) := by
  have h := congrArg Prod.snd (C104_write (env := env) (wait := wait) data true term s)
  dsimp only at h
  rw [← h]
  exact timed_busy hd hb hf

theorem timed_always {data term : PyStr} {codes : List Nat} {s : St} (hb : BusyTimes env s.log (data ++ term) codes) :
    (timedWriteN env wait codes.length data true term s).2 = waitedFor wait codes.length (List.replicate codes.length (data ++ term) ++ s.log) +
      100 * (2 * s.writeWait * codes.length + 2 * codes.length * codes.length) := by
  induction codes generalizing s with
  | nil => simp [timedWriteN, Prog.waited_zero]
  | cons c codes ih =>
    obtain ⟨ls, line, hr, hl, hc⟩ := hb 0 (by simp)
    have hr' : env.reply ((data ++ term) :: s.log) = .lines ls := hr
    have e : List.replicate (c :: codes).length (data ++ term) ++ s.log = List.replicate codes.length (data ++ term) ++ (data ++ term) :: s.log := by
      rw [List.length_cons, List.replicate_succ']
      simp
    rw [e, List.length_cons, elapsed_retry hr' hl hc, ih (s := { s with log := (data ++ term) :: s.log, writeWait := s.writeWait + 2 }) (busyTimes_tail hb)]
    have hw := Prog.waited_append (wait := wait) (List.replicate codes.length (data ++ term)) s.log (data ++ term)
    rw [List.length_replicate] at hw
    rw [hw]
    generalize codes.length = k
    have h1 : 2 * (s.writeWait + 2) * k = 2 * s.writeWait * k + 4 * k := by rw [Nat.mul_add, Nat.add_mul]
    have h2 : 2 * s.writeWait * (k + 1) = 2 * s.writeWait * k + 2 * s.writeWait := Nat.mul_succ _ _
    have h3 : 2 * (k + 1) * (k + 1) = 2 * k * k + 4 * k + 2 := by
      simp only [Nat.mul_add, Nat.add_mul, Nat.mul_one]
      omega
    simp only
    rw [h1, h2, h3]
    omega

example : (Prog.write py!"AT" true [13]).elapsed busyTwice (fun _ => 20) { writeWait := 1 } = 3 * 20 + 100 * (2 * 1 * 2 + 2 * 2 * 2 + (1 + 2 * 2)) := by decide +kernel

/-- If it stays busy, the pauses grow with the square of the recursion limit. -/
theorem C104_always_busy {s : St} {data term : PyStr} {codes : List Nat} (hlen : codes.length = env.depth) (hb : BusyTimes env s.log (data ++ term) codes) :
    (Prog.write data true term).elapsed env wait s = waitedFor wait env.depth (List.replicate env.depth (data ++ term) ++ s.log) +
      100 * (2 * s.writeWait * env.depth + 2 * env.depth * env.depth) := by
  have h := congrArg Prod.snd (C104_write (env := env) (wait := wait) data true term s)
  dsimp only at h
  rw [← h, ← hlen]
  unfold timedWrite
  rw [← hlen]
  exact timed_always hb

example : (Prog.write py!"AT" true [13]).elapsed alwaysBusy (fun _ => 20) { writeWait := 1 } = 3 * 20 + 100 * (2 * 1 * 3 + 2 * 3 * 3) := by decide +kernel

/-- A command to a modem that stays busy blocks for more than 44 hours, though the caller asked for a timeout of five seconds. -/
theorem C104_days {s : St} {data term : PyStr} (hdepth : 900 ≤ env.depth) (hb : BusyTimes env s.log (data ++ term) (List.replicate env.depth 515)) :
    44 * 3600 * 1000 < (Prog.write data true term).elapsed env wait s := by
  rw [C104_always_busy (by simp) hb]
  have h : 2 * 900 * 900 ≤ 2 * env.depth * env.depth := Nat.mul_le_mul (by omega) hdepth
  omega

/-- There are such modems. -/
example : BusyTimes { alwaysBusy with depth := 900, reply := fun _ => .lines [py!"+CME ERROR: 515"] } [] py!"AT\r" (List.replicate 900 515) := by
  intro i hi
  refine ⟨[py!"+CME ERROR: 515"], py!"+CME ERROR: 515", rfl, rfl, ?_⟩
  rw [List.getElem_replicate]
  exact ⟨.inl rfl, py!"CME", py!"515", ⟨.inl rfl, by decide, by decide, [], .inl rfl, rfl⟩, rfl⟩

/-! ### The delay is kept after a failure -/

/-- A modem that is busy when asked for the first time, and refuses when asked again; it answers at once. -/
def unwilling : Env where
  reply log := .lines (if log.length % 2 = 1 then [py!"+CME ERROR: 14"] else [py!"ERROR"])
  depth := 900
  order := id
  order_perm _ := List.Perm.refl _

theorem unwilling_ask [PyUnicode] {s : St} (hs : s.log.length % 2 = 0) :
    (∃ x y, ((Task.message (.ask py!"AT")).prog.run unwilling s).2.log = x :: y :: s.log) ∧
      ((Task.message (.ask py!"AT")).prog.run unwilling s).2.writeWait = s.writeWait + 2 ∧
      (Task.message (.ask py!"AT")).prog.elapsed unwilling (fun _ => 0) s = 100 * (3 * s.writeWait + 4) := by
  have h1 : unwilling.reply (py!"AT\r" :: s.log) = .lines [py!"+CME ERROR: 14"] := by
    show Reply.lines (if (s.log.length + 1) % 2 = 1 then _ else _) = _
    rw [if_pos (by omega)]
  have h2 : unwilling.reply (py!"AT\r" :: py!"AT\r" :: s.log) = .lines [py!"ERROR"] := by
    show Reply.lines (if (s.log.length + 1 + 1) % 2 = 1 then _ else _) = _
    rw [if_neg (by omega)]
  have hbusy : Busy 14 py!"+CME ERROR: 14" := ⟨.inr rfl, py!"CME", py!"14", ⟨.inl rfl, by decide, by decide, [], .inl rfl, rfl⟩, rfl⟩
  have hc : classify py!"ERROR" = .failed (.command .command none) := by decide +kernel
  have hw : timedWriteN unwilling (fun _ => 0) 900 py!"AT" true [13] s =
      ((.error (.command .command none), { s with log := py!"AT\r" :: py!"AT\r" :: s.log, writeWait := s.writeWait + 2 }), 100 * (3 * s.writeWait + 4)) := by
    have e : py!"AT" ++ [13] = py!"AT\r" := rfl
    rw [timedWriteN]
    simp only [e, h1, List.getLast?_singleton, busy_classify hbusy, if_true]
    rw [timedWriteN]
    simp only [e, h2, List.getLast?_singleton, hc, if_true, nap_eq]
    refine Prod.ext rfl ?_
    dsimp only
    omega
  have h3 := C104_write (env := unwilling) (wait := fun _ => 0) py!"AT" true [13] s
  rw [show timedWrite unwilling (fun _ => 0) py!"AT" true [13] s = _ from hw] at h3
  have h4 : write py!"AT" true [13] unwilling s = (.error (.command .command none), { s with log := py!"AT\r" :: py!"AT\r" :: s.log, writeWait := s.writeWait + 2 }) := (congrArg Prod.fst h3).symm
  have h5 : (Prog.write py!"AT" true [13]).elapsed unwilling (fun _ => 0) s = 100 * (3 * s.writeWait + 4) := (congrArg Prod.snd h3).symm
  have h6 : (Prog.write py!"AT" true [13]).run unwilling s = (.error (.command .command none), { s with log := py!"AT\r" :: py!"AT\r" :: s.log, writeWait := s.writeWait + 2 }) :=
    (Prog.same_write _ _ _ _ _).trans h4
  have h7 : (Task.message (.ask py!"AT")).prog = Prog.write py!"AT" true [13] >>= fun _ => pure () := rfl
  rw [h7, Prog.run_bind, Prog.elapsed_bind, h6, h5]
  exact ⟨⟨_, _, rfl⟩, rfl, rfl⟩

/-- Each failure after a busy answer makes all the following commands slower, without limit: `n` questions to this modem take `3n² + n` tenths of a second,
though it answers at once and each question is busy only once. -/
theorem C104_slower [PyUnicode] (n : Nat) (s : St) (hs : s.log.length % 2 = 0) :
    (afterAll unwilling (List.replicate n (.message (.ask py!"AT"))) s).writeWait = s.writeWait + 2 * n ∧
      elapsedAll unwilling (fun _ => 0) (List.replicate n (.message (.ask py!"AT"))) s = 100 * (3 * s.writeWait * n + 3 * n * n + n) := by
  induction n generalizing s with
  | zero => simp [afterAll, elapsedAll]
  | succ n ih =>
    obtain ⟨⟨x, y, h1⟩, h2, h3⟩ := unwilling_ask hs
    obtain ⟨h4, h5⟩ := ih ((Task.message (.ask py!"AT")).prog.run unwilling s).2 (by rw [h1]; simp only [List.length_cons]; omega)
    simp only [List.replicate_succ, afterAll, elapsedAll]
    rw [h4, h5, h2, h3]
    refine ⟨by omega, ?_⟩
    have e1 : 3 * (s.writeWait + 2) * n = 3 * s.writeWait * n + 6 * n := by rw [Nat.mul_add, Nat.add_mul]
    have e2 : 3 * s.writeWait * (n + 1) = 3 * s.writeWait * n + 3 * s.writeWait := Nat.mul_succ _ _
    have e3 : 3 * (n + 1) * (n + 1) = 3 * n * n + 6 * n + 3 := by
      simp only [Nat.mul_add, Nat.add_mul, Nat.mul_one]
      omega
    rw [e1, e2, e3]
    omega

attribute [local instance] asciiUnicode in
/-- Forty questions take eight minutes... -/
example : elapsedAll unwilling (fun _ => 0) (List.replicate 40 (.message (.ask py!"AT"))) {} = 484000 := (C104_slower 40 {} rfl).2

attribute [local instance] asciiUnicode in
/-- ...and from then on each command takes eight seconds more, even if the modem is never busy again. -/
example : (Task.message (.ask py!"AT")).prog.elapsed { busyTwice with reply := fun _ => .lines [py!"OK"] } (fun _ => 0)
    (afterAll unwilling (List.replicate 40 (.message (.ask py!"AT"))) {}) = 8000 := by
  have h := (C104_slower 40 {} rfl).1
  simp only [Task.prog, Method.prog, Prog.ask, Prog.elapsed_bind]
  have h2 := congrArg Prod.snd (C104_write (env := { busyTwice with reply := fun _ => .lines [py!"OK"] }) (wait := fun _ => 0) py!"AT" true [13] (afterAll unwilling (List.replicate 40 (.message (.ask py!"AT"))) {}))
  dsimp only at h2
  rw [← h2]
  have hc : classify py!"OK" = .fine := by decide +kernel
  simp only [timedWrite, busyTwice, timedWriteN, List.getLast?_singleton, hc, nap_eq, h, if_true]
  split <;> rfl

end Gsm
