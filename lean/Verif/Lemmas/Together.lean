import Verif.Spec.Together
import Verif.Lemmas.Commands
import Verif.Lemmas.ThreadCallsSettle
/-! # What a thread may spend, whatever the others do -/
namespace Gsm
open Spec

namespace Prog

/-- Whatever the other threads do, the steps of this one add at most `n` to the measure. -/
def Spends {α : Type} (μ : St → Nat) (env : Env) : Prog α → Nat → Prop
  | done _, _ => True
  | io t k, n => ∃ m, (∀ s : St, μ { s with log := t :: s.log } + m ≤ μ s + n) ∧ ∀ log, Spends μ env (k (env.reply (t :: log))) m
  | act f k, n => ∃ m, (∀ s : St, μ (f env s) + m ≤ μ s + n) ∧ ∀ s, Spends μ env (k env s) m

/-- What the method returns, whatever the other threads do. -/
def Post {α : Type} (env : Env) (Q : α → Prop) : Prog α → Prop
  | done (.ok a) => Q a
  | done (.error _) => True
  | io t k => ∀ log, Post env Q (k (env.reply (t :: log)))
  | act _ k => ∀ s, Post env Q (k env s)

variable {μ : St → Nat} {env : Env} {α β : Type}

theorem Spends.mono {p : Prog α} : ∀ {n n' : Nat}, Spends μ env p n → n ≤ n' → Spends μ env p n' := by
  induction p with
  | done r => intros; trivial
  | io t k ih =>
    rintro n n' ⟨m, h1, h2⟩ h
    exact ⟨m + (n' - n), fun s => by have := h1 s; omega, fun log => ih _ (h2 log) (by omega)⟩
  | act f k ih =>
    rintro n n' ⟨m, h1, h2⟩ h
    exact ⟨m + (n' - n), fun s => by have := h1 s; omega, fun s => ih _ _ (h2 s) (by omega)⟩

theorem Spends.bindQ {Q : α → Prop} {p : Prog α} {f : α → Prog β} {l : Nat} : ∀ {n : Nat}, Spends μ env p n → Post env Q p → (∀ a, Q a → Spends μ env (f a) l) →
    Spends μ env (p >>= f) (n + l) := by
  induction p with
  | done r =>
    intro n _ hQ hf
    cases r with
    | error e => trivial
    | ok a => exact (hf a hQ).mono (by omega)
  | io t k ih =>
    rintro n ⟨m, h1, h2⟩ hQ hf
    exact ⟨m + l, fun s => by have := h1 s; omega, fun log => ih _ (h2 log) (hQ log) hf⟩
  | act g k ih =>
    rintro n ⟨m, h1, h2⟩ hQ hf
    exact ⟨m + l, fun s => by have := h1 s; omega, fun s => ih _ _ (h2 s) (hQ s) hf⟩

theorem Spends.except {p : Prog α} {c : PyErr → Bool} {h : PyErr → Prog α} {l : Nat} : ∀ {n : Nat}, Spends μ env p n → (∀ e, Spends μ env (h e) l) →
    Spends μ env (Prog.except p c h) (n + l) := by
  induction p with
  | done r =>
    intro n _ hf
    cases r with
    | ok a => trivial
    | error e =>
      unfold Prog.except
      split
      · exact (hf e).mono (by omega)
      · trivial
  | io t k ih =>
    rintro n ⟨m, h1, h2⟩ hf
    exact ⟨m + l, fun s => by have := h1 s; omega, fun log => ih _ (h2 log) hf⟩
  | act g k ih =>
    rintro n ⟨m, h1, h2⟩ hf
    exact ⟨m + l, fun s => by have := h1 s; omega, fun s => ih _ _ (h2 s) hf⟩

theorem post_true : ∀ p : Prog α, Post env (fun _ => True) p
  | done (.ok _) => trivial
  | done (.error _) => trivial
  | io _ k => fun log => post_true (k _)
  | act _ k => fun s => post_true (k _ s)

theorem post_mono {Q R : α → Prop} (h : ∀ a, Q a → R a) : ∀ {p : Prog α}, Post env Q p → Post env R p
  | done (.ok a), hp => h a hp
  | done (.error _), _ => trivial
  | io _ k, hp => fun log => post_mono h (hp log)
  | act _ k, hp => fun s => post_mono h (hp s)

theorem post_bind {Q : α → Prop} {R : β → Prop} {f : α → Prog β} (hf : ∀ a, Q a → Post env R (f a)) : ∀ {p : Prog α}, Post env Q p → Post env R (p >>= f)
  | done (.ok a), hp => hf a hp
  | done (.error _), _ => trivial
  | io _ k, hp => fun log => post_bind hf (p := k _) (hp log)
  | act _ k, hp => fun s => post_bind hf (p := k _ s) (hp s)

/-! ### Rules -/

variable {n : Nat}

theorem Spends.done (r : Except PyErr α) : Spends μ env (Prog.done r) n := trivial
theorem Spends.pure (a : α) : Spends μ env (pure a : Prog α) n := trivial
theorem Spends.raise (e : PyErr) : Spends μ env (raise e : Prog α) n := trivial
theorem Spends.ofExcept (e : Except PyErr α) : Spends μ env (ofExcept e) n := trivial
theorem Spends.firstLine (ls : List PyStr) : Spends μ env (firstLine ls) n := trivial
theorem Spends.act {f : Limits → St → St} {k : Limits → St → Prog α} (hf : ∀ s : St, μ (f env s) ≤ μ s) (hk : ∀ s, Spends μ env (k env s) n) : Spends μ env (Prog.act f k) n :=
  ⟨n, fun s => Nat.add_le_add_right (hf s) _, hk⟩
theorem Spends.pay {f : Limits → St → St} {k : Limits → St → Prog α} (hf : ∀ s : St, μ (f env s) ≤ μ s + n) (hk : ∀ s, Spends μ env (k env s) 0) : Spends μ env (Prog.act f k) n :=
  ⟨0, hf, hk⟩
theorem Spends.look : Spends μ env look n := .act (fun _ => Nat.le_refl _) fun _ => trivial
theorem Spends.change {f : St → St} (h : ∀ s, μ (f s) ≤ μ s) : Spends μ env (change f) n := .act h fun _ => trivial
theorem Spends.bindR {k l : Nat} {Q : α → Prop} {p : Prog α} {f : α → Prog β} (hp : Spends μ env p k) (hQ : Post env Q p) (hf : ∀ a, Q a → Spends μ env (f a) l) (h : k + l ≤ n) :
    Spends μ env (p >>= f) n := (Spends.bindQ hp hQ hf).mono h
theorem Spends.bind {k l : Nat} {p : Prog α} {f : α → Prog β} (hp : Spends μ env p k) (hf : ∀ a, Spends μ env (f a) l) (h : k + l ≤ n) : Spends μ env (p >>= f) n :=
  .bindR hp (post_true p) (fun a _ => hf a) h
theorem Spends.then {p : Prog α} {f : α → Prog β} (hp : Spends μ env p 0) (hf : ∀ a, Spends μ env (f a) n) : Spends μ env (p >>= f) n := .bind hp hf (by omega)
theorem Spends.after {p : Prog α} {f : α → Prog β} (hp : Spends μ env p n) (hf : ∀ a, Spends μ env (f a) 0) : Spends μ env (p >>= f) n := .bind hp hf (by omega)
theorem Spends.one {w : Nat} {p : Prog α} {f : α → Prog β} (hp : Spends μ env p w) (hf : ∀ a, Spends μ env (f a) (n * w)) : Spends μ env (p >>= f) ((n + 1) * w) :=
  .bind hp hf (by rw [Nat.succ_mul]; omega)
theorem Spends.last {w : Nat} {p : Prog α} (hp : Spends μ env p w) : Spends μ env p ((n + 1) * w) := hp.mono (by rw [Nat.succ_mul]; omega)
theorem Spends.caught {p : Prog α} {c : PyErr → Bool} {h : PyErr → Prog α} (hp : Spends μ env p n) (hh : ∀ e, Spends μ env (h e) 0) : Spends μ env (Prog.except p c h) n := by
  have := Spends.except (c := c) hp hh
  simpa using this
theorem Spends.tryCommand {p : Prog α} (hp : Spends μ env p n) : Spends μ env (Prog.tryCommand p) n := .caught (.after hp fun _ => .pure _) fun _ => .pure _
theorem Spends.ite {c : Prop} [Decidable c] {x y : Prog α} (hx : c → Spends μ env x n) (hy : ¬ c → Spends μ env y n) : Spends μ env (if c then x else y) n := by
  split
  · next h => exact hx h
  · next h => exact hy h
theorem Spends.lookThen {f : St → Prog α} (hf : ∀ a, Spends μ env (f a) n) : Spends μ env (Prog.look >>= f) n := .then .look hf
theorem Spends.changeThen {g : St → St} {f : Unit → Prog α} (h : ∀ s, μ (g s) ≤ μ s) (hf : ∀ a, Spends μ env (f a) n) : Spends μ env (Prog.change g >>= f) n := .then (.change h) hf

/-- What the steps of methods cost in a measure: a write `w`, a callback `c`, the object for a sent message `t`, the object for a call `o`, and all else nothing. -/
structure Gauge (μ : St → Nat) (env : Env) (w c t o : Nat) : Prop where
  write : ∀ data pe term, Spends μ env (Prog.write data pe term) w
  send : ∀ data, Spends μ env (writeNoWait data) w
  callback : ∀ x, Spends μ env (Prog.callback x) c
  record : ∀ f : Sent, ∀ s s' : St, s'.log = s.log → s'.callbacks = s.callbacks → s'.sent = s.sent ++ [f] → s'.calls = s.calls → μ s' ≤ μ s + t
  register : ∀ f : CallObj, ∀ s s' : St, s'.log = s.log → s'.callbacks = s.callbacks → s'.sent = s.sent → s'.calls = s.calls ++ [f] → μ s' ≤ μ s + o
  keep : ∀ s s' : St, s'.log = s.log → s'.callbacks = s.callbacks → s'.sent.length = s.sent.length → s'.calls.length = s.calls.length → μ s' ≤ μ s

section
variable {w c t o : Nat} (G : Gauge μ env w c t o)

theorem Gauge.same (G : Gauge μ env w c t o) {s s' : St} (h : s'.log = s.log ∧ s'.callbacks = s.callbacks ∧ s'.sent = s.sent ∧ s'.calls = s.calls) : μ s' ≤ μ s :=
  G.keep s s' h.1 h.2.1 (by rw [h.2.2.1]) (by rw [h.2.2.2])

/-- Straight through a method. -/
macro "spends " G:term : tactic => `(tactic| repeat' first
  | assumption
  | with_reducible exact Spends.pure _
  | with_reducible exact Spends.look
  | with_reducible exact Spends.raise _
  | with_reducible exact Spends.ofExcept _
  | with_reducible exact Spends.firstLine _
  | with_reducible exact Gauge.write $G _ _ _
  | with_reducible exact Gauge.send $G _
  | with_reducible exact Spends.last (Gauge.write $G _ _ _)
  | with_reducible exact Spends.last (Gauge.send $G _)
  | (with_reducible apply Spends.change; intro s; first | exact Gauge.same $G ⟨rfl, rfl, rfl, rfl⟩ | (split <;> exact Gauge.same $G ⟨rfl, rfl, rfl, rfl⟩))
  | (with_reducible apply Spends.then (Spends.pure _); intro _)
  | (with_reducible apply Spends.lookThen; intro _)
  | (with_reducible refine Spends.changeThen ?_ ?_; (intro s; exact Gauge.same $G ⟨rfl, rfl, rfl, rfl⟩); intro _)
  | (with_reducible apply Spends.then (Spends.ofExcept _); intro _)
  | (with_reducible apply Spends.then (Spends.firstLine _); intro _)
  | (with_reducible apply Spends.one (Gauge.write $G _ _ _); intro _)
  | (with_reducible apply Spends.one (Spends.tryCommand (Gauge.write $G _ _ _)); intro _)
  | (with_reducible apply Spends.one (Spends.tryCommand (Spends.after (Gauge.write $G _ _ _) fun _ => Spends.pure _)); intro _)
  | (with_reducible apply Spends.ite <;> intro _)
  | (with_reducible refine Spends.act (fun s => ?_) (fun s => ?_); (first | exact Gauge.same $G ⟨rfl, rfl, rfl, rfl⟩ | (split <;> exact Gauge.same $G ⟨rfl, rfl, rfl, rfl⟩)))
  | dsimp only
  | split)

include G

theorem spends_memory (m : Option PyStr) : Spends μ env (setSmsMemory m) (selecting m * w) := by
  unfold setSmsMemory
  cases m with
  | none => exact .pure _
  | some m =>
    show Spends μ env _ ((0 + 1) * w)
    spends G
theorem spends_read (i : PyStr) (m : Option PyStr) : Spends μ env (readStoredSms i m) ((selecting m + 1) * w) := by
  unfold readStoredSms
  refine .bind (spends_memory G m) (fun _ => ?_) (Nat.le_of_eq (Nat.succ_mul _ _).symm)
  exact .after (G.write _ _ _) fun _ => .lookThen fun _ => .ofExcept _
theorem spends_delete (i : PyStr) (m : Option PyStr) : Spends μ env (deleteStoredSms i m) ((selecting m + 1) * w) := by
  unfold deleteStoredSms
  refine .bind (spends_memory G m) (fun _ => ?_) (Nat.le_of_eq (Nat.succ_mul _ _).symm)
  exact .after (G.write _ _ _) fun _ => .pure _
theorem spends_deleteMultiple (f : Int) (m : Option PyStr) : Spends μ env (deleteMultipleStoredSms f m) ((selecting m + 1) * w) := by
  unfold deleteMultipleStoredSms
  refine .ite (fun _ => ?_) fun _ => .raise _
  refine .bind (spends_memory G m) (fun _ => ?_) (Nat.le_of_eq (Nat.succ_mul _ _).symm)
  exact .after (G.write _ _ _) fun _ => .pure _
theorem spends_deleteAll : ∀ is : List Int, Spends μ env (deleteAll is) (is.length * w)
  | [] => .pure _
  | i :: is => by
    rw [deleteAll]
    exact .one (by simpa [selecting] using spends_delete G (intStr i) none) fun _ => spends_deleteAll is
theorem spends_deleteListed {k : Nat} (st : Int) (d : Bool) (is : List Int) (hk : (d && st != 4) = true → w ≠ 0 → is.length ≤ k) :
    Spends μ env (deleteListed st d is) ((if d then (if st = 4 then 1 else k) else 0) * w) := by
  unfold deleteListed
  cases d with
  | false => exact .pure _
  | true =>
    simp only [if_true]
    split
    · exact spends_deleteMultiple G 4 none
    · next h4 =>
      refine .act (fun _ => Nat.le_refl _) fun _ => (spends_deleteAll G (env.order is)).mono ?_
      rw [(env.order_perm is).length_eq]
      by_cases hw : w = 0
      · subst hw
        simp
      · exact Nat.mul_le_mul_right _ (hk (by simpa using h4) hw)

omit G in
theorem post_writeN {L : Nat} (hL : Brief env.reply L) (data : PyStr) (pe : Bool) (term : PyStr) : ∀ d : Nat, Post env (fun ls => ls.length ≤ L) (writeN d data pe term)
  | 0 => trivial
  | d + 1 => by
    have ih := post_writeN hL data pe term d
    intro log
    cases hr : env.reply ((data ++ term) :: log) with
    | timeout d => trivial
    | lines ls =>
      have h1 := hL _ _ hr
      dsimp only
      cases hl : ls.getLast? with
      | none => trivial
      | some line =>
        dsimp only
        cases pe with
        | false => exact h1
        | true =>
          simp only [if_true]
          cases classify line with
          | fine => exact h1
          | failed e => trivial
          | busy code => exact fun s => post_bind (f := fun r => Prog.change (fun s => { s with writeWait := if code = 515 then 1 else 0 }) >>= fun _ => (Pure.pure r : Prog (List PyStr))) (fun ls h => fun _ => h) ih

omit G in
theorem post_write {L : Nat} (hL : Brief env.reply L) (data : PyStr) (pe : Bool) (term : PyStr) : Post env (fun ls => ls.length ≤ L) (write data pe term) :=
  fun _ => post_writeN hL data pe term env.depth

theorem spends_list {L : Nat} (st : Int) (m : Option PyStr) (d : Bool) (hL : (d && st != 4) = true → w ≠ 0 → Brief env.reply L) :
    Spends μ env (listStoredSms st m d) ((selecting m + 1 + if d then (if st = 4 then 1 else L / 2) else 0) * w) := by
  unfold listStoredSms
  rw [Nat.add_mul, Nat.succ_mul, Nat.add_assoc]
  refine .bind (spends_memory G m) (fun _ => ?_) (Nat.le_refl _)
  refine .lookThen fun s => .then (.ofExcept _) fun c => ?_
  have hp : Post env (fun ls : List PyStr => (d && st != 4) = true → w ≠ 0 → ls.length ≤ L) (write c) := by
    by_cases hd : (d && st != 4) = true ∧ w ≠ 0
    · exact post_mono (fun _ h _ _ => h) (post_write (hL hd.1 hd.2) c true [13])
    · exact post_mono (fun _ _ h1 h2 => absurd ⟨h1, h2⟩ hd) (post_true _)
  refine .bindR (G.write _ _ _) hp (fun ls hls => ?_) (Nat.le_refl _)
  cases hp : parseListing s.smsTextMode ls with
  | error e => exact .raise e
  | ok r =>
    show Spends μ env (deleteListed st d r.delMessages >>= fun _ => Pure.pure r.messages) _
    exact .after (spends_deleteListed G st d r.delMessages fun hd hw => Nat.le_trans (listed_length hp) (Nat.div_le_div_right (hls hd hw))) fun _ => .pure _

theorem spends_received (l : PyStr) : Spends μ env (handleSmsReceived l) (3 * w + c) := by
  unfold handleSmsReceived
  split
  · next mem idx _ =>
    refine .bind (k := 2 * w) (l := w + c) (spends_read G idx (some mem)) (fun m => ?_) (by omega)
    exact .bind (by simpa [selecting] using spends_delete G idx none) (fun _ => G.callback _) (Nat.le_refl _)
  · exact .pure _

theorem spends_updateSent (r : Msg) (a d : Int) : Spends μ env (updateSent r a d) n := by
  refine .change fun s => G.keep _ _ rfl rfl ?_ rfl
  dsimp only
  split
  · simp
  · rfl

theorem spends_report (l : PyStr) : Spends μ env (handleSmsStatusReport l) (3 * w + c) := by
  unfold handleSmsStatusReport
  split
  · next mem idx _ =>
    refine .bind (k := 2 * w) (l := w + c) (spends_read G idx (some mem)) (fun m => ?_) (by omega)
    refine .bind (k := w) (l := c) (by simpa [selecting] using spends_delete G idx none) (fun _ => ?_) (Nat.le_refl _)
    split
    · exact .raise _
    · refine .then (spends_updateSent G _ _ _) fun _ => .act (fun s => ?_) fun s => .ite (fun _ => .pure _) fun _ => G.callback _
      split <;> exact G.same ⟨rfl, rfl, rfl, rfl⟩
  · exact .pure _

theorem spends_sendPdus : ∀ (ps : List Pdu) (r : Option PyStr), Spends μ env (sendPdus ps r) ((2 * ps.length) * w)
  | [], _ => .pure _
  | p :: ps, r => by
    rw [sendPdus, List.length_cons, Nat.mul_succ]
    exact .one (G.write _ _ _) fun _ => .one (G.write _ _ _) fun _ => spends_sendPdus ps _

theorem spends_record (d x : PyStr) (r : Int) : Spends μ env (recordSent d x r) t := by
  unfold recordSent
  refine .changeThen (fun s => G.same ⟨rfl, rfl, rfl, rfl⟩) fun _ => .lookThen fun s => ?_
  have hend : Spends μ env (Prog.act (fun _ s => { s with sent := s.sent ++ [⟨d, x, r, none⟩], sentSms := dictSet s.sentSms r s.sent.length, smsTrace := .sent r :: s.smsTrace })
    fun _ s => Pure.pure s.sent.length : Prog Nat) t := .pay (fun s => G.record _ _ _ rfl rfl rfl rfl) fun _ => .pure _
  exact .ite (fun _ => .changeThen (fun s => G.same ⟨rfl, rfl, rfl, rfl⟩) fun _ => hend) fun _ => hend

theorem spends_sendAll [PyUnicode] (d x : PyStr) (f : Bool) : Spends μ env (sendAll d x f) (mostToSend x * w) := by
  unfold sendAll
  refine .lookThen fun s => .ite (fun _ => ?_) fun _ => .lookThen fun s => ?_
  · refine .mono (n := 2 * w) ?_ (Nat.mul_le_mul_right _ (by unfold mostToSend; omega))
    spends G
  · cases he : encodeSmsSubmitPdu d x s.smsRef (sendFlash := f) with
    | error e => exact .raise _
    | ok ps =>
      show Spends μ env (sendPdus ps none) _
      refine (spends_sendPdus G ps none).mono (Nat.mul_le_mul_right _ ?_)
      have := encode_length he
      unfold mostToSend
      omega

theorem spends_sendFinish (d x : PyStr) (r : Option PyStr) : Spends μ env (sendFinish d x r) t := by
  cases r with
  | none => exact .raise _
  | some r => exact .then (.ofExcept _) fun _ => spends_record G d x _

theorem spends_send [PyUnicode] (d x : PyStr) (f : Bool) : Spends μ env (sendSms d x f) (mostToSend x * w + t) :=
  .bind (spends_sendAll G d x f) (fun r => spends_sendFinish G d x r) (Nat.le_refl _)

theorem spends_textMode (v : Bool) : Spends μ env (setSmsTextMode v) w := by
  unfold setSmsTextMode
  refine .mono (n := (0 + 1) * w) ?_ (by omega)
  spends G

theorem spends_method [PyUnicode] {L : Nat} (m : Method) (hL : deletesListed (.message m) = true → w ≠ 0 → Brief env.reply L) :
    Spends μ env m.prog (taskCommands L (.message m) * w + taskCallbacks (.message m) * c + taskSent (.message m) * t) := by
  cases m with
  | read i m => exact .after ((spends_read G i m).mono (by simp only [taskCommands]; omega)) fun _ => .pure _
  | delete i m => exact (spends_delete G i m).mono (by simp only [taskCommands]; omega)
  | deleteMultiple f m => exact (spends_deleteMultiple G f m).mono (by simp only [taskCommands]; omega)
  | list st m d => exact .after ((spends_list G st m d hL).mono (by simp only [taskCommands]; omega)) fun _ => .pure _
  | received l => exact (spends_received G l).mono (by simp only [taskCommands, taskCallbacks, taskSent]; omega)
  | statusReport l => exact (spends_report G l).mono (by simp only [taskCommands, taskCallbacks, taskSent]; omega)
  | send d x f => exact .after ((spends_send G d x f).mono (by simp only [taskCommands, taskCallbacks, taskSent]; omega)) fun _ => .pure _
  | setTextMode v => exact (spends_textMode G v).mono (by simp only [taskCommands]; omega)
  | ask x => exact .after ((G.write _ _ _).mono (by simp only [taskCommands]; omega)) fun _ => .pure _

/-! ### Calls -/

theorem spends_changeCall (i : Nat) (f : CallObj → CallObj) : Spends μ env (changeCall i f) n := .change fun s => G.keep _ _ rfl rfl rfl (by simp)
theorem spends_setAnswered (i : Nat) (v : Bool) : Spends μ env (setAnswered i v) c := by
  unfold setAnswered
  refine .then (spends_changeCall G _ _) fun _ => .lookThen fun s => ?_
  split
  · exact .ite (fun _ => G.callback _) fun _ => .pure _
  · exact .pure _
theorem spends_register (x : CallObj) : Spends μ env (registerCall x) o := .pay (fun s => G.register _ _ _ rfl rfl rfl rfl) fun _ => .pure _
theorem spends_registerNext (x : CallObj) : Spends μ env (registerNext x) o := .lookThen fun _ => spends_register G _
theorem spends_remove (k : Int) : Spends μ env (removeCall k) n := .act (fun s => G.same ⟨rfl, rfl, rfl, rfl⟩) fun s => .ite (fun _ => .pure _) fun _ => .raise _
omit G in
theorem spends_lookUp (k : Int) : Spends μ env (lookUp k) n := by
  unfold lookUp
  refine .lookThen fun s => ?_
  split
  · exact .pure _
  · exact .raise _
omit G in
theorem spends_sameSize (k : Nat) : Spends μ env (sameSize k) n := .lookThen fun s => .ite (fun _ => .pure _) fun _ => .raise _
theorem spends_countRing (i : Nat) : Spends μ env (countRing i) n := by
  unfold countRing
  refine .lookThen fun s => ?_
  split
  · exact spends_changeCall G _ _
  · exact .pure _
theorem spends_ringLoop (cn : Option PyStr) (k : Nat) : ∀ (l : List (Int × Nat)) (r : Option Nat), Spends μ env (ringLoop cn k l r) n
  | [], r => .then (spends_sameSize k) fun _ => .pure _
  | (_, i) :: rest, r => by
    have ih := spends_ringLoop cn k rest
    rw [ringLoop]
    refine .then (spends_sameSize k) fun _ => .lookThen fun s => ?_
    split
    · exact .ite (fun _ => .ite (fun _ => .then (spends_countRing G i) fun _ => ih _) fun _ => .raise _) fun _ => ih _
    · exact ih _
theorem spends_ringType (l : PyStr) : Spends μ env (ringType l) w := by
  unfold ringType
  refine .lookThen fun s => .ite (fun _ => ?_) fun _ => .pure _
  split
  · exact .pure _
  · refine .after (.tryCommand (G.write _ _ _)) fun r => ?_
    split
    · exact .pure _
    · exact .changeThen (fun s => G.same ⟨rfl, rfl, rfl, rfl⟩) fun _ => .pure _
omit G in
theorem spends_callTypeOf (x : Option PyStr) : Spends μ env (callTypeOf x) n := by
  cases x with
  | none => exact .pure _
  | some x => exact .ite (fun _ => .pure _) fun _ => .raise _
theorem spends_newIncoming (a x y : Option PyStr) : Spends μ env (newIncoming a x y) (o + c) :=
  .lookThen fun _ => .then (spends_callTypeOf a) fun _ => .bind (spends_register G _) (fun _ => G.callback _) (Nat.le_refl _)
theorem spends_incoming (ls : List PyStr) : Spends μ env (handleIncomingCall ls) (w + (o + c)) := by
  cases ls with
  | nil => exact .raise _
  | cons l ls =>
    rw [handleIncomingCall]
    refine .bind (spends_ringType G l) (fun ct => ?_) (Nat.le_refl _)
    refine .lookThen fun s => .lookThen fun s' => .then (spends_ringLoop G _ _ _ _) fun r => ?_
    split
    · exact (G.callback _).mono (by omega)
    · exact spends_newIncoming G _ _ _
theorem spends_tellDial (a d : Int) : Spends μ env (tellDial a d) n := by
  unfold tellDial
  refine .changeThen (fun s => G.same ⟨rfl, rfl, rfl, rfl⟩) fun _ => .act (fun s => ?_) fun s => .ite (fun _ => .pure _) fun _ => .raise _
  split <;> exact G.same ⟨rfl, rfl, rfl, rfl⟩
theorem spends_initiated (a d : Int) : Spends μ env (handleCallInitiated a d) n := .lookThen fun _ => .ite (fun _ => spends_tellDial G a d) fun _ => .pure _
omit G in
theorem spends_firstOutgoing (u : Bool) (k : Nat) : ∀ l : List (Int × Nat), Spends μ env (firstOutgoing u k l) n
  | [] => .then (spends_sameSize k) fun _ => .pure _
  | (_, i) :: rest => .then (spends_sameSize k) fun _ => .lookThen fun s => .ite (fun _ => .pure _) fun _ => spends_firstOutgoing u k rest
theorem spends_answered (k : Option Int) : Spends μ env (handleCallAnswered k) c := by
  cases k with
  | some k => exact .then (spends_lookUp k) fun i => spends_setAnswered G i true
  | none =>
    rw [handleCallAnswered]
    refine .lookThen fun s => .then (spends_firstOutgoing _ _ _) fun r => ?_
    split
    · exact spends_setAnswered G _ _
    · exact .pure _
theorem spends_endCall (k : Option Int) : Spends μ env (endCall k) c := by
  cases k with
  | none => exact .pure _
  | some k =>
    refine .ite (fun _ => .lookThen fun s => .ite (fun _ => ?_) fun _ => .pure _) fun _ => .pure _
    exact .then (spends_lookUp k) fun i => .after (spends_setAnswered G i false) fun _ => .then (spends_lookUp k) fun i => .then (spends_changeCall G _ _) fun _ => spends_remove G k
theorem spends_ended (k : Option Int) (x y : Bool) : Spends μ env (handleCallEnded k x y) c := by
  unfold handleCallEnded
  refine .ite (fun _ => .lookThen fun s => .then (spends_firstOutgoing _ _ _) fun r => ?_) fun _ => spends_endCall G k
  split
  · exact .lookThen fun _ => spends_endCall G _
  · exact spends_endCall G k
theorem spends_handler (h : CallHandler) (g : List PyStr) : Spends μ env (runCallHandler h g) c := by
  unfold runCallHandler
  cases h <;> dsimp only
  · refine .lookThen fun s => .ite (fun _ => ?_) fun _ => .pure _
    split
    · exact .then (.ofExcept _) fun _ => .then (.ofExcept _) fun _ => spends_tellDial G _ _
    · exact .then (.ofExcept _) fun _ => spends_tellDial G _ _
    · exact .raise _
  · split
    · exact .then (.ofExcept _) fun _ => spends_answered G _
    · exact spends_answered G _
  · split
    · exact .then (.ofExcept _) fun _ => spends_ended G _ _ _
    · exact spends_ended G _ _ _
  · split
    · exact .then (.ofExcept _) fun _ => spends_ended G _ _ _
    · exact spends_ended G _ _ _
theorem spends_ussdNote (ls : List PyStr) : Spends μ env (handleUssd ls) n := by unfold handleUssd; spends G

theorem spends_dispatch (all : List PyStr) : ∀ ls : List PyStr, Spends μ env (dispatchLoop all ls) (3 * w + c + o)
  | [] => .pure _
  | l :: ls => by
    rw [dispatchLoop]
    refine .lookThen fun s => ?_
    split
    · exact (spends_incoming G all).mono (by omega)
    · exact (spends_received G l).mono (by omega)
    · exact spends_ussdNote G all
    · exact (spends_report G l).mono (by omega)
    · exact (spends_handler G _ _).mono (by omega)
    · exact spends_dispatch all ls

theorem spends_clcc : Spends μ env clccQuery w := by
  unfold clccQuery
  refine .caught (.after (G.write _ _ _) fun ls => ?_) fun _ => .pure _
  spends G

/-- What watching a call may still cost. -/
def watchCost (c : Nat) (p : Poller) : Nat := if p.expectedState = 2 then c else 2 * c

omit G in
theorem watch_le (p : Poller) : c ≤ watchCost c p ∧ watchCost c p ≤ 2 * c := by unfold watchCost; split <;> omega

theorem spends_poll : ∀ (k : Nat) (p : Poller), Spends μ env (poll k p) (k * w + watchCost c p)
  | 0, _ => .pure _
  | k + 1, p => by
    have ih := spends_poll k
    have hrest : ∀ p : Poller, Spends μ env (if p.done then Pure.pure () else poll k p : Prog Unit) (k * w + watchCost c p) := fun p => .ite (fun _ => .pure _) fun _ => ih p
    rw [poll, pollRound, bind_assoc']
    refine .lookThen fun s => ?_
    by_cases hg : s.alive ∧ ¬ p.done ∧ 0 < p.timeLeft
    · rw [if_pos hg, bind_assoc']
      refine .bind (l := k * w + watchCost c p) (spends_clcc G) (fun seen => ?_) (by rw [Nat.succ_mul]; omega)
      have hq : (if p.expectedState = 0 then { p with timeLeft := p.timeLeft - 1 } else p).expectedState = p.expectedState := by split <;> rfl
      generalize (if p.expectedState = 0 then { p with timeLeft := p.timeLeft - 1 } else p) = q at hq
      have hw : watchCost c p = watchCost c q := by unfold watchCost; rw [hq]
      rw [hw]
      have hrq := hrest q
      cases seen with
      | none =>
        simp only [pollStep]
        split
        · rw [bind_assoc']
          exact .bind (l := 0) (spends_ended G _ _ _) (fun _ => show Spends μ env (Pure.pure () : Prog Unit) 0 from .pure _) (by have := (watch_le (c := c) q).1; omega)
        · split
          · rw [bind_assoc']
            exact .bind (l := 0) (spends_ended G _ _ _) (fun _ => show Spends μ env (Pure.pure () : Prog Unit) 0 from .pure _) (by have := (watch_le (c := c) q).1; omega)
          · exact hrq
      | some r =>
        obtain ⟨cid, dir, stat, type⟩ := r
        simp only [pollStep]
        split
        · split
          · next h0 =>
            split
            · rw [bind_assoc']
              refine .then (spends_initiated G _ _) fun _ => (hrest _).mono ?_
              simp [watchCost, h0]
            · exact hrq
          · split
            · next h1 =>
              split
              · rw [bind_assoc']
                refine .bind (spends_answered G _) (fun _ => hrest _) ?_
                simp [watchCost, h1]
                omega
              · exact hrq
            · exact hrq
        · exact hrq
    · rw [if_neg hg]
      exact show Spends μ env (Pure.pure () : Prog Unit) _ from .pure _

theorem spends_dial (x : PyStr) (cb : Bool) : Spends μ env (dialNow x cb) (w + o) := by
  unfold dialNow
  have hend : ∀ y, Spends μ env (registerNext y >>= fun _ => Pure.pure () : Prog Unit) o := fun y => .after (spends_registerNext G y) fun _ => .pure _
  refine .lookThen fun s => .ite (fun _ => .bind (G.write _ _ _) (fun _ => hend _) (Nat.le_refl _)) fun _ => .bind (G.send _) (fun _ => hend _) (Nat.le_refl _)

theorem spends_hangup (i : Nat) : Spends μ env (hangup i) (w + c) := by
  unfold hangup
  refine .then (spends_changeCall G _ _) fun _ => .lookThen fun s => ?_
  split
  · exact .pure _
  · next x _ =>
    refine .after ?_ fun _ => .lookThen fun s => .ite (fun _ => spends_remove G _) fun _ => .pure _
    exact .ite (fun _ => .bind (G.write _ _ _) (fun _ => .after (spends_setAnswered G i false) fun _ => spends_changeCall G _ _) (Nat.le_refl _)) fun _ => .pure _

theorem spends_answer (i : Nat) : Spends μ env (answer i) (w + c) := by
  unfold answer
  refine .lookThen fun s => ?_
  split
  · exact .pure _
  · exact .ite (fun _ => .bind (G.write _ _ _) (fun _ => .then (spends_changeCall G _ _) fun _ => spends_setAnswered G i true) (Nat.le_refl _)) fun _ => .pure _

theorem spends_dtmf (i : Nat) (x : PyStr) : Spends μ env (sendDtmfTone i x) w := by
  unfold sendDtmfTone
  refine .lookThen fun s => ?_
  split
  · exact .pure _
  · exact .ite (fun _ => .then (.ofExcept _) fun cmd => .caught (.after (G.write _ _ _) fun _ => .pure _) fun _ => .raise _) fun _ => .raise _

theorem spends_task [PyUnicode] {L : Nat} (x : Task) (hL : deletesListed x = true → w ≠ 0 → Brief env.reply L) :
    Spends μ env x.prog (taskCommands L x * w + taskCallbacks x * c + taskSent x * t + taskCalls x * o) := by
  cases x with
  | message m => exact (spends_method G m hL).mono (by omega)
  | notify ls => exact (spends_dispatch G ls ls).mono (by simp only [taskCommands, taskCallbacks, taskSent, taskCalls]; omega)
  | poll k p =>
    refine (spends_poll G k p).mono ?_
    simp only [taskCommands, taskCallbacks, taskSent, taskCalls, watchCost]
    split <;> omega
  | dial x cb => exact (spends_dial G x cb).mono (by simp only [taskCommands, taskCallbacks, taskSent, taskCalls]; omega)
  | answer i => exact (spends_answer G i).mono (by simp only [taskCommands, taskCallbacks, taskSent, taskCalls]; omega)
  | hangup i => exact (spends_hangup G i).mono (by simp only [taskCommands, taskCallbacks, taskSent, taskCalls]; omega)
  | dtmf i x => exact (spends_dtmf G i x).mono (by simp only [taskCommands, taskCallbacks, taskSent, taskCalls]; omega)

/-! ### Connecting -/

theorem spends_getSmsc : Spends μ env getSmsc w := by
  unfold getSmsc
  refine .lookThen fun s => ?_
  split
  · exact .pure _
  · refine .after (.caught (.after (G.write _ _ _) fun _ => .pure _) fun _ => .pure _) fun r => .then ?_ fun _ => .lookThen fun _ => .pure _
    unfold storeSmsc
    spends G
theorem spends_setSmsc (v : Option PyStr) : Spends μ env (setSmsc v) w := by
  unfold setSmsc
  refine .mono (n := (0 + 1) * w) ?_ (by omega)
  spends G
theorem spends_unlock (pin : Option PyStr) : Spends μ env (unlockSim pin) (2 * w) := by
  unfold unlockSim
  refine .one (n := 1) ?_ fun r => ?_
  · unfold askPin
    refine .caught (.after (G.write _ _ _) fun _ => .pure _) fun e => ?_
    split
    · split
      · exact .pure _
      · exact .raise _
    · exact .raise _
  · refine .ite (fun _ => ?_) fun _ => .pure _
    cases pin with
    | none => exact .raise _
    | some pin => exact .mono (n := w) (.after (G.write _ _ _) fun _ => .pure _) (by omega)
theorem spends_radio : Spends μ env enableRadio (2 * w) := by
  unfold enableRadio
  exact .caught (.one (n := 1) (G.write _ _ _) fun ls => .then (.ofExcept _) fun _ => .ite (fun _ => .mono (n := w) (.after (G.write _ _ _) fun _ => .pure _) (by omega)) fun _ => .pure _) fun _ => .pure _
theorem spends_rest (pin : Option PyStr) (x : Bool) : Spends μ env (connectRest pin x) ((if x then 4 else 6) * w) := by
  unfold connectRest
  refine .bind (k := w) (l := (if x then 3 else 5) * w) (G.write _ _ _) (fun _ => ?_) (by split <;> omega)
  refine .bind (k := 2 * w) (l := (if x then 1 else 3) * w) (spends_radio G) (fun _ => ?_) (by split <;> omega)
  refine .bind (k := w) (l := (if x then 0 else 2) * w) (G.write _ _ _) (fun _ => ?_) (by split <;> omega)
  cases x
  · exact spends_unlock G pin
  · exact .pure _
theorem spends_basics (pin : Option PyStr) : Spends μ env (connectBasics pin) (9 * w) := by
  unfold connectBasics
  refine .one (n := 8) (.tryCommand (G.write _ _ _)) fun r => ?_
  cases r
  · refine .one (n := 7) (G.write _ _ _) fun _ => ?_
    refine .bind (k := 2 * w) (l := 5 * w) (spends_unlock G pin) (fun _ => ?_) (by omega)
    exact .one (n := 4) (G.write _ _ _) fun _ => spends_rest G pin true
  · exact (spends_rest G pin false).mono (by simp only [Bool.false_eq_true, if_false]; omega)
theorem spends_supported : Spends μ env supportedCommands w := by
  unfold supportedCommands
  refine .caught (.after (G.write _ _ _) fun ls => ?_) fun _ => .pure _
  spends G
theorem spends_writeIf (b : Bool) (data : PyStr) (pe : Bool) : Spends μ env (writeIf b data pe) w :=
  .ite (fun _ => .after (G.write _ _ _) fun _ => .pure _) fun _ => .pure _

omit G in
/-- Modems that are asked for `+WIND` have the command, or have not told their commands. -/
theorem post_identifyCommands (cs : List PyStr) : Post env (fun r : Nat × Bool => r.2 = true → r.1 = 2) (identifyCommands cs) := by
  have hend : Post env (fun r : Nat × Bool => r.2 = true → r.1 = 2) (Pure.pure (if cs.contains py!"+WIND" then (2, true)
    else if cs.contains py!"+ZPAS" then (3, false)
    else if !cs.contains py!"+VTS" && cs.contains py!"^DTMF" then (1, false)
    else (0, false)) : Prog (Nat × Bool)) := by
    show _ → _
    split
    · simp
    · split
      · simp
      · split <;> simp
  unfold identifyCommands
  refine post_bind (Q := fun _ => True) (fun _ _ => ?_) (post_true _)
  dsimp only
  split
  · exact post_bind (Q := fun _ => True) (fun _ _ => post_bind (Q := fun _ => True) (fun _ _ => hend) (post_true _)) (post_true _)
  · exact post_bind (Q := fun _ => True) (fun _ _ => hend) (post_true _)

theorem spends_identifyCommands (cs : List PyStr) : Spends μ env (identifyCommands cs) (2 * w) := by
  unfold identifyCommands
  have hend : ∀ (b : Bool) (data : PyStr) (pe : Bool) (r : Nat × Bool), Spends μ env (writeIf b data pe >>= fun _ => Pure.pure r : Prog (Nat × Bool)) (1 * w) :=
    fun b data pe r => .mono (n := w) (.after (spends_writeIf G _ _ _) fun _ => .pure _) (by omega)
  refine .one (n := 1) (spends_writeIf G _ _ _) fun _ => .ite (fun _ => .changeThen (fun s => G.same ⟨rfl, rfl, rfl, rfl⟩) fun _ => hend _ _ _ _) fun _ => hend _ _ _ _
theorem spends_other (h : Nat) : Spends μ env (identifyOther h) ((if h = 0 then 2 else 0) * w) := by
  unfold identifyOther manufacturer
  split
  · refine .one (n := 1) (.after (G.write _ _ _) fun ls => .firstLine ls) fun m => .ite (fun _ => .pure _) fun _ => ?_
    refine .mono (n := w) (.after (.tryCommand (G.write _ _ _)) fun r => ?_) (by omega)
    cases r <;> exact .pure _
  · exact .pure _
theorem spends_wind_other (h : Nat) : Spends μ env (identifyWind h >>= identifyOther) ((if h = 0 then 3 else 2) * w) := by
  unfold identifyWind
  rw [bind_assoc']
  refine .bind (k := w) (l := (if h = 0 then 2 else 1) * w) (.tryCommand (.after (G.write _ _ _) fun _ => .pure _)) (fun r => ?_) (by split <;> omega)
  have h2 : Spends μ env (identifyOther 2) 0 := (spends_other G 2).mono (by simp)
  cases r with
  | none => exact (spends_other G h).mono (Nat.mul_le_mul_right _ (by split <;> omega))
  | some wind =>
    refine .mono (n := w) ?_ (by split <;> omega)
    dsimp only
    rw [bind_assoc']
    refine .then (.ofExcept _) fun k => ?_
    rw [bind_assoc']
    exact .after (spends_writeIf G _ _ _) fun _ => h2

theorem spends_identify : Spends μ env connectIdentify (5 * w) := by
  unfold connectIdentify
  refine .one (n := 4) (spends_supported G) fun commands => ?_
  have hw : ∀ h, Spends μ env (identifyWind h >>= fun h => identifyOther h >>= fun h => Pure.pure (h, commands) : Prog (Nat × Option (List PyStr))) ((if h = 0 then 3 else 2) * w) := by
    intro h
    have := Spends.after (f := fun h => (Pure.pure (h, commands) : Prog (Nat × Option (List PyStr)))) (spends_wind_other G h) fun _ => .pure _
    rw [bind_assoc'] at this
    exact this
  cases commands with
  | none => exact (hw 0).mono (by simp only [if_true]; omega)
  | some cs =>
    refine .bindR (k := 2 * w) (l := 2 * w) (spends_identifyCommands G cs) (post_identifyCommands cs) (fun p hp => ?_) (by omega)
    obtain ⟨x, y⟩ := p
    cases y with
    | true =>
      have : x = 2 := hp rfl
      subst this
      exact hw 2
    | false =>
      show Spends μ env (identifyOther x >>= fun h => (Pure.pure (h, some cs) : Prog (Nat × Option (List PyStr)))) _
      exact .after ((spends_other G x).mono (Nat.mul_le_mul_right _ (by split <;> omega))) fun _ => .pure _

theorem spends_sms : Spends μ env connectSms (6 * w) := by
  unfold connectSms
  refine .one (n := 5) (G.write _ _ _) fun _ => .lookThen fun s => .one (n := 4) (G.write _ _ _) fun _ => .one (n := 3) ?_ fun current => ?_
  · unfold firstSmsc
    refine .lookThen fun s => ?_
    split
    · exact .after (G.write _ _ _) fun _ => .pure _
    · exact spends_getSmsc G
  · unfold keepSmsc
    split
    · exact .changeThen (fun s => G.same ⟨rfl, rfl, rfl, rfl⟩) fun _ => .one (n := 2) (G.write _ _ _) fun _ => .one (n := 1) (spends_getSmsc G) fun now =>
        .ite (fun _ => (spends_setSmsc G _).mono (by omega)) fun _ => .pure _
    · exact .mono (n := w) (.after (G.write _ _ _) fun _ => .pure _) (by omega)

theorem spends_storage : Spends μ env connectMemory (2 * w) := by
  unfold connectMemory
  refine .one (n := 1) (.tryCommand (.after (G.write _ _ _) fun _ => .pure _)) fun r => ?_
  refine .mono (n := w) ?_ (by omega)
  unfold chooseMemory
  split
  · spends G
  · exact .raise _
  · split
    · exact .raise _
    · refine .ite (fun _ => ?_) fun _ => .then ?_ fun _ => .after (G.write _ _ _) fun _ => .pure _
      · spends G
      · unfold preferMemory
        spends G

theorem spends_notifications : Spends μ env connectNotifications (4 * w) := by
  unfold connectNotifications notifyMessages notifyCalls
  refine .one (n := 3) (.lookThen fun s => .ite (fun _ => .after (.tryCommand (G.write _ _ _)) fun r => ?_) fun _ => .pure _) fun _ => ?_
  · spends G
  · refine .bind (k := 2 * w) (l := w) ?_ (fun _ => .after (G.write _ _ _) fun _ => .pure _) (by omega)
    refine .one (n := 1) (.tryCommand (G.write _ _ _)) fun r => ?_
    cases r with
    | none => dsimp only; spends G
    | some r =>
      refine .changeThen (fun s => G.same ⟨rfl, rfl, rfl, rfl⟩) fun _ => .mono (n := w) (.after (.tryCommand (G.write _ _ _)) fun r => ?_) (by omega)
      cases r <;> (dsimp only; spends G)

theorem spends_table (h : Nat) (cs : Option (List PyStr)) : Spends μ env (connectCallTable h cs) n := by
  unfold connectCallTable assumeDtmf
  spends G

theorem spends_connect (pin : Option PyStr) : Spends μ env (connect pin) (26 * w) := by
  unfold connect
  refine .changeThen (fun s => G.same ⟨rfl, rfl, rfl, rfl⟩) fun _ => ?_
  refine .bind (k := 9 * w) (l := 17 * w) (spends_basics G pin) (fun _ => ?_) (by omega)
  refine .bind (k := 5 * w) (l := 12 * w) (spends_identify G) (fun p => ?_) (by omega)
  refine .then (spends_table G _ _) fun _ => ?_
  refine .bind (k := 6 * w) (l := 6 * w) (spends_sms G) (fun _ => ?_) (by omega)
  exact .bind (k := 2 * w) (l := 4 * w) (spends_storage G) (fun _ => spends_notifications G) (by omega)

theorem spends_activity [PyUnicode] {L : Nat} (x : Activity) (hL : activityDeletes x = true → w ≠ 0 → Brief env.reply L) :
    Spends μ env x.prog (activityCommands L x * w + activityCallbacks x * c + activitySent x * t + activityCalls x * o) := by
  cases x with
  | task x => exact spends_task G x hL
  | connect pin => exact (spends_connect G pin).mono (by simp only [activityCommands, mostToConnect]; omega)

end

/-! ### The measures -/

theorem spends_writeN_log (data : PyStr) (pe : Bool) (term : PyStr) : ∀ d : Nat, Spends (fun s => s.log.length) env (writeN d data pe term) d
  | 0 => .raise _
  | d + 1 => by
    have ih := spends_writeN_log data pe term d
    refine ⟨d, fun s => by simp only [List.length_cons]; omega, fun log => ?_⟩
    cases env.reply ((data ++ term) :: log) with
    | timeout x => exact .raise _
    | lines ls =>
      dsimp only
      cases ls.getLast? with
      | none => exact .raise _
      | some line =>
        refine .ite (fun _ => ?_) fun _ => .pure _
        cases classify line with
        | fine => exact .pure _
        | failed e => exact .raise _
        | busy code => exact .changeThen (fun s => Nat.le_refl _) fun _ => .after ih fun _ => .changeThen (fun s => Nat.le_refl _) fun _ => .pure _

theorem spends_writeN_once (hb : NeverBusy env.reply) (data : PyStr) (pe : Bool) (term : PyStr) (d : Nat) : Spends (fun s => s.log.length) env (writeN d data pe term) 1 := by
  cases d with
  | zero => exact .raise _
  | succ d =>
    refine ⟨0, fun s => by simp only [List.length_cons]; omega, fun log => ?_⟩
    cases hr : env.reply ((data ++ term) :: log) with
    | timeout x => exact .raise _
    | lines ls =>
      dsimp only
      cases hl : ls.getLast? with
      | none => exact .raise _
      | some line =>
        refine .ite (fun _ => ?_) fun _ => .pure _
        cases hc : classify line with
        | fine => exact .pure _
        | failed e => exact .raise _
        | busy code =>
          obtain ⟨m, -, hm⟩ := busy_of_classify hc
          exact absurd ⟨m, ls, line, hr, hl, hm⟩ (hb _)

theorem gauge_log {w : Nat} (hw : 1 ≤ w) (h : ∀ data pe term, Spends (fun s => s.log.length) env (write data pe term) w) : Gauge (fun s => s.log.length) env w 0 0 0 where
  write := h
  send data := .mono (n := 1) (.pay (fun s => Nat.le_refl _) fun _ => .pure _) hw
  callback x := .change fun s => Nat.le_refl _
  record _ s s' h _ _ _ := by show s'.log.length ≤ _; rw [h]; omega
  register _ s s' h _ _ _ := by show s'.log.length ≤ _; rw [h]; omega
  keep s s' h _ _ _ := by show s'.log.length ≤ _; rw [h]

theorem gauge_depth (hd : 0 < env.depth) : Gauge (fun s => s.log.length) env env.depth 0 0 0 :=
  gauge_log hd fun data pe term => .act (fun _ => Nat.le_refl _) fun _ => spends_writeN_log data pe term env.depth

theorem gauge_once (hb : NeverBusy env.reply) : Gauge (fun s => s.log.length) env 1 0 0 0 :=
  gauge_log (Nat.le_refl _) fun data pe term => .act (fun _ => Nat.le_refl _) fun _ => spends_writeN_once hb data pe term env.depth

/-- A write leaves everything but the log and the delay alone. -/
theorem spends_write_free (h : ∀ (s : St) (l : List PyStr) (k : Nat), μ { s with log := l, writeWait := k } = μ s) (data : PyStr) (pe : Bool) (term : PyStr) :
    ∀ d : Nat, Spends μ env (writeN d data pe term) 0
  | 0 => .raise _
  | d + 1 => by
    have ih := spends_write_free h data pe term d
    refine ⟨0, fun s => by have := h s ((data ++ term) :: s.log) s.writeWait; exact Nat.le_of_eq (by simpa using this), fun log => ?_⟩
    cases env.reply ((data ++ term) :: log) with
    | timeout x => exact .raise _
    | lines ls =>
      dsimp only
      cases ls.getLast? with
      | none => exact .raise _
      | some line =>
        refine .ite (fun _ => ?_) fun _ => .pure _
        cases classify line with
        | fine => exact .pure _
        | failed e => exact .raise _
        | busy code => exact .changeThen (fun s => Nat.le_of_eq (h s s.log _)) fun _ => .after ih fun _ => .changeThen (fun s => Nat.le_of_eq (h s s.log _)) fun _ => .pure _

theorem gauge_callbacks : Gauge (fun s => s.callbacks.length) env 0 1 0 0 where
  write data pe term := .act (fun _ => Nat.le_refl _) fun _ => spends_write_free (fun _ _ _ => rfl) data pe term env.depth
  send data := .change fun s => Nat.le_refl _
  callback x := .pay (fun s => Nat.le_refl _) fun _ => .pure _
  record _ s s' _ h _ _ := by show s'.callbacks.length ≤ _; rw [h]; omega
  register _ s s' _ h _ _ := by show s'.callbacks.length ≤ _; rw [h]; omega
  keep s s' _ h _ _ := by show s'.callbacks.length ≤ _; rw [h]

theorem gauge_sent : Gauge (fun s => s.sent.length) env 0 0 1 0 where
  write data pe term := .act (fun _ => Nat.le_refl _) fun _ => spends_write_free (fun _ _ _ => rfl) data pe term env.depth
  send data := .change fun s => Nat.le_refl _
  callback x := .change fun s => Nat.le_refl _
  record _ s s' _ _ h _ := by show s'.sent.length ≤ _; rw [h]; simp
  register _ s s' _ _ h _ := by show s'.sent.length ≤ _; rw [h]; omega
  keep s s' _ _ h _ := by show s'.sent.length ≤ _; rw [h]

theorem gauge_calls : Gauge (fun s => s.calls.length) env 0 0 0 1 where
  write data pe term := .act (fun _ => Nat.le_refl _) fun _ => spends_write_free (fun _ _ _ => rfl) data pe term env.depth
  send data := .change fun s => Nat.le_refl _
  callback x := .change fun s => Nat.le_refl _
  record _ s s' _ _ _ h := by show s'.calls.length ≤ _; rw [h]; omega
  register _ s s' _ _ _ h := by show s'.calls.length ≤ _; rw [h]; simp
  keep s s' _ _ _ h := by show s'.calls.length ≤ _; rw [h]

/-! ### All threads -/

theorem sum_set : ∀ (l : List Nat) (i n m : Nat), l[i]? = some n → (l.set i m).sum + n = l.sum + m
  | [], _, _, _, h => by simp at h
  | x :: l, 0, n, m, h => by simp at h; subst h; simp; omega
  | x :: l, i + 1, n, m, h => by
    have := sum_set l i n m (by simpa using h)
    simp
    omega

theorem step_spends {p : Prog α} {k : Nat} (h : Spends μ env p k) (s : St) : ∃ m, Spends μ env (p.step env s).1 m ∧ μ (p.step env s).2 + m ≤ μ s + k := by
  cases p with
  | done r => exact ⟨k, trivial, Nat.le_refl _⟩
  | io t f => obtain ⟨m, h1, h2⟩ := h; exact ⟨m, h2 _, h1 s⟩
  | act g f => obtain ⟨m, h1, h2⟩ := h; exact ⟨m, h2 s, h1 s⟩

theorem threads_spend : ∀ (sched : List Nat) (threads : List (Prog Unit)) (budget : List Nat) (s : St), budget.length = threads.length →
    (∀ (i : Nat) p k, threads[i]? = some p → budget[i]? = some k → Spends μ env p k) → μ (runThreads env sched (threads, s)).2 ≤ μ s + budget.sum
  | [], _, _, _, _, _ => by simp [runThreads]
  | j :: js, threads, budget, s, hl, h => by
    simp only [runThreads]
    cases hj : threads[j]? with
    | none => exact threads_spend js threads budget s hl h
    | some p =>
      have hlt : j < threads.length := (List.getElem?_eq_some_iff.1 hj).1
      have hk : budget[j]? = some budget[j] := List.getElem?_eq_getElem (by omega)
      obtain ⟨m, h1, h2⟩ := step_spends (h j p _ hj hk) s
      have h3 := threads_spend js (threads.set j (p.step env s).1) (budget.set j m) (p.step env s).2 (by simp [hl]) (by
        intro i q k hq hk'
        by_cases hi : i = j
        · subst hi
          rw [List.getElem?_set_self (by omega)] at hq hk'
          cases hq; cases hk'
          exact h1
        · rw [List.getElem?_set_ne (by omega)] at hq hk'
          exact h i q k hq hk')
      have h4 := sum_set budget j _ m hk
      dsimp only
      omega

theorem activities_spend [PyUnicode] (sched : List Nat) (xs : List Activity) (f : Activity → Nat) (h : ∀ x ∈ xs, Spends μ env x.prog (f x)) (s : St) :
    μ (performActivities env sched xs s).2 ≤ μ s + (xs.map f).sum := by
  refine threads_spend sched (xs.map Activity.prog) (xs.map f) s (by simp) ?_
  intro i p k hp hk
  rw [List.getElem?_map] at hp hk
  cases hx : xs[i]? with
  | none => rw [hx] at hp; cases hp
  | some x =>
    rw [hx] at hp hk
    cases hp; cases hk
    exact h x (List.mem_of_getElem? hx)

/-! ### Every thread comes to its end -/

theorem runThreads_append (env : Env) : ∀ (xs ys : List Nat) (z : List (Prog Unit) × St), runThreads env (xs ++ ys) z = runThreads env ys (runThreads env xs z)
  | [], _, _ => rfl
  | i :: xs, ys, (threads, s) => by
    simp only [List.cons_append, runThreads]
    split
    · exact runThreads_append env xs ys _
    · exact runThreads_append env xs ys _

theorem firstSteps_succ (σ : Nat → Nat) (n : Nat) : firstSteps σ (n + 1) = firstSteps σ n ++ [σ n] := by
  simp [firstSteps, List.range_succ]

theorem run_succ (σ : Nat → Nat) (n : Nat) (z : List (Prog Unit) × St) :
    runThreads env (firstSteps σ (n + 1)) z = runThreads env [σ n] (runThreads env (firstSteps σ n) z) := by
  rw [firstSteps_succ, runThreads_append]

theorem one_step_self {i : Nat} {z : List (Prog Unit) × St} {p : Prog Unit} (h : z.1[i]? = some p) : (runThreads env [i] z).1[i]? = some (p.step env z.2).1 := by
  obtain ⟨threads, s⟩ := z
  dsimp only at h
  simp only [runThreads, h]
  exact List.getElem?_set_self (List.getElem?_eq_some_iff.1 h).1

theorem one_step_other {i j : Nat} (hj : j ≠ i) {z : List (Prog Unit) × St} {p : Prog Unit} (h : z.1[i]? = some p) : (runThreads env [j] z).1[i]? = some p := by
  obtain ⟨threads, s⟩ := z
  dsimp only at h
  simp only [runThreads]
  split
  · exact h
  · dsimp only
    rw [List.getElem?_set_ne hj]
    exact h

/-- When the schedule comes to the thread again, it takes its next step. -/
theorem next_step {σ : Nat → Nat} {i : Nat} {z : List (Prog Unit) × St} {p : Prog Unit} : ∀ (d n : Nat), σ (n + d) = i → (runThreads env (firstSteps σ n) z).1[i]? = some p →
    ∃ m s, n < m ∧ (runThreads env (firstSteps σ m) z).1[i]? = some (p.step env s).1
  | 0, n, hd, h => by
    have h1 := one_step_self (env := env) h
    rw [show i = σ n from hd.symm, ← run_succ σ n z, show σ n = i from hd] at h1
    exact ⟨n + 1, _, by omega, h1⟩
  | d + 1, n, hd, h => by
    by_cases hn : σ n = i
    · have h1 := one_step_self (env := env) h
      rw [show i = σ n from hn.symm, ← run_succ σ n z, hn] at h1
      exact ⟨n + 1, _, by omega, h1⟩
    · have h1 := one_step_other (env := env) hn h
      rw [← run_succ σ n z] at h1
      obtain ⟨m, w, hm, hr⟩ := next_step d (n + 1) (by rw [← hd]; congr 1; omega) h1
      exact ⟨m, w, by omega, hr⟩

/-- A thread that the schedule does not forget comes to its end. -/
theorem comes_to_end {σ : Nat → Nat} {i : Nat} (hf : Fair σ i) (z : List (Prog Unit) × St) (p : Prog Unit) :
    ∀ n, (runThreads env (firstSteps σ n) z).1[i]? = some p → ∃ m r, n ≤ m ∧ (runThreads env (firstSteps σ m) z).1[i]? = some (done r) := by
  have next : ∀ (p : Prog Unit) n, (runThreads env (firstSteps σ n) z).1[i]? = some p → ∃ m s, n < m ∧ (runThreads env (firstSteps σ m) z).1[i]? = some (p.step env s).1 := by
    intro p n h
    obtain ⟨m, h1, h2⟩ := hf n
    exact next_step (m - n) n (by rw [← h2]; congr 1; omega) h
  induction p with
  | done r => exact fun n h => ⟨n, r, Nat.le_refl _, h⟩
  | io t k ih =>
    intro n h
    obtain ⟨m, w, hm, h1⟩ := next _ n h
    obtain ⟨m', r, hm', hr⟩ := ih _ m h1
    exact ⟨m', r, by omega, hr⟩
  | act f k ih =>
    intro n h
    obtain ⟨m, w, hm, h1⟩ := next _ n h
    obtain ⟨m', r, hm', hr⟩ := ih _ _ m h1
    exact ⟨m', r, by omega, hr⟩

/-- What is done stays done. -/
theorem stays_done {σ : Nat → Nat} {i : Nat} {z : List (Prog Unit) × St} {r : Except PyErr Unit} {n : Nat} (h : (runThreads env (firstSteps σ n) z).1[i]? = some (done r)) :
    ∀ d, (runThreads env (firstSteps σ (n + d)) z).1[i]? = some (done r)
  | 0 => h
  | d + 1 => by
    have ih := stays_done h d
    rw [← Nat.add_assoc, run_succ]
    by_cases hi : σ (n + d) = i
    · have := one_step_self (env := env) ih
      rw [hi, this]
      rfl
    · exact one_step_other hi ih

end Prog
end Gsm
