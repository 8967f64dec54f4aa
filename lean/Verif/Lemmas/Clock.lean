import Verif.Spec.Clock
import Verif.Lemmas.Commands
import Verif.Lemmas.Threads
import Verif.Lemmas.ThreadCalls
/-! # The time that methods take -/
namespace Gsm
open Spec

theorem nap_eq (w : Nat) : nap w = 100 * w := by unfold nap; split <;> omega

namespace Prog

variable {env : Env} {wait : List PyStr → Nat} {α β : Type}

theorem elapsed_bind (p : Prog α) (f : α → Prog β) (s : St) :
    elapsed env wait (p >>= f) s = elapsed env wait p s + (match run env p s with | (.ok a, s') => elapsed env wait (f a) s' | (.error _, _) => 0) := by
  show elapsed env wait (p.bind f) s = _
  induction p generalizing s with
  | done r => cases r <;> simp [bind, elapsed, run]
  | io t k ih => simp only [bind, elapsed, run]; rw [ih]; omega
  | act g k ih => simp only [bind, elapsed, run]; rw [ih]; omega

theorem elapsed_raise (w : Nat) (f : St → St) (s : St) (h : ∀ s, f s = { s with writeWait := w }) (hw : w ≤ 1) :
    elapsed env wait (change f) s = 0 := by
  simp only [change, elapsed, actTime, h]
  rw [if_neg (by omega), if_neg (by omega)]
  rfl

/-- The steps take the time that the method takes, line by line. -/
theorem timedWriteN_eq : ∀ (depth : Nat) (data : PyStr) (pe : Bool) (term : PyStr) (s : St),
    timedWriteN env wait depth data pe term s = (run env (writeN depth data pe term) s, elapsed env wait (writeN depth data pe term) s)
  | 0, _, _, _, _ => rfl
  | depth + 1, data, pe, term, s => by
    simp only [timedWriteN, writeN, run, elapsed, pauseAfter]
    cases hr : env.reply ((data ++ term) :: s.log) with
    | timeout d => rfl
    | lines ls =>
      dsimp only
      cases hl : ls.getLast? with
      | none => rfl
      | some line =>
        dsimp only
        cases pe with
        | false => rfl
        | true =>
          simp only [if_true]
          cases classify line with
          | fine => rfl
          | failed e => rfl
          | busy code =>
            dsimp only
            rw [timedWriteN_eq depth, run_bind, elapsed_bind, same_change, run_modify]
            dsimp only
            rw [run_bind, elapsed_bind]
            have h1 : elapsed env wait (change fun s => { s with writeWait := s.writeWait + 2 }) { s with log := (data ++ term) :: s.log } = nap (s.writeWait + 2) := by
              simp only [change, elapsed, actTime]
              rw [if_neg (by omega), if_pos (by omega)]
              simp
              rfl
            rw [h1]
            rcases run env (writeN depth data true term) _ with ⟨e | r, s'⟩
            · simp only; congr 1; omega
            · have h2 : ∀ s : St, elapsed env wait (do
                  change fun s => { s with writeWait := if code = 515 then 1 else 0 }
                  pure r : Prog (List PyStr)) s = 0 := by
                intro s
                rw [elapsed_bind, elapsed_raise (if code = 515 then 1 else 0) _ s (fun _ => rfl) (by split <;> omega), same_change, run_modify]
                rfl
              dsimp only
              rw [h2]
              simp only [run_bind, same_change, run_modify]
              refine Prod.ext rfl ?_
              dsimp only
              omega

/-! ### Walking through the methods -/

/-- What is true of all methods if it is true of their steps; of the change of the mode only if `M`. -/
structure Closed (P : ∀ {α : Type}, Prog α → Prop) (M : Prop) : Prop where
  done : ∀ {α : Type} (r : Except PyErr α), P (Prog.done r)
  act : ∀ {α : Type} (f : Limits → St → St) (k : Limits → St → Prog α),
    (∀ env s, (f env s).log = s.log ∧ (f env s).writeWait = s.writeWait ∧ (f env s).smsTextMode = s.smsTextMode) → (∀ env s, P (k env s)) → P (Prog.act f k)
  bind : ∀ {α β : Type} {p : Prog α} {f : α → Prog β}, P p → (∀ a, P (f a)) → P (p >>= f)
  write : ∀ (data : PyStr) (pe : Bool) (term : PyStr), P (write data pe term)
  mode : M → ∀ v : Bool, P (change fun s => { s with smsTextMode := v })
  except : ∀ {α : Type} {p : Prog α} {c : PyErr → Bool} {h : PyErr → Prog α}, (∀ d, c (.timeout d) = false) → P p → (∀ e, P (h e)) → P (except p c h)

section walk
variable {P : ∀ {α : Type}, Prog α → Prop} {M : Prop} (C : Closed P M)
include C

theorem walk_pure (a : α) : P (pure a : Prog α) := C.done (.ok a)
theorem walk_raise (e : PyErr) : P (raise e : Prog α) := C.done (.error e)
theorem walk_ofExcept (r : Except PyErr α) : P (ofExcept r) := C.done r
theorem walk_look : P look := C.act _ _ (fun _ _ => ⟨rfl, rfl, rfl⟩) fun _ _ => walk_pure C _
theorem walk_change {f : St → St} (h : ∀ s, (f s).log = s.log ∧ (f s).writeWait = s.writeWait ∧ (f s).smsTextMode = s.smsTextMode) : P (change f) := C.act _ _ (fun _ => h) fun _ _ => walk_pure C _
theorem walk_ite {c : Prop} [Decidable c] {p q : Prog α} (hp : P p) (hq : P q) : P (if c then p else q) := by split <;> assumption
theorem walk_tryCommand {p : Prog α} (h : P p) : P (tryCommand p) :=
  C.except (fun _ => rfl) (C.bind h fun _ => walk_pure C _) fun _ => walk_pure C _

/-- Straight through a method. -/
macro "walks " C:term : tactic => `(tactic| repeat' first
  | assumption
  | with_reducible exact walk_pure $C _
  | with_reducible exact walk_raise $C _
  | with_reducible exact walk_ofExcept $C _
  | with_reducible exact walk_look $C
  | with_reducible exact Closed.write $C _ _ _
  | (with_reducible apply walk_change $C; intro s; first | exact ⟨rfl, rfl, rfl⟩ | (split <;> exact ⟨rfl, rfl, rfl⟩))
  | (with_reducible apply Closed.bind $C; rotate_left; intro _; rotate_left)
  | with_reducible apply walk_tryCommand $C
  | with_reducible apply walk_ite $C
  | (with_reducible refine Closed.act $C _ _ (fun _ s => ?_) (fun _ s => ?_); (first | exact ⟨rfl, rfl, rfl⟩ | (split <;> exact ⟨rfl, rfl, rfl⟩)))
  | dsimp only
  | split)

theorem walk_memory (m : Option PyStr) : P (setSmsMemory m) := by unfold setSmsMemory; walks C
theorem walk_read (i : PyStr) (m : Option PyStr) : P (readStoredSms i m) := by
  unfold readStoredSms
  have := walk_memory C m
  walks C
theorem walk_delete (i : PyStr) (m : Option PyStr) : P (deleteStoredSms i m) := by
  unfold deleteStoredSms
  have := walk_memory C m
  walks C
theorem walk_deleteMultiple (f : Int) (m : Option PyStr) : P (deleteMultipleStoredSms f m) := by
  unfold deleteMultipleStoredSms
  have := walk_memory C m
  walks C
theorem walk_deleteAll : ∀ is, P (deleteAll is)
  | [] => walk_pure C _
  | i :: is => C.bind (walk_delete C _ _) fun _ => walk_deleteAll is
theorem walk_deleteListed (st : Int) (d : Bool) (is : List Int) : P (deleteListed st d is) := by
  unfold deleteListed
  have h1 := walk_deleteMultiple C 4 none
  have h2 := walk_deleteAll C
  refine walk_ite C (walk_ite C h1 (C.act _ _ (fun _ _ => ⟨rfl, rfl, rfl⟩) fun _ _ => h2 _)) (walk_pure C _)
theorem walk_list (st : Int) (m : Option PyStr) (d : Bool) : P (listStoredSms st m d) := by
  unfold listStoredSms
  have h1 := walk_memory C m
  have h2 := walk_deleteListed C
  refine C.bind h1 fun _ => C.bind (walk_look C) fun _ => C.bind (walk_ofExcept C _) fun _ => C.bind (C.write _ _ _) fun _ => C.bind (walk_ofExcept C _) fun _ => C.bind (h2 _ _ _) fun _ => walk_pure C _
theorem walk_callback (c : Callback) : P (callback c) := walk_change C fun _ => ⟨rfl, rfl, rfl⟩
theorem walk_received (l : PyStr) : P (handleSmsReceived l) := by
  unfold handleSmsReceived
  split
  · exact C.bind (walk_read C _ _) fun _ => C.bind (walk_delete C _ _) fun _ => walk_callback C _
  · exact walk_pure C _
theorem walk_statusReport (l : PyStr) : P (handleSmsStatusReport l) := by
  unfold handleSmsStatusReport
  split
  · refine C.bind (walk_read C _ _) fun r => C.bind (walk_delete C _ _) fun _ => ?_
    cases r with
    | received => exact walk_raise C _
    | report =>
      refine C.bind (walk_change C fun _ => ⟨rfl, rfl, rfl⟩) fun _ => C.act _ _ (fun _ s => ?_) fun _ s => walk_ite C (walk_pure C _) (walk_callback C _)
      split <;> exact ⟨rfl, rfl, rfl⟩
  · exact walk_pure C _
theorem walk_sendPdus : ∀ (ps : List Pdu) (r : Option PyStr), P (sendPdus ps r)
  | [], _ => walk_pure C _
  | _ :: ps, _ => C.bind (C.write _ _ _) fun _ => C.bind (C.write _ _ _) fun _ => walk_sendPdus ps _
theorem walk_record (d t : PyStr) (r : Int) : P (recordSent d t r) := by
  unfold recordSent
  walks C
theorem walk_send [PyUnicode] (d t : PyStr) (f : Bool) : P (sendSms d t f) := by
  have h1 := walk_sendPdus C
  have h2 := walk_record C
  unfold sendSms
  refine C.bind ?_ fun r => ?_
  · unfold sendAll
    refine C.bind (walk_look C) fun s => walk_ite C ?_ ?_
    · exact C.bind (C.write _ _ _) fun _ => C.bind (C.write _ _ _) fun _ => walk_pure C _
    · exact C.bind (walk_look C) fun _ => C.bind (walk_ofExcept C _) fun _ => h1 _ _
  · cases r with
    | none => exact walk_raise C _
    | some r => exact C.bind (walk_ofExcept C _) fun _ => h2 _ _ _
theorem walk_textMode (hm : M) (v : Bool) : P (setSmsTextMode v) := by
  have := C.mode hm v
  unfold setSmsTextMode
  walks C
theorem walk_method [PyUnicode] (m : Method) (hm : (∃ v, m = .setTextMode v) → M) : P m.prog := by
  cases m with
  | read i m => exact C.bind (walk_read C _ _) fun _ => walk_pure C _
  | delete i m => exact walk_delete C _ _
  | deleteMultiple f m => exact walk_deleteMultiple C _ _
  | list st m d => exact C.bind (walk_list C _ _ _) fun _ => walk_pure C _
  | received l => exact walk_received C _
  | statusReport l => exact walk_statusReport C _
  | send d t f => exact C.bind (walk_send C _ _ _) fun _ => walk_pure C _
  | setTextMode v => exact walk_textMode C (hm ⟨v, rfl⟩) _
  | ask c => exact C.bind (C.write _ _ _) fun _ => walk_pure C _

theorem walk_ussd (ls : List PyStr) : P (handleUssd ls) := by unfold handleUssd; walks C
theorem walk_changeCall (i : Nat) (f : CallObj → CallObj) : P (changeCall i f) := walk_change C fun _ => ⟨rfl, rfl, rfl⟩
theorem walk_setAnswered (i : Nat) (v : Bool) : P (setAnswered i v) := by
  have h1 := walk_changeCall C
  have h2 := walk_callback C
  unfold setAnswered
  refine C.bind (h1 _ _) fun _ => C.bind (walk_look C) fun s => ?_
  split
  · exact walk_ite C (h2 _) (walk_pure C _)
  · exact walk_pure C _
theorem walk_register (c : CallObj) : P (registerCall c) := C.act _ _ (fun _ _ => ⟨rfl, rfl, rfl⟩) fun _ _ => walk_pure C _
theorem walk_registerNext (c : CallObj) : P (registerNext c) := C.bind (walk_look C) fun _ => walk_register C _
theorem walk_remove (k : Int) : P (removeCall k) := C.act _ _ (fun _ _ => ⟨rfl, rfl, rfl⟩) fun _ _ => walk_ite C (walk_pure C _) (walk_raise C _)
theorem walk_lookUp (k : Int) : P (lookUp k) := by unfold lookUp; walks C
theorem walk_sameSize (n : Nat) : P (sameSize n) := by unfold sameSize; walks C
theorem walk_countRing (i : Nat) : P (countRing i) := by
  refine C.bind (walk_look C) fun s => ?_
  split
  · exact walk_changeCall C _ _
  · exact walk_pure C _
theorem walk_ringLoop (cn : Option PyStr) (n : Nat) : ∀ (l : List (Int × Nat)) (r : Option Nat), P (ringLoop cn n l r)
  | [], _ => C.bind (walk_sameSize C _) fun _ => walk_pure C _
  | (_, i) :: l, _ => by
    refine C.bind (walk_sameSize C _) fun _ => C.bind (walk_look C) fun s => ?_
    split
    · exact walk_ite C (walk_ite C (C.bind (walk_countRing C _) fun _ => walk_ringLoop cn n l _) (walk_raise C _)) (walk_ringLoop cn n l _)
    · exact walk_ringLoop cn n l _
theorem walk_ringType (l : PyStr) : P (ringType l) := by unfold ringType; walks C
theorem walk_incoming (ls : List PyStr) : P (handleIncomingCall ls) := by
  cases ls with
  | nil => exact walk_raise C _
  | cons l ls =>
    refine C.bind (walk_ringType C _) fun ct => C.bind (walk_look C) fun s => C.bind (walk_look C) fun s' => C.bind (walk_ringLoop C _ _ _ _) fun r => ?_
    cases r with
    | some i => exact walk_callback C _
    | none =>
      refine C.bind (walk_look C) fun s => C.bind ?_ fun ty => C.bind (walk_register C _) fun _ => walk_callback C _
      cases ct with
      | none => exact walk_pure C _
      | some t => exact walk_ite C (walk_pure C _) (walk_raise C _)
theorem walk_tellDial (a b : Int) : P (tellDial a b) := by unfold tellDial; walks C
theorem walk_initiated (a b : Int) : P (handleCallInitiated a b) := by
  have := walk_tellDial C
  exact C.bind (walk_look C) fun _ => walk_ite C (this _ _) (walk_pure C _)
theorem walk_firstOutgoing (u : Bool) (n : Nat) : ∀ l : List (Int × Nat), P (firstOutgoing u n l)
  | [] => C.bind (walk_sameSize C _) fun _ => walk_pure C _
  | (_, _) :: l => C.bind (walk_sameSize C _) fun _ => C.bind (walk_look C) fun _ => walk_ite C (walk_pure C _) (walk_firstOutgoing u n l)
theorem walk_answered (k : Option Int) : P (handleCallAnswered k) := by
  cases k with
  | some k => exact C.bind (walk_lookUp C _) fun _ => walk_setAnswered C _ _
  | none =>
    refine C.bind (walk_look C) fun _ => C.bind (walk_firstOutgoing C _ _ _) fun r => ?_
    cases r with
    | some i => exact walk_setAnswered C _ _
    | none => exact walk_pure C _
theorem walk_endCall (k : Option Int) : P (endCall k) := by
  cases k with
  | none => exact walk_pure C _
  | some k =>
    refine walk_ite C (C.bind (walk_look C) fun _ => walk_ite C ?_ (walk_pure C _)) (walk_pure C _)
    exact C.bind (walk_lookUp C _) fun _ => C.bind (walk_setAnswered C _ _) fun _ => C.bind (walk_lookUp C _) fun _ => C.bind (walk_changeCall C _ _) fun _ => walk_remove C _
theorem walk_ended (k : Option Int) (x y : Bool) : P (handleCallEnded k x y) := by
  refine walk_ite C (C.bind (walk_look C) fun _ => C.bind (walk_firstOutgoing C _ _ _) fun r => ?_) (walk_endCall C _)
  cases r with
  | some i => exact C.bind (walk_look C) fun _ => walk_endCall C _
  | none => exact walk_endCall C _
theorem walk_handler (h : CallHandler) (g : List PyStr) : P (runCallHandler h g) := by
  have h1 := walk_tellDial C
  have h2 := walk_answered C
  have h3 := walk_ended C
  unfold runCallHandler
  split
  · refine C.bind (walk_look C) fun _ => walk_ite C ?_ (walk_pure C _)
    split
    · exact C.bind (walk_ofExcept C _) fun _ => C.bind (walk_ofExcept C _) fun _ => h1 _ _
    · exact C.bind (walk_ofExcept C _) fun _ => h1 _ _
    · exact walk_raise C _
  · split
    · exact C.bind (walk_ofExcept C _) fun _ => h2 _
    · exact h2 _
  · split
    · exact C.bind (walk_ofExcept C _) fun _ => h3 _ _ _
    · exact h3 _ _ _
  · split
    · exact C.bind (walk_ofExcept C _) fun _ => h3 _ _ _
    · exact h3 _ _ _
theorem walk_dispatch (all : List PyStr) : ∀ ls : List PyStr, P (dispatchLoop all ls)
  | [] => walk_pure C _
  | l :: ls => by
    refine C.bind (walk_look C) fun _ => ?_
    split
    · exact walk_incoming C _
    · exact walk_received C _
    · exact walk_ussd C _
    · exact walk_statusReport C _
    · exact walk_handler C _ _
    · exact walk_dispatch all ls
theorem walk_pollStep (p : Poller) (r : Option (Int × Int × Int × Int)) : P (pollStep p r) := by
  have h1 := walk_initiated C
  have h2 := walk_answered C
  have h3 := walk_ended C
  unfold pollStep
  split
  · exact walk_ite C (walk_ite C (walk_ite C (C.bind (h1 _ _) fun _ => walk_pure C _) (walk_pure C _))
      (walk_ite C (walk_ite C (C.bind (h2 _) fun _ => walk_pure C _) (walk_pure C _)) (walk_pure C _))) (walk_pure C _)
  · exact walk_ite C (C.bind (h3 _ _ _) fun _ => walk_pure C _) (walk_ite C (C.bind (h3 _ _ _) fun _ => walk_pure C _) (walk_pure C _))
theorem walk_poll (hq : P clccQuery) : ∀ (n : Nat) (p : Poller), P (poll n p)
  | 0, _ => walk_pure C _
  | n + 1, p => C.bind (C.bind (walk_look C) fun _ => walk_ite C (C.bind hq fun _ => walk_pollStep C _ _) (walk_pure C _)) fun _ => walk_ite C (walk_pure C _) (walk_poll hq n _)
theorem walk_dial (hq : ∀ data, P (writeNoWait data)) (n : PyStr) (cb : Bool) : P (dialNow n cb) := by
  have h := walk_registerNext C
  refine C.bind (walk_look C) fun _ => ?_
  dsimp only
  split
  · exact C.bind (C.write _ _ _) fun _ => C.bind (h _) fun _ => walk_pure C _
  · exact C.bind (hq _) fun _ => C.bind (h _) fun _ => walk_pure C _
theorem walk_hangup (i : Nat) : P (hangup i) := by
  refine C.bind (walk_changeCall C _ _) fun _ => C.bind (walk_look C) fun s => ?_
  split
  · exact walk_pure C _
  · refine C.bind (walk_ite C (C.bind (C.write _ _ _) fun _ => C.bind (walk_setAnswered C _ _) fun _ => walk_changeCall C _ _) (walk_pure C _)) fun _ => ?_
    exact C.bind (walk_look C) fun _ => walk_ite C (walk_remove C _) (walk_pure C _)
theorem walk_answer (i : Nat) : P (answer i) := by
  refine C.bind (walk_look C) fun s => ?_
  split
  · exact walk_pure C _
  · exact walk_ite C (C.bind (C.write _ _ _) fun _ => C.bind (walk_changeCall C _ _) fun _ => walk_setAnswered C _ _) (walk_pure C _)
theorem walk_dtmf (i : Nat) (t : PyStr) : P (sendDtmfTone i t) := by
  refine C.bind (walk_look C) fun s => ?_
  split
  · exact walk_pure C _
  · exact walk_ite C (C.bind (walk_ofExcept C _) fun _ => C.except (fun _ => rfl) (C.bind (C.write _ _ _) fun _ => walk_pure C _) fun _ => walk_raise C _) (walk_raise C _)

/-- All tasks, apart from what is special in two of them. -/
theorem walk_task [PyUnicode] (t : Task) (hm : (∃ v, t = .message (.setTextMode v)) → M) (hq : (∃ n p, t = .poll n p) → P clccQuery) (hn : (∃ n c, t = .dial n c) → ∀ data, P (writeNoWait data)) : P t.prog := by
  cases t with
  | message m => exact walk_method C m fun ⟨v, h⟩ => hm ⟨v, by rw [h]⟩
  | notify ls => exact walk_dispatch C _ _
  | poll n p => exact walk_poll C (hq ⟨n, p, rfl⟩) n p
  | dial n c => exact walk_dial C (hn ⟨n, c, rfl⟩) n c
  | answer i => exact walk_answer C i
  | hangup i => exact walk_hangup C i
  | dtmf i t => exact walk_dtmf C i t
end walk

end Prog
end Gsm
