import Verif.Lemmas.Waiting
/-! # Steps that leave the answers for waiting threads alone -/
namespace Gsm
open M Spec

variable {env : Env}

/-- The answers to USSD requests and dialling stay, and so do their events. -/
def Aside (a b : St) : Prop := b.ussdResponse = a.ussdResponse ∧ b.dialResponse = a.dialResponse ∧
  b.ussdSessionEvent = a.ussdSessionEvent ∧ b.dialEvent = a.dialEvent

namespace Prog

abbrev Quiet {α : Type} (env : Env) (p : Prog α) : Prop := Keeps env Always Aside Any p

theorem aside_writes : Writes Always Aside fun _ => True := ⟨fun _ _ => ⟨rfl, rfl, rfl, rfl⟩, fun _ _ _ => ⟨rfl, rfl, rfl, rfl⟩, fun _ _ _ _ => ⟨rfl, rfl, rfl, rfl⟩⟩

theorem aside_stable : Stable env Always Aside (fun _ => True) (fun _ => True) True :=
  { writes := aside_writes
    memory := fun m _ => keeps_select aside_writes trivial fun s _ => ⟨rfl, rfl, rfl, rfl⟩
    read := fun _ => trivial
    delete := fun _ => trivial
    deleteMultiple := fun _ => trivial
    list := fun _ => trivial
    prompt := fun _ => trivial
    text := fun _ => trivial
    mode := fun _ => trivial
    callback := fun s c _ => ⟨rfl, rfl, rfl, rfl⟩
    told := fun s _ => ⟨rfl, rfl, rfl, rfl⟩
    report := fun s st r n t1 t2 d _ => ⟨rfl, rfl, rfl, rfl⟩
    record := fun _ d t r ls l _ _ _ => keeps_record aside_writes (fun s _ => ⟨rfl, rfl, rfl, rfl⟩) (fun s _ => ⟨rfl, rfl, rfl, rfl⟩) fun s _ => ⟨rfl, rfl, rfl, rfl⟩
    textMode := fun s v _ => ⟨rfl, rfl, rfl, rfl⟩ }

theorem quiet_bind {α β : Type} {p : Prog α} {f : α → Prog β} (h : Quiet env p) (hf : ∀ a, Quiet env (f a)) : Quiet env (p >>= f) := keeps_bind h fun a _ => hf a
theorem quiet_look {α : Type} {f : St → Prog α} (hf : ∀ s, Quiet env (f s)) : Quiet env (look >>= f) := keeps_look aside_writes fun s _ => hf s
theorem quiet_lookAt : Quiet env look := fun _ _ => ⟨⟨rfl, rfl, rfl, rfl⟩, trivial⟩
theorem quiet_change {f : St → St} (hf : ∀ s, Aside s (f s)) : Quiet env (change f) := keeps_change fun s _ => hf s
theorem quiet_ofExcept {α : Type} (r : Except PyErr α) : Quiet env (ofExcept r) := any (keeps_ofExcept r)
theorem quiet_write (data term : PyStr) (pe : Bool) : Quiet env (write data pe term) := any (keeps_write aside_writes trivial)
theorem quiet_ite {α : Type} {c : Prop} [Decidable c] {p p' : Prog α} (h : Quiet env p) (h' : Quiet env p') : Quiet env (if c then p else p') := by split <;> assumption

macro "quiet" : tactic => `(tactic| repeat' first
  | trivial
  | with_reducible exact quiet_write _ _ _
  | with_reducible exact quiet_ofExcept _
  | ((with_reducible apply quiet_change); intro _; exact ⟨rfl, rfl, rfl, rfl⟩)
  | with_reducible exact quiet_lookAt
  | with_reducible refine quiet_bind ?_ fun _ => ?_
  | with_reducible refine quiet_ite ?_ ?_
  | split)

theorem quiet_callback (c : Callback) : Quiet env (callback c) := quiet_change fun _ => ⟨rfl, rfl, rfl, rfl⟩
theorem quiet_changeCall (i : Nat) (f : CallObj → CallObj) : Quiet env (changeCall i f) := quiet_change fun _ => ⟨rfl, rfl, rfl, rfl⟩
theorem quiet_setAnswered (i : Nat) (v : Bool) : Quiet env (setAnswered i v) := by
  unfold setAnswered; quiet <;> first | exact quiet_changeCall _ _ | exact quiet_callback _
theorem quiet_register (c : CallObj) : Quiet env (registerCall c) := fun _ _ => ⟨⟨rfl, rfl, rfl, rfl⟩, trivial⟩
theorem quiet_registerNext (c : CallObj) : Quiet env (registerNext c) := quiet_look fun _ => quiet_register _
theorem quiet_remove (k : Int) : Quiet env (removeCall k) := fun _ _ => ⟨⟨rfl, rfl, rfl, rfl⟩, quiet_ite trivial trivial⟩
theorem quiet_lookUp (k : Int) : Quiet env (lookUp k) := by unfold lookUp; quiet
theorem quiet_sameSize (n : Nat) : Quiet env (sameSize n) := by unfold sameSize; quiet
theorem quiet_countRing (i : Nat) : Quiet env (countRing i) := by unfold countRing; quiet <;> exact quiet_changeCall _ _
theorem quiet_ringLoop (n : Option PyStr) (size : Nat) : ∀ is call, Quiet env (ringLoop n size is call)
  | [], _ => quiet_bind (quiet_sameSize size) fun _ => trivial
  | _ :: is, call => by
    have h := fun c => quiet_ringLoop n size is c
    unfold ringLoop; quiet <;> first | exact quiet_sameSize _ | exact quiet_countRing _ | exact h _
theorem quiet_tryCommand {α : Type} {p : Prog α} (h : Quiet env p) : Quiet env (tryCommand p) := keeps_tryCommand h
theorem quiet_ringType (l : PyStr) : Quiet env (ringType l) := by
  unfold ringType; quiet
  exact quiet_tryCommand (quiet_write _ _ _)
theorem quiet_newIncoming (t n ton : Option PyStr) : Quiet env (newIncoming t n ton) :=
  quiet_look fun _ => quiet_bind (keeps_callType t) fun _ => quiet_bind (quiet_register _) fun _ => quiet_callback _
theorem quiet_incoming : ∀ lines, Quiet env (handleIncomingCall lines)
  | [] => trivial
  | _ :: _ => quiet_bind (quiet_ringType _) fun _ => quiet_look fun _ => quiet_look fun _ => quiet_bind (quiet_ringLoop _ _ _ _) fun r => by
    cases r with
    | some i => exact quiet_callback _
    | none => exact quiet_newIncoming _ _ _
theorem quiet_firstOutgoing (f : Bool) (size : Nat) : ∀ is, Quiet env (firstOutgoing f size is)
  | [] => quiet_bind (quiet_sameSize size) fun _ => trivial
  | _ :: is => quiet_bind (quiet_sameSize size) fun _ => quiet_look fun _ => quiet_ite trivial (quiet_firstOutgoing f size is)
theorem quiet_answered : ∀ k, Quiet env (handleCallAnswered k)
  | some k => quiet_bind (quiet_lookUp k) fun _ => quiet_setAnswered _ _
  | none => quiet_look fun _ => quiet_bind (quiet_firstOutgoing _ _ _) fun r => by
    cases r with
    | some i => exact quiet_setAnswered _ _
    | none => trivial
theorem quiet_endCall : ∀ k, Quiet env (endCall k)
  | none => trivial
  | some _ => quiet_ite (quiet_look fun _ => quiet_ite (quiet_bind (quiet_lookUp _) fun _ => quiet_bind (quiet_setAnswered _ _) fun _ =>
      quiet_bind (quiet_lookUp _) fun _ => quiet_bind (quiet_changeCall _ _) fun _ => quiet_remove _) trivial) trivial
theorem quiet_ended (k : Option Int) (search f : Bool) : Quiet env (handleCallEnded k search f) := by
  refine quiet_ite (quiet_look fun _ => quiet_bind (quiet_firstOutgoing _ _ _) fun r => ?_) (quiet_endCall k)
  cases r with
  | none => exact quiet_endCall k
  | some i => exact quiet_look fun _ => quiet_endCall _
theorem quiet_handler {h : CallHandler} (hh : h ≠ .initiated) (g : List PyStr) : Quiet env (runCallHandler h g) := by
  cases h with
  | initiated => exact absurd rfl hh
  | answered =>
    rcases g with _ | ⟨g0, _ | ⟨g1, g⟩⟩
    · exact quiet_answered none
    · exact quiet_answered none
    · exact quiet_bind (quiet_ofExcept _) fun _ => quiet_answered _
  | ended =>
    rcases g with _ | ⟨g0, g⟩
    · exact quiet_ended _ _ _
    · exact quiet_bind (quiet_ofExcept _) fun _ => quiet_ended _ _ _
  | rejected =>
    rcases g with _ | ⟨g0, g⟩
    · exact quiet_ended _ _ _
    · exact quiet_bind (quiet_ofExcept _) fun _ => quiet_ended _ _ _
theorem quiet_clcc : Quiet env clccQuery := by
  refine keeps_except (quiet_bind (quiet_write _ _ _) fun ls => quiet_bind (quiet_ofExcept _) fun l => ?_) fun _ => trivial
  rcases rxGroups clccRegex l with _ | ⟨_ | ⟨a, _ | ⟨b, _ | ⟨c, _ | ⟨d, g⟩⟩⟩⟩⟩ <;> quiet
theorem quiet_pollStep {p : Poller} {r : Option (Int × Int × Int × Int)}
    (h : ∀ cid direction stat type, r = some (cid, direction, stat, type) → ¬ (direction = 0 ∧ p.expectedState = 0 ∧ (stat = 2 ∨ stat = 3))) : Quiet env (pollStep p r) := by
  rcases r with _ | ⟨a, b, c, d⟩
  · unfold pollStep; quiet <;> exact quiet_ended _ _ _
  · have hn := h a b c d rfl
    refine keeps_ite (fun h1 => keeps_ite (fun h2 => keeps_ite (fun h3 => absurd ⟨h1, h2, h3⟩ hn) fun _ => trivial) fun _ => ?_) fun _ => trivial
    quiet
    exact quiet_answered _
theorem quiet_dialNow (n : PyStr) (cb : Bool) : Quiet env (dialNow n cb) := by
  unfold dialNow writeNoWait; quiet <;> exact quiet_registerNext _
theorem quiet_removeIfThere (k : Int) : Quiet env (removeIfThere k) := by unfold removeIfThere; quiet; exact quiet_remove _
theorem quiet_hangup (i : Nat) : Quiet env (hangup i) := by
  unfold hangup hangupActive stopRinging; quiet <;> first | exact quiet_changeCall _ _ | exact quiet_setAnswered _ _ | exact quiet_removeIfThere _
theorem quiet_answer (i : Nat) : Quiet env (answer i) := by
  unfold answer; quiet <;> first | exact quiet_changeCall _ _ | exact quiet_setAnswered _ _
theorem quiet_dtmf (i : Nat) (t : PyStr) : Quiet env (sendDtmfTone i t) := by
  unfold sendDtmfTone; quiet
  exact keeps_except (quiet_bind (quiet_write _ _ _) fun _ => trivial) fun _ => trivial
theorem quiet_method [PyUnicode] (m : Method) : Quiet env m.prog := keeps_method aside_stable (by cases m <;> simp [Method.Uses])

/-- What the tasks that have nothing to do with events do. -/
def Steady (a b : St) : Prop := (b.ussdResponse = a.ussdResponse ∧ b.dialResponse = a.dialResponse) ∧ CallsGrow a b

theorem keeps_and {α : Type} {p : Prog α} (h : Quiet env p) (h' : Keeps env Always CallsGrow Any p) :
    Keeps env Always Steady Any p := by
  induction p with
  | done r =>
    cases r with
    | ok a => trivial
    | error e => trivial
  | io t k ih => exact fun s hs => ⟨⟨⟨(h s hs).1.1, (h s hs).1.2.1⟩, (h' s hs).1⟩, ih _ (h s hs).2 (h' s hs).2⟩
  | act f k ih => exact fun s hs => ⟨⟨⟨(h s hs).1.1, (h s hs).1.2.1⟩, (h' s hs).1⟩, ih _ _ (h s hs).2 (h' s hs).2⟩

end Prog
end Gsm
