import Verif.Spec.AskedThreads
import Verif.Lemmas.Asked
/-! # Lemmas: which lines threads send -/
namespace Gsm
open Spec

variable {P : PyStr → Prop}

/-- Lines of this kind are among them. -/
abbrev MaySend (P : PyStr → Prop) (k : Purpose) : Prop := ∀ c, k.Of c → P c

namespace Prog

/-- Whatever happens, the lines that are still sent are of these. -/
def Emits {α : Type} (P : PyStr → Prop) : Prog α → Prop
  | done _ => True
  | io t k => P t ∧ ∀ r, Emits P (k r)
  | act f k => (∀ env s, ∃ new, (f env s).log = new ++ s.log ∧ ∀ c ∈ new, P c) ∧ ∀ env s, Emits P (k env s)

theorem emits_pure {α : Type} (a : α) : Emits P (pure a : Prog α) := trivial
theorem emits_raise {α : Type} (e : PyErr) : Emits P (raise e : Prog α) := trivial
theorem emits_ofExcept {α : Type} (r : Except PyErr α) : Emits P (ofExcept r) := trivial
theorem emits_same {α : Type} {f : Limits → St → St} {k : Limits → St → Prog α} (h : ∀ env s, (f env s).log = s.log) (hk : ∀ env s, Emits P (k env s)) : Emits P (act f k) :=
  ⟨fun env s => ⟨[], by simp [h], by simp⟩, hk⟩
theorem emits_look : Emits P look := emits_same (fun _ _ => rfl) fun _ _ => trivial
theorem emits_change {f : St → St} (h : ∀ s, (f s).log = s.log) : Emits P (change f) := emits_same (fun _ => h) fun _ _ => trivial
theorem emits_bind {α β : Type} {p : Prog α} {f : α → Prog β} (h : Emits P p) (hf : ∀ a, Emits P (f a)) : Emits P (p >>= f) := by
  show Emits P (p.bind f)
  induction p with
  | done r => cases r with
    | ok a => exact hf a
    | error e => trivial
  | io t k ih => exact ⟨h.1, fun r => ih r (h.2 r)⟩
  | act g k ih => exact ⟨h.1, fun env s => ih env s (h.2 env s)⟩
theorem emits_except {α : Type} {p : Prog α} {c : PyErr → Bool} {g : PyErr → Prog α} (h : Emits P p) (hg : ∀ e, Emits P (g e)) : Emits P (p.except c g) := by
  induction p with
  | done r => cases r with
    | ok a => trivial
    | error e =>
      unfold Prog.except
      split
      · exact hg e
      · trivial
  | io t k ih => exact ⟨h.1, fun r => ih r (h.2 r)⟩
  | act f k ih => exact ⟨h.1, fun env s => ih env s (h.2 env s)⟩
theorem emits_ite {α : Type} {c : Prop} [Decidable c] {p p' : Prog α} (h : Emits P p) (h' : Emits P p') : Emits P (if c then p else p') := by split <;> assumption
theorem emits_tryCommand {α : Type} {p : Prog α} (h : Emits P p) : Emits P (tryCommand p) :=
  emits_except (emits_bind h fun _ => emits_pure _) fun _ => emits_pure _

theorem emits_writeN {data term : PyStr} {pe : Bool} (h : P (data ++ term)) : ∀ n, Emits P (writeN n data pe term)
  | 0 => trivial
  | n + 1 => by
    refine ⟨h, fun r => ?_⟩
    cases r with
    | timeout d => trivial
    | lines ls =>
      dsimp only
      split
      · trivial
      · split
        · split
          · trivial
          · trivial
          · exact emits_bind (emits_change fun _ => rfl) fun _ => emits_bind (emits_writeN h n) fun _ => emits_bind (emits_change fun _ => rfl) fun _ => emits_pure _
        · trivial
theorem emits_write {data term : PyStr} {pe : Bool} (h : P (data ++ term)) : Emits P (write data pe term) := emits_same (fun _ _ => rfl) fun _ _ => emits_writeN h _
theorem emits_writeNoWait {data : PyStr} (h : P (data ++ [13])) : Emits P (writeNoWait data) :=
  ⟨fun _ s => ⟨[data ++ [13]], rfl, fun c hc => by rw [List.mem_singleton.1 hc]; exact h⟩, fun _ _ => trivial⟩

macro "emits" : tactic => `(tactic| repeat' first
  | assumption
  | with_reducible exact emits_pure _
  | with_reducible exact emits_raise _
  | with_reducible exact emits_ofExcept _
  | ((with_reducible apply emits_change); intro _; rfl)
  | with_reducible exact emits_look
  | with_reducible refine emits_bind ?_ fun _ => ?_
  | with_reducible refine emits_ite ?_ ?_
  | with_reducible refine emits_tryCommand ?_
  | with_reducible refine emits_except ?_ fun _ => ?_
  | split)

/-! ### Messages -/

theorem em_memory (h : MaySend P .memory) (m : Option PyStr) : Emits P (setSmsMemory m) := by
  have h1 : ∀ m, Emits P (write (cpmsCmd m)) := fun m => emits_write (h _ (by
    have := kind_of (k := .memory) (p := py!"AT+CPMS=") (rest := (cpmsCmd m).drop 8) (by decide) (by decide)
    simpa [cpmsCmd] using this))
  unfold setSmsMemory; emits
  all_goals exact h1 _
theorem em_noMemory : Emits P (setSmsMemory none) := by unfold setSmsMemory; emits
theorem em_read (h : MaySend P .memory) (h' : MaySend P .fetch) (i : PyStr) (m : Option PyStr) : Emits P (readStoredSms i m) := by
  have h1 := em_memory h m
  have h2 : Emits P (write (cmgrCmd i)) := emits_write (h' _ (by
    have := kind_of (k := .fetch) (p := py!"AT+CMGR=") (rest := (cmgrCmd i).drop 8) (by decide) (by decide)
    simpa [cmgrCmd] using this))
  unfold readStoredSms; emits
theorem em_erase (h' : MaySend P .erase) (i : PyStr) : Emits P (write (cmgdCmd i)) := emits_write (h' _ (by
  have := kind_of (k := .erase) (p := py!"AT+CMGD=") (rest := (cmgdCmd i).drop 8) (by decide) (by decide)
  simpa [cmgdCmd] using this))
theorem em_delete (h : MaySend P .memory) (h' : MaySend P .erase) (i : PyStr) (m : Option PyStr) : Emits P (deleteStoredSms i m) := by
  have h1 := em_memory h m
  have h2 := em_erase h' i
  unfold deleteStoredSms; emits
theorem em_deleteHere (h' : MaySend P .erase) (i : PyStr) : Emits P (deleteStoredSms i none) := by
  have h1 := em_noMemory (P := P)
  have h2 := em_erase h' i
  unfold deleteStoredSms; emits
theorem em_flag (h' : MaySend P .erase) (f : Int) : Emits P (write (py!"AT+CMGD=1," ++ intStr f)) := emits_write (h' _ (by
  have := kind_of (k := .erase) (p := py!"AT+CMGD=") (rest := py!"1," ++ intStr f) (by decide) (by decide)
  simpa using this))
theorem em_deleteMultiple (h : MaySend P .memory) (h' : MaySend P .erase) (f : Int) (m : Option PyStr) : Emits P (deleteMultipleStoredSms f m) := by
  have h1 := em_memory h m
  have h2 := em_flag h' f
  unfold deleteMultipleStoredSms; emits
theorem em_deleteMultipleHere (h' : MaySend P .erase) (f : Int) : Emits P (deleteMultipleStoredSms f none) := by
  have h1 := em_noMemory (P := P)
  have h2 := em_flag h' f
  unfold deleteMultipleStoredSms; emits
theorem em_deleteAll (h' : MaySend P .erase) : ∀ l : List Int, Emits P (deleteAll l)
  | [] => trivial
  | i :: l => emits_bind (em_deleteHere h' _) fun _ => em_deleteAll h' l
theorem em_deleteListed (st : Int) (d : Bool) (l : List Int) (hd : d = true → MaySend P .erase) : Emits P (deleteListed st d l) := by
  unfold deleteListed
  split
  · next h =>
    split
    · exact em_deleteMultipleHere (hd h) 4
    · exact emits_same (fun _ _ => rfl) fun _ _ => em_deleteAll (hd h) _
  · trivial
theorem em_list (hm : MaySend P .memory) (hl : MaySend P .list) (st : Int) (m : Option PyStr) (d : Bool) (hd : d = true → MaySend P .erase) :
    Emits P (listStoredSms st m d) := by
  have h1 := em_memory hm m
  have h2 : ∀ l, Emits P (deleteListed st d l) := fun l => em_deleteListed st d l hd
  have hc : ∀ t c, listCommand t st = .ok c → Emits P (write c) := by
    intro t c hc
    refine emits_write (hl _ ?_)
    unfold listCommand at hc
    split at hc
    · split at hc
      · cases hc
      · next n _ =>
        cases hc
        have := kind_of (k := .list) (p := py!"AT+CMGL=") (rest := py!"\"" ++ (n ++ py!"\"")) (by decide) (by decide)
        simpa using this
    · cases hc
      exact kind_of (k := .list) (by decide) (by decide)
  unfold listStoredSms
  refine emits_bind h1 fun _ => emits_bind emits_look fun s => ?_
  show Emits P ((ofExcept (listCommand s.smsTextMode st)).bind _)
  cases hcmd : listCommand s.smsTextMode st with
  | error e => trivial
  | ok c =>
    show Emits P (write c >>= _)
    have := hc _ _ hcmd
    emits
    exact h2 _
theorem em_callback (c : Callback) : Emits P (callback c) := emits_change fun _ => rfl
theorem em_received (hm : MaySend P .memory) (hf : MaySend P .fetch) (he : MaySend P .erase) (l : PyStr) : Emits P (handleSmsReceived l) := by
  have h1 := fun i m => em_read hm hf i m
  have h2 := fun i => em_deleteHere he i
  unfold handleSmsReceived; emits
  all_goals first | exact h1 _ _ | exact h2 _ | exact em_callback _
theorem em_updateSent (m : Msg) (r d : Int) : Emits P (updateSent m r d) := emits_change fun _ => rfl
theorem em_report (hm : MaySend P .memory) (hf : MaySend P .fetch) (he : MaySend P .erase) (l : PyStr) : Emits P (handleSmsStatusReport l) := by
  have h1 := fun i m => em_read hm hf i m
  have h2 := fun i => em_deleteHere he i
  unfold handleSmsStatusReport; emits
  all_goals first
    | exact h1 _ _ | exact h2 _ | exact em_callback _ | exact em_updateSent _ _ _
    | (refine emits_same (fun _ s => by split <;> rfl) fun _ s => ?_; split <;> first | trivial | exact em_callback _)
theorem em_sendPdus (hp : MaySend P .post) (hb : MaySend P .body) : ∀ (ps : List Pdu) (r : Option PyStr), Emits P (sendPdus ps r)
  | [], _ => trivial
  | p :: ps, _ => by
    have h0 := fun r => em_sendPdus hp hb ps r
    have h1 : Emits P (write (py!"AT+CMGS=" ++ decStr p.tpduLength)) := emits_write (hp _ (kind_of (k := .post) (by decide) (by decide)))
    have h2 : Emits P (write (pduHex p.data) true [26]) := emits_write (hb _ (by simp [Purpose.Of]))
    unfold sendPdus; emits
    exact h0 _
theorem em_record (d t : PyStr) (r : Int) : Emits P (recordSent d t r) := by
  unfold recordSent; emits
  all_goals exact emits_same (fun _ _ => rfl) fun _ _ => trivial
theorem em_send [PyUnicode] (hp : MaySend P .post) (hb : MaySend P .body) (d t : PyStr) (f : Bool) : Emits P (sendSms d t f) := by
  have h1 : Emits P (write (py!"AT+CMGS=\"" ++ d ++ py!"\"")) := emits_write (hp _ (by
    have := kind_of (k := .post) (p := py!"AT+CMGS=") (rest := py!"\"" ++ (d ++ py!"\"")) (by decide) (by decide)
    simpa using this))
  have h2 : Emits P (write t true [26]) := emits_write (hb _ (by simp [Purpose.Of]))
  unfold sendSms sendAll sendFinish; emits
  all_goals first | exact em_sendPdus hp hb _ _ | exact em_record _ _ _
theorem em_mode (h : MaySend P .mode) (v : Bool) : Emits P (setSmsTextMode v) := by
  have h1 : Emits P (write (py!"AT+CMGF=" ++ (if v then py!"1" else py!"0"))) := emits_write (h _ (by cases v <;> decide +kernel))
  unfold setSmsTextMode; emits

/-! ### Calls -/

theorem em_ussd (ls : List PyStr) : Emits P (handleUssd ls) := by
  unfold handleUssd; emits
  exact emits_same (fun _ s => by split <;> rfl) fun _ s => emits_ite trivial trivial
theorem em_changeCall (i : Nat) (f : CallObj → CallObj) : Emits P (changeCall i f) := emits_change fun _ => rfl
theorem em_setAnswered (i : Nat) (v : Bool) : Emits P (setAnswered i v) := by
  unfold setAnswered; emits
  all_goals first | exact em_changeCall _ _ | exact em_callback _
theorem em_register (c : CallObj) : Emits P (registerCall c) := emits_same (fun _ _ => rfl) fun _ _ => trivial
theorem em_registerNext (c : CallObj) : Emits P (registerNext c) := emits_bind emits_look fun _ => em_register _
theorem em_remove (k : Int) : Emits P (removeCall k) := emits_same (fun _ _ => rfl) fun _ _ => emits_ite trivial trivial
theorem em_lookUp (k : Int) : Emits P (lookUp k) := by unfold lookUp; emits
theorem em_sameSize (n : Nat) : Emits P (sameSize n) := by unfold sameSize; emits
theorem em_countRing (i : Nat) : Emits P (countRing i) := by
  unfold countRing; emits
  exact em_changeCall _ _
theorem em_ringLoop (n : Option PyStr) (size : Nat) : ∀ (l : List (Int × Nat)) (c : Option Nat), Emits P (ringLoop n size l c)
  | [], c => emits_bind (em_sameSize _) fun _ => trivial
  | (_, i) :: l, c => by
    have h1 := em_ringLoop n size l
    have h2 := em_sameSize (P := P) size
    have h3 := em_countRing (P := P) i
    unfold ringLoop; emits
    all_goals exact h1 _
theorem em_ringType (h : MaySend P .ringType) (l : PyStr) : Emits P (ringType l) := by
  have h1 : Emits P (write py!"AT+CRC=1") := emits_write (h _ (by decide +kernel))
  unfold ringType; emits
theorem em_callTypeOf (o : Option PyStr) : Emits P (callTypeOf o) := by cases o <;> (unfold callTypeOf; emits)
theorem em_newIncoming (a b c : Option PyStr) : Emits P (newIncoming a b c) := by
  unfold newIncoming; emits
  all_goals first | exact em_callTypeOf _ | exact em_register _ | exact em_callback _
theorem em_incoming (h : MaySend P .ringType) : ∀ ls : List PyStr, Emits P (handleIncomingCall ls)
  | [] => trivial
  | l :: ls => by
    have h1 := em_ringType h l
    unfold handleIncomingCall; emits
    all_goals first | exact em_ringLoop _ _ _ _ | exact em_callback _ | exact em_newIncoming _ _ _
theorem em_tellDial (a b : Int) : Emits P (tellDial a b) := by
  unfold tellDial; emits
  exact emits_same (fun _ s => by split <;> rfl) fun _ s => emits_ite trivial trivial
theorem em_initiated (a b : Int) : Emits P (handleCallInitiated a b) := by
  have := em_tellDial (P := P) a b
  unfold handleCallInitiated; emits
theorem em_firstOutgoing (f : Bool) (size : Nat) : ∀ l : List (Int × Nat), Emits P (firstOutgoing f size l)
  | [] => emits_bind (em_sameSize _) fun _ => trivial
  | (_, i) :: l => by
    have h1 := em_firstOutgoing f size l
    exact emits_bind (em_sameSize _) fun _ => emits_bind emits_look fun _ => emits_ite trivial h1
theorem em_answered (o : Option Int) : Emits P (handleCallAnswered o) := by
  unfold handleCallAnswered; emits
  all_goals first | exact em_lookUp _ | exact em_setAnswered _ _ | exact em_firstOutgoing _ _ _
theorem em_endCall (o : Option Int) : Emits P (endCall o) := by
  unfold endCall; emits
  all_goals first | exact em_lookUp _ | exact em_setAnswered _ _ | exact em_changeCall _ _ | exact em_remove _
theorem em_ended (c : Option Int) (a b : Bool) : Emits P (handleCallEnded c a b) := by
  unfold handleCallEnded; emits
  all_goals first | exact em_firstOutgoing _ _ _ | exact em_endCall _
theorem em_handler (h : CallHandler) (g : List PyStr) : Emits P (runCallHandler h g) := by
  unfold runCallHandler; emits
  all_goals first | exact em_tellDial _ _ | exact em_answered _ | exact em_ended _ _ _
theorem em_clcc (h : MaySend P .ask) : Emits P clccQuery := by
  have h1 : Emits P (write py!"AT+CLCC") := emits_write (h _ (by decide +kernel))
  unfold clccQuery; emits
theorem em_pollStep (p : Poller) (seen : Option (Int × Int × Int × Int)) : Emits P (pollStep p seen) := by
  unfold pollStep; emits
  all_goals first | exact em_initiated _ _ | exact em_answered _ | exact em_ended _ _ _
theorem em_atd (hk : MaySend P .dial) (n : PyStr) : P (atdCmd n ++ [13]) := hk _ (by
  have := kind_of (k := .dial) (p := py!"ATD") (rest := (atdCmd n).drop 3) (by decide) (by decide)
  simpa [atdCmd] using this)
theorem em_dial (hk : MaySend P .dial) (n : PyStr) (cb : Bool) : Emits P (dialNow n cb) := by
  have h1 : Emits P (write (atdCmd n)) := emits_write (em_atd hk n)
  have h2 := emits_writeNoWait (em_atd hk n)
  unfold dialNow; emits
  all_goals exact em_registerNext _
theorem em_hangup (h : MaySend P .hangUp) (i : Nat) : Emits P (hangup i) := by
  have h1 : Emits P (write py!"ATH") := emits_write (h _ (by decide +kernel))
  unfold hangup stopRinging hangupActive removeIfThere; emits
  all_goals first | exact em_changeCall _ _ | exact em_setAnswered _ _ | exact em_remove _
theorem em_answer (h : MaySend P .answer) (i : Nat) : Emits P (answer i) := by
  have h1 : Emits P (write py!"ATA") := emits_write (h _ (by decide +kernel))
  unfold answer; emits
  all_goals first | exact em_changeCall _ _ | exact em_setAnswered _ _
theorem em_dtmf (h : MaySend P .tones) (i : Nat) (t : PyStr) : Emits P (sendDtmfTone i t) := by
  unfold sendDtmfTone
  refine emits_bind emits_look fun s => ?_
  split
  · trivial
  · next c _ =>
    refine emits_ite ?_ trivial
    show Emits P ((ofExcept (dtmfCmd (dtmfBase s c) t)).bind _)
    cases hcmd : dtmfCmd (dtmfBase s c) t with
    | error e => trivial
    | ok cmd =>
      have : Emits P (write cmd) := emits_write (h _ (by
        obtain ⟨r, rfl⟩ := dtmfCmd_prefix hcmd
        unfold dtmfBase
        split
        · have := kind_of (k := .tones) (p := py!"AT^DTMF=") (rest := intStr c.id ++ (py!"," ++ r)) (by decide) (by decide)
          simpa using this
        · have := kind_of (k := .tones) (p := py!"AT+VTS=") (rest := r) (by decide) (by decide)
          simpa using this))
      show Emits P (Prog.except _ _ _)
      emits

theorem em_method [PyUnicode] (m : Method) (hm : ∀ k ∈ methodMay m, MaySend P k) (ha : ∀ c, m = .ask c → P (c ++ [13])) : Emits P m.prog := by
  cases m with
  | read i m => exact emits_bind (em_read (hm _ (by simp [methodMay])) (hm _ (by simp [methodMay])) i m) fun _ => trivial
  | delete i m => exact em_delete (hm _ (by simp [methodMay])) (hm _ (by simp [methodMay])) i m
  | deleteMultiple f m => exact em_deleteMultiple (hm _ (by simp [methodMay])) (hm _ (by simp [methodMay])) f m
  | list st m d =>
    refine emits_bind (em_list (hm _ ?_) (hm _ ?_) st m d fun hd => hm _ ?_) fun _ => trivial
    · cases d <;> simp [methodMay]
    · cases d <;> simp [methodMay]
    · simp [methodMay, hd]
  | received l => exact em_received (hm _ (by simp [methodMay])) (hm _ (by simp [methodMay])) (hm _ (by simp [methodMay])) l
  | statusReport l => exact em_report (hm _ (by simp [methodMay])) (hm _ (by simp [methodMay])) (hm _ (by simp [methodMay])) l
  | send d t f => exact emits_bind (em_send (hm _ (by simp [methodMay])) (hm _ (by simp [methodMay])) d t f) fun _ => trivial
  | setTextMode v => exact em_mode (hm _ (by simp [methodMay])) v
  | ask c => exact emits_bind (emits_write (ha c rfl)) fun _ => trivial

end Prog

/-! ### Threads that wait -/

namespace Proc

/-- The same for threads that wait. -/
def Emits {α : Type} (P : PyStr → Prop) : Proc α → Prop
  | done _ => True
  | io t k => P t ∧ ∀ r, Emits P (k r)
  | act f k => (∀ env w, ∃ new, (f env w).st.log = new ++ w.st.log ∧ ∀ c ∈ new, P c) ∧ ∀ env w, Emits P (k env w)

theorem emits_pure {α : Type} (a : α) : Emits P (pure a : Proc α) := trivial
theorem emits_raise {α : Type} (e : PyErr) : Emits P (raise e : Proc α) := trivial
theorem emits_ofExcept {α : Type} (r : Except PyErr α) : Emits P (ofExcept r) := trivial
theorem emits_change {f : Shared → Shared} (h : ∀ w, (f w).st.log = w.st.log) : Emits P (change f) := ⟨fun _ w => ⟨[], by simp [h], by simp⟩, fun _ _ => trivial⟩
theorem emits_changeSt {f : St → St} (h : ∀ s, (f s).log = s.log) : Emits P (changeSt f) := emits_change fun w => h w.st
theorem emits_look : Emits P look := ⟨fun _ w => ⟨[], rfl, by simp⟩, fun _ _ => trivial⟩
theorem emits_bind {α β : Type} {p : Proc α} {f : α → Proc β} (h : Emits P p) (hf : ∀ a, Emits P (f a)) : Emits P (p >>= f) := by
  show Emits P (p.bind f)
  induction p with
  | done r => cases r with
    | ok a => exact hf a
    | error e => trivial
  | io t k ih => exact ⟨h.1, fun r => ih r (h.2 r)⟩
  | act g k ih => exact ⟨h.1, fun env s => ih env s (h.2 env s)⟩
theorem emits_onError {α : Type} {p : Proc α} {g : Proc Unit} (h : Emits P p) (hg : Emits P g) : Emits P (p.onError g) := by
  induction p with
  | done r => cases r with
    | ok a => trivial
    | error e => exact emits_bind hg fun _ => trivial
  | io t k ih => exact ⟨h.1, fun r => ih r (h.2 r)⟩
  | act f k ih => exact ⟨h.1, fun env s => ih env s (h.2 env s)⟩
theorem emits_ite {α : Type} {c : Prop} [Decidable c] {p p' : Proc α} (h : Emits P p) (h' : Emits P p') : Emits P (if c then p else p') := by split <;> assumption
theorem emits_lift {α : Type} {p : Prog α} (h : p.Emits P) : Emits P (lift p) := by
  induction p with
  | done r => trivial
  | io t k ih => exact ⟨h.1, fun r => ih r (h.2 r)⟩
  | act f k ih => exact ⟨fun env w => h.1 env w.st, fun env w => ih env w.st (h.2 env w.st)⟩

theorem withEvent_log (s : St) (x : Slot) (b : Option Bool) : (s.withEvent x b).log = s.log := by cases x <;> rfl
theorem emits_create (x : Slot) : Emits P (change fun w => w.create x) := emits_change fun w => withEvent_log _ _ _
theorem emits_forget (x : Slot) : Emits P (change fun w => w.forget x) := emits_change fun w => withEvent_log _ _ _

macro "emitsAll" : tactic => `(tactic| repeat' first
  | assumption
  | with_reducible exact emits_pure _
  | with_reducible exact emits_raise _
  | with_reducible exact emits_ofExcept _
  | with_reducible exact emits_create _
  | with_reducible exact emits_forget _
  | ((with_reducible apply emits_changeSt); intro _; rfl)
  | with_reducible exact emits_look
  | with_reducible refine emits_bind ?_ fun _ => ?_
  | with_reducible refine emits_ite ?_ ?_
  | with_reducible refine emits_onError ?_ ?_
  | with_reducible refine emits_lift ?_
  | split)

theorem eo_eventOf (x : Slot) : Emits P (eventOf x) := by unfold eventOf; emitsAll
theorem eo_wait (x : Slot) : Emits P (wait x) := by
  have := eo_eventOf (P := P) x
  unfold wait; emitsAll
theorem eo_set (x : Slot) : Emits P (set x) := by
  refine emits_bind (eo_eventOf x) fun e => emits_change fun w => ?_
  show (if w.attr x = some e then w.st.withEvent x (some true) else w.st).log = w.st.log
  split
  · exact withEvent_log _ _ _
  · rfl
theorem eo_handleUssd (ls : List PyStr) : Emits P (handleUssd ls) := by
  have := eo_set (P := P) .ussd
  unfold handleUssd; emitsAll
theorem eo_report (hm : MaySend P .memory) (hf : MaySend P .fetch) (he : MaySend P .erase) (l : PyStr) : Emits P (handleSmsStatusReport l) := by
  have h0 := eo_set (P := P) .report
  unfold handleSmsStatusReport; emitsAll
  all_goals first | exact Prog.em_read hm hf _ _ | exact Prog.em_deleteHere he _ | exact Prog.em_updateSent _ _ _ | exact Prog.em_callback _
theorem eo_tellDial (a b : Int) : Emits P (tellDial a b) := by
  have := eo_set (P := P) .dial
  unfold tellDial; emitsAll
theorem eo_initiatedGroups (g : List PyStr) : Emits P (handleInitiatedGroups g) := by
  unfold handleInitiatedGroups; emitsAll
  all_goals exact eo_tellDial _ _
theorem eo_initiated (a b : Int) : Emits P (handleCallInitiated a b) := by
  have := eo_tellDial (P := P) a b
  unfold handleCallInitiated; emitsAll
theorem eo_dispatch (hr : MaySend P .ringType) (hm : MaySend P .memory) (hf : MaySend P .fetch) (he : MaySend P .erase) (all : List PyStr) : ∀ ls : List PyStr, Emits P (dispatchLoop all ls)
  | [] => trivial
  | l :: ls => by
    have h0 := eo_dispatch hr hm hf he all ls
    unfold dispatchLoop; emitsAll
    all_goals first
      | exact Prog.em_incoming hr _ | exact Prog.em_received hm hf he _ | exact eo_handleUssd _ | exact eo_report hm hf he _ | exact eo_initiatedGroups _ | exact Prog.em_handler _ _
theorem eo_pollStep (p : Poller) (seen : Option (Int × Int × Int × Int)) : Emits P (pollStep p seen) := by
  unfold pollStep; emitsAll
  all_goals first | exact eo_initiated _ _ | exact Prog.em_pollStep _ _
theorem eo_pollRound (h : MaySend P .ask) (p : Poller) : Emits P (pollRound p) := by
  have h1 := Prog.em_clcc h
  unfold pollRound; emitsAll
  all_goals exact eo_pollStep _ _
theorem eo_poll (h : MaySend P .ask) : ∀ (n : Nat) (p : Poller), Emits P (poll n p)
  | 0, _ => trivial
  | n + 1, p => emits_bind (eo_pollRound h p) fun p => emits_ite trivial (eo_poll h n p)
theorem eo_awaitUssd (ls : List PyStr) : Emits P (awaitUssd ls) := by
  have := eo_wait (P := P) .ussd
  unfold awaitUssd; emitsAll
theorem eo_ussd (h : MaySend P .ussd) (x : PyStr) : Emits P (sendUssd x) := by
  have h2 : Prog.Emits P (Prog.write (cusdCmd x)) := Prog.emits_write (h _ (by
    have := kind_of (k := .ussd) (p := py!"AT+CUSD=1") (rest := (cusdCmd x).drop 9) (by decide) (by decide)
    simpa [cusdCmd] using this))
  unfold sendUssd; emitsAll
  exact eo_awaitUssd _
theorem eo_dial (h : MaySend P .dial) (n : PyStr) (t : Nat) (cb : Bool) : Emits P (dialWait n t cb) := by
  have h1 : Prog.Emits P (writeAtd n) :=
    Prog.emits_bind Prog.emits_look fun _ => Prog.emits_ite (Prog.emits_bind (Prog.emits_write (Prog.em_atd h n)) fun _ => trivial) (Prog.emits_writeNoWait (Prog.em_atd h n))
  have h2 := eo_wait (P := P) .dial
  unfold dialWait awaitDial; emitsAll
  all_goals exact Prog.em_register _
theorem eo_sendWait [PyUnicode] (hp : MaySend P .post) (hb : MaySend P .body) (d t : PyStr) (f : Bool) : Emits P (sendSmsWait d t f) := by
  have h1 := Prog.em_send hp hb d t f
  have h2 := eo_wait (P := P) .report
  unfold sendSmsWait awaitReport; emitsAll

theorem eo_task [PyUnicode] (x : Task) (hm : ∀ k ∈ taskMay x, MaySend P k) (ha : ∀ c, x = .message (.ask c) → P (c ++ [13])) : Emits P x.proc := by
  cases x with
  | message m =>
    have h := fun (h : ∀ k ∈ methodMay m, MaySend P k) => Prog.em_method m h fun c hc => ha c (by rw [hc])
    cases m with
    | statusReport l => exact eo_report (hm _ (by simp [taskMay, methodMay])) (hm _ (by simp [taskMay, methodMay])) (hm _ (by simp [taskMay, methodMay])) l
    | _ => exact emits_lift (h hm)
  | notify ls => exact eo_dispatch (hm _ (by simp [taskMay])) (hm _ (by simp [taskMay])) (hm _ (by simp [taskMay])) (hm _ (by simp [taskMay])) ls ls
  | poll n p => exact eo_poll (hm _ (by simp [taskMay])) n p
  | dial n cb => exact emits_lift (Prog.em_dial (hm _ (by simp [taskMay])) n cb)
  | answer i => exact emits_lift (Prog.em_answer (hm _ (by simp [taskMay])) i)
  | hangup i => exact emits_lift (Prog.em_hangup (hm _ (by simp [taskMay])) i)
  | dtmf i t => exact emits_lift (Prog.em_dtmf (hm _ (by simp [taskMay])) i t)

theorem eo_job [PyUnicode] (j : Job) : Emits (JobLine j) j.proc := by
  have h : ∀ k ∈ jobMay j, MaySend (JobLine j) k := fun k hk c hc => .inl ⟨k, hk, hc⟩
  cases j with
  | task x => exact emits_bind (eo_task x h fun c hc => .inr ⟨c, by rw [hc], rfl⟩) fun _ => trivial
  | ussd x => exact emits_bind (eo_ussd (h _ (by simp [jobMay])) x) fun _ => trivial
  | dial n t cb => exact emits_bind (eo_dial (h _ (by simp [jobMay])) n t cb) fun _ => trivial
  | sendWait d t f => exact emits_bind (eo_sendWait (h _ (by simp [jobMay])) (h _ (by simp [jobMay])) d t f) fun _ => trivial

/-- A step sends lines of the thread, and leaves the thread with such. -/
theorem emits_step {α : Type} (env : Env) {p : Proc α} (h : Emits P p) (w : Shared) : Emits P (p.step env w).1 ∧ ∃ new, (p.step env w).2.st.log = new ++ w.st.log ∧ ∀ c ∈ new, P c := by
  cases p with
  | done r => exact ⟨trivial, [], rfl, by simp⟩
  | io t k => exact ⟨h.2 _, [t], rfl, by simpa using h.1⟩
  | act f k => exact ⟨h.2 _ _, h.1 _ _⟩

end Proc

/-- Threads that take steps, each with its lines. -/
theorem emits_procs (env : Env) {Q : Nat → PyStr → Prop} : ∀ (schedule : List Nat) (threads : List (Proc Value)) (w : Shared), (∀ (i : Nat) (p : Proc Value), threads[i]? = some p → p.Emits (Q i)) →
    ∃ sent, (runProcs env schedule (threads, w)).2.st.log = sent ++ w.st.log ∧ ∀ c ∈ sent, ∃ i ∈ schedule, Q i c
  | [], _, w, _ => ⟨[], rfl, by simp⟩
  | i :: is, threads, w, h => by
    unfold runProcs
    split
    · obtain ⟨sent, h1, h2⟩ := emits_procs env is threads w h
      exact ⟨sent, h1, fun c hc => (h2 c hc).imp fun j hj => ⟨List.mem_cons_of_mem _ hj.1, hj.2⟩⟩
    · next p hp =>
      obtain ⟨h3, new, h4, h5⟩ := Proc.emits_step env (h i p hp) w
      obtain ⟨sent, h1, h2⟩ := emits_procs env is (threads.set i (p.step env w).1) (p.step env w).2 (fun j q hq => by
        rw [List.getElem?_set] at hq
        split at hq
        · next e =>
          split at hq
          · cases hq; exact e ▸ h3
          · cases hq
        · exact h j q hq)
      refine ⟨sent ++ new, by rw [h1, h4, List.append_assoc], fun c hc => ?_⟩
      rcases List.mem_append.1 hc with hc | hc
      · exact (h2 c hc).imp fun j hj => ⟨List.mem_cons_of_mem _ hj.1, hj.2⟩
      · exact ⟨i, List.mem_cons_self, h5 c hc⟩

end Gsm
