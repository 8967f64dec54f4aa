import Verif.Spec.OwnMode
import Verif.Lemmas.OwnMemory
/-! # Lemmas: the mode in which threads write about messages -/
namespace Gsm
open Spec

/-- The line sets no mode, and is in the form of the mode. -/
def FitsMode (v : Bool) (c : PyStr) : Prop := ¬ SelectsMode c ∧ InForm v c

theorem fits_other {v : Bool} {c : PyStr} (h1 : ¬ py!"AT+CMGF=" <+: c) (h2 : ¬ py!"AT+CMGL=" <+: c) (h3 : ¬ py!"AT+CMGS=" <+: c) : FitsMode v c := by
  refine ⟨?_, ?_⟩
  · rintro (rfl | rfl) <;> exact h1 (by decide)
  · rintro p (rfl | rfl) hp
    · exact absurd hp h2
    · exact absurd hp h3

theorem fits_body {v : Bool} {c : PyStr} : FitsMode v (c ++ [26]) := by
  have h : ¬ [13] <:+ c ++ [26] := fun ⟨t, ht⟩ => by simpa using congrArg List.getLast? ht
  refine ⟨?_, fun p _ _ hx => absurd hx h⟩
  rintro (hx | hx) <;> exact h (hx ▸ by decide)

/-- A listing or an announcement. -/
theorem fits_form {v : Bool} {p c : PyStr} (hp : p = py!"AT+CMGL=" ∨ p = py!"AT+CMGS=") (h : [34] <+: c ↔ v = true) : FitsMode v (p ++ c) := by
  refine ⟨?_, fun q hq hx _ => ?_⟩
  · rcases hp with rfl | rfl <;> (rintro (h | h) <;> simp at h)
  · have : q = p := by rcases hp with rfl | rfl <;> rcases hq with rfl | rfl <;> first | rfl | simp at hx
    subst this
    rw [List.prefix_append_right_inj]
    exact h

theorem dec_unquoted (n : Nat) (l : PyStr) : ¬ [34] <+: decStr n ++ l := by
  have h := decStr_digits n
  cases hd : decStr n with
  | nil => exact absurd hd (decStr_ne_nil n)
  | cons a as =>
    rw [hd] at h
    have ha := h a List.mem_cons_self
    intro hx
    simp at hx
    rw [← hx] at ha
    exact absurd ha (by decide)

theorem int_unquoted (n : Int) (l : PyStr) : ¬ [34] <+: intStr n ++ l := by
  unfold intStr
  split
  · exact dec_unquoted _ _
  · simp

namespace Prog

variable {v : Bool}

/-- As long as the mode is noted, the lines fit it, and it stays noted. -/
def Abides {α : Type} (v : Bool) : Prog α → Prop
  | done _ => True
  | io t k => FitsMode v t ∧ ∀ r, Abides v (k r)
  | act f k => ∀ env s, s.smsTextMode = v → (∃ new, (f env s).log = new ++ s.log ∧ ∀ c ∈ new, FitsMode v c) ∧ (f env s).smsTextMode = v ∧ Abides v (k env s)

theorem ab_pure {α : Type} (a : α) : Abides v (pure a : Prog α) := trivial
theorem ab_raise {α : Type} (e : PyErr) : Abides v (raise e : Prog α) := trivial
theorem ab_ofExcept {α : Type} (r : Except PyErr α) : Abides v (ofExcept r) := trivial
theorem ab_act {α : Type} {f : Limits → St → St} {k : Limits → St → Prog α} (h : ∀ env s, (f env s).log = s.log ∧ (f env s).smsTextMode = s.smsTextMode) (hk : ∀ env s, Abides v (k env s)) :
    Abides v (act f k) := fun env s hs => ⟨⟨[], (h env s).1, by simp⟩, (h env s).2.trans hs, hk env s⟩
theorem ab_state : Abides v look := ab_act (fun _ _ => ⟨rfl, rfl⟩) fun _ _ => trivial
theorem ab_look {α : Type} {f : St → Prog α} (h : ∀ s, s.smsTextMode = v → Abides v (f s)) : Abides v (look >>= f) := fun _ s hs => ⟨⟨[], rfl, by simp⟩, hs, h s hs⟩
theorem ab_change {f : St → St} (h : ∀ s, (f s).log = s.log ∧ (f s).smsTextMode = s.smsTextMode) : Abides v (change f) := ab_act (fun _ => h) fun _ _ => trivial
theorem ab_bind {α β : Type} {p : Prog α} {f : α → Prog β} (h : Abides v p) (hf : ∀ a, Abides v (f a)) : Abides v (p >>= f) := by
  show Abides v (p.bind f)
  induction p with
  | done r => cases r with
    | ok a => exact hf a
    | error e => trivial
  | io t k ih => exact ⟨h.1, fun r => ih r (h.2 r)⟩
  | act g k ih => exact fun env s hs => ⟨(h env s hs).1, (h env s hs).2.1, ih env s (h env s hs).2.2⟩
theorem ab_except {α : Type} {p : Prog α} {c : PyErr → Bool} {g : PyErr → Prog α} (h : Abides v p) (hg : ∀ e, Abides v (g e)) : Abides v (p.except c g) := by
  induction p with
  | done r => cases r with
    | ok a => trivial
    | error e =>
      unfold Prog.except
      split
      · exact hg e
      · trivial
  | io t k ih => exact ⟨h.1, fun r => ih r (h.2 r)⟩
  | act g k ih => exact fun env s hs => ⟨(h env s hs).1, (h env s hs).2.1, ih env s (h env s hs).2.2⟩
theorem ab_ite {α : Type} {c : Prop} [Decidable c] {p p' : Prog α} (h : Abides v p) (h' : Abides v p') : Abides v (if c then p else p') := by split <;> assumption
theorem ab_try {α : Type} {p : Prog α} (h : Abides v p) : Abides v (tryCommand p) := ab_except (ab_bind h fun _ => ab_pure _) fun _ => ab_pure _

theorem ab_writeN {data term : PyStr} {pe : Bool} (h : FitsMode v (data ++ term)) : ∀ n, Abides v (writeN n data pe term)
  | 0 => trivial
  | n + 1 => by
    refine ⟨h, fun r => ?_⟩
    cases r with
    | timeout d => trivial
    | lines ls =>
      dsimp only
      split
      · trivial
      · split
        · split
          · trivial
          · trivial
          · exact ab_bind (ab_change fun _ => ⟨rfl, rfl⟩) fun _ => ab_bind (ab_writeN h n) fun _ => ab_bind (ab_change fun _ => ⟨rfl, rfl⟩) fun _ => ab_pure _
        · trivial
theorem ab_write {data term : PyStr} {pe : Bool} (h : FitsMode v (data ++ term)) : Abides v (write data pe term) := ab_act (fun _ _ => ⟨rfl, rfl⟩) fun _ _ => ab_writeN h _
/-- A command that is neither a listing nor an announcement. -/
theorem ab_other {data : PyStr} (h : ¬ py!"AT+CMGF=" <+: data ++ [13] ∧ ¬ py!"AT+CMGL=" <+: data ++ [13] ∧ ¬ py!"AT+CMGS=" <+: data ++ [13]) : Abides v (write data) :=
  ab_write (fits_other h.1 h.2.1 h.2.2)

macro "abides" : tactic => `(tactic| repeat' first
  | assumption
  | with_reducible exact ab_pure _
  | with_reducible exact ab_raise _
  | with_reducible exact ab_ofExcept _
  | ((with_reducible apply ab_change); intro _; exact ⟨rfl, rfl⟩)
  | with_reducible exact ab_state
  | with_reducible refine ab_bind ?_ fun _ => ?_
  | with_reducible refine ab_ite ?_ ?_
  | with_reducible refine ab_try ?_
  | with_reducible refine ab_except ?_ fun _ => ?_
  | split)

/-! ### Messages -/

theorem ab_memory (m : Option PyStr) : Abides v (setSmsMemory m) := by
  have h1 : ∀ m, Abides v (write (cpmsCmd m)) := fun m => ab_other (by simp [cpmsCmd])
  unfold setSmsMemory; abides
  exact h1 _
theorem ab_read (i : PyStr) (m : Option PyStr) : Abides v (readStoredSms i m) :=
  ab_bind (ab_memory m) fun _ => ab_bind (ab_other (by simp [cmgrCmd])) fun _ => ab_bind ab_state fun _ => ab_ofExcept _
theorem ab_delete (i : PyStr) (m : Option PyStr) : Abides v (deleteStoredSms i m) :=
  ab_bind (ab_memory m) fun _ => ab_bind (ab_other (by simp [cmgdCmd])) fun _ => ab_pure _
theorem ab_deleteMultiple (f : Int) (m : Option PyStr) : Abides v (deleteMultipleStoredSms f m) :=
  ab_ite (ab_bind (ab_memory m) fun _ => ab_bind (ab_other (by simp)) fun _ => ab_pure _) (ab_raise _)
theorem ab_deleteAll : ∀ is : List Int, Abides v (deleteAll is)
  | [] => trivial
  | _ :: is => ab_bind (ab_delete _ _) fun _ => ab_deleteAll is
theorem ab_deleteListed (st : Int) (d : Bool) (is : List Int) : Abides v (deleteListed st d is) :=
  ab_ite (ab_ite (ab_deleteMultiple _ _) (ab_act (fun _ _ => ⟨rfl, rfl⟩) fun _ _ => ab_deleteAll _)) trivial
theorem ab_list (st : Int) (m : Option PyStr) (d : Bool) : Abides v (listStoredSms st m d) := by
  refine ab_bind (ab_memory m) fun _ => ab_look fun s hs => ?_
  cases hl : listCommand s.smsTextMode st with
  | error e => exact ab_raise e
  | ok c =>
    show Abides v (write c >>= fun result => ofExcept (parseListing s.smsTextMode result) >>= fun listing => deleteListed st d listing.delMessages >>= fun _ => pure listing.messages)
    refine ab_bind (ab_write ?_) fun _ => ab_bind (ab_ofExcept _) fun _ => ab_bind (ab_deleteListed _ _ _) fun _ => ab_pure _
    rw [hs] at hl
    unfold listCommand at hl
    split at hl
    · next hv =>
      split at hl
      · cases hl
      · next n _ =>
        cases hl
        have := fits_form (v := v) (c := py!"\"" ++ n ++ py!"\"" ++ [13]) (Or.inl rfl) (by simp [hv])
        simpa using this
    · next hv =>
      cases hl
      have := fits_form (v := v) (c := intStr st ++ [13]) (Or.inl rfl) ⟨fun h => absurd h (int_unquoted _ _), fun h => absurd h hv⟩
      simpa using this
theorem ab_callback (c : Callback) : Abides v (callback c) := ab_change fun _ => ⟨rfl, rfl⟩
theorem ab_received (l : PyStr) : Abides v (handleSmsReceived l) := by
  unfold handleSmsReceived; abides
  all_goals first | exact ab_read _ _ | exact ab_delete _ _ | exact ab_callback _
theorem ab_updateSent (m : Msg) (r d : Int) : Abides v (updateSent m r d) := ab_change fun _ => ⟨rfl, rfl⟩
theorem ab_report (l : PyStr) : Abides v (handleSmsStatusReport l) := by
  unfold handleSmsStatusReport; abides
  all_goals first
    | exact ab_read _ _ | exact ab_delete _ _ | exact ab_callback _ | exact ab_updateSent _ _ _
    | (refine ab_act (fun _ s => by split <;> exact ⟨rfl, rfl⟩) fun _ s => ?_; split <;> first | trivial | exact ab_callback _)
theorem ab_sendPdus (hv : v = false) : ∀ (ps : List Pdu) (r : Option PyStr), Abides v (sendPdus ps r)
  | [], _ => trivial
  | p :: ps, _ => ab_bind (ab_write (by
      have := fits_form (v := v) (c := decStr p.tpduLength ++ [13]) (Or.inr rfl) ⟨fun h => absurd h (dec_unquoted _ _), fun h => by rw [hv] at h; cases h⟩
      simpa using this)) fun _ => ab_bind (ab_write fits_body) fun _ => ab_sendPdus hv ps _
theorem ab_record (d t : PyStr) (r : Int) : Abides v (recordSent d t r) := by
  unfold recordSent; abides
  all_goals exact ab_act (fun _ _ => ⟨rfl, rfl⟩) fun _ _ => trivial

/-! ### Calls -/

theorem ab_ussd (ls : List PyStr) : Abides v (handleUssd ls) := by
  unfold handleUssd; abides
  exact ab_act (fun _ s => by split <;> exact ⟨rfl, rfl⟩) fun _ s => ab_ite trivial trivial
theorem ab_changeCall (i : Nat) (f : CallObj → CallObj) : Abides v (changeCall i f) := ab_change fun _ => ⟨rfl, rfl⟩
theorem ab_setAnswered (i : Nat) (v : Bool) : Abides v (setAnswered i v) := by
  unfold setAnswered; abides
  all_goals first | exact ab_changeCall _ _ | exact ab_callback _
theorem ab_register (c : CallObj) : Abides v (registerCall c) := ab_act (fun _ _ => ⟨rfl, rfl⟩) fun _ _ => trivial
theorem ab_registerNext (c : CallObj) : Abides v (registerNext c) := ab_bind ab_state fun _ => ab_register _
theorem ab_remove (k : Int) : Abides v (removeCall k) := ab_act (fun _ _ => ⟨rfl, rfl⟩) fun _ _ => ab_ite trivial trivial
theorem ab_lookUp (k : Int) : Abides v (lookUp k) := by unfold lookUp; abides
theorem ab_sameSize (n : Nat) : Abides v (sameSize n) := by unfold sameSize; abides
theorem ab_countRing (i : Nat) : Abides v (countRing i) := by
  unfold countRing; abides
  exact ab_changeCall _ _
theorem ab_ringLoop (n : Option PyStr) (size : Nat) : ∀ (l : List (Int × Nat)) (c : Option Nat), Abides v (ringLoop n size l c)
  | [], c => ab_bind (ab_sameSize _) fun _ => trivial
  | (_, i) :: l, c => by
    have h1 := ab_ringLoop n size l
    have h2 := ab_sameSize (v := v) size
    have h3 := ab_countRing (v := v) i
    unfold ringLoop; abides
    all_goals exact h1 _
theorem ab_ringType (l : PyStr) : Abides v (ringType l) := by
  have h1 : Abides v (write py!"AT+CRC=1") := ab_other (by simp)
  unfold ringType; abides
theorem ab_callTypeOf (o : Option PyStr) : Abides v (callTypeOf o) := by cases o <;> (unfold callTypeOf; abides)
theorem ab_newIncoming (a b c : Option PyStr) : Abides v (newIncoming a b c) := by
  unfold newIncoming; abides
  all_goals first | exact ab_callTypeOf _ | exact ab_register _ | exact ab_callback _
theorem ab_incoming : ∀ ls : List PyStr, Abides v (handleIncomingCall ls)
  | [] => trivial
  | l :: ls => by
    have h1 := ab_ringType (v := v) l
    unfold handleIncomingCall; abides
    all_goals first | exact ab_ringLoop _ _ _ _ | exact ab_callback _ | exact ab_newIncoming _ _ _
theorem ab_tellDial (a b : Int) : Abides v (tellDial a b) := by
  unfold tellDial; abides
  exact ab_act (fun _ s => by split <;> exact ⟨rfl, rfl⟩) fun _ s => ab_ite trivial trivial
theorem ab_initiated (a b : Int) : Abides v (handleCallInitiated a b) := by
  have := ab_tellDial (v := v) a b
  unfold handleCallInitiated; abides
theorem ab_firstOutgoing (f : Bool) (size : Nat) : ∀ l : List (Int × Nat), Abides v (firstOutgoing f size l)
  | [] => ab_bind (ab_sameSize _) fun _ => trivial
  | (_, i) :: l => by
    have h1 := ab_firstOutgoing f size l
    exact ab_bind (ab_sameSize _) fun _ => ab_bind ab_state fun _ => ab_ite trivial h1
theorem ab_answered (o : Option Int) : Abides v (handleCallAnswered o) := by
  unfold handleCallAnswered; abides
  all_goals first | exact ab_lookUp _ | exact ab_setAnswered _ _ | exact ab_firstOutgoing _ _ _
theorem ab_endCall (o : Option Int) : Abides v (endCall o) := by
  unfold endCall; abides
  all_goals first | exact ab_lookUp _ | exact ab_setAnswered _ _ | exact ab_changeCall _ _ | exact ab_remove _
theorem ab_ended (c : Option Int) (a b : Bool) : Abides v (handleCallEnded c a b) := by
  unfold handleCallEnded; abides
  all_goals first | exact ab_firstOutgoing _ _ _ | exact ab_endCall _
theorem ab_handler (h : CallHandler) (g : List PyStr) : Abides v (runCallHandler h g) := by
  unfold runCallHandler; abides
  all_goals first | exact ab_tellDial _ _ | exact ab_answered _ | exact ab_ended _ _ _
theorem ab_clcc : Abides v clccQuery := by
  have h1 : Abides v (write py!"AT+CLCC") := ab_other (by simp)
  unfold clccQuery; abides
theorem ab_pollStep (p : Poller) (seen : Option (Int × Int × Int × Int)) : Abides v (pollStep p seen) := by
  unfold pollStep; abides
  all_goals first | exact ab_initiated _ _ | exact ab_answered _ | exact ab_ended _ _ _
theorem ab_hangup (i : Nat) : Abides v (hangup i) := by
  have h1 : Abides v (write py!"ATH") := ab_other (by simp)
  unfold hangup stopRinging hangupActive removeIfThere; abides
  all_goals first | exact ab_changeCall _ _ | exact ab_setAnswered _ _ | exact ab_remove _
theorem ab_answer (i : Nat) : Abides v (answer i) := by
  have h1 : Abides v (write py!"ATA") := ab_other (by simp)
  unfold answer; abides
  all_goals first | exact ab_changeCall _ _ | exact ab_setAnswered _ _
theorem ab_dial (n : PyStr) (cb : Bool) : Abides v (dialNow n cb) := by
  have h0 : FitsMode v (atdCmd n ++ [13]) := fits_other (by simp [atdCmd]) (by simp [atdCmd]) (by simp [atdCmd])
  have h1 : Abides v (write (atdCmd n)) := ab_write h0
  have h2 : Abides v (writeNoWait (atdCmd n)) := fun _ s hs => ⟨⟨[atdCmd n ++ [13]], rfl, fun c hc => by rw [List.mem_singleton.1 hc]; exact h0⟩, hs, trivial⟩
  unfold dialNow; abides
  all_goals exact ab_registerNext _
theorem ab_dtmf (i : Nat) (t : PyStr) : Abides v (sendDtmfTone i t) := by
  unfold sendDtmfTone
  refine ab_bind ab_state fun s => ?_
  split
  · trivial
  · next c _ =>
    refine ab_ite ?_ trivial
    show Abides v ((ofExcept (dtmfCmd (dtmfBase s c) t)).bind _)
    cases hcmd : dtmfCmd (dtmfBase s c) t with
    | error e => exact ab_raise e
    | ok cmd =>
      have : Abides v (write cmd) := ab_other (by
        obtain ⟨r, rfl⟩ := dtmfCmd_prefix hcmd
        unfold dtmfBase
        split <;> simp)
      show Abides v (Prog.except _ _ _)
      abides
theorem ab_poll : ∀ (n : Nat) (p : Poller), Abides v (poll n p)
  | 0, _ => trivial
  | n + 1, p => by
    refine ab_bind ?_ fun p => ab_ite trivial (ab_poll n p)
    have h1 := ab_clcc (v := v)
    unfold pollRound; abides
    all_goals exact ab_pollStep _ _
theorem ab_dispatch (lines : List PyStr) : ∀ rest : List PyStr, Abides v (dispatchLoop lines rest)
  | [] => trivial
  | line :: rest => by
    have h0 := ab_dispatch lines rest
    refine ab_bind ab_state fun s => ?_
    split
    · exact ab_incoming _
    · exact ab_received _
    · exact ab_ussd _
    · exact ab_report _
    · exact ab_handler _ _
    · exact h0

/-! ### Sending, and the mode itself -/

theorem ab_send [PyUnicode] (d t : PyStr) (f : Bool) : Abides v (sendSms d t f) := by
  refine ab_bind ?_ fun r => ?_
  · refine ab_look fun s hs => ?_
    split
    · next hv =>
      refine ab_bind (ab_write ?_) fun _ => ab_bind (ab_write fits_body) fun _ => ab_pure _
      have := fits_form (v := v) (c := py!"\"" ++ d ++ py!"\"" ++ [13]) (Or.inr rfl) (by simp [← hs, hv])
      simpa using this
    · next hv => exact ab_bind ab_state fun _ => ab_bind (ab_ofExcept _) fun ps => ab_sendPdus (by rw [← hs]; simpa using hv) ps _
  · cases r with
    | none => exact ab_raise _
    | some l => exact ab_bind (ab_ofExcept _) fun x => ab_record _ _ _
theorem ab_mode : Abides v (setSmsTextMode v) := ab_look fun s hs => by
  rw [if_neg (by rw [hs]; simp)]
  trivial

end Prog

open Prog

theorem ab_task [PyUnicode] {v : Bool} {x : Task} (hx : OneModeTask v x) : Abides v x.prog := by
  cases x with
  | message x =>
    cases x with
    | read i m => exact ab_bind (ab_read i m) fun _ => trivial
    | delete i m => exact ab_delete i m
    | deleteMultiple f m => exact ab_deleteMultiple f m
    | list st m d => exact ab_bind (ab_list st m d) fun _ => trivial
    | received l => exact ab_received l
    | statusReport l => exact ab_report l
    | send d t f => exact ab_bind (ab_send d t f) fun _ => trivial
    | setTextMode w =>
      obtain rfl : w = v := hx
      exact ab_mode
    | ask c => exact ab_bind (ab_write hx) fun _ => trivial
  | notify lines => exact ab_dispatch _ _
  | poll n p => exact ab_poll n p
  | dial n cb => exact ab_dial n cb
  | answer i => exact ab_answer i
  | hangup i => exact ab_hangup i
  | dtmf i t => exact ab_dtmf i t

/-! ### All threads -/

theorem ab_step {env : Env} {v : Bool} {p : Prog Unit} (h : Abides v p) {s : St} (hs : s.smsTextMode = v) :
    Abides v (p.step env s).1 ∧ (p.step env s).2.smsTextMode = v ∧ ∃ new, (p.step env s).2.log = new ++ s.log ∧ ∀ c ∈ new, FitsMode v c := by
  cases p with
  | done r => exact ⟨h, hs, [], rfl, by simp⟩
  | io t k => exact ⟨h.2 _, hs, [t], rfl, fun c hc => by rw [List.mem_singleton.1 hc]; exact h.1⟩
  | act f k => exact ⟨(h env s hs).2.2, (h env s hs).2.1, (h env s hs).1⟩

theorem ab_threads {env : Env} {v : Bool} : ∀ (schedule : List Nat) (threads : List (Prog Unit)) (s : St), (∀ p ∈ threads, Abides v p) → s.smsTextMode = v →
    (runThreads env schedule (threads, s)).2.smsTextMode = v ∧ ∃ new, (runThreads env schedule (threads, s)).2.log = new ++ s.log ∧ ∀ c ∈ new, FitsMode v c
  | [], _, _, _, hs => ⟨hs, [], rfl, by simp⟩
  | j :: is, threads, s, h, hs => by
    unfold runThreads
    cases hp : threads[j]? with
    | none => exact ab_threads is threads s h hs
    | some p =>
      obtain ⟨h1, h2, new, h3, h4⟩ := ab_step (env := env) (h p (List.mem_of_getElem? hp)) hs
      obtain ⟨h5, new', h6, h7⟩ := ab_threads (env := env) is (threads.set j (p.step env s).1) (p.step env s).2 (fun q hq => by
        rcases List.mem_or_eq_of_mem_set hq with hq | rfl
        · exact h q hq
        · exact h1) h2
      refine ⟨h5, new' ++ new, by rw [h6, h3]; simp, fun c hc => ?_⟩
      rcases List.mem_append.1 hc with hc | hc
      · exact h7 c hc
      · exact h4 c hc

theorem modeInUse_lines {env : Env} {v : Bool} {log : List PyStr} (h : ModeInUse env v log) : ∀ new : List PyStr, (∀ c ∈ new, ¬ SelectsMode c) → ModeInUse env v (new ++ log)
  | [], _ => h
  | c :: new, hn => .there (fun hx => hn c List.mem_cons_self hx.1) (modeInUse_lines h new fun d hd => hn d (List.mem_cons_of_mem _ hd))

end Gsm
