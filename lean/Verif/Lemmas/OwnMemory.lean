import Verif.Spec.OwnMemory
import Verif.Lemmas.ThreadTrace
import Verif.Props.Threads
/-! # Lemmas: the memory in which a thread reads and deletes -/
namespace Gsm
open Spec

namespace Prog

variable {m : PyStr} {claim : Prop}

/-- The thread chooses no memory but `m`, notes it only after it was chosen, and, if it claims so, uses the memory only when it knows that `m` is chosen; what it knows at its end. -/
def Heeds {α : Type} (m : PyStr) (claim : Prop) : Prop → Prop → Prog α → Prop
  | known, post, done r => ∀ a, r = .ok a → post → known
  | known, post, io t k => (claim → UsesMemory t → known) ∧ (SelectsMemory t → t = memoryCmd m) ∧ ∀ r, Heeds m claim (known ∨ t = memoryCmd m ∧ SaysYes r) post (k r)
  | known, post, act f k => (∀ env s, (∃ new, (f env s).log = new ++ s.log ∧ ∀ c ∈ new, ¬ SelectsMemory c ∧ ¬ UsesMemory c) ∧
        ((f env s).smsMemReadDelete = s.smsMemReadDelete ∨ known ∧ (f env s).smsMemReadDelete = some m)) ∧
      ∀ env s, Heeds m claim (known ∨ s.smsMemReadDelete = some m) post (k env s)

theorem heeds_more {α : Type} {p : Prog α} {known known' post : Prop} (h : Heeds m claim known post p) (hk : known → known') : Heeds m claim known' post p := by
  induction p generalizing known known' with
  | done r => exact fun a ha hp => hk (h a ha hp)
  | io t k ih => exact ⟨fun hc hu => hk (h.1 hc hu), h.2.1, fun r => ih r (h.2.2 r) (Or.imp_left hk)⟩
  | act f k ih => exact ⟨fun env s => ⟨(h.1 env s).1, (h.1 env s).2.imp_right fun hx => ⟨hk hx.1, hx.2⟩⟩, fun env s => ih env s (h.2 env s) (Or.imp_left hk)⟩

theorem heeds_bind {α β : Type} {p : Prog α} {f : α → Prog β} {known mid post : Prop} (h : Heeds m claim known mid p) (hf : ∀ a, Heeds m claim mid post (f a)) :
    Heeds m claim known post (p >>= f) := by
  show Heeds m claim known post (p.bind f)
  induction p generalizing known with
  | done r => cases r with
    | ok a => exact heeds_more (hf a) (h a rfl)
    | error e => exact fun a ha => by cases ha
  | io t k ih => exact ⟨h.1, h.2.1, fun r => ih r (h.2.2 r)⟩
  | act g k ih => exact ⟨h.1, fun env s => ih env s (h.2 env s)⟩

theorem heeds_less {α : Type} {p : Prog α} {known post post' : Prop} (h : Heeds m claim known post p) (hp : post' → post) : Heeds m claim known post' p := by
  induction p generalizing known with
  | done r => exact fun a ha hq => h a ha (hp hq)
  | io t k ih => exact ⟨h.1, h.2.1, fun r => ih r (h.2.2 r)⟩
  | act f k ih => exact ⟨h.1, fun env s => ih env s (h.2 env s)⟩

variable {known : Prop}

theorem heeds_pure {α : Type} (a : α) : Heeds m claim known known (pure a : Prog α) := fun _ _ h => h
theorem heeds_raise {α : Type} {post : Prop} (e : PyErr) : Heeds m claim known post (raise e : Prog α) := nofun
theorem heeds_ofExcept {α : Type} (r : Except PyErr α) : Heeds m claim known known (ofExcept r) := fun _ _ h => h

/-- A step that sends nothing. -/
theorem silent {s s' : St} (h : s'.log = s.log) : ∃ new, s'.log = new ++ s.log ∧ ∀ c ∈ new, ¬ SelectsMemory c ∧ ¬ UsesMemory c := ⟨[], h, by simp⟩

theorem heeds_change {f : St → St} (h : ∀ s, (f s).log = s.log ∧ (f s).smsMemReadDelete = s.smsMemReadDelete) : Heeds m claim known known (change f) :=
  ⟨fun _ s => ⟨silent (h s).1, Or.inl (h s).2⟩, fun _ _ _ _ => Or.inl⟩

theorem heeds_look {α : Type} {post : Prop} {f : St → Prog α} (hf : ∀ s : St, Heeds m claim (known ∨ s.smsMemReadDelete = some m) post (f s)) : Heeds m claim known post (look >>= f) :=
  ⟨fun _ _ => ⟨silent rfl, Or.inl rfl⟩, fun _ s => hf s⟩

theorem heeds_see {α : Type} {post : Prop} {f : St → Prog α} (hf : ∀ s, Heeds m claim known post (f s)) : Heeds m claim known post (look >>= f) :=
  heeds_look fun s => heeds_more (hf s) Or.inl

theorem heeds_ite {α : Type} {post : Prop} {c : Prop} [Decidable c] {p q : Prog α} (hp : c → Heeds m claim known post p) (hq : ¬ c → Heeds m claim known post q) :
    Heeds m claim known post (if c then p else q) := by
  split
  · exact hp ‹_›
  · exact hq ‹_›

theorem heeds_writeN {data term : PyStr} : ∀ (depth : Nat) {known : Prop}, (claim → UsesMemory (data ++ term) → known) → (SelectsMemory (data ++ term) → data ++ term = memoryCmd m) →
    Heeds m claim known (known ∨ data ++ term = memoryCmd m) (writeN depth data true term)
  | 0, _, _, _ => nofun
  | depth + 1, known, hu, hs => by
    refine ⟨hu, hs, fun r => ?_⟩
    cases r with
    | timeout d => exact heeds_raise _
    | lines ls =>
      dsimp only
      cases hl : ls.getLast? with
      | none => exact heeds_raise _
      | some line =>
        simp only [if_true]
        cases hc : classify line with
        | fine =>
          have hf := classify_fine.1 hc
          exact fun _ _ h => h.imp_right fun he => ⟨he, ls, line, rfl, hl, hf.1, hf.2⟩
        | failed e => exact heeds_raise _
        | busy code =>
          dsimp only
          refine heeds_more (known := known) ?_ Or.inl
          exact heeds_bind (heeds_change fun _ => ⟨rfl, rfl⟩) fun _ => heeds_bind (heeds_writeN depth hu hs) fun _ => heeds_bind (heeds_change fun _ => ⟨rfl, rfl⟩) fun _ => heeds_pure _

theorem heeds_write {data term : PyStr} (hu : claim → UsesMemory (data ++ term) → known) (hs : SelectsMemory (data ++ term) → data ++ term = memoryCmd m) :
    Heeds m claim known (known ∨ data ++ term = memoryCmd m) (write data true term) :=
  ⟨fun _ _ => ⟨silent rfl, Or.inl rfl⟩, fun env _ => heeds_more (heeds_writeN env.depth hu hs) Or.inl⟩

/-- A command that selects no memory. -/
theorem heeds_command {data term : PyStr} (hu : claim → UsesMemory (data ++ term) → known) (hs : ¬ SelectsMemory (data ++ term)) : Heeds m claim known known (write data true term) :=
  heeds_less (heeds_write hu fun h => absurd h hs) Or.inl

theorem heeds_memory {mem : Option PyStr} (hm : mem = none ∨ mem = some m) : Heeds m claim known (known ∨ mem = some m) (setSmsMemory mem) := by
  rcases hm with rfl | rfl
  · exact heeds_less (heeds_pure ()) fun h => h.resolve_right nofun
  · refine heeds_look fun s => heeds_ite (fun _ => ?_) fun h => ?_
    · have hc : cpmsCmd m ++ [13] = memoryCmd m := by simp [cpmsCmd, memoryCmd]
      have hu : ¬ UsesMemory (cpmsCmd m ++ [13]) := by
        rintro (⟨t, ht⟩ | ⟨t, ht⟩ | ⟨t, ht⟩) <;> simp [cpmsCmd] at ht
      refine heeds_bind (mid := True) (heeds_less (heeds_write (fun _ h => absurd h hu) fun _ => hc) fun _ => Or.inr hc) fun _ => ?_
      exact ⟨fun _ _ => ⟨silent rfl, Or.inr ⟨trivial, rfl⟩⟩, fun _ _ _ _ _ => Or.inl trivial⟩
    · have : s.smsMemReadDelete = some m := by simpa [eq_comm] using h
      exact fun _ _ _ => Or.inr this

theorem heeds_read (i : PyStr) {mem : Option PyStr} (hm : mem = none ∨ mem = some m) (hc : claim → known ∨ mem = some m) : Heeds m claim known (known ∨ mem = some m) (readStoredSms i mem) :=
  heeds_bind (heeds_memory hm) fun _ => heeds_bind (heeds_command (fun h _ => hc h) (not_selects (by simp [cmgrCmd]))) fun _ => heeds_see fun _ => heeds_ofExcept _

theorem heeds_delete (i : PyStr) {mem : Option PyStr} (hm : mem = none ∨ mem = some m) (hc : claim → known ∨ mem = some m) : Heeds m claim known (known ∨ mem = some m) (deleteStoredSms i mem) :=
  heeds_bind (heeds_memory hm) fun _ => heeds_bind (heeds_command (fun h _ => hc h) (not_selects (by simp [cmgdCmd]))) fun _ => heeds_pure _

theorem heeds_deleteMultiple (f : Int) {mem : Option PyStr} (hm : mem = none ∨ mem = some m) (hc : claim → known ∨ mem = some m) :
    Heeds m claim known (known ∨ mem = some m) (deleteMultipleStoredSms f mem) :=
  heeds_ite (fun _ => heeds_bind (heeds_memory hm) fun _ => heeds_bind (heeds_command (fun h _ => hc h) (not_selects (by simp))) fun _ => heeds_pure _) fun _ => heeds_raise _

theorem heeds_deleteAll (hc : claim → known) : ∀ is, Heeds m claim known known (deleteAll is)
  | [] => heeds_pure _
  | _ :: is => heeds_bind (heeds_less (heeds_delete _ (Or.inl rfl) fun h => Or.inl (hc h)) Or.inl) fun _ => heeds_deleteAll hc is

theorem heeds_deleteListed (hc : claim → known) (st : Int) (d : Bool) (is : List Int) : Heeds m claim known known (deleteListed st d is) :=
  heeds_ite (fun _ => heeds_ite (fun _ => heeds_less (heeds_deleteMultiple _ (Or.inl rfl) fun h => Or.inl (hc h)) Or.inl)
    fun _ => ⟨fun _ _ => ⟨silent rfl, Or.inl rfl⟩, fun _ _ => heeds_more (heeds_deleteAll hc _) Or.inl⟩) fun _ => heeds_pure _

theorem heeds_list (st : Int) {mem : Option PyStr} (hm : mem = none ∨ mem = some m) (hc : claim → known ∨ mem = some m) (d : Bool) :
    Heeds m claim known (known ∨ mem = some m) (listStoredSms st mem d) := by
  refine heeds_bind (heeds_memory hm) fun _ => heeds_see fun s => ?_
  cases hl : listCommand s.smsTextMode st with
  | error e => exact heeds_raise e
  | ok c =>
    obtain ⟨x, rfl⟩ := listCommand_form hl
    show Heeds m claim (known ∨ mem = some m) (known ∨ mem = some m) (write (py!"AT+CMGL=" ++ x) >>= fun result => ofExcept (parseListing s.smsTextMode result) >>= fun listing =>
      deleteListed st d listing.delMessages >>= fun _ => pure listing.messages)
    exact heeds_bind (heeds_command (fun h _ => hc h) (not_selects (by simp))) fun _ => heeds_bind (heeds_ofExcept _) fun _ => heeds_bind (heeds_deleteListed hc _ _ _) fun _ => heeds_pure _

theorem heeds_callback (c : Callback) : Heeds m claim known known (callback c) := heeds_change fun _ => ⟨rfl, rfl⟩

theorem heeds_received {l : PyStr} (hl : ∀ mem idx, StoredAt py!"+CMTI:" l mem idx → mem = m) : Heeds m claim known known (handleSmsReceived l) := by
  unfold handleSmsReceived
  cases hg : rxGroups cmtiRegex l with
  | none => exact heeds_pure _
  | some g =>
    obtain ⟨mem, idx, rfl, hst⟩ := stored_iff.1 (cmti_rx ▸ hg)
    obtain rfl := hl _ _ hst
    exact heeds_less (heeds_bind (mid := True) (heeds_less (heeds_read _ (Or.inr rfl) fun _ => Or.inr rfl) fun _ => Or.inr rfl) fun _ =>
      heeds_bind (heeds_less (heeds_delete _ (Or.inl rfl) fun _ => Or.inl trivial) Or.inl) fun _ => heeds_callback _) fun _ => trivial

theorem heeds_statusReport {l : PyStr} (hl : ∀ mem idx, StoredAt py!"+CDSI:" l mem idx → mem = m) : Heeds m claim known known (handleSmsStatusReport l) := by
  unfold handleSmsStatusReport
  cases hg : rxGroups cdsiRegex l with
  | none => exact heeds_pure _
  | some g =>
    obtain ⟨mem, idx, rfl, hst⟩ := stored_iff.1 (cdsi_rx ▸ hg)
    obtain rfl := hl _ _ hst
    refine heeds_less (heeds_bind (mid := True) (heeds_less (heeds_read _ (Or.inr rfl) fun _ => Or.inr rfl) fun _ => Or.inr rfl) fun r =>
      heeds_bind (heeds_less (heeds_delete _ (Or.inl rfl) fun _ => Or.inl trivial) Or.inl) fun _ => ?_) fun _ => trivial
    cases r with
    | received => exact heeds_raise _
    | report st r n t1 t2 d =>
      refine heeds_bind (heeds_change fun _ => ⟨rfl, rfl⟩) fun _ => ⟨fun _ s => ?_, fun _ s => heeds_more (known := True) ?_ fun _ => Or.inl trivial⟩
      · dsimp only
        split <;> exact ⟨silent rfl, Or.inl rfl⟩
      · exact heeds_ite (fun _ => heeds_pure _) fun _ => heeds_callback _

theorem body_selects_not {c : PyStr} : ¬ SelectsMemory (c ++ [26]) := fun ⟨_, ⟨t, ht⟩, _⟩ => by simpa using congrArg List.getLast? ht

theorem heeds_sendPdus (hc : ¬ claim) : ∀ (ps : List Pdu) (r : Option PyStr), Heeds m claim known known (sendPdus ps r)
  | [], _ => heeds_pure _
  | _ :: ps, _ => heeds_bind (heeds_command (fun h => absurd h hc) (not_selects (by simp))) fun _ => heeds_bind (heeds_command (fun h => absurd h hc) body_selects_not) fun _ => heeds_sendPdus hc ps _

theorem heeds_send [PyUnicode] (hc : ¬ claim) (d t : PyStr) (f : Bool) : Heeds m claim known known (sendSms d t f) := by
  refine heeds_bind (mid := known) ?_ fun r => ?_
  · exact heeds_see fun _ => heeds_ite (fun _ => heeds_bind (heeds_command (fun h => absurd h hc) (not_selects (by simp))) fun _ =>
      heeds_bind (heeds_command (fun h => absurd h hc) body_selects_not) fun _ => heeds_pure _)
      fun _ => heeds_see fun _ => heeds_bind (heeds_ofExcept _) fun ps => heeds_sendPdus hc ps _
  · cases r with
    | none => exact heeds_raise _
    | some l =>
      refine heeds_bind (heeds_ofExcept _) fun x => heeds_bind (heeds_change fun _ => ⟨rfl, rfl⟩) fun _ => heeds_see fun s => ?_
      have fin : Heeds m claim known known (act (fun _ s => { s with sent := s.sent ++ [⟨d, t, x, none⟩], sentSms := dictSet s.sentSms x s.sent.length, smsTrace := .sent x :: s.smsTrace })
        fun _ s => (pure s.sent.length : Prog Nat)) := ⟨fun _ _ => ⟨silent rfl, Or.inl rfl⟩, fun _ _ _ _ => Or.inl⟩
      split
      · exact heeds_bind (heeds_change fun _ => ⟨rfl, rfl⟩) fun _ => fin
      · exact fin

theorem heeds_textMode (hc : ¬ claim) (v : Bool) : Heeds m claim known known (setSmsTextMode v) :=
  heeds_see fun _ => heeds_ite (fun _ => heeds_see fun _ => heeds_ite
    (fun _ => heeds_bind (heeds_command (fun h => absurd h hc) (not_selects (by simp))) fun _ => heeds_change fun _ => ⟨rfl, rfl⟩) fun _ => heeds_change fun _ => ⟨rfl, rfl⟩) fun _ => heeds_pure _

/-! ### Calls -/

theorem heeds_except {α : Type} {p : Prog α} {c : PyErr → Bool} {g : PyErr → Prog α} {known post : Prop} (h : Heeds m claim known post p) (hg : ∀ e, Heeds m claim known post (g e)) :
    Heeds m claim known post (p.except c g) := by
  induction p generalizing known with
  | done r => cases r with
    | ok a => exact h
    | error e =>
      unfold Prog.except
      split
      · exact hg e
      · exact nofun
  | io t k ih => exact ⟨h.1, h.2.1, fun r => ih r (h.2.2 r) fun e => heeds_more (hg e) Or.inl⟩
  | act f k ih => exact ⟨h.1, fun env s => ih env s (h.2 env s) fun e => heeds_more (hg e) Or.inl⟩

theorem heeds_act {α : Type} {f : Limits → St → St} {k : Limits → St → Prog α} {post : Prop} (h : ∀ env s, (f env s).log = s.log ∧ (f env s).smsMemReadDelete = s.smsMemReadDelete)
    (hk : ∀ env s, Heeds m claim known post (k env s)) : Heeds m claim known post (act f k) :=
  ⟨fun env s => ⟨silent (h env s).1, Or.inl (h env s).2⟩, fun env s => heeds_more (hk env s) Or.inl⟩
theorem heeds_state : Heeds m claim known known look := heeds_act (fun _ _ => ⟨rfl, rfl⟩) fun _ _ => heeds_pure _
theorem heeds_same {α β : Type} {p : Prog α} {f : α → Prog β} (h : Heeds m claim known known p) (hf : ∀ a, Heeds m claim known known (f a)) : Heeds m claim known known (p >>= f) := heeds_bind h hf
theorem heeds_choose {α : Type} {c : Prop} [Decidable c] {p q : Prog α} (hp : Heeds m claim known known p) (hq : Heeds m claim known known q) : Heeds m claim known known (if c then p else q) :=
  heeds_ite (fun _ => hp) fun _ => hq
theorem heeds_try {α : Type} {p : Prog α} (h : Heeds m claim known known p) : Heeds m claim known known (tryCommand p) :=
  heeds_except (heeds_same h fun _ => heeds_pure _) fun _ => heeds_pure _

/-- A command that is not about messages. -/
theorem heeds_other {data : PyStr} (h : ¬ py!"AT+CPMS=" <+: data ++ [13] ∧ ¬ UsesMemory (data ++ [13])) : Heeds m claim known known (write data) :=
  heeds_command (fun _ hu => absurd hu h.2) fun hs => h.1 hs.1

macro "heeds" : tactic => `(tactic| repeat' first
  | assumption
  | with_reducible exact heeds_pure _
  | with_reducible exact heeds_raise _
  | with_reducible exact heeds_ofExcept _
  | ((with_reducible apply heeds_change); intro _; exact ⟨rfl, rfl⟩)
  | with_reducible exact heeds_state
  | with_reducible refine heeds_same ?_ fun _ => ?_
  | with_reducible refine heeds_choose ?_ ?_
  | with_reducible refine heeds_try ?_
  | with_reducible refine heeds_except ?_ fun _ => ?_
  | split)

theorem hd_ussd (ls : List PyStr) : Heeds m claim known known (handleUssd ls) := by
  unfold handleUssd; heeds
  exact heeds_act (fun _ s => by split <;> exact ⟨rfl, rfl⟩) fun _ s => heeds_choose (by heeds) (by heeds)
theorem hd_changeCall (i : Nat) (f : CallObj → CallObj) : Heeds m claim known known (changeCall i f) := heeds_change fun _ => ⟨rfl, rfl⟩
theorem hd_setAnswered (i : Nat) (v : Bool) : Heeds m claim known known (setAnswered i v) := by
  unfold setAnswered; heeds
  all_goals first | exact hd_changeCall _ _ | exact heeds_callback _
theorem hd_register (c : CallObj) : Heeds m claim known known (registerCall c) := heeds_act (fun _ _ => ⟨rfl, rfl⟩) fun _ _ => heeds_pure _
theorem hd_registerNext (c : CallObj) : Heeds m claim known known (registerNext c) := heeds_same heeds_state fun _ => hd_register _
theorem hd_remove (k : Int) : Heeds m claim known known (removeCall k) := heeds_act (fun _ _ => ⟨rfl, rfl⟩) fun _ _ => heeds_choose (by heeds) (by heeds)
theorem hd_lookUp (k : Int) : Heeds m claim known known (lookUp k) := by unfold lookUp; heeds
theorem hd_sameSize (n : Nat) : Heeds m claim known known (sameSize n) := by unfold sameSize; heeds
theorem hd_countRing (i : Nat) : Heeds m claim known known (countRing i) := by
  unfold countRing; heeds
  exact hd_changeCall _ _
theorem hd_ringLoop (n : Option PyStr) (size : Nat) : ∀ (l : List (Int × Nat)) (c : Option Nat), Heeds m claim known known (ringLoop n size l c)
  | [], c => heeds_same (hd_sameSize _) fun _ => heeds_pure _
  | (_, i) :: l, c => by
    have h1 := hd_ringLoop n size l
    have h2 := hd_sameSize (m := m) (claim := claim) (known := known) size
    have h3 := hd_countRing (m := m) (claim := claim) (known := known) i
    unfold ringLoop; heeds
    all_goals exact h1 _
theorem hd_ringType (l : PyStr) : Heeds m claim known known (ringType l) := by
  have h1 : Heeds m claim known known (write py!"AT+CRC=1") := heeds_other (by simp [UsesMemory])
  unfold ringType; heeds
theorem hd_callTypeOf (o : Option PyStr) : Heeds m claim known known (callTypeOf o) := by cases o <;> (unfold callTypeOf; heeds)
theorem hd_newIncoming (a b c : Option PyStr) : Heeds m claim known known (newIncoming a b c) := by
  unfold newIncoming; heeds
  all_goals first | exact hd_callTypeOf _ | exact hd_register _ | exact heeds_callback _
theorem hd_incoming : ∀ ls : List PyStr, Heeds m claim known known (handleIncomingCall ls)
  | [] => heeds_raise _
  | l :: ls => by
    have h1 := hd_ringType (m := m) (claim := claim) (known := known) l
    unfold handleIncomingCall; heeds
    all_goals first | exact hd_ringLoop _ _ _ _ | exact heeds_callback _ | exact hd_newIncoming _ _ _
theorem hd_tellDial (a b : Int) : Heeds m claim known known (tellDial a b) := by
  unfold tellDial; heeds
  exact heeds_act (fun _ s => by split <;> exact ⟨rfl, rfl⟩) fun _ s => heeds_choose (by heeds) (by heeds)
theorem hd_initiated (a b : Int) : Heeds m claim known known (handleCallInitiated a b) := by
  have := hd_tellDial (m := m) (claim := claim) (known := known) a b
  unfold handleCallInitiated; heeds
theorem hd_firstOutgoing (f : Bool) (size : Nat) : ∀ l : List (Int × Nat), Heeds m claim known known (firstOutgoing f size l)
  | [] => heeds_same (hd_sameSize _) fun _ => heeds_pure _
  | (_, i) :: l => by
    have h1 := hd_firstOutgoing f size l
    exact heeds_same (hd_sameSize _) fun _ => heeds_same heeds_state fun _ => heeds_choose (heeds_pure _) h1
theorem hd_answered (o : Option Int) : Heeds m claim known known (handleCallAnswered o) := by
  unfold handleCallAnswered; heeds
  all_goals first | exact hd_lookUp _ | exact hd_setAnswered _ _ | exact hd_firstOutgoing _ _ _
theorem hd_endCall (o : Option Int) : Heeds m claim known known (endCall o) := by
  unfold endCall; heeds
  all_goals first | exact hd_lookUp _ | exact hd_setAnswered _ _ | exact hd_changeCall _ _ | exact hd_remove _
theorem hd_ended (c : Option Int) (a b : Bool) : Heeds m claim known known (handleCallEnded c a b) := by
  unfold handleCallEnded; heeds
  all_goals first | exact hd_firstOutgoing _ _ _ | exact hd_endCall _
theorem hd_handler (h : CallHandler) (g : List PyStr) : Heeds m claim known known (runCallHandler h g) := by
  unfold runCallHandler; heeds
  all_goals first | exact hd_tellDial _ _ | exact hd_answered _ | exact hd_ended _ _ _
theorem hd_clcc : Heeds m claim known known clccQuery := by
  have h1 : Heeds m claim known known (write py!"AT+CLCC") := heeds_other (by simp [UsesMemory])
  unfold clccQuery; heeds
theorem hd_pollStep (p : Poller) (seen : Option (Int × Int × Int × Int)) : Heeds m claim known known (pollStep p seen) := by
  unfold pollStep; heeds
  all_goals first | exact hd_initiated _ _ | exact hd_answered _ | exact hd_ended _ _ _
theorem atd_other (n : PyStr) : ¬ py!"AT+CPMS=" <+: atdCmd n ++ [13] ∧ ¬ UsesMemory (atdCmd n ++ [13]) := by simp [UsesMemory, atdCmd]
theorem hd_dial (n : PyStr) (cb : Bool) : Heeds m claim known known (dialNow n cb) := by
  have h1 : Heeds m claim known known (write (atdCmd n)) := heeds_other (atd_other n)
  have h2 : Heeds m claim known known (writeNoWait (atdCmd n)) :=
    ⟨fun _ s => ⟨⟨[atdCmd n ++ [13]], rfl, fun c hc => by
      rw [List.mem_singleton.1 hc]
      exact ⟨fun hs => (atd_other n).1 hs.1, (atd_other n).2⟩⟩, Or.inl rfl⟩, fun _ _ => heeds_more (heeds_pure _) Or.inl⟩
  unfold dialNow; heeds
  all_goals exact hd_registerNext _
theorem hd_hangup (i : Nat) : Heeds m claim known known (hangup i) := by
  have h1 : Heeds m claim known known (write py!"ATH") := heeds_other (by simp [UsesMemory])
  unfold hangup stopRinging hangupActive removeIfThere; heeds
  all_goals first | exact hd_changeCall _ _ | exact hd_setAnswered _ _ | exact hd_remove _
theorem hd_answer (i : Nat) : Heeds m claim known known (answer i) := by
  have h1 : Heeds m claim known known (write py!"ATA") := heeds_other (by simp [UsesMemory])
  unfold answer; heeds
  all_goals first | exact hd_changeCall _ _ | exact hd_setAnswered _ _
theorem hd_dtmf (i : Nat) (t : PyStr) : Heeds m claim known known (sendDtmfTone i t) := by
  unfold sendDtmfTone
  refine heeds_same heeds_state fun s => ?_
  split
  · heeds
  · next c _ =>
    refine heeds_choose ?_ (by heeds)
    show Heeds m claim known known ((ofExcept (dtmfCmd (dtmfBase s c) t)).bind _)
    cases hcmd : dtmfCmd (dtmfBase s c) t with
    | error e => exact heeds_raise e
    | ok cmd =>
      have : Heeds m claim known known (write cmd) := heeds_other (by
        obtain ⟨r, rfl⟩ := dtmfCmd_prefix hcmd
        unfold dtmfBase
        split <;> simp [UsesMemory])
      show Heeds m claim known known (Prog.except _ _ _)
      heeds

theorem hd_poll : ∀ (n : Nat) (p : Poller), Heeds m claim known known (poll n p)
  | 0, _ => heeds_pure _
  | n + 1, p => by
    refine heeds_same ?_ fun p => heeds_choose (heeds_pure _) (hd_poll n p)
    have h1 := hd_clcc (m := m) (claim := claim) (known := known)
    unfold pollRound; heeds
    all_goals exact hd_pollStep _ _

theorem hd_dispatch (lines : List PyStr) : ∀ rest : List PyStr, (∀ line ∈ rest, ∀ mem idx, StoredAt py!"+CMTI:" line mem idx ∨ StoredAt py!"+CDSI:" line mem idx → mem = m) →
    Heeds m claim known known (dispatchLoop lines rest)
  | [], _ => heeds_pure _
  | line :: rest, h => by
    have h0 := hd_dispatch lines rest fun l hl => h l (List.mem_cons_of_mem _ hl)
    have h1 := h line List.mem_cons_self
    refine heeds_same heeds_state fun s => ?_
    split
    · exact hd_incoming _
    · exact heeds_received fun mem idx hx => h1 mem idx (Or.inl hx)
    · exact hd_ussd _
    · exact heeds_statusReport fun mem idx hx => h1 mem idx (Or.inr hx)
    · exact hd_handler _ _
    · exact h0

end Prog

open Prog

theorem heeds_method [PyUnicode] {m : PyStr} {x : Method} (hx : OneMemory m x) : Heeds m (NamesMemory m x) False False x.prog := by
  cases x with
  | read i mem => exact heeds_bind (heeds_read i hx Or.inr) fun _ => heeds_less (heeds_pure _) False.elim
  | delete i mem => exact heeds_less (heeds_delete i hx Or.inr) False.elim
  | deleteMultiple f mem => exact heeds_less (heeds_deleteMultiple f hx Or.inr) False.elim
  | list st mem d => exact heeds_bind (heeds_list st hx Or.inr d) fun _ => heeds_less (heeds_pure _) False.elim
  | received l => exact heeds_received hx
  | statusReport l => exact heeds_statusReport hx
  | send d t f => exact heeds_bind (heeds_send id d t f) fun _ => heeds_pure _
  | setTextMode v => exact heeds_textMode id v
  | ask c => exact heeds_bind (heeds_command False.elim hx) fun _ => heeds_pure _

theorem heeds_task [PyUnicode] {m : PyStr} {x : Task} (hx : OneMemoryTask m x) : Heeds m (NamesMemoryTask m x) False False x.prog := by
  cases x with
  | message x => exact heeds_method hx
  | notify lines => exact hd_dispatch _ _ hx
  | poll n p => exact hd_poll n p
  | dial n cb => exact hd_dial n cb
  | answer i => exact hd_answer i
  | hangup i => exact hd_hangup i
  | dtmf i t => exact hd_dtmf i t

/-! ### All threads -/

theorem inUse_line {env : Env} {m t : PyStr} {log : List PyStr} (h : MemoryInUse env m log) (ht : SelectsMemory t → t = memoryCmd m) : MemoryInUse env m (t :: log) := by
  by_cases hc : SelectsMemory t ∧ Accepted env.reply (t :: log)
  · have := LastAccepted.here hc.1 hc.2
    rwa [ht hc.1] at this ⊢
  · exact .there hc h

theorem inUse_lines {env : Env} {m : PyStr} {log : List PyStr} (h : MemoryInUse env m log) : ∀ new : List PyStr, (∀ c ∈ new, ¬ SelectsMemory c) → MemoryInUse env m (new ++ log)
  | [], _ => h
  | c :: new, hn => inUse_line (inUse_lines h new fun d hd => hn d (List.mem_cons_of_mem _ hd)) fun hs => absurd hs (hn c List.mem_cons_self)

theorem memoryCmd_selects (m : PyStr) : SelectsMemory (memoryCmd m) := by
  refine ⟨⟨py!"\"" ++ m ++ py!"\"\r", by simp [memoryCmd]⟩, ⟨py!"AT+CPMS=\"" ++ m ++ py!"\"", by simp [memoryCmd]⟩, fun h => ?_⟩
  simp [memoryCmd] at h

theorem mem_newest {c : PyStr} {past old : List PyStr} : ∀ new : List PyStr, (c, past) ∈ newest new.length (new ++ old) ↔ ∃ l1 l2, new = l1 ++ c :: l2 ∧ past = l2 ++ old
  | [] => by simp [newest]
  | d :: new => by
    have ih := mem_newest (c := c) (past := past) (old := old) new
    simp only [List.length_cons, List.cons_append, newest, List.mem_cons, Prod.mk.injEq, ih]
    constructor
    · rintro (⟨rfl, rfl⟩ | ⟨l1, l2, rfl, rfl⟩)
      · exact ⟨[], new, rfl, rfl⟩
      · exact ⟨d :: l1, l2, rfl, rfl⟩
    · rintro ⟨l1, l2, he, rfl⟩
      cases l1 with
      | nil =>
        obtain ⟨rfl, rfl⟩ := List.cons.inj he
        exact Or.inl ⟨rfl, rfl⟩
      | cons y l1 =>
        obtain ⟨rfl, rfl⟩ := List.cons.inj he
        exact Or.inr ⟨l1, l2, rfl, rfl⟩

theorem newest_step {new log old : List PyStr} (h : log = new ++ old) : newest (log.length - old.length) log = newest new.length (new ++ old) := by
  rw [h]; simp

/-- What holds between the steps: what is noted is in use, and what the threads know is true. -/
structure Knowing (env : Env) (m : PyStr) (claims : Nat → Prop) (threads : List (Prog Unit)) (s : St) : Prop where
  noted : s.smsMemReadDelete = some m → MemoryInUse env m s.log
  threads : ∀ i p, threads[i]? = some p → ∃ known, (known → MemoryInUse env m s.log) ∧ ∃ post, Heeds m (claims i) known post p

/-- What a step sends. -/
theorem knowing_sent {env : Env} {m : PyStr} {claims : Nat → Prop} {threads : List (Prog Unit)} {s : St} {j : Nat} {p : Prog Unit} (h : Knowing env m claims threads s)
    (hp : threads[j]? = some p) : ∃ new, (p.step env s).2.log = new ++ s.log ∧ (claims j → ∀ l1 c l2, new = l1 ++ c :: l2 → UsesMemory c → MemoryInUse env m (l2 ++ s.log)) := by
  obtain ⟨known, hk, post, hh⟩ := h.threads j p hp
  cases p with
  | done r => exact ⟨[], rfl, fun _ l1 c l2 he => by simp at he⟩
  | io t k =>
    refine ⟨[t], rfl, fun hc l1 c l2 he hu => ?_⟩
    have hl := congrArg List.length he
    simp at hl
    obtain rfl : l1 = [] := List.length_eq_zero_iff.1 (by omega)
    obtain rfl : l2 = [] := List.length_eq_zero_iff.1 (by omega)
    obtain rfl : t = c := by simpa using he
    exact hk (hh.1 hc hu)
  | act f k =>
    obtain ⟨new, h1, h2⟩ := (hh.1 env s).1
    exact ⟨new, h1, fun _ l1 c l2 he hu => absurd hu (h2 c (by simp [he])).2⟩

theorem knowing_step {env : Env} {m : PyStr} {claims : Nat → Prop} {threads : List (Prog Unit)} {s : St} {j : Nat} {p : Prog Unit} (h : Knowing env m claims threads s)
    (hp : threads[j]? = some p) : Knowing env m claims (threads.set j (p.step env s).1) (p.step env s).2 := by
  obtain ⟨known, hk, post, hh⟩ := h.threads j p hp
  have key : ((p.step env s).2.smsMemReadDelete = some m → MemoryInUse env m (p.step env s).2.log) ∧ (MemoryInUse env m s.log → MemoryInUse env m (p.step env s).2.log) ∧
      ∃ known, (known → MemoryInUse env m (p.step env s).2.log) ∧ ∃ post, Heeds m (claims j) known post (p.step env s).1 := by
    cases p with
    | done r => exact ⟨h.noted, id, known, hk, post, hh⟩
    | io t k =>
      have hm : MemoryInUse env m s.log → MemoryInUse env m (t :: s.log) := fun hx => inUse_line hx hh.2.1
      refine ⟨fun hx => hm (h.noted hx), hm, _, ?_, post, hh.2.2 (env.reply (t :: s.log))⟩
      rintro (hx | ⟨rfl, hx⟩)
      · exact hm (hk hx)
      · exact .here (memoryCmd_selects m) hx
    | act f k =>
      obtain ⟨⟨new, hl, hn⟩, hf⟩ := hh.1 env s
      have hl' : ((Prog.act f k).step env s).2.log = new ++ s.log := hl
      rw [hl']
      have hm : MemoryInUse env m s.log → MemoryInUse env m (new ++ s.log) := fun hx => inUse_lines hx new fun c hc => (hn c hc).1
      refine ⟨fun hx => hm ?_, hm, _, ?_, post, hh.2 env s⟩
      · rcases hf with he | ⟨he, _⟩
        · exact h.noted (he ▸ hx)
        · exact hk he
      · rintro (hx | hx)
        · exact hm (hk hx)
        · exact hm (h.noted hx)
  refine ⟨key.1, fun i q hq => ?_⟩
  by_cases hij : j = i
  · subst hij
    obtain ⟨hlt, _⟩ := List.getElem?_eq_some_iff.1 hp
    rw [List.getElem?_set_self hlt] at hq
    cases hq
    exact key.2.2
  · rw [List.getElem?_set_ne hij] at hq
    obtain ⟨kn, h1, h2⟩ := h.threads i q hq
    exact ⟨kn, fun hx => key.2.1 (h1 hx), h2⟩

theorem knowing_lines {env : Env} {m : PyStr} {claims : Nat → Prop} {i : Nat} (hi : claims i) : ∀ (schedule : List Nat) (threads : List (Prog Unit)) (s : St), Knowing env m claims threads s →
    ∀ x ∈ linesWithPast env i schedule (threads, s), UsesMemory x.1 → MemoryInUse env m x.2
  | [], _, _, _ => nofun
  | j :: is, threads, s, h => by
    intro x hx hu
    unfold linesWithPast at hx
    cases hp : threads[j]? with
    | none =>
      rw [hp] at hx
      exact knowing_lines hi is threads s h x hx hu
    | some p =>
      rw [hp] at hx
      dsimp only at hx
      rcases List.mem_append.1 hx with hx' | hx'
      · split at hx'
        · rename_i hij
          obtain ⟨new, h1, h2⟩ := knowing_sent h hp
          rw [newest_step h1] at hx'
          obtain ⟨l1, l2, h3, h4⟩ := (mem_newest (c := x.1) (past := x.2) new).1 hx'
          rw [h4]
          exact h2 (hij ▸ hi) l1 x.1 l2 h3 hu
        · cases hx'
      · exact knowing_lines hi is _ _ (knowing_step h hp) x hx' hu

theorem knowing_end {env : Env} {m : PyStr} {claims : Nat → Prop} : ∀ (schedule : List Nat) (threads : List (Prog Unit)) (s : St), Knowing env m claims threads s →
    Knowing env m claims (runThreads env schedule (threads, s)).1 (runThreads env schedule (threads, s)).2
  | [], _, _, h => h
  | j :: is, threads, s, h => by
    unfold runThreads
    cases hp : threads[j]? with
    | none => exact knowing_end is threads s h
    | some p => exact knowing_end is _ _ (knowing_step h hp)

theorem knowing_start [PyUnicode] {env : Env} {m : PyStr} {tasks : List Task} {s : St} (h : ∀ x ∈ tasks, OneMemoryTask m x) (hs : s.smsMemReadDelete = some m → MemoryInUse env m s.log) :
    Knowing env m (fun i => ∃ x, tasks[i]? = some x ∧ NamesMemoryTask m x) (tasks.map Task.prog) s := by
  refine ⟨hs, fun i p hp => ⟨False, False.elim, False, ?_⟩⟩
  rw [List.getElem?_map, Option.map_eq_some_iff] at hp
  obtain ⟨x, hx, rfl⟩ := hp
  have he : (∃ y, tasks[i]? = some y ∧ NamesMemoryTask m y) = NamesMemoryTask m x := by simp [hx]
  rw [he]
  exact heeds_task (h x (List.mem_of_getElem? hx))

/-- Every line of the log is a line of a thread, with the lines before it. -/
theorem log_lines {env : Env} {m : PyStr} {claims : Nat → Prop} : ∀ (schedule : List Nat) (threads : List (Prog Unit)) (s : St), Knowing env m claims threads s →
    ∃ new, (runThreads env schedule (threads, s)).2.log = new ++ s.log ∧ ∀ l1 c l2, new = l1 ++ c :: l2 → ∃ i, (c, l2 ++ s.log) ∈ linesWithPast env i schedule (threads, s)
  | [], _, s, _ => ⟨[], rfl, fun l1 c l2 h => by simp at h⟩
  | j :: is, threads, s, h => by
    unfold runThreads linesWithPast
    cases hp : threads[j]? with
    | none => exact log_lines is threads s h
    | some p =>
      dsimp only
      obtain ⟨new, h1, h2⟩ := log_lines is _ _ (knowing_step h hp)
      obtain ⟨sent, hl, _⟩ := knowing_sent h hp
      rw [newest_step hl]
      refine ⟨new ++ sent, by rw [h1, hl]; simp, fun l1 c l2 he => ?_⟩
      rcases List.append_eq_append_iff.1 he with ⟨a, rfl, h4⟩ | ⟨a, rfl, h4⟩
      · exact ⟨j, List.mem_append_left _ (by rw [if_pos rfl]; exact (mem_newest sent).2 ⟨a, l2, h4, rfl⟩)⟩
      · cases a with
        | nil => exact ⟨j, List.mem_append_left _ (by rw [if_pos rfl]; exact (mem_newest sent).2 ⟨[], l2, h4.symm, rfl⟩)⟩
        | cons y a =>
          obtain ⟨rfl, rfl⟩ := List.cons.inj h4
          obtain ⟨i, hi⟩ := h2 l1 c a rfl
          rw [hl] at hi
          exact ⟨i, List.mem_append_right _ (by simpa using hi)⟩

/-- And the other way round. -/
theorem lines_log {env : Env} {m : PyStr} {claims : Nat → Prop} {i : Nat} : ∀ (schedule : List Nat) (threads : List (Prog Unit)) (s : St), Knowing env m claims threads s →
    ∀ x ∈ linesWithPast env i schedule (threads, s), s.log <:+ x.2 ∧ x.1 :: x.2 <:+ (runThreads env schedule (threads, s)).2.log
  | [], _, _, _ => nofun
  | j :: is, threads, s, h => by
    intro x hx
    unfold linesWithPast at hx
    unfold runThreads
    cases hp : threads[j]? with
    | none =>
      rw [hp] at hx
      exact lines_log is threads s h x hx
    | some p =>
      rw [hp] at hx
      dsimp only at hx ⊢
      have hk := knowing_step h hp
      obtain ⟨sent, hl, _⟩ := knowing_sent h hp
      rcases List.mem_append.1 hx with hx' | hx'
      · split at hx'
        · rw [newest_step hl] at hx'
          obtain ⟨l1, l2, h3, h4⟩ := (mem_newest (c := x.1) (past := x.2) sent).1 hx'
          obtain ⟨new, h1, _⟩ := log_lines is _ _ hk
          rw [h4, h1, hl, h3]
          exact ⟨⟨l2, rfl⟩, new ++ l1, by simp⟩
        · cases hx'
      · obtain ⟨h1, h2⟩ := lines_log is _ _ hk x hx'
        exact ⟨List.IsSuffix.trans (hl ▸ List.suffix_append _ _) h1, h2⟩

end Gsm
