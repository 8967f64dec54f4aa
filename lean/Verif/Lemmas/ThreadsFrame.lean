import Verif.Spec.Threads
import Verif.Lemmas.Threads
import Verif.Lemmas.Delivery
/-! # What the methods keep when other threads take steps in between -/
namespace Gsm
open M Spec

variable {env : Env}

namespace Prog

/-- What a thread needs to do `G` in every step: the commands have the property `C`, the memories the property `A`; `S`: a message may be recorded as sent. -/
structure Stable (env : Env) (P : St → Prop) (G : St → St → Prop) (C : PyStr → Prop) (A : PyStr → Prop) (S : Prop) : Prop where
  writes : Writes P G C
  memory : ∀ m, A m → Keeps env P G Any (setSmsMemory (some m))
  read : ∀ i, C (cmgrCmd i ++ [13])
  delete : ∀ i, C (cmgdCmd i ++ [13])
  deleteMultiple : ∀ i, C (py!"AT+CMGD=1," ++ i ++ [13])
  list : ∀ c, C (py!"AT+CMGL=" ++ c ++ [13])
  prompt : ∀ c, C (py!"AT+CMGS=" ++ c ++ [13])
  text : ∀ c, C (c ++ [26])
  mode : ∀ c, C (py!"AT+CMGF=" ++ c ++ [13])
  callback : ∀ s c, P s → G s { s with callbacks := c :: s.callbacks }
  told : ∀ s, P s → G s { s with smsStatusReportEvent := some true }
  report : ∀ s st r n t1 t2 d, P s → G s (Gsm.updateSent (.report st r n t1 t2 d) r d env s).2
  record : S → ∀ d t r ls l, Answer env ls → lineStartingWith py!"+CMGS:" ls = some l → pyInt (l.drop 7) = .ok r → Keeps env P G Any (recordSent d t r)
  textMode : ∀ s v, P s → G s { s with smsTextMode := v }

variable {P : St → Prop} {G : St → St → Prop} {C A : PyStr → Prop} {S : Prop}

theorem any {α : Type} {Q : α → Prop} {p : Prog α} (h : Keeps env P G Q p) : Keeps env P G Any p := keeps_mono h fun _ _ => trivial

theorem keeps_memory (h : Stable env P G C A S) {m : Option PyStr} (hm : ∀ x, m = some x → A x) : Keeps env P G Any (setSmsMemory m) := by
  cases m with
  | none => exact trivial
  | some x => exact h.memory x (hm x rfl)

theorem keeps_read (h : Stable env P G C A S) (i : PyStr) {m : Option PyStr} (hm : ∀ x, m = some x → A x) : Keeps env P G Any (readStoredSms i m) :=
  keeps_bind (keeps_memory h hm) fun _ _ => keeps_bind (keeps_write h.writes (h.read i)) fun _ _ => keeps_look h.writes fun _ _ => any (keeps_ofExcept _)

theorem keeps_delete (h : Stable env P G C A S) (i : PyStr) {m : Option PyStr} (hm : ∀ x, m = some x → A x) : Keeps env P G Any (deleteStoredSms i m) :=
  keeps_bind (keeps_memory h hm) fun _ _ => keeps_bind (keeps_write h.writes (h.delete i)) fun _ _ => keeps_pure trivial

theorem keeps_deleteMultiple (h : Stable env P G C A S) (f : Int) {m : Option PyStr} (hm : ∀ x, m = some x → A x) : Keeps env P G Any (deleteMultipleStoredSms f m) :=
  keeps_ite (fun _ => keeps_bind (keeps_memory h hm) fun _ _ => keeps_bind (keeps_write h.writes (h.deleteMultiple _)) fun _ _ => keeps_pure trivial)
    fun _ => keeps_raise _

theorem keeps_deleteAll (h : Stable env P G C A S) : ∀ is, Keeps env P G Any (deleteAll is)
  | [] => keeps_pure trivial
  | _ :: is => keeps_bind (keeps_delete h _ nofun) fun _ _ => keeps_deleteAll h is

theorem keeps_deleteListed (h : Stable env P G C A S) (st : Int) (d : Bool) (is : List Int) : Keeps env P G Any (deleteListed st d is) :=
  keeps_ite (fun _ => keeps_ite (fun _ => keeps_deleteMultiple h _ nofun) fun _ s hs => ⟨h.writes.look s hs, keeps_deleteAll h _⟩) fun _ => keeps_pure trivial

theorem listCommand_form {b : Bool} {st : Int} {c : PyStr} (h : listCommand b st = .ok c) : ∃ x, c = py!"AT+CMGL=" ++ x := by
  unfold listCommand at h
  split at h
  · split at h
    · cases h
    · cases h; exact ⟨_, by rw [List.append_assoc]; rfl⟩
  · cases h; exact ⟨_, rfl⟩

theorem keeps_list (h : Stable env P G C A S) (st : Int) {m : Option PyStr} (hm : ∀ x, m = some x → A x) (d : Bool) : Keeps env P G Any (listStoredSms st m d) :=
  keeps_bind (keeps_memory h hm) fun _ _ => keeps_look h.writes fun _ _ => keeps_bind (keeps_ofExcept _) fun c hc => by
    obtain ⟨x, rfl⟩ := listCommand_form hc
    exact keeps_bind (keeps_write h.writes (h.list x)) fun _ _ => keeps_bind (keeps_ofExcept _) fun _ _ => keeps_bind (keeps_deleteListed h _ _ _) fun _ _ => keeps_pure trivial

theorem keeps_callback (h : Stable env P G C A S) (c : Callback) : Keeps env P G Any (callback c) := keeps_change fun s hs => h.callback s c hs

theorem keeps_received (h : Stable env P G C A S) {l : PyStr} (hl : ∀ mem idx, StoredAt py!"+CMTI:" l mem idx → A mem) : Keeps env P G Any (handleSmsReceived l) := by
  unfold handleSmsReceived
  cases hg : rxGroups cmtiRegex l with
  | none => exact keeps_pure trivial
  | some g =>
    obtain ⟨mem, idx, rfl, hst⟩ := stored_iff.1 (cmti_rx ▸ hg)
    exact keeps_bind (keeps_read h _ fun x hx => by cases hx; exact hl _ _ hst) fun _ _ => keeps_bind (keeps_delete h _ nofun) fun _ _ => keeps_callback h _

theorem keeps_statusReport (h : Stable env P G C A S) {l : PyStr} (hl : ∀ mem idx, StoredAt py!"+CDSI:" l mem idx → A mem) : Keeps env P G Any (handleSmsStatusReport l) := by
  unfold handleSmsStatusReport
  cases hg : rxGroups cdsiRegex l with
  | none => exact keeps_pure trivial
  | some g =>
    obtain ⟨mem, idx, rfl, hst⟩ := stored_iff.1 (cdsi_rx ▸ hg)
    refine keeps_bind (keeps_read h _ fun x hx => by cases hx; exact hl _ _ hst) fun m _ => keeps_bind (keeps_delete h _ nofun) fun _ _ => ?_
    cases m with
    | received => exact keeps_raise _
    | report st r n t1 t2 d =>
      refine keeps_bind (keeps_change fun s hs => h.report s st r n t1 t2 d hs) fun _ _ => fun s hs => ⟨?_, ?_⟩
      · dsimp only
        split
        · exact h.told s hs
        · exact h.writes.look s hs
      · exact keeps_ite (fun _ => keeps_pure trivial) fun _ => keeps_callback h _

/-- The three assignments after a message has been sent. -/
theorem keeps_record {d t : PyStr} {r : Int} (hw : Writes P G C) (h1 : ∀ s, P s → G s { s with smsRef := r + 1 }) (h2 : ∀ s, P s → G s { s with smsRef := 0 })
    (h3 : ∀ s, P s → G s { s with sent := s.sent ++ [⟨d, t, r, none⟩], sentSms := dictSet s.sentSms r s.sent.length, smsTrace := .sent r :: s.smsTrace }) :
    Keeps env P G Any (recordSent d t r) := by
  have fin : Keeps env P G Any (act (fun _ s => { s with sent := s.sent ++ [⟨d, t, r, none⟩], sentSms := dictSet s.sentSms r s.sent.length, smsTrace := .sent r :: s.smsTrace })
        fun _ s => (pure s.sent.length : Prog Nat)) := fun s hs => ⟨h3 s hs, trivial⟩
  refine keeps_bind (keeps_change h1) fun _ _ => keeps_look hw fun s hs => ?_
  split
  · exact keeps_bind (keeps_change h2) fun _ _ => fin
  · exact fin

/-- Selecting a memory. -/
theorem keeps_select {m : PyStr} (hw : Writes P G C) (hc : C (cpmsCmd m ++ [13])) (h : ∀ s, P s → G s { s with smsMemReadDelete := some m }) :
    Keeps env P G Any (setSmsMemory (some m)) :=
  keeps_look hw fun _ _ => keeps_ite (fun _ => keeps_bind (keeps_write hw hc) fun _ _ => keeps_change h) fun _ => keeps_pure trivial

/-- The `+CMGS:` line comes from the modem. -/
def SentLine (env : Env) (r : Option PyStr) : Prop := ∀ l, r = some l → ∃ ls, Answer env ls ∧ lineStartingWith py!"+CMGS:" ls = some l

theorem keeps_sendPdus (h : Stable env P G C A S) : ∀ (ps : List Pdu) {r : Option PyStr}, SentLine env r → Keeps env P G (SentLine env) (sendPdus ps r)
  | [], _, hr => keeps_pure hr
  | _ :: ps, _, _ => keeps_bind (keeps_write h.writes (h.prompt _)) fun _ _ => keeps_bind (keeps_write h.writes (h.text _)) fun ls hls =>
      keeps_sendPdus h ps fun _ hl => ⟨ls, hls, hl⟩

theorem keeps_sendAll [PyUnicode] (h : Stable env P G C A S) (d t : PyStr) (f : Bool) : Keeps env P G (SentLine env) (sendAll d t f) := by
  refine keeps_look h.writes fun s hs => keeps_ite (fun _ => ?_) fun _ => keeps_look h.writes fun s hs => keeps_bind (keeps_ofExcept _) fun ps _ => keeps_sendPdus h ps nofun
  refine keeps_bind (keeps_write h.writes ?_) fun _ _ => keeps_bind (keeps_write h.writes (h.text _)) fun ls hls => keeps_pure fun l hl => ⟨ls, hls, hl⟩
  have := h.prompt (py!"\"" ++ d ++ py!"\"")
  simpa using this

theorem keeps_send [PyUnicode] (h : Stable env P G C A S) (hS : S) (d t : PyStr) (f : Bool) : Keeps env P G Any (sendSms d t f) := by
  refine keeps_bind (keeps_sendAll h d t f) fun r hr => ?_
  cases r with
  | none => exact keeps_raise _
  | some l =>
    obtain ⟨ls, h2, h3⟩ := hr l rfl
    exact keeps_bind (keeps_ofExcept _) fun x hx => h.record hS d t x ls l h2 h3 hx

theorem keeps_textMode (h : Stable env P G C A S) (v : Bool) : Keeps env P G Any (setSmsTextMode v) := by
  refine keeps_look h.writes fun s hs => keeps_ite (fun _ => keeps_look h.writes fun s hs => keeps_ite (fun _ => ?_) fun _ => keeps_change fun s hs => h.textMode s v hs) fun _ => keeps_pure trivial
  exact keeps_bind (keeps_write h.writes (h.mode _)) fun _ _ => keeps_change fun s hs => h.textMode s v hs

end Prog

/-- The memories and commands of a method. -/
def Method.Uses (C A : PyStr → Prop) (S : Prop) : Method → Prop
  | .read _ mem | .delete _ mem | .deleteMultiple _ mem | .list _ mem _ => ∀ x, mem = some x → A x
  | .received line => ∀ mem idx, StoredAt py!"+CMTI:" line mem idx → A mem
  | .statusReport line => ∀ mem idx, StoredAt py!"+CDSI:" line mem idx → A mem
  | .ask c => C (c ++ [13])
  | .send .. => S
  | .setTextMode _ => True

open Prog in
theorem keeps_method [PyUnicode] {P : St → Prop} {G : St → St → Prop} {C A : PyStr → Prop} {S : Prop} (h : Stable env P G C A S) {x : Method} (hx : x.Uses C A S) : Keeps env P G Any x.prog := by
  cases x with
  | read i m => exact keeps_bind (keeps_read h i hx) fun _ _ => keeps_pure trivial
  | delete i m => exact keeps_delete h i hx
  | deleteMultiple f m => exact keeps_deleteMultiple h f hx
  | list st m d => exact keeps_bind (keeps_list h st hx d) fun _ _ => keeps_pure trivial
  | received l => exact keeps_received h hx
  | statusReport l => exact keeps_statusReport h hx
  | send d t f => exact keeps_bind (keeps_send h hx d t f) fun _ _ => keeps_pure trivial
  | setTextMode v => exact keeps_textMode h v
  | ask c => exact keeps_bind (keeps_write h.writes hx) fun _ _ => keeps_pure trivial

open Prog in
theorem keeps_concurrently [PyUnicode] {P : St → Prop} {G : St → St → Prop} {C A : PyStr → Prop} {S : Prop} (h : Stable env P G C A S) {methods : List Method} (hm : ∀ x ∈ methods, x.Uses C A S)
    (hg : ∀ s s', P s → G s s' → P s') (schedule : List Nat) {s : St} (hs : P s) : P (concurrently env schedule methods s).2 := by
  refine keeps_threads h.writes.look hg schedule _ s (fun p hp => ?_) hs
  obtain ⟨x, hx, rfl⟩ := List.mem_map.1 hp
  exact keeps_method h (hm x hx)

end Gsm
