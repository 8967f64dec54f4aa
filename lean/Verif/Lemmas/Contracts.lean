import Verif.Spec.Contracts
import Verif.Props.ModemWrite
import Verif.Props.Undecodable
import Verif.Props.ModemDial
import Verif.Lemmas.Coverage
/-! # Exceptions of programs: a calculus -/
namespace Gsm
open M Spec

/-- From any state, with any modem that answers: the result has `Q`, or the exception has `P`. -/
def Runs {α : Type} (P : PyErr → Prop) (m : M α) (Q : α → Prop) : Prop :=
  ∀ env, AnswersAll env → ∀ s, (∀ a, (m env s).1 = .ok a → Q a) ∧ ∀ e, (m env s).1 = .error e → P e

section Rules
variable {α β : Type} {P P' : PyErr → Prop}

theorem runs_bind {m : M α} {f : α → M β} {Q : α → Prop} {R : β → Prop} (hm : Runs P m Q) (hf : ∀ a, Q a → Runs P (f a) R) :
    Runs P (m >>= f) R := by
  intro env he s
  have h := hm env he s
  rw [run_bind]
  cases hr : m env s with
  | mk r s1 =>
    rw [hr] at h
    cases r with
    | ok a => exact hf a (h.1 a rfl) env he s1
    | error e => exact ⟨fun a h' => (nomatch h'), fun e' h' => by cases h'; exact h.2 e rfl⟩

theorem runs_mono {m : M α} {Q Q' : α → Prop} (h : Runs P m Q) (hP : ∀ e, P e → P' e) (hQ : ∀ a, Q a → Q' a) : Runs P' m Q' :=
  fun env he s => ⟨fun a h' => hQ a ((h env he s).1 a h'), fun e h' => hP e ((h env he s).2 e h')⟩

theorem runs_any {m : M α} {Q : α → Prop} (h : Runs P m Q) : Runs P m (fun _ => True) := runs_mono h (fun _ h => h) (fun _ _ => trivial)

theorem runs_pure (a : α) : Runs P (pure a : M α) (fun b => b = a) := fun _ _ _ => ⟨fun _ h => by cases h; rfl, fun _ h => nomatch h⟩
theorem runs_get : Runs P M.get (fun _ => True) := fun _ _ _ => ⟨fun _ _ => trivial, fun _ h => nomatch h⟩
theorem runs_modify (g : St → St) : Runs P (M.modify g) (fun _ => True) := fun _ _ _ => ⟨fun _ _ => trivial, fun _ h => nomatch h⟩
theorem runs_raise {e : PyErr} {Q : α → Prop} (h : P e) : Runs P (M.raise e : M α) Q :=
  fun _ _ _ => ⟨fun _ h => (nomatch h), fun _ h' => by cases h'; exact h⟩
theorem runs_ofExcept {x : Except PyErr α} {Q : α → Prop} (h1 : ∀ a, x = .ok a → Q a) (h2 : ∀ e, x = .error e → P e) : Runs P (M.ofExcept x) Q :=
  fun _ _ _ => by rw [run_ofExcept]; exact ⟨h1, h2⟩

theorem runs_ite {c : Prop} [Decidable c] {m m' : M α} {Q : α → Prop} (h : c → Runs P m Q) (h' : ¬ c → Runs P m' Q) : Runs P (if c then m else m') Q := by
  by_cases hc : c
  · rw [if_pos hc]; exact h hc
  · rw [if_neg hc]; exact h' hc

theorem runs_except {m : M α} {p : PyErr → Bool} {h : PyErr → M α} {Q : α → Prop} (hm : Runs P m Q)
    (hh : ∀ e, P e → p e = true → Runs P' (h e) Q) (hn : ∀ e, P e → p e = false → P' e) : Runs P' (M.except m p h) Q := by
  intro env he s
  have h1 := hm env he s
  unfold M.except
  cases hr : m env s with
  | mk r s1 =>
    rw [hr] at h1
    cases r with
    | ok a => exact ⟨fun b h' => by cases h'; exact h1.1 _ rfl, fun _ h' => nomatch h'⟩
    | error e =>
      cases hp : p e with
      | true => simpa only [hp, if_true] using hh e (h1.2 e rfl) hp env he s1
      | false =>
        simp only [hp, Bool.false_eq_true, if_false]
        exact ⟨fun b h' => (nomatch h'), fun _ h' => by cases h'; exact hn e (h1.2 e rfl) hp⟩

theorem runs_discard {m : M α} {Q : α → Prop} (h : Runs P m Q) : Runs P (discard m) (fun _ => True) :=
  runs_bind h fun _ _ => runs_any (runs_pure _)

theorem runs_tryCommand {m : M α} {Q : α → Prop} (h : Runs P m Q) (hn : ∀ e, P e → (∀ c n, e ≠ .command c n) → P' e) :
    Runs P' (M.tryCommand m) (fun o => ∀ a, o = some a → Q a) := by
  unfold M.tryCommand
  refine runs_except (P := P) (runs_bind h fun a ha => runs_mono (runs_pure _) (fun _ h => h) fun o ho b hb => ?_) ?_ ?_
  · subst ho; cases hb; exact ha
  · intro e _ _
    exact runs_mono (runs_pure _) (fun _ h => h) fun o ho b hb => by subst ho; cases hb
  · intro e he hp
    refine hn e he fun c n => ?_
    rintro rfl
    cases hp
end Rules

/-! ### `write` -/

theorem refusal_failed {line : PyStr} {e : PyErr} (h : classify line = .failed e) : Refusal e := by
  by_cases h1 : py!"ERROR" <:+: line
  · by_cases h2 : ∃ ty ds, IsCmError ty ds line
    · obtain ⟨ty, ds, h2⟩ := h2
      rw [classify_cm h2] at h
      split at h
      · cases h
      · next hb =>
        cases h
        exact .code h2.1 (fun h => hb (.inr h)) (fun h => hb (.inl h))
    · rw [classify_plain h1 (fun ty ds h => h2 ⟨ty, ds, h⟩)] at h
      cases h
      exact .plain
  · by_cases h2 : line = py!"COMMAND NOT SUPPORT"
    · subst h2
      have : classify py!"COMMAND NOT SUPPORT" = .failed (.command .command none) := by decide
      rw [this] at h
      cases h
      exact .plain
    · rw [classify_fine.2 ⟨h1, h2⟩] at h
      cases h

theorem writeN_runs {env : Env} (hr : ∀ h, env.reply h ≠ .lines []) (data term : PyStr) : ∀ (d : Nat) (s : St),
    (∀ ls, (writeN d data true term env s).1 = .ok ls → ls ≠ []) ∧ ∀ e, (writeN d data true term env s).1 = .error e → CmdFails e
  | 0, s => ⟨fun ls h => (nomatch h), fun e h => by cases h; exact .busy⟩
  | d + 1, s => by
    simp only [writeN]
    cases hre : env.reply ((data ++ term) :: s.log) with
    | timeout t => exact ⟨fun ls h => (nomatch h), fun e h => by cases h; exact .silent _⟩
    | lines ls =>
      have hne : ls ≠ [] := fun h => hr _ (h ▸ hre)
      dsimp only
      cases hl : ls.getLast? with
      | none => simp at hl; exact absurd hl hne
      | some line =>
        simp only [if_true]
        cases hc : classify line with
        | fine => exact ⟨fun ls h => by cases h; exact hne, fun e h => nomatch h⟩
        | failed e => exact ⟨fun ls h => (nomatch h), fun e h => by cases h; exact .refused (refusal_failed hc)⟩
        | busy c =>
          have ih := writeN_runs hr data term d { s with log := (data ++ term) :: s.log, writeWait := s.writeWait + 2 }
          dsimp only
          cases hw : writeN d data true term env { s with log := (data ++ term) :: s.log, writeWait := s.writeWait + 2 } with
          | mk r s1 =>
            rw [hw] at ih
            cases r with
            | ok a => exact ⟨fun ls h => ih.1 ls h, fun e h => nomatch h⟩
            | error e => exact ⟨fun ls h => (nomatch h), fun e h => ih.2 e h⟩

theorem runs_write (data term : PyStr) : Runs CmdFails (write data true term) (· ≠ []) :=
  fun env he s => writeN_runs he.2 data term env.depth s

/-- Silence. -/
def TimedOut (e : PyErr) : Prop := ∃ d, e = .timeout d

theorem runs_writeUnparsed (data term : PyStr) : Runs TimedOut (write data false term) (· ≠ []) := by
  intro env he s
  cases hre : env.reply ((data ++ term) :: s.log) with
  | timeout t => rw [C32_timeout he.1 hre]; exact ⟨fun ls h => (nomatch h), fun e h => by cases h; exact ⟨_, rfl⟩⟩
  | lines ls =>
    have hne : ls ≠ [] := fun h => he.2 _ (h ▸ hre)
    rw [C32_unparsed he.1 hre hne]
    exact ⟨fun ls h => by cases h; exact hne, fun e h => nomatch h⟩

theorem runs_firstLine {P : PyErr → Prop} {ls : List PyStr} (h : ls ≠ []) : Runs P (firstLine ls) (fun _ => True) := by
  cases ls with
  | nil => exact absurd rfl h
  | cons l ls => exact runs_ofExcept (fun _ _ => trivial) (fun _ h => nomatch h)

theorem runs_query (cmd : PyStr) : Runs CmdFails (do firstLine (← write cmd)) (fun _ => True) :=
  runs_bind (runs_write _ _) fun _ h => runs_firstLine h

theorem runs_writeUnit (cmd term : PyStr) : Runs CmdFails (do let _ ← write cmd true term : M Unit) (fun _ => True) :=
  runs_bind (runs_write _ _) fun _ _ => runs_any (runs_pure _)

theorem pyInt_valueError {s : PyStr} {e : PyErr} (h : pyInt s = .error e) : e = .valueError := by
  unfold pyInt at h
  split at h <;> cases h
  rfl

/-! ### The programs: only these exceptions -/

theorem timedOut_fails (e : PyErr) (h : TimedOut e) : CmdFails e := by obtain ⟨d, rfl⟩ := h; exact .silent d

theorem fails_plain : CmdFails (.command .command none) := .refused .plain

theorem fails_not_command {e : PyErr} (h : CmdFails e) (hn : ∀ c n, e ≠ .command c n) : (∃ d, e = .timeout d) ∨ e = .recursionError := by
  cases h with
  | silent d => exact .inl ⟨d, rfl⟩
  | busy => exact .inr rfl
  | refused h =>
    cases h with
    | plain => exact absurd rfl (hn _ _)
    | code h _ _ => unfold errorFor at hn; split at hn <;> exact absurd rfl (hn _ _)

theorem runs_signalStrength : Runs CmdFails signalStrength (fun _ => True) := by
  unfold signalStrength
  refine runs_bind (runs_write _ _) fun ls hls => runs_bind (runs_firstLine hls) fun line _ => ?_
  split
  · next g hg =>
    obtain ⟨ds, h1, h2, _⟩ := csq_iff.1 hg
    cases h1
    exact runs_bind (Q := fun _ => True) (runs_ofExcept (fun _ _ => trivial) (fun e h => by rw [pyInt_of_digits h2] at h; cases h)) fun _ _ => runs_any (runs_pure _)
  · exact runs_raise fails_plain

theorem runs_networkName : Runs CmdFails networkName (fun _ => True) := by
  unfold networkName
  refine runs_bind (runs_write _ _) fun ls _ => ?_
  split <;> exact runs_any (runs_pure _)

theorem runs_revision : Runs (fun e => (∃ d, e = .timeout d) ∨ e = .recursionError) revision (fun _ => True) :=
  runs_any (runs_tryCommand (runs_query _) fun _ => fails_not_command)

theorem runs_supportedCommands : Runs (fun e => (∃ d, e = .timeout d) ∨ e = .recursionError) supportedCommands (fun _ => True) := by
  unfold supportedCommands
  refine runs_except (P := CmdFails) (runs_bind (runs_write _ _) fun ls hls => runs_ite (fun _ => ?_) fun _ => runs_ite (fun _ => runs_any (runs_pure _)) fun _ => runs_any (runs_pure _))
    (fun _ _ _ => runs_any (runs_pure _)) fun e h hp => fails_not_command h ?_
  · exact runs_bind (runs_firstLine hls) fun _ _ => runs_any (runs_pure _)
  · rintro c n rfl
    cases hp

theorem runs_setSmsTextMode (v : Bool) : Runs CmdFails (setSmsTextMode v) (fun _ => True) := by
  unfold setSmsTextMode
  refine runs_bind runs_get fun s _ => runs_ite (fun _ => ?_) fun _ => runs_any (runs_pure _)
  extract_lets k
  have hk : Runs CmdFails (k ()) (fun _ => True) := runs_modify _
  exact runs_ite (fun _ => runs_bind (runs_write _ _) fun _ _ => hk) fun _ => hk

theorem runs_setSmsc (n : Option PyStr) : Runs CmdFails (setSmsc n) (fun _ => True) := by
  unfold setSmsc
  refine runs_bind runs_get fun s _ => runs_ite (fun _ => ?_) fun _ => runs_any (runs_pure _)
  extract_lets k
  have hk : Runs CmdFails (k ()) (fun _ => True) := runs_modify _
  exact runs_ite (fun _ => runs_bind (runs_write _ _) fun _ _ => hk) fun _ => hk

theorem runs_getSmsc : Runs (fun e => CmdFails e ∧ e ≠ errorFor py!"CMS" 330) getSmsc (fun _ => True) := by
  unfold getSmsc
  refine runs_bind runs_get fun s _ => ?_
  split
  · exact runs_any (runs_pure _)
  · refine runs_bind (Q := fun _ => True) (runs_except (P := CmdFails) (runs_bind (runs_write _ _) fun _ _ => runs_any (runs_pure _))
      (fun _ _ _ => runs_any (runs_pure _)) fun e h hp => ⟨h, ?_⟩) fun r _ => ?_
    · rintro rfl
      cases hp
    · split
      · exact runs_bind runs_get fun _ _ => runs_any (runs_pure _)
      · split
        · exact runs_bind (runs_modify _) fun _ _ => runs_bind runs_get fun _ _ => runs_any (runs_pure _)
        · exact runs_bind runs_get fun _ _ => runs_any (runs_pure _)

theorem runs_setSmsMemory (m : Option PyStr) : Runs CmdFails (setSmsMemory m) (fun _ => True) := by
  unfold setSmsMemory
  refine runs_bind runs_get fun s _ => ?_
  rw [if_neg (by simp)]
  split
  · exact runs_ite (fun _ => runs_bind (runs_write _ _) fun _ _ => runs_modify _) fun _ => runs_any (runs_pure _)
  · exact runs_any (runs_pure _)

/-! ### Stored messages -/

theorem mkStrptime_valueError {r : Option (List Nat × PyStr)} {pick : List Nat → Option (List Nat)} {e : PyErr} (h : mkStrptime r pick = .error e) : e = .valueError := by
  unfold mkStrptime at h
  split at h
  · split at h
    · dsimp only at h
      generalize DateTime.valid _ = b at h
      cases b
      · exact (Except.error.inj h).symm
      · cases h
    · exact (Except.error.inj h).symm
  · exact (Except.error.inj h).symm

theorem strptimeText_valueError {s : PyStr} {e : PyErr} (h : strptimeText s = .error e) : e = .valueError := mkStrptime_valueError h

theorem textTime_valueError {s : PyStr} {e : PyErr} (h : parseTextModeTimeStr s = .error e) : e = .valueError := by
  unfold parseTextModeTimeStr at h
  cases h1 : pyInt (s.drop (s.length - 3)) with
  | error e' =>
    rw [h1] at h
    cases h
    exact pyInt_valueError h1
  | ok q =>
    rw [h1] at h
    change (strptimeText _ >>= fun d => pure _) = _ at h
    cases h2 : strptimeText (s.take (s.length - 3)) with
    | error e' => rw [h2] at h; cases h; exact strptimeText_valueError h2
    | ok d => rw [h2] at h; cases h

theorem textStatus_keyError {s : PyStr} {e : PyErr} (h : textStatus s = .error e) : e = .keyError := by
  unfold textStatus at h
  split at h <;> cases h
  rfl

/-- Only exceptions with `P`. -/
def Only {α : Type} (P : PyErr → Prop) (x : Except PyErr α) : Prop := ∀ e, x = .error e → P e

theorem only_bind {α β : Type} {P : PyErr → Prop} {x : Except PyErr α} {f : α → Except PyErr β} (hx : Only P x) (hf : ∀ a, x = .ok a → Only P (f a)) : Only P (x >>= f) := by
  cases x with
  | ok a => exact hf a rfl
  | error e => exact fun e' h => hx e' (by cases h; rfl)

theorem only_ok {α : Type} {P : PyErr → Prop} (a : α) : Only P (.ok a : Except PyErr α) := fun _ h => nomatch h
theorem only_pure {α : Type} {P : PyErr → Prop} (a : α) : Only P (pure a : Except PyErr α) := fun _ h => nomatch h
theorem only_err {α : Type} {P : PyErr → Prop} {e : PyErr} (h : P e) : Only P (.error e : Except PyErr α) := fun _ h' => by cases h'; exact h

/-- The exceptions of a message that cannot be read. -/
def Unread (e : PyErr) : Prop := CmdFails e ∨ e = .keyError ∨ e = .encodingError ∨ Undecoded e
/-- The exceptions of a listing that cannot be read. -/
def Unlisted (e : PyErr) : Prop := CmdFails e ∨ e = .keyError ∨ Undecoded e

theorem undecoded_value : Undecoded .valueError := .inr (.inr (.inl rfl))
theorem undecoded_index : Undecoded .indexError := .inr (.inr (.inr rfl))

theorem only_decode (s : PyStr) : Only (fun e => e = .encodingError ∨ Undecoded e) (decodeSmsPdu s) := fun e h => by
  by_cases he : e = .encodingError
  · exact .inl he
  · exact .inr ((C26_string s h).2 he)

theorem only_cmgrText (ls : List PyStr) : Only Unlisted (parseCmgrText ls) := by
  have hv : Unlisted .valueError := .inr (.inr undecoded_value)
  have hk : Unlisted .keyError := .inr (.inl rfl)
  have hs : ∀ s, Only Unlisted (textStatus s) := fun s e h => textStatus_keyError h ▸ hk
  have ht : ∀ s, Only Unlisted (parseTextModeTimeStr s) := fun s e h => textTime_valueError h ▸ hv
  have hi : ∀ s, Only Unlisted (pyInt s) := fun s e h => pyInt_valueError h ▸ hv
  unfold parseCmgrText
  split
  · exact only_err (.inr (.inr undecoded_index))
  · split
    · exact only_bind (hs _) fun _ _ => only_bind (ht _) fun _ _ => only_pure _
    · split
      · exact only_bind (hs _) fun _ _ => only_bind (hi _) fun _ _ => only_bind (ht _) fun _ _ => only_bind (ht _) fun _ _ => only_bind (hi _) fun _ _ => only_pure _
      · exact only_err (.inl fails_plain)

theorem only_msgOfPdu (st : Int) (d : DecodedSms) : Only CmdFails (msgOfPdu st d) := by
  unfold msgOfPdu
  split
  · exact only_ok _
  · exact only_ok _
  · exact only_err fails_plain

theorem only_mono {α : Type} {P Q : PyErr → Prop} {x : Except PyErr α} (h : Only P x) (hPQ : ∀ e, P e → Q e) : Only Q x := fun e he => hPQ e (h e he)

theorem unlisted_unread {e : PyErr} (h : Unlisted e) : Unread e := by
  rcases h with h | h | h
  · exact .inl h
  · exact .inr (.inl h)
  · exact .inr (.inr (.inr h))

theorem only_cmgrPdu (ls : List PyStr) : Only Unread (parseCmgrPdu ls) := by
  unfold parseCmgrPdu
  split
  · exact only_err (.inr (.inr (.inr undecoded_index)))
  · split
    · split
      · exact only_err (.inr (.inr (.inr undecoded_index)))
      · exact only_bind (only_mono (only_decode _) fun e h => .inr (.inr h)) fun _ _ => only_mono (only_msgOfPdu _ _) fun e h => .inl h
    · exact only_err (.inl fails_plain)

theorem runs_read (i : PyStr) (m : Option PyStr) : Runs Unread (readStoredSms i m) (fun _ => True) := by
  unfold readStoredSms
  refine runs_bind (runs_mono (runs_setSmsMemory m) (fun e h => .inl h) fun _ h => h) fun _ _ =>
    runs_bind (runs_mono (runs_write _ _) (fun e h => .inl h) fun _ h => h) fun ls _ => runs_bind runs_get fun s _ => runs_ofExcept (fun _ _ => trivial) ?_
  cases s.smsTextMode
  · exact only_cmgrPdu ls
  · exact only_mono (only_cmgrText ls) fun _ => unlisted_unread

theorem runs_delete (i : PyStr) (m : Option PyStr) : Runs CmdFails (deleteStoredSms i m) (fun _ => True) :=
  runs_bind (runs_setSmsMemory m) fun _ _ => runs_writeUnit _ _

theorem runs_deleteMultiple {f : Int} (m : Option PyStr) (hf : 0 < f ∧ f ≤ 4) : Runs CmdFails (deleteMultipleStoredSms f m) (fun _ => True) := by
  unfold deleteMultipleStoredSms
  rw [if_pos hf]
  exact runs_bind (runs_setSmsMemory m) fun _ _ => runs_writeUnit _ _

theorem only_textSave (acc : Listing) (hdr) (ms : List PyStr) : Only Unlisted (textSave acc hdr ms) := by
  have hv : Unlisted .valueError := .inr (.inr undecoded_value)
  have hk : Unlisted .keyError := .inr (.inl rfl)
  have hs : ∀ s, Only Unlisted (textStatus s) := fun s e h => textStatus_keyError h ▸ hk
  have ht : ∀ s, Only Unlisted (parseTextModeTimeStr s) := fun s e h => textTime_valueError h ▸ hv
  have hi : ∀ s, Only Unlisted (pyInt s) := fun s e h => pyInt_valueError h ▸ hv
  unfold textSave
  split
  · split
    · exact only_bind (hs _) fun _ _ => only_bind (ht _) fun _ _ => only_bind (hi _) fun _ _ => only_pure _
    · exact only_ok _
  · exact only_ok _

theorem only_textListLoop : ∀ (ls : List PyStr) (acc : Listing) (hdr) (ms : List PyStr), Only Unlisted (textListLoop acc hdr ms ls)
  | [], acc, hdr, ms => only_textSave acc hdr ms
  | l :: ls, acc, hdr, ms => by
    unfold textListLoop
    split
    · exact only_bind (only_textSave _ _ _) fun _ _ => only_textListLoop ls _ _ _
    · split
      · exact only_textListLoop ls _ _ _
      · exact only_textListLoop ls _ _ _

theorem runs_deleteAll : ∀ is : List Int, Runs CmdFails (deleteAll is) (fun _ => True)
  | [] => runs_any (runs_pure _)
  | _ :: is => runs_bind (runs_delete _ _) fun _ _ => runs_deleteAll is

theorem runs_deleteListed (st : Int) (del : Bool) (is : List Int) : Runs CmdFails (deleteListed st del is) (fun _ => True) := by
  unfold deleteListed
  refine runs_ite (fun _ => runs_ite (fun _ => runs_deleteMultiple _ (by decide)) fun _ => ?_) fun _ => runs_any (runs_pure _)
  exact fun env he s => runs_deleteAll (env.order is) env he s

theorem only_pduList (ls : List PyStr) : Only (fun e => CmdFails e ∨ Undecoded e) (pduListLoop ⟨[], []⟩ none ls) := by
  suffices h : ∀ (ls : List PyStr) (acc : Listing) (p), Only (fun e => CmdFails e ∨ Undecoded e) (pduListLoop acc p ls) from h _ _ _
  have hi : ∀ s, Only (fun e => CmdFails e ∨ Undecoded e) (pyInt s) := fun s e h => pyInt_valueError h ▸ .inr undecoded_value
  intro ls
  induction ls with
  | nil => intro acc p; unfold pduListLoop; exact only_ok _
  | cons l ls ih =>
    intro acc p
    unfold pduListLoop
    split
    · split
      · exact only_bind (hi _) fun _ _ => only_bind (hi _) fun _ _ => ih _ _
      · exact ih _ _
    · split
      · exact ih _ _
      · next hne h =>
        rcases only_decode _ _ h with h' | h'
        · exact absurd h' hne
        · exact only_err (.inr h')
      · exact only_bind (only_mono (only_msgOfPdu _ _) fun _ h => .inl h) fun _ _ => ih _ _

theorem statusText_range {st : Int} {t : PyStr} (h : statusText? st = some t) : 0 ≤ st ∧ st ≤ 4 := by
  unfold statusText? at h
  split at h
  · omega
  split at h
  · omega
  split at h
  · omega
  split at h
  · omega
  split at h
  · omega
  · cases h

theorem runs_list (st : Int) (m : Option PyStr) (del : Bool) :
    Runs (fun e => CmdFails e ∨ (0 ≤ st ∧ st ≤ 4 ∧ e = .keyError) ∨ Undecoded e) (listStoredSms st m del) (fun _ => True) := by
  have up : ∀ {α : Type} {x : M α} {Q : α → Prop}, Runs CmdFails x Q → Runs (fun e => CmdFails e ∨ (0 ≤ st ∧ st ≤ 4 ∧ e = .keyError) ∨ Undecoded e) x Q :=
    fun h => runs_mono h (fun e h => .inl h) fun _ h => h
  unfold listStoredSms
  refine runs_bind (up (runs_setSmsMemory m)) fun _ _ => runs_bind runs_get fun s _ =>
    runs_bind (Q := fun _ => s.smsTextMode = true → 0 ≤ st ∧ st ≤ 4) (runs_ofExcept ?_ ?_) fun cmd hst =>
    runs_bind (up (runs_write _ _)) fun ls _ => runs_bind (Q := fun _ => True) (runs_ofExcept (fun _ _ => trivial) ?_) fun l _ =>
      runs_bind (up (runs_deleteListed _ _ _)) fun _ _ => runs_any (runs_pure _)
  · intro cmd h ht
    unfold listCommand at h
    rw [if_pos ht] at h
    split at h
    · cases h
    · next h' => exact statusText_range h'
  · intro e h
    unfold listCommand at h
    split at h
    · split at h <;> cases h
      exact .inr (.inr undecoded_value)
    · cases h
  · unfold parseListing
    split
    · next ht =>
      intro e he
      rcases only_textListLoop _ _ _ _ e he with h | h | h
      · exact .inl h
      · exact .inr (.inl ⟨(hst ht).1, (hst ht).2, h⟩)
      · exact .inr (.inr h)
    · intro e he
      rcases only_pduList _ e he with h | h
      · exact .inl h
      · exact .inr (.inr h)

theorem runs_callbackAll {P : PyErr → Prop} : ∀ ms : List Msg, Runs P (callbackAll ms) (fun _ => True)
  | [] => runs_any (runs_pure _)
  | _ :: ms => runs_bind (runs_modify _) fun _ _ => runs_callbackAll ms

theorem runs_process (u : Bool) : Runs Unlisted (processStoredSms u) (fun _ => True) := by
  have hl : ∀ st m del, Runs Unlisted (listStoredSms st m del) (fun _ => True) := fun st m del => runs_mono (runs_list st m del) (fun e h => by
    rcases h with h | h | h
    · exact .inl h
    · exact .inr (.inl h.2.2)
    · exact .inr (.inr h)) fun _ h => h
  unfold processStoredSms
  extract_lets k
  have hk : Runs Unlisted (k ()) (fun _ => True) := runs_bind (hl _ _ _) fun _ _ => runs_callbackAll _
  exact runs_ite (fun _ => runs_bind (hl _ _ _) fun _ _ => runs_bind (runs_callbackAll _) fun _ _ => hk) fun _ => hk

/-! ### Sending -/

theorem runs_event {P : PyErr → Prop} (ev : Event) : Runs P ev.run (fun _ => True) := by
  intro env _ s
  cases ev with
  | notify ls => exact ⟨fun _ _ => trivial, fun _ h => nomatch h⟩
  | poll k =>
    refine ⟨fun _ _ => trivial, fun e h => ?_⟩
    simp only [Event.run] at h
    split at h
    · cases h
    · split at h <;> cases h

theorem runs_await {P : PyErr → Prop} (p : St → Bool) : ∀ es : List Event, Runs P (awaitEvent p es) (fun _ => True)
  | [] => runs_bind runs_get fun _ _ => runs_any (runs_pure _)
  | e :: es => runs_bind runs_get fun _ _ => runs_ite (fun _ => runs_any (runs_pure _)) fun _ => runs_bind (runs_event e) fun _ _ => runs_await p es

theorem runs_sendPdus : ∀ (ps : List Pdu) (r : Option PyStr), Runs CmdFails (sendPdus ps r) (fun _ => True)
  | [], _ => runs_any (runs_pure _)
  | _ :: ps, _ => runs_bind (runs_write _ _) fun _ _ => runs_bind (runs_write _ _) fun _ _ => runs_sendPdus ps _

section Sending
variable [PyUnicode]

/-- The exceptions of the encoder for a message, whatever the reference. -/
def Unsendable (d t : PyStr) (f : Bool) (e : PyErr) : Prop := ∃ r, encodeSmsSubmitPdu d t r (sendFlash := f) = .error e

theorem runs_send (d t : PyStr) (f : Bool) : Runs (fun e => CmdFails e ∨ e = .valueError ∨ Unsendable d t f e) (sendSms d t f) (fun _ => True) := by
  have up : ∀ {α : Type} {x : M α} {Q : α → Prop}, Runs CmdFails x Q → Runs (fun e => CmdFails e ∨ e = .valueError ∨ Unsendable d t f e) x Q :=
    fun h => runs_mono h (fun e h => .inl h) fun _ h => h
  unfold sendSms
  refine runs_bind runs_get fun s _ => ?_
  extract_lets k
  have hk : ∀ r, Runs (fun e => CmdFails e ∨ e = .valueError ∨ Unsendable d t f e) (k r) (fun _ => True) := by
    intro r
    cases r with
    | none => exact runs_raise (.inl fails_plain)
    | some r =>
      exact runs_bind (Q := fun _ => True) (runs_ofExcept (fun _ _ => trivial) fun e h => .inr (.inl (pyInt_valueError h))) fun _ _ =>
        runs_bind (runs_modify _) fun _ _ => runs_any (runs_pure _)
  refine runs_ite (fun _ => ?_) fun _ => ?_
  · exact runs_bind (up (runs_write _ _)) fun _ _ => runs_bind (up (runs_write _ _)) fun _ _ => hk _
  · exact runs_bind (Q := fun _ => True) (runs_ofExcept (fun _ _ => trivial) fun e h => .inr (.inr ⟨_, h⟩)) fun ps _ =>
      runs_bind (up (runs_sendPdus _ _)) fun _ _ => hk _

theorem runs_sendWait (d t : PyStr) (f : Bool) (es es' : List Event) :
    Runs (fun e => CmdFails e ∨ e = .valueError ∨ Unsendable d t f e) (sendSmsWait d t f es es') (fun _ => True) := by
  unfold sendSmsWait
  exact runs_bind (runs_send d t f) fun _ _ => runs_bind (runs_await _ _) fun _ _ => runs_bind (runs_modify _) fun _ _ => runs_bind (runs_await _ _) fun _ _ =>
    runs_bind (runs_modify _) fun _ _ => runs_ite (fun _ => runs_any (runs_pure _)) fun _ => runs_raise (.inl (.silent _))
end Sending

/-! ### USSD, calls, coverage -/

theorem cusd_indexError {ls : List PyStr} (hl : 1 < ls.length) {e : PyErr} (h : parseCusdResponse ls = .error e) : e = .indexError := by
  match ls, hl with
  | _ :: _ :: _, _ =>
    simp only [parseCusdResponse] at h
    split at h
    · cases h; rfl
    · cases h
    · cases h

theorem runs_ussd (t : PyStr) (es : List Event) : Runs (fun e => CmdFails e ∨ e = .indexError) (sendUssd t es) (fun _ => True) := by
  unfold sendUssd
  refine runs_bind (runs_modify _) fun _ _ => runs_bind (Q := (· ≠ [])) (runs_except (P := CmdFails) (runs_write _ _) (fun e he _ => ?_) fun e he hp => .inl he) fun ls _ => ?_
  · exact runs_bind (runs_modify _) fun _ _ => runs_raise (.inl he)
  · refine runs_ite (fun h => ?_) fun _ => ?_
    · exact runs_bind (runs_modify _) fun _ _ => runs_bind (Q := fun _ => True) (runs_ofExcept (fun _ _ => trivial) fun e he => .inr (cusd_indexError h.1 he)) fun _ _ => runs_any (runs_pure _)
    · exact runs_bind (runs_await _ _) fun _ _ => runs_bind (runs_modify _) fun _ _ =>
        runs_ite (fun _ => runs_bind runs_get fun _ _ => runs_any (runs_pure _)) fun _ => runs_raise (.inl (.silent _))

theorem runs_writeAtd (n : PyStr) : Runs CmdFails (writeAtd n) (fun _ => True) := by
  unfold writeAtd
  exact runs_bind runs_get fun _ _ => runs_ite (fun _ => runs_writeUnit _ _) fun _ => runs_modify _

theorem writeAtd_dialEvent (env : Env) (n : PyStr) (s : St) : (writeAtd n env s).2.dialEvent = s.dialEvent := by
  obtain ⟨ok, s1, ⟨l, w, rfl⟩, _, h | h⟩ := writeAtd_run (env := env) n s
  · rw [h.2]
  · obtain ⟨_, e, h⟩ := h; rw [h]

theorem runs_registerNext {P : PyErr → Prop} (c : CallObj) : Runs P (registerNext c) (fun _ => True) :=
  fun _ _ _ => ⟨fun _ _ => trivial, fun _ h => nomatch h⟩

theorem runs_dial (n : PyStr) (t : Nat) (cb : Bool) (es : List Event) : Runs CmdFails (dial n t cb es) (fun _ => True) := by
  intro env he s
  refine ⟨fun _ _ => trivial, fun e h => ?_⟩
  unfold dial at h
  rw [run_bind, run_get] at h
  dsimp only at h
  rw [run_ite] at h
  split at h
  · rw [run_bind, run_modify] at h
    dsimp only at h
    rw [run_bind] at h
    unfold M.except at h
    have hW := (runs_writeAtd n env he { s with dialEvent := some false }).2
    have hD := writeAtd_dialEvent env n { s with dialEvent := some false }
    cases hr : writeAtd n env { s with dialEvent := some false } with
    | mk r s1 =>
      rw [hr] at h hW hD
      cases r with
      | error e' =>
        dsimp only at h
        rw [if_pos rfl] at h
        cases h
        exact hW _ rfl
      | ok u =>
        dsimp only at h
        have hk : ∀ s2 : St, s2.dialEvent = some false → ((do
            let ok ← awaitEvent (fun s => s.dialEvent = some true) es
            M.modify fun s => { s with dialEvent := none }
            if ok then do
              let s ← M.get
              match s.dialResponse with
              | none => raise .typeError
              | some (callId, callType) =>
                registerCall { incoming := false, id := callId, type := some callType, number := some n, callback := cb }
            else raise (.timeout none) : M Nat) env s2).1 = .error e → CmdFails e := by
          intro s2 h2 hk
          rw [run_bind] at hk
          obtain ⟨s', r, _, h4, h5⟩ := await_dial he.1 es h2
          rw [h4] at hk
          dsimp only at hk
          rw [run_bind, run_modify] at hk
          dsimp only at hk
          cases r with
          | none => cases hk; exact .silent _
          | some p =>
            obtain ⟨a, b⟩ := p
            rw [run_ite, if_pos (show (some (a, b)).isSome = true from rfl), run_bind, run_get] at hk
            dsimp only at hk
            rw [h5 a b rfl] at hk
            cases hk
        rw [run_ite] at h
        split at h
        · rw [run_bind, run_modify] at h
          dsimp only at h
          refine hk _ ?_ h
          exact hD
        · exact hk _ hD h
  · exact (runs_bind (R := fun _ => True) (runs_writeAtd n) (fun _ _ => runs_registerNext _) env he s).2 e h

theorem runs_setAnswered {P : PyErr → Prop} (i : Nat) (v : Bool) : Runs P (setAnswered i v) (fun _ => True) := by
  unfold setAnswered
  refine runs_bind (runs_modify _) fun _ _ => runs_bind runs_get fun s _ => ?_
  split
  · exact runs_ite (fun _ => runs_modify _) fun _ => runs_any (runs_pure _)
  · exact runs_any (runs_pure _)

theorem runs_hangup (i : Nat) : Runs CmdFails (hangup i) (fun _ => True) := by
  unfold hangup
  refine runs_bind runs_get fun s _ => ?_
  split
  · exact runs_any (runs_pure _)
  · refine runs_bind (Q := fun _ => True) ?_ fun _ _ => runs_bind (Q := fun _ => True) ?_ fun _ _ => runs_modify _
    · exact runs_ite (fun _ => runs_modify _) fun _ => runs_any (runs_pure _)
    · exact runs_ite (fun _ => runs_bind (runs_write _ _) fun _ _ => runs_bind (runs_setAnswered _ _) fun _ _ => runs_modify _) fun _ => runs_any (runs_pure _)

theorem runs_answer (i : Nat) : Runs CmdFails (answer i) (fun _ => True) := by
  unfold answer
  refine runs_bind runs_get fun s _ => ?_
  split
  · exact runs_any (runs_pure _)
  · exact runs_ite (fun _ => runs_bind (runs_write _ _) fun _ _ => runs_bind (runs_modify _) fun _ _ => runs_setAnswered _ _) fun _ => runs_any (runs_pure _)

theorem brace_iff (t : PyStr) : BraceAfterFirst t ↔ (t.drop 1).any (fun c => c = 123 ∨ c = 125) = true := by
  simp [BraceAfterFirst]

theorem dtmfCmd_error {base t : PyStr} {e : PyErr} (h : dtmfCmd base t = .error e) : BraceAfterFirst t ∧ e = .valueError := by
  match t with
  | [] => cases h
  | [_] => cases h
  | c :: d :: ts =>
    simp only [dtmfCmd] at h
    split at h
    · next hb => cases h; exact ⟨(brace_iff _).2 hb, rfl⟩
    · cases h

theorem dtmfCmd_brace {t : PyStr} (base : PyStr) (h : BraceAfterFirst t) : dtmfCmd base t = .error .valueError := by
  match t with
  | [] => obtain ⟨c, hc, _⟩ := h; simp at hc
  | [_] => obtain ⟨c, hc, _⟩ := h; simp at hc
  | c :: d :: ts =>
    simp only [dtmfCmd]
    rw [if_pos]
    exact (brace_iff _).1 h

theorem dtmf_fails {e : PyErr} (h : CmdFails e) (hc : isCmeError e = true) :
    dtmfError e = .interrupted 3 ∨ dtmfError e = .interrupted 30 ∨ (dtmfError e = e ∧ e ≠ errorFor py!"CME" 3 ∧ e ≠ errorFor py!"CME" 30) := by
  cases h with
  | silent d => cases hc
  | busy => cases hc
  | refused h =>
    cases h with
    | plain => cases hc
    | @code ty n h h1 h2 =>
      rcases h with rfl | rfl
      · by_cases h3 : n = 3
        · subst h3; exact .inl rfl
        · by_cases h30 : n = 30
          · subst h30; exact .inr (.inl rfl)
          · refine .inr (.inr ⟨?_, ?_, ?_⟩)
            · unfold errorFor dtmfError
              simp [h3, h30]
            · intro h; unfold errorFor at h; simp [h3] at h
            · intro h; unfold errorFor at h; simp [h30] at h
      · exfalso
        unfold errorFor at hc
        rw [if_neg (by decide)] at hc
        split at hc <;> cases hc

theorem runs_dtmf (i : Nat) (t : PyStr) : Runs (fun e => e = .invalidState ∨ (BraceAfterFirst t ∧ e = .valueError) ∨
      (¬ BraceAfterFirst t ∧ (e = .interrupted 3 ∨ e = .interrupted 30 ∨ (CmdFails e ∧ e ≠ errorFor py!"CME" 3 ∧ e ≠ errorFor py!"CME" 30))))
    (sendDtmfTone i t) (fun _ => True) := by
  unfold sendDtmfTone
  refine runs_bind runs_get fun s _ => ?_
  split
  · exact runs_any (runs_pure _)
  · refine runs_ite (fun _ => ?_) fun _ => runs_raise (.inl rfl)
    refine runs_bind (Q := fun _ => ¬ BraceAfterFirst t) (runs_ofExcept (fun a ha hb => ?_) fun e h => .inr (.inl (dtmfCmd_error h))) fun cmd hb => ?_
    · rw [dtmfCmd_brace _ hb] at ha; cases ha
    · refine runs_except (P := CmdFails) (runs_bind (runs_write _ _) fun _ _ => runs_any (runs_pure _)) (fun e he hc => runs_raise (.inr (.inr ⟨hb, ?_⟩))) fun e he hc => .inr (.inr ⟨hb, .inr (.inr ⟨he, ?_, ?_⟩)⟩)
      · rcases dtmf_fails he hc with h | h | ⟨h, h'⟩
        · exact .inl h
        · exact .inr (.inl h)
        · exact .inr (.inr ⟨h.symm ▸ he, h.symm ▸ h'⟩)
      · rintro rfl; cases hc
      · rintro rfl; cases hc

theorem runs_coverage : ∀ (r : Nat) (b : Bool), Runs (fun e => (∃ d, e = .timeout d) ∨ e = .invalidState ∨ ((2 ≤ r ∨ (b = false ∧ 1 ≤ r)) ∧ CmdFails e)) (coverageLoop r b) (fun _ => True)
  | 0, _ => by unfold coverageLoop; exact runs_raise (.inl ⟨_, rfl⟩)
  | r + 1, true => by
    have ih := runs_coverage r
    have up : ∀ b, Runs (fun e => (∃ d, e = .timeout d) ∨ e = .invalidState ∨ ((2 ≤ r + 1 ∨ (true = false ∧ 1 ≤ r + 1)) ∧ CmdFails e)) (coverageLoop r b) (fun _ => True) := by
      intro b
      refine runs_mono (ih b) (fun e h => ?_) fun _ h => h
      rcases h with h | h | ⟨h, h'⟩
      · exact .inl h
      · exact .inr (.inl h)
      · exact .inr (.inr ⟨.inl (by omega), h'⟩)
    unfold coverageLoop
    refine runs_bind (runs_mono (runs_writeUnparsed _ _) (fun e h => .inl h) fun _ h => h) fun ls _ => ?_
    split
    · next d g hg =>
      obtain ⟨p, l, q, _, hl, _⟩ := (C52_first_match _ _ _).1 hg
      obtain ⟨d', n, h1, b', t', _, _, _, _, hn, _⟩ := creg_iff.1 hl
      cases h1
      refine runs_bind (Q := fun _ => True) (runs_ofExcept (fun _ _ => trivial) fun e h => ?_) fun st _ =>
        runs_ite (fun _ => up _) fun _ => runs_ite (fun _ => runs_raise (.inr (.inl rfl))) fun _ => runs_ite (fun _ => runs_raise (.inr (.inl rfl))) fun _ => up _
      rw [pyInt_of_digits ⟨by simp, by simp; omega⟩] at h
      cases h
    · exact up _
  | r + 1, false => by
    unfold coverageLoop
    refine runs_bind (runs_mono runs_signalStrength (fun e h => .inr (.inr ⟨.inr ⟨rfl, by omega⟩, h⟩)) fun _ h => h) fun ss _ => runs_ite (fun _ => runs_any (runs_pure _)) fun _ => ?_
    refine runs_mono (runs_coverage r false) (fun e h => ?_) fun _ h => h
    rcases h with h | h | ⟨h, h'⟩
    · exact .inl h
    · exact .inr (.inl h)
    · exact .inr (.inr ⟨.inr ⟨rfl, by omega⟩, h'⟩)

/-! ### `connect` -/

theorem connect_fails (e : PyErr) (h : CmdFails e) : ConnectMayRaise e := .inl h

theorem intFrom7_error {l : Option PyStr} {e : PyErr} (h : intFrom7 l = .error e) : ConnectMayRaise e := by
  unfold intFrom7 at h
  split at h
  · cases h; exact .inr (.inl rfl)
  · exact .inr (.inr (.inl (pyInt_valueError h)))

theorem runs_unlockSim (pin : Option PyStr) : Runs CmdFails (unlockSim pin) (fun _ => True) := by
  unfold unlockSim
  refine runs_bind (Q := fun _ => True) (runs_except (P := CmdFails) (runs_bind (runs_write _ _) fun _ _ => runs_any (runs_pure _)) (fun e he _ => ?_) fun e he _ => he) fun r _ => ?_
  · split
    · split
      · exact runs_any (runs_pure _)
      · exact runs_raise he
    · exact runs_raise he
  · refine runs_ite (fun _ => ?_) fun _ => runs_any (runs_pure _)
    split
    · exact runs_writeUnit _ _
    · exact runs_raise (.refused (.code (ty := py!"CME") (n := 11) (.inl rfl) (by decide) (by decide)))

theorem up_fails {α : Type} {x : M α} {Q : α → Prop} (h : Runs CmdFails x Q) : Runs ConnectMayRaise x Q := runs_mono h connect_fails fun _ h => h
theorem up_timedOut {α : Type} {x : M α} {Q : α → Prop} (h : Runs TimedOut x Q) : Runs ConnectMayRaise x Q := runs_mono h (fun e h => .inl (timedOut_fails e h)) fun _ h => h

theorem runs_connectRest (pin : Option PyStr) (b : Bool) : Runs ConnectMayRaise (connectRest pin b) (fun _ => True) := by
  unfold connectRest
  refine runs_bind (up_fails (runs_write _ _)) fun _ _ => runs_bind (Q := fun _ => True) (runs_except (P := ConnectMayRaise) ?_ (fun e _ _ => runs_any (runs_pure _)) fun e he _ => he) fun _ _ =>
    runs_bind (up_fails (runs_write _ _)) fun _ _ => runs_ite (fun _ => up_fails (runs_unlockSim pin)) fun _ => runs_any (runs_pure _)
  exact runs_bind (up_fails (runs_write _ _)) fun _ _ => runs_bind (Q := fun _ => True) (runs_ofExcept (fun _ _ => trivial) fun e h => intFrom7_error h) fun _ _ =>
    runs_ite (fun _ => up_fails (runs_writeUnit _ _)) fun _ => runs_any (runs_pure _)

theorem runs_try {α : Type} {P : PyErr → Prop} {m : M α} {Q : α → Prop} (h : Runs P m Q) : Runs P (M.tryCommand m) (fun o => ∀ a, o = some a → Q a) :=
  runs_tryCommand h fun _ h _ => h

theorem runs_connectBasics (pin : Option PyStr) : Runs ConnectMayRaise (connectBasics pin) (fun _ => True) := by
  unfold connectBasics
  refine runs_bind (up_fails (runs_try (runs_write _ _))) fun r _ => ?_
  split
  · exact runs_bind (up_timedOut (runs_writeUnparsed _ _)) fun _ _ => runs_bind (up_fails (runs_unlockSim pin)) fun _ _ =>
      runs_bind (up_fails (runs_write _ _)) fun _ _ => runs_connectRest pin true
  · exact runs_connectRest pin false

theorem runs_trivial {α β : Type} {P : PyErr → Prop} {m : M α} {f : α → M β} {R : β → Prop} (hm : Runs P m (fun _ => True)) (hf : ∀ a, Runs P (f a) R) : Runs P (m >>= f) R :=
  runs_bind hm fun a _ => hf a

theorem runs_tryWrite (cmd : PyStr) : Runs ConnectMayRaise (M.tryCommand (write cmd)) (fun _ => True) := runs_any (up_fails (runs_try (runs_write _ _)))
theorem runs_getSmsc_connect : Runs ConnectMayRaise getSmsc (fun _ => True) := runs_mono runs_getSmsc (fun e h => .inl h.1) fun _ h => h

/-- One step of a straightforward program. -/
macro "runs_steps" : tactic => `(tactic| repeat' first
  | exact runs_any (runs_pure _)
  | exact runs_modify _
  | exact up_fails (runs_any (runs_write _ _))
  | exact up_timedOut (runs_any (runs_writeUnparsed _ _))
  | exact runs_tryWrite _
  | exact runs_getSmsc_connect
  | exact up_fails (runs_setSmsc _)
  | exact runs_get
  | refine runs_ite (fun _ => ?_) (fun _ => ?_)
  | refine runs_trivial ?_ (fun _ => ?_)
  | split)

theorem runs_identifyCommands (cs : List PyStr) : Runs ConnectMayRaise (identifyCommands cs) (fun _ => True) := by
  unfold identifyCommands
  runs_steps

theorem runs_identifyWind (h : Nat) : Runs ConnectMayRaise (identifyWind h) (fun _ => True) := by
  unfold identifyWind
  refine runs_bind (runs_any (up_fails (runs_try (runs_bind (runs_write _ _) fun _ _ => runs_any (runs_pure _))))) fun r _ => ?_
  split
  · exact runs_any (runs_pure _)
  · refine runs_bind (Q := fun _ => True) (runs_ofExcept (fun _ _ => trivial) fun e h => intFrom7_error h) fun n _ => ?_
    exact runs_ite (fun _ => runs_bind (up_fails (runs_write _ _)) fun _ _ => runs_any (runs_pure _)) fun _ => runs_any (runs_pure _)

theorem runs_identifyOther (h : Nat) : Runs ConnectMayRaise (identifyOther h) (fun _ => True) := by
  unfold identifyOther
  refine runs_ite (fun _ => runs_bind (up_fails (runs_query _)) fun m _ => runs_ite (fun _ => runs_any (runs_pure _)) fun _ => ?_) fun _ => runs_any (runs_pure _)
  refine runs_bind (runs_any (up_fails (runs_try (runs_write _ _)))) fun r _ => ?_
  split <;> exact runs_any (runs_pure _)

theorem runs_connectIdentify : Runs ConnectMayRaise connectIdentify (fun _ => True) := by
  unfold connectIdentify
  refine runs_bind (runs_mono runs_supportedCommands (fun e h => ?_) fun _ h => h) fun cs _ => ?_
  · rcases h with ⟨d, rfl⟩ | rfl
    · exact .inl (.silent d)
    · exact .inl .busy
  · have hk : ∀ (x : Nat) (b : Bool), Runs ConnectMayRaise (do
        let hint ← if b then identifyWind x else pure x
        let hint ← identifyOther hint
        pure (hint, cs) : M (Nat × Option (List PyStr))) (fun _ => True) := by
      intro x b
      cases b
      · exact runs_bind (runs_any (runs_pure _)) fun _ _ => runs_bind (runs_identifyOther _) fun _ _ => runs_any (runs_pure _)
      · exact runs_bind (runs_identifyWind _) fun _ _ => runs_bind (runs_identifyOther _) fun _ _ => runs_any (runs_pure _)
    split
    · exact runs_bind (runs_identifyCommands _) fun p _ => hk p.1 p.2
    · exact hk 0 true

theorem runs_connectMemory : Runs ConnectMayRaise connectMemory (fun _ => True) := by
  unfold connectMemory
  refine runs_bind (runs_any (up_fails (runs_try (runs_bind (runs_write _ _) fun _ _ => runs_any (runs_pure _))))) fun r _ => ?_
  split
  · exact runs_modify _
  · exact runs_raise (.inr (.inr (.inr (.inl rfl))))
  · split
    · exact runs_raise (.inr (.inr (.inr (.inr rfl))))
    · refine runs_ite (fun _ => runs_modify _) fun _ => ?_
      split
      · exact runs_bind (runs_modify _) fun _ _ => up_fails (runs_writeUnit _ _)
      · exact up_fails (runs_writeUnit _ _)

theorem runs_connectSms : Runs ConnectMayRaise connectSms (fun _ => True) := by
  unfold connectSms
  runs_steps

theorem runs_connectNotifications : Runs ConnectMayRaise connectNotifications (fun _ => True) := by
  unfold connectNotifications
  runs_steps

theorem runs_connect (pin : Option PyStr) : Runs ConnectMayRaise (connect pin) (fun _ => True) := by
  unfold connect
  exact runs_bind (runs_modify _) fun _ _ => runs_bind (runs_connectBasics pin) fun _ _ => runs_bind runs_connectIdentify fun p _ =>
    runs_bind (runs_modify _) fun _ _ => runs_bind runs_connectSms fun _ _ => runs_bind runs_connectMemory fun _ _ => runs_connectNotifications
