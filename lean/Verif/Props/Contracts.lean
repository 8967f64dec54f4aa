import Verif.Lemmas.ContractsWitness
/-! # C86: which exceptions a method of the modem can raise -/
namespace Gsm
open M Spec

section Ops
variable [PyUnicode]

/-- C86: whatever the modem answers (no response being empty) and in any state, an operation raises only the exceptions listed for it. -/
theorem C86_only {op : Op} {env : Env} {s : St} {e : PyErr} (he : AnswersAll env) (h : (op.run env s).1 = .error e) : MayRaise Unsendable op e := by
  have use : ∀ {P : PyErr → Prop} {m : M Unit}, Runs P m (fun _ => True) → (m env s).1 = .error e → P e := fun hm h => (hm env he s).2 e h
  cases op with
  | event ev => exact use (runs_event (P := fun _ => False) ev) h
  | setTextMode v => exact use (runs_setSmsTextMode v) h
  | setSmsc n => exact use (runs_setSmsc n) h
  | getSmsc => exact use (runs_discard runs_getSmsc) h
  | signalStrength => exact use (runs_discard runs_signalStrength) h
  | manufacturer => exact use (runs_discard (runs_query _)) h
  | model => exact use (runs_discard (runs_query _)) h
  | revision => exact use (runs_discard runs_revision) h
  | imei => exact use (runs_discard (runs_query _)) h
  | imsi => exact use (runs_discard (runs_query _)) h
  | networkName => exact use (runs_discard runs_networkName) h
  | supportedCommands => exact use (runs_discard runs_supportedCommands) h
  | waitForNetworkCoverage r =>
    match r with
    | 0 => cases h; rfl
    | 1 =>
      rcases use (runs_discard (runs_coverage 1 true)) h with h | h | ⟨h, _⟩
      · exact .inl h
      · exact .inr h
      · simp at h
    | r + 2 =>
      rcases use (runs_discard (runs_coverage (r + 2) true)) h with ⟨d, rfl⟩ | h | ⟨_, h⟩
      · exact .inl (.silent d)
      · exact .inr h
      · exact .inl h
  | read i m => exact use (runs_discard (runs_read i m)) h
  | delete i m => exact use (runs_delete i m) h
  | deleteMultiple f m =>
    by_cases hf : 0 < f ∧ f ≤ 4
    · exact (if_pos hf).mpr (use (runs_deleteMultiple m hf) h)
    · refine (if_neg hf).mpr ?_
      change (deleteMultipleStoredSms f m env s).1 = _ at h
      unfold deleteMultipleStoredSms at h
      rw [if_neg hf] at h
      cases h
      rfl
  | list st m d => exact use (runs_discard (runs_list st m d)) h
  | process u => exact use (runs_process u) h
  | send d t f => exact use (runs_discard (runs_send d t f)) h
  | sendWait d t f es es' => exact use (runs_discard (runs_sendWait d t f es es')) h
  | ussd t es => exact use (runs_discard (runs_ussd t es)) h
  | ussdReply u t es =>
    cases hu : u.sessionActive with
    | true =>
      refine (if_pos hu).mpr (use (runs_discard (runs_ussd t es)) ?_)
      rw [← h]
      simp [Op.run, Ussd.reply, hu]
    | false =>
      refine (if_neg (by simp [hu])).mpr ?_
      simp [Op.run, Ussd.reply, hu, discard, run_bind, run_raise] at h
      exact h.symm
  | ussdCancel u =>
    cases hu : u.sessionActive with
    | true =>
      refine ⟨hu, use (runs_writeUnit py!"AT+CUSD=2" [13]) ?_⟩
      rw [← h]
      simp [Op.run, Ussd.cancel, hu]
    | false =>
      simp [Op.run, Ussd.cancel, hu, run_pure] at h
  | dial n t cb es => exact use (runs_discard (runs_dial n t cb es)) h
  | answer c => exact use (runs_answer c) h
  | hangup c => exact use (runs_hangup c) h
  | dtmf c t => exact use (runs_dtmf c t) h

/-- C86: and each of them can be raised, with a modem that ends every response with a final result code. -/
theorem C86_can {op : Op} {e : PyErr} (h : MayRaise Unsendable op e) : ∃ env s, Proper env ∧ (op.run env s).1 = .error e := by
  -- the first command fails
  have first : ∀ {op : Op} {s : St}, CmdFails e → (∀ env, EachFails env e → GivesBack env e → (op.run env s).1 = .error e) → ∃ env s, Proper env ∧ (op.run env s).1 = .error e :=
    fun hc h => by obtain ⟨env, h1, h2, h3⟩ := fails_witness hc; exact ⟨env, _, h1, h env h2 h3⟩
  have silent : ∀ {op : Op} {s : St}, ((∃ d, e = .timeout d) ∨ e = .recursionError) → (∀ env, EachFails env e → (∀ c n, e ≠ .command c n) → (op.run env s).1 = .error e) →
      ∃ env s, Proper env ∧ (op.run env s).1 = .error e := by
    intro op s hc h
    refine first (s := s) ?_ fun env hf _ => h env hf ?_
    · rcases hc with ⟨d, rfl⟩ | rfl
      · exact .silent d
      · exact .busy
    · rintro c n rfl
      simp at hc
  cases op with
  | event ev => exact absurd h id
  | setTextMode v =>
    refine first (s := { smsTextMode := !v }) h fun env hf _ => ?_
    change (setSmsTextMode v env _).1 = _
    unfold setSmsTextMode
    rw [go_bind (run_get _), if_pos (by cases v <;> simp), if_pos rfl]
    exact fail_bind (hf _ _ _)
  | setSmsc n =>
    refine first (s := { smscNumber := if n = none then some [] else none }) h fun env hf _ => ?_
    change (setSmsc n env _).1 = _
    unfold setSmsc
    rw [go_bind (run_get _), if_pos (by cases n <;> simp), if_pos rfl]
    exact fail_bind (hf _ _ _)
  | getSmsc =>
    refine first (s := {}) h.1 fun env hf _ => fail_discard ?_
    unfold getSmsc
    rw [go_bind (run_get _)]
    refine fail_bind (fail_except (fail_bind (hf _ _ _)) ?_)
    have hn := not_unknown h.1 h.2
    cases e with
    | command c n => cases c <;> first | rfl | exact absurd rfl (hn _)
    | _ => rfl
  | signalStrength => exact first (s := {}) h fun env hf _ => fail_discard (first_signal hf _)
  | manufacturer => exact first (s := {}) h fun env hf _ => fail_discard (fail_bind (hf _ _ _))
  | model => exact first (s := {}) h fun env hf _ => fail_discard (fail_bind (hf _ _ _))
  | imei => exact first (s := {}) h fun env hf _ => fail_discard (fail_bind (hf _ _ _))
  | imsi => exact first (s := {}) h fun env hf _ => fail_discard (fail_bind (hf _ _ _))
  | networkName => exact first (s := {}) h fun env hf _ => fail_discard (fail_bind (hf _ _ _))
  | revision =>
    refine silent (s := {}) h fun env hf hc => fail_discard (fail_except (fail_bind (fail_bind (hf _ _ _))) ?_)
    cases e <;> first | rfl | exact absurd rfl (hc _ _)
  | supportedCommands =>
    refine silent (s := {}) h fun env hf hc => fail_discard (fail_except (fail_bind (hf _ _ _)) ?_)
    cases e <;> first | rfl | exact absurd rfl (hc _ _)
  | waitForNetworkCoverage r =>
    have denied : ∀ r, ∃ env s, Proper env ∧ ((Op.waitForNetworkCoverage (r + 1)).run env s).1 = .error .invalidState := by
      intro r
      refine ⟨_, {}, proper_gives [py!"+CREG: 0,3"], fail_discard ?_⟩
      unfold waitForNetworkCoverage
      rw [coverageLoop, go_bind (gives_writeUnparsed _ _ _ _)]
      have : lineMatching (rxGroups cregRegex) ([py!"+CREG: 0,3"] ++ [py!"OK"]) = some [py!"0", py!"3"] := by decide
      rw [this]
      rfl
    match r, h with
    | 0, h => exact ⟨gives [], {}, proper_gives _, by rw [show e = .timeout none from h]; rfl⟩
    | 1, h =>
      rcases h with ⟨d, rfl⟩ | rfl
      · refine ⟨_, {}, proper_timeout d, ?_⟩
        exact fail_discard (fail_bind (by rw [C32_timeout (env := saying (.timeout d)) (d := d) Nat.one_pos rfl]))
      · exact denied 0
    | r + 2, h =>
      rcases h with h | rfl
      · exact first (s := {}) h fun env hf hg => fail_discard (first_coverage hf hg r _)
      · exact denied (r + 1)
  | read i m =>
    rcases h with h | rfl | h
    · exact first (s := {}) h fun env hf _ => fail_discard (first_setSmsMemory_then hf m fun s1 _ => fail_bind (hf _ _ _))
    · exact ⟨_, _, proper_gives _, fail_discard (gives_read (textMode := true) (by rw [if_pos rfl]; exact read_unknown) i m)⟩
    · obtain ⟨pdu, h⟩ := read_undecoded h
      exact ⟨_, _, proper_gives _, fail_discard (gives_read (textMode := false) (by rw [if_neg (by simp)]; exact h) i m)⟩
  | delete i m => exact first (s := {}) h fun env hf _ => first_setSmsMemory_then hf m fun s1 _ => fail_bind (hf _ _ _)
  | deleteMultiple f m =>
    by_cases hf : 0 < f ∧ f ≤ 4
    · refine first (s := {}) ((if_pos hf).mp h) fun env hc _ => ?_
      change (deleteMultipleStoredSms f m env _).1 = _
      unfold deleteMultipleStoredSms
      rw [if_pos hf]
      exact first_setSmsMemory_then hc m fun s1 _ => fail_bind (hc _ _ _)
    · have h := (if_neg hf).mp h
      refine ⟨_, {}, proper_gives [], ?_⟩
      change (deleteMultipleStoredSms f m _ _).1 = _
      unfold deleteMultipleStoredSms
      rw [if_neg hf, h]
      rfl
  | list st m d =>
    rcases h with h | ⟨h1, h2, rfl⟩ | h
    · exact first h fun env hf _ => fail_discard (first_list hf st m d)
    · exact ⟨_, _, proper_gives _, fail_discard (gives_list (fun _ => ⟨h1, h2⟩) list_unknown m d)⟩
    · obtain ⟨pdu, h⟩ := list_undecoded h
      exact ⟨_, _, proper_gives _, fail_discard (gives_list (by simp) h m d)⟩
  | process u =>
    have go : ∀ {env : Env} {s : St}, (∀ st m d, (0 ≤ st ∧ st ≤ 4) → (listStoredSms st m d env s).1 = .error e) → (processStoredSms u env s).1 = .error e := by
      intro env s hl
      unfold processStoredSms
      cases u with
      | true => rw [if_neg (by simp)]; exact fail_bind (hl _ _ _ (by decide))
      | false => rw [if_pos (by simp)]; exact fail_bind (hl _ _ _ (by decide))
    rcases h with h | rfl | h
    · exact first h fun env hf _ => go fun st m d _ => first_list hf st m d
    · exact ⟨_, _, proper_gives _, go fun st m d hs => gives_list (fun _ => hs) list_unknown m d⟩
    · obtain ⟨pdu, h⟩ := list_undecoded h
      exact ⟨_, _, proper_gives _, go fun st m d _ => gives_list (by simp) h m d⟩
  | send d t f =>
    rcases h with h | rfl | ⟨r, h⟩
    · exact first h fun env hf _ => fail_discard (first_send hf d t f)
    · exact ⟨_, _, proper_gives _, fail_discard (gives_send d t f)⟩
    · exact ⟨_, _, proper_gives [], fail_discard (unsendable_send h _)⟩
  | sendWait d t f es es' =>
    rcases h with h | rfl | ⟨r, h⟩
    · exact first h fun env hf _ => fail_discard (fail_bind (first_send hf d t f))
    · exact ⟨_, _, proper_gives _, fail_discard (fail_bind (gives_send d t f))⟩
    · exact ⟨_, _, proper_gives [], fail_discard (fail_bind (unsendable_send h _))⟩
  | ussd t es =>
    rcases h with h | rfl
    · exact first (s := {}) h fun env hf _ => fail_discard (first_ussd hf t es _)
    · exact ⟨_, _, proper_gives _, fail_discard (gives_ussd t es)⟩
  | ussdReply u t es =>
    cases hu : u.sessionActive with
    | true =>
      have hr : u.reply t es = sendUssd t es := by simp [Ussd.reply, hu]
      rcases (if_pos hu).mp h with h | rfl
      · exact first (s := {}) h fun env hf _ => fail_discard (by rw [hr]; exact first_ussd hf t es _)
      · exact ⟨_, _, proper_gives _, fail_discard (by rw [hr]; exact gives_ussd t es)⟩
    | false =>
      have h := (if_neg (by simp [hu])).mp h
      exact ⟨_, {}, proper_gives [], fail_discard (by rw [h]; simp [Ussd.reply, hu, run_raise])⟩
  | ussdCancel u =>
    refine first (s := {}) h.2 fun env hf _ => ?_
    change (u.cancel env _).1 = _
    unfold Ussd.cancel
    rw [if_pos h.1]
    exact fail_bind (hf _ _ _)
  | dial n t cb es => exact first h fun env hf _ => fail_discard (first_dial hf n t cb es)
  | answer c => exact first h fun env hf _ => first_answer hf c
  | hangup c => exact first h fun env hf _ => first_hangup hf c
  | dtmf c t =>
    have hl : ∀ x : CallObj, (List.replicate (c + 1) x)[c]? = some x := fun x => by rw [List.getElem?_replicate]; simp
    rcases h with rfl | ⟨hb, rfl⟩ | ⟨hb, h⟩
    · refine ⟨_, { calls := List.replicate (c + 1) aCallRinging }, proper_gives [], ?_⟩
      change (sendDtmfTone c t _ _).1 = _
      unfold sendDtmfTone
      rw [go_bind (run_get _)]
      dsimp only
      rw [hl]
      rfl
    · refine ⟨_, { calls := List.replicate (c + 1) aCallAnswered }, proper_gives [], ?_⟩
      change (sendDtmfTone c t _ _).1 = _
      unfold sendDtmfTone
      rw [go_bind (run_get _)]
      dsimp only
      rw [hl]
      dsimp only
      rw [if_pos (show aCallAnswered.answered = true from rfl)]
      refine fail_bind ?_
      rw [run_ofExcept, dtmfCmd_brace _ hb]
    · have interrupted : ∀ n, n = 3 ∨ n = 30 → ∃ env s, Proper env ∧ ((Op.dtmf c t).run env s).1 = .error (.interrupted n) := by
        intro n hn
        obtain ⟨env, h1, h2, _⟩ := fails_witness (.refused (.code (ty := py!"CME") (n := n) (.inl rfl) (by omega) (by omega)))
        refine ⟨env, _, h1, (first_dtmf h2 hb c).trans ?_⟩
        rw [if_pos (by rcases hn with rfl | rfl <;> rfl), dtmf_interrupted hn]
      rcases h with rfl | rfl | ⟨h, h3, h30⟩
      · exact interrupted 3 (.inl rfl)
      · exact interrupted 30 (.inr rfl)
      · exact first h fun env hf _ => (first_dtmf hf hb c).trans (by rw [dtmf_same h h3 h30])

/-- C86: so these are exactly the exceptions of each operation. -/
theorem C86_exact (op : Op) (e : PyErr) : MayRaise Unsendable op e ↔ ∃ env s, AnswersAll env ∧ (op.run env s).1 = .error e :=
  ⟨fun h => by obtain ⟨env, s, h1, h2⟩ := C86_can h; exact ⟨env, s, proper_answers h1, h2⟩, fun ⟨_, _, h1, h2⟩ => C86_only h1 h2⟩

/-- C86: the operations with a general Python exception other than that of the endless retries. -/
theorem C86_lets_through (op : Op) : (∃ e, MayRaise Unsendable op e ∧ ¬ OfLibrary e ∧ e ≠ .recursionError) ↔ LetsThrough op := by
  have key : ∀ {e : PyErr}, CmdFails e → OfLibrary e ∨ e = .recursionError := by
    intro e h
    by_cases hc : ∃ c n, e = .command c n
    · obtain ⟨c, n, rfl⟩ := hc
      exact .inl trivial
    · rcases fails_not_command h (fun c n h => hc ⟨c, n, h⟩) with ⟨d, rfl⟩ | h
      · exact .inl trivial
      · exact .inr h
  have no : ∀ {e : PyErr}, CmdFails e → ¬ OfLibrary e → e ≠ .recursionError → False := fun h h1 h2 => (key h).elim h1 h2
  have nt : ∀ {e : PyErr}, ((∃ d, e = .timeout d) ∨ e = .recursionError) → ¬ OfLibrary e → e ≠ .recursionError → False := by
    rintro e (⟨d, rfl⟩ | rfl) h1 h2
    · exact h1 trivial
    · exact h2 rfl
  cases op with
  | read i m => exact ⟨fun _ => trivial, fun _ => ⟨.keyError, .inr (.inl rfl), id, by simp⟩⟩
  | list st m d => exact ⟨fun _ => trivial, fun _ => ⟨.valueError, .inr (.inr undecoded_value), id, by simp⟩⟩
  | process u => exact ⟨fun _ => trivial, fun _ => ⟨.valueError, .inr (.inr undecoded_value), id, by simp⟩⟩
  | send d t f => exact ⟨fun _ => trivial, fun _ => ⟨.valueError, .inr (.inl rfl), id, by simp⟩⟩
  | sendWait d t f es es' => exact ⟨fun _ => trivial, fun _ => ⟨.valueError, .inr (.inl rfl), id, by simp⟩⟩
  | ussd t es => exact ⟨fun _ => trivial, fun _ => ⟨.indexError, .inr rfl, id, by simp⟩⟩
  | deleteMultiple f m =>
    refine ⟨fun ⟨e, h, h1, h2⟩ hf => no ((if_pos hf).mp h) h1 h2, fun hf => ⟨.valueError, (if_neg hf).mpr rfl, id, by simp⟩⟩
  | ussdReply u t es =>
    refine ⟨fun ⟨e, h, h1, h2⟩ => ?_, fun hu => ⟨.indexError, (if_pos hu).mpr (.inr rfl), id, by simp⟩⟩
    show u.sessionActive = true
    cases hu : u.sessionActive with
    | true => rfl
    | false =>
      obtain rfl := (if_neg (by simp [hu])).mp h
      exact absurd trivial h1
  | dtmf c t =>
    refine ⟨fun ⟨e, h, h1, h2⟩ => ?_, fun hb => ⟨.valueError, .inr (.inl ⟨hb, rfl⟩), id, by simp⟩⟩
    rcases h with rfl | ⟨hb, _⟩ | ⟨_, h⟩
    · exact absurd trivial h1
    · exact hb
    · rcases h with rfl | rfl | ⟨h, _⟩
      · exact absurd trivial h1
      · exact absurd trivial h1
      · exact (no h h1 h2).elim
  | event ev => exact ⟨fun ⟨e, h, h1, h2⟩ => h.elim, fun h => h.elim⟩
  | getSmsc => exact ⟨fun ⟨e, h, h1, h2⟩ => (no h.1 h1 h2).elim, fun h => h.elim⟩
  | revision => exact ⟨fun ⟨e, h, h1, h2⟩ => (nt h h1 h2).elim, fun h => h.elim⟩
  | supportedCommands => exact ⟨fun ⟨e, h, h1, h2⟩ => (nt h h1 h2).elim, fun h => h.elim⟩
  | waitForNetworkCoverage r =>
    refine ⟨fun ⟨e, h, h1, h2⟩ => ?_, fun h => h.elim⟩
    match r, h with
    | 0, h => obtain rfl : e = .timeout none := h; exact absurd trivial h1
    | 1, h =>
      rcases h with ⟨d, rfl⟩ | rfl
      · exact absurd trivial h1
      · exact absurd trivial h1
    | r + 2, h =>
      rcases h with h | rfl
      · exact (no h h1 h2).elim
      · exact absurd trivial h1
  | ussdCancel u => exact ⟨fun ⟨e, h, h1, h2⟩ => (no h.2 h1 h2).elim, fun h => h.elim⟩
  | _ => exact ⟨fun ⟨e, h, h1, h2⟩ => (no h h1 h2).elim, fun h => h.elim⟩

end Ops

/-- C86: `connect` raises only these. -/
theorem C86_connect_only {pin : Option PyStr} {env : Env} {s : St} {e : PyErr} (he : AnswersAll env) (h : (connect pin env s).1 = .error e) : ConnectMayRaise e :=
  (runs_connect pin env he s).2 e h

/-- C86: and each of them can be raised, whatever the PIN. -/
theorem C86_connect_can {pin : Option PyStr} {e : PyErr} (h : ConnectMayRaise e) : ∃ env s, Proper env ∧ (connect pin env s).1 = .error e := by
  rcases h with h | rfl | rfl | rfl | rfl
  · obtain ⟨env, h1, h2, h3⟩ := fails_witness h
    exact ⟨env, _, h1, first_connect h2 h3 pin⟩
  · exact ⟨_, {}, proper_gives [], rfl⟩
  · exact ⟨_, {}, proper_gives [py!"+CFUN: x"], rfl⟩
  · refine ⟨_, {}, proper_gives (ready [py!"x"]), ?_⟩
    rw [connect_ready]
    decide +kernel
  · refine ⟨_, {}, proper_gives (ready [py!"+CPMS"]), ?_⟩
    rw [connect_ready]
    decide +kernel

/-! ### Examples -/

section Examples
attribute [local instance] asciiUnicode

-- `readStoredSms` is documented to raise `CommandError`; an unknown status gives a `KeyError`
example : MayRaise Unsendable (.read py!"1" none) .keyError := .inr (.inl rfl)
example : ¬ MayRaise Unsendable (.read py!"1" none) .attributeError := by
  rintro (h | h | h | h | h | h | h)
  · generalize hx : PyErr.attributeError = x at h
    cases h with
    | silent d => cases hx
    | busy => cases hx
    | refused h =>
      cases h with
      | plain => cases hx
      | code _ _ _ => unfold errorFor at hx; split at hx <;> cases hx
  all_goals cases h
-- `revision` swallows the errors of the modem
example : ¬ MayRaise Unsendable .revision (.command .cme (some 4)) := by rintro (⟨d, h⟩ | h) <;> cases h
example : MayRaise Unsendable .imei (.command .cme (some 4)) := .refused (.code (ty := py!"CME") (n := 4) (.inl rfl) (by decide) (by decide))
example : (Op.run .imei (gives []) {}).1 = .ok () := by decide +kernel
example : (Op.run .imei (saying (.lines [py!"+CME ERROR: 4"])) {}).1 = .error (.command .cme (some 4)) := by decide +kernel
example : (Op.run (.dtmf 0 py!"1{") (gives []) { calls := [aCallAnswered] }).1 = .error .valueError := by decide +kernel
example : (connect none (gives []) {}).1 = .error .typeError := by decide +kernel
example : LetsThrough (.deleteMultiple 5 none) := by show ¬ _; decide
example : ¬ LetsThrough (.hangup 0) := id

end Examples
end Gsm
