import Verif.Lemmas.Contracts
/-! # Modems that bring about each exception -/
namespace Gsm
open M Spec

/-- A modem that always answers the same. -/
def saying (r : Reply) : Env := { depth := 1, order := id, order_perm := fun _ => List.Perm.refl _, reply := fun _ => r }

theorem proper_timeout (d : Option (List PyStr)) : Proper (saying (.timeout d)) := ⟨Nat.one_pos, fun _ _ h => nomatch h⟩
theorem proper_lines (before : List PyStr) {l : PyStr} (h : FinalResult l) : Proper (saying (.lines (before ++ [l]))) :=
  ⟨Nat.one_pos, fun _ ls h' => by cases h'; exact ⟨before, l, rfl, h⟩⟩

theorem proper_answers {env : Env} (h : Proper env) : AnswersAll env :=
  ⟨h.1, fun x hx => by obtain ⟨b, l, h', _⟩ := h.2 x [] hx; simp at h'⟩

/-- Every command gives the exception `e`, also with anything before. -/
def EachFails (env : Env) (e : PyErr) : Prop := ∀ d t s, (write d true t env s).1 = .error e

/-- What an unparsed command gives then. -/
def GivesBack (env : Env) (e : PyErr) : Prop :=
  (∀ d t s, (write d false t env s).1 = .error e ∧ ∃ x, e = .timeout x) ∨
  ∃ l, (∀ d t s, write d false t env s = (.ok [l], { s with log := (d ++ t) :: s.log })) ∧ ∀ n, ¬ StatusLine l n

theorem cm_line (ty : PyStr) (n : Nat) (h : ty = py!"CME" ∨ ty = py!"CMS") : IsCmError ty (decStr n) (py!"+" ++ ty ++ py!" ERROR: " ++ decStr n) :=
  ⟨h, decStr_ne_nil n, fun c hc => isD_iff.1 (decStr_digits n c hc), [], .inl rfl, by simp⟩

theorem cm_no_status (ty : PyStr) (n : Nat) (h : ty = py!"CME" ∨ ty = py!"CMS") (k : Nat) : ¬ StatusLine (py!"+" ++ ty ++ py!" ERROR: " ++ decStr n) k := by
  rintro ⟨b, m, t, hl, _⟩
  rcases h with rfl | rfl <;> simp at hl

theorem error_no_status (k : Nat) : ¬ StatusLine py!"ERROR" k := by
  rintro ⟨b, m, t, hl, _⟩
  simp at hl

theorem fails_witness {e : PyErr} (h : CmdFails e) : ∃ env, Proper env ∧ EachFails env e ∧ GivesBack env e := by
  have back : ∀ l d t s, write d false t (saying (.lines [l])) s = (.ok [l], { s with log := (d ++ t) :: s.log }) := fun l d t s =>
    C32_unparsed (env := saying (.lines [l])) Nat.one_pos rfl (by simp)
  cases h with
  | silent d =>
    refine ⟨_, proper_timeout d, fun x t s => ?_, .inl fun x t s => ⟨?_, _, rfl⟩⟩ <;>
    · rw [C32_timeout (env := saying (.timeout d)) (d := d) Nat.one_pos rfl]
  | busy =>
    refine ⟨_, proper_lines [] (l := py!"+CME ERROR: 515") (.inr (.inr ⟨py!"CME", py!"515", ⟨.inl rfl, by decide, by decide, [], .inl rfl, rfl⟩⟩)), fun x t s => rfl, .inr ⟨_, back _, ?_⟩⟩
    rintro n ⟨b, m, t, hl, _⟩
    simp at hl
  | refused h =>
    cases h with
    | plain =>
      refine ⟨_, proper_lines [] (l := py!"ERROR") (.inr (.inl rfl)), fun x t s => ?_, .inr ⟨_, back _, error_no_status⟩⟩
      refine congrArg Prod.fst (C32_mapping (env := saying (.lines [py!"ERROR"])) (ls := [py!"ERROR"]) (s := s) (data := x) (term := t) Nat.one_pos rfl
        (.plain (line := py!"ERROR") rfl (by rw [← pyContains_iff]; decide) ?_))
      rintro ty ds ⟨h, _, _, t, _, hl⟩
      rcases h with rfl | rfl <;> simp at hl
    | @code ty n h h1 h2 =>
      refine ⟨_, proper_lines [] (l := py!"+" ++ ty ++ py!" ERROR: " ++ decStr n) (.inr (.inr ⟨_, _, cm_line ty n h⟩)), fun x t s => ?_, .inr ⟨_, back _, cm_no_status ty n h⟩⟩
      have := C32_mapping (env := saying (.lines [py!"+" ++ ty ++ py!" ERROR: " ++ decStr n])) (s := s) (data := x) (term := t) Nat.one_pos rfl
        (.code (ds := decStr n) rfl (cm_line ty n h) (by rw [decVal_decStr]; exact h2) (by rw [decVal_decStr]; exact h1))
      rw [decVal_decStr] at this
      exact congrArg Prod.fst this

section Steps
variable {α β : Type} {env : Env} {s s1 : St} {e : PyErr}

theorem fail_bind {m : M α} {f : α → M β} (h : (m env s).1 = .error e) : ((m >>= f) env s).1 = .error e := by
  rw [run_bind]
  cases hr : m env s with
  | mk r s1 => rw [hr] at h; cases h; rfl

theorem go_bind {m : M α} {f : α → M β} {a : α} (h : m env s = (.ok a, s1)) : (m >>= f) env s = f a env s1 := by
  rw [run_bind, h]

theorem fail_except {m : M α} {p : PyErr → Bool} {h : PyErr → M α} (hm : (m env s).1 = .error e) (hp : p e = false) : (M.except m p h env s).1 = .error e := by
  unfold M.except
  cases hr : m env s with
  | mk r s1 => rw [hr] at hm; cases hm; simp [hp]

theorem pass_except {m : M α} {p : PyErr → Bool} {h : PyErr → M α} {a : α} (hm : m env s = (.ok a, s1)) : M.except m p h env s = (.ok a, s1) := by
  unfold M.except
  rw [hm]

theorem handle_except {m : M α} {p : PyErr → Bool} {h : PyErr → M α} {e' : PyErr} (hm : (m env s).1 = .error e) (hp : p e = true) (hh : ∀ s, (h e env s).1 = .error e') :
    (M.except m p h env s).1 = .error e' := by
  unfold M.except
  cases hr : m env s with
  | mk r s1 => rw [hr] at hm; cases hm; simp [hp, hh]

theorem fail_discard {m : M α} (h : (m env s).1 = .error e) : (discard m env s).1 = .error e := fail_bind h
end Steps

/-- A modem that always gives these lines, and `OK`. -/
def gives (ls : List PyStr) : Env := saying (.lines (ls ++ [py!"OK"]))

theorem proper_gives (ls : List PyStr) : Proper (gives ls) := proper_lines ls (.inl rfl)

theorem ok_fine (ls : List PyStr) : ResponseMeans (ls ++ [py!"OK"]) (.ok (ls ++ [py!"OK"])) :=
  .fine (line := py!"OK") (by simp) (by rw [← pyContains_iff]; decide) (by decide)

theorem gives_write (ls : List PyStr) (d t : PyStr) (s : St) : write d true t (gives ls) s = (.ok (ls ++ [py!"OK"]), { s with log := (d ++ t) :: s.log }) :=
  C32_mapping (env := gives ls) Nat.one_pos rfl (ok_fine ls)

theorem gives_writeUnparsed (ls : List PyStr) (d t : PyStr) (s : St) : write d false t (gives ls) s = (.ok (ls ++ [py!"OK"]), { s with log := (d ++ t) :: s.log }) :=
  C32_unparsed (env := gives ls) Nat.one_pos rfl (by simp)

/-- A state in which no storage is chosen. -/
theorem gives_setSmsMemory (ls : List PyStr) (m : Option PyStr) (s : St) : ∃ s1, setSmsMemory m none (gives ls) s = (.ok (), s1) ∧ s1.smsTextMode = s.smsTextMode := by
  unfold setSmsMemory
  rw [run_bind, run_get]
  dsimp only
  rw [if_neg (by simp)]
  cases m with
  | none => exact ⟨s, rfl, rfl⟩
  | some m =>
    dsimp only
    rw [run_ite]
    split
    · rw [go_bind (gives_write ls _ _ _)]
      exact ⟨_, rfl, rfl⟩
    · exact ⟨s, rfl, rfl⟩

theorem gives_read {ls : List PyStr} {textMode : Bool} {e : PyErr} (h : (if textMode then parseCmgrText (ls ++ [py!"OK"]) else parseCmgrPdu (ls ++ [py!"OK"])) = .error e)
    (i : PyStr) (m : Option PyStr) : (readStoredSms i m (gives ls) { smsTextMode := textMode }).1 = .error e := by
  obtain ⟨s1, h1, h2⟩ := gives_setSmsMemory ls m { smsTextMode := textMode }
  unfold readStoredSms
  rw [go_bind h1, go_bind (gives_write ls _ _ _), go_bind (run_get _), run_ofExcept]
  dsimp only
  rw [h2]
  exact h

theorem gives_list {ls : List PyStr} {textMode : Bool} {e : PyErr} {st : Int} (hc : textMode = true → 0 ≤ st ∧ st ≤ 4) (h : parseListing textMode (ls ++ [py!"OK"]) = .error e)
    (m : Option PyStr) (del : Bool) : (listStoredSms st m del (gives ls) { smsTextMode := textMode }).1 = .error e := by
  obtain ⟨s1, h1, h2⟩ := gives_setSmsMemory ls m { smsTextMode := textMode }
  unfold listStoredSms
  rw [go_bind h1, go_bind (run_get _)]
  obtain ⟨cmd, hcmd⟩ : ∃ cmd, listCommand s1.smsTextMode st = .ok cmd := by
    rw [h2]
    unfold listCommand
    cases textMode with
    | false => exact ⟨_, rfl⟩
    | true =>
      have := hc rfl
      obtain h | h | h | h | h : st = 0 ∨ st = 1 ∨ st = 2 ∨ st = 3 ∨ st = 4 := by omega
      all_goals subst h; exact ⟨_, rfl⟩
  have hc' : (M.ofExcept (listCommand s1.smsTextMode st) : M PyStr) (gives ls) s1 = (.ok cmd, s1) := by rw [run_ofExcept, hcmd]
  rw [go_bind hc', go_bind (gives_write ls _ _ _)]
  refine fail_bind ?_
  rw [run_ofExcept, h2]
  exact h

/-! ### What is said -/

theorem read_undecoded {e : PyErr} (h : e = .encodingError ∨ Undecoded e) : ∃ pdu, parseCmgrPdu ([py!"+CMGR: 0,,1", pdu] ++ [py!"OK"]) = .error e := by
  rcases h with rfl | rfl | rfl | rfl | rfl
  · exact ⟨py!"0003", by decide +kernel⟩
  · exact ⟨[], by decide +kernel⟩
  · exact ⟨py!"0004059172214300003130413120538000", by decide +kernel⟩
  · exact ⟨py!"00040591722143000031D04131205380026869", by decide +kernel⟩
  · exact ⟨py!"00440591722143000031304131205380030208016869", by decide +kernel⟩

theorem list_undecoded {e : PyErr} (h : Undecoded e) : ∃ pdu, parseListing false ([py!"+CMGL: 1,0,,1", pdu] ++ [py!"OK"]) = .error e := by
  rcases h with rfl | rfl | rfl | rfl
  · exact ⟨[], by decide +kernel⟩
  · exact ⟨py!"0004059172214300003130413120538000", by decide +kernel⟩
  · exact ⟨py!"00040591722143000031D04131205380026869", by decide +kernel⟩
  · exact ⟨py!"00440591722143000031304131205380030208016869", by decide +kernel⟩

theorem read_unknown : parseCmgrText ([py!"+CMGR: \"REC\",\"+123\",,\"12/03/13,20:15:32+08\"", py!"Hi"] ++ [py!"OK"]) = .error .keyError := by decide +kernel
theorem list_unknown : parseListing true ([py!"+CMGL: 0,\"REC\",\"+123\",,\"12/03/13,20:15:32+08\"", py!"Hi"] ++ [py!"OK"]) = .error .keyError := by decide +kernel

/-! ### Operations that begin with a command -/

theorem not_unknown {e : PyErr} (h : CmdFails e) (hn : e ≠ errorFor py!"CMS" 330) (k : Option Nat) : e ≠ .command .smscUnknown k := by
  rintro rfl
  generalize he : PyErr.command .smscUnknown k = e at h
  cases h with
  | silent d => cases he
  | busy => cases he
  | refused h =>
    cases h with
    | plain => cases he
    | @code ty n hty h1 h2 =>
      rcases hty with rfl | rfl
      · unfold errorFor at he
        rw [if_pos rfl, PyErr.command.injEq] at he
        have := he.1
        split at this <;> cases this
      · unfold errorFor at he
        rw [if_neg (by decide), PyErr.command.injEq] at he
        obtain ⟨h3, rfl⟩ := he
        split at h3
        · exact hn rfl
        · cases h3

theorem dtmf_interrupted {n : Nat} (h : n = 3 ∨ n = 30) : dtmfError (errorFor py!"CME" n) = .interrupted n := by
  rcases h with rfl | rfl <;> rfl

theorem dtmf_same {e : PyErr} (h : CmdFails e) (h3 : e ≠ errorFor py!"CME" 3) (h30 : e ≠ errorFor py!"CME" 30) : (if isCmeError e then dtmfError e else e) = e := by
  cases hc : isCmeError e with
  | false => rfl
  | true =>
    rw [if_pos rfl]
    generalize he : e = e' at *
    cases h with
    | silent d => cases hc
    | busy => cases hc
    | refused h =>
      cases h with
      | plain => cases hc
      | @code ty n hty h1 h2 =>
        rcases hty with rfl | rfl
        · have : n ≠ 3 := fun h => h3 (by rw [h])
          have : n ≠ 30 := fun h => h30 (by rw [h])
          unfold errorFor dtmfError
          simp [*]
        · unfold errorFor at hc
          rw [if_neg (by decide)] at hc
          split at hc <;> cases hc

section First
variable {env : Env} {e : PyErr}

theorem first_setSmsMemory_then {α : Type} (hf : EachFails env e) (m : Option PyStr) {f : Unit → M α} {s : St} (h : ∀ s1 : St, s1.smsTextMode = s.smsTextMode → (f () env s1).1 = .error e) :
    ((setSmsMemory m >>= f) env s).1 = .error e := by
  by_cases hm : ∃ x, m = some x ∧ some x ≠ s.smsMemReadDelete
  · obtain ⟨x, rfl, hx⟩ := hm
    refine fail_bind ?_
    unfold setSmsMemory
    rw [go_bind (run_get _), if_neg (by simp)]
    dsimp only
    rw [if_pos hx]
    exact fail_bind (hf _ _ _)
  · have : setSmsMemory m none env s = (.ok (), s) := by
      unfold setSmsMemory
      rw [go_bind (run_get _), if_neg (by simp)]
      cases m with
      | none => rfl
      | some x =>
        dsimp only
        rw [if_neg (fun h => hm ⟨x, rfl, h⟩)]
        rfl
    rw [go_bind this]
    exact h s rfl

theorem first_list (hf : EachFails env e) (st : Int) (m : Option PyStr) (del : Bool) : (listStoredSms st m del env {}).1 = .error e := by
  unfold listStoredSms
  refine first_setSmsMemory_then hf m fun s1 h1 => ?_
  rw [go_bind (run_get _)]
  have : (M.ofExcept (listCommand s1.smsTextMode st) : M PyStr) env s1 = (.ok (py!"AT+CMGL=" ++ intStr st), s1) := by rw [run_ofExcept, h1]; rfl
  rw [go_bind this]
  exact fail_bind (hf _ _ _)

theorem first_signal (hf : EachFails env e) (s : St) : (signalStrength env s).1 = .error e := fail_bind (hf _ _ _)

theorem first_coverage (hf : EachFails env e) (hg : GivesBack env e) (r : Nat) (s : St) : (waitForNetworkCoverage (r + 2) env s).1 = .error e := by
  unfold waitForNetworkCoverage
  rw [coverageLoop]
  rcases hg with hg | ⟨l, hg, hn⟩
  · exact fail_bind (hg _ _ _).1
  · rw [go_bind (hg _ _ _)]
    have : lineMatching (rxGroups cregRegex) [l] = none := by simp [lineMatching, status_none.2 hn]
    rw [this]
    dsimp only
    rw [coverageLoop]
    exact fail_bind (first_signal hf _)

theorem first_except {α : Type} {m : M α} {p : PyErr → Bool} {s : St} (g : St → St) (h : (m env s).1 = .error e) :
    (M.except m p (fun e => do M.modify g; raise e) env s).1 = .error e := by
  cases hp : p e with
  | true => exact handle_except h hp fun _ => rfl
  | false => exact fail_except h hp

theorem first_ussd (hf : EachFails env e) (t : PyStr) (es : List Event) (s : St) : (sendUssd t es env s).1 = .error e := by
  unfold sendUssd
  rw [go_bind (run_modify _ _)]
  exact fail_bind (first_except _ (hf _ _ _))

theorem first_send [PyUnicode] (hf : EachFails env e) (d t : PyStr) (f : Bool) : (sendSms d t f env { smsTextMode := true }).1 = .error e := by
  unfold sendSms
  rw [go_bind (run_get _)]
  exact fail_bind (hf _ _ _)

theorem first_writeAtd (hf : EachFails env e) (n : PyStr) (s : St) (hs : s.waitForAtdResponse = true) : (writeAtd n env s).1 = .error e := by
  unfold writeAtd
  rw [go_bind (run_get _), if_pos hs]
  exact fail_bind (hf _ _ _)

theorem first_dial (hf : EachFails env e) (n : PyStr) (t : Nat) (cb : Bool) (es : List Event) : (dial n t cb es env { waitForCallInitUpdate := false }).1 = .error e := by
  unfold dial
  rw [go_bind (run_get _), if_neg (by simp)]
  exact fail_bind (first_writeAtd hf n _ rfl)

/-- A call that rings. -/
def aCallRinging : CallObj := { incoming := true, id := 1, type := none, number := none, ringing := true }
/-- A call that is answered. -/
def aCallAnswered : CallObj := { incoming := false, id := 1, type := none, number := none, answered := true }

theorem first_answer (hf : EachFails env e) (c : Nat) : (answer c env { calls := List.replicate (c + 1) aCallRinging }).1 = .error e := by
  unfold answer
  rw [go_bind (run_get _)]
  have : (List.replicate (c + 1) aCallRinging)[c]? = some aCallRinging := by rw [List.getElem?_replicate]; simp
  dsimp only
  rw [this]
  dsimp only
  rw [if_pos ⟨rfl, rfl⟩]
  exact fail_bind (hf _ _ _)

theorem first_hangup (hf : EachFails env e) (c : Nat) : (hangup c env { calls := List.replicate (c + 1) aCallAnswered }).1 = .error e := by
  unfold hangup
  rw [go_bind (run_get _)]
  have : (List.replicate (c + 1) aCallAnswered)[c]? = some aCallAnswered := by rw [List.getElem?_replicate]; simp
  dsimp only
  rw [this]
  dsimp only
  have hs : stopRinging c aCallAnswered env { calls := List.replicate (c + 1) aCallAnswered } = (.ok (), { calls := List.replicate (c + 1) aCallAnswered }) := rfl
  rw [go_bind hs]
  refine fail_bind ?_
  unfold hangupActive
  rw [if_pos (show aCallAnswered.active = true from rfl)]
  exact fail_bind (hf _ _ _)

theorem dtmfCmd_ok {t : PyStr} (base : PyStr) (h : ¬ BraceAfterFirst t) : ∃ cmd, dtmfCmd base t = .ok cmd := by
  cases hc : dtmfCmd base t with
  | ok cmd => exact ⟨cmd, rfl⟩
  | error e => exact absurd (dtmfCmd_error hc).1 h

theorem first_dtmf (hf : EachFails env e) {t : PyStr} (ht : ¬ BraceAfterFirst t) (c : Nat) :
    (sendDtmfTone c t env { calls := List.replicate (c + 1) aCallAnswered }).1 = .error (if isCmeError e then dtmfError e else e) := by
  unfold sendDtmfTone
  rw [go_bind (run_get _)]
  have : (List.replicate (c + 1) aCallAnswered)[c]? = some aCallAnswered := by rw [List.getElem?_replicate]; simp
  dsimp only
  rw [this]
  dsimp only
  rw [if_pos (show aCallAnswered.answered = true from rfl)]
  obtain ⟨cmd, hcmd⟩ := dtmfCmd_ok (dtmfBase { calls := List.replicate (c + 1) aCallAnswered } aCallAnswered) ht
  have hc : (M.ofExcept (dtmfCmd (dtmfBase { calls := List.replicate (c + 1) aCallAnswered } aCallAnswered) t) : M PyStr) env { calls := List.replicate (c + 1) aCallAnswered } =
      (.ok cmd, { calls := List.replicate (c + 1) aCallAnswered }) := by rw [run_ofExcept, hcmd]
  rw [go_bind hc]
  cases hp : isCmeError e with
  | true => exact handle_except (fail_bind (hf _ _ _)) hp fun _ => rfl
  | false => exact fail_except (fail_bind (hf _ _ _)) hp

theorem first_unlock (hf : EachFails env e) (hne : ∀ d, e ≠ .timeout d) (pin : Option PyStr) (s : St) : (unlockSim pin env s).1 = .error e := by
  unfold unlockSim
  refine fail_bind (fail_except (fail_bind (hf _ _ _)) ?_)
  cases e <;> first | rfl | exact absurd rfl (hne _)

theorem first_connect (hf : EachFails env e) (hg : GivesBack env e) (pin : Option PyStr) : (connect pin env {}).1 = .error e := by
  unfold connect
  rw [go_bind (run_modify _ _)]
  refine fail_bind ?_
  unfold connectBasics
  have hz := hf py!"ATZ" [13] { ({} : St) with alive := true }
  by_cases hc : ∃ c n, e = .command c n
  · obtain ⟨c, n, rfl⟩ := hc
    obtain ⟨s1, h1⟩ : ∃ s1, M.tryCommand (write py!"ATZ") env { ({} : St) with alive := true } = (.ok none, s1) := by
      unfold M.tryCommand M.except
      rw [run_bind]
      cases hr : write py!"ATZ" true [13] env { ({} : St) with alive := true } with
      | mk r s2 => rw [hr] at hz; cases hz; exact ⟨s2, rfl⟩
    rw [go_bind h1]
    dsimp only
    rcases hg with hg | ⟨l, hg, _⟩
    · exact fail_bind (hg _ _ _).1
    · rw [go_bind (hg _ _ _)]
      exact fail_bind (first_unlock hf (fun _ h => nomatch h) pin _)
  · refine fail_bind ?_
    unfold M.tryCommand
    refine fail_except (fail_bind hz) ?_
    cases e <;> first | rfl | exact absurd ⟨_, _, rfl⟩ hc

end First

theorem gives_send [PyUnicode] (d t : PyStr) (f : Bool) : (sendSms d t f (gives [py!"+CMGS: x"]) { smsTextMode := true }).1 = .error .valueError := by
  unfold sendSms
  rw [go_bind (run_get _)]
  rw [if_pos rfl, go_bind (gives_write _ _ _ _), go_bind (gives_write _ _ _ _)]
  rfl

theorem unsendable_send [PyUnicode] {d t : PyStr} {f : Bool} {r : Int} {e : PyErr} (h : encodeSmsSubmitPdu d t r (sendFlash := f) = .error e) (env : Env) :
    (sendSms d t f env { smsRef := r }).1 = .error e := by
  unfold sendSms
  rw [go_bind (run_get _)]
  refine fail_bind ?_
  rw [run_ofExcept]
  exact h

theorem gives_ussd (t : PyStr) (es : List Event) : (sendUssd t es (gives [py!"+CUSD: x"]) {}).1 = .error .indexError := by
  unfold sendUssd
  rw [go_bind (run_modify _ _), go_bind (pass_except (gives_write _ _ _ _)), if_pos (by decide)]
  rfl

/-! ### `connect` with constant answers -/

/-- The answers that are looked for, so that the PIN is not needed. -/
def ready (more : List PyStr) : List PyStr := py!"+CFUN: 1" :: py!"+CPIN: READY" :: more

theorem bind_congr_env {α β : Type} {m m' : M α} {f f' : α → M β} {env : Env} (hm : m env = m' env) (hf : ∀ a, f a env = f' a env) : (m >>= f) env = (m' >>= f') env := by
  funext s
  rw [run_bind, run_bind, hm]
  cases m' env s with
  | mk r s1 => cases r <;> simp [hf]

theorem unlock_ready (more : List PyStr) (pin : Option PyStr) : unlockSim pin (gives (ready more)) = unlockSim none (gives (ready more)) := by
  funext s
  unfold unlockSim
  have : (do let ls ← write py!"AT+CPIN?"; pure (lineStartingWith py!"+CPIN" ls) : M (Option PyStr)) (gives (ready more)) s =
      (.ok (some py!"+CPIN: READY"), { s with log := (py!"AT+CPIN?" ++ [13]) :: s.log }) := by
    rw [go_bind (gives_write _ _ _ _), run_pure]
    rfl
  rw [go_bind (pass_except this), go_bind (pass_except this), if_neg (by simp), if_neg (by simp)]

theorem connect_ready (more : List PyStr) (pin : Option PyStr) : connect pin (gives (ready more)) = connect none (gives (ready more)) := by
  have hr : ∀ b, connectRest pin b (gives (ready more)) = connectRest none b (gives (ready more)) := by
    intro b
    unfold connectRest
    refine bind_congr_env rfl fun _ => bind_congr_env rfl fun _ => bind_congr_env rfl fun _ => ?_
    cases b
    · exact unlock_ready more pin
    · rfl
  unfold connect
  refine bind_congr_env rfl fun _ => bind_congr_env ?_ fun _ => rfl
  unfold connectBasics
  refine bind_congr_env rfl fun r => ?_
  cases r with
  | none => exact bind_congr_env rfl fun _ => bind_congr_env (unlock_ready more pin) fun _ => bind_congr_env rfl fun _ => hr true
  | some _ => exact hr false

end Gsm
