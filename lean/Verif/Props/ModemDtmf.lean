import Verif.Props.ModemCalls
import Verif.Props.ModemWrite
/-! # Property C49: DTMF tones -/
namespace Gsm
open M Spec

variable {env : Env}

/-- `str.format` accepts the tones after the first one. -/
def Plain (tones : PyStr) : Prop := ∀ t ∈ tones.tail, t ≠ 123 ∧ t ≠ 125

theorem join_parts (base : PyStr) : ∀ (t : Nat) (ts : PyStr), base ++ pyJoin (py!";" ++ base) ((t :: ts).map fun c => [c]) =
    List.intercalate py!";" ((t :: ts).map fun t => base ++ [t])
  | t, [] => by simp [pyJoin]
  | t, t' :: ts => by
    have := join_parts base t' ts
    simp only [List.map_cons, pyJoin, List.intercalate_cons_cons] at this ⊢
    rw [← this]
    simp

theorem dtmfCmd_eq {base tones : PyStr} (h0 : tones ≠ []) (h : Plain tones) : dtmfCmd base tones = .ok (dtmfText base tones) := by
  match tones, h0 with
  | [t], _ => simp [dtmfCmd, dtmfText]
  | t :: t' :: ts, _ =>
    have hb : (t' :: ts).any (fun c => decide (c = 123 ∨ c = 125)) = false := by
      rw [List.any_eq_false]
      intro c hc
      have := h c hc
      simp [this.1, this.2]
    have hj := join_parts base t' ts
    simp only [List.map_cons] at hj
    simp only [dtmfCmd, hb, Bool.false_eq_true, if_false, dtmfText, List.map_cons, List.intercalate_cons_cons]
    rw [← hj]
    simp

theorem dtmfBase_eq (s : St) (c : CallObj) : dtmfBase s c = dtmfPart s.dtmfHuawei c.id := rfl

theorem dtmf_run {s : St} {i : Nat} {c : CallObj} {tones cmd : PyStr} (hc : s.calls[i]? = some c) (ha : c.answered = true)
    (hcmd : dtmfCmd (dtmfBase s c) tones = .ok cmd) : sendDtmfTone i tones env s =
      match write cmd true [13] env s with
      | (.ok _, s1) => (.ok (), s1)
      | (.error e, s1) => (.error (if isCmeError e then dtmfError e else e), s1) := by
  unfold sendDtmfTone
  rw [run_bind, run_get]
  simp only [hc, ha, if_true]
  rw [run_bind, run_ofExcept, hcmd]
  simp only [except, run_bind]
  generalize write cmd true [13] env s = r
  obtain ⟨r, s1⟩ := r
  cases r with
  | ok ls => rfl
  | error e =>
    dsimp only
    split <;> rfl

theorem toneResult_error {n : Nat} {ty : PyStr} (hty : ty = py!"CME" ∨ ty = py!"CMS") :
    (.error (if isCmeError (errorFor ty n) then dtmfError (errorFor ty n) else errorFor ty n) : Except PyErr Unit) =
      toneResult (.error (errorFor ty n) : Except PyErr Unit) := by
  rcases hty with rfl | rfl
  · by_cases h3 : n = 3
    · subst h3; rfl
    · by_cases h30 : n = 30
      · subst h30; rfl
      · have e1 : dtmfError (errorFor py!"CME" n) = errorFor py!"CME" n := by
          unfold errorFor
          rw [if_pos rfl]
          unfold dtmfError
          split
          · next h => cases h; exact absurd rfl h30
          · next h => cases h; exact absurd rfl h3
          · rfl
        have e2 : ∀ m, n ≠ m → errorFor py!"CME" n ≠ errorFor py!"CME" m := by
          intro m hm h
          simp only [errorFor, if_true, PyErr.command.injEq, Option.some.injEq] at h
          exact hm h.2
        simp only [e1, toneResult, e2 3 h3, e2 30 h30, if_false, ite_self]
  · have e1 : isCmeError (errorFor py!"CMS" n) = false := by
      unfold errorFor
      rw [if_neg (by decide)]
      split <;> rfl
    have e2 : ∀ m, errorFor py!"CMS" n ≠ errorFor py!"CME" m := by
      intro m h
      have : isCmeError (errorFor py!"CME" m) = true := by
        unfold errorFor
        rw [if_pos rfl]
        split <;> rfl
      rw [← h, e1] at this
      cases this
    simp [e1, toneResult, e2]

/-- On an answered call, tones are one command with one part for each tone, in their order (repeated only while the modem says it is busy);
nothing else changes. -/
theorem C49_command {s : St} {i : Nat} {c : CallObj} {tones : PyStr} (hc : s.calls[i]? = some c) (ha : c.answered = true) (h0 : tones ≠ []) (hp : Plain tones) :
    ∃ ok s1, (sendDtmfTone i tones env s).2 = s1 ∧ (∃ l w, s1 = { s with log := l, writeWait := w }) ∧
      Transmission env.reply [dtmfText (dtmfPart s.dtmfHuawei c.id) tones ++ [13]] s.log s1.log ok ∧
      ((sendDtmfTone i tones env s).1 = .ok () ↔ ok = true) := by
  rw [dtmf_run hc ha (dtmfCmd_eq h0 hp), dtmfBase_eq]
  obtain ⟨ok, s1, h1, h2, ⟨rfl, h3⟩ | ⟨rfl, e, h3⟩⟩ := write_trans (env := env) (dtmfText (dtmfPart s.dtmfHuawei c.id) tones) [13] s
  · rw [h3]
    exact ⟨true, s1, rfl, h1, h2, by simp⟩
  · rw [h3]
    exact ⟨false, s1, rfl, h1, h2, by simp⟩

/-- The result, when the modem answers (and is not busy): its errors 3 and 30 are reported as an interruption, other errors as they are. -/
theorem C49_result {s : St} {i : Nat} {c : CallObj} {tones : PyStr} {ls : List PyStr} {r : Except PyErr (List PyStr)} (hc : s.calls[i]? = some c)
    (ha : c.answered = true) (h0 : tones ≠ []) (hp : Plain tones) (hd : 0 < env.depth)
    (hr : env.reply ((dtmfText (dtmfPart s.dtmfHuawei c.id) tones ++ [13]) :: s.log) = .lines ls) (hm : ResponseMeans ls r) :
    (sendDtmfTone i tones env s).1 = toneResult r := by
  rw [dtmf_run hc ha (dtmfCmd_eq h0 hp), dtmfBase_eq, C32_mapping hd hr hm]
  cases hm with
  | fine => rfl
  | notSupported => rfl
  | code _ h1 _ _ => exact toneResult_error h1.1
  | plain => rfl

/-- On a call that is not answered, nothing is written or changed. -/
theorem C49_not_answered {s : St} {i : Nat} {c : CallObj} (tones : PyStr) (hc : s.calls[i]? = some c) (ha : c.answered = false) :
    sendDtmfTone i tones env s = (.error .invalidState, s) := by
  unfold sendDtmfTone
  rw [run_bind, run_get]
  simp only [hc, ha, Bool.false_eq_true, if_false]
  rfl

/-- With a brace among the tones after the first, it fails before anything is written. -/
theorem C49_brace {s : St} {i : Nat} {c : CallObj} {tones : PyStr} (hc : s.calls[i]? = some c) (ha : c.answered = true) (hp : ¬ Plain tones) :
    sendDtmfTone i tones env s = (.error .valueError, s) := by
  have : dtmfCmd (dtmfBase s c) tones = .error .valueError := by
    match tones with
    | [] => exact absurd (fun t ht => nomatch ht) hp
    | [t] => exact absurd (fun t ht => nomatch ht) hp
    | t :: t' :: ts =>
      have hb : (t' :: ts).any (fun c => decide (c = 123 ∨ c = 125)) = true := by
        rw [List.any_eq_true]
        by_contra hn
        refine hp fun x hx => ?_
        by_contra hx'
        exact hn ⟨x, hx, by simp only [decide_eq_true_eq]; omega⟩
      simp only [dtmfCmd, hb, if_true]
  unfold sendDtmfTone
  rw [run_bind, run_get]
  simp only [hc, ha, if_true]
  rw [run_bind, run_ofExcept, this]

/-- Without tones, the command has no tone. -/
theorem C49_no_tones {s : St} {i : Nat} {c : CallObj} (hc : s.calls[i]? = some c) (ha : c.answered = true) :
    ∃ ok, Transmission env.reply [py!"AT" ++ dtmfPart s.dtmfHuawei c.id ++ [13]] s.log (sendDtmfTone i [] env s).2.log ok := by
  rw [dtmf_run (tones := []) hc ha rfl, dtmfBase_eq]
  obtain ⟨ok, s1, h1, h2, ⟨rfl, h3⟩ | ⟨rfl, e, h3⟩⟩ := write_trans (env := env) (py!"AT" ++ dtmfPart s.dtmfHuawei c.id) [13] s
  · rw [h3]; exact ⟨_, h2⟩
  · rw [h3]; exact ⟨_, h2⟩

example : dtmfText (dtmfPart false 1) py!"*12" = py!"AT+VTS=*;+VTS=1;+VTS=2" ∧ dtmfText (dtmfPart true 2) py!"5#" = py!"AT^DTMF=2,5;^DTMF=2,#" ∧
    Plain py!"*12" := by unfold Plain; decide +kernel
attribute [local instance] asciiUnicode in
example : (runOps goodModem (twoCalls ++ [.answer 0, .dtmf 0 py!"*12", .dtmf 1 py!"3", .dtmf 0 py!"1{2"]) (connected goodModem)).log.take 2 =
    [py!"AT+VTS=*;+VTS=1;+VTS=2\r", py!"ATA\r"] := by decide +kernel
example : (sendDtmfTone 0 py!"12" (modemWith fun l => if l.head? = some py!"AT+VTS=1;+VTS=2\r" then some (.lines [py!"+CME ERROR: 30"]) else none)
    { calls := [{ incoming := false, id := 1, type := none, number := none, answered := true }] }).1 = .error (.interrupted 30) := by decide +kernel

end Gsm
