import Verif.Lemmas.Queries
import Verif.Props.ModemReading
import Verif.Lemmas.Coverage
import Verif.Lemmas.Incoming
import Verif.Spec.ExampleModem
/-! # Property C70: questions about the modem and the network -/
namespace Gsm
open M Spec

variable {env : Env}

/-- A question, with what is done with the answer. -/
theorem asks {α : Type} {command : PyStr} {f : List PyStr → Except PyErr α} {m : M α} {result : List PyStr → Except PyErr α → Prop}
    (hm : ∀ s, m env s = match write command true [13] env s with | (.ok ls, s') => (f ls, s') | (.error e, s') => (.error e, s'))
    (hf : ∀ ls, ls ≠ [] → result ls (f ls)) : Asks env (command ++ [13]) m result := by
  intro s
  obtain ⟨ok, s1, ⟨l, w, rfl⟩, h2, h3⟩ := write_trans (env := env) command [13] s
  refine ⟨ok, l, w, h2, ?_, ?_, ?_⟩
  · rw [hm]
    rcases h3 with ⟨_, h3⟩ | ⟨_, e, h3⟩ <;> rw [h3]
  · rintro rfl
    rcases h3 with ⟨_, h3⟩ | ⟨h, _⟩
    · obtain ⟨ls, line, hr, hl, _⟩ := trans_accepted h2 rfl (by simp)
      refine ⟨ls, hr, (fun h0 => nomatch h0 ▸ hl), ?_⟩
      rw [hm, h3]
      have : lastAnswer env l = ls := by simp only at hr; simp [lastAnswer, hr]
      simp only [this]
      exact hf ls (fun h0 => nomatch h0 ▸ hl)
    · cases h
  · rintro rfl
    rcases h3 with ⟨h, _⟩ | ⟨_, e, h3⟩
    · cases h
    · exact ⟨e, by rw [hm, h3]⟩

/-- The first line. -/
def FirstIs (ls : List PyStr) (r : Except PyErr PyStr) : Prop := ∃ l rest, ls = l :: rest ∧ r = .ok l

theorem asks_first (command : PyStr) : Asks env (command ++ [13]) (do firstLine (← write command) : M PyStr) FirstIs := by
  refine asks (f := fun ls => match ls with | [] => .error .indexError | l :: _ => .ok l) (fun s => ?_) (fun ls h => ?_)
  · rw [run_bind]
    rcases write command true [13] env s with ⟨_ | ls, s'⟩
    · rfl
    · cases ls <;> rfl
  · cases ls with
    | nil => exact absurd rfl h
    | cons l rest => exact ⟨l, rest, rfl, rfl⟩

/-! ### C70 -/

/-- Each of these questions writes its command once (again when the modem is busy) and returns the first line. -/
theorem C70_identity : Asks env py!"AT+CGMI\r" manufacturer FirstIs ∧ Asks env py!"AT+CGMM\r" model FirstIs ∧
    Asks env py!"AT+CGSN\r" imei FirstIs ∧ Asks env py!"AT+CIMI\r" imsi FirstIs :=
  ⟨asks_first py!"AT+CGMI", asks_first py!"AT+CGMM", asks_first py!"AT+CGSN", asks_first py!"AT+CIMI"⟩

/-- The signal strength is the number in the first line; 99 means unknown; any other line is an error. -/
theorem C70_signal : Asks env py!"AT+CSQ\r" signalStrength fun ls r =>
    ∃ l rest, ls = l :: rest ∧ ((∃ n, SignalLine l n ∧ r = .ok (strength n)) ∨ (∀ n, ¬ SignalLine l n) ∧ r = .error (.command .command none)) := by
  refine asks (command := py!"AT+CSQ") (f := fun ls => match ls with
    | [] => .error .indexError
    | l :: _ => match rxGroups csqRegex l with
      | some [g] => (pyInt g).map fun ss => if ss ≠ 99 then ss else -1
      | _ => .error (.command .command none)) (fun s => ?_) (fun ls h => ?_)
  · simp only [signalStrength, run_bind]
    rcases write py!"AT+CSQ" true [13] env s with ⟨_ | ls, s'⟩
    · rfl
    · cases ls with
      | nil => rfl
      | cons l rest =>
        simp only [firstLine, run_ofExcept]
        cases hg : rxGroups csqRegex l with
        | none => rfl
        | some g =>
          obtain ⟨ds, rfl, hd, _⟩ := csq_iff.1 hg
          simp only [run_bind, run_ofExcept, pyInt_of_digits hd]
          rfl
  · cases ls with
    | nil => exact absurd rfl h
    | cons l rest =>
      refine ⟨l, rest, rfl, ?_⟩
      dsimp only
      cases hg : rxGroups csqRegex l with
      | none =>
        refine .inr ⟨fun n hn => ?_, rfl⟩
        obtain ⟨b, ds, rest, rfl, hb, hd, _⟩ := hn
        have := csq_iff.2 ⟨ds, rfl, hd, b, rest, rfl, hb⟩
        rw [this] at hg
        cases hg
      | some g =>
        obtain ⟨ds, rfl, hd, b, rest, rfl, hb⟩ := csq_iff.1 hg
        refine .inl ⟨decVal ds, ⟨b, ds, rest, rfl, hb, hd, rfl⟩, ?_⟩
        simp only [pyInt_of_digits hd, Except.map, strength]
        by_cases h99 : decVal ds = 99
        · simp [h99]
        · rw [if_pos (by omega), if_neg h99]

/-- The number is determined by the line. -/
theorem csq_unique {l : PyStr} {n n' : Nat} (h : SignalLine l n) (h' : SignalLine l n') : n = n' := by
  obtain ⟨b, ds, rest, rfl, hb, hd, rfl⟩ := h
  obtain ⟨b', ds', rest', hl, hb', hd', rfl⟩ := h'
  have h1 := csq_iff.2 ⟨ds, rfl, hd, b, rest, rfl, hb⟩
  have h2 := csq_iff.2 ⟨ds', rfl, hd', b', rest', hl, hb'⟩
  rw [h1] at h2
  cases h2
  rfl

/-- The name of the network is that in the first line that has one; there is none when no line does. -/
theorem C70_network : Asks env py!"AT+COPS?\r" networkName fun ls r => ∃ name, FirstOperator ls name ∧ r = .ok name := by
  refine asks (command := py!"AT+COPS?") (f := fun ls => .ok (operatorOf ls)) (fun s => ?_) (fun ls _ => ⟨_, first_operator ls, rfl⟩)
  simp only [networkName, run_bind]
  rcases write py!"AT+COPS?" true [13] env s with ⟨_ | ls, s'⟩
  · rfl
  · dsimp only
    unfold operatorOf
    cases hg : lineMatching (rxGroups copsRegex) ls with
    | none => rfl
    | some g => rcases g with _ | ⟨a, _ | ⟨b, _ | ⟨c, _ | ⟨d, g⟩⟩⟩⟩ <;> rfl

/-- The name is determined by the answer. -/
theorem C70_network_unique {ls : List PyStr} {a b : Option PyStr} (h : FirstOperator ls a) (h' : FirstOperator ls b) : a = b :=
  (firstOperator_unique h).symm.trans (firstOperator_unique h')

/-- The revision is the first line; it is unknown exactly when the modem refuses the command, and every
other failure is raised. -/
theorem C70_revision (hd : 0 < env.depth) (s : St) : ∃ ok l w, Transmission env.reply [py!"AT+CGMR\r"] s.log l ok ∧
    (revision env s).2 = { s with log := l, writeWait := w } ∧
    (ok = true → ∃ line rest, env.reply l = .lines (line :: rest) ∧ (revision env s).1 = .ok (some line)) ∧
    (ok = false → RefusedCommand env.reply l → (revision env s).1 = .ok none) ∧
    (ok = false → ¬ RefusedCommand env.reply l → ∃ e, (revision env s).1 = .error e) := by
  obtain ⟨ok, s1, ⟨l, w, rfl⟩, h2, h3⟩ := write_trans (env := env) py!"AT+CGMR" [13] s
  rcases h3 with ⟨rfl, h3⟩ | ⟨rfl, e, h3⟩
  · obtain ⟨ls, line, hr, hl, _⟩ := trans_accepted h2 rfl (by simp)
    cases ls with
    | nil => cases hl
    | cons a rest =>
      have hla : lastAnswer env l = a :: rest := by simp only at hr; simp [lastAnswer, hr]
      have : revision env s = (.ok (some a), { s with log := l, writeWait := w }) := try_yes (by rw [run_bind, h3]; simp only [hla]; rfl)
      refine ⟨true, l, w, h2, by rw [this], fun _ => ⟨a, rest, hr, by rw [this]⟩, nofun, nofun⟩
  · have hq : (do firstLine (← write py!"AT+CGMR") : M PyStr) env s = (.error e, { s with log := l, writeWait := w }) := by rw [run_bind, h3]
    have hrf := write_refused hd h3
    by_cases hR : RefusedCommand env.reply l
    · obtain ⟨c, n, rfl⟩ := hrf.2 hR
      have : revision env s = (.ok none, { s with log := l, writeWait := w }) := try_no hq
      exact ⟨false, l, w, h2, by rw [this], nofun, fun _ _ => by rw [this], fun _ h => absurd hR h⟩
    · have hne : ∀ c n, e ≠ .command c n := fun c n he => hR (hrf.1 ⟨c, n, he⟩)
      have : revision env s = (.error e, { s with log := l, writeWait := w }) := by
        unfold revision tryCommand
        simp only [except, run_bind] at hq ⊢
        rw [h3]
        dsimp only
        cases e <;> first | rfl | exact absurd rfl (hne _ _)
      exact ⟨false, l, w, h2, by rw [this], nofun, fun _ h => absurd h hR, fun _ _ => ⟨e, by rw [this]⟩⟩

/-! A modem. -/

def askedModem (answer : List PyStr) : Env := modemWith fun _ => some (.lines answer)

example : signalStrength (askedModem [py!"+CSQ: 18,99", py!"OK"]) {} = (.ok 18, { log := [py!"AT+CSQ\r"] }) := by decide +kernel
example : (signalStrength (askedModem [py!"+CSQ:99,99", py!"OK"]) {}).1 = .ok (-1) := by decide +kernel
example : (signalStrength (askedModem [py!"OK"]) {}).1 = .error (.command .command none) := by decide +kernel
example : SignalLine py!"+CSQ: 18,99" 18 := ⟨py!" ", py!"18", py!"99", by decide, by simp [Spaces], by simp [Digits], by decide⟩
example : (networkName (askedModem [py!"x", py!"+COPS: 0,0,\"A \"B\"\",2", py!"OK"]) {}).1 = .ok (some py!"A \"B\"") := by decide +kernel
example : (networkName (askedModem [py!"+COPS: 0", py!"OK"]) {}).1 = .ok none := by decide +kernel
example : CopsLine py!"+COPS: 0,0,\"A\",2" py!"A" := ⟨48, 48, [44], py!"2", [], by decide, by decide, by decide, by decide, by decide, .inr rfl, by decide, .inl rfl⟩
example : (manufacturer (askedModem [py!"huawei", py!"OK"]) {}).1 = .ok py!"huawei" := by decide +kernel
example : (revision (askedModem [py!"ERROR"]) {}).1 = .ok none := by decide +kernel

/-- A modem that answers without data. -/
theorem C70_no_data : (manufacturer (askedModem [py!"OK"]) {}).1 = .ok py!"OK" := by decide +kernel

end Gsm
