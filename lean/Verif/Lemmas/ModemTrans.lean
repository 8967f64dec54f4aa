import Verif.Props.ModemMemory
import Verif.Spec.SentSms
/-! # What programs write, as transmissions -/
namespace Gsm
open M Spec

variable {env : Env}

/-- The answer to the last command. -/
def lastAnswer (env : Env) (log : List PyStr) : List PyStr :=
  match env.reply log with
  | .lines ls => ls
  | .timeout _ => []

/-- Only the log and the delay have changed. -/
def OnlyLog (a b : St) : Prop := ∃ l w, b = { a with log := l, writeWait := w }

theorem OnlyLog.refl (s : St) : OnlyLog s s := ⟨s.log, s.writeWait, rfl⟩
theorem OnlyLog.trans {a b c : St} : OnlyLog a b → OnlyLog b c → OnlyLog a c := by
  rintro ⟨l, w, rfl⟩ ⟨l', w', rfl⟩
  exact ⟨l', w', rfl⟩

theorem Spec.Transmission.append {reply : List PyStr → Reply} {cs ds a b c : List PyStr} {x ok : Bool}
    (h : Transmission reply cs a b x) (hx : x = true) (h2 : Transmission reply ds b c ok) : Transmission reply (cs ++ ds) a c ok := by
  induction h with
  | done => exact h2
  | next k1 k2 k3 _ ih => exact .next k1 k2 k3 (ih hx h2)
  | stop => cases hx

theorem Spec.Transmission.stop_append {reply : List PyStr → Reply} {cs a b : List PyStr} {x : Bool} (ds : List PyStr)
    (h : Transmission reply cs a b x) (hx : x = false) : Transmission reply (cs ++ ds) a b false := by
  induction h with
  | done => cases hx
  | next k1 k2 k3 _ ih => exact .next k1 k2 k3 (ih hx)
  | stop k1 k2 => exact .stop k1 k2

/-- One command. -/
theorem write_trans (data term : PyStr) (s : St) : ∃ ok s1, OnlyLog s s1 ∧ Transmission env.reply [data ++ term] s.log s1.log ok ∧
    ((ok = true ∧ write data true term env s = (.ok (lastAnswer env s1.log), s1)) ∨ (ok = false ∧ ∃ e, write data true term env s = (.error e, s1))) := by
  obtain ⟨k, w, h1, h2, h3⟩ := write_outcome (data := data) (term := term) (env := env) s
  rcases h3 with ⟨ls, h4, hk, h5, h6⟩ | ⟨d, h4, hk, h5⟩ | ⟨e, h4, _, h6⟩
  · refine ⟨true, _, ⟨_, w, rfl⟩, .next hk h2 h6 .done, .inl ⟨rfl, Prod.ext ?_ h1⟩⟩
    rw [h4]
    simp [lastAnswer, h5]
  · refine ⟨false, _, ⟨_, w, rfl⟩, .stop h2 ?_, .inr ⟨rfl, _, Prod.ext h4 h1⟩⟩
    rintro _ ⟨ls, line, h7, _⟩
    rw [h5] at h7; cases h7
  · exact ⟨false, _, ⟨_, w, rfl⟩, .stop h2 h6, .inr ⟨rfl, _, Prod.ext h4 h1⟩⟩

/-- Only the log, the delay and the selected memory have changed. -/
def LogMem (a b : St) : Prop := ∃ l w m, b = { a with log := l, writeWait := w, smsMemReadDelete := m }

theorem LogMem.refl (s : St) : LogMem s s := ⟨s.log, s.writeWait, s.smsMemReadDelete, rfl⟩
theorem LogMem.trans {a b c : St} : LogMem a b → LogMem b c → LogMem a c := by
  rintro ⟨l, w, m, rfl⟩ ⟨l', w', m', rfl⟩
  exact ⟨l', w', m', rfl⟩
theorem OnlyLog.logMem {a b : St} : OnlyLog a b → LogMem a b := by
  rintro ⟨l, w, rfl⟩
  exact ⟨l, w, a.smsMemReadDelete, rfl⟩

/-- The command that selects a memory, if it has to be selected. -/
def selectCommands (s : St) : Option PyStr → List PyStr
  | none => []
  | some m => if s.smsMemReadDelete = some m then [] else [memoryCmd m]

theorem setMemory_trans (memory : Option PyStr) (s : St) : ∃ ok s1, LogMem s s1 ∧ Transmission env.reply (selectCommands s memory) s.log s1.log ok ∧
    ((ok = true ∧ setSmsMemory memory none env s = (.ok (), s1)) ∨ (ok = false ∧ ∃ e, setSmsMemory memory none env s = (.error e, s1))) := by
  cases memory with
  | none => exact ⟨true, s, .refl s, .done, .inl ⟨rfl, rfl⟩⟩
  | some m =>
    rw [setSmsMemory_run]
    by_cases hm : s.smsMemReadDelete = some m
    · simp only [selectCommands, hm, if_true, ne_eq, not_true_eq_false, if_false]
      exact ⟨true, s, .refl s, .done, .inl ⟨rfl, rfl⟩⟩
    · have hm' : some m ≠ s.smsMemReadDelete := fun h => hm h.symm
      simp only [selectCommands, hm, if_false, if_pos hm']
      obtain ⟨ok, s1, ⟨l, w, rfl⟩, h2, h3⟩ := write_trans (env := env) (cpmsCmd m) [13] s
      rw [memoryCmd_eq] at h2
      rcases h3 with ⟨rfl, h3⟩ | ⟨rfl, e, h3⟩
      · rw [h3]
        exact ⟨true, _, ⟨l, w, some m, rfl⟩, h2, .inl ⟨rfl, rfl⟩⟩
      · rw [h3]
        exact ⟨false, _, ⟨l, w, s.smsMemReadDelete, rfl⟩, h2, .inr ⟨rfl, e, rfl⟩⟩

/-- The message that an answer to AT+CMGR describes. -/
def parseCmgr (textMode : Bool) (ls : List PyStr) : Except PyErr Msg := if textMode then parseCmgrText ls else parseCmgrPdu ls

theorem read_trans (i : PyStr) (memory : Option PyStr) (s : St) : ∃ ok s1, LogMem s s1 ∧
    Transmission env.reply (selectCommands s memory ++ [cmgrCmd i ++ [13]]) s.log s1.log ok ∧
    ((ok = true ∧ readStoredSms i memory env s = (parseCmgr s.smsTextMode (lastAnswer env s1.log), s1)) ∨
      (ok = false ∧ ∃ e, readStoredSms i memory env s = (.error e, s1))) := by
  obtain ⟨ok, s1, h1, h2, h3⟩ := setMemory_trans (env := env) memory s
  simp only [readStoredSms, run_bind]
  rcases h3 with ⟨rfl, h3⟩ | ⟨rfl, e, h3⟩
  · rw [h3]
    dsimp only
    obtain ⟨ok, s2, ⟨l, w, rfl⟩, k2, k3⟩ := write_trans (env := env) (cmgrCmd i) [13] s1
    refine ⟨ok, _, h1.trans ⟨l, w, _, rfl⟩, h2.append rfl k2, ?_⟩
    rcases k3 with ⟨rfl, k3⟩ | ⟨rfl, e, k3⟩
    · refine .inl ⟨rfl, ?_⟩
      rw [k3]
      simp only [run_get, run_ofExcept, parseCmgr]
      obtain ⟨_, _, _, rfl⟩ := h1
      rfl
    · refine .inr ⟨rfl, e, ?_⟩
      rw [k3]
  · rw [h3]
    exact ⟨false, s1, h1, h2.stop_append _ rfl, .inr ⟨rfl, e, rfl⟩⟩

theorem delete_trans (i : PyStr) (memory : Option PyStr) (s : St) : ∃ ok s1, LogMem s s1 ∧
    Transmission env.reply (selectCommands s memory ++ [cmgdCmd i ++ [13]]) s.log s1.log ok ∧
    ((ok = true ∧ deleteStoredSms i memory env s = (.ok (), s1)) ∨ (ok = false ∧ ∃ e, deleteStoredSms i memory env s = (.error e, s1))) := by
  obtain ⟨ok, s1, h1, h2, h3⟩ := setMemory_trans (env := env) memory s
  simp only [deleteStoredSms, run_bind]
  rcases h3 with ⟨rfl, h3⟩ | ⟨rfl, e, h3⟩
  · rw [h3]
    dsimp only
    obtain ⟨ok, s2, k1, k2, k3⟩ := write_trans (env := env) (cmgdCmd i) [13] s1
    refine ⟨ok, s2, h1.trans k1.logMem, h2.append rfl k2, ?_⟩
    rcases k3 with ⟨rfl, k3⟩ | ⟨rfl, e, k3⟩
    · exact .inl ⟨rfl, by rw [k3]; rfl⟩
    · exact .inr ⟨rfl, e, by rw [k3]⟩
  · rw [h3]
    exact ⟨false, s1, h1, h2.stop_append _ rfl, .inr ⟨rfl, e, rfl⟩⟩

end Gsm
