import Verif.Model.Callbacks
import Verif.Spec.Calls
import Verif.Spec.Delivery
import Verif.Spec.Processing
/-! # Specification: callbacks that do something -/
namespace Gsm.Spec

/-- Whatever the code of the user is, it is asked at most once: with the callback `c` in the state `s1`. An
exception that it raises is passed on, with the state that it leaves. -/
inductive AskedOnce (m : UserCode → M Unit) (env : Env) (s : St) : Prop
  | never (r : Except PyErr Unit × St) : (∀ cb, m cb env s = r) → AskedOnce m env s
  | once (c : Callback) (s1 : St) (after : Except PyErr Unit × St → Except PyErr Unit × St) :
      (∀ cb, m cb env s = after (cb c env s1)) → (∀ e s2, after (.error e, s2) = (.error e, s2)) →
      ((∀ i, c ≠ .callStatus i) → after = id) → AskedOnce m env s

/-- Callbacks that are recorded; some of them raise an exception. -/
def raisingOn (bad : Callback → Bool) : UserCode := fun c env s =>
  if bad c then (.error .callback, { s with callbacks := c :: s.callbacks }) else (.ok (), { s with callbacks := c :: s.callbacks })

/-- What processing the stored messages comes to when callbacks may raise exceptions. -/
inductive ProcessedWith (bad : Callback → Bool) (env : Env) (s : St) (states : List Bool) : Except PyErr Unit → St → Prop
  /-- All is passed on. -/
  | all {ms s1} : OnlyWritten s s1 → Emptied env.reply s.smsTextMode states s.log s1.log ms → (∀ m ∈ ms, bad (.smsReceived m) = false) →
      ProcessedWith bad env s states (.ok ()) { s1 with callbacks := passOn ms s.callbacks }
  /-- The modem fails at some state. -/
  | failed {e pre st rest l ms s1} : states = pre ++ st :: rest → OnlyWritten s s1 → Emptied env.reply s.smsTextMode pre s.log l ms →
      NotEmptied env.reply s.smsTextMode st l s1.log → (∀ m ∈ ms, bad (.smsReceived m) = false) →
      ProcessedWith bad env s states (.error e) { s1 with callbacks := passOn ms s.callbacks }
  /-- A callback raises an exception: the messages `lost` of its state have been deleted, and are not passed on;
  the states `rest` are not looked at. -/
  | raised {pre st rest ms m lost s1} : states = pre ++ st :: rest → OnlyWritten s s1 →
      Emptied env.reply s.smsTextMode (pre ++ [st]) s.log s1.log (ms ++ m :: lost) →
      (∀ m' ∈ ms, bad (.smsReceived m') = false) → bad (.smsReceived m) = true →
      ProcessedWith bad env s states (.error .callback) { s1 with callbacks := passOn (ms ++ [m]) s.callbacks }

/-- The call of a callback has been answered or not (`v`); nothing else has changed. -/
def ToldUser (s : St) (i : Nat) (v : Bool) (s1 : St) : Prop := ∃ c, s.calls[i]? = some c ∧ s1 = { s with calls := s.calls.set i { c with answered := v } }

end Gsm.Spec
