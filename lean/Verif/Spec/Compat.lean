import Verif.Model.Compat
/-! # What is asked of waiting for an event -/
namespace Gsm

/-- `wait` says whether the event was set: Python 2.6 needs a layer of `newWait` for that. -/
def Answering (v : PyVersion) (w : Nat) : Prop := v = .py26 → 0 < w

/-- The waiting thread has this result. -/
def WaitGives (v : PyVersion) (wraps : Nat) (ms : List WaitMove) (r : Option Bool) : Prop := (waitRun v wraps ms).stage = .returned r

instance (v : PyVersion) (wraps : Nat) (ms : List WaitMove) (r : Option Bool) : Decidable (WaitGives v wraps ms r) := by unfold WaitGives; infer_instance

end Gsm
