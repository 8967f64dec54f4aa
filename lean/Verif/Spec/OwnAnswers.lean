import Verif.Spec.OwnLines
import Verif.Spec.DialExamples
/-! # Specification: the lines of each thread with the answers it gets -/
namespace Gsm.Spec

/-- The lines of a step, each with the answer if one is waited for. -/
def stepTalk {α : Type} (env : Env) (w : Shared) : Proc α → List (PyStr × Option Reply)
  | .io t _ => [(t, some (env.reply (t :: w.st.log)))]
  | .act f _ => (sentSince w.st.log (f env w).st.log).map fun c => (c, none)
  | .done _ => []

/-- The lines of one thread with their answers, in the order in which they are sent. -/
def ownTalk (env : Env) (i : Nat) : List Nat → List (Proc Value) × Shared → List (PyStr × Option Reply)
  | [], _ => []
  | j :: is, (threads, w) =>
    match threads[j]? with
    | none => ownTalk env i is (threads, w)
    | some p => (if j = i then stepTalk env w p else []) ++ ownTalk env i is (threads.set j (p.step env w).1, (p.step env w).2)

/-- The commands are carried out in their order, as far as it goes: a command is repeated while the modem is busy, and the next is sent only after the modem has taken it. -/
inductive Proceeds : List PyStr → List (PyStr × Option Reply) → Prop
  | stop (cs : List PyStr) : Proceeds cs []
  | last {c : PyStr} {cs : List PyStr} {before : List (PyStr × Option Reply)} (r : Reply) : (∀ x ∈ before, x.1 = c ∧ ∃ b, x.2 = some b ∧ SaysBusy b) → Proceeds (c :: cs) (before ++ [(c, some r)])
  | next {c : PyStr} {cs : List PyStr} {before l : List (PyStr × Option Reply)} {r : Reply} : (∀ x ∈ before, x.1 = c ∧ ∃ b, x.2 = some b ∧ SaysBusy b) → SaysYes r → Proceeds cs l →
      Proceeds (c :: cs) (before ++ (c, some r) :: l)

/-- All of them are carried out. -/
inductive ProceedsAll : List PyStr → List (PyStr × Option Reply) → Prop
  | nil : ProceedsAll [] []
  | next {c : PyStr} {cs : List PyStr} {before l : List (PyStr × Option Reply)} {r : Reply} : (∀ x ∈ before, x.1 = c ∧ ∃ b, x.2 = some b ∧ SaysBusy b) → SaysYes r → ProceedsAll cs l →
      ProceedsAll (c :: cs) (before ++ (c, some r) :: l)

end Gsm.Spec
