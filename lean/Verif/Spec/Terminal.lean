import Verif.Model.Terminal
/-! # Specification: the line editor and the screen of the terminal -/
namespace Gsm.Spec

/-- A line with a cursor: the text before and after it. -/
structure Line where
  before : PyStr
  after : PyStr
  deriving DecidableEq

/-- An edit. -/
inductive Edit
  | insert (c : Nat) | left | right | backspace | delete | home | toEnd
  deriving DecidableEq

def Line.edit : Edit → Line → Line
  | .insert c, l => ⟨l.before ++ [c], l.after⟩
  | .left, l =>
    match l.before.getLast? with
    | some c => ⟨l.before.dropLast, c :: l.after⟩
    | none => l
  | .right, l =>
    match l.after with
    | c :: r => ⟨l.before ++ [c], r⟩
    | [] => l
  | .backspace, l => ⟨l.before.dropLast, l.after⟩
  | .delete, l => ⟨l.before, l.after.tail⟩
  | .home, l => ⟨[], l.before ++ l.after⟩
  | .toEnd, l => ⟨l.before ++ l.after, []⟩

/-- The current row of the screen and the column of its cursor. -/
structure Screen where
  row : PyStr := []
  col : Nat := 0
  deriving DecidableEq

def Screen.put (s : Screen) : Out → Screen
  | .cr => { s with col := 0 }
  | .text x => ⟨(s.row ++ List.replicate (s.col - s.row.length) 32).take s.col ++ x ++ s.row.drop (s.col + x.length), s.col + x.length⟩
  | .left n => { s with col := s.col - n }
  | .right => { s with col := s.col + 1 }
  | .newline => {}
  | .page => {}

/-- The screen after an output, given most recent first. -/
def screenOf (out : List Out) : Screen := out.foldr (fun o s => s.put o) {}

/-- The screen shows the prompt and the text (blanks may follow), with the cursor where the editor has it. -/
def Displays (s : Screen) (prompt : PyStr) (l : Line) : Prop :=
  (∃ k, s.row = prompt ++ l.before ++ l.after ++ List.replicate k 32) ∧ s.col = prompt.length + l.before.length

end Gsm.Spec
