import Verif.Model.HelpPages
/-! # Specification: what a screen shows of a text with colours, lines, lists of commands -/
namespace Gsm.Spec

/-- Where a screen is in an escape sequence. -/
inductive Reading
  | text | escape | numbers (seen : PyStr)
  deriving DecidableEq, Repr

/-- The colour after `ESC [ seen m`: `0` resets, `1;3d` is colour `d`. -/
def colourAfter (now : Option Nat) (seen : PyStr) : Option Nat :=
  if seen = py!"0" then none
  else match seen with
    | [49, 59, 51, d] => some (d - 48)
    | _ => now

/-- A character comes: what is shown, and the state. -/
def screenStep : Reading → Option Nat → Nat → List (Nat × Option Nat) × Reading × Option Nat
  | .text, col, c => if c = 27 then ([], .escape, col) else ([(c, col)], .text, col)
  | .escape, col, c => if c = 91 then ([], .numbers [], col) else ([], .text, col)
  | .numbers seen, col, c => if c = 109 then ([], .text, colourAfter col seen) else ([], .numbers (seen ++ [c]), col)

/-- What a screen shows of a text: characters with their colours (`none` is the usual one), and the state afterwards. -/
def screen : Reading → Option Nat → PyStr → List (Nat × Option Nat) × Reading × Option Nat
  | r, col, [] => ([], r, col)
  | r, col, c :: s =>
    let x := screenStep r col c
    let y := screen x.2.1 x.2.2 s
    (x.1 ++ y.1, y.2)

/-- The text `a` is seen as `b`, and the colour is the usual one before and after. -/
def SeenAs (a b : PyStr) : Prop :=
  (screen .text none a).1.map (·.1) = b ∧ (screen .text none a).2 = (.text, none)

/-- Text without escape characters. -/
def NoEscape (s : PyStr) : Prop := 27 ∉ s
instance (s : PyStr) : Decidable (NoEscape s) := inferInstanceAs (Decidable (27 ∉ s))

/-- Values without escape characters. -/
def NoEscapeValues (vs : HelpValues) : Prop := ∀ l ∈ vs, ∀ v ∈ l, NoEscape v.1 ∧ ∀ d ∈ v.2, NoEscape d
instance (vs : HelpValues) : Decidable (NoEscapeValues vs) := by unfold NoEscapeValues; infer_instance

/-- An entry without escape characters. -/
def NoEscapeEntry (h : HelpEntry) : Prop :=
  NoEscape h.category ∧ NoEscape h.name ∧
    ∀ d ∈ h.detail, NoEscapeValues d.values ∧ NoEscapeValues d.returns ∧ NoEscape d.description ∧ ∀ l ∈ d.label, NoEscape l
instance (h : HelpEntry) : Decidable (NoEscapeEntry h) := by unfold NoEscapeEntry; infer_instance

/-- The lines of a text. -/
def linesIn : PyStr → List PyStr
  | [] => [[]]
  | c :: s =>
    if c = 10 then [] :: linesIn s
    else match linesIn s with
      | [] => [[c]]
      | l :: ls => (c :: l) :: ls

/-- The page is a list of the stored commands whose entry is wanted, each exactly once, with its name. -/
def ListsCommands (completion : Trie (Option HelpEntry)) (want : HelpEntry → Prop) (page : PyStr) : Prop :=
  ∃ l : List (PyStr × HelpEntry), (l.map (·.1)).Nodup ∧
    (∀ k h, (k, h) ∈ l ↔ completion.getItem k = .ok (some h) ∧ want h) ∧
    page = 10 :: l.flatMap fun r => (r.1 ++ List.replicate (8 - r.1.length) 32) ++ py!" - " ++ r.2.name ++ [10]

/-- A text on a page: the lines after the first are indented. -/
def indented (n : Nat) (text : PyStr) : PyStr := pyJoin (10 :: List.replicate n 32) (linesIn text)

/-- A value and what it means. -/
def valueText (v : PyStr × Option PyStr) : PyStr := py!" " ++ v.1 ++ py!" " ++ ((v.2.map (indented (v.1.length + 2))).getD [])

/-- How a command is written, with the names of its values. -/
def syntaxText (command : PyStr) : HelpDetail → PyStr
  | ⟨values, _, _, label⟩ => command ++ (values.map fun vs =>
      (if command.contains 43 || upper2 command == py!"ATS0" then py!"=" else []) ++ pyJoin (if label = none then py!"," else py!"|") (vs.map (·.1))).getD []

/-- The paragraphs of a page of help, each of which ends with a line feed. -/
def pageParagraphs (command : PyStr) (h : HelpEntry) : List PyStr :=
  [[], [], h.name ++ py!" (" ++ command ++ py!")", [], py!"Category: " ++ h.category] ++
    match h.detail with
    | none => [[], py!"No detailed help available for this command.", []]
    | some d =>
      [py!"Description: " ++ d.description] ++
      (match d.values with
        | none => [d.label.getD py!"Values:" ++ py!" No parameters."]
        | some vs => (d.label.getD py!"Values:" ++ py!" ") :: vs.map valueText) ++
      (match d.returns with
        | none => []
        | some vs => py!"Response Values: " :: vs.map valueText) ++
      [py!"Command Syntax:", py!" " ++ syntaxText command d, []]

end Gsm.Spec
