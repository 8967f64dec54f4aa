import Verif.Model.Py
/-! # Regular expressions (Python `re`, as far as the code uses it)

A pattern is a list of items, tried from left to right with Python's backtracking priorities.
Simplifications: `\d` and `\s` are the ASCII classes; `pattern.match` anchors at the start, so a
leading `^` is not written; groups are not nested, and `(\d)+` is written `\d*(\d)`, which matches
the same text and leaves the same (last) character in the group. -/
namespace Gsm

/-- One item of a pattern. -/
inductive Rx
  | ch (p : Nat → Bool)                                        -- one character of a class
  | rep (p : Nat → Bool) (lo : Nat) (hi : Option Nat) (greedy : Bool)   -- class repeated
  | op                                                         -- start of a group
  | cl                                                         -- end of a group
  | eol                                                        -- `$`

/-- What has been captured: finished groups, and the text of the open group. -/
structure Caps where
  done : List PyStr
  cur : PyStr
  deriving DecidableEq, Repr

/-- A repetition, with the rest of the pattern as continuation `k`. -/
def repGreedy {α : Type} (p : Nat → Bool) (k : PyStr → PyStr → Option α) :
    Nat → Option Nat → PyStr → PyStr → Option α
  | lo, _, [], cur => if lo = 0 then k [] cur else none
  | lo, hi, c :: s, cur =>
    if p c ∧ hi ≠ some 0 then
      match repGreedy p k (lo - 1) (hi.map (· - 1)) s (cur ++ [c]) with
      | some r => some r
      | none => if lo = 0 then k (c :: s) cur else none
    else if lo = 0 then k (c :: s) cur else none

/-- The same, shortest first. -/
def repLazy {α : Type} (p : Nat → Bool) (k : PyStr → PyStr → Option α) :
    Nat → Option Nat → PyStr → PyStr → Option α
  | lo, _, [], cur => if lo = 0 then k [] cur else none
  | lo, hi, c :: s, cur =>
    match if lo = 0 then k (c :: s) cur else none with
    | some r => some r
    | none => if p c ∧ hi ≠ some 0 then repLazy p k (lo - 1) (hi.map (· - 1)) s (cur ++ [c]) else none

/-- First match of the items at the start of the text: the groups and the text not matched. -/
def rxRun : List Rx → PyStr → Caps → Option (List PyStr × PyStr)
  | [], s, cap => some (cap.done, s)
  | .ch _ :: _, [], _ => none
  | .ch p :: is, c :: s, cap => if p c then rxRun is s ⟨cap.done, cap.cur ++ [c]⟩ else none
  | .rep p lo hi greedy :: is, s, cap =>
    if greedy then repGreedy p (fun s cur => rxRun is s ⟨cap.done, cur⟩) lo hi s cap.cur
    else repLazy p (fun s cur => rxRun is s ⟨cap.done, cur⟩) lo hi s cap.cur
  | .op :: is, s, cap => rxRun is s ⟨cap.done, []⟩
  | .cl :: is, s, cap => rxRun is s ⟨cap.done ++ [cap.cur], []⟩
  | .eol :: is, s, cap => if s = [] ∨ s = [10] then rxRun is s cap else none

/-- `pattern.match(s)`: the groups and the rest. -/
def rxMatch? (p : List Rx) (s : PyStr) : Option (List PyStr × PyStr) := rxRun p s ⟨[], []⟩

/-- `m.groups()` of `pattern.match(s)`. -/
def rxGroups (p : List Rx) (s : PyStr) : Option (List PyStr) := (rxMatch? p s).map (·.1)

/-- Whether `pattern.match(s)` succeeds. -/
def rxMatches (p : List Rx) (s : PyStr) : Bool := (rxMatch? p s).isSome

/-! Pieces of patterns. -/

def isD (c : Nat) : Bool := decide (48 ≤ c ∧ c ≤ 57)                    -- \d
def isS (c : Nat) : Bool := decide (c = 32 ∨ (9 ≤ c ∧ c ≤ 13) ∨ (28 ≤ c ∧ c ≤ 31))  -- \s
def notC (x c : Nat) : Bool := decide (c ≠ x)                           -- [^x]
def anyC (_ : Nat) : Bool := true                                       -- . with DOTALL
/-- A literal text. -/
def rxLit (s : PyStr) : List Rx := s.map fun x => .ch (fun c => decide (c = x))
def rxStar (p : Nat → Bool) : Rx := .rep p 0 none true                  -- p*
def rxPlus (p : Nat → Bool) : Rx := .rep p 1 none true                  -- p+
def rxOpt (x : Nat) : Rx := .rep (fun c => decide (c = x)) 0 (some 1) true   -- x{0,1}
/-- A group. -/
def rxGrp (is : List Rx) : List Rx := .op :: is ++ [.cl]

end Gsm
