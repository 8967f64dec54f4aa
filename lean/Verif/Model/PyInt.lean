import Verif.Model.Regex
/-! # Python `int(str)` and decimal formatting

Simplification: only ASCII digits and ASCII blanks are accepted (Python also accepts other
Unicode decimal digits and blanks). -/
namespace Gsm

/-- Blanks skipped by `int`. -/
def pyBlank (c : Nat) : Bool := decide (c = 32 ∨ (9 ≤ c ∧ c ≤ 13))

/-- Blanks removed at both ends. -/
def pyTrim (s : PyStr) : PyStr := ((s.dropWhile pyBlank).reverse.dropWhile pyBlank).reverse

/-- The digits after the first one; single underscores may stand between digits (`us`: the
previous character was one). -/
def intDigits : Bool → Nat → PyStr → Option Nat
  | us, acc, [] => if us then none else some acc
  | us, acc, c :: s =>
    if isD c then intDigits false (acc * 10 + (c - 48)) s
    else if c = 95 ∧ us = false then intDigits true acc s
    else none

def pyNat? : PyStr → Option Nat
  | [] => none
  | c :: s => if isD c then intDigits false (c - 48) s else none

/-- `int(s)`; `none` is a `ValueError`. -/
def pyInt? (s : PyStr) : Option Int :=
  match pyTrim s with
  | 43 :: t => (pyNat? t).map fun (n : Nat) => (n : Int)
  | 45 :: t => (pyNat? t).map fun (n : Nat) => -(n : Int)
  | t => (pyNat? t).map fun (n : Nat) => (n : Int)

/-- `int(s)`. -/
def pyInt (s : PyStr) : Except PyErr Int :=
  match pyInt? s with
  | some n => .ok n
  | none => .error .valueError

/-- Decimal digits; `fuel > n` is enough. -/
def decAux : Nat → Nat → PyStr → PyStr
  | 0, _, acc => acc
  | fuel + 1, n, acc => if n < 10 then (48 + n) :: acc else decAux fuel (n / 10) ((48 + n % 10) :: acc)

/-- `'{0}'.format(n)` for a natural number. -/
def decStr (n : Nat) : PyStr := decAux (n + 1) n []

/-- `'{0}'.format(n)`. -/
def intStr (n : Int) : PyStr := if 0 ≤ n then decStr n.toNat else 45 :: decStr (-n).toNat

end Gsm
