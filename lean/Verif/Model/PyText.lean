import Verif.Model.PyInt
/-! # Further Python string functions -/
namespace Gsm

/-- `sub in s`. -/
def pyContains (sub : PyStr) : PyStr → Bool
  | [] => sub.isEmpty
  | c :: s => sub.isPrefixOf (c :: s) || pyContains sub s

/-- Loop of `str.split(sep)`; `fuel > s.length` is enough. -/
def splitAux (sep : PyStr) : Nat → PyStr → PyStr → List PyStr
  | 0, cur, _ => [cur]
  | _ + 1, cur, [] => [cur]
  | fuel + 1, cur, c :: s =>
    if sep.isPrefixOf (c :: s) then cur :: splitAux sep fuel [] ((c :: s).drop sep.length)
    else splitAux sep fuel (cur ++ [c]) s

/-- `s.split(sep)` for a non-empty `sep`. -/
def pySplit (sep s : PyStr) : List PyStr := splitAux sep (s.length + 1) [] s

/-- `s.split(' ', 1)[1]`: what follows the first space; `none` is an `IndexError`. -/
def afterSpace : PyStr → Option PyStr
  | [] => none
  | c :: s => if c = 32 then some s else afterSpace s

/-- `sep.join(parts)`. -/
def pyJoin (sep : PyStr) : List PyStr → PyStr
  | [] => []
  | [p] => p
  | p :: q :: ps => p ++ sep ++ pyJoin sep (q :: ps)

/-- `s.strip()` (ASCII blanks). -/
def pyStrip (s : PyStr) : PyStr := ((s.dropWhile isS).reverse.dropWhile isS).reverse

/-- `s.lower()`, as far as a comparison with an ASCII text without `k` and `s` is concerned (no other
characters are mapped to such letters). -/
def asciiLower (s : PyStr) : PyStr := s.map fun c => if 65 ≤ c ∧ c ≤ 90 then c + 32 else c

end Gsm
