import Verif.Model.Py
/-! # Specification: lines, final result codes, interleavings -/
namespace Gsm.Spec

/-- A piece of text without an end of line (CR LF) in it. -/
def NoEol (l : List Nat) : Prop := ¬ [13, 10] <:+: l

/-- `Framed P s lines rest`: the stream `s` consists of `lines`, each ended by CR LF, and of `rest`,
in which no line is complete. Empty lines are not listed. A text that ends with a sequence of `P`
(a prompt that is waited for) may be a line on its own without CR LF. -/
inductive Framed (P : List Nat → Prop) : List Nat → List (List Nat) → List Nat → Prop
  | rest {r} : NoEol r → Framed P r [] r
  | empty {s ls r} : Framed P s ls r → Framed P (13 :: 10 :: s) ls r
  | line {l s ls r} : l ≠ [] → NoEol l → Framed P s ls r → Framed P (l ++ 13 :: 10 :: s) (l :: ls) r
  | prompt {l p s ls r} : P p → p <:+ l → NoEol l → Framed P s ls r → Framed P (l ++ s) (l :: ls) r

/-- A final result code, after which no more lines belong to the response. -/
def IsFinal (line : List Nat) : Prop :=
  py!"OK" <+: line ∨ py!"ERROR" <+: line ∨
  (∃ d, 48 ≤ d ∧ d ≤ 57 ∧ (py!"+CME ERROR: " ++ [d] <+: line ∨ py!"+CMS ERROR: " ++ [d] <+: line)) ∨
  line = py!"COMMAND NOT SUPPORT" ∨ line = py!"COMMAND NOT SUPPORT" ++ [10]

/-- `c` is an interleaving of `a` and `b`: every element of `c` is from exactly one of them, in order. -/
inductive Shuffle {α : Type} : List α → List α → List α → Prop
  | nil : Shuffle [] [] []
  | left {x a b c} : Shuffle a b c → Shuffle (x :: a) b (x :: c)
  | right {x a b c} : Shuffle a b c → Shuffle a (x :: b) (x :: c)

end Gsm.Spec
