import Verif.Spec.Serial
/-! # Specification: stored messages as the modem shows them on the serial line -/
namespace Gsm.Spec

/-- The pieces of a text between the ends of lines; the second argument is what the current piece begins with. -/
def piecesFrom : PyStr → PyStr → List PyStr
  | acc, 13 :: 10 :: s => acc :: piecesFrom [] s
  | acc, c :: s => piecesFrom (acc ++ [c]) s
  | acc, [] => [acc]

/-- The lines of a text; nobody counts empty ones. -/
def textLines (text : PyStr) : List PyStr := (piecesFrom [] text).filter (· ≠ [])

/-- What the modem sends when it shows stored messages (one for `AT+CMGR`, any number for `AT+CMGL`), each with a header and a body. -/
def shownChars (items : List (PyStr × PyStr)) : PyStr :=
  items.flatMap (fun x => py!"\r\n" ++ x.1 ++ py!"\r\n" ++ x.2 ++ py!"\r\n") ++ py!"\r\nOK\r\n"

/-- The same as lines. -/
def shownLines (items : List (PyStr × PyStr)) : List PyStr := items.flatMap (fun x => x.1 :: textLines x.2) ++ [py!"OK"]

/-- The header of a stored message. -/
def HeaderLine (h : PyStr) : Prop := NoEol h ∧ (py!"+CMGR:" <+: h ∨ py!"+CMGL:" <+: h)

/-- Upper case hexadecimal digits. -/
def HexText (t : PyStr) : Prop := ∀ c ∈ t, (48 ≤ c ∧ c ≤ 57) ∨ (65 ≤ c ∧ c ≤ 70)

/-- A text as its sender may have made it up: something harmless, an `OK` of its own, and whatever the receiver shall take for words of the modem. -/
def forgedText (harmless : PyStr) (words : List PyStr) : PyStr := harmless ++ py!"\r\nOK" ++ words.flatMap fun w => py!"\r\n" ++ w

end Gsm.Spec
