import Verif.Model.Py
/-! # UCS2: gsmmodem/pdu.py:795-822 -/
namespace Gsm

/-- `decodeUcs2`, gsmmodem/pdu.py:795-806: `i` counts octets; the `StopIteration` raised when the
iterator runs out (possibly after one octet of a pair) is swallowed and what was read is returned.
`remaining` is `numBytes - i`. Returns the text and the rest of the iterator. -/
def decodeUcs2 : (it : List Nat) → (remaining : Nat) → PyStr × List Nat
  | it, 0 => ([], it)
  | a :: b :: rest, n + 1 =>
    let r := decodeUcs2 rest (n + 1 - 2)
    (((a <<< 8) ||| b) :: r.1, r.2)
  | _, _ + 1 => ([], [])

/-- `encodeUcs2`, gsmmodem/pdu.py:808-822. `result.append(b >> 8)` raises `ValueError` for code
points above U+FFFF. -/
def encodeUcs2 : PyStr → Except PyErr (List Nat)
  | [] => .ok []
  | c :: cs => do
    let hi ← byteOf (c >>> 8 : Nat)
    let lo ← byteOf (c &&& 0xFF : Nat)
    let r ← encodeUcs2 cs
    return hi :: lo :: r

end Gsm
