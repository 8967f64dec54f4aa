import Verif.Model.Py
/-! # Septet packing: gsmmodem/pdu.py:714-793 -/
namespace Gsm

/-- Loop of `packSeptets` and the left-over octet, gsmmodem/pdu.py:732-746. The Python variables
`shift` and `prevSeptet` are arguments; the octets appended to `result` are returned.
`result.append` never fails here when the inputs are octets and `shift <= 7`. -/
def packLoop (shift prevSeptet : Nat) : List Nat → List Nat
  | [] => if shift ≠ 7 then [prevSeptet >>> shift] else []
  | octet :: octets =>
    let septet := octet &&& 0x7f
    if shift = 7 then packLoop 0 septet octets
    else
      (((septet <<< (7 - shift)) &&& 0xFF) ||| (prevSeptet >>> shift))
        :: packLoop (shift + 1) septet octets

/-- `packSeptets`, gsmmodem/pdu.py:714-746. With `padBits == 0` the first octet is taken (unmasked)
with `next`, which raises `StopIteration` on empty input. Only bytearray/iterator input is modelled
(a `str` is first converted with latin-1). `padBits` is assumed <= 7 (a larger one would make
`7 - shift` negative: `ValueError`). -/
def packSeptets (octets : List Nat) (padBits : Nat := 0) : Except PyErr (List Nat) :=
  if padBits = 0 then
    match octets with
    | [] => .error .stopIteration
    | prevSeptet :: rest => .ok (packLoop 0 prevSeptet rest)
  else .ok (packLoop padBits 0 octets)

/-- State of the `unpackSeptets` loop when it stops. -/
structure UnpackEnd where
  result : List Nat
  prevOctet : Option Nat
  shift : Nat
  rest : List Nat          -- octets left in the iterator
  deriving DecidableEq, Repr

/-- Loop of `unpackSeptets`, gsmmodem/pdu.py:766-787. `numberOfSeptets = none` stands for
`MAX_INT`. `prevOctet >> ..` with `prevOctet` None is a `TypeError`. -/
def unpackLoop (numberOfSeptets : Option Nat) (i : Nat) (prevOctet : Option Nat) (shift : Nat) :
    List Nat → Except PyErr UnpackEnd
  | [] => .ok ⟨[], prevOctet, shift, []⟩
  | octet :: rest =>
    let i := i + 1
    if shift = 7 then
      let shift := 1
      let pre := match prevOctet with
        | some p => [p >>> 1]
        | none => []
      let inRange := match numberOfSeptets with
        | some n => decide (i ≤ n)
        | none => true
      let cur := if inRange then [octet &&& 0x7F] else []
      let prevOctet := if inRange then some octet else prevOctet
      if numberOfSeptets = some i then .ok ⟨pre ++ cur, prevOctet, shift, rest⟩
      else do
        let e ← unpackLoop numberOfSeptets i prevOctet shift rest
        return { e with result := pre ++ cur ++ e.result }
    else
      match prevOctet with
      | none => .error .typeError
      | some p =>
        let b := ((octet <<< shift) &&& 0x7F) ||| (p >>> (8 - shift))
        let shift := shift + 1
        if numberOfSeptets = some i then .ok ⟨[b], some octet, shift, rest⟩
        else do
          let e ← unpackLoop numberOfSeptets i (some octet) shift rest
          return { e with result := b :: e.result }

/-- `unpackSeptets`, gsmmodem/pdu.py:748-793, on an iterator (`it`); returns the septets and the
rest of the iterator. The final septet is only appended when it is not 0 (lines 788-792). -/
def unpackSeptets (it : List Nat) (numberOfSeptets : Option Nat := none)
    (prevOctet : Option Nat := none) (shift : Nat := 7) : Except PyErr (List Nat × List Nat) := do
  let e ← unpackLoop numberOfSeptets 0 prevOctet shift it
  if e.shift = 7 then
    match e.prevOctet with
    | none => .error .typeError
    | some p =>
      let b := p >>> (8 - e.shift)
      if b ≠ 0 then return (e.result ++ [b], e.rest) else return (e.result, e.rest)
  else return (e.result, e.rest)

end Gsm
