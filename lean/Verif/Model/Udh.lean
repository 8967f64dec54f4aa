import Verif.Model.Py
/-! # User data header elements: gsmmodem/pdu.py:78-214 -/
namespace Gsm

/-- The subclass-specific attributes of an information element. -/
inductive IEKind
  | generic                                              -- InformationElement
  | concatenation (reference parts number : Int)         -- Concatenation
  | portAddress (destination source : Int)               -- PortAddress
  deriving DecidableEq, Repr

/-- An `InformationElement` object, gsmmodem/pdu.py:103-106. -/
structure IE where
  id : Nat
  dataLength : Nat
  data : List Nat
  kind : IEKind
  deriving DecidableEq, Repr

/-- The constructors `Concatenation.__init__`, `PortAddress.__init__` and
`InformationElement.__init__` as selected by `IEI_CLASS_MAP` in `__new__`, when `ieData` is given;
gsmmodem/pdu.py:91-106, 156-164, 189-196, 210-214. Unpacking a list of the wrong length raises
`ValueError`, indexing a short one `IndexError`. -/
def mkIE (iei ieLen : Nat) (ieData : List Nat) : Except PyErr IE :=
  if iei = 0x00 then
    match ieData with
    | [reference, parts, number] => .ok ⟨iei, ieLen, ieData, .concatenation reference parts number⟩
    | _ => .error .valueError
  else if iei = 0x08 then
    match ieData with
    | r1 :: r0 :: parts :: number :: _ =>
      .ok ⟨iei, ieLen, ieData, .concatenation ((r1 <<< 8) ||| r0 : Nat) parts number⟩
    | _ => .error .indexError
  else if iei = 0x04 then
    match ieData with
    | [destination, source] => .ok ⟨iei, ieLen, ieData, .portAddress destination source⟩
    | _ => .error .valueError
  else if iei = 0x05 then
    match ieData with
    | d1 :: d0 :: s1 :: s0 :: _ =>
      .ok ⟨iei, ieLen, ieData, .portAddress ((d1 <<< 8) ||| d0 : Nat) ((s1 <<< 8) ||| s0 : Nat)⟩
    | _ => .error .indexError
  else .ok ⟨iei, ieLen, ieData, .generic⟩

/-- `n` times `next`, gsmmodem/pdu.py:119-120. -/
def takeExact : Nat → List Nat → Except PyErr (List Nat × List Nat)
  | 0, it => .ok ([], it)
  | n + 1, it => do
    let (b, it) ← next it
    let (bs, it) ← takeExact n it
    return (b :: bs, it)

/-- `InformationElement.decode`, gsmmodem/pdu.py:109-121. -/
def decodeIE (it : List Nat) : Except PyErr (IE × List Nat) := do
  let (iei, it) ← next it
  let (ieLen, it) ← next it
  let (ieData, it) ← takeExact ieLen it
  let ie ← mkIE iei ieLen ieData
  return (ie, it)

/-- `bytearray.extend` of a list of ints. -/
def bytesOf : List Int → Except PyErr (List Nat)
  | [] => .ok []
  | x :: xs => do
    let b ← byteOf x
    let bs ← bytesOf xs
    return b :: bs

/-- `Concatenation.encode`, gsmmodem/pdu.py:166-174 with 123-129. -/
def encodeConcatenation (reference parts number : Int) : Except PyErr (List Nat) :=
  if reference > 0xFF then
    bytesOf [0x08, 4, reference / 256, reference % 256, parts, number]
  else bytesOf [0x00, 3, reference, parts, number]

/-- `PortAddress.encode`, gsmmodem/pdu.py:198-206 with 123-129. -/
def encodePortAddress (destination source : Int) : Except PyErr (List Nat) :=
  if destination > 0xFF ∨ source > 0xFF then
    bytesOf [0x05, 4, destination / 256, destination % 256, source / 256, source % 256]
  else bytesOf [0x04, 2, destination, source]

/-- `encode()` of any element, gsmmodem/pdu.py:123-129, 166-174, 198-206. -/
def encodeIE (ie : IE) : Except PyErr (List Nat) :=
  match ie.kind with
  | .concatenation r p n => encodeConcatenation r p n
  | .portAddress d s => encodePortAddress d s
  | .generic => bytesOf ((ie.id : Int) :: ie.dataLength :: ie.data.map (fun (n : Nat) => (n : Int)))

/-- The loop over the UDH fields in `_decodeUserData`, gsmmodem/pdu.py:427-432
(`len(ie)` is `dataLength + 2`, gsmmodem/pdu.py:131-133). Every round adds at least 2 to
`ieLenRead`, so `fuel = udhLen` rounds are never used up (see `decodeUdhLoop_step`). -/
def decodeUdhLoop (fuel udhLen ieLenRead : Nat) (it : List Nat) : Except PyErr (List IE × List Nat) :=
  match fuel with
  | 0 => .ok ([], it)
  | fuel + 1 =>
    if ieLenRead < udhLen then do
      let (ie, it) ← decodeIE it
      let (ies, it) ← decodeUdhLoop fuel udhLen (ieLenRead + (ie.dataLength + 2)) it
      return (ie :: ies, it)
    else .ok ([], it)

end Gsm
