import Verif.Model.Py
/-! # GSM-7 text codec: gsmmodem/pdu.py:28-40, 660-712 -/
namespace Gsm

/-- `GSM7_BASIC`, gsmmodem/pdu.py:28 (code points, generated from the source text). -/
def gsm7Basic : List Nat := [
   64, 163, 36, 165, 232, 233, 249, 236, 242, 199, 10, 216, 248, 13, 197, 229,
   916, 95, 934, 915, 923, 937, 928, 936, 931, 920, 926, 27, 198, 230, 223, 201,
   32, 33, 34, 35, 164, 37, 38, 39, 40, 41, 42, 43, 44, 45, 46, 47,
   48, 49, 50, 51, 52, 53, 54, 55, 56, 57, 58, 59, 60, 61, 62, 63,
   161, 65, 66, 67, 68, 69, 70, 71, 72, 73, 74, 75, 76, 77, 78, 79,
   80, 81, 82, 83, 84, 85, 86, 87, 88, 89, 90, 196, 214, 209, 220, 96,
   191, 97, 98, 99, 100, 101, 102, 103, 104, 105, 106, 107, 108, 109, 110, 111,
   112, 113, 114, 115, 116, 117, 118, 119, 120, 121, 122, 228, 246, 241, 252, 224]

/-- A value of the dict `GSM7_EXTENDED`: a one-character string, or (one entry) an int. -/
inductive ExtVal
  | chr (c : Nat)
  | int (n : Nat)
  deriving DecidableEq, Repr

/-- `GSM7_EXTENDED`, gsmmodem/pdu.py:29-40. Note that the first entry's value is the int 0x0A,
not a string. Insertion order (Python >= 3.7 dict order; the values are distinct, so the order
is not observable). -/
def gsm7Extended : List (Nat × ExtVal) := [
  (0xFF, .int 0x0A),
  (94, .chr 0x14),      -- '^'
  (123, .chr 0x28),     -- '{'
  (125, .chr 0x29),     -- '}'
  (92, .chr 0x2F),      -- '\\'
  (91, .chr 0x3C),      -- '['
  (126, .chr 0x3D),     -- '~'
  (93, .chr 0x3E),      -- ']'
  (124, .chr 0x40),     -- '|'
  (0x20AC, .chr 0x65)]  -- euro sign

/-- Body of the loop of `encodeGsm7`, gsmmodem/pdu.py:677-685: the octets appended for `char`.
`ord(GSM7_EXTENDED[char])` raises `TypeError` for the int entry. -/
def encodeGsm7Char (discardInvalid : Bool) (char : Nat) : Except PyErr (List Nat) :=
  match gsm7Basic.idxOf? char with
  | some idx => .ok [idx]
  | none =>
    match gsm7Extended.lookup char with
    | some (.chr v) => .ok [0x1B, v]
    | some (.int _) => .error .typeError
    | none => if discardInvalid then .ok [] else .error .valueError

/-- `encodeGsm7`, gsmmodem/pdu.py:660-686. -/
def encodeGsm7 (plaintext : PyStr) (discardInvalid : Bool := false) : Except PyErr (List Nat) :=
  match plaintext with
  | [] => .ok []
  | c :: cs => do
    let o ← encodeGsm7Char discardInvalid c
    let os ← encodeGsm7 cs discardInvalid
    return o ++ os

/-- The inner loop of `decodeGsm7`, gsmmodem/pdu.py:706-709: the first `GSM7_EXTENDED` key whose
value equals the character `chr(b)` (nothing is appended when there is none; the int entry never
equals a string). -/
def extendedChar (b : Nat) : PyStr :=
  match gsm7Extended.find? (fun e => e.2 == .chr b) with
  | some (char, _) => [char]
  | none => []

/-- `decodeGsm7`, gsmmodem/pdu.py:688-712. `next(iterEncoded)` after a final ESC raises
`StopIteration`; `GSM7_BASIC[b]` raises `IndexError` for b >= 128. -/
def decodeGsm7 : List Nat → Except PyErr PyStr
  | [] => .ok []
  | b :: rest =>
    if b = 0x1B then
      match rest with
      | [] => .error .stopIteration
      | n :: rest' => do
        let t ← decodeGsm7 rest'
        return extendedChar n ++ t
    else
      match gsm7Basic[b]? with
      | none => .error .indexError
      | some c => do
        let t ← decodeGsm7 rest
        return c :: t

end Gsm
