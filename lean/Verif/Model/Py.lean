/-!
# Python runtime vocabulary used by the model

Not code of /repo: the few Python notions the model needs.
-/
namespace Gsm

/-- A Python 3 `str`: its list of code points (lone surrogates allowed, as in Python). -/
abbrev PyStr := List Nat

open Lean in
/-- `py!"text"` is the code point list of the literal (expanded by the parser, so that it is a plain
list of numerals for the kernel). -/
macro:max "py!" s:str : term => do
  let ns := s.getString.toList.map fun c => Syntax.mkNumLit (toString c.toNat)
  `(([$(ns.toArray),*] : List Nat))

/-- Class of a `CommandError` instance; gsmmodem/exceptions.py:30-129. -/
inductive CmdCls
  | command          -- CommandError           exceptions.py:30
  | cme              -- CmeError               exceptions.py:50
  | cms              -- CmsError               exceptions.py:106
  | pinRequired      -- PinRequiredError       exceptions.py:79
  | incorrectPin     -- IncorrectPinError      exceptions.py:88
  | pukRequired      -- PukRequiredError       exceptions.py:97
  | smscUnknown      -- SmscNumberUnknownError exceptions.py:124
  deriving DecidableEq, Repr

/-- Exceptions that can escape the modelled functions (messages are dropped). -/
inductive PyErr
  | valueError
  | typeError
  | indexError
  | keyError
  | attributeError
  | stopIteration
  | encodingError                                      -- exceptions.py:133
  | timeout (data : Option (List PyStr))               -- exceptions.py:7
  | invalidState                                       -- exceptions.py:16
  | interrupted (code : Nat)                           -- exceptions.py:20
  | command (cls : CmdCls) (code : Option Nat)         -- exceptions.py:30
  | recursionError
  | runtimeError                                       -- a dictionary changed while it was iterated over
  | callback                                           -- raised by a user callback
  deriving DecidableEq, Repr

instance {ε α} [DecidableEq ε] [DecidableEq α] : DecidableEq (Except ε α)
  | .ok a, .ok b => if h : a = b then isTrue (by rw [h]) else isFalse (by simp [h])
  | .error a, .error b => if h : a = b then isTrue (by rw [h]) else isFalse (by simp [h])
  | .ok _, .error _ => isFalse (by simp)
  | .error _, .ok _ => isFalse (by simp)

/-- `bytearray.append(x)` / `extend([x])`: `ValueError` unless `0 <= x < 256`. -/
def byteOf (x : Int) : Except PyErr Nat :=
  if 0 ≤ x ∧ x < 256 then .ok x.toNat else .error .valueError

/-- `next(it)` on an iterator over octets (the list of remaining octets). -/
def next (it : List Nat) : Except PyErr (Nat × List Nat) :=
  match it with
  | [] => .error .stopIteration
  | b :: rest => .ok (b, rest)

/-- Value of an ASCII hexadecimal digit character. -/
def hexVal? (c : Nat) : Option Nat :=
  if 48 ≤ c ∧ c ≤ 57 then some (c - 48)
  else if 65 ≤ c ∧ c ≤ 70 then some (c - 55)
  else if 97 ≤ c ∧ c ≤ 102 then some (c - 87)
  else none

/-- Lower-case hexadecimal digit (`hex()`, `codecs.encode(.., 'hex_codec')`). -/
def hexLower (n : Nat) : Nat := if n < 10 then 48 + n else 87 + n

/-- Upper-case hexadecimal digit (`'{:X}'.format`, `.upper()`). -/
def hexUpper (n : Nat) : Nat := if n < 10 then 48 + n else 55 + n

/-- The part of the Unicode character database that `str.isdigit`, `str.isalnum` and `int(..)`
consult. The model is parametric in it; only its ASCII part (and two general facts) is fixed. -/
class PyUnicode where
  isdigit : Nat → Bool
  isalnum : Nat → Bool
  decimal : Nat → Option Nat
  isdigit_ascii : ∀ c, c < 128 → isdigit c = (decide (48 ≤ c ∧ c ≤ 57))
  isalnum_ascii : ∀ c, c < 128 →
    isalnum c = (decide ((48 ≤ c ∧ c ≤ 57) ∨ (65 ≤ c ∧ c ≤ 90) ∨ (97 ≤ c ∧ c ≤ 122)))
  decimal_ascii : ∀ c, c < 128 → decimal c = if 48 ≤ c ∧ c ≤ 57 then some (c - 48) else none
  digit_alnum : ∀ c, isdigit c = true → isalnum c = true
  decimal_le : ∀ c d, decimal c = some d → d ≤ 9

/-- A database that knows only ASCII (shows the class is inhabited; used in examples). -/
@[instance_reducible] def asciiUnicode : PyUnicode where
  isdigit c := decide (48 ≤ c ∧ c ≤ 57)
  isalnum c := decide ((48 ≤ c ∧ c ≤ 57) ∨ (65 ≤ c ∧ c ≤ 90) ∨ (97 ≤ c ∧ c ≤ 122))
  decimal c := if 48 ≤ c ∧ c ≤ 57 then some (c - 48) else none
  isdigit_ascii _ _ := rfl
  isalnum_ascii _ _ := rfl
  decimal_ascii _ _ := rfl
  digit_alnum c h := by simp at h ⊢; omega
  decimal_le c d h := by
    split at h
    · simp at h; omega
    · simp at h

/-- `s.isdigit()`. -/
def isDigitStr [PyUnicode] (s : PyStr) : Bool := !s.isEmpty && s.all PyUnicode.isdigit
/-- `s.isalnum()`. -/
def isAlnumStr [PyUnicode] (s : PyStr) : Bool := !s.isEmpty && s.all PyUnicode.isalnum

/-- Value of one digit character for `int(.., 16)`: ASCII hex digit or Unicode decimal digit. -/
def digit16? [PyUnicode] (c : Nat) : Option Nat := (hexVal? c).or (PyUnicode.decimal c)

end Gsm
