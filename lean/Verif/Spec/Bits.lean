/-!
# Specification: bit streams

GSM 03.38 packs 7-bit characters into octets by writing the bits of every character, least
significant first, one after the other. This file states that notion without any reference to the
model.
-/
namespace Gsm.Spec

/-- The `w` low bits of `x`, least significant first. -/
def bits (w x : Nat) : List Bool := (List.range w).map x.testBit

/-- Bit stream of a list of `w`-bit words. -/
def stream (w : Nat) (xs : List Nat) : List Bool := xs.flatMap (bits w)

/-- The number whose bits, least significant first, are the given ones. -/
def value : List Bool → Nat
  | [] => 0
  | b :: bs => b.toNat + 2 * value bs

/-- Cut a bit stream into complete septets, from the start; an incomplete rest is dropped. -/
def septets (bs : List Bool) : List Nat :=
  if bs.length < 7 then [] else value (bs.take 7) :: septets (bs.drop 7)
termination_by bs.length
decreasing_by simp; omega

/-- `k` zero bits. -/
def zeros (k : Nat) : List Bool := List.replicate k false

/-- What the library reads from a packed bit stream: its complete septets, except that when the
stream ends exactly on a septet boundary a final zero septet is taken for padding. -/
def readSeptets (bs : List Bool) : List Nat :=
  if bs.length % 7 = 0 ∧ (septets bs).getLast? = some 0 then (septets bs).dropLast else septets bs

end Gsm.Spec
