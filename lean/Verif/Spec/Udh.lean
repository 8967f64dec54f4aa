import Verif.Model.Udh
/-! # Specification: user data header elements on the wire (GSM 03.40, 9.2.3.24) -/
namespace Gsm.Spec

/-- An element on the wire: identifier, length, data. -/
structure WireIE where
  iei : Nat
  data : List Nat
  deriving DecidableEq, Repr

/-- Octets of an element. -/
def WireIE.octets (e : WireIE) : List Nat := e.iei :: e.data.length :: e.data

/-- Octets of a header (without its own length octet). -/
def headerOctets (es : List WireIE) : List Nat := es.flatMap WireIE.octets

/-- The element object the standard gives for a wire element: 8/16-bit concatenation, 8/16-bit
ports, or anything else. -/
inductive Means : WireIE → IE → Prop
  | concat8 {r p n} : Means ⟨0x00, [r, p, n]⟩ ⟨0x00, 3, [r, p, n], .concatenation r p n⟩
  | concat16 {r1 r0 p n} : r0 < 256 →
      Means ⟨0x08, [r1, r0, p, n]⟩ ⟨0x08, 4, [r1, r0, p, n], .concatenation (r1 * 256 + r0 : Nat) p n⟩
  | port8 {d s} : Means ⟨0x04, [d, s]⟩ ⟨0x04, 2, [d, s], .portAddress d s⟩
  | port16 {d1 d0 s1 s0} : d0 < 256 → s0 < 256 →
      Means ⟨0x05, [d1, d0, s1, s0]⟩
        ⟨0x05, 4, [d1, d0, s1, s0], .portAddress (d1 * 256 + d0 : Nat) (s1 * 256 + s0 : Nat)⟩
  | other {i data} : i ≠ 0x00 → i ≠ 0x08 → i ≠ 0x04 → i ≠ 0x05 →
      Means ⟨i, data⟩ ⟨i, data.length, data, .generic⟩

end Gsm.Spec
