import Verif.Spec.Hex
import Verif.Model.Pdu
/-! # Property C22: hexadecimal form of a PDU -/
namespace Gsm
open Spec

theorem hexVal_digit {v c : Nat} (h : HexDigit v c) : hexVal? c = some v := by
  unfold HexDigit at h
  unfold hexVal?
  rcases h with ⟨h, rfl⟩ | ⟨h1, h2, rfl | rfl⟩
  · rw [if_pos (by omega)]; simp
  · rw [if_neg (by omega), if_pos (by omega)]; simp; omega
  · rw [if_neg (by omega), if_neg (by omega), if_pos (by omega)]; simp; omega

theorem hexVal_some {c v : Nat} (h : hexVal? c = some v) : HexDigit v c ∧ v < 16 := by
  unfold hexVal? at h
  unfold HexDigit
  split at h
  · simp at h; omega
  · split at h
    · simp at h; omega
    · split at h
      · simp at h; omega
      · simp at h

theorem hexVal_none {c : Nat} : hexVal? c = none ↔ ¬ IsHexChar c := by
  unfold hexVal? IsHexChar
  split
  · simp; omega
  · split
    · simp; omega
    · split
      · simp; omega
      · simp; omega

theorem unhex_of {os s : List Nat} (h : HexOf os s) : unhex s = some os := by
  induction h with
  | nil => rfl
  | @cons o os a b s ha hb _ ih =>
    simp only [unhex, hexVal_digit ha, hexVal_digit hb, ih]
    congr 2; omega

theorem of_unhex : ∀ {s os : List Nat}, unhex s = some os → HexOf os s
  | [], os, h => by simp [unhex] at h; subst h; exact .nil
  | [_], os, h => by simp [unhex] at h
  | a :: b :: s, os, h => by
    rw [unhex] at h
    cases ha : hexVal? a with
    | none => simp [ha] at h
    | some x =>
      cases hb : hexVal? b with
      | none => simp [ha, hb] at h
      | some y =>
        cases hs : unhex s with
        | none => simp [ha, hb, hs] at h
        | some r =>
          simp only [ha, hb, hs, Option.some.injEq] at h
          subst h
          obtain ⟨h1, _⟩ := hexVal_some ha
          obtain ⟨h2, h3⟩ := hexVal_some hb
          refine .cons ?_ ?_ (of_unhex hs)
          · rwa [show (x * 16 + y) / 16 = x by omega]
          · rwa [show (x * 16 + y) % 16 = y by omega]

theorem unhex_none : ∀ {s : List Nat}, unhex s = none ↔ (s.length % 2 = 1 ∨ ∃ c ∈ s, ¬ IsHexChar c)
  | [] => by simp [unhex]
  | [_] => by simp [unhex]
  | a :: b :: s => by
    have ih := @unhex_none s
    rw [unhex]
    have hl : (a :: b :: s).length % 2 = 1 ↔ s.length % 2 = 1 := by simp; omega
    rw [hl]
    simp only [List.mem_cons, exists_eq_or_imp]
    cases ha : hexVal? a with
    | none => simp [hexVal_none.1 ha]
    | some x =>
      cases hb : hexVal? b with
      | none => simp [hexVal_none.1 hb]
      | some y =>
        have ha' : IsHexChar a := by
          exact Classical.byContradiction fun h => by rw [hexVal_none.2 h] at ha; cases ha
        have hb' : IsHexChar b := by
          exact Classical.byContradiction fun h => by rw [hexVal_none.2 h] at hb; cases hb
        simp only [ha', hb', not_true_eq_false, false_or]
        rw [← ih]
        cases unhex s <;> simp

/-- C22. A string in hexadecimal (upper, lower or mixed case) is decoded as the octets it writes. -/
theorem C22_hex_input {os s : List Nat} (h : HexOf os s) : decodeSmsPdu s = decodeSmsPduOctets os := by
  rw [decodeSmsPdu, unhex_of h]

/-- C22. `str(pdu)` writes the PDU's octets in hexadecimal, upper case, two digits per octet. -/
theorem C22_str_pdu : ∀ {os : List Nat}, (∀ x ∈ os, x < 256) →
    HexOf os (pduHex os) ∧ (∀ c ∈ pduHex os, ¬ (97 ≤ c ∧ c ≤ 102)) ∧ (pduHex os).length = 2 * os.length
  | [], _ => ⟨.nil, by simp [pduHex], rfl⟩
  | o :: os, h => by
    obtain ⟨h1, h2, h3⟩ := C22_str_pdu (os := os) (fun x hx => h x (by simp [hx]))
    have ho := h o (by simp)
    have hd : ∀ v < 16, HexDigit v (hexUpper v) ∧ ¬ (97 ≤ hexUpper v ∧ hexUpper v ≤ 102) := by
      intro v hv
      unfold hexUpper HexDigit
      split <;> omega
    obtain ⟨a1, a2⟩ := hd (o / 16) (by omega)
    obtain ⟨b1, b2⟩ := hd (o % 16) (by omega)
    have e : pduHex (o :: os) = hexUpper (o / 16) :: hexUpper (o % 16) :: pduHex os := by simp [pduHex]
    rw [e]
    refine ⟨.cons a1 b1 h1, ?_, by simp; omega⟩
    simp only [List.mem_cons]
    rintro c (rfl | rfl | hc)
    · exact a2
    · exact b2
    · exact h2 c hc

/-- C22. Decoding the printed form is decoding the octets. -/
theorem C22_decode_str {os : List Nat} (h : ∀ x ∈ os, x < 256) :
    decodeSmsPdu (pduHex os) = decodeSmsPduOctets os := C22_hex_input (C22_str_pdu h).1

/-- C22. A string that is not an even number of hexadecimal digits raises `EncodingError`; any other
string writes some octets and is decoded as those. -/
theorem C22_not_hex (s : List Nat) :
    ((s.length % 2 = 1 ∨ ∃ c ∈ s, ¬ IsHexChar c) ∧ decodeSmsPdu s = .error .encodingError) ∨
    (∃ os, HexOf os s ∧ (∀ x ∈ os, x < 256) ∧ decodeSmsPdu s = decodeSmsPduOctets os) := by
  cases h : unhex s with
  | none => exact .inl ⟨unhex_none.1 h, by simp [decodeSmsPdu, h]⟩
  | some os =>
    refine .inr ⟨os, of_unhex h, ?_, by simp [decodeSmsPdu, h]⟩
    have := of_unhex h
    clear h
    induction this with
    | nil => simp
    | cons h1 h2 _ ih =>
      simp only [List.mem_cons]
      rintro x (rfl | hx)
      · unfold HexDigit at h1 h2; omega
      · exact ih x hx

example : pduHex [0x00, 0xAF, 0x7E] = py!"00AF7E" ∧ unhex py!"00af7E" = some [0x00, 0xAF, 0x7E] ∧
    decodeSmsPdu py!"0G" = .error .encodingError ∧ decodeSmsPdu py!"123" = .error .encodingError := by decide

end Gsm
