import Verif.Lemmas.Address
/-! # Properties C08, C09, C10: semi-octets and address fields -/
namespace Gsm
open Spec

/-- C08. Semi-octet round trip of every digit string: whole input, or with the octet count given
and anything following. -/
theorem C08_semi_octets [PyUnicode] {d : List Nat} (h : IsDigits d) :
    ∃ os, encodeSemiOctets d = .ok os ∧ os.length = (d.length + 1) / 2 ∧ (∀ x ∈ os, x < 256) ∧
      decodeSemiOctets none 0 os = (d, []) ∧
      (d ≠ [] → ∀ rest, decodeSemiOctets (some os.length) 0 (os ++ rest) = (d, rest)) := by
  refine ⟨semiOctets d, encodeSemiOctets_digits h, length_semiOctets d, semiOctets_lt h,
    decodeSemiOctets_all h, fun hne rest => ?_⟩
  have := decodeSemiOctets_limit rest (i := 0) h hne
  rwa [Nat.zero_add] at this

example : @encodeSemiOctets asciiUnicode [49, 50, 51] = .ok [0x21, 0xF3] ∧
    decodeSemiOctets (some 2) 0 [0x21, 0xF3, 7] = ([49, 50, 51], [7]) := by decide

/-- C08. An octet limit of 0 is not a limit: everything is read (this is what happens for an SMSC
field of length 1). -/
theorem C08_zero_limit : decodeSemiOctets (some 0) 0 [0x21, 0x43] = ([49, 50, 51, 52], []) := by decide

/-- The nibbles of octets, low nibble first. -/
def nibblesOf (os : List Nat) : List Nat := os.flatMap fun o => [o % 16, o / 16]

/-- The characters of the nibbles. -/
def hexString (ns : List Nat) : List Nat := ns.map fun n => (py!"0123456789abcdef").getD n 0

theorem hexLower_table : ∀ n < 16, hexLower n = (py!"0123456789abcdef").getD n 0 := by decide

theorem decodeSemiOctets_read : ∀ (os rest : List Nat) (i n : Nat), (∀ o ∈ os, o < 240) → os ≠ [] →
    n = i + os.length → decodeSemiOctets (some n) i (os ++ rest) = (hexString (nibblesOf os), rest)
  | [], _, _, _, _, h, _ => absurd rfl h
  | o :: os, rest, i, n, h, _, hn => by
    have ho := h o (by simp)
    have e1 := hexLower_table (o % 16) (by omega)
    have e2 := hexLower_table (o / 16) (by omega)
    simp only [List.cons_append, decodeSemiOctets]
    rw [if_neg (by omega), e1, e2]
    cases os with
    | nil =>
      rw [if_pos (by simp at hn ⊢; omega)]
      simp [nibblesOf, hexString]
    | cons o' os =>
      rw [if_neg (by simp at hn ⊢; omega), decodeSemiOctets_read (o' :: os) rest (i + 1) n
        (fun x hx => h x (by simp [hx])) (by simp) (by simp at hn ⊢; omega)]
      simp [nibblesOf, hexString]

theorem decodeSemiOctets_stop : ∀ (os rest : List Nat) (last i n : Nat), (∀ o ∈ os, o < 240) →
    240 ≤ last → last < 256 → i + os.length < n →
    decodeSemiOctets (some n) i (os ++ last :: rest) = (hexString (nibblesOf os ++ [last % 16]), rest)
  | [], rest, last, i, n, _, h1, h2, hn => by
    simp only [List.nil_append, decodeSemiOctets]
    rw [if_pos (by omega), hexLower_table (last % 16) (by omega)]
    simp [nibblesOf, hexString]
  | o :: os, rest, last, i, n, h, h1, h2, hn => by
    have ho := h o (by simp)
    simp only [List.cons_append, decodeSemiOctets]
    simp only [List.length_cons] at hn
    rw [if_neg (by omega), if_neg (by simp; omega), hexLower_table (o % 16) (by omega),
      hexLower_table (o / 16) (by omega),
      decodeSemiOctets_stop os rest last (i + 1) n (fun x hx => h x (by simp [hx])) h1 h2 (by omega)]
    simp [nibblesOf, hexString]

/-- C08. Reading `n` octets, whatever they contain: their nibbles as hexadecimal characters, low
nibble first; a high nibble 15 (the filler) is dropped and ends the reading. -/
theorem C08_read (os rest : List Nat) (last n : Nat) (h : ∀ o ∈ os, o < 240) :
    (os ≠ [] → n = os.length →
      decodeSemiOctets (some n) 0 (os ++ rest) = (hexString (nibblesOf os), rest)) ∧
    (os.length < n → 240 ≤ last → last < 256 →
      decodeSemiOctets (some n) 0 (os ++ last :: rest) = (hexString (nibblesOf os ++ [last % 16]), rest)) :=
  ⟨fun h1 h2 => decodeSemiOctets_read os rest 0 n h h1 (by omega),
   fun h1 h2 h3 => decodeSemiOctets_stop os rest last 0 n h h2 h3 (by omega)⟩

example : decodeSemiOctets (some 3) 0 [0xE1, 0x32, 0xF7, 9] = (py!"1e237", [9]) := by decide

/-- Longest number that fits its length octet. -/
def maxDigits (smscField : Bool) : Nat := if smscField then 508 else 255

/-- C09. Address field of a telephone number: it decodes back to the number, its length is reported
exactly, and the octets after it stay unread. -/
theorem C09_phone_field [PyUnicode] {num ds : List Nat} (h : Phone num ds) (smscField : Bool)
    (hlen : ds.length ≤ maxDigits smscField) (rest : List Nat) :
    ∃ f, encodeAddressField num smscField = .ok f ∧ (∀ x ∈ f, x < 256) ∧
      f.length = (ds.length + 1) / 2 + 2 ∧
      decodeAddressField (f ++ rest) smscField = .ok ((some num, f.length), rest) := by
  obtain ⟨toa, hcl, hd, hne, htoa⟩ : ∃ toa, classifyAddress num = .ok (toa, ds, false) ∧ IsDigits ds ∧
      ds ≠ [] ∧ ((toa = 0xA1 ∧ num = ds) ∨ (toa = 0x91 ∧ num = 43 :: ds)) := by
    cases h with
    | loc h1 h2 => exact ⟨_, classify_local h1 h2, h1, h2, .inl ⟨rfl, rfl⟩⟩
    | intl h1 h2 => exact ⟨_, classify_intl h1 h2, h1, h2, .inr ⟨rfl, rfl⟩⟩
  have hpos := List.length_pos_iff.2 hne
  have hl := length_semiOctets ds
  have hdec := decodeSemiOctets_limit rest (i := 0) hd hne
  rw [Nat.zero_add] at hdec
  have htoa' : toa < 256 := by rcases htoa with h | h <;> omega
  have hton : toa &&& 0x70 ≠ 0x50 := by rcases htoa with h | h <;> rw [h.1] <;> decide
  have hnum : (if toa &&& 0x70 = 0x10 then 43 :: ds else ds) = num := by
    rcases htoa with h | h <;> rw [h.1, h.2] <;> rfl
  cases smscField with
  | false =>
    simp only [maxDigits, Bool.false_eq_true, if_false] at hlen
    refine ⟨ds.length :: toa :: semiOctets ds, ?_, ?_, ?_, ?_⟩
    · simp [encodeAddressField, hcl, encodeSemiOctets_digits hd, bind, Except.bind, pure,
        Except.pure, byteOf_ok (show ds.length < 256 by omega)]
    · simp only [List.mem_cons]
      rintro x (rfl | rfl | hx)
      · omega
      · exact htoa'
      · exact semiOctets_lt hd x hx
    · simp [hl]
    · have hoct : (if ds.length % 2 = 1 then ds.length / 2 + 1 else ds.length / 2) =
          (semiOctets ds).length := by rw [hl]; split <;> omega
      simp only [decodeAddressField, next, List.cons_append, bind, Except.bind, pure, Except.pure,
        if_pos hpos, if_neg hton, Bool.false_eq_true, if_false, hoct, hdec, hnum]
      simp
  | true =>
    simp only [maxDigits, if_true] at hlen
    refine ⟨((semiOctets ds).length + 1) :: toa :: semiOctets ds, ?_, ?_, ?_, ?_⟩
    · have hb : byteOf ((((semiOctets ds).length + 1 : Nat)) : Int) = .ok ((semiOctets ds).length + 1) :=
        byteOf_ok (show (semiOctets ds).length + 1 < 256 by omega)
      simp only [encodeAddressField, hcl, encodeSemiOctets_digits hd, bind, Except.bind, pure,
        Except.pure, if_true, Bool.false_eq_true, if_false, hb]
    · simp only [List.mem_cons]
      rintro x (rfl | rfl | hx)
      · omega
      · exact htoa'
      · exact semiOctets_lt hd x hx
    · simp [hl]
    · simp only [decodeAddressField, next, List.cons_append, bind, Except.bind, pure, Except.pure,
        if_pos (Nat.succ_pos (semiOctets ds).length), if_neg hton, if_true, Nat.add_sub_cancel, hdec, hnum]
      simp

-- "+3161" as a destination and as an SMSC
example : @encodeAddressField asciiUnicode [43, 51, 49, 54, 49] false = .ok [4, 0x91, 0x13, 0x16] ∧
    @encodeAddressField asciiUnicode [43, 51, 49, 54, 49] true = .ok [3, 0x91, 0x13, 0x16] ∧
    Phone [43, 51, 49, 54, 49] [51, 49, 54, 49] :=
  ⟨by decide, by decide, .intl (by decide) (by decide)⟩

/-- C09. Longer numbers are refused with `ValueError`, and the empty one with `IndexError`. -/
theorem C09_phone_too_long [PyUnicode] {num ds : List Nat} (h : Phone num ds) (smscField : Bool)
    (hlen : maxDigits smscField < ds.length) :
    encodeAddressField num smscField = .error .valueError := by
  obtain ⟨toa, hcl, hd⟩ : ∃ toa, classifyAddress num = .ok (toa, ds, false) ∧ IsDigits ds := by
    cases h with
    | loc h1 h2 => exact ⟨_, classify_local h1 h2, h1⟩
    | intl h1 h2 => exact ⟨_, classify_intl h1 h2, h1⟩
  have hl := length_semiOctets ds
  cases smscField with
  | false =>
    simp only [maxDigits, Bool.false_eq_true, if_false] at hlen
    simp [encodeAddressField, hcl, encodeSemiOctets_digits hd, bind, Except.bind,
      byteOf_err (show 256 ≤ ds.length by omega)]
  | true =>
    simp only [maxDigits, if_true] at hlen
    have hb : byteOf ((((semiOctets ds).length + 1 : Nat)) : Int) = .error .valueError :=
      byteOf_err (show 256 ≤ (semiOctets ds).length + 1 by omega)
    simp only [encodeAddressField, hcl, encodeSemiOctets_digits hd, bind, Except.bind, if_true,
      Bool.false_eq_true, if_false, hb]

theorem C09_empty [PyUnicode] (smscField : Bool) :
    encodeAddressField [] smscField = .error .indexError := by
  simp [encodeAddressField, classifyAddress, isAlnumStr, bind, Except.bind]

/-- C10. Any other address is sent as GSM-7 text: whether it is accepted, what it decodes to
(exactly), its reported length, and what follows stays unread. -/
theorem C10_alpha_field [PyUnicode] {a os : List Nat} (hne : a ≠ []) (h1 : isDigitStr a = false)
    (h2 : ∀ r, a = 43 :: r → isDigitStr r = false) (henc : encodeGsm7 a = .ok os)
    (hesc : 27 ∉ a) (hlen : os.length ≤ 145) (smscField : Bool)
    (rest : List Nat) (hrest : ∀ x ∈ rest, x < 256) :
    ∃ f, encodeAddressField a smscField = .ok f ∧ (∀ x ∈ f, x < 256) ∧
      f.length = (7 * os.length + 7) / 8 + 2 ∧
      decodeAddressField (f ++ rest) smscField =
        .ok ((some (trimAt (os.length % 8 = 0) a), f.length), rest) := by
  have hos : os ≠ [] := encodeGsm7_ne_nil henc hne
  have h7 := encodeGsm7_lt henc
  obtain ⟨out, hp, hlt, _, hl⟩ := C03_pack_stream (p := 0) (by omega) (fun _ => hos) h7
  have hl' : out.length = (7 * os.length + 7) / 8 := by simpa [fillBits] using hl
  have hpos := List.length_pos_iff.2 hos
  have hb : byteOf ((out.length * 2 : Nat) : Int) = .ok (out.length * 2) :=
    byteOf_ok (show out.length * 2 < 256 by omega)
  refine ⟨out.length * 2 :: 0xD0 :: out, ?_, ?_, ?_, ?_⟩
  · simp only [encodeAddressField, classify_alpha hne h1 h2, henc, hp, hb, bind, Except.bind, pure,
      Except.pure, if_true]
  · simp only [List.mem_cons]
    rintro x (rfl | rfl | hx)
    · omega
    · omega
    · exact hlt x hx
  · simp [hl']
  · have hu := (C04_unpack_pack hos h7 hp hrest).2.2
    have e : (out.length * 2 + 1) / 2 = out.length := by omega
    simp only [decodeAddressField, next, List.cons_append, bind, Except.bind, pure, Except.pure,
      if_pos (show 0 < out.length * 2 by omega), show (0xD0 &&& 0x70 : Nat) = 0x50 from rfl, if_true, e, hu,
      decode_trim henc hesc]
    simp

-- "Vodafone": 8 septets, comes back; "sevench@" loses its '@'
example : (@encodeAddressField asciiUnicode [86, 111, 100, 97] false).toOption.map (fun f =>
      (decodeAddressField (f ++ [1, 2])).toOption) = some (some ((some [86, 111, 100, 97], 6), [1, 2])) := by
  decide
example : (@encodeAddressField asciiUnicode [115, 101, 118, 101, 110, 99, 104, 64] false).toOption.map
    (fun f => (decodeAddressField (f ++ [1, 2])).toOption) =
    some (some ((some [115, 101, 118, 101, 110, 99, 104], 9), [1, 2])) := by decide

/-- C10. Too long alphanumeric addresses, or ones that GSM-7 cannot carry, are refused. -/
theorem C10_alpha_reject [PyUnicode] {a : List Nat} (hne : a ≠ []) (h1 : isDigitStr a = false)
    (h2 : ∀ r, a = 43 :: r → isDigitStr r = false) (smscField : Bool) :
    (∀ e, encodeGsm7 a = .error e → encodeAddressField a smscField = .error e) ∧
    (∀ os, encodeGsm7 a = .ok os → 145 < os.length →
      encodeAddressField a smscField = .error .valueError) := by
  constructor
  · intro e he
    simp [encodeAddressField, classify_alpha hne h1 h2, he, bind, Except.bind]
  · intro os henc hlen
    have hos : os ≠ [] := encodeGsm7_ne_nil henc hne
    obtain ⟨out, hp, _, _, hl⟩ := C03_pack_stream (p := 0) (by omega) (fun _ => hos) (encodeGsm7_lt henc)
    have hl' : out.length = (7 * os.length + 7) / 8 := by simpa [fillBits] using hl
    have hb : byteOf ((out.length * 2 : Nat) : Int) = .error .valueError :=
      byteOf_err (show 256 ≤ out.length * 2 by omega)
    simp only [encodeAddressField, classify_alpha hne h1 h2, henc, hp, hb, bind, Except.bind, if_true]

end Gsm
