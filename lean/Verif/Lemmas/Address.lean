import Verif.Model.Address
import Verif.Spec.Address
import Verif.Lemmas.Ucs2
import Verif.Lemmas.Septets
import Verif.Props.Septets
import Verif.Props.Gsm7
namespace Gsm

theorem digit16_ascii [PyUnicode] {c : Nat} (h : 48 ≤ c ∧ c ≤ 57) : digit16? c = some (c - 48) := by
  simp [digit16?, hexVal?, h]

theorem digit16_F [PyUnicode] : digit16? 70 = some 15 := by simp [digit16?, hexVal?]

theorem semiOctetPairs_cons2 [PyUnicode] {a b : Nat} {s : List Nat} (ha : 48 ≤ a ∧ a ≤ 57)
    (hb : 48 ≤ b ∧ b ≤ 57) :
    semiOctetPairs (a :: b :: s) = (semiOctetPairs s).map (((b - 48) * 16 + (a - 48)) :: ·) := by
  rw [semiOctetPairs, digit16_ascii ha, digit16_ascii hb]
  cases semiOctetPairs s <;> rfl

theorem hexLower_digit {n : Nat} (h : n ≤ 9) : hexLower n = 48 + n := by
  unfold hexLower; rw [if_pos (by omega)]

/-- The semi-octets of a digit string. -/
def semiOctets : List Nat → List Nat
  | [] => []
  | [a] => [15 * 16 + (a - 48)]
  | a :: b :: s => ((b - 48) * 16 + (a - 48)) :: semiOctets s

theorem encodeSemiOctets_digits [PyUnicode] : ∀ {s : List Nat}, IsDigits s →
    encodeSemiOctets s = .ok (semiOctets s)
  | [], _ => by simp [encodeSemiOctets, semiOctetPairs, semiOctets]
  | [a], h => by
    have := h a (by simp)
    simp [encodeSemiOctets, semiOctetPairs, semiOctets, digit16_ascii this, digit16_F, bind,
      Except.bind, pure, Except.pure]
  | a :: b :: s, h => by
    have ih := encodeSemiOctets_digits (s := s) (fun c hc => h c (by simp [hc]))
    have ha := h a (by simp)
    have hb := h b (by simp)
    unfold encodeSemiOctets at *
    have e : (a :: b :: s).length % 2 = s.length % 2 := by simp; omega
    rw [e]
    by_cases h1 : s.length % 2 = 1
    · simp only [h1, if_true, List.cons_append] at *
      rw [semiOctetPairs_cons2 ha hb, ih]; rfl
    · simp only [h1, if_false] at *
      rw [semiOctetPairs_cons2 ha hb, ih]; rfl

theorem length_semiOctets : ∀ s : List Nat, (semiOctets s).length = (s.length + 1) / 2
  | [] => rfl
  | [a] => by simp [semiOctets]
  | a :: b :: s => by simp [semiOctets, length_semiOctets s]; omega

theorem semiOctets_lt : ∀ {s : List Nat}, IsDigits s → ∀ x ∈ semiOctets s, x < 256
  | [], _ => by simp [semiOctets]
  | [a], h => by have := h a (by simp); simp [semiOctets]; omega
  | a :: b :: s, h => by
    have ha := h a (by simp)
    have hb := h b (by simp)
    have ih := semiOctets_lt (s := s) (fun c hc => h c (by simp [hc]))
    simp only [semiOctets, List.mem_cons]
    rintro x (rfl | hx)
    · omega
    · exact ih x hx

/-- Decoding with a limit equal to the number of octets still to read. -/
theorem decodeSemiOctets_limit (rest : List Nat) : ∀ {s : List Nat} {i : Nat}, IsDigits s → s ≠ [] →
    decodeSemiOctets (some (i + (semiOctets s).length)) i (semiOctets s ++ rest) = (s, rest)
  | [], _, _, h => absurd rfl h
  | [a], i, h, _ => by
    have ha := h a (by simp)
    simp only [semiOctets, List.cons_append, List.nil_append, decodeSemiOctets]
    rw [if_pos (by omega), show (15 * 16 + (a - 48)) % 16 = a - 48 by omega, hexLower_digit (by omega)]
    simp; omega
  | a :: b :: s, i, h, _ => by
    have ha := h a (by simp)
    have hb := h b (by simp)
    have e1 : ((b - 48) * 16 + (a - 48)) % 16 = a - 48 := by omega
    have e2 : ((b - 48) * 16 + (a - 48)) / 16 = b - 48 := by omega
    simp only [semiOctets, List.cons_append, decodeSemiOctets, e1, e2, List.length_cons]
    rw [if_neg (by omega), hexLower_digit (by omega), hexLower_digit (by omega)]
    have h48 : ∀ x, 48 ≤ x ∧ x ≤ 57 → 48 + (x - 48) = x := by intro x hx; omega
    rw [h48 a ha, h48 b hb]
    by_cases hs : s = []
    · subst hs; simp [semiOctets]
    · have ih := decodeSemiOctets_limit rest (s := s) (i := i + 1) (fun c hc => h c (by simp [hc])) hs
      have hlen : (semiOctets s).length ≠ 0 := by
        rw [length_semiOctets]
        have := List.length_pos_iff.2 hs
        omega
      rw [if_neg (by intro h; simp only [Option.some.injEq] at h; omega), show i + ((semiOctets s).length + 1) = i + 1 + (semiOctets s).length by ring, ih]

theorem decodeSemiOctets_all {i : Nat} : ∀ {s : List Nat}, IsDigits s →
    decodeSemiOctets none i (semiOctets s) = (s, [])
  | [], _ => by simp [semiOctets, decodeSemiOctets]
  | [a], h => by
    have ha := h a (by simp)
    simp only [semiOctets, decodeSemiOctets]
    rw [if_pos (by omega), show (15 * 16 + (a - 48)) % 16 = a - 48 by omega, hexLower_digit (by omega)]
    simp; omega
  | a :: b :: s, h => by
    have ha := h a (by simp)
    have hb := h b (by simp)
    have e1 : ((b - 48) * 16 + (a - 48)) % 16 = a - 48 := by omega
    have e2 : ((b - 48) * 16 + (a - 48)) / 16 = b - 48 := by omega
    simp only [semiOctets, decodeSemiOctets, e1, e2]
    rw [if_neg (by omega), hexLower_digit (by omega), hexLower_digit (by omega)]
    have h48 : ∀ x, 48 ≤ x ∧ x ≤ 57 → 48 + (x - 48) = x := by intro x hx; omega
    rw [h48 a ha, h48 b hb, decodeSemiOctets_all (i := i + 1) (s := s) (fun c hc => h c (by simp [hc]))]
    simp

/-! ### Address classification -/

theorem isDigitStr_ascii [PyUnicode] {s : List Nat} (h : IsDigits s) (hne : s ≠ []) :
    isDigitStr s = true := by
  simp only [isDigitStr, Bool.and_eq_true, Bool.not_eq_true', List.isEmpty_eq_false_iff, List.all_eq_true]
  refine ⟨hne, fun c hc => ?_⟩
  have := h c hc
  rw [PyUnicode.isdigit_ascii c (by omega)]; simp [this]

theorem isAlnumStr_ascii [PyUnicode] {s : List Nat} (h : IsDigits s) (hne : s ≠ []) :
    isAlnumStr s = true := by
  simp only [isAlnumStr, Bool.and_eq_true, Bool.not_eq_true', List.isEmpty_eq_false_iff, List.all_eq_true]
  refine ⟨hne, fun c hc => ?_⟩
  have := h c hc
  rw [PyUnicode.isalnum_ascii c (by omega)]; simp; omega

theorem isAlnumStr_plus [PyUnicode] (s : List Nat) : isAlnumStr (43 :: s) = false := by
  simp [isAlnumStr, PyUnicode.isalnum_ascii 43 (by omega)]

theorem classify_local [PyUnicode] {s : List Nat} (h : IsDigits s) (hne : s ≠ []) :
    classifyAddress s = .ok (0xA1, s, false) := by
  simp [classifyAddress, isAlnumStr_ascii h hne, isDigitStr_ascii h hne]

theorem classify_intl [PyUnicode] {s : List Nat} (h : IsDigits s) (hne : s ≠ []) :
    classifyAddress (43 :: s) = .ok (0x91, s, false) := by
  simp [classifyAddress, isAlnumStr_plus, isDigitStr_ascii h hne]

theorem digitStr_alnum [PyUnicode] {s : List Nat} (h : isDigitStr s = true) : isAlnumStr s = true := by
  simp only [isDigitStr, isAlnumStr, Bool.and_eq_true, List.all_eq_true] at *
  exact ⟨h.1, fun c hc => PyUnicode.digit_alnum c (h.2 c hc)⟩

theorem classify_alpha [PyUnicode] {s : List Nat} (hne : s ≠ []) (h1 : isDigitStr s = false)
    (h2 : ∀ r, s = 43 :: r → isDigitStr r = false) :
    classifyAddress s = .ok (0xD0, s, true) := by
  unfold classifyAddress
  by_cases ha : isAlnumStr s = true
  · simp [ha, h1]
  · simp only [ha, Bool.false_eq_true, if_false]
    match s, hne with
    | c :: r, _ =>
      have : ¬ (c = 43 ∧ isDigitStr r = true) := by
        rintro ⟨rfl, h⟩
        rw [h2 r rfl] at h; cases h
      simp [this]

/-! ### GSM-7 text after packing and unpacking -/

theorem encodeGsm7_append {a b : List Nat} {d : Bool} {os : List Nat}
    (h : encodeGsm7 (a ++ b) d = .ok os) :
    ∃ x y, encodeGsm7 a d = .ok x ∧ encodeGsm7 b d = .ok y ∧ os = x ++ y := by
  induction a generalizing os with
  | nil => exact ⟨[], os, rfl, h, rfl⟩
  | cons c a ih =>
    obtain ⟨o, r, ho, hr, rfl⟩ := encodeGsm7_cons_ok h
    obtain ⟨x, y, hx, hy, rfl⟩ := ih hr
    exact ⟨o ++ x, y, by simp [encodeGsm7, ho, hx, bind, Except.bind, pure, Except.pure], hy, by simp⟩

theorem encodeChar_last {c : Nat} {o : List Nat} (h : encodeGsm7Char false c = .ok o) :
    o ≠ [] ∧ (o.getLast? = some 0 → c = 64 ∧ o = [0]) ∧ (c = 64 → o = [0]) := by
  rcases encodeGsm7Char_ok h with ⟨i, rfl, hi⟩ | ⟨v, rfl, hv⟩ | ⟨_, h, _⟩
  · refine ⟨by simp, ?_, ?_⟩
    · intro h0
      simp at h0; subst h0
      simp [gsm7Basic] at hi
      exact ⟨hi.symm, rfl⟩
    · rintro rfl
      have : gsm7Basic[0]? = some 64 := rfl
      rw [gsm7Basic_inj hi this]
  · refine ⟨by simp, ?_, ?_⟩
    · intro h0
      simp at h0; subst h0
      simp [gsm7Extended] at hv
    · rintro rfl
      simp [gsm7Extended] at hv
  · cases h

theorem encodeGsm7_ne_nil {t os : List Nat} (h : encodeGsm7 t = .ok os) (ht : t ≠ []) : os ≠ [] := by
  match t, ht with
  | c :: t, _ =>
    obtain ⟨o, r, ho, hr, rfl⟩ := encodeGsm7_cons_ok h
    have := (encodeChar_last ho).1
    simp [this]

/-- Decoding what is left of the septets gives the trimmed text. -/
theorem decode_trim {t os : List Nat} (h : encodeGsm7 t = .ok os) (hesc : 27 ∉ t)
    (P : Prop) [Decidable P] :
    decodeGsm7 (if P ∧ os.getLast? = some 0 then os.dropLast else os) = .ok (trimAt P t) := by
  unfold trimAt
  rcases List.eq_nil_or_concat' t with rfl | ⟨t', c, rfl⟩
  · rw [encodeGsm7] at h; cases h; simp [decodeGsm7]
  · obtain ⟨x, y, hx, hy, rfl⟩ := encodeGsm7_append h
    obtain ⟨o, r, ho, hr, rfl⟩ := encodeGsm7_cons_ok hy
    rw [encodeGsm7] at hr; cases hr
    obtain ⟨h1, h2, h3⟩ := encodeChar_last ho
    simp only [List.append_nil] at *
    have hlast : (x ++ o).getLast? = o.getLast? := List.getLast?_append_of_ne_nil _ h1
    rw [hlast, List.getLast?_concat]
    by_cases hP : P
    · by_cases hc : c = 64
      · subst hc
        rw [h3 rfl]
        simp only [hP, true_and, List.getLast?_singleton, if_true, List.dropLast_concat]
        exact (C01_gsm7_roundtrip hx).2 (fun hm => hesc (by simp [hm]))
      · have : o.getLast? ≠ some 0 := fun h => hc (h2 h).1
        simp only [hP, this, true_and, if_false, Option.some.injEq, hc]
        exact (C01_gsm7_roundtrip h).2 hesc
    · simp only [hP, false_and, if_false]
      exact (C01_gsm7_roundtrip h).2 hesc

end Gsm
