import Verif.Lemmas.Ucs2
/-! # Properties C06, C07: UCS2 -/
namespace Gsm

/-- C06. Round trip for every text of code points up to U+FFFF, whatever follows. -/
theorem C06_ucs2_roundtrip {t : List Nat} (h : ∀ c ∈ t, c < 65536) (rest : List Nat) :
    ∃ os, encodeUcs2 t = .ok os ∧ os.length = 2 * t.length ∧ (∀ x ∈ os, x < 256) ∧
      decodeUcs2 (os ++ rest) os.length = (t, rest) := by
  refine ⟨ucs2Octets t, encodeUcs2_ok h, length_ucs2Octets t, ucs2Octets_lt h, ?_⟩
  rw [length_ucs2Octets]
  induction t with
  | nil => simp [ucs2Octets, decodeUcs2]
  | cons c t ih =>
    have ih := ih (fun x hx => h x (by simp [hx]))
    have hc := h c (by simp)
    have e : 2 * (c :: t).length = (2 * t.length + 1) + 1 := by simp; ring
    have e2 : ucs2Octets (c :: t) ++ rest = c / 256 :: c % 256 :: (ucs2Octets t ++ rest) := by
      simp [ucs2Octets]
    rw [e, e2, decodeUcs2, show 2 * t.length + 1 + 1 - 2 = 2 * t.length by omega, ih,
      shl8_or (by omega)]
    simp; omega

example : encodeUcs2 [0x4E2D, 0x41] = .ok [0x4E, 0x2D, 0, 0x41] ∧
    decodeUcs2 [0x4E, 0x2D, 0, 0x41, 9] 4 = ([0x4E2D, 0x41], [9]) := by decide

/-- C06. Encoding fails, with `ValueError`, iff some code point is above U+FFFF. -/
theorem C06_ucs2_reject (t : List Nat) :
    encodeUcs2 t = .error .valueError ↔ ∃ c ∈ t, 65536 ≤ c := by
  by_cases h : ∀ c ∈ t, c < 65536
  · rw [encodeUcs2_ok h]
    simp only [reduceCtorEq, false_iff]
    rintro ⟨c, hc, h2⟩
    have := h c hc; omega
  · rw [encodeUcs2_error h]
    simp only [true_iff]
    by_contra hn
    exact h (fun c hc => by by_contra hh; exact hn ⟨c, hc, by omega⟩)

example : encodeUcs2 [0x41, 0x1F600] = .error .valueError := by decide

/-- C07. Decoding is total (it is a pure function here: no error value) and returns
`min(ceil(n/2), available/2)` characters, the `i`-th being the `i`-th big-endian pair. -/
theorem C07_ucs2_decode (it : List Nat) (n : Nat) (hit : ∀ o ∈ it, o < 256) :
    (decodeUcs2 it n).1.length = min ((n + 1) / 2) (it.length / 2) ∧
    (∀ i < (decodeUcs2 it n).1.length,
      (decodeUcs2 it n).1[i]? = some (it[2 * i]?.getD 0 * 256 + it[2 * i + 1]?.getD 0)) ∧
    (decodeUcs2 it n).2 = if (n + 1) / 2 ≤ it.length / 2 then it.drop (2 * ((n + 1) / 2)) else [] := by
  induction it, n using decodeUcs2.induct with
  | case1 it => simp [decodeUcs2]
  | case2 a b rest n ih =>
    obtain ⟨h1, h2, h3⟩ := ih (fun o ho => hit o (by simp [ho]))
    have hb : b < 256 := hit b (by simp)
    have e : (n + 1 + 1) / 2 = (n + 1 - 2 + 1) / 2 + 1 := by omega
    have e' : (rest.length + 1 + 1) / 2 = rest.length / 2 + 1 := by omega
    refine ⟨?_, ?_, ?_⟩
    · simp only [decodeUcs2, List.length_cons, h1, e, e']; omega
    · intro i hi
      cases i with
      | zero => simp [decodeUcs2, shl8_or hb]
      | succ i =>
        simp only [decodeUcs2, List.length_cons] at hi
        have := h2 i (by omega)
        simp only [decodeUcs2, List.getElem?_cons_succ, this]
        rw [show 2 * (i + 1) = 2 * i + 1 + 1 by ring]
        simp
    · simp only [decodeUcs2, h3, List.length_cons, e, e', Nat.add_le_add_iff_right]
      split
      · rw [show 2 * ((n + 1 - 2 + 1) / 2 + 1) = 2 * ((n + 1 - 2 + 1) / 2) + 1 + 1 by ring]; simp
      · rfl
  | case3 it n h =>
    have hl : it.length ≤ 1 := by
      match it with
      | [] => simp
      | [_] => simp
      | a :: b :: rest => exact absurd rfl (h a b rest)
    have hd : decodeUcs2 it (n + 1) = ([], []) := by
      match it with
      | [] => rfl
      | [_] => rfl
      | a :: b :: rest => exact absurd rfl (h a b rest)
    rw [hd]
    refine ⟨by simp; omega, by simp, ?_⟩
    split
    · rw [List.drop_eq_nil_of_le (by omega)]
    · rfl

-- odd limits read a whole pair, short data gives what there is
example : decodeUcs2 [0, 65, 0, 66, 7] 3 = ([65, 66], [7]) ∧ decodeUcs2 [0, 65, 0] 10 = ([65], []) := by
  decide

end Gsm
