import Verif.Model.Ucs2
import Verif.Lemmas.Gsm7
import Mathlib.Tactic.Ring
namespace Gsm

theorem byteOf_ok {x : Nat} (h : x < 256) : byteOf x = .ok x := by
  unfold byteOf
  rw [if_pos (by omega)]; simp

theorem byteOf_err {x : Nat} (h : 256 ≤ x) : byteOf x = .error .valueError := by
  unfold byteOf
  rw [if_neg (by omega)]

theorem byteOf_eq_ok {x : Int} {y : Nat} : byteOf x = .ok y ↔ (0 ≤ x ∧ x < 256) ∧ x = y := by
  unfold byteOf
  split
  · rename_i h; simp [h]; omega
  · rename_i h; simp [h]

theorem shl8_or {a b : Nat} (hb : b < 256) : (a <<< 8) ||| b = a * 256 + b := by
  rw [Nat.shiftLeft_eq, Nat.mul_comm, ← Nat.two_pow_add_eq_or_of_lt (show b < 2 ^ 8 from hb)]

theorem and_ff (c : Nat) : c &&& 0xFF = c % 256 := Nat.and_two_pow_sub_one_eq_mod c 8

theorem encodeUcs2_cons {c : Nat} {cs : List Nat} (h : c < 65536) :
    encodeUcs2 (c :: cs) = (encodeUcs2 cs).map (fun r => c / 256 :: c % 256 :: r) := by
  have h1 : c >>> 8 = c / 256 := Nat.shiftRight_eq_div_pow c 8
  rw [encodeUcs2, h1, and_ff, byteOf_ok (by omega), byteOf_ok (by omega)]
  cases encodeUcs2 cs <;> rfl

theorem encodeUcs2_cons_err {c : Nat} {cs : List Nat} (h : 65536 ≤ c) :
    encodeUcs2 (c :: cs) = .error .valueError := by
  have h1 : c >>> 8 = c / 256 := Nat.shiftRight_eq_div_pow c 8
  rw [encodeUcs2, h1, byteOf_err (by omega)]
  rfl

/-- Big-endian octet pairs of a text. -/
def ucs2Octets (t : List Nat) : List Nat := t.flatMap (fun c => [c / 256, c % 256])

theorem encodeUcs2_ok {t : List Nat} (h : ∀ c ∈ t, c < 65536) :
    encodeUcs2 t = .ok (ucs2Octets t) := by
  induction t with
  | nil => rfl
  | cons c t ih =>
    rw [encodeUcs2_cons (h c (by simp)), ih (fun x hx => h x (by simp [hx]))]; rfl

theorem encodeUcs2_error {t : List Nat} (h : ¬ ∀ c ∈ t, c < 65536) :
    encodeUcs2 t = .error .valueError := by
  induction t with
  | nil => simp at h
  | cons c t ih =>
    by_cases hc : c < 65536
    · rw [encodeUcs2_cons hc, ih]
      · rfl
      · intro h'
        exact h (by simp [hc]; exact h')
    · exact encodeUcs2_cons_err (by omega)

@[simp] theorem length_ucs2Octets (t : List Nat) : (ucs2Octets t).length = 2 * t.length := by
  induction t with
  | nil => rfl
  | cons c t ih => simp [ucs2Octets] at *; omega

theorem ucs2Octets_lt {t : List Nat} (h : ∀ c ∈ t, c < 65536) : ∀ x ∈ ucs2Octets t, x < 256 := by
  intro x hx
  simp only [ucs2Octets, List.mem_flatMap] at hx
  obtain ⟨c, hc, hx⟩ := hx
  have := h c hc
  simp at hx
  rcases hx with rfl | rfl <;> omega

end Gsm
