import Verif.Model.Validity
import Verif.Spec.Validity
import Mathlib.Tactic.IntervalCases
/-! # Property C11: relative validity periods (C12 is in Props/Submit.lean) -/
namespace Gsm
open Spec

/-- The decoder implements the table of the standard. -/
theorem C11_decode (x : Nat) :
    decodeRelativeValidityPeriod x =
      if x < 256 then .ok (.ofSeconds (vpSeconds x)) else .error .valueError := by
  unfold decodeRelativeValidityPeriod vpSeconds
  split
  · rw [if_pos (by omega)]; congr 2; omega
  · split
    · rw [if_pos (by omega), if_pos (by omega)]; congr 2; omega
    · split
      · rw [if_pos (by omega), if_neg (by omega), if_pos (by omega)]; congr 2; omega
      · split
        · rw [if_pos (by omega), if_neg (by omega), if_neg (by omega)]; congr 2; omega
        · rw [if_neg (by omega)]

/-- C11. The chosen octet is the one standing for the longest representable period that does not
exceed the requested one. (`seconds < 86400` is the normal form of every timedelta.) -/
theorem C11_encode_best {v : Timedelta} (hs : v.seconds < 86400) (hlo : 300 ≤ v.total)
    (hhi : v.days ≤ 441) :
    ∃ x : Nat, x < 256 ∧ encodeRelativeValidityPeriod v = .ok x ∧ (vpSeconds x : Int) ≤ v.total ∧
      ∀ y < 256, (vpSeconds y : Int) ≤ v.total → vpSeconds y ≤ vpSeconds x := by
  obtain ⟨d, s, m⟩ := v
  simp only [Timedelta.total] at *
  have hd : 0 ≤ d := by omega
  obtain ⟨d, rfl⟩ : ∃ n : Nat, d = n := ⟨d.toNat, by omega⟩
  unfold encodeRelativeValidityPeriod
  simp only
  have key : ∀ x : Nat, x < 256 → (vpSeconds x : Int) ≤ s + d * 86400 →
      (∀ y < 256, (vpSeconds y : Int) ≤ s + d * 86400 → vpSeconds y ≤ vpSeconds x) →
      ∀ z : Int, z = x → ∃ x : Nat, x < 256 ∧ (Except.ok z : Except PyErr Int) = .ok ↑x ∧
        (vpSeconds x : Int) ≤ s + d * 86400 ∧
        ∀ y < 256, (vpSeconds y : Int) ≤ s + d * 86400 → vpSeconds y ≤ vpSeconds x := by
    intro x h1 h2 h3 z hz
    exact ⟨x, h1, by rw [hz], h2, h3⟩
  split
  · rw [Int.tdiv_eq_ediv_of_nonneg (by omega)]
    refine key ((s + d * 86400) / 300 - 1) (by omega) ?_ ?_ _ (by omega)
    · unfold vpSeconds; rw [if_pos (by omega)]; omega
    · intro y hy h
      unfold vpSeconds at *
      rw [if_pos (show (s + d * 86400) / 300 - 1 ≤ 143 by omega)]
      split at h <;> split <;> first | omega | (split at h <;> split <;> first | omega | (split at h <;> split <;> omega))
  · split
    · rw [Int.tdiv_eq_ediv_of_nonneg (by omega)]
      have hr : 143 ≤ (s + d * 86400 - 43200) / 1800 + 143 ∧ (s + d * 86400 - 43200) / 1800 + 143 ≤ 167 := by omega
      have hv : vpSeconds ((s + d * 86400 - 43200) / 1800 + 143) = 43200 + (s + d * 86400 - 43200) / 1800 * 1800 := by
        unfold vpSeconds
        split
        · omega
        · rw [if_pos (by omega)]; omega
      refine key ((s + d * 86400 - 43200) / 1800 + 143) (by omega) ?_ ?_ _ (by omega)
      · rw [hv]; omega
      · intro y hy h
        rw [hv]
        unfold vpSeconds at *
        split at h <;> split <;> first | omega | (split at h <;> split <;> first | omega | (split at h <;> split <;> omega))
    · split
      · have hv : vpSeconds (d + 166) = d * 86400 := by
          unfold vpSeconds
          split
          · omega
          · split
            · omega
            · rw [if_pos (by omega)]; omega
        refine key (d + 166) (by omega) ?_ ?_ _ (by omega)
        · rw [hv]; omega
        · intro y hy h
          rw [hv]
          unfold vpSeconds at *
          split at h <;> split <;> first | omega | (split at h <;> split <;> first | omega | (split at h <;> split <;> omega))
      · rw [Int.tdiv_eq_ediv_of_nonneg (by omega)]
        have hv : vpSeconds (d / 7 + 192) = if d < 35 then 30 * 86400 else d / 7 * (7 * 86400) := by
          unfold vpSeconds
          rw [if_neg (by omega), if_neg (by omega)]
          split
          · rw [if_pos (by omega)]; omega
          · rw [if_neg (by omega)]; omega
        refine key (d / 7 + 192) (by omega) ?_ ?_ _ (by omega)
        · rw [hv]; split <;> omega
        · intro y hy h
          rw [hv]
          unfold vpSeconds at *
          have h35 : d < 35 ∨ ¬ d < 35 := by omega
          rcases h35 with h35 | h35 <;> simp only [h35, if_true, if_false] <;> split at h <;> split <;>
            first | omega | (split at h <;> split <;> first | omega | (split at h <;> split <;> omega))

-- three hours and two minutes is sent as three hours
example : encodeRelativeValidityPeriod (.ofSeconds 10920) = .ok 35 ∧ vpSeconds 35 = 10800 := by decide

/-- C11. Longer periods are refused with `ValueError`; shorter ones give a negative number. -/
theorem C11_encode_range {v : Timedelta} (hs : v.seconds < 86400) :
    (441 < v.days → encodeRelativeValidityPeriod v = .error .valueError) ∧
    (v.total < 300 → ∃ z : Int, encodeRelativeValidityPeriod v = .ok z ∧ z < 0) := by
  obtain ⟨d, s, m⟩ := v
  simp only [Timedelta.total] at *
  unfold encodeRelativeValidityPeriod
  simp only
  constructor
  · intro h
    rw [if_neg (by omega), if_neg (by omega), if_neg (by omega), if_neg (by omega)]
  · intro h
    rw [if_pos (by omega)]
    refine ⟨_, rfl, ?_⟩
    rcases Int.lt_or_le (s + d * 24 * 3600) 0 with h0 | h0
    · have : Int.tdiv (s + d * 24 * 3600) 300 ≤ 0 := by
        have := Int.tdiv_nonneg (a := -(s + d * 24 * 3600)) (b := 300) (by omega) (by omega)
        rw [Int.neg_tdiv] at this; omega
      omega
    · rw [Int.tdiv_eq_ediv_of_nonneg h0]; omega

/-- C11. Every octet is re-encoded to itself from the period it stands for. -/
theorem C11_octet_roundtrip {x : Nat} (hx : x < 256) :
    ∃ v, decodeRelativeValidityPeriod x = .ok v ∧ encodeRelativeValidityPeriod v = .ok x := by
  refine ⟨.ofSeconds (vpSeconds x), by rw [C11_decode, if_pos hx], ?_⟩
  have : ∀ x < 256, encodeRelativeValidityPeriod (.ofSeconds (vpSeconds x)) = .ok (x : Int) := by
    decide +kernel
  exact this x hx

end Gsm
