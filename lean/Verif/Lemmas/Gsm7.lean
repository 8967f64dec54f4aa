import Verif.Model.Gsm7
import Verif.Spec.Gsm0338
import Mathlib.Data.List.Nodup
namespace Gsm
open Spec

theorem except_bind_ok {α β ε} {x : Except ε α} {f : α → Except ε β} {b : β} :
    (x >>= f) = .ok b ↔ ∃ a, x = .ok a ∧ f a = .ok b := by
  cases x <;> simp [bind, Except.bind]

theorem except_map_ok {α β ε} {x : Except ε α} {f : α → β} {b : β} :
    (x.map f) = .ok b ↔ ∃ a, x = .ok a ∧ f a = b := by
  cases x <;> simp [Except.map]

theorem idxOf?_some {l : List Nat} {c i : Nat} (h : l.idxOf? c = some i) : l[i]? = some c := by
  unfold List.idxOf? at h
  rw [List.findIdx?_eq_some_iff_getElem] at h
  obtain ⟨hi, h1, _⟩ := h
  rw [List.getElem?_eq_getElem hi]
  simpa using h1

theorem idxOf?_none {l : List Nat} {c : Nat} : l.idxOf? c = none ↔ c ∉ l := by
  unfold List.idxOf?
  rw [List.findIdx?_eq_none_iff]
  constructor
  · intro h hc; simpa using h c hc
  · intro h x hx; simp; rintro rfl; exact h hx

theorem lookup_mem {β} {l : List (Nat × β)} {c : Nat} {v : β} (h : l.lookup c = some v) :
    (c, v) ∈ l := by
  induction l with
  | nil => simp at h
  | cons e l ih =>
    obtain ⟨k, w⟩ := e
    rw [List.lookup_cons] at h
    by_cases hk : c == k
    · simp [hk] at h; simp at hk; simp [hk, h]
    · simp [hk] at h; exact List.mem_cons_of_mem _ (ih h)

/-- Shape of the code of one accepted character. -/
theorem encodeGsm7Char_ok {d : Bool} {c : Nat} {os : List Nat}
    (h : encodeGsm7Char d c = .ok os) :
    (∃ i, os = [i] ∧ gsm7Basic[i]? = some c) ∨
    (∃ v, os = [0x1B, v] ∧ (c, ExtVal.chr v) ∈ gsm7Extended) ∨
    (os = [] ∧ d = true ∧ c ∉ gsm7Basic ∧ gsm7Extended.lookup c = none) := by
  unfold encodeGsm7Char at h
  split at h
  · rename_i i hi
    simp at h
    exact .inl ⟨i, h.symm, idxOf?_some hi⟩
  · rename_i hn
    split at h
    · rename_i v hv
      simp at h
      exact .inr (.inl ⟨v, h.symm, lookup_mem hv⟩)
    · simp at h
    · rename_i hl
      split at h
      · simp at h; rename_i hd; exact .inr (.inr ⟨h, by simpa using hd, idxOf?_none.1 hn, hl⟩)
      · simp at h

theorem extendedChar_of_mem {c v : Nat} (h : (c, ExtVal.chr v) ∈ gsm7Extended) :
    extendedChar v = [c] := by
  simp [gsm7Extended] at h
  rcases h with h | h | h | h | h | h | h | h | h <;> obtain ⟨rfl, rfl⟩ := h <;> rfl

theorem gsm7Basic_nodup : gsm7Basic.Nodup := by decide +kernel

theorem gsm7Basic_inj {i j c : Nat} (hi : gsm7Basic[i]? = some c) (hj : gsm7Basic[j]? = some c) :
    i = j := by
  obtain ⟨a, ha⟩ := List.getElem?_eq_some_iff.1 hi
  obtain ⟨b, hb⟩ := List.getElem?_eq_some_iff.1 hj
  exact (List.Nodup.getElem_inj_iff gsm7Basic_nodup).1 (ha.trans hb.symm)

theorem gsm7Basic_27 : gsm7Basic[27]? = some 27 := by decide

theorem decodeGsm7_basic {i c : Nat} (hi : gsm7Basic[i]? = some c) (hc : c ≠ 27) (rest : List Nat) :
    decodeGsm7 (i :: rest) = (decodeGsm7 rest).map (c :: ·) := by
  have hne : i ≠ 0x1B := by
    rintro rfl
    rw [gsm7Basic_27] at hi; simp at hi; omega
  rw [decodeGsm7.eq_def]
  simp only [if_neg hne, hi]
  cases decodeGsm7 rest <;> rfl

theorem decodeGsm7_esc (v : Nat) (rest : List Nat) :
    decodeGsm7 (0x1B :: v :: rest) = (decodeGsm7 rest).map (extendedChar v ++ ·) := by
  rw [decodeGsm7]
  simp
  cases decodeGsm7 rest <;> rfl

theorem encodeGsm7_cons_ok {c : Nat} {t os : List Nat} {d : Bool}
    (h : encodeGsm7 (c :: t) d = .ok os) :
    ∃ o r, encodeGsm7Char d c = .ok o ∧ encodeGsm7 t d = .ok r ∧ os = o ++ r := by
  rw [encodeGsm7, except_bind_ok] at h
  obtain ⟨o, ho, h⟩ := h
  rw [except_bind_ok] at h
  obtain ⟨r, hr, h⟩ := h
  exact ⟨o, r, ho, hr, by simpa [pure, Except.pure] using h.symm⟩

theorem decodeGsm7_encodeChar {c : Nat} {o : List Nat} (h : encodeGsm7Char false c = .ok o)
    (hc : c ≠ 27) (rest : List Nat) :
    decodeGsm7 (o ++ rest) = (decodeGsm7 rest).map (c :: ·) := by
  rcases encodeGsm7Char_ok h with ⟨i, rfl, hi⟩ | ⟨v, rfl, hv⟩ | ⟨_, h, _⟩
  · exact decodeGsm7_basic hi hc rest
  · show decodeGsm7 (0x1B :: v :: rest) = _
    rw [decodeGsm7_esc, extendedChar_of_mem hv]; rfl
  · cases h

theorem extendedChar_ne_esc (v : Nat) : 27 ∉ extendedChar v := by
  unfold extendedChar
  split
  · rename_i char val h
    have := List.mem_of_find?_eq_some h
    simp [gsm7Extended] at this
    simp; omega
  · simp

theorem decodeGsm7_no_esc (os : List Nat) : ∀ {t}, decodeGsm7 os = .ok t → 27 ∉ t := by
  induction os using decodeGsm7.induct with
  | case1 => intro t h; rw [decodeGsm7] at h; cases h; simp
  | case2 => intro t h; rw [decodeGsm7] at h; simp at h
  | case3 n rest ih =>
    intro t h
    rw [decodeGsm7_esc, except_map_ok] at h
    obtain ⟨a, ha, rfl⟩ := h
    simp [extendedChar_ne_esc, ih ha]
  | case4 b rest hb hn => intro t h; rw [decodeGsm7.eq_def] at h; simp [hb, hn] at h
  | case5 b rest hb c hc ih =>
    intro t h
    have h27 : c ≠ 27 := by
      rintro rfl; exact hb (gsm7Basic_inj hc gsm7Basic_27)
    rw [decodeGsm7_basic hc h27, except_map_ok] at h
    obtain ⟨a, ha, rfl⟩ := h
    simp [ih ha, Ne.symm h27]

/-- Every accepted text is encoded into septets. -/
theorem encodeGsm7_lt {d : Bool} : ∀ {t os : List Nat}, encodeGsm7 t d = .ok os → ∀ x ∈ os, x < 128
  | [], os, h => by rw [encodeGsm7] at h; cases h; simp
  | c :: t, os, h => by
    obtain ⟨o, r, ho, hr, rfl⟩ := encodeGsm7_cons_ok h
    intro x hx
    rcases List.mem_append.1 hx with hx | hx
    · rcases encodeGsm7Char_ok ho with ⟨i, rfl, hi⟩ | ⟨v, rfl, hv⟩ | ⟨rfl, _⟩
      · obtain ⟨hl, _⟩ := List.getElem?_eq_some_iff.1 hi
        simp at hx; subst hx; exact hl
      · simp [gsm7Extended] at hv
        simp at hx
        omega
      · simp at hx
    · exact encodeGsm7_lt hr x hx

end Gsm

namespace Gsm
open Spec

/-- The shipped table against the standard's: they differ at 0x5F only. -/
theorem gsm7Basic_std : ∀ i < 128, i ≠ 0x5F → gsm7Basic[i]? = gsmChar i := by decide +kernel

theorem gsm7Ext_std {v c : Nat} (h : (c, ExtVal.chr v) ∈ gsm7Extended) :
    v < 128 ∧ gsmExtChar v = some c := by
  simp [gsm7Extended] at h
  rcases h with h | h | h | h | h | h | h | h | h <;> obtain ⟨rfl, rfl⟩ := h <;>
    exact ⟨by decide, rfl⟩

theorem mem_gsm7Basic {c : Nat} : c ∈ gsm7Basic ↔ c = 0x60 ∨ ∃ s < 128, gsmChar s = some c ∧ c ≠ 0xA7 := by
  rw [List.mem_iff_getElem?]
  constructor
  · rintro ⟨i, hi⟩
    have hl : i < 128 := (List.getElem?_eq_some_iff.1 hi).1
    by_cases h : i = 0x5F
    · subst h; left; simpa [gsm7Basic] using hi.symm
    · right
      refine ⟨i, hl, (gsm7Basic_std i hl h).symm.trans hi, ?_⟩
      rintro rfl
      have : 0xA7 ∉ gsm7Basic := by decide
      exact this (List.mem_of_getElem? hi)
  · rintro (rfl | ⟨i, hl, h, hne⟩)
    · exact ⟨0x5F, rfl⟩
    · refine ⟨i, ?_⟩
      rw [gsm7Basic_std i hl ?_, h]
      rintro rfl
      have : gsmChar 0x5F = some 0xA7 := by decide
      simp [this] at h; omega

theorem lookup_gsm7Extended {c : Nat} {v : ExtVal} (h : gsm7Extended.lookup c = some v) (hc : c ≠ 0xFF) :
    ∃ s < 128, gsmExtChar s = some c ∧ c ≠ 0x0C ∧ v = .chr s := by
  have := lookup_mem h
  simp [gsm7Extended] at this
  rcases this with h | h | h | h | h | h | h | h | h | h <;> obtain ⟨rfl, rfl⟩ := h
  · omega
  all_goals exact ⟨_, by decide, rfl, by decide, rfl⟩

theorem lookup_of_gsmExt {s c : Nat} (h : gsmExtChar s = some c) (hc : c ≠ 0x0C) :
    gsm7Extended.lookup c = some (.chr s) := by
  unfold gsmExtChar at h
  split at h <;> simp at h <;> subst h <;> first | rfl | (exact absurd rfl hc)

/-- One character: accepted iff `Encodable`. -/
theorem encodeGsm7Char_cases (d : Bool) (c : Nat) :
    (Encodable c ∧ ∃ o, encodeGsm7Char d c = .ok o ∧ encodeGsm7Char false c = .ok o) ∨
    (¬ Encodable c ∧ c = 0xFF ∧ encodeGsm7Char d c = .error .typeError) ∨
    (¬ Encodable c ∧ c ≠ 0xFF ∧
      encodeGsm7Char d c = if d then .ok [] else .error .valueError) := by
  by_cases hb : c ∈ gsm7Basic
  · left
    refine ⟨?_, ?_⟩
    · rcases mem_gsm7Basic.1 hb with h | h
      · exact .inr (.inr h)
      · exact .inl h
    · cases hi : gsm7Basic.idxOf? c with
      | none => exact absurd hb (idxOf?_none.1 hi)
      | some i => exact ⟨[i], by simp [encodeGsm7Char, hi], by simp [encodeGsm7Char, hi]⟩
  · have hi : gsm7Basic.idxOf? c = none := idxOf?_none.2 hb
    have hn1 : ¬ (∃ s < 128, gsmChar s = some c ∧ c ≠ 0xA7) := fun h => hb (mem_gsm7Basic.2 (.inr h))
    have hn3 : c ≠ 0x60 := fun h => hb (mem_gsm7Basic.2 (.inl h))
    by_cases hF : c = 0xFF
    · right; left
      refine ⟨?_, hF, ?_⟩
      · rintro (h | ⟨s, _, h, h2⟩ | h)
        · exact hn1 h
        · have := lookup_of_gsmExt h h2
          subst hF; simp [gsm7Extended] at this
        · exact hn3 h
      · subst hF; simp [encodeGsm7Char, hi, gsm7Extended]
    · cases hl : gsm7Extended.lookup c with
      | none =>
        right; right
        refine ⟨?_, hF, ?_⟩
        · rintro (h | ⟨s, _, h, h2⟩ | h)
          · exact hn1 h
          · rw [lookup_of_gsmExt h h2] at hl; cases hl
          · exact hn3 h
        · simp [encodeGsm7Char, hi, hl]
      | some v =>
        left
        obtain ⟨s, hs, h, h2, rfl⟩ := lookup_gsm7Extended hl hF
        exact ⟨.inr (.inl ⟨s, hs, h, h2⟩), [0x1B, s], by simp [encodeGsm7Char, hi, hl],
          by simp [encodeGsm7Char, hi, hl]⟩

end Gsm
