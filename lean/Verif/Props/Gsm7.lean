import Verif.Lemmas.Gsm7
/-! # Properties C01, C02, C58: the GSM-7 text codec -/
namespace Gsm
open Spec

/-- C01. The text comes back exactly iff it has no ESC character. -/
theorem C01_gsm7_roundtrip {t os : List Nat} (h : encodeGsm7 t = .ok os) :
    decodeGsm7 os = .ok t ↔ 27 ∉ t := by
  constructor
  · exact decodeGsm7_no_esc os
  · intro ht
    induction t generalizing os with
    | nil => rw [encodeGsm7] at h; cases h; rfl
    | cons c t ih =>
      obtain ⟨o, r, ho, hr, rfl⟩ := encodeGsm7_cons_ok h
      simp only [List.mem_cons, not_or] at ht
      rw [decodeGsm7_encodeChar ho (Ne.symm ht.1), ih hr ht.2]; rfl

-- "Héllo €[" is accepted, has an extension character, and comes back
example : encodeGsm7 [72, 233, 108, 108, 111, 32, 0x20AC, 91] =
      .ok [72, 5, 108, 108, 111, 32, 0x1B, 0x65, 0x1B, 0x3C] ∧
    decodeGsm7 [72, 5, 108, 108, 111, 32, 0x1B, 0x65, 0x1B, 0x3C] =
      .ok [72, 233, 108, 108, 111, 32, 0x20AC, 91] := by decide

/-- Why ESC is excluded: a text with ESC is accepted but not recovered. -/
theorem C01_esc_lost : encodeGsm7 [65, 27, 66] = .ok [65, 27, 66] ∧
    decodeGsm7 [65, 27, 66] = .ok [65] := by decide

/-- C02. Acceptance is exactly "every character is encodable". -/
theorem C02_accepts_iff (t : List Nat) : (∃ os, encodeGsm7 t = .ok os) ↔ ∀ c ∈ t, Encodable c := by
  induction t with
  | nil => simp [encodeGsm7]
  | cons c t ih =>
    constructor
    · rintro ⟨os, h⟩
      obtain ⟨o, r, ho, hr, rfl⟩ := encodeGsm7_cons_ok h
      intro x hx
      rcases List.mem_cons.1 hx with rfl | hx
      · rcases encodeGsm7Char_cases false x with h | h | h
        · exact h.1
        · rw [h.2.2] at ho; cases ho
        · rw [h.2.2] at ho; cases ho
      · exact ih.1 ⟨r, hr⟩ x hx
    · intro h
      obtain ⟨r, hr⟩ := ih.2 (fun x hx => h x (List.mem_cons_of_mem _ hx))
      rcases encodeGsm7Char_cases false c with h' | h' | h'
      · obtain ⟨_, o, ho, _⟩ := h'
        exact ⟨o ++ r, by simp [encodeGsm7, ho, hr, bind, Except.bind, pure, Except.pure]⟩
      · exact absurd (h c (by simp)) h'.1
      · exact absurd (h c (by simp)) h'.1

example : Encodable 65 := .inl ⟨65, by decide, by decide, by decide⟩
example : Encodable 0x20AC := .inr (.inl ⟨0x65, by decide, by decide, by decide⟩)

/-- C02. A rejected text is rejected because of its first unsupported character: `ValueError`, or
`TypeError` when that character is U+00FF. -/
theorem C02_rejects {t : List Nat} {e : PyErr} (h : encodeGsm7 t = .error e) :
    ∃ pre c post, t = pre ++ c :: post ∧ (∀ x ∈ pre, Encodable x) ∧ ¬ Encodable c ∧
      e = if c = 0xFF then .typeError else .valueError := by
  induction t with
  | nil => simp [encodeGsm7] at h
  | cons c t ih =>
    rcases encodeGsm7Char_cases false c with h' | h' | h'
    · obtain ⟨hc, o, ho, _⟩ := h'
      cases ht : encodeGsm7 t with
      | ok r => simp [encodeGsm7, ho, ht, bind, Except.bind, pure, Except.pure] at h
      | error e' =>
        have : e' = e := by simpa [encodeGsm7, ho, ht, bind, Except.bind, pure, Except.pure] using h
        subst this
        obtain ⟨pre, x, post, rfl, h1, h2, h3⟩ := ih ht
        refine ⟨c :: pre, x, post, rfl, ?_, h2, h3⟩
        intro y hy
        rcases List.mem_cons.1 hy with rfl | hy
        · exact hc
        · exact h1 y hy
    · obtain ⟨h1, rfl, h3⟩ := h'
      refine ⟨[], _, t, rfl, by simp, h1, ?_⟩
      simpa [encodeGsm7, h3, bind, Except.bind] using h.symm
    · refine ⟨[], c, t, rfl, by simp, h'.1, ?_⟩
      simpa [encodeGsm7, h'.2.2, h'.2.1, bind, Except.bind] using h.symm

-- U+4E2D after an accepted character; U+00FF
example : encodeGsm7 [65, 0x4E2D] = .error .valueError ∧ encodeGsm7 [65, 0xFF] = .error .typeError := by
  decide

open Classical in
/-- C02. With `discardInvalid` the unsupported characters are removed; U+00FF still raises. -/
theorem C02_discard (t : List Nat) :
    if 0xFF ∈ t then encodeGsm7 t true = .error .typeError
    else encodeGsm7 t true = encodeGsm7 (t.filter (fun c => Encodable c)) := by
  induction t with
  | nil => simp [encodeGsm7]
  | cons c t ih =>
    rcases encodeGsm7Char_cases true c with h' | h' | h'
    · obtain ⟨hc, o, ho, ho'⟩ := h'
      have hne : ¬ (0xFF = c) := by
        rintro rfl
        rcases encodeGsm7Char_cases true 0xFF with h | h | h
        · have : encodeGsm7Char true 0xFF = .error .typeError := by decide
          rw [this] at ho; cases ho
        · exact h.1 hc
        · exact h.1 hc
      by_cases h : 0xFF ∈ t
      · rw [if_pos h] at ih
        simp [h, encodeGsm7, ho, ih, bind, Except.bind]
      · rw [if_neg h] at ih
        simp [h, hne, encodeGsm7, ho, ho', ih, List.filter_cons, hc]
    · simp [h'.2.1, encodeGsm7, bind, Except.bind, encodeGsm7Char, gsm7Extended,
        show gsm7Basic.idxOf? 255 = none from by decide]
    · have hne : ¬ (0xFF = c) := fun h => h'.2.1 h.symm
      by_cases h : 0xFF ∈ t
      · rw [if_pos h] at ih
        simp [h, encodeGsm7, ih, h'.2.2, bind, Except.bind]
      · rw [if_neg h] at ih
        simp only [List.mem_cons, hne, h, or_self, if_false]
        simp only [encodeGsm7, h'.2.2, ih, List.filter_cons, h'.1]
        simp [bind, Except.bind, pure, Except.pure]
        cases encodeGsm7 (List.filter (fun c => decide (Encodable c)) t) <;> rfl

example : encodeGsm7 [65, 0x4E2D, 66] true = .ok [65, 66] := by decide

/-- C58. What is sent is read back as the same text by any receiver that follows GSM 03.38,
provided the text has neither the ESC character nor the grave accent. -/
theorem C58_conforms {t os : List Nat} (h : encodeGsm7 t = .ok os)
    (hesc : 27 ∉ t) (hgrave : 0x60 ∉ t) : ReadsText t os := by
  induction t generalizing os with
  | nil => rw [encodeGsm7] at h; cases h; exact .nil
  | cons c t ih =>
    obtain ⟨o, r, ho, hr, rfl⟩ := encodeGsm7_cons_ok h
    simp only [List.mem_cons, not_or] at hesc hgrave
    refine .cons ?_ (ih hr hesc.2 hgrave.2)
    rcases encodeGsm7Char_ok ho with ⟨i, rfl, hi⟩ | ⟨v, rfl, hv⟩ | ⟨_, h, _⟩
    · have hl : i < 128 := (List.getElem?_eq_some_iff.1 hi).1
      left
      refine ⟨i, hl, ?_, rfl, ?_⟩
      · rintro rfl; rw [gsm7Basic_27] at hi; simp at hi; omega
      · rw [← gsm7Basic_std i hl ?_, hi]
        rintro rfl
        simp [gsm7Basic] at hi; omega
    · right
      exact ⟨v, (gsm7Ext_std hv).1, rfl, (gsm7Ext_std hv).2⟩
    · cases h

example : ReadsText [72, 0x20AC] [72, 0x1B, 0x65] :=
  C58_conforms (t := [72, 0x20AC]) (by decide) (by decide) (by decide)

/-- C58, the exception: the grave accent is sent as 0x5F, which GSM 03.38 reads as a section sign,
while a received section sign is shown as a grave accent; and the section sign itself is refused. -/
theorem C58_grave : encodeGsm7 [0x60] = .ok [0x5F] ∧ Reads 0xA7 [0x5F] ∧
    decodeGsm7 [0x5F] = .ok [0x60] ∧ encodeGsm7 [0xA7] = .error .valueError :=
  ⟨by decide, .inl ⟨0x5F, by decide, by decide, rfl, by decide⟩, by decide, by decide⟩

end Gsm
