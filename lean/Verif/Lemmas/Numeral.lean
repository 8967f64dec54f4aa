import Verif.Lemmas.PyInt
import Verif.Spec.Numeral
/-! # `int` reads exactly the whole numbers -/
namespace Gsm
open Spec

theorem intDigits_iff : ∀ {s : PyStr} {us : Bool} {acc v : Nat}, intDigits us acc s = some v ↔
    ∃ first rest, s = DigitGroups first rest ∧ (∀ c ∈ first, 48 ≤ c ∧ c ≤ 57) ∧ (us = true → first ≠ []) ∧ (∀ g ∈ rest, Digits g) ∧
      v = (first ++ rest.flatten).foldl (fun a c => a * 10 + (c - 48)) acc
  | [], us, acc, v => by
    constructor
    · intro h
      cases us with
      | true => simp [intDigits] at h
      | false =>
        simp [intDigits] at h
        exact ⟨[], [], by simp [DigitGroups], by simp, by simp, by simp, by simp [h]⟩
    · rintro ⟨first, rest, h1, _, h3, _, h5⟩
      have hf : first = [] := by
        have := congrArg List.length h1
        simp only [DigitGroups, List.length_append, List.length_nil] at this
        exact List.length_eq_zero_iff.1 (by omega)
      have hr : rest = [] := by
        cases rest with
        | nil => rfl
        | cons g gs => simp [DigitGroups] at h1
      subst hf hr
      cases us with
      | true => exact absurd rfl (h3 rfl)
      | false => simp [intDigits, h5]
  | c :: s, us, acc, v => by
    simp only [intDigits]
    by_cases hd : isD c = true
    · rw [if_pos hd, intDigits_iff]
      have hc := isD_iff.1 hd
      constructor
      · rintro ⟨first, rest, h1, h2, _, h4, h5⟩
        refine ⟨c :: first, rest, by simp [DigitGroups, h1], ?_, by simp, h4, by simpa using h5⟩
        intro x hx
        rcases List.mem_cons.1 hx with rfl | hx
        · exact hc
        · exact h2 x hx
      · rintro ⟨first, rest, h1, h2, _, h4, h5⟩
        cases first with
        | nil =>
          cases rest with
          | nil => simp [DigitGroups] at h1
          | cons g gs =>
            simp only [DigitGroups, List.nil_append, List.flatMap_cons, List.cons_append, List.cons.injEq] at h1
            omega
        | cons x first =>
          simp only [DigitGroups, List.cons_append, List.cons.injEq] at h1
          obtain ⟨rfl, h1⟩ := h1
          exact ⟨first, rest, h1, fun y hy => h2 y (by simp [hy]), by simp, h4, by simpa using h5⟩
    · rw [if_neg hd]
      by_cases hu : c = 95 ∧ us = false
      · obtain ⟨rfl, rfl⟩ := hu
        rw [if_pos ⟨rfl, rfl⟩, intDigits_iff]
        constructor
        · rintro ⟨first, rest, h1, h2, h3, h4, h5⟩
          refine ⟨[], first :: rest, by simp [DigitGroups, h1], by simp, by simp, ?_, by simpa using h5⟩
          intro g hg
          rcases List.mem_cons.1 hg with rfl | hg
          · exact ⟨h3 rfl, h2⟩
          · exact h4 g hg
        · rintro ⟨first, rest, h1, h2, _, h4, h5⟩
          cases first with
          | cons x first =>
            simp only [DigitGroups, List.cons_append, List.cons.injEq] at h1
            have := h2 x (by simp)
            omega
          | nil =>
            cases rest with
            | nil => simp [DigitGroups] at h1
            | cons g gs =>
              simp only [DigitGroups, List.nil_append, List.flatMap_cons, List.cons_append, List.cons.injEq, true_and] at h1
              have hg := h4 g (by simp)
              exact ⟨g, gs, h1, hg.2, fun _ => hg.1, fun x hx => h4 x (by simp [hx]), by simpa using h5⟩
      · rw [if_neg hu]
        constructor
        · intro h; cases h
        · rintro ⟨first, rest, h1, h2, h3, h4, _⟩
          exfalso
          cases first with
          | cons x first =>
            simp only [DigitGroups, List.cons_append, List.cons.injEq] at h1
            exact hd (isD_iff.2 (h1.1 ▸ h2 x (by simp)))
          | nil =>
            cases rest with
            | nil => simp [DigitGroups] at h1
            | cons g gs =>
              simp only [DigitGroups, List.nil_append, List.flatMap_cons, List.cons_append, List.cons.injEq] at h1
              refine hu ⟨h1.1, ?_⟩
              cases us with
              | false => rfl
              | true => exact absurd rfl (h3 rfl)

theorem pyNat_iff {s : PyStr} {v : Nat} : pyNat? s = some v ↔
    ∃ first rest, s = DigitGroups first rest ∧ Digits first ∧ (∀ g ∈ rest, Digits g) ∧ v = decVal (first ++ rest.flatten) := by
  cases s with
  | nil =>
    constructor
    · intro h; simp [pyNat?] at h
    · rintro ⟨first, rest, h1, h2, _⟩
      cases first with
      | nil => exact absurd rfl h2.1
      | cons x f => simp [DigitGroups] at h1
  | cons c s =>
    simp only [pyNat?]
    constructor
    · intro h
      split at h
      · next hd =>
        obtain ⟨first, rest, h1, h2, _, h4, h5⟩ := intDigits_iff.1 h
        refine ⟨c :: first, rest, by simp [DigitGroups, h1], ⟨by simp, ?_⟩, h4, by simpa [decVal] using h5⟩
        intro x hx
        rcases List.mem_cons.1 hx with rfl | hx
        · exact isD_iff.1 hd
        · exact h2 x hx
      · cases h
    · rintro ⟨first, rest, h1, h2, h4, h5⟩
      cases first with
      | nil => exact absurd rfl h2.1
      | cons x first =>
        simp only [DigitGroups, List.cons_append, List.cons.injEq] at h1
        obtain ⟨rfl, h1⟩ := h1
        rw [if_pos (isD_iff.2 (h2.2 c (by simp)))]
        exact intDigits_iff.2 ⟨first, rest, h1, fun y hy => h2.2 y (by simp [hy]), by simp, h4, by simpa [decVal] using h5⟩

theorem dropWhile_append_all {p : Nat → Bool} : ∀ {a t : PyStr}, (∀ c ∈ a, p c = true) → (a ++ t).dropWhile p = t.dropWhile p
  | [], _, _ => rfl
  | x :: a, t, h => by
    simp only [List.cons_append, List.dropWhile_cons, h x (by simp), if_true]
    exact dropWhile_append_all fun c hc => h c (by simp [hc])

theorem takeWhile_holds {p : Nat → Bool} : ∀ {s : PyStr}, ∀ c ∈ s.takeWhile p, p c = true
  | [], c, h => by simp at h
  | x :: s, c, h => by
    simp only [List.takeWhile_cons] at h
    split at h
    · next hx =>
      rcases List.mem_cons.1 h with rfl | h
      · exact hx
      · exact takeWhile_holds c h
    · simp at h

/-- What is removed are blanks. -/
theorem pyTrim_parts (s : PyStr) : ∃ a b, s = a ++ pyTrim s ++ b ∧ (∀ c ∈ a, pyBlank c = true) ∧ (∀ c ∈ b, pyBlank c = true) := by
  refine ⟨s.takeWhile pyBlank, ((s.dropWhile pyBlank).reverse.takeWhile pyBlank).reverse, ?_, takeWhile_holds, ?_⟩
  · have h := congrArg List.reverse (List.takeWhile_append_dropWhile (p := pyBlank) (l := (s.dropWhile pyBlank).reverse))
    rw [List.reverse_append, List.reverse_reverse] at h
    unfold pyTrim
    rw [List.append_assoc, h, List.takeWhile_append_dropWhile]
  · intro c hc
    exact takeWhile_holds c (List.mem_reverse.1 hc)

theorem pyTrim_of_parts {a t b : PyStr} (ha : ∀ c ∈ a, pyBlank c = true) (hb : ∀ c ∈ b, pyBlank c = true) (hne : t ≠ [])
    (h1 : ∀ c, t.head? = some c → pyBlank c = false) (h2 : ∀ c, t.getLast? = some c → pyBlank c = false) : pyTrim (a ++ t ++ b) = t := by
  unfold pyTrim
  rw [List.append_assoc, dropWhile_append_all ha, dropWhile_head (s := t ++ b), List.reverse_append,
    dropWhile_append_all (fun c hc => hb c (List.mem_reverse.1 hc)), dropWhile_head (by simpa using h2), List.reverse_reverse]
  intro c hc
  cases t with
  | nil => exact absurd rfl hne
  | cons x t => exact h1 c (by simpa using hc)

theorem pyBlank_iff {c : Nat} : pyBlank c = true ↔ c = 32 ∨ (9 ≤ c ∧ c ≤ 13) := by simp [pyBlank]

theorem groups_last {first : PyStr} {rest : List PyStr} (h1 : Digits first) (h2 : ∀ g ∈ rest, Digits g) :
    ∃ p x, DigitGroups first rest = p ++ [x] ∧ 48 ≤ x ∧ x ≤ 57 := by
  have last : ∀ {g : PyStr}, Digits g → ∃ p x, g = p ++ [x] ∧ 48 ≤ x ∧ x ≤ 57 := fun {g} hg =>
    ⟨g.dropLast, g.getLast hg.1, (List.dropLast_concat_getLast hg.1).symm, hg.2 _ (List.getLast_mem hg.1)⟩
  rcases List.eq_nil_or_concat rest with rfl | ⟨gs, g, rfl⟩
  · obtain ⟨p, x, hp, hx⟩ := last h1
    exact ⟨p, x, by simp [DigitGroups, hp], hx⟩
  · obtain ⟨p, x, hp, hx⟩ := last (h2 g (by simp))
    exact ⟨first ++ (gs.flatMap fun g => 95 :: g) ++ 95 :: p, x, by simp [DigitGroups, hp], hx⟩

theorem signed_trim {a sign first b : PyStr} {rest : List PyStr} (ha : ∀ c ∈ a, c = 32 ∨ (9 ≤ c ∧ c ≤ 13)) (hb : ∀ c ∈ b, c = 32 ∨ (9 ≤ c ∧ c ≤ 13))
    (h1 : Digits first) (h2 : ∀ g ∈ rest, Digits g) (hs : sign = [] ∨ sign = [43] ∨ sign = [45]) :
    pyTrim (a ++ sign ++ DigitGroups first rest ++ b) = sign ++ DigitGroups first rest := by
  obtain ⟨p, x, hp, hx⟩ := groups_last h1 h2
  rw [List.append_assoc a]
  refine pyTrim_of_parts (fun c hc => pyBlank_iff.2 (ha c hc)) (fun c hc => pyBlank_iff.2 (hb c hc)) (by simp [hp]) ?_ ?_
  · intro c hc
    rcases hs with rfl | rfl | rfl
    · cases first with
      | nil => exact absurd rfl h1.1
      | cons y f =>
        simp [DigitGroups] at hc
        exact hc ▸ isD_not_blank (isD_iff.2 (h1.2 y (by simp)))
    · simp at hc; subst hc; rfl
    · simp at hc; subst hc; rfl
  · intro c hc
    rw [hp, ← List.append_assoc, List.getLast?_concat] at hc
    cases hc
    exact isD_not_blank (isD_iff.2 hx)

theorem pyInt?_iff {s : PyStr} {v : Int} : pyInt? s = some v ↔ Numeral s v := by
  constructor
  · intro h
    obtain ⟨a, b, hs, ha, hb⟩ := pyTrim_parts s
    have ha' := fun c hc => pyBlank_iff.1 (ha c hc)
    have hb' := fun c hc => pyBlank_iff.1 (hb c hc)
    unfold pyInt? at h
    split at h
    · next t ht =>
      rw [Option.map_eq_some_iff] at h
      obtain ⟨n, hn, rfl⟩ := h
      obtain ⟨first, rest, h1, h2, h3, rfl⟩ := pyNat_iff.1 hn
      exact ⟨a, [43], first, rest, b, by rw [hs, ht, h1]; simp, ha', hb', h2, h3, .inl ⟨.inr rfl, rfl⟩⟩
    · next t ht =>
      rw [Option.map_eq_some_iff] at h
      obtain ⟨n, hn, rfl⟩ := h
      obtain ⟨first, rest, h1, h2, h3, rfl⟩ := pyNat_iff.1 hn
      exact ⟨a, [45], first, rest, b, by rw [hs, ht, h1]; simp, ha', hb', h2, h3, .inr ⟨rfl, rfl⟩⟩
    · rw [Option.map_eq_some_iff] at h
      obtain ⟨n, hn, rfl⟩ := h
      obtain ⟨first, rest, h1, h2, h3, rfl⟩ := pyNat_iff.1 hn
      exact ⟨a, [], first, rest, b, by rw [← h1]; simpa using hs, ha', hb', h2, h3, .inl ⟨.inl rfl, rfl⟩⟩
  · rintro ⟨a, sign, first, rest, b, rfl, ha, hb, h1, h2, h3⟩
    have hn := pyNat_iff.2 ⟨first, rest, rfl, h1, h2, rfl⟩
    unfold pyInt?
    rw [signed_trim ha hb h1 h2 (by rcases h3 with ⟨h | h, _⟩ | ⟨h, _⟩ <;> simp [h])]
    rcases h3 with ⟨rfl | rfl, rfl⟩ | ⟨rfl, rfl⟩
    · simp only [List.nil_append]
      split
      · next t ht =>
        cases first with
        | nil => exact absurd rfl h1.1
        | cons y f =>
          simp [DigitGroups] at ht
          have := h1.2 y (by simp)
          omega
      · next t ht =>
        cases first with
        | nil => exact absurd rfl h1.1
        | cons y f =>
          simp [DigitGroups] at ht
          have := h1.2 y (by simp)
          omega
      · rw [hn]; rfl
    · simp [hn]
    · simp [hn]

/-- The characters of a whole number. -/
theorem numeral_chars {s : PyStr} {v : Int} (h : Numeral s v) : ∀ c ∈ s, c ≠ 44 := by
  obtain ⟨a, sign, first, rest, b, rfl, ha, hb, h1, h2, h3⟩ := h
  intro c hc
  simp only [DigitGroups, List.mem_append, List.mem_flatMap, List.mem_cons] at hc
  rcases hc with ((hc | hc) | hc | ⟨g, hg, rfl | hc⟩) | hc
  · have := ha c hc; omega
  · rcases h3 with ⟨rfl | rfl, _⟩ | ⟨rfl, _⟩ <;> simp at hc <;> omega
  · have := h1.2 c hc; omega
  · omega
  · have := (h2 g hg).2 c hc; omega
  · have := hb c hc; omega

theorem numeral_ne_nil {v : Int} : ¬ Numeral [] v := by
  rintro ⟨a, sign, first, rest, b, h, _, _, h1, _⟩
  cases first with
  | nil => exact h1.1 rfl
  | cons x f => simp [DigitGroups] at h

end Gsm
