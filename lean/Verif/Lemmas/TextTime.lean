import Verif.Model.Util
import Verif.Spec.TextTime
/-! # Fields of dates and times -/
namespace Gsm
open Spec

/-- The field accepts these texts for these values. -/
def Accepts (F : Field) (S : Nat → PyStr → Prop) : Prop := ∀ s v r, (v, r) ∈ F s ↔ ∃ t, S v t ∧ s = t ++ r

theorem mem_two {pa pb : Nat → Bool} {s r : PyStr} {v : Nat} : (v, r) ∈ twoDigits pa pb s ↔ ∃ a b, s = a :: b :: r ∧ pa a = true ∧ pb b = true ∧ v = 10 * (a - 48) + (b - 48) := by
  unfold twoDigits
  split
  · next a b r' =>
    split
    · next h =>
      rw [Bool.and_eq_true] at h
      constructor
      · intro hm
        cases List.mem_singleton.1 hm
        exact ⟨a, b, rfl, h.1, h.2, rfl⟩
      · rintro ⟨a', b', e, h1, h2, rfl⟩
        cases e
        exact List.mem_singleton.2 rfl
    · next h =>
      refine ⟨fun hm => (nomatch hm), ?_⟩
      rintro ⟨a', b', e, h1, h2, rfl⟩
      cases e
      exact absurd (by rw [h1, h2]; rfl) h
  · next h =>
    refine ⟨fun hm => (nomatch hm), ?_⟩
    rintro ⟨a, b, rfl, _⟩
    exact absurd rfl (h a b r)

theorem mem_one {pa : Nat → Bool} {s r : PyStr} {v : Nat} : (v, r) ∈ oneDigit pa s ↔ ∃ a, s = a :: r ∧ pa a = true ∧ v = a - 48 := by
  unfold oneDigit
  split
  · next a r' =>
    split
    · next h =>
      constructor
      · intro hm
        cases List.mem_singleton.1 hm
        exact ⟨a, rfl, h, rfl⟩
      · rintro ⟨a', e, h1, rfl⟩
        cases e
        exact List.mem_singleton.2 rfl
    · next h =>
      refine ⟨fun hm => (nomatch hm), ?_⟩
      rintro ⟨a', e, h1, rfl⟩
      cases e
      exact absurd h1 h
  · next h =>
    refine ⟨fun hm => (nomatch hm), ?_⟩
    rintro ⟨a, rfl, _⟩
    exact absurd rfl (h a r)

theorem number_two {a b v : Nat} (ha : 48 ≤ a ∧ a ≤ 57) (hb : 48 ≤ b ∧ b ≤ 57) (hv : v = 10 * (a - 48) + (b - 48)) : Number v [a, b] := by
  have e1 : a = 48 + v / 10 := by omega
  have e2 : b = 48 + v % 10 := by omega
  rw [e1, e2]
  exact .two (by omega)

theorem number_one {a v : Nat} (ha : 48 ≤ a ∧ a ≤ 57) (hv : v = a - 48) : Number v [a] := by
  have e : a = 48 + v := by omega
  rw [e]
  exact .one (by omega)

theorem inR_iff {lo hi c : Nat} : inR lo hi c = true ↔ lo ≤ c ∧ c ≤ hi := by unfold inR; exact decide_eq_true_iff

theorem accepts_year : Accepts fieldY fun v t => v < 100 ∧ t = [48 + v / 10, 48 + v % 10] := by
  intro s v r
  unfold fieldY
  rw [mem_two]
  simp only [inR_iff]
  constructor
  · rintro ⟨a, b, rfl, ha, hb, hv⟩
    have e1 : a = 48 + v / 10 := by omega
    have e2 : b = 48 + v % 10 := by omega
    exact ⟨_, ⟨by omega, rfl⟩, by rw [← e1, ← e2]; rfl⟩
  · rintro ⟨t, ⟨hv, rfl⟩, rfl⟩
    exact ⟨_, _, rfl, by omega, by omega, by omega⟩

theorem accepts_month : Accepts fieldMon fun v t => (1 ≤ v ∧ v ≤ 12) ∧ Number v t := by
  intro s v r
  unfold fieldMon
  simp only [List.mem_append, mem_two, mem_one, inR_iff, beq_iff_eq]
  constructor
  · rintro ((⟨a, b, rfl, ha, hb, hv⟩ | ⟨a, b, rfl, ha, hb, hv⟩) | ⟨a, rfl, ha, hv⟩)
    · exact ⟨[a, b], ⟨by omega, number_two (by omega) (by omega) hv⟩, rfl⟩
    · exact ⟨[a, b], ⟨by omega, number_two (by omega) (by omega) hv⟩, rfl⟩
    · exact ⟨[a], ⟨by omega, number_one (by omega) hv⟩, rfl⟩
  · rintro ⟨t, ⟨hv, hn⟩, rfl⟩
    cases hn with
    | two h =>
      by_cases hv' : 10 ≤ v
      · exact .inl (.inl ⟨_, _, rfl, by omega, by omega, by omega⟩)
      · exact .inl (.inr ⟨_, _, rfl, by omega, by omega, by omega⟩)
    | one h => exact .inr ⟨_, rfl, by omega, by omega⟩

theorem accepts_day : Accepts fieldDay fun v t => (1 ≤ v ∧ v ≤ 31) ∧ DayNumber v t := by
  intro s v r
  unfold fieldDay
  simp only [List.mem_append, mem_two, mem_one, inR_iff, beq_iff_eq]
  constructor
  · rintro ((((⟨a, b, rfl, ha, hb, hv⟩ | ⟨a, b, rfl, ha, hb, hv⟩) | ⟨a, b, rfl, ha, hb, hv⟩) | ⟨a, rfl, ha, hv⟩) | ⟨a, b, rfl, ha, hb, hv⟩)
    · exact ⟨[a, b], ⟨by omega, .number (number_two (by omega) (by omega) hv)⟩, rfl⟩
    · exact ⟨[a, b], ⟨by omega, .number (number_two (by omega) (by omega) hv)⟩, rfl⟩
    · exact ⟨[a, b], ⟨by omega, .number (number_two (by omega) (by omega) hv)⟩, rfl⟩
    · exact ⟨[a], ⟨by omega, .number (number_one (by omega) hv)⟩, rfl⟩
    · subst ha
      have e : b = 48 + v := by omega
      exact ⟨[32, 48 + v], ⟨by omega, .spaced (by omega)⟩, by rw [e]; rfl⟩
  · rintro ⟨t, ⟨hv, hn⟩, rfl⟩
    cases hn with
    | number hn =>
      cases hn with
      | two h =>
        by_cases hv' : 30 ≤ v
        · exact .inl (.inl (.inl (.inl ⟨_, _, rfl, by omega, by omega, by omega⟩)))
        · by_cases hv'' : 10 ≤ v
          · exact .inl (.inl (.inl (.inr ⟨_, _, rfl, by omega, by omega, by omega⟩)))
          · exact .inl (.inl (.inr ⟨_, _, rfl, by omega, by omega, by omega⟩))
      | one h => exact .inl (.inr ⟨_, rfl, by omega, by omega⟩)
    | spaced h => exact .inr ⟨_, _, rfl, rfl, by omega, by omega⟩

theorem accepts_hour : Accepts fieldHour fun v t => v ≤ 23 ∧ Number v t := by
  intro s v r
  unfold fieldHour
  simp only [List.mem_append, mem_two, mem_one, inR_iff, beq_iff_eq]
  constructor
  · rintro ((⟨a, b, rfl, ha, hb, hv⟩ | ⟨a, b, rfl, ha, hb, hv⟩) | ⟨a, rfl, ha, hv⟩)
    · exact ⟨[a, b], ⟨by omega, number_two (by omega) (by omega) hv⟩, rfl⟩
    · exact ⟨[a, b], ⟨by omega, number_two (by omega) (by omega) hv⟩, rfl⟩
    · exact ⟨[a], ⟨by omega, number_one (by omega) hv⟩, rfl⟩
  · rintro ⟨t, ⟨hv, hn⟩, rfl⟩
    cases hn with
    | two h =>
      by_cases hv' : 20 ≤ v
      · exact .inl (.inl ⟨_, _, rfl, by omega, by omega, by omega⟩)
      · exact .inl (.inr ⟨_, _, rfl, by omega, by omega, by omega⟩)
    | one h => exact .inr ⟨_, rfl, by omega, by omega⟩

theorem accepts_minute : Accepts fieldMin fun v t => v ≤ 59 ∧ Number v t := by
  intro s v r
  unfold fieldMin
  simp only [List.mem_append, mem_two, mem_one, inR_iff]
  constructor
  · rintro (⟨a, b, rfl, ha, hb, hv⟩ | ⟨a, rfl, ha, hv⟩)
    · exact ⟨[a, b], ⟨by omega, number_two (by omega) (by omega) hv⟩, rfl⟩
    · exact ⟨[a], ⟨by omega, number_one (by omega) hv⟩, rfl⟩
  · rintro ⟨t, ⟨hv, hn⟩, rfl⟩
    cases hn with
    | two h => exact .inl ⟨_, _, rfl, by omega, by omega, by omega⟩
    | one h => exact .inr ⟨_, rfl, by omega, by omega⟩

theorem accepts_second : Accepts fieldSec fun v t => v ≤ 61 ∧ Number v t := by
  intro s v r
  unfold fieldSec
  simp only [List.mem_append, mem_two, mem_one, inR_iff, beq_iff_eq]
  constructor
  · rintro ((⟨a, b, rfl, ha, hb, hv⟩ | ⟨a, b, rfl, ha, hb, hv⟩) | ⟨a, rfl, ha, hv⟩)
    · exact ⟨[a, b], ⟨by omega, number_two (by omega) (by omega) hv⟩, rfl⟩
    · exact ⟨[a, b], ⟨by omega, number_two (by omega) (by omega) hv⟩, rfl⟩
    · exact ⟨[a], ⟨by omega, number_one (by omega) hv⟩, rfl⟩
  · rintro ⟨t, ⟨hv, hn⟩, rfl⟩
    cases hn with
    | two h =>
      by_cases hv' : 60 ≤ v
      · exact .inl (.inl ⟨_, _, rfl, by omega, by omega, by omega⟩)
      · exact .inl (.inr ⟨_, _, rfl, by omega, by omega, by omega⟩)
    | one h => exact .inr ⟨_, rfl, by omega, by omega⟩

/-! ### Fields one after the other -/

theorem sep_unique {c : Nat} : ∀ {t t' s s' : PyStr}, c ∉ t → c ∉ t' → t ++ c :: s = t' ++ c :: s' → t = t' ∧ s = s'
  | [], [], _, _, _, _, h => ⟨rfl, (List.cons.inj h).2⟩
  | [], b :: _, _, _, _, h', h => absurd (List.mem_cons.2 (.inl (List.cons.inj h).1)) h'
  | a :: _, [], _, _, h', _, h => absurd (List.mem_cons.2 (.inl (List.cons.inj h).1.symm)) h'
  | a :: t, b :: t', s, s', h1, h2, h => by
    obtain ⟨e1, e2⟩ := List.cons.inj h
    obtain ⟨e3, e4⟩ := sep_unique (fun h => h1 (List.mem_cons_of_mem _ h)) (fun h => h2 (List.mem_cons_of_mem _ h)) e2
    exact ⟨by rw [e1, e3], e4⟩

theorem parse_lit {c : Nat} {fs : List Field} {s : PyStr} {vs : List Nat} {r : PyStr} :
    firstParse (fieldLit c :: fs) s = some (vs, r) ↔ ∃ s' ws, s = c :: s' ∧ firstParse fs s' = some (ws, r) ∧ vs = 0 :: ws := by
  simp only [firstParse]
  cases s with
  | nil => exact ⟨fun h => (nomatch h), fun ⟨_, _, h, _⟩ => (nomatch h)⟩
  | cons a s' =>
    simp only [fieldLit]
    split
    · next h =>
      subst h
      simp only [List.findSome?_cons, List.findSome?_nil]
      cases hp : firstParse fs s' with
      | none =>
        refine ⟨fun h => (nomatch h), ?_⟩
        rintro ⟨_, ws, e, h, _⟩
        cases e
        rw [hp] at h
        cases h
      | some w =>
        constructor
        · intro h
          cases h
          exact ⟨s', w.1, rfl, hp, rfl⟩
        · rintro ⟨_, ws, e, h, rfl⟩
          cases e
          rw [hp] at h
          cases h
          rfl
    · next h =>
      refine ⟨fun h => (nomatch h), ?_⟩
      rintro ⟨_, ws, e, _, _⟩
      cases e
      exact absurd rfl h

/-- A field that is followed by a character that does not belong to it. -/
theorem parse_field {F : Field} {S : Nat → PyStr → Prop} (hF : Accepts F S) (hS : ∀ v v' t, S v t → S v' t → v = v') {c : Nat} (hc : ∀ v t, S v t → c ∉ t) {fs : List Field} {s r : PyStr}
    {vs : List Nat} : firstParse (F :: fieldLit c :: fs) s = some (vs, r) ↔
      ∃ v t s' ws, S v t ∧ s = t ++ c :: s' ∧ firstParse fs s' = some (ws, r) ∧ vs = v :: 0 :: ws := by
  have key : ∀ vr ∈ F s, ∀ x, ((firstParse (fieldLit c :: fs) vr.2).map fun w => (vr.1 :: w.1, w.2)) = some x →
      ∃ t s' ws, S vr.1 t ∧ s = t ++ c :: s' ∧ firstParse fs s' = some (ws, x.2) ∧ x.1 = vr.1 :: 0 :: ws := by
    intro vr hm x hx
    obtain ⟨w, hw, rfl⟩ := Option.map_eq_some_iff.1 hx
    obtain ⟨s', ws, e, h1, h2⟩ := parse_lit.1 hw
    obtain ⟨t, ht, e'⟩ := (hF s vr.1 vr.2).1 hm
    exact ⟨t, s', ws, ht, by rw [e', e], h1, by rw [h2]⟩
  have hu : firstParse (F :: fieldLit c :: fs) s = (F s).findSome? fun vr => (firstParse (fieldLit c :: fs) vr.2).map fun w => (vr.1 :: w.1, w.2) := rfl
  rw [hu]
  constructor
  · intro h
    obtain ⟨vr, hm, hx⟩ := List.exists_of_findSome?_eq_some h
    obtain ⟨t, s', ws, h1, h2, h3, h4⟩ := key vr hm _ hx
    exact ⟨_, t, s', ws, h1, h2, h3, h4⟩
  · rintro ⟨v, t, s', ws, h1, rfl, h3, rfl⟩
    have hm : (v, c :: s') ∈ F (t ++ c :: s') := (hF _ _ _).2 ⟨t, h1, rfl⟩
    have hx : ((firstParse (fieldLit c :: fs) (c :: s')).map fun w => (v :: w.1, w.2)) = some (v :: 0 :: ws, r) := by
      rw [parse_lit.2 ⟨s', ws, rfl, h3, rfl⟩]
      rfl
    cases hs : (F (t ++ c :: s')).findSome? fun vr => (firstParse (fieldLit c :: fs) vr.2).map fun w => (vr.1 :: w.1, w.2) with
    | none =>
      have := List.findSome?_eq_none_iff.1 hs _ hm
      rw [hx] at this
      cases this
    | some x =>
      obtain ⟨vr, hm', hx'⟩ := List.exists_of_findSome?_eq_some hs
      obtain ⟨t', s'', ws', k1, k2, k3, k4⟩ := key vr hm' _ hx'
      obtain ⟨rfl, rfl⟩ := sep_unique (hc _ _ h1) (hc _ _ k1) k2
      obtain rfl := hS _ _ _ h1 k1
      rw [h3] at k3
      cases k3
      exact congrArg some (Prod.ext k4 rfl)

/-- The last field: nothing is left over. -/
theorem parse_second {s : PyStr} {vs : List Nat} : firstParse [fieldSec] s = some (vs, []) ↔ ∃ v, v ≤ 61 ∧ Number v s ∧ vs = [v] := by
  have hu : firstParse [fieldSec] s = (fieldSec s).findSome? fun vr => some ([vr.1], vr.2) := rfl
  rw [hu]
  constructor
  · intro h
    obtain ⟨⟨v, r⟩, hm, hx⟩ := List.exists_of_findSome?_eq_some h
    simp only [Option.some.injEq, Prod.mk.injEq] at hx
    obtain ⟨rfl, rfl⟩ := hx
    obtain ⟨t, ht, e⟩ := (accepts_second s v []).1 hm
    rw [List.append_nil] at e
    exact ⟨v, ht.1, e ▸ ht.2, rfl⟩
  · rintro ⟨v, hv, hn, rfl⟩
    cases hn with
    | two h =>
      by_cases hv' : 60 ≤ v
      · have e1 : v / 10 = 6 := by omega
        have e2 : 48 + v % 10 ≤ 49 := by omega
        have e3 : 10 * (48 + v / 10 - 48) + (48 + v % 10 - 48) = v := by omega
        simp [fieldSec, twoDigits, inR, e1, e2]
        omega
      · have e1 : ¬ 48 + v / 10 = 54 := by omega
        have e2 : 48 + v / 10 ≤ 53 := by omega
        have e3 : 48 + v % 10 ≤ 57 := by omega
        simp [fieldSec, twoDigits, inR, e1, e2, e3]
        omega
    | one h =>
      have e1 : 48 + v ≤ 57 := by omega
      simp [fieldSec, twoDigits, oneDigit, inR, e1]

theorem number_digits {v : Nat} {t : PyStr} (h : Number v t) : ∀ c ∈ t, 48 ≤ c ∧ c ≤ 57 := by
  cases h with
  | two h => intro c hc; simp only [List.mem_cons, List.not_mem_nil, or_false] at hc; omega
  | one h => intro c hc; simp only [List.mem_cons, List.not_mem_nil, or_false] at hc; omega

theorem number_unique {v v' : Nat} {t : PyStr} (h : Number v t) (h' : Number v' t) : v = v' := by
  cases h with
  | two h => generalize hs : [48 + v / 10, 48 + v % 10] = s at h'
             cases h' with
             | two h' => simp only [List.cons.injEq, and_true] at hs; omega
             | one h' => simp at hs
  | one h => generalize hs : [48 + v] = s at h'
             cases h' with
             | two h' => simp at hs
             | one h' => simp only [List.cons.injEq, and_true] at hs; omega

theorem day_unique {v v' : Nat} {t : PyStr} (h : DayNumber v t) (h' : DayNumber v' t) : v = v' := by
  cases h with
  | number h =>
    cases h' with
    | number h' => exact number_unique h h'
    | spaced h' => have := number_digits h 32 (by simp); omega
  | spaced h =>
    generalize hs : [32, 48 + v] = s at h'
    cases h' with
    | number h' => have := number_digits h' 32 (by rw [← hs]; simp); omega
    | spaced h' => simp only [List.cons.injEq, and_true, true_and] at hs; omega

theorem number_sep {v : Nat} {t : PyStr} (h : Number v t) {c : Nat} (hc : c < 48 ∨ 57 < c) : c ∉ t := fun hm => by have := number_digits h c hm; omega

theorem day_sep {v : Nat} {t : PyStr} (h : DayNumber v t) : 44 ∉ t := by
  cases h with
  | number h => exact number_sep h (by omega)
  | spaced h => simp only [List.mem_cons, List.not_mem_nil, or_false]; omega

theorem parse_text {s : PyStr} {vs : List Nat} :
    firstParse [fieldY, fieldLit 47, fieldMon, fieldLit 47, fieldDay, fieldLit 44, fieldHour, fieldLit 58, fieldMin, fieldLit 58, fieldSec] s = some (vs, []) ↔
      ∃ y mo da h mi sec tm td th ti ts, y < 100 ∧ ((1 ≤ mo ∧ mo ≤ 12) ∧ Number mo tm) ∧ ((1 ≤ da ∧ da ≤ 31) ∧ DayNumber da td) ∧ (h ≤ 23 ∧ Number h th) ∧ (mi ≤ 59 ∧ Number mi ti) ∧
        sec ≤ 61 ∧ Number sec ts ∧ s = [48 + y / 10, 48 + y % 10] ++ 47 :: (tm ++ 47 :: (td ++ 44 :: (th ++ 58 :: (ti ++ 58 :: ts)))) ∧ vs = [y, 0, mo, 0, da, 0, h, 0, mi, 0, sec] := by
  rw [parse_field accepts_year (fun v v' t h h' => by have := h.2.symm.trans h'.2; simp only [List.cons.injEq, and_true] at this; omega)
    (fun v t h => by rw [h.2]; simp only [List.mem_cons, List.not_mem_nil, or_false]; omega)]
  constructor
  · rintro ⟨y, ty, s1, w1, ⟨hy, rfl⟩, rfl, h1, rfl⟩
    obtain ⟨mo, tm, s2, w2, hm, rfl, h2, rfl⟩ := (parse_field accepts_month (fun _ _ _ h h' => number_unique h.2 h'.2) (fun _ _ h => number_sep h.2 (by omega))).1 h1
    obtain ⟨da, td, s3, w3, hd, rfl, h3, rfl⟩ := (parse_field accepts_day (fun _ _ _ h h' => day_unique h.2 h'.2) (fun _ _ h => day_sep h.2)).1 h2
    obtain ⟨ho, th, s4, w4, hh, rfl, h4, rfl⟩ := (parse_field accepts_hour (fun _ _ _ h h' => number_unique h.2 h'.2) (fun _ _ h => number_sep h.2 (by omega))).1 h3
    obtain ⟨mi, ti, s5, w5, hi, rfl, h5, rfl⟩ := (parse_field accepts_minute (fun _ _ _ h h' => number_unique h.2 h'.2) (fun _ _ h => number_sep h.2 (by omega))).1 h4
    obtain ⟨sec, hs, hn, rfl⟩ := parse_second.1 h5
    exact ⟨y, mo, da, ho, mi, sec, tm, td, th, ti, s5, hy, hm, hd, hh, hi, hs, hn, rfl, rfl⟩
  · rintro ⟨y, mo, da, h, mi, sec, tm, td, th, ti, ts, hy, hm, hd, hh, hi, hs, hn, rfl, rfl⟩
    refine ⟨y, _, _, _, ⟨hy, rfl⟩, rfl, ?_, rfl⟩
    refine (parse_field accepts_month (fun _ _ _ h h' => number_unique h.2 h'.2) (fun _ _ h => number_sep h.2 (by omega))).2 ⟨mo, _, _, _, hm, rfl, ?_, rfl⟩
    refine (parse_field accepts_day (fun _ _ _ h h' => day_unique h.2 h'.2) (fun _ _ h => day_sep h.2)).2 ⟨da, _, _, _, hd, rfl, ?_, rfl⟩
    refine (parse_field accepts_hour (fun _ _ _ h h' => number_unique h.2 h'.2) (fun _ _ h => number_sep h.2 (by omega))).2 ⟨h, _, _, _, hh, rfl, ?_, rfl⟩
    refine (parse_field accepts_minute (fun _ _ _ h h' => number_unique h.2 h'.2) (fun _ _ h => number_sep h.2 (by omega))).2 ⟨mi, _, _, _, hi, rfl, ?_, rfl⟩
    exact parse_second.2 ⟨sec, hs, hn, rfl⟩

/-- The texts that `strptime` accepts. -/
theorem strptimeText_iff {s : PyStr} {d : DateTime} : strptimeText s = .ok d ↔ TimeText s d := by
  unfold strptimeText
  constructor
  · intro h
    unfold mkStrptime at h
    split at h
    · next vs hp =>
      obtain ⟨y, mo, da, ho, mi, sec, tm, td, th, ti, ts, hy, hm, hd, hh, hi, hs, hn, rfl, rfl⟩ := parse_text.1 hp
      dsimp only at h
      generalize hyr : (if y ≤ 68 then y + 2000 else y + 1900) = yr at h
      have hb : 1969 ≤ yr ∧ yr ≤ 2068 ∧ yr % 100 / 10 = y / 10 ∧ yr % 10 = y % 10 := by
        rw [← hyr]
        split <;> omega
      split at h
      · next hv =>
        cases h
        refine ⟨⟨hb.1, hb.2.1⟩, hv, ⟨tm, td, th, ti, ts, hm.2, hd.2, hh.2, hi.2, hn, ?_⟩, rfl, rfl⟩
        dsimp only
        rw [hb.2.2.1, hb.2.2.2]
        simp
      · cases h
    · cases h
  · rintro ⟨hy, hv, ⟨tm, td, th, ti, ts, hm, hd, hh, hi, hn, rfl⟩, h1, h2⟩
    have hv' := hv
    simp only [DateTime.valid, decide_eq_true_eq] at hv'
    obtain ⟨_, _, m1, m2, d1, d2, v1, v2, v3⟩ := hv'
    have d31 : d.day ≤ 31 := Nat.le_trans d2 (by unfold daysInMonth; split <;> split <;> omega)
    have hp := parse_text.2 ⟨d.year % 100, d.month, d.day, d.hour, d.minute, d.second, tm, td, th, ti, ts, by omega, ⟨⟨m1, m2⟩, hm⟩, ⟨⟨d1, d31⟩, hd⟩, ⟨v1, hh⟩, ⟨v2, hi⟩, by omega, hn, rfl, rfl⟩
    have e : [48 + d.year % 100 / 10, 48 + d.year % 10] ++ py!"/" ++ tm ++ py!"/" ++ td ++ py!"," ++ th ++ py!":" ++ ti ++ py!":" ++ ts =
        [48 + d.year % 100 / 10, 48 + d.year % 100 % 10] ++ 47 :: (tm ++ 47 :: (td ++ 44 :: (th ++ 58 :: (ti ++ 58 :: ts)))) := by
      have : d.year % 100 % 10 = d.year % 10 := by omega
      rw [this]
      simp
    rw [e, hp]
    have hy' : (if d.year % 100 ≤ 68 then d.year % 100 + 2000 else d.year % 100 + 1900) = d.year := by split <;> omega
    simp only [mkStrptime, hy']
    obtain ⟨a, b, c, e, f, g, i, j⟩ := d
    dsimp only at h1 h2 hv ⊢
    subst h1 h2
    rw [if_pos hv]

end Gsm
