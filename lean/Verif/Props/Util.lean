import Verif.Model.Util
import Verif.Lemmas.PyInt
import Verif.Lemmas.Timestamp
import Verif.Lemmas.TextTime
/-! # Properties C51, C52: text mode time stamps and line searches -/
namespace Gsm
open Spec

/-! ### C51 -/

/-- The text form `yy/MM/dd,hh:mm:ss±zz` of a date and time and of `q` quarters of an hour. -/
def textTime (d : DateTime) (q : Int) : PyStr :=
  pad2 (d.year % 100) ++ [47] ++ pad2 d.month ++ [47] ++ pad2 d.day ++ [44] ++ pad2 d.hour ++ [58] ++
    pad2 d.minute ++ [58] ++ pad2 d.second ++ [if 0 ≤ q then 43 else 45] ++ pad2 q.natAbs

theorem fieldLit_cons (c : Nat) (r : PyStr) : fieldLit c (c :: r) = [(0, r)] := by simp [fieldLit]

theorem zone_int : ∀ n < 100, pyInt? (43 :: pad2 n) = some (n : Int) ∧ pyInt? (45 :: pad2 n) = some (-(n : Int)) := by
  decide +kernel

/-- C51: every valid date and time of 1969..2068 is recovered, with the offset truncated to whole
hours. -/
theorem C51_text_time {d : DateTime} {q : Int} (hv : d.valid = true) (h1 : 1969 ≤ d.year) (h2 : d.year ≤ 2068)
    (hlo : -99 ≤ q) (hhi : q ≤ 99) :
    parseTextModeTimeStr (textTime d q) =
      .ok { d with micro := 0, off := some (.ofSeconds (Int.tdiv q 4 * 3600)) } := by
  have hv' := hv
  simp only [DateTime.valid, decide_eq_true_eq] at hv
  obtain ⟨_, _, m1, m2, d1, d2, hh, hm, hs⟩ := hv
  have d31 := le_trans d2 (daysInMonth_le _ _)
  let t6 : PyStr := pad2 d.second ++ []
  let t5 : PyStr := pad2 d.minute ++ 58 :: t6
  let t4 : PyStr := pad2 d.hour ++ 58 :: t5
  let t3 : PyStr := pad2 d.day ++ 44 :: t4
  let t2 : PyStr := pad2 d.month ++ 47 :: t3
  let t1 : PyStr := pad2 (d.year % 100) ++ 47 :: t2
  obtain ⟨_, e6⟩ := fieldSec_pad2 hs []
  obtain ⟨_, e5⟩ := fieldMin_pad2 hm (58 :: t6)
  obtain ⟨_, e4⟩ := fieldHour_pad2 hh (58 :: t5)
  obtain ⟨_, e3⟩ := fieldDay_pad2 d1 d31 (44 :: t4)
  obtain ⟨_, e2⟩ := fieldMon_pad2 m1 m2 (47 :: t3)
  have e1 := fieldY_pad2 (n := d.year % 100) (by omega) (47 :: t2)
  have hf := firstParse_cons e1 (firstParse_cons (fieldLit_cons 47 t2) (firstParse_cons e2
    (firstParse_cons (fieldLit_cons 47 t3) (firstParse_cons e3 (firstParse_cons (fieldLit_cons 44 t4)
    (firstParse_cons e4 (firstParse_cons (fieldLit_cons 58 t5) (firstParse_cons e5
    (firstParse_cons (fieldLit_cons 58 t6) (firstParse_cons e6 (fs := []) (w := ([], [])) rfl))))))))))
  have ht : textTime d q = t1 ++ ((if 0 ≤ q then 43 else 45) :: pad2 q.natAbs) := by
    simp [textTime, t1, t2, t3, t4, t5, t6]
  have hl : (((if 0 ≤ q then 43 else 45) :: pad2 q.natAbs) : PyStr).length = 3 := rfl
  have htake : (textTime d q).take ((textTime d q).length - 3) = t1 := by
    rw [ht, List.length_append, hl, Nat.add_sub_cancel, List.take_left]
  have hdrop : (textTime d q).drop ((textTime d q).length - 3) = (if 0 ≤ q then 43 else 45) :: pad2 q.natAbs := by
    rw [ht, List.length_append, hl, Nat.add_sub_cancel, List.drop_left]
  have hz : pyInt ((if 0 ≤ q then 43 else 45) :: pad2 q.natAbs) = .ok q := by
    obtain ⟨z1, z2⟩ := zone_int q.natAbs (by omega)
    unfold pyInt
    by_cases hq : 0 ≤ q
    · rw [if_pos hq, z1]
      simp only
      congr 1; omega
    · rw [if_neg hq, z2]
      simp only
      congr 1; omega
  unfold parseTextModeTimeStr
  simp only [htake, hdrop, hz, bind, Except.bind]
  unfold strptimeText
  rw [show firstParse _ t1 = _ from hf]
  simp only [mkStrptime]
  have hy : (if d.year % 100 ≤ 68 then d.year % 100 + 2000 else d.year % 100 + 1900) = d.year := by
    split <;> omega
  rw [hy]
  have : DateTime.valid ⟨d.year, d.month, d.day, d.hour, d.minute, d.second, 0, none⟩ = true := hv'
  rw [if_pos this]
  rfl

/-- C51: so the offset is exact iff the number of quarters is a multiple of 4. -/
theorem C51_exact_iff {d : DateTime} {q : Int} (hv : d.valid = true) (h1 : 1969 ≤ d.year) (h2 : d.year ≤ 2068)
    (hlo : -99 ≤ q) (hhi : q ≤ 99) :
    (∃ r o, parseTextModeTimeStr (textTime d q) = .ok r ∧ r.off = some o ∧ o.total = q * 900) ↔ 4 ∣ q := by
  rw [C51_text_time hv h1 h2 hlo hhi]
  constructor
  · rintro ⟨r, o, hr, ho, ht⟩
    cases hr
    simp only [Option.some.injEq] at ho
    subst ho
    simp only [Timedelta.ofSeconds, Timedelta.total] at ht
    have hc : Int.tdiv q 4 * 3600 = q * 900 := by omega
    exact ⟨Int.tdiv q 4, by omega⟩
  · rintro ⟨k, rfl⟩
    refine ⟨_, _, rfl, rfl, ?_⟩
    rw [Int.mul_tdiv_cancel_left k (by omega)]
    simp only [Timedelta.ofSeconds, Timedelta.total]
    omega

theorem mkStrptime_total (r : Option (List Nat × PyStr)) (pick : List Nat → Option (List Nat)) :
    mkStrptime r pick = .error .valueError ∨ ∃ d, mkStrptime r pick = .ok d ∧ d.valid = true := by
  have key : ∀ dt : DateTime,
      (if dt.valid = true then Except.ok dt else Except.error PyErr.valueError) = .error .valueError ∨
      ∃ d, (if dt.valid = true then Except.ok dt else Except.error PyErr.valueError) = .ok d ∧ d.valid = true := by
    intro dt
    split
    · next h => exact .inr ⟨_, rfl, h⟩
    · exact .inl rfl
  unfold mkStrptime
  split
  · split
    · exact key _
    · exact .inl rfl
  · exact .inl rfl

/-- C51: any other text either is refused with `ValueError` or gives a valid date. -/
theorem C51_total (s : PyStr) :
    parseTextModeTimeStr s = .error .valueError ∨ ∃ d, parseTextModeTimeStr s = .ok d ∧ d.valid = true := by
  have hs : ∀ t, strptimeText t = .error .valueError ∨ ∃ d, strptimeText t = .ok d ∧ d.valid = true :=
    fun t => mkStrptime_total _ _
  unfold parseTextModeTimeStr pyInt
  cases pyInt? (s.drop (s.length - 3)) with
  | none => exact .inl rfl
  | some n =>
    simp only [bind, Except.bind]
    rcases hs (s.take (s.length - 3)) with h | ⟨d, h, hv⟩
    · simp only [h, true_or]
    · simp only [h, pure, Except.pure]
      exact .inr ⟨{ d with off := some (.ofSeconds (Int.tdiv n 4 * 3600)) }, rfl, hv⟩

/-- C51: valid dates are those of the Gregorian calendar. -/
theorem C51_calendar (d : DateTime) : d.valid = true ↔ RealTime d := by
  have hl : isLeap d.year = true ↔ 4 ∣ d.year ∧ (100 ∣ d.year → 400 ∣ d.year) := by
    unfold isLeap
    simp only [Bool.or_eq_true, Bool.and_eq_true, beq_iff_eq, bne_iff_ne]
    omega
  have key : ∀ m, (1 ≤ m ∧ m ≤ 12 ∧ d.day ≤ daysInMonth d.year m) ↔ 1 ≤ m ∧ ∃ n, (months d.year)[m - 1]? = some n ∧ d.day ≤ n := by
    intro m
    by_cases h : 1 ≤ m ∧ m ≤ 12
    · obtain ⟨h1, h2⟩ := h
      have : (months d.year)[m - 1]? = some (daysInMonth d.year m) := by
        unfold months daysInMonth
        simp only [hl]
        have : m = 1 ∨ m = 2 ∨ m = 3 ∨ m = 4 ∨ m = 5 ∨ m = 6 ∨ m = 7 ∨ m = 8 ∨ m = 9 ∨ m = 10 ∨ m = 11 ∨ m = 12 := by omega
        rcases this with rfl | rfl | rfl | rfl | rfl | rfl | rfl | rfl | rfl | rfl | rfl | rfl <;> simp
      rw [this]
      simp [h1, h2]
    · constructor
      · rintro ⟨h1, h2, _⟩
        exact absurd ⟨h1, h2⟩ h
      · rintro ⟨h1, n, h2, _⟩
        obtain ⟨h3, _⟩ := List.getElem?_eq_some_iff.1 h2
        exact absurd ⟨h1, by simp [months] at h3; omega⟩ h
  have := key d.month
  unfold DateTime.valid
  rw [decide_eq_true_iff]
  constructor
  · rintro ⟨h1, h2, h3, h4, h5, h6, h7, h8, h9⟩
    obtain ⟨h10, h11⟩ := this.1 ⟨h3, h4, h6⟩
    exact ⟨⟨h1, h2⟩, h10, ⟨h5, h11⟩, by omega, by omega, by omega⟩
  · rintro ⟨⟨h1, h2⟩, h3, ⟨h4, h5⟩, h6, h7, h8⟩
    obtain ⟨h9, h10, h11⟩ := this.2 ⟨h3, h5⟩
    exact ⟨h1, h2, h9, h10, h4, h11, by omega, by omega, by omega⟩

-- 400 years are 146097 days, 20871 weeks
example : ((List.range 400).map fun y => (months (1600 + y)).sum).sum = 146097 := by decide +kernel
example : (months 1900).sum = 365 ∧ (months 2000).sum = 366 ∧ (months 2024).sum = 366 ∧ (months 2023).sum = 365 := by decide +kernel

/-- C51: exactly the texts of real dates with a number of three characters after them are accepted. -/
theorem C51_accepted (s : PyStr) (r : DateTime) :
    parseTextModeTimeStr s = .ok r ↔ ∃ text zone q d, s = text ++ zone ∧ zone.length = 3 ∧ pyInt zone = .ok q ∧ TimeText text d ∧
      r = { d with off := some (.ofSeconds (Int.tdiv q 4 * 3600)) } := by
  have hnil : ∀ d, ¬ TimeText [] d := by
    rintro d ⟨_, _, ⟨_, _, _, _, _, _, _, _, _, _, h⟩, _⟩
    simp at h
  unfold parseTextModeTimeStr
  constructor
  · intro h
    cases hq : pyInt (s.drop (s.length - 3)) with
    | error e => rw [hq] at h; cases h
    | ok q =>
      simp only [hq, bind, Except.bind] at h
      cases hd : strptimeText (s.take (s.length - 3)) with
      | error e => rw [hd] at h; cases h
      | ok d =>
        simp only [hd, pure, Except.pure] at h
        cases h
        have ht := strptimeText_iff.1 hd
        have hl : 3 ≤ s.length := by
          by_contra hl
          rw [show s.length - 3 = 0 by omega] at ht
          exact hnil d ht
        exact ⟨_, _, q, d, (List.take_append_drop _ s).symm, by rw [List.length_drop]; omega, hq, ht, rfl⟩
  · rintro ⟨text, zone, q, d, rfl, hl, hq, ht, rfl⟩
    have e : (text ++ zone).length - 3 = text.length := by rw [List.length_append]; omega
    simp only [e, List.take_left, List.drop_left, hq, strptimeText_iff.2 ht, bind, Except.bind, pure, Except.pure]

example : TimeText py!"7/04/12,23:25:42" ⟨2007, 4, 12, 23, 25, 42, 0, none⟩ → False :=
  fun h => absurd (strptimeText_iff.2 h) (by decide +kernel)
example : TimeText py!"07/4/ 2,3:5:2" ⟨2007, 4, 2, 3, 5, 2, 0, none⟩ := strptimeText_iff.1 (by decide +kernel)
example : parseTextModeTimeStr py!"07/04/12,23:5:42+09" = .ok ⟨2007, 4, 12, 23, 5, 42, 0, some (.ofSeconds 7200)⟩ := by decide +kernel
example : parseTextModeTimeStr py!"07/04/12,23:25:4:+09" = .error .valueError := by decide +kernel

example : parseTextModeTimeStr py!"07/04/12,23:25:42+09" =
    .ok ⟨2007, 4, 12, 23, 25, 42, 0, some (.ofSeconds 7200)⟩ := by decide +kernel
example : parseTextModeTimeStr py!"07/04/12,23:25:42-32" =
    .ok ⟨2007, 4, 12, 23, 25, 42, 0, some (.ofSeconds (-28800))⟩ := by decide +kernel
example : parseTextModeTimeStr py!"07/13/12,23:25:42-32" = .error .valueError := by decide +kernel

/-! ### C52 -/

/-- C52: `lineMatching` returns the match of the first line that matches. -/
theorem C52_first_match {M : Type} (m : PyStr → Option M) (lines : List PyStr) (x : M) :
    lineMatching m lines = some x ↔
      ∃ pre line post, lines = pre ++ line :: post ∧ m line = some x ∧ ∀ l ∈ pre, m l = none := by
  induction lines with
  | nil => simp [lineMatching]
  | cons a lines ih =>
    simp only [lineMatching]
    cases ha : m a with
    | some y =>
      simp only [Option.some.injEq]
      constructor
      · rintro rfl
        exact ⟨[], a, lines, rfl, ha, by simp⟩
      · rintro ⟨pre, line, post, e, h1, h2⟩
        cases pre with
        | nil =>
          simp only [List.nil_append, List.cons.injEq] at e
          rw [← e.1, ha] at h1
          simpa using h1
        | cons b pre =>
          simp only [List.cons_append, List.cons.injEq] at e
          have := h2 b (by simp)
          rw [← e.1, ha] at this
          cases this
    | none =>
      simp only [ih]
      constructor
      · rintro ⟨pre, line, post, rfl, h1, h2⟩
        refine ⟨a :: pre, line, post, rfl, h1, ?_⟩
        intro l hl
        rcases List.mem_cons.1 hl with rfl | hl
        · exact ha
        · exact h2 l hl
      · rintro ⟨pre, line, post, e, h1, h2⟩
        cases pre with
        | nil =>
          simp only [List.nil_append, List.cons.injEq] at e
          rw [← e.1, ha] at h1
          cases h1
        | cons b pre =>
          simp only [List.cons_append, List.cons.injEq] at e
          exact ⟨pre, line, post, e.2, h1, fun l hl => h2 l (by simp [hl])⟩

/-- C52: and None iff no line matches. -/
theorem C52_no_match {M : Type} (m : PyStr → Option M) (lines : List PyStr) :
    lineMatching m lines = none ↔ ∀ l ∈ lines, m l = none := by
  induction lines with
  | nil => simp [lineMatching]
  | cons a lines ih =>
    simp only [lineMatching]
    cases ha : m a with
    | some y => simp [ha]
    | none => simp [ha, ih]

theorem lineStartingWith_eq (p : PyStr) (lines : List PyStr) :
    lineStartingWith p lines = lineMatching (fun l => if p.isPrefixOf l then some l else none) lines := by
  induction lines with
  | nil => rfl
  | cons a lines ih =>
    simp only [lineStartingWith, lineMatching]
    split <;> simp_all

/-- C52: `lineStartingWith` returns the first line with the given start, or None. -/
theorem C52_starting_with (p : PyStr) (lines : List PyStr) :
    (∀ line, lineStartingWith p lines = some line ↔
      ∃ pre post, lines = pre ++ line :: post ∧ p <+: line ∧ ∀ l ∈ pre, ¬ p <+: l) ∧
    (lineStartingWith p lines = none ↔ ∀ l ∈ lines, ¬ p <+: l) := by
  have hn : ∀ l : PyStr, (if p.isPrefixOf l then some l else none) = none ↔ ¬ p <+: l := by
    intro l
    rw [← List.isPrefixOf_iff_prefix]
    split <;> simp_all
  constructor
  · intro line
    rw [lineStartingWith_eq, C52_first_match]
    constructor
    · rintro ⟨pre, l, post, rfl, h1, h2⟩
      split at h1
      · next h =>
        cases h1
        exact ⟨pre, post, rfl, List.isPrefixOf_iff_prefix.1 h, fun x hx => (hn x).1 (h2 x hx)⟩
      · cases h1
    · rintro ⟨pre, post, rfl, h1, h2⟩
      exact ⟨pre, line, post, rfl, by rw [if_pos (List.isPrefixOf_iff_prefix.2 h1)], fun x hx => (hn x).2 (h2 x hx)⟩
  · rw [lineStartingWith_eq, C52_no_match]
    exact ⟨fun h l hl => (hn l).1 (h l hl), fun h l hl => (hn l).2 (h l hl)⟩

/-- C52: all matches, in the order of the lines. -/
theorem C52_all_matches {M : Type} (m : PyStr → Option M) (lines : List PyStr) :
    allLinesMatchingPattern m lines = lines.filterMap m := by
  have : ∀ r, allLinesLoop m r lines = r ++ lines.filterMap m := by
    induction lines with
    | nil => simp [allLinesLoop]
    | cons a lines ih =>
      intro r
      simp only [allLinesLoop, List.filterMap_cons]
      cases m a with
      | some x => simp [ih]
      | none => simp [ih]
  simpa [allLinesMatchingPattern] using this []

example : lineStartingWith py!"+CMGS:" [py!"x", py!"+CMGS: 1", py!"+CMGS: 2"] = some py!"+CMGS: 1" := by decide
example : lineStartingWith py!"+CMGS:" [py!"x"] = none := by decide

end Gsm
