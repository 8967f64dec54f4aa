import Verif.Lemmas.Instant
import Verif.Props.Timestamp
import Verif.Props.Util
/-! # Property C123: the times of messages can be compared -/
namespace Gsm
open Spec

/-- Python counts the days as they follow each other in the calendar. -/
theorem C123_days {d : DateTime} (hv : d.valid = true) : d.toordinal = dayNumber d := toordinal_eq hv

/-- C123. Two valid times with zones of less than a day are compared and subtracted as the instants they stand for, whatever the zones. -/
theorem C123_compare {a b : DateTime} {p q : Int} (ha : a.valid = true) (hb : b.valid = true) (hma : a.micro < 1000000) (hmb : b.micro < 1000000)
    (hp : -96 < p ∧ p < 96) (hq : -96 < q ∧ q < 96) (hoa : a.off = some (.ofSeconds (p * 900))) (hob : b.off = some (.ofSeconds (q * 900))) :
    dtSub a b = .ok ((instantOf a p - instantOf b q) * 1000000 + ((a.micro : Int) - b.micro)) ∧
    dtCmp a b = .ok ((instantOf a p - instantOf b q) * 1000000 + ((a.micro : Int) - b.micro)).sign := by
  have hua : a.utcoffset = .ok (some (.ofSeconds (p * 900))) := by
    unfold DateTime.utcoffset
    rw [hoa]
    simp only [zoneSeconds_total]
    rw [if_pos ⟨by omega, by omega⟩]
  have hub : b.utcoffset = .ok (some (.ofSeconds (q * 900))) := by
    unfold DateTime.utcoffset
    rw [hob]
    simp only [zoneSeconds_total]
    rw [if_pos ⟨by omega, by omega⟩]
  have hd : baseDiff a b + (q * 900 - p * 900) * 1000000 = (instantOf a p - instantOf b q) * 1000000 + ((a.micro : Int) - b.micro) := by
    unfold baseDiff instantOf localSeconds
    rw [toordinal_eq ha, toordinal_eq hb]
    push_cast
    omega
  have ht := tuple_base ha hb hma hmb
  have hs : dtSub a b = .ok ((instantOf a p - instantOf b q) * 1000000 + ((a.micro : Int) - b.micro)) := by
    unfold dtSub
    simp only [hua, hub, bind, Except.bind]
    by_cases h : p = q
    · subst h
      rw [if_pos rfl, ← hd]
      simp [pure, Except.pure]
    · rw [if_neg (by intro h'; exact h (by have := zoneSeconds_inj (Option.some.inj h'); omega))]
      simp only [zoneSeconds_total, hd, pure, Except.pure]
  refine ⟨hs, ?_⟩
  unfold dtCmp
  simp only [hs, hua, hub, bind, Except.bind]
  by_cases h : p = q
  · subst h
    rw [if_pos rfl, ht, ← hd]
    simp [pure, Except.pure]
  · rw [if_neg (by intro h'; exact h (by have := zoneSeconds_inj (Option.some.inj h'); omega))]
    simp only [pure, Except.pure]
    generalize (instantOf a p - instantOf b q) * 1000000 + ((a.micro : Int) - b.micro) = z
    split
    · next hz => rw [Int.sign_eq_neg_one_of_neg hz]
    · split
      · next hz => rw [hz]; rfl
      · rw [Int.sign_eq_one_of_pos (by omega)]

/-- Every time that is read of a PDU can be compared: it is valid, and its zone is less than 20 hours. -/
theorem C123_pdu_comparable {os rest : List Nat} (hos : ∀ x ∈ os, x < 256) {d : DateTime} (h : decodeTimestamp os = .ok (d, rest)) :
    d.valid = true ∧ d.micro = 0 ∧ ∃ q : Int, -80 < q ∧ q < 80 ∧ d.off = some (.ofSeconds (q * 900)) := by
  unfold decodeTimestamp at h
  have hx := semi_hex (some 7) os 0 hos
  generalize decodeSemiOctets (some 7) 0 os = r at h hx
  obtain ⟨dateStr, it⟩ := r
  simp only [bind, Except.bind] at h hx
  cases h1 : strptimeCompact (dateStr.take (dateStr.length - 2)) with
  | error e => rw [h1] at h; cases h
  | ok dt =>
    rw [h1] at h
    simp only at h
    cases h2 : pduTzOffset (dateStr.drop (dateStr.length - 2)) with
    | error e => rw [h2] at h; cases h
    | ok off =>
      rw [h2] at h
      simp only [pure, Except.pure, Except.ok.injEq, Prod.mk.injEq] at h
      obtain ⟨rfl, rfl⟩ := h
      have hv : dt.valid = true ∧ dt.micro = 0 := by
        exact mkStrptime_real h1
      obtain ⟨q, hq1, hq2, rfl⟩ := tz_bound (by simp; omega) (fun c hc => hx c (List.mem_of_mem_drop hc)) h2
      exact ⟨hv.1, hv.2, q, hq1, hq2, rfl⟩

/-- So any two times read of PDUs are compared without an exception. -/
theorem C123_pdu_never_raises {os os' rest rest' : List Nat} (hos : ∀ x ∈ os, x < 256) (hos' : ∀ x ∈ os', x < 256) {a b : DateTime}
    (ha : decodeTimestamp os = .ok (a, rest)) (hb : decodeTimestamp os' = .ok (b, rest')) :
    ∃ p q : Int, dtSub a b = .ok ((instantOf a p - instantOf b q) * 1000000) ∧ dtCmp a b = .ok (instantOf a p - instantOf b q).sign ∧
      a.off = some (.ofSeconds (p * 900)) ∧ b.off = some (.ofSeconds (q * 900)) := by
  obtain ⟨va, ma, p, p1, p2, ho⟩ := C123_pdu_comparable hos ha
  obtain ⟨vb, mb, q, q1, q2, ho'⟩ := C123_pdu_comparable hos' hb
  obtain ⟨h1, h2⟩ := C123_compare va vb (by omega) (by omega) ⟨by omega, by omega⟩ ⟨by omega, by omega⟩ ho ho'
  rw [ma, mb] at h1 h2
  refine ⟨p, q, by simpa using h1, ?_, ho, ho'⟩
  rw [h2]
  generalize instantOf a p - instantOf b q = z
  rw [show z * 1000000 + (((0 : Nat) : Int) - ((0 : Nat) : Int)) = z * 1000000 from by omega]
  rcases Int.lt_trichotomy z 0 with h | h | h
  · rw [Int.sign_eq_neg_one_of_neg h, Int.sign_eq_neg_one_of_neg (by omega)]
  · subst h; rfl
  · rw [Int.sign_eq_one_of_pos h, Int.sign_eq_one_of_pos (by omega)]

/-- Times that message centres write in PDUs are ordered as the instants at which they were written. -/
theorem C123_pdu [PyUnicode] {d e : DateTime} {p q : Int} (hd : d.valid = true) (he : e.valid = true) (hdy : 1969 ≤ d.year ∧ d.year ≤ 2068)
    (hey : 1969 ≤ e.year ∧ e.year ≤ 2068) (hp : -80 < p ∧ p < 80) (hq : -80 < q ∧ q < 80) (hod : d.off = some (.ofSeconds (p * 900)))
    (hoe : e.off = some (.ofSeconds (q * 900))) :
    ∃ os os' a b, encodeTimestamp d = .ok os ∧ encodeTimestamp e = .ok os' ∧ decodeTimestamp os = .ok (a, []) ∧ decodeTimestamp os' = .ok (b, []) ∧
      dtSub a b = .ok ((instantOf d p - instantOf e q) * 1000000) := by
  obtain ⟨os, h1, _, h2⟩ := C13_timestamp_exact hd hdy.1 hdy.2 hp.1 hp.2 hod []
  obtain ⟨os', h3, _, h4⟩ := C13_timestamp_exact he hey.1 hey.2 hq.1 hq.2 hoe []
  rw [List.append_nil] at h2 h4
  refine ⟨os, os', _, _, h1, h3, h2, h4, ?_⟩
  have := (C123_compare (a := { d with micro := 0 }) (b := { e with micro := 0 }) hd he (by simp) (by simp)
    ⟨by omega, by omega⟩ ⟨by omega, by omega⟩ hod hoe).1
  rw [this]
  simp [instantOf, localSeconds, dayNumber]

/-- In text mode the instant is wrong by the part of the zone that is not whole hours, always less than an hour. -/
theorem C123_text {d e : DateTime} {p q : Int} (hd : d.valid = true) (he : e.valid = true) (hdy : 1969 ≤ d.year ∧ d.year ≤ 2068)
    (hey : 1969 ≤ e.year ∧ e.year ≤ 2068) (hp : -96 < p ∧ p < 96) (hq : -96 < q ∧ q < 96) :
    ∃ a b, parseTextModeTimeStr (textTime d p) = .ok a ∧ parseTextModeTimeStr (textTime e q) = .ok b ∧
      dtSub a b = .ok ((instantOf d p - instantOf e q + (Int.tmod p 4 - Int.tmod q 4) * 900) * 1000000) := by
  refine ⟨_, _, C51_text_time hd hdy.1 hdy.2 (by omega) (by omega), C51_text_time he hey.1 hey.2 (by omega) (by omega), ?_⟩
  have hpt := quarters p
  have hqt := quarters q
  have bp : -96 < Int.tdiv p 4 * 4 ∧ Int.tdiv p 4 * 4 < 96 := by omega
  have bq : -96 < Int.tdiv q 4 * 4 ∧ Int.tdiv q 4 * 4 < 96 := by omega
  have := (C123_compare (a := { d with micro := 0, off := some (.ofSeconds (Int.tdiv p 4 * 3600)) }) (b := { e with micro := 0, off := some (.ofSeconds (Int.tdiv q 4 * 3600)) })
    (p := Int.tdiv p 4 * 4) (q := Int.tdiv q 4 * 4) hd he (by simp) (by simp) bp bq
    (by show some (Timedelta.ofSeconds _) = _; congr 2; omega) (by show some (Timedelta.ofSeconds _) = _; congr 2; omega)).1
  rw [this]
  simp only [instantOf, localSeconds, dayNumber]
  congr 1
  omega

/-- So in text mode the order is right if the zones differ by whole hours, or if the messages are more than an hour and a half apart. -/
theorem C123_text_order {d e : DateTime} {p q : Int} (hd : d.valid = true) (he : e.valid = true) (hdy : 1969 ≤ d.year ∧ d.year ≤ 2068)
    (hey : 1969 ≤ e.year ∧ e.year ≤ 2068) (hp : -96 < p ∧ p < 96) (hq : -96 < q ∧ q < 96)
    (h : Int.tmod p 4 = Int.tmod q 4 ∨ instantOf d p - instantOf e q > 5400 ∨ instantOf e q - instantOf d p > 5400) :
    ∃ a b z, parseTextModeTimeStr (textTime d p) = .ok a ∧ parseTextModeTimeStr (textTime e q) = .ok b ∧ dtSub a b = .ok z ∧ z.sign = (instantOf d p - instantOf e q).sign := by
  obtain ⟨a, b, h1, h2, h3⟩ := C123_text hd he hdy hey hp hq
  refine ⟨a, b, _, h1, h2, h3, ?_⟩
  have hpt := quarters p
  have hqt := quarters q
  rcases Int.lt_trichotomy (instantOf d p) (instantOf e q) with hz | hz | hz
  · rw [Int.sign_eq_neg_one_of_neg (a := instantOf d p - instantOf e q) (by omega), Int.sign_eq_neg_one_of_neg (by omega)]
  · rw [show instantOf d p - instantOf e q = 0 from by omega, show Int.tmod p 4 = Int.tmod q 4 from by omega]
    simp
  · rw [Int.sign_eq_one_of_pos (a := instantOf d p - instantOf e q) (by omega), Int.sign_eq_one_of_pos (by omega)]

/-- A message from Nepal and one from Pakistan, a quarter of an hour later, in text mode: the later one seems to be the earlier one. -/
theorem C123_text_order_violated : ¬ ∀ (d e : DateTime) (p q : Int), d.valid = true → e.valid = true → instantOf d p < instantOf e q →
    ∀ a b z, parseTextModeTimeStr (textTime d p) = .ok a → parseTextModeTimeStr (textTime e q) = .ok b → dtCmp a b = .ok z → z ≤ 0 := by
  intro h
  have := h ⟨2014, 5, 1, 12, 45, 0, 0, none⟩ ⟨2014, 5, 1, 12, 15, 0, 0, none⟩ 23 20 (by decide +kernel) (by decide +kernel) (by decide +kernel)
    ⟨2014, 5, 1, 12, 45, 0, 0, some (.ofSeconds 18000)⟩ ⟨2014, 5, 1, 12, 15, 0, 0, some (.ofSeconds 18000)⟩ 1 (by decide +kernel) (by decide +kernel) (by decide +kernel)
  omega

/-- A zone of a day or more, which a modem can show in text mode, gives a time that cannot be compared with any other. -/
theorem C123_text_raises {d b : DateTime} {q : Int} (hd : d.valid = true) (hdy : 1969 ≤ d.year ∧ d.year ≤ 2068) (hq : -99 ≤ q ∧ q ≤ 99) (hq' : 96 ≤ q ∨ q ≤ -96) :
    ∃ a, parseTextModeTimeStr (textTime d q) = .ok a ∧ dtSub a b = .error .valueError ∧ dtCmp a b = .error .valueError := by
  refine ⟨_, C51_text_time hd hdy.1 hdy.2 hq.1 hq.2, ?_⟩
  have hu : ({ d with micro := 0, off := some (.ofSeconds (Int.tdiv q 4 * 3600)) } : DateTime).utcoffset = .error .valueError := by
    unfold DateTime.utcoffset
    simp only [zoneSeconds_total]
    have := quarters q
    rw [if_neg (by omega)]
  constructor
  · unfold dtSub; rw [hu]; rfl
  · unfold dtCmp; rw [hu]; rfl

/-! ### Cases -/

example : dayNumber ⟨1, 1, 1, 0, 0, 0, 0, none⟩ = 1 := by decide +kernel
example : (⟨2014, 5, 1, 0, 0, 0, 0, none⟩ : DateTime).toordinal = 735354 := by decide +kernel
/-- The last second of a leap day and the first of March. -/
example : dtSub ⟨2016, 3, 1, 0, 0, 0, 0, some (.ofSeconds 0)⟩ ⟨2016, 2, 29, 23, 59, 59, 0, some (.ofSeconds 0)⟩ = .ok 1000000 := by decide +kernel
/-- Noon in Johannesburg is ten o'clock in Greenwich. -/
example : dtCmp ⟨2014, 5, 1, 12, 0, 0, 0, some (.ofSeconds 7200)⟩ ⟨2014, 5, 1, 10, 0, 0, 0, some (.ofSeconds 0)⟩ = .ok 0 := by decide +kernel
example : dtCmp ⟨2014, 5, 1, 12, 0, 0, 0, some (.ofSeconds 7200)⟩ ⟨2014, 5, 1, 10, 0, 0, 0, none⟩ = .error .typeError := by decide +kernel

end Gsm
