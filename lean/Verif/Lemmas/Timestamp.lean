import Verif.Model.Validity
import Verif.Lemmas.Address
namespace Gsm

theorem digit16_hexUpper [PyUnicode] {v : Nat} (h : v < 16) : digit16? (hexUpper v) = some v := by
  unfold hexUpper digit16? hexVal?
  split
  · rw [if_pos (by omega)]; simp
  · rw [if_neg (by omega), if_pos (by omega)]; simp

/-- Pairs of nibbles, low nibble first. -/
def nibblePairs : List Nat → List Nat
  | a :: b :: s => (b * 16 + a) :: nibblePairs s
  | _ => []

theorem semiOctetPairs_nibbles [PyUnicode] : ∀ {vs : List Nat}, (∀ v ∈ vs, v < 16) →
    semiOctetPairs (vs.map hexUpper) = .ok (nibblePairs vs)
  | [], _ => rfl
  | [a], _ => rfl
  | a :: b :: vs, h => by
    simp only [List.map_cons, semiOctetPairs, digit16_hexUpper (h a (by simp)),
      digit16_hexUpper (h b (by simp)), nibblePairs]
    rw [semiOctetPairs_nibbles (vs := vs) (fun v hv => h v (by simp [hv]))]
    rfl

theorem length_nibblePairs : ∀ vs : List Nat, (nibblePairs vs).length = vs.length / 2
  | [] => rfl
  | [a] => by simp [nibblePairs]
  | a :: b :: vs => by simp [nibblePairs, length_nibblePairs vs]; omega

/-- Every second nibble is below 15. -/
def HighOk : List Nat → Prop
  | a :: b :: s => a < 16 ∧ b < 15 ∧ HighOk s
  | [] => True
  | [_] => False

theorem decodeSemiOctets_nibbles (rest : List Nat) : ∀ {vs : List Nat} {i n : Nat}, HighOk vs → vs ≠ [] →
    n = i + vs.length / 2 →
    decodeSemiOctets (some n) i (nibblePairs vs ++ rest) = (vs.map hexLower, rest)
  | [], _, _, _, h, _ => absurd rfl h
  | [a], _, _, h, _, _ => h.elim
  | a :: b :: vs, i, n, h, _, hn => by
    obtain ⟨ha, hb, hvs⟩ := h
    simp only [nibblePairs, List.cons_append, decodeSemiOctets]
    rw [show (b * 16 + a) / 16 = b by omega, show (b * 16 + a) % 16 = a by omega, if_neg (by omega)]
    by_cases hne : vs = []
    · subst hne
      simp at hn; subst hn; simp [nibblePairs]
    · have hl : 2 ≤ vs.length := by
        match vs, hne, hvs with
        | [_], _, h => exact h.elim
        | _ :: _ :: _, _, _ => simp
      simp only [List.length_cons] at hn
      rw [if_neg (by intro h; simp only [Option.some.injEq] at h; omega),
        decodeSemiOctets_nibbles rest hvs hne (by omega)]
      simp

theorem firstParse_cons {f : Field} {fs : List Field} {s r : PyStr} {v : Nat} {tl} {w}
    (h : f s = (v, r) :: tl) (hr : firstParse fs r = some w) :
    firstParse (f :: fs) s = some (v :: w.1, w.2) := by
  simp [firstParse, h, hr]

theorem fieldY_pad2 {n : Nat} (h : n < 100) (r : PyStr) : fieldY (pad2 n ++ r) = [(n, r)] := by
  have h1 : 48 ≤ 48 + n / 10 ∧ 48 + n / 10 ≤ 57 := by omega
  have h2 : 48 ≤ 48 + n % 10 ∧ 48 + n % 10 ≤ 57 := by omega
  simp [fieldY, pad2, twoDigits, inR, h1, h2]; omega

theorem fieldMon_pad2 {n : Nat} (h1 : 1 ≤ n) (h : n ≤ 12) (r : PyStr) :
    ∃ tl, fieldMon (pad2 n ++ r) = (n, r) :: tl := by
  interval_cases n <;> exact ⟨_, rfl⟩

theorem fieldDay_pad2 {n : Nat} (h1 : 1 ≤ n) (h : n ≤ 31) (r : PyStr) :
    ∃ tl, fieldDay (pad2 n ++ r) = (n, r) :: tl := by
  interval_cases n <;> exact ⟨_, rfl⟩

theorem fieldHour_pad2 {n : Nat} (h : n ≤ 23) (r : PyStr) :
    ∃ tl, fieldHour (pad2 n ++ r) = (n, r) :: tl := by
  interval_cases n <;> exact ⟨_, rfl⟩

theorem fieldMin_pad2 {n : Nat} (h : n ≤ 59) (r : PyStr) :
    ∃ tl, fieldMin (pad2 n ++ r) = (n, r) :: tl := by
  interval_cases n <;> exact ⟨_, rfl⟩

theorem fieldSec_pad2 {n : Nat} (h : n ≤ 59) (r : PyStr) :
    ∃ tl, fieldSec (pad2 n ++ r) = (n, r) :: tl := by
  interval_cases n <;> exact ⟨_, rfl⟩

theorem daysInMonth_le (y m : Nat) : daysInMonth y m ≤ 31 := by
  unfold daysInMonth; split
  · split <;> omega
  · split <;> omega

theorem strptime_strftime {d : DateTime} (hv : d.valid = true) (h1 : 1969 ≤ d.year) (h2 : d.year ≤ 2068) :
    strptimeCompact (strftimeCompact d) = .ok { d with micro := 0, off := none } := by
  have hv' := hv
  simp only [DateTime.valid, decide_eq_true_eq] at hv
  obtain ⟨_, _, m1, m2, d1, d2, hh, hm, hs⟩ := hv
  have d31 := le_trans d2 (daysInMonth_le _ _)
  obtain ⟨_, e6⟩ := fieldSec_pad2 hs []
  obtain ⟨_, e5⟩ := fieldMin_pad2 hm (pad2 d.second ++ [])
  obtain ⟨_, e4⟩ := fieldHour_pad2 hh (pad2 d.minute ++ (pad2 d.second ++ []))
  obtain ⟨_, e3⟩ := fieldDay_pad2 d1 d31 (pad2 d.hour ++ (pad2 d.minute ++ (pad2 d.second ++ [])))
  obtain ⟨_, e2⟩ := fieldMon_pad2 m1 m2 (pad2 d.day ++ (pad2 d.hour ++ (pad2 d.minute ++ (pad2 d.second ++ []))))
  have e1 := fieldY_pad2 (n := d.year % 100) (by omega) (pad2 d.month ++ (pad2 d.day ++ (pad2 d.hour ++ (pad2 d.minute ++ (pad2 d.second ++ [])))))
  have hf : firstParse [fieldY, fieldMon, fieldDay, fieldHour, fieldMin, fieldSec] (strftimeCompact d)
      = some ([d.year % 100, d.month, d.day, d.hour, d.minute, d.second], []) := by
    have : strftimeCompact d = pad2 (d.year % 100) ++ (pad2 d.month ++ (pad2 d.day ++ (pad2 d.hour ++ (pad2 d.minute ++ (pad2 d.second ++ []))))) := by
      simp [strftimeCompact]
    rw [this]
    rw [firstParse_cons e1 (firstParse_cons e2 (firstParse_cons e3 (firstParse_cons e4
      (firstParse_cons e5 (firstParse_cons e6 (w := ([], [])) rfl)))))]
  unfold strptimeCompact
  rw [hf]
  simp only [mkStrptime]
  have hy : (if d.year % 100 ≤ 68 then d.year % 100 + 2000 else d.year % 100 + 1900) = d.year := by
    split <;> omega
  rw [hy]
  have : DateTime.valid ⟨d.year, d.month, d.day, d.hour, d.minute, d.second, 0, none⟩ = true := hv'
  rw [if_pos this]

/-- The two nibbles of the time zone octet, in transmission order, for `k` quarters of an hour. -/
def tzNibbles (neg : Bool) (k : Nat) : Nat × Nat := (if neg then k / 10 ||| 8 else k / 10, k % 10)

theorem tz_pos : ∀ k < 80, pad2 k = [tzNibbles false k |>.1, tzNibbles false k |>.2].map hexUpper ∧
    (tzNibbles false k).1 < 16 ∧ (tzNibbles false k).2 < 15 ∧
    pduTzOffset ([tzNibbles false k |>.1, tzNibbles false k |>.2].map hexLower) = .ok (.ofSeconds (k * 900)) := by
  decide +kernel

theorem tz_neg : ∀ k < 80, (intBase 16 (pad2 k)).map (fun v => hex2 (v ||| 0x80)) =
      .ok ([tzNibbles true k |>.1, tzNibbles true k |>.2].map hexUpper) ∧
    (tzNibbles true k).1 < 16 ∧ (tzNibbles true k).2 < 15 ∧
    pduTzOffset ([tzNibbles true k |>.1, tzNibbles true k |>.2].map hexLower) = .ok (.ofSeconds (-(k * 900))) := by
  decide +kernel

theorem encodeTz {off : Timedelta} (hs : off.seconds < 86400) (hlo : -72000 < off.total) (hhi : off.total < 72000) :
    ∃ a b, encodeTzStr off = .ok ([a, b].map hexUpper) ∧ a < 16 ∧ b < 15 ∧
      pduTzOffset ([a, b].map hexLower) = .ok (.ofSeconds (Int.tdiv off.total 900 * 900)) := by
  obtain ⟨d, s, m⟩ := off
  simp only [Timedelta.total] at *
  unfold encodeTzStr
  by_cases hd : d ≥ 0
  · have hd0 : d = 0 := by omega
    subst hd0
    have e : s / 60 / 15 = s / 900 := by omega
    have h80 : s / 900 < 80 := by omega
    obtain ⟨h1, h2, h3, h4⟩ := tz_pos _ h80
    refine ⟨_, _, ?_, h2, h3, ?_⟩
    · simp only [ge_iff_le, le_refl, if_true, e]; rw [h1]
    · rw [h4]
      congr 2
  · have hd1 : d = -1 := by omega
    subst hd1
    have e : (-1 * -3600 * 24 - (s : Int)).toNat / 60 / 15 = (86400 - s) / 900 := by omega
    have h80 : (86400 - s) / 900 < 80 := by omega
    obtain ⟨h1, h2, h3, h4⟩ := tz_neg _ h80
    refine ⟨_, _, ?_, h2, h3, ?_⟩
    · simp only [hd, if_false]
      rw [e, ← h1]
      cases intBase 16 (pad2 ((86400 - s) / 900)) <;> rfl
    · rw [h4]
      congr 2
      have e2 : (s : Int) + -1 * 86400 = -((86400 - s : Nat) : Int) := by omega
      rw [e2, Int.neg_tdiv, Int.tdiv_eq_ediv_of_nonneg (by omega)]; omega

theorem encodeTimestamp_ok [PyUnicode] {d : DateTime} {off : Timedelta} (ho : d.off = some off)
    (hv : d.valid = true) {a b : Nat} (ht : encodeTzStr off = .ok ([a, b].map hexUpper)) (ha : a < 16)
    (hb : b < 15) :
    encodeTimestamp d = .ok (nibblePairs ([d.year % 100 / 10, d.year % 100 % 10, d.month / 10, d.month % 10,
      d.day / 10, d.day % 10, d.hour / 10, d.hour % 10, d.minute / 10, d.minute % 10, d.second / 10,
      d.second % 10, a, b])) := by
  simp only [DateTime.valid, decide_eq_true_eq] at hv
  obtain ⟨_, _, m1, m2, d1, d2, hh, hm, hs⟩ := hv
  have d31 := le_trans d2 (daysInMonth_le _ _)
  unfold encodeTimestamp
  rw [ho]
  simp only [ht, bind, Except.bind]
  have hU : ∀ n, n < 10 → 48 + n = hexUpper n := by intro n hn; simp [hexUpper, hn]
  have e : strftimeCompact d ++ [a, b].map hexUpper =
      ([d.year % 100 / 10, d.year % 100 % 10, d.month / 10, d.month % 10,
      d.day / 10, d.day % 10, d.hour / 10, d.hour % 10, d.minute / 10, d.minute % 10, d.second / 10,
      d.second % 10, a, b]).map hexUpper := by
    simp only [strftimeCompact, pad2, List.map_cons, List.map_nil, List.cons_append, List.nil_append]
    rw [hU _ (show d.year % 100 / 10 < 10 by omega), hU _ (show d.year % 100 % 10 < 10 by omega),
      hU _ (show d.month / 10 < 10 by omega), hU _ (show d.month % 10 < 10 by omega),
      hU _ (show d.day / 10 < 10 by omega), hU _ (show d.day % 10 < 10 by omega),
      hU _ (show d.hour / 10 < 10 by omega), hU _ (show d.hour % 10 < 10 by omega),
      hU _ (show d.minute / 10 < 10 by omega), hU _ (show d.minute % 10 < 10 by omega),
      hU _ (show d.second / 10 < 10 by omega), hU _ (show d.second % 10 < 10 by omega)]
  rw [e]
  unfold encodeSemiOctets
  rw [if_neg (by simp)]
  apply semiOctetPairs_nibbles
  simp only [List.mem_cons, List.not_mem_nil, or_false]
  rintro v (h | h | h | h | h | h | h | h | h | h | h | h | h | h) <;> omega

theorem decodeTimestamp_nibbles {d : DateTime} (hv : d.valid = true) (h1 : 1969 ≤ d.year) (h2 : d.year ≤ 2068)
    {a b : Nat} {o : Timedelta} (ha : a < 16) (hb : b < 15)
    (ht : pduTzOffset ([a, b].map hexLower) = .ok o) (rest : List Nat) :
    decodeTimestamp (nibblePairs ([d.year % 100 / 10, d.year % 100 % 10, d.month / 10, d.month % 10,
      d.day / 10, d.day % 10, d.hour / 10, d.hour % 10, d.minute / 10, d.minute % 10, d.second / 10,
      d.second % 10, a, b]) ++ rest) = .ok ({ d with micro := 0, off := some o }, rest) := by
  have hst := strptime_strftime hv h1 h2
  simp only [DateTime.valid, decide_eq_true_eq] at hv
  obtain ⟨_, _, m1, m2, d1, d2, hh, hm, hs⟩ := hv
  have d31 := le_trans d2 (daysInMonth_le _ _)
  unfold decodeTimestamp
  rw [decodeSemiOctets_nibbles rest (n := 7) (i := 0)
    (by simp only [HighOk]; refine ⟨?_, ?_, ?_, ?_, ?_, ?_, ?_, ?_, ?_, ?_, ?_, ?_, ?_, ?_, trivial⟩ <;> omega) (by simp) (by simp)]
  have hL : ∀ n, n < 10 → hexLower n = 48 + n := by intro n hn; simp [hexLower, hn]
  have e : (List.map hexLower [d.year % 100 / 10, d.year % 100 % 10, d.month / 10, d.month % 10,
      d.day / 10, d.day % 10, d.hour / 10, d.hour % 10, d.minute / 10, d.minute % 10, d.second / 10,
      d.second % 10, a, b]) = strftimeCompact d ++ [a, b].map hexLower := by
    simp only [strftimeCompact, pad2, List.map_cons, List.map_nil, List.cons_append, List.nil_append]
    rw [hL _ (show d.year % 100 / 10 < 10 by omega), hL _ (show d.year % 100 % 10 < 10 by omega),
      hL _ (show d.month / 10 < 10 by omega), hL _ (show d.month % 10 < 10 by omega),
      hL _ (show d.day / 10 < 10 by omega), hL _ (show d.day % 10 < 10 by omega),
      hL _ (show d.hour / 10 < 10 by omega), hL _ (show d.hour % 10 < 10 by omega),
      hL _ (show d.minute / 10 < 10 by omega), hL _ (show d.minute % 10 < 10 by omega),
      hL _ (show d.second / 10 < 10 by omega), hL _ (show d.second % 10 < 10 by omega)]
  rw [e]
  have hl : (strftimeCompact d).length = 12 := by simp [strftimeCompact, pad2]
  simp only [List.length_append, hl, List.length_map, List.length_cons, List.length_nil]
  rw [show 12 + (0 + 1 + 1) - 2 = 12 from rfl, List.take_append_of_le_length (by omega),
    List.take_of_length_le (by omega), List.drop_append_of_le_length (by omega),
    List.drop_eq_nil_of_le (by omega), List.nil_append]
  simp only [hst, ht, bind, Except.bind, pure, Except.pure]

end Gsm
