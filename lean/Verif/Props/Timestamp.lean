import Verif.Lemmas.Timestamp
/-! # Property C13: timestamps -/
namespace Gsm

/-- C13. Every valid date and time of the years 1969..2068, with any UTC offset strictly between
-20 h and +20 h, is encoded in 7 octets, which decode to the same date and time (without
microseconds) and the offset truncated to quarters of an hour; the octets after it stay unread. -/
theorem C13_timestamp [PyUnicode] {d : DateTime} {off : Timedelta} (hv : d.valid = true)
    (h1 : 1969 ≤ d.year) (h2 : d.year ≤ 2068) (ho : d.off = some off) (hs : off.seconds < 86400)
    (hlo : -72000 < off.total) (hhi : off.total < 72000) (rest : List Nat) :
    ∃ os, encodeTimestamp d = .ok os ∧ os.length = 7 ∧ (∀ x ∈ os, x < 256) ∧
      decodeTimestamp (os ++ rest) =
        .ok ({ d with micro := 0, off := some (.ofSeconds (Int.tdiv off.total 900 * 900)) }, rest) := by
  obtain ⟨a, b, ht, ha, hb, hp⟩ := encodeTz hs hlo hhi
  refine ⟨_, encodeTimestamp_ok ho hv ht ha hb, rfl, ?_, decodeTimestamp_nibbles hv h1 h2 ha hb hp rest⟩
  simp only [DateTime.valid, decide_eq_true_eq] at hv
  obtain ⟨_, _, m1, m2, d1, d2, hh, hm, hs⟩ := hv
  have d31 := le_trans d2 (daysInMonth_le _ _)
  simp only [nibblePairs, List.mem_cons, List.not_mem_nil, or_false]
  rintro x (h | h | h | h | h | h | h) <;> omega

/-- C13. When the offset is a whole number of quarters of an hour, everything but the microseconds
is recovered. -/
theorem C13_timestamp_exact [PyUnicode] {d : DateTime} {q : Int} (hv : d.valid = true)
    (h1 : 1969 ≤ d.year) (h2 : d.year ≤ 2068) (hlo : -80 < q) (hhi : q < 80)
    (ho : d.off = some (.ofSeconds (q * 900))) (rest : List Nat) :
    ∃ os, encodeTimestamp d = .ok os ∧ os.length = 7 ∧
      decodeTimestamp (os ++ rest) = .ok ({ d with micro := 0 }, rest) := by
  have htot : (Timedelta.ofSeconds (q * 900)).total = q * 900 := by
    simp only [Timedelta.ofSeconds, Timedelta.total]; omega
  obtain ⟨os, e1, e2, _, e3⟩ := C13_timestamp hv h1 h2 ho (by simp only [Timedelta.ofSeconds]; omega)
    (by rw [htot]; omega) (by rw [htot]; omega) rest
  refine ⟨os, e1, e2, ?_⟩
  rw [e3, htot, Int.mul_tdiv_cancel q (by omega), ← ho]

example : @encodeTimestamp asciiUnicode ⟨2007, 4, 12, 23, 25, 42, 7, some (.ofSeconds (-28800))⟩ =
    .ok [0x70, 0x40, 0x21, 0x32, 0x52, 0x24, 0x2B] := by decide +kernel
example : DateTime.valid ⟨2024, 2, 29, 23, 59, 59, 0, none⟩ = true := by decide

/-- C13, limits of the format: from 20 hours on the sign bit is corrupted (+20 h is read back as
+0 h), and outside 1969..2068 the century is lost. -/
theorem C13_limits :
    (@encodeTimestamp asciiUnicode ⟨2020, 1, 1, 0, 0, 0, 0, some (.ofSeconds 72000)⟩).bind
      (fun os => decodeTimestamp os) = .ok (⟨2020, 1, 1, 0, 0, 0, 0, some (.ofSeconds 0)⟩, []) ∧
    (@encodeTimestamp asciiUnicode ⟨2069, 1, 1, 0, 0, 0, 0, some (.ofSeconds 0)⟩).bind
      (fun os => decodeTimestamp os) = .ok (⟨1969, 1, 1, 0, 0, 0, 0, some (.ofSeconds 0)⟩, []) := by
  decide +kernel

/-- C13. A naive datetime is refused. -/
theorem C13_naive [PyUnicode] {d : DateTime} (h : d.off = none) :
    encodeTimestamp d = .error .valueError := by simp [encodeTimestamp, h]

end Gsm
