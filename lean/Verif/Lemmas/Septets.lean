import Verif.Model.Septets
import Verif.Lemmas.Bits
namespace Gsm
open Spec

theorem range7 : List.range 7 = [0,1,2,3,4,5,6] := rfl
theorem range8 : List.range 8 = [0,1,2,3,4,5,6,7] := rfl

theorem tb127 (i : Nat) : Nat.testBit 127 i = decide (i < 7) := Nat.testBit_two_pow_sub_one 7 i
theorem tb255 (i : Nat) : Nat.testBit 255 i = decide (i < 8) := Nat.testBit_two_pow_sub_one 8 i

theorem bits7_and (x : Nat) : bits 7 (x &&& 0x7f) = bits 7 x := by
  simp [bits, Nat.testBit_and, tb127, range7]

theorem and7f_lt (x : Nat) : x &&& 0x7f < 128 := by
  have := Nat.and_le_right (n := x) (m := 0x7f); omega

theorem tb7 {x : Nat} (hx : x < 128) (i : Nat) (hi : 7 ≤ i) : x.testBit i = false :=
  Nat.testBit_lt_two_pow (lt_of_lt_of_le hx (by simpa using Nat.pow_le_pow_right (n := 2) (by omega) hi))
theorem tb8 {x : Nat} (hx : x < 256) (i : Nat) (hi : 8 ≤ i) : x.testBit i = false :=
  Nat.testBit_lt_two_pow (lt_of_lt_of_le hx (by simpa using Nat.pow_le_pow_right (n := 2) (by omega) hi))

theorem pack_step {s p x : Nat} (hs : s < 7) (hp : p < 128) :
    bits 8 (((x <<< (7 - s)) &&& 0xFF) ||| (p >>> s))
      = (bits 7 p).drop s ++ (bits 7 x).take (s + 1) := by
  have h := tb7 hp
  interval_cases s <;>
  simp [bits, range7, range8, Nat.testBit_or, Nat.testBit_and, tb127, tb255, h]

theorem pack_last {s p : Nat} (hs : s < 7) (hp : p < 128) :
    bits 8 (p >>> s) = (bits 7 p).drop s ++ zeros (s + 1) := by
  have h := tb7 hp
  interval_cases s <;>
  simp [bits, range7, range8, zeros, h]

theorem packLoop_stream (os : List Nat) : ∀ {s p : Nat}, s ≤ 7 → p < 128 →
    ∃ k < 8, stream 8 (packLoop s p os) = (bits 7 p).drop s ++ stream 7 os ++ zeros k := by
  induction os with
  | nil =>
    intro s p hs hp
    unfold packLoop
    by_cases h : s = 7
    · subst h; exact ⟨0, by simp, by simp [zeros]⟩
    · refine ⟨s + 1, by omega, ?_⟩
      simp [h, pack_last (show s < 7 by omega) hp]
  | cons o os ih =>
    intro s p hs hp
    rw [packLoop]
    by_cases h : s = 7
    · subst h
      obtain ⟨k, hk, e⟩ := ih (s := 0) (p := o &&& 0x7f) (by omega) (and7f_lt o)
      refine ⟨k, hk, ?_⟩
      simp only [if_true, e, bits7_and]
      simp
    · obtain ⟨k, hk, e⟩ := ih (s := s + 1) (p := o &&& 0x7f) (by omega) (and7f_lt o)
      refine ⟨k, hk, ?_⟩
      simp only [if_neg h, stream_cons, e, pack_step (show s < 7 by omega) hp, bits7_and]
      simp only [List.append_assoc]
      rw [← List.append_assoc ((bits 7 o).take _), List.take_append_drop]

theorem packLoop_lt (os : List Nat) : ∀ {s p : Nat}, p < 128 → ∀ x ∈ packLoop s p os, x < 256 := by
  induction os with
  | nil =>
    intro s p hp x
    unfold packLoop
    split
    · simp only [List.mem_singleton]
      rintro rfl
      have := Nat.div_le_self p (2 ^ s)
      rw [Nat.shiftRight_eq_div_pow]; omega
    · simp
  | cons o os ih =>
    intro s p hp x
    rw [packLoop]
    split
    · exact ih (and7f_lt o) x
    · simp only [List.mem_cons]
      rintro (rfl | hx)
      · have h1 : (o &&& 0x7f) <<< (7 - s) &&& 0xFF < 2 ^ 8 := by
          have := Nat.and_le_right (n := (o &&& 0x7f) <<< (7 - s)) (m := 0xff); omega
        have h2 : p >>> s < 2 ^ 8 := by
          have := Nat.div_le_self p (2 ^ s)
          rw [Nat.shiftRight_eq_div_pow]; omega
        exact Nat.or_lt_two_pow h1 h2
      · exact ih (and7f_lt o) x hx

/-! ### Unpacking -/

theorem unpack_step {s p o : Nat} (hs1 : 1 ≤ s) (hs : s < 7) (hp : p < 256) :
    bits 7 (((o <<< s) &&& 0x7F) ||| (p >>> (8 - s)))
      = (bits 8 p).drop (8 - s) ++ (bits 8 o).take (7 - s) := by
  have h := tb8 hp
  interval_cases s <;>
  simp [bits, range7, range8, Nat.testBit_or, Nat.testBit_and, tb127, tb255, h]

theorem unpack_lt {s p o : Nat} (hs : s < 8) (hp : p < 256) (hs1 : 1 ≤ s) :
    ((o <<< s) &&& 0x7F) ||| (p >>> (8 - s)) < 128 := by
  have h1 : (o <<< s) &&& 0x7F < 2 ^ 7 := by
    have := Nat.and_le_right (n := o <<< s) (m := 0x7f); omega
  by_cases h : s = 8
  · omega
  · have h2 : p >>> (8 - s) < 2 ^ 7 := by
      rw [Nat.shiftRight_eq_div_pow]
      have : p / 2 ^ (8 - s) ≤ p / 2 ^ 1 :=
        Nat.div_le_div_left (Nat.pow_le_pow_right (by omega) (by omega)) (by decide)
      omega
    exact Nat.or_lt_two_pow h1 h2

theorem bits7_shift1 {p : Nat} : bits 7 (p >>> 1) = (bits 8 p).drop 1 := by
  simp [bits, range7, range8]

theorem bits7_of8 {o : Nat} : bits 7 (o &&& 0x7F) = (bits 8 o).take 7 := by
  simp [bits, range7, range8, Nat.testBit_and, tb127, tb255]

/-- The unlimited loop, started with a pending octet of which the top `s` bits are unread. -/
theorem unpackLoop_some (it : List Nat) : ∀ {i s p : Nat}, 1 ≤ s → s ≤ 7 → p < 256 →
    (∀ o ∈ it, o < 256) →
    ∃ r p' s', unpackLoop none i (some p) s it = .ok ⟨r, some p', s', []⟩ ∧ 1 ≤ s' ∧ s' ≤ 7 ∧
      p' < 256 ∧ (∀ x ∈ r, x < 128) ∧
      (bits 8 p).drop (8 - s) ++ stream 8 it = stream 7 r ++ (bits 8 p').drop (8 - s') := by
  induction it with
  | nil =>
    intro i s p h1 h7 hp _
    exact ⟨[], p, s, rfl, h1, h7, hp, by simp, by simp⟩
  | cons o it ih =>
    intro i s p h1 h7 hp hit
    have ho : o < 256 := hit o (by simp)
    have hit' : ∀ x ∈ it, x < 256 := fun x hx => hit x (by simp [hx])
    rw [unpackLoop]
    by_cases h : s = 7
    · subst h
      obtain ⟨r, p', s', e, a1, a2, a3, a4, a5⟩ := ih (i := i + 1) (s := 1) (p := o) (by omega) (by omega) ho hit'
      refine ⟨p >>> 1 :: (o &&& 0x7F) :: r, p', s', ?_, a1, a2, a3, ?_, ?_⟩
      · simp [e, Bind.bind, Except.bind, pure, Except.pure]
      · simp only [List.mem_cons]
        rintro x (rfl | rfl | hx)
        · rw [Nat.shiftRight_eq_div_pow]; omega
        · exact and7f_lt o
        · exact a4 x hx
      · simp only [stream_cons, List.append_assoc, ← a5, bits7_shift1, bits7_of8]
        rw [← List.append_assoc ((bits 8 o).take _), List.take_append_drop]
    · obtain ⟨r, p', s', e, a1, a2, a3, a4, a5⟩ := ih (i := i + 1) (s := s + 1) (p := o) (by omega) (by omega) ho hit'
      refine ⟨(((o <<< s) &&& 0x7F) ||| (p >>> (8 - s))) :: r, p', s', ?_, a1, a2, a3, ?_, ?_⟩
      · simp [h, e, Bind.bind, Except.bind, pure, Except.pure]
      · simp only [List.mem_cons]
        rintro x (rfl | hx)
        · exact unpack_lt (by omega) hp h1
        · exact a4 x hx
      · simp only [stream_cons, List.append_assoc, ← a5, unpack_step h1 (show s < 7 by omega) hp]
        have e2 : 8 - (s + 1) = 7 - s := by omega
        rw [e2, ← List.append_assoc ((bits 8 o).take _), List.take_append_drop]

/-- The limit counts octets: a positive limit is the same as cutting the input. -/
theorem unpackLoop_limit (it : List Nat) : ∀ {n i s : Nat} {p : Option Nat}, i < n →
    unpackLoop (some n) i p s it =
      (unpackLoop none i p s (it.take (n - i))).map (fun e => { e with rest := it.drop (n - i) }) := by
  induction it with
  | nil => intro n i s p h; simp [unpackLoop, Except.map]
  | cons o it ih =>
    intro n i s p h
    obtain ⟨k, rfl⟩ : ∃ k, n = i + 1 + k := ⟨n - i - 1, by omega⟩
    have e : i + 1 + k - i = k + 1 := by omega
    rw [e, List.take_succ_cons, List.drop_succ_cons]
    simp only [unpackLoop]
    rcases Nat.eq_zero_or_pos k with rfl | hk
    · simp only [Nat.add_zero, List.take_zero, List.drop_zero, unpackLoop]
      split
      · simp [Except.map, Bind.bind, Except.bind, pure, Except.pure]
      · cases p <;> simp [Except.map, Bind.bind, Except.bind, pure, Except.pure]
    · have hne : some (i + 1 + k) ≠ some (i + 1) := by simp; omega
      have hle : i + 1 ≤ i + 1 + k := by omega
      have e2 : i + 1 + k - (i + 1) = k := by omega
      simp only [hne, if_false, hle, decide_true, if_true, reduceCtorEq]
      split
      · rw [ih (show i + 1 < i + 1 + k by omega), e2]
        cases unpackLoop none (i + 1) (some o) 1 (it.take k) <;> rfl
      · cases p with
        | none => rfl
        | some p =>
          simp only []
          rw [ih (show i + 1 < i + 1 + k by omega), e2]
          cases unpackLoop none (i + 1) (some o) (s + 1) (it.take k) <;> rfl

end Gsm

namespace Gsm
open Spec

theorem readSeptets_of {r : List Nat} (hr : ∀ x ∈ r, x < 128) {p s : Nat} (h1 : 1 ≤ s) (h7 : s ≤ 7)
    (hp : p < 256) :
    readSeptets (stream 7 r ++ (bits 8 p).drop (8 - s)) =
      if s = 7 then (if p >>> 1 ≠ 0 then r ++ [p >>> 1] else r) else r := by
  unfold readSeptets
  have hl : (stream 7 r ++ (bits 8 p).drop (8 - s)).length % 7 = 0 ↔ s = 7 := by
    simp; omega
  by_cases h : s = 7
  · subst h
    have hp1 : p >>> 1 < 128 := by rw [Nat.shiftRight_eq_div_pow]; omega
    have e : septets (stream 7 r ++ (bits 8 p).drop (8 - 7)) = r ++ [p >>> 1] := by
      rw [septets_stream_append hr, show 8 - 7 = 1 from rfl, ← bits7_shift1]
      have := septets_bits_append _ hp1 []
      rw [List.append_nil] at this
      rw [this, septets_nil_of_lt (by simp)]
    rw [e]
    simp only [hl, List.getLast?_concat, List.dropLast_concat, true_and, if_true, Option.some.injEq]
    by_cases h0 : p >>> 1 = 0 <;> simp [h0]
  · have e : septets (stream 7 r ++ (bits 8 p).drop (8 - s)) = r :=
      septets_stream hr (by simp; omega)
    simp only [e, hl, h, false_and, if_false]

theorem unpackSeptets_some {it : List Nat} {s p : Nat} (h1 : 1 ≤ s) (h7 : s ≤ 7) (hp : p < 256)
    (hit : ∀ o ∈ it, o < 256) :
    unpackSeptets it none (some p) s =
      .ok (readSeptets ((bits 8 p).drop (8 - s) ++ stream 8 it), []) := by
  obtain ⟨r, p', s', e, a1, a2, a3, a4, a5⟩ := unpackLoop_some it (i := 0) h1 h7 hp hit
  rw [a5, readSeptets_of a4 a1 a2 a3]
  simp only [unpackSeptets, e, bind, Except.bind, pure, Except.pure]
  by_cases h : s' = 7
  · subst h; simp only [if_true, Nat.reduceSub]; split <;> rfl
  · simp [h]

theorem unpackSeptets_none {it : List Nat} (hne : it ≠ []) (hit : ∀ o ∈ it, o < 256) :
    unpackSeptets it none none 7 = .ok (readSeptets (stream 8 it), []) := by
  match it, hne with
  | o :: it, _ =>
    obtain ⟨r, p', s', e, a1, a2, a3, a4, a5⟩ := unpackLoop_some it (i := 1) (s := 1) (p := o)
      (by omega) (by omega) (hit o (by simp)) (fun x hx => hit x (by simp [hx]))
    have e2 : stream 8 (o :: it) = stream 7 ((o &&& 0x7F) :: r) ++ (bits 8 p').drop (8 - s') := by
      simp only [stream_cons, List.append_assoc, ← a5, bits7_of8]
      rw [← List.append_assoc ((bits 8 o).take _), List.take_append_drop]
    have a4' : ∀ x ∈ (o &&& 0x7F) :: r, x < 128 := by
      simp only [List.mem_cons]
      rintro x (rfl | hx)
      · exact and7f_lt o
      · exact a4 x hx
    rw [e2, readSeptets_of a4' a1 a2 a3]
    simp only [unpackSeptets, unpackLoop, e, bind, Except.bind, pure, Except.pure, if_true,
      List.nil_append, List.cons_append, reduceCtorEq, if_false]
    by_cases h : s' = 7
    · subst h; simp only [if_true, Nat.reduceSub]; split <;> rfl
    · simp [h]

theorem unpackSeptets_limit {it : List Nat} {n : Nat} (hn : 1 ≤ n) {p : Option Nat} {s : Nat} :
    unpackSeptets it (some n) p s =
      (unpackSeptets (it.take n) none p s).map (fun r => (r.1, it.drop n)) := by
  simp only [unpackSeptets, unpackLoop_limit it (show 0 < n by omega), Nat.sub_zero]
  cases h : unpackLoop none 0 p s (it.take n) with
  | error e => rfl
  | ok e =>
    simp only [Except.map, bind, Except.bind, pure, Except.pure]
    split
    · cases e.prevOctet with
      | none => rfl
      | some q => simp only []; split <;> rfl
    · rfl

theorem readSeptets_packed {os : List Nat} (h : ∀ x ∈ os, x < 128) {k : Nat} (hk : k < 8) :
    readSeptets (stream 7 os ++ zeros k) =
      if k = 0 ∧ os.getLast? = some 0 then os.dropLast else os := by
  unfold readSeptets
  by_cases h7 : k = 7
  · subst h7
    have e : septets (stream 7 os ++ zeros 7) = os ++ [0] := by
      rw [← bits_zero 7, septets_stream_append h]
      have := septets_bits_append 0 (by omega) []
      rw [List.append_nil] at this
      rw [this, septets_nil_of_lt (by simp)]
    rw [e]; simp
  · have e : septets (stream 7 os ++ zeros k) = os := septets_stream h (by simp; omega)
    rw [e]
    have : (stream 7 os ++ zeros k).length % 7 = 0 ↔ k = 0 := by simp; omega
    simp only [this]

end Gsm
