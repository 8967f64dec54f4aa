import Verif.Spec.Bits
import Mathlib.Tactic.IntervalCases
import Mathlib.Tactic.Ring
namespace Gsm.Spec

@[simp] theorem length_bits (w x : Nat) : (bits w x).length = w := by simp [bits]

@[simp] theorem stream_nil (w : Nat) : stream w [] = [] := rfl
@[simp] theorem stream_cons (w x : Nat) (xs : List Nat) :
    stream w (x :: xs) = bits w x ++ stream w xs := rfl
@[simp] theorem stream_append (w : Nat) (xs ys : List Nat) :
    stream w (xs ++ ys) = stream w xs ++ stream w ys := by simp [stream]
@[simp] theorem length_stream (w : Nat) (xs : List Nat) : (stream w xs).length = w * xs.length := by
  induction xs with
  | nil => simp
  | cons x xs ih => simp [ih]; ring

theorem bits_succ (w x : Nat) : bits (w + 1) x = x.testBit 0 :: bits w (x / 2) := by
  simp [bits, List.range_succ_eq_map, List.map_map, Function.comp_def, Nat.testBit_succ]

theorem value_bits (w x : Nat) : value (bits w x) = x % 2 ^ w := by
  induction w generalizing x with
  | zero => simp [bits, value]; omega
  | succ w ih =>
    rw [bits_succ, value, ih, Nat.testBit_zero, Nat.pow_succ', Nat.mod_mul]
    by_cases h : x % 2 = 1 <;> simp [h]
    omega

theorem bits_inj {w x y : Nat} (hx : x < 2 ^ w) (hy : y < 2 ^ w) (h : bits w x = bits w y) :
    x = y := by
  have := congrArg value h
  rwa [value_bits, value_bits, Nat.mod_eq_of_lt hx, Nat.mod_eq_of_lt hy] at this

theorem value_lt (bs : List Bool) : value bs < 2 ^ bs.length := by
  induction bs with
  | nil => simp [value]
  | cons b bs ih =>
    simp only [value, List.length_cons, Nat.pow_succ]
    cases b <;> simp <;> omega

theorem septets_nil_of_lt {bs : List Bool} (h : bs.length < 7) : septets bs = [] := by
  rw [septets]; simp [h]

theorem septets_bits_append (x : Nat) (hx : x < 128) (bs : List Bool) :
    septets (bits 7 x ++ bs) = x :: septets bs := by
  rw [septets]
  have : ¬ (bits 7 x ++ bs).length < 7 := by simp
  rw [if_neg this]
  have h1 : (bits 7 x ++ bs).take 7 = bits 7 x := by
    rw [List.take_append_of_le_length (by simp)]; exact List.take_of_length_le (by simp)
  have h2 : (bits 7 x ++ bs).drop 7 = bs := by
    rw [List.drop_append_of_le_length (by simp)]
    simp [List.drop_eq_nil_of_le]
  rw [h1, h2, value_bits, Nat.mod_eq_of_lt (by simpa using hx)]

theorem septets_stream_append {xs : List Nat} (h : ∀ x ∈ xs, x < 128) (bs : List Bool) :
    septets (stream 7 xs ++ bs) = xs ++ septets bs := by
  induction xs with
  | nil => simp
  | cons x xs ih =>
    simp only [stream_cons, List.append_assoc, List.cons_append]
    rw [septets_bits_append _ (h x (by simp)), ih (fun y hy => h y (by simp [hy]))]

theorem septets_stream {xs : List Nat} (h : ∀ x ∈ xs, x < 128) {bs : List Bool}
    (hb : bs.length < 7) : septets (stream 7 xs ++ bs) = xs := by
  rw [septets_stream_append h, septets_nil_of_lt hb, List.append_nil]

theorem length_septets (bs : List Bool) : (septets bs).length = bs.length / 7 := by
  induction bs using septets.induct with
  | case1 bs h => rw [septets]; simp [h]; omega
  | case2 bs h ih => rw [septets]; simp [h, ih]; omega

theorem septets_lt (bs : List Bool) : ∀ x ∈ septets bs, x < 128 := by
  induction bs using septets.induct with
  | case1 bs h => rw [septets]; simp [h]
  | case2 bs h ih =>
    rw [septets]; simp only [h, if_false, List.mem_cons]
    rintro x (rfl | hx)
    · have := value_lt (bs.take 7)
      rw [List.length_take_of_le (by omega)] at this; simpa using this
    · exact ih x hx

@[simp] theorem length_zeros (k : Nat) : (zeros k).length = k := by simp [zeros]

theorem bits_zero (w : Nat) : bits w 0 = zeros w := by
  simp [bits, zeros, List.eq_replicate_iff]

end Gsm.Spec
