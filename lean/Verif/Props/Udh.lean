import Verif.Spec.Udh
import Verif.Lemmas.Udh
import Mathlib.Data.List.Forall2
/-! # Property C14: user data header elements -/
namespace Gsm
open Spec

theorem mkIE_means {e : WireIE} {ie : IE} (h : Means e ie) : mkIE e.iei e.data.length e.data = .ok ie := by
  cases h with
  | concat8 => rfl
  | concat16 h => simp [mkIE, shl8_or h]
  | port8 => rfl
  | port16 h1 h2 => simp [mkIE, shl8_or h1, shl8_or h2]
  | other h1 h2 h3 h4 => simp [mkIE, h1, h2, h3, h4]

/-- C14. Every element on the wire is decoded to what it stands for, and nothing after it is read. -/
theorem C14_decode_element {e : WireIE} {ie : IE} (h : Means e ie) (rest : List Nat) :
    decodeIE (e.octets ++ rest) = .ok (ie, rest) := by
  unfold WireIE.octets
  rw [decodeIE_octets, mkIE_means h]; rfl

/-- C14. A whole header of any number of elements decodes to exactly those elements, in order. -/
theorem C14_decode_header {es : List WireIE} {ies : List IE} (h : List.Forall₂ Means es ies)
    (rest : List Nat) :
    decodeUdhLoop (headerOctets es).length (headerOctets es).length 0 (headerOctets es ++ rest)
      = .ok (ies, rest) := by
  have key : ∀ (fuel r : Nat) (u : Nat), u = r + (headerOctets es).length → u ≤ r + fuel →
      decodeUdhLoop fuel u r (headerOctets es ++ rest) = .ok (ies, rest) := by
    induction h with
    | nil =>
      intro fuel r u hu _
      cases fuel with
      | zero => rfl
      | succ f => simp [decodeUdhLoop, headerOctets] at *; omega
    | @cons e ie es ies h1 h2 ih =>
      intro fuel r u hu hf
      have hl : (headerOctets (e :: es)).length = e.data.length + 2 + (headerOctets es).length := by
        simp [headerOctets, WireIE.octets]; omega
      have hd : headerOctets (e :: es) ++ rest = e.octets ++ (headerOctets es ++ rest) := by
        simp [headerOctets]
      have hdl : ie.dataLength = e.data.length := (mkIE_ok (mkIE_means h1)).2.1
      cases fuel with
      | zero => omega
      | succ f =>
        unfold decodeUdhLoop
        rw [if_pos (by omega), hd, C14_decode_element h1]
        simp only [bind, Except.bind]
        rw [ih f _ u (by omega) (by omega)]
        rfl
  exact key _ 0 _ (by omega) (by omega)

example : decodeUdhLoop 11 11 0 [0, 3, 0x2A, 2, 1, 5, 4, 0x0B, 0x84, 0x23, 0xF0, 9] =
    .ok ([⟨0, 3, [0x2A, 2, 1], .concatenation 42 2 1⟩,
      ⟨5, 4, [0x0B, 0x84, 0x23, 0xF0], .portAddress 2948 9200⟩], [9]) := by decide

/-- C14. `Concatenation.encode` uses the 8-bit form exactly for references up to 255, and its
output decodes to the same values whatever follows. -/
theorem C14_concatenation (r p n : Nat) (hr : r < 65536) (hp : p < 256) (hn : n < 256) (rest : List Nat) :
    ∃ os, encodeConcatenation r p n = .ok os ∧
      os = (if r < 256 then [0x00, 3, r, p, n] else [0x08, 4, r / 256, r % 256, p, n]) ∧
      ∃ ie, decodeIE (os ++ rest) = .ok (ie, rest) ∧ ie.kind = .concatenation r p n := by
  refine ⟨_, ?_, rfl, ?_⟩
  · unfold encodeConcatenation
    by_cases h : r < 256
    · rw [if_neg (by omega), if_pos h, bytesOf_ok_iff]
      refine ⟨?_, by simp⟩
      simp only [List.mem_cons, List.not_mem_nil, or_false]
      rintro x (rfl | rfl | rfl | rfl | rfl) <;> omega
    · rw [if_pos (by omega), if_neg h, bytesOf_ok_iff]
      refine ⟨?_, ?_⟩
      · simp only [List.mem_cons, List.not_mem_nil, or_false]
        rintro x (rfl | rfl | rfl | rfl | rfl | rfl) <;> omega
      · simp only [List.map_cons, List.map_nil, Int.toNat_natCast]
        congr 3 <;> simp <;> omega
  · by_cases h : r < 256
    · rw [if_pos h]
      exact ⟨_, C14_decode_element (.concat8 (r := r) (p := p) (n := n)) rest, rfl⟩
    · rw [if_neg h]
      refine ⟨_, C14_decode_element (.concat16 (r1 := r / 256) (r0 := r % 256) (p := p) (n := n) (by omega)) rest, ?_⟩
      simp only [IEKind.concatenation.injEq, and_true]; omega

/-- C14. Values that do not fit are refused with `ValueError`. -/
theorem C14_concatenation_reject (r p n : Int)
    (h : ¬ ((0 ≤ r ∧ r < 65536) ∧ (0 ≤ p ∧ p < 256) ∧ (0 ≤ n ∧ n < 256))) :
    encodeConcatenation r p n = .error .valueError := by
  unfold encodeConcatenation
  split
  · apply bytesOf_error
    intro hb
    simp only [List.mem_cons, List.not_mem_nil, or_false, forall_eq_or_imp, forall_eq] at hb
    omega
  · apply bytesOf_error
    intro hb
    simp only [List.mem_cons, List.not_mem_nil, or_false, forall_eq_or_imp, forall_eq] at hb
    omega

/-- C14. The same for port addresses: the 8-bit form exactly when both ports fit an octet. -/
theorem C14_ports (d s : Nat) (hd : d < 65536) (hs : s < 65536) (rest : List Nat) :
    ∃ os, encodePortAddress d s = .ok os ∧
      os = (if d < 256 ∧ s < 256 then [0x04, 2, d, s]
            else [0x05, 4, d / 256, d % 256, s / 256, s % 256]) ∧
      ∃ ie, decodeIE (os ++ rest) = .ok (ie, rest) ∧ ie.kind = .portAddress d s := by
  refine ⟨_, ?_, rfl, ?_⟩
  · unfold encodePortAddress
    by_cases h : d < 256 ∧ s < 256
    · rw [if_neg (by omega), if_pos h, bytesOf_ok_iff]
      refine ⟨?_, by simp⟩
      simp only [List.mem_cons, List.not_mem_nil, or_false]
      rintro x (rfl | rfl | rfl | rfl) <;> omega
    · rw [if_pos (by omega), if_neg h, bytesOf_ok_iff]
      refine ⟨?_, ?_⟩
      · simp only [List.mem_cons, List.not_mem_nil, or_false]
        rintro x (rfl | rfl | rfl | rfl | rfl | rfl) <;> omega
      · simp only [List.map_cons, List.map_nil]
        congr 3
  · by_cases h : d < 256 ∧ s < 256
    · rw [if_pos h]
      exact ⟨_, C14_decode_element (.port8 (d := d) (s := s)) rest, rfl⟩
    · rw [if_neg h]
      refine ⟨_, C14_decode_element (.port16 (d1 := d / 256) (d0 := d % 256) (s1 := s / 256) (s0 := s % 256)
        (by omega) (by omega)) rest, ?_⟩
      simp only [IEKind.portAddress.injEq]; omega

/-- C14. Unrecognised elements with up to 255 data octets: encoding gives the wire form, and
decoding it gives the element back. -/
theorem C14_generic (i : Nat) (data : List Nat) (hi : i < 256) (hd : ∀ x ∈ data, x < 256)
    (hl : data.length < 256) (h0 : i ≠ 0x00) (h8 : i ≠ 0x08) (h4 : i ≠ 0x04) (h5 : i ≠ 0x05)
    (rest : List Nat) :
    encodeIE ⟨i, data.length, data, .generic⟩ = .ok (WireIE.octets ⟨i, data⟩) ∧
    decodeIE (WireIE.octets ⟨i, data⟩ ++ rest) = .ok (⟨i, data.length, data, .generic⟩, rest) := by
  refine ⟨?_, C14_decode_element (.other h0 h8 h4 h5) rest⟩
  have : ((i : Int) :: (data.length : Int) :: data.map (fun (n : Nat) => (n : Int))) =
      (WireIE.octets ⟨i, data⟩).map (fun (n : Nat) => (n : Int)) := by simp [WireIE.octets]
  simp only [encodeIE, this]
  apply bytesOf_nat
  simp only [WireIE.octets, List.mem_cons]
  rintro x (rfl | rfl | hx)
  · exact hi
  · exact hl
  · exact hd x hx

/-- C14. Malformed elements: a wrong data length for a recognised identifier raises `ValueError` or
`IndexError`, missing octets raise `StopIteration` (none of them `EncodingError`). -/
theorem C14_malformed (rest : List Nat) :
    (∀ data : List Nat, data.length ≠ 3 →
      decodeIE (WireIE.octets ⟨0x00, data⟩ ++ rest) = .error .valueError) ∧
    (∀ data : List Nat, data.length < 4 →
      decodeIE (WireIE.octets ⟨0x08, data⟩ ++ rest) = .error .indexError) ∧
    (∀ (i n : Nat) (data : List Nat), data.length < n →
      decodeIE (i :: n :: data) = .error .stopIteration) := by
  refine ⟨?_, ?_, ?_⟩
  · intro data h
    unfold WireIE.octets
    rw [decodeIE_octets]
    match data, h with
    | [], _ => rfl
    | [_], _ => rfl
    | [_, _], _ => rfl
    | [_, _, _], h => simp at h
    | _ :: _ :: _ :: _ :: _, _ => rfl
  · intro data h
    unfold WireIE.octets
    rw [decodeIE_octets]
    match data, h with
    | [], _ => rfl
    | [_], _ => rfl
    | [_, _], _ => rfl
    | [_, _, _], h => rfl
    | _ :: _ :: _ :: _ :: _, h => simp at h; omega
  · intro i n data h
    simp [decodeIE, next, takeExact_short h, bind, Except.bind]

end Gsm
