import Verif.Lemmas.Septets
/-! # Properties C03, C04, C05: septet packing and unpacking -/
namespace Gsm
open Spec

/-- Number of fill bits requested with `padBits = p`. -/
def fillBits (p : Nat) : Nat := if p = 0 then 0 else 7 - p

/-- C03. The packed octets are the GSM bit stream: fill bits, the septets, less than an octet of
zero bits. -/
theorem C03_pack_stream {os : List Nat} {p : Nat} (hp : p ≤ 7) (hne : p = 0 → os ≠ [])
    (h7 : ∀ o ∈ os, o < 128) :
    ∃ out, packSeptets os p = .ok out ∧ (∀ x ∈ out, x < 256) ∧
      (∃ k < 8, stream 8 out = zeros (fillBits p) ++ stream 7 os ++ zeros k) ∧
      out.length = (fillBits p + 7 * os.length + 7) / 8 := by
  have key : ∃ out, packSeptets os p = .ok out ∧ (∀ x ∈ out, x < 256) ∧
      (∃ k < 8, stream 8 out = zeros (fillBits p) ++ stream 7 os ++ zeros k) := by
    unfold packSeptets
    by_cases h : p = 0
    · subst h
      match os, hne rfl with
      | o :: os, _ =>
        have ho := h7 o (by simp)
        obtain ⟨k, hk, e⟩ := packLoop_stream os (s := 0) (p := o) (by omega) ho
        refine ⟨_, rfl, packLoop_lt os ho, k, hk, ?_⟩
        simp [e, fillBits, zeros]
    · obtain ⟨k, hk, e⟩ := packLoop_stream os (s := p) (p := 0) hp (by omega)
      refine ⟨_, if_neg h, packLoop_lt os (by omega), k, hk, ?_⟩
      simp only [e, fillBits, h, bits_zero, zeros, List.drop_replicate, if_false]
  obtain ⟨out, h1, h2, k, hk, e⟩ := key
  refine ⟨out, h1, h2, ⟨k, hk, e⟩, ?_⟩
  have := congrArg List.length e
  simp at this
  omega

-- 5 septets in 5 octets, with and without fill bits
example : packSeptets [0x68, 0x65, 0x6c, 0x6c, 0x6f] = .ok [0xe8, 0x32, 0x9b, 0xfd, 0x06] ∧
    packSeptets [0x68, 0x65, 0x6c, 0x6c, 0x6f] 6 = .ok [0xd0, 0x65, 0x36, 0xfb, 0x0d] := by decide

/-- C03. The stream determines the octets, so `C03_pack_stream` leaves no freedom. -/
theorem C03_unique {a b : List Nat} (ha : ∀ x ∈ a, x < 256) (hb : ∀ x ∈ b, x < 256)
    (h : stream 8 a = stream 8 b) : a = b := by
  induction a generalizing b with
  | nil =>
    have := congrArg List.length h
    cases b with
    | nil => rfl
    | cons x b => simp at this; omega
  | cons x a ih =>
    cases b with
    | nil => have := congrArg List.length h; simp at this
    | cons y b =>
      simp only [stream_cons] at h
      obtain ⟨h1, h2⟩ := List.append_inj h (by simp)
      rw [bits_inj (w := 8) (ha x (by simp)) (hb y (by simp)) h1,
        ih (fun z hz => ha z (by simp [hz])) (fun z hz => hb z (by simp [hz])) h2]

/-- C05. What unpacking with a limit returns, exactly, and what it leaves unread: the septets of
the first `n` octets, and every octet after them. -/
theorem C05_unpack_exact {it : List Nat} {n : Nat} (hn : 1 ≤ n) (hne : it ≠ [])
    (hit : ∀ o ∈ it, o < 256) :
    unpackSeptets it (some n) = .ok (readSeptets (stream 8 (it.take n)), it.drop n) := by
  rw [unpackSeptets_limit hn, unpackSeptets_none]
  · rfl
  · simp [hne]; omega
  · exact fun o ho => hit o (List.mem_of_mem_take ho)

/-- C05. The same when some bits of a previous octet are pending (the user data header case). -/
theorem C05_unpack_exact_prev {it : List Nat} {n p s : Nat} (hn : 1 ≤ n) (h1 : 1 ≤ s) (h7 : s ≤ 7)
    (hp : p < 256) (hit : ∀ o ∈ it, o < 256) :
    unpackSeptets it (some n) (some p) s =
      .ok (readSeptets ((bits 8 p).drop (8 - s) ++ stream 8 (it.take n)), it.drop n) := by
  rw [unpackSeptets_limit hn, unpackSeptets_some h1 h7 hp]
  · rfl
  · exact fun o ho => hit o (List.mem_of_mem_take ho)

/-- C05. The result does not depend on the octets after the limit, which stay unread. -/
theorem C05_unpack_suffix {it rest : List Nat} (hne : it ≠ []) (hit : ∀ o ∈ it, o < 256)
    (hrest : ∀ o ∈ rest, o < 256) :
    ∃ r, unpackSeptets it (some it.length) = .ok (r, []) ∧
      unpackSeptets (it ++ rest) (some it.length) = .ok (r, rest) := by
  have hl : 1 ≤ it.length := List.length_pos_iff.2 hne
  refine ⟨readSeptets (stream 8 it), ?_, ?_⟩
  · rw [C05_unpack_exact hl hne hit]; simp
  · rw [C05_unpack_exact hl (by simp [hne])]
    · simp
    · intro o ho
      rcases List.mem_append.1 ho with h | h
      · exact hit o h
      · exact hrest o h

example : unpackSeptets [0xe8, 0x32, 0x9b, 0xfd, 0x06, 0x91, 0x44] (some 5) =
    .ok ([0x68, 0x65, 0x6c, 0x6c, 0x6f], [0x91, 0x44]) := by decide

/-- C04. Unpacking the packed octets (the whole input, or a limit that covers it) gives the
septets back; a final zero septet is lost iff the count is a multiple of 8. -/
theorem C04_unpack_pack {os out rest : List Nat} (hne : os ≠ []) (h7 : ∀ o ∈ os, o < 128)
    (h : packSeptets os = .ok out) (hrest : ∀ o ∈ rest, o < 256) :
    let back := if os.length % 8 = 0 ∧ os.getLast? = some 0 then os.dropLast else os
    unpackSeptets out = .ok (back, []) ∧
    (∀ n ≥ out.length, unpackSeptets out (some n) = .ok (back, [])) ∧
    unpackSeptets (out ++ rest) (some out.length) = .ok (back, rest) := by
  obtain ⟨out', h1, h2, ⟨k, hk, e⟩, hl⟩ := C03_pack_stream (p := 0) (by omega) (fun _ => hne) h7
  rw [h] at h1
  cases h1
  have hos : 1 ≤ os.length := List.length_pos_iff.2 hne
  have hone : 1 ≤ out.length := by rw [hl]; simp [fillBits]; omega
  have hon : out ≠ [] := by rintro rfl; simp at hone
  have hk0 : k = 0 ↔ os.length % 8 = 0 := by
    have := congrArg List.length e
    simp [fillBits] at this
    omega
  have hr : readSeptets (stream 8 out) =
      if os.length % 8 = 0 ∧ os.getLast? = some 0 then os.dropLast else os := by
    rw [e]
    simp only [fillBits, if_true, zeros, List.replicate_zero, List.nil_append]
    simp only [← hk0]
    exact readSeptets_packed h7 hk
  refine ⟨?_, ?_, ?_⟩
  · rw [unpackSeptets_none hon h2, hr]
  · intro n hn
    rw [C05_unpack_exact (by omega) hon h2, List.take_of_length_le hn, List.drop_eq_nil_of_le hn, hr]
  · rw [C05_unpack_exact hone (by simp [hon])]
    · simp [hr]
    · intro o ho
      rcases List.mem_append.1 ho with h | h
      · exact h2 o h
      · exact hrest o h

/-- C04, user data header case: with fill bits in front (`padBits = p`, 1..6), skipping them as the
decoder does gives the septets back. -/
theorem C04_unpack_pack_fill {os out : List Nat} {p first : Nat} (hp1 : 1 ≤ p) (hp : p ≤ 6)
    (h7 : ∀ o ∈ os, o < 128) (h : packSeptets os p = .ok (first :: out)) {n : Nat}
    (hn : out.length ≤ n) (hn1 : 1 ≤ n) :
    unpackSeptets out (some n) (some first) (p + 1) =
      .ok (if (7 * os.length + 7 - p) % 8 = 0 ∧ os.getLast? = some 0 then os.dropLast else os, []) := by
  obtain ⟨out', h1, h2, ⟨k, hk, e⟩, hl⟩ := C03_pack_stream (p := p) (by omega) (by omega) h7
  rw [h] at h1
  cases h1
  rw [C05_unpack_exact_prev hn1 (by omega) (by omega) (h2 first (by simp))
    (fun o ho => h2 o (by simp [ho])), List.take_of_length_le hn, List.drop_eq_nil_of_le hn]
  have hk0 : k = 0 ↔ (7 * os.length + 7 - p) % 8 = 0 := by
    have := congrArg List.length e
    simp [fillBits, show p ≠ 0 by omega] at this
    omega
  have e2 : (bits 8 first).drop (8 - (p + 1)) ++ stream 8 out = stream 7 os ++ zeros k := by
    have := congrArg (List.drop (7 - p)) e
    rw [stream_cons, List.drop_append_of_le_length (by simp; omega)] at this
    rw [show 8 - (p + 1) = 7 - p by omega, this]
    simp [fillBits, show p ≠ 0 by omega]
  rw [e2, readSeptets_packed h7 hk]
  simp only [hk0]

-- 8 septets not ending in zero come back; 8 septets ending in zero lose the last; 7 are fine
example : packSeptets [1,2,3,4,5,6,7,8] = .ok [1, 193, 128, 80, 48, 28, 16] ∧
    unpackSeptets [1, 193, 128, 80, 48, 28, 16] = .ok ([1,2,3,4,5,6,7,8], []) := by decide
example : packSeptets [1,2,3,4,5,6,7,0] = .ok [1, 193, 128, 80, 48, 28, 0] ∧
    unpackSeptets [1, 193, 128, 80, 48, 28, 0] = .ok ([1,2,3,4,5,6,7], []) := by decide

end Gsm
