import Verif.Lemmas.SubmitRound
import Verif.Props.Submit
/-! # Lemmas: the octets of an SMS-SUBMIT PDU are octets -/
namespace Gsm
open Spec

theorem hexVal_lt {c d : Nat} (h : hexVal? c = some d) : d < 16 := by
  unfold hexVal? at h
  split at h
  · cases h; omega
  · split at h
    · cases h; omega
    · split at h
      · cases h; omega
      · cases h

theorem digit16_lt [PyUnicode] {c d : Nat} (h : digit16? c = some d) : d < 16 := by
  unfold digit16? at h
  cases hc : hexVal? c with
  | some x => rw [hc] at h; cases h; exact hexVal_lt hc
  | none => rw [hc] at h; have := PyUnicode.decimal_le c d h; omega

theorem semiOctetPairs_lt [PyUnicode] : ∀ {s os : List Nat}, semiOctetPairs s = .ok os → ∀ x ∈ os, x < 256
  | [], os, h => by simp [semiOctetPairs] at h; simp [h]
  | [a], os, h => by simp [semiOctetPairs] at h; simp [h]
  | a :: b :: s, os, h => by
    rw [semiOctetPairs] at h
    split at h
    · rename_i hi lo h1 h2
      simp only [except_bind_ok, pure, Except.pure, Except.ok.injEq] at h
      obtain ⟨r, hr, rfl⟩ := h
      have := digit16_lt h1
      have := digit16_lt h2
      intro x hx
      rcases List.mem_cons.1 hx with rfl | hx
      · omega
      · exact semiOctetPairs_lt hr x hx
    · cases h

theorem packSeptets_lt {os out : List Nat} {p : Nat} (h : packSeptets os p = .ok out) (ho : ∀ x ∈ os, x < 128) : ∀ x ∈ out, x < 256 := by
  unfold packSeptets at h
  split at h
  · split at h
    · cases h
    · cases h; exact packLoop_lt _ (ho _ (by simp))
  · cases h; exact packLoop_lt _ (by omega)

theorem encodeUcs2_lt {t : PyStr} : ∀ {os : List Nat}, encodeUcs2 t = .ok os → ∀ x ∈ os, x < 256 := by
  induction t with
  | nil => intro os h; simp only [encodeUcs2, Except.ok.injEq] at h; subst h; simp
  | cons c t ih =>
    intro os h
    rw [encodeUcs2] at h
    simp only [except_bind_ok, pure, Except.pure, Except.ok.injEq] at h
    obtain ⟨hi, h1, lo, h2, r, h3, rfl⟩ := h
    have k1 := (byteOf_eq_ok.1 h1).1
    have k2 := (byteOf_eq_ok.1 h2).1
    have k1' := (byteOf_eq_ok.1 h1).2
    have k2' := (byteOf_eq_ok.1 h2).2
    intro x hx
    rcases List.mem_cons.1 hx with rfl | hx
    · generalize ((c >>> 8 : Nat) : Int) = z at *; omega
    · rcases List.mem_cons.1 hx with rfl | hx
      · generalize ((c &&& 0xFF : Nat) : Int) = z at *; omega
      · exact ih h3 x hx

theorem addressField_lt [PyUnicode] {a : PyStr} {b : Bool} {f : List Nat} (h : encodeAddressField a b = .ok f) : ∀ x ∈ f, x < 256 := by
  unfold encodeAddressField at h
  simp only [except_bind_ok] at h
  obtain ⟨⟨toa, ad, al⟩, h1, h⟩ := h
  have ht : toa < 256 := by
    unfold classifyAddress at h1
    dsimp only at h1
    split at h1
    · split at h1 <;> (cases h1; decide)
    · split at h1
      · cases h1
      · split at h1 <;> (cases h1; decide)
  dsimp only at h
  have key : ∀ {n : Nat} {v : List Nat} {k : Int}, byteOf k = .ok n → (∀ x ∈ v, x < 256) → ∀ x ∈ n :: toa :: v, x < 256 := by
    intro n v k hn hv x hx
    have := byteOf_eq_ok.1 hn
    rcases List.mem_cons.1 hx with rfl | hx
    · omega
    · rcases List.mem_cons.1 hx with rfl | hx
      · omega
      · exact hv x hx
  cases al with
  | true =>
    simp only [if_true, except_bind_ok, pure, Except.pure, Except.ok.injEq] at h
    obtain ⟨se, h2, v, h3, n, h4, rfl⟩ := h
    exact key h4 (packSeptets_lt h3 (encodeGsm7_lt h2))
  | false =>
    simp only [Bool.false_eq_true, if_false, except_bind_ok, pure, Except.pure, Except.ok.injEq] at h
    obtain ⟨v, h3, n, h4, rfl⟩ := h
    exact key h4 (semiOctetPairs_lt h3)

theorem concatenation_lt {r p n : Int} {os : List Nat} (h : encodeConcatenation r p n = .ok os) : ∀ x ∈ os, x < 256 := by
  have key : ∀ {l : List Int}, bytesOf l = .ok os → ∀ x ∈ os, x < 256 := by
    intro l hl x hx
    obtain ⟨h1, rfl⟩ := bytesOf_ok_iff.1 hl
    obtain ⟨y, hy, rfl⟩ := List.mem_map.1 hx
    have := h1 y hy
    omega
  unfold encodeConcatenation at h
  split at h <;> exact key h

theorem userDataPart_lt {alphabet : Nat} {ptext : PyStr} {udh out : List Nat} (h : userDataPart alphabet ptext udh = .ok out)
    (hu : ∀ x ∈ udh, x < 256) : ∀ x ∈ out, x < 256 := by
  obtain ⟨udl, body, rfl, h1, h2, h3⟩ := userDataPart_ok h
  have hb : ∀ x ∈ body, x < 256 := by
    rcases h3 with ⟨_, os, h4, h5, _⟩ | ⟨_, h4, _⟩
    · exact packSeptets_lt h5 (encodeGsm7_lt h4)
    · exact encodeUcs2_lt h4
  intro x hx
  rcases List.mem_cons.1 hx with rfl | hx
  · exact h1
  · split at hx
    · exact hb x hx
    · rename_i hne
      simp only [List.mem_cons, List.mem_append, List.cons_append] at hx
      rcases hx with rfl | hx | hx
      · exact h2 hne
      · exact hu x hx
      · exact hb x hx

/-- All the octets of the PDUs fit into octets. -/
theorem encode_octets [PyUnicode] {number text : PyStr} {reference : Int} {validity : Validity} {smsc : Option PyStr} {srr rd flash : Bool} {ps : List Pdu}
    (h : encodeSmsSubmitPdu number text reference validity smsc srr rd flash = .ok ps) : ∀ p ∈ ps, ∀ x ∈ p.data, x < 256 := by
  obtain ⟨vbits, vpi, alphabet, h1, h2, h3⟩ := encodeSmsSubmitPdu_ok_iff.1 h
  intro p hp
  obtain ⟨i, _, hi⟩ := forall₂_mem_right h3 hp
  obtain ⟨sca, mr, da, vp, udh, ptext, ud, e1, e2, e3, e4, e5, e6, rfl⟩ := submitPart_ok_iff.1 hi
  have hsca : ∀ x ∈ sca, x < 256 := by
    unfold smscField at e1
    split at e1
    · cases e1; simp
    · cases e1; simp
    · exact addressField_lt e1
  have hmr := byteOf_eq_ok.1 e3
  have hvp : ∀ x ∈ vp, x < 256 := by
    intro x hx
    obtain ⟨k1, rfl⟩ := bytesOf_ok_iff.1 e5
    obtain ⟨y, hy, rfl⟩ := List.mem_map.1 hx
    have := k1 y hy
    omega
  have hudh : ∀ x ∈ udh, x < 256 := by
    cases hpt : partsOf text alphabet with
    | none => rw [hpt] at e2; rw [e2.1]; simp
    | some n => rw [hpt] at e2; exact concatenation_lt e2.1
  have hfo : foOf vbits rd srr (partsOf text alphabet).isSome < 256 := by
    have : vbits = 0 ∨ vbits = 0x10 ∨ vbits = 0x18 := by
      rcases validityPart_ok h1 with ⟨rfl, rfl, _⟩ | ⟨t, x, rfl, _, rfl, _⟩ | ⟨t, x, rfl, _, rfl, _⟩ <;> simp
    rcases this with rfl | rfl | rfl <;> cases rd <;> cases srr <;> cases (partsOf text alphabet).isSome <;> decide
  have hdcs : dcsOf flash alphabet < 256 := by
    have : alphabet = 0 ∨ alphabet = 8 := by
      unfold chooseAlphabet at h2
      split at h2
      · cases h2; exact .inl rfl
      · cases h2; exact .inr rfl
      · cases h2
    rcases this with rfl | rfl <;> cases flash <;> decide
  intro x hx
  simp only [List.mem_append, List.mem_cons] at hx
  rcases hx with ((hx | rfl | rfl | hx) | rfl | rfl | hx) | hx
  · exact hsca x hx
  · exact hfo
  · omega
  · exact addressField_lt e4 x hx
  · omega
  · exact hdcs
  · exact hvp x hx
  · exact userDataPart_lt e6 hudh x hx

end Gsm
