import Verif.Spec.Reply
import Verif.Model.Reply
import Verif.Lemmas.Across
import Verif.Lemmas.Sendable
/-! # Lemmas: to whom an answer goes -/
namespace Gsm
open Spec

theorem stream8_inj : ∀ {a b : List Nat}, (∀ x ∈ a, x < 256) → (∀ x ∈ b, x < 256) → stream 8 a = stream 8 b → a = b
  | [], [], _, _, _ => rfl
  | [], y :: b, _, _, h => by have := congrArg List.length h; simp at this; omega
  | x :: a, [], _, _, h => by have := congrArg List.length h; simp at this
  | x :: a, y :: b, ha, hb, h => by
    simp only [stream_cons] at h
    obtain ⟨h1, h2⟩ := List.append_inj h (by simp)
    rw [bits_inj (w := 8) (ha x (by simp)) (hb y (by simp)) h1, stream8_inj (fun z hz => ha z (by simp [hz])) (fun z hz => hb z (by simp [hz])) h2]

theorem packed_unique {code a b : List Nat} (h1 : Packed 0 code a) (h2 : Packed 0 code b) : a = b := by
  obtain ⟨a1, k1, l1, s1⟩ := h1
  obtain ⟨a2, k2, l2, s2⟩ := h2
  have e1 := congrArg List.length s1
  have e2 := congrArg List.length s2
  simp at e1 e2
  have : k1 = k2 := by omega
  subst this
  exact stream8_inj a1 a2 (s1.trans s2.symm)

theorem name_not_number {len toa l toa' : Nat} {ud os : List Nat} (h1 : toa / 16 % 8 = 5) (h2 : toa' / 16 % 8 ≠ 5) : ¬ SameParty (len :: toa :: ud) (l :: toa' :: os) := by
  intro hp
  generalize ha : len :: toa :: ud = a at hp
  generalize hb : l :: toa' :: os = b at hp
  cases hp with
  | number g1 =>
    simp only [List.cons.injEq] at ha
    rw [← ha.2.1] at g1
    exact g1 h1
  | name g1 g2 =>
    simp only [List.cons.injEq] at hb
    rw [← hb.2.1] at g2
    exact h2 g2

section
variable [PyUnicode]

theorem not_looks {s : PyStr} (h : ¬ LooksLikeNumber s) : isDigitStr s = false ∧ ∀ r, s = 43 :: r → isDigitStr r = false := by
  refine ⟨?_, fun r hr => ?_⟩
  · rw [← Bool.not_eq_true, isDigitStr_iff]; exact fun h' => h (.inl h')
  · rw [← Bool.not_eq_true, isDigitStr_iff]; exact fun h' => h (.inr ⟨r, hr, h'⟩)

/-- The field that is made of the sender as the library reads it. -/
theorem answer_field {n seen : PyStr} {oa da : List Nat} (hs : Sender n oa seen) (h : encodeAddressField seen = .ok da) :
    SameParty oa da ↔ (NameField oa → ¬ LooksLikeNumber seen) := by
  cases hs with
  | @digits toa ds h1 h2 h3 h4 h5 =>
    have hno : ¬ NameField (ds.length :: toa :: bcd ds) := by
      rintro ⟨_, _, _, e, h5⟩
      simp only [List.cons.injEq] at e
      rw [← e.2.1] at h5
      exact h2 h5
    refine ⟨fun _ hn => absurd hn hno, fun _ => ?_⟩
    have key : ∀ {num toa'}, classifyAddress num = .ok (toa', ds, false) → encodeAddressField num = .ok da → toa' / 16 % 8 ≠ 5 → (toa / 16 % 8 = 1 ↔ toa' / 16 % 8 = 1) →
        SameParty (ds.length :: toa :: bcd ds) da := by
      intro num toa' hc he g1 g2
      obtain ⟨l, os, e1, e2, rfl⟩ := digits_field_eq hc he
      obtain rfl : l = ds.length := by
        have := byteOf_eq_ok.1 e2
        simp only [Bool.false_eq_true, if_false] at this
        omega
      have : os = bcd ds := by
        rw [encodeSemiOctets_digits h3] at e1
        rw [← Except.ok.inj e1, bcd_eq]
      rw [this]
      exact .number h2 g1 g2 h3 h4
    split at h
    · next h1 => exact key (classify_intl h3 h4) h (by decide) (by simp [h1])
    · next h1 => exact key (classify_local h3 h4) h (by decide) (by simp [h1])
  | @name toa t code ud len h1 h2 h3 h4 h5 h6 h7 =>
    have hn : NameField (len :: toa :: ud) := ⟨_, _, _, rfl, h2⟩
    by_cases hl : LooksLikeNumber (trimAt (code.length % 8 = 0) n)
    · refine ⟨fun hp => ?_, fun h => absurd hl (h hn)⟩
      have : ∃ l toa' os, da = l :: toa' :: os ∧ toa' / 16 % 8 ≠ 5 := by
        rcases hl with hl | ⟨r, hr, hl⟩
        · obtain ⟨l, os, _, _, rfl⟩ := digits_field_eq (classify_digits hl) h
          exact ⟨_, _, _, rfl, by decide⟩
        · rw [hr] at h
          obtain ⟨l, os, _, _, rfl⟩ := digits_field_eq (classify_plus hl) h
          exact ⟨_, _, _, rfl, by decide⟩
      obtain ⟨l, toa', os, rfl, h8⟩ := this
      exact absurd hp (name_not_number h2 h8)
    · refine ⟨fun _ _ => hl, fun _ => ?_⟩
      obtain ⟨d1, d2⟩ := not_looks hl
      have hne : trimAt (code.length % 8 = 0) n ≠ [] := by
        intro h0; rw [h0] at h; simp [encodeAddressField, classifyAddress, isAlnumStr, bind, Except.bind] at h
      obtain ⟨os, out, l, e1, e2, e3, rfl⟩ := alpha_field_eq (classify_alpha hne d1 d2) h
      have henc := (readable_encode h4).1
      have hc : code.length = septetCount n := encodeGsm7_count henc
      have hp : packSeptets code = .ok out := by
        rw [← e2]
        refine name_packs henc e1 ?_
        rw [hc]
        rcases trim_cases (t := n) with ⟨u, f1, f2, f3, f4⟩ | f1
        · rw [f3]; unfold trimAt; rw [if_neg (by omega)]
        · rw [f1, f1]
      obtain ⟨out', q1, q2, q3, -⟩ := C03_pack_stream (p := 0) (by omega) (fun _ => encodeGsm7_ne_nil henc h3) (readable_lt h4)
      rw [hp] at q1
      cases q1
      have := packed_unique h5 ⟨q2, by simpa [fillBits] using q3⟩
      subst this
      have hb := byteOf_eq_ok.1 e3
      exact .name h2 (by decide) h7 (by omega)

end

end Gsm
