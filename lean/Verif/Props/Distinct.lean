import Verif.Lemmas.Distinct
import Verif.Lemmas.Octets
import Verif.Props.SubmitRound
import Verif.Props.ModemSend
/-! # C107: two messages look alike on the wire exactly when they are requests for the same -/
namespace Gsm
open Spec

theorem forall₂_common {α β : Type} {R S : α → β → Prop} : ∀ {l : List α} {ps : List β}, List.Forall₂ R l ps → List.Forall₂ S l ps → ∀ i ∈ l, ∃ p ∈ ps, R i p ∧ S i p
  | _, _, .nil, .nil, i, hi => by simp at hi
  | _ :: _, p :: _, .cons h t, .cons h' t', i, hi => by
    rcases List.mem_cons.1 hi with rfl | hi
    · exact ⟨p, by simp, h, h'⟩
    · obtain ⟨q, hq, hh⟩ := forall₂_common t t' i hi
      exact ⟨q, by simp [hq], hh⟩

theorem forall₂_eq {α β : Type} {R S : α → β → Prop} : ∀ {l : List α} {ps qs : List β}, List.Forall₂ R l ps → List.Forall₂ S l qs → (∀ i ∈ l, ∀ p q, R i p → S i q → p = q) → ps = qs
  | _, _, _, .nil, .nil, _ => rfl
  | i :: _, p :: _, q :: _, .cons h t, .cons h' t', hh => by
    rw [hh i (by simp) p q h h', forall₂_eq t t' fun j hj => hh j (by simp [hj])]

theorem slice_take {k n i : Nat} {t : PyStr} (hi : i < n) : slice k (t.take (n * k)) i = slice k t i := by
  unfold slice
  rw [List.drop_take, List.take_take]
  congr 1
  have : (i + 1) * k ≤ n * k := Nat.mul_le_mul_right k hi
  rw [Nat.add_mul] at this
  omega

theorem flatMap_congr_range {f g : Nat → List Nat} {n : Nat} (h : ∀ i < n, f i = g i) : (List.range n).flatMap f = (List.range n).flatMap g := by
  simp only [List.flatMap]
  congr 1
  exact List.map_congr_left fun i hi => h i (List.mem_range.1 hi)

/-- What each part contains. -/
theorem part_text {t : PyStr} {α i : Nat} {r : Int} {h s : List Nat} (hα : chooseAlphabet t = .ok α) (hp : PartOf r t α (partsOf t α) i h s) :
    s = if pieces t = 1 then t else slice (pieceSize t) t i := by
  rw [partsOf_pieces hα] at hp
  unfold PartOf at hp
  by_cases h1 : pieces t = 1
  · rw [if_pos h1] at hp ⊢
    exact hp.2
  · rw [if_neg h1] at hp ⊢
    obtain ⟨_, rfl⟩ := hp
    rw [alphabet_wide hα]
    unfold slice pieceSize
    cases isWide t <;> simp

section
variable [PyUnicode]

/-- Two requests that are both encoded give the same PDUs exactly when they ask for the same: the same destination and
service centre, the same validity (among those that can be stated), the same reference and flags, the same alphabet, the
same number of parts and the same characters in them. -/
theorem C107_exact {a b : Request} {ps qs : List Pdu} (ha : a.encode = .ok ps) (hb : b.encode = .ok qs) (na : a.NoEscape) (nb : b.NoEscape) (sa : Statable a.validity)
    (sb : Statable b.validity) : ps = qs ↔ SameRequest a b := by
  have hoct := encode_octets ha
  obtain ⟨v, x, α, h1, h2, h3⟩ := encodeSmsSubmitPdu_ok_iff.1 ha
  obtain ⟨w, y, β, g1, g2, g3⟩ := encodeSmsSubmitPdu_ok_iff.1 hb
  have cnt : ∀ {t : PyStr} {γ : Nat}, chooseAlphabet t = .ok γ → (partsOf t γ).getD 1 = pieces t ∧ ((partsOf t γ).isSome = true ↔ pieces t ≠ 1) := by
    intro t γ ht
    rw [partsOf_pieces ht]
    by_cases h : pieces t = 1 <;> simp [h]
  have pos : ∀ t : PyStr, 0 < pieces t := by intro t; unfold pieces; split <;> simp
  constructor
  · rintro rfl
    have hn : pieces a.text = pieces b.text := by
      have q1 := h3.length_eq
      have q2 := g3.length_eq
      rw [List.length_range] at q1 q2
      rw [← (cnt h2).1, ← (cnt g2).1, q1, q2]
    have hcom : ∀ i < pieces a.text, ∃ p ∈ ps, _ ∧ _ := fun i hi => by
      rw [(cnt h2).1] at h3
      rw [(cnt g2).1, ← hn] at g3
      exact forall₂_common h3 g3 i (List.mem_range.2 hi)
    obtain ⟨p, hp, r1, r2⟩ := hcom 0 (pos _)
    obtain ⟨e1, e2, e3, e4, e5, e6, e7, e8, e9, _⟩ := part_unique na nb sa sb h1 g1 h2 g2 r1 r2 (hoct p hp)
    refine ⟨e1, e2, e3, e4, e5, e6, e7, e8, hn, ?_⟩
    have hsl : ∀ i < pieces a.text, (if pieces a.text = 1 then a.text else slice (pieceSize a.text) a.text i) = if pieces b.text = 1 then b.text else slice (pieceSize b.text) b.text i := by
      intro i hi
      obtain ⟨p, hp, r1, r2⟩ := hcom i hi
      obtain ⟨_, _, _, _, _, _, _, _, _, s, u, ⟨_, k1⟩, ⟨_, k2⟩, rfl⟩ := part_unique na nb sa sb h1 g1 h2 g2 r1 r2 (hoct p hp)
      rw [← part_text h2 k1, ← part_text g2 k2]
    unfold conveyed
    rw [← hn] at hsl ⊢
    by_cases h1 : pieces a.text = 1
    · have := hsl 0 (pos _)
      simpa [h1] using this
    · simp only [h1, if_false] at hsl ⊢
      rw [← slices_join, ← slices_join]
      exact flatMap_congr_range hsl
  · intro S
    have hαβ : α = β := by rw [alphabet_wide h2, alphabet_wide g2, S.wide]
    subst hαβ
    have hparts : partsOf a.text α = partsOf b.text α := by rw [partsOf_pieces h2, partsOf_pieces g2, S.pieces]
    rw [(cnt h2).1] at h3
    rw [(cnt g2).1, ← S.pieces] at g3
    refine forall₂_eq h3 g3 fun i hi p q hp hq => ?_
    obtain ⟨sca, mr, da, vp, h, s, ud, c1, c2, c3, c4, c5, c6, rfl⟩ := submitPart_ok_iff.1 hp
    obtain ⟨sca', mr', da', vp', h', s', ud', d1, d2, d3, d4, d5, d6, rfl⟩ := submitPart_ok_iff.1 hq
    have e1 := smsc_congr c1 d1 S.smsc
    have e2 := field_congr c4 d4 S.number
    obtain ⟨e3, e4⟩ := validity_congr sa sb h1 g1 c5 d5 S.validity
    have e5 : s = s' := by
      have t1 := part_text h2 c2
      have t2 := part_text g2 d2
      have := S.text
      unfold conveyed at this
      rw [← S.pieces] at this t2
      have hk : pieceSize b.text = pieceSize a.text := by unfold pieceSize; rw [S.wide]
      rw [hk] at this t2
      by_cases h1 : pieces a.text = 1
      · simp only [h1, if_true] at t1 t2 this
        rw [t1, t2, this]
      · simp only [h1, if_false] at t1 t2 this
        rw [t1, t2, ← slice_take (List.mem_range.1 hi), this, slice_take (List.mem_range.1 hi)]
    have e6 : h = h' := by
      rw [hparts] at c2
      unfold PartOf at c2 d2
      rw [S.reference] at c2
      cases hq : partsOf b.text α with
      | none => rw [hq] at c2 d2; rw [c2.1, d2.1]
      | some n =>
        rw [hq] at c2 d2
        have := c2.1.symm.trans d2.1
        cases this
        rfl
    rw [S.reference] at c3
    have e7 : mr = mr' := by have := c3.symm.trans d3; cases this; rfl
    subst e5 e6
    have e8 : ud = ud' := by have := c6.symm.trans d6; cases this; rfl
    subst e1 e2 e3 e4 e7 e8
    rw [S.rejectDuplicates, S.report, S.flash, hparts]

theorem phone_destination {a b d e : PyStr} (ha : Phone a d) (hb : Phone b e) : destinationOf a = destinationOf b ↔ a = b := by
  refine ⟨fun h => ?_, fun h => by rw [h]⟩
  have hall : ∀ {d : PyStr}, IsDigits d → d ≠ [] → AllDigits d := fun hd hn => ⟨hn, fun c hc => by
    have := hd c hc
    rw [PyUnicode.isdigit_ascii c (by omega)]; simpa using this⟩
  have inj : ∀ {d e : PyStr}, IsDigits d → IsDigits e → digitValues d = digitValues e → d = e := by
    intro d
    induction d with
    | nil => intro e _ _ h; cases e with
      | nil => rfl
      | cons => simp [digitValues] at h
    | cons c d ih =>
      intro e hd he h
      cases e with
      | nil => simp [digitValues] at h
      | cons x e =>
        simp only [digitValues, List.map_cons, List.cons.injEq] at h
        have h1 := hd c (by simp)
        have h2 := he x (by simp)
        rw [PyUnicode.decimal_ascii c (by omega), PyUnicode.decimal_ascii x (by omega), if_pos h1, if_pos h2] at h
        simp only [Option.getD_some] at h
        rw [ih (fun y hy => hd y (by simp [hy])) (fun y hy => he y (by simp [hy])) h.2, show c = x by omega]
  cases ha with
  | loc h1 h2 =>
    cases hb with
    | loc h3 h4 =>
      rw [destination_loc (hall h1 h2), destination_loc (hall h3 h4)] at h
      injection h with h
      exact inj h1 h3 h
    | intl h3 h4 =>
      rw [destination_loc (hall h1 h2), destination_intl (hall h3 h4)] at h
      cases h
  | intl h1 h2 =>
    cases hb with
    | loc h3 h4 =>
      rw [destination_intl (hall h1 h2), destination_loc (hall h3 h4)] at h
      cases h
    | intl h3 h4 =>
      rw [destination_intl (hall h1 h2), destination_intl (hall h3 h4)] at h
      injection h with h
      rw [inj h1 h3 h]

omit [PyUnicode] in
theorem phone_no_escape {a d : PyStr} (h : Phone a d) : 27 ∉ a := by
  cases h with
  | loc h _ => intro hm; have := h 27 hm; omega
  | intl h _ =>
    intro hm
    rcases List.mem_cons.1 hm with h' | h'
    · omega
    · have := h 27 h'; omega

/-- Between telephone numbers, with texts of which nothing is lost: the same PDUs are only given for the same number,
text, reference and options. -/
theorem C107_telephones {a b : Request} {d e : PyStr} {ps qs : List Pdu} (ha : a.encode = .ok ps) (hb : b.encode = .ok qs) (pa : Phone a.number d) (pb : Phone b.number e)
    (ta : 27 ∉ a.text) (tb : 27 ∉ b.text) (ca : conveyed a.text = a.text) (cb : conveyed b.text = b.text) (sa : a.smsc = none) (sb : b.smsc = none)
    (va : a.validity = .none) (vb : b.validity = .none) : ps = qs ↔ a = b := by
  rw [C107_exact ha hb ⟨ta, phone_no_escape pa, by simp [sa]⟩ ⟨tb, phone_no_escape pb, by simp [sb]⟩ (by rw [va]; trivial) (by rw [vb]; trivial)]
  constructor
  · rintro ⟨h1, _, _, h4, h5, h6, h7, _, _, h10⟩
    rw [phone_destination pa pb] at h1
    rw [ca, cb] at h10
    cases a; cases b
    simp_all
  · rintro rfl
    exact ⟨rfl, rfl, by rw [va]; trivial, rfl, rfl, rfl, rfl, rfl, rfl, rfl⟩

/-! ### On the line -/

omit [PyUnicode] in
theorem hexUpper_inj : ∀ a < 16, ∀ b < 16, hexUpper a = hexUpper b → a = b := by decide +kernel

omit [PyUnicode] in
theorem pduHex_inj : ∀ {a b : List Nat}, (∀ x ∈ a, x < 256) → (∀ x ∈ b, x < 256) → pduHex a = pduHex b → a = b
  | [], [], _, _, _ => rfl
  | [], y :: b, _, _, h => by simp [pduHex] at h
  | x :: a, [], _, _, h => by simp [pduHex] at h
  | x :: a, y :: b, ha, hb, h => by
    simp only [pduHex, List.flatMap_cons, List.cons_append, List.nil_append, List.cons.injEq] at h
    have hx := ha x (by simp)
    have hy := hb y (by simp)
    have h1 := hexUpper_inj _ (by omega) _ (by omega) h.1
    have h2 := hexUpper_inj _ (by omega) _ (by omega) h.2.1
    rw [pduHex_inj (fun z hz => ha z (by simp [hz])) (fun z hz => hb z (by simp [hz])) h.2.2, show x = y by omega]

theorem encoded_length {a : Request} {ps : List Pdu} (h : a.encode = .ok ps) : ∀ p ∈ ps, p.tpduLength = p.data.length - 1 := by
  obtain ⟨_, _, _, _, _, h3⟩ := encodeSmsSubmitPdu_ok_iff.1 h
  intro p hp
  obtain ⟨i, _, hi⟩ := forall₂_mem_right h3 hp
  obtain ⟨_, _, _, _, _, _, _, _, _, _, _, _, _, rfl⟩ := submitPart_ok_iff.1 hi
  rfl

omit [PyUnicode] in
theorem commands_inj : ∀ {ps qs : List Pdu}, (∀ p ∈ ps, p.tpduLength = p.data.length - 1 ∧ ∀ x ∈ p.data, x < 256) → (∀ p ∈ qs, p.tpduLength = p.data.length - 1 ∧ ∀ x ∈ p.data, x < 256) →
    ps.flatMap pduCommands = qs.flatMap pduCommands → ps = qs
  | [], [], _, _, _ => rfl
  | [], q :: qs, _, _, h => by simp [pduCommands] at h
  | p :: ps, [], _, _, h => by simp [pduCommands] at h
  | p :: ps, q :: qs, hp, hq, h => by
    simp only [List.flatMap_cons, pduCommands, List.cons_append, List.nil_append, List.cons.injEq] at h
    have h1 := pduHex_inj (hp p (by simp)).2 (hq q (by simp)).2 (List.append_cancel_right h.2.1)
    have h2 : p = q := by
      have e1 := (hp p (by simp)).1
      have e2 := (hq q (by simp)).1
      cases p; cases q
      simp only at h1 e1 e2
      subst h1
      rw [e1, e2]
    rw [h2, commands_inj (fun x hx => hp x (by simp [hx])) (fun x hx => hq x (by simp [hx])) h.2.2]

/-- The commands that `sendSms` is to give in PDU mode (C38) are the same exactly when the requests are. -/
theorem C107_commands {a b : Request} {ps qs : List Pdu} (ha : a.encode = .ok ps) (hb : b.encode = .ok qs) (na : a.NoEscape) (nb : b.NoEscape) (sa : Statable a.validity)
    (sb : Statable b.validity) : ps.flatMap pduCommands = qs.flatMap pduCommands ↔ SameRequest a b := by
  rw [← C107_exact ha hb na nb sa sb]
  exact ⟨commands_inj (fun p hp => ⟨encoded_length ha p hp, encode_octets ha p hp⟩) fun p hp => ⟨encoded_length hb p hp, encode_octets hb p hp⟩, fun h => by rw [h]⟩

omit [PyUnicode] in
/-- In text mode (C38) they are the same only for the same number and text. -/
theorem C107_text_mode {n m t u : PyStr} : [py!"AT+CMGS=\"" ++ n ++ py!"\"" ++ [13], t ++ [26]] = [py!"AT+CMGS=\"" ++ m ++ py!"\"" ++ [13], u ++ [26]] ↔ n = m ∧ t = u := by
  constructor
  · intro h
    simp only [List.cons.injEq, and_true] at h
    exact ⟨List.append_cancel_left (List.append_cancel_right (List.append_cancel_right h.1)), List.append_cancel_right h.2⟩
  · rintro ⟨rfl, rfl⟩; rfl

end

/-! ### Examples -/
section
attribute [local instance] asciiUnicode

/-- A request with nothing special. -/
def plainRequest (number text : PyStr) : Request := ⟨number, text, 0, .none, none, false, true, false⟩

/-- The same number with and without '+' is not the same destination. -/
example : (plainRequest py!"+2782" py!"Hi").encode = .ok [⟨[0, 5, 0, 4, 0x91, 0x72, 0x28, 0, 0, 2, 0xC8, 0x34], 11⟩] ∧
    (plainRequest py!"2782" py!"Hi").encode = .ok [⟨[0, 5, 0, 4, 0xA1, 0x72, 0x28, 0, 0, 2, 0xC8, 0x34], 11⟩] ∧
    ¬ SameRequest (plainRequest py!"+2782" py!"Hi") (plainRequest py!"2782" py!"Hi") :=
  ⟨by decide +kernel, by decide +kernel, fun h => absurd h.number (by decide +kernel)⟩

/-- Half an hour and 31 minutes are the same: periods are stated in steps of five minutes. -/
example : SameRequest { plainRequest py!"+2782" py!"Hi" with validity := .relative ⟨0, 1800, 0⟩ } { plainRequest py!"+2782" py!"Hi" with validity := .relative ⟨0, 1860, 0⟩ } ∧
    { plainRequest py!"+2782" py!"Hi" with validity := .relative ⟨0, 1800, 0⟩ }.encode = .ok [⟨[0, 0x15, 0, 4, 0x91, 0x72, 0x28, 0, 0, 5, 2, 0xC8, 0x34], 12⟩] ∧
    { plainRequest py!"+2782" py!"Hi" with validity := .relative ⟨0, 1860, 0⟩ }.encode = .ok [⟨[0, 0x15, 0, 4, 0x91, 0x72, 0x28, 0, 0, 5, 2, 0xC8, 0x34], 12⟩] :=
  ⟨⟨rfl, rfl, (by show ∀ x < 256, _; decide +kernel), rfl, rfl, rfl, rfl, rfl, rfl, rfl⟩, by decide +kernel, by decide +kernel⟩

/-- Texts of 160 characters, and of two parts, are conveyed whole. -/
example : conveyed (List.replicate 160 97) = List.replicate 160 97 ∧ conveyed (List.replicate 306 97) = List.replicate 306 97 ∧
    conveyed (List.replicate 134 0x444) = List.replicate 134 0x444 := by decide +kernel

/-- Different names, the same message: a final '@' that fills the last octet looks like the padding. -/
theorem C107_names_violated : (plainRequest py!"ABCDEFG" py!"Hi").number ≠ (plainRequest py!"ABCDEFG@" py!"Hi").number ∧
    SameRequest (plainRequest py!"ABCDEFG" py!"Hi") (plainRequest py!"ABCDEFG@" py!"Hi") ∧
    (plainRequest py!"ABCDEFG" py!"Hi").encode = .ok [⟨[0, 5, 0, 14, 0xD0, 0x41, 0xE1, 0x90, 0x58, 0x34, 0x1E, 1, 0, 0, 2, 0xC8, 0x34], 16⟩] ∧
    (plainRequest py!"ABCDEFG@" py!"Hi").encode = .ok [⟨[0, 5, 0, 14, 0xD0, 0x41, 0xE1, 0x90, 0x58, 0x34, 0x1E, 1, 0, 0, 2, 0xC8, 0x34], 16⟩] :=
  ⟨by decide, ⟨by decide +kernel, rfl, trivial, rfl, rfl, rfl, rfl, rfl, rfl, rfl⟩, by decide +kernel, by decide +kernel⟩

/-- 306 times 'a', and another character. -/
def longText (c : Nat) : PyStr := List.replicate 306 97 ++ [c]

set_option maxRecDepth 8000 in
/-- Different texts, the same message: of 307 characters the last has no place in the two parts. -/
theorem C107_long_violated : longText 98 ≠ longText 99 ∧ (plainRequest py!"+2782" (longText 98)).encode = (plainRequest py!"+2782" (longText 99)).encode ∧
    ((plainRequest py!"+2782" (longText 98)).encode.toOption.map List.length = some 2) ∧ SameRequest (plainRequest py!"+2782" (longText 98)) (plainRequest py!"+2782" (longText 99)) :=
  ⟨by decide +kernel, by decide +kernel, by decide +kernel, ⟨rfl, rfl, trivial, rfl, rfl, rfl, rfl, by decide +kernel, by decide +kernel, by decide +kernel⟩⟩

/-- With an escape character in the text: ESC and 'e' is what the euro sign is sent as. -/
theorem C107_escape_violated : (plainRequest py!"+2782" [27, 101]).encode = (plainRequest py!"+2782" [0x20AC]).encode ∧
    (plainRequest py!"+2782" [27, 101]).encode = .ok [⟨[0, 5, 0, 4, 0x91, 0x72, 0x28, 0, 0, 2, 0x9B, 0x32], 11⟩] ∧
    ¬ SameRequest (plainRequest py!"+2782" [27, 101]) (plainRequest py!"+2782" [0x20AC]) :=
  ⟨by decide +kernel, by decide +kernel, fun h => absurd h.text (by decide +kernel)⟩

/-- Two zones that state the same quarter of an hour, but on different sides of Greenwich, are told apart. -/
example : stated ⟨2020, 1, 1, 0, 0, 0, 0, some (.ofSeconds 0)⟩ = stated ⟨2020, 1, 1, 0, 0, 0, 0, some (.ofSeconds (-1))⟩ ∧
    { plainRequest py!"+2782" py!"Hi" with validity := .absolute ⟨2020, 1, 1, 0, 0, 0, 0, some (.ofSeconds 0)⟩ }.encode =
      .ok [⟨[0, 0x1D, 0, 4, 0x91, 0x72, 0x28, 0, 0, 2, 0x10, 0x10, 0, 0, 0, 0, 2, 0xC8, 0x34], 18⟩] ∧
    { plainRequest py!"+2782" py!"Hi" with validity := .absolute ⟨2020, 1, 1, 0, 0, 0, 0, some (.ofSeconds (-1))⟩ }.encode =
      .ok [⟨[0, 0x1D, 0, 4, 0x91, 0x72, 0x28, 0, 0, 2, 0x10, 0x10, 0, 0, 0, 8, 2, 0xC8, 0x34], 18⟩] := by decide +kernel

end
end Gsm
