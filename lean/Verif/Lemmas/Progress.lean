import Verif.Spec.Progress
import Verif.Lemmas.ModemText
import Verif.Lemmas.Notify
import Verif.Lemmas.Polling
/-! # The patterns of call updates -/
namespace Gsm
open M Spec

variable {env : Env}

theorem bare_iff {p line : PyStr} {g : List PyStr} : rxGroups (rxLit p ++ [.eol]) line = some g ↔ g = [] ∧ ∃ t, line = p ++ t ∧ LineEnd t := by
  unfold rxGroups rxMatch?
  rw [Option.map_eq_some_iff]
  constructor
  · rintro ⟨⟨g', r⟩, h, rfl⟩
    obtain ⟨s1, rfl, h1⟩ := rxRun_lit_some h
    obtain ⟨hend, h2⟩ := rxRun_eol_some h1
    simp only [rxRun_nil, Option.some.injEq, Prod.mk.injEq] at h2
    exact ⟨h2.1.symm, s1, rfl, hend⟩
  · rintro ⟨rfl, t, rfl, ht⟩
    refine ⟨([], t), ?_, rfl⟩
    rw [rxRun_lit, rxRun_eol ht, rxRun_nil]

theorem rxRun_comma (is : List Rx) (s : PyStr) (cap : Caps) : rxRun (rxLit py!"," ++ is) (44 :: s) cap = rxRun is s ⟨cap.done, cap.cur ++ [44]⟩ :=
  rxRun_lit [44] is s cap

theorem digit_split {c : Nat} (h : isD c = true) : ∃ a, a ≤ 9 ∧ c = 48 + a := by
  have := isD_iff.1 h
  exact ⟨c - 48, by omega, by omega⟩

theorem digit_is {a : Nat} (h : a ≤ 9) : isD (48 + a) = true := isD_iff.2 ⟨by omega, by omega⟩

theorem one_iff {p line : PyStr} {g : List PyStr} : rxGroups (rxLit p ++ rxGrp [.ch isD] ++ [.eol]) line = some g ↔
    ∃ a t, a ≤ 9 ∧ g = [[48 + a]] ∧ line = p ++ ([48 + a] ++ t) ∧ LineEnd t := by
  unfold rxGroups rxMatch? rxGrp
  rw [Option.map_eq_some_iff]
  simp only [List.append_assoc, List.cons_append, List.nil_append]
  constructor
  · rintro ⟨⟨g', r⟩, h, rfl⟩
    obtain ⟨s1, rfl, h1⟩ := rxRun_lit_some h
    rw [rxRun_op] at h1
    obtain ⟨c, s2, rfl, hc, h2⟩ := rxRun_ch_some h1
    rw [rxRun_cl] at h2
    obtain ⟨hend, h3⟩ := rxRun_eol_some h2
    simp only [rxRun_nil, List.nil_append, Option.some.injEq, Prod.mk.injEq] at h3
    obtain ⟨a, ha, rfl⟩ := digit_split hc
    exact ⟨a, s2, ha, h3.1.symm, rfl, hend⟩
  · rintro ⟨a, t, ha, rfl, rfl, ht⟩
    refine ⟨([[48 + a]], t), ?_, rfl⟩
    rw [rxRun_lit, rxRun_op, rxRun_ch (digit_is ha), rxRun_cl, rxRun_eol ht, rxRun_nil]
    rfl

theorem two_iff {p line : PyStr} {g : List PyStr} : rxGroups (rxLit p ++ rxGrp [.ch isD] ++ rxLit py!"," ++ rxGrp [.ch isD] ++ [.eol]) line = some g ↔
    ∃ a b t, a ≤ 9 ∧ b ≤ 9 ∧ g = [[48 + a], [48 + b]] ∧ line = p ++ ([48 + a] ++ (py!"," ++ ([48 + b] ++ t))) ∧ LineEnd t := by
  unfold rxGroups rxMatch? rxGrp
  rw [Option.map_eq_some_iff]
  simp only [List.append_assoc, List.cons_append, List.nil_append]
  constructor
  · rintro ⟨⟨g', r⟩, h, rfl⟩
    obtain ⟨s1, rfl, h1⟩ := rxRun_lit_some h
    rw [rxRun_op] at h1
    obtain ⟨c, s2, rfl, hc, h2⟩ := rxRun_ch_some h1
    rw [rxRun_cl] at h2
    obtain ⟨s3, rfl, h3⟩ := rxRun_lit_some h2
    rw [rxRun_op] at h3
    obtain ⟨d, s4, rfl, hd, h4⟩ := rxRun_ch_some h3
    rw [rxRun_cl] at h4
    obtain ⟨hend, h5⟩ := rxRun_eol_some h4
    simp only [rxRun_nil, List.nil_append, Option.some.injEq, Prod.mk.injEq] at h5
    obtain ⟨a, ha, rfl⟩ := digit_split hc
    obtain ⟨b, hb, rfl⟩ := digit_split hd
    exact ⟨a, b, s4, ha, hb, h5.1.symm, rfl, hend⟩
  · rintro ⟨a, b, t, ha, hb, rfl, rfl, ht⟩
    refine ⟨([[48 + a], [48 + b]], t), ?_, rfl⟩
    rw [rxRun_lit, rxRun_op, rxRun_ch (digit_is ha), rxRun_cl]
    rw [rxRun_comma, rxRun_op, rxRun_ch (digit_is hb), rxRun_cl, rxRun_eol ht, rxRun_nil]
    rfl

theorem cend_iff {line : PyStr} {g : List PyStr} : rxGroups cendRegex line = some g →
    ∃ a b c d t, a ≤ 9 ∧ b ≤ 9 ∧ Digits c ∧ Digits d ∧ LineEnd t ∧ g.head? = some [48 + a] ∧
      line = py!"^CEND:" ++ ([48 + a] ++ (py!"," ++ ([48 + b] ++ (py!"," ++ (c ++ (py!"," ++ (d ++ t))))))) := by
  unfold rxGroups rxMatch? cendRegex rxGrp
  rw [Option.map_eq_some_iff]
  simp only [List.append_assoc, List.cons_append, List.nil_append]
  rintro ⟨⟨g', r⟩, h, rfl⟩
  obtain ⟨s1, rfl, h1⟩ := rxRun_lit_some h
  rw [rxRun_op] at h1
  obtain ⟨c, s2, rfl, hc, h2⟩ := rxRun_ch_some h1
  rw [rxRun_cl] at h2
  obtain ⟨s3, rfl, h3⟩ := rxRun_lit_some h2
  rw [rxRun_op] at h3
  obtain ⟨d, s4, rfl, hd, h4⟩ := rxRun_ch_some h3
  rw [rxRun_cl] at h4
  obtain ⟨s5, rfl, h5⟩ := rxRun_lit_some h4
  obtain ⟨w, s6, rfl, hw, _, _, h6⟩ := rxRun_rep_some h5
  rw [rxRun_op] at h6
  obtain ⟨e, s7, rfl, he, h7⟩ := rxRun_ch_some h6
  rw [rxRun_cl] at h7
  obtain ⟨s8, rfl, h8⟩ := rxRun_lit_some h7
  obtain ⟨x, s9, rfl, hx, _, _, h9⟩ := rxRun_rep_some h8
  rw [rxRun_op] at h9
  obtain ⟨f, s10, rfl, hf, h10⟩ := rxRun_ch_some h9
  rw [rxRun_cl] at h10
  obtain ⟨hend, h11⟩ := rxRun_eol_some h10
  simp only [rxRun_nil, List.nil_append, Option.some.injEq, Prod.mk.injEq] at h11
  obtain ⟨a, ha, rfl⟩ := digit_split hc
  obtain ⟨b, hb, rfl⟩ := digit_split hd
  have dg : ∀ {w : PyStr} {e : Nat}, (∀ c ∈ w, isD c = true) → isD e = true → Digits (w ++ [e]) := by
    intro w e h1 h2
    refine ⟨by simp, fun c hc => ?_⟩
    rcases List.mem_append.1 hc with hc | hc
    · exact isD_iff.1 (h1 c hc)
    · rw [List.mem_singleton.1 hc]; exact isD_iff.1 h2
  refine ⟨a, b, w ++ [e], x ++ [f], s10, ha, hb, dg hw he, dg hx hf, hend, ?_, by simp⟩
  rw [← h11.1]; simp

theorem digits_last {d : PyStr} (h : Digits d) : ∃ w e, d = w ++ [e] ∧ (∀ c ∈ w, isD c = true) ∧ isD e = true := by
  obtain ⟨h0, h1⟩ := h
  refine ⟨d.dropLast, d.getLast h0, (List.dropLast_append_getLast h0).symm, fun c hc => isD_iff.2 (h1 c (List.dropLast_subset _ hc)), isD_iff.2 (h1 _ (List.getLast_mem h0))⟩

theorem cend_some {a b : Nat} {c d t : PyStr} (ha : a ≤ 9) (hb : b ≤ 9) (hc : Digits c) (hd : Digits d) (ht : LineEnd t) :
    ∃ g, rxGroups cendRegex (py!"^CEND:" ++ ([48 + a] ++ (py!"," ++ ([48 + b] ++ (py!"," ++ (c ++ (py!"," ++ (d ++ t)))))))) = some g := by
  obtain ⟨w, e, rfl, hw, he⟩ := digits_last hc
  obtain ⟨x, f, rfl, hx, hf⟩ := digits_last hd
  have : (rxRun cendRegex (py!"^CEND:" ++ ([48 + a] ++ (py!"," ++ ([48 + b] ++ (py!"," ++ ((w ++ [e]) ++ (py!"," ++ ((x ++ [f]) ++ t)))))))) ⟨[], []⟩).isSome = true := by
    have hrx : cendRegex = rxLit py!"^CEND:" ++ (.op :: .ch isD :: .cl :: (rxLit py!"," ++ (.op :: .ch isD :: .cl :: (rxLit py!"," ++ (rxStar isD ::
      .op :: .ch isD :: .cl :: (rxLit py!"," ++ (rxStar isD :: .op :: .ch isD :: .cl :: [.eol]))))))) := by simp [cendRegex, rxGrp]
    rw [hrx, rxRun_lit, rxRun_op]
    simp only [List.singleton_append]
    rw [rxRun_ch (digit_is ha), rxRun_cl, rxRun_comma, rxRun_op]
    rw [rxRun_ch (digit_is hb), rxRun_cl, rxRun_comma, List.append_assoc]
    refine rxRun_rep_complete hw (Nat.zero_le _) ?_
    rw [List.singleton_append, rxRun_op, rxRun_ch he, rxRun_cl, rxRun_comma, List.append_assoc]
    refine rxRun_rep_complete hx (Nat.zero_le _) ?_
    rw [List.singleton_append, rxRun_op, rxRun_ch hf, rxRun_cl, rxRun_eol ht, rxRun_nil]
    rfl
  obtain ⟨g, hg⟩ := Option.isSome_iff_exists.1 this
  exact ⟨g.1, by unfold rxGroups rxMatch?; rw [hg]; rfl⟩

theorem hangup_iff {line : PyStr} {g : List PyStr} : rxGroups hangupRegex line = some g ↔
    ∃ b ds t, Spaces b ∧ Digits ds ∧ LineEnd t ∧ g = [ds] ∧ line = py!"HANGUP:" ++ (b ++ (ds ++ t)) := by
  have hrx : hangupRegex = rxLit py!"HANGUP:" ++ (rxStar isS :: .op :: rxPlus isD :: .cl :: [.eol]) := by simp [hangupRegex, rxGrp]
  constructor
  · unfold rxGroups rxMatch?
    rw [Option.map_eq_some_iff, hrx]
    rintro ⟨⟨g', r⟩, h, rfl⟩
    obtain ⟨s1, rfl, h1⟩ := rxRun_lit_some h
    obtain ⟨b, s2, rfl, hb, _, _, h2⟩ := rxRun_rep_some h1
    rw [rxRun_op] at h2
    obtain ⟨ds, s3, rfl, hd, hd0, _, h3⟩ := rxRun_rep_some h2
    rw [rxRun_cl] at h3
    obtain ⟨hend, h4⟩ := rxRun_eol_some h3
    simp only [rxRun_nil, List.nil_append, Option.some.injEq, Prod.mk.injEq] at h4
    exact ⟨b, ds, s3, spaces_iff.2 hb, ⟨by rintro rfl; simp at hd0, fun c hc => isD_iff.1 (hd c hc)⟩, hend, h4.1.symm, rfl⟩
  · rintro ⟨b, ds, t, hb, hd, ht, rfl, rfl⟩
    have hs : ∀ x, 48 ≤ x → x ≤ 57 → isS x = false := by intro x h1 h2; simp [isS]; omega
    unfold rxGroups rxMatch?
    rw [hrx, rxRun_lit]
    have : rxRun (rxStar isS :: .op :: rxPlus isD :: .cl :: [.eol]) (b ++ (ds ++ t)) ⟨[], [] ++ py!"HANGUP:"⟩ = some ([ds], t) := by
      refine rxRun_rep_longest (spaces_iff.1 hb) (Nat.zero_le _) (head_digits hd hs) ?_
      rw [rxRun_op]
      refine rxRun_rep_longest (digits_class hd) (List.length_pos_iff.2 hd.1) ?_ ?_
      · rcases ht with rfl | rfl <;> intro c hc <;> cases hc; rfl
      · rw [rxRun_cl, rxRun_eol ht, rxRun_nil]; rfl
    rw [this]; rfl

end Gsm
