import Verif.Spec.Queries
import Verif.Lemmas.Reading
/-! # Questions: lemmas -/
namespace Gsm
open M Spec

theorem cops_rx : copsRegex = rxLit py!"+COPS: " ++ (.op :: .ch isD :: .cl :: (rxLit py!"," ++ (.op :: .ch isD :: .cl :: (rxLit py!",\"" ++
    (.op :: rxPlus (notC 10) :: .cl :: (rxLit py!"\"" ++ (rxOpt 44 :: rxStar isD :: [.eol]))))))) := by simp [copsRegex, rxGrp]

theorem comma_of {o : PyStr} (h : ∀ c ∈ o, decide (c = 44) = true) (h1 : o.length ≤ 1) : o = [] ∨ o = [44] := by
  rcases o with _ | ⟨c, _ | ⟨c', o⟩⟩
  · exact .inl rfl
  · have : c = 44 := by simpa using h c (by simp)
    subst this
    exact .inr rfl
  · simp at h1

theorem cops_fwd {line : PyStr} {g : List PyStr} (h : rxGroups copsRegex line = some g) : ∃ a b name, g = [a, b, name] ∧ CopsLine line name := by
  unfold rxGroups rxMatch? at h
  rw [Option.map_eq_some_iff, cops_rx] at h
  obtain ⟨⟨g', r⟩, h, rfl⟩ := h
  obtain ⟨s1, rfl, k1⟩ := rxRun_lit_some h
  rw [rxRun_op] at k1
  obtain ⟨m, s2, rfl, hm, k2⟩ := rxRun_ch_some k1
  rw [rxRun_cl] at k2
  obtain ⟨s3, rfl, k3⟩ := rxRun_lit_some k2
  rw [rxRun_op] at k3
  obtain ⟨f, s4, rfl, hf, k4⟩ := rxRun_ch_some k3
  rw [rxRun_cl] at k4
  obtain ⟨s5, rfl, k5⟩ := rxRun_lit_some k4
  rw [rxRun_op] at k5
  obtain ⟨name, s6, rfl, hn, hn1, _, k6⟩ := rxRun_rep_some k5
  rw [rxRun_cl] at k6
  obtain ⟨s7, rfl, k7⟩ := rxRun_lit_some k6
  obtain ⟨o, s8, rfl, ho, _, ho1, k8⟩ := rxRun_rep_some k7
  obtain ⟨act, t, rfl, ha, _, _, k9⟩ := rxRun_rep_some k8
  obtain ⟨hend, k10⟩ := rxRun_eol_some k9
  simp only [rxRun_nil, List.nil_append, Option.some.injEq, Prod.mk.injEq] at k10
  refine ⟨_, _, name, k10.1.symm, m, f, o, act, t, rfl, isD_iff.1 hm, isD_iff.1 hf, List.length_pos_iff.1 hn1, class_notin hn, comma_of ho (ho1 1 rfl),
    fun c hc => isD_iff.1 (ha c hc), hend⟩

theorem cops_unique {line a a' : PyStr} (h : CopsLine line a) (h' : CopsLine line a') : a = a' := by
  obtain ⟨m, f, o, act, t, rfl, _, _, _, _, ho, hact, ht⟩ := h
  obtain ⟨m', f', o', act', t', hl, _, _, _, _, ho', hact', ht'⟩ := h'
  simp only [List.cons_append, List.nil_append, List.cons.injEq, true_and] at hl
  have tail : ∀ {o act t : PyStr}, (o = [] ∨ o = [44]) → (∀ c ∈ act, 48 ≤ c ∧ c ≤ 57) → LineEnd t → 34 ∉ o ++ (act ++ t) := by
    intro o act t ho ha ht hm
    simp only [List.mem_append] at hm
    rcases hm with hm | hm | hm
    · rcases ho with rfl | rfl <;> simp at hm
    · exact digits_notin ha (by decide) hm
    · exact lineEnd_notin ht (by decide) hm
  exact (from_unique (x := 34) (tail ho hact ht) (tail ho' hact' ht') hl.2.2).1

theorem cops_bwd {line name : PyStr} (h : CopsLine line name) : ∃ a b, rxGroups copsRegex line = some [a, b, name] := by
  have hh := h
  obtain ⟨m, f, o, act, t, hl, hm, hf, hn, h10, ho, hact, ht⟩ := h
  have hsome : (rxRun copsRegex line ⟨[], []⟩).isSome = true := by
    rw [hl, cops_rx, rxRun_lit, rxRun_op, rxRun_ch (isD_iff.2 hm), rxRun_cl, rxRun_lit, rxRun_op, rxRun_ch (isD_iff.2 hf), rxRun_cl, rxRun_lit, rxRun_op]
    refine rxRun_rep_complete (notin_class h10) (List.length_pos_iff.2 hn) ?_
    rw [rxRun_cl, rxRun_lit]
    have h2 : ∀ cur done, (rxRun (rxStar isD :: [.eol]) (act ++ t) ⟨done, cur⟩).isSome = true := by
      intro cur done
      refine rxRun_rep_complete (fun c hc => isD_iff.2 (hact c hc)) (Nat.zero_le _) ?_
      rw [rxRun_eol ht, rxRun_nil]
      rfl
    simp only [rxOpt, rxRun, if_true]
    refine repGreedy_complete ?_ (Nat.zero_le _) ?_ ?_
    · rcases ho with rfl | rfl <;> simp
    · rcases ho with rfl | rfl <;> simp
    · exact h2 _ _
  obtain ⟨g, hg⟩ := Option.isSome_iff_exists.1 hsome
  have hg' : rxGroups copsRegex line = some g.1 := by unfold rxGroups rxMatch?; rw [hg]; rfl
  obtain ⟨a, b, name', hgg, h1⟩ := cops_fwd hg'
  refine ⟨a, b, ?_⟩
  rw [hg', hgg, cops_unique hh h1]

theorem not_cops {line : PyStr} : rxGroups copsRegex line = none ↔ ∀ name, ¬ CopsLine line name := by
  constructor
  · intro h name hn
    obtain ⟨a, b, hg⟩ := cops_bwd hn
    rw [h] at hg
    cases hg
  · intro h
    cases hg : rxGroups copsRegex line with
    | none => rfl
    | some g =>
      obtain ⟨_, _, name, _, h1⟩ := cops_fwd hg
      exact absurd h1 (h name)

/-- What `networkName` makes of the answer. -/
def operatorOf (ls : List PyStr) : Option PyStr :=
  match lineMatching (rxGroups copsRegex) ls with
  | some [_, _, name] => some name
  | _ => none

theorem first_operator : ∀ ls : List PyStr, FirstOperator ls (operatorOf ls)
  | [] => .none (by simp)
  | l :: ls => by
    unfold operatorOf lineMatching
    cases hg : rxGroups copsRegex l with
    | some g =>
      obtain ⟨a, b, name, rfl, h⟩ := cops_fwd hg
      exact .some (a := []) (by simp) h
    | none =>
      have hn := not_cops.1 hg
      have ih := first_operator ls
      generalize hr : operatorOf ls = r at ih
      unfold operatorOf at hr
      dsimp only
      rw [hr]
      cases ih with
      | none h => exact .none fun x hx => by rcases List.mem_cons.1 hx with rfl | hx; exacts [hn, h x hx]
      | @some a l' b name h h' =>
        exact .some (a := l :: a) (fun x hx => by rcases List.mem_cons.1 hx with rfl | hx; exacts [hn, h x hx]) h'

theorem firstOperator_unique {ls : List PyStr} {a : Option PyStr} (h : FirstOperator ls a) : operatorOf ls = a := by
  cases h with
  | none h =>
    unfold operatorOf
    have : lineMatching (rxGroups copsRegex) ls = none := by
      induction ls with
      | nil => rfl
      | cons l ls ih => rw [lineMatching, not_cops.2 (h l (by simp))]; exact ih fun x hx => h x (by simp [hx])
    rw [this]
  | @some a l b name h h' =>
    obtain ⟨x, y, hg⟩ := cops_bwd h'
    have : lineMatching (rxGroups copsRegex) (a ++ l :: b) = some [x, y, name] := by
      clear * - h hg
      induction a with
      | nil => simp only [List.nil_append, lineMatching, hg]
      | cons d a ih => rw [List.cons_append, lineMatching, not_cops.2 (h d (by simp))]; exact ih fun x hx => h x (by simp [hx])
    unfold operatorOf
    rw [this]

end Gsm
