import Verif.Lemmas.Regex
import Verif.Lemmas.PyInt
import Verif.Spec.Listing
/-! # Evaluating patterns on texts of their form -/
namespace Gsm

theorem rxRun_star {p : Nat → Bool} {is : List Rx} {w s : PyStr} {done : List PyStr} {cur : PyStr} {x}
    (h1 : ∀ c ∈ w, p c = true) (h2 : ∀ c, s.head? = some c → p c = false) (h : rxRun is s ⟨done, cur ++ w⟩ = some x) :
    rxRun (rxStar p :: is) (w ++ s) ⟨done, cur⟩ = some x := by
  simp only [rxStar, rxRun, if_true]
  exact repGreedy_longest h1 (Nat.zero_le _) h2 h

theorem rxRun_plus {p : Nat → Bool} {is : List Rx} {w s : PyStr} {done : List PyStr} {cur : PyStr} {x}
    (h0 : w ≠ []) (h1 : ∀ c ∈ w, p c = true) (h2 : ∀ c, s.head? = some c → p c = false) (h : rxRun is s ⟨done, cur ++ w⟩ = some x) :
    rxRun (rxPlus p :: is) (w ++ s) ⟨done, cur⟩ = some x := by
  simp only [rxPlus, rxRun, if_true]
  exact repGreedy_longest h1 (List.length_pos_iff.2 h0) h2 h

theorem rxRun_litE {l : PyStr} {is : List Rx} {s : PyStr} {cap : Caps} {x}
    (h : rxRun is s ⟨cap.done, cap.cur ++ l⟩ = some x) : rxRun (rxLit l ++ is) (l ++ s) cap = some x := by
  rw [rxRun_lit, h]

/-- `"{0,1}` where there is a quote. -/
theorem rxRun_opt {q : Nat} {is : List Rx} {s : PyStr} {done : List PyStr} {cur : PyStr} {x}
    (h : rxRun is s ⟨done, cur ++ [q]⟩ = some x) : rxRun (rxOpt q :: is) (q :: s) ⟨done, cur⟩ = some x := by
  simp only [rxOpt, rxRun, if_true, repGreedy]
  cases s with
  | nil => simp [repGreedy, h]
  | cons d s =>
    simp only [repGreedy]
    simp [h]

/-- `"{0,1}` where there is none. -/
theorem rxRun_opt_none {q : Nat} {is : List Rx} {s : PyStr} {done : List PyStr} {cur : PyStr} {x}
    (hq : s.head? ≠ some q) (h : rxRun is s ⟨done, cur⟩ = some x) : rxRun (rxOpt q :: is) s ⟨done, cur⟩ = some x := by
  simp only [rxOpt, rxRun, if_true]
  cases s with
  | nil => simp [repGreedy, h]
  | cons d s =>
    have : d ≠ q := by simpa using hq
    simp [repGreedy, this, h]

theorem rxRun_op' {is : List Rx} {s : PyStr} {done : List PyStr} {cur : PyStr} {x}
    (h : rxRun is s ⟨done, []⟩ = some x) : rxRun (.op :: is) s ⟨done, cur⟩ = some x := by simpa only [rxRun] using h
theorem rxRun_cl' {is : List Rx} {s : PyStr} {done : List PyStr} {cur : PyStr} {x}
    (h : rxRun is s ⟨done ++ [cur], []⟩ = some x) : rxRun (.cl :: is) s ⟨done, cur⟩ = some x := by simpa only [rxRun] using h
theorem rxRun_eol' {is : List Rx} {done : List PyStr} {cur : PyStr} {x}
    (h : rxRun is [] ⟨done, cur⟩ = some x) : rxRun (.eol :: is) [] ⟨done, cur⟩ = some x := by simpa [rxRun] using h

open Spec

theorem digits_class {s : PyStr} (h : Digits s) : ∀ c ∈ s, isD c = true := fun c hc => isD_iff.2 (h.2 c hc)
theorem blanks_class {s : PyStr} (h : Blanks s) : ∀ c ∈ s, isS c = true := by
  intro c hc
  have := h c hc
  simp [isS]; omega
theorem notin_class {x : Nat} {s : PyStr} (h : x ∉ s) : ∀ c ∈ s, notC x c = true := by
  intro c hc
  simp only [notC, decide_eq_true_eq]
  rintro rfl
  exact h hc

theorem digits_decStr (n : Nat) : Digits (decStr n) := ⟨decStr_ne_nil n, fun c hc => isD_iff.1 (decStr_digits n c hc)⟩

theorem pyInt_of_digits {s : PyStr} (h : Digits s) : pyInt s = .ok (decVal s : Int) := by
  unfold pyInt
  rw [pyInt_digits h.1 (digits_class h)]

theorem head_digits {p : Nat → Bool} {s t : PyStr} (h : Digits s) (hp : ∀ c, 48 ≤ c → c ≤ 57 → p c = false) :
    ∀ c, (s ++ t).head? = some c → p c = false := by
  intro c hc
  cases s with
  | nil => exact absurd rfl h.1
  | cons d s =>
    simp only [List.cons_append, List.head?_cons, Option.some.injEq] at hc
    subst hc
    exact hp _ (h.2 d (by simp)).1 (h.2 d (by simp)).2

end Gsm
