import Verif.Model.Regex
namespace Gsm

/-- Declarative matching: `RxMatch items s caps groups rest`. -/
inductive RxMatch : List Rx → PyStr → Caps → List PyStr → PyStr → Prop
  | nil {s cap} : RxMatch [] s cap cap.done s
  | ch {p is c s cap g r} : p c = true → RxMatch is s ⟨cap.done, cap.cur ++ [c]⟩ g r → RxMatch (.ch p :: is) (c :: s) cap g r
  | rep {p lo hi gr is w s cap g r} : (∀ c ∈ w, p c = true) → lo ≤ w.length → (∀ h, hi = some h → w.length ≤ h) →
      RxMatch is s ⟨cap.done, cap.cur ++ w⟩ g r → RxMatch (.rep p lo hi gr :: is) (w ++ s) cap g r
  | op {is s cap g r} : RxMatch is s ⟨cap.done, []⟩ g r → RxMatch (.op :: is) s cap g r
  | cl {is s cap g r} : RxMatch is s ⟨cap.done ++ [cap.cur], []⟩ g r → RxMatch (.cl :: is) s cap g r
  | eol {is s cap g r} : s = [] ∨ s = [10] → RxMatch is s cap g r → RxMatch (.eol :: is) s cap g r

variable {α : Type}

theorem repGreedy_sound {p : Nat → Bool} {k : PyStr → PyStr → Option α} : ∀ {s : PyStr} {lo : Nat} {hi : Option Nat}
    {cur : PyStr} {r : α}, repGreedy p k lo hi s cur = some r →
    ∃ w s', s = w ++ s' ∧ (∀ c ∈ w, p c = true) ∧ lo ≤ w.length ∧ (∀ h, hi = some h → w.length ≤ h) ∧
      k s' (cur ++ w) = some r
  | [], lo, hi, cur, r, h => by
    simp only [repGreedy] at h
    split at h
    · exact ⟨[], [], rfl, by simp, by omega, by simp, by simpa using h⟩
    · cases h
  | c :: s, lo, hi, cur, r, h => by
    simp only [repGreedy] at h
    have base : (if lo = 0 then k (c :: s) cur else none) = some r →
        ∃ w s', c :: s = w ++ s' ∧ (∀ c ∈ w, p c = true) ∧ lo ≤ w.length ∧ (∀ h, hi = some h → w.length ≤ h) ∧
          k s' (cur ++ w) = some r := by
      intro h
      split at h
      · exact ⟨[], c :: s, rfl, by simp, by omega, by simp, by simpa using h⟩
      · cases h
    split at h
    · next hp =>
      split at h
      · next r' hr =>
        cases h
        obtain ⟨w, s', rfl, h1, h2, h3, h4⟩ := repGreedy_sound hr
        refine ⟨c :: w, s', rfl, ?_, by simp; omega, ?_, by simpa using h4⟩
        · intro x hx
          rcases List.mem_cons.1 hx with rfl | hx
          · exact hp.1
          · exact h1 x hx
        · intro n hn
          subst hn
          have := h3 (n - 1) rfl
          have hp2 := hp.2
          simp only [ne_eq, Option.some.injEq] at hp2
          simp only [List.length_cons]
          omega
      · exact base h
    · exact base h

theorem repLazy_sound {p : Nat → Bool} {k : PyStr → PyStr → Option α} : ∀ {s : PyStr} {lo : Nat} {hi : Option Nat}
    {cur : PyStr} {r : α}, repLazy p k lo hi s cur = some r →
    ∃ w s', s = w ++ s' ∧ (∀ c ∈ w, p c = true) ∧ lo ≤ w.length ∧ (∀ h, hi = some h → w.length ≤ h) ∧
      k s' (cur ++ w) = some r
  | [], lo, hi, cur, r, h => by
    simp only [repLazy] at h
    split at h
    · exact ⟨[], [], rfl, by simp, by omega, by simp, by simpa using h⟩
    · cases h
  | c :: s, lo, hi, cur, r, h => by
    simp only [repLazy] at h
    split at h
    · next r' hr =>
      cases h
      split at hr
      · exact ⟨[], c :: s, rfl, by simp, by omega, by simp, by simpa using hr⟩
      · cases hr
    · split at h
      · next hp =>
        obtain ⟨w, s', rfl, h1, h2, h3, h4⟩ := repLazy_sound h
        refine ⟨c :: w, s', rfl, ?_, by simp; omega, ?_, by simpa using h4⟩
        · intro x hx
          rcases List.mem_cons.1 hx with rfl | hx
          · exact hp.1
          · exact h1 x hx
        · intro n hn
          subst hn
          have := h3 (n - 1) rfl
          have hp2 := hp.2
          simp only [ne_eq, Option.some.injEq] at hp2
          simp only [List.length_cons]
          omega
      · cases h

theorem rxRun_sound : ∀ {is : List Rx} {s : PyStr} {cap : Caps} {g : List PyStr} {r : PyStr},
    rxRun is s cap = some (g, r) → RxMatch is s cap g r
  | [], s, cap, g, r, h => by
    simp only [rxRun, Option.some.injEq, Prod.mk.injEq] at h
    obtain ⟨rfl, rfl⟩ := h
    exact .nil
  | .ch p :: is, [], cap, g, r, h => by simp [rxRun] at h
  | .ch p :: is, c :: s, cap, g, r, h => by
    simp only [rxRun] at h
    split at h
    · next hp => exact .ch hp (rxRun_sound h)
    · cases h
  | .rep p lo hi greedy :: is, s, cap, g, r, h => by
    simp only [rxRun] at h
    split at h
    · obtain ⟨w, s', rfl, h1, h2, h3, h4⟩ := repGreedy_sound h
      exact .rep h1 h2 h3 (rxRun_sound h4)
    · obtain ⟨w, s', rfl, h1, h2, h3, h4⟩ := repLazy_sound h
      exact .rep h1 h2 h3 (rxRun_sound h4)
  | .op :: is, s, cap, g, r, h => .op (rxRun_sound (by simpa only [rxRun] using h))
  | .cl :: is, s, cap, g, r, h => .cl (rxRun_sound (by simpa only [rxRun] using h))
  | .eol :: is, s, cap, g, r, h => by
    simp only [rxRun] at h
    split at h
    · next hp => exact .eol hp (rxRun_sound h)
    · cases h

theorem repGreedy_complete {p : Nat → Bool} {k : PyStr → PyStr → Option α} : ∀ {w : PyStr} {lo : Nat} {hi : Option Nat}
    {s cur : PyStr}, (∀ c ∈ w, p c = true) → lo ≤ w.length → (∀ h, hi = some h → w.length ≤ h) →
    (k s (cur ++ w)).isSome = true → (repGreedy p k lo hi (w ++ s) cur).isSome = true
  | [], lo, hi, s, cur, _, h2, _, hk => by
    simp at h2; subst h2
    rw [List.append_nil] at hk
    cases s with
    | nil => simpa [repGreedy] using hk
    | cons c s =>
      simp only [List.nil_append, repGreedy, if_true]
      split
      · split
        · rfl
        · exact hk
      · exact hk
  | c :: w, lo, hi, s, cur, h1, h2, h3, hk => by
    simp only [List.cons_append, repGreedy]
    have hp : p c = true ∧ hi ≠ some 0 := by
      refine ⟨h1 c (by simp), ?_⟩
      rintro rfl
      have := h3 0 rfl
      simp at this
    rw [if_pos hp]
    have := repGreedy_complete (p := p) (k := k) (w := w) (lo := lo - 1) (hi := hi.map (· - 1)) (s := s) (cur := cur ++ [c])
      (fun x hx => h1 x (by simp [hx])) (by simp at h2; omega) (by
        intro h hh
        cases hi with
        | none => simp at hh
        | some n =>
          simp only [Option.map_some, Option.some.injEq] at hh
          have := h3 n rfl
          simp at this
          omega) (by simpa using hk)
    cases hr : repGreedy p k (lo - 1) (hi.map (· - 1)) (w ++ s) (cur ++ [c]) with
    | none => rw [hr] at this; cases this
    | some r => rfl

theorem repLazy_complete {p : Nat → Bool} {k : PyStr → PyStr → Option α} : ∀ {w : PyStr} {lo : Nat} {hi : Option Nat}
    {s cur : PyStr}, (∀ c ∈ w, p c = true) → lo ≤ w.length → (∀ h, hi = some h → w.length ≤ h) →
    (k s (cur ++ w)).isSome = true → (repLazy p k lo hi (w ++ s) cur).isSome = true
  | [], lo, hi, s, cur, _, h2, _, hk => by
    simp at h2; subst h2
    rw [List.append_nil] at hk
    cases s with
    | nil => simpa [repLazy] using hk
    | cons c s =>
      simp only [List.nil_append, repLazy, if_true]
      cases hr : k (c :: s) cur with
      | none => rw [hr] at hk; cases hk
      | some r => rfl
  | c :: w, lo, hi, s, cur, h1, h2, h3, hk => by
    simp only [List.cons_append, repLazy]
    have hp : p c = true ∧ hi ≠ some 0 := by
      refine ⟨h1 c (by simp), ?_⟩
      rintro rfl
      have := h3 0 rfl
      simp at this
    have := repLazy_complete (p := p) (k := k) (w := w) (lo := lo - 1) (hi := hi.map (· - 1)) (s := s) (cur := cur ++ [c])
      (fun x hx => h1 x (by simp [hx])) (by simp at h2; omega) (by
        intro h hh
        cases hi with
        | none => simp at hh
        | some n =>
          simp only [Option.map_some, Option.some.injEq] at hh
          have := h3 n rfl
          simp at this
          omega) (by simpa using hk)
    split
    · rfl
    · rw [if_pos hp]
      exact this

theorem rxRun_complete {is : List Rx} {s : PyStr} {cap : Caps} {g : List PyStr} {r : PyStr}
    (h : RxMatch is s cap g r) : (rxRun is s cap).isSome = true := by
  induction h with
  | nil => rfl
  | ch hp _ ih => simpa only [rxRun, hp, if_true] using ih
  | @rep p lo hi gr is w s cap g r h1 h2 h3 _ ih =>
    simp only [rxRun]
    split
    · exact repGreedy_complete h1 h2 h3 ih
    · exact repLazy_complete h1 h2 h3 ih
  | op _ ih => simpa only [rxRun] using ih
  | cl _ ih => simpa only [rxRun] using ih
  | eol hp _ ih => simpa only [rxRun, if_pos hp] using ih

/-- The matcher finds a match iff there is one. -/
theorem rxMatches_iff {is : List Rx} {s : PyStr} :
    rxMatches is s = true ↔ ∃ g r, RxMatch is s ⟨[], []⟩ g r := by
  unfold rxMatches rxMatch?
  constructor
  · intro h
    cases hr : rxRun is s ⟨[], []⟩ with
    | none => rw [hr] at h; cases h
    | some x => exact ⟨x.1, x.2, rxRun_sound hr⟩
  · rintro ⟨g, r, h⟩
    exact rxRun_complete h

/-! Inversion and evaluation. -/

theorem rxRun_lit : ∀ (l : PyStr) (is : List Rx) (s : PyStr) (cap : Caps),
    rxRun (rxLit l ++ is) (l ++ s) cap = rxRun is s ⟨cap.done, cap.cur ++ l⟩
  | [], is, s, cap => by simp [rxLit]
  | c :: l, is, s, cap => by
    have := rxRun_lit l is s ⟨cap.done, cap.cur ++ [c]⟩
    simp only [rxLit, List.map_cons, List.cons_append, rxRun, decide_true, if_true] at this ⊢
    rw [this]
    simp

theorem rxRun_lit_some : ∀ {l : PyStr} {is : List Rx} {s : PyStr} {cap : Caps} {x},
    rxRun (rxLit l ++ is) s cap = some x → ∃ s', s = l ++ s' ∧ rxRun is s' ⟨cap.done, cap.cur ++ l⟩ = some x
  | [], is, s, cap, x, h => ⟨s, rfl, by simpa [rxLit] using h⟩
  | c :: l, is, [], cap, x, h => by simp [rxLit, rxRun] at h
  | c :: l, is, d :: s, cap, x, h => by
    simp only [rxLit, List.map_cons, List.cons_append, rxRun] at h
    split at h
    · next hd =>
      simp only [decide_eq_true_eq] at hd
      subst hd
      obtain ⟨s', rfl, hs⟩ := rxRun_lit_some (l := l) h
      exact ⟨s', rfl, by simpa using hs⟩
    · cases h

/-- Greedy repetition whose longest run is followed by a match. -/
theorem repGreedy_longest {p : Nat → Bool} {k : PyStr → PyStr → Option α} {x : α} : ∀ {w : PyStr} {lo : Nat}
    {s cur : PyStr}, (∀ c ∈ w, p c = true) → lo ≤ w.length → (∀ c, s.head? = some c → p c = false) →
    k s (cur ++ w) = some x → repGreedy p k lo none (w ++ s) cur = some x
  | [], lo, s, cur, _, h2, h3, hk => by
    simp at h2; subst h2
    rw [List.append_nil] at hk
    cases s with
    | nil => simpa [repGreedy] using hk
    | cons c s =>
      simp only [List.nil_append, repGreedy, if_true, h3 c rfl]
      simpa using hk
  | c :: w, lo, s, cur, h1, h2, h3, hk => by
    simp only [List.cons_append, repGreedy]
    rw [if_pos ⟨h1 c (by simp), by simp⟩]
    rw [show (Option.map (· - 1) none : Option Nat) = none from rfl,
      repGreedy_longest (w := w) (fun x hx => h1 x (by simp [hx])) (by simp at h2; omega) h3 (by simpa using hk)]

/-- A run followed by something outside the class, which the rest of the pattern needs, is
matched exactly (no backtracking succeeds). -/
theorem repGreedy_exact {p : Nat → Bool} {k : PyStr → PyStr → Option α}
    (hk : ∀ s cur x, k s cur = some x → ∃ c, s.head? = some c ∧ p c = false) : ∀ {w : PyStr} {lo : Nat}
    {s cur : PyStr}, (∀ c ∈ w, p c = true) → lo ≤ w.length → (∀ c, s.head? = some c → p c = false) →
    repGreedy p k lo none (w ++ s) cur = k s (cur ++ w) := by
  intro w lo s cur h1 h2 h3
  cases hx : k s (cur ++ w) with
  | some x => exact repGreedy_longest h1 h2 h3 hx
  | none =>
    cases hr : repGreedy p k lo none (w ++ s) cur with
    | none => rfl
    | some r =>
      exfalso
      obtain ⟨w', s', e, g1, g2, _, g4⟩ := repGreedy_sound hr
      obtain ⟨c, hc, hpc⟩ := hk _ _ _ g4
      have : w' = w := by
        rcases List.append_eq_append_iff.1 e with ⟨a, ha, hb⟩ | ⟨a, ha, hb⟩
        · cases a with
          | nil => simp at ha; exact ha
          | cons d a =>
            -- w' = w ++ d :: a, so d is the head of s
            have := g1 d (by rw [ha]; simp)
            rw [h3 d (by rw [hb]; rfl)] at this
            cases this
        · cases a with
          | nil => simp at ha; exact ha.symm
          | cons d a =>
            have hd : d = c := by rw [hb] at hc; simpa using hc
            subst hd
            have := h1 d (by rw [ha]; simp)
            rw [hpc] at this
            cases this
      subst this
      have hs : s = s' := List.append_cancel_left e
      subst hs
      rw [hx] at g4
      cases g4

end Gsm
