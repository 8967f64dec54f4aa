import Verif.Spec.Connect
import Verif.Lemmas.Coverage
import Verif.Lemmas.Listing
import Verif.Lemmas.ModemWrite
/-! # Splitting, stripping and searching texts -/
namespace Gsm
open Spec

/-! ### Splitting -/

theorem splitAux_skip {x : Nat} {sep' : PyStr} : ∀ {a : PyStr} {fuel : Nat} {cur r : PyStr}, x ∉ a →
    splitAux (x :: sep') (fuel + a.length) cur (a ++ r) = splitAux (x :: sep') fuel (cur ++ a) r
  | [], _, _, _, _ => by simp
  | c :: a, fuel, cur, r, h => by
    have hc : x ≠ c := fun e => h (by simp [e])
    have ha : x ∉ a := fun e => h (by simp [e])
    have := splitAux_skip (sep' := sep') (fuel := fuel) (cur := cur ++ [c]) (r := r) ha
    simp only [List.length_cons, ← Nat.add_assoc, List.cons_append, splitAux]
    rw [if_neg (by simp [hc]), this]
    simp

/-- The last piece, which contains no separator. -/
theorem splitAux_last {x : Nat} {sep' : PyStr} {a : PyStr} {fuel : Nat} {cur : PyStr} (h : x ∉ a) (hf : a.length < fuel) :
    splitAux (x :: sep') fuel cur a = [cur ++ a] := by
  obtain ⟨k, rfl⟩ : ∃ k, fuel = k + 1 + a.length := ⟨fuel - a.length - 1, by omega⟩
  have := splitAux_skip (sep' := sep') (fuel := k + 1) (cur := cur) (r := []) h
  simpa [splitAux] using this

/-- The last piece may end with the beginning of a separator. -/
theorem splitAux_last' {x y : Nat} {sep' : PyStr} {a : PyStr} {fuel : Nat} {cur : PyStr} (h : x ∉ a) (hf : a.length + 1 < fuel) :
    splitAux (x :: y :: sep') fuel cur (a ++ [x]) = [cur ++ (a ++ [x])] := by
  obtain ⟨k, rfl⟩ : ∃ k, fuel = k + 2 + a.length := ⟨fuel - a.length - 2, by omega⟩
  rw [splitAux_skip h]
  simp [splitAux]

theorem splitAux_sep {x : Nat} {sep' : PyStr} {fuel : Nat} {cur r : PyStr} :
    splitAux (x :: sep') (fuel + 1) cur (x :: sep' ++ r) = cur :: splitAux (x :: sep') fuel [] r := by
  simp only [List.cons_append, splitAux]
  rw [if_pos (by simp), ← List.cons_append, List.drop_left]

theorem splitAux_join {x : Nat} {sep' : PyStr} {last : PyStr}
    (hlast : ∀ fuel cur, last.length < fuel → splitAux (x :: sep') fuel cur last = [cur ++ last]) :
    ∀ {l : List PyStr} {fuel : Nat}, (∀ a ∈ l, x ∉ a) → (pyJoin (x :: sep') (l ++ [last])).length < fuel →
    splitAux (x :: sep') fuel [] (pyJoin (x :: sep') (l ++ [last])) = l ++ [last]
  | [], fuel, _, hf => by simpa [pyJoin] using hlast fuel [] (by simpa [pyJoin] using hf)
  | a :: l, fuel, h, hf => by
    have e : pyJoin (x :: sep') (a :: l ++ [last]) = a ++ (x :: sep' ++ pyJoin (x :: sep') (l ++ [last])) := by
      cases l <;> simp [pyJoin]
    rw [e] at hf ⊢
    simp only [List.length_append, List.length_cons] at hf
    obtain ⟨k, rfl⟩ : ∃ k, fuel = k + 1 + a.length := ⟨fuel - a.length - 1, by omega⟩
    rw [splitAux_skip (h a (by simp)), splitAux_sep, splitAux_join hlast (fun a ha => h a (by simp [ha])) (by omega)]
    simp

/-- `s.split(sep)` recovers pieces that do not contain the first character of `sep`. -/
theorem pySplit_join {x : Nat} {sep' : PyStr} {l : List PyStr} (hne : l ≠ []) (h : ∀ a ∈ l, x ∉ a) :
    pySplit (x :: sep') (pyJoin (x :: sep') l) = l := by
  obtain ⟨l, last, rfl⟩ : ∃ l' last, l = l' ++ [last] := ⟨l.dropLast, l.getLast hne, (List.dropLast_append_getLast hne).symm⟩
  exact splitAux_join (fun fuel cur hf => splitAux_last (h last (by simp)) hf) (fun a ha => h a (by simp [ha])) (Nat.lt_succ_self _)

/-! ### Stripping -/

theorem blank_iff {c : Nat} : Blank c ↔ isS c = true := by simp [Blank, isS]

theorem dropWhile_blanks {a w : PyStr} (ha : ∀ c ∈ a, Blank c) (hw : ∀ c, w.head? = some c → ¬ Blank c) :
    (a ++ w).dropWhile isS = w := by
  induction a with
  | nil =>
    cases w with
    | nil => rfl
    | cons c w => simp [List.dropWhile, show isS c = false by simpa [blank_iff] using hw c rfl]
  | cons c a ih => simp [List.dropWhile, blank_iff.1 (ha c (by simp)), ih (fun c hc => ha c (by simp [hc]))]

theorem dropWhile_all {a : PyStr} (ha : ∀ c ∈ a, Blank c) : a.dropWhile isS = [] := by
  simpa using dropWhile_blanks (w := []) ha (by simp)

theorem pyStrip_line {l w : PyStr} (h : LineOf l w) : pyStrip l = w := by
  obtain ⟨a, z, rfl, ha, hz, h1, h2⟩ := h
  unfold pyStrip
  cases w with
  | nil =>
    have : ∀ c ∈ a ++ [] ++ z, Blank c := by
      intro c hc
      simp at hc
      exact hc.elim (ha c) (hz c)
    rw [dropWhile_all this]; rfl
  | cons c w =>
    rw [List.append_assoc, dropWhile_blanks ha (by simpa using h1 c rfl), List.reverse_append,
      dropWhile_blanks (by simpa using hz) (by
        intro d hd
        rw [List.head?_reverse] at hd
        exact h2 d hd)]
    simp

/-! ### Searching for a quoted name -/

theorem infix_skip {x : Nat} {y a r : PyStr} (h : x ∉ a) : x :: y <:+: a ++ r ↔ x :: y <:+: r := by
  induction a with
  | nil => rfl
  | cons c a ih =>
    have hc : x ≠ c := fun e => h (by simp [e])
    rw [List.cons_append, List.infix_cons_iff, ih (fun e => h (by simp [e]))]
    simp [hc]

theorem quote_prefix {m n r : PyStr} (hm : 34 ∉ m) (hn : 34 ∉ n) : m ++ [34] <+: n ++ 34 :: r ↔ m = n := by
  constructor
  · rintro ⟨t, ht⟩
    simp only [List.append_assoc, List.singleton_append] at ht
    induction m generalizing n with
    | nil =>
      cases n with
      | nil => rfl
      | cons d n => simp at ht; exact absurd ht.1 (fun e => hn (by simp [e]))
    | cons c m ih =>
      cases n with
      | nil => simp at ht; exact absurd ht.1 (fun e => hm (by simp [e]))
      | cons d n =>
        simp only [List.cons_append, List.cons.injEq] at ht
        rw [ht.1, ih (fun e => hm (by simp [e])) (fun e => hn (by simp [e])) ht.2]
  · rintro rfl
    exact ⟨r, by simp⟩

/-- A quoted name occurs in a list of quoted names iff it is one of them. -/
theorem quoted_infix {m t : PyStr} (hm : 34 ∉ m) (h44 : m.head? ≠ some 44) (hne : m ≠ []) (ht : 34 ∉ t) :
    ∀ {names : List PyStr}, (∀ n ∈ names, 34 ∉ n) →
    (34 :: (m ++ [34]) <:+: pyJoin py!"," (names.map fun n => py!"\"" ++ n ++ py!"\"") ++ t ↔ m ∈ names)
  | [], _ => by
    have := infix_skip (y := m ++ [34]) (r := []) ht
    simpa [pyJoin] using this
  | [n], h => by
    have e : pyJoin py!"," ([n].map fun n => py!"\"" ++ n ++ py!"\"") ++ t = 34 :: (n ++ 34 :: t) := by simp [pyJoin]
    have hn := h n (by simp)
    rw [e, List.infix_cons_iff, List.cons_prefix_cons, infix_skip hn, List.infix_cons_iff, List.cons_prefix_cons]
    have h1 := infix_skip (y := m ++ [34]) (r := []) ht
    simp only [List.append_nil] at h1
    rw [h1]
    have h2 : ¬ m ++ [34] <+: t := by
      rintro ⟨u, rfl⟩
      exact ht (by simp)
    simp [quote_prefix hm hn, h2]
  | n :: n' :: names, h => by
    have e : pyJoin py!"," ((n :: n' :: names).map fun n => py!"\"" ++ n ++ py!"\"") ++ t =
        34 :: (n ++ 34 :: ([44] ++ (pyJoin py!"," ((n' :: names).map fun n => py!"\"" ++ n ++ py!"\"") ++ t))) := by simp [pyJoin]
    have hn := h n (by simp)
    have ih := quoted_infix hm h44 hne ht (names := n' :: names) (fun a ha => h a (by simp at ha ⊢; tauto))
    rw [e, List.infix_cons_iff, List.cons_prefix_cons, infix_skip hn, List.infix_cons_iff, List.cons_prefix_cons,
      infix_skip (by simp), ih]
    have h2 : ¬ m ++ [34] <+: [44] ++ (pyJoin py!"," ((n' :: names).map fun n => py!"\"" ++ n ++ py!"\"") ++ t) := by
      cases m with
      | nil => exact absurd rfl hne
      | cons c m =>
        have : c ≠ 44 := by simpa using h44
        simp [List.cons_prefix_cons, this]
    rw [quote_prefix hm hn]
    simp only [true_and, List.mem_cons]
    tauto

/-! ### Patterns -/

theorem rxRun_rep_complete {p : Nat → Bool} {lo : Nat} {is : List Rx} {w s : PyStr} {done : List PyStr} {cur : PyStr}
    (h1 : ∀ c ∈ w, p c = true) (h2 : lo ≤ w.length) (h : (rxRun is s ⟨done, cur ++ w⟩).isSome = true) :
    (rxRun (.rep p lo none true :: is) (w ++ s) ⟨done, cur⟩).isSome = true := by
  simp only [rxRun, if_true]
  exact repGreedy_complete h1 h2 (by simp) h

/-- The first occurrence of a character divides a text in one way only. -/
theorem first_unique {x : Nat} {a a' r r' : PyStr} (h : x ∉ a) (h' : x ∉ a') (e : a ++ x :: r = a' ++ x :: r') :
    a = a' ∧ r = r' := by
  induction a generalizing a' with
  | nil =>
    cases a' with
    | nil => simpa using e
    | cons d a' => simp at e; exact absurd e.1 (fun e => h' (by simp [e]))
  | cons c a ih =>
    cases a' with
    | nil => simp at e; exact absurd e.1 (fun e => h (by simp [e]))
    | cons d a' =>
      simp only [List.cons_append, List.cons.injEq] at e
      obtain ⟨rfl, rfl⟩ := ih (fun e => h (by simp [e])) (fun e => h' (by simp [e])) e.2
      simp [e.1]

/-- Digits with perhaps a line feed after them. -/
theorem digits_end_unique {a a' t t' : PyStr} (h : Digits a) (h' : Digits a') (ht : t = [] ∨ t = [10]) (ht' : t' = [] ∨ t' = [10])
    (e : a ++ t = a' ++ t') : a = a' := by
  have n10 : ∀ {d : PyStr}, Digits d → 10 ∉ d := fun h hm => by have := h.2 10 hm; omega
  rcases ht with rfl | rfl <;> rcases ht' with rfl | rfl
  · simpa using e
  · simp at e; exact absurd (e ▸ h) (fun h => n10 h (by simp))
  · simp at e; exact absurd (e ▸ h') (fun h => n10 h (by simp))
  · simpa using e

/-- The answer to `AT+CSCA?`. -/
theorem csca_iff {line : PyStr} {g : List PyStr} : rxGroups cscaRegex line = some g ↔
    ∃ n ds, g = [n, ds] ∧ ∃ a t, line = py!"+CSCA:" ++ (a ++ (py!"\"" ++ (n ++ (py!"\"," ++ (ds ++ t))))) ∧ Spaces a ∧ n ≠ [] ∧ 44 ∉ n ∧
      Digits ds ∧ (t = [] ∨ t = [10]) := by
  have hrx : cscaRegex = rxLit py!"+CSCA:" ++ (rxStar isS :: (rxLit py!"\"" ++ (.op :: rxPlus (notC 44) :: .cl ::
      (rxLit py!"\"," ++ (.op :: rxPlus isD :: .cl :: [.eol]))))) := by simp [cscaRegex, rxGrp]
  have fwd : ∀ {g}, rxGroups cscaRegex line = some g →
      ∃ n ds, g = [n, ds] ∧ ∃ a t, line = py!"+CSCA:" ++ (a ++ (py!"\"" ++ (n ++ (py!"\"," ++ (ds ++ t))))) ∧ Spaces a ∧ n ≠ [] ∧ 44 ∉ n ∧
      Digits ds ∧ (t = [] ∨ t = [10]) := by
    intro g h
    unfold rxGroups rxMatch? at h
    rw [Option.map_eq_some_iff, hrx] at h
    obtain ⟨⟨g', r⟩, h, rfl⟩ := h
    obtain ⟨s1, rfl, h1⟩ := rxRun_lit_some h
    obtain ⟨a, s2, rfl, ha, _, _, h2⟩ := rxRun_rep_some h1
    obtain ⟨s3, rfl, h3⟩ := rxRun_lit_some h2
    rw [rxRun_op] at h3
    obtain ⟨n, s4, rfl, hn, hn1, _, h4⟩ := rxRun_rep_some h3
    rw [rxRun_cl] at h4
    obtain ⟨s5, rfl, h5⟩ := rxRun_lit_some h4
    rw [rxRun_op] at h5
    obtain ⟨ds, s6, rfl, hd, hd1, _, h6⟩ := rxRun_rep_some h5
    rw [rxRun_cl] at h6
    obtain ⟨hend, h7⟩ := rxRun_eol_some h6
    simp only [rxRun_nil, List.nil_append, Option.some.injEq, Prod.mk.injEq] at h7
    refine ⟨n, ds, by rw [← h7.1]; simp, a, s6, rfl, spaces_iff.2 ha, List.length_pos_iff.1 hn1, ?_, ⟨List.length_pos_iff.1 hd1, fun c hc => isD_iff.1 (hd c hc)⟩, hend⟩
    intro h44
    have := hn 44 h44
    simp [notC] at this
  refine ⟨fwd, ?_⟩
  rintro ⟨n, ds, rfl, a, t, rfl, ha, hn, h44, hd, ht⟩
  have hsome : (rxRun cscaRegex (py!"+CSCA:" ++ (a ++ (py!"\"" ++ (n ++ (py!"\"," ++ (ds ++ t)))))) ⟨[], []⟩).isSome = true := by
    rw [hrx, rxRun_lit]
    refine rxRun_rep_complete (spaces_iff.1 ha) (Nat.zero_le _) ?_
    rw [rxRun_lit, rxRun_op]
    refine rxRun_rep_complete (notin_class h44) (List.length_pos_iff.2 hn) ?_
    rw [rxRun_cl, rxRun_lit, rxRun_op]
    refine rxRun_rep_complete (digits_class hd) (List.length_pos_iff.2 hd.1) ?_
    rw [rxRun_cl, rxRun_eol ht, rxRun_nil]
    rfl
  obtain ⟨g, hg⟩ := Option.isSome_iff_exists.1 hsome
  have hg' : rxGroups cscaRegex (py!"+CSCA:" ++ (a ++ (py!"\"" ++ (n ++ (py!"\"," ++ (ds ++ t)))))) = some g.1 := by
    unfold rxGroups rxMatch?; rw [hg]; rfl
  rw [hg']
  obtain ⟨n', ds', e, a', t', hl', ha', hn', h44', hd', ht'⟩ := fwd hg'
  rw [e]
  have h1 := List.append_cancel_left hl'
  have hb : ∀ {x : PyStr} {r : PyStr}, Spaces x → (x ++ (py!"\"" ++ r)).dropWhile isS = py!"\"" ++ r :=
    fun hx => dropWhile_blanks (fun c hc => hx c hc) (by simp [Blank])
  have h2 := congrArg (List.dropWhile isS) h1
  rw [hb ha, hb ha'] at h2
  have h3 := List.append_cancel_left h2
  have h4 : (n ++ [34]) ++ 44 :: (ds ++ t) = (n' ++ [34]) ++ 44 :: (ds' ++ t') := by simpa using h3
  obtain ⟨h5, h6⟩ := first_unique (by simp [h44]) (by simp [h44']) h4
  rw [digits_end_unique hd hd' ht ht' h6, List.append_cancel_right h5]

end Gsm
