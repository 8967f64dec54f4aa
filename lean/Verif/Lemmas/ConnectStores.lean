import Verif.Lemmas.ModemText
/-! # The memories for messages that a modem offers -/
namespace Gsm
open Spec

/-- Put a bracket after the last text. -/
def closeLast : List PyStr → List PyStr
  | [] => []
  | [x] => [x ++ [41]]
  | x :: y :: r => x :: closeLast (y :: r)

theorem closeLast_concat (l : List PyStr) (z : PyStr) : closeLast (l ++ [z]) = l ++ [z ++ [41]] := by
  induction l with
  | nil => rfl
  | cons x l ih =>
    cases l with
    | nil => rfl
    | cons y l => simpa [closeLast] using ih

theorem closeLast_map {α : Type} {f : PyStr → α} : ∀ l : List PyStr, (∀ x ∈ l, f (x ++ [41]) = f x) → (closeLast l).map f = l.map f
  | [], _ => rfl
  | [x], h => by simp [closeLast, h]
  | x :: y :: r, h => by simpa [closeLast] using closeLast_map (y :: r) (fun z hz => h z (by simp at hz ⊢; tauto))

theorem closeLast_empty : ∀ {a : PyStr} {r : List PyStr}, a ≠ [] → (closeLast (a :: r)).any (·.isEmpty) = r.dropLast.any (·.isEmpty)
  | a, [], _ => by simp [closeLast]
  | a, [y], h => by simp [closeLast, h]
  | a, y :: z :: r, h => by
    have key : ∀ (y : PyStr) (r : List PyStr), (closeLast (y :: r)).any (·.isEmpty) = (y :: r).dropLast.any (·.isEmpty) := by
      intro y r
      induction r generalizing y with
      | nil => simp [closeLast]
      | cons w r ih => simp only [closeLast, List.any_cons, ih, List.dropLast_cons₂]
    have h' : a.isEmpty = false := by simpa using h
    rw [closeLast, List.any_cons, key, h']
    rfl

/-- Names in quotes, separated by commas. -/
def quotedNames (names : List PyStr) : PyStr := pyJoin py!"," (names.map fun n => py!"\"" ++ n ++ py!"\"")

theorem join_close (sep : PyStr) : ∀ (y : PyStr) (r : List PyStr),
    pyJoin sep (closeLast (y :: r)) = y ++ (r.map fun x => sep ++ x).flatten ++ [41]
  | y, [] => by simp [closeLast, pyJoin]
  | y, z :: r => by
    have := join_close sep z r
    cases r with
    | nil => simp [closeLast, pyJoin]
    | cons w r =>
      simp only [closeLast] at this ⊢
      rw [pyJoin, this]
      simp

theorem join_wrap : ∀ (x : List PyStr) (r : List (List PyStr)),
    showStores (x :: r) = py!"(" ++ quotedNames x ++ ((r.map quotedNames).map fun y => py!"),(" ++ y).flatten ++ [41]
  | x, [] => by simp [showStores, quotedNames, pyJoin]
  | x, y :: r => by
    have := join_wrap y r
    simp only [showStores, List.map_cons, pyJoin] at this ⊢
    rw [this]
    simp [quotedNames]

theorem quotedNames_no41 {names : List PyStr} (h : ∀ n ∈ names, ∀ c ∈ n, c ≠ 34 ∧ c ≠ 41) : 41 ∉ quotedNames names := by
  unfold quotedNames
  induction names with
  | nil => simp [pyJoin]
  | cons n names ih =>
    have h1 : 41 ∉ n := fun hc => (h n (by simp) 41 hc).2 rfl
    have ih := ih (fun a ha => h a (by simp [ha]))
    cases names with
    | nil => simp [pyJoin, h1]
    | cons m names =>
      simp only [List.map_cons, pyJoin, List.mem_append, not_or] at ih ⊢
      exact ⟨⟨by simp [h1], by simp⟩, ih⟩

theorem quotedNames_empty (names : List PyStr) : (quotedNames names).isEmpty = names.isEmpty := by
  rcases names with _ | ⟨n, _ | ⟨m, names⟩⟩ <;> simp [quotedNames, pyJoin]

/-- The parts of the answer to `AT+CPMS=?`. -/
def storeItems : List (List PyStr) → List PyStr
  | [] => []
  | x :: r => closeLast ((py!"(" ++ quotedNames x) :: r.map quotedNames)

theorem split_stores {stores : List (List PyStr)} (hne : stores ≠ []) (h : ∀ l ∈ stores, ∀ n ∈ l, ∀ c ∈ n, c ≠ 34 ∧ c ≠ 41) :
    pySplit py!"),(" (showStores stores) = storeItems stores := by
  obtain ⟨x, r, rfl⟩ : ∃ x r, stores = x :: r := by
    cases stores with
    | nil => exact absurd rfl hne
    | cons x r => exact ⟨x, r, rfl⟩
  have e : showStores (x :: r) = pyJoin py!"),(" (storeItems (x :: r)) := by
    rw [join_wrap, storeItems, join_close]
  have h41 : ∀ a ∈ (py!"(" ++ quotedNames x) :: r.map quotedNames, 41 ∉ a := by
    intro a ha
    rcases List.mem_cons.1 ha with rfl | ha
    · have := quotedNames_no41 (h x (by simp))
      simp [this]
    · obtain ⟨l, hl, rfl⟩ := List.mem_map.1 ha
      exact quotedNames_no41 (h l (by simp [hl]))
  rw [e, storeItems]
  have hi : (py!"(" ++ quotedNames x) :: r.map quotedNames ≠ [] := by simp
  generalize (py!"(" ++ quotedNames x) :: r.map quotedNames = items at h41 hi ⊢
  rcases List.eq_nil_or_concat items with rfl | ⟨l, z, rfl⟩
  · exact absurd rfl hi
  · rw [List.concat_eq_append] at h41 ⊢
    rw [closeLast_concat]
    refine splitAux_join (fun fuel cur hf => splitAux_last' (h41 z (by simp)) (by simpa using hf)) (fun a ha => h41 a (by simp [ha])) (Nat.lt_succ_self _)

theorem storeItems_empty {stores : List (List PyStr)} : (storeItems stores).any (·.isEmpty) = emptyStore stores := by
  cases stores with
  | nil => rfl
  | cons x r =>
    rw [storeItems, closeLast_empty (by simp), ← List.map_dropLast, List.any_map, emptyStore, List.tail_cons]
    congr 1
    funext names
    exact quotedNames_empty names

/-- A name is found in the text iff it is one of the list. -/
theorem found_iff {m pre t : PyStr} {names : List PyStr} (hm : 34 ∉ m) (h44 : m.head? ≠ some 44) (hne : m ≠ []) (hp : 34 ∉ pre) (ht : 34 ∉ t)
    (h : ∀ n ∈ names, ∀ c ∈ n, c ≠ 34 ∧ c ≠ 41) :
    pyContains (34 :: (m ++ [34])) (pre ++ quotedNames names ++ t) = true ↔ m ∈ names := by
  rw [pyContains_iff, List.append_assoc, infix_skip hp]
  exact quoted_infix hm h44 hne ht (fun n hn hc => (h n hn 34 hc).1 rfl)

theorem preferred_eq {pre t : PyStr} {names : List PyStr} (hp : 34 ∉ pre) (ht : 34 ∉ t)
    (h : ∀ n ∈ names, ∀ c ∈ n, c ≠ 34 ∧ c ≠ 41) :
    preferredMemory (pre ++ quotedNames names ++ t) = if favourite names = [] then none else some (favourite names) := by
  unfold preferredMemory favourite
  have h1 := found_iff (m := py!"ME") (by decide) (by decide) (by decide) hp ht h
  have h2 := found_iff (m := py!"SM") (by decide) (by decide) (by decide) hp ht h
  have h3 := found_iff (m := py!"SR") (by decide) (by decide) (by decide) hp ht h
  simp only [List.cons_append, List.nil_append] at h1 h2 h3
  simp only [h1, h2, h3]
  split
  · simp
  · split
    · simp
    · split <;> simp

theorem preferred_map {stores : List (List PyStr)} (h : ∀ l ∈ stores, ∀ n ∈ l, ∀ c ∈ n, c ≠ 34 ∧ c ≠ 41) :
    (storeItems stores).map (fun i => (preferredMemory i).getD []) = stores.map favourite := by
  cases stores with
  | nil => rfl
  | cons x r =>
    have base : ∀ {pre t : PyStr} {names : List PyStr}, names ∈ x :: r → 34 ∉ pre → 34 ∉ t →
        (preferredMemory (pre ++ quotedNames names ++ t)).getD [] = favourite names := by
      intro pre t names hn hp ht
      rw [preferred_eq hp ht (h names hn)]
      split
      · next e => simp [e]
      · rfl
    have b0 : ∀ names ∈ x :: r, (preferredMemory (quotedNames names)).getD [] = favourite names := by
      intro names hn
      simpa using base (pre := []) (t := []) hn (by simp) (by simp)
    rw [storeItems, closeLast_map]
    · rw [List.map_cons, List.map_cons]
      congr 1
      · simpa using base (pre := [40]) (t := []) (List.mem_cons_self) (by simp) (by simp)
      · rw [List.map_map]
        exact List.map_congr_left fun names hn => b0 names (by simp [hn])
    · intro y hy
      rcases List.mem_cons.1 hy with rfl | hy
      · rw [base (List.mem_cons_self) (by simp) (by simp)]
        simpa using (base (pre := [40]) (t := []) (List.mem_cons_self) (by simp) (by simp)).symm
      · obtain ⟨names, hn, rfl⟩ := List.mem_map.1 hy
        have := base (pre := []) (t := [41]) (names := names) (by simp [hn]) (by simp) (by simp)
        rw [List.nil_append] at this
        rw [this, b0 names (by simp [hn])]

theorem preferred_head {x : List PyStr} {r : List (List PyStr)} (h : ∀ n ∈ x, ∀ c ∈ n, c ≠ 34 ∧ c ≠ 41) :
    (storeItems (x :: r)).head?.bind preferredMemory = if favourite x = [] then none else some (favourite x) := by
  cases r with
  | nil => exact preferred_eq (by simp) (by simp) h
  | cons y r =>
    have := preferred_eq (pre := [40]) (t := []) (by simp) (by simp) h
    rw [List.append_nil] at this
    exact this

end Gsm
