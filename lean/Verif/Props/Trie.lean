import Verif.Lemmas.Trie
/-! # Properties C53-C56: the prefix tree of the terminal -/
namespace Gsm
open Spec
variable {V : Type}

/-- The answer of the abstract map in the form of `__getitem__`. -/
def itemAnswer : Option V → Except PyErr V
  | some v => .ok v
  | none => .error .keyError

/-! ### C53 -/

/-- C53: whatever was done before, `t[k] = v` stores `v` under `k`; every other key answers as before,
except for at most one stored key properly extending `k`, which is lost. -/
theorem C53_set (ops : List (TrieOp V)) (k : PyStr) (v : V) :
    ((trieOf ops).set k v).getItem k = .ok v ∧
    ∃ lost : Option PyStr,
      (∀ x, lost = some x → Extends k x ∧ (trieOf ops).contains x = true) ∧
      ∀ k', k' ≠ k → ((trieOf ops).set k v).getItem k' =
        if lost = some k' then .error .keyError else (trieOf ops).getItem k' := by
  have h := trieOf_wf ops
  refine ⟨by rw [Trie.getItem_set k v k h, if_pos rfl], ((trieOf ops).tailAt k).map (k ++ ·), ?_, ?_⟩
  · intro x hx
    simp only [Option.map_eq_some_iff] at hx
    obtain ⟨s, hs, rfl⟩ := hx
    obtain ⟨h1, v', h2⟩ := Trie.tailAt_stored h hs
    refine ⟨⟨List.prefix_append _ _, ?_⟩, by simp [Trie.contains, h2]⟩
    intro hc
    exact h1 (List.append_cancel_left (hc.trans (List.append_nil k).symm))
  · intro k' hk'
    rw [Trie.getItem_set k v k' h, if_neg hk']
    congr 1
    simp only [Option.map_eq_some_iff]
    exact propext ⟨fun ⟨s, a, b⟩ => ⟨s, a, b.symm⟩, fun ⟨s, a, b⟩ => ⟨s, a, b.symm⟩⟩

/-- C53: when no stored key properly extends `k`, every other key is unaffected. -/
theorem C53_set_safe (ops : List (TrieOp V)) (k : PyStr) (v : V)
    (hs : ∀ k', (trieOf ops).contains k' = true → ¬ Extends k k') (k' : PyStr) :
    ((trieOf ops).set k v).getItem k' = if k' = k then .ok v else (trieOf ops).getItem k' := by
  obtain ⟨h1, lost, h2, h3⟩ := C53_set ops k v
  by_cases hk : k' = k
  · rw [if_pos hk, hk, h1]
  · rw [if_neg hk, h3 k' hk, if_neg]
    intro hl
    obtain ⟨a, b⟩ := h2 k' hl
    exact hs k' b a

/-- C53: a trie used so that no key is stored while a proper extension of it is present behaves as a
map, through any number of stores and deletions. -/
theorem C53_refines (ops : List (TrieOp V)) (h : SafeFrom (fun _ => none) ops) (k : PyStr) :
    (trieOf ops).getItem k = itemAnswer (mapOf ops k) := by
  have key : ∀ (ops : List (TrieOp V)) (t : Trie V) (m : SMap V), t.WF →
      (∀ b bk w, t.entry ≠ some (b :: bk, w)) → (∀ k, t.getItem k = itemAnswer (m k)) → SafeFrom m ops →
      ∀ k, (ops.foldl (fun t o => o.run t) t).getItem k = itemAnswer ((ops.foldl (fun m o => mapRun o m) m) k) := by
    intro ops
    induction ops with
    | nil => exact fun t m _ _ h _ => h
    | cons o ops ih =>
      intro t m hw hr hm hs
      cases o with
      | set k0 v =>
        refine ih _ _ (TrieOp.wf_run (.set k0 v) hw) (Trie.root_set hr) ?_ hs.2
        intro k
        simp only [TrieOp.run, mapRun]
        rw [Trie.getItem_set k0 v k hw]
        by_cases hk : k = k0
        · simp [hk, itemAnswer]
        · rw [if_neg hk, if_neg hk, if_neg, hm]
          rintro ⟨s, hts, rfl⟩
          obtain ⟨h1, v', h2⟩ := Trie.tailAt_stored hw hts
          refine hs.1 (k0 ++ s) ?_ ⟨List.prefix_append _ _, hk⟩
          intro hc
          rw [hm, hc] at h2
          cases h2
      | del k0 =>
        have hd := Trie.getItem_del k0 hw (fun b bk w h => absurd h (hr b bk w))
        refine ih _ _ (TrieOp.wf_run (.del k0) hw) ?_ ?_ hs
        · simp only [TrieOp.run]
          cases hd : t.delItem k0 with
          | ok t' => exact Trie.root_del hr hd
          | error _ => exact hr
        · intro k
          simp only [TrieOp.run, mapRun]
          rcases hd with ⟨h1, h2⟩ | ⟨t', h1, _, h3⟩
          · rw [h1]
            simp only
            by_cases hk : k = k0
            · rw [if_pos hk, hk, h2]; rfl
            · rw [if_neg hk, hm]
          · rw [h1]
            simp only
            rw [h3 k]
            by_cases hk : k = k0
            · rw [if_pos hk, if_pos hk]; rfl
            · rw [if_neg hk, if_neg hk, hm]
  exact key ops .empty _ Trie.wf_empty (by simp [Trie.empty, Trie.entry])
    (by intro k; cases k <;> simp [Trie.empty, Trie.getItem, Slots.lookup, itemAnswer]) h k

/-- C53 as wished is violated: storing a prefix of a stored key can lose the stored key. -/
theorem C53_violated : ∃ (ops : List (TrieOp Nat)) (k k' : PyStr) (v : Nat), k' ≠ k ∧
    (trieOf ops).getItem k' = .ok 1 ∧ ((trieOf ops).set k v).getItem k' = .error .keyError :=
  ⟨[.set py!"ab" 1], py!"a", py!"ab", 2, by decide, by rfl, by rfl⟩

example : (trieOf [.set py!"AT" 1, .set py!"ATD" 2, .set py!"ATZ" 3, .del py!"ATD"]).getItem py!"ATZ" = .ok 3 := by
  rfl
example : SafeFrom (fun _ => none) [TrieOp.set py!"AT" 1, .set py!"ATD" 2] := by
  refine ⟨by simp, ?_, trivial⟩
  intro k' hk' he
  simp only [mapRun] at hk'
  split at hk'
  · next h => subst h; exact absurd he.1 (by decide)
  · simp at hk'

/-! ### C54 -/

/-- C54: a deletion raises `KeyError` iff the key is not stored; otherwise it removes exactly that key. -/
theorem C54_delete (ops : List (TrieOp V)) (k : PyStr) :
    ((trieOf ops).contains k = false → (trieOf ops).delItem k = .error .keyError) ∧
    ((trieOf ops).contains k = true → ∃ t', (trieOf ops).delItem k = .ok t' ∧
      ∀ k', t'.getItem k' = if k' = k then .error .keyError else (trieOf ops).getItem k') := by
  have hd := Trie.getItem_del k (trieOf_wf ops) (fun b bk w h => absurd h (trieOf_root ops b bk w))
  unfold Trie.contains
  rcases hd with ⟨h1, h2⟩ | ⟨t', h1, ⟨v, h2⟩, h3⟩
  · simp [h1, h2]
  · simp only [h2, Bool.true_eq_false, false_imp_iff, true_and]
    exact fun _ => ⟨t', h1, h3⟩

/-- C54: `in` and `get` agree with `[]`, which raises nothing but `KeyError`. -/
theorem C54_contains (t : Trie V) (k : PyStr) (d : V) :
    (t.contains k = true ∧ t.getItem k = .ok (t.getD k d)) ∨
    (t.contains k = false ∧ t.getItem k = .error .keyError ∧ t.getD k d = d) := by
  unfold Trie.contains Trie.getD
  cases h : t.getItem k with
  | ok v => exact .inl ⟨rfl, rfl⟩
  | error e => exact .inr ⟨rfl, by rw [Trie.getItem_error k t h], rfl⟩

example : (match (trieOf [.set py!"AT" 1, .set py!"ATD" 2]).delItem py!"AT" with
    | .ok t => (t.contains py!"AT", t.contains py!"ATD") | .error _ => (true, false)) = (false, true) := by rfl
example : (match (trieOf [.set py!"AT" 1]).delItem py!"A" with
    | .error .keyError => true | _ => false) = true := by rfl

/-! ### C55 -/

theorem contains_iff (t : Trie V) (k : PyStr) : t.contains k = true ↔ t.Has k := by
  unfold Trie.contains Trie.Has
  cases t.getItem k <;> simp

/-- C55: `keys()` lists each stored key exactly once and nothing else. -/
theorem C55_keys (ops : List (TrieOp V)) :
    ((trieOf ops).keys none).Nodup ∧
    ∀ k, k ∈ (trieOf ops).keys none ↔ (trieOf ops).contains k = true := by
  refine ⟨Trie.nodup_allKeys (trieOf_wf ops) [], fun k => ?_⟩
  rw [contains_iff]
  unfold Trie.keys
  rw [Trie.mem_allKeys (trieOf_wf ops)]
  simp

/-- C55: `len` is the number of stored keys. -/
theorem C55_len (ops : List (TrieOp V)) (l : List PyStr) (hl : l.Nodup)
    (hk : ∀ k, k ∈ l ↔ (trieOf ops).contains k = true) : (trieOf ops).len = l.length := by
  obtain ⟨h1, h2⟩ := C55_keys ops
  rw [Trie.len_eq _ []]
  have h3 : ∀ k, k ∈ (trieOf ops).allKeys [] ↔ k ∈ l := fun k => (h2 k).trans (hk k).symm
  exact ((List.perm_ext_iff_of_nodup h1 hl).2 h3).length_eq

/-- C55: `keys(p)` lists exactly the stored keys starting with `p`, each once, in the order of `keys()`. -/
theorem C55_keys_prefix (ops : List (TrieOp V)) (p : PyStr) :
    ((trieOf ops).keys (some p)).Nodup ∧
    (∀ k, k ∈ (trieOf ops).keys (some p) ↔ (trieOf ops).contains k = true ∧ p <+: k) ∧
    (trieOf ops).keys (some p) = ((trieOf ops).keys none).filter (fun k => decide (p <+: k)) := by
  have h : (trieOf ops).keys (some p) = ((trieOf ops).keys none).filter (fun k => decide (p <+: k)) := by
    have := Trie.filteredKeys_eq p [] (trieOf_wf ops)
    simpa [Trie.keys] using this
  obtain ⟨h1, h2⟩ := C55_keys ops
  refine ⟨by rw [h]; exact h1.filter _, fun k => ?_, h⟩
  rw [h, List.mem_filter, h2]
  simp

example : (trieOf [.set py!"AT" 1, .set py!"ATD" 2, .set py!"X" 4, .set py!"ATZ" 3, .del py!"ATD"]).keys (some py!"AT") =
    [py!"AT", py!"ATZ"] := by rfl
example : (trieOf [.set py!"AT" 1, .set py!"ATD" 2, .set py!"X" 4, .set py!"ATZ" 3, .del py!"ATD"]).len = 3 := by rfl

theorem trieLoop_running (pep479 : Bool) (body : PyStr → Trie V → Trie V) : ∀ (rest : List PyStr) (fuel : Nat) (t : Trie V), rest.length < fuel →
    TrieIter.loop pep479 body fuel (.running rest) t = (rest, if pep479 then some .runtimeError else none, rest.foldl (fun t k => body k t) t)
  | [], fuel + 1, t, _ => by cases pep479 <;> rfl
  | k :: rest, fuel + 1, t, h => by
    have := trieLoop_running pep479 body rest fuel (body k t) (by simpa using h)
    simp only [TrieIter.loop, TrieIter.step, TrieIter.go, this, List.foldl_cons]

/-- A loop over a trie gets the keys that were stored when it began, each once and in the order of `keys()`, whatever it does to the trie.
At the end, however, `RuntimeError` leaves the loop from Python 3.7 on. -/
theorem C55_iter (pep479 : Bool) (ops : List (TrieOp V)) (body : PyStr → Trie V → Trie V) {fuel : Nat} (hf : ((trieOf ops).keys none).length < fuel) :
    TrieIter.loop pep479 body fuel .start (trieOf ops) =
      ((trieOf ops).keys none, if pep479 then some .runtimeError else none, ((trieOf ops).keys none).foldl (fun t k => body k t) (trieOf ops)) := by
  rw [← trieLoop_running pep479 body ((trieOf ops).keys none) fuel (trieOf ops) hf]
  cases fuel with
  | zero => omega
  | succ fuel => rfl

example : (TrieIter.loop true (fun k t => (TrieOp.del k).run t) 9 .start (trieOf [.set py!"AT" 1, .set py!"ATD" 2, .set py!"X" 4])).1 =
      [py!"AT", py!"ATD", py!"X"] ∧
    (TrieIter.loop true (fun k t => (TrieOp.del k).run t) 9 .start (trieOf [.set py!"AT" 1, .set py!"ATD" 2, .set py!"X" 4])).2.1 = some .runtimeError ∧
    (TrieIter.loop true (fun k t => (TrieOp.del k).run t) 9 .start (trieOf [.set py!"AT" 1, .set py!"ATD" 2, .set py!"X" 4])).2.2.len = 0 := by
  decide +kernel

/-! ### C56 -/

/-- A history of stores only. -/
def storesOf (l : List (PyStr × V)) : List (TrieOp V) := l.map fun p => .set p.1 p.2

theorem full_stores (l : List (PyStr × V)) : (trieOf (storesOf l)).Full := by
  unfold trieOf storesOf
  have : ∀ (t : Trie V), t.Full → ((l.map fun p => TrieOp.set p.1 p.2).foldl (fun t o => o.run t) t).Full := by
    induction l with
    | nil => exact fun _ h => h
    | cons p l ih => exact fun t h => ih _ (Trie.full_set p.1 p.2 h).1
  exact this _ (by simp [Trie.empty, Trie.Full, Slots.Full])

/-- C56: after stores only, if no stored key is a proper prefix of `p`, the result is the longest
common prefix of the stored keys starting with `p`, and the empty string if there are none. -/
theorem C56_lcp (l : List (PyStr × V)) (p : PyStr)
    (hp : ∀ q, (trieOf (storesOf l)).contains q = true → ¬ Extends q p) :
    let K := fun k => (trieOf (storesOf l)).contains k = true ∧ p <+: k
    ((∃ k, K k) → IsLcp K ((trieOf (storesOf l)).longestCommonPrefix p)) ∧
    ((¬ ∃ k, K k) → (trieOf (storesOf l)).longestCommonPrefix p = []) := by
  simp only [contains_iff] at hp ⊢
  have := Trie.lcpAux_spec p [] (trieOf_wf (storesOf l)) (full_stores l) (.inr rfl) hp
  simpa only [Trie.longestCommonPrefix, List.nil_append, exists_eq_left'] using this

/-- C56: after any history, the result starts every stored key that starts with `p`. -/
theorem C56_common (ops : List (TrieOp V)) (p k : PyStr) (hk : (trieOf ops).contains k = true) (hp : p <+: k) :
    (trieOf ops).longestCommonPrefix p <+: k := by
  rw [contains_iff] at hk
  simpa [Trie.longestCommonPrefix] using Trie.lcpAux_sound p [] (trieOf_wf ops) hk hp

/-- C56: a stored key that is a proper prefix of `p` hides everything, after any history. -/
theorem C56_hidden (ops : List (TrieOp V)) (p q : PyStr) (hq : (trieOf ops).contains q = true) (he : Extends q p) :
    (trieOf ops).longestCommonPrefix p = [] :=
  Trie.lcpAux_shadow p [] (trieOf_wf ops) ((contains_iff _ _).1 hq) he

/-- C56 as wished is violated by stores alone: with `A` and `ATD` stored, the longest common prefix
for `AT` should be `ATD`. -/
theorem C56_violated_hidden : ∃ (l : List (PyStr × Nat)) (p : PyStr),
    (trieOf (storesOf l)).longestCommonPrefix p = [] ∧
    ((trieOf (storesOf l)).keys (some p)) = [py!"ATD"] :=
  ⟨[(py!"A", 1), (py!"ATD", 2)], py!"AT", by rfl, by rfl⟩

/-- C56 as wished is violated by deletions: a removed key still shortens the result, or is still
suggested when no key is left. -/
theorem C56_violated_deleted :
    (∃ (ops : List (TrieOp Nat)), (trieOf ops).keys none = [py!"ATZ"] ∧
      (trieOf ops).longestCommonPrefix [] = py!"AT") ∧
    (∃ (ops : List (TrieOp Nat)), (trieOf ops).keys none = [] ∧
      (trieOf ops).longestCommonPrefix [] = py!"AT") := by
  refine ⟨⟨[.set py!"ATDX" 1, .set py!"ATDY" 1, .set py!"ATZ" 1, .del py!"ATDX", .del py!"ATDY"], ?_, ?_⟩,
    ⟨[.set py!"ATX" 1, .set py!"ATY" 1, .del py!"ATX", .del py!"ATY"], ?_, ?_⟩⟩ <;> rfl

example : (trieOf (storesOf [(py!"AT+CMGS", 1), (py!"AT+CMGF", 2), (py!"ATD", 3)])).longestCommonPrefix py!"AT+" =
    py!"AT+CMG" := by rfl

end Gsm
