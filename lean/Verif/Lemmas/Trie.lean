import Verif.Spec.Trie
namespace Gsm
variable {V : Type}

mutual
/-- Reachable tries: a node with a compressed (non-empty) key has no slots; slot characters are distinct. -/
def Trie.WF : Trie V → Prop
  | .node slots entry =>
    (∀ b k v, entry = some (b :: k, v) → slots = .nil) ∧ slots.chars.Nodup ∧ slots.WF
def Slots.WF : Slots V → Prop
  | .nil => True
  | .cons _ t rest => t.WF ∧ rest.WF
end

theorem Slots.lookup_put (c d : Nat) (t : Trie V) : ∀ s : Slots V,
    (s.put c t).lookup d = if d = c then some t else s.lookup d
  | .nil => by simp [Slots.put, Slots.lookup, eq_comm]
  | .cons e u rest => by
    unfold Slots.put
    split
    · next h =>
      subst h
      simp only [Slots.lookup]
      by_cases hd : e = d
      · simp [hd]
      · simp [hd, Ne.symm hd]
    · next h =>
      simp only [Slots.lookup]
      rw [Slots.lookup_put c d t rest]
      by_cases hd : e = d
      · subst hd; simp [h]
      · simp [hd]

theorem Slots.lookup_none : ∀ {s : Slots V} {c : Nat}, s.lookup c = none ↔ c ∉ s.chars
  | .nil, c => by simp [Slots.lookup, Slots.chars]
  | .cons e u rest, c => by
    simp only [Slots.lookup, Slots.chars, List.mem_cons, not_or]
    by_cases h : e = c
    · simp [h]
    · simp [h, Slots.lookup_none (s := rest), Ne.symm h]

theorem Slots.lookup_del (c d : Nat) : ∀ s : Slots V, s.chars.Nodup →
    (s.del c).lookup d = if d = c then none else s.lookup d
  | .nil, _ => by simp [Slots.del, Slots.lookup]
  | .cons e u rest, h => by
    simp only [Slots.chars, List.nodup_cons] at h
    unfold Slots.del
    split
    · next he =>
      subst he
      simp only [Slots.lookup]
      by_cases hd : d = e
      · subst hd; simp [Slots.lookup_none.2 h.1]
      · simp [hd, Ne.symm hd]
    · next he =>
      simp only [Slots.lookup]
      rw [Slots.lookup_del c d rest h.2]
      by_cases hd : e = d
      · subst hd; simp [he]
      · simp [hd]

theorem Slots.chars_put (c : Nat) (t : Trie V) : ∀ s : Slots V,
    (s.put c t).chars = if c ∈ s.chars then s.chars else s.chars ++ [c]
  | .nil => by simp [Slots.put, Slots.chars]
  | .cons e u rest => by
    unfold Slots.put
    split
    · next h => subst h; simp [Slots.chars]
    · next h =>
      simp only [Slots.chars, Slots.chars_put c t rest, List.mem_cons, Ne.symm h, false_or]
      split <;> simp

theorem Slots.nodup_put {c : Nat} {t : Trie V} {s : Slots V} (h : s.chars.Nodup) : (s.put c t).chars.Nodup := by
  rw [Slots.chars_put]
  split
  · exact h
  · next hc => exact List.nodup_append.2 ⟨h, by simp, by simp; rintro a ha rfl; exact hc ha⟩

theorem Slots.mem_chars_del {c d : Nat} : ∀ {s : Slots V}, d ∈ (s.del c).chars → d ∈ s.chars
  | .nil, h => h
  | .cons e u rest, h => by
    unfold Slots.del at h
    split at h
    · simp [Slots.chars, h]
    · simp only [Slots.chars, List.mem_cons] at h ⊢
      exact h.imp id Slots.mem_chars_del

theorem Slots.nodup_del {c : Nat} : ∀ {s : Slots V}, s.chars.Nodup → (s.del c).chars.Nodup
  | .nil, h => h
  | .cons e u rest, h => by
    simp only [Slots.chars, List.nodup_cons] at h
    unfold Slots.del
    split
    · exact h.2
    · simp only [Slots.chars, List.nodup_cons]
      exact ⟨fun hm => h.1 (Slots.mem_chars_del hm), Slots.nodup_del h.2⟩

theorem Slots.wf_put {c : Nat} {t : Trie V} (ht : t.WF) : ∀ {s : Slots V}, s.WF → (s.put c t).WF
  | .nil, _ => ⟨ht, trivial⟩
  | .cons e u rest, h => by
    unfold Slots.put
    split
    · exact ⟨ht, h.2⟩
    · exact ⟨h.1, Slots.wf_put ht h.2⟩

theorem Slots.wf_del {c : Nat} : ∀ {s : Slots V}, s.WF → (s.del c).WF
  | .nil, h => h
  | .cons e u rest, h => by
    unfold Slots.del
    split
    · exact h.2
    · exact ⟨h.1, Slots.wf_del h.2⟩

theorem Slots.wf_lookup {c : Nat} {t : Trie V} : ∀ {s : Slots V}, s.WF → s.lookup c = some t → t.WF
  | .nil, _, h => by simp [Slots.lookup] at h
  | .cons e u rest, hw, h => by
    simp only [Slots.lookup] at h
    split at h
    · cases h; exact hw.1
    · exact Slots.wf_lookup hw.2 h

theorem Trie.wf_empty : (Trie.empty : Trie V).WF := by simp [Trie.empty, Trie.WF, Slots.WF, Slots.chars]

theorem Trie.wf_leaf (k : PyStr) (v : V) : (Trie.leaf k v).WF := by
  simp [Trie.leaf, Trie.WF, Slots.WF, Slots.chars]

theorem Trie.wf_set : ∀ (k : PyStr) (v : V) {t : Trie V}, t.WF → (t.set k v).WF
  | [], v, .node slots entry, h => by
    simp only [Trie.set, Trie.WF] at *
    exact ⟨by simp, h.2⟩
  | c :: k, v, .node slots entry, h => by
    simp only [Trie.WF] at h
    obtain ⟨h1, h2, h3⟩ := h
    unfold Trie.set
    cases hl : slots.lookup c with
    | some t =>
      simp only [Trie.WF]
      refine ⟨?_, Slots.nodup_put h2, Slots.wf_put (Trie.wf_set k v (Slots.wf_lookup h3 hl)) h3⟩
      intro b k' v' he
      rw [h1 b k' v' he] at hl
      simp [Slots.lookup] at hl
    | none =>
      match entry, h1 with
      | none, _ =>
        simp only [Trie.WF]
        exact ⟨by simp, Slots.nodup_put h2, Slots.wf_put (Trie.wf_leaf _ _) h3⟩
      | some ([], w), _ =>
        simp only [Trie.WF]
        exact ⟨by simp, Slots.nodup_put h2, Slots.wf_put (Trie.wf_leaf _ _) h3⟩
      | some (b :: bk, w), h1 =>
        simp only
        split
        · simp only [Trie.WF]
          exact ⟨by simp, Slots.nodup_put (Slots.nodup_put h2),
            Slots.wf_put (Trie.wf_leaf _ _) (Slots.wf_put (Trie.wf_leaf _ _) h3)⟩
        · simp only [Trie.WF]
          exact ⟨by simp, Slots.nodup_put h2, Slots.wf_put (Trie.wf_set k v (Trie.wf_leaf _ _)) h3⟩

theorem Trie.wf_del : ∀ {k : PyStr} {t t' : Trie V}, t.WF → t.delItem k = .ok t' → t'.WF
  | [], .node slots entry, t', h, hd => by
    simp only [Trie.WF] at h
    unfold Trie.delItem at hd
    split at hd
    · cases hd; simp only [Trie.WF]; exact ⟨by simp, h.2⟩
    · cases hd
  | c :: k, .node slots entry, t', h, hd => by
    simp only [Trie.WF] at h
    obtain ⟨h1, h2, h3⟩ := h
    unfold Trie.delItem at hd
    cases hl : slots.lookup c with
    | none => simp [hl] at hd
    | some t =>
      have hne : ∀ b k' v', entry ≠ some (b :: k', v') := by
        intro b k' v' he
        rw [h1 b k' v' he] at hl
        simp [Slots.lookup] at hl
      have ht := Slots.wf_lookup h3 hl
      obtain ⟨slots', entry'⟩ := t
      simp only [hl] at hd
      split at hd
      · split at hd
        · cases hd
          simp only [Trie.WF] at ht ⊢
          refine ⟨fun b k' v' he => absurd he (hne b k' v'), Slots.nodup_put h2, Slots.wf_put ?_ h3⟩
          simp only [Trie.WF]
          exact ⟨by simp, ht.2⟩
        · cases hd
          simp only [Trie.WF]
          exact ⟨fun b k' v' he => absurd he (hne b k' v'), Slots.nodup_del h2, Slots.wf_del h3⟩
      · cases hr : Trie.delItem k (.node slots' entry') with
        | error e => simp [hr, bind, Except.bind] at hd
        | ok u =>
          simp only [hr, bind, Except.bind, pure, Except.pure] at hd
          cases hd
          simp only [Trie.WF]
          exact ⟨fun b k' v' he => absurd he (hne b k' v'), Slots.nodup_put h2, Slots.wf_put (Trie.wf_del ht hr) h3⟩

theorem TrieOp.wf_run (o : TrieOp V) {t : Trie V} (h : t.WF) : (o.run t).WF := by
  cases o with
  | set k v => exact Trie.wf_set k v h
  | del k =>
    simp only [TrieOp.run]
    cases hd : t.delItem k with
    | ok t' => exact Trie.wf_del h hd
    | error _ => exact h

theorem trieOf_wf (ops : List (TrieOp V)) : (trieOf ops).WF := by
  unfold trieOf
  have : ∀ (t : Trie V), t.WF → (ops.foldl (fun t o => o.run t) t).WF := by
    induction ops with
    | nil => exact fun _ h => h
    | cons o ops ih => exact fun t h => ih _ (o.wf_run h)
  exact this _ Trie.wf_empty

/-- What a compressed key has left after `k`, if it properly extends `k`. -/
def tailOf (k : PyStr) : Option (PyStr × V) → Option PyStr
  | some (key, _) => if k <+: key ∧ key ≠ k then some (key.drop k.length) else none
  | none => none

/-- The rest of the compressed key that properly extends `k`, if the path of `k` ends in one. -/
def Trie.tailAt : PyStr → Trie V → Option PyStr
  | [], .node _ entry => tailOf [] entry
  | c :: k, .node slots entry =>
    match slots.lookup c with
    | some t => tailAt k t
    | none => tailOf (c :: k) entry

theorem Trie.getItem_leaf (k k' : PyStr) (v : V) :
    (Trie.leaf k v).getItem k' = if k' = k then .ok v else .error .keyError := by
  unfold Trie.leaf
  cases k' with
  | nil => cases k <;> simp [Trie.getItem]
  | cons c k' => simp [Trie.getItem, Slots.lookup]

theorem Trie.tailAt_leaf (k k' : PyStr) (v : V) :
    (Trie.leaf k v).tailAt k' = if k' <+: k ∧ k ≠ k' then some (k.drop k'.length) else none := by
  unfold Trie.leaf
  cases k' with
  | nil => simp [Trie.tailAt, tailOf]
  | cons c k' => simp [Trie.tailAt, Slots.lookup, tailOf]

/-- With a compressed key the tail condition says that `k'` is that key. -/
theorem tailOf_iff {k key k' : PyStr} {w : V} :
    (∃ s, tailOf k (some (key, w)) = some s ∧ k' = k ++ s) ↔ (k' = key ∧ k <+: key ∧ key ≠ k) := by
  simp only [tailOf]
  constructor
  · rintro ⟨s, hs, rfl⟩
    by_cases h : k <+: key ∧ key ≠ k
    · rw [if_pos h] at hs
      obtain ⟨⟨r, rfl⟩, h2⟩ := h
      rw [List.drop_left, Option.some.injEq] at hs
      subst hs
      exact ⟨rfl, List.prefix_append _ _, h2⟩
    · rw [if_neg h] at hs
      cases hs
  · rintro ⟨rfl, ⟨r, rfl⟩, h2⟩
    exact ⟨r, by simpa using h2, rfl⟩

/-- What a store changes, exactly. -/
theorem Trie.getItem_set : ∀ (k : PyStr) (v : V) (k' : PyStr) {t : Trie V}, t.WF →
    (t.set k v).getItem k' =
      if k' = k then .ok v
      else if ∃ s, t.tailAt k = some s ∧ k' = k ++ s then .error .keyError
      else t.getItem k'
  | [], v, k', .node slots entry, h => by
    simp only [Trie.WF] at h
    cases k' with
    | nil => simp [Trie.set, Trie.getItem]
    | cons d k1 =>
      simp only [Trie.set, Trie.getItem, List.nil_append, reduceCtorEq, if_false]
      cases hl : slots.lookup d with
      | some t =>
        rw [if_neg]
        rintro ⟨s, hs, _⟩
        match entry, h.1 with
        | none, _ => simp [Trie.tailAt, tailOf] at hs
        | some ([], w), _ => simp [Trie.tailAt, tailOf] at hs
        | some (b :: bk, w), h1 => rw [h1 _ _ _ rfl] at hl; simp [Slots.lookup] at hl
      | none =>
        match entry with
        | none => simp [Trie.tailAt, tailOf]
        | some ([], w) => simp [Trie.tailAt, tailOf]
        | some (b :: bk, w) =>
          have := tailOf_iff (k := []) (key := b :: bk) (k' := d :: k1) (w := w)
          simp only [List.nil_append] at this
          simp only [Trie.tailAt, this]
          by_cases he : d :: k1 = b :: bk
          · simp [he]
          · simp [he]
  | c :: k, v, k', .node slots entry, h => by
    simp only [Trie.WF] at h
    obtain ⟨h1, h2, h3⟩ := h
    cases hl : slots.lookup c with
    | some t =>
      have ih := Trie.getItem_set k v
      simp only [Trie.set, hl, Trie.tailAt]
      cases k' with
      | nil => simp [Trie.getItem]
      | cons d k1 =>
        simp only [Trie.getItem, Slots.lookup_put]
        by_cases hd : d = c
        · subst hd
          simp only [if_true, ih k1 (Slots.wf_lookup h3 hl), hl, List.cons.injEq, true_and, List.cons_append]
        · simp [hd]
    | none =>
      simp only [Trie.tailAt, hl]
      have plain : ∀ e : Option (PyStr × V), (∀ b bk w, e ≠ some (b :: bk, w)) →
          (Trie.node (slots.put c (.leaf k v)) e).getItem k' =
            if k' = c :: k then .ok v else (Trie.node slots e).getItem k' := by
        intro e he
        cases k' with
        | nil => simp [Trie.getItem]
        | cons d k1 =>
          simp only [Trie.getItem, Slots.lookup_put]
          by_cases hd : d = c
          · subst hd
            simp only [if_true, Trie.getItem_leaf, hl, List.cons.injEq, true_and]
            split
            · rfl
            · match e, he with
              | none, _ => rfl
              | some ([], w), _ => simp
              | some (b :: bk, w), he => exact absurd rfl (he b bk w)
          · simp [hd]
      match entry, h1 with
      | none, _ =>
        simp only [Trie.set, hl, tailOf, reduceCtorEq, false_and, exists_false, if_false]
        exact plain none (by simp)
      | some ([], w), _ =>
        simp only [Trie.set, hl, tailOf_iff]
        rw [plain (some ([], w)) (by simp)]
        simp
      | some (b :: bk, w), h1 =>
        simp only [tailOf_iff]
        have hs := h1 b bk w rfl
        subst hs
        simp only [Trie.set, Slots.lookup]
        by_cases hb : b = c
        · subst hb
          simp only [ne_eq, not_true_eq_false, if_false]
          cases k' with
          | nil => simp [Trie.getItem]
          | cons d k1 =>
            simp only [Trie.getItem, Slots.lookup_put, Slots.lookup]
            by_cases hd : d = b
            · subst hd
              simp only [if_true, List.cons.injEq, true_and, List.cons_prefix_cons]
              have hc : (∃ s, (Trie.leaf bk w).tailAt k = some s ∧ k1 = k ++ s) ↔ (k1 = bk ∧ k <+: bk ∧ bk ≠ k) := by
                rw [Trie.tailAt_leaf]; exact tailOf_iff (w := w)
              rw [Trie.getItem_set k v k1 (Trie.wf_leaf _ _), Trie.getItem_leaf]
              simp only [hc, ne_eq]
            · simp [hd]
        · simp only [ne_eq, hb, not_false_eq_true, if_true]
          cases k' with
          | nil => simp [Trie.getItem]
          | cons d k1 =>
            simp only [Trie.getItem, Slots.lookup_put, Slots.lookup]
            by_cases hd : d = c
            · subst hd
              simp only [if_true, Trie.getItem_leaf, List.cons.injEq, true_and, Ne.symm hb, false_and, if_false]
            · by_cases hd2 : d = b
              · subst hd2
                simp [hd, Ne.symm hd, Trie.getItem_leaf]
              · simp [hd, hd2]

/-- A tail is the rest of a stored key. -/
theorem Trie.tailAt_stored : ∀ {k : PyStr} {t : Trie V} {s : PyStr}, t.WF → t.tailAt k = some s →
    s ≠ [] ∧ ∃ v, t.getItem (k ++ s) = .ok v
  | [], .node slots entry, s, h, hs => by
    simp only [Trie.WF] at h
    match entry, h.1 with
    | none, _ => simp [Trie.tailAt, tailOf] at hs
    | some ([], w), _ => simp [Trie.tailAt, tailOf] at hs
    | some (b :: bk, w), h1 =>
      simp [Trie.tailAt, tailOf] at hs
      subst hs
      rw [h1 b bk w rfl]
      exact ⟨by simp, w, by simp [Trie.getItem, Slots.lookup]⟩
  | c :: k, .node slots entry, s, h, hs => by
    simp only [Trie.WF] at h
    cases hl : slots.lookup c with
    | some t =>
      simp only [Trie.tailAt, hl] at hs
      obtain ⟨h1, v, h2⟩ := Trie.tailAt_stored (Slots.wf_lookup h.2.2 hl) hs
      exact ⟨h1, v, by simp [Trie.getItem, hl, h2]⟩
    | none =>
      simp only [Trie.tailAt, hl] at hs
      match entry with
      | none => simp [tailOf] at hs
      | some (key, w) =>
        obtain ⟨h1, h2, h3⟩ := (tailOf_iff (k' := c :: k ++ s)).1 ⟨s, hs, rfl⟩
        refine ⟨?_, w, ?_⟩
        · rintro rfl
          rw [List.append_nil] at h1
          exact h3 h1.symm
        · simp only [List.cons_append] at h1 ⊢
          simp [Trie.getItem, hl, h1]

/-- The entry of a node. -/
def Trie.entry : Trie V → Option (PyStr × V)
  | .node _ e => e

/-- What a deletion does, exactly. -/
theorem Trie.getItem_del : ∀ (k : PyStr) {t : Trie V}, t.WF → (∀ b bk w, t.entry = some (b :: bk, w) → k ≠ b :: bk) →
    (t.delItem k = .error .keyError ∧ t.getItem k = .error .keyError) ∨
    ∃ t', t.delItem k = .ok t' ∧ (∃ v, t.getItem k = .ok v) ∧
      ∀ k', t'.getItem k' = if k' = k then .error .keyError else t.getItem k'
  | [], .node slots entry, h, _ => by
    match entry with
    | none => exact .inl ⟨rfl, rfl⟩
    | some (b :: bk, w) => exact .inl ⟨rfl, rfl⟩
    | some ([], w) =>
      refine .inr ⟨.node slots none, rfl, ⟨w, rfl⟩, fun k' => ?_⟩
      cases k' with
      | nil => simp [Trie.getItem]
      | cons d k1 =>
        simp only [Trie.getItem, reduceCtorEq, if_false]
  | c :: k, .node slots entry, h, hne => by
    simp only [Trie.WF] at h
    simp only [Trie.entry] at hne
    obtain ⟨h1, h2, h3⟩ := h
    cases hl : slots.lookup c with
    | none =>
      refine .inl ⟨by simp [Trie.delItem, hl], ?_⟩
      simp only [Trie.getItem, hl]
      match entry, hne with
      | none, _ => rfl
      | some ([], w), _ => simp
      | some (b :: bk, w), hne => exact if_neg (hne b bk w rfl)
    | some t =>
      have hent : ∀ b bk w, entry ≠ some (b :: bk, w) := by
        intro b bk w he
        rw [h1 b bk w he] at hl
        simp [Slots.lookup] at hl
      have other : ∀ (u : Slots V) (k' : PyStr), (∀ d, d ≠ c → u.lookup d = slots.lookup d) →
          (∀ k1, k' ≠ c :: k1) → (Trie.node u entry).getItem k' = (Trie.node slots entry).getItem k' := by
        intro u k' hu hk
        cases k' with
        | nil => rfl
        | cons d k1 =>
          have hd : d ≠ c := fun h => hk k1 (by rw [h])
          simp only [Trie.getItem, hu d hd]
      have ht := Slots.wf_lookup h3 hl
      obtain ⟨slots', entry'⟩ := t
      unfold Trie.delItem
      simp only [hl]
      by_cases he : entry'.map (·.1) = some k
      · rw [if_pos he]
        obtain ⟨w, rfl⟩ : ∃ w, entry' = some (k, w) := by
          cases entry' with
          | none => simp at he
          | some p => obtain ⟨a, b⟩ := p; simp at he; subst he; exact ⟨b, rfl⟩
        have hget : (Trie.node slots' (some (k, w))).getItem k = .ok w := by
          simp only [Trie.WF] at ht
          cases k with
          | nil => rfl
          | cons b bk => rw [ht.1 b bk w rfl]; simp [Trie.getItem, Slots.lookup]
        have hk : (Trie.node slots entry).getItem (c :: k) = .ok w := by simp only [Trie.getItem, hl, hget]
        cases slots' with
        | cons d u r =>
          refine .inr ⟨_, rfl, ⟨w, hk⟩, fun k' => ?_⟩
          have hknil : k = [] := by
            cases k with
            | nil => rfl
            | cons b bk => simp only [Trie.WF] at ht; cases ht.1 b bk w rfl
          subst hknil
          by_cases hc : ∃ k1, k' = c :: k1
          · obtain ⟨k1, rfl⟩ := hc
            simp only [Trie.getItem, Slots.lookup_put, if_true, hl]
            cases k1 with
            | nil => simp [Trie.getItem]
            | cons x k2 => simp only [Trie.getItem, List.cons.injEq, reduceCtorEq, and_false, if_false]
          · rw [other _ k' (fun d hd => by rw [Slots.lookup_put, if_neg hd]) (fun k1 h => hc ⟨k1, h⟩)]
            rw [if_neg (fun h => hc ⟨_, h⟩)]
        | nil =>
          refine .inr ⟨_, rfl, ⟨w, hk⟩, fun k' => ?_⟩
          by_cases hc : ∃ k1, k' = c :: k1
          · obtain ⟨k1, rfl⟩ := hc
            simp only [Trie.getItem, Slots.lookup_del c c slots h2, if_true, hl, List.cons.injEq, true_and]
            have h5 : (Trie.node (.nil : Slots V) (some (k, w))).getItem k1 =
                if k1 = k then .ok w else .error .keyError := Trie.getItem_leaf k k1 w
            rw [h5]
            match entry, hent with
            | none, _ => by_cases hk1 : k1 = k <;> simp [hk1]
            | some ([], w), _ => by_cases hk1 : k1 = k <;> simp [hk1]
            | some (b :: bk, w), h => exact absurd rfl (h b bk w)
          · rw [other _ k' (fun d hd => by rw [Slots.lookup_del c d slots h2, if_neg hd]) (fun k1 h => hc ⟨k1, h⟩)]
            rw [if_neg (fun h => hc ⟨_, h⟩)]
      · rw [if_neg he]
        have hsub := Trie.getItem_del k ht (by
          rintro b bk w hh rfl
          simp only [Trie.entry] at hh
          exact he (by rw [hh]; rfl))
        rcases hsub with ⟨a1, a2⟩ | ⟨t', a1, ⟨v, a2⟩, a3⟩
        · exact .inl ⟨by rw [a1]; rfl, by simp only [Trie.getItem, hl, a2]⟩
        · refine .inr ⟨.node (slots.put c t') entry, by rw [a1]; rfl, ⟨v, by simp only [Trie.getItem, hl, a2]⟩, fun k' => ?_⟩
          by_cases hc : ∃ k1, k' = c :: k1
          · obtain ⟨k1, rfl⟩ := hc
            simp only [Trie.getItem, Slots.lookup_put, if_true, hl, a3, List.cons.injEq, true_and]
          · rw [other _ k' (fun d hd => by rw [Slots.lookup_put, if_neg hd]) (fun k1 h => hc ⟨k1, h⟩)]
            rw [if_neg (fun h => hc ⟨_, h⟩)]

/-- The root of a trie built by operations is never compressed. -/
theorem Trie.root_set {k : PyStr} {v : V} {t : Trie V} (h : ∀ b bk w, t.entry ≠ some (b :: bk, w)) :
    ∀ b bk w, (t.set k v).entry ≠ some (b :: bk, w) := by
  intro b bk w
  obtain ⟨slots, entry⟩ := t
  simp only [Trie.entry] at h
  cases k with
  | nil => simp [Trie.set, Trie.entry]
  | cons c k =>
    unfold Trie.set
    split
    · split
      · exact absurd rfl (h _ _ _)
      · simpa [Trie.entry] using h b bk w
    · simpa [Trie.entry] using h b bk w

theorem Trie.root_del {k : PyStr} {t t' : Trie V} (h : ∀ b bk w, t.entry ≠ some (b :: bk, w))
    (hd : t.delItem k = .ok t') : ∀ b bk w, t'.entry ≠ some (b :: bk, w) := by
  intro b bk w
  obtain ⟨slots, entry⟩ := t
  simp only [Trie.entry] at h
  cases k with
  | nil =>
    unfold Trie.delItem at hd
    split at hd <;> cases hd
    simp [Trie.entry]
  | cons c k =>
    unfold Trie.delItem at hd
    cases hl : slots.lookup c with
    | none => simp [hl] at hd
    | some t =>
      obtain ⟨slots', entry'⟩ := t
      simp only [hl] at hd
      split at hd
      · split at hd <;> cases hd <;> simpa [Trie.entry] using h b bk w
      · cases hr : Trie.delItem k (.node slots' entry') with
        | error e => simp [hr, bind, Except.bind] at hd
        | ok u =>
          simp only [hr, bind, Except.bind, pure, Except.pure] at hd
          cases hd
          simpa [Trie.entry] using h b bk w

theorem trieOf_root (ops : List (TrieOp V)) : ∀ b bk w, (trieOf ops).entry ≠ some (b :: bk, w) := by
  unfold trieOf
  have : ∀ (t : Trie V), (∀ b bk w, t.entry ≠ some (b :: bk, w)) →
      ∀ b bk w, (ops.foldl (fun t o => o.run t) t).entry ≠ some (b :: bk, w) := by
    induction ops with
    | nil => exact fun _ h => h
    | cons o ops ih =>
      intro t h
      refine ih _ ?_
      cases o with
      | set k v => exact Trie.root_set h
      | del k =>
        simp only [TrieOp.run]
        cases hd : t.delItem k with
        | ok t' => exact Trie.root_del h hd
        | error _ => exact h
  exact this _ (by simp [Trie.empty, Trie.entry])

/-! ### Enumeration -/

mutual
theorem Trie.len_eq : ∀ (t : Trie V) (pre : PyStr), t.len = (t.allKeys pre).length
  | .node slots entry, pre => by
    rw [Trie.len, Trie.allKeys, List.length_append, Slots.len_eq slots pre]
    cases entry <;> rfl
theorem Slots.len_eq : ∀ (s : Slots V) (pre : PyStr), s.len = (s.allKeys pre).length
  | .nil, _ => rfl
  | .cons c t rest, pre => by
    rw [Slots.len, Slots.allKeys, List.length_append, Trie.len_eq t, Slots.len_eq rest]
end

/-- `k in t`. -/
def Trie.Has (t : Trie V) (k : PyStr) : Prop := ∃ v, t.getItem k = .ok v

mutual
theorem Trie.mem_allKeys : ∀ {t : Trie V}, t.WF → ∀ {pre x : PyStr},
    x ∈ t.allKeys pre ↔ ∃ k, x = pre ++ k ∧ t.Has k
  | .node slots entry, h, pre, x => by
    simp only [Trie.WF] at h
    rw [Trie.allKeys, List.mem_append, Slots.mem_allKeys h.2.1 h.2.2]
    constructor
    · rintro (h' | ⟨c, t, k, hl, rfl, v, hv⟩)
      · match entry, h.1 with
        | none, _ => simp [ownKey] at h'
        | some (k, w), h1 =>
          simp only [ownKey, List.mem_singleton] at h'
          refine ⟨k, h', w, ?_⟩
          cases k with
          | nil => rfl
          | cons b bk => rw [h1 b bk w rfl]; simp [Trie.getItem, Slots.lookup]
      · exact ⟨c :: k, rfl, v, by simp only [Trie.getItem, hl, hv]⟩
    · rintro ⟨k, rfl, v, hv⟩
      cases k with
      | nil =>
        left
        match entry with
        | none => simp [Trie.getItem] at hv
        | some ([], w) => simp [ownKey]
        | some (b :: bk, w) => simp [Trie.getItem] at hv
      | cons c k =>
        simp only [Trie.getItem] at hv
        cases hl : slots.lookup c with
        | some t =>
          rw [hl] at hv
          exact .inr ⟨c, t, k, hl, rfl, v, hv⟩
        | none =>
          rw [hl] at hv
          left
          match entry with
          | none => simp at hv
          | some (k', w) =>
            simp only at hv
            split at hv
            · next he => simp [ownKey, he]
            · cases hv
theorem Slots.mem_allKeys : ∀ {s : Slots V}, s.chars.Nodup → s.WF → ∀ {pre x : PyStr},
    x ∈ s.allKeys pre ↔ ∃ c t k, s.lookup c = some t ∧ x = pre ++ c :: k ∧ t.Has k
  | .nil, _, _, pre, x => by simp [Slots.allKeys, Slots.lookup]
  | .cons c t rest, hn, hw, pre, x => by
    simp only [Slots.chars, List.nodup_cons] at hn
    rw [Slots.allKeys, List.mem_append, Trie.mem_allKeys hw.1, Slots.mem_allKeys hn.2 hw.2]
    constructor
    · rintro (⟨k, rfl, hk⟩ | ⟨d, u, k, hl, rfl, hk⟩)
      · exact ⟨c, t, k, by simp [Slots.lookup], by simp, hk⟩
      · refine ⟨d, u, k, ?_, rfl, hk⟩
        have : c ≠ d := by
          rintro rfl
          rw [Slots.lookup_none.2 hn.1] at hl; cases hl
        simp [Slots.lookup, this, hl]
    · rintro ⟨d, u, k, hl, rfl, hk⟩
      simp only [Slots.lookup] at hl
      split at hl
      · next he => cases hl; subst he; exact .inl ⟨k, by simp, hk⟩
      · exact .inr ⟨d, u, k, hl, rfl, hk⟩
end

mutual
theorem Trie.nodup_allKeys : ∀ {t : Trie V}, t.WF → ∀ (pre : PyStr), (t.allKeys pre).Nodup
  | .node slots entry, h, pre => by
    have hw := h
    simp only [Trie.WF] at h
    rw [Trie.allKeys, List.nodup_append]
    refine ⟨by cases entry <;> simp [ownKey], Slots.nodup_allKeys h.2.1 h.2.2 pre, ?_⟩
    intro a ha b hb hab
    subst hab
    match entry, h.1 with
    | none, _ => simp [ownKey] at ha
    | some ([], w), _ =>
      simp only [ownKey, List.mem_singleton, List.append_nil] at ha
      obtain ⟨c, t, k, _, he, _⟩ := (Slots.mem_allKeys h.2.1 h.2.2).1 hb
      rw [ha] at he
      have := congrArg List.length he
      simp at this
    | some (x :: bk, w), h1 =>
      rw [h1 x bk w rfl] at hb
      simp [Slots.allKeys] at hb
theorem Slots.nodup_allKeys : ∀ {s : Slots V}, s.chars.Nodup → s.WF → ∀ (pre : PyStr), (s.allKeys pre).Nodup
  | .nil, _, _, _ => by simp [Slots.allKeys]
  | .cons c t rest, hn, hw, pre => by
    simp only [Slots.chars, List.nodup_cons] at hn
    rw [Slots.allKeys, List.nodup_append]
    refine ⟨Trie.nodup_allKeys hw.1 _, Slots.nodup_allKeys hn.2 hw.2 _, ?_⟩
    intro a ha b hb hab
    subst hab
    obtain ⟨k, rfl, _⟩ := (Trie.mem_allKeys hw.1).1 ha
    obtain ⟨d, u, k', hl, he, _⟩ := (Slots.mem_allKeys hn.2 hw.2).1 hb
    simp only [List.append_assoc, List.cons_append, List.nil_append, List.append_cancel_left_eq, List.cons.injEq] at he
    rw [← he.1, Slots.lookup_none.2 hn.1] at hl
    cases hl
end

theorem prefix_cancel (pre a b : PyStr) : (pre ++ a) <+: (pre ++ b) ↔ a <+: b := List.prefix_append_right_inj pre

theorem Slots.filter_allKeys (c : Nat) (key pre : PyStr) : ∀ {s : Slots V}, s.chars.Nodup → s.WF →
    (s.allKeys pre).filter (fun x => decide ((pre ++ c :: key) <+: x)) =
      match s.lookup c with
      | some t => (t.allKeys (pre ++ [c])).filter (fun x => decide ((pre ++ c :: key) <+: x))
      | none => []
  | .nil, _, _ => by simp [Slots.allKeys, Slots.lookup]
  | .cons d t rest, hn, hw => by
    have hn' := hn
    simp only [Slots.chars, List.nodup_cons] at hn
    have ih := Slots.filter_allKeys c key pre hn.2 hw.2
    rw [Slots.allKeys, List.filter_append]
    simp only [Slots.lookup]
    by_cases hd : d = c
    · subst hd
      rw [ih, Slots.lookup_none.2 hn.1]
      simp
    · simp only [hd, if_false, ih]
      have : (t.allKeys (pre ++ [d])).filter (fun x => decide ((pre ++ c :: key) <+: x)) = [] := by
        rw [List.filter_eq_nil_iff]
        intro x hx
        obtain ⟨k, rfl, _⟩ := (Trie.mem_allKeys hw.1).1 hx
        simp only [List.append_assoc, prefix_cancel, List.cons_append, List.nil_append, List.cons_prefix_cons,
          decide_eq_true_eq]
        exact fun h => hd h.1.symm
      rw [this, List.nil_append]

theorem Trie.filteredKeys_eq : ∀ (key pre : PyStr) {t : Trie V}, t.WF →
    t.filteredKeys key pre = (t.allKeys pre).filter (fun x => decide ((pre ++ key) <+: x))
  | [], pre, .node slots entry, h => by
    rw [Trie.filteredKeys, Trie.allKeys, List.append_nil]
    symm
    rw [List.filter_eq_self]
    intro x hx
    have hx' : x ∈ (Trie.node slots entry).allKeys pre := by rw [Trie.allKeys]; exact hx
    obtain ⟨k, rfl, _⟩ := (Trie.mem_allKeys h).1 hx'
    simp
  | c :: key, pre, .node slots entry, h => by
    simp only [Trie.WF] at h
    rw [Trie.allKeys, List.filter_append, Slots.filter_allKeys c key pre h.2.1 h.2.2]
    unfold Trie.filteredKeys
    cases hl : slots.lookup c with
    | some t =>
      simp only
      have : (ownKey pre entry).filter (fun x => decide ((pre ++ c :: key) <+: x)) = [] := by
        match entry, h.1 with
        | none, _ => rfl
        | some ([], w), _ =>
          have : ¬ (pre ++ c :: key) <+: pre := fun h => by
            have := h.length_le
            simp at this; omega
          simp [ownKey, this]
        | some (b :: bk, w), h1 => rw [h1 b bk w rfl] at hl; simp [Slots.lookup] at hl
      rw [this, Trie.filteredKeys_eq key (pre ++ [c]) (Slots.wf_lookup h.2.2 hl)]
      simp
    | none =>
      match entry with
      | none => simp [ownKey]
      | some (k, w) =>
        simp only [ownKey, List.append_nil, List.filter_cons, prefix_cancel, List.filter_nil, decide_eq_true_eq,
          List.isPrefixOf_iff_prefix]

/-! ### Longest common prefix -/

def Trie.slots : Trie V → Slots V
  | .node s _ => s

/-- The node has an entry or a child. -/
def Trie.NonEmpty (t : Trie V) : Prop := t.entry.isSome = true ∨ t.slots ≠ .nil

mutual
/-- No childless node without entry below the root (deletions can leave such nodes). -/
def Trie.Full : Trie V → Prop
  | .node slots _ => slots.Full
def Slots.Full : Slots V → Prop
  | .nil => True
  | .cons _ t rest => t.NonEmpty ∧ t.Full ∧ rest.Full
end

theorem Slots.full_lookup {c : Nat} {t : Trie V} : ∀ {s : Slots V}, s.Full → s.lookup c = some t → t.NonEmpty ∧ t.Full
  | .nil, _, h => by simp [Slots.lookup] at h
  | .cons e u rest, hw, h => by
    simp only [Slots.lookup] at h
    split at h
    · cases h; exact ⟨hw.1, hw.2.1⟩
    · exact Slots.full_lookup hw.2.2 h

theorem Slots.full_put {c : Nat} {t : Trie V} (h1 : t.NonEmpty) (h2 : t.Full) : ∀ {s : Slots V}, s.Full → (s.put c t).Full
  | .nil, _ => ⟨h1, h2, trivial⟩
  | .cons e u rest, h => by
    unfold Slots.put
    split
    · exact ⟨h1, h2, h.2.2⟩
    · exact ⟨h.1, h.2.1, Slots.full_put h1 h2 h.2.2⟩

theorem Slots.put_ne_nil {c : Nat} {t : Trie V} {s : Slots V} : s.put c t ≠ .nil := by
  cases s with
  | nil => simp [Slots.put]
  | cons => unfold Slots.put; split <;> simp

theorem Trie.nonEmpty_leaf (k : PyStr) (v : V) : (Trie.leaf k v).NonEmpty := .inl rfl
theorem Trie.full_leaf (k : PyStr) (v : V) : (Trie.leaf k v).Full := by simp [Trie.leaf, Trie.Full, Slots.Full]

theorem Trie.full_set : ∀ (k : PyStr) (v : V) {t : Trie V}, t.Full → (t.set k v).Full ∧ (t.set k v).NonEmpty
  | [], v, .node slots entry, h => ⟨h, .inl rfl⟩
  | c :: k, v, .node slots entry, h => by
    simp only [Trie.Full] at h
    unfold Trie.set
    split
    · split
      · split
        · exact ⟨Slots.full_put (Trie.nonEmpty_leaf _ _) (Trie.full_leaf _ _)
            (Slots.full_put (Trie.nonEmpty_leaf _ _) (Trie.full_leaf _ _) h), .inr Slots.put_ne_nil⟩
        · obtain ⟨a, b⟩ := Trie.full_set k v (Trie.full_leaf _ _)
          exact ⟨Slots.full_put b a h, .inr Slots.put_ne_nil⟩
      · exact ⟨Slots.full_put (Trie.nonEmpty_leaf _ _) (Trie.full_leaf _ _) h, .inr Slots.put_ne_nil⟩
    · next hl =>
      obtain ⟨a, b⟩ := Trie.full_set k v (Slots.full_lookup h hl).2
      exact ⟨Slots.full_put b a h, .inr Slots.put_ne_nil⟩

theorem Trie.has_entry {slots : Slots V} {k : PyStr} {w : V} (h : (Trie.node slots (some (k, w))).WF) :
    (Trie.node slots (some (k, w))).Has k := by
  simp only [Trie.WF] at h
  refine ⟨w, ?_⟩
  cases k with
  | nil => rfl
  | cons b bk => rw [h.1 b bk w rfl]; simp [Trie.getItem, Slots.lookup]

theorem Trie.has_child {slots : Slots V} {entry : Option (PyStr × V)} {c : Nat} {t : Trie V} {k : PyStr}
    (hl : slots.lookup c = some t) : (Trie.node slots entry).Has (c :: k) ↔ t.Has k := by
  unfold Trie.Has
  simp only [Trie.getItem, hl]

theorem Trie.exists_has : ∀ {t : Trie V}, t.WF → t.Full → t.NonEmpty → ∃ k, t.Has k
  | .node slots (some (k, w)), h, _, _ => ⟨k, Trie.has_entry h⟩
  | .node .nil none, _, _, hn => by simp [Trie.NonEmpty, Trie.entry, Trie.slots] at hn
  | .node (.cons c u r) none, h, hf, _ => by
    simp only [Trie.WF, Slots.WF] at h
    simp only [Trie.Full, Slots.Full] at hf
    obtain ⟨k, hk⟩ := Trie.exists_has h.2.2.1 hf.2.1 hf.1
    exact ⟨c :: k, (Trie.has_child (by simp [Slots.lookup])).2 hk⟩

theorem Trie.has_leaf {k k' : PyStr} {v : V} : (Trie.node .nil (some (k, v))).Has k' ↔ k' = k := by
  have := Trie.getItem_leaf k k' v
  unfold Trie.leaf at this
  unfold Trie.Has
  rw [this]
  by_cases h : k' = k <;> simp [h]

theorem prefix_of_two {r pre a b : List Nat} {c d : Nat} (h1 : r <+: pre ++ c :: a) (h2 : r <+: pre ++ d :: b)
    (hcd : c ≠ d) : r <+: pre := by
  induction pre generalizing r with
  | nil =>
    cases r with
    | nil => simp
    | cons x r =>
      simp only [List.nil_append, List.cons_prefix_cons] at h1 h2
      exact absurd (h1.1.symm.trans h2.1) hcd
  | cons x pre ih =>
    cases r with
    | nil => simp
    | cons y r =>
      simp only [List.cons_append, List.cons_prefix_cons] at h1 h2 ⊢
      exact ⟨h1.1, ih h1.2 h2.2⟩

open Spec in
theorem Trie.lcpNil_spec : ∀ {t : Trie V}, t.WF → t.Full → t.NonEmpty → ∀ (pre : PyStr),
    IsLcp (fun x => ∃ k, x = pre ++ k ∧ t.Has k) (t.lcpNil pre)
  | .node slots (some (k, w)), h, _, _, pre => by
    have hk := Trie.has_entry h
    rw [Trie.lcpNil]
    refine ⟨?_, fun r' hr => hr _ ⟨k, rfl, hk⟩⟩
    rintro x ⟨k', rfl, hk'⟩
    rw [prefix_cancel]
    cases k with
    | nil => simp
    | cons b bk =>
      simp only [Trie.WF] at h
      rw [h.1 b bk w rfl, Trie.has_leaf] at hk'
      simp [hk']
  | .node .nil none, _, _, hn, _ => by simp [Trie.NonEmpty, Trie.entry, Trie.slots] at hn
  | .node (.cons c u .nil) none, h, hf, _, pre => by
    simp only [Trie.WF, Slots.WF] at h
    simp only [Trie.Full, Slots.Full] at hf
    have ih := Trie.lcpNil_spec h.2.2.1 hf.2.1 hf.1 (pre ++ [c])
    rw [Trie.lcpNil, Slots.lcpNil]
    have e : ∀ x, (∃ k, x = pre ++ [c] ++ k ∧ u.Has k) ↔
        (∃ k, x = pre ++ k ∧ (Trie.node (.cons c u .nil) none).Has k) := by
      intro x
      constructor
      · rintro ⟨k, rfl, hk⟩
        exact ⟨c :: k, by simp, (Trie.has_child (by simp [Slots.lookup])).2 hk⟩
      · rintro ⟨k, rfl, hk⟩
        cases k with
        | nil => obtain ⟨v, hv⟩ := hk; simp [Trie.getItem] at hv
        | cons d k =>
          by_cases hd : c = d
          · subst hd
            exact ⟨k, by simp, (Trie.has_child (by simp [Slots.lookup])).1 hk⟩
          · obtain ⟨v, hv⟩ := hk
            simp [Trie.getItem, Slots.lookup, hd] at hv
    simp only [IsLcp, e] at ih ⊢
    exact ih
  | .node (.cons c u (.cons d w r)) none, h, hf, _, pre => by
    simp only [Trie.WF, Slots.WF, Slots.chars, List.nodup_cons, List.mem_cons, not_or] at h
    simp only [Trie.Full, Slots.Full] at hf
    rw [Trie.lcpNil, Slots.lcpNil]
    · refine ⟨?_, fun r' hr => ?_⟩
      · rintro x ⟨k, rfl, _⟩
        simp
      · obtain ⟨k1, h1⟩ := Trie.exists_has h.2.2.1 hf.2.1 hf.1
        obtain ⟨k2, h2⟩ := Trie.exists_has h.2.2.2.1 hf.2.2.2.1 hf.2.2.1
        have hcd : c ≠ d := h.2.1.1.1
        exact prefix_of_two (hr _ ⟨c :: k1, rfl, (Trie.has_child (by simp [Slots.lookup])).2 h1⟩)
          (hr _ ⟨d :: k2, rfl, (Trie.has_child (by simp [Slots.lookup, hcd])).2 h2⟩) hcd
    · intro a b hc
      cases hc

open Spec in
theorem Trie.lcpAux_spec : ∀ (key pre : PyStr) {t : Trie V}, t.WF → t.Full → (t.NonEmpty ∨ pre = []) →
    (∀ q, t.Has q → ¬ Extends q key) →
    ((∃ k, t.Has k ∧ key <+: k) →
      IsLcp (fun x => ∃ k, x = pre ++ k ∧ t.Has k ∧ key <+: k) (t.lcpAux key pre)) ∧
    ((¬ ∃ k, t.Has k ∧ key <+: k) → t.lcpAux key pre = [])
  | [], pre, t, h, hf, hn, _ => by
    simp only [List.nil_prefix, and_true]
    refine ⟨fun hex => ?_, fun hno => ?_⟩
    · have hne : t.NonEmpty := by
        obtain ⟨k, v, hk⟩ := hex
        refine Classical.byContradiction fun hc => ?_
        obtain ⟨slots, entry⟩ := t
        simp only [Trie.NonEmpty, Trie.entry, Trie.slots, not_or, Bool.not_eq_true, Option.isSome_eq_false_iff,
          Option.isNone_iff_eq_none, ne_eq, Classical.not_not] at hc
        rw [hc.1, hc.2] at hk
        cases k <;> simp [Trie.getItem, Slots.lookup] at hk
      cases t
      exact Trie.lcpNil_spec h hf hne pre
    · have hne : ¬ t.NonEmpty := fun hc => hno (Trie.exists_has h hf hc)
      rcases hn with hn | rfl
      · exact absurd hn hne
      · obtain ⟨slots, entry⟩ := t
        simp only [Trie.NonEmpty, Trie.entry, Trie.slots, not_or, Bool.not_eq_true, Option.isSome_eq_false_iff,
          Option.isNone_iff_eq_none, ne_eq, Classical.not_not] at hne
        rw [hne.1, hne.2]
        rfl
  | c :: key, pre, .node slots (some (k, w)), h, hf, hn, hq => by
    have hk := Trie.has_entry h
    unfold Trie.lcpAux
    have hkne : k ≠ [] := by
      rintro rfl
      exact hq [] hk ⟨by simp, by simp⟩
    have hs : slots = .nil := by
      simp only [Trie.WF] at h
      cases k with
      | nil => exact absurd rfl hkne
      | cons b bk => exact h.1 b bk w rfl
    subst hs
    simp only [Trie.has_leaf]
    by_cases hp : (c :: key).isPrefixOf k = true
    · rw [if_pos hp]
      rw [List.isPrefixOf_iff_prefix] at hp
      refine ⟨fun _ => ⟨?_, fun r' hr => hr _ ⟨k, rfl, rfl, hp⟩⟩, fun hno => absurd ⟨k, rfl, hp⟩ hno⟩
      rintro x ⟨k', rfl, rfl, _⟩
      exact List.prefix_refl _
    · rw [if_neg hp]
      rw [List.isPrefixOf_iff_prefix] at hp
      refine ⟨?_, fun _ => rfl⟩
      rintro ⟨k', rfl, hp'⟩
      exact absurd hp' hp
  | c :: key, pre, .node slots none, h, hf, hn, hq => by
    simp only [Trie.WF] at h
    simp only [Trie.Full] at hf
    unfold Trie.lcpAux
    cases hl : slots.lookup c with
    | some t =>
      simp only
      obtain ⟨n1, f1⟩ := Slots.full_lookup hf hl
      have ih := Trie.lcpAux_spec key (pre ++ [c]) (Slots.wf_lookup h.2.2 hl) f1 (.inl n1) (by
        intro q hq1 hq2
        refine hq (c :: q) ((Trie.has_child hl).2 hq1) ⟨?_, ?_⟩
        · simpa using hq2.1
        · simpa using hq2.2)
      have e : ∀ k, ((Trie.node slots none).Has k ∧ (c :: key) <+: k) ↔ ∃ k1, k = c :: k1 ∧ t.Has k1 ∧ key <+: k1 := by
        intro k
        constructor
        · rintro ⟨h1, h2⟩
          cases k with
          | nil => simp at h2
          | cons d k1 =>
            simp only [List.cons_prefix_cons] at h2
            obtain ⟨rfl, h2⟩ := h2
            exact ⟨k1, rfl, (Trie.has_child hl).1 h1, h2⟩
        · rintro ⟨k1, rfl, h1, h2⟩
          exact ⟨(Trie.has_child hl).2 h1, by simpa using h2⟩
      have e1 : (∃ k, (Trie.node slots none).Has k ∧ (c :: key) <+: k) ↔ ∃ k, t.Has k ∧ key <+: k := by
        simp only [e]
        constructor
        · rintro ⟨_, k1, _, h⟩; exact ⟨k1, h⟩
        · rintro ⟨k1, h⟩; exact ⟨_, k1, rfl, h⟩
      have e2 : ∀ x, (∃ k, x = pre ++ k ∧ (Trie.node slots none).Has k ∧ (c :: key) <+: k) ↔
          (∃ k, x = pre ++ [c] ++ k ∧ t.Has k ∧ key <+: k) := by
        intro x
        simp only [e]
        constructor
        · rintro ⟨_, rfl, k1, rfl, h⟩; exact ⟨k1, by simp, h⟩
        · rintro ⟨k1, rfl, h⟩; exact ⟨_, by simp, k1, rfl, h⟩
      simp only [IsLcp, e1, e2] at ih ⊢
      exact ih
    | none =>
      refine ⟨?_, fun _ => rfl⟩
      rintro ⟨k, ⟨v, hv⟩, hp⟩
      cases k with
      | nil => simp at hp
      | cons d k1 =>
        simp only [List.cons_prefix_cons] at hp
        obtain ⟨rfl, _⟩ := hp
        simp [Trie.getItem, hl] at hv

open Spec in
theorem Trie.lcpAux_shadow : ∀ (key pre : PyStr) {t : Trie V} {q : PyStr}, t.WF → t.Has q → Extends q key →
    t.lcpAux key pre = []
  | [], pre, t, q, h, hq, he => by
    have := he.1
    simp at this
    exact absurd this.symm he.2
  | c :: key, pre, .node slots (some (k, w)), q, h, hq, he => by
    simp only [Trie.lcpAux]
    rw [if_neg]
    rw [List.isPrefixOf_iff_prefix]
    intro hp
    cases k with
    | nil => simp at hp
    | cons b bk =>
      simp only [Trie.WF] at h
      rw [h.1 b bk w rfl, Trie.has_leaf] at hq
      subst hq
      exact he.2 (List.IsPrefix.eq_of_length_le hp (he.1.length_le))
  | c :: key, pre, .node slots none, q, h, hq, he => by
    simp only [Trie.WF] at h
    unfold Trie.lcpAux
    cases hl : slots.lookup c with
    | none => rfl
    | some t =>
      cases q with
      | nil => obtain ⟨v, hv⟩ := hq; simp [Trie.getItem] at hv
      | cons d q =>
        obtain ⟨he1, he2⟩ := he
        simp only [List.cons_prefix_cons] at he1
        obtain ⟨rfl, he1⟩ := he1
        exact Trie.lcpAux_shadow key _ (Slots.wf_lookup h.2.2 hl) ((Trie.has_child hl).1 hq) ⟨he1, by simpa using he2⟩

theorem Trie.lcpNil_sound : ∀ {t : Trie V}, t.WF → ∀ (pre : PyStr) {k : PyStr}, t.Has k → t.lcpNil pre <+: pre ++ k
  | .node slots (some (q, w)), h, pre, k, hk => by
    rw [Trie.lcpNil, prefix_cancel]
    cases q with
    | nil => simp
    | cons b bk =>
      simp only [Trie.WF] at h
      rw [h.1 b bk w rfl, Trie.has_leaf] at hk
      simp [hk]
  | .node .nil none, _, pre, k, _ => by rw [Trie.lcpNil, Slots.lcpNil]; simp; simp
  | .node (.cons c u .nil) none, h, pre, k, hk => by
    simp only [Trie.WF, Slots.WF] at h
    rw [Trie.lcpNil, Slots.lcpNil]
    cases k with
    | nil => obtain ⟨v, hv⟩ := hk; simp [Trie.getItem] at hv
    | cons d k =>
      by_cases hd : c = d
      · subst hd
        have := Trie.lcpNil_sound h.2.2.1 (pre ++ [c]) ((Trie.has_child (by simp [Slots.lookup])).1 hk)
        simpa using this
      · obtain ⟨v, hv⟩ := hk
        simp [Trie.getItem, Slots.lookup, hd] at hv
  | .node (.cons c u (.cons d w r)) none, h, pre, k, _ => by
    rw [Trie.lcpNil, Slots.lcpNil]
    · simp
    · intro a b hc
      cases hc

theorem Trie.lcpAux_sound : ∀ (key pre : PyStr) {t : Trie V} {k : PyStr}, t.WF → t.Has k → key <+: k →
    t.lcpAux key pre <+: pre ++ k
  | [], pre, .node _ _, k, h, hk, _ => Trie.lcpNil_sound h pre hk
  | c :: key, pre, .node slots (some (q, w)), k, h, hk, hp => by
    simp only [Trie.lcpAux]
    split
    · next hq =>
      cases q with
      | nil => simp at hq
      | cons b bk =>
        simp only [Trie.WF] at h
        rw [h.1 b bk w rfl, Trie.has_leaf] at hk
        simp [hk]
    · simp
  | c :: key, pre, .node slots none, k, h, hk, hp => by
    simp only [Trie.WF] at h
    simp only [Trie.lcpAux]
    cases k with
    | nil => simp at hp
    | cons d k =>
      simp only [List.cons_prefix_cons] at hp
      obtain ⟨rfl, hp⟩ := hp
      cases hl : slots.lookup c with
      | none => simp
      | some t =>
        have := Trie.lcpAux_sound key (pre ++ [c]) (Slots.wf_lookup h.2.2 hl) ((Trie.has_child hl).1 hk) hp
        simpa using this

theorem Trie.getItem_error : ∀ (k : PyStr) (t : Trie V) {e : PyErr}, t.getItem k = .error e → e = .keyError
  | [], .node _ entry, e, h => by
    simp only [Trie.getItem] at h
    split at h <;> cases h
    rfl
  | c :: k, .node slots entry, e, h => by
    simp only [Trie.getItem] at h
    split at h
    · exact Trie.getItem_error k _ h
    · split at h
      · split at h <;> cases h
        rfl
      · cases h; rfl

end Gsm
