import Verif.Spec.CallLine
import Verif.Props.ModemIncoming
import Verif.Props.ModemDial
/-! # Lemmas: the calls on the line and the table of the program -/
namespace Gsm
open M Spec

variable {env : Env}

/-! ### The line -/

/-- Numbers in use are different, and none is 0. -/
def LineOk (L : PhoneLine) : Prop := (usedIds L).Nodup ∧ 0 ∉ usedIds L

theorem used_append (L : PhoneLine) {c : LineCall} (h : c.over = false) : usedIds (L ++ [c]) = usedIds L ++ [c.id] := by
  simp [usedIds, currentCalls, List.filter_append, h]

theorem used_change (id : Nat) {f : LineCall → LineCall} (h1 : ∀ c, (f c).id = c.id) (h2 : ∀ c, (f c).over = c.over) : ∀ L : PhoneLine,
    usedIds (onCall id f L) = usedIds L
  | [] => rfl
  | c :: L => by
    have ih := used_change id h1 h2 L
    unfold usedIds currentCalls onCall at ih ⊢
    simp only [List.map_cons, List.filter_cons]
    have h3 : (if c.over = false ∧ c.id = id then f c else c).over = c.over := by split <;> simp [h2]
    have h4 : (if c.over = false ∧ c.id = id then f c else c).id = c.id := by split <;> simp [h1]
    rw [h3]
    split
    · rw [List.map_cons, List.map_cons, h4, ih]
    · exact ih

theorem used_end (id : Nat) : ∀ L : PhoneLine, usedIds (onCall id (fun c => { c with over := true }) L) = (usedIds L).filter (· ≠ id)
  | [] => rfl
  | c :: L => by
    have ih := used_end id L
    unfold usedIds currentCalls onCall at ih ⊢
    simp only [List.map_cons, List.filter_cons]
    cases ho : c.over with
    | true => simpa [ho] using ih
    | false =>
      by_cases hi : c.id = id
      · simpa [hi] using ih
      · simpa [hi, ho] using ih

theorem used_all (L : PhoneLine) : usedIds (L.map fun c => { c with over := true }) = [] := by
  simp [usedIds, currentCalls, List.filter_map]

theorem free_unique {L : PhoneLine} {a b : Nat} (ha : FreeId L a) (hb : FreeId L b) : a = b := by
  rcases Nat.lt_trichotomy a b with h | h | h
  · exact absurd (hb.2.2 a ha.1 h) ha.2.1
  · exact h
  · exact absurd (ha.2.2 b hb.1 h) hb.2.1

theorem lineOk_append {L : PhoneLine} (h : LineOk L) {c : LineCall} (hc : c.over = false) (hf : FreeId L c.id) : LineOk (L ++ [c]) := by
  refine ⟨?_, ?_⟩
  · rw [used_append L hc]
    refine List.nodup_append.2 ⟨h.1, by simp, ?_⟩
    rintro a ha b hb rfl
    rw [List.mem_singleton.1 hb] at ha
    exact hf.2.1 ha
  · rw [used_append L hc, List.mem_append, List.mem_singleton]
    rintro (h0 | h0)
    · exact h.2 h0
    · have := hf.1; omega

theorem step_lineOk {L L' : PhoneLine} {e : LineEvent} (h : LineStep L e L') (hl : LineOk L) : LineOk L' := by
  have hch : ∀ (id : Nat) (f : LineCall → LineCall), (∀ c, (f c).id = c.id) → (∀ c, (f c).over = c.over) → LineOk (onCall id f L) := by
    intro id f h1 h2
    unfold LineOk
    rw [used_change id h1 h2]
    exact hl
  cases h with
  | comes hf => exact lineOk_append hl rfl hf
  | rings => exact hch _ _ (fun _ => rfl) (fun _ => rfl)
  | dialled hf => exact lineOk_append hl rfl hf
  | taken => exact hch _ _ (fun _ => rfl) (fun _ => rfl)
  | accepted => exact hch _ _ (fun _ => rfl) (fun _ => rfl)
  | ends =>
    unfold LineOk
    rw [used_end]
    exact ⟨hl.1.filter _, fun h => hl.2 (List.mem_of_mem_filter h)⟩
  | hungUp => unfold LineOk; rw [used_all]; simp
  | hungUpLate => exact hl
  | nothing => exact hl

theorem mem_current {L : PhoneLine} {c : LineCall} : c ∈ currentCalls L ↔ ∃ k : Nat, L[k]? = some c ∧ c.over = false := by
  unfold currentCalls
  rw [List.mem_filter, List.mem_iff_getElem?]
  simp

theorem mem_used {L : PhoneLine} {id : Nat} : id ∈ usedIds L ↔ ∃ (k : Nat) (c : LineCall), L[k]? = some c ∧ c.over = false ∧ c.id = id := by
  unfold usedIds
  rw [List.mem_map]
  constructor
  · rintro ⟨c, hc, rfl⟩
    obtain ⟨k, h1, h2⟩ := mem_current.1 hc
    exact ⟨k, c, h1, h2, rfl⟩
  · rintro ⟨k, c, h1, h2, rfl⟩
    exact ⟨c, mem_current.2 ⟨k, h1, h2⟩, rfl⟩

/-! ### The table -/

theorem entries_keys : ∀ (i : Nat) (L : PhoneLine), (callEntries i L).map (·.1) = (usedIds L).map fun n : Nat => (n : Int)
  | _, [] => rfl
  | i, c :: L => by
    have ih := entries_keys (i + 1) L
    unfold usedIds currentCalls at ih ⊢
    rw [List.filter_cons, callEntries]
    cases ho : c.over <;> simp [ih]

theorem entries_length (i : Nat) (L : PhoneLine) : (callEntries i L).length = (currentCalls L).length := by
  have := congrArg List.length (entries_keys i L)
  rw [List.length_map, List.length_map] at this
  rw [this, usedIds, List.length_map]

theorem mem_entries {x : Int} {j : Nat} : ∀ {i : Nat} {L : PhoneLine}, (x, j) ∈ callEntries i L ↔ ∃ k c, j = i + k ∧ L[k]? = some c ∧ c.over = false ∧ x = c.id
  | i, [] => by simp [callEntries]
  | i, c :: L => by
    have ih := mem_entries (x := x) (j := j) (i := i + 1) (L := L)
    have hsplit : (∃ k d, j = i + k ∧ (c :: L)[k]? = some d ∧ d.over = false ∧ x = d.id) ↔
        (j = i ∧ c.over = false ∧ x = c.id) ∨ ∃ k d, j = i + 1 + k ∧ L[k]? = some d ∧ d.over = false ∧ x = d.id := by
      constructor
      · rintro ⟨_ | k, d, h1, h2, h3, h4⟩
        · cases h2; exact .inl ⟨h1, h3, h4⟩
        · exact .inr ⟨k, d, by omega, h2, h3, h4⟩
      · rintro (⟨h1, h2, h3⟩ | ⟨k, d, h1, h2, h3, h4⟩)
        · exact ⟨0, c, h1, rfl, h2, h3⟩
        · exact ⟨k + 1, d, by omega, h2, h3, h4⟩
    rw [hsplit, ← ih]
    rw [callEntries]
    cases ho : c.over <;> simp [and_comm]

theorem entries_append (c : LineCall) (hc : c.over = false) : ∀ (i : Nat) (L : PhoneLine), callEntries i (L ++ [c]) = callEntries i L ++ [((c.id : Int), i + L.length)]
  | i, [] => by simp [callEntries, hc]
  | i, d :: L => by
    have ih := entries_append c hc (i + 1) L
    simp only [List.cons_append, callEntries, ih, List.length_cons, Nat.add_assoc, Nat.add_comm 1]
    split <;> rfl

theorem entries_change (id : Nat) {f : LineCall → LineCall} (h1 : ∀ c, (f c).id = c.id) (h2 : ∀ c, (f c).over = c.over) : ∀ (i : Nat) (L : PhoneLine),
    callEntries i (onCall id f L) = callEntries i L
  | _, [] => rfl
  | i, c :: L => by
    have ih := entries_change id h1 h2 (i + 1) L
    unfold onCall at ih ⊢
    have h3 : (if c.over = false ∧ c.id = id then f c else c).over = c.over := by split <;> simp [h2]
    have h4 : (if c.over = false ∧ c.id = id then f c else c).id = c.id := by split <;> simp [h1]
    simp only [List.map_cons, callEntries, h3, h4, ih]

theorem entries_end (id : Nat) : ∀ (i : Nat) (L : PhoneLine),
    callEntries i (onCall id (fun c => { c with over := true }) L) = (callEntries i L).filter (·.1 ≠ (id : Int))
  | _, [] => rfl
  | i, c :: L => by
    have ih := entries_end id (i + 1) L
    unfold onCall at ih ⊢
    simp only [List.map_cons, callEntries]
    cases ho : c.over with
    | true => simpa [ho] using ih
    | false =>
      by_cases hi : c.id = id
      · simpa [hi] using ih
      · have hi' : ¬ ((c.id : Int) = (id : Int)) := by omega
        simpa [hi, ho, hi'] using ih

theorem entries_nodup {L : PhoneLine} (h : LineOk L) (i : Nat) : ((callEntries i L).map (·.1)).Nodup := by
  rw [entries_keys]
  exact h.1.map fun a b hab => by simpa using hab

theorem line_unique {L : PhoneLine} (h : LineOk L) {k j : Nat} {c d : LineCall} (hk : L[k]? = some c) (hj : L[j]? = some d) (hc : c.over = false) (hd : d.over = false)
    (hid : c.id = d.id) : k = j := by
  have h1 := dictGet_of_mem (entries_nodup h 0) (mem_entries.2 ⟨k, c, rfl, hk, hc, rfl⟩)
  have h2 := dictGet_of_mem (entries_nodup h 0) (mem_entries.2 ⟨j, d, rfl, hj, hd, rfl⟩)
  rw [hid, h2] at h1
  simpa using h1.symm

theorem change_get {id : Nat} {f : LineCall → LineCall} {L : PhoneLine} {k : Nat} {d : LineCall} (h : (onCall id f L)[k]? = some d) :
    ∃ c, L[k]? = some c ∧ d = if c.over = false ∧ c.id = id then f c else c := by
  unfold onCall at h
  rw [List.getElem?_map] at h
  cases hc : L[k]? with
  | none => rw [hc] at h; cases h
  | some c => rw [hc] at h; exact ⟨c, rfl, by simpa using h.symm⟩

/-! ### The program -/

theorem Spec.Mirrors.object {L : PhoneLine} {s : St} (h : Mirrors L s) {k : Nat} {c : LineCall} (hk : L[k]? = some c) : ∃ o, s.calls[k]? = some o ∧ ShowsCall c o := by
  obtain ⟨hi, _⟩ := List.getElem?_eq_some_iff.1 hk
  have : k < s.calls.length := by rw [h.length]; exact hi
  exact ⟨s.calls[k], List.getElem?_eq_getElem this, h.shows k c _ hk (List.getElem?_eq_getElem this)⟩

theorem Spec.Mirrors.mem {L : PhoneLine} {s : St} (h : Mirrors L s) {x : Int} {j : Nat} : (x, j) ∈ s.activeCalls ↔ ∃ c, L[j]? = some c ∧ c.over = false ∧ x = c.id := by
  rw [h.table, mem_entries]
  constructor
  · rintro ⟨k, c, rfl, h⟩
    exact ⟨c, by simpa using h⟩
  · rintro ⟨c, h⟩
    exact ⟨j, c, by simp, h⟩

theorem mirrors_table {L : PhoneLine} {s : St} (h : Mirrors L s) (hl : LineOk L) : TableOk s := by
  refine ⟨?_, fun x j hx => ?_⟩
  · rw [h.table]; exact entries_nodup hl 0
  · obtain ⟨c, h1, h2, rfl⟩ := h.mem.1 hx
    obtain ⟨o, h3, h4⟩ := h.object h1
    exact ⟨o, h3, h4.id, by rw [h4.active, h2]; rfl⟩

/-- Something changes for one call, which is not over before and afterwards. -/
theorem mirrors_change {L : PhoneLine} {s s' : St} (h : Mirrors L s) (hl : LineOk L) {k : Nat} {c : LineCall} {o' : CallObj} {f : LineCall → LineCall}
    (hk : L[k]? = some c) (ho : c.over = false) (h1 : ∀ c, (f c).id = c.id) (h2 : ∀ c, (f c).over = c.over) (hs : ShowsCall (f c) o')
    (hc : s'.calls = s.calls.set k o') (ht : s'.activeCalls = s.activeCalls) : Mirrors (onCall c.id f L) s' := by
  refine ⟨?_, fun j d p hd hp => ?_, ?_⟩
  · rw [hc, List.length_set, h.length]; simp [onCall]
  · obtain ⟨d0, hd0, rfl⟩ := change_get hd
    rw [hc] at hp
    by_cases hj : k = j
    · subst hj
      rw [hk] at hd0; cases hd0
      rw [if_pos ⟨ho, rfl⟩]
      obtain ⟨o, hok, _⟩ := h.object hk
      rw [get_set_self hok] at hp; cases hp
      exact hs
    · rw [List.getElem?_set_ne hj] at hp
      rw [if_neg]
      · exact h.shows j d0 p hd0 hp
      · rintro ⟨g1, g2⟩
        exact hj (line_unique hl hk hd0 ho g1 g2.symm)
  · rw [ht, h.table, entries_change c.id h1 h2]

/-- The end of a call. -/
theorem mirrors_end {L : PhoneLine} {s s' : St} (h : Mirrors L s) (hl : LineOk L) {k : Nat} {c : LineCall} {o o' : CallObj}
    (hk : L[k]? = some c) (ho : c.over = false) (hok : s.calls[k]? = some o) (hs : ShowsCall { c with over := true } o')
    (hc : s'.calls = s.calls.set k o') (ht : s'.activeCalls = s.activeCalls.filter (·.1 ≠ (c.id : Int))) :
    Mirrors (onCall c.id (fun c => { c with over := true }) L) s' := by
  refine ⟨?_, fun j d p hd hp => ?_, ?_⟩
  · rw [hc, List.length_set, h.length]; simp [onCall]
  · obtain ⟨d0, hd0, rfl⟩ := change_get hd
    rw [hc] at hp
    by_cases hj : k = j
    · subst hj
      rw [hk] at hd0; cases hd0
      rw [if_pos ⟨ho, rfl⟩]
      rw [get_set_self hok] at hp; cases hp
      exact hs
    · rw [List.getElem?_set_ne hj] at hp
      rw [if_neg]
      · exact h.shows j d0 p hd0 hp
      · rintro ⟨g1, g2⟩
        exact hj (line_unique hl hk hd0 ho g1 g2.symm)
  · rw [ht, h.table, entries_end]

theorem dictSet_fresh {α : Type} : ∀ {d : List (Int × α)} {k : Int} {v : α}, k ∉ d.map (·.1) → dictSet d k v = d ++ [(k, v)]
  | [], _, _, _ => rfl
  | (k', v') :: d, k, v, h => by
    simp only [List.map_cons, List.mem_cons, not_or] at h
    unfold dictSet
    rw [if_neg (fun h' => h.1 h'.symm), dictSet_fresh h.2]
    rfl

/-- A new call. -/
theorem mirrors_new {L : PhoneLine} {s s' : St} (h : Mirrors L s) {c : LineCall} {o : CallObj} (ho : c.over = false) (hf : c.id ∉ usedIds L)
    (hs : ShowsCall c o) (hc : s'.calls = s.calls ++ [o]) (ht : s'.activeCalls = dictSet s.activeCalls o.id s.calls.length) : Mirrors (L ++ [c]) s' := by
  refine ⟨by rw [hc]; simp [h.length], fun k d p hd hp => ?_, ?_⟩
  · rw [hc] at hp
    by_cases hk : k < L.length
    · rw [List.getElem?_append_left hk] at hd
      rw [List.getElem?_append_left (by rw [h.length]; exact hk)] at hp
      exact h.shows k d p hd hp
    · have hk' : k = L.length := by
        have := (List.getElem?_eq_some_iff.1 hd).1
        simp at this; omega
      subst hk'
      rw [List.getElem?_append_right (Nat.le_refl _)] at hd
      rw [← h.length, List.getElem?_append_right (Nat.le_refl _)] at hp
      simp at hd hp
      rw [← hd, ← hp]; exact hs
  · rw [ht, hs.id, entries_append c ho, dictSet_fresh, h.table, h.length, Nat.zero_add]
    rw [h.table, entries_keys, List.mem_map]
    rintro ⟨n, hn, he⟩
    obtain rfl : n = c.id := by omega
    exact hf hn

/-! ### What is heard -/

/-- A progress line that is heard alone. -/
theorem heard {s : St} (ht : TableOk s) {line : PyStr} {p : Progress} (h : Says s.callStatusUpdates line p) :
    ∃ r, Changes s p r (handleNotification [line] env s).2 := by
  refine ⟨(handleNotification [line] env s).1, ?_⟩
  exact (C65_effect ht (pre := []) (post := []) h (by simp)).1 rfl

theorem ring_of_announced {s : St} {line : PyStr} {rest : List PyStr} (h : py!"RING" <:+: line) :
    handleNotification (line :: rest) env s = handleIncomingCall (line :: rest) env s :=
  C43_first (pre := []) (post := rest) (by simp) (.ring h)

theorem cring_voice {a t : PyStr} (h : py!"+CRING: VOICE" = a ++ 32 :: t) (ha : 32 ∉ a) : t = py!"VOICE" := by
  have h1 : (py!"+CRING: VOICE").dropWhile (· ≠ 32) = 32 :: t := by
    rw [h, List.dropWhile_append_of_pos (by intro x hx; simp; rintro rfl; exact ha hx)]
    simp
  have h2 : (py!"+CRING: VOICE").dropWhile (· ≠ 32) = 32 :: py!"VOICE" := by decide
  rw [h2] at h1
  exact (List.cons.inj h1).2.symm

/-- A ring, as a modem with known settings announces it. -/
theorem rung {s : St} (hd : 0 < env.depth) (ht : TableOk s) {number : Option PyStr} {lines : List PyStr} (h : RingLines s number lines) :
    ∃ ton type r, (type = none ∨ type = some py!"VOICE") ∧ Rung s number ton type r (handleNotification lines env s).2 := by
  obtain ⟨line, rest, ton, rfl, hl, hc⟩ := h
  have hring : py!"RING" <:+: line := by
    rcases hl with ⟨_, rfl⟩ | ⟨_, h⟩
    · exact ⟨py!"+C", py!": VOICE", by decide⟩
    · exact h
  rw [ring_of_announced hring]
  have h0 : ∀ r s1, RingType env s line r s1 → s1 = s ∧ ∃ type, r = .ok type ∧ (type = none ∨ type = some py!"VOICE") := by
    intro r s1 hr
    rcases hl with ⟨he, rfl⟩ | ⟨he, _⟩
    · cases hr with
      | off h => rw [he] at h; cases h
      | type _ h1 h2 => exact ⟨rfl, _, rfl, .inr (by rw [cring_voice h1 h2])⟩
      | again _ h _ => exact absurd (show 32 ∈ py!"+CRING: VOICE" by decide) h
      | giveUp _ h _ _ => exact absurd (show 32 ∈ py!"+CRING: VOICE" by decide) h
      | fails _ h _ _ => exact absurd (show 32 ∈ py!"+CRING: VOICE" by decide) h
    · cases hr with
      | off h => exact ⟨rfl, _, rfl, .inl rfl⟩
      | type h _ _ => rw [he] at h; cases h
      | again h _ _ => rw [he] at h; cases h
      | giveUp h _ _ _ => rw [he] at h; cases h
      | fails h _ _ _ => rw [he] at h; cases h
  rcases C67_incoming hd ht line rest with ⟨e, s1, h1, _⟩ | ⟨type, s1, n, t, r, s2, h1, h2, h3, h4⟩
  · obtain ⟨_, _, h, _⟩ := h0 _ _ h1
    cases h
  · obtain ⟨rfl, type', h5, h6⟩ := h0 _ _ h1
    cases h5
    obtain ⟨rfl, rfl⟩ := C67_caller hc h2
    rw [h4]
    exact ⟨_, _, _, h6, h3⟩

theorem calls_none {L : PhoneLine} {s : St} (h : Mirrors L s) {number : Option PyStr} (hn : ∀ c ∈ currentCalls L, c.number ≠ number) : callsFrom s number = [] := by
  unfold callsFrom
  rw [List.filter_eq_nil_iff]
  intro j hj
  obtain ⟨⟨x, j'⟩, hx, rfl⟩ := List.mem_map.1 hj
  obtain ⟨c, h1, h2, rfl⟩ := h.mem.1 hx
  obtain ⟨o, h3, h4⟩ := h.object h1
  simp only [h3, Option.any_some, beq_iff_eq, h4.number]
  exact hn c (mem_current.2 ⟨_, h1, h2⟩)

theorem filter_one {p : Nat → Bool} {k : Nat} : ∀ {l : List Nat}, l.Nodup → k ∈ l → (∀ j ∈ l, p j = true ↔ j = k) → l.filter p = [k]
  | [], _, h, _ => by cases h
  | a :: l, hn, hk, hp => by
    rw [List.nodup_cons] at hn
    by_cases ha : a = k
    · subst ha
      rw [List.filter_cons_of_pos ((hp a (by simp)).2 rfl), List.filter_eq_nil_iff.2]
      intro j hj hpj
      rw [(hp j (by simp [hj])).1 hpj] at hj
      exact hn.1 hj
    · rw [List.filter_cons_of_neg (fun h => ha ((hp a (by simp)).1 h))]
      exact filter_one hn.2 (by rcases List.mem_cons.1 hk with rfl | h; exacts [absurd rfl ha, h]) fun j hj => hp j (by simp [hj])

/-- No two current calls are with the same number. -/
def NumbersDiffer (L : PhoneLine) : Prop :=
  ∀ (k j : Nat) (c d : LineCall), L[k]? = some c → L[j]? = some d → c.over = false → d.over = false → c.number = d.number → k = j

theorem calls_one {L : PhoneLine} {s : St} (h : Mirrors L s) (hl : LineOk L) (hn : NumbersDiffer L) {k : Nat} {c : LineCall} (hk : L[k]? = some c) (ho : c.over = false) :
    callsFrom s c.number = [k] := by
  unfold callsFrom
  refine filter_one (nodup_entries (mirrors_table h hl)) (List.mem_map.2 ⟨((c.id : Int), k), h.mem.2 ⟨c, hk, ho, rfl⟩, rfl⟩) fun j hj => ?_
  obtain ⟨⟨x, j'⟩, hx, rfl⟩ := List.mem_map.1 hj
  obtain ⟨d, h1, h2, rfl⟩ := h.mem.1 hx
  obtain ⟨o, h3, h4⟩ := h.object h1
  simp only [h3, Option.any_some, beq_iff_eq, h4.number]
  constructor
  · intro he
    exact hn _ _ _ _ h1 hk h2 ho he
  · rintro rfl
    rw [hk] at h1; cases h1; rfl

theorem ringMore_one {s : St} {k : Nat} {o : CallObj} (h : s.calls[k]? = some o) : (ringMore s [k]).calls = s.calls.set k { o with ringCount := o.ringCount + 1 } := by
  apply List.ext_getElem?
  intro j
  simp only [ringMore, List.getElem?_mapIdx, List.mem_singleton]
  by_cases hj : k = j
  · subst hj
    rw [get_set_self h, h]; simp
  · rw [List.getElem?_set_ne hj]
    have hj' : ¬ j = k := fun h => hj h.symm
    simp [hj']

/-! ### Numbers stay different -/

theorem numbers_append {L : PhoneLine} (h : NumbersDiffer L) {c : LineCall} (hc : ∀ d ∈ currentCalls L, d.number ≠ c.number) : NumbersDiffer (L ++ [c]) := by
  intro k j a b hk hj ha hb hab
  have hlt : ∀ {k : Nat} {a : LineCall}, (L ++ [c])[k]? = some a → (k < L.length ∧ L[k]? = some a) ∨ (k = L.length ∧ a = c) := by
    intro k a hk
    by_cases hl : k < L.length
    · rw [List.getElem?_append_left hl] at hk
      exact .inl ⟨hl, hk⟩
    · have := (List.getElem?_eq_some_iff.1 hk).1
      simp at this
      have hk' : k = L.length := by omega
      subst hk'
      rw [List.getElem?_append_right (Nat.le_refl _)] at hk
      simp at hk
      exact .inr ⟨rfl, hk.symm⟩
  rcases hlt hk with ⟨h1, h2⟩ | ⟨h1, rfl⟩ <;> rcases hlt hj with ⟨h3, h4⟩ | ⟨h3, rfl⟩
  · exact h k j a b h2 h4 ha hb hab
  · exact absurd hab (hc a (mem_current.2 ⟨k, h2, ha⟩))
  · exact absurd hab.symm (hc b (mem_current.2 ⟨j, h4, hb⟩))
  · omega

theorem numbers_change {L : PhoneLine} (h : NumbersDiffer L) {id : Nat} {f : LineCall → LineCall} (h1 : ∀ c, (f c).number = c.number) (h2 : ∀ c, (f c).over = false → c.over = false) :
    NumbersDiffer (onCall id f L) := by
  intro k j a b hk hj ha hb hab
  obtain ⟨a0, g1, rfl⟩ := change_get hk
  obtain ⟨b0, g2, rfl⟩ := change_get hj
  have e : ∀ c : LineCall, (if c.over = false ∧ c.id = id then f c else c).number = c.number := fun c => by split <;> simp [h1]
  have e2 : ∀ c : LineCall, (if c.over = false ∧ c.id = id then f c else c).over = false → c.over = false := fun c => by
    split
    · exact h2 c
    · exact fun h => h
  rw [e, e] at hab
  exact h k j _ _ g1 g2 (e2 _ ha) (e2 _ hb) hab

theorem step_numbers {w : Bool} {L L' : PhoneLine} {e : LineEvent} (h : LineStep L e L') (hg : Distinguishable w L e) (hn : NumbersDiffer L) : NumbersDiffer L' := by
  cases h with
  | comes hf => exact numbers_append hn hg.2
  | rings => exact numbers_change hn (fun _ => rfl) (fun _ h => h)
  | dialled hf => exact numbers_append hn hg.2
  | taken => exact numbers_change hn (fun _ => rfl) (fun _ h => h)
  | accepted => exact numbers_change hn (fun _ => rfl) (fun _ h => h)
  | ends => exact numbers_change hn (fun _ => rfl) (fun _ h => by cases h)
  | hungUp =>
    intro k j a b hk _ ha
    rw [List.getElem?_map] at hk
    cases hc : L[k]? with
    | none => rw [hc] at hk; cases hk
    | some c => rw [hc] at hk; cases hk; cases ha
  | hungUpLate => exact hn
  | nothing => exact hn

end Gsm
