import Verif.Lemmas.Store
/-! # A modem that keeps messages: what the methods do -/
namespace Gsm
open M Spec List

variable {env : Env} {shelf : List PyStr → Shelf} {came : List PyStr → List HeldSms}

/-- Only a command that deletes nothing and selects nothing. -/
def Harmless (c : PyStr) : Prop := (∀ i, ¬ Bids c (.delete i)) ∧ (∀ f, ¬ Bids c (.clear f)) ∧ (∀ m, ¬ Bids c (.select m)) ∧ ¬ Bids c .reset

theorem Unbidden.harmless {c : PyStr} (h : Unbidden c) : Harmless c := ⟨fun _ => h _, fun _ => h _, fun _ => h _, h _⟩

theorem harmless_of {c : PyStr} {o : ShelfOrder} (h : Bids c o) (h1 : ∀ i, o ≠ .delete i) (h2 : ∀ f, o ≠ .clear f) (h3 : ∀ m, o ≠ .select m) (h4 : o ≠ .reset) : Harmless c :=
  ⟨fun i hi => h1 i (bids_unique h hi), fun i hi => h2 i (bids_unique h hi), fun i hi => h3 i (bids_unique h hi), fun hi => h4 (bids_unique h hi)⟩

/-- All goes well for the messages. -/
def Guarded (shelf : List PyStr → Shelf) (came : List PyStr → List HeldSms) (s s' : St) : Prop :=
  Knows shelf s → (shelf s.log).Sound → (∃ new, s'.log = new ++ s.log) ∧ Knows shelf s' ∧ (shelf s'.log).Sound ∧ ∃ taken, Delivered shelf came s s' taken

theorem delivered_trans {a b c : St} {n1 n2 : List PyStr} {t1 t2 : List (HeldSms × Msg)} (h1 : b.log = n1 ++ a.log) (h2 : c.log = n2 ++ b.log)
    (d1 : Delivered shelf came a b t1) (d2 : Delivered shelf came b c t2) : Delivered shelf came a c (t1 ++ t2) := by
  obtain ⟨x1, y1, z1⟩ := d1
  obtain ⟨x2, y2, z2⟩ := d2
  refine ⟨by simp [x2, x1], fun p hp => ?_, ?_⟩
  · rcases List.mem_append.1 hp with hp | hp
    · exact y1 p hp
    · exact y2 p hp
  · rw [h1] at z1 z2 h2
    rw [h2] at z2 ⊢
    rw [List.map_append]
    exact balance_trans z1 z2

theorem safe_pre : IsPre (Guarded shelf came) where
  refl := fun s hk hs => ⟨⟨[], rfl⟩, hk, hs, [], rfl, (fun p hp => absurd hp (by simp)), balance_refl _⟩
  trans := by
    intro a b c h1 h2 hk hs
    obtain ⟨⟨n1, e1⟩, k1, s1, t1, d1⟩ := h1 hk hs
    obtain ⟨⟨n2, e2⟩, k2, s2, t2, d2⟩ := h2 k1 s1
    exact ⟨⟨n2 ++ n1, by rw [e2, e1]; simp⟩, k2, s2, t1 ++ t2, delivered_trans e1 e2 d1 d2⟩

/-- A harmless command. -/
theorem safe_one (H : Keeping env.reply shelf came) {c : PyStr} (h : Harmless c) (s : St) (w : Nat) : Guarded shelf came s { s with log := c :: s.log, writeWait := w } := by
  intro hk hs
  refine ⟨⟨[c], rfl⟩, ⟨hk.1, fun m hm hq => ?_⟩, keep_sound H c hs, [], rfl, (fun p hp => absurd hp (by simp)), balance_other H h.1 h.2.1⟩
  exact (keep_memory H h.2.2.1 h.2.2.2).trans (hk.2 m hm hq)

theorem safe_many (H : Keeping env.reply shelf came) {c : PyStr} (h : Harmless c) : ∀ (k : Nat) (s : St) (w : Nat),
    Guarded shelf came s { s with log := List.replicate k c ++ s.log, writeWait := w }
  | 0, s, w => fun hk hs => ⟨⟨[], rfl⟩, hk, hs, [], rfl, (fun p hp => absurd hp (by simp)), balance_refl _⟩
  | k + 1, s, w => safe_pre.trans (safe_many H h k s w) (safe_one H h { s with log := List.replicate k c ++ s.log, writeWait := w } w)

theorem safe_harmless (H : Keeping env.reply shelf came) {data term : PyStr} {pe : Bool} (h : Harmless (data ++ term)) : Steps env (Guarded shelf came) (write data pe term) :=
  Steps.write fun s k w => safe_many H h k s w

theorem safe_write (H : Keeping env.reply shelf came) {data term : PyStr} {pe : Bool} (h : Unbidden (data ++ term)) : Steps env (Guarded shelf came) (write data pe term) :=
  safe_harmless H h.harmless

theorem safe_same {s s' : St} (h1 : s'.log = s.log) (h2 : s'.smsTextMode = s.smsTextMode) (h3 : s'.smsMemReadDelete = s.smsMemReadDelete)
    (h4 : handedOver s' = handedOver s) : Guarded shelf came s s' := by
  intro hk hs
  refine ⟨⟨[], by simp [h1]⟩, ⟨by rw [h2]; exact hk.1, fun m hm hq => ?_⟩, by rw [h1]; exact hs, [], by simp [h4], (fun p hp => absurd hp (by simp)), ?_⟩
  · rw [h1]; rw [h3] at hm; exact hk.2 m hm hq
  · rw [h1]; exact balance_refl _

/-! ### Commands that are obeyed -/

theorem obeyed_write (hd : 0 < env.depth) {c : PyStr} {ls : List PyStr} {s : St} (h : env.reply ((c ++ [13]) :: s.log) = .lines ls) (hl : ls.getLast? = some py!"OK") :
    write c true [13] env s = (.ok ls, { s with log := (c ++ [13]) :: s.log }) := C32_mapping hd h (.fine hl (by decide) (by decide))

/-- Selecting a memory. -/
theorem memory_run (H : Keeping env.reply shelf came) (hd : 0 < env.depth) {m : Option PyStr} (hm : Nameable m) {s : St} (hk : Knows shelf s) :
    ∃ new mem, (setSmsMemory m none env s = (.ok (), { s with log := new ++ s.log, smsMemReadDelete := mem }) ∧ (∀ x, m = some x → (shelf (new ++ s.log)).memory = x) ∨
        ∃ e x, setSmsMemory m none env s = (.error e, { s with log := new ++ s.log, smsMemReadDelete := mem }) ∧ m = some x ∧ ∀ y ∈ (shelf s.log).slots, y.memory ≠ x) ∧
      Balance shelf came s.log (new ++ s.log) [] ∧ Knows shelf { s with log := new ++ s.log, smsMemReadDelete := mem } ∧
      ((shelf s.log).Sound → (shelf (new ++ s.log)).Sound) ∧
      ∀ y : HeldSms, y.content ∈ (shelf s.log).slots.map HeldSms.content → y.content ∈ (shelf (new ++ s.log)).slots.map HeldSms.content := by
  cases m with
  | none => exact ⟨[], s.smsMemReadDelete, .inl ⟨rfl, (fun x hx => by cases hx)⟩, balance_refl _, hk, id, fun _ h => h⟩
  | some x =>
    by_cases hx : some x = s.smsMemReadDelete
    · refine ⟨[], s.smsMemReadDelete, .inl ⟨?_, (fun y hy => ?_)⟩, balance_refl _, hk, id, fun _ h => h⟩
      · simp [setSmsMemory, run_bind, run_get, hx]; rfl
      · cases hy; exact hk.2 x hx.symm (hm x rfl)
    · have hb : Bids (cpmsCmd x ++ [13]) (.select x) := by
        have := Bids.select (hm x rfl)
        simpa [cpmsCmd] using this
      have hs := serves_order (H.serves (cpmsCmd x ++ [13]) s.log) hb
      have hdel : ∀ i, ¬ Bids (cpmsCmd x ++ [13]) (.delete i) := fun i hi => by cases bids_unique hb hi
      have hcl : ∀ i, ¬ Bids (cpmsCmd x ++ [13]) (.clear i) := fun i hi => by cases bids_unique hb hi
      have hstay : ∀ y : HeldSms, y.content ∈ (shelf s.log).slots.map HeldSms.content →
          y.content ∈ (shelf ([cpmsCmd x ++ [13]] ++ s.log)).slots.map HeldSms.content := by
        intro y hy
        show y.content ∈ (shelf ((cpmsCmd x ++ [13]) :: s.log)).slots.map HeldSms.content
        rw [keep_content H hdel hcl]
        exact List.mem_append_left _ hy
      have hcase : (∃ ls, env.reply ((cpmsCmd x ++ [13]) :: s.log) = .lines ls ∧ ls.getLast? = some py!"OK" ∧
            (shelf ((cpmsCmd x ++ [13]) :: s.log)).memory = x) ∨
          env.reply ((cpmsCmd x ++ [13]) :: s.log) = .lines [py!"+CMS ERROR: 302"] ∧ (∀ y ∈ (shelf s.log).slots, y.memory ≠ x) ∧
            (shelf ((cpmsCmd x ++ [13]) :: s.log)).memory = (shelf s.log).memory := by
        generalize shelf ((cpmsCmd x ++ [13]) :: s.log) = m' at hs ⊢
        generalize env.reply ((cpmsCmd x ++ [13]) :: s.log) = r at hs ⊢
        cases hs with
        | select hl => exact .inl ⟨_, rfl, hl, rfl⟩
        | refused hno => exact .inr ⟨rfl, fun y hy => hno y (List.mem_append_left _ hy), rfl⟩
      rcases hcase with ⟨ls, hr, hl, hmem⟩ | ⟨hr, hno, hmem⟩
      · refine ⟨[cpmsCmd x ++ [13]], some x, .inl ⟨?_, ?_⟩, balance_other H hdel hcl, ⟨hk.1, ?_⟩, keep_sound H _, hstay⟩
        · simp [setSmsMemory, run_bind, run_get, hx, obeyed_write hd hr hl, run_modify]
        · rintro y hy; cases hy; exact hmem
        · rintro m hm' _; cases hm'; exact hmem
      · refine ⟨[cpmsCmd x ++ [13]], s.smsMemReadDelete, .inr ⟨.command .cms (some 302), x, ?_, rfl, hno⟩, balance_other H hdel hcl, ⟨hk.1, ?_⟩, keep_sound H _, hstay⟩
        · have hw : write (cpmsCmd x) true [13] env s = (.error (.command .cms (some 302)), { s with log := (cpmsCmd x ++ [13]) :: s.log }) := by
            refine C32_mapping hd hr ?_
            exact ResponseMeans.code (ls := [py!"+CMS ERROR: 302"]) (line := py!"+CMS ERROR: 302") (ty := py!"CMS") (ds := py!"302") rfl
              ⟨.inr rfl, by decide, by decide, [], .inl rfl, rfl⟩ (by decide) (by decide)
          simp [setSmsMemory, run_bind, run_get, hx, hw]
        · exact fun m hm' hq => hmem.trans (hk.2 m hm' hq)

theorem safe_memory (H : Keeping env.reply shelf came) (hd : 0 < env.depth) {m : Option PyStr} (hm : Nameable m) : Steps env (Guarded shelf came) (setSmsMemory m) := by
  refine ⟨fun s hk hs => ?_⟩
  obtain ⟨new, mem, ⟨h1, -⟩ | ⟨e, x, h1, -⟩, h2, h3, h4, -⟩ := memory_run H hd hm hk
  all_goals
    rw [h1]
    exact ⟨⟨new, rfl⟩, h3, h4 hs, [], rfl, (fun p hp => absurd hp (by simp)), h2⟩

/-- Deleting a message that is there. -/
theorem delete_run (H : Keeping env.reply shelf came) (hd : 0 < env.depth) {i : PyStr} (hi : Digits i) {x : HeldSms} (hp : x.place = decVal i) {s : St}
    (hm : x.memory = (shelf s.log).memory) (hx : x.content ∈ (shelf s.log).slots.map HeldSms.content) :
    deleteStoredSms i none env s = (.ok (), { s with log := (cmgdCmd i ++ [13]) :: s.log }) ∧ Balance shelf came s.log ((cmgdCmd i ++ [13]) :: s.log) [x] ∧
      (shelf ((cmgdCmd i ++ [13]) :: s.log)).memory = (shelf s.log).memory ∧
      ∀ y ∈ (shelf s.log).slots, y.spot ≠ x.spot → y ∈ (shelf ((cmgdCmd i ++ [13]) :: s.log)).slots := by
  have hb : Bids (cmgdCmd i ++ [13]) (.delete x.place) := by
    have := Bids.delete hi
    rw [hp]
    simpa [cmgdCmd] using this
  have hs := serves_order (H.serves (cmgdCmd i ++ [13]) s.log) hb
  obtain ⟨ls, hr, hl⟩ : ∃ ls, env.reply ((cmgdCmd i ++ [13]) :: s.log) = .lines ls ∧ ls.getLast? = some py!"OK" := by
    generalize shelf ((cmgdCmd i ++ [13]) :: s.log) = m' at hs
    generalize env.reply ((cmgdCmd i ++ [13]) :: s.log) = r at hs ⊢
    cases hs with
    | delete hl => exact ⟨_, rfl, hl⟩
  refine ⟨?_, ?_, keep_memory H (fun m hm' => by cases bids_unique hb hm') (fun h => by cases bids_unique hb h), ?_⟩
  · have h0 : setSmsMemory none none env s = (.ok (), s) := rfl
    simp only [deleteStoredSms, run_bind, h0, obeyed_write hd hr hl, run_pure]
  · unfold Balance
    rw [since_one]
    exact keep_delete H hb hm hx
  · intro y hy hne
    generalize shelf ((cmgdCmd i ++ [13]) :: s.log) = m' at hs ⊢
    generalize env.reply ((cmgdCmd i ++ [13]) :: s.log) = r at hs
    cases hs with
    | delete hl =>
      refine List.mem_filter.2 ⟨List.mem_append_left _ hy, ?_⟩
      simp only [Shelf.at, Bool.not_eq_true', decide_eq_false_iff_not]
      rintro ⟨h1, h2⟩
      exact hne (by simp only [HeldSms.spot, h1, h2, hm]; rfl)

/-- Deleting several. -/
theorem deleteAll_run (H : Keeping env.reply shelf came) (hd : 0 < env.depth) : ∀ (gone : List HeldSms) (s : St), (gone.map HeldSms.place).Nodup →
    (∀ x ∈ gone, x.memory = (shelf s.log).memory ∧ x.content ∈ (shelf s.log).slots.map HeldSms.content) → (shelf s.log).Sound →
    ∃ new, deleteAll (gone.map fun x => (x.place : Int)) env s = (.ok (), { s with log := new ++ s.log }) ∧ Balance shelf came s.log (new ++ s.log) gone ∧
      (shelf (new ++ s.log)).memory = (shelf s.log).memory ∧ (shelf (new ++ s.log)).Sound ∧
      ∀ y ∈ (shelf s.log).slots, (∀ x ∈ gone, y.spot ≠ x.spot) → y ∈ (shelf (new ++ s.log)).slots
  | [], s, _, _, hs => ⟨[], rfl, balance_refl _, rfl, hs, fun _ h _ => h⟩
  | x :: gone, s, hn, hg, hs => by
    have hx := hg x (by simp)
    obtain ⟨h1, h2, h3, h5⟩ := delete_run H hd (digits_decStr x.place) (decVal_decStr x.place).symm hx.1 hx.2
    obtain ⟨c, hc⟩ : ∃ c, c = cmgdCmd (decStr x.place) ++ [13] := ⟨_, rfl⟩
    rw [← hc] at h1 h2 h3 h5
    simp only [List.map_cons, List.nodup_cons] at hn
    have hrest : ∀ y ∈ gone, y.memory = (shelf (c :: s.log)).memory ∧ y.content ∈ (shelf (c :: s.log)).slots.map HeldSms.content := by
      intro y hy
      have hy' := hg y (by simp [hy])
      refine ⟨hy'.1.trans h3.symm, ?_⟩
      have hmem : y.content ∈ (shelf (c :: s.log)).slots.map HeldSms.content ++ [x.content] :=
        h2.symm.subset (List.mem_append_left _ hy'.2)
      rcases List.mem_append.1 hmem with hm | hm
      · exact hm
      · exfalso
        have he := List.mem_singleton.1 hm
        simp only [HeldSms.content, Prod.mk.injEq] at he
        exact hn.1 (he.2.1 ▸ List.mem_map_of_mem hy)
    obtain ⟨new, k1, k2, k3, k4, k5⟩ := deleteAll_run H hd gone { s with log := c :: s.log } hn.2 hrest (keep_sound H c hs)
    refine ⟨new ++ [c], ?_, ?_, ?_, ?_, ?_⟩
    · simp only [List.map_cons, deleteAll, run_bind]
      have e : intStr (x.place : Int) = decStr x.place := rfl
      rw [e, h1]
      dsimp only
      rw [k1]
      simp
    · have := balance_trans (n1 := [c]) h2 k2
      simpa using this
    · rw [List.append_assoc]; exact k3.trans h3
    · rw [List.append_assoc]; exact k4
    · intro y hy hne
      rw [List.append_assoc]
      exact k5 y (h5 y hy (hne x (by simp))) fun z hz => hne z (by simp [hz])

/-- Choosing an order. -/
theorem perm_choose {α β : Type} (f : α → β) {l l' : List β} (h : l ~ l') : ∀ shown : List α, l' = shown.map f → ∃ gone, gone ~ shown ∧ l = gone.map f := by
  induction h with
  | nil => intro shown hs; exact ⟨[], by simp at hs; simp [hs], rfl⟩
  | cons x _ ih =>
    intro shown hs
    cases shown with
    | nil => cases hs
    | cons y shown =>
      simp only [List.map_cons, List.cons.injEq] at hs
      obtain ⟨gone, h1, h2⟩ := ih shown hs.2
      exact ⟨y :: gone, h1.cons y, by simp [hs.1, h2]⟩
  | swap x y l =>
    intro shown hs
    match shown, hs with
    | a :: b :: rest, hs =>
      simp only [List.map_cons, List.cons.injEq] at hs
      exact ⟨b :: a :: rest, .swap _ _ _, by simp [hs.1, hs.2.1, hs.2.2]⟩
  | trans _ _ ih1 ih2 =>
    intro shown hs
    obtain ⟨g2, h1, h2⟩ := ih2 shown hs
    obtain ⟨g1, h3, h4⟩ := ih1 g2 h2
    exact ⟨g1, h3.trans h1, h4⟩

theorem means_of_shows {x : HeldSms} {e : PduEntry} {m : Msg} (h : EntryOf x e) (hm : MadeInto x m) : e.Means m := by
  obtain ⟨-, -, h3, h4⟩ := h
  unfold PduEntry.Means
  rw [h3, h4]
  exact hm

theorem made_of {x : HeldSms} (h : IsMessage x.pdu) : ∃ m, MadeInto x m := by
  obtain ⟨m, h | h⟩ := h
  · obtain ⟨a, b, c, d, e, f, h, _⟩ := h
    exact ⟨_, .inl ⟨a, b, c, d, e, f, h, rfl⟩⟩
  · obtain ⟨a, b, c, d, e, f, g, h, _⟩ := h
    exact ⟨_, .inr ⟨a, b, c, d, e, f, g, h, rfl⟩⟩

theorem all_made : ∀ {shown : List HeldSms} {es : List PduEntry}, (∀ x ∈ shown, IsMessage x.pdu) → List.Forall₂ EntryOf shown es →
    ∃ ms, List.Forall₂ MadeInto shown ms ∧ List.Forall₂ PduEntry.Means es ms
  | [], [], _, .nil => ⟨[], .nil, .nil⟩
  | x :: shown, e :: es, hx, .cons h1 h2 => by
    obtain ⟨m, hm⟩ := made_of (hx x (by simp))
    obtain ⟨ms, k1, k2⟩ := all_made (fun y hy => hx y (by simp [hy])) h2
    exact ⟨m :: ms, .cons hm k1, .cons (means_of_shows h1 hm) k2⟩

theorem shown_places : ∀ {shown : List HeldSms} {es : List PduEntry}, List.Forall₂ EntryOf shown es →
    (es.map fun e => decVal e.index) = shown.map HeldSms.place ∧ ∀ e ∈ es, e.Ok
  | [], [], .nil => ⟨rfl, fun _ h => absurd h (by simp)⟩
  | x :: shown, e :: es, .cons h1 h2 => by
    obtain ⟨k1, k2⟩ := shown_places h2
    refine ⟨by simp [h1.2.1, k1], fun y hy => ?_⟩
    rcases List.mem_cons.1 hy with rfl | hy
    · exact h1.1
    · exact k2 y hy

theorem zip_snd : ∀ {shown : List HeldSms} {ms : List Msg}, List.Forall₂ MadeInto shown ms →
    (shown.zip ms).map Prod.snd = ms ∧ (shown.zip ms).map Prod.fst = shown ∧ ∀ p ∈ shown.zip ms, MadeInto p.1 p.2
  | [], [], .nil => ⟨rfl, rfl, fun _ h => absurd h (by simp)⟩
  | x :: shown, m :: ms, .cons h1 h2 => by
    obtain ⟨k1, k2, k3⟩ := zip_snd h2
    refine ⟨by simp [k1], by simp [k2], fun p hp => ?_⟩
    rcases List.mem_cons.1 hp with rfl | hp
    · exact h1
    · exact k3 p hp

/-- Listing and deleting the messages with a state. -/
theorem list_run (H : Keeping env.reply shelf came) (hd : 0 < env.depth) {k : Nat} (hk1 : k ≤ 1) {s : St} (hk : Knows shelf s) (hs : (shelf s.log).Sound) :
    ∃ (new : List PyStr) (taken : List (HeldSms × Msg)), listStoredSms k none true env s = (.ok (taken.map Prod.snd), { s with log := new ++ s.log }) ∧
      Balance shelf came s.log (new ++ s.log) (taken.map Prod.fst) ∧ (∀ p ∈ taken, MadeInto p.1 p.2) ∧
      (taken.map Prod.fst) ~ ((shelf s.log).with (came ((py!"AT+CMGL=" ++ decStr k ++ [13]) :: s.log))).listed k ∧
      (shelf (new ++ s.log)).memory = (shelf s.log).memory ∧ (shelf (new ++ s.log)).Sound ∧
      ∀ y ∈ (shelf s.log).slots, y.state ≠ k → y ∈ (shelf (new ++ s.log)).slots := by
  obtain ⟨c, hc⟩ : ∃ c, c = py!"AT+CMGL=" ++ decStr k ++ [13] := ⟨_, rfl⟩
  have hb : Bids c (.list k) := hc ▸ Bids.list (by omega)
  have hdel : ∀ i, ¬ Bids c (.delete i) := fun i hi => by cases bids_unique hb hi
  have hcl : ∀ i, ¬ Bids c (.clear i) := fun i hi => by cases bids_unique hb hi
  have hsel : ∀ i, ¬ Bids c (.select i) := fun i hi => by cases bids_unique hb hi
  have hob := serves_order (H.serves c s.log) hb
  obtain ⟨m0, hm0⟩ : ∃ m0, m0 = (shelf s.log).with (came (c :: s.log)) := ⟨_, rfl⟩
  rw [← hm0] at hob
  obtain ⟨shown, es, hp, hf, hr, hstay⟩ : ∃ shown es, shown ~ m0.listed k ∧ List.Forall₂ EntryOf shown es ∧
      env.reply (c :: s.log) = .lines (es.flatMap PduEntry.lines ++ [py!"OK"]) ∧ ∀ y ∈ m0.slots, y.state ≠ k → y ∈ (shelf (c :: s.log)).slots := by
    generalize shelf (c :: s.log) = m' at hob ⊢
    generalize env.reply (c :: s.log) = r at hob ⊢
    cases hob with
    | list h1 h2 =>
      refine ⟨_, _, h1, h2, rfl, fun y hy hyk => List.mem_map.2 ⟨y, hy, ?_⟩⟩
      have : y ∉ m0.listed k := by
        simp only [Shelf.listed, List.mem_filter, decide_eq_true_eq]
        rintro ⟨-, -, h | h⟩
        · omega
        · exact hyk h
      simp [this]
  have hsound0 : m0.Sound := hm0 ▸ with_sound hs (H.fresh _)
  have hshown : ∀ x ∈ shown, x ∈ m0.slots ∧ x.memory = m0.memory ∧ x.state = k := by
    intro x hx
    have h := hp.subset hx
    simp only [Shelf.listed, List.mem_filter, decide_eq_true_eq] at h
    exact ⟨h.1, h.2.1, h.2.2.resolve_left (by omega)⟩
  obtain ⟨ms, hms, hmeans⟩ := all_made (fun x hx => hsound0 x (hshown x hx).1 (by rw [(hshown x hx).2.2]; omega)) hf
  obtain ⟨hpl, hok⟩ := shown_places hf
  have hmem0 : m0.memory = (shelf s.log).memory := by rw [hm0]; rfl
  have hmem1 : (shelf (c :: s.log)).memory = (shelf s.log).memory := keep_memory H hsel fun h => by cases bids_unique hb h
  have hnd : (shown.map HeldSms.place).Nodup := by
    have h1 : ((m0.listed k).map HeldSms.spot).Nodup := by
      have := H.places c s.log
      rw [hm0]
      exact List.Nodup.sublist (List.Sublist.map _ List.filter_sublist) this
    have h2 : (shown.map HeldSms.spot).Nodup := (hp.map _).symm.nodup h1
    have h3 : shown.map HeldSms.spot = (shown.map HeldSms.place).map fun i => (m0.memory, i) := by
      rw [List.map_map]
      refine List.map_congr_left fun x hx => ?_
      simp [HeldSms.spot, (hshown x hx).2.1]
    rw [h3] at h2
    exact List.Nodup.of_map _ h2
  have hparse : parseListing false (es.flatMap PduEntry.lines ++ [py!"OK"]) = .ok ⟨ms, (shown.map fun x => (x.place : Int)).foldl setAdd []⟩ := by
    unfold parseListing
    rw [if_neg (by simp), pduListLoop_entries hok hmeans]
    have : (es.map fun e => (decVal e.index : Int)) = shown.map fun x => (x.place : Int) := by
      have := congrArg (List.map fun n : Nat => (n : Int)) hpl
      simpa [List.map_map, Function.comp_def] using this
    simp [this]
  have hndI : (shown.map fun x => (x.place : Int)).Nodup := by
    have := hnd.map (f := fun n : Nat => (n : Int)) (fun a b h => by simpa using h)
    simpa [List.map_map, Function.comp_def] using this
  obtain ⟨hn, hm⟩ := fold_setAdd (shown.map fun x => (x.place : Int)) [] List.nodup_nil
  have hperm : env.order ((shown.map fun x => (x.place : Int)).foldl setAdd []) ~ shown.map fun x => (x.place : Int) := by
    refine (env.order_perm _).trans ((List.perm_ext_iff_of_nodup hn hndI).2 fun j => ?_)
    rw [hm]; simp
  obtain ⟨gone, hg1, hg2⟩ := perm_choose (fun x : HeldSms => (x.place : Int)) hperm shown rfl
  have hcontent : ∀ x ∈ gone, x.memory = (shelf (c :: s.log)).memory ∧ x.content ∈ (shelf (c :: s.log)).slots.map HeldSms.content := by
    intro x hx
    have h := hshown x (hg1.subset hx)
    refine ⟨by rw [h.2.1, hmem0, hmem1], ?_⟩
    rw [keep_content H hdel hcl, ← List.map_append]
    refine List.mem_map_of_mem ?_
    have := h.1
    rw [hm0] at this
    exact this
  obtain ⟨new, k1, k2, k3, k4, k5⟩ := deleteAll_run H hd gone { s with log := c :: s.log } ((hg1.map _).symm.nodup hnd) hcontent (keep_sound H c hs)
  obtain ⟨z1, z2, z3⟩ := zip_snd hms
  refine ⟨new ++ [c], shown.zip ms, ?_, ?_, z3, ?_, ?_, ?_, ?_⟩
  · have h0 : setSmsMemory none none env s = (.ok (), s) := rfl
    have hw : write (py!"AT+CMGL=" ++ intStr (k : Int)) true [13] env s = (.ok (es.flatMap PduEntry.lines ++ [py!"OK"]), { s with log := c :: s.log }) := by
      have : py!"AT+CMGL=" ++ intStr (k : Int) ++ [13] = c := hc.symm
      rw [← this] at hr ⊢
      exact obeyed_write hd hr (by simp)
    obtain ⟨s1, hs1⟩ : ∃ s1, s1 = { s with log := c :: s.log } := ⟨_, rfl⟩
    rw [← hs1] at hw k1
    have hend : ({ s with log := new ++ [c] ++ s.log } : St) = { s1 with log := new ++ s1.log } := by rw [hs1]; simp
    have hl1 : s1.log = c :: s.log := by rw [hs1]
    rw [hend]
    unfold listStoredSms
    simp only [run_bind, run_get, run_ofExcept, h0, listCommand, hk.1, Bool.false_eq_true, if_false, hw, hparse, z1]
    have h4 : ((k : Int) = 4) = False := by simp; omega
    simp only [deleteListed, if_true, h4, if_false, deleteSet]
    rw [hg2, k1]
    rfl
  · rw [z2, List.append_assoc]
    have := balance_trans (n1 := [c]) (balance_other H hdel hcl) k2
    simp only [List.nil_append] at this
    unfold Balance at this ⊢
    refine List.Perm.trans (List.Perm.append_left _ (hg1.map _).symm) this
  · rw [z2, ← hc, ← hm0]; exact hp
  · rw [List.append_assoc]; exact k3.trans hmem1
  · rw [List.append_assoc]; exact k4
  · intro y hy hyk
    rw [List.append_assoc]
    have hy0 : y ∈ m0.slots := by rw [hm0]; exact List.mem_append_left _ hy
    refine k5 y (hstay y hy0 hyk) fun z hz hyz => hyk ?_
    have hz' := hshown z (hg1.subset hz)
    have hinj : (m0.slots.map HeldSms.spot).Nodup := by rw [hm0]; exact H.places c s.log
    have := List.inj_on_of_nodup_map hinj hy0 hz'.1 hyz
    rw [this]
    exact hz'.2.2

/-! ### Processing all of them -/

theorem handed_passOn (ms : List Msg) (cs : List Callback) (s : St) (h : s.callbacks = passOn ms cs) :
    handedOver s = ms.reverse ++ cs.filterMap (fun | .smsReceived m => some m | _ => none) := by
  unfold handedOver
  rw [h, passOn, List.filterMap_append, ← List.map_reverse, List.filterMap_map]
  congr 1
  induction ms.reverse with
  | nil => rfl
  | cons m ms ih => simp [List.filterMap_cons, ih]

/-- One state. -/
theorem stage_keep (H : Keeping env.reply shelf came) (hd : 0 < env.depth) (st : Bool) {s : St} (hk : Knows shelf s) (hs : (shelf s.log).Sound) :
    ∃ (s1 : St) (taken : List (HeldSms × Msg)) (new : List PyStr), (do let ms ← listStoredSms (stateNumber st) none true; callbackAll ms : M Unit) env s = (.ok (), s1) ∧
      s1.log = new ++ s.log ∧ s1.callbacks = passOn (taken.map Prod.snd) s.callbacks ∧ Knows shelf s1 ∧ (shelf s1.log).Sound ∧ Delivered shelf came s s1 taken ∧
      (∀ x ∈ (shelf s.log).slots, x.memory = (shelf s.log).memory → x.state = (if st then 1 else 0) → x ∈ taken.map Prod.fst) ∧
      (∀ x ∈ (shelf s.log).slots, x.state ≠ (if st then 1 else 0) → x ∈ (shelf s1.log).slots) ∧ (shelf s1.log).memory = (shelf s.log).memory := by
  obtain ⟨k, hk1, hkn, hst⟩ : ∃ k : Nat, k ≤ 1 ∧ stateNumber st = (k : Int) ∧ (if st then 1 else 0) = k := by
    cases st
    · exact ⟨0, by omega, rfl, rfl⟩
    · exact ⟨1, by omega, rfl, rfl⟩
  obtain ⟨new, taken, h1, h2, h3, h4, h5, h6, h7⟩ := list_run H hd hk1 hk hs
  refine ⟨{ s with log := new ++ s.log, callbacks := passOn (taken.map Prod.snd) s.callbacks }, taken, new, ?_, rfl, rfl, ⟨hk.1, ?_⟩, h6, ⟨?_, h3, h2⟩, ?_, ?_, h5⟩
  · simp only [run_bind, hkn, h1, callbackAll_run]
  · exact fun m hm hq => h5.trans (hk.2 m hm hq)
  · exact handed_passOn _ _ _ rfl
  · intro x hx hm hxs
    rw [hst] at hxs
    refine h4.symm.subset ?_
    simp only [Shelf.listed, List.mem_filter, decide_eq_true_eq]
    exact ⟨List.mem_append_left _ hx, hm, .inr hxs⟩
  · rw [hst]; exact h7

theorem process_keep (H : Keeping env.reply shelf came) (hd : 0 < env.depth) (unreadOnly : Bool) {s : St} (hk : Knows shelf s) (hs : (shelf s.log).Sound) :
    ∃ (s1 : St) (taken : List (HeldSms × Msg)) (new : List PyStr), processStoredSms unreadOnly env s = (.ok (), s1) ∧ s1.log = new ++ s.log ∧
      s1.callbacks = passOn (taken.map Prod.snd) s.callbacks ∧ Knows shelf s1 ∧ (shelf s1.log).Sound ∧ Delivered shelf came s s1 taken ∧
      ∀ x ∈ (shelf s.log).slots, x.memory = (shelf s.log).memory → (x.state = 0 ∨ unreadOnly = false ∧ x.state = 1) → x ∈ taken.map Prod.fst := by
  cases unreadOnly with
  | true =>
    obtain ⟨s1, taken, new, h1, h2, h3, h4, h5, h6, h7, -⟩ := stage_keep H hd false hk hs
    refine ⟨s1, taken, new, h1, h2, h3, h4, h5, h6, ?_⟩
    rintro x hx hm (h | ⟨h, -⟩)
    · exact h7 x hx hm h
    · cases h
  | false =>
    obtain ⟨s1, t1, n1, h1, h2, h3, h4, h5, h6, h7, h8, h9⟩ := stage_keep H hd true hk hs
    obtain ⟨s2, t2, n2, k1, k2, k3, k4, k5, k6, k7, -⟩ := stage_keep H hd false h4 h5
    refine ⟨s2, t1 ++ t2, n2 ++ n1, ?_, by rw [k2, h2]; simp, by rw [k3, h3, passOn_append]; simp, k4, k5, delivered_trans h2 k2 h6 k6, ?_⟩
    · have e : processStoredSms false = (do let ms ← listStoredSms (stateNumber true) none true; callbackAll ms; (do let ms ← listStoredSms (stateNumber false) none true; callbackAll ms) : M Unit) := rfl
      rw [e]
      have e2 : (do let ms ← listStoredSms (stateNumber true) none true; callbackAll ms; (do let ms ← listStoredSms (stateNumber false) none true; callbackAll ms) : M Unit) env s =
          ((do let ms ← listStoredSms (stateNumber true) none true; callbackAll ms : M Unit) >>= fun _ => (do let ms ← listStoredSms (stateNumber false) none true; callbackAll ms : M Unit)) env s := by
        simp only [run_bind]
        rcases listStoredSms (stateNumber true) none true env s with ⟨_ | ms, s'⟩ <;> rfl
      rw [e2, run_bind, h1]
      exact k1
    · rintro x hx hm (h | ⟨-, h⟩)
      · rw [List.map_append]
        refine List.mem_append_right _ (k7 x (h8 x hx ?_) (by rw [h9]; exact hm) h)
        simp [h]
      · rw [List.map_append]
        exact List.mem_append_left _ (h7 x hx hm h)

theorem safe_process (H : Keeping env.reply shelf came) (hd : 0 < env.depth) (u : Bool) : Steps env (Guarded shelf came) (processStoredSms u) := by
  refine ⟨fun s hk hs => ?_⟩
  obtain ⟨s1, taken, new, h1, h2, -, h4, h5, h6, -⟩ := process_keep H hd u hk hs
  rw [h1]
  exact ⟨⟨new, h2⟩, h4, h5, taken, h6⟩

/-! ### Notifications -/

theorem harmless_start {p c : PyStr} (h : p <+: c) (h1 : p = py!"AT+CMGR=" ∨ p = py!"AT+CMGL=") : Harmless c := by
  obtain ⟨t, rfl⟩ := h
  refine ⟨fun i hi => ?_, fun i hi => ?_, fun i hi => ?_, fun hi => ?_⟩
  all_goals
    generalize hc : p ++ t = c at hi
    cases hi <;> (rcases h1 with rfl | rfl <;> simp at hc)

/-- Reading the message at a place of the selected memory. -/
theorem fetch_keep (H : Keeping env.reply shelf came) (hd : 0 < env.depth) {i : PyStr} (hi : Digits i) {s : St} (hk : Knows shelf s) :
    (∃ e, (write (cmgrCmd i) >>= fun ls => (M.ofExcept (parseCmgrPdu ls) : M Msg)) env s = (.error e, { s with log := (cmgrCmd i ++ [13]) :: s.log }) ∧
      ∀ x ∈ (shelf s.log).slots, x.memory = (shelf s.log).memory → x.place = decVal i → ¬ IsMessage x.pdu) ∨
    ∃ x m, (write (cmgrCmd i) >>= fun ls => (M.ofExcept (parseCmgrPdu ls) : M Msg)) env s = (.ok m, { s with log := (cmgrCmd i ++ [13]) :: s.log }) ∧
      MadeInto x m ∧ x.place = decVal i ∧ x.memory = (shelf s.log).memory ∧
      x.content ∈ (shelf ((cmgrCmd i ++ [13]) :: s.log)).slots.map HeldSms.content ∧
      ∀ y ∈ (shelf s.log).slots, y.memory = (shelf s.log).memory → y.place = decVal i → y = x := by
  obtain ⟨c, hc⟩ : ∃ c, c = cmgrCmd i ++ [13] := ⟨_, rfl⟩
  have hb : Bids c (.read (decVal i)) := hc ▸ Bids.read hi
  have hdel : ∀ i, ¬ Bids c (.delete i) := fun i hi => by cases bids_unique hb hi
  have hcl : ∀ i, ¬ Bids c (.clear i) := fun i hi => by cases bids_unique hb hi
  have hob := serves_order (H.serves c s.log) hb
  obtain ⟨m0, hm0⟩ : ∃ m0, m0 = (shelf s.log).with (came (c :: s.log)) := ⟨_, rfl⟩
  rw [← hm0] at hob
  have hmem0 : m0.memory = (shelf s.log).memory := by rw [hm0]; rfl
  have hin : ∀ x ∈ (shelf s.log).slots, x ∈ m0.slots := fun x hx => by rw [hm0]; exact List.mem_append_left _ hx
  have hnd : (m0.slots.map HeldSms.spot).Nodup := by rw [hm0]; exact H.places c s.log
  have hcase : (env.reply (c :: s.log) = .lines [py!"+CMS ERROR: 321"] ∧ ∀ x ∈ m0.listed 4, x.place ≠ decVal i) ∨
      ∃ x line status, x ∈ m0.listed 4 ∧ PduHeader line status ∧ pduState status = x.state ∧ x.place = decVal i ∧ env.reply (c :: s.log) = .lines [line, x.pdu, py!"OK"] := by
    generalize shelf (c :: s.log) = m' at hob
    generalize env.reply (c :: s.log) = r at hob ⊢
    generalize hj : decVal i = j at hob
    cases hob with
    | read h1 h2 h3 => exact .inr ⟨_, _, _, h1, h2, h3, rfl, rfl⟩
    | missing h => exact .inl ⟨rfl, h⟩
  rw [← hc]
  rcases hcase with ⟨hr, hno⟩ | ⟨x, line, status, hx, hh, hst, hpl, hr⟩
  · refine .inl ⟨.command .cms (some 321), ?_, fun x hx hm hp => ?_⟩
    · have hw : write (cmgrCmd i) true [13] env s = (.error (.command .cms (some 321)), { s with log := c :: s.log }) := by
        rw [hc] at hr ⊢
        refine C32_mapping hd hr ?_
        have := ResponseMeans.code (ls := [py!"+CMS ERROR: 321"]) (line := py!"+CMS ERROR: 321") (ty := py!"CMS") (ds := py!"321") rfl
          ⟨.inr rfl, by decide, by decide, [], .inl rfl, rfl⟩ (by decide) (by decide)
        exact this
      simp only [run_bind, hw]
    · exfalso
      refine hno x ?_ hp
      simp only [Shelf.listed, List.mem_filter, decide_eq_true_eq]
      exact ⟨hin x hx, by rw [hm, hmem0], by simp⟩
  · have hw : write (cmgrCmd i) true [13] env s = (.ok [line, x.pdu, py!"OK"], { s with log := c :: s.log }) := by
      rw [hc] at hr ⊢
      exact obeyed_write hd hr rfl
    simp only [Shelf.listed, List.mem_filter, decide_eq_true_eq] at hx
    have huniq : ∀ y ∈ (shelf s.log).slots, y.memory = (shelf s.log).memory → y.place = decVal i → y = x := by
      intro y hy hm hp
      refine List.inj_on_of_nodup_map hnd (hin y hy) hx.1 ?_
      simp only [HeldSms.spot, Prod.mk.injEq]
      exact ⟨by rw [hm, hx.2.1, hmem0], by rw [hp, hpl]⟩
    simp only [run_bind, hw, run_ofExcept]
    have ha := (C68_pdu [line, x.pdu, py!"OK"] _).1 rfl
    by_cases hmsg : IsMessage x.pdu
    · right
      obtain ⟨m, hm⟩ := made_of hmsg
      refine ⟨x, m, ?_, hm, hpl, by rw [hx.2.1, hmem0], ?_, huniq⟩
      · have : parseCmgrPdu [line, x.pdu, py!"OK"] = .ok m := by
          refine (C68_pdu _ _).2 ?_
          rcases hm with ⟨a, b, c, d, e, f, h, rfl⟩ | ⟨a, b, c, d, e, f, g, h, rfl⟩
          · rw [← hst]; exact .message hh h
          · rw [← hst]; exact .report hh h
        rw [this]
      · rw [keep_content H hdel hcl, ← List.map_append]
        refine List.mem_map_of_mem ?_
        have := hx.1
        rw [hm0] at this
        exact this
    · left
      have herr : ∃ e, parseCmgrPdu [line, x.pdu, py!"OK"] = .error e := by
        generalize hg : parseCmgrPdu [line, x.pdu, py!"OK"] = r at ha
        cases ha with
        | message _ h => exact absurd ⟨_, .inl ⟨_, _, _, _, _, _, h, rfl⟩⟩ hmsg
        | report _ h => exact absurd ⟨_, .inr ⟨_, _, _, _, _, _, _, h, rfl⟩⟩ hmsg
        | outgoing => exact ⟨_, rfl⟩
        | undecodable => exact ⟨_, rfl⟩
        | other => exact ⟨_, rfl⟩
      obtain ⟨e, he⟩ := herr
      refine ⟨e, by rw [he], fun y hy hm hp => ?_⟩
      rw [huniq y hy hm hp]
      exact hmsg

theorem received_any (H : Keeping env.reply shelf came) (hd : 0 < env.depth) {line mem idx : PyStr} (hl : StoredAt py!"+CMTI:" line mem idx) {s : St}
    (hk : Knows shelf s) :
    (∃ e s1, handleSmsReceived line env s = (.error e, s1) ∧ s1.callbacks = s.callbacks ∧ (∃ new, s1.log = new ++ s.log) ∧ Knows shelf s1 ∧ ((shelf s.log).Sound → (shelf s1.log).Sound) ∧
      Balance shelf came s.log s1.log [] ∧ ∀ x : HeldSms, x.content ∈ (shelf s.log).slots.map HeldSms.content → x.memory = mem → x.place = decVal idx → ¬ IsMessage x.pdu) ∨
    ∃ x m s1, handleSmsReceived line env s = (.ok (), s1) ∧ s1.callbacks = .smsReceived m :: s.callbacks ∧ (∃ new, s1.log = new ++ s.log) ∧ Knows shelf s1 ∧
      ((shelf s.log).Sound → (shelf s1.log).Sound) ∧ MadeInto x m ∧ x.memory = mem ∧ x.place = decVal idx ∧ Balance shelf came s.log s1.log [x] ∧
      ∀ y : HeldSms, y.content ∈ (shelf s.log).slots.map HeldSms.content → y.memory = mem → y.place = decVal idx → y.content = x.content := by
  have hg : rxGroups cmtiRegex line = some [mem, idx] := stored_iff.2 ⟨mem, idx, rfl, hl⟩
  obtain ⟨hq, hi⟩ : Quotable mem ∧ Digits idx := by
    obtain ⟨b, t, -, -, h1, h2, -⟩ := hl
    exact ⟨h1, h2⟩
  obtain ⟨n1, mm, h1, h2, h3, h4, h7⟩ := memory_run H hd (m := some mem) (fun x hx => by cases hx; exact hq) hk
  obtain ⟨s1, hs1⟩ : ∃ s1, s1 = { s with log := n1 ++ s.log, smsMemReadDelete := mm } := ⟨_, rfl⟩
  have hl1 : s1.log = n1 ++ s.log := by rw [hs1]
  have hc1 : s1.callbacks = s.callbacks := by rw [hs1]
  rw [← hs1] at h1 h3
  rw [← hl1] at h1 h2 h4 h7
  rcases h1 with ⟨h1, h5⟩ | ⟨e, x, h1, hx, hno⟩
  rotate_left
  · left
    cases hx
    refine ⟨e, s1, ?_, hc1, ⟨n1, hl1⟩, h3, h4, h2, fun y hy hym _ => ?_⟩
    · simp only [handleSmsReceived, hg, run_bind, readStoredSms, h1]
    · obtain ⟨z, hz, he⟩ := List.mem_map.1 hy
      exact absurd ((congrArg (·.1) he).trans hym) (hno z hz)
  have hmem := h5 mem rfl
  have hrun : handleSmsReceived line env s = match (write (cmgrCmd idx) >>= fun ls => (M.ofExcept (parseCmgrPdu ls) : M Msg)) env s1 with
      | (.ok m, s2) => (do deleteStoredSms idx; callback (.smsReceived m) : M Unit) env s2
      | (.error e, s2) => (.error e, s2) := by
    simp only [handleSmsReceived, hg, run_bind, readStoredSms, h1, run_get, run_ofExcept]
    have ht : ∀ ls s2, write (cmgrCmd idx) true [13] env s1 = (.ok ls, s2) → s2.smsTextMode = false := by
      intro ls s2 hw
      obtain ⟨k, w, he⟩ := writeN_state (data := cmgrCmd idx) (term := [13]) (pe := true) (env := env) env.depth s1
      have : s2 = (writeN env.depth (cmgrCmd idx) true [13] env s1).2 := by
        have := congrArg Prod.snd hw
        exact this.symm
      rw [this, he]
      exact h3.1
    generalize hw : write (cmgrCmd idx) true [13] env s1 = w at ht ⊢
    rcases w with ⟨_ | ls, s2⟩
    · rfl
    · dsimp only
      rw [ht ls s2 rfl]
      simp only [Bool.false_eq_true, if_false]
      rcases parseCmgrPdu ls with _ | m <;> rfl
  have hb : Harmless (cmgrCmd idx ++ [13]) := harmless_start (p := py!"AT+CMGR=") ⟨idx ++ [13], by simp [cmgrCmd]⟩ (.inl rfl)
  rw [hrun]
  obtain ⟨c, hc⟩ : ∃ c, c = cmgrCmd idx ++ [13] := ⟨_, rfl⟩
  have hslot : ∀ y : HeldSms, y.content ∈ (shelf s.log).slots.map HeldSms.content → ∃ z ∈ (shelf s1.log).slots, z.content = y.content := by
    intro y hy
    obtain ⟨z, hz, he⟩ := List.mem_map.1 (h7 y hy)
    exact ⟨z, hz, he⟩
  rcases fetch_keep H hd hi h3 with ⟨e, k1, k2⟩ | ⟨x, m, k1, k2, k3, k4, k5, k6⟩
  · left
    rw [k1]
    refine ⟨e, _, rfl, hc1, ⟨(cmgrCmd idx ++ [13]) :: n1, by show _ :: s1.log = _; rw [hl1]; rfl⟩, ⟨h3.1, fun m hm hq' => (keep_memory H hb.2.2.1 hb.2.2.2).trans (h3.2 m hm hq')⟩, (fun hs => keep_sound H _ (h4 hs)), ?_, ?_⟩
    · have hb1 : Balance shelf came s.log (n1 ++ s.log) [] := by rw [← hl1]; exact h2
      have hb2 : Balance shelf came (n1 ++ s.log) ([cmgrCmd idx ++ [13]] ++ (n1 ++ s.log)) [] := balance_other H hb.1 hb.2.1
      have := balance_trans hb1 hb2
      show Balance shelf came s.log ((cmgrCmd idx ++ [13]) :: s1.log) []
      rw [hl1]
      exact this
    · intro y hy hym hyp
      obtain ⟨z, hz, he⟩ := hslot y hy
      simp only [HeldSms.content, Prod.mk.injEq] at he
      rw [← he.2.2]
      exact k2 z hz (by rw [he.1, hym, hmem]) (by rw [he.2.1, hyp])
  · right
    rw [k1]
    have hmem2 : (shelf ((cmgrCmd idx ++ [13]) :: s1.log)).memory = (shelf s1.log).memory := keep_memory H hb.2.2.1 hb.2.2.2
    obtain ⟨s2, hs2⟩ : ∃ s2, s2 = { s1 with log := (cmgrCmd idx ++ [13]) :: s1.log } := ⟨_, rfl⟩
    have hl2 : s2.log = (cmgrCmd idx ++ [13]) :: s1.log := by rw [hs2]
    have hc2 : s2.callbacks = s.callbacks := by rw [hs2]; exact hc1
    rw [← hs2]
    rw [← hl2] at k5 hmem2
    obtain ⟨d1, d2, d3, -⟩ := delete_run H hd hi k3 (by rw [k4, hmem2]) k5
    refine ⟨x, m, { s2 with log := (cmgdCmd idx ++ [13]) :: s2.log, callbacks := .smsReceived m :: s2.callbacks }, ?_, by rw [← hc2], ?_, ⟨?_, ?_⟩, ?_, k2, by rw [k4, hmem], k3, ?_, ?_⟩
    · simp only [run_bind, d1, callback, run_modify]
    · exact ⟨(cmgdCmd idx ++ [13]) :: (cmgrCmd idx ++ [13]) :: n1, by show _ :: s2.log = _; rw [hl2, hl1]; rfl⟩
    · rw [hs2]; exact h3.1
    · intro mm' hmm' hqm
      have : s1.smsMemReadDelete = some mm' := by rw [hs2] at hmm'; exact hmm'
      exact d3.trans (hmem2.trans (h3.2 _ this hqm))
    · exact fun hs => keep_sound H _ (by rw [hl2]; exact keep_sound H _ (h4 hs))
    · have hb1 : Balance shelf came s.log (n1 ++ s.log) [] := by rw [← hl1]; exact h2
      have hb2 : Balance shelf came (n1 ++ s.log) ([cmgrCmd idx ++ [13]] ++ (n1 ++ s.log)) [] := balance_other H hb.1 hb.2.1
      have h12 := balance_trans hb1 hb2
      have e2 : s2.log = ([cmgrCmd idx ++ [13]] ++ n1) ++ s.log := by rw [hl2, hl1]; simp
      rw [e2] at d2
      have := balance_trans (n1 := [cmgrCmd idx ++ [13]] ++ n1) (n2 := [cmgdCmd idx ++ [13]]) (by simpa using h12) (by simpa using d2)
      show Balance shelf came s.log ((cmgdCmd idx ++ [13]) :: s2.log) [x]
      rw [e2]
      simpa using this
    · intro y hy hym hyp
      obtain ⟨z, hz, he⟩ := hslot y hy
      have he' := he
      simp only [HeldSms.content, Prod.mk.injEq] at he'
      rw [← he, k6 z hz (by rw [he'.1, hym, hmem]) (by rw [he'.2.1, hyp])]

theorem received_keep (H : Keeping env.reply shelf came) (hd : 0 < env.depth) {line mem idx : PyStr} (hl : StoredAt py!"+CMTI:" line mem idx) {s : St}
    (hk : Knows shelf s) (hs : (shelf s.log).Sound) :
    (∃ e s1, handleSmsReceived line env s = (.error e, s1) ∧ s1.callbacks = s.callbacks ∧ (∃ new, s1.log = new ++ s.log) ∧ Knows shelf s1 ∧ (shelf s1.log).Sound ∧
      Balance shelf came s.log s1.log [] ∧ ∀ x : HeldSms, x.content ∈ (shelf s.log).slots.map HeldSms.content → x.memory = mem → x.place = decVal idx → ¬ IsMessage x.pdu) ∨
    ∃ x m s1, handleSmsReceived line env s = (.ok (), s1) ∧ s1.callbacks = .smsReceived m :: s.callbacks ∧ (∃ new, s1.log = new ++ s.log) ∧ Knows shelf s1 ∧
      (shelf s1.log).Sound ∧ MadeInto x m ∧ x.memory = mem ∧ x.place = decVal idx ∧ Balance shelf came s.log s1.log [x] ∧
      ∀ y : HeldSms, y.content ∈ (shelf s.log).slots.map HeldSms.content → y.memory = mem → y.place = decVal idx → y.content = x.content := by
  rcases received_any H hd hl hk with ⟨e, s1, h1, h2, h3, h4, h5, h6⟩ | ⟨x, m, s1, h1, h2, h3, h4, h5, h6⟩
  · exact .inl ⟨e, s1, h1, h2, h3, h4, h5 hs, h6⟩
  · exact .inr ⟨x, m, s1, h1, h2, h3, h4, h5 hs, h6⟩

theorem safe_received (H : Keeping env.reply shelf came) (hd : 0 < env.depth) (line : PyStr) : Steps env (Guarded shelf came) (handleSmsReceived line) := by
  refine ⟨fun s => ?_⟩
  by_cases hl : ∃ mem idx, StoredAt py!"+CMTI:" line mem idx
  · obtain ⟨mem, idx, hl⟩ := hl
    intro hk hs
    rcases received_keep H hd hl hk hs with ⟨e, s1, h1, h2, h3, h4, h5, h6, -⟩ | ⟨x, m, s1, h1, h2, h3, h4, h5, h6, h7, h8, h9, -⟩
    · rw [h1]
      exact ⟨h3, h4, h5, [], by simp [handedOver, h2], (fun p hp => absurd hp (by simp)), h6⟩
    · rw [h1]
      refine ⟨h3, h4, h5, [(x, m)], by simp [handedOver, h2], (fun p hp => ?_), h9⟩
      rw [List.mem_singleton.1 hp]; exact h6
  · have := received_effect (env := env) line s
    have e : handleSmsReceived line env s = (.ok (), s) := by
      generalize hg : handleSmsReceived line env s = r at this
      obtain ⟨r1, r2⟩ := r
      cases this with
      | other _ => rfl
      | failed h => exact absurd ⟨_, _, h⟩ hl
      | passed h => exact absurd ⟨_, _, h⟩ hl
    rw [e]
    exact safe_pre.refl s

end Gsm
