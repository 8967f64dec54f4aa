import Verif.Lemmas.TextStore
import Verif.Props.TextListing
/-! # A modem that keeps messages, in both modes: what the methods do -/
namespace Gsm.InModes
open M Spec List

variable {env : Env} {shows : Display} {mode : List PyStr → Bool} {shelf : List PyStr → Shelf} {came : List PyStr → List HeldSms}

/-- Only a command that deletes nothing, selects nothing and changes no mode. -/
def Harmless (c : PyStr) : Prop :=
  (∀ t i, ¬ BidsIn t c (.delete i)) ∧ (∀ t f, ¬ BidsIn t c (.clear f)) ∧ (∀ t m, ¬ BidsIn t c (.select m)) ∧ (∀ t, ¬ BidsIn t c .reset) ∧ ∀ v, c ≠ modeCommand v

theorem Unbidden.harmless {c : PyStr} (h : Unbidden c) : Harmless c := ⟨fun _ _ => h.1 _ _, fun _ _ => h.1 _ _, fun _ _ => h.1 _ _, fun _ => h.1 _ _, h.2⟩

/-- All goes well for the messages. -/
def Guarded (shows : Display) (mode : List PyStr → Bool) (shelf : List PyStr → Shelf) (came : List PyStr → List HeldSms) (s s' : St) : Prop :=
  KnowsIn mode shelf s → (shelf s.log).SoundIn shows → (∃ new, s'.log = new ++ s.log) ∧ KnowsIn mode shelf s' ∧ (shelf s'.log).SoundIn shows ∧ ∃ taken, DeliveredIn shows shelf came s s' taken

theorem delivered_trans {a b c : St} {n1 n2 : List PyStr} {t1 t2 : List (HeldSms × Msg)} (h1 : b.log = n1 ++ a.log) (h2 : c.log = n2 ++ b.log)
    (d1 : DeliveredIn shows shelf came a b t1) (d2 : DeliveredIn shows shelf came b c t2) : DeliveredIn shows shelf came a c (t1 ++ t2) := by
  obtain ⟨x1, y1, z1⟩ := d1
  obtain ⟨x2, y2, z2⟩ := d2
  refine ⟨by simp [x2, x1], fun p hp => ?_, ?_⟩
  · rcases List.mem_append.1 hp with hp | hp
    · exact y1 p hp
    · exact y2 p hp
  · rw [h1] at z1 z2 h2
    rw [h2] at z2 ⊢
    rw [List.map_append]
    exact balance_trans z1 z2

theorem safe_pre : IsPre (Guarded shows mode shelf came) where
  refl := fun s hk hs => ⟨⟨[], rfl⟩, hk, hs, [], rfl, (fun p hp => absurd hp (by simp)), balance_refl _⟩
  trans := by
    intro a b c h1 h2 hk hs
    obtain ⟨⟨n1, e1⟩, k1, s1, t1, d1⟩ := h1 hk hs
    obtain ⟨⟨n2, e2⟩, k2, s2, t2, d2⟩ := h2 k1 s1
    exact ⟨⟨n2 ++ n1, by rw [e2, e1]; simp⟩, k2, s2, t1 ++ t2, delivered_trans e1 e2 d1 d2⟩

/-- A harmless command. -/
theorem safe_one (H : KeepingIn shows env.reply mode shelf came) {c : PyStr} (h : Harmless c) (s : St) (w : Nat) : Guarded shows mode shelf came s { s with log := c :: s.log, writeWait := w } := by
  intro hk hs
  refine ⟨⟨[c], rfl⟩, ⟨hk.1, ?_, fun m hm hq => ?_⟩, keep_sound H c hs, [], rfl, (fun p hp => absurd hp (by simp)), balance_other H (h.1 _) (h.2.1 _)⟩
  · exact hk.2.1.trans (keep_mode H (h.2.2.2.1 _) h.2.2.2.2).symm
  · exact (keep_memory H (h.2.2.1 _) (h.2.2.2.1 _)).trans (hk.2.2 m hm hq)

theorem safe_many (H : KeepingIn shows env.reply mode shelf came) {c : PyStr} (h : Harmless c) : ∀ (k : Nat) (s : St) (w : Nat),
    Guarded shows mode shelf came s { s with log := List.replicate k c ++ s.log, writeWait := w }
  | 0, s, w => fun hk hs => ⟨⟨[], rfl⟩, hk, hs, [], rfl, (fun p hp => absurd hp (by simp)), balance_refl _⟩
  | k + 1, s, w => safe_pre.trans (safe_many H h k s w) (safe_one H h { s with log := List.replicate k c ++ s.log, writeWait := w } w)

theorem safe_harmless (H : KeepingIn shows env.reply mode shelf came) {data term : PyStr} {pe : Bool} (h : Harmless (data ++ term)) : Steps env (Guarded shows mode shelf came) (write data pe term) :=
  Steps.write fun s k w => safe_many H h k s w

theorem safe_write (H : KeepingIn shows env.reply mode shelf came) {data term : PyStr} {pe : Bool} (h : Unbidden (data ++ term)) : Steps env (Guarded shows mode shelf came) (write data pe term) :=
  safe_harmless H h.harmless

theorem safe_same {s s' : St} (h1 : s'.log = s.log) (h2 : s'.smsTextMode = s.smsTextMode) (h3 : s'.smsMemReadDelete = s.smsMemReadDelete)
    (h4 : handedOver s' = handedOver s) (h5 : s'.alive = s.alive) : Guarded shows mode shelf came s s' := by
  intro hk hs
  refine ⟨⟨[], by simp [h1]⟩, ⟨by rw [h5]; exact hk.1, by rw [h1, h2]; exact hk.2.1, fun m hm hq => ?_⟩, by rw [h1]; exact hs, [], by simp [h4], (fun p hp => absurd hp (by simp)), ?_⟩
  · rw [h1]; rw [h3] at hm; exact hk.2.2 m hm hq
  · rw [h1]; exact balance_refl _

/-! ### Commands that are obeyed -/

/-- Selecting a memory. -/
theorem memory_run (H : KeepingIn shows env.reply mode shelf came) (hd : 0 < env.depth) {m : Option PyStr} (hm : Nameable m) {s : St} (hk : KnowsIn mode shelf s) :
    ∃ new mem, (setSmsMemory m none env s = (.ok (), { s with log := new ++ s.log, smsMemReadDelete := mem }) ∧ (∀ x, m = some x → (shelf (new ++ s.log)).memory = x) ∨
        ∃ e x, setSmsMemory m none env s = (.error e, { s with log := new ++ s.log, smsMemReadDelete := mem }) ∧ m = some x ∧ ∀ y ∈ (shelf s.log).slots, y.memory ≠ x) ∧
      Balance shelf came s.log (new ++ s.log) [] ∧ KnowsIn mode shelf { s with log := new ++ s.log, smsMemReadDelete := mem } ∧
      ((shelf s.log).SoundIn shows → (shelf (new ++ s.log)).SoundIn shows) ∧
      ∀ y : HeldSms, y.content ∈ (shelf s.log).slots.map HeldSms.content → y.content ∈ (shelf (new ++ s.log)).slots.map HeldSms.content := by
  cases m with
  | none => exact ⟨[], s.smsMemReadDelete, .inl ⟨rfl, (fun x hx => by cases hx)⟩, balance_refl _, hk, id, fun _ h => h⟩
  | some x =>
    by_cases hx : some x = s.smsMemReadDelete
    · refine ⟨[], s.smsMemReadDelete, .inl ⟨?_, (fun y hy => ?_)⟩, balance_refl _, hk, id, fun _ h => h⟩
      · simp [setSmsMemory, run_bind, run_get, hx]; rfl
      · cases hy; exact hk.2.2 x hx.symm (hm x rfl)
    · have hb : BidsIn (mode s.log) (cpmsCmd x ++ [13]) (.select x) := by
        have := Bids.select (hm x rfl)
        exact .same (by simpa [cpmsCmd] using this) (by simp)
      have hs := (serves_order (H.serves (cpmsCmd x ++ [13]) s.log) hb (by simp)).2
      have hdel : ∀ i, ¬ BidsIn (mode s.log) (cpmsCmd x ++ [13]) (.delete i) := fun i hi => by cases bids_unique hb hi
      have hcl : ∀ i, ¬ BidsIn (mode s.log) (cpmsCmd x ++ [13]) (.clear i) := fun i hi => by cases bids_unique hb hi
      have hmode : mode ((cpmsCmd x ++ [13]) :: s.log) = mode s.log := (serves_order (H.serves (cpmsCmd x ++ [13]) s.log) hb (by simp)).1
      have hstay : ∀ y : HeldSms, y.content ∈ (shelf s.log).slots.map HeldSms.content →
          y.content ∈ (shelf ([cpmsCmd x ++ [13]] ++ s.log)).slots.map HeldSms.content := by
        intro y hy
        show y.content ∈ (shelf ((cpmsCmd x ++ [13]) :: s.log)).slots.map HeldSms.content
        rw [keep_content H hdel hcl]
        exact List.mem_append_left _ hy
      have hcase : (∃ ls, env.reply ((cpmsCmd x ++ [13]) :: s.log) = .lines ls ∧ ls.getLast? = some py!"OK" ∧
            (shelf ((cpmsCmd x ++ [13]) :: s.log)).memory = x) ∨
          env.reply ((cpmsCmd x ++ [13]) :: s.log) = .lines [py!"+CMS ERROR: 302"] ∧ (∀ y ∈ (shelf s.log).slots, y.memory ≠ x) ∧
            (shelf ((cpmsCmd x ++ [13]) :: s.log)).memory = (shelf s.log).memory := by
        generalize shelf ((cpmsCmd x ++ [13]) :: s.log) = m' at hs ⊢
        generalize env.reply ((cpmsCmd x ++ [13]) :: s.log) = r at hs ⊢
        cases hs with
        | same hs =>
        cases hs with
        | select hl => exact .inl ⟨_, rfl, hl, rfl⟩
        | refused hno => exact .inr ⟨rfl, fun y hy => hno y (List.mem_append_left _ hy), rfl⟩
      rcases hcase with ⟨ls, hr, hl, hmem⟩ | ⟨hr, hno, hmem⟩
      · refine ⟨[cpmsCmd x ++ [13]], some x, .inl ⟨?_, ?_⟩, balance_other H hdel hcl, ⟨hk.1, hk.2.1.trans hmode.symm, ?_⟩, keep_sound H _, hstay⟩
        · simp [setSmsMemory, run_bind, run_get, hx, obeyed_write hd hr hl, run_modify]
        · rintro y hy; cases hy; exact hmem
        · rintro m hm' _; cases hm'; exact hmem
      · refine ⟨[cpmsCmd x ++ [13]], s.smsMemReadDelete, .inr ⟨.command .cms (some 302), x, ?_, rfl, hno⟩, balance_other H hdel hcl, ⟨hk.1, hk.2.1.trans hmode.symm, ?_⟩, keep_sound H _, hstay⟩
        · have hw : write (cpmsCmd x) true [13] env s = (.error (.command .cms (some 302)), { s with log := (cpmsCmd x ++ [13]) :: s.log }) := by
            refine C32_mapping hd hr ?_
            exact ResponseMeans.code (ls := [py!"+CMS ERROR: 302"]) (line := py!"+CMS ERROR: 302") (ty := py!"CMS") (ds := py!"302") rfl
              ⟨.inr rfl, by decide, by decide, [], .inl rfl, rfl⟩ (by decide) (by decide)
          simp [setSmsMemory, run_bind, run_get, hx, hw]
        · exact fun m hm' hq => hmem.trans (hk.2.2 m hm' hq)

theorem safe_memory (H : KeepingIn shows env.reply mode shelf came) (hd : 0 < env.depth) {m : Option PyStr} (hm : Nameable m) : Steps env (Guarded shows mode shelf came) (setSmsMemory m) := by
  refine ⟨fun s hk hs => ?_⟩
  obtain ⟨new, mem, ⟨h1, -⟩ | ⟨e, x, h1, -⟩, h2, h3, h4, -⟩ := memory_run H hd hm hk
  all_goals
    rw [h1]
    exact ⟨⟨new, rfl⟩, h3, h4 hs, [], rfl, (fun p hp => absurd hp (by simp)), h2⟩

/-- Deleting a message that is there. -/
theorem delete_run (H : KeepingIn shows env.reply mode shelf came) (hd : 0 < env.depth) {i : PyStr} (hi : Digits i) {x : HeldSms} (hp : x.place = decVal i) {s : St}
    (hm : x.memory = (shelf s.log).memory) (hx : x.content ∈ (shelf s.log).slots.map HeldSms.content) :
    deleteStoredSms i none env s = (.ok (), { s with log := (cmgdCmd i ++ [13]) :: s.log }) ∧ Balance shelf came s.log ((cmgdCmd i ++ [13]) :: s.log) [x] ∧
      (shelf ((cmgdCmd i ++ [13]) :: s.log)).memory = (shelf s.log).memory ∧ mode ((cmgdCmd i ++ [13]) :: s.log) = mode s.log ∧
      ∀ y ∈ (shelf s.log).slots, y.spot ≠ x.spot → y ∈ (shelf ((cmgdCmd i ++ [13]) :: s.log)).slots := by
  have hb : BidsIn (mode s.log) (cmgdCmd i ++ [13]) (.delete x.place) := by
    have := Bids.delete hi
    rw [hp]
    exact .same (by simpa [cmgdCmd] using this) (by simp)
  obtain ⟨hmode, hs⟩ := serves_order (H.serves (cmgdCmd i ++ [13]) s.log) hb (by simp)
  obtain ⟨ls, hr, hl⟩ : ∃ ls, env.reply ((cmgdCmd i ++ [13]) :: s.log) = .lines ls ∧ ls.getLast? = some py!"OK" := by
    generalize shelf ((cmgdCmd i ++ [13]) :: s.log) = m' at hs
    generalize env.reply ((cmgdCmd i ++ [13]) :: s.log) = r at hs ⊢
    cases hs with
    | same hs =>
    cases hs with
    | delete hl => exact ⟨_, rfl, hl⟩
  refine ⟨?_, ?_, keep_memory H (fun m hm' => by cases bids_unique hb hm') (fun h => by cases bids_unique hb h), hmode, ?_⟩
  · have h0 : setSmsMemory none none env s = (.ok (), s) := rfl
    simp only [deleteStoredSms, run_bind, h0, obeyed_write hd hr hl, run_pure]
  · unfold Balance
    rw [since_one]
    exact keep_delete H hb hm hx
  · intro y hy hne
    generalize shelf ((cmgdCmd i ++ [13]) :: s.log) = m' at hs ⊢
    generalize env.reply ((cmgdCmd i ++ [13]) :: s.log) = r at hs
    cases hs with
    | same hs =>
    cases hs with
    | delete hl =>
      refine List.mem_filter.2 ⟨List.mem_append_left _ hy, ?_⟩
      simp only [Shelf.at, Bool.not_eq_true', decide_eq_false_iff_not]
      rintro ⟨h1, h2⟩
      exact hne (by simp only [HeldSms.spot, h1, h2, hm]; rfl)

/-- Deleting several. -/
theorem deleteAll_run (H : KeepingIn shows env.reply mode shelf came) (hd : 0 < env.depth) : ∀ (gone : List HeldSms) (s : St), (gone.map HeldSms.place).Nodup →
    (∀ x ∈ gone, x.memory = (shelf s.log).memory ∧ x.content ∈ (shelf s.log).slots.map HeldSms.content) → (shelf s.log).SoundIn shows →
    ∃ new, deleteAll (gone.map fun x => (x.place : Int)) env s = (.ok (), { s with log := new ++ s.log }) ∧ Balance shelf came s.log (new ++ s.log) gone ∧
      (shelf (new ++ s.log)).memory = (shelf s.log).memory ∧ (shelf (new ++ s.log)).SoundIn shows ∧ mode (new ++ s.log) = mode s.log ∧
      ∀ y ∈ (shelf s.log).slots, (∀ x ∈ gone, y.spot ≠ x.spot) → y ∈ (shelf (new ++ s.log)).slots
  | [], s, _, _, hs => ⟨[], rfl, balance_refl _, rfl, hs, rfl, fun _ h _ => h⟩
  | x :: gone, s, hn, hg, hs => by
    have hx := hg x (by simp)
    obtain ⟨h1, h2, h3, h6, h5⟩ := delete_run H hd (digits_decStr x.place) (decVal_decStr x.place).symm hx.1 hx.2
    obtain ⟨c, hc⟩ : ∃ c, c = cmgdCmd (decStr x.place) ++ [13] := ⟨_, rfl⟩
    rw [← hc] at h1 h2 h3 h5 h6
    simp only [List.map_cons, List.nodup_cons] at hn
    have hrest : ∀ y ∈ gone, y.memory = (shelf (c :: s.log)).memory ∧ y.content ∈ (shelf (c :: s.log)).slots.map HeldSms.content := by
      intro y hy
      have hy' := hg y (by simp [hy])
      refine ⟨hy'.1.trans h3.symm, ?_⟩
      have hmem : y.content ∈ (shelf (c :: s.log)).slots.map HeldSms.content ++ [x.content] :=
        h2.symm.subset (List.mem_append_left _ hy'.2)
      rcases List.mem_append.1 hmem with hm | hm
      · exact hm
      · exfalso
        have he := List.mem_singleton.1 hm
        simp only [HeldSms.content, Prod.mk.injEq] at he
        exact hn.1 (he.2.1 ▸ List.mem_map_of_mem hy)
    obtain ⟨new, k1, k2, k3, k4, k6, k5⟩ := deleteAll_run H hd gone { s with log := c :: s.log } hn.2 hrest (keep_sound H c hs)
    refine ⟨new ++ [c], ?_, ?_, ?_, ?_, ?_, ?_⟩
    · simp only [List.map_cons, deleteAll, run_bind]
      have e : intStr (x.place : Int) = decStr x.place := rfl
      rw [e, h1]
      dsimp only
      rw [k1]
      simp
    · have := balance_trans (n1 := [c]) h2 k2
      simpa using this
    · rw [List.append_assoc]; exact k3.trans h3
    · rw [List.append_assoc]; exact k4
    · rw [List.append_assoc]; exact k6.trans h6
    · intro y hy hne
      rw [List.append_assoc]
      exact k5 y (h5 y hy (hne x (by simp))) fun z hz => hne z (by simp [hz])

/-! ### Listings -/

theorem zip_made {t : Bool} : ∀ {shown : List HeldSms} {ms : List Msg}, List.Forall₂ (MadeIn shows t) shown ms →
    (shown.zip ms).map Prod.snd = ms ∧ (shown.zip ms).map Prod.fst = shown ∧ ∀ p ∈ shown.zip ms, MadeIn shows t p.1 p.2
  | [], [], .nil => ⟨rfl, rfl, fun _ h => absurd h (by simp)⟩
  | x :: shown, m :: ms, .cons h1 h2 => by
    obtain ⟨k1, k2, k3⟩ := zip_made h2
    refine ⟨by simp [k1], by simp [k2], fun p hp => ?_⟩
    rcases List.mem_cons.1 hp with rfl | hp
    · exact h1
    · exact k3 p hp

theorem innocent_visible {text : PyStr} (h : Innocent text) : visible (textLines text) = textLines text := by
  refine List.filter_eq_self.2 fun l hl => ?_
  simp only [ne_eq, decide_not, Bool.not_eq_true', decide_eq_false_iff_not]
  rintro rfl
  exact (h _ hl).2 (.inl (List.prefix_refl _))

/-- The lines of a listing in text mode, taken apart. -/
theorem letters_listed : ∀ {shown : List HeldSms} {lss : List (List PyStr)}, (∀ x ∈ shown, IsLetter shows x.pdu) → List.Forall₂ (LetterLines shows) shown lss →
    ∃ (items : List (PyStr × Head × PyStr)) (xs : List (Nat × Msg)), lss.flatten = items.flatMap (fun x => x.1 :: textLines x.2.2) ∧
      (∀ x ∈ items, ListHeader x.1 x.2.1) ∧ (∀ x ∈ items, ∀ l ∈ textLines x.2.2, ¬ IsHead l) ∧
      ListedText (items.map fun x => (x.2.1, textLines x.2.2)) (.ok xs) ∧ xs.map Prod.fst = (shown.filter fun x => !Untold shows true x).map HeldSms.place ∧
      List.Forall₂ (MadeIn shows true) (shown.filter fun x => !Untold shows true x) (xs.map Prod.snd)
  | [], [], _, .nil => ⟨[], [], rfl, by simp, by simp, .nil, rfl, .nil⟩
  | x :: shown, ls :: lss, hx, .cons h1 h2 => by
    obtain ⟨items, xs, k1, k2, k3, k4, k5, k6⟩ := letters_listed (fun y hy => hx y (by simp [hy])) h2
    obtain ⟨l, hl, ⟨t, ht⟩, hi⟩ := hx x (by simp)
    obtain ⟨line, h, rfl, hh, hp, hst, hnum, htime⟩ := h1 l hl
    rw [← htime] at ht
    by_cases hb : textLines l.text = []
    · have hu : Untold shows true x = true := by simp [Untold, hl, hb]
      refine ⟨(line, h, l.text) :: items, xs, by simp [k1], ?_, ?_, .blank (by rw [innocent_visible hi, hb]) k4, by simp [hu, k5], by simpa [hu] using k6⟩
      · rintro y hy
        rcases List.mem_cons.1 hy with rfl | hy
        · exact hh
        · exact k2 y hy
      · rintro y hy
        rcases List.mem_cons.1 hy with rfl | hy
        · exact fun z hz => (hi z hz).1
        · exact k3 y hy
    · have hu : Untold shows true x = false := by simp [Untold, hl, hb]
      refine ⟨(line, h, l.text) :: items, (decVal h.index, .received x.state (some h.number) t ([10].intercalate (visible (textLines l.text))) none) :: xs, by simp [k1], ?_, ?_,
        .message (by rw [innocent_visible hi]; exact hb) hst ht k4, by simp [hu, k5, hp], ?_⟩
      · rintro y hy
        rcases List.mem_cons.1 hy with rfl | hy
        · exact hh
        · exact k2 y hy
      · rintro y hy
        rcases List.mem_cons.1 hy with rfl | hy
        · exact fun z hz => (hi z hz).1
        · exact k3 y hy
      · simp only [hu, List.filter_cons, Bool.not_false, if_true, List.map_cons]
        refine .cons ?_ k6
        rw [innocent_visible hi]
        exact ⟨l, t, hl, by rw [← htime]; exact ht, by rw [hnum]⟩

/-- What a listing of received messages is taken for, in either mode. -/
theorem listing_of {t : Bool} {m m' : Shelf} {k : Nat} {r : Reply} (h : ObeysIn shows t m (.list k) r m') (hk : k ≤ 1) (hs : m.SoundIn shows) :
    ∃ shown ls ms, r = .lines ls ∧ ls.getLast? = some py!"OK" ∧ m' = (m.look fun x => decide (x ∈ m.listed k)) ∧ shown ~ m.listed k ∧
      List.Forall₂ (MadeIn shows t) (shown.filter fun x => !Untold shows t x) ms ∧
      parseListing t ls = .ok ⟨ms, ((shown.filter fun x => !Untold shows t x).map fun x => (x.place : Int)).foldl setAdd []⟩ := by
  have hin : ∀ {shown : List HeldSms}, shown ~ m.listed k → ∀ x ∈ shown, IsMessage x.pdu ∧ IsLetter shows x.pdu := by
    intro shown hp x hx
    have h := hp.subset hx
    simp only [Shelf.listed, List.mem_filter, decide_eq_true_eq] at h
    exact hs x h.1 (by have := h.2.2; omega)
  cases h with
  | same _ hn => exact absurd rfl (hn k)
  | pduList ht h =>
    subst ht
    cases h with
    | list h1 h2 =>
      rename_i shown es
      obtain ⟨ms, hms, hmeans⟩ := all_made (fun x hx => (hin h1 x hx).1) h2
      obtain ⟨hpl, hok⟩ := shown_places h2
      have hf : (shown.filter fun x => !Untold shows false x) = shown := List.filter_eq_self.2 fun x _ => by simp [Untold]
      refine ⟨shown, _, ms, rfl, by simp, rfl, h1, by rw [hf]; exact hms, ?_⟩
      unfold parseListing
      rw [if_neg (by simp), pduListLoop_entries hok hmeans, hf]
      have : (es.map fun e => (decVal e.index : Int)) = shown.map fun x => (x.place : Int) := by
        have := congrArg (List.map fun n : Nat => (n : Int)) hpl
        simpa [List.map_map, Function.comp_def] using this
      simp [this]
  | textList ht h1 h2 =>
    subst ht
    rename_i shown lss
    obtain ⟨items, xs, k1, k2, k3, k4, k5, k6⟩ := letters_listed (fun x hx => (hin h1 x hx).2) h2
    refine ⟨shown, _, xs.map Prod.snd, rfl, by simp, rfl, h1, k6, ?_⟩
    have ht := items_taken k2 k3 k4
    have e : lss.flatten ++ [py!"OK"] = shownLines (items.map fun x => (x.1, x.2.2)) := by simp [shownLines, List.flatMap_map, k1]
    rw [e, listing_taken ht]
    have : (xs.map fun x => (x.1 : Int)) = ((shown.filter fun x => !Untold shows true x).map fun x => (x.place : Int)) := by
      have := congrArg (List.map fun n : Nat => (n : Int)) k5
      simpa [List.map_map, Function.comp_def] using this
    simp only [Except.map, listingOf, this]

theorem list_bids (t : Bool) {k : Nat} (hk : k ≤ 4) : ∃ cmd, listCommand t k = .ok cmd ∧ BidsIn t (cmd ++ [13]) (.list k) := by
  cases t with
  | false => exact ⟨_, rfl, .list rfl hk⟩
  | true =>
    obtain ⟨name, hn⟩ : ∃ name, (name, (k : Int)) ∈ stateNames := by
      match k, hk with
      | 0, _ => exact ⟨_, by simp [stateNames]; rfl⟩
      | 1, _ => exact ⟨py!"REC READ", by simp [stateNames]⟩
      | 2, _ => exact ⟨py!"STO UNSENT", by simp [stateNames]⟩
      | 3, _ => exact ⟨py!"STO SENT", by simp [stateNames]⟩
      | 4, _ => exact ⟨py!"ALL", by simp [stateNames]⟩
    refine ⟨_, list_text (s := { smsTextMode := true }) hn rfl, ?_⟩
    have := BidsIn.named (text := true) rfl hn
    simpa using this

/-- Listing and deleting the messages with a state. -/
theorem list_run (H : KeepingIn shows env.reply mode shelf came) (hd : 0 < env.depth) {k : Nat} (hk1 : k ≤ 1) {s : St} (hk : KnowsIn mode shelf s) (hs : (shelf s.log).SoundIn shows) :
    ∃ (c : PyStr) (new : List PyStr) (taken : List (HeldSms × Msg)), listStoredSms k none true env s = (.ok (taken.map Prod.snd), { s with log := new ++ s.log }) ∧
      Balance shelf came s.log (new ++ s.log) (taken.map Prod.fst) ∧ (∀ p ∈ taken, MadeIn shows (mode s.log) p.1 p.2) ∧
      (taken.map Prod.fst) ~ (((shelf s.log).with (came (c :: s.log))).listed k).filter (fun x => !Untold shows (mode s.log) x) ∧
      (shelf (new ++ s.log)).memory = (shelf s.log).memory ∧ (shelf (new ++ s.log)).SoundIn shows ∧ mode (new ++ s.log) = mode s.log ∧
      ∀ y ∈ (shelf s.log).slots, y.state ≠ k → y ∈ (shelf (new ++ s.log)).slots := by
  obtain ⟨cmd, hcmd, hb⟩ := list_bids (mode s.log) (k := k) (by omega)
  obtain ⟨c, hc⟩ : ∃ c, c = cmd ++ [13] := ⟨_, rfl⟩
  rw [← hc] at hb
  have hdel : ∀ i, ¬ BidsIn (mode s.log) c (.delete i) := fun i hi => by cases bids_unique hb hi
  have hcl : ∀ i, ¬ BidsIn (mode s.log) c (.clear i) := fun i hi => by cases bids_unique hb hi
  have hsel : ∀ i, ¬ BidsIn (mode s.log) c (.select i) := fun i hi => by cases bids_unique hb hi
  obtain ⟨hmode1, hob⟩ := serves_order (H.serves c s.log) hb (by simp)
  obtain ⟨m0, hm0⟩ : ∃ m0, m0 = (shelf s.log).with (came (c :: s.log)) := ⟨_, rfl⟩
  rw [← hm0] at hob
  have hsound0 : m0.SoundIn shows := hm0 ▸ with_sound hs (H.fresh _)
  obtain ⟨all, ls, ms, hr, hlast, hlook, hpall, hms, hparse⟩ := listing_of hob hk1 hsound0
  have hstay : ∀ y ∈ m0.slots, y.state ≠ k → y ∈ (shelf (c :: s.log)).slots := by
    intro y hy hyk
    rw [hlook]
    refine List.mem_map.2 ⟨y, hy, ?_⟩
    have : y ∉ m0.listed k := by
      simp only [Shelf.listed, List.mem_filter, decide_eq_true_eq]
      rintro ⟨-, -, h | h⟩
      · omega
      · exact hyk h
    simp [this]
  obtain ⟨shown, hsh⟩ : ∃ shown, shown = all.filter fun x => !Untold shows (mode s.log) x := ⟨_, rfl⟩
  have hp : shown ~ (m0.listed k).filter fun x => !Untold shows (mode s.log) x := by rw [hsh]; exact hpall.filter _
  rw [← hsh] at hms hparse
  have hshown : ∀ x ∈ shown, x ∈ m0.slots ∧ x.memory = m0.memory ∧ x.state = k := by
    intro x hx
    have h := (List.mem_filter.1 (hp.subset hx)).1
    simp only [Shelf.listed, List.mem_filter, decide_eq_true_eq] at h
    exact ⟨h.1, h.2.1, h.2.2.resolve_left (by omega)⟩
  have hmem0 : m0.memory = (shelf s.log).memory := by rw [hm0]; rfl
  have hmem1 : (shelf (c :: s.log)).memory = (shelf s.log).memory := keep_memory H hsel fun h => by cases bids_unique hb h
  have hnd : (shown.map HeldSms.place).Nodup := by
    have h1 : (((m0.listed k).filter fun x => !Untold shows (mode s.log) x).map HeldSms.spot).Nodup := by
      have := H.places c s.log
      rw [hm0]
      exact List.Nodup.sublist (List.Sublist.map _ (List.filter_sublist.trans List.filter_sublist)) this
    have h2 : (shown.map HeldSms.spot).Nodup := (hp.map _).symm.nodup h1
    have h3 : shown.map HeldSms.spot = (shown.map HeldSms.place).map fun i => (m0.memory, i) := by
      rw [List.map_map]
      refine List.map_congr_left fun x hx => ?_
      simp [HeldSms.spot, (hshown x hx).2.1]
    rw [h3] at h2
    exact List.Nodup.of_map _ h2
  have hndI : (shown.map fun x => (x.place : Int)).Nodup := by
    have := hnd.map (f := fun n : Nat => (n : Int)) (fun a b h => by simpa using h)
    simpa [List.map_map, Function.comp_def] using this
  obtain ⟨hn, hm⟩ := fold_setAdd (shown.map fun x => (x.place : Int)) [] List.nodup_nil
  have hperm : env.order ((shown.map fun x => (x.place : Int)).foldl setAdd []) ~ shown.map fun x => (x.place : Int) := by
    refine (env.order_perm _).trans ((List.perm_ext_iff_of_nodup hn hndI).2 fun j => ?_)
    rw [hm]; simp
  obtain ⟨gone, hg1, hg2⟩ := perm_choose (fun x : HeldSms => (x.place : Int)) hperm shown rfl
  have hcontent : ∀ x ∈ gone, x.memory = (shelf (c :: s.log)).memory ∧ x.content ∈ (shelf (c :: s.log)).slots.map HeldSms.content := by
    intro x hx
    have h := hshown x (hg1.subset hx)
    refine ⟨by rw [h.2.1, hmem0, hmem1], ?_⟩
    rw [keep_content H hdel hcl, ← List.map_append]
    refine List.mem_map_of_mem ?_
    have := h.1
    rw [hm0] at this
    exact this
  obtain ⟨new, k1, k2, k3, k4, k6, k5⟩ := deleteAll_run H hd gone { s with log := c :: s.log } ((hg1.map _).symm.nodup hnd) hcontent (keep_sound H c hs)
  obtain ⟨z1, z2, z3⟩ := zip_made hms
  refine ⟨c, new ++ [c], shown.zip ms, ?_, ?_, z3, ?_, ?_, ?_, ?_, ?_⟩
  · have h0 : setSmsMemory none none env s = (.ok (), s) := rfl
    have hw : write cmd true [13] env s = (.ok ls, { s with log := c :: s.log }) := by
      rw [hc] at hr ⊢
      exact obeyed_write hd hr hlast
    obtain ⟨s1, hs1⟩ : ∃ s1, s1 = { s with log := c :: s.log } := ⟨_, rfl⟩
    rw [← hs1] at hw k1
    have hend : ({ s with log := new ++ [c] ++ s.log } : St) = { s1 with log := new ++ s1.log } := by rw [hs1]; simp
    have hl1 : s1.log = c :: s.log := by rw [hs1]
    rw [hend]
    unfold listStoredSms
    simp only [run_bind, run_get, run_ofExcept, h0, hk.2.1, hcmd, hw, hparse, z1]
    have h4 : ((k : Int) = 4) = False := by simp; omega
    simp only [deleteListed, if_true, h4, if_false, deleteSet]
    rw [hg2, k1]
    rfl
  · rw [z2, List.append_assoc]
    have := balance_trans (n1 := [c]) (balance_other H hdel hcl) k2
    simp only [List.nil_append] at this
    unfold Balance at this ⊢
    refine List.Perm.trans (List.Perm.append_left _ (hg1.map _).symm) this
  · rw [z2, ← hm0]; exact hp
  · rw [List.append_assoc]; exact k3.trans hmem1
  · rw [List.append_assoc]; exact k4
  · rw [List.append_assoc]; exact k6.trans hmode1
  · intro y hy hyk
    rw [List.append_assoc]
    have hy0 : y ∈ m0.slots := by rw [hm0]; exact List.mem_append_left _ hy
    refine k5 y (hstay y hy0 hyk) fun z hz hyz => hyk ?_
    have hz' := hshown z (hg1.subset hz)
    have hinj : (m0.slots.map HeldSms.spot).Nodup := by rw [hm0]; exact H.places c s.log
    have := List.inj_on_of_nodup_map hinj hy0 hz'.1 hyz
    rw [this]
    exact hz'.2.2

theorem made_either {t : Bool} {x : HeldSms} {m : Msg} (h : MadeIn shows t x m) : MadeIn shows false x m ∨ MadeIn shows true x m := by
  cases t
  · exact .inl h
  · exact .inr h

/-! ### Processing all of them -/

/-- One state. -/
theorem stage_keep (H : KeepingIn shows env.reply mode shelf came) (hd : 0 < env.depth) (st : Bool) {s : St} (hk : KnowsIn mode shelf s) (hs : (shelf s.log).SoundIn shows) :
    ∃ (s1 : St) (taken : List (HeldSms × Msg)) (new : List PyStr), (do let ms ← listStoredSms (stateNumber st) none true; callbackAll ms : M Unit) env s = (.ok (), s1) ∧
      s1.log = new ++ s.log ∧ s1.callbacks = passOn (taken.map Prod.snd) s.callbacks ∧ KnowsIn mode shelf s1 ∧ (shelf s1.log).SoundIn shows ∧ DeliveredIn shows shelf came s s1 taken ∧
      (∀ p ∈ taken, MadeIn shows (mode s.log) p.1 p.2 ∧ Untold shows (mode s.log) p.1 = false) ∧
      (∀ x ∈ (shelf s.log).slots, x.memory = (shelf s.log).memory → x.state = (if st then 1 else 0) → Untold shows (mode s.log) x = false → x ∈ taken.map Prod.fst) ∧
      (∀ x ∈ (shelf s.log).slots, x.state ≠ (if st then 1 else 0) → x ∈ (shelf s1.log).slots) ∧ (shelf s1.log).memory = (shelf s.log).memory ∧ mode s1.log = mode s.log := by
  obtain ⟨k, hk1, hkn, hst⟩ : ∃ k : Nat, k ≤ 1 ∧ stateNumber st = (k : Int) ∧ (if st then 1 else 0) = k := by
    cases st
    · exact ⟨0, by omega, rfl, rfl⟩
    · exact ⟨1, by omega, rfl, rfl⟩
  obtain ⟨c, new, taken, h1, h2, h3, h4, h5, h6, h8, h7⟩ := list_run H hd hk1 hk hs
  refine ⟨{ s with log := new ++ s.log, callbacks := passOn (taken.map Prod.snd) s.callbacks }, taken, new, ?_, rfl, rfl, ⟨hk.1, hk.2.1.trans h8.symm, ?_⟩, h6,
    ⟨?_, (fun p hp => made_either (h3 p hp)), h2⟩, (fun p hp => ⟨h3 p hp, ?_⟩), ?_, ?_, h5, h8⟩
  · simp only [run_bind, hkn, h1, callbackAll_run]
  · exact fun m hm hq => h5.trans (hk.2.2 m hm hq)
  · exact handed_passOn _ _ _ rfl
  · have := (List.mem_filter.1 (h4.subset (List.mem_map_of_mem hp))).2
    simpa using this
  · intro x hx hm hxs hu
    rw [hst] at hxs
    refine h4.symm.subset ?_
    refine List.mem_filter.2 ⟨?_, by simp [hu]⟩
    simp only [Shelf.listed, List.mem_filter, decide_eq_true_eq]
    exact ⟨List.mem_append_left _ hx, hm, .inr hxs⟩
  · rw [hst]; exact h7

theorem delivered_more {a b c : St} {n1 n2 : List PyStr} {t1 t2 : List (HeldSms × Msg)} (h1 : b.log = n1 ++ a.log) (h2 : c.log = n2 ++ b.log)
    (d1 : DeliveredIn shows shelf came a b t1) (d2 : DeliveredIn shows shelf came b c t2) : DeliveredIn shows shelf came a c (t1 ++ t2) := delivered_trans h1 h2 d1 d2

theorem process_keep (H : KeepingIn shows env.reply mode shelf came) (hd : 0 < env.depth) (unreadOnly : Bool) {s : St} (hk : KnowsIn mode shelf s) (hs : (shelf s.log).SoundIn shows) :
    ∃ (s1 : St) (taken : List (HeldSms × Msg)) (new : List PyStr), processStoredSms unreadOnly env s = (.ok (), s1) ∧ s1.log = new ++ s.log ∧
      s1.callbacks = passOn (taken.map Prod.snd) s.callbacks ∧ KnowsIn mode shelf s1 ∧ (shelf s1.log).SoundIn shows ∧ DeliveredIn shows shelf came s s1 taken ∧
      mode s1.log = mode s.log ∧ (∀ p ∈ taken, MadeIn shows (mode s.log) p.1 p.2 ∧ Untold shows (mode s.log) p.1 = false) ∧
      ∀ x ∈ (shelf s.log).slots, x.memory = (shelf s.log).memory → (x.state = 0 ∨ unreadOnly = false ∧ x.state = 1) → Untold shows (mode s.log) x = false → x ∈ taken.map Prod.fst := by
  cases unreadOnly with
  | true =>
    obtain ⟨s1, taken, new, h1, h2, h3, h4, h5, h6, h6', h7, -, -, h10⟩ := stage_keep H hd false hk hs
    refine ⟨s1, taken, new, h1, h2, h3, h4, h5, h6, h10, h6', ?_⟩
    rintro x hx hm (h | ⟨h, -⟩) hu
    · exact h7 x hx hm h hu
    · cases h
  | false =>
    obtain ⟨s1, t1, n1, h1, h2, h3, h4, h5, h6, h6', h7, h8, h9, h10⟩ := stage_keep H hd true hk hs
    obtain ⟨s2, t2, n2, k1, k2, k3, k4, k5, k6, k6', k7, -, -, k10⟩ := stage_keep H hd false h4 h5
    rw [h10] at k6' k7
    refine ⟨s2, t1 ++ t2, n2 ++ n1, ?_, by rw [k2, h2]; simp, by rw [k3, h3, passOn_append]; simp, k4, k5, delivered_more h2 k2 h6 k6, k10.trans h10, ?_, ?_⟩
    · have e : processStoredSms false = (do let ms ← listStoredSms (stateNumber true) none true; callbackAll ms; (do let ms ← listStoredSms (stateNumber false) none true; callbackAll ms) : M Unit) := rfl
      rw [e]
      have e2 : (do let ms ← listStoredSms (stateNumber true) none true; callbackAll ms; (do let ms ← listStoredSms (stateNumber false) none true; callbackAll ms) : M Unit) env s =
          ((do let ms ← listStoredSms (stateNumber true) none true; callbackAll ms : M Unit) >>= fun _ => (do let ms ← listStoredSms (stateNumber false) none true; callbackAll ms : M Unit)) env s := by
        simp only [run_bind]
        rcases listStoredSms (stateNumber true) none true env s with ⟨_ | ms, s'⟩ <;> rfl
      rw [e2, run_bind, h1]
      exact k1
    · intro p hp
      rcases List.mem_append.1 hp with hp | hp
      · exact h6' p hp
      · exact k6' p hp
    · rintro x hx hm (h | ⟨-, h⟩) hu
      · rw [List.map_append]
        refine List.mem_append_right _ (k7 x (h8 x hx ?_) (by rw [h9]; exact hm) h hu)
        simp [h]
      · rw [List.map_append]
        exact List.mem_append_left _ (h7 x hx hm h hu)

theorem safe_process (H : KeepingIn shows env.reply mode shelf came) (hd : 0 < env.depth) (u : Bool) : Steps env (Guarded shows mode shelf came) (processStoredSms u) := by
  refine ⟨fun s hk hs => ?_⟩
  obtain ⟨s1, taken, new, h1, h2, -, h4, h5, h6, -⟩ := process_keep H hd u hk hs
  rw [h1]
  exact ⟨⟨new, h2⟩, h4, h5, taken, h6⟩

/-! ### Notifications -/

theorem harmless_start {p c : PyStr} (h : p <+: c) (h1 : p = py!"AT+CMGR=" ∨ p = py!"AT+CMGL=") : Harmless c := by
  obtain ⟨t, rfl⟩ := h
  refine ⟨fun b i hi => ?_, fun b i hi => ?_, fun b i hi => ?_, fun b hi => ?_, fun v hv => ?_⟩
  rotate_right
  · rcases h1 with rfl | rfl <;> simp [modeCommand] at hv
  all_goals
    generalize hc : p ++ t = c at hi
    cases hi with
    | same hi _ => cases hi <;> (rcases h1 with rfl | rfl <;> simp at hc)

/-- What is understood of the answer for one message. -/
def parseCmgrIn (text : Bool) (ls : List PyStr) : Except PyErr Msg := if text then parseCmgrText ls else parseCmgrPdu ls

theorem legible_of {t : Bool} {x : HeldSms} (h : IsMessage x.pdu ∧ IsLetter shows x.pdu) : Legible shows t x.pdu := by
  cases t
  · exact h.1
  · obtain ⟨l, h1, h2, -⟩ := h.2
    exact ⟨l, h1, h2⟩

/-- What is understood of the answer for a message that can be read. -/
theorem answer_of {t : Bool} {m m' : Shelf} {i : Nat} {r : Reply} (h : ObeysIn shows t m (.read i) r m') :
    (r = .lines [py!"+CMS ERROR: 321"] ∧ ∀ x ∈ m.listed 4, x.place ≠ i) ∨
    ∃ x ls, x ∈ m.listed 4 ∧ x.place = i ∧ r = .lines ls ∧ ls.getLast? = some py!"OK" ∧
      (Legible shows t x.pdu ∧ (∃ o, parseCmgrIn t ls = .ok o ∧ MadeIn shows t x o) ∨ ¬ Legible shows t x.pdu ∧ ∃ e, parseCmgrIn t ls = .error e) := by
  generalize hj : ShelfOrder.read i = o at h
  cases h with
  | same _ _ h => exact absurd hj.symm (h i)
  | pduList => cases hj
  | textList => cases hj
  | missing _ h => cases hj; exact .inl ⟨rfl, h⟩
  | pduRead ht h =>
    subst ht
    cases h with
    | missing h => cases hj; exact .inl ⟨rfl, h⟩
    | read h1 h2 h3 =>
      rename_i x line status
      cases hj
      refine .inr ⟨_, _, h1, rfl, rfl, rfl, ?_⟩
      have e : parseCmgrIn false = parseCmgrPdu := rfl
      have el : Legible shows false x.pdu = IsMessage x.pdu := rfl
      rw [e, el]
      by_cases hmsg : IsMessage x.pdu
      · refine .inl ⟨hmsg, ?_⟩
        obtain ⟨m, hm⟩ := made_of hmsg
        refine ⟨m, (C68_pdu _ _).2 ?_, hm⟩
        rcases hm with ⟨a, b, c, d, e, f, h, rfl⟩ | ⟨a, b, c, d, e, f, g, h, rfl⟩
        · rw [← h3]; exact .message h2 h
        · rw [← h3]; exact .report h2 h
      · refine .inr ⟨hmsg, ?_⟩
        have ha := (C68_pdu [line, x.pdu, py!"OK"] _).1 rfl
        generalize hg : parseCmgrPdu [line, x.pdu, py!"OK"] = r at ha
        cases ha with
        | message _ h => exact absurd ⟨_, .inl ⟨_, _, _, _, _, _, h, rfl⟩⟩ hmsg
        | report _ h => exact absurd ⟨_, .inr ⟨_, _, _, _, _, _, _, h, rfl⟩⟩ hmsg
        | outgoing => exact ⟨_, rfl⟩
        | undecodable => exact ⟨_, rfl⟩
        | other => exact ⟨_, rfl⟩
  | textRead ht h1 h2 =>
    rename_i x ls
    subst ht
    cases hj
    have e : parseCmgrIn true = parseCmgrText := rfl
    have el : Legible shows true x.pdu = ∃ l, shows x.pdu = some l ∧ ∃ t, parseTextModeTimeStr l.time = .ok t := rfl
    refine .inr ⟨x, ls, h1, rfl, rfl, ?_⟩
    rw [e, el]
    unfold LetterAnswer at h2
    cases hsh : shows x.pdu with
    | none =>
      rw [hsh] at h2
      obtain ⟨line, body, rfl, k1, k2⟩ := h2
      refine ⟨by rw [List.getLast?_cons]; simp, ?_⟩
      exact .inr ⟨(by rintro ⟨l, hl, -⟩; cases hl), _, (C68_text _ _).2 (.other k1 k2)⟩
    | some l =>
      rw [hsh] at h2
      obtain ⟨line, status, rfl, k1, k2⟩ := h2
      refine ⟨by rw [List.getLast?_cons]; simp, ?_⟩
      cases htime : parseTextModeTimeStr l.time with
      | error e =>
        exact .inr ⟨(by rintro ⟨l', hl, t, ht⟩; cases hl; rw [htime] at ht; cases ht), _, (C68_text _ _).2 (.badTime k1 k2 htime)⟩
      | ok t =>
        exact .inl ⟨⟨l, rfl, t, htime⟩, _, (C68_text _ _).2 (.message k1 k2 htime), ⟨l, t, hsh, htime, by simp⟩⟩

/-- Reading the message at a place of the selected memory. -/
theorem fetch_keep (H : KeepingIn shows env.reply mode shelf came) (hd : 0 < env.depth) {i : PyStr} (hi : Digits i) {s : St} :
    (∃ e, (write (cmgrCmd i) >>= fun ls => (M.ofExcept (parseCmgrIn (mode s.log) ls) : M Msg)) env s = (.error e, { s with log := (cmgrCmd i ++ [13]) :: s.log }) ∧
      ∀ x ∈ (shelf s.log).slots, x.memory = (shelf s.log).memory → x.place = decVal i → ¬ Legible shows (mode s.log) x.pdu) ∨
    ∃ x m, (write (cmgrCmd i) >>= fun ls => (M.ofExcept (parseCmgrIn (mode s.log) ls) : M Msg)) env s = (.ok m, { s with log := (cmgrCmd i ++ [13]) :: s.log }) ∧
      MadeIn shows (mode s.log) x m ∧ x.place = decVal i ∧ x.memory = (shelf s.log).memory ∧
      x.content ∈ (shelf ((cmgrCmd i ++ [13]) :: s.log)).slots.map HeldSms.content ∧
      ∀ y ∈ (shelf s.log).slots, y.memory = (shelf s.log).memory → y.place = decVal i → y = x := by
  obtain ⟨c, hc⟩ : ∃ c, c = cmgrCmd i ++ [13] := ⟨_, rfl⟩
  have hb : BidsIn (mode s.log) c (.read (decVal i)) := hc ▸ .same (Bids.read hi) (by simp)
  have hdel : ∀ i, ¬ BidsIn (mode s.log) c (.delete i) := fun i hi => by cases bids_unique hb hi
  have hcl : ∀ i, ¬ BidsIn (mode s.log) c (.clear i) := fun i hi => by cases bids_unique hb hi
  obtain ⟨-, hob⟩ := serves_order (H.serves c s.log) hb (by simp)
  obtain ⟨m0, hm0⟩ : ∃ m0, m0 = (shelf s.log).with (came (c :: s.log)) := ⟨_, rfl⟩
  rw [← hm0] at hob
  have hmem0 : m0.memory = (shelf s.log).memory := by rw [hm0]; rfl
  have hin : ∀ x ∈ (shelf s.log).slots, x ∈ m0.slots := fun x hx => by rw [hm0]; exact List.mem_append_left _ hx
  have hnd : (m0.slots.map HeldSms.spot).Nodup := by rw [hm0]; exact H.places c s.log
  rw [← hc]
  rcases answer_of hob with ⟨hr, hno⟩ | ⟨x, ls, hx, hpl, hr, hlast, hcase⟩
  · refine .inl ⟨.command .cms (some 321), ?_, fun x hx hm hp => ?_⟩
    · have hw : write (cmgrCmd i) true [13] env s = (.error (.command .cms (some 321)), { s with log := c :: s.log }) := by
        rw [hc] at hr ⊢
        refine C32_mapping hd hr ?_
        have := ResponseMeans.code (ls := [py!"+CMS ERROR: 321"]) (line := py!"+CMS ERROR: 321") (ty := py!"CMS") (ds := py!"321") rfl
          ⟨.inr rfl, by decide, by decide, [], .inl rfl, rfl⟩ (by decide) (by decide)
        exact this
      simp only [run_bind, hw]
    · exfalso
      refine hno x ?_ hp
      simp only [Shelf.listed, List.mem_filter, decide_eq_true_eq]
      exact ⟨hin x hx, by rw [hm, hmem0], by simp⟩
  · have hw : write (cmgrCmd i) true [13] env s = (.ok ls, { s with log := c :: s.log }) := by
      rw [hc] at hr ⊢
      exact obeyed_write hd hr hlast
    simp only [Shelf.listed, List.mem_filter, decide_eq_true_eq] at hx
    have huniq : ∀ y ∈ (shelf s.log).slots, y.memory = (shelf s.log).memory → y.place = decVal i → y = x := by
      intro y hy hm hp
      refine List.inj_on_of_nodup_map hnd (hin y hy) hx.1 ?_
      simp only [HeldSms.spot, Prod.mk.injEq]
      exact ⟨by rw [hm, hx.2.1, hmem0], by rw [hp, hpl]⟩
    simp only [run_bind, hw, run_ofExcept]
    rcases hcase with ⟨-, m, hm1, hm2⟩ | ⟨hleg, e, he⟩
    · right
      refine ⟨x, m, by rw [hm1], hm2, hpl, by rw [hx.2.1, hmem0], ?_, huniq⟩
      rw [keep_content H hdel hcl, ← List.map_append]
      refine List.mem_map_of_mem ?_
      have := hx.1
      rw [hm0] at this
      exact this
    · left
      refine ⟨e, by rw [he], fun y hy hm hp => ?_⟩
      rw [huniq y hy hm hp]
      exact hleg

theorem received_any (H : KeepingIn shows env.reply mode shelf came) (hd : 0 < env.depth) {line mem idx : PyStr} (hl : StoredAt py!"+CMTI:" line mem idx) {s : St}
    (hk : KnowsIn mode shelf s) :
    (∃ e s1, handleSmsReceived line env s = (.error e, s1) ∧ s1.callbacks = s.callbacks ∧ (∃ new, s1.log = new ++ s.log) ∧ KnowsIn mode shelf s1 ∧ ((shelf s.log).SoundIn shows → (shelf s1.log).SoundIn shows) ∧
      Balance shelf came s.log s1.log [] ∧ ∀ x : HeldSms, x.content ∈ (shelf s.log).slots.map HeldSms.content → x.memory = mem → x.place = decVal idx → ¬ Legible shows (mode s.log) x.pdu) ∨
    ∃ x m s1, handleSmsReceived line env s = (.ok (), s1) ∧ s1.callbacks = .smsReceived m :: s.callbacks ∧ (∃ new, s1.log = new ++ s.log) ∧ KnowsIn mode shelf s1 ∧
      ((shelf s.log).SoundIn shows → (shelf s1.log).SoundIn shows) ∧ MadeIn shows (mode s.log) x m ∧ x.memory = mem ∧ x.place = decVal idx ∧ Balance shelf came s.log s1.log [x] ∧
      ∀ y : HeldSms, y.content ∈ (shelf s.log).slots.map HeldSms.content → y.memory = mem → y.place = decVal idx → y.content = x.content := by
  have hg : rxGroups cmtiRegex line = some [mem, idx] := stored_iff.2 ⟨mem, idx, rfl, hl⟩
  obtain ⟨hq, hi⟩ : Quotable mem ∧ Digits idx := by
    obtain ⟨b, t, -, -, h1, h2, -⟩ := hl
    exact ⟨h1, h2⟩
  obtain ⟨n1, mm, h1, h2, h3, h4, h7⟩ := memory_run H hd (m := some mem) (fun x hx => by cases hx; exact hq) hk
  obtain ⟨s1, hs1⟩ : ∃ s1, s1 = { s with log := n1 ++ s.log, smsMemReadDelete := mm } := ⟨_, rfl⟩
  have hl1 : s1.log = n1 ++ s.log := by rw [hs1]
  have hc1 : s1.callbacks = s.callbacks := by rw [hs1]
  rw [← hs1] at h1 h3
  rw [← hl1] at h1 h2 h4 h7
  have hmode : mode s1.log = mode s.log := by rw [← h3.2.1, hs1]; exact hk.2.1
  rcases h1 with ⟨h1, h5⟩ | ⟨e, x, h1, hx, hno⟩
  rotate_left
  · left
    cases hx
    refine ⟨e, s1, ?_, hc1, ⟨n1, hl1⟩, h3, h4, h2, fun y hy hym _ => ?_⟩
    · simp only [handleSmsReceived, hg, run_bind, readStoredSms, h1]
    · obtain ⟨z, hz, he⟩ := List.mem_map.1 hy
      exact absurd ((congrArg (·.1) he).trans hym) (hno z hz)
  have hmem := h5 mem rfl
  have hrun : handleSmsReceived line env s = match (write (cmgrCmd idx) >>= fun ls => (M.ofExcept (parseCmgrIn (mode s1.log) ls) : M Msg)) env s1 with
      | (.ok m, s2) => (do deleteStoredSms idx; callback (.smsReceived m) : M Unit) env s2
      | (.error e, s2) => (.error e, s2) := by
    simp only [handleSmsReceived, hg, run_bind, readStoredSms, h1, run_get, run_ofExcept]
    have ht : ∀ ls s2, write (cmgrCmd idx) true [13] env s1 = (.ok ls, s2) → s2.smsTextMode = mode s1.log := by
      intro ls s2 hw
      obtain ⟨k, w, he⟩ := writeN_state (data := cmgrCmd idx) (term := [13]) (pe := true) (env := env) env.depth s1
      have : s2 = (writeN env.depth (cmgrCmd idx) true [13] env s1).2 := by
        have := congrArg Prod.snd hw
        exact this.symm
      rw [this, he]
      exact h3.2.1
    generalize hw : write (cmgrCmd idx) true [13] env s1 = w at ht ⊢
    rcases w with ⟨_ | ls, s2⟩
    · rfl
    · dsimp only
      rw [ht ls s2 rfl]
      cases hm : mode s1.log
      · simp only [Bool.false_eq_true, if_false, parseCmgrIn]
        rcases parseCmgrPdu ls with _ | m <;> rfl
      · simp only [if_true, parseCmgrIn]
        rcases parseCmgrText ls with _ | m <;> rfl
  have hb : Harmless (cmgrCmd idx ++ [13]) := harmless_start (p := py!"AT+CMGR=") ⟨idx ++ [13], by simp [cmgrCmd]⟩ (.inl rfl)
  rw [hrun]
  obtain ⟨c, hc⟩ : ∃ c, c = cmgrCmd idx ++ [13] := ⟨_, rfl⟩
  have hslot : ∀ y : HeldSms, y.content ∈ (shelf s.log).slots.map HeldSms.content → ∃ z ∈ (shelf s1.log).slots, z.content = y.content := by
    intro y hy
    obtain ⟨z, hz, he⟩ := List.mem_map.1 (h7 y hy)
    exact ⟨z, hz, he⟩
  have hkm : mode ((cmgrCmd idx ++ [13]) :: s1.log) = mode s1.log := keep_mode H (hb.2.2.2.1 _) hb.2.2.2.2
  rcases fetch_keep H hd hi (s := s1) with ⟨e, k1, k2⟩ | ⟨x, m, k1, k2, k3, k4, k5, k6⟩
  · left
    rw [k1]
    refine ⟨e, _, rfl, hc1, ⟨(cmgrCmd idx ++ [13]) :: n1, by show _ :: s1.log = _; rw [hl1]; rfl⟩, ⟨h3.1, h3.2.1.trans hkm.symm, fun m hm hq' => (keep_memory H (hb.2.2.1 _) (hb.2.2.2.1 _)).trans (h3.2.2 m hm hq')⟩, (fun hs => keep_sound H _ (h4 hs)), ?_, ?_⟩
    · have hb1 : Balance shelf came s.log (n1 ++ s.log) [] := by rw [← hl1]; exact h2
      have hb2 : Balance shelf came (n1 ++ s.log) ([cmgrCmd idx ++ [13]] ++ (n1 ++ s.log)) [] := balance_other H (hb.1 _) (hb.2.1 _)
      have := balance_trans hb1 hb2
      show Balance shelf came s.log ((cmgrCmd idx ++ [13]) :: s1.log) []
      rw [hl1]
      exact this
    · intro y hy hym hyp
      obtain ⟨z, hz, he⟩ := hslot y hy
      simp only [HeldSms.content, Prod.mk.injEq] at he
      rw [← he.2.2, ← hmode]
      exact k2 z hz (by rw [he.1, hym, hmem]) (by rw [he.2.1, hyp])
  · right
    rw [k1]
    have hmem2 : (shelf ((cmgrCmd idx ++ [13]) :: s1.log)).memory = (shelf s1.log).memory := keep_memory H (hb.2.2.1 _) (hb.2.2.2.1 _)
    obtain ⟨s2, hs2⟩ : ∃ s2, s2 = { s1 with log := (cmgrCmd idx ++ [13]) :: s1.log } := ⟨_, rfl⟩
    have hl2 : s2.log = (cmgrCmd idx ++ [13]) :: s1.log := by rw [hs2]
    have hc2 : s2.callbacks = s.callbacks := by rw [hs2]; exact hc1
    rw [← hs2]
    rw [← hl2] at k5 hmem2
    obtain ⟨d1, d2, d3, d6, -⟩ := delete_run H hd hi k3 (by rw [k4, hmem2]) k5
    refine ⟨x, m, { s2 with log := (cmgdCmd idx ++ [13]) :: s2.log, callbacks := .smsReceived m :: s2.callbacks }, ?_, by rw [← hc2], ?_, ⟨?_, ?_, ?_⟩, ?_, by rw [← hmode]; exact k2, by rw [k4, hmem], k3, ?_, ?_⟩
    · simp only [run_bind, d1, callback, run_modify]
    · exact ⟨(cmgdCmd idx ++ [13]) :: (cmgrCmd idx ++ [13]) :: n1, by show _ :: s2.log = _; rw [hl2, hl1]; rfl⟩
    · rw [hs2]; exact h3.1
    · refine Eq.trans ?_ d6.symm
      rw [hl2, hkm, hs2]; exact h3.2.1
    · intro mm' hmm' hqm
      have : s1.smsMemReadDelete = some mm' := by rw [hs2] at hmm'; exact hmm'
      exact d3.trans (hmem2.trans (h3.2.2 _ this hqm))
    · exact fun hs => keep_sound H _ (by rw [hl2]; exact keep_sound H _ (h4 hs))
    · have hb1 : Balance shelf came s.log (n1 ++ s.log) [] := by rw [← hl1]; exact h2
      have hb2 : Balance shelf came (n1 ++ s.log) ([cmgrCmd idx ++ [13]] ++ (n1 ++ s.log)) [] := balance_other H (hb.1 _) (hb.2.1 _)
      have h12 := balance_trans hb1 hb2
      have e2 : s2.log = ([cmgrCmd idx ++ [13]] ++ n1) ++ s.log := by rw [hl2, hl1]; simp
      rw [e2] at d2
      have := balance_trans (n1 := [cmgrCmd idx ++ [13]] ++ n1) (n2 := [cmgdCmd idx ++ [13]]) (by simpa using h12) (by simpa using d2)
      show Balance shelf came s.log ((cmgdCmd idx ++ [13]) :: s2.log) [x]
      rw [e2]
      simpa using this
    · intro y hy hym hyp
      obtain ⟨z, hz, he⟩ := hslot y hy
      have he' := he
      simp only [HeldSms.content, Prod.mk.injEq] at he'
      rw [← he, k6 z hz (by rw [he'.1, hym, hmem]) (by rw [he'.2.1, hyp])]

theorem received_keep (H : KeepingIn shows env.reply mode shelf came) (hd : 0 < env.depth) {line mem idx : PyStr} (hl : StoredAt py!"+CMTI:" line mem idx) {s : St}
    (hk : KnowsIn mode shelf s) (hs : (shelf s.log).SoundIn shows) :
    (∃ e s1, handleSmsReceived line env s = (.error e, s1) ∧ s1.callbacks = s.callbacks ∧ (∃ new, s1.log = new ++ s.log) ∧ KnowsIn mode shelf s1 ∧ (shelf s1.log).SoundIn shows ∧
      Balance shelf came s.log s1.log [] ∧ ∀ x : HeldSms, x.content ∈ (shelf s.log).slots.map HeldSms.content → x.memory = mem → x.place = decVal idx → ¬ Legible shows (mode s.log) x.pdu) ∨
    ∃ x m s1, handleSmsReceived line env s = (.ok (), s1) ∧ s1.callbacks = .smsReceived m :: s.callbacks ∧ (∃ new, s1.log = new ++ s.log) ∧ KnowsIn mode shelf s1 ∧
      (shelf s1.log).SoundIn shows ∧ MadeIn shows (mode s.log) x m ∧ x.memory = mem ∧ x.place = decVal idx ∧ Balance shelf came s.log s1.log [x] ∧
      ∀ y : HeldSms, y.content ∈ (shelf s.log).slots.map HeldSms.content → y.memory = mem → y.place = decVal idx → y.content = x.content := by
  rcases received_any H hd hl hk with ⟨e, s1, h1, h2, h3, h4, h5, h6⟩ | ⟨x, m, s1, h1, h2, h3, h4, h5, h6⟩
  · exact .inl ⟨e, s1, h1, h2, h3, h4, h5 hs, h6⟩
  · exact .inr ⟨x, m, s1, h1, h2, h3, h4, h5 hs, h6⟩

theorem safe_received (H : KeepingIn shows env.reply mode shelf came) (hd : 0 < env.depth) (line : PyStr) : Steps env (Guarded shows mode shelf came) (handleSmsReceived line) := by
  refine ⟨fun s => ?_⟩
  by_cases hl : ∃ mem idx, StoredAt py!"+CMTI:" line mem idx
  · obtain ⟨mem, idx, hl⟩ := hl
    intro hk hs
    rcases received_keep H hd hl hk hs with ⟨e, s1, h1, h2, h3, h4, h5, h6, -⟩ | ⟨x, m, s1, h1, h2, h3, h4, h5, h6, h7, h8, h9, -⟩
    · rw [h1]
      exact ⟨h3, h4, h5, [], by simp [handedOver, h2], (fun p hp => absurd hp (by simp)), h6⟩
    · rw [h1]
      refine ⟨h3, h4, h5, [(x, m)], by simp [handedOver, h2], (fun p hp => ?_), h9⟩
      rw [List.mem_singleton.1 hp]; exact made_either h6
  · have := received_effect (env := env) line s
    have e : handleSmsReceived line env s = (.ok (), s) := by
      generalize hg : handleSmsReceived line env s = r at this
      obtain ⟨r1, r2⟩ := r
      cases this with
      | other _ => rfl
      | failed h => exact absurd ⟨_, _, h⟩ hl
      | passed h => exact absurd ⟨_, _, h⟩ hl
    rw [e]
    exact safe_pre.refl s


end Gsm.InModes
