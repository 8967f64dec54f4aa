import Verif.Lemmas.ThreadCallsFrame
import Verif.Props.Threads
import Verif.Props.ModemProgress
import Verif.Lemmas.Incoming
/-! # What the methods for calls have done at their end when other threads took steps in between -/
namespace Gsm
open M Spec

variable {env : Env}

namespace Prog

theorem ends_of_keeps {α : Type} {R G : St → St → Prop} {p : Prog α} (hr : ∀ s, R s s) (ht : ∀ a b c, R a b → R b c → R a c) (hg : ∀ a b, G a b → R a b)
    (h : Keeps env Always G Any p) (s : St) : Ends env R (fun _ s' => R s s') p s := by
  suffices hh : ∀ s1, R s s1 → Ends env R (fun _ s' => R s s') p s1 from hh s (hr s)
  induction p with
  | done r => exact fun s1 h1 => h1
  | io t k ih => exact fun s1 h1 s2 h2 => ih _ (h s2 trivial).2 _ (ht _ _ _ (ht _ _ _ h1 h2) (hg _ _ (h s2 trivial).1))
  | act f k ih => exact fun s1 h1 s2 h2 => ih _ _ (h s2 trivial).2 _ (ht _ _ _ (ht _ _ _ h1 h2) (hg _ _ (h s2 trivial).1))

theorem ends_and {α : Type} {R : St → St → Prop} {Q Q' : Except PyErr α → St → Prop} {p : Prog α} {s : St} (h : Ends env R Q p s) (h' : Ends env R Q' p s) :
    Ends env R (fun r s => Q r s ∧ Q' r s) p s := by
  induction p generalizing s with
  | done r => exact ⟨h, h'⟩
  | io t k ih => exact fun s1 h1 => ih _ (h s1 h1) (h' s1 h1)
  | act f k ih => exact fun s1 h1 => ih _ _ (h s1 h1) (h' s1 h1)

theorem ends_rely {α : Type} {R R' : St → St → Prop} {Q : Except PyErr α → St → Prop} {p : Prog α} {s : St} (hR : ∀ a b, R' a b → R a b) (h : Ends env R Q p s) : Ends env R' Q p s := by
  induction p generalizing s with
  | done r => exact h
  | io t k ih => exact fun s1 h1 => ih _ (h s1 (hR _ _ h1))
  | act f k ih => exact fun s1 h1 => ih _ _ (h s1 (hR _ _ h1))

/-- The other threads keep `G`; nothing is asked of this one. -/
theorem ends_among {R G : St → St → Prop} (hr : ∀ s, R s s) (ht : ∀ a b c, R a b → R b c → R a c) (hG : ∀ s, G s s) (hg : ∀ a b, G a b → R a b)
    {Q : Except PyErr Unit → St → Prop} {i : Nat} :
    ∀ (schedule : List Nat) (threads : List (Prog Unit)) (s s1 : St) (p : Prog Unit), (∀ j q, j ≠ i → threads[j]? = some q → Keeps env Always G Any q) → threads[i]? = some p →
      Ends env R Q p s1 → R s1 s → ∀ r, (runThreads env schedule (threads, s)).1[i]? = some (done r) → ∃ s2, Q r s2 ∧ R s2 (runThreads env schedule (threads, s)).2
  | [], threads, s, s1, p, _, hp, he, hs, r, hd => by
    have hd' : threads[i]? = some (done r) := hd
    rw [hp] at hd'
    cases hd'
    exact ⟨s1, he, hs⟩
  | j :: is, threads, s, s1, p, h, hp, he, hs, r, hd => by
    unfold runThreads at hd ⊢
    cases hj : threads[j]? with
    | none =>
      simp only [hj] at hd ⊢
      exact ends_among hr ht hG hg is threads s s1 p h hp he hs r hd
    | some q =>
      simp only [hj] at hd ⊢
      have hlen : j < threads.length := (List.getElem?_eq_some_iff.1 hj).1
      by_cases hij : j = i
      · subst hij
        rw [hp] at hj
        cases hj
        have hset : ∀ j' q, j' ≠ j → (threads.set j (p.step env s).1)[j']? = some q → Keeps env Always G Any q := fun j' q hne hq =>
          h j' q hne (by rwa [List.getElem?_set_ne (Ne.symm hne)] at hq)
        have hp' : (threads.set j (p.step env s).1)[j]? = some (p.step env s).1 := by simp [hlen]
        cases p with
        | done r' => exact ends_among hr ht hG hg is _ s s1 _ hset hp' he hs r hd
        | io t k => exact ends_among hr ht hG hg is _ _ _ _ hset hp' (he s hs) (hr _) r hd
        | act f k => exact ends_among hr ht hG hg is _ _ _ _ hset hp' (he s hs) (hr _) r hd
      · have hk := keeps_step (s := s) (h j q hij hj) (fun s _ => hG s) trivial
        have hp' : (threads.set j (q.step env s).1)[i]? = some p := by rw [List.getElem?_set_ne hij]; exact hp
        refine ends_among hr ht hG hg is _ _ s1 _ (fun j' q' hne hq => ?_) hp' he (ht _ _ _ hs (hg _ _ hk.2)) r hd
        by_cases hjj : j = j'
        · subst hjj
          simp [hlen] at hq
          exact hq ▸ hk.1
        · rw [List.getElem?_set_ne hjj] at hq
          exact h j' q' hne hq

/-- A relation that the other threads keep and that allows steps which neither start nor end a call. -/
structure Relied (R : St → St → Prop) : Prop where
  refl : ∀ s, R s s
  trans : ∀ a b c, R a b → R b c → R a c
  stable : CallStable R False False
  grow : ∀ a b, R a b → CallsGrow a b

theorem relied_grow : Relied CallsGrow := ⟨.rfl, fun _ _ _ => .trans, ⟨fun h _ => h.grow, fun h => h.elim, fun h => h.elim⟩, fun _ _ h => h⟩
theorem relied_stay : Relied CallsStay := ⟨.rfl, fun _ _ _ => .trans, ⟨fun h _ => h, fun h => h.elim, fun h => h.elim⟩, fun _ _ h => h.grow⟩
theorem relied_fixed : Relied CallsFixed := ⟨fun s => ⟨.rfl s, rfl⟩, fun _ _ _ h h' => ⟨h.1.trans h'.1, h'.2.trans h.2⟩, callStable_fixed, fun _ _ h => h.1.grow⟩

variable {R : St → St → Prop}

theorem ends_still {α : Type} (hR : Relied R) {p : Prog α} (h : Keeps env Always R Any p) (s : St) : Ends env R (fun _ s' => R s s') p s :=
  ends_of_keeps hR.refl hR.trans (fun _ _ h => h) h s

theorem classify_key {line : PyStr} : classify line ≠ .failed .keyError := by
  unfold classify
  intro h
  split at h
  · split at h
    · split at h
      · next e he => unfold pyInt at he; split at he <;> simp_all
      · split at h
        · cases h
        · split at h
          · simp only [cmeError] at h; split at h <;> try split at h
            all_goals try split at h
            all_goals simp at h
          · simp only [cmsError] at h; split at h <;> simp at h
    · simp at h
  · split at h <;> simp at h

theorem ends_writeN_error {data term : PyStr} {pe : Bool} : ∀ (depth : Nat) (s : St), Ends env R (fun r _ => r ≠ .error .keyError) (writeN depth data pe term) s
  | 0, _ => fun h => nomatch h
  | depth + 1, s => by
    intro s1 _
    cases hr : env.reply ((data ++ term) :: s1.log) with
    | timeout d => exact fun h => nomatch h
    | lines ls =>
      dsimp only
      cases hl : ls.getLast? with
      | none => exact fun h => nomatch h
      | some line =>
        dsimp only
        cases pe with
        | false => exact fun h => nomatch h
        | true =>
          simp only [if_true]
          cases hc : classify line with
          | fine => exact fun h => nomatch h
          | failed e => intro h; cases h; exact classify_key hc
          | busy code =>
            refine ends_bind (Q := fun r _ => r ≠ .error .keyError) (fun _ _ => fun h => nomatch h) (fun _ s2 _ => ?_) fun e _ he => by simpa using he
            refine ends_bind (ends_writeN_error depth s2) (fun r s3 _ => ?_) fun e _ he => by simpa using he
            exact ends_bind (Q := fun r _ => r ≠ .error .keyError) (fun _ _ => fun h => nomatch h) (fun _ _ _ => fun h => nomatch h) fun e _ he => by simpa using he

theorem ends_write_error {data term : PyStr} {pe : Bool} {s : St} : Ends env R (fun r _ => r ≠ .error .keyError) (write data pe term) s :=
  fun s1 _ => ends_writeN_error env.depth s1

/-- Writing a command: what it does, and what it leaves. -/
theorem ends_command (hR : Relied R) {c : PyStr} (s : St) :
    Ends env R (fun r s' => R s s' ∧ r ≠ .error .keyError ∧ Good (Wrote env (c ++ [13]) s) r s') (write c) s :=
  ends_and (ends_still hR (any (keeps_write (callStable_writes hR.stable) trivial)) s) (ends_and ends_write_error (ends_rely (fun _ _ h => (hR.grow _ _ h).grows) ends_write))

theorem ends_setAnswered (hR : Relied R) (i : Nat) (v : Bool) (s : St) : Ends env R (fun r s' => r = .ok () ∧ R s s') (setAnswered i v) s := by
  refine ends_and ?_ (ends_still hR (keeps_setAnswered hR.stable i v) s)
  refine ends_bind (Q := fun r _ => r = .ok ()) (fun _ _ => rfl) (fun _ s1 _ => ends_look fun s2 _ => ?_) fun e _ h => nomatch h
  cases s2.calls[i]? with
  | none => exact rfl
  | some c =>
    dsimp only
    split
    · exact fun _ _ => rfl
    · exact rfl

/-! ### Hanging up -/

theorem call_later {a b : St} (h : CallsGrow a b) {i : Nat} {c : CallObj} (hc : a.calls[i]? = some c) (h1 : c.active = false) (h2 : c.incoming = true → c.ringing = false) :
    ∃ c', b.calls[i]? = some c' ∧ c'.active = false ∧ (c'.incoming = true → c'.ringing = false) := by
  obtain ⟨c', h3, h4⟩ := h.calls i c hc
  refine ⟨c', h3, ?_, fun h5 => ?_⟩
  · cases hx : c'.active with
    | false => rfl
    | true => rw [h4.active hx] at h1; cases h1
  · have := h2 (h4.incoming ▸ h5)
    cases hx : c'.ringing with
    | false => rfl
    | true => rw [h4.ringing hx] at this; cases this

theorem not_in_table {s : St} (ht : TableKeyed s) {i : Nat} {c : CallObj} (hc : s.calls[i]? = some c) (hk : c.id ∉ s.activeCalls.map (·.1)) : ¬ InTable s i := by
  rintro ⟨k, h⟩
  obtain ⟨c', h1, rfl⟩ := ht.2 k i h
  rw [hc] at h1
  cases h1
  exact hk (List.mem_map.2 ⟨_, h, rfl⟩)

theorem Over.later {a b : St} (h : CallsGrow a b) {i : Nat} (ho : Over a i) : Over b i := by
  obtain ⟨⟨c, h1, h2, h3⟩, h4⟩ := ho
  exact ⟨call_later h h1 h2 h3, h.removed i (List.getElem?_eq_some_iff.1 h1).1 h4⟩

theorem isSome_key {d : List (Int × Nat)} {k : Int} : (dictGet d k).isSome = true ↔ k ∈ d.map (·.1) := by
  constructor
  · intro h
    obtain ⟨v, hv⟩ := Option.isSome_iff_exists.1 h
    exact List.mem_map.2 ⟨_, dictGet_mem hv, rfl⟩
  · intro h
    cases hg : dictGet d k with
    | some v => rfl
    | none => exact absurd h (dictGet_none.1 hg)

theorem del_key {d : List (Int × Nat)} {k : Int} : k ∉ (dictDel d k).map (·.1) := by
  intro h
  obtain ⟨⟨k', v⟩, h1, rfl⟩ := List.mem_map.1 h
  exact (dictDel_mem.1 h1).2 rfl

/-- Removing the call of the table that has an id, if there is one. -/
theorem ends_removeIfThere {i : Nat} {c : CallObj} {s : St} (ht : TableKeyed s) (hc : s.calls[i]? = some c) (h1 : c.active = false) (h2 : c.incoming = true → c.ringing = false) :
    Ends env CallsGrow (fun _ s' => Over s' i) (removeIfThere c.id) s := by
  have over : ∀ {s1 : St}, CallsGrow s s1 → c.id ∉ s1.activeCalls.map (·.1) → Over s1 i := by
    intro s1 hg hk
    obtain ⟨c', h3, h4⟩ := hg.calls i c hc
    exact ⟨call_later hg hc h1 h2, not_in_table (hg.table ht) h3 (h4.id ▸ hk)⟩
  refine ends_look fun s1 hs1 => ?_
  split
  · intro s2 hs2
    have : ∀ s3, s3 = { s2 with activeCalls := dictDel s2.activeCalls c.id } → Over s3 i := by
      rintro _ rfl
      exact over ((hs1.trans hs2).trans grow_remove) del_key
    show Ends env CallsGrow _ (if _ then _ else _) _
    split
    · exact this _ rfl
    · exact this _ rfl
  · rename_i hk
    exact over hs1 fun h => hk (isSome_key.2 h)

theorem quiet_modify {s : St} {i : Nat} {c : CallObj} (hc : s.calls[i]? = some c) {f : CallObj → CallObj} : (s.calls.modify i f)[i]? = some (f c) := by
  rw [List.getElem?_modify, hc]; simp

theorem ends_hangup {i : Nat} {c : CallObj} {s : St} (ht : TableKeyed s) (hc : s.calls[i]? = some c) :
    Ends env CallsGrow (fun r s' => r = .ok () ∨ r = .error .keyError → Over s' i) (hangup i) s := by
  refine ends_bind (Q := fun r s' => r = .ok () ∧ CallsGrow s s' ∧ ∃ c, s'.calls[i]? = some c ∧ (c.incoming = true → c.ringing = false)) ?_ ?_ (fun e _ h => nomatch h.1)
  · intro s1 hs1
    obtain ⟨c1, h1, _⟩ := hs1.calls i c hc
    refine ⟨rfl, hs1.trans (grow_modify same_quiet), _, quiet_modify h1, ?_⟩
    split
    · exact fun _ => rfl
    · rename_i h; exact fun h' => absurd h' h
  rintro _ s1 ⟨_, hs1, c1, h1, h2⟩
  refine ends_look fun s2 hs2 => ?_
  obtain ⟨c2, h3, h4⟩ := hs2.calls i c1 h1
  have h5 : c2.incoming = true → c2.ringing = false := fun h => by
    have := h2 (h4.incoming ▸ h)
    cases hx : c2.ringing with
    | false => rfl
    | true => rw [h4.ringing hx] at this; cases this
  rw [h3]
  dsimp only
  refine ends_bind (Q := fun r s' => r ≠ .error .keyError ∧ (r = .ok () → CallsGrow s2 s' ∧ ∃ c, s'.calls[i]? = some c ∧ c.active = false)) ?_ ?_ fun e s' h hk => by
    rcases hk with hk | hk
    · cases hk
    · exact absurd hk h.1
  · unfold hangupActive
    split
    · refine ends_bind (ends_command relied_grow s2) (fun _ s3 ⟨h6, _⟩ => ends_bind (ends_setAnswered relied_grow i false s3) (fun _ s4 ⟨_, h7⟩ => ?_) fun e _ h => nomatch h.1) fun e s' h => ⟨fun hk => h.2.1 (by cases hk; rfl), fun h => nomatch h⟩
      intro s5 h8
      have h9 := (h6.trans h7).trans h8
      obtain ⟨c5, h10, _⟩ := h9.calls i c2 h3
      exact ⟨(fun h => nomatch h), fun _ => ⟨h9.trans (grow_modify fun _ => ⟨rfl, rfl, rfl, rfl, rfl, rfl, (nomatch ·), id⟩), _, quiet_modify h10, rfl⟩⟩
    · rename_i hx
      exact ⟨(fun h => nomatch h), fun _ => ⟨.rfl _, c2, h3, by simpa using hx⟩⟩
  · rintro _ s3 ⟨_, h6⟩
    obtain ⟨h7, c3, h8, h9⟩ := h6 rfl
    obtain ⟨c3', h10, h11⟩ := h7.calls i c2 h3
    rw [h8] at h10
    cases h10
    have := ends_removeIfThere (env := env) (((hs1.trans hs2).trans h7).table ht) h8 h9 fun h => by
      have := h5 (h11.incoming ▸ h)
      cases hx : c3.ringing with
      | false => rfl
      | true => rw [h11.ringing hx] at this; cases this
    rw [h11.id] at this
    exact ends_mono this fun _ _ h _ => h

/-- The call stays until the modem has been told to end it. -/
theorem ends_hangup_stay {i : Nat} {c : CallObj} {s : St} (ht : TableKeyed s) (hc : s.calls[i]? = some c) (ha : c.active = true) (hk : (c.id, i) ∈ s.activeCalls) :
    Ends env CallsStay (fun r s' => r ≠ .error .keyError ∧ (r = .ok () → ∃ l, Performed env.reply [py!"ATH\r"] s.log l ∧ l <:+ s'.log) ∧
      ∀ e, r = .error e → CallsStay s s') (hangup i) s := by
  refine ends_bind (Q := fun r s' => r = .ok () ∧ CallsStay s s') ?_ ?_ (fun e _ h => nomatch h.1)
  · exact fun s1 hs1 => ⟨rfl, hs1.trans (stay_modify same_quiet fun c => by split <;> rfl)⟩
  rintro _ s1 ⟨_, hs1⟩
  refine ends_look fun s2 hs2 => ?_
  have h2 := hs1.trans hs2
  obtain ⟨c2, h3, h4⟩ := h2.grow.calls i c hc
  obtain ⟨c2', h5, h6⟩ := h2.active i c hc ha
  rw [h3] at h5
  cases h5
  rw [h3]
  dsimp only
  unfold hangupActive
  rw [if_pos h6]
  -- what is left when the call is over
  have fin : ∀ s3 l, Performed env.reply [py!"ATH\r"] s.log l → l <:+ s3.log → c2.id ∈ s3.activeCalls.map (·.1) → Ends env CallsStay
      (fun r s' => r ≠ .error .keyError ∧ (r = .ok () → ∃ l, Performed env.reply [py!"ATH\r"] s.log l ∧ l <:+ s'.log) ∧ ∀ e, r = .error e → CallsStay s s') (removeIfThere c2.id) s3 := by
    intro s3 l hl1 hl2 hk3
    refine ends_look fun s4 h4 => ?_
    have hk4 := h4.ids _ hk3
    rw [if_pos (isSome_key.2 hk4)]
    intro s5 h5
    have hk5 := h5.ids _ hk4
    show Ends env CallsStay _ (if _ then _ else _) _
    rw [if_pos (isSome_key.2 hk5)]
    exact ⟨(fun h => nomatch h), fun _ => ⟨l, hl1, hl2.trans ((h4.trans h5).grow.grows.log)⟩, fun e h => nomatch h⟩
  refine ends_bind (Q := fun r s' => r ≠ .error .keyError ∧ (r = .ok () → (∃ l, Performed env.reply [py!"ATH\r"] s.log l ∧ l <:+ s'.log) ∧ c2.id ∈ s'.activeCalls.map (·.1)) ∧
      ∀ e, r = .error e → CallsStay s s') ?_ (fun _ s3 ⟨_, h, _⟩ => ?_) fun e s' h => ⟨h.1, (fun h => nomatch h), h.2.2⟩
  · refine ends_bind (ends_command relied_stay s2) (fun ls s3 ⟨h7, _, h8⟩ => ends_bind (ends_setAnswered relied_stay i false s3) (fun _ s4 ⟨_, h9⟩ => ?_) fun e _ h => nomatch h.1) fun e s' h => ?_
    · intro s5 h10
      obtain ⟨_, l, h11, h12, _, h13⟩ := h8
      refine ⟨(fun h => nomatch h), fun _ => ⟨⟨_, .cons (h2.grow.grows.log.trans h11) h12 (.nil _), h13.trans (h9.trans h10).grow.grows.log⟩, ?_⟩, fun e h => nomatch h⟩
      exact (h7.trans (h9.trans h10)).ids _ (h4.id ▸ h2.ids _ (List.mem_map.2 ⟨_, hk, rfl⟩))
    · exact ⟨fun hk => h.2.1 (by cases hk; rfl), (fun h => nomatch h), fun _ _ => h2.trans h.1⟩
  · obtain ⟨⟨l, h7, h8⟩, h9⟩ := h rfl
    exact fin s3 l h7 h8 h9

/-- The table, when the others leave it alone. -/
theorem ends_hangup_fixed {i : Nat} {c : CallObj} {s : St} (hc : s.calls[i]? = some c) (hk : c.id ∈ s.activeCalls.map (·.1)) :
    Ends env CallsFixed (fun r s' => (r = .ok () → s'.activeCalls = s.activeCalls.filter (·.1 ≠ c.id)) ∧ ∀ e, r = .error e → s'.activeCalls = s.activeCalls) (hangup i) s := by
  refine ends_bind (Q := fun r s' => r = .ok () ∧ CallsFixed s s') ?_ ?_ (fun e _ h => nomatch h.1)
  · exact fun s1 hs1 => ⟨rfl, hs1.1.trans (stay_modify same_quiet fun c => by split <;> rfl), hs1.2⟩
  rintro _ s1 ⟨_, hs1⟩
  refine ends_look fun s2 hs2 => ?_
  have h2 := relied_fixed.trans _ _ _ hs1 hs2
  obtain ⟨c2, h3, h4⟩ := h2.1.grow.calls i c hc
  rw [h3]
  dsimp only
  refine ends_bind (Q := fun _ s' => s'.activeCalls = s.activeCalls) ?_ (fun _ s3 h5 => ends_look fun s4 h6 => ?_) fun e s' h => ⟨(fun h => nomatch h), fun _ _ => h⟩
  · unfold hangupActive
    split
    · refine ends_bind (ends_command relied_fixed s2) (fun ls s3 ⟨h7, _, h8⟩ => ends_bind (ends_setAnswered relied_fixed i false s3) (fun _ s4 ⟨_, h9⟩ => ?_) fun e _ h => nomatch h.1) fun e s' h => ?_
      · exact fun s5 h10 => h10.2.trans (h9.2.trans (h7.2.trans h2.2))
      · exact h.1.2.trans h2.2
    · exact h2.2
  · have h7 : s4.activeCalls = s.activeCalls := h6.2.trans h5
    rw [h4.id, if_pos (isSome_key.2 (h7 ▸ hk))]
    intro s5 h8
    have h9 : s5.activeCalls = s.activeCalls := h8.2.trans h7
    show Ends env CallsFixed _ (if _ then _ else _) _
    rw [if_pos (isSome_key.2 (h9 ▸ hk))]
    refine ⟨fun _ => ?_, fun e h => nomatch h⟩
    show dictDel s5.activeCalls c.id = _
    rw [h9]
    rfl

/-! ### The end of a call -/

/-- When the id is not in the table, no call with this id that was known before is in the table. -/
theorem gone {s s' : St} {k : Int} (h : CallsGrow s s') (ht : TableKeyed s) (hk : k ∉ s'.activeCalls.map (·.1)) {j : Nat} {c : CallObj} (hc : s.calls[j]? = some c) (hi : c.id = k) : ¬ InTable s' j := by
  obtain ⟨c', h1, h2⟩ := h.calls j c hc
  exact not_in_table (h.table ht) h1 (by rw [h2.id, hi]; exact hk)

theorem ends_lookUp {α : Type} {Q : Except PyErr α → St → Prop} {f : Nat → Prog α} {k : Int} {s : St} (h : ∀ s' i, R s s' → dictGet s'.activeCalls k = some i → Ends env R Q (f i) s')
    (hn : ∀ s', R s s' → dictGet s'.activeCalls k = none → Q (.error .keyError) s') : Ends env R Q (lookUp k >>= f) s := by
  intro s' hs
  show Ends env R Q ((match dictGet s'.activeCalls k with | some i => pure i | none => raise .keyError : Prog Nat) >>= f) s'
  cases hg : dictGet s'.activeCalls k with
  | some i => exact h s' i hs hg
  | none => exact hn s' hs hg

theorem ends_endCall {k : Int} (hk : k ≠ 0) {s : St} (ht : TableKeyed s) :
    Ends env CallsGrow (fun r s' => (r = .ok () ∨ r = .error .keyError) ∧ ∀ (j : Nat) (c : CallObj), s.calls[j]? = some c → c.id = k → ¬ InTable s' j) (endCall (some k)) s := by
  unfold endCall
  dsimp only
  rw [if_pos hk]
  refine ends_look fun s1 h1 => ?_
  split
  · refine ends_lookUp (fun s2 i h2 _ => ?_) fun s2 h2 hg => ⟨.inr rfl, fun j c hc hi => gone (h1.trans h2) ht (dictGet_none.1 hg) hc hi⟩
    have h12 := h1.trans h2
    refine ends_bind (ends_setAnswered relied_grow i false s2) (fun _ s3 ⟨_, h3⟩ => ?_) fun e _ h => nomatch h.1
    refine ends_lookUp (fun s4 i' h4 _ => ?_) fun s4 h4 hg => ⟨.inr rfl, fun j c hc hi => gone (h12.trans (h3.trans h4)) ht (dictGet_none.1 hg) hc hi⟩
    have h14 := h12.trans (h3.trans h4)
    refine ends_bind (Q := fun r s' => r = .ok () ∧ CallsGrow s s') (fun s5 h5 => ⟨rfl, ?_⟩) (fun _ s6 ⟨_, h6⟩ s7 h7 => ?_) fun e _ h => nomatch h.1
    · exact (h14.trans h5).trans (grow_modify fun _ => ⟨rfl, rfl, rfl, rfl, rfl, rfl, (nomatch ·), id⟩)
    · have : ∀ (j : Nat) (c : CallObj), s.calls[j]? = some c → c.id = k → ¬ InTable { s7 with activeCalls := dictDel s7.activeCalls k } j := fun j c hc hi =>
        gone ((h6.trans h7).trans grow_remove) ht del_key hc hi
      show Ends env CallsGrow _ (if _ then _ else _) _
      split
      · exact ⟨.inl rfl, this⟩
      · exact ⟨.inr rfl, this⟩
  · rename_i hn
    exact ⟨.inl rfl, fun j c hc hi => gone h1 ht (fun h => hn (isSome_key.2 h)) hc hi⟩

/-- When the others neither start nor end calls. -/
theorem ends_endCall_fixed {k : Int} (hk : k ≠ 0) {s : St} (ht : TableKeyed s) {i : Nat} (hi : (k, i) ∈ s.activeCalls) :
    Ends env CallsFixed (fun r s' => r = .ok () ∧ s'.activeCalls = s.activeCalls.filter (·.1 ≠ k) ∧ ∃ c, s'.calls[i]? = some c ∧ c.active = false) (endCall (some k)) s := by
  have get : ∀ s' : St, s'.activeCalls = s.activeCalls → dictGet s'.activeCalls k = some i := fun s' h => by rw [h]; exact dictGet_of_mem ht.1 hi
  unfold endCall
  dsimp only
  rw [if_pos hk]
  refine ends_look fun s1 h1 => ?_
  rw [if_pos (by rw [get s1 h1.2]; rfl)]
  refine ends_lookUp (fun s2 i' h2 _ => ?_) fun s2 h2 hg => by rw [get s2 (h2.2.trans h1.2)] at hg; cases hg
  have h12 := relied_fixed.trans _ _ _ h1 h2
  refine ends_bind (ends_setAnswered relied_fixed i' false s2) (fun _ s3 ⟨_, h3⟩ => ?_) fun e _ h => nomatch h.1
  have h13 := relied_fixed.trans _ _ _ h12 h3
  refine ends_lookUp (fun s4 i' h4 hg => ?_) fun s4 h4 hg => by rw [get s4 (h4.2.trans h13.2)] at hg; cases hg
  have h14 := relied_fixed.trans _ _ _ h13 h4
  rw [get s4 h14.2] at hg
  cases hg
  obtain ⟨c, hc, _⟩ := ht.2 k i hi
  refine ends_bind (Q := fun r s' => r = .ok () ∧ s'.activeCalls = s.activeCalls ∧ ∃ c, s'.calls[i]? = some c ∧ c.active = false) (fun s5 h5 => ?_) (fun _ s6 ⟨_, h6, h7⟩ s7 h8 => ?_) fun e _ h => nomatch h.1
  · have h15 := relied_fixed.trans _ _ _ h14 h5
    obtain ⟨c', h6, _⟩ := h15.1.grow.calls i c hc
    exact ⟨rfl, h15.2, _, quiet_modify h6, rfl⟩
  · have h9 := h8.2.trans h6
    show Ends env CallsFixed _ (if _ then _ else _) _
    rw [if_pos (by rw [get s7 h9]; rfl)]
    obtain ⟨c, h10, h11⟩ := h7
    obtain ⟨c', h12, h13⟩ := h8.1.grow.calls i c h10
    refine ⟨rfl, ?_, c', h12, ?_⟩
    · show dictDel s7.activeCalls k = _
      rw [h9]; rfl
    · cases hx : c'.active with
      | false => rfl
      | true => rw [h13.active hx] at h11; cases h11

/-! ### Rings, dialling, answering -/

/-- An incoming call with this number. -/
def Rings (s : St) (n : Option PyStr) (i : Nat) : Prop := ∃ c, s.calls[i]? = some c ∧ c.incoming = true ∧ c.number = n

theorem Rings.later {a b : St} (h : CallsGrow a b) {n : Option PyStr} {i : Nat} (hr : Rings a n i) : Rings b n i := by
  obtain ⟨c, h1, h2, h3⟩ := hr
  obtain ⟨c', h4, h5⟩ := h.calls i c h1
  exact ⟨c', h4, h5.incoming.trans h2, h5.number.trans h3⟩

theorem ends_ringLoop (n : Option PyStr) (size : Nat) : ∀ (is : List (Int × Nat)) (call : Option Nat) (s : St), (∀ i, call = some i → Rings s n i) →
    Ends env CallsGrow (Good fun r s' => CallsGrow s s' ∧ ∀ i, r = some i → Rings s' n i) (ringLoop n size is call) s
  | [], call, s, h => by
    refine ends_then (Q := fun _ s' => CallsGrow s s') (ends_look fun s1 h1 => ?_) fun _ s1 h1 => ⟨h1, fun i hi => (h i hi).later h1⟩
    split
    · exact h1
    · exact trivial
  | (k, i) :: is, call, s, h => by
    refine ends_then (Q := fun _ s' => CallsGrow s s') (ends_look fun s1 h1 => ?_) fun _ s1 h1 => ends_look fun s2 h2 => ?_
    · split
      · exact h1
      · exact trivial
    have h12 := h1.trans h2
    have next : Ends env CallsGrow (Good fun r s' => CallsGrow s s' ∧ ∀ i, r = some i → Rings s' n i) (ringLoop n size is call) s2 :=
      ends_mono (ends_ringLoop n size is call s2 fun i hi => (h i hi).later h12) fun r s' h => by
        cases r with
        | error e => trivial
        | ok r => exact ⟨h12.trans h.1, h.2⟩
    cases hc : s2.calls[i]? with
    | none => exact next
    | some c =>
      dsimp only
      split
      · rename_i hn
        split
        · rename_i hi
          refine ends_then (Q := fun _ s' => CallsGrow s2 s') (ends_mono (ends_still relied_grow (keeps_countRing relied_grow.stable i) s2) fun r s' h => ?_) fun _ s3 h3 => ?_
          · cases r with
            | error e => trivial
            | ok r => exact h
          · refine ends_mono (ends_ringLoop n size is (some i) s3 fun j hj => ?_) fun r s' h => ?_
            · cases hj
              exact Rings.later h3 ⟨c, hc, hi, hn⟩
            · cases r with
              | error e => trivial
              | ok r => exact ⟨(h12.trans h3).trans h.1, h.2⟩
        · exact trivial
      · exact next

/-- The callback got a call. -/
def Told (s : St) (n : Option PyStr) (s' : St) : Prop := ∃ i cb, s.callbacks <:+ cb ∧ .incomingCall i :: cb <:+ s'.callbacks ∧ Rings s' n i

theorem ends_incoming {l : PyStr} {rest : List PyStr} {n t : Option PyStr} {s : St} (hn : Caller s rest n t) :
    Ends env CallsGrow (Good fun _ s' => Told s n s') (handleIncomingCall (l :: rest)) s := by
  have tell : ∀ i s1, CallsGrow s s1 → Rings s1 n i → Ends env CallsGrow (Good fun _ s' => Told s n s') (callback (.incomingCall i)) s1 := by
    intro i s1 h1 h2 s2 h3
    exact ⟨i, s2.callbacks, (h1.trans h3).grows.callbacks, List.suffix_rfl, (h2.later h3)⟩
  refine ends_then (Q := fun _ s' => CallsGrow s s') (ends_mono (ends_still relied_grow (keeps_ringType relied_grow.stable l) s) fun r s' h => ?_) fun ty s1 h1 => ?_
  · cases r with
    | error e => trivial
    | ok r => exact h
  refine ends_look fun s2 h2 => ends_look fun s3 h3 => ?_
  have h12 := h1.trans h2
  have hcall : (callerOf s2 rest).1 = n := by
    rw [callerOf_congr h12.clip]
    exact (caller_unique (callerOf_spec s rest) hn).1
  rw [hcall]
  refine ends_then (ends_ringLoop n _ _ none s3 fun i hi => nomatch hi) fun r s4 ⟨h4, h5⟩ => ?_
  have h14 := (h12.trans h3).trans h4
  cases r with
  | some i => exact tell i s4 h14 (h5 i rfl)
  | none =>
    refine ends_look fun s5 h6 => ends_then (Q := fun _ s' => CallsGrow s s') ?_ fun ct s6 h7 => ?_
    · cases ty with
      | none => exact h14.trans h6
      | some t =>
        show Ends env CallsGrow _ (if _ then _ else _) _
        split
        · exact h14.trans h6
        · exact trivial
    · refine ends_then (Q := fun i s' => CallsGrow s s' ∧ Rings s' n i) (fun s7 h8 => ⟨(h7.trans h8).trans (stay_register rfl).grow, ?_⟩) fun i s8 ⟨h9, h10⟩ => tell i s8 h9 h10
      exact ⟨_, List.getElem?_concat_length, rfl, rfl⟩

/-- The command was written, and there is a new call. -/
def Dialled (s : St) (n : PyStr) (s' : St) : Prop :=
  (∃ l, s.log <:+ l ∧ (py!"ATD" ++ n ++ py!";\r") :: l <:+ s'.log) ∧ ∃ i c, s.calls.length ≤ i ∧ s'.calls[i]? = some c ∧ c.incoming = false ∧ c.number = some n

theorem ends_dial (n : PyStr) (cb : Bool) (s : St) : Ends env CallsGrow (Good fun _ s' => Dialled s n s') (dialNow n cb) s := by
  have hcmd : atdCmd n ++ [13] = py!"ATD" ++ n ++ py!";\r" := by simp [atdCmd]
  have fin : ∀ s1 l, CallsGrow s s1 → s.log <:+ l → (py!"ATD" ++ n ++ py!";\r") :: l <:+ s1.log → Ends env CallsGrow (Good fun _ s' => Dialled s n s')
      (do let _ ← registerNext { incoming := false, id := 0, type := some 0, number := some n, callback := cb }) s1 := by
    intro s1 l h1 h2 h3
    refine ends_then (Q := fun i s' => CallsGrow s1 s' ∧ s.calls.length ≤ i ∧ ∃ c, s'.calls[i]? = some c ∧ c.incoming = false ∧ c.number = some n)
      (ends_look fun s2 h4 s3 h5 => ⟨(h4.trans h5).trans (stay_register rfl).grow, ?_, _, List.getElem?_concat_length, rfl, rfl⟩) fun i s2 h4 => ?_
    · exact calls_length ((h1.trans h4).trans h5)
    · exact ⟨⟨l, h2, h3.trans h4.1.grows.log⟩, i, h4.2.2.choose, h4.2.1, h4.2.2.choose_spec⟩
  refine ends_look fun s1 h1 => ?_
  split
  · refine ends_then (Q := fun _ s' => CallsGrow s1 s' ∧ ∃ l, s1.log <:+ l ∧ (py!"ATD" ++ n ++ py!";\r") :: l <:+ s'.log) (ends_mono (ends_command relied_grow s1) fun r s' h => ?_)
      fun _ s2 ⟨h2, l, h3, h4⟩ => fin s2 l (h1.trans h2) (h1.grows.log.trans h3) h4
    cases r with
    | error e => trivial
    | ok r =>
      obtain ⟨_, l, h5, _, _, h6⟩ := h.2.2
      exact ⟨h.1, l, h5, hcmd ▸ h6⟩
  · refine ends_then (Q := fun _ s' => CallsGrow s1 s' ∧ ∃ l, s1.log <:+ l ∧ (py!"ATD" ++ n ++ py!";\r") :: l <:+ s'.log) (ends_change fun s2 h2 => ?_)
      fun _ s2 ⟨h2, l, h3, h4⟩ => fin s2 l (h1.trans h2) (h1.grows.log.trans h3) h4
    have hw : CallsStay s2 { s2 with log := (atdCmd n ++ [13]) :: s2.log } := stay_same ⟨List.suffix_cons _ _, List.suffix_rfl, List.suffix_rfl⟩ rfl rfl rfl rfl
    exact ⟨h2.trans hw.grow, s2.log, h2.grows.log, hcmd ▸ List.suffix_rfl⟩

theorem ends_answer {i : Nat} {c : CallObj} {s : St} (hc : s.calls[i]? = some c) (hi : c.incoming = true) :
    Ends env CallsGrow (Good fun _ s' => ∃ c, s'.calls[i]? = some c ∧ c.ringing = false) (answer i) s := by
  refine ends_look fun s1 h1 => ?_
  obtain ⟨c1, h2, h3⟩ := h1.calls i c hc
  rw [h2]
  dsimp only
  split
  · refine ends_then (Q := fun _ s' => CallsGrow s1 s') (ends_mono (ends_command relied_grow s1) fun r s' h => ?_) fun _ s2 h4 => ?_
    · cases r with
      | error e => trivial
      | ok r => exact h.1
    · refine ends_then (Q := fun _ s' => ∃ c, s'.calls[i]? = some c ∧ c.ringing = false) (ends_change fun s3 h5 => ?_) fun _ s3 ⟨c3, h6, h7⟩ => ?_
      · obtain ⟨c3, h6, _⟩ := (h4.trans h5).calls i c1 h2
        exact ⟨_, quiet_modify h6, rfl⟩
      · refine ends_mono (ends_setAnswered relied_grow i true s3) fun r s' h => ?_
        cases r with
        | error e => trivial
        | ok r =>
          obtain ⟨c4, h8, h9⟩ := h.2.calls i c3 h6
          refine ⟨c4, h8, ?_⟩
          cases hx : c4.ringing with
          | false => rfl
          | true => rw [h9.ringing hx] at h7; cases h7
  · rename_i hn
    refine ⟨c1, h2, ?_⟩
    cases hx : c1.ringing with
    | false => rfl
    | true => exact absurd ⟨h3.incoming.trans hi, hx⟩ hn

end Prog
end Gsm
