import Verif.Lemmas.ThreadTrace
/-! # What dial_polling_demo.py writes -/
namespace Gsm
open M Spec

variable {env : Env}

namespace Prog

variable {R : St → St → Prop}

theorem attempts_nil (t : PyStr) : Attempts t [] := ⟨(fun _ h => nomatch h), (fun _ h => nomatch h)⟩

theorem tones_text (base : PyStr) : ∃ cmd, dtmfCmd base demoTones = .ok cmd ∧ cmd ++ [13] = tonesText base := by
  refine ⟨py!"AT" ++ [59].intercalate (demoTones.map fun t => base ++ [t]), ?_, rfl⟩
  simp [dtmfCmd, demoTones, pyJoin, List.intercalate, List.intersperse]

theorem base_text (s : St) (c : CallObj) : TonesText c.id (tonesText (dtmfBase s c)) := by
  exact ⟨s.dtmfHuawei, rfl⟩

theorem traces_isActive {α : Type} {I : List (PyStr × Reply) → Prop} {Q : List (PyStr × Reply) → Except PyErr α → St → Prop} {acc : List (PyStr × Reply)} {i : Nat} {c : CallObj} {f : Bool → Prog α}
    {s : St} (hR : Relied R) (hI : I acc) (hc : s.calls[i]? = some c) (h : ∀ s' c', R s s' → s'.calls[i]? = some c' → SameCall c c' → Traces env R I Q acc (f c'.active) s') :
    Traces env R I Q acc (isActive i >>= f) s := by
  refine ⟨hI, fun s1 h1 => ?_⟩
  obtain ⟨c1, h2, h3⟩ := (hR.grow _ _ h1).calls i c hc
  have := h s1 c1 h1 h2 h3
  show Traces env R I Q acc (f (match s1.calls[i]? with | some c => c.active | none => false)) s1
  rw [h2]
  exact this

theorem traces_isAnswered {α : Type} {I : List (PyStr × Reply) → Prop} {Q : List (PyStr × Reply) → Except PyErr α → St → Prop} {acc : List (PyStr × Reply)} {i : Nat} {c : CallObj} {f : Bool → Prog α}
    {s : St} (hR : Relied R) (hI : I acc) (hc : s.calls[i]? = some c) (h : ∀ s' c', R s s' → s'.calls[i]? = some c' → SameCall c c' → Traces env R I Q acc (f c'.answered) s') :
    Traces env R I Q acc (isAnswered i >>= f) s := by
  refine ⟨hI, fun s1 h1 => ?_⟩
  obtain ⟨c1, h2, h3⟩ := (hR.grow _ _ h1).calls i c hc
  have := h s1 c1 h1 h2 h3
  show Traces env R I Q acc (f (match s1.calls[i]? with | some c => c.answered | none => false)) s1
  rw [h2]
  exact this

/-- The tones. -/
theorem traces_tones {i : Nat} {c : CallObj} {s : St} (hR : Relied R) (hc : s.calls[i]? = some c) :
    Traces env R (TonesThenHangup c.id) (fun a _ _ => ∃ t, TonesText c.id t ∧ Attempts t a) [] (sendDtmfTone i demoTones) s := by
  have h0 : TonesThenHangup c.id [] := ⟨_, [], [], rfl, ⟨false, rfl⟩, attempts_nil _, attempts_nil _⟩
  refine ⟨h0, fun s1 h1 => ?_⟩
  obtain ⟨c1, h2, h3⟩ := (hR.grow _ _ h1).calls i c hc
  show Traces env R _ _ [] (match s1.calls[i]? with | none => pure () | some c => if c.answered then _ else raise .invalidState : Prog Unit) s1
  rw [h2]
  dsimp only
  split
  · obtain ⟨cmd, h4, h5⟩ := tones_text (dtmfBase s1 c1)
    have h6 : TonesText c.id (cmd ++ [13]) := by rw [h5, ← h3.id]; exact base_text s1 c1
    rw [h4]
    refine traces_except (Q := fun a _ _ => ∃ t, TonesText c.id t ∧ Attempts t a) ?_ (fun _ _ _ _ h => h) (fun _ _ _ h _ h' => ⟨h, h'⟩) fun _ _ _ _ _ h => h
    refine traces_bind (traces_write (acc := []) fun l hl => ⟨_, l, [], by simp, h6, hl, attempts_nil _⟩) (fun acc _ s2 hi ⟨l, h7, h8, _⟩ => ⟨hi, ?_⟩) fun acc _ s2 hi ⟨l, h7, h8, _⟩ => ?_
    · exact ⟨_, h6, by rw [h7]; exact h8⟩
    · exact ⟨_, h6, by rw [h7]; exact h8⟩
  · exact ⟨h0, _, ⟨false, rfl⟩, attempts_nil _⟩

theorem traces_hangupActive {i : Nat} {c : CallObj} {id : Int} {s : St} {t : PyStr} {acc : List (PyStr × Reply)} (ht : TonesText id t) (ha : Attempts t acc) :
    Traces env R (TonesThenHangup id) (fun a r _ => TonesThenHangup id a ∧ (c.active = true → r = .ok () → ∃ x ∈ a, x.1 = py!"ATH\r" ∧ SaysYes x.2)) acc (hangupActive i c) s := by
  have h0 : TonesThenHangup id acc := ⟨t, acc, [], by simp, ht, ha, attempts_nil _⟩
  unfold hangupActive
  split
  · refine traces_bind (traces_write (acc := acc) fun l hl => ⟨t, acc, l, rfl, ht, ha, hl⟩) (fun a _ s2 hi ⟨l, h7, _, h8⟩ => ?_) fun a _ s2 hi _ => ⟨hi, fun _ h => nomatch h⟩
    obtain ⟨x, hx, hy⟩ := h8 _ rfl
    refine traces_bind (traces_silent (silent_setAnswered i false) hi) (fun a' _ s3 hi' h9 => ?_) fun a _ s2 hi _ => ⟨hi, fun _ h => nomatch h⟩
    refine traces_mono (traces_silent (silent_changeCall i _) hi') fun a'' _ _ hi'' h10 => ⟨hi'', fun _ _ => ⟨x, ?_, hy⟩⟩
    rw [h10, h9, h7]
    exact List.mem_append_right _ hx
  · rename_i hn
    exact ⟨h0, h0, fun h => absurd h hn⟩

/-- When it has ended without an exception the call is over. If it was active, and the others end no calls, the modem was told. -/
theorem traces_hangup {i : Nat} {c : CallObj} {id : Int} {s : St} {t : PyStr} {acc : List (PyStr × Reply)} (hR : Relied R) (hk : TableKeyed s) (hc : s.calls[i]? = some c) (ht : TonesText id t)
    (ha : Attempts t acc) : Traces env R (TonesThenHangup id) (fun a r s' => TonesThenHangup id a ∧ (r = .ok () → Inactive s' i ∧
      ((∀ a b, R a b → CallsStay a b) → c.active = true → ∃ x ∈ a, x.1 = py!"ATH\r" ∧ SaysYes x.2))) acc (hangup i) s := by
  have h0 : TonesThenHangup id acc := ⟨t, acc, [], by simp, ht, ha, attempts_nil _⟩
  have hend := ends_rely (R' := R) (fun _ _ h => hR.grow _ _ h) (ends_hangup (env := env) hk hc)
  suffices h : Traces env R (TonesThenHangup id) (fun a r s' => TonesThenHangup id a ∧ (r = .ok () → ((∀ a b, R a b → CallsStay a b) → c.active = true → ∃ x ∈ a, x.1 = py!"ATH\r" ∧ SaysYes x.2)))
      acc (hangup i) s from traces_mono (traces_ends h hend) fun a r s' hi ⟨⟨h1, h2⟩, h3⟩ => ⟨h1, fun hr => ⟨(h3 (.inl hr)).1.imp fun c h => ⟨h.1, h.2.1⟩, h2 hr⟩⟩
  refine traces_bind (traces_ends (traces_silent (silent_changeCall i _) h0) (ends_still hR (keeps_stopRinging hR.stable i) s)) (fun a _ s1 hi ⟨h1, h2⟩ => ?_) fun a _ _ hi _ => ⟨hi, fun h => nomatch h⟩
  subst h1
  refine ⟨h0, fun s2 h3 => ?_⟩
  have h4 := hR.trans _ _ _ h2 h3
  obtain ⟨c2, h5, h6⟩ := (hR.grow _ _ h4).calls i c hc
  show Traces env R _ _ a (match s2.calls[i]? with | none => pure () | some c => do hangupActive i c; removeIfThere c.id : Prog Unit) s2
  rw [h5]
  dsimp only
  refine traces_bind (traces_hangupActive ht ha) (fun a' _ s3 hi ⟨_, h7⟩ => ?_) fun a _ _ hi _ => ⟨hi, fun h => nomatch h⟩
  refine traces_mono (traces_silent (silent_removeIfThere _) hi) fun a'' _ _ hi'' h8 => ⟨hi'', fun _ hs hac => ?_⟩
  obtain ⟨c2', h9, h10⟩ := (hs _ _ h4).active i c hc hac
  rw [h5] at h9
  cases h9
  rw [h8]
  exact h7 h10 rfl

/-- One round in which the call is found answered. -/
theorem traces_playAndHangup {i : Nat} {c : CallObj} {s : St} (hR : Relied R) (hk : TableKeyed s) (hc : s.calls[i]? = some c) :
    Traces env R (TonesThenHangup c.id) (fun a r s' => TonesThenHangup c.id a ∧ (r = .ok () → Inactive s' i ∧
      ((∀ a b, R a b → CallsStay a b) → c.active = true → ∃ x ∈ a, x.1 = py!"ATH\r" ∧ SaysYes x.2))) [] (playAndHangup i) s := by
  have h0 : TonesThenHangup c.id [] := ⟨_, [], [], rfl, ⟨false, rfl⟩, attempts_nil _, attempts_nil _⟩
  refine traces_atLast (Q := fun a _ s' => (∃ t, TonesText c.id t ∧ Attempts t a) ∧ R s s') ?_ fun a r s1 hi ⟨⟨t, ht, ha⟩, h1⟩ => ?_
  · refine traces_except (Q := fun a _ s' => (∃ t, TonesText c.id t ∧ Attempts t a) ∧ R s s') ?_ (fun _ _ _ _ h => h) (fun _ _ _ h _ h' => ⟨h, h'⟩) fun _ _ _ _ _ h => h
    refine traces_isActive hR h0 hc fun s1 c1 h1 h2 h3 => ?_
    cases c1.active with
    | true =>
      have ht := traces_tones (env := env) hR h2
      rw [h3.id] at ht
      exact traces_mono (traces_ends ht (ends_still hR (keeps_dtmf hR.stable i _) s1)) fun a r s' hi h => ⟨h.1, hR.trans _ _ _ h1 h.2⟩
    | false => exact ⟨h0, ⟨_, ⟨false, rfl⟩, attempts_nil _⟩, h1⟩
  · obtain ⟨c1, hc1, _⟩ := (hR.grow _ _ h1).calls i c hc
    refine traces_isActive hR hi hc1 fun s2 c2 h2 h4 _ => ?_
    have h3 := hR.trans _ _ _ h1 h2
    cases hac : c2.active with
    | true =>
      refine traces_mono (traces_hangup hR ((hR.grow _ _ h3).table hk) h4 ht ha) fun a' r' s' hi' ⟨h6, h7⟩ => ⟨h6, fun hr => ?_⟩
      have hr' : r' = .ok () := by
        cases r' with
        | ok _ => rfl
        | error e => cases hr
      exact ⟨(h7 hr').1, fun hs _ => (h7 hr').2 hs hac⟩
    | false =>
      refine ⟨hi, hi, fun _ => ⟨⟨c2, h4, hac⟩, fun hs hx => ?_⟩⟩
      obtain ⟨c2', h9, h10⟩ := (hs _ _ h3).active i c hc hx
      rw [h4] at h9
      cases h9
      rw [hac] at h10
      cases h10

/-- The loop when the call is over. -/
theorem traces_over {i : Nat} {id : Int} {s : St} {acc : List (PyStr × Reply)} (hR : Relied R) (hi : TonesThenHangup id acc) (ho : Inactive s i) :
    ∀ n, Traces env R (TonesThenHangup id) (fun a r s' => a = acc ∧ (r = .ok () → Inactive s' i)) acc (dialLoop i n) s
  | 0 => ⟨hi, rfl, fun h => nomatch h⟩
  | n + 1 => by
    obtain ⟨c, h2, h3⟩ := ho
    refine traces_isActive hR hi h2 fun s1 c1 h1 h4 h5 => ?_
    have h6 : c1.active = false := by
      cases hx : c1.active with
      | false => rfl
      | true => rw [h5.active hx] at h3; cases h3
    rw [h6]
    exact ⟨hi, rfl, fun _ => ⟨c1, h4, h6⟩⟩

theorem traces_loop {i : Nat} (hR : Relied R) : ∀ (n : Nat) (c : CallObj) (s : St), TableKeyed s → s.calls[i]? = some c →
    Traces env R (TonesThenHangup c.id) (fun a r s' => r = .ok () → Inactive s' i ∧
      ((∀ a b, R a b → CallsStay a b) → c.active = true → ∃ x ∈ a, x.1 = py!"ATH\r" ∧ SaysYes x.2)) [] (dialLoop i n) s
  | 0, c, s, _, _ => ⟨⟨_, [], [], rfl, ⟨false, rfl⟩, attempts_nil _, attempts_nil _⟩, fun h => nomatch h⟩
  | n + 1, c, s, hk, hc => by
    have h0 : TonesThenHangup c.id [] := ⟨_, [], [], rfl, ⟨false, rfl⟩, attempts_nil _, attempts_nil _⟩
    have still : ∀ s2 c2, R s s2 → s2.calls[i]? = some c2 → (∀ a b, R a b → CallsStay a b) → c.active = true → c2.active = true := by
      intro s2 c2 h4 h5 hs hac
      obtain ⟨c2', h6, h7⟩ := (hs _ _ h4).active i c hc hac
      rw [h5] at h6
      cases h6
      exact h7
    refine traces_isActive hR h0 hc fun s1 c1 h1 h2 h3 => ?_
    cases hac : c1.active with
    | false =>
      refine ⟨h0, fun _ => ⟨⟨c1, h2, hac⟩, fun hs hx => ?_⟩⟩
      rw [still s1 c1 h1 h2 hs hx] at hac
      cases hac
    | true =>
      refine traces_isAnswered hR h0 h2 fun s2 c2 h4 h6 h7' => ?_
      have h5 := hR.trans _ _ _ h1 h4
      have h7 := h3.trans h7'
      have hk2 := (hR.grow _ _ h5).table hk
      cases c2.answered with
      | true =>
        have hp := traces_playAndHangup (env := env) hR hk2 h6
        rw [h7.id] at hp
        refine traces_bind hp (fun a _ s3 hi ⟨_, h8⟩ => ?_) fun a e _ hi _ => fun h => nomatch h
        obtain ⟨h9, h10⟩ := h8 rfl
        refine traces_mono (traces_over hR hi h9 n) fun a' r s' _ ⟨h11, h12⟩ hr => ⟨h12 hr, fun hs hx => ?_⟩
        rw [h11]
        exact h10 hs (still s2 c2 h5 h6 hs hx)
      | false =>
        have := traces_loop (i := i) hR n c2 s2 hk2 h6
        rw [h7.id] at this
        exact traces_mono this fun a r s' _ h hr => ⟨(h hr).1, fun hs hx => (h hr).2 hs (still s2 c2 h5 h6 hs hx)⟩

end Prog
end Gsm
