import Verif.Lemmas.TextStoreOps
import Verif.Lemmas.StoreConnect
/-! # A modem that keeps messages, in both modes: `connect` -/
namespace Gsm.InModes
open M Spec List

variable {env : Env} {shows : Display} {mode : List PyStr → Bool} {shelf : List PyStr → Shelf} {came : List PyStr → List HeldSms}

/-- Nothing is taken off the modem and nothing is handed over. -/
def AllStay (shows : Display) (shelf : List PyStr → Shelf) (came : List PyStr → List HeldSms) (s s' : St) : Prop :=
  (shelf s.log).SoundIn shows → (∃ new, s'.log = new ++ s.log) ∧ (shelf s'.log).SoundIn shows ∧ DeliveredIn shows shelf came s s' [] ∧ s'.smsTextMode = s.smsTextMode ∧ (s.alive = true → s'.alive = true)

theorem stay_pre : IsPre (AllStay shows shelf came) where
  refl := fun s hs => ⟨⟨[], rfl⟩, hs, ⟨rfl, (fun p hp => absurd hp (by simp)), balance_refl _⟩, rfl, id⟩
  trans := by
    intro a b c h1 h2 hs
    obtain ⟨⟨n1, e1⟩, s1, d1, m1, a1⟩ := h1 hs
    obtain ⟨⟨n2, e2⟩, s2, d2, m2, a2⟩ := h2 s1
    exact ⟨⟨n2 ++ n1, by rw [e2, e1]; simp⟩, s2, delivered_trans e1 e2 d1 d2, m2.trans m1, a2 ∘ a1⟩

theorem sparing_in {c : PyStr} (h : Sparing c) (t : Bool) : (∀ i, ¬ BidsIn t c (.delete i)) ∧ ∀ f, ¬ BidsIn t c (.clear f) := by
  constructor
  · intro i hi
    cases hi with
    | same hi _ => exact (sparing_bids h).1 i hi
  · intro f hf
    cases hf with
    | same hf _ => exact (sparing_bids h).2 f hf

theorem stay_write (H : KeepingIn shows env.reply mode shelf came) {data term : PyStr} {pe : Bool} (h : Sparing (data ++ term)) : Steps env (AllStay shows shelf came) (write data pe term) := by
  refine Steps.write fun s k w => ?_
  induction k with
  | zero => exact fun hs => ⟨⟨[], rfl⟩, hs, ⟨rfl, (fun p hp => absurd hp (by simp)), balance_refl _⟩, rfl, id⟩
  | succ k ih =>
    refine stay_pre.trans ih fun hs => ?_
    exact ⟨⟨[data ++ term], rfl⟩, keep_sound H _ hs, ⟨rfl, (fun p hp => absurd hp (by simp)), balance_other H (sparing_in h _).1 (sparing_in h _).2⟩, rfl, id⟩

theorem allStay_same {s s' : St} (h1 : s'.log = s.log) (h2 : s'.smsTextMode = s.smsTextMode) (h4 : handedOver s' = handedOver s) (h5 : s'.alive = s.alive ∨ s'.alive = true) : AllStay shows shelf came s s' :=
  fun hs => ⟨⟨[], by simp [h1]⟩, by rw [h1]; exact hs, ⟨by simp [h4], (fun p hp => absurd hp (by simp)), by rw [h1]; exact balance_refl _⟩, h2, fun h => h5.elim (fun e => e.trans h) id⟩

attribute [local irreducible] AllStay

/-- Decomposes a program. -/
macro "stayingIn" h:term : tactic => `(tactic| (steps stay_pre) <;> try first
  | exact stay_write $h (by rintro ⟨t, ht⟩; simp [cscaCmd] at ht)
  | exact allStay_same rfl rfl rfl (by first | exact .inl rfl | exact .inr rfl))

theorem stay_connect (H : KeepingIn shows env.reply mode shelf came) (pin : Option PyStr) : Steps env (AllStay shows shelf came) (connect pin) := by
  have h1 : Steps env (AllStay shows shelf came) (unlockSim pin) := by unfold unlockSim; stayingIn H
  have h2 : ∀ b, Steps env (AllStay shows shelf came) (connectRest pin b) := by intro b; unfold connectRest; stayingIn H
  have h3 : Steps env (AllStay shows shelf came) (connectBasics pin) := by unfold connectBasics; stayingIn H <;> exact h2 _
  have h4 : Steps env (AllStay shows shelf came) supportedCommands := by unfold supportedCommands; stayingIn H
  have h5 : ∀ cs, Steps env (AllStay shows shelf came) (identifyCommands cs) := by intro cs; unfold identifyCommands; stayingIn H
  have h6 : ∀ h, Steps env (AllStay shows shelf came) (identifyWind h) := by intro cs; unfold identifyWind; stayingIn H
  have h7 : ∀ h, Steps env (AllStay shows shelf came) (identifyOther h) := by intro cs; unfold identifyOther manufacturer; stayingIn H
  have h8 : Steps env (AllStay shows shelf came) connectIdentify := by
    unfold connectIdentify; stayingIn H <;> first | exact h5 _ | exact h6 _ | exact h7 _
  have h9 : ∀ h cs, Steps env (AllStay shows shelf came) (connectCallTable h cs) := by
    intro h cs
    unfold connectCallTable
    refine Steps.modify fun s => ?_
    repeat' split
    all_goals exact allStay_same rfl rfl rfl (by first | exact .inl rfl | exact .inr rfl)
  have h10 : Steps env (AllStay shows shelf came) getSmsc := by unfold getSmsc; stayingIn H
  have h11 : ∀ n, Steps env (AllStay shows shelf came) (setSmsc n) := by intro n; unfold setSmsc; stayingIn H
  have h12 : Steps env (AllStay shows shelf came) connectSms := by unfold connectSms; stayingIn H <;> exact h11 _
  have h13 : Steps env (AllStay shows shelf came) connectMemory := by unfold connectMemory; stayingIn H
  have h14 : Steps env (AllStay shows shelf came) connectNotifications := by unfold connectNotifications; stayingIn H
  unfold connect; stayingIn H
  exact h9 _ _

/-! ### The mode after a successful `connect` -/

/-- Neither the program nor the modem changes the mode. -/
def Steady (mode : List PyStr → Bool) (s s' : St) : Prop := s'.smsTextMode = s.smsTextMode ∧ mode s'.log = mode s.log

theorem steady_pre : IsPre (Steady mode) where
  refl := fun _ => ⟨rfl, rfl⟩
  trans := fun h1 h2 => ⟨h2.1.trans h1.1, h2.2.trans h1.2⟩

/-- Neither a reset nor a change of mode. -/
def Modest (c : PyStr) : Prop := c ≠ py!"ATZ\r" ∧ ¬ py!"AT+CMGF=" <+: c

theorem modest_in {c : PyStr} (h : Modest c) : (∀ t, ¬ BidsIn t c .reset) ∧ ∀ v, c ≠ modeCommand v := by
  refine ⟨fun t ht => ?_, fun v hv => h.2 (hv ▸ (mode_start v).1)⟩
  cases ht with
  | same ht _ =>
    cases ht
    exact h.1 rfl

theorem steady_write (H : KeepingIn shows env.reply mode shelf came) {data term : PyStr} {pe : Bool} (h : Modest (data ++ term)) : Steps env (Steady mode) (write data pe term) := by
  refine Steps.write fun s k w => ?_
  induction k with
  | zero => exact ⟨rfl, rfl⟩
  | succ k ih => exact steady_pre.trans ih ⟨rfl, keep_mode H ((modest_in h).1 _) (modest_in h).2⟩

theorem steady_same {s s' : St} (h1 : s'.log = s.log) (h2 : s'.smsTextMode = s.smsTextMode) : Steady mode s s' := ⟨h2, by rw [h1]⟩

attribute [local irreducible] Steady

/-- Decomposes a program. -/
macro "steadily" h:term : tactic => `(tactic| (steps steady_pre) <;> try first
  | exact steady_write $h ⟨by simp [cscaCmd], by rintro ⟨t, ht⟩; simp [cscaCmd] at ht⟩
  | exact steady_same rfl rfl)

theorem steady_getSmsc (H : KeepingIn shows env.reply mode shelf came) : Steps env (Steady mode) getSmsc := by unfold getSmsc; steadily H
theorem steady_setSmsc (H : KeepingIn shows env.reply mode shelf came) (n : Option PyStr) : Steps env (Steady mode) (setSmsc n) := by unfold setSmsc; steadily H
theorem steady_memory (H : KeepingIn shows env.reply mode shelf came) : Steps env (Steady mode) connectMemory := by unfold connectMemory; steadily H
theorem steady_notifications (H : KeepingIn shows env.reply mode shelf came) : Steps env (Steady mode) connectNotifications := by unfold connectNotifications; steadily H

theorem bind_ok {α β : Type} {m : M α} {f : α → M β} {s s' : St} {b : β} (h : (m >>= f) env s = (.ok b, s')) : ∃ a s1, m env s = (.ok a, s1) ∧ f a env s1 = (.ok b, s') := by
  rw [run_bind] at h
  rcases hm : m env s with ⟨_ | a, s1⟩
  · rw [hm] at h; cases h
  · rw [hm] at h; exact ⟨a, s1, rfl, h⟩

theorem mode_connectSms (H : KeepingIn shows env.reply mode shelf came) (hd : 0 < env.depth) {s s' : St} (h : connectSms env s = (.ok (), s')) : mode s'.log = s'.smsTextMode := by
  unfold connectSms at h
  obtain ⟨_, s1, -, h⟩ := bind_ok h
  obtain ⟨_, s2, hg, h⟩ := bind_ok h
  cases hg
  obtain ⟨ls, s3, hw, h⟩ := bind_ok h
  have h3 : mode s3.log = s3.smsTextMode := by
    rcases mode_write H hd s1.smsTextMode s1 with ⟨ls', h1, h2⟩ | ⟨e, h1, h2⟩
    · rw [h1] at hw
      cases hw
      exact h2
    · rw [h1] at hw
      cases hw
  have hrest : Steady mode s3 s' := by
    have hst : ∀ (m : M Unit), Steps env (Steady mode) m → m env s3 = (.ok (), s') → Steady mode s3 s' := fun m hm he => by
      have := hm.run s3
      rw [he] at this
      exact this
    refine hst _ ?_ h
    have k1 := steady_getSmsc H
    have k2 := steady_setSmsc H
    steadily H
    all_goals exact k2 _
  unfold Steady at hrest
  rw [hrest.1, hrest.2]
  exact h3

theorem mode_connect (H : KeepingIn shows env.reply mode shelf came) (hd : 0 < env.depth) {pin : Option PyStr} {s s' : St} (h : connect pin env s = (.ok (), s')) : mode s'.log = s'.smsTextMode := by
  unfold connect at h
  obtain ⟨_, s1, -, h⟩ := bind_ok h
  obtain ⟨_, s2, -, h⟩ := bind_ok h
  obtain ⟨⟨hint, cs⟩, s3, -, h⟩ := bind_ok h
  obtain ⟨_, s4, -, h⟩ := bind_ok h
  obtain ⟨_, s5, h5, h⟩ := bind_ok h
  have hm := mode_connectSms H hd h5
  obtain ⟨_, s6, h6, h⟩ := bind_ok h
  have k6 := (steady_memory H).run s5
  rw [h6] at k6
  have k7 := (steady_notifications H).run s6
  rw [h] at k7
  unfold Steady at k6 k7
  rw [k7.1, k7.2]
  show mode s6.log = s6.smsTextMode
  rw [show s6.smsTextMode = _ from k6.1, show mode s6.log = _ from k6.2]
  exact hm

theorem alive_connect (H : KeepingIn shows env.reply mode shelf came) (pin : Option PyStr) {s : St} (hs : (shelf s.log).SoundIn shows) : (connect pin env s).2.alive = true := by
  have e : (connect pin env s).2 = (connect pin env { s with alive := true }).2 := rfl
  rw [e]
  have h := (stay_connect H pin).run { s with alive := true }
  unfold AllStay at h
  exact (h hs).2.2.2.2 rfl

theorem connect_stays (H : KeepingIn shows env.reply mode shelf came) (pin : Option PyStr) {s : St} (hs : (shelf s.log).SoundIn shows) :
    (shelf (connect pin env s).2.log).SoundIn shows ∧ DeliveredIn shows shelf came s (connect pin env s).2 [] ∧ (∃ new, (connect pin env s).2.log = new ++ s.log) ∧
      (connect pin env s).2.smsTextMode = s.smsTextMode := by
  have h := (stay_connect H pin).run s
  unfold AllStay at h
  obtain ⟨h1, h2, h3, h4, -⟩ := h hs
  exact ⟨h2, h3, h1, h4⟩

theorem connect_knows (H : KeepingIn shows env.reply mode shelf came) (hd : 0 < env.depth) (pin : Option PyStr) {s : St}
    (hm : ∀ m, s.smsMemReadDelete = some m → 34 ∈ m) (hs : (shelf s.log).SoundIn shows) (hok : (connect pin env s).1 = .ok ()) : KnowsIn mode shelf (connect pin env s).2 := by
  refine ⟨alive_connect H pin hs, ?_, fun m hm' hq => absurd ((quoted_connect pin).run s hm m hm') hq.2⟩
  exact (mode_connect H hd (s := s) (pin := pin) (Prod.ext hok rfl)).symm

end Gsm.InModes
