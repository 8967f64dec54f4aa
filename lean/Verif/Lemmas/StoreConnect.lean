import Verif.Lemmas.StoreOps
import Verif.Props.ModemMemory
/-! # A modem that keeps messages: `connect` -/
namespace Gsm
open M Spec List

variable {env : Env} {shelf : List PyStr → Shelf} {came : List PyStr → List HeldSms}

/-- Nothing is taken off the modem and nothing is handed over. -/
def AllStay (shelf : List PyStr → Shelf) (came : List PyStr → List HeldSms) (s s' : St) : Prop :=
  (shelf s.log).Sound → (∃ new, s'.log = new ++ s.log) ∧ (shelf s'.log).Sound ∧ Delivered shelf came s s' [] ∧ s'.smsTextMode = s.smsTextMode

theorem stay_pre : IsPre (AllStay shelf came) where
  refl := fun s hs => ⟨⟨[], rfl⟩, hs, ⟨rfl, (fun p hp => absurd hp (by simp)), balance_refl _⟩, rfl⟩
  trans := by
    intro a b c h1 h2 hs
    obtain ⟨⟨n1, e1⟩, s1, d1, m1⟩ := h1 hs
    obtain ⟨⟨n2, e2⟩, s2, d2, m2⟩ := h2 s1
    exact ⟨⟨n2 ++ n1, by rw [e2, e1]; simp⟩, s2, delivered_trans e1 e2 d1 d2, m2.trans m1⟩

/-- It does not begin like a command that deletes. -/
def Sparing (c : PyStr) : Prop := ¬ py!"AT+CMGD=" <+: c

theorem sparing_bids {c : PyStr} (h : Sparing c) : (∀ i, ¬ Bids c (.delete i)) ∧ ∀ f, ¬ Bids c (.clear f) := by
  constructor
  · intro i hi
    cases hi with
    | @delete i _ => exact h ⟨i ++ py!",0\r", by simp⟩
  · intro f hf
    cases hf with
    | @clear f _ _ => exact h ⟨py!"1," ++ decStr f ++ py!"\r", by simp⟩

theorem stay_write (H : Keeping env.reply shelf came) {data term : PyStr} {pe : Bool} (h : Sparing (data ++ term)) : Steps env (AllStay shelf came) (write data pe term) := by
  refine Steps.write fun s k w => ?_
  induction k with
  | zero => exact fun hs => ⟨⟨[], rfl⟩, hs, ⟨rfl, (fun p hp => absurd hp (by simp)), balance_refl _⟩, rfl⟩
  | succ k ih =>
    refine stay_pre.trans ih fun hs => ?_
    exact ⟨⟨[data ++ term], rfl⟩, keep_sound H _ hs, ⟨rfl, (fun p hp => absurd hp (by simp)), balance_other H (sparing_bids h).1 (sparing_bids h).2⟩, rfl⟩

theorem allStay_same {s s' : St} (h1 : s'.log = s.log) (h2 : s'.smsTextMode = s.smsTextMode) (h4 : handedOver s' = handedOver s) : AllStay shelf came s s' :=
  fun hs => ⟨⟨[], by simp [h1]⟩, by rw [h1]; exact hs, ⟨by simp [h4], (fun p hp => absurd hp (by simp)), by rw [h1]; exact balance_refl _⟩, h2⟩

attribute [local irreducible] AllStay

/-- Decomposes a program. -/
macro "staying" h:term : tactic => `(tactic| (steps stay_pre) <;> try first
  | exact stay_write $h (by rintro ⟨t, ht⟩; simp [cscaCmd] at ht)
  | exact allStay_same rfl rfl rfl)

theorem stay_connect (H : Keeping env.reply shelf came) (pin : Option PyStr) : Steps env (AllStay shelf came) (connect pin) := by
  have h1 : Steps env (AllStay shelf came) (unlockSim pin) := by unfold unlockSim; staying H
  have h2 : ∀ b, Steps env (AllStay shelf came) (connectRest pin b) := by intro b; unfold connectRest; staying H
  have h3 : Steps env (AllStay shelf came) (connectBasics pin) := by unfold connectBasics; staying H <;> exact h2 _
  have h4 : Steps env (AllStay shelf came) supportedCommands := by unfold supportedCommands; staying H
  have h5 : ∀ cs, Steps env (AllStay shelf came) (identifyCommands cs) := by intro cs; unfold identifyCommands; staying H
  have h6 : ∀ h, Steps env (AllStay shelf came) (identifyWind h) := by intro cs; unfold identifyWind; staying H
  have h7 : ∀ h, Steps env (AllStay shelf came) (identifyOther h) := by intro cs; unfold identifyOther manufacturer; staying H
  have h8 : Steps env (AllStay shelf came) connectIdentify := by
    unfold connectIdentify; staying H <;> first | exact h5 _ | exact h6 _ | exact h7 _
  have h9 : ∀ h cs, Steps env (AllStay shelf came) (connectCallTable h cs) := by
    intro h cs
    unfold connectCallTable
    refine Steps.modify fun s => ?_
    repeat' split
    all_goals exact allStay_same rfl rfl rfl
  have h10 : Steps env (AllStay shelf came) getSmsc := by unfold getSmsc; staying H
  have h11 : ∀ n, Steps env (AllStay shelf came) (setSmsc n) := by intro n; unfold setSmsc; staying H
  have h12 : Steps env (AllStay shelf came) connectSms := by unfold connectSms; staying H <;> exact h11 _
  have h13 : Steps env (AllStay shelf came) connectMemory := by unfold connectMemory; staying H
  have h14 : Steps env (AllStay shelf came) connectNotifications := by unfold connectNotifications; staying H
  unfold connect; staying H
  exact h9 _ _

theorem connect_knows (H : Keeping env.reply shelf came) (pin : Option PyStr) {s : St} (ht : s.smsTextMode = false)
    (hm : ∀ m, s.smsMemReadDelete = some m → 34 ∈ m) (hs : (shelf s.log).Sound) :
    Knows shelf (connect pin env s).2 ∧ (shelf (connect pin env s).2.log).Sound ∧ Delivered shelf came s (connect pin env s).2 [] ∧
      ∃ new, (connect pin env s).2.log = new ++ s.log := by
  have h := (stay_connect H pin).run s
  unfold AllStay at h
  obtain ⟨h1, h2, h3, h4⟩ := h hs
  exact ⟨⟨h4.trans ht, fun m hm' hq => absurd ((quoted_connect pin).run s hm m hm') hq.2⟩, h2, h3, h1⟩

end Gsm
