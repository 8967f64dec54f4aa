import Verif.Lemmas.Several
import Verif.Lemmas.ModemFrame
import Verif.Spec.Several
import Verif.Props.ModemConnect
import Verif.Props.ModemDtmf
import Verif.Props.ModemDial
/-! # Property C90: several modems, and one modem after another -/
namespace Gsm
open M Spec

variable {env : Env}

/-! ### What is shared -/

abbrev ToneFrame : St → St → Prop := Frame (fun _ => True) fun s => (s.dtmfSupport, s.dtmfHuawei)

theorem tf_write {data term : PyStr} {pe : Bool} : Steps env ToneFrame (write data pe term) := frame_write trivial fun _ _ _ => rfl

macro "tframe" : tactic => `(tactic| (steps frame_pre) <;> try first
  | exact tf_write
  | exact frame_same rfl rfl)

theorem tf_setAnswered (i : Nat) (v : Bool) : Steps env ToneFrame (setAnswered i v) := by unfold setAnswered callback; tframe

theorem tf_atom {a b : St} (h : Atom env a b) : ToneFrame a b := by
  have hs := fun i v => tf_setAnswered (env := env) i v
  cases h with
  | cmd c k w _ => exact ⟨⟨List.replicate k c, rfl, fun _ _ => trivial⟩, rfl⟩
  | textMode v => exact Steps.run (by unfold setSmsTextMode; tframe) _
  | memory m => exact Steps.run (by unfold setSmsMemory; tframe) _
  | getSmsc => exact Steps.run (by unfold Gsm.getSmsc; tframe) _
  | setSmsc n => exact Steps.run (by unfold Gsm.setSmsc; tframe) _
  | answered i k _ => exact (hs i true).run _
  | answeredFirst i _ => exact (hs i true).run _
  | ended c x y =>
    have : Steps env ToneFrame (handleCallEnded c x y) := by unfold handleCallEnded; tframe; all_goals exact hs _ _
    exact this.run _
  | hangup i =>
    have : Steps env ToneFrame (Gsm.hangup i) := by unfold Gsm.hangup stopRinging hangupActive; tframe; all_goals exact hs _ _
    exact this.run _
  | answer i =>
    have : Steps env ToneFrame (Gsm.answer i) := by unfold Gsm.answer; tframe; all_goals exact hs _ _
    exact this.run _
  | _ => exact frame_same rfl rfl

/-- Nothing but `connect` changes the shared attributes. -/
theorem op_keeps_shared [PyUnicode] (o : Op) (s : St) : (o.run env s).2.dtmfSupport = s.dtmfSupport ∧ (o.run env s).2.dtmfHuawei = s.dtmfHuawei := by
  have h : Reach env s (o.run env s).2 := o.run_reach.run s
  generalize (o.run env s).2 = s' at h
  induction h with
  | refl s => exact ⟨rfl, rfl⟩
  | step h1 _ ih =>
    have := (tf_atom h1).2
    simp only [Prod.mk.injEq] at this
    exact ⟨ih.1.trans this.1, ih.2.trans this.2⟩

/-- The shared attributes are never switched off. -/
theorem deed_grows [PyUnicode] (d : Deed) (s : St) : (s.dtmfSupport = true → (d.run env s).2.dtmfSupport = true) ∧ (s.dtmfHuawei = true → (d.run env s).2.dtmfHuawei = true) := by
  cases d with
  | connect pin =>
    have h := (shared_connect (a := s.dtmfSupport) (h := s.dtmfHuawei) pin).run env s
    have h1 : withShared s.dtmfSupport s.dtmfHuawei s = s := by simp [withShared]
    rw [h1] at h
    have h2 : (connect pin env s).2 = withShared s.dtmfSupport s.dtmfHuawei (connect pin env s).2 := congrArg Prod.snd h
    show (_ → (connect pin env s).2.dtmfSupport = true) ∧ (_ → (connect pin env s).2.dtmfHuawei = true)
    rw [h2]
    exact ⟨fun h => by simp [withShared, h], fun h => by simp [withShared, h]⟩
  | close => exact ⟨id, id⟩
  | op o => exact ⟨fun h => by rw [← h]; exact (op_keeps_shared o s).1, fun h => by rw [← h]; exact (op_keeps_shared o s).2⟩

/-! ### Side by side -/

/-- What connects a modem among others with the same modem alone; `x`: tones are sent. -/
structure SideBySide (x : Bool) (i : Nat) (w : Several) (s : St) : Prop where
  own : ownPart (w.modems i) = ownPart s
  support : s.dtmfSupport = true → w.dtmfSupport = true
  huawei : s.dtmfHuawei = true → w.dtmfHuawei = true
  tones : x = true → w.dtmfHuawei = s.dtmfHuawei

theorem beside_view {x : Bool} {i : Nat} {w : Several} {s : St} (h : SideBySide x i w s) : w.view i = withShared w.dtmfSupport (if x then false else w.dtmfHuawei) s := by
  have h1 : w.view i = { ownPart (w.modems i) with dtmfSupport := w.dtmfSupport, dtmfHuawei := w.dtmfHuawei } := rfl
  rw [h1, h.own]
  have h2 : (w.dtmfSupport || s.dtmfSupport) = w.dtmfSupport := by have := h.support; revert this; cases w.dtmfSupport <;> cases s.dtmfSupport <;> simp
  have h3 : ((if x then false else w.dtmfHuawei) || s.dtmfHuawei) = w.dtmfHuawei := by
    have h4 := h.huawei; have h5 := h.tones; revert h4 h5; cases x <;> cases w.dtmfHuawei <;> cases s.dtmfHuawei <;> simp
  simp only [withShared, h2, h3, ownPart]

theorem several_grows [PyUnicode] (envs : Nat → Env) : ∀ (h : List (Nat × Deed)) (w : Several), w.dtmfHuawei = true → (Several.run envs h w).2.dtmfHuawei = true
  | [], _, hw => hw
  | (i, d) :: h, w, hw => several_grows envs h _ ((deed_grows d (w.view i)).2 hw)

theorem several_beside [PyUnicode] {x : Bool} (envs : Nat → Env) (i : Nat) : ∀ (h : List (Nat × Deed)) (w : Several) (s : St), SideBySide x i w s →
    (x = false → ∀ d, (i, d) ∈ h → d.tones = false) → (x = true → w.dtmfHuawei = true ∨ (Several.run envs h w).2.dtmfHuawei = false) →
    outcomesOf i (Several.run envs h w).1 = (runDeeds (envs i) (deedsOf i h) s).1 ∧ SideBySide x i (Several.run envs h w).2 (runDeeds (envs i) (deedsOf i h) s).2
  | [], w, s, hb, _, _ => ⟨rfl, hb⟩
  | (j, d) :: h, w, s, hb, hx, hf => by
    by_cases hj : j = i
    · subst hj
      have hc := (shared_deed (a := w.dtmfSupport) (h := if x then false else w.dtmfHuawei) d (by
        cases x with
        | true => exact .inr rfl
        | false => exact .inl (hx rfl d (by simp)))).run (envs j) s
      rw [← beside_view hb] at hc
      obtain ⟨s', hs'⟩ : ∃ s', s' = (d.run (envs j) s).2 := ⟨_, rfl⟩
      rw [← hs'] at hc
      have hg := deed_grows (env := envs j) d s
      rw [← hs'] at hg
      have hb' : SideBySide x j (w.put j (d.run (envs j) (w.view j)).2) s' := by
        rw [hc]
        refine ⟨by simp [Several.put, ownPart, withShared], fun h => by simp [Several.put, withShared, h], fun h => by simp [Several.put, withShared, h], fun h => by simp [Several.put, withShared, h]⟩
      obtain ⟨h1, h2⟩ := several_beside envs j h _ s' hb' (fun h d hd => hx h d (by simp [hd])) (fun hxt => by
        rcases hf hxt with hw | hw
        · exact .inl ((deed_grows d (w.view j)).2 hw)
        · exact .inr hw)
      have e1 : Several.run envs ((j, d) :: h) w = ((j, (d.run (envs j) (w.view j)).1) :: (Several.run envs h (w.put j (d.run (envs j) (w.view j)).2)).1, (Several.run envs h (w.put j (d.run (envs j) (w.view j)).2)).2) := rfl
      have e2 : deedsOf j ((j, d) :: h) = d :: deedsOf j h := by simp [deedsOf]
      have e3 : runDeeds (envs j) (d :: deedsOf j h) s = ((d.run (envs j) s).1 :: (runDeeds (envs j) (deedsOf j h) s').1, (runDeeds (envs j) (deedsOf j h) s').2) := by rw [hs']; rfl
      rw [e1, e2, e3]
      refine ⟨?_, h2⟩
      have e4 : (d.run (envs j) (w.view j)).1 = (d.run (envs j) s).1 := by rw [hc]
      simp only [outcomesOf, List.filter_cons, beq_self_eq_true, if_true, List.map_cons, e4]
      rw [← h1]
      rfl
    · have hb' : x = true → w.dtmfHuawei = true ∨ (d.run (envs j) (w.view j)).2.dtmfHuawei = false := by
        intro hxt
        rcases hf hxt with hw | hw
        · exact .inl hw
        · right
          by_contra hn
          have := several_grows envs h (w.put j (d.run (envs j) (w.view j)).2) (by simpa [Several.put] using hn)
          have e1 : (Several.run envs ((j, d) :: h) w).2 = (Several.run envs h (w.put j (d.run (envs j) (w.view j)).2)).2 := rfl
          rw [e1, this] at hw
          cases hw
      have hg := deed_grows (env := envs j) d (w.view j)
      have hbs : SideBySide x i (w.put j (d.run (envs j) (w.view j)).2) s := by
        refine ⟨?_, fun h => hg.1 (hb.support h), fun h => hg.2 (hb.huawei h), fun hxt => ?_⟩
        · have : (w.put j (d.run (envs j) (w.view j)).2).modems i = w.modems i := if_neg fun h => hj h.symm
          rw [this]
          exact hb.own
        · rcases hb' hxt with hw | hw
          · rw [← hb.tones hxt, hw]
            exact hg.2 hw
          · have h1 : w.dtmfHuawei = false := by
              by_contra hn
              have := hg.2 (by simpa [Several.view] using hn)
              rw [hw] at this
              cases this
            rw [← hb.tones hxt, h1]
            exact hw
      obtain ⟨h1, h2⟩ := several_beside envs i h _ s hbs (fun h d hd => hx h d (by simp [hd])) (fun hxt => by
        rcases hf hxt with hw | hw
        · exact .inl (hg.2 hw)
        · exact .inr hw)
      have e2 : deedsOf i ((j, d) :: h) = deedsOf i h := by simp [deedsOf, hj]
      rw [e2]
      refine ⟨?_, h2⟩
      rw [← h1]
      show outcomesOf i ((j, _) :: _) = _
      simp [outcomesOf, hj]

theorem beside_self (x : Bool) (i : Nat) (w : Several) : SideBySide x i w (w.view i) := ⟨rfl, id, id, fun _ => rfl⟩

/-- C90: each modem that sends no tones behaves as if it were alone, whatever is done with others. -/
theorem C90_alone [PyUnicode] (envs : Nat → Env) (i : Nat) (h : List (Nat × Deed)) (w : Several) (hd : ∀ d, (i, d) ∈ h → d.tones = false) :
    outcomesOf i (Several.run envs h w).1 = (runDeeds (envs i) (deedsOf i h) (w.view i)).1 ∧
      ownPart ((Several.run envs h w).2.modems i) = ownPart (runDeeds (envs i) (deedsOf i h) (w.view i)).2 := by
  obtain ⟨h1, h2⟩ := several_beside (x := false) envs i h w _ (beside_self _ i w) (fun _ => hd) (fun h => nomatch h)
  exact ⟨h1, h2.own⟩

/-- C90: this holds with tones, too, if no Huawei modem was seen until the end, or if one was seen before. -/
theorem C90_alone_tones [PyUnicode] (envs : Nat → Env) (i : Nat) (h : List (Nat × Deed)) (w : Several)
    (hh : w.dtmfHuawei = true ∨ (Several.run envs h w).2.dtmfHuawei = false) :
    outcomesOf i (Several.run envs h w).1 = (runDeeds (envs i) (deedsOf i h) (w.view i)).1 ∧
      ownPart ((Several.run envs h w).2.modems i) = ownPart (runDeeds (envs i) (deedsOf i h) (w.view i)).2 := by
  obtain ⟨h1, h2⟩ := several_beside (x := true) envs i h w _ (beside_self _ i w) (fun h => nomatch h) (fun _ => hh)
  exact ⟨h1, h2.own⟩

/-- C90: the exact values of the shared attributes after any history in which the connections succeed:
they tell whether any of the modems, whichever it was, can send tones, or is from Huawei. -/
theorem C90_shared [PyUnicode] {envs : Nat → Env} {bs : Nat → Behaviour} {ps : Nat → Profile} (hf : ∀ j, Follows (envs j) (bs j)) (hd : ∀ j, Describes (bs j) (ps j)) :
    ∀ (h : List (Nat × Deed)) (w : Several), AllConnected h (Several.run envs h w).1 →
      (Several.run envs h w).2.dtmfHuawei = (w.dtmfHuawei || h.any fun x => isConnect x.2 && decide (kind (bs x.1) (ps x.1) = .huawei)) ∧
      (Several.run envs h w).2.dtmfSupport = (w.dtmfSupport || h.any fun x => isConnect x.2 && canTone (bs x.1) (ps x.1))
  | [], w, _ => by simp [Several.run]
  | (j, d) :: h, w, hc => by
    obtain ⟨h1, h2⟩ := hc
    obtain ⟨i1, i2⟩ := C90_shared hf hd h _ h2
    have e1 : (Several.run envs ((j, d) :: h) w).2 = (Several.run envs h (w.put j (d.run (envs j) (w.view j)).2)).2 := rfl
    rw [e1, i1, i2]
    have key : (d.run (envs j) (w.view j)).2.dtmfHuawei = (w.dtmfHuawei || (isConnect d && decide (kind (bs j) (ps j) = .huawei))) ∧
        (d.run (envs j) (w.view j)).2.dtmfSupport = (w.dtmfSupport || (isConnect d && canTone (bs j) (ps j))) := by
      cases d with
      | connect pin =>
        have h3 : (connect pin (envs j) (w.view j)).1 = .ok () := h1 rfl
        obtain ⟨s', h4, _, _, _, _, _, h5, h6, _⟩ := C62_connect (pin := pin) (hf j) (hd j) ((C62_iff (hf j) (hd j)).1 h3)
        show (connect pin (envs j) (w.view j)).2.dtmfHuawei = _ ∧ (connect pin (envs j) (w.view j)).2.dtmfSupport = _
        rw [h4]
        exact ⟨h6, h5⟩
      | close => simp [Deed.run, M.modify, isConnect, Several.view]
      | op o =>
        obtain ⟨h3, h4⟩ := op_keeps_shared (env := envs j) o (w.view j)
        simp only [isConnect, Bool.false_and, Bool.or_false]
        exact ⟨h4, h3⟩
    constructor
    · show ((d.run (envs j) (w.view j)).2.dtmfHuawei || _) = _
      rw [key.1, List.any_cons, Bool.or_assoc]
    · show ((d.run (envs j) (w.view j)).2.dtmfSupport || _) = _
      rw [key.2, List.any_cons, Bool.or_assoc]

/-- C90: so the tones of an answered call of *any* modem are sent by the command of Huawei modems iff *some* modem connected is one. -/
theorem C90_tones [PyUnicode] {envs : Nat → Env} {bs : Nat → Behaviour} {ps : Nat → Profile} (hf : ∀ j, Follows (envs j) (bs j)) (hd : ∀ j, Describes (bs j) (ps j))
    {h : List (Nat × Deed)} (hc : AllConnected h (Several.run envs h {}).1) {i k : Nat} {c : CallObj} {tones : PyStr}
    (hk : ((Several.run envs h {}).2.modems i).calls[k]? = some c) (ha : c.answered = true) (h0 : tones ≠ []) (hp : Plain tones) :
    ∃ ok, Transmission (envs i).reply
      [dtmfText (dtmfPart (h.any fun x => isConnect x.2 && decide (kind (bs x.1) (ps x.1) = .huawei)) c.id) tones ++ [13]]
      ((Several.run envs h {}).2.modems i).log (sendDtmfTone k tones (envs i) ((Several.run envs h {}).2.view i)).2.log ok := by
  obtain ⟨ok, s1, h1, _, h3, _⟩ := C49_command (env := envs i) (s := (Several.run envs h {}).2.view i) (tones := tones) hk ha h0 hp
  have h5 := (C90_shared hf hd h {} hc).1
  have h4 : ((Several.run envs h {}).2.view i).dtmfHuawei = (Several.run envs h {}).2.dtmfHuawei := rfl
  rw [h4, h5, ← h1] at h3
  exact ⟨ok, h3⟩

/-! ### One after another -/

variable {b : Behaviour} {p : Profile}

/-- An object that has been used needs at least what a new one needs. -/
theorem connectable_new {pin : Option PyStr} {s : St} (hc : Connectable b p pin s) : Connectable b p pin { smsTextMode := s.smsTextMode } := by
  refine ⟨fun c h => hc.accepted c ?_, hc.pin⟩
  simp only [mandatory, Option.map_none, Option.toList_none, List.append_nil, List.mem_append] at h ⊢
  tauto

/-- The settings after a connection. -/
theorem settings_after {pin : Option PyStr} {s : St} (hf : Follows env b) (hd : Describes b p) (hc : Connectable b p pin s) :
    settings (connect pin env s).2 =
      { callUpdates := match kind b p with | .unknown => s.callStatusUpdates | .huawei => .huawei | .wavecom => .wavecom | .zte => .zte
        polls := decide (kind b p = .unknown)
        awaitsOk := match kind b p with | .unknown => true | .huawei => s.waitForAtdResponse | _ => false
        awaitsUpdate := s.waitForCallInitUpdate && decide (kind b p ≠ .zte)
        smsc := s.smscNumber.or p.smsc
        reads := s.smsReadSupported && readsMessages b p
        callerId := b.accepts py!"AT+CLIP=1"
        extended := if b.accepts py!"AT+CLIP=1" then b.accepts py!"AT+CRC=1" else s.extendedIncomingCallIndication
        memory := if choosesMemory b p then some (favourite (p.stores.headD [])) else s.smsMemReadDelete } := by
  obtain ⟨s', h0, _, h1, h2, h3, h4, _, _, h5, h6, h7, h8, h9, _⟩ := C62_connect (pin := pin) hf hd hc
  rw [h0]
  simp only [settings, h1, h2, h3, h4, h5, h6, h7, h8, h9, readsMessages, choosesMemory, Bool.and_assoc, Bool.and_eq_true, decide_eq_true_eq]
  cases kind b p <;> rfl

/-- C90: connecting an object that was used before, the settings are those of a new object iff nothing is left in it. -/
theorem C90_again {pin : Option PyStr} {s : St} (hf : Follows env b) (hd : Describes b p) (hc : Connectable b p pin s) :
    settings (connect pin env s).2 = settings (connect pin env { smsTextMode := s.smsTextMode }).2 ↔ NothingLeft b p s := by
  rw [settings_after hf hd hc, settings_after hf hd (connectable_new hc)]
  simp only [Settings.mk.injEq, true_and]
  have hor : ∀ o q : Option PyStr, (o.or q = Option.or none q) ↔ (o = none ∨ o = q) := by
    intro o q
    cases o <;> simp [eq_comm]
  constructor
  · rintro ⟨h1, h2, h3, h4, h5, h6, h7⟩
    refine ⟨fun h => ?_, fun h => ?_, fun h => ?_, (hor _ _).1 h4, fun h => ?_, fun h => ?_, fun h => ?_⟩
    · rw [h] at h1; exact h1
    · rw [h] at h2; exact h2
    · simpa [h] using h3
    · simpa [h] using h5
    · simpa [h] using h6
    · simpa [h] using h7
  · rintro ⟨h1, h2, h3, h4, h5, h6, h7⟩
    refine ⟨?_, ?_, ?_, (hor _ _).2 h4, ?_, ?_, ?_⟩
    · cases hk : kind b p <;> simp only
      exact h1 hk
    · cases hk : kind b p <;> simp only
      exact h2 hk
    · by_cases hk : kind b p = .zte
      · simp [hk]
      · simp [h3 hk]
    · cases hr : readsMessages b p
      · simp
      · simp [h5 hr]
    · cases hr : b.accepts py!"AT+CLIP=1"
      · simp [h6 hr]
      · simp
    · cases hr : choosesMemory b p
      · simp [h7 hr]
      · simp

/-- C90: a new object is connected to one modem, closed, and connected to another one: which pairs of modems
give the second one the settings it has with a new object. -/
theorem C90_second {env1 env2 : Env} {b1 b2 : Behaviour} {p1 p2 : Profile} {pin1 pin2 : Option PyStr} (hf1 : Follows env1 b1) (hd1 : Describes b1 p1) (hc1 : Connectable b1 p1 pin1 {})
    (hf2 : Follows env2 b2) (hd2 : Describes b2 p2) (hc2 : Connectable b2 p2 pin2 { (connect pin1 env1 {}).2 with alive := false }) :
    settings (connect pin2 env2 { (connect pin1 env1 {}).2 with alive := false }).2 = settings (connect pin2 env2 { smsTextMode := (connect pin1 env1 {}).2.smsTextMode }).2 ↔
      GoesAfter b1 p1 b2 p2 := by
  refine (C90_again hf2 hd2 hc2).trans ?_
  obtain ⟨s', h0, _, h1, h2, h3, h4, _, _, h5, h6, h7, h8, h9, _⟩ := C62_connect (pin := pin1) hf1 hd1 hc1
  rw [h0]
  constructor
  · rintro ⟨g1, g2, g3, g4, g5, g6, g7⟩
    simp only at g1 g2 g3 g4 g5 g6 g7
    refine ⟨fun h => ?_, fun h => ?_, fun h => ?_, ?_, fun h => ?_, fun h => ?_, fun h => ?_⟩
    · have := g1 h; rw [h1] at this; revert this; cases kind b1 p1 <;> simp
    · have := g2 h; rw [h3] at this; revert this; cases kind b1 p1 <;> simp
    · have := g3 h; rw [h4] at this; simpa using this
    · rw [h5] at g4; simpa using g4
    · have := g5 h; rw [h6] at this; simpa [readsMessages] using this
    · have := g6 h; rw [h8] at this; cases hl : b1.accepts py!"AT+CLIP=1" <;> simp_all
    · have := g7 h; rw [h9] at this; revert this; simp only [choosesMemory]; cases hl : storesUsable b1 p1 <;> simp
  · rintro ⟨g1, g2, g3, g4, g5, g6, g7⟩
    refine ⟨fun h => ?_, fun h => ?_, fun h => ?_, ?_, fun h => ?_, fun h => ?_, fun h => ?_⟩
    · show s'.callStatusUpdates = _
      rw [h1, g1 h]
    · show s'.waitForAtdResponse = _
      rw [h3]; rcases g2 h with h | h <;> rw [h]
    · show s'.waitForCallInitUpdate = _
      rw [h4]; simpa using g3 h
    · show s'.smscNumber = none ∨ s'.smscNumber = _
      rw [h5]; simpa using g4
    · show s'.smsReadSupported = _
      rw [h6]; simpa [readsMessages] using g5 h
    · show s'.extendedIncomingCallIndication = _
      rw [h8]; have := g6 h; cases hl : b1.accepts py!"AT+CLIP=1" <;> simp_all
    · show s'.smsMemReadDelete = _
      rw [h9]
      have := g7 h
      simp only [choosesMemory, Bool.and_eq_false_iff, decide_eq_false_iff_not] at this
      rw [if_neg]
      rintro ⟨x, y⟩
      rcases this with h | h
      · rw [x] at h; cases h
      · exact h y

/-- C90: the number of the SMS centre that was read from the SIM card of the first modem is written to the second
one, whatever number is stored there. -/
theorem C90_smsc_carried {env1 env2 : Env} {b1 b2 : Behaviour} {p1 p2 : Profile} {pin1 pin2 : Option PyStr} {n : PyStr} (hf1 : Follows env1 b1) (hd1 : Describes b1 p1)
    (hc1 : Connectable b1 p1 pin1 {}) (hf2 : Follows env2 b2) (hd2 : Describes b2 p2)
    (hc2 : Connectable b2 p2 pin2 { (connect pin1 env1 {}).2 with alive := false }) (hn : p1.smsc = some n) :
    (connect pin2 env2 { (connect pin1 env1 {}).2 with alive := false }).2.smscNumber = some n ∧
      ∃ cmds, (connect pin2 env2 { (connect pin1 env1 {}).2 with alive := false }).2.log = cmds ++ (connect pin1 env1 {}).2.log ∧ setSmscCommand n ++ [13] ∈ cmds := by
  obtain ⟨s', h0, _, _, _, _, _, _, _, h5, _⟩ := C62_connect (pin := pin1) hf1 hd1 hc1
  rw [h0] at hc2 ⊢
  have hs : s'.smscNumber = some n := by rw [h5, hn]; rfl
  obtain ⟨s2, g0, g1, _, _, _, _, _, _, g5, _⟩ := C62_connect (pin := pin2) hf2 hd2 hc2
  rw [g0]
  refine ⟨by rw [g5]; show s'.smscNumber.or _ = _; rw [hs]; rfl, _, g1, ?_⟩
  simp only [List.mem_reverse, List.mem_map]
  refine ⟨setSmscCommand n, ?_, rfl⟩
  show _ ∈ connectCommands b2 p2 _ s'.smsTextMode s'.smscNumber s'.smsReadSupported
  rw [hs]
  simp [connectCommands, smsCommands]

/-! ### What is left from earlier connections -/

abbrev CallsFrame : St → St → Prop := Frame (fun _ => True) fun s => (s.calls, s.activeCalls, s.pollers, s.sent, s.sentSms, s.callbacks)

theorem kf_write {data term : PyStr} {pe : Bool} : Steps env CallsFrame (write data pe term) := frame_write trivial fun _ _ _ => rfl

macro "kframe" : tactic => `(tactic| (steps frame_pre) <;> try first
  | exact kf_write
  | exact frame_same rfl rfl)

theorem kf_unlock (pin : Option PyStr) : Steps env CallsFrame (unlockSim pin) := by unfold unlockSim; kframe
theorem kf_rest (pin : Option PyStr) (b : Bool) : Steps env CallsFrame (connectRest pin b) := by
  have := kf_unlock (env := env) pin
  unfold connectRest; kframe
theorem kf_basics (pin : Option PyStr) : Steps env CallsFrame (connectBasics pin) := by
  have := kf_unlock (env := env) pin
  have h1 := kf_rest (env := env) pin true
  have h2 := kf_rest (env := env) pin false
  unfold connectBasics; kframe
theorem kf_identify : Steps env CallsFrame connectIdentify := by
  have h1 : Steps env CallsFrame supportedCommands := by unfold supportedCommands; kframe
  have h2 : ∀ cs, Steps env CallsFrame (identifyCommands cs) := fun cs => by unfold identifyCommands; kframe
  have h3 : ∀ n, Steps env CallsFrame (identifyWind n) := fun n => by unfold identifyWind; kframe
  have h4 : ∀ n, Steps env CallsFrame (identifyOther n) := fun n => by unfold identifyOther manufacturer; kframe
  unfold connectIdentify; kframe
  all_goals first | exact h2 _ | exact h3 _ | exact h4 _
theorem kf_connect (pin : Option PyStr) : Steps env CallsFrame (connect pin) := by
  have h1 := kf_basics (env := env) pin
  have h2 := kf_identify (env := env)
  have h3 : ∀ n cs, Steps env CallsFrame (connectCallTable n cs) := fun n cs => by
    refine ⟨fun s => ?_⟩
    unfold connectCallTable
    simp only [M.modify]
    split
    · exact frame_same rfl rfl
    · split
      · exact frame_same rfl rfl
      · split <;> exact frame_same rfl rfl
  have h4 : Steps env CallsFrame connectSms := by unfold connectSms getSmsc setSmsc; kframe
  have h5 : Steps env CallsFrame connectMemory := by unfold connectMemory; kframe
  have h6 : Steps env CallsFrame connectNotifications := by unfold connectNotifications; kframe
  unfold connect; kframe
  all_goals exact h3 _ _

/-- C90: the calls and the messages of earlier connections stay in the object, whatever becomes of the new connection. -/
theorem C90_calls_kept (pin : Option PyStr) (s : St) : (connect pin env s).2.calls = s.calls ∧ (connect pin env s).2.activeCalls = s.activeCalls ∧
    (connect pin env s).2.pollers = s.pollers ∧ (connect pin env s).2.sent = s.sent ∧ (connect pin env s).2.sentSms = s.sentSms := by
  have := ((kf_connect (env := env) pin).run s).2
  simp only [Prod.mk.injEq] at this
  exact ⟨this.1, this.2.1, this.2.2.1, this.2.2.2.1, this.2.2.2.2.1⟩

/-- C90: after a ZTE modem, a modem whose calls have to be polled: the settings say that it has to be, and to
take the call for started at once; so no call is ever polled. -/
theorem C90_not_polled {env1 env2 : Env} {b1 b2 : Behaviour} {p1 p2 : Profile} {pin1 pin2 : Option PyStr} (hf1 : Follows env1 b1) (hd1 : Describes b1 p1) (hc1 : Connectable b1 p1 pin1 {})
    (hf2 : Follows env2 b2) (hd2 : Describes b2 p2) (hc2 : Connectable b2 p2 pin2 { (connect pin1 env1 {}).2 with alive := false })
    (hz : kind b1 p1 = .zte) (hu : kind b2 p2 = .unknown) :
    ∃ s, connect pin2 env2 { (connect pin1 env1 {}).2 with alive := false } = (.ok (), s) ∧ s.mustPollCallStatus = true ∧ s.callStatusUpdates = .zte ∧
      ∀ number timeout cb during, (dial number timeout cb during env2 s).2.pollers = s.pollers := by
  obtain ⟨s', h0, _, h1, h2, h3, h4, _⟩ := C62_connect (pin := pin1) hf1 hd1 hc1
  rw [h0] at hc2 ⊢
  obtain ⟨s2, g0, _, g1, g2, g3, g4, _⟩ := C62_connect (pin := pin2) hf2 hd2 hc2
  refine ⟨s2, g0, by rw [g2, hu]; rfl, ?_, fun number timeout cb during => ?_⟩
  · rw [g1, hu]
    show s'.callStatusUpdates = _
    rw [h1, hz]
  · have hw : s2.waitForCallInitUpdate = false := by
      rw [g4]
      show (s'.waitForCallInitUpdate && _) = false
      rw [h4, hz]
      rfl
    obtain ⟨ok, s1, ⟨l, w, e1⟩, _, h5, h6⟩ := C66_dial_at_once (env := env2) hw number timeout cb during
    cases ok with
    | false =>
      obtain ⟨e, h7⟩ := h5 rfl
      rw [h7, e1]
    | true => rw [h6 rfl, e1]; rfl

/-! ### Examples -/

/-- A modem that is of no known kind. -/
def plainTable : List (PyStr × List PyStr) :=
  [(py!"AT+CFUN?", [py!"+CFUN: 1", py!"OK"]), (py!"AT+CPIN?", [py!"+CPIN: READY", py!"OK"]), (py!"AT+CLAC", [py!"+CLAC:+VTS,+CSQ", py!"OK"]),
   (py!"AT+CGMI", [py!"ACME", py!"OK"]), (py!"AT+ZPAS?", [py!"+CMS ERROR: 330"]), (py!"AT+WIND?", [py!"+CMS ERROR: 330"]), (py!"AT+CSCA?", [py!"+CSCA: \"+111\",145", py!"OK"]),
   (py!"AT+CPMS=?", [py!"+CPMS: (\"SM\"),(\"SM\"),(\"SM\")", py!"OK"])]
/-- A Huawei modem. -/
def huaweiTable : List (PyStr × List PyStr) := (py!"AT+CLAC", [py!"+CLAC:^DTMF,+CSQ", py!"OK"]) :: plainTable
/-- A ZTE modem. -/
def zteTable : List (PyStr × List PyStr) :=
  (py!"AT+CSCA?", [py!"+CSCA: \"+222\",145", py!"OK"]) :: (py!"AT+CLAC", [py!"+CLAC:+ZPAS,+VTS", py!"OK"]) :: plainTable

def plainProfile : Profile where
  functionality := 1
  ready := true
  commands := some [py!"+VTS", py!"+CSQ"]
  wind := 0
  maker := py!"ACME"
  smsc := some py!"+111"
  stores := [[py!"SM"], [py!"SM"], [py!"SM"]]
def zteProfile : Profile := { plainProfile with commands := some [py!"+ZPAS", py!"+VTS"], smsc := some py!"+222" }

theorem plain_follows : Follows (tableModem plainTable) (tableBehaviour plainTable) := table_follows _ (by decide +kernel)
theorem zte_follows : Follows (tableModem zteTable) (tableBehaviour zteTable) := table_follows _ (by decide +kernel)

theorem plain_describes : Describes (tableBehaviour plainTable) plainProfile where
  functionality _ := ⟨py!"1", ⟨by decide, by decide⟩, rfl, firstWith_iff.2 (by decide +kernel)⟩
  ready := ⟨py!"+CPIN: READY", firstWith_iff.2 (by decide +kernel), by decide⟩
  commands := ⟨by decide +kernel, by
    have : (tableBehaviour plainTable).answer py!"AT+CLAC" = [py!"+CLAC:" ++ pyJoin py!"," [py!"+VTS", py!"+CSQ"], py!"OK"] := by decide +kernel
    rw [this]; exact .prefixed (by decide) (by decide)⟩
  wind h := absurd h (by decide +kernel)
  maker _ := by decide +kernel
  smsc := ⟨by decide +kernel, by decide, by decide, py!"145", [py!"OK"], ⟨by decide, by decide⟩, by decide +kernel⟩
  stores _ := ⟨by decide, by decide, firstWith_iff.2 (by decide +kernel)⟩

theorem zte_describes : Describes (tableBehaviour zteTable) zteProfile where
  functionality _ := ⟨py!"1", ⟨by decide, by decide⟩, rfl, firstWith_iff.2 (by decide +kernel)⟩
  ready := ⟨py!"+CPIN: READY", firstWith_iff.2 (by decide +kernel), by decide⟩
  commands := ⟨by decide +kernel, by
    have : (tableBehaviour zteTable).answer py!"AT+CLAC" = [py!"+CLAC:" ++ pyJoin py!"," [py!"+ZPAS", py!"+VTS"], py!"OK"] := by decide +kernel
    rw [this]; exact .prefixed (by decide) (by decide)⟩
  wind h := absurd h (by decide +kernel)
  maker _ := by decide +kernel
  smsc := ⟨by decide +kernel, by decide, by decide, py!"145", [py!"OK"], ⟨by decide, by decide⟩, by decide +kernel⟩
  stores _ := ⟨by decide, by decide, firstWith_iff.2 (by decide +kernel)⟩

/-- The hypotheses of `C90_second` and `C90_not_polled` are met; the settings are not those of a new object. -/
example : ¬ settings (connect none (tableModem plainTable) { (connect none (tableModem zteTable) {}).2 with alive := false }).2 =
    settings (connect none (tableModem plainTable) { smsTextMode := (connect none (tableModem zteTable) {}).2.smsTextMode }).2 := by
  rw [C90_second zte_follows zte_describes ⟨by decide +kernel, by decide⟩ plain_follows plain_describes ⟨by decide +kernel, by decide⟩]
  exact fun h => absurd (h.callUpdates (by decide +kernel)) (by decide +kernel)
/-- The other way round they would be, but for the number of the SMS centre. -/
example : GoesAfter (tableBehaviour plainTable) plainProfile (tableBehaviour zteTable) { zteProfile with smsc := some py!"+111" } :=
  ⟨by decide +kernel, by decide +kernel, by decide +kernel, by decide +kernel, by decide +kernel, by decide +kernel, by decide +kernel⟩

/-- C90 fails: the number of the SMS centre of the first modem is written to the second one, which has its own. -/
theorem C90_smsc_violated : py!"AT+CSCA=\"+222\"\r" ∈ (connect none (tableModem plainTable) { (connect none (tableModem zteTable) {}).2 with alive := false, log := [] }).2.log ∧
    plainProfile.smsc = some py!"+111" := by decide +kernel

/-- Two modems: number 1 is from Huawei, number 0 is not. -/
def twoModems (i : Nat) : Env := tableModem (if i = 0 then plainTable else huaweiTable)
/-- Both are connected; number 0 is called, answers, and sends a tone. -/
def toneHistory : List (Nat × Deed) :=
  [(0, .connect none), (1, .connect none), (0, .op (.event (.notify [py!"RING", py!"+CLIP: \"+123\",145"]))), (0, .op (.answer 0)), (0, .op (.dtmf 0 py!"5"))]

attribute [local instance] asciiUnicode in
/-- C90 fails for tones: since the other modem is from Huawei, modem 0 gets a command it does not have; alone it gets its own. -/
theorem C90_tones_violated :
    (((Several.run twoModems toneHistory {}).2.modems 0).log.head? = some py!"AT^DTMF=1,5\r") ∧
    ((runDeeds (twoModems 0) (deedsOf 0 toneHistory) {}).2.log.head? = some py!"AT+VTS=5\r") := by decide +kernel

attribute [local instance] asciiUnicode in
example : ((Several.run twoModems toneHistory {}).1.map fun x => match x.2 with | .ok _ => true | .error _ => false) = [true, true, true, true, true] := by decide +kernel

/-- C90 fails: a call of an earlier connection that was not ended is taken for the new call of the same number. -/
theorem C90_old_call_violated :
    let s1 := (handleIncomingCall [py!"RING", py!"+CLIP: \"+123\",145"] (tableModem plainTable) (connect none (tableModem plainTable) {}).2).2
    let s2 := (connect none (tableModem plainTable) { s1 with alive := false }).2
    let s3 := (handleIncomingCall [py!"RING", py!"+CLIP: \"+123\",145"] (tableModem plainTable) s2).2
    s1.calls.length = 1 ∧ s3.calls.length = 1 ∧ (s3.calls.map (·.ringCount)) = [2] ∧ s3.callbacks = [.incomingCall 0, .incomingCall 0] := by decide +kernel

end Gsm
