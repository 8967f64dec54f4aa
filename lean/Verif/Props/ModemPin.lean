import Verif.Props.ModemMemory
/-! # Property C34: the PIN is submitted at most once -/
namespace Gsm
open M Spec

variable {env : Env}

abbrev pinQuery : PyStr := py!"AT+CPIN?\r"
/-- The command that submits this PIN. -/
def pinCmd (pin : PyStr) : PyStr := py!"AT+CPIN=\"" ++ pin ++ py!"\"\r"

abbrev NoPin : St → St → Prop := Frame (fun c => ¬ SubmitsPin c) (fun _ => ())

/-- New commands `post ++ replicate k <pin> ++ pre` (most recent first): the PIN is submitted `k` times in
a row; before that the modem had been asked, and was not ready; every submission but the last was answered
with busy. -/
def PinUse (env : Env) (pin : Option PyStr) (old log : List PyStr) : Prop :=
  ∃ p k pre post, log = post ++ (List.replicate k (pinCmd p) ++ (pre ++ old)) ∧ (∀ c ∈ post ++ pre, ¬ SubmitsPin c) ∧
    (0 < k → pin = some p ∧ pre.head? = some pinQuery ∧ NotReady (env.reply (pre ++ old))) ∧
    (∀ i, i + 1 < k → AnsweredBusy env.reply (List.replicate (i + 1) (pinCmd p) ++ (pre ++ old)))

abbrev PinRel (env : Env) (pin : Option PyStr) (a b : St) : Prop := PinUse env pin a.log b.log

theorem pinRel_of_noPin {pin : Option PyStr} {a b : St} (h : NoPin a b) : PinRel env pin a b := by
  obtain ⟨⟨new, h1, h2⟩, _⟩ := h
  exact ⟨[], 0, [], new, by simp [h1], by simpa using h2, by omega, by omega⟩

theorem pinRel_left {pin : Option PyStr} {a b c : St} (h : NoPin a b) (h' : PinRel env pin b c) : PinRel env pin a c := by
  obtain ⟨⟨new, h1, h2⟩, _⟩ := h
  obtain ⟨p, k, pre, post, h3, h4, h5, h6⟩ := h'
  rw [h1] at h3 h5 h6
  refine ⟨p, k, pre ++ new, post, by simp [h3], ?_, fun hk => ?_, fun i hi => by simpa using h6 i hi⟩
  · intro c hc
    simp only [← List.append_assoc] at hc
    rcases List.mem_append.1 hc with hc | hc
    · exact h4 c hc
    · exact h2 c hc
  · obtain ⟨h7, h8, h9⟩ := h5 hk
    refine ⟨h7, ?_, by simpa using h9⟩
    cases pre with
    | nil => cases h8
    | cons _ _ => exact h8

theorem pinRel_right {pin : Option PyStr} {a b c : St} (h : PinRel env pin a b) (h' : NoPin b c) : PinRel env pin a c := by
  obtain ⟨⟨new, h1, h2⟩, _⟩ := h'
  obtain ⟨p, k, pre, post, h3, h4, h5, h6⟩ := h
  refine ⟨p, k, pre, new ++ post, by simp [h1, h3], ?_, h5, h6⟩
  intro c hc
  rw [List.append_assoc] at hc
  rcases List.mem_append.1 hc with hc | hc
  · exact h2 c hc
  · exact h4 c hc

theorem pin_bind_left {α β : Type} {pin : Option PyStr} {m : M α} {f : α → M β} (hm : Steps env NoPin m) (hf : ∀ a, Steps env (PinRel env pin) (f a)) :
    Steps env (PinRel env pin) (m >>= f) := by
  refine ⟨fun s => ?_⟩
  have h1 := hm.run s
  rw [run_bind]
  split
  · next a s1 he => rw [he] at h1; exact pinRel_left h1 ((hf a).run s1)
  · next e s1 he => rw [he] at h1; exact pinRel_of_noPin h1

theorem pin_bind_right {α β : Type} {pin : Option PyStr} {m : M α} {f : α → M β} (hm : Steps env (PinRel env pin) m) (hf : ∀ a, Steps env NoPin (f a)) :
    Steps env (PinRel env pin) (m >>= f) := by
  refine ⟨fun s => ?_⟩
  have h1 := hm.run s
  rw [run_bind]
  split
  · next a s1 he => rw [he] at h1; exact pinRel_right h1 ((hf a).run s1)
  · next e s1 he => rw [he] at h1; exact h1

theorem noPin_of_prefix {p c : PyStr} (hp : p <+: c) (h1 : ¬ p <+: py!"AT+CPIN=\"") (h2 : ¬ py!"AT+CPIN=\"" <+: p) : ¬ SubmitsPin c := by
  intro h
  rcases List.prefix_or_prefix_of_prefix hp h with h | h
  · exact h1 h
  · exact h2 h

theorem np_write {data term : PyStr} {pe : Bool} (h : ¬ SubmitsPin (data ++ term)) : Steps env NoPin (write data pe term) :=
  frame_write h fun _ _ _ => rfl

theorem np_const {data : PyStr} {pe : Bool} (h : py!"AT+CPIN=\"".isPrefixOf (data ++ [13]) = false := by decide) :
    Steps env NoPin (write data pe) :=
  np_write fun h' => by rw [List.isPrefixOf_iff_prefix.2 h'] at h; cases h

macro "nopin" : tactic => `(tactic| (steps frame_pre) <;> try first
  | exact np_const
  | exact frame_same rfl rfl)

theorem np_csca (n : PyStr) : Steps env NoPin (write (cscaCmd n)) :=
  np_write (by rintro ⟨t, h⟩; simp [cscaCmd] at h)

theorem np_rest (pin : Option PyStr) : Steps env NoPin (connectRest pin true) := by
  unfold connectRest; nopin
  all_goals simp at *
theorem np_supportedCommands : Steps env NoPin supportedCommands := by unfold supportedCommands; nopin
theorem np_manufacturer : Steps env NoPin manufacturer := by unfold manufacturer; nopin
theorem np_identifyCommands (cs : List PyStr) : Steps env NoPin (identifyCommands cs) := by
  unfold identifyCommands; nopin
theorem np_identifyWind (h : Nat) : Steps env NoPin (identifyWind h) := by unfold identifyWind; nopin
theorem np_identifyOther (h : Nat) : Steps env NoPin (identifyOther h) := by
  have h2 := np_manufacturer (env := env)
  unfold identifyOther; nopin
theorem np_identify : Steps env NoPin connectIdentify := by
  have h1 := np_supportedCommands (env := env)
  have h2 := np_identifyCommands (env := env)
  have h3 := np_identifyWind (env := env)
  have h4 := np_identifyOther (env := env)
  unfold connectIdentify; nopin <;> first | exact h2 _ | exact h3 _ | exact h4 _
theorem np_callTable (h : Nat) (cs : Option (List PyStr)) : Steps env NoPin (connectCallTable h cs) := by
  unfold connectCallTable
  refine Steps.modify fun s => ?_
  repeat' split
  all_goals exact frame_same rfl rfl
theorem np_notifications : Steps env NoPin connectNotifications := by unfold connectNotifications; nopin
theorem np_getSmsc : Steps env NoPin getSmsc := by unfold getSmsc; nopin
theorem np_setSmsc (n : Option PyStr) : Steps env NoPin (setSmsc n) := by
  have := np_csca (env := env)
  unfold setSmsc; nopin
  exact this _
theorem np_connectMemory : Steps env NoPin connectMemory := by
  have : ∀ x, Steps env NoPin (write (py!"AT+CPMS=" ++ x)) := fun x => np_write (by rintro ⟨t, h⟩; simp at h)
  unfold connectMemory; nopin <;> exact this _
theorem np_connectSms : Steps env NoPin connectSms := by
  have hg := np_getSmsc (env := env)
  have hs := np_setSmsc (env := env)
  have hw := np_csca (env := env)
  have : ∀ x, Steps env NoPin (write (py!"AT+CMGF=" ++ x)) := fun x => np_write (by rintro ⟨t, h⟩; simp at h)
  unfold connectSms; nopin <;> first | exact hs _ | exact hw _ | exact this _

theorem cpinLine_eq (ls : List PyStr) : lineStartingWith py!"+CPIN" ls = cpinLine ls := by
  induction ls with
  | nil => rfl
  | cons l ls ih =>
    simp only [lineStartingWith, cpinLine, List.find?_cons]
    split
    · next h => simp [h]
    · next h => simp only [Bool.not_eq_true] at h; rw [h]; exact ih

/-- The question of `_unlockSim`, modem.py:371-380. -/
def askPin : M (Option PyStr) :=
  except (do let ls ← write py!"AT+CPIN?"; pure (lineStartingWith py!"+CPIN" ls))
    (fun e => match e with | .timeout _ => true | _ => false)
    (fun e => match e with
      | .timeout (some data) =>
        match lineStartingWith py!"+CPIN" data with
        | some l => pure (some l)
        | none => raise e
      | _ => raise e)

theorem unlockSim_eq (pin : Option PyStr) : unlockSim pin = (do
    let cpinResponse ← askPin
    if cpinResponse ≠ some py!"+CPIN: READY" then
      match pin with
      | some pin => let _ ← write (py!"AT+CPIN=\"" ++ pin ++ py!"\"")
      | none => raise (.command .pinRequired (some 11))) := rfl

theorem askPin_spec (s : St) : ∃ k w, (askPin env s).2 = { s with log := List.replicate k pinQuery ++ s.log, writeWait := w } ∧
    (∀ r, (askPin env s).1 = .ok r → 0 < k ∧
      (r = some py!"+CPIN: READY" → SaysReady (env.reply (List.replicate k pinQuery ++ s.log))) ∧
      (r ≠ some py!"+CPIN: READY" → NotReady (env.reply (List.replicate k pinQuery ++ s.log)))) := by
  obtain ⟨k, w, h1, _, h2⟩ := write_outcome (data := py!"AT+CPIN?") (term := [13]) (env := env) s
  refine ⟨k, w, ?_⟩
  simp only [askPin, M.except, run_bind, run_pure]
  rcases h2 with ⟨ls, h3, hk, h4, _⟩ | ⟨d, h3, hk, h4⟩ | ⟨e, h3, h4, _⟩
  · have he : write py!"AT+CPIN?" true [13] env s = (.ok ls, { s with log := List.replicate k pinQuery ++ s.log, writeWait := w }) :=
      Prod.ext h3 h1
    rw [he]
    refine ⟨rfl, ?_⟩
    rintro r hr
    simp only [Except.ok.injEq] at hr
    subst hr
    rw [cpinLine_eq]
    refine ⟨hk, fun h => ?_, fun h => ?_⟩
    · rw [show env.reply (List.replicate k pinQuery ++ s.log) = _ from h4]; exact h
    · rw [show env.reply (List.replicate k pinQuery ++ s.log) = _ from h4]; exact h
  · have he : write py!"AT+CPIN?" true [13] env s = (.error (.timeout d), { s with log := List.replicate k pinQuery ++ s.log, writeWait := w }) :=
      Prod.ext h3 h1
    simp only [he, if_true]
    cases d with
    | none => exact ⟨rfl, fun r hr => by cases hr⟩
    | some data =>
      dsimp only
      rw [cpinLine_eq]
      cases hc : cpinLine data with
      | none => exact ⟨rfl, fun r hr => by cases hr⟩
      | some l =>
        refine ⟨rfl, fun r hr => ?_⟩
        simp only [run_pure, Except.ok.injEq] at hr
        subst hr
        refine ⟨hk, fun h => ?_, fun h => ?_⟩
        · rw [show env.reply (List.replicate k pinQuery ++ s.log) = _ from h4]; exact hc.trans h
        · rw [show env.reply (List.replicate k pinQuery ++ s.log) = _ from h4]; exact ⟨l, hc, fun e => h (by rw [e])⟩
  · have he : write py!"AT+CPIN?" true [13] env s = (.error e, { s with log := List.replicate k pinQuery ++ s.log, writeWait := w }) :=
      Prod.ext h3 h1
    simp only [he]
    cases e with
    | timeout d => exact absurd rfl (h4 d)
    | _ => exact ⟨rfl, fun r hr => by cases hr⟩

theorem not_pin_query : ¬ SubmitsPin pinQuery := by
  intro h
  have := List.isPrefixOf_iff_prefix.2 h
  revert this; decide

theorem pinCmd_eq (p : PyStr) : py!"AT+CPIN=\"" ++ p ++ py!"\"" ++ [13] = pinCmd p := by simp [pinCmd]

theorem pin_unlock (pin : Option PyStr) : Steps env (PinRel env pin) (unlockSim pin) := by
  refine ⟨fun s => ?_⟩
  rw [unlockSim_eq, run_bind]
  obtain ⟨k, w, h1, h2⟩ := askPin_spec (env := env) s
  have hq : ∀ c ∈ List.replicate k pinQuery, ¬ SubmitsPin c := fun c hc => by rw [List.eq_of_mem_replicate hc]; exact not_pin_query
  have hbase : PinUse env pin s.log (askPin env s).2.log :=
    ⟨[], 0, [], List.replicate k pinQuery, by simp [h1], by simpa using hq, by omega, by omega⟩
  split
  · next r s1 he =>
    rw [he] at h1 h2 hbase
    dsimp only at h1
    rw [run_ite]
    split
    · next hr =>
      obtain ⟨hk, _, hnr⟩ := h2 r rfl
      cases pin with
      | none => exact hbase
      | some p =>
        obtain ⟨j, w', h3, h4, _⟩ := write_outcome (data := py!"AT+CPIN=\"" ++ p ++ py!"\"") (term := [13]) (env := env) s1
        have hw : ((do let _ ← write (py!"AT+CPIN=\"" ++ p ++ py!"\"") : M Unit) env s1).2 = (write (py!"AT+CPIN=\"" ++ p ++ py!"\"") true [13] env s1).2 := by
          simp only [run_bind, run_pure]; split <;> simp_all
        show PinUse env (some p) s.log ((do let _ ← write (py!"AT+CPIN=\"" ++ p ++ py!"\"") : M Unit) env s1).2.log
        rw [hw, h3]
        rw [pinCmd_eq] at h4 ⊢
        rw [h1] at h4 ⊢
        refine ⟨p, j, List.replicate k pinQuery, [], by simp, by simpa using hq, fun _ => ⟨rfl, ?_, hnr hr⟩, h4⟩
        obtain ⟨k', rfl⟩ : ∃ k', k = k' + 1 := ⟨k - 1, by omega⟩
        simp [List.replicate_succ]
    · exact hbase
  · next e s1 he => rw [he] at hbase; exact hbase

theorem pin_rest (pin : Option PyStr) (b : Bool) : Steps env (PinRel env pin) (connectRest pin b) := by
  cases b with
  | true => exact (np_rest pin).mono fun _ _ => pinRel_of_noPin
  | false =>
    unfold connectRest
    refine pin_bind_left (by nopin) fun _ => ?_
    refine pin_bind_left (by nopin) fun _ => ?_
    refine pin_bind_left (by nopin) fun _ => ?_
    exact pin_unlock pin

theorem pin_connect (pin : Option PyStr) : Steps env (PinRel env pin) (connect pin) := by
  unfold connect
  refine pin_bind_left (by nopin) fun _ => ?_
  refine pin_bind_right ?_ fun _ => ?_
  · unfold connectBasics
    refine pin_bind_left (by nopin) fun r => ?_
    cases r with
    | none =>
      refine pin_bind_left (by nopin) fun _ => ?_
      refine pin_bind_right (pin_unlock pin) fun _ => ?_
      have := np_rest (env := env) pin
      nopin
    | some _ => exact pin_rest pin false
  · have h1 := np_identify (env := env)
    have h2 := np_callTable (env := env)
    have h3 := np_connectSms (env := env)
    have h4 := np_connectMemory (env := env)
    have h5 := np_notifications (env := env)
    nopin
    exact h2 _ _

/-- The PIN is submitted only after the modem said it is not ready, and again only after a busy answer. -/
theorem C34_pin_once (pin : Option PyStr) (s : St) : PinUse env pin s.log (connect pin env s).2.log := (pin_connect pin).run s

/-- Without a PIN, none is submitted. -/
theorem C34_no_pin (s : St) : ∃ new, (connect none env s).2.log = new ++ s.log ∧ ∀ c ∈ new, ¬ SubmitsPin c := by
  obtain ⟨p, k, pre, post, h1, h2, h3, _⟩ := C34_pin_once (env := env) none s
  have hk : k = 0 := by
    cases k with
    | zero => rfl
    | succ k => cases (h3 (by omega)).1
  subst hk
  exact ⟨post ++ pre, by simpa using h1, h2⟩

/-- A modem with a locked SIM; `f` is its answer to the PIN. -/
def lockedModem (f : Reply) : Env := modemWith fun log =>
  if log.head? = some pinQuery then some (.lines [py!"+CPIN: SIM PIN", py!"OK"])
  else if log.head? = some (pinCmd py!"1234") then some f
  else none

example : ((connect (some py!"1234") (lockedModem (.lines [py!"OK"])) {}).2.log.filter (· = pinCmd py!"1234")).length = 1 ∧
    (connect (some py!"1234") (lockedModem (.lines [py!"OK"])) {}).1 = .ok () := by decide +kernel
/-- A wrong PIN. -/
example : ((connect (some py!"1234") (lockedModem (.lines [py!"+CME ERROR: 16"])) {}).2.log.filter (· = pinCmd py!"1234")).length = 1 ∧
    (connect (some py!"1234") (lockedModem (.lines [py!"+CME ERROR: 16"])) {}).1 = .error (.command .incorrectPin (some 16)) := by decide +kernel
/-- A modem that is always busy gets the PIN until the recursion limit is reached. -/
example : ((connect (some py!"1234") (lockedModem (.lines [py!"+CME ERROR: 14"])) {}).2.log.filter (· = pinCmd py!"1234")).length = 10 := by
  decide +kernel

/-- "Not ready" includes a SIM that wants its PUK, and an answer without `+CPIN` line: the PIN is sent as well. -/
theorem C34_also_sent_for_puk : ∃ env, env.reply [pinQuery] = .lines [py!"+CPIN: SIM PUK", py!"OK"] ∧
    pinCmd py!"1234" ∈ (unlockSim (some py!"1234") env {}).2.log :=
  ⟨modemWith fun log => if log.head? = some pinQuery then some (.lines [py!"+CPIN: SIM PUK", py!"OK"]) else none, by decide +kernel⟩
theorem C34_also_sent_without_answer : ∃ env, env.reply [pinQuery] = .lines [py!"OK"] ∧
    pinCmd py!"1234" ∈ (unlockSim (some py!"1234") env {}).2.log :=
  ⟨modemWith fun log => if log.head? = some pinQuery then some (.lines [py!"OK"]) else none, by decide +kernel⟩

/-- A SIM that is not ready, and no PIN: `PinRequiredError`. -/
theorem C34_pin_required {s : St} (hd : env.depth ≠ 0) (h : NotReady (env.reply (pinQuery :: s.log)))
    (ha : ∀ ls, env.reply (pinQuery :: s.log) = .lines ls → Accepted env.reply (pinQuery :: s.log)) :
    (unlockSim none env s).1 = .error (.command .pinRequired (some 11)) := by
  have hask : ∃ r s1, askPin env s = (.ok r, s1) ∧ r ≠ some py!"+CPIN: READY" := by
    obtain ⟨d, hd⟩ : ∃ d, env.depth = d + 1 := ⟨env.depth - 1, by omega⟩
    simp only [askPin, M.except, run_bind, run_pure, write, hd, writeN]
    cases hr : env.reply (pinQuery :: s.log) with
    | timeout d =>
      rw [hr] at h
      cases d with
      | none => exact absurd h (by simp [NotReady])
      | some ls =>
        obtain ⟨l, h1, h2⟩ := h
        have hr' : env.reply ((py!"AT+CPIN?" ++ [13]) :: s.log) = .timeout (some ls) := hr
        simp only [hr', if_true, cpinLine_eq, h1, run_pure]
        exact ⟨_, _, rfl, by simpa using h2⟩
    | lines ls =>
      have hr' : env.reply ((py!"AT+CPIN?" ++ [13]) :: s.log) = .lines ls := hr
      obtain ⟨ls', line, h1, h2, h3, h4⟩ := ha ls hr
      rw [hr] at h1 h
      cases h1
      simp only [hr', h2, if_true, classify_fine.2 ⟨h3, h4⟩, cpinLine_eq]
      exact ⟨_, _, rfl, h⟩
  obtain ⟨r, s1, h1, h2⟩ := hask
  rw [unlockSim_eq, run_bind, h1]
  simp only [run_ite, h2, ne_eq, not_false_eq_true, if_true]
  rfl

/-! ### A connected modem is unlocked -/

/-- At some point the modem said it is ready, or it accepted the PIN. -/
def Unlocked (env : Env) (pin : Option PyStr) (old log : List PyStr) : Prop :=
  ∃ pre post, log = post ++ (pre ++ old) ∧
    ((pre.head? = some pinQuery ∧ SaysReady (env.reply (pre ++ old))) ∨
     ∃ p, pin = some p ∧ pre.head? = some (pinCmd p) ∧ Accepted env.reply (pre ++ old))

theorem unlocked_left {pin : Option PyStr} {a b c : St} (h : NoPin a b) (h' : Unlocked env pin b.log c.log) : Unlocked env pin a.log c.log := by
  obtain ⟨⟨new, h1, _⟩, _⟩ := h
  obtain ⟨pre, post, h3, h4⟩ := h'
  rw [h1] at h3 h4
  have hh : ∀ x, pre.head? = some x → (pre ++ new).head? = some x := by
    intro x hx
    cases pre with
    | nil => cases hx
    | cons _ _ => exact hx
  refine ⟨pre ++ new, post, by simpa using h3, ?_⟩
  rcases h4 with ⟨h5, h6⟩ | ⟨p, h5, h6, h7⟩
  · exact .inl ⟨hh _ h5, by simpa using h6⟩
  · exact .inr ⟨p, h5, hh _ h6, by simpa using h7⟩

theorem unlocked_right {pin : Option PyStr} {a b c : St} (h : Unlocked env pin a.log b.log) (h' : NoPin b c) : Unlocked env pin a.log c.log := by
  obtain ⟨⟨new, h1, _⟩, _⟩ := h'
  obtain ⟨pre, post, h3, h4⟩ := h
  exact ⟨pre, new ++ post, by simp [h1, h3], h4⟩

theorem unlocked_unlock {pin : Option PyStr} {s s' : St} {u : Unit} (h : unlockSim pin env s = (.ok u, s')) : Unlocked env pin s.log s'.log := by
  rw [unlockSim_eq] at h
  obtain ⟨r, s1, h1, h⟩ := bind_ok h
  obtain ⟨k, w, h2, h3⟩ := askPin_spec (env := env) s
  rw [h1] at h2 h3
  dsimp only at h2
  obtain ⟨hk, hy, hn⟩ := h3 r rfl
  have hrep : ∀ (k : Nat) (c : PyStr), 0 < k → (List.replicate k c).head? = some c := by
    intro k c hk
    obtain ⟨k', rfl⟩ : ∃ k', k = k' + 1 := ⟨k - 1, by omega⟩
    simp [List.replicate_succ]
  rw [run_ite] at h
  split at h
  · cases pin with
    | none => cases h
    | some p =>
      obtain ⟨ls, s2, h4, h5⟩ := bind_ok h
      cases h5
      obtain ⟨j, w', h6, _, h7⟩ := write_outcome (data := py!"AT+CPIN=\"" ++ p ++ py!"\"") (term := [13]) (env := env) s1
      rw [h4] at h6 h7
      dsimp only at h6
      rw [pinCmd_eq] at h6 h7
      rcases h7 with ⟨ls', h8, hj, h9, h10⟩ | ⟨d, h8, _⟩ | ⟨e, h8, _⟩
      · rw [h2] at h6 h10
        refine ⟨List.replicate j (pinCmd p) ++ List.replicate k pinQuery, [], by simp [h6], .inr ⟨p, rfl, ?_, by simpa using h10⟩⟩
        rw [List.head?_append, hrep j _ hj]; rfl
      · cases h8
      · cases h8
  · next hr =>
    cases h
    exact ⟨List.replicate k pinQuery, [], by simp [h2], .inl ⟨hrep k _ hk, hy (Classical.not_not.1 hr)⟩⟩

/-- If `connect` succeeds, the modem said it is ready, or it accepted the PIN. -/
theorem C34_connected {pin : Option PyStr} {s s' : St} (h : connect pin env s = (.ok (), s')) : Unlocked env pin s.log s'.log := by
  unfold connect at h
  obtain ⟨_, s1, h1, h⟩ := bind_ok h
  obtain ⟨_, s2, h2, h⟩ := bind_ok h
  have hr : NoPin s2 s' := by
    have hh : ∀ {m : M Unit}, Steps env NoPin m → m env s2 = (.ok (), s') → NoPin s2 s' := fun hm he => by
      have := hm.run s2
      rwa [he] at this
    refine hh ?_ h
    have h1 := np_identify (env := env)
    have h2 := np_callTable (env := env)
    have h3 := np_connectSms (env := env)
    have h4 := np_connectMemory (env := env)
    have h5 := np_notifications (env := env)
    nopin
    exact h2 _ _
  have hl : s1.log = s.log := by cases h1; rfl
  refine unlocked_right ?_ hr
  rw [← hl]
  clear h hr hl
  have frame : ∀ {α : Type} {m : M α} {a b : St} {x : α}, Steps env NoPin m → m env a = (.ok x, b) → NoPin a b := @fun α m a b x hm he => by
    have := hm.run a
    rwa [he] at this
  unfold connectBasics at h2
  obtain ⟨r, t1, k1, h2⟩ := bind_ok h2
  refine unlocked_left (frame (by nopin) k1) ?_
  cases r with
  | none =>
    obtain ⟨_, t2, k2, g2⟩ := bind_ok h2
    obtain ⟨_, t3, k3, g3⟩ := bind_ok g2
    refine unlocked_left (frame (by nopin) k2) (unlocked_right (unlocked_unlock k3) (frame ?_ g3))
    have := np_rest (env := env) pin
    nopin
  | some _ =>
    dsimp only at h2
    unfold connectRest at h2
    obtain ⟨_, t2, k2, g2⟩ := bind_ok h2
    obtain ⟨_, t3, k3, g3⟩ := bind_ok g2
    obtain ⟨_, t4, k4, g4⟩ := bind_ok g3
    refine unlocked_left (frame (by nopin) k2) (unlocked_left (frame (by nopin) k3) (unlocked_left (frame (by nopin) k4) ?_))
    exact unlocked_unlock g4

end Gsm
