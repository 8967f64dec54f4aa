import Verif.Lemmas.Wire
import Verif.Lemmas.PyInt
/-! # The characters of every method -/
namespace Gsm
open M Spec

variable {asks : List PyStr → Bool} {env : Env}

/-! ### Characters of groups -/

theorem repGreedy_some {α : Type} {p : Nat → Bool} {k : PyStr → PyStr → Option α} {r : α} : ∀ {s : PyStr} {lo : Nat} {hi : Option Nat} {cur : PyStr},
    repGreedy p k lo hi s cur = some r → ∃ a b, s = a ++ b ∧ k b (cur ++ a) = some r
  | [], lo, hi, cur, h => by
    simp only [repGreedy] at h
    split at h
    · exact ⟨[], [], rfl, by simpa using h⟩
    · cases h
  | c :: s, lo, hi, cur, h => by
    have hk : (if lo = 0 then k (c :: s) cur else none) = some r → ∃ a b, c :: s = a ++ b ∧ k b (cur ++ a) = some r := by
      intro h
      split at h
      · exact ⟨[], c :: s, rfl, by simpa using h⟩
      · cases h
    simp only [repGreedy] at h
    split at h
    · split at h
      · next r' hr =>
        cases h
        obtain ⟨a, b, h1, h2⟩ := repGreedy_some hr
        exact ⟨c :: a, b, by simp [h1], by simpa using h2⟩
      · exact hk h
    · exact hk h

theorem repLazy_some {α : Type} {p : Nat → Bool} {k : PyStr → PyStr → Option α} {r : α} : ∀ {s : PyStr} {lo : Nat} {hi : Option Nat} {cur : PyStr},
    repLazy p k lo hi s cur = some r → ∃ a b, s = a ++ b ∧ k b (cur ++ a) = some r
  | [], lo, hi, cur, h => by
    simp only [repLazy] at h
    split at h
    · exact ⟨[], [], rfl, by simpa using h⟩
    · cases h
  | c :: s, lo, hi, cur, h => by
    have hk : (if lo = 0 then k (c :: s) cur else none) = some r → ∃ a b, c :: s = a ++ b ∧ k b (cur ++ a) = some r := by
      intro h
      split at h
      · exact ⟨[], c :: s, rfl, by simpa using h⟩
      · cases h
    simp only [repLazy] at h
    split at h
    · next r' hr => cases h; exact hk hr
    · split at h
      · obtain ⟨a, b, h1, h2⟩ := repLazy_some h
        exact ⟨c :: a, b, by simp [h1], by simpa using h2⟩
      · cases h

theorem rxRun_chars : ∀ {is : List Rx} {s : PyStr} {cap : Caps} {gs : List PyStr} {rest : PyStr}, rxRun is s cap = some (gs, rest) →
    ∀ P : Nat → Prop, (∀ c ∈ s, P c) → (∀ c ∈ cap.cur, P c) → (∀ g ∈ cap.done, ∀ c ∈ g, P c) → ∀ g ∈ gs, ∀ c ∈ g, P c
  | [], s, cap, gs, rest, h, P, h1, h2, h3 => by simp only [rxRun, Option.some.injEq, Prod.mk.injEq] at h; rw [← h.1]; exact h3
  | .ch p :: is, [], cap, gs, rest, h, P, h1, h2, h3 => by simp [rxRun] at h
  | .ch p :: is, c :: s, cap, gs, rest, h, P, h1, h2, h3 => by
    simp only [rxRun] at h
    split at h
    · refine rxRun_chars h P (fun c hc => h1 c (by simp [hc])) (fun x hx => ?_) h3
      rcases List.mem_append.1 hx with hx | hx
      · exact h2 x hx
      · exact h1 x (by simp at hx; simp [hx])
    · cases h
  | .rep p lo hi g :: is, s, cap, gs, rest, h, P, h1, h2, h3 => by
    have hx : ∃ a b, s = a ++ b ∧ rxRun is b ⟨cap.done, cap.cur ++ a⟩ = some (gs, rest) := by
      simp only [rxRun] at h
      split at h
      · exact repGreedy_some h
      · exact repLazy_some h
    obtain ⟨a, b, rfl, h5⟩ := hx
    refine rxRun_chars h5 P (fun c hc => h1 c (by simp [hc])) (fun x hx => ?_) h3
    rcases List.mem_append.1 hx with hx | hx
    · exact h2 x hx
    · exact h1 x (by simp [hx])
  | .op :: is, s, cap, gs, rest, h, P, h1, h2, h3 => rxRun_chars (cap := ⟨cap.done, []⟩) (by simpa only [rxRun] using h) P h1 (by simp) h3
  | .cl :: is, s, cap, gs, rest, h, P, h1, h2, h3 => by
    refine rxRun_chars (cap := ⟨cap.done ++ [cap.cur], []⟩) (by simpa only [rxRun] using h) P h1 (by simp) fun g hg => ?_
    rcases List.mem_append.1 hg with hg | hg
    · exact h3 g hg
    · simp at hg; rw [hg]; exact h2
  | .eol :: is, s, cap, gs, rest, h, P, h1, h2, h3 => by
    simp only [rxRun] at h
    split at h
    · exact rxRun_chars h P h1 h2 h3
    · cases h

theorem groups_flat {p : List Rx} {s : PyStr} {gs : List PyStr} (h : rxGroups p s = some gs) (hs : Flat s) : ∀ g ∈ gs, Flat g := by
  unfold rxGroups rxMatch? at h
  cases hr : rxRun p s ⟨[], []⟩ with
  | none => rw [hr] at h; cases h
  | some x =>
    obtain ⟨gs', rest⟩ := x
    rw [hr] at h
    cases h
    intro g hg hc
    exact rxRun_chars hr (· ≠ 13) (fun c hc e => hs (e ▸ hc)) (by simp) (by simp) g hg 13 hc rfl

theorem matching_flat {p : List Rx} : ∀ {ls : List PyStr} {gs : List PyStr}, lineMatching (rxGroups p) ls = some gs → FlatLines ls → ∀ g ∈ gs, Flat g
  | [], _, h, _ => by cases h
  | l :: ls, gs, h, hl => by
    simp only [lineMatching] at h
    split at h
    · next x hx => cases h; exact groups_flat hx (hl l (by simp))
    · exact matching_flat h fun l hl' => hl l (by simp [hl'])

theorem flat_dec (n : Nat) : Flat (decStr n) := flat_digits fun c hc => by
  have := decStr_digits n c hc; simp [isD] at this; omega
theorem flat_int (n : Int) : Flat (intStr n) := by
  unfold intStr
  split
  · exact flat_dec _
  · intro h
    rcases List.mem_cons.1 h with h | h
    · cases h
    · exact flat_dec _ h

/-! ### Queries -/

/-- Decomposes a program. -/
macro "wired" : tactic => `(tactic| repeat' first
    | (with_reducible exact Wired.pureAny _)
    | (with_reducible exact Wired.raise _)
    | (with_reducible exact Wired.getAny)
    | (with_reducible exact Wired.ofExceptAny _)
    | (with_reducible exact Wired.firstLine _)
    | (with_reducible exact w_write (by assumption) (by decide) (by decide))
    | assumption
    | (with_reducible refine Wired.bindAny ?_ ?_)
    | (with_reducible refine Wired.except ?_ ?_)
    | (with_reducible refine Wired.tryCommand ?_)
    | (with_reducible exact Wired.keep (fun _ => rfl) (fun _ => rfl))
    | (with_reducible dsimp only)
    | intro _
    | split)

theorem w_signalStrength (H : OnWire env asks) : Wired env asks AnyOut signalStrength := by unfold signalStrength; wired
theorem w_manufacturer (H : OnWire env asks) : Wired env asks AnyOut manufacturer := by unfold manufacturer; wired
theorem w_model (H : OnWire env asks) : Wired env asks AnyOut model := by unfold model; wired
theorem w_revision (H : OnWire env asks) : Wired env asks AnyOut revision := by unfold revision; wired
theorem w_imei (H : OnWire env asks) : Wired env asks AnyOut imei := by unfold imei; wired
theorem w_imsi (H : OnWire env asks) : Wired env asks AnyOut imsi := by unfold imsi; wired
theorem w_networkName (H : OnWire env asks) : Wired env asks AnyOut networkName := by unfold networkName; wired
theorem w_supportedCommands (H : OnWire env asks) : Wired env asks AnyOut supportedCommands := by unfold supportedCommands; wired
theorem w_mode (H : OnWire env asks) (b : Bool) : Wired env asks AnyOut (write (py!"AT+CMGF=" ++ (if b then py!"1" else py!"0"))) := by
  cases b <;> exact w_write H (by decide) (by decide)
theorem w_textMode (H : OnWire env asks) (v : Bool) : Wired env asks AnyOut (setSmsTextMode v) := by
  have := w_mode H v
  unfold setSmsTextMode; wired

theorem w_quoted (H : OnWire env asks) {m : PyStr} (hm : Flat m) : Wired env asks AnyOut (write (cpmsCmd m)) :=
  w_write H (by simp only [cpmsCmd, flat_append]; exact ⟨⟨by decide, hm⟩, by decide⟩) (by simp [NoMessage, cpmsCmd])
theorem w_memory (H : OnWire env asks) {m : Option PyStr} (hm : ∀ x, m = some x → Flat x) (w : Option PyStr) : Wired env asks AnyOut (setSmsMemory m w) := by
  unfold setSmsMemory
  wired
  exact w_quoted H (hm _ rfl)
theorem w_csca (H : OnWire env asks) {m : PyStr} (hm : Flat m) : Wired env asks AnyOut (write (cscaCmd m)) :=
  w_write H (by simp only [cscaCmd, flat_append]; exact ⟨⟨by decide, hm⟩, by decide⟩) (by simp [NoMessage, cscaCmd])

/-- A number that may be put into a command. -/
def FlatOpt (n : Option PyStr) : Prop := ∀ x, n = some x → Flat x

theorem w_getSmsc (H : OnWire env asks) : Wired env asks FlatOpt getSmsc := by
  unfold getSmsc
  refine Wired.bind Wired.get fun s hs => ?_
  split
  · next n hn => exact .pure _ fun x hx => hs.smsc x (by rw [hn]; exact hx)
  · refine Wired.bind (Q := fun r : Option (List PyStr) => ∀ ls, r = some ls → FlatLines ls) ?_ fun r hr => ?_
    · refine .except (.bind (w_writeLines H (by decide) (by decide)) fun ls hls => .pure _ fun x hx => by cases hx; exact hls) fun _ => .pure _ fun _ hx => nomatch hx
    · have hend : Wired env asks FlatOpt (do let s ← M.get; pure s.smscNumber) := Wired.bind Wired.get fun s hs => .pure _ hs.smsc
      dsimp only
      split
      · exact hend
      · split
        · next number _ hm =>
          refine .bindAny (.modify (fun _ => rfl) fun s hs n hn => ?_) fun _ => hend
          cases hn
          exact matching_flat hm (hr _ rfl) _ (by simp)
        · exact hend

theorem w_setSmsc (H : OnWire env asks) {n : Option PyStr} (hn : FlatOpt n) : Wired env asks AnyOut (setSmsc n) := by
  have h1 : Wired env asks AnyOut (write (cscaCmd (optStr n))) := by
    cases n with
    | none => exact w_csca H (by decide)
    | some x => exact w_csca H (hn x rfl)
  have h2 : Wired env asks AnyOut (M.modify fun s : St => { s with smscNumber := n }) := .modify (fun _ => rfl) fun _ _ x hx => hn x hx
  unfold setSmsc; wired

/-! ### connect -/

theorem w_unlock (H : OnWire env asks) {pin : Option PyStr} (hp : FlatOpt pin) : Wired env asks AnyOut (unlockSim pin) := by
  unfold unlockSim; wired
  next x => exact w_write H (by simp only [flat_append]; exact ⟨⟨by decide, hp _ rfl⟩, by decide⟩) (by simp [NoMessage])
theorem w_rest (H : OnWire env asks) {pin : Option PyStr} (hp : FlatOpt pin) (b : Bool) : Wired env asks AnyOut (connectRest pin b) := by
  have := w_unlock H hp
  unfold connectRest; wired
theorem w_basics (H : OnWire env asks) {pin : Option PyStr} (hp : FlatOpt pin) : Wired env asks AnyOut (connectBasics pin) := by
  have := w_unlock H hp
  have h1 := w_rest H hp true
  have h2 := w_rest H hp false
  unfold connectBasics; wired
theorem w_identifyCommands (H : OnWire env asks) (cs : List PyStr) : Wired env asks AnyOut (identifyCommands cs) := by unfold identifyCommands; wired
theorem w_identifyWind (H : OnWire env asks) (n : Nat) : Wired env asks AnyOut (identifyWind n) := by unfold identifyWind; wired
theorem w_identifyOther (H : OnWire env asks) (n : Nat) : Wired env asks AnyOut (identifyOther n) := by
  have := w_manufacturer H
  unfold identifyOther; wired
theorem w_identify (H : OnWire env asks) : Wired env asks AnyOut connectIdentify := by
  have h1 := w_supportedCommands H
  unfold connectIdentify; wired
  all_goals first | exact w_identifyCommands H _ | exact w_identifyWind H _ | exact w_identifyOther H _
theorem w_callTable (n : Nat) (cs : Option (List PyStr)) : Wired env asks AnyOut (connectCallTable n cs) := by
  refine .keep (fun s => ?_) fun s => ?_
  · split
    · rfl
    · split
      · rfl
      · split <;> rfl
  · split
    · rfl
    · split
      · rfl
      · split <;> rfl
theorem flat_join : ∀ {l : List PyStr}, (∀ x ∈ l, Flat x) → Flat (pyJoin py!"," l)
  | [], _ => by simp [pyJoin, Flat]
  | [x], h => h x (by simp)
  | x :: y :: l, h => by
    simp only [pyJoin, flat_append]
    exact ⟨⟨h x (by simp), by decide⟩, flat_join fun z hz => h z (by simp [hz])⟩
theorem flat_preferred (i : PyStr) : Flat ((preferredMemory i).getD []) := by
  unfold preferredMemory
  split
  · decide
  · split
    · decide
    · split <;> decide
theorem w_connectMemory (H : OnWire env asks) : Wired env asks AnyOut connectMemory := by
  unfold connectMemory; wired
  all_goals exact w_write H (flat_append.2 ⟨by decide, flat_join fun x hx => by
    obtain ⟨i, _, rfl⟩ := List.mem_map.1 hx; exact flat_preferred i⟩) (by simp [NoMessage])
theorem w_connectSms (H : OnWire env asks) : Wired env asks AnyOut connectSms := by
  have hm := fun b => w_mode H b
  have hg := w_getSmsc H
  unfold connectSms
  refine .bindAny (w_write H (by decide) (by decide)) fun _ => .bindAny .getAny fun _ => .bindAny (hm _) fun _ => ?_
  refine .bind .get fun s hs => ?_
  have h2 : Wired env asks AnyOut (M.modify fun s : St => { s with smscNumber := none }) := .modify (fun _ => rfl) fun _ _ x hx => nomatch hx
  have h3 := hg.any
  dsimp only
  split
  · next x hx =>
    have h4 := w_setSmsc H (n := some x) fun y hy => by cases hy; exact hs.smsc _ hx
    refine .bindAny (w_csca H (hs.smsc _ hx)) fun _ => .bind (Q := fun y => y = some x) (.pure _ rfl) fun y hy => ?_
    subst hy
    wired
  · refine .bind hg fun n hn => ?_
    have h4 := w_setSmsc H hn
    wired
theorem w_notifications (H : OnWire env asks) : Wired env asks AnyOut connectNotifications := by unfold connectNotifications; wired
theorem w_connect (H : OnWire env asks) {pin : Option PyStr} (hp : FlatOpt pin) : Wired env asks AnyOut (connect pin) := by
  have h1 := w_basics H hp
  have h2 := w_identify H
  have h4 := w_connectSms H
  have h5 := w_connectMemory H
  have h6 := w_notifications H
  unfold connect; wired
  all_goals exact w_callTable _ _

/-! ### Messages -/

theorem w_coverage (H : OnWire env asks) : ∀ (rounds : Nat) (b : Bool), Wired env asks AnyOut (coverageLoop rounds b)
  | 0, _ => .raise _
  | rounds + 1, true => by
    have h1 := w_coverage H rounds true
    have h2 := w_coverage H rounds false
    unfold coverageLoop; wired
  | rounds + 1, false => by
    have h2 := w_coverage H rounds false
    have h3 := w_signalStrength H
    unfold coverageLoop; wired
theorem w_cmgr (H : OnWire env asks) {i : PyStr} (hi : Flat i) : Wired env asks AnyOut (write (cmgrCmd i)) :=
  w_write H (flat_append.2 ⟨by decide, hi⟩) (by simp [NoMessage, cmgrCmd])
theorem w_cmgd (H : OnWire env asks) {i : PyStr} (hi : Flat i) : Wired env asks AnyOut (write (cmgdCmd i)) :=
  w_write H (by simp only [cmgdCmd, flat_append]; exact ⟨⟨by decide, hi⟩, by decide⟩) (by simp [NoMessage, cmgdCmd])
theorem w_read (H : OnWire env asks) {i : PyStr} (hi : Flat i) {m : Option PyStr} (hm : FlatOpt m) : Wired env asks AnyOut (readStoredSms i m) := by
  have := w_memory H hm none
  have := w_cmgr H hi
  unfold readStoredSms; wired
theorem w_delete (H : OnWire env asks) {i : PyStr} (hi : Flat i) {m : Option PyStr} (hm : FlatOpt m) : Wired env asks AnyOut (deleteStoredSms i m) := by
  have := w_memory H hm none
  have := w_cmgd H hi
  unfold deleteStoredSms; wired
theorem flat_noOpt : FlatOpt none := fun _ h => nomatch h
theorem w_deleteMultiple (H : OnWire env asks) (f : Int) {m : Option PyStr} (hm : FlatOpt m) : Wired env asks AnyOut (deleteMultipleStoredSms f m) := by
  have := w_memory H hm none
  have : Wired env asks AnyOut (write (py!"AT+CMGD=1," ++ intStr f)) := w_write H (flat_append.2 ⟨by decide, flat_int f⟩) (by simp [NoMessage])
  unfold deleteMultipleStoredSms; wired
theorem w_deleteAll (H : OnWire env asks) : ∀ is : List Int, Wired env asks AnyOut (deleteAll is)
  | [] => .pureAny _
  | i :: is => .bindAny (w_delete H (flat_int i) flat_noOpt) fun _ => w_deleteAll H is
theorem w_list (H : OnWire env asks) (st : Int) {m : Option PyStr} (hm : FlatOpt m) (d : Bool) : Wired env asks AnyOut (listStoredSms st m d) := by
  have h1 := w_memory H hm none
  have h2 : ∀ l, Wired env asks AnyOut (deleteListed st d l) := by
    intro l
    have h3 := w_deleteMultiple H 4 flat_noOpt
    have h4 : Wired env asks AnyOut (deleteSet l) := ⟨fun s hs => (w_deleteAll H _).run s hs⟩
    unfold deleteListed; wired
  unfold listStoredSms
  refine .bindAny h1 fun _ => .bindAny .getAny fun s => ?_
  refine .bind (Q := fun c => Flat c ∧ NoMessage c) (.ofExcept fun c hc => ?_) fun c hc => ?_
  · unfold listCommand at hc
    split at hc
    · split at hc
      · cases hc
      · next n hn =>
        cases hc
        have hf : Flat n := by
          unfold statusText? at hn
          split at hn
          · cases hn; decide
          · split at hn
            · cases hn; decide
            · split at hn
              · cases hn; decide
              · split at hn
                · cases hn; decide
                · split at hn
                  · cases hn; decide
                  · cases hn
        exact ⟨by simp only [flat_append]; exact ⟨⟨by decide, hf⟩, by decide⟩, by simp [NoMessage]⟩
    · cases hc
      exact ⟨flat_append.2 ⟨by decide, flat_int st⟩, by simp [NoMessage]⟩
  · have := w_write H (pe := true) hc.1 hc.2
    wired
    exact h2 _
theorem w_callback (c : Callback) : Wired env asks AnyOut (callback c) := .keep (fun _ => rfl) fun _ => rfl
theorem w_callbackAll : ∀ ms : List Msg, Wired env asks AnyOut (callbackAll ms)
  | [] => .pureAny _
  | _ :: ms => .bindAny (w_callback _) fun _ => w_callbackAll ms
theorem w_process (H : OnWire env asks) (u : Bool) : Wired env asks AnyOut (processStoredSms u) := by
  unfold processStoredSms; wired
  all_goals first | exact w_list H _ flat_noOpt _ | exact w_callbackAll _
theorem w_received (H : OnWire env asks) {l : PyStr} (hl : Flat l) : Wired env asks AnyOut (handleSmsReceived l) := by
  unfold handleSmsReceived
  split
  · next m i hg =>
    have h := groups_flat hg hl
    have h1 := w_read H (h i (by simp)) (m := some m) fun x hx => by cases hx; exact h m (by simp)
    have h2 := w_delete H (h i (by simp)) flat_noOpt
    wired
    exact w_callback _
  · exact .pureAny _
theorem w_statusReport (H : OnWire env asks) {l : PyStr} (hl : Flat l) : Wired env asks AnyOut (handleSmsStatusReport l) := by
  unfold handleSmsStatusReport
  split
  · next m i hg =>
    have h := groups_flat hg hl
    have h1 := w_read H (h i (by simp)) (m := some m) fun x hx => by cases hx; exact h m (by simp)
    have h2 := w_delete H (h i (by simp)) flat_noOpt
    have h4 : ∀ m r d, Wired env asks AnyOut (updateSent m r d) := fun _ _ _ => .keep (fun _ => rfl) fun _ => rfl
    wired
    all_goals first | exact w_callback _ | exact h4 _ _ _
  · exact .pureAny _

theorem endless_hex (data : List Nat) : Endless (pduHex data) := by
  have h : ∀ c ∈ pduHex data, 48 ≤ c := by
    intro c hc
    unfold pduHex at hc
    obtain ⟨b, _, hb⟩ := List.mem_flatMap.1 hc
    simp only [List.mem_cons, List.not_mem_nil, or_false] at hb
    rcases hb with rfl | rfl <;> (unfold hexUpper; split <;> omega)
  exact ⟨fun hm => by have := h _ hm; omega, fun hm => by have := h _ hm; omega⟩

theorem w_messageThen (H : OnWire env asks) {α : Type} {c body : PyStr} {f : List PyStr → M α} (hc : Flat c) (hp : py!"AT+CMGS=" <+: c) (hb : Endless body)
    (hf : ∀ ls, Wired env asks AnyOut (f ls)) : Wired env asks AnyOut (write c >>= fun _ => write body true [26] >>= f) := by
  have h2 : (write c >>= fun _ => write body true [26] >>= f) = ((do let _ ← write c; write body true [26] : M (List PyStr)) >>= f) := by
    funext env s
    show thenRun _ _ = thenRun (thenRun _ _) _
    unfold thenRun
    dsimp only
    generalize write c true [13] env s = x
    rcases x with ⟨_ | _, _⟩ <;> rfl
  rw [h2]
  exact .bindAny (w_message H hc hp hb) hf

theorem w_sendPdus (H : OnWire env asks) : ∀ (ps : List Pdu) (r : Option PyStr), Wired env asks AnyOut (sendPdus ps r)
  | [], _ => .pureAny _
  | p :: ps, r => w_messageThen H (flat_append.2 ⟨by decide, flat_dec _⟩) (List.prefix_append _ _) (endless_hex _) fun _ => w_sendPdus H ps _

theorem w_send [PyUnicode] (H : OnWire env asks) (d x : PyStr) (f : Bool) (s : St) (hs : Resting asks s) (hx : s.smsTextMode = true → Flat d ∧ Endless x) :
    Onto asks s.log (sendSms d x f env s).2.log ∧ Resting asks (sendSms d x f env s).2 := by
  have h2 : ∀ d x r, Wired env asks AnyOut (recordSent d x r) := fun _ _ _ => .keep (fun _ => rfl) fun _ => rfl
  obtain ⟨rest, hrest⟩ : ∃ rest : Option PyStr → M Nat, rest = fun result => (match result with
      | none => M.raise (.command .command none)
      | some result => do
        let reference ← M.ofExcept (pyInt (result.drop 7))
        recordSent d x reference
        pure s.sent.length : M Nat) := ⟨_, rfl⟩
  have h3 : ∀ r, Wired env asks AnyOut (rest r) := by
    intro r
    subst hrest
    wired
    exact h2 _ _ _
  cases ht : s.smsTextMode with
  | true =>
    have e : sendSms d x f env s = (write (py!"AT+CMGS=\"" ++ d ++ py!"\"") >>= fun _ => write x true [26] >>= fun ls => rest (lineStartingWith py!"+CMGS:" ls)) env s := by
      subst hrest
      show (if s.smsTextMode then _ else _ : M Nat) env s = _
      rw [ht, if_pos rfl]
      rfl
    rw [e]
    have := (w_messageThen H (c := py!"AT+CMGS=\"" ++ d ++ py!"\"") (by simp only [flat_append]; exact ⟨⟨by decide, (hx ht).1⟩, by decide⟩) ⟨py!"\"" ++ d ++ py!"\"", by simp⟩ (hx ht).2 fun ls => h3 (lineStartingWith py!"+CMGS:" ls)).run s hs
    exact ⟨this.1, this.2.1⟩
  | false =>
    have e : sendSms d x f env s = (M.ofExcept (encodeSmsSubmitPdu d x s.smsRef (sendFlash := f)) >>= fun pdus => sendPdus pdus none >>= rest) env s := by
      subst hrest
      show (if s.smsTextMode then _ else _ : M Nat) env s = _
      rw [ht, if_neg (by simp)]
      rfl
    rw [e]
    have : Wired env asks AnyOut (M.ofExcept (encodeSmsSubmitPdu d x s.smsRef (sendFlash := f)) >>= fun pdus => sendPdus pdus none >>= rest) :=
      .bindAny (.ofExceptAny _) fun ps => .bindAny (w_sendPdus H ps none) h3
    have := this.run s hs
    exact ⟨this.1, this.2.1⟩

/-! ### Calls -/

theorem w_handleUssd (ls : List PyStr) : Wired env asks AnyOut (handleUssd ls) := by unfold handleUssd; wired
theorem w_setAnswered (i : Nat) (v : Bool) : Wired env asks AnyOut (setAnswered i v) := by
  unfold setAnswered; wired
  all_goals exact w_callback _
theorem w_registerCall (c : CallObj) : Wired env asks AnyOut (registerCall c) := ⟨fun _ hs => ⟨.refl _, ⟨hs.idle, hs.smsc⟩, fun _ _ => trivial⟩⟩
theorem w_registerNext (c : CallObj) : Wired env asks AnyOut (registerNext c) := ⟨fun _ hs => ⟨.refl _, ⟨hs.idle, hs.smsc⟩, fun _ _ => trivial⟩⟩
theorem w_ringLoop (n : Option PyStr) : ∀ (l : List (Int × Nat)) (c : Option Nat), Wired env asks AnyOut (ringLoop n l c)
  | [], c => .pureAny _
  | _ :: l, c => by
    have h1 := fun c => w_ringLoop n l c
    unfold ringLoop; wired
    all_goals exact h1 _
theorem w_ringType (H : OnWire env asks) (l : PyStr) : Wired env asks AnyOut (ringType l) := by unfold ringType; wired
theorem w_callTypeOf (o : Option PyStr) : Wired env asks AnyOut (callTypeOf o) := by cases o <;> (unfold callTypeOf; wired)
theorem w_incoming (H : OnWire env asks) (ls : List PyStr) : Wired env asks AnyOut (handleIncomingCall ls) := by
  unfold handleIncomingCall; wired
  all_goals first | exact w_ringType H _ | exact w_ringLoop _ _ _ | exact w_callTypeOf _ | exact w_registerNext _ | exact w_callback _
theorem w_initiated (i k : Int) : Wired env asks AnyOut (handleCallInitiated i k) := by unfold handleCallInitiated; wired
theorem w_answered (o : Option Int) : Wired env asks AnyOut (handleCallAnswered o) := by
  cases o <;> (unfold handleCallAnswered; wired)
  all_goals exact w_setAnswered _ _
theorem w_ended (o : Option Int) (x y : Bool) : Wired env asks AnyOut (handleCallEnded o x y) := by
  unfold handleCallEnded; wired
  all_goals exact w_setAnswered _ _
theorem w_runCallHandler (k : CallHandler) (g : List PyStr) : Wired env asks AnyOut (runCallHandler k g) := by
  cases k <;> (unfold runCallHandler; wired)
  all_goals first | exact w_initiated _ _ | exact w_answered _ | exact w_ended _ _ _
theorem w_dispatchLoop (H : OnWire env asks) (all : List PyStr) : ∀ ls : List PyStr, FlatLines ls → Wired env asks AnyOut (dispatchLoop all ls)
  | [], _ => .pureAny _
  | l :: ls, h => by
    have h0 := w_dispatchLoop H all ls fun x hx => h x (by simp [hx])
    unfold dispatchLoop; wired
    all_goals first | exact w_incoming H _ | exact w_received H (h l (by simp)) | exact w_handleUssd _ | exact w_statusReport H (h l (by simp)) | exact w_runCallHandler _ _
theorem w_clccQuery (H : OnWire env asks) : Wired env asks AnyOut clccQuery := by unfold clccQuery; wired
theorem w_pollStep (p : Poller) (seen : Option (Int × Int × Int × Int)) : Wired env asks AnyOut (pollStep p seen) := by
  unfold pollStep; wired
  all_goals first | exact w_initiated _ _ | exact w_answered _ | exact w_ended _ _ _
theorem w_pollRound (H : OnWire env asks) (p : Poller) : Wired env asks AnyOut (pollRound p) := by
  have h1 := w_clccQuery H
  unfold pollRound; wired
  all_goals exact w_pollStep _ _
theorem w_event (H : OnWire env asks) {e : Event} (he : flatEvent e) : Wired env asks AnyOut e.run := by
  refine ⟨fun s hs => ?_⟩
  cases e with
  | notify ls =>
    have := (w_dispatchLoop H ls ls he).run s hs
    exact ⟨this.1, this.2.1, fun _ _ => trivial⟩
  | poll k =>
    simp only [Event.run]
    split
    · exact ⟨.refl _, hs, fun _ _ => trivial⟩
    · next p _ =>
      have := (w_pollRound H p).run s hs
      generalize pollRound p env s = r at this ⊢
      obtain ⟨_ | _, _⟩ := r <;> exact ⟨this.1, ⟨this.2.1.idle, this.2.1.smsc⟩, fun _ _ => trivial⟩
theorem w_await (H : OnWire env asks) (f : St → Bool) : ∀ es : List Event, (∀ e ∈ es, flatEvent e) → Wired env asks AnyOut (awaitEvent f es)
  | [], _ => .bindAny .getAny fun _ => .pureAny _
  | e :: es, h => by
    have h1 := w_event H (h e (by simp))
    have h2 := w_await H f es fun x hx => h x (by simp [hx])
    unfold awaitEvent; wired
theorem w_sendUssd (H : OnWire env asks) {x : PyStr} (hx : Flat x) {du : List Event} (hd : ∀ e ∈ du, flatEvent e) : Wired env asks AnyOut (sendUssd x du) := by
  have h1 : Wired env asks AnyOut (write (cusdCmd x)) := w_write H (by simp only [cusdCmd, flat_append]; exact ⟨⟨by decide, hx⟩, by decide⟩) (by simp [NoMessage, cusdCmd])
  have h3 := w_await H (fun s => s.ussdSessionEvent = some true) du hd
  unfold sendUssd; wired
theorem w_reply (H : OnWire env asks) (u : Ussd) {x : PyStr} (hx : Flat x) {du : List Event} (hd : ∀ e ∈ du, flatEvent e) : Wired env asks AnyOut (u.reply x du) := by
  have := w_sendUssd H hx hd
  unfold Ussd.reply; wired
theorem w_cancel (H : OnWire env asks) (u : Ussd) : Wired env asks AnyOut u.cancel := by unfold Ussd.cancel; wired
theorem w_writeAtd (H : OnWire env asks) {n : PyStr} (hn : Flat n) : Wired env asks AnyOut (writeAtd n) := by
  have h1 : Flat (atdCmd n) := by simp only [atdCmd, flat_append]; exact ⟨⟨by decide, hn⟩, by decide⟩
  have h2 : NoMessage (atdCmd n) := by simp [NoMessage, atdCmd]
  have h3 := w_write H (pe := true) h1 h2
  have h4 := w_noWait H h1 h2
  unfold writeAtd; wired
theorem w_dial (H : OnWire env asks) {n : PyStr} (hn : Flat n) (x : Nat) (cb : Bool) {du : List Event} (hd : ∀ e ∈ du, flatEvent e) : Wired env asks AnyOut (dial n x cb du) := by
  have h1 := w_writeAtd H hn
  have h3 := w_await H (fun s => s.dialEvent = some true) du hd
  unfold dial; wired
  all_goals first | exact w_registerNext _ | exact w_registerCall _
theorem w_hangup (H : OnWire env asks) (i : Nat) : Wired env asks AnyOut (hangup i) := by
  unfold hangup stopRinging hangupActive; wired
  all_goals exact w_setAnswered _ _
theorem w_answer (H : OnWire env asks) (i : Nat) : Wired env asks AnyOut (answer i) := by
  unfold answer; wired
  all_goals exact w_setAnswered _ _

theorem flat_base (s : St) (c : CallObj) : Flat (dtmfBase s c) := by
  unfold dtmfBase
  split
  · simp only [flat_append]; exact ⟨⟨by decide, flat_int _⟩, by decide⟩
  · decide
theorem base_head (s : St) (c : CallObj) : ∃ y, dtmfBase s c = 94 :: y ∨ dtmfBase s c = 43 :: 86 :: y := by
  unfold dtmfBase
  split
  · exact ⟨_, .inl rfl⟩
  · exact ⟨_, .inr rfl⟩
theorem flat_joins {sep : PyStr} (hs : Flat sep) : ∀ {l : List PyStr}, (∀ x ∈ l, Flat x) → Flat (pyJoin sep l)
  | [], _ => by simp [pyJoin, Flat]
  | [x], h => h x (by simp)
  | x :: y :: l, h => by
    simp only [pyJoin, flat_append]
    exact ⟨⟨h x (by simp), hs⟩, flat_joins hs fun z hz => h z (by simp [hz])⟩
theorem base_plain {s : St} {c : CallObj} (r : PyStr) : NoMessage (py!"AT" ++ dtmfBase s c ++ r) := by
  obtain ⟨y, h | h⟩ := base_head s c <;> (rw [h]; simp [NoMessage])
theorem dtmf_flat {s : St} {c : CallObj} {t cmd : PyStr} (ht : Flat t) (h : dtmfCmd (dtmfBase s c) t = .ok cmd) : Flat cmd ∧ NoMessage cmd := by
  have hb := flat_base s c
  unfold dtmfCmd at h
  split at h
  · cases h
    exact ⟨flat_append.2 ⟨by decide, hb⟩, by simpa using base_plain (s := s) (c := c) []⟩
  · cases h
    exact ⟨by simp only [flat_append]; exact ⟨⟨by decide, hb⟩, ht⟩, base_plain _⟩
  · next x xs _ =>
    split at h
    · cases h
    · cases h
      have h1 : Flat [x] := by intro hm; simp at hm; exact ht (by simp [← hm])
      refine ⟨?_, by simpa using base_plain (s := s) (c := c) ([x] ++ py!";" ++ dtmfBase s c ++ pyJoin (py!";" ++ dtmfBase s c) (xs.map fun c => [c]))⟩
      simp only [flat_append]
      refine ⟨⟨⟨⟨⟨by decide, hb⟩, h1⟩, by decide⟩, hb⟩, flat_joins (flat_append.2 ⟨by decide, hb⟩) fun y hy => ?_⟩
      obtain ⟨z, hz, rfl⟩ := List.mem_map.1 hy
      intro hm
      simp at hm
      exact ht (by simp [hm, hz])
theorem w_dtmf (H : OnWire env asks) (i : Nat) {t : PyStr} (ht : Flat t) : Wired env asks AnyOut (sendDtmfTone i t) := by
  unfold sendDtmfTone
  refine .bindAny .getAny fun s => ?_
  split
  · exact .pureAny _
  · split
    · refine .bind (Q := fun c => Flat c ∧ NoMessage c) (.ofExcept fun c hc => dtmf_flat ht hc) fun c hc => ?_
      have := w_write H (pe := true) hc.1 hc.2
      wired
    · exact .raise _

theorem w_deed [PyUnicode] (H : OnWire env asks) (d : Deed) (s : St) (hs : Resting asks s) (hd : Fits s d) :
    Onto asks s.log (d.run env s).2.log ∧ Resting asks (d.run env s).2 := by
  have go : ∀ {α : Type} {m : M α}, Wired env asks AnyOut m → Onto asks s.log (m env s).2.log ∧ Resting asks (m env s).2 :=
    fun h => ⟨(h.run s hs).1, (h.run s hs).2.1⟩
  have dis : ∀ {α : Type} {m : M α}, Onto asks s.log (m env s).2.log ∧ Resting asks (m env s).2 → Onto asks s.log (discard m env s).2.log ∧ Resting asks (discard m env s).2 := by
    intro α m h
    have : (discard m env s).2 = (m env s).2 := by
      show (thenRun (m env s) _).2 = _
      unfold thenRun
      generalize m env s = x
      rcases x with ⟨_ | _, _⟩ <;> rfl
    rw [this]; exact h
  cases d with
  | connect pin => exact go (w_connect H hd)
  | close => exact go (.keep (fun _ => rfl) fun _ => rfl)
  | op o =>
    cases o with
    | event e => exact go (w_event H hd)
    | setTextMode v => exact go (w_textMode H v)
    | setSmsc n => exact go (w_setSmsc H hd)
    | getSmsc => exact dis (go (w_getSmsc H).any)
    | signalStrength => exact dis (go (w_signalStrength H))
    | manufacturer => exact dis (go (w_manufacturer H))
    | model => exact dis (go (w_model H))
    | revision => exact dis (go (w_revision H))
    | imei => exact dis (go (w_imei H))
    | imsi => exact dis (go (w_imsi H))
    | networkName => exact dis (go (w_networkName H))
    | supportedCommands => exact dis (go (w_supportedCommands H))
    | waitForNetworkCoverage r => exact dis (go (w_coverage H r true))
    | read i m => exact dis (go (w_read H hd.1 hd.2))
    | delete i m => exact go (w_delete H hd.1 hd.2)
    | deleteMultiple f m => exact go (w_deleteMultiple H f hd)
    | list st m d => exact dis (go (w_list H st hd d))
    | process u => exact go (w_process H u)
    | send d t f => exact dis (w_send H d t f s hs hd)
    | sendWait d t f e du =>
      refine dis ?_
      obtain ⟨hd, he, hdu⟩ := hd
      have h1 := w_send H d t f s hs hd
      have h2 : ∀ i : Nat, Wired env asks AnyOut (do
          let _ ← awaitEvent (fun _ => false) e
          M.modify fun s => { s with smsStatusReportEvent := some false }
          let ok ← awaitEvent (fun s => s.smsStatusReportEvent = some true) du
          M.modify fun s => { s with smsStatusReportEvent := none }
          if ok then pure i else M.raise (.timeout none) : M Nat) := by
        intro i
        have := w_await H (fun _ => false) e he
        have := w_await H (fun s => s.smsStatusReportEvent = some true) du hdu
        wired
      show Onto asks s.log (thenRun (sendSms d t f env s) _).2.log ∧ Resting asks (thenRun (sendSms d t f env s) _).2
      unfold thenRun
      generalize sendSms d t f env s = x at h1 ⊢
      rcases x with ⟨_ | i, s'⟩
      · exact h1
      · have h3 := (h2 i).run s' h1.2
        exact ⟨h1.1.trans h3.1, h3.2.1⟩
    | ussd x du => exact dis (go (w_sendUssd H hd.1 hd.2))
    | ussdReply u x du => exact dis (go (w_reply H u hd.1 hd.2))
    | ussdCancel u => exact go (w_cancel H u)
    | dial n t cb du => exact dis (go (w_dial H hd.1 t cb hd.2))
    | answer c => exact go (w_answer H c)
    | hangup c => exact go (w_hangup H c)
    | dtmf c t => exact go (w_dtmf H c hd)

theorem w_deeds [PyUnicode] (H : OnWire env asks) : ∀ (ds : List Deed) (s : St), Resting asks s → AllFit env ds s →
    Onto asks s.log (runDeeds env ds s).2.log ∧ Resting asks (runDeeds env ds s).2
  | [], s, hs, _ => ⟨.refl _, hs⟩
  | d :: ds, s, hs, hd => by
    have h1 := w_deed H d s hs hd.1
    have h2 := w_deeds H ds _ h1.2 hd.2
    exact ⟨h1.1.trans h2.1, h2.2⟩

end Gsm
