import Verif.Lemmas.WaitClock
import Verif.Props.Clock
/-! # C111: how long methods that wait for a notification block -/
namespace Gsm
open M Spec

variable {env : Env} {wait : List PyStr → Nat} {arrivals : List (Nat × Event)}

/-! ### What they end with -/

/-- `sendUssd` does the same as without the clock, when there happens just what comes before the time is over. -/
theorem C111_ussd (text : PyStr) (timeout : Nat) (s : St) :
    (ussdWithin env wait text timeout arrivals s).1 = sendUssd text (upTo (ussdCommand env wait text s + timeout) arrivals) env s := by
  have ht : ussdCommand env wait text s = (Prog.write (cusdCmd text)).elapsed env wait { s with ussdSessionEvent := some false } := rfl
  unfold ussdWithin sendUssd
  simp only [run_bind, run_modify, M.except]
  rw [← ht, Prog.same_write]
  generalize ussdCommand env wait text s = t
  rcases write (cusdCmd text) true [13] env { s with ussdSessionEvent := some false } with ⟨e | ls, s1⟩
  · simp [run_modify, run_bind, run_raise]
  · dsimp only
    split
    · simp only [run_bind, run_modify, run_ofExcept]
      cases parseCusdResponse ls <;> rfl
    · simp only [run_bind, timedAwait_same (env := env) (isSet := fun s => decide (s.ussdSessionEvent = some true)) (t + timeout) arrivals t s1, run_modify]
      rcases timedAwait env (fun s => decide (s.ussdSessionEvent = some true)) (t + timeout) arrivals t s1 with ⟨⟨_ | _, s2⟩, t2⟩ <;> rfl

/-- The same for `dial`. -/
theorem C111_dial (number : PyStr) (timeout : Nat) (cb : Bool) (s : St) :
    (dialWithin env wait number timeout cb arrivals s).1 = dial number timeout cb (upTo (dialCommand env wait number s + 500 * timeout) arrivals) env s := by
  unfold dialWithin dial dialCommand
  rw [run_bind, run_get]
  dsimp only
  by_cases hw : s.waitForCallInitUpdate = true
  · rw [if_pos hw, if_pos hw, if_pos hw]
    simp only [run_bind, run_modify, M.except]
    generalize (Proc.writeAtd number).elapsed env wait { s with dialEvent := some false } = t
    rw [same_writeAtd]
    obtain ⟨ok, s1, ⟨l, w, rfl⟩, -, ⟨-, h⟩ | ⟨-, e, h⟩⟩ := writeAtd_run (env := env) number { s with dialEvent := some false }
    · rw [h]
      dsimp only
      have tail : ∀ s0 : St, (show (Except PyErr Nat × St) × Nat from match timedAwait env (fun s => decide (s.dialEvent = some true)) (t + 500 * timeout) arrivals t s0 with
          | ((true, s), t) =>
            match ({ s with dialEvent := none } : St).dialResponse with
            | none => ((.error .typeError, { s with dialEvent := none }), t)
            | some (callId, callType) =>
              (registerCall { incoming := false, id := callId, type := some callType, number := some number, callback := cb } env { s with dialEvent := none }, t)
          | ((false, s), t) => ((.error (.timeout none), { s with dialEvent := none }), t)).1 =
          (do
            let ok ← awaitEvent (fun s => s.dialEvent = some true) (upTo (t + 500 * timeout) arrivals)
            M.modify fun s => { s with dialEvent := none }
            if ok then do
              let s ← get
              match s.dialResponse with
              | none => raise .typeError
              | some (callId, callType) =>
                registerCall { incoming := false, id := callId, type := some callType, number := some number, callback := cb }
            else raise (.timeout none) : M Nat) env s0 := by
        intro s0
        rw [run_bind, timedAwait_same (env := env) (isSet := fun s => decide (s.dialEvent = some true)) (t + 500 * timeout) arrivals t s0]
        rcases timedAwait env (fun s => decide (s.dialEvent = some true)) (t + 500 * timeout) arrivals t s0 with ⟨⟨_ | _, s2⟩, t2⟩
        · rfl
        · dsimp only
          rw [run_bind, run_modify]
          dsimp only
          rw [if_pos rfl, run_bind, run_get]
          dsimp only
          cases s2.dialResponse <;> rfl
      by_cases hm : s.mustPollCallStatus = true
      · rw [if_pos hm, if_pos hm]
        exact tail _
      · rw [if_neg hm, if_neg hm]
        exact tail _
    · rw [h]
      rfl
  · rw [if_neg hw, if_neg hw]
    generalize (Proc.writeAtd number).elapsed env wait s = t
    rw [run_bind, same_writeAtd]
    rcases writeAtd number env s with ⟨e | u, s1⟩ <;> rfl

/-- The same for `sendSms` with `waitForDeliveryReport`; what comes before the message is sent comes too early. -/
theorem C111_send [PyUnicode] (destination text : PyStr) (flash : Bool) (timeout : Nat) (s : St) :
    (sendWithin env wait destination text flash timeout arrivals s).1 =
      sendSmsWait destination text flash (before (sendCommandsTime env wait destination text flash s) arrivals)
        (upTo (sendCommandsTime env wait destination text flash s + timeout) (arrivals.dropWhile fun a => a.1 < sendCommandsTime env wait destination text flash s)) env s := by
  unfold sendWithin sendSmsWait sendCommandsTime before
  generalize (Prog.sendSms destination text flash).elapsed env wait s = t
  rw [run_bind, Prog.same_send]
  rcases sendSms destination text flash env s with ⟨e | i, s1⟩
  · rfl
  · dsimp only
    rw [run_bind, await_all]
    dsimp only
    rw [run_bind, run_modify]
    dsimp only
    rw [run_bind, occur_eq, timedAwait_same (env := env) (isSet := fun s => decide (s.smsStatusReportEvent = some true)) (t + timeout) (arrivals.dropWhile fun a => a.1 < t) t]
    dsimp only
    generalize timedAwait env (fun s => decide (s.smsStatusReportEvent = some true)) (t + timeout) _ t _ = x
    rcases x with ⟨⟨_ | _, s2⟩, t2⟩ <;> rfl

/-! ### How long they take -/

/-- `sendUssd` takes as long as its command, and after that at most `responseTimeout`. -/
theorem C111_ussd_time (text : PyStr) (timeout : Nat) (s : St) :
    ussdCommand env wait text s ≤ (ussdWithin env wait text timeout arrivals s).2 ∧ (ussdWithin env wait text timeout arrivals s).2 ≤ ussdCommand env wait text s + timeout := by
  have ht : ussdCommand env wait text s = (Prog.write (cusdCmd text)).elapsed env wait { s with ussdSessionEvent := some false } := rfl
  unfold ussdWithin
  dsimp only
  rw [← ht]
  generalize ussdCommand env wait text s = t
  rcases (Prog.write (cusdCmd text)).run env { s with ussdSessionEvent := some false } with ⟨e | ls, s1⟩
  · exact ⟨Nat.le_refl _, Nat.le_add_right _ _⟩
  · dsimp only
    split
    · exact ⟨Nat.le_refl _, Nat.le_add_right _ _⟩
    · obtain ⟨h1, h2, -⟩ := timedAwait_time (env := env) (isSet := fun s => decide (s.ussdSessionEvent = some true)) arrivals s1 (Nat.le_add_right t timeout)
      rcases h : timedAwait env (fun s => decide (s.ussdSessionEvent = some true)) (t + timeout) arrivals t s1 with ⟨⟨_ | _, s2⟩, t2⟩ <;> (rw [h] at h1 h2; exact ⟨h1, h2⟩)

/-- The same for `dial`; on modems where there is nothing to wait for, it takes as long as its command. -/
theorem C111_dial_time (number : PyStr) (timeout : Nat) (cb : Bool) (s : St) :
    dialCommand env wait number s ≤ (dialWithin env wait number timeout cb arrivals s).2 ∧
      (dialWithin env wait number timeout cb arrivals s).2 ≤ dialCommand env wait number s + (if s.waitForCallInitUpdate then 500 * timeout else 0) := by
  unfold dialWithin dialCommand
  by_cases hw : s.waitForCallInitUpdate = true
  · simp only [if_pos hw]
    generalize (Proc.writeAtd number).elapsed env wait { s with dialEvent := some false } = t
    rcases (Proc.writeAtd number).run env { s with dialEvent := some false } with ⟨e | u, s1⟩
    · exact ⟨Nat.le_refl _, Nat.le_add_right _ _⟩
    · dsimp only
      generalize (if s1.mustPollCallStatus = true then ({ s1 with pollers := s1.pollers ++ [⟨0, none, if timeout = 0 then 1999998 else timeout, false⟩] } : St) else s1) = s2
      obtain ⟨h1, h2, -⟩ := timedAwait_time (env := env) (isSet := fun s => decide (s.dialEvent = some true)) arrivals s2 (Nat.le_add_right t (500 * timeout))
      rcases h : timedAwait env (fun s => decide (s.dialEvent = some true)) (t + 500 * timeout) arrivals t s2 with ⟨⟨_ | _, s3⟩, t2⟩
      · rw [h] at h1 h2
        exact ⟨h1, h2⟩
      · rw [h] at h1 h2
        dsimp only
        cases s3.dialResponse <;> exact ⟨h1, h2⟩
  · simp only [if_neg hw]
    rcases (Proc.writeAtd number).run env s with ⟨e | u, s1⟩ <;> exact ⟨Nat.le_refl _, Nat.le_refl _⟩

/-- The same for `sendSms`. -/
theorem C111_send_time [PyUnicode] (destination text : PyStr) (flash : Bool) (timeout : Nat) (s : St) :
    sendCommandsTime env wait destination text flash s ≤ (sendWithin env wait destination text flash timeout arrivals s).2 ∧
      (sendWithin env wait destination text flash timeout arrivals s).2 ≤ sendCommandsTime env wait destination text flash s + timeout := by
  unfold sendWithin sendCommandsTime
  generalize (Prog.sendSms destination text flash).elapsed env wait s = t
  rcases (Prog.sendSms destination text flash).run env s with ⟨e | i, s1⟩
  · exact ⟨Nat.le_refl _, Nat.le_add_right _ _⟩
  · dsimp only
    generalize ({ occur env (arrivals.takeWhile fun a => decide (a.1 < t)) s1 with smsStatusReportEvent := some false } : St) = s2
    generalize arrivals.dropWhile (fun a => decide (a.1 < t)) = later
    obtain ⟨h1, h2, -⟩ := timedAwait_time (env := env) (isSet := fun s => decide (s.smsStatusReportEvent = some true)) later s2 (Nat.le_add_right t timeout)
    rcases h : timedAwait env (fun s => decide (s.smsStatusReportEvent = some true)) (t + timeout) later t s2 with ⟨⟨_ | _, s3⟩, t2⟩ <;> (rw [h] at h1 h2; exact ⟨h1, h2⟩)

/-! ### When they end -/

theorem ussd_started {text : PyStr} {ls : List PyStr} {s s1 : St} (hw : write (cusdCmd text) true [13] env { s with ussdSessionEvent := some false } = (.ok ls, s1)) :
    s1.ussdSessionEvent = some false := by
  obtain ⟨k, w, h1, _⟩ := write_outcome (data := cusdCmd text) (term := [13]) (env := env) { s with ussdSessionEvent := some false }
  rw [hw] at h1
  rw [show s1 = _ from h1]

theorem not_inAnswer {ls : List PyStr} (h : ¬ InAnswer ls) : ¬ (ls.length > 1 ∧ lineStartingWith py!"+CUSD" ls ≠ none) := by
  rintro ⟨j1, j2⟩
  exact h ⟨j1, Classical.byContradiction fun hc => j2 ((C52_starting_with _ _).2.2 fun x hx hp => hc ⟨x, hx, hp⟩)⟩

theorem awaits_ussd {s s' : St} {es : List Event} {r : Option Ussd} (hs : s.ussdSessionEvent = some false) (h : AwaitsUssd env s es s' r) :
    awaitEvent (fun s => s.ussdSessionEvent = some true) es env s = (.ok r.isSome, s') ∧ ∀ u, r = some u → s'.ussdResponse = some u := by
  obtain ⟨s2, r2, h1, h2, h3⟩ := await_ussd (env := env) es hs
  obtain ⟨rfl, rfl⟩ := C72_wait_unique h h1
  exact ⟨h2, h3⟩

/-- `sendUssd` ends at the moment at which a result is there, or with the command if it is there already. -/
theorem C111_ussd_told {text : PyStr} {timeout m : Nat} {u : Ussd} {ls : List PyStr} {s s1 : St}
    (hw : write (cusdCmd text) true [13] env { s with ussdSessionEvent := some false } = (.ok ls, s1)) (hl : ¬ InAnswer ls) (ho : TimeOrder arrivals)
    (hf : FirstAt (fun es r => ∃ s', AwaitsUssd env s1 es s' r) none (some u) arrivals m) (hm : m ≤ ussdCommand env wait text s + timeout) :
    (ussdWithin env wait text timeout arrivals s).1.1 = .ok (some u) ∧ (ussdWithin env wait text timeout arrivals s).2 = max (ussdCommand env wait text s) m := by
  have ht : ussdCommand env wait text s = (Prog.write (cusdCmd text)).elapsed env wait { s with ussdSessionEvent := some false } := rfl
  obtain ⟨pre, e, post, rfl, ⟨s2, h2⟩, ⟨s3, h3⟩⟩ := hf
  obtain ⟨h2, -⟩ := awaits_ussd (ussd_started hw) h2
  obtain ⟨h3, h4⟩ := awaits_ussd (ussd_started hw) h3
  have key := timedAwait_told (now := ussdCommand env wait text s) pre ho hm h2 h3
  unfold ussdWithin
  dsimp only
  rw [← ht, Prog.same_write, hw]
  dsimp only
  rw [if_neg (not_inAnswer hl), key]
  exact ⟨congrArg Except.ok (h4 u rfl), rfl⟩

/-- If there is none in time, it raises TimeoutException, just when the time is over. -/
theorem C111_ussd_late {text : PyStr} {timeout : Nat} {ls : List PyStr} {s s1 s2 : St}
    (hw : write (cusdCmd text) true [13] env { s with ussdSessionEvent := some false } = (.ok ls, s1)) (hl : ¬ InAnswer ls)
    (hn : AwaitsUssd env s1 (upTo (ussdCommand env wait text s + timeout) arrivals) s2 none) :
    (ussdWithin env wait text timeout arrivals s).1.1 = .error (.timeout none) ∧ (ussdWithin env wait text timeout arrivals s).2 = ussdCommand env wait text s + timeout := by
  have ht : ussdCommand env wait text s = (Prog.write (cusdCmd text)).elapsed env wait { s with ussdSessionEvent := some false } := rfl
  have key := timedAwait_late (Nat.le_add_right _ _) (awaits_ussd (ussd_started hw) hn).1
  unfold ussdWithin
  dsimp only
  rw [← ht, Prog.same_write, hw]
  dsimp only
  rw [if_neg (not_inAnswer hl), key]
  exact ⟨rfl, rfl⟩

theorem dial_started {number : PyStr} {timeout : Nat} {s s1 : St} (hw : writeAtd number env { s with dialEvent := some false } = (.ok (), s1)) :
    (withPoller s1 timeout).dialEvent = some false := by
  have h : s1.dialEvent = some false := by
    obtain ⟨ok, s2, ⟨l, w, rfl⟩, -, ⟨-, h⟩ | ⟨-, e, h⟩⟩ := writeAtd_run (env := env) number { s with dialEvent := some false } <;> rw [h] at hw <;> cases hw
    rfl
  unfold withPoller
  split <;> exact h

theorem awaits_dial (hdep : 0 < env.depth) {s s' : St} {es : List Event} {r : Option (Nat × Nat)} (hs : s.dialEvent = some false) (h : AwaitsCall env s es s' r) :
    awaitEvent (fun s => s.dialEvent = some true) es env s = (.ok r.isSome, s') ∧ (r.isSome → ∃ a b, s'.dialResponse = some (a, b)) := by
  induction h with
  | over => exact ⟨by rw [await_over, hs]; rfl, by simp⟩
  | told h1 =>
    rcases event_dial hdep hs _ with ⟨a, b, -, h2, h3⟩ | ⟨h2, -⟩
    · exact ⟨by rw [await_step (by rw [hs]; rfl), await_set (by rw [h2]; rfl)]; rfl, fun _ => ⟨_, _, h3⟩⟩
    · exact absurd h1 (h2 _ _)
  | other h1 _ ih =>
    rcases event_dial hdep hs _ with ⟨a, b, h2, -⟩ | ⟨-, h2⟩
    · exact absurd h2 (h1 _ _)
    · rw [await_step (by rw [hs]; rfl)]
      exact ih h2

/-- `dial` ends at the moment at which the call begins, or with the command if it has begun already. -/
theorem C111_dial_told (hdep : 0 < env.depth) {number : PyStr} {timeout m : Nat} {cb : Bool} {s s1 : St} (hc : s.waitForCallInitUpdate = true)
    (hw : writeAtd number env { s with dialEvent := some false } = (.ok (), s1)) (ho : TimeOrder arrivals)
    (hf : FirstAt (fun es told => ∃ s' r, AwaitsCall env (withPoller s1 timeout) es s' r ∧ r.isSome = told) false true arrivals m)
    (hm : m ≤ dialCommand env wait number s + 500 * timeout) :
    (∃ i, (dialWithin env wait number timeout cb arrivals s).1.1 = .ok i) ∧ (dialWithin env wait number timeout cb arrivals s).2 = max (dialCommand env wait number s) m := by
  have ht : dialCommand env wait number s = (Proc.writeAtd number).elapsed env wait { s with dialEvent := some false } := by unfold dialCommand; rw [if_pos hc]
  obtain ⟨pre, e, post, rfl, ⟨s2, r2, h2, k2⟩, ⟨s3, r3, h3, k3⟩⟩ := hf
  obtain ⟨h2, -⟩ := awaits_dial hdep (dial_started hw) h2
  obtain ⟨h3, h4⟩ := awaits_dial hdep (dial_started hw) h3
  rw [k2] at h2
  rw [k3] at h3
  have key := timedAwait_told (now := dialCommand env wait number s) pre ho hm h2 h3
  obtain ⟨a, b, h5⟩ := h4 k3
  unfold dialWithin
  rw [if_pos hc]
  dsimp only
  rw [← ht, same_writeAtd, hw]
  dsimp only
  rw [show (if s1.mustPollCallStatus = true then ({ s1 with pollers := s1.pollers ++ [⟨0, none, if timeout = 0 then 1999998 else timeout, false⟩] } : St) else s1) = withPoller s1 timeout from rfl, key]
  dsimp only
  rw [h5]
  exact ⟨⟨_, rfl⟩, rfl⟩

/-- If it does not begin in time, `dial` raises TimeoutException, just when the time is over. -/
theorem C111_dial_late (hdep : 0 < env.depth) {number : PyStr} {timeout : Nat} {cb : Bool} {s s1 s2 : St} (hc : s.waitForCallInitUpdate = true)
    (hw : writeAtd number env { s with dialEvent := some false } = (.ok (), s1))
    (hn : AwaitsCall env (withPoller s1 timeout) (upTo (dialCommand env wait number s + 500 * timeout) arrivals) s2 none) :
    (dialWithin env wait number timeout cb arrivals s).1.1 = .error (.timeout none) ∧
      (dialWithin env wait number timeout cb arrivals s).2 = dialCommand env wait number s + 500 * timeout := by
  have ht : dialCommand env wait number s = (Proc.writeAtd number).elapsed env wait { s with dialEvent := some false } := by unfold dialCommand; rw [if_pos hc]
  have key := timedAwait_late (Nat.le_add_right _ _) (awaits_dial hdep (dial_started hw) hn).1
  unfold dialWithin
  rw [if_pos hc]
  dsimp only
  rw [← ht, same_writeAtd, hw]
  dsimp only
  rw [show (if s1.mustPollCallStatus = true then ({ s1 with pollers := s1.pollers ++ [⟨0, none, if timeout = 0 then 1999998 else timeout, false⟩] } : St) else s1) = withPoller s1 timeout from rfl, key]
  exact ⟨rfl, rfl⟩

theorem awaits_report {s s' : St} {es : List Event} {told : Bool} (hs : s.smsStatusReportEvent = some false) (h : AwaitsReport env s es s' told) :
    awaitEvent (fun s => s.smsStatusReportEvent = some true) es env s = (.ok told, s') := by
  obtain ⟨s2, r2, h1, h2⟩ := await_report (env := env) es hs
  obtain ⟨rfl, rfl⟩ := C71_wait_unique h h1
  exact h2

/-- `sendSms` ends at the moment of the first report that comes after the message has been sent. -/
theorem C111_send_told [PyUnicode] {destination text : PyStr} {flash : Bool} {timeout m i : Nat} {s s1 : St} {later : List (Nat × Event)}
    (hw : sendSms destination text flash env s = (.ok i, s1)) (ho : TimeOrder later)
    (hl : later = arrivals.dropWhile fun a => a.1 < sendCommandsTime env wait destination text flash s)
    (hf : FirstAt (fun es told => ∃ s', AwaitsReport env { happenAll env (before (sendCommandsTime env wait destination text flash s) arrivals) s1 with smsStatusReportEvent := some false } es s' told)
      false true later m) (hm : m ≤ sendCommandsTime env wait destination text flash s + timeout) :
    (sendWithin env wait destination text flash timeout arrivals s).1.1 = .ok i ∧
      (sendWithin env wait destination text flash timeout arrivals s).2 = max (sendCommandsTime env wait destination text flash s) m := by
  obtain ⟨pre, e, post, hp, ⟨s2, h2⟩, ⟨s3, h3⟩⟩ := hf
  have key := timedAwait_told (now := sendCommandsTime env wait destination text flash s) (post := post) pre (hp ▸ ho) hm (awaits_report rfl h2) (awaits_report rfl h3)
  rw [← hp, hl] at key
  have ht : sendCommandsTime env wait destination text flash s = (Prog.sendSms destination text flash).elapsed env wait s := rfl
  unfold sendWithin
  dsimp only
  rw [← ht, Prog.same_send, hw]
  dsimp only
  unfold before at key
  rw [occur_eq, key]
  exact ⟨rfl, rfl⟩

/-- If there is none in time, it raises TimeoutException, just when the time is over, though the message has been sent. -/
theorem C111_send_late [PyUnicode] {destination text : PyStr} {flash : Bool} {timeout i : Nat} {s s1 s2 : St}
    (hw : sendSms destination text flash env s = (.ok i, s1))
    (hn : AwaitsReport env { happenAll env (before (sendCommandsTime env wait destination text flash s) arrivals) s1 with smsStatusReportEvent := some false }
      (upTo (sendCommandsTime env wait destination text flash s + timeout) (arrivals.dropWhile fun a => a.1 < sendCommandsTime env wait destination text flash s)) s2 false) :
    (sendWithin env wait destination text flash timeout arrivals s).1.1 = .error (.timeout none) ∧
      (sendWithin env wait destination text flash timeout arrivals s).2 = sendCommandsTime env wait destination text flash s + timeout := by
  have ht : sendCommandsTime env wait destination text flash s = (Prog.sendSms destination text flash).elapsed env wait s := rfl
  have key := timedAwait_late (Nat.le_add_right _ _) (awaits_report rfl hn)
  unfold sendWithin
  dsimp only
  rw [← ht, Prog.same_send, hw]
  dsimp only
  unfold before at key
  rw [occur_eq, key]
  exact ⟨rfl, rfl⟩

theorem dropWhile_early {t : Nat} : ∀ {l : List (Nat × Event)}, (∀ a ∈ l, a.1 < t) → (l.dropWhile fun a => decide (a.1 < t)) = []
  | [], _ => rfl
  | a :: l, h => by
    rw [List.dropWhile_cons, if_pos (by simpa using h a (by simp))]
    exact dropWhile_early fun b hb => h b (by simp [hb])

/-- Reports that come while the message is being sent (they are for its first parts, or for other messages) are not waited for: the method waits to the end. -/
theorem C111_send_early [PyUnicode] {destination text : PyStr} {flash : Bool} {timeout i : Nat} {s s1 : St}
    (hw : sendSms destination text flash env s = (.ok i, s1)) (ha : ∀ a ∈ arrivals, a.1 < sendCommandsTime env wait destination text flash s) :
    (sendWithin env wait destination text flash timeout arrivals s).1.1 = .error (.timeout none) ∧
      (sendWithin env wait destination text flash timeout arrivals s).2 = sendCommandsTime env wait destination text flash s + timeout := by
  refine C111_send_late hw (s2 := { happenAll env (before (sendCommandsTime env wait destination text flash s) arrivals) s1 with smsStatusReportEvent := some false }) ?_
  rw [dropWhile_early ha, upTo_nil]
  exact .over

/-- The result comes 2 seconds after the request, which the modem has acknowledged at once. -/
example : ussdWithin goodModem (fun _ => 20) py!"*1#" 15000 [(500, .notify [py!"^RSSI: 17"]), (2000, .notify [py!"+CUSD: 0,\"10\",15"]), (3000, .notify [py!"+CUSD: 0,\"11\",15"])] {} =
    ((.ok (some ⟨false, some py!"10"⟩), { log := [py!"AT+CUSD=1,\"*1#\",15\r"], ussdResponse := some ⟨false, some py!"10"⟩ }), 2000) := by decide +kernel
/-- It was there before the acknowledgement. -/
example : (ussdWithin goodModem (fun _ => 700) py!"*1#" 15000 [(500, .notify [py!"+CUSD: 0,\"10\",15"])] {}).2 = 700 := by decide +kernel
/-- It comes too late. -/
example : let r := ussdWithin goodModem (fun _ => 20) py!"*1#" 15000 [(15021, .notify [py!"+CUSD: 0,\"10\",15"])] {}
    (r.1.1, r.2) = (.error (.timeout none), 15020) := by decide +kernel
example : FirstAt (fun es r => ∃ s', AwaitsUssd goodModem { ussdSessionEvent := some false } es s' r) none (some ⟨false, some py!"10"⟩) [(7, .poll 0), (2000, .notify [py!"+CUSD: 0,\"10\",15"])] 2000 := by
  have h1 : ∀ (s : St) u, ¬ BringsUssd s u (.poll 0) := fun _ _ h => h
  refine ⟨[(7, .poll 0)], .notify [py!"+CUSD: 0,\"10\",15"], [], rfl, ⟨_, .other (h1 _) .over⟩, ⟨_, .other (h1 _) (.told ?_)⟩⟩
  exact ⟨[], _, [], rfl, by simp, recognise_iff.1 (by decide), (C72_parse _ _).1 (by decide +kernel)⟩
example : let r := dialWithin goodModem (fun _ => 20) py!"0123" 10 true [(900, .notify [py!"^ORIG:3,0"])] huaweiState
    (r.1.1, r.2) = (.ok 0, 900) := by decide +kernel
example : let r := dialWithin goodModem (fun _ => 20) py!"0123" 10 true [(900, .notify [py!"^RSSI: 17"])] huaweiState
    (r.1.1, r.2) = (.error (.timeout none), 5020) := by decide +kernel
attribute [local instance] asciiUnicode in
example : let r := sendWithin (reportModem py!"5") (fun _ => 20) py!"12" py!"Hi" false 60000 [(3000, reportEvent)] { smsTextMode := true }
    (r.1.1, r.2) = (.ok 0, 3000) := by decide +kernel
attribute [local instance] asciiUnicode in
/-- The report comes 10 milliseconds before the modem is done with the command. -/
example : let r := sendWithin (reportModem py!"5") (fun _ => 20) py!"12" py!"Hi" false 60000 [(30, reportEvent)] { smsTextMode := true }
    (r.1.1, r.2) = (.error (.timeout none), 60040) := by decide +kernel

/-! ### The limits -/

theorem command_limit {T : Nat} (hb : NeverBusy env.reply) (hT : ∀ log, wait log ≤ T) (data : PyStr) (s : St) :
    (Prog.write data).elapsed env wait s ≤ T + 100 * s.writeWait := by
  let _ : PyUnicode := asciiUnicode
  have h := C104_calm_limit (lines := 0) (wait := wait) hb hT (.message (.ask data)) rfl (by intro h; cases h) s
  have h1 : (Task.message (.ask data)).prog = (Prog.write data >>= fun _ => pure ()) := rfl
  rw [h1, Prog.elapsed_bind] at h
  have h2 : taskCommands 0 (.message (.ask data)) = 1 := rfl
  rw [h2] at h
  omega

/-- If the modem is not busy and answers within `responseTimeout`, `sendUssd` takes at most twice that, and the delay. -/
theorem C111_ussd_limit {timeout : Nat} (hb : NeverBusy env.reply) (hT : ∀ log, wait log ≤ timeout) (text : PyStr) (s : St) :
    (ussdWithin env wait text timeout arrivals s).2 ≤ 2 * timeout + 100 * s.writeWait := by
  have h1 := (C111_ussd_time (env := env) (wait := wait) (arrivals := arrivals) text timeout s).2
  have h2 : ussdCommand env wait text s ≤ timeout + 100 * s.writeWait := command_limit hb hT _ _
  omega

theorem dialCommand_limit {T : Nat} (hb : NeverBusy env.reply) (hT : ∀ log, wait log ≤ T) (number : PyStr) (s : St) : dialCommand env wait number s ≤ T + 100 * s.writeWait := by
  have key : ∀ s : St, (Proc.writeAtd number).elapsed env wait s ≤ T + 100 * s.writeWait := by
    intro s
    unfold Proc.writeAtd
    rw [Prog.elapsed_bind]
    have h0 : Prog.look.elapsed env wait s = 0 := by simp [Prog.look, pure, Prog.elapsed, Prog.actTime]
    rw [h0]
    show 0 + Prog.elapsed env wait (if s.waitForAtdResponse = true then _ else _) s ≤ _
    by_cases h : s.waitForAtdResponse = true
    · rw [if_pos h, Prog.elapsed_bind]
      have h1 := command_limit (wait := wait) hb hT (atdCmd number) s
      rcases Prog.run env (Prog.write (atdCmd number)) s with ⟨e | r, s'⟩
      · dsimp only; omega
      · have h2 : Prog.elapsed env wait (pure () : Prog Unit) s' = 0 := rfl
        show 0 + (_ + Prog.elapsed env wait (pure () : Prog Unit) s') ≤ _
        omega
    · rw [if_neg h]
      simp only [Prog.writeNoWait, Prog.change, pure, Prog.elapsed, Prog.actTime, List.length_cons, nap_eq]
      rw [if_pos (by omega), if_neg (by omega)]
      omega
  unfold dialCommand
  split
  · exact key _
  · exact key _

/-- The same for `dial`. -/
theorem C111_dial_limit {timeout : Nat} (hb : NeverBusy env.reply) (hT : ∀ log, wait log ≤ 500 * timeout) (number : PyStr) (cb : Bool) (s : St) :
    (dialWithin env wait number timeout cb arrivals s).2 ≤ 2 * (500 * timeout) + 100 * s.writeWait := by
  have h1 := (C111_dial_time (env := env) (wait := wait) (arrivals := arrivals) number timeout cb s).2
  have h2 := dialCommand_limit (wait := wait) hb hT number s
  split at h1 <;> omega

/-- `sendSms` takes at most `deliveryTimeout` in addition to the time of its commands. -/
theorem C111_send_limit [PyUnicode] {T : Nat} (hb : NeverBusy env.reply) (hT : ∀ log, wait log ≤ T) (destination text : PyStr) (flash : Bool) (timeout : Nat) (s : St) :
    (sendWithin env wait destination text flash timeout arrivals s).2 ≤ mostToSend text * (T + 100 * s.writeWait) + timeout := by
  have h1 := (C111_send_time (env := env) (wait := wait) (arrivals := arrivals) destination text flash timeout s).2
  have h := C104_calm_limit (lines := 0) (wait := wait) hb hT (.message (.send destination text flash)) rfl (by intro h; cases h) s
  have h2 : (Task.message (.send destination text flash)).prog = (Prog.sendSms destination text flash >>= fun _ => pure ()) := rfl
  rw [h2, Prog.elapsed_bind] at h
  have h3 : taskCommands 0 (.message (.send destination text flash)) = mostToSend text := rfl
  rw [h3] at h
  unfold sendCommandsTime at h1
  omega

/-! ### The time-outs are not the limits that they are said to be -/

/-- "Maximum time to wait a response", modem.py:673: a result is waited for, and returned, up to twice that long after the request. -/
theorem C111_ussd_violated : (∀ log, (fun _ : List PyStr => 15000) log ≤ 15000) ∧
    let r := ussdWithin goodModem (fun _ => 15000) py!"*1#" 15000 [(30000, .notify [py!"+CUSD: 0,\"10\",15"])] {}
    r.1.1 = .ok (some ⟨false, some py!"10"⟩) ∧ r.2 = 2 * 15000 := by
  refine ⟨fun _ => Nat.le_refl _, ?_⟩
  decide +kernel

/-- "Maximum time to wait for the call to be established", modem.py:705: the same. -/
theorem C111_dial_violated : (∀ log, (fun _ : List PyStr => 5000) log ≤ 5000) ∧
    let r := dialWithin goodModem (fun _ => 5000) py!"0123" 10 true [(10000, .notify [py!"^ORIG:3,0"])] huaweiState
    r.1.1 = .ok 0 ∧ r.2 = 2 * 5000 := by
  refine ⟨fun _ => Nat.le_refl _, ?_⟩
  decide +kernel

/-- Each time the modem says that it is busy, the time begins anew: three times `responseTimeout` and more, and then the wait. -/
theorem C111_busy_violated : let r := ussdWithin busyTwice (fun _ => 15000) py!"*1#" 15000 [(70000, .notify [py!"+CUSD: 0,\"10\",15"])] {}
    r.1.1 = .error (.timeout none) ∧ r.2 = 4 * 15000 + 1200 := by decide +kernel

end Gsm
