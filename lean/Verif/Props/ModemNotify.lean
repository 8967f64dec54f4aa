import Verif.Lemmas.Notify
import Verif.Spec.Notify
import Verif.Spec.ExampleModem
import Verif.Props.ModemListing
import Verif.Props.Util
/-! # Properties C43 and C44: notifications and USSD -/
namespace Gsm
open M Spec

variable {env : Env}

/-! ### C43 -/

/-- The handler for what a line announces. -/
def handlerOf (batch : List PyStr) (line : PyStr) : Dispatch → M Unit
  | .ring => handleIncomingCall batch
  | .cmti => handleSmsReceived line
  | .cusd => handleUssd batch
  | .cdsi => handleSmsStatusReport line
  | .call h g => runCallHandler h g

/-- A batch is handled by the handler of its first recognised line, and by no other. -/
theorem C43_first {pre post : List PyStr} {line : PyStr} {d : Dispatch} {s : St}
    (hpre : ∀ l ∈ pre, ∀ d, ¬ Announces (callTable s.callStatusUpdates) l d) (hd : Announces (callTable s.callStatusUpdates) line d) :
    handleNotification (pre ++ line :: post) env s = handlerOf (pre ++ line :: post) line d env s := by
  unfold handleNotification
  rw [dispatch_skip hpre, dispatchLoop, run_bind, run_get]
  simp only [recognise_iff.2 hd]
  cases d <;> rfl

/-- A batch without a recognised line does nothing. -/
theorem C43_none {batch : List PyStr} {s : St} (h : ∀ l ∈ batch, ∀ d, ¬ Announces (callTable s.callStatusUpdates) l d) :
    handleNotification batch env s = (.ok (), s) := by
  unfold handleNotification
  have := dispatch_skip (env := env) (batch := batch) (rest := []) h
  rw [List.append_nil] at this
  rw [this]
  rfl

/-- A line announces at most one thing. -/
theorem C43_unique {table : List (List Rx × CallHandler)} {l : PyStr} {d d' : Dispatch} (h : Announces table l d) (h' : Announces table l d') : d = d' := by
  rw [← recognise_iff] at h h'
  rw [h] at h'
  exact Option.some.inj h'

example : Announces (callTable .huawei) py!"^CONN:1,0" (.call .answered [py!"1", py!"0"]) := recognise_iff.1 (by decide)
example : Announces (callTable .zte) py!"HANGUP: 17" (.call .ended [py!"17"]) := recognise_iff.1 (by decide)

/-- Of two messages announced together, the second is never read. -/
theorem C43_second_message_lost {b mem idx : PyStr} {post : List PyStr} {s : St} (hr : ¬ py!"RING" <:+: cmtiLine b mem idx) :
    handleNotification (cmtiLine b mem idx :: post) env s = handleSmsReceived (cmtiLine b mem idx) env s :=
  C43_first (pre := []) (by simp) (.message hr ⟨py!":" ++ b ++ py!"\"" ++ mem ++ py!"\"," ++ idx, by simp [cmtiLine]⟩)

example : (handleNotification [py!"+CMTI: \"SM\",3", py!"+CMTI: \"SM\",4"] (twoMessages hiPdu) {}).2.callbacks = [.smsReceived (hiMsg 0)] := by decide +kernel

/-- Any line that contains RING is taken for an incoming call. -/
theorem C43_ring_anywhere : (handleNotification [py!"+CUSD: 0,\"SPRING SALE\",15"] goodModem { ussdSessionEvent := some false }).2.ussdSessionEvent = some false ∧
    (handleNotification [py!"+CUSD: 0,\"SPRING SALE\",15"] goodModem { ussdSessionEvent := some false }).2.callbacks = [.incomingCall 0] := by decide +kernel

/-- The call type is taken from the first line of the batch, even if that is not the one that rings. -/
theorem C43_first_line_taken : (handleNotification [py!"NO CARRIER", py!"+CRING: VOICE"] goodModem { extendedIncomingCallIndication := true }).1 = .error .keyError ∧
    (handleNotification [py!"+CRING: VOICE"] goodModem { extendedIncomingCallIndication := true }).2.callbacks = [.incomingCall 0] := by decide +kernel

/-! ### C44 -/

/-- Several lines with at least two results. -/
theorem C44_several {lines : List PyStr} {rs : List UssdResult} (hl : 2 ≤ lines.length) (hr : 2 ≤ rs.length)
    (h : UssdText ([13, 10].intercalate lines) rs) : parseCusdResponse lines = .ok ⟨ussdOpen rs, ussdMessage rs⟩ := by
  match lines, hl with
  | l1 :: l2 :: ls, _ =>
    unfold parseCusdResponse
    simp only
    rw [pyJoin_eq, findAll_text h (Nat.lt_succ_self _), cusdPairs_map]
    match rs, hr with
    | r1 :: r2 :: rs, _ =>
      have := cusdLoop_eq (r1 :: r2 :: rs) none true
      simp only [List.map_cons] at this ⊢
      rw [this]
      simp

/-- Several lines with one result (its message has several lines), or one line. -/
theorem C44_single {lines : List PyStr} {r : UssdResult} (hl : 2 ≤ lines.length) (h : UssdText ([13, 10].intercalate lines) [r]) :
    parseCusdResponse lines = .ok ⟨r.status = 49, some r.message⟩ := by
  match lines, hl with
  | l1 :: l2 :: ls, _ =>
    unfold parseCusdResponse
    simp only
    rw [pyJoin_eq, findAll_text h (Nat.lt_succ_self _), cusdPairs_map]
    simp only [List.map_cons, List.map_nil]
    by_cases h1 : r.status = 49 <;> simp [h1]

/-- One line. -/
theorem C44_line {r : UssdResult} {rest : PyStr} (h : r.Ok) (hr : ∀ c, rest.head? = some c → ¬ (48 ≤ c ∧ c ≤ 57)) :
    parseCusdResponse [r.text ++ rest] = .ok ⟨r.status = 49, some r.message⟩ := by
  simp only [parseCusdResponse, rxGroups, cusd_match h hr, Option.map_some]
  by_cases h1 : r.status = 49 <;> simp [h1]

/-- A reply in a closed session is refused and nothing is written. -/
theorem C44_reply_closed (message : Option PyStr) (reply : PyStr) (during : List Event) (s : St) :
    Ussd.reply ⟨false, message⟩ reply during env s = (.error .invalidState, s) := rfl

/-- In an open session it is a new USSD command. -/
theorem C44_reply_open (message : Option PyStr) (reply : PyStr) (during : List Event) (s : St) :
    Ussd.reply ⟨true, message⟩ reply during env s = sendUssd reply during env s := rfl

/-- Cancelling writes nothing in a closed session, and one command otherwise. -/
theorem C44_cancel (u : Ussd) (s : St) : ∃ ok s1, OnlyLog s s1 ∧
    Transmission env.reply (if u.sessionActive then [py!"AT+CUSD=2\r"] else []) s.log s1.log ok ∧ (u.cancel env s).2 = s1 ∧
    ((u.cancel env s).1 = .ok () ↔ ok = true) := by
  unfold Ussd.cancel
  cases u.sessionActive
  · exact ⟨true, s, .refl s, .done, rfl, by simp [run_pure]⟩
  · obtain ⟨ok, s1, h1, h2, h3⟩ := write_trans (env := env) py!"AT+CUSD=2" [13] s
    simp only [if_true]
    refine ⟨ok, s1, h1, h2, ?_⟩
    simp only [run_bind]
    rcases h3 with ⟨rfl, h3⟩ | ⟨rfl, e, h3⟩
    · rw [h3]; simp [run_pure]
    · rw [h3]; simp

example : parseCusdResponse [py!"+CUSD: 1,\"Menu", py!"1. Balance\",15"] = .ok ⟨true, some (py!"Menu" ++ [13, 10] ++ py!"1. Balance")⟩ := by decide +kernel
example : parseCusdResponse [py!"+CUSD: 0,\"Bye\",15", py!"+CUSD: 2,\"released\",15"] = .ok ⟨false, some py!"Bye"⟩ := by decide +kernel

/-- After sending a USSD string no session is awaited, whatever happened. -/
theorem C44_not_awaited (str : PyStr) (during : List Event) (s : St) : (sendUssd str during env s).2.ussdSessionEvent = none := by
  unfold sendUssd
  simp only [run_bind, run_modify, M.except]
  cases h1 : write (cusdCmd str) true [13] env { s with ussdSessionEvent := some false } with
  | mk r s1 =>
    cases r with
    | error e => simp [run_bind, run_modify, run_raise]
    | ok ls =>
      dsimp only
      split
      · simp only [run_bind, run_modify, run_ofExcept]
        cases parseCusdResponse ls <;> simp [run_pure]
      · simp only [run_bind, run_modify]
        cases h2 : awaitEvent (fun s => s.ussdSessionEvent = some true) during env s1 with
        | mk r2 s2 =>
          cases r2 with
          | error e => exact absurd (congrArg Prod.fst h2) (awaitEvent_ok _ _ _ _)
          | ok b => cases b <;> simp [run_bind, run_get, run_pure, run_raise]

/-- The result is in the response. -/
theorem C44_in_response {str : PyStr} {during : List Event} {s s1 : St} {ls : List PyStr}
    (hw : write (cusdCmd str) true [13] env { s with ussdSessionEvent := some false } = (.ok ls, s1)) (hl : 2 ≤ ls.length) (hc : ∃ l ∈ ls, py!"+CUSD" <+: l) :
    sendUssd str during env s = ((parseCusdResponse ls).map some, { s1 with ussdSessionEvent := none }) := by
  unfold sendUssd
  simp only [run_bind, run_modify, M.except, hw]
  have hs : lineStartingWith py!"+CUSD" ls ≠ none := by
    rw [ne_eq, (C52_starting_with _ _).2]
    obtain ⟨l, hl, hp⟩ := hc
    exact fun h => h l hl hp
  rw [if_pos ⟨hl, hs⟩]
  simp only [run_bind, run_modify, run_ofExcept]
  cases parseCusdResponse ls <;> rfl

/-- The result comes in a notification while the method waits: in the first batch that announces a USSD result. -/
theorem C44_in_notification {str : PyStr} {pre post : List PyStr} {line : PyStr} {later : List Event} {s s1 : St} {ls : List PyStr} {u : Ussd}
    (hw : write (cusdCmd str) true [13] env { s with ussdSessionEvent := some false } = (.ok ls, s1)) (hc : ∀ l ∈ ls, ¬ py!"+CUSD" <+: l)
    (hpre : ∀ l ∈ pre, ∀ d, ¬ Announces (callTable s1.callStatusUpdates) l d) (hd : Announces (callTable s1.callStatusUpdates) line .cusd)
    (hu : parseCusdResponse (pre ++ line :: post) = .ok u) :
    sendUssd str (.notify (pre ++ line :: post) :: later) env s = (.ok (some u), { s1 with ussdSessionEvent := none, ussdResponse := some u }) := by
  have hev : s1.ussdSessionEvent = some false := by
    obtain ⟨k, w, h1, _⟩ := write_outcome (data := cusdCmd str) (term := [13]) (env := env) { s with ussdSessionEvent := some false }
    rw [hw] at h1
    rw [show s1 = _ from h1]
  unfold sendUssd
  simp only [run_bind, run_modify, M.except, hw]
  have hs : lineStartingWith py!"+CUSD" ls = none :=
    (C52_starting_with _ _).2.2 hc
  rw [if_neg (fun h => h.2 hs)]
  have hh : (handleNotification (pre ++ line :: post) env s1).2 = { s1 with ussdSessionEvent := some true, ussdResponse := some u } := by
    rw [C43_first hpre hd]
    simp only [handlerOf, handleUssd, run_bind, run_get]
    rw [if_pos (by rw [hev]; rfl)]
    simp [run_bind, run_ofExcept, hu, run_modify]
  have ha : awaitEvent (fun s => s.ussdSessionEvent = some true) (.notify (pre ++ line :: post) :: later) env s1 =
      (.ok true, { s1 with ussdSessionEvent := some true, ussdResponse := some u }) := by
    simp only [awaitEvent, run_bind, run_get, hev]
    simp only [Option.some.injEq, Bool.false_eq_true, decide_false, if_false, run_bind, Event.run, hh]
    show awaitEvent (fun s => s.ussdSessionEvent = some true) later env (handleNotification (pre ++ line :: post) env s1).2 = _
    rw [hh]
    cases later <;> rfl
  simp only [run_bind, run_modify, ha, if_true, run_get, run_pure]

/-- Without any event the method raises TimeoutException. -/
theorem C44_timeout {str : PyStr} {s s1 : St} {ls : List PyStr} (hw : write (cusdCmd str) true [13] env { s with ussdSessionEvent := some false } = (.ok ls, s1))
    (hc : ∀ l ∈ ls, ¬ py!"+CUSD" <+: l) : (sendUssd str [] env s).1 = .error (.timeout none) := by
  have hev : s1.ussdSessionEvent = some false := by
    obtain ⟨k, w, h1, _⟩ := write_outcome (data := cusdCmd str) (term := [13]) (env := env) { s with ussdSessionEvent := some false }
    rw [hw] at h1
    rw [show s1 = _ from h1]
  unfold sendUssd
  simp only [run_bind, run_modify, M.except, hw]
  have hs : lineStartingWith py!"+CUSD" ls = none :=
    (C52_starting_with _ _).2.2 hc
  rw [if_neg (fun h => h.2 hs)]
  simp [run_bind, awaitEvent, run_get, run_pure, hev, run_modify, run_raise]

/-- The written command, as the modem sees it. -/
example : ((sendUssd py!"*101#" [.notify [py!"+CUSD: 0,\"Bye\",15"]] goodModem {}).1, (sendUssd py!"*101#" [] goodModem {}).2.log) =
    (.ok (some ⟨false, some py!"Bye"⟩), [py!"AT+CUSD=1,\"*101#\",15\r"]) := by decide +kernel

/-- A late result of an earlier request is taken for the result of the next one. -/
theorem C44_late_result : (sendUssd py!"*102#" [.notify [py!"+CUSD: 0,\"answer to the first\",15"], .notify [py!"+CUSD: 0,\"answer to the second\",15"]] goodModem
    (sendUssd py!"*101#" [] goodModem {}).2).1 = .ok (some ⟨false, some py!"answer to the first"⟩) := by decide +kernel

/-- A result without a message is not understood. -/
theorem C44_no_message : parseCusdResponse [py!"+CUSD: 2"] = .error .attributeError ∧ parseCusdResponse [py!"+CUSD: 4", py!"OK"] = .error .indexError := by decide +kernel

end Gsm
