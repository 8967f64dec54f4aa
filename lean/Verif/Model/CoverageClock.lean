import Verif.Model.Clock
/-! # Waiting for the network, with the clock: gsmmodem/modem.py:575-625

The moments are in milliseconds from the call on. What the modem answers may depend on the moment at which a command is
sent: `modem t` is the modem at the moment `t`. The timer of modem.py:597 goes off at `timeout` and has done so before the
loop looks at `block` at the same moment.

Simplifications: computing takes no time; a command that is repeated because the modem is busy is answered as at the
moment at which it was first sent. -/
namespace Gsm

/-- What the round does after the answer to `AT+CREG?`, modem.py:603-617: whether to ask for the registration again. -/
def cregNext (ls : List PyStr) : Except PyErr Bool :=
  match lineMatching (rxGroups cregRegex) ls with
  | some [_, g] =>
    match pyInt g with
    | .error e => .error e
    | .ok status =>
      if status = 1 ∨ status = 5 then .ok false
      else if status = 3 then .error .invalidState
      else if status = 0 then .error .invalidState
      else .ok true
  | _ => .ok false

/-- What `signalStrength` makes of the answer to `AT+CSQ`, modem.py:456-462. -/
def csqValue (ls : List PyStr) : Except PyErr Int :=
  match ls with
  | [] => .error .indexError
  | line :: _ =>
    match rxGroups csqRegex line with
    | some [g] =>
      match pyInt g with
      | .error e => .error e
      | .ok ss => .ok (if ss ≠ 99 then ss else -1)
    | _ => .error (.command .command none)

/-- The loop, modem.py:600-625: at most `fuel` rounds, from the moment `now` on; also the moment of the end. -/
def timedCoverage (modem : Nat → Env) (wait : List PyStr → Nat) (timeout : Nat) : Nat → Bool → Nat → St → (Except PyErr Int × St) × Nat
  | 0, _, now, s => ((.error (.timeout none), s), now)
  | fuel + 1, true, now, s =>
    if timeout ≤ now then ((.error (.timeout none), s), now)
    else
      match timedWrite (modem now) wait py!"AT+CREG?" false [13] s with
      | ((.error e, s), t) => ((.error e, s), now + t)
      | ((.ok ls, s), t) =>
        match cregNext ls with
        | .error e => ((.error e, s), now + t)
        | .ok check => timedCoverage modem wait timeout fuel check (now + t + 1000) s
  | fuel + 1, false, now, s =>
    if timeout ≤ now then ((.error (.timeout none), s), now)
    else
      match timedWrite (modem now) wait py!"AT+CSQ" true [13] s with
      | ((.error e, s), t) => ((.error e, s), now + t)
      | ((.ok ls, s), t) =>
        match csqValue ls with
        | .error e => ((.error e, s), now + t)
        | .ok ss =>
          if ss > 0 then ((.ok ss, s), now + t)
          else timedCoverage modem wait timeout fuel false (now + t + 1000) s

/-- `waitForNetworkCoverage(timeout)`, modem.py:575-625: a round takes more than a second, so there are not more of them. -/
def coverageWithin (modem : Nat → Env) (wait : List PyStr → Nat) (timeout : Nat) (s : St) : (Except PyErr Int × St) × Nat :=
  timedCoverage modem wait timeout (timeout / 1000 + 2) true 0 s

end Gsm
