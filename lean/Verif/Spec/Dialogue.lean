import Verif.Spec.Ussd
import Verif.Spec.Asked
/-! # Specification: a USSD service of the network, and a user who goes through its menus (22.090)

The service is any function: it shows a page depending on everything that was entered in the session. -/
namespace Gsm.Spec

/-- A page of the service. -/
structure UssdPage where
  /-- whether the service waits for an input -/
  more : Bool
  text : PyStr
  deriving DecidableEq

/-- The page after these inputs of a session. -/
abbrev UssdMenu := List PyStr → UssdPage

/-- The inputs of the session after another input; none if the session is over. -/
def entered (V : UssdMenu) (session : List PyStr) (x : PyStr) : List PyStr := if (V (session ++ [x])).more then session ++ [x] else []

/-- What the user does. -/
inductive UssdDeed
  | enter (x : PyStr)
  | stop

/-- The pages that the user sees, and the inputs of the session that is open afterwards. -/
def stroll (V : UssdMenu) : List PyStr → List UssdDeed → List UssdPage × List PyStr
  | session, [] => ([], session)
  | session, .enter x :: ds => (V (session ++ [x]) :: (stroll V (entered V session x) ds).1, (stroll V (entered V session x) ds).2)
  | _, .stop :: ds => stroll V [] ds

def cusdLine (x : PyStr) : PyStr := py!"AT+CUSD=1,\"" ++ (x ++ py!"\",15\r")

/-- What the command enters. -/
def ussdInput (c : PyStr) : Option PyStr :=
  if c = cusdLine ((c.drop 11).take (c.length - 16)) then some ((c.drop 11).take (c.length - 16)) else none

open Classical in
/-- The session that the network has after these commands (the last one first). -/
noncomputable def sessionOf (V : UssdMenu) (reply : List PyStr → Reply) : List PyStr → List PyStr
  | [] => []
  | c :: log =>
    if Accepted reply (c :: log) then
      match ussdInput c with
      | some x => entered V (sessionOf V reply log) x
      | none => if c = py!"AT+CUSD=2\r" then [] else sessionOf V reply log
    else sessionOf V reply log

/-- The line shows the page (27.007, 7.15): the status 1 tells that an input is expected. -/
def DisplaysPage (page : UssdPage) (line : PyStr) : Prop := ∃ st, UssdAt line st page.text [] ∧ (st = 49 ↔ page.more = true)

/-- Nothing about USSD. -/
def NoUssd : Event → Prop
  | .notify batch => ∀ l ∈ batch, ¬ py!"+CUSD" <+: l
  | .poll _ => True

/-- If the modem accepts the input, the network shows the page in its answer, or in a notification before the time is up. -/
def UssdAttended (env : Env) (V : UssdMenu) (s : St) (x : PyStr) (during : List Event) : Prop :=
  ∀ log ls, Transmission env.reply [cusdLine x] s.log log true → env.reply log = .lines ls →
    ∃ line, DisplaysPage (V (sessionOf V env.reply s.log ++ [x])) line ∧
      (ls = [line, py!"OK"] ∨
        (∀ l ∈ ls, ¬ py!"+CUSD" <+: l) ∧ ¬ py!"RING" <:+: line ∧ ∃ pre post, during = pre ++ .notify [line] :: post ∧ ∀ e ∈ pre, NoUssd e)

/-- Work that has nothing to do with USSD. -/
def NotUssd : Op → Prop
  | .ussd .. | .ussdReply .. | .ussdCancel _ => False
  | _ => True

/-- The user and the program. The object is the last one that the program returned, unless its session was cancelled.
A new request is made only if no session is open, as far as the program knows. -/
inductive UssdStep [PyUnicode] (env : Env) (V : UssdMenu) (s : St) (last : Option Ussd) : List UssdDeed → List Ussd → St → Option Ussd → Prop
  | request {x during u s'} : (∀ u, last = some u → u.sessionActive = false) → UssdAttended env V s x during →
      sendUssd x during env s = (.ok (some u), s') → UssdStep env V s last [.enter x] [u] s' (some u)
  | requestFailed {x during e s'} : (∀ u, last = some u → u.sessionActive = false) → UssdAttended env V s x during →
      sendUssd x during env s = (.error e, s') → UssdStep env V s last [] [] s' last
  | reply {x during u u' s'} : last = some u → UssdAttended env V s x during →
      u.reply x during env s = (.ok (some u'), s') → UssdStep env V s last [.enter x] [u'] s' (some u')
  | replyFailed {x during u e s'} : last = some u → UssdAttended env V s x during → u.reply x during env s = (.error e, s') → UssdStep env V s last [] [] s' last
  | cancel {u s'} : last = some u → u.cancel env s = (.ok (), s') → UssdStep env V s last [.stop] [] s' none
  | cancelFailed {u e s'} : last = some u → u.cancel env s = (.error e, s') → UssdStep env V s last [] [] s' last
  | other {op} : NotUssd op → UssdStep env V s last [] [] (op.run env s).2 last

/-- A history. -/
inductive UssdLife [PyUnicode] (env : Env) (V : UssdMenu) : St → Option Ussd → List UssdDeed → List Ussd → St → Option Ussd → Prop
  | start {s last} : UssdLife env V s last [] [] s last
  | next {s last d1 u1 s1 last1 d2 u2 s2 last2} : UssdStep env V s last d1 u1 s1 last1 → UssdLife env V s1 last1 d2 u2 s2 last2 →
      UssdLife env V s last (d1 ++ d2) (u1 ++ u2) s2 last2

/-- The object for a page. -/
def pageObject (p : UssdPage) : Ussd := ⟨p.more, some p.text⟩

end Gsm.Spec
