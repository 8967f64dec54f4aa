import Verif.Spec.Incoming
/-! # Specification: the calls on the line

What happens on the telephone line of the modem, without regard to the program, and how the program learns
of it. A call is known by its place among all calls since the beginning. -/
namespace Gsm.Spec

/-- A call, from its beginning on; calls that are over are kept. -/
structure LineCall where
  id : Nat                      -- the number that the modem gives it
  number : Option PyStr         -- of the other end; `none` if it is withheld
  incoming : Bool
  rings : Nat                   -- how often it has rung here
  answered : Bool
  over : Bool
  deriving DecidableEq

/-- All calls, in the order in which they began. -/
abbrev PhoneLine := List LineCall

/-- The calls that are not over. -/
def currentCalls (L : PhoneLine) : PhoneLine := L.filter fun c => !c.over

/-- The numbers in use. -/
def usedIds (L : PhoneLine) : List Nat := (currentCalls L).map (·.id)

/-- A modem gives a new call the lowest number that is not in use (27.007, 7.18). -/
def FreeId (L : PhoneLine) (id : Nat) : Prop := 1 ≤ id ∧ id ∉ usedIds L ∧ ∀ n, 1 ≤ n → n < id → n ∈ usedIds L

/-- Something changes for the current call with this number. -/
def onCall (id : Nat) (f : LineCall → LineCall) (L : PhoneLine) : PhoneLine :=
  L.map fun c => if c.over = false ∧ c.id = id then f c else c

inductive LineEvent
  | comes (number : Option PyStr)   -- somebody calls; it rings for the first time
  | rings (k : Nat)                 -- the call `k` rings again
  | dialled (number : PyStr)        -- the program makes a call
  | taken (k : Nat)                 -- the other end answers
  | accepted (k : Nat)              -- the program answers
  | ends (k : Nat)                  -- the other end, or the network, ends the call
  | hungUp (k : Nat)                -- the program hangs up; ATH ends all calls
  | hungUpLate (k : Nat)            -- the program hangs up a call that is over
  | nothing
  deriving DecidableEq

/-- What happens on the line. -/
inductive LineStep : PhoneLine → LineEvent → PhoneLine → Prop
  | comes {L number id} : FreeId L id → LineStep L (.comes number) (L ++ [⟨id, number, true, 1, false, false⟩])
  | rings {L k c} : L[k]? = some c → c.over = false → c.incoming = true → c.answered = false →
      LineStep L (.rings k) (onCall c.id (fun c => { c with rings := c.rings + 1 }) L)
  | dialled {L number id} : FreeId L id → LineStep L (.dialled number) (L ++ [⟨id, some number, false, 0, false, false⟩])
  | taken {L k c} : L[k]? = some c → c.over = false → c.incoming = false →
      LineStep L (.taken k) (onCall c.id (fun c => { c with answered := true }) L)
  | accepted {L k c} : L[k]? = some c → c.over = false → c.incoming = true → c.answered = false →
      LineStep L (.accepted k) (onCall c.id (fun c => { c with answered := true }) L)
  | ends {L k c} : L[k]? = some c → c.over = false → LineStep L (.ends k) (onCall c.id (fun c => { c with over := true }) L)
  | hungUp {L k c} : L[k]? = some c → c.over = false → LineStep L (.hungUp k) (L.map fun c => { c with over := true })
  | hungUpLate {L k c} : L[k]? = some c → c.over = true → LineStep L (.hungUpLate k) L
  | nothing {L} : LineStep L .nothing L

/-- The lines by which a modem with the settings of `connect` announces a ring. -/
def RingLines (s : St) (number : Option PyStr) (lines : List PyStr) : Prop :=
  ∃ line rest ton, lines = line :: rest ∧
    (s.extendedIncomingCallIndication = true ∧ line = py!"+CRING: VOICE" ∨ s.extendedIncomingCallIndication = false ∧ py!"RING" <:+: line) ∧
    Caller s rest number ton

/-- Work that has nothing to do with calls. -/
inductive OtherWork : Op → Prop
  | setTextMode {v} : OtherWork (.setTextMode v)
  | setSmsc {n} : OtherWork (.setSmsc n)
  | getSmsc : OtherWork .getSmsc
  | signalStrength : OtherWork .signalStrength
  | networkName : OtherWork .networkName
  | imei : OtherWork .imei
  | read {i m} : OtherWork (.read i m)
  | delete {i m} : OtherWork (.delete i m)
  | deleteMultiple {f m} : OtherWork (.deleteMultiple f m)
  | list {st m d} : OtherWork (.list st m d)
  | process {u} : OtherWork (.process u)
  | send {d t f} : OtherWork (.send d t f)
  | ussdCancel {u} : OtherWork (.ussdCancel u)
  | dtmf {i t} : OtherWork (.dtmf i t)

/-- Notifications are handled one after the other. -/
def handleLines (env : Env) (lines : List PyStr) (s : St) : St := lines.foldl (fun s l => (handleNotification [l] env s).2) s

/-- What the program does and hears while that happens, from its state `s` to `s'`. -/
inductive SeesLine [PyUnicode] (env : Env) (L : PhoneLine) (s : St) : LineEvent → St → Prop
  | comes {number lines} : RingLines s number lines → SeesLine env L s (.comes number) (handleNotification lines env s).2
  | rings {k c lines} : L[k]? = some c → RingLines s c.number lines → SeesLine env L s (.rings k) (handleNotification lines env s).2
  /-- the modem tells the number of the new call, if it is one that does so -/
  | dialled {number timeout cb during id i} : FreeId L id →
      (s.waitForCallInitUpdate = true → ∃ line type, during = [.notify [line]] ∧ Says s.callStatusUpdates line (.started id type)) →
      (dial number timeout cb during env s).1 = .ok i → SeesLine env L s (.dialled number) (dial number timeout cb during env s).2
  | taken {k c line} : L[k]? = some c → Says s.callStatusUpdates line (.answered c.id) → SeesLine env L s (.taken k) (handleNotification [line] env s).2
  /-- the line does not tell which call; there is only one that it can mean -/
  | someTaken {k c line} : L[k]? = some c → Says s.callStatusUpdates line .someAnswered → c.answered = false →
      (∀ d ∈ currentCalls L, d.incoming = false → d.answered = false → d = c) → SeesLine env L s (.taken k) (handleNotification [line] env s).2
  | accepted {k} : (answer k env s).1 = .ok () → SeesLine env L s (.accepted k) (answer k env s).2
  | ends {k c line} : L[k]? = some c → Says s.callStatusUpdates line (.ended c.id) → SeesLine env L s (.ends k) (handleNotification [line] env s).2
  /-- the ends of all calls are reported afterwards, in any order -/
  | hungUp {k lines} : (hangup k env s).1 = .ok () → (∀ l ∈ lines, ∃ id ∈ usedIds L, Says s.callStatusUpdates l (.ended id)) →
      (∀ id ∈ usedIds L, ∃ l ∈ lines, Says s.callStatusUpdates l (.ended id)) → SeesLine env L s (.hungUp k) (handleLines env lines (hangup k env s).2)
  | hungUpLate {k} : SeesLine env L s (.hungUpLate k) (hangup k env s).2
  | answerRefused {k e} : (answer k env s).1 = .error e → SeesLine env L s .nothing (answer k env s).2
  | dialRefused {number timeout cb e} : (dial number timeout cb [] env s).1 = .error e → SeesLine env L s .nothing (dial number timeout cb [] env s).2
  /-- a message, a report, a USSD result, or nothing known -/
  | otherNews {pre line post d} : (∀ l ∈ pre, ∀ d, ¬ Announces (callTable s.callStatusUpdates) l d) → Announces (callTable s.callStatusUpdates) line d →
      (d = .cmti ∨ d = .cdsi ∨ d = .cusd) → SeesLine env L s .nothing (handleNotification (pre ++ line :: post) env s).2
  | noNews {lines} : (∀ l ∈ lines, ∀ d, ¬ Announces (callTable s.callStatusUpdates) l d) → SeesLine env L s .nothing (handleNotification lines env s).2
  | other {op} : OtherWork op → SeesLine env L s .nothing (op.run env s).2

/-- A history of the line and of the program; every event satisfies `P`. -/
inductive Story [PyUnicode] (env : Env) (P : PhoneLine → LineEvent → Prop) : PhoneLine → St → List LineEvent → PhoneLine → St → Prop
  | start {L s} : Story env P L s [] L s
  | next {L s e L' s' es L'' s''} : P L e → LineStep L e L' → SeesLine env L s e s' → Story env P L' s' es L'' s'' → Story env P L s (e :: es) L'' s''

/-- The object shows the call. -/
structure ShowsCall (c : LineCall) (o : CallObj) : Prop where
  id : o.id = c.id
  number : o.number = c.number
  incoming : o.incoming = c.incoming
  active : o.active = !c.over
  answered : o.answered = (c.answered && !c.over)
  ringing : c.over = false → o.ringing = (c.incoming && !c.answered)
  rings : o.ringCount = c.rings

/-- The table for these calls; the first of them is the object `i`. -/
def callEntries : Nat → PhoneLine → List (Int × Nat)
  | _, [] => []
  | i, c :: L => if c.over then callEntries (i + 1) L else ((c.id : Int), i) :: callEntries (i + 1) L

/-- The program has one object for each call, and its table has the calls that are not over. -/
structure Mirrors (L : PhoneLine) (s : St) : Prop where
  length : s.calls.length = L.length
  shows : ∀ (k : Nat) (c : LineCall) (o : CallObj), L[k]? = some c → s.calls[k]? = some o → ShowsCall c o
  table : s.activeCalls = callEntries 0 L

/-- The calls for which the callback for incoming calls is called, by the events; there are `n` calls before. -/
def rungCalls : Nat → List LineEvent → List Nat
  | _, [] => []
  | n, .comes _ :: es => n :: rungCalls (n + 1) es
  | n, .dialled _ :: es => rungCalls (n + 1) es
  | n, .rings k :: es => k :: rungCalls n es
  | n, _ :: es => rungCalls n es

/-- The calls for which it was called, the last first. -/
def rungBack (l : List Callback) : List Nat := l.filterMap fun c => match c with | .incomingCall i => some i | _ => none

/-- A new call has the number that the program counts, and no current call is with the same number. -/
def Distinguishable (waits : Bool) (L : PhoneLine) : LineEvent → Prop
  | .comes number => FreeId L ((currentCalls L).length + 1) ∧ ∀ c ∈ currentCalls L, c.number ≠ number
  | .dialled number => (waits = false → FreeId L ((currentCalls L).length + 1)) ∧ ∀ c ∈ currentCalls L, c.number ≠ some number
  | .hungUpLate k => ∀ c, L[k]? = some c → c.id ∉ usedIds L
  | _ => True

/-- There is only one call at a time. -/
def OneAtATime (L : PhoneLine) : LineEvent → Prop
  | .comes _ => currentCalls L = []
  | .dialled _ => currentCalls L = []
  | .hungUpLate _ => currentCalls L = []
  | _ => True

end Gsm.Spec
