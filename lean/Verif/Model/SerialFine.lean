import Verif.Model.Serial
/-! # Serial communication with a finer grain: gsmmodem/serial_comms.py

The same code as in `Model/Serial.lean`, but here the reader thread and the thread inside `write` may
be interrupted between any two accesses to the attributes they share (`_responseEvent`, `_response`,
`_expectResponseTermSeq`). Each `write` makes one list and one `Event`; both are known by the number
of the `write`. A list that was returned stays the same object, so that it is seen to change if the
reader appends to it later.

Simplifications: `_txLock` admits one `write` at a time, so there is one writer; `_notification` is
only used by the reader, so its handling (with `inWaiting` and the callback) is one step; `write` without
waiting for a response touches nothing shared and is left out; loading an attribute for the debug log
is left out. -/
namespace Gsm

/-- Where the reader is. -/
inductive RPc
  | idle                                             -- at `serial.read(1)`, serial_comms.py:91-92
  | expTest                                          -- at `elif self._expectResponseTermSeq`, :102
  | expLen                                           -- at `len(self._expectResponseTermSeq)`, :103
  | expCmp (n : Nat)                                 -- at `... == self._expectResponseTermSeq`, :103
  | test (line : PyStr) (check : Bool)               -- at `self._responseEvent`, :61
  | isSet (line : PyStr) (check : Bool)              -- at `self._responseEvent.is_set()`, :61
  | loadResponse (line : PyStr) (check : Bool)       -- at `self._response`, :63
  | append (line : PyStr) (check : Bool) (list : Nat)  -- at `.append(line)`, :63
  | loadEvent                                        -- at `self._responseEvent`, :68
  | set (event : Nat)                                -- at `.set()`, :68
  | notify (line : PyStr)                            -- at `self._notification.append(line)`, :71
  | dead (e : PyErr) (inHand : Option PyStr)         -- an exception other than SerialException ended the thread
  | stopped                                          -- after a SerialException, :109-117
  deriving DecidableEq, Repr

/-- Where `write` is. -/
inductive WPc
  | free                                             -- no call
  | setExpect (expected : Option PyStr)              -- at :122
  | newResponse                                      -- at `self._response = []`, :124
  | newEvent                                         -- at `self._responseEvent = threading.Event()`, :125
  | send                                             -- at `self.serial.write(data)`, :126
  | waiting                                          -- in `wait`, :127
  | clearEvent (ok : Bool)                           -- at `self._responseEvent = None`, :128 or :132
  | clearExpect (ok : Bool)                          -- at `self._expectResponseTermSeq = False`, :129 or :133
  | result (ok : Bool)                               -- at `return` or `raise`, :130 or :134-138
  deriving DecidableEq, Repr

/-- What a `write` came to, with the number of the list that was returned or raised. -/
inductive FOutcome
  | returned (list : Nat)
  | timeout (list : Option Nat)
  deriving DecidableEq, Repr

structure Fine where
  alive : Bool := true
  rxBuffer : PyStr := []
  reader : RPc := .idle
  writer : WPc := .free
  expect : Option PyStr := none                      -- `_expectResponseTermSeq`; none stands for None/False
  response : Option Nat := none                      -- `_response`
  event : Option Nat := none                         -- `_responseEvent`
  made : Nat := 0                                    -- how many lists have been made
  lists : Nat → List PyStr := fun _ => []            -- the contents of the lists
  flags : Nat → Bool := fun _ => false               -- the events
  notification : List PyStr := []
  outcomes : List FOutcome := []
  notified : List (List PyStr) := []
  handed : List PyStr := []
  read : PyStr := []                                 -- the characters read
  fatal : Bool := false                              -- the fatal error callback was called

/-- `f` with the value at `k` replaced. -/
def putAt {α : Type} (f : Nat → α) (k : Nat) (x : α) : Nat → α := fun i => if i = k then x else f i

/-- The reader, up to its next access to a shared attribute. `more`: `inWaiting() != 0`. -/
def readerStep (f : Fine) (more : Bool) : Fine :=
  match f.reader with
  | .expTest =>
    match f.expect with
    | none => { f with reader := .idle }
    | some _ => { f with reader := .expLen }
  | .expLen =>
    match f.expect with
    | none => { f with reader := .dead .typeError none }           -- len(False)
    | some seq => { f with reader := .expCmp seq.length }
  | .expCmp n =>
    if some (f.rxBuffer.drop (f.rxBuffer.length - n)) = f.expect then
      { f with reader := .test f.rxBuffer false, rxBuffer := [], handed := f.handed ++ [f.rxBuffer] }
    else { f with reader := .idle }
  | .test line check =>
    match f.event with
    | none => { f with reader := .notify line }
    | some _ => { f with reader := .isSet line check }
  | .isSet line check =>
    match f.event with
    | none => { f with reader := .dead .attributeError (some line) }   -- None.is_set()
    | some k => { f with reader := if f.flags k then .notify line else .loadResponse line check }
  | .loadResponse line check =>
    match f.response with
    | none => { f with reader := .dead .attributeError (some line) }
    | some k => { f with reader := .append line check k }
  | .append line check k =>
    { f with lists := putAt f.lists k (f.lists k ++ [line]),
             reader := if !check || isResponseTerm line then .loadEvent else .idle }
  | .loadEvent =>
    match f.event with
    | none => { f with reader := .dead .attributeError none }          -- None.set()
    | some k => { f with reader := .set k }
  | .set k => { f with flags := putAt f.flags k true, reader := .idle }
  | .notify line =>
    let notification := f.notification ++ [line]
    if more then { f with reader := .idle, notification := notification }
    else { f with reader := .idle, notified := f.notified ++ [notification], notification := [] }
  | _ => f

/-- `write`, up to its next access to a shared attribute. -/
def writerStep (f : Fine) : Fine :=
  match f.writer with
  | .setExpect expected => { f with writer := .newResponse, expect := (expectOf expected).or f.expect }
  | .newResponse => { f with writer := .newEvent, response := some f.made, made := f.made + 1 }
  | .newEvent => { f with writer := .send, event := f.response }
  | .send => { f with writer := .waiting }
  | .clearEvent ok => { f with writer := .clearExpect ok, event := none }
  | .clearExpect ok => { f with writer := .result ok, expect := none }
  | .result ok =>
    match f.response with
    | none => f
    | some k =>
      { f with writer := .free,
               outcomes := f.outcomes ++ [if ok then .returned k else .timeout (if (f.lists k).length > 0 then some k else none)] }
  | _ => f

inductive FEvent
  | rx (c : Nat)                                     -- a character is read
  | r (more : Bool)                                  -- the reader goes on
  | begin (expected : Option PyStr)                  -- `write` is called and gets the lock
  | w                                                -- the writer goes on
  | wake                                             -- `wait` returns True
  | expire                                           -- `wait` returns False
  | fail                                             -- `serial.read` raises SerialException
  deriving DecidableEq, Repr

/-- One event. Events that are impossible in the state change nothing. -/
def fstep (f : Fine) : FEvent → Fine
  | .rx c =>
    if f.reader = .idle ∧ f.alive then
      let f := { f with read := f.read ++ [c] }
      let rxBuffer := f.rxBuffer ++ [c]
      if endsWith rxBuffer [13, 10] then
        let line := rxBuffer.take (rxBuffer.length - 2)
        if line.length > 0 then { f with rxBuffer := [], reader := .test line true, handed := f.handed ++ [line] }
        else { f with rxBuffer := [] }
      else { f with rxBuffer := rxBuffer, reader := .expTest }
    else f
  | .r more => readerStep f more
  | .begin expected => if f.writer = .free then { f with writer := .setExpect expected } else f
  | .w => writerStep f
  | .wake =>
    match f.writer, f.event with
    | .waiting, some k => if f.flags k then { f with writer := .clearEvent true } else f
    | _, _ => f
  | .expire => if f.writer = .waiting then { f with writer := .clearEvent false } else f
  | .fail => if f.reader = .idle ∧ f.alive then { f with alive := false, reader := .stopped, fatal := true } else f

/-- A run from the state after `connect`. -/
def frun (es : List FEvent) (f : Fine := {}) : Fine := es.foldl fstep f

/-- What the callers of `write` have in their hands now. -/
def Fine.results (f : Fine) : List Outcome := f.outcomes.map fun
  | .returned k => .returned (f.lists k)
  | .timeout none => .timeout none
  | .timeout (some k) => .timeout (some (f.lists k))

end Gsm
