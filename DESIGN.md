# Formal model of python-gsmmodem in Lean 4

## Layout

* `lean/Verif/Model/*.lean` — the model: one Lean definition per Python function, branch by
  branch, each with the `file:lines` it models. Nothing here mentions a property.
* `lean/Verif/Spec/*.lean` — small, independent specifications (bit streams, GSM 03.38 tables,
  GSM 03.40 layouts, finite maps, text-with-cursor ...), written without the model's helpers.
* `lean/Verif/Lemmas/*.lean` — proofs about the model that are not property statements.
* `lean/Verif/Props/*.lean` — one file per area: the property theorems (named `Cxx_...`), each
  with an `example` showing that its hypotheses are met by a concrete non-trivial case.
* `lean/Verif/Validation/*.lean` — the model evaluated by the kernel on the inputs and expected
  outputs written in the project's own unit tests (test_pdu, test_modem with the seven simulated
  modems of fakemodems.py, test_serial_comms, test_util, test_gsmterm). These are checks of the
  model, not properties. Not transcribed: tests of the console, of `close()`, and of the key `None`.

## Modelling conventions

* Python 3 semantics of the language, with a serial port that gives `str` (as on Python 2 and in the
  tests; C97 says what becomes of a port that gives `bytes`). A Python `str` is a `List Nat` of code points (so lone
  surrogates are allowed, as in Python); octets are `Nat`, and the range check that `bytearray`
  performs (`ValueError` outside 0..255) is explicit wherever the code appends an int.
* Exceptions are values: `Except PyErr α`, with `StopIteration`, `TypeError`, `IndexError`,
  `KeyError`, `AttributeError` ... distinguished, because which one escapes is part of the behaviour.
* A Python iterator over a bytearray is the list of remaining octets, threaded explicitly.
* `int(a / b)` on ints is truncated integer division (the operands are far below 2^53).
* The modem on the other side is universally quantified: an arbitrary function from the history
  of written commands to a reply (response lines, or a timeout with the lines read so far).
* Threads. The serial layer (C27–C31) is an interleaving of atomic events (one reader step per
  received byte, writer steps, timer steps); every schedule is a list of events. C73 refines these
  events to single accesses of the shared attributes and relates the two. The modem layer
  is at method granularity: a `GsmModem` method or a notification handler runs to completion, and
  the answers to the commands it writes come from the arbitrary modem. Where two threads meet in
  the code (delivery report waiter, USSD waiter, answer waiter) the other thread's work is done
  by the environment at the moment of the wait (`Env`), which may be any list of notifications.
* `str.format` brace handling, `str.split`, slicing, `int()` and `str.lower()` follow Python 3.
  `int()` of a text of non-ASCII digits and upper/lower casing go through the `PyUnicode` class,
  whose instances are arbitrary: theorems hold for every such instance (or the ASCII one when an
  example has to be evaluated).
* The terminal (`tools/gsmtermlib/terminal.py`) only works on Python 2 (under Python 3 `getkey`
  returns `bytes` and no key matches), so it is modelled with Python 2 byte strings. The console
  is a list of output actions; `Spec/Terminal.lean` gives them a one-row screen semantics.
* Regular expressions used by the code are transcribed item by item and run by a small
  backtracking matcher (`Model/Regex.lean`) with Python's priority order (greedy/lazy); `\d` and
  `\s` are the ASCII classes (simplification).
* Where the code violates the property, the negation is proved with a concrete witness and the
  part that holds is proved under the exact guard (suffix `_partial` when the guard is not the
  property's own).

## Trusted base

* Lean 4.33.0 kernel. Axioms: at most `propext`, `Classical.choice`, `Quot.sound` (checked with
  `#print axioms`, see the end of this file). No `sorry`, no `native_decide`, no `bv_decide`,
  no user axioms.
* The faithfulness of `Model/` to `/repo` (by reading; the code is never run here).

## Properties: what is modelled, how it is proved

(C numbers refer to properties.jsonl.)

| id | model | proof |
|----|-------|-------|
| C01 C02 | `encodeGsm7`, `decodeGsm7` with the shipped tables as data | per-character inversion lemma by kernel evaluation over the 128+10 entry tables, lifted by induction over the text |
| C03 | `packSeptets` | invariant of the loop: emitted bits ++ pending bits = consumed bits |
| C04 C05 | `unpackSeptets` | same bit-stream invariant for the inverse loop; induction over octets |
| C06 C07 | `encodeUcs2`, `decodeUcs2` | induction over pairs of octets |
| C08 C09 C10 | `encodeSemiOctets`, `decodeSemiOctets`, address fields | induction by pairs of digits, then case analysis of type-of-number |
| C11 C12 | validity period functions over `timedelta` (days, seconds) | arithmetic (`omega`) |
| C13 | civil date/time + offset record; `strftime`/`strptime` for the fixed format | digit arithmetic |
| C14 | information elements | case analysis, bit arithmetic |
| C15–C21 | `encodeSmsSubmitPdu` / `decodeSmsPdu` | composition of the field lemmas; slices by induction |
| C22 | hex codec | induction |
| C23–C26 | `decodeSmsPdu` against an independent GSM 03.40 layout spec | composition; witnesses by evaluation |
| C27–C31 | `SerialComms` read loop + write as an event machine | invariants over all event lists |
| C32 C33 | `GsmModem.write` over an arbitrary modem | induction over the number of busy replies |
| C34 | `connect`, `_unlockSim` as a program over an arbitrary modem | invariant over the command log |
| C35–C42 | SMS methods | invariants over call histories; parsers by induction over listings |
| C43 C44 | notification dispatch, USSD parsing | induction over lines/matches |
| C45 C50 | polling loops | induction over reply sequences |
| C46–C49 | call table | invariants over event histories |
| C51 C52 | util | arithmetic, induction |
| C53–C56 | `Trie` | refinement to a finite map, induction over the trie |
| C57 | `GsmTerm` (all keys, notifications, scripts) | invariant + refinement to (before, after) cursor text |
| C59 | TAB completion, and the 151-entry table as data | trie theorems; kernel evaluation over the table |
| C60 | `AT+CMGS` entry | refinement to a three-field composer |
| C61 | console output as a one-row screen | invariant over sessions |
| C62 | a modem is a function from commands to answers; `connect` against a declarative command list | exact characterisation, success iff |
| C63 | answer lines | exact characterisation per format |
| C64 | cached SMS centre number against the command log | invariant over the atomic changes of all operations |
| C65 | call progress lines (three tables) | relation `Says` between lines and meanings, relation `Changes`; equivalence |
| C66 | `dial` against the events that happen while it waits | relation `AwaitsCall` (first telling event); frame lemmas show that nothing else sets the event |
| C67 | incoming calls against relations for type, caller and ring | `RingType`, `Caller`, `Rung`; the CLIP pattern is characterised as a line format; a failed command raises CommandError exactly if the modem refused it (`write_refused`) |
| C68 | `readStoredSms` against header formats | `AnswersText`, `AnswersPdu`; regex ↔ format (`deliver_iff`, `report_iff`, `pdu_fwd`/`pdu_bwd`) with uniqueness proved by parsing from both ends |
| C69 | `processStoredSms`, order and failures | `Emptied`, `NotEmptied` over `Transmission`; `processStoredSms` shown equal to a loop over states, induction over the states |
| C70 | questions (`manufacturer` … `networkName`) | `Asks`, `SignalLine`, `CopsLine`, `FirstOperator`; regex ↔ format, the name ends at the last quote |
| C71 | notifications about stored messages (`_handleSmsReceived`, `_handleSmsStatusReport`), `sendSms` with wait | `StoredAt`, `Fetched`, `MessageEffect`, `ReportEffect`, `AwaitsReport`; regex ↔ format; frame for all other handlers |
| C72 | `sendUssd`, `_handleUssd`, `_parseCusdResponse` | `UssdAt`, `UssdIn`, `UssdMeans`, `AwaitsUssd`; lazy regex ↔ first end, `finditer` ↔ results from left to right |
| C73 | `_readLoop`, `_handleLineRead`, `write` at the grain of single attribute accesses (`Model/SerialFine.lean`) | `AtRest`, the coarse model of C27–C31 as specification | simulation relation `Sim`, numbering and conservation invariants by induction over schedules |
| C74 | `Console.getkey`, `RawTerm._inputLoop`, `GsmTerm._inputLoop` (key table) | `Pieces`, `keyTable`, `rawText` | induction over the pieces; C57 for single keys |
| C75 | `main` of sendsms.py and identify-modem.py | `outcomeNote`, `taken`, `Interview`, `infoCommands` | C37, C38, C39, C71 for the message; frames for the port; induction over the questions |
| C76 | `Prog`, `Method`, `concurrently`: the message methods in atomic steps | `serially`, `Performed`, `Taken`, `SendingCommands`, `OneMemory`, `selectedMemory` | refinement to the M programs; rely-guarantee (`Keeps`, `Ends`) by induction over schedules |
| C77 | `Task`, `performTasks`: call handling in atomic steps | `tasksSerially`, `CallsGrow`, `CallsStay`, `Over`, `TableOk`, `Says`, `Caller` | refinement to the M programs; rely-guarantee (`Keeps`, `Ends`); `Orderly`/`Due`: every entry of a call that is over has a thread that is going to remove it |
| C78 | `Job`, `performJobs`: threads that create events and wait for them | `UssdEnds`, `DialEnds`, `SentOut`, `ReportSince`, `OnlyWaits`, `BringsResult`, `BringsCall`, `jobAlone` | rely-guarantee with different conditions for the waiting thread (`Around`) and the others (`Beside`); `Onward`/`Tells` for threads that set an event |
| C79 | (composition of `sendSms`, `handleSmsReceived`) | `TakenOver`, `SubmitRead`, `Relayed`, `Stores`, `Arrives` | the PDUs in the log of the sender; unique reading of SMS-SUBMIT; user data decoded alike in SMS-SUBMIT and SMS-DELIVER |
| C80 | `Stack`, `Stack.happens` (serial_comms.py and modem.py together) | `Comes`, `Heard`, `Audible`, `Batch`, `Exchanged`, `arrived` | simulation in both directions: in-flight command seen as answered; answers looked up by the log; characters played for each answer |
| C81 | `Life`, `lstep` (serial_comms.py:45-57 with the read loop step by step) | `Active`, `Orderly`, `WritesWork`, `readBy`, `NeverClosed` | invariant `LifeOk` (only the newest read thread is active; port open while one is); `Frames` per connection; `Kept` for no loss |
| C82 | `handleSms`, `smsDemo`, `incomingDemo`, `sleep` (examples/sms_handler_demo.py:20-24, examples/incoming_call_demo.py:22-44) | `Quotes`, `Handled`, `Correspondence`, `echo` | C71 for the receiving, C79 for the sending, C48 and C49 for the calls |
| C83 | `Prog.dialLoop`, `statusCallback`, `ussdDemo` (examples/dial_polling_demo.py:41-63, examples/dial_callback_demo.py:27-51, examples/ussd_demo.py:26-37) | `said`, `Attempts`, `TonesThenHangup`, `Inactive` | what a thread has written is followed through its steps (`Traces`), with the others relied upon as in C77 |
| C84 | `Exc.construct`, `Exc.Obj.copy` (exceptions.py:3-134) | `CmeMeans`, `CmsMeans`, `caughtBy` | `__new__` and `__init__` as Python calls them; the error values used everywhere else in the model are shown to be these objects |
| C85 | `encodeSmsSubmitPdu`, `encodeAddressField`, `sendSms` (pdu.py:238-355, 573-630, modem.py:641-657) | `Addressable`, `Carried` | exact acceptance in both directions; septets are counted from the standard's extension table, not with the encoder |
| C86 | all methods of `GsmModem`, `Call`, `IncomingCall`, `Ussd` (modem.py:164-1354) | `MayRaise`, `ConnectMayRaise`, `LetsThrough` | soundness by a calculus of programs (`Runs`), completeness by modems that always answer the same |
| C87 | `_printCommandHelp`, `_printGeneralHelp`, `__printCommandSyntax`, lists, terminal.py:387-584; atcommands.py | `screen`, `linesIn`, `ListsCommands` | composition of texts seen with their colours; induction over lines and keys; kernel evaluation for the table |
| C88 | `decodeSmsPdu` and its readers, pdu.py:357-498, 536-658, 748-806 | `SameUpToText`, `ContinuedBy` | every reader that leaves something behaves the same on a longer input; composition; induction over octets for septets |
| C89 | the methods that make callbacks, modem.py:744-762, 857-989, 991-1019, 1159-1204, 1233-1321, with user code as a parameter | `AskedOnce`, `ProcessedWith`, `TableKept` | sameness with the plain model; one invariant through all methods; induction over programs and over the depth of nesting |
| C90 | several `GsmModem` objects and the class attributes of `Call`, modem.py:164-287, 1207-1271; serial_comms.py:54-58 | `deedsOf`, `ownPart`, `NothingLeft`, `GoesAfter` | every method commutes with switching on the shared attributes, by one lemma for each method; induction over histories; exact corollaries of C62 |
| C91 | every method that writes (modem.py:164-743, 764-845, 991-1112, 1240-1354) | `wireTakes`, `Prompts`, `TakenAsMeant` | a Hoare logic (`Wired`) with the invariant that the modem waits for a command between writes; one lemma for each method; announcement and message together |
| C92 | processStoredSms, _handleSmsReceived and, for the histories, connect and every method (modem.py:164-385, 629-843, 1136-1354) | `Shelf`, `Obeys`, `Keeping`, `Balance`, `Delivered` | one lemma for each command on what happens to the store; a preorder `Guarded` kept by every method; induction over histories; an executable store (`keeper`) for the examples and counterexamples |
| C93 | decodeSmsPdu, SUBMIT branch (pdu.py:393-408) | `VpWire`, `submitWire` | the fields decode one after the other; the validity part by its format |
| C94 | sendSms (modem.py:645-658), encodeSmsSubmitPdu (pdu.py:286-330) | `HeaderOf`, `PartsOf`, `NumbersFrom`, `InStep`, `Sends`, `Collected` | the counter equals the number of the modem after every success; start positions of the messages are distinct mod 256; a permutation filtered by the key and sorted by the number is the group |
| C95 | `sentSms` as a WeakValueDictionary (modem.py:145, 655-658, 1012-1013) | `SameBut`, `deedsLeft`, `forgottenIn`, `OneEntry`, `ReportFetched` | relational: every program runs the same on two states that differ in the table and the reports of forgotten messages only |
| C96 | a session of `sendSms` at one modem and any history at another (modem.py:604-659, 969-999, 1024-1072) | `Conveyable`, `Conveyed`, `AllConveyed`, `SplitInto`, `readOff`, `readPdu`, and the specifications of C79, C92, C94 | induction over the sent messages; the balance of C92 mapped to the texts of the PDUs |
| C97 | `_readLoop`, `write` with the values that the port gives (serial_comms.py:83-141) | `TextPort`, `BytesPort`, `serialEvents`, `asBytes`, `readUntilFail` | refinement to `srun`; invariant over events |
| C98 | `main` (gsmterm.py:37-46), `Console` (terminal.py:59-102), `start`, `stop`, the loops (terminal.py:127-168, 266-284) | `Unbuffered`, `NoReason`, `lastSteps` | invariant over events; stability of being stopped |
| C99 | `_readLoop`, `_handleLineRead` (serial_comms.py:59-108) with the answers to AT+CMGR and AT+CMGL, `_handleSmsReceived` (modem.py:991-1000) | `textLines`, `shownChars`, `shownLines`, `forgedText` | uniqueness of framing, first final line; a run of the model of the whole library as witness |
| C100 | `listStoredSms` in PDU mode (modem.py:813-845), `processStoredSms` (modem.py:744-762), `_handleSmsReceived` (modem.py:991-1000) | `Garbled`, `Stumbles`, `ListedAs`, `Shelf.Poisoned`; the modem of C92 | induction over what a listing is taken for; the modem that keeps messages; induction over the repetitions |
| C101 | all methods of modem.py:164-1354 that write | `maxCommands`, `mostToConnect`, `Brief`, `NeverBusy` | a cost for every statement, composed along the methods; a count over the parsing loops |
| C102 | modem.py:303, 641-657, 1021-1073, util.py:30-45, pdu.py | `Received.Octets`, `Body`, `textAnswer`, `pduAnswer`, `byTextMode` | composition of C23, C25, C22, C51, C68, C99; counting of @ for lost characters |
| C103 | modem.py:753-844 | `ListHeader`, `Divided`, `ListedText`, `TakenFor`, `withHeader` | the regular expression is characterised by an equivalence; the loop is followed along the division into headers and lines |
| C104 | modem.py:387-446 and all methods of C73, C77 | `waitedFor`, `answeredAmong`, `busyAmong`, `taskCommands` | a timed interpretation of the steps; three predicates on steps that are closed under composition (`Closed`), walked once through all methods |
| C105 | modem.py connect with all it calls | `activityAlone`, `CallsKept`, `PinOnce`, `memoryOf`, `modeOf` | connect in steps; `Linked`: one walk through connect that is used for each predicate closed under composition; then the rely-guarantee lemmas of C76 and C77 |
| C106 | modem.py:122-127, 545-552 and their users, in threads | `CompiledFor`, `Usable`, `Missing`, `EndsAlike`, `NothingTaken` | `CompSim`: a stuttering simulation between programs with and without the expressions, closed under composition; the walk of C104 shows that only the setter changes the mode |
| C107 | pdu.py:238-355 and the encoders of its fields, as a map | `Destination`, `Statable`, `SameValidity`, `conveyed`, `SameRequest` | each field followed by any rest determines its argument (by its decoder, or by its length) and the rest; `first octet` and `data coding` by cases |
| C108 | modem.py:164-364, 575-625 with the clock | `TellsCoverage`, `Covered`, `waitedFor`, `answeredAmong`, `Silent` | the walk of C105 with the predicates of C104; induction on rounds with the moment of the next round in the invariant |
| C109 | as C76, C77, C78, C105 | `Fair`, `activityCommands`, `activityCallbacks`, `activityCalls`, `activitySent`, the same for jobs | `Spends`: a budget for each thread that does not depend on what the others do, kept under every step; structural induction on the rest of a thread for its end |
| C110 | as C92, in both modes | `KeepingIn`, `ServesIn`, `ObeysIn`, `MadeIn`, `Untold`, `KnowsIn`, `DeliveredIn` | as C92, with the mode of the modem as a second function of the commands sent so far; the listing of text mode through `TakenFor` of C103, the reading through `AnswersText` of C68 |
| C111 | `sendUssd`, `dial`, `sendSms` with the moments of all that happens | `upTo`, `before`, `TimeOrder`, `FirstAt` | induction over what happens during the wait; the rest by the timed commands of C104 and the waits of C66, C71, C72 |
| C112 | call handling in all histories of the line | `PhoneLine`, `LineStep`, `SeesLine`, `Story`, `Mirrors`, `Distinguishable` | one step of the line keeps `Mirrors` (a lemma for each event), a frame on the call tables for all other work; induction over the history |
| C113 | calls on modems that are polled | `Stage`, `PolledStep`, `PolledLife`, `BeginsCall`, `Truthful`; `Model/PollClock` for the pauses | invariant `Watched` that ties stage, object, table and phase of the thread; one lemma for each step; the frame on calls of C112 for other work |
| C114 | message centre and status of messages | `Posted` (the parts at the centre and what was told about them), `PostStep`, `PostLife`, `statusTold`, `Undisturbed`, `Counted` | invariant `Agree`: the trace of C39 determines the objects, `PostInv` ties it to the parts; one lemma for each step; the frames of C71 for other work |
| C115 | kinds of commands | `Purpose`, `Purpose.Of`, `opMay`, `eventMay`, `newsMay` | `Frame` with a predicate on the commands, one lemma for each method; prefixes compared by `decide` |
| C116 | USSD dialogue | `UssdMenu`, `stroll`, `sessionOf`, `UssdAttended`, `UssdStep`, `UssdLife` | invariant `KnowsSession` between the session of the network and the last object; `session_trans` (refused and repeated commands), C115 for the other methods, C72 for the result |
| C117 | answers that count as sent | `Numeral`, `DigitGroups`, `CmgsAnswer` | induction over the digits with both values of the underscore flag; blanks at both ends; C38 for what is written |
| C118 | nothing left over | `waits`, `Idle`, `Waiting` | frame `SameWaits` for every method and notification; the waiting methods step by step; invariant `KnownReferences` over the atomic changes; induction over the missed calls |
| C119 | command lines of the tools | `CliPiece`, `meant`, `Stands` | both parsers as loops over the words; induction over the pieces with the rest of the command line as parameter |
| C120 | texts across modes | `MadeOf`, `Passed`, `Holds`, `ArrivesEither` | the octets have one reading (C79) and the septets one text; the receiver by C102 |
| C121 | answers | `SameParty`, `NameField`, `DialledInText` | what the library reads of an address field and writes again has the same octets (`answer_field`), a lost `@` being padding in both |
| C122 | compat.py | `Answering`, `WaitGives` | `waitRun` interleaves the steps of `wait` with other threads; invariant `InTime` once the event was set in time. The steps of `threading.Event.wait` are taken from the standard library, not from the repository. The last lines of compat.py (`str`) are not modelled |
| C123 | order of times | `instantOf`, `dayNumber` | the order of dates is the order of the numbers of the days (`ordinal_lt`), which Python computes by a formula (`toordinal_eq`). Comparison and subtraction of `datetime` objects are taken from the standard library |
| C124 | Windows | `Stroke`, `winScreen` | `winSession` is `session` for the translated keys (`win_stroke`); invariant `CursorAtEnd` for the screen. What `msvcrt.getch` gives for a key is taken from its documentation |
| C125 | Asked for, with callbacks | `UsesOnly` | C115 for the methods with the code of the user as a parameter (`aw_op`), then induction over programs and over the depth of callbacks |
| C126 | Asked for, in threads | `jobMay`, `JobLine` | `Emits`: all lines that a thread may still send are of its kinds, whatever the others do between its steps; kept by each step |
| C127 | The lines of each thread, in their order | `utterances`, `ownLines`, `Recites`, `JobCommands` | `Said`: all sequences of lines a thread can have sent, over all answers and all states between its steps; a rule for sequences of statements, walked through the methods |
| C128 | The lines of each thread with the answers to them | `ownTalk`, `Proceeds` | as C127, with the answer to each line; a command of a list is followed by the next only after a positive answer |
| C129 | The memory in use at the lines of a thread | `linesWithPast`, `OneMemoryTask`, `OneMemoryJob`, `NamesMemoryTask`, `MemoryInUse` | each line with the log before it; in use is the memory of the last selection that the modem accepted |
| C130 | The form of commands and the mode in use, with threads | `InForm`, `OneModeTask`, `ModeInUse` | a quotation mark after `AT+CMGL=` or `AT+CMGS=` exactly in text mode; in use is the mode of the last accepted `AT+CMGF` |
| C58 | `encodeGsm7` against the GSM 03.38 tables | per-character check over the tables, induction |

## Where the code does not do what the property says

Each of these is proved with a concrete witness (or is a case the theorem states exactly).

PDU codec
* ESC in a text breaks the GSM-7 round trip; 'ÿ' raises TypeError; the grave accent sits at 0x5F,
  the code of the section sign.
* Empty text: `packSeptets` raises StopIteration, `decodeGsm7` of nothing TypeError.
* A concatenated GSM-7 text can lose characters: a 153-septet part ending in '@' loses it; a
  16-bit concatenation header loses the first septet.
* Truncated PDUs raise StopIteration; malformed information elements ValueError or IndexError.
* Data coding groups other than the general one are read as GSM-7.

Serial layer
* A payload line starting with the terminator ends the response early; an unsolicited line that
  arrives inside a response becomes part of it; a late response is given to the next command; a
  prompt containing the end of line is never recognised.

Modem
* `modem.smsc = None` while connected makes the modem use the number "None".
* A blank after '+CLAC:' hides the first command of the list.
* The PIN is also submitted when the SIM asks for a PUK; `_setSmsMemory(write=…)` raises TypeError.
* `+CMGS:12` loses a digit of the reference; any delivery report wakes every waiter; a report that
  comes before the waiter is registered is missed.
* A stored message is deleted before the callback sees it; a second +CMTI in a batch is lost.
* An undecodable PDU in a listing shifts index and status of the next message.
* 'RING' anywhere in a notification batch is treated as an incoming call.
* Call ids collide after a middle call ended; a stale hangup removes another call with its id;
  call id 0 never ends; a polled call absent from the table ends the polling thread.
* DTMF tones with braces raise ValueError.

Trie and terminal
* Storing a prefix of a stored compressed key loses it; the longest common prefix is hidden by a
  stored proper prefix and is wrong after deletions.
* Pasted chunks are ignored; TAB on a lower-case line erases it; TAB on an unknown "FOO=" ends the
  terminal.
- C66: when the announcement of a dialled call does not come in time, `dial` raises but does not hang up: the modem goes on dialling without a call object. An end announced in the same batch as the start is lost.
- C67: an incoming call from a number that we are dialling raises AttributeError (outgoing calls have no ringCount) and is not reported; two callers without number are taken for one call; data or fax calls (`+CRING: FAX`) raise KeyError and are not reported; a time-out while AT+CRC=1 is written loses the ring.
- C69: `processStoredSms` deletes the listed messages before it passes any of them on; when a deletion fails, the messages deleted before it are lost (`C69_lost`).
- C70: an answer without data (only `OK`) makes `manufacturer`, `model`, `imei`, `imsi` and `revision` return the text `OK` (`C70_no_data`).
- C71: an unreadable +CMTI line before a +CDSI line in the same batch hides the report: it stays in the modem and the wait times out (`C71_hidden_report`).
- C72: a USSD message containing a quote, a comma and a digit is cut off there (`C72_cut_off`).
- C73: a line that arrives while `write` tidies up after a response can end the reader thread with AttributeError (`self._responseEvent.is_set()` on None), after a prompt with TypeError (`len(False)`); `alive` stays True and the fatal error callback is not called, so the modem goes deaf silently (`C73_crash_after_response`, `C73_crash_after_prompt`, `C73_dead`, `C73_dead_writes`).
- C73: around a time-out a line can vanish (`C73_lost_line`), the data of the raised TimeoutException can grow (`C73_data_grows`), and the next `write` can return an empty response (`C73_empty_response`).
- C74: the terminals compare whole pieces of console input: in the raw terminal a pasted line reaches the modem with a line feed instead of carriage return and CTRL+] inside a piece does not end it (`C74_raw_violated`); in GsmTerm pasted text is lost (`C74_typing`) and a split cursor key cancels the message being typed (`C74_split_key`).
- C36: `_setSmsMemory` with another memory to write to calls `self.write()` without argument: TypeError (`C36_write_memory`).
- C75: sendsms.py: when the delivery report does not come in time, the user is told "Failed to send message" with status 1 although the message was sent (`C75_sent_but_failed`); a failed delivery ends with status 0 (`C75_failed_status`); a report of another message ends the wait (`C75_other_report`); complaints about the PIN and uncaught exceptions leave the port open (`C75_pin_left_open`, `C75_left_open`). identify-modem.py never closes the port and asks for revision, IMEI and IMSI twice (`C75_identify_open`, `C75_info`).
- C76: notifications are handled in threads of their own, but `_smsMemReadDelete`, `_smsRef`, `sentSms` and `smsTextMode` are used without a lock: with two memories a thread can delete an unread message of the other memory (`C76_message_lost`); the remembered memory can differ from the selected one from then on (`C76_stale_memory`); a command of another thread can come between `AT+CMGS` and the message (`C76_between_prompt_and_message`); two messages can have the same reference (`C76_same_reference`); a send can fail because it sees reference 256 (`C76_reference_256`); a quick delivery report is lost (`C76_report_lost`); switching the mode while a message is read loses the message for the callback (`C76_mode_between`).
- C77: `activeCalls` is used by several threads without a lock: a call that rings twice quickly becomes two objects (`C77_ring_twice`); two calls can get the same id, and hanging up one removes the other from the table (`C77_same_id`); `hangup` and the handler of the end of a call can fail with a KeyError (`C77_key_error`); a new call is not reported when another one ends while it rings (`C77_ring_lost`, RuntimeError: dictionary changed size during iteration); `ATH` can be written twice (`C77_hangup_twice`); a call that is over can be marked as answered (`C77_answered_late`); the end of a call can remove another, active call from the table (`C77_other_removed`).
- C78: the events are attributes that any thread can replace: with two threads in `sendUssd` a timed-out request takes away the event of the other, which then fails with AttributeError although its result has arrived (`C78_event_taken`), or both get the same result (`C78_same_result`); the late result of a request that timed out is taken for that of the next (`C78_result_of_other`); the handler of a notification fails with AttributeError when the wait ends between its test and `set` (`C78_told_late`); `sendSms` creates its event only after sending, so that an early report makes it time out (`C78_report_early`); it returns after the report for any other message (`C78_report_of_other`); a call that begins after `dial` timed out goes on unknown to the program (`C78_call_unknown`); two threads that dial get two objects for one call (`C78_dialled_twice`).
- C79: the message object for the callback has neither the reference nor the number of a part: the texts of a long message arrive as separate messages whose order the program cannot know.
- C80: an answer that is not complete when the time is over is not discarded: its rest is read as (the beginning of) the answer to the next command.
- C81: `write` on a closed port leaves `_responseEvent` set; the next notification after a reconnect is swallowed (serial_comms.py:125-126).
- C81: `_notification` is not cleared by `connect`, so unfinished lines of an old connection are delivered with those of the new.
- C81: `connect` twice without `close` leaves two read threads on one port.
- C82: sms_handler_demo.py fails with TypeError for a message that has ÿ (U+00FF) among its first 20 characters (from C02).
- C82: two programs sms_handler_demo.py that get a message from each other answer forever.
- C82: incoming_call_demo.py catches InterruptedException only; a call that ends within the two seconds of waiting makes it fail with InvalidStateException.
- C83: dial_polling_demo.py fails with InvalidStateException when the other end hangs up between its looking at active and sendDtmfTone looking at answered (the library sets answered to False first), and with KeyError when this happens while it hangs up.
- C83: dial_callback_demo.py prints that the remote party has ended the call whenever it has ended the call itself, because hangup calls the callback again; if ATH is refused it waits forever, because waitForCallback is set after hangup in the finally block.
- C84: `CmeError(command, code=11)` is not a `PinRequiredError` (only positional arguments are looked at), `PinRequiredError(command, 16)` is not a `PinRequiredError` but an `IncorrectPinError`; `copy.copy` and `pickle` fail with TypeError for a `CmeError` or `CmsError` whose code has no class of its own.
- C85: a text of 128 to 160 extension characters (such as the euro sign) is refused with ValueError: it is short enough in characters not to be split but has more than 255 septets; a longer one is split but refused if a piece of 153 characters has more than 248 septets; an empty text raises StopIteration, an empty number IndexError, a ÿ TypeError, none of which is documented.
- C86: readStoredSms, listStoredSms, processStoredSms, sendSms, sendUssd, Ussd.reply, sendDtmfTone and connect let exceptions other than those of exceptions.py through (KeyError, StopIteration, TypeError, ValueError, IndexError, AttributeError), which their docstrings do not mention; listing in PDU mode swallows an EncodingError, reading does not; a modem that stays busy makes every command raise RecursionError.
- C87: AT+WOPN and AT+CHLD have two rows in the table of commands; the first row of AT+WOPN (read operator name) is lost. `?` with a single character is no request for help. In the line of TAB only the command is white, since the reset after it ends the outer colour as well.
- C88: the declared user data length is never compared with what is there: a cut text is accepted silently, and for 8-bit data (always) and GSM-7 texts of eight septets or more (the septet count is taken for an octet count) octets after the end are read into the text.
- C89: `processStoredSms` deletes all messages of a state before the first callback, so an exception in one callback loses all later ones.
- C89: `hangup` and `_handleCallEnded` call the user before they mark the call as over: an exception leaves it active for ever, `if call.active: call.hangup()` in the callback recurses up to the limit, and a callback that hangs up a call that ended by itself makes `_handleCallEnded` raise KeyError.
- C89: an exception in the callback for an answered call ends the polling thread.
- C90: `Call.dtmfSupport` and `Call.DTMF_COMMAND_BASE` belong to the class: once a Huawei modem was connected, calls of all modems send `^DTMF`, for the rest of the program.
- C90: `connect` does not reset what it does not set: the SMSC number read from one SIM card is written to the next modem; the call table, `_waitForCallInitUpdate`, `_waitForAtdResponse` and `_smsReadSupported` of an earlier modem stay; calls left in the table are taken for new ones.
- C91: in text mode a text with Ctrl-Z ends the message early and the rest is executed as a command, so a program that passes on received texts lets the sender control the modem; numbers for `dial`, USSD strings, PINs and memory names are not checked for carriage returns either.
- C91: when the modem answers the message itself with busy (515), `write` repeats only the message, not `AT+CMGS`: the modem then waits for a command and takes the message for the beginning of the next one.
- C92: `listStoredSms(Sms.STATUS_ALL, delete=True)` (also the default status) deletes with `AT+CMGD=1,4` everything that is in the memory by then, including messages that came after the listing.
- C92: a `+CDSI` notification for a place where in the meantime an ordinary message is stored makes `_handleSmsStatusReport` read it, delete it, and fail: the message is lost.
- C55: `Trie.__iter__` ends with `raise StopIteration`, which since Python 3.7 leaves the generator as `RuntimeError`: every complete loop over a trie fails at its end.
- C93: `decodeSmsPdu` ignores the enhanced validity period format (bits 01): the seven octets are not skipped, so length and text are read from the wrong place.
- C94: `_smsRef` begins at 0 although the modem counts from its own number, and is not advanced when a message fails after some of its parts were taken: two long messages can get the same concatenation reference, so a receiver mixes their parts.
- C95: `_handleSmsStatusReport` asks whether there is an entry and then uses it; if the program drops the message in between, a KeyError ends the thread of the notification, after the report was deleted from the modem: it is lost, and a waiting `sendSms` times out.
- C96: `ReceivedSms` has no trace of the concatenation header that `decodeSmsPdu` has read, so a program that is handed the parts of long messages cannot put them together: the parts of "AB" and of "BA" give the same objects.
- C97: on Python 3, where `serial.read` gives bytes, `data != ''` always holds and `rxBuffer` never ends with `RX_EOL_SEQ`: no line is ever read, memory grows with every timeout, and `write` of a str raises TypeError. The library can be used on Python 2 only (`C97_violated`).
- C98: `sys.exitfunc = cleanup_console` has no effect on Python 3, so that the console is left without echo and line editing by every run of the terminal (`C98_not_restored`); CTRL+] and CTRL+D have no effect there either (`C98_python3`).
- C99: in text mode the text of a received message can contain a line `OK` and after it lines that the program takes for notifications; a stranger can so delete stored messages, announce calls that do not exist, or answer a USSD request (`C99_forged`, `C99_violated`). PDU mode is not affected (`C99_pdu`).
- C100: one stored message without text (GSM alphabet) makes every listing of its state raise TypeError; `processStoredSms` then never hands over any message (`C100_forever`, `C100_violated`), and unread messages beside it are marked as read without being handed over (`C100_unread`).
- C102: the same message is not the same in both modes: in text mode time zones lose their quarter hours, UCS2 texts come as hexadecimal digits, CR LF becomes LF and the service centre is missing; flash is ignored (`C102_same`, `C102_violated`, `C102_flash`); sent messages are valid for one day in text mode only (`C102_settings`).
- C103: in text mode a stranger can, with one SMS whose text contains a line like the header of a listed message, make the program hand over a message nobody has sent (any sender), delete the message at any place, or keep all stored messages from being handed over (`C103_violated`, `C103_violated_spoilt`).
- C104: the timeout of a command does not bound the time it blocks: a modem that stays busy (515) blocks one command for more than 44 hours before the `RecursionError` (`C104_days`); after a repetition that fails, `_writeWait` is not reset, so each such failure makes all later commands 0.2 seconds slower, without limit (`C104_slower`).
- C105: `connect` sets `_smsMemReadDelete` before it writes `AT+CPMS=`; a notification handled in between (the read thread is running) leaves the attribute and the modem with different memories, and the next notification reads and deletes in the wrong one (`C105_memory_violated`). In the same way `connect` reads `_smsTextMode` before it writes `AT+CMGF=` (`C105_mode_violated`).
- C106: the regular expressions for `+CMGR` are compiled in `connect` only after about ten commands (modem.py:294), but the read thread handles notifications from the beginning: a `+CMTI` or `+CDSI` that arrives before is read from the modem and then lost to the program with an `AttributeError` in the handler thread (`C106_early_violated`). The setter of `smsTextMode` assigns the mode before it compiles the expressions for it (`C106_switch_violated`), and tests only one of the two that it compiles (`C106_report_violated`, `C106_switched_violated`).
- C107: two different requests can give the same PDUs: names that differ by a final `@` that fills the last octet (`C107_names_violated`), and long texts that differ only in characters that have no place in the parts (`C107_long_violated`, the defect of the number of parts in pdu.py:287-291).
- C108: `waitForNetworkCoverage` sleeps a second between finding that the modem is registered and asking for the signal (modem.py:622): with a timeout of one second or less it always raises TimeoutException, even when there is coverage from the beginning (`C108_short`, `C108_second`). The timer is not cancelled when the method returns (modem.py:597), so its thread stays until the timeout; it has no effect then.
- C109: two threads that handle `RING` lines of the same call at the same time create two call objects for it with the same id, and the first is never found again (`C109_reached`).
- C110: in text mode a stored message whose text consists of line ends only is never handed over by `processStoredSms` and never deleted; it takes up its place for ever and no error is raised (`C110_untold_stays`, `C110_untold_violated`). In PDU mode it is handed over.
- C111: `responseTimeout` of `sendUssd` ("Maximum time to wait a response") and `timeout` of `dial` ("Maximum time to wait for the call to be established") are used twice, for the answer to the command and again for the notification, so that the methods block up to twice that long, and still longer when the modem is busy, since each repetition gets the full time again (`C111_ussd_violated`, `C111_dial_violated`, `C111_busy_violated`).
- C112: with several calls the table goes wrong: the program numbers an incoming call by the number of current calls plus one, the modem by the lowest free number. When the first of two calls has ended and a third comes, it replaces the second in `activeCalls`; when then the second ends, the third is marked as over although it rings (`C112_third_violated`).
- C112: on a modem without reports on calls, an incoming call that nobody answers stays in `activeCalls` for ever, and the next call from the same number is taken for another ring of it (`C112_end_unheard`, `C112_missed_violated`).
- C112: `IncomingCall.hangup` sets `ringing` to False before ATH is written; when ATH is refused, the call goes on ringing but `answer` does nothing any more and raises nothing (`C112_refused`).
- C113: on polled modems a call that is answered within half a second is never noticed: `_pollCallStatus` waits for the states 2 or 3 first, so `dial` raises `TimeoutException`, there is no object with which to hang up, and the call goes on (`C113_answered_at_once_violated`).
- C113: a `+CLCC` line without the number (27.007 makes it optional), or one `AT+CLCC` that is not answered in time, is taken for the end of the call; the object becomes inactive, and `hangup` on it writes nothing, while the call goes on (`C113_bare_line_violated`, `C113_late_answer_violated`).
- C113: only the first line of the list of calls is looked at; while an incoming call is listed first, `dial` times out (`C113_hidden_violated`).
- C113: `hangup` does not stop the polling thread; when the program dials again before its next query, two threads watch the new call, and its callback is called twice (`C113_redial_violated`).
- C114: only the last part of a long message is looked at: the message counts as delivered when its last part is, even if the centre reported that another part failed (`C114_parts_violated`).
- C114: every result but 0 counts as failed: also 0x20-0x3F (the centre is still trying), 1 (delivered, not confirmed) and 2 (replaced). A message shown as failed may be delivered later (`C114_trying_violated`).
- C114: references of the parts of long messages are not kept, so a report on such a part changes an old message that had the same reference, even a delivered one (`C114_middle_violated`); a late report counts for the newest message with its reference (`C114_late_violated`).
- `Ussd.cancel` leaves `sessionActive` true, and so does the end of the session in the earlier objects of it; `reply` then sends the text as a new USSD request instead of raising `InvalidStateException` (`C116_cancel_violated`, `C116_old_object_violated`, `C116_closed_violated`).
- C117: when the modem adds the time stamp or the acknowledgement of the message centre to `+CMGS: <mr>` (allowed by 27.005, usual after AT+CSMS=1), `sendSms` raises `ValueError` although the message has been sent, and delivery reports for it are lost (`C117_details_violated`).
- C118: `activeCalls` grows without bound on modems without reports on calls, by one entry for every number whose call was missed (`C118_calls_violated`).
- C119: identify-modem.py prints all its arguments first (`print('args:',args)`, a left-over), so that the PIN given with `-p` is on the screen and in every log of the output (`C119_pin_shown_violated`).
- C119: `-b=9600` means the rate `=9600` on Python 2.6 and `9600` later; values that begin with a dash are accepted on Python 2.6 only (`C119_same_violated`).
- C120: in text mode `sendSms` hands texts of more than 160 septets, and texts in other alphabets, to the modem as they are; the modem cannot make one message of them (`C120_sendable`, `C120_taken`), while the same call in PDU mode divides them.
- C121: the library gives numbers and names as strings and so does not know any more that the sender was a name: the answer to a message from the name `123` (or `+27...`), which whoever writes the message can choose, is sent to that number (`C121_violated`); sms_handler_demo.py answers every message.
- C121: in text mode `reply` to a message without sender (read in PDU mode before) is sent to `AT+CMGS="None"` (`C121_nobody`).
- C122: an answer that arrives after the time is over, but before the thread looks again, is given back by `write` on Python 2 and is a `TimeoutException` on Python 3 (`C122_same_violated`); harmless.
- C123: in text mode zones are cut to whole hours, so that messages from Nepal (+5:45) and Pakistan (+5:00) received within three quarters of an hour are sorted the wrong way round (`C123_text_order_violated`).
- C123: a text mode zone of `+96` or more gives a `datetime` that raises `ValueError` only later, when it is compared or printed (`C123_text_raises`); zones in PDUs cannot be that large (`C123_pdu_comparable`).
- C124: on Windows Backspace does nothing in GsmTerm (it gives the character 8, the terminal waits for 127; `C124_backspace_violated`), nor do Home, End and Delete (`C124_dead`; a TODO in the source says so); arrows and the recall of shorter lines write the codes of the keyboard to the screen (`C124_arrow`); the letter with the code 0xE0 swallows the next key (`C124_letter`).
- C127: `sendSms` announces a message and sends its text in two exchanges, and the lock of `SerialComms` is free in between: a question of another thread goes out after the prompt and is taken for the text of the message (`C127_apart_violated`).
- C128: `listStoredSms(delete=True)` lists and then deletes "all messages" of the memory chosen at that time: if another thread chooses another memory between the two commands (as the thread of any notification does), all messages of that memory are deleted though nobody has seen them (`C128_other_memory_violated`).
- If one thread sets `smsTextMode` between the moment when `listStoredSms` in another looks at it and the moment when the latter writes its command, the command has the form of the mode before (C130_other_mode_violated).

## Not modelled

* Real time apart from the time of commands, pauses and waits in C104, C108 and C111, OS threads below single attribute accesses (C73), pyserial,
  logging, and the texts of help and complaints of the scripts in `tools/`. The garbage collection of weakly referenced
  `SentSms` is modelled for C95 only (elsewhere the caller is taken to keep the objects returned by `sendSms`).

## Axioms

`#print axioms` of the property theorems reports at most `propext`, `Classical.choice` and
`Quot.sound`.

## Testing the theorems

`seeded/LOG.jsonl` records wrong programs: an edit of one model definition, made in a scratch copy,
and which theorems stop checking. Besides the hand-written ones, single-site edits (numbers,
literals, comparisons, negated conditions, dropped statements, error kinds) were generated over
the model files; edits that no theorem noticed led to the theorems listed as tightened.
