import Verif.Model.Py
import Verif.Model.Gsm7
import Verif.Model.Septets
import Verif.Model.Ucs2
import Verif.Model.Address
import Verif.Model.DateTime
import Verif.Model.Validity
import Verif.Model.Udh
import Verif.Model.Pdu
import Verif.Validation.Pdu
import Verif.Validation.PduParts
import Verif.Validation.FakeModems
import Verif.Validation.Modem
import Verif.Validation.Calls
import Verif.Validation.Sms
import Verif.Validation.Serial
import Verif.Validation.Util
import Verif.Validation.Trie
import Verif.Props.Gsm7
import Verif.Props.Septets
import Verif.Props.Ucs2
import Verif.Props.Address
import Verif.Props.Validity
import Verif.Props.Timestamp
import Verif.Props.Udh
import Verif.Props.Submit
import Verif.Props.SubmitRound
import Verif.Props.Hex
import Verif.Props.Deliver
import Verif.Props.Undecodable
import Verif.Model.Trie
import Verif.Spec.Trie
import Verif.Lemmas.Trie
import Verif.Props.Trie
import Verif.Model.Regex
import Verif.Lemmas.Regex
import Verif.Model.PyInt
import Verif.Lemmas.PyInt
import Verif.Model.Util
import Verif.Props.Util
import Verif.Model.Serial
import Verif.Spec.Serial
import Verif.Lemmas.Serial
import Verif.Props.Serial
import Verif.Model.PyText
import Verif.Model.Modem
import Verif.Spec.Modem
import Verif.Lemmas.ModemWrite
import Verif.Props.ModemWrite
import Verif.Model.ModemSms
import Verif.Model.ModemCalls
import Verif.Spec.ModemLog
import Verif.Lemmas.ModemSteps
import Verif.Lemmas.ModemReach
import Verif.Lemmas.ModemFrame
import Verif.Spec.ExampleModem
import Verif.Props.ModemMode
import Verif.Props.ModemMemory
import Verif.Props.ModemPin
import Verif.Spec.SentSms
import Verif.Props.ModemReference
import Verif.Props.ModemSend
import Verif.Spec.Listing
import Verif.Lemmas.RegexEval
import Verif.Lemmas.ModemTrans
import Verif.Lemmas.Listing
import Verif.Props.ModemListing
import Verif.Spec.Notify
import Verif.Lemmas.Notify
import Verif.Props.ModemNotify
import Verif.Spec.Coverage
import Verif.Lemmas.Coverage
import Verif.Props.ModemCoverage
import Verif.Spec.Calls
import Verif.Lemmas.Calls
import Verif.Props.ModemCalls
import Verif.Props.ModemDtmf
import Verif.Spec.Polling
import Verif.Lemmas.Polling
import Verif.Props.ModemPolling
import Verif.Model.Terminal
import Verif.Spec.Terminal
import Verif.Props.Terminal
import Verif.Model.AtCommands
import Verif.Props.TerminalCompletion
import Verif.Props.TerminalDisplay
import Verif.Spec.Composer
import Verif.Props.TerminalSms
import Verif.Spec.Connect
import Verif.Lemmas.ModemText
import Verif.Lemmas.ConnectStores
import Verif.Lemmas.Connect
import Verif.Props.ModemConnect
import Verif.Spec.Smsc
import Verif.Props.ModemSmsc
import Verif.Spec.Progress
import Verif.Lemmas.Progress
import Verif.Props.ModemProgress
import Verif.Spec.Dial
import Verif.Lemmas.DialFrame
import Verif.Props.ModemDial
import Verif.Spec.Incoming
import Verif.Lemmas.Incoming
import Verif.Props.ModemIncoming
import Verif.Spec.Reading
import Verif.Lemmas.Reading
import Verif.Props.ModemReading
import Verif.Spec.Processing
import Verif.Props.ModemProcessing
import Verif.Spec.Queries
import Verif.Lemmas.Queries
import Verif.Props.ModemQueries
import Verif.Spec.Delivery
import Verif.Lemmas.Delivery
import Verif.Props.ModemDelivery
import Verif.Spec.Ussd
import Verif.Lemmas.Ussd
import Verif.Props.ModemUssd
import Verif.Model.SerialFine
import Verif.Lemmas.SerialFine
import Verif.Lemmas.SerialFineSim
import Verif.Lemmas.SerialAtomic
import Verif.Lemmas.SerialExpand
import Verif.Props.SerialFine
import Verif.Model.RawTerm
import Verif.Spec.Keyboard
import Verif.Props.TerminalKeys
import Verif.Model.Tools
import Verif.Spec.Tools
import Verif.Spec.TextTime
import Verif.Lemmas.TextTime
import Verif.Lemmas.Tools
import Verif.Props.Tools
import Verif.Model.Threads
import Verif.Spec.Threads
import Verif.Lemmas.Threads
import Verif.Lemmas.ThreadsFrame
import Verif.Lemmas.ThreadsEnd
import Verif.Lemmas.ThreadsSettle
import Verif.Props.Threads
import Verif.Model.ThreadCalls
import Verif.Spec.ThreadCalls
import Verif.Lemmas.ThreadCalls
import Verif.Lemmas.ThreadCallsFrame
import Verif.Lemmas.ThreadCallsEnd
import Verif.Lemmas.ThreadCallsSettle
import Verif.Props.ThreadCalls
import Verif.Model.Waiting
import Verif.Spec.Waiting
import Verif.Lemmas.Waiting
import Verif.Lemmas.WaitingFrame
import Verif.Lemmas.WaitingJobs
import Verif.Lemmas.WaitingEnd
import Verif.Lemmas.WaitingTold
import Verif.Lemmas.WaitingAlone
import Verif.Props.Waiting
import Verif.Spec.Relay
import Verif.Lemmas.Relay
import Verif.Props.Relay
import Verif.Model.Stack
import Verif.Spec.Stack
import Verif.Lemmas.StackComms
import Verif.Lemmas.Stack
import Verif.Lemmas.StackPlay
import Verif.Props.Stack
import Verif.Model.Lifecycle
import Verif.Spec.Lifecycle
import Verif.Lemmas.Lifecycle
import Verif.Props.Lifecycle
import Verif.Model.Examples
import Verif.Spec.Examples
import Verif.Props.Examples
import Verif.Model.DialExamples
import Verif.Spec.DialExamples
import Verif.Lemmas.ThreadTrace
import Verif.Lemmas.DialExamples
import Verif.Props.DialExamples
import Verif.Model.Exceptions
import Verif.Spec.Exceptions
import Verif.Props.Exceptions
import Verif.Spec.Sendable
import Verif.Lemmas.Sendable
import Verif.Props.Sendable
import Verif.Spec.Contracts
import Verif.Lemmas.Contracts
import Verif.Lemmas.ContractsWitness
import Verif.Props.Contracts
import Verif.Model.AtHelp
import Verif.Model.HelpPages
import Verif.Spec.HelpPages
import Verif.Lemmas.HelpPages
import Verif.Props.HelpPages
import Verif.Spec.CutPdu
import Verif.Lemmas.CutPdu
import Verif.Props.CutPdu
import Verif.Model.Callbacks
import Verif.Spec.Callbacks
import Verif.Lemmas.Callbacks
import Verif.Props.Callbacks
import Verif.Model.Several
import Verif.Spec.Several
import Verif.Lemmas.Several
import Verif.Props.Several
import Verif.Spec.Wire
import Verif.Lemmas.Wire
import Verif.Lemmas.WireMethods
import Verif.Props.Wire
import Verif.Spec.Store
import Verif.Lemmas.Store
import Verif.Lemmas.StoreMethods
import Verif.Lemmas.StoreOps
import Verif.Lemmas.StoreConnect
import Verif.Spec.ExampleStore
import Verif.Props.Store
import Verif.Spec.SubmitWire
import Verif.Props.SubmitWire
import Verif.Spec.Concatenated
import Verif.Lemmas.Octets
import Verif.Lemmas.Concatenated
import Verif.Props.Concatenated
import Verif.Model.Forget
import Verif.Spec.Forget
import Verif.Lemmas.Forget
import Verif.Props.Forget
import Verif.Spec.Session
import Verif.Lemmas.Session
import Verif.Props.Session
import Verif.Model.BytesPort
import Verif.Spec.BytesPort
import Verif.Lemmas.BytesPort
import Verif.Props.BytesPort
import Verif.Model.TermLife
import Verif.Spec.TermLife
import Verif.Lemmas.TermLife
import Verif.Props.TermLife
import Verif.Spec.Stranger
import Verif.Lemmas.Stranger
import Verif.Props.Stranger
import Verif.Spec.Poison
import Verif.Lemmas.Poison
import Verif.Props.Poison
import Verif.Spec.Commands
import Verif.Lemmas.Commands
import Verif.Props.Commands
import Verif.Spec.Modes
import Verif.Lemmas.Modes
import Verif.Props.Modes
import Verif.Spec.TextListing
import Verif.Lemmas.TextListing
import Verif.Props.TextListing
import Verif.Model.Clock
import Verif.Spec.Clock
import Verif.Lemmas.Clock
import Verif.Lemmas.ClockBound
import Verif.Props.Clock
import Verif.Model.ThreadConnect
import Verif.Spec.ThreadConnect
import Verif.Lemmas.ThreadConnect
import Verif.Lemmas.ThreadConnectWalk
import Verif.Lemmas.ThreadConnectPin
import Verif.Lemmas.ThreadConnectEnd
import Verif.Props.ThreadConnect
import Verif.Model.Expressions
import Verif.Spec.Expressions
import Verif.Lemmas.Expressions
import Verif.Props.Expressions
import Verif.Spec.Distinct
import Verif.Lemmas.Distinct
import Verif.Props.Distinct
import Verif.Model.CoverageClock
import Verif.Spec.CoverageClock
import Verif.Lemmas.CoverageClock
import Verif.Props.CoverageClock
import Verif.Spec.Together
import Verif.Lemmas.Together
import Verif.Lemmas.TogetherJobs
import Verif.Props.Together
import Verif.Spec.TextStore
import Verif.Spec.ExampleTextStore
import Verif.Lemmas.TextStore
import Verif.Lemmas.TextStoreMethods
import Verif.Lemmas.TextStoreOps
import Verif.Lemmas.TextStoreConnect
import Verif.Props.TextStore
import Verif.Model.WaitClock
import Verif.Spec.WaitClock
import Verif.Lemmas.WaitClock
import Verif.Props.WaitClock
import Verif.Spec.CallLine
import Verif.Lemmas.CallLine
import Verif.Lemmas.CallLineSteps
import Verif.Lemmas.CallLineOther
import Verif.Props.CallLine
import Verif.Model.PollClock
import Verif.Spec.PolledCall
import Verif.Lemmas.PolledCall
import Verif.Props.PolledCall
import Verif.Spec.Centre
import Verif.Lemmas.Centre
import Verif.Props.Centre
import Verif.Spec.Asked
import Verif.Lemmas.Asked
import Verif.Props.Asked
import Verif.Spec.Dialogue
import Verif.Lemmas.Dialogue
import Verif.Props.Dialogue
import Verif.Spec.Numeral
import Verif.Lemmas.Numeral
import Verif.Props.Numeral
import Verif.Spec.Idle
import Verif.Lemmas.Idle
import Verif.Props.Idle
import Verif.Model.CommandLine
import Verif.Spec.CommandLine
import Verif.Lemmas.CommandLine
import Verif.Props.CommandLine
import Verif.Spec.Across
import Verif.Lemmas.Across
import Verif.Props.Across
import Verif.Model.Reply
import Verif.Spec.Reply
import Verif.Lemmas.Reply
import Verif.Props.Reply
import Verif.Model.Compat
import Verif.Spec.Compat
import Verif.Lemmas.Compat
import Verif.Props.Compat
import Verif.Model.Instant
import Verif.Spec.Instant
import Verif.Lemmas.Instant
import Verif.Props.Instant
import Verif.Model.WinTerm
import Verif.Spec.WinTerm
import Verif.Lemmas.WinTerm
import Verif.Props.WinTerm
import Verif.Spec.AskedWith
import Verif.Lemmas.AskedWith
import Verif.Props.AskedWith
import Verif.Spec.AskedThreads
import Verif.Lemmas.AskedThreads
import Verif.Props.AskedThreads
import Verif.Spec.OwnLines
import Verif.Lemmas.OwnLines
import Verif.Props.OwnLines
import Verif.Spec.OwnAnswers
import Verif.Lemmas.OwnAnswers
import Verif.Props.OwnAnswers
import Verif.Spec.OwnMemory
import Verif.Lemmas.OwnMemory
import Verif.Props.OwnMemory
import Verif.Spec.OwnMode
import Verif.Lemmas.OwnMode
import Verif.Lemmas.OwnModeJobs
import Verif.Lemmas.OwnMemoryJobs
import Verif.Props.OwnMode
