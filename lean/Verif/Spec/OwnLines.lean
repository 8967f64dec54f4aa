import Verif.Spec.Delivery
import Verif.Spec.Commands
import Verif.Spec.Threads
import Verif.Model.Waiting
/-! # Specification: the lines of each thread, in their order -/
namespace Gsm.Spec

/-- What was sent between two moments, in the order in which it was sent. -/
def sentSince (before after : List PyStr) : List PyStr := (after.take (after.length - before.length)).reverse

/-- All lines that are sent, in their order, each with the thread that sends it. -/
def utterances (env : Env) : List Nat → List (Proc Value) × Shared → List (Nat × PyStr)
  | [], _ => []
  | i :: is, (threads, w) =>
    match threads[i]? with
    | none => utterances env is (threads, w)
    | some p => (sentSince w.st.log (p.step env w).2.st.log).map (fun c => (i, c)) ++ utterances env is (threads.set i (p.step env w).1, (p.step env w).2)

/-- The lines of one thread. -/
def ownLines (i : Nat) (all : List (Nat × PyStr)) : List PyStr := all.filterMap fun x => if x.1 = i then some x.2 else none

/-- The first of these commands, in this order, none left out; if `busy`, each of them once or several times. -/
inductive Recites (busy : Prop) : List PyStr → List PyStr → Prop
  | stop (cs : List PyStr) : Recites busy cs []
  | next (c : PyStr) (n : Nat) {cs ls : List PyStr} : n = 0 ∨ busy → Recites busy cs ls → Recites busy (c :: cs) (List.replicate (n + 1) c ++ ls)

/-- As `Recites`, and all of them. -/
inductive RecitesAll (busy : Prop) : List PyStr → List PyStr → Prop
  | nil : RecitesAll busy [] []
  | next (c : PyStr) (n : Nat) {cs ls : List PyStr} : n = 0 ∨ busy → RecitesAll busy cs ls → RecitesAll busy (c :: cs) (List.replicate (n + 1) c ++ ls)

/-- The commands that read a message and then delete it; the memory is chosen before if another one is. -/
inductive FetchCommands (mem idx : PyStr) : List PyStr → Prop
  | chosen : FetchCommands mem idx [py!"AT+CMGR=" ++ idx ++ [13], py!"AT+CMGD=" ++ idx ++ py!",0\r"]
  | choose : FetchCommands mem idx [py!"AT+CPMS=\"" ++ mem ++ py!"\"\r", py!"AT+CMGR=" ++ idx ++ [13], py!"AT+CMGD=" ++ idx ++ py!",0\r"]

/-- The command that chooses a memory, if one is named and another is chosen. -/
inductive MemoryCommands : Option PyStr → List PyStr → Prop
  | chosen (m : Option PyStr) : MemoryCommands m []
  | choose (m : PyStr) : MemoryCommands (some m) [py!"AT+CPMS=\"" ++ m ++ py!"\"\r"]

/-- The command that lists messages. -/
inductive ListCommand (status : Int) : PyStr → Prop
  | pdu : ListCommand status (py!"AT+CMGL=" ++ intStr status ++ [13])
  | text {name : PyStr} : statusText? status = some name → ListCommand status (py!"AT+CMGL=\"" ++ name ++ py!"\"\r")

/-- The commands that delete the listed messages, all at once or one after the other. -/
inductive CleanCommands (status : Int) : Bool → List PyStr → Prop
  | keep : CleanCommands status false []
  | all : status = 4 → CleanCommands status true [py!"AT+CMGD=1,4\r"]
  | each (is : List Int) : status ≠ 4 → CleanCommands status true (is.map fun i => py!"AT+CMGD=" ++ intStr i ++ py!",0\r")

/-- The commands of a thread that has to do with messages. -/
inductive JobCommands [PyUnicode] : Job → List PyStr → Prop
  | send {d t : PyStr} {f : Bool} {cs : List PyStr} : SendingCommands d t f cs → JobCommands (.task (.message (.send d t f))) cs
  | sendWait {d t : PyStr} {f : Bool} {cs : List PyStr} : SendingCommands d t f cs → JobCommands (.sendWait d t f) cs
  | received {line mem idx : PyStr} {cs : List PyStr} : StoredAt py!"+CMTI:" line mem idx → FetchCommands mem idx cs → JobCommands (.task (.message (.received line))) cs
  | report {line mem idx : PyStr} {cs : List PyStr} : StoredAt py!"+CDSI:" line mem idx → FetchCommands mem idx cs → JobCommands (.task (.message (.statusReport line))) cs
  | read {i : PyStr} {m : Option PyStr} {c0 : List PyStr} : MemoryCommands m c0 → JobCommands (.task (.message (.read i m))) (c0 ++ [py!"AT+CMGR=" ++ i ++ [13]])
  | delete {i : PyStr} {m : Option PyStr} {c0 : List PyStr} : MemoryCommands m c0 → JobCommands (.task (.message (.delete i m))) (c0 ++ [py!"AT+CMGD=" ++ i ++ py!",0\r"])
  | deleteMultiple {f : Int} {m : Option PyStr} {c0 : List PyStr} : MemoryCommands m c0 → JobCommands (.task (.message (.deleteMultiple f m))) (c0 ++ [py!"AT+CMGD=1," ++ intStr f ++ [13]])
  | list {st : Int} {m : Option PyStr} {d : Bool} {c0 c1 : List PyStr} {c : PyStr} : MemoryCommands m c0 → ListCommand st c → CleanCommands st d c1 →
      JobCommands (.task (.message (.list st m d))) (c0 ++ c :: c1)
  | sameMode {v : Bool} : JobCommands (.task (.message (.setTextMode v))) []
  | mode {v : Bool} : JobCommands (.task (.message (.setTextMode v))) [py!"AT+CMGF=" ++ (if v then py!"1" else py!"0") ++ [13]]
  | ask {c : PyStr} : JobCommands (.task (.message (.ask c))) [c ++ [13]]

end Gsm.Spec
