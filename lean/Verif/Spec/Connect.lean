import Verif.Model.Modem
import Verif.Spec.Modem
import Verif.Spec.Listing
/-! # Specification: initialising a modem

A modem that answers each command always in the same way, what these answers say about it, the commands
by which it has to be initialised, and the settings that go with it. -/
namespace Gsm.Spec

/-- A modem without memory: its answer to each command, and whether this is a positive one. -/
structure Behaviour where
  answer : PyStr → List PyStr
  accepts : PyStr → Bool

/-- The modem of `env` behaves like `b`; it always answers, and it is never busy. -/
structure Follows (env : Env) (b : Behaviour) : Prop where
  depth : 0 < env.depth
  reply : ∀ c log, env.reply ((c ++ [13]) :: log) = .lines (b.answer c)
  yes : ∀ c, b.accepts c = true → ResponseMeans (b.answer c) (.ok (b.answer c))
  no : ∀ c, b.accepts c = false → ∃ cls code, ResponseMeans (b.answer c) (.error (.command cls code))

/-- `l` is the first line of `ls` that begins with `pre`. -/
def FirstWith (pre : PyStr) (ls : List PyStr) (l : PyStr) : Prop :=
  ∃ a z, ls = a ++ l :: z ∧ pre <+: l ∧ ∀ x ∈ a, ¬ pre <+: x

/-- A blank. -/
def Blank (c : Nat) : Prop := c = 32 ∨ (9 ≤ c ∧ c ≤ 13) ∨ (28 ≤ c ∧ c ≤ 31)

/-- The line `l` is the word `w`, which begins and ends with no blank, with blanks around it. -/
def LineOf (l w : PyStr) : Prop :=
  ∃ a b, l = a ++ w ++ b ∧ (∀ c ∈ a, Blank c) ∧ (∀ c ∈ b, Blank c) ∧
    (∀ c, w.head? = some c → ¬ Blank c) ∧ (∀ c, w.getLast? = some c → ¬ Blank c)

/-- The answer to `AT+CLAC` in the formats in use: the commands in one line, separated by commas, perhaps
after `+CLAC:`, or one in each line. -/
inductive CommandList : List PyStr → List PyStr → Prop
  | oneLine {cs status} : cs ≠ [] → (∀ c ∈ cs, 44 ∉ c) → ¬ py!"+CLAC" <+: pyJoin py!"," cs →
      CommandList [pyJoin py!"," cs, status] cs
  | prefixed {cs status} : cs ≠ [] → (∀ c ∈ cs, 44 ∉ c) →
      CommandList [py!"+CLAC:" ++ pyJoin py!"," cs, status] cs
  | lines {ls cs status} : 2 ≤ cs.length → ls.length = cs.length → (∀ x ∈ ls.zip cs, LineOf x.1 x.2) → CommandList (ls ++ [status]) cs

/-- The list of memories in `+CPMS: ("ME","SM"),("ME","SM"),("SM")`. -/
def showStores (stores : List (List PyStr)) : PyStr :=
  pyJoin py!"," (stores.map fun names => py!"(" ++ pyJoin py!"," (names.map fun n => py!"\"" ++ n ++ py!"\"") ++ py!")")

/-- What the answers of a modem say. -/
structure Profile where
  /-- the answer to `AT+CFUN?` -/
  functionality : Nat
  /-- the SIM card needs no PIN -/
  ready : Bool
  /-- the answer to `AT+CLAC` -/
  commands : Option (List PyStr)
  /-- the answer to `AT+WIND?` -/
  wind : Nat
  /-- the answer to `AT+CGMI` -/
  maker : PyStr
  /-- the answer to `AT+CSCA?` -/
  smsc : Option PyStr
  /-- the answer to `AT+CPMS=?` -/
  stores : List (List PyStr)

/-- The profile describes the modem. -/
structure Describes (b : Behaviour) (p : Profile) : Prop where
  functionality : b.accepts py!"AT+CFUN?" = true → ∃ ds, Digits ds ∧ decVal ds = p.functionality ∧
    FirstWith py!"+CFUN:" (b.answer py!"AT+CFUN?") (py!"+CFUN: " ++ ds)
  ready : ∃ l, FirstWith py!"+CPIN" (b.answer py!"AT+CPIN?") l ∧ (p.ready = true ↔ l = py!"+CPIN: READY")
  commands : match p.commands with
    | some cs => b.accepts py!"AT+CLAC" = true ∧ CommandList (b.answer py!"AT+CLAC") cs
    | none => b.accepts py!"AT+CLAC" = false
  wind : b.accepts py!"AT+WIND?" = true → ∃ ds, Digits ds ∧ decVal ds = p.wind ∧
    FirstWith py!"+WIND:" (b.answer py!"AT+WIND?") (py!"+WIND: " ++ ds)
  maker : b.accepts py!"AT+CGMI" = true → (b.answer py!"AT+CGMI").head? = some p.maker
  smsc : match p.smsc with
    | some n => b.accepts py!"AT+CSCA?" = true ∧ n ≠ [] ∧ 44 ∉ n ∧
        ∃ ds z, Digits ds ∧ b.answer py!"AT+CSCA?" = (py!"+CSCA: \"" ++ n ++ py!"\"," ++ ds) :: z
    | none => ResponseMeans (b.answer py!"AT+CSCA?") (.error (.command .smscUnknown (some 330)))
  stores : b.accepts py!"AT+CPMS=?" = true → p.stores ≠ [] ∧ (∀ l ∈ p.stores, ∀ n ∈ l, ∀ c ∈ n, c ≠ 34 ∧ c ≠ 41) ∧
    FirstWith py!"+CPMS" (b.answer py!"AT+CPMS=?") (py!"+CPMS: " ++ showStores p.stores)

/-! ### The kind of the modem -/

inductive Kind
  | unknown | huawei | wavecom | zte
  deriving DecidableEq

/-- The text is `huawei`, in upper or lower case letters. -/
def isHuawei (maker : PyStr) : Bool :=
  decide (maker.length = 6) && (maker.zip (py!"huawei".zip py!"HUAWEI")).all fun (c, l, u) => c == l || c == u

/-- The kind that the list of commands tells. -/
def listedKind (cs : List PyStr) : Kind :=
  if py!"+WIND" ∈ cs then .wavecom
  else if py!"+ZPAS" ∈ cs then .zte
  else if py!"^DTMF" ∈ cs ∧ py!"+VTS" ∉ cs then .huawei
  else .unknown

/-- The kind found without asking for the manufacturer. -/
def firstKind (b : Behaviour) (p : Profile) : Kind :=
  match p.commands with
  | some cs => listedKind cs
  | none => if b.accepts py!"AT+WIND?" then .wavecom else .unknown

/-- The kind, if it was `k` so far: if it is not known, then the manufacturer or `AT+ZPAS?` tell it. -/
def laterKind (b : Behaviour) (p : Profile) : Kind → Kind
  | .unknown =>
    if isHuawei p.maker then .huawei
    else if b.accepts py!"AT+ZPAS?" then .zte
    else .unknown
  | k => k

/-- The kind of the modem. -/
def kind (b : Behaviour) (p : Profile) : Kind := laterKind b p (firstKind b p)

/-! ### The commands -/

/-- A command that is used if a condition is met. -/
def cmdIf (p : Prop) [Decidable p] (c : PyStr) : List PyStr := if p then [c] else []

/-- Reset, echo off, full functionality, error codes, PIN. -/
def basicCommands (b : Behaviour) (p : Profile) (pin : PyStr) : List PyStr :=
  [py!"ATZ", py!"ATE0", py!"AT+CFUN?"] ++ cmdIf (b.accepts py!"AT+CFUN?" = true ∧ p.functionality ≠ 1) py!"AT+CFUN=1" ++
  [py!"AT+CMEE=1", py!"AT+CPIN?"] ++ cmdIf (p.ready = false) (py!"AT+CPIN=\"" ++ pin ++ py!"\"")

/-- Is it a command of the modem? -/
def Profile.has (p : Profile) (c : PyStr) : Prop := ∃ cs, p.commands = some cs ∧ c ∈ cs

instance (p : Profile) (c : PyStr) : Decidable (p.has c) :=
  match h : p.commands with
  | none => .isFalse (by rintro ⟨_, h1, _⟩; rw [h] at h1; cases h1)
  | some cs => if hc : c ∈ cs then .isTrue ⟨cs, h, hc⟩ else .isFalse (by rintro ⟨_, h1, h2⟩; rw [h] at h1; cases h1; exact hc h2)

/-- Is it asked for `+WIND` notifications? -/
def Profile.triesWind (p : Profile) : Prop := p.commands = none ∨ p.has py!"+WIND"

instance (p : Profile) : Decidable p.triesWind := inferInstanceAs (Decidable (_ ∨ _))

/-- Finding out what modem it is. -/
def kindCommands (b : Behaviour) (p : Profile) : List PyStr :=
  [py!"AT+CLAC"] ++ cmdIf (p.has py!"^CVOICE") py!"AT^CVOICE=0" ++ cmdIf (p.has py!"^USSDMODE") py!"AT^USSDMODE=0" ++
  cmdIf p.triesWind py!"AT+WIND?" ++
  cmdIf (p.triesWind ∧ b.accepts py!"AT+WIND?" = true ∧ p.wind ≠ 50) py!"AT+WIND=50" ++
  cmdIf (firstKind b p = .unknown) py!"AT+CGMI" ++
  cmdIf (firstKind b p = .unknown ∧ isHuawei p.maker = false) py!"AT+ZPAS?"

/-- Setting the number of the SMS centre. -/
def setSmscCommand (n : PyStr) : PyStr := py!"AT+CSCA=\"" ++ n ++ py!"\""

/-- Format of messages, and number of the SMS centre: `own` is the number the application has set. -/
def smsCommands (p : Profile) (textMode : Bool) (own : Option PyStr) : List PyStr :=
  [py!"AT+COPS=3,0", if textMode then py!"AT+CMGF=1" else py!"AT+CMGF=0"] ++
  (match own with
  | some n => [setSmscCommand n, py!"AT+CSMP=49,167,0,0", py!"AT+CSCA?"] ++ cmdIf (p.smsc ≠ some n) (setSmscCommand n)
  | none => [py!"AT+CSCA?", py!"AT+CSMP=49,167,0,0"] ++ cmdIf (p.smsc ≠ none) py!"AT+CSCA?")

/-- The memory to use: the phone, or else the SIM card, or else the status reports. -/
def favourite (names : List PyStr) : PyStr :=
  if py!"ME" ∈ names then py!"\"ME\""
  else if py!"SM" ∈ names then py!"\"SM\""
  else if py!"SR" ∈ names then py!"\"SR\""
  else []

/-- The answer to `AT+CPMS=?` has an empty list of memories other than the first and the last one. -/
def emptyStore (stores : List (List PyStr)) : Bool := stores.tail.dropLast.any (·.isEmpty)

/-- The modem has memories for messages. -/
def storesUsable (b : Behaviour) (p : Profile) : Bool := b.accepts py!"AT+CPMS=?" && !emptyStore p.stores

/-- Choosing the memories for messages. -/
def storeCommands (b : Behaviour) (p : Profile) : List PyStr :=
  [py!"AT+CPMS=?"] ++ cmdIf (storesUsable b p = true) (py!"AT+CPMS=" ++ pyJoin py!"," (p.stores.map favourite))

/-- Notifications for messages (if they can be read: `can`) and calls. -/
def noticeCommands (b : Behaviour) (can : Bool) : List PyStr :=
  cmdIf (can = true) py!"AT+CNMI=2,1,0,2" ++ [py!"AT+CLIP=1"] ++ cmdIf (b.accepts py!"AT+CLIP=1" = true) py!"AT+CRC=1" ++
  [py!"AT+CVHU=0"]

/-- Everything. -/
def connectCommands (b : Behaviour) (p : Profile) (pin : PyStr) (textMode : Bool) (own : Option PyStr) (can : Bool) : List PyStr :=
  basicCommands b p pin ++ kindCommands b p ++ smsCommands p textMode own ++ storeCommands b p ++
    noticeCommands b (can && storesUsable b p)

/-- The commands that have to be accepted. -/
def mandatory (b : Behaviour) (p : Profile) (pin : PyStr) (textMode : Bool) (own : Option PyStr) : List PyStr :=
  [py!"ATZ", py!"ATE0", py!"AT+CMEE=1", py!"AT+CPIN?"] ++ cmdIf (p.ready = false) (py!"AT+CPIN=\"" ++ pin ++ py!"\"") ++
  cmdIf (p.triesWind ∧ b.accepts py!"AT+WIND?" = true ∧ p.wind ≠ 50) py!"AT+WIND=50" ++
  cmdIf (firstKind b p = .unknown) py!"AT+CGMI" ++
  [if textMode then py!"AT+CMGF=1" else py!"AT+CMGF=0"] ++ (own.map setSmscCommand).toList ++
  cmdIf (storesUsable b p = true) (py!"AT+CPMS=" ++ pyJoin py!"," (p.stores.map favourite))

end Gsm.Spec
