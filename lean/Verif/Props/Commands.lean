import Verif.Lemmas.Commands
import Verif.Spec.ExampleModem
import Verif.Props.ModemListing
import Verif.Props.ModemWrite
/-! # C101: how many commands a method sends -/
namespace Gsm
open M Spec

/-- Whatever the modem answers, a method sends at most the number of commands listed in `maxCommands`, each at most as often as the recursion limit allows. -/
theorem C101_commands [PyUnicode] {env : Env} {lines : Nat} (hd : 0 < env.depth) (op : Op) (hL : deletesEach op = true → Brief env.reply lines) (s : St) :
    (op.run env s).2.log.length ≤ s.log.length + maxCommands lines op * env.depth :=
  (cost_op (writes_depth hd) op hL).run s

/-- Each at most once, if the modem never says that it is busy. -/
theorem C101_not_busy [PyUnicode] {env : Env} {lines : Nat} (hb : NeverBusy env.reply) (op : Op) (hL : deletesEach op = true → Brief env.reply lines) (s : St) :
    (op.run env s).2.log.length ≤ s.log.length + maxCommands lines op := by
  have := (cost_op (writes_once hb) op hL).run s
  omega

/-- To connect takes at most 26 commands. -/
theorem C101_connect {env : Env} (hd : 0 < env.depth) (pin : Option PyStr) (s : St) :
    (connect pin env s).2.log.length ≤ s.log.length + mostToConnect * env.depth ∧
      (NeverBusy env.reply → (connect pin env s).2.log.length ≤ s.log.length + mostToConnect) := by
  refine ⟨(cost_connect (writes_depth hd) pin).run s, fun hb => ?_⟩
  have := (cost_connect (writes_once hb) pin).run s
  unfold mostToConnect
  omega

/-- The same for any history. -/
theorem C101_history [PyUnicode] {env : Env} {lines : Nat} (hd : 0 < env.depth) (hL : Brief env.reply lines) (ops : List Op) (s : St) :
    (runOps env ops s).log.length ≤ s.log.length + (ops.map (maxCommands lines)).sum * env.depth ∧
      (NeverBusy env.reply → (runOps env ops s).log.length ≤ s.log.length + (ops.map (maxCommands lines)).sum) := by
  refine ⟨cost_ops (writes_depth hd) hL ops s, fun hb => ?_⟩
  have := cost_ops (writes_once hb) hL ops s
  omega

/-! ### The bounds are reached -/

/-- A modem that refuses to be reset before it has its PIN, is switched off, knows many commands, and forgets the number of its service centre. -/
def troublesome : Env := modemWith fun log =>
  match log with
  | c :: old =>
    if c = py!"ATZ\r" ∧ old = [] then some (.lines [py!"ERROR"])
    else if c = py!"AT+CPIN?\r" then some (.lines [py!"+CPIN: SIM PIN", py!"OK"])
    else if c = py!"AT+CFUN?\r" then some (.lines [py!"+CFUN: 0", py!"OK"])
    else if c = py!"AT+CLAC\r" then some (.lines [py!"^CVOICE,^USSDMODE,+WIND", py!"OK"])
    else if c = py!"AT+WIND?\r" then some (.lines [py!"+WIND: 0", py!"OK"])
    else if c = py!"AT+CSCA?\r" ∧ py!"AT+CSCA?\r" ∈ old then some (.lines [py!"+CSCA: \"+28\",145", py!"OK"])
    else none
  | [] => none

/-- It is sent 26 commands, and connecting succeeds. -/
theorem C101_connect_reached : (connect (some py!"1234") troublesome {}).1 = .ok () ∧ (connect (some py!"1234") troublesome {}).2.log.length = mostToConnect := by
  decide +kernel

/-- A modem with one answer for everything. -/
def sameAnswer (ls : List PyStr) : Env where
  reply _ := .lines ls
  depth := 10
  order l := l
  order_perm _ := .refl _

theorem sameAnswer_brief (ls : List PyStr) : Brief (sameAnswer ls).reply ls.length := by
  intro _ _ h
  cases h
  exact Nat.le_refl _

theorem sameAnswer_neverBusy {ls : List PyStr} (h : (ls.getLast?.all fun l => classify l == .fine) = true) : NeverBusy (sameAnswer ls).reply := by
  rintro _ ⟨n, ls', line, hr, hl, hb⟩
  cases hr
  rw [hl] at h
  have := busy_classify hb
  simp [this] at h

/-- Two messages listed, one read. -/
def twoListed : List PyStr := [py!"+CMGL: 3,1,,18", hiPdu, py!"+CMGL: 4,1,,18", hiPdu]
def oneRead : List PyStr := [py!"+CMGR: 1,,18", hiPdu]

attribute [local instance] asciiUnicode in
/-- Listing, handing over, fetching a message, polling, sending: each can need as many commands as the bound says. -/
theorem C101_reached :
    (Brief (sameAnswer twoListed).reply 4 ∧ NeverBusy (sameAnswer twoListed).reply) ∧
    (((Op.list 1 (some py!"SM") true).run (sameAnswer twoListed) {}).2.log.length = maxCommands 4 (.list 1 (some py!"SM") true)) ∧
    (((Op.process false).run (sameAnswer twoListed) {}).2.log.length = maxCommands 4 (.process false)) ∧
    (((Op.event (.notify [py!"+CMTI: \"SM\",3"])).run (sameAnswer oneRead) {}).2.log.length = maxCommands 2 (.event (.notify [py!"+CMTI: \"SM\",3"]))) ∧
    (((Op.event (.poll 0)).run (sameAnswer [py!"OK"]) { alive := true, pollers := [⟨0, none, 5, false⟩] }).2.log.length = maxCommands 1 (.event (.poll 0))) ∧
    (((Op.waitForNetworkCoverage 7).run (sameAnswer [py!"+CREG: 0,2", py!"OK"]) {}).2.log.length = maxCommands 2 (.waitForNetworkCoverage 7)) ∧
    (((Op.send py!"+27" py!"Hi" false).run (sameAnswer [py!"+CMGS: 5", py!"OK"]) {}).2.log.length = maxCommands 2 (.send py!"+27" py!"Hi" false)) :=
  ⟨⟨sameAnswer_brief _, sameAnswer_neverBusy (by decide +kernel)⟩, by decide +kernel, by decide +kernel, by decide +kernel, by decide +kernel, by decide +kernel, by decide +kernel⟩

attribute [local instance] asciiUnicode in
/-- A modem that says it is busy is asked as often as the recursion limit allows. -/
theorem C101_busy : (Op.run .imei (sameAnswer [py!"+CME ERROR: 515"]) {}).2.log.length = maxCommands 1 .imei * (sameAnswer [py!"+CME ERROR: 515"]).depth := by
  decide +kernel

end Gsm
