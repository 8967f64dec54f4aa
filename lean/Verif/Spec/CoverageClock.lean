import Verif.Model.CoverageClock
import Verif.Spec.Clock
import Verif.Spec.Coverage
/-! # Specification: waiting for the network, with the clock -/
namespace Gsm.Spec

/-- A modem that answers both questions in the way they are meant, never that it is busy, and never that it will not be registered. -/
structure TellsCoverage (env : Env) : Prop where
  creg : ∀ log, ∃ ls n, env.reply (cregCmd :: log) = .lines ls ∧ ls ≠ [] ∧ Tells ls n ∧ n ≠ 0 ∧ n ≠ 3
  csq : ∀ log, ∃ l ls n, env.reply (csqCmd :: log) = .lines (l :: ls) ∧ SignalLine l n ∧ Accepted env.reply (csqCmd :: log)

/-- The modem is registered, and there is a signal. -/
structure Covered (env : Env) : Prop where
  creg : ∀ log, ∃ ls, env.reply (cregCmd :: log) = .lines ls ∧ ls ≠ [] ∧ (Tells ls 1 ∨ Tells ls 5)
  csq : ∀ log, ∃ l ls n, env.reply (csqCmd :: log) = .lines (l :: ls) ∧ SignalLine l n ∧ 0 < n ∧ n ≠ 99 ∧ Accepted env.reply (csqCmd :: log)

end Gsm.Spec
