import Verif.Model.CommandLine
/-! # Command lines as users write them

A command line is a list of pieces. What it means is read off the pieces, without looking at their spelling. -/
namespace Gsm

inductive CliPiece
  | value (o : Opt) (v : PyStr)              -- -p 1234
  | joined (o : Opt) (v : PyStr)             -- -p1234
  | long (o : Opt) (name v : PyStr)          -- --pin 1234
  | equals (o : Opt) (name v : PyStr)        -- --pin=1234
  | flag (o : Opt)                           -- -d
  | longFlag (o : Opt) (name : PyStr)        -- --deliver
  | argument (v : PyStr)                     -- +27820000000

/-- The words of a piece. -/
def CliPiece.written : CliPiece → List PyStr
  | .value o v => [[45, o.short], v]
  | .joined o v => [45 :: o.short :: v]
  | .long _ name v => [45 :: 45 :: name, v]
  | .equals _ name v => [45 :: 45 :: (name ++ 61 :: v)]
  | .flag o => [[45, o.short]]
  | .longFlag _ name => [45 :: 45 :: name]
  | .argument v => [v]

/-- The option that is given by it, with its value. -/
def CliPiece.option : CliPiece → Option (PyStr × Option PyStr)
  | .value o v | .joined o v | .long o _ v | .equals o _ v => some (o.long, some v)
  | .flag o | .longFlag o _ => some (o.long, none)
  | .argument _ => none

def CliPiece.arg : CliPiece → Option PyStr
  | .argument v => some v
  | _ => none

/-- `name` is the name of `o`, or a beginning of this name and of no other. -/
def Stands (opts : List Opt) (name : PyStr) (o : Opt) : Prop :=
  o ∈ opts ∧ 61 ∉ name ∧ name ≠ [] ∧ (name = o.long ∨ ∀ o' ∈ opts, name <+: o'.long ↔ o' = o)

/-- A word that nobody takes for an option. -/
def PlainWord (v : PyStr) : Prop := v = [45] ∨ v.head? ≠ some 45

/-- Options with a value have one, the others do not; help is not asked for. -/
def CliPiece.Sound (opts : List Opt) : CliPiece → Prop
  | .value o v => o ∈ opts ∧ o.takes = true ∧ PlainWord v
  | .joined o v => o ∈ opts ∧ o.takes = true ∧ v ≠ [] ∧ v.head? ≠ some 61
  | .long o name v => Stands opts name o ∧ o.takes = true ∧ PlainWord v
  | .equals o name _ => Stands opts name o ∧ o.takes = true
  | .flag o => o ∈ opts ∧ o.takes = false ∧ o ≠ helpOpt
  | .longFlag o name => Stands opts name o ∧ o.takes = false ∧ o ≠ helpOpt
  | .argument v => PlainWord v

/-- No two options have the same letter or name. -/
structure DistinctOpts (opts : List Opt) : Prop where
  shorts : (opts.map (·.short)).Nodup
  longs : (opts.map (·.long)).Nodup
  dash : ∀ o ∈ opts, o.short ≠ 45
  help : helpOpt ∈ opts

/-- What a command line means: exactly one argument must be there. -/
def meant (ps : List CliPiece) : Parsed :=
  match ps.filterMap CliPiece.arg with
  | [a] => .settings (ps.filterMap CliPiece.option) a
  | _ => .usage

/-- A word that begins with a dash and belongs to no option. -/
def Foreign (opts : List Opt) (w : PyStr) : Prop :=
  (∃ c cs, w = 45 :: c :: cs ∧ c ≠ 45 ∧ (∀ o ∈ opts, o.short ≠ c) ∧ negativeNumber (c :: cs) = false ∧ 32 ∉ c :: cs) ∨
  (∃ name, w = 45 :: 45 :: name ∧ name ≠ [] ∧ 61 ∉ name ∧ 32 ∉ name ∧ ∀ o ∈ opts, ¬ name <+: o.long)

end Gsm
