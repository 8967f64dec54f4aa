import Verif.Model.AtCommands
/-!
# The model of the trie and of the command table on the repository's own tests

These are checks of the model's fidelity (test/test_gsmterm.py), not proofs of properties. The key `None` is not a key of the model.
-/
namespace Gsm.Validation

def pairs : List (PyStr × PyStr) :=
  [(py!"abc", py!"def"), (py!"hallo", py!"daar"), (py!"hoe gaan", py!"dit met jou"), (py!"sbzd", py!"123"),
   (py!"abcde", py!"234627sdg"), (py!"ab", py!"asdk;jgdjsagkl")]

def trieWith {V : Type} (ps : List (PyStr × V)) : Trie V := ps.foldl (fun t p => t.set p.1 p.2) .empty

def one : Trie PyStr := trieWith [(py!"hallo", py!"daar")]

-- test_storeSingle
example : one.getItem py!"hallo" = .ok py!"daar" ∧ one.len = 1 ∧ one.getItem py!"abc" = .error .keyError
    ∧ one.getItem [] = .error .keyError := by decide +kernel
example : (one.set [] py!"123").getItem [] = .ok py!"123" ∧ (one.set [] py!"123").len = 2 := by decide +kernel

/-- `del trie[key]`, with what it leads to. -/
def without {V : Type} (key : PyStr) (t : Trie V) : Trie V × Option PyErr :=
  match t.delItem key with
  | .ok t => (t, none)
  | .error e => (t, some e)

-- test_deleteSingle
example : (without py!"hallo" one).2 = none ∧ (without py!"hallo" one).1.getItem py!"hallo" = .error .keyError
    ∧ (without py!"hallo" one).1.len = 0 := by decide +kernel
example : (without py!"unknown key" (without py!"hallo" one).1).2 = some .keyError
    ∧ (without [] (without py!"hallo" one).1).2 = some .keyError := by decide +kernel
example :
    let t := (without py!"hallo" one).1.set [] py!"123"
    t.len = 1 ∧ (without [] t).2 = none ∧ (without [] t).1.len = 0 := by decide +kernel

-- test_storeRetrieveMultiple, test_len
example : ((List.range 7).all fun n => (pairs.take n).all fun p =>
    decide ((trieWith (pairs.take n)).getItem p.1 = .ok p.2)) = true := by decide +kernel
example : (List.range 7).map (fun n => (trieWith (pairs.take n)).len) = [0, 1, 2, 3, 4, 5, 6] := by decide +kernel

-- test_storeDeleteMultiple
example : (List.range 7).map (fun n => ((pairs.take n).foldl (fun t p => (without p.1 t).1) (trieWith pairs)).len)
    = [6, 5, 4, 3, 2, 1, 0] := by decide +kernel

-- test_contains
example : ((List.range 6).all fun n =>
    !(trieWith (pairs.take n)).contains (pairs[n]!).1 && (trieWith (pairs.take (n + 1))).contains (pairs[n]!).1) = true := by decide +kernel

-- test_getMethod
example : (Trie.empty : Trie PyStr).getD py!"abc" py!"def" = py!"def"
    ∧ (trieWith [(py!"abc", py!"123")]).getD py!"abc" py!"def" = py!"123" := by decide +kernel

-- test_keys, test_iter
example : ((trieWith pairs).keys none).length = 6 ∧ (pairs.all fun p => ((trieWith pairs).keys none).contains p.1) = true := by
  decide +kernel

-- test_overWrite
example :
    let t := (trieWith pairs).set py!"abc" py!"def12345"
    t.getItem py!"abc" = .ok py!"def12345" ∧ t.len = 6 := by decide +kernel

-- test_filteredKeys
def prefixKeys : List PyStr :=
  [py!"a", py!"ab", py!"abc", py!"abcd0000", py!"abcd1111", py!"abcd2222", py!"abcd3333", py!"b000", py!"b1111", py!"zzz123",
   py!"zzzz1234", py!"xyz123", py!"AT+CSCS"]
example : ([py!"abc", py!"b", py!"bc", py!"zzz", py!"x", py!"xy", py!"qwerty", py!"AT+CSCS="].all fun pre =>
    let wanted := prefixKeys.filter (pre.isPrefixOf ·)
    let got := (trieWith (prefixKeys.map (·, 1))).keys (some pre)
    got.length == wanted.length && wanted.all got.contains) = true := by decide +kernel

-- test_longestCommonPrefix
def common : Trie Nat := trieWith ([py!"abcDEF", py!"abc123", py!"abcASFDDSFDSF", py!"abc@#$@#$", py!"abcDxxx"].map (·, 1))
example : [py!"", py!"a", py!"ab", py!"abc", py!"abcD", py!"abcDz", py!"abcDE", py!"abcDEF", py!"abcDEz"].map (fun p => common.longestCommonPrefix p)
    = [py!"abc", py!"abc", py!"abc", py!"abc", py!"abcD", py!"", py!"abcDEF", py!"abcDEF", py!""] := by decide +kernel
example : [py!"", py!"A", py!"AT", py!"ATD"].map (fun p => ((common.set py!"ATD" 1).set py!"ATDL" 1).longestCommonPrefix p)
    = [py!"", py!"ATD", py!"ATD", py!"ATD"] := by decide +kernel

-- TestAtCommands.test_loadAtCommands, as far as the table is modelled
example : (atTable.all fun c => decide (0 < c.1.length) && decide (c.1.head? ≠ some 32) && decide (c.1.getLast? ≠ some 32)
    && decide (c.2.1 < atCategories.length)) = true := by decide +kernel

end Gsm.Validation
