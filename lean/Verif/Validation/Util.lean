import Verif.Model.Util
import Verif.Model.Regex
/-!
# The model of the utilities on the repository's own tests

These are checks of the model's fidelity (test/test_util.py), not proofs of properties.
-/
namespace Gsm.Validation

def utilLines : List PyStr := [py!"12345", py!"abc", py!"defghi", py!"abcdef", py!"efg"]

/-- `pattern.match(line)`, of which the tests look at `.string`. -/
def matched (p : List Rx) (line : PyStr) : Option PyStr := if rxMatches p line then some line else none

def rxAbc : List Rx := rxLit py!"abc" ++ [rxStar (notC 10), .eol]        -- ^abc.*$
def rxNumber : List Rx := [rxPlus isD, .eol]                             -- ^\d+$
def rxZzz : List Rx := rxLit py!"ZZZ" ++ [rxPlus isD, .eol]              -- ^ZZZ\d+$
def rxDefghi : List Rx := rxLit py!"defghi" ++ [.eol]                    -- ^defghi$

-- test_lineStartingWith
example : lineStartingWith py!"abc" utilLines = some py!"abc" := by decide +kernel
example : lineStartingWith py!"d" utilLines = some py!"defghi" := by decide +kernel
example : lineStartingWith py!"zzz" utilLines = none := by decide +kernel

-- test_lineMatching, test_lineMatchingPattern
example : lineMatching (matched rxAbc) utilLines = some py!"abc" := by decide +kernel
example : lineMatching (matched rxNumber) utilLines = some py!"12345" := by decide +kernel
example : lineMatching (matched rxZzz) utilLines = none := by decide +kernel

-- test_allLinesMatchingPattern
example : allLinesMatchingPattern (matched rxAbc) utilLines = [py!"abc", py!"abcdef"] := by decide +kernel
example : allLinesMatchingPattern (matched rxDefghi) utilLines = [py!"defghi"] := by decide +kernel
example : allLinesMatchingPattern (matched rxNumber) utilLines = [py!"12345"] := by decide +kernel
example : allLinesMatchingPattern (matched rxZzz) utilLines = [] := by decide +kernel

end Gsm.Validation
