import Verif.Model.DateTime
import Verif.Model.PyInt
/-! # gsmmodem/util.py -/
namespace Gsm

/-- `datetime.strptime(s, '%y/%m/%d,%H:%M:%S')`. -/
def strptimeText (s : PyStr) : Except PyErr DateTime :=
  mkStrptime (firstParse [fieldY, fieldLit 47, fieldMon, fieldLit 47, fieldDay, fieldLit 44, fieldHour,
    fieldLit 58, fieldMin, fieldLit 58, fieldSec] s)
    (fun | [y, _, mo, _, d, _, h, _, mi, _, s] => some [y, mo, d, h, mi, s] | _ => none)

/-- `parseTextModeTimeStr`, gsmmodem/util.py:30-45. The offset is what `utcoffset()` of
`SimpleOffsetTzInfo(tzOffsetHours)` (util.py:9-25) is computed from. -/
def parseTextModeTimeStr (timeStr : PyStr) : Except PyErr DateTime := do
  let msgTime := timeStr.take (timeStr.length - 3)
  let quarters ← pyInt (timeStr.drop (timeStr.length - 3))
  let tzOffsetHours := Int.tdiv quarters 4               -- int(n * 0.25)
  let d ← strptimeText msgTime
  return { d with off := some (.ofSeconds (tzOffsetHours * 3600)) }

/-- `lineStartingWith`, gsmmodem/util.py:47-55. -/
def lineStartingWith (string : PyStr) : List PyStr → Option PyStr
  | [] => none
  | line :: lines => if string.isPrefixOf line then some line else lineStartingWith string lines

/-- `lineMatching` and `lineMatchingPattern`, gsmmodem/util.py:57-94; `m` is `regex.match`. -/
def lineMatching {M : Type} (m : PyStr → Option M) : List PyStr → Option M
  | [] => none
  | line :: lines =>
    match m line with
    | some x => some x
    | none => lineMatching m lines

/-- Loop of `allLinesMatchingPattern`, gsmmodem/util.py:96-110. -/
def allLinesLoop {M : Type} (m : PyStr → Option M) (result : List M) : List PyStr → List M
  | [] => result
  | line :: lines =>
    match m line with
    | some x => allLinesLoop m (result ++ [x]) lines
    | none => allLinesLoop m result lines

/-- `allLinesMatchingPattern`. -/
def allLinesMatchingPattern {M : Type} (m : PyStr → Option M) (lines : List PyStr) : List M :=
  allLinesLoop m [] lines

end Gsm
