import Verif.Model.StationRead

/-!
# Report text of surface files

`_process_report_text` of /repo/src/gempakio/decode/gempak.py:2562-2633 with the two patterns of lines 77-78.
`\d` and `\s` match ASCII digits and the characters of `isSpace`.
-/

namespace Gempak

/-- `[A-Z]`. -/
def isUpperAZ (c : Char) : Bool := 65 ≤ c.toNat && c.toNat ≤ 90

/-- `[0-9]`. -/
def isDigit09 (c : Char) : Bool := 48 ≤ c.toNat && c.toNat ≤ 57

/-- `METAR_STATION_RE.search` (decode/gempak.py:76): anchored at the beginning. -/
def metarStation : Text → Option Text
  | a :: b :: c :: d :: s :: _ =>
    let alnum := fun x => isUpperAZ x || isDigit09 x
    if isUpperAZ a && alnum b && alnum c && alnum d && isSpace s then some [a, b, c, d] else none
  | _ => none

/-- Two digits. -/
def twoDigits (a b : Char) : Nat := (a.toNat - 48) * 10 + (b.toNat - 48)

/-- A match of `METAR_TIME_RE` at the beginning of a text: day, hour, minute. -/
def metarTimeAt : Text → Option (Nat × Nat × Nat)
  | a :: b :: c :: d :: e :: f :: z :: _ =>
    if isDigit09 a && isDigit09 b && isDigit09 c && isDigit09 d && isDigit09 e && isDigit09 f && z = 'Z' then
      some (twoDigits a b, twoDigits c d, twoDigits e f)
    else none
  | _ => none

/-- `METAR_TIME_RE.search` (decode/gempak.py:77): leftmost match. -/
def metarTime : Text → Option (Nat × Nat × Nat)
  | [] => none
  | c :: r => (metarTimeAt (c :: r)).or (metarTime r)

/-- Split at the first occurrence: text before it and text behind it. -/
def cutFirst (sep : Text) : Text → Option (Text × Text)
  | [] => if sep = [] then some ([], []) else none
  | c :: r => if sep.isPrefixOf (c :: r) then some ([], (c :: r).drop sep.length) else (cutFirst sep r).map fun x => (c :: x.1, x.2)

/-- `s.split(sep)` with fuel at least the number of pieces. -/
def splitFuel (sep : Text) : Nat → Text → List Text
  | 0, s => [s]
  | n + 1, s =>
    match cutFirst sep s with
    | some (a, r) => a :: splitFuel sep n r
    | none => [s]

/-- `s.split(sep)` for non-empty `sep`: every occurrence takes at least one character. -/
def splitOn (sep s : Text) : List Text := splitFuel sep s.length s

/-- `s.count(sep)`: the occurrences at which `split` cuts. -/
def countOf (sep s : Text) : Nat := (splitOn sep s).length - 1

/-- The reports contained in one text (decode/gempak.py:2583-2593). -/
def splitReports (t : Text) : List Text :=
  let stn := (metarStation t).getD (txt "----")
  if countOf stn t > 1 then ((splitOn stn t).filter fun s => s ≠ []).map fun s => strip (stn ++ s) else [strip t]

/-- Time given to a special report (decode/gempak.py:2596-2619): its own day, hour and minute in the month of the file if
they exist, otherwise the time stored in the file.  `datetime(...)` drops seconds. -/
def reportTime (x : Date) (c : Clock) (rpt : Text) : Date × Clock :=
  match metarTime rpt with
  | some (d, h, mi) =>
    if Date.Valid ⟨x.y, x.m, d⟩ ∧ h < 24 ∧ mi < 60 then (⟨x.y, x.m, d⟩, ⟨h, mi, 0, 0⟩) else (x, ⟨c.h, c.mi, 0, 0⟩)
  | none => (x, ⟨c.h, c.mi, 0, 0⟩)

/-- A parameter holding text; a number here makes the pattern search raise `TypeError` (the number zero, which counts as
no text, is not distinguished). -/
def textValue (values : List (Text × HVal)) (k : Text) : Except PyErr Text :=
  match dictGet values k with
  | none => .ok []
  | some (.text t) => .ok t
  | some _ => .error .typeError

/-- Date and time of the report being processed. -/
def reportBase (report : List (Text × HVal)) : Except PyErr (Date × Clock) :=
  match dictGet report (txt "DATE"), dictGet report (txt "TIME") with
  | some (.date x), some (.time c) => .ok (x, c)
  | _, _ => .error .attributeError

/-- Reports made from the `TEXT` of a cell. -/
def textReports (report rest : List (Text × HVal)) (text : Text) : List (List (Text × HVal)) :=
  if text = [] then [] else (splitReports text).map fun r => dictSet (dictUpdate report rest) (txt "TEXT") (.text r)

/-- Reports made from the `SPCL` of a cell. -/
def spclReports (report rest : List (Text × HVal)) (base : Date × Clock) (text spcl : Text) : List (List (Text × HVal)) :=
  if spcl = [] then []
  else (splitReports spcl).map fun r =>
    let t := reportTime base.1 base.2 r
    let n := dictSet (dictSet report (txt "DATE") (.date t.1)) (txt "TIME") (.time t.2)
    let n := if text = [] then dictUpdate n rest else n
    dictSet n (txt "SPCL") (.text r)

/-- `_process_report_text` (decode/gempak.py:2562-2633). -/
def processText (report values : List (Text × HVal)) : Except PyErr (List (List (Text × HVal))) := do
  let base ← reportBase report
  let text ← textValue values (txt "TEXT")
  let spcl ← textValue values (txt "SPCL")
  let rest := dictPop (dictPop values (txt "TEXT")) (txt "SPCL")
  .ok (textReports report rest text ++ spclReports report rest base text spcl)

end Gempak
