import Verif.Model.Merge
import Verif.Model.Sounding
import Verif.Model.VgfEnc

/-!
# Sounding files: the datasets returned, and unmerged files

The last steps of `snxarray` (/repo/src/gempakio/decode/gempak.py:2122-2180): masking of missing values, the `xarray.Dataset` and its
order of levels; and the reading of unmerged files (`_unpack_unmerged`, 1301-1367) up to the merging of their parts
(`Verif.Model.Merge`).
-/

namespace Gempak

/-! ## Masking and sorting -/

/-- `np.lexsort` on one key: positions in stable ascending order; `sortby` reverses them for descending order
(decode/gempak.py:2173-2177). -/
def sortOrder {τ : Type} (le : τ → τ → Bool) (desc : Bool) (lev : List τ) : List Nat :=
  let o := (lev.zipIdx.mergeSort fun a b => le a.1 b.1).map Prod.snd
  if desc then o.reverse else o

/-- `l[order]`. -/
def takeAt {τ : Type} (order : List Nat) (l : List τ) : List τ := order.filterMap (l[·]?)

/-- Columns of a dataset have one value for each level; `ValueError` from `xr.Dataset` (decode/gempak.py:2169-2171). -/
def checkColumn {τ : Type} (n : Nat) (kv : Text × List τ) : Except PyErr (Text × List τ) :=
  if kv.2.length = n then .ok kv else .error .valueError

/-- Vertical coordinate and variables of the dataset: values equal to the missing value are masked (`none`), the coordinate is not
(decode/gempak.py:2155-2177). -/
def sortData {τ : Type} (le : τ → τ → Bool) (isMissing : τ → Bool) (desc : Bool) (lev : List τ) (vars : List (Text × List τ)) :
    Except PyErr (List τ × List (Text × List (Option τ))) := do
  let vs ← vars.mapM (checkColumn lev.length)
  let order := sortOrder le desc lev
  .ok (takeAt order lev, vs.map fun kv => (kv.1, takeAt order (kv.2.map fun v => if isMissing v then none else some v)))

/-- A dataset: attributes, time, vertical coordinate, levels and variables. -/
structure SnData (τ : Type) where
  stationId : HVal
  stationNumber : HVal
  lat : HVal
  lon : HVal
  elevation : HVal
  state : HVal
  country : HVal
  /-- `station_pressure`, only with pressure levels (decode/gempak.py:2138). -/
  pressure : Option τ
  /-- `wmo_codes` (decode/gempak.py:2144-2153). -/
  texts : List (Text × HVal)
  dateTime : Date × Clock
  vcoord : Text
  levels : List τ
  vars : List (Text × List (Option τ))

/-- A number in a column: single precision, or unpacked from a record of packed reals. -/
inductive LevNum where
  | flt (f : F32) | real (r : RealVal)
  deriving DecidableEq, Repr

/-- Columns of a merged sounding. -/
def HVal.column : HVal → Except PyErr (List LevNum)
  | .arr l => .ok (l.map .flt)
  | .rarr l => .ok (l.map .real)
  | _ => .error .typeError

/-- Value of an unpacked real; `none` is the missing value of the file. -/
def realNum (miss : F32) : RealVal → ℚ
  | none => (f32Value miss).getD 0
  | some x => x.1 * 10 ^ x.2

/-- `values == missing_float` (decode/gempak.py:2164-2166). -/
def LevNum.isMissing (miss : F32) : LevNum → Bool
  | .flt f => !f32Nan f && !f32Nan miss && decide (f32Key f = f32Key miss)
  | .real r => decide (some (realNum miss r) = f32Value miss)

/-- Order of levels: numbers by value.  Levels of one column are all of one kind; not-a-number does not occur (`add_sounding` replaces
it, `_unpack_real` makes none). -/
def LevNum.le (miss : F32) : LevNum → LevNum → Bool
  | .flt a, .flt b => decide (f32Key a ≤ f32Key b)
  | .real a, .real b => decide (realNum miss a ≤ realNum miss b)
  | .flt _, .real _ => true
  | .real _, .flt _ => false

/-- One column by name. -/
def namedColumn (kv : Text × HVal) : Except PyErr (Text × List LevNum) := (kv.2.column).map fun c => (kv.1, c)

/-- The dataset of a merged sounding (decode/gempak.py:2155-2179). -/
def snDataset (miss : F32) (o : SnObj) : Except PyErr (SnData LevNum) := do
  let lev ← o.levels.column
  let vars ← o.vars.mapM namedColumn
  let r ← sortData (LevNum.le miss) (LevNum.isMissing miss) (decide (o.vcoord = txt "pres")) lev vars
  .ok ⟨o.stationId, o.stationNumber, o.lat, o.lon, o.elevation, o.state, o.country, if o.vcoord = txt "pres" then lev.head? else none, [],
    o.dateTime, o.vcoord, r.1, r.2⟩

/-- What `snxarray` returns for a merged file (decode/gempak.py:2011-2180). -/
def SoundingReader.datasets (f : SoundingReader) (upper lower : Text → Text) (q : SiteQuery) : Except PyErr (List (SnData LevNum)) := do
  let os ← f.snxarray upper lower q
  os.mapM (snDataset f.info.label.missingFloat)

/-! ## Unmerged files -/

/-- One part of an unmerged sounding (decode/gempak.py:1330-1364): as in merged files, or text. -/
def unmergedPart (i : DMInfo) (b : Bytes) (part : PartInfo) (params : ParamInfo) (dataPtr : Int) : Except PyErr (List (Text × HVal)) :=
  if part.dataType = 3 then do
    let s ← readText i b part dataPtr
    pickText s params.names
  else soundingPart i b part params dataPtr

/-- The loop over parts (decode/gempak.py:1318-1364): parts by name, those without data left out; a repeated name or parameter replaces
the earlier one.  Parts named like a key of the header are not considered. -/
def unmergedParts (i : DMInfo) (b : Bytes) (irow icol : Nat) : List (PartInfo × ParamInfo) → Nat → List (Text × List (Text × HVal)) →
    Except PyErr (List (Text × List (Text × HVal)))
  | [], _, acc => .ok acc
  | (p, a) :: r, iprt, acc =>
    let ptr := dataPointer i b irow icol iprt
    if ptr = 0 then unmergedParts i b irow icol r (iprt + 1) acc
    else do
      let x ← unmergedPart i b p a ptr
      unmergedParts i b irow icol r (iprt + 1) (dictSet acc p.name (dictUpdate [] x))

/-- How numbers of the file become numbers of the calculation. -/
structure LevEnv (α : Type) where
  flt : F32 → α
  real : RealVal → α

section
variable {α : Type} [Field α] [LinearOrder α]

/-- A column of numbers; text columns are left out (used as numbers they raise other exceptions than a missing column). -/
def LevEnv.column (e : LevEnv α) (kv : Text × HVal) : Option (String × List α) :=
  match kv.2 with
  | .arr l => some (String.ofList kv.1, l.map e.flt)
  | .rarr l => some (String.ofList kv.1, l.map e.real)
  | _ => none

/-- The argument of `_merge_sounding`. -/
def LevEnv.parts (e : LevEnv α) (selv : Int) (ps : List (Text × List (Text × HVal))) : SndParts α :=
  ⟨selv, fun name => (dictGet ps name.toList).map fun p => p.filterMap e.column⟩

/-- Exceptions as ways to stop. -/
def toRun {β : Type} : Except PyErr β → Run β
  | .ok b => .ok b
  | .error e => .error (.raised e)

/-- Parts that hold the messages as text, with their keys in `wmo_codes` (decode/gempak.py:1999-2008, 2144-2151). -/
def textParts : List (Text × Text) :=
  [(txt "TXTA", txt "txta"), (txt "TXTB", txt "txtb"), (txt "TXTC", txt "txtc"), (txt "TXPB", txt "txpb")]

/-- The text of one part, if the part is there: `parts[name]['TEXT']`. -/
def textOfPart (ps : List (Text × List (Text × HVal))) (name : Text × Text) : Except PyErr (Option (Text × HVal)) :=
  match dictGet ps name.1 with
  | none => .ok none
  | some p =>
    match dictGet p (txt "TEXT") with
    | some v => .ok (some (name.2, v))
    | none => .error .keyError

/-- A merged sounding: the header items, the levels, the texts. -/
structure Merged (α : Type) where
  head : List (Text × HVal)
  snd : Snd α
  texts : List (Text × HVal)

/-- One sounding of `_unpack_unmerged` (decode/gempak.py:1301-1367, 1999-2009); none when no part has levels. -/
def SoundingReader.unpackUnmerged [FloorRing α] (c : Calc α) (e : LevEnv α) (fuel : Nat) (f : SoundingReader) (irow icol : Nat) :
    Run (Option (Merged α)) := do
  let row ← toRun (snHeaderAt f.rows irow)
  let col ← toRun (snHeaderAt f.cols icol)
  let s ← toRun (headItems col snKeys)
  let t ← toRun (headItems row [txt "DATE", txt "TIME"])
  let ps ← toRun (unmergedParts f.info f.bytes irow icol (f.info.parts.zip f.info.params) 0 [])
  let selv ← toRun (headInt col (txt "SELV"))
  match ← mergeSounding c (e.flt f.info.label.missingFloat) fuel (e.parts selv ps) with
  | none => .ok none
  | some m => do
    let ts ← toRun (textParts.mapM (textOfPart ps))
    .ok (some ⟨s ++ t, m, ts.filterMap id⟩)

/-- The dataset of a sounding merged from parts (decode/gempak.py:2122-2180); there is always a first level. -/
def mergedDataset (lower : Text → Text) (m : α) (x : Merged α) : Except PyErr (SnData α) := do
  let id ← snPop x.head (txt "STID")
  let n ← snPop x.head (txt "STNM")
  let lat ← snPop x.head (txt "SLAT")
  let lon ← snPop x.head (txt "SLON")
  let elev ← snPop x.head (txt "SELV")
  let st ← snPop x.head (txt "STAT")
  let co ← snPop x.head (txt "COUN")
  let d ← snPop x.head (txt "DATE")
  let t ← snPop x.head (txt "TIME")
  let dt ← combine d t
  let r ← sortData (fun a b => decide (a ≤ b)) (fun v => decide (v = m)) true x.snd.pres
    [(lower (txt "HGHT"), x.snd.hght), (lower (txt "TEMP"), x.snd.temp), (lower (txt "DWPT"), x.snd.dwpt), (lower (txt "DRCT"), x.snd.drct),
      (lower (txt "SPED"), x.snd.sped)]
  .ok ⟨id, n, lat, lon, elev, st, co, x.snd.pres.head?, x.texts, dt, txt "pres", r.1, r.2⟩

/-- What `snxarray` returns for an unmerged file (decode/gempak.py:2011-2180): soundings without levels are passed over. -/
def SoundingReader.unmergedDatasets [FloorRing α] (c : Calc α) (e : LevEnv α) (fuel : Nat) (f : SoundingReader) (upper lower : Text → Text)
    (q : SiteQuery) : Run (List (SnData α)) := do
  let m ← toRun (selectSites upper (StrArg.upperOne upper) q f.sninfo)
  let data ← m.mapM fun s => f.unpackUnmerged c e fuel s.row s.col
  (data.filterMap id).mapM fun x => toRun (mergedDataset lower (e.flt f.info.label.missingFloat) x)

end

end Gempak
