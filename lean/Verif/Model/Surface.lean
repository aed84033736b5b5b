import Verif.Model.Report

/-!
# Surface files: the reader

`GempakSurface` of /repo/src/gempakio/decode/gempak.py:2183-2892.
-/

namespace Gempak

/-- Layout of a surface file. -/
inductive SfType where
  | standard | ship | climate
  deriving DecidableEq, Repr

/-- `_get_surface_type` (decode/gempak.py:2304-2322). -/
def surfaceType (i : DMInfo) (nrows : Nat) : Except PyErr SfType :=
  if nrows = 1 ∧ txt "DATE" ∈ i.columnKeys ∧ txt "STID" ∈ i.columnKeys then .ok .ship
  else if txt "DATE" ∈ i.rowKeys ∧ txt "STID" ∈ i.columnKeys then .ok .standard
  else if txt "DATE" ∈ i.columnKeys ∧ txt "STID" ∈ i.rowKeys then .ok .climate
  else .error .typeError

/-- An opened surface file. -/
structure SurfaceReader extends StationFile where
  type : SfType
  /-- `_sfinfo`, a set: in no particular order. -/
  infos : List SiteInfo

/-- The cells looked at (decode/gempak.py:2213-2296). -/
def SfType.cells (t : SfType) (rows cols : List Header) : List CellRef :=
  match t with
  | .standard => standardCells rows cols
  | .ship => cols.zipIdx.map fun c => ⟨0, c.2, c.1, c.1⟩
  | .climate => cols.zipIdx.flatMap fun c => rows.zipIdx.map fun r => ⟨r.2, c.2, r.1, c.1⟩

/-- Some part of the cell has data. -/
def hasData (i : DMInfo) (b : Bytes) (irow icol : Nat) : Bool :=
  (List.range i.parts.length).any fun k => dataPointer i b irow icol k ≠ 0

/-- The entry of `_sfinfo` for a cell (decode/gempak.py:2228-2240). -/
def surfaceInfo (c : CellRef) : Except PyErr SiteInfo := do
  let t ← headTime c.time
  let id ← headText c.site (txt "STID")
  let id2 ← headText c.site (txt "STD2")
  let n ← headInt c.site (txt "STNM")
  let lat ← headCoord c.site (txt "SLAT")
  let lon ← headCoord c.site (txt "SLON")
  let elev ← headInt c.site (txt "SELV")
  let st ← headText c.site (txt "STAT")
  let co ← headText c.site (txt "COUN")
  .ok ⟨c.row, c.col, t, id ++ id2, n, lat, lon, elev, st, co⟩

/-- `GempakSurface.__init__` (decode/gempak.py:2186-2298). -/
def openSurface (host : Endian) (b : Bytes) : Except PyErr SurfaceReader := do
  let f ← openStation sfKey sfKey host b
  let t ← surfaceType f.info f.rows.length
  let infos ← ((t.cells f.rows f.cols).filter fun c => hasData f.info b c.row c.col).mapM surfaceInfo
  .ok ⟨f, t, infos⟩

/-- `sfinfo()` (decode/gempak.py:2300-2302). -/
def SurfaceReader.sfinfo (f : SurfaceReader) : List SiteInfo := f.infos.mergeSort SiteInfo.le

/-- Keys taken from the site header. -/
def siteKeys : List Text :=
  [txt "STID", txt "STNM", txt "SLAT", txt "SLON", txt "SELV", txt "STAT", txt "COUN", txt "STD2", txt "SPRI"]

/-- Row or column header by place; places come from `sfinfo`. -/
def headerAt (l : List Header) (k : Nat) : Except PyErr Header :=
  match l[k]? with
  | some h => .ok h
  | none => .error .indexError

/-- Headers describing site and time of a cell. -/
def SurfaceReader.heads (f : SurfaceReader) (irow icol : Nat) : Except PyErr (Header × Header) :=
  match f.type with
  | .standard => do
    let r ← headerAt f.rows irow
    let c ← headerAt f.cols icol
    .ok (c, r)
  | .ship => do
    let c ← headerAt f.cols icol
    .ok (c, c)
  | .climate => do
    let c ← headerAt f.cols icol
    let r ← headerAt f.rows irow
    .ok (r, c)

/-- The reports of one cell: `_unpack_standard`, `_unpack_ship`, `_unpack_climate` (decode/gempak.py:2351-2559). -/
def SurfaceReader.unpackCell (f : SurfaceReader) (irow icol : Nat) : Except PyErr (List (List (Text × HVal))) := do
  let (site, time) ← f.heads irow icol
  let s ← headItems site siteKeys
  let t ← headItems time [txt "DATE", txt "TIME"]
  let items ← cellItems (surfacePart f.info f.bytes) f.info f.bytes irow icol (f.info.parts.zip f.info.params) 0
  let report := s ++ t
  if f.type = .standard then
    let values := dictUpdate [] items
    if (dictGet values (txt "TEXT")).isSome ∨ (dictGet values (txt "SPCL")).isSome then processText report values
    else .ok [dictUpdate report values]
  else .ok [dictUpdate report items]

/-- A station as returned by `sfjson`. -/
structure SfObj where
  dateTime : Date × Clock
  stationId : Text
  stationNumber : HVal
  longitude : HVal
  latitude : HVal
  elevation : HVal
  state : HVal
  country : HVal
  priority : HVal
  values : List (Text × HVal)
  deriving DecidableEq, Repr

/-- `stn.pop(k)`; the keys are always present. -/
def popKey (d : List (Text × HVal)) (k : Text) : Except PyErr HVal :=
  match dictGet d k with
  | some v => .ok v
  | none => .error .keyError

/-- `STID + STD2`; values of a parameter of that name are outside the model (`TypeError` or a sum). -/
def joinId : HVal → HVal → Except PyErr Text
  | .text a, .text b => .ok (a ++ b)
  | _, _ => .error .typeError

/-- Keys removed from a report when its properties are made. -/
def popped : List Text := txt "DATE" :: txt "TIME" :: siteKeys

/-- One element of the result of `sfjson` (decode/gempak.py:2872-2890). -/
def sfObject (lower : Text → Text) (stn : List (Text × HVal)) : Except PyErr SfObj := do
  let d ← popKey stn (txt "DATE")
  let t ← popKey stn (txt "TIME")
  let dt ← combine d t
  let id ← popKey stn (txt "STID")
  let id2 ← popKey stn (txt "STD2")
  let sid ← joinId id id2
  let n ← popKey stn (txt "STNM")
  let lon ← popKey stn (txt "SLON")
  let lat ← popKey stn (txt "SLAT")
  let elev ← popKey stn (txt "SELV")
  let st ← popKey stn (txt "STAT")
  let co ← popKey stn (txt "COUN")
  let pri ← popKey stn (txt "SPRI")
  .ok ⟨dt, sid, n, lon, lat, elev, st, co, pri,
    dictUpdate [] ((stn.filter fun kv => kv.1 ∉ popped).map fun kv => (lower kv.1, kv.2))⟩

/-- `sfjson` (decode/gempak.py:2751-2892). -/
def SurfaceReader.sfjson (f : SurfaceReader) (upper lower : Text → Text) (q : SiteQuery) (special : Bool) :
    Except PyErr (List SfObj) := do
  let m ← selectSites upper (StrArg.upperAll upper) q f.sfinfo
  let data ← m.mapM fun s => f.unpackCell s.row s.col
  let kept := data.flatten.filter fun stn => special || !(dictGet stn (txt "SPCL")).isSome
  kept.mapM (sfObject lower)

/-! ## Nearest time -/

/-- Microseconds since the beginning of the calendar. -/
def instant (t : Date × Clock) : Int :=
  ((((t.1.ordinal * 24 + t.2.h) * 60 + t.2.mi) * 60 + t.2.s) * 1000000 + t.2.us : Nat)

/-- Criteria of `nearest_time`. -/
structure NearQuery where
  stationId : Option StrArg := none
  stationNumber : Option (List Int) := none
  state : Option StrArg := none
  country : Option StrArg := none
  bbox : Option BBox := none

/-- Does the criterion count in `nargs`?  An empty list or string does not. -/
def StrArg.truthy : StrArg → Bool
  | .one t => t ≠ []
  | .many l => l ≠ []

/-- Number of criteria that count (decode/gempak.py:2685).  A bounding box is a non-empty tuple. -/
def NearQuery.nargs (q : NearQuery) : Nat :=
  (if (q.stationId.map StrArg.truthy).getD false then 1 else 0)
    + (if (q.stationNumber.map fun l => decide (l ≠ [])).getD false then 1 else 0)
    + (if (q.state.map StrArg.truthy).getD false then 1 else 0)
    + (if (q.country.map StrArg.truthy).getD false then 1 else 0) + (if q.bbox.isSome then 1 else 0)

/-- `min(matched, key=...)`: the first of the nearest; `ValueError` when there is none. -/
def nearestOf (t : Date × Clock) : List SfObj → Except PyErr SfObj
  | [] => .error .valueError
  | x :: r => .ok (r.foldl (fun m o => if (instant o.dateTime - instant t).natAbs < (instant m.dateTime - instant t).natAbs
      then o else m) x)

/-- A set of identifiers, in the order in which the set is traversed (some order without repetition; the model keeps first
occurrences). -/
def idSet (infos : List SiteInfo) (p : SiteInfo → Bool) : List Text := (OrderedSet.ofList ((infos.filter p).map SiteInfo.id)).keys

/-- The identifiers looked up (decode/gempak.py:2693-2726).  Later criteria replace the result of earlier ones. -/
def NearQuery.ids (q : NearQuery) (upper : Text → Text) (infos : List SiteInfo) : List Text :=
  let a := match q.stationId with
    | some x => x.upperAll upper
    | none => []
  let a := match q.bbox with
    | some x => idSet infos fun s => x.holds s.lat s.lon
    | none => a
  let a := match q.country with
    | some x => if x.upperAll upper = [] then a else idSet infos fun s => decide (s.country ∈ x.upperAll upper)
    | none => a
  match q.state with
  | some x => if x.upperAll upper = [] then a else idSet infos fun s => decide (s.state ∈ x.upperAll upper)
  | none => a

/-- `nearest_time` (decode/gempak.py:2635-2749), `date_time` already a datetime. -/
def SurfaceReader.nearestTime (f : SurfaceReader) (upper lower : Text → Text) (t : Date × Clock) (q : NearQuery)
    (special : Bool) : Except PyErr (List SfObj) :=
  if q.nargs = 0 then .error .valueError
  else if q.nargs > 1 then .error .notImplemented
  else do
    let a ← (q.ids upper f.infos).mapM fun id => do
      nearestOf t (← f.sfjson upper lower { stationId := some (.one id) } special)
    let b ← (q.stationNumber.getD []).mapM fun n => do
      nearestOf t (← f.sfjson upper lower { stationNumber := some [n] } special)
    .ok (a ++ b)

end Gempak
