import Verif.Model.StationRead

/-!
# Sounding files: the reader

`GempakSounding` of /repo/src/gempakio/decode/gempak.py:1153-1299, 2011-2180, for merged files.  The final `xarray` object
is rendered as a record of its contents before levels are sorted by the vertical coordinate.
-/

namespace Gempak

/-- An opened sounding file. -/
structure SoundingReader extends StationFile where
  merged : Bool
  /-- `_sninfo`, a set. -/
  infos : List SiteInfo

/-- The entry of `_sninfo` for a cell (decode/gempak.py:1220-1234): `STD2` is not used. -/
def soundingInfo (c : CellRef) : Except PyErr SiteInfo := do
  let t ← headTime c.time
  let id ← headText c.site (txt "STID")
  let n ← headInt c.site (txt "STNM")
  let lat ← headCoord c.site (txt "SLAT")
  let lon ← headCoord c.site (txt "SLON")
  let elev ← headInt c.site (txt "SELV")
  let st ← headText c.site (txt "STAT")
  let co ← headText c.site (txt "COUN")
  .ok ⟨c.row, c.col, t, id, n, lat, lon, elev, st, co⟩

/-- `GempakSounding.__init__` (decode/gempak.py:1156-1234): only the pointer of the first part is looked at. -/
def openSounding (host : Endian) (b : Bytes) : Except PyErr SoundingReader := do
  let f ← openStation timeKey siteKey host b
  let merged := f.info.parts.any fun p => decide (p.name = txt "SNDT")
  let infos ← ((standardCells f.rows f.cols).filter fun c => dataPointer f.info b c.row c.col 0 ≠ 0).mapM soundingInfo
  .ok ⟨f, merged, infos⟩

/-- `sninfo()` (decode/gempak.py:1236-1238). -/
def SoundingReader.sninfo (f : SoundingReader) : List SiteInfo := f.infos.mergeSort SiteInfo.le

/-- Keys copied from the site header (decode/gempak.py:1246-1256). -/
def snKeys : List Text := [txt "STID", txt "STNM", txt "SLAT", txt "SLON", txt "SELV", txt "STAT", txt "COUN"]

/-- Row or column header by place. -/
def snHeaderAt (l : List Header) (k : Nat) : Except PyErr Header :=
  match l[k]? with
  | some h => .ok h
  | none => .error .indexError

/-- One sounding of `_unpack_merged` (decode/gempak.py:1240-1299). -/
def SoundingReader.unpackMerged (f : SoundingReader) (irow icol : Nat) : Except PyErr (List (Text × HVal)) := do
  let row ← snHeaderAt f.rows irow
  let col ← snHeaderAt f.cols icol
  let s ← headItems col snKeys
  let t ← headItems row [txt "DATE", txt "TIME"]
  let items ← cellItems (soundingPart f.info f.bytes) f.info f.bytes irow icol (f.info.parts.zip f.info.params) 0
  .ok (dictUpdate (s ++ t) items)

/-- A sounding as returned by `snxarray`. -/
structure SnObj where
  stationId : HVal
  stationNumber : HVal
  lat : HVal
  lon : HVal
  elevation : HVal
  state : HVal
  country : HVal
  dateTime : Date × Clock
  vcoord : Text
  levels : HVal
  vars : List (Text × HVal)
  deriving DecidableEq, Repr

/-- `snd.pop(k)`; the keys are always present. -/
def snPop (d : List (Text × HVal)) (k : Text) : Except PyErr HVal :=
  match dictGet d k with
  | some v => .ok v
  | none => .error .keyError

/-- `attrs['station_pressure'] = snd['PRES'][0]`: there must be a level. -/
def firstLevel : HVal → Except PyErr Unit
  | .arr (_ :: _) => .ok ()
  | .rarr (_ :: _) => .ok ()
  | _ => .error .indexError

/-- Vertical coordinate: parameter, name of the dimension, values (decode/gempak.py:2136-2142, 2156-2159). -/
def vertical (snd : List (Text × HVal)) : Except PyErr (Text × Text × HVal) :=
  match dictGet snd (txt "PRES") with
  | some p => do
    firstLevel p
    .ok (txt "PRES", txt "pres", p)
  | none =>
    match dictGet snd (txt "HGHT") with
    | some h => .ok (txt "HGHT", txt "hght", h)
    | none => .error .valueError

/-- One element of the result of `snxarray` for a merged sounding (decode/gempak.py:2125-2179).  Merged files hold no
character parts, so the four text items do not occur; a parameter of such a name is treated like them: left out. -/
def snObject (lower : Text → Text) (snd : List (Text × HVal)) : Except PyErr SnObj := do
  let id ← snPop snd (txt "STID")
  let n ← snPop snd (txt "STNM")
  let lat ← snPop snd (txt "SLAT")
  let lon ← snPop snd (txt "SLON")
  let elev ← snPop snd (txt "SELV")
  let st ← snPop snd (txt "STAT")
  let co ← snPop snd (txt "COUN")
  let (vc, dim, lev) ← vertical snd
  let d ← snPop snd (txt "DATE")
  let t ← snPop snd (txt "TIME")
  let dt ← combine d t
  let gone := vc :: txt "DATE" :: txt "TIME" :: txt "TXTA" :: txt "TXTB" :: txt "TXTC" :: txt "TXPB" :: snKeys
  .ok ⟨id, n, lat, lon, elev, st, co, dt, dim, lev,
    dictUpdate [] ((snd.filter fun kv => kv.1 ∉ gone).map fun kv => (lower kv.1, kv.2))⟩

/-- `snxarray` (decode/gempak.py:2011-2180) for merged files. -/
def SoundingReader.snxarray (f : SoundingReader) (upper lower : Text → Text) (q : SiteQuery) : Except PyErr (List SnObj) := do
  let m ← selectSites upper (StrArg.upperOne upper) q f.sninfo
  if ¬ f.merged then .error .notImplemented
  else
    let data ← m.mapM fun s => f.unpackMerged s.row s.col
    data.mapM (snObject lower)

end Gempak
