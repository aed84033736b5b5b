import Verif.Model.Calendar
import Verif.Model.Dict
import Verif.Model.DMWrite

/-!
# Sounding and surface files: the builders

`SoundingFile` and `SurfaceFile` of /repo/src/gempakio/encode/gempak.py:1086-1605.

Numbers given by the caller have an arbitrary type: `ρ` for data, `κ` for coordinates.  `NumEnv` names the few operations
Python performs on them, and those on text that are left abstract.  Values of the wrong kind (a non-dictionary, a
non-scalar) raise `TypeError` in the code before anything else happens; the types of the model exclude them, except for
coordinates and times, where the code tests explicitly.
-/

namespace Gempak

/-- Operations of the host language on numbers and text. -/
structure NumEnv (ρ κ : Type) where
  /-- `np.isnan`. -/
  isNaN : ρ → Bool
  /-- `_missing_float`, the number `-9999.0`. -/
  missing : ρ
  /-- `struct.pack('f', x)`: rounding to single precision, `OverflowError` when too large. -/
  f32 : ρ → Except PyErr F32
  /-- `-9999.0` is a single precision number. -/
  f32_missing : f32 missing = .ok missingF32
  /-- `int(x * 100)`; not-a-number and infinities raise. -/
  centi : κ → Except PyErr Int
  /-- `x <= y` on coordinates. -/
  leK : κ → κ → Bool
  /-- `str.upper`. -/
  upper : Text → Text
  /-- Accepted as a field name by `namedtuple`: an identifier, no keyword, no leading underscore. -/
  ident : Text → Bool
  /-- `datetime.strptime(t, '%Y%m%d%H%M')`. -/
  parse : Text → Except PyErr (Date × Clock)
  /-- What `strptime` returns is a time. -/
  parse_valid : ∀ t x, parse t = .ok x → x.1.Valid ∧ x.2.Valid
  /-- `int(t)`. -/
  parseInt : Text → Except PyErr Int

/-- Row header: date and time. -/
abbrev Row := Date × Clock

/-- Column header; sounding files have no `SPRI` (constantly zero here). -/
structure Col (κ : Type) where
  stid : Text
  stnm : Int
  slat : κ
  slon : κ
  selv : Int
  stat : Text
  coun : Text
  std2 : Text
  spri : Int
  deriving DecidableEq

/-! ## Ordering of headers (`sorted` on tuples) -/

/-- Tuple comparison `a <= b` from the components' `<` and `>`. -/
def lexLe : List (Bool × Bool) → Bool
  | [] => true
  | (lt, gt) :: r => if lt then true else if gt then false else lexLe r

/-- `a < b` on strings: by code points. -/
def textLt : Text → Text → Bool
  | _, [] => false
  | [], _ :: _ => true
  | a :: s, b :: t => if a.toNat < b.toNat then true else if b.toNat < a.toNat then false else textLt s t

/-- Both comparisons of two integers. -/
def cmpInt (a b : Int) : Bool × Bool := (decide (a < b), decide (b < a))

/-- Both comparisons of two naturals. -/
def cmpNat (a b : Nat) : Bool × Bool := (decide (a < b), decide (b < a))

/-- Both comparisons of two strings. -/
def cmpText (a b : Text) : Bool × Bool := (textLt a b, textLt b a)

/-- Order of row headers. -/
def Row.le (a b : Row) : Bool :=
  lexLe [cmpNat a.1.y b.1.y, cmpNat a.1.m b.1.m, cmpNat a.1.d b.1.d, cmpNat a.2.h b.2.h, cmpNat a.2.mi b.2.mi,
    cmpNat a.2.s b.2.s, cmpNat a.2.us b.2.us]

/-- Order of column headers. -/
def Col.le {κ : Type} (leK : κ → κ → Bool) (a b : Col κ) : Bool :=
  lexLe [cmpText a.stid b.stid, cmpInt a.stnm b.stnm, (!leK b.slat a.slat, !leK a.slat b.slat),
    (!leK b.slon a.slon, !leK a.slon b.slon), cmpInt a.selv b.selv, cmpText a.stat b.stat, cmpText a.coun b.coun,
    cmpText a.std2 b.std2, cmpInt a.spri b.spri]

/-! ## Builder state -/

/-- Attributes of a `SoundingFile` or `SurfaceFile` that change (encode/gempak.py:267-291).  `β` is what `data` holds for
a cell. -/
structure Builder (κ β : Type) where
  names : List Text
  rowSet : OrderedSet Row
  colSet : OrderedSet (Col κ)
  data : List ((Row × Col κ) × β)
  rows : Nat
  columns : Nat
  rowHeaders : List Row
  columnHeaders : List (Col κ)

/-- `MMPARM` (common.py:49). -/
def mmparm : Nat := 44

/-- `MMHDRS` (common.py:48). -/
def mmhdrs : Nat := 32000

/-- `MAX_LEVELS` (common.py:40). -/
def maxLevels : Nat := 500

/-- `_add_parameters` of a new file (encode/gempak.py:1143-1155, 1416-1428). -/
def addParameters {ρ κ : Type} (env : NumEnv ρ κ) (ps : List Text) : Except PyErr (List Text) :=
  if ps.length > mmparm then .error .valueError
  else
    let names := ps.foldl (fun acc p => if p ∈ acc then acc else acc ++ [env.upper p]) []
    if names.Nodup ∧ ∀ n ∈ names, env.ident n then .ok names else .error .valueError

/-- A new file (encode/gempak.py:1093-1141, 1354-1414), without data packing. -/
def newBuilder {ρ κ β : Type} (env : NumEnv ρ κ) (ps : List Text) : Except PyErr (Builder κ β) := do
  let names ← addParameters env ps
  .ok ⟨names, ⟨[]⟩, ⟨[]⟩, [], 0, 0, [], []⟩

/-- `self._param_args(**data)` followed by `_asdict()`: keys are upper-cased (a later key replaces an equal earlier one),
must be exactly the parameters of the file, and come out in the order of the file (encode/gempak.py:1198-1199, 1468-1469). -/
def bindParams {ρ κ α : Type} (env : NumEnv ρ κ) (names : List Text) (data : List (Text × α)) : Except PyErr (List α) :=
  let d := dictUpdate [] (data.map fun kv => (env.upper kv.1, kv.2))
  if (∀ kv ∈ d, kv.1 ∈ names) ∧ ∀ n ∈ names, (dictGet d n).isSome then .ok (names.filterMap (dictGet d))
  else .error .typeError

/-- `station_info`, entries may be absent; `station_number` and `elevation` after `int`. -/
structure StationInfo where
  stationId : Option Text
  stationNumber : Option Int
  elevation : Option Int
  state : Option Text
  country : Option Text
  priority : Option Int

/-- The `date_time` argument. -/
inductive DateArg where
  | str (t : Text) | dt (x : Date) (c : Clock) | other

/-- Column header from `station_info` (encode/gempak.py:1224-1247, 1488-1513). -/
def makeColumn {ρ κ : Type} (env : NumEnv ρ κ) (info : Option StationInfo) (slat slon : κ) : Col κ :=
  match info with
  | none => ⟨[], -9999, slat, slon, -9999, [], [], [], 0⟩
  | some i =>
    let stid := env.upper (i.stationId.getD [])
    let stnm := i.stationNumber.getD (-9999)
    let selv := i.elevation.getD (-9999)
    let stat := (env.upper (i.state.getD [])).take 4
    let coun := (env.upper (i.country.getD [])).take 4
    let spri := i.priority.getD 0
    if 4 < stid.length then ⟨stid.take 4, stnm, slat, slon, selv, stat, coun, (stid.drop 4).take 4, spri⟩
    else ⟨stid, stnm, slat, slon, selv, stat, coun, [], spri⟩

/-- The part of `add_sounding` / `add_station` that changes the object (encode/gempak.py:1243-1258, 1509-1524).  The limit is
tested after the sets, the data and the counts have changed, but before the header lists are sorted anew. -/
def Builder.enter {ρ κ β : Type} [DecidableEq κ] (env : NumEnv ρ κ) (b : Builder κ β) (row : Row) (col : Col κ) (v : β) :
    Builder κ β × Except PyErr Unit :=
  let rs := b.rowSet.add row
  let cs := b.colSet.add col
  let b1 := { b with rowSet := rs, colSet := cs, data := dictSet b.data (row, col) v, rows := rs.keys.length,
                     columns := cs.keys.length }
  if b1.rows + b1.columns > mmhdrs then (b1, .error .valueError)
  else ({ b1 with columnHeaders := cs.keys.mergeSort (Col.le env.leK), rowHeaders := rs.keys.mergeSort Row.le }, .ok ())

/-! ## Requests -/

/-- Arguments of `add_station` / `add_sounding`; a coordinate is `none` when it is neither `int` nor `float`. -/
structure AddReq (κ α : Type) where
  data : List (Text × α)
  slat : Option κ
  slon : Option κ
  dateTime : DateArg
  info : Option StationInfo

/-- `x` or the missing value. -/
def NumEnv.clean {ρ κ : Type} (env : NumEnv ρ κ) (x : ρ) : ρ := if env.isNaN x then env.missing else x

/-- Checks of `add_station` before anything changes (encode/gempak.py:1465-1513).  A string `date_time` is parsed, but then
`date_time.date()` is called on the string itself: `AttributeError`. -/
def checkStation {ρ κ : Type} (env : NumEnv ρ κ) (names : List Text) (r : AddReq κ ρ) :
    Except PyErr (Row × Col κ × List ρ) := do
  let params ← bindParams env names (r.data.map fun kv => (kv.1, env.clean kv.2))
  match r.slat, r.slon with
  | some slat, some slon =>
    match r.dateTime with
    | .str t => do
      let _ ← env.parse (env.upper t)
      .error .attributeError
    | .other => .error .typeError
    | .dt x c => .ok ((x, c), makeColumn env r.info slat slon, params)
  | _, _ => .error .typeError

/-- `SurfaceFile.add_station` (encode/gempak.py:1435-1524). -/
def addStation {ρ κ : Type} [DecidableEq κ] (env : NumEnv ρ κ) (b : Builder κ (List ρ)) (r : AddReq κ ρ) :
    Builder κ (List ρ) × Except PyErr Unit :=
  match checkStation env b.names r with
  | .ok (row, col, v) => b.enter env row col v
  | .error e => (b, .error e)

/-- `_validate_length` (encode/gempak.py:1158-1161); no parameters: `StopIteration`. -/
def validateLength {α : Type} : List (List α) → Except PyErr Bool
  | [] => .error .stopIteration
  | x :: r => .ok (r.all (fun y => y.length = x.length) && decide (x.length < maxLevels))

/-- `date_time` of `add_sounding` given as a text, in upper case (encode/gempak.py:1210-1219): an initial time, or an initial time, the
letter `F` and hours.  More than one `F`: `ValueError`. -/
def soundingTime {ρ κ : Type} (env : NumEnv ρ κ) (t : Text) : Except PyErr Row :=
  if 'F' ∈ t then do
    let lead := (t.dropWhile (· ≠ 'F')).drop 1
    if 'F' ∈ lead then .error .valueError else do
    let init ← env.parse (t.takeWhile (· ≠ 'F'))
    let hours ← env.parseInt lead
    addHours init hours
  else env.parse t

/-- Checks of `add_sounding` (encode/gempak.py:1195-1247). -/
def checkSounding {ρ κ : Type} (env : NumEnv ρ κ) (names : List Text) (r : AddReq κ (List ρ)) :
    Except PyErr (Row × Col κ × List (List ρ)) := do
  let params ← bindParams env names (r.data.map fun kv => (kv.1, kv.2.map env.clean))
  if !(← validateLength params) then .error .valueError else do
  match r.slat, r.slon with
  | some slat, some slon =>
    let row ← match r.dateTime with
      | .str t => soundingTime env (env.upper t)
      | .other => .error .typeError
      | .dt x c => .ok (x, c)
    .ok (row, { makeColumn env r.info slat slon with spri := 0 }, params)
  | _, _ => .error .typeError

/-- `SoundingFile.add_sounding` (encode/gempak.py:1163-1258). -/
def addSounding {ρ κ : Type} [DecidableEq κ] (env : NumEnv ρ κ) (b : Builder κ (List (List ρ))) (r : AddReq κ (List ρ)) :
    Builder κ (List (List ρ)) × Except PyErr Unit :=
  match checkSounding env b.names r with
  | .ok (row, col, v) => b.enter env row col v
  | .error e => (b, .error e)

/-! ## What is written -/

/-- Words of a row header (encode/gempak.py:1269-1283, 1535-1549). -/
def rowWords (r : Row) : Except PyErr (List Val) := .ok [.int (dateWord r.1), .int (timeWord r.2)]

/-- Words of a sounding column header (encode/gempak.py:1294-1305). -/
def snColWords {ρ κ : Type} (env : NumEnv ρ κ) (c : Col κ) : Except PyErr (List Val) := do
  let lat ← env.centi c.slat
  let lon ← env.centi c.slon
  .ok [nameWord c.stid, .int c.stnm, .int lat, .int lon, .int c.selv, nameWord c.stat, nameWord c.coun, nameWord c.std2]

/-- Words of a surface column header (encode/gempak.py:1560-1571). -/
def sfColWords {ρ κ : Type} (env : NumEnv ρ κ) (c : Col κ) : Except PyErr (List Val) := do
  let ws ← snColWords env c
  .ok (ws ++ [.int c.spri])

/-- Data values as words. -/
def floatWords {ρ κ : Type} (env : NumEnv ρ κ) (vs : List ρ) : Except PyErr (List Val) :=
  vs.mapM fun x => (env.f32 x).map Val.flt

/-- A surface record (encode/gempak.py:1582-1594): length, time, values in the order of the parameters. -/
def sfRecord {ρ κ : Type} (env : NumEnv ρ κ) (row : Row) (vs : List ρ) : Except PyErr (List Val) := do
  let fs ← floatWords env vs
  .ok (.int (1 + vs.length : Nat) :: .int (timeWord row.2) :: fs)

/-- `zip(*params.values())`: level by level. -/
def levels {ρ : Type} (cols : List (List ρ)) : List (List ρ) :=
  (List.range (cols.headD []).length).map fun i => cols.filterMap (·[i]?)

/-- A sounding record (encode/gempak.py:1316-1333). -/
def snRecord {ρ κ : Type} (env : NumEnv ρ κ) (row : Row) (cols : List (List ρ)) : Except PyErr (List Val) := do
  let fs ← floatWords env (levels cols).flatten
  .ok (.int (1 + (cols.headD []).length * cols.length : Nat) :: .int (timeWord row.2) :: fs)

/-- `_write_data` of surface files visits row by row (encode/gempak.py:1573-1599). -/
def sfVisits {κ β : Type} [DecidableEq κ] (rec : Row → β → Except PyErr (List Val)) (b : Builder κ β) :
    List (Nat × Option (Except PyErr (List Val))) :=
  b.rowHeaders.zipIdx.flatMap fun (row, i) => b.columnHeaders.zipIdx.map fun (col, j) =>
    (i * b.columns + j, (dictGet b.data (row, col)).map (rec row))

/-- `_write_data` of sounding files visits column by column (encode/gempak.py:1307-1338). -/
def snVisits {κ β : Type} [DecidableEq κ] (rec : Row → β → Except PyErr (List Val)) (b : Builder κ β) :
    List (Nat × Option (Except PyErr (List Val))) :=
  b.columnHeaders.zipIdx.flatMap fun (col, j) => b.rowHeaders.zipIdx.map fun (row, i) =>
    (i * b.columns + j, (dictGet b.data (row, col)).map (rec row))

/-- `_parts_dict` (encode/gempak.py:1129-1138, 1402-1411); `DataTypes.real` is 1. -/
def stationPart (name : Text) (names : List Text) : Part :=
  ⟨name, 1, 1, names, names.map fun _ => 0, names.map fun _ => 0, names.map fun _ => 0⟩

/-- The surface file to be written. -/
def surfaceFile {ρ κ : Type} [DecidableEq κ] (env : NumEnv ρ κ) (b : Builder κ (List ρ)) : DMFile :=
  { fileHeaders := [], rowNames := [txt "DATE", txt "TIME"]
    columnNames := [txt "STID", txt "STNM", txt "SLAT", txt "SLON", txt "SELV", txt "STAT", txt "COUN", txt "STD2", txt "SPRI"]
    parts := [stationPart (txt "SFDT") b.names], rows := b.rows, columns := b.columns, fileType := 1, dataSource := 2
    fileBody := [], rowInit := true, rowHeaders := b.rowHeaders.map rowWords
    columnHeaders := b.columnHeaders.map (sfColWords env), visits := sfVisits (sfRecord env) b, ptrs := none }

/-- The sounding file to be written. -/
def soundingFile {ρ κ : Type} [DecidableEq κ] (env : NumEnv ρ κ) (b : Builder κ (List (List ρ))) : DMFile :=
  { fileHeaders := [], rowNames := [txt "DATE", txt "TIME"]
    columnNames := [txt "STID", txt "STNM", txt "SLAT", txt "SLON", txt "SELV", txt "STAT", txt "COUN", txt "STD2"]
    parts := [stationPart (txt "SNDT") b.names], rows := b.rows, columns := b.columns, fileType := 2, dataSource := 4
    fileBody := [], rowInit := true, rowHeaders := b.rowHeaders.map rowWords
    columnHeaders := b.columnHeaders.map (snColWords env), visits := snVisits (snRecord env) b, ptrs := none }

end Gempak
