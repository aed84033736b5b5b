import Verif.Model.Calendar
import Verif.Model.Dict
import Verif.Model.DMRead
import Verif.Model.RealPack

/-!
# Sounding and surface files: what the readers share

Row and column headers, pointers and records of /repo/src/gempakio/decode/gempak.py:1153-1299 (`GempakSounding`) and
2183-2633 (`GempakSurface`).
-/

namespace Gempak

/-- Values found in headers and reports.  `coord n` is the number `n / 100`; `arr`, `rarr` are columns of soundings. -/
inductive HVal where
  | text (t : Text) | int (i : Int) | coord (i : Int) | date (x : Date) | time (c : Clock)
  | flt (f : F32) | real (r : RealVal) | arr (l : List F32) | rarr (l : List RealVal)
  deriving DecidableEq, Repr

/-- A header: named tuple as list of fields. -/
abbrev Header := List (Text × HVal)

/-- How a key of a header is read. -/
inductive KeyKind where
  | text | int | coord | date | time
  deriving DecidableEq, Repr

/-- Struct format of a key. -/
def KeyKind.fmt : KeyKind → Fmt
  | .text => .str 4
  | _ => .i32

/-- Converter of a key. -/
def KeyKind.conv : KeyKind → Val → Except PyErr HVal
  | .text, v => (textOf v).map .text
  | .int, v => (intOf v).map .int
  | .coord, v => (intOf v).map .coord
  | .date, v => do .ok (.date (← makeDate (← intOf v)))
  | .time, v => do .ok (.time (← makeTime (← intOf v)))

/-- Column keys of sounding files (decode/gempak.py:1180-1199). -/
def siteKey (k : Text) : KeyKind :=
  if k = txt "STID" ∨ k = txt "STAT" ∨ k = txt "COUN" ∨ k = txt "STD2" then .text
  else if k = txt "SLAT" ∨ k = txt "SLON" then .coord
  else .int

/-- Row keys of sounding files (decode/gempak.py:1163-1170). -/
def timeKey (k : Text) : KeyKind := if k = txt "DATE" then .date else if k = txt "TIME" then .time else .int

/-- `_key_types` of surface files (decode/gempak.py:2324-2349). -/
def sfKey (k : Text) : KeyKind :=
  if k = txt "DATE" then .date else if k = txt "TIME" then .time else siteKey k

/-- Conversion of the fields of a header. -/
def convHeader (kind : Text → KeyKind) : List Text → List Val → Except PyErr Header
  | [], [] => .ok []
  | k :: ks, v :: vs => do
    let x ← (kind k).conv v
    .ok ((k, x) :: (← convHeader kind ks vs))
  | _, _ => .error .typeError

/-- An opened station file. -/
structure StationFile where
  info : DMInfo
  bytes : Bytes
  rows : List Header
  cols : List Header

/-- Field names must differ (`namedtuple`); names that are no identifiers also raise `ValueError`, which is left out. -/
def checkKeys (ks : List Text) : Except PyErr Unit := if ks.Nodup then .ok () else .error .valueError

/-- Beginning of `GempakSounding.__init__` and `GempakSurface.__init__` (decode/gempak.py:1156-1204, 2186-2208). -/
def openStation (rowKind colKind : Text → KeyKind) (host : Endian) (b : Bytes) : Except PyErr StationFile := do
  let i ← readDM host b
  checkKeys i.rowKeys
  let rows ← readHeaders i.order b (i.rowKeys.map fun k => (rowKind k).fmt) (convHeader rowKind i.rowKeys)
    i.label.rows.toNat (wordToPosition i.label.rowHeadersPtr)
  checkKeys i.columnKeys
  let cols ← readHeaders i.order b (i.columnKeys.map fun k => (colKind k).fmt) (convHeader colKind i.columnKeys)
    i.label.columns.toNat (wordToPosition i.label.columnHeadersPtr)
  .ok ⟨i, b, rows, cols⟩

/-! ## Fields of headers -/

/-- `head.KEY`. -/
def headGet (h : Header) (k : Text) : Except PyErr HVal :=
  match dictGet h k with
  | some v => .ok v
  | none => .error .attributeError

/-- Text field. -/
def headText (h : Header) (k : Text) : Except PyErr Text := do
  match ← headGet h k with
  | .text t => .ok t
  | _ => .error .typeError

/-- Integer field. -/
def headInt (h : Header) (k : Text) : Except PyErr Int := do
  match ← headGet h k with
  | .int i => .ok i
  | _ => .error .typeError

/-- Coordinate field, in hundredths of a degree. -/
def headCoord (h : Header) (k : Text) : Except PyErr Int := do
  match ← headGet h k with
  | .coord i => .ok i
  | _ => .error .typeError

/-- `datetime.combine`. -/
def combine : HVal → HVal → Except PyErr (Date × Clock)
  | .date x, .time c => .ok (x, c)
  | _, _ => .error .typeError

/-- Date and time of a header. -/
def headTime (h : Header) : Except PyErr (Date × Clock) := do
  let d ← headGet h (txt "DATE")
  let t ← headGet h (txt "TIME")
  combine d t

/-- Entry of `sninfo()` / `sfinfo()` (decode/gempak.py:93-124). -/
structure SiteInfo where
  row : Nat
  col : Nat
  dattim : Date × Clock
  id : Text
  number : Int
  lat : Int
  lon : Int
  elev : Int
  state : Text
  country : Text
  deriving DecidableEq, Repr

/-- `sorted` on such entries: place in the table decides, since places differ. -/
def SiteInfo.le (a b : SiteInfo) : Bool := decide (a.row < b.row ∨ a.row = b.row ∧ a.col ≤ b.col)

/-- A cell of the table: its place, the header describing the site and the header with the time. -/
structure CellRef where
  row : Nat
  col : Nat
  site : Header
  time : Header

/-- All cells, time by row and site by column, row by row. -/
def standardCells (rows cols : List Header) : List CellRef :=
  rows.zipIdx.flatMap fun r => cols.zipIdx.map fun c => ⟨r.2, c.2, c.1, r.1⟩

/-! ## Records -/

/-- Repeated steps of a slice: every `step`-th element (`step ≥ 1`). -/
def everyNth {α : Type} (step : Nat) : List α → List α
  | [] => []
  | x :: r => x :: everyNth step (r.drop (step - 1))
  termination_by l => l.length
  decreasing_by simp; omega

/-- `l[start::step]`. -/
def stride {α : Type} (start step : Nat) (l : List α) : List α := everyNth step (l.drop start)

/-- Single precision values of a list of words. -/
def fltOf : Val → Except PyErr F32
  | .flt f => .ok f
  | _ => .error .typeError

/-- Parameter attributes as `_unpack_real` takes them. -/
def realAttrs (p : ParamInfo) : List RealAttr :=
  (p.bits.zip (p.scale.zip p.offset)).map fun x => ⟨x.1.toNat, x.2.1, x.2.2⟩

/-- The character data of a record as one byte string (`{lendat}s` after `lendat *= 4`). -/
def readText (i : DMInfo) (b : Bytes) (part : PartInfo) (dataPtr : Int) : Except PyErr Bytes := do
  let p := wordToPosition dataPtr
  let len := readWord i.order b p
  let q := p + (pySlice b p (p + 4)).length
  let lendat := (len - part.headerLength) * 4
  if lendat < 0 then .error .structError
  else
    match ← unpackFrom i.order [.str lendat.toNat] b (q + wordToPosition (part.headerLength + 1)) with
    | [.str s] => .ok s
    | _ => .error .typeError

/-- Unpacked real values of a record. -/
def readReals (i : DMInfo) (b : Bytes) (part : PartInfo) (params : ParamInfo) (dataPtr : Int) : Except PyErr (List RealVal) := do
  let vs ← readRecord i b part dataPtr .i32
  let ws ← vs.mapM intOf
  unpackReal ws (realAttrs params) ws.length

/-- Pick the value of each parameter: `packed[iprm]`. -/
def pickEach {α : Type} (f : α → HVal) (vs : List α) : List Text → Nat → Except PyErr (List (Text × HVal))
  | [], _ => .ok []
  | n :: ns, k =>
    match vs[k]? with
    | some v => do .ok ((n, f v) :: (← pickEach f vs ns (k + 1)))
    | none => .error .indexError

/-- The list `packed_buffer` of a character record has one element. -/
def pickText (s : Bytes) : List Text → Except PyErr (List (Text × HVal))
  | [] => .ok []
  | [n] => do .ok [(n, .text (← decodeStrip s))]
  | _ :: _ :: _ => do
    let _ ← decodeStrip s
    .error .indexError

/-- One part of a surface report (e.g. decode/gempak.py:2508-2549); data types 1, 3, 4 are real, character, packed real
(common.py:63-70). -/
def surfacePart (i : DMInfo) (b : Bytes) (part : PartInfo) (params : ParamInfo) (dataPtr : Int) :
    Except PyErr (List (Text × HVal)) :=
  if part.dataType = 1 then do
    let vs ← readRecord i b part dataPtr .f32
    let fs ← vs.mapM fltOf
    pickEach .flt fs params.names 0
  else if part.dataType = 4 then do
    let rs ← readReals i b part params dataPtr
    pickEach .real rs params.names 0
  else if part.dataType = 3 then do
    let s ← readText i b part dataPtr
    pickText s params.names
  else .error .notImplemented

/-- One part of a merged sounding (decode/gempak.py:1257-1296). -/
def soundingPart (i : DMInfo) (b : Bytes) (part : PartInfo) (params : ParamInfo) (dataPtr : Int) :
    Except PyErr (List (Text × HVal)) :=
  if part.dataType = 1 then do
    let vs ← readRecord i b part dataPtr .f32
    let fs ← vs.mapM fltOf
    .ok (params.names.zipIdx.map fun n => (n.1, .arr (stride n.2 params.names.length fs)))
  else if part.dataType = 4 then do
    let rs ← readReals i b part params dataPtr
    .ok (params.names.zipIdx.map fun n => (n.1, .rarr (stride n.2 params.names.length rs)))
  else .error .notImplemented

/-- The loop over parts: parts without data are skipped; items come in the order in which they are stored. -/
def cellItems (readPart : PartInfo → ParamInfo → Int → Except PyErr (List (Text × HVal))) (i : DMInfo) (b : Bytes)
    (irow icol : Nat) : List (PartInfo × ParamInfo) → Nat → Except PyErr (List (Text × HVal))
  | [], _ => .ok []
  | (p, a) :: r, iprt =>
    let ptr := dataPointer i b irow icol iprt
    if ptr = 0 then cellItems readPart i b irow icol r (iprt + 1)
    else do
      let x ← readPart p a ptr
      .ok (x ++ (← cellItems readPart i b irow icol r (iprt + 1)))

/-- Copy fields of a header into a report. -/
def headItems (h : Header) (ks : List Text) : Except PyErr (List (Text × HVal)) :=
  ks.mapM fun k => (headGet h k).map fun v => (k, v)

/-! ## Selection criteria -/

/-- A string or a list of strings. -/
inductive StrArg where
  | one (t : Text) | many (l : List Text)

/-- A string becomes a list of one string, then all are upper-cased (e.g. decode/gempak.py:2798-2801). -/
def StrArg.upperAll (upper : Text → Text) : StrArg → List Text
  | .one t => [upper t]
  | .many l => l.map upper

/-- The same for `state` and `country` of soundings: lists are left alone (decode/gempak.py:2074-2082). -/
def StrArg.upperOne (upper : Text → Text) : StrArg → List Text
  | .one t => [upper t]
  | .many l => l

/-- The `date_time` criterion; strings already parsed. -/
inductive TimeSel where
  | first | last | these (l : List (Date × Clock))

/-- Bounding box. -/
structure BBox where
  left : Rat
  right : Rat
  bottom : Rat
  top : Rat

/-- `_bbox_filter` (decode/gempak.py:126-135); `lat`, `lon` in hundredths.  The code compares the floating-point quotient by
100 instead of the exact one. -/
def BBox.holds (x : BBox) (lat lon : Int) : Bool :=
  decide (x.left ≤ (lon : Rat) / 100 ∧ (lon : Rat) / 100 ≤ x.right ∧ x.bottom ≤ (lat : Rat) / 100 ∧ (lat : Rat) / 100 ≤ x.top)

/-- `a < b` on dates and times, compared field by field. -/
def timeLt (a b : Date × Clock) : Bool :=
  let f : Date × Clock → List Nat := fun x => [x.1.y, x.1.m, x.1.d, x.2.h, x.2.mi, x.2.s, x.2.us]
  decide (List.Lex (· < ·) (f a) (f b))

/-- `max` / `min` of the times: `ValueError` when there are none. -/
def extremeTime (better : Date × Clock → Date × Clock → Bool) : List (Date × Clock) → Except PyErr (Date × Clock)
  | [] => .error .valueError
  | x :: r => .ok (r.foldl (fun m t => if better t m then t else m) x)

/-- The list of times standing for the criterion. -/
def TimeSel.resolve (infos : List SiteInfo) : TimeSel → Except PyErr (List (Date × Clock))
  | .first => do .ok [← extremeTime (fun t m => timeLt t m) (infos.map SiteInfo.dattim)]
  | .last => do .ok [← extremeTime (fun t m => timeLt m t) (infos.map SiteInfo.dattim)]
  | .these l => .ok l

/-- Selection criteria of `sfjson` / `snxarray`. -/
structure SiteQuery where
  stationId : Option StrArg := none
  stationNumber : Option (List Int) := none
  dateTime : Option TimeSel := none
  state : Option StrArg := none
  country : Option StrArg := none
  bbox : Option BBox := none

/-- `filter` when the criterion is given. -/
def filterBy {α β : Type} (c : Option β) (p : β → α → Bool) (l : List α) : List α :=
  match c with
  | some x => l.filter (p x)
  | none => l

/-- The times asked for (decode/gempak.py:2089-2092, 2834-2837). -/
def SiteQuery.times (q : SiteQuery) (infos : List SiteInfo) : Except PyErr (Option (List (Date × Clock))) :=
  match q.dateTime with
  | some t => (t.resolve infos).map some
  | none => .ok none

/-- The chain of filters (decode/gempak.py:2085-2117, 2830-2862); `arg` normalises `state` and `country`. -/
def selectSites (upper : Text → Text) (arg : StrArg → List Text) (q : SiteQuery) (infos : List SiteInfo) :
    Except PyErr (List SiteInfo) := do
  let times ← q.times infos
  let m := filterBy q.country (fun c s => decide (s.country ∈ arg c)) infos
  let m := filterBy q.state (fun c s => decide (s.state ∈ arg c)) m
  let m := filterBy q.bbox (fun c s => c.holds s.lat s.lon) m
  let m := filterBy times (fun c s => decide (s.dattim ∈ c)) m
  let m := filterBy q.stationId (fun c s => decide (s.id ∈ c.upperAll upper)) m
  let m := filterBy q.stationNumber (fun c s => decide (s.number ∈ c)) m
  if m.length < 1 then .error .keyError else .ok m

end Gempak
