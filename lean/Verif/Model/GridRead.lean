import Verif.Model.StationRead
import Verif.Model.GridWrite

/-!
# Grid files: the reader

`GempakGrid` of /repo/src/gempakio/decode/gempak.py:613-1150.  Coordinates of the grid points (`pyproj`) are not modelled.
Unpacked values are exact rationals where the code computes in single precision.
-/

namespace Gempak

/-- Value of a column header. -/
inductive GVal where
  | int (i : Int) | text (t : Text) | dattim (d : Option (Date × Clock)) | ftime (f : Option (Int × Int)) | level (l : Option Int)
  deriving DecidableEq, Repr

/-- Column header: named tuple as list of fields. -/
abbrev GHeader := List (Text × GVal)

/-- How a column key is read (decode/gempak.py:641-655). -/
inductive GKind where
  | int | text | dattim | ftime | level | coord
  deriving DecidableEq, Repr

/-- Kind of a key. -/
def gridKey (k : Text) : GKind :=
  if k = txt "GLV1" ∨ k = txt "GLV2" then .level
  else if k = txt "GVCD" then .coord
  else if k = txt "GDT1" ∨ k = txt "GDT2" then .dattim
  else if k = txt "GTM1" ∨ k = txt "GTM2" then .ftime
  else if k = txt "GPM1" ∨ k = txt "GPM2" ∨ k = txt "GPM3" then .text
  else .int

/-- Struct format of a key. -/
def GKind.fmt : GKind → Fmt
  | .text => .str 4
  | _ => .i32

/-- Names of the vertical coordinates in upper case. -/
def verticalNamesUpper : List Text :=
  [txt "NONE", txt "PRES", txt "THTA", txt "HGHT", txt "SGMA", txt "DPTH", txt "HYBD", txt "PVAB", txt "PVBL"]

/-- `_convert_vertical_coord` (decode/gempak.py:520-525). -/
def convertCoord (e : Endian) (w : Int) : Except PyErr Text :=
  if w ≤ 8 then
    if 0 ≤ w then .ok (verticalNamesUpper.getD w.toNat []) else .error .valueError
  else match utf8Dec (encNat e 4 (toU32 w)) with
    | some t => .ok t
    | none => .error .unicodeError

/-- Converter of a key. -/
def GKind.conv (e : Endian) : GKind → Val → Except PyErr GVal
  | .int, v => (intOf v).map .int
  | .text, v => (textOf v).map .text
  | .dattim, v => do .ok (.dattim (← convertDattim (← intOf v)))
  | .ftime, v => do .ok (.ftime (← convertFtime (← intOf v)))
  | .level, v => (intOf v).map fun i => .level (convertLevel i)
  | .coord, v => do .ok (.text (← convertCoord e (← intOf v)))

/-- Conversion of the fields of a column header. -/
def convGHeader (e : Endian) : List Text → List Val → Except PyErr GHeader
  | [], [] => .ok []
  | k :: ks, v :: vs => do
    let x ← (gridKey k).conv e v
    .ok ((k, x) :: (← convGHeader e ks vs))
  | _, _ => .error .typeError

/-- `head.KEY`. -/
def ghGet (h : GHeader) (k : Text) : Except PyErr GVal :=
  match dictGet h k with
  | some v => .ok v
  | none => .error .attributeError

/-- Text field. -/
def ghText (h : GHeader) (k : Text) : Except PyErr Text := do
  match ← ghGet h k with
  | .text t => .ok t
  | _ => .error .typeError

/-- Date field. -/
def ghDate (h : GHeader) (k : Text) : Except PyErr (Option (Date × Clock)) := do
  match ← ghGet h k with
  | .dattim d => .ok d
  | _ => .error .typeError

/-- Forecast time field. -/
def ghLead (h : GHeader) (k : Text) : Except PyErr (Option (Int × Int)) := do
  match ← ghGet h k with
  | .ftime d => .ok d
  | _ => .error .typeError

/-- Level field. -/
def ghLevel (h : GHeader) (k : Text) : Except PyErr (Option Int) := do
  match ← ghGet h k with
  | .level d => .ok d
  | _ => .error .typeError

/-- `datetime + timedelta(minutes=n)`, `n ≥ 0` as `_convert_ftime` delivers.  The year 9999 is out of reach: dates read
from files end in 2068 and lead times are at most some forty days. -/
def addMinutes (t : Date × Clock) (n : Int) : Date × Clock :=
  let total := t.2.h * 60 + t.2.mi + n.toNat
  (t.1.addDays (total / 1440), ⟨total % 1440 / 60, total % 60, t.2.s, t.2.us⟩)

/-- Entry of `gdinfo()` (decode/gempak.py:79-91). -/
structure GridInfo where
  number : Nat
  type : Int
  time1 : Date × Clock
  time2 : Option (Date × Clock)
  parm : Text
  level1 : Option Int
  level2 : Option Int
  coord : Text
  deriving DecidableEq, Repr

/-- Full parameter name. -/
def ghName (h : GHeader) : Except PyErr Text := do
  let a ← ghText h (txt "GPM1")
  let b ← ghText h (txt "GPM2")
  let c ← ghText h (txt "GPM3")
  .ok (a ++ b ++ c)

/-- `GTM1` and `GDT1`: `None` raises `TypeError`. -/
def ghValid (h : GHeader) : Except PyErr (Int × (Date × Clock)) := do
  match ← ghLead h (txt "GTM1"), ← ghDate h (txt "GDT1") with
  | some f, some d => .ok (f.1, addMinutes d f.2)
  | _, _ => .error .typeError

/-- Second time, if there is one. -/
def ghValid2 (h : GHeader) : Except PyErr (Option (Date × Clock)) := do
  match ← ghDate h (txt "GDT2") with
  | none => .ok none
  | some d =>
    match ← ghLead h (txt "GTM2") with
    | some f => .ok (some (addMinutes d f.2))
    | none => .ok none

/-- Entry for a column (decode/gempak.py:663-675). -/
def gridInfo (n : Nat) (h : GHeader) : Except PyErr GridInfo := do
  let v ← ghValid h
  let v2 ← ghValid2 h
  let p ← ghName h
  let l1 ← ghLevel h (txt "GLV1")
  let l2 ← ghLevel h (txt "GLV2")
  let c ← ghText h (txt "GVCD")
  .ok ⟨n, v.1, v.2, v2, p, l1, l2, c⟩

/-- Keys of `GEMPROJ_TO_PROJ` (decode/gempak.py:55-70). -/
def knownProjections : List Text :=
  [txt "MER", txt "NPS", txt "SPS", txt "LCC", txt "SCC", txt "CED", txt "MCD", txt "NOR", txt "SOR", txt "STR", txt "AED",
    txt "ORT", txt "LEA", txt "GNO"]

/-- An opened grid file; `kx`, `ky` exist only with a navigation block. -/
structure GridFileR where
  info : DMInfo
  bytes : Bytes
  cols : List GHeader
  grids : List GridInfo
  size : Option (Int × Int)

/-- Grid size from the navigation block (decode/gempak.py:360-361), the check of the projection (:705-709) and that of
`np.linspace` that sizes are not negative (:795-796). -/
def navSize : Option Blocks → Except PyErr (Option (Int × Int))
  | none => .ok none
  | some x =>
    match x.nav with
    | _ :: .str p :: _ :: _ :: .flt fx :: .flt fy :: _ => do
      let kx ← f32Int fx
      let ky ← f32Int fy
      match utf8Dec p with
      | some t =>
        if t ∈ knownProjections then if kx < 0 ∨ ky < 0 then .error .valueError else .ok (some (kx, ky))
        else .error .notImplemented
      | none => .error .unicodeError
    | _ => .error .attributeError

/-- Number the columns. -/
def gridInfos : List GHeader → Nat → Except PyErr (List GridInfo)
  | [], _ => .ok []
  | h :: r, n => do
    let x ← gridInfo n h
    .ok (x :: (← gridInfos r (n + 1)))

/-- `GempakGrid.__init__` (decode/gempak.py:616-680). -/
def openGrid (host : Endian) (b : Bytes) : Except PyErr GridFileR := do
  let i ← readDM host b
  checkKeys i.rowKeys
  let _ ← readHeaders i.order b (i.rowKeys.map fun _ => Fmt.i32) (fun vs => vs.mapM intOf) i.label.rows.toNat
    (wordToPosition i.label.rowHeadersPtr)
  checkKeys i.columnKeys
  let cols ← readHeaders i.order b (i.columnKeys.map fun k => (gridKey k).fmt) (convGHeader i.order i.columnKeys)
    i.label.columns.toNat (wordToPosition i.label.columnHeadersPtr)
  let gs ← gridInfos cols 0
  let size ← navSize i.blocks
  .ok ⟨i, b, cols, gs, size⟩

/-! ## Unpacking -/

/-- Single precision words as numbers; infinities and not-a-number are left out of the model (`none`). -/
def rawValue : Val → Option ℚ
  | .flt f => f32Value f
  | _ => none

/-- One field of a DIFF grid (decode/gempak.py:861-868): word and bit at which it starts; widths up to 32. -/
def diffField (words : List Int) (bits iword ibit : Nat) : Except PyErr Int :=
  let imiss : Int := ((2 ^ bits - 1 : Nat) : Int)
  let jshft : Int := (bits : Int) + ibit - 33
  match words[iword]? with
  | none => .error .indexError
  | some w =>
    let idat := and32 (ishift w jshft) imiss
    if 0 < jshft then
      match words[iword + 1]? with
      | none => .error .indexError
      | some w2 => .ok (or32 idat (ishift w2 (jshft - 32)))
    else .ok idat

/-- State of the DIFF loop: place, previous value and first value of the previous line (absent before the first value). -/
structure DiffState where
  iword : Nat
  ibit : Nat
  prev : Option (ℚ × ℚ)

/-- Parameters of a DIFF grid. -/
structure DiffMeta where
  bits : Nat
  flag : Bool
  reference : ℚ
  scale : ℚ
  diffmin : ℚ
  missing : ℚ

/-- Next place (decode/gempak.py:870-873). -/
def diffStep (bits iword ibit : Nat) : Nat × Nat := if 32 < ibit + bits then (iword + 1, ibit + bits - 32) else (iword, ibit + bits)

/-- One point (decode/gempak.py:861-897); `line` tells whether a value has been seen in this line. -/
def diffPoint (m : DiffMeta) (words : List Int) (s : DiffState) (line : Bool) : Except PyErr (ℚ × DiffState × Bool) := do
  let idat ← diffField words m.bits s.iword s.ibit
  let p := diffStep m.bits s.iword s.ibit
  if m.flag ∧ idat = ((2 ^ m.bits - 1 : Nat) : Int) then .ok (m.missing, ⟨p.1, p.2, s.prev⟩, line)
  else
    match s.prev with
    | none => .ok (m.reference, ⟨p.1, p.2, some (m.reference, m.reference)⟩, true)
    | some (psav, plin) =>
      if line then
        let v := psav + (m.diffmin + idat * m.scale)
        .ok (v, ⟨p.1, p.2, some (v, plin)⟩, true)
      else
        let v := plin + (m.diffmin + idat * m.scale)
        .ok (v, ⟨p.1, p.2, some (v, v)⟩, true)

/-- A line of `n` points. -/
def diffLine (m : DiffMeta) (words : List Int) : Nat → DiffState → Bool → Except PyErr (List ℚ × DiffState)
  | 0, s, _ => .ok ([], s)
  | n + 1, s, line => do
    let r ← diffPoint m words s line
    let q ← diffLine m words n r.2.1 r.2.2
    .ok (r.1 :: q.1, q.2)

/-- All lines (decode/gempak.py:858-897). -/
def diffLines (m : DiffMeta) (words : List Int) (kx : Nat) : Nat → DiffState → Except PyErr (List (List ℚ))
  | 0, _ => .ok []
  | n + 1, s => do
    let r ← diffLine m words kx s false
    .ok (r.1 :: (← diffLines m words kx n r.2))

/-- The DIFF branch (decode/gempak.py:848-901) after reading: one word or fewer gives `None`. -/
def unpackDiff (m : DiffMeta) (words : List Int) (kx ky : Nat) : Except PyErr (Option (List (List ℚ))) :=
  if words.length > 1 then (diffLines m words kx ky ⟨0, 1, none⟩).map some else .ok none

/-- `reshape((ky, kx))`: the number of values must fit. -/
def reshape {α : Type} (ky kx : Nat) (l : List α) : Except PyErr (List (List α)) :=
  if l.length = ky * kx then .ok ((List.range ky).map fun j => (l.drop (j * kx)).take kx) else .error .valueError

/-- Masking: values equal to the missing value of the file. -/
def maskMissing (missing : Option ℚ) (l : List (List ℚ)) : List (List (Option ℚ)) :=
  l.map (List.map fun v => if some v = missing then none else some v)

/-- Exact value of a field; infinite or undefined ones are left out of the model (`ValueError`). -/
def fieldValue (f : F32) : Except PyErr ℚ :=
  match f32Value f with
  | some q => .ok q
  | none => .error .valueError

/-- `lendat` words; a negative count is a `struct.error`. -/
def readWords (i : DMInfo) (b : Bytes) (pos n : Int) (fmt : Fmt) : Except PyErr (List Val) :=
  if n < 0 then .error .structError else unpackFrom i.order (List.replicate n.toNat fmt) b pos

/-- The GRIB branch (decode/gempak.py:903-938). -/
def readGribGrid (i : DMInfo) (b : Bytes) (pos len hdr kx ky : Int) : Except PyErr (Option (List (List (Option ℚ)))) := do
  match ← unpackFrom i.order [.i32, .i32, .i32] b pos, ← unpackFrom i.order [.f32, .f32] b (pos + 12) with
  | [.int bits, .int flag, .int kxky], [.flt r, .flt s] => do
    if kxky < 0 then .error .valueError else do
    let vs ← readWords i b (pos + 20) (len - hdr - 6) .i32
    let ws ← vs.mapM intOf
    let rv ← fieldValue r
    let sv ← fieldValue s
    let miss ← fieldValue i.label.missingFloat
    match ← Grib.readGrib ws bits.toNat kxky.toNat rv sv (if flag ≠ 0 then some miss else none) with
    | none => .ok none
    | some l => do
      let g ← reshape ky.toNat kx.toNat l
      .ok (some (maskMissing (some miss) g))
  | _, _ => .error .typeError

/-- The DIFF branch (decode/gempak.py:832-901). -/
def readDiffGrid (i : DMInfo) (b : Bytes) (pos len hdr kx ky : Int) : Except PyErr (Option (List (List (Option ℚ)))) := do
  match ← unpackFrom i.order [.i32, .i32, .i32, .i32] b pos, ← unpackFrom i.order [.f32, .f32, .f32] b (pos + 16) with
  | [.int bits, .int flag, .int _, .int _], [.flt r, .flt s, .flt d] => do
    let vs ← readWords i b (pos + 28) (len - hdr - 8) .i32
    let ws ← vs.mapM intOf
    let rv ← fieldValue r
    let sv ← fieldValue s
    let dv ← fieldValue d
    let miss ← fieldValue i.label.missingFloat
    match ← unpackDiff ⟨bits.toNat, flag ≠ 0, rv, sv, dv, miss⟩ ws kx.toNat ky.toNat with
    | none => .ok none
    | some g => .ok (some (maskMissing (some miss) g))
  | _, _ => .error .typeError

/-- Unpacked grids (decode/gempak.py:808-819): plain reals. -/
def readRawGrid (i : DMInfo) (b : Bytes) (pos len hdr kx ky : Int) : Except PyErr (Option (List (List (Option ℚ)))) :=
  if len - hdr - 1 > 1 then do
    let vs ← readWords i b pos (len - hdr - 1) .f32
    let g ← reshape ky.toNat kx.toNat (vs.map rawValue)
    .ok (some (g.map (List.map fun v => if v = f32Value i.label.missingFloat then none else v)))
  else .ok none

/-- `_unpack_grid` (decode/gempak.py:806-954) with masking (:1116-1131).  Packing types are 0 none, 1 GRIB, 2 NMC, 3 DIFF,
4 DEC, 5 GRIB2 (common.py:87-95). -/
def unpackGrid (i : DMInfo) (b : Bytes) (packing pos len hdr kx ky : Int) : Except PyErr (Option (List (List (Option ℚ)))) :=
  if packing = 0 then readRawGrid i b pos len hdr kx ky
  else if packing = 1 ∨ packing = 4 then readGribGrid i b pos len hdr kx ky
  else if packing = 3 then readDiffGrid i b pos len hdr kx ky
  else if packing = 2 ∨ packing = 5 then .error .notImplemented
  else .error .valueError

/-- Data of one grid (decode/gempak.py:1093-1127). -/
def gridData (i : DMInfo) (b : Bytes) (part : PartInfo) (icol iprt : Nat) (kx ky : Int) :
    Except PyErr (Option (List (List (Option ℚ)))) :=
  let p := wordToPosition (dataPointer i b 0 icol iprt)
  let len := readWord i.order b p
  let q := p + (pySlice b p (p + 4)).length + wordToPosition (part.headerLength + 1)
  unpackGrid i b (readWord i.order b q) (q + (pySlice b q (q + 4)).length) len part.headerLength kx ky

/-! ## Selection -/

/-- The second time criterion may name absent times. -/
inductive TimeSel2 where
  | first | last | these (l : List (Option (Date × Clock)))

/-- `max` / `min` over second times: comparing with `None` raises `TypeError`, a single one is not compared. -/
def extremeTime2 (better : Date × Clock → Date × Clock → Bool) (l : List (Option (Date × Clock))) :
    Except PyErr (Option (Date × Clock)) :=
  match l with
  | [] => .error .valueError
  | [x] => .ok x
  | _ :: _ :: _ =>
    if none ∈ l then .error .typeError else (extremeTime better (l.filterMap id)).map some

/-- The times the first criterion stands for. -/
def gridTimes (gs : List GridInfo) : TimeSel → Except PyErr (List (Date × Clock))
  | .first => do .ok [← extremeTime (fun t m => timeLt t m) (gs.map GridInfo.time1)]
  | .last => do .ok [← extremeTime (fun t m => timeLt m t) (gs.map GridInfo.time1)]
  | .these l => .ok l

/-- The times the second criterion stands for. -/
def gridTimes2 (gs : List GridInfo) : TimeSel2 → Except PyErr (List (Option (Date × Clock)))
  | .first => do .ok [← extremeTime2 (fun t m => timeLt t m) (gs.map GridInfo.time2)]
  | .last => do .ok [← extremeTime2 (fun t m => timeLt m t) (gs.map GridInfo.time2)]
  | .these l => .ok l

/-- Optional criteria. -/
def optM {α β : Type} (f : α → Except PyErr β) : Option α → Except PyErr (Option β)
  | none => .ok none
  | some x => (f x).map some

/-- Criteria of `gdxarray`; levels may name absent levels. -/
structure GridQuery where
  parameter : Option StrArg := none
  dateTime : Option TimeSel := none
  coordinate : Option StrArg := none
  level : Option (List (Option ℚ)) := none
  dateTime2 : Option TimeSel2 := none
  level2 : Option (List (Option ℚ)) := none

/-- `level in levels`: numbers are compared by value. -/
def levelIn (ls : List (Option ℚ)) (l : Option Int) : Bool := decide (l.map (fun i => (i : ℚ)) ∈ ls)

/-- The chain of filters (decode/gempak.py:1049-1087). -/
def selectGrids (upper : Text → Text) (q : GridQuery) (gs : List GridInfo) : Except PyErr (List GridInfo) := do
  let t1 ← optM (gridTimes gs) q.dateTime
  let t2 ← optM (gridTimes2 gs) q.dateTime2
  let m := filterBy q.parameter (fun c g => decide (g.parm ∈ c.upperAll upper)) gs
  let m := filterBy t1 (fun c g => decide (g.time1 ∈ c)) m
  let m := filterBy q.coordinate (fun c g => decide (g.coord ∈ c.upperAll upper)) m
  let m := filterBy q.level (fun c g => levelIn c g.level1) m
  let m := filterBy t2 (fun c g => decide (g.time2 ∈ c)) m
  let m := filterBy q.level2 (fun c g => levelIn c g.level2) m
  if m.length < 1 then .error .keyError else .ok m

/-- One grid as returned: name, valid time, type, vertical coordinate, level and values. -/
structure GridObj where
  name : Text
  time : Date × Clock
  type : Int
  coord : Text
  level : Option Int
  data : List (List (Option ℚ))
  deriving DecidableEq

/-- `GVCORD_TO_VAR` (decode/gempak.py:71-75), otherwise lower case. -/
def varName (lower : Text → Text) (n : Text) : Text :=
  if n = txt "PRES" then txt "p" else if n = txt "HGHT" then txt "z" else if n = txt "THTA" then txt "theta" else lower n

/-- The grids of one column, part by part; a grid that cannot be unpacked is left out with a warning. -/
def columnGrids (lower : Text → Text) (f : GridFileR) (g : GridInfo) : List PartInfo → Nat → Except PyErr (List GridObj)
  | [], _ => .ok []
  | p :: r, iprt => do
    match f.size with
    | none => .error .attributeError
    | some s => do
      let d ← gridData f.info f.bytes p g.number iprt s.1 s.2
      let t ← columnGrids lower f g r (iprt + 1)
      match d with
      | some x => .ok (⟨varName lower g.parm, g.time1, g.type, lower g.coord, g.level1, x⟩ :: t)
      | none => .ok t

/-- `gdxarray` (decode/gempak.py:1049-1150). -/
def gdxarray (upper lower : Text → Text) (q : GridQuery) (f : GridFileR) : Except PyErr (List GridObj) := do
  let m ← selectGrids upper q f.grids
  let r ← m.mapM fun g => columnGrids lower f g f.info.parts 0
  .ok r.flatten

end Gempak
