import Verif.Model.Station
import Verif.Model.GribValue
import Verif.Model.F32

/-!
# Grid files: the builder and what it writes

`GridFile` of /repo/src/gempakio/encode/gempak.py:529-1083.  Grid values are rationals, `none` is not-a-number (infinities
are left out).  The projection is represented by its four letter name, the corner coordinates, angles and grid spacing it
leads to; `pyproj` is not modelled.  Arguments that are no arrays, strings or numbers raise `TypeError`; the types of the
model exclude them, except where noted.
-/

namespace Gempak

/-- Operations of the host language on text and numbers. -/
structure GridEnv where
  /-- `str.upper`. -/
  upper : Text → Text
  /-- `str.lower`. -/
  lower : Text → Text
  /-- `datetime.strptime(t, '%Y%m%d%H%M')`. -/
  parseTime : Text → Except PyErr (Date × Clock)
  /-- `int(t)`. -/
  parseInt : Text → Except PyErr Int
  /-- `struct.pack('f', x)`. -/
  f32 : ℚ → Except PyErr F32

/-! ## Column headers -/

/-- Forecast type, initial date and time. -/
structure GDate where
  type : Nat
  date : Date
  clock : Clock
  deriving DecidableEq, Repr

/-- Forecast type, hours and minutes. -/
structure GTime where
  type : Nat
  hour : Int
  minute : Int
  deriving DecidableEq, Repr

/-- Column header (encode/gempak.py:919-934); a missing second date is the number zero. -/
structure GCol where
  gdt1 : GDate
  gtm1 : GTime
  gdt2 : Option GDate
  gtm2 : GTime
  glv1 : Int
  glv2 : Int
  gvcd : Nat
  gpm1 : Text
  gpm2 : Text
  gpm3 : Text
  deriving DecidableEq, Repr

/-- Comparisons of dates. -/
def cmpGDate (a b : GDate) : List (Bool × Bool) :=
  [cmpNat a.type b.type, cmpNat a.date.y b.date.y, cmpNat a.date.m b.date.m, cmpNat a.date.d b.date.d, cmpNat a.clock.h b.clock.h,
    cmpNat a.clock.mi b.clock.mi, cmpNat a.clock.s b.clock.s, cmpNat a.clock.us b.clock.us]

/-- Comparisons of lead times. -/
def cmpGTime (a b : GTime) : List (Bool × Bool) := [cmpNat a.type b.type, cmpInt a.hour b.hour, cmpInt a.minute b.minute]

/-- Comparisons of second dates: two zeros are equal, zero with a tuple raises (see `GCol.clash`). -/
def cmpGDate2 : Option GDate → Option GDate → List (Bool × Bool)
  | some a, some b => cmpGDate a b
  | _, _ => []

/-- Order of column headers. -/
def GCol.le (a b : GCol) : Bool :=
  lexLe (cmpGDate a.gdt1 b.gdt1 ++ cmpGTime a.gtm1 b.gtm1 ++ cmpGDate2 a.gdt2 b.gdt2 ++ cmpGTime a.gtm2 b.gtm2 ++
    [cmpInt a.glv1 b.glv1, cmpInt a.glv2 b.glv2, cmpNat a.gvcd b.gvcd, cmpText a.gpm1 b.gpm1, cmpText a.gpm2 b.gpm2,
      cmpText a.gpm3 b.gpm3])

/-- Comparing these headers raises `TypeError`: the first difference is between zero and a tuple. -/
def GCol.clash (a b : GCol) : Bool := decide (a.gdt1 = b.gdt1 ∧ a.gtm1 = b.gtm1 ∧ a.gdt2.isSome ≠ b.gdt2.isSome)

/-- `sorted` raises `TypeError`: some two headers cannot be compared.  Headers with equal first components are adjacent in
any order, so every comparison sort compares a pair of this kind. -/
def clashing (l : List GCol) : Bool := l.any fun a => l.any fun b => a.clash b

/-! ## Arguments of `add_grid` -/

/-- `level`: a number, not-a-number, an infinity, or no number. -/
inductive LevelArg where
  | num (q : ℚ) | nan | inf | other

/-- `int(level)` (encode/gempak.py:836-839, 873-877). -/
def LevelArg.toInt : LevelArg → Except PyErr Int
  | .num q => .ok (if 0 ≤ q then ⌊q⌋ else ⌈q⌉)
  | .nan => .error .valueError
  | .inf => .error .overflowError
  | .other => .error .typeError

/-- Is this one of `AFVIG`? -/
def isTypeLetter (c : Char) : Bool := c = 'A' || c = 'F' || c = 'V' || c = 'I' || c = 'G'

/-- `{'A': 0, 'F': 1, 'V': 1, 'G': 2, 'I': 3}` (encode/gempak.py:859, 900). -/
def typeNumber (c : Char) : Nat := if c = 'A' then 0 else if c = 'G' then 2 else if c = 'I' then 3 else 1

/-- `re.split('([AFVIG])', s)`. -/
def splitTypes : Text → List Text
  | [] => [[]]
  | c :: r =>
    if isTypeLetter c then [] :: [c] :: splitTypes r
    else match splitTypes r with
      | h :: t => (c :: h) :: t
      | [] => [[c]]

/-- Lead time behind the letter (encode/gempak.py:852-858). -/
def parseLead (env : GridEnv) (fhr : Text) : Except PyErr (Int × Int) :=
  if 3 < fhr.length then do
    let h ← env.parseInt (fhr.take 3)
    let m ← env.parseInt (fhr.drop 3)
    .ok (h, m)
  else if fhr = [] then .ok (0, 0)
  else do
    let h ← env.parseInt fhr
    .ok (h, 0)

/-- A date without forecast type: an analysis at its own time (encode/gempak.py:862-869). -/
def plainTime (x : Date × Clock) : GDate × GTime := (⟨0, x.1, x.2⟩, ⟨0, x.2.h, x.2.mi⟩)

/-- A string naming date and time, in upper case (encode/gempak.py:848-865, 889-908). -/
def parseGridTime (env : GridEnv) (s : Text) : Except PyErr (GDate × GTime) :=
  match splitTypes s with
  | [init, [g], fhr] => do
    let x ← env.parseTime init
    let l ← parseLead env fhr
    .ok (⟨typeNumber g, x.1, x.2⟩, ⟨typeNumber g, l.1, l.2⟩)
  | [_] => (env.parseTime s).map plainTime
  | _ => .error .valueError

/-- `date_time` (encode/gempak.py:841-871). -/
def firstTime (env : GridEnv) : DateArg → Except PyErr (GDate × GTime)
  | .str s => if s.length < 12 then .error .valueError else parseGridTime env (env.upper s)
  | .dt x c => .ok (plainTime (x, c))
  | .other => .error .typeError

/-- `date_time2` (encode/gempak.py:879-914).  The length tested is that of `date_time`: a `datetime` has none, a string has
been tested already.  The types are compared only when `date_time2` has a letter. -/
def secondTime (env : GridEnv) (t1 : Nat) (isStr : Bool) : Option DateArg → Except PyErr (Option GDate × GTime)
  | none => .ok (none, ⟨0, 0, 0⟩)
  | some (.str s) =>
    if isStr then do
      let r ← parseGridTime env (env.upper s)
      if (splitTypes (env.upper s)).length = 3 ∧ t1 ≠ r.1.type then .error .valueError else .ok (some r.1, r.2)
    else .error .typeError
  | some (.dt x c) => .ok (some (plainTime (x, c)).1, (plainTime (x, c)).2)
  | some .other => .error .typeError

/-- Names of `VerticalCoordinates` in order (common.py:73-84). -/
def verticalNames : List Text :=
  [txt "none", txt "pres", txt "thta", txt "hght", txt "sgma", txt "dpth", txt "hybd", txt "pvab", txt "pvbl"]

/-- `_encode_vertical_coordinate` (encode/gempak.py:307-311). -/
def verticalNumber (env : GridEnv) (v : Text) : Except PyErr Nat :=
  match verticalNames.idxOf? (env.lower v) with
  | some n => .ok n
  | none => .error .keyError

/-- Three chunks of four characters (encode/gempak.py:916-917); more or fewer chunks raise. -/
def nameChunks (s : Text) : Except PyErr (Text × Text × Text) :=
  let p := s ++ List.replicate (12 - s.length) ' '
  if 8 < p.length ∧ p.length ≤ 12 then .ok (p.take 4, (p.drop 4).take 4, p.drop 8) else .error .valueError

/-- Arguments of `add_grid`. -/
structure GridReq where
  grid : List (List (Option ℚ))
  name : Text
  vcoord : Option Text
  level : LevelArg
  dateTime : DateArg
  level2 : Option LevelArg
  dateTime2 : Option DateArg

/-- Is the argument a string? -/
def DateArg.isStr : DateArg → Bool
  | .str _ => true
  | _ => false

/-- `level2`, `-1` when absent (encode/gempak.py:873-877, 925). -/
def secondLevel : Option LevelArg → Except PyErr Int
  | none => .ok (-1)
  | some l => l.toInt

/-- `vertical_coordinate` in upper case, at most four characters (encode/gempak.py:825-834). -/
def vertText (env : GridEnv) (v : Option Text) : Except PyErr Text :=
  let t := match v with
    | none => txt "NONE"
    | some t => env.upper t
  if 4 < t.length then .error .valueError else .ok t

/-- Checks of `add_grid` before anything changes (encode/gempak.py:808-937), and the grid with not-a-number replaced. -/
def checkGrid (env : GridEnv) (nx ny : Nat) (r : GridReq) : Except PyErr (GCol × List (List ℚ)) := do
  if ¬ (r.grid.length = ny ∧ ∀ row ∈ r.grid, row.length = nx) then .error .valueError else do
  if 12 < r.name.length then .error .valueError else do
  let v ← vertText env r.vcoord
  let l ← r.level.toInt
  let t ← firstTime env r.dateTime
  let l2 ← secondLevel r.level2
  let t2 ← secondTime env t.1.type r.dateTime.isStr r.dateTime2
  let c ← nameChunks (env.upper r.name)
  let n ← verticalNumber env v
  .ok (⟨t.1, t.2, t2.1, t2.2, l, l2, n, c.1, c.2.1, c.2.2⟩, r.grid.map (List.map (·.getD (-9999))))

/-! ## Builder -/

/-- A `GridFile`: what the constructor fixes, and what changes.  `nav` holds corner coordinates and angles. -/
structure GridBuilder where
  nx : Nat
  ny : Nat
  proj : Text
  corners : List F32
  angles : List F32
  delta : F32
  precision : Int
  colSet : OrderedSet GCol
  data : List (GCol × List (List ℚ))
  columns : Nat
  columnHeaders : List GCol

/-- A new file (encode/gempak.py:536-652). -/
def newGrid (nx ny : Nat) (proj : Text) (corners angles : List F32) (delta : F32) (precision : Int) : GridBuilder :=
  ⟨nx, ny, proj, corners, angles, delta, precision, ⟨[]⟩, [], 0, []⟩

/-- The part of `add_grid` that changes the object (encode/gempak.py:935-945). -/
def GridBuilder.enter (b : GridBuilder) (col : GCol) (g : List (List ℚ)) : GridBuilder × Except PyErr Unit :=
  let cs := b.colSet.add col
  let b1 := { b with colSet := cs, data := dictSet b.data col g, columns := cs.keys.length }
  if 1 + b1.columns > mmhdrs then (b1, .error .valueError)
  else if clashing cs.keys then (b1, .error .typeError)
  else ({ b1 with columnHeaders := cs.keys.mergeSort GCol.le }, .ok ())

/-- `add_grid` (encode/gempak.py:757-945). -/
def addGrid (env : GridEnv) (b : GridBuilder) (r : GridReq) : GridBuilder × Except PyErr Unit :=
  match checkGrid env b.nx b.ny r with
  | .ok (col, g) => b.enter col g
  | .error e => (b, .error e)

/-! ## What is written -/

/-- Date word (encode/gempak.py:974-983). -/
def gdtWord (x : GDate) : Int := if x.type = 0 then dateWord x.date else gridWord x.date x.clock

/-- Second date word. -/
def gdt2Word : Option GDate → Int
  | none => 0
  | some x => gdtWord x

/-- Digits of a natural number. -/
def numDigits (n : Nat) : Nat := (Nat.toDigits 10 n).length

/-- `int(f'{h:02d}{m:02d}')`, the same with `{h:03d}`: a sign inside the digits raises. -/
def hhmm (h m : Int) : Except PyErr Int :=
  if m < 0 then .error .valueError
  else
    let w := max 2 (numDigits m.toNat)
    if 0 ≤ h then .ok (h * 10 ^ w + m) else .ok (-(-h * 10 ^ w + m))

/-- Lead time word (encode/gempak.py:985-991). -/
def gtmWord (x : GTime) : Except PyErr Int := do
  let t ← hhmm x.hour x.minute
  .ok (if x.type = 0 then t else x.type * 100000 + t)

/-- Words of a column header (encode/gempak.py:958-993). -/
def gcolWords (c : GCol) : Except PyErr (List Val) := do
  let t1 ← gtmWord c.gtm1
  let t2 ← gtmWord c.gtm2
  .ok [.int (gdtWord c.gdt1), .int t1, .int (gdt2Word c.gdt2), .int t2, .int c.glv1, .int c.glv2, .int c.gvcd, nameWord c.gpm1,
    nameWord c.gpm2, nameWord c.gpm3]

/-- A grid record (encode/gempak.py:1055-1070): length, size, packing, precision, missing flag, count, reference, scale and
words. -/
def gridRecord (env : GridEnv) (nx ny : Nat) (precision : Int) (g : List (List ℚ)) : Except PyErr (List Val) := do
  let p ← Grib.packGrib g.flatten (-9999) precision
  let ref ← env.f32 p.1
  let scale ← env.f32 p.2.1
  .ok (.int (p.2.2.length + 8 : Nat) :: .int nx :: .int ny :: .int 1 :: .int precision :: .int (-1) :: .int (nx * ny : Nat) ::
    .flt ref :: .flt scale :: p.2.2.map Val.int)

/-- Column names (encode/gempak.py:594-605). -/
def gridColumns : List Text :=
  [txt "GDT1", txt "GTM1", txt "GDT2", txt "GTM2", txt "GLV1", txt "GLV2", txt "GVCD", txt "GPM1", txt "GPM2", txt "GPM3"]

/-- `1.0`. -/
def oneF32 : F32 := 0x3F800000#32

/-- Parts (encode/gempak.py:610-619). -/
def gridPart : Part := ⟨txt "GRID", 2, 5, [txt "GRID"], [0], [0], [0]⟩

/-- The file to be written; `fx`, `fy` are the grid dimensions in single precision. -/
def gridFile (env : GridEnv) (b : GridBuilder) (fx fy : F32) : DMFile :=
  { fileHeaders := gridFileHeaders, rowNames := [txt "GRID"], columnNames := gridColumns, parts := [gridPart], rows := 1
    columns := b.columns, fileType := 3, dataSource := 6
    fileBody := gridFileBody b.proj ([oneF32, oneF32, fx, fy] ++ b.corners ++ b.angles)
      ([b.delta] ++ List.replicate 4 0 ++ b.corners ++ b.corners ++ b.corners)
    rowInit := false, rowHeaders := [.ok [.int 1]], columnHeaders := b.columnHeaders.map gcolWords
    visits := b.columnHeaders.zipIdx.map fun c => (c.2, (dictGet b.data c.1).map (gridRecord env b.nx b.ny b.precision))
    ptrs := none }

/-- `to_gempak` (encode/gempak.py:485-526, 1016-1023).  The spacing is taken from the points at `n // 2 + 1`, which lie
outside a grid of fewer than three points in either direction. -/
def saveGrid (env : GridEnv) (e : Endian) (b : GridBuilder) : Except PyErr Bytes := do
  let fx ← env.f32 b.nx
  let fy ← env.f32 b.ny
  if b.nx < 3 ∨ b.ny < 3 then .error .indexError else do
  save e (gridFile env b fx fy)

end Gempak
