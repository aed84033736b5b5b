import Verif.Model.GridRead
import Verif.Model.Report

/-!
# Navigation of grid files

How `GridFile` turns coordinates and a projection into the navigation and analysis blocks (/repo/src/gempakio/encode/gempak.py:536-755,
995-1046) and how `GempakGrid` turns the navigation block into a coordinate system and coordinates
(/repo/src/gempakio/decode/gempak.py:705-804).

`pyproj` is outside the model.  What the code asks of a projection is kept in `CrsFacts` (its description) and `ProjMaps` (its
two maps); every theorem holds for all of them.  Coordinates are rational numbers: infinities, not-a-number and the rounding of
double precision arithmetic are left out, the rounding to single precision when a block is written is not.
-/

namespace Gempak

/-! ## Arrays -/

/-- A NumPy array: shape and items in row-major order. -/
structure Arr where
  shape : List Nat
  data : List ℚ
  deriving DecidableEq, Repr

/-- `a[i, j]` for indices that are not negative. -/
def Arr.at2 (a : Arr) (i j : Nat) : Except PyErr ℚ :=
  match a.shape with
  | [n, m] =>
    if i < n ∧ j < m then
      match a.data[i * m + j]? with
      | some x => .ok x
      | none => .error .indexError
    else .error .indexError
  | _ => .error .indexError

/-- `a[-1, -1]`. -/
def Arr.last2 (a : Arr) : Except PyErr ℚ :=
  match a.shape with
  | [n + 1, m + 1] => a.at2 n m
  | _ => .error .indexError

/-- Item of a one-dimensional array. -/
def item (l : List ℚ) (i : Nat) : Except PyErr ℚ :=
  match l[i]? with
  | some x => .ok x
  | none => .error .indexError

/-- `a[-1]` of a one-dimensional array. -/
def lastItem (l : List ℚ) : Except PyErr ℚ :=
  match l.getLast? with
  | some x => .ok x
  | none => .error .indexError

/-! ## Projections -/

/-- A value of the CF description: a number or a pair of numbers. -/
inductive CfVal where
  | num (x : ℚ)
  | pair (a b : ℚ)
  deriving DecidableEq, Repr

/-- What is asked of `projection.crs`: the CF name and parameters (`to_cf`), the text form (`crs_wkt`), the name of the method of
`coordinate_operation` (`none` when there is no operation) and its parameters in order. -/
structure CrsFacts where
  name : Option Text
  cf : List (Text × CfVal)
  wkt : Text
  method : Option Text
  operation : List (Text × ℚ)
  deriving DecidableEq, Repr

/-- `pyproj.Proj` as a pair of maps: from longitude and latitude to projected coordinates, and back. -/
structure ProjMaps where
  fwd : ℚ → ℚ → ℚ × ℚ
  inv : ℚ → ℚ → ℚ × ℚ

/-- `sub in s`. -/
def hasSub (sub : Text) : Text → Bool
  | [] => sub.isPrefixOf []
  | c :: r => sub.isPrefixOf (c :: r) || hasSub sub r

/-- `params[key]`. -/
def cfGet (c : CrsFacts) (k : Text) : Except PyErr CfVal :=
  match dictGet c.cf k with
  | some v => .ok v
  | none => .error .keyError

/-- `_to_dict(operation)[key]` (encode/gempak.py:654-659): the names in lower case with underscores, the last of equal names
counts.  `lower` is `str.lower`. -/
def opGet (lower : Text → Text) (c : CrsFacts) (k : Text) : Except PyErr ℚ :=
  match dictGet (dictUpdate [] (c.operation.map fun kv => ((lower kv.1).map fun x => if x = ' ' then '_' else x, kv.2))) k with
  | some v => .ok v
  | none => .error .keyError

/-- Leading digits; `\d` is restricted to ASCII digits. -/
def leadDigits (s : Text) : Text := s.takeWhile isDigit09

/-- The number pattern at the beginning of a text: an optional sign, one to `m` digits, an optional point, more digits
(encode/gempak.py:732, 737). -/
def numberAt (m : Nat) (s : Text) : Option Text :=
  let sign := s.take 1 = ['-']
  let r := if sign then s.drop 1 else s
  let d := (leadDigits r).take m
  if d = [] then none
  else
    let r := r.drop d.length
    let dot := r.take 1 = ['.']
    let r := if dot then r.drop 1 else r
    some ((if sign then ['-'] else []) ++ d ++ (if dot then ['.'] else []) ++ leadDigits r)

/-- `re.search` of a label followed by a number: the number found first. -/
def searchNumber (label : Text) (m : Nat) : Text → Option Text
  | [] => none
  | c :: r =>
    if label.isPrefixOf (c :: r) then
      match numberAt m ((c :: r).drop label.length) with
      | some x => some x
      | none => searchNumber label m r
    else searchNumber label m r

/-- Value of a row of digits. -/
def digitsValue (s : Text) : Nat := s.foldl (fun a c => 10 * a + (c.toNat - 48)) 0

/-- `float(s)` for a text found by `numberAt`, without the rounding to double precision. -/
def numberValue (s : Text) : ℚ :=
  let neg := s.take 1 = ['-']
  let r := if neg then s.drop 1 else s
  let i := leadDigits r
  let f := (r.drop i.length).drop 1
  let v : ℚ := digitsValue i + digitsValue f / 10 ^ f.length
  if neg then -v else v

/-- `"Latitude of natural origin",`. -/
def latLabel : Text := txt "\"Latitude of natural origin\","

/-- `"Longitude of natural origin",`. -/
def lonLabel : Text := txt "\"Longitude of natural origin\","

/-- `float(re.search(pattern, params).groupdict()[…])` (encode/gempak.py:730-734). -/
def wktNumber (label : Text) (m : Nat) (c : CrsFacts) : Except PyErr CfVal :=
  match searchNumber label m c.wkt with
  | some t => .ok (.num (numberValue t))
  | none => .error .attributeError

/-- The name of the projection and whether `params` has become the text form (encode/gempak.py:678-692). -/
def projName (c : CrsFacts) : Except PyErr (Text × Bool) :=
  match c.name with
  | some n => .ok (n, false)
  | none =>
    match c.method with
    | none => .error .attributeError
    | some m =>
      if hasSub (txt "Equidistant Cylindrical") m then .ok (txt "equidistant_cylindrical", false)
      else if m = txt "Gnomonic" then .ok (txt "gnomonic", true)
      else if hasSub (txt "Lambert Azimuthal Equal Area") m then .ok (txt "lambert_azimuthal_equal_area", true)
      else .ok (txt "unknown", false)

/-- Code and angles of the navigation block. -/
structure NavAngles where
  code : Text
  angle1 : CfVal
  angle2 : CfVal
  angle3 : CfVal
  deriving DecidableEq, Repr

/-- Angles of an azimuthal or cylindrical projection taken from two CF parameters. -/
def cfAngles (c : CrsFacts) (code k1 k2 : Text) (angle3 : ℚ) : Except PyErr NavAngles := do
  let a ← cfGet c k1
  let b ← cfGet c k2
  .ok ⟨code, a, b, .num angle3⟩

/-- Both standard parallels (encode/gempak.py:708-711): a single number cannot be unpacked. -/
def conicAngles (c : CrsFacts) : Except PyErr NavAngles := do
  match ← cfGet c (txt "standard_parallel") with
  | .num _ => .error .typeError
  | .pair a1 a3 => .ok ⟨txt "LCC", .num a1, ← cfGet c (txt "longitude_of_central_meridian"), .num a3⟩

/-- Angles of the operation (encode/gempak.py:712-717). -/
def opAngles (lower : Text → Text) (c : CrsFacts) (rot : ℚ) : Except PyErr NavAngles := do
  if c.method = none then .error .attributeError else do
  let a ← opGet lower c (txt "latitude_of_natural_origin")
  let b ← opGet lower c (txt "longitude_of_natural_origin")
  .ok ⟨txt "CED", .num a, .num b, .num rot⟩

/-- Angles found in the text form (encode/gempak.py:728-753); a dictionary cannot be searched. -/
def wktAngles (c : CrsFacts) (code : Text) (isText : Bool) (rot : ℚ) : Except PyErr NavAngles :=
  if isText then do
    let a ← wktNumber latLabel 2 c
    let b ← wktNumber lonLabel 3 c
    .ok ⟨code, a, b, .num rot⟩
  else .error .typeError

/-- `_set_projection_params` (encode/gempak.py:676-755); `rot` is `rotation`. -/
def setProjection (lower : Text → Text) (c : CrsFacts) (rot : ℚ) : Except PyErr NavAngles := do
  let (name, isText) ← projName c
  if name = txt "mercator" then cfAngles c (txt "MER") (txt "standard_parallel") (txt "longitude_of_projection_origin") rot
  else if name = txt "polar_stereographic" then
    cfAngles c (txt "STR") (txt "latitude_of_projection_origin") (txt "straight_vertical_longitude_from_pole") 0
  else if name = txt "stereographic" then
    cfAngles c (txt "STR") (txt "latitude_of_projection_origin") (txt "longitude_of_projection_origin") rot
  else if name = txt "lambert_conformal_conic" then conicAngles c
  else if name = txt "equidistant_cylindrical" then opAngles lower c rot
  else if name = txt "orthographic" then
    cfAngles c (txt "ORT") (txt "latitude_of_projection_origin") (txt "longitude_of_projection_origin") rot
  else if name = txt "azimuthal_equidistant" then
    cfAngles c (txt "AED") (txt "latitude_of_projection_origin") (txt "longitude_of_projection_origin") rot
  else if name = txt "lambert_azimuthal_equal_area" then wktAngles c (txt "LEA") isText rot
  else if name = txt "gnomonic" then wktAngles c (txt "GNO") isText rot
  else .error .notImplemented

/-! ## The constructor -/

/-- Attributes of a new `GridFile`; `corners` are the latitude and longitude of the lower left, then of the upper right corner. -/
structure GridHead where
  nx : Nat
  ny : Nat
  x : List ℚ
  y : List ℚ
  lon : Arr
  lat : Arr
  nav : NavAngles
  corners : List ℚ
  deriving DecidableEq, Repr

/-- `self.projection(*np.meshgrid(lon, lat), inverse=True)` (encode/gempak.py:636-638). -/
def meshInverse (p : ProjMaps) (xs ys : List ℚ) : Arr × Arr :=
  let pts := ys.flatMap fun y => xs.map fun x => p.inv x y
  (⟨[ys.length, xs.length], pts.map Prod.fst⟩, ⟨[ys.length, xs.length], pts.map Prod.snd⟩)

/-- First row of the projected abscissas, first column of the projected ordinates (encode/gempak.py:643-646). -/
def axes (p : ProjMaps) (ny nx : Nat) (lon lat : Arr) : Except PyErr (List ℚ × List ℚ) :=
  if ny = 0 ∨ nx = 0 then .error .indexError
  else .ok ((List.range nx).map fun j => (p.fwd (lon.data.getD j 0) (lat.data.getD j 0)).1,
    (List.range ny).map fun i => (p.fwd (lon.data.getD (i * nx) 0) (lat.data.getD (i * nx) 0)).2)

/-- `GridFile.__init__` with projected coordinates (encode/gempak.py:629-639, 661-669).  The array arguments are given by shape
and items. -/
def initXY (lower : Text → Text) (c : CrsFacts) (p : ProjMaps) (rot : ℚ) (lon lat : Arr) : Except PyErr GridHead :=
  if lat.shape.length ≠ 1 ∨ lon.shape.length ≠ 1 then .error .valueError else do
  let (lon2, lat2) := meshInverse p lon.data lat.data
  let nav ← setProjection lower c rot
  let ll := p.inv (← item lon.data 0) (← item lat.data 0)
  let ur := p.inv (← lastItem lon.data) (← lastItem lat.data)
  .ok ⟨lon.data.length, lat.data.length, lon.data, lat.data, lon2, lat2, nav, [ll.2, ll.1, ur.2, ur.1]⟩

/-- `GridFile.__init__` with geographic coordinates (encode/gempak.py:640-649, 670-674). -/
def initGeo (lower : Text → Text) (c : CrsFacts) (p : ProjMaps) (rot : ℚ) (lon lat : Arr) : Except PyErr GridHead :=
  match lat.shape, lon.shape with
  | [ny, nx], [_, _] => do
    let (x, y) ← axes p ny nx lon lat
    let nav ← setProjection lower c rot
    .ok ⟨nx, ny, x, y, lon, lat, nav, [← lat.at2 0 0, ← lon.at2 0 0, ← lat.last2, ← lon.last2]⟩
  | _, _ => .error .valueError

/-- `GridFile.__init__` (encode/gempak.py:536-652); `projection` is `none` when it is not a `pyproj.Proj`. -/
def gridInit (lower : Text → Text) (projection : Option (CrsFacts × ProjMaps)) (useXY : Bool) (rot : ℚ) (lon lat : Arr) :
    Except PyErr GridHead :=
  if ¬ useXY ∧ lat.shape ≠ lon.shape then .error .valueError
  else
    match projection with
    | none => .error .typeError
    | some (c, p) => if useXY then initXY lower c p rot lon lat else initGeo lower c p rot lon lat

/-! ## Writing -/

/-- An angle as a word: a pair is not a number. -/
def CfVal.word (env : GridEnv) : CfVal → Except PyErr F32
  | .num x => env.f32 x
  | .pair _ _ => .error .structError

/-- Spacing of the analysis block (encode/gempak.py:1017-1023); `sqrt` is `np.sqrt`. -/
def gridDelta (sqrt : ℚ → ℚ) (h : GridHead) : Except PyErr ℚ := do
  let a ← h.lon.at2 (h.ny / 2 + 1) (h.nx / 2 + 1)
  let b ← h.lon.at2 (h.ny / 2) (h.nx / 2)
  let c ← h.lat.at2 (h.ny / 2 + 1) (h.nx / 2 + 1)
  let d ← h.lat.at2 (h.ny / 2) (h.nx / 2)
  .ok (sqrt (((a - b) ^ 2 + (c - d) ^ 2) / 2) * 2)

/-- A file to which nothing was added yet; the words of the blocks are made when it is saved. -/
def GridHead.builder (h : GridHead) : GridBuilder := newGrid h.nx h.ny h.nav.code [] [] 0 16

/-- `to_gempak` of a file with the attributes `h` and the grids of `b` (encode/gempak.py:477-526, 995-1046).  Simplified: an
exception from the navigation block is raised before the label is packed, not after; nothing is written to disk in both cases. -/
def saveGridFile (env : GridEnv) (sqrt : ℚ → ℚ) (e : Endian) (h : GridHead) (b : GridBuilder) : Except PyErr Bytes := do
  let corners ← h.corners.mapM env.f32
  let angles ← [h.nav.angle1, h.nav.angle2, h.nav.angle3].mapM (CfVal.word env)
  let delta ← gridDelta sqrt h >>= env.f32
  saveGrid env e { b with corners := corners, angles := angles, delta := delta }

/-! ## Reading -/

/-- Fields of the navigation block as `GempakGrid` uses them: sizes, code, corners, angles. -/
structure NavBlock where
  code : Text
  right : F32
  top : F32
  lat1 : F32
  lon1 : F32
  lat2 : F32
  lon2 : F32
  angle1 : F32
  angle2 : F32
  angle3 : F32
  deriving DecidableEq, Repr

/-- The fields of a block that has been read (decode/gempak.py:244-259). -/
def navBlock (b : Blocks) : Option NavBlock :=
  match b.nav with
  | [_, .str p, _, _, .flt rx, .flt ty, .flt a, .flt c, .flt d, .flt f, .flt x, .flt y, .flt z] =>
    (utf8Dec p).map fun t => ⟨t, rx, ty, a, c, d, f, x, y, z⟩
  | _ => none

/-- A number handed to `pyproj`: a word of the block, the mean of two words, or the secant of such a mean.  The last two are
kept as the expressions computing them. -/
inductive NavNum where
  | word (x : F32)
  | mean (a b : F32)
  | secant (a b : F32)
  deriving DecidableEq, Repr

/-- The dictionary given to `pyproj.CRS.from_dict`, without the constant entries `ellps` and `R`. -/
structure CrsArgs where
  proj : Text
  args : List (Text × NavNum)
  deriving DecidableEq, Repr

/-- `GEMPROJ_TO_PROJ` (decode/gempak.py:55-70): PROJ name and kind. -/
def gemproj : List (Text × Text × Text) :=
  [(txt "MER", txt "merc", txt "cyl"), (txt "NPS", txt "stere", txt "azm"), (txt "SPS", txt "stere", txt "azm"),
   (txt "LCC", txt "lcc", txt "con"), (txt "SCC", txt "lcc", txt "con"), (txt "CED", txt "eqc", txt "cyl"),
   (txt "MCD", txt "eqc", txt "cyl"), (txt "NOR", txt "ortho", txt "azm"), (txt "SOR", txt "ortho", txt "azm"),
   (txt "STR", txt "stere", txt "azm"), (txt "AED", txt "aeqd", txt "azm"), (txt "ORT", txt "ortho", txt "azm"),
   (txt "LEA", txt "laea", txt "azm"), (txt "GNO", txt "gnom", txt "azm")]

/-- `_get_crs` (decode/gempak.py:705-784). -/
def getCrs (n : NavBlock) : Except PyErr CrsArgs :=
  match dictGet gemproj n.code with
  | none => .error .notImplemented
  | some (proj, kind) =>
    let centre := [(txt "lat_0", NavNum.word n.angle1), (txt "lon_0", .word n.angle2)]
    if kind = txt "azm" then .ok ⟨proj, centre⟩
    else if kind = txt "cyl" then
      if n.code ≠ txt "MCD" then .ok ⟨proj, centre⟩
      else .ok ⟨proj, [(txt "lat_0", .mean n.lat2 n.lat1), (txt "lon_0", .word n.angle2),
        (txt "k_0", if f32Value n.angle1 = some 0 then .secant n.lat2 n.lat1 else .word n.angle1)]⟩
    else .ok ⟨proj, [(txt "lon_0", .word n.angle2), (txt "lat_1", .word n.angle1), (txt "lat_2", .word n.angle3)]⟩

/-- `np.linspace(a, b, n)`, without rounding. -/
def linspace (a b : ℚ) (n : Nat) : List ℚ := (List.range n).map fun (i : ℕ) => if n = 1 then a else a + (i : ℚ) * ((b - a) / ((n : ℚ) - 1))

/-- `_set_coordinates` (decode/gempak.py:786-804): projected coordinates of the columns and rows; the corners must be numbers.
The rounding of the result to single precision and the geographic coordinates derived from it are left out. -/
def gridAxes (p : ProjMaps) (n : NavBlock) (kx ky : Nat) : Option (List ℚ × List ℚ) := do
  let lat1 ← f32Value n.lat1
  let lon1 ← f32Value n.lon1
  let lat2 ← f32Value n.lat2
  let lon2 ← f32Value n.lon2
  let ll := p.fwd lon1 lat1
  let ur := p.fwd lon2 lat2
  some (linspace ll.1 ur.1 kx, linspace ll.2 ur.2 ky)

end Gempak
