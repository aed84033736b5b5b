import Verif.Model.VgfDec

/-!
# Model of decode/vgf.py: `to_json`

`json.dumps` is modelled up to the value its text stands for.
-/

namespace Gempak
variable {ν κ : Type}

/-- What a JSON text stands for. -/
inductive Json (κ : Type) where
  | int (i : Int) | num (x : κ) | str (t : Text) | list (js : List (Json κ)) | obj (ms : List (String × Json κ))

/-- Numbers in JSON. -/
structure JsonEnv (ν κ : Type) where
  /-- A Python float. -/
  ofNum : ν → κ
  /-- A single precision number as a Python float. -/
  ofF32 : F32 → κ
  /-- `float(f'{x:6.2f}')` for an item of an array of rounded coordinates. -/
  two : ν → κ
  /-- The same for an item of an array of single precision numbers. -/
  twoF32 : F32 → κ
  /-- The same for an item of an array of integers. -/
  twoInt : Int → κ

/-- `json.dumps` of a value that is no list of records, with `NumpyEncoder.default` (decode/vgf.py:2865-2872) for arrays.  Bytes and
objects of other classes raise `TypeError`. -/
def jsonFlat (env : JsonEnv ν κ) : DVal ν → Except PyErr (Json κ)
  | .int i => .ok (.int i)
  | .num x => .ok (.num (env.ofNum x))
  | .flt f => .ok (.num (env.ofF32 f))
  | .text t => .ok (.str t)
  | .arr xs => .ok (.list (xs.map fun x => .num (env.two x)))
  | .raw xs => .ok (.list (xs.map fun x => .num (env.twoF32 x)))
  | .ints xs => .ok (.list (xs.map fun x => .num (env.twoInt x)))
  | .texts ts => .ok (.list (ts.map .str))
  | .bytes _ => .error .typeError
  | .recs _ => .error .typeError

/-- A break point of an advisory: a list of latitude, longitude and name (decode/vgf.py:4245-4247). -/
def jsonBreak (env : JsonEnv ν κ) (r : DRec ν) : Except PyErr (Json κ) := do .ok (.list (← r.mapM fun x => jsonFlat env x.2))

/-- A member of a watch or warning, which is a dictionary (decode/vgf.py:4249-4257). -/
def jsonWarning1 (env : JsonEnv ν κ) (x : String × DVal ν) : Except PyErr (String × Json κ) := do
  match x with
  | (k, .recs rs) => if k = "break_points" then .ok (k, .list (← rs.mapM (jsonBreak env))) else .error .typeError
  | (k, v) => .ok (k, ← jsonFlat env v)

/-- A watch or warning. -/
def jsonWarning (env : JsonEnv ν κ) (r : DRec ν) : Except PyErr (Json κ) := do .ok (.obj (← r.mapM (jsonWarning1 env)))

/-- An attribute of an element.  The list `ww` has dictionaries.  Other records are objects: `line_attribute` itself, items of
`barb_attributes` and `hash_attributes` (decode/vgf.py:1105-1138), which `json` refuses. -/
def jsonAttr (env : JsonEnv ν κ) (x : String × DVal ν) : Except PyErr (String × Json κ) := do
  match x with
  | (k, .recs rs) =>
    if k = "ww" then .ok (k, .list (← rs.mapM (jsonWarning env)))
    else if rs = [] ∧ k ≠ "line_attribute" then .ok (k, .list [])
    else .error .typeError
  | (k, v) => .ok (k, ← jsonFlat env v)

/-- The attributes set by `VectorGraphicElement.__init__` (decode/vgf.py:601-627). -/
def hdrAttrs (h : DHdr ν) : DRec ν :=
  [("delete", .int h.delete), ("vg_type", .int h.vgType), ("vg_class", .int h.vgClass), ("filled", .int h.filled), ("closed", .int h.closed),
    ("smooth", .int h.smooth), ("version", .int h.version), ("group_type", .int h.groupType), ("group_number", .int h.groupNumber),
    ("major_color", .int h.majorColor), ("minor_color", .int h.minorColor), ("record_size", .int h.recordSize), ("min_lat", .num h.minLat),
    ("min_lon", .num h.minLon), ("max_lat", .num h.maxLat), ("max_lon", .num h.maxLon)]

/-- `element.__dict__` as JSON. -/
def jsonElem (env : JsonEnv ν κ) (e : DElem ν) : Except PyErr (Json κ) := do .ok (.obj (← (hdrAttrs e.hdr ++ e.attrs).mapM (jsonAttr env)))

/-- `to_json` (decode/vgf.py:3244-3258).  `cls` tells whether the caller gives an encoder class: it is then passed twice. -/
def toJson (env : JsonEnv ν κ) (cls : Bool) (s : VgState ν) : Except PyErr (Json κ) :=
  if cls then .error .typeError else do .ok (.list (← s.elements.mapM (jsonElem env)))

end Gempak
