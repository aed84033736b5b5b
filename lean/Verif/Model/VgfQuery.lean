import Verif.Model.VgfDec

/-!
# Queries on a decoded vector graphic file

Renders the properties and methods of `VectorGraphicFile` (/repo/src/gempakio/decode/vgf.py:2898-3242) and `Group`
(2803-2862).  An element is any value with a header; bounding boxes are exact rationals (no NaN).
-/

namespace Gempak

variable {ν : Type}

/-- `operation` of `filter_elements`. -/
def legalOperations : List String := ["and", "or"]

/-- The selection of `filter_elements` before the empty list becomes `None` (decode/vgf.py:3220-3237). -/
def filterRaw (es : List (DElem ν)) (c t : Option Int) (op : String) : List (DElem ν) :=
  match c, t with
  | some c, none => es.filter fun e => decide (e.hdr.vgClass = c)
  | none, some t => es.filter fun e => decide (e.hdr.vgType = t)
  | some c, some t =>
    if op = "and" then es.filter fun e => decide (e.hdr.vgClass = c) && decide (e.hdr.vgType = t)
    else if op = "or" then es.filter fun e => decide (e.hdr.vgClass = c) || decide (e.hdr.vgType = t)
    else []
  | none, none => []

/-- `if not xs: xs = None`. -/
def orNone {α : Type} (xs : List α) : Option (List α) := if xs.isEmpty then none else some xs

/-- `filter_elements` (decode/vgf.py:3197-3242). -/
def filterElements (es : List (DElem ν)) (c t : Option Int) (op : String := "and") : Except PyErr (Option (List (DElem ν))) :=
  if op ∉ legalOperations then .error .valueError else .ok (orNone (filterRaw es c t op))

/-- `filter_elements` with the default operation. -/
def pick (es : List (DElem ν)) (c t : Option Int) : Option (List (DElem ν)) := orNone (filterRaw es c t "and")

/-- `has_…` (decode/vgf.py:2936-3001). -/
def has (es : List (DElem ν)) (c t : Option Int) : Bool := (pick es c t).isSome

/-- A getter: `filter_elements(…)` when the matching `has_…` holds, else `None`. -/
def getIf (b : Bool) (r : Option (List (DElem ν))) : Option (List (DElem ν)) := if b then r else none

/-- `has_fronts` (2936-2939). -/
def hasFronts (es : List (DElem ν)) : Bool := has es (some 1) none
/-- `has_text` (2941-2944). -/
def hasText (es : List (DElem ν)) : Bool := has es (some 5) (some 17)
/-- `has_special_text` (2946-2949). -/
def hasSpecialText (es : List (DElem ν)) : Bool := has es (some 5) (some 21)
/-- `has_symbols` (2951-2954). -/
def hasSymbols (es : List (DElem ν)) : Bool := has es (some 4) none
/-- `has_special_symbols` (2956-2961). -/
def hasSpecialSymbols (es : List (DElem ν)) : Bool := has es (some 4) (some 15)
/-- `has_markers` (2963-2966). -/
def hasMarkers (es : List (DElem ν)) : Bool := has es (some 4) (some 19)
/-- `has_special_lines` (2968-2971). -/
def hasSpecialLines (es : List (DElem ν)) : Bool := has es (some 3) (some 20)
/-- `has_lines` (2973-2976). -/
def hasLines (es : List (DElem ν)) : Bool := has es (some 3) (some 1)
/-- `has_winds` (2978-2981). -/
def hasWinds (es : List (DElem ν)) : Bool := has es (some 6) none
/-- `has_tracks` (2983-2986). -/
def hasTracks (es : List (DElem ν)) : Bool := has es (some 10) none
/-- `has_watch_box` (2988-2991). -/
def hasWatchBox (es : List (DElem ν)) : Bool := has es (some 2) none
/-- `has_sigmet` (2993-2996). -/
def hasSigmet (es : List (DElem ν)) : Bool := has es (some 11) none
/-- `has_met` (2998-3001). -/
def hasMet (es : List (DElem ν)) : Bool := has es (some 15) none

/-- `get_fronts` (3003-3013). -/
def getFronts (es : List (DElem ν)) := getIf (hasFronts es) (pick es (some 1) none)
/-- `get_text` (3015-3025): the class only. -/
def getText (es : List (DElem ν)) := getIf (hasText es) (pick es (some 5) none)
/-- `get_special_text` (3027-3037). -/
def getSpecialText (es : List (DElem ν)) := getIf (hasSpecialText es) (pick es (some 5) (some 21))
/-- `get_symbols` (3039-3049). -/
def getSymbols (es : List (DElem ν)) := getIf (hasSymbols es) (pick es (some 4) none)
/-- `get_special_symbols` (3051-3063). -/
def getSpecialSymbols (es : List (DElem ν)) := getIf (hasSpecialSymbols es) (pick es (some 4) (some 15))
/-- `get_markers` (3065-3075). -/
def getMarkers (es : List (DElem ν)) := getIf (hasMarkers es) (pick es (some 4) (some 19))
/-- `get_special_lines` (3077-3087). -/
def getSpecialLines (es : List (DElem ν)) := getIf (hasSpecialLines es) (pick es (some 3) (some 20))
/-- `get_lines` (3089-3099). -/
def getLines (es : List (DElem ν)) := getIf (hasLines es) (pick es (some 3) (some 1))
/-- `get_tracks` (3101-3111). -/
def getTracks (es : List (DElem ν)) := getIf (hasTracks es) (pick es (some 10) none)
/-- `get_winds` (3113-3123). -/
def getWinds (es : List (DElem ν)) := getIf (hasWinds es) (pick es (some 6) none)
/-- `get_watch_box` (3125-3135). -/
def getWatchBox (es : List (DElem ν)) := getIf (hasWatchBox es) (pick es (some 2) none)
/-- `get_sigmet` (3137-3147). -/
def getSigmet (es : List (DElem ν)) := getIf (hasSigmet es) (pick es (some 11) none)
/-- `get_met` (3149-3159): asks `has_sigmet`. -/
def getMet (es : List (DElem ν)) := getIf (hasSigmet es) (pick es (some 15) none)

/-! ## Groups -/

/-- A `Group` (decode/vgf.py:2803-2862). -/
structure VgGroup (ν : Type) where
  groupType : Option Int := none
  groupNumber : Option Int := none
  elements : List (DElem ν) := []
  size : Nat := 0

/-- `Group.add_element` (decode/vgf.py:2840-2862). -/
def VgGroup.add (g : VgGroup ν) (e : DElem ν) : Except PyErr (VgGroup ν) :=
  if g.groupType ≠ none ∧ g.groupType ≠ some e.hdr.groupType then .error .valueError
  else if g.groupNumber ≠ none ∧ g.groupNumber ≠ some e.hdr.groupNumber then .error .valueError
  else .ok ⟨some e.hdr.groupType, some e.hdr.groupNumber, g.elements ++ [e], g.size + 1⟩

/-- Add several elements in turn. -/
def VgGroup.addAll : VgGroup ν → List (DElem ν) → Except PyErr (VgGroup ν)
  | g, [] => .ok g
  | g, e :: es => do (← g.add e).addAll es

/-- The distinct values of a list in order of first appearance (decode/vgf.py:3180-3182). -/
def firstSeen (ns : List Int) : List Int := ns.foldl (fun acc n => if n ∈ acc then acc else acc ++ [n]) []

/-- `get_group` (decode/vgf.py:3161-3195). -/
def getGroup (es : List (DElem ν)) (groupType : Int) : Except PyErr (Option (List (VgGroup ν))) := do
  let sel := es.filter fun e => decide (e.hdr.groupType = groupType)
  let numbers := firstSeen (sel.map fun e => e.hdr.groupNumber)
  let gs ← (numbers.mergeSort (· ≤ ·)).mapM fun n =>
    ({} : VgGroup ν).addAll (sel.filter fun e => decide (e.hdr.groupNumber = n))
  .ok (orNone (gs.filter fun g => decide (g.size ≠ 0)))

/-! ## Bounding boxes -/

/-- A bounding box `(ymin, xmin, ymax, xmax)`. -/
structure Box where
  ymin : ℚ
  xmin : ℚ
  ymax : ℚ
  xmax : ℚ
  deriving DecidableEq, Repr

/-- The box of the header of an element. -/
def DElem.box (e : DElem ℚ) : Box := ⟨e.hdr.minLat, e.hdr.minLon, e.hdr.maxLat, e.hdr.maxLon⟩

/-- An element with a zero bound is left out (decode/vgf.py:2922-2923). -/
def Box.skipped (b : Box) : Bool := decide (b.ymax = 0 ∨ b.xmax = 0 ∨ b.ymin = 0 ∨ b.xmin = 0)

/-- One turn of the loop of `bounds` (decode/vgf.py:2921-2932). -/
def Box.grow (acc b : Box) : Box :=
  if b.skipped then acc
  else
    { ymax := if b.ymax > acc.ymax then b.ymax else acc.ymax
      xmax := if b.xmax > acc.xmax then b.xmax else acc.xmax
      ymin := if b.ymin < acc.ymin then b.ymin else acc.ymin
      xmin := if b.xmin < acc.xmin then b.xmin else acc.xmin }

/-- `VectorGraphicFile.bounds` (decode/vgf.py:2913-2934). -/
def fileBounds (es : List (DElem ℚ)) : Box := (es.map DElem.box).foldl Box.grow ⟨9999, 9999, -9999, -9999⟩

/-- `VectorGraphicElement.bounds` (decode/vgf.py:635-646) from the coordinates of an element. -/
def elemBounds (lat lon : List ℚ) : Except PyErr Box :=
  match lat, lon with
  | y :: ys, x :: xs =>
    if 1 < (y :: ys).length then .ok ⟨ys.foldl min y, xs.foldl min x, ys.foldl max y, xs.foldl max x⟩
    else .error .notImplemented
  | _ :: ys, [] => if ys = [] then .error .notImplemented else .error .valueError
  | [], _ => .error .notImplemented

end Gempak
