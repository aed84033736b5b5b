import Verif.Model.GridRead
import Verif.Model.SoundingData
import Verif.Model.Surface
import Verif.Model.Tools

/-!
# The readers as they move through their buffer

The constructors and queries of /repo/src/gempakio/decode/gempak.py:311-467, 616-680, 806-954, 956-1150, 1156-1367, 2186-2559 once more, now
with the `IOBuffer` of the file (its place and its bookmarks) as a state that is carried from one call to the next.  The other models of the readers compute
the positions; that both agree is what C122 is about.
-/

namespace Gempak

/-- Code working on a buffer; an exception leaves the buffer as it is at that moment. -/
abbrev Cur (ε α : Type) := ExceptT ε (StateM IOBuffer) α

namespace Cur
variable {ε α : Type}

/-- Exceptions of other code. -/
def result (x : Except ε α) : Cur ε α := fun s => (x, s)

/-- Run code with fewer kinds of exceptions. -/
def mapErr {δ : Type} (g : ε → δ) (c : Cur ε α) : Cur δ α := fun s =>
  match c s with
  | (.ok a, t) => (.ok a, t)
  | (.error e, t) => (.error (g e), t)

/-- `set_mark` (tools.py:92-95). -/
def mark : Cur ε Nat := fun s => (.ok s.setMark.2, s.setMark.1)

/-- `jump_to` (tools.py:97-99). -/
def jump (m : Nat) (off : Int) : Cur PyErr Unit := fun s =>
  match s.jumpTo m off with
  | .ok t => (.ok (), t)
  | .error e => (.error e, s)

/-- `read` (tools.py:154-158). -/
def bytes (n : Int) : Cur ε Bytes := fun s => (.ok (s.read (some n)).2, (s.read (some n)).1)

/-- `read_int` of four bytes, unsigned (tools.py:144-146). -/
def word (e : Endian) : Cur ε Int := fun s => (.ok (s.readInt 4 e false).2, (s.readInt 4 e false).1)

/-- `read_struct` (tools.py:114-118): the place moves only after the fields are converted. -/
def fields (e : Endian) (fs : List Fmt) (conv : List Val → Except PyErr α) : Cur PyErr α := fun s =>
  match unpackFrom e fs s.data s.offset >>= conv with
  | .ok a => (.ok a, s.skip (some (fmtSize fs)))
  | .error e => (.error e, s)

/-- `read_struct` without converters. -/
def vals (e : Endian) (fs : List Fmt) : Cur PyErr (List Val) := fields e fs .ok

/-- `for ... in range(n)` collecting results. -/
def times (n : Nat) (c : Nat → Cur ε α) : Cur ε (List α) := (List.range n).mapM c

end Cur

open Cur

/-! ## The file -/

/-- `_process_gempak_header` (decode/gempak.py:469-475). -/
def curBanner : Cur PyErr Unit :=
  fields .little [.str 28] fun vs =>
    match vs with
    | [.str t] =>
      match utf8Dec t with
      | none => .error .unicodeError
      | some x => if x = txt "GEMPAK DATA MANAGEMENT FILE " then .ok () else .error .typeError
    | _ => .error .typeError

/-- `_swap_bytes` (decode/gempak.py:454-467). -/
def swapOrder (host : Endian) (w : Bytes) : Endian := if w = encNat host 4 1 then host else host.swap

/-- File keys, navigation and analysis block (decode/gempak.py:335-388). -/
def curBlocks (start : Nat) (e : Endian) (l : Label) : Cur PyErr (Option Blocks) :=
  if l.fileHeaders > 0 then do
    let n := l.fileHeaders.toNat
    jump start (wordToPosition l.fileKeysPtr)
    let keys ← vals e (List.replicate n (.str 4) ++ List.replicate n .i32 ++ List.replicate n .i32)
    let navSize ← word e
    if navSize ≠ 256 then result (.error .valueError) else do
    let nav ← fields e navReadFmts fun vs => if ¬ navDecodable vs then .error .unicodeError else .ok vs
    let anlSize ← word e
    let anlStart ← mark
    if anlSize ≠ 128 then result (.error .valueError) else do
    let t ← fields e [.f32] fun vs => match vs with | [.flt t] => .ok t | _ => .error .indexError
    jump anlStart 0
    if t = 0x3F800000#32 then do return some ⟨keys, nav, some (← vals e anl1ReadFmts)⟩
    else if t = 0x40000000#32 then do return some ⟨keys, nav, some (← vals e anl2ReadFmts)⟩
    else return some ⟨keys, nav, none⟩
  else return none

/-- Row or column keys (decode/gempak.py:396-414). -/
def curKeys (start : Nat) (e : Endian) (ptr n : Int) : Cur PyErr (List Text) := do
  jump start (wordToPosition ptr)
  fields e (List.replicate n.toNat (.str 4)) fun vs => vs.mapM textOf

/-- The loop over parts (decode/gempak.py:431-433): `n` counts from one; after each part the jump to the next one. -/
def curParts (start : Nat) (e : Endian) (ptr : Int) (total : Nat) : Cur PyErr (List PartInfo) := do
  jump start (wordToPosition ptr)
  times total fun k => do
    let p ← fields e (partFmts total) partOf
    jump start (wordToPosition (ptr + ((k + 1 : Nat) : Int)))
    return p

/-- One attribute of all parameters (decode/gempak.py:443-452). -/
def curAttr {α : Type} (one : Cur PyErr α) (counts : List Nat) : Cur PyErr (List (List α)) := counts.mapM fun n => times n fun _ => one

/-- One name (decode/gempak.py:448-450). -/
def curName (e : Endian) : Cur PyErr Text := fields e [.str 4] fun vs => match vs with | [v] => textOf v | _ => .error .indexError

/-- One number (decode/gempak.py:452). -/
def curNum (e : Endian) : Cur PyErr Int := fields e [.i32] fun vs => match vs with | [v] => intOf v | _ => .error .indexError

/-- The parameters (decode/gempak.py:435-452). -/
def curParams (start : Nat) (e : Endian) (ptr : Int) (parts : List PartInfo) : Cur PyErr (List ParamInfo) := do
  jump start (wordToPosition ptr)
  let counts := parts.map fun p => p.paramCount.toNat
  let names ← curAttr (curName e) counts
  let scale ← curAttr (curNum e) counts
  let offset ← curAttr (curNum e) counts
  let bits ← curAttr (curNum e) counts
  return zipParams names scale offset bits

/-- Everything after the label (decode/gempak.py:335-452). -/
def curStructure (start : Nat) (e : Endian) (l : Label) : Cur PyErr DMInfo := do
  let blocks ← curBlocks start e l
  jump start (wordToPosition l.dataMgmtPtr)
  let dm ← vals e (List.replicate 32 .i32)
  let rk ← curKeys start e l.rowKeysPtr l.rowKeys
  let ck ← curKeys start e l.columnKeysPtr l.columnKeys
  if l.parts < 1 then result (.error .structError) else do
  let parts ← curParts start e l.partsPtr l.parts.toNat
  let params ← curParams start e (l.partsPtr + l.parts * 4) parts
  return ⟨e, l, blocks, dm, rk, ck, parts, params⟩

/-- `GempakFile.__init__` (decode/gempak.py:311-452): the mark of the beginning and what was read. -/
def curDM (host : Endian) : Cur PyErr (Nat × DMInfo) := do
  let start ← mark
  curBanner
  let here ← mark
  let w ← bytes 4
  let e := swapOrder host w
  jump here 0
  let l ← fields e labelReadFmts labelOf
  let i ← curStructure start e l
  return (start, i)

/-- The loop over headers (e.g. decode/gempak.py:636-638). -/
def curHeaderLoop {α : Type} (e : Endian) (fs : List Fmt) (conv : List Val → Except PyErr α) : Nat → Cur PyErr (List α)
  | 0 => return []
  | n + 1 => do
    let w ← word e
    if w = 9999 then do
      let h ← fields e fs conv
      return h :: (← curHeaderLoop e fs conv n)
    else curHeaderLoop e fs conv n

/-- Row or column headers (e.g. decode/gempak.py:632-638). -/
def curHeaders {α : Type} (start : Nat) (e : Endian) (fs : List Fmt) (conv : List Val → Except PyErr α) (n : Nat) (ptr : Int) :
    Cur PyErr (List α) := do
  jump start (wordToPosition ptr)
  curHeaderLoop e fs conv n

/-- The pointer of a cell (e.g. decode/gempak.py:1096-1102). -/
def curPointer (start : Nat) (i : DMInfo) (irow icol iprt : Nat) : Cur PyErr Int := do
  jump start (wordToPosition (cellPointer i irow icol iprt))
  word i.order

/-- To the length word of a record and past its header (e.g. decode/gempak.py:1103-1106): the length. -/
def curRecord (start : Nat) (i : DMInfo) (part : PartInfo) (ptr : Int) : Cur PyErr Int := do
  jump start (wordToPosition ptr)
  let len ← word i.order
  let h ← mark
  jump h (wordToPosition (part.headerLength + 1))
  return len

/-! ## Grid files -/

/-- `GempakGrid.__init__` (decode/gempak.py:616-680). -/
def curOpenGrid (host : Endian) : Cur PyErr (Nat × GridFileR) := do
  let (start, i) ← curDM host
  result (checkKeys i.rowKeys)
  let _ ← curHeaders start i.order (i.rowKeys.map fun _ => Fmt.i32) (fun vs => vs.mapM intOf) i.label.rows.toNat i.label.rowHeadersPtr
  result (checkKeys i.columnKeys)
  let cols ← curHeaders start i.order (i.columnKeys.map fun k => (gridKey k).fmt) (convGHeader i.order i.columnKeys) i.label.columns.toNat
    i.label.columnHeadersPtr
  let gs ← result (gridInfos cols 0)
  let size ← result (navSize i.blocks)
  let s ← get
  return (start, ⟨i, s.data, cols, gs, size⟩)

/-- `lendat` words. -/
def curWords (e : Endian) (n : Int) (fmt : Fmt) : Cur PyErr (List Val) :=
  if n < 0 then result (.error .structError) else vals e (List.replicate n.toNat fmt)

/-- The GRIB branch of `_unpack_grid` (decode/gempak.py:903-938) with masking. -/
def curGribGrid (i : DMInfo) (len hdr kx ky : Int) : Cur PyErr (Option (List (List (Option ℚ)))) := do
  match ← vals i.order [.i32, .i32, .i32], ← vals i.order [.f32, .f32] with
  | [.int bits, .int flag, .int kxky], [.flt r, .flt s] => do
    if kxky < 0 then result (.error .valueError) else do
    let vs ← curWords i.order (len - hdr - 6) .i32
    result do
      let ws ← vs.mapM intOf
      let rv ← fieldValue r
      let sv ← fieldValue s
      let miss ← fieldValue i.label.missingFloat
      match ← Grib.readGrib ws bits.toNat kxky.toNat rv sv (if flag ≠ 0 then some miss else none) with
      | none => .ok none
      | some l => do
        let g ← reshape ky.toNat kx.toNat l
        .ok (some (maskMissing (some miss) g))
  | _, _ => result (.error .typeError)

/-- The DIFF branch (decode/gempak.py:832-901). -/
def curDiffGrid (i : DMInfo) (len hdr kx ky : Int) : Cur PyErr (Option (List (List (Option ℚ)))) := do
  match ← vals i.order [.i32, .i32, .i32, .i32], ← vals i.order [.f32, .f32, .f32] with
  | [.int bits, .int flag, .int _, .int _], [.flt r, .flt s, .flt d] => do
    let vs ← curWords i.order (len - hdr - 8) .i32
    result do
      let ws ← vs.mapM intOf
      let rv ← fieldValue r
      let sv ← fieldValue s
      let dv ← fieldValue d
      let miss ← fieldValue i.label.missingFloat
      match ← unpackDiff ⟨bits.toNat, flag ≠ 0, rv, sv, dv, miss⟩ ws kx.toNat ky.toNat with
      | none => .ok none
      | some g => .ok (some (maskMissing (some miss) g))
  | _, _ => result (.error .typeError)

/-- Plain reals (decode/gempak.py:808-819). -/
def curRawGrid (i : DMInfo) (len hdr kx ky : Int) : Cur PyErr (Option (List (List (Option ℚ)))) :=
  if len - hdr - 1 > 1 then do
    let vs ← curWords i.order (len - hdr - 1) .f32
    result do
      let g ← reshape ky.toNat kx.toNat (vs.map rawValue)
      .ok (some (g.map (List.map fun v => if v = f32Value i.label.missingFloat then none else v)))
  else return none

/-- `_unpack_grid` (decode/gempak.py:806-954). -/
def curUnpackGrid (i : DMInfo) (packing len hdr kx ky : Int) : Cur PyErr (Option (List (List (Option ℚ)))) :=
  if packing = 0 then curRawGrid i len hdr kx ky
  else if packing = 1 ∨ packing = 4 then curGribGrid i len hdr kx ky
  else if packing = 3 then curDiffGrid i len hdr kx ky
  else if packing = 2 ∨ packing = 5 then result (.error .notImplemented)
  else result (.error .valueError)

/-- One part of one column (decode/gempak.py:1095-1116). -/
def curGridData (start : Nat) (i : DMInfo) (part : PartInfo) (icol iprt : Nat) (kx ky : Int) : Cur PyErr (Option (List (List (Option ℚ)))) := do
  let ptr ← curPointer start i 0 icol iprt
  let len ← curRecord start i part ptr
  let packing ← word i.order
  curUnpackGrid i packing len part.headerLength kx ky

/-- The grids of one column. -/
def curColumn (lower : Text → Text) (start : Nat) (f : GridFileR) (g : GridInfo) : List PartInfo → Nat → Cur PyErr (List GridObj)
  | [], _ => return []
  | p :: r, iprt => do
    match f.size with
    | none => result (.error .attributeError)
    | some s => do
      let d ← curGridData start f.info p g.number iprt s.1 s.2
      let t ← curColumn lower start f g r (iprt + 1)
      match d with
      | some x => return (⟨varName lower g.parm, g.time1, g.type, lower g.coord, g.level1, x⟩ :: t)
      | none => return t

/-- `gdxarray` (decode/gempak.py:1049-1150). -/
def curGdxarray (upper lower : Text → Text) (start : Nat) (f : GridFileR) (q : GridQuery) : Cur PyErr (List GridObj) := do
  let m ← result (selectGrids upper q f.grids)
  let r ← m.mapM fun g => curColumn lower start f g f.info.parts 0
  return r.flatten

/-! ## Station files -/

/-- Beginning of `GempakSounding.__init__` and `GempakSurface.__init__` (decode/gempak.py:1156-1204, 2186-2208). -/
def curStation (rowKind colKind : Text → KeyKind) (host : Endian) : Cur PyErr (Nat × StationFile) := do
  let (start, i) ← curDM host
  result (checkKeys i.rowKeys)
  let rows ← curHeaders start i.order (i.rowKeys.map fun k => (rowKind k).fmt) (convHeader rowKind i.rowKeys) i.label.rows.toNat
    i.label.rowHeadersPtr
  result (checkKeys i.columnKeys)
  let cols ← curHeaders start i.order (i.columnKeys.map fun k => (colKind k).fmt) (convHeader colKind i.columnKeys) i.label.columns.toNat
    i.label.columnHeadersPtr
  let s ← get
  return (start, ⟨i, s.data, rows, cols⟩)

/-- Words of a record (e.g. decode/gempak.py:2508-2536). -/
def curRecordWords (start : Nat) (i : DMInfo) (part : PartInfo) (ptr : Int) (fmt : Fmt) : Cur PyErr (List Val) := do
  let len ← curRecord start i part ptr
  curWords i.order (len - part.headerLength) fmt

/-- Text of a record. -/
def curText (start : Nat) (i : DMInfo) (part : PartInfo) (ptr : Int) : Cur PyErr Bytes := do
  let len ← curRecord start i part ptr
  if (len - part.headerLength) * 4 < 0 then result (.error .structError)
  else fields i.order [.str ((len - part.headerLength) * 4).toNat] fun vs => match vs with | [.str s] => .ok s | _ => .error .typeError

/-- Packed reals of a record. -/
def curReals (start : Nat) (i : DMInfo) (part : PartInfo) (params : ParamInfo) (ptr : Int) : Cur PyErr (List RealVal) := do
  let vs ← curRecordWords start i part ptr .i32
  result do
    let ws ← vs.mapM intOf
    unpackReal ws (realAttrs params) ws.length

/-- One part of a surface report (e.g. decode/gempak.py:2508-2549). -/
def curSurfacePart (start : Nat) (i : DMInfo) (part : PartInfo) (params : ParamInfo) (ptr : Int) : Cur PyErr (List (Text × HVal)) :=
  if part.dataType = 1 then do
    let vs ← curRecordWords start i part ptr .f32
    result do
      let fs ← vs.mapM fltOf
      pickEach .flt fs params.names 0
  else if part.dataType = 4 then do
    let rs ← curReals start i part params ptr
    result (pickEach .real rs params.names 0)
  else if part.dataType = 3 then do
    let s ← curText start i part ptr
    result (pickText s params.names)
  else result (.error .notImplemented)

/-- One part of a merged sounding (decode/gempak.py:1257-1296). -/
def curSoundingPart (start : Nat) (i : DMInfo) (part : PartInfo) (params : ParamInfo) (ptr : Int) : Cur PyErr (List (Text × HVal)) :=
  if part.dataType = 1 then do
    let vs ← curRecordWords start i part ptr .f32
    result do
      let fs ← vs.mapM fltOf
      .ok (params.names.zipIdx.map fun n => (n.1, .arr (stride n.2 params.names.length fs)))
  else if part.dataType = 4 then do
    let rs ← curReals start i part params ptr
    return params.names.zipIdx.map fun n => (n.1, .rarr (stride n.2 params.names.length rs))
  else result (.error .notImplemented)

/-- One part of an unmerged sounding (decode/gempak.py:1330-1364). -/
def curUnmergedPart (start : Nat) (i : DMInfo) (part : PartInfo) (params : ParamInfo) (ptr : Int) : Cur PyErr (List (Text × HVal)) :=
  if part.dataType = 3 then do
    let s ← curText start i part ptr
    result (pickText s params.names)
  else curSoundingPart start i part params ptr

/-- The loop over parts (e.g. decode/gempak.py:2502-2549). -/
def curItems (readPart : PartInfo → ParamInfo → Int → Cur PyErr (List (Text × HVal))) (start : Nat) (i : DMInfo) (irow icol : Nat) :
    List (PartInfo × ParamInfo) → Nat → Cur PyErr (List (Text × HVal))
  | [], _ => return []
  | (p, a) :: r, iprt => do
    let ptr ← curPointer start i irow icol iprt
    if ptr = 0 then curItems readPart start i irow icol r (iprt + 1)
    else do
      let x ← readPart p a ptr
      return x ++ (← curItems readPart start i irow icol r (iprt + 1))

/-! ## Surface files -/

/-- Whether a part of a cell has data (decode/gempak.py:2216-2227): all parts are looked at. -/
def curHasData (start : Nat) (i : DMInfo) (irow icol : Nat) : Cur PyErr Bool := do
  let ps ← times i.parts.length fun k => curPointer start i irow icol k
  return ps.any fun p => p ≠ 0

/-- The cells listed; every cell is looked at before its entry is made. -/
def curListed (here : CellRef → Cur PyErr Bool) (info : CellRef → Except PyErr SiteInfo) : List CellRef → Cur PyErr (List SiteInfo)
  | [] => return []
  | c :: r => do
    if ← here c then do
      let x ← result (info c)
      return x :: (← curListed here info r)
    else curListed here info r

/-- `GempakSurface.__init__` (decode/gempak.py:2186-2298). -/
def curOpenSurface (host : Endian) : Cur PyErr (Nat × SurfaceReader) := do
  let (start, f) ← curStation sfKey sfKey host
  let t ← result (surfaceType f.info f.rows.length)
  let infos ← curListed (fun c => curHasData start f.info c.row c.col) surfaceInfo (t.cells f.rows f.cols)
  return (start, ⟨f, t, infos⟩)

/-- The reports of one cell (decode/gempak.py:2351-2559). -/
def curUnpackCell (start : Nat) (f : SurfaceReader) (irow icol : Nat) : Cur PyErr (List (List (Text × HVal))) := do
  let (site, time) ← result (f.heads irow icol)
  let s ← result (headItems site siteKeys)
  let t ← result (headItems time [txt "DATE", txt "TIME"])
  let items ← curItems (curSurfacePart start f.info) start f.info irow icol (f.info.parts.zip f.info.params) 0
  result (
    let report := s ++ t
    if f.type = .standard then
      let values := dictUpdate [] items
      if (dictGet values (txt "TEXT")).isSome ∨ (dictGet values (txt "SPCL")).isSome then processText report values
      else .ok [dictUpdate report values]
    else .ok [dictUpdate report items])

/-- `sfjson` (decode/gempak.py:2751-2892). -/
def curSfjson (start : Nat) (f : SurfaceReader) (upper lower : Text → Text) (q : SiteQuery) (special : Bool) : Cur PyErr (List SfObj) := do
  let m ← result (selectSites upper (StrArg.upperAll upper) q f.sfinfo)
  let data ← m.mapM fun s => curUnpackCell start f s.row s.col
  result ((data.flatten.filter fun stn => special || !(dictGet stn (txt "SPCL")).isSome).mapM (sfObject lower))

/-- `nearest_time` (decode/gempak.py:2635-2749). -/
def curNearest (start : Nat) (f : SurfaceReader) (upper lower : Text → Text) (t : Date × Clock) (q : NearQuery) (special : Bool) :
    Cur PyErr (List SfObj) :=
  if q.nargs = 0 then result (.error .valueError)
  else if q.nargs > 1 then result (.error .notImplemented)
  else do
    let a ← (q.ids upper f.infos).mapM fun id => do
      let r ← curSfjson start f upper lower { stationId := some (.one id) } special
      result (nearestOf t r)
    let b ← (q.stationNumber.getD []).mapM fun n => do
      let r ← curSfjson start f upper lower { stationNumber := some [n] } special
      result (nearestOf t r)
    return a ++ b

/-! ## Sounding files -/

/-- `GempakSounding.__init__` (decode/gempak.py:1156-1234). -/
def curOpenSounding (host : Endian) : Cur PyErr (Nat × SoundingReader) := do
  let (start, f) ← curStation timeKey siteKey host
  let merged := f.info.parts.any fun p => decide (p.name = txt "SNDT")
  let infos ← curListed (fun c => do return decide ((← curPointer start f.info c.row c.col 0) ≠ 0)) soundingInfo (standardCells f.rows f.cols)
  return (start, ⟨f, merged, infos⟩)

/-- One sounding of `_unpack_merged` (decode/gempak.py:1240-1299). -/
def curUnpackMerged (start : Nat) (f : SoundingReader) (irow icol : Nat) : Cur PyErr (List (Text × HVal)) := do
  let row ← result (snHeaderAt f.rows irow)
  let col ← result (snHeaderAt f.cols icol)
  let s ← result (headItems col snKeys)
  let t ← result (headItems row [txt "DATE", txt "TIME"])
  let items ← curItems (curSoundingPart start f.info) start f.info irow icol (f.info.parts.zip f.info.params) 0
  return dictUpdate (s ++ t) items

/-- `snxarray` for merged files (decode/gempak.py:2011-2180). -/
def curDatasets (start : Nat) (f : SoundingReader) (upper lower : Text → Text) (q : SiteQuery) : Cur PyErr (List (SnData LevNum)) := do
  let m ← result (selectSites upper (StrArg.upperOne upper) q f.sninfo)
  if ¬ f.merged then result (.error .notImplemented)
  else do
    let data ← m.mapM fun s => curUnpackMerged start f s.row s.col
    result do
      let os ← data.mapM (snObject lower)
      os.mapM (snDataset f.info.label.missingFloat)

/-- The loop over the parts of an unmerged sounding (decode/gempak.py:1318-1364). -/
def curUnmergedParts (start : Nat) (i : DMInfo) (irow icol : Nat) : List (PartInfo × ParamInfo) → Nat → List (Text × List (Text × HVal)) →
    Cur PyErr (List (Text × List (Text × HVal)))
  | [], _, acc => return acc
  | (p, a) :: r, iprt, acc => do
    let ptr ← curPointer start i irow icol iprt
    if ptr = 0 then curUnmergedParts start i irow icol r (iprt + 1) acc
    else do
      let x ← curUnmergedPart start i p a ptr
      curUnmergedParts start i irow icol r (iprt + 1) (dictSet acc p.name (dictUpdate [] x))

section
variable {α : Type} [Field α] [LinearOrder α] [FloorRing α]

/-- One sounding of `_unpack_unmerged` (decode/gempak.py:1301-1367, 1999-2009). -/
def curUnpackUnmerged (c : Calc α) (e : LevEnv α) (fuel start : Nat) (f : SoundingReader) (irow icol : Nat) : Cur Stop (Option (Merged α)) := do
  let row ← result (toRun (snHeaderAt f.rows irow))
  let col ← result (toRun (snHeaderAt f.cols icol))
  let s ← result (toRun (headItems col snKeys))
  let t ← result (toRun (headItems row [txt "DATE", txt "TIME"]))
  let ps ← mapErr Stop.raised (curUnmergedParts start f.info irow icol (f.info.parts.zip f.info.params) 0 [])
  result do
    let selv ← toRun (headInt col (txt "SELV"))
    match ← mergeSounding c (e.flt f.info.label.missingFloat) fuel (e.parts selv ps) with
    | none => .ok none
    | some m => do
      let ts ← toRun (textParts.mapM (textOfPart ps))
      .ok (some ⟨s ++ t, m, ts.filterMap id⟩)

/-- `snxarray` for unmerged files (decode/gempak.py:2011-2180). -/
def curUnmergedDatasets (c : Calc α) (e : LevEnv α) (fuel start : Nat) (f : SoundingReader) (upper lower : Text → Text) (q : SiteQuery) :
    Cur Stop (List (SnData α)) := do
  let m ← result (toRun (selectSites upper (StrArg.upperOne upper) q f.sninfo))
  let data ← m.mapM fun s => curUnpackUnmerged c e fuel start f s.row s.col
  result ((data.filterMap id).mapM fun x => toRun (mergedDataset lower (e.flt f.info.label.missingFloat) x))

end

/-! ## One file, many calls -/

/-- Calls one after the other on an opened file: each starts with the buffer as the one before left it, also when that one raised. -/
def runCalls {ι ε β : Type} (call : ι → Cur ε β) : List ι → IOBuffer → List (Except ε β)
  | [], _ => []
  | q :: r, s => (call q s).1 :: runCalls call r (call q s).2

/-- Open a file of these bytes and make the calls. -/
def session {φ ι ε β : Type} (start : Cur PyErr φ) (call : φ → ι → Cur ε β) (b : Bytes) (calls : List ι) :
    Except PyErr (List (Except ε β)) :=
  match start (IOBuffer.ofSource b) with
  | (.error e, _) => .error e
  | (.ok f, s) => .ok (runCalls (call f) calls s)

/-- Calls for the reports of a surface file. -/
inductive SfCall where
  | json (q : SiteQuery) (special : Bool)
  | nearest (t : Date × Clock) (q : NearQuery) (special : Bool)

/-- One such call. -/
def curSfCall (upper lower : Text → Text) (start : Nat) (f : SurfaceReader) : SfCall → Cur PyErr (List SfObj)
  | .json q special => curSfjson start f upper lower q special
  | .nearest t q special => curNearest start f upper lower t q special

end Gempak
