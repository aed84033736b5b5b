import Verif.Model.DMWrite

/-!
# Data management files: the reader

`GempakFile.__init__` (/repo/src/gempakio/decode/gempak.py:311-452) and the parts shared by its subclasses.  The byte order
of the machine running the reader is a parameter (`sys.byteorder`).  `jump_to`, `read_struct`, `read_int`, `read_binary`
are rendered by their effect on the byte string (see `C41_cursor_partial`).  With `prefmt == ''` the `struct` module uses
native alignment; every format below is naturally aligned, so no padding arises.
-/

namespace Gempak

/-- `dm_label` (decode/gempak.py:219-242). -/
structure Label where
  version : Int
  fileHeaders : Int
  fileKeysPtr : Int
  rows : Int
  rowKeys : Int
  rowKeysPtr : Int
  rowHeadersPtr : Int
  columns : Int
  columnKeys : Int
  columnKeysPtr : Int
  columnHeadersPtr : Int
  parts : Int
  partsPtr : Int
  dataMgmtPtr : Int
  dataMgmtLength : Int
  dataBlockPtr : Int
  fileType : Int
  dataSource : Int
  machineType : Int
  missingInt : Int
  missingFloat : F32
  deriving DecidableEq, Repr

/-- `DataSource` values (common.py:107-123). -/
def knownSources : List Int := [0, 1, 2, 3, 4, 5, 6, 7, 99, 100, 102, 103, 104, 105]

/-- The label struct with its converters `FileTypes` and `_data_source` (decode/gempak.py:138-146). -/
def labelOf : List Val → Except PyErr Label
  | [.int a0, .int a1, .int a2, .int a3, .int a4, .int a5, .int a6, .int a7, .int a8, .int a9, .int a10, .int a11,
     .int a12, .int a13, .int a14, .int a15, .int a16, .int a17, .int a18, .int a19, .flt m] =>
    if a16 = 1 ∨ a16 = 2 ∨ a16 = 3 then
      .ok ⟨a0, a1, a2, a3, a4, a5, a6, a7, a8, a9, a10, a11, a12, a13, a14, a15, a16,
        if a17 ∈ knownSources then a17 else 99, a18, a19, m⟩
    else .error .valueError
  | _ => .error .typeError

/-- `dm_label_fmt` (decode/gempak.py:219-242). -/
def labelReadFmts : List Fmt := List.replicate 20 .i32 ++ [.pad 12, .f32]

/-- `read_int(4, endian, False)` at a position: short reads at the end of the buffer are accepted. -/
def readWord (e : Endian) (b : Bytes) (pos : Int) : Int := intFromBytes e false (pySlice b pos (pos + 4))

/-- `_process_gempak_header` (decode/gempak.py:469-475). -/
def readBanner (b : Bytes) : Except PyErr Unit :=
  if b.length < 28 then .error .structError
  else match utf8Dec (b.take 28) with
    | none => .error .unicodeError
    | some t => if t = txt "GEMPAK DATA MANAGEMENT FILE " then .ok () else .error .typeError

/-- The other byte order. -/
def Endian.swap : Endian → Endian
  | .little => .big
  | .big => .little

/-- `_swap_bytes` (decode/gempak.py:454-467): native order when the version word reads as one, else the other order. -/
def readOrder (host : Endian) (b : Bytes) : Endian :=
  if pySlice b 28 32 = encNat host 4 1 then host else host.swap

/-- One part of the file (decode/gempak.py:420-432). -/
structure PartInfo where
  name : Text
  headerLength : Int
  dataType : Int
  paramCount : Int
  deriving DecidableEq, Repr

/-- Parameters of one part (decode/gempak.py:440-452). -/
structure ParamInfo where
  names : List Text
  scale : List Int
  offset : List Int
  bits : List Int
  deriving DecidableEq, Repr

/-- A four-byte text field through `_decode_strip`. -/
def textOf : Val → Except PyErr Text
  | .str b => decodeStrip b
  | _ => .error .typeError

/-- An integer field. -/
def intOf : Val → Except PyErr Int
  | .int i => .ok i
  | _ => .error .typeError

/-- Row or column keys (decode/gempak.py:397-414). -/
def readKeys (e : Endian) (b : Bytes) (ptr n : Int) : Except PyErr (List Text) := do
  let vs ← unpackFrom e (List.replicate n.toNat (.str 4)) b (wordToPosition ptr)
  vs.mapM textOf

/-- Format of a part entry; a negative repeat count is a `struct.error` (decode/gempak.py:420-430). -/
def partFmts (n : Nat) : List Fmt :=
  [.str 4, .pad ((n - 1) * 4), .i32, .pad ((n - 1) * 4), .i32, .pad ((n - 1) * 4), .i32]

/-- Converters of a part entry (`_decode_strip`, `DataTypes`). -/
def partOf : List Val → Except PyErr PartInfo
  | [.str nm, .int h, .int t, .int c] => do
    let name ← decodeStrip nm
    if 1 ≤ t ∧ t ≤ 5 then .ok ⟨name, h, t, c⟩ else .error .valueError
  | _ => .error .typeError

/-- The loop over parts: entry `n` is read at `parts_ptr + n`. -/
def readParts (e : Endian) (b : Bytes) (ptr : Int) (total : Nat) : Nat → Except PyErr (List PartInfo)
  | 0 => .ok []
  | k + 1 => do
    let p ← unpackFrom e (partFmts total) b (wordToPosition (ptr + (total - (k + 1) : Nat))) >>= partOf
    .ok (p :: (← readParts e b ptr total k))

/-- Read `n` one-word items. -/
def readMany {α : Type} (rd : Int → Except PyErr α) : Nat → Int → Except PyErr (List α × Int)
  | 0, p => .ok ([], p)
  | n + 1, p => do
    let a ← rd p
    let r ← readMany rd n (p + 4)
    .ok (a :: r.1, r.2)

/-- Read the items of all parts. -/
def readPerPart {α : Type} (rd : Int → Except PyErr α) : List Nat → Int → Except PyErr (List (List α) × Int)
  | [], p => .ok ([], p)
  | n :: ns, p => do
    let a ← readMany rd n p
    let r ← readPerPart rd ns a.2
    .ok (a.1 :: r.1, r.2)

/-- One four-byte name. -/
def readName (e : Endian) (b : Bytes) (p : Int) : Except PyErr Text := do
  match ← unpackFrom e [.str 4] b p with
  | [v] => textOf v
  | _ => .error .indexError

/-- One integer. -/
def readI (e : Endian) (b : Bytes) (p : Int) : Except PyErr Int := do
  match ← unpackFrom e [.i32] b p with
  | [v] => intOf v
  | _ => .error .indexError

/-- Zip the four attribute lists. -/
def zipParams : List (List Text) → List (List Int) → List (List Int) → List (List Int) → List ParamInfo
  | a :: as, b :: bs, c :: cs, d :: ds => ⟨a, b, c, d⟩ :: zipParams as bs cs ds
  | _, _, _, _ => []

/-- Parameter attributes in the order of `PARAM_ATTR`: name, scale, offset, bits (decode/gempak.py:46-51, 435-452). -/
def readParams (e : Endian) (b : Bytes) (ptr : Int) (parts : List PartInfo) : Except PyErr (List ParamInfo) := do
  let counts := parts.map fun p => p.paramCount.toNat
  let names ← readPerPart (readName e b) counts (wordToPosition ptr)
  let scale ← readPerPart (readI e b) counts names.2
  let offset ← readPerPart (readI e b) counts scale.2
  let bits ← readPerPart (readI e b) counts offset.2
  .ok (zipParams names.1 scale.1 offset.1 bits.1)

/-- `grid_nav_fmt` (decode/gempak.py:244-259). -/
def navReadFmts : List Fmt := [.f32, .str 3, .pad 1] ++ List.replicate 11 .f32 ++ [.pad 972]

/-- `grid_anl_fmt1` (decode/gempak.py:261-280). -/
def anl1ReadFmts : List Fmt := List.replicate 4 .f32 ++ [.pad 4] ++ List.replicate 12 .f32 ++ [.pad 444]

/-- `grid_anl_fmt2` (decode/gempak.py:282-302). -/
def anl2ReadFmts : List Fmt := List.replicate 18 .f32 ++ [.pad 440]

/-- Navigation and analysis blocks. -/
structure Blocks where
  keys : List Val
  nav : List Val
  anl : Option (List Val)
  deriving DecidableEq, Repr

/-- Is the second field of the navigation block decodable text (`bytes.decode`)? -/
def navDecodable : List Val → Bool
  | _ :: .str p :: _ => (utf8Dec p).isSome
  | _ => false

/-- File keys, navigation and analysis block (decode/gempak.py:335-388).  The sizes of the analysis types are compared as
single precision patterns (`1.0`, `2.0`). -/
def readBlocks (e : Endian) (b : Bytes) (l : Label) : Except PyErr (Option Blocks) :=
  if l.fileHeaders > 0 then do
    let n := l.fileHeaders.toNat
    let fk := List.replicate n (.str 4) ++ List.replicate n .i32 ++ List.replicate n .i32
    let p := wordToPosition l.fileKeysPtr
    let keys ← unpackFrom e fk b p
    let p := p + fmtSize fk
    if readWord e b p ≠ 256 then .error .valueError else do
    let nav ← unpackFrom e navReadFmts b (p + 4)
    if ¬ navDecodable nav then .error .unicodeError else do
    let p := p + 4 + fmtSize navReadFmts
    if readWord e b p ≠ 128 then .error .valueError else do
    let p := p + 4
    match ← unpackFrom e [.f32] b p with
    | [.flt t] =>
      if t = 0x3F800000#32 then do .ok (some ⟨keys, nav, some (← unpackFrom e anl1ReadFmts b p)⟩)
      else if t = 0x40000000#32 then do .ok (some ⟨keys, nav, some (← unpackFrom e anl2ReadFmts b p)⟩)
      else .ok (some ⟨keys, nav, none⟩)
    | _ => .error .indexError
  else .ok none

/-- Everything `GempakFile.__init__` learns from the file. -/
structure DMInfo where
  order : Endian
  label : Label
  blocks : Option Blocks
  dataMgmt : List Val
  rowKeys : List Text
  columnKeys : List Text
  parts : List PartInfo
  params : List ParamInfo

/-- `GempakFile.__init__` (decode/gempak.py:311-452). -/
def readDM (host : Endian) (b : Bytes) : Except PyErr DMInfo := do
  readBanner b
  let e := readOrder host b
  let l ← unpackFrom e labelReadFmts b 28 >>= labelOf
  let blocks ← readBlocks e b l
  let dm ← unpackFrom e (List.replicate 32 .i32) b (wordToPosition l.dataMgmtPtr)
  let rk ← readKeys e b l.rowKeysPtr l.rowKeys
  let ck ← readKeys e b l.columnKeysPtr l.columnKeys
  if l.parts < 1 then .error .structError else do
  let parts ← readParts e b l.partsPtr l.parts.toNat l.parts.toNat
  let params ← readParams e b (l.partsPtr + l.parts * 4) parts
  .ok ⟨e, l, blocks, dm, rk, ck, parts, params⟩

/-- Row or column headers (e.g. decode/gempak.py:2190-2208): a header is kept when its flag reads `9999`; after any other
flag only the flag itself has been consumed. -/
def readHeaders {α : Type} (e : Endian) (b : Bytes) (fs : List Fmt) (conv : List Val → Except PyErr α) :
    Nat → Int → Except PyErr (List α)
  | 0, _ => .ok []
  | n + 1, p =>
    let q := p + (pySlice b p (p + 4)).length
    if readWord e b p = 9999 then do
      let h ← unpackFrom e fs b q >>= conv
      .ok (h :: (← readHeaders e b fs conv n (q + fmtSize fs)))
    else readHeaders e b fs conv n q

/-- The word in the pointer table for a cell and part. -/
def cellPointer (i : DMInfo) (irow icol iprt : Nat) : Int :=
  i.label.dataBlockPtr + irow * i.label.columns * i.label.parts + (icol * i.label.parts + iprt)

/-- Data pointer of a cell. -/
def dataPointer (i : DMInfo) (b : Bytes) (irow icol iprt : Nat) : Int :=
  readWord i.order b (wordToPosition (cellPointer i irow icol iprt))

/-- The `lendat` data words after the record header, as single precision values (e.g. decode/gempak.py:2502-2536): length
word, header words skipped, then `lendat = length - header_length` words. -/
def readRecord (i : DMInfo) (b : Bytes) (part : PartInfo) (dataPtr : Int) (fmt : Fmt) : Except PyErr (List Val) :=
  let p := wordToPosition dataPtr
  let len := readWord i.order b p
  let q := p + (pySlice b p (p + 4)).length
  let lendat := len - part.headerLength
  if lendat < 0 then .error .structError
  else unpackFrom i.order (List.replicate lendat.toNat fmt) b (q + wordToPosition (part.headerLength + 1))

end Gempak
