import Verif.Model.Text
import Verif.Model.Tools

/-!
# Data management files: the writer

`GempakStream` and `DataManagementFile` of /repo/src/gempakio/encode/gempak.py:144-526.  The byte order is a parameter:
the code always writes little-endian (`'<'`); the big-endian run describes the file the same program would write on a
big-endian machine, which the reader must also accept.
-/

namespace Gempak

/-- `BytesIO.write` of `bs` at offset `p`: overwrite, zero-extend when the offset is past the end. -/
def writeAt (buf : Bytes) (p : Nat) (bs : Bytes) : Bytes :=
  if bs = [] then buf else buf.take p ++ List.replicate (p - buf.length) 0 ++ bs ++ buf.drop (p + bs.length)

/-- `GempakStream` (encode/gempak.py:144-172). -/
structure Stream where
  buf : Bytes
  pos : Nat

namespace Stream

/-- Raw write. -/
def write (s : Stream) (bs : Bytes) : Stream := ⟨writeAt s.buf s.pos bs, s.pos + bs.length⟩

/-- `jump_to` (encode/gempak.py:150-152), words counted from one. -/
def jumpTo (s : Stream) (word : Nat) : Stream := { s with pos := word * 4 - 4 }

/-- `word` (encode/gempak.py:154-156). -/
def word (s : Stream) : Nat := (s.pos + 4) / 4

/-- `write_struct` (encode/gempak.py:170-172). -/
def putStruct (e : Endian) (fs : List Fmt) (vs : List Val) (s : Stream) : Except PyErr Stream := do
  .ok (s.write (← packFmts e fs vs))

/-- The format of a one-word value. -/
def _root_.Gempak.Val.fmt : Val → Fmt
  | .int _ => .i32
  | .flt _ => .f32
  | .str _ => .str 4

/-- `write_int`, `write_float`, `write_string` (encode/gempak.py:158-168), by the kind of value. -/
def putWord (e : Endian) (v : Val) (s : Stream) : Except PyErr Stream := s.putStruct e [v.fmt] [v]

/-- A loop of word writes. -/
def putWords (e : Endian) : List Val → Stream → Except PyErr Stream
  | [], s => .ok s
  | v :: vs, s => do putWords e vs (← s.putWord e v)

end Stream

/-- The value handed to `write_string`: padded with blanks to four characters, then encoded. -/
def nameWord (s : Text) : Val := .str (utf8 (ljust 4 s))

/-- Entry of `_file_headers`. -/
structure FileHeader where
  name : Text
  length : Nat
  type : Int

/-- Entry of `_parts_dict`. -/
structure Part where
  name : Text
  header : Int
  type : Int
  params : List Text
  scale : List Int
  offset : List Int
  bits : List Int

/-- Attributes set by `_set_pointers`. -/
structure Pointers where
  rowKeys : Nat
  columnKeys : Nat
  fileKeys : Nat
  rowHeaders : Nat
  columnHeaders : Nat
  parts : Nat
  dataBlock : Nat
  nextFree : Nat
  deriving DecidableEq, Repr

/-- A file being built: `DataManagementFile` attributes (encode/gempak.py:267-291) and what the methods of the subclass
write (`_write_file_headers`, `_write_row_headers`, `_write_column_headers`, `_write_data`).
`visits` lists the cells in the order in which `_write_data` visits them: place in the pointer table and, when the cell
has data, the words of its record.  `rowInit` is false for grid files, whose `_write_row_headers` does not first mark all
headers as unused (encode/gempak.py:934-939). -/
structure DMFile where
  fileHeaders : List FileHeader
  rowNames : List Text
  columnNames : List Text
  parts : List Part
  rows : Nat
  columns : Nat
  fileType : Int
  dataSource : Int
  fileBody : List (List Fmt × List Val)
  rowInit : Bool
  rowHeaders : List (Except PyErr (List Val))
  columnHeaders : List (Except PyErr (List Val))
  visits : List (Nat × Option (Except PyErr (List Val)))
  ptrs : Option Pointers

/-- `MBLKSZ` (common.py:44). -/
def blk : Nat := 128

/-- `_dmword` (encode/gempak.py:294-304). -/
def dmword (word : Nat) : Nat × Nat :=
  let record := (word - 1) / blk + 1
  (record, word - (record - 1) * blk)

/-- The repeated pattern of `_set_pointers`: the word itself when it begins a block, else the beginning of the next. -/
def nextBlock (w : Nat) : Nat := if (dmword w).2 ≠ 1 then (dmword w).1 * blk + 1 else w

/-- `_set_pointers` (encode/gempak.py:323-374); `_data_mgmt_ptr = 129`, `_data_mgmt_length = 128`. -/
def setPointers (f : DMFile) : Pointers :=
  let rowKeysPtr := 129 + blk
  let columnKeysPtr := rowKeysPtr + f.rowNames.length
  let fileKeysPtr := columnKeysPtr + f.columnNames.length
  let lenfil := (f.fileHeaders.map fun h => h.length + 1).sum
  let rowHeadersPtr := nextBlock (fileKeysPtr + 3 * f.fileHeaders.length + lenfil)
  let columnHeadersPtr := rowHeadersPtr + f.rows * (f.rowNames.length + 1)
  let nparts := f.parts.length
  let lenpart := (f.parts.map fun p => p.params.length).sum
  let partsPtr := nextBlock (columnHeadersPtr + f.columns * (f.columnNames.length + 1))
  let dataBlockPtr := nextBlock (partsPtr + 4 * nparts + 4 * lenpart)
  let nextFree := nextBlock (dataBlockPtr + nparts * f.rows * f.columns)
  ⟨rowKeysPtr, columnKeysPtr, fileKeysPtr, rowHeadersPtr, columnHeadersPtr, partsPtr, dataBlockPtr, nextFree⟩

/-- The banner (common.py:10). -/
def banner : Bytes := utf8 (txt "GEMPAK DATA MANAGEMENT FILE ")

/-- `_label_struct` (encode/gempak.py:178-206). -/
def labelFmts : List Fmt := .str 28 :: List.replicate 20 .i32 ++ [.pad 12, .f32]

/-- Values of `_write_label` (encode/gempak.py:376-402). -/
def labelVals (f : DMFile) (p : Pointers) : List Val :=
  [.str banner, .int 1, .int f.fileHeaders.length, .int p.fileKeys, .int f.rows, .int f.rowNames.length, .int p.rowKeys,
   .int p.rowHeaders, .int f.columns, .int f.columnNames.length, .int p.columnKeys, .int p.columnHeaders,
   .int f.parts.length, .int p.parts, .int 129, .int blk, .int p.dataBlock, .int f.fileType, .int f.dataSource, .int 11,
   .int (-9999), .flt missingF32]

/-- `_data_mgmt_struct` (encode/gempak.py:208-218). -/
def dataMgmtFmts : List Fmt := [.i32, .i32, .i32, .i32, .pad 464]

/-- `_write_data_management` (encode/gempak.py:404-412); `MMFREE = 62`. -/
def dataMgmtVals (nextFree : Nat) : List Val := [.int nextFree, .int 62, .int 0, .int 0]

/-- `_write_file_keys` (encode/gempak.py:414-423). -/
def fileKeyWords (f : DMFile) : List Val :=
  f.fileHeaders.map (fun h => nameWord h.name) ++ f.fileHeaders.map (fun h => .int h.length)
    ++ f.fileHeaders.map (fun h => .int h.type)

/-- `_write_parts` (encode/gempak.py:435-463): names, header lengths, types, parameter counts, parameter names, offsets,
scales, bits. -/
def partWords (f : DMFile) : List Val :=
  f.parts.map (fun p => nameWord p.name) ++ f.parts.map (fun p => .int p.header) ++ f.parts.map (fun p => .int p.type)
    ++ f.parts.map (fun p => .int p.params.length) ++ f.parts.flatMap (fun p => p.params.map nameWord)
    ++ f.parts.flatMap (fun p => p.offset.map .int) ++ f.parts.flatMap (fun p => p.scale.map .int)
    ++ f.parts.flatMap (fun p => p.bits.map .int)

/-- A loop of `write_struct` calls (`_write_file_headers` of grid files). -/
def putStructs (e : Endian) : List (List Fmt × List Val) → Stream → Except PyErr Stream
  | [], s => .ok s
  | (fs, vs) :: r, s => do putStructs e r (← s.putStruct e fs vs)

/-- The loop writing used headers: flag `9999`, then the keys. -/
def putHeaders (e : Endian) : List (Except PyErr (List Val)) → Stream → Except PyErr Stream
  | [], s => .ok s
  | h :: hs, s => do
    let vs ← h
    putHeaders e hs (← s.putWords e (.int 9999 :: vs))

/-- `_write_row_headers` / `_write_column_headers` (encode/gempak.py:951-993, 1260-1305, 1526-1571): mark all as unused,
jump back, write the used ones. -/
def writeHeaders (e : Endian) (init : Bool) (n keys : Nat) (hs : List (Except PyErr (List Val))) (s : Stream) :
    Except PyErr Stream :=
  if init then do
    let start := s.word
    let s ← s.putWords e (List.replicate (n * (keys + 1)) (.int (-9999)))
    putHeaders e hs (s.jumpTo start)
  else putHeaders e hs s

/-- The loop of `_write_data` (encode/gempak.py:1048-1077, 1307-1338, 1573-1599). -/
def dataLoop (e : Endian) (dataBlock : Nat) :
    List (Nat × Option (Except PyErr (List Val))) → Nat → Stream → Except PyErr (Stream × Nat)
  | [], nf, s => .ok (s, nf)
  | (k, cell) :: vs, nf, s => do
    let s := s.jumpTo (dataBlock + k)
    match cell with
    | some rec =>
      let s ← s.putWord e (.int nf)
      let ws ← rec
      let s ← (s.jumpTo nf).putWords e ws
      dataLoop e dataBlock vs s.word s
    | none =>
      let s ← s.putWord e (.int 0)
      dataLoop e dataBlock vs nf s

/-- The end of `_write_data`: fill out the remainder of the block (encode/gempak.py:1079-1083). -/
def fillBlock (e : Endian) (s : Stream) : Except PyErr Stream :=
  let word := (dmword s.word).2
  if word ≠ 1 then s.putWords e (List.replicate (blk - word + 1) (.int 0)) else .ok s

/-- `_grid_nav_struct` (encode/gempak.py:220-239). -/
def navWriteFmts : List Fmt := [.f32, .str 4] ++ List.replicate 11 .f32 ++ [.pad 972]

/-- `_analysis_struct` (encode/gempak.py:241-265). -/
def anlWriteFmts : List Fmt := List.replicate 18 .f32 ++ [.pad 440]

/-- `_file_headers` of grid files (encode/gempak.py:589-592). -/
def gridFileHeaders : List FileHeader := [⟨txt "NAVB", 256, 1⟩, ⟨txt "ANLB", 128, 1⟩]

/-- `GridFile._write_file_headers` (encode/gempak.py:995-1046): navigation block (type 2, projection name padded to four
characters, eleven reals) and analysis block (type 2, seventeen reals).  The reals are given as single precision patterns. -/
def gridFileBody (proj : Text) (nav : List F32) (anl : List F32) : List (List Fmt × List Val) :=
  [([.i32], [.int 256]), (navWriteFmts, .flt 0x40000000#32 :: .str (utf8 (ljust 4 proj)) :: nav.map .flt),
   ([.i32], [.int 128]), (anlWriteFmts, .flt 0x40000000#32 :: anl.map .flt)]

/-- File keys and file headers, when there are any (encode/gempak.py:499-503). -/
def writeFileHeaders (e : Endian) (f : DMFile) (p : Pointers) (s : Stream) : Except PyErr Stream :=
  if f.fileHeaders ≠ [] then do
    let s ← (s.jumpTo p.fileKeys).putWords e (fileKeyWords f)
    putStructs e f.fileBody s
  else .ok s

/-- Body of `to_gempak` (encode/gempak.py:485-526) with the pointers held by the object: the bytes of the file and the
value left in `next_free_word`.  Nothing is written to disk when an exception is raised on the way. -/
def saveWith (e : Endian) (f : DMFile) (p : Pointers) : Except PyErr (Bytes × Nat) := do
  let s : Stream := ⟨[], 0⟩
  let s ← s.putStruct e labelFmts (labelVals f p)
  let s ← (s.jumpTo p.rowKeys).putWords e (f.rowNames.map nameWord)
  let s ← (s.jumpTo p.columnKeys).putWords e (f.columnNames.map nameWord)
  let s ← writeFileHeaders e f p s
  let s ← (s.jumpTo p.parts).putWords e (partWords f)
  let s ← writeHeaders e f.rowInit f.rows f.rowNames.length f.rowHeaders (s.jumpTo p.rowHeaders)
  let s ← writeHeaders e true f.columns f.columnNames.length f.columnHeaders (s.jumpTo p.columnHeaders)
  let (s, nf) ← dataLoop e p.dataBlock f.visits p.nextFree (s.jumpTo p.dataBlock)
  let s ← fillBlock e s
  let s ← (s.jumpTo 129).putStruct e dataMgmtFmts (dataMgmtVals nf)
  .ok (s.buf, nf)

/-- The bytes `to_gempak` writes for a builder (encode/gempak.py:485-526). -/
def save (e : Endian) (f : DMFile) : Except PyErr Bytes := do
  let r ← saveWith e f (setPointers f)
  .ok r.1

/-- The object after the body of `to_gempak`: `next_free_word` has been advanced.  After an exception the attribute is
left somewhere in between; the model leaves the initial value (no statement depends on it). -/
def afterSave (f : DMFile) : Except PyErr (Bytes × Nat) → DMFile × Except PyErr Bytes
  | .ok (b, nf) => ({ f with ptrs := f.ptrs.map fun p => { p with nextFree := nf } }, .ok b)
  | .error err => (f, .error err)

/-- `to_gempak` as a method (encode/gempak.py:477-526): the pointer attributes are set, then used and, for
`next_free_word`, advanced. -/
def toGempak (f : DMFile) : DMFile × Except PyErr Bytes :=
  afterSave { f with ptrs := some (setPointers f) } (saveWith .little f (setPointers f))

end Gempak
