import Mathlib.Tactic.Ring
import Verif.Proof.DMFile
import Verif.Proof.DMTotal

/-!
# C09–C13, C20, C21, C39, C40: data management files

Hypotheses used throughout, on the builder `f` (the object before `to_gempak`):

* `f.WF`: counts agree (as many scales as parameters, header tuples as long as the key lists, cells visited once each and
  inside the table, the last table entry visited last);
* `f.Readable`: names occupy four bytes and carry no blanks at the ends, known file type and data source;
* `f.Blocky`: no file headers, or the two of grid files.

`Props/Surface`, `Props/Sounding` and `Props/GridFile` prove them for the builders of the three file kinds.
-/

namespace Gempak
open Spec

/-! ## An example file -/

/-- Two rows, two columns, one part with two parameters, two records. -/
def exFile : DMFile :=
  { fileHeaders := [], rowNames := [txt "DATE", txt "TIME"], columnNames := [txt "STID", txt "SLAT"]
    parts := [⟨txt "SFDT", 1, 1, [txt "TMPC", txt "DWPC"], [0, 1], [2, 3], [4, 5]⟩], rows := 2, columns := 2, fileType := 1
    dataSource := 100, fileBody := [], rowInit := true
    rowHeaders := [.ok [.int 200101, .int 0], .ok [.int 200101, .int 1200]]
    columnHeaders := [.ok [.str (utf8 (txt "KOUN")), .int 3522]]
    visits := [(0, some (.ok [.int 3, .int 0, .flt 0x41200000#32, .flt 0xC61C3C00#32])), (1, none), (2, none),
      (3, some (.ok [.int 3, .int 1200, .flt 0#32, .flt 1#32]))], ptrs := none }

theorem exFile_wf : exFile.WF where
  parts := by decide
  body := by decide
  rowKeys := by
    intro x hx vs hv
    simp only [exFile, List.mem_cons, List.not_mem_nil, or_false] at hx
    rcases hx with rfl | rfl <;> (injection hv with hv; subst hv; rfl)
  rowCount := by decide
  rowInit := by decide
  columnKeys := by
    intro x hx vs hv
    simp only [exFile, List.mem_cons, List.not_mem_nil, or_false] at hx
    subst hx; injection hv with hv; subst hv; rfl
  columnCount := by decide
  visitLt := by
    intro v hv
    simp only [exFile, List.mem_cons, List.not_mem_nil, or_false] at hv
    rcases hv with rfl | rfl | rfl | rfl <;> decide
  visitNodup := by decide
  visitLast := by
    intro A v h
    have := congrArg List.getLast? h
    rw [List.getLast?_concat] at this
    simp only [exFile, List.getLast?_cons_cons, List.getLast?_singleton, Option.some.injEq] at this
    subst this; rfl

theorem exFile_readable : exFile.Readable where
  rowNames := ⟨by decide, by unfold Name4 Trimmed; decide +kernel⟩
  columnNames := ⟨by decide, by unfold Name4 Trimmed; decide +kernel⟩
  parts := ⟨by decide, by unfold Name4 Trimmed; decide +kernel⟩
  fileType := by decide
  dataSource := by decide

theorem exFile_blocky : exFile.Blocky := Or.inl rfl

theorem exFile_fits : exFile.Fits where
  size := by decide +kernel
  names := by decide
  body := by intro e x hx; simp [exFile] at hx
  parts := by decide
  fileType := by decide
  dataSource := by decide
  dims := by decide
  rowHeaders := by
    intro x hx
    simp only [exFile, List.mem_cons, List.not_mem_nil, or_false] at hx
    rcases hx with rfl | rfl <;> exact ⟨_, rfl, by
      intro v hv; simp only [List.mem_cons, List.not_mem_nil, or_false] at hv; rcases hv with rfl | rfl <;> (show inI32 _; decide)⟩
  columnHeaders := by
    intro x hx
    simp only [exFile, List.mem_cons, List.not_mem_nil, or_false] at hx
    subst hx
    exact ⟨_, rfl, by
      intro v hv; simp only [List.mem_cons, List.not_mem_nil, or_false] at hv
      rcases hv with rfl | rfl
      · trivial
      · show inI32 _; decide⟩
  records := by
    intro v hv r hr
    simp only [exFile, List.mem_cons, List.not_mem_nil, or_false] at hv
    rcases hv with rfl | rfl | rfl | rfl <;> simp only [Option.some.injEq, reduceCtorEq] at hr <;> subst hr <;>
      exact ⟨_, rfl, by
        intro v hv; simp only [List.mem_cons, List.not_mem_nil, or_false] at hv
        rcases hv with rfl | rfl | rfl | rfl <;> trivial⟩

/-- The hypotheses of this file are met: the example saves in both byte orders. -/
theorem exFile_saves (e : Endian) : ∃ b, save e exFile = .ok b := save_total exFile_wf exFile_fits

/-! ## Saving succeeds -/

/-- Saving succeeds whenever every number fits 32 bits, in particular the size of the file in words. -/
theorem C10_saves (e : Endian) (f : DMFile) (wf : f.WF) (ft : f.Fits) : ∃ b, save e f = .ok b := save_total wf ft

/-! ## C10: structure blocks read back -/

/-- The part entries a reader reports. -/
def Spec.partEntries (f : DMFile) : List PartInfo :=
  f.parts.map fun p => ⟨p.name, p.header, p.type, p.params.length⟩

/-- C10 (partial: `scale` and `offset` come back exchanged, see `C10_scale_offset_swapped`): every saved file opens, on a
host of either byte order, with the written counts, keys, parts and parameter names. -/
theorem C10_structure_partial (e host : Endian) (f : DMFile) (b : Bytes) (wf : f.WF) (rd : f.Readable) (bl : f.Blocky)
    (h : save e f = .ok b) :
    ∃ i, readDM host b = .ok i ∧ i.order = e ∧ i.rowKeys = f.rowNames ∧ i.columnKeys = f.columnNames ∧
      i.parts = partEntries f ∧ i.params.map ParamInfo.names = f.parts.map Part.params ∧
      i.params.map ParamInfo.bits = f.parts.map Part.bits ∧ i.label.version = 1 ∧
      i.label.rows = f.rows ∧ i.label.columns = f.columns ∧ i.label.rowKeys = f.rowNames.length ∧
      i.label.columnKeys = f.columnNames.length ∧ i.label.parts = f.parts.length ∧ i.label.fileType = f.fileType ∧
      i.label.dataSource = f.dataSource ∧ i.label.missingInt = -9999 ∧ i.label.missingFloat = missingF32 ∧
      i.label.fileHeaders = f.fileHeaders.length := by
  obtain ⟨bk, hb⟩ := (save_spec wf h).head.open wf rd bl
  refine ⟨_, hb host, rfl, rfl, rfl, rfl, ?_, ?_, rfl, rfl, rfl, rfl, rfl, rfl, rfl, rfl, rfl, rfl, rfl⟩
  · simp [expectedInfo, Part.readBack]
  · simp [expectedInfo, Part.readBack]

/-- Deviation: the attributes `scale` and `offset` of every parameter are exchanged by writing and reading (the writer
stores offsets first, the reader reads scales first). -/
theorem C10_scale_offset_swapped (e host : Endian) (f : DMFile) (b : Bytes) (wf : f.WF) (rd : f.Readable) (bl : f.Blocky)
    (h : save e f = .ok b) :
    ∃ i, readDM host b = .ok i ∧ i.params.map ParamInfo.scale = f.parts.map Part.offset ∧
      i.params.map ParamInfo.offset = f.parts.map Part.scale := by
  obtain ⟨bk, hb⟩ := (save_spec wf h).head.open wf rd bl
  refine ⟨_, hb host, ?_, ?_⟩ <;> simp [expectedInfo, Part.readBack]

/-- C10: the row headers are read back, in order, from the place given by the label; unused rows yield nothing. -/
theorem C10_row_headers (e host : Endian) (f : DMFile) (b : Bytes) (wf : f.WF) (rd : f.Readable) (bl : f.Blocky)
    (h : save e f = .ok b) {α : Type} (fs : List Fmt) (hne : fs ≠ []) (conv : List Val → Except PyErr α) (g : List Val → α)
    (hg : ∀ vs, .ok vs ∈ f.rowHeaders → vs.map Val.fmt = fs ∧ conv (vs.map stored) = .ok (g vs)) :
    ∃ (i : DMInfo) (vss : List (List Val)), readDM host b = .ok i ∧ f.rowHeaders = vss.map .ok ∧
      readHeaders i.order b fs conv i.label.rows.toNat (wordToPosition i.label.rowHeadersPtr) = .ok (vss.map g) := by
  have S := save_spec wf h
  obtain ⟨bk, hb⟩ := S.head.open wf rd bl
  obtain ⟨vss, h1, h2, h3⟩ := S.head.rowHeaders
  have L := setPointers_layout f
  have l9 := L.aligned
  have hc := wf.rowCount
  rw [h1, List.length_map] at hc
  refine ⟨_, vss, hb host, h1, ?_⟩
  have := readHeaders_spec g vss (f.rows - vss.length) _ _ (by omega) h3
    (Nat.le_mul_of_pos_right _ (by omega)) hne (fun vs hv => (hg vs (by rw [h1]; exact List.mem_map_of_mem hv)).1)
    (fun vs hv => by
      have := (hg vs (by rw [h1]; exact List.mem_map_of_mem hv)).2
      rwa [show vs.map stored = vs.map canonW from List.map_congr_left fun v _ => stored_eq v] at this)
  rw [Nat.add_sub_cancel' hc] at this
  exact this

/-- C10: likewise the column headers. -/
theorem C10_column_headers (e host : Endian) (f : DMFile) (b : Bytes) (wf : f.WF) (rd : f.Readable) (bl : f.Blocky)
    (h : save e f = .ok b) {α : Type} (fs : List Fmt) (hne : fs ≠ []) (conv : List Val → Except PyErr α) (g : List Val → α)
    (hg : ∀ vs, .ok vs ∈ f.columnHeaders → vs.map Val.fmt = fs ∧ conv (vs.map stored) = .ok (g vs)) :
    ∃ (i : DMInfo) (vss : List (List Val)), readDM host b = .ok i ∧ f.columnHeaders = vss.map .ok ∧
      readHeaders i.order b fs conv i.label.columns.toNat (wordToPosition i.label.columnHeadersPtr) = .ok (vss.map g) := by
  have S := save_spec wf h
  obtain ⟨bk, hb⟩ := S.head.open wf rd bl
  obtain ⟨vss, h1, h2, h3⟩ := S.head.columnHeaders
  have L := setPointers_layout f
  have l9 := L.aligned
  have l5 := L.columnHeaders
  have hc := wf.columnCount
  rw [h1, List.length_map] at hc
  refine ⟨_, vss, hb host, h1, ?_⟩
  have := readHeaders_spec g vss (f.columns - vss.length) _ _ (by omega) h3
    (Nat.le_mul_of_pos_right _ (by omega)) hne (fun vs hv => (hg vs (by rw [h1]; exact List.mem_map_of_mem hv)).1)
    (fun vs hv => by
      have := (hg vs (by rw [h1]; exact List.mem_map_of_mem hv)).2
      rwa [show vs.map stored = vs.map canonW from List.map_congr_left fun v _ => stored_eq v] at this)
  rw [Nat.add_sub_cancel' hc] at this
  exact this

/-- The example meets the hypotheses of `C10_column_headers`. -/
example (host : Endian) : ∃ b i, save .big exFile = .ok b ∧ readDM host b = .ok i ∧
    readHeaders i.order b [.str 4, .i32] .ok i.label.columns.toNat (wordToPosition i.label.columnHeadersPtr) =
      .ok [[.str (utf8 (txt "KOUN")), .int 3522]] := by
  obtain ⟨b, hb⟩ := exFile_saves .big
  obtain ⟨i, vss, h1, h2, h3⟩ := C10_column_headers .big host exFile b exFile_wf exFile_readable exFile_blocky hb
    [.str 4, .i32] (by simp) .ok (fun vs => vs.map stored) (by
      intro vs hv
      simp only [exFile, List.mem_cons, List.not_mem_nil, or_false, Except.ok.injEq] at hv
      subst hv; exact ⟨rfl, rfl⟩)
  refine ⟨b, i, hb, h1, ?_⟩
  rw [h3]
  simp only [exFile] at h2
  match vss, h2 with
  | [vs], h2 =>
    simp only [List.map_cons, List.map_nil, List.cons.injEq, and_true, Except.ok.injEq] at h2
    subst h2; decide +kernel

/-! ## C09: regions -/

/-- Words taken by file headers. -/
def Spec.fileHeaderWords (f : DMFile) : Int := ((f.fileHeaders.map fun h => h.length + 1).sum : Nat)

/-- C09: the regions named by the label of a saved file come one after the other without overlap, and those that must
start a block do. -/
theorem C09_regions (e host : Endian) (f : DMFile) (b : Bytes) (wf : f.WF) (rd : f.Readable) (bl : f.Blocky)
    (h : save e f = .ok b) :
    ∃ i, readDM host b = .ok i ∧
      (regions i.label (fileHeaderWords f) (4 * (i.parts.map PartInfo.paramCount).sum)).Pairwise Before ∧
      BlockStart i.label.rowHeadersPtr ∧ BlockStart i.label.partsPtr ∧ BlockStart i.label.dataBlockPtr := by
  obtain ⟨bk, hb⟩ := (save_spec wf h).head.open wf rd bl
  have L := setPointers_layout f
  have l1 := L.rowKeys
  have l2 := L.columnKeys
  have l3 := L.fileKeys
  have l4 := L.fileEnd
  have l5 := L.columnHeaders
  have l6 := L.columnEnd
  have l7 := L.partsEnd
  have l8 := L.tableEnd
  have l9 := L.aligned
  refine ⟨_, hb host, ?_, ?_⟩
  · have hsum : (((expectedInfo e f bk).parts.map PartInfo.paramCount).sum : Int) =
        ((f.parts.map fun p => p.params.length).sum : Nat) := by
      show ((f.parts.map Part.info).map PartInfo.paramCount).sum = _
      generalize f.parts = ps
      induction ps with
      | nil => rfl
      | cons p ps ih => simp only [List.map_cons, List.sum_cons, ih, Part.info]; omega
    rw [hsum]
    have hl : (expectedInfo e f bk).label = expectedLabel f := rfl
    rw [hl]
    unfold expectedLabel fileHeaderWords regions
    dsimp only
    have c1 : ((f.rows : Int) * ((f.rowNames.length : Int) + 1)) = ((f.rows * (f.rowNames.length + 1) : Nat) : Int) := by push_cast; ring
    have c2 : ((f.columns : Int) * ((f.columnNames.length : Int) + 1)) = ((f.columns * (f.columnNames.length + 1) : Nat) : Int) := by push_cast; ring
    have c3 : ((f.parts.length : Int) * f.rows * f.columns) = ((f.parts.length * f.rows * f.columns : Nat) : Int) := by push_cast; ring
    rw [c1, c2, c3]
    generalize (f.fileHeaders.map fun h => h.length + 1).sum = lenfil at *
    generalize f.rows * (f.rowNames.length + 1) = rl at *
    generalize f.columns * (f.columnNames.length + 1) = cl at *
    generalize (f.parts.map fun p => p.params.length).sum = lenpart at *
    generalize f.parts.length * f.rows * f.columns = T at *
    generalize setPointers f = p at *
    simp only [List.pairwise_cons, List.mem_cons, List.not_mem_nil, or_false, forall_eq_or_imp, forall_eq, Before,
      List.Pairwise.nil, IsEmpty.forall_iff, implies_true, and_true]
    omega
  · refine ⟨?_, ?_, ?_⟩ <;> (unfold BlockStart; show ((_ : Nat) : Int) % 128 = 1; omega)

/-! ## C11: the pointer table -/

/-- What was put into a cell. -/
def Spec.Put (f : DMFile) (irow icol iprt : Nat) (cell : Option (List Val)) : Prop :=
  ((irow * f.columns + icol) * f.parts.length + iprt, cell.map .ok) ∈ f.visits

theorem cellPointer_eq {e : Endian} {f : DMFile} {bk : Option Blocks} (irow icol iprt : Nat) :
    cellPointer (expectedInfo e f bk) irow icol iprt =
      (((setPointers f).dataBlock + ((irow * f.columns + icol) * f.parts.length + iprt) : Nat) : Int) := by
  unfold cellPointer expectedInfo expectedLabel
  dsimp only
  push_cast; ring

theorem toU32_nat {n : Nat} (h : inI32 (n : Int)) : (toU32 (n : Int) : Int) = n := by
  unfold toU32
  have : (n : Int) < 4294967296 := by unfold inI32 at h; omega
  omega

/-- Where the record of a cell lies, by its place among the visits. -/
theorem Saved.pointer {e : Endian} {f : DMFile} {b : Bytes} {bk : Option Blocks} (S : Saved e f b) {irow icol iprt : Nat}
    {A B : List (Nat × Option (Except PyErr (List Val)))} {cell : Option (List Val)}
    (hs : f.visits = A ++ ((irow * f.columns + icol) * f.parts.length + iprt, cell.map .ok) :: B) :
    match cell with
    | none => dataPointer (expectedInfo e f bk) b irow icol iprt = 0
    | some ws => dataPointer (expectedInfo e f bk) b irow icol iprt = (((setPointers f).nextFree + visitLen A : Nat) : Int) ∧
        HoldsW e b ((setPointers f).nextFree + visitLen A) ws := by
  have l9 := (setPointers_layout f).aligned
  have hc := S.cells A _ _ B hs
  unfold dataPointer
  rw [cellPointer_eq]
  cases cell with
  | none =>
    have hc : HoldsW e b _ [.int 0] := hc
    have := (hc.readWord (by omega)).2
    exact this
  | some ws =>
    obtain ⟨ws', hw, h1, h2⟩ := hc
    injection hw with hw
    subst hw
    have h3 := h1.readWord (by omega)
    exact ⟨by rw [show (expectedInfo e f bk).order = e from rfl, h3.2, toU32_nat h3.1], h2⟩

/-- C11: for every cell the reader finds a zero pointer when nothing was put there, and otherwise the first word of exactly
the record put there, beyond the pointer table, within the file and below the recorded next free word. -/
theorem C11_pointers (e host : Endian) (f : DMFile) (b : Bytes) (wf : f.WF) (rd : f.Readable) (bl : f.Blocky)
    (h : save e f = .ok b) :
    ∃ i nf, readDM host b = .ok i ∧ i.dataMgmt.head? = some (.int nf) ∧
      (∀ irow icol iprt, Put f irow icol iprt none → dataPointer i b irow icol iprt = 0) ∧
      (∀ irow icol iprt ws, Put f irow icol iprt (some ws) →
        WordsAt i.order b (dataPointer i b irow icol iprt) ws ∧
        Before ⟨i.label.dataBlockPtr, i.label.parts * i.label.rows * i.label.columns⟩ ⟨dataPointer i b irow icol iprt, ws.length⟩ ∧
        dataPointer i b irow icol iprt + ws.length ≤ nf) := by
  have S := save_spec wf h
  obtain ⟨bk, hb⟩ := S.head.open wf rd bl
  have L := setPointers_layout f
  have l8 := L.tableEnd
  refine ⟨_, _, hb host, rfl, ?_, ?_⟩
  · intro irow icol iprt hp
    obtain ⟨A, B, hs⟩ := List.append_of_mem hp
    exact S.pointer hs
  · intro irow icol iprt ws hp
    obtain ⟨A, B, hs⟩ := List.append_of_mem hp
    obtain ⟨h1, h2⟩ := S.pointer (bk := bk) hs
    have hlen : visitLen f.visits = visitLen A + (ws.length + visitLen B) := by
      rw [hs, visitLen_append, visitLen_cons]; rfl
    rw [h1]
    have hc : ((f.parts.length : Int) * f.rows * f.columns) = ((f.parts.length * f.rows * f.columns : Nat) : Int) := by push_cast; ring
    refine ⟨h2.wordsAt (by have := L.aligned; omega), ?_, ?_⟩
    · unfold Before expectedInfo expectedLabel
      dsimp only
      rw [hc]; omega
    · rw [hlen]; omega

/-- C09: the data area starts with the first block after the pointer table, holds all records and ends at the recorded next free word. -/
theorem C09_data_area (e host : Endian) (f : DMFile) (b : Bytes) (wf : f.WF) (rd : f.Readable) (bl : f.Blocky)
    (h : save e f = .ok b) :
    ∃ i nf start, readDM host b = .ok i ∧ i.dataMgmt.head? = some (.int nf) ∧ BlockStart start ∧ start ≤ nf ∧
      Before ⟨i.label.dataBlockPtr, i.label.parts * i.label.rows * i.label.columns⟩ ⟨start, nf - start⟩ ∧
      start < i.label.dataBlockPtr + i.label.parts * i.label.rows * i.label.columns + 128 ∧
      ∀ irow icol iprt ws, Put f irow icol iprt (some ws) →
        start ≤ dataPointer i b irow icol iprt ∧ dataPointer i b irow icol iprt + ws.length ≤ nf := by
  have S := save_spec wf h
  obtain ⟨bk, hb⟩ := S.head.open wf rd bl
  have L := setPointers_layout f
  have l8 := L.tableEnd
  have l9 := L.free
  have l10 := L.aligned
  have l11 := nextBlock_spec ((setPointers f).dataBlock + f.parts.length * f.rows * f.columns) (by omega)
  have hc : ((f.parts.length : Int) * f.rows * f.columns) = ((f.parts.length * f.rows * f.columns : Nat) : Int) := by push_cast; ring
  refine ⟨_, _, ((setPointers f).nextFree : Int), hb host, rfl, ?_, ?_, ?_, ?_, ?_⟩
  · unfold BlockStart; omega
  · push_cast; omega
  · unfold Before expectedInfo expectedLabel
    dsimp only
    rw [hc]; omega
  · unfold expectedInfo expectedLabel
    dsimp only
    rw [hc]; omega
  · intro irow icol iprt ws hp
    obtain ⟨A, B, hs⟩ := List.append_of_mem hp
    obtain ⟨h1, _⟩ := S.pointer (bk := bk) hs
    have hlen : visitLen f.visits = visitLen A + (ws.length + visitLen B) := by
      rw [hs, visitLen_append, visitLen_cons]; rfl
    rw [h1, hlen]
    push_cast
    omega

/-- C11: records of different cells share no word. -/
theorem C11_records_apart (e host : Endian) (f : DMFile) (b : Bytes) (wf : f.WF) (rd : f.Readable) (bl : f.Blocky)
    (h : save e f = .ok b) :
    ∃ i, readDM host b = .ok i ∧ ∀ irow icol iprt ws irow' icol' iprt' ws',
      Put f irow icol iprt (some ws) → Put f irow' icol' iprt' (some ws') →
      (irow * f.columns + icol) * f.parts.length + iprt ≠ (irow' * f.columns + icol') * f.parts.length + iprt' →
      Apart ⟨dataPointer i b irow icol iprt, ws.length⟩ ⟨dataPointer i b irow' icol' iprt', ws'.length⟩ := by
  have S := save_spec wf h
  obtain ⟨bk, hb⟩ := S.head.open wf rd bl
  refine ⟨_, hb host, ?_⟩
  intro irow icol iprt ws irow' icol' iprt' ws' hp hp' hne
  obtain ⟨A, B, hs⟩ := List.append_of_mem hp
  obtain ⟨h1, _⟩ := S.pointer (bk := bk) hs
  have hp2 := hp'
  unfold Put at hp2
  rw [hs, List.mem_append, List.mem_cons] at hp2
  rcases hp2 with hA | heq | hB
  · obtain ⟨A1, A2, hA⟩ := List.append_of_mem hA
    have hs' : f.visits = A1 ++ ((irow' * f.columns + icol') * f.parts.length + iprt', (some ws').map .ok) ::
        (A2 ++ ((irow * f.columns + icol) * f.parts.length + iprt, (some ws).map .ok) :: B) := by
      rw [hs, hA]; simp
    obtain ⟨h2, _⟩ := S.pointer (bk := bk) hs'
    right
    unfold Before
    dsimp only
    rw [h1, h2, hA, visitLen_append, visitLen_cons]
    show _ + (ws'.length : Int) ≤ (((_ + (_ + (ws'.length + _)) : Nat)) : Int)
    omega
  · exact absurd (congrArg Prod.fst heq).symm hne
  · obtain ⟨B1, B2, hB⟩ := List.append_of_mem hB
    have hs' : f.visits = (A ++ ((irow * f.columns + icol) * f.parts.length + iprt, (some ws).map .ok) :: B1) ++
        ((irow' * f.columns + icol') * f.parts.length + iprt', (some ws').map .ok) :: B2 := by
      rw [hs, hB]; simp
    obtain ⟨h2, _⟩ := S.pointer (bk := bk) hs'
    left
    unfold Before
    dsimp only
    rw [h1, h2, visitLen_append, visitLen_cons]
    show _ + (ws.length : Int) ≤ (((_ + (_ + (ws.length + _)) : Nat)) : Int)
    omega

/-- The example: the record of row 1, column 1 is found by the reader. -/
example : ∃ b i, save .little exFile = .ok b ∧ readDM .big b = .ok i ∧
    WordsAt i.order b (dataPointer i b 1 1 0) [.int 3, .int 1200, .flt 0#32, .flt 1#32] ∧ dataPointer i b 0 1 0 = 0 := by
  obtain ⟨b, hb⟩ := exFile_saves .little
  obtain ⟨i, nf, h1, _, h3, h4⟩ := C11_pointers .little .big exFile b exFile_wf exFile_readable exFile_blocky hb
  refine ⟨b, i, hb, h1, (h4 1 1 0 _ ?_).1, h3 0 1 0 ?_⟩
  · show (3, some (.ok [.int 3, .int 1200, .flt 0#32, .flt 1#32])) ∈ exFile.visits; simp [exFile]
  · show (1, none) ∈ exFile.visits; simp [exFile]

/-! ## C12: file length -/

/-- C12 (partial: only when the last cell of the table holds data; otherwise see `C12_unpadded`): the length is a multiple
of 512. -/
theorem C12_block_multiple_partial (e : Endian) (f : DMFile) (b : Bytes) (wf : f.WF) (h : save e f = .ok b)
    (ws : List Val) (hne : ws ≠ []) (hlast : f.visits.getLast? = some (f.parts.length * f.rows * f.columns - 1, some (.ok ws))) :
    512 ∣ b.length := by
  obtain ⟨A, hA⟩ := List.getLast?_eq_some_iff.1 hlast
  have hpos : 1 ≤ ws.length := List.length_pos_of_ne_nil hne
  have := (save_spec wf h).length_eq A _ _ hA hpos
  have hn := nextBlock_spec ((setPointers f).nextFree + visitLen f.visits) (by have := (setPointers_layout f).aligned; omega)
  omega

theorem visitLen_pos_split {vs : List (Nat × Option (Except PyErr (List Val)))} (h : 0 < visitLen vs) :
    ∃ A k ws B, vs = A ++ (k, some (.ok ws)) :: B ∧ ws ≠ [] ∧ visitLen B = 0 := by
  induction vs with
  | nil => simp [visitLen] at h
  | cons v vs ih =>
    by_cases hv : 0 < visitLen vs
    · obtain ⟨A, k, ws, B, rfl, h2, h3⟩ := ih hv
      exact ⟨v :: A, k, ws, B, rfl, h2, h3⟩
    · rw [visitLen_cons] at h
      obtain ⟨k, cell⟩ := v
      match cell, h with
      | none, h => simp [cellLen] at h; omega
      | some (.error _), h => simp [cellLen] at h; omega
      | some (.ok ws), h =>
        refine ⟨[], k, ws, vs, rfl, ?_, by omega⟩
        rintro rfl
        simp [cellLen] at h; omega

/-- Deviation from C12: when the last cell of the table is empty and some record is not, the file ends right behind the
last record, so its length is a multiple of 512 only if the records happen to fill whole blocks. -/
theorem C12_unpadded (e : Endian) (f : DMFile) (b : Bytes) (wf : f.WF) (h : save e f = .ok b)
    (hlast : (f.visits.getLast?).map Prod.snd = some none) (hsome : 0 < visitLen f.visits) :
    512 ∣ b.length ↔ 128 ∣ visitLen f.visits := by
  have S := save_spec wf h
  obtain ⟨⟨k, c⟩, hl, hc⟩ := Option.map_eq_some_iff.1 hlast
  dsimp only at hc
  subst hc
  obtain ⟨A, hA⟩ := List.getLast?_eq_some_iff.1 hl
  have h1 := S.length_none A k hA
  obtain ⟨A', k', ws, B, h2, h3, h4⟩ := visitLen_pos_split hsome
  obtain ⟨ws', hw, _, h5⟩ := S.cells A' k' _ B h2
  injection hw with hw
  subst hw
  have hpos : 0 < ws.length := List.length_pos_of_ne_nil h3
  have h6 := HoldsV.len h5 (by rw [fmtSize_words]; omega)
  rw [fmtSize_words] at h6
  have h7 : visitLen f.visits = visitLen A' + (ws.length + visitLen B) := by rw [h2, visitLen_append, visitLen_cons]; rfl
  have l := (setPointers_layout f).aligned
  have : b.length = ((setPointers f).nextFree + visitLen f.visits) * 4 - 4 := by omega
  omega

/-- A file with one record of four words and three empty cells: its length is no multiple of 512. -/
def exUnpadded : DMFile :=
  { exFile with visits := [(0, some (.ok [.int 3, .int 0, .flt 0x41200000#32, .flt 0xC61C3C00#32])), (1, none), (2, none),
      (3, none)] }

theorem exUnpadded_wf : exUnpadded.WF :=
  { exFile_wf with
    visitLt := by
      intro v hv
      simp only [exUnpadded, List.mem_cons, List.not_mem_nil, or_false] at hv
      rcases hv with rfl | rfl | rfl | rfl <;> decide
    visitNodup := by decide
    visitLast := by
      intro A v h
      have := congrArg List.getLast? h
      rw [List.getLast?_concat] at this
      simp only [exUnpadded, List.getLast?_cons_cons, List.getLast?_singleton, Option.some.injEq] at this
      subst this; rfl }

theorem exUnpadded_fits : exUnpadded.Fits :=
  { exFile_fits with
    size := by decide +kernel
    records := by
      intro v hv r hr
      simp only [exUnpadded, List.mem_cons, List.not_mem_nil, or_false] at hv
      rcases hv with rfl | rfl | rfl | rfl <;> simp only [Option.some.injEq, reduceCtorEq] at hr <;> subst hr <;>
        exact ⟨_, rfl, by
          intro v hv; simp only [List.mem_cons, List.not_mem_nil, or_false] at hv
          rcases hv with rfl | rfl | rfl | rfl <;> trivial⟩ }

/-- C12 as stated is false. -/
theorem C12_counterexample : ∃ b, save .little exUnpadded = .ok b ∧ ¬ 512 ∣ b.length := by
  obtain ⟨b, hb⟩ := save_total (e := .little) exUnpadded_wf exUnpadded_fits
  refine ⟨b, hb, ?_⟩
  rw [C12_unpadded _ _ _ exUnpadded_wf hb (by decide) (by decide)]
  decide

example : ∃ b, save .little exFile = .ok b ∧ 512 ∣ b.length := by
  obtain ⟨b, hb⟩ := exFile_saves .little
  exact ⟨b, hb, C12_block_multiple_partial _ _ _ exFile_wf hb _ (by simp) rfl⟩

end Gempak
