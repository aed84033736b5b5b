import Verif.Props.DM

/-!
# C13, C20, C21, C39, C40: saving again, byte order, foreign, sparse and truncated files
-/

namespace Gempak
open Spec

/-! ## C13 -/

theorem afterSave_fst (f : DMFile) (r : Except PyErr (Bytes × Nat)) : ∃ q, (afterSave f r).1 = { f with ptrs := q } := by
  cases r with
  | error e => exact ⟨f.ptrs, rfl⟩
  | ok r => exact ⟨_, rfl⟩

theorem afterSave_snd (f : DMFile) (r : Except PyErr (Bytes × Nat)) : (afterSave f r).2 = r.map Prod.fst := by
  cases r <;> rfl

/-- `to_gempak` changes nothing but the pointer attributes. -/
theorem C13_state (f : DMFile) : ∃ q, (toGempak f).1 = { f with ptrs := q } := by
  obtain ⟨q, hq⟩ := afterSave_fst { f with ptrs := some (setPointers f) } (saveWith .little f (setPointers f))
  exact ⟨q, hq⟩

theorem toGempak_snd (f : DMFile) : (toGempak f).2 = (saveWith .little f (setPointers f)).map Prod.fst := afterSave_snd _ _

theorem saveWith_ptrs (e : Endian) (f : DMFile) (q : Option Pointers) (p : Pointers) :
    saveWith e { f with ptrs := q } p = saveWith e f p := by
  unfold saveWith writeFileHeaders
  rfl

/-- C13: the bytes written do not depend on the pointer attributes left by earlier saves, successful or not. -/
theorem C13_repeatable (f : DMFile) (q : Option Pointers) : (toGempak { f with ptrs := q }).2 = (toGempak f).2 := by
  rw [toGempak_snd, toGempak_snd, saveWith_ptrs]
  rfl

/-- C13: any number of saves gives the same bytes. -/
theorem C13_any_number (f : DMFile) (n : Nat) : (toGempak ((fun g => (toGempak g).1)^[n] f)).2 = (toGempak f).2 := by
  have h : ∃ q, (fun g => (toGempak g).1)^[n] f = { f with ptrs := q } := by
    induction n with
    | zero => exact ⟨f.ptrs, rfl⟩
    | succ n ih =>
      obtain ⟨q, hq⟩ := ih
      rw [Function.iterate_succ_apply', hq]
      obtain ⟨q', h'⟩ := C13_state { f with ptrs := q }
      exact ⟨q', h'⟩
  obtain ⟨q, hq⟩ := h
  rw [hq, C13_repeatable]

/-- The bytes are those of `save`. -/
theorem C13_save (f : DMFile) : (toGempak f).2 = save .little f := by
  rw [toGempak_snd]
  unfold save
  cases saveWith .little f (setPointers f) <;> rfl

example : ∃ b, (toGempak exFile).2 = .ok b ∧ (toGempak (toGempak exFile).1).2 = .ok b ∧ (toGempak exFile).1.ptrs ≠ none := by
  obtain ⟨b, hb⟩ := exFile_saves .little
  refine ⟨b, by rw [C13_save, hb], ?_, ?_⟩
  · have := C13_any_number exFile 1
    simp only [Function.iterate_one] at this
    rw [this, C13_save, hb]
  · unfold toGempak
    cases saveWith .little exFile (setPointers exFile) <;> simp [afterSave]

/-! ## C20 -/

/-- C20: the host's byte order does not matter for a file whose version word is one in some byte order. -/
theorem C20_host (b : Bytes) (h : pySlice b 28 32 = encNat .little 4 1 ∨ pySlice b 28 32 = encNat .big 4 1) :
    readDM .little b = readDM .big b := by
  have ho : readOrder .little b = readOrder .big b := by
    have h1 : encNat .little 4 1 ≠ encNat .big 4 1 := by decide
    unfold readOrder Endian.swap
    rcases h with h | h <;> rw [h]
    · simp only [if_true]; rw [if_neg h1]
    · simp only [if_true]; rw [if_neg (Ne.symm h1)]
  unfold readDM
  rw [ho]

/-- Everything learned on opening, apart from the byte order. -/
def DMInfo.content (i : DMInfo) : Label × Option Blocks × List Val × List Text × List Text × List PartInfo × List ParamInfo :=
  (i.label, i.blocks, i.dataMgmt, i.rowKeys, i.columnKeys, i.parts, i.params)

/-- C20: the two files a builder gives in the two byte orders open to the same content on any hosts; the same holds for
the headers, the data pointers and the words of the records. -/
theorem C20_byte_order (f : DMFile) (bl bb : Bytes) (hl hb : Endian) (wf : f.WF) (rd : f.Readable) (bk : f.Blocky)
    (h1 : save .little f = .ok bl) (h2 : save .big f = .ok bb) :
    ∃ il ib, readDM hl bl = .ok il ∧ readDM hb bb = .ok ib ∧ il.order = .little ∧ ib.order = .big ∧ il.content = ib.content ∧
      (∀ irow icol iprt cell, Put f irow icol iprt cell → dataPointer il bl irow icol iprt = dataPointer ib bb irow icol iprt) ∧
      (∀ irow icol iprt ws, Put f irow icol iprt (some ws) → ws ≠ [] →
        unpackFrom .little (ws.map Val.fmt) bl (wordToPosition (dataPointer il bl irow icol iprt)) =
        unpackFrom .big (ws.map Val.fmt) bb (wordToPosition (dataPointer ib bb irow icol iprt))) ∧
      (∀ (fs : List Fmt), fs ≠ [] → (∀ vs, .ok vs ∈ f.rowHeaders → vs.map Val.fmt = fs) →
        readHeaders .little bl fs .ok il.label.rows.toNat (wordToPosition il.label.rowHeadersPtr) =
        readHeaders .big bb fs .ok ib.label.rows.toNat (wordToPosition ib.label.rowHeadersPtr)) ∧
      (∀ (fs : List Fmt), fs ≠ [] → (∀ vs, .ok vs ∈ f.columnHeaders → vs.map Val.fmt = fs) →
        readHeaders .little bl fs .ok il.label.columns.toNat (wordToPosition il.label.columnHeadersPtr) =
        readHeaders .big bb fs .ok ib.label.columns.toNat (wordToPosition ib.label.columnHeadersPtr)) := by
  have S1 := save_spec wf h1
  have S2 := save_spec wf h2
  have l9 := (setPointers_layout f).aligned
  obtain ⟨k, o1, o2⟩ : ∃ k, readDM hl bl = .ok (expectedInfo .little f k) ∧ readDM hb bb = .ok (expectedInfo .big f k) := by
    rcases bk with hn | ⟨proj, nav, anl, g1, g2, g3, g4, g5⟩
    · exact ⟨none, readDM_spec hl wf rd S1.head (readBlocks_none hn), readDM_spec hb wf rd S2.head (readBlocks_none hn)⟩
    · exact ⟨_, readDM_spec hl wf rd S1.head (readBlocks_grid S1.head g1 g2 g3 g4 g5),
        readDM_spec hb wf rd S2.head (readBlocks_grid S2.head g1 g2 g3 g4 g5)⟩
  refine ⟨_, _, o1, o2, rfl, rfl, rfl, ?_, ?_, ?_, ?_⟩
  · intro irow icol iprt cell hp
    obtain ⟨A, B, hs⟩ := List.append_of_mem hp
    have p1 := S1.pointer (bk := k) hs
    have p2 := S2.pointer (bk := k) hs
    cases cell with
    | none => rw [p1, p2]
    | some ws => rw [p1.1, p2.1]
  · intro irow icol iprt ws hp hne
    obtain ⟨A, B, hs⟩ := List.append_of_mem hp
    obtain ⟨p1, q1⟩ := S1.pointer (bk := k) hs
    obtain ⟨p2, q2⟩ := S2.pointer (bk := k) hs
    rw [p1, p2, q1.read (by omega) hne, q2.read (by omega) hne]
  · intro fs hne hf
    have hh : ∀ vs, .ok vs ∈ f.rowHeaders → vs.map Val.fmt = fs ∧
        (Except.ok (vs.map stored) : Except PyErr (List Val)) = .ok (vs.map stored) := fun vs hv => ⟨hf vs hv, rfl⟩
    obtain ⟨i1, v1, a1, a2, a3⟩ := C10_row_headers .little hl f bl wf rd bk h1 fs hne .ok (fun vs => vs.map stored) hh
    obtain ⟨i2, v2, b1, b2, b3⟩ := C10_row_headers .big hb f bb wf rd bk h2 fs hne .ok (fun vs => vs.map stored) hh
    rw [o1] at a1; rw [o2] at b1
    have a1 := Except.ok.inj a1
    have b1 := Except.ok.inj b1
    rw [← a1] at a3; rw [← b1] at b3
    have : v1 = v2 := List.map_injective_iff.2 (fun x y h => by injection h) (a2.symm.trans b2)
    subst this
    rw [show (expectedInfo .little f k).order = .little from rfl] at a3
    rw [show (expectedInfo .big f k).order = .big from rfl] at b3
    rw [a3, b3]
  · intro fs hne hf
    have hh : ∀ vs, .ok vs ∈ f.columnHeaders → vs.map Val.fmt = fs ∧
        (Except.ok (vs.map stored) : Except PyErr (List Val)) = .ok (vs.map stored) := fun vs hv => ⟨hf vs hv, rfl⟩
    obtain ⟨i1, v1, a1, a2, a3⟩ := C10_column_headers .little hl f bl wf rd bk h1 fs hne .ok (fun vs => vs.map stored) hh
    obtain ⟨i2, v2, b1, b2, b3⟩ := C10_column_headers .big hb f bb wf rd bk h2 fs hne .ok (fun vs => vs.map stored) hh
    rw [o1] at a1; rw [o2] at b1
    have a1 := Except.ok.inj a1
    have b1 := Except.ok.inj b1
    rw [← a1] at a3; rw [← b1] at b3
    have : v1 = v2 := List.map_injective_iff.2 (fun x y h => by injection h) (a2.symm.trans b2)
    subst this
    rw [show (expectedInfo .little f k).order = .little from rfl] at a3
    rw [show (expectedInfo .big f k).order = .big from rfl] at b3
    rw [a3, b3]

example : ∃ bl bb il ib, save .little exFile = .ok bl ∧ save .big exFile = .ok bb ∧ readDM .little bl = .ok il ∧
    readDM .little bb = .ok ib ∧ il.content = ib.content := by
  obtain ⟨bl, h1⟩ := exFile_saves .little
  obtain ⟨bb, h2⟩ := exFile_saves .big
  obtain ⟨il, ib, a, b, _, _, c, _⟩ := C20_byte_order exFile bl bb .little .little exFile_wf exFile_readable exFile_blocky h1 h2
  exact ⟨bl, bb, il, ib, h1, h2, a, b, c⟩

/-! ## C21 -/

/-- C21: a file that opens starts with the banner. -/
theorem C21_banner (host : Endian) (b : Bytes) (i : DMInfo) (h : readDM host b = .ok i) : b.take 28 = banner := by
  have := (readDM_inv h).1
  unfold readBanner at this
  split at this
  · cases this
  · split at this
    · cases this
    · rename_i t ht
      split at this
      · rename_i heq
        rw [heq] at ht
        exact utf8Dec_banner ht
      · cases this

/-- C21 (partial: `TypeError` only when the first 28 bytes exist and are valid UTF-8; a shorter file raises `struct.error`,
other bytes `UnicodeDecodeError`): which error a foreign file raises. -/
theorem C21_refused_partial (host : Endian) (b : Bytes) (h : b.take 28 ≠ banner) :
    readDM host b = .error (if b.length < 28 then .structError
      else if (utf8Dec (b.take 28)).isNone then .unicodeError else .typeError) := by
  have hb : readBanner b = .error (if b.length < 28 then .structError
      else if (utf8Dec (b.take 28)).isNone then .unicodeError else .typeError) := by
    unfold readBanner
    by_cases hl : b.length < 28
    · rw [if_pos hl, if_pos hl]
    · rw [if_neg hl, if_neg hl]
      cases hd : utf8Dec (b.take 28) with
      | none => rfl
      | some t =>
        have : t ≠ txt "GEMPAK DATA MANAGEMENT FILE " := by
          rintro rfl
          exact h (utf8Dec_banner hd)
        simp [this]
  unfold readDM
  rw [hb]
  rfl

/-- A text file of spaces raises `TypeError`, an empty file `struct.error`. -/
example : readDM .little (List.replicate 40 32) = .error .typeError ∧ readDM .little [] = .error .structError ∧
    readDM .big (List.replicate 28 255) = .error .unicodeError := by
  refine ⟨?_, ?_, ?_⟩ <;> rw [C21_refused_partial _ _ (by decide +kernel)] <;>
    exact congrArg Except.error (by decide +kernel)

/-! ## C39 -/

/-- C39 (partial: only unused headers behind all used ones, which is how the writers place them): they do not disturb. -/
theorem C39_trailing_partial (e : Endian) (b : Bytes) (w n m : Nat) (hw : 1 ≤ w) (fs : List Fmt) (hne : fs ≠ [])
    (vss : List (List Val)) (hf : ∀ vs ∈ vss, vs.map Val.fmt = fs)
    (h : HoldsW e b w (usedWords vss ++ List.replicate m (.int (-9999)))) (hn : n ≤ m) :
    readHeaders e b fs .ok (vss.length + n) (wordToPosition w) = readHeaders e b fs .ok vss.length (wordToPosition w) := by
  have h1 := readHeaders_spec (conv := .ok) (fun vs => vs.map canonW) vss n m w hw h hn hne hf (fun _ _ => rfl)
  have h2 := readHeaders_spec (conv := .ok) (fun vs => vs.map canonW) vss 0 m w hw h (by omega) hne hf (fun _ _ => rfl)
  rw [h1, ← h2, Nat.add_zero]

/-- The words of two headers with one key: the first unused, the second used with key 7. -/
def exSparse : Bytes := [0xF1, 0xD8, 0xFF, 0xFF, 0xF1, 0xD8, 0xFF, 0xFF, 0x0F, 0x27, 0, 0, 7, 0, 0, 0]

/-- The words of the used header alone. -/
def exDense : Bytes := [0x0F, 0x27, 0, 0, 7, 0, 0, 0]

/-- Deviation from C39: after an unused header only its flag is skipped, so the used header behind it is lost. -/
theorem C39_counterexample :
    readHeaders .little exDense [.i32] .ok 1 0 = .ok [[.int 7]] ∧ readHeaders .little exSparse [.i32] .ok 2 0 = .ok [] := by
  constructor <;> decide +kernel

/-! ## C40 -/

/-- Opening a cut copy of a saved file either raises or gives what the whole file gives. -/
theorem C40_open (e host : Endian) (f : DMFile) (b : Bytes) (n : Nat) (i : DMInfo) (wf : f.WF) (rd : f.Readable) (bl : f.Blocky)
    (h : save e f = .ok b) (hi : readDM host (b.take n) = .ok i) : readDM host b = .ok i := by
  have S := save_spec wf h
  obtain ⟨bk, hb⟩ := S.head.open wf rd bl
  have L := setPointers_layout f
  have l1 := L.rowKeys
  have l2 := L.columnKeys
  have l3 := L.fileKeys
  have l9 := L.aligned
  refine readDM_take hi ?_
  suffices hlab : i.label = expectedLabel f by
    rw [hlab]
    constructor <;> (unfold expectedLabel; dsimp only) <;> omega
  obtain ⟨h1, h2, h3, _⟩ := readDM_inv hi
  obtain ⟨b1, b2⟩ := readBanner_take h1
  obtain ⟨lv, h31, h32⟩ := Except.bind_ok h3
  have hl := (unpackFrom_ok (by omega) h31).1
  have c4 : fmtSize labelReadFmts = 96 := by decide +kernel
  rw [c4] at hl
  obtain ⟨g1, g2, g3, _⟩ := readDM_inv (hb host)
  have horder : i.order = e := by
    rw [h2]
    have g2 : e = readOrder host b := g2
    rw [g2]
    unfold readOrder
    have e1 : pySlice b 28 32 = (b.drop 28).take 4 := pySlice_nat b 28 32 (by omega)
    have e2 : pySlice (b.take n) 28 32 = ((b.take n).drop 28).take 4 := pySlice_nat _ 28 32 (by omega)
    rw [e1, e2, List.drop_take, List.take_take]
    have : min 4 (n - 28) = 4 := by
      rw [List.length_take] at hl
      have : (28 : Int).toNat = 28 := rfl
      omega
    rw [this]
  have h4 := unpackFrom_take (by omega) h31
  rw [horder] at h4
  have g3 : (unpackFrom e labelReadFmts b 28 >>= labelOf) = .ok (expectedLabel f) := g3
  rw [h4, ok_bind, h32] at g3
  injection g3

/-- The headers of a cut copy that still opens are those of the whole file (part entries lie behind the headers). -/
theorem C40_headers (e host : Endian) (f : DMFile) (b : Bytes) (n : Nat) (i : DMInfo) (wf : f.WF) (rd : f.Readable)
    (bl : f.Blocky) (h : save e f = .ok b) (hi : readDM host (b.take n) = .ok i) (fs : List Fmt) (hne : fs ≠ []) :
    ((∀ vs, .ok vs ∈ f.rowHeaders → vs.map Val.fmt = fs) →
      readHeaders i.order (b.take n) fs .ok i.label.rows.toNat (wordToPosition i.label.rowHeadersPtr) =
      readHeaders i.order b fs .ok i.label.rows.toNat (wordToPosition i.label.rowHeadersPtr)) ∧
    ((∀ vs, .ok vs ∈ f.columnHeaders → vs.map Val.fmt = fs) →
      readHeaders i.order (b.take n) fs .ok i.label.columns.toNat (wordToPosition i.label.columnHeadersPtr) =
      readHeaders i.order b fs .ok i.label.columns.toNat (wordToPosition i.label.columnHeadersPtr)) := by
  have S := save_spec wf h
  have L := setPointers_layout f
  have l1 := L.rowKeys
  have l2 := L.columnKeys
  have l3 := L.fileKeys
  have l4 := L.fileEnd
  have l5 := L.columnHeaders
  have l6 := L.columnEnd
  have l9 := L.aligned
  obtain ⟨bk, hb⟩ := S.head.open wf rd bl
  have hfull := C40_open e host f b n i wf rd bl h hi
  rw [hb host] at hfull
  injection hfull with hfull
  subst hfull
  -- the cut lies behind the beginning of the part entries
  have hcut : (setPointers f).parts * 4 - 4 ≤ n := by
    obtain ⟨_, _, _, _, _, _, _, h8, h9, _⟩ := readDM_inv hi
    have hp : (expectedInfo e f bk).label.parts.toNat = f.parts.length := by
      show ((f.parts.length : Nat) : Int).toNat = _; omega
    rw [hp] at h9
    have hlen : 0 < f.parts.length := List.length_pos_of_ne_nil rd.parts.1
    obtain ⟨k, hk⟩ : ∃ k, f.parts.length = k + 1 := ⟨f.parts.length - 1, by omega⟩
    rw [hk] at h9
    unfold readParts at h9
    obtain ⟨p, h10, _⟩ := Except.bind_ok h9
    obtain ⟨vs, h11, _⟩ := Except.bind_ok h10
    have h12 : (expectedInfo e f bk).label.partsPtr = ((setPointers f).parts : Int) := rfl
    rw [h12] at h11
    have := (unpackFrom_ok (by unfold wordToPosition; omega) h11).1
    rw [List.length_take] at this
    unfold wordToPosition at this
    omega
  obtain ⟨rv, r1, r2, r3⟩ := S.head.rowHeaders
  obtain ⟨cv, c1, c2, c3⟩ := S.head.columnHeaders
  have hrv : rv.length ≤ f.rows := by have := wf.rowCount; rw [r1] at this; simpa using this
  have hcv : cv.length ≤ f.columns := by have := wf.columnCount; rw [c1] at this; simpa using this
  have r4 := r3.take (n := n) (by omega) (by rw [headerWords_length r2 hrv]; omega)
  have c4 := c3.take (n := n) (by omega) (by rw [headerWords_length c2 hcv]; omega)
  constructor
  · intro hf
    have hf' : ∀ vs ∈ rv, vs.map Val.fmt = fs := fun vs hv => hf vs (by rw [r1]; exact List.mem_map_of_mem hv)
    have x := readHeaders_spec (conv := .ok) (fun vs => vs.map canonW) rv (f.rows - rv.length) _ _ (by omega) r3
      (Nat.le_mul_of_pos_right _ (by omega)) hne hf' (fun _ _ => rfl)
    have y := readHeaders_spec (conv := .ok) (fun vs => vs.map canonW) rv (f.rows - rv.length) _ _ (by omega) r4
      (Nat.le_mul_of_pos_right _ (by omega)) hne hf' (fun _ _ => rfl)
    rw [Nat.add_sub_cancel' hrv] at x y
    exact y.trans x.symm
  · intro hf
    have hf' : ∀ vs ∈ cv, vs.map Val.fmt = fs := fun vs hv => hf vs (by rw [c1]; exact List.mem_map_of_mem hv)
    have x := readHeaders_spec (conv := .ok) (fun vs => vs.map canonW) cv (f.columns - cv.length) _ _ (by omega) c3
      (Nat.le_mul_of_pos_right _ (by omega)) hne hf' (fun _ _ => rfl)
    have y := readHeaders_spec (conv := .ok) (fun vs => vs.map canonW) cv (f.columns - cv.length) _ _ (by omega) c4
      (Nat.le_mul_of_pos_right _ (by omega)) hne hf' (fun _ _ => rfl)
    rw [Nat.add_sub_cancel' hcv] at x y
    exact y.trans x.symm

/-- C40 (partial: whole words cut, the pointer itself read from an intact table, record headers of at least one word):
reading a record from any cut file, saved or foreign, raises or gives the values of the whole file. -/
theorem C40_record_partial (i : DMInfo) (b : Bytes) (n : Nat) (part : PartInfo) (ptr : Int) (fmt : Fmt) (vs : List Val)
    (hn : 4 ∣ n) (hb : 4 ∣ b.length) (hptr : 1 ≤ ptr) (hh : 1 ≤ part.headerLength)
    (h : readRecord i (b.take n) part ptr fmt = .ok vs) : readRecord i b part ptr fmt = .ok vs := by
  unfold readRecord at h ⊢
  dsimp only at h ⊢
  have hp0 : 0 ≤ wordToPosition ptr := by unfold wordToPosition; omega
  have hp4 : (4 : Int) ∣ wordToPosition ptr := by unfold wordToPosition; omega
  generalize wordToPosition ptr = p at *
  by_cases hfit : p + 4 ≤ ((b.take n).length : Int)
  · have e1 : pySlice (b.take n) p (p + 4) = pySlice b p (p + 4) := by
      have q1 : p = ((p.toNat : Nat) : Int) := by omega
      have q2 : p + 4 = ((p.toNat + 4 : Nat) : Int) := by omega
      rw [q2, q1]
      simp only [Int.toNat_natCast]
      rw [pySlice_nat _ _ _ (by omega), pySlice_nat _ _ _ (by omega), List.drop_take, List.take_take]
      rw [List.length_take] at hfit
      congr 1
      omega
    rw [readWord_take hp0 hfit, e1] at h
    split at h
    · cases h
    · rename_i hl
      rw [if_neg hl]
      refine unpackFrom_take ?_ h
      unfold wordToPosition
      omega
  · exfalso
    have hlen : ((b.take n).length : Int) ≤ p := by
      rw [List.length_take] at hfit ⊢
      omega
    have e1 : pySlice (b.take n) p (p + 4) = [] := by
      have q1 : p = ((p.toNat : Nat) : Int) := by omega
      have q2 : p + 4 = ((p.toNat + 4 : Nat) : Int) := by omega
      rw [q2, q1]
      simp only [Int.toNat_natCast]
      rw [pySlice_nat _ _ _ (by omega), List.drop_eq_nil_of_le (by omega), List.take_nil]
    have e2 : readWord i.order (b.take n) p = 0 := by
      unfold readWord
      rw [e1]
      cases i.order <;> rfl
    rw [e2, if_pos (by omega)] at h
    cases h

/-- Deviation from C40: a saved file cut right before its pointer table still opens, and every cell then looks empty. -/
theorem C40_data_lost (e host : Endian) (f : DMFile) (b : Bytes) (wf : f.WF) (rd : f.Readable) (bl : f.Blocky)
    (h : save e f = .ok b) :
    ∃ i n, readDM host (b.take n) = .ok i ∧ readDM host b = .ok i ∧
      ∀ irow icol iprt, dataPointer i (b.take n) irow icol iprt = 0 := by
  have S := save_spec wf h
  have L := setPointers_layout f
  have l7 := L.partsEnd
  have l9 := L.aligned
  have hpl := partWords_length wf.parts
  have T := S.head.take wf ((setPointers f).dataBlock * 4 - 4) (by rw [hpl]; omega)
  obtain ⟨bk, hb⟩ := T.open wf rd bl
  refine ⟨_, _, hb host, C40_open e host f b _ _ wf rd bl h (hb host), ?_⟩
  intro irow icol iprt
  unfold dataPointer readWord
  rw [cellPointer_eq]
  generalize (irow * f.columns + icol) * f.parts.length + iprt = k
  have e1 : pySlice (b.take ((setPointers f).dataBlock * 4 - 4)) (wordToPosition (((setPointers f).dataBlock + k : Nat) : Int))
      (wordToPosition (((setPointers f).dataBlock + k : Nat) : Int) + 4) = [] := by
    have q1 : wordToPosition (((setPointers f).dataBlock + k : Nat) : Int) = ((((setPointers f).dataBlock + k) * 4 - 4 : Nat) : Int) := by
      unfold wordToPosition; omega
    have q2 : wordToPosition (((setPointers f).dataBlock + k : Nat) : Int) + 4 = ((((setPointers f).dataBlock + k) * 4 : Nat) : Int) := by
      unfold wordToPosition; omega
    rw [q2, q1, pySlice_nat _ _ _ (by omega), List.drop_eq_nil_of_le (by rw [List.length_take]; omega), List.take_nil]
  rw [e1]
  cases (expectedInfo e f bk).order <;> rfl

example : ∃ b n i, save .little exFile = .ok b ∧ readDM .little (b.take n) = .ok i ∧ dataPointer i (b.take n) 0 0 0 = 0 ∧
    dataPointer i b 0 0 0 ≠ 0 := by
  obtain ⟨b, hb⟩ := exFile_saves .little
  obtain ⟨i, n, h1, h2, h3⟩ := C40_data_lost .little .little exFile b exFile_wf exFile_readable exFile_blocky hb
  obtain ⟨i', nf, g1, _, _, g4⟩ := C11_pointers .little .little exFile b exFile_wf exFile_readable exFile_blocky hb
  rw [h2] at g1
  injection g1 with g1
  subst g1
  refine ⟨b, n, i, hb, h1, h3 0 0 0, ?_⟩
  have := (g4 0 0 0 [.int 3, .int 0, .flt 0x41200000#32, .flt 0xC61C3C00#32] (by
    show (0, some (.ok [.int 3, .int 0, .flt 0x41200000#32, .flt 0xC61C3C00#32])) ∈ exFile.visits; simp [exFile])).2.1
  obtain ⟨j, k1, _, _, k4⟩ := C09_regions .little .little exFile b exFile_wf exFile_readable exFile_blocky hb
  rw [h2] at k1
  injection k1 with k1
  subst k1
  obtain ⟨j, k1, _, _, _, _, _, _, _, r1, r2, _, _, r3, _⟩ :=
    C10_structure_partial .little .little exFile b exFile_wf exFile_readable exFile_blocky hb
  rw [h2] at k1
  injection k1 with k1
  subst k1
  unfold Before at this
  dsimp only at this
  rw [r1, r2, r3] at this
  have c : (exFile.parts.length : Int) * exFile.rows * exFile.columns = 4 := rfl
  rw [c] at this
  obtain ⟨d, hd⟩ : ∃ bk, readDM .little b = .ok (expectedInfo .little exFile bk) := by
    obtain ⟨bk, hbk⟩ := (save_spec exFile_wf hb).head.open exFile_wf exFile_readable exFile_blocky
    exact ⟨bk, hbk .little⟩
  rw [h2] at hd
  injection hd with hd
  have : 0 ≤ i.label.dataBlockPtr := by rw [hd]; exact Int.natCast_nonneg _
  omega

end Gempak
