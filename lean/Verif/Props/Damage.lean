import Verif.Props.Narrower
import Verif.Props.PlacesHeads
import Verif.Props.PlacesGrid

/-!
# C130: a damaged record disturbs nothing else

Two files are compared: labels, headers and pointers are the same, records may differ.
-/

namespace Gempak
open Spec

namespace Spec

/-- The `k` bytes from position `p` on are the same, or as many as there are. -/
def SameBytes (b c : Bytes) (p k : Nat) : Prop := (p ≤ b.length ↔ p ≤ c.length) ∧ (b.drop p).take k = (c.drop p).take k

/-- What a file says of its structure ends within the first `n` bytes: these alone can be opened, and headers and pointers are among them. -/
structure HeadEnds (host : Endian) (b : Bytes) (n : Nat) (i : DMInfo) : Prop where
  opens : readDM host (b.take n) = .ok i
  placed : Placed i.label
  mgmt : 1 ≤ i.label.dataMgmtPtr
  rowHeads : 1 ≤ i.label.rowHeadersPtr
  rows : 4 * (i.label.rowHeadersPtr.toNat - 1) + i.label.rows.toNat * (4 + 4 * i.rowKeys.length) ≤ n
  columnHeads : 1 ≤ i.label.columnHeadersPtr
  columns : 4 * (i.label.columnHeadersPtr.toNat - 1) + i.label.columns.toNat * (4 + 4 * i.columnKeys.length) ≤ n
  table : 1 ≤ i.label.dataBlockPtr
  pointers : 4 * (i.label.dataBlockPtr.toNat - 1) + 4 * (max i.label.rows.toNat 1 * (i.label.columns.toNat * i.label.parts.toNat)) ≤ n

/-- The same structure. -/
structure SameHead (b c : Bytes) (n : Nat) : Prop where
  head : b.take n = c.take n

/-- The record of a part of a cell is the same: its length, its header and its data, or there is none.  `least` words follow the header at least. -/
def SameRecord (i : DMInfo) (b c : Bytes) (least row col k : Nat) (p : PartInfo) : Prop :=
  partWord i b row col k ≠ 0 → 0 ≤ p.headerLength ∧
    SameBytes b c (4 * (partWord i b row col k - 1)) (4 + 4 * max (fileWord i.order b (partWord i b row col k)) (p.headerLength.toNat + least))

end Spec

/-! ## Reading the same bytes -/

theorem same_sub {b c : Bytes} {p k q j : Nat} (h : SameBytes b c p k) (h1 : p ≤ q) (h2 : q + j ≤ p + k) : SameBytes b c q j := by
  obtain ⟨hi, h⟩ := h
  have e : ∀ l : Bytes, (l.drop q).take j = (((l.drop p).take k).drop (q - p)).take j := by
    intro l
    rw [List.drop_take, List.drop_drop, List.take_take, Nat.min_eq_left (by omega), Nat.add_sub_cancel' h1]
  refine ⟨?_, by rw [e b, e c, h]⟩
  have hl := congrArg List.length h
  rw [List.length_take, List.length_take, List.length_drop, List.length_drop] at hl
  omega

theorem head_same {b c : Bytes} {n : Nat} (h : SameHead b c n) : SameBytes b c 0 n := ⟨by simp, h.head⟩

theorem same_slice {b c : Bytes} {p : Int} (h0 : 0 ≤ p) (h : SameBytes b c p.toNat 4) : pySlice b p (p + 4) = pySlice c p (p + 4) := by
  obtain ⟨k, rfl⟩ := Int.eq_ofNat_of_zero_le h0
  have e : ((k : Int) + 4) = ((k + 4 : Nat) : Int) := rfl
  rw [e, pySlice_nat _ _ _ (by omega), pySlice_nat _ _ _ (by omega), Nat.add_sub_cancel_left]
  exact h.2

theorem slice_le (b : Bytes) {p : Int} (h0 : 0 ≤ p) : (pySlice b p (p + 4)).length ≤ 4 := by
  obtain ⟨k, rfl⟩ := Int.eq_ofNat_of_zero_le h0
  have e : ((k : Int) + 4) = ((k + 4 : Nat) : Int) := rfl
  rw [e, pySlice_nat _ _ _ (by omega), List.length_take]
  omega

theorem same_word {e : Endian} {b c : Bytes} {p : Int} (h0 : 0 ≤ p) (h : SameBytes b c p.toNat 4) : readWord e b p = readWord e c p := by
  unfold readWord
  rw [same_slice h0 h]

theorem same_from {e : Endian} {fs : List Fmt} {b c : Bytes} {p : Int} (h0 : 0 ≤ p) (h : SameBytes b c p.toNat (fmtSize fs)) :
    unpackFrom e fs b p = unpackFrom e fs c p := by
  unfold unpackFrom
  have hp : ¬ p < 0 := by omega
  simp only [if_neg hp]
  rw [← unpackItems_take e fs (b.drop _), ← unpackItems_take e fs (c.drop _), h.2]
  have hl := congrArg List.length h.2
  rw [List.length_take, List.length_take, List.length_drop, List.length_drop] at hl
  have hi : p.toNat + fmtSize fs ≤ b.length ↔ p.toNat + fmtSize fs ≤ c.length := by
    have := h.1
    omega
  simp only [hi]

theorem same_words {i : DMInfo} {b c : Bytes} {p n : Int} {fmt : Fmt} (hf : fmt.size = 4) (h0 : 0 ≤ p)
    (h : 0 ≤ n → SameBytes b c p.toNat (4 * n.toNat)) : readWords i b p n fmt = readWords i c p n fmt := by
  unfold readWords
  split
  · rfl
  · refine same_from h0 ?_
    have : fmtSize (List.replicate n.toNat fmt) = 4 * n.toNat := by
      simp [fmtSize, hf, Nat.mul_comm]
    rw [this]
    exact h (by omega)

theorem same_headers {α : Type} {e : Endian} {b c : Bytes} {fs : List Fmt} {conv : List Val → Except PyErr α} {n : Nat} {p : Int}
    (h0 : 0 ≤ p) (h : SameBytes b c p.toNat (n * (4 + fmtSize fs))) : readHeaders e b fs conv n p = readHeaders e c fs conv n p := by
  induction n generalizing p with
  | zero => rfl
  | succ n ih =>
    have hmul : (n + 1) * (4 + fmtSize fs) = n * (4 + fmtSize fs) + (4 + fmtSize fs) := Nat.succ_mul _ _
    have h4 : SameBytes b c p.toNat 4 := same_sub h (by omega) (by omega)
    have hs := slice_le c h0
    unfold readHeaders
    simp only [same_word h0 h4, same_slice h0 h4]
    generalize (pySlice c p (p + 4)).length = k at hs
    split
    · rw [same_from (by omega) (same_sub h (by omega) (by omega)), ih (by omega) (same_sub h (by omega) (by omega))]
    · exact ih (by omega) (same_sub h (by omega) (by omega))

/-- The structure is the same. -/
theorem same_dm {host : Endian} {b c : Bytes} {n : Nat} {i j : DMInfo} (hb : readDM host b = .ok j) (he : HeadEnds host b n i) (hs : SameHead b c n) :
    j = i ∧ readDM host c = .ok i := by
  have g : GoodPointers i.label := ⟨he.placed.fileKeys, he.placed.rowKeys, he.placed.columnKeys, he.placed.parts, he.mgmt⟩
  have h1 := readDM_take he.opens g
  rw [hb] at h1
  exact ⟨Except.ok.inj h1, readDM_take (n := n) (by rw [← hs.head]; exact he.opens) g⟩

/-- Pointers are the same. -/
theorem same_pointer {host : Endian} {b c : Bytes} {n : Nat} {i : DMInfo} (he : HeadEnds host b n i) (hs : SameHead b c n) {row col k : Nat}
    (hr : row < max i.label.rows.toNat 1) (hc : col < i.label.columns.toNat) (hk : k < i.label.parts.toNat) :
    dataPointer i b row col k = dataPointer i c row col k ∧ dataPointer i b row col k = (partWord i b row col k : Nat) := by
  have ht := he.table
  refine ⟨?_, dataPointer_file i b row col k ht (by omega) (by omega)⟩
  rw [dataPointer_file i b row col k ht (by omega) (by omega), dataPointer_file i c row col k ht (by omega) (by omega), fileWord_eq, fileWord_eq]
  have hin : 4 * (cellWord i row col k - 1) + 4 ≤ n := by
    have hp := he.pointers
    unfold cellWord
    have e1 : col * i.label.parts.toNat + k + 1 ≤ i.label.columns.toNat * i.label.parts.toNat := by
      have : (col + 1) * i.label.parts.toNat ≤ i.label.columns.toNat * i.label.parts.toNat := Nat.mul_le_mul_right _ hc
      rw [Nat.succ_mul] at this
      omega
    have e2 : (row + 1) * (i.label.columns.toNat * i.label.parts.toNat) ≤ max i.label.rows.toNat 1 * (i.label.columns.toNat * i.label.parts.toNat) :=
      Nat.mul_le_mul_right _ hr
    rw [Nat.succ_mul] at e2
    omega
  have := same_sub (head_same hs) (q := 4 * (cellWord i row col k - 1)) (j := 4) (by omega) (by omega)
  rw [this.2]

/-! ## Grids -/

theorem same_grid {i : DMInfo} {b c : Bytes} {part : PartInfo} {col k : Nat} {kx ky : Int}
    (he : dataPointer i b 0 col k = dataPointer i c 0 col k ∧ dataPointer i b 0 col k = (partWord i b 0 col k : Nat))
    (h1 : partWord i b 0 col k ≠ 0) (hs : SameRecord i b c 8 0 col k part) : gridData i b part col k kx ky = gridData i c part col k kx ky := by
  obtain ⟨hh, hs⟩ := hs h1
  unfold gridData
  dsimp only
  rw [← he.1, he.2]
  have hlen : readWord i.order b (wordToPosition (partWord i b 0 col k : Nat)) = (fileWord i.order b (partWord i b 0 col k) : Nat) :=
    readWord_file _ _ (by omega)
  generalize partWord i b 0 col k = w at *
  generalize hL : fileWord i.order b w = L at *
  have hp : wordToPosition (w : Int) = ((4 * (w - 1) : Nat) : Int) := by unfold wordToPosition; omega
  have h4 : SameBytes b c (wordToPosition (w : Int)).toNat 4 := same_sub hs (by omega) (by omega)
  have h0 : 0 ≤ wordToPosition (w : Int) := by omega
  rw [← same_word h0 h4, hlen, ← same_slice h0 h4]
  have hk := slice_le b h0
  generalize (pySlice b (wordToPosition (w : Int)) (wordToPosition (w : Int) + 4)).length = n at *
  rw [hp] at *
  have hw : wordToPosition (part.headerLength + 1) = 4 * part.headerLength := by unfold wordToPosition; omega
  rw [hw]
  obtain ⟨d, hd⟩ : ∃ d : Nat, part.headerLength = d := ⟨part.headerLength.toNat, by omega⟩
  rw [hd] at hs ⊢
  obtain ⟨q, hq⟩ : ∃ q : Nat, ((4 * (w - 1) : Nat) : Int) + n + 4 * d = q := ⟨4 * (w - 1) + n + 4 * d, by push_cast; ring⟩
  rw [hq]
  have h4' : SameBytes b c (q : Int).toNat 4 := same_sub hs (by omega) (by omega)
  rw [← same_word (by omega) h4', ← same_slice (by omega) h4']
  have hk' := slice_le b (p := (q : Int)) (by omega)
  generalize (pySlice b (q : Int) ((q : Int) + 4)).length = n' at *
  have all : ∀ (o : Nat) (j : Nat), o + j ≤ 28 → SameBytes b c (((q : Int) + n') + o).toNat j := fun o j ho => same_sub hs (by omega) (by omega)
  have start : ∀ j : Nat, j ≤ 28 → SameBytes b c ((q : Int) + n').toNat j := fun j ho => same_sub hs (by omega) (by omega)
  unfold unpackGrid
  split
  · unfold readRawGrid
    split
    · rw [same_words (fmt := .f32) rfl (by omega) fun _ => same_sub hs (by omega) (by omega)]
    · rfl
  split
  · unfold readGribGrid
    rw [same_from (c := c) (by omega) (start 12 (by omega)), same_from (b := b) (c := c) (p := (q : Int) + n' + 12) (fs := [.f32, .f32]) (by omega) (all 12 8 (by omega)),
      same_words (p := (q : Int) + n' + 20) (fmt := .i32) rfl (by omega) fun _ => same_sub hs (by omega) (by omega)]
  split
  · unfold readDiffGrid
    rw [same_from (c := c) (by omega) (start 16 (by omega)), same_from (b := b) (c := c) (p := (q : Int) + n' + 16) (fs := [.f32, .f32, .f32]) (by omega) (all 16 12 (by omega)),
      same_words (p := (q : Int) + n' + 28) (fmt := .i32) rfl (by omega) fun _ => same_sub hs (by omega) (by omega)]
  · rfl

theorem mapM_as {ε α β : Type} {f g : α → Except ε β} {l : List α} (h : ∀ x ∈ l, f x = g x) : l.mapM f = l.mapM g := by
  induction l with
  | nil => rfl
  | cons a l ih => rw [List.mapM_cons, List.mapM_cons, h a List.mem_cons_self, ih fun x hx => h x (List.mem_cons_of_mem _ hx)]

theorem headers_le {α : Type} {e : Endian} {b : Bytes} {fs : List Fmt} {conv : List Val → Except PyErr α} {n : Nat} {p : Int} {l : List α}
    (h : readHeaders e b fs conv n p = .ok l) : l.length ≤ n := by
  induction n generalizing p l with
  | zero => obtain rfl := Except.ok.inj h; exact Nat.le_refl _
  | succ n ih =>
    unfold readHeaders at h
    dsimp only at h
    split at h
    · obtain ⟨x, _, h⟩ := bind_inv h
      obtain ⟨r, h2, h⟩ := bind_inv h
      have := ih h2
      obtain rfl := Except.ok.inj h
      simpa using this
    · exact (ih h).trans (Nat.le_succ n)

theorem parts_count {host : Endian} {b : Bytes} {i : DMInfo} (h : readDM host b = .ok i) : i.parts.length = i.label.parts.toNat :=
  readParts_size (readDM_inv h).2.2.2.2.2.2.2.2.1

theorem head_places {host : Endian} {b : Bytes} {n : Nat} {i : DMInfo} (he : HeadEnds host b n i) :
    wordToPosition i.label.rowHeadersPtr = ((4 * (i.label.rowHeadersPtr.toNat - 1) : Nat) : Int) ∧
      wordToPosition i.label.columnHeadersPtr = ((4 * (i.label.columnHeadersPtr.toNat - 1) : Nat) : Int) :=
  ⟨wtp' he.rowHeads, wtp' he.columnHeads⟩

/-- The same file of grids is listed. -/
theorem same_openGrid {host : Endian} {b c : Bytes} {n : Nat} {f : GridFileR} (ho : openGrid host b = .ok f) (he : HeadEnds host b n f.info)
    (hs : SameHead b c n) : openGrid host c = .ok { f with bytes := c } ∧ f.bytes = b ∧ readDM host b = .ok f.info ∧
      ∀ g ∈ f.grids, g.number < f.info.label.columns.toNat := by
  unfold openGrid at ho
  obtain ⟨i, h1, ho⟩ := bind_inv ho
  obtain ⟨_, h2, ho⟩ := bind_inv ho
  obtain ⟨_, h3, ho⟩ := bind_inv ho
  obtain ⟨_, h4, ho⟩ := bind_inv ho
  obtain ⟨cols, h5, ho⟩ := bind_inv ho
  obtain ⟨gs, h6, ho⟩ := bind_inv ho
  obtain ⟨size, h7, ho⟩ := bind_inv ho
  obtain rfl := Except.ok.inj ho
  have h8 := (same_dm h1 he hs).2
  obtain ⟨p1, p2⟩ := head_places he
  have hr := he.rows
  have hc := he.columns
  dsimp only at h8 p1 p2 hr hc
  have z1 : fmtSize (i.rowKeys.map fun _ => Fmt.i32) = 4 * i.rowKeys.length := by simp [fmtSize, Fmt.size, Nat.mul_comm]
  have z2 := fmtSize_gkeys i.columnKeys
  rw [same_headers (by omega) (same_sub (head_same hs) (by omega) (by rw [p1, z1]; omega))] at h3
  rw [same_headers (by omega) (same_sub (head_same hs) (by omega) (by rw [p2, z2]; omega))] at h5
  refine ⟨?_, rfl, h1, fun g hg => ?_⟩
  · unfold openGrid
    rw [h8, ok_bind, h2, ok_bind, h3, ok_bind, h4, ok_bind, h5, ok_bind, h6, ok_bind, h7, ok_bind]
  · obtain ⟨k, x, e1, e2, _⟩ := gridInfos_get h6 hg
    have := (List.getElem?_eq_some_iff.1 e2).1
    have := headers_le h5
    show g.number < i.label.columns.toNat
    omega

theorem same_column {host : Endian} {b c : Bytes} {n : Nat} {f : GridFileR} (lower : Text → Text) (he : HeadEnds host b n f.info) (hs : SameHead b c n)
    (hb : f.bytes = b) {g : GridInfo} (hg : g.number < f.info.label.columns.toNat) (ps : List PartInfo) (k : Nat)
    (hk : k + ps.length ≤ f.info.label.parts.toNat)
    (hr : ∀ (j : Nat) (p : PartInfo), ps[j]? = some p → partWord f.info b 0 g.number (k + j) ≠ 0 ∧ SameRecord f.info b c 8 0 g.number (k + j) p) :
    columnGrids lower { f with bytes := c } g ps k = columnGrids lower f g ps k := by
  induction ps generalizing k with
  | nil => rfl
  | cons p ps ih =>
    rw [List.length_cons] at hk
    obtain ⟨r1, r2⟩ := hr 0 p rfl
    rw [Nat.add_zero] at r1 r2
    have ht := ih (k + 1) (by omega) fun j q hq => by
      have := hr (j + 1) q hq
      rwa [show k + (j + 1) = k + 1 + j by omega] at this
    unfold columnGrids
    rw [ht]
    dsimp only
    cases f.size with
    | none => rfl
    | some z =>
      dsimp only
      rw [hb, same_grid (same_pointer he hs (by omega) hg (by omega)) r1 r2]

/-- **C130** for grids: whatever becomes of some records of a file, as long as it keeps its structure, it lists the same grids, and
a query is answered as before if the records of the grids it asks for are the same.  The earliest or latest second time may be asked for when all grids
have one (`C34_second_time`). -/
theorem C130_grid_partial (host : Endian) (b c : Bytes) (n : Nat) (f : GridFileR) (ho : openGrid host b = .ok f) (he : HeadEnds host b n f.info)
    (hs : SameHead b c n) :
    ∃ f', openGrid host c = .ok f' ∧ f'.grids = f.grids ∧ ∀ (upper lower : Text → Text) (q : GridQuery),
      (AsksExtreme2 q → ∀ g ∈ f.grids, g.time2 ≠ none) →
      (∀ g ∈ f.grids, GWanted upper q f.grids g → ∀ (j : Nat) (p : PartInfo), f.info.parts[j]? = some p →
        partWord f.info b 0 g.number j ≠ 0 ∧ SameRecord f.info b c 8 0 g.number j p) →
      gdxarray upper lower q f' = gdxarray upper lower q f := by
  obtain ⟨o1, o2, o3, o4⟩ := same_openGrid ho he hs
  refine ⟨_, o1, rfl, fun upper lower q h2 hr => ?_⟩
  by_cases h0 : f.grids = []
  · obtain ⟨a1, a2⟩ := C34_empty f upper lower q h0
    obtain ⟨b1, b2⟩ := C34_empty { f with bytes := c } upper lower q h0
    by_cases hq : AsksExtreme1 q ∨ AsksExtreme2 q
    · rw [a1 hq, b1 hq]
    · rw [a2 hq, b2 hq]
  · unfold gdxarray
    dsimp only
    rw [selectGrids_spec upper q f.grids (openGrid_times ho).1 (fun _ => h0) (fun hq => ⟨h0, h2 hq⟩)]
    split
    · rfl
    · rw [ok_bind, ok_bind]
      have : (gselected upper q f.grids).mapM (fun g => columnGrids lower { f with bytes := c } g f.info.parts 0) =
          (gselected upper q f.grids).mapM (fun g => columnGrids lower f g f.info.parts 0) := by
        refine mapM_as fun g hg => ?_
        classical
        obtain ⟨m1, m2⟩ := List.mem_filter.1 hg
        rw [decide_eq_true_eq] at m2
        refine same_column lower he hs o2 (o4 g m1) _ 0 (by rw [parts_count o3]; omega) fun j p hp => ?_
        rw [Nat.zero_add]
        exact hr g m1 m2 j p hp
      rw [this]

/-! ## Station files -/

theorem same_record {i : DMInfo} {b c : Bytes} {part : PartInfo} {row col k : Nat} {fmt : Fmt} (hf : fmt.size = 4)
    (h1 : partWord i b row col k ≠ 0) (hs : SameRecord i b c 0 row col k part) :
    readRecord i b part (partWord i b row col k : Nat) fmt = readRecord i c part (partWord i b row col k : Nat) fmt ∧
      readText i b part (partWord i b row col k : Nat) = readText i c part (partWord i b row col k : Nat) := by
  obtain ⟨hh, hs⟩ := hs h1
  unfold readRecord readText
  dsimp only
  have hlen : readWord i.order b (wordToPosition (partWord i b row col k : Nat)) = (fileWord i.order b (partWord i b row col k) : Nat) :=
    readWord_file _ _ (by omega)
  generalize partWord i b row col k = w at *
  generalize hL : fileWord i.order b w = L at *
  have hp : wordToPosition (w : Int) = ((4 * (w - 1) : Nat) : Int) := by unfold wordToPosition; omega
  have h4 : SameBytes b c (wordToPosition (w : Int)).toNat 4 := same_sub hs (by omega) (by omega)
  have h0 : 0 ≤ wordToPosition (w : Int) := by omega
  rw [← same_word h0 h4, hlen, ← same_slice h0 h4]
  have hk := slice_le b h0
  generalize (pySlice b (wordToPosition (w : Int)) (wordToPosition (w : Int) + 4)).length = n at *
  rw [hp] at *
  have hw : wordToPosition (part.headerLength + 1) = 4 * part.headerLength := by unfold wordToPosition; omega
  rw [hw]
  obtain ⟨d, hd⟩ : ∃ d : Nat, part.headerLength = d := ⟨part.headerLength.toNat, by omega⟩
  rw [hd] at hs ⊢
  constructor
  · split
    · rfl
    · refine same_from (by omega) ?_
      have : fmtSize (List.replicate ((L : Int) - d).toNat fmt) = 4 * ((L : Int) - d).toNat := by simp [fmtSize, hf, Nat.mul_comm]
      rw [this]
      exact same_sub hs (by omega) (by omega)
  · split
    · rfl
    · rw [same_from (by omega) ?_]
      have : fmtSize [Fmt.str (((L : Int) - d) * 4).toNat] = (((L : Int) - d) * 4).toNat := by simp [fmtSize, Fmt.size]
      rw [this]
      exact same_sub hs (by omega) (by omega)

theorem same_parts {i : DMInfo} {b c : Bytes} {part : PartInfo} {params : ParamInfo} {row col k : Nat}
    (h1 : partWord i b row col k ≠ 0) (hs : SameRecord i b c 0 row col k part) :
    surfacePart i b part params (partWord i b row col k : Nat) = surfacePart i c part params (partWord i b row col k : Nat) ∧
      soundingPart i b part params (partWord i b row col k : Nat) = soundingPart i c part params (partWord i b row col k : Nat) ∧
      unmergedPart i b part params (partWord i b row col k : Nat) = unmergedPart i c part params (partWord i b row col k : Nat) := by
  obtain ⟨r1, r2⟩ := same_record (fmt := .f32) rfl h1 hs
  obtain ⟨r3, _⟩ := same_record (fmt := .i32) rfl h1 hs
  have h3 : soundingPart i b part params (partWord i b row col k : Nat) = soundingPart i c part params (partWord i b row col k : Nat) := by
    unfold soundingPart readReals
    rw [r1, r3]
  refine ⟨?_, h3, ?_⟩
  · unfold surfacePart readReals
    rw [r1, r2, r3]
  · unfold unmergedPart
    rw [h3, r2]

section
variable {host : Endian} {b c : Bytes} {n : Nat} {i : DMInfo}

/-- What is read from the parts of a cell is the same. -/
theorem same_items (he : HeadEnds host b n i) (hs : SameHead b c n) {row col : Nat}
    (hrow : row < max i.label.rows.toNat 1) (hcol : col < i.label.columns.toNat) (ps : List (PartInfo × ParamInfo)) (k : Nat)
    (hk : k + ps.length ≤ i.label.parts.toNat)
    (hr : ∀ (j : Nat) (p : PartInfo × ParamInfo), ps[j]? = some p → SameRecord i b c 0 row col (k + j) p.1) :
    cellItems (surfacePart i c) i c row col ps k = cellItems (surfacePart i b) i b row col ps k ∧
      cellItems (soundingPart i c) i c row col ps k = cellItems (soundingPart i b) i b row col ps k ∧
      ∀ acc, unmergedParts i c row col ps k acc = unmergedParts i b row col ps k acc := by
  induction ps generalizing k with
  | nil => exact ⟨rfl, rfl, fun _ => rfl⟩
  | cons x ps ih =>
    obtain ⟨p, a⟩ := x
    rw [List.length_cons] at hk
    obtain ⟨t1, t2, t3⟩ := ih (k + 1) (by omega) fun j q hq => by
      have := hr (j + 1) q hq
      rwa [show k + (j + 1) = k + 1 + j by omega] at this
    have hx := hr 0 _ rfl
    rw [Nat.add_zero] at hx
    obtain ⟨e1, e2⟩ := same_pointer he hs hrow hcol (k := k) (by omega)
    simp only [cellItems, unmergedParts, ← e1]
    by_cases h0 : dataPointer i b row col k = 0
    · simp only [if_pos h0]
      exact ⟨t1, t2, t3⟩
    · simp only [if_neg h0]
      rw [e2] at h0 ⊢
      obtain ⟨s1, s2, s3⟩ := same_parts (params := a) (by omega) hx
      rw [s1, s2, s3, t1, t2]
      exact ⟨rfl, rfl, fun acc => by simp only [t3]⟩

theorem same_station {rk ck : Text → KeyKind} {f : StationFile} (ho : openStation rk ck host b = .ok f) (he : HeadEnds host b n f.info)
    (hs : SameHead b c n) : openStation rk ck host c = .ok { f with bytes := c } ∧ f.bytes = b ∧ readDM host b = .ok f.info ∧
      f.rows.length ≤ f.info.label.rows.toNat ∧ f.cols.length ≤ f.info.label.columns.toNat := by
  unfold openStation at ho
  obtain ⟨i, h1, ho⟩ := bind_inv ho
  obtain ⟨_, h2, ho⟩ := bind_inv ho
  obtain ⟨rows, h3, ho⟩ := bind_inv ho
  obtain ⟨_, h4, ho⟩ := bind_inv ho
  obtain ⟨cols, h5, ho⟩ := bind_inv ho
  obtain rfl := Except.ok.inj ho
  have h8 := (same_dm h1 he hs).2
  obtain ⟨p1, p2⟩ := head_places he
  have hr := he.rows
  have hc := he.columns
  dsimp only at h8 p1 p2 hr hc
  have z1 := fmtSize_keys rk i.rowKeys
  have z2 := fmtSize_keys ck i.columnKeys
  rw [same_headers (by omega) (same_sub (head_same hs) (by omega) (by rw [p1, z1]; omega))] at h3
  rw [same_headers (by omega) (same_sub (head_same hs) (by omega) (by rw [p2, z2]; omega))] at h5
  refine ⟨?_, rfl, h1, headers_le h3, headers_le h5⟩
  unfold openStation
  rw [h8, ok_bind, h2, ok_bind, h3, ok_bind, h4, ok_bind, h5, ok_bind]

/-- Cells lie in the table. -/
theorem zipIdx_lt {α : Type} {l : List α} {x : α × Nat} (h : x ∈ l.zipIdx) : x.2 < l.length := by
  obtain ⟨a, j⟩ := x
  have := List.snd_lt_of_mem_zipIdx h
  simpa using this

theorem cell_within {t : SfType} {rows cols : List Header} {x : CellRef} (h : x ∈ t.cells rows cols) : (x.row < rows.length ∨ x.row = 0) ∧ x.col < cols.length := by
  cases t with
  | standard =>
    obtain ⟨r, hr, h⟩ := List.mem_flatMap.1 h
    obtain ⟨k, hk, rfl⟩ := List.mem_map.1 h
    exact ⟨Or.inl (zipIdx_lt hr), zipIdx_lt hk⟩
  | ship =>
    obtain ⟨k, hk, rfl⟩ := List.mem_map.1 h
    exact ⟨Or.inr rfl, zipIdx_lt hk⟩
  | climate =>
    obtain ⟨r, hr, h⟩ := List.mem_flatMap.1 h
    obtain ⟨k, hk, rfl⟩ := List.mem_map.1 h
    exact ⟨Or.inl (zipIdx_lt hk), zipIdx_lt hr⟩

end

section
variable {ε γ δ ω : Type} {inj : PyErr → ε} {upper : Text → Text} {arg : StrArg → List Text} {asks : StrArg → Text → Prop}
  {read read' : SiteInfo → Except ε γ} {keep : γ → List δ} {make : δ → Except ε ω} {all : List SiteInfo}

/-- A query is answered as before when what it asks for is read as before. -/
theorem same_answer (harg : ∀ a t, t ∈ arg a ↔ asks a t) (hv : TimesExist all) {q : SiteQuery}
    (hr : ∀ s ∈ all, Wanted upper asks q all s → read s = read' s) :
    answer inj (selectSites upper arg q all) (collect read keep make) = answer inj (selectSites upper arg q all) (collect read' keep make) := by
  cases hm : selectSites upper arg q all with
  | error e => rfl
  | ok m =>
    obtain ⟨_, rfl⟩ := select_some harg hv hm
    unfold answer collect
    dsimp only
    rw [mapM_as fun s hs => ?_]
    classical
    obtain ⟨m1, m2⟩ := List.mem_filter.1 hs
    rw [decide_eq_true_eq] at m2
    exact hr s m1 m2

end

theorem surfaceInfo_place {c : CellRef} {s : SiteInfo} (h : surfaceInfo c = .ok s) : s.row = c.row ∧ s.col = c.col := by
  unfold surfaceInfo at h
  obtain ⟨_, _, h⟩ := bind_inv h
  obtain ⟨_, _, h⟩ := bind_inv h
  obtain ⟨_, _, h⟩ := bind_inv h
  obtain ⟨_, _, h⟩ := bind_inv h
  obtain ⟨_, _, h⟩ := bind_inv h
  obtain ⟨_, _, h⟩ := bind_inv h
  obtain ⟨_, _, h⟩ := bind_inv h
  obtain ⟨_, _, h⟩ := bind_inv h
  obtain ⟨_, _, h⟩ := bind_inv h
  obtain rfl := Except.ok.inj h
  exact ⟨rfl, rfl⟩

theorem soundingInfo_place {c : CellRef} {s : SiteInfo} (h : soundingInfo c = .ok s) : s.row = c.row ∧ s.col = c.col := by
  unfold soundingInfo at h
  obtain ⟨_, _, h⟩ := bind_inv h
  obtain ⟨_, _, h⟩ := bind_inv h
  obtain ⟨_, _, h⟩ := bind_inv h
  obtain ⟨_, _, h⟩ := bind_inv h
  obtain ⟨_, _, h⟩ := bind_inv h
  obtain ⟨_, _, h⟩ := bind_inv h
  obtain ⟨_, _, h⟩ := bind_inv h
  obtain ⟨_, _, h⟩ := bind_inv h
  obtain rfl := Except.ok.inj h
  exact ⟨rfl, rfl⟩

section
variable {host : Endian} {b c : Bytes} {n : Nat}

theorem same_openSurface {g : SurfaceReader} (ho : openSurface host b = .ok g) (he : HeadEnds host b n g.info) (hs : SameHead b c n) :
    openSurface host c = .ok { g with bytes := c } ∧ g.bytes = b ∧ readDM host b = .ok g.info ∧
      ∀ s ∈ g.sfinfo, s.row < max g.info.label.rows.toNat 1 ∧ s.col < g.info.label.columns.toNat := by
  unfold openSurface at ho
  obtain ⟨f, h1, ho⟩ := bind_inv ho
  obtain ⟨t, h2, ho⟩ := bind_inv ho
  obtain ⟨infos, h3, ho⟩ := bind_inv ho
  obtain rfl := Except.ok.inj ho
  dsimp only at he
  obtain ⟨o1, o2, o3, o4, o5⟩ := same_station h1 he hs
  have hin : ∀ x ∈ t.cells f.rows f.cols, x.row < max f.info.label.rows.toNat 1 ∧ x.col < f.info.label.columns.toNat := by
    intro x hx
    have := cell_within hx
    omega
  have hdata : ∀ x ∈ t.cells f.rows f.cols, hasData f.info b x.row x.col = hasData f.info c x.row x.col := by
    intro x hx
    obtain ⟨a1, a2⟩ := hin x hx
    unfold hasData
    rw [Bool.eq_iff_iff, List.any_eq_true, List.any_eq_true]
    have : ∀ k ∈ List.range f.info.parts.length, dataPointer f.info b x.row x.col k = dataPointer f.info c x.row x.col k := by
      intro k hk
      rw [List.mem_range, parts_count o3] at hk
      exact (same_pointer he hs a1 a2 hk).1
    constructor
    · rintro ⟨k, hk, e⟩
      exact ⟨k, hk, by rw [← this k hk]; exact e⟩
    · rintro ⟨k, hk, e⟩
      exact ⟨k, hk, by rw [this k hk]; exact e⟩
  refine ⟨?_, o2, o3, fun s hs' => ?_⟩
  · unfold openSurface
    rw [o1, ok_bind]
    dsimp only
    rw [h2, ok_bind, ← List.filter_congr hdata, h3, ok_bind]
  · unfold SurfaceReader.sfinfo at hs'
    rw [(List.mergeSort_perm _ _).mem_iff] at hs'
    dsimp only at hs'
    revert s
    refine mapM_all h3 (fun s => s.row < max f.info.label.rows.toNat 1 ∧ s.col < f.info.label.columns.toNat) ?_
    intro x hx s hsx
    obtain ⟨e1, e2⟩ := surfaceInfo_place hsx
    rw [e1, e2]
    exact hin x (List.mem_filter.1 hx).1

theorem same_openSounding {g : SoundingReader} (ho : openSounding host b = .ok g) (he : HeadEnds host b n g.info) (hs : SameHead b c n) :
    openSounding host c = .ok { g with bytes := c } ∧ g.bytes = b ∧ readDM host b = .ok g.info ∧
      ∀ s ∈ g.sninfo, s.row < max g.info.label.rows.toNat 1 ∧ s.col < g.info.label.columns.toNat := by
  unfold openSounding at ho
  obtain ⟨f, h1, ho⟩ := bind_inv ho
  dsimp only at ho
  obtain ⟨infos, h3, ho⟩ := bind_inv ho
  obtain rfl := Except.ok.inj ho
  dsimp only at he
  obtain ⟨o1, o2, o3, o4, o5⟩ := same_station h1 he hs
  have hpart := (readDM_inv o3).2.2.2.2.2.2.2.1
  have hin : ∀ x ∈ standardCells f.rows f.cols, x.row < max f.info.label.rows.toNat 1 ∧ x.col < f.info.label.columns.toNat := by
    intro x hx
    have := cell_within (t := .standard) hx
    omega
  have hdata : ∀ x ∈ standardCells f.rows f.cols, decide (dataPointer f.info b x.row x.col 0 ≠ 0) = decide (dataPointer f.info c x.row x.col 0 ≠ 0) := by
    intro x hx
    obtain ⟨a1, a2⟩ := hin x hx
    rw [(same_pointer he hs a1 a2 (by omega)).1]
  refine ⟨?_, o2, o3, fun s hs' => ?_⟩
  · unfold openSounding
    rw [o1, ok_bind]
    dsimp only
    rw [← List.filter_congr hdata, h3, ok_bind]
  · unfold SoundingReader.sninfo at hs'
    rw [(List.mergeSort_perm _ _).mem_iff] at hs'
    dsimp only at hs'
    revert s
    refine mapM_all h3 (fun s => s.row < max f.info.label.rows.toNat 1 ∧ s.col < f.info.label.columns.toNat) ?_
    intro x hx s hsx
    obtain ⟨e1, e2⟩ := soundingInfo_place hsx
    rw [e1, e2]
    exact hin x (List.mem_filter.1 hx).1

theorem zip_parts {i : DMInfo} (h : readDM host b = .ok i) : 0 + (i.parts.zip i.params).length ≤ i.label.parts.toNat := by
  have := parts_count h
  rw [List.length_zip]
  omega

theorem zip_first {i : DMInfo} {row col : Nat} (hr : ∀ (j : Nat) (p : PartInfo), i.parts[j]? = some p → SameRecord i b c 0 row col j p) :
    ∀ (j : Nat) (p : PartInfo × ParamInfo), (i.parts.zip i.params)[j]? = some p → SameRecord i b c 0 row col (0 + j) p.1 := by
  intro j p hp
  rw [Nat.zero_add]
  refine hr j p.1 ?_
  rw [List.getElem?_zip_eq_some] at hp
  exact hp.1

end

/-- **C130** for surface files: whatever becomes of some records of a file, as long as it keeps its structure, it lists the same
reports, and a query is answered as before if the records of the reports it asks for are the same. -/
theorem C130_surface (host : Endian) (b c : Bytes) (n : Nat) (g : SurfaceReader) (ho : openSurface host b = .ok g) (he : HeadEnds host b n g.info)
    (hs : SameHead b c n) :
    ∃ g', openSurface host c = .ok g' ∧ g'.sfinfo = g.sfinfo ∧ ∀ (upper lower : Text → Text) (q : SiteQuery) (special : Bool),
      (∀ s ∈ g.sfinfo, Wanted upper (Asks upper) q g.sfinfo s → ∀ (j : Nat) (p : PartInfo), g.info.parts[j]? = some p →
        SameRecord g.info b c 0 s.row s.col j p) →
      g'.sfjson upper lower q special = g.sfjson upper lower q special := by
  obtain ⟨o1, o2, o3, o4⟩ := same_openSurface ho he hs
  refine ⟨_, o1, rfl, fun upper lower q special hr => ?_⟩
  rw [sfjson_collect, sfjson_collect]
  refine same_answer (asks_all upper) (sfinfo_times ho) fun s hm hw => ?_
  obtain ⟨a1, a2⟩ := o4 s hm
  have := (same_items he hs a1 a2 _ 0 (zip_parts o3) (zip_first (hr s hm hw))).1
  unfold SurfaceReader.unpackCell SurfaceReader.heads
  dsimp only
  rw [this, o2]

/-- **C130** for files of merged soundings. -/
theorem C130_sounding (host : Endian) (b c : Bytes) (n : Nat) (g : SoundingReader) (ho : openSounding host b = .ok g) (he : HeadEnds host b n g.info)
    (hs : SameHead b c n) (hm : g.merged = true) :
    ∃ g', openSounding host c = .ok g' ∧ g'.sninfo = g.sninfo ∧ ∀ (upper lower : Text → Text) (q : SiteQuery),
      (∀ s ∈ g.sninfo, Wanted upper (AsksExactly upper) q g.sninfo s → ∀ (j : Nat) (p : PartInfo), g.info.parts[j]? = some p →
        SameRecord g.info b c 0 s.row s.col j p) →
      g'.snxarray upper lower q = g.snxarray upper lower q ∧ g'.datasets upper lower q = g.datasets upper lower q := by
  obtain ⟨o1, o2, o3, o4⟩ := same_openSounding ho he hs
  refine ⟨_, o1, rfl, fun upper lower q hr => ?_⟩
  have key : ({ g with bytes := c } : SoundingReader).snxarray upper lower q = g.snxarray upper lower q := by
    rw [snxarray_collect g upper lower q hm, snxarray_collect { g with bytes := c } upper lower q hm]
    refine same_answer (asks_one upper) (sninfo_times ho) fun s hmem hw => ?_
    obtain ⟨a1, a2⟩ := o4 s hmem
    have := (same_items he hs a1 a2 _ 0 (zip_parts o3) (zip_first (hr s hmem hw))).2.1
    unfold SoundingReader.unpackMerged
    dsimp only
    rw [this, o2]
  refine ⟨key, ?_⟩
  unfold SoundingReader.datasets
  rw [key]

/-- **C130** for files of unmerged soundings. -/
theorem C130_unmerged {α : Type} [Field α] [LinearOrder α] [IsStrictOrderedRing α] [FloorRing α] (cc : Calc α) (e : LevEnv α) (fuel : Nat)
    (host : Endian) (b c : Bytes) (n : Nat) (g : SoundingReader) (ho : openSounding host b = .ok g) (he : HeadEnds host b n g.info)
    (hs : SameHead b c n) :
    ∃ g', openSounding host c = .ok g' ∧ g'.sninfo = g.sninfo ∧ ∀ (upper lower : Text → Text) (q : SiteQuery),
      (∀ s ∈ g.sninfo, Wanted upper (AsksExactly upper) q g.sninfo s → ∀ (j : Nat) (p : PartInfo), g.info.parts[j]? = some p →
        SameRecord g.info b c 0 s.row s.col j p) →
      g'.unmergedDatasets cc e fuel upper lower q = g.unmergedDatasets cc e fuel upper lower q := by
  obtain ⟨o1, o2, o3, o4⟩ := same_openSounding ho he hs
  refine ⟨_, o1, rfl, fun upper lower q hr => ?_⟩
  rw [unmerged_collect, unmerged_collect]
  refine same_answer (asks_one upper) (sninfo_times ho) fun s hmem hw => ?_
  obtain ⟨a1, a2⟩ := o4 s hmem
  have := (same_items he hs a1 a2 _ 0 (zip_parts o3) (zip_first (hr s hmem hw))).2.2
  unfold SoundingReader.unpackUnmerged
  dsimp only
  rw [this, o2]

/-! ## Cases -/

theorem headEnds_of {host : Endian} {b : Bytes} {n : Nat} {i : DMInfo} (hb : readDM host b = .ok i)
    (h : (readDM host (b.take n)).toOption.any (fun i => decide (
      (1 ≤ i.label.fileKeysPtr ∧ 1 ≤ i.label.rowKeysPtr ∧ 1 ≤ i.label.columnKeysPtr ∧ 1 ≤ i.label.partsPtr ∧ 1 ≤ i.label.dataMgmtPtr) ∧
      1 ≤ i.label.rowHeadersPtr ∧ 4 * (i.label.rowHeadersPtr.toNat - 1) + i.label.rows.toNat * (4 + 4 * i.rowKeys.length) ≤ n ∧
      1 ≤ i.label.columnHeadersPtr ∧ 4 * (i.label.columnHeadersPtr.toNat - 1) + i.label.columns.toNat * (4 + 4 * i.columnKeys.length) ≤ n ∧
      1 ≤ i.label.dataBlockPtr ∧
      4 * (i.label.dataBlockPtr.toNat - 1) + 4 * (max i.label.rows.toNat 1 * (i.label.columns.toNat * i.label.parts.toNat)) ≤ n)) = true) :
    HeadEnds host b n i := by
  cases hd : readDM host (b.take n) with
  | error e => rw [hd] at h; cases h
  | ok j =>
    rw [hd] at h
    obtain ⟨⟨a1, a2, a3, a4, a5⟩, b1, b2, c1, c2, d1, d2⟩ := of_decide_eq_true h
    have := readDM_take hd ⟨a1, a2, a3, a4, a5⟩
    rw [hb] at this
    obtain rfl := Except.ok.inj this
    exact ⟨hd, ⟨a1, a2, a3, a4⟩, a5, b1, b2, c1, c2, d1, d2⟩

/-- The sample file of grids with the last record overwritten. -/
def brokenSample : Bytes := valuesSample.take 2124 ++ List.replicate 52 0xff

theorem openGrid_dm {host : Endian} {b : Bytes} {f : GridFileR} (h : openGrid host b = .ok f) : readDM host b = .ok f.info := by
  unfold openGrid at h
  obtain ⟨i, h1, h⟩ := bind_inv h
  obtain ⟨_, _, h⟩ := bind_inv h
  obtain ⟨_, _, h⟩ := bind_inv h
  obtain ⟨_, _, h⟩ := bind_inv h
  obtain ⟨_, _, h⟩ := bind_inv h
  obtain ⟨_, _, h⟩ := bind_inv h
  obtain ⟨_, _, h⟩ := bind_inv h
  obtain rfl := Except.ok.inj h
  exact h1

/-- The hypotheses of `C130_grid_partial` hold for it; the records of the first two grids are the same, that of the third is not. -/
example : ∃ f, openGrid .little valuesSample = .ok f ∧ HeadEnds .little valuesSample 2048 f.info ∧ SameHead valuesSample brokenSample 2048 ∧
    f.grids.map (fun g => (g.number, g.parm)) = [(0, txt "TMPK"), (1, txt "HGHT"), (2, txt "THTA")] ∧
    (∀ k < 2, ∀ p ∈ f.info.parts, partWord f.info valuesSample 0 k 0 ≠ 0 ∧ SameRecord f.info valuesSample brokenSample 8 0 k 0 p) ∧
    ∀ p ∈ f.info.parts, ¬ SameRecord f.info valuesSample brokenSample 8 0 2 0 p := by
  have h0 : (openGrid .little valuesSample).toOption.isSome = true := by decide +kernel
  cases hg : openGrid .little valuesSample with
  | error e => rw [hg] at h0; cases h0
  | ok f =>
    have h1 : (openGrid .little valuesSample).toOption.all (fun f => decide (
        f.grids.map (fun g => (g.number, g.parm)) = [(0, txt "TMPK"), (1, txt "HGHT"), (2, txt "THTA")] ∧
        (∀ k < 2, ∀ p ∈ f.info.parts, partWord f.info valuesSample 0 k 0 ≠ 0 ∧ 0 ≤ p.headerLength ∧
          (4 * (partWord f.info valuesSample 0 k 0 - 1) ≤ valuesSample.length ↔ 4 * (partWord f.info valuesSample 0 k 0 - 1) ≤ brokenSample.length) ∧
          (valuesSample.drop (4 * (partWord f.info valuesSample 0 k 0 - 1))).take
            (4 + 4 * max (fileWord f.info.order valuesSample (partWord f.info valuesSample 0 k 0)) (p.headerLength.toNat + 8)) =
          (brokenSample.drop (4 * (partWord f.info valuesSample 0 k 0 - 1))).take
            (4 + 4 * max (fileWord f.info.order valuesSample (partWord f.info valuesSample 0 k 0)) (p.headerLength.toNat + 8))) ∧
        ∀ p ∈ f.info.parts, partWord f.info valuesSample 0 2 0 ≠ 0 ∧
          (valuesSample.drop (4 * (partWord f.info valuesSample 0 2 0 - 1))).take
            (4 + 4 * max (fileWord f.info.order valuesSample (partWord f.info valuesSample 0 2 0)) (p.headerLength.toNat + 8)) ≠
          (brokenSample.drop (4 * (partWord f.info valuesSample 0 2 0 - 1))).take
            (4 + 4 * max (fileWord f.info.order valuesSample (partWord f.info valuesSample 0 2 0)) (p.headerLength.toNat + 8)))) = true := by
      decide +kernel
    rw [hg] at h1
    obtain ⟨a1, a2, a3⟩ := of_decide_eq_true h1
    refine ⟨f, rfl, headEnds_of (openGrid_dm hg) (by decide +kernel), ⟨by decide +kernel⟩, a1, fun k hk p hp => ?_, fun p hp hs => ?_⟩
    · obtain ⟨b1, b2, b3⟩ := a2 k hk p hp
      exact ⟨b1, fun _ => ⟨b2, b3⟩⟩
    · obtain ⟨b1, b2⟩ := a3 p hp
      exact b2 (hs b1).2.2

/-- C130: a query that asks for the damaged grid, too, returns nothing at all, while queries for the others are answered. -/
theorem C130_all_lost : ∃ f, openGrid .little brokenSample = .ok f ∧ f.grids.length = 3 ∧ gdxarray id id {} f = .error .valueError ∧
    (gdxarray id id { parameter := some (.many [txt "TMPK", txt "HGHT"]) } f).toOption.map (fun l => l.map GridObj.name) = some [txt "TMPK", txt "z"] := by
  have h0 : (openGrid .little brokenSample).toOption.isSome = true := by decide +kernel
  have h1 : (openGrid .little brokenSample).toOption.all (fun f => decide (f.grids.length = 3 ∧
      (match gdxarray id id {} f with | .error e => decide (e = .valueError) | .ok _ => false) = true ∧
      (gdxarray id id { parameter := some (.many [txt "TMPK", txt "HGHT"]) } f).toOption.map (fun l => l.map GridObj.name) =
        some [txt "TMPK", txt "z"])) = true := by decide +kernel
  cases hg : openGrid .little brokenSample with
  | error e => rw [hg] at h0; cases h0
  | ok f =>
    rw [hg] at h1
    obtain ⟨a1, a2, a3⟩ := of_decide_eq_true h1
    refine ⟨f, rfl, a1, ?_, a3⟩
    cases hq : gdxarray id id {} f with
    | ok l => rw [hq] at a2; cases a2
    | error e =>
      rw [hq] at a2
      rw [of_decide_eq_true a2]

/-- The sample file of surface reports with the record of the second station overwritten. -/
def brokenReports : Bytes := partsSample.take 484 ++ List.replicate 16 0xff ++ partsSample.drop 500

theorem openSurface_dm {host : Endian} {b : Bytes} {g : SurfaceReader} (h : openSurface host b = .ok g) : readDM host b = .ok g.info := by
  unfold openSurface at h
  obtain ⟨f, h1, h⟩ := bind_inv h
  obtain ⟨_, _, h⟩ := bind_inv h
  obtain ⟨_, _, h⟩ := bind_inv h
  obtain rfl := Except.ok.inj h
  exact (openStation_inv h1).1

theorem openSounding_dm {host : Endian} {b : Bytes} {g : SoundingReader} (h : openSounding host b = .ok g) : readDM host b = .ok g.info := by
  unfold openSounding at h
  obtain ⟨f, h1, h⟩ := bind_inv h
  dsimp only at h
  obtain ⟨_, _, h⟩ := bind_inv h
  obtain rfl := Except.ok.inj h
  exact (openStation_inv h1).1

/-- The hypotheses of `C130_surface` hold for it: the records of the first station are the same, those of the second are not. -/
example : ∃ g, openSurface .little partsSample = .ok g ∧ HeadEnds .little partsSample 484 g.info ∧ SameHead partsSample brokenReports 484 ∧
    (∀ (j : Nat) (p : PartInfo), g.info.parts[j]? = some p → SameRecord g.info partsSample brokenReports 0 0 0 j p) ∧
    ∃ p, g.info.parts[0]? = some p ∧ ¬ SameRecord g.info partsSample brokenReports 0 0 1 0 p := by
  obtain ⟨g, hg, _⟩ := partsSample_opens
  have h1 : (openSurface .little partsSample).toOption.all (fun g => decide (g.info.parts.map (fun p => p.headerLength) = [1, 0] ∧
      g.info.order = .little ∧ partWord g.info partsSample 0 0 0 = 0 ∧ partWord g.info partsSample 0 0 1 = 126 ∧
      partWord g.info partsSample 0 1 0 = 122)) = true := by decide +kernel
  rw [hg] at h1
  obtain ⟨a1, a2, a3, a4, a5⟩ := of_decide_eq_true h1
  refine ⟨g, hg, headEnds_of (openSurface_dm hg) (by decide +kernel), ⟨by decide +kernel⟩, fun j p hp hw => ?_, ?_⟩
  · have hh : (g.info.parts.map (fun p => p.headerLength))[j]? = some p.headerLength := by rw [List.getElem?_map, hp]; rfl
    rw [a1] at hh
    match j, hh with
    | 0, _ => exact absurd a3 hw
    | 1, hh =>
      obtain hh : (0 : Int) = p.headerLength := Option.some.inj hh
      rw [a4, a2, ← hh]
      exact ⟨le_refl _, by unfold SameBytes; decide +kernel⟩
    | j + 2, hh => cases hh
  · cases hp : g.info.parts[0]? with
    | none => rw [List.getElem?_eq_none_iff] at hp; rw [List.length_eq_zero_iff.1 (Nat.le_zero.1 hp)] at a1; cases a1
    | some p =>
      have hh : (g.info.parts.map (fun p => p.headerLength))[0]? = some p.headerLength := by rw [List.getElem?_map, hp]; rfl
      rw [a1] at hh
      obtain hh : (1 : Int) = p.headerLength := Option.some.inj hh
      refine ⟨p, rfl, fun hs => ?_⟩
      have := (hs (by rw [a5]; decide)).2
      rw [a5, a2, ← hh] at this
      unfold SameBytes at this
      revert this
      decide +kernel

/-- The sample file of soundings with the record of the station that is not listed damaged and cut short meets the hypotheses of `C130_sounding`. -/
example : ∃ g c, openSounding .little levelsSample = .ok g ∧ g.merged = true ∧ HeadEnds .little levelsSample 460 g.info ∧
    c ≠ levelsSample ∧ SameHead levelsSample c 460 ∧
    ∀ (j : Nat) (p : PartInfo), g.info.parts[j]? = some p → SameRecord g.info levelsSample c 0 0 0 j p := by
  obtain ⟨g, hg, hm, _⟩ := levelsSample_opens
  have h1 : (openSounding .little levelsSample).toOption.all (fun g => decide (g.info.parts.map (fun p => p.headerLength) = [1, 0] ∧
      g.info.order = .little ∧ partWord g.info levelsSample 0 0 0 = 116 ∧ partWord g.info levelsSample 0 0 1 = 122)) = true := by decide +kernel
  rw [hg] at h1
  obtain ⟨a1, a2, a3, a4⟩ := of_decide_eq_true h1
  refine ⟨g, levelsSample.take 496 ++ List.replicate 2 0xff, hg, hm, headEnds_of (openSounding_dm hg) (by decide +kernel), by decide +kernel,
    ⟨by decide +kernel⟩, fun j p hp hw => ?_⟩
  have hh : (g.info.parts.map (fun p => p.headerLength))[j]? = some p.headerLength := by rw [List.getElem?_map, hp]; rfl
  rw [a1] at hh
  match j, hh with
  | 0, hh =>
    obtain hh : (1 : Int) = p.headerLength := Option.some.inj hh
    rw [a3, a2, ← hh]
    exact ⟨by decide, by unfold SameBytes; decide +kernel⟩
  | 1, hh =>
    obtain hh : (0 : Int) = p.headerLength := Option.some.inj hh
    rw [a4, a2, ← hh]
    exact ⟨le_refl _, by unfold SameBytes; decide +kernel⟩
  | j + 2, hh => cases hh

/-! ## Files that are cut off or continued -/

namespace Spec

/-- Both files have at least `m` bytes, and the first `m` are the same: one is cut off, or more was written to it. -/
def SharesFirst (b c : Bytes) (m : Nat) : Prop := m ≤ b.length ∧ m ≤ c.length ∧ b.take m = c.take m

/-- The record of a part of a cell, if there is one, ends within the first `m` bytes. -/
def RecordWithin (i : DMInfo) (b : Bytes) (least row col k : Nat) (p : PartInfo) (m : Nat) : Prop :=
  partWord i b row col k ≠ 0 → 0 ≤ p.headerLength ∧
    4 * (partWord i b row col k - 1) + (4 + 4 * max (fileWord i.order b (partWord i b row col k)) (p.headerLength.toNat + least)) ≤ m

end Spec

theorem sharesFirst_take (b : Bytes) {m : Nat} (h : m ≤ b.length) : SharesFirst b (b.take m) m :=
  ⟨h, by rw [List.length_take]; omega, by rw [List.take_take, Nat.min_self]⟩

theorem sharesFirst_append (b x : Bytes) : SharesFirst b (b ++ x) b.length :=
  ⟨le_refl _, by rw [List.length_append]; omega, by rw [List.take_left', List.take_length]; rfl⟩

theorem shares_head {b c : Bytes} {m n : Nat} (h : SharesFirst b c m) (hn : n ≤ m) : SameHead b c n := by
  have := congrArg (List.take n) h.2.2
  rw [List.take_take, List.take_take, Nat.min_eq_left hn] at this
  exact ⟨this⟩

theorem shares_record {i : DMInfo} {b c : Bytes} {least row col k m : Nat} {p : PartInfo} (h : SharesFirst b c m)
    (hr : RecordWithin i b least row col k p m) : SameRecord i b c least row col k p := by
  intro hw
  obtain ⟨h1, h2⟩ := hr hw
  refine ⟨h1, same_sub (p := 0) (k := m) ⟨by simp, ?_⟩ (by omega) (by omega)⟩
  rw [List.drop_zero, List.drop_zero]
  exact h.2.2

/-- **C130** for grid files that are cut off or continued behind the first `m` bytes: all grids are listed, and queries for grids whose records end
before are answered as before. -/
theorem C130_grid_cut_partial (host : Endian) (b c : Bytes) (n m : Nat) (f : GridFileR) (ho : openGrid host b = .ok f) (he : HeadEnds host b n f.info)
    (hn : n ≤ m) (hs : SharesFirst b c m) :
    ∃ f', openGrid host c = .ok f' ∧ f'.grids = f.grids ∧ ∀ (upper lower : Text → Text) (q : GridQuery),
      (AsksExtreme2 q → ∀ g ∈ f.grids, g.time2 ≠ none) →
      (∀ g ∈ f.grids, GWanted upper q f.grids g → ∀ (j : Nat) (p : PartInfo), f.info.parts[j]? = some p →
        partWord f.info b 0 g.number j ≠ 0 ∧ RecordWithin f.info b 8 0 g.number j p m) →
      gdxarray upper lower q f' = gdxarray upper lower q f := by
  obtain ⟨f', h1, h2, h3⟩ := C130_grid_partial host b c n f ho he (shares_head hs hn)
  exact ⟨f', h1, h2, fun upper lower q hx hr => h3 upper lower q hx fun g hg hw j p hp =>
    ⟨(hr g hg hw j p hp).1, shares_record hs (hr g hg hw j p hp).2⟩⟩

/-- **C130** for surface files that are cut off or continued behind the first `m` bytes. -/
theorem C130_surface_cut (host : Endian) (b c : Bytes) (n m : Nat) (g : SurfaceReader) (ho : openSurface host b = .ok g)
    (he : HeadEnds host b n g.info) (hn : n ≤ m) (hs : SharesFirst b c m) :
    ∃ g', openSurface host c = .ok g' ∧ g'.sfinfo = g.sfinfo ∧ ∀ (upper lower : Text → Text) (q : SiteQuery) (special : Bool),
      (∀ s ∈ g.sfinfo, Wanted upper (Asks upper) q g.sfinfo s → ∀ (j : Nat) (p : PartInfo), g.info.parts[j]? = some p →
        RecordWithin g.info b 0 s.row s.col j p m) →
      g'.sfjson upper lower q special = g.sfjson upper lower q special := by
  obtain ⟨g', h1, h2, h3⟩ := C130_surface host b c n g ho he (shares_head hs hn)
  exact ⟨g', h1, h2, fun upper lower q special hr => h3 upper lower q special fun s hg hw j p hp => shares_record hs (hr s hg hw j p hp)⟩

/-- **C130** for files of merged soundings that are cut off or continued behind the first `m` bytes. -/
theorem C130_sounding_cut (host : Endian) (b c : Bytes) (n m : Nat) (g : SoundingReader) (ho : openSounding host b = .ok g)
    (he : HeadEnds host b n g.info) (hn : n ≤ m) (hs : SharesFirst b c m) (hm : g.merged = true) :
    ∃ g', openSounding host c = .ok g' ∧ g'.sninfo = g.sninfo ∧ ∀ (upper lower : Text → Text) (q : SiteQuery),
      (∀ s ∈ g.sninfo, Wanted upper (AsksExactly upper) q g.sninfo s → ∀ (j : Nat) (p : PartInfo), g.info.parts[j]? = some p →
        RecordWithin g.info b 0 s.row s.col j p m) →
      g'.snxarray upper lower q = g.snxarray upper lower q ∧ g'.datasets upper lower q = g.datasets upper lower q := by
  obtain ⟨g', h1, h2, h3⟩ := C130_sounding host b c n g ho he (shares_head hs hn) hm
  exact ⟨g', h1, h2, fun upper lower q hr => h3 upper lower q fun s hg hw j p hp => shares_record hs (hr s hg hw j p hp)⟩

/-- **C130** for files of unmerged soundings that are cut off or continued behind the first `m` bytes. -/
theorem C130_unmerged_cut {α : Type} [Field α] [LinearOrder α] [IsStrictOrderedRing α] [FloorRing α] (cc : Calc α) (e : LevEnv α) (fuel : Nat)
    (host : Endian) (b c : Bytes) (n m : Nat) (g : SoundingReader) (ho : openSounding host b = .ok g) (he : HeadEnds host b n g.info)
    (hn : n ≤ m) (hs : SharesFirst b c m) :
    ∃ g', openSounding host c = .ok g' ∧ g'.sninfo = g.sninfo ∧ ∀ (upper lower : Text → Text) (q : SiteQuery),
      (∀ s ∈ g.sninfo, Wanted upper (AsksExactly upper) q g.sninfo s → ∀ (j : Nat) (p : PartInfo), g.info.parts[j]? = some p →
        RecordWithin g.info b 0 s.row s.col j p m) →
      g'.unmergedDatasets cc e fuel upper lower q = g.unmergedDatasets cc e fuel upper lower q := by
  obtain ⟨g', h1, h2, h3⟩ := C130_unmerged cc e fuel host b c n g ho he (shares_head hs hn)
  exact ⟨g', h1, h2, fun upper lower q hr => h3 upper lower q fun s hg hw j p hp => shares_record hs (hr s hg hw j p hp)⟩

/-- The sample file of grids, cut off in the record of the last grid: the records of the first two grids end before, that of the third does not. -/
example : ∃ f, openGrid .little valuesSample = .ok f ∧ HeadEnds .little valuesSample 2048 f.info ∧
    SharesFirst valuesSample (valuesSample.take 2130) 2130 ∧ valuesSample.take 2130 ≠ valuesSample ∧
    (∀ k < 2, ∀ p ∈ f.info.parts, partWord f.info valuesSample 0 k 0 ≠ 0 ∧ RecordWithin f.info valuesSample 8 0 k 0 p 2130) ∧
    ∀ p ∈ f.info.parts, ¬ RecordWithin f.info valuesSample 8 0 2 0 p 2130 := by
  have h0 : (openGrid .little valuesSample).toOption.isSome = true := by decide +kernel
  cases hg : openGrid .little valuesSample with
  | error e => rw [hg] at h0; cases h0
  | ok f =>
    have h1 : (openGrid .little valuesSample).toOption.all (fun f => decide (
        (∀ k < 2, ∀ p ∈ f.info.parts, partWord f.info valuesSample 0 k 0 ≠ 0 ∧ 0 ≤ p.headerLength ∧
          4 * (partWord f.info valuesSample 0 k 0 - 1) +
            (4 + 4 * max (fileWord f.info.order valuesSample (partWord f.info valuesSample 0 k 0)) (p.headerLength.toNat + 8)) ≤ 2130) ∧
        ∀ p ∈ f.info.parts, partWord f.info valuesSample 0 2 0 ≠ 0 ∧
          ¬ 4 * (partWord f.info valuesSample 0 2 0 - 1) +
            (4 + 4 * max (fileWord f.info.order valuesSample (partWord f.info valuesSample 0 2 0)) (p.headerLength.toNat + 8)) ≤ 2130)) = true := by
      decide +kernel
    rw [hg] at h1
    obtain ⟨a2, a3⟩ := of_decide_eq_true h1
    refine ⟨f, rfl, headEnds_of (openGrid_dm hg) (by decide +kernel), sharesFirst_take _ (by decide +kernel), by decide +kernel,
      fun k hk p hp => ?_, fun p hp hs => ?_⟩
    · obtain ⟨b1, b2, b3⟩ := a2 k hk p hp
      exact ⟨b1, fun _ => ⟨b2, b3⟩⟩
    · obtain ⟨b1, b2⟩ := a3 p hp
      exact b2 (hs b1).2

end Gempak
