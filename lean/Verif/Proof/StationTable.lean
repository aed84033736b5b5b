import Verif.Proof.SurfaceRead
import Verif.Props.Tools

/-! The table of a station file: the cells that hold data are the surviving entries. -/

namespace Gempak
open Spec

set_option linter.unusedSectionVars false

variable {ρ κ β : Type} [DecidableEq κ]

/-- A row with its number and a column with its number. -/
abbrev Pair (κ : Type) := (Row × Nat) × (Col κ × Nat)

/-- All cells. -/
def pairs (b : Builder κ β) : List (Pair κ) := b.rowHeaders.zipIdx.product b.columnHeaders.zipIdx

/-- The value of a cell. -/
def cellOf (b : Builder κ β) (p : Pair κ) : Option β := dictGet b.data (p.1.1, p.2.1)

/-- Cells with data. -/
def kept (b : Builder κ β) : List (Pair κ) := (pairs b).filter fun p => (cellOf b p).isSome

/-- Place and value of a cell. -/
def content [Inhabited β] (b : Builder κ β) (p : Pair κ) : (Row × Col κ) × β := ((p.1.1, p.2.1), (cellOf b p).getD default)

theorem pairs_fst (b : Builder κ β) :
    (pairs b).map (fun p => (p.1.1, p.2.1)) = b.rowHeaders.flatMap fun r => b.columnHeaders.map fun c => (r, c) := by
  unfold pairs List.product
  rw [List.map_flatMap]
  conv_rhs => rw [← List.zipIdx_map_fst 0 b.rowHeaders, List.flatMap_map]
  congr 1
  funext a
  conv_rhs => rw [← List.zipIdx_map_fst 0 b.columnHeaders]
  rw [List.map_map, List.map_map]
  rfl

theorem map_filter_isSome {α γ : Type} (f : α → Option γ) (g : α → γ) (l : List α) (h : ∀ x, ∀ y, f x = some y → g x = y) :
    (l.filter fun x => (f x).isSome).map g = l.filterMap f := by
  induction l with
  | nil => rfl
  | cons x l ih =>
    cases hf : f x with
    | none => rw [List.filter_cons_of_neg (by simp [hf]), List.filterMap_cons_none hf, ih]
    | some y => rw [List.filter_cons_of_pos (by simp [hf]), List.filterMap_cons_some hf, List.map_cons, ih, h x y hf]

/-- The cells with data are the surviving entries, each once. -/
theorem kept_perm [Inhabited β] {env : NumEnv ρ κ} {names : List Text} {es : List (Entry κ β)} {b : Builder κ β}
    (h : History env names (es.map fun e => (e.place, e.value)) b) (hcap : b.rows + b.columns ≤ mmhdrs) :
    ((kept b).map (content b)).Perm ((final es).map fun e => (e.place, e.value)) := by
  refine List.Perm.trans ?_ (data_perm_final es)
  rw [← h.data]
  obtain ⟨h1, h2⟩ := h.headers hcap
  have hn := dictUpdate_nodup (d := ([] : List ((Row × Col κ) × β))) List.nodup_nil (es.map fun e => (e.place, e.value))
  rw [← h.data] at hn
  have e1 : (kept b).map (content b) =
      ((pairs b).map fun p => (p.1.1, p.2.1)).filterMap fun k => (dictGet b.data k).map fun v => (k, v) := by
    rw [List.filterMap_map]
    unfold kept
    have : ∀ p : Pair κ, (cellOf b p).isSome = (((fun k => (dictGet b.data k).map fun v => (k, v)) ∘
        fun p : Pair κ => (p.1.1, p.2.1)) p).isSome := by
      intro p
      simp only [Function.comp, cellOf, Option.isSome_map]
    simp only [this]
    apply map_filter_isSome
    intro p y hy
    simp only [Function.comp] at hy
    obtain ⟨v, hv, rfl⟩ := Option.map_eq_some_iff.1 hy
    unfold content cellOf
    rw [hv]; rfl
  rw [e1, pairs_fst, h1, h2]
  have c1 := C42_from_iterable (es.map fun e => ((fun x : (Row × Col κ) × β => x.1.1) (e.place, e.value)))
  have c2 := C42_from_iterable (es.map fun e => ((fun x : (Row × Col κ) × β => x.1.2) (e.place, e.value)))
  have r1 : b.rowSet.keys = (OrderedSet.ofList (es.map fun e => e.place.1)).keys := by
    rw [h.rowSet, List.map_map]; rfl
  have r2 : b.colSet.keys = (OrderedSet.ofList (es.map fun e => e.place.2)).keys := by
    rw [h.colSet, List.map_map]; rfl
  apply table_perm
  · rw [(List.mergeSort_perm _ _).nodup_iff, r1]
    exact c1.2.1
  · rw [(List.mergeSort_perm _ _).nodup_iff, r2]
    exact c2.2.1
  · exact hn
  · intro x hx
    rw [(List.mergeSort_perm _ _).mem_iff, (List.mergeSort_perm _ _).mem_iff, r1, r2]
    have hk : x.1 ∈ b.data.map Prod.fst := List.mem_map_of_mem hx
    rw [h.data, dictUpdate_fst_mem] at hk
    rcases hk with hk | hk
    · simp at hk
    · rw [List.map_map] at hk
      obtain ⟨e, he, hx⟩ := List.mem_map.1 hk
      rw [← hx]
      exact ⟨(c1.1 _).2 (List.mem_map.2 ⟨e, he, rfl⟩), (c2.1 _).2 (List.mem_map.2 ⟨e, he, rfl⟩)⟩

/-- The header lists match the counts. -/
theorem History.dims {env : NumEnv ρ κ} {names : List Text} {es : List ((Row × Col κ) × β)} {b : Builder κ β}
    (h : History env names es b) (hcap : b.rows + b.columns ≤ mmhdrs) :
    b.rows = b.rowHeaders.length ∧ b.columns = b.columnHeaders.length := by
  obtain ⟨h1, h2⟩ := h.headers hcap
  rw [h1, h2, h.rows, h.columns, List.length_mergeSort, List.length_mergeSort]
  exact ⟨rfl, rfl⟩

/-- Every row and column belongs to an entry. -/
theorem History.origin {env : NumEnv ρ κ} {names : List Text} {es : List (Entry κ β)} {b : Builder κ β}
    (h : History env names (es.map fun e => (e.place, e.value)) b) (hcap : b.rows + b.columns ≤ mmhdrs) :
    (∀ r ∈ b.rowHeaders, ∃ e ∈ es, e.place.1 = r) ∧ ∀ c ∈ b.columnHeaders, ∃ e ∈ es, e.place.2 = c := by
  obtain ⟨h1, h2⟩ := h.headers hcap
  rw [h1, h2]
  constructor
  · intro r hr
    rw [(List.mergeSort_perm _ _).mem_iff, h.rowSet, List.map_map, (C42_from_iterable _).1] at hr
    obtain ⟨e, he, hx⟩ := List.mem_map.1 hr
    exact ⟨e, he, hx⟩
  · intro r hr
    rw [(List.mergeSort_perm _ _).mem_iff, h.colSet, List.map_map, (C42_from_iterable _).1] at hr
    obtain ⟨e, he, hx⟩ := List.mem_map.1 hr
    exact ⟨e, he, hx⟩

/-- An entry whose time exists and whose texts survive a file: four bytes each, without blanks at the ends. -/
structure Spec.Entry.Legible (e : Entry κ β) : Prop where
  date : e.date.Valid
  clock : e.clock.Valid
  id1 : Name4 (e.id.take 4)
  id2 : Name4 (e.id.drop 4)
  state : Name4 e.state
  country : Name4 e.country

theorem legible_of {env : NumEnv ρ κ} {names : List Text} {es : List (Entry κ β)} {b : Builder κ β}
    (h : History env names (es.map fun e => (e.place, e.value)) b) (hcap : b.rows + b.columns ≤ mmhdrs)
    (hn : ∀ n ∈ names, Name4 n) (he : ∀ e ∈ es, e.Legible) : Legible b := by
  obtain ⟨o1, o2⟩ := h.origin hcap
  refine ⟨by rw [h.names]; exact hn, ?_, ?_⟩
  · intro r hr
    obtain ⟨e, h1, rfl⟩ := o1 r hr
    exact ⟨(he e h1).date, (he e h1).clock⟩
  · intro c hc
    obtain ⟨e, h1, rfl⟩ := o2 c hc
    exact ⟨(he e h1).id1, (he e h1).state, (he e h1).country, (he e h1).id2⟩

/-! ## Opening a surface file -/

/-- Single precision values. -/
def f32s (env : NumEnv ρ κ) (vs : List ρ) : List F32 := vs.map fun v => (env.f32 v).toOption.getD 0

theorem f32s_eq {env : NumEnv ρ κ} {vs : List ρ} {fs : List F32} (h : List.Forall₂ (fun v f => env.f32 v = .ok f) vs fs) :
    f32s env vs = fs := by
  induction h with
  | nil => rfl
  | cons h _ ih =>
    unfold f32s at *
    rw [List.map_cons, ih, h]
    rfl

/-- Entry of `sfinfo` for a cell. -/
def infoOf (env : NumEnv ρ κ) (full : Bool) (p : Pair κ) : SiteInfo :=
  ⟨p.1.2, p.2.2, storedTime p.1.1.1 p.1.1.2, if full then p.2.1.stid ++ p.2.1.std2 else p.2.1.stid, p.2.1.stnm, centiD env p.2.1.slat,
    centiD env p.2.1.slon, p.2.1.selv, p.2.1.stat, p.2.1.coun⟩

theorem sfHead_keys (env : NumEnv ρ κ) (c : Col κ) : (sfHead env c).map Prod.fst = siteKeys := rfl

theorem sfHead_nodup (env : NumEnv ρ κ) (c : Col κ) : ((sfHead env c).map Prod.fst).Nodup := by
  rw [sfHead_keys]; decide +kernel

theorem snHead_nodup (env : NumEnv ρ κ) (c : Col κ) : ((snHead env c).map Prod.fst).Nodup := by
  show snNames.Nodup
  decide +kernel

theorem rowHead_nodup (r : Row) : ((rowHead r).map Prod.fst).Nodup := by
  show [txt "DATE", txt "TIME"].Nodup
  decide +kernel

theorem headGet_of {h : Header} (hn : (h.map Prod.fst).Nodup) {k : Text} {v : HVal} (hm : (k, v) ∈ h) : headGet h k = .ok v := by
  unfold headGet
  rw [(dictGet_eq_some hn).2 hm]

theorem headTime_row (r : Row) : headTime (rowHead r) = .ok (storedTime r.1 r.2) := by
  unfold headTime
  rw [headGet_of (rowHead_nodup r) (v := .date (storedTime r.1 r.2).1) (by simp [rowHead]),
    headGet_of (rowHead_nodup r) (v := .time (storedTime r.1 r.2).2) (by simp [rowHead])]
  rfl

theorem surfaceInfo_spec (env : NumEnv ρ κ) (p : Pair κ) :
    surfaceInfo ⟨p.1.2, p.2.2, sfHead env p.2.1, rowHead p.1.1⟩ = .ok (infoOf env true p) := by
  have n := sfHead_nodup env p.2.1
  unfold surfaceInfo
  dsimp only
  simp only [headTime_row, headText, headInt, headCoord]
  rw [headGet_of n (k := txt "STID") (v := .text p.2.1.stid) (by simp [sfHead, snHead]),
    headGet_of n (k := txt "STD2") (v := .text p.2.1.std2) (by simp [sfHead, snHead]),
    headGet_of n (k := txt "STNM") (v := .int p.2.1.stnm) (by simp [sfHead, snHead]),
    headGet_of n (k := txt "SLAT") (v := .coord (centiD env p.2.1.slat)) (by simp [sfHead, snHead]),
    headGet_of n (k := txt "SLON") (v := .coord (centiD env p.2.1.slon)) (by simp [sfHead, snHead]),
    headGet_of n (k := txt "SELV") (v := .int p.2.1.selv) (by simp [sfHead, snHead]),
    headGet_of n (k := txt "STAT") (v := .text p.2.1.stat) (by simp [sfHead, snHead]),
    headGet_of n (k := txt "COUN") (v := .text p.2.1.coun) (by simp [sfHead, snHead])]
  rfl

theorem standardCells_eq (b : Builder κ β) (rh : Row → Header) (ch : Col κ → Header) :
    standardCells (b.rowHeaders.map rh) (b.columnHeaders.map ch) =
      (pairs b).map fun p => ⟨p.1.2, p.2.2, ch p.2.1, rh p.1.1⟩ := by
  unfold standardCells pairs List.product
  rw [List.map_flatMap, List.zipIdx_map, List.zipIdx_map, List.flatMap_map]
  congr 1
  funext a
  rw [List.map_map, List.map_map]
  rfl

theorem mem_pairs {b : Builder κ β} {p : Pair κ} :
    p ∈ pairs b ↔ b.rowHeaders[p.1.2]? = some p.1.1 ∧ b.columnHeaders[p.2.2]? = some p.2.1 := mem_product_zipIdx

/-- A cell has data exactly when its pointer is not zero. -/
theorem pointer_iff {rec : Row → β → Except PyErr (List Val)} {colWords : Col κ → Except PyErr (List Val)} {name : Text}
    {b : Builder κ β} {f : DMFile} {e : Endian} {bytes : Bytes} {bk : Option Blocks} (s : IsStation rec colWords name b f)
    (hs : save e f = .ok bytes) {p : Pair κ} (hp : p ∈ pairs b) :
    decide (dataPointer (expectedInfo e f bk) bytes p.1.2 p.2.2 0 ≠ 0) = (cellOf b p).isSome := by
  obtain ⟨h1, h2⟩ := mem_pairs.1 hp
  have := cell_spec (bk := bk) s hs h1 h2
  unfold cellOf
  cases hd : dictGet b.data (p.1.1, p.2.1) with
  | none =>
    rw [hd] at this
    simp [this]
  | some v =>
    rw [hd] at this
    obtain ⟨ws, n, hn, _, hp, _⟩ := this
    rw [hp]
    simp
    omega

theorem hasData_iff {rec : Row → β → Except PyErr (List Val)} {colWords : Col κ → Except PyErr (List Val)} {name : Text}
    {b : Builder κ β} {f : DMFile} {e : Endian} {bytes : Bytes} {bk : Option Blocks} (s : IsStation rec colWords name b f)
    (hs : save e f = .ok bytes) {p : Pair κ} (hp : p ∈ pairs b) :
    hasData (expectedInfo e f bk) bytes p.1.2 p.2.2 = (cellOf b p).isSome := by
  have hl : (expectedInfo e f bk).parts.length = 1 := by
    show (f.parts.map Part.info).length = 1
    rw [s.parts]; rfl
  unfold hasData
  rw [hl]
  show (decide (dataPointer (expectedInfo e f bk) bytes p.1.2 p.2.2 0 ≠ 0) || false) = _
  rw [Bool.or_false, pointer_iff s hs hp]

/-- The opened surface file. -/
theorem openSurface_spec {e host : Endian} {bytes : Bytes} {env : NumEnv ρ κ} {b : Builder κ (List ρ)}
    (hr : b.rows = b.rowHeaders.length) (hc : b.columns = b.columnHeaders.length) (hl : Legible b)
    (hs : save e (surfaceFile env b) = .ok bytes) :
    ∃ bk, openSurface host bytes = .ok ⟨⟨expectedInfo e (surfaceFile env b) bk, bytes, b.rowHeaders.map rowHead,
      b.columnHeaders.map (sfHead env)⟩, .standard, (kept b).map (infoOf env true)⟩ := by
  obtain ⟨bk, ho⟩ := openStation_surface (host := host) hr hc hl hs
  refine ⟨bk, ?_⟩
  unfold openSurface
  rw [ho, ok_bind]
  have ht : surfaceType (expectedInfo e (surfaceFile env b) bk) (b.rowHeaders.map rowHead).length = .ok .standard := by
    have k1 : (expectedInfo e (surfaceFile env b) bk).rowKeys = [txt "DATE", txt "TIME"] := rfl
    have k2 : (expectedInfo e (surfaceFile env b) bk).columnKeys = siteKeys := rfl
    unfold surfaceType
    rw [k1, k2, if_neg (by intro h; exact absurd h.2.1 (by decide +kernel)), if_pos (by decide +kernel)]
  dsimp only
  rw [ht, ok_bind]
  have hcells : ((SfType.standard.cells (b.rowHeaders.map rowHead) (b.columnHeaders.map (sfHead env))).filter fun c =>
      hasData (expectedInfo e (surfaceFile env b) bk) bytes c.row c.col) =
      (kept b).map fun p => ⟨p.1.2, p.2.2, sfHead env p.2.1, rowHead p.1.1⟩ := by
    have hsc : SfType.standard.cells (b.rowHeaders.map rowHead) (b.columnHeaders.map (sfHead env)) =
      standardCells (b.rowHeaders.map rowHead) (b.columnHeaders.map (sfHead env)) := rfl
    rw [hsc, standardCells_eq, List.filter_map]
    refine congrArg (List.map _) ?_
    unfold kept
    refine List.filter_congr fun p hp => ?_
    exact hasData_iff (sfStation hr hc) hs hp
  rw [hcells]
  have hm : ((kept b).map fun p => (⟨p.1.2, p.2.2, sfHead env p.2.1, rowHead p.1.1⟩ : CellRef)).mapM surfaceInfo =
      .ok ((kept b).map (infoOf env true)) := by
    rw [List.mapM_map]
    exact mapM_ok fun p _ => surfaceInfo_spec env p
  rw [hm, ok_bind]

end Gempak
