import Verif.Proof.SurfaceReport

/-! Soundings of a written file. -/

namespace Gempak
open Spec

set_option linter.unusedSectionVars false

variable {ρ κ β : Type} [DecidableEq κ]

/-! ## Levels -/

theorem everyNth_map {α γ : Type} (f : α → γ) (n : Nat) (l : List α) : everyNth n (l.map f) = (everyNth n l).map f := by
  fun_induction everyNth n l with
  | case1 => simp [everyNth]
  | case2 x r ih => rw [List.map_cons, everyNth, List.map_cons, ← ih, List.map_drop]

theorem stride_map {α γ : Type} (f : α → γ) (k n : Nat) (l : List α) : stride k n (l.map f) = (stride k n l).map f := by
  unfold stride; rw [← List.map_drop, everyNth_map]

theorem pickAt_cons {α : Type} {l : List α} {k : Nat} (h : k < l.length) (r : List (List α)) :
    (l :: r).filterMap (fun x => x[k]?) = l[k] :: r.filterMap (fun x => x[k]?) :=
  List.filterMap_cons_some (f := fun x : List α => x[k]?) (List.getElem?_eq_getElem h)

theorem everyNth_flatten {α : Type} (n k : Nat) (hk : k < n) (ls : List (List α)) (h : ∀ l ∈ ls, l.length = n) :
    everyNth n (ls.flatten.drop k) = ls.filterMap (·[k]?) := by
  induction ls with
  | nil => simp [everyNth]
  | cons l r ih =>
    have hl := h l List.mem_cons_self
    have hk' : k < l.length := by omega
    rw [List.flatten_cons, List.drop_append_of_le_length (by omega), List.drop_eq_getElem_cons hk', List.cons_append, everyNth,
      pickAt_cons hk', ← ih fun x hx => h x (List.mem_cons_of_mem _ hx)]
    congr 2
    rw [List.drop_append, List.drop_drop, List.drop_eq_nil_of_le (by omega), List.nil_append, List.length_drop]
    congr 1
    omega

theorem levels_length {cols : List (List ρ)} {L : Nat} (h : ∀ c ∈ cols, c.length = L) (i : Nat) (hi : i < L) :
    (cols.filterMap (·[i]?)).length = cols.length := by
  induction cols with
  | nil => rfl
  | cons c r ih =>
    have hc := h c List.mem_cons_self
    rw [pickAt_cons (by omega), List.length_cons, List.length_cons,
      ih fun x hx => h x (List.mem_cons_of_mem _ hx)]

theorem levels_getElem {cols : List (List ρ)} {L : Nat} (h : ∀ c ∈ cols, c.length = L) (i : Nat) (hi : i < L) (k : Nat) (c : List ρ)
    (hk : cols[k]? = some c) : (cols.filterMap (·[i]?))[k]? = c[i]? := by
  induction cols generalizing k with
  | nil => simp at hk
  | cons d r ih =>
    have hd := h d List.mem_cons_self
    rw [pickAt_cons (show i < d.length by omega)]
    cases k with
    | zero =>
      rw [List.getElem?_cons_zero] at hk ⊢
      obtain rfl := Option.some.inj hk
      rw [List.getElem?_eq_getElem]
    | succ k =>
      rw [List.getElem?_cons_succ] at hk ⊢
      exact ih (fun x hx => h x (List.mem_cons_of_mem _ hx)) k hk

theorem filterMap_range {α : Type} (c : List α) : (List.range c.length).filterMap (fun i => c[i]?) = c := by
  induction c with
  | nil => rfl
  | cons x c ih =>
    rw [List.length_cons, List.range_succ_eq_map, List.filterMap_cons_some (List.getElem?_cons_zero), List.filterMap_map]
    have : ((fun i => (x :: c)[i]?) ∘ Nat.succ) = fun i => c[i]? := by
      funext i; exact List.getElem?_cons_succ
    rw [this, ih]

/-- Writing level by level and reading every n-th value gives the columns back. -/
theorem stride_levels {cols : List (List ρ)} (hr : Rectangular cols) {k : Nat} {c : List ρ} (hk : cols[k]? = some c) :
    stride k cols.length (levels cols).flatten = c := by
  cases cols with
  | nil => exact hr.elim
  | cons d r =>
    have hall : ∀ x ∈ d :: r, x.length = d.length := by
      intro x hx
      rcases List.mem_cons.1 hx with rfl | hx
      · rfl
      · exact hr.2 x hx
    have hk' : k < (d :: r).length := by
      by_contra hc
      rw [List.getElem?_eq_none (by omega)] at hk
      cases hk
    have hc : c.length = d.length := hall c (List.mem_of_getElem? hk)
    unfold stride
    rw [everyNth_flatten _ _ hk']
    · unfold levels
      rw [List.headD_cons, List.filterMap_map]
      have : ∀ i ∈ List.range d.length, ((fun x : List ρ => x[k]?) ∘ fun i => (d :: r).filterMap (·[i]?)) i = c[i]? := by
        intro i hi
        exact levels_getElem hall i (List.mem_range.1 hi) k c hk
      rw [List.filterMap_congr this, ← hc]
      exact filterMap_range c
    · intro l hl
      unfold levels at hl
      obtain ⟨i, hi, rfl⟩ := List.mem_map.1 hl
      rw [List.headD_cons, List.mem_range] at hi
      exact levels_length hall i hi

/-! ## Opening -/

/-- Names of parameters that a sounding file can carry: distinct, also in lower case, none of the reader's own keys, and
one of them is a vertical coordinate. -/
structure Spec.SoundingNames (lower : Text → Text) (names : List Text) : Prop where
  legible : ∀ n ∈ names, Name4 n
  nodup : names.Nodup
  lower_nodup : (names.map lower).Nodup
  free : ∀ n ∈ names, n ∉ txt "DATE" :: txt "TIME" :: txt "TXTA" :: txt "TXTB" :: txt "TXTC" :: txt "TXPB" :: snKeys
  vertical : txt "PRES" ∈ names ∨ txt "HGHT" ∈ names

theorem soundingInfo_spec (env : NumEnv ρ κ) (p : Pair κ) :
    soundingInfo ⟨p.1.2, p.2.2, snHead env p.2.1, rowHead p.1.1⟩ = .ok (infoOf env false p) := by
  have n := snHead_nodup env p.2.1
  unfold soundingInfo
  dsimp only
  simp only [headTime_row, headText, headInt, headCoord]
  rw [headGet_of n (k := txt "STID") (v := .text p.2.1.stid) (by simp [snHead]),
    headGet_of n (k := txt "STNM") (v := .int p.2.1.stnm) (by simp [snHead]),
    headGet_of n (k := txt "SLAT") (v := .coord (centiD env p.2.1.slat)) (by simp [snHead]),
    headGet_of n (k := txt "SLON") (v := .coord (centiD env p.2.1.slon)) (by simp [snHead]),
    headGet_of n (k := txt "SELV") (v := .int p.2.1.selv) (by simp [snHead]),
    headGet_of n (k := txt "STAT") (v := .text p.2.1.stat) (by simp [snHead]),
    headGet_of n (k := txt "COUN") (v := .text p.2.1.coun) (by simp [snHead])]
  rfl

/-- The opened sounding file. -/
theorem openSounding_spec {e host : Endian} {bytes : Bytes} {env : NumEnv ρ κ} {b : Builder κ (List (List ρ))}
    (hr : b.rows = b.rowHeaders.length) (hc : b.columns = b.columnHeaders.length) (hl : Legible b)
    (hs : save e (soundingFile env b) = .ok bytes) :
    ∃ bk, openSounding host bytes = .ok ⟨⟨expectedInfo e (soundingFile env b) bk, bytes, b.rowHeaders.map rowHead,
      b.columnHeaders.map (snHead env)⟩, true, (kept b).map (infoOf env false)⟩ := by
  obtain ⟨bk, ho⟩ := openStation_sounding (host := host) hr hc hl hs
  refine ⟨bk, ?_⟩
  unfold openSounding
  rw [ho, ok_bind]
  dsimp only
  have hmg : (expectedInfo e (soundingFile env b) bk).parts.any (fun p => decide (p.name = txt "SNDT")) = true := rfl
  have hcells : ((standardCells (b.rowHeaders.map rowHead) (b.columnHeaders.map (snHead env))).filter fun c =>
      decide (dataPointer (expectedInfo e (soundingFile env b) bk) bytes c.row c.col 0 ≠ 0)) =
      (kept b).map fun p => ⟨p.1.2, p.2.2, snHead env p.2.1, rowHead p.1.1⟩ := by
    rw [standardCells_eq, List.filter_map]
    refine congrArg (List.map _) ?_
    unfold kept
    refine List.filter_congr fun p hp => ?_
    exact pointer_iff (snStation hr hc) hs hp
  rw [hcells]
  have hm : ((kept b).map fun p => (⟨p.1.2, p.2.2, snHead env p.2.1, rowHead p.1.1⟩ : CellRef)).mapM soundingInfo =
      .ok ((kept b).map (infoOf env false)) := by
    rw [List.mapM_map]
    exact mapM_ok fun p _ => soundingInfo_spec env p
  rw [hm, ok_bind, hmg]

/-! ## Cells -/

/-- Items of the columns of a cell. -/
def snItems (env : NumEnv ρ κ) (names : List Text) (cols : List (List ρ)) : List (Text × HVal) :=
  (names.zip cols).map fun nc => (nc.1, .arr (f32s env nc.2))

/-- The fields of the site that a sounding keeps. -/
def snSite (env : NumEnv ρ κ) (c : Col κ) : Header :=
  [(txt "STID", .text c.stid), (txt "STNM", .int c.stnm), (txt "SLAT", .coord (centiD env c.slat)),
   (txt "SLON", .coord (centiD env c.slon)), (txt "SELV", .int c.selv), (txt "STAT", .text c.stat), (txt "COUN", .text c.coun)]

/-- Sounding of a cell. -/
def soundingOf (env : NumEnv ρ κ) (names : List Text) (p : Pair κ) (cols : List (List ρ)) : List (Text × HVal) :=
  (snSite env p.2.1 ++ rowHead p.1.1) ++ snItems env names cols

/-- What `snxarray` makes of it. -/
def snObjOf (env : NumEnv ρ κ) (lower : Text → Text) (names : List Text) (p : Pair κ) (cols : List (List ρ)) (lev : List ρ) : SnObj :=
  ⟨.text p.2.1.stid, .int p.2.1.stnm, .coord (centiD env p.2.1.slat), .coord (centiD env p.2.1.slon), .int p.2.1.selv,
    .text p.2.1.stat, .text p.2.1.coun, storedTime p.1.1.1 p.1.1.2, if txt "PRES" ∈ names then txt "pres" else txt "hght",
    .arr (f32s env lev),
    ((names.zip cols).filter fun nc => nc.1 ≠ vertParam names).map fun nc => (lower nc.1, .arr (f32s env nc.2))⟩

theorem snItems_fst {env : NumEnv ρ κ} {names : List Text} {cols : List (List ρ)} (h : cols.length = names.length) :
    (snItems env names cols).map Prod.fst = names := by
  unfold snItems
  rw [List.map_map]
  exact List.map_fst_zip (by omega)

theorem snHeads_keys (env : NumEnv ρ κ) (p : Pair κ) :
    (snSite env p.2.1 ++ rowHead p.1.1).map Prod.fst = snKeys ++ [txt "DATE", txt "TIME"] := rfl

/-- Keys that are no variables. -/
def snGone : List Text := txt "DATE" :: txt "TIME" :: txt "TXTA" :: txt "TXTB" :: txt "TXTC" :: txt "TXPB" :: snKeys

theorem snKeys_gone : ∀ k ∈ snKeys ++ [txt "DATE", txt "TIME"], k ∈ snGone := by decide +kernel

theorem sounding_nodup {env : NumEnv ρ κ} {lower : Text → Text} {names : List Text} (hn : SoundingNames lower names) (p : Pair κ)
    {cols : List (List ρ)} (h : cols.length = names.length) : ((soundingOf env names p cols).map Prod.fst).Nodup := by
  unfold soundingOf
  rw [List.map_append, snHeads_keys, snItems_fst h]
  refine List.Nodup.append (by decide +kernel) hn.nodup ?_
  intro k h1 h2
  exact hn.free k h2 (snKeys_gone k h1)

/-- The record of a sounding. -/
theorem soundingPart_spec {e : Endian} {bytes : Bytes} {env : NumEnv ρ κ} {i : DMInfo} (ho : i.order = e) {row : Row}
    {cols : List (List ρ)} {ws : List Val} {n : Nat} (hn : 1 ≤ n) (hw : snRecord env row cols = .ok ws) (hh : HoldsW e bytes n ws)
    (nm : Text) (names : List Text) (hl : cols.length = names.length) (hr : Rectangular cols) :
    soundingPart i bytes (stationPart nm names).info (stationPart nm names).readBack n = .ok (snItems env names cols) ∧
      ∀ c ∈ cols, List.Forall₂ (fun v f => env.f32 v = .ok f) c (f32s env c) := by
  unfold snRecord at hw
  obtain ⟨ds, h1, h2⟩ := Except.bind_ok hw
  obtain rfl := Except.ok.inj h2
  obtain ⟨fs, rfl, h3⟩ := floatWords_inv h1
  have hlen := h3.length_eq
  have hfs := f32s_eq h3
  have hall : ∀ x ∈ cols, x.length = (cols.headD []).length := by
    cases cols with
    | nil => exact hr.elim
    | cons d r =>
      intro x hx
      rcases List.mem_cons.1 hx with rfl | hx
      · rfl
      · exact hr.2 x hx
  have hfl : (levels cols).flatten.length = (cols.headD []).length * cols.length := by
    unfold levels
    rw [List.length_flatten, List.map_map]
    have : (List.range (cols.headD []).length).map (List.length ∘ fun i => cols.filterMap (·[i]?)) =
        List.replicate (cols.headD []).length cols.length := by
      rw [List.eq_replicate_iff]
      refine ⟨by rw [List.length_map, List.length_range], ?_⟩
      intro x hx
      obtain ⟨i, hi, rfl⟩ := List.mem_map.1 hx
      exact levels_length hall i (List.mem_range.1 hi)
    rw [this, List.sum_replicate_nat]
  have hrec : readRecord i bytes (stationPart nm names).info n .f32 = .ok ((fs.map Val.flt).map canonW) := by
    subst ho
    refine readRecord_spec (hdr := [.int (timeWord row.2)]) hn hh rfl ?_ ?_
    · rw [List.length_map, List.length_singleton, ← hlen, hfl]
    · intro v hv
      obtain ⟨f, _, rfl⟩ := List.mem_map.1 hv
      rfl
  have hcol : ∀ k c, cols[k]? = some c → stride k names.length fs = f32s env c := by
    intro k c hk
    rw [← hfs]
    unfold f32s
    rw [stride_map, ← hl, stride_levels hr hk]
  constructor
  · unfold soundingPart
    rw [if_pos (show (stationPart nm names).info.dataType = 1 from rfl), hrec, ok_bind, fltOf_canon, ok_bind]
    have : (stationPart nm names).readBack.names = names := rfl
    rw [this]
    refine congrArg Except.ok ?_
    unfold snItems
    apply List.ext_getElem?
    intro k
    rw [List.getElem?_map, List.getElem?_map]
    by_cases hk : k < names.length
    · have hk2 : k < cols.length := by omega
      rw [List.getElem?_eq_getElem (by rw [List.length_zipIdx]; exact hk), List.getElem?_eq_getElem (by rw [List.length_zip]; omega),
        List.getElem_zipIdx, List.getElem_zip]
      simp only [Option.map_some, Nat.zero_add]
      rw [hcol k _ (List.getElem?_eq_getElem hk2)]
    · rw [List.getElem?_eq_none (by rw [List.length_zipIdx]; omega), List.getElem?_eq_none (by rw [List.length_zip]; omega)]
      rfl
  · intro c hc
    have hf : ∀ v ∈ (levels cols).flatten, ∃ f, env.f32 v = .ok f := by
      have : ∀ {vs : List ρ} {fs : List F32}, List.Forall₂ (fun v f => env.f32 v = .ok f) vs fs → ∀ v ∈ vs, ∃ f, env.f32 v = .ok f := by
        intro vs fs h
        induction h with
        | nil => intro v hv; simp at hv
        | cons h _ ih =>
          intro v hv
          rcases List.mem_cons.1 hv with rfl | hv
          · exact ⟨_, h⟩
          · exact ih v hv
      exact this h3
    have hin : ∀ v ∈ c, v ∈ (levels cols).flatten := by
      intro v hv
      obtain ⟨k, hk, hk2⟩ := List.getElem_of_mem hc
      obtain ⟨i, hi, hi2⟩ := List.getElem_of_mem hv
      have hil : i < (cols.headD []).length := by rw [← hall c hc]; exact hi
      rw [List.mem_flatten]
      refine ⟨cols.filterMap (·[i]?), List.mem_map.2 ⟨i, List.mem_range.2 hil, rfl⟩, ?_⟩
      rw [List.mem_filterMap]
      exact ⟨c, hc, by rw [List.getElem?_eq_getElem hi, hi2]⟩
    have : ∀ l : List ρ, (∀ v ∈ l, ∃ f, env.f32 v = .ok f) → List.Forall₂ (fun v f => env.f32 v = .ok f) l (f32s env l) := by
      intro l
      induction l with
      | nil => intro _; exact .nil
      | cons v l ih =>
        intro h
        obtain ⟨f, hf⟩ := h v List.mem_cons_self
        refine .cons ?_ (ih fun w hw => h w (List.mem_cons_of_mem _ hw))
        dsimp only
        rw [hf]; rfl
    exact this c fun v hv => hf v (hin v hv)

/-- The sounding of one cell. -/
theorem unpackMerged_spec {e : Endian} {bytes : Bytes} {env : NumEnv ρ κ} {lower : Text → Text} {b : Builder κ (List (List ρ))}
    {bk : Option Blocks} {infos : List SiteInfo} (hr : b.rows = b.rowHeaders.length) (hc : b.columns = b.columnHeaders.length)
    (hn : SoundingNames lower b.names) (hs : save e (soundingFile env b) = .ok bytes) {p : Pair κ} (hp : p ∈ pairs b)
    {cols : List (List ρ)} (hv : cellOf b p = some cols) (hl : cols.length = b.names.length) (hrec : Rectangular cols) :
    SoundingReader.unpackMerged ⟨⟨expectedInfo e (soundingFile env b) bk, bytes, b.rowHeaders.map rowHead,
      b.columnHeaders.map (snHead env)⟩, true, infos⟩ p.1.2 p.2.2 = .ok (soundingOf env b.names p cols) ∧
      ∀ c ∈ cols, List.Forall₂ (fun v f => env.f32 v = .ok f) c (f32s env c) := by
  obtain ⟨h1, h2⟩ := mem_pairs.1 hp
  have hcell := cell_spec (bk := bk) (snStation (env := env) hr hc) hs h1 h2
  have hv' : dictGet b.data (p.1.1, p.2.1) = some cols := hv
  rw [hv'] at hcell
  obtain ⟨ws, n, hn1, hw, hptr, hh⟩ := hcell
  obtain ⟨hpart, hf⟩ := soundingPart_spec (i := expectedInfo e (soundingFile env b) bk) rfl hn1 hw hh (txt "SNDT") b.names hl hrec
  refine ⟨?_, hf⟩
  have hitems : cellItems (soundingPart (expectedInfo e (soundingFile env b) bk) bytes) (expectedInfo e (soundingFile env b) bk) bytes
      p.1.2 p.2.2 ((expectedInfo e (soundingFile env b) bk).parts.zip (expectedInfo e (soundingFile env b) bk).params) 0 =
      .ok (snItems env b.names cols) := by
    have hz : (expectedInfo e (soundingFile env b) bk).parts.zip (expectedInfo e (soundingFile env b) bk).params =
      [((stationPart (txt "SNDT") b.names).info, (stationPart (txt "SNDT") b.names).readBack)] := rfl
    rw [hz]
    apply cellItems_one
    · rw [hptr]; omega
    · rw [hptr, hpart]
  have g1 : snHeaderAt (b.rowHeaders.map rowHead) p.1.2 = .ok (rowHead p.1.1) := by
    unfold snHeaderAt; rw [List.getElem?_map, h1]; rfl
  have g2 : snHeaderAt (b.columnHeaders.map (snHead env)) p.2.2 = .ok (snHead env p.2.1) := by
    unfold snHeaderAt; rw [List.getElem?_map, h2]; rfl
  have i1 : headItems (snHead env p.2.1) snKeys = .ok (snSite env p.2.1) := by
    have n := snHead_nodup env p.2.1
    unfold headItems snKeys
    simp only [List.mapM_cons, List.mapM_nil]
    rw [headGet_of n (k := txt "STID") (v := .text p.2.1.stid) (by simp [snHead]),
      headGet_of n (k := txt "STNM") (v := .int p.2.1.stnm) (by simp [snHead]),
      headGet_of n (k := txt "SLAT") (v := .coord (centiD env p.2.1.slat)) (by simp [snHead]),
      headGet_of n (k := txt "SLON") (v := .coord (centiD env p.2.1.slon)) (by simp [snHead]),
      headGet_of n (k := txt "SELV") (v := .int p.2.1.selv) (by simp [snHead]),
      headGet_of n (k := txt "STAT") (v := .text p.2.1.stat) (by simp [snHead]),
      headGet_of n (k := txt "COUN") (v := .text p.2.1.coun) (by simp [snHead])]
    rfl
  have i2 : headItems (rowHead p.1.1) [txt "DATE", txt "TIME"] = .ok (rowHead p.1.1) := headItems_all (rowHead_nodup p.1.1)
  unfold SoundingReader.unpackMerged
  dsimp only
  rw [g1, ok_bind, g2, ok_bind, i1, ok_bind, i2, ok_bind, hitems, ok_bind]
  have := sounding_nodup (env := env) hn p hl
  unfold soundingOf at this
  rw [List.map_append] at this
  rw [dictUpdate_fresh this]
  rfl

/-- The object made of the sounding. -/
theorem snObject_spec {env : NumEnv ρ κ} {lower : Text → Text} {names : List Text} (hn : SoundingNames lower names) (p : Pair κ)
    {cols : List (List ρ)} (hl : cols.length = names.length) (hpos : ∀ c ∈ cols, c ≠ []) :
    ∃ lev, (vertParam names, lev) ∈ names.zip cols ∧
      snObject lower (soundingOf env names p cols) = .ok (snObjOf env lower names p cols lev) := by
  have nd := sounding_nodup (env := env) hn p hl
  have hfst := snItems_fst (env := env) hl
  have hmem : vertParam names ∈ names := by
    unfold vertParam
    split
    · assumption
    · rename_i h
      exact hn.vertical.resolve_left h
  obtain ⟨lev, hlev⟩ : ∃ lev, (vertParam names, lev) ∈ names.zip cols := by
    obtain ⟨k, hk, hk2⟩ := List.getElem_of_mem hmem
    refine ⟨cols[k]'(by omega), ?_⟩
    rw [← hk2, ← List.getElem_zip (h := by rw [List.length_zip]; omega)]
    exact List.getElem_mem _
  refine ⟨lev, hlev, ?_⟩
  have hlevc : lev ∈ cols := (List.of_mem_zip hlev).2
  have pop : ∀ k v, (k, v) ∈ snSite env p.2.1 ++ rowHead p.1.1 → snPop (soundingOf env names p cols) k = .ok v := by
    intro k v h
    unfold snPop
    rw [(dictGet_eq_some nd).2 (List.mem_append_left _ h)]
  have hget : dictGet (soundingOf env names p cols) (vertParam names) = some (.arr (f32s env lev)) := by
    rw [dictGet_eq_some nd]
    refine List.mem_append_right _ ?_
    exact List.mem_map.2 ⟨_, hlev, rfl⟩
  have hvert : vertical (soundingOf env names p cols) = .ok (vertParam names, if txt "PRES" ∈ names then txt "pres" else txt "hght",
      .arr (f32s env lev)) := by
    unfold vertical
    by_cases h : txt "PRES" ∈ names
    · have hv : vertParam names = txt "PRES" := if_pos h
      rw [hv] at hget ⊢
      rw [hget, if_pos h]
      dsimp only
      have : firstLevel (.arr (f32s env lev)) = .ok () := by
        cases hlev' : lev with
        | nil => exact absurd hlev' (hpos lev hlevc)
        | cons a r => rfl
      rw [this, ok_bind]
    · have hv : vertParam names = txt "HGHT" := if_neg h
      rw [hv] at hget ⊢
      have hnone : dictGet (soundingOf env names p cols) (txt "PRES") = none := by
        rw [dictGet_eq_none]
        unfold soundingOf
        rw [List.map_append, snHeads_keys, hfst, List.mem_append]
        rintro (h' | h')
        · exact absurd h' (by decide +kernel)
        · exact h h'
      rw [hnone, hget, if_neg h]
  unfold snObject
  rw [pop (txt "STID") (.text p.2.1.stid) (by simp [snSite]), ok_bind, pop (txt "STNM") (.int p.2.1.stnm) (by simp [snSite]), ok_bind,
    pop (txt "SLAT") (.coord (centiD env p.2.1.slat)) (by simp [snSite]), ok_bind,
    pop (txt "SLON") (.coord (centiD env p.2.1.slon)) (by simp [snSite]), ok_bind,
    pop (txt "SELV") (.int p.2.1.selv) (by simp [snSite]), ok_bind,
    pop (txt "STAT") (.text p.2.1.stat) (by simp [snSite]), ok_bind,
    pop (txt "COUN") (.text p.2.1.coun) (by simp [snSite]), ok_bind, hvert, ok_bind]
  dsimp only
  rw [pop (txt "DATE") (.date (storedTime p.1.1.1 p.1.1.2).1) (by simp [snSite, rowHead]), ok_bind,
    pop (txt "TIME") (.time (storedTime p.1.1.1 p.1.1.2).2) (by simp [snSite, rowHead]), ok_bind]
  rw [show combine (.date (storedTime p.1.1.1 p.1.1.2).1) (.time (storedTime p.1.1.1 p.1.1.2).2) =
    .ok (storedTime p.1.1.1 p.1.1.2) from rfl, ok_bind]
  have hfil : (soundingOf env names p cols).filter (fun kv => decide (kv.1 ∉ vertParam names :: snGone)) =
      ((names.zip cols).filter fun nc => nc.1 ≠ vertParam names).map fun nc => (nc.1, .arr (f32s env nc.2)) := by
    unfold soundingOf
    rw [List.filter_append]
    have f1 : (snSite env p.2.1 ++ rowHead p.1.1).filter (fun kv => decide (kv.1 ∉ vertParam names :: snGone)) = [] := by
      rw [List.filter_eq_nil_iff]
      intro kv hkv
      have : kv.1 ∈ snKeys ++ [txt "DATE", txt "TIME"] := by rw [← snHeads_keys env p]; exact List.mem_map_of_mem hkv
      have := snKeys_gone _ this
      simp [this]
    rw [f1, List.nil_append]
    unfold snItems
    rw [List.filter_map]
    refine congrArg (List.map _) ?_
    refine List.filter_congr fun nc hnc => ?_
    have := hn.free nc.1 (List.of_mem_zip hnc).1
    have hg : nc.1 ∉ snGone := this
    simp only [Function.comp, List.mem_cons, not_or, hg, not_false_eq_true, and_true]
  have hfil' : (soundingOf env names p cols).filter (fun kv => decide (kv.1 ∉ vertParam names :: txt "DATE" :: txt "TIME" :: txt "TXTA" ::
      txt "TXTB" :: txt "TXTC" :: txt "TXPB" :: snKeys)) =
      ((names.zip cols).filter fun nc => nc.1 ≠ vertParam names).map fun nc => (nc.1, .arr (f32s env nc.2)) := hfil
  rw [hfil', List.map_map]
  unfold snObjOf
  have : dictUpdate [] (((names.zip cols).filter fun nc => nc.1 ≠ vertParam names).map
      ((fun kv : Text × HVal => (lower kv.1, kv.2)) ∘ fun nc => (nc.1, .arr (f32s env nc.2)))) =
      ((names.zip cols).filter fun nc => nc.1 ≠ vertParam names).map fun nc => (lower nc.1, .arr (f32s env nc.2)) := by
    rw [dictUpdate_fresh, List.nil_append]
    · rfl
    · simp only [List.map_nil, List.nil_append, List.map_map]
      have h3 : ((names.zip cols).filter fun nc => nc.1 ≠ vertParam names).map
          (Prod.fst ∘ (fun kv : Text × HVal => (lower kv.1, kv.2)) ∘ fun nc => (nc.1, .arr (f32s env nc.2))) =
          (((names.zip cols).filter fun nc => nc.1 ≠ vertParam names).map Prod.fst).map lower := by
        rw [List.map_map]; rfl
      rw [h3]
      have h4 : (((names.zip cols).filter fun nc => nc.1 ≠ vertParam names).map Prod.fst).Sublist names := by
        have := (List.filter_sublist (l := names.zip cols) (p := fun nc => decide (nc.1 ≠ vertParam names))).map Prod.fst
        rwa [List.map_fst_zip (by omega)] at this
      exact (h4.map lower).nodup hn.lower_nodup
  rw [this]

/-- Without levels there is no station pressure. -/
theorem snObject_no_levels {env : NumEnv ρ κ} {lower : Text → Text} {names : List Text} (hn : SoundingNames lower names) (p : Pair κ)
    {cols : List (List ρ)} (hl : cols.length = names.length) (hpres : txt "PRES" ∈ names) (hnil : ∀ c ∈ cols, c = []) :
    snObject lower (soundingOf env names p cols) = .error .indexError := by
  have nd := sounding_nodup (env := env) hn p hl
  obtain ⟨k, hk, hk2⟩ := List.getElem_of_mem hpres
  have hmz : (txt "PRES", cols[k]'(by omega)) ∈ names.zip cols := by
    rw [← hk2, ← List.getElem_zip (h := by rw [List.length_zip]; omega)]
    exact List.getElem_mem _
  have pop : ∀ k v, (k, v) ∈ snSite env p.2.1 ++ rowHead p.1.1 → snPop (soundingOf env names p cols) k = .ok v := by
    intro k v h
    unfold snPop
    rw [(dictGet_eq_some nd).2 (List.mem_append_left _ h)]
  have hget : dictGet (soundingOf env names p cols) (txt "PRES") = some (.arr []) := by
    rw [dictGet_eq_some nd]
    refine List.mem_append_right _ ?_
    refine List.mem_map.2 ⟨_, hmz, ?_⟩
    dsimp only
    rw [hnil _ (List.getElem_mem _)]
    rfl
  have hvert : vertical (soundingOf env names p cols) = .error .indexError := by
    unfold vertical
    rw [hget]; rfl
  unfold snObject
  rw [pop (txt "STID") (.text p.2.1.stid) (by simp [snSite]), ok_bind, pop (txt "STNM") (.int p.2.1.stnm) (by simp [snSite]), ok_bind,
    pop (txt "SLAT") (.coord (centiD env p.2.1.slat)) (by simp [snSite]), ok_bind,
    pop (txt "SLON") (.coord (centiD env p.2.1.slon)) (by simp [snSite]), ok_bind,
    pop (txt "SELV") (.int p.2.1.selv) (by simp [snSite]), ok_bind,
    pop (txt "STAT") (.text p.2.1.stat) (by simp [snSite]), ok_bind,
    pop (txt "COUN") (.text p.2.1.coun) (by simp [snSite]), ok_bind, hvert]
  rfl

end Gempak
