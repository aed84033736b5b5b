import Verif.Props.GridFile

/-!
# C16: grids whose values take 32 bits or less in all
-/

namespace Gempak
open Spec

theorem packed_small {a : ℚ} {l : List ℚ} {k : Nat} (h1 : 1 ≤ k) (h2 : k ≤ 31) (hk : k * (a :: l).length ≤ 32) {ref scale : ℚ} {w : List Int}
    (h : Grib.packGrib (a :: l) (-9999) k = .ok (ref, scale, w)) :
    (∀ x ∈ a :: l, x = a ∧ x ≠ -9999) ∧ ref = a ∧ scale = 1 ∧ w ≠ [] ∧ ∀ r s m, Grib.readGrib w k (a :: l).length r s m = .ok none := by
  unfold Grib.packGrib at h
  rw [if_neg (by omega)] at h
  simp only [Int.toNat_natCast] at h
  rw [Grib.qRange_cons] at h
  dsimp only at h
  split_ifs at h with c1 c2
  · obtain ⟨c3, c4⟩ := c2
    have e := Except.ok.inj h
    have e1 : Grib.qMin a l = ref := congrArg Prod.fst e
    have e2 : (1 : ℚ) = scale := congrArg (fun p => p.2.1) e
    have e3 : List.replicate (Grib.lendat k (a :: l).length) 0 = w := congrArg (fun p => p.2.2) e
    have heq : Grib.qMax a l = Grib.qMin a l := by linarith
    have hall : ∀ x ∈ a :: l, x = Grib.qMin a l := fun x hx =>
      le_antisymm (heq ▸ Grib.le_qMax a l x hx) (Grib.qMin_le a l x hx)
    have ha := hall a List.mem_cons_self
    have hlen : 1 ≤ (a :: l).length := by simp
    have hlk : 1 ≤ k * (a :: l).length := Nat.mul_pos h1 hlen
    have hld : Grib.lendat k (a :: l).length = 1 := by
      rw [Grib.lendat_eq]
      unfold Grib.Spec.wordCount
      omega
    refine ⟨fun x hx => ⟨(hall x hx).trans ha.symm, ?_⟩, e1.symm.trans ha.symm, e2.symm, ?_, ?_⟩
    · intro hm
      rw [List.any_eq_false] at c4
      exact c4 x hx (decide_eq_true hm)
    · rw [← e3, hld]; simp
    · intro r s m
      unfold Grib.readGrib
      rw [← e3, hld]
      rfl
  · rw [Grib.packWords_error k h1 h2 _ (by rw [List.length_map]; unfold Grib.Spec.wordCount; omega)] at h
    cases h

/-- The value `1` in single precision. -/
theorem one_stored : ∃ p, f32Value p = some 1 := by
  obtain ⟨p, hp⟩ := f32Value_nat 1 (by decide)
  exact ⟨p, by simpa using hp⟩

theorem record_small {env : GridEnv} (hr : env.Rounds) {e : GEntry} {nx ny : Nat} (hs : e.Sound nx ny) (hnx : 1 ≤ nx) (hny : 1 ≤ ny) {precision : Int}
    (hbits : precision * nx * ny ≤ 32) {ws : List Val} (hw : gridRecord env nx ny precision e.values = .ok ws) :
    (∃ v : ℚ, v ≠ -9999 ∧ ∀ x ∈ e.grid.flatten, counted x = v) ∧
    ∀ {i : DMInfo} {bytes : Bytes} {part : PartInfo} {icol n : Nat}, 1 ≤ n → dataPointer i bytes 0 icol 0 = n →
      part.headerLength = 2 → f32Value i.label.missingFloat = some (-9999) → HoldsW i.order bytes n ws →
      gridData i bytes part icol 0 nx ny = .ok none := by
  unfold gridRecord at hw
  obtain ⟨⟨ref, scale, w⟩, g1, hw⟩ := Except.bind_ok hw
  obtain ⟨fr, g2, hw⟩ := Except.bind_ok hw
  obtain ⟨fs, g3, hw⟩ := Except.bind_ok hw
  obtain rfl := Except.ok.inj hw
  dsimp only at g2 g3
  obtain ⟨p1, p2, _⟩ := packGrib_range g1
  obtain ⟨k, rfl⟩ : ∃ k : Nat, precision = k := ⟨precision.toNat, by omega⟩
  have hfl := flatten_length hs.row
  rw [hs.rows] at hfl
  have hlen : e.values.flatten.length = ny * nx := by rw [values_flatten, List.length_map, hfl]
  have hk : k * (ny * nx) ≤ 32 := by
    have : (k : Int) * nx * ny = ((k * (ny * nx) : Nat) : Int) := by
      push_cast; rw [mul_assoc, mul_comm (nx : Int) (ny : Int)]
    rw [this] at hbits
    exact_mod_cast hbits
  have hpos : 1 ≤ ny * nx := Nat.mul_pos hny hnx
  obtain ⟨a, l, hal⟩ : ∃ a l, e.values.flatten = a :: l := by
    cases hq : e.values.flatten with
    | nil =>
      rw [hq] at hlen
      simp at hlen
      omega
    | cons a l => exact ⟨a, l, rfl⟩
  rw [hal] at g1 hlen
  obtain ⟨c1, c2, c3, c4, c5⟩ := packed_small (by omega) (by omega) (by rw [hlen]; exact hk) g1
  refine ⟨⟨a, (c1 a List.mem_cons_self).2, fun x hx => ?_⟩, ?_⟩
  · rw [← hal, values_flatten] at c1
    exact (c1 _ (List.mem_map_of_mem hx)).1
  · intro i bytes part icol n hn hp hh hm hH
    obtain ⟨rv, v1, v2⟩ := hr.nearest _ _ g2
    obtain ⟨ps, hps⟩ := one_stored
    rw [← c3] at hps
    have v3 := hr.exact hps g3
    have := gridData_raw hn hp hh hm hH v1 v3 c4 (by
      rw [Int.toNat_natCast, Nat.mul_comm nx ny, ← hlen]; exact c5 _ _ _) (by intro l h; cases h)
    exact this

theorem grid_file_small {env : GridEnv} (hr : env.Rounds) {b0 b : GridBuilder} {es : List GEntry} (hb : b0.Regular)
    (hx : b0.nx < 2 ^ 24) (hy : b0.ny < 2 ^ 24) (hbits : b0.precision * b0.nx * b0.ny ≤ 32)
    (h : GHistory b0 (es.map GEntry.item) b) (hs : ∀ e ∈ es, e.Sound b0.nx b0.ny) (ht : ∀ e ∈ es, e.Typed) (hl : ∀ e ∈ es, e.Readable)
    (hcap : 1 + (gfinal es).length ≤ mmhdrs) (hc : Comparable es) {e : Endian} {bytes : Bytes} (hsave : saveGrid env e b = .ok bytes)
    (host : Endian) : (∀ x ∈ gfinal es, ∃ v : ℚ, v ≠ -9999 ∧ ∀ y ∈ x.grid.flatten, counted y = v) ∧
      ∃ (f : GridFileR) (P : List GEntry), openGrid host bytes = .ok f ∧ P.Perm (gfinal es) ∧
      List.Forall₂ (fun x g => IsGridListed x.seen g) P f.grids ∧ (es ≠ [] → ∀ upper lower, gdxarray upper lower {} f = .ok []) := by
  obtain ⟨hcol, P, hP, hPc, hPd⟩ := h.table hs hcap hc
  have hPe : ∀ x ∈ P, x ∈ es := by
    intro x hx
    have := hP.mem_iff.1 hx
    rw [gfinal_eq hs] at this
    exact finalBy_sub this
  have hreg : b.Regular := ⟨by rw [h.corners]; exact hb.corners, by rw [h.angles]; exact hb.angles, by rw [h.proj]; exact hb.proj⟩
  obtain ⟨g1, g2, fx, fy, e1, e2, hsv⟩ := saveGrid_inv hsave
  have hx1 : 1 ≤ b0.nx := by rw [h.nx] at g1; omega
  have hy1 : 1 ≤ b0.ny := by rw [h.ny] at g2; omega
  rw [h.nx] at e1
  rw [h.ny] at e2
  obtain ⟨_, e1', v1⟩ := hr.nat hx
  obtain ⟨_, e2', v2⟩ := hr.nat hy
  obtain rfl := Except.ok.inj (e1.symm.trans e1')
  obtain rfl := Except.ok.inj (e2.symm.trans e2')
  have hopen := openGrid_spec (env := env) (host := host) hreg hcol hsv v1 v2 hPc headOf infoOfEntry
    (fun c hc' vs hv => header_read e (hl c (hPe c hc')) (hs c (hPe c hc')) (ht c (hPe c hc')) hv)
    (fun c _ n => gridInfo_read n c)
  obtain ⟨I, hI⟩ : ∃ I, I = expectedInfo e (gridFile env b fx fy) (some (expectedBlocks b.proj (gridNav b fx fy) (gridAnl b))) := ⟨_, rfl⟩
  rw [← hI] at hopen
  have hparts : I.parts = [gridPart.info] := by rw [hI]; rfl
  have hdata : ∀ x ∈ P.zipIdx, (∃ v : ℚ, v ≠ -9999 ∧ ∀ y ∈ x.1.grid.flatten, counted y = v) ∧
      gridData I bytes gridPart.info x.2 0 b0.nx b0.ny = .ok none := by
    intro x hx'
    have hxP : x.1 ∈ P := List.fst_mem_of_mem_zipIdx hx'
    have hj : b.columnHeaders[x.2]? = some x.1.col := by
      rw [← hPc, List.getElem?_map, mem_zipIdx_iff.1 hx']; rfl
    obtain ⟨ws, n, n1, n2, n3, n4⟩ := grid_cell (env := env) (bk := some (expectedBlocks b.proj (gridNav b fx fy) (gridAnl b)))
      hcol hsv hj (hPd _ hxP)
    rw [h.nx, h.ny, h.precision] at n2
    rw [← hI] at n3
    have ho : I.order = e := by rw [hI]; rfl
    have hm : f32Value I.label.missingFloat = some (-9999) := by rw [hI]; exact f32Value_missing
    rw [← ho] at n4
    obtain ⟨d1, d2⟩ := record_small hr (hs _ (hPe _ hxP)) hx1 hy1 hbits n2
    exact ⟨d1, d2 n1 n3 (part := gridPart.info) rfl hm n4⟩
  refine ⟨?_, _, P, hopen, hP, forall₂_zipIdx P 0 ?_, ?_⟩
  · intro x hx'
    have hxP := hP.mem_iff.2 hx'
    obtain ⟨j, hj, rfl⟩ := List.mem_iff_getElem.1 hxP
    exact (hdata (P[j], j) (mem_zipIdx_iff.2 (List.getElem?_eq_getElem hj))).1
  · intro x hx'
    have hxP : x.1 ∈ P := List.fst_mem_of_mem_zipIdx hx'
    exact info_listed x.2 (hl _ (hPe _ hxP)) (hs _ (hPe _ hxP))
  · intro hne upper lower
    have hPne : P ≠ [] := by
      intro hnil
      rw [hnil] at hP
      have : gfinal es = [] := hP.symm.eq_nil
      obtain ⟨a, ha⟩ := List.exists_mem_of_ne_nil _ hne
      obtain ⟨y, hy', _⟩ := finalBy_covers (key := GEntry.col) ha
      rw [← gfinal_eq hs, this] at hy'
      cases hy'
    obtain ⟨F, hF⟩ : ∃ F : GridFileR, F = ⟨I, bytes, P.map headOf, P.zipIdx.map (fun x => infoOfEntry x.2 x.1),
      some ((b0.nx : Int), (b0.ny : Int))⟩ := ⟨_, rfl⟩
    rw [← hF]
    have hcolumn : ∀ x ∈ P.zipIdx, columnGrids lower F (infoOfEntry x.2 x.1) F.info.parts 0 = .ok [] := by
      intro x hx'
      have hp' : F.info.parts = [gridPart.info] := by rw [hF]; exact hparts
      have hsz : F.size = some ((b0.nx : Int), (b0.ny : Int)) := by rw [hF]
      rw [hp', columnGrids, hsz]
      have : gridData F.info F.bytes gridPart.info (infoOfEntry x.2 x.1).number 0 b0.nx b0.ny = .ok none := by
        rw [hF]; exact (hdata x hx').2
      dsimp only
      rw [this, ok_bind]
      rfl
    have hsel : selectGrids upper {} F.grids = .ok F.grids := by
      unfold selectGrids
      have h1 : optM (gridTimes F.grids) ({} : GridQuery).dateTime = .ok none := rfl
      have h2 : optM (gridTimes2 F.grids) ({} : GridQuery).dateTime2 = .ok none := rfl
      rw [h1, ok_bind, h2, ok_bind]
      show (if F.grids.length < 1 then Except.error PyErr.keyError else .ok F.grids) = _
      rw [if_neg]
      rw [hF]
      show ¬ (P.zipIdx.map (fun x => infoOfEntry x.2 x.1)).length < 1
      rw [List.length_map, List.length_zipIdx]
      have := List.length_pos_of_ne_nil hPne
      omega
    unfold gdxarray
    rw [hsel, ok_bind]
    have hg : F.grids = P.zipIdx.map (fun x => infoOfEntry x.2 x.1) := by rw [hF]
    rw [hg, List.mapM_map, mapM_ok (f := (fun g => columnGrids lower F g F.info.parts 0) ∘ fun x : GEntry × Nat => infoOfEntry x.2 x.1)
      (g := fun _ => ([] : List GridObj)) hcolumn, ok_bind]
    refine congrArg Except.ok (List.flatten_eq_nil_iff.2 ?_)
    intro l hl
    obtain ⟨_, _, rfl⟩ := List.mem_map.1 hl
    rfl

/-- C16: when the values of a grid take 32 bits or less in all, a file is written only if each grid has one value at all its points, none missing;
reading the file then lists the grids but returns none of them. -/
theorem C16_small (env : GridEnv) (hr : env.Rounds) (nx ny : Nat) (proj : Text) (corners angles : List F32) (delta : F32)
    (bits : Nat) (hproj : proj ∈ knownProjections) (hcorners : corners.length = 4) (hangles : angles.length = 3)
    (hx : nx < 2 ^ 24) (hy : ny < 2 ^ 24) (hbits : bits * nx * ny ≤ 32) (rs : List GridReq)
    (hok : AllOk env (newGrid nx ny proj corners angles delta bits) rs) (hl : ∀ e ∈ gAccepted env nx ny rs, e.Readable)
    (e host : Endian) (bytes : Bytes)
    (hsave : saveGrid env e (runGrid env (newGrid nx ny proj corners angles delta bits) rs) = .ok bytes) :
    (∀ x ∈ gfinal (gAccepted env nx ny rs), ∃ v : ℚ, v ≠ -9999 ∧ ∀ y ∈ x.grid.flatten, y = some v) ∧
    ∃ (f : GridFileR) (P : List GEntry), openGrid host bytes = .ok f ∧ P.Perm (gfinal (gAccepted env nx ny rs)) ∧
      List.Forall₂ (fun x g => IsGridListed x.seen g) P f.grids ∧ (rs ≠ [] → ∀ upper lower, gdxarray upper lower {} f = .ok []) := by
  obtain ⟨h1, h2, h3⟩ := C19_grid_history env nx ny proj corners angles delta bits rs hok
  obtain ⟨f0, f, P, f1, f2, f3, f4⟩ := grid_file_small hr (b0 := newGrid nx ny proj corners angles delta bits)
    ⟨hcorners, hangles, hproj⟩ hx hy (by
      show (bits : Int) * nx * ny ≤ 32
      exact_mod_cast hbits)
    (new_history env _ (GHistory.new nx ny proj corners angles delta bits) rs) entries_sound gAccepted_typed hl h2 h3 hsave host
  refine ⟨?_, f, P, f1, f2, f3, fun hne => f4 ?_⟩
  · intro x hx'
    obtain ⟨v, hv, hall⟩ := f0 x hx'
    refine ⟨v, hv, fun y hy' => ?_⟩
    have := hall y hy'
    cases y with
    | none => exact absurd this.symm hv
    | some q => exact congrArg some this
  · intro h0
    obtain ⟨r, hr⟩ := List.exists_mem_of_ne_nil _ hne
    obtain ⟨x, hx⟩ := Option.isSome_iff_exists.1 (h1 r hr)
    have : x ∈ gAccepted env nx ny rs := List.mem_filterMap.2 ⟨r, hr, hx⟩
    change gAccepted env nx ny rs = [] at h0
    rw [h0] at this; cases this

theorem packGrib_const (v : ℚ) (l : List ℚ) (hl : ∀ x ∈ l, x = v) (hv : v ≠ -9999) (k : Nat) (h1 : 1 ≤ k) (h2 : k ≤ 31) :
    Grib.packGrib (v :: l) (-9999) k = .ok (v, 1, List.replicate (Grib.lendat k (v :: l).length) 0) := by
  have hall : ∀ x ∈ v :: l, x = v := List.forall_mem_cons.2 ⟨rfl, hl⟩
  have e1 := hall _ (Grib.qMin_mem v l)
  have e2 := hall _ (Grib.qMax_mem v l)
  have e3 : ((v :: l).any fun x => decide (x = -9999)) = false := by
    rw [List.any_eq_false]
    intro x hx
    rw [hall x hx]
    simpa using hv
  have hr0 : Grib.roundEven 0 = 0 := by simpa using Grib.roundEven_int 0
  unfold Grib.packGrib
  rw [if_neg (by omega)]
  dsimp only
  rw [Grib.qRange_cons]
  dsimp only
  rw [e1, e2, sub_self, hr0, if_neg (by norm_num), if_pos ⟨rfl, e3⟩, Int.toNat_natCast]

/-- C16: files of grids each with one value at all points are written, however few bits the values take. -/
theorem C16_constant_writes (env : GridEnv) (hr : env.Rounds) (nx ny : Nat) (proj : Text) (corners angles : List F32) (delta : F32)
    (bits : Nat) (hproj : proj ∈ knownProjections) (hcorners : corners.length = 4) (hangles : angles.length = 3)
    (hx : 3 ≤ nx) (hy : 3 ≤ ny) (hxy : nx * ny < 2 ^ 24) (h1 : 1 ≤ bits) (h2 : bits ≤ 31)
    (rs : List GridReq) (hok : AllOk env (newGrid nx ny proj corners angles delta bits) rs)
    (hl : ∀ e ∈ gAccepted env nx ny rs, e.Stamped) (hw : ∀ e ∈ gAccepted env nx ny rs, e.Writable env)
    (hconst : ∀ x ∈ gAccepted env nx ny rs, ∃ v : ℚ, v ≠ -9999 ∧ ∀ y ∈ x.grid.flatten, y = some v)
    (hsize : (gfinal (gAccepted env nx ny rs)).length * (nx * ny + 10) ≤ 2 ^ 30) (e : Endian) :
    ∃ bytes, saveGrid env e (runGrid env (newGrid nx ny proj corners angles delta bits) rs) = .ok bytes := by
  obtain ⟨_, g2, g3⟩ := C19_grid_history env nx ny proj corners angles delta bits rs hok
  refine grid_saves_of hr (b0 := newGrid nx ny proj corners angles delta bits) ⟨hcorners, hangles, hproj⟩ hx hy hxy ?_
    (new_history env _ (GHistory.new nx ny proj corners angles delta bits) rs) entries_sound gAccepted_typed hl hw g2 g3 hsize e
  intro x hx'
  show ∃ ws, gridRecord env nx ny bits x.values = .ok ws ∧ (∀ w ∈ ws, w.Packable) ∧ ws.length ≤ nx * ny + 10
  obtain ⟨v, hv, hall⟩ := hconst x hx'
  have hs : x.Sound nx ny := entries_sound x hx'
  have hfl := flatten_length hs.row
  rw [hs.rows] at hfl
  have hpos : 1 ≤ ny * nx := Nat.mul_pos (by omega) (by omega)
  obtain ⟨l, hl'⟩ : ∃ l, x.values.flatten = v :: l ∧ ∀ z ∈ l, z = v := by
    have hz : ∀ z ∈ x.values.flatten, z = v := by
      rw [values_flatten]
      intro z hz
      obtain ⟨y, hy', rfl⟩ := List.mem_map.1 hz
      rw [hall y hy']; rfl
    cases hq : x.values.flatten with
    | nil =>
      have : x.values.flatten.length = ny * nx := by rw [values_flatten, List.length_map, hfl]
      rw [hq] at this
      simp at this
      omega
    | cons a l =>
      rw [hq] at hz
      obtain rfl := hz a List.mem_cons_self
      exact ⟨l, rfl, fun z hz' => hz z (List.mem_cons_of_mem _ hz')⟩
  obtain ⟨hal, hl''⟩ := hl'
  have hlen : (v :: l).length = ny * nx := by rw [← hal, values_flatten, List.length_map, hfl]
  obtain ⟨y, hy'⟩ : ∃ y, y ∈ x.grid.flatten := by
    apply List.exists_mem_of_ne_nil
    intro h0
    rw [h0] at hfl
    simp at hfl
    omega
  obtain ⟨fr, hfr⟩ := (hw x hx').single y hy'
  rw [hall y hy'] at hfr
  obtain ⟨ps, hps⟩ := one_stored
  obtain ⟨fs, hfs⟩ := hr.ok ps _ hps
  have hwl : Grib.lendat bits (v :: l).length ≤ nx * ny + 1 := by
    rw [Grib.lendat_eq, hlen, Nat.mul_comm ny nx]
    unfold Grib.Spec.wordCount
    have : bits * (nx * ny) ≤ 31 * (nx * ny) := Nat.mul_le_mul_right _ h2
    generalize bits * (nx * ny) = q at *
    omega
  have hx1 : nx ≤ nx * ny := Nat.le_mul_of_pos_right _ (by omega)
  have hy1 : ny ≤ nx * ny := Nat.le_mul_of_pos_left _ (by omega)
  refine ⟨_, by
    unfold gridRecord
    rw [hal, packGrib_const v l hl'' hv bits h1 h2, ok_bind]
    dsimp only
    rw [show env.f32 v = .ok fr from hfr, ok_bind, hfs, ok_bind], ?_, ?_⟩
  · intro w hv
    simp only [List.mem_cons] at hv
    rcases hv with rfl | rfl | rfl | rfl | rfl | rfl | rfl | rfl | rfl | hv
    · rw [List.length_replicate]; exact inI32_nat (by omega)
    · exact inI32_nat (by omega)
    · exact inI32_nat (by omega)
    · show inI32 1; decide
    · show inI32 (bits : Int); exact inI32_nat (by omega)
    · show inI32 (-1); decide
    · exact inI32_nat (by omega)
    · trivial
    · trivial
    · obtain ⟨i, hi, rfl⟩ := List.mem_map.1 hv
      rw [(List.mem_replicate.1 hi).2]
      show inI32 0
      decide
  · simp only [List.length_cons, List.length_map, List.length_replicate] at hwl ⊢
    omega

/-- A request: 3 by 3 points with one value. -/
def flatReq (v : ℚ) : GridReq := { sampleReq v with grid := List.replicate 3 (List.replicate 3 (some v)) }

/-- Its entry. -/
def flatEntry (v : ℚ) : GEntry := { sampleEntry v with grid := List.replicate 3 (List.replicate 3 (some v)) }

theorem flat_entry (v : ℚ) : gEntry sampleEnv 3 3 (flatReq v) = some (flatEntry v) := by
  have hl : levelOf (.num 500) = some 500 := by
    unfold levelOf; norm_num
  unfold gEntry
  rw [if_pos ⟨rfl, by
    intro row h
    simp only [flatReq, List.mem_replicate] at h
    rw [h.2, List.length_replicate]⟩]
  have h1 : nameOf sampleEnv (flatReq v).name = some (txt "TMPK") := by
    show nameOf sampleEnv (txt "TMPK") = _
    unfold nameOf sampleEnv; decide
  have h2 : coordOf sampleEnv (flatReq v).vcoord = some (txt "pres") := by
    show coordOf sampleEnv (some (txt "pres")) = _
    unfold coordOf sampleEnv; decide
  rw [h1, h2]
  have h3 : levelOf (flatReq v).level = some 500 := hl
  rw [h3]
  rfl

/-- C16: a grid of 3 by 3 points with one value and a precision of 3 bits is written, listed and not returned. -/
theorem C16_flat (v : ℚ) (hv : v ≠ -9999) (upper lower : Text → Text) :
    ∃ (bytes : Bytes) (f : GridFileR) (g : GridInfo),
      AllOk sampleEnv (newGrid 3 3 (txt "CED") [0, 0, 0, 0] [0, 0, 0] 0 (3 : ℕ)) [flatReq v] ∧
      saveGrid sampleEnv .little (runGrid sampleEnv (newGrid 3 3 (txt "CED") [0, 0, 0, 0] [0, 0, 0] 0 (3 : ℕ)) [flatReq v]) = .ok bytes ∧
      openGrid .little bytes = .ok f ∧ f.grids = [g] ∧ IsGridListed (flatEntry v).seen g ∧ gdxarray upper lower {} f = .ok [] := by
  have hacc : gAccepted sampleEnv 3 3 [flatReq v] = [flatEntry v] := by
    rw [gAccepted, List.filterMap_cons_some (flat_entry v), List.filterMap_nil]
  have hfin : gfinal [flatEntry v] = [flatEntry v] := by
    unfold gfinal
    rw [if_neg (by rintro ⟨x, hx, _⟩; cases hx)]
    rfl
  have hflat : ∀ y ∈ (flatEntry v).grid.flatten, y = some v := by
    intro y hy
    obtain ⟨l, hl, hy⟩ := List.mem_flatten.1 hy
    have hl : l ∈ List.replicate 3 (List.replicate 3 (some v)) := hl
    rw [(List.mem_replicate.1 hl).2] at hy
    exact (List.mem_replicate.1 hy).2
  have hok : AllOk sampleEnv (newGrid 3 3 (txt "CED") [0, 0, 0, 0] [0, 0, 0] 0 (3 : ℕ)) [flatReq v] := by
    intro pre r post h
    rcases pre with _ | ⟨a, pre⟩
    · obtain ⟨rfl, _⟩ := List.cons.inj h
      rw [C19_grid]
      refine ⟨by rw [flat_entry]; rfl, ?_, ?_⟩
      · rw [List.nil_append, hacc, hfin]; simp
      · rw [List.nil_append, hacc]
        intro a ha b hb _
        rw [List.mem_singleton.1 ha, List.mem_singleton.1 hb]
    · have := congrArg List.length h
      simp at this
  have hleg : (flatEntry v).Legible := by
    have g1 : When.Legible ⟨0, ⟨2020, 2, 29⟩, ⟨12, 30, 0, 0⟩, 12, 30⟩ := ⟨by decide, by decide, by decide, by decide⟩
    have g2 : NameLegible (txt "TMPK") := by
      refine ⟨⟨?_, by decide⟩, ⟨?_, by decide⟩, ⟨?_, by decide⟩⟩ <;> decide
    exact ⟨g1, (by intro w h; exact absurd h (by simp [flatEntry, sampleEntry])), g2⟩
  have hwr : (flatEntry v).Writable sampleEnv := by
    refine ⟨by show inI32 500; decide, by show inI32 (-1); decide, ?_, fun x _ => ⟨_, rfl⟩⟩
    intro x hx y hy
    rw [hflat x hx, hflat y hy, sub_self]
    norm_num
  obtain ⟨bytes, hs⟩ := C16_constant_writes sampleEnv sampleEnv_rounds 3 3 (txt "CED") [0, 0, 0, 0] [0, 0, 0] 0 3 (by decide) rfl rfl (by decide) (by decide)
    (by decide) (by decide) (by decide) [flatReq v] hok (by
      rw [hacc]
      intro e he
      rw [List.mem_singleton.1 he]
      exact hleg.readable.toTimed.stamped) (by
      rw [hacc]
      intro e he
      rw [List.mem_singleton.1 he]
      exact hwr) (by
      rw [hacc]
      intro e he
      rw [List.mem_singleton.1 he]
      exact ⟨v, hv, hflat⟩) (by rw [hacc, hfin]; simp) .little
  obtain ⟨_, f, P, f1, f2, f3, f4⟩ := C16_small sampleEnv sampleEnv_rounds 3 3 (txt "CED") [0, 0, 0, 0] [0, 0, 0] 0 3 (by decide) rfl rfl (by decide) (by decide)
    (by decide) [flatReq v] hok (by
      rw [hacc]
      intro e he
      rw [List.mem_singleton.1 he]
      exact hleg.readable) .little .little bytes hs
  rw [hacc, hfin] at f2
  have hP := List.perm_singleton.1 f2
  subst hP
  rcases hg : f.grids with _ | ⟨g, _ | ⟨g2, gs⟩⟩
  · rw [hg] at f3; cases f3
  · rw [hg] at f3
    cases f3 with
    | cons a b => exact ⟨bytes, f, g, hok, hs, f1, hg, a, f4 (by simp) upper lower⟩
  · rw [hg] at f3
    cases f3 with
    | cons a b => cases b

end Gempak
