import Verif.Proof.GridHead
import Verif.Proof.GridPoint
import Verif.Proof.StationSave

/-!
# Grid files on disk
-/

namespace Gempak
open Spec

/-- What the constructor guarantees of a builder. -/
structure GridBuilder.Regular (b : GridBuilder) : Prop where
  corners : b.corners.length = 4
  angles : b.angles.length = 3
  proj : b.proj ∈ knownProjections

theorem proj_decodes {p : Text} (h : p ∈ knownProjections) : utf8Dec ((utf8 (ljust 4 p)).take 3) = some p := by
  have : ∀ p ∈ knownProjections, utf8Dec ((utf8 (ljust 4 p)).take 3) = some p := by decide +kernel
  exact this p h

theorem gridColumns_nodup : gridColumns.Nodup := by decide +kernel

theorem gridColumns_name4 : ∀ s ∈ gridColumns, Name4 s := by
  have : ∀ s ∈ gridColumns, (s.head?.map isSpace = some false ∧ s.getLast?.map isSpace = some false) ∧ (utf8 (ljust 4 s)).length = 4 := by
    decide +kernel
  intro s hs
  obtain ⟨⟨h1, h2⟩, h3⟩ := this s hs
  refine ⟨⟨?_, ?_⟩, h3⟩
  · intro c hc
    rw [hc] at h1
    exact Option.some.inj h1
  · intro c hc
    rw [hc] at h2
    exact Option.some.inj h2

theorem gcolWords_length (c : GCol) (vs : List Val) (h : gcolWords c = .ok vs) : vs.length = gridColumns.length := by
  unfold gcolWords at h
  obtain ⟨t1, _, h⟩ := Except.bind_ok h
  obtain ⟨t2, _, h⟩ := Except.bind_ok h
  obtain rfl := Except.ok.inj h
  rfl

section
variable {env : GridEnv} {b : GridBuilder} {fx fy : F32}

theorem gridVisits_fst (env : GridEnv) (b : GridBuilder) (fx fy : F32) :
    (gridFile env b fx fy).visits.map Prod.fst = List.range' 0 b.columnHeaders.length := by
  show ((b.columnHeaders.zipIdx.map fun c => (c.2, (dictGet b.data c.1).map (gridRecord env b.nx b.ny b.precision))).map Prod.fst) = _
  rw [List.map_map]
  exact List.zipIdx_map_snd 0 b.columnHeaders

theorem gridFile_wf (hc : b.columns = b.columnHeaders.length) : (gridFile env b fx fy).WF := by
  refine ⟨?_, ?_, ?_, ?_, ?_, ?_, ?_, ?_, ?_, ?_⟩
  · intro p hp
    have hp : p ∈ [gridPart] := hp
    rw [List.mem_singleton] at hp
    subst hp
    exact ⟨rfl, rfl, rfl⟩
  · show bodySize (gridFileBody _ _ _) ≤ 4 * (gridFileHeaders.map fun h => h.length + 1).sum
    have : ∀ p n a, bodySize (gridFileBody p n a) = bodySize (gridFileBody [] [] []) := fun _ _ _ => rfl
    rw [this]
    decide +kernel
  · intro x hx vs he
    have hx : x ∈ [Except.ok [Val.int 1]] := hx
    rw [List.mem_singleton] at hx
    subst hx
    obtain rfl := Except.ok.inj he
    rfl
  · exact le_refl 1
  · intro _; rfl
  · intro x hx vs he
    obtain ⟨c, _, rfl⟩ := List.mem_map.1 hx
    exact gcolWords_length c vs he
  · show (b.columnHeaders.map gcolWords).length ≤ b.columns
    rw [List.length_map, hc]
  · intro v hv
    have hm : v.1 ∈ List.range' 0 b.columnHeaders.length := by
      rw [← gridVisits_fst env b fx fy]; exact List.mem_map_of_mem hv
    rw [List.mem_range'_1] at hm
    show v.1 < 1 * 1 * b.columns
    omega
  · rw [gridVisits_fst]; exact List.nodup_range'
  · intro A v h
    have h1 := gridVisits_fst env b fx fy
    rw [h, List.map_append, List.map_singleton] at h1
    have hl := congrArg List.length h1
    rw [List.length_append, List.length_map, List.length_singleton, List.length_range'] at hl
    have h2 := congrArg List.getLast? h1
    rw [List.getLast?_concat, List.getLast?_range', if_neg (by omega)] at h2
    have h2 := Option.some.inj h2
    show v.1 + 1 = 1 * 1 * b.columns
    omega

theorem name4_grid : Name4 (txt "GRID") := ⟨by unfold Trimmed; decide +kernel, by decide +kernel⟩

theorem gridFile_readable : (gridFile env b fx fy).Readable := by
  refine ⟨⟨List.cons_ne_nil _ _, ?_⟩, ⟨List.cons_ne_nil _ _, gridColumns_name4⟩, ⟨List.cons_ne_nil _ _, ?_⟩, Or.inr (Or.inr rfl), ?_⟩
  · intro s hs
    have hs : s ∈ [txt "GRID"] := hs
    rw [List.mem_singleton] at hs
    subst hs
    exact name4_grid
  · intro p hp
    have hp : p ∈ [gridPart] := hp
    rw [List.mem_singleton] at hp
    subst hp
    refine ⟨name4_grid, ⟨by decide, by decide⟩, ?_⟩
    intro s hs
    have hs : s ∈ [txt "GRID"] := hs
    rw [List.mem_singleton] at hs
    subst hs
    exact name4_grid
  · show (6 : Int) ∈ knownSources
    decide

/-- The navigation and analysis blocks. -/
def gridNav (b : GridBuilder) (fx fy : F32) : List F32 := [oneF32, oneF32, fx, fy] ++ b.corners ++ b.angles

/-- The analysis block. -/
def gridAnl (b : GridBuilder) : List F32 := [b.delta] ++ List.replicate 4 0 ++ b.corners ++ b.corners ++ b.corners

theorem gridNav_length (hr : b.Regular) : (gridNav b fx fy).length = 11 := by
  unfold gridNav; simp only [List.length_append, hr.corners, hr.angles, List.length_cons, List.length_nil]

theorem gridAnl_length (hr : b.Regular) : (gridAnl b).length = 17 := by
  unfold gridAnl; simp only [List.length_append, hr.corners, List.length_cons, List.length_nil, List.length_replicate]

theorem gridFile_blocky (hr : b.Regular) : (gridFile env b fx fy).Blocky :=
  Or.inr ⟨b.proj, gridNav b fx fy, gridAnl b, rfl, rfl, gridNav_length hr, gridAnl_length hr, by rw [proj_decodes hr.proj]; rfl⟩

theorem navSize_read (hr : b.Regular) {nx ny : Nat} (hx : f32Value fx = some (nx : ℚ)) (hy : f32Value fy = some (ny : ℚ)) :
    navSize (some (expectedBlocks b.proj (gridNav b fx fy) (gridAnl b))) = .ok (some ((nx : Int), (ny : Int))) := by
  have : navSize (some (expectedBlocks b.proj (gridNav b fx fy) (gridAnl b))) = (f32Int fx >>= fun kx => f32Int fy >>= fun ky =>
      match utf8Dec ((utf8 (ljust 4 b.proj)).take 3) with
      | some t =>
        if t ∈ knownProjections then if kx < 0 ∨ ky < 0 then .error .valueError else .ok (some (kx, ky))
        else .error .notImplemented
      | none => .error .unicodeError) := rfl
  rw [this, f32Int_nat hx, ok_bind, f32Int_nat hy, ok_bind, proj_decodes hr.proj]
  dsimp only
  rw [if_pos hr.proj, if_neg (by omega)]

theorem gridInfos_map {α : Type} {H : α → GHeader} {I : Nat → α → GridInfo} (l : List α) (n : Nat)
    (h : ∀ x ∈ l, ∀ n, gridInfo n (H x) = .ok (I n x)) : gridInfos (l.map H) n = .ok ((l.zipIdx n).map fun x => I x.2 x.1) := by
  induction l generalizing n with
  | nil => rfl
  | cons a l ih =>
    rw [List.map_cons, gridInfos, h a List.mem_cons_self n, ok_bind, ih (n + 1) fun x hx => h x (List.mem_cons_of_mem _ hx), ok_bind]
    rfl

/-- Opening a written file. -/
theorem openGrid_spec (hr : b.Regular) (hc : b.columns = b.columnHeaders.length) {e host : Endian} {bytes : Bytes}
    (hs : save e (gridFile env b fx fy) = .ok bytes) {nx ny : Nat} (hx : f32Value fx = some (nx : ℚ)) (hy : f32Value fy = some (ny : ℚ))
    {α : Type} {P : List α} {key : α → GCol} (hP : P.map key = b.columnHeaders) (H : α → GHeader) (I : Nat → α → GridInfo)
    (hcol : ∀ c ∈ P, ∀ vs, gcolWords (key c) = .ok vs →
      vs.map Val.fmt = gridColumns.map (fun k => (gridKey k).fmt) ∧ convGHeader e gridColumns (vs.map stored) = .ok (H c))
    (hinfo : ∀ c ∈ P, ∀ n, gridInfo n (H c) = .ok (I n c)) :
    openGrid host bytes = .ok ⟨expectedInfo e (gridFile env b fx fy) (some (expectedBlocks b.proj (gridNav b fx fy) (gridAnl b))), bytes,
      P.map H, P.zipIdx.map (fun x => I x.2 x.1), some ((nx : Int), (ny : Int))⟩ := by
  have wf := gridFile_wf (env := env) (fx := fx) (fy := fy) hc
  have rd := gridFile_readable (env := env) (b := b) (fx := fx) (fy := fy)
  have bl := gridFile_blocky (env := env) (fx := fx) (fy := fy) hr
  have S := save_spec wf hs
  have hb := readDM_spec host wf rd S.head (readBlocks_grid S.head (proj := b.proj) (nav := gridNav b fx fy) (anl := gridAnl b) rfl rfl
    (gridNav_length hr) (gridAnl_length hr) (by rw [proj_decodes hr.proj]; rfl))
  obtain ⟨i1, vs1, a1, a2, a3⟩ := C10_row_headers e host _ bytes wf rd bl hs ([txt "GRID"].map fun _ => Fmt.i32) (by simp)
    (fun vs => vs.mapM intOf) (fun _ => [1]) (by
      intro vs hv
      have hv : Except.ok vs ∈ [Except.ok [Val.int 1]] := hv
      rw [List.mem_singleton] at hv
      obtain rfl := Except.ok.inj hv
      exact ⟨rfl, rfl⟩)
  obtain ⟨i2, vs2, b1, b2, b3⟩ := C10_column_headers e host _ bytes wf rd bl hs (gridColumns.map fun k => (gridKey k).fmt)
    (by unfold gridColumns; simp) (convGHeader e gridColumns)
    (fun vs => (convGHeader e gridColumns (vs.map stored)).toOption.getD []) (by
      intro vs hv
      have hv : Except.ok vs ∈ b.columnHeaders.map gcolWords := hv
      rw [← hP, List.map_map] at hv
      obtain ⟨c, hc, h⟩ := List.mem_map.1 hv
      obtain ⟨h1, h2⟩ := hcol c hc vs h
      exact ⟨h1, by rw [h2]; rfl⟩)
  obtain rfl := Except.ok.inj (hb.symm.trans a1)
  obtain rfl := Except.ok.inj (hb.symm.trans b1)
  have b2 : b.columnHeaders.map gcolWords = vs2.map Except.ok := b2
  rw [← hP, List.map_map] at b2
  rw [headers_map b2 [] fun x hx vs h => (hcol x hx vs h).2] at b3
  have k1 : (expectedInfo e (gridFile env b fx fy) (some (expectedBlocks b.proj (gridNav b fx fy) (gridAnl b)))).rowKeys = [txt "GRID"] := rfl
  have k2 : (expectedInfo e (gridFile env b fx fy) (some (expectedBlocks b.proj (gridNav b fx fy) (gridAnl b)))).columnKeys = gridColumns := rfl
  have k3 : (expectedInfo e (gridFile env b fx fy) (some (expectedBlocks b.proj (gridNav b fx fy) (gridAnl b)))).blocks =
    some (expectedBlocks b.proj (gridNav b fx fy) (gridAnl b)) := rfl
  have k4 : (expectedInfo e (gridFile env b fx fy) (some (expectedBlocks b.proj (gridNav b fx fy) (gridAnl b)))).order = e := rfl
  have n1 : checkKeys [txt "GRID"] = .ok () := by decide +kernel
  have n2 : checkKeys gridColumns = .ok () := by unfold checkKeys; rw [if_pos gridColumns_nodup]
  unfold openGrid
  rw [hb, ok_bind, k1, n1, ok_bind, a3, ok_bind, k2, n2, ok_bind, k4]
  rw [k4] at b3
  rw [b3, ok_bind, gridInfos_map _ 0 hinfo, ok_bind, k3, navSize_read hr hx hy, ok_bind]

/-! ## Records -/

theorem grid_cell (hc : b.columns = b.columnHeaders.length) {e : Endian} {bytes : Bytes} {bk : Option Blocks}
    (hs : save e (gridFile env b fx fy) = .ok bytes) {j : Nat} {c : GCol} (hj : b.columnHeaders[j]? = some c) {g : List (List ℚ)}
    (hd : dictGet b.data c = some g) :
    ∃ ws, ∃ n : Nat, 1 ≤ n ∧ gridRecord env b.nx b.ny b.precision g = .ok ws ∧
      dataPointer (expectedInfo e (gridFile env b fx fy) bk) bytes 0 j 0 = n ∧ HoldsW e bytes n ws := by
  have S := save_spec (gridFile_wf (env := env) (fx := fx) (fy := fy) hc) hs
  have L := setPointers_layout (gridFile env b fx fy)
  have l8 := L.tableEnd
  have l9 := L.aligned
  have hm : (j, (dictGet b.data c).map (gridRecord env b.nx b.ny b.precision)) ∈ (gridFile env b fx fy).visits :=
    List.mem_map.2 ⟨(c, j), mem_zipIdx_iff.2 hj, rfl⟩
  obtain ⟨A, B, hv⟩ := List.append_of_mem hm
  rw [hd] at hv
  obtain ⟨ws, hw, _⟩ := S.cells A _ _ B hv
  have hw' : gridRecord env b.nx b.ny b.precision g = .ok ws := hw
  have hix : j = (0 * (gridFile env b fx fy).columns + j) * (gridFile env b fx fy).parts.length + 0 := by
    show j = (0 * b.columns + j) * 1 + 0
    omega
  have hv' : (gridFile env b fx fy).visits =
      A ++ ((0 * (gridFile env b fx fy).columns + j) * (gridFile env b fx fy).parts.length + 0, (some ws).map .ok) :: B := by
    rw [← hix, hv]; simp only [Option.map_some, hw']
  obtain ⟨p1, p2⟩ := S.pointer (bk := bk) hv'
  exact ⟨ws, _, by omega, hw', p1, p2⟩

end

theorem ints_read (l : List Int) : ((l.map Val.int).map canonW).mapM intOf = .ok l := by
  rw [List.map_map]
  have : ∀ x ∈ l, intOf ((canonW ∘ Val.int) x) = .ok x := fun _ _ => rfl
  rw [List.mapM_map]
  have := mapM_ok (f := fun x => intOf ((canonW ∘ Val.int) x)) (g := id) (l := l) (fun x _ => rfl)
  rw [List.map_id] at this
  exact this

theorem ints_fmt (l : List Int) : (l.map Val.int).map Val.fmt = List.replicate l.length .i32 := by
  rw [List.map_map, List.eq_replicate_iff]
  refine ⟨by rw [List.length_map], ?_⟩
  intro x hx
  obtain ⟨v, _, rfl⟩ := List.mem_map.1 hx
  rfl

/-- Reading a record: what becomes of its words. -/
theorem gridData_raw {i : DMInfo} {bytes : Bytes} {part : PartInfo} {icol n nx ny : Nat} {w : List Int} {precision : Int} {ref scale : F32}
    {rv sv : ℚ} {r : Option (List ℚ)} (hn : 1 ≤ n) (hp : dataPointer i bytes 0 icol 0 = n) (hh : part.headerLength = 2)
    (hm : f32Value i.label.missingFloat = some (-9999))
    (hH : HoldsW i.order bytes n (.int (w.length + 8 : Nat) :: .int nx :: .int ny :: .int 1 :: .int precision :: .int (-1) ::
      .int (nx * ny : Nat) :: .flt ref :: .flt scale :: w.map Val.int))
    (hrv : f32Value ref = some rv) (hsv : f32Value scale = some sv) (hw : w ≠ [])
    (hl : Grib.readGrib w precision.toNat (nx * ny) rv sv (some (-9999)) = .ok r) (hlen : ∀ l, r = some l → l.length = ny * nx) :
    gridData i bytes part icol 0 nx ny = .ok (r.map fun l => maskMissing (some (-9999)) ((List.range ny).map fun j => (l.drop (j * nx)).take nx)) := by
  have h0 := (HoldsW.append hn (xs := [.int (w.length + 8 : Nat)]) hH).1
  have h1 := (HoldsW.append hn (xs := [.int (w.length + 8 : Nat), .int nx, .int ny]) hH).2
  have h2 := (HoldsW.append (by omega) (xs := [.int 1]) h1)
  have h3 := (HoldsW.append (by omega) (xs := [.int precision, .int (-1), .int (nx * ny : Nat)]) h2.2)
  have h4 := (HoldsW.append (by simp only [List.length_cons, List.length_nil]; omega) (xs := [.flt ref, .flt scale]) h3.2)
  simp only [List.length_cons, List.length_nil, Nat.zero_add] at h1 h2 h3 h4
  obtain ⟨r0, v0⟩ := h0.readWord hn
  have s0 := readWord_length hn h0
  obtain ⟨r1, v1⟩ := h2.1.readWord (by omega)
  have s1 := readWord_length (by omega) h2.1
  have q1 := h3.1.read (by omega) (by simp)
  have q2 := h4.1.read (by omega) (by simp)
  have q3 := h4.2.read (by omega) (by simpa using hw)
  have p1 : wordToPosition (n : Int) + ((4 : Nat) : Int) + wordToPosition (2 + 1) = wordToPosition ((n + 3 : Nat) : Int) := by
    unfold wordToPosition; push_cast; omega
  have p2 : wordToPosition ((n + 3 : Nat) : Int) + ((4 : Nat) : Int) = wordToPosition ((n + 3 + 1 : Nat) : Int) := by
    unfold wordToPosition; push_cast; omega
  have p3 : wordToPosition ((n + 3 + 1 : Nat) : Int) + 12 = wordToPosition ((n + 3 + 1 + 3 : Nat) : Int) := by
    unfold wordToPosition; push_cast; omega
  have p4 : wordToPosition ((n + 3 + 1 : Nat) : Int) + 20 = wordToPosition ((n + 3 + 1 + 3 + 2 : Nat) : Int) := by
    unfold wordToPosition; push_cast; omega
  have u1 : ((toU32 1 : Nat) : Int) = 1 := by decide
  unfold gridData
  dsimp only
  rw [hp, hh, v0, toU32_nat r0, s0, p1, v1, u1, s1, p2]
  unfold unpackGrid
  rw [if_neg (by decide), if_pos (Or.inl rfl)]
  unfold readGribGrid
  rw [p3, p4]
  have q1' : unpackFrom i.order [.i32, .i32, .i32] bytes (wordToPosition ((n + 3 + 1 : Nat) : Int)) =
    .ok [.int precision, .int (-1), .int (nx * ny : Nat)] := q1
  have q2' : unpackFrom i.order [.f32, .f32] bytes (wordToPosition ((n + 3 + 1 + 3 : Nat) : Int)) = .ok [.flt ref, .flt scale] := q2
  rw [q1', ok_bind, q2', ok_bind]
  dsimp only
  rw [if_neg (by omega)]
  have q3' : readWords i bytes (wordToPosition ((n + 3 + 1 + 3 + 2 : Nat) : Int)) (((w.length + 8 : Nat) : Int) - 2 - 6) .i32 =
      .ok ((w.map Val.int).map canonW) := by
    unfold readWords
    rw [if_neg (by push_cast; omega)]
    have : (((w.length + 8 : Nat) : Int) - 2 - 6).toNat = w.length := by push_cast; omega
    rw [this, ← ints_fmt]
    exact q3
  have fr : fieldValue ref = .ok rv := by unfold fieldValue; rw [hrv]
  have fs : fieldValue scale = .ok sv := by unfold fieldValue; rw [hsv]
  have fm : fieldValue i.label.missingFloat = .ok (-9999) := by unfold fieldValue; rw [hm]
  rw [q3', ok_bind, ints_read, ok_bind, fr, ok_bind, fs, ok_bind, fm, ok_bind, if_pos (by decide), Int.toNat_natCast, hl, ok_bind]
  cases r with
  | none => rfl
  | some l =>
    dsimp only
    unfold reshape
    rw [Int.toNat_natCast, Int.toNat_natCast, if_pos (hlen l rfl), ok_bind]
    rfl

/-- Reading a packed record. -/
theorem gridData_spec {i : DMInfo} {bytes : Bytes} {part : PartInfo} {icol n nx ny : Nat} {w : List Int} {precision : Int} {ref scale : F32}
    {rv sv : ℚ} {l : List ℚ} (hn : 1 ≤ n) (hp : dataPointer i bytes 0 icol 0 = n) (hh : part.headerLength = 2)
    (hm : f32Value i.label.missingFloat = some (-9999))
    (hH : HoldsW i.order bytes n (.int (w.length + 8 : Nat) :: .int nx :: .int ny :: .int 1 :: .int precision :: .int (-1) ::
      .int (nx * ny : Nat) :: .flt ref :: .flt scale :: w.map Val.int))
    (hrv : f32Value ref = some rv) (hsv : f32Value scale = some sv) (hw : w ≠ [])
    (hl : Grib.readGrib w precision.toNat (nx * ny) rv sv (some (-9999)) = .ok (some l)) (hlen : l.length = ny * nx) :
    gridData i bytes part icol 0 nx ny = .ok (some (maskMissing (some (-9999)) ((List.range ny).map fun j => (l.drop (j * nx)).take nx))) :=
  gridData_raw hn hp hh hm hH hrv hsv hw hl fun l' h => by
    obtain rfl := Option.some.inj h
    exact hlen

/-- Rows of a flattened table. -/
theorem rows_forall₂ {α β : Type} {P : α → β → Prop} {kx : Nat} : ∀ (g : List (List α)) (l : List β), (∀ r ∈ g, r.length = kx) →
    List.Forall₂ P g.flatten l →
    List.Forall₂ (List.Forall₂ P) g ((List.range g.length).map fun j => (l.drop (j * kx)).take kx)
  | [], _, _, _ => .nil
  | r :: g, l, hr, h => by
    have hk := hr r List.mem_cons_self
    rw [List.flatten_cons] at h
    have h1 : List.Forall₂ P r (l.take kx) := by
      have := List.forall₂_take kx h
      rwa [List.take_append_of_le_length (by omega), List.take_of_length_le (by omega)] at this
    have h2 : List.Forall₂ P g.flatten (l.drop kx) := by
      have := List.forall₂_drop kx h
      rwa [List.drop_append_of_le_length (by omega), List.drop_of_length_le (by omega), List.nil_append] at this
    have ih := rows_forall₂ g (l.drop kx) (fun r h => hr r (List.mem_cons_of_mem _ h)) h2
    rw [List.length_cons, List.range_succ_eq_map, List.map_cons, List.map_map]
    refine .cons (by simpa using h1) ?_
    have e : ((fun j => (l.drop (j * kx)).take kx) ∘ Nat.succ) = fun j => ((l.drop kx).drop (j * kx)).take kx := by
      funext j
      show (l.drop ((j + 1) * kx)).take kx = _
      rw [List.drop_drop, Nat.add_mul, Nat.one_mul, Nat.add_comm]
    rw [e]
    exact ih

end Gempak
