import Verif.Props.GridLong

/-!
# C16: lead times before the analysis and negative minutes

A negative number of minutes cannot be written: `to_gempak` raises.  A negative number for the whole lead time is written, but read as no lead time
at all, and the file cannot be opened.
-/

namespace Gempak
open Spec

theorem gtmWord_minutes {w : When} (h : w.minutes < 0) : gtmWord w.gtime = .error .valueError := by
  have h' : w.gtime.minute < 0 := h
  unfold gtmWord hhmm
  rw [if_pos h']
  rfl

theorem gcolWords_minutes {e : GEntry} (h : e.first.minutes < 0 ∨ ∃ w, e.second = some w ∧ w.minutes < 0) : ∀ vs, gcolWords e.col ≠ .ok vs := by
  intro vs hv
  rcases h with h | ⟨w, hw, h⟩
  · unfold gcolWords GEntry.col at hv
    dsimp only at hv
    rw [gtmWord_minutes h] at hv
    cases hv
  · have h2 : gtmWord (secondLead e.second) = .error .valueError := by
      rw [hw]; exact gtmWord_minutes h
    unfold gcolWords GEntry.col at hv
    dsimp only at hv
    rw [h2] at hv
    cases hx : gtmWord e.first.gtime with
    | error _ => rw [hx] at hv; cases hv
    | ok t => rw [hx] at hv; cases hv

/-- **C16 (deviation).** A grid added with a negative number of minutes is accepted, and from then on the file cannot be written. -/
theorem C16_minutes_negative (env : GridEnv) (nx ny : Nat) (proj : Text) (corners angles : List F32) (delta : F32)
    (bits : Nat) (rs : List GridReq)
    (hok : AllOk env (newGrid nx ny proj corners angles delta bits) rs)
    (hbad : ∃ x ∈ gfinal (gAccepted env nx ny rs), x.first.minutes < 0 ∨ ∃ w, x.second = some w ∧ w.minutes < 0) (e : Endian) (bytes : Bytes) :
    saveGrid env e (runGrid env (newGrid nx ny proj corners angles delta bits) rs) ≠ .ok bytes := by
  intro hsave
  obtain ⟨_, h2, h3⟩ := C19_grid_history env nx ny proj corners angles delta bits rs hok
  have h := new_history env _ (GHistory.new nx ny proj corners angles delta bits) rs
  have hs := entries_sound (env := env) (nx := nx) (ny := ny) (rs := rs)
  obtain ⟨hcol, P, hP, hPc, _⟩ := h.table hs h2 h3
  obtain ⟨_, _, fx, fy, _, _, hsv⟩ := saveGrid_inv hsave
  have wf := gridFile_wf (env := env) (fx := fx) (fy := fy) hcol
  have S := save_spec wf hsv
  obtain ⟨x, hx, hb⟩ := hbad
  have hm : gcolWords x.col ∈ (gridFile env (runGrid env (newGrid nx ny proj corners angles delta bits) rs) fx fy).columnHeaders :=
    List.mem_map_of_mem (hPc ▸ List.mem_map_of_mem (hP.mem_iff.2 hx))
  obtain ⟨vss, hv, _⟩ := S.head.columnHeaders
  rw [hv] at hm
  obtain ⟨vs, _, hvs⟩ := List.mem_map.1 hm
  exact gcolWords_minutes hb vs hvs.symm

/-! ## Negative lead times -/

/-- A time whose lead is written as a negative number. -/
structure Spec.When.TooEarly (w : When) : Prop extends w.Stamped where
  number : w.stamp < 0

theorem convertFtime_early {w : When} (h : w.TooEarly) : convertFtime w.stamp = .ok none := by
  have h1 : w.stamp < 0 := h.number
  unfold convertFtime
  rw [if_neg (by omega)]

/-- The header read for an entry without lead time. -/
def headEarly (e : GEntry) : GHeader :=
  [(txt "GDT1", .dattim (some (startOf e.first))), (txt "GTM1", .ftime none),
    (txt "GDT2", (secondTaken e.second).1), (txt "GTM2", (secondTaken e.second).2), (txt "GLV1", .level (listedLevel e.level)),
    (txt "GLV2", .level (listedLevel e.level2)), (txt "GVCD", .text (verticalNamesUpper.getD (coordNumber e.coord) [])),
    (txt "GPM1", .text (strip ((inWord (e.name.take 4)).getD []))), (txt "GPM2", .text (strip ((inWord ((e.name.drop 4).take 4)).getD []))),
    (txt "GPM3", .text (strip ((inWord (e.name.drop 8)).getD [])))]

theorem header_early {e : GEntry} {nx ny : Nat} (o : Endian) (h : e.first.TooEarly) (h2 : ∀ w, e.second = some w → w.Numbered)
    (hn : Decodable e.name) (hs : e.Sound nx ny) (ht : e.Typed) {vs : List Val} (hv : gcolWords e.col = .ok vs) :
    vs.map Val.fmt = gridColumns.map (fun k => (gridKey k).fmt) ∧ convGHeader o gridColumns (vs.map stored) = .ok (headEarly e) := by
  obtain rfl := Except.ok.inj (hv.symm.trans (gcolWords_numbers h.minutes fun w hw => (h2 w hw).minutes))
  obtain ⟨k1, k2, k3, k4, k5, k6, k7, k8, k9, k10⟩ := gridKey_cols
  constructor
  · have : gridColumns.map (fun k => (gridKey k).fmt) = (gridColumns.map gridKey).map GKind.fmt := by rw [List.map_map]; rfl
    rw [this, gridKeys]; rfl
  obtain ⟨c1, c2, c3⟩ := chunk_eq hs.name.2
  obtain ⟨n1, n2, n3⟩ := hn
  unfold gridColumns headEarly
  simp only [List.map_cons, List.map_nil]
  refine convGHeader_cons k1 ?_ (convGHeader_cons k2 ?_ (convGHeader_cons k3 ?_ (convGHeader_cons k4 ?_ (convGHeader_cons k5 rfl
    (convGHeader_cons k6 rfl (convGHeader_cons k7 ?_ (convGHeader_cons k8 ?_ (convGHeader_cons k9 ?_ (convGHeader_cons k10 ?_ rfl)))))))))
  · show (convertDattim (gdtWord e.first.gdate) >>= fun d => Except.ok (GVal.dattim d)) = _
    rw [convertDattim_stamped h.toStamped]; rfl
  · show (convertFtime e.first.stamp >>= fun d => Except.ok (GVal.ftime d)) = _
    rw [convertFtime_early h]; rfl
  · show (convertDattim (gdt2Word (e.second.map When.gdate)) >>= fun d => Except.ok (GVal.dattim d)) = _
    cases hsec : e.second with
    | none => rfl
    | some w =>
      show (convertDattim (gdtWord w.gdate) >>= fun d => Except.ok (GVal.dattim d)) = _
      rw [convertDattim_stamped ((h2 w hsec).stamped (ht.second w hsec))]; rfl
  · show (convertFtime ((e.second.map When.stamp).getD 0) >>= fun d => Except.ok (GVal.ftime d)) = _
    cases hsec : e.second with
    | none => rfl
    | some w =>
      show (convertFtime w.stamp >>= fun d => Except.ok (GVal.ftime d)) = _
      rw [convertFtime_numbered (h2 w hsec)]; rfl
  · show (convertCoord o (coordNumber e.coord : Nat) >>= fun d => Except.ok (GVal.text d)) = _
    have := coordNumber_lt hs.coord
    unfold convertCoord
    rw [if_pos (by omega), if_pos (by omega), Int.toNat_natCast]
    rfl
  · show (textOf (stored (nameWord (chunks e.name).1))).map GVal.text = _
    rw [c1, nameWord_ljust, stored_nameWord, if_pos n1]; rfl
  · show (textOf (stored (nameWord (chunks e.name).2.1))).map GVal.text = _
    rw [c2, nameWord_ljust, stored_nameWord, if_pos n2]; rfl
  · show (textOf (stored (nameWord (chunks e.name).2.2))).map GVal.text = _
    rw [c3, nameWord_ljust, stored_nameWord, if_pos n3]; rfl

theorem gridInfo_early (n : Nat) (e : GEntry) : gridInfo n (headEarly e) = .error .typeError := by
  have hn : ((headEarly e).map Prod.fst).Nodup := by
    show ([txt "GDT1", txt "GTM1", txt "GDT2", txt "GTM2", txt "GLV1", txt "GLV2", txt "GVCD", txt "GPM1", txt "GPM2", txt "GPM3"]).Nodup
    decide +kernel
  have g1 : dictGet (headEarly e) (txt "GDT1") = some (.dattim (some (startOf e.first))) :=
    (dictGet_eq_some hn).2 List.mem_cons_self
  have g2 : dictGet (headEarly e) (txt "GTM1") = some (.ftime none) :=
    (dictGet_eq_some hn).2 (List.mem_cons_of_mem _ List.mem_cons_self)
  unfold gridInfo ghValid ghLead ghDate ghGet
  rw [g1, g2]
  rfl

/-- The list of grids fails with an error that one of them meets, when no other error is met. -/
theorem gridInfos_fail {α : Type} {H : α → GHeader} {x : PyErr} : ∀ (l : List α) (n : Nat),
    (∀ a ∈ l, (∀ n, gridInfo n (H a) = .error x) ∨ ∀ n, ∃ i, gridInfo n (H a) = .ok i) → (∃ a ∈ l, ∀ n, gridInfo n (H a) = .error x) →
    gridInfos (l.map H) n = .error x
  | [], _, _, h => by obtain ⟨_, h, _⟩ := h; cases h
  | a :: l, n, hall, hbad => by
    rw [List.map_cons, gridInfos]
    rcases hall a List.mem_cons_self with h | h
    · rw [h n]; rfl
    · obtain ⟨i, hi⟩ := h n
      rw [hi, ok_bind, gridInfos_fail l (n + 1) (fun y hy => hall y (List.mem_cons_of_mem _ hy)) ?_]
      · rfl
      · obtain ⟨y, hy, hb⟩ := hbad
        rcases List.mem_cons.1 hy with rfl | hy
        · rw [hb n] at hi; cases hi
        · exact ⟨y, hy, hb⟩

/-- Opening a written file whose headers are read but cannot be listed. -/
theorem openGrid_unlisted {env : GridEnv} {b : GridBuilder} {fx fy : F32} (hr : b.Regular) (hc : b.columns = b.columnHeaders.length)
    {e host : Endian} {bytes : Bytes} (hs : save e (gridFile env b fx fy) = .ok bytes)
    {α : Type} {P : List α} {key : α → GCol} (hP : P.map key = b.columnHeaders) (H : α → GHeader)
    (hcol : ∀ c ∈ P, ∀ vs, gcolWords (key c) = .ok vs →
      vs.map Val.fmt = gridColumns.map (fun k => (gridKey k).fmt) ∧ convGHeader e gridColumns (vs.map stored) = .ok (H c))
    {x : PyErr} (hinfo : gridInfos (P.map H) 0 = .error x) : openGrid host bytes = .error x := by
  have wf := gridFile_wf (env := env) (fx := fx) (fy := fy) hc
  have rd := gridFile_readable (env := env) (b := b) (fx := fx) (fy := fy)
  have bl := gridFile_blocky (env := env) (fx := fx) (fy := fy) hr
  have S := save_spec wf hs
  have hb := readDM_spec host wf rd S.head (readBlocks_grid S.head (proj := b.proj) (nav := gridNav b fx fy) (anl := gridAnl b) rfl rfl
    (gridNav_length hr) (gridAnl_length hr) (by rw [proj_decodes hr.proj]; rfl))
  obtain ⟨i1, vs1, a1, a2, a3⟩ := C10_row_headers e host _ bytes wf rd bl hs ([txt "GRID"].map fun _ => Fmt.i32) (by simp)
    (fun vs => vs.mapM intOf) (fun _ => [1]) (by
      intro vs hv
      have hv : Except.ok vs ∈ [Except.ok [Val.int 1]] := hv
      rw [List.mem_singleton] at hv
      obtain rfl := Except.ok.inj hv
      exact ⟨rfl, rfl⟩)
  obtain ⟨i2, vs2, b1, b2, b3⟩ := C10_column_headers e host _ bytes wf rd bl hs (gridColumns.map fun k => (gridKey k).fmt)
    (by unfold gridColumns; simp) (convGHeader e gridColumns)
    (fun vs => (convGHeader e gridColumns (vs.map stored)).toOption.getD []) (by
      intro vs hv
      have hv : Except.ok vs ∈ b.columnHeaders.map gcolWords := hv
      rw [← hP, List.map_map] at hv
      obtain ⟨c, hc, h⟩ := List.mem_map.1 hv
      obtain ⟨h1, h2⟩ := hcol c hc vs h
      exact ⟨h1, by rw [h2]; rfl⟩)
  obtain rfl := Except.ok.inj (hb.symm.trans a1)
  obtain rfl := Except.ok.inj (hb.symm.trans b1)
  have b2 : b.columnHeaders.map gcolWords = vs2.map Except.ok := b2
  rw [← hP, List.map_map] at b2
  rw [headers_map b2 [] fun x hx vs h => (hcol x hx vs h).2] at b3
  have k1 : (expectedInfo e (gridFile env b fx fy) (some (expectedBlocks b.proj (gridNav b fx fy) (gridAnl b)))).rowKeys = [txt "GRID"] := rfl
  have k2 : (expectedInfo e (gridFile env b fx fy) (some (expectedBlocks b.proj (gridNav b fx fy) (gridAnl b)))).columnKeys = gridColumns := rfl
  have k4 : (expectedInfo e (gridFile env b fx fy) (some (expectedBlocks b.proj (gridNav b fx fy) (gridAnl b)))).order = e := rfl
  have n1 : checkKeys [txt "GRID"] = .ok () := by decide +kernel
  have n2 : checkKeys gridColumns = .ok () := by unfold checkKeys; rw [if_pos gridColumns_nodup]
  unfold openGrid
  rw [hb, ok_bind, k1, n1, ok_bind, a3, ok_bind, k2, n2, ok_bind, k4]
  rw [k4] at b3
  rw [b3, ok_bind, hinfo]
  rfl

/-- **C16 (deviation).** Whenever the number written for the lead time of a grid in the file is negative, the file is written but cannot be opened,
whatever else is in it. -/
theorem C16_too_early (env : GridEnv) (nx ny : Nat) (proj : Text) (corners angles : List F32) (delta : F32)
    (bits : Nat) (hproj : proj ∈ knownProjections) (hcorners : corners.length = 4) (hangles : angles.length = 3) (rs : List GridReq)
    (hok : AllOk env (newGrid nx ny proj corners angles delta bits) rs)
    (hl : ∀ x ∈ gAccepted env nx ny rs, x.Numbered ∨ x.first.TooEarly ∧ (∀ w, x.second = some w → w.Numbered) ∧ Decodable x.name)
    (hbad : ∃ x ∈ gfinal (gAccepted env nx ny rs), x.first.TooEarly) (e host : Endian) (bytes : Bytes)
    (hsave : saveGrid env e (runGrid env (newGrid nx ny proj corners angles delta bits) rs) = .ok bytes) :
    openGrid host bytes = .error .typeError := by
  obtain ⟨_, h2, h3⟩ := C19_grid_history env nx ny proj corners angles delta bits rs hok
  have h := new_history env _ (GHistory.new nx ny proj corners angles delta bits) rs
  have hs := entries_sound (env := env) (nx := nx) (ny := ny) (rs := rs)
  have ht := gAccepted_typed (env := env) (nx := nx) (ny := ny) (rs := rs)
  obtain ⟨hcol, P, hP, hPc, _⟩ := h.table hs h2 h3
  have hPe : ∀ x ∈ P, x ∈ gAccepted env nx ny rs := by
    intro x hx
    have hm : x ∈ gfinal (gAccepted env nx ny rs) := hP.mem_iff.1 hx
    rw [gfinal_eq hs] at hm
    exact finalBy_sub hm
  have hreg : (runGrid env (newGrid nx ny proj corners angles delta bits) rs).Regular :=
    ⟨by rw [h.corners]; exact hcorners, by rw [h.angles]; exact hangles, by rw [h.proj]; exact hproj⟩
  obtain ⟨_, _, fx, fy, _, _, hsv⟩ := saveGrid_inv hsave
  refine openGrid_unlisted hreg hcol hsv hPc (fun x => if x.first.stamp < 0 then headEarly x else headTaken x) ?_
    (gridInfos_fail P 0 ?_ ?_)
  · intro x hx vs hv
    have hxe := hPe x hx
    rcases hl x hxe with hd | ⟨hd, hd2, hd3⟩
    · rw [if_neg (by have := hd.first.number.1; omega)]
      exact header_taken e hd (hs x hxe) (ht x hxe) hv
    · rw [if_pos hd.number]
      exact header_early e hd hd2 hd3 (hs x hxe) (ht x hxe) hv
  · intro x _
    by_cases hx : x.first.stamp < 0
    · rw [if_pos hx]; exact Or.inl fun n => gridInfo_early n x
    · rw [if_neg hx]; exact Or.inr fun n => ⟨_, gridInfo_taken n x⟩
  · obtain ⟨x, hx, hd⟩ := hbad
    refine ⟨x, hP.mem_iff.2 hx, fun n => ?_⟩
    rw [if_pos hd.number]
    exact gridInfo_early n x

/-! ### An analysis for twelve hours before, and a forecast with minus five minutes -/

/-- A host that reads the texts of the examples. -/
noncomputable def earlyEnv : GridEnv :=
  { sampleEnv with
    parseTime := fun t => if t = txt "202002290600" then .ok (⟨2020, 2, 29⟩, ⟨6, 0, 0, 0⟩) else .error .valueError
    parseInt := fun t => if t = txt "-12" then .ok (-12) else if t = txt "012" then .ok 12 else if t = txt "-5" then .ok (-5) else .error .valueError }

/-- Its entry. -/
def earlyEntry (w : When) : GEntry := { sampleEntry 3 with first := w }

theorem early_entry {t : Text} {w : When} (h4 : firstOf earlyEnv (.str t) = some w) :
    gEntry earlyEnv 3 3 (longReq t) = some (earlyEntry w) := by
  have hl : levelOf (.num 500) = some 500 := by
    unfold levelOf; norm_num
  unfold gEntry
  rw [if_pos ⟨rfl, by
    intro row h
    simp only [longReq, sampleReq, List.mem_cons, List.not_mem_nil, or_false] at h
    rcases h with rfl | rfl | rfl <;> rfl⟩]
  have h1 : nameOf earlyEnv (longReq t).name = some (txt "TMPK") := by
    show nameOf earlyEnv (txt "TMPK") = _
    unfold nameOf earlyEnv sampleEnv; decide
  have h2 : coordOf earlyEnv (longReq t).vcoord = some (txt "pres") := by
    show coordOf earlyEnv (some (txt "pres")) = _
    unfold coordOf earlyEnv sampleEnv; decide
  have h3 : levelOf (longReq t).level = some 500 := hl
  have h4 : firstOf earlyEnv (longReq t).dateTime = _ := h4
  rw [h1, h2, h3, h4]
  rfl

theorem earlyEnv_rounds : earlyEnv.Rounds := ⟨sampleEnv_rounds.1, sampleEnv_rounds.2⟩

/-- **C16 does not hold for analyses before their time**: the file of a grid added as an analysis twelve hours before six o'clock is written, and
cannot be opened. -/
theorem C16_analysis_negative (proj : Text) (corners angles : List F32) (delta : F32) (hproj : proj ∈ knownProjections) (hcorners : corners.length = 4)
    (hangles : angles.length = 3) (e host : Endian) :
    AllOk earlyEnv (newGrid 3 3 proj corners angles delta (16 : ℕ)) [longReq (txt "202002290600A-12")] ∧
      ∃ bytes, saveGrid earlyEnv e (runGrid earlyEnv (newGrid 3 3 proj corners angles delta (16 : ℕ)) [longReq (txt "202002290600A-12")]) = .ok bytes ∧
        openGrid host bytes = .error .typeError := by
  have h4 : firstOf earlyEnv (.str (txt "202002290600A-12")) = some ⟨0, ⟨2020, 2, 29⟩, ⟨6, 0, 0, 0⟩, -12, 0⟩ := by
    unfold firstOf whenOf leadOf earlyEnv sampleEnv; decide
  obtain ⟨hall, hacc, hfin⟩ := single_history (early_entry h4) proj corners angles delta 16
  have hd : When.digits ⟨0, ⟨2020, 2, 29⟩, ⟨6, 0, 0, 0⟩, -12, 0⟩ = -1200 := by
    unfold When.digits
    rw [show (Int.toNat 0) = 0 from rfl, Nat.log_zero_right]
    rfl
  have hearly : When.TooEarly ⟨0, ⟨2020, 2, 29⟩, ⟨6, 0, 0, 0⟩, -12, 0⟩ := by
    refine ⟨⟨by decide, by decide, by decide, by rw [hd]; decide⟩, ?_⟩
    unfold When.stamp
    rw [hd]
    decide
  have base := (sample_conditions 3 3 (by norm_num) (by norm_num) proj corners angles delta).2.1 (sampleEntry 3)
    (by rw [sample_history]; exact List.mem_cons_self)
  obtain ⟨bytes, hb⟩ := C16_writes earlyEnv earlyEnv_rounds 3 3 proj corners angles delta 16 hproj hcorners hangles (by omega) (by omega)
    (by norm_num) (by omega) (by omega) (by norm_num) _ hall (by
      rw [hacc]
      intro x hx
      rw [List.mem_singleton.1 hx]
      exact ⟨hearly.toStamped, fun w hw => by cases hw⟩) (by
      rw [hacc]
      intro x hx
      rw [List.mem_singleton.1 hx]
      exact ⟨base.2.level, base.2.level2, base.2.3, base.2.4⟩) (by rw [hfin]; norm_num) e
  refine ⟨hall, bytes, hb, ?_⟩
  refine C16_too_early earlyEnv 3 3 proj corners angles delta 16 hproj hcorners hangles _ hall ?_ ?_ e host bytes hb
  · rw [hacc]
    intro x hx
    rw [List.mem_singleton.1 hx]
    exact Or.inr ⟨hearly, fun w hw => (by cases hw), show Decodable (sampleEntry 3).name by decide +kernel⟩
  · rw [hfin]
    exact ⟨_, List.mem_singleton_self _, hearly⟩

/-- **C16 does not hold for negative minutes**: a grid added for twelve hours and minus five minutes is accepted, and the file is never written. -/
theorem C16_minutes_unwritable (proj : Text) (corners angles : List F32) (delta : F32) (e : Endian) (bytes : Bytes) :
    AllOk earlyEnv (newGrid 3 3 proj corners angles delta (16 : ℕ)) [longReq (txt "202002290600F012-5")] ∧
      saveGrid earlyEnv e (runGrid earlyEnv (newGrid 3 3 proj corners angles delta (16 : ℕ)) [longReq (txt "202002290600F012-5")]) ≠ .ok bytes := by
  have h4 : firstOf earlyEnv (.str (txt "202002290600F012-5")) = some ⟨1, ⟨2020, 2, 29⟩, ⟨6, 0, 0, 0⟩, 12, -5⟩ := by
    unfold firstOf whenOf leadOf earlyEnv sampleEnv; decide
  obtain ⟨hall, hacc, hfin⟩ := single_history (early_entry h4) proj corners angles delta 16
  refine ⟨hall, C16_minutes_negative earlyEnv 3 3 proj corners angles delta 16 _ hall ?_ e bytes⟩
  rw [hfin]
  exact ⟨_, List.mem_singleton_self _, Or.inl (by show (-5 : Int) < 0; decide)⟩

end Gempak
