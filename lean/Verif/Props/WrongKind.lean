import Verif.Props.Sounding
import Verif.Props.Unmerged
import Verif.Props.GridSeen
import Verif.Props.GridSelect
import Verif.Props.GridSmall
import Verif.Props.Surface
import Verif.Props.PlacesHeads

/-!
# C123: a file of another kind gives no data

The readers do not look at the file type of the label.  A file of another kind is refused only as far as keys are missed: grid files by the readers of stations
and soundings, and the other way round.  Surface and sounding files are taken for each other, but nothing can be read of them.
-/

namespace Gempak

/-- No result at all. -/
def Spec.Raises {ε α : Type} (x : Except ε α) : Prop := ∃ e, x = .error e

open Spec

theorem raises_of {ε α : Type} {x : Except ε α} (h : ∀ y, x ≠ .ok y) : Raises x := by
  cases x with
  | error e => exact ⟨e, rfl⟩
  | ok y => exact absurd rfl (h y)

/-! ## Keys needed -/

theorem convHeader_keys {kind : Text → KeyKind} {ks : List Text} {vs : List Val} {h : Header} (hc : convHeader kind ks vs = .ok h) :
    h.map Prod.fst = ks := by
  induction ks generalizing vs h with
  | nil =>
    cases vs with
    | nil => cases hc; rfl
    | cons _ _ => cases hc
  | cons k ks ih =>
    cases vs with
    | nil => cases hc
    | cons v vs =>
      obtain ⟨x, _, hc⟩ := Except.bind_ok hc
      obtain ⟨r, hr, hc⟩ := Except.bind_ok hc
      cases hc
      rw [List.map_cons, ih hr]

theorem convGHeader_keys {e : Endian} {ks : List Text} {vs : List Val} {h : GHeader} (hc : convGHeader e ks vs = .ok h) : h.map Prod.fst = ks := by
  induction ks generalizing vs h with
  | nil =>
    cases vs with
    | nil => cases hc; rfl
    | cons _ _ => cases hc
  | cons k ks ih =>
    cases vs with
    | nil => cases hc
    | cons v vs =>
      obtain ⟨x, _, hc⟩ := Except.bind_ok hc
      obtain ⟨r, hr, hc⟩ := Except.bind_ok hc
      cases hc
      rw [List.map_cons, ih hr]

theorem headGet_key {h : Header} {k : Text} {v : HVal} (hg : headGet h k = .ok v) : k ∈ h.map Prod.fst := by
  unfold headGet at hg
  split at hg
  · rename_i hv
    exact List.mem_map.2 ⟨_, dictGet_mem hv, rfl⟩
  · cases hg

theorem headTime_key {h : Header} {t : Date × Clock} (hg : headTime h = .ok t) : txt "DATE" ∈ h.map Prod.fst := by
  unfold headTime at hg
  obtain ⟨_, h1, _⟩ := Except.bind_ok hg
  exact headGet_key h1

theorem gridInfo_key {n : Nat} {h : GHeader} {g : GridInfo} (hg : gridInfo n h = .ok g) : txt "GVCD" ∈ h.map Prod.fst := by
  unfold gridInfo at hg
  obtain ⟨_, _, hg⟩ := Except.bind_ok hg
  obtain ⟨_, _, hg⟩ := Except.bind_ok hg
  obtain ⟨_, _, hg⟩ := Except.bind_ok hg
  obtain ⟨_, _, hg⟩ := Except.bind_ok hg
  obtain ⟨_, _, hg⟩ := Except.bind_ok hg
  obtain ⟨_, h1, _⟩ := Except.bind_ok hg
  unfold ghText at h1
  obtain ⟨_, h2, _⟩ := Except.bind_ok h1
  unfold ghGet at h2
  split at h2
  · rename_i hv
    exact List.mem_map.2 ⟨_, dictGet_mem' hv, rfl⟩
  · cases h2

theorem openSounding_station {host : Endian} {b : Bytes} {f : SoundingReader} (ho : openSounding host b = .ok f) :
    openStation timeKey siteKey host b = .ok f.toStationFile ∧
      ((standardCells f.rows f.cols).filter fun c => dataPointer f.info b c.row c.col 0 ≠ 0).mapM soundingInfo = .ok f.infos ∧
      f.merged = f.info.parts.any fun p => decide (p.name = txt "SNDT") := by
  unfold openSounding at ho
  obtain ⟨g, g1, ho⟩ := Except.bind_ok ho
  obtain ⟨infos, g2, ho⟩ := Except.bind_ok ho
  obtain rfl := Except.ok.inj ho
  exact ⟨g1, g2, rfl⟩

theorem openSurface_station {host : Endian} {b : Bytes} {f : SurfaceReader} (ho : openSurface host b = .ok f) :
    openStation sfKey sfKey host b = .ok f.toStationFile ∧ surfaceType f.info f.rows.length = .ok f.type := by
  unfold openSurface at ho
  obtain ⟨g, g1, ho⟩ := Except.bind_ok ho
  obtain ⟨t, g2, ho⟩ := Except.bind_ok ho
  obtain ⟨infos, _, ho⟩ := Except.bind_ok ho
  obtain rfl := Except.ok.inj ho
  exact ⟨g1, g2⟩

/-- **C123**: whatever the bytes, a surface file has a date and a station identifier among its keys. -/
theorem C123_surface_keys (host : Endian) (b : Bytes) (f : SurfaceReader) (ho : openSurface host b = .ok f) :
    txt "DATE" ∈ f.info.rowKeys ++ f.info.columnKeys ∧ txt "STID" ∈ f.info.rowKeys ++ f.info.columnKeys := by
  obtain ⟨_, ht⟩ := openSurface_station ho
  unfold surfaceType at ht
  split at ht
  · rename_i h
    exact ⟨List.mem_append_right _ h.2.1, List.mem_append_right _ h.2.2⟩
  · split at ht
    · rename_i h
      exact ⟨List.mem_append_left _ h.1, List.mem_append_right _ h.2⟩
    · split at ht
      · rename_i h
        exact ⟨List.mem_append_right _ h.1, List.mem_append_left _ h.2⟩
      · cases ht

/-- **C123**: whatever the bytes, rows of a file in which soundings are listed have dates. -/
theorem C123_sounding_keys (host : Endian) (b : Bytes) (f : SoundingReader) (ho : openSounding host b = .ok f) (hs : f.sninfo ≠ []) :
    txt "DATE" ∈ f.info.rowKeys := by
  obtain ⟨s, hs⟩ := List.exists_mem_of_ne_nil _ hs
  obtain ⟨row, col, r1, _, r3, _⟩ := sninfo_cell ho hs
  obtain ⟨hst, _⟩ := openSounding_station ho
  obtain ⟨_, _, q1, _⟩ := openStation_inv hst
  have hk := readHeaders_all q1 (fun x => x.map Prod.fst = f.info.rowKeys) (fun _ _ h => convHeader_keys h) row (List.mem_of_getElem? r1)
  unfold soundingInfo at r3
  obtain ⟨_, h1, _⟩ := Except.bind_ok r3
  rw [← hk]
  exact headTime_key h1

/-- **C123**: whatever the bytes, columns of a file that opens as a grid file have vertical coordinates, if there are any. -/
theorem C123_grid_keys (host : Endian) (b : Bytes) (f : GridFileR) (ho : openGrid host b = .ok f) (hc : f.cols ≠ []) :
    txt "GVCD" ∈ f.info.columnKeys := by
  unfold openGrid at ho
  obtain ⟨i, _, ho⟩ := Except.bind_ok ho
  obtain ⟨_, _, ho⟩ := Except.bind_ok ho
  obtain ⟨_, _, ho⟩ := Except.bind_ok ho
  obtain ⟨_, _, ho⟩ := Except.bind_ok ho
  obtain ⟨cols, h1, ho⟩ := Except.bind_ok ho
  obtain ⟨gs, h2, ho⟩ := Except.bind_ok ho
  obtain ⟨_, _, ho⟩ := Except.bind_ok ho
  obtain rfl := Except.ok.inj ho
  cases cols with
  | nil => exact absurd rfl hc
  | cons h r =>
    unfold gridInfos at h2
    obtain ⟨_, h3, _⟩ := Except.bind_ok h2
    have hk := readHeaders_all h1 (fun x => x.map Prod.fst = i.columnKeys) (fun _ _ h => convGHeader_keys h) h List.mem_cons_self
    show txt "GVCD" ∈ i.columnKeys
    rw [← hk]
    exact gridInfo_key h3

/-! ## Saved files -/

theorem first_used {α : Type} {e : Endian} {b : Bytes} {fs : List Fmt} {conv : List Val → Except PyErr α} {n : Nat} {p : Int} {l : List α}
    (hn : 1 ≤ n) (hw : readWord e b p = 9999) (h : readHeaders e b fs conv n p = .ok l) : l ≠ [] := by
  obtain ⟨n, rfl⟩ := Nat.exists_eq_add_of_le hn
  rw [Nat.add_comm] at h
  unfold readHeaders at h
  dsimp only at h
  rw [if_pos hw] at h
  obtain ⟨_, _, h⟩ := Except.bind_ok h
  obtain ⟨_, _, h⟩ := Except.bind_ok h
  cases h
  exact List.cons_ne_nil _ _

theorem saved_first {e : Endian} {f : DMFile} {bytes : Bytes} (S : Saved e f bytes) (hne : f.columnHeaders ≠ []) :
    readWord e bytes (wordToPosition (setPointers f).columnHeaders) = 9999 := by
  obtain ⟨vss, h1, _, h3⟩ := S.head.columnHeaders
  have L := setPointers_layout f
  have l1 := L.columnHeaders
  have l2 := L.aligned
  cases vss with
  | nil => exact absurd h1 hne
  | cons vs r =>
    have := h3.get (by omega) 0 (.int 9999) rfl
    exact (this.readWord (by omega)).2

/-- Grid files are read at their columns only. -/
theorem saved_not_grid {e host : Endian} {f : DMFile} {bytes : Bytes} (wf : f.WF) (rd : f.Readable) (bl : f.Blocky)
    (hs : save e f = .ok bytes) (hne : f.columnHeaders ≠ []) (hcols : 1 ≤ f.columns) (hk : txt "GVCD" ∉ f.columnNames) :
    Raises (openGrid host bytes) := by
  refine raises_of fun g hg => ?_
  have S := save_spec wf hs
  obtain ⟨bk, hb⟩ := S.head.open wf rd bl
  have hi : g.info = expectedInfo e f bk := by
    have hg' := hg
    unfold openGrid at hg'
    rw [hb host, ok_bind] at hg'
    obtain ⟨_, _, hg'⟩ := Except.bind_ok hg'
    obtain ⟨_, _, hg'⟩ := Except.bind_ok hg'
    obtain ⟨_, _, hg'⟩ := Except.bind_ok hg'
    obtain ⟨_, _, hg'⟩ := Except.bind_ok hg'
    obtain ⟨_, _, hg'⟩ := Except.bind_ok hg'
    obtain ⟨_, _, hg'⟩ := Except.bind_ok hg'
    obtain rfl := Except.ok.inj hg'
    rfl
  have hc : g.cols ≠ [] := by
    have hg' := hg
    unfold openGrid at hg'
    rw [hb host, ok_bind] at hg'
    obtain ⟨_, _, hg'⟩ := Except.bind_ok hg'
    obtain ⟨_, _, hg'⟩ := Except.bind_ok hg'
    obtain ⟨_, _, hg'⟩ := Except.bind_ok hg'
    obtain ⟨cols, h1, hg'⟩ := Except.bind_ok hg'
    obtain ⟨_, _, hg'⟩ := Except.bind_ok hg'
    obtain ⟨_, _, hg'⟩ := Except.bind_ok hg'
    obtain rfl := Except.ok.inj hg'
    have hn : 1 ≤ (expectedInfo e f bk).label.columns.toNat := by
      show 1 ≤ ((f.columns : Nat) : Int).toNat
      omega
    exact first_used hn (saved_first S hne) h1
  have := C123_grid_keys host bytes g hg hc
  rw [hi] at this
  exact hk this


section
variable {ρ κ : Type} [DecidableEq κ]

theorem history_columns {β : Type} [Inhabited β] {env : NumEnv ρ κ} {names : List Text} {es : List (Entry κ β)} {b : Builder κ β}
    (hist : History env names (es.map fun e => (e.place, e.value)) b) (hcap : b.rows + b.columns ≤ mmhdrs) (hne : es ≠ []) : b.columnHeaders ≠ [] := by
  intro h0
  obtain ⟨x, hx⟩ := List.exists_mem_of_ne_nil _ hne
  obtain ⟨y, hy, _⟩ := final_covers hx
  have hm := (kept_perm hist hcap).mem_iff.2 (List.mem_map_of_mem hy)
  obtain ⟨p, hp, _⟩ := List.mem_map.1 hm
  have h2 := (mem_pairs.1 (List.mem_filter.1 hp).1).2
  rw [h0] at h2
  cases h2

/-- **C123**: a surface file with a report cannot be opened as a grid file. -/
theorem C123_surface_as_grid (env : NumEnv ρ κ) (ps : List Text) (b0 : Builder κ (List ρ)) (rs : List (AddReq κ ρ)) (e host : Endian) (bytes : Bytes)
    (hnew : newBuilder env ps = .ok b0) (hcap : headers (rs.filterMap (sfEntry env b0.names)) ≤ 32000)
    (hn : ∀ n ∈ b0.names, Name4 n) (hne : rs.filterMap (sfEntry env b0.names) ≠ [])
    (hs : save e (surfaceFile env (run (addStation env) b0 rs)) = .ok bytes) : Raises (openGrid host bytes) := by
  have hist := run_station (History.new hnew) rs
  rw [List.nil_append] at hist
  have hcap : (run (addStation env) b0 rs).rows + (run (addStation env) b0 rs).columns ≤ mmhdrs := by
    rw [hist.headers_eq]; exact hcap
  obtain ⟨hr, hc⟩ := hist.dims hcap
  have s := sfStation (env := env) hr hc
  have hcol := history_columns hist hcap hne
  refine saved_not_grid s.wf (s.readable (by rw [hist.names]; exact hn)) s.blocky hs ?_ ?_ (by show txt "GVCD" ∉ siteKeys; decide +kernel)
  · rw [s.columnHeaders]; simpa using hcol
  · rw [s.dims.2, hc]; exact List.length_pos_of_ne_nil hcol

/-- **C123**: a sounding file with a sounding cannot be opened as a grid file. -/
theorem C123_sounding_as_grid (env : NumEnv ρ κ) (ps : List Text) (b0 : Builder κ (List (List ρ))) (rs : List (AddReq κ (List ρ))) (e host : Endian)
    (bytes : Bytes) (hnew : newBuilder env ps = .ok b0) (hcap : headers (rs.filterMap (snEntry env b0.names)) ≤ 32000)
    (hn : ∀ n ∈ b0.names, Name4 n) (hne : rs.filterMap (snEntry env b0.names) ≠ [])
    (hs : save e (soundingFile env (run (addSounding env) b0 rs)) = .ok bytes) : Raises (openGrid host bytes) := by
  have hist := run_sounding (History.new hnew) rs
  rw [List.nil_append] at hist
  have hcap : (run (addSounding env) b0 rs).rows + (run (addSounding env) b0 rs).columns ≤ mmhdrs := by
    rw [hist.headers_eq]; exact hcap
  obtain ⟨hr, hc⟩ := hist.dims hcap
  have s := snStation (env := env) hr hc
  have hcol := history_columns hist hcap hne
  refine saved_not_grid s.wf (s.readable (by rw [hist.names]; exact hn)) s.blocky hs ?_ ?_ (by show txt "GVCD" ∉ snNames; decide +kernel)
  · rw [s.columnHeaders]; simpa using hcol
  · rw [s.dims.2, hc]; exact List.length_pos_of_ne_nil hcol

end

/-- **C123**: a grid file cannot be opened as a surface file. -/
theorem C123_grid_as_surface (env : GridEnv) (nx ny : Nat) (proj : Text) (corners angles : List F32) (delta : F32)
    (bits : Nat) (hproj : proj ∈ knownProjections) (hcorners : corners.length = 4) (hangles : angles.length = 3) (rs : List GridReq)
    (hok : AllOk env (newGrid nx ny proj corners angles delta bits) rs) (e host : Endian) (bytes : Bytes)
    (hsave : saveGrid env e (runGrid env (newGrid nx ny proj corners angles delta bits) rs) = .ok bytes) : Raises (openSurface host bytes) := by
  obtain ⟨_, h2, h3⟩ := C19_grid_history env nx ny proj corners angles delta bits rs hok
  have h := new_history env _ (GHistory.new nx ny proj corners angles delta bits) rs
  obtain ⟨hcol, _⟩ := h.table entries_sound h2 h3
  have hreg : (runGrid env (newGrid nx ny proj corners angles delta bits) rs).Regular :=
    ⟨by rw [h.corners]; exact hcorners, by rw [h.angles]; exact hangles, by rw [h.proj]; exact hproj⟩
  obtain ⟨_, _, fx, fy, _, _, hsv⟩ := saveGrid_inv hsave
  have wf := gridFile_wf (env := env) (fx := fx) (fy := fy) hcol
  obtain ⟨bk, hb⟩ := (save_spec wf hsv).head.open wf gridFile_readable (gridFile_blocky hreg)
  refine raises_of fun g hg => ?_
  obtain ⟨hst, _⟩ := openSurface_station hg
  have hi := Except.ok.inj ((openStation_inv hst).1.symm.trans (hb host))
  have hk := (C123_surface_keys host bytes g hg).1
  rw [hi] at hk
  exact absurd hk (show txt "DATE" ∉ [txt "GRID"] ++ gridColumns by decide +kernel)

/-- **C123**: a grid file with a grid cannot be opened as a sounding file. -/
theorem C123_grid_as_sounding (env : GridEnv) (nx ny : Nat) (proj : Text) (corners angles : List F32) (delta : F32)
    (bits : Nat) (hproj : proj ∈ knownProjections) (hcorners : corners.length = 4) (hangles : angles.length = 3) (rs : List GridReq)
    (hok : AllOk env (newGrid nx ny proj corners angles delta bits) rs) (hne : gfinal (gAccepted env nx ny rs) ≠ []) (e host : Endian) (bytes : Bytes)
    (hsave : saveGrid env e (runGrid env (newGrid nx ny proj corners angles delta bits) rs) = .ok bytes) : Raises (openSounding host bytes) := by
  obtain ⟨_, h2, h3⟩ := C19_grid_history env nx ny proj corners angles delta bits rs hok
  have h := new_history env _ (GHistory.new nx ny proj corners angles delta bits) rs
  obtain ⟨hcol, P, hP, hPc, hd⟩ := h.table entries_sound h2 h3
  have hreg : (runGrid env (newGrid nx ny proj corners angles delta bits) rs).Regular :=
    ⟨by rw [h.corners]; exact hcorners, by rw [h.angles]; exact hangles, by rw [h.proj]; exact hproj⟩
  obtain ⟨_, _, fx, fy, _, _, hsv⟩ := saveGrid_inv hsave
  have wf := gridFile_wf (env := env) (fx := fx) (fy := fy) hcol
  have S := save_spec wf hsv
  obtain ⟨bk, hb⟩ := S.head.open wf gridFile_readable (gridFile_blocky hreg)
  obtain ⟨x, P', rfl⟩ : ∃ x P', P = x :: P' := by
    cases P with
    | nil => exact absurd hP.symm.eq_nil hne
    | cons x P' => exact ⟨x, P', rfl⟩
  refine raises_of fun g hg => ?_
  obtain ⟨hst, hinf, _⟩ := openSounding_station hg
  obtain ⟨q0, _, q1, q2⟩ := openStation_inv hst
  have hi := Except.ok.inj (q0.symm.trans (hb host))
  obtain ⟨ws, n, hn, _, hp, _⟩ := grid_cell (bk := bk) (fx := fx) (fy := fy) hcol hsv (j := 0) (by rw [← hPc]; rfl) (hd x List.mem_cons_self)
  have hcne : g.cols ≠ [] := by
    rw [hi] at q2
    refine first_used ?_ (saved_first S ?_) q2
    · show 1 ≤ (((runGrid env (newGrid nx ny proj corners angles delta bits) rs).columns : Nat) : Int).toNat
      rw [hcol, ← hPc, Int.toNat_natCast]
      simp
    · show (runGrid env (newGrid nx ny proj corners angles delta bits) rs).columnHeaders.map gcolWords ≠ []
      rw [← hPc]
      simp
  have hrne : g.rows ≠ [] := by
    rw [hi] at q1
    refine first_used (n := 1) (by omega) ?_ q1
    obtain ⟨vss, r1, _, r3⟩ := S.head.rowHeaders
    have L := setPointers_layout (gridFile env (runGrid env (newGrid nx ny proj corners angles delta bits) rs) fx fy)
    have l2 := L.aligned
    cases vss with
    | nil => cases r1
    | cons vs r =>
      have := r3.get (by omega) 0 (.int 9999) rfl
      exact (this.readWord (by omega)).2
  obtain ⟨r0, R, hR⟩ := List.exists_cons_of_ne_nil hrne
  obtain ⟨c0, C, hC⟩ := List.exists_cons_of_ne_nil hcne
  have hmem : (⟨0, 0, c0, r0⟩ : CellRef) ∈ (standardCells g.rows g.cols).filter fun c => dataPointer g.info bytes c.row c.col 0 ≠ 0 := by
    refine List.mem_filter.2 ⟨?_, ?_⟩
    · unfold standardCells
      rw [hR, hC]
      exact List.mem_flatMap.2 ⟨(r0, 0), by simp, List.mem_map.2 ⟨(c0, 0), by simp, rfl⟩⟩
    · rw [hi, hp]
      simp only [ne_eq, decide_not, Bool.not_eq_true', decide_eq_false_iff_not]
      omega
  have hsn : g.sninfo ≠ [] := by
    intro h0
    have hl : g.infos = [] := by
      have := (List.mergeSort_perm g.infos SiteInfo.le).length_eq
      have h0 : g.infos.mergeSort SiteInfo.le = [] := h0
      rw [h0] at this
      exact List.length_eq_zero_iff.1 this.symm
    rw [hl] at hinf
    have hf := mapM_inv hinf
    cases hff : (standardCells g.rows g.cols).filter fun c => dataPointer g.info bytes c.row c.col 0 ≠ 0 with
    | nil => rw [hff] at hmem; cases hmem
    | cons a r => rw [hff] at hf; cases hf
  have hk := C123_sounding_keys host bytes g hg hsn
  rw [hi] at hk
  exact absurd hk (show txt "DATE" ∉ [txt "GRID"] by decide +kernel)


/-! ## Surface and sounding files taken for one another -/

section
variable {ρ κ : Type} [DecidableEq κ]

theorem listed_perm {β : Type} [Inhabited β] {env : NumEnv ρ κ} {names : List Text} {es : List (Entry κ β)} {b : Builder κ β}
    (hist : History env names (es.map fun e => (e.place, e.value)) b) (hcap : b.rows + b.columns ≤ mmhdrs) (full : Bool) :
    ((((kept b).map (infoOf env full)).mergeSort SiteInfo.le).map fun s => (s.dattim, s.number)).Perm
      ((final es).map fun x => (storedTime x.date x.clock, x.number)) := by
  have h := ((kept_perm hist hcap).map fun x : (Row × Col κ) × β => (storedTime x.1.1.1 x.1.1.2, x.1.2.stnm))
  rw [List.map_map, List.map_map] at h
  refine ((List.mergeSort_perm _ _).map _).trans ?_
  rw [List.map_map]
  exact h

/-- A sounding file opened as a surface file. -/
theorem openSurface_sounding {e host : Endian} {bytes : Bytes} {env : NumEnv ρ κ} {b : Builder κ (List (List ρ))}
    (hr : b.rows = b.rowHeaders.length) (hc : b.columns = b.columnHeaders.length) (hl : Legible b)
    (hs : save e (soundingFile env b) = .ok bytes) :
    ∃ bk, openSurface host bytes = .ok ⟨⟨expectedInfo e (soundingFile env b) bk, bytes, b.rowHeaders.map rowHead,
      b.columnHeaders.map (snHead env)⟩, .standard, (kept b).map (infoOf env true)⟩ := by
  obtain ⟨bk, ho⟩ := openStation_spec (host := host) (snStation (env := env) hr hc) hl.names hs sfKey sfKey rowHead (snHead env)
    (by show snNames.Nodup; decide +kernel)
    (fun r hr' vs h => rowHead_conv (by decide +kernel) (by decide +kernel) (hl.rows r hr').1 (hl.rows r hr').2 h)
    (fun c hc' vs h => by
      obtain ⟨h1, h2⟩ := snHead_conv (hl.cols c hc') h
      obtain ⟨lat, lon, g1, g2, rfl⟩ := snColWords_inv h
      obtain ⟨k1, k2, k3, k4, k5, k6, k7, k8, _⟩ := kinds_sf
      have hcl := hl.cols c hc'
      constructor
      · show _ = snNames.map _
        simp only [snNames, List.map_cons, List.map_nil, k1, k2, k3, k4, k5, k6, k7, k8]; rfl
      · show convHeader sfKey snNames _ = _
        unfold snHead
        rw [centiD_ok g1, centiD_ok g2]
        simp only [snNames, List.map_cons, List.map_nil, convHeader, conv_name k1 hcl.stid, conv_name k6 hcl.stat,
          conv_name k7 hcl.coun, conv_name k8 hcl.std2, k2, k3, k4, k5, conv_int, conv_coord, bind, Except.bind])
  refine ⟨bk, ?_⟩
  unfold openSurface
  rw [ho, ok_bind]
  have ht : surfaceType (expectedInfo e (soundingFile env b) bk) (b.rowHeaders.map rowHead).length = .ok .standard := by
    have k1 : (expectedInfo e (soundingFile env b) bk).rowKeys = [txt "DATE", txt "TIME"] := rfl
    have k2 : (expectedInfo e (soundingFile env b) bk).columnKeys = snNames := rfl
    unfold surfaceType
    rw [k1, k2, if_neg (by intro h; exact absurd h.2.1 (by decide +kernel)), if_pos (by decide +kernel)]
  dsimp only
  rw [ht, ok_bind]
  have hcells : ((SfType.standard.cells (b.rowHeaders.map rowHead) (b.columnHeaders.map (snHead env))).filter fun c =>
      hasData (expectedInfo e (soundingFile env b) bk) bytes c.row c.col) =
      (kept b).map fun p => ⟨p.1.2, p.2.2, snHead env p.2.1, rowHead p.1.1⟩ := by
    have hsc : SfType.standard.cells (b.rowHeaders.map rowHead) (b.columnHeaders.map (snHead env)) =
      standardCells (b.rowHeaders.map rowHead) (b.columnHeaders.map (snHead env)) := rfl
    rw [hsc, standardCells_eq, List.filter_map]
    refine congrArg (List.map _) ?_
    unfold kept
    refine List.filter_congr fun p hp => ?_
    exact hasData_iff (snStation hr hc) hs hp
  rw [hcells]
  have hm : ((kept b).map fun p => (⟨p.1.2, p.2.2, snHead env p.2.1, rowHead p.1.1⟩ : CellRef)).mapM surfaceInfo =
      .ok ((kept b).map (infoOf env true)) := by
    rw [List.mapM_map]
    refine mapM_ok fun p _ => ?_
    have n := snHead_nodup env p.2.1
    unfold surfaceInfo
    dsimp only [Function.comp]
    simp only [headTime_row, headText, headInt, headCoord]
    rw [headGet_of n (k := txt "STID") (v := .text p.2.1.stid) (by simp [snHead]),
      headGet_of n (k := txt "STD2") (v := .text p.2.1.std2) (by simp [snHead]),
      headGet_of n (k := txt "STNM") (v := .int p.2.1.stnm) (by simp [snHead]),
      headGet_of n (k := txt "SLAT") (v := .coord (centiD env p.2.1.slat)) (by simp [snHead]),
      headGet_of n (k := txt "SLON") (v := .coord (centiD env p.2.1.slon)) (by simp [snHead]),
      headGet_of n (k := txt "SELV") (v := .int p.2.1.selv) (by simp [snHead]),
      headGet_of n (k := txt "STAT") (v := .text p.2.1.stat) (by simp [snHead]),
      headGet_of n (k := txt "COUN") (v := .text p.2.1.coun) (by simp [snHead])]
    rfl
  rw [hm, ok_bind]

/-- A run through a list succeeds at each item. -/
theorem mapM_pairs {ε α γ : Type} {f : α → Except ε γ} {l : List α} {r : List γ} (h : l.mapM f = .ok r) :
    List.Forall₂ (fun x y => f x = .ok y) l r := by
  induction l generalizing r with
  | nil => cases h; exact .nil
  | cons x l ih =>
    rw [List.mapM_cons] at h
    cases hx : f x with
    | error e => rw [hx] at h; cases h
    | ok y =>
      rw [hx] at h
      cases hl : l.mapM f with
      | error e => rw [hl] at h; cases h
      | ok ys =>
        rw [hl] at h
        cases h
        exact .cons hx (ih hl)

theorem mapM_raises {ε α γ : Type} {f : α → Except ε γ} {l : List α} {r : List γ} (h : l.mapM f = .ok r) (hf : ∀ x, Raises (f x)) : l = [] := by
  cases mapM_pairs h with
  | nil => rfl
  | cons hx _ =>
    obtain ⟨e, he⟩ := hf _
    rw [he] at hx
    cases hx

theorem forall₂_partner {α γ : Type} {R : α → γ → Prop} {l : List α} {r : List γ} (h : List.Forall₂ R l r) {x : α} (hx : x ∈ l) : ∃ y ∈ r, R x y := by
  induction h with
  | nil => cases hx
  | cons h1 _ ih =>
    rcases List.mem_cons.1 hx with rfl | hx
    · exact ⟨_, List.mem_cons_self, h1⟩
    · obtain ⟨y, hy, h2⟩ := ih hx
      exact ⟨y, List.mem_cons_of_mem _ hy, h2⟩

theorem headItems_key {h : Header} {ks : List Text} {r : List (Text × HVal)} (hi : headItems h ks = .ok r) {k : Text} (hk : k ∈ ks) :
    k ∈ h.map Prod.fst := by
  obtain ⟨y, _, hy⟩ := forall₂_partner (mapM_pairs hi) hk
  cases hg : headGet h k with
  | error e => rw [hg] at hy; cases hy
  | ok v => exact headGet_key hg

/-- Sites without the field SPRI have no report. -/
theorem no_report {f : SurfaceReader} (ht : f.type = .standard) (hk : ∀ h ∈ f.cols, txt "SPRI" ∉ h.map Prod.fst) (irow icol : Nat) :
    Raises (f.unpackCell irow icol) := by
  refine raises_of fun x hx => ?_
  unfold SurfaceReader.unpackCell at hx
  obtain ⟨⟨site, time⟩, h1, h2⟩ := Except.bind_ok hx
  obtain ⟨s, h3, _⟩ := Except.bind_ok h2
  unfold SurfaceReader.heads at h1
  rw [ht] at h1
  obtain ⟨r, _, h1⟩ := Except.bind_ok h1
  obtain ⟨c, hc, h1⟩ := Except.bind_ok h1
  obtain ⟨rfl, _⟩ := Prod.mk.inj (Except.ok.inj h1)
  have hmem : c ∈ f.cols := by
    unfold headerAt at hc
    split at hc
    · rename_i hv
      obtain rfl := Except.ok.inj hc
      exact List.mem_of_getElem? hv
    · cases hc
  exact hk c hmem (headItems_key h3 (by decide +kernel))

theorem no_sfjson {f : SurfaceReader} (hf : ∀ i j, Raises (f.unpackCell i j)) (upper lower : Text → Text) (q : SiteQuery) (special : Bool) :
    Raises (f.sfjson upper lower q special) := by
  refine raises_of fun out ho => ?_
  unfold SurfaceReader.sfjson at ho
  obtain ⟨m, h1, ho⟩ := Except.bind_ok ho
  obtain ⟨d, h2, _⟩ := Except.bind_ok ho
  have hm : m = [] := mapM_raises h2 fun s => hf s.row s.col
  subst hm
  unfold selectSites at h1
  obtain ⟨t, _, h1⟩ := Except.bind_ok h1
  dsimp only at h1
  split at h1
  · cases h1
  · rename_i hl
    have := Except.ok.inj h1
    rw [this] at hl
    exact hl (by decide)

theorem no_nearest {f : SurfaceReader} (hf : ∀ i j, Raises (f.unpackCell i j)) (upper lower : Text → Text) (t : Date × Clock) (q : NearQuery)
    (special : Bool) (out : List SfObj) (hout : f.nearestTime upper lower t q special = .ok out) : out = [] := by
  unfold SurfaceReader.nearestTime at hout
  split at hout
  · cases hout
  · split at hout
    · cases hout
    · obtain ⟨a, h1, hout⟩ := Except.bind_ok hout
      obtain ⟨d, h2, hout⟩ := Except.bind_ok hout
      have hbind : ∀ q', Raises (f.sfjson upper lower q' special >>= nearestOf t) := fun q' => by
        obtain ⟨e', he⟩ := no_sfjson hf upper lower q' special
        rw [he]
        exact ⟨e', rfl⟩
      have h3 := mapM_raises h1 fun id => hbind _
      have h4 := mapM_raises h2 fun id => hbind _
      rw [h3] at h1
      rw [h4] at h2
      cases h1
      cases h2
      cases hout
      rfl

/-- **C123**, where the code falls short: a sounding file is taken for a surface file and all its soundings are listed, but no report can be read. -/
theorem C123_sounding_as_surface (env : NumEnv ρ κ) (ps : List Text) (b0 : Builder κ (List (List ρ))) (rs : List (AddReq κ (List ρ))) (e host : Endian)
    (bytes : Bytes) (hnew : newBuilder env ps = .ok b0) (hcap : headers (rs.filterMap (snEntry env b0.names)) ≤ 32000)
    (hn : ∀ n ∈ b0.names, Name4 n) (hes : ∀ x ∈ rs.filterMap (snEntry env b0.names), x.Legible)
    (hs : save e (soundingFile env (run (addSounding env) b0 rs)) = .ok bytes) :
    ∃ g : SurfaceReader, openSurface host bytes = .ok g ∧
      (g.sfinfo.map fun s => (s.dattim, s.number)).Perm ((final (rs.filterMap (snEntry env b0.names))).map fun x => (storedTime x.date x.clock, x.number)) ∧
      (∀ upper lower q special, Raises (g.sfjson upper lower q special)) ∧
      ∀ upper lower t q special out, g.nearestTime upper lower t q special = .ok out → out = [] := by
  have hist := run_sounding (History.new hnew) rs
  rw [List.nil_append] at hist
  have hcap : (run (addSounding env) b0 rs).rows + (run (addSounding env) b0 rs).columns ≤ mmhdrs := by
    rw [hist.headers_eq]; exact hcap
  obtain ⟨hr, hc⟩ := hist.dims hcap
  obtain ⟨bk, ho⟩ := openSurface_sounding (host := host) hr hc (legible_of hist hcap hn hes) hs
  obtain ⟨g, hg⟩ : ∃ g : SurfaceReader, g = ⟨⟨expectedInfo e (soundingFile env (run (addSounding env) b0 rs)) bk, bytes,
      (run (addSounding env) b0 rs).rowHeaders.map rowHead, (run (addSounding env) b0 rs).columnHeaders.map (snHead env)⟩, .standard,
      (kept (run (addSounding env) b0 rs)).map (infoOf env true)⟩ := ⟨_, rfl⟩
  have hno : ∀ i j, Raises (g.unpackCell i j) := by
    rw [hg]
    refine no_report rfl ?_
    intro h hh
    obtain ⟨c, _, rfl⟩ := List.mem_map.1 hh
    show txt "SPRI" ∉ snNames
    decide +kernel
  refine ⟨g, by rw [hg]; exact ho, by rw [hg]; exact listed_perm hist hcap true, no_sfjson hno, no_nearest hno⟩

/-- A surface file opened as a sounding file. -/
theorem openSounding_surface {e host : Endian} {bytes : Bytes} {env : NumEnv ρ κ} {b : Builder κ (List ρ)}
    (hr : b.rows = b.rowHeaders.length) (hc : b.columns = b.columnHeaders.length) (hl : Legible b)
    (hs : save e (surfaceFile env b) = .ok bytes) :
    ∃ bk, openSounding host bytes = .ok ⟨⟨expectedInfo e (surfaceFile env b) bk, bytes, b.rowHeaders.map rowHead,
      b.columnHeaders.map (sfHead env)⟩, false, (kept b).map (infoOf env false)⟩ := by
  obtain ⟨bk, ho⟩ := openStation_spec (host := host) (sfStation (env := env) hr hc) hl.names hs timeKey siteKey rowHead (sfHead env)
    (by show siteKeys.Nodup; decide +kernel)
    (fun r hr' vs h => rowHead_conv (by decide +kernel) (by decide +kernel) (hl.rows r hr').1 (hl.rows r hr').2 h)
    (fun c hc' vs h => by
      obtain ⟨lat, lon, g1, g2, rfl⟩ := sfColWords_inv h
      obtain ⟨k1, k2, k3, k4, k5, k6, k7, k8⟩ := kinds_site
      have k9 : siteKey (txt "SPRI") = .int := by decide +kernel
      have hcl := hl.cols c hc'
      constructor
      · show _ = siteKeys.map _
        simp only [siteKeys, List.map_cons, List.map_nil, k1, k2, k3, k4, k5, k6, k7, k8, k9]; rfl
      · show convHeader siteKey siteKeys _ = _
        unfold sfHead snHead
        rw [centiD_ok g1, centiD_ok g2]
        simp only [siteKeys, List.map_cons, List.map_nil, convHeader, conv_name k1 hcl.stid, conv_name k6 hcl.stat,
          conv_name k7 hcl.coun, conv_name k8 hcl.std2, k2, k3, k4, k5, k9, conv_int, conv_coord, bind, Except.bind]
        rfl)
  refine ⟨bk, ?_⟩
  unfold openSounding
  rw [ho, ok_bind]
  dsimp only
  have hmg : (expectedInfo e (surfaceFile env b) bk).parts.any (fun p => decide (p.name = txt "SNDT")) = false := by
    show (decide (txt "SFDT" = txt "SNDT") || false) = false
    decide +kernel
  have hcells : ((standardCells (b.rowHeaders.map rowHead) (b.columnHeaders.map (sfHead env))).filter fun c =>
      decide (dataPointer (expectedInfo e (surfaceFile env b) bk) bytes c.row c.col 0 ≠ 0)) =
      (kept b).map fun p => ⟨p.1.2, p.2.2, sfHead env p.2.1, rowHead p.1.1⟩ := by
    rw [standardCells_eq, List.filter_map]
    refine congrArg (List.map _) ?_
    unfold kept
    refine List.filter_congr fun p hp => ?_
    exact pointer_iff (sfStation hr hc) hs hp
  rw [hcells]
  have hm : ((kept b).map fun p => (⟨p.1.2, p.2.2, sfHead env p.2.1, rowHead p.1.1⟩ : CellRef)).mapM soundingInfo =
      .ok ((kept b).map (infoOf env false)) := by
    rw [List.mapM_map]
    refine mapM_ok fun p _ => ?_
    have n := sfHead_nodup env p.2.1
    unfold soundingInfo
    dsimp only [Function.comp]
    simp only [headTime_row, headText, headInt, headCoord]
    rw [headGet_of n (k := txt "STID") (v := .text p.2.1.stid) (by simp [sfHead, snHead]),
      headGet_of n (k := txt "STNM") (v := .int p.2.1.stnm) (by simp [sfHead, snHead]),
      headGet_of n (k := txt "SLAT") (v := .coord (centiD env p.2.1.slat)) (by simp [sfHead, snHead]),
      headGet_of n (k := txt "SLON") (v := .coord (centiD env p.2.1.slon)) (by simp [sfHead, snHead]),
      headGet_of n (k := txt "SELV") (v := .int p.2.1.selv) (by simp [sfHead, snHead]),
      headGet_of n (k := txt "STAT") (v := .text p.2.1.stat) (by simp [sfHead, snHead]),
      headGet_of n (k := txt "COUN") (v := .text p.2.1.coun) (by simp [sfHead, snHead])]
    rfl
  rw [hm, ok_bind, hmg]

/-! ## Parts that are no part of a sounding -/

/-- The twelve parts of a sounding that hold levels. -/
def Spec.levelParts : List String :=
  ["TTAA", "PPAA", "TRPA", "MXWA", "TTBB", "PPBB", "TTCC", "TRPC", "MXWC", "TTDD", "PPDD", "PPCC"]

theorem unmergedParts_names {i : DMInfo} {b : Bytes} {irow icol : Nat} {k : Text} {l : List (PartInfo × ParamInfo)} (hl : ∀ x ∈ l, x.1.name ≠ k) :
    ∀ {n : Nat} {acc r : List (Text × List (Text × HVal))}, unmergedParts i b irow icol l n acc = .ok r → dictGet acc k = none → dictGet r k = none := by
  induction l with
  | nil =>
    intro n acc r h ha
    cases h
    exact ha
  | cons x l ih =>
    obtain ⟨p, a⟩ := x
    have ih := @ih fun y hy => hl y (List.mem_cons_of_mem _ hy)
    intro n acc r h ha
    rw [unmergedParts] at h
    split at h
    · exact ih h ha
    · obtain ⟨y, _, h⟩ := Except.bind_ok h
      refine ih h ?_
      rw [dictGet_dictSet, if_neg (fun h => hl _ List.mem_cons_self h.symm)]
      exact ha

theorem count_absent {α : Type} [Field α] [LinearOrder α] {ps : SndParts α} {name : String} (key : String) (h : ps.part name = none) :
    ps.count name key = .ok 0 := by
  unfold SndParts.count
  rw [h]

/-- Without one of the parts that hold levels there is no sounding. -/
theorem no_sounding {α : Type} [Field α] [LinearOrder α] [FloorRing α] (c : Calc α) (le : LevEnv α) (fuel : Nat) (f : SoundingReader)
    (hf : ∀ p ∈ f.info.parts, ∀ n ∈ levelParts, p.name ≠ n.toList) (irow icol : Nat) (x : Option (Merged α))
    (hx : f.unpackUnmerged c le fuel irow icol = .ok x) : x = none := by
  unfold SoundingReader.unpackUnmerged at hx
  obtain ⟨_, _, hx⟩ := Except.bind_ok hx
  obtain ⟨_, _, hx⟩ := Except.bind_ok hx
  obtain ⟨_, _, hx⟩ := Except.bind_ok hx
  obtain ⟨_, _, hx⟩ := Except.bind_ok hx
  obtain ⟨ps, h1, hx⟩ := Except.bind_ok hx
  obtain ⟨selv, _, hx⟩ := Except.bind_ok hx
  obtain ⟨mg, h2, hx⟩ := Except.bind_ok hx
  have h1 := toRun_ok h1
  have habs : ∀ n ∈ levelParts, (le.parts selv ps).part n = none := by
    intro n hn
    show Option.map _ (dictGet ps n.toList) = none
    rw [unmergedParts_names (k := n.toList) (fun y hy => hf y.1 (List.of_mem_zip hy).1 n hn) h1 rfl]
    rfl
  have hcnt : (le.parts selv ps).counts = .ok ⟨0, 0, 0, 0, 0, 0, 0, 0, 0, 0, 0, 0⟩ := by
    unfold SndParts.counts
    rw [count_absent _ (habs "TTAA" (by decide)), count_absent _ (habs "PPAA" (by decide)), count_absent _ (habs "TRPA" (by decide)),
      count_absent _ (habs "MXWA" (by decide)), count_absent _ (habs "TTBB" (by decide)), count_absent _ (habs "PPBB" (by decide)),
      count_absent _ (habs "TTCC" (by decide)), count_absent _ (habs "TRPC" (by decide)), count_absent _ (habs "MXWC" (by decide)),
      count_absent _ (habs "TTDD" (by decide)), count_absent _ (habs "PPDD" (by decide)), count_absent _ (habs "PPCC" (by decide))]
    rfl
  unfold mergeSounding at h2
  rw [hcnt] at h2
  cases h2
  cases hx
  rfl

/-- **C123**: whatever the bytes, a file without the parts of a sounding gives no sounding. -/
theorem C123_no_soundings {α : Type} [Field α] [LinearOrder α] [FloorRing α] (c : Calc α) (le : LevEnv α) (fuel : Nat) (f : SoundingReader)
    (hf : ∀ p ∈ f.info.parts, ∀ n ∈ levelParts, p.name ≠ n.toList) (upper lower : Text → Text) (q : SiteQuery) (out : List (SnData α))
    (ho : f.unmergedDatasets c le fuel upper lower q = .ok out) : out = [] := by
  unfold SoundingReader.unmergedDatasets at ho
  obtain ⟨m, _, ho⟩ := Except.bind_ok ho
  obtain ⟨data, h1, ho⟩ := Except.bind_ok ho
  have hd : data.filterMap id = [] := by
    rw [List.filterMap_eq_nil_iff]
    intro x hx
    obtain ⟨s, _, hs⟩ := forall₂_partner (mapM_pairs h1).flip hx
    exact no_sounding c le fuel f hf _ _ x hs
  rw [hd] at ho
  cases ho
  rfl

/-- **C123**, where the code falls short: a surface file is taken for a sounding file and all its reports are listed, but no sounding is made of them. -/
theorem C123_surface_as_sounding (env : NumEnv ρ κ) (ps : List Text) (b0 : Builder κ (List ρ)) (rs : List (AddReq κ ρ)) (e host : Endian)
    (bytes : Bytes) (hnew : newBuilder env ps = .ok b0) (hcap : headers (rs.filterMap (sfEntry env b0.names)) ≤ 32000)
    (hn : ∀ n ∈ b0.names, Name4 n) (hes : ∀ x ∈ rs.filterMap (sfEntry env b0.names), x.Legible)
    (hs : save e (surfaceFile env (run (addStation env) b0 rs)) = .ok bytes) :
    ∃ g : SoundingReader, openSounding host bytes = .ok g ∧ g.merged = false ∧
      (g.sninfo.map fun s => (s.dattim, s.number)).Perm ((final (rs.filterMap (sfEntry env b0.names))).map fun x => (storedTime x.date x.clock, x.number)) ∧
      ∀ {α : Type} [Field α] [LinearOrder α] [FloorRing α] (c : Calc α) (le : LevEnv α) (fuel : Nat) upper lower q out,
        g.unmergedDatasets c le fuel upper lower q = .ok out → out = [] := by
  have hist := run_station (History.new hnew) rs
  rw [List.nil_append] at hist
  have hcap : (run (addStation env) b0 rs).rows + (run (addStation env) b0 rs).columns ≤ mmhdrs := by
    rw [hist.headers_eq]; exact hcap
  obtain ⟨hr, hc⟩ := hist.dims hcap
  obtain ⟨bk, ho⟩ := openSounding_surface (host := host) hr hc (legible_of hist hcap hn hes) hs
  refine ⟨_, ho, rfl, listed_perm hist hcap false, ?_⟩
  intro α _ _ _ c le fuel upper lower q out hout
  refine C123_no_soundings c le fuel _ ?_ upper lower q out hout
  intro p hp n hn
  have hp : p ∈ [(stationPart (txt "SFDT") (run (addStation env) b0 rs).names).info] := hp
  rw [List.mem_singleton] at hp
  subst hp
  show txt "SFDT" ≠ n.toList
  revert n
  decide +kernel

end

/-! ## Concrete files -/

/-- A file of two reports: no grid file; as a sounding file it lists two sites and gives no sounding. -/
example : ∃ bytes : Bytes, Raises (openGrid .big bytes) ∧ ∃ g : SoundingReader, openSounding .big bytes = .ok g ∧ g.sninfo.length = 2 ∧
    ∀ c le fuel upper lower q out, g.unmergedDatasets (α := ℚ) c le fuel upper lower q = .ok out → out = [] := by
  have hnew : newBuilder intEnv someNames = .ok (⟨someNames, ⟨[]⟩, ⟨[]⟩, [], 0, 0, [], []⟩ : Builder Int (List F32)) := rfl
  have hn : ∀ n ∈ someNames, Name4 n := by decide +kernel
  have hleg : ∀ x ∈ someRequests.filterMap (sfEntry intEnv someNames), x.Legible := by
    rw [someEntries]
    intro x hx
    simp only [List.mem_cons, List.not_mem_nil, or_false] at hx
    rcases hx with rfl | rfl | rfl <;> constructor <;> decide +kernel
  have hw : ∀ x ∈ someRequests.filterMap (sfEntry intEnv someNames), x.Writable intEnv := by
    rw [someEntries]
    intro x hx
    simp only [List.mem_cons, List.not_mem_nil, or_false] at hx
    rcases hx with rfl | rfl | rfl <;>
      exact ⟨by decide, by decide, by decide, ⟨_, rfl, by decide⟩, _, rfl, by decide⟩
  have hcap : headers (someRequests.filterMap (sfEntry intEnv someNames)) ≤ 32000 := by
    rw [someEntries]; decide +kernel
  have hne : someRequests.filterMap (sfEntry intEnv someNames) ≠ [] := by rw [someEntries]; simp
  obtain ⟨bytes, hs⟩ := C14_saves intEnv someNames _ someRequests .little hnew hcap (fun x hx => ⟨(hleg x hx).date, (hleg x hx).clock⟩)
    hw (fun _ _ v _ => ⟨v, rfl⟩) (by decide +kernel)
  obtain ⟨g, h1, _, h2, h3⟩ := C123_surface_as_sounding intEnv someNames _ someRequests .little .big bytes hnew hcap hn hleg hs
  refine ⟨bytes, C123_surface_as_grid intEnv someNames _ someRequests .little .big bytes hnew hcap hn hne hs, g, h1, ?_, fun c le fuel => h3 c le fuel⟩
  have := h2.length_eq
  rw [List.length_map] at this
  rw [this, List.length_map]
  show (final (someRequests.filterMap (sfEntry intEnv someNames))).length = 2
  rw [someEntries]
  decide +kernel

/-- A file of two soundings: no grid file; as a surface file it lists two sites and gives no report. -/
example : ∃ bytes : Bytes, Raises (openGrid .big bytes) ∧ ∃ g : SurfaceReader, openSurface .big bytes = .ok g ∧ g.sfinfo.length = 2 ∧
    ∀ upper lower q special, Raises (g.sfjson upper lower q special) := by
  have hnew : newBuilder intEnv snTwo = .ok (⟨snTwo, ⟨[]⟩, ⟨[]⟩, [], 0, 0, [], []⟩ : Builder Int (List (List F32))) := rfl
  have hn : ∀ n ∈ snTwo, Name4 n := by decide +kernel
  have hleg : ∀ x ∈ someSoundings.filterMap (snEntry intEnv snTwo), x.Legible := by
    rw [snTwoEntries]
    intro x hx
    simp only [List.mem_cons, List.not_mem_nil, or_false] at hx
    rcases hx with rfl | rfl | rfl <;> constructor <;> decide +kernel
  have hw : ∀ x ∈ someSoundings.filterMap (snEntry intEnv snTwo), x.Writable intEnv := by
    rw [snTwoEntries]
    intro x hx
    simp only [List.mem_cons, List.not_mem_nil, or_false] at hx
    rcases hx with rfl | rfl | rfl <;>
      exact ⟨by decide, by decide, by decide, ⟨_, rfl, by decide⟩, _, rfl, by decide⟩
  have hcap : headers (someSoundings.filterMap (snEntry intEnv snTwo)) ≤ 32000 := by
    rw [snTwoEntries]; decide +kernel
  have hne : someSoundings.filterMap (snEntry intEnv snTwo) ≠ [] := by rw [snTwoEntries]; simp
  obtain ⟨bytes, hs⟩ := C15_saves intEnv snTwo _ someSoundings .big hnew hcap (fun x hx => ⟨(hleg x hx).date, (hleg x hx).clock⟩)
    hw (fun _ _ _ _ v _ => ⟨v, rfl⟩) (by decide +kernel)
  obtain ⟨g, h1, h2, h3, _⟩ := C123_sounding_as_surface intEnv snTwo _ someSoundings .big .big bytes hnew hcap hn hleg hs
  refine ⟨bytes, C123_sounding_as_grid intEnv snTwo _ someSoundings .big .big bytes hnew hcap hn hne hs, g, h1, ?_, h3⟩
  have := h2.length_eq
  rw [List.length_map] at this
  rw [this, List.length_map]
  show (final (someSoundings.filterMap (snEntry intEnv snTwo))).length = 2
  rw [snTwoEntries]
  decide +kernel

/-- A file of one grid: no surface file and no sounding file. -/
example : ∃ bytes : Bytes, (∃ f, openGrid .little bytes = .ok f) ∧ Raises (openSurface .little bytes) ∧ Raises (openSounding .little bytes) := by
  obtain ⟨bytes, f, g, hok, hs, ho, _⟩ := C16_flat 5 (by norm_num) id id
  have hacc : gAccepted sampleEnv 3 3 [flatReq 5] = [flatEntry 5] := by
    rw [gAccepted, List.filterMap_cons_some (flat_entry 5), List.filterMap_nil]
  refine ⟨bytes, ⟨f, ho⟩, C123_grid_as_surface _ _ _ _ _ _ _ _ (by decide +kernel) rfl rfl _ hok _ _ _ hs,
    C123_grid_as_sounding _ _ _ _ _ _ _ _ (by decide +kernel) rfl rfl _ hok ?_ _ _ _ hs⟩
  rw [hacc]
  unfold gfinal
  rw [if_neg (by rintro ⟨x, hx, _⟩; cases hx)]
  simp

end Gempak
