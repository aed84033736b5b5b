import Verif.Proof.StationFile

/-! A written surface file, read back cell by cell. -/

namespace Gempak
open Spec

set_option linter.unusedSectionVars false

variable {ρ κ β : Type} [DecidableEq κ]

/-! ## Headers -/

/-- Hundredths of a degree. -/
def centiD (env : NumEnv ρ κ) (x : κ) : Int := (env.centi x).toOption.getD 0

/-- Row header as read. -/
def rowHead (r : Row) : Header := [(txt "DATE", .date (storedTime r.1 r.2).1), (txt "TIME", .time (storedTime r.1 r.2).2)]

/-- Column header of a sounding file as read. -/
def snHead (env : NumEnv ρ κ) (c : Col κ) : Header :=
  [(txt "STID", .text c.stid), (txt "STNM", .int c.stnm), (txt "SLAT", .coord (centiD env c.slat)),
   (txt "SLON", .coord (centiD env c.slon)), (txt "SELV", .int c.selv), (txt "STAT", .text c.stat), (txt "COUN", .text c.coun),
   (txt "STD2", .text c.std2)]

/-- Column header of a surface file as read. -/
def sfHead (env : NumEnv ρ κ) (c : Col κ) : Header := snHead env c ++ [(txt "SPRI", .int c.spri)]

/-- Text of a column header survives a file. -/
structure Col.Legible (c : Col κ) : Prop where
  stid : Name4 c.stid
  stat : Name4 c.stat
  coun : Name4 c.coun
  std2 : Name4 c.std2

theorem windowYear_storedTime (x : Date) (c : Clock) : storedTime x c = (⟨windowYear x.y, x.m, x.d⟩, ⟨c.h, c.mi, 0, 0⟩) := by
  unfold storedTime windowYear
  by_cases h : x.y % 100 ≤ 68
  · rw [if_pos h]
    congr 2
    omega
  · rw [if_neg h]
    congr 2
    omega

theorem conv_name {k : Text} {s : Text} {kind : Text → KeyKind} (hk : kind k = .text) (h : Name4 s) :
    (kind k).conv (stored (nameWord s)) = .ok (.text s) := by
  rw [hk, stored_eq]
  show (textOf (canonW (nameWord s))).map HVal.text = _
  rw [textOf_name h]
  rfl

theorem rowHead_conv {kind : Text → KeyKind} (hd : kind (txt "DATE") = .date) (ht : kind (txt "TIME") = .time) {r : Row}
    (h1 : r.1.Valid) (h2 : r.2.Valid) {vs : List Val} (h : rowWords r = .ok vs) :
    vs.map Val.fmt = [txt "DATE", txt "TIME"].map (fun k => (kind k).fmt) ∧
      convHeader kind [txt "DATE", txt "TIME"] (vs.map stored) = .ok (rowHead r) := by
  unfold rowWords at h
  obtain rfl := Except.ok.inj h
  constructor
  · simp only [List.map_cons, List.map_nil, hd, ht]; rfl
  · have e1 : (kind (txt "DATE")).conv (stored (.int (dateWord r.1))) = .ok (.date (storedTime r.1 r.2).1) := by
      rw [hd, windowYear_storedTime]
      show (do let x ← makeDate (dateWord r.1); .ok (HVal.date x) : Except PyErr HVal) = _
      rw [C22_date _ h1]; rfl
    have e2 : (kind (txt "TIME")).conv (stored (.int (timeWord r.2))) = .ok (.time (storedTime r.1 r.2).2) := by
      rw [ht, windowYear_storedTime]
      show (do let x ← makeTime (timeWord r.2); .ok (HVal.time x) : Except PyErr HVal) = _
      rw [C22_time _ h2]; rfl
    simp only [List.map_cons, List.map_nil, convHeader, e1, e2, bind, Except.bind]
    rfl

theorem snColWords_inv {env : NumEnv ρ κ} {c : Col κ} {vs : List Val} (h : snColWords env c = .ok vs) :
    ∃ lat lon, env.centi c.slat = .ok lat ∧ env.centi c.slon = .ok lon ∧
      vs = [nameWord c.stid, .int c.stnm, .int lat, .int lon, .int c.selv, nameWord c.stat, nameWord c.coun, nameWord c.std2] := by
  unfold snColWords at h
  obtain ⟨lat, h1, h2⟩ := Except.bind_ok h
  obtain ⟨lon, h3, h4⟩ := Except.bind_ok h2
  exact ⟨lat, lon, h1, h3, (Except.ok.inj h4).symm⟩

theorem sfColWords_inv {env : NumEnv ρ κ} {c : Col κ} {vs : List Val} (h : sfColWords env c = .ok vs) :
    ∃ lat lon, env.centi c.slat = .ok lat ∧ env.centi c.slon = .ok lon ∧
      vs = [nameWord c.stid, .int c.stnm, .int lat, .int lon, .int c.selv, nameWord c.stat, nameWord c.coun, nameWord c.std2,
        .int c.spri] := by
  unfold sfColWords at h
  obtain ⟨ws, h1, h2⟩ := Except.bind_ok h
  obtain ⟨lat, lon, h3, h4, rfl⟩ := snColWords_inv h1
  exact ⟨lat, lon, h3, h4, (Except.ok.inj h2).symm⟩

theorem centiD_ok {env : NumEnv ρ κ} {x : κ} {n : Int} (h : env.centi x = .ok n) : centiD env x = n := by
  unfold centiD; rw [h]; rfl

/-- The names of the columns of a sounding file. -/
def snNames : List Text :=
  [txt "STID", txt "STNM", txt "SLAT", txt "SLON", txt "SELV", txt "STAT", txt "COUN", txt "STD2"]

theorem kinds_site : siteKey (txt "STID") = .text ∧ siteKey (txt "STNM") = .int ∧ siteKey (txt "SLAT") = .coord ∧
    siteKey (txt "SLON") = .coord ∧ siteKey (txt "SELV") = .int ∧ siteKey (txt "STAT") = .text ∧
    siteKey (txt "COUN") = .text ∧ siteKey (txt "STD2") = .text := by decide +kernel

theorem kinds_sf : sfKey (txt "STID") = .text ∧ sfKey (txt "STNM") = .int ∧ sfKey (txt "SLAT") = .coord ∧
    sfKey (txt "SLON") = .coord ∧ sfKey (txt "SELV") = .int ∧ sfKey (txt "STAT") = .text ∧
    sfKey (txt "COUN") = .text ∧ sfKey (txt "STD2") = .text ∧ sfKey (txt "SPRI") = .int := by decide +kernel

theorem conv_int (i : Int) : KeyKind.conv .int (stored (.int i)) = .ok (.int i) := rfl
theorem conv_coord (i : Int) : KeyKind.conv .coord (stored (.int i)) = .ok (.coord i) := rfl

theorem snHead_conv {env : NumEnv ρ κ} {c : Col κ} (hc : c.Legible) {vs : List Val} (h : snColWords env c = .ok vs) :
    vs.map Val.fmt = snNames.map (fun k => (siteKey k).fmt) ∧ convHeader siteKey snNames (vs.map stored) = .ok (snHead env c) := by
  obtain ⟨lat, lon, h1, h2, rfl⟩ := snColWords_inv h
  obtain ⟨k1, k2, k3, k4, k5, k6, k7, k8⟩ := kinds_site
  constructor
  · simp only [snNames, List.map_cons, List.map_nil, k1, k2, k3, k4, k5, k6, k7, k8]; rfl
  · unfold snHead
    rw [centiD_ok h1, centiD_ok h2]
    simp only [snNames, List.map_cons, List.map_nil, convHeader, conv_name k1 hc.stid, conv_name k6 hc.stat,
      conv_name k7 hc.coun, conv_name k8 hc.std2, k2, k3, k4, k5, conv_int, conv_coord, bind, Except.bind]

theorem sfHead_conv {env : NumEnv ρ κ} {c : Col κ} (hc : c.Legible) {vs : List Val} (h : sfColWords env c = .ok vs) :
    vs.map Val.fmt = siteKeys.map (fun k => (sfKey k).fmt) ∧ convHeader sfKey siteKeys (vs.map stored) = .ok (sfHead env c) := by
  obtain ⟨lat, lon, h1, h2, rfl⟩ := sfColWords_inv h
  obtain ⟨k1, k2, k3, k4, k5, k6, k7, k8, k9⟩ := kinds_sf
  constructor
  · simp only [siteKeys, List.map_cons, List.map_nil, k1, k2, k3, k4, k5, k6, k7, k8, k9]; rfl
  · unfold sfHead snHead
    rw [centiD_ok h1, centiD_ok h2]
    simp only [siteKeys, List.map_cons, List.map_nil, convHeader, conv_name k1 hc.stid, conv_name k6 hc.stat,
      conv_name k7 hc.coun, conv_name k8 hc.std2, k2, k3, k4, k5, k9, conv_int, conv_coord, bind, Except.bind]
    rfl

/-! ## The files written -/

instance (s : Text) : Decidable (Trimmed s) := by unfold Trimmed; infer_instance

instance (s : Text) : Decidable (Name4 s) := by unfold Name4; infer_instance

theorem siteKeys_name4 : ∀ s ∈ siteKeys, Name4 s := by
  decide +kernel

theorem sfStation {env : NumEnv ρ κ} {b : Builder κ (List ρ)} (hr : b.rows = b.rowHeaders.length)
    (hc : b.columns = b.columnHeaders.length) :
    IsStation (sfRecord env) (sfColWords env) (txt "SFDT") b (surfaceFile env b) := by
  refine ⟨rfl, rfl, rfl, ⟨by simp [surfaceFile], siteKeys_name4⟩, ?_, rfl, ?_, ⟨rfl, rfl⟩, rfl, Or.inl rfl, ?_, rfl, rfl, hr, hc,
    sfVisits_visited _ hr hc⟩
  · intro c vs h
    obtain ⟨_, _, _, _, rfl⟩ := sfColWords_inv h
    rfl
  · decide +kernel
  · show (2 : Int) ∈ knownSources
    decide +kernel

theorem snStation {env : NumEnv ρ κ} {b : Builder κ (List (List ρ))} (hr : b.rows = b.rowHeaders.length)
    (hc : b.columns = b.columnHeaders.length) :
    IsStation (snRecord env) (snColWords env) (txt "SNDT") b (soundingFile env b) := by
  refine ⟨rfl, rfl, rfl, ⟨by simp [soundingFile], ?_⟩, ?_, rfl, ?_, ⟨rfl, rfl⟩, rfl, Or.inr (Or.inl rfl), ?_, rfl, rfl, hr, hc,
    snVisits_visited _ hr hc⟩
  · intro s hs
    apply siteKeys_name4
    have : ∀ s ∈ snNames, s ∈ siteKeys := by decide +kernel
    exact this s hs
  · intro c vs h
    obtain ⟨_, _, _, _, rfl⟩ := snColWords_inv h
    rfl
  · decide +kernel
  · show (4 : Int) ∈ knownSources
    decide +kernel

/-! ## Opening -/

/-- All rows and columns of a table survive a file. -/
structure Legible (b : Builder κ β) : Prop where
  names : ∀ n ∈ b.names, Name4 n
  rows : ∀ r ∈ b.rowHeaders, r.1.Valid ∧ r.2.Valid
  cols : ∀ c ∈ b.columnHeaders, c.Legible

theorem openStation_surface {e host : Endian} {bytes : Bytes} {env : NumEnv ρ κ} {b : Builder κ (List ρ)}
    (hr : b.rows = b.rowHeaders.length) (hc : b.columns = b.columnHeaders.length) (hl : Legible b)
    (hs : save e (surfaceFile env b) = .ok bytes) :
    ∃ bk, openStation sfKey sfKey host bytes = .ok ⟨expectedInfo e (surfaceFile env b) bk, bytes, b.rowHeaders.map rowHead,
      b.columnHeaders.map (sfHead env)⟩ := by
  refine openStation_spec (sfStation hr hc) hl.names hs sfKey sfKey rowHead (sfHead env) ?_ ?_ ?_
  · show siteKeys.Nodup
    decide +kernel
  · intro r hr' vs h
    exact rowHead_conv (by decide +kernel) (by decide +kernel) (hl.rows r hr').1 (hl.rows r hr').2 h
  · intro c hc' vs h
    exact sfHead_conv (hl.cols c hc') h

theorem openStation_sounding {e host : Endian} {bytes : Bytes} {env : NumEnv ρ κ} {b : Builder κ (List (List ρ))}
    (hr : b.rows = b.rowHeaders.length) (hc : b.columns = b.columnHeaders.length) (hl : Legible b)
    (hs : save e (soundingFile env b) = .ok bytes) :
    ∃ bk, openStation timeKey siteKey host bytes = .ok ⟨expectedInfo e (soundingFile env b) bk, bytes, b.rowHeaders.map rowHead,
      b.columnHeaders.map (snHead env)⟩ := by
  refine openStation_spec (snStation hr hc) hl.names hs timeKey siteKey rowHead (snHead env) ?_ ?_ ?_
  · show snNames.Nodup
    decide +kernel
  · intro r hr' vs h
    exact rowHead_conv (by decide +kernel) (by decide +kernel) (hl.rows r hr').1 (hl.rows r hr').2 h
  · intro c hc' vs h
    exact snHead_conv (hl.cols c hc') h

/-! ## Columns of a written file have their coordinates -/

theorem saved_coords {e : Endian} {bytes : Bytes} {env : NumEnv ρ κ} {rec : Row → β → Except PyErr (List Val)}
    {colWords : Col κ → Except PyErr (List Val)} {name : Text} {b : Builder κ β} {f : DMFile}
    (s : IsStation rec colWords name b f) (hs : save e f = .ok bytes) {c : Col κ} (hc : c ∈ b.columnHeaders) :
    ∃ vs, colWords c = .ok vs := by
  obtain ⟨vss, h1, _⟩ := (save_spec s.wf hs).head.columnHeaders
  rw [s.columnHeaders] at h1
  have : colWords c ∈ vss.map Except.ok := by rw [← h1]; exact List.mem_map_of_mem hc
  obtain ⟨vs, _, h⟩ := List.mem_map.1 this
  exact ⟨vs, h.symm⟩

/-! ## Cells -/

theorem pickEach_spec (fs : List F32) (ns : List Text) (k : Nat) (h : fs.length = k + ns.length) :
    pickEach .flt fs ns k = .ok (ns.zip ((fs.drop k).map .flt)) := by
  induction ns generalizing k with
  | nil => rfl
  | cons n ns ih =>
    rw [List.length_cons] at h
    have hk : k < fs.length := by omega
    unfold pickEach
    rw [List.getElem?_eq_getElem hk]
    dsimp only
    rw [ih (k + 1) (by omega), List.drop_eq_getElem_cons hk]
    rfl

/-- The record of a surface cell. -/
theorem surfacePart_spec {e : Endian} {bytes : Bytes} {env : NumEnv ρ κ} {i : DMInfo} (ho : i.order = e) {row : Row} {vs : List ρ}
    {ws : List Val} {n : Nat} (hn : 1 ≤ n) (hw : sfRecord env row vs = .ok ws) (hh : HoldsW e bytes n ws) (nm : Text) (names : List Text)
    (hl : vs.length = names.length) :
    ∃ fs : List F32, List.Forall₂ (fun v f => env.f32 v = .ok f) vs fs ∧
      surfacePart i bytes (stationPart nm names).info (stationPart nm names).readBack n = .ok (names.zip (fs.map .flt)) := by
  unfold sfRecord at hw
  obtain ⟨ds, h1, h2⟩ := Except.bind_ok hw
  obtain rfl := Except.ok.inj h2
  obtain ⟨fs, rfl, h3⟩ := floatWords_inv h1
  have hlen := h3.length_eq
  refine ⟨fs, h3, ?_⟩
  have hr : readRecord i bytes (stationPart nm names).info n .f32 = .ok ((fs.map Val.flt).map canonW) := by
    subst ho
    refine readRecord_spec (hdr := [.int (timeWord row.2)]) hn hh rfl ?_ ?_
    · rw [List.length_map, List.length_singleton, hlen]
    · intro v hv
      obtain ⟨f, _, rfl⟩ := List.mem_map.1 hv
      rfl
  unfold surfacePart
  rw [if_pos (show (stationPart nm names).info.dataType = 1 from rfl), hr, ok_bind, fltOf_canon, ok_bind]
  have := pickEach_spec fs names 0 (by omega)
  rw [List.drop_zero] at this
  exact this

end Gempak
