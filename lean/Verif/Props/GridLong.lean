import Verif.Props.GridSeen

/-!
# C16: lead times that make a file unreadable

Hours and minutes of a lead time are written one after the other behind the number of the forecast type.  From 400000 on the number names no
type, and the whole file cannot be opened.
-/

namespace Gempak
open Spec

/-- A time that cannot be read. -/
structure Spec.When.TooLong (w : When) : Prop extends w.Stamped where
  number : 400000 ≤ w.stamp

/-- A time that can be read, though maybe not as it was. -/
structure Spec.When.Numbered (w : When) : Prop where
  date : w.date.Valid
  clock : w.clock.Valid
  minutes : 0 ≤ w.minutes
  number : 0 ≤ w.stamp ∧ w.stamp < 400000

/-- What is read: the last two digits as minutes, the three before them as hours. -/
def Spec.When.taken (w : When) : When := { w with hours := w.stamp % 100000 / 100, minutes := w.stamp % 100 }

/-- Entries whose times and names can be read. -/
structure Spec.GEntry.Numbered (e : GEntry) : Prop where
  first : e.first.Numbered
  second : ∀ w, e.second = some w → w.Numbered
  name : Decodable e.name

/-- An entry as it is read. -/
def Spec.GEntry.taken (e : GEntry) : GEntry :=
  { e with first := e.first.taken, second := e.second.map When.taken, name := seenName e.name }

theorem convertFtime_long {w : When} (h : w.TooLong) : convertFtime w.stamp = .error .valueError := by
  have h1 : 400000 ≤ w.stamp := h.number
  unfold convertFtime
  rw [if_pos (by omega)]
  dsimp only
  rw [if_neg (by omega)]

theorem convertFtime_numbered {w : When} (h : w.Numbered) :
    convertFtime w.stamp = .ok (some (w.stamp / 100000, w.taken.hours * 60 + w.taken.minutes)) := by
  obtain ⟨h1, h2⟩ := h.number
  unfold convertFtime
  rw [if_pos h1]
  dsimp only
  rw [if_pos (by omega)]
  unfold When.taken
  dsimp only
  have e1 : w.stamp - w.stamp / 100000 * 100000 = w.stamp % 100000 := by omega
  have e2 : w.stamp % 100000 - w.stamp % 100000 / 100 * 100 = w.stamp % 100 := by omega
  rw [e1, e2]

theorem Spec.When.Numbered.stamped {w : When} (h : w.Numbered) (ht : w.type ≤ 3) : w.Stamped := by
  obtain ⟨h1, h2⟩ := h.number
  refine ⟨h.date, h.clock, h.minutes, ?_⟩
  unfold When.stamp at h1 h2
  rw [abs_le]
  omega

theorem Spec.When.Numbered.legible {w : When} (h : w.Numbered) : w.taken.Legible := by
  refine ⟨h.date, h.clock, ?_, ?_⟩
  · show 0 ≤ w.stamp % 100000 / 100 ∧ w.stamp % 100000 / 100 < 1000
    omega
  · show 0 ≤ w.stamp % 100 ∧ w.stamp % 100 < 100
    omega

/-- The words of a header. -/
theorem gcolWords_numbers {e : GEntry} (h1 : 0 ≤ e.first.minutes) (h2 : ∀ w, e.second = some w → 0 ≤ w.minutes) :
    gcolWords e.col = .ok [.int (gdtWord e.first.gdate), .int e.first.stamp,
      .int (gdt2Word (e.second.map When.gdate)), .int ((e.second.map When.stamp).getD 0), .int e.level, .int e.level2, .int (coordNumber e.coord),
      nameWord (chunks e.name).1, nameWord (chunks e.name).2.1, nameWord (chunks e.name).2.2] := by
  have ht2 : gtmWord (secondLead e.second) = .ok ((e.second.map When.stamp).getD 0) := by
    cases hsec : e.second with
    | none => decide +kernel
    | some w => exact gtmWord_stamped (h2 w hsec)
  unfold gcolWords GEntry.col
  dsimp only
  rw [gtmWord_stamped h1, ok_bind, ht2, ok_bind]

/-- The second time in a header. -/
def secondTaken (s : Option When) : GVal × GVal :=
  match s with
  | none => (.dattim none, .ftime (some (0, 0)))
  | some w => (.dattim (some (startOf w)), .ftime (some (w.stamp / 100000, w.taken.hours * 60 + w.taken.minutes)))

/-- The header read for an entry. -/
def headTaken (e : GEntry) : GHeader :=
  [(txt "GDT1", .dattim (some (startOf e.first))), (txt "GTM1", .ftime (some (e.first.stamp / 100000, e.first.taken.hours * 60 + e.first.taken.minutes))),
    (txt "GDT2", (secondTaken e.second).1), (txt "GTM2", (secondTaken e.second).2), (txt "GLV1", .level (listedLevel e.level)),
    (txt "GLV2", .level (listedLevel e.level2)), (txt "GVCD", .text (verticalNamesUpper.getD (coordNumber e.coord) [])),
    (txt "GPM1", .text (strip ((inWord (e.name.take 4)).getD []))), (txt "GPM2", .text (strip ((inWord ((e.name.drop 4).take 4)).getD []))),
    (txt "GPM3", .text (strip ((inWord (e.name.drop 8)).getD [])))]

theorem header_taken {e : GEntry} {nx ny : Nat} (o : Endian) (h : e.Numbered) (hs : e.Sound nx ny) (ht : e.Typed) {vs : List Val}
    (hv : gcolWords e.col = .ok vs) :
    vs.map Val.fmt = gridColumns.map (fun k => (gridKey k).fmt) ∧ convGHeader o gridColumns (vs.map stored) = .ok (headTaken e) := by
  obtain rfl := Except.ok.inj (hv.symm.trans (gcolWords_numbers h.first.minutes fun w hw => (h.second w hw).minutes))
  obtain ⟨k1, k2, k3, k4, k5, k6, k7, k8, k9, k10⟩ := gridKey_cols
  constructor
  · have : gridColumns.map (fun k => (gridKey k).fmt) = (gridColumns.map gridKey).map GKind.fmt := by rw [List.map_map]; rfl
    rw [this, gridKeys]; rfl
  obtain ⟨c1, c2, c3⟩ := chunk_eq hs.name.2
  obtain ⟨n1, n2, n3⟩ := h.name
  unfold gridColumns headTaken
  simp only [List.map_cons, List.map_nil]
  refine convGHeader_cons k1 ?_ (convGHeader_cons k2 ?_ (convGHeader_cons k3 ?_ (convGHeader_cons k4 ?_ (convGHeader_cons k5 rfl
    (convGHeader_cons k6 rfl (convGHeader_cons k7 ?_ (convGHeader_cons k8 ?_ (convGHeader_cons k9 ?_ (convGHeader_cons k10 ?_ rfl)))))))))
  · show (convertDattim (gdtWord e.first.gdate) >>= fun d => Except.ok (GVal.dattim d)) = _
    rw [convertDattim_stamped (h.first.stamped ht.first)]; rfl
  · show (convertFtime e.first.stamp >>= fun d => Except.ok (GVal.ftime d)) = _
    rw [convertFtime_numbered h.first]; rfl
  · show (convertDattim (gdt2Word (e.second.map When.gdate)) >>= fun d => Except.ok (GVal.dattim d)) = _
    cases hsec : e.second with
    | none => rfl
    | some w =>
      show (convertDattim (gdtWord w.gdate) >>= fun d => Except.ok (GVal.dattim d)) = _
      rw [convertDattim_stamped ((h.second w hsec).stamped (ht.second w hsec))]; rfl
  · show (convertFtime ((e.second.map When.stamp).getD 0) >>= fun d => Except.ok (GVal.ftime d)) = _
    cases hsec : e.second with
    | none => rfl
    | some w =>
      show (convertFtime w.stamp >>= fun d => Except.ok (GVal.ftime d)) = _
      rw [convertFtime_numbered (h.second w hsec)]; rfl
  · show (convertCoord o (coordNumber e.coord : Nat) >>= fun d => Except.ok (GVal.text d)) = _
    have := coordNumber_lt hs.coord
    unfold convertCoord
    rw [if_pos (by omega), if_pos (by omega), Int.toNat_natCast]
    rfl
  · show (textOf (stored (nameWord (chunks e.name).1))).map GVal.text = _
    rw [c1, nameWord_ljust, stored_nameWord, if_pos n1]; rfl
  · show (textOf (stored (nameWord (chunks e.name).2.1))).map GVal.text = _
    rw [c2, nameWord_ljust, stored_nameWord, if_pos n2]; rfl
  · show (textOf (stored (nameWord (chunks e.name).2.2))).map GVal.text = _
    rw [c3, nameWord_ljust, stored_nameWord, if_pos n3]; rfl

/-- What is listed for an entry. -/
def infoTaken (n : Nat) (e : GEntry) : GridInfo :=
  ⟨n, e.first.stamp / 100000, addMinutes (startOf e.first) (e.first.taken.hours * 60 + e.first.taken.minutes),
    e.second.map (fun w => addMinutes (startOf w) (w.taken.hours * 60 + w.taken.minutes)), seenName e.name, listedLevel e.level, listedLevel e.level2,
    verticalNamesUpper.getD (coordNumber e.coord) []⟩

theorem gridInfo_taken (n : Nat) (e : GEntry) : gridInfo n (headTaken e) = .ok (infoTaken n e) := by
  have hn : ((headTaken e).map Prod.fst).Nodup := by
    show ([txt "GDT1", txt "GTM1", txt "GDT2", txt "GTM2", txt "GLV1", txt "GLV2", txt "GVCD", txt "GPM1", txt "GPM2", txt "GPM3"]).Nodup
    decide +kernel
  obtain ⟨g1, g2, g3, g4, g5, g6, g7, g8, g9, g10⟩ : dictGet (headTaken e) (txt "GDT1") = some (.dattim (some (startOf e.first))) ∧
      dictGet (headTaken e) (txt "GTM1") = some (.ftime (some (e.first.stamp / 100000, e.first.taken.hours * 60 + e.first.taken.minutes))) ∧
      dictGet (headTaken e) (txt "GDT2") = some (secondTaken e.second).1 ∧
      dictGet (headTaken e) (txt "GTM2") = some (secondTaken e.second).2 ∧
      dictGet (headTaken e) (txt "GLV1") = some (.level (listedLevel e.level)) ∧
      dictGet (headTaken e) (txt "GLV2") = some (.level (listedLevel e.level2)) ∧
      dictGet (headTaken e) (txt "GVCD") = some (.text (verticalNamesUpper.getD (coordNumber e.coord) [])) ∧
      dictGet (headTaken e) (txt "GPM1") = some (.text (strip ((inWord (e.name.take 4)).getD []))) ∧
      dictGet (headTaken e) (txt "GPM2") = some (.text (strip ((inWord ((e.name.drop 4).take 4)).getD []))) ∧
      dictGet (headTaken e) (txt "GPM3") = some (.text (strip ((inWord (e.name.drop 8)).getD []))) := by
    simp only [dictGet_eq_some hn]
    unfold headTaken
    simp
  have a1 : ghValid (headTaken e) =
      .ok (e.first.stamp / 100000, addMinutes (startOf e.first) (e.first.taken.hours * 60 + e.first.taken.minutes)) := by
    unfold ghValid ghLead ghDate ghGet
    rw [g1, g2]; rfl
  have a2 : ghValid2 (headTaken e) = .ok (e.second.map fun w => addMinutes (startOf w) (w.taken.hours * 60 + w.taken.minutes)) := by
    unfold ghValid2 ghLead ghDate ghGet
    rw [g3, g4]
    cases e.second <;> rfl
  have a3 : ghName (headTaken e) = .ok (seenName e.name) := by
    unfold ghName ghText ghGet
    rw [g8, g9, g10]
    rfl
  have a4 : ghLevel (headTaken e) (txt "GLV1") = .ok (listedLevel e.level) := by unfold ghLevel ghGet; rw [g5]; rfl
  have a5 : ghLevel (headTaken e) (txt "GLV2") = .ok (listedLevel e.level2) := by unfold ghLevel ghGet; rw [g6]; rfl
  have a6 : ghText (headTaken e) (txt "GVCD") = .ok (verticalNamesUpper.getD (coordNumber e.coord) []) := by
    unfold ghText ghGet; rw [g7]; rfl
  unfold gridInfo infoTaken
  rw [a1, ok_bind, a2, ok_bind, a3, ok_bind, a4, ok_bind, a5, ok_bind, a6, ok_bind]

theorem info_taken {e : GEntry} {nx ny : Nat} (n : Nat) (h : e.Numbered) (hs : e.Sound nx ny) :
    IsGridListed e.taken { infoTaken n e with type := e.first.type } ∧ (infoTaken n e).type = e.first.stamp / 100000 := by
  refine ⟨⟨rfl, valid_of_legible h.first.legible, ?_, rfl, rfl, rfl, coordNumber_listed hs.coord⟩, rfl⟩
  cases hsec : e.second with
  | none => left; exact ⟨by unfold GEntry.taken; rw [hsec]; rfl, by unfold infoTaken; rw [hsec]; rfl⟩
  | some w =>
    right
    exact ⟨w.taken, _, by unfold GEntry.taken; rw [hsec]; rfl, by unfold infoTaken; rw [hsec]; rfl, valid_of_legible (h.second w hsec).legible⟩

/-- C16 for all lead times whose number names a type, negative ones and long ones too: each grid is listed, at the time and of the type this number
is read as (`Spec.When.taken`), with all else as it was given. -/
theorem C16_numbers (env : GridEnv) (hr : env.Rounds) (nx ny : Nat) (proj : Text) (corners angles : List F32) (delta : F32)
    (bits : Nat) (hproj : proj ∈ knownProjections) (hcorners : corners.length = 4) (hangles : angles.length = 3)
    (hx : nx < 2 ^ 24) (hy : ny < 2 ^ 24) (rs : List GridReq)
    (hok : AllOk env (newGrid nx ny proj corners angles delta bits) rs) (hl : ∀ e ∈ gAccepted env nx ny rs, e.Numbered)
    (e host : Endian) (bytes : Bytes)
    (hsave : saveGrid env e (runGrid env (newGrid nx ny proj corners angles delta bits) rs) = .ok bytes) :
    ∃ (f : GridFileR) (P : List GEntry), openGrid host bytes = .ok f ∧ P.Perm (gfinal (gAccepted env nx ny rs)) ∧
      List.Forall₂ (fun x g => IsGridListed x.taken { g with type := x.first.type } ∧ g.type = x.first.stamp / 100000) P f.grids := by
  obtain ⟨_, h2, h3⟩ := C19_grid_history env nx ny proj corners angles delta bits rs hok
  have h := new_history env _ (GHistory.new nx ny proj corners angles delta bits) rs
  have hs := entries_sound (env := env) (nx := nx) (ny := ny) (rs := rs)
  have ht := gAccepted_typed (env := env) (nx := nx) (ny := ny) (rs := rs)
  obtain ⟨hcol, P, hP, hPc, _⟩ := h.table hs h2 h3
  have hPe : ∀ x ∈ P, x ∈ gAccepted env nx ny rs := by
    intro x hx
    have hm : x ∈ gfinal (gAccepted env nx ny rs) := hP.mem_iff.1 hx
    rw [gfinal_eq hs] at hm
    exact finalBy_sub hm
  have hreg : (runGrid env (newGrid nx ny proj corners angles delta bits) rs).Regular :=
    ⟨by rw [h.corners]; exact hcorners, by rw [h.angles]; exact hangles, by rw [h.proj]; exact hproj⟩
  obtain ⟨_, _, fx, fy, e1, e2, hsv⟩ := saveGrid_inv hsave
  rw [h.nx] at e1
  rw [h.ny] at e2
  obtain ⟨_, e1', v1⟩ := hr.nat hx
  obtain ⟨_, e2', v2⟩ := hr.nat hy
  obtain rfl := Except.ok.inj (e1.symm.trans e1')
  obtain rfl := Except.ok.inj (e2.symm.trans e2')
  have hopen := openGrid_spec (env := env) (host := host) hreg hcol hsv v1 v2 hPc headTaken infoTaken
    (fun c hc' vs hv => header_taken e (hl c (hPe c hc')) (hs c (hPe c hc')) (ht c (hPe c hc')) hv)
    (fun c _ n => gridInfo_taken n c)
  refine ⟨_, P, hopen, hP, forall₂_zipIdx P 0 ?_⟩
  intro x hx'
  have hxP : x.1 ∈ P := List.fst_mem_of_mem_zipIdx hx'
  exact info_taken x.2 (hl _ (hPe _ hxP)) (hs _ (hPe _ hxP))

/-- The column header of an entry whose lead time is too long. -/
theorem header_long {e : GEntry} (o : Endian) (h : e.first.TooLong) (h2 : ∀ w, e.second = some w → w.Stamped)
    {vs : List Val} (hv : gcolWords e.col = .ok vs) :
    vs.map Val.fmt = gridColumns.map (fun k => (gridKey k).fmt) ∧ convGHeader o gridColumns (vs.map stored) = .error .valueError := by
  obtain rfl := Except.ok.inj (hv.symm.trans (gcolWords_numbers h.minutes fun w hw => (h2 w hw).minutes))
  obtain ⟨k1, k2, k3, k4, k5, k6, k7, k8, k9, k10⟩ := gridKey_cols
  constructor
  · have : gridColumns.map (fun k => (gridKey k).fmt) = (gridColumns.map gridKey).map GKind.fmt := by rw [List.map_map]; rfl
    rw [this, gridKeys]; rfl
  unfold gridColumns
  simp only [List.map_cons, List.map_nil]
  refine convGHeader_error (x := .dattim (some (startOf e.first))) k1 ?_ (convGHeader_here k2 ?_)
  · show (convertDattim (gdtWord e.first.gdate) >>= fun d => Except.ok (GVal.dattim d)) = _
    rw [convertDattim_stamped h.toStamped]; rfl
  · show (convertFtime e.first.stamp >>= fun d => Except.ok (GVal.ftime d)) = _
    rw [convertFtime_long h]; rfl

/-- **C16 (deviation).** Whenever the number written for the lead time of a grid in the file is 400000 or more, the file is written but cannot be
opened, whatever else is in it. -/
theorem C16_too_long (env : GridEnv) (nx ny : Nat) (proj : Text) (corners angles : List F32) (delta : F32)
    (bits : Nat) (hproj : proj ∈ knownProjections) (hcorners : corners.length = 4) (hangles : angles.length = 3) (rs : List GridReq)
    (hok : AllOk env (newGrid nx ny proj corners angles delta bits) rs)
    (hl : ∀ x ∈ gAccepted env nx ny rs, x.Numbered ∨ x.first.TooLong ∧ ∀ w, x.second = some w → w.Stamped)
    (hbad : ∃ x ∈ gfinal (gAccepted env nx ny rs), x.first.TooLong) (e host : Endian) (bytes : Bytes)
    (hsave : saveGrid env e (runGrid env (newGrid nx ny proj corners angles delta bits) rs) = .ok bytes) :
    openGrid host bytes = .error .valueError := by
  obtain ⟨_, h2, h3⟩ := C19_grid_history env nx ny proj corners angles delta bits rs hok
  have h := new_history env _ (GHistory.new nx ny proj corners angles delta bits) rs
  have hs := entries_sound (env := env) (nx := nx) (ny := ny) (rs := rs)
  have ht := gAccepted_typed (env := env) (nx := nx) (ny := ny) (rs := rs)
  obtain ⟨hcol, P, hP, hPc, _⟩ := h.table hs h2 h3
  have hPe : ∀ x ∈ P, x ∈ gAccepted env nx ny rs := by
    intro x hx
    have hm : x ∈ gfinal (gAccepted env nx ny rs) := hP.mem_iff.1 hx
    rw [gfinal_eq hs] at hm
    exact finalBy_sub hm
  have hreg : (runGrid env (newGrid nx ny proj corners angles delta bits) rs).Regular :=
    ⟨by rw [h.corners]; exact hcorners, by rw [h.angles]; exact hangles, by rw [h.proj]; exact hproj⟩
  obtain ⟨_, _, fx, fy, _, _, hsv⟩ := saveGrid_inv hsave
  refine openGrid_fails hreg hcol hsv ?_ ?_
  · intro c hc vs hv
    rw [← hPc] at hc
    obtain ⟨x, hx, rfl⟩ := List.mem_map.1 hc
    have hxe := hPe x hx
    rcases hl x hxe with hd | ⟨hd, hd2⟩
    · obtain ⟨q1, q2⟩ := header_taken e hd (hs x hxe) (ht x hxe) hv
      exact ⟨q1, Or.inr ⟨_, q2⟩⟩
    · obtain ⟨q1, q2⟩ := header_long e hd hd2 hv
      exact ⟨q1, Or.inl q2⟩
  · obtain ⟨x, hx, hd⟩ := hbad
    have hxP := hP.mem_iff.2 hx
    refine ⟨x.col, hPc ▸ List.mem_map_of_mem hxP, fun vs hv => (header_long e hd ?_ hv).2⟩
    rcases hl x (hPe x hxP) with hr | ⟨_, hr⟩
    · exact fun w hw => (hr.second w hw).stamped ((ht x (hPe x hxP)).second w hw)
    · exact hr

/-! ### Lead times of 300 hours and 100 minutes, of 100 hours and 100 minutes, and of twelve hours before -/

/-- A host that reads the texts of the examples. -/
noncomputable def longEnv : GridEnv :=
  { sampleEnv with
    parseTime := fun t => if t = txt "202002290600" then .ok (⟨2020, 2, 29⟩, ⟨6, 0, 0, 0⟩) else .error .valueError
    parseInt := fun t => if t = txt "300" then .ok 300 else if t = txt "100" then .ok 100 else if t = txt "-12" then .ok (-12) else .error .valueError }

/-- A request: the grid for a text. -/
def longReq (t : Text) : GridReq := { sampleReq 3 with dateTime := .str t }

/-- Its entry: hours and minutes after six o'clock. -/
def longEntry (h m : Int) : GEntry := { sampleEntry 3 with first := ⟨1, ⟨2020, 2, 29⟩, ⟨6, 0, 0, 0⟩, h, m⟩ }

theorem long_entry {t : Text} {h m : Int} (h4 : firstOf longEnv (.str t) = some ⟨1, ⟨2020, 2, 29⟩, ⟨6, 0, 0, 0⟩, h, m⟩) :
    gEntry longEnv 3 3 (longReq t) = some (longEntry h m) := by
  have hl : levelOf (.num 500) = some 500 := by
    unfold levelOf; norm_num
  unfold gEntry
  rw [if_pos ⟨rfl, by
    intro row h
    simp only [longReq, sampleReq, List.mem_cons, List.not_mem_nil, or_false] at h
    rcases h with rfl | rfl | rfl <;> rfl⟩]
  have h1 : nameOf longEnv (longReq t).name = some (txt "TMPK") := by
    show nameOf longEnv (txt "TMPK") = _
    unfold nameOf longEnv sampleEnv; decide
  have h2 : coordOf longEnv (longReq t).vcoord = some (txt "pres") := by
    show coordOf longEnv (some (txt "pres")) = _
    unfold coordOf longEnv sampleEnv; decide
  have h3 : levelOf (longReq t).level = some 500 := hl
  have h4 : firstOf longEnv (longReq t).dateTime = _ := h4
  rw [h1, h2, h3, h4]
  rfl

theorem longEnv_rounds : longEnv.Rounds := ⟨sampleEnv_rounds.1, sampleEnv_rounds.2⟩

/-- The file is written. -/
theorem long_writes {t : Text} {h m : Int} (h4 : firstOf longEnv (.str t) = some ⟨1, ⟨2020, 2, 29⟩, ⟨6, 0, 0, 0⟩, h, m⟩)
    (hw : (longEntry h m).first.Stamped) (proj : Text) (corners angles : List F32) (delta : F32) (hproj : proj ∈ knownProjections)
    (hcorners : corners.length = 4) (hangles : angles.length = 3) (e : Endian) :
    ∃ bytes, saveGrid longEnv e (runGrid longEnv (newGrid 3 3 proj corners angles delta (16 : ℕ)) [longReq t]) = .ok bytes := by
  obtain ⟨hall, hacc, hfin⟩ := single_history (long_entry h4) proj corners angles delta 16
  have base := (sample_conditions 3 3 (by norm_num) (by norm_num) proj corners angles delta).2.1 (sampleEntry 3)
    (by rw [sample_history]; exact List.mem_cons_self)
  exact C16_writes longEnv longEnv_rounds 3 3 proj corners angles delta 16 hproj hcorners hangles (by omega) (by omega)
    (by norm_num) (by omega) (by omega) (by norm_num) _ hall (by
      rw [hacc]
      intro x hx
      rw [List.mem_singleton.1 hx]
      exact ⟨hw, fun w hw => by cases hw⟩) (by
      rw [hacc]
      intro x hx
      rw [List.mem_singleton.1 hx]
      exact ⟨base.2.level, base.2.level2, base.2.3, base.2.4⟩) (by rw [hfin]; norm_num) e

theorem log_100 : Nat.log 10 100 = 2 := by
  rw [Nat.log_eq_iff (Or.inl (by norm_num))]; norm_num

/-- **C16 does not hold for lead times whose digits fill more than their word**: the file of a grid added for 300 hours and 100 minutes after six o'clock is
written, and cannot be opened. -/
theorem C16_lead_unreadable (proj : Text) (corners angles : List F32) (delta : F32) (hproj : proj ∈ knownProjections) (hcorners : corners.length = 4)
    (hangles : angles.length = 3) (e host : Endian) :
    AllOk longEnv (newGrid 3 3 proj corners angles delta (16 : ℕ)) [longReq (txt "202002290600F300100")] ∧
      ∃ bytes, saveGrid longEnv e (runGrid longEnv (newGrid 3 3 proj corners angles delta (16 : ℕ)) [longReq (txt "202002290600F300100")]) = .ok bytes ∧
        openGrid host bytes = .error .valueError := by
  have h4 : firstOf longEnv (.str (txt "202002290600F300100")) = some ⟨1, ⟨2020, 2, 29⟩, ⟨6, 0, 0, 0⟩, 300, 100⟩ := by
    unfold firstOf whenOf leadOf longEnv sampleEnv; decide
  obtain ⟨hall, hacc, hfin⟩ := single_history (long_entry h4) proj corners angles delta 16
  have hd : (longEntry 300 100).first.digits = 300100 := by
    show When.digits ⟨1, ⟨2020, 2, 29⟩, ⟨6, 0, 0, 0⟩, 300, 100⟩ = _
    unfold When.digits
    rw [show (Int.toNat 100) = 100 from rfl, log_100]
    rfl
  have hlong : (longEntry 300 100).first.TooLong := by
    refine ⟨⟨by decide, by decide, by decide, by rw [hd]; decide⟩, ?_⟩
    unfold When.stamp
    rw [hd]
    decide
  obtain ⟨bytes, hb⟩ := long_writes h4 hlong.toStamped proj corners angles delta hproj hcorners hangles e
  refine ⟨hall, bytes, hb, ?_⟩
  refine C16_too_long longEnv 3 3 proj corners angles delta 16 hproj hcorners hangles _ hall ?_ ?_ e host bytes hb
  · rw [hacc]
    intro x hx
    rw [List.mem_singleton.1 hx]
    exact Or.inr ⟨hlong, fun w hw => by cases hw⟩
  · rw [hfin]
    exact ⟨_, List.mem_singleton_self _, hlong⟩

/-- What is listed for one grid. -/
theorem long_listed {t : Text} {h m : Int} (h4 : firstOf longEnv (.str t) = some ⟨1, ⟨2020, 2, 29⟩, ⟨6, 0, 0, 0⟩, h, m⟩)
    (hn : (longEntry h m).first.Numbered) (proj : Text) (corners angles : List F32) (delta : F32) (hproj : proj ∈ knownProjections)
    (hcorners : corners.length = 4) (hangles : angles.length = 3) (e host : Endian) :
    AllOk longEnv (newGrid 3 3 proj corners angles delta (16 : ℕ)) [longReq t] ∧
      ∃ bytes f g, saveGrid longEnv e (runGrid longEnv (newGrid 3 3 proj corners angles delta (16 : ℕ)) [longReq t]) = .ok bytes ∧
        openGrid host bytes = .ok f ∧ f.grids = [g] ∧ IsValidTime (longEntry h m).first.taken g.time1 ∧
        g.type = (longEntry h m).first.stamp / 100000 := by
  obtain ⟨hall, hacc, hfin⟩ := single_history (long_entry h4) proj corners angles delta 16
  obtain ⟨bytes, hb⟩ := long_writes h4 (hn.stamped (show 1 ≤ 3 by decide)) proj corners angles delta hproj hcorners hangles e
  obtain ⟨f, P, f1, f2, f3⟩ := C16_numbers longEnv longEnv_rounds 3 3 proj corners angles delta 16 hproj hcorners hangles (by norm_num)
    (by norm_num) _ hall (by
      rw [hacc]
      intro x hx
      rw [List.mem_singleton.1 hx]
      exact ⟨hn, fun w hw => (by cases hw), show Decodable (sampleEntry 3).name by decide +kernel⟩) e host bytes hb
  rw [hfin] at f2
  obtain rfl := List.perm_singleton.1 f2
  refine ⟨hall, bytes, f, ?_⟩
  generalize f.grids = gs at f3 ⊢
  rcases f3 with _ | ⟨hg, _ | _⟩
  exact ⟨_, hb, f1, rfl, hg.1.time1, hg.2⟩

/-- **C16 does not hold for negative lead times**: a grid added for twelve hours before six o'clock is listed as an analysis for 988 hours
after it. -/
theorem C16_lead_negative (proj : Text) (corners angles : List F32) (delta : F32) (hproj : proj ∈ knownProjections) (hcorners : corners.length = 4)
    (hangles : angles.length = 3) (e host : Endian) :
    AllOk longEnv (newGrid 3 3 proj corners angles delta (16 : ℕ)) [longReq (txt "202002290600F-12")] ∧
      ∃ bytes f g, saveGrid longEnv e (runGrid longEnv (newGrid 3 3 proj corners angles delta (16 : ℕ)) [longReq (txt "202002290600F-12")]) = .ok bytes ∧
        openGrid host bytes = .ok f ∧ f.grids = [g] ∧ instant g.time1 = instant (⟨2020, 2, 29⟩, ⟨6, 0, 0, 0⟩) + 988 * 3600000000 ∧ g.type = 0 := by
  have h4 : firstOf longEnv (.str (txt "202002290600F-12")) = some ⟨1, ⟨2020, 2, 29⟩, ⟨6, 0, 0, 0⟩, -12, 0⟩ := by
    unfold firstOf whenOf leadOf longEnv sampleEnv; decide
  have hd : (longEntry (-12) 0).first.stamp = 98800 := by
    show When.stamp ⟨1, ⟨2020, 2, 29⟩, ⟨6, 0, 0, 0⟩, -12, 0⟩ = _
    unfold When.stamp When.digits
    rw [show (Int.toNat 0) = 0 from rfl, Nat.log_zero_right]
    rfl
  have hn : (longEntry (-12) 0).first.Numbered := ⟨by decide, by decide, by decide, by rw [hd]; decide⟩
  obtain ⟨hall, bytes, f, g, h1, h2, h3, h5, h6⟩ := long_listed h4 hn proj corners angles delta hproj hcorners hangles e host
  refine ⟨hall, bytes, f, g, h1, h2, h3, ?_, by rw [h6, hd]; rfl⟩
  rw [h5.instant]
  show _ + ((longEntry (-12) 0).first.stamp % 100000 / 100 * 60 + (longEntry (-12) 0).first.stamp % 100) * 60000000 = _
  rw [hd]
  decide +kernel

/-- **C16 does not hold for lead times that run into the type**: a forecast 100 hours and 100 minutes after six o'clock is listed as a guess for
seven o'clock. -/
theorem C16_lead_type (proj : Text) (corners angles : List F32) (delta : F32) (hproj : proj ∈ knownProjections) (hcorners : corners.length = 4)
    (hangles : angles.length = 3) (e host : Endian) :
    AllOk longEnv (newGrid 3 3 proj corners angles delta (16 : ℕ)) [longReq (txt "202002290600F100100")] ∧
      ∃ bytes f g, saveGrid longEnv e (runGrid longEnv (newGrid 3 3 proj corners angles delta (16 : ℕ)) [longReq (txt "202002290600F100100")]) = .ok bytes ∧
        openGrid host bytes = .ok f ∧ f.grids = [g] ∧ instant g.time1 = instant (⟨2020, 2, 29⟩, ⟨7, 0, 0, 0⟩) ∧ g.type = 2 := by
  have h4 : firstOf longEnv (.str (txt "202002290600F100100")) = some ⟨1, ⟨2020, 2, 29⟩, ⟨6, 0, 0, 0⟩, 100, 100⟩ := by
    unfold firstOf whenOf leadOf longEnv sampleEnv; decide
  have hd : (longEntry 100 100).first.stamp = 200100 := by
    show When.stamp ⟨1, ⟨2020, 2, 29⟩, ⟨6, 0, 0, 0⟩, 100, 100⟩ = _
    unfold When.stamp When.digits
    rw [show (Int.toNat 100) = 100 from rfl, log_100]
    rfl
  have hn : (longEntry 100 100).first.Numbered := ⟨by decide, by decide, by decide, by rw [hd]; decide⟩
  obtain ⟨hall, bytes, f, g, h1, h2, h3, h5, h6⟩ := long_listed h4 hn proj corners angles delta hproj hcorners hangles e host
  refine ⟨hall, bytes, f, g, h1, h2, h3, ?_, by rw [h6, hd]; rfl⟩
  rw [h5.instant]
  show _ + ((longEntry 100 100).first.stamp % 100000 / 100 * 60 + (longEntry 100 100).first.stamp % 100) * 60000000 = _
  rw [hd]
  decide +kernel

end Gempak
