import Verif.Props.GridFile

/-!
# C16: names and lead times that do not fit their words

Names are cut to four bytes for every four characters: a character cut in the middle makes the whole file unreadable.  Lead times with a
hundred minutes or more are read as other times.
-/

namespace Gempak
open Spec

/-! ## Headers that cannot be read -/

theorem readHeaders_mapM {α : Type} {e : Endian} {b : Bytes} {fs : List Fmt} (conv : List Val → Except PyErr α) :
    ∀ (n : Nat) (p : Int) (vss : List (List Val)), readHeaders e b fs Except.ok n p = .ok vss →
      readHeaders e b fs conv n p = vss.mapM conv := by
  intro n
  induction n with
  | zero =>
    intro p vss h
    obtain rfl := Except.ok.inj h
    rfl
  | succ n ih =>
    intro p vss h
    unfold readHeaders at h ⊢
    dsimp only at h ⊢
    by_cases hf : readWord e b p = 9999
    · rw [if_pos hf] at h ⊢
      obtain ⟨vs, h1, h⟩ := Except.bind_ok h
      obtain ⟨rest, h2, h⟩ := Except.bind_ok h
      obtain rfl := Except.ok.inj h
      obtain ⟨us, h3, h4⟩ := Except.bind_ok h1
      obtain rfl := Except.ok.inj h4
      rw [h3, ok_bind, List.mapM_cons]
      cases conv us with
      | error x => rfl
      | ok y => rw [ok_bind, ok_bind, ih _ _ h2]; rfl
    · rw [if_neg hf] at h ⊢
      exact ih _ _ h

theorem mapM_fails_with {α β : Type} {f : α → Except PyErr β} {x : PyErr} : ∀ (l : List α), (∀ a ∈ l, f a = .error x ∨ ∃ b, f a = .ok b) →
    (∃ a ∈ l, f a = .error x) → l.mapM f = .error x := by
  intro l
  induction l with
  | nil => rintro _ ⟨a, ha, _⟩; cases ha
  | cons a l ih =>
    intro hall hex
    rw [List.mapM_cons]
    rcases hall a List.mem_cons_self with h | ⟨b, h⟩
    · rw [h]; rfl
    · rw [h, ok_bind, ih (fun y hy => hall y (List.mem_cons_of_mem _ hy)) ?_]
      · rfl
      · obtain ⟨y, hy, hx⟩ := hex
        rcases List.mem_cons.1 hy with rfl | hy
        · rw [h] at hx; cases hx
        · exact ⟨y, hy, hx⟩

theorem convGHeader_error {o : Endian} {k : Text} {ks : List Text} {v : Val} {vs : List Val} {kd : GKind} {x : GVal} {err : PyErr}
    (hk : gridKey k = kd) (hx : kd.conv o v = .ok x) (hr : convGHeader o ks vs = .error err) :
    convGHeader o (k :: ks) (v :: vs) = .error err := by
  unfold convGHeader
  rw [hk, hx, ok_bind, hr]; rfl

theorem convGHeader_here {o : Endian} {k : Text} {ks : List Text} {v : Val} {vs : List Val} {kd : GKind} {err : PyErr}
    (hk : gridKey k = kd) (hx : kd.conv o v = .error err) : convGHeader o (k :: ks) (v :: vs) = .error err := by
  unfold convGHeader
  rw [hk, hx]; rfl

/-- The column header of an entry whose name cannot be decoded. -/
theorem header_unread {e : GEntry} {nx ny : Nat} (o : Endian) (h : e.Timed) (hn : ¬ Decodable e.name) (hs : e.Sound nx ny) (ht : e.Typed)
    {vs : List Val} (hv : gcolWords e.col = .ok vs) :
    vs.map Val.fmt = gridColumns.map (fun k => (gridKey k).fmt) ∧ convGHeader o gridColumns (vs.map stored) = .error .unicodeError := by
  obtain ⟨t2, ht2, hw⟩ := gcolWords_legible h ht
  obtain rfl := Except.ok.inj (hv.symm.trans hw)
  obtain ⟨k1, k2, k3, k4, k5, k6, k7, k8, k9, k10⟩ := gridKey_cols
  constructor
  · have : gridColumns.map (fun k => (gridKey k).fmt) = (gridColumns.map gridKey).map GKind.fmt := by rw [List.map_map]; rfl
    rw [this, gridKeys]; rfl
  obtain ⟨c1, c2, c3⟩ := chunk_eq hs.name.2
  unfold gridColumns
  simp only [List.map_cons, List.map_nil]
  refine convGHeader_error (x := .dattim (some (startOf e.first))) k1 ?_ (convGHeader_error (x := .ftime (some (e.first.type, e.first.seen.hours * 60 + e.first.seen.minutes))) k2 ?_
    (convGHeader_error (x := (secondGiven e.second).1) k3 ?_ (convGHeader_error (x := (secondGiven e.second).2) k4 ?_ (convGHeader_error k5 rfl
    (convGHeader_error k6 rfl (convGHeader_error (x := .text (verticalNamesUpper.getD (coordNumber e.coord) [])) k7 ?_ ?_))))))
  · show (convertDattim (gdtWord e.first.gdate) >>= fun d => Except.ok (GVal.dattim d)) = _
    rw [convertDattim_fits h.first]; rfl
  · show (convertFtime (e.first.type * 100000 + (e.first.seen.hours * 100 + e.first.seen.minutes)) >>= fun d => Except.ok (GVal.ftime d)) = _
    rw [convertFtime_legible ht.first h.first.legible.hours h.first.legible.minutes]; rfl
  · show (convertDattim (gdt2Word (e.second.map When.gdate)) >>= fun d => Except.ok (GVal.dattim d)) = _
    cases hsec : e.second with
    | none => rfl
    | some w =>
      show (convertDattim (gdtWord w.gdate) >>= fun d => Except.ok (GVal.dattim d)) = _
      rw [convertDattim_fits (h.second w hsec)]; rfl
  · show (convertFtime t2 >>= fun d => Except.ok (GVal.ftime d)) = _
    rw [ht2]
    cases e.second <;> rfl
  · show (convertCoord o (coordNumber e.coord : Nat) >>= fun d => Except.ok (GVal.text d)) = _
    have := coordNumber_lt hs.coord
    unfold convertCoord
    rw [if_pos (by omega), if_pos (by omega), Int.toNat_natCast]
    rfl
  · have good : ∀ s, (inWord s).isSome → (textOf (stored (nameWord (ljust 4 s)))).map GVal.text = .ok (.text (strip ((inWord s).getD []))) := by
      intro s hs
      rw [nameWord_ljust, stored_nameWord, if_pos hs]; rfl
    have bad : ∀ s, ¬ (inWord s).isSome → (textOf (stored (nameWord (ljust 4 s)))).map GVal.text = .error .unicodeError := by
      intro s hs
      rw [nameWord_ljust, stored_nameWord, if_neg hs]; rfl
    rw [c1, c2, c3]
    by_cases h1 : (inWord (e.name.take 4)).isSome
    · refine convGHeader_error k8 (good _ h1) ?_
      by_cases h2 : (inWord ((e.name.drop 4).take 4)).isSome
      · refine convGHeader_error k9 (good _ h2) ?_
        exact convGHeader_here k10 (bad _ fun h3 => hn ⟨h1, h2, h3⟩)
      · exact convGHeader_here k9 (bad _ h2)
    · exact convGHeader_here k8 (bad _ h1)

/-- Opening a written file of which a header cannot be read. -/
theorem openGrid_fails {env : GridEnv} {b : GridBuilder} {fx fy : F32} (hr : b.Regular) (hc : b.columns = b.columnHeaders.length) {e host : Endian} {bytes : Bytes}
    (hs : save e (gridFile env b fx fy) = .ok bytes) {x : PyErr}
    (hcol : ∀ c ∈ b.columnHeaders, ∀ vs, gcolWords c = .ok vs → vs.map Val.fmt = gridColumns.map (fun k => (gridKey k).fmt) ∧
      (convGHeader e gridColumns (vs.map stored) = .error x ∨ ∃ h, convGHeader e gridColumns (vs.map stored) = .ok h))
    (hbad : ∃ c ∈ b.columnHeaders, ∀ vs, gcolWords c = .ok vs → convGHeader e gridColumns (vs.map stored) = .error x) :
    openGrid host bytes = .error x := by
  have wf := gridFile_wf (env := env) (fx := fx) (fy := fy) hc
  have rd := gridFile_readable (env := env) (b := b) (fx := fx) (fy := fy)
  have bl := gridFile_blocky (env := env) (fx := fx) (fy := fy) hr
  have S := save_spec wf hs
  have hb := readDM_spec host wf rd S.head (readBlocks_grid S.head (proj := b.proj) (nav := gridNav b fx fy) (anl := gridAnl b) rfl rfl
    (gridNav_length hr) (gridAnl_length hr) (by rw [proj_decodes hr.proj]; rfl))
  obtain ⟨i1, vs1, a1, a2, a3⟩ := C10_row_headers e host _ bytes wf rd bl hs ([txt "GRID"].map fun _ => Fmt.i32) (by simp)
    (fun vs => vs.mapM intOf) (fun _ => [1]) (by
      intro vs hv
      have hv : Except.ok vs ∈ [Except.ok [Val.int 1]] := hv
      rw [List.mem_singleton] at hv
      obtain rfl := Except.ok.inj hv
      exact ⟨rfl, rfl⟩)
  obtain ⟨i2, vs2, b1, b2, b3⟩ := C10_column_headers e host _ bytes wf rd bl hs (gridColumns.map fun k => (gridKey k).fmt)
    (by unfold gridColumns; simp) Except.ok (fun vs => vs.map stored) (by
      intro vs hv
      have hv : Except.ok vs ∈ b.columnHeaders.map gcolWords := hv
      obtain ⟨c, hc, h⟩ := List.mem_map.1 hv
      exact ⟨(hcol c hc vs h).1, rfl⟩)
  obtain rfl := Except.ok.inj (hb.symm.trans a1)
  obtain rfl := Except.ok.inj (hb.symm.trans b1)
  have b2 : b.columnHeaders.map gcolWords = vs2.map Except.ok := b2
  have k1 : (expectedInfo e (gridFile env b fx fy) (some (expectedBlocks b.proj (gridNav b fx fy) (gridAnl b)))).rowKeys = [txt "GRID"] := rfl
  have k2 : (expectedInfo e (gridFile env b fx fy) (some (expectedBlocks b.proj (gridNav b fx fy) (gridAnl b)))).columnKeys = gridColumns := rfl
  have k4 : (expectedInfo e (gridFile env b fx fy) (some (expectedBlocks b.proj (gridNav b fx fy) (gridAnl b)))).order = e := rfl
  have n1 : checkKeys [txt "GRID"] = .ok () := by decide +kernel
  have n2 : checkKeys gridColumns = .ok () := by unfold checkKeys; rw [if_pos gridColumns_nodup]
  have words : ∀ vs, vs ∈ vs2 ↔ ∃ c ∈ b.columnHeaders, gcolWords c = .ok vs := by
    intro vs
    have : Except.ok vs ∈ b.columnHeaders.map gcolWords ↔ vs ∈ vs2 := by
      rw [b2, List.mem_map]
      exact ⟨fun ⟨y, hy, h⟩ => (Except.ok.inj h) ▸ hy, fun h => ⟨vs, h, rfl⟩⟩
    rw [← this, List.mem_map]
  have b4 := readHeaders_mapM (convGHeader e gridColumns) _ _ _ b3
  rw [mapM_fails_with (x := x)] at b4
  · unfold openGrid
    rw [hb, ok_bind, k1, n1, ok_bind, a3, ok_bind, k2, n2, ok_bind, k4]
    rw [k4] at b4
    rw [b4]
    rfl
  · intro us hu
    obtain ⟨vs, hv, rfl⟩ := List.mem_map.1 hu
    obtain ⟨c, hc', h⟩ := (words vs).1 hv
    exact (hcol c hc' vs h).2
  · obtain ⟨c, hc', h⟩ := hbad
    have : gcolWords c ∈ vs2.map Except.ok := b2 ▸ List.mem_map_of_mem hc'
    obtain ⟨vs, hv, hvc⟩ := List.mem_map.1 this
    exact ⟨_, List.mem_map_of_mem hv, h vs hvc.symm⟩

/-- **C16 (deviation).** Whenever a name in the file cannot be decoded when every four characters are cut to four bytes, the file is written but cannot
be opened, whatever else is in it. -/
theorem C16_undecodable (env : GridEnv) (nx ny : Nat) (proj : Text) (corners angles : List F32) (delta : F32)
    (bits : Nat) (hproj : proj ∈ knownProjections) (hcorners : corners.length = 4) (hangles : angles.length = 3) (rs : List GridReq)
    (hok : AllOk env (newGrid nx ny proj corners angles delta bits) rs) (hl : ∀ e ∈ gAccepted env nx ny rs, e.Timed)
    (hbad : ∃ x ∈ gfinal (gAccepted env nx ny rs), ¬ Decodable x.name) (e host : Endian) (bytes : Bytes)
    (hsave : saveGrid env e (runGrid env (newGrid nx ny proj corners angles delta bits) rs) = .ok bytes) :
    openGrid host bytes = .error .unicodeError := by
  obtain ⟨_, h2, h3⟩ := C19_grid_history env nx ny proj corners angles delta bits rs hok
  have h := new_history env _ (GHistory.new nx ny proj corners angles delta bits) rs
  have hs := entries_sound (env := env) (nx := nx) (ny := ny) (rs := rs)
  have ht := gAccepted_typed (env := env) (nx := nx) (ny := ny) (rs := rs)
  obtain ⟨hcol, P, hP, hPc, _⟩ := h.table hs h2 h3
  have hPe : ∀ x ∈ P, x ∈ gAccepted env nx ny rs := by
    intro x hx
    have hm : x ∈ gfinal (gAccepted env nx ny rs) := hP.mem_iff.1 hx
    rw [gfinal_eq hs] at hm
    exact finalBy_sub hm
  have hreg : (runGrid env (newGrid nx ny proj corners angles delta bits) rs).Regular :=
    ⟨by rw [h.corners]; exact hcorners, by rw [h.angles]; exact hangles, by rw [h.proj]; exact hproj⟩
  obtain ⟨_, _, fx, fy, _, _, hsv⟩ := saveGrid_inv hsave
  refine openGrid_fails hreg hcol hsv ?_ ?_
  · intro c hc vs hv
    rw [← hPc] at hc
    obtain ⟨x, hx, rfl⟩ := List.mem_map.1 hc
    have hxe := hPe x hx
    by_cases hd : Decodable x.name
    · obtain ⟨q1, q2⟩ := header_read e ⟨hl x hxe, hd⟩ (hs x hxe) (ht x hxe) hv
      exact ⟨q1, Or.inr ⟨_, q2⟩⟩
    · obtain ⟨q1, q2⟩ := header_unread e (hl x hxe) hd (hs x hxe) (ht x hxe) hv
      exact ⟨q1, Or.inl q2⟩
  · obtain ⟨x, hx, hd⟩ := hbad
    have hxP := hP.mem_iff.2 hx
    have hxe := hPe x hxP
    exact ⟨x.col, hPc ▸ List.mem_map_of_mem hxP, fun vs hv => (header_unread e (hl x hxe) hd (hs x hxe) (ht x hxe) hv).2⟩

/-- A 3 by 3 grid under the name `ABCÄ`: four characters, five bytes. -/
theorem multibyte_entry : gEntry sampleEnv 3 3 (namedReq (txt "ABCÄ")) = some (namedEntry (txt "ABCÄ")) :=
  named_entry (by unfold nameOf sampleEnv; decide)

/-- One accepted request makes a history. -/
theorem single_history {env : GridEnv} {nx ny : Nat} {r : GridReq} {x : GEntry} (h : gEntry env nx ny r = some x) (proj : Text)
    (corners angles : List F32) (delta : F32) (bits : Nat) :
    AllOk env (newGrid nx ny proj corners angles delta bits) [r] ∧ gAccepted env nx ny [r] = [x] ∧ gfinal (gAccepted env nx ny [r]) = [x] := by
  have hacc : gAccepted env nx ny [r] = [x] := by
    unfold gAccepted
    rw [List.filterMap_cons_some h, List.filterMap_nil]
  have hfin : gfinal [x] = [x] := by
    unfold gfinal
    rw [if_neg (by rintro ⟨y, hy, _⟩; cases hy)]
    rfl
  refine ⟨?_, hacc, hacc ▸ hfin⟩
  intro pre q post hq
  rcases pre with _ | ⟨a, pre⟩
  · obtain ⟨rfl, _⟩ := List.cons.inj hq
    rw [C19_grid, List.nil_append, hacc, hfin]
    refine ⟨by rw [h]; rfl, by simp, ?_⟩
    intro a ha b hb _
    rw [List.mem_singleton.1 ha, List.mem_singleton.1 hb]
  · have := congrArg List.length hq
    simp at this

/-- **C16 does not hold for names with characters of more than one byte**: the file of a grid named `ABCÄ` is written, and cannot be opened. -/
theorem C16_multibyte (proj : Text) (corners angles : List F32) (delta : F32) (hproj : proj ∈ knownProjections) (hcorners : corners.length = 4)
    (hangles : angles.length = 3) (e host : Endian) :
    AllOk sampleEnv (newGrid 3 3 proj corners angles delta (16 : ℕ)) [namedReq (txt "ABCÄ")] ∧
      ∃ bytes, saveGrid sampleEnv e (runGrid sampleEnv (newGrid 3 3 proj corners angles delta (16 : ℕ)) [namedReq (txt "ABCÄ")]) = .ok bytes ∧
        openGrid host bytes = .error .unicodeError := by
  obtain ⟨hall, hacc, hfin⟩ := single_history multibyte_entry proj corners angles delta 16
  have base := (sample_conditions 3 3 (by norm_num) (by norm_num) proj corners angles delta).2.1 (sampleEntry 3)
    (by rw [sample_history]; exact List.mem_cons_self)
  have hread : ∀ x ∈ gAccepted sampleEnv 3 3 [namedReq (txt "ABCÄ")], x.Timed := by
    rw [hacc]
    intro x hx
    rw [List.mem_singleton.1 hx]
    exact ⟨base.1.first.fits, fun w hw => (base.1.second w hw).fits⟩
  have hwr : ∀ x ∈ gAccepted sampleEnv 3 3 [namedReq (txt "ABCÄ")], x.Writable sampleEnv := by
    rw [hacc]
    intro x hx
    rw [List.mem_singleton.1 hx]
    exact ⟨base.2.level, base.2.level2, base.2.3, base.2.4⟩
  obtain ⟨bytes, hb⟩ := C16_writes sampleEnv sampleEnv_rounds 3 3 proj corners angles delta 16 hproj hcorners hangles (by omega) (by omega)
    (by norm_num) (by omega) (by omega) (by norm_num) _ hall (fun x hx => (hread x hx).stamped) hwr (by rw [hfin]; norm_num) e
  refine ⟨hall, bytes, hb, ?_⟩
  refine C16_undecodable sampleEnv 3 3 proj corners angles delta 16 hproj hcorners hangles _ hall hread ?_ e host bytes hb
  rw [hfin]
  exact ⟨_, List.mem_singleton_self _, by decide +kernel⟩

/-! ## Lead times -/

/-- Hours and minutes of a lead time are read as they were written just when there are less than a hundred minutes. -/
theorem seen_lead {w : When} (h : w.Fits) :
    w.seen.hours * 60 + w.seen.minutes = w.hours * 60 + w.minutes ↔ w.minutes < 100 := by
  constructor
  · intro he
    by_contra hm
    obtain ⟨m, hm'⟩ := Int.eq_ofNat_of_zero_le h.minutes
    obtain ⟨n, hn'⟩ := Int.eq_ofNat_of_zero_le h.hours
    have hm100 : 100 ≤ m := by omega
    obtain ⟨k, hk⟩ : ∃ k, Nat.log 10 m = k + 2 := by
      have : Nat.log 10 100 ≤ Nat.log 10 m := Nat.log_mono_right hm100
      have h2 : 2 ≤ Nat.log 10 100 := Nat.le_log_of_pow_le (by norm_num) (by norm_num)
      exact ⟨Nat.log 10 m - 2, by omega⟩
    have hlt : m < 10 ^ (k + 3) := by
      have := Nat.lt_pow_succ_log_self (b := 10) (by norm_num) m
      rwa [hk] at this
    unfold When.seen at he
    dsimp only at he
    rw [hm', hn', Int.toNat_natCast, hk, show k + 2 - 1 = k + 1 from rfl] at he
    have he' : (n * 10 ^ (k + 1) + m / 100) * 60 + m % 100 = n * 60 + m := by exact_mod_cast he
    have hp : 10 ^ (k + 3) = 100 * 10 ^ (k + 1) := by ring
    have hp1 : 10 ≤ 10 ^ (k + 1) := by
      rw [pow_succ]
      have := Nat.one_le_pow k 10 (by norm_num)
      omega
    generalize 10 ^ (k + 1) = q at he' hp hp1
    rw [hp] at hlt
    have hd := Nat.div_add_mod m 100
    have hq : m / 100 < q := by omega
    rcases Nat.eq_zero_or_pos n with rfl | hn
    · omega
    · have : q ≤ n * q := Nat.le_mul_of_pos_left q hn
      have h3 : n * 10 ≤ n * q := Nat.mul_le_mul_left n hp1
      omega
  · intro hm
    rw [(show w.Legible from ⟨h.date, h.clock, ⟨h.hours, ?_⟩, ⟨h.minutes, hm⟩⟩).seen_eq]
    have := h.lead
    unfold When.seen at this
    dsimp only at this
    obtain ⟨m, hm'⟩ := Int.eq_ofNat_of_zero_le h.minutes
    have hl : Nat.log 10 m - 1 = 0 := by
      have : Nat.log 10 m < 2 := Nat.log_lt_of_lt_pow' (by norm_num) (by omega)
      omega
    rw [hm', Int.toNat_natCast, hl] at this
    omega

theorem time_moved {w : When} {t : Date × Clock} (h : IsValidTime w.seen t) :
    IsValidTime w t ↔ w.seen.hours * 60 + w.seen.minutes = w.hours * 60 + w.minutes := by
  have h1 := h.instant
  have h2 : w.seen.type = w.type ∧ w.seen.date = w.date ∧ w.seen.clock = w.clock := ⟨rfl, rfl, rfl⟩
  rw [h2.1, h2.2.1, h2.2.2] at h1
  constructor
  · intro h3
    have h4 := h3.instant
    rw [h1] at h4
    have h5 := add_left_cancel h4
    exact Int.eq_of_mul_eq_mul_right (by norm_num) h5
  · intro h3
    refine ⟨?_, h.valid⟩
    rw [h1, h3]

/-- **C16, lead times.** Whatever lead times are given, the file lists a grid at the time it was added for just when the lead time has less than a
hundred minutes: others are moved. -/
theorem C16_lead (env : GridEnv) (hr : env.Rounds) (nx ny : Nat) (proj : Text) (corners angles : List F32) (delta : F32)
    (bits : Nat) (hproj : proj ∈ knownProjections) (hcorners : corners.length = 4) (hangles : angles.length = 3)
    (hx : nx < 2 ^ 24) (hy : ny < 2 ^ 24) (hbits : 32 < bits * nx * ny) (rs : List GridReq)
    (hok : AllOk env (newGrid nx ny proj corners angles delta bits) rs) (hl : ∀ e ∈ gAccepted env nx ny rs, e.Readable)
    (e host : Endian) (bytes : Bytes)
    (hsave : saveGrid env e (runGrid env (newGrid nx ny proj corners angles delta bits) rs) = .ok bytes) :
    ∃ (f : GridFileR) (P : List GEntry), openGrid host bytes = .ok f ∧ P.Perm (gfinal (gAccepted env nx ny rs)) ∧
      List.Forall₂ (fun x g => IsValidTime x.first g.time1 ↔ x.first.minutes < 100) P f.grids := by
  obtain ⟨f, P, f1, f2, f3, f4⟩ := C16_names_partial env hr nx ny proj corners angles delta bits hproj hcorners hangles hx hy hbits rs hok hl e host
    bytes hsave
  have hs := entries_sound (env := env) (nx := nx) (ny := ny) (rs := rs)
  have hP : ∀ x ∈ P, x.first.Fits := by
    intro x hx
    have hm : x ∈ gfinal (gAccepted env nx ny rs) := f2.mem_iff.1 hx
    rw [gfinal_eq hs] at hm
    exact (hl x (finalBy_sub hm)).first
  refine ⟨f, P, f1, f2, ?_⟩
  clear f1 f2 f4
  generalize f.grids = gs at f3 ⊢
  induction f3 with
  | nil => exact .nil
  | cons h _ ih =>
    refine .cons ?_ (ih (fun x hx => hP x (List.mem_cons_of_mem _ hx)))
    exact (time_moved h.time1).trans (seen_lead (hP _ List.mem_cons_self))

/-! ### A lead time of three hours and 120 minutes -/

/-- A host that reads the texts of the example. -/
noncomputable def leadEnv : GridEnv :=
  { sampleEnv with
    parseTime := fun t => if t = txt "202002290600" then .ok (⟨2020, 2, 29⟩, ⟨6, 0, 0, 0⟩) else .error .valueError
    parseInt := fun t => if t = txt "003" then .ok 3 else if t = txt "120" then .ok 120 else .error .valueError }

/-- A request: the grid three hours and 120 minutes after six o'clock. -/
def leadReq : GridReq := { sampleReq 3 with dateTime := .str (txt "202002290600F003120") }

/-- Its entry. -/
def leadEntry : GEntry := { sampleEntry 3 with first := ⟨1, ⟨2020, 2, 29⟩, ⟨6, 0, 0, 0⟩, 3, 120⟩ }

theorem lead_entry : gEntry leadEnv 3 3 leadReq = some leadEntry := by
  have hl : levelOf (.num 500) = some 500 := by
    unfold levelOf; norm_num
  unfold gEntry
  rw [if_pos ⟨rfl, by
    intro row h
    simp only [leadReq, sampleReq, List.mem_cons, List.not_mem_nil, or_false] at h
    rcases h with rfl | rfl | rfl <;> rfl⟩]
  have h1 : nameOf leadEnv leadReq.name = some (txt "TMPK") := by
    show nameOf leadEnv (txt "TMPK") = _
    unfold nameOf leadEnv sampleEnv; decide
  have h2 : coordOf leadEnv leadReq.vcoord = some (txt "pres") := by
    show coordOf leadEnv (some (txt "pres")) = _
    unfold coordOf leadEnv sampleEnv; decide
  have h3 : levelOf leadReq.level = some 500 := hl
  have h4 : firstOf leadEnv leadReq.dateTime = some ⟨1, ⟨2020, 2, 29⟩, ⟨6, 0, 0, 0⟩, 3, 120⟩ := by
    show firstOf leadEnv (.str (txt "202002290600F003120")) = _
    unfold firstOf whenOf leadOf leadEnv sampleEnv; decide
  rw [h1, h2, h3, h4]
  rfl

/-- **C16 does not hold for lead times with a hundred minutes or more**: a grid added for three hours and 120 minutes after six o'clock is listed at
13:20 of the next day, 31 hours and 20 minutes after. -/
theorem C16_lead_moved (proj : Text) (corners angles : List F32) (delta : F32) (hproj : proj ∈ knownProjections) (hcorners : corners.length = 4)
    (hangles : angles.length = 3) (e host : Endian) :
    AllOk leadEnv (newGrid 3 3 proj corners angles delta (16 : ℕ)) [leadReq] ∧
      ∃ bytes f g, saveGrid leadEnv e (runGrid leadEnv (newGrid 3 3 proj corners angles delta (16 : ℕ)) [leadReq]) = .ok bytes ∧
        openGrid host bytes = .ok f ∧ f.grids = [g] ∧ instant g.time1 = instant (⟨2020, 3, 1⟩, ⟨13, 20, 0, 0⟩) := by
  obtain ⟨hall, hacc, hfin⟩ := single_history lead_entry proj corners angles delta 16
  have base := (sample_conditions 3 3 (by norm_num) (by norm_num) proj corners angles delta).2.1 (sampleEntry 3)
    (by rw [sample_history]; exact List.mem_cons_self)
  have hlog : Nat.log 10 120 = 2 := by
    rw [Nat.log_eq_iff (Or.inl (by norm_num))]; norm_num
  have hseen : leadEntry.first.seen = ⟨1, ⟨2020, 2, 29⟩, ⟨6, 0, 0, 0⟩, 31, 20⟩ := by
    show When.seen ⟨1, ⟨2020, 2, 29⟩, ⟨6, 0, 0, 0⟩, 3, 120⟩ = _
    unfold When.seen
    rw [show (Int.toNat 120) = 120 from rfl, hlog]
    rfl
  have hread : ∀ x ∈ gAccepted leadEnv 3 3 [leadReq], x.Readable := by
    rw [hacc]
    intro x hx
    rw [List.mem_singleton.1 hx]
    refine ⟨⟨⟨by decide, by decide, by decide, by decide, by rw [hseen]; decide⟩, fun w hw => ?_⟩, by decide +kernel⟩
    cases hw
  have hwr : ∀ x ∈ gAccepted leadEnv 3 3 [leadReq], x.Writable leadEnv := by
    rw [hacc]
    intro x hx
    rw [List.mem_singleton.1 hx]
    exact ⟨base.2.level, base.2.level2, base.2.3, base.2.4⟩
  have hround : leadEnv.Rounds := ⟨sampleEnv_rounds.1, sampleEnv_rounds.2⟩
  obtain ⟨bytes, hb⟩ := C16_writes leadEnv hround 3 3 proj corners angles delta 16 hproj hcorners hangles (by omega) (by omega)
    (by norm_num) (by omega) (by omega) (by norm_num) _ hall (fun x hx => (hread x hx).toTimed.stamped) hwr (by rw [hfin]; norm_num) e
  obtain ⟨f, P, f1, f2, f3, _⟩ := C16_names_partial leadEnv hround 3 3 proj corners angles delta 16 hproj hcorners hangles (by norm_num)
    (by norm_num) (by norm_num) _ hall hread e host bytes hb
  rw [hfin] at f2
  obtain rfl := List.perm_singleton.1 f2
  refine ⟨hall, bytes, f, ?_⟩
  generalize f.grids = gs at f3 ⊢
  rcases f3 with _ | ⟨hg, _ | _⟩
  refine ⟨_, hb, f1, rfl, ?_⟩
  rw [hg.time1.instant]
  show instant ((storedTime leadEntry.first.seen.date leadEntry.first.seen.clock).1, if leadEntry.first.seen.type = 0 then _ else _) + _ = _
  show _ + (leadEntry.first.seen.hours * 60 + leadEntry.first.seen.minutes) * 60000000 = _
  rw [hseen]
  decide +kernel

end Gempak
