import Verif.Props.MergeHeights
import Verif.Props.UnmergedLevels

/-!
# C113 for winds by height: from the records of an unmerged file to the datasets returned
-/

namespace Gempak

open Spec

section
variable {α : Type} [Field α] [LinearOrder α]

/-- A dataset shows a wind at a height. -/
def Spec.WindShown (lower : Text → Text) (d : SnData α) (z R W : α) : Prop :=
  ∃ k : Nat, k < d.levels.length ∧ Spec.ShownAt d (lower (txt "HGHT")) k z ∧ Spec.ShownAt d (lower (txt "DRCT")) k R ∧ Spec.ShownAt d (lower (txt "SPED")) k W

theorem windLevel_shown {lower : Text → Text} {m : α} {x : Snd α} {d : SnData α} (h : IsProfile lower m x d) {z R W : α}
    (hl : WindLevel x z R W) (hz : z ≠ m) (hR : R ≠ m) (hW : W ≠ m) : WindShown lower d z R W := by
  obtain ⟨j, e1, e2, e3⟩ := hl
  obtain ⟨σ, s1, s0, s2, s3⟩ := profile_rows h
  have hlen : x.hght.length = x.pres.length := s2 (lower (txt "HGHT"), x.hght) (by simp [namedCols])
  obtain ⟨k, hk⟩ := (perm_range_mem s1).2 (hlen ▸ (List.getElem?_eq_some_iff.1 e1).1)
  obtain ⟨_, g⟩ := s3 k j hk
  exact ⟨k, s0 ▸ (List.getElem?_eq_some_iff.1 hk).1, g (_, x.hght) (by simp [namedCols]) z e1 hz, g (_, x.drct) (by simp [namedCols]) R e2 hR, g (_, x.sped) (by simp [namedCols]) W e3 hW⟩

/-- C113: a wind by height in the records of a selected sounding, between the surface and the highest level, higher than those before it and a
metre or more from all other winds by height and from all levels that the report has without them, is shown at that height in
the dataset. -/
theorem C113_heights [FloorRing α] [IsStrictOrderedRing α] (c : Calc α) (e : LevEnv α) (fuel : Nat) (host : Endian) (b : Bytes) (f : SoundingReader)
    (upper lower : Text → Text) (q : SiteQuery) (ds : List (SnData α)) (ho : openSounding host b = .ok f)
    (h : f.unmergedDatasets c e fuel upper lower q = .ok ds) (ha : Addressable f.info) (hn : NamesApart f.info) (hu : UsualParts f.info)
    (s : SiteInfo) (hs : s ∈ selected upper (AsksExactly upper) q f.sninfo) (j : Nat) (p : PartInfo) (a : ParamInfo)
    (hp : f.info.parts[j]? = some p) (hpa : f.info.params[j]? = some a) (h0 : partWord f.info f.bytes s.row s.col j ≠ 0)
    (hname : p.name = txt "PPBB") (l : Nat) (z R W : α)
    (hz : StoredAt e f.info f.bytes s.row s.col j p a l (txt "HGHT") z) (hR : StoredAt e f.info f.bytes s.row s.col j p a l (txt "DRCT") R)
    (hW : StoredAt e f.info f.bytes s.row s.col j p a l (txt "SPED") W) (hz0 : l = 0 → z ≠ 0)
    (hzm : z ≠ e.flt f.info.label.missingFloat) (hRm : R ≠ e.flt f.info.label.missingFloat) (hWm : W ≠ e.flt f.info.label.missingFloat) :
    ∃ ps, unmergedParts f.info f.bytes s.row s.col (f.info.parts.zip f.info.params) 0 [] = .ok ps ∧
      ∀ s0, mergeSounding c (e.flt f.info.label.missingFloat) fuel (withoutLowWinds (e.parts s.elev ps)) = .ok (some s0) →
        Rising s0 (e.flt f.info.label.missingFloat) → AmongLevels s0 (e.flt f.info.label.missingFloat) z →
        (∀ part, (e.parts s.elev ps).part "PPBB" = some part → ¬ OnPressure part (e.flt f.info.label.missingFloat) ∧
          (∀ i y, i < l → part.at "HGHT" i = .ok y → y < z) ∧ ∀ i y, i ≠ l → part.at "HGHT" i = .ok y → 1 ≤ |y - z|) →
        (∀ part, (e.parts s.elev ps).part "PPDD" = some part → ¬ OnPressure part (e.flt f.info.label.missingFloat) →
          ∀ i y, part.at "HGHT" i = .ok y → 1 ≤ |y - z|) →
        ∃ d ∈ ds, Describes s d ∧ WindShown lower d z R W := by
  obtain ⟨ps, r1, r2⟩ := selected_dataset ho h hs
  refine ⟨ps, r1, fun s0 hs0 hg hb hlow hup => ?_⟩
  obtain ⟨part, p1, p2⟩ := stored_part e s.elev ha hn r1 hp hpa h0
  rw [hname] at p1
  have gz : part.at "HGHT" l = .ok z := p2 _ _ _ hz
  have gR : part.at "DRCT" l = .ok R := p2 _ _ _ hR
  have gW : part.at "SPED" l = .ok W := p2 _ _ _ hW
  obtain ⟨d, d0, d1, y, y1, y2⟩ := r2 (part_has_levels (key := "SPED") (by decide) p1 gW)
  obtain ⟨g1, g2, g3⟩ := hlow part p1
  have hA := fun x => usual_six e s.elev ha hn hu r1 "TTAA" (Or.inl rfl) x
  have hC := fun x => usual_six e s.elev ha hn hu r1 "TTCC" (Or.inr rfl) x
  have := C96_lower c _ fuel _ y s0 part hA hC p1 g1 y1 hs0 hg l z R W gz gR gW hRm hz0 hb g2 g3 hup
  exact ⟨d, d0, d1, windLevel_shown y2 this hzm hRm hWm⟩

/-- C113: the same for winds by height of the upper part, when the lower part gives one above the surface. -/
theorem C113_heights_upper [FloorRing α] [IsStrictOrderedRing α] (c : Calc α) (e : LevEnv α) (fuel : Nat) (host : Endian) (b : Bytes)
    (f : SoundingReader) (upper lower : Text → Text) (q : SiteQuery) (ds : List (SnData α)) (ho : openSounding host b = .ok f)
    (h : f.unmergedDatasets c e fuel upper lower q = .ok ds) (ha : Addressable f.info) (hn : NamesApart f.info) (hu : UsualParts f.info)
    (s : SiteInfo) (hs : s ∈ selected upper (AsksExactly upper) q f.sninfo) (j : Nat) (p : PartInfo) (a : ParamInfo)
    (hp : f.info.parts[j]? = some p) (hpa : f.info.params[j]? = some a) (h0 : partWord f.info f.bytes s.row s.col j ≠ 0)
    (hname : p.name = txt "PPDD") (l : Nat) (z R W : α)
    (hz : StoredAt e f.info f.bytes s.row s.col j p a l (txt "HGHT") z) (hR : StoredAt e f.info f.bytes s.row s.col j p a l (txt "DRCT") R)
    (hW : StoredAt e f.info f.bytes s.row s.col j p a l (txt "SPED") W)
    (hzm : z ≠ e.flt f.info.label.missingFloat) (hRm : R ≠ e.flt f.info.label.missingFloat) (hWm : W ≠ e.flt f.info.label.missingFloat) :
    ∃ ps, unmergedParts f.info f.bytes s.row s.col (f.info.parts.zip f.info.params) 0 [] = .ok ps ∧
      ∀ s0, mergeSounding c (e.flt f.info.label.missingFloat) fuel (withoutLowWinds (e.parts s.elev ps)) = .ok (some s0) →
        Rising s0 (e.flt f.info.label.missingFloat) → AmongLevels s0 (e.flt f.info.label.missingFloat) z →
        (∃ part, (e.parts s.elev ps).part "PPBB" = some part ∧ ¬ OnPressure part (e.flt f.info.label.missingFloat) ∧
          (∃ i y w, part.at "HGHT" i = .ok y ∧ part.at "SPED" i = .ok w ∧ y ≠ 0 ∧ s0.hght[0]? ≠ some y) ∧
          ∀ i y, part.at "HGHT" i = .ok y → y < z ∧ 1 ≤ |y - z|) →
        (∀ part, (e.parts s.elev ps).part "PPDD" = some part → ¬ OnPressure part (e.flt f.info.label.missingFloat) ∧
          (∀ i y, i < l → part.at "HGHT" i = .ok y → y < z) ∧ ∀ i y, i ≠ l → part.at "HGHT" i = .ok y → 1 ≤ |y - z|) →
        ∃ d ∈ ds, Describes s d ∧ WindShown lower d z R W := by
  obtain ⟨ps, r1, r2⟩ := selected_dataset ho h hs
  refine ⟨ps, r1, fun s0 hs0 hg hb hlow hup => ?_⟩
  obtain ⟨part, p1, p2⟩ := stored_part e s.elev ha hn r1 hp hpa h0
  rw [hname] at p1
  have gz : part.at "HGHT" l = .ok z := p2 _ _ _ hz
  have gR : part.at "DRCT" l = .ok R := p2 _ _ _ hR
  have gW : part.at "SPED" l = .ok W := p2 _ _ _ hW
  obtain ⟨d, d0, d1, y, y1, y2⟩ := r2 (part_has_levels (key := "SPED") (by decide) p1 gW)
  obtain ⟨g1, g2, g3⟩ := hup part p1
  obtain ⟨q', q1, q2, ⟨i0, y0, w0, v1, v2, v3, v4⟩, q4⟩ := hlow
  have hA := fun x => usual_six e s.elev ha hn hu r1 "TTAA" (Or.inl rfl) x
  have hC := fun x => usual_six e s.elev ha hn hu r1 "TTCC" (Or.inr rfl) x
  have := C96_upper c _ fuel _ y s0 q' part hA hC q1 q2 p1 g1 y1 hs0 hg i0 y0 w0 v1 v2 v3 v4 l z R W gz gR gW hRm hb (fun i y hy => (q4 i y hy).1) g2
    (fun i y hy => (q4 i y hy).2) g3
  exact ⟨d, d0, d1, windLevel_shown y2 this hzm hRm hWm⟩

end

/-! ## A case -/

/-- An unmerged file with one time and one site, parts `TTAA` (1000, 850, 500 hPa) and `PPBB` (winds at 900 m and 3000 m). -/
def windFile : Bytes :=
  banner ++ numWords [1, 0, 0, 1, 2, 32, 41, 1, 7, 34, 44, 2, 52, 1, 128, 96, 2, 4, 11, -9999, 0, 0, 0, 0xC61C3C00] ++
  textWords ["DATE", "TIME", "STID", "STNM", "SLAT", "SLON", "SELV", "STAT", "COUN"] ++
  numWords [9999, 260102, 1200] ++
  numWords [9999] ++ textWords ["ABC"] ++ numWords [72469, 4000, -10500, 5] ++ textWords ["CO", "US"] ++
  textWords ["TTAA", "PPBB"] ++ numWords [0, 0, 1, 1, 6, 3] ++
  textWords ["PRES", "TEMP", "DWPT", "DRCT", "SPED", "HGHT", "HGHT", "DRCT", "SPED"] ++
  numWords (List.replicate 27 0) ++ numWords [98, 117] ++
  numWords [18, 0x447A0000, 0x41A00000, 0x41700000, 0x42B40000, 0x40A00000, 0x42C80000, 0x44548000, 0x41200000, 0x40A00000, 0x43340000, 0x41200000, 0x44BB8000,
    0x43FA0000, 0xC1200000, 0xC1A00000, 0x43480000, 0x41A00000, 0x45ABE000,
    6, 0x44610000, 0x42F00000, 0x41000000, 0x453B8000, 0x433E0000, 0x41700000]

/-- What the file holds, and what is merged of it with and without the winds by height. -/
def windHeld : Option ((Int × Int × Int) × List (Text × Int × Int) × List (List Text) × (Nat × ℚ × Nat × List Nat) ×
    List (Option (List (String × List ℚ))) × (List ℚ × List ℚ) × List ℚ) :=
  (openSounding .little windFile).toOption.bind fun f => f.infos[0]?.bind fun s =>
    (unmergedParts f.info f.bytes s.row s.col (f.info.parts.zip f.info.params) 0 []).toOption.bind fun ps =>
    (mergeSounding ⟨fun x => x - 1, fun x => x + 1⟩ (-9999) 5 (withoutLowWinds (ratEnv.parts s.elev ps))).toOption.bind fun o => o.bind fun s0 =>
    (f.unpackUnmerged (⟨fun x => x - 1, fun x => x + 1⟩ : Calc ℚ) ratEnv 5 s.row s.col).toOption.bind fun o => o.map fun x =>
      ((f.info.label.dataBlockPtr, f.info.label.columns, f.info.label.parts),
        f.info.parts.map (fun p => (p.name, p.headerLength, p.dataType)), f.info.params.map ParamInfo.names,
        (f.infos.length, ratEnv.flt f.info.label.missingFloat, partWord f.info f.bytes s.row s.col 1,
          (f.info.parts[1]?.map (partBody f.info f.bytes s.row s.col 1)).getD []),
        ["PPBB", "PPDD"].map (ratEnv.parts s.elev ps).part, (s0.pres, s0.hght), x.snd.hght)

set_option synthInstance.maxSize 10000 in
set_option synthInstance.maxHeartbeats 400000 in
theorem windHeld_eq : windHeld = some ((96, 1, 2), [(txt "TTAA", 0, 1), (txt "PPBB", 0, 1)],
    [[txt "PRES", txt "TEMP", txt "DWPT", txt "DRCT", txt "SPED", txt "HGHT"], [txt "HGHT", txt "DRCT", txt "SPED"]],
    (1, -9999, 117, [0x44610000, 0x42F00000, 0x41000000, 0x453B8000, 0x433E0000, 0x41700000]),
    [some [("HGHT", [900, 3000]), ("DRCT", [120, 190]), ("SPED", [8, 15])], none], ([1000, 850, 500], [5, 1500, 5500]),
    [5, 900, 1500, 3000, 5500]) := by
  decide +kernel

/-- The hypotheses of C113 for winds by height are met by that file: the wind at 3000 m is shown in a dataset. -/
theorem windFile_shown : ∃ f ds s, openSounding .little windFile = .ok f ∧
    f.unmergedDatasets (⟨fun x => x - 1, fun x => x + 1⟩ : Calc ℚ) ratEnv 5 id id {} = .ok ds ∧ Addressable f.info ∧ NamesApart f.info ∧ UsualParts f.info ∧
    ratEnv.flt f.info.label.missingFloat = -9999 ∧ ∃ d ∈ ds, Describes s d ∧ WindShown id d 3000 190 15 := by
  have key := windHeld_eq
  unfold windHeld at key
  obtain ⟨f, h1, key⟩ := Option.bind_eq_some_iff.1 key
  obtain ⟨s, h2, key⟩ := Option.bind_eq_some_iff.1 key
  obtain ⟨ps, hps, key⟩ := Option.bind_eq_some_iff.1 key
  obtain ⟨o, hm, key⟩ := Option.bind_eq_some_iff.1 key
  obtain ⟨s0, h5, key⟩ := Option.bind_eq_some_iff.1 key
  obtain ⟨o', h3, key⟩ := Option.bind_eq_some_iff.1 key
  obtain ⟨x, h4, fin⟩ := Option.map_eq_some_iff.1 key
  subst h4 h5
  have toOk : ∀ {ε β : Type} {y : Except ε β} {b : β}, y.toOption = some b → y = .ok b := by
    intro ε β y b h
    cases y with
    | error e => cases h
    | ok v => exact congrArg Except.ok (Option.some.inj h)
  have h3 := toOk h3
  have ho := toOk h1
  have hps := toOk hps
  have hm := toOk hm
  obtain ⟨k1, key⟩ := Prod.mk.inj fin
  obtain ⟨k2, key⟩ := Prod.mk.inj key
  obtain ⟨k3, key⟩ := Prod.mk.inj key
  obtain ⟨k4, key⟩ := Prod.mk.inj key
  obtain ⟨k5, key⟩ := Prod.mk.inj key
  obtain ⟨v0, _⟩ := Prod.mk.inj key
  obtain ⟨v1, v2⟩ := Prod.mk.inj v0
  obtain ⟨k6, k4⟩ := Prod.mk.inj k4
  obtain ⟨k7, k4⟩ := Prod.mk.inj k4
  obtain ⟨k8, k9⟩ := Prod.mk.inj k4
  obtain ⟨k10, k1⟩ := Prod.mk.inj k1
  obtain ⟨k11, k12⟩ := Prod.mk.inj k1
  have hinf : f.infos = [s] := by
    match hf : f.infos, k6 with
    | [y], _ => rw [hf] at h2; rw [Option.some.inj h2]
  have hsn : f.sninfo = [s] := by unfold SoundingReader.sninfo; rw [hinf]; exact List.mergeSort_singleton _
  obtain ⟨p0, p1, hparts⟩ : ∃ p0 p1, f.info.parts = [p0, p1] := by
    match hf : f.info.parts, congrArg List.length k2 with
    | [y, z], _ => exact ⟨y, z, rfl⟩
  obtain ⟨a0, a1, hparams⟩ : ∃ a0 a1, f.info.params = [a0, a1] := by
    match hf : f.info.params, congrArg List.length k3 with
    | [y, z], _ => exact ⟨y, z, rfl⟩
  rw [hparts] at k2
  rw [hparams] at k3
  simp only [List.map_cons, List.map_nil, List.cons.injEq, Prod.mk.injEq, and_true] at k2 k3
  obtain ⟨⟨n0, hl0, t0⟩, ⟨n1, hl1, t1⟩⟩ := k2
  obtain ⟨m0, m1⟩ := k3
  have ha : Addressable f.info := by
    refine ⟨by omega, by omega, by omega, fun p hp => ?_⟩
    rw [hparts] at hp
    simp only [List.mem_cons, List.not_mem_nil, or_false] at hp
    rcases hp with rfl | rfl <;> omega
  have hn : NamesApart f.info := by
    refine ⟨?_, fun a ha => ?_⟩
    · rw [hparts, List.map_cons, List.map_cons, List.map_nil, n0, n1]; decide
    · rw [hparams] at ha
      simp only [List.mem_cons, List.not_mem_nil, or_false] at ha
      rcases ha with rfl | rfl
      · rw [m0]; decide
      · rw [m1]; decide
  have hu : UsualParts f.info := by
    refine ⟨by rw [hparts, hparams]; rfl, fun j p a hp hpa hname => ?_⟩
    rw [hparts] at hp
    rw [hparams] at hpa
    match j with
    | 0 =>
      obtain rfl := Option.some.inj hp
      obtain rfl := Option.some.inj hpa
      exact ⟨by omega, by rw [m0]; decide⟩
    | 1 =>
      obtain rfl := Option.some.inj hp
      rw [n1] at hname
      exact absurd hname (by decide)
    | j + 2 => cases hp
  simp only [List.map_cons, List.map_nil, List.cons.injEq, and_true] at k5
  obtain ⟨q1, q2⟩ := k5
  obtain ⟨d0, d1, _⟩ := C76_made _ ratEnv 5 .little windFile f id ho s (by rw [hsn]; exact List.mem_singleton.2 rfl) x (by
    intro ps' hps' name hname p hp
    exact usual_six ratEnv s.elev ha hn hu hps' name (by simpa using hname) p hp) h3
  have hds : f.unmergedDatasets (⟨fun x => x - 1, fun x => x + 1⟩ : Calc ℚ) ratEnv 5 id id {} = .ok [d0] := by
    unfold SoundingReader.unmergedDatasets
    rw [hsn]
    show (do
      let data ← [s].mapM fun s : SiteInfo => f.unpackUnmerged (⟨fun x => x - 1, fun x => x + 1⟩ : Calc ℚ) ratEnv 5 s.row s.col
      (data.filterMap id).mapM fun x => toRun (mergedDataset id (ratEnv.flt f.info.label.missingFloat) x)) = _
    rw [List.mapM_cons, h3]
    show ([x].mapM fun x => toRun (mergedDataset id (ratEnv.flt f.info.label.missingFloat) x) : Run (List (SnData ℚ))) = _
    rw [List.mapM_cons, d1]
    rfl
  have sel : s ∈ selected id (AsksExactly id) {} f.sninfo := by
    rw [hsn]
    unfold selected
    refine List.mem_filter.2 ⟨List.mem_singleton.2 rfl, @decide_eq_true _ (_) ?_⟩
    exact ⟨nofun, nofun, nofun, nofun, nofun, nofun⟩
  rw [hparts] at k9
  have k9 : partBody f.info f.bytes s.row s.col 1 p1 = _ := k9
  have st : ∀ (k : Nat) (n : Text) (w : Nat), a1.names[k]? = some n →
      (partBody f.info f.bytes s.row s.col 1 p1)[1 * a1.names.length + k]? = some w →
      StoredAt ratEnv f.info f.bytes s.row s.col 1 p1 a1 1 n (ratEnv.flt (BitVec.ofNat 32 w)) := fun k n w g1 g2 => ⟨k, g1, Or.inl ⟨t1, w, g2, rfl⟩⟩
  rw [k9, m1] at st
  have u1 : ratEnv.flt (BitVec.ofNat 32 0x453B8000) = 3000 := by decide +kernel
  have u2 : ratEnv.flt (BitVec.ofNat 32 0x433E0000) = 190 := by decide +kernel
  have u3 : ratEnv.flt (BitVec.ofNat 32 0x41700000) = 15 := by decide +kernel
  obtain ⟨ps', z1, z2⟩ := C113_heights _ ratEnv 5 .little windFile f id id {} [d0] ho hds ha hn hu s sel 1 p1 a1 (by rw [hparts]; rfl)
    (by rw [hparams]; rfl) (by rw [k8]; decide) n1 1 3000 190 15 (u1 ▸ st 0 _ _ rfl rfl) (u2 ▸ st 1 _ _ rfl rfl)
    (u3 ▸ st 2 _ _ rfl rfl) (by omega) (by rw [k7]; decide) (by rw [k7]; decide) (by rw [k7]; decide)
  obtain rfl := Except.ok.inj (hps.symm.trans z1)
  rw [k7] at z2
  refine ⟨f, [d0], s, ho, hds, ha, hn, hu, k7, z2 s0 hm ⟨by rw [v2]; decide +kernel, by rw [v2]; decide +kernel, fun _ => by rw [v1]; decide +kernel⟩
    ⟨⟨5, by unfold lowest; rw [v1, v2]; rfl, by norm_num⟩, ⟨5500, by rw [v2]; decide +kernel, by norm_num⟩, by rw [v2]; decide +kernel⟩ ?_ ?_⟩
  · intro part hpart
    rw [q1] at hpart
    obtain rfl := Option.some.inj hpart
    refine ⟨?_, fun i y hi hy => ?_, fun i y hi hy => ?_⟩
    · rintro (h | ⟨hs, h, z, hz, _, h'⟩)
      · exact absurd h (by decide)
      · obtain rfl := Except.ok.inj h
        simp at hz
        rcases hz with rfl | rfl <;> norm_num at h'
    · obtain rfl : i = 0 := by omega
      rw [← Except.ok.inj hy]; norm_num
    · match i, hi with
      | 0, _ => rw [← Except.ok.inj hy]; decide +kernel
      | i + 2, _ => cases hy
  · intro part hpart
    rw [q2] at hpart
    cases hpart

end Gempak
