import Verif.Props.MergeFrom
import Verif.Props.MergeKeep
import Verif.Props.MergeSig
import Verif.Props.UnmergedParts

/-!
# C113: from the records of an unmerged file to the datasets returned
-/

namespace Gempak

open Spec

set_option linter.unusedSectionVars false

section
variable {α : Type} [Field α] [LinearOrder α]

/-! ## What is said -/

/-- A variable of a dataset has a value at level `k`. -/
def Spec.ShownAt (d : SnData α) (name : Text) (k : Nat) (v : α) : Prop := ∃ col, (name, col) ∈ d.vars ∧ col[k]? = some (some v)

/-- The words of the record of part `j` after its header. -/
def Spec.partBody (i : DMInfo) (b : Bytes) (row col j : Nat) (p : PartInfo) : List Nat :=
  (List.range (fileWord i.order b (partWord i b row col j) - p.headerLength.toNat)).map fun w =>
    fileWord i.order b (partWord i b row col j + 1 + p.headerLength.toNat + w)

/-- Value `v` of parameter `n` at level `l` of the record of part `j`: a single precision number there, or one of the packed numbers. -/
def Spec.StoredAt (e : LevEnv α) (i : DMInfo) (b : Bytes) (row col j : Nat) (p : PartInfo) (a : ParamInfo) (l : Nat) (n : Text) (v : α) : Prop :=
  ∃ k : Nat, a.names[k]? = some n ∧
    ((p.dataType = 1 ∧ ∃ w, (Spec.partBody i b row col j p)[l * a.names.length + k]? = some w ∧ v = e.flt (BitVec.ofNat 32 w)) ∨
     (p.dataType = 4 ∧ ∃ rs r, unpackReal ((Spec.partBody i b row col j p).map toI32) (Spec.packedAttrs a) (Spec.partBody i b row col j p).length = .ok rs ∧
        rs[l * a.names.length + k]? = some r ∧ v = e.real r))

/-- A level in the record of part `j`. -/
structure Spec.StoredLevel (e : LevEnv α) (i : DMInfo) (b : Bytes) (row col j : Nat) (p : PartInfo) (a : ParamInfo) (l : Nat) (P Z T D R W : α) :
    Prop where
  pres : Spec.StoredAt e i b row col j p a l (txt "PRES") P
  hght : Spec.StoredAt e i b row col j p a l (txt "HGHT") Z
  temp : Spec.StoredAt e i b row col j p a l (txt "TEMP") T
  dwpt : Spec.StoredAt e i b row col j p a l (txt "DWPT") D
  drct : Spec.StoredAt e i b row col j p a l (txt "DRCT") R
  sped : Spec.StoredAt e i b row col j p a l (txt "SPED") W

/-- The mandatory temperature parts hold numbers for the six usual parameters. -/
structure Spec.UsualParts (i : DMInfo) : Prop where
  params : i.parts.length ≤ i.params.length
  six : ∀ (j : Nat) (p : PartInfo) (a : ParamInfo), i.parts[j]? = some p → i.params[j]? = some a → p.name = txt "TTAA" ∨ p.name = txt "TTCC" →
    p.dataType ≠ 3 ∧ a.names.Perm [txt "PRES", txt "HGHT", txt "TEMP", txt "DWPT", txt "DRCT", txt "SPED"]

/-- A level of a dataset with its temperature, with its dew point and wind unless missing, and with its height. -/
structure Spec.LevelShown (lower : Text → Text) (ps : SndParts α) (m : α) (d : SnData α) (k : Nat) (P Z T D R W : α) : Prop where
  pres : d.levels[k]? = some P
  temp : Spec.ShownAt d (lower (txt "TEMP")) k T
  dwpt : D ≠ m → Spec.ShownAt d (lower (txt "DWPT")) k D
  hght : Spec.NoTropAt ps P → Spec.ShownAt d (lower (txt "HGHT")) k Z
  wind : Spec.NoWindsByHeight ps m → R ≠ m → W ≠ m → Spec.ShownAt d (lower (txt "DRCT")) k R ∧ Spec.ShownAt d (lower (txt "SPED")) k W

/-- Value `v` at pressure `P` is on the line, in the logarithm of pressure, between the values at two levels of the dataset around it. -/
def Spec.BetweenLevels (c : Calc α) (d : SnData α) (name : Text) (P v : α) : Prop :=
  ∃ (k1 k2 : Nat) (P1 P2 v1 v2 : α), d.levels[k1]? = some P1 ∧ d.levels[k2]? = some P2 ∧ Spec.ShownAt d name k1 v1 ∧ Spec.ShownAt d name k2 v2 ∧
    ((P1 < P ∧ P < P2) ∨ (P2 < P ∧ P < P1)) ∧ v = v1 + (v2 - v1) * (c.log (P / P1) / c.log (P2 / P1))

/-! ## Rows of a profile -/

/-- The columns of a sounding by the names they have in a dataset. -/
def namedCols (lower : Text → Text) (x : Snd α) : List (Text × List α) :=
  [(lower (txt "HGHT"), x.hght), (lower (txt "TEMP"), x.temp), (lower (txt "DWPT"), x.dwpt), (lower (txt "DRCT"), x.drct), (lower (txt "SPED"), x.sped)]

/-- A row of the merged sounding is a row of the dataset, and the other way round. -/
theorem profile_rows {lower : Text → Text} {m : α} {x : Snd α} {d : SnData α} (h : IsProfile lower m x d) :
    ∃ σ : List Nat, σ.Perm (List.range x.pres.length) ∧ σ.length = d.levels.length ∧
      (∀ nc ∈ namedCols lower x, nc.2.length = x.pres.length) ∧
      ∀ k j : Nat, σ[k]? = some j → d.levels[k]? = x.pres[j]? ∧
        ∀ nc ∈ namedCols lower x, ∀ v, nc.2[j]? = some v → v ≠ m → ShownAt d nc.1 k v := by
  obtain ⟨σ, h1, h2, h3⟩ := h.table
  refine ⟨σ, h1, h2.length_eq, ?_, ?_⟩
  · intro nc hnc
    have : nc.2 ∈ [x.hght, x.temp, x.dwpt, x.drct, x.sped] := by
      simp only [namedCols, List.mem_cons, List.not_mem_nil, or_false] at hnc ⊢
      rcases hnc with rfl | rfl | rfl | rfl | rfl <;> simp
    obtain ⟨k, hk⟩ := List.mem_iff_getElem?.1 this
    obtain ⟨y, _, hr⟩ := forall₂_get h3 hk
    exact hr.1
  · intro k j hk
    obtain ⟨y, hy, hr⟩ := forall₂_get h2 hk
    refine ⟨by rw [hy, hr], ?_⟩
    intro nc hnc v hv hvm
    have hn := h.names
    obtain ⟨i, hi1, hi2⟩ : ∃ i : Nat, [x.hght, x.temp, x.dwpt, x.drct, x.sped][i]? = some nc.2 ∧
        [lower (txt "HGHT"), lower (txt "TEMP"), lower (txt "DWPT"), lower (txt "DRCT"), lower (txt "SPED")][i]? = some nc.1 := by
      simp only [namedCols, List.mem_cons, List.not_mem_nil, or_false] at hnc
      rcases hnc with rfl | rfl | rfl | rfl | rfl
      · exact ⟨0, rfl, rfl⟩
      · exact ⟨1, rfl, rfl⟩
      · exact ⟨2, rfl, rfl⟩
      · exact ⟨3, rfl, rfl⟩
      · exact ⟨4, rfl, rfl⟩
    obtain ⟨kv, hkv, _, hkv2⟩ := forall₂_get h3 hi1
    rw [← hn, List.getElem?_map, hkv] at hi2
    have hname : kv.1 = nc.1 := Option.some.inj hi2
    obtain ⟨w, hw, v', hv', hw'⟩ := forall₂_get hkv2 hk
    rw [hv] at hv'
    obtain rfl := Option.some.inj hv'
    rw [if_neg hvm] at hw'
    subst hw'
    exact ⟨kv.2, by rw [← hname]; exact List.mem_of_getElem? hkv, hw⟩

/-- What is shown is what the merged sounding has there, and is not the missing value, when the variables can be told apart. -/
theorem profile_shown {lower : Text → Text} {m : α} {x : Snd α} {d : SnData α} (h : IsProfile lower m x d) (hd : (d.vars.map Prod.fst).Nodup) :
    ∃ σ : List Nat, σ.Perm (List.range x.pres.length) ∧ σ.length = d.levels.length ∧
      (∀ nc ∈ namedCols lower x, nc.2.length = x.pres.length) ∧
      ∀ k j : Nat, σ[k]? = some j → d.levels[k]? = x.pres[j]? ∧
        ∀ nc ∈ namedCols lower x, ∀ v, ShownAt d nc.1 k v ↔ nc.2[j]? = some v ∧ v ≠ m := by
  obtain ⟨σ, h1, h2, h3⟩ := h.table
  refine ⟨σ, h1, h2.length_eq, ?_, ?_⟩
  · intro nc hnc
    have : nc.2 ∈ [x.hght, x.temp, x.dwpt, x.drct, x.sped] := by
      simp only [namedCols, List.mem_cons, List.not_mem_nil, or_false] at hnc ⊢
      rcases hnc with rfl | rfl | rfl | rfl | rfl <;> simp
    obtain ⟨k, hk⟩ := List.mem_iff_getElem?.1 this
    obtain ⟨y, _, hr⟩ := forall₂_get h3 hk
    exact hr.1
  · intro k j hk
    obtain ⟨y, hy, hr⟩ := forall₂_get h2 hk
    refine ⟨by rw [hy, hr], ?_⟩
    intro nc hnc v
    have hn := h.names
    obtain ⟨i, hi1, hi2⟩ : ∃ i : Nat, [x.hght, x.temp, x.dwpt, x.drct, x.sped][i]? = some nc.2 ∧
        [lower (txt "HGHT"), lower (txt "TEMP"), lower (txt "DWPT"), lower (txt "DRCT"), lower (txt "SPED")][i]? = some nc.1 := by
      simp only [namedCols, List.mem_cons, List.not_mem_nil, or_false] at hnc
      rcases hnc with rfl | rfl | rfl | rfl | rfl
      · exact ⟨0, rfl, rfl⟩
      · exact ⟨1, rfl, rfl⟩
      · exact ⟨2, rfl, rfl⟩
      · exact ⟨3, rfl, rfl⟩
      · exact ⟨4, rfl, rfl⟩
    obtain ⟨kv, hkv, _, hkv2⟩ := forall₂_get h3 hi1
    rw [← hn, List.getElem?_map, hkv] at hi2
    have hname : kv.1 = nc.1 := Option.some.inj hi2
    obtain ⟨w, hw, v', hv', hw'⟩ := forall₂_get hkv2 hk
    constructor
    · rintro ⟨col, hcol, hck⟩
      obtain ⟨i', hi'⟩ := List.mem_iff_getElem?.1 hcol
      have e : i' = i := by
        have a1 : (d.vars.map Prod.fst)[i']? = some nc.1 := by rw [List.getElem?_map, hi']; rfl
        have a2 : (d.vars.map Prod.fst)[i]? = some nc.1 := by rw [List.getElem?_map, hkv, ← hname]; rfl
        obtain ⟨l1, e1⟩ := List.getElem?_eq_some_iff.1 a1
        obtain ⟨l2, e2⟩ := List.getElem?_eq_some_iff.1 a2
        exact (List.Nodup.getElem_inj_iff hd).1 (e1.trans e2.symm)
      subst e
      rw [hkv] at hi'
      have hc : kv.2 = col := congrArg Prod.snd (Option.some.inj hi')
      rw [← hc, hw, hw'] at hck
      have hck := Option.some.inj hck
      by_cases hm : v' = m
      · rw [if_pos hm] at hck; cases hck
      · rw [if_neg hm] at hck
        obtain rfl := Option.some.inj hck
        exact ⟨hv', hm⟩
    · rintro ⟨hv, hvm⟩
      rw [hv] at hv'
      obtain rfl := Option.some.inj hv'
      rw [if_neg hvm] at hw'
      subst hw'
      exact ⟨kv.2, by rw [← hname]; exact List.mem_of_getElem? hkv, hw⟩

theorem perm_range_mem {σ : List Nat} {n : Nat} (h : σ.Perm (List.range n)) {j : Nat} : (∃ k : Nat, σ[k]? = some j) ↔ j < n := by
  rw [← List.mem_iff_getElem?, h.mem_iff, List.mem_range]

/-- Levels of the merged sounding are shown. -/
theorem levelIn_shown {lower : Text → Text} {m : α} {x : Snd α} {d : SnData α} (h : IsProfile lower m x d) {ps : SndParts α} {P Z T D R W : α} {j : Nat}
    (hT : T ≠ m) (hZ : Z ≠ m) (hl : LevelIn ps m x P Z T D R W j) : ∃ k, LevelShown lower ps m d k P Z T D R W := by
  obtain ⟨σ, h1, _, _, h3⟩ := profile_rows h
  obtain ⟨k, hk⟩ := (perm_range_mem h1).2 (List.getElem?_eq_some_iff.1 hl.pres).1
  obtain ⟨a, b⟩ := h3 k j hk
  refine ⟨k, ⟨by rw [a, hl.pres], ?_, fun hD => ?_, fun ht => ?_, fun hw hR hW => ⟨?_, ?_⟩⟩⟩
  · exact b (_, x.temp) (by simp [namedCols]) T hl.temp hT
  · exact b (_, x.dwpt) (by simp [namedCols]) D (hl.dwpt hD) hD
  · exact b (_, x.hght) (by simp [namedCols]) Z (hl.hght ht) hZ
  · exact b (_, x.drct) (by simp [namedCols]) R (hl.wind hw hR hW).1 hR
  · exact b (_, x.sped) (by simp [namedCols]) W (hl.wind hw hR hW).2 hW

/-! ## The parts of the file -/

/-- The mandatory parts read have the six columns. -/
theorem usual_six (e : LevEnv α) (selv : Int) {i : DMInfo} {b : Bytes} {row col : Nat} (ha : Addressable i) (hn : NamesApart i) (hu : UsualParts i)
    {ps : List (Text × List (Text × HVal))} (h : unmergedParts i b row col (i.parts.zip i.params) 0 [] = .ok ps) (name : String)
    (hname : name = "TTAA" ∨ name = "TTCC") (p : SndPart α) (hp : (e.parts selv ps).part name = some p) : SixNames p := by
  have hc := C94_parts i b row col ha hn ps h
  obtain ⟨cols, c1, c2⟩ := Option.map_eq_some_iff.1 hp
  obtain ⟨j, q, hj, hq, h0⟩ := hc.only _ _ c1
  obtain ⟨a, hpa⟩ : ∃ a, i.params[j]? = some a :=
    ⟨_, List.getElem?_eq_getElem (lt_of_lt_of_le (List.getElem?_eq_some_iff.1 hj).1 hu.params)⟩
  obtain ⟨cols', d1, d2, d3⟩ := hc.present j q a hj hpa h0
  rw [hq, c1] at d1
  obtain rfl := Option.some.inj d1
  obtain ⟨t3, six⟩ := hu.six j q a hj hpa (by
    rcases hname with rfl | rfl
    · exact Or.inl hq
    · exact Or.inr hq)
  have hnd : (cols.map Prod.fst).Nodup := by rw [d2]; exact hn.params a (List.mem_of_getElem? hpa)
  have hall : ∀ kv ∈ cols, ∃ y, e.column kv = some y ∧ y.1 = String.ofList kv.1 := by
    intro kv hkv
    obtain ⟨k, hk⟩ := List.mem_iff_getElem?.1 hkv
    have hk' : a.names[k]? = some kv.1 := by rw [← d2, List.getElem?_map, hk]; rfl
    obtain ⟨v, v1, v2⟩ := d3 k kv.1 hk'
    have : v = kv.2 := Option.some.inj (v1.symm.trans ((dictGet_eq_some hnd).2 hkv))
    subst this
    obtain ⟨n, v⟩ := kv
    rcases v2 with v2 | ⟨v2, _⟩
    · dsimp only at v2
      cases v2 with
      | real fs _ _ => exact ⟨_, rfl, rfl⟩
      | packed rs vs _ _ _ => exact ⟨_, rfl, rfl⟩
    · exact absurd v2 t3
  have hmap : (cols.filterMap e.column).map Prod.fst = (cols.map Prod.fst).map String.ofList := by
    clear hnd d3 d2 d1 c1 c2 hp
    induction cols with
    | nil => rfl
    | cons kv r ih =>
      obtain ⟨y, y1, y2⟩ := hall kv List.mem_cons_self
      rw [List.filterMap_cons, y1, List.map_cons, List.map_cons, List.map_cons, y2, ih fun kv h => hall kv (List.mem_cons_of_mem _ h)]
  unfold SixNames
  rw [← c2]
  have hm2 := six.map String.ofList
  rw [← d2, ← hmap] at hm2
  exact hm2

theorem part_has_levels {ps : SndParts α} {name key : String} {p : SndPart α} {i : Nat} {P : α} (hn : (name, key) ∈ levelColumns)
    (hp : ps.part name = some p) (h : p.at key i = .ok P) : ¬ NoLevels ps := by
  intro hno
  unfold SndPart.at at h
  obtain ⟨c, hc, h⟩ := run_inv h
  unfold SndPart.col at hc
  cases hf : p.find? (fun x => x.1 = key) with
  | none => rw [hf] at hc; cases hc
  | some x =>
    rw [hf] at hc
    obtain rfl := Except.ok.inj hc
    have hx : x.1 = key := by simpa using List.find?_some hf
    have := hno _ hn p hp x.2 (by rw [hf, ← hx])
    rw [this] at h
    cases h

/-- The dataset of a selected sounding. -/
theorem selected_dataset [FloorRing α] {c : Calc α} {e : LevEnv α} {fuel : Nat} {host : Endian} {b : Bytes} {f : SoundingReader}
    {upper lower : Text → Text} {q : SiteQuery} {ds : List (SnData α)} (ho : openSounding host b = .ok f)
    (h : f.unmergedDatasets c e fuel upper lower q = .ok ds) {s : SiteInfo} (hs : s ∈ selected upper (AsksExactly upper) q f.sninfo) :
    ∃ ps, unmergedParts f.info f.bytes s.row s.col (f.info.parts.zip f.info.params) 0 [] = .ok ps ∧
      (¬ NoLevels (e.parts s.elev ps) → ∃ d ∈ ds, Describes s d ∧ ∃ x,
        mergeSounding c (e.flt f.info.label.missingFloat) fuel (e.parts s.elev ps) = .ok (some x) ∧
        IsProfile lower (e.flt f.info.label.missingFloat) x d) := by
  obtain ⟨Ts, t1, t2, t3⟩ := C76_datasets c e fuel host b f upper lower q ds ho h
  rw [← t1] at hs
  obtain ⟨t, ht1, rfl⟩ := List.mem_map.1 hs
  obtain ⟨ps, r1, r2, r3⟩ := (t3 t ht1).parts
  refine ⟨ps, r1, fun hno => ?_⟩
  obtain ⟨d, hd⟩ : ∃ d, t.2 = some d := by
    cases hx : t.2 with
    | none => exact absurd (r2.1 hx) hno
    | some d => exact ⟨d, rfl⟩
  obtain ⟨d1, x, _⟩ := r3 d hd
  exact ⟨d, by rw [t2]; exact List.mem_filterMap.2 ⟨t, ht1, hd⟩, d1, x⟩

/-- The part of a record, and its levels. -/
theorem stored_part (e : LevEnv α) (selv : Int) {i : DMInfo} {b : Bytes} {row col : Nat} (ha : Addressable i) (hn : NamesApart i)
    {ps : List (Text × List (Text × HVal))} (h : unmergedParts i b row col (i.parts.zip i.params) 0 [] = .ok ps) {j : Nat} {p : PartInfo}
    {a : ParamInfo} (hp : i.parts[j]? = some p) (hpa : i.params[j]? = some a) (h0 : partWord i b row col j ≠ 0) :
    ∃ part, (e.parts selv ps).part (String.ofList p.name) = some part ∧
      ∀ l n v, StoredAt e i b row col j p a l n v → part.at (String.ofList n) l = .ok v := by
  obtain ⟨cols, c1, _⟩ := (C94_parts i b row col ha hn ps h).present j p a hp hpa h0
  have hpart : (e.parts selv ps).part (String.ofList p.name) = some (cols.filterMap e.column) := by
    show (dictGet ps (String.ofList p.name).toList).map _ = _
    rw [String.toList_ofList, c1]
    rfl
  refine ⟨_, hpart, ?_⟩
  rintro l n v ⟨k, k1, ⟨ht, w, k2, rfl⟩ | ⟨ht, rs, r, k2, k3, rfl⟩⟩
  · obtain ⟨part, h1, h2⟩ := (C94_numbers e selv i b row col ha hn ps h j p a hp hpa ht).2 h0
    obtain rfl := Option.some.inj (hpart.symm.trans h1)
    unfold partBody at k2
    rw [List.getElem?_map] at k2
    obtain ⟨w', g1, rfl⟩ := Option.map_eq_some_iff.1 k2
    obtain ⟨g2, g3⟩ := List.getElem?_eq_some_iff.1 g1
    rw [List.getElem_range] at g3
    rw [List.length_range] at g2
    rw [h2 k n k1 l, if_pos g2, g3]
  · obtain ⟨part, h1, h2⟩ := C94_packed e selv i b row col ha hn ps h j p a hp hpa ht h0
    obtain rfl := Option.some.inj (hpart.symm.trans h1)
    obtain ⟨rs', g1, g2⟩ := h2 k n k1
    have : rs' = rs := by
      unfold partBody at k2
      rw [List.map_map, List.length_map, List.length_range] at k2
      exact Except.ok.inj (g1.symm.trans k2)
    subst this
    rw [g2 l]
    unfold idx
    rw [List.getElem?_map, k3]
    rfl

/-! ## The claims -/

/-- Where a mandatory level is: in the first part, above the surface, or in the second; and its pressure is less than those before it. -/
def Spec.InLevelOrder (ps : SndParts α) (m : α) (name : Text) (l : Nat) (P : α) : Prop :=
  (name = txt "TTAA" ∧ 1 ≤ l ∧ ∀ p, ps.part "TTAA" = some p → Above m P p 1 l) ∨
  (name = txt "TTCC" ∧ (∀ p, ps.part "TTCC" = some p → Above m P p 0 l) ∧
    ∀ q col, ps.part "TTAA" = some q → q.col "PRES" = .ok col → Above m P q 1 col.length)

/-- C113: whatever unmerged file is opened and whatever is asked for: a mandatory level in the records of a selected sounding is a level of
the dataset of that sounding, with the temperature, the dew point and the wind of the record, and its height.  The level is to give pressure,
temperature and height and to be above the surface and in order.
Missing: heights where there is a tropopause, winds where winds are given by height (C87). -/
theorem C113_levels_partial [FloorRing α] (c : Calc α) (e : LevEnv α) (fuel : Nat) (host : Endian) (b : Bytes) (f : SoundingReader)
    (upper lower : Text → Text) (q : SiteQuery) (ds : List (SnData α)) (ho : openSounding host b = .ok f)
    (h : f.unmergedDatasets c e fuel upper lower q = .ok ds) (ha : Addressable f.info) (hn : NamesApart f.info) (hu : UsualParts f.info)
    (s : SiteInfo) (hs : s ∈ selected upper (AsksExactly upper) q f.sninfo) (j : Nat) (p : PartInfo) (a : ParamInfo)
    (hp : f.info.parts[j]? = some p) (hpa : f.info.params[j]? = some a) (h0 : partWord f.info f.bytes s.row s.col j ≠ 0)
    (l : Nat) (P Z T D R W : α) (hl : StoredLevel e f.info f.bytes s.row s.col j p a l P Z T D R W) :
    ∃ ps, unmergedParts f.info f.bytes s.row s.col (f.info.parts.zip f.info.params) 0 [] = .ok ps ∧
      (Taken (e.parts s.elev ps) (e.flt f.info.label.missingFloat) P Z T →
        InLevelOrder (e.parts s.elev ps) (e.flt f.info.label.missingFloat) p.name l P →
        ∃ d ∈ ds, Describes s d ∧ ∃ k, LevelShown lower (e.parts s.elev ps) (e.flt f.info.label.missingFloat) d k P Z T D R W) := by
  obtain ⟨ps, r1, r2⟩ := selected_dataset ho h hs
  refine ⟨ps, r1, fun hk hin => ?_⟩
  obtain ⟨part, p1, p2⟩ := stored_part e s.elev ha hn r1 hp hpa h0
  have hA := fun x => usual_six e s.elev ha hn hu r1 "TTAA" (Or.inl rfl) x
  have hC := fun x => usual_six e s.elev ha hn hu r1 "TTCC" (Or.inr rfl) x
  have hpl : PartLevel part l P Z T D R W :=
    ⟨p2 _ _ _ hl.pres, p2 _ _ _ hl.hght, p2 _ _ _ hl.temp, p2 _ _ _ hl.dwpt, p2 _ _ _ hl.drct, p2 _ _ _ hl.sped⟩
  have hlev : (String.ofList p.name, "PRES") ∈ levelColumns := by
    rcases hin with ⟨e, _⟩ | ⟨e, _⟩ <;> rw [e] <;> decide
  obtain ⟨d, d0, d1, x, x1, x2⟩ := r2 (part_has_levels hlev p1 hpl.pres)
  refine ⟨d, d0, d1, ?_⟩
  have hin2 : ∃ j, LevelIn (e.parts s.elev ps) (e.flt f.info.label.missingFloat) x P Z T D R W j := by
    rcases hin with ⟨en, g1, g2⟩ | ⟨en, g1, g2⟩
    · rw [en] at p1
      exact C87_mandatory_partial c _ fuel _ x part (hA _ p1) hC p1 x1 l P Z T D R W g1 hpl hk (g2 _ p1)
    · rw [en] at p1
      exact C87_upper_partial c _ fuel _ x part hA (hC _ p1) p1 x1 l P Z T D R W hpl hk (g1 _ p1) g2
  obtain ⟨j', hj'⟩ := hin2
  exact levelIn_shown x2 hk.2.1 hk.2.2.1 hj'

/-- Where a significant temperature or a tropopause stands: after levels of higher pressure only. -/
def Spec.InPressureOrder (ps : SndParts α) (name : Text) (l : Nat) (P : α) : Prop :=
  (∀ p, ps.part (String.ofList name) = some p → AbsAbove P p l) ∧
    ∀ n, (String.ofList name, n) ∈ [("TTDD", "TTBB"), ("TRPC", "TRPA"), ("MXWC", "MXWA")] → AllBelow ps n P

/-- Parts that are merged before a part of significant temperatures, and before a tropopause. -/
def Spec.mergedBefore (name : Text) : List String :=
  if name = txt "TRPA" ∨ name = txt "TRPC" then ["TTAA", "TTCC"] else ["TTAA", "TTCC", "TRPA", "TRPC"]

/-- A shown temperature or wind of a level. -/
theorem row_shown {lower : Text → Text} {m : α} {x : Snd α} {d : SnData α} (h : IsProfile lower m x d) {P : α} {j : Nat} (hj : x.pres[j]? = some P) :
    ∃ k : Nat, d.levels[k]? = some P ∧ ∀ nc ∈ namedCols lower x, ∀ v, nc.2[j]? = some v → v ≠ m → ShownAt d nc.1 k v := by
  obtain ⟨σ, h1, _, _, h3⟩ := profile_rows h
  obtain ⟨k, hk⟩ := (perm_range_mem h1).2 (List.getElem?_eq_some_iff.1 hj).1
  obtain ⟨a, b⟩ := h3 k j hk
  exact ⟨k, by rw [a, hj], b⟩

/-- C113: a significant temperature, or the tropopause, in the records of a selected sounding is at a level of its dataset; the temperature and the
dew point shown there are those of the record unless a part merged before has a level at that pressure. -/
theorem C113_temperatures [FloorRing α] (c : Calc α) (e : LevEnv α) (fuel : Nat) (host : Endian) (b : Bytes) (f : SoundingReader)
    (upper lower : Text → Text) (q : SiteQuery) (ds : List (SnData α)) (ho : openSounding host b = .ok f)
    (h : f.unmergedDatasets c e fuel upper lower q = .ok ds) (ha : Addressable f.info) (hn : NamesApart f.info)
    (s : SiteInfo) (hs : s ∈ selected upper (AsksExactly upper) q f.sninfo) (j : Nat) (p : PartInfo) (a : ParamInfo)
    (hp : f.info.parts[j]? = some p) (hpa : f.info.params[j]? = some a) (h0 : partWord f.info f.bytes s.row s.col j ≠ 0)
    (hname : p.name ∈ [txt "TTBB", txt "TTDD", txt "TRPA", txt "TRPC"]) (l : Nat) (x T D R W : α)
    (hx : StoredAt e f.info f.bytes s.row s.col j p a l (txt "PRES") x) (hT : StoredAt e f.info f.bytes s.row s.col j p a l (txt "TEMP") T)
    (hD : StoredAt e f.info f.bytes s.row s.col j p a l (txt "DWPT") D)
    (hw : p.name = txt "TRPA" ∨ p.name = txt "TRPC" → StoredAt e f.info f.bytes s.row s.col j p a l (txt "DRCT") R ∧
      StoredAt e f.info f.bytes s.row s.col j p a l (txt "SPED") W)
    (hx0 : |x| ≠ 0) (hTm : T ≠ e.flt f.info.label.missingFloat) :
    ∃ ps, unmergedParts f.info f.bytes s.row s.col (f.info.parts.zip f.info.params) 0 [] = .ok ps ∧
      (GoodReport (e.parts s.elev ps) (e.flt f.info.label.missingFloat) →
        AboveSurface (e.parts s.elev ps) (e.flt f.info.label.missingFloat) |x| → InPressureOrder (e.parts s.elev ps) p.name l |x| →
        ∃ d ∈ ds, Describes s d ∧ ∃ k : Nat, d.levels[k]? = some |x| ∧ ∃ T', ShownAt d (lower (txt "TEMP")) k T' ∧
          (NewAt (e.parts s.elev ps) (mergedBefore p.name) |x| →
            T' = T ∧ (D ≠ e.flt f.info.label.missingFloat → ShownAt d (lower (txt "DWPT")) k D))) := by
  obtain ⟨ps, r1, r2⟩ := selected_dataset ho h hs
  refine ⟨ps, r1, fun hg hsf hin => ?_⟩
  obtain ⟨part, p1, p2⟩ := stored_part e s.elev ha hn r1 hp hpa h0
  have gx := p2 _ _ _ hx
  have gT := p2 _ _ _ hT
  have gD := p2 _ _ _ hD
  have hlev : (String.ofList p.name, "PRES") ∈ levelColumns := by
    simp only [List.mem_cons, List.not_mem_nil, or_false] at hname
    rcases hname with e | e | e | e <;> rw [e] <;> decide
  obtain ⟨d, d0, d1, y, y1, y2⟩ := r2 (part_has_levels hlev p1 gx)
  refine ⟨d, d0, d1, ?_⟩
  have key : ∃ j : Nat, y.pres[j]? = some |x| ∧ ∃ T', y.temp[j]? = some T' ∧ T' ≠ e.flt f.info.label.missingFloat ∧
      (NewAt (e.parts s.elev ps) (mergedBefore p.name) |x| → T' = T ∧ (D ≠ e.flt f.info.label.missingFloat → y.dwpt[j]? = some D)) := by
    obtain ⟨i1, i2⟩ := hin
    have i1 := i1 _ p1
    simp only [List.mem_cons, List.not_mem_nil, or_false] at hname
    rcases hname with en | en | en | en <;> rw [en] at p1 i2 hw <;> unfold mergedBefore <;> rw [en]
    · exact C88_temperature c _ fuel _ y part hg y1 "TTBB" (Or.inl rfl) p1 l x T D gx gT gD hx0 hTm hsf i1 (fun e => absurd e (by decide))
    · exact C88_temperature c _ fuel _ y part hg y1 "TTDD" (Or.inr rfl) p1 l x T D gx gT gD hx0 hTm hsf i1 (fun _ => i2 "TTBB" (by decide))
    · obtain ⟨w1, w2⟩ := hw (Or.inl rfl)
      exact C88_tropopause c _ fuel _ y part hg y1 "TRPA" (Or.inl rfl) p1 l x T D R W gx gT gD (p2 _ _ _ w1) (p2 _ _ _ w2) hx0 hTm hsf i1
        (fun e => absurd e (by decide))
    · obtain ⟨w1, w2⟩ := hw (Or.inr rfl)
      exact C88_tropopause c _ fuel _ y part hg y1 "TRPC" (Or.inr rfl) p1 l x T D R W gx gT gD (p2 _ _ _ w1) (p2 _ _ _ w2) hx0 hTm hsf i1
        (fun _ => i2 "TRPA" (by decide))
  obtain ⟨j', e1, T', e2, e3, e4⟩ := key
  obtain ⟨k, k1, k2⟩ := row_shown y2 e1
  refine ⟨k, k1, T', k2 (_, y.temp) (by simp [namedCols]) T' e2 e3, fun hnew => ⟨(e4 hnew).1, fun hDm => ?_⟩⟩
  exact k2 (_, y.dwpt) (by simp [namedCols]) D ((e4 hnew).2 hDm) hDm

/-- C113: a significant wind on pressure, or a maximum wind, in the records of a selected sounding is at a level of its dataset; direction and speed
shown there are those of the record unless a part merged before has a level at that pressure. -/
theorem C113_winds [FloorRing α] (c : Calc α) (e : LevEnv α) (fuel : Nat) (host : Endian) (b : Bytes) (f : SoundingReader)
    (upper lower : Text → Text) (q : SiteQuery) (ds : List (SnData α)) (ho : openSounding host b = .ok f)
    (h : f.unmergedDatasets c e fuel upper lower q = .ok ds) (ha : Addressable f.info) (hn : NamesApart f.info)
    (s : SiteInfo) (hs : s ∈ selected upper (AsksExactly upper) q f.sninfo) (j : Nat) (p : PartInfo) (a : ParamInfo)
    (hp : f.info.parts[j]? = some p) (hpa : f.info.params[j]? = some a) (h0 : partWord f.info f.bytes s.row s.col j ≠ 0)
    (hname : p.name ∈ [txt "PPBB", txt "PPDD", txt "MXWA", txt "MXWC"]) (l : Nat) (x R W : α)
    (hx : StoredAt e f.info f.bytes s.row s.col j p a l (txt "PRES") x) (hR : StoredAt e f.info f.bytes s.row s.col j p a l (txt "DRCT") R)
    (hW : StoredAt e f.info f.bytes s.row s.col j p a l (txt "SPED") W) (hx0 : |x| ≠ 0) (hRm : R ≠ e.flt f.info.label.missingFloat)
    (hWm : W ≠ e.flt f.info.label.missingFloat) :
    ∃ ps, unmergedParts f.info f.bytes s.row s.col (f.info.parts.zip f.info.params) 0 [] = .ok ps ∧
      (GoodReport (e.parts s.elev ps) (e.flt f.info.label.missingFloat) → NoWindsByHeight (e.parts s.elev ps) (e.flt f.info.label.missingFloat) →
        AboveSurface (e.parts s.elev ps) (e.flt f.info.label.missingFloat) |x| → InPressureOrder (e.parts s.elev ps) p.name l |x| →
        (p.name = txt "PPDD" → AllWindsBelow (e.parts s.elev ps) (e.flt f.info.label.missingFloat) "PPBB" |x|) →
        ∃ d ∈ ds, Describes s d ∧ ∃ k : Nat, d.levels[k]? = some |x| ∧ ∃ R' W', ShownAt d (lower (txt "DRCT")) k R' ∧
          ShownAt d (lower (txt "SPED")) k W' ∧
          (NewAt (e.parts s.elev ps) ["TTAA", "TTCC", "TRPA", "TRPC"] |x| →
            (p.name = txt "MXWA" ∨ p.name = txt "MXWC" → NoSigWindAt (e.parts s.elev ps) (e.flt f.info.label.missingFloat) |x|) →
            R' = R ∧ W' = W)) := by
  obtain ⟨ps, r1, r2⟩ := selected_dataset ho h hs
  refine ⟨ps, r1, fun hg hz hsf hin hdd => ?_⟩
  obtain ⟨part, p1, p2⟩ := stored_part e s.elev ha hn r1 hp hpa h0
  have gx : part.at "PRES" l = .ok x := p2 _ _ _ hx
  have gR : part.at "DRCT" l = .ok R := p2 _ _ _ hR
  have gW : part.at "SPED" l = .ok W := p2 _ _ _ hW
  have hpres : part.any (fun y => y.1 = "PRES") = true := by
    unfold SndPart.at at gx
    obtain ⟨col, hc, _⟩ := run_inv gx
    unfold SndPart.col at hc
    cases hf : part.find? (fun x => x.1 = "PRES") with
    | none => rw [hf] at hc; cases hc
    | some y => exact List.any_eq_true.2 ⟨y, List.mem_of_find?_eq_some hf, by simpa using List.find?_some hf⟩
  have hlev : ¬ NoLevels (e.parts s.elev ps) := by
    simp only [List.mem_cons, List.not_mem_nil, or_false] at hname
    rcases hname with en | en | en | en <;> rw [en] at p1
    · exact part_has_levels (key := "SPED") (by decide) p1 gW
    · exact part_has_levels (key := "SPED") (by decide) p1 gW
    · exact part_has_levels (key := "PRES") (by decide) p1 gx
    · exact part_has_levels (key := "SPED") (by decide) p1 gW
  obtain ⟨d, d0, d1, y, y1, y2⟩ := r2 hlev
  refine ⟨d, d0, d1, ?_⟩
  have key : ∃ j : Nat, y.pres[j]? = some |x| ∧ ∃ R' W', y.drct[j]? = some R' ∧ y.sped[j]? = some W' ∧ R' ≠ e.flt f.info.label.missingFloat ∧
      W' ≠ e.flt f.info.label.missingFloat ∧ (NewAt (e.parts s.elev ps) ["TTAA", "TTCC", "TRPA", "TRPC"] |x| →
        (p.name = txt "MXWA" ∨ p.name = txt "MXWC" → NoSigWindAt (e.parts s.elev ps) (e.flt f.info.label.missingFloat) |x|) → R' = R ∧ W' = W) := by
    obtain ⟨i1, i2⟩ := hin
    have i1 := i1 _ p1
    have i3 : WindsBelow |x| part l := fun j y hj hy => by
      rcases hy with hy | ⟨hy, _⟩
      · exact i1 j y hj hy
      · rw [hpres] at hy; cases hy
    simp only [List.mem_cons, List.not_mem_nil, or_false] at hname
    rcases hname with en | en | en | en <;> rw [en] at p1 i2 hdd <;> rw [en]
    · obtain ⟨j, g1, R', W', g2, g3, g4, g5, g6⟩ := C88_wind c _ fuel _ y part hg hz y1 "PPBB" (Or.inl rfl) p1 (Or.inl hpres) l x R W (Or.inl gx) gR gW
        hx0 hRm hWm hsf i3 (fun e => absurd e (by decide))
      exact ⟨j, g1, R', W', g2, g3, g4, g5, fun a _ => g6 a⟩
    · obtain ⟨j, g1, R', W', g2, g3, g4, g5, g6⟩ := C88_wind c _ fuel _ y part hg hz y1 "PPDD" (Or.inr rfl) p1 (Or.inl hpres) l x R W (Or.inl gx) gR gW
        hx0 hRm hWm hsf i3 (fun _ => hdd rfl)
      exact ⟨j, g1, R', W', g2, g3, g4, g5, fun a _ => g6 a⟩
    · obtain ⟨j, g1, R', W', g2, g3, g4, g5, g6⟩ := C88_maximum_wind c _ fuel _ y part hg hz y1 "MXWA" (Or.inl rfl) p1 l x R W gx gR gW
        hx0 hRm hWm hsf i1 (fun e => absurd e (by decide))
      exact ⟨j, g1, R', W', g2, g3, g4, g5, fun a b => g6 a (b (Or.inl rfl))⟩
    · obtain ⟨j, g1, R', W', g2, g3, g4, g5, g6⟩ := C88_maximum_wind c _ fuel _ y part hg hz y1 "MXWC" (Or.inr rfl) p1 l x R W gx gR gW
        hx0 hRm hWm hsf i1 (fun _ => i2 "MXWA" (by decide))
      exact ⟨j, g1, R', W', g2, g3, g4, g5, fun a b => g6 a (b (Or.inr rfl))⟩
  obtain ⟨j', e1, R', W', e2, e3, e4, e5, e6⟩ := key
  obtain ⟨k, k1, k2⟩ := row_shown y2 e1
  exact ⟨k, k1, R', W', k2 (_, y.drct) (by simp [namedCols]) R' e2 e4, k2 (_, y.sped) (by simp [namedCols]) W' e3 e5, e6⟩

theorem onLine_between {lower : Text → Text} {c : Calc α} {m : α} {x : Snd α} {d : SnData α} (h : IsProfile lower m x d) {name : Text} {C : List α}
    (hnc : (name, C) ∈ namedCols lower x) {j : Nat} (hl : OnLine c m x.pres C j) : BetweenLevels c d name (x.pres.getD j m) (C.getD j m) := by
  obtain ⟨a, b, _, _, h1, ha, hb, hv⟩ := hl
  obtain ⟨σ, s1, _, s2, s3⟩ := profile_rows h
  have hlen : C.length = x.pres.length := s2 _ hnc
  have key : ∀ i, C.getD i m ≠ m → ∃ k : Nat, d.levels[k]? = some (x.pres.getD i m) ∧ ShownAt d name k (C.getD i m) := by
    intro i hi
    have hi2 : i < C.length := by
      by_contra hc
      exact hi (by rw [List.getD_eq_getElem?_getD, List.getElem?_eq_none (by omega)]; rfl)
    obtain ⟨k, hk⟩ := (perm_range_mem s1).2 (hlen ▸ hi2)
    obtain ⟨e1, e2⟩ := s3 k i hk
    refine ⟨k, ?_, e2 _ hnc _ ?_ hi⟩
    · rw [e1, List.getD_eq_getElem?_getD, List.getElem?_eq_getElem (by omega : i < x.pres.length)]; rfl
    · show C[i]? = _
      rw [List.getD_eq_getElem?_getD, List.getElem?_eq_getElem hi2]; rfl
  obtain ⟨k1, q1, q2⟩ := key a ha
  obtain ⟨k2, q3, q4⟩ := key b hb
  exact ⟨k1, k2, _, _, _, _, q1, q3, q2, q4, h1, hv⟩

/-- C113: nothing else is shown: every level of every dataset returned is a level of a part of the records of its sounding, by pressure or (for
winds) by height, and every temperature and dew point shown is one that a part gives for that pressure or is interpolated between
two other levels of the dataset. -/
theorem C113_nothing_else [FloorRing α] [IsStrictOrderedRing α] (c : Calc α) (e : LevEnv α) (fuel : Nat) (host : Endian) (b : Bytes)
    (f : SoundingReader) (upper lower : Text → Text) (q : SiteQuery) (ds : List (SnData α)) (ho : openSounding host b = .ok f)
    (h : f.unmergedDatasets c e fuel upper lower q = .ok ds) (ha : Addressable f.info) (hn : NamesApart f.info) (hu : UsualParts f.info)
    (hm : e.flt f.info.label.missingFloat = -9999)
    (hlow : [lower (txt "HGHT"), lower (txt "TEMP"), lower (txt "DWPT"), lower (txt "DRCT"), lower (txt "SPED")].Nodup)
    (d : SnData α) (hd : d ∈ ds) :
    ∃ s ∈ selected upper (AsksExactly upper) q f.sninfo, Describes s d ∧ ∃ ps,
      unmergedParts f.info f.bytes s.row s.col (f.info.parts.zip f.info.params) 0 [] = .ok ps ∧
      ∀ (k : Nat) (P : α), d.levels[k]? = some P →
        (P ≠ -9999 → PressureIn (e.parts s.elev ps) P ∨ ∃ Z, (Z = -9999 ∨ ShownAt d (lower (txt "HGHT")) k Z) ∧ WindHeight (e.parts s.elev ps) Z) ∧
        (∀ v, ShownAt d (lower (txt "TEMP")) k v → ReadBy NearP (e.parts s.elev ps) "TEMP" P v ∨ BetweenLevels c d (lower (txt "TEMP")) P v) ∧
        ∀ v, ShownAt d (lower (txt "DWPT")) k v → ReadBy NearP (e.parts s.elev ps) "DWPT" P v ∨ BetweenLevels c d (lower (txt "DWPT")) P v := by
  obtain ⟨Ts, t1, t2, t3⟩ := C76_datasets c e fuel host b f upper lower q ds ho h
  rw [t2] at hd
  obtain ⟨t, ht1, ht2⟩ := List.mem_filterMap.1 hd
  obtain ⟨ps, r1, _, r3⟩ := (t3 t ht1).parts
  obtain ⟨d1, ⟨x, x1, x2⟩, _⟩ := r3 d ht2
  rw [hm] at x1 x2
  refine ⟨t.1, by rw [← t1]; exact List.mem_map_of_mem ht1, d1, ps, r1, fun k P hP => ?_⟩
  have hA := fun x => usual_six e t.1.elev ha hn hu r1 "TTAA" (Or.inl rfl) x
  have hC := fun x => usual_six e t.1.elev ha hn hu r1 "TTCC" (Or.inr rfl) x
  obtain ⟨σ, s1, s2, s3, s4⟩ := profile_shown x2 (by rw [x2.names]; exact hlow)
  obtain ⟨j, hj⟩ : ∃ j, σ[k]? = some j := ⟨_, List.getElem?_eq_getElem (by rw [s2]; exact (List.getElem?_eq_some_iff.1 hP).1)⟩
  obtain ⟨e1, e2⟩ := s4 k j hj
  have hjl := (perm_range_mem s1).1 ⟨k, hj⟩
  have hPj : x.pres.getD j (-9999) = P := by
    rw [List.getD_eq_getElem?_getD, ← e1, hP]; rfl
  have hr := C108_from_report c fuel _ x hA hC x1 j
  have val : ∀ {C : List α} {v : α}, C[j]? = some v → C.getD j (-9999) = v := fun h => by
    rw [List.getD_eq_getElem?_getD, h]; rfl
  refine ⟨fun hne => ?_, fun v hv => ?_, fun v hv => ?_⟩
  · have := hr.pres (by rw [hPj]; exact hne)
    rw [hPj] at this
    refine this.imp_right fun hz => ⟨_, ?_, hz⟩
    by_cases hz9 : x.hght.getD j (-9999) = -9999
    · exact Or.inl hz9
    · refine Or.inr ((e2 (_, x.hght) (by simp [namedCols]) _).2 ⟨?_, hz9⟩)
      have hl : j < x.hght.length := by rw [s3 (_, x.hght) (by simp [namedCols] : (lower (txt "HGHT"), x.hght) ∈ _)]; exact hjl
      show x.hght[j]? = _
      rw [List.getD_eq_getElem?_getD, List.getElem?_eq_getElem hl]; rfl
  · have hnc : (lower (txt "TEMP"), x.temp) ∈ namedCols lower x := by simp [namedCols]
    obtain ⟨w1, w2⟩ := (e2 _ hnc v).1 hv
    have hg := val w1
    have := hr.temp (by rw [hg]; exact w2)
    rw [hPj, hg] at this
    refine this.imp_right fun hz => ?_
    have := onLine_between x2 hnc hz
    rwa [hPj, hg] at this
  · have hnc : (lower (txt "DWPT"), x.dwpt) ∈ namedCols lower x := by simp [namedCols]
    obtain ⟨w1, w2⟩ := (e2 _ hnc v).1 hv
    have hg := val w1
    have := hr.dwpt (by rw [hg]; exact w2)
    rw [hPj, hg] at this
    refine this.imp_right fun hz => ?_
    have := onLine_between x2 hnc hz
    rwa [hPj, hg] at this

end

/-! ## A case -/

/-- What the file with mandatory levels and significant temperatures holds. -/
def bothHeld : Option ((Int × Int × Int) × List (Text × Int × Int) × List (List Text) × (Nat × ℚ × Nat × List Nat × Nat × List Nat) ×
    List (Option (List (String × List ℚ)))) :=
  (openSounding .little bothParts).toOption.bind fun f => f.infos[0]?.bind fun s =>
    (unmergedParts f.info f.bytes s.row s.col (f.info.parts.zip f.info.params) 0 []).toOption.map fun ps =>
      ((f.info.label.dataBlockPtr, f.info.label.columns, f.info.label.parts),
        f.info.parts.map (fun p => (p.name, p.headerLength, p.dataType)), f.info.params.map ParamInfo.names,
        (f.infos.length, ratEnv.flt f.info.label.missingFloat, partWord f.info f.bytes s.row s.col 0,
          (f.info.parts[0]?.map (partBody f.info f.bytes s.row s.col 0)).getD [], partWord f.info f.bytes s.row s.col 1,
          (f.info.parts[1]?.map (partBody f.info f.bytes s.row s.col 1)).getD []),
        ["TTAA", "TTBB", "PPBB", "TTCC", "TRPA", "TRPC"].map (ratEnv.parts s.elev ps).part)

set_option synthInstance.maxSize 10000 in
set_option synthInstance.maxHeartbeats 400000 in
theorem bothHeld_eq : bothHeld = some ((96, 1, 2), [(txt "TTAA", 0, 1), (txt "TTBB", 0, 1)],
    [[txt "PRES", txt "TEMP", txt "DWPT", txt "DRCT", txt "SPED", txt "HGHT"], [txt "PRES", txt "TEMP", txt "DWPT"]],
    (1, -9999, 98, [0x447A0000, 0x41A00000, 0x41700000, 0x42B40000, 0x40A00000, 0x42C80000, 0x44548000, 0x41200000, 0x40A00000, 0x43340000, 0x41200000,
      0x44BB8000], 111, [0x447A0000, 0x41A00000, 0x41700000, 0x44610000, 0x41400000, 0x40C00000]),
    [some [("PRES", [1000, 850]), ("TEMP", [20, 10]), ("DWPT", [15, 5]), ("DRCT", [90, 180]), ("SPED", [5, 10]), ("HGHT", [100, 1500])],
     some [("PRES", [1000, 900]), ("TEMP", [20, 12]), ("DWPT", [15, 6])], none, none, none, none]) := by
  decide +kernel

/-- The hypotheses of C113 are met by that file: it is read without any criterion, and the level at 850 hPa of its mandatory part and the
significant temperature at 900 hPa are shown in a dataset. -/
example : ∃ f ds s ps, openSounding .little bothParts = .ok f ∧
    f.unmergedDatasets (⟨fun x => x - 1, fun x => x + 1⟩ : Calc ℚ) ratEnv 5 id id {} = .ok ds ∧ Addressable f.info ∧ NamesApart f.info ∧
    UsualParts f.info ∧ ratEnv.flt f.info.label.missingFloat = -9999 ∧
    (∃ d ∈ ds, Describes s d ∧ ∃ k, LevelShown id (ratEnv.parts s.elev ps) (-9999) d k 850 1500 10 5 180 10) ∧
    ∃ d ∈ ds, Describes s d ∧ ∃ k : Nat, d.levels[k]? = some 900 ∧ ShownAt d (txt "TEMP") k 12 ∧ ShownAt d (txt "DWPT") k 6 := by
  have key := bothFound_eq
  have key2 := bothHeld_eq
  unfold bothFound at key
  unfold bothHeld at key2
  obtain ⟨f, h1, key⟩ := Option.bind_eq_some_iff.1 key
  rw [h1, Option.bind_some] at key2
  obtain ⟨s, h2, key⟩ := Option.bind_eq_some_iff.1 key
  rw [h2, Option.bind_some] at key2
  obtain ⟨o, h3, key⟩ := Option.bind_eq_some_iff.1 key
  obtain ⟨x, h4, key⟩ := Option.bind_eq_some_iff.1 key
  subst h4
  clear key
  have toOk : ∀ {ε β : Type} {y : Except ε β} {b : β}, y.toOption = some b → y = .ok b := by
    intro ε β y b h
    cases y with
    | error e => cases h
    | ok v => exact congrArg Except.ok (Option.some.inj h)
  have h3 := toOk h3
  have ho := toOk h1
  obtain ⟨ps, hps, key2⟩ := Option.map_eq_some_iff.1 key2
  have hps := toOk hps
  obtain ⟨k1, key2⟩ := Prod.mk.inj key2
  obtain ⟨k2, key2⟩ := Prod.mk.inj key2
  obtain ⟨k3, key2⟩ := Prod.mk.inj key2
  obtain ⟨k4, k5⟩ := Prod.mk.inj key2
  obtain ⟨k6, k4⟩ := Prod.mk.inj k4
  obtain ⟨k7, k4⟩ := Prod.mk.inj k4
  obtain ⟨k8, k4⟩ := Prod.mk.inj k4
  obtain ⟨k9, k4⟩ := Prod.mk.inj k4
  obtain ⟨k13, k14⟩ := Prod.mk.inj k4
  obtain ⟨k10, k1⟩ := Prod.mk.inj k1
  obtain ⟨k11, k12⟩ := Prod.mk.inj k1
  -- one sounding
  have hinf : f.infos = [s] := by
    match hf : f.infos, k6 with
    | [y], _ => rw [hf] at h2; rw [Option.some.inj h2]
  have hsn : f.sninfo = [s] := by unfold SoundingReader.sninfo; rw [hinf]; exact List.mergeSort_singleton _
  -- the description of the parts
  obtain ⟨p0, p1, hparts⟩ : ∃ p0 p1, f.info.parts = [p0, p1] := by
    match hf : f.info.parts, congrArg List.length k2 with
    | [y, z], _ => exact ⟨y, z, rfl⟩
  obtain ⟨a0, a1, hparams⟩ : ∃ a0 a1, f.info.params = [a0, a1] := by
    match hf : f.info.params, congrArg List.length k3 with
    | [y, z], _ => exact ⟨y, z, rfl⟩
  rw [hparts] at k2
  rw [hparams] at k3
  simp only [List.map_cons, List.map_nil, List.cons.injEq, Prod.mk.injEq, and_true] at k2 k3
  obtain ⟨⟨n0, hl0, t0⟩, ⟨n1, hl1, t1⟩⟩ := k2
  obtain ⟨m0, m1⟩ := k3
  have ha : Addressable f.info := by
    refine ⟨by omega, by omega, by omega, fun p hp => ?_⟩
    rw [hparts] at hp
    simp only [List.mem_cons, List.not_mem_nil, or_false] at hp
    rcases hp with rfl | rfl <;> omega
  have hn : NamesApart f.info := by
    refine ⟨?_, fun a ha => ?_⟩
    · rw [hparts, List.map_cons, List.map_cons, List.map_nil, n0, n1]; decide
    · rw [hparams] at ha
      simp only [List.mem_cons, List.not_mem_nil, or_false] at ha
      rcases ha with rfl | rfl
      · rw [m0]; decide
      · rw [m1]; decide
  have hu : UsualParts f.info := by
    refine ⟨by rw [hparts, hparams]; rfl, fun j p a hp hpa hname => ?_⟩
    rw [hparts] at hp
    rw [hparams] at hpa
    match j with
    | 0 =>
      obtain rfl := Option.some.inj hp
      obtain rfl := Option.some.inj hpa
      exact ⟨by omega, by rw [m0]; decide⟩
    | 1 =>
      obtain rfl := Option.some.inj hp
      rw [n1] at hname
      exact absurd hname (by decide)
    | j + 2 => cases hp
  simp only [List.map_cons, List.map_nil, List.cons.injEq, and_true] at k5
  obtain ⟨q1, q2, q3, q4, q5, q6⟩ := k5
  -- the dataset
  obtain ⟨d0, d1, _⟩ := C76_made _ ratEnv 5 .little bothParts f id ho s (by rw [hsn]; exact List.mem_singleton.2 rfl) x (by
    intro ps' hps' name hname p hp
    exact usual_six ratEnv s.elev ha hn hu hps' name (by simpa using hname) p hp) h3
  have hds : f.unmergedDatasets (⟨fun x => x - 1, fun x => x + 1⟩ : Calc ℚ) ratEnv 5 id id {} = .ok [d0] := by
    unfold SoundingReader.unmergedDatasets
    rw [hsn]
    show (do
      let data ← [s].mapM fun s : SiteInfo => f.unpackUnmerged (⟨fun x => x - 1, fun x => x + 1⟩ : Calc ℚ) ratEnv 5 s.row s.col
      (data.filterMap id).mapM fun x => toRun (mergedDataset id (ratEnv.flt f.info.label.missingFloat) x)) = _
    rw [List.mapM_cons, h3]
    show ([x].mapM fun x => toRun (mergedDataset id (ratEnv.flt f.info.label.missingFloat) x) : Run (List (SnData ℚ))) = _
    rw [List.mapM_cons, d1]
    rfl
  rw [hparts] at k9
  have k9 : partBody f.info f.bytes s.row s.col 0 p0 = _ := k9
  have sel : s ∈ selected id (AsksExactly id) {} f.sninfo := by
    rw [hsn]
    unfold selected
    refine List.mem_filter.2 ⟨List.mem_singleton.2 rfl, @decide_eq_true _ (_) ?_⟩
    exact ⟨nofun, nofun, nofun, nofun, nofun, nofun⟩
  have st : ∀ (k : Nat) (n : Text) (w : Nat), a0.names[k]? = some n →
      (partBody f.info f.bytes s.row s.col 0 p0)[1 * a0.names.length + k]? = some w →
      StoredAt ratEnv f.info f.bytes s.row s.col 0 p0 a0 1 n (ratEnv.flt (BitVec.ofNat 32 w)) := fun k n w g1 g2 => ⟨k, g1, Or.inl ⟨t0, w, g2, rfl⟩⟩
  rw [k9, m0] at st
  have hl : StoredLevel ratEnv f.info f.bytes s.row s.col 0 p0 a0 1 850 1500 10 5 180 10 := by
    have v1 : ratEnv.flt (BitVec.ofNat 32 0x44548000) = 850 := by decide +kernel
    have v2 : ratEnv.flt (BitVec.ofNat 32 0x44BB8000) = 1500 := by decide +kernel
    have v3 : ratEnv.flt (BitVec.ofNat 32 0x41200000) = 10 := by decide +kernel
    have v4 : ratEnv.flt (BitVec.ofNat 32 0x40A00000) = 5 := by decide +kernel
    have v5 : ratEnv.flt (BitVec.ofNat 32 0x43340000) = 180 := by decide +kernel
    exact ⟨v1 ▸ st 0 _ _ rfl rfl, v2 ▸ st 5 _ _ rfl rfl, v3 ▸ st 1 _ _ rfl rfl, v4 ▸ st 2 _ _ rfl rfl, v5 ▸ st 3 _ _ rfl rfl,
      v3 ▸ st 4 _ _ rfl rfl⟩
  obtain ⟨ps', r1, r2⟩ := C113_levels_partial _ ratEnv 5 .little bothParts f id id {} [d0] ho hds ha hn hu s sel 0 p0 a0 (by rw [hparts]; rfl)
    (by rw [hparams]; rfl) (by rw [k8]; decide) 1 850 1500 10 5 180 10 hl
  obtain rfl := Except.ok.inj (hps.symm.trans r1)
  rw [k7] at r2
  have sf : ∀ y, SurfaceAt (ratEnv.parts s.elev ps) (-9999) y → y = 1000 := by
    intro y hy
    cases hy with
    | man e1 e2 => rw [q1] at e1; obtain rfl := Option.some.inj e1; exact (Except.ok.inj e2).symm
    | sigT e1 e2 => rw [q2] at e1; obtain rfl := Option.some.inj e1; exact (Except.ok.inj e2).symm
    | sigW e1 e2 => rw [q3] at e1; cases e1
    | sigZ e1 e2 => rw [q3] at e1; cases e1
  have six : ∀ name, name = "TTAA" ∨ name = "TTCC" → ∀ p, (ratEnv.parts s.elev ps).part name = some p → SixNames p := fun name hname p hp =>
    usual_six ratEnv s.elev ha hn hu r1 name hname p hp
  -- the significant temperature
  rw [hparts] at k14
  have k14 : partBody f.info f.bytes s.row s.col 1 p1 = _ := k14
  have st1 : ∀ (k : Nat) (n : Text) (w : Nat), a1.names[k]? = some n →
      (partBody f.info f.bytes s.row s.col 1 p1)[1 * a1.names.length + k]? = some w →
      StoredAt ratEnv f.info f.bytes s.row s.col 1 p1 a1 1 n (ratEnv.flt (BitVec.ofNat 32 w)) := fun k n w g1 g2 => ⟨k, g1, Or.inl ⟨t1, w, g2, rfl⟩⟩
  rw [k14, m1] at st1
  have u1 : ratEnv.flt (BitVec.ofNat 32 0x44610000) = 900 := by decide +kernel
  have u2 : ratEnv.flt (BitVec.ofNat 32 0x41400000) = 12 := by decide +kernel
  have u3 : ratEnv.flt (BitVec.ofNat 32 0x40C00000) = 6 := by decide +kernel
  obtain ⟨ps', z1, z2⟩ := C113_temperatures _ ratEnv 5 .little bothParts f id id {} [d0] ho hds ha hn s sel 1 p1 a1 (by rw [hparts]; rfl)
    (by rw [hparams]; rfl) (by rw [k13]; decide) (by rw [n1]; decide) 1 900 12 6 0 0 (u1 ▸ st1 0 _ _ rfl rfl) (u2 ▸ st1 1 _ _ rfl rfl)
    (u3 ▸ st1 2 _ _ rfl rfl) (by rw [n1]; intro h; exact absurd h (by decide)) (by decide +kernel) (by rw [k7]; decide)
  obtain rfl := Except.ok.inj (hps.symm.trans z1)
  rw [k7, show |(900 : ℚ)| = 900 from by decide +kernel, n1] at z2
  have good : GoodReport (ratEnv.parts s.elev ps) (-9999) := by
    refine ⟨fun x => lt_of_lt_of_le (by decide +kernel) (abs_nonneg x), six "TTAA" (Or.inl rfl), six "TTCC" (Or.inr rfl), ?_⟩
    refine .man q1 rfl (by decide +kernel) (by decide +kernel) (by decide +kernel) ?_
    intro i y t z hy _ _ _ _ _
    match i with
    | 0 => rw [← Except.ok.inj hy]
    | 1 => rw [← Except.ok.inj hy]; decide +kernel
    | i + 2 => cases hy
  refine ⟨f, [d0], s, ps, ho, hds, ha, hn, hu, k7, r2 ⟨by decide, by decide, by decide, by decide, fun y hy _ => ?_⟩ (Or.inl ⟨n0, le_refl _, ?_⟩), ?_⟩
  · rw [sf y hy]; decide +kernel
  · intro p hp j y g1 g2
    omega
  · obtain ⟨d, w1, w2, k, w3, T', w4, w5⟩ := z2 good (fun y hy _ => by rw [sf y hy]; decide +kernel) (by
      refine ⟨fun p hp j x hj hx => ?_, fun n hn => ?_⟩
      · rw [show String.ofList (txt "TTBB") = "TTBB" from rfl, q2] at hp
        obtain rfl := Option.some.inj hp
        obtain rfl : j = 0 := by omega
        rw [← Except.ok.inj hx]; decide +kernel
      · simp only [List.mem_cons, Prod.mk.injEq, List.not_mem_nil, or_false] at hn
        rcases hn with ⟨h, _⟩ | ⟨h, _⟩ | ⟨h, _⟩ <;> exact absurd h (by decide))
    obtain ⟨rfl, w6⟩ := w5 (by
      intro name hname p hp i y hy
      rw [show mergedBefore (txt "TTBB") = ["TTAA", "TTCC", "TRPA", "TRPC"] from rfl] at hname
      simp only [List.mem_cons, List.not_mem_nil, or_false] at hname
      rcases hname with rfl | rfl | rfl | rfl
      · rw [q1] at hp
        obtain rfl := Option.some.inj hp
        match i with
        | 0 => rw [← Except.ok.inj hy]; decide +kernel
        | 1 => rw [← Except.ok.inj hy]; decide +kernel
        | i + 2 => cases hy
      · rw [q4] at hp; cases hp
      · rw [q5] at hp; cases hp
      · rw [q6] at hp; cases hp)
    exact ⟨d, w1, w2, k, w3, w4, w6 (by decide +kernel)⟩

end Gempak
