import Verif.Props.Merge
import Verif.Props.MergeUpper
import Verif.Props.Select
import Verif.Props.SoundingData

/-!
# Unmerged sounding files (C76, C77)
-/

namespace Gempak
open Spec

set_option linter.unusedSectionVars false

namespace Spec

/-- Attributes and time of a dataset are those listed. -/
structure Describes {τ : Type} (s : SiteInfo) (d : SnData τ) : Prop where
  dateTime : d.dateTime = s.dattim
  stationId : d.stationId = .text s.id
  stationNumber : d.stationNumber = .int s.number
  lat : d.lat = .coord s.lat
  lon : d.lon = .coord s.lon
  elevation : d.elevation = .int s.elev
  state : d.state = .text s.state
  country : d.country = .text s.country

/-- Parts that can have levels, each with the column that is counted. -/
def levelColumns : List (String × String) :=
  [("TTAA", "PRES"), ("PPAA", "PRES"), ("TRPA", "PRES"), ("MXWA", "PRES"), ("TTBB", "PRES"), ("PPBB", "SPED"), ("TTCC", "PRES"),
    ("TRPC", "PRES"), ("MXWC", "SPED"), ("TTDD", "PRES"), ("PPDD", "SPED"), ("PPCC", "SPED")]

/-- No part has a level. -/
def NoLevels {α : Type} [Field α] [LinearOrder α] (ps : SndParts α) : Prop :=
  ∀ nk ∈ levelColumns, ∀ p, ps.part nk.1 = some p → ∀ c, p.find? (fun x => x.1 = nk.2) = some (nk.2, c) → c = []

end Spec

/-! ## The listing -/

theorem headText_inv {h : Header} {k : Text} {t : Text} (e : headText h k = .ok t) : headGet h k = .ok (.text t) := by
  unfold headText at e
  obtain ⟨v, h1, e⟩ := bind_inv e
  cases v <;> simp only at e <;> first | cases e | skip
  exact h1

theorem headInt_inv {h : Header} {k : Text} {t : Int} (e : headInt h k = .ok t) : headGet h k = .ok (.int t) := by
  unfold headInt at e
  obtain ⟨v, h1, e⟩ := bind_inv e
  cases v <;> simp only at e <;> first | cases e | skip
  exact h1

theorem headCoord_inv {h : Header} {k : Text} {t : Int} (e : headCoord h k = .ok t) : headGet h k = .ok (.coord t) := by
  unfold headCoord at e
  obtain ⟨v, h1, e⟩ := bind_inv e
  cases v <;> simp only at e <;> first | cases e | skip
  exact h1

/-- The headers a listed sounding was taken from. -/
theorem sninfo_cell {host : Endian} {b : Bytes} {f : SoundingReader} (ho : openSounding host b = .ok f) {s : SiteInfo} (hs : s ∈ f.sninfo) :
    ∃ row col, f.rows[s.row]? = some row ∧ f.cols[s.col]? = some col ∧ soundingInfo ⟨s.row, s.col, col, row⟩ = .ok s ∧
      dataPointer f.info f.bytes s.row s.col 0 ≠ 0 := by
  unfold openSounding at ho
  obtain ⟨g, h1, ho2⟩ := bind_inv ho
  dsimp only at ho2
  obtain ⟨infos, h2, ho3⟩ := bind_inv ho2
  have e := Except.ok.inj ho3
  have hb : g.bytes = b := by
    unfold openStation at h1
    obtain ⟨_, _, h1⟩ := bind_inv h1
    obtain ⟨_, _, h1⟩ := bind_inv h1
    obtain ⟨_, _, h1⟩ := bind_inv h1
    obtain ⟨_, _, h1⟩ := bind_inv h1
    obtain ⟨_, _, h1⟩ := bind_inv h1
    rw [← Except.ok.inj h1]
  rw [← e] at hs ⊢
  unfold SoundingReader.sninfo at hs
  rw [(List.mergeSort_perm _ _).mem_iff] at hs
  dsimp only at hs ⊢
  obtain ⟨c, hc, hcs⟩ : ∃ c ∈ (standardCells g.rows g.cols).filter (fun c => decide (dataPointer g.info b c.row c.col 0 ≠ 0)), soundingInfo c = .ok s := by
    clear e ho ho2 ho3 h1 hb
    generalize (standardCells g.rows g.cols).filter (fun c => decide (dataPointer g.info b c.row c.col 0 ≠ 0)) = cells at *
    induction cells generalizing infos with
    | nil => cases h2; simp at hs
    | cons c l ih =>
      rw [List.mapM_cons] at h2
      obtain ⟨x, h3, h2⟩ := bind_inv h2
      obtain ⟨xs, h4, h2⟩ := bind_inv h2
      have := Except.ok.inj h2
      subst this
      rcases List.mem_cons.1 hs with rfl | hs
      · exact ⟨c, List.mem_cons_self, h3⟩
      · obtain ⟨c', h5, h6⟩ := ih xs hs h4
        exact ⟨c', List.mem_cons_of_mem _ h5, h6⟩
  obtain ⟨m1, m2⟩ := List.mem_filter.1 hc
  unfold standardCells at m1
  obtain ⟨r, r1, r2⟩ := List.mem_flatMap.1 m1
  obtain ⟨k, k1, k2⟩ := List.mem_map.1 r2
  have r3 := List.mem_zipIdx_iff_getElem?.1 r1
  have k3 := List.mem_zipIdx_iff_getElem?.1 k1
  have hrow : s.row = c.row ∧ s.col = c.col := by
    unfold soundingInfo at hcs
    obtain ⟨_, _, hcs⟩ := bind_inv hcs
    obtain ⟨_, _, hcs⟩ := bind_inv hcs
    obtain ⟨_, _, hcs⟩ := bind_inv hcs
    obtain ⟨_, _, hcs⟩ := bind_inv hcs
    obtain ⟨_, _, hcs⟩ := bind_inv hcs
    obtain ⟨_, _, hcs⟩ := bind_inv hcs
    obtain ⟨_, _, hcs⟩ := bind_inv hcs
    obtain ⟨_, _, hcs⟩ := bind_inv hcs
    rw [← Except.ok.inj hcs]
    exact ⟨rfl, rfl⟩
  rw [hrow.1, hrow.2]
  subst k2
  refine ⟨r.1, k.1, r3, k3, hcs, ?_⟩
  rw [hb]
  simpa using m2

/-- What was listed is what stands in the headers. -/
theorem soundingInfo_inv {c : CellRef} {s : SiteInfo} (h : soundingInfo c = .ok s) :
    (∃ d t, headGet c.time (txt "DATE") = .ok d ∧ headGet c.time (txt "TIME") = .ok t ∧ combine d t = .ok s.dattim) ∧
    headGet c.site (txt "STID") = .ok (.text s.id) ∧ headGet c.site (txt "STNM") = .ok (.int s.number) ∧
    headGet c.site (txt "SLAT") = .ok (.coord s.lat) ∧ headGet c.site (txt "SLON") = .ok (.coord s.lon) ∧
    headGet c.site (txt "SELV") = .ok (.int s.elev) ∧ headGet c.site (txt "STAT") = .ok (.text s.state) ∧
    headGet c.site (txt "COUN") = .ok (.text s.country) := by
  unfold soundingInfo at h
  obtain ⟨x, h1, h⟩ := bind_inv h
  obtain ⟨_, h2, h⟩ := bind_inv h
  obtain ⟨_, h3, h⟩ := bind_inv h
  obtain ⟨_, h4, h⟩ := bind_inv h
  obtain ⟨_, h5, h⟩ := bind_inv h
  obtain ⟨_, h6, h⟩ := bind_inv h
  obtain ⟨_, h7, h⟩ := bind_inv h
  obtain ⟨_, h8, h⟩ := bind_inv h
  have e := Except.ok.inj h
  subst e
  unfold headTime at h1
  obtain ⟨d, d1, h1⟩ := bind_inv h1
  obtain ⟨t, t1, h1⟩ := bind_inv h1
  exact ⟨⟨d, t, d1, t1, h1⟩, headText_inv h2, headInt_inv h3, headCoord_inv h4, headCoord_inv h5, headInt_inv h6, headText_inv h7, headText_inv h8⟩

theorem headItems_get {h : Header} {ks : List Text} {l : List (Text × HVal)} (e : headItems h ks = .ok l) (k : Text) :
    (k ∈ ks → ∃ v, headGet h k = .ok v ∧ dictGet l k = some v) ∧ (k ∉ ks → dictGet l k = none) := by
  unfold headItems at e
  induction ks generalizing l with
  | nil => cases e; exact ⟨by simp, fun _ => rfl⟩
  | cons a r ih =>
    rw [List.mapM_cons] at e
    obtain ⟨x, h1, e⟩ := bind_inv e
    obtain ⟨xs, h2, e⟩ := bind_inv e
    have := Except.ok.inj e
    subst this
    obtain ⟨v, hv, hx⟩ : ∃ v, headGet h a = .ok v ∧ x = (a, v) := by
      cases hg : headGet h a with
      | error z => rw [hg] at h1; cases h1
      | ok v => rw [hg] at h1; exact ⟨v, rfl, (Except.ok.inj h1).symm⟩
    subst hx
    obtain ⟨i1, i2⟩ := ih h2
    constructor
    · intro hk
      by_cases hka : a = k
      · subst hka
        exact ⟨v, hv, by simp [dictGet]⟩
      · rcases List.mem_cons.1 hk with hk | hk
        · exact absurd hk.symm hka
        · obtain ⟨w, w1, w2⟩ := i1 hk
          exact ⟨w, w1, by simp [dictGet, hka, w2]⟩
    · intro hk
      rw [List.mem_cons, not_or] at hk
      rw [dictGet, if_neg (fun h => hk.1 h.symm)]
      exact i2 hk.2

theorem dictGet_append {β : Type} (l m : List (Text × β)) (k : Text) : dictGet (l ++ m) k = (dictGet l k).or (dictGet m k) := by
  induction l with
  | nil => simp [dictGet]
  | cons x r ih =>
    obtain ⟨a, v⟩ := x
    rw [List.cons_append, dictGet, dictGet]
    split
    · rfl
    · exact ih

section
variable {α : Type} [Field α] [LinearOrder α]

theorem toRun_ok {β : Type} {x : Except PyErr β} {y : β} (h : toRun x = .ok y) : x = .ok y := by
  cases x with
  | ok b => exact congrArg Except.ok (Except.ok.inj h)
  | error e => cases h

/-- A dataset made of parts: levels from high to low pressure, five variables, one value for each level. -/
structure Spec.IsProfile (lower : Text → Text) (m : α) (x : Snd α) (d : SnData α) : Prop where
  vcoord : d.vcoord = txt "pres"
  pressure : d.pressure = x.pres.head?
  ordered : d.levels.Pairwise (· ≥ ·)
  names : d.vars.map Prod.fst = [lower (txt "HGHT"), lower (txt "TEMP"), lower (txt "DWPT"), lower (txt "DRCT"), lower (txt "SPED")]
  lengths : ∀ kv ∈ d.vars, kv.2.length = d.levels.length
  table : ∃ σ : List Nat, σ.Perm (List.range x.pres.length) ∧ List.Forall₂ (fun i v => x.pres[i]? = some v) σ d.levels ∧
    List.Forall₂ (fun c kv => c.length = x.pres.length ∧ List.Forall₂ (fun i w => ∃ v, c[i]? = some v ∧ w = if v = m then none else some v) σ kv.2)
      [x.hght, x.temp, x.dwpt, x.drct, x.sped] d.vars

theorem mergedDataset_profile {lower : Text → Text} {m : α} {x : Merged α} {d : SnData α} (h : mergedDataset lower m x = .ok d) :
    IsProfile lower m x.snd d ∧ d.texts = x.texts := by
  unfold mergedDataset at h
  obtain ⟨_, _, h⟩ := bind_inv h
  obtain ⟨_, _, h⟩ := bind_inv h
  obtain ⟨_, _, h⟩ := bind_inv h
  obtain ⟨_, _, h⟩ := bind_inv h
  obtain ⟨_, _, h⟩ := bind_inv h
  obtain ⟨_, _, h⟩ := bind_inv h
  obtain ⟨_, _, h⟩ := bind_inv h
  obtain ⟨_, _, h⟩ := bind_inv h
  obtain ⟨_, _, h⟩ := bind_inv h
  obtain ⟨_, _, h⟩ := bind_inv h
  obtain ⟨r, h3, h⟩ := bind_inv h
  have e := Except.ok.inj h
  obtain ⟨σ, hp, a1, a2, a3⟩ := sortData_spec h3
  subst e
  have hl : σ.length = r.1.length := a1.length_eq
  refine ⟨⟨rfl, rfl, ?_, ?_, ?_, σ, hp, a1, ?_⟩, rfl⟩
  · dsimp only
    rw [a2]
    have := takeAt_sorted (fun a b : α => decide (a ≤ b)) (fun a b => by simpa using le_total a b)
      (fun a b c h1 h2 => by simp only [decide_eq_true_eq] at *; exact h1.trans h2) true x.snd.pres
    exact this.imp fun h => by simpa using h
  · generalize r.2 = ws at a3
    rcases a3 with _ | ⟨b1, _ | ⟨b2, _ | ⟨b3, _ | ⟨b4, _ | ⟨b5, _ | _⟩⟩⟩⟩⟩
    simp [b1.1, b2.1, b3.1, b4.1, b5.1]
  · dsimp only
    rw [← hl]
    clear hp a1 a2 hl
    intro kv hkv
    generalize r.2 = ws at a3 hkv
    rcases a3 with _ | ⟨b1, _ | ⟨b2, _ | ⟨b3, _ | ⟨b4, _ | ⟨b5, _ | _⟩⟩⟩⟩⟩
    simp only [List.mem_cons, List.not_mem_nil, or_false] at hkv
    rcases hkv with rfl | rfl | rfl | rfl | rfl
    · exact b1.2.2.length_eq.symm
    · exact b2.2.2.length_eq.symm
    · exact b3.2.2.length_eq.symm
    · exact b4.2.2.length_eq.symm
    · exact b5.2.2.length_eq.symm
  · dsimp only
    generalize r.2 = ws at a3
    have conv : ∀ (c : List α) (kw : Text × List (Option α)),
        List.Forall₂ (fun i w => ∃ v, c[i]? = some v ∧ w = if decide (v = m) = true then none else some v) σ kw.2 →
        List.Forall₂ (fun i w => ∃ v, c[i]? = some v ∧ w = if v = m then none else some v) σ kw.2 := by
      intro c kw hh
      refine hh.imp ?_
      rintro i w ⟨v, v1, v2⟩
      exact ⟨v, v1, by simpa using v2⟩
    rcases a3 with _ | ⟨b1, _ | ⟨b2, _ | ⟨b3, _ | ⟨b4, _ | ⟨b5, _ | _⟩⟩⟩⟩⟩
    exact .cons ⟨b1.2.1, conv _ _ b1.2.2⟩ (.cons ⟨b2.2.1, conv _ _ b2.2.2⟩ (.cons ⟨b3.2.1, conv _ _ b3.2.2⟩
      (.cons ⟨b4.2.1, conv _ _ b4.2.2⟩ (.cons ⟨b5.2.1, conv _ _ b5.2.2⟩ .nil))))

variable [FloorRing α]

/-- What is read of one listed sounding. -/
theorem unpackUnmerged_inv {c : Calc α} {e : LevEnv α} {fuel : Nat} {f : SoundingReader} {irow icol : Nat} {o : Option (Merged α)}
    (h : f.unpackUnmerged c e fuel irow icol = .ok o) :
    ∃ row col ps selv, f.rows[irow]? = some row ∧ f.cols[icol]? = some col ∧
      unmergedParts f.info f.bytes irow icol (f.info.parts.zip f.info.params) 0 [] = .ok ps ∧ headInt col (txt "SELV") = .ok selv ∧
      ∃ r, mergeSounding c (e.flt f.info.label.missingFloat) fuel (e.parts selv ps) = .ok r ∧
        ((r = none ∧ o = none) ∨ ∃ m x ts, r = some m ∧ o = some x ∧ x.snd = m ∧ textParts.mapM (textOfPart ps) = .ok ts ∧
          x.texts = ts.filterMap id ∧ ∃ s t, headItems col snKeys = .ok s ∧ headItems row [txt "DATE", txt "TIME"] = .ok t ∧ x.head = s ++ t) := by
  have hat : ∀ (l : List Header) (k : Nat) (v : Header), snHeaderAt l k = .ok v → l[k]? = some v := by
    intro l k v hv
    unfold snHeaderAt at hv
    split at hv
    · rename_i x hx
      rw [hx, Except.ok.inj hv]
    · cases hv
  unfold SoundingReader.unpackUnmerged at h
  obtain ⟨row, h1, h⟩ := run_inv h
  obtain ⟨col, h2, h⟩ := run_inv h
  obtain ⟨s, h3, h⟩ := run_inv h
  obtain ⟨t, h4, h⟩ := run_inv h
  obtain ⟨ps, h5, h⟩ := run_inv h
  obtain ⟨selv, h6, h⟩ := run_inv h
  obtain ⟨r, h7, h⟩ := run_inv h
  refine ⟨row, col, ps, selv, hat _ _ _ (toRun_ok h1), hat _ _ _ (toRun_ok h2), toRun_ok h5, toRun_ok h6, r, h7, ?_⟩
  cases r with
  | none => exact Or.inl ⟨rfl, (Except.ok.inj h).symm⟩
  | some m =>
    obtain ⟨ts, h8, h⟩ := run_inv h
    exact Or.inr ⟨m, ⟨s ++ t, m, ts.filterMap id⟩, ts, rfl, (Except.ok.inj h).symm, rfl, toRun_ok h8, rfl, s, t, toRun_ok h3, toRun_ok h4, rfl⟩

/-- Header items by name. -/
theorem head_get {row col : Header} {s t : List (Text × HVal)} (h3 : headItems col snKeys = .ok s)
    (h4 : headItems row [txt "DATE", txt "TIME"] = .ok t) :
    (∀ k ∈ snKeys, ∀ v, headGet col k = .ok v → snPop (s ++ t) k = .ok v) ∧
      ∀ k ∈ [txt "DATE", txt "TIME"], ∀ v, headGet row k = .ok v → snPop (s ++ t) k = .ok v := by
  constructor
  · intro k hk v hv
    obtain ⟨w, w1, w2⟩ := (headItems_get h3 k).1 hk
    rw [w1] at hv
    have := Except.ok.inj hv
    subst this
    unfold snPop
    rw [dictGet_append, w2]
    rfl
  · intro k hk v hv
    obtain ⟨w, w1, w2⟩ := (headItems_get h4 k).1 hk
    rw [w1] at hv
    have := Except.ok.inj hv
    subst this
    have hno : k ∉ snKeys := by
      simp only [List.mem_cons, List.not_mem_nil, or_false] at hk
      rcases hk with rfl | rfl <;> decide
    unfold snPop
    rw [dictGet_append, (headItems_get h3 k).2 hno, w2]
    rfl

/-- The dataset of a listed sounding describes it. -/
theorem mergedDataset_describes {lower : Text → Text} {m : α} {x : Merged α} {row col : Header} {s t : List (Text × HVal)} {si : SiteInfo}
    (hx : x.head = s ++ t) (h3 : headItems col snKeys = .ok s) (h4 : headItems row [txt "DATE", txt "TIME"] = .ok t)
    (hi : soundingInfo ⟨si.row, si.col, col, row⟩ = .ok si) :
    (∀ d, mergedDataset lower m x = .ok d → Describes si d) ∧
      ((∃ n, x.snd.pres.length = n ∧ x.snd.hght.length = n ∧ x.snd.temp.length = n ∧ x.snd.dwpt.length = n ∧ x.snd.drct.length = n ∧
        x.snd.sped.length = n) → ∃ d, mergedDataset lower m x = .ok d) := by
  obtain ⟨⟨dd, tt, d1, t1, c1⟩, g1, g2, g3, g4, g5, g6, g7⟩ := soundingInfo_inv hi
  obtain ⟨hs, ht⟩ := head_get h3 h4
  have e1 := hs _ (by decide) _ g1
  have e2 := hs _ (by decide) _ g2
  have e3 := hs _ (by decide) _ g3
  have e4 := hs _ (by decide) _ g4
  have e5 := hs _ (by decide) _ g5
  have e6 := hs _ (by decide) _ g6
  have e7 := hs _ (by decide) _ g7
  have e8 := ht _ (by decide) _ d1
  have e9 := ht _ (by decide) _ t1
  unfold mergedDataset
  rw [hx, e1, ok_bind, e2, ok_bind, e3, ok_bind, e4, ok_bind, e5, ok_bind, e6, ok_bind, e7, ok_bind, e8, ok_bind, e9, ok_bind, c1, ok_bind]
  constructor
  · intro d h
    obtain ⟨r, _, h⟩ := bind_inv h
    have := Except.ok.inj h
    subst this
    exact ⟨rfl, rfl, rfl, rfl, rfl, rfl, rfl, rfl⟩
  · rintro ⟨n, n1, n2, n3, n4, n5, n6⟩
    obtain ⟨out, hout⟩ := sortData_ok (fun a b : α => decide (a ≤ b)) (fun v => decide (v = m)) true x.snd.pres
      [(lower (txt "HGHT"), x.snd.hght), (lower (txt "TEMP"), x.snd.temp), (lower (txt "DWPT"), x.snd.dwpt), (lower (txt "DRCT"), x.snd.drct),
        (lower (txt "SPED"), x.snd.sped)] (by
      intro kv hkv
      simp only [List.mem_cons, List.not_mem_nil, or_false] at hkv
      rcases hkv with rfl | rfl | rfl | rfl | rfl <;> dsimp only <;> omega)
    rw [hout]
    exact ⟨_, rfl⟩

/-- Columns counted have no level exactly when the total is nought. -/
theorem noLevels_iff {ps : SndParts α} {n : Counts} (h : ps.counts = .ok n) : NoLevels ps ↔ n.total = 0 := by
  obtain ⟨h1, h2, h3, h4, h5, h6, h7, h8, h9, h10, h11, h12⟩ := counts_inv h
  have key : ∀ (name col : String) (k : Nat), ps.count name col = .ok k →
      ((∀ p, ps.part name = some p → ∀ c, p.find? (fun x => x.1 = col) = some (col, c) → c = []) ↔ k = 0) := by
    intro name col k hk
    unfold SndParts.count at hk
    cases hp : ps.part name with
    | none =>
      rw [hp] at hk
      have := Except.ok.inj hk
      simp [← this]
    | some p =>
      rw [hp] at hk
      obtain ⟨c, hc, hk⟩ := run_inv hk
      have := Except.ok.inj hk
      subst this
      have hf : p.find? (fun x => x.1 = col) = some (col, c) := by
        unfold SndPart.col at hc
        cases hf : p.find? (fun x => x.1 = col) with
        | none => rw [hf] at hc; cases hc
        | some x =>
          rw [hf] at hc
          have h1 := Except.ok.inj hc
          have h2 := List.find?_some hf
          simp only [decide_eq_true_eq] at h2
          rw [← h1, ← h2]
      constructor
      · intro hh
        rw [hh p rfl c hf]
        rfl
      · intro hl q hq c' hc'
        have := Option.some.inj hq
        subst this
        rw [hf] at hc'
        have := (Prod.mk.inj (Option.some.inj hc')).2
        rw [← this]
        exact List.length_eq_zero_iff.1 hl
  unfold NoLevels levelColumns Counts.total
  simp only [List.forall_mem_cons, key _ _ _ h1, key _ _ _ h2, key _ _ _ h3, key _ _ _ h4, key _ _ _ h5, key _ _ _ h6, key _ _ _ h7,
    key _ _ _ h8, key _ _ _ h9, key _ _ _ h10, key _ _ _ h11, key _ _ _ h12]
  simp only [List.not_mem_nil, false_implies, implies_true, and_true]
  omega

theorem merge_none_iff {c : Calc α} {m : α} {fuel : Nat} {ps : SndParts α} {r : Option (Snd α)} (h : mergeSounding c m fuel ps = .ok r) :
    r = none ↔ NoLevels ps := by
  have hc : ∃ n, ps.counts = .ok n := by
    unfold mergeSounding at h
    obtain ⟨n, hn, _⟩ := run_inv h
    exact ⟨n, hn⟩
  obtain ⟨n, hn⟩ := hc
  rw [noLevels_iff hn, ← C52_none c m fuel ps n hn, h]
  constructor
  · rintro rfl; rfl
  · intro h; exact Except.ok.inj h

/-- One listed sounding of an unmerged file and what becomes of it. -/
structure Spec.IsRead (c : Calc α) (e : LevEnv α) (fuel : Nat) (lower : Text → Text) (f : SoundingReader) (s : SiteInfo)
    (o : Option (SnData α)) : Prop where
  parts : ∃ ps : List (Text × List (Text × HVal)),
    unmergedParts f.info f.bytes s.row s.col (f.info.parts.zip f.info.params) 0 [] = .ok ps ∧
    (o = none ↔ NoLevels (e.parts s.elev ps)) ∧
    ∀ d, o = some d → Describes s d ∧ (∃ x, mergeSounding c (e.flt f.info.label.missingFloat) fuel (e.parts s.elev ps) = .ok (some x) ∧
      IsProfile lower (e.flt f.info.label.missingFloat) x d) ∧
      ∀ k v, (k, v) ∈ d.texts ↔ ∃ n p, (n, k) ∈ [(txt "TXTA", txt "txta"), (txt "TXTB", txt "txtb"), (txt "TXTC", txt "txtc"), (txt "TXPB", txt "txpb")] ∧
        dictGet ps n = some p ∧ dictGet p (txt "TEXT") = some v

theorem texts_spec {ps : List (Text × List (Text × HVal))} {names : List (Text × Text)} {ts : List (Option (Text × HVal))}
    (h : names.mapM (textOfPart ps) = .ok ts) (k : Text) (v : HVal) :
    (k, v) ∈ ts.filterMap id ↔ ∃ n p, (n, k) ∈ names ∧ dictGet ps n = some p ∧ dictGet p (txt "TEXT") = some v := by
  induction names generalizing ts with
  | nil => cases h; simp
  | cons a r ih =>
    rw [List.mapM_cons] at h
    obtain ⟨x, h1, h⟩ := bind_inv h
    obtain ⟨xs, h2, h⟩ := bind_inv h
    have := Except.ok.inj h
    subst this
    have hx : x = some (k, v) ↔ a.2 = k ∧ ∃ p, dictGet ps a.1 = some p ∧ dictGet p (txt "TEXT") = some v := by
      unfold textOfPart at h1
      cases hp : dictGet ps a.1 with
      | none =>
        rw [hp] at h1
        have := Except.ok.inj h1
        subst this
        simp
      | some p =>
        rw [hp] at h1
        dsimp only at h1
        cases hq : dictGet p (txt "TEXT") with
        | none => rw [hq] at h1; cases h1
        | some w =>
          rw [hq] at h1
          have := Except.ok.inj h1
          subst this
          simp [hq]
    have hi := ih h2
    have hm : (k, v) ∈ (x :: xs).filterMap id ↔ x = some (k, v) ∨ (k, v) ∈ xs.filterMap id := by
      simp only [List.mem_filterMap, id_eq, exists_eq_right, List.mem_cons]
      constructor
      · rintro (h | h)
        · exact Or.inl h.symm
        · exact Or.inr h
      · rintro (h | h)
        · exact Or.inl h.symm
        · exact Or.inr h
    rw [hm, hx, hi]
    constructor
    · rintro (⟨rfl, p, p1, p2⟩ | ⟨n, p, p0, p1, p2⟩)
      · exact ⟨a.1, p, List.mem_cons_self, p1, p2⟩
      · exact ⟨n, p, List.mem_cons_of_mem _ p0, p1, p2⟩
    · rintro ⟨n, p, p0, p1, p2⟩
      rcases List.mem_cons.1 p0 with h | h
      · have h1 : n = a.1 := congrArg Prod.fst h
        have h2 : k = a.2 := congrArg Prod.snd h
        subst h1 h2
        exact Or.inl ⟨rfl, p, p1, p2⟩
      · exact Or.inr ⟨n, p, h, p1, p2⟩

/-- C76: whatever unmerged file is opened and whatever is asked for, the datasets returned are those of the listed soundings that
satisfy every criterion, in the order of the list; exactly those are passed over whose parts have no level; each dataset has the site
and time listed, pressures from high to low, five variables with a value (or nothing) for every level, and the texts of its parts. -/
theorem C76_datasets (c : Calc α) (e : LevEnv α) (fuel : Nat) (host : Endian) (b : Bytes) (f : SoundingReader) (upper lower : Text → Text)
    (q : SiteQuery) (ds : List (SnData α)) (ho : openSounding host b = .ok f) (h : f.unmergedDatasets c e fuel upper lower q = .ok ds) :
    ∃ T : List (SiteInfo × Option (SnData α)), T.map Prod.fst = selected upper (AsksExactly upper) q f.sninfo ∧ ds = T.filterMap Prod.snd ∧
      ∀ t ∈ T, IsRead c e fuel lower f t.1 t.2 := by
  unfold SoundingReader.unmergedDatasets at h
  obtain ⟨m, h1', hA⟩ := run_inv h
  obtain ⟨data, h2, hB⟩ := run_inv hA
  have h1 := toRun_ok h1'
  have hne : f.sninfo ≠ [] := by
    intro h0
    have : m = [] := by
      rw [h0] at h1
      by_cases hq : AsksExtreme q
      · rw [selectSites_extreme upper _ q hq] at h1; cases h1
      · rw [selectSites_spec upper _ (AsksExactly upper) (asks_one upper) q _ (by intro s hs; simp at hs) (fun h => absurd h hq)] at h1
        split at h1
        · cases h1
        · rename_i hh
          exact absurd rfl hh
    subst this
    rw [h0] at h1
    by_cases hq : AsksExtreme q
    · rw [selectSites_extreme upper _ q hq] at h1; cases h1
    · rw [selectSites_spec upper _ (AsksExactly upper) (asks_one upper) q _ (by intro s hs; simp at hs) (fun h => absurd h hq)] at h1
      split at h1
      · cases h1
      · rename_i hh
        exact absurd rfl hh
  rw [selectSites_spec upper _ (AsksExactly upper) (asks_one upper) q _ (sninfo_times ho) (fun _ => hne)] at h1
  split at h1
  · cases h1
  have hm := Except.ok.inj h1
  have hsub : ∀ s ∈ m, s ∈ f.sninfo := by rw [← hm]; exact selected_sub _ _ _ _
  rw [hm]
  clear hm h1 h1' hA h
  have h := hB
  clear hB
  induction m generalizing data ds with
  | nil =>
    cases h2
    cases h
    exact ⟨[], rfl, rfl, by simp⟩
  | cons s l ih =>
    rw [List.mapM_cons] at h2
    obtain ⟨o, h3, h2⟩ := run_inv h2
    obtain ⟨os, h4, h2⟩ := run_inv h2
    have := Except.ok.inj h2
    subst this
    obtain ⟨row, col, k1, k2, k3, _⟩ := sninfo_cell ho (hsub s List.mem_cons_self)
    obtain ⟨row', col', ps, selv, r1, r2, r3, r4, r, r5, r6⟩ := unpackUnmerged_inv h3
    rw [k1] at r1
    rw [k2] at r2
    have := Option.some.inj r1
    subst this
    have := Option.some.inj r2
    subst this
    have hselv : selv = s.elev := by
      have := (soundingInfo_inv k3).2.2.2.2.2.1
      have g := headInt_inv r4
      rw [this] at g
      have := Except.ok.inj g
      injection this with this
      exact this.symm
    subst hselv
    have hnone := merge_none_iff r5
    rcases r6 with ⟨rfl, rfl⟩ | ⟨x, y, ts, rfl, rfl, q1, q2, q3, s', t', q4, q5, q6⟩
    · obtain ⟨T, t1, t2, t3⟩ := ih ds os h4 (fun z hz => hsub z (List.mem_cons_of_mem _ hz)) h
      refine ⟨(s, none) :: T, by rw [List.map_cons, t1], ?_, ?_⟩
      · rw [List.filterMap_cons_none rfl]; exact t2
      · intro t ht
        rcases List.mem_cons.1 ht with rfl | ht
        · exact ⟨ps, r3, ⟨fun _ => hnone.1 rfl, fun _ => rfl⟩, fun d hd => by cases hd⟩
        · exact t3 t ht
    · rw [List.filterMap_cons_some (f := id) (b := y) rfl, List.mapM_cons] at h
      obtain ⟨d, h5, h⟩ := run_inv h
      obtain ⟨ds', h6, h⟩ := run_inv h
      have := Except.ok.inj h
      subst this
      obtain ⟨T, t1, t2, t3⟩ := ih ds' os h4 (fun z hz => hsub z (List.mem_cons_of_mem _ hz)) h6
      refine ⟨(s, some d) :: T, by rw [List.map_cons, t1], ?_, ?_⟩
      · rw [List.filterMap_cons_some (f := Prod.snd) (b := d) rfl, ← t2]
      · intro t ht
        rcases List.mem_cons.1 ht with rfl | ht
        · refine ⟨ps, r3, ⟨(by intro hh; cases hh), fun hh => ?_⟩, ?_⟩
          · have := hnone.2 hh
            cases this
          · intro d' hd
            have := Option.some.inj hd
            subst this
            have h5 := toRun_ok h5
            obtain ⟨p1, p2⟩ := mergedDataset_profile h5
            rw [q1] at p1
            refine ⟨(mergedDataset_describes q6 q4 q5 k3).1 d h5, ⟨x, r5, p1⟩, ?_⟩
            intro k v
            rw [p2, q3]
            exact texts_spec q2 k v
        · exact t3 t ht

/-- C76: with the usual six columns in the mandatory temperature parts, no listed sounding whose merging gives a profile fails to become a
dataset. -/
theorem C76_made (c : Calc α) (e : LevEnv α) (fuel : Nat) (host : Endian) (b : Bytes) (f : SoundingReader) (lower : Text → Text)
    (ho : openSounding host b = .ok f) (s : SiteInfo) (hs : s ∈ f.sninfo) (x : Merged α)
    (hsix : ∀ ps, unmergedParts f.info f.bytes s.row s.col (f.info.parts.zip f.info.params) 0 [] = .ok ps →
      ∀ name ∈ ["TTAA", "TTCC"], ∀ p, (e.parts s.elev ps).part name = some p → SixNames p)
    (h : f.unpackUnmerged c e fuel s.row s.col = .ok (some x)) :
    ∃ d, mergedDataset lower (e.flt f.info.label.missingFloat) x = .ok d ∧ Describes s d ∧
      IsProfile lower (e.flt f.info.label.missingFloat) x.snd d := by
  obtain ⟨row, col, k1, k2, k3, _⟩ := sninfo_cell ho hs
  obtain ⟨row', col', ps, selv, r1, r2, r3, r4, r, r5, r6⟩ := unpackUnmerged_inv h
  rw [k1] at r1
  rw [k2] at r2
  have := Option.some.inj r1
  subst this
  have := Option.some.inj r2
  subst this
  have hselv : selv = s.elev := by
    have := (soundingInfo_inv k3).2.2.2.2.2.1
    have g := headInt_inv r4
    rw [this] at g
    have := Except.ok.inj g
    injection this with this
    exact this.symm
  subst hselv
  rcases r6 with ⟨_, h0⟩ | ⟨m, y, ts, rfl, h0, q1, q2, q3, s', t', q4, q5, q6⟩
  · cases h0
  · have := Option.some.inj h0
    subst this
    have hlen := C52_columns_partial c _ fuel _ m (fun p hp => hsix ps r3 "TTAA" (by decide) p hp)
      (fun p hp => hsix ps r3 "TTCC" (by decide) p hp) r5
    rw [← q1] at hlen
    obtain ⟨hd, hm⟩ := mergedDataset_describes (lower := lower) (m := e.flt f.info.label.missingFloat) q6 q4 q5 k3
    obtain ⟨d, hd2⟩ := hm hlen
    exact ⟨d, hd2, hd d hd2, (mergedDataset_profile hd2).1⟩

end

/-- C77: a sounding is listed exactly when its first part has data, whatever the other parts hold. -/
theorem C77_first_part (host : Endian) (b : Bytes) (f : SoundingReader) (ho : openSounding host b = .ok f) (r k : Nat) :
    (∃ s ∈ f.sninfo, s.row = r ∧ s.col = k) ↔ r < f.rows.length ∧ k < f.cols.length ∧ dataPointer f.info f.bytes r k 0 ≠ 0 := by
  constructor
  · rintro ⟨s, hs, rfl, rfl⟩
    obtain ⟨row, col, k1, k2, _, k4⟩ := sninfo_cell ho hs
    exact ⟨(List.getElem?_eq_some_iff.1 k1).1, (List.getElem?_eq_some_iff.1 k2).1, k4⟩
  · rintro ⟨hr, hk, hp⟩
    unfold openSounding at ho
    obtain ⟨g, h1, ho2⟩ := bind_inv ho
    dsimp only at ho2
    obtain ⟨infos, h2, ho3⟩ := bind_inv ho2
    have e := Except.ok.inj ho3
    have hb : g.bytes = b := by
      unfold openStation at h1
      obtain ⟨_, _, h1⟩ := bind_inv h1
      obtain ⟨_, _, h1⟩ := bind_inv h1
      obtain ⟨_, _, h1⟩ := bind_inv h1
      obtain ⟨_, _, h1⟩ := bind_inv h1
      obtain ⟨_, _, h1⟩ := bind_inv h1
      rw [← Except.ok.inj h1]
    rw [← e] at hr hk hp ⊢
    dsimp only at hr hk hp
    rw [hb] at hp
    have hmem : (⟨r, k, g.cols[k], g.rows[r]⟩ : CellRef) ∈ (standardCells g.rows g.cols).filter fun c => decide (dataPointer g.info b c.row c.col 0 ≠ 0) := by
      refine List.mem_filter.2 ⟨?_, by simpa using hp⟩
      unfold standardCells
      refine List.mem_flatMap.2 ⟨(g.rows[r], r), ?_, List.mem_map.2 ⟨(g.cols[k], k), ?_, rfl⟩⟩
      · exact List.mem_zipIdx_iff_getElem?.2 (List.getElem?_eq_getElem hr)
      · exact List.mem_zipIdx_iff_getElem?.2 (List.getElem?_eq_getElem hk)
    have hlist := mapM_map_fst (k := fun c : CellRef => (c.row, c.col)) (k' := fun s : SiteInfo => (s.row, s.col)) h2 (by
      intro c s hcs
      unfold soundingInfo at hcs
      obtain ⟨_, _, hcs⟩ := bind_inv hcs
      obtain ⟨_, _, hcs⟩ := bind_inv hcs
      obtain ⟨_, _, hcs⟩ := bind_inv hcs
      obtain ⟨_, _, hcs⟩ := bind_inv hcs
      obtain ⟨_, _, hcs⟩ := bind_inv hcs
      obtain ⟨_, _, hcs⟩ := bind_inv hcs
      obtain ⟨_, _, hcs⟩ := bind_inv hcs
      obtain ⟨_, _, hcs⟩ := bind_inv hcs
      rw [← Except.ok.inj hcs])
    have : (r, k) ∈ infos.map fun s : SiteInfo => (s.row, s.col) := by
      rw [hlist]
      exact List.mem_map.2 ⟨_, hmem, rfl⟩
    obtain ⟨s, hs, hs2⟩ := List.mem_map.1 this
    obtain ⟨e1, e2⟩ := Prod.mk.inj hs2
    refine ⟨s, ?_, e1, e2⟩
    unfold SoundingReader.sninfo
    rw [(List.mergeSort_perm _ _).mem_iff]
    exact hs

/-! ## A file -/

/-- Words of numbers. -/
def numWords (l : List Int) : Bytes := l.flatMap fun i => encNat .little 4 (i % 2 ^ 32).toNat

/-- Words of names. -/
def textWords (l : List String) : Bytes := l.flatMap fun s => utf8 (ljust 4 (txt s))

/-- An unmerged file with one time and one site, parts `TTAA` (six columns) and `TTBB` (three columns): pointers to the two parts, then
the records. -/
def unmergedFile (ptrA ptrB : Int) (records : List Int) : Bytes :=
  banner ++ numWords [1, 0, 0, 1, 2, 32, 41, 1, 7, 34, 44, 2, 52, 1, 128, 96, 2, 4, 11, -9999, 0, 0, 0, 0xC61C3C00] ++
  textWords ["DATE", "TIME", "STID", "STNM", "SLAT", "SLON", "SELV", "STAT", "COUN"] ++
  numWords [9999, 260102, 1200] ++
  numWords [9999] ++ textWords ["ABC"] ++ numWords [72469, 4000, -10500, 5] ++ textWords ["CO", "US"] ++
  textWords ["TTAA", "TTBB"] ++ numWords [0, 0, 1, 1, 6, 3] ++
  textWords ["PRES", "TEMP", "DWPT", "DRCT", "SPED", "HGHT", "PRES", "TEMP", "DWPT"] ++
  numWords (List.replicate 27 0) ++ numWords [ptrA, ptrB] ++ numWords records

/-- Numbers of the file as rational numbers. -/
def ratEnv : LevEnv ℚ := ⟨fun f => (f32Value f).getD 0, realNum missingF32⟩

/-- C77: a file whose only sounding has significant but no mandatory levels: the part has data, yet nothing is listed and nothing can be
had from the file. -/
theorem C77_counterexample : ∃ f, openSounding .little (unmergedFile 0 98 [3, 0x447A0000, 0x41200000, 0x40A00000]) = .ok f ∧
    dataPointer f.info f.bytes 0 0 1 = 98 ∧ f.sninfo = [] ∧
    f.unmergedDatasets (⟨fun x => x - 1, fun x => x + 1⟩ : Calc ℚ) ratEnv 5 id id {} = .error (.raised .keyError) := by
  have h : ∃ f, openSounding .little (unmergedFile 0 98 [3, 0x447A0000, 0x41200000, 0x40A00000]) = .ok f ∧
      dataPointer f.info f.bytes 0 0 1 = 98 ∧ f.infos = [] := by
    have : (openSounding .little (unmergedFile 0 98 [3, 0x447A0000, 0x41200000, 0x40A00000])).toOption.map
        (fun f => (dataPointer f.info f.bytes 0 0 1, f.infos)) = some (98, []) := by decide +kernel
    cases ho : openSounding .little (unmergedFile 0 98 [3, 0x447A0000, 0x41200000, 0x40A00000]) with
    | error e => rw [ho] at this; cases this
    | ok f =>
      rw [ho] at this
      have := Prod.mk.inj (Option.some.inj this)
      exact ⟨f, rfl, this.1, this.2⟩
  obtain ⟨f, h1, h2, h3⟩ := h
  have h4 : f.sninfo = [] := by unfold SoundingReader.sninfo; rw [h3]; exact List.mergeSort_nil
  refine ⟨f, h1, h2, h4, ?_⟩
  unfold SoundingReader.unmergedDatasets
  rw [h4]
  rfl

/-- Two mandatory levels (1000, 850 hPa) and significant temperatures (1000, 900 hPa). -/
def bothParts : Bytes := unmergedFile 98 111
  [12, 0x447A0000, 0x41A00000, 0x41700000, 0x42B40000, 0x40A00000, 0x42C80000, 0x44548000, 0x41200000, 0x40A00000, 0x43340000, 0x41200000, 0x44BB8000,
   6, 0x447A0000, 0x41A00000, 0x41700000, 0x44610000, 0x41400000, 0x40C00000]

/-- What is found there: identifier, merged pressures, columns of the mandatory parts. -/
def bothFound : Option (Text × List ℚ × Option (Option (List String) × Option (List String))) :=
  (openSounding .little bothParts).toOption.bind fun f => f.infos[0]?.bind fun s =>
    (f.unpackUnmerged (⟨fun x => x - 1, fun x => x + 1⟩ : Calc ℚ) ratEnv 5 s.row s.col).toOption.bind fun o => o.bind fun x =>
      some (s.id, x.snd.pres, (unmergedParts f.info f.bytes s.row s.col (f.info.parts.zip f.info.params) 0 []).toOption.map fun ps =>
        (((ratEnv.parts s.elev ps).part "TTAA").map fun p => p.map Prod.fst, ((ratEnv.parts s.elev ps).part "TTCC").map fun p => p.map Prod.fst))

set_option synthInstance.maxSize 1000 in
theorem bothFound_eq : bothFound = some (txt "ABC", [1000, 900, 850], some (some ["PRES", "TEMP", "DWPT", "DRCT", "SPED", "HGHT"], none)) := by
  decide +kernel

/-- The hypotheses of C76 are met: the sounding of this file is listed, read and merged. -/
example : ∃ f s x d, openSounding .little bothParts = .ok f ∧ s ∈ f.sninfo ∧ s.id = txt "ABC" ∧
    f.unpackUnmerged (⟨fun x => x - 1, fun x => x + 1⟩ : Calc ℚ) ratEnv 5 s.row s.col = .ok (some x) ∧ x.snd.pres = [1000, 900, 850] ∧
    mergedDataset id (ratEnv.flt f.info.label.missingFloat) x = .ok d ∧ Describes s d := by
  have key := bothFound_eq
  unfold bothFound at key
  obtain ⟨f, h1, key⟩ := Option.bind_eq_some_iff.1 key
  obtain ⟨s, h2, key⟩ := Option.bind_eq_some_iff.1 key
  obtain ⟨o, h3, key⟩ := Option.bind_eq_some_iff.1 key
  obtain ⟨x, h4, key⟩ := Option.bind_eq_some_iff.1 key
  subst h4
  have key := Option.some.inj key
  have toOk : ∀ {ε β : Type} {y : Except ε β} {b : β}, y.toOption = some b → y = .ok b := by
    intro ε β y b h
    cases y with
    | error e => cases h
    | ok v => exact congrArg Except.ok (Option.some.inj h)
  have hs : s ∈ f.sninfo := by
    unfold SoundingReader.sninfo
    rw [(List.mergeSort_perm _ _).mem_iff]
    exact List.mem_of_getElem? h2
  obtain ⟨k1, k2⟩ := Prod.mk.inj key
  obtain ⟨k2, k3⟩ := Prod.mk.inj k2
  obtain ⟨d, d1, d2, _⟩ := C76_made _ ratEnv 5 .little bothParts f id (toOk h1) s hs x (by
    intro ps hps name hname p hp
    rw [hps] at k3
    obtain ⟨k4, k5⟩ := Prod.mk.inj (Option.some.inj k3)
    simp only [List.mem_cons, List.not_mem_nil, or_false] at hname
    rcases hname with rfl | rfl
    · rw [hp] at k4
      have : p.map Prod.fst = _ := Option.some.inj k4
      unfold SixNames
      rw [this]
      decide
    · rw [hp] at k5
      cases k5) (toOk h3)
  exact ⟨f, s, x, d, toOk h1, hs, k1, toOk h3, k2, d1, d2⟩

end Gempak
