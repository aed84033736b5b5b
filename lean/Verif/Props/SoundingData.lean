import Verif.Proof.F32Order
import Verif.Proof.SortData
import Verif.Props.Sounding

/-!
# Sounding files: datasets (C75)
-/

namespace Gempak
open Spec

set_option linter.unusedSectionVars false

namespace Spec

/-- The value of a number in a column. -/
def levValue (miss : F32) : LevNum → Option ℚ
  | .flt f => f32Value f
  | .real none => f32Value miss
  | .real (some x) => some (x.1 * 10 ^ x.2)

/-- The numbers of a column as stored. -/
inductive ColumnOf : HVal → List LevNum → Prop
  | arr (l : List F32) : ColumnOf (.arr l) (l.map .flt)
  | rarr (l : List RealVal) : ColumnOf (.rarr l) (l.map .real)

/-- Levels in order: pressures downwards, heights upwards. -/
def InOrder (val : LevNum → Option ℚ) (vcoord : Text) (levels : List LevNum) : Prop :=
  levels.Pairwise fun a b => ∀ x y, val a = some x → val b = some y → if vcoord = txt "pres" then y ≤ x else x ≤ y

/-- Levels of one value, with `val i` the value of the level written at position `i`: pressures come out in the reverse of the order in which
they were written, heights in that order. -/
def Ties (val : Nat → Option ℚ) (vcoord : Text) (σ : List Nat) : Prop :=
  σ.Pairwise fun i j => ∀ x, val i = some x → val j = some x → if vcoord = txt "pres" then j < i else i < j

/-- A dataset holds a sounding: nothing is changed but the order of levels, the same for every variable; the missing value is masked
in the variables. -/
structure IsSorted (miss : F32) (o : SnObj) (d : SnData LevNum) : Prop where
  stationId : d.stationId = o.stationId
  stationNumber : d.stationNumber = o.stationNumber
  lat : d.lat = o.lat
  lon : d.lon = o.lon
  elevation : d.elevation = o.elevation
  state : d.state = o.state
  country : d.country = o.country
  dateTime : d.dateTime = o.dateTime
  vcoord : d.vcoord = o.vcoord
  texts : d.texts = []
  ordered : InOrder (levValue miss) d.vcoord d.levels
  table : ∃ (σ : List Nat) (lev : List LevNum), ColumnOf o.levels lev ∧
    d.pressure = (if d.vcoord = txt "pres" then lev.head? else none) ∧ σ.Perm (List.range lev.length) ∧
    Ties (fun i => (lev[i]?).bind (levValue miss)) d.vcoord σ ∧ List.Forall₂ (fun i v => lev[i]? = some v) σ d.levels ∧
    List.Forall₂ (fun kx kw => kw.1 = kx.1 ∧ ∃ c, ColumnOf kx.2 c ∧ c.length = lev.length ∧
      List.Forall₂ (fun i w => ∃ v, c[i]? = some v ∧ w = if levValue miss v = f32Value miss then none else some v) σ kw.2) o.vars d.vars

end Spec

theorem column_of {x : HVal} {c : List LevNum} (h : x.column = .ok c) : ColumnOf x c := by
  cases x <;> simp only [HVal.column] at h <;> first | (cases h; constructor) | cases h

theorem levNum_total (miss : F32) (a b : LevNum) : (LevNum.le miss a b || LevNum.le miss b a) = true := by
  cases a <;> cases b <;> simp [LevNum.le] <;> exact le_total _ _

theorem levNum_trans (miss : F32) (a b c : LevNum) (h1 : LevNum.le miss a b = true) (h2 : LevNum.le miss b c = true) : LevNum.le miss a c = true := by
  cases a <;> cases b <;> cases c <;> simp [LevNum.le] at h1 h2 ⊢ <;> exact h1.trans h2

/-- Only numbers of one kind are compared. -/
theorem levNum_le_value {miss : F32} {a b : LevNum} {x y : ℚ} {hv : HVal} {c : List LevNum} (hc : ColumnOf hv c) (ha : a ∈ c) (hb : b ∈ c)
    (hx : levValue miss a = some x) (hy : levValue miss b = some y) : LevNum.le miss a b = true ↔ x ≤ y := by
  cases hc with
  | arr l =>
    obtain ⟨p, _, rfl⟩ := List.mem_map.1 ha
    obtain ⟨q, _, rfl⟩ := List.mem_map.1 hb
    simp only [LevNum.le, decide_eq_true_eq]
    exact f32Key_le hx hy
  | rarr l =>
    obtain ⟨p, _, rfl⟩ := List.mem_map.1 ha
    obtain ⟨q, _, rfl⟩ := List.mem_map.1 hb
    have e : ∀ (r : RealVal) (z : ℚ), levValue miss (.real r) = some z → realNum miss r = z := by
      intro r z hz
      cases r with
      | none => simp only [levValue] at hz; simp [realNum, hz]
      | some w => exact Option.some.inj hz
    simp only [LevNum.le, decide_eq_true_eq, e p x hx, e q y hy]

theorem levNum_missing {miss : F32} (hm : ∃ m, f32Value miss = some m) (v : LevNum) :
    LevNum.isMissing miss v = true ↔ levValue miss v = f32Value miss := by
  obtain ⟨m, hm⟩ := hm
  cases v with
  | flt f =>
    simp only [LevNum.isMissing, levValue, Bool.and_eq_true, Bool.not_eq_eq_eq_not, Bool.not_true, decide_eq_true_eq]
    constructor
    · rintro ⟨⟨h1, h2⟩, h3⟩
      cases hf : f32Value f with
      | some x => rw [hm, (f32Key_eq hf hm).1 h3]
      | none =>
        exfalso
        have e1 : f.toNat / 2 ^ 23 % 256 = 255 := by
          unfold f32Value at hf
          dsimp only at hf
          split at hf
          · assumption
          · split at hf <;> cases hf
        have e2 : miss.toNat / 2 ^ 23 % 256 ≠ 255 := by
          unfold f32Value at hm
          dsimp only at hm
          split at hm
          · cases hm
          · assumption
        unfold f32Key at h3
        have := f.isLt
        have := miss.isLt
        split at h3 <;> split at h3 <;> omega
    · intro h
      rw [hm] at h
      exact ⟨⟨f32Nan_value h, f32Nan_value hm⟩, (f32Key_eq h hm).2 rfl⟩
  | real r =>
    cases r with
    | none => simp [LevNum.isMissing, levValue, realNum, hm]
    | some x => exact decide_eq_true_iff

/-- C75: what is made of one sounding. -/
theorem snDataset_sorted {miss : F32} (hm : ∃ m, f32Value miss = some m) {o : SnObj} {d : SnData LevNum} (h : snDataset miss o = .ok d) :
    IsSorted miss o d := by
  unfold snDataset at h
  obtain ⟨lev, h1, h⟩ := bind_inv h
  obtain ⟨vars, h2, g1⟩ := bind_inv h
  obtain ⟨r, h3, g2⟩ := bind_inv g1
  have e := Except.ok.inj g2
  have hc := column_of h1
  obtain ⟨hp, a1, a2, a3⟩ := sortData_at h3
  have ht := sortOrder_ties (LevNum.le miss) (levNum_total miss) (levNum_trans miss) (decide (o.vcoord = txt "pres")) lev
  generalize hσ : sortOrder (LevNum.le miss) (decide (o.vcoord = txt "pres")) lev = σ at hp a1 a3 ht
  have hsub : ∀ v ∈ r.1, v ∈ lev := by
    rw [a2]
    intro v hv
    unfold takeAt at hv
    obtain ⟨i, _, hi⟩ := List.mem_filterMap.1 hv
    exact List.mem_of_getElem? hi
  refine ⟨by rw [← e], by rw [← e], by rw [← e], by rw [← e], by rw [← e], by rw [← e], by rw [← e], by rw [← e], by rw [← e], by rw [← e], ?_,
    σ, lev, hc, by rw [← e], hp, ?_, by rw [← e]; exact a1, ?_⟩
  · rw [← e]
    unfold InOrder
    dsimp only
    have := takeAt_sorted (LevNum.le miss) (levNum_total miss) (levNum_trans miss) (decide (o.vcoord = txt "pres")) lev
    rw [← a2] at this
    refine this.imp_of_mem ?_
    intro a b ha hb hab x y hx hy
    by_cases hv : o.vcoord = txt "pres"
    · rw [if_pos (by simpa using hv)] at hab
      rw [if_pos hv]
      exact (levNum_le_value hc (hsub b hb) (hsub a ha) hy hx).1 hab
    · rw [if_neg (by simpa using hv)] at hab
      rw [if_neg hv]
      exact (levNum_le_value hc (hsub a ha) (hsub b hb) hx hy).1 hab
  · rw [← e]
    unfold Ties
    dsimp only
    refine ht.imp fun {i j} h x hx hy => ?_
    obtain ⟨a, ha, hx⟩ := Option.bind_eq_some_iff.1 hx
    obtain ⟨b, hb, hy⟩ := Option.bind_eq_some_iff.1 hy
    have := h a b ha hb ((levNum_le_value hc (List.mem_of_getElem? ha) (List.mem_of_getElem? hb) hx hy).2 le_rfl)
      ((levNum_le_value hc (List.mem_of_getElem? hb) (List.mem_of_getElem? ha) hy hx).2 le_rfl)
    simpa using this
  · rw [← e]
    dsimp only
    clear h g1 g2 h3 e a1 a2 hsub
    generalize r.2 = ws at a3
    generalize o.vars = os at h2
    induction os generalizing vars ws with
    | nil => cases h2; cases a3; exact .nil
    | cons kx l ih =>
      rw [List.mapM_cons] at h2
      obtain ⟨kv, k1, h2⟩ := bind_inv h2
      obtain ⟨kvs, k2, h2⟩ := bind_inv h2
      have := Except.ok.inj h2
      subst this
      cases a3 with
      | cons b1 b2 =>
        obtain ⟨c1, c2, c3⟩ := b1
        unfold namedColumn at k1
        obtain ⟨c, d1, d2⟩ : ∃ c, kx.2.column = .ok c ∧ (kx.1, c) = kv := by
          cases hcol : kx.2.column with
          | error x => rw [hcol] at k1; cases k1
          | ok c => rw [hcol] at k1; exact ⟨c, rfl, Except.ok.inj k1⟩
        subst d2
        refine .cons ⟨c1, c, column_of d1, c2, c3.imp ?_⟩ (ih kvs _ b2 k2)
        rintro i w ⟨v, v1, v2⟩
        refine ⟨v, v1, ?_⟩
        rw [v2]
        exact if_congr (levNum_missing hm v) rfl rfl

/-- C75: whatever merged file is opened and whatever is asked for, the datasets are the soundings in turn, each with its levels from
high to low pressure (or from low to high), the values of one level kept together, and the missing value masked. -/
theorem C75_sorted (f : SoundingReader) (upper lower : Text → Text) (q : SiteQuery) (ds : List (SnData LevNum))
    (hm : ∃ m, f32Value f.info.label.missingFloat = some m) (h : f.datasets upper lower q = .ok ds) :
    ∃ os, f.snxarray upper lower q = .ok os ∧ List.Forall₂ (IsSorted f.info.label.missingFloat) os ds := by
  unfold SoundingReader.datasets at h
  obtain ⟨os, h1, h2⟩ := bind_inv h
  refine ⟨os, h1, ?_⟩
  clear h1 h
  induction os generalizing ds with
  | nil => cases h2; exact .nil
  | cons o l ih =>
    rw [List.mapM_cons] at h2
    obtain ⟨d, k1, h2⟩ := bind_inv h2
    obtain ⟨es, k2, h2⟩ := bind_inv h2
    have := Except.ok.inj h2
    subst this
    exact .cons (snDataset_sorted hm k1) (ih es k2)

/-! ## Written files -/

namespace Spec

/-- The dataset a request turns into: attributes and time as given, the columns in single precision, in the order of levels; where
-9999 was stored nothing is reported. -/
structure IsDataset {ρ κ : Type} (env : NumEnv ρ κ) (lower : Text → Text) (names : List Text) (e : Entry κ (List (List ρ)))
    (d : SnData LevNum) : Prop where
  dateTime : d.dateTime = storedTime e.date e.clock
  stationId : d.stationId = .text (e.id.take 4)
  stationNumber : d.stationNumber = .int e.number
  lat : ∃ n, env.centi e.lat = .ok n ∧ d.lat = .coord n
  lon : ∃ n, env.centi e.lon = .ok n ∧ d.lon = .coord n
  elevation : d.elevation = .int e.elev
  state : d.state = .text e.state
  country : d.country = .text e.country
  vcoord : d.vcoord = if txt "PRES" ∈ names then txt "pres" else txt "hght"
  texts : d.texts = []
  ordered : InOrder (levValue missingF32) d.vcoord d.levels
  table : ∃ (σ : List Nat) (lev : List ρ), (vertParam names, lev) ∈ names.zip e.value ∧
    (if d.vcoord = txt "pres" then ∀ v, lev.head? = some v → ∃ f, env.f32 v = .ok f ∧ d.pressure = some (.flt f) else d.pressure = none) ∧
    σ.Perm (List.range lev.length) ∧ Ties (fun i => ((lev[i]?).bind fun v => (env.f32 v).toOption).bind f32Value) d.vcoord σ ∧
    List.Forall₂ (fun i x => ∃ v f, lev[i]? = some v ∧ env.f32 v = .ok f ∧ x = .flt f) σ d.levels ∧
    List.Forall₂ (fun nc kw => kw.1 = lower nc.1 ∧ List.Forall₂ (fun i w => ∃ v f, nc.2[i]? = some v ∧ env.f32 v = .ok f ∧
      w = if f = missingF32 then none else some (.flt f)) σ kw.2) ((names.zip e.value).filter fun nc => nc.1 ≠ vertParam names) d.vars

end Spec

variable {ρ κ : Type} [DecidableEq κ]

theorem forall₂_getElem? {α γ : Type} {R : α → γ → Prop} {l : List α} {m : List γ} (h : List.Forall₂ R l m) {i : Nat} {b : γ} (hb : m[i]? = some b) :
    ∃ a, l[i]? = some a ∧ R a b := by
  induction h generalizing i with
  | nil => simp at hb
  | @cons a c l m h1 _ ih =>
    cases i with
    | zero => exact ⟨a, rfl, by have := Option.some.inj hb; exact this ▸ h1⟩
    | succ i => exact ih hb

theorem missing_pattern {f : F32} (h : f32Value f = f32Value missingF32) : f = missingF32 := by
  rw [f32Value_missing] at h
  have := (f32Key_eq h f32Value_missing).2 rfl
  have e : f32Key missingF32 = -((missingF32.toNat - 2 ^ 31 : Nat) : Int) := by decide
  rw [e] at this
  have h3 : missingF32.toNat - 2 ^ 31 = 0x461C3C00 := by decide
  rw [h3] at this
  have h4 : missingF32.toNat = 2 ^ 31 + 0x461C3C00 := by decide
  apply BitVec.eq_of_toNat_eq
  rw [h4]
  unfold f32Key at this
  have := f.isLt
  split at * <;> omega

theorem columnOf_arr {x : HVal} {fs : List F32} {c : List LevNum} (h : ColumnOf x c) (e : x = .arr fs) : c = fs.map .flt := by
  subst e; cases h; rfl

/-- A sorted sounding of a request is its dataset. -/
theorem isDataset_of {env : NumEnv ρ κ} {lower : Text → Text} {names : List Text} {e : Entry κ (List (List ρ))} {o : SnObj}
    {d : SnData LevNum} (h : IsSounding env lower names e o) (hs : IsSorted missingF32 o d) : IsDataset env lower names e d := by
  obtain ⟨σ, lv, hc, hpr, hp, hti, h1, h2⟩ := hs.table
  obtain ⟨lev, hl, fs, hfs, he⟩ := h.levels
  have elv := columnOf_arr hc he
  subst elv
  refine ⟨hs.dateTime.trans h.dateTime, hs.stationId.trans h.stationId, hs.stationNumber.trans h.stationNumber, ?_, ?_,
    hs.elevation.trans h.elevation, hs.state.trans h.state, hs.country.trans h.country, hs.vcoord.trans h.vcoord, hs.texts, hs.ordered, σ, lev, hl,
    ?_, by rw [List.length_map, ← hfs.length_eq] at hp; exact hp, ?_, h1.imp ?_, ?_⟩
  · rw [hs.lat]; exact h.lat
  · rw [hs.lon]; exact h.lon
  · split
    · rename_i hv
      rw [if_pos hv] at hpr
      intro v hv
      cases hfs with
      | nil => cases hv
      | @cons a f l m hh _ =>
        have := Option.some.inj hv
        subst this
        exact ⟨f, hh, hpr⟩
    · rename_i hv
      rwa [if_neg hv] at hpr
  · refine hti.imp fun {i j} h x hx hy => ?_
    have e : ∀ k : Nat, ((lev[k]?).bind fun v => (env.f32 v).toOption).bind f32Value = some x →
        (((fs.map LevNum.flt)[k]?).bind (levValue missingF32)) = some x := by
      intro k hk
      obtain ⟨f, hk, hf⟩ := Option.bind_eq_some_iff.1 hk
      obtain ⟨v, hk, hv⟩ := Option.bind_eq_some_iff.1 hk
      obtain ⟨g, hg, hr⟩ := forall₂_get hfs hk
      rw [hr] at hv
      have := Option.some.inj hv
      subst this
      rw [List.getElem?_map, hg]
      exact hf
    exact h x (e i hx) (e j hy)
  · intro i x hx
    rw [List.getElem?_map] at hx
    obtain ⟨f, hf, rfl⟩ := Option.map_eq_some_iff.1 hx
    obtain ⟨v, hv, hr⟩ := forall₂_getElem? hfs hf
    exact ⟨v, f, hv, hr, rfl⟩
  · have hv := h.vars
    generalize (names.zip e.value).filter (fun nc => nc.1 ≠ vertParam names) = ncs at hv ⊢
    generalize o.vars = os at hv h2
    generalize d.vars = ds at h2
    clear hs hp h1 hti
    induction hv generalizing ds with
    | nil => cases h2; exact .nil
    | @cons nc kx l m k1 _ ih =>
      cases h2 with
      | @cons _ kw _ ws b1 b2 =>
        obtain ⟨n1, gs, n2, n3⟩ := k1
        obtain ⟨m1, c, m2, m3, m4⟩ := b1
        have ec := columnOf_arr m2 n3
        subst ec
        refine .cons ⟨m1.trans n1, m4.imp ?_⟩ (ih _ b2)
        rintro i w ⟨x, hx, hw⟩
        rw [List.getElem?_map] at hx
        obtain ⟨f, hf, rfl⟩ := Option.map_eq_some_iff.1 hx
        obtain ⟨v, hv, hr⟩ := forall₂_getElem? n2 hf
        refine ⟨v, f, hv, hr, ?_⟩
        rw [hw]
        exact if_congr ⟨fun h => missing_pattern h, fun h => by rw [h]; rfl⟩ rfl rfl

/-- The dataset of a request can be made. -/
theorem snDataset_ok {env : NumEnv ρ κ} {lower : Text → Text} {names : List Text} {e : Entry κ (List (List ρ))} {o : SnObj}
    (h : IsSounding env lower names e o) (hr : Rectangular e.value) : ∃ d, snDataset missingF32 o = .ok d := by
  obtain ⟨lev, hl, fs, hfs, he⟩ := h.levels
  have hlen : ∀ nc ∈ names.zip e.value, nc.2.length = lev.length := by
    have : ∀ c ∈ e.value, ∀ c' ∈ e.value, c.length = c'.length := by
      cases hv : e.value with
      | nil => simp
      | cons a r =>
        rw [hv] at hr
        have hh : ∀ c ∈ a :: r, c.length = a.length := by
          intro c hc
          rcases List.mem_cons.1 hc with rfl | hc
          · rfl
          · exact hr.2 c hc
        intro c hc c' hc'
        rw [hh c hc, hh c' hc']
    intro nc hnc
    exact this _ (List.of_mem_zip hnc).2 _ (List.of_mem_zip hl).2
  obtain ⟨vars, hvars, hvl⟩ : ∃ vars, o.vars.mapM namedColumn = .ok vars ∧ ∀ kv ∈ vars, kv.2.length = lev.length := by
    have hv := h.vars
    have hsub : ∀ nc ∈ (names.zip e.value).filter (fun nc => nc.1 ≠ vertParam names), nc.2.length = lev.length :=
      fun nc hnc => hlen nc (List.mem_of_mem_filter hnc)
    generalize (names.zip e.value).filter (fun nc => nc.1 ≠ vertParam names) = ncs at hv hsub
    generalize o.vars = os at hv
    clear hlen
    induction hv with
    | nil => exact ⟨[], rfl, by simp⟩
    | @cons nc kx l m k1 _ ih =>
      obtain ⟨vs, v1, v2⟩ := ih fun x hx => hsub x (List.mem_cons_of_mem _ hx)
      obtain ⟨n1, gs, n2, n3⟩ := k1
      have hk : namedColumn kx = .ok (kx.1, gs.map .flt) := by unfold namedColumn; rw [n3]; rfl
      refine ⟨(kx.1, gs.map .flt) :: vs, ?_, ?_⟩
      · rw [List.mapM_cons, hk, ok_bind, v1]; rfl
      · intro kv hkv
        rcases List.mem_cons.1 hkv with rfl | hkv
        · dsimp only
          rw [List.length_map, ← n2.length_eq]
          exact hsub nc List.mem_cons_self
        · exact v2 kv hkv
  obtain ⟨out, hout⟩ := sortData_ok (LevNum.le missingF32) (LevNum.isMissing missingF32) (decide (o.vcoord = txt "pres")) (fs.map .flt) vars (by
    intro kv hkv
    rw [hvl kv hkv, List.length_map, hfs.length_eq])
  unfold snDataset
  rw [he, show HVal.column (.arr fs) = .ok (fs.map .flt) from rfl, ok_bind, hvars, ok_bind, hout]
  exact ⟨_, rfl⟩

/-- C75: after any sequence of `add_sounding` calls on a new file, reading the saved bytes gives exactly one dataset for every surviving
request, with its levels in order.  The file may hold no sounding without levels (see `C15_no_levels`). -/
theorem C75_written (env : NumEnv ρ κ) (upper lower : Text → Text) (ps : List Text) (b0 : Builder κ (List (List ρ)))
    (rs : List (AddReq κ (List ρ))) (e host : Endian) (bytes : Bytes) (hnew : newBuilder env ps = .ok b0)
    (hcap : headers (rs.filterMap (snEntry env b0.names)) ≤ 32000) (hn : SoundingNames lower b0.names)
    (hes : ∀ x ∈ rs.filterMap (snEntry env b0.names), x.Legible)
    (hpos : ∀ x ∈ rs.filterMap (snEntry env b0.names), ∀ c ∈ x.value, c ≠ [])
    (hne : rs.filterMap (snEntry env b0.names) ≠ [])
    (hs : save e (soundingFile env (run (addSounding env) b0 rs)) = .ok bytes) :
    ∃ (g : SoundingReader) (out : List (SnData LevNum)) (es : List (Entry κ (List (List ρ)))), openSounding host bytes = .ok g ∧
      g.datasets upper lower {} = .ok out ∧ es.Perm (final (rs.filterMap (snEntry env b0.names))) ∧
      List.Forall₂ (IsDataset env lower b0.names) es out := by
  obtain ⟨g, os, es, ho, hx, he, hf⟩ := C15_round_trip_partial env upper lower ps b0 rs e host bytes hnew hcap hn hes hpos hne hs
  have hmiss : g.info.label.missingFloat = missingF32 := by
    have hist := run_sounding (History.new hnew) rs
    rw [List.nil_append] at hist
    have hcap' : (run (addSounding env) b0 rs).rows + (run (addSounding env) b0 rs).columns ≤ mmhdrs := by
      rw [hist.headers_eq]; exact hcap
    obtain ⟨hr, hc⟩ := hist.dims hcap'
    obtain ⟨bk, ho2⟩ := openSounding_spec (host := host) hr hc (legible_of hist hcap' hn.legible hes) hs
    rw [ho] at ho2
    rw [Except.ok.inj ho2]
    rfl
  have hrect : ∀ x ∈ es, Rectangular x.value := by
    intro x hx
    obtain ⟨r, _, hr⟩ := List.mem_filterMap.1 (final_sub (he.subset hx))
    exact (snEntry_value hr).2.1
  obtain ⟨ds, hd, hfd⟩ : ∃ ds, os.mapM (snDataset missingF32) = .ok ds ∧ List.Forall₂ (IsDataset env lower b0.names) es ds := by
    clear he hx
    induction hf with
    | nil => exact ⟨[], rfl, .nil⟩
    | @cons x o l m h1 _ ih =>
      obtain ⟨d, hd⟩ := snDataset_ok h1 (hrect x List.mem_cons_self)
      obtain ⟨ds, hds, hf⟩ := ih fun y hy => hrect y (List.mem_cons_of_mem _ hy)
      refine ⟨d :: ds, ?_, .cons (isDataset_of h1 (snDataset_sorted ⟨_, f32Value_missing⟩ hd)) hf⟩
      rw [List.mapM_cons, hd, ok_bind, hds]; rfl
  refine ⟨g, ds, es, ho, ?_, he, hfd⟩
  unfold SoundingReader.datasets
  rw [hx, ok_bind, hmiss]
  exact hd

/-- Every hypothesis of `C75_written` is met by the history of C15. -/
example : ∃ bytes g out, save .big (soundingFile intEnv (run (addSounding intEnv) ⟨snTwo, ⟨[]⟩, ⟨[]⟩, [], 0, 0, [], []⟩ someSoundings)) = .ok bytes ∧
    openSounding .little bytes = .ok g ∧ g.datasets id id {} = .ok out ∧ out.length = 2 := by
  have hnew : newBuilder intEnv snTwo = .ok (⟨snTwo, ⟨[]⟩, ⟨[]⟩, [], 0, 0, [], []⟩ : Builder Int (List (List F32))) := rfl
  have hn : SoundingNames id snTwo := by
    constructor <;> decide +kernel
  have hleg : ∀ x ∈ someSoundings.filterMap (snEntry intEnv snTwo), x.Legible := by
    rw [snTwoEntries]
    intro x hx
    simp only [List.mem_cons, List.not_mem_nil, or_false] at hx
    rcases hx with rfl | rfl | rfl <;> constructor <;> decide +kernel
  have hw : ∀ x ∈ someSoundings.filterMap (snEntry intEnv snTwo), x.Writable intEnv := by
    rw [snTwoEntries]
    intro x hx
    simp only [List.mem_cons, List.not_mem_nil, or_false] at hx
    rcases hx with rfl | rfl | rfl <;>
      exact ⟨by decide, by decide, by decide, ⟨_, rfl, by decide⟩, _, rfl, by decide⟩
  have hpos : ∀ x ∈ someSoundings.filterMap (snEntry intEnv snTwo), ∀ c ∈ x.value, c ≠ [] := by
    rw [snTwoEntries]; decide +kernel
  have hcap : headers (someSoundings.filterMap (snEntry intEnv snTwo)) ≤ 32000 := by
    rw [snTwoEntries]; decide +kernel
  have hne : someSoundings.filterMap (snEntry intEnv snTwo) ≠ [] := by rw [snTwoEntries]; simp
  obtain ⟨bytes, hs⟩ := C15_saves intEnv snTwo _ someSoundings .big hnew hcap (fun x hx => ⟨(hleg x hx).date, (hleg x hx).clock⟩)
    hw (fun _ _ _ _ v _ => ⟨v, rfl⟩) (by decide +kernel)
  obtain ⟨g, out, es, h1, h2, h3, h4⟩ := C75_written intEnv id id snTwo _ someSoundings .big .little bytes hnew hcap hn hleg hpos hne hs
  refine ⟨bytes, g, out, hs, h1, h2, ?_⟩
  rw [← h4.length_eq, h3.length_eq, snTwoEntries]
  decide +kernel

end Gempak
