import Verif.Props.Copy
import Verif.Props.SoundingData
import Verif.Props.Twins

/-!
# C114: copies of sounding files

Every dataset that `snxarray` returns for a saved file is given to `add_sounding` again, and saved.  Stated about datasets and
requests only.
-/

namespace Gempak

open Spec

variable {ρ κ : Type} [DecidableEq κ]

/-- A number of a dataset; what is masked is not a number. -/
def Spec.numOf (back : F32 → ρ) (nan : ρ) : Option LevNum → ρ
  | some (.flt f) => back f
  | _ => nan

/-- The call that adds a dataset again: `deg` and `back` are the numbers the reader makes of the words of the file. -/
def Spec.snCopyOf (deg : Int → κ) (back : F32 → ρ) (nan : ρ) (d : SnData LevNum) : AddReq κ (List ρ) where
  data := (d.vcoord, d.levels.map fun v => numOf back nan (some v)) :: d.vars.map fun kv => (kv.1, kv.2.map (numOf back nan))
  slat := coordProp deg d.lat
  slon := coordProp deg d.lon
  dateTime := .dt d.dateTime.1 d.dateTime.2
  info := some ⟨textProp d.stationId, intProp d.stationNumber, intProp d.elevation, textProp d.state, textProp d.country, none⟩

/-- What is asked of the host. -/
structure Spec.SnFaithful (env : NumEnv ρ κ) (lower : Text → Text) (names : List Text) (back : F32 → ρ) (nan : ρ) : Prop where
  number : ∀ v f, env.isNaN v = false → env.f32 v = .ok f → env.isNaN (back f) = false ∧ env.f32 (back f) = .ok f
  missing : env.isNaN env.missing = false
  nan : env.isNaN nan = true
  upper : ∀ t n, env.upper ((env.upper t).take n) = (env.upper t).take n
  names : ∀ n ∈ names, env.upper (lower n) = n
  vertical : env.upper (txt "pres") = txt "PRES" ∧ env.upper (txt "hght") = txt "HGHT"

/-- The coordinates read are kept when written once more. -/
def Spec.SnKept (env : NumEnv ρ κ) (deg : Int → κ) (d : SnData LevNum) : Prop :=
  ∀ n, d.lat = .coord n ∨ d.lon = .coord n → env.centi (deg n) = .ok n

/-- Two datasets are of the same site and time. -/
def Spec.DataTwins (a b : SnData LevNum) : Prop :=
  a.dateTime = b.dateTime ∧ a.stationId = b.stationId ∧ a.stationNumber = b.stationNumber ∧ a.lat = b.lat ∧ a.lon = b.lon ∧
    a.elevation = b.elevation ∧ a.state = b.state ∧ a.country = b.country

/-- The dataset of a copy: the same site, time and rows; rows of one pressure have changed their order; the station pressure is that of
the first level. -/
structure Spec.CopiedData (d e : SnData LevNum) : Prop where
  twins : DataTwins d e
  vcoord : e.vcoord = d.vcoord
  texts : e.texts = d.texts
  pressure : e.pressure = if d.vcoord = txt "pres" then d.levels.head? else none
  ordered : InOrder (levValue missingF32) e.vcoord e.levels
  rows : ∃ σ : List Nat, σ.Perm (List.range d.levels.length) ∧ Ties (fun i => (d.levels[i]?).bind (levValue missingF32)) d.vcoord σ ∧
    List.Forall₂ (fun i v => d.levels[i]? = some v) σ e.levels ∧
    List.Forall₂ (fun kv kw => kw.1 = kv.1 ∧ List.Forall₂ (fun i w => kv.2[i]? = some w) σ kw.2) d.vars e.vars

/-- What `snxarray` gives for the saved file of a history of calls. -/
structure Spec.DatasetOutput (env : NumEnv ρ κ) (upper lower : Text → Text) (names : List Text) (rs : List (AddReq κ (List ρ)))
    (out : List (SnData LevNum)) : Prop where
  /-- The names of the parameters do not clash with anything. -/
  clear : SoundingNames lower names
  /-- Dates exist and names fit their words. -/
  legible : ∀ x ∈ rs.filterMap (snEntry env names), x.Legible
  /-- There are levels. -/
  levels : ∀ x ∈ rs.filterMap (snEntry env names), ∀ c ∈ x.value, c ≠ []
  /-- The limit of headers is not exceeded. -/
  small : headers (rs.filterMap (snEntry env names)) ≤ 32000
  /-- Something was accepted. -/
  some : rs.filterMap (snEntry env names) ≠ []
  /-- A new file, the calls, `to_gempak`, opening, `snxarray`. -/
  saved : ∃ (ps : List Text) (b0 : Builder κ (List (List ρ))) (e host : Endian) (bytes : Bytes) (g : SoundingReader),
    newBuilder env ps = .ok b0 ∧ b0.names = names ∧ save e (soundingFile env (run (addSounding env) b0 rs)) = .ok bytes ∧
      openSounding host bytes = .ok g ∧ g.datasets upper lower {} = .ok out

/-- The round trip for such an output. -/
theorem Spec.DatasetOutput.reports {env : NumEnv ρ κ} {upper lower : Text → Text} {names : List Text} {rs : List (AddReq κ (List ρ))}
    {out : List (SnData LevNum)} (h : DatasetOutput env upper lower names rs out) :
    ∃ es : List (Entry κ (List (List ρ))), es.Perm (final (rs.filterMap (snEntry env names))) ∧
      List.Forall₂ (IsDataset env lower names) es out := by
  obtain ⟨ps, b0, e, host, bytes, g, hnew, rfl, hs, ho, hj⟩ := h.saved
  obtain ⟨g', out', es, h1, h2, h3, h4⟩ := C75_written env upper lower ps b0 rs e host bytes hnew h.small h.clear h.legible
    h.levels h.some hs
  rw [ho] at h1
  have := Except.ok.inj h1
  subst this
  rw [hj] at h2
  have := Except.ok.inj h2
  subst this
  exact ⟨es, h3, h4⟩

/-! ## The request made of a dataset -/

theorem given_of_mem {α : Type} {upper : Text → Text} {data : List (Text × α)} (hn : (data.map fun kv => upper kv.1).Nodup) {k : Text} {v : α}
    (hm : (k, v) ∈ data) : given upper data (upper k) = some v := by
  unfold given
  have : data.reverse.find? (fun kv => upper kv.1 = upper k) = some (k, v) := by
    rw [List.find?_eq_some_iff_append]
    refine ⟨by simp, ?_⟩
    obtain ⟨s, t, hst⟩ := List.append_of_mem hm
    refine ⟨t.reverse, s.reverse, by rw [hst]; simp, ?_⟩
    intro a ha
    rw [List.mem_reverse] at ha
    rw [hst, List.map_append, List.map_cons] at hn
    have h2 := (List.nodup_append.1 hn).2.1
    rw [List.nodup_cons] at h2
    simp only [Bool.not_eq_true', decide_eq_false_iff_not]
    intro he
    exact h2.1 (List.mem_map.2 ⟨a, ha, he⟩)
  rw [this]; rfl

/-- What holds of accepted sounding entries. -/
structure Spec.Entry.SnAccepted (env : NumEnv ρ κ) (names : List Text) (x : Entry κ (List (List ρ))) : Prop where
  clean : ∀ c ∈ x.value, ∀ v ∈ c, env.isNaN v = false
  length : x.value.length = names.length
  rect : Rectangular x.value
  priority : x.priority = 0
  id : ∃ t, x.id = (env.upper t).take 8
  state : ∃ t, x.state = (env.upper t).take 4
  country : ∃ t, x.country = (env.upper t).take 4

theorem snAccepted_of {env : NumEnv ρ κ} {names : List Text} (hm : env.isNaN env.missing = false)
    (hup : ∀ t n, env.upper ((env.upper t).take n) = (env.upper t).take n) {r : AddReq κ (List ρ)} {x : Entry κ (List (List ρ))}
    (hx : snEntry env names r = some x) : x.SnAccepted env names := by
  obtain ⟨h1, h2, h3, h4⟩ := snEntry_value hx
  have hnil : env.upper [] = [] := by simpa using hup [] 0
  obtain ⟨lat, lon, d, c, _, _, _, _, he⟩ := snEntry_cases hx
  refine ⟨?_, h1, h2, h3, ?_, ?_, ?_⟩
  · intro c hc v hv
    obtain ⟨n, _, w, _, rfl⟩ := forall₂_mem_right h4 hc
    obtain ⟨u, _, rfl⟩ := List.mem_map.1 hv
    unfold NumEnv.clean
    split
    · exact hm
    · rename_i h; simpa using h
  all_goals
    rw [he]
    cases r.info with
    | none => exact ⟨[], by rw [hnil]; rfl⟩
    | some i => exact ⟨_, rfl⟩

/-- A column of an entry as it is stored, in the order `σ`. -/
def colAt (env : NumEnv ρ κ) (σ : List Nat) (c : List ρ) : List F32 := σ.filterMap fun i => (c[i]?).bind fun v => (env.f32 v).toOption

omit [DecidableEq κ] in
theorem colAt_spec {env : NumEnv ρ κ} {σ : List Nat} {c : List ρ} {β : Type} {g : F32 → β} {ws : List β}
    (h : List.Forall₂ (fun i w => ∃ v f, c[i]? = some v ∧ env.f32 v = .ok f ∧ w = g f) σ ws) :
    ws = (colAt env σ c).map g ∧ List.Forall₂ (fun i f => ∃ v, c[i]? = some v ∧ env.f32 v = .ok f) σ (colAt env σ c) := by
  induction h with
  | nil => exact ⟨rfl, .nil⟩
  | @cons i w σ ws h1 _ ih =>
    obtain ⟨v, f, a1, a2, rfl⟩ := h1
    have : colAt env (i :: σ) c = f :: colAt env σ c := by
      unfold colAt
      rw [List.filterMap_cons_some (b := f) (by rw [a1, Option.bind_some, a2]; rfl)]
    rw [this]
    exact ⟨by rw [List.map_cons, ← ih.1], .cons ⟨v, a1, a2⟩ ih.2⟩

/-- The columns of a dataset. -/
theorem dataset_columns {env : NumEnv ρ κ} {lower : Text → Text} {names : List Text} {x : Entry κ (List (List ρ))} {d : SnData LevNum}
    (h : IsDataset env lower names x d) : ∃ (σ : List Nat) (lev : List ρ), (vertParam names, lev) ∈ names.zip x.value ∧
      σ.Perm (List.range lev.length) ∧ d.levels = (colAt env σ lev).map .flt ∧
      List.Forall₂ (fun i f => ∃ v, lev[i]? = some v ∧ env.f32 v = .ok f) σ (colAt env σ lev) ∧
      d.vars = ((names.zip x.value).filter fun nc => nc.1 ≠ vertParam names).map (fun nc => (lower nc.1, (colAt env σ nc.2).map fun f =>
        if f = missingF32 then none else some (.flt f))) ∧
      ∀ nc ∈ (names.zip x.value).filter (fun nc => nc.1 ≠ vertParam names),
        List.Forall₂ (fun i f => ∃ v, nc.2[i]? = some v ∧ env.f32 v = .ok f) σ (colAt env σ nc.2) := by
  obtain ⟨σ, lev, h1, _, h3, _, h4, h5⟩ := h.table
  obtain ⟨a1, a2⟩ := colAt_spec h4
  refine ⟨σ, lev, h1, h3, a1, a2, ?_⟩
  generalize (names.zip x.value).filter (fun nc => nc.1 ≠ vertParam names) = ncs at h5
  generalize d.vars = ws at h5
  clear h1 h3 h4 a1 a2 h
  induction h5 with
  | nil => exact ⟨rfl, by simp⟩
  | @cons nc kw l m k1 _ ih =>
    obtain ⟨e1, e2⟩ := k1
    obtain ⟨b1, b2⟩ := colAt_spec e2
    refine ⟨?_, ?_⟩
    · rw [List.map_cons, ← ih.1, ← b1, ← e1]
    · intro y hy
      rcases List.mem_cons.1 hy with rfl | hy
      · exact b2
      · exact ih.2 y hy

/-- The entry of a copy. -/
structure CopyEntry (env : NumEnv ρ κ) (lower : Text → Text) (names : List Text) (deg : Int → κ) (back : F32 → ρ) (nan : ρ)
    (x : Entry κ (List (List ρ))) (d : SnData LevNum) (y : Entry κ (List (List ρ))) : Prop where
  accepted : snEntry env names (snCopyOf deg back nan d) = some y
  place : y.place = (storedTime x.date x.clock, { x.place.2 with
    slat := deg ((env.centi x.lat).toOption.getD 0), slon := deg ((env.centi x.lon).toOption.getD 0), std2 := [] })
  columns : ∃ (σ : List Nat) (lev : List ρ), (vertParam names, lev) ∈ names.zip x.value ∧ σ.Perm (List.range lev.length) ∧
    d.levels = (colAt env σ lev).map .flt ∧
    d.vars = ((names.zip x.value).filter fun nc => nc.1 ≠ vertParam names).map (fun nc => (lower nc.1, (colAt env σ nc.2).map fun f =>
      if f = missingF32 then none else some (.flt f))) ∧
    List.Forall₂ (fun nc c => nc.2.length = c.length ∧ List.Forall₂ (fun v f => env.f32 v = .ok f) c (colAt env σ nc.2)) (names.zip x.value) y.value

omit [DecidableEq κ] in
theorem vert_upper {env : NumEnv ρ κ} {lower : Text → Text} {names : List Text} {back : F32 → ρ} {nan : ρ}
    (hf : SnFaithful env lower names back nan) {x : Entry κ (List (List ρ))} {d : SnData LevNum} (h : IsDataset env lower names x d) :
    env.upper d.vcoord = vertParam names := by
  rw [h.vcoord]
  unfold vertParam
  split
  · exact hf.vertical.1
  · exact hf.vertical.2

theorem zip_fst_unique {α : Type} {names : List Text} (hn : names.Nodup) {vs : List α} {n : Text} {a b : α} (ha : (n, a) ∈ names.zip vs)
    (hb : (n, b) ∈ names.zip vs) : a = b := by
  induction names generalizing vs with
  | nil => simp at ha
  | cons m r ih =>
    cases vs with
    | nil => simp at ha
    | cons v vs =>
      rw [List.nodup_cons] at hn
      rw [List.zip_cons_cons, List.mem_cons] at ha hb
      rcases ha with ha | ha
      · rcases hb with hb | hb
        · rw [(Prod.mk.inj ha).2, (Prod.mk.inj hb).2]
        · exact absurd ((Prod.mk.inj ha).1 ▸ (List.of_mem_zip hb).1) hn.1
      · rcases hb with hb | hb
        · exact absurd ((Prod.mk.inj hb).1 ▸ (List.of_mem_zip ha).1) hn.1
        · exact ih hn.2 ha hb

/-- The call for a dataset is accepted. -/
theorem copyEntry_of {env : NumEnv ρ κ} {lower : Text → Text} {names : List Text} {deg : Int → κ} {back : F32 → ρ} {nan : ρ}
    (hf : SnFaithful env lower names back nan) (hn : names.Nodup) {x : Entry κ (List (List ρ))} (ha : x.SnAccepted env names)
    {d : SnData LevNum} (h : IsDataset env lower names x d) : ∃ y, CopyEntry env lower names deg back nan x d y := by
  obtain ⟨a, a1, a2⟩ := h.lat
  obtain ⟨b, b1, b2⟩ := h.lon
  obtain ⟨σ, lev, h1, h2, h3, h4, h5, h6⟩ := dataset_columns h
  have hcol : ∀ nc ∈ names.zip x.value, List.Forall₂ (fun i f => ∃ v, nc.2[i]? = some v ∧ env.f32 v = .ok f) σ (colAt env σ nc.2) := by
    intro nc hnc
    by_cases hv : nc.1 = vertParam names
    · have : nc.2 = lev := zip_fst_unique hn (n := vertParam names) (by rw [← hv]; exact hnc) h1
      rw [this]
      exact h4
    · exact h6 nc (List.mem_filter.2 ⟨hnc, by simpa using hv⟩)
  have hnum : ∀ nc ∈ names.zip x.value, ∀ f ∈ colAt env σ nc.2, env.isNaN (back f) = false ∧ env.f32 (back f) = .ok f := by
    intro nc hnc f hfm
    obtain ⟨i, _, v, hv, hr⟩ := forall₂_mem_right (hcol nc hnc) hfm
    exact hf.number v f (ha.clean _ (List.of_mem_zip hnc).2 v (List.mem_of_getElem? hv)) hr
  have hfst : (names.zip x.value).map Prod.fst = names := List.map_fst_zip (by rw [ha.length])
  set data := (snCopyOf deg back nan d).data with hdata
  have edata : data = (d.vcoord, (colAt env σ lev).map back) :: ((names.zip x.value).filter fun nc => nc.1 ≠ vertParam names).map fun nc =>
      (lower nc.1, (colAt env σ nc.2).map fun f => if f = missingF32 then nan else back f) := by
    rw [hdata]
    unfold snCopyOf
    dsimp only
    rw [h3, h5, List.map_map, List.map_map]
    congr 1
    refine List.map_congr_left fun nc _ => ?_
    simp only [Function.comp_apply, List.map_map]
    congr 1
    refine List.map_congr_left fun f _ => ?_
    simp only [Function.comp_apply]
    split <;> rfl
  have hkeys : data.map (fun kv => env.upper kv.1) = vertParam names :: ((names.zip x.value).filter fun nc => nc.1 ≠ vertParam names).map Prod.fst := by
    rw [edata, List.map_cons, List.map_map, vert_upper hf h]
    congr 1
    refine List.map_congr_left fun nc hnc => ?_
    exact hf.names _ (List.of_mem_zip (List.mem_of_mem_filter hnc)).1
  have hnd : (data.map fun kv => env.upper kv.1).Nodup := by
    rw [hkeys, List.nodup_cons]
    constructor
    · intro hm
      obtain ⟨nc, hnc, he⟩ := List.mem_map.1 hm
      simpa [he] using (List.mem_filter.1 hnc).2
    · have : (((names.zip x.value).filter fun nc => nc.1 ≠ vertParam names).map Prod.fst).Sublist names := by
        conv_rhs => rw [← hfst]
        exact List.filter_sublist.map _
      exact this.nodup hn
  have hvn : vertParam names ∈ names := (List.of_mem_zip h1).1
  have hcomp : Complete env.upper names data := by
    have hin : ∀ n, n ∈ data.map (fun kv => env.upper kv.1) ↔ n ∈ names := by
      intro n
      rw [hkeys, List.mem_cons]
      constructor
      · rintro (rfl | hm)
        · exact hvn
        · obtain ⟨nc, hnc, rfl⟩ := List.mem_map.1 hm
          exact (List.of_mem_zip (List.mem_of_mem_filter hnc)).1
      · intro hm
        by_cases hv : n = vertParam names
        · exact .inl hv
        · right
          rw [← hfst] at hm
          obtain ⟨nc, hnc, rfl⟩ := List.mem_map.1 hm
          exact List.mem_map.2 ⟨nc, List.mem_filter.2 ⟨hnc, by simpa using hv⟩, rfl⟩
    constructor
    · intro kv hkv
      exact (hin _).1 (List.mem_map.2 ⟨kv, hkv, rfl⟩)
    · intro n hm
      obtain ⟨kv, hkv, he⟩ := List.mem_map.1 ((hin n).2 hm)
      exact ⟨kv, hkv, he⟩
  let newcol : Text × List ρ → List ρ := fun nc => (colAt env σ nc.2).map fun f =>
    if nc.1 = vertParam names then back f else if f = missingF32 then env.missing else back f
  have hcols : columnsOf env names data = (names.zip x.value).map newcol := by
    unfold columnsOf
    conv_lhs => arg 2; rw [← hfst]
    rw [List.filterMap_map]
    refine Eq.trans (List.filterMap_congr (g := some ∘ newcol) fun nc hnc => ?_) (congrFun List.filterMap_eq_map _)
    simp only [Function.comp_apply]
    by_cases hv : nc.1 = vertParam names
    · have e : nc.2 = lev := zip_fst_unique hn (n := vertParam names) (by rw [← hv]; exact hnc) h1
      have hg := given_of_mem hnd (k := d.vcoord) (v := (colAt env σ lev).map back) (by rw [edata]; exact List.mem_cons_self)
      rw [vert_upper hf h] at hg
      rw [hv, hg, Option.map_some]
      congr 1
      show _ = (colAt env σ nc.2).map _
      rw [e, List.map_map]
      refine List.map_congr_left fun f hfm => ?_
      rw [if_pos hv, Function.comp_apply]
      unfold NumEnv.clean
      rw [(hnum nc hnc f (by rw [e]; exact hfm)).1]
      rfl
    · have hg := given_of_mem hnd (k := lower nc.1) (v := (colAt env σ nc.2).map fun f => if f = missingF32 then nan else back f) (by
        rw [edata]
        exact List.mem_cons_of_mem _ (List.mem_map.2 ⟨nc, List.mem_filter.2 ⟨hnc, by simpa using hv⟩, rfl⟩))
      rw [hf.names _ (List.of_mem_zip hnc).1] at hg
      rw [hg, Option.map_some]
      congr 1
      show _ = (colAt env σ nc.2).map _
      rw [List.map_map]
      refine List.map_congr_left fun f hfm => ?_
      rw [if_neg hv, Function.comp_apply]
      unfold NumEnv.clean
      by_cases hm : f = missingF32
      · rw [if_pos hm, if_pos hm, hf.nan]; rfl
      · rw [if_neg hm, if_neg hm, (hnum nc hnc f hfm).1]; rfl
  have hlens : ∀ nc ∈ names.zip x.value, (newcol nc).length = lev.length := by
    intro nc hnc
    show ((colAt env σ nc.2).map _).length = _
    rw [List.length_map, ← (hcol nc hnc).length_eq, h2.length_eq, List.length_range]
  have hall : ∀ c ∈ x.value, ∀ c' ∈ x.value, c.length = c'.length ∧ c.length < 500 := by
    have hr := ha.rect
    cases hv : x.value with
    | nil => simp
    | cons q r =>
      rw [hv] at hr
      have hh : ∀ c ∈ q :: r, c.length = q.length := by
        intro c hc
        rcases List.mem_cons.1 hc with rfl | hc
        · rfl
        · exact hr.2 c hc
      intro c hc c' hc'
      rw [hh c hc, hh c' hc']
      exact ⟨rfl, hr.1⟩
  have hlev : lev ∈ x.value := (List.of_mem_zip h1).2
  have hrect : Rectangular ((names.zip x.value).map newcol) := by
    cases hz : names.zip x.value with
    | nil => rw [hz] at h1; cases h1
    | cons nc r =>
      rw [List.map_cons]
      have e1 := hlens nc (by rw [hz]; exact List.mem_cons_self)
      refine ⟨?_, ?_⟩
      · rw [e1]; exact (hall lev hlev lev hlev).2
      · intro c hc
        obtain ⟨nc', hnc', rfl⟩ := List.mem_map.1 hc
        rw [e1, hlens nc' (by rw [hz]; exact List.mem_cons_of_mem _ hnc')]
  obtain ⟨t1, i1⟩ := ha.id
  obtain ⟨t2, i2⟩ := ha.state
  obtain ⟨t3, i3⟩ := ha.country
  have e1 : (snCopyOf deg back nan d).slat = some (deg a) := by unfold snCopyOf; rw [a2]; rfl
  have e2 : (snCopyOf deg back nan d).slon = some (deg b) := by unfold snCopyOf; rw [b2]; rfl
  have e3 : (snCopyOf deg back nan d).dateTime = .dt d.dateTime.1 d.dateTime.2 := rfl
  have hent : snEntry env names (snCopyOf deg back nan d) = some (⟨(storedTime x.date x.clock).1, (storedTime x.date x.clock).2, x.id.take 4, x.number,
      deg a, deg b, x.elev, x.state, x.country, 0, (names.zip x.value).map newcol⟩ : Entry κ (List (List ρ))) := by
    unfold snEntry
    rw [e1, e2, e3]
    dsimp only
    rw [← hdata, hcols, if_pos ⟨hcomp, hrect⟩]
    unfold snCopyOf describe
    dsimp only
    rw [h.stationNumber, h.elevation, h.state, h.country, h.stationId, h.dateTime, i1, i2, i3]
    simp only [intProp, textProp, Option.getD_some, hf.upper, List.take_take, show min 4 8 = 4 from rfl, show min 8 4 = 4 from rfl, Nat.min_self]
  refine ⟨_, hent, ?_, σ, lev, h1, h2, h3, h5, ?_⟩
  · unfold Entry.place
    dsimp only
    rw [a1, b1, ha.priority]
    simp only [List.take_take, Nat.min_self, Except.toOption, Option.getD_some, Prod.mk.injEq, Prod.mk.eta, Col.mk.injEq, true_and, and_true]
    rw [List.drop_eq_nil_iff]
    simp
  · dsimp only
    rw [List.forall₂_map_right_iff, List.forall₂_same]
    intro nc hnc
    refine ⟨?_, ?_⟩
    · rw [hlens nc hnc]
      exact (hall _ (List.of_mem_zip hnc).2 lev hlev).1
    · show List.Forall₂ _ ((colAt env σ nc.2).map _) _
      rw [List.forall₂_map_left_iff, List.forall₂_same]
      intro f hfm
      have := (hnum nc hnc f hfm).2
      split
      · exact this
      · split
        · rename_i hm
          rw [hm]
          exact env.f32_missing
        · exact this

theorem zip_forall₂ {α γ : Type} {R : Text × α → γ → Prop} {names : List Text} {xs : List α} {ys : List γ} (h : List.Forall₂ R (names.zip xs) ys)
    (hl : xs.length = names.length) : List.Forall₂ (fun a b => b.1 = a.1 ∧ R a b.2) (names.zip xs) (names.zip ys) := by
  induction names generalizing xs ys with
  | nil => exact .nil
  | cons n r ih =>
    cases xs with
    | nil => simp at hl
    | cons v vs =>
      rw [List.zip_cons_cons] at h ⊢
      cases h with
      | cons h1 h2 => exact .cons ⟨rfl, h1⟩ (ih h2 (by simpa using hl))

theorem filter_forall₂ {α γ : Type} {R : Text × α → Text × γ → Prop} {l : List (Text × α)} {m : List (Text × γ)} (p : Text → Bool)
    (h : List.Forall₂ (fun a b => b.1 = a.1 ∧ R a b) l m) :
    List.Forall₂ R (l.filter fun a => p a.1) (m.filter fun a => p a.1) := by
  induction h with
  | nil => exact .nil
  | @cons a b l m h1 _ ih =>
    obtain ⟨e, hr⟩ := h1
    by_cases hp : p a.1 = true
    · rw [List.filter_cons_of_pos (by exact hp), List.filter_cons_of_pos (by rw [e]; exact hp)]
      exact .cons hr ih
    · rw [List.filter_cons_of_neg (by exact hp), List.filter_cons_of_neg (by rw [e]; exact hp)]
      exact ih

theorem forall₂_comp {α γ δ : Type} {R : α → γ → Prop} {S : γ → δ → Prop} {l : List α} {m : List γ} {n : List δ} (h1 : List.Forall₂ R l m)
    (h2 : List.Forall₂ S m n) : List.Forall₂ (fun a c => ∃ b, R a b ∧ S b c) l n := by
  induction h1 generalizing n with
  | nil => cases h2; exact .nil
  | cons r _ ih => cases h2 with | cons s t => exact .cons ⟨_, r, s⟩ (ih t)

/-- The dataset of a copy. -/
theorem copied_dataset {env : NumEnv ρ κ} {lower : Text → Text} {names : List Text} {deg : Int → κ} {back : F32 → ρ} {nan : ρ}
    (hn : names.Nodup) {x y : Entry κ (List (List ρ))} (ha : x.SnAccepted env names)
    {d e : SnData LevNum} (h : IsDataset env lower names x d) (hk : SnKept env deg d) (hc : CopyEntry env lower names deg back nan x d y)
    (hne : ∀ c ∈ y.value, c ≠ []) (he : IsDataset env lower names y e) : CopiedData d e := by
  obtain ⟨σ, lev, h1, h2, h3, h4, h5⟩ := hc.columns
  obtain ⟨τ, lev', g1, gp, g2, g3, g4, g5⟩ := he.table
  have hz := zip_forall₂ h5 ha.length
  have hp := hc.place
  unfold Entry.place at hp
  simp only [Prod.mk.injEq, Col.mk.injEq] at hp
  obtain ⟨p1, p2, p3, p4, p5, p6, p7, p8, _, _⟩ := hp
  obtain ⟨a, a1, a2⟩ := h.lat
  obtain ⟨b, b1, b2⟩ := h.lon
  obtain ⟨a', a1', a2'⟩ := he.lat
  obtain ⟨b', b1', b2'⟩ := he.lon
  rw [p4, a1] at a1'
  rw [p5, b1] at b1'
  have ea : a = a' := Except.ok.inj ((hk a (.inl a2)).symm.trans a1')
  have eb : b = b' := Except.ok.inj ((hk b (.inr b2)).symm.trans b1')
  have hv : e.vcoord = d.vcoord := he.vcoord.trans h.vcoord.symm
  have hlv : List.Forall₂ (fun v f => env.f32 v = .ok f) lev' (colAt env σ lev) := by
    obtain ⟨nc, hnc, q1, q2, q3⟩ := forall₂_mem_right hz g1
    have : nc.2 = lev := zip_fst_unique hn (n := vertParam names) (by rw [show vertParam names = nc.1 from q1]; exact hnc) h1
    rw [← this]
    exact q3
  have hat : ∀ (i : Nat) w, d.levels[i]? = some w → ∃ v f, w = .flt f ∧ lev'[i]? = some v ∧ env.f32 v = .ok f := by
    intro i w hw
    rw [h3, List.getElem?_map] at hw
    obtain ⟨f, hfw, rfl⟩ := Option.map_eq_some_iff.1 hw
    obtain ⟨v, hv, hr⟩ := forall₂_getElem? hlv hfw
    exact ⟨v, f, rfl, hv, hr⟩
  have hlen : lev'.length = d.levels.length := by rw [h3, List.length_map, hlv.length_eq]
  refine ⟨⟨?_, ?_, ?_, ?_, ?_, ?_, ?_, ?_⟩, hv, he.texts.trans h.texts.symm, ?_, he.ordered, τ, by rw [← hlen]; exact g2, ?_, ?_, ?_⟩
  · rw [h.dateTime, he.dateTime, show y.date = (storedTime x.date x.clock).1 by rw [← p1], show y.clock = (storedTime x.date x.clock).2 by rw [← p1]]
    exact (storedTime_twice x.date x.clock).symm
  · rw [h.stationId, he.stationId, p2]
  · rw [h.stationNumber, he.stationNumber, p3]
  · rw [a2, a2', ea]
  · rw [b2, b2', eb]
  · rw [h.elevation, he.elevation, p6]
  · rw [h.state, he.state, p7]
  · rw [h.country, he.country, p8]
  · rw [← hv]
    split
    · rename_i hpr
      rw [if_pos hpr] at gp
      cases hl : lev' with
      | nil => exact absurd hl (hne lev' (List.of_mem_zip g1).2)
      | cons v r =>
        obtain ⟨f, q1, q2⟩ := gp v (by rw [hl]; rfl)
        rw [q2, h3]
        rw [hl] at hlv
        cases hlc : colAt env σ lev with
        | nil => rw [hlc] at hlv; cases hlv
        | cons f' r' =>
          rw [hlc] at hlv
          cases hlv with
          | cons q3 _ =>
            rw [q1] at q3
            rw [Except.ok.inj q3]
            rfl
    · rename_i hpr
      rwa [if_neg hpr] at gp
  · rw [← hv]
    refine g3.imp fun {i j} hh x hx hy => ?_
    have hval : ∀ k : Nat, (d.levels[k]?).bind (levValue missingF32) = some x →
        ((lev'[k]?).bind fun v => (env.f32 v).toOption).bind f32Value = some x := by
      intro k hk
      obtain ⟨w, hk, hw⟩ := Option.bind_eq_some_iff.1 hk
      obtain ⟨v, f, rfl, q1, q2⟩ := hat k w hk
      rw [q1, Option.bind_some, q2]
      exact hw
    exact hh x (hval i hx) (hval j hy)
  · refine g4.imp fun i w hw => ?_
    obtain ⟨v, f, q1, q2, rfl⟩ := hw
    obtain ⟨f', q3, q4⟩ := forall₂_get hlv q1
    rw [q2] at q4
    rw [h3, List.getElem?_map, q3, ← Except.ok.inj q4]
    rfl
  · rw [h4, List.forall₂_map_left_iff]
    have hfil := filter_forall₂ (fun n => decide (n ≠ vertParam names)) (R := fun (nc nc' : Text × List ρ) => nc'.1 = nc.1 ∧
      List.Forall₂ (fun v f => env.f32 v = .ok f) nc'.2 (colAt env σ nc.2)) (hz.imp fun nc nc' q => ⟨q.1, q.1, q.2.2⟩)
    refine (forall₂_comp hfil g5).imp fun nc kw q => ?_
    obtain ⟨nc', ⟨q1, q2⟩, q3, q4⟩ := q
    refine ⟨by rw [q3, q1], q4.imp fun i w hw => ?_⟩
    obtain ⟨v, f, r1, r2, rfl⟩ := hw
    obtain ⟨f', r3, r4⟩ := forall₂_get q2 r1
    rw [r2] at r4
    rw [List.getElem?_map, r3, ← Except.ok.inj r4]
    rfl

/-! ## Copies of files -/

omit [DecidableEq κ] in
theorem dataTwins_iff {env : NumEnv ρ κ} {lower : Text → Text} {names : List Text} {x y : Entry κ (List (List ρ))} {d e : SnData LevNum}
    (h1 : IsDataset env lower names x d) (h2 : IsDataset env lower names y e) : DataTwins d e ↔ TwinWords env x y := by
  unfold DataTwins TwinWords
  obtain ⟨n1, a1, b1⟩ := h1.lat
  obtain ⟨n2, a2, b2⟩ := h2.lat
  obtain ⟨n3, a3, b3⟩ := h1.lon
  obtain ⟨n4, a4, b4⟩ := h2.lon
  rw [h1.dateTime, h2.dateTime, h1.stationId, h2.stationId, h1.stationNumber, h2.stationNumber, b1, b2, b3, b4, a1, a2, a3, a4, h1.elevation,
    h2.elevation, h1.state, h2.state, h1.country, h2.country]
  simp only [HVal.int.injEq, HVal.coord.injEq, HVal.text.injEq, Except.ok.injEq]

/-- The entries of the copies of all datasets. -/
theorem snCopies_entries {env : NumEnv ρ κ} {lower : Text → Text} {names : List Text} {deg : Int → κ} {back : F32 → ρ} {nan : ρ}
    (hf : SnFaithful env lower names back nan) (hn : names.Nodup) {es : List (Entry κ (List (List ρ)))} {out : List (SnData LevNum)}
    (ha : ∀ x ∈ es, x.SnAccepted env names) (h : List.Forall₂ (IsDataset env lower names) es out) :
    ∃ ys, (out.map (snCopyOf deg back nan)).filterMap (snEntry env names) = ys ∧
      List.Forall₂ (fun xd y => xd.1 ∈ es ∧ IsDataset env lower names xd.1 xd.2 ∧ CopyEntry env lower names deg back nan xd.1 xd.2 y) (es.zip out) ys := by
  induction h with
  | nil => exact ⟨[], rfl, .nil⟩
  | @cons x d es out h1 _ ih =>
    obtain ⟨y, hy⟩ := copyEntry_of (deg := deg) hf hn (ha x List.mem_cons_self) h1
    obtain ⟨ys, e, hys⟩ := ih fun x hx => ha x (List.mem_cons_of_mem _ hx)
    refine ⟨y :: ys, ?_, ?_⟩
    · rw [List.map_cons, List.filterMap_cons_some hy.accepted, e]
    · rw [List.zip_cons_cons]
      exact .cons ⟨List.mem_cons_self, h1, hy⟩ (hys.imp fun a b q => ⟨List.mem_cons_of_mem _ q.1, q.2⟩)

theorem snKept_accepted {env : NumEnv ρ κ} {lower : Text → Text} {names : List Text} {back : F32 → ρ} {nan : ρ}
    (hf : SnFaithful env lower names back nan) {rs : List (AddReq κ (List ρ))} {es : List (Entry κ (List (List ρ)))}
    (h1 : es.Perm (final (rs.filterMap (snEntry env names)))) : ∀ x ∈ es, x.SnAccepted env names := by
  intro x hx
  obtain ⟨r, _, hr⟩ := List.mem_filterMap.1 (final_sub (h1.subset hx))
  exact snAccepted_of hf.missing hf.upper hr

/-- **C114 (partial).** Every dataset of the copy is that of a dataset of the file, with the same site, time and rows, in the order of
levels; for every dataset of the file there is one of the copy for the same site and time.  When the datasets of the file differ in
site or time (`C107_iff`), the datasets of the copy are those of the file, one for each.  Missing: coordinates that are not kept
when written once more (`C106_counterexample`). -/
theorem C114_copy_partial (env : NumEnv ρ κ) (upper lower : Text → Text) (names : List Text) (deg : Int → κ) (back : F32 → ρ) (nan : ρ)
    (hf : SnFaithful env lower names back nan) (rs : List (AddReq κ (List ρ))) (out out' : List (SnData LevNum))
    (h : DatasetOutput env upper lower names rs out) (hk : ∀ d ∈ out, SnKept env deg d)
    (h' : DatasetOutput env upper lower names (out.map (snCopyOf deg back nan)) out') :
    (∀ e ∈ out', ∃ d ∈ out, CopiedData d e) ∧ (∀ d ∈ out, ∃ e ∈ out', DataTwins d e) ∧
      (out.Pairwise (fun a b => ¬ DataTwins a b) → ∃ l, l.Perm out' ∧ List.Forall₂ CopiedData out l) := by
  obtain ⟨es, h1, h2⟩ := h.reports
  obtain ⟨es', h3, h4⟩ := h'.reports
  have ha := snKept_accepted hf h1
  obtain ⟨ys, e1, hys⟩ := snCopies_entries (deg := deg) hf h.clear.nodup ha h2
  have hlev := h'.levels
  rw [e1] at h3 hlev
  have hmap : (es.zip out).map Prod.snd = out := List.map_snd_zip (by rw [h2.length_eq])
  have hmem : ∀ xd ∈ es.zip out, xd.2 ∈ out := fun xd hxd => (List.of_mem_zip hxd).2
  have hcd : ∀ xd ∈ es.zip out, ∀ y ∈ ys, IsDataset env lower names xd.1 xd.2 → CopyEntry env lower names deg back nan xd.1 xd.2 y →
      ∀ e, IsDataset env lower names y e → CopiedData xd.2 e := by
    intro xd hxd y hy hd hc e he
    exact copied_dataset h.clear.nodup (ha _ (List.of_mem_zip hxd).1) hd (hk _ (hmem xd hxd)) hc (hlev y hy) he
  have hall : List.Forall₂ (fun xd y => xd ∈ es.zip out ∧ y ∈ ys ∧ IsDataset env lower names xd.1 xd.2 ∧
      CopyEntry env lower names deg back nan xd.1 xd.2 y) (es.zip out) ys := by
    have aux : ∀ {α γ : Type} {R : α → γ → Prop} {l : List α} {m : List γ}, List.Forall₂ R l m →
        List.Forall₂ (fun a b => a ∈ l ∧ b ∈ m ∧ R a b) l m := by
      intro α γ R l m hh
      induction hh with
      | nil => exact .nil
      | cons r _ ih => exact .cons ⟨List.mem_cons_self, List.mem_cons_self, r⟩ (ih.imp fun a b q => ⟨List.mem_cons_of_mem _ q.1, List.mem_cons_of_mem _ q.2.1, q.2.2⟩)
    exact (aux hys).imp fun a b q => ⟨q.1, q.2.1, q.2.2.2.1, q.2.2.2.2⟩
  refine ⟨?_, ?_, ?_⟩
  · intro e he
    obtain ⟨y, hy, hr⟩ := forall₂_mem_right h4 he
    obtain ⟨xd, hxd, q1, q2, q3, q4⟩ := forall₂_mem_right hall (final_sub (h3.subset hy))
    exact ⟨xd.2, hmem xd hxd, hcd xd q1 y q2 q3 q4 e hr⟩
  · intro d hd
    rw [← hmap] at hd
    obtain ⟨xd, hxd, rfl⟩ := List.mem_map.1 hd
    obtain ⟨y, hy, q1, q2, q3, q4⟩ := forall₂_mem_left hall hxd
    obtain ⟨z, hz, hkz⟩ := final_covers hy
    obtain ⟨e, he, hr⟩ := forall₂_mem_left h4 (h3.symm.subset hz)
    refine ⟨e, he, ?_⟩
    obtain ⟨xd', hxd', r1, r2, r3, r4⟩ := forall₂_mem_right hall (final_sub hz)
    have hcc := (hcd xd' r1 z r2 r3 r4 e hr).twins
    have hw : TwinWords env xd.1 xd'.1 := by
      have hp1 := q4.place
      have hp2 := r4.place
      rw [(sameKey_iff y z).1 hkz, hp2] at hp1
      obtain ⟨a, a1, a2⟩ := q3.lat
      obtain ⟨b, b1, b2⟩ := q3.lon
      obtain ⟨a', a1', a2'⟩ := r3.lat
      obtain ⟨b', b1', b2'⟩ := r3.lon
      unfold Entry.place at hp1
      rw [a1, b1, a1', b1'] at hp1
      simp only [Prod.mk.injEq, Col.mk.injEq, Except.toOption, Option.getD_some] at hp1
      obtain ⟨k1, k2, k3, k4, k5, k6, k7, k8, _⟩ := hp1
      have ea := (hk _ (hmem xd hxd) a (.inl a2)).symm.trans ((congrArg env.centi k4.symm).trans (hk _ (hmem xd' hxd') a' (.inl a2')))
      have eb := (hk _ (hmem xd hxd) b (.inr b2)).symm.trans ((congrArg env.centi k5.symm).trans (hk _ (hmem xd' hxd') b' (.inr b2')))
      exact ⟨k1.symm, k2.symm, k3.symm, by rw [a1, a1']; exact ea, by rw [b1, b1']; exact eb, k6.symm, k7.symm, k8.symm⟩
    obtain ⟨c1, c2, c3, c4, c5, c6, c7, c8⟩ := (dataTwins_iff q3 r3).2 hw
    obtain ⟨d1, d2, d3, d4, d5, d6, d7, d8⟩ := hcc
    exact ⟨c1.trans d1, c2.trans d2, c3.trans d3, c4.trans d4, c5.trans d5, c6.trans d6, c7.trans d7, c8.trans d8⟩
  · intro hp
    have hpw : ys.Pairwise fun a b => ¬ a.SameKey b := by
      have hq : (es.zip out).Pairwise fun a b => ¬ DataTwins a.2 b.2 := by
        rw [← hmap, List.pairwise_map] at hp
        exact hp
      refine (forall₂_pairwise (R := fun xd y => xd ∈ es.zip out ∧ y ∈ ys ∧ IsDataset env lower names xd.1 xd.2 ∧
        CopyEntry env lower names deg back nan xd.1 xd.2 y) (P := fun a b => ¬ DataTwins a.2 b.2) (Q := fun a b => ¬ a.SameKey b) ?_ hall).1 hq
      rintro xd xd' y z ⟨q1, q2, q3, q4⟩ ⟨r1, r2, r3, r4⟩
      rw [not_iff_not, dataTwins_iff q3 r3, sameKey_iff, q4.place, r4.place]
      obtain ⟨a, a1, a2⟩ := q3.lat
      obtain ⟨b, b1, b2⟩ := q3.lon
      obtain ⟨a', a1', a2'⟩ := r3.lat
      obtain ⟨b', b1', b2'⟩ := r3.lon
      have hpr : xd.1.priority = xd'.1.priority := by
        rw [(ha _ (List.of_mem_zip q1).1).priority, (ha _ (List.of_mem_zip r1).1).priority]
      unfold TwinWords Entry.place
      rw [a1, b1, a1', b1']
      simp only [Prod.mk.injEq, Col.mk.injEq, Except.toOption, Option.getD_some, Except.ok.injEq, hpr, and_true]
      have hinj : ∀ m n : Int, env.centi (deg m) = .ok m → env.centi (deg n) = .ok n → (m = n ↔ deg m = deg n) := by
        intro m n hm hn
        constructor
        · intro e; rw [e]
        · intro e
          rw [e, hn] at hm
          exact (Except.ok.inj hm).symm
      rw [hinj a a' (hk _ (hmem xd q1) a (.inl a2)) (hk _ (hmem xd' r1) a' (.inl a2')),
        hinj b b' (hk _ (hmem xd q1) b (.inr b2)) (hk _ (hmem xd' r1) b' (.inr b2'))]
    rw [final_of_pairwise hpw] at h3
    have h5 : List.Forall₂ (fun xd y => xd ∈ es.zip out ∧ y ∈ ys ∧ IsDataset env lower names xd.1 xd.2 ∧
        CopyEntry env lower names deg back nan xd.1 xd.2 y) (es.zip out) ys := hall
    obtain ⟨m, hm1, hm2⟩ := List.perm_comp_forall₂ h3.symm h4
    refine ⟨m, hm2, ?_⟩
    have := forall₂_comp h5 hm1
    rw [← hmap, List.forall₂_map_left_iff]
    refine this.imp fun xd e q => ?_
    obtain ⟨y, ⟨q1, q2, q3, q4⟩, q5⟩ := q
    exact hcd xd q1 y q2 q3 q4 e q5

/-! ## The order of rows -/

/-- A table with its levels in order: one value of each variable for each level. -/
structure Spec.InShape (d : SnData LevNum) : Prop where
  ordered : InOrder (levValue missingF32) d.vcoord d.levels
  lengths : ∀ kv ∈ d.vars, kv.2.length = d.levels.length

/-- Levels are numbers, and pressures differ. -/
def Spec.Settled (d : SnData LevNum) : Prop :=
  (∀ v ∈ d.levels, ∃ x, levValue missingF32 v = some x) ∧
    (d.vcoord = txt "pres" → d.levels.Pairwise fun a b => levValue missingF32 a ≠ levValue missingF32 b)

/-- The station pressure is that of the first level. -/
def Spec.topPressure (d : SnData LevNum) : SnData LevNum :=
  { d with pressure := if d.vcoord = txt "pres" then d.levels.head? else none }

omit [DecidableEq κ] in
theorem dataset_shape {env : NumEnv ρ κ} {lower : Text → Text} {names : List Text} {x : Entry κ (List (List ρ))} {d : SnData LevNum}
    (h : IsDataset env lower names x d) : InShape d := by
  refine ⟨h.ordered, ?_⟩
  obtain ⟨σ, lev, _, _, h3, _, h4, h5⟩ := h.table
  intro kv hkv
  obtain ⟨nc, _, _, hr⟩ := forall₂_mem_right h5 hkv
  rw [← hr.length_eq, ← h4.length_eq]

/-- Two rows that have come into another order have levels of one value. -/
theorem rows_order {d e : SnData LevNum} (hd : InShape d) (hv : ∀ v ∈ d.levels, ∃ x, levValue missingF32 v = some x) (h : CopiedData d e) {σ : List Nat}
    (h1 : σ.Perm (List.range d.levels.length)) (h3 : List.Forall₂ (fun i v => d.levels[i]? = some v) σ e.levels) {p q : Nat} (hp : p < σ.length)
    (hq : q < σ.length) (hpq : p < q) : σ[p] < σ[q] ∨ (σ[q] < σ[p] ∧ ∃ x, (d.levels[σ[p]]?).bind (levValue missingF32) = some x ∧
      (d.levels[σ[q]]?).bind (levValue missingF32) = some x) := by
  have hnd : σ.Nodup := h1.nodup_iff.2 List.nodup_range
  have hne : σ[p] ≠ σ[q] := fun he => by
    have := (List.Nodup.getElem_inj_iff hnd).1 he
    omega
  rcases lt_or_gt_of_ne hne with hlt | hlt
  · exact .inl hlt
  · refine .inr ⟨hlt, ?_⟩
    have hp' : p < e.levels.length := by rw [← h3.length_eq]; exact hp
    have hq' : q < e.levels.length := by rw [← h3.length_eq]; exact hq
    have ep := h3.get hp hp'
    have eq := h3.get hq hq'
    simp only [List.get_eq_getElem] at ep eq
    obtain ⟨x, hx⟩ := hv _ (List.mem_of_getElem? ep)
    obtain ⟨y, hy⟩ := hv _ (List.mem_of_getElem? eq)
    have he := (List.pairwise_iff_getElem.1 h.ordered) p q hp' hq' hpq x y hx hy
    obtain ⟨l1, m1⟩ := List.getElem?_eq_some_iff.1 ep
    obtain ⟨l2, m2⟩ := List.getElem?_eq_some_iff.1 eq
    have ho := (List.pairwise_iff_getElem.1 hd.ordered) σ[q] σ[p] l2 l1 hlt y x (by rw [m2]; exact hy) (by rw [m1]; exact hx)
    rw [h.vcoord] at he
    have hxy : x = y := by
      by_cases hc : d.vcoord = txt "pres"
      · rw [if_pos hc] at he ho
        exact le_antisymm ho he
      · rw [if_neg hc] at he ho
        exact le_antisymm he ho
    refine ⟨x, by rw [ep]; exact hx, by rw [eq, hxy]; exact hy⟩

theorem range_of_sorted {σ : List Nat} {n : Nat} (h : σ.Perm (List.range n)) (hs : σ.Pairwise (· < ·)) : σ = List.range n :=
  h.eq_of_pairwise (le := (· < ·)) (fun a b _ _ h1 h2 => absurd h1 (by omega)) hs List.pairwise_lt_range

theorem rows_range {α : Type} {l m : List α} (h : List.Forall₂ (fun i w => l[i]? = some w) (List.range l.length) m) : m = l := by
  apply List.ext_getElem
  · rw [← h.length_eq, List.length_range]
  · intro i h1 h2
    have := h.get (i := i) (by rw [List.length_range]; exact h2) h1
    simp only [List.get_eq_getElem, List.getElem_range] at this
    rw [List.getElem?_eq_getElem h2] at this
    exact (Option.some.inj this).symm

theorem rows_reverse {α : Type} {l m : List α} (h : List.Forall₂ (fun i w => l[i]? = some w) (List.range l.length).reverse m) : m = l.reverse := by
  have := List.rel_reverse h
  rw [List.reverse_reverse] at this
  rw [← rows_range this, List.reverse_reverse]

/-- **C114.** The copy of a dataset whose levels are heights, or pressures that differ, is that dataset; only the station pressure is taken
from its first level. -/
theorem C114_unchanged {d e : SnData LevNum} (hd : InShape d) (hs : Settled d) (h : CopiedData d e) : e = topPressure d := by
  obtain ⟨σ, h1, h2, h3, h4⟩ := h.rows
  have hsort : σ.Pairwise (· < ·) := by
    rw [List.pairwise_iff_getElem]
    intro p q hp hq hpq
    rcases rows_order hd hs.1 h h1 h3 hp hq hpq with hlt | ⟨hlt, x, hx, hy⟩
    · exact hlt
    · exfalso
      have ht := (List.pairwise_iff_getElem.1 h2) p q hp hq hpq x hx hy
      by_cases hc : d.vcoord = txt "pres"
      · obtain ⟨a, a1, a2⟩ := Option.bind_eq_some_iff.1 hx
        obtain ⟨b, b1, b2⟩ := Option.bind_eq_some_iff.1 hy
        obtain ⟨l1, m1⟩ := List.getElem?_eq_some_iff.1 a1
        obtain ⟨l2, m2⟩ := List.getElem?_eq_some_iff.1 b1
        refine (List.pairwise_iff_getElem.1 (hs.2 hc)) σ[q] σ[p] l2 l1 hlt ?_
        rw [m1, m2, a2, b2]
      · rw [if_neg hc] at ht
        omega
  have hr := range_of_sorted h1 hsort
  rw [hr] at h3 h4
  have hl := rows_range h3
  have hvars : e.vars = d.vars := by
    have hlen := hd.lengths
    generalize e.vars = ws at h4
    generalize d.vars = vs at h4 hlen
    clear hs hd h hsort
    induction h4 with
    | nil => rfl
    | @cons kv kw l m k1 _ ih =>
      rw [← hlen kv List.mem_cons_self] at k1
      rw [ih fun kv hkv => hlen kv (List.mem_cons_of_mem _ hkv)]
      exact congrArg (· :: l) (Prod.ext k1.1 (rows_range k1.2))
  obtain ⟨t1, t2, t3, t4, t5, t6, t7, t8⟩ := h.twins
  have hpr := h.pressure
  have hvc := h.vcoord
  have htx := h.texts
  cases d
  cases e
  simp only [topPressure] at *
  subst t1 t2 t3 t4 t5 t6 t7 t8 hl hvars hpr hvc htx
  rfl

/-- **C114 (deviation).** Where the pressures are all the same the copy has the rows in the reverse order. -/
theorem C114_equal_levels {d e : SnData LevNum} (hd : InShape d) (hv : d.vcoord = txt "pres") (x : ℚ) (hs : ∀ v ∈ d.levels, levValue missingF32 v = some x)
    (h : CopiedData d e) : e.levels = d.levels.reverse ∧ e.vars = d.vars.map fun kv => (kv.1, kv.2.reverse) := by
  obtain ⟨σ, h1, h2, h3, h4⟩ := h.rows
  have hval : ∀ i ∈ σ, (d.levels[i]?).bind (levValue missingF32) = some x := by
    intro i hi
    obtain ⟨v, _, hv⟩ := forall₂_mem_left h3 hi
    rw [hv]
    exact hs v (List.mem_of_getElem? hv)
  have hr : σ.reverse = List.range d.levels.length := by
    refine range_of_sorted ((List.reverse_perm σ).trans h1) ?_
    rw [List.pairwise_reverse]
    refine h2.imp_of_mem fun {i j} hi hj ht => ?_
    have := ht x (hval i hi) (hval j hj)
    rwa [if_pos hv] at this
  have hr' : σ = (List.range d.levels.length).reverse := by rw [← hr, List.reverse_reverse]
  rw [hr'] at h3 h4
  refine ⟨rows_reverse h3, ?_⟩
  have hlen := hd.lengths
  generalize e.vars = ws at h4
  generalize d.vars = vs at h4 hlen
  clear hs hd h h3 hval
  induction h4 with
  | nil => rfl
  | @cons kv kw l m k1 _ ih =>
    rw [← hlen kv List.mem_cons_self] at k1
    rw [ih fun kv hkv => hlen kv (List.mem_cons_of_mem _ hkv), List.map_cons]
    exact congrArg (· :: _) (Prod.ext k1.1 (rows_reverse k1.2))

/-- **C114.** A file whose datasets differ in site or time and have heights, or pressures that differ: the datasets of the copy are those of
the file. -/
theorem C114_file (env : NumEnv ρ κ) (upper lower : Text → Text) (names : List Text) (deg : Int → κ) (back : F32 → ρ) (nan : ρ)
    (hf : SnFaithful env lower names back nan) (rs : List (AddReq κ (List ρ))) (out out' : List (SnData LevNum))
    (h : DatasetOutput env upper lower names rs out) (hk : ∀ d ∈ out, SnKept env deg d) (hs : ∀ d ∈ out, Settled d)
    (hp : out.Pairwise fun a b => ¬ DataTwins a b)
    (h' : DatasetOutput env upper lower names (out.map (snCopyOf deg back nan)) out') : out'.Perm (out.map topPressure) := by
  obtain ⟨l, hl, hc⟩ := (C114_copy_partial env upper lower names deg back nan hf rs out out' h hk h').2.2 hp
  obtain ⟨es, _, h2⟩ := h.reports
  have hshape : ∀ d ∈ out, InShape d := by
    intro d hd
    obtain ⟨x, _, hx⟩ := forall₂_mem_right h2 hd
    exact dataset_shape hx
  refine hl.symm.trans (List.Perm.of_eq ?_)
  clear hl h h' h2 hp
  induction hc with
  | nil => rfl
  | cons r _ ih =>
    rw [List.map_cons, C114_unchanged (hshape _ List.mem_cons_self) (hs _ List.mem_cons_self) r,
      ih (fun d hd => hk d (List.mem_cons_of_mem _ hd)) (fun d hd => hs d (List.mem_cons_of_mem _ hd)) fun d hd => hshape d (List.mem_cons_of_mem _ hd)]

/-- **C114.** Copying the copy of such a file changes nothing any more. -/
theorem C114_again (env : NumEnv ρ κ) (upper lower : Text → Text) (names : List Text) (deg : Int → κ) (back : F32 → ρ) (nan : ρ)
    (hf : SnFaithful env lower names back nan) (rs : List (AddReq κ (List ρ))) (out out' out'' : List (SnData LevNum))
    (h : DatasetOutput env upper lower names rs out) (hk : ∀ d ∈ out, SnKept env deg d) (hs : ∀ d ∈ out, Settled d)
    (hp : out.Pairwise fun a b => ¬ DataTwins a b)
    (h' : DatasetOutput env upper lower names (out.map (snCopyOf deg back nan)) out')
    (h'' : DatasetOutput env upper lower names (out'.map (snCopyOf deg back nan)) out'') : out''.Perm out' := by
  have h1 := C114_file env upper lower names deg back nan hf rs out out' h hk hs hp h'
  have hsub : ∀ e ∈ out', ∃ d ∈ out, e = topPressure d := by
    intro e he
    obtain ⟨d, hd, rfl⟩ := List.mem_map.1 (h1.subset he)
    exact ⟨d, hd, rfl⟩
  have h2 := C114_file env upper lower names deg back nan hf _ out' out'' h'
    (fun e he => by obtain ⟨d, hd, rfl⟩ := hsub e he; exact hk d hd)
    (fun e he => by obtain ⟨d, hd, rfl⟩ := hsub e he; exact hs d hd)
    (by
      refine (h1.pairwise_iff (R := fun a b => ¬ DataTwins a b) ?_).2 ?_
      · rintro a b hn ⟨e1, e2, e3, e4, e5, e6, e7, e8⟩
        exact hn ⟨e1.symm, e2.symm, e3.symm, e4.symm, e5.symm, e6.symm, e7.symm, e8.symm⟩
      · rw [List.pairwise_map]
        exact hp) h''
  refine h2.trans (List.Perm.of_eq ?_)
  conv_rhs => rw [← List.map_id out']
  refine List.map_congr_left fun e he => ?_
  obtain ⟨d, _, rfl⟩ := hsub e he
  rfl

/-! ## Copies can be made -/

/-- The header of a station in a copy. -/
def colCopied (env : NumEnv ρ κ) (deg : Int → κ) (c : Col κ) : Col κ :=
  { c with slat := deg ((env.centi c.slat).toOption.getD 0), slon := deg ((env.centi c.slon).toOption.getD 0), std2 := [] }

/-- **C114.** A copy can be made: every call is accepted and the file can be saved and read, when the file was saved with words that fit
and the coordinates are numbers. -/
theorem C114_succeeds (env : NumEnv ρ κ) (upper lower : Text → Text) (names : List Text) (deg : Int → κ) (back : F32 → ρ) (nan : ρ)
    (hf : SnFaithful env lower names back nan) (ps : List Text) (b0 : Builder κ (List (List ρ))) (hnew : newBuilder env ps = .ok b0)
    (hb : b0.names = names) (rs : List (AddReq κ (List ρ))) (out : List (SnData LevNum)) (h : DatasetOutput env upper lower names rs out)
    (hw : ∀ x ∈ rs.filterMap (snEntry env names), x.Writable env)
    (hsize : (run (addSounding env) b0 rs).rows * (run (addSounding env) b0 rs).columns * (499 * names.length + 3) ≤ 2 ^ 30)
    (hdeg : ∀ d ∈ out, ∀ n, d.lat = .coord n ∨ d.lon = .coord n → ∃ m, env.centi (deg n) = .ok m ∧ inI32 m) :
    ∃ out', DatasetOutput env upper lower names (out.map (snCopyOf deg back nan)) out' := by
  subst hb
  obtain ⟨es, h1, h2⟩ := h.reports
  have ha := snKept_accepted hf h1
  obtain ⟨ys, hent, hys⟩ := snCopies_entries (deg := deg) hf h.clear.nodup ha h2
  have hsub : ∀ x ∈ es, x ∈ rs.filterMap (snEntry env b0.names) := fun x hx => final_sub (h1.subset hx)
  have hfst : (es.zip out).map Prod.fst = es := List.map_fst_zip (by rw [h2.length_eq])
  have hzm : ∀ xd ∈ es.zip out, xd.2 ∈ out := fun xd hxd => (List.of_mem_zip hxd).2
  have hrow : ys.map (fun y => y.place.1) = (es.map fun x => x.place.1).map fun r => storedTime r.1 r.2 := by
    conv_rhs => rw [← hfst]
    rw [List.map_map, List.map_map]
    clear hent hfst hzm
    generalize es.zip out = zs at hys ⊢
    induction hys with
    | nil => rfl
    | cons r _ ih =>
      rw [List.map_cons, List.map_cons, ih, r.2.2.place]
      rfl
  have hcol : ys.map (fun y => y.place.2) = (es.map fun x => x.place.2).map (colCopied env deg) := by
    conv_rhs => rw [← hfst]
    rw [List.map_map, List.map_map]
    clear hent hfst hrow hzm
    generalize es.zip out = zs at hys ⊢
    induction hys with
    | nil => rfl
    | cons r _ ih =>
      rw [List.map_cons, List.map_cons, ih, r.2.2.place]
      rfl
  have hist := run_sounding (History.new hnew) rs
  have hist' := run_sounding (History.new hnew) (out.map (snCopyOf deg back nan))
  rw [List.nil_append] at hist hist'
  have hrows : (run (addSounding env) b0 (out.map (snCopyOf deg back nan))).rows ≤ (run (addSounding env) b0 rs).rows := by
    rw [hist.rows, hist'.rows, hist.rowSet, hist'.rowSet, ofList_length, ofList_length, hent, List.map_map (l := ys), List.map_map (l := rs.filterMap _)]
    show (ys.map fun y => y.place.1).dedup.length ≤ ((rs.filterMap (snEntry env b0.names)).map fun x => x.place.1).dedup.length
    rw [hrow]
    refine le_trans (dedup_map_length _ _) (dedup_length_mono fun r hr => ?_)
    obtain ⟨x, hx, rfl⟩ := List.mem_map.1 hr
    exact List.mem_map.2 ⟨x, hsub x hx, rfl⟩
  have hcols : (run (addSounding env) b0 (out.map (snCopyOf deg back nan))).columns ≤ (run (addSounding env) b0 rs).columns := by
    rw [hist.columns, hist'.columns, hist.colSet, hist'.colSet, ofList_length, ofList_length, hent, List.map_map (l := ys), List.map_map (l := rs.filterMap _)]
    show (ys.map fun y => y.place.2).dedup.length ≤ ((rs.filterMap (snEntry env b0.names)).map fun x => x.place.2).dedup.length
    rw [hcol]
    refine le_trans (dedup_map_length _ _) (dedup_length_mono fun r hr => ?_)
    obtain ⟨x, hx, rfl⟩ := List.mem_map.1 hr
    exact List.mem_map.2 ⟨x, hsub x hx, rfl⟩
  have hcap : headers ((out.map (snCopyOf deg back nan)).filterMap (snEntry env b0.names)) ≤ 32000 := by
    have e1 := hist.headers_eq
    have e2 := hist'.headers_eq
    have e3 := h.small
    omega
  have hleg : ∀ x ∈ (out.map (snCopyOf deg back nan)).filterMap (snEntry env b0.names), x.Legible := by
    rw [hent]
    intro y hy
    obtain ⟨xd, hxd, q1, q2, q3⟩ := forall₂_mem_right hys hy
    obtain ⟨l1, l2, l3, l4, l5, l6⟩ := h.legible xd.1 (hsub _ q1)
    have hp := q3.place
    unfold Entry.place at hp
    simp only [Prod.mk.injEq, Col.mk.injEq] at hp
    obtain ⟨p1, p2, p3, p4, p5, p6, p7, p8, p9, _⟩ := hp
    have hv := storedTime_valid l1 l2
    rw [← p1] at hv
    exact ⟨hv.1, hv.2, by rw [p2]; exact l3, by rw [p9]; decide +kernel, by rw [p7]; exact l5, by rw [p8]; exact l6⟩
  have hne : (out.map (snCopyOf deg back nan)).filterMap (snEntry env b0.names) ≠ [] := by
    rw [hent]
    intro he
    obtain ⟨x, hx⟩ := List.exists_mem_of_ne_nil _ h.some
    obtain ⟨y, hy, _⟩ := final_covers hx
    have hm := h1.symm.subset hy
    rw [← hfst] at hm
    obtain ⟨xd, hxd, _⟩ := List.mem_map.1 hm
    obtain ⟨z, hz, _⟩ := forall₂_mem_left hys hxd
    rw [he] at hz
    cases hz
  have hpos : ∀ x ∈ (out.map (snCopyOf deg back nan)).filterMap (snEntry env b0.names), ∀ c ∈ x.value, c ≠ [] := by
    rw [hent]
    intro y hy c hc
    obtain ⟨xd, hxd, q1, q2, q3⟩ := forall₂_mem_right hys hy
    obtain ⟨σ, lev, _, _, _, _, q4⟩ := q3.columns
    obtain ⟨nc, hnc, q5, _⟩ := forall₂_mem_right q4 hc
    have := h.levels xd.1 (hsub _ q1) nc.2 (List.of_mem_zip hnc).2
    rintro rfl
    exact this (List.length_eq_zero_iff.1 q5)
  have hw' : ∀ x ∈ (out.map (snCopyOf deg back nan)).filterMap (snEntry env b0.names), x.Writable env := by
    rw [hent]
    intro y hy
    obtain ⟨xd, hxd, q1, q2, q3⟩ := forall₂_mem_right hys hy
    obtain ⟨w1, w2, w3, _, _⟩ := hw xd.1 (hsub _ q1)
    obtain ⟨a, a1, a2⟩ := q2.lat
    obtain ⟨b, b1, b2⟩ := q2.lon
    have hp := q3.place
    unfold Entry.place at hp
    simp only [Prod.mk.injEq, Col.mk.injEq] at hp
    obtain ⟨p1, p2, p3, p4, p5, p6, p7, p8, p9, p10⟩ := hp
    refine ⟨by rw [p3]; exact w1, by rw [p6]; exact w2, by rw [p10]; exact w3, ?_, ?_⟩
    · rw [p4, a1]
      exact hdeg _ (hzm xd hxd) a (.inl a2)
    · rw [p5, b1]
      exact hdeg _ (hzm xd hxd) b (.inr b2)
  have hfl : ∀ x ∈ (out.map (snCopyOf deg back nan)).filterMap (snEntry env b0.names), ∀ c ∈ x.value, ∀ v ∈ c, ∃ f, env.f32 v = .ok f := by
    rw [hent]
    intro y hy c hc v hv
    obtain ⟨xd, hxd, q1, q2, q3⟩ := forall₂_mem_right hys hy
    obtain ⟨σ, lev, _, _, _, _, q4⟩ := q3.columns
    obtain ⟨nc, hnc, _, q5⟩ := forall₂_mem_right q4 hc
    obtain ⟨f, _, hf'⟩ := forall₂_mem_left q5 hv
    exact ⟨f, hf'⟩
  obtain ⟨bytes, hs⟩ := C15_saves env ps b0 _ .little hnew hcap (fun x hx => ⟨(hleg x hx).date, (hleg x hx).clock⟩) hw' hfl
    (le_trans (Nat.mul_le_mul_right _ (Nat.mul_le_mul hrows hcols)) hsize)
  obtain ⟨g, out', es', k1, k2, k3, k4⟩ := C75_written env upper lower ps b0 _ .little .little bytes hnew hcap h.clear hleg hpos hne hs
  exact ⟨out', ⟨h.clear, hleg, hpos, hcap, hne, ⟨_, _, _, _, bytes, g, hnew, rfl, hs, k1, k2⟩⟩⟩

/-! ## Instances -/

/-- A host with numbers that are not numbers and coordinates in whole hundredths. -/
def nanEnv : NumEnv (Option F32) Int where
  isNaN x := x.isNone
  missing := some missingF32
  f32 x := .ok (x.getD 0x7FC00000)
  f32_missing := rfl
  centi x := .ok x
  leK x y := decide (x ≤ y)
  upper t := t.map Char.toUpper
  ident _ := true
  parse _ := .error .valueError
  parse_valid := by intro _ _ h; cases h
  parseInt _ := .error .valueError

theorem char_upper_twice (c : Char) : c.toUpper.toUpper = c.toUpper := by
  unfold Char.toUpper
  split
  · rename_i h
    rw [dif_neg]
    rintro ⟨h1, _⟩
    obtain ⟨h2, h3⟩ := h
    simp only [ge_iff_le, UInt32.le_iff_toNat_le, UInt32.toNat_add] at h1 h2 h3
    have e1 : 'a'.val.toNat = 97 := rfl
    have e2 : 'z'.val.toNat = 122 := rfl
    have e3 : ('A'.val - 'a'.val).toNat = 2 ^ 32 - 32 := by decide
    rw [e1, e3] at h1
    rw [e1] at h2
    rw [e2] at h3
    omega
  · rfl

theorem nanEnv_faithful : SnFaithful nanEnv (fun t => t.map Char.toLower) snTwo some none where
  number v f h1 h2 := ⟨rfl, rfl⟩
  missing := rfl
  nan := rfl
  upper t n := by
    show ((t.map Char.toUpper).take n).map Char.toUpper = (t.map Char.toUpper).take n
    rw [← List.map_take, List.map_map]
    refine List.map_congr_left fun c _ => ?_
    exact char_upper_twice c
  names := by decide +kernel
  vertical := by constructor <;> decide +kernel

/-- One sounding of two levels. -/
def twoLevels (p q t u : F32) : AddReq Int (List (Option F32)) :=
  ⟨[(txt "PRES", [some p, some q]), (txt "TMPC", [some t, some u])], some 4000, some (-10500), .dt ⟨2020, 2, 29⟩ ⟨12, 0, 0, 0⟩,
    some ⟨some (txt "DNR"), some 72469, none, none, none, none⟩⟩

/-- Its entry. -/
def twoEntry (p q t u : F32) : Entry Int (List (List (Option F32))) :=
  ⟨⟨2020, 2, 29⟩, ⟨12, 0, 0, 0⟩, txt "DNR", 72469, 4000, -10500, -9999, [], [], 0, [[some p, some q], [some t, some u]]⟩

theorem twoEntries (p q t u : F32) : [twoLevels p q t u].filterMap (snEntry nanEnv snTwo) = [twoEntry p q t u] := by
  have e1 : (txt "DNR").map Char.toUpper = txt "DNR" := by decide +kernel
  have e2 : (txt "PRES").map Char.toUpper = txt "PRES" := by decide +kernel
  have e3 : (txt "TMPC").map Char.toUpper = txt "TMPC" := by decide +kernel
  have hg1 : given nanEnv.upper (twoLevels p q t u).data (txt "PRES") = some [some p, some q] := by
    rw [← e2]
    exact given_of_mem (upper := nanEnv.upper) (by
      show [(txt "PRES").map Char.toUpper, (txt "TMPC").map Char.toUpper].Nodup
      decide +kernel) List.mem_cons_self
  have hg2 : given nanEnv.upper (twoLevels p q t u).data (txt "TMPC") = some [some t, some u] := by
    rw [← e3]
    exact given_of_mem (upper := nanEnv.upper) (by
      show [(txt "PRES").map Char.toUpper, (txt "TMPC").map Char.toUpper].Nodup
      decide +kernel) (List.mem_cons_of_mem _ List.mem_cons_self)
  have hc : columnsOf nanEnv snTwo (twoLevels p q t u).data = [[some p, some q], [some t, some u]] := by
    unfold columnsOf snTwo
    rw [List.filterMap_cons_some (b := [some p, some q]) (by rw [hg1]; rfl), List.filterMap_cons_some (b := [some t, some u]) (by rw [hg2]; rfl),
      List.filterMap_nil]
  have hcomp : Complete nanEnv.upper snTwo (twoLevels p q t u).data := by
    constructor
    · intro kv hkv
      rcases List.mem_cons.1 hkv with rfl | hkv
      · show (txt "PRES").map Char.toUpper ∈ snTwo
        rw [e2]; exact List.mem_cons_self
      · have := List.mem_singleton.1 hkv
        subst this
        show (txt "TMPC").map Char.toUpper ∈ snTwo
        rw [e3]; exact List.mem_cons_of_mem _ List.mem_cons_self
    · intro n hn
      rcases List.mem_cons.1 hn with rfl | hn
      · exact ⟨_, List.mem_cons_self, e2⟩
      · have := List.mem_singleton.1 hn
        subst this
        exact ⟨_, List.mem_cons_of_mem _ List.mem_cons_self, e3⟩
  have : snEntry nanEnv snTwo (twoLevels p q t u) = some (twoEntry p q t u) := by
    unfold snEntry
    show (if Complete nanEnv.upper snTwo (twoLevels p q t u).data ∧ Rectangular (columnsOf nanEnv snTwo (twoLevels p q t u).data) then _ else none) = _
    rw [if_pos ⟨hcomp, by rw [hc]; exact ⟨by show 2 < 500; omega, by simp⟩⟩]
    show some (describe nanEnv.upper _ _ _ _ _ 0 (columnsOf nanEnv snTwo (twoLevels p q t u).data)) = _
    rw [hc]
    unfold describe twoLevels twoEntry
    simp only [Option.getD_some, Option.getD_none]
    congr 2
  rw [List.filterMap_cons_some this, List.filterMap_nil]

/-- The file with this sounding and its copy, for any numbers. -/
theorem two_copied (p q t u : F32) : ∃ d e, DatasetOutput nanEnv id (fun t => t.map Char.toLower) snTwo [twoLevels p q t u] [d] ∧
    IsDataset nanEnv (fun t => t.map Char.toLower) snTwo (twoEntry p q t u) d ∧ SnKept nanEnv id d ∧
    DatasetOutput nanEnv id (fun t => t.map Char.toLower) snTwo [snCopyOf id some none d] [e] ∧ CopiedData d e := by
  have hnew : newBuilder nanEnv snTwo = .ok (⟨snTwo, ⟨[]⟩, ⟨[]⟩, [], 0, 0, [], []⟩ : Builder Int (List (List (Option F32)))) := by
    have e : addParameters nanEnv snTwo = .ok snTwo := by decide +kernel
    unfold newBuilder
    rw [e]
    rfl
  have hn : SoundingNames (fun t => t.map Char.toLower) snTwo := by
    constructor <;> decide +kernel
  have hleg : ∀ x ∈ [twoLevels p q t u].filterMap (snEntry nanEnv snTwo), x.Legible := by
    rw [twoEntries]
    intro x hx
    have := List.mem_singleton.1 hx
    subst this
    have h1 : Name4 ((txt "DNR").take 4) := by decide +kernel
    have h2 : Name4 ((txt "DNR").drop 4) := by decide +kernel
    have h3 : Name4 [] := by decide +kernel
    have h4 : (⟨2020, 2, 29⟩ : Date).Valid := by decide
    have h5 : (⟨12, 0, 0, 0⟩ : Clock).Valid := by decide
    exact ⟨h4, h5, h1, h2, h3, h3⟩
  have hw : ∀ x ∈ [twoLevels p q t u].filterMap (snEntry nanEnv snTwo), x.Writable nanEnv := by
    rw [twoEntries]
    intro x hx
    have := List.mem_singleton.1 hx
    subst this
    have h1 : inI32 72469 := by decide
    have h2 : inI32 (-9999) := by decide
    have h3 : inI32 0 := by decide
    have h4 : inI32 4000 := by decide
    have h5 : inI32 (-10500) := by decide
    exact ⟨h1, h2, h3, ⟨_, rfl, h4⟩, _, rfl, h5⟩
  have hpos : ∀ x ∈ [twoLevels p q t u].filterMap (snEntry nanEnv snTwo), ∀ c ∈ x.value, c ≠ [] := by
    rw [twoEntries]
    intro x hx c hc
    have := List.mem_singleton.1 hx
    subst this
    rcases List.mem_cons.1 hc with rfl | hc
    · simp
    · rw [List.mem_singleton.1 hc]; simp
  have hcap : headers ([twoLevels p q t u].filterMap (snEntry nanEnv snTwo)) ≤ 32000 := by
    rw [twoEntries]
    show ([_].dedup.length + [_].dedup.length) ≤ 32000
    simp
  have hne : [twoLevels p q t u].filterMap (snEntry nanEnv snTwo) ≠ [] := by rw [twoEntries]; simp
  have hsz : (run (addSounding nanEnv) ⟨snTwo, ⟨[]⟩, ⟨[]⟩, [], 0, 0, [], []⟩ [twoLevels p q t u]).rows *
      (run (addSounding nanEnv) ⟨snTwo, ⟨[]⟩, ⟨[]⟩, [], 0, 0, [], []⟩ [twoLevels p q t u]).columns * (499 * snTwo.length + 3) ≤ 2 ^ 30 := by
    have hist := run_sounding (History.new hnew) [twoLevels p q t u]
    rw [List.nil_append, twoEntries] at hist
    rw [hist.rows, hist.columns, hist.rowSet, hist.colSet, ofList_length, ofList_length]
    simp [snTwo]
  obtain ⟨bytes, hs⟩ := C15_saves nanEnv snTwo _ [twoLevels p q t u] .big hnew hcap (fun x hx => ⟨(hleg x hx).date, (hleg x hx).clock⟩)
    hw (fun _ _ _ _ v _ => ⟨_, rfl⟩) hsz
  obtain ⟨g, out, es, h1, h2, h3, h4⟩ := C75_written nanEnv id (fun t => t.map Char.toLower) snTwo _ [twoLevels p q t u] .big .little bytes hnew
    hcap hn hleg hpos hne hs
  rw [twoEntries, show final [twoEntry p q t u] = [twoEntry p q t u] by simp [final]] at h3
  have := List.perm_singleton.1 h3
  subst this
  cases h4 with
  | @cons _ d _ _ r1 r2 =>
    cases r2
    have ho : DatasetOutput nanEnv id (fun t => t.map Char.toLower) snTwo [twoLevels p q t u] [d] :=
      ⟨hn, hleg, hpos, hcap, hne, ⟨_, _, _, _, bytes, g, hnew, rfl, hs, h1, h2⟩⟩
    have hk : SnKept nanEnv id d := fun n _ => rfl
    obtain ⟨out', h'⟩ := C114_succeeds nanEnv id _ snTwo id some none nanEnv_faithful snTwo _ hnew rfl _ _ ho hw hsz (by
      intro d' hd' n hc
      have := List.mem_singleton.1 hd'
      subst this
      refine ⟨n, rfl, ?_⟩
      obtain ⟨a, a1, a2⟩ := r1.lat
      obtain ⟨b, b1, b2⟩ := r1.lon
      rw [a2, b2] at hc
      have a1 := Except.ok.inj a1
      have b1 := Except.ok.inj b1
      rcases hc with hc | hc <;> rw [← HVal.coord.inj hc]
      · rw [← a1]; show inI32 4000; decide
      · rw [← b1]; show inI32 (-10500); decide)
    obtain ⟨l, hl, hc⟩ := (C114_copy_partial nanEnv id _ snTwo id some none nanEnv_faithful _ _ _ ho
      (fun d' hd' => by rw [List.mem_singleton.1 hd']; exact hk) h').2.2 (List.pairwise_singleton _ _)
    cases hc with
    | cons c1 c2 =>
      cases c2
      have := List.singleton_perm.1 hl
      subst this
      exact ⟨d, _, ho, r1, hk, h', c1⟩

theorem two_orders {σ : List Nat} (h : σ.Perm (List.range 2)) : σ = [0, 1] ∨ σ = [1, 0] := by
  have h' : σ.Perm [0, 1] := h
  have hl := h'.length_eq
  match σ, hl with
  | [a, b], _ =>
    have ha := h'.subset (List.mem_cons_self (a := a))
    have hb := h'.subset (List.mem_cons_of_mem a (List.mem_cons_self (a := b)))
    have hn := h'.nodup_iff.2 (by decide)
    simp at ha hb hn
    rcases ha with rfl | rfl <;> rcases hb with rfl | rfl <;> simp_all

/-- The rows of the dataset: as written or turned round. -/
theorem two_rows {p q t u : F32} {d : SnData LevNum} (h : IsDataset nanEnv (fun t => t.map Char.toLower) snTwo (twoEntry p q t u) d)
    (ht : t ≠ missingF32) (hu : u ≠ missingF32) : d.vcoord = txt "pres" ∧ d.pressure = some (.flt p) ∧ ∃ n,
      (d.levels = [.flt p, .flt q] ∧ d.vars = [(n, [some (.flt t), some (.flt u)])] ∧ (∀ x, f32Value p = some x → f32Value q ≠ some x)) ∨
      (d.levels = [.flt q, .flt p] ∧ d.vars = [(n, [some (.flt u), some (.flt t)])]) := by
  have hv : d.vcoord = txt "pres" := by
    rw [h.vcoord, if_pos (by decide +kernel)]
  obtain ⟨σ, lev, h1, h2, h3, h4, h5, h6⟩ := h.table
  have ev : vertParam snTwo = txt "PRES" := by decide +kernel
  have hne : txt "TMPC" ≠ txt "PRES" := by decide +kernel
  have el : lev = [some p, some q] := by
    refine zip_fst_unique (names := snTwo) (by decide +kernel) (n := vertParam snTwo) h1 ?_
    rw [ev]
    exact List.mem_cons_self
  subst el
  rw [if_pos hv] at h2
  obtain ⟨f, f1, f2⟩ := h2 (some p) rfl
  have f1 := Except.ok.inj f1
  have f1 : p = f := f1
  subst f1
  have hfil : (snTwo.zip (twoEntry p q t u).value).filter (fun nc => nc.1 ≠ vertParam snTwo) = [(txt "TMPC", [some t, some u])] := by
    show [(txt "PRES", [some p, some q]), (txt "TMPC", [some t, some u])].filter (fun nc => nc.1 ≠ vertParam snTwo) = _
    rw [ev, List.filter_cons_of_neg (by simp), List.filter_cons_of_pos (by simpa using hne), List.filter_nil]
  rw [hfil] at h6
  obtain ⟨kw, ws, k1, k2, k4⟩ := List.forall₂_cons_left_iff.1 h6
  have k2 := List.forall₂_nil_left_iff.1 k2
  subst k2
  obtain ⟨_, k3⟩ := k1
  have two : ∀ {β : Type} {R : Nat → β → Prop} {i j : Nat} {l : List β}, List.Forall₂ R [i, j] l → ∃ a b, l = [a, b] ∧ R i a ∧ R j b := by
    intro β R i j l hl
    obtain ⟨a, l', a1, a2, rfl⟩ := List.forall₂_cons_left_iff.1 hl
    obtain ⟨b, l'', b1, b2, rfl⟩ := List.forall₂_cons_left_iff.1 a2
    have := List.forall₂_nil_left_iff.1 b2
    subst this
    exact ⟨a, b, rfl, a1, b1⟩
  have eo : ∀ {a b : Option F32} {f : F32}, (some a : Option (Option F32)) = some b → nanEnv.f32 b = .ok f → f = a.getD 0x7FC00000 := by
    intro a b f h1 h2
    cases h1
    exact (Except.ok.inj h2).symm
  refine ⟨hv, f2, kw.1, ?_⟩
  have hk : ∀ l, kw.2 = l → d.vars = [(kw.1, l)] := by
    rintro l rfl
    rw [k4]
  rcases two_orders h3 with rfl | rfl
  · left
    obtain ⟨a, b, e1, ⟨v, f, v1, v2, v3⟩, w, g, w1, w2, w3⟩ := two h5
    obtain ⟨a', b', e1', ⟨v', f', v1', v2', v3'⟩, w', g', w1', w2', w3'⟩ := two k3
    have q1 := eo (a := some p) v1 v2
    have q2 := eo (a := some q) w1 w2
    have q3 := eo (a := some t) v1' v2'
    have q4 := eo (a := some u) w1' w2'
    simp only [Option.getD_some] at q1 q2 q3 q4
    subst q1 q2 q3 q4
    rw [if_neg ht] at v3'
    rw [if_neg hu] at w3'
    refine ⟨by rw [e1, v3, w3], hk _ (by rw [e1', v3', w3']), ?_⟩
    intro x hx hy
    have := (List.pairwise_cons.1 h4).1 1 List.mem_cons_self x hx hy
    rw [if_pos hv] at this
    omega
  · right
    obtain ⟨a, b, e1, ⟨v, f, v1, v2, v3⟩, w, g, w1, w2, w3⟩ := two h5
    obtain ⟨a', b', e1', ⟨v', f', v1', v2', v3'⟩, w', g', w1', w2', w3'⟩ := two k3
    have q1 := eo (a := some q) v1 v2
    have q2 := eo (a := some p) w1 w2
    have q3 := eo (a := some u) v1' v2'
    have q4 := eo (a := some t) w1' w2'
    simp only [Option.getD_some] at q1 q2 q3 q4
    subst q1 q2 q3 q4
    rw [if_neg hu] at v3'
    rw [if_neg ht] at w3'
    exact ⟨by rw [e1, v3, w3], hk _ (by rw [e1', v3', w3'])⟩

theorem f32Value_500 : f32Value 0x43FA0000 = some 500 := by
  unfold f32Value
  have a1 : (0x43FA0000 : F32).toNat / 2 ^ 31 = 0 := by decide
  have a2 : (0x43FA0000 : F32).toNat / 2 ^ 23 % 256 = 135 := by decide
  have a3 : (0x43FA0000 : F32).toNat % 2 ^ 23 = 7995392 := by decide
  dsimp only
  rw [a1, a2, a3, if_neg (by omega), if_neg (by omega), if_pos (by omega)]
  norm_num

theorem f32Value_1000 : f32Value 0x447A0000 = some 1000 := by
  unfold f32Value
  have a1 : (0x447A0000 : F32).toNat / 2 ^ 31 = 0 := by decide
  have a2 : (0x447A0000 : F32).toNat / 2 ^ 23 % 256 = 136 := by decide
  have a3 : (0x447A0000 : F32).toNat % 2 ^ 23 = 7995392 := by decide
  dsimp only
  rw [a1, a2, a3, if_neg (by omega), if_neg (by omega), if_pos (by omega)]
  norm_num

/-- **C114 (deviation).** The station pressure of a copy is not that of the file when the levels were not written from below: here 500 hPa in
the file and 1000 hPa in the copy. -/
theorem C114_pressure : ∃ rs d e, DatasetOutput nanEnv id (fun t => t.map Char.toLower) snTwo rs [d] ∧
    DatasetOutput nanEnv id (fun t => t.map Char.toLower) snTwo [snCopyOf id some none d] [e] ∧
    d.pressure = some (.flt 0x43FA0000) ∧ e.pressure = some (.flt 0x447A0000) := by
  obtain ⟨d, e, h1, h2, h3, h4, h5⟩ := two_copied 0x43FA0000 0x447A0000 1 2
  refine ⟨_, d, e, h1, h4, ?_⟩
  obtain ⟨hv, hp, n, hr⟩ := two_rows h2 (by decide) (by decide)
  refine ⟨hp, ?_⟩
  rw [h5.pressure, if_pos hv]
  rcases hr with ⟨r1, _, _⟩ | ⟨r1, _⟩
  · exfalso
    have := h2.ordered
    rw [r1] at this
    have := (List.pairwise_cons.1 this).1 _ List.mem_cons_self 500 1000 f32Value_500 f32Value_1000
    rw [if_pos hv] at this
    norm_num at this
  · rw [r1]; rfl

/-- **C114 (deviation).** Two levels of one pressure change places with each copy. -/
theorem C114_swapped : ∃ rs d e, DatasetOutput nanEnv id (fun t => t.map Char.toLower) snTwo rs [d] ∧
    DatasetOutput nanEnv id (fun t => t.map Char.toLower) snTwo [snCopyOf id some none d] [e] ∧
    (∃ n, d.vars = [(n, [some (.flt 2), some (.flt 1)])] ∧ e.vars = [(n, [some (.flt 1), some (.flt 2)])]) := by
  obtain ⟨d, e, h1, h2, h3, h4, h5⟩ := two_copied 0x43FA0000 0x43FA0000 1 2
  refine ⟨_, d, e, h1, h4, ?_⟩
  obtain ⟨hv, hp, n, hr⟩ := two_rows h2 (by decide) (by decide)
  rcases hr with ⟨_, _, r3⟩ | ⟨r1, r2⟩
  · exact absurd f32Value_500 (r3 500 f32Value_500)
  · refine ⟨n, r2, ?_⟩
    rw [(C114_equal_levels (dataset_shape h2) hv 500 (by
      rw [r1]
      intro v hv
      rcases List.mem_cons.1 hv with rfl | hv
      · exact f32Value_500
      · rw [List.mem_singleton.1 hv]; exact f32Value_500) h5).2, r2]
    rfl

/-- The hypotheses of `C114_file` are met by a sounding with levels at 1000 and 500 hPa. -/
example : ∃ rs d e, DatasetOutput nanEnv id (fun t => t.map Char.toLower) snTwo rs [d] ∧ SnKept nanEnv id d ∧ Settled d ∧
    DatasetOutput nanEnv id (fun t => t.map Char.toLower) snTwo [snCopyOf id some none d] [e] ∧ d.levels.length = 2 := by
  obtain ⟨d, e, h1, h2, h3, h4, h5⟩ := two_copied 0x447A0000 0x43FA0000 1 2
  obtain ⟨hv, hp, n, hr⟩ := two_rows h2 (by decide) (by decide)
  have hl : d.levels = [.flt 0x447A0000, .flt 0x43FA0000] ∨ d.levels = [.flt 0x43FA0000, .flt 0x447A0000] := by
    rcases hr with ⟨r1, _, _⟩ | ⟨r1, _⟩
    · exact .inl r1
    · exact .inr r1
  have e1 : levValue missingF32 (.flt 0x43FA0000) = some 500 := f32Value_500
  have e2 : levValue missingF32 (.flt 0x447A0000) = some 1000 := f32Value_1000
  refine ⟨_, d, e, h1, h3, ⟨?_, fun _ => ?_⟩, h4, ?_⟩
  · intro v hv
    rcases hl with hl | hl <;> rw [hl] at hv <;> simp only [List.mem_cons, List.not_mem_nil, or_false] at hv <;> rcases hv with rfl | rfl <;>
      first | exact ⟨_, e1⟩ | exact ⟨_, e2⟩
  · rcases hl with hl | hl <;> rw [hl] <;> simp only [List.pairwise_cons, List.mem_singleton, forall_eq, List.not_mem_nil, false_imp_iff, implies_true,
      List.Pairwise.nil, and_true] <;> rw [e1, e2] <;> norm_num
  · rcases hl with hl | hl <;> rw [hl] <;> rfl

end Gempak
