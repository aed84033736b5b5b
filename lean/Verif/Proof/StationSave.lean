import Verif.Proof.StationTable
import Verif.Proof.DMTotal

/-! Saving a station file succeeds when every number fits. -/

namespace Gempak
open Spec

set_option linter.unusedSectionVars false

variable {ρ κ β : Type} [DecidableEq κ]

/-- An entry whose numbers fit the words of a file. -/
structure Spec.Entry.Writable (env : NumEnv ρ κ) (e : Entry κ β) : Prop where
  number : inI32 e.number
  elev : inI32 e.elev
  priority : inI32 e.priority
  lat : ∃ n, env.centi e.lat = .ok n ∧ inI32 n
  lon : ∃ n, env.centi e.lon = .ok n ∧ inI32 n

theorem dateWord_fits {x : Date} (h : x.Valid) : inI32 (dateWord x) := by
  obtain ⟨h1, h2, h3, h4, h5, h6⟩ := h
  have h7 := daysInMonth_le x.y x.m
  unfold inI32 dateWord
  omega

theorem timeWord_fits {c : Clock} (h : c.Valid) : inI32 (timeWord c) := by
  obtain ⟨h1, h2, _, _⟩ := h
  unfold inI32 timeWord
  omega

theorem visitLen_le {M : Nat} (l : List (Nat × Option (Except PyErr (List Val)))) (h : ∀ v ∈ l, cellLen v.2 ≤ M) :
    visitLen l ≤ l.length * M := by
  induction l with
  | nil => simp [visitLen]
  | cons v l ih =>
    rw [visitLen_cons, List.length_cons, Nat.add_mul, Nat.one_mul]
    have h1 := h v List.mem_cons_self
    have h2 := ih fun w hw => h w (List.mem_cons_of_mem _ hw)
    omega

theorem sfVisits_length (rec : Row → β → Except PyErr (List Val)) (b : Builder κ β) :
    (sfVisits rec b).length = b.rowHeaders.length * b.columnHeaders.length := by
  rw [sfVisits_eq, List.length_map]
  exact (List.length_product _ _).trans (by rw [List.length_zipIdx, List.length_zipIdx])

theorem snVisits_length (rec : Row → β → Except PyErr (List Val)) (b : Builder κ β) :
    (snVisits rec b).length = b.rowHeaders.length * b.columnHeaders.length := by
  rw [snVisits_eq, List.length_map]
  exact (List.length_product _ _).trans (by rw [List.length_zipIdx, List.length_zipIdx, Nat.mul_comm])

theorem nextFree_le {rec : Row → β → Except PyErr (List Val)} {colWords : Col κ → Except PyErr (List Val)} {name : Text}
    {b : Builder κ β} {f : DMFile} (s : IsStation rec colWords name b f) (hcn : f.columnNames.length ≤ 9) :
    (setPointers f).nextFree ≤ 1000 + b.rows * 3 + b.columns * 10 + 4 * b.names.length + b.rows * b.columns := by
  unfold setPointers
  dsimp only
  rw [s.fileHeaders, s.parts, s.rowNames, s.dims.1, s.dims.2]
  have hb : blk = 128 := rfl
  simp only [hb, List.length_cons, List.length_nil, List.map_nil, List.sum_nil, List.map_cons, List.sum_cons, stationPart, Nat.zero_add,
    Nat.mul_zero, Nat.add_zero, Nat.one_mul]
  have h0 : b.columns * (f.columnNames.length + 1) ≤ b.columns * 10 := Nat.mul_le_mul_left _ (by omega)
  have h1 := nextBlock_spec (129 + 128 + (1 + 1) + f.columnNames.length) (by omega)
  generalize nextBlock (129 + 128 + (1 + 1) + f.columnNames.length) = R at *
  have h2 := nextBlock_spec (R + b.rows * (1 + 1 + 1) + b.columns * (f.columnNames.length + 1)) (by omega)
  generalize nextBlock (R + b.rows * (1 + 1 + 1) + b.columns * (f.columnNames.length + 1)) = P at *
  have h3 := nextBlock_spec (P + 4 * 1 + 4 * b.names.length) (by omega)
  generalize nextBlock (P + 4 * 1 + 4 * b.names.length) = D at *
  have h4 := nextBlock_spec (D + b.rows * b.columns) (by omega)
  generalize b.columns * (f.columnNames.length + 1) = c at *
  omega

theorem IsStation.saves {rec : Row → β → Except PyErr (List Val)} {colWords : Col κ → Except PyErr (List Val)} {name : Text}
    {b : Builder κ β} {f : DMFile} (s : IsStation rec colWords name b f) (e : Endian) (M : Nat) (hcn : f.columnNames.length ≤ 9)
    (hvis : f.visits.length = b.rowHeaders.length * b.columnHeaders.length)
    (hrows : ∀ r ∈ b.rowHeaders, r.1.Valid ∧ r.2.Valid)
    (hcols : ∀ c ∈ b.columnHeaders, ∃ vs, colWords c = .ok vs ∧ ∀ v ∈ vs, v.Packable)
    (hrec : ∀ v ∈ f.visits, ∀ r, v.2 = some r → ∃ ws, r = .ok ws ∧ (∀ w ∈ ws, w.Packable) ∧ ws.length ≤ M)
    (hcap : b.rows + b.columns ≤ 32000) (hnames : b.names.length ≤ 100) (hsize : b.rows * b.columns * (M + 1) ≤ 2 ^ 30) :
    ∃ bytes, save e f = .ok bytes := by
  have hft : f.fileType = 1 ∨ f.fileType = 2 ∨ f.fileType = 3 := s.fileType
  have hds : inI32 f.dataSource := by
    have : ∀ x ∈ knownSources, inI32 x := by decide +kernel
    exact this _ s.dataSource
  refine save_total s.wf ⟨?_, ?_, ?_, ?_, ?_, hds, ?_, ?_, ?_, ?_⟩
  · have h1 := nextFree_le s hcn
    have h2 : visitLen f.visits ≤ f.visits.length * M := by
      apply visitLen_le
      intro v hv
      cases hc : v.2 with
      | none => simp [cellLen]
      | some r =>
        obtain ⟨ws, rfl, _, h⟩ := hrec v hv r hc
        exact h
    rw [hvis, ← s.rows, ← s.columns] at h2
    have h3 : b.rows * b.columns * (M + 1) = b.rows * b.columns * M + b.rows * b.columns := by rw [Nat.mul_add, Nat.mul_one]
    generalize b.rows * b.columns * M = q at *
    omega
  · rw [s.fileHeaders]; simp
  · rw [s.fileBody]; simp
  · rw [s.parts]
    intro p hp
    rw [List.mem_singleton] at hp
    subst hp
    have z : ∀ i ∈ b.names.map (fun _ => (0 : Int)), inI32 i := by
      intro i hi
      obtain ⟨_, _, rfl⟩ := List.mem_map.1 hi
      decide
    exact ⟨by show inI32 1; decide, by show inI32 1; decide, z, z, z⟩
  · unfold inI32; omega
  · rw [s.dims.1, s.dims.2]; omega
  · rw [s.rowHeaders]
    intro x hx
    obtain ⟨r, hr, rfl⟩ := List.mem_map.1 hx
    refine ⟨_, rfl, ?_⟩
    intro v hv
    simp only [List.mem_cons, List.not_mem_nil, or_false] at hv
    rcases hv with rfl | rfl
    · exact dateWord_fits (hrows r hr).1
    · exact timeWord_fits (hrows r hr).2
  · rw [s.columnHeaders]
    intro x hx
    obtain ⟨c, hc, rfl⟩ := List.mem_map.1 hx
    exact hcols c hc
  · intro v hv r hr
    obtain ⟨ws, h1, h2, _⟩ := hrec v hv r hr
    exact ⟨ws, h1, h2⟩

theorem snColWords_packable {env : NumEnv ρ κ} {x : Entry κ β} (hw : x.Writable env) :
    ∃ vs, snColWords env x.place.2 = .ok vs ∧ ∀ v ∈ vs, v.Packable := by
  obtain ⟨lat, h1, h2⟩ := hw.lat
  obtain ⟨lon, h3, h4⟩ := hw.lon
  refine ⟨[nameWord (x.id.take 4), .int x.number, .int lat, .int lon, .int x.elev, nameWord x.state, nameWord x.country,
    nameWord (x.id.drop 4)], ?_, ?_⟩
  · unfold snColWords
    rw [show x.place.2.slat = x.lat from rfl, show x.place.2.slon = x.lon from rfl, h1, h3]
    rfl
  · intro v hv
    simp only [List.mem_cons, List.not_mem_nil, or_false] at hv
    rcases hv with rfl | rfl | rfl | rfl | rfl | rfl | rfl | rfl
    · exact nameWord_packable _
    · exact hw.number
    · exact h2
    · exact h4
    · exact hw.elev
    · exact nameWord_packable _
    · exact nameWord_packable _
    · exact nameWord_packable _

theorem sfColWords_packable {env : NumEnv ρ κ} {x : Entry κ β} (hw : x.Writable env) :
    ∃ vs, sfColWords env x.place.2 = .ok vs ∧ ∀ v ∈ vs, v.Packable := by
  obtain ⟨vs, h1, h2⟩ := snColWords_packable hw
  refine ⟨vs ++ [.int x.priority], ?_, ?_⟩
  · unfold sfColWords
    rw [h1]; rfl
  · intro v hv
    rcases List.mem_append.1 hv with hv | hv
    · exact h2 v hv
    · rw [List.mem_singleton] at hv
      subst hv
      exact hw.priority

theorem floatWords_total {env : NumEnv ρ κ} {vs : List ρ} (h : ∀ v ∈ vs, ∃ f, env.f32 v = .ok f) :
    floatWords env vs = .ok ((f32s env vs).map Val.flt) := by
  have : vs.mapM (fun x => (env.f32 x).map Val.flt) = .ok (vs.map fun v => Val.flt ((env.f32 v).toOption.getD 0)) := by
    apply mapM_ok
    intro v hv
    obtain ⟨f, hf⟩ := h v hv
    rw [hf]; rfl
  unfold floatWords f32s
  rw [this, List.map_map]; rfl

theorem flts_packable (fs : List F32) : ∀ w ∈ fs.map Val.flt, w.Packable := by
  intro w hw
  obtain ⟨f, _, rfl⟩ := List.mem_map.1 hw
  trivial

/-- The data of a cell belongs to an entry at that place. -/
theorem data_origin {env : NumEnv ρ κ} {names : List Text} {es : List (Entry κ β)} {b : Builder κ β}
    (h : History env names (es.map fun e => (e.place, e.value)) b) {k : Row × Col κ} {v : β} (hv : dictGet b.data k = some v) :
    ∃ e ∈ es, e.place = k ∧ e.value = v := by
  rw [h.data, dictGet_final] at hv
  obtain ⟨e, he, rfl⟩ := Option.map_eq_some_iff.1 hv
  refine ⟨e, final_sub (List.mem_of_find?_eq_some he), ?_, rfl⟩
  simpa using List.find?_some he

theorem surface_saves {env : NumEnv ρ κ} {names : List Text} {es : List (Entry κ (List ρ))} {b : Builder κ (List ρ)}
    (h : History env names (es.map fun e => (e.place, e.value)) b) (hcap : b.rows + b.columns ≤ 32000)
    (hleg : ∀ x ∈ es, x.date.Valid ∧ x.clock.Valid) (hw : ∀ x ∈ es, x.Writable env)
    (hf : ∀ x ∈ es, ∀ v ∈ x.value, ∃ f, env.f32 v = .ok f) (hlen : ∀ x ∈ es, x.value.length = names.length)
    (hnames : names.length ≤ 44) (hsize : b.rows * b.columns * (names.length + 3) ≤ 2 ^ 30) (e : Endian) :
    ∃ bytes, save e (surfaceFile env b) = .ok bytes := by
  obtain ⟨hr, hc⟩ := h.dims hcap
  obtain ⟨o1, o2⟩ := h.origin hcap
  refine (sfStation (env := env) hr hc).saves e (names.length + 2) (by show (9 : Nat) ≤ 9; decide) (sfVisits_length _ _) ?_ ?_ ?_ hcap
    (by rw [h.names]; omega) hsize
  · intro r hr'
    obtain ⟨x, hx, rfl⟩ := o1 r hr'
    exact hleg x hx
  · intro c hc'
    obtain ⟨x, hx, rfl⟩ := o2 c hc'
    exact sfColWords_packable (hw x hx)
  · intro v hv r hvr
    have hv' : v ∈ sfVisits (sfRecord env) b := hv
    rw [sfVisits_eq] at hv'
    obtain ⟨p, hp, rfl⟩ := List.mem_map.1 hv'
    obtain ⟨val, hval, rfl⟩ := Option.map_eq_some_iff.1 hvr
    obtain ⟨x, hx, hx1, rfl⟩ := data_origin h hval
    refine ⟨.int (1 + x.value.length : Nat) :: .int (timeWord p.1.1.2) :: (f32s env x.value).map Val.flt, ?_, ?_, ?_⟩
    · unfold sfRecord
      rw [floatWords_total (hf x hx)]
      rfl
    · intro w hw'
      rcases List.mem_cons.1 hw' with rfl | hw'
      · rw [hlen x hx]
        exact inI32_nat (by omega)
      · rcases List.mem_cons.1 hw' with rfl | hw'
        · have : p.1.1 = (x.date, x.clock) := by
            have h1 := congrArg Prod.fst hx1
            exact h1.symm
          rw [this]
          exact timeWord_fits (hleg x hx).2
        · exact flts_packable _ w hw'
    · simp only [List.length_cons, List.length_map]
      have := hlen x hx
      unfold f32s
      rw [List.length_map]
      omega

theorem sounding_saves {env : NumEnv ρ κ} {names : List Text} {es : List (Entry κ (List (List ρ)))} {b : Builder κ (List (List ρ))}
    (h : History env names (es.map fun e => (e.place, e.value)) b) (hcap : b.rows + b.columns ≤ 32000)
    (hleg : ∀ x ∈ es, x.date.Valid ∧ x.clock.Valid) (hw : ∀ x ∈ es, x.Writable env)
    (hf : ∀ x ∈ es, ∀ c ∈ x.value, ∀ v ∈ c, ∃ f, env.f32 v = .ok f) (hlen : ∀ x ∈ es, x.value.length = names.length)
    (L : Nat) (hrect : ∀ x ∈ es, (x.value.headD []).length ≤ L) (hL : L ≤ 500)
    (hnames : names.length ≤ 44) (hsize : b.rows * b.columns * (L * names.length + 3) ≤ 2 ^ 30) (e : Endian) :
    ∃ bytes, save e (soundingFile env b) = .ok bytes := by
  obtain ⟨hr, hc⟩ := h.dims hcap
  obtain ⟨o1, o2⟩ := h.origin hcap
  refine (snStation (env := env) hr hc).saves e (L * names.length + 2) (by show (8 : Nat) ≤ 9; decide) (snVisits_length _ _) ?_ ?_ ?_ hcap
    (by rw [h.names]; omega) hsize
  · intro r hr'
    obtain ⟨x, hx, rfl⟩ := o1 r hr'
    exact hleg x hx
  · intro c hc'
    obtain ⟨x, hx, rfl⟩ := o2 c hc'
    exact snColWords_packable (hw x hx)
  · intro v hv r hvr
    have hv' : v ∈ snVisits (snRecord env) b := hv
    rw [snVisits_eq] at hv'
    obtain ⟨p, hp, rfl⟩ := List.mem_map.1 hv'
    obtain ⟨val, hval, rfl⟩ := Option.map_eq_some_iff.1 hvr
    obtain ⟨x, hx, hx1, rfl⟩ := data_origin h hval
    have hlx := hlen x hx
    have hrx := hrect x hx
    have hprod : (x.value.headD []).length * x.value.length ≤ L * names.length := by
      rw [hlx]; exact Nat.mul_le_mul_right _ hrx
    have hprod2 : L * names.length ≤ 500 * 44 := Nat.mul_le_mul hL hnames
    have hfl : ∀ v ∈ (levels x.value).flatten, ∃ f, env.f32 v = .ok f := by
      intro v hv
      obtain ⟨l, hl, hv⟩ := List.mem_flatten.1 hv
      obtain ⟨i, _, rfl⟩ := List.mem_map.1 hl
      obtain ⟨c, hc, hv⟩ := List.mem_filterMap.1 hv
      exact hf x hx c hc v (List.mem_of_getElem? hv)
    have hflen : (levels x.value).flatten.length ≤ (x.value.headD []).length * x.value.length := by
      unfold levels
      rw [List.length_flatten, List.map_map]
      have : ∀ l : List Nat, (l.map (List.length ∘ fun i => x.value.filterMap (·[i]?))).sum ≤ l.length * x.value.length := by
        intro l
        induction l with
        | nil => simp
        | cons a l ih =>
          rw [List.map_cons, List.sum_cons, List.length_cons, Nat.add_mul, Nat.one_mul]
          have : (x.value.filterMap (·[a]?)).length ≤ x.value.length := List.length_filterMap_le _ _
          simp only [Function.comp] at *
          omega
      have h2 := this (List.range (x.value.headD []).length)
      rwa [List.length_range] at h2
    refine ⟨.int (1 + (x.value.headD []).length * x.value.length : Nat) :: .int (timeWord p.2.1.2) ::
      (f32s env (levels x.value).flatten).map Val.flt, ?_, ?_, ?_⟩
    · unfold snRecord
      rw [floatWords_total hfl]
      rfl
    · intro w hw'
      rcases List.mem_cons.1 hw' with rfl | hw'
      · exact inI32_nat (by omega)
      · rcases List.mem_cons.1 hw' with rfl | hw'
        · have : p.2.1 = (x.date, x.clock) := (congrArg Prod.fst hx1).symm
          rw [this]
          exact timeWord_fits (hleg x hx).2
        · exact flts_packable _ w hw'
    · simp only [List.length_cons, List.length_map]
      have : (f32s env (levels x.value).flatten).length = (levels x.value).flatten.length := by
        unfold f32s; rw [List.length_map]
      omega

end Gempak
