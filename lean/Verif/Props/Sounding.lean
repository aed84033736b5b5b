import Verif.Proof.Order
import Verif.Proof.SoundingReport
import Verif.Proof.StationSave
import Verif.Props.Surface

/-!
# Sounding files: writing, saving and reading back (C15, C17, C18, C28, C29)
-/

namespace Gempak
open Spec

set_option linter.unusedSectionVars false

variable {ρ κ : Type} [DecidableEq κ]

theorem snEntry_cases {env : NumEnv ρ κ} {names : List Text} {r : AddReq κ (List ρ)} {e : Entry κ (List (List ρ))}
    (h : snEntry env names r = some e) : ∃ lat lon x c, r.slat = some lat ∧ r.slon = some lon ∧ Complete env.upper names r.data ∧
      Rectangular (columnsOf env names r.data) ∧ e = describe env.upper r.info lat lon x c 0 (columnsOf env names r.data) := by
  unfold snEntry at h
  split at h
  · rename_i lat lon h1 h2
    split at h
    · rename_i hc
      split at h
      · rename_i x c _
        exact ⟨lat, lon, x, c, h1, h2, hc.1, hc.2, (Option.some.inj h).symm⟩
      · split at h
        · rename_i x c _
          exact ⟨lat, lon, x, c, h1, h2, hc.1, hc.2, (Option.some.inj h).symm⟩
        · cases h
      · cases h
    · cases h
  · cases h

theorem given_some {α : Type} {upper : Text → Text} {names : List Text} {data : List (Text × α)} (h : Complete upper names data) {n : Text}
    (hn : n ∈ names) : ∃ v, given upper data n = some v := by
  obtain ⟨kv, h1, h2⟩ := h.2 n hn
  apply Option.isSome_iff_exists.1
  unfold given
  rw [Option.isSome_map, List.find?_isSome]
  exact ⟨kv, List.mem_reverse.2 h1, by simpa using h2⟩

/-- Columns correspond to the names. -/
theorem columns_zip {α γ : Type} {upper : Text → Text} {names : List Text} {data : List (Text × α)} (f : α → γ)
    (h : ∀ n ∈ names, ∃ v, given upper data n = some v) :
    List.Forall₂ (fun n c => ∃ v, given upper data n = some v ∧ c = f v) names
      (names.filterMap fun n => (given upper data n).map f) := by
  induction names with
  | nil => exact .nil
  | cons n l ih =>
    obtain ⟨v, hv⟩ := h n List.mem_cons_self
    rw [List.filterMap_cons_some (b := f v) (by rw [hv]; rfl)]
    exact .cons ⟨v, hv, rfl⟩ (ih fun m hm => h m (List.mem_cons_of_mem _ hm))

theorem snEntry_value {env : NumEnv ρ κ} {names : List Text} {r : AddReq κ (List ρ)} {e : Entry κ (List (List ρ))}
    (h : snEntry env names r = some e) : e.value.length = names.length ∧ Rectangular e.value ∧ e.priority = 0 ∧
      List.Forall₂ (fun n c => ∃ v, given env.upper r.data n = some v ∧ c = v.map env.clean) names e.value := by
  obtain ⟨lat, lon, x, c, _, _, hc, hr, rfl⟩ := snEntry_cases h
  have hv := (describe_row env.upper r.info lat lon x c 0 (columnsOf env names r.data)).2
  rw [hv]
  have hz := columns_zip (names := names) (data := r.data) (upper := env.upper) (fun l => l.map env.clean) fun n hn => given_some hc hn
  refine ⟨hz.length_eq.symm, hr, ?_, hz⟩
  unfold describe
  cases r.info <;> rfl

/-- The object of a cell is the report of the entry put there. -/
theorem snObj_report {env : NumEnv ρ κ} {lower : Text → Text} {names : List Text} {p : Pair κ} {cols : List (List ρ)} {lev : List ρ}
    {x : Entry κ (List (List ρ))} (hx : (x.place, x.value) = ((p.1.1, p.2.1), cols))
    (hlev : (vertParam names, lev) ∈ names.zip cols)
    (hf : ∀ c ∈ cols, List.Forall₂ (fun v f => env.f32 v = .ok f) c (f32s env c))
    (hlat : ∃ n, env.centi p.2.1.slat = .ok n) (hlon : ∃ n, env.centi p.2.1.slon = .ok n) :
    IsSounding env lower names x (snObjOf env lower names p cols lev) := by
  obtain ⟨⟨row, i⟩, ⟨col, j⟩⟩ := p
  dsimp only at *
  obtain ⟨h1, h2⟩ := Prod.mk.inj hx
  obtain ⟨h3, h4⟩ := Prod.mk.inj h1
  subst h2 h3 h4
  obtain ⟨n, hn⟩ := hlat
  obtain ⟨m, hm⟩ := hlon
  refine ⟨rfl, rfl, rfl, ⟨n, hn, ?_⟩, ⟨m, hm, ?_⟩, rfl, rfl, rfl, rfl, ⟨lev, hlev, _, hf lev (List.of_mem_zip hlev).2, rfl⟩, ?_⟩
  · show HVal.coord (centiD env _) = _
    rw [centiD_ok hn]
  · show HVal.coord (centiD env _) = _
    rw [centiD_ok hm]
  · show List.Forall₂ _ _ (List.map _ _)
    rw [List.forall₂_map_right_iff, List.forall₂_same]
    intro nc hnc
    exact ⟨rfl, _, hf nc.2 (List.of_mem_zip (List.mem_of_mem_filter hnc)).2, rfl⟩

/-- What a written sounding file holds, cell by cell. -/
theorem sounding_read {e host : Endian} {bytes : Bytes} {env : NumEnv ρ κ} {lower : Text → Text} {es : List (Entry κ (List (List ρ)))}
    {names : List Text} {b : Builder κ (List (List ρ))} (hist : History env names (es.map fun e => (e.place, e.value)) b)
    (hcap : b.rows + b.columns ≤ mmhdrs) (hn : SoundingNames lower names) (hes : ∀ x ∈ es, x.Legible)
    (hval : ∀ x ∈ es, x.value.length = names.length ∧ Rectangular x.value) (hs : save e (soundingFile env b) = .ok bytes) :
    ∃ (g : SoundingReader) (P : List (Pair κ)), openSounding host bytes = .ok g ∧ g.merged = true ∧ P.Perm (kept b) ∧
      g.sninfo = P.map (infoOf env false) ∧ ∀ p ∈ P, ∃ cols, cellOf b p = some cols ∧ cols.length = names.length ∧
        (∃ x ∈ es, x.value = cols) ∧ g.unpackMerged p.1.2 p.2.2 = .ok (soundingOf env names p cols) ∧
        (∀ c ∈ cols, List.Forall₂ (fun v f => env.f32 v = .ok f) c (f32s env c)) ∧
        (∃ n, env.centi p.2.1.slat = .ok n) ∧ ∃ n, env.centi p.2.1.slon = .ok n := by
  obtain ⟨hr, hc⟩ := hist.dims hcap
  have hleg := legible_of hist hcap hn.legible hes
  obtain ⟨bk, ho⟩ := openSounding_spec (host := host) hr hc hleg hs
  refine ⟨_, (kept b).mergeSort fun p q => SiteInfo.le (infoOf env false p) (infoOf env false q), ho, rfl, List.mergeSort_perm _ _, ?_, ?_⟩
  · unfold SoundingReader.sninfo
    rw [List.map_mergeSort]
    intro _ _ _ _; rfl
  · intro p hp
    rw [(List.mergeSort_perm _ _).mem_iff] at hp
    obtain ⟨hp1, hp2⟩ := List.mem_filter.1 hp
    obtain ⟨cols, hcols⟩ := Option.isSome_iff_exists.1 hp2
    obtain ⟨x, hx, hxv⟩ : ∃ x ∈ es, x.value = cols := by
      have hm : ((p.1.1, p.2.1), cols) ∈ (kept b).map (content b) :=
        List.mem_map.2 ⟨p, hp, by unfold content; rw [hcols]; rfl⟩
      rw [(kept_perm hist hcap).mem_iff] at hm
      obtain ⟨x, hx, hx2⟩ := List.mem_map.1 hm
      exact ⟨x, final_sub hx, (Prod.mk.inj hx2).2⟩
    obtain ⟨hl, hrect⟩ := hval x hx
    rw [hxv] at hl hrect
    have hn' : SoundingNames lower b.names := by rw [hist.names]; exact hn
    obtain ⟨hu, hf⟩ := unpackMerged_spec (bk := bk) (infos := (kept b).map (infoOf env false)) hr hc hn' hs hp1 hcols
      (by rw [hist.names]; exact hl) hrect
    rw [hist.names] at hu
    obtain ⟨_, h3⟩ := mem_pairs.1 hp1
    obtain ⟨ws, hws⟩ := saved_coords (env := env) (snStation (env := env) hr hc) hs (List.mem_of_getElem? h3)
    obtain ⟨lat, lon, c1, c2, _⟩ := snColWords_inv hws
    exact ⟨cols, hcols, hl, ⟨x, hx, hxv⟩, hu, hf, ⟨lat, c1⟩, lon, c2⟩

/-- `C15_round_trip_partial` with the order. -/
theorem sounding_ordered (env : NumEnv ρ κ) (upper lower : Text → Text) (ps : List Text) (b0 : Builder κ (List (List ρ)))
    (rs : List (AddReq κ (List ρ))) (e host : Endian) (bytes : Bytes) (hnew : newBuilder env ps = .ok b0)
    (hcap : headers (rs.filterMap (snEntry env b0.names)) ≤ 32000) (hn : SoundingNames lower b0.names)
    (hes : ∀ x ∈ rs.filterMap (snEntry env b0.names), x.Legible)
    (hpos : ∀ x ∈ rs.filterMap (snEntry env b0.names), ∀ c ∈ x.value, c ≠ [])
    (hne : rs.filterMap (snEntry env b0.names) ≠ [])
    (hs : save e (soundingFile env (run (addSounding env) b0 rs)) = .ok bytes) :
    ∃ (g : SoundingReader) (out : List SnObj) (es : List (Entry κ (List (List ρ)))), openSounding host bytes = .ok g ∧
      g.snxarray upper lower {} = .ok out ∧ es.Perm (final (rs.filterMap (snEntry env b0.names))) ∧
      List.Forall₂ (IsSounding env lower b0.names) es out ∧ es.Pairwise Entry.NotAfter ∧ (Ordered env.leK → es.Pairwise Entry.Before) := by
  have hist := run_sounding (History.new hnew) rs
  rw [List.nil_append] at hist
  have hcap' : (run (addSounding env) b0 rs).rows + (run (addSounding env) b0 rs).columns ≤ mmhdrs := by
    rw [hist.headers_eq]; exact hcap
  obtain ⟨g, P, ho, hmg, hP, hinfo, hcell⟩ := sounding_read (host := host) hist hcap' hn hes (by
    intro x hx
    obtain ⟨r, _, hr⟩ := List.mem_filterMap.1 hx
    exact ⟨(snEntry_value hr).1, (snEntry_value hr).2.1⟩) hs
  generalize run (addSounding env) b0 rs = b at *
  have hperm := (hP.map (content b)).trans (kept_perm hist hcap')
  obtain ⟨es, he1, he2⟩ := perm_map_inv hperm
  have hPne : P ≠ [] := by
    intro h0
    rw [h0, List.map_nil, List.map_eq_nil_iff] at he2
    subst he2
    obtain ⟨x, hx⟩ := List.exists_mem_of_ne_nil _ hne
    obtain ⟨y, hy, _⟩ := final_covers hx
    have := he1.symm.subset hy
    simp at this
  obtain ⟨val, hval⟩ : ∃ val : Pair κ → SnObj × List (Text × HVal), ∀ p ∈ P, g.unpackMerged p.1.2 p.2.2 = .ok (val p).2 ∧
      snObject lower (val p).2 = .ok (val p).1 ∧ ∀ x, (x.place, x.value) = content b p → IsSounding env lower b0.names x (val p).1 := by
    have : ∀ p : Pair κ, ∃ y : SnObj × List (Text × HVal), p ∈ P → g.unpackMerged p.1.2 p.2.2 = .ok y.2 ∧
        snObject lower y.2 = .ok y.1 ∧ ∀ x, (x.place, x.value) = content b p → IsSounding env lower b0.names x y.1 := by
      intro p
      by_cases hp : p ∈ P
      · obtain ⟨cols, a1, a2, ⟨x0, hx0, hx1⟩, a4, a5, a6, a7⟩ := hcell p hp
        obtain ⟨lev, h1, h2⟩ := snObject_spec (env := env) hn p a2 (by
          have := hpos x0 hx0
          rwa [hx1] at this)
        refine ⟨(snObjOf env lower b0.names p cols lev, soundingOf env b0.names p cols), fun _ => ⟨a4, h2, fun x hx => ?_⟩⟩
        have h9 : content b p = ((p.1.1, p.2.1), cols) := by
          unfold content; rw [a1, Option.getD_some]
        exact snObj_report (Eq.trans hx h9) h1 a5 a6 a7
      · exact ⟨(snObjOf env lower b0.names p [] [], []), fun h => absurd h hp⟩
    exact ⟨fun p => (this p).choose, fun p hp => (this p).choose_spec hp⟩
  refine ⟨g, P.map fun p => (val p).1, es, ho, ?_, he1, ?_, entries_sorted hist hcap' hP hinfo he2⟩
  · unfold SoundingReader.snxarray
    rw [hinfo, selectSites_all, if_neg (by
      have := List.length_pos_of_ne_nil hPne
      rw [List.length_map]; omega), ok_bind, if_neg (by simp [hmg])]
    have m1 : (P.map (infoOf env false)).mapM (fun s => g.unpackMerged s.row s.col) = .ok (P.map fun p => (val p).2) := by
      rw [List.mapM_map]
      exact mapM_ok fun p hp => (hval p hp).1
    rw [m1, ok_bind, List.mapM_map]
    exact mapM_ok fun p hp => (hval p hp).2.1
  · refine forall₂_of_maps (g := content b) (h := fun x : Entry κ (List (List ρ)) => (x.place, x.value)) he2 ?_
    intro p hp x hx
    exact (hval p hp).2.2 x hx

/-- C15, C17 (part): after any sequence of `add_sounding` calls on a new file, `snxarray` on the saved bytes gives exactly one sounding
for every surviving request and nothing else, with its time, site and every column level by level in single precision.  Missing:
soundings without levels, see `C15_no_levels`, and identifiers beyond four characters. -/
theorem C15_round_trip_partial (env : NumEnv ρ κ) (upper lower : Text → Text) (ps : List Text) (b0 : Builder κ (List (List ρ)))
    (rs : List (AddReq κ (List ρ))) (e host : Endian) (bytes : Bytes) (hnew : newBuilder env ps = .ok b0)
    (hcap : headers (rs.filterMap (snEntry env b0.names)) ≤ 32000) (hn : SoundingNames lower b0.names)
    (hes : ∀ x ∈ rs.filterMap (snEntry env b0.names), x.Legible)
    (hpos : ∀ x ∈ rs.filterMap (snEntry env b0.names), ∀ c ∈ x.value, c ≠ [])
    (hne : rs.filterMap (snEntry env b0.names) ≠ [])
    (hs : save e (soundingFile env (run (addSounding env) b0 rs)) = .ok bytes) :
    ∃ (g : SoundingReader) (out : List SnObj) (es : List (Entry κ (List (List ρ)))), openSounding host bytes = .ok g ∧
      g.snxarray upper lower {} = .ok out ∧ es.Perm (final (rs.filterMap (snEntry env b0.names))) ∧
      List.Forall₂ (IsSounding env lower b0.names) es out := by
  obtain ⟨g, out, es, h1, h2, h3, h4, _⟩ := sounding_ordered env upper lower ps b0 rs e host bytes hnew hcap hn hes hpos hne hs
  exact ⟨g, out, es, h1, h2, h3, h4⟩

/-- C15: saving succeeds whenever the numbers fit their words, every value has a single precision form, and the file stays below
2³¹ words. -/
theorem C15_saves (env : NumEnv ρ κ) (ps : List Text) (b0 : Builder κ (List (List ρ))) (rs : List (AddReq κ (List ρ))) (e : Endian)
    (hnew : newBuilder env ps = .ok b0) (hcap : headers (rs.filterMap (snEntry env b0.names)) ≤ 32000)
    (hdate : ∀ x ∈ rs.filterMap (snEntry env b0.names), x.date.Valid ∧ x.clock.Valid)
    (hw : ∀ x ∈ rs.filterMap (snEntry env b0.names), x.Writable env)
    (hf : ∀ x ∈ rs.filterMap (snEntry env b0.names), ∀ c ∈ x.value, ∀ v ∈ c, ∃ f, env.f32 v = .ok f)
    (hsize : (run (addSounding env) b0 rs).rows * (run (addSounding env) b0 rs).columns * (499 * b0.names.length + 3) ≤ 2 ^ 30) :
    ∃ bytes, save e (soundingFile env (run (addSounding env) b0 rs)) = .ok bytes := by
  have hist := run_sounding (History.new hnew) rs
  rw [List.nil_append] at hist
  have hv : ∀ x ∈ rs.filterMap (snEntry env b0.names), x.value.length = b0.names.length ∧ Rectangular x.value := by
    intro x hx
    obtain ⟨r, _, hr⟩ := List.mem_filterMap.1 hx
    exact ⟨(snEntry_value hr).1, (snEntry_value hr).2.1⟩
  refine sounding_saves hist (by rw [hist.headers_eq]; exact hcap) hdate hw hf (fun x hx => (hv x hx).1) 499 ?_ (by decide)
    ((C19_parameters env ps).1 b0 hnew) hsize e
  intro x hx
  have := (hv x hx).2
  cases hxv : x.value with
  | nil => simp
  | cons c r =>
    rw [hxv] at this
    have := this.1
    simp only [List.headD_cons]
    omega

theorem mapM_index_error {α γ : Type} (f : α → Except PyErr γ) (l : List α) (h1 : ∀ x ∈ l, (∃ y, f x = .ok y) ∨ f x = .error .indexError)
    (h2 : ∃ x ∈ l, f x = .error .indexError) : l.mapM f = .error .indexError := by
  induction l with
  | nil => simp at h2
  | cons a l ih =>
    rw [List.mapM_cons]
    rcases h1 a List.mem_cons_self with ⟨y, hy⟩ | hy
    · rw [hy, ok_bind]
      obtain ⟨x, hx, hx2⟩ := h2
      rcases List.mem_cons.1 hx with rfl | hx
      · rw [hy] at hx2; cases hx2
      · rw [ih (fun x hx => h1 x (List.mem_cons_of_mem _ hx)) ⟨x, hx, hx2⟩]; rfl
    · rw [hy]; rfl

/-- C15 fails for soundings without levels: such a request is accepted and written, but as soon as one is in the file (and pressure
is a parameter) asking for all soundings raises `IndexError`. -/
theorem C15_no_levels (env : NumEnv ρ κ) (upper lower : Text → Text) (ps : List Text) (b0 : Builder κ (List (List ρ)))
    (rs : List (AddReq κ (List ρ))) (e host : Endian) (bytes : Bytes) (hnew : newBuilder env ps = .ok b0)
    (hcap : headers (rs.filterMap (snEntry env b0.names)) ≤ 32000) (hn : SoundingNames lower b0.names) (hpres : txt "PRES" ∈ b0.names)
    (hes : ∀ x ∈ rs.filterMap (snEntry env b0.names), x.Legible)
    (hzero : ∃ x ∈ final (rs.filterMap (snEntry env b0.names)), [] ∈ x.value)
    (hs : save e (soundingFile env (run (addSounding env) b0 rs)) = .ok bytes) :
    ∃ g : SoundingReader, openSounding host bytes = .ok g ∧ g.snxarray upper lower {} = .error .indexError := by
  have hist := run_sounding (History.new hnew) rs
  rw [List.nil_append] at hist
  have hcap' : (run (addSounding env) b0 rs).rows + (run (addSounding env) b0 rs).columns ≤ mmhdrs := by
    rw [hist.headers_eq]; exact hcap
  have hrect : ∀ x ∈ rs.filterMap (snEntry env b0.names), x.value.length = b0.names.length ∧ Rectangular x.value := by
    intro x hx
    obtain ⟨r, _, hr⟩ := List.mem_filterMap.1 hx
    exact ⟨(snEntry_value hr).1, (snEntry_value hr).2.1⟩
  obtain ⟨g, P, ho, hmg, hP, hinfo, hcell⟩ := sounding_read (host := host) hist hcap' hn hes hrect hs
  generalize run (addSounding env) b0 rs = b at *
  have hperm := (hP.map (content b)).trans (kept_perm hist hcap')
  obtain ⟨x, hx, hx0⟩ := hzero
  obtain ⟨p, hp, hpx⟩ : ∃ p ∈ P, content b p = (x.place, x.value) := by
    have : (x.place, x.value) ∈ P.map (content b) := by
      rw [hperm.mem_iff]; exact List.mem_map.2 ⟨x, hx, rfl⟩
    exact List.mem_map.1 this
  have hPne : P ≠ [] := by rintro rfl; simp at hp
  refine ⟨g, ho, ?_⟩
  unfold SoundingReader.snxarray
  rw [hinfo, selectSites_all, if_neg (by
    have := List.length_pos_of_ne_nil hPne
    rw [List.length_map]; omega), ok_bind, if_neg (by simp [hmg])]
  have m1 : (P.map (infoOf env false)).mapM (fun s => g.unpackMerged s.row s.col) =
      .ok (P.map fun p => soundingOf env b0.names p ((cellOf b p).getD [])) := by
    rw [List.mapM_map]
    refine mapM_ok fun p hp => ?_
    obtain ⟨cols, a1, _, _, a4, _⟩ := hcell p hp
    rw [a1]
    exact a4
  rw [m1, ok_bind]
  have hcols : ∀ q ∈ P, ∃ cols, cellOf b q = some cols ∧ cols.length = b0.names.length ∧ Rectangular cols := by
    intro q hq
    obtain ⟨cols, a1, a2, ⟨y, hy, hy2⟩, _⟩ := hcell q hq
    exact ⟨cols, a1, a2, by rw [← hy2]; exact (hrect y hy).2⟩
  have hbad : ∀ q cols, cols.length = b0.names.length → Rectangular cols → [] ∈ cols →
      snObject lower (soundingOf env b0.names q cols) = .error .indexError := by
    intro q cols h1 h2 h3
    exact snObject_no_levels hn q h1 hpres (by
      cases cols with
      | nil => simp at h3
      | cons c r =>
        have hc0 : c = [] := by
          rcases List.mem_cons.1 h3 with h | h
          · exact h.symm
          · have := h2.2 _ h
            exact List.length_eq_zero_iff.1 this.symm
        intro d hd
        rcases List.mem_cons.1 hd with rfl | hd
        · exact hc0
        · have := h2.2 d hd
          rw [hc0] at this
          exact List.length_eq_zero_iff.1 this)
  apply mapM_index_error
  · intro y hy
    obtain ⟨q, hq, rfl⟩ := List.mem_map.1 hy
    obtain ⟨cols, a1, a2, a3⟩ := hcols q hq
    rw [a1, Option.getD_some]
    by_cases h0 : [] ∈ cols
    · exact Or.inr (hbad q cols a2 a3 h0)
    · obtain ⟨lev, _, h2⟩ := snObject_spec (env := env) hn q a2 (fun c hc h => h0 (h ▸ hc))
      exact Or.inl ⟨_, h2⟩
  · refine ⟨_, List.mem_map.2 ⟨p, hp, rfl⟩, ?_⟩
    obtain ⟨cols, a1, a2, a3⟩ := hcols p hp
    rw [a1, Option.getD_some]
    refine hbad p cols a2 a3 ?_
    have : content b p = ((p.1.1, p.2.1), cols) := by
      unfold content; rw [a1, Option.getD_some]
    rw [this] at hpx
    rw [(Prod.mk.inj hpx).2]
    exact hx0

/-! ## One sounding per key, values, identifiers -/

/-- What `snxarray` gives for the saved file of a history of calls. -/
structure SoundingOutput (env : NumEnv ρ κ) (upper lower : Text → Text) (names : List Text) (rs : List (AddReq κ (List ρ)))
    (out : List SnObj) : Prop where
  /-- The names of the parameters do not clash with anything. -/
  clear : SoundingNames lower names
  /-- Dates exist and names fit their words. -/
  legible : ∀ x ∈ rs.filterMap (snEntry env names), x.Legible
  /-- There are levels. -/
  levels : ∀ x ∈ rs.filterMap (snEntry env names), ∀ c ∈ x.value, c ≠ []
  /-- The limit of headers is not exceeded. -/
  small : headers (rs.filterMap (snEntry env names)) ≤ 32000
  /-- Something was accepted. -/
  some : rs.filterMap (snEntry env names) ≠ []
  /-- A new file, the calls, `to_gempak`, opening, `snxarray`. -/
  saved : ∃ (ps : List Text) (b0 : Builder κ (List (List ρ))) (e host : Endian) (bytes : Bytes) (g : SoundingReader),
    newBuilder env ps = .ok b0 ∧ b0.names = names ∧ save e (soundingFile env (run (addSounding env) b0 rs)) = .ok bytes ∧
      openSounding host bytes = .ok g ∧ g.snxarray upper lower {} = .ok out

/-- The round trip for such an output. -/
theorem SoundingOutput.reports {env : NumEnv ρ κ} {upper lower : Text → Text} {names : List Text} {rs : List (AddReq κ (List ρ))}
    {out : List SnObj} (h : SoundingOutput env upper lower names rs out) :
    ∃ es : List (Entry κ (List (List ρ))), es.Perm (final (rs.filterMap (snEntry env names))) ∧
      List.Forall₂ (IsSounding env lower names) es out := by
  obtain ⟨ps, b0, e, host, bytes, g, hnew, rfl, hs, ho, hj⟩ := h.saved
  obtain ⟨g', out', es, h1, h2, h3, h4⟩ := C15_round_trip_partial env upper lower ps b0 rs e host bytes hnew h.small h.clear h.legible
    h.levels h.some hs
  rw [ho] at h1
  have := Except.ok.inj h1
  subst this
  rw [hj] at h2
  have := Except.ok.inj h2
  subst this
  exact ⟨es, h3, h4⟩

/-- C17 for soundings: a request not followed by another one for the same site and time is the one reported; there are exactly
as many soundings as different keys. -/
theorem C17_sounding (env : NumEnv ρ κ) (upper lower : Text → Text) (names : List Text) (pre post : List (AddReq κ (List ρ)))
    (r : AddReq κ (List ρ)) (x : Entry κ (List (List ρ))) (out : List SnObj)
    (h : SoundingOutput env upper lower names (pre ++ r :: post) out) (hx : snEntry env names r = some x)
    (hpost : ∀ y ∈ post.filterMap (snEntry env names), ¬ x.SameKey y) :
    (∃ o ∈ out, IsSounding env lower names x o) ∧
      out.length = (final ((pre ++ r :: post).filterMap (snEntry env names))).length := by
  obtain ⟨es, h1, h2⟩ := h.reports
  constructor
  · have : x ∈ es := by
      rw [h1.mem_iff, C17_survivors]
      refine ⟨pre.filterMap (snEntry env names), post.filterMap (snEntry env names), ?_, hpost⟩
      rw [List.filterMap_append, List.filterMap_cons_some hx]
    obtain ⟨i, hi, rfl⟩ := List.getElem_of_mem this
    exact ⟨out[i]'(h2.length_eq ▸ hi), List.getElem_mem _, h2.get hi _⟩
  · rw [← h2.length_eq, h1.length_eq]

/-- A level as read: the missing value for not-a-number, otherwise the single precision form of what was given. -/
def LevelRead (env : NumEnv ρ κ) (v : ρ) (f : F32) : Prop := if env.isNaN v then f = missingF32 else env.f32 v = .ok f

/-- C18 for soundings: every column is reported, level by level, under the lower-case name of its parameter (the vertical
coordinate as the coordinate): the missing value for not-a-number, otherwise the single precision form of what was given. -/
theorem C18_sounding (env : NumEnv ρ κ) (lower : Text → Text) (names : List Text) (r : AddReq κ (List ρ)) (x : Entry κ (List (List ρ)))
    (o : SnObj) (hnd : names.Nodup) (hx : snEntry env names r = some x) (ho : IsSounding env lower names x o) (n : Text) (hn : n ∈ names) :
    ∃ c, given env.upper r.data n = some c ∧ ∃ fs, List.Forall₂ (LevelRead env) c fs ∧
      if n = vertParam names then o.levels = .arr fs else (lower n, HVal.arr fs) ∈ o.vars := by
  obtain ⟨hlen, _, _, hz⟩ := snEntry_value hx
  have hmem : ∀ n c, (n, c) ∈ names.zip x.value → ∃ v, given env.upper r.data n = some v ∧ c = v.map env.clean := by
    intro n c h
    rw [List.forall₂_iff_zip] at hz
    exact hz.2 h
  have hclean : ∀ (v : List ρ) (fs : List F32), List.Forall₂ (fun v f => env.f32 v = .ok f) (v.map env.clean) fs →
      List.Forall₂ (LevelRead env) v fs := by
    intro v fs h
    rw [List.forall₂_map_left_iff] at h
    refine h.imp ?_
    intro a f haf
    unfold NumEnv.clean at haf
    unfold LevelRead
    split
    · rename_i hnan
      rw [if_pos hnan, env.f32_missing] at haf
      exact (Except.ok.inj haf).symm
    · rename_i hnan
      rwa [if_neg hnan] at haf
  by_cases hv : n = vertParam names
  · obtain ⟨c, hc, fs, hf, he⟩ := ho.levels
    obtain ⟨v, hv1, rfl⟩ := hmem _ _ hc
    rw [← hv] at hv1
    exact ⟨v, hv1, fs, hclean v fs hf, by rw [if_pos hv]; exact he⟩
  · obtain ⟨k, hk, hk2⟩ := List.getElem_of_mem hn
    have hmz : (n, x.value[k]'(by omega)) ∈ names.zip x.value := by
      rw [← hk2, ← List.getElem_zip (h := by rw [List.length_zip]; omega)]
      exact List.getElem_mem _
    have hmf : (n, x.value[k]'(by omega)) ∈ (names.zip x.value).filter fun nc => nc.1 ≠ vertParam names :=
      List.mem_filter.2 ⟨hmz, by simpa using hv⟩
    obtain ⟨v, hv1, hv2⟩ := hmem _ _ hmz
    obtain ⟨i, hi, hi2⟩ := List.getElem_of_mem hmf
    have hlen2 := ho.vars.length_eq
    obtain ⟨g1, fs, g2, g3⟩ := ho.vars.get hi (hlen2 ▸ hi)
    have hi3 : ((names.zip x.value).filter fun nc => nc.1 ≠ vertParam names).get ⟨i, hi⟩ = (n, x.value[k]'(by omega)) := hi2
    rw [hi3] at g1 g2
    dsimp only at g1 g2
    rw [hv2] at g2
    refine ⟨v, hv1, fs, hclean v fs g2, ?_⟩
    rw [if_neg hv]
    have : o.vars.get ⟨i, hlen2 ▸ hi⟩ = (lower n, HVal.arr fs) := Prod.ext g1 g3
    rw [← this]
    exact List.get_mem _ _

/-- C28 for soundings: only the first four characters of an identifier come back. -/
theorem C28_sounding_id (env : NumEnv ρ κ) (lower : Text → Text) (names : List Text) (r : AddReq κ (List ρ)) (x : Entry κ (List (List ρ)))
    (o : SnObj) (hx : snEntry env names r = some x) (ho : IsSounding env lower names x o) (i : StationInfo) (id : Text)
    (hi : r.info = some i) (hid : i.stationId = some id) : o.stationId = .text ((env.upper id).take 4) := by
  obtain ⟨lat, lon, d, c, _, _, _, _, rfl⟩ := snEntry_cases hx
  rw [ho.stationId]
  have : (describe env.upper r.info lat lon d c 0 (columnsOf env names r.data)).id = (env.upper id).take 8 := by
    rw [hi]
    unfold describe
    dsimp only
    rw [hid]; rfl
  rw [this, List.take_take]
  rfl

/-- C29 for soundings. -/
theorem C29_sounding (env : NumEnv ρ ℚ) (fl : ℚ → ℚ) (hfl : Rounding fl) (hcenti : ∀ x, env.centi x = .ok (truncQ (fl (x * 100))))
    (lower : Text → Text) (names : List Text) (x : Entry ℚ (List (List ρ))) (o : SnObj) (ho : IsSounding env lower names x o)
    (hlat : |x.lat| ≤ 90) (hlon : |x.lon| ≤ 360) :
    ∃ lat lon : Int, o.lat = .coord lat ∧ o.lon = .coord lon ∧ |x.lat - lat / 100| < 1 / 100 ∧ |x.lon - lon / 100| < 1 / 100 := by
  obtain ⟨n, h1, h2⟩ := ho.lat
  obtain ⟨m, h3, h4⟩ := ho.lon
  rw [hcenti] at h1 h3
  have h1 := Except.ok.inj h1
  have h3 := Except.ok.inj h3
  refine ⟨n, m, h2, h4, ?_, ?_⟩
  · rw [← h1]; exact trunc_close hfl _ (by linarith)
  · rw [← h3]; exact trunc_close hfl _ (by linarith)

/-! ## A concrete history -/

/-- Two soundings, the first one given twice. -/
def someSoundings : List (AddReq Int (List F32)) :=
  [⟨[(txt "PRES", [1000, 500]), (txt "TMPC", [10, 3])], some 40, some (-105), .dt ⟨2020, 2, 29⟩ ⟨12, 0, 0, 0⟩, some ⟨some (txt "DNR"), some 72469, none, none, none, none⟩⟩,
   ⟨[(txt "TMPC", [1, 2, 3]), (txt "PRES", [9, 8, 7])], some 35, some (-97), .dt ⟨2020, 2, 29⟩ ⟨0, 0, 0, 0⟩, none⟩,
   ⟨[(txt "PRES", [900]), (txt "TMPC", [1, 2])], some 35, some (-97), .dt ⟨2020, 2, 29⟩ ⟨12, 0, 0, 0⟩, none⟩,
   ⟨[(txt "PRES", [1001]), (txt "TMPC", [11])], some 40, some (-105), .dt ⟨2020, 2, 29⟩ ⟨12, 0, 0, 0⟩, some ⟨some (txt "DNR"), some 72469, none, none, none, none⟩⟩]

/-- The two parameters. -/
def snTwo : List Text := [txt "PRES", txt "TMPC"]

/-- The entries: the third request has columns of different lengths. -/
theorem snTwoEntries : someSoundings.filterMap (snEntry intEnv snTwo) =
    [⟨⟨2020, 2, 29⟩, ⟨12, 0, 0, 0⟩, txt "DNR", 72469, 40, -105, -9999, [], [], 0, [[1000, 500], [10, 3]]⟩,
     ⟨⟨2020, 2, 29⟩, ⟨0, 0, 0, 0⟩, [], -9999, 35, -97, -9999, [], [], 0, [[9, 8, 7], [1, 2, 3]]⟩,
     ⟨⟨2020, 2, 29⟩, ⟨12, 0, 0, 0⟩, txt "DNR", 72469, 40, -105, -9999, [], [], 0, [[1001], [11]]⟩] := by
  decide +kernel

/-- Every hypothesis of the theorems above is met by this history. -/
example : ∃ out, SoundingOutput intEnv id id snTwo someSoundings out ∧ out.length = 2 := by
  have hnew : newBuilder intEnv snTwo = .ok (⟨snTwo, ⟨[]⟩, ⟨[]⟩, [], 0, 0, [], []⟩ : Builder Int (List (List F32))) := rfl
  have hn : SoundingNames id snTwo := by
    constructor <;> decide +kernel
  have hleg : ∀ x ∈ someSoundings.filterMap (snEntry intEnv snTwo), x.Legible := by
    rw [snTwoEntries]
    intro x hx
    simp only [List.mem_cons, List.not_mem_nil, or_false] at hx
    rcases hx with rfl | rfl | rfl <;> constructor <;> decide +kernel
  have hw : ∀ x ∈ someSoundings.filterMap (snEntry intEnv snTwo), x.Writable intEnv := by
    rw [snTwoEntries]
    intro x hx
    simp only [List.mem_cons, List.not_mem_nil, or_false] at hx
    rcases hx with rfl | rfl | rfl <;>
      exact ⟨by decide, by decide, by decide, ⟨_, rfl, by decide⟩, _, rfl, by decide⟩
  have hpos : ∀ x ∈ someSoundings.filterMap (snEntry intEnv snTwo), ∀ c ∈ x.value, c ≠ [] := by
    rw [snTwoEntries]; decide +kernel
  have hcap : headers (someSoundings.filterMap (snEntry intEnv snTwo)) ≤ 32000 := by
    rw [snTwoEntries]; decide +kernel
  have hne : someSoundings.filterMap (snEntry intEnv snTwo) ≠ [] := by rw [snTwoEntries]; simp
  obtain ⟨bytes, hs⟩ := C15_saves intEnv snTwo _ someSoundings .big hnew hcap (fun x hx => ⟨(hleg x hx).date, (hleg x hx).clock⟩)
    hw (fun _ _ _ _ v _ => ⟨v, rfl⟩) (by decide +kernel)
  obtain ⟨g, out, es, h1, h2, h3, h4⟩ := C15_round_trip_partial intEnv id id snTwo _ someSoundings .big .little bytes hnew
    hcap hn hleg hpos hne hs
  refine ⟨out, ⟨hn, hleg, hpos, hcap, hne, ⟨_, _, _, _, bytes, g, hnew, rfl, hs, h1, h2⟩⟩, ?_⟩
  rw [← h4.length_eq, h3.length_eq, snTwoEntries]
  decide +kernel

end Gempak
