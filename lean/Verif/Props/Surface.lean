import Verif.Proof.Order
import Mathlib.Data.Rat.Floor
import Mathlib.Tactic.Linarith
import Verif.Proof.SurfaceReport
import Verif.Proof.StationSave
import Verif.Props.Station

/-!
# Surface files: writing, saving and reading back (C14, C17, C18, C28, C29)
-/

namespace Gempak
open Spec

set_option linter.unusedSectionVars false

variable {ρ κ : Type} [DecidableEq κ]

theorem sfEntry_length {env : NumEnv ρ κ} {names : List Text} {r : AddReq κ ρ} {e : Entry κ (List ρ)} (h : sfEntry env names r = some e) :
    e.value.length = names.length := by
  unfold sfEntry at h
  split at h
  · split at h
    · rename_i hc
      injection h with h
      subst h
      have : ∀ (i : Option StationInfo) (lat lon : κ) x c p (v : List ρ), (describe env.upper i lat lon x c p v).value = v := by
        intro i; cases i <;> intros <;> rfl
      rw [this]
      unfold valuesOf
      have : ∀ l : List Text, (∀ n ∈ l, n ∈ names) → (l.filterMap fun n => (given env.upper r.data n).map env.clean).length = l.length := by
        intro l
        induction l with
        | nil => intro _; rfl
        | cons n l ih =>
          intro hl
          obtain ⟨kv, h1, h2⟩ := hc.2 n (hl n List.mem_cons_self)
          have hg : (given env.upper r.data n).isSome := by
            unfold given
            rw [Option.isSome_map, List.find?_isSome]
            exact ⟨kv, List.mem_reverse.2 h1, by simpa using h2⟩
          obtain ⟨v, hv⟩ := Option.isSome_iff_exists.1 hg
          rw [List.filterMap_cons_some (b := env.clean v) (by rw [hv]; rfl), List.length_cons, List.length_cons,
            ih fun m hm => hl m (List.mem_cons_of_mem _ hm)]
      exact this names fun _ h => h
    · cases h
  · cases h

/-- No criteria: everything, or `KeyError` when there is nothing. -/
theorem selectSites_all (upper : Text → Text) (arg : StrArg → List Text) (l : List SiteInfo) :
    selectSites upper arg {} l = if l.length < 1 then .error .keyError else .ok l := rfl

theorem le_trans_info (a b c : SiteInfo) : SiteInfo.le a b = true → SiteInfo.le b c = true → SiteInfo.le a c = true := by
  unfold SiteInfo.le
  simp only [decide_eq_true_eq]
  omega

/-- What `sfjson` gives for a written file, cell by cell. -/
theorem surface_read {e host : Endian} {bytes : Bytes} {env : NumEnv ρ κ} {lower : Text → Text} {es : List (Entry κ (List ρ))}
    {names : List Text} {b : Builder κ (List ρ)} (hist : History env names (es.map fun e => (e.place, e.value)) b)
    (hcap : b.rows + b.columns ≤ mmhdrs) (hn : SurfaceNames lower names) (hes : ∀ x ∈ es, x.Legible)
    (hlen : ∀ x ∈ es, x.value.length = names.length) (hs : save e (surfaceFile env b) = .ok bytes) :
    ∃ (g : SurfaceReader) (P : List (Pair κ)), openSurface host bytes = .ok g ∧ P.Perm (kept b) ∧ g.sfinfo = P.map (infoOf env true) ∧
      ∀ p ∈ P, ∃ vs, cellOf b p = some vs ∧ vs.length = names.length ∧
        g.unpackCell p.1.2 p.2.2 = .ok [reportOf env names p vs] ∧
        sfObject lower (reportOf env names p vs) = .ok (objOf env lower names p vs) ∧
        dictGet (reportOf env names p vs) (txt "SPCL") = none ∧ (∀ v ∈ vs, ∃ f, env.f32 v = .ok f) ∧
        (∃ n, env.centi p.2.1.slat = .ok n) ∧ ∃ n, env.centi p.2.1.slon = .ok n := by
  obtain ⟨hr, hc⟩ := hist.dims hcap
  have hleg := legible_of hist hcap hn.legible hes
  obtain ⟨bk, ho⟩ := openSurface_spec (host := host) hr hc hleg hs
  refine ⟨_, (kept b).mergeSort fun p q => SiteInfo.le (infoOf env true p) (infoOf env true q), ho, List.mergeSort_perm _ _, ?_, ?_⟩
  · unfold SurfaceReader.sfinfo
    rw [List.map_mergeSort]
    intro _ _ _ _; rfl
  · intro p hp
    rw [(List.mergeSort_perm _ _).mem_iff] at hp
    obtain ⟨hp1, hp2⟩ := List.mem_filter.1 hp
    obtain ⟨vs, hvs⟩ := Option.isSome_iff_exists.1 hp2
    have hl : vs.length = names.length := by
      have hm : ((p.1.1, p.2.1), vs) ∈ (kept b).map (content b) :=
        List.mem_map.2 ⟨p, hp, by unfold content; rw [hvs]; rfl⟩
      rw [(kept_perm hist hcap).mem_iff] at hm
      obtain ⟨x, hx, hx2⟩ := List.mem_map.1 hm
      have : x.value = vs := (Prod.mk.inj hx2).2
      rw [← this]
      exact hlen x (final_sub hx)
    have hn' : SurfaceNames lower b.names := by rw [hist.names]; exact hn
    obtain ⟨hu, hf⟩ := unpackCell_spec (bk := bk) (infos := (kept b).map (infoOf env true)) hr hc hn' hs hp1 hvs
      (by rw [hist.names]; exact hl)
    rw [hist.names] at hu
    obtain ⟨_, h2⟩ := mem_pairs.1 hp1
    obtain ⟨ws, hws⟩ := saved_coords (env := env) (sfStation (env := env) hr hc) hs (List.mem_of_getElem? h2)
    obtain ⟨lat, lon, c1, c2, _⟩ := sfColWords_inv hws
    exact ⟨vs, hvs, hl, hu, sfObject_spec hn p hl, report_spcl hn p hl, hf, ⟨lat, c1⟩, lon, c2⟩

/-- The object of a cell is the report of the entry put there. -/
theorem objOf_report {env : NumEnv ρ κ} {lower : Text → Text} {names : List Text} {p : Pair κ} {vs : List ρ} {x : Entry κ (List ρ)}
    (hx : (x.place, x.value) = ((p.1.1, p.2.1), vs)) (hl : vs.length = names.length) (hf : ∀ v ∈ vs, ∃ f, env.f32 v = .ok f)
    (hlat : ∃ n, env.centi p.2.1.slat = .ok n) (hlon : ∃ n, env.centi p.2.1.slon = .ok n) :
    IsReport env lower names x (objOf env lower names p vs) := by
  obtain ⟨⟨row, i⟩, ⟨col, j⟩⟩ := p
  dsimp only at *
  obtain ⟨h1, h2⟩ := Prod.mk.inj hx
  obtain ⟨h3, h4⟩ := Prod.mk.inj h1
  subst h2 h3 h4
  obtain ⟨n, hn⟩ := hlat
  obtain ⟨m, hm⟩ := hlon
  refine ⟨rfl, List.take_append_drop 4 x.id, rfl, ⟨n, hn, ?_⟩, ⟨m, hm, ?_⟩, rfl, rfl, rfl, rfl, ?_, ?_⟩
  · show HVal.coord (centiD env _) = _
    rw [centiD_ok hn]
  · show HVal.coord (centiD env _) = _
    rw [centiD_ok hm]
  · show ((itemsOf env names x.value).map fun kv => (lower kv.1, kv.2)).map Prod.fst = _
    rw [List.map_map]
    conv_rhs => rw [← items_fst (env := env) hl, List.map_map]
    rfl
  · show List.Forall₂ _ _ (((itemsOf env names x.value).map fun kv => (lower kv.1, kv.2)).map Prod.snd)
    rw [List.map_map]
    have : (itemsOf env names x.value).map (Prod.snd ∘ fun kv => (lower kv.1, kv.2)) = (itemsOf env names x.value).map Prod.snd := rfl
    rw [this, items_snd hl]
    have : ∀ l : List ρ, (∀ v ∈ l, ∃ f, env.f32 v = .ok f) → List.Forall₂ (IsFloat env) l ((f32s env l).map .flt) := by
      intro l
      induction l with
      | nil => intro _; exact .nil
      | cons v l ih =>
        intro h
        obtain ⟨f, hf⟩ := h v List.mem_cons_self
        refine .cons ⟨f, hf, ?_⟩ (ih fun w hw => h w (List.mem_cons_of_mem _ hw))
        dsimp only
        rw [hf]; rfl
    exact this _ hf

/-- `C14_round_trip` with the order. -/
theorem surface_ordered (env : NumEnv ρ κ) (upper lower : Text → Text) (ps : List Text) (b0 : Builder κ (List ρ)) (rs : List (AddReq κ ρ))
    (e host : Endian) (bytes : Bytes) (special : Bool) (hnew : newBuilder env ps = .ok b0)
    (hcap : (run (addStation env) b0 rs).rows + (run (addStation env) b0 rs).columns ≤ 32000)
    (hn : SurfaceNames lower b0.names) (hes : ∀ x ∈ rs.filterMap (sfEntry env b0.names), x.Legible)
    (hne : rs.filterMap (sfEntry env b0.names) ≠ [])
    (hs : save e (surfaceFile env (run (addStation env) b0 rs)) = .ok bytes) :
    ∃ (g : SurfaceReader) (out : List SfObj) (es : List (Entry κ (List ρ))), openSurface host bytes = .ok g ∧ g.sfjson upper lower {} special = .ok out ∧
      es.Perm (final (rs.filterMap (sfEntry env b0.names))) ∧ List.Forall₂ (IsReport env lower b0.names) es out ∧
      es.Pairwise Entry.NotAfter ∧ (Ordered env.leK → es.Pairwise Entry.Before) := by
  have hist := run_station (History.new hnew) rs
  rw [List.nil_append] at hist
  have hlen : ∀ x ∈ rs.filterMap (sfEntry env b0.names), x.value.length = b0.names.length := by
    intro x hx
    obtain ⟨r, _, hr⟩ := List.mem_filterMap.1 hx
    exact sfEntry_length hr
  obtain ⟨g, P, ho, hP, hinfo, hcell⟩ := surface_read (host := host) hist hcap hn hes hlen hs
  have hperm := (hP.map (content (run (addStation env) b0 rs))).trans (kept_perm hist hcap)
  obtain ⟨es, he1, he2⟩ := perm_map_inv hperm
  have hPne : P ≠ [] := by
    rintro rfl
    rw [List.map_nil, List.map_eq_nil_iff] at he2
    subst he2
    obtain ⟨x, hx⟩ := List.exists_mem_of_ne_nil _ hne
    obtain ⟨y, hy, _⟩ := final_covers hx
    have := he1.symm.subset hy
    simp at this
  obtain ⟨val, hval⟩ : ∃ val : Pair κ → List ρ, ∀ p vs, cellOf (run (addStation env) b0 rs) p = some vs → val p = vs :=
    ⟨fun p => (cellOf (run (addStation env) b0 rs) p).getD [], fun p vs h => by dsimp only; rw [h]; rfl⟩
  refine ⟨g, P.map fun p => objOf env lower b0.names p (val p), es, ho, ?_, he1, ?_, entries_sorted hist hcap hP hinfo he2⟩
  · unfold SurfaceReader.sfjson
    rw [hinfo, selectSites_all, if_neg (by
      have := List.length_pos_of_ne_nil hPne
      rw [List.length_map]; omega), ok_bind]
    have m1 : (P.map (infoOf env true)).mapM (fun s => g.unpackCell s.row s.col) =
        .ok (P.map fun p => [reportOf env b0.names p (val p)]) := by
      rw [List.mapM_map]
      refine mapM_ok fun p hp => ?_
      obtain ⟨vs, h1, h2, h3, _⟩ := hcell p hp
      rw [hval p vs h1]
      exact h3
    rw [m1, ok_bind]
    have m2 : ((P.map fun p => [reportOf env b0.names p (val p)]).flatten.filter fun stn =>
        special || !(dictGet stn (txt "SPCL")).isSome) = P.map fun p => reportOf env b0.names p (val p) := by
      have : (P.map fun p => [reportOf env b0.names p (val p)]).flatten = P.map fun p => reportOf env b0.names p (val p) := by
        rw [← List.flatMap_def, ← List.map_eq_flatMap]
      rw [this, List.filter_eq_self]
      intro r hr
      obtain ⟨p, hp, rfl⟩ := List.mem_map.1 hr
      obtain ⟨vs, h1, _, _, _, h5, _⟩ := hcell p hp
      rw [hval p vs h1, h5]
      simp
    rw [m2, List.mapM_map]
    refine mapM_ok fun p hp => ?_
    obtain ⟨vs, h1, h2, h3, h4, _⟩ := hcell p hp
    show sfObject lower (reportOf env b0.names p (val p)) = .ok (objOf env lower b0.names p (val p))
    rw [hval p vs h1]
    exact h4
  · refine forall₂_of_maps (g := content (run (addStation env) b0 rs)) (h := fun x : Entry κ (List ρ) => (x.place, x.value)) he2 ?_
    intro p hp x hx
    obtain ⟨vs, h1, h2, h3, h4, h5, h6, h7, h8⟩ := hcell p hp
    have hx' : (x.place, x.value) = ((p.1.1, p.2.1), vs) := by
      have h9 : content (run (addStation env) b0 rs) p = ((p.1.1, p.2.1), vs) := by
        unfold content; rw [h1, Option.getD_some]
      exact Eq.trans hx h9
    rw [hval p vs h1]
    exact objOf_report hx' h2 h6 h7 h8

/-- C14, C17: after any sequence of `add_station` calls on a new file, whatever is written comes back: `sfjson` on the saved
bytes gives exactly one report for every surviving request and nothing else, with its time, site and every parameter in single
precision.  Of requests with equal metadata the last one survives; rejected requests leave no trace. -/
theorem C14_round_trip (env : NumEnv ρ κ) (upper lower : Text → Text) (ps : List Text) (b0 : Builder κ (List ρ)) (rs : List (AddReq κ ρ))
    (e host : Endian) (bytes : Bytes) (special : Bool) (hnew : newBuilder env ps = .ok b0)
    (hcap : (run (addStation env) b0 rs).rows + (run (addStation env) b0 rs).columns ≤ 32000)
    (hn : SurfaceNames lower b0.names) (hes : ∀ x ∈ rs.filterMap (sfEntry env b0.names), x.Legible)
    (hne : rs.filterMap (sfEntry env b0.names) ≠ [])
    (hs : save e (surfaceFile env (run (addStation env) b0 rs)) = .ok bytes) :
    ∃ (g : SurfaceReader) (out : List SfObj) (es : List (Entry κ (List ρ))), openSurface host bytes = .ok g ∧ g.sfjson upper lower {} special = .ok out ∧
      es.Perm (final (rs.filterMap (sfEntry env b0.names))) ∧ List.Forall₂ (IsReport env lower b0.names) es out := by
  obtain ⟨g, out, es, h1, h2, h3, h4, _⟩ := surface_ordered env upper lower ps b0 rs e host bytes special hnew hcap hn hes hne hs
  exact ⟨g, out, es, h1, h2, h3, h4⟩

/-- C14: saving succeeds whenever the numbers fit their words, every value has a single precision form, and the file stays below
2³¹ words. -/
theorem C14_saves (env : NumEnv ρ κ) (ps : List Text) (b0 : Builder κ (List ρ)) (rs : List (AddReq κ ρ)) (e : Endian)
    (hnew : newBuilder env ps = .ok b0) (hcap : headers (rs.filterMap (sfEntry env b0.names)) ≤ 32000)
    (hdate : ∀ x ∈ rs.filterMap (sfEntry env b0.names), x.date.Valid ∧ x.clock.Valid)
    (hw : ∀ x ∈ rs.filterMap (sfEntry env b0.names), x.Writable env)
    (hf : ∀ x ∈ rs.filterMap (sfEntry env b0.names), ∀ v ∈ x.value, ∃ f, env.f32 v = .ok f)
    (hsize : (run (addStation env) b0 rs).rows * (run (addStation env) b0 rs).columns * (b0.names.length + 3) ≤ 2 ^ 30) :
    ∃ bytes, save e (surfaceFile env (run (addStation env) b0 rs)) = .ok bytes := by
  have hist := run_station (History.new hnew) rs
  rw [List.nil_append] at hist
  refine surface_saves hist (by rw [hist.headers_eq]; exact hcap) hdate hw hf ?_ ((C19_parameters env ps).1 b0 hnew) hsize e
  intro x hx
  obtain ⟨r, _, hr⟩ := List.mem_filterMap.1 hx
  exact sfEntry_length hr

/-- C14: a file without accepted requests has no reports: `KeyError`. -/
theorem C14_empty (env : NumEnv ρ κ) (upper lower : Text → Text) (ps : List Text) (b0 : Builder κ (List ρ)) (rs : List (AddReq κ ρ))
    (e host : Endian) (bytes : Bytes) (special : Bool) (hnew : newBuilder env ps = .ok b0) (hn : SurfaceNames lower b0.names)
    (hnone : ∀ r ∈ rs, sfEntry env b0.names r = none)
    (hs : save e (surfaceFile env (run (addStation env) b0 rs)) = .ok bytes) :
    ∃ g : SurfaceReader, openSurface host bytes = .ok g ∧ g.sfinfo = [] ∧ g.sfjson upper lower {} special = .error .keyError := by
  have hist := run_station (History.new hnew) rs
  have hnil : rs.filterMap (sfEntry env b0.names) = [] := List.filterMap_eq_nil_iff.2 hnone
  rw [List.nil_append, hnil] at hist
  have hist' : History env b0.names (([] : List (Entry κ (List ρ))).map fun e => (e.place, e.value)) (run (addStation env) b0 rs) := hist
  have hcap : (run (addStation env) b0 rs).rows + (run (addStation env) b0 rs).columns ≤ mmhdrs := by
    rw [hist'.headers_eq]; exact Nat.zero_le _
  obtain ⟨g, P, ho, hP, hinfo, _⟩ := surface_read (host := host) hist' hcap hn (by simp) (by simp) hs
  have hP0 : P = [] := by
    have := (hP.map (content (run (addStation env) b0 rs))).trans (kept_perm hist' hcap)
    have := this.length_eq
    rw [List.length_map, List.length_map, show final ([] : List (Entry κ (List ρ))) = [] from rfl] at this
    exact List.length_eq_zero_iff.1 this
  subst hP0
  refine ⟨g, ho, hinfo, ?_⟩
  unfold SurfaceReader.sfjson
  rw [hinfo]; rfl

/-! ## One report per key, the last one -/

/-- C17: what survives: the requests with no later one for the same report. -/
theorem C17_survivors {β : Type} (es : List (Entry κ β)) (x : Entry κ β) :
    x ∈ final es ↔ ∃ pre post, es = pre ++ x :: post ∧ ∀ y ∈ post, ¬ x.SameKey y := by
  induction es with
  | nil => simp [final]
  | cons a r ih =>
    rw [final_cons]
    have hshift : (∃ pre post, r = pre ++ x :: post ∧ ∀ y ∈ post, ¬ x.SameKey y) →
        ∃ pre post, a :: r = pre ++ x :: post ∧ ∀ y ∈ post, ¬ x.SameKey y := by
      rintro ⟨pre, post, rfl, h⟩
      exact ⟨a :: pre, post, rfl, h⟩
    have hback : (∃ pre post, a :: r = pre ++ x :: post ∧ ∀ y ∈ post, ¬ x.SameKey y) →
        (x = a ∧ ∀ y ∈ r, ¬ a.SameKey y) ∨ ∃ pre post, r = pre ++ x :: post ∧ ∀ y ∈ post, ¬ x.SameKey y := by
      rintro ⟨pre, post, h, hp⟩
      cases pre with
      | nil =>
        obtain ⟨rfl, rfl⟩ := List.cons.inj h
        exact Or.inl ⟨rfl, hp⟩
      | cons b pre =>
        obtain ⟨_, h⟩ := List.cons.inj h
        exact Or.inr ⟨pre, post, h, hp⟩
    split
    · rename_i hex
      rw [ih]
      refine ⟨hshift, fun h => ?_⟩
      rcases hback h with ⟨rfl, h⟩ | h
      · obtain ⟨y, hy, hs⟩ := hex
        exact absurd hs (h y hy)
      · exact h
    · rename_i hex
      rw [List.mem_cons, ih]
      constructor
      · rintro (rfl | h)
        · exact ⟨[], r, rfl, fun y hy hs => hex ⟨y, hy, hs⟩⟩
        · exact hshift h
      · intro h
        rcases hback h with ⟨rfl, _⟩ | h
        · exact Or.inl rfl
        · exact Or.inr h

/-- C17: adding a report again never makes a second entry: survivors concern different reports; and a further request changes
the survivors for no other report. -/
theorem C17_other_keys {β : Type} (es : List (Entry κ β)) (x : Entry κ β) :
    (final es).Pairwise (fun a b => ¬ a.SameKey b) ∧
      ∀ y, ¬ y.SameKey x → (y ∈ final (es ++ [x]) ↔ y ∈ final es) := by
  constructor
  · have := final_nodup es
    rw [List.Nodup, List.pairwise_map] at this
    exact this.imp fun h hs => h ((sameKey_iff _ _).1 hs)
  · intro y hy
    rw [C17_survivors, C17_survivors]
    constructor
    · rintro ⟨pre, post, h, hp⟩
      rcases List.eq_nil_or_concat post with rfl | ⟨post', z, rfl⟩
      · obtain ⟨_, h2⟩ := List.append_inj' h rfl
        rw [List.singleton_inj] at h2
        subst h2
        exact absurd ((sameKey_iff _ _).2 rfl) hy
      · rw [List.concat_eq_append] at *
        have h' : es ++ [x] = (pre ++ y :: post') ++ [z] := by rw [h]; simp
        obtain ⟨h1, h2⟩ := List.append_inj' h' rfl
        exact ⟨pre, post', h1, fun w hw => hp w (List.mem_append_left _ hw)⟩
    · rintro ⟨pre, post, rfl, hp⟩
      refine ⟨pre, post ++ [x], by simp, ?_⟩
      intro w hw
      rcases List.mem_append.1 hw with hw | hw
      · exact hp w hw
      · rw [List.mem_singleton] at hw
        subst hw
        exact hy

/-- What `sfjson` gives for the saved file of a history of calls. -/
structure SurfaceOutput (env : NumEnv ρ κ) (upper lower : Text → Text) (names : List Text) (rs : List (AddReq κ ρ)) (out : List SfObj) : Prop where
  /-- The names of the parameters do not clash with anything. -/
  clear : SurfaceNames lower names
  /-- Dates exist and names fit their words. -/
  legible : ∀ x ∈ rs.filterMap (sfEntry env names), x.Legible
  /-- The limit of headers is not exceeded. -/
  small : headers (rs.filterMap (sfEntry env names)) ≤ 32000
  /-- Something was accepted. -/
  some : rs.filterMap (sfEntry env names) ≠ []
  /-- A new file, the calls, `to_gempak`, opening, `sfjson`. -/
  saved : ∃ (ps : List Text) (b0 : Builder κ (List ρ)) (e host : Endian) (bytes : Bytes) (g : SurfaceReader) (special : Bool),
    newBuilder env ps = .ok b0 ∧ b0.names = names ∧ save e (surfaceFile env (run (addStation env) b0 rs)) = .ok bytes ∧
      openSurface host bytes = .ok g ∧ g.sfjson upper lower {} special = .ok out

/-- The round trip for such an output. -/
theorem SurfaceOutput.reports {env : NumEnv ρ κ} {upper lower : Text → Text} {names : List Text} {rs : List (AddReq κ ρ)} {out : List SfObj}
    (h : SurfaceOutput env upper lower names rs out) :
    ∃ es : List (Entry κ (List ρ)), es.Perm (final (rs.filterMap (sfEntry env names))) ∧ List.Forall₂ (IsReport env lower names) es out := by
  obtain ⟨ps, b0, e, host, bytes, g, special, hnew, rfl, hs, ho, hj⟩ := h.saved
  have hist := run_station (History.new hnew) rs
  rw [List.nil_append] at hist
  obtain ⟨g', out', es, h1, h2, h3, h4⟩ := C14_round_trip env upper lower ps b0 rs e host bytes special hnew
    (by rw [hist.headers_eq]; exact h.small) h.clear h.legible h.some hs
  rw [ho] at h1
  have := Except.ok.inj h1
  subst this
  rw [hj] at h2
  have := Except.ok.inj h2
  subst this
  exact ⟨es, h3, h4⟩

/-- C17: a request not followed by another one for the same report is the one reported; there are exactly as many reports as
different keys. -/
theorem C17_last_wins (env : NumEnv ρ κ) (upper lower : Text → Text) (names : List Text) (pre post : List (AddReq κ ρ)) (r : AddReq κ ρ)
    (x : Entry κ (List ρ)) (out : List SfObj) (h : SurfaceOutput env upper lower names (pre ++ r :: post) out)
    (hx : sfEntry env names r = some x) (hpost : ∀ y ∈ post.filterMap (sfEntry env names), ¬ x.SameKey y) :
    (∃ o ∈ out, IsReport env lower names x o) ∧
      out.length = (final ((pre ++ r :: post).filterMap (sfEntry env names))).length := by
  obtain ⟨es, h1, h2⟩ := h.reports
  constructor
  · have : x ∈ es := by
      rw [h1.mem_iff, C17_survivors]
      refine ⟨pre.filterMap (sfEntry env names), post.filterMap (sfEntry env names), ?_, hpost⟩
      rw [List.filterMap_append, List.filterMap_cons_some hx]
    obtain ⟨i, hi, rfl⟩ := List.getElem_of_mem this
    exact ⟨out[i]'(h2.length_eq ▸ hi), List.getElem_mem _, h2.get hi _⟩
  · rw [← h2.length_eq, h1.length_eq]

/-! ## Values -/

/-- C18: every value is reported under the lower-case name of its parameter: the missing value for not-a-number, otherwise the
single precision form of what was given. -/
theorem C18_values (env : NumEnv ρ κ) (lower : Text → Text) (names : List Text) (r : AddReq κ ρ) (x : Entry κ (List ρ)) (o : SfObj)
    (hx : sfEntry env names r = some x) (ho : IsReport env lower names x o) (n : Text) (hn : n ∈ names) :
    ∃ v, given env.upper r.data n = some v ∧ ∃ f, (lower n, HVal.flt f) ∈ o.values ∧
      if env.isNaN v then f = missingF32 else env.f32 v = .ok f := by
  have hc : Complete env.upper names r.data ∧ x.value = valuesOf env names r.data := by
    unfold sfEntry at hx
    split at hx
    · split at hx
      · rename_i hc
        have := Option.some.inj hx
        subst this
        exact ⟨hc, (describe_row _ _ _ _ _ _ _ _).2⟩
      · cases hx
    · cases hx
  obtain ⟨hc, hv⟩ := hc
  have hg : ∀ m ∈ names, ∃ v, given env.upper r.data m = some v := by
    intro m hm
    obtain ⟨kv, h1, h2⟩ := hc.2 m hm
    apply Option.isSome_iff_exists.1
    unfold given
    rw [Option.isSome_map, List.find?_isSome]
    exact ⟨kv, List.mem_reverse.2 h1, by simpa using h2⟩
  obtain ⟨v, hgv⟩ := hg n hn
  refine ⟨v, hgv, ?_⟩
  have hvals : ∀ l : List Text, (∀ m ∈ l, m ∈ names) → ∀ (i : Nat) (m : Text) (w : ρ), l[i]? = some m → given env.upper r.data m = some w →
      (l.filterMap fun n => (given env.upper r.data n).map env.clean)[i]? = some (env.clean w) := by
    intro l
    induction l with
    | nil => intro _ i m w h; simp at h
    | cons a l ih =>
      intro hl i m w h hw
      obtain ⟨u, hu⟩ := hg a (hl a List.mem_cons_self)
      rw [List.filterMap_cons_some (b := env.clean u) (by rw [hu]; rfl)]
      cases i with
      | zero =>
        rw [List.getElem?_cons_zero] at h ⊢
        have := Option.some.inj h
        subst this
        rw [hu] at hw
        rw [Option.some.inj hw]
      | succ i =>
        rw [List.getElem?_cons_succ] at h ⊢
        exact ih (fun m hm => hl m (List.mem_cons_of_mem _ hm)) i m w h hw
  obtain ⟨i, hi, hi2⟩ := List.getElem_of_mem hn
  have hni : names[i]? = some n := by rw [List.getElem?_eq_getElem hi, hi2]
  have h1 := hvals names (fun _ h => h) i n v hni hgv
  have h2 : x.value[i]? = some (env.clean v) := by rw [hv]; exact h1
  obtain ⟨hi3, hi4⟩ := List.getElem?_eq_some_iff.1 h2
  have h3 := ho.values
  have hi5 : i < (o.values.map Prod.snd).length := h3.length_eq ▸ hi3
  obtain ⟨f, hf1, hf2⟩ := h3.get hi3 hi5
  have hi6 : i < o.values.length := by rwa [List.length_map] at hi5
  refine ⟨f, ?_, ?_⟩
  · have hk : (o.values.map Prod.fst)[i]? = (names.map lower)[i]? := by rw [ho.keys]
    rw [List.getElem?_map, List.getElem?_map, hni, List.getElem?_eq_getElem hi6] at hk
    have hk' : o.values[i].1 = lower n := Option.some.inj hk
    have hf3 : o.values[i].2 = .flt f := by
      rw [← hf2, List.get_eq_getElem, List.getElem_map]
    have : o.values[i] = (lower n, HVal.flt f) := Prod.ext hk' hf3
    rw [← this]
    exact List.getElem_mem _
  · rw [List.get_eq_getElem, hi4] at hf1
    unfold NumEnv.clean at hf1
    split
    · rename_i hnan
      rw [if_pos hnan, env.f32_missing] at hf1
      exact (Except.ok.inj hf1).symm
    · rename_i hnan
      rw [if_neg hnan] at hf1
      exact hf1

/-- C18, from the call to the report. -/
theorem C18_nan (env : NumEnv ρ κ) (upper lower : Text → Text) (names : List Text) (pre post : List (AddReq κ ρ)) (r : AddReq κ ρ)
    (x : Entry κ (List ρ)) (out : List SfObj) (h : SurfaceOutput env upper lower names (pre ++ r :: post) out)
    (hx : sfEntry env names r = some x) (hpost : ∀ y ∈ post.filterMap (sfEntry env names), ¬ x.SameKey y) :
    ∃ o ∈ out, IsReport env lower names x o ∧ ∀ n ∈ names, ∀ v, given env.upper r.data n = some v →
      ∃ f, (lower n, HVal.flt f) ∈ o.values ∧ if env.isNaN v then f = missingF32 else env.f32 v = .ok f := by
  obtain ⟨⟨o, ho, hr⟩, _⟩ := C17_last_wins env upper lower names pre post r x out h hx hpost
  refine ⟨o, ho, hr, ?_⟩
  intro n hn v hv
  obtain ⟨w, hw, hf⟩ := C18_values env lower names r x o hx hr n hn
  rw [hv] at hw
  rw [Option.some.inj hw]
  exact hf

/-! ## Identifiers and coordinates -/

/-- C28: a station identifier is reported in upper case, cut after eight characters; so unchanged (but for case) when it has no
more than eight. -/
theorem C28_station_id (env : NumEnv ρ κ) (lower : Text → Text) (names : List Text) (r : AddReq κ ρ) (x : Entry κ (List ρ)) (o : SfObj)
    (hx : sfEntry env names r = some x) (ho : IsReport env lower names x o) (i : StationInfo) (id : Text) (hi : r.info = some i)
    (hid : i.stationId = some id) :
    o.stationId = (env.upper id).take 8 ∧ ((env.upper id).length ≤ 8 → o.stationId = env.upper id) := by
  have h1 : x.id = (env.upper id).take 8 := by
    unfold sfEntry at hx
    split at hx
    · split at hx
      · have := Option.some.inj hx
        subst this
        rw [hi]
        unfold describe
        dsimp only
        rw [hid]; rfl
      · cases hx
    · cases hx
  rw [ho.stationId, h1]
  exact ⟨rfl, List.take_of_length_le⟩

/-- Rounding to floating point numbers: monotone, and exact for integers (of moderate size). -/
structure Rounding (fl : ℚ → ℚ) : Prop where
  mono : ∀ x y, x ≤ y → fl x ≤ fl y
  int : ∀ n : Int, |n| ≤ 2 ^ 53 → fl n = n

/-- `int(x)` drops the fraction. -/
def truncQ (q : ℚ) : Int := if 0 ≤ q then ⌊q⌋ else ⌈q⌉

/-- Truncating the rounded product: the result lies within a hundredth. -/
theorem trunc_close {fl : ℚ → ℚ} (hfl : Rounding fl) (x : ℚ) (hx : |x| ≤ 10 ^ 6) :
    |x - (truncQ (fl (x * 100)) : ℚ) / 100| < 1 / 100 := by
  obtain ⟨hx1, hx2⟩ := abs_le.1 hx
  have f1 := Int.floor_le (x * 100)
  have f2 := Int.lt_floor_add_one (x * 100)
  have f0 : |⌊x * 100⌋| ≤ (2 ^ 53 : Int) ∧ |⌊x * 100⌋ + 1| ≤ (2 ^ 53 : Int) := by
    have a1 : (-100000000 : Int) ≤ ⌊x * 100⌋ := Int.le_floor.2 (by push_cast; linarith)
    have a2 : ⌊x * 100⌋ < (100000001 : Int) := Int.floor_lt.2 (by push_cast; linarith)
    constructor <;> rw [abs_le] <;> constructor <;> omega
  have g1 := hfl.mono _ _ f1
  have g2 := hfl.mono _ _ f2.le
  rw [hfl.int _ f0.1] at g1
  have : ((⌊x * 100⌋ : ℚ) + 1) = ((⌊x * 100⌋ + 1 : Int) : ℚ) := by push_cast; rfl
  rw [this, hfl.int _ f0.2] at g2
  push_cast at g2
  generalize hy0 : fl (x * 100) = y at *
  generalize hk : ⌊x * 100⌋ = k at *
  have h1 : ⌊y⌋ = k ∨ ⌊y⌋ = k + 1 := by
    have a1 : k ≤ ⌊y⌋ := Int.le_floor.2 g1
    have a2 : ⌊y⌋ < k + 2 := Int.floor_lt.2 (by push_cast; linarith)
    omega
  have h2 : ⌈y⌉ = k ∨ ⌈y⌉ = k + 1 := by
    have a1 : k - 1 < ⌈y⌉ := Int.lt_ceil.2 (by push_cast; linarith)
    have a2 : ⌈y⌉ ≤ k + 1 := Int.ceil_le.2 (by push_cast; exact g2)
    omega
  have h3 : truncQ y = k ∨ truncQ y = k + 1 := by
    unfold truncQ
    split
    · exact h1
    · exact h2
  rw [abs_lt]
  rcases h3 with h | h
  · rw [h]; constructor <;> linarith
  · by_cases he : x * 100 = k
    · exfalso
      have hy : y = k := by
        rw [← hy0, he]
        exact hfl.int _ f0.1
      rw [hy] at h
      unfold truncQ at h
      rw [Int.floor_intCast, Int.ceil_intCast] at h
      split at h <;> omega
    · have : (k : ℚ) < x * 100 := lt_of_le_of_ne f1 (Ne.symm he)
      rw [h]; push_cast; constructor <;> linarith

/-- C29: the latitude and longitude reported, in hundredths of a degree, are less than a hundredth of a degree off, and never
beyond the (floating point) product `x * 100` as seen from zero.  `fl` is the rounding of the host's floating point product. -/
theorem C29_coordinates (env : NumEnv ρ ℚ) (fl : ℚ → ℚ) (hfl : Rounding fl) (hcenti : ∀ x, env.centi x = .ok (truncQ (fl (x * 100))))
    (lower : Text → Text) (names : List Text) (x : Entry ℚ (List ρ)) (o : SfObj) (ho : IsReport env lower names x o)
    (hlat : |x.lat| ≤ 90) (hlon : |x.lon| ≤ 360) :
    ∃ lat lon : Int, o.latitude = .coord lat ∧ o.longitude = .coord lon ∧ |x.lat - lat / 100| < 1 / 100 ∧ |x.lon - lon / 100| < 1 / 100 ∧
      |(lat : ℚ)| ≤ |fl (x.lat * 100)| ∧ |(lon : ℚ)| ≤ |fl (x.lon * 100)| := by
  have htr : ∀ q : ℚ, |(truncQ q : ℚ)| ≤ |q| := by
    intro q
    unfold truncQ
    split
    · rename_i h
      rw [abs_of_nonneg h, abs_of_nonneg (by exact_mod_cast Int.floor_nonneg.2 h)]
      exact Int.floor_le q
    · rename_i h
      have h : q < 0 := not_le.1 h
      have h2 : ((⌈q⌉ : Int) : ℚ) ≤ 0 := by exact_mod_cast Int.ceil_le.2 (by push_cast; exact h.le)
      rw [abs_of_neg h, abs_of_nonpos h2]
      have := Int.le_ceil q
      linarith
  obtain ⟨n, h1, h2⟩ := ho.latitude
  obtain ⟨m, h3, h4⟩ := ho.longitude
  rw [hcenti] at h1 h3
  have h1 := Except.ok.inj h1
  have h3 := Except.ok.inj h3
  refine ⟨n, m, h2, h4, ?_, ?_, ?_, ?_⟩
  · rw [← h1]; exact trunc_close hfl _ (by linarith)
  · rw [← h3]; exact trunc_close hfl _ (by linarith)
  · rw [← h1]; exact htr _
  · rw [← h3]; exact htr _

/-- Truncation to multiples of 1/1024 is such a rounding. -/
example : Rounding fun x => (⌊x * 1024⌋ : ℚ) / 1024 := by
  constructor
  · intro x y h
    have : ⌊x * 1024⌋ ≤ ⌊y * 1024⌋ := Int.floor_le_floor (by linarith)
    have : (⌊x * 1024⌋ : ℚ) ≤ ⌊y * 1024⌋ := by exact_mod_cast this
    linarith
  · intro n _
    have : ((n : ℚ) * 1024) = ((n * 1024 : Int) : ℚ) := by push_cast; rfl
    rw [this, Int.floor_intCast]
    push_cast
    ring

/-! ## A concrete history -/

/-- Two stations, one of them reported twice. -/
def someRequests : List (AddReq Int F32) :=
  [⟨[(txt "TMPF", 1), (txt "DWPF", 2)], some 40, some (-105), .dt ⟨2020, 2, 29⟩ ⟨12, 0, 0, 0⟩, some ⟨some (txt "KDENVER"), some 724690, none, none, none, none⟩⟩,
   ⟨[(txt "DWPF", 4), (txt "TMPF", 3)], some 35, some (-97), .dt ⟨2020, 2, 29⟩ ⟨12, 0, 0, 0⟩, none⟩,
   ⟨[(txt "TMPF", 5)], some 35, some (-97), .dt ⟨2020, 2, 29⟩ ⟨12, 0, 0, 0⟩, none⟩,
   ⟨[(txt "TMPF", 6), (txt "DWPF", 7)], some 40, some (-105), .dt ⟨2020, 2, 29⟩ ⟨12, 0, 0, 0⟩, some ⟨some (txt "KDENVER"), some 724690, none, none, none, none⟩⟩]

/-- The two parameters. -/
def someNames : List Text := [txt "TMPF", txt "DWPF"]

/-- The entries of the history: the third request lacks a parameter. -/
theorem someEntries : someRequests.filterMap (sfEntry intEnv someNames) =
    [⟨⟨2020, 2, 29⟩, ⟨12, 0, 0, 0⟩, txt "KDENVER", 724690, 40, -105, -9999, [], [], 0, [1, 2]⟩,
     ⟨⟨2020, 2, 29⟩, ⟨12, 0, 0, 0⟩, [], -9999, 35, -97, -9999, [], [], 0, [3, 4]⟩,
     ⟨⟨2020, 2, 29⟩, ⟨12, 0, 0, 0⟩, txt "KDENVER", 724690, 40, -105, -9999, [], [], 0, [6, 7]⟩] := by
  decide +kernel

/-- Every hypothesis of the theorems above is met by this history. -/
example : ∃ out, SurfaceOutput intEnv id id someNames someRequests out ∧ out.length = 2 := by
  have hnew : newBuilder intEnv someNames = .ok (⟨someNames, ⟨[]⟩, ⟨[]⟩, [], 0, 0, [], []⟩ : Builder Int (List F32)) := rfl
  have hn : SurfaceNames id someNames := by
    constructor <;> decide +kernel
  have hleg : ∀ x ∈ someRequests.filterMap (sfEntry intEnv someNames), x.Legible := by
    rw [someEntries]
    intro x hx
    simp only [List.mem_cons, List.not_mem_nil, or_false] at hx
    rcases hx with rfl | rfl | rfl <;> constructor <;> decide +kernel
  have hw : ∀ x ∈ someRequests.filterMap (sfEntry intEnv someNames), x.Writable intEnv := by
    rw [someEntries]
    intro x hx
    simp only [List.mem_cons, List.not_mem_nil, or_false] at hx
    rcases hx with rfl | rfl | rfl <;>
      exact ⟨by decide, by decide, by decide, ⟨_, rfl, by decide⟩, _, rfl, by decide⟩
  have hcap : headers (someRequests.filterMap (sfEntry intEnv someNames)) ≤ 32000 := by
    rw [someEntries]; decide +kernel
  have hne : someRequests.filterMap (sfEntry intEnv someNames) ≠ [] := by rw [someEntries]; simp
  have hist := run_station (History.new hnew) someRequests
  rw [List.nil_append] at hist
  obtain ⟨bytes, hs⟩ := C14_saves intEnv someNames _ someRequests .little hnew hcap (fun x hx => ⟨(hleg x hx).date, (hleg x hx).clock⟩)
    hw (fun _ _ v _ => ⟨v, rfl⟩) (by decide +kernel)
  obtain ⟨g, out, es, h1, h2, h3, h4⟩ := C14_round_trip intEnv id id someNames _ someRequests .little .little bytes true hnew
    (by rw [hist.headers_eq]; exact hcap) hn hleg hne hs
  refine ⟨out, ⟨hn, hleg, hcap, hne, ⟨_, _, _, _, bytes, g, true, hnew, rfl, hs, h1, h2⟩⟩, ?_⟩
  rw [← h4.length_eq, h3.length_eq, someEntries]
  decide +kernel

end Gempak
