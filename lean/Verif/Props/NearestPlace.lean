import Verif.Props.Nearest
import Verif.Props.Surface
import Verif.Props.Limits

/-!
# C104: `nearest_time` for an area
-/

namespace Gempak
open Spec

set_option linter.unusedSectionVars false

variable {ρ κ : Type} [DecidableEq κ]

/-- A file of surface reports saved from some requests and opened again. -/
structure Spec.SavedReports (env : NumEnv ρ κ) (lower : Text → Text) (ps : List Text) (rs : List (AddReq κ ρ)) (g : SurfaceReader)
    (names : List Text) : Prop where
  named : SurfaceNames lower names
  legible : ∀ x ∈ rs.filterMap (sfEntry env names), x.Legible
  room : headers (rs.filterMap (sfEntry env names)) ≤ 32000
  some : rs.filterMap (sfEntry env names) ≠ []
  saved : ∃ (b0 : Builder κ (List ρ)) (e host : Endian) (bytes : Bytes), newBuilder env ps = .ok b0 ∧ b0.names = names ∧
    save e (surfaceFile env (run (addStation env) b0 rs)) = .ok bytes ∧ openSurface host bytes = .ok g

/-- The reports that are in the file. -/
def Spec.filed (env : NumEnv ρ κ) (names : List Text) (rs : List (AddReq κ ρ)) : List (Entry κ (List ρ)) :=
  final (rs.filterMap (sfEntry env names))

theorem by_id {env : NumEnv ρ κ} {upper lower : Text → Text} {ps names : List Text} {rs : List (AddReq κ ρ)} {g : SurfaceReader} (special : Bool)
    (h : SavedReports env lower ps rs g names) :
    ∃ T : List (Entry κ (List ρ) × SiteInfo × SfObj), (T.map fun t => t.1).Perm (filed env names rs) ∧ g.sfinfo = T.map (fun t => t.2.1) ∧
      (∀ t ∈ T, IsListed env true t.1 t.2.1 ∧ IsReport env lower names t.1 t.2.2) ∧
      ∀ id, (∀ all, g.sfjson upper lower { stationId := some (.one id) } special = .ok all →
          all ≠ [] ∧ ∀ o, o ∈ all ↔ ∃ t ∈ T, t.2.2 = o ∧ t.1.id = upper id) ∧
        ((∀ y ∈ filed env names rs, y.id ≠ upper id) → g.sfjson upper lower { stationId := some (.one id) } special = .error .keyError) ∧
        ((∃ y ∈ filed env names rs, y.id = upper id) → ∃ all, g.sfjson upper lower { stationId := some (.one id) } special = .ok all) := by
  classical
  obtain ⟨b0, e, host, bytes, h1, rfl, h2, h3⟩ := h.saved
  obtain ⟨g', T, h4, h5, h6, h7, h8⟩ := C36_written env upper lower ps b0 rs e host bytes special h1 h.room h.named h.legible h.some h2
  obtain rfl : g = g' := Except.ok.inj (h3.symm.trans h4)
  refine ⟨T, h5, h6, h7, fun id => ?_⟩
  have key : ∀ t ∈ T, t.2.1 ∈ selected upper (Asks upper) { stationId := some (.one id) } g.sfinfo ↔ t.1.id = upper id := by
    intro t ht
    unfold selected
    rw [List.mem_filter, decide_eq_true_eq]
    have e := (h7 t ht).1.id
    rw [if_pos rfl] at e
    constructor
    · rintro ⟨_, hw⟩
      rw [← e]
      exact hw.id _ rfl
    · intro h9
      refine ⟨by rw [h6]; exact List.mem_map_of_mem ht, ⟨?_, ?_, ?_, ?_, ?_, ?_⟩⟩
      · intro a ha
        obtain rfl := Option.some.inj ha
        exact e.trans h9
      all_goals intro a ha; cases ha
  have sel : selected upper (Asks upper) { stationId := some (.one id) } g.sfinfo = [] ↔ ∀ y ∈ filed env b0.names rs, y.id ≠ upper id := by
    constructor
    · intro h0 y hy hy2
      obtain ⟨t, ht, rfl⟩ := List.mem_map.1 (h5.symm.subset hy)
      have := (key t ht).2 hy2
      rw [h0] at this
      cases this
    · intro h0
      by_contra hne
      obtain ⟨s, hs⟩ := List.exists_mem_of_ne_nil _ hne
      have hs' := selected_sub _ _ _ _ s hs
      rw [h6] at hs'
      obtain ⟨t, ht, rfl⟩ := List.mem_map.1 hs'
      exact h0 t.1 (h5.subset (List.mem_map_of_mem ht)) ((key t ht).1 hs)
  refine ⟨fun all hall => ?_, fun h0 => ?_, fun ⟨y, hy, hy2⟩ => ?_⟩
  · rw [h8] at hall
    by_cases h0 : selected upper (Asks upper) { stationId := some (.one id) } g.sfinfo = []
    · rw [if_pos h0] at hall; cases hall
    rw [if_neg h0] at hall
    obtain rfl := Except.ok.inj hall
    have hm : ∀ o, o ∈ ((T.filter fun t => decide (t.2.1 ∈ selected upper (Asks upper) { stationId := some (.one id) } g.sfinfo)).map fun t => t.2.2) ↔
        ∃ t ∈ T, t.2.2 = o ∧ t.1.id = upper id := by
      intro o
      rw [List.mem_map]
      constructor
      · rintro ⟨t, ht, rfl⟩
        rw [List.mem_filter, decide_eq_true_eq] at ht
        exact ⟨t, ht.1, rfl, (key t ht.1).1 ht.2⟩
      · rintro ⟨t, ht, rfl, he⟩
        exact ⟨t, List.mem_filter.2 ⟨ht, decide_eq_true ((key t ht).2 he)⟩, rfl⟩
    refine ⟨fun hnil => ?_, hm⟩
    rw [sel] at h0
    push Not at h0
    obtain ⟨y, hy, hy2⟩ := h0
    obtain ⟨t, ht, rfl⟩ := List.mem_map.1 (h5.symm.subset hy)
    have := (hm t.2.2).2 ⟨t, ht, rfl, hy2⟩
    rw [hnil] at this
    cases this
  · rw [h8, if_pos (sel.2 h0)]
  · rw [h8, if_neg (fun h0 => sel.1 h0 y hy hy2)]
    exact ⟨_, rfl⟩

/-- An area given to `nearest_time`: a state, a country or a box. -/
inductive Spec.Area where
  | state (a : StrArg)
  | country (a : StrArg)
  | box (b : BBox)

/-- The call for an area. -/
def Spec.Area.query : Area → NearQuery
  | .state a => { state := some a }
  | .country a => { country := some a }
  | .box b => { bbox := some b }

/-- A report is of a site in the area. -/
def Spec.Area.Holds (upper : Text → Text) (env : NumEnv ρ κ) : Area → Entry κ (List ρ) → Prop
  | .state a, x => Asks upper a x.state
  | .country a, x => Asks upper a x.country
  | .box b, x => ∃ la lo, env.centi x.lat = .ok la ∧ env.centi x.lon = .ok lo ∧ Inside b la lo

theorem area_ids {env : NumEnv ρ κ} {upper lower : Text → Text} {g : SurfaceReader} {T : List (Entry κ (List ρ) × SiteInfo × SfObj)} {t : Date × Clock}
    {special : Bool} {A : Area} {out : List SfObj} (h6 : g.sfinfo = T.map (fun t => t.2.1)) (h7 : ∀ t ∈ T, IsListed env true t.1 t.2.1)
    (h : g.nearestTime upper lower t A.query special = .ok out) :
    ∃ ids : List Text, ids.Nodup ∧ (∀ id, id ∈ ids ↔ ∃ t ∈ T, A.Holds upper env t.1 ∧ t.1.id = id) ∧ NearestById g upper lower special t ids out := by
  have key : ∀ (P : SiteInfo → Prop) (Q : Entry κ (List ρ) → Prop), (∀ t ∈ T, P t.2.1 ↔ Q t.1) → ∀ id : Text,
      (∃ s ∈ g.sfinfo, P s ∧ s.id = id) ↔ ∃ t ∈ T, Q t.1 ∧ t.1.id = id := by
    intro P Q hPQ id
    rw [h6]
    constructor
    · rintro ⟨s, hs, hp, hid⟩
      obtain ⟨t, ht, rfl⟩ := List.mem_map.1 hs
      exact ⟨t, ht, (hPQ t ht).1 hp, ((h7 t ht).id.symm.trans hid)⟩
    · rintro ⟨t, ht, hq, hid⟩
      exact ⟨t.2.1, List.mem_map_of_mem ht, (hPQ t ht).2 hq, (h7 t ht).id.trans hid⟩
  cases A with
  | state a =>
    obtain ⟨ids, a1, a2, a3⟩ := C37_by_state g upper lower t a special out h
    refine ⟨ids, a1, fun id => (a2 id).trans (key (fun s => Asks upper a s.state) (fun x => Asks upper a x.state) (fun t ht => ?_) id), a3⟩
    rw [(h7 t ht).state]
  | country a =>
    obtain ⟨ids, a1, a2, a3⟩ := C37_by_country g upper lower t a special out h
    refine ⟨ids, a1, fun id => (a2 id).trans (key (fun s => Asks upper a s.country) (fun x => Asks upper a x.country) (fun t ht => ?_) id), a3⟩
    rw [(h7 t ht).country]
  | box b =>
    obtain ⟨ids, a1, a2, a3⟩ := C37_by_box g upper lower t b special out h
    refine ⟨ids, a1, fun id => (a2 id).trans (key (fun s => Inside b s.lat s.lon) (Area.Holds upper env (.box b)) (fun t ht => ?_) id), a3⟩
    constructor
    · exact fun hi => ⟨_, _, (h7 t ht).lat, (h7 t ht).lon, hi⟩
    · rintro ⟨la, lo, h1, h2, hi⟩
      rw [Except.ok.inj ((h7 t ht).lat.symm.trans h1), Except.ok.inj ((h7 t ht).lon.symm.trans h2)]
      exact hi

theorem forall₂_right {α β : Type} {R : α → β → Prop} {l : List α} {r : List β} (h : List.Forall₂ R l r) : ∀ y ∈ r, ∃ x ∈ l, R x y := by
  induction h with
  | nil => simp
  | cons h1 _ ih =>
    intro y hy
    rcases List.mem_cons.1 hy with rfl | hy
    · exact ⟨_, List.mem_cons_self, h1⟩
    · obtain ⟨x, hx, hr⟩ := ih y hy
      exact ⟨x, List.mem_cons_of_mem _ hx, hr⟩

theorem forall₂_left {α β : Type} {R : α → β → Prop} {l : List α} {r : List β} (h : List.Forall₂ R l r) : ∀ x ∈ l, ∃ y ∈ r, R x y := by
  induction h with
  | nil => simp
  | cons h1 _ ih =>
    intro y hy
    rcases List.mem_cons.1 hy with rfl | hy
    · exact ⟨_, List.mem_cons_self, h1⟩
    · obtain ⟨x, hx, hr⟩ := ih y hy
      exact ⟨x, List.mem_cons_of_mem _ hx, hr⟩

/-- C104: what `nearest_time` for an area returns are reports with the identifier of a site in the area, nearest in time among all reports in the
file with that identifier; one of them for every identifier. -/
theorem C104_reports (env : NumEnv ρ κ) (upper lower : Text → Text) (ps names : List Text) (rs : List (AddReq κ ρ)) (g : SurfaceReader) (special : Bool)
    (t : Date × Clock) (A : Area) (out : List SfObj) (hg : SavedReports env lower ps rs g names)
    (h : g.nearestTime upper lower t A.query special = .ok out) :
    (∀ o ∈ out, ∃ x ∈ filed env names rs, ∃ y ∈ filed env names rs, A.Holds upper env x ∧ y.id = upper x.id ∧ IsReport env lower names y o ∧
      ∀ z ∈ filed env names rs, z.id = y.id → distance (storedTime y.date y.clock) t ≤ distance (storedTime z.date z.clock) t) ∧
    ∀ x ∈ filed env names rs, A.Holds upper env x → ∃ o ∈ out, o.stationId = upper x.id := by
  obtain ⟨T, h5, h6, h7, h8⟩ := by_id (upper := upper) special hg
  obtain ⟨ids, a1, a2, a3⟩ := area_ids h6 (fun t ht => (h7 t ht).1) h
  constructor
  · intro o ho
    obtain ⟨id, hid, all, hall, hn, hmin⟩ := forall₂_right a3 o ho
    obtain ⟨t1, ht1, hx, hid1⟩ := (a2 id).1 hid
    obtain ⟨_, hm⟩ := (h8 id).1 all hall
    obtain ⟨t2, ht2, ho2, hid2⟩ := (hm o).1 hn
    refine ⟨t1.1, h5.subset (List.mem_map_of_mem ht1), t2.1, h5.subset (List.mem_map_of_mem ht2), hx, hid1 ▸ hid2, ho2 ▸ (h7 t2 ht2).2, ?_⟩
    intro z hz hzid
    obtain ⟨t3, ht3, rfl⟩ := List.mem_map.1 (h5.symm.subset hz)
    have := hmin t3.2.2 ((hm _).2 ⟨t3, ht3, rfl, hzid.trans hid2⟩)
    rwa [← ho2, (h7 t2 ht2).2.dateTime, (h7 t3 ht3).2.dateTime] at this
  · intro x hx hA
    obtain ⟨t1, ht1, rfl⟩ := List.mem_map.1 (h5.symm.subset hx)
    obtain ⟨o, ho, all, hall, hn, _⟩ := forall₂_left a3 _ ((a2 t1.1.id).2 ⟨t1, ht1, hA, rfl⟩)
    obtain ⟨_, hm⟩ := (h8 t1.1.id).1 all hall
    obtain ⟨t2, ht2, ho2, hid2⟩ := (hm o).1 hn
    exact ⟨o, ho, by rw [← ho2, (h7 t2 ht2).2.stationId, hid2]⟩

/-- C104, where it holds: if sites with one identifier are all in the area or all outside, the reports returned are of sites in the area. -/
theorem C104_partial (env : NumEnv ρ κ) (upper lower : Text → Text) (ps names : List Text) (rs : List (AddReq κ ρ)) (g : SurfaceReader) (special : Bool)
    (t : Date × Clock) (A : Area) (out : List SfObj) (hg : SavedReports env lower ps rs g names)
    (hA : ∀ x ∈ filed env names rs, ∀ y ∈ filed env names rs, y.id = upper x.id → A.Holds upper env x → A.Holds upper env y)
    (h : g.nearestTime upper lower t A.query special = .ok out) :
    ∀ o ∈ out, ∃ y ∈ filed env names rs, A.Holds upper env y ∧ IsReport env lower names y o := by
  intro o ho
  obtain ⟨x, hx, y, hy, h1, h2, h3, _⟩ := (C104_reports env upper lower ps names rs g special t A out hg h).1 o ho
  exact ⟨y, hy, hA x hx y hy h2 h1, h3⟩

/-- The area is given: not an empty text or list. -/
def Spec.Area.Given : Area → Prop
  | .state a | .country a => a ≠ .one [] ∧ a ≠ .many []
  | .box _ => True

theorem area_call {env : NumEnv ρ κ} {upper : Text → Text} (lower : Text → Text) {g : SurfaceReader} {T : List (Entry κ (List ρ) × SiteInfo × SfObj)}
    (t : Date × Clock) (special : Bool) {A : Area} (h6 : g.sfinfo = T.map (fun t => t.2.1)) (h7 : ∀ t ∈ T, IsListed env true t.1 t.2.1) (hA : A.Given) :
    ∃ ids : List Text, (∀ id, id ∈ ids ↔ ∃ t ∈ T, A.Holds upper env t.1 ∧ t.1.id = id) ∧
      g.nearestTime upper lower t A.query special =
        ids.mapM fun id => g.sfjson upper lower { stationId := some (.one id) } special >>= nearestOf t := by
  have hup : ∀ a : StrArg, a ≠ .one [] ∧ a ≠ .many [] → a.upperAll upper ≠ [] ∧ a.truthy = true := by
    rintro (x | l) ⟨h1, h2⟩
    · exact ⟨by simp [StrArg.upperAll], by simpa [StrArg.truthy] using h1⟩
    · exact ⟨by simpa [StrArg.upperAll] using h2, by simpa [StrArg.truthy] using h2⟩
  have key : ∀ (p : SiteInfo → Bool), NearQuery.ids A.query upper g.infos = idSet g.infos p → A.query.nargs = 1 → A.query.stationNumber = none →
      (∀ t ∈ T, p t.2.1 = true ↔ A.Holds upper env t.1) → ∃ ids : List Text, (∀ id, id ∈ ids ↔ ∃ t ∈ T, A.Holds upper env t.1 ∧ t.1.id = id) ∧
      g.nearestTime upper lower t A.query special =
        ids.mapM fun id => g.sfjson upper lower { stationId := some (.one id) } special >>= nearestOf t := by
    intro p h1 h2 h3 h4
    refine ⟨idSet g.infos p, fun id => ?_, ?_⟩
    · rw [(idSet_spec g.infos p).2 id]
      simp only [← sfinfo_mem, h6]
      constructor
      · rintro ⟨s, hs, hp, hid⟩
        obtain ⟨t, ht, rfl⟩ := List.mem_map.1 hs
        exact ⟨t, ht, (h4 t ht).1 hp, ((h7 t ht).id.symm.trans hid)⟩
      · rintro ⟨t, ht, hq, hid⟩
        exact ⟨t.2.1, List.mem_map_of_mem ht, (h4 t ht).2 hq, (h7 t ht).id.trans hid⟩
    · unfold SurfaceReader.nearestTime
      rw [h2, if_neg (by decide), if_neg (by decide), h1, h3]
      rcases hm : (idSet g.infos p).mapM fun id => g.sfjson upper lower { stationId := some (.one id) } special >>= nearestOf t with er | r
      · rfl
      · show Except.ok (r ++ []) = _
        rw [List.append_nil]
  cases A with
  | state a =>
    obtain ⟨h1, h2⟩ := hup a hA
    refine key (fun s => decide (s.state ∈ a.upperAll upper)) ?_ ?_ rfl ?_
    · show NearQuery.ids { state := some a } upper g.infos = _
      unfold NearQuery.ids
      dsimp only
      rw [if_neg h1]
    · simp [Area.query, NearQuery.nargs, h2]
    · intro t ht
      rw [decide_eq_true_eq, (h7 t ht).state, asks_all]
      rfl
  | country a =>
    obtain ⟨h1, h2⟩ := hup a hA
    refine key (fun s => decide (s.country ∈ a.upperAll upper)) ?_ ?_ rfl ?_
    · show NearQuery.ids { country := some a } upper g.infos = _
      unfold NearQuery.ids
      dsimp only
      rw [if_neg h1]
    · simp [Area.query, NearQuery.nargs, h2]
    · intro t ht
      rw [decide_eq_true_eq, (h7 t ht).country, asks_all]
      rfl
  | box b =>
    refine key (fun s => b.holds s.lat s.lon) rfl rfl rfl ?_
    intro t ht
    rw [holds_iff]
    constructor
    · exact fun hi => ⟨_, _, (h7 t ht).lat, (h7 t ht).lon, hi⟩
    · rintro ⟨la, lo, h1, h2, hi⟩
      rw [Except.ok.inj ((h7 t ht).lat.symm.trans h1), Except.ok.inj ((h7 t ht).lon.symm.trans h2)]
      exact hi

/-- C104: the call returns; the identifiers in the file are in upper case, as `add_station` writes them. -/
theorem C104_succeeds (env : NumEnv ρ κ) (upper lower : Text → Text) (ps names : List Text) (rs : List (AddReq κ ρ)) (g : SurfaceReader) (special : Bool)
    (t : Date × Clock) (A : Area) (hA : A.Given) (hg : SavedReports env lower ps rs g names) (hup : ∀ x ∈ filed env names rs, upper x.id = x.id) :
    ∃ out, g.nearestTime upper lower t A.query special = .ok out := by
  obtain ⟨T, h5, h6, h7, h8⟩ := by_id (upper := upper) special hg
  obtain ⟨ids, a1, a2⟩ := area_call (upper := upper) lower t special h6 (fun t ht => (h7 t ht).1) hA
  rw [a2]
  have hgood : ∀ id ∈ ids, ∃ o, (g.sfjson upper lower { stationId := some (.one id) } special >>= nearestOf t) = .ok o := by
    intro id hid
    obtain ⟨t1, ht1, _, rfl⟩ := (a1 id).1 hid
    have hm := h5.subset (List.mem_map_of_mem ht1)
    obtain ⟨all, hall⟩ := (h8 t1.1.id).2.2 ⟨t1.1, hm, (hup _ hm).symm⟩
    obtain ⟨o, ho⟩ := nearestOf_total t ((h8 _).1 all hall).1
    exact ⟨o, by rw [hall, ok_bind]; exact ho⟩
  clear a1 a2
  induction ids with
  | nil => exact ⟨[], rfl⟩
  | cons a r ih =>
    obtain ⟨o, ho⟩ := hgood a List.mem_cons_self
    obtain ⟨out, hr⟩ := ih fun id hid => hgood id (List.mem_cons_of_mem _ hid)
    rw [List.mapM_cons, ho, ok_bind, hr]
    exact ⟨_, rfl⟩

/-! ## The same identifier in two states -/

/-- Two stations with one identifier. -/
def twoStates : List (AddReq Int F32) :=
  [⟨[(txt "TMPF", 1), (txt "DWPF", 2)], some 40, some (-105), .dt ⟨2020, 2, 29⟩ ⟨12, 0, 0, 0⟩, some ⟨some (txt "A1"), some 1, none, some (txt "CO"), none, none⟩⟩,
   ⟨[(txt "TMPF", 6), (txt "DWPF", 7)], some 38, some (-97), .dt ⟨2020, 2, 29⟩ ⟨13, 0, 0, 0⟩, some ⟨some (txt "A1"), some 2, none, some (txt "KS"), none, none⟩⟩]

theorem twoStates_entries : twoStates.filterMap (sfEntry intEnv someNames) =
    [⟨⟨2020, 2, 29⟩, ⟨12, 0, 0, 0⟩, txt "A1", 1, 40, -105, -9999, txt "CO", [], 0, [1, 2]⟩,
     ⟨⟨2020, 2, 29⟩, ⟨13, 0, 0, 0⟩, txt "A1", 2, 38, -97, -9999, txt "KS", [], 0, [6, 7]⟩] := by
  decide +kernel

theorem twoStates_filed : filed intEnv someNames twoStates =
    [⟨⟨2020, 2, 29⟩, ⟨12, 0, 0, 0⟩, txt "A1", 1, 40, -105, -9999, txt "CO", [], 0, [1, 2]⟩,
     ⟨⟨2020, 2, 29⟩, ⟨13, 0, 0, 0⟩, txt "A1", 2, 38, -97, -9999, txt "KS", [], 0, [6, 7]⟩] := by
  unfold filed
  rw [twoStates_entries]
  decide +kernel

theorem twoStates_saved : ∃ g, SavedReports intEnv id someNames twoStates g someNames := by
  have hnew : newBuilder intEnv someNames = .ok (⟨someNames, ⟨[]⟩, ⟨[]⟩, [], 0, 0, [], []⟩ : Builder Int (List F32)) := rfl
  have hn : SurfaceNames id someNames := by
    constructor <;> decide +kernel
  have hleg : ∀ x ∈ twoStates.filterMap (sfEntry intEnv someNames), x.Legible := by
    rw [twoStates_entries]
    intro x hx
    simp only [List.mem_cons, List.not_mem_nil, or_false] at hx
    rcases hx with rfl | rfl <;> constructor <;> decide +kernel
  have hw : ∀ x ∈ twoStates.filterMap (sfEntry intEnv someNames), x.Writable intEnv := by
    rw [twoStates_entries]
    intro x hx
    simp only [List.mem_cons, List.not_mem_nil, or_false] at hx
    rcases hx with rfl | rfl <;>
      exact ⟨by decide, by decide, by decide, ⟨_, rfl, by decide⟩, _, rfl, by decide⟩
  have hcap : headers (twoStates.filterMap (sfEntry intEnv someNames)) ≤ 32000 := by
    rw [twoStates_entries]; decide +kernel
  have hne : twoStates.filterMap (sfEntry intEnv someNames) ≠ [] := by rw [twoStates_entries]; simp
  obtain ⟨bytes, hs⟩ := C14_saves intEnv someNames _ twoStates .little hnew hcap (fun x hx => ⟨(hleg x hx).date, (hleg x hx).clock⟩)
    hw (fun _ _ v _ => ⟨v, rfl⟩) (by decide +kernel)
  obtain ⟨g, T, h1, _⟩ := C36_written intEnv id id someNames _ twoStates .little .little bytes true hnew hcap hn hleg hne hs
  exact ⟨g, hn, hleg, hcap, hne, _, _, _, bytes, hnew, rfl, hs, h1⟩

/-- C104: asked for a state, `nearest_time` returns a report of another state. -/
theorem C104_counterexample : ∃ g out, SavedReports intEnv id someNames twoStates g someNames ∧
    g.nearestTime id id (⟨2020, 2, 29⟩, ⟨13, 10, 0, 0⟩) (Area.query (.state (.one (txt "CO")))) true = .ok out ∧ out ≠ [] ∧
    ∀ o ∈ out, o.state = .text (txt "KS") := by
  obtain ⟨g, hg⟩ := twoStates_saved
  obtain ⟨out, ho⟩ := C104_succeeds intEnv id id someNames someNames twoStates g true (⟨2020, 2, 29⟩, ⟨13, 10, 0, 0⟩) (.state (.one (txt "CO")))
    ⟨by intro h; injection h with h; exact absurd h (by decide), by intro h; cases h⟩ hg (fun _ _ => rfl)
  obtain ⟨h1, h2⟩ := C104_reports _ _ _ _ _ _ _ _ _ _ _ hg ho
  refine ⟨g, out, hg, ho, ?_, ?_⟩
  · rw [twoStates_filed] at h2
    obtain ⟨o, ho, _⟩ := h2 _ List.mem_cons_self rfl
    exact List.ne_nil_of_mem ho
  · intro o ho
    obtain ⟨x, hx, y, hy, _, _, hr, hmin⟩ := h1 o ho
    rw [hr.state]
    rw [twoStates_filed] at hy hmin
    have h3 := hmin _ (List.mem_cons_of_mem _ List.mem_cons_self)
    simp only [List.mem_cons, List.not_mem_nil, or_false] at hy
    rcases hy with rfl | rfl
    · exact absurd (h3 rfl) (by decide +kernel)
    · rfl

/-- Asked for a box with both stations, the hypothesis of the partial theorem is met. -/
example : ∃ g out, SavedReports intEnv id someNames twoStates g someNames ∧
    g.nearestTime id id (⟨2020, 2, 29⟩, ⟨13, 10, 0, 0⟩) (Area.query (.box ⟨-110, -90, 30, 45⟩)) true = .ok out ∧
    ∀ x ∈ filed intEnv someNames twoStates, ∀ y ∈ filed intEnv someNames twoStates, y.id = id x.id → Area.Holds id intEnv (.box ⟨-110, -90, 30, 45⟩) x →
      Area.Holds id intEnv (.box ⟨-110, -90, 30, 45⟩) y := by
  obtain ⟨g, hg⟩ := twoStates_saved
  obtain ⟨out, ho⟩ := C104_succeeds intEnv id id someNames someNames twoStates g true (⟨2020, 2, 29⟩, ⟨13, 10, 0, 0⟩) (.box ⟨-110, -90, 30, 45⟩)
    trivial hg (fun _ _ => rfl)
  refine ⟨g, out, hg, ho, ?_⟩
  rw [twoStates_filed]
  intro x _ y hy _ _
  simp only [List.mem_cons, List.not_mem_nil, or_false] at hy
  rcases hy with rfl | rfl <;> exact ⟨_, _, rfl, rfl, by unfold Inside; decide +kernel⟩

end Gempak
