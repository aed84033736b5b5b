import Verif.Props.Select

/-!
# Nearest time (C37)
-/

namespace Gempak
open Spec

/-- Distance in time, in microseconds. -/
def Spec.distance (a b : Date × Clock) : Nat := (instant a - instant b).natAbs

/-- A report nearest to a time among some reports. -/
def Spec.IsNearest (t : Date × Clock) (all : List SfObj) (o : SfObj) : Prop :=
  o ∈ all ∧ ∀ x ∈ all, Spec.distance o.dateTime t ≤ Spec.distance x.dateTime t

/-- One report for each identifier, nearest to the time among all reports with that identifier. -/
def Spec.NearestById (g : SurfaceReader) (upper lower : Text → Text) (special : Bool) (t : Date × Clock) : List Text → List SfObj → Prop :=
  List.Forall₂ fun id o => ∃ all, g.sfjson upper lower { stationId := some (.one id) } special = .ok all ∧ Spec.IsNearest t all o

/-- The same for station numbers. -/
def Spec.NearestByNumber (g : SurfaceReader) (upper lower : Text → Text) (special : Bool) (t : Date × Clock) : List Int → List SfObj → Prop :=
  List.Forall₂ fun n o => ∃ all, g.sfjson upper lower { stationNumber := some [n] } special = .ok all ∧ Spec.IsNearest t all o

theorem nearestOf_spec {t : Date × Clock} {all : List SfObj} {o : SfObj} (h : nearestOf t all = .ok o) : Spec.IsNearest t all o := by
  cases all with
  | nil => cases h
  | cons a r =>
    unfold nearestOf at h
    have h := Except.ok.inj h
    have key : ∀ (r : List SfObj) (a : SfObj), let z := r.foldl (fun m o => if (instant o.dateTime - instant t).natAbs <
        (instant m.dateTime - instant t).natAbs then o else m) a
        (z = a ∨ z ∈ r) ∧ distance z.dateTime t ≤ distance a.dateTime t ∧ ∀ x ∈ r, distance z.dateTime t ≤ distance x.dateTime t := by
      intro r
      induction r with
      | nil => intro a; exact ⟨Or.inl rfl, Nat.le_refl _, by simp⟩
      | cons b r ih =>
        intro a
        simp only [List.foldl_cons]
        by_cases hc : (instant b.dateTime - instant t).natAbs < (instant a.dateTime - instant t).natAbs
        · rw [if_pos hc]
          obtain ⟨h1, h2, h3⟩ := ih b
          refine ⟨?_, ?_, ?_⟩
          · rcases h1 with h1 | h1
            · right; rw [h1]; exact List.mem_cons_self
            · right; exact List.mem_cons_of_mem _ h1
          · exact Nat.le_trans h2 (Nat.le_of_lt hc)
          · intro x hx
            rcases List.mem_cons.1 hx with rfl | hx
            · exact h2
            · exact h3 x hx
        · rw [if_neg hc]
          obtain ⟨h1, h2, h3⟩ := ih a
          refine ⟨?_, h2, ?_⟩
          · rcases h1 with h1 | h1
            · left; exact h1
            · right; exact List.mem_cons_of_mem _ h1
          · intro x hx
            rcases List.mem_cons.1 hx with rfl | hx
            · exact Nat.le_trans h2 (Nat.le_of_not_lt hc)
            · exact h3 x hx
    have := key r a
    dsimp only at this
    rw [h] at this
    obtain ⟨h1, h2, h3⟩ := this
    refine ⟨?_, ?_⟩
    · rcases h1 with rfl | h1
      · exact List.mem_cons_self
      · exact List.mem_cons_of_mem _ h1
    · intro x hx
      rcases List.mem_cons.1 hx with rfl | hx
      · exact h2
      · exact h3 x hx

theorem nearestOf_total (t : Date × Clock) {all : List SfObj} (h : all ≠ []) : ∃ o, nearestOf t all = .ok o := by
  cases all with
  | nil => exact absurd rfl h
  | cons a r => exact ⟨_, rfl⟩

theorem mapM_forall₂ {α β : Type} {f : α → Except PyErr β} {l : List α} {r : List β} (h : l.mapM f = .ok r) :
    List.Forall₂ (fun x y => f x = .ok y) l r := by
  induction l generalizing r with
  | nil => simp only [List.mapM_nil] at h; injection h with h; subst h; exact .nil
  | cons a l ih =>
    rw [List.mapM_cons] at h
    obtain ⟨x, h1, h⟩ := bind_inv h
    obtain ⟨s, h2, h⟩ := bind_inv h
    injection h with h
    subst h
    exact .cons h1 (ih h2)

/-- Whatever the criterion: one nearest report per identifier or number looked up. -/
theorem nearestTime_inv {g : SurfaceReader} {upper lower : Text → Text} {t : Date × Clock} {q : NearQuery} {special : Bool}
    {out : List SfObj} (h : g.nearestTime upper lower t q special = .ok out) :
    ∃ A B, out = A ++ B ∧ NearestById g upper lower special t (q.ids upper g.infos) A ∧
      NearestByNumber g upper lower special t (q.stationNumber.getD []) B := by
  unfold SurfaceReader.nearestTime at h
  split at h
  · cases h
  split at h
  · cases h
  obtain ⟨A, h1, h⟩ := bind_inv h
  obtain ⟨B, h2, h⟩ := bind_inv h
  refine ⟨A, B, (Except.ok.inj h).symm, ?_, ?_⟩
  · refine (mapM_forall₂ h1).imp ?_
    intro id o ho
    obtain ⟨all, h3, h4⟩ := bind_inv ho
    exact ⟨all, h3, nearestOf_spec h4⟩
  · refine (mapM_forall₂ h2).imp ?_
    intro id o ho
    obtain ⟨all, h3, h4⟩ := bind_inv ho
    exact ⟨all, h3, nearestOf_spec h4⟩

theorem idSet_spec (infos : List SiteInfo) (p : SiteInfo → Bool) :
    (idSet infos p).Nodup ∧ ∀ id, id ∈ idSet infos p ↔ ∃ s ∈ infos, p s = true ∧ s.id = id := by
  unfold idSet
  obtain ⟨h2, h1, _⟩ := C42_from_iterable ((infos.filter p).map SiteInfo.id)
  refine ⟨h1, fun id => ?_⟩
  rw [h2, List.mem_map]
  constructor
  · rintro ⟨s, hs, rfl⟩
    obtain ⟨a, b⟩ := List.mem_filter.1 hs
    exact ⟨s, a, b, rfl⟩
  · rintro ⟨s, a, b, rfl⟩
    exact ⟨s, List.mem_filter.2 ⟨a, b⟩, rfl⟩

theorem sfinfo_mem (g : SurfaceReader) (s : SiteInfo) : s ∈ g.sfinfo ↔ s ∈ g.infos := (List.mergeSort_perm _ _).mem_iff

/-- C37: for given identifiers, one nearest report for each of them, in their order. -/
theorem C37_by_id (g : SurfaceReader) (upper lower : Text → Text) (t : Date × Clock) (ids : List Text) (special : Bool) (out : List SfObj)
    (h : g.nearestTime upper lower t { stationId := some (.many ids) } special = .ok out) :
    NearestById g upper lower special t (ids.map upper) out := by
  obtain ⟨A, B, rfl, h1, h2⟩ := nearestTime_inv h
  have : B = [] := by cases h2; rfl
  rw [this, List.append_nil]
  exact h1

/-- C37: for given numbers, one nearest report for each of them, in their order. -/
theorem C37_by_number (g : SurfaceReader) (upper lower : Text → Text) (t : Date × Clock) (ns : List Int) (special : Bool) (out : List SfObj)
    (h : g.nearestTime upper lower t { stationNumber := some ns } special = .ok out) :
    NearestByNumber g upper lower special t ns out := by
  obtain ⟨A, B, rfl, h1, h2⟩ := nearestTime_inv h
  have : A = [] := by cases h1; rfl
  rw [this, List.nil_append]
  exact h2

/-- C37: for a box, exactly one nearest report for every identifier listed inside the box. -/
theorem C37_by_box (g : SurfaceReader) (upper lower : Text → Text) (t : Date × Clock) (b : BBox) (special : Bool) (out : List SfObj)
    (h : g.nearestTime upper lower t { bbox := some b } special = .ok out) :
    ∃ ids : List Text, ids.Nodup ∧ (∀ id, id ∈ ids ↔ ∃ s ∈ g.sfinfo, Inside b s.lat s.lon ∧ s.id = id) ∧
      NearestById g upper lower special t ids out := by
  obtain ⟨A, B, rfl, h1, h2⟩ := nearestTime_inv h
  have : B = [] := by cases h2; rfl
  rw [this, List.append_nil]
  obtain ⟨h3, h4⟩ := idSet_spec g.infos fun s => b.holds s.lat s.lon
  refine ⟨_, h3, fun id => ?_, h1⟩
  rw [h4]
  simp only [holds_iff, sfinfo_mem]

/-- C37: for a state or several states, exactly one nearest report for every identifier listed there. -/
theorem C37_by_state (g : SurfaceReader) (upper lower : Text → Text) (t : Date × Clock) (a : StrArg) (special : Bool) (out : List SfObj)
    (h : g.nearestTime upper lower t { state := some a } special = .ok out) :
    ∃ ids : List Text, ids.Nodup ∧ (∀ id, id ∈ ids ↔ ∃ s ∈ g.sfinfo, Asks upper a s.state ∧ s.id = id) ∧
      NearestById g upper lower special t ids out := by
  have hne : a.upperAll upper ≠ [] := by
    intro h0
    unfold SurfaceReader.nearestTime at h
    cases a with
    | one x => simp [StrArg.upperAll] at h0
    | many l =>
      have : l = [] := by simpa [StrArg.upperAll] using h0
      subst this
      rw [if_pos (by simp [NearQuery.nargs, StrArg.truthy])] at h
      cases h
  obtain ⟨A, B, rfl, h1, h2⟩ := nearestTime_inv h
  have : B = [] := by cases h2; rfl
  rw [this, List.append_nil]
  obtain ⟨h3, h4⟩ := idSet_spec g.infos fun s => decide (s.state ∈ a.upperAll upper)
  have hids : NearQuery.ids { state := some a } upper g.infos = idSet g.infos fun s => decide (s.state ∈ a.upperAll upper) := by
    unfold NearQuery.ids
    dsimp only
    rw [if_neg hne]
  rw [hids] at h1
  refine ⟨_, h3, fun id => ?_, h1⟩
  rw [h4]
  simp only [decide_eq_true_eq, asks_all, sfinfo_mem]

/-- C37: for a country or several countries, exactly one nearest report for every identifier listed there. -/
theorem C37_by_country (g : SurfaceReader) (upper lower : Text → Text) (t : Date × Clock) (a : StrArg) (special : Bool) (out : List SfObj)
    (h : g.nearestTime upper lower t { country := some a } special = .ok out) :
    ∃ ids : List Text, ids.Nodup ∧ (∀ id, id ∈ ids ↔ ∃ s ∈ g.sfinfo, Asks upper a s.country ∧ s.id = id) ∧
      NearestById g upper lower special t ids out := by
  have hne : a.upperAll upper ≠ [] := by
    intro h0
    unfold SurfaceReader.nearestTime at h
    cases a with
    | one x => simp [StrArg.upperAll] at h0
    | many l =>
      have : l = [] := by simpa [StrArg.upperAll] using h0
      subst this
      rw [if_pos (by simp [NearQuery.nargs, StrArg.truthy])] at h
      cases h
  obtain ⟨A, B, rfl, h1, h2⟩ := nearestTime_inv h
  have : B = [] := by cases h2; rfl
  rw [this, List.append_nil]
  obtain ⟨h3, h4⟩ := idSet_spec g.infos fun s => decide (s.country ∈ a.upperAll upper)
  have hids : NearQuery.ids { country := some a } upper g.infos = idSet g.infos fun s => decide (s.country ∈ a.upperAll upper) := by
    unfold NearQuery.ids
    dsimp only
    rw [if_neg hne]
  rw [hids] at h1
  refine ⟨_, h3, fun id => ?_, h1⟩
  rw [h4]
  simp only [decide_eq_true_eq, asks_all, sfinfo_mem]

/-- The criteria of `nearest_time`. -/
inductive Spec.Criterion where
  | id | number | state | country | box

/-- A criterion is given: an empty list or string is none. -/
def Spec.Given (q : NearQuery) : Criterion → Prop
  | .id => ∃ a, q.stationId = some a ∧ a ≠ .one [] ∧ a ≠ .many []
  | .number => ∃ l, q.stationNumber = some l ∧ l ≠ []
  | .state => ∃ a, q.state = some a ∧ a ≠ .one [] ∧ a ≠ .many []
  | .country => ∃ a, q.country = some a ∧ a ≠ .one [] ∧ a ≠ .many []
  | .box => ∃ b, q.bbox = some b

theorem truthy_given (x : Option StrArg) : (x.map StrArg.truthy).getD false = true ↔ ∃ a, x = some a ∧ a ≠ .one [] ∧ a ≠ .many [] := by
  cases x with
  | none => simp
  | some a => cases a <;> simp [StrArg.truthy]

/-- C37: without a criterion the call is refused as wrong, with two or more as not supported. -/
theorem C37_criteria (g : SurfaceReader) (upper lower : Text → Text) (t : Date × Clock) (q : NearQuery) (special : Bool) :
    ((∀ c, ¬ Given q c) → g.nearestTime upper lower t q special = .error .valueError) ∧
      (∀ c d, c ≠ d → Given q c → Given q d → g.nearestTime upper lower t q special = .error .notImplemented) := by
  have k1 := truthy_given q.stationId
  have k2 : (q.stationNumber.map fun l => decide (l ≠ [])).getD false = true ↔ ∃ l, q.stationNumber = some l ∧ l ≠ [] := by
    cases q.stationNumber <;> simp
  have k3 := truthy_given q.state
  have k4 := truthy_given q.country
  have k5 : q.bbox.isSome = true ↔ ∃ b, q.bbox = some b := Option.isSome_iff_exists
  constructor
  · intro h
    have n1 := mt k1.1 (h .id)
    have n2 := mt k2.1 (h .number)
    have n3 := mt k3.1 (h .state)
    have n4 := mt k4.1 (h .country)
    have n5 := mt k5.1 (h .box)
    have : q.nargs = 0 := by
      unfold NearQuery.nargs
      rw [if_neg n1, if_neg n2, if_neg n3, if_neg n4, if_neg n5]
    unfold SurfaceReader.nearestTime
    rw [if_pos this]
  · intro c d hcd hc hd
    have : 1 < q.nargs := by
      unfold NearQuery.nargs
      cases c <;> cases d <;> first
        | exact absurd rfl hcd
        | (unfold Given at hc hd
           simp only [← k1, ← k2, ← k3, ← k4, ← k5] at hc hd
           rw [if_pos hc, if_pos hd]
           omega)
    unfold SurfaceReader.nearestTime
    rw [if_neg (by omega), if_pos this]

example : ∃ q : NearQuery, Given q .id ∧ Given q .state ∧ ¬ Given q .box :=
  ⟨{ stationId := some (.one (txt "KDEN")), state := some (.many [txt "CO"]) }, ⟨_, rfl, by simp [txt], by simp⟩, ⟨_, rfl, by simp, by simp⟩,
    by rintro ⟨b, hb⟩; cases hb⟩

/-- C37: asking by identifier succeeds when each of them has a report. -/
theorem C37_succeeds (g : SurfaceReader) (upper lower : Text → Text) (t : Date × Clock) (ids : List Text) (special : Bool) (hne : ids ≠ [])
    (h : ∀ id ∈ ids, ∃ all, g.sfjson upper lower { stationId := some (.one (upper id)) } special = .ok all ∧ all ≠ []) :
    ∃ out, g.nearestTime upper lower t { stationId := some (.many ids) } special = .ok out := by
  unfold SurfaceReader.nearestTime
  have hn : NearQuery.nargs { stationId := some (.many ids) } = 1 := by
    simp [NearQuery.nargs, StrArg.truthy, hne]
  rw [hn, if_neg (by decide), if_neg (by decide)]
  have : ∃ A, (NearQuery.ids { stationId := some (.many ids) } upper g.infos).mapM (fun id => do
      nearestOf t (← g.sfjson upper lower { stationId := some (.one id) } special)) = .ok A := by
    have hids : NearQuery.ids { stationId := some (.many ids) } upper g.infos = ids.map upper := rfl
    rw [hids, List.mapM_map]
    have hx : ∀ id ∈ ids, ∃ o, ((fun id => do nearestOf t (← g.sfjson upper lower { stationId := some (.one id) } special)) ∘ upper) id = .ok o := by
      intro id hid
      obtain ⟨all, h1, h2⟩ := h id hid
      obtain ⟨o, ho⟩ := nearestOf_total t h2
      refine ⟨o, ?_⟩
      show (g.sfjson upper lower { stationId := some (.one (upper id)) } special >>= nearestOf t) = _
      rw [h1, ok_bind]
      exact ho
    clear h hne hn hids
    induction ids with
    | nil => exact ⟨[], rfl⟩
    | cons a r ih =>
      obtain ⟨o, ho⟩ := hx a List.mem_cons_self
      obtain ⟨A, hA⟩ := ih fun id hid => hx id (List.mem_cons_of_mem _ hid)
      rw [List.mapM_cons, ho, ok_bind, hA]
      exact ⟨_, rfl⟩
  obtain ⟨A, hA⟩ := this
  rw [hA]
  exact ⟨_, rfl⟩

/-- A file in which a nearest report exists. -/
example : ∃ (bytes : Bytes) (g : SurfaceReader) (out : List SfObj), openSurface .little bytes = .ok g ∧
    g.nearestTime id id (⟨2020, 3, 1⟩, ⟨0, 0, 0, 0⟩) { stationId := some (.many [txt "KDENVER"]) } true = .ok out ∧
    NearestById g id id true (⟨2020, 3, 1⟩, ⟨0, 0, 0, 0⟩) [txt "KDENVER"] out := by
  obtain ⟨bytes, g, h1, h2, _⟩ := someSelection
  obtain ⟨out, ho⟩ := C37_succeeds g id id (⟨2020, 3, 1⟩, ⟨0, 0, 0, 0⟩) [txt "KDENVER"] true (by simp) (by
    intro id hid
    rw [List.mem_singleton.1 hid]
    exact h2)
  exact ⟨bytes, g, out, h1, ho, C37_by_id g id id _ _ true out ho⟩

end Gempak
