import Mathlib.Data.List.Range
import Verif.Proof.Station
import Verif.Props.Tools

/-!
# Station files: limits and failing calls (C19, C69)
-/

namespace Gempak
open Spec

set_option linter.unusedSectionVars false

variable {ρ κ β : Type} [DecidableEq κ]

/-! ## Specification -/

/-- The time of a report. -/
def Spec.Entry.time (e : Entry κ β) : Date × Clock := (e.date, e.clock)

/-- The site of a report: everything but time and values. -/
structure Spec.Site (κ : Type) where
  id : Text
  number : Int
  lat : κ
  lon : κ
  elev : Int
  state : Text
  country : Text
  priority : Int
  deriving DecidableEq

/-- The site of a report. -/
def Spec.Entry.site (e : Entry κ β) : Site κ := ⟨e.id, e.number, e.lat, e.lon, e.elev, e.state, e.country, e.priority⟩

/-- Headers needed: distinct times and distinct sites. -/
def Spec.headers (es : List (Entry κ β)) : Nat := (es.map Entry.time).dedup.length + (es.map Entry.site).dedup.length

/-! ## Auxiliary -/

/-- Column of a site. -/
def siteCol (s : Site κ) : Col κ := ⟨s.id.take 4, s.number, s.lat, s.lon, s.elev, s.state, s.country, s.id.drop 4, s.priority⟩

theorem siteCol_injective : Function.Injective (siteCol (κ := κ)) := by
  rintro ⟨a1, a2, a3, a4, a5, a6, a7, a8⟩ ⟨b1, b2, b3, b4, b5, b6, b7, b8⟩ h
  simp only [siteCol, Col.mk.injEq] at h
  obtain ⟨h1, h2, h3, h4, h5, h6, h7, h8, h9⟩ := h
  have : a1 = b1 := by rw [← List.take_append_drop 4 a1, ← List.take_append_drop 4 b1, h1, h8]
  subst this h2 h3 h4 h5 h6 h7 h9
  rfl

theorem addStation_of {env : NumEnv ρ κ} {b : Builder κ (List ρ)} {r : AddReq κ ρ} {row : Row} {col : Col κ} {v : List ρ}
    (h : checkStation env b.names r = .ok (row, col, v)) : addStation env b r = b.enter env row col v := by
  unfold addStation; rw [h]

theorem addSounding_of {env : NumEnv ρ κ} {b : Builder κ (List (List ρ))} {r : AddReq κ (List ρ)} {row : Row} {col : Col κ}
    {v : List (List ρ)} (h : checkSounding env b.names r = .ok (row, col, v)) : addSounding env b r = b.enter env row col v := by
  unfold addSounding; rw [h]

theorem ofList_length {α : Type} [DecidableEq α] (l : List α) : (OrderedSet.ofList l).keys.length = l.dedup.length := by
  obtain ⟨h1, h2, _⟩ := C42_from_iterable l
  apply List.Perm.length_eq
  rw [List.perm_ext_iff_of_nodup h2 (List.nodup_dedup l)]
  intro x
  rw [h1, List.mem_dedup]

theorem History.headers_eq {env : NumEnv ρ κ} {names : List Text} {es : List (Entry κ β)} {b : Builder κ β}
    (h : History env names (es.map fun e => (e.place, e.value)) b) : b.rows + b.columns = Spec.headers es := by
  rw [h.rows, h.columns, h.rowSet, h.colSet, ofList_length, ofList_length, List.map_map, List.map_map]
  unfold Spec.headers
  have : es.map ((fun x : (Row × Col κ) × β => x.1.2) ∘ fun e => (e.place, e.value)) = (es.map Entry.site).map siteCol := by
    rw [List.map_map]; rfl
  rw [this, List.dedup_map_of_injective siteCol_injective, List.length_map]
  rfl

theorem dedup_length_mono {α : Type} [DecidableEq α] {l m : List α} (h : ∀ x ∈ l, x ∈ m) : l.dedup.length ≤ m.dedup.length := by
  apply List.Subperm.length_le
  apply (List.nodup_dedup l).subperm
  intro x hx
  rw [List.mem_dedup] at *
  exact h x hx

theorem headers_mono {l m : List (Entry κ β)} (h : ∀ x ∈ l, x ∈ m) : Spec.headers l ≤ Spec.headers m := by
  unfold Spec.headers
  have h1 : ∀ {α : Type} (f : Entry κ β → α), ∀ x ∈ l.map f, x ∈ m.map f := by
    intro α f x hx
    obtain ⟨e, he, rfl⟩ := List.mem_map.1 hx
    exact List.mem_map_of_mem (h e he)
  have h2 := dedup_length_mono (h1 Entry.time)
  have h3 := dedup_length_mono (h1 Entry.site)
  omega

theorem station_outcome {env : NumEnv ρ κ} {ps : List Text} {b0 : Builder κ (List ρ)} (hnew : newBuilder env ps = .ok b0)
    (rs : List (AddReq κ ρ)) (r : AddReq κ ρ) {x : Entry κ (List ρ)} (hx : sfEntry env b0.names r = some x) :
    (addStation env (run (addStation env) b0 rs) r).2 =
      if Spec.headers ((rs ++ [r]).filterMap (sfEntry env b0.names)) > 32000 then .error .valueError else .ok () := by
  have h1 := run_station (History.new hnew) rs
  have h2 := run_station (History.new hnew) (rs ++ [r])
  rw [List.nil_append] at h1 h2
  have hr : run (addStation env) b0 (rs ++ [r]) = (addStation env (run (addStation env) b0 rs) r).1 := by
    unfold run; rw [List.foldl_append]; rfl
  rw [← h2.headers_eq, hr]
  have hc := checkStation_eq env b0.names r
  rw [hx] at hc
  have : addStation env (run (addStation env) b0 rs) r = (run (addStation env) b0 rs).enter env x.place.1 x.place.2 x.value :=
    addStation_of (by rw [h1.names]; exact hc)
  rw [this, Builder.enter_outcome]
  rfl

theorem sounding_outcome {env : NumEnv ρ κ} {ps : List Text} {b0 : Builder κ (List (List ρ))} (hnew : newBuilder env ps = .ok b0)
    (rs : List (AddReq κ (List ρ))) (r : AddReq κ (List ρ)) {x : Entry κ (List (List ρ))} (hx : snEntry env b0.names r = some x) :
    (addSounding env (run (addSounding env) b0 rs) r).2 =
      if Spec.headers ((rs ++ [r]).filterMap (snEntry env b0.names)) > 32000 then .error .valueError else .ok () := by
  have h1 := run_sounding (History.new hnew) rs
  have h2 := run_sounding (History.new hnew) (rs ++ [r])
  rw [List.nil_append] at h1 h2
  have hr : run (addSounding env) b0 (rs ++ [r]) = (addSounding env (run (addSounding env) b0 rs) r).1 := by
    unfold run; rw [List.foldl_append]; rfl
  rw [← h2.headers_eq, hr]
  have hc := checkSounding_eq env b0.names r
  rw [hx] at hc
  have : addSounding env (run (addSounding env) b0 rs) r = (run (addSounding env) b0 rs).enter env x.place.1 x.place.2 x.value :=
    addSounding_of (by rw [h1.names]; exact hc)
  rw [this, Builder.enter_outcome]
  rfl

theorem station_refused {env : NumEnv ρ κ} {b : Builder κ (List ρ)} {r : AddReq κ ρ} (hx : sfEntry env b.names r = none) :
    (addStation env b r).1 = b ∧ ∃ e, (addStation env b r).2 = .error e := by
  have hc := checkStation_eq env b.names r
  rw [hx] at hc
  obtain ⟨e, he⟩ := hc
  unfold addStation
  rw [he]
  exact ⟨rfl, e, rfl⟩

theorem sounding_refused {env : NumEnv ρ κ} {b : Builder κ (List (List ρ))} {r : AddReq κ (List ρ)}
    (hx : snEntry env b.names r = none) : (addSounding env b r).1 = b ∧ ∃ e, (addSounding env b r).2 = .error e := by
  have hc := checkSounding_eq env b.names r
  rw [hx] at hc
  obtain ⟨e, he⟩ := hc
  unfold addSounding
  rw [he]
  exact ⟨rfl, e, rfl⟩

theorem addParameters_length {env : NumEnv ρ κ} {ps names : List Text} (h : addParameters env ps = .ok names) :
    names.length ≤ ps.length ∧ ps.length ≤ 44 := by
  unfold addParameters at h
  split at h
  · cases h
  rename_i hp
  dsimp only at h
  split at h
  · have h' := Except.ok.inj h
    have : ∀ (l acc : List Text), (l.foldl (fun acc p => if p ∈ acc then acc else acc ++ [env.upper p]) acc).length ≤ acc.length + l.length := by
      intro l
      induction l with
      | nil => intro acc; simp
      | cons p l ih =>
        intro acc
        rw [List.foldl_cons]
        refine (ih _).trans ?_
        split <;> simp <;> omega
    have h2 := this ps []
    rw [h'] at h2
    have : mmparm = 44 := rfl
    simp only [List.length_nil] at h2
    omega
  · cases h

/-! ## Limits -/

/-- C19: a file never has more than 44 parameters; more than 44 raise. -/
theorem C19_parameters (env : NumEnv ρ κ) (ps : List Text) :
    (∀ b : Builder κ β, newBuilder env ps = .ok b → b.names.length ≤ 44) ∧
      (44 < ps.length → newBuilder (β := β) env ps = .error .valueError) := by
  constructor
  · intro b h
    unfold newBuilder at h
    cases hp : addParameters env ps with
    | error e => rw [hp] at h; cases h
    | ok names =>
      rw [hp] at h
      have := addParameters_length hp
      have h' := Except.ok.inj h
      subst h'
      show names.length ≤ 44
      omega
  · intro h
    have : addParameters env ps = .error .valueError := by
      unfold addParameters
      rw [if_pos (show ps.length > mmparm from h)]
    unfold newBuilder
    rw [this]; rfl

/-- C19: after any history, `add_station` succeeds exactly when the request is acceptable and the times and sites of all
acceptable requests so far need no more than 32000 headers. -/
theorem C19_station (env : NumEnv ρ κ) (ps : List Text) (b0 : Builder κ (List ρ)) (hnew : newBuilder env ps = .ok b0)
    (rs : List (AddReq κ ρ)) (r : AddReq κ ρ) :
    (addStation env (run (addStation env) b0 rs) r).2 = .ok () ↔
      (sfEntry env b0.names r).isSome ∧ headers ((rs ++ [r]).filterMap (sfEntry env b0.names)) ≤ 32000 := by
  cases hx : sfEntry env b0.names r with
  | none =>
    have hn := (run_station (History.new hnew) rs).names
    obtain ⟨_, e, he⟩ := station_refused (b := run (addStation env) b0 rs) (by rw [hn]; exact hx)
    rw [he]
    simp
  | some x =>
    rw [station_outcome hnew rs r hx]
    split
    · exact ⟨fun h => (nomatch h), fun h => absurd h.2 (by omega)⟩
    · exact ⟨fun _ => ⟨rfl, by omega⟩, fun _ => rfl⟩

/-- C19: `add_sounding` likewise. -/
theorem C19_sounding (env : NumEnv ρ κ) (ps : List Text) (b0 : Builder κ (List (List ρ))) (hnew : newBuilder env ps = .ok b0)
    (rs : List (AddReq κ (List ρ))) (r : AddReq κ (List ρ)) :
    (addSounding env (run (addSounding env) b0 rs) r).2 = .ok () ↔
      (snEntry env b0.names r).isSome ∧ headers ((rs ++ [r]).filterMap (snEntry env b0.names)) ≤ 32000 := by
  cases hx : snEntry env b0.names r with
  | none =>
    have hn := (run_sounding (History.new hnew) rs).names
    obtain ⟨_, e, he⟩ := sounding_refused (b := run (addSounding env) b0 rs) (by rw [hn]; exact hx)
    rw [he]
    simp
  | some x =>
    rw [sounding_outcome hnew rs r hx]
    split
    · exact ⟨fun h => (nomatch h), fun h => absurd h.2 (by omega)⟩
    · exact ⟨fun _ => ⟨rfl, by omega⟩, fun _ => rfl⟩

/-- C19: a file on which the last call succeeded has at most 32000 headers. -/
theorem C19_headers (env : NumEnv ρ κ) (ps : List Text) (b0 : Builder κ (List ρ)) (hnew : newBuilder env ps = .ok b0)
    (rs : List (AddReq κ ρ)) (r : AddReq κ ρ) (hok : (addStation env (run (addStation env) b0 rs) r).2 = .ok ()) :
    (run (addStation env) b0 (rs ++ [r])).rows + (run (addStation env) b0 (rs ++ [r])).columns ≤ 32000 := by
  have h2 := run_station (History.new hnew) (rs ++ [r])
  rw [List.nil_append] at h2
  rw [h2.headers_eq]
  exact ((C19_station env ps b0 hnew rs r).1 hok).2

/-- C19: the same for soundings. -/
theorem C19_sounding_headers (env : NumEnv ρ κ) (ps : List Text) (b0 : Builder κ (List (List ρ))) (hnew : newBuilder env ps = .ok b0)
    (rs : List (AddReq κ (List ρ))) (r : AddReq κ (List ρ)) (hok : (addSounding env (run (addSounding env) b0 rs) r).2 = .ok ()) :
    (run (addSounding env) b0 (rs ++ [r])).rows + (run (addSounding env) b0 (rs ++ [r])).columns ≤ 32000 := by
  have h2 := run_sounding (History.new hnew) (rs ++ [r])
  rw [List.nil_append] at h2
  rw [h2.headers_eq]
  exact ((C19_sounding env ps b0 hnew rs r).1 hok).2

/-! ## Failing calls -/

/-- C69 (part): a call refused because of its arguments leaves the object, and so anything saved later, unchanged.  Missing:
the call that exceeds the header limit, see `C69_counterexample`. -/
theorem C69_refused_partial (env : NumEnv ρ κ) :
    (∀ (b : Builder κ (List ρ)) (r : AddReq κ ρ), sfEntry env b.names r = none →
      (∃ e, (addStation env b r).2 = .error e) ∧ (addStation env b r).1 = b) ∧
    ∀ (b : Builder κ (List (List ρ))) (r : AddReq κ (List ρ)), snEntry env b.names r = none →
      (∃ e, (addSounding env b r).2 = .error e) ∧ (addSounding env b r).1 = b :=
  ⟨fun _ _ h => ⟨(station_refused h).2, (station_refused h).1⟩, fun _ _ h => ⟨(sounding_refused h).2, (sounding_refused h).1⟩⟩

/-- C69: once the limit is exceeded, every later call fails: those that would only replace a report as well. -/
theorem C69_stuck (env : NumEnv ρ κ) (ps : List Text) (b0 : Builder κ (List ρ)) (hnew : newBuilder env ps = .ok b0)
    (rs ss : List (AddReq κ ρ)) (r s : AddReq κ ρ) (hr : (sfEntry env b0.names r).isSome)
    (hfail : (addStation env (run (addStation env) b0 rs) r).2 ≠ .ok ()) :
    (addStation env (run (addStation env) b0 (rs ++ r :: ss)) s).2 ≠ .ok () := by
  intro h
  apply hfail
  rw [C19_station env ps b0 hnew] at h ⊢
  refine ⟨hr, (headers_mono ?_).trans h.2⟩
  intro x hx
  obtain ⟨q, hq, hq2⟩ := List.mem_filterMap.1 hx
  refine List.mem_filterMap.2 ⟨q, ?_, hq2⟩
  simp only [List.mem_append, List.mem_cons, List.not_mem_nil, or_false] at hq ⊢
  tauto

/-- A host with integers for numbers. -/
def intEnv : NumEnv F32 Int where
  isNaN _ := false
  missing := missingF32
  f32 x := .ok x
  f32_missing := rfl
  centi x := .ok (x * 100)
  leK x y := decide (x ≤ y)
  upper t := t
  ident _ := true
  parse _ := .error .valueError
  parse_valid := by intro _ _ h; cases h
  parseInt _ := .error .valueError

/-- Requests at different times for one site. -/
def timed (i : Nat) : AddReq Int F32 := ⟨[], some 40, some (-100), .dt ⟨2020, 1, 1⟩ ⟨0, 0, 0, i⟩, none⟩

/-- The entry of such a request. -/
def timedEntry (i : Nat) : Entry Int (List F32) :=
  ⟨⟨2020, 1, 1⟩, ⟨0, 0, 0, i⟩, [], -9999, 40, -100, -9999, [], [], 0, []⟩

theorem timed_entry (i : Nat) : sfEntry intEnv [] (timed i) = some (timedEntry i) := rfl

theorem timed_headers (l : List Nat) (h : l ≠ []) : headers (l.map timedEntry) = l.dedup.length + 1 := by
  unfold headers
  have h1 : (l.map timedEntry).map Entry.time = l.map fun i => ((⟨2020, 1, 1⟩, ⟨0, 0, 0, i⟩) : Date × Clock) := by
    rw [List.map_map]; rfl
  have h2 : (l.map timedEntry).map Entry.site =
      List.replicate l.length (⟨[], -9999, 40, -100, -9999, [], [], 0⟩ : Site Int) := by
    rw [List.map_map, List.eq_replicate_iff]
    refine ⟨by rw [List.length_map], ?_⟩
    intro x hx
    obtain ⟨_, _, rfl⟩ := List.mem_map.1 hx
    rfl
  rw [h1, h2, List.dedup_map_of_injective (by
    intro i j h
    simp only [Prod.mk.injEq, Clock.mk.injEq] at h
    exact h.2.2.2.2), List.length_map, List.replicate_dedup (by
    rw [Ne, List.length_eq_zero_iff]; exact h)]
  rfl

/-- C69 does not hold for the call that exceeds the header limit: it raises, yet afterwards a call that would have succeeded
before (replacing an existing report) raises too. -/
theorem C69_counterexample :
    ∃ (b0 : Builder Int (List F32)) (rs : List (AddReq Int F32)) (r s : AddReq Int F32), newBuilder intEnv [] = .ok b0 ∧
      (addStation intEnv (run (addStation intEnv) b0 rs) r).2 = .error .valueError ∧
      (addStation intEnv (run (addStation intEnv) b0 rs) s).2 = .ok () ∧
      (addStation intEnv (addStation intEnv (run (addStation intEnv) b0 rs) r).1 s).2 = .error .valueError := by
  have hnew : newBuilder intEnv [] = .ok (⟨[], ⟨[]⟩, ⟨[]⟩, [], 0, 0, [], []⟩ : Builder Int (List F32)) := rfl
  have hfm : ∀ l : List Nat, (l.map timed).filterMap (sfEntry intEnv []) = l.map timedEntry := by
    intro l
    rw [List.filterMap_map]
    have : sfEntry intEnv [] ∘ timed = fun i => some (timedEntry i) := funext timed_entry
    rw [this]
    exact List.filterMap_eq_map' ▸ rfl
  have key : ∀ (l : List Nat) (i : Nat), (addStation intEnv (run (addStation intEnv)
      (⟨[], ⟨[]⟩, ⟨[]⟩, [], 0, 0, [], []⟩ : Builder Int (List F32)) (l.map timed)) (timed i)).2 =
      if (l ++ [i]).dedup.length + 1 > 32000 then .error .valueError else .ok () := by
    intro l i
    rw [station_outcome hnew (l.map timed) (timed i) (timed_entry i)]
    have : l.map timed ++ [timed i] = (l ++ [i]).map timed := by rw [List.map_append]; rfl
    rw [this]
    have h2 := hfm (l ++ [i])
    dsimp only
    rw [h2, timed_headers _ (by simp)]
  have hnd : ∀ n, (List.range n).dedup.length = n := by
    intro n
    rw [List.Nodup.dedup List.nodup_range, List.length_range]
  have hrun : ∀ (n : Nat) (b : Builder Int (List F32)), (addStation intEnv (run (addStation intEnv) b ((List.range n).map timed)) (timed n)).1 =
      run (addStation intEnv) b ((List.range (n + 1)).map timed) := by
    intro n b
    rw [List.range_succ, List.map_append]
    unfold run
    rw [List.foldl_append]; rfl
  obtain ⟨n, hn⟩ : ∃ n, n = 31999 := ⟨_, rfl⟩
  refine ⟨_, (List.range n).map timed, timed n, timed 0, hnew, ?_, ?_, ?_⟩
  · rw [key, ← List.range_succ, hnd, if_pos (by omega)]
  · rw [key]
    have : (List.range n ++ [0]).dedup.length ≤ (List.range n).dedup.length := by
      apply dedup_length_mono
      intro x hx
      rcases List.mem_append.1 hx with hx | hx
      · exact hx
      · rw [List.mem_singleton] at hx
        subst hx
        exact List.mem_range.2 (by omega)
    rw [hnd] at this
    rw [if_neg (by omega)]
  · rw [hrun, key]
    have : (List.range (n + 1)).dedup.length ≤ (List.range (n + 1) ++ [0]).dedup.length :=
      dedup_length_mono fun x hx => List.mem_append_left _ hx
    rw [hnd] at this
    rw [if_pos (by omega)]

end Gempak
