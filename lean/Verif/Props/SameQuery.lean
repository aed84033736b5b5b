import Verif.Props.Narrower

/-!
# C132: the order of the values asked for, repetitions and the case of letters do not matter

Two queries that name the same values get the same answer, in the same order and errors included, from any file.
-/

namespace Gempak
open Spec

namespace Spec

/-- Both are absent or both are given and alike. -/
def BothAlike {α : Type} (R : α → α → Prop) : Option α → Option α → Prop
  | none, none => True
  | some a, some b => R a b
  | _, _ => False

/-- The lists name the same values, in any order and any number of times. -/
def SameValues {α : Type} (l k : List α) : Prop := ∀ x, x ∈ l ↔ x ∈ k

/-- The texts are the same but for case. -/
def SameNames (upper : Text → Text) (a b : StrArg) : Prop := SameValues ((textsOf a).map upper) ((textsOf b).map upper)

/-- Texts that are the same but for case, or lists of the same texts. -/
def SameAsGiven (upper : Text → Text) : StrArg → StrArg → Prop
  | .one x, .one y => upper x = upper y
  | .many l, .many k => SameValues l k
  | _, _ => False

/-- The same times. -/
def SameTimes : TimeSel → TimeSel → Prop
  | .first, .first => True
  | .last, .last => True
  | .these l, .these k => SameValues l k
  | _, _ => False

/-- The same second times. -/
def SameTimes2 : TimeSel2 → TimeSel2 → Prop
  | .first, .first => True
  | .last, .last => True
  | .these l, .these k => SameValues l k
  | _, _ => False

/-- The queries name the same values; `same` is for states and countries. -/
structure SameQuery (upper : Text → Text) (same : StrArg → StrArg → Prop) (q r : SiteQuery) : Prop where
  id : BothAlike (SameNames upper) q.stationId r.stationId
  number : BothAlike SameValues q.stationNumber r.stationNumber
  time : BothAlike SameTimes q.dateTime r.dateTime
  state : BothAlike same q.state r.state
  country : BothAlike same q.country r.country
  box : q.bbox = r.bbox

/-- The same for grids. -/
structure GSameQuery (upper : Text → Text) (q r : GridQuery) : Prop where
  parm : BothAlike (SameNames upper) q.parameter r.parameter
  time1 : BothAlike SameTimes q.dateTime r.dateTime
  coord : BothAlike (SameNames upper) q.coordinate r.coordinate
  level1 : BothAlike SameValues q.level r.level
  time2 : BothAlike SameTimes2 q.dateTime2 r.dateTime2
  level2 : BothAlike SameValues q.level2 r.level2

end Spec

theorem filterBy_same {α β : Type} {R : β → β → Prop} {c d : Option β} {p : β → α → Bool} (h : BothAlike R c d)
    (hp : ∀ x y, R x y → ∀ a, p x a = p y a) (l : List α) : filterBy c p l = filterBy d p l := by
  match c, d, h with
  | none, none, _ => rfl
  | some x, some y, h =>
    show l.filter (p x) = l.filter (p y)
    exact List.filter_congr fun a _ => hp x y h a

theorem names_all {upper : Text → Text} {a b : StrArg} (h : SameNames upper a b) (t : Text) : t ∈ a.upperAll upper ↔ t ∈ b.upperAll upper := by
  have e : ∀ a : StrArg, a.upperAll upper = (textsOf a).map upper := by intro a; cases a <;> rfl
  rw [e, e]
  exact h t

theorem given_one {upper : Text → Text} {a b : StrArg} (h : SameAsGiven upper a b) (t : Text) : t ∈ a.upperOne upper ↔ t ∈ b.upperOne upper := by
  match a, b, h with
  | .one x, .one y, h => show t ∈ [upper x] ↔ t ∈ [upper y]; rw [show upper x = upper y from h]
  | .many l, .many k, h => exact h t

/-- The times of two queries are the same, or the same exception is raised. -/
inductive TimesAgree {α : Type} : Except PyErr (Option (List α)) → Except PyErr (Option (List α)) → Prop
  | raised (e) : TimesAgree (.error e) (.error e)
  | found {c d} (h : BothAlike SameValues c d) : TimesAgree (.ok c) (.ok d)

theorem agree_refl {α : Type} (x : Except PyErr (Option (List α))) : TimesAgree x x := by
  cases x with
  | error e => exact .raised e
  | ok c =>
    refine .found ?_
    cases c with
    | none => trivial
    | some l => exact fun _ => Iff.rfl

theorem times_agree {q r : SiteQuery} (h : BothAlike SameTimes q.dateTime r.dateTime) (all : List SiteInfo) : TimesAgree (q.times all) (r.times all) := by
  unfold SiteQuery.times
  match q.dateTime, r.dateTime, h with
  | none, none, _ => exact agree_refl _
  | some .first, some .first, _ => exact agree_refl _
  | some .last, some .last, _ => exact agree_refl _
  | some (.these l), some (.these k), h => exact .found h

theorem gridTimes_agree {c d : Option TimeSel} (h : BothAlike SameTimes c d) (all : List GridInfo) :
    TimesAgree (optM (gridTimes all) c) (optM (gridTimes all) d) := by
  match c, d, h with
  | none, none, _ => exact agree_refl _
  | some .first, some .first, _ => exact agree_refl _
  | some .last, some .last, _ => exact agree_refl _
  | some (.these l), some (.these k), h => exact .found h

theorem gridTimes2_agree {c d : Option TimeSel2} (h : BothAlike SameTimes2 c d) (all : List GridInfo) :
    TimesAgree (optM (gridTimes2 all) c) (optM (gridTimes2 all) d) := by
  match c, d, h with
  | none, none, _ => exact agree_refl _
  | some .first, some .first, _ => exact agree_refl _
  | some .last, some .last, _ => exact agree_refl _
  | some (.these l), some (.these k), h => exact .found h

theorem selectSites_same {upper : Text → Text} {arg : StrArg → List Text} {same : StrArg → StrArg → Prop} {q r : SiteQuery}
    (h : SameQuery upper same q r) (harg : ∀ a b, same a b → ∀ t, t ∈ arg a ↔ t ∈ arg b) (all : List SiteInfo) :
    selectSites upper arg q all = selectSites upper arg r all := by
  unfold selectSites
  have ht := times_agree h.time all
  generalize q.times all = x at ht
  generalize r.times all = y at ht
  cases ht with
  | raised e => rfl
  | found ht =>
    simp only [ok_bind]
    rw [filterBy_same h.country fun a b hab s => by rw [decide_eq_decide]; exact harg a b hab _,
      filterBy_same h.state fun a b hab s => by rw [decide_eq_decide]; exact harg a b hab _, h.box,
      filterBy_same ht fun a b hab s => by rw [decide_eq_decide]; exact hab _,
      filterBy_same h.id fun a b hab s => by rw [decide_eq_decide]; exact names_all hab _,
      filterBy_same h.number fun a b hab s => by rw [decide_eq_decide]; exact hab _]

theorem selectGrids_same {upper : Text → Text} {q r : GridQuery} (h : GSameQuery upper q r) (all : List GridInfo) :
    selectGrids upper q all = selectGrids upper r all := by
  unfold selectGrids
  have h1 := gridTimes_agree h.time1 all
  have h2 := gridTimes2_agree h.time2 all
  generalize optM (gridTimes all) q.dateTime = x1 at h1
  generalize optM (gridTimes all) r.dateTime = y1 at h1
  generalize optM (gridTimes2 all) q.dateTime2 = x2 at h2
  generalize optM (gridTimes2 all) r.dateTime2 = y2 at h2
  cases h1 with
  | raised e => rfl
  | found h1 =>
    cases h2 with
    | raised e => rfl
    | found h2 =>
      simp only [ok_bind]
      rw [filterBy_same h.parm fun a b hab s => by rw [decide_eq_decide]; exact names_all hab _,
        filterBy_same h1 fun a b hab s => by rw [decide_eq_decide]; exact hab _,
        filterBy_same h.coord fun a b hab s => by rw [decide_eq_decide]; exact names_all hab _,
        filterBy_same h.level1 fun a b hab s => by unfold levelIn; rw [decide_eq_decide]; exact hab _,
        filterBy_same h2 fun a b hab s => by rw [decide_eq_decide]; exact hab _,
        filterBy_same h.level2 fun a b hab s => by unfold levelIn; rw [decide_eq_decide]; exact hab _]

/-- **C132** for surface files. -/
theorem C132_surface (g : SurfaceReader) (upper lower : Text → Text) (special : Bool) (q r : SiteQuery) (h : SameQuery upper (SameNames upper) q r) :
    g.sfjson upper lower q special = g.sfjson upper lower r special := by
  unfold SurfaceReader.sfjson
  rw [selectSites_same h fun _ _ hab t => names_all hab t]

/-- **C132** for soundings, merged or not: lists of states and countries have to name them in the same case. -/
theorem C132_sounding_partial {α : Type} [Field α] [LinearOrder α] [IsStrictOrderedRing α] [FloorRing α] (c : Calc α) (e : LevEnv α) (fuel : Nat)
    (g : SoundingReader) (upper lower : Text → Text) (q r : SiteQuery) (h : SameQuery upper (SameAsGiven upper) q r) :
    g.snxarray upper lower q = g.snxarray upper lower r ∧ g.datasets upper lower q = g.datasets upper lower r ∧
      g.unmergedDatasets c e fuel upper lower q = g.unmergedDatasets c e fuel upper lower r := by
  have hs := selectSites_same (arg := StrArg.upperOne upper) h (fun _ _ hab t => given_one hab t) g.sninfo
  have h1 : g.snxarray upper lower q = g.snxarray upper lower r := by
    unfold SoundingReader.snxarray
    rw [hs]
  refine ⟨h1, ?_, ?_⟩
  · unfold SoundingReader.datasets
    rw [h1]
  · unfold SoundingReader.unmergedDatasets
    rw [hs]

/-- C132 is false for soundings when lists of states are involved: the same state, alone and in a list, gets an answer and `KeyError`. -/
theorem C132_case (host : Endian) (b : Bytes) (g : SoundingReader) (upper lower : Text → Text) (all : List SnObj)
    (ho : openSounding host b = .ok g) (hm : g.merged = true) (hall : g.snxarray upper lower {} = .ok all)
    (s : SiteInfo) (hs : s ∈ g.sninfo) (x : Text) (hx : upper x = s.state) (hno : ∀ t ∈ g.sninfo, t.state ≠ x) :
    ∃ q r, SameQuery upper (SameNames upper) q r ∧ g.snxarray upper lower q ≠ g.snxarray upper lower r := by
  obtain ⟨⟨out, h1, _⟩, h2⟩ := C35_case host b g upper lower all ho hm hall s hs x hx hno
  refine ⟨{ state := some (.one x) }, { state := some (.many [x]) }, ⟨trivial, trivial, trivial, fun _ => Iff.rfl, trivial, rfl⟩, ?_⟩
  rw [h1, h2]
  exact fun h => by cases h

/-- **C132** for grids. -/
theorem C132_grid (f : GridFileR) (upper lower : Text → Text) (q r : GridQuery) (h : GSameQuery upper q r) :
    gdxarray upper lower q f = gdxarray upper lower r f := by
  unfold gdxarray
  rw [selectGrids_same h]

/-- C132 for `nearest_time`: it goes through the stations in the order of the list, and again when one is named again, so the result for a list is
that for its first part followed by that for the rest. -/
theorem C132_nearest (g : SurfaceReader) (upper lower : Text → Text) (t : Date × Clock) (special : Bool) (l k : List Text) (x y : List SfObj)
    (hx : g.nearestTime upper lower t { stationId := some (.many l) } special = .ok x)
    (hy : g.nearestTime upper lower t { stationId := some (.many k) } special = .ok y) :
    g.nearestTime upper lower t { stationId := some (.many (l ++ k)) } special = .ok (x ++ y) := by
  have e : ∀ l : List Text, l ≠ [] → g.nearestTime upper lower t { stationId := some (.many l) } special = (do
      let a ← (l.map upper).mapM fun id => do nearestOf t (← g.sfjson upper lower { stationId := some (.one id) } special)
      .ok (a ++ [])) := by
    intro l hl
    cases l with
    | nil => exact absurd rfl hl
    | cons i l => rfl
  have h1 : l ≠ [] := by rintro rfl; cases hx
  have h2 : k ≠ [] := by rintro rfl; cases hy
  rw [e l h1] at hx
  rw [e k h2] at hy
  rw [e _ (List.append_ne_nil_of_left_ne_nil h1 k)]
  obtain ⟨a, ha, hx⟩ := bind_inv hx
  obtain ⟨b, hb, hy⟩ := bind_inv hy
  obtain rfl := Except.ok.inj hx
  obtain rfl := Except.ok.inj hy
  rw [List.map_append, List.mapM_append, ha]
  simp only [ok_bind, hb]
  simp only [pure, Except.pure, ok_bind, List.append_nil]

/-- C132 is false for `nearest_time`: a station named twice is returned twice. -/
theorem C132_nearest_twice (g : SurfaceReader) (upper lower : Text → Text) (t : Date × Clock) (special : Bool) (i : Text) (x : SfObj)
    (hx : g.nearestTime upper lower t { stationId := some (.many [i]) } special = .ok [x]) :
    g.nearestTime upper lower t { stationId := some (.many [i, i]) } special = .ok [x, x] :=
  C132_nearest g upper lower t special [i] [i] [x] [x] hx hx

/-! ## Cases -/

/-- A station of a file of surface reports and its nearest report. -/
example : ∃ (bytes : Bytes) (g : SurfaceReader) (x : SfObj), openSurface .little bytes = .ok g ∧
    g.nearestTime id id (⟨2020, 1, 1⟩, ⟨0, 0, 0, 0⟩) { stationId := some (.many [txt "KDENVER"]) } true = .ok [x] := by
  obtain ⟨bytes, g, h1, ⟨o, h2, h3⟩, _⟩ := someSelection
  cases o with
  | nil => exact absurd rfl h3
  | cons a r =>
    have e : g.nearestTime id id (⟨2020, 1, 1⟩, ⟨0, 0, 0, 0⟩) { stationId := some (.many [txt "KDENVER"]) } true = (do
      let a ← [txt "KDENVER"].mapM fun i => do nearestOf (⟨2020, 1, 1⟩, ⟨0, 0, 0, 0⟩) (← g.sfjson id id { stationId := some (.one i) } true)
      .ok (a ++ [])) := rfl
    rw [List.mapM_cons, h2] at e
    exact ⟨bytes, g, _, h1, e⟩

/-- Two queries for the same reports. -/
example : SameQuery asciiUpper (SameNames asciiUpper)
    { stationId := some (.many [txt "oun", txt "TUL"]), stationNumber := some [1, 2, 1], dateTime := some .last, state := some (.one (txt "ok")) }
    { stationId := some (.many [txt "TUL", txt "OUN", txt "tul"]), stationNumber := some [2, 1], dateTime := some .last,
      state := some (.many [txt "OK", txt "Ok"]) } where
  id := by intro x; have e : (textsOf (.many [txt "oun", txt "TUL"])).map asciiUpper = [txt "OUN", txt "TUL"] := by decide
           have e' : (textsOf (.many [txt "TUL", txt "OUN", txt "tul"])).map asciiUpper = [txt "TUL", txt "OUN", txt "TUL"] := by decide
           rw [e, e']; simp; tauto
  number := by intro x; simp; tauto
  time := trivial
  state := by intro x; have e : (textsOf (.one (txt "ok"))).map asciiUpper = [txt "OK"] := by decide
              have e' : (textsOf (.many [txt "OK", txt "Ok"])).map asciiUpper = [txt "OK", txt "OK"] := by decide
              rw [e, e']; simp
  country := trivial
  box := rfl

/-- Two queries for the same grids. -/
example : GSameQuery asciiUpper { parameter := some (.one (txt "tmpk")), level := some [some 500, some 700], dateTime := some .first }
    { parameter := some (.one (txt "TMPK")), level := some [some 700, some 500, some 500], dateTime := some .first } where
  parm := by intro x; have e : (textsOf (.one (txt "tmpk"))).map asciiUpper = [txt "TMPK"] := by decide
             have e' : (textsOf (.one (txt "TMPK"))).map asciiUpper = [txt "TMPK"] := by decide
             rw [e, e']
  time1 := trivial
  coord := trivial
  level1 := by intro x; simp; tauto
  time2 := trivial
  level2 := trivial

end Gempak
