import Mathlib.Data.List.Forall2
import Verif.Model.Station
import Verif.Model.Surface
import Verif.Model.Sounding

/-!
# Station files: specification

What the documentation of `add_station` / `add_sounding` promises, written without the builder: which requests are
accepted, what they say, which of them survive, and what a reader reports for each.
-/

namespace Gempak.Spec
open Gempak

/-- An accepted request: time, site and values. -/
structure Entry (κ β : Type) where
  date : Date
  clock : Clock
  id : Text
  number : Int
  lat : κ
  lon : κ
  elev : Int
  state : Text
  country : Text
  priority : Int
  value : β
  deriving DecidableEq

/-- Two requests concern the same report when all metadata agree. -/
def Entry.SameKey {κ β : Type} (a b : Entry κ β) : Prop :=
  a.date = b.date ∧ a.clock = b.clock ∧ a.id = b.id ∧ a.number = b.number ∧ a.lat = b.lat ∧ a.lon = b.lon ∧ a.elev = b.elev ∧
    a.state = b.state ∧ a.country = b.country ∧ a.priority = b.priority

instance {κ β : Type} [DecidableEq κ] (a b : Entry κ β) : Decidable (a.SameKey b) := by
  unfold Entry.SameKey; infer_instance

/-- Of requests for the same report the last one survives. -/
def final {κ β : Type} [DecidableEq κ] : List (Entry κ β) → List (Entry κ β)
  | [] => []
  | e :: r => if ∃ x ∈ r, e.SameKey x then final r else e :: final r

/-- The value a caller gives for a parameter: keys are compared in upper case, a later one counts. -/
def given {α : Type} (upper : Text → Text) (data : List (Text × α)) (n : Text) : Option α :=
  (data.reverse.find? fun kv => upper kv.1 = n).map Prod.snd

/-- Exactly the parameters of the file are given. -/
def Complete {α : Type} (upper : Text → Text) (names : List Text) (data : List (Text × α)) : Prop :=
  (∀ kv ∈ data, upper kv.1 ∈ names) ∧ ∀ n ∈ names, ∃ kv ∈ data, upper kv.1 = n

instance {α : Type} (upper : Text → Text) (names : List Text) (data : List (Text × α)) : Decidable (Complete upper names data) := by
  unfold Complete; infer_instance

/-- The entry described by metadata. -/
def describe {κ β : Type} (upper : Text → Text) (info : Option StationInfo) (lat lon : κ) (x : Date) (c : Clock) (priority : Int)
    (v : β) : Entry κ β :=
  match info with
  | none => ⟨x, c, [], -9999, lat, lon, -9999, [], [], priority, v⟩
  | some i =>
    ⟨x, c, (upper (i.stationId.getD [])).take 8, i.stationNumber.getD (-9999), lat, lon, i.elevation.getD (-9999),
      (upper (i.state.getD [])).take 4, (upper (i.country.getD [])).take 4, priority, v⟩

/-- The values in the order of the parameters, not-a-number replaced. -/
def valuesOf {ρ κ : Type} (env : NumEnv ρ κ) (names : List Text) (data : List (Text × ρ)) : List ρ :=
  names.filterMap fun n => (given env.upper data n).map env.clean

/-- An accepted surface request: all parameters given, coordinates are numbers, time is a datetime. -/
def sfEntry {ρ κ : Type} (env : NumEnv ρ κ) (names : List Text) (r : AddReq κ ρ) : Option (Entry κ (List ρ)) :=
  match r.slat, r.slon, r.dateTime with
  | some lat, some lon, .dt x c =>
    if Complete env.upper names r.data then
      some (describe env.upper r.info lat lon x c ((r.info.bind StationInfo.priority).getD 0) (valuesOf env names r.data))
    else none
  | _, _, _ => none

/-- The columns in the order of the parameters, not-a-number replaced. -/
def columnsOf {ρ κ : Type} (env : NumEnv ρ κ) (names : List Text) (data : List (Text × List ρ)) : List (List ρ) :=
  names.filterMap fun n => (given env.upper data n).map fun l => l.map env.clean

/-- Columns of one length, fewer than 500 levels; there is at least one column. -/
def Rectangular {α : Type} : List (List α) → Prop
  | [] => False
  | c :: r => c.length < 500 ∧ ∀ x ∈ r, x.length = c.length

instance {α : Type} : (cols : List (List α)) → Decidable (Rectangular cols)
  | [] => inferInstanceAs (Decidable False)
  | c :: r => inferInstanceAs (Decidable (c.length < 500 ∧ ∀ x ∈ r, x.length = c.length))

/-- An accepted sounding request. -/
def snEntry {ρ κ : Type} (env : NumEnv ρ κ) (names : List Text) (r : AddReq κ (List ρ)) :
    Option (Entry κ (List (List ρ))) :=
  match r.slat, r.slon with
  | some lat, some lon =>
    if Complete env.upper names r.data ∧ Rectangular (columnsOf env names r.data) then
      match r.dateTime with
      | .dt x c => some (describe env.upper r.info lat lon x c 0 (columnsOf env names r.data))
      | .str t =>
        match soundingTime env (env.upper t) with
        | .ok (x, c) => some (describe env.upper r.info lat lon x c 0 (columnsOf env names r.data))
        | .error _ => none
      | .other => none
    else none
  | _, _ => none

/-- The time a reader reports: years of 1969–2068 are kept, others move into that window; seconds are dropped. -/
def storedTime (x : Date) (c : Clock) : Date × Clock := (⟨if x.y % 100 ≤ 68 then 2000 + x.y % 100 else 1900 + x.y % 100, x.m, x.d⟩, ⟨c.h, c.mi, 0, 0⟩)

/-- A value read back: the single precision number nearest the (cleaned) value written. -/
def IsFloat {ρ κ : Type} (env : NumEnv ρ κ) (v : ρ) (x : HVal) : Prop := ∃ f, env.f32 v = .ok f ∧ x = .flt f

/-- What `sfjson` reports for an entry. -/
structure IsReport {ρ κ : Type} (env : NumEnv ρ κ) (lower : Text → Text) (names : List Text) (e : Entry κ (List ρ)) (o : SfObj) :
    Prop where
  dateTime : o.dateTime = storedTime e.date e.clock
  stationId : o.stationId = e.id
  stationNumber : o.stationNumber = .int e.number
  latitude : ∃ n, env.centi e.lat = .ok n ∧ o.latitude = .coord n
  longitude : ∃ n, env.centi e.lon = .ok n ∧ o.longitude = .coord n
  elevation : o.elevation = .int e.elev
  state : o.state = .text e.state
  country : o.country = .text e.country
  priority : o.priority = .int e.priority
  keys : o.values.map Prod.fst = names.map lower
  values : List.Forall₂ (IsFloat env) e.value (o.values.map Prod.snd)

/-- A column read back: single precision numbers. -/
def IsColumn {ρ κ : Type} (env : NumEnv ρ κ) (c : List ρ) (x : HVal) : Prop :=
  ∃ fs : List F32, List.Forall₂ (fun v f => env.f32 v = .ok f) c fs ∧ x = .arr fs

/-- The vertical coordinate of a sounding: pressure if there is pressure, otherwise height. -/
def vertParam (names : List Text) : Text := if txt "PRES" ∈ names then txt "PRES" else txt "HGHT"

/-- What `snxarray` reports for an entry; the identifier is cut after four characters. -/
structure IsSounding {ρ κ : Type} (env : NumEnv ρ κ) (lower : Text → Text) (names : List Text) (e : Entry κ (List (List ρ)))
    (o : SnObj) : Prop where
  dateTime : o.dateTime = storedTime e.date e.clock
  stationId : o.stationId = .text (e.id.take 4)
  stationNumber : o.stationNumber = .int e.number
  lat : ∃ n, env.centi e.lat = .ok n ∧ o.lat = .coord n
  lon : ∃ n, env.centi e.lon = .ok n ∧ o.lon = .coord n
  elevation : o.elevation = .int e.elev
  state : o.state = .text e.state
  country : o.country = .text e.country
  vcoord : o.vcoord = if txt "PRES" ∈ names then txt "pres" else txt "hght"
  levels : ∃ c, (vertParam names, c) ∈ names.zip e.value ∧ IsColumn env c o.levels
  vars : List.Forall₂ (fun nc kv => kv.1 = lower nc.1 ∧ IsColumn env nc.2 kv.2)
    ((names.zip e.value).filter fun nc => nc.1 ≠ vertParam names) o.vars

/-- What `sfinfo` (`full`) or `sninfo` lists for an entry. -/
structure IsListed {ρ κ β : Type} (env : NumEnv ρ κ) (full : Bool) (e : Entry κ β) (s : SiteInfo) : Prop where
  time : s.dattim = storedTime e.date e.clock
  id : s.id = if full then e.id else e.id.take 4
  number : s.number = e.number
  lat : env.centi e.lat = .ok s.lat
  lon : env.centi e.lon = .ok s.lon
  elev : s.elev = e.elev
  state : s.state = e.state
  country : s.country = e.country

end Gempak.Spec
