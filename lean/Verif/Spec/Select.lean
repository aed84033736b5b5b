import Verif.Model.Surface

/-!
# Specification of selections

Which listed sites a query for surface reports or soundings asks for.
-/

namespace Gempak.Spec

/-- A text criterion asks for a value: one of the given texts in upper case. -/
def Asks (upper : Text → Text) : StrArg → Text → Prop
  | .one x, t => t = upper x
  | .many l, t => ∃ x ∈ l, t = upper x

/-- A text criterion whose lists are taken as they are. -/
def AsksExactly (upper : Text → Text) : StrArg → Text → Prop
  | .one x, t => t = upper x
  | .many l, t => t ∈ l

/-- A time criterion asks for a time: one of the given ones, or the earliest or latest listed. -/
def AsksTime (all : List SiteInfo) : TimeSel → Date × Clock → Prop
  | .these l, t => t ∈ l
  | .first, t => ∀ s ∈ all, instant t ≤ instant s.dattim
  | .last, t => ∀ s ∈ all, instant s.dattim ≤ instant t

/-- Inside the box, in degrees, borders included. -/
def Inside (b : BBox) (lat lon : Int) : Prop :=
  b.left ≤ (lon : Rat) / 100 ∧ (lon : Rat) / 100 ≤ b.right ∧ b.bottom ≤ (lat : Rat) / 100 ∧ (lat : Rat) / 100 ≤ b.top

/-- The listed site satisfies every criterion given; `asks` says what is done with `state` and `country`. -/
structure Wanted (upper : Text → Text) (asks : StrArg → Text → Prop) (q : SiteQuery) (all : List SiteInfo) (s : SiteInfo) : Prop where
  id : ∀ a, q.stationId = some a → Asks upper a s.id
  number : ∀ l, q.stationNumber = some l → s.number ∈ l
  time : ∀ t, q.dateTime = some t → AsksTime all t s.dattim
  state : ∀ a, q.state = some a → asks a s.state
  country : ∀ a, q.country = some a → asks a s.country
  box : ∀ b, q.bbox = some b → Inside b s.lat s.lon

open scoped Classical in
/-- The listed sites satisfying every criterion, in the order of the list. -/
noncomputable def selected (upper : Text → Text) (asks : StrArg → Text → Prop) (q : SiteQuery) (all : List SiteInfo) : List SiteInfo :=
  all.filter fun s => decide (Wanted upper asks q all s)

/-- All times listed are times that exist. -/
def TimesExist (all : List SiteInfo) : Prop := ∀ s ∈ all, s.dattim.1.Valid ∧ s.dattim.2.Valid

/-- The query asks for the earliest or latest time. -/
def AsksExtreme (q : SiteQuery) : Prop := q.dateTime = some .first ∨ q.dateTime = some .last

end Gempak.Spec
