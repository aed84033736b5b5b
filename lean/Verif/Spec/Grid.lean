import Mathlib.Data.List.Forall2
import Verif.Model.GridRead
import Verif.Spec.Station

/-!
# Grid files: specification

What the documentation of `add_grid` promises, written without the builder: which requests are accepted, what they say,
which of them survive, what a reader lists for each and how exact the data are.
-/

namespace Gempak.Spec
open Gempak

/-- Type of forecast, initial time and lead time. -/
structure When where
  type : Nat
  date : Date
  clock : Clock
  hours : Int
  minutes : Int
  deriving DecidableEq, Repr

/-- An accepted request. -/
structure GEntry where
  first : When
  second : Option When
  level : Int
  level2 : Int
  coord : Text
  name : Text
  grid : List (List (Option ℚ))
  deriving DecidableEq

/-- Two requests concern the same grid when everything but the data agrees. -/
def GEntry.SameKey (a b : GEntry) : Prop :=
  a.first = b.first ∧ a.second = b.second ∧ a.level = b.level ∧ a.level2 = b.level2 ∧ a.coord = b.coord ∧ a.name = b.name

instance (a b : GEntry) : Decidable (a.SameKey b) := by unfold GEntry.SameKey; infer_instance

/-- Of requests for the same grid the last one survives. -/
def gfinal : List GEntry → List GEntry
  | [] => []
  | e :: r => if ∃ x ∈ r, e.SameKey x then gfinal r else e :: gfinal r

/-! ## What requests say -/

/-- The letters of forecast types with their numbers: analysis, forecast, valid, guess, initialisation. -/
def letters : List (Char × Nat) := [('A', 0), ('F', 1), ('V', 1), ('G', 2), ('I', 3)]

/-- Number of a letter. -/
def letterNumber (c : Char) : Option Nat := (letters.find? fun l => l.1 = c).map Prod.snd

/-- A date without letter: an analysis at that time; the time of day counts as lead time on the date. -/
def analysis (x : Date) (c : Clock) : When := ⟨0, x, c, c.h, c.mi⟩

/-- Lead times: `hhh`, `hhhmm` or nothing. -/
def leadOf (env : GridEnv) (t : Text) : Option (Int × Int) :=
  if t = [] then some (0, 0)
  else match env.parseInt (t.take 3), (if t.length ≤ 3 then .ok 0 else env.parseInt (t.drop 3)) with
    | .ok h, .ok m => some (h, m)
    | _, _ => none

/-- A text `yyyymmddHHMM` or `yyyymmddHHMM` letter lead time. -/
def whenOf (env : GridEnv) (t : Text) : Option When :=
  let init := t.takeWhile fun c => (letterNumber c).isNone
  match t.dropWhile fun c => (letterNumber c).isNone with
  | [] => (env.parseTime init).toOption.map fun x => analysis x.1 x.2
  | g :: lead =>
    if lead.all fun c => (letterNumber c).isNone then
      match letterNumber g, env.parseTime init, leadOf env lead with
      | some n, .ok x, some l => some ⟨n, x.1, x.2, l.1, l.2⟩
      | _, _, _ => none
    else none

/-- Does the text name a type? -/
def typed (t : Text) : Bool := t.any fun c => (letterNumber c).isSome

/-- First time. -/
def firstOf (env : GridEnv) : DateArg → Option When
  | .dt x c => some (analysis x c)
  | .str t => if 12 ≤ t.length then whenOf env (env.upper t) else none
  | .other => none

/-- Second time; a text needs the first one to be a text, and when it names a type, the same one. -/
def secondOf (env : GridEnv) (first : DateArg) (w : When) : Option DateArg → Option (Option When)
  | none => some none
  | some (.dt x c) => some (some (analysis x c))
  | some (.str t) =>
    match first with
    | .str _ =>
      match whenOf env (env.upper t) with
      | some v => if typed (env.upper t) ∧ v.type ≠ w.type then none else some (some v)
      | none => none
    | _ => none
  | some .other => none

/-- A level: the whole number towards zero. -/
def levelOf : LevelArg → Option Int
  | .num q => some (if 0 ≤ q then ⌊q⌋ else ⌈q⌉)
  | _ => none

/-- A second level, absent ones are stored as `-1`. -/
def level2Of : Option LevelArg → Option Int
  | none => some (-1)
  | some l => levelOf l

/-- The vertical coordinates, as compared and as listed. -/
def coordinates : List (Text × Text) :=
  [(txt "none", txt "NONE"), (txt "pres", txt "PRES"), (txt "thta", txt "THTA"), (txt "hght", txt "HGHT"), (txt "sgma", txt "SGMA"),
    (txt "dpth", txt "DPTH"), (txt "hybd", txt "HYBD"), (txt "pvab", txt "PVAB"), (txt "pvbl", txt "PVBL")]

/-- Vertical coordinate: at most four characters, one of the names. -/
def coordOf (env : GridEnv) (v : Option Text) : Option Text :=
  let t := (v.map env.upper).getD (txt "NONE")
  if t.length ≤ 4 ∧ env.lower t ∈ coordinates.map Prod.fst then some (env.lower t) else none

/-- Name without blanks at the end. -/
def trimEnd (t : Text) : Text := (t.reverse.dropWhile fun c => c = ' ').reverse

/-- Name: at most twelve characters. -/
def nameOf (env : GridEnv) (t : Text) : Option Text :=
  if t.length ≤ 12 ∧ (env.upper t).length ≤ 12 then some (trimEnd (env.upper t)) else none

/-- An accepted request for a grid of `nx` by `ny` points. -/
def gEntry (env : GridEnv) (nx ny : Nat) (r : GridReq) : Option GEntry :=
  if r.grid.length = ny ∧ ∀ row ∈ r.grid, row.length = nx then do
    let n ← nameOf env r.name
    let c ← coordOf env r.vcoord
    let l ← levelOf r.level
    let l2 ← level2Of r.level2
    let t ← firstOf env r.dateTime
    let t2 ← secondOf env r.dateTime t r.dateTime2
    some ⟨t, t2, l, l2, c, n, r.grid⟩
  else none

/-! ## What is listed -/

/-- Time at which a grid is valid: initial time plus lead; an analysis starts at midnight of its day. -/
structure IsValidTime (w : When) (t : Date × Clock) : Prop where
  instant : instant t = instant ((storedTime w.date w.clock).1, if w.type = 0 then ⟨0, 0, 0, 0⟩ else (storedTime w.date w.clock).2) +
    (w.hours * 60 + w.minutes) * 60000000
  valid : t.1.Valid ∧ t.2.Valid

/-- The level a reader reports: negative ones are none. -/
def listedLevel (l : Int) : Option Int := if 0 ≤ l then some l else none

/-- What `gdinfo` lists for an entry. -/
structure IsGridListed (e : GEntry) (g : GridInfo) : Prop where
  type : g.type = e.first.type
  time1 : IsValidTime e.first g.time1
  time2 : (e.second = none ∧ g.time2 = none) ∨ ∃ w t, e.second = some w ∧ g.time2 = some t ∧ IsValidTime w t
  parm : g.parm = e.name
  level1 : g.level1 = listedLevel e.level
  level2 : g.level2 = listedLevel e.level2
  coord : (e.coord, g.coord) ∈ coordinates

/-! ## How exact the data are -/

/-- Missing points: not-a-number, or the missing value of the file. -/
def IsMissing (x : Option ℚ) : Prop := x = none ∨ x = some (-9999)

/-- The value that counts for the range of a grid. -/
def counted (x : Option ℚ) : ℚ := x.getD (-9999)

/-- All values, missing ones included, lie in an interval of this length. -/
def Spread (g : List (List (Option ℚ))) (R : ℚ) : Prop := ∀ x ∈ g.flatten, ∀ y ∈ g.flatten, counted x - counted y ≤ R

/-- All values are this near to single precision numbers. -/
def Near (g : List (List (Option ℚ))) (δ : ℚ) : Prop := ∀ x ∈ g.flatten, ∃ p v, f32Value p = some v ∧ |v - counted x| ≤ δ

/-- Largest error of a value packed in `n` bits: half a step of the scale, and the error of the reference.  Differences below
2⁻⁹⁵ are neglected by the packing. -/
def tolerance (n : ℕ) (R δ : ℚ) : ℚ := R / (2 ^ n - 3 / 2) + 1 / 2 ^ 95 + δ

/-- A point read back. -/
structure IsPoint (n : ℕ) (R δ : ℚ) (x y : Option ℚ) : Prop where
  /-- Missing points stay missing. -/
  missing : IsMissing x → y = none
  /-- Values are near. -/
  value : ∀ v, y = some v → |v - counted x| ≤ tolerance n R δ
  /-- Points read as missing were missing, or near the missing value, or the range was as large as the number of steps. -/
  present : y = none → IsMissing x ∨ |counted x + 9999| ≤ tolerance n R δ ∨ 2 ^ n - 3 / 2 ≤ R

/-- Names of pressure, height and potential temperature are replaced, others are put in lower case. -/
def variableName (lower : Text → Text) (n : Text) : Text :=
  match [(txt "PRES", txt "p"), (txt "HGHT", txt "z"), (txt "THTA", txt "theta")].find? fun x => x.1 = n with
  | some x => x.2
  | none => lower n

/-- What `gdxarray` returns for an entry. -/
structure IsGridRead (lower : Text → Text) (n : ℕ) (e : GEntry) (o : GridObj) : Prop where
  name : o.name = variableName lower e.name
  time : IsValidTime e.first o.time
  type : o.type = e.first.type
  coord : ∃ c, (e.coord, c) ∈ coordinates ∧ o.coord = lower c
  level : o.level = listedLevel e.level
  data : ∀ R δ, Spread e.grid R → Near e.grid δ → List.Forall₂ (List.Forall₂ (IsPoint n R δ)) e.grid o.data

end Gempak.Spec
