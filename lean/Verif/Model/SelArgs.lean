import Verif.Model.GridRead
import Verif.Model.Surface
import Verif.Model.SoundingData

/-!
# Forms of selection arguments

How `snxarray`, `sfjson`, `gdxarray` and `nearest_time` take the times and station numbers to select by:
a value, a text, a list or a tuple (/repo/src/gempakio/decode/gempak.py:1011-1046, 2053-2082, 2682-2711, 2798-2826).
`datetime.strptime(.., '%Y%m%d%H%M')` and `int` of a text are parameters.
-/

namespace Gempak

/-- `str.upper`, `strptime` and `int` of a text. -/
structure SelEnv where
  upper : Text → Text
  parse : Text → Except PyErr (Date × Clock)
  toInt : Text → Except PyErr Int

/-- A time in an argument. -/
inductive TimeItem where
  | at (t : Date × Clock) | text (s : Text)
  deriving DecidableEq

/-- A time argument. -/
inductive TimeArg where
  | one (x : TimeItem) | list (l : List TimeItem) | tuple (l : List TimeItem)

/-- `date_time[i] = datetime.strptime(dt, '%Y%m%d%H%M')` for each text of a list (decode/gempak.py:2071-2073): the list of the
caller after the loop, and its times or the exception. -/
def replaceTexts (env : SelEnv) : List TimeItem → List TimeItem × Except PyErr (List (Date × Clock))
  | [] => ([], .ok [])
  | .at t :: r => (.at t :: (replaceTexts env r).1, (replaceTexts env r).2.map (t :: ·))
  | .text s :: r =>
    match env.parse s with
    | .error e => (.text s :: r, .error e)
    | .ok t => (.at t :: (replaceTexts env r).1, (replaceTexts env r).2.map (t :: ·))

/-- The same loop over a tuple: the first text raises, `ValueError` when it is no time and `TypeError` at the assignment otherwise. -/
def tupleTimes (env : SelEnv) : List TimeItem → Except PyErr (List (Date × Clock))
  | [] => .ok []
  | .at t :: r => (tupleTimes env r).map (t :: ·)
  | .text s :: _ =>
    match env.parse s with
    | .error e => .error e
    | .ok _ => .error .typeError

/-- The time criterion (decode/gempak.py:1016-1025, 2063-2073, 2808-2818). -/
def timeArg (env : SelEnv) : TimeArg → Except PyErr TimeSel
  | .one (.at t) => .ok (.these [t])
  | .one (.text s) =>
    if s = txt "first" ∨ s = txt "FIRST" then .ok .first
    else if s = txt "last" ∨ s = txt "LAST" then .ok .last
    else (env.parse s).map fun t => .these [t]
  | .list l => (replaceTexts env l).2.map .these
  | .tuple l => (tupleTimes env l).map .these

/-- A station number in an argument. -/
inductive NumItem where
  | num (n : Int) | text (s : Text)

/-- `int(sn)`. -/
def NumItem.int (env : SelEnv) : NumItem → Except PyErr Int
  | .num n => .ok n
  | .text s => env.toInt s

/-- A station number argument. -/
inductive NumArg where
  | one (n : Int) | text (s : Text) | list (l : List NumItem)

/-- `[int(sn) for sn in station_number]` (decode/gempak.py:2058-2061, 2698-2701, 2803-2806): a text is iterated too. -/
def numArg (env : SelEnv) : NumArg → Except PyErr (List Int)
  | .one n => .ok [n]
  | .text s => s.mapM fun c => env.toInt [c]
  | .list l => l.mapM (NumItem.int env)

/-- Arguments of `snxarray` and `sfjson`. -/
structure SiteArgs where
  stationId : Option StrArg := none
  stationNumber : Option NumArg := none
  dateTime : Option TimeArg := none
  state : Option StrArg := none
  country : Option StrArg := none
  bbox : Option BBox := none

/-- The criteria they stand for (decode/gempak.py:2053-2082, 2798-2826). -/
def SiteArgs.query (env : SelEnv) (a : SiteArgs) : Except PyErr SiteQuery := do
  let n ← optM (numArg env) a.stationNumber
  let t ← optM (timeArg env) a.dateTime
  .ok ⟨a.stationId, n, t, a.state, a.country, a.bbox⟩

/-- `sfjson` with its arguments (decode/gempak.py:2751-2892). -/
def SurfaceReader.sfjsonArgs (f : SurfaceReader) (env : SelEnv) (lower : Text → Text) (a : SiteArgs) (special : Bool) :
    Except PyErr (List SfObj) := do
  f.sfjson env.upper lower (← a.query env) special

/-- `snxarray` with its arguments, for merged files (decode/gempak.py:2011-2180). -/
def SoundingReader.snxarrayArgs (f : SoundingReader) (env : SelEnv) (lower : Text → Text) (a : SiteArgs) : Except PyErr (List SnObj) := do
  f.snxarray env.upper lower (← a.query env)

/-- Arguments of `gdxarray`; the second time without `None` here. -/
structure GridArgs where
  parameter : Option StrArg := none
  dateTime : Option TimeArg := none
  coordinate : Option StrArg := none
  level : Option (List (Option ℚ)) := none
  dateTime2 : Option TimeArg := none
  level2 : Option (List (Option ℚ)) := none

/-- The second criterion may name absent times; here it does not. -/
def TimeSel.second : TimeSel → TimeSel2
  | .first => .first
  | .last => .last
  | .these l => .these (l.map some)

/-- `gdxarray` with its arguments (decode/gempak.py:956-1150). -/
def gdxarrayArgs (env : SelEnv) (lower : Text → Text) (a : GridArgs) (f : GridFileR) : Except PyErr (List GridObj) := do
  let t ← optM (timeArg env) a.dateTime
  let t2 ← optM (timeArg env) a.dateTime2
  gdxarray env.upper lower ⟨a.parameter, t, a.coordinate, a.level, t2.map TimeSel.second, a.level2⟩ f

/-- Arguments of `nearest_time`, the time as a datetime. -/
structure NearArgs where
  stationId : Option StrArg := none
  stationNumber : Option NumArg := none
  state : Option StrArg := none
  country : Option StrArg := none
  bbox : Option BBox := none

/-- `bool(station_number)`. -/
def NumArg.truthy : NumArg → Bool
  | .one n => n ≠ 0
  | .text s => s ≠ []
  | .list l => !l.isEmpty

/-- Number of filters counted (decode/gempak.py:2685). -/
def NearArgs.nargs (q : NearArgs) : Nat :=
  (if (q.stationId.map StrArg.truthy).getD false then 1 else 0)
    + (if (q.stationNumber.map NumArg.truthy).getD false then 1 else 0)
    + (if (q.state.map StrArg.truthy).getD false then 1 else 0)
    + (if (q.country.map StrArg.truthy).getD false then 1 else 0) + (if q.bbox.isSome then 1 else 0)

/-- `nearest_time` with its arguments (decode/gempak.py:2635-2749). -/
def SurfaceReader.nearestArgs (f : SurfaceReader) (env : SelEnv) (lower : Text → Text) (t : Date × Clock) (q : NearArgs)
    (special : Bool) : Except PyErr (List SfObj) :=
  if q.nargs = 0 then .error .valueError
  else if q.nargs > 1 then .error .notImplemented
  else do
    let ns ← optM (numArg env) q.stationNumber
    let a ← (NearQuery.ids ⟨q.stationId, ns, q.state, q.country, q.bbox⟩ env.upper f.infos).mapM fun id => do
      nearestOf t (← f.sfjson env.upper lower { stationId := some (.one id) } special)
    let b ← (ns.getD []).mapM fun n => do
      nearestOf t (← f.sfjson env.upper lower { stationNumber := some [n] } special)
    .ok (a ++ b)

end Gempak
