import Mathlib.Algebra.Order.Field.Basic
import Mathlib.Algebra.Order.Floor.Defs
import Verif.Model.Base

/-!
# `gemcalc` (src/gempakio/gemcalc.py)

Numbers are elements of an ordered field `α` with two functions standing for `np.log` and `np.exp`; statements about values use the
real numbers, statements about the flow of control hold for every `α`.  Rounding, infinities and not-a-number are not modelled, and a
division by zero gives zero as usual in Lean (theorems about values exclude it).
-/

namespace Gempak

/-- How a run can end without a value: a Python exception, use of a variable that was never assigned (`UnboundLocalError`), or a
`while` loop that has used up the number of rounds it was given. -/
inductive Stop where
  | raised (e : PyErr)
  | unbound
  | outOfFuel
  deriving DecidableEq, Repr

/-- Result of a run. -/
abbrev Run := Except Stop

/-- `np.log` and `np.exp`. -/
structure Calc (α : Type) where
  log : α → α
  exp : α → α

section
variable {α : Type} [Field α] [LinearOrder α]

/-! ## Formulas -/

/-- `vapor_pressure` (src/gempakio/gemcalc.py:464-485). -/
def vaporPressure (c : Calc α) (dwpc missing : α) : α :=
  if dwpc = missing then missing else 6112 / 1000 * c.exp (1767 / 100 * dwpc / (dwpc + 2435 / 10))

/-- The correction factor of `mixing_ratio` (src/gempakio/gemcalc.py:374). -/
def mixCorr (pres : α) : α := 1001 / 1000 + (pres - 100) / 900 * (34 / 10000)

/-- `mixing_ratio` (src/gempakio/gemcalc.py:344-377). -/
def mixingRatio (c : Calc α) (dwpc pres missing : α) : α :=
  if dwpc = missing ∨ pres = missing then missing
  else
    let vapr := vaporPressure c dwpc missing
    if vapr = missing then missing
    else
      let e := mixCorr pres * vapr
      if e > 5 / 10 * pres then missing else 62197 / 100000 * (e / (pres - e)) * 1000

/-- `virtual_temperature` (src/gempakio/gemcalc.py:488-525). -/
def virtualTemperature (c : Calc α) (tmpc dwpc pres missing : α) : α :=
  if tmpc = missing ∨ pres = missing then missing
  else if dwpc = missing then tmpc + 27315 / 100
  else
    let tmpk := tmpc + 27315 / 100
    let rmix := mixingRatio c dwpc pres missing
    if rmix = missing then tmpc + 27315 / 100
    else tmpk * (1 + 1 / 1000 * rmix / (62197 / 100000)) / (1 + 1 / 1000 * rmix)

/-- `Rd / g` (src/gempakio/gemcalc.py:8-12). -/
def rdOverG : α := (28704 / 100) / (980616 / 100000)

/-- `scale_height` (src/gempakio/gemcalc.py:416-461). -/
def scaleHeight (c : Calc α) (tb tt tdb tdt pb pt missing : α) : α :=
  if tb = missing ∨ tt = missing ∨ pb = missing ∨ pt = missing then missing
  else
    let tvbk := virtualTemperature c tb tdb pb missing
    let tvtk := virtualTemperature c tt tdt pt missing
    if tvbk = missing ∨ tvtk = missing then missing
    else rdOverG * ((tvbk + tvtk) * (5 / 10))

/-- `moist_hydrostatic_height` (src/gempakio/gemcalc.py:380-413). -/
def moistHydrostaticHeight (c : Calc α) (zBot pBot pTop scale missing : α) : α :=
  if (zBot = missing ∨ pBot = missing ∨ pTop = missing ∨ scale = missing) ∨ pBot ≤ 0 ∨ pTop ≤ 0 then missing
  else zBot + scale * c.log (pBot / pTop)

/-! ## Interpolation between two levels -/

/-- A level: parameter names with their values. -/
abbrev LevelData (α : Type) := List (String × α)

/-- Dictionary lookup; `KeyError`. -/
def getKey (d : LevelData α) (k : String) : Except PyErr α :=
  match d.find? (fun x => x.1 = k) with
  | some x => .ok x.2
  | none => .error .keyError

/-- Dictionary assignment: an existing key keeps its place. -/
def setKey (d : LevelData α) (k : String) (v : α) : LevelData α :=
  if d.any (fun x => x.1 = k) then d.map (fun x => if x.1 = k then (k, v) else x) else d ++ [(k, v)]

/-- `x % 360`. -/
def mod360 [FloorRing α] (x : α) : α := x - 360 * ((⌊x / 360⌋ : Int) : α)

/-- The direction branch (src/gempakio/gemcalc.py:325-334). -/
def interpDirection [FloorRing α] (aval bval rmult : α) : α :=
  let ang1 := mod360 aval
  let ang2 := mod360 bval
  let p : α × α :=
    if |ang1 - ang2| > 180 then (if ang1 < ang2 then (ang1 + 360, ang2) else (ang1, ang2 + 360)) else (ang1, ang2)
  mod360 (p.1 + (p.2 - p.1) * rmult)

/-- One parameter (src/gempakio/gemcalc.py:324-339). -/
def interpParam [FloorRing α] (rmult missing : α) (param : String) (aval bval : α) : α :=
  if missing = aval ∨ missing = bval then missing
  else if param = "DRCT" then interpDirection aval bval rmult
  else aval + (bval - aval) * rmult

/-- The loop over the parameters of the lower level (src/gempakio/gemcalc.py:323-339). -/
def interpLoop [FloorRing α] (rmult missing : α) (bdata : LevelData α) : LevelData α → LevelData α → Except PyErr (LevelData α)
  | [], out => .ok out
  | (param, aval) :: r, out => do
    let bval ← getKey bdata param
    interpLoop rmult missing bdata r (setKey out param (interpParam rmult missing param aval bval))

/-- Strictly between (src/gempakio/gemcalc.py:311-313). -/
def strictlyBetween (p1 p2 v : α) : Prop := (p1 < p2 ∧ p1 < v ∧ v < p2) ∨ (p2 < p1 ∧ p2 < v ∧ v < p1)

instance (p1 p2 v : α) : Decidable (strictlyBetween p1 p2 v) := by unfold strictlyBetween; infer_instance

/-- `interp_parameters` (src/gempakio/gemcalc.py:284-341). -/
def interpParameters [FloorRing α] (c : Calc α) (vlev : α) (adata bdata : LevelData α) (missing : α) :
    Except PyErr (LevelData α) := do
  let pres1 ← getKey adata "PRES"
  let pres2 ← getKey bdata "PRES"
  if ¬ strictlyBetween pres1 pres2 vlev then .error .valueError
  else if pres1 ≤ 0 ∨ pres2 ≤ 0 then .error .valueError
  else interpLoop (c.log (vlev / pres1) / c.log (pres2 / pres1)) missing bdata adata [("PRES", vlev)]

/-! ## Soundings -/

/-- The six columns of a sounding. -/
structure Snd (α : Type) where
  pres : List α
  hght : List α
  temp : List α
  dwpt : List α
  drct : List α
  sped : List α
  deriving DecidableEq, Repr

/-- Indexing; `IndexError`. -/
def idx (l : List α) (i : Nat) : Run α :=
  match l[i]? with
  | some v => .ok v
  | none => .error (.raised .indexError)

/-- Assignment to an index; `IndexError`. -/
def put (l : List α) (i : Nat) (v : α) : Run (List α) :=
  if i < l.length then .ok (l.set i v) else .error (.raised .indexError)

/-! ### `interp_logp_height` -/

/-- The search for the uppermost level with a height (src/gempakio/gemcalc.py:28-37), from `k` downwards; level 0 is not looked at. -/
def lastHeight (h : List α) (missing : α) : Nat → Option Nat
  | 0 => none
  | k + 1 => if h[k + 1]? ≠ some missing then some (k + 1) else lastHeight h missing k

/-- The `while pres <= ptop` loop (src/gempakio/gemcalc.py:53-59), at most `fuel` rounds. -/
def findTop (s : Snd α) (missing pres : α) : Nat → Nat → α → Option α → Run (α × Option α)
  | fuel, ilev, ptop, ztop =>
    if pres ≤ ptop then
      match fuel with
      | 0 => .error .outOfFuel
      | fuel + 1 => do
        let h ← idx s.hght ilev
        if h ≠ missing then do
          let p ← idx s.pres ilev
          findTop s missing pres fuel ilev p (some h)
        else findTop s missing pres fuel (ilev + 1) ptop ztop
    else .ok (ptop, ztop)

/-- Variables of the first loop: `pbot`, `zbot` and `ptop` (assigned together) and `ztop`. -/
structure BotTop (α : Type) where
  bot : Option (α × α × α)
  ztop : Option α

/-- One round of the first loop (src/gempakio/gemcalc.py:40-62). -/
def heightStep (c : Calc α) (missing : α) (fuel i : Nat) (s : Snd α) (v : BotTop α) : Run (Snd α × BotTop α) := do
  let pres ← idx s.pres i
  let hght ← idx s.hght i
  if pres = missing then .ok (s, v)
  else if hght ≠ missing then .ok (s, ⟨some (pres, hght, 2000), v.ztop⟩)
  else
    match v.bot with
    | none => .ok (s, v)
    | some (pbot, zbot, ptop) => do
      let t ← findTop s missing pres fuel (i + 1) ptop v.ztop
      match t.2 with
      | none => .error .unbound
      | some ztop => do
        let h ← put s.hght i (zbot + (ztop - zbot) * (c.log (pres / pbot) / c.log (t.1 / pbot)))
        .ok ({ s with hght := h }, ⟨some (pbot, zbot, t.1), some ztop⟩)

/-- The first loop: `n` rounds from `i`. -/
def heightLoop (c : Calc α) (missing : α) (fuel : Nat) : Nat → Nat → Snd α → BotTop α → Run (Snd α)
  | 0, _, s, _ => .ok s
  | n + 1, i, s, v => do
    let r ← heightStep c missing fuel i s v
    heightLoop c missing fuel n (i + 1) r.1 r.2

/-- Bottom of the layer in the second loop. -/
structure Layer (α : Type) where
  p : α
  z : α
  t : α
  td : α

/-- Computing a missing height from the layer below (src/gempakio/gemcalc.py:77-82). -/
def extendStep (c : Calc α) (missing dflt : α) (i : Nat) (s : Snd α) (b : Layer α) (h : α) : Run (Snd α) :=
  if h = missing then do
    let tt ← idx s.temp i
    let tdt ← idx s.dwpt i
    let pt ← idx s.pres i
    let scale := scaleHeight c b.t tt b.td tdt b.p pt missing
    let h' ← put s.hght i (moistHydrostaticHeight c b.z b.p pt scale dflt)
    .ok { s with hght := h' }
  else .ok s

/-- The second loop (src/gempakio/gemcalc.py:76-88): `n` rounds from `i`; the height is computed with the default missing value. -/
def extendLoop (c : Calc α) (missing dflt : α) : Nat → Nat → Snd α → Layer α → Run (Snd α)
  | 0, _, s, _ => .ok s
  | n + 1, i, s, b => do
    let h ← idx s.hght i
    let s' ← extendStep c missing dflt i s b h
    let t ← idx s'.temp i
    let z ← idx s'.hght i
    if t ≠ missing ∧ z ≠ missing then do
      let p ← idx s'.pres i
      let td ← idx s'.dwpt i
      extendLoop c missing dflt n (i + 1) s' ⟨p, z, t, td⟩
    else extendLoop c missing dflt n (i + 1) s' b

/-- `interp_logp_height` (src/gempakio/gemcalc.py:15-88).  `-9999` is the default of `moist_hydrostatic_height`, which is called without a missing
value. -/
def interpLogpHeight (c : Calc α) (missing : α) (fuel : Nat) (s : Snd α) : Run (Snd α) :=
  if s.hght.length = 0 then .error (.raised .indexError)
  else do
    let size := s.hght.length
    match lastHeight s.hght missing (size - 1) with
    | some maxlev => do
      let s1 ← heightLoop c missing fuel maxlev 0 s ⟨none, none⟩
      if maxlev < size - 1 then do
        let p ← idx s1.pres maxlev
        let z ← idx s1.hght maxlev
        let t ← idx s1.temp maxlev
        let td ← idx s1.dwpt maxlev
        extendLoop c missing (-9999) (size - (maxlev + 1)) (maxlev + 1) s1 ⟨p, z, t, td⟩
      else .ok s1
    | none => extendLoop c missing (-9999) size 0 s ⟨missing, missing, missing, missing⟩

/-! ### `interp_logp_pressure` -/

/-- Filling the levels from `j` on, `n` of them (src/gempakio/gemcalc.py:122-125). -/
def fillPressure (c : Calc α) (missing pb zb pt zt : α) : Nat → Nat → Snd α → Run (Snd α)
  | 0, _, s => .ok s
  | n + 1, j, s => do
    let z ← idx s.hght j
    if z ≠ missing ∧ zb ≠ missing ∧ pb ≠ missing then do
      let p ← put s.pres j (pb * c.exp ((z - zb) * c.log (pt / pb) / (zt - zb)))
      fillPressure c missing pb zb pt zt n (j + 1) { s with pres := p }
    else fillPressure c missing pb zb pt zt n (j + 1) s

/-- The variables of the loop (src/gempakio/gemcalc.py:103-110); `none` is the level number -1. -/
structure PresVars (α : Type) where
  ilev : Option Nat
  klev : Option Nat
  pb : α
  zb : α
  pt : α
  zt : α

/-- `klev`, `pt`, `zt` after looking at level `i` (src/gempakio/gemcalc.py:116-119). -/
def seeLevel (missing : α) (i : Nat) (p z : α) (v : PresVars α) : PresVars α :=
  if p ≠ missing ∧ z ≠ missing then { v with klev := some i, pt := p, zt := z } else v

/-- Filling between the two levels when there are two (src/gempakio/gemcalc.py:121-125). -/
def fillBetween (c : Calc α) (missing : α) (w : PresVars α) (s : Snd α) : Run (Snd α) :=
  match w.ilev, w.klev with
  | some il, some kl => fillPressure c missing w.pb w.zb w.pt w.zt (kl - (il + 1)) (il + 1) s
  | _, _ => .ok s

/-- The loop of `interp_logp_pressure` (src/gempakio/gemcalc.py:112-129): `n` rounds from level `i`. -/
def pressureLoop (c : Calc α) (missing : α) : Nat → Nat → Snd α → PresVars α → Run (Snd α)
  | 0, _, s, _ => .ok s
  | n + 1, i, s, v => do
    let p ← idx s.pres i
    let z ← idx s.hght i
    let w := seeLevel missing i p z v
    let s' ← fillBetween c missing w s
    pressureLoop c missing n (i + 1) s' { w with ilev := w.klev, pb := w.pt, zb := w.zt }

/-- `interp_logp_pressure` (src/gempakio/gemcalc.py:91-129). -/
def interpLogpPressure (c : Calc α) (missing : α) (s : Snd α) : Run (Snd α) :=
  pressureLoop c missing s.pres.length 0 s ⟨none, none, missing, missing, missing, missing⟩

/-! ### `interp_missing_data` -/

/-- The first variable of a recipe (src/gempakio/gemcalc.py:145). -/
inductive Recipe where
  | temp | drct | dwpt
  deriving DecidableEq, Repr

/-- `sounding[var1]`. -/
def Recipe.column (r : Recipe) (s : Snd α) : List α :=
  match r with
  | .temp => s.temp
  | .drct => s.drct
  | .dwpt => s.dwpt

/-- The search upwards for a level with the variable (src/gempakio/gemcalc.py:154-164): its number, or none when there is none below `size`. -/
def findAbove (col : List α) (missing : α) (size : Nat) : Nat → Nat → Run (Option Nat)
  | 0, _ => .error .outOfFuel
  | n + 1, k => do
    let v ← idx col k
    if v ≠ missing then .ok (some k)
    else if size ≤ k + 1 then .ok none
    else findAbove col missing size n (k + 1)

/-- The six values of a level (src/gempakio/gemcalc.py:175-180). -/
def levelAt (s : Snd α) (i : Nat) : Run (LevelData α) := do
  .ok [("PRES", ← idx s.pres i), ("HGHT", ← idx s.hght i), ("TEMP", ← idx s.temp i), ("DWPT", ← idx s.dwpt i),
    ("DRCT", ← idx s.drct i), ("SPED", ← idx s.sped i)]

/-- Exceptions of a formula inside a run. -/
def lift {β : Type} (e : Except PyErr β) : Run β :=
  match e with
  | .ok b => .ok b
  | .error x => .error (.raised x)

/-- Storing the interpolated values (src/gempakio/gemcalc.py:183-185). -/
def storeLevel (r : Recipe) (s : Snd α) (i : Nat) (out : LevelData α) : Run (Snd α) :=
  match r with
  | .temp => do
    let t ← put s.temp i (← lift (getKey out "TEMP"))
    let d ← put s.dwpt i (← lift (getKey out "DWPT"))
    .ok { s with temp := t, dwpt := d }
  | .drct => do
    let d ← put s.drct i (← lift (getKey out "DRCT"))
    let v ← put s.sped i (← lift (getKey out "SPED"))
    .ok { s with drct := d, sped := v }
  | .dwpt => do
    let d ← put s.dwpt i (← lift (getKey out "DWPT"))
    .ok { s with dwpt := d }

/-- The level above to use: the one found before if still above, otherwise a new search (src/gempakio/gemcalc.py:153-164); zero means none.
Second component: `more`. -/
def levelAbove (r : Recipe) (s : Snd α) (missing : α) (size i iabove : Nat) : Run (Nat × Bool) :=
  if iabove ≤ i then do
    match ← findAbove (r.column s) missing size size (i + 1) with
    | some k => .ok (k, true)
    | none => .ok (0, false)
  else .ok (iabove, true)

/-- Dew points are not carried across 100 hPa (src/gempakio/gemcalc.py:166-172). -/
def crossTest (r : Recipe) (s : Snd α) (i iabove : Nat) : Run Nat :=
  if r = .dwpt ∧ iabove ≠ 0 then do
    let p ← idx s.pres (i - 1)
    if p > 100 then do
      let q ← idx s.pres iabove
      if q < 100 then .ok 0 else .ok iabove
    else .ok iabove
  else .ok iabove

/-- Filling one level (src/gempakio/gemcalc.py:174-185). -/
def fillMissing [FloorRing α] (c : Calc α) (r : Recipe) (s : Snd α) (missing : α) (i iabove : Nat) : Run (Snd α) :=
  if iabove ≠ 0 then do
    let adata ← levelAt s (i - 1)
    let bdata ← levelAt s iabove
    let vlev ← idx s.pres i
    let out ← lift (interpParameters c vlev adata bdata missing)
    storeLevel r s i out
  else .ok s

/-- The loop for one recipe (src/gempakio/gemcalc.py:147-186): `n` rounds from level `i` while `more`. -/
def missingLoop [FloorRing α] (c : Calc α) (r : Recipe) (missing : α) (size : Nat) : Nat → Nat → Nat → Snd α → Run (Snd α)
  | 0, _, _, s => .ok s
  | n + 1, i, iabove, s => do
    let v ← idx (r.column s) i
    if v = missing then do
      let a ← levelAbove r s missing size i iabove
      let k ← crossTest r s i a.1
      let s' ← fillMissing c r s missing i k
      if a.2 then missingLoop c r missing size n (i + 1) k s' else .ok s'
    else missingLoop c r missing size n (i + 1) iabove s

/-- `interp_missing_data` (src/gempakio/gemcalc.py:132-186). -/
def interpMissingData [FloorRing α] (c : Calc α) (missing : α) (s : Snd α) : Run (Snd α) := do
  let size := s.pres.length
  let s1 ← missingLoop c .temp missing size (size - 2) 1 0 s
  let s2 ← missingLoop c .drct missing size (size - 2) 1 0 s1
  missingLoop c .dwpt missing size (size - 2) 1 0 s2

/-! ### `interp_moist_height` -/

/-- The first level with pressure, temperature and height (src/gempakio/gemcalc.py:206-219): `n` levels left from `i`. -/
def firstFull (s : Snd α) (missing : α) : Nat → Nat → Run (Option Nat)
  | 0, _ => .ok none
  | n + 1, i => do
    let p ← idx s.pres i
    if p ≠ missing then do
      let t ← idx s.temp i
      if t ≠ missing then do
        let z ← idx s.hght i
        if z ≠ missing then .ok (some i) else firstFull s missing n (i + 1)
      else firstFull s missing n (i + 1)
    else firstFull s missing n (i + 1)

/-- Result of the search for the next level with temperature and height. -/
structure MoistScan (α : Type) where
  jlev : Nat
  /-- Level found with its height and the height computed for it. -/
  found : Option (Nat × α × α)
  hlist : List α

/-- Scale height and height of level `j` over the layer bottom (src/gempakio/gemcalc.py:246-256). -/
def moistLayer (c : Calc α) (missing pi ti pt tt tdt : α) (b : Layer α) : α × α :=
  if pi ≠ missing ∧ ti ≠ missing ∧ pt ≠ missing ∧ tt ≠ missing then
    let sc := scaleHeight c b.t tt b.td tdt b.p pt missing
    (sc, moistHydrostaticHeight c b.z b.p pt sc missing)
  else (missing, missing)

/-- The loop `while not mand` (src/gempakio/gemcalc.py:232-264): `n` levels left from `j`; `pi`, `ti` are pressure and temperature of `ilev`. -/
def moistScan (c : Calc α) (s : Snd α) (missing pi ti : α) : Nat → Nat → Layer α → List α → Run (MoistScan α)
  | 0, j, _, hl => .ok ⟨j, none, hl⟩
  | n + 1, j, b, hl => do
    let pt ← idx s.pres j
    let tt ← idx s.temp j
    let tdt ← idx s.dwpt j
    let zt ← idx s.hght j
    let x := moistLayer c missing pi ti pt tt tdt b
    let b' := if x.2 ≠ missing then (⟨pt, x.2, tt, tdt⟩ : Layer α) else b
    let hl' ← put hl j x.1
    if zt ≠ missing ∧ tt ≠ missing then .ok ⟨j, some (j, zt, x.2), hl'⟩
    else moistScan c s missing pi ti n (j + 1) b' hl'

/-- Multiplying the scale heights from level `h` on, `n` of them (src/gempakio/gemcalc.py:266-269). -/
def scaleList (f : α) : Nat → Nat → List α → Run (List α)
  | 0, _, hl => .ok hl
  | n + 1, h, hl => do
    let v ← idx hl h
    let hl' ← put hl h (v * f)
    scaleList f n (h + 1) hl'

/-- Storing the heights from level `i` on, `n` of them (src/gempakio/gemcalc.py:271-279), with the default missing value. -/
def storeHeights (c : Calc α) (dflt : α) (hl : List α) : Nat → Nat → α → α → Snd α → Run (Snd α)
  | 0, _, _, _, s => .ok s
  | n + 1, i, hbb, pbb, s => do
    let p ← idx s.pres i
    let sc ← idx hl i
    let z := moistHydrostaticHeight c hbb pbb p sc dflt
    let h ← put s.hght i z
    storeHeights c dflt hl n (i + 1) z p { s with hght := h }

/-- The scaling when a level was found. -/
def rescale (zlev : α) (ilev : Nat) (r : MoistScan α) : Run (List α) :=
  match r.found with
  | some (k, zt, znew) => scaleList ((zt - zlev) / (znew - zlev)) (k - ilev) (ilev + 1) r.hlist
  | none => .ok r.hlist

/-- One round of the main loop (src/gempakio/gemcalc.py:221-281): the sounding, the scale heights and the next level, if any. -/
def moistStep (c : Calc α) (missing : α) (s : Snd α) (hl : List α) (ilev : Nat) : Run (Snd α × List α × Option Nat) := do
  let p ← idx s.pres ilev
  let t ← idx s.temp ilev
  let td ← idx s.dwpt ilev
  let z ← idx s.hght ilev
  let r ← moistScan c s missing p t (s.pres.length - (ilev + 1)) (ilev + 1) ⟨p, z, t, td⟩ hl
  let hl' ← rescale z ilev r
  let s' ← storeHeights c (-9999) hl' (r.jlev - (ilev + 1)) (ilev + 1) z p s
  .ok (s', hl', r.found.map Prod.fst)

/-- The main loop with at most `fuel` rounds. -/
def moistLoop (c : Calc α) (missing : α) : Nat → Nat → List α → Snd α → Run (Snd α)
  | 0, _, _, _ => .error .outOfFuel
  | fuel + 1, ilev, hl, s => do
    let r ← moistStep c missing s hl ilev
    match r.2.2 with
    | some k => moistLoop c missing fuel k r.2.1 r.1
    | none => .ok r.1

/-- `interp_moist_height` (src/gempakio/gemcalc.py:189-281); the scale heights start as -9999 whatever the missing value is. -/
def interpMoistHeight (c : Calc α) (missing : α) (fuel : Nat) (s : Snd α) : Run (Snd α) := do
  match ← firstFull s missing s.pres.length 0 with
  | none => .ok s
  | some i => moistLoop c missing fuel i (List.replicate s.pres.length (-9999)) s

end

end Gempak
