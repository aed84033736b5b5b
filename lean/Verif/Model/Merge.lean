import Verif.Model.Calc

/-!
# Merging the parts of an unmerged sounding (src/gempakio/decode/gempak.py:1369-2009)

Numbers are elements of an ordered field as in `Verif.Model.Calc`.  The station header other than the elevation, the text parts
(src/gempakio/decode/gempak.py:1999-2008) and the text case of `len` are left out.
-/

namespace Gempak

section
variable {α : Type} [Field α] [LinearOrder α]

/-- One part: its parameters in order with their columns. -/
abbrev SndPart (α : Type) := List (String × List α)

/-- The argument of `_merge_sounding`: elevation and parts by name. -/
structure SndParts (α : Type) where
  selv : α
  part : String → Option (SndPart α)

/-- `parts[name]`. -/
def SndParts.get (ps : SndParts α) (name : String) : Run (SndPart α) :=
  match ps.part name with
  | some p => .ok p
  | none => .error (.raised .keyError)

/-- `part[name]`. -/
def SndPart.col (p : SndPart α) (k : String) : Run (List α) :=
  match p.find? (fun x => x.1 = k) with
  | some x => .ok x.2
  | none => .error (.raised .keyError)

/-- `part[name][i]`. -/
def SndPart.at (p : SndPart α) (k : String) (i : Nat) : Run α := do
  idx (← p.col k) i

/-- `len(parts[name][key]) if name in parts else 0` (src/gempakio/decode/gempak.py:1390-1401). -/
def SndParts.count (ps : SndParts α) (name key : String) : Run Nat :=
  match ps.part name with
  | some p => do
    let c ← p.col key
    .ok c.length
  | none => .ok 0

/-- `bisect.bisect_left`: the standard library's loop on `lo`, `hi`. -/
def bisectLoop (a : List α) (x : α) : Nat → Nat → Nat → Nat
  | 0, lo, _ => lo
  | n + 1, lo, hi =>
    if lo < hi then
      let mid := (lo + hi) / 2
      match a[mid]? with
      | some v => if v < x then bisectLoop a x n (mid + 1) hi else bisectLoop a x n lo mid
      | none => lo
    else lo

/-- `bisect.bisect_left`; the interval halves, so its length bounds the rounds. -/
def bisectLeft (a : List α) (x : α) : Nat := bisectLoop a x a.length 0 a.length

/-- `list.insert`: negative positions count from the end, positions beyond the ends are moved to the ends. -/
def pyInsert (l : List α) (i : Int) (v : α) : List α :=
  let k : Nat := if i < 0 then (i + l.length).toNat else min i.toNat l.length
  l.take k ++ v :: l.drop k

/-- One level inserted in all columns. -/
def Snd.insert (s : Snd α) (loc : Int) (p z t d r w : α) : Snd α :=
  ⟨pyInsert s.pres loc p, pyInsert s.hght loc z, pyInsert s.temp loc t, pyInsert s.dwpt loc d, pyInsert s.drct loc r, pyInsert s.sped loc w⟩

/-- `len(merged['PRES']) - bisect.bisect_left(merged['PRES'][::-1], pres)`. -/
def placeOf (s : Snd α) (pres : α) : Int := s.pres.length - bisectLeft s.pres.reverse pres

/-- Numbers of levels (src/gempakio/decode/gempak.py:1390-1401). -/
structure Counts where
  man : Nat
  manWind : Nat
  trop : Nat
  maxWind : Nat
  sigT : Nat
  sigW : Nat
  aMan : Nat
  aTrop : Nat
  aMaxWind : Nat
  aSigT : Nat
  aSigW : Nat
  aManWind : Nat

def SndParts.counts (ps : SndParts α) : Run Counts := do
  .ok ⟨← ps.count "TTAA" "PRES", ← ps.count "PPAA" "PRES", ← ps.count "TRPA" "PRES", ← ps.count "MXWA" "PRES", ← ps.count "TTBB" "PRES",
    ← ps.count "PPBB" "SPED", ← ps.count "TTCC" "PRES", ← ps.count "TRPC" "PRES", ← ps.count "MXWC" "SPED", ← ps.count "TTDD" "PRES",
    ← ps.count "PPDD" "SPED", ← ps.count "PPCC" "SPED"⟩

/-- `total_data` (src/gempakio/decode/gempak.py:1403-1416). -/
def Counts.total (c : Counts) : Nat :=
  c.man + c.manWind + c.trop + c.maxWind + c.sigT + c.sigW + c.aMan + c.aTrop + c.aMaxWind + c.aSigT + c.aSigW + c.aManWind

/-- Vertical coordinate of significant winds (src/gempakio/decode/gempak.py:1427-1447): whether it is height, and the part, to which the pressures
are added when the heights hold negative numbers. -/
def windCoord (ps : SndParts α) (m : α) (name : String) (n : Nat) : Run (Bool × Option (SndPart α)) :=
  if n = 0 then .ok (true, ps.part name)
  else do
    let p ← ps.get name
    if p.any (fun x => x.1 = "PRES") then .ok (false, some p)
    else do
      let hs ← p.col "HGHT"
      if hs.any (fun z => z ≠ m ∧ z < 0) then .ok (false, some (p ++ [("PRES", hs)])) else .ok (true, some p)

/-- The first level (src/gempakio/decode/gempak.py:1450-1465). -/
def surfaceLevel (ps : SndParts α) (m : α) (c : Counts) : Run (Snd α) :=
  if c.man < 1 then .ok ⟨[m], [ps.selv], [m], [m], [m], [m]⟩
  else do
    let p ← ps.get "TTAA"
    let pr ← p.at "PRES" 0
    let _ ← p.at "HGHT" 0
    let t ← p.at "TEMP" 0
    let d ← p.at "DWPT" 0
    let r ← p.at "DRCT" 0
    let w ← p.at "SPED" 0
    .ok ⟨[pr], [ps.selv], [t], [d], [r], [w]⟩

/-- Pressure of the first mandatory level with temperature and height (src/gempakio/decode/gempak.py:1467-1481); `zip(strict=True)` raises `ValueError` when
it runs to the end of columns of unequal length. -/
def firstManP (m : α) : List α → List α → List α → Run α
  | p :: ps, t :: ts, z :: zs => if p ≠ m ∧ t ≠ m ∧ z ≠ m then .ok p else firstManP m ps ts zs
  | [], [], [] => .ok m
  | _, _, _ => .error (.raised .valueError)

/-- The surface check (src/gempakio/decode/gempak.py:1483-1495). -/
def surfaceCheck (m firstMan : α) (s : Snd α) : Run (Snd α) := do
  let p ← idx s.pres 0
  let sp := if p > 1060 then m else p
  if sp = m ∨ (sp < firstMan ∧ sp ≠ m) then do
    .ok ⟨← put s.pres 0 m, ← put s.hght 0 m, ← put s.temp 0 m, ← put s.dwpt 0 m, ← put s.drct 0 m, ← put s.sped 0 m⟩
  else .ok s

/-- `np.isclose`. -/
def isClose (a b : α) : Prop := |a - b| ≤ 1 / 100000000 + 1 / 100000 * |b|

instance (a b : α) : Decidable (isClose a b) := by unfold isClose; infer_instance

/-- Surface values from the significant temperatures (src/gempakio/decode/gempak.py:1497-1509). -/
def surfaceSigT (ps : SndParts α) (m : α) (c : Counts) (s : Snd α) : Run (Snd α) :=
  if c.sigT < 1 then .ok s
  else do
    let b ← ps.get "TTBB"
    let p ← b.at "PRES" 0
    if p = m then .ok s
    else do
      let t ← b.at "TEMP" 0
      if t = m then .ok s
      else do
        let f ← idx s.pres 0
        if f = m ∨ isClose f p then do
          let pr ← put s.pres 0 p
          let d ← put s.dwpt 0 (← b.at "DWPT" 0)
          let t' ← put s.temp 0 t
          .ok { s with pres := pr, dwpt := d, temp := t' }
        else .ok s

/-- Surface winds from the significant winds (src/gempakio/decode/gempak.py:1511-1531). -/
def surfaceSigW (b : Option (SndPart α)) (isZ : Bool) (m : α) (c : Counts) (s : Snd α) : Run (Snd α) :=
  if c.sigW < 1 then .ok s
  else
    match b with
    | none => .error (.raised .keyError)
    | some b =>
      if isZ then do
        let z ← b.at "HGHT" 0
        if z = 0 then do
          let r ← b.at "DRCT" 0
          if r ≠ m then do
            let dr ← put s.drct 0 r
            let sp ← put s.sped 0 (← b.at "SPED" 0)
            .ok { s with drct := dr, sped := sp }
          else .ok s
        else .ok s
      else do
        let p ← b.at "PRES" 0
        if p ≠ m then do
          let r ← b.at "DRCT" 0
          if r ≠ m then do
            let f ← idx s.pres 0
            if f = m ∨ isClose f |p| then do
              let pr ← put s.pres 0 |p|
              let dr ← put s.drct 0 r
              let sp ← put s.sped 0 (← b.at "SPED" 0)
              .ok { s with pres := pr, drct := dr, sped := sp }
            else .ok s
          else .ok s
        else .ok s

/-- `merged[pname].append(pval[i])`; `KeyError` for a name that is not a column. -/
def appendNamed (s : Snd α) (name : String) (v : α) : Run (Snd α) :=
  if name = "PRES" then .ok { s with pres := s.pres ++ [v] }
  else if name = "HGHT" then .ok { s with hght := s.hght ++ [v] }
  else if name = "TEMP" then .ok { s with temp := s.temp ++ [v] }
  else if name = "DWPT" then .ok { s with dwpt := s.dwpt ++ [v] }
  else if name = "DRCT" then .ok { s with drct := s.drct ++ [v] }
  else if name = "SPED" then .ok { s with sped := s.sped ++ [v] }
  else .error (.raised .keyError)

/-- Appending level `i` of a part (src/gempakio/decode/gempak.py:1549-1550,1566-1567).  A name that is another key of `merged` (station header) is taken as
an error here; header values have no `append`. -/
def appendLevel (i : Nat) : SndPart α → Snd α → Run (Snd α)
  | [], s => .ok s
  | (name, col) :: r, s => do
    let v ← idx col i
    let s' ← appendNamed s name v
    appendLevel i r s'

/-- Whether level `i` is taken (src/gempakio/decode/gempak.py:1543-1548,1560-1565). -/
def takesLevel (p : SndPart α) (m plast : α) (i : Nat) : Run Bool := do
  let pr ← p.at "PRES" i
  if pr < plast then
    if pr ≠ m then do
      let t ← p.at "TEMP" i
      if t ≠ m then do
        let z ← p.at "HGHT" i
        .ok (decide (z ≠ m))
      else .ok false
    else .ok false
  else .ok false

/-- `merged['PRES'][-1]`. -/
def lastPres (s : Snd α) : Run α := idx s.pres (s.pres.length - 1)

/-- Mandatory temperatures (src/gempakio/decode/gempak.py:1541-1556,1558-1568): `n` levels from `i`; the count is that of levels below the ground, kept only
for the first part. -/
def mergeMan (p : SndPart α) (m : α) : Nat → Nat → Snd α → α → Nat → Run (Snd α × α × Nat)
  | 0, _, s, plast, bgl => .ok (s, plast, bgl)
  | n + 1, i, s, plast, bgl => do
    let b ← takesLevel p m plast i
    if b then do
      let s' ← appendLevel i p s
      let pl ← lastPres s'
      mergeMan p m n (i + 1) s' pl bgl
    else do
      let pr ← p.at "PRES" i
      let p0 ← idx s.pres 0
      mergeMan p m n (i + 1) s plast (if pr > p0 then bgl + 1 else bgl)

/-- Winds for an existing level: stored when the direction there is missing. -/
def setWind (m : α) (s : Snd α) (loc : Nat) (r w : Run α) : Run (Snd α) := do
  let x ← idx s.drct loc
  if x = m then do
    let dr ← put s.drct loc (← r)
    let sp ← put s.sped loc (← w)
    .ok { s with drct := dr, sped := sp }
  else .ok s

/-- Mandatory winds (src/gempakio/decode/gempak.py:1572-1580,1582-1590): the pressures left, from level `i`. -/
def mergeManWind (p : SndPart α) (m : α) : List α → Nat → Snd α → Run (Snd α)
  | [], _, s => .ok s
  | pr :: rest, i, s =>
    if pr ∈ s.pres.drop 1 then do
      let s' ← setWind m s (s.pres.idxOf pr) (p.at "DRCT" i) (p.at "SPED" i)
      mergeManWind p m rest (i + 1) s'
    else mergeManWind p m rest (i + 1) s

/-- Bottom pressure for tropopause and significant temperatures (src/gempakio/decode/gempak.py:1593-1601,1664-1672). -/
def bottomOf (ps : SndParts α) (m : α) (name : String) (s : Snd α) : Run α := do
  let p0 ← idx s.pres 0
  if p0 ≠ m then .ok p0
  else if 1 < s.pres.length then do
    let p1 ← idx s.pres 1
    let q ← (← ps.get name).at "PRES" 1
    .ok (if p1 < q then 1050 else p1)
  else .ok 1050

/-- A tropopause level already present (src/gempakio/decode/gempak.py:1613-1621). -/
def tropPresent (p : SndPart α) (m : α) (i : Nat) (s : Snd α) (loc : Nat) : Run (Snd α) := do
  let t ← idx s.temp loc
  let s1 ← (if t = m then do
      let t' ← put s.temp loc (← p.at "TEMP" i)
      let d' ← put s.dwpt loc (← p.at "DWPT" i)
      .ok { s with temp := t', dwpt := d' }
    else .ok s : Run (Snd α))
  let s2 ← setWind m s1 loc (p.at "DRCT" i) (p.at "SPED" i)
  let h ← put s2.hght loc m
  .ok { s2 with hght := h }

/-- A new tropopause level (src/gempakio/decode/gempak.py:1622-1630). -/
def tropNew (p : SndPart α) (m : α) (i : Nat) (s : Snd α) (pres : α) : Run (Snd α) := do
  .ok (s.insert (placeOf s pres) pres m (← p.at "TEMP" i) (← p.at "DWPT" i) (← p.at "DRCT" i) (← p.at "SPED" i))

/-- The pressure of one level that is missing its value is passed over, but becomes the bottom pressure
(src/gempakio/decode/gempak.py:1604-1631): the loop shared by all merges on pressure, with the test for a value and the two actions. -/
def mergeOnPressure (m : α) (has : Nat → Run Bool) (present : Nat → Snd α → Nat → Run (Snd α)) (fresh : Nat → Snd α → α → Run (Snd α)) :
    List α → Nat → Snd α → α → Run (Snd α × α)
  | [], _, s, pbot => .ok (s, pbot)
  | pr :: rest, i, s, pbot => do
    let pres := |pr|
    let ok ← (if pres ≠ m then has i else .ok false : Run Bool)
    if ok ∧ pres ≠ 0 then
      if pres > pbot then mergeOnPressure m has present fresh rest (i + 1) s pbot
      else if pres ∈ s.pres then do
        let s' ← present i s (s.pres.idxOf pres)
        mergeOnPressure m has present fresh rest (i + 1) s' pres
      else do
        let s' ← fresh i s pres
        mergeOnPressure m has present fresh rest (i + 1) s' pres
    else mergeOnPressure m has present fresh rest (i + 1) s pres

/-- `parts[...][key][i] != missing`. -/
def hasValue (p : SndPart α) (m : α) (key : String) (i : Nat) : Run Bool := do
  .ok (decide ((← p.at key i) ≠ m))

/-- Tropopause levels (src/gempakio/decode/gempak.py:1603-1631,1633-1661). -/
def mergeTrop (p : SndPart α) (m : α) (s : Snd α) (pbot : α) : Run (Snd α × α) := do
  mergeOnPressure m (hasValue p m "TEMP") (tropPresent p m) (tropNew p m) (← p.col "PRES") 0 s pbot

/-- Significant temperature at a level already present (src/gempakio/decode/gempak.py:1684-1688). -/
def sigTPresent (p : SndPart α) (m : α) (i : Nat) (s : Snd α) (loc : Nat) : Run (Snd α) := do
  let t ← idx s.temp loc
  if t = m then do
    let t' ← put s.temp loc (← p.at "TEMP" i)
    let d' ← put s.dwpt loc (← p.at "DWPT" i)
    .ok { s with temp := t', dwpt := d' }
  else .ok s

/-- A new significant temperature level (src/gempakio/decode/gempak.py:1689-1697). -/
def sigTNew (p : SndPart α) (m : α) (i : Nat) (s : Snd α) (pres : α) : Run (Snd α) := do
  .ok (s.insert (placeOf s pres) pres m (← p.at "TEMP" i) (← p.at "DWPT" i) m m)

/-- Significant temperatures (src/gempakio/decode/gempak.py:1674-1698,1700-1724). -/
def mergeSigT (p : SndPart α) (m : α) (s : Snd α) (pbot : α) : Run (Snd α × α) := do
  mergeOnPressure m (hasValue p m "TEMP") (sigTPresent p m) (sigTNew p m) (← p.col "PRES") 0 s pbot

/-- Bottom pressure for winds (src/gempakio/decode/gempak.py:1730-1737,1800-1806). -/
def windBottom (m : α) (s : Snd α) : Run α := do
  let p0 ← idx s.pres 0
  if p0 ≠ m then .ok p0 else if 1 < s.pres.length then idx s.pres 1 else .ok 0

/-- Direction and speed given (src/gempakio/decode/gempak.py:1744-1745). -/
def hasWind (p : SndPart α) (m : α) (i : Nat) : Run Bool := do
  if (← p.at "DRCT" i) ≠ m then hasValue p m "SPED" i else .ok false

/-- Winds at a level already present (src/gempakio/decode/gempak.py:1750-1757). -/
def windPresent (p : SndPart α) (m : α) (i : Nat) (s : Snd α) (loc : Nat) : Run (Snd α) := do
  let r ← idx s.drct loc
  let w ← (if r = m then .ok m else idx s.sped loc : Run α)
  if r = m ∨ w = m then do
    let dr ← put s.drct loc (← p.at "DRCT" i)
    let sp ← put s.sped loc (← p.at "SPED" i)
    .ok { s with drct := dr, sped := sp }
  else .ok s

/-- A new wind level (src/gempakio/decode/gempak.py:1758-1766). -/
def windNew (p : SndPart α) (m : α) (i : Nat) (s : Snd α) (pres : α) : Run (Snd α) := do
  .ok (s.insert (placeOf s pres) pres m m m (← p.at "DRCT" i) (← p.at "SPED" i))

/-- Winds on pressure levels: significant winds (src/gempakio/decode/gempak.py:1739-1767,1769-1797) and maximum winds
(src/gempakio/decode/gempak.py:1808-1836,1838-1866). -/
def mergeWind (p : SndPart α) (m : α) (s : Snd α) (pbot : α) : Run (Snd α × α) := do
  mergeOnPressure m (hasWind p m) (windPresent p m) (windNew p m) (← p.col "PRES") 0 s pbot

/-! ### Winds on height levels -/

/-- Variables of the loop over winds on heights (src/gempakio/decode/gempak.py:1882-1914). -/
structure ZVars (α : Type) where
  size : Nat
  more : Bool
  zold : α
  znxt : α
  ilev : Nat

/-- The start values (src/gempakio/decode/gempak.py:1882-1905).  With fewer levels than needed `more` is never assigned, but then it is set to false as
both heights are missing. -/
def zStart (m : α) (s : Snd α) : Run (ZVars α) := do
  let size := s.hght.length
  let psfc ← idx s.pres 0
  let zsfc ← idx s.hght 0
  let v ← (if 2 ≤ size ∧ psfc ≠ m ∧ zsfc ≠ m then do
      .ok ⟨size, true, ← idx s.hght 0, ← idx s.hght 1, 1⟩
    else if 3 ≤ size then do
      .ok ⟨size, true, ← idx s.hght 1, ← idx s.hght 2, 2⟩
    else .ok ⟨size, false, m, m, 0⟩ : Run (ZVars α))
  .ok (if v.zold = m ∨ v.znxt = m then { v with more := false } else v)

/-- `while more and hght > znxt` (src/gempakio/decode/gempak.py:1942-1950); `n` bounds the rounds, at most `size - ilev` are made. -/
def zClimb (m : α) (s : Snd α) (hght : α) : Nat → ZVars α → Run (ZVars α)
  | 0, _ => .error .outOfFuel
  | n + 1, v =>
    if v.more ∧ hght > v.znxt then
      if v.ilev + 1 ≥ v.size then zClimb m s hght n { v with zold := v.znxt, ilev := v.ilev + 1, more := false }
      else do
        let z ← idx s.hght (v.ilev + 1)
        zClimb m s hght n { v with zold := v.znxt, ilev := v.ilev + 1, znxt := z, more := if z = m then false else v.more }
    else .ok v

/-- The test of one wind against the heights (src/gempakio/decode/gempak.py:1927-1950): the new state and `skip`. -/
def zPlace (m hght drct sped : α) (s : Snd α) (v : ZVars α) : Run (Snd α × ZVars α × Bool) :=
  if (hght = m ∧ drct = m ∧ sped = m) ∨ hght ≤ v.zold then .ok (s, v, true)
  else if |v.zold - hght| < 1 then do
    let r ← idx s.drct (v.ilev - 1)
    let w ← (if r = m then .ok m else idx s.sped (v.ilev - 1) : Run α)
    if r = m ∨ w = m then do
      let dr ← put s.drct (v.ilev - 1) drct
      let sp ← put s.sped (v.ilev - 1) sped
      .ok ({ s with drct := dr, sped := sp }, v, true)
    else .ok (s, v, true)
  else if hght ≥ v.znxt then do
    .ok (s, ← zClimb m s hght (v.size + 1) v, false)
  else .ok (s, v, false)

/-- Storing one wind (src/gempakio/decode/gempak.py:1952-1970). -/
def zStore (m hght drct sped : α) (s : Snd α) (v : ZVars α) : Run (Snd α × ZVars α) :=
  if |v.znxt - hght| < 1 then do
    let r ← idx s.drct (v.ilev - 1)
    let w ← (if r = m then .ok m else idx s.sped (v.ilev - 1) : Run α)
    if r = m ∨ w = m then do
      let dr ← put s.drct v.ilev drct
      let sp ← put s.sped v.ilev sped
      .ok ({ s with drct := dr, sped := sp }, v)
    else .ok (s, v)
  else
    .ok (s.insert (bisectLeft s.hght hght) m hght m m drct sped, { v with size := v.size + 1, ilev := v.ilev + 1, zold := hght })

/-- One wind (src/gempakio/decode/gempak.py:1917-1970). -/
def zWind (m : α) (p : SndPart α) (i : Nat) (s : Snd α) (v : ZVars α) : Run (Snd α × ZVars α) := do
  let hght ← p.at "HGHT" i
  let drct ← p.at "DRCT" i
  let sped ← p.at "SPED" i
  let r ← zPlace m hght drct sped s v
  if r.2.1.more ∧ ¬ r.2.2 then zStore m hght drct sped r.1 r.2.1 else .ok (r.1, r.2.1)

/-- The main loop (src/gempakio/decode/gempak.py:1907-1977): position `i` in the part below or above, at most `n` rounds. -/
def zLoop (m : α) (b d : Option (SndPart α)) (nsgw nasw : Nat) : Nat → Bool → Nat → Nat → Snd α → ZVars α → Run (Snd α × ZVars α)
  | 0, _, _, _, _, _ => .error .outOfFuel
  | n + 1, above, i, iend, s, v =>
    if v.more ∧ i < iend then
      match (if above then d else b) with
      | none => .error (.raised .keyError)
      | some p => do
        let r ← zWind m p i s v
        if ¬ above ∧ i + 1 = nsgw then zLoop m b d nsgw nasw n true 0 nasw r.1 r.2
        else zLoop m b d nsgw nasw n above (i + 1) iend r.1 r.2
    else .ok (s, v)

/-- First wind to use (src/gempakio/decode/gempak.py:1873-1880). -/
def zFirst (b : Option (SndPart α)) (nsgw : Nat) (s : Snd α) : Run Nat :=
  if nsgw < 1 then .ok 0
  else
    match b with
    | none => .error (.raised .keyError)
    | some p => do
      let h ← p.at "HGHT" 0
      if h = 0 then .ok 1
      else do
        let z ← idx s.hght 0
        .ok (if h = z then 1 else 0)

/-- Winds on heights and the pressures for them (src/gempakio/decode/gempak.py:1871-1980); the result carries `size`. -/
def mergeZ (c : Calc α) (m : α) (b d : Option (SndPart α)) (nsgw nasw : Nat) (s : Snd α) : Run (Snd α × Nat) := do
  let istart ← zFirst b nsgw s
  let v ← zStart m s
  let r ← (if istart ≤ nsgw then zLoop m b d nsgw nasw (nsgw + nasw + 2) false istart nsgw s v
    else zLoop m b d nsgw nasw (nsgw + nasw + 2) true 0 nasw s v)
  let s' ← interpLogpPressure c m r.1
  .ok (s', r.2.size)

/-! ### Below the ground -/

/-- Mandatory levels below the ground (src/gempakio/decode/gempak.py:1987-1997): `n` levels from `i`; `size` is whatever earlier steps left. -/
def mergeBelow (p : SndPart α) : Nat → Nat → Snd α → Option Nat → Run (Snd α)
  | 0, _, s, _ => .ok s
  | n + 1, i, s, size => do
    let pres ← p.at "PRES" i
    let p0 ← idx s.pres 0
    if pres > p0 then
      match size with
      | none => .error .unbound
      | some k => do
        let loc : Int := k - bisectLeft (s.pres.drop 1).reverse pres
        let s' : Snd α := s.insert loc pres (← p.at "HGHT" i) (← p.at "TEMP" i) (← p.at "DWPT" i) (← p.at "DRCT" i) (← p.at "SPED" i)
        mergeBelow p n (i + 1) s' (some (k + 1))
    else mergeBelow p n (i + 1) s size

/-! ### All steps -/

/-- Running a merge step when its part has levels. -/
def whenSome {β : Type} (n : Nat) (x : β) (f : Unit → Run β) : Run β := if 1 ≤ n then f () else .ok x

/-- Surface, mandatory temperatures and winds (src/gempakio/decode/gempak.py:1449-1590); the count is that of levels below the ground. -/
def mergeMandatory (ps : SndParts α) (m : α) (c : Counts) (bIsZ : Bool) (b : Option (SndPart α)) : Run (Snd α × Nat) := do
  let s0 ← surfaceLevel ps m c
  let f ← whenSome c.man m fun _ => do
    let p ← ps.get "TTAA"
    firstManP m (← p.col "PRES") (← p.col "TEMP") (← p.col "HGHT")
  let s1 ← surfaceCheck m f s0
  let s2 ← surfaceSigT ps m c s1
  let s3 ← surfaceSigW b bIsZ m c s2
  let p0 ← idx s3.pres 0
  let plast := if p0 = m then 2000 else p0
  let r4 ← whenSome (c.man - 1) (s3, plast, 0) fun _ => do
    mergeMan (← ps.get "TTAA") m (c.man - 1) 1 s3 plast 0
  let r5 ← whenSome c.aMan (r4.1, r4.2.1, 0) fun _ => do
    mergeMan (← ps.get "TTCC") m c.aMan 0 r4.1 r4.2.1 0
  let s6 ← (if 1 ≤ c.manWind ∧ 1 ≤ c.man ∧ 2 ≤ r5.1.pres.length then do
      let p ← ps.get "PPAA"
      mergeManWind p m (← p.col "PRES") 0 r5.1
    else .ok r5.1 : Run (Snd α))
  let s7 ← (if 1 ≤ c.aManWind ∧ 1 ≤ c.man ∧ 2 ≤ s6.pres.length then do
      let p ← ps.get "PPCC"
      mergeManWind p m (← p.col "PRES") 0 s6
    else .ok s6 : Run (Snd α))
  .ok (s7, r4.2.2)

/-- Two parts merged one after the other on pressure, the second starting from where the first stopped. -/
def mergePair (n1 n2 : Nat) (bottom : Snd α → Run α) (f1 f2 : Snd α → α → Run (Snd α × α)) (s : Snd α) : Run (Snd α) :=
  if 1 ≤ n1 ∨ 1 ≤ n2 then do
    let pbot ← bottom s
    let r1 ← whenSome n1 (s, pbot) fun _ => f1 s pbot
    let r2 ← whenSome n2 r1 fun _ => f2 r1.1 r1.2
    .ok r2.1
  else .ok s

/-- A part by name, merged by `f`. -/
def withPart (ps : SndParts α) (name : String) (f : SndPart α → Snd α → α → Run (Snd α × α)) (s : Snd α) (pbot : α) : Run (Snd α × α) := do
  f (← ps.get name) s pbot

/-- A part that may have been changed. -/
def withOpt (p : Option (SndPart α)) (f : SndPart α → Snd α → α → Run (Snd α × α)) (s : Snd α) (pbot : α) : Run (Snd α × α) :=
  match p with
  | some p => f p s pbot
  | none => .error (.raised .keyError)

/-- Everything on pressure levels (src/gempakio/decode/gempak.py:1592-1869): tropopause, significant temperatures, heights, significant and maximum winds,
heights.  `interp_moist_height` makes at most as many rounds as there are levels (`C51_moist`). -/
def mergeLevels (c : Calc α) (m : α) (fuel : Nat) (ps : SndParts α) (n : Counts) (bIsZ dIsZ : Bool) (b d : Option (SndPart α)) (s : Snd α) :
    Run (Snd α) := do
  let s1 ← mergePair n.trop n.aTrop (bottomOf ps m "TRPA") (withPart ps "TRPA" (mergeTrop · m)) (withPart ps "TRPC" (mergeTrop · m)) s
  let s2 ← mergePair n.sigT n.aSigT (bottomOf ps m "TTBB") (withPart ps "TTBB" (mergeSigT · m)) (withPart ps "TTDD" (mergeSigT · m)) s1
  let s3 ← interpMoistHeight c m s2.pres.length s2
  let s4 ← mergePair (if bIsZ then 0 else n.sigW) (if dIsZ then 0 else n.aSigW) (windBottom m) (withOpt b (mergeWind · m)) (withOpt d (mergeWind · m)) s3
  let s5 ← mergePair n.maxWind n.aMaxWind (windBottom m) (withPart ps "MXWA" (mergeWind · m)) (withPart ps "MXWC" (mergeWind · m)) s4
  interpLogpHeight c m fuel s5

/-- `size` before the winds on heights: left by the last insertion on a pressure level, one less than the number of levels then
(src/gempakio/decode/gempak.py:1623,1690,1759,1828).  The model keeps only whether any level was inserted after the mandatory ones; when none was, the variable is
unassigned. -/
def staleSize (before after : Snd α) : Option Nat := if after.pres.length = before.pres.length then none else some (after.pres.length - 1)

/-- Winds on heights, missing data and levels below the ground (src/gempakio/decode/gempak.py:1871-1997). -/
def mergeRest [FloorRing α] (c : Calc α) (m : α) (ps : SndParts α) (n : Counts) (bIsZ dIsZ : Bool) (b d : Option (SndPart α)) (bgl : Nat) (before s : Snd α) :
    Run (Snd α) := do
  let r ← (if bIsZ ∨ dIsZ then do
      let x ← mergeZ c m b d (if bIsZ then n.sigW else 0) (if dIsZ then n.aSigW else 0) s
      .ok (x.1, some x.2)
    else .ok (s, staleSize before s) : Run (Snd α × Option Nat))
  let s1 ← interpMissingData c m r.1
  let p0 ← idx s1.pres 0
  if p0 ≠ m ∧ 0 < bgl then do
    mergeBelow (← ps.get "TTAA") (n.man - 1) 1 s1 r.2
  else .ok s1

/-- `_merge_sounding` (src/gempakio/decode/gempak.py:1369-2009): none when there are no levels at all. -/
def mergeSounding [FloorRing α] (c : Calc α) (m : α) (fuel : Nat) (ps : SndParts α) : Run (Option (Snd α)) := do
  let n ← ps.counts
  if n.total = 0 then .ok none
  else do
    let b ← windCoord ps m "PPBB" n.sigW
    let d ← windCoord ps m "PPDD" n.aSigW
    let r ← mergeMandatory ps m n b.1 b.2
    let s ← mergeLevels c m fuel ps n b.1 d.1 b.2 d.2 r.1
    let s' ← mergeRest c m ps n b.1 d.1 b.2 d.2 r.2 r.1 s
    .ok (some s')

end

end Gempak
