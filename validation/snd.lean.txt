import Verif.Model.SoundingData
import Mathlib.Data.Rat.Floor
open Gempak
def rd (p : String) : IO Bytes := do
  let b ← IO.FS.readBinFile p
  return b.toList
def up (t : Text) : Text := t.map Char.toUpper
def lo (t : Text) : Text := t.map Char.toLower
def toF (q : ℚ) : Float :=
  let n : Int := (q.num * 2 ^ 60) / q.den
  Float.ofInt n / Float.ofScientific 1152921504606846976 false 0
def ofF (x : Float) : ℚ := ((x * 1125899906842624.0).toInt64.toInt : ℚ) / 1125899906842624
def cal : Calc ℚ := ⟨fun q => ofF (Float.log (toF q)), fun q => ofF (Float.exp (toF q))⟩
def fl (f : F32) : ℚ := (f32Value f).getD 0
def env : LevEnv ℚ := ⟨fl, fun r => match r with | none => -9999 | some x => x.1 * 10 ^ x.2⟩
def sh (q : Option ℚ) : String := match q with | none => "nan" | some x => toString (toF x)
def shL (l : LevNum) : ℚ := match l with | .flt f => fl f | .real r => env.real r
def put (f : String) (n : Nat) (lev : List ℚ) (vs : List (Text × List (Option ℚ))) : IO Unit :=
  IO.FS.writeFile s!"/tmp/val/{f}.{n}.out" ("\n".intercalate (("pres " ++ " ".intercalate (lev.map fun x => sh (some x))) :: vs.map fun v => s!"{String.ofList v.1} " ++ " ".intercalate (v.2.map sh)))
def main1 (f : String) (q : SiteQuery) : IO Unit := do
  let b ← rd s!"/repo/tests/data/{f}.snd"
  match openSounding .little b with
  | .error e => IO.println s!"{f} open error {repr e}"
  | .ok g =>
    IO.println s!"{f} merged {g.merged} sites {repr (g.sninfo.take 2)}"
    if g.merged then
      match g.datasets up lo q with
      | .error e => IO.println s!"{f} error {repr e}"
      | .ok l =>
        IO.println s!"{f} got {l.length}"
        for (x, n) in l.zipIdx do put f n (x.levels.map shL) (x.vars.map fun v => (v.1, v.2.map fun o => o.map shL))
    else
      match g.unmergedDatasets cal env 100000 up lo q with
      | .error e => IO.println s!"{f} error {repr e}"
      | .ok l =>
        IO.println s!"{f} got {l.length} {repr (l.map fun x => (x.stationId, x.dateTime, x.pressure.map toF))}"
        for (x, n) in l.zipIdx do put f n x.levels x.vars
#eval main1 "msn_hrrr_mrg" {}
#eval main1 "merged_nopack" {}
#eval main1 "top_sigw_hght_unmrg" {}
#eval main1 "waml_sigw_pres_unmrg" {}
#eval main1 "dl10548_sigw_pres_unmrg_man_bgl" {}
#eval main1 "nzwp_no_ttcc" {}
