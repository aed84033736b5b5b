import Verif.Model.GridRead
open Gempak
def rd (p : String) : IO Bytes := do
  let b ← IO.FS.readBinFile p
  return b.toList
def up (t : Text) : Text := t.map Char.toUpper
def lo (t : Text) : Text := t.map Char.toLower
def shq (q : Option ℚ) : String := match q with | none => "nan" | some x => s!"{x.num}/{x.den}"
def main1 (f : String) (all : Bool) : IO Unit := do
  let b ← rd s!"/repo/tests/data/{f}.grd"
  match openGrid .little b with
  | .error e => IO.println s!"{f} open error {repr e}"
  | .ok g =>
    let ga := g.grids.map fun (x : GridInfo) => s!"{String.ofList x.parm} {repr x.time1} {repr x.time2} {String.ofList x.coord} {x.level1} {x.level2}"
    IO.println s!"{f} size {g.size} grids {ga.take 3}"
    let q : GridQuery := if all then {} else { parameter := some (.one (txt "TMPK")), level := some [some 850] }
    match gdxarray up lo q g with
    | .error e => IO.println s!"{f} error {repr e}"
    | .ok l =>
      IO.println s!"{f} got {l.length}"
      match l with
      | [] => pure ()
      | x :: _ => IO.FS.writeFile s!"/tmp/val/{f}.out" ("\n".intercalate (x.data.map fun r => " ".intercalate (r.map shq)))
#eval main1 "none" false
#eval main1 "dec" false
#eval main1 "grib" false
#eval main1 "diff" false





