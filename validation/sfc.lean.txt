import Verif.Model.Surface
import Verif.Model.SoundingData
open Gempak
def rd (p : String) : IO Bytes := do
  let b ← IO.FS.readBinFile p
  return b.toList
def up (t : Text) : Text := t.map Char.toUpper
def lo (t : Text) : Text := t.map Char.toLower
def toF (q : ℚ) : Float :=
  let n : Int := (q.num * 2 ^ 60) / q.den
  Float.ofInt n / Float.ofScientific 1152921504606846976 false 0
def sh : HVal → String
  | .text t => "T:" ++ String.ofList t
  | .int i => s!"{i}"
  | .coord i => s!"{i}c"
  | .flt f => toString (toF ((f32Value f).getD 0))
  | .real none => "-9999"
  | .real (some x) => toString (toF ((x.1 : ℚ) * (10 : ℚ) ^ x.2))
  | _ => "?"
def dt (t : Date × Clock) : String := s!"{t.1.y} {t.1.m} {t.1.d} {t.2.h} {t.2.mi}"
def show1 (o : SfObj) : String := s!"{String.ofList o.stationId}|{dt o.dateTime}|" ++ "|".intercalate (o.values.map fun v => String.ofList v.1 ++ "=" ++ sh v.2)
def main1 (f ext : String) (act : SurfaceReader → Except PyErr (List SfObj)) (tag : String) : IO Unit := do
  let b ← rd s!"/repo/tests/data/{f}.{ext}"
  match openSurface .little b with
  | .error e => IO.println s!"{f} open error {repr e}"
  | .ok g =>
    IO.println s!"{f} type {repr g.type} sites {g.infos.length}"
    match act g with
      | .error e => IO.println s!"{f} error {repr e}"
      | .ok l =>
        IO.println s!"{f} got {l.length}"
        IO.FS.writeFile s!"/tmp/val/{f}.{tag}.out" ("\n".intercalate (l.map show1))
#eval main1 "climate" "sfc" (fun g => g.sfjson up lo {} false) "all"
#eval main1 "lwc_std_sfc" "sfc" (fun g => g.sfjson up lo {} false) "all"
#eval main1 "oun_sfc" "gem" (fun g => g.sfjson up lo {} false) "all"
#eval main1 "msn_std_sfc" "sfc" (fun g => g.nearestTime up lo (⟨2021,9,7⟩,⟨16,5,0,0⟩) {stationId := some (.one (txt "MSN"))} true) "n1"
