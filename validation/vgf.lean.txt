import Verif.Model.VgfTca
import Verif.Model.VgfDec
import Mathlib.Data.Rat.Floor
open Gempak
def toF (q : ℚ) : Float :=
  let n : Int := (q.num * 2 ^ 60) / q.den
  Float.ofInt n / Float.ofScientific 1152921504606846976 false 0
def pow10 (n : Nat) : Float := Float.ofNat (10 ^ n)
def rnd (n : Nat) (f : F32) : ℚ :=
  let q := (f32Value f).getD 0 * 10 ^ n
  (round q : ℚ) / 10 ^ n
def pf (t : Text) : Except PyErr ℚ :=
  let s := String.ofList t
  let neg := s.startsWith "-"
  let s := if neg then (s.drop 1).toString else s
  match s.splitOn "." with
  | [a] => .ok ((if neg then -1 else 1) * ((a.toNat?.getD 0 : Nat) : ℚ))
  | [a, b] => .ok ((if neg then -1 else 1) * (((a.toNat?.getD 0 : Nat) : ℚ) + ((b.toNat?.getD 0 : Nat) : ℚ) / 10 ^ b.length))
  | _ => .error .valueError
def env : VgEnv ℚ := ⟨rnd, rnd 2, parseTca pf⟩
def q (x : ℚ) : String := s!"\"q{x.num}/{x.den}\""
def esc (s : String) : String := "\"" ++ String.join (s.toList.map fun c => if c = '"' then "\\\"" else if c = '\\' then "\\\\" else if c.toNat < 32 then "\\u00" ++ String.ofList [Nat.digitChar (c.toNat / 16), Nat.digitChar (c.toNat % 16)] else c.toString) ++ "\""
partial def dv : DVal ℚ → String
  | .int i => s!"{i}"
  | .num x => q x
  | .flt f => q ((f32Value f).getD 0)
  | .text t => esc (String.ofList t)
  | .bytes b => s!"{b.map UInt8.toNat}"
  | .arr l => "[" ++ ",".intercalate (l.map q) ++ "]"
  | .raw l => "[" ++ ",".intercalate (l.map fun f => q ((f32Value f).getD 0)) ++ "]"
  | .ints l => s!"{l}"
  | .texts l => "[" ++ ",".intercalate (l.map fun t => esc (String.ofList t)) ++ "]"
  | .recs rs => "[" ++ ",".intercalate (rs.map fun r => "{" ++ ",".intercalate (r.map fun kv => esc kv.1 ++ ":" ++ dv kv.2) ++ "}") ++ "]"
def de (e : DElem ℚ) : String :=
  let h := e.hdr
  "{" ++ ",".intercalate (["\"kind\":" ++ esc e.kind, s!"\"delete\":{h.delete}", s!"\"vg_type\":{h.vgType}", s!"\"vg_class\":{h.vgClass}", s!"\"filled\":{h.filled}",
   s!"\"closed\":{h.closed}", s!"\"smooth\":{h.smooth}", s!"\"version\":{h.version}", s!"\"group_type\":{h.groupType}", s!"\"group_number\":{h.groupNumber}", s!"\"major_color\":{h.majorColor}",
   s!"\"minor_color\":{h.minorColor}", s!"\"record_size\":{h.recordSize}", s!"\"min_lat\":{q h.minLat}", s!"\"min_lon\":{q h.minLon}", s!"\"max_lat\":{q h.maxLat}", s!"\"max_lon\":{q h.maxLon}"] ++
   e.attrs.map fun kv => esc kv.1 ++ ":" ++ dv kv.2) ++ "}"
def main1 (f : String) : IO Unit := do
  let b ← IO.FS.readBinFile s!"/repo/tests/data/{f}.vgf"
  match openVgf env 100000 b.toList with
  | .raised e => IO.println s!"{f} error {repr e}"
  | .outOfFuel => IO.println s!"{f} fuel"
  | .done s =>
    IO.println s!"{f} elements {s.elements.length} groups {s.groups}"
    IO.FS.writeFile s!"/tmp/val/{f}.json" ("[" ++ ",\n".intercalate (s.elements.map de) ++ "]")
def main : IO Unit := do
  for f in ["fills","fronts","jet","lines","misc","sig_airmet","sig_ccf","sig_intnl","sig_nonconv","symbols","tca","text","tracks","tracks_v0","tracks_v1","volcano","watch","watch_v0","watch_v1","watch_v2","watch_v3","watch_v4","watch_v5"] do main1 f
#eval main
