import Verif.Model.GribFloat
import Verif.Model.F32
open Gempak Gempak.Grib
def ints (p : String) : IO (List Int) := do
  let s ← IO.FS.readFile p
  return (s.splitOn "\n").map fun x => x.toInt!
def main : IO Unit := do
  let g ← ints "/tmp/val/tmpc.txt"
  let grid : List ℚ := g.map fun i => (f32Value (BitVec.ofInt 32 i)).getD 0
  let r := qRange grid (-9999)
  let d := rnd 24 (r.2 - r.1)
  IO.println s!"range {r.1} {d} n {grid.length} lendat {lendat 16 grid.length}"
  for k in List.range 28 do
    let n := k + 4
    let ref ← ints s!"/tmp/val/pack{n}.txt"
    let e := scaleExp n d
    let K := 2000
    let qs := (grid.take K).map (quantF 24 n (-9999) r.1 e)
    let full := K * n / 32
    match packWords n qs with
    | .error er => IO.println s!"{n} error {repr er}"
    | .ok ws => IO.println s!"{n} e {e} len {decide (lendat n grid.length = ref.length)} words {decide (ws.take full = ref.take full)} {full}"
    let un ← ints s!"/tmp/val/unpack{n}.txt"
    match unpackWords n (ref.take (full + 3)) K with
    | .error er => IO.println s!"{n} error {repr er}"
    | .ok vs =>
      let refv : ℚ := (f32Value (BitVec.ofInt 32 (0 : Int))).getD 0
      let q : ℚ := r.1
      let vals := vs.map (dequantF n q ((2:ℚ) ^ (6 - (n : Int))) (some (-9999)))
      let ex : List ℚ := un.map fun i => (f32Value (BitVec.ofInt 32 i)).getD 0
      IO.println s!"{n} unpack {decide (vs = qs)} {decide (vals.map (rnd 24) = ex)}"
#eval main
