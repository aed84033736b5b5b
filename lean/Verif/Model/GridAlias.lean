import Verif.Model.GridWrite

/-!
# Grid files and the arrays of the caller

`add_grid` replaces not-a-number in the array it is given and keeps a reference to it (/repo/src/gempakio/encode/gempak.py:317-321, 937);
the values are read when the file is saved (encode/gempak.py:1048-1083).  Arrays are numbered.  Simplification: a not-a-number assigned to an
array after it has been added counts as a missing value; the code would write other data then.
-/

namespace Gempak

/-- What a program does: it assigns values to an array, or adds an array to the file (the field `grid` of the request is not used). -/
inductive ArrayOp where
  | assign (a : Nat) (g : List (List (Option ℚ)))
  | add (a : Nat) (r : GridReq)

/-- The arrays and the file.  `refs` is `self.data`, which holds references; the field `data` of the file is not used. -/
structure ArrayState where
  arrays : Nat → List (List (Option ℚ))
  file : GridBuilder
  refs : List (GCol × Nat)

/-- One array changed. -/
def setArray (s : Nat → List (List (Option ℚ))) (a : Nat) (g : List (List (Option ℚ))) : Nat → List (List (Option ℚ)) :=
  fun i => if i = a then g else s i

/-- One operation (encode/gempak.py:757-945, 317-321). -/
def ArrayState.step (env : GridEnv) (s : ArrayState) : ArrayOp → ArrayState × Except PyErr Unit
  | .assign a g => ({ s with arrays := setArray s.arrays a g }, .ok ())
  | .add a r =>
    match checkGrid env s.file.nx s.file.ny { r with grid := s.arrays a } with
    | .error e => (s, .error e)
    | .ok (col, g) =>
      let x := s.file.enter col g
      (⟨setArray s.arrays a (g.map (List.map some)), x.1, dictSet s.refs col a⟩, x.2)

/-- Operations one after the other; one that raises is followed by the next one. -/
def ArrayState.run (env : GridEnv) (s : ArrayState) (ops : List ArrayOp) : ArrayState := ops.foldl (fun s o => (s.step env o).1) s

/-- A new file beside the arrays. -/
def ArrayState.new (arrays : Nat → List (List (Option ℚ))) (b : GridBuilder) : ArrayState := ⟨arrays, b, []⟩

/-- The values the references lead to. -/
def ArrayState.contents (s : ArrayState) : GridBuilder :=
  { s.file with data := s.refs.map fun x => (x.1, (s.arrays x.2).map (List.map (·.getD (-9999)))) }

/-- `to_gempak`. -/
def ArrayState.save (env : GridEnv) (e : Endian) (s : ArrayState) : Except PyErr Bytes := saveGrid env e s.contents

end Gempak
