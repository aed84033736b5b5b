import Verif.Proof.Cursor
import Verif.Props.Nearest
import Verif.Props.GridSmall

/-!
# C122: calls on an opened file do not disturb one another

All calls on an opened file read through one buffer, which has a place and a growing list of bookmarks.  Whatever was asked before, and whether or not it
raised, a call gives what it would give as the first one.
-/

namespace Gempak

/-- The last of some calls on a file gives what it gives alone. -/
def Spec.CallsApart {ι ε β : Type} (run : List ι → Except PyErr (List (Except ε β))) : Prop :=
  ∀ before q, ∃ rs, run (before ++ [q]) = rs ∧ (rs.map List.getLast?) = (run [q]).map List.getLast?

open Spec

theorem callsApart_of {φ ι ε β : Type} {run : List ι → Except PyErr (List (Except ε β))} {opened : Except PyErr φ} {r : φ → ι → Except ε β}
    (h : ∀ qs, run qs = opened.map fun f => qs.map (r f)) : CallsApart run := fun before q => by
  refine ⟨_, rfl, ?_⟩
  rw [h, h]
  cases opened with
  | error e => rfl
  | ok f =>
    show Except.ok ((before ++ [q]).map (r f)).getLast? = Except.ok (List.map (r f) [q]).getLast?
    rw [List.map_append, List.map_singleton, List.getLast?_append]
    rfl

/-- Calls of `gdxarray` on a grid file. -/
def gridSession (upper lower : Text → Text) (host : Endian) (b : Bytes) (qs : List GridQuery) : Except PyErr (List (Except PyErr (List GridObj))) :=
  session (curOpenGrid host) (fun f q => curGdxarray upper lower f.1 f.2 q) b qs

/-- Calls of `sfjson` and `nearest_time` on a surface file. -/
def surfaceSession (upper lower : Text → Text) (host : Endian) (b : Bytes) (qs : List SfCall) : Except PyErr (List (Except PyErr (List SfObj))) :=
  session (curOpenSurface host) (fun f q => curSfCall upper lower f.1 f.2 q) b qs

/-- Calls of `snxarray` on a merged sounding file. -/
def soundingSession (upper lower : Text → Text) (host : Endian) (b : Bytes) (qs : List SiteQuery) :
    Except PyErr (List (Except PyErr (List (SnData LevNum)))) :=
  session (curOpenSounding host) (fun f q => curDatasets f.1 f.2 upper lower q) b qs

/-- Calls of `snxarray` on an unmerged sounding file. -/
def unmergedSession {α : Type} [Field α] [LinearOrder α] [FloorRing α] (c : Calc α) (e : LevEnv α) (fuel : Nat) (upper lower : Text → Text)
    (host : Endian) (b : Bytes) (qs : List SiteQuery) : Except PyErr (List (Except Stop (List (SnData α)))) :=
  session (curOpenSounding host) (fun f q => curUnmergedDatasets c e fuel f.1 f.2 upper lower q) b qs

/-- **C122**: however many grids were asked for before, each call of `gdxarray` gives the grids that lie at the documented positions of the file. -/
theorem C122_grid_positions (upper lower : Text → Text) (host : Endian) (b : Bytes) (qs : List GridQuery) :
    gridSession upper lower host b qs = (openGrid host b).map fun f => qs.map fun q => gdxarray upper lower q f :=
  session_eq (openGrid_cursor host b) (fun f hf q => anywhere_gdxarray upper lower f (openGrid_bytes hf) q) qs

/-- One call on a surface file by position. -/
def sfCallAt (upper lower : Text → Text) (f : SurfaceReader) : SfCall → Except PyErr (List SfObj)
  | .json q special => f.sfjson upper lower q special
  | .nearest t q special => f.nearestTime upper lower t q special

/-- The same for surface files. -/
theorem C122_surface_positions (upper lower : Text → Text) (host : Endian) (b : Bytes) (qs : List SfCall) :
    surfaceSession upper lower host b qs = (openSurface host b).map fun f => qs.map (sfCallAt upper lower f) :=
  session_eq (openSurface_cursor host b) (fun f hf q => by
    cases q with
    | json q special => exact anywhere_sfjson f (openSurface_bytes hf) upper lower q special
    | nearest t q special => exact anywhere_nearest f (openSurface_bytes hf) upper lower t q special) qs

/-- The same for merged sounding files. -/
theorem C122_sounding_positions (upper lower : Text → Text) (host : Endian) (b : Bytes) (qs : List SiteQuery) :
    soundingSession upper lower host b qs = (openSounding host b).map fun f => qs.map fun q => f.datasets upper lower q :=
  session_eq (openSounding_cursor host b) (fun f hf q => anywhere_datasets f (openSounding_bytes hf) upper lower q) qs

/-- The same for unmerged sounding files. -/
theorem C122_unmerged_positions {α : Type} [Field α] [LinearOrder α] [FloorRing α] (c : Calc α) (e : LevEnv α) (fuel : Nat)
    (upper lower : Text → Text) (host : Endian) (b : Bytes) (qs : List SiteQuery) :
    unmergedSession c e fuel upper lower host b qs = (openSounding host b).map fun f => qs.map fun q => f.unmergedDatasets c e fuel upper lower q :=
  session_eq (openSounding_cursor host b) (fun f hf q => anywhere_unmergedDatasets c e fuel f (openSounding_bytes hf) upper lower q) qs

/-- **C122**: calls on an opened file do not disturb one another, for any bytes that open and any calls, those that raise included. -/
theorem C122_grids (upper lower : Text → Text) (host : Endian) (b : Bytes) : CallsApart (gridSession upper lower host b) :=
  callsApart_of (C122_grid_positions upper lower host b)

/-- The same for surface files. -/
theorem C122_surface (upper lower : Text → Text) (host : Endian) (b : Bytes) : CallsApart (surfaceSession upper lower host b) :=
  callsApart_of (C122_surface_positions upper lower host b)

/-- The same for merged sounding files. -/
theorem C122_soundings (upper lower : Text → Text) (host : Endian) (b : Bytes) : CallsApart (soundingSession upper lower host b) :=
  callsApart_of (C122_sounding_positions upper lower host b)

/-- The same for unmerged sounding files. -/
theorem C122_unmerged {α : Type} [Field α] [LinearOrder α] [FloorRing α] (c : Calc α) (e : LevEnv α) (fuel : Nat)
    (upper lower : Text → Text) (host : Endian) (b : Bytes) : CallsApart (unmergedSession c e fuel upper lower host b) :=
  callsApart_of (C122_unmerged_positions c e fuel upper lower host b)

/-- A file in which a call that raises lies between two calls that give the same reports. -/
example : ∃ (bytes : Bytes) (out : List SfObj),
    let t : Date × Clock := (⟨2020, 3, 1⟩, ⟨0, 0, 0, 0⟩)
    let good := SfCall.nearest t { stationId := some (.many [txt "KDENVER"]) } true
    surfaceSession id id .little bytes [good, .nearest t {} true, good] = .ok [.ok out, .error .valueError, .ok out] := by
  obtain ⟨bytes, g, h1, h2, _⟩ := someSelection
  obtain ⟨out, ho⟩ := C37_succeeds g id id (⟨2020, 3, 1⟩, ⟨0, 0, 0, 0⟩) [txt "KDENVER"] true (by simp) (by
    intro id hid
    rw [List.mem_singleton.1 hid]
    exact h2)
  refine ⟨bytes, out, ?_⟩
  intro t good
  rw [C122_surface_positions, h1]
  have hg : sfCallAt id id g good = .ok out := ho
  have hb : sfCallAt id id g (.nearest t {} true) = .error .valueError := rfl
  show Except.ok [_, _, _] = _
  rw [hg, hb]

/-- A grid file that opens. -/
example : ∃ (bytes : Bytes), gridSession id id .little bytes [{}, {}] = .ok [.ok [], .ok []] := by
  obtain ⟨bytes, f, g, _, _, h1, _, _, h2⟩ := C16_flat 0 (by norm_num) id id
  refine ⟨bytes, ?_⟩
  rw [C122_grid_positions, h1]
  show Except.ok [gdxarray id id {} f, gdxarray id id {} f] = _
  rw [h2]

end Gempak
