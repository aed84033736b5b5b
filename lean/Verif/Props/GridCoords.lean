import Verif.Props.GridNav

/-!
# C116: coordinates of a new grid file
-/

namespace Gempak

open Spec

/-- The point of row `i` and column `j`. -/
def Spec.PointAt (lon lat : Arr) (i j : Nat) (pt : ℚ × ℚ) : Prop := lon.at2 i j = .ok pt.1 ∧ lat.at2 i j = .ok pt.2

theorem mesh_get (g : ℚ → ℚ → ℚ × ℚ) (xs : List ℚ) : ∀ (ys : List ℚ) (i j : Nat) (x y : ℚ), xs[j]? = some x → ys[i]? = some y →
    (ys.flatMap fun y => xs.map fun x => g x y)[i * xs.length + j]? = some (g x y)
  | [], i, j, x, y, _, hy => by cases hy
  | y0 :: ys, i, j, x, y, hx, hy => by
    have hj := (List.getElem?_eq_some_iff.1 hx).1
    rw [List.flatMap_cons]
    match i, hy with
    | 0, hy =>
      obtain rfl := Option.some.inj hy
      rw [List.getElem?_append_left (by rw [List.length_map]; omega), Nat.zero_mul, Nat.zero_add, List.getElem?_map, hx]
      rfl
    | i + 1, hy =>
      rw [List.getElem?_append_right (by rw [List.length_map, Nat.add_mul]; omega), List.length_map,
        show (i + 1) * xs.length + j - xs.length = i * xs.length + j by rw [Nat.add_mul]; omega]
      exact mesh_get g xs ys i j x y hx hy

theorem mesh_point (p : ProjMaps) {xs ys : List ℚ} {i j : Nat} {x y : ℚ} (hx : xs[j]? = some x) (hy : ys[i]? = some y) :
    PointAt (meshInverse p xs ys).1 (meshInverse p xs ys).2 i j (p.inv x y) := by
  have hj := (List.getElem?_eq_some_iff.1 hx).1
  have hi := (List.getElem?_eq_some_iff.1 hy).1
  have h := mesh_get p.inv xs ys i j x y hx hy
  unfold PointAt meshInverse Arr.at2
  dsimp only
  rw [if_pos ⟨hi, hj⟩, if_pos ⟨hi, hj⟩, List.getElem?_map, List.getElem?_map, h]
  exact ⟨rfl, rfl⟩

theorem at2_get {a : Arr} {i j n m : Nat} {v : ℚ} (hs : a.shape = [n, m]) (h : a.at2 i j = .ok v) : a.data[i * m + j]? = some v := by
  unfold Arr.at2 at h
  rw [hs] at h
  dsimp only at h
  split at h
  · split at h
    · rename_i hx; rw [hx, Except.ok.inj h]
    · cases h
  · cases h

variable {lower : Text → Text} {c : CrsFacts} {p : ProjMaps} {rot : ℚ} {lon lat : Arr} {h : GridHead}

/-- C116: a file made from axes keeps them, and has at every row and column the point that the projection gives for the ordinate of the row
and the abscissa of the column. -/
theorem C116_from_axes (hi : gridInit lower (some (c, p)) true rot lon lat = .ok h) :
    h.x = lon.data ∧ h.y = lat.data ∧ h.nx = lon.data.length ∧ h.ny = lat.data.length ∧
      ∀ (i j : Nat) (x y : ℚ), h.x[j]? = some x → h.y[i]? = some y → PointAt h.lon h.lat i j (p.inv x y) := by
  unfold gridInit at hi
  split at hi
  · cases hi
  dsimp only at hi
  rw [if_pos rfl] at hi
  unfold initXY at hi
  split at hi
  · cases hi
  obtain ⟨nav, h1, hi⟩ := Except.bind_ok hi
  obtain ⟨x1, e1, hi⟩ := Except.bind_ok hi
  obtain ⟨y1, e2, hi⟩ := Except.bind_ok hi
  obtain ⟨x2, e3, hi⟩ := Except.bind_ok hi
  obtain ⟨y2, e4, hi⟩ := Except.bind_ok hi
  obtain rfl := Except.ok.inj hi
  exact ⟨rfl, rfl, rfl, rfl, fun i j x y hx hy => mesh_point p hx hy⟩

/-- C116: a file made from longitudes and latitudes keeps them; its abscissas are those of the points of the first row, its ordinates those of
the points of the first column. -/
theorem C116_from_points (hi : gridInit lower (some (c, p)) false rot lon lat = .ok h) :
    h.lon = lon ∧ h.lat = lat ∧ lon.shape = [h.ny, h.nx] ∧ lat.shape = [h.ny, h.nx] ∧ h.x.length = h.nx ∧ h.y.length = h.ny ∧
      (∀ (j : Nat) (pt : ℚ × ℚ), PointAt lon lat 0 j pt → h.x[j]? = some (p.fwd pt.1 pt.2).1) ∧
      ∀ (i : Nat) (pt : ℚ × ℚ), PointAt lon lat i 0 pt → h.y[i]? = some (p.fwd pt.1 pt.2).2 := by
  unfold gridInit at hi
  split at hi
  · cases hi
  rename_i hsh
  have hsh : lat.shape = lon.shape := by
    by_contra hc
    exact hsh ⟨by simp, hc⟩
  dsimp only at hi
  rw [if_neg (by simp)] at hi
  unfold initGeo at hi
  split at hi
  · rename_i ny nx _ _ hs1 hs2
    rw [hs1] at hsh
    rw [← hsh] at hs2
    obtain ⟨⟨xs, ys⟩, e0, hi⟩ := Except.bind_ok hi
    obtain ⟨nav, h1, hi⟩ := Except.bind_ok hi
    obtain ⟨la1, e1, hi⟩ := Except.bind_ok hi
    obtain ⟨lo1, e2, hi⟩ := Except.bind_ok hi
    obtain ⟨la2, e3, hi⟩ := Except.bind_ok hi
    obtain ⟨lo2, e4, hi⟩ := Except.bind_ok hi
    obtain rfl := Except.ok.inj hi
    unfold axes at e0
    split at e0
    · cases e0
    obtain ⟨rfl, rfl⟩ := Prod.mk.inj (Except.ok.inj e0)
    refine ⟨rfl, rfl, hsh.symm, hs1, by simp, by simp, fun j pt hp => ?_, fun i pt hp => ?_⟩
    · have g1 := at2_get hsh.symm hp.1
      have g2 := at2_get hs1 hp.2
      rw [Nat.zero_mul, Nat.zero_add] at g1 g2
      have hj : j < nx := by
        by_contra hc
        have := hp.1
        unfold Arr.at2 at this
        rw [← hsh] at this
        dsimp only at this
        rw [if_neg (by omega)] at this
        cases this
      dsimp only
      rw [List.getElem?_map, List.getElem?_range hj, Option.map_some, List.getD_eq_getElem?_getD, List.getD_eq_getElem?_getD, g1, g2]
      rfl
    · have g1 := at2_get hsh.symm hp.1
      have g2 := at2_get hs1 hp.2
      rw [Nat.add_zero] at g1 g2
      have hj : i < ny := by
        by_contra hc
        have := hp.1
        unfold Arr.at2 at this
        rw [← hsh] at this
        dsimp only at this
        rw [if_neg (by omega)] at this
        cases this
      dsimp only
      rw [List.getElem?_map, List.getElem?_range hj, Option.map_some, List.getD_eq_getElem?_getD, List.getD_eq_getElem?_getD, g1, g2]
      rfl
  · cases hi

/-- C116: the two ways agree: from the longitudes and latitudes of a file made from axes, with a projection that takes every point of the grid
back to where it came from, the same file is made, and so the same bytes are saved. -/
theorem C116_same (hi : gridInit lower (some (c, p)) true rot lon lat = .ok h)
    (hinv : ∀ x ∈ lon.data, ∀ y ∈ lat.data, p.fwd (p.inv x y).1 (p.inv x y).2 = (x, y)) :
    gridInit lower (some (c, p)) false rot h.lon h.lat = .ok h := by
  unfold gridInit at hi
  split at hi
  · cases hi
  dsimp only at hi
  rw [if_pos rfl] at hi
  unfold initXY at hi
  split at hi
  · cases hi
  obtain ⟨nav, h1, hi⟩ := Except.bind_ok hi
  obtain ⟨x1, e1, hi⟩ := Except.bind_ok hi
  obtain ⟨y1, e2, hi⟩ := Except.bind_ok hi
  obtain ⟨x2, e3, hi⟩ := Except.bind_ok hi
  obtain ⟨y2, e4, hi⟩ := Except.bind_ok hi
  obtain rfl := Except.ok.inj hi
  dsimp only
  have i1 := item_inv e1
  have i2 := item_inv e2
  have i3 := lastItem_inv e3
  have i4 := lastItem_inv e4
  generalize hX : lon.data = xs at *
  generalize hY : lat.data = ys at *
  rw [List.head?_eq_getElem?] at i1 i2
  rw [List.getLast?_eq_getElem?] at i3 i4
  have hxl := (List.getElem?_eq_some_iff.1 i1).1
  have hyl := (List.getElem?_eq_some_iff.1 i2).1
  obtain ⟨c1, c2⟩ := mesh_point p i1 i2
  obtain ⟨c3, c4⟩ := mesh_point p i3 i4
  have hl : ∀ a : Arr, a.shape = [ys.length, xs.length] → a.last2 = a.at2 (ys.length - 1) (xs.length - 1) := by
    intro a hs
    unfold Arr.last2
    rw [hs]
    obtain ⟨n, hn⟩ := Nat.exists_eq_add_of_lt hyl
    obtain ⟨k, hk⟩ := Nat.exists_eq_add_of_lt hxl
    rw [show ys.length = n + 1 by omega, show xs.length = k + 1 by omega]
    rfl
  have s1 : (meshInverse p xs ys).1.shape = [ys.length, xs.length] := rfl
  have s2 : (meshInverse p xs ys).2.shape = [ys.length, xs.length] := rfl
  have hax : axes p ys.length xs.length (meshInverse p xs ys).1 (meshInverse p xs ys).2 = .ok (xs, ys) := by
    unfold axes
    rw [if_neg (by omega)]
    congr 2
    · refine List.ext_getElem? fun j => ?_
      rw [List.getElem?_map]
      by_cases hj : j < xs.length
      · have hx : xs[j]? = some xs[j] := List.getElem?_eq_getElem hj
        obtain ⟨q1, q2⟩ := mesh_point p hx i2
        have q1 := at2_get s1 q1
        have q2 := at2_get s2 q2
        rw [Nat.zero_mul, Nat.zero_add] at q1 q2
        rw [List.getElem?_range hj, Option.map_some, List.getD_eq_getElem?_getD, List.getD_eq_getElem?_getD, q1, q2, hx]
        show some (p.fwd (p.inv xs[j] y1).1 (p.inv xs[j] y1).2).1 = _
        rw [hinv _ (List.getElem_mem hj) _ (List.mem_of_getElem? i2)]
      · rw [List.getElem?_eq_none (by rw [List.length_range]; omega), List.getElem?_eq_none (by omega)]
        rfl
    · refine List.ext_getElem? fun i => ?_
      rw [List.getElem?_map]
      by_cases hj : i < ys.length
      · have hy : ys[i]? = some ys[i] := List.getElem?_eq_getElem hj
        obtain ⟨q1, q2⟩ := mesh_point p i1 hy
        have q1 := at2_get s1 q1
        have q2 := at2_get s2 q2
        rw [Nat.add_zero] at q1 q2
        rw [List.getElem?_range hj, Option.map_some, List.getD_eq_getElem?_getD, List.getD_eq_getElem?_getD, q1, q2, hy]
        show some (p.fwd (p.inv x1 ys[i]).1 (p.inv x1 ys[i]).2).2 = _
        rw [hinv _ (List.mem_of_getElem? i1) _ (List.getElem_mem hj)]
      · rw [List.getElem?_eq_none (by rw [List.length_range]; omega), List.getElem?_eq_none (by omega)]
        rfl
  show gridInit lower (some (c, p)) false rot (meshInverse p xs ys).1 (meshInverse p xs ys).2 =
    .ok ⟨xs.length, ys.length, xs, ys, (meshInverse p xs ys).1, (meshInverse p xs ys).2, nav, _⟩
  unfold gridInit
  rw [if_neg (by rw [s1, s2]; simp)]
  dsimp only
  rw [if_neg (by simp)]
  unfold initGeo
  rw [s1, s2]
  dsimp only
  rw [hax, ok_bind]
  dsimp only
  rw [h1, ok_bind, c2, ok_bind, c1, ok_bind, hl _ s2, c4, ok_bind, hl _ s1, c3, ok_bind]

/-- C116: and what is saved of them is the same, whatever is added. -/
theorem C116_same_bytes (env : GridEnv) (sqrt : ℚ → ℚ) (e : Endian) (rs : List GridReq) (h' : GridHead)
    (hi : gridInit lower (some (c, p)) true rot lon lat = .ok h) (hi' : gridInit lower (some (c, p)) false rot h.lon h.lat = .ok h')
    (hinv : ∀ x ∈ lon.data, ∀ y ∈ lat.data, p.fwd (p.inv x y).1 (p.inv x y).2 = (x, y)) :
    saveGridFile env sqrt e h' (runGrid env h'.builder rs) = saveGridFile env sqrt e h (runGrid env h.builder rs) := by
  rw [C116_same hi hinv] at hi'
  rw [Except.ok.inj hi']

/-- A projection that turns and stretches, and a description. -/
def turned : ProjMaps := ⟨fun lon lat => (2 * lat, -lon), fun x y => (-y, x / 2)⟩

def turnedFacts : CrsFacts :=
  ⟨some (txt "orthographic"), [(txt "latitude_of_projection_origin", .num 40), (txt "longitude_of_projection_origin", .num 5)], [], none, []⟩

theorem turned_init : (gridInit id (some (turnedFacts, turned)) true 0 ⟨[3], [0, 2, 4]⟩ ⟨[2], [10, 20]⟩).toOption.map
    (fun h => (h.lon.at2 1 2).toOption) = some (some (-20)) := by decide +kernel

/-- A file with two rows and three columns: the hypotheses of the theorems hold, and row 1, column 2 is at longitude -20. -/
example : ∃ h, gridInit id (some (turnedFacts, turned)) true 0 ⟨[3], [0, 2, 4]⟩ ⟨[2], [10, 20]⟩ = .ok h ∧ (h.lon.at2 1 2).toOption = some (-20) ∧
    (∀ x ∈ ([0, 2, 4] : List ℚ), ∀ y ∈ ([10, 20] : List ℚ), turned.fwd (turned.inv x y).1 (turned.inv x y).2 = (x, y)) ∧
    gridInit id (some (turnedFacts, turned)) false 0 h.lon h.lat = .ok h := by
  have hi : ∀ x y : ℚ, turned.fwd (turned.inv x y).1 (turned.inv x y).2 = (x, y) := by
    intro x y
    unfold turned
    simp only [neg_neg, Prod.mk.injEq, and_true]
    ring
  have key := turned_init
  cases hg : gridInit id (some (turnedFacts, turned)) true 0 ⟨[3], [0, 2, 4]⟩ ⟨[2], [10, 20]⟩ with
  | error e => rw [hg] at key; cases key
  | ok h =>
    rw [hg] at key
    exact ⟨h, rfl, Option.some.inj key, fun x _ y _ => hi x y, C116_same hg fun x _ y _ => hi x y⟩

end Gempak
