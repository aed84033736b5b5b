import Verif.Model.GridNav
import Verif.Props.GridFile
import Verif.Props.GridSelect
import Mathlib.Data.Nat.Digits.Defs
import Mathlib.Data.List.Forall2
import Mathlib.Tactic.Linarith
import Mathlib.Tactic.Ring
import Mathlib.Tactic.FieldSimp

/-!
# Navigation of grid files: properties

C78 (size, corners and angles of a written file), C79 (the coordinate system read back), C80 (accepted projections), C81
(coordinates) and C82 (small grids).
-/

namespace Gempak
open Spec

/-! ## Specification -/

/-- A word holding the single precision number nearest to `x`. -/
def Spec.Nearest (x : ℚ) (w : F32) : Prop := ∃ v, f32Value w = some v ∧ ∀ w' v', f32Value w' = some v' → |v - x| ≤ |v' - x|

/-- The geographic corners of the input: first and last point of the arrays, or of the projected coordinates mapped back. -/
inductive Spec.HasCorners (p : ProjMaps) (lon lat : Arr) : Bool → ℚ → ℚ → ℚ → ℚ → Prop
  | geo (ny nx : Nat) (la1 lo1 la2 lo2 : ℚ) (h1 : lat.shape = [ny, nx]) (h2 : lon.shape = [ny, nx])
      (a1 : lat.data[0]? = some la1) (a2 : lon.data[0]? = some lo1)
      (a3 : lat.data[ny * nx - 1]? = some la2) (a4 : lon.data[ny * nx - 1]? = some lo2) : HasCorners p lon lat false la1 lo1 la2 lo2
  | xy (x1 y1 x2 y2 : ℚ) (a1 : lon.data.head? = some x1) (a2 : lat.data.head? = some y1)
      (a3 : lon.data.getLast? = some x2) (a4 : lat.data.getLast? = some y2) :
      HasCorners p lon lat true (p.inv x1 y1).2 (p.inv x1 y1).1 (p.inv x2 y2).2 (p.inv x2 y2).1

/-- The number of columns and rows of the input. -/
inductive Spec.HasSize (lon lat : Arr) : Bool → Nat → Nat → Prop
  | geo (ny nx : Nat) (h1 : lat.shape = [ny, nx]) (h2 : lon.shape = [ny, nx]) : HasSize lon lat false nx ny
  | xy : HasSize lon lat true lon.data.length lat.data.length

/-! ## The constructor -/

section
variable {lower : Text → Text} {c : CrsFacts} {p : ProjMaps} {useXY : Bool} {rot : ℚ} {lon lat : Arr} {h : GridHead}

theorem at2_inv {a : Arr} {i j : Nat} {x : ℚ} (h : a.at2 i j = .ok x) :
    ∃ n m, a.shape = [n, m] ∧ i < n ∧ j < m ∧ a.data[i * m + j]? = some x := by
  unfold Arr.at2 at h
  split at h
  · rename_i n m hs
    split at h
    · rename_i hij
      split at h
      · rename_i y hy
        obtain rfl := Except.ok.inj h
        exact ⟨n, m, hs, hij.1, hij.2, hy⟩
      · cases h
    · cases h
  · cases h

theorem pair_inj {a b c d : Nat} (h : [a, b] = [c, d]) : c = a ∧ d = b := by
  injection h with h1 h2
  injection h2 with h3
  exact ⟨h1.symm, h3.symm⟩

theorem last2_inv {a : Arr} {x : ℚ} (h : a.last2 = .ok x) :
    ∃ n m, a.shape = [n, m] ∧ 0 < n ∧ 0 < m ∧ a.data[n * m - 1]? = some x := by
  unfold Arr.last2 at h
  split at h
  · rename_i n m hs
    obtain ⟨n', m', h1, _, _, h4⟩ := at2_inv h
    rw [hs] at h1
    obtain ⟨rfl, rfl⟩ := pair_inj h1
    refine ⟨n + 1, m + 1, hs, by omega, by omega, ?_⟩
    rw [← h4]
    congr 1
    simp only [Nat.succ_eq_add_one]
    rw [Nat.add_mul]; omega
  · cases h

theorem item_inv {l : List ℚ} {x : ℚ} (h : item l 0 = .ok x) : l.head? = some x := by
  unfold item at h
  split at h
  · rename_i y hy
    obtain rfl := Except.ok.inj h
    rw [List.head?_eq_getElem?]; exact hy
  · cases h

theorem lastItem_inv {l : List ℚ} {x : ℚ} (h : lastItem l = .ok x) : l.getLast? = some x := by
  unfold lastItem at h
  split at h
  · rename_i y hy
    obtain rfl := Except.ok.inj h
    exact hy
  · cases h

/-- What the constructor records. -/
theorem gridInit_inv (hi : gridInit lower (some (c, p)) useXY rot lon lat = .ok h) :
    HasSize lon lat useXY h.nx h.ny ∧ setProjection lower c rot = .ok h.nav ∧
      ∃ la1 lo1 la2 lo2, h.corners = [la1, lo1, la2, lo2] ∧ HasCorners p lon lat useXY la1 lo1 la2 lo2 := by
  unfold gridInit at hi
  split at hi
  · cases hi
  rename_i hsh
  dsimp only at hi
  cases useXY with
  | true =>
    rw [if_pos rfl] at hi
    unfold initXY at hi
    split at hi
    · cases hi
    obtain ⟨nav, h1, hi⟩ := Except.bind_ok hi
    obtain ⟨x1, e1, hi⟩ := Except.bind_ok hi
    obtain ⟨y1, e2, hi⟩ := Except.bind_ok hi
    obtain ⟨x2, e3, hi⟩ := Except.bind_ok hi
    obtain ⟨y2, e4, hi⟩ := Except.bind_ok hi
    obtain rfl := Except.ok.inj hi
    exact ⟨.xy, h1, _, _, _, _, rfl, .xy x1 y1 x2 y2 (item_inv e1) (item_inv e2) (lastItem_inv e3) (lastItem_inv e4)⟩
  | false =>
    rw [if_neg (by simp)] at hi
    unfold initGeo at hi
    split at hi
    · rename_i ny nx _ _ hs1 hs2
      obtain ⟨⟨xs, ys⟩, _, hi⟩ := Except.bind_ok hi
      obtain ⟨nav, h1, hi⟩ := Except.bind_ok hi
      obtain ⟨la1, e1, hi⟩ := Except.bind_ok hi
      obtain ⟨lo1, e2, hi⟩ := Except.bind_ok hi
      obtain ⟨la2, e3, hi⟩ := Except.bind_ok hi
      obtain ⟨lo2, e4, hi⟩ := Except.bind_ok hi
      obtain rfl := Except.ok.inj hi
      have hs : lat.shape = lon.shape := by simpa using hsh
      have hs2' : lon.shape = [ny, nx] := by rw [← hs]; exact hs1
      obtain ⟨_, _, s1, _, _, f1⟩ := at2_inv e1
      obtain ⟨_, _, s2, _, _, f2⟩ := at2_inv e2
      obtain ⟨_, _, s3, _, _, f3⟩ := last2_inv e3
      obtain ⟨_, _, s4, _, _, f4⟩ := last2_inv e4
      rw [hs1] at s1 s3
      rw [hs2'] at s2 s4
      obtain ⟨rfl, rfl⟩ := pair_inj s1
      obtain ⟨rfl, rfl⟩ := pair_inj s2
      obtain ⟨rfl, rfl⟩ := pair_inj s3
      obtain ⟨rfl, rfl⟩ := pair_inj s4
      rw [Nat.zero_mul, Nat.zero_add] at f1 f2
      exact ⟨.geo _ _ hs1 hs2', h1, _, _, _, _, rfl, .geo _ _ _ _ _ _ hs1 hs2' f1 f2 f3 f4⟩
    · cases hi

end

/-! ## Codes and angles -/

theorem cfGet_inv {c : CrsFacts} {k : Text} {v : CfVal} (h : cfGet c k = .ok v) : dictGet c.cf k = some v := by
  unfold cfGet at h
  split at h
  · rename_i w hw
    obtain rfl := Except.ok.inj h
    exact hw
  · cases h

theorem cfGet_some {c : CrsFacts} {k : Text} {v : CfVal} (h : dictGet c.cf k = some v) : cfGet c k = .ok v := by
  unfold cfGet; rw [h]

theorem cfAngles_inv {c : CrsFacts} {code k1 k2 : Text} {a3 : ℚ} {n : NavAngles} (h : cfAngles c code k1 k2 a3 = .ok n) :
    n.code = code := by
  unfold cfAngles at h
  obtain ⟨v1, h1, h⟩ := Except.bind_ok h
  obtain ⟨v2, h2, h⟩ := Except.bind_ok h
  rw [← Except.ok.inj h]

theorem wktAngles_inv {c : CrsFacts} {code : Text} {t : Bool} {rot : ℚ} {n : NavAngles} (h : wktAngles c code t rot = .ok n) :
    n.code = code := by
  unfold wktAngles at h
  split at h
  · obtain ⟨v1, h1, h⟩ := Except.bind_ok h
    obtain ⟨v2, h2, h⟩ := Except.bind_ok h
    rw [← Except.ok.inj h]
  · cases h

/-- Codes written. -/
theorem setProjection_code {lower : Text → Text} {c : CrsFacts} {rot : ℚ} {n : NavAngles} (h : setProjection lower c rot = .ok n) :
    n.code ∈ [txt "MER", txt "STR", txt "LCC", txt "CED", txt "ORT", txt "AED", txt "LEA", txt "GNO"] := by
  unfold setProjection at h
  obtain ⟨⟨name, t⟩, _, h⟩ := Except.bind_ok h
  dsimp only at h
  split at h
  · rw [cfAngles_inv h]; simp
  split at h
  · rw [cfAngles_inv h]; simp
  split at h
  · rw [cfAngles_inv h]; simp
  split at h
  · unfold conicAngles at h
    obtain ⟨v, h1, h⟩ := Except.bind_ok h
    split at h
    · cases h
    · obtain ⟨v2, h2, h⟩ := Except.bind_ok h
      rw [← Except.ok.inj h]; simp
  split at h
  · unfold opAngles at h
    split at h
    · cases h
    · obtain ⟨v1, h1, h⟩ := Except.bind_ok h
      obtain ⟨v2, h2, h⟩ := Except.bind_ok h
      rw [← Except.ok.inj h]; simp
  split at h
  · rw [cfAngles_inv h]; simp
  split at h
  · rw [cfAngles_inv h]; simp
  split at h
  · rw [wktAngles_inv h]; simp
  split at h
  · rw [wktAngles_inv h]; simp
  · cases h

theorem code_known {t : Text} (h : t ∈ [txt "MER", txt "STR", txt "LCC", txt "CED", txt "ORT", txt "AED", txt "LEA", txt "GNO"]) :
    t ∈ knownProjections := by
  revert t
  decide

/-! ## C78 -/

/-- Opening reads the blocks and takes the size from them. -/
theorem openGrid_blocks {host : Endian} {b : Bytes} {f : GridFileR} (h : openGrid host b = .ok f) :
    readDM host b = .ok f.info ∧ navSize f.info.blocks = .ok f.size := by
  unfold openGrid at h
  obtain ⟨i, h1, h⟩ := Except.bind_ok h
  obtain ⟨_, _, h⟩ := Except.bind_ok h
  obtain ⟨_, _, h⟩ := Except.bind_ok h
  obtain ⟨_, _, h⟩ := Except.bind_ok h
  obtain ⟨_, _, h⟩ := Except.bind_ok h
  obtain ⟨_, _, h⟩ := Except.bind_ok h
  obtain ⟨s, h2, h⟩ := Except.bind_ok h
  obtain rfl := Except.ok.inj h
  exact ⟨h1, h2⟩

theorem saveGridFile_inv {env : GridEnv} {sqrt : ℚ → ℚ} {e : Endian} {h : GridHead} {b : GridBuilder} {bytes : Bytes}
    (hs : saveGridFile env sqrt e h b = .ok bytes) :
    ∃ corners angles delta, h.corners.mapM env.f32 = .ok corners ∧
      [h.nav.angle1, h.nav.angle2, h.nav.angle3].mapM (CfVal.word env) = .ok angles ∧
      saveGrid env e { b with corners := corners, angles := angles, delta := delta } = .ok bytes := by
  unfold saveGridFile at hs
  obtain ⟨c, h1, hs⟩ := Except.bind_ok hs
  obtain ⟨a, h2, hs⟩ := Except.bind_ok hs
  obtain ⟨d, _, hs⟩ := Except.bind_ok hs
  exact ⟨c, a, d, h1, h2, hs⟩

theorem mapM3 {α β : Type} {f : α → Except PyErr β} {a b c : α} {l : List β} (h : [a, b, c].mapM f = .ok l) :
    ∃ x y z, l = [x, y, z] ∧ f a = .ok x ∧ f b = .ok y ∧ f c = .ok z := by
  simp only [List.mapM_cons, List.mapM_nil] at h
  obtain ⟨x, h1, h⟩ := Except.bind_ok h
  obtain ⟨l1, h', h⟩ := Except.bind_ok h
  obtain ⟨y, h2, h'⟩ := Except.bind_ok h'
  obtain ⟨l2, h'', h'⟩ := Except.bind_ok h'
  obtain ⟨z, h3, h''⟩ := Except.bind_ok h''
  obtain ⟨l3, h4, h''⟩ := Except.bind_ok h''
  obtain rfl := Except.ok.inj h4
  obtain rfl := Except.ok.inj h''
  obtain rfl := Except.ok.inj h'
  obtain rfl := Except.ok.inj h
  exact ⟨x, y, z, rfl, h1, h2, h3⟩

theorem mapM4 {α β : Type} {f : α → Except PyErr β} {a b c d : α} {l : List β} (h : [a, b, c, d].mapM f = .ok l) :
    ∃ w x y z, l = [w, x, y, z] ∧ f a = .ok w ∧ f b = .ok x ∧ f c = .ok y ∧ f d = .ok z := by
  rw [List.mapM_cons] at h
  obtain ⟨w, h1, h⟩ := Except.bind_ok h
  obtain ⟨l1, h', h⟩ := Except.bind_ok h
  obtain ⟨x, y, z, rfl, h2, h3, h4⟩ := mapM3 h'
  obtain rfl := Except.ok.inj h
  exact ⟨w, x, y, z, rfl, h1, h2, h3, h4⟩

theorem GHistory.nav {b0 b : GridBuilder} {es : List (GCol × List (List ℚ))} (h : GHistory b0 es b) (corners angles : List F32) (delta : F32) :
    GHistory { b0 with corners := corners, angles := angles, delta := delta } es
      { b with corners := corners, angles := angles, delta := delta } :=
  ⟨h.nx, h.ny, h.proj, rfl, rfl, rfl, h.precision, h.data, h.colSet, h.columns, h.headers⟩

/-- The navigation of an opened file is the one written. -/
theorem nav_read {env : GridEnv} (hr : env.Rounds) {sqrt : ℚ → ℚ} {h : GridHead} {la1 lo1 la2 lo2 : ℚ}
    (hcode : h.nav.code ∈ knownProjections) (hcor : h.corners = [la1, lo1, la2, lo2]) (hx : h.nx < 2 ^ 24) (hy : h.ny < 2 ^ 24)
    {rs : List GridReq} (hok : AllOk env h.builder rs) {e host : Endian} {bytes : Bytes}
    (hsave : saveGridFile env sqrt e h (runGrid env h.builder rs) = .ok bytes) {f : GridFileR} (hopen : openGrid host bytes = .ok f) :
    ∃ blk n, f.info.blocks = some blk ∧ navBlock blk = some n ∧ n.code = h.nav.code ∧ f.size = some ((h.nx : Int), (h.ny : Int)) ∧
      env.f32 la1 = .ok n.lat1 ∧ env.f32 lo1 = .ok n.lon1 ∧ env.f32 la2 = .ok n.lat2 ∧ env.f32 lo2 = .ok n.lon2 ∧
      h.nav.angle1.word env = .ok n.angle1 ∧ h.nav.angle2.word env = .ok n.angle2 ∧ h.nav.angle3.word env = .ok n.angle3 := by
  obtain ⟨corners, angles, delta, s1, s2, s3⟩ := saveGridFile_inv hsave
  obtain ⟨_, g2, g3⟩ := C19_grid_history env h.nx h.ny h.nav.code [] [] 0 16 rs hok
  have hist := (new_history env _ (GHistory.new h.nx h.ny h.nav.code [] [] 0 16) rs).nav corners angles delta
  obtain ⟨hcol, P, hP, hPc, hPd⟩ := hist.table entries_sound g2 g3
  rw [hcor] at s1
  obtain ⟨w1, w2, w3, w4, rfl, c1, c2, c3, c4⟩ := mapM4 s1
  obtain ⟨a1, a2, a3, rfl, d1, d2, d3⟩ := mapM3 s2
  obtain ⟨_, _, fx, fy, e1, e2, hsv⟩ := saveGrid_inv s3
  obtain ⟨bb, hbb⟩ : ∃ bb : GridBuilder, bb = { runGrid env h.builder rs with corners := [w1, w2, w3, w4], angles := [a1, a2, a3], delta := delta } :=
    ⟨_, rfl⟩
  change GHistory { h.builder with corners := [w1, w2, w3, w4], angles := [a1, a2, a3], delta := delta } _
    { runGrid env h.builder rs with corners := [w1, w2, w3, w4], angles := [a1, a2, a3], delta := delta } at hist
  change GridBuilder.columns { runGrid env h.builder rs with corners := [w1, w2, w3, w4], angles := [a1, a2, a3], delta := delta } = _ at hcol
  rw [← hbb] at hist hsv e1 e2
  have hcol : bb.columns = bb.columnHeaders.length := by rw [hbb]; exact hcol
  have hproj : bb.proj = h.nav.code := hist.proj
  have hcorn : bb.corners = [w1, w2, w3, w4] := by rw [hbb]
  have hang : bb.angles = [a1, a2, a3] := by rw [hbb]
  have hreg : bb.Regular := ⟨by rw [hcorn]; rfl, by rw [hang]; rfl, by rw [hproj]; exact hcode⟩
  rw [hist.nx] at e1
  rw [hist.ny] at e2
  obtain ⟨_, e1', v1⟩ := hr.nat hx
  obtain ⟨_, e2', v2⟩ := hr.nat hy
  obtain rfl := Except.ok.inj (e1.symm.trans e1')
  obtain rfl := Except.ok.inj (e2.symm.trans e2')
  have wf := gridFile_wf (env := env) (fx := fx) (fy := fy) hcol
  have S := save_spec wf hsv
  have hb := readDM_spec host wf (gridFile_readable (env := env) (b := bb) (fx := fx) (fy := fy)) S.head
    (readBlocks_grid S.head (proj := bb.proj) (nav := gridNav bb fx fy) (anl := gridAnl bb) rfl rfl
    (gridNav_length hreg) (gridAnl_length hreg) (by rw [proj_decodes hreg.proj]; rfl))
  obtain ⟨o1, o2⟩ := openGrid_blocks hopen
  have hinfo := Except.ok.inj (o1.symm.trans hb)
  have hblk : f.info.blocks = some (expectedBlocks bb.proj (gridNav bb fx fy) (gridAnl bb)) := by rw [hinfo]; rfl
  rw [hblk, navSize_read hreg v1 v2] at o2
  have hnav : gridNav bb fx fy = [oneF32, oneF32, fx, fy, w1, w2, w3, w4, a1, a2, a3] := by
    unfold gridNav; rw [hcorn, hang]; rfl
  refine ⟨_, ⟨h.nav.code, fx, fy, w1, w2, w3, w4, a1, a2, a3⟩, hblk, ?_, rfl, (Except.ok.inj o2).symm, c1, c2, c3, c4, d1, d2, d3⟩
  have : navBlock (expectedBlocks bb.proj (gridNav bb fx fy) (gridAnl bb)) =
      (utf8Dec ((utf8 (ljust 4 bb.proj)).take 3)).map fun t => ⟨t, fx, fy, w1, w2, w3, w4, a1, a2, a3⟩ := by
    rw [hnav]; rfl
  rw [this, proj_decodes hreg.proj, hproj]
  rfl

theorem Rounds.near {env : GridEnv} (hr : env.Rounds) {x : ℚ} {w : F32} (h : env.f32 x = .ok w) : Nearest x w := hr.nearest x w h

/-- C78: whatever arrays, projection and grids a file was made of, opening it in any byte order shows the number of columns
and rows of the input and, to the nearest single precision number, its corners. -/
theorem C78_navigation (env : GridEnv) (hr : env.Rounds) (sqrt : ℚ → ℚ) (c : CrsFacts) (p : ProjMaps) (useXY : Bool) (rot : ℚ)
    (lon lat : Arr) (h : GridHead) (hi : gridInit env.lower (some (c, p)) useXY rot lon lat = .ok h)
    (hx : h.nx < 2 ^ 24) (hy : h.ny < 2 ^ 24) (rs : List GridReq) (hok : AllOk env h.builder rs) (e host : Endian) (bytes : Bytes)
    (hsave : saveGridFile env sqrt e h (runGrid env h.builder rs) = .ok bytes) (f : GridFileR) (hopen : openGrid host bytes = .ok f) :
    ∃ blk n, f.info.blocks = some blk ∧ navBlock blk = some n ∧
      (∃ nx ny : Nat, HasSize lon lat useXY nx ny ∧ f.size = some ((nx : Int), (ny : Int))) ∧
      ∃ la1 lo1 la2 lo2, HasCorners p lon lat useXY la1 lo1 la2 lo2 ∧
        Nearest la1 n.lat1 ∧ Nearest lo1 n.lon1 ∧ Nearest la2 n.lat2 ∧ Nearest lo2 n.lon2 := by
  obtain ⟨hsz, hpr, la1, lo1, la2, lo2, hc, hcc⟩ := gridInit_inv hi
  obtain ⟨blk, n, g1, g2, _, g3, k1, k2, k3, k4, _⟩ := nav_read hr (code_known (setProjection_code hpr)) hc hx hy hok hsave hopen
  exact ⟨blk, n, g1, g2, ⟨_, _, hsz, g3⟩, la1, lo1, la2, lo2, hcc, Rounds.near hr k1, Rounds.near hr k2, Rounds.near hr k3, Rounds.near hr k4⟩

/-- C78: a file made from arrays and a projection lists and gives back the grids added to it, as `C16_round_trip_partial` says of
the file format. -/
theorem C78_contents (env : GridEnv) (hr : env.Rounds) (sqrt : ℚ → ℚ) (c : CrsFacts) (p : ProjMaps) (useXY : Bool) (rot : ℚ)
    (lon lat : Arr) (h : GridHead) (hi : gridInit env.lower (some (c, p)) useXY rot lon lat = .ok h)
    (hx : h.nx < 2 ^ 24) (hy : h.ny < 2 ^ 24) (hxy : 2 < h.nx * h.ny) (rs : List GridReq) (hok : AllOk env h.builder rs)
    (hl : ∀ e ∈ gAccepted env h.nx h.ny rs, e.Legible) (e host : Endian) (bytes : Bytes)
    (hsave : saveGridFile env sqrt e h (runGrid env h.builder rs) = .ok bytes) : GridOutput env h.nx h.ny 16 rs host bytes := by
  obtain ⟨corners, angles, delta, s1, s2, s3⟩ := saveGridFile_inv hsave
  obtain ⟨_, hpr, la1, lo1, la2, lo2, hc, _⟩ := gridInit_inv hi
  rw [hc] at s1
  obtain ⟨w1, w2, w3, w4, rfl, -⟩ := mapM4 s1
  obtain ⟨a1, a2, a3, rfl, -⟩ := mapM3 s2
  obtain ⟨h1, h2, h3⟩ := C19_grid_history env h.nx h.ny h.nav.code [] [] 0 16 rs hok
  have hist := (new_history env _ (GHistory.new h.nx h.ny h.nav.code [] [] 0 16) rs).nav [w1, w2, w3, w4] [a1, a2, a3] delta
  obtain ⟨f, P, f1, f2, f3, f4⟩ := grid_file_read hr
    (b0 := { newGrid h.nx h.ny h.nav.code [] [] 0 16 with corners := [w1, w2, w3, w4], angles := [a1, a2, a3], delta := delta })
    ⟨rfl, rfl, code_known (setProjection_code hpr)⟩ hx hy hist entries_sound gAccepted_typed hl h2 h3 s3 host
  refine ⟨f, P, f1, f2, f3, ?_⟩
  intro hne upper lower
  refine f4 ?_ ?_ upper lower
  · show (32 : Int) < (16 : Int) * h.nx * h.ny
    have : (2 : Int) < (h.nx : Int) * h.ny := by exact_mod_cast hxy
    rw [Int.mul_assoc]; omega
  · intro h0
    obtain ⟨r, hr⟩ := List.exists_mem_of_ne_nil _ hne
    obtain ⟨x, hx⟩ := Option.isSome_iff_exists.1 (h1 r hr)
    have : x ∈ gAccepted env h.nx h.ny rs := List.mem_filterMap.2 ⟨r, hr, hx⟩
    change gAccepted env h.nx h.ny rs = [] at h0
    rw [h0] at this; cases this

/-! ## C79: specification -/

/-- A decimal numeral with one to `m` digits before the point, and its value. -/
def Spec.Numeral (m : Nat) (t : Text) (v : ℚ) : Prop :=
  ∃ (neg : Bool) (i : List Nat) (f : Option (List Nat)), i ≠ [] ∧ i.length ≤ m ∧ (∀ d ∈ i, d < 10) ∧ (∀ d ∈ f.getD [], d < 10) ∧
    t = (if neg then ['-'] else []) ++ i.map Nat.digitChar ++ (match f with | none => [] | some f => '.' :: f.map Nat.digitChar) ∧
    v = (if neg then -1 else 1) * (((Nat.ofDigits 10 i.reverse : ℕ) : ℚ) + ((Nat.ofDigits 10 (f.getD []).reverse : ℕ) : ℚ) / 10 ^ (f.getD []).length)

/-- The text form gives the parameter `label` the value `v`: the first occurrence of the label is followed by a numeral, which ends
where it seems to end. -/
def Spec.WktValue (label : Text) (m : Nat) (wkt : Text) (v : ℚ) : Prop :=
  ∃ pre num rest, wkt = pre ++ label ++ num ++ rest ∧ Numeral m num v ∧
    (∀ a b, wkt = a ++ label ++ b → pre.length ≤ a.length) ∧ ∀ c ∈ rest.head?, ¬ c.isDigit ∧ c ≠ '.'

/-- The operation has a parameter of this name (in lower case, with underscores), and just one value for it. -/
def Spec.OpValue (lower : Text → Text) (c : CrsFacts) (k : Text) (v : ℚ) : Prop :=
  (∃ n, (n, v) ∈ c.operation ∧ (lower n).map (fun x => if x = ' ' then '_' else x) = k) ∧
    ∀ n x, (n, x) ∈ c.operation → (lower n).map (fun x => if x = ' ' then '_' else x) = k → x = v

/-- A CF parameter that is a number. -/
def Spec.CfNum (c : CrsFacts) (k : String) (v : ℚ) : Prop := dictGet c.cf (txt k) = some (.num v)

/-- PROJ name and parameters of a described projection, for the projections and parameters that reach a file. -/
inductive Spec.ProjOf (lower : Text → Text) (c : CrsFacts) : Text → List (Text × ℚ) → Prop
  | stereographic (a b : ℚ) (h : c.name = some (txt "stereographic")) (h1 : CfNum c "latitude_of_projection_origin" a)
      (h2 : CfNum c "longitude_of_projection_origin" b) : ProjOf lower c (txt "stere") [(txt "lat_0", a), (txt "lon_0", b)]
  | polar (a b : ℚ) (h : c.name = some (txt "polar_stereographic")) (h1 : CfNum c "latitude_of_projection_origin" a)
      (h2 : CfNum c "straight_vertical_longitude_from_pole" b) : ProjOf lower c (txt "stere") [(txt "lat_0", a), (txt "lon_0", b)]
  | conic (a b d : ℚ) (h : c.name = some (txt "lambert_conformal_conic"))
      (h1 : dictGet c.cf (txt "standard_parallel") = some (.pair a d)) (h2 : CfNum c "longitude_of_central_meridian" b) :
      ProjOf lower c (txt "lcc") [(txt "lon_0", b), (txt "lat_1", a), (txt "lat_2", d)]
  | orthographic (a b : ℚ) (h : c.name = some (txt "orthographic")) (h1 : CfNum c "latitude_of_projection_origin" a)
      (h2 : CfNum c "longitude_of_projection_origin" b) : ProjOf lower c (txt "ortho") [(txt "lat_0", a), (txt "lon_0", b)]
  | equidistant (a b : ℚ) (h : c.name = some (txt "azimuthal_equidistant")) (h1 : CfNum c "latitude_of_projection_origin" a)
      (h2 : CfNum c "longitude_of_projection_origin" b) : ProjOf lower c (txt "aeqd") [(txt "lat_0", a), (txt "lon_0", b)]
  | cylindrical (a b : ℚ) (m : Text) (h : c.name = none) (hm : c.method = some m) (hs : txt "Equidistant Cylindrical" <:+: m)
      (h1 : OpValue lower c (txt "latitude_of_natural_origin") a) (h2 : OpValue lower c (txt "longitude_of_natural_origin") b) :
      ProjOf lower c (txt "eqc") [(txt "lat_0", a), (txt "lon_0", b)]
  | gnomonic (a b : ℚ) (h : c.name = none) (hm : c.method = some (txt "Gnomonic"))
      (h1 : WktValue (txt "\"Latitude of natural origin\",") 2 c.wkt a)
      (h2 : WktValue (txt "\"Longitude of natural origin\",") 3 c.wkt b) :
      ProjOf lower c (txt "gnom") [(txt "lat_0", a), (txt "lon_0", b)]
  | equalArea (a b : ℚ) (m : Text) (h : c.name = none) (hm : c.method = some m) (hs : txt "Lambert Azimuthal Equal Area" <:+: m)
      (hn : ¬ txt "Equidistant Cylindrical" <:+: m) (h1 : WktValue (txt "\"Latitude of natural origin\",") 2 c.wkt a)
      (h2 : WktValue (txt "\"Longitude of natural origin\",") 3 c.wkt b) :
      ProjOf lower c (txt "laea") [(txt "lat_0", a), (txt "lon_0", b)]

/-! ## C79: proofs -/

theorem hasSub_iff (sub s : Text) : hasSub sub s = true ↔ sub <:+: s := by
  induction s with
  | nil => simp [hasSub]
  | cons c r ih => simp [hasSub, ih, List.infix_cons_iff]

theorem digitChar_facts : ∀ d < 10, isDigit09 (Nat.digitChar d) = true ∧ (Nat.digitChar d).toNat - 48 = d ∧ Nat.digitChar d ≠ '-' ∧
    Nat.digitChar d ≠ '.' := by decide

theorem leadDigits_append {i : List Nat} (hi : ∀ d ∈ i, d < 10) {rest : Text} (hr : ∀ c ∈ rest.head?, ¬ isDigit09 c) :
    leadDigits (i.map Nat.digitChar ++ rest) = i.map Nat.digitChar := by
  unfold leadDigits
  induction i with
  | nil =>
    cases rest with
    | nil => rfl
    | cons c r =>
      have := hr c rfl
      simp [List.takeWhile_cons, this]
  | cons d i ih =>
    have h1 := (digitChar_facts d (hi d (List.mem_cons_self ..))).1
    simp only [List.map_cons, List.cons_append, List.takeWhile_cons, h1, if_true]
    rw [ih fun x hx => hi x (List.mem_cons_of_mem _ hx)]

theorem digitsValue_map {i : List Nat} (hi : ∀ d ∈ i, d < 10) : digitsValue (i.map Nat.digitChar) = Nat.ofDigits 10 i.reverse := by
  unfold digitsValue
  induction i using List.reverseRecOn with
  | nil => rfl
  | append_singleton i d ih =>
    rw [List.map_append, List.foldl_append, ih fun x hx => hi x (List.mem_append_left _ hx), List.reverse_append]
    have := (digitChar_facts d (hi d (by simp))).2.1
    simp only [List.map_cons, List.map_nil, List.foldl_cons, List.foldl_nil, List.reverse_singleton, List.singleton_append, Nat.ofDigits_cons, this]
    omega

theorem numberAt_numeral {m : Nat} {t : Text} {v : ℚ} (h : Numeral m t v) {rest : Text}
    (hr : ∀ c ∈ rest.head?, ¬ isDigit09 c ∧ c ≠ '.') : numberAt m (t ++ rest) = some t ∧ numberValue t = v := by
  obtain ⟨neg, i, f, h1, h2, h3, h4, rfl, rfl⟩ := h
  obtain ⟨d, i, rfl⟩ := List.exists_cons_of_ne_nil h1
  have hd := digitChar_facts d (h3 d (List.mem_cons_self ..))
  have hsign : ∀ s : Text, (((d :: i).map Nat.digitChar ++ s).take 1 = ['-']) = False := by
    intro s
    simp only [List.map_cons, List.cons_append, List.take_succ_cons, List.take_zero, List.cons.injEq, and_true, eq_iff_iff, iff_false]
    exact hd.2.2.1
  have hnd : ¬ isDigit09 '.' = true := by decide
  have hne : (d :: i).map Nat.digitChar ≠ [] := by simp
  generalize d :: i = i at *
  have strip : ∀ s : Text, (if neg = true then
      ((if neg = true then ['-'] else []) ++ (i.map Nat.digitChar ++ s)).drop 1 else
      (if neg = true then ['-'] else []) ++ (i.map Nat.digitChar ++ s)) = i.map Nat.digitChar ++ s := by
    intro s
    cases neg with
    | true => rfl
    | false => rfl
  have isneg : ∀ s : Text, (((if neg = true then ['-'] else []) ++ (i.map Nat.digitChar ++ s)).take 1 = ['-']) = (neg = true) := by
    intro s
    cases neg with
    | true => simp
    | false =>
      simp only [Bool.false_eq_true, if_false, List.nil_append]
      rw [hsign]
  have take_m : (i.map Nat.digitChar).take m = i.map Nat.digitChar := List.take_of_length_le (by simpa using h2)
  cases f with
  | none =>
    have e1 : leadDigits (i.map Nat.digitChar ++ rest) = i.map Nat.digitChar := leadDigits_append h3 fun c hc => (hr c hc).1
    have e0 : leadDigits rest = [] := by
      have := leadDigits_append (i := []) (by simp) (rest := rest) fun c hc => (hr c hc).1
      simpa using this
    have hdot : (rest.take 1 = ['.']) = False := by
      rw [eq_iff_iff, iff_false]
      intro h
      cases rest with
      | nil => cases h
      | cons c r => exact (hr c rfl).2 (by simpa using h)
    constructor
    · unfold numberAt
      simp only [List.append_nil, List.append_assoc, strip, isneg, e1, take_m, if_neg hne, List.drop_left, hdot, if_false, e0]
    · have e2 : leadDigits (i.map Nat.digitChar ++ []) = i.map Nat.digitChar := leadDigits_append h3 (by simp)
      unfold numberValue
      rw [List.append_assoc]
      simp only [strip, isneg, e2, List.drop_left, List.drop_nil, digitsValue_map h3]
      cases neg <;> simp [digitsValue]
  | some f =>
    have h4 : ∀ d ∈ f, d < 10 := h4
    have e1 : ∀ s : Text, leadDigits (i.map Nat.digitChar ++ '.' :: s) = i.map Nat.digitChar := fun s =>
      leadDigits_append h3 (by intro c hc; obtain rfl := Option.some.inj hc; exact hnd)
    have e3 : leadDigits (f.map Nat.digitChar ++ rest) = f.map Nat.digitChar := leadDigits_append h4 fun c hc => (hr c hc).1
    constructor
    · unfold numberAt
      simp only [List.append_assoc, List.cons_append, strip, isneg, e1, take_m, if_neg hne, List.drop_left, List.take_succ_cons, List.take_zero,
        if_true, List.drop_succ_cons, List.drop_zero, e3, List.nil_append]
    · unfold numberValue
      rw [List.append_assoc]
      simp only [strip, isneg, e1, List.drop_left, List.drop_succ_cons, List.drop_zero, digitsValue_map h3, List.length_map, Option.getD_some]
      cases neg <;> simp [digitsValue_map h4]

theorem isDigit09_eq (c : Char) : isDigit09 c = c.isDigit := by
  unfold isDigit09 Char.isDigit
  rfl

theorem searchNumber_first {label : Text} (hl : label ≠ []) {m : Nat} {num : Text} {v : ℚ} (hn : Numeral m num v) {rest : Text}
    (hr : ∀ c ∈ rest.head?, ¬ isDigit09 c ∧ c ≠ '.') (pre : Text)
    (hfirst : ∀ a b, pre ++ label ++ num ++ rest = a ++ label ++ b → pre.length ≤ a.length) :
    searchNumber label m (pre ++ label ++ num ++ rest) = some num := by
  induction pre with
  | nil =>
    obtain ⟨c, l, rfl⟩ := List.exists_cons_of_ne_nil hl
    have hp : (c :: l).isPrefixOf (c :: (l ++ num ++ rest)) = true := by
      rw [List.isPrefixOf_iff_prefix]
      exact ⟨num ++ rest, by simp⟩
    have hd : (c :: (l ++ num ++ rest)).drop (c :: l).length = num ++ rest := by
      simp [List.drop_append]
    show searchNumber (c :: l) m (c :: (l ++ num ++ rest)) = _
    unfold searchNumber
    rw [if_pos hp, hd, (numberAt_numeral hn hr).1]
  | cons c pre ih =>
    have hp : ¬ label.isPrefixOf (c :: (pre ++ label ++ num ++ rest)) = true := by
      rw [List.isPrefixOf_iff_prefix]
      rintro ⟨b, hb⟩
      have := hfirst [] b (by simpa using hb.symm)
      simp at this
    show searchNumber label m (c :: (pre ++ label ++ num ++ rest)) = _
    unfold searchNumber
    rw [if_neg hp]
    refine ih fun a b h => ?_
    have := hfirst (c :: a) b (by simpa using h)
    simpa using this

theorem wktNumber_value {label : Text} (hl : label ≠ []) {m : Nat} {c : CrsFacts} {v : ℚ} (h : WktValue label m c.wkt v) :
    wktNumber label m c = .ok (.num v) := by
  obtain ⟨pre, num, rest, h1, h2, h3, h4⟩ := h
  have h4 : ∀ c ∈ rest.head?, ¬ isDigit09 c ∧ c ≠ '.' := fun c hc => by rw [isDigit09_eq]; exact h4 c hc
  unfold wktNumber
  rw [h1] at h3 ⊢
  rw [searchNumber_first hl h2 h4 pre h3]
  exact congrArg (fun x => Except.ok (CfVal.num x)) (numberAt_numeral h2 h4).2

theorem opGet_value {lower : Text → Text} {c : CrsFacts} {k : Text} {v : ℚ} (h : OpValue lower c k v) : opGet lower c k = .ok v := by
  obtain ⟨⟨n, h1, h2⟩, h3⟩ := h
  unfold opGet
  rw [dictGet_dictUpdate]
  cases hf : (c.operation.map fun kv => ((lower kv.1).map fun x => if x = ' ' then '_' else x, kv.2)).reverse.find? fun x => x.1 = k with
  | none =>
    rw [List.find?_eq_none] at hf
    exact absurd (decide_eq_true h2) (hf (_, v) (List.mem_reverse.2 (List.mem_map.2 ⟨(n, v), h1, rfl⟩)))
  | some y =>
    have hk := List.find?_some hf
    obtain ⟨⟨n', x⟩, hx, rfl⟩ := List.mem_map.1 (List.mem_reverse.1 (List.mem_of_find?_eq_some hf))
    have := h3 n' x hx (of_decide_eq_true hk)
    subst this
    rfl

/-- Angles chosen for a described projection. -/
inductive AnglesOf (code : Text) (n : NavAngles) : List (Text × ℚ) → Prop
  | centre (a b : ℚ) (hc : n.code = code) (h1 : n.angle1 = .num a) (h2 : n.angle2 = .num b)
      (h3 : ∃ a3, n.angle3 = .num a3)
      (hk : code = txt "STR" ∨ code = txt "ORT" ∨ code = txt "AED" ∨ code = txt "CED" ∨ code = txt "GNO" ∨ code = txt "LEA") :
      AnglesOf code n [(txt "lat_0", a), (txt "lon_0", b)]
  | conic (a b d : ℚ) (hc : n.code = txt "LCC") (h1 : n.angle1 = .num a) (h2 : n.angle2 = .num b) (h3 : n.angle3 = .num d)
      (hk : code = txt "LCC") : AnglesOf code n [(txt "lon_0", b), (txt "lat_1", a), (txt "lat_2", d)]

theorem cfAngles_num {c : CrsFacts} {code : Text} {k1 k2 : String} {a b a3 : ℚ} (h1 : CfNum c k1 a) (h2 : CfNum c k2 b) :
    cfAngles c code (txt k1) (txt k2) a3 = .ok ⟨code, .num a, .num b, .num a3⟩ := by
  unfold cfAngles
  rw [cfGet_some h1, cfGet_some h2]
  rfl

theorem wktAngles_num {c : CrsFacts} {code : Text} {a b rot : ℚ} (h1 : WktValue latLabel 2 c.wkt a) (h2 : WktValue lonLabel 3 c.wkt b) :
    wktAngles c code true rot = .ok ⟨code, .num a, .num b, .num rot⟩ := by
  unfold wktAngles
  rw [if_pos rfl, wktNumber_value (by decide) h1, wktNumber_value (by decide) h2]
  rfl

/-- A described projection is accepted, and its parameters are the angles. -/
theorem setProjection_of {lower : Text → Text} {c : CrsFacts} {proj : Text} {params : List (Text × ℚ)} (h : ProjOf lower c proj params)
    (rot : ℚ) : ∃ n code kind, setProjection lower c rot = .ok n ∧ AnglesOf code n params ∧ dictGet gemproj code = some (proj, kind) := by
  cases h with
  | stereographic a b h h1 h2 =>
    refine ⟨⟨txt "STR", .num a, .num b, .num rot⟩, txt "STR", txt "azm", ?_, .centre a b rfl rfl rfl ⟨_, rfl⟩ (by simp), by decide⟩
    unfold setProjection projName
    rw [h]
    exact cfAngles_num h1 h2
  | polar a b h h1 h2 =>
    refine ⟨⟨txt "STR", .num a, .num b, .num 0⟩, txt "STR", txt "azm", ?_, .centre a b rfl rfl rfl ⟨_, rfl⟩ (by simp), by decide⟩
    unfold setProjection projName
    rw [h]
    exact cfAngles_num h1 h2
  | conic a b d h h1 h2 =>
    refine ⟨⟨txt "LCC", .num a, .num b, .num d⟩, txt "LCC", txt "con", ?_, .conic a b d rfl rfl rfl rfl rfl, by decide⟩
    unfold setProjection projName
    rw [h]
    show conicAngles c = _
    unfold conicAngles
    rw [cfGet_some h1]
    show (cfGet c (txt "longitude_of_central_meridian") >>= _) = _
    rw [cfGet_some h2]
    rfl
  | orthographic a b h h1 h2 =>
    refine ⟨⟨txt "ORT", .num a, .num b, .num rot⟩, txt "ORT", txt "azm", ?_, .centre a b rfl rfl rfl ⟨_, rfl⟩ (by simp), by decide⟩
    unfold setProjection projName
    rw [h]
    exact cfAngles_num h1 h2
  | equidistant a b h h1 h2 =>
    refine ⟨⟨txt "AED", .num a, .num b, .num rot⟩, txt "AED", txt "azm", ?_, .centre a b rfl rfl rfl ⟨_, rfl⟩ (by simp), by decide⟩
    unfold setProjection projName
    rw [h]
    exact cfAngles_num h1 h2
  | cylindrical a b m h hm hs h1 h2 =>
    refine ⟨⟨txt "CED", .num a, .num b, .num rot⟩, txt "CED", txt "cyl", ?_, .centre a b rfl rfl rfl ⟨_, rfl⟩ (by simp), by decide⟩
    unfold setProjection projName
    rw [h, hm]
    dsimp only
    rw [if_pos ((hasSub_iff _ _).2 hs)]
    show opAngles lower c rot = _
    unfold opAngles
    rw [hm, if_neg (by simp), opGet_value h1, opGet_value h2]
    rfl
  | gnomonic a b h hm h1 h2 =>
    refine ⟨⟨txt "GNO", .num a, .num b, .num rot⟩, txt "GNO", txt "azm", ?_, .centre a b rfl rfl rfl ⟨_, rfl⟩ (by simp), by decide⟩
    unfold setProjection projName
    rw [h, hm]
    dsimp only
    rw [if_neg (by decide), if_pos rfl]
    exact wktAngles_num h1 h2
  | equalArea a b m h hm hs hn h1 h2 =>
    refine ⟨⟨txt "LEA", .num a, .num b, .num rot⟩, txt "LEA", txt "azm", ?_, .centre a b rfl rfl rfl ⟨_, rfl⟩ (by simp), by decide⟩
    unfold setProjection projName
    rw [h, hm]
    dsimp only
    rw [if_neg (by rw [hasSub_iff]; exact hn), if_neg (by rintro rfl; revert hs; decide), if_pos ((hasSub_iff _ _).2 hs)]
    exact wktAngles_num h1 h2

/-- C79 (partial): the coordinate system of an opened file has the PROJ name of the projection the file was made with, and exactly
the parameters of `ProjOf`, each the nearest single precision number.  Not covered because false: Mercator (`C79_mercator`), the
latitude of origin of a conic projection and the standard parallel of a polar stereographic one (`C79_dropped`), the rotation
(`C79_rotation`). -/
theorem C79_crs_partial (env : GridEnv) (hr : env.Rounds) (sqrt : ℚ → ℚ) (c : CrsFacts) (p : ProjMaps) (useXY : Bool) (rot : ℚ)
    (lon lat : Arr) (h : GridHead) (hi : gridInit env.lower (some (c, p)) useXY rot lon lat = .ok h)
    (proj : Text) (params : List (Text × ℚ)) (hp : ProjOf env.lower c proj params)
    (hx : h.nx < 2 ^ 24) (hy : h.ny < 2 ^ 24) (rs : List GridReq) (hok : AllOk env h.builder rs) (e host : Endian) (bytes : Bytes)
    (hsave : saveGridFile env sqrt e h (runGrid env h.builder rs) = .ok bytes) (f : GridFileR) (hopen : openGrid host bytes = .ok f) :
    ∃ blk n args, f.info.blocks = some blk ∧ navBlock blk = some n ∧ getCrs n = .ok ⟨proj, args⟩ ∧
      List.Forall₂ (fun x y => x.1 = y.1 ∧ ∃ w, y.2 = .word w ∧ Nearest x.2 w) params args := by
  obtain ⟨hsz, hpr, la1, lo1, la2, lo2, hc, hcc⟩ := gridInit_inv hi
  obtain ⟨blk, n, g1, g2, g3, _, _, _, _, _, k1, k2, k3⟩ := nav_read hr (code_known (setProjection_code hpr)) hc hx hy hok hsave hopen
  obtain ⟨n', code, kind, q1, q2, q3⟩ := setProjection_of hp rot
  obtain rfl := Except.ok.inj (hpr.symm.trans q1)
  cases q2 with
  | centre a b hcode h1 h2 h3 hk =>
    rw [h1] at k1
    rw [h2] at k2
    refine ⟨blk, n, [(txt "lat_0", .word n.angle1), (txt "lon_0", .word n.angle2)], g1, g2, ?_, ?_⟩
    · unfold getCrs
      rw [g3, hcode, q3]
      rcases hk with rfl | rfl | rfl | rfl | rfl | rfl <;>
        (obtain ⟨rfl, rfl⟩ := Prod.mk.inj (Option.some.inj ((show dictGet gemproj _ = some (_, _) from rfl).symm.trans q3)); rfl)
    · exact .cons ⟨rfl, _, rfl, Rounds.near hr k1⟩ (.cons ⟨rfl, _, rfl, Rounds.near hr k2⟩ .nil)
  | conic a b d hcode h1 h2 h3 hk =>
    rw [h1] at k1
    rw [h2] at k2
    rw [h3] at k3
    refine ⟨blk, n, [(txt "lon_0", .word n.angle2), (txt "lat_1", .word n.angle1), (txt "lat_2", .word n.angle3)], g1, g2, ?_, ?_⟩
    · unfold getCrs
      rw [g3, hcode, ← hk, q3]
      subst hk
      obtain ⟨rfl, rfl⟩ := Prod.mk.inj (Option.some.inj ((show dictGet gemproj (txt "LCC") = some (_, _) from rfl).symm.trans q3))
      rfl
    · exact .cons ⟨rfl, _, rfl, Rounds.near hr k2⟩ (.cons ⟨rfl, _, rfl, Rounds.near hr k1⟩ (.cons ⟨rfl, _, rfl, Rounds.near hr k3⟩ .nil))

/-- C79 is false for Mercator: the latitude of true scale comes back as the latitude of origin, and no latitude of true scale is
given at all. -/
theorem C79_mercator (env : GridEnv) (hr : env.Rounds) (sqrt : ℚ → ℚ) (c : CrsFacts) (p : ProjMaps) (useXY : Bool) (rot : ℚ)
    (lon lat : Arr) (h : GridHead) (hi : gridInit env.lower (some (c, p)) useXY rot lon lat = .ok h) (ts lon0 : ℚ)
    (hn : c.name = some (txt "mercator")) (h1 : CfNum c "standard_parallel" ts) (h2 : CfNum c "longitude_of_projection_origin" lon0)
    (hx : h.nx < 2 ^ 24) (hy : h.ny < 2 ^ 24) (rs : List GridReq) (hok : AllOk env h.builder rs) (e host : Endian) (bytes : Bytes)
    (hsave : saveGridFile env sqrt e h (runGrid env h.builder rs) = .ok bytes) (f : GridFileR) (hopen : openGrid host bytes = .ok f) :
    ∃ blk n a b, f.info.blocks = some blk ∧ navBlock blk = some n ∧
      getCrs n = .ok ⟨txt "merc", [(txt "lat_0", .word a), (txt "lon_0", .word b)]⟩ ∧ Nearest ts a ∧ Nearest lon0 b := by
  obtain ⟨hsz, hpr, la1, lo1, la2, lo2, hc, hcc⟩ := gridInit_inv hi
  obtain ⟨blk, n, g1, g2, g3, _, _, _, _, _, k1, k2, k3⟩ := nav_read hr (code_known (setProjection_code hpr)) hc hx hy hok hsave hopen
  have q : setProjection env.lower c rot = .ok ⟨txt "MER", .num ts, .num lon0, .num rot⟩ := by
    unfold setProjection projName
    rw [hn]
    exact cfAngles_num h1 h2
  rw [← Except.ok.inj (q.symm.trans hpr)] at g3 k1 k2
  refine ⟨blk, n, n.angle1, n.angle2, g1, g2, ?_, Rounds.near hr k1, Rounds.near hr k2⟩
  unfold getCrs
  rw [g3]
  rfl

/-- C79 is false for conic and polar stereographic projections: what is written depends neither on the latitude of origin of the
former nor on the standard parallel of the latter. -/
theorem C79_dropped (lower : Text → Text) (c1 c2 : CrsFacts) (rot : ℚ) (hn : c1.name = c2.name)
    (hk : c1.name = some (txt "lambert_conformal_conic") ∧
        (∀ k, k ≠ txt "latitude_of_projection_origin" → dictGet c1.cf k = dictGet c2.cf k) ∨
      c1.name = some (txt "polar_stereographic") ∧ ∀ k, k ≠ txt "standard_parallel" → dictGet c1.cf k = dictGet c2.cf k) :
    setProjection lower c1 rot = setProjection lower c2 rot := by
  unfold setProjection projName
  rw [← hn]
  rcases hk with ⟨h, hk⟩ | ⟨h, hk⟩ <;> rw [h]
  · show conicAngles c1 = conicAngles c2
    unfold conicAngles cfGet
    rw [hk _ (by decide), hk _ (by decide)]
  · show cfAngles c1 _ _ _ _ = cfAngles c2 _ _ _ _
    unfold cfAngles cfGet
    rw [hk _ (by decide), hk _ (by decide)]

/-- Two files with different rotations are opened with the same coordinate system, whatever the projection but the conic one. -/
theorem C79_rotation (n : NavBlock) (angle3 : F32) (hn : n.code ≠ txt "LCC" ∧ n.code ≠ txt "SCC") :
    getCrs { n with angle3 := angle3 } = getCrs n := by
  unfold getCrs
  dsimp only
  cases hd : dictGet gemproj n.code with
  | none => rfl
  | some pk =>
    obtain ⟨proj, kind⟩ := pk
    dsimp only
    split
    · rfl
    split
    · rfl
    · rename_i h1 h2
      exfalso
      have key : ∀ t ∈ gemproj, t.1 ≠ txt "LCC" → t.1 ≠ txt "SCC" → t.2.2 = txt "azm" ∨ t.2.2 = txt "cyl" := by decide
      have hm : (n.code, proj, kind) ∈ gemproj := dictGet_mem' hd
      rcases key _ hm hn.1 hn.2 with h | h
      · exact h1 h
      · exact h2 h

/-! ## C80 -/

/-- C80 (partial): every projection of `ProjOf` is accepted for every well-formed grid with at least one point. -/
theorem C80_accepted_partial (lower : Text → Text) (c : CrsFacts) (p : ProjMaps) (rot : ℚ) (lon lat : Arr)
    (proj : Text) (params : List (Text × ℚ)) (hp : ProjOf lower c proj params) (hlon : lon.data.length = lon.shape.prod)
    (hlat : lat.data.length = lat.shape.prod) (useXY : Bool)
    (hgrid : if useXY then ∃ nx ny, lon.shape = [nx + 1] ∧ lat.shape = [ny + 1]
      else ∃ ny nx, lon.shape = [ny + 1, nx + 1] ∧ lat.shape = [ny + 1, nx + 1]) :
    ∃ h, gridInit lower (some (c, p)) useXY rot lon lat = .ok h := by
  obtain ⟨n, _, _, q1, _, _⟩ := setProjection_of hp rot
  cases useXY with
  | true =>
    obtain ⟨nx, ny, s1, s2⟩ := hgrid
    rw [s1, List.prod_singleton] at hlon
    rw [s2, List.prod_singleton] at hlat
    obtain ⟨x, xs, hx⟩ := List.exists_cons_of_ne_nil (l := lon.data) (by rintro h; rw [h] at hlon; cases hlon)
    obtain ⟨y, ys, hy⟩ := List.exists_cons_of_ne_nil (l := lat.data) (by rintro h; rw [h] at hlat; cases hlat)
    unfold gridInit
    rw [if_neg (by simp)]
    dsimp only
    rw [if_pos rfl]
    unfold initXY
    rw [if_neg (by rw [s1, s2]; simp), q1, hx, hy]
    have l1 : ∀ (a : ℚ) (l : List ℚ), ∃ z, lastItem (a :: l) = .ok z := by
      intro a l
      unfold lastItem
      rw [List.getLast?_eq_some_getLast (List.cons_ne_nil a l)]
      exact ⟨_, rfl⟩
    obtain ⟨z1, e1⟩ := l1 x xs
    obtain ⟨z2, e2⟩ := l1 y ys
    have e3 : item (x :: xs) 0 = .ok x := rfl
    have e4 : item (y :: ys) 0 = .ok y := rfl
    rw [e1, e2, e3, e4]
    exact ⟨_, rfl⟩
  | false =>
    obtain ⟨ny, nx, s1, s2⟩ := hgrid
    have at0 : ∀ (a : Arr) (i j : Nat), a.shape = [ny + 1, nx + 1] → a.data.length = a.shape.prod → i < ny + 1 → j < nx + 1 →
        ∃ z, a.at2 i j = .ok z := by
      intro a i j hs hl hi hj
      have hlt : i * (nx + 1) + j < a.data.length := by
        rw [hl, hs]
        simp only [List.prod_cons, List.prod_nil, Nat.mul_one]
        calc i * (nx + 1) + j < i * (nx + 1) + (nx + 1) := by omega
          _ = (i + 1) * (nx + 1) := by rw [Nat.add_mul, Nat.one_mul]
          _ ≤ (ny + 1) * (nx + 1) := Nat.mul_le_mul_right _ (by omega)
      unfold Arr.at2
      rw [hs]
      dsimp only
      rw [if_pos ⟨hi, hj⟩, List.getElem?_eq_getElem hlt]
      exact ⟨_, rfl⟩
    have atl : ∀ a : Arr, a.shape = [ny + 1, nx + 1] → a.data.length = a.shape.prod → ∃ z, a.last2 = .ok z := by
      intro a hs hl
      unfold Arr.last2
      rw [hs]
      exact at0 a ny nx hs hl (by omega) (by omega)
    obtain ⟨z1, e1⟩ := at0 lat 0 0 s2 hlat (by omega) (by omega)
    obtain ⟨z2, e2⟩ := at0 lon 0 0 s1 hlon (by omega) (by omega)
    obtain ⟨z3, e3⟩ := atl lat s2 hlat
    obtain ⟨z4, e4⟩ := atl lon s1 hlon
    unfold gridInit
    rw [if_neg (by rw [s1, s2]; simp)]
    dsimp only
    rw [if_neg (by simp)]
    unfold initGeo
    rw [s1, s2]
    dsimp only
    unfold axes
    rw [if_neg (by omega), q1, e1, e2, e3, e4]
    exact ⟨_, rfl⟩

/-- C80 is false for transverse Mercator, which the documentation lists together with its universal variant: whatever the
parameters, the grid and the options, the constructor does not return. -/
theorem C80_transverse (lower : Text → Text) (c : CrsFacts) (p : ProjMaps) (useXY : Bool) (rot : ℚ) (lon lat : Arr)
    (hn : c.name = some (txt "transverse_mercator")) : ∀ h, gridInit lower (some (c, p)) useXY rot lon lat ≠ .ok h := by
  intro h hi
  obtain ⟨_, hpr, _⟩ := gridInit_inv hi
  have : setProjection lower c rot = .error .notImplemented := by
    unfold setProjection projName; rw [hn]; rfl
  rw [this] at hpr
  cases hpr

/-- C80 is false for Lambert azimuthal equal area projections that have a CF name. -/
theorem C80_equal_area (lower : Text → Text) (c : CrsFacts) (p : ProjMaps) (useXY : Bool) (rot : ℚ) (lon lat : Arr)
    (hn : c.name = some (txt "lambert_azimuthal_equal_area")) : ∀ h, gridInit lower (some (c, p)) useXY rot lon lat ≠ .ok h := by
  intro h hi
  obtain ⟨_, hpr, _⟩ := gridInit_inv hi
  have : setProjection lower c rot = .error .typeError := by
    unfold setProjection projName; rw [hn]; rfl
  rw [this] at hpr
  cases hpr

/-- C80 is false for Lambert conformal conic projections with one standard parallel. -/
theorem C80_tangent (lower : Text → Text) (c : CrsFacts) (p : ProjMaps) (useXY : Bool) (rot : ℚ) (lon lat : Arr) (a : ℚ)
    (hn : c.name = some (txt "lambert_conformal_conic")) (ha : CfNum c "standard_parallel" a) :
    ∀ h, gridInit lower (some (c, p)) useXY rot lon lat ≠ .ok h := by
  intro h hi
  obtain ⟨_, hpr, _⟩ := gridInit_inv hi
  have : setProjection lower c rot = .error .typeError := by
    unfold setProjection projName; rw [hn]
    show conicAngles c = _
    unfold conicAngles
    rw [cfGet_some ha]
    rfl
  rw [this] at hpr
  cases hpr

/-- A numeral with an exponent is read up to the exponent: one degree instead of one hundred thousandth. -/
theorem C80_exponent : wktNumber latLabel 2 ⟨none, [], txt "PARAMETER[\"Latitude of natural origin\",1e-05,", some (txt "Gnomonic"), []⟩ =
    .ok (.num 1) := by decide +kernel

/-! ## C81 -/

theorem linspace_length (a b : ℚ) (n : Nat) : (linspace a b n).length = n := by simp [linspace]

theorem linspace_get (a b : ℚ) {n i : Nat} (hn : 2 ≤ n) (h : i < n) :
    (linspace a b n)[i]? = some (a + i * ((b - a) / (n - 1))) := by
  unfold linspace
  rw [List.getElem?_map, List.getElem?_range h]
  simp only [Option.map_some, if_neg (show ¬ n = 1 by omega)]

/-- Evenly spaced from `a` to `b`, the first item `a` even when it is the only one. -/
def Spec.Even (a b : ℚ) (l : List ℚ) : Prop :=
  (0 < l.length → l[0]? = some a) ∧ (2 ≤ l.length → l[l.length - 1]? = some b) ∧
    ∃ d, ∀ i x y, l[i]? = some x → l[i + 1]? = some y → y - x = d

theorem linspace_even (a b : ℚ) (n : Nat) : Even a b (linspace a b n) := by
  unfold Spec.Even
  rw [linspace_length]
  refine ⟨fun h => ?_, fun h => ?_, ?_⟩
  · unfold linspace
    rw [List.getElem?_map, List.getElem?_range h]
    by_cases h1 : n = 1 <;> simp [h1]
  · rw [linspace_get a b h (by omega)]
    congr 1
    have h1 : ((n - 1 : ℕ) : ℚ) = (n : ℚ) - 1 := by push_cast [Nat.cast_sub (show 1 ≤ n by omega)]; ring
    have h2 : (n : ℚ) - 1 ≠ 0 := by
      have : (2 : ℚ) ≤ n := by exact_mod_cast h
      intro h0; linarith
    rw [h1]; field_simp; ring
  · refine ⟨(b - a) / (n - 1), fun i x y hx hy => ?_⟩
    have hlt : i + 1 < n := by
      by_contra hc
      rw [List.getElem?_eq_none (by rw [linspace_length]; omega)] at hy
      cases hy
    rw [linspace_get a b (by omega) (by omega)] at hx hy
    rw [← Option.some.inj hx, ← Option.some.inj hy]
    push_cast; ring

/-- C81: the coordinates of an opened file are, for the projection `q` it is opened with, as many as the input has columns and
rows, evenly spaced, and run from the projected first to the projected last corner. -/
theorem C81_axes (env : GridEnv) (hr : env.Rounds) (sqrt : ℚ → ℚ) (c : CrsFacts) (p q : ProjMaps) (useXY : Bool) (rot : ℚ)
    (lon lat : Arr) (h : GridHead) (hi : gridInit env.lower (some (c, p)) useXY rot lon lat = .ok h)
    (hx : h.nx < 2 ^ 24) (hy : h.ny < 2 ^ 24) (rs : List GridReq) (hok : AllOk env h.builder rs) (e host : Endian) (bytes : Bytes)
    (hsave : saveGridFile env sqrt e h (runGrid env h.builder rs) = .ok bytes) (f : GridFileR) (hopen : openGrid host bytes = .ok f) :
    ∃ blk n nx ny xs ys, f.info.blocks = some blk ∧ navBlock blk = some n ∧ f.size = some (((nx : ℕ) : Int), ((ny : ℕ) : Int)) ∧
      gridAxes q n nx ny = some (xs, ys) ∧ HasSize lon lat useXY xs.length ys.length ∧
      ∃ la1 lo1 la2 lo2 u1 v1 u2 v2, HasCorners p lon lat useXY la1 lo1 la2 lo2 ∧
        (∃ w, Nearest lo1 w ∧ f32Value w = some u1) ∧ (∃ w, Nearest la1 w ∧ f32Value w = some v1) ∧
        (∃ w, Nearest lo2 w ∧ f32Value w = some u2) ∧ (∃ w, Nearest la2 w ∧ f32Value w = some v2) ∧
        Even (q.fwd u1 v1).1 (q.fwd u2 v2).1 xs ∧ Even (q.fwd u1 v1).2 (q.fwd u2 v2).2 ys := by
  obtain ⟨hsz, hpr, la1, lo1, la2, lo2, hc, hcc⟩ := gridInit_inv hi
  obtain ⟨blk, n, g1, g2, _, g3, k1, k2, k3, k4, _⟩ := nav_read hr (code_known (setProjection_code hpr)) hc hx hy hok hsave hopen
  have n1 := Rounds.near hr k1
  have n2 := Rounds.near hr k2
  have n3 := Rounds.near hr k3
  have n4 := Rounds.near hr k4
  obtain ⟨v1, b1, _⟩ := id n1
  obtain ⟨u1, b2, _⟩ := id n2
  obtain ⟨v2, b3, _⟩ := id n3
  obtain ⟨u2, b4, _⟩ := id n4
  refine ⟨blk, n, h.nx, h.ny, linspace (q.fwd u1 v1).1 (q.fwd u2 v2).1 h.nx, linspace (q.fwd u1 v1).2 (q.fwd u2 v2).2 h.ny, g1, g2, g3, ?_, ?_,
    la1, lo1, la2, lo2, u1, v1, u2, v2, hcc, ⟨_, n2, b2⟩, ⟨_, n1, b1⟩, ⟨_, n4, b4⟩, ⟨_, n3, b3⟩, linspace_even _ _ _, linspace_even _ _ _⟩
  · unfold gridAxes
    rw [b1, b2, b3, b4]
    rfl
  · rw [linspace_length, linspace_length]
    exact hsz

/-- Position in an evenly spaced list. -/
theorem even_get {l : List ℚ} {a b : ℚ} (h : Even a b l) (hlen : 2 ≤ l.length) {i : Nat} {x : ℚ} (hx : l[i]? = some x) :
    x = a + i * ((b - a) / (l.length - 1)) := by
  obtain ⟨h1, h2, d, h3⟩ := h
  have h1 := h1 (by omega)
  have h2 := h2 hlen
  have key : ∀ (i : ℕ) (x : ℚ), l[i]? = some x → x = a + i * d := by
    intro i
    induction i with
    | zero => intro x hx; rw [h1] at hx; rw [← Option.some.inj hx]; simp
    | succ i ih =>
      intro x hx
      have hlt : i + 1 < l.length := by
        by_contra hc
        rw [List.getElem?_eq_none (by omega)] at hx
        cases hx
      have hy : l[i]? = some l[i] := List.getElem?_eq_getElem (by omega)
      have := h3 i _ x hy hx
      rw [ih _ hy] at this
      push_cast
      linarith
  have hb := key _ _ h2
  have hn : ((l.length - 1 : ℕ) : ℚ) = (l.length : ℚ) - 1 := by push_cast [Nat.cast_sub (show 1 ≤ l.length by omega)]; ring
  have hne : (l.length : ℚ) - 1 ≠ 0 := by
    have : (2 : ℚ) ≤ l.length := by exact_mod_cast hlen
    intro h0; linarith
  rw [key i x hx, hb, hn]
  field_simp
  ring

/-- Evenly spaced lists of the same length are nowhere farther apart than at their ends. -/
theorem even_close {l l' : List ℚ} {a b a' b' ε : ℚ} (h : Even a b l) (h' : Even a' b' l') (hlen : l.length = l'.length)
    (ha : |a' - a| ≤ ε) (hb : 2 ≤ l.length → |b' - b| ≤ ε) {i : Nat} {x x' : ℚ} (hx : l[i]? = some x) (hx' : l'[i]? = some x') :
    |x' - x| ≤ ε := by
  have hlt : i < l.length := by
    by_contra hc
    rw [List.getElem?_eq_none (by omega)] at hx
    cases hx
  by_cases h2 : 2 ≤ l.length
  · have hb := hb h2
    rw [even_get h h2 hx, even_get h' (by omega) hx', ← hlen]
    have hN : (1 : ℚ) ≤ (l.length : ℚ) - 1 := by
      have : (2 : ℚ) ≤ l.length := by exact_mod_cast h2
      linarith
    have hiN : (i : ℚ) ≤ (l.length : ℚ) - 1 := by
      have : (i : ℚ) + 1 ≤ l.length := by exact_mod_cast hlt
      linarith
    have hi0 : (0 : ℚ) ≤ i := by positivity
    generalize (l.length : ℚ) - 1 = N at *
    have hNne : N ≠ 0 := by intro h0; linarith
    have e : (a' + i * ((b' - a') / N)) - (a + i * ((b - a) / N)) = (1 - i / N) * (a' - a) + i / N * (b' - b) := by
      field_simp; ring
    have t0 : 0 ≤ (i : ℚ) / N := div_nonneg hi0 (by linarith)
    have t1 : (i : ℚ) / N ≤ 1 := by rw [div_le_one (by linarith)]; exact hiN
    generalize (i : ℚ) / N = s at *
    rw [e]
    rw [abs_le] at ha hb ⊢
    constructor <;> nlinarith
  · have h0 : i = 0 := by omega
    subst h0
    rw [h.1 (by omega)] at hx
    rw [h'.1 (by omega)] at hx'
    rw [← Option.some.inj hx, ← Option.some.inj hx']
    exact ha

/-- C81: no error accumulates over a grid.  If mapping a projected point to geographic coordinates (`p`, when writing), rounding
those to single precision and projecting them again (`q`, when reading) moves no point farther than `ε`, then no coordinate of
an evenly spaced grid is read farther than `ε` from where it was. -/
theorem C81_close (env : GridEnv) (hr : env.Rounds) (sqrt : ℚ → ℚ) (c : CrsFacts) (p q : ProjMaps) (rot : ℚ)
    (lon lat : Arr) (h : GridHead) (hi : gridInit env.lower (some (c, p)) true rot lon lat = .ok h)
    (hx : h.nx < 2 ^ 24) (hy : h.ny < 2 ^ 24) (rs : List GridReq) (hok : AllOk env h.builder rs) (e host : Endian) (bytes : Bytes)
    (hsave : saveGridFile env sqrt e h (runGrid env h.builder rs) = .ok bytes) (f : GridFileR) (hopen : openGrid host bytes = .ok f)
    (ε : ℚ) (hε : ∀ x y w1 w2 u v, Nearest (p.inv x y).1 w1 → Nearest (p.inv x y).2 w2 → f32Value w1 = some u → f32Value w2 = some v →
      |(q.fwd u v).1 - x| ≤ ε ∧ |(q.fwd u v).2 - y| ≤ ε)
    (ex : ∃ a b, Even a b lon.data) (ey : ∃ a b, Even a b lat.data) :
    ∃ blk n nx ny xs ys, f.info.blocks = some blk ∧ navBlock blk = some n ∧ f.size = some (((nx : ℕ) : Int), ((ny : ℕ) : Int)) ∧
      gridAxes q n nx ny = some (xs, ys) ∧ List.Forall₂ (fun x x' => |x' - x| ≤ ε) lon.data xs ∧
      List.Forall₂ (fun y y' => |y' - y| ≤ ε) lat.data ys := by
  obtain ⟨blk, n, nx, ny, xs, ys, g1, g2, g3, g4, g5, la1, lo1, la2, lo2, u1, v1, u2, v2, g6, ⟨w1, a1, b1⟩, ⟨w2, a2, b2⟩, ⟨w3, a3, b3⟩,
    ⟨w4, a4, b4⟩, e1, e2⟩ := C81_axes env hr sqrt c p q true rot lon lat h hi hx hy rs hok e host bytes hsave f hopen
  refine ⟨blk, n, nx, ny, xs, ys, g1, g2, g3, g4, ?_⟩
  obtain ⟨xa, xb, ex⟩ := ex
  obtain ⟨ya, yb, ey⟩ := ey
  obtain ⟨hl1, hl2⟩ : lon.data.length = xs.length ∧ lat.data.length = ys.length := by
    generalize hm : xs.length = m at g5
    generalize hk : ys.length = k at g5
    cases g5
    exact ⟨rfl, rfl⟩
  cases g6 with
  | xy x1 y1 x2 y2 c1 c2 c3 c4 =>
    obtain ⟨s1, s2⟩ := hε x1 y1 w1 w2 u1 v1 a1 a2 b1 b2
    obtain ⟨s3, s4⟩ := hε x2 y2 w3 w4 u2 v2 a3 a4 b3 b4
    have p1 : 0 < lon.data.length := by cases hd : lon.data with
      | nil => rw [hd] at c1; cases c1
      | cons a l => simp
    have p2 : 0 < lat.data.length := by cases hd : lat.data with
      | nil => rw [hd] at c2; cases c2
      | cons a l => simp
    rw [List.head?_eq_getElem?] at c1 c2
    rw [List.getLast?_eq_getElem?] at c3 c4
    have q1 : xa = x1 := Option.some.inj ((ex.1 p1).symm.trans c1)
    have q2 : ya = y1 := Option.some.inj ((ey.1 p2).symm.trans c2)
    have q3 : 2 ≤ lon.data.length → xb = x2 := fun h => Option.some.inj ((ex.2.1 h).symm.trans c3)
    have q4 : 2 ≤ lat.data.length → yb = y2 := fun h => Option.some.inj ((ey.2.1 h).symm.trans c4)
    subst q1 q2
    constructor
    · rw [List.forall₂_iff_get]
      refine ⟨hl1, fun i h1 h2 => ?_⟩
      exact even_close ex e1 hl1 s1 (fun h => by rw [q3 h]; exact s3) (List.getElem?_eq_getElem h1) (List.getElem?_eq_getElem h2)
    · rw [List.forall₂_iff_get]
      refine ⟨hl2, fun i h1 h2 => ?_⟩
      exact even_close ey e2 hl2 s2 (fun h => by rw [q4 h]; exact s4) (List.getElem?_eq_getElem h1) (List.getElem?_eq_getElem h2)

/-! ## C82 -/

/-- Shapes of the coordinate arrays of a file. -/
theorem gridInit_shapes {lower : Text → Text} {c : CrsFacts} {p : ProjMaps} {useXY : Bool} {rot : ℚ} {lon lat : Arr} {h : GridHead}
    (hi : gridInit lower (some (c, p)) useXY rot lon lat = .ok h) :
    h.lon.shape = [h.ny, h.nx] ∧ h.lat.shape = [h.ny, h.nx] ∧
      (useXY = false → h.lon = lon ∧ h.lat = lat) ∧ (useXY = true → (h.lon, h.lat) = meshInverse p lon.data lat.data) := by
  unfold gridInit at hi
  split at hi
  · cases hi
  rename_i hsh
  dsimp only at hi
  cases useXY with
  | true =>
    rw [if_pos rfl] at hi
    unfold initXY at hi
    split at hi
    · cases hi
    obtain ⟨nav, h1, hi⟩ := Except.bind_ok hi
    obtain ⟨x1, e1, hi⟩ := Except.bind_ok hi
    obtain ⟨y1, e2, hi⟩ := Except.bind_ok hi
    obtain ⟨x2, e3, hi⟩ := Except.bind_ok hi
    obtain ⟨y2, e4, hi⟩ := Except.bind_ok hi
    obtain rfl := Except.ok.inj hi
    exact ⟨rfl, rfl, by simp, fun _ => rfl⟩
  | false =>
    rw [if_neg (by simp)] at hi
    unfold initGeo at hi
    split at hi
    · rename_i ny nx _ _ hs1 hs2
      obtain ⟨⟨xs, ys⟩, _, hi⟩ := Except.bind_ok hi
      obtain ⟨nav, h1, hi⟩ := Except.bind_ok hi
      obtain ⟨la1, e1, hi⟩ := Except.bind_ok hi
      obtain ⟨lo1, e2, hi⟩ := Except.bind_ok hi
      obtain ⟨la2, e3, hi⟩ := Except.bind_ok hi
      obtain ⟨lo2, e4, hi⟩ := Except.bind_ok hi
      obtain rfl := Except.ok.inj hi
      have hs : lat.shape = lon.shape := by simpa using hsh
      exact ⟨hs.symm.trans hs1, hs1, fun _ => ⟨rfl, rfl⟩, by simp⟩
    · cases hi

/-- C82 is false: a grid with fewer than three columns or rows cannot be saved, whatever it holds. -/
theorem C82_small (env : GridEnv) (sqrt : ℚ → ℚ) (c : CrsFacts) (p : ProjMaps) (useXY : Bool) (rot : ℚ) (lon lat : Arr) (h : GridHead)
    (hi : gridInit env.lower (some (c, p)) useXY rot lon lat = .ok h) (hs : h.nx < 3 ∨ h.ny < 3) (e : Endian) (b : GridBuilder)
    (bytes : Bytes) : saveGridFile env sqrt e h b ≠ .ok bytes := by
  intro hsave
  unfold saveGridFile at hsave
  obtain ⟨_, _, hsave⟩ := Except.bind_ok hsave
  obtain ⟨_, _, hsave⟩ := Except.bind_ok hsave
  obtain ⟨d, hd, _⟩ := Except.bind_ok hsave
  obtain ⟨d', hd, _⟩ := Except.bind_ok hd
  unfold gridDelta at hd
  obtain ⟨_, ha, _⟩ := Except.bind_ok hd
  obtain ⟨n, m, h1, h2, h3, _⟩ := at2_inv ha
  rw [(gridInit_shapes hi).1] at h1
  obtain ⟨rfl, rfl⟩ := pair_inj h1
  omega

theorem at2_ok {a : Arr} {n m i j : Nat} (hs : a.shape = [n, m]) (hl : a.data.length = n * m) (hi : i < n) (hj : j < m) :
    ∃ z, a.at2 i j = .ok z := by
  have hlt : i * m + j < a.data.length := by
    rw [hl]
    calc i * m + j < i * m + m := by omega
      _ = (i + 1) * m := by rw [Nat.add_mul, Nat.one_mul]
      _ ≤ n * m := Nat.mul_le_mul_right _ (by omega)
  unfold Arr.at2
  rw [hs]
  dsimp only
  rw [if_pos ⟨hi, hj⟩, List.getElem?_eq_getElem hlt]
  exact ⟨_, rfl⟩

theorem flatMap_length_const {α β : Type} (l : List α) (f : α → List β) (k : Nat) (h : ∀ a, (f a).length = k) :
    (l.flatMap f).length = l.length * k := by
  induction l with
  | nil => simp
  | cons a l ih => rw [List.flatMap_cons, List.length_append, ih, h, List.length_cons, Nat.add_mul]; omega

/-- C82 (partial): a grid with at least three columns and rows, whose coordinates and angles fit single precision, is saved when its
values fit (`C16_writes`). -/
theorem C82_saves_partial (env : GridEnv) (hr : env.Rounds) (sqrt : ℚ → ℚ) (hf : ∀ q, ∃ w, env.f32 q = .ok w) (c : CrsFacts) (p : ProjMaps)
    (useXY : Bool) (rot : ℚ) (lon lat : Arr) (hlon : lon.data.length = lon.shape.prod) (hlat : lat.data.length = lat.shape.prod)
    (proj : Text) (params : List (Text × ℚ)) (hp : ProjOf env.lower c proj params) (h : GridHead)
    (hi : gridInit env.lower (some (c, p)) useXY rot lon lat = .ok h) (hx : 3 ≤ h.nx) (hy : 3 ≤ h.ny) (hxy : h.nx * h.ny < 2 ^ 24)
    (rs : List GridReq) (hok : AllOk env h.builder rs)
    (hl : ∀ e ∈ gAccepted env h.nx h.ny rs, e.Legible) (hw : ∀ e ∈ gAccepted env h.nx h.ny rs, e.Writable env)
    (hsize : (gfinal (gAccepted env h.nx h.ny rs)).length * (h.nx * h.ny + 10) ≤ 2 ^ 30) (e : Endian) :
    ∃ bytes, saveGridFile env sqrt e h (runGrid env h.builder rs) = .ok bytes := by
  obtain ⟨hsz, hpr, la1, lo1, la2, lo2, hc, hcc⟩ := gridInit_inv hi
  obtain ⟨s1, s2, s3, s4⟩ := gridInit_shapes hi
  obtain ⟨n', code, kind, q1, q2, q3⟩ := setProjection_of hp rot
  obtain ⟨l1, l2⟩ : h.lon.data.length = h.ny * h.nx ∧ h.lat.data.length = h.ny * h.nx := by
    cases useXY with
    | false =>
      obtain ⟨r1, r2⟩ := s3 rfl
      rw [r1] at s1 ⊢
      rw [r2] at s2 ⊢
      rw [hlon, hlat, s1, s2]
      simp
    | true =>
      have r := s4 rfl
      unfold meshInverse at r
      obtain ⟨r1, r2⟩ := Prod.mk.inj r
      rw [r1] at s1 ⊢
      rw [r2] at s2 ⊢
      obtain ⟨t1, t2⟩ := pair_inj s1
      dsimp only
      rw [List.length_map, List.length_map, flatMap_length_const _ _ lon.data.length (by simp), t1, t2]
      exact ⟨rfl, rfl⟩
  have i1 : h.ny / 2 + 1 < h.ny := by omega
  have i2 : h.nx / 2 + 1 < h.nx := by omega
  obtain ⟨z1, e1⟩ := at2_ok s1 l1 i1 i2
  obtain ⟨z2, e2⟩ := at2_ok s1 l1 (i := h.ny / 2) (j := h.nx / 2) (by omega) (by omega)
  obtain ⟨z3, e3⟩ := at2_ok s2 l2 i1 i2
  obtain ⟨z4, e4⟩ := at2_ok s2 l2 (i := h.ny / 2) (j := h.nx / 2) (by omega) (by omega)
  have hangle : ∃ a1 a2 a3 : ℚ, h.nav.angle1 = .num a1 ∧ h.nav.angle2 = .num a2 ∧ h.nav.angle3 = .num a3 := by
    obtain rfl := Except.ok.inj (hpr.symm.trans q1)
    cases q2 with
    | centre a b hcode h1 h2 h3 hk =>
      obtain ⟨a3, h3⟩ := h3
      exact ⟨a, b, a3, h1, h2, h3⟩
    | conic a b d hcode h1 h2 h3 hk => exact ⟨a, b, d, h1, h2, h3⟩
  obtain ⟨a1, a2, a3, f1, f2, f3⟩ := hangle
  obtain ⟨w1, x1⟩ := hf la1
  obtain ⟨w2, x2⟩ := hf lo1
  obtain ⟨w3, x3⟩ := hf la2
  obtain ⟨w4, x4⟩ := hf lo2
  obtain ⟨v1, y1⟩ := hf a1
  obtain ⟨v2, y2⟩ := hf a2
  obtain ⟨v3, y3⟩ := hf a3
  obtain ⟨d, y4⟩ := hf (sqrt (((z1 - z2) ^ 2 + (z3 - z4) ^ 2) / 2) * 2)
  obtain ⟨_, g2, g3⟩ := C19_grid_history env h.nx h.ny h.nav.code [] [] 0 16 rs hok
  have hist := (new_history env _ (GHistory.new h.nx h.ny h.nav.code [] [] 0 16) rs).nav [w1, w2, w3, w4] [v1, v2, v3] d
  have hs := grid_saves hr (b0 := { newGrid h.nx h.ny h.nav.code [] [] 0 16 with corners := [w1, w2, w3, w4], angles := [v1, v2, v3], delta := d })
    ⟨rfl, rfl, code_known (setProjection_code hpr)⟩ hx hy hxy
    (by show (1 : Int) ≤ 16 ∧ (16 : Int) ≤ 31; omega)
    (by
      show (32 : Int) < (16 : Int) * h.nx * h.ny
      have : 9 ≤ h.nx * h.ny := Nat.mul_le_mul hx hy
      have : (9 : Int) ≤ (h.nx : Int) * h.ny := by exact_mod_cast this
      rw [Int.mul_assoc]; omega)
    hist entries_sound gAccepted_typed (fun e he => (hl e he).readable.toTimed.stamped) hw g2 g3 hsize e
  obtain ⟨bytes, hb⟩ := hs
  refine ⟨bytes, ?_⟩
  unfold saveGridFile gridDelta
  rw [hc, e1, e2, e3, e4, f1, f2, f3]
  simp only [List.mapM_cons, List.mapM_nil, CfVal.word, x1, x2, x3, x4, y1, y2, y3]
  show (env.f32 (sqrt (((z1 - z2) ^ 2 + (z3 - z4) ^ 2) / 2) * 2) >>= _) = _
  rw [y4]
  exact hb

/-! ## Concrete cases -/

/-- Occurrences of a label are checked one by one. -/
theorem first_at {label s : Text} {n : Nat} (h : ∀ i < n, label.isPrefixOf (s.drop i) = false) {a b : Text} (hab : s = a ++ label ++ b) :
    n ≤ a.length := by
  by_contra hc
  have := h a.length (by omega)
  rw [hab, List.append_assoc, List.drop_left] at this
  rw [← Bool.not_eq_true, List.isPrefixOf_iff_prefix] at this
  exact this ⟨b, rfl⟩

/-- A stereographic projection. -/
def sampleCrs : CrsFacts :=
  ⟨some (txt "stereographic"), [(txt "latitude_of_projection_origin", .num 40), (txt "longitude_of_projection_origin", .num (-201 / 2))],
    [], none, []⟩

/-- Geographic coordinates that are their own projection. -/
def sampleMaps : ProjMaps := ⟨fun x y => (x, y), fun x y => (x, y)⟩

/-- A file made from axes, to which two grids are added, is saved and opened: every hypothesis of C78, C79, C81 and C82 holds. -/
example (e host : Endian) : ∃ h bytes f,
    gridInit sampleEnv.lower (some (sampleCrs, sampleMaps)) true 0 ⟨[3], [-100, -99, -98]⟩ ⟨[3], [30, 31, 32]⟩ = .ok h ∧
    h.nx = 3 ∧ h.ny = 3 ∧ h.corners = [30, -100, 32, -98] ∧ AllOk sampleEnv h.builder [sampleReq 3, sampleReq (-7 / 2)] ∧
    ProjOf sampleEnv.lower sampleCrs (txt "stere") [(txt "lat_0", 40), (txt "lon_0", -201 / 2)] ∧
    saveGridFile sampleEnv id e h (runGrid sampleEnv h.builder [sampleReq 3, sampleReq (-7 / 2)]) = .ok bytes ∧
    openGrid host bytes = .ok f := by
  have hp : ProjOf sampleEnv.lower sampleCrs (txt "stere") [(txt "lat_0", 40), (txt "lon_0", -201 / 2)] :=
    .stereographic 40 (-201 / 2) rfl rfl rfl
  obtain ⟨h, hi⟩ := C80_accepted_partial sampleEnv.lower sampleCrs sampleMaps 0 ⟨[3], [-100, -99, -98]⟩ ⟨[3], [30, 31, 32]⟩ _ _ hp rfl rfl true
    ⟨2, 2, rfl, rfl⟩
  have hh : h.nx = 3 ∧ h.ny = 3 ∧ h.corners = [30, -100, 32, -98] := by
    have : gridInit sampleEnv.lower (some (sampleCrs, sampleMaps)) true 0 ⟨[3], [-100, -99, -98]⟩ ⟨[3], [30, 31, 32]⟩ =
      .ok ⟨3, 3, _, _, _, _, ⟨txt "STR", .num 40, .num (-201 / 2), .num 0⟩, [30, -100, 32, -98]⟩ := rfl
    obtain rfl := Except.ok.inj (this.symm.trans hi)
    exact ⟨rfl, rfl, rfl⟩
  obtain ⟨h1, h2, h3⟩ := hh
  have hc := sample_conditions 3 (-7 / 2) (by norm_num) (by norm_num [abs_of_neg]) h.nav.code [] [] 0
  have hb : newGrid 3 3 h.nav.code [] [] 0 ((16 : ℕ) : Int) = h.builder := by unfold GridHead.builder; rw [h1, h2]; rfl
  rw [hb] at hc
  obtain ⟨c1, c2, c3⟩ := hc
  have c2 : ∀ e ∈ gAccepted sampleEnv h.nx h.ny [sampleReq 3, sampleReq (-7 / 2)], e.Legible ∧ e.Writable sampleEnv := by rw [h1, h2]; exact c2
  have c3 : gfinal (gAccepted sampleEnv h.nx h.ny [sampleReq 3, sampleReq (-7 / 2)]) = [sampleEntry (-7 / 2)] := by rw [h1, h2]; exact c3
  obtain ⟨bytes, hs⟩ := C82_saves_partial sampleEnv sampleEnv_rounds id (fun q => ⟨_, rfl⟩) sampleCrs sampleMaps true 0 _ _ rfl rfl _ _ hp h hi
    (by omega) (by omega) (by rw [h1, h2]; decide) _ c1 (fun e he => (c2 e he).1) (fun e he => (c2 e he).2) (by rw [c3, h1, h2]; decide) e
  obtain ⟨f, _, hf, _⟩ := C78_contents sampleEnv sampleEnv_rounds id sampleCrs sampleMaps true 0 _ _ h hi (by rw [h1]; decide) (by rw [h2]; decide)
    (by rw [h1, h2]; decide) _ c1 (fun e he => (c2 e he).1) e host bytes hs
  exact ⟨h, bytes, f, hi, h1, h2, h3, c1, hp, hs, hf⟩

/-- Text forms with a numeral are described: a gnomonic projection centred at 40.5 north, 100 west. -/
example : ProjOf id ⟨none, [], txt "PARAMETER[\"Latitude of natural origin\",40.5,\"degree\"],PARAMETER[\"Longitude of natural origin\",-100,",
      some (txt "Gnomonic"), []⟩ (txt "gnom") [(txt "lat_0", 81 / 2), (txt "lon_0", -100)] := by
  refine .gnomonic _ _ rfl rfl ⟨txt "PARAMETER[", txt "40.5", txt ",\"degree\"],PARAMETER[\"Longitude of natural origin\",-100,", rfl,
    ⟨false, [4, 0], some [5], by decide, by decide, by decide, by decide, rfl, by norm_num [Nat.ofDigits]⟩, ?_, by decide⟩
    ⟨txt "PARAMETER[\"Latitude of natural origin\",40.5,\"degree\"],PARAMETER[", txt "-100", txt ",", rfl,
    ⟨true, [1, 0, 0], none, by decide, by decide, by decide, by decide, rfl, by norm_num [Nat.ofDigits]⟩, ?_, by decide⟩
  · intro a b hab
    exact first_at (by decide) hab
  · intro a b hab
    exact first_at (by decide) hab

end Gempak
