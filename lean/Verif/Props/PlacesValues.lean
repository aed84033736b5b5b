import Verif.Props.PlacesGrid
import Verif.Props.GridSelect
import Verif.Props.Diff
import Verif.Proof.GribUnpack
import Verif.Proof.Cursor
import Verif.Props.GridNav

/-!
# C124: the values of a grid are those stored at documented places

For any file that opens, whoever wrote it.  Words are counted from one.
-/

namespace Gempak
open Spec

/-! ## Specification -/

/-- A table of `ky` rows of `kx` points, numbered row by row. -/
def Spec.tableOf {α : Type} (ky kx : Nat) (p : Nat → α) : List (List α) := (List.range ky).map fun j => (List.range kx).map fun i => p (j * kx + i)

/-- A value that is not the missing value of the file. -/
def Spec.unlessMissing (miss : ℚ) (v : ℚ) : Option ℚ := if v = miss then none else some v

/-- A plain number; infinite and undefined ones are left out of the model like the missing value of the file. -/
def Spec.plainPoint (miss f : F32) : Option ℚ := if f32Value f = f32Value miss then none else f32Value f

/-- The grid of `ky` rows of `kx` points whose record begins at word `ptr` and has `hdr` header words: the length of what follows, the header,
the kind of packing, and then the data. -/
inductive Spec.GridHolds (e : Endian) (b : Bytes) (miss : F32) (ptr hdr kx ky : Nat) (data : List (List (Option ℚ))) : Prop
  /-- Plain numbers. -/
  | plain (kind : fileWord e b (ptr + 1 + hdr) = 0) (length : fileWord e b ptr = hdr + 1 + ky * kx)
      (inside : 4 * (ptr + 1 + hdr + ky * kx) ≤ b.length)
      (values : data = tableOf ky kx fun k => plainPoint miss (floatWord e b (ptr + 2 + hdr + k)))
  /-- Fields of equal width in one string of bits: number of bits, missing flag, number of points, reference, scale, words. -/
  | grib (m ref scale : ℚ) (kind : fileWord e b (ptr + 1 + hdr) = 1 ∨ fileWord e b (ptr + 1 + hdr) = 4) (hm : f32Value miss = some m)
      (points : intWord e b (ptr + 4 + hdr) = ky * kx) (href : f32Value (floatWord e b (ptr + 5 + hdr)) = some ref)
      (hscale : f32Value (floatWord e b (ptr + 6 + hdr)) = some scale) (inside : 4 * (ptr + fileWord e b ptr) ≤ b.length)
      (values : ∀ bits : Nat, intWord e b (ptr + 2 + hdr) = bits → 1 ≤ bits → bits ≤ 31 →
        let ws := (List.range (fileWord e b ptr - hdr - 6)).map fun k => intWord e b (ptr + 7 + hdr + k)
        ky * kx * bits ≤ 32 * ws.length ∧ data = tableOf ky kx fun k =>
          if intWord e b (ptr + 3 + hdr) ≠ 0 ∧ msbField ws (k * bits) bits = 2 ^ bits - 1 then none
          else unlessMissing m (ref + msbField ws (k * bits) bits * scale))
  /-- Differences: number of bits, missing flag, two numbers not looked at, reference, scale, smallest difference, words. -/
  | diff (m ref scale least : ℚ) (kind : fileWord e b (ptr + 1 + hdr) = 3) (hm : f32Value miss = some m)
      (href : f32Value (floatWord e b (ptr + 6 + hdr)) = some ref) (hscale : f32Value (floatWord e b (ptr + 7 + hdr)) = some scale)
      (hleast : f32Value (floatWord e b (ptr + 8 + hdr)) = some least) (inside : 4 * (ptr + fileWord e b ptr) ≤ b.length)
      (values : ∀ bits : Nat, intWord e b (ptr + 2 + hdr) = bits → bits ≤ 32 →
        let ws := (List.range (fileWord e b ptr - hdr - 8)).map fun k => intWord e b (ptr + 9 + hdr + k)
        let d : DiffMeta := ⟨bits, intWord e b (ptr + 3 + hdr) ≠ 0, ref, scale, least, m⟩
        ky * kx * bits ≤ 32 * ws.length ∧ data = (List.range ky).map fun j => (List.range kx).map fun i =>
          if diffOf d ws (j * kx + i) = none then none else unlessMissing m (diffValue ref (diffRows d ws kx ky) j i))

/-- No record, or one with fewer than two words of data. -/
inductive Spec.GridShort (e : Endian) (b : Bytes) (ptr hdr : Nat) : Prop
  | empty (nothing : ptr = 0)
  | plain (kind : fileWord e b (ptr + 1 + hdr) = 0) (length : fileWord e b ptr ≤ hdr + 2)
  | grib (kind : fileWord e b (ptr + 1 + hdr) = 1 ∨ fileWord e b (ptr + 1 + hdr) = 4) (length : fileWord e b ptr ≤ hdr + 7)
  | diff (kind : fileWord e b (ptr + 1 + hdr) = 3) (length : fileWord e b ptr ≤ hdr + 9)

/-- A grid as returned, stored at part `j` of its column. -/
structure Spec.GridFrom (lower : Text → Text) (f : GridFileR) (b : Bytes) (kx ky : Nat) (g : GridInfo) (p : PartInfo) (j : Nat) (o : GridObj) : Prop where
  name : o.name = variableName lower g.parm
  time : o.time = g.time1
  type : o.type = g.type
  coord : o.coord = lower g.coord
  level : o.level = g.level1
  data : GridHolds f.info.order b f.info.label.missingFloat (partWord f.info b 0 g.number j) p.headerLength.toNat kx ky o.data

/-! ## Words -/

theorem ints_words (e : Endian) (b : Bytes) (n w : Nat) (hw : 1 ≤ w) {m : Nat} (hm : m = 4 * (w - 1)) :
    unpackItems e (List.replicate n Fmt.i32) (b.drop m) = (List.range n).map fun k => Val.int (intWord e b (w + k)) := by
  rw [unpack_words e .i32 rfl (fun x => .int (toI32 (decNat e x))) (fun _ => rfl)]
  apply List.map_congr_left
  intro k _
  rw [List.drop_drop, wordBytes_drop b (w := w) (k := k) (by omega) hw, intWord_eq]

theorem fmtSize_ints (n : Nat) : fmtSize (List.replicate n Fmt.i32) = 4 * n := by
  unfold fmtSize
  rw [List.map_replicate, List.sum_replicate]
  show n * 4 = 4 * n
  omega

theorem ints_stored {e : Endian} {b : Bytes} {n w : Nat} {p : Int} {vs : List Val} (hw : 1 ≤ w) (hp : p = (4 * (w - 1) : Nat))
    (h : unpackFrom e (List.replicate n Fmt.i32) b p = .ok vs) :
    vs = (List.range n).map (fun k => Val.int (intWord e b (w + k))) ∧ 4 * (w - 1) + 4 * n ≤ b.length := by
  subst hp
  obtain ⟨h1, h2⟩ := unpackFrom_inv h
  rw [fmtSize_ints] at h2
  rw [ints_words e b n w hw rfl] at h1
  exact ⟨h1, h2⟩

theorem floats_stored {e : Endian} {b : Bytes} {n w : Nat} {p : Int} {vs : List Val} (hw : 1 ≤ w) (hp : p = (4 * (w - 1) : Nat))
    (h : unpackFrom e (List.replicate n Fmt.f32) b p = .ok vs) :
    vs = (List.range n).map (fun k => Val.flt (floatWord e b (w + k))) ∧ 4 * (w - 1) + 4 * n ≤ b.length := by
  subst hp
  obtain ⟨h1, h2⟩ := unpackFrom_inv h
  rw [fmtSize_floats] at h2
  rw [floats_at e b n w hw rfl] at h1
  exact ⟨h1, h2⟩

theorem reshape_len {α : Type} {ky kx : Nat} {l : List α} {g : List (List α)} (h : reshape ky kx l = .ok g) : l.length = ky * kx := by
  unfold reshape at h
  split at h
  · assumption
  · cases h

theorem reshape_table {α β : Type} (ky kx : Nat) (p : Nat → α) (c : α → β) {g : List (List α)} {n : Nat}
    (h : reshape ky kx ((List.range n).map p) = .ok g) : n = ky * kx ∧ g.map (List.map c) = tableOf ky kx fun k => c (p k) := by
  unfold reshape at h
  rw [List.length_map, List.length_range] at h
  split at h
  · rename_i hn
    refine ⟨hn, ?_⟩
    obtain rfl := Except.ok.inj h
    unfold tableOf
    rw [List.map_map]
    refine List.map_congr_left fun j hj => ?_
    rw [List.mem_range] at hj
    show List.map c _ = _
    have hle : j * kx + kx ≤ ky * kx := by
      have := Nat.mul_le_mul_right kx hj
      rw [Nat.succ_mul] at this
      exact this
    apply List.ext_getElem?
    intro i
    rw [List.getElem?_map, range_get]
    by_cases hi : i < kx
    · rw [if_pos hi, List.getElem?_take_of_lt hi, List.getElem?_drop, range_get, if_pos (by omega)]
      rfl
    · rw [if_neg hi, List.getElem?_take_eq_none (by omega)]
      rfl
  · cases h

theorem msbNumber_horner (w : List Int) : Grib.Spec.horner 32 (w.map toU32) = msbNumber w := by
  unfold Grib.Spec.horner msbNumber
  rw [List.foldl_map]

theorem field_msb {n : Nat} {w : List Int} {k : Nat} (h : n * k + n ≤ 32 * w.length) : Grib.Spec.field n w k = msbField w (k * n) n := by
  rw [Grib.field_eq n w k h, msbNumber_horner]
  unfold msbField
  rw [Nat.mul_comm k n, Nat.sub_sub]

theorem mapM_len {α β : Type} {f : α → Except PyErr β} {l : List α} {out : List β} (h : l.mapM f = .ok out) : out.length = l.length := by
  induction l generalizing out with
  | nil => obtain rfl := Except.ok.inj h; rfl
  | cons a l ih =>
    rw [List.mapM_cons] at h
    obtain ⟨x, _, h⟩ := bind_inv h
    obtain ⟨xs, h2, h⟩ := bind_inv h
    obtain rfl := Except.ok.inj h
    rw [List.length_cons, List.length_cons, ih h2]

/-- Few words were asked for. -/
theorem words_short {i : DMInfo} {b : Bytes} {pos n : Int} {vs : List Val} {ws : List Int} (h : readWords i b pos n .i32 = .ok vs)
    (hi : vs.mapM intOf = .ok ws) (hl : ws.length ≤ 1) : n ≤ 1 := by
  unfold readWords at h
  split at h
  · cases h
  have h1 := mapM_len hi
  have h2 : ∀ d : Bytes, (unpackItems i.order (List.replicate n.toNat Fmt.i32) d).length = n.toNat := by
    intro d
    rw [unpack_words i.order .i32 rfl (fun x => .int (toI32 (decNat i.order x))) (fun _ => rfl), List.length_map, List.length_range]
  unfold unpackFrom at h
  dsimp only at h
  generalize (if pos < 0 then pos + (b.length : Int) else pos) = off at h
  by_cases c1 : off < 0
  · rw [if_pos c1] at h; cases h
  · rw [if_neg c1] at h
    by_cases c2 : off.toNat + fmtSize (List.replicate n.toNat Fmt.i32) ≤ b.length
    · rw [if_pos c2] at h
      have h3 := h2 (b.drop off.toNat)
      rw [Except.ok.inj h] at h3
      omega
    · rw [if_neg c2] at h; cases h

/-! ## Branches -/

section
variable {i : DMInfo} {b : Bytes} {ptr hdr : Nat} {len pos kx ky : Int}

theorem plain_read (hlen : len = fileWord i.order b ptr) (hpos : pos = (4 * (ptr + 1 + hdr) : Nat)) (hk : fileWord i.order b (ptr + 1 + hdr) = 0)
    {data : List (List (Option ℚ))} (h : readRawGrid i b pos len hdr kx ky = .ok (some data)) :
    GridHolds i.order b i.label.missingFloat ptr hdr kx.toNat ky.toNat data := by
  unfold readRawGrid at h
  split at h
  on_goal 2 => cases h
  obtain ⟨vs, h1, h⟩ := bind_inv h
  obtain ⟨g, h2, h3⟩ := bind_inv h
  unfold readWords at h1
  rw [if_neg (by omega)] at h1
  obtain ⟨rfl, a2⟩ := floats_stored (w := ptr + 2 + hdr) (by omega) (by rw [hpos]; omega) h1
  rw [List.map_map] at h2
  obtain ⟨c1, c2⟩ := reshape_table ky.toNat kx.toNat _ (fun v : Option ℚ => if v = f32Value i.label.missingFloat then none else v) h2
  obtain rfl := Option.some.inj (Except.ok.inj h3)
  refine .plain hk (by omega) (by omega) ?_
  rw [c2]
  rfl

theorem fieldValue_some {f : F32} {q : ℚ} (h : fieldValue f = .ok q) : f32Value f = some q := by
  unfold fieldValue at h
  split at h
  · rename_i h1
    rw [h1, Except.ok.inj h]
  · cases h

theorem intWord_range (e : Endian) (b : Bytes) (n : Nat) : inI32 (intWord e b n) := by
  rw [← intWord_eq]
  refine inI32_toI32 (lt_of_lt_of_le (decNat_lt _ _) ?_)
  have : (wordBytes b n).length ≤ 4 := by unfold wordBytes; exact List.length_take_le _ _
  exact Nat.pow_le_pow_right (by decide) this

theorem dequant_point (bits v : Nat) (rv sv mv : ℚ) (flag : Int) :
    (if some (Grib.dequantOne bits rv sv (if flag ≠ 0 then some mv else none) v) = some mv then none
      else some (Grib.dequantOne bits rv sv (if flag ≠ 0 then some mv else none) v)) =
    (if flag ≠ 0 ∧ v = 2 ^ bits - 1 then none else unlessMissing mv (rv + (v : ℚ) * sv)) := by
  unfold Grib.dequantOne unlessMissing
  rw [show Grib.imaxOf bits = 2 ^ bits - 1 from rfl]
  by_cases hf : flag = 0
  · simp [hf]
  · by_cases hv : v = 2 ^ bits - 1
    · simp [hf, hv]
    · simp [hf, hv]

theorem grib_read (hlen : len = fileWord i.order b ptr) (hpos : pos = (4 * (ptr + 1 + hdr) : Nat))
    (hk : fileWord i.order b (ptr + 1 + hdr) = 1 ∨ fileWord i.order b (ptr + 1 + hdr) = 4)
    {data : List (List (Option ℚ))} (h : readGribGrid i b pos len hdr kx ky = .ok (some data)) :
    GridHolds i.order b i.label.missingFloat ptr hdr kx.toNat ky.toNat data := by
  unfold readGribGrid at h
  obtain ⟨v1, h1, h⟩ := bind_inv h
  obtain ⟨v2, h2, h⟩ := bind_inv h
  obtain ⟨rfl, a1⟩ := ints_stored (n := 3) (w := ptr + 2 + hdr) (by omega) (by rw [hpos]; omega) h1
  obtain ⟨rfl, a2⟩ := floats_stored (n := 2) (w := ptr + 5 + hdr) (by omega) (by rw [hpos]; omega) h2
  change (if intWord i.order b (ptr + 2 + hdr + 2) < 0 then Except.error PyErr.valueError else _) = _ at h
  by_cases hq : intWord i.order b (ptr + 2 + hdr + 2) < 0
  · rw [if_pos hq] at h; cases h
  rw [if_neg hq] at h
  obtain ⟨vs, h3, h⟩ := bind_inv h
  unfold readWords at h3
  split at h3
  on_goal 1 => cases h3
  rename_i hn
  obtain ⟨n, hn'⟩ : ∃ n : Nat, (len - hdr - 6).toNat = n := ⟨_, rfl⟩
  rw [hn'] at h3
  obtain ⟨rfl, a3⟩ := ints_stored (w := ptr + 7 + hdr) (by omega) (by rw [hpos]; omega) h3
  rw [show ((List.range n).map fun k => Val.int (intWord i.order b (ptr + 7 + hdr + k))) =
    ((List.range n).map fun k => intWord i.order b (ptr + 7 + hdr + k)).map Val.int by rw [List.map_map]; rfl, mapM_ints, ok_bind] at h
  obtain ⟨rv, r1, h⟩ := bind_inv h
  obtain ⟨sv, r2, h⟩ := bind_inv h
  obtain ⟨mv, r3, h⟩ := bind_inv h
  obtain ⟨o, r4, h⟩ := bind_inv h
  split at h
  on_goal 1 => cases h
  rename_i l
  obtain ⟨g, r5, h⟩ := bind_inv h
  obtain rfl := Option.some.inj (Except.ok.inj h)
  unfold Grib.readGrib at r4
  split at r4
  on_goal 2 => cases r4
  rename_i hw
  unfold Grib.unpackGrib at r4
  split at r4
  on_goal 1 => cases r4
  rename_i r hr
  obtain rfl := Option.some.inj (Except.ok.inj r4)
  have hrl : r.length = (intWord i.order b (ptr + 2 + hdr + 2)).toNat := by
    unfold Grib.unpackWords at hr
    split at hr
    on_goal 1 => cases hr
    have := mapM_len hr
    rw [this, List.length_range]
  have hpts : r.length = ky.toNat * kx.toNat := by
    have := reshape_len r5
    rwa [List.length_map] at this
  rw [show ptr + 5 + hdr + 1 = ptr + 6 + hdr by omega] at r2
  refine .grib mv rv sv hk (fieldValue_some r3) ?_ (fieldValue_some r1) (fieldValue_some r2) (by omega) ?_
  · rw [show ptr + 4 + hdr = ptr + 2 + hdr + 2 by omega]
    omega
  · intro bits hb hb1 hb2
    dsimp only
    have hnn : fileWord i.order b ptr - hdr - 6 = n := by omega
    rw [hnn]
    rw [Nat.add_zero, hb, Int.toNat_natCast, Grib.unpackWords_eq bits hb1 hb2] at hr
    split at hr
    on_goal 2 => cases hr
    rename_i hfit
    rw [← hrl, hpts] at hfit
    refine ⟨by rw [Nat.mul_comm]; exact hfit.2, ?_⟩
    obtain rfl := Except.ok.inj hr
    rw [← hrl, hpts] at r5
    rw [List.map_map] at r5
    obtain ⟨_, c2⟩ := reshape_table ky.toNat kx.toNat _ (fun v : ℚ => if some v = some mv then none else some v) r5
    unfold maskMissing
    rw [c2]
    unfold tableOf
    refine List.map_congr_left fun j hj => List.map_congr_left fun c hc => ?_
    rw [List.mem_range] at hj hc
    have hkk : j * kx.toNat + c < ky.toNat * kx.toNat := by
      have := Nat.mul_le_mul_right kx.toNat hj
      rw [Nat.succ_mul] at this
      omega
    have hin : bits * (j * kx.toNat + c) + bits ≤ bits * (ky.toNat * kx.toNat) := by
      have := Nat.mul_le_mul_left bits hkk
      rwa [Nat.mul_succ] at this
    have hfm : Grib.Spec.field bits ((List.range n).map fun k => intWord i.order b (ptr + 7 + hdr + k)) (j * kx.toNat + c) = _ :=
      field_msb (le_trans hin hfit.2)
    show (if some (Grib.dequantOne _ _ _ _ (Grib.Spec.field bits _ _)) = some mv then none
      else some (Grib.dequantOne _ _ _ _ (Grib.Spec.field bits _ _))) = (if _ ∧ msbField _ _ _ = _ then none else unlessMissing mv (_ + ((msbField _ _ _ : Nat) : ℚ) * _))
    rw [hfm, show ptr + 2 + hdr + 0 = ptr + 2 + hdr from rfl, hb, Int.toNat_natCast, show ptr + 3 + hdr = ptr + 2 + hdr + 1 by omega]
    exact dequant_point _ _ _ _ _ _

theorem diff_read (hlen : len = fileWord i.order b ptr) (hpos : pos = (4 * (ptr + 1 + hdr) : Nat))
    (hk : fileWord i.order b (ptr + 1 + hdr) = 3)
    {data : List (List (Option ℚ))} (h : readDiffGrid i b pos len hdr kx ky = .ok (some data)) :
    GridHolds i.order b i.label.missingFloat ptr hdr kx.toNat ky.toNat data := by
  unfold readDiffGrid at h
  obtain ⟨v1, h1, h⟩ := bind_inv h
  obtain ⟨v2, h2, h⟩ := bind_inv h
  obtain ⟨rfl, a1⟩ := ints_stored (n := 4) (w := ptr + 2 + hdr) (by omega) (by rw [hpos]; omega) h1
  obtain ⟨rfl, a2⟩ := floats_stored (n := 3) (w := ptr + 6 + hdr) (by omega) (by rw [hpos]; omega) h2
  dsimp only [List.range, List.range.loop, List.map_cons, List.map_nil] at h
  obtain ⟨vs, h3, h⟩ := bind_inv h
  unfold readWords at h3
  split at h3
  on_goal 1 => cases h3
  rename_i hn
  obtain ⟨n, hn'⟩ : ∃ n : Nat, (len - hdr - 8).toNat = n := ⟨_, rfl⟩
  rw [hn'] at h3
  obtain ⟨rfl, a3⟩ := ints_stored (w := ptr + 9 + hdr) (by omega) (by rw [hpos]; omega) h3
  obtain ⟨ws, hws⟩ : ∃ ws, ws = (List.range n).map fun k => intWord i.order b (ptr + 9 + hdr + k) := ⟨_, rfl⟩
  rw [show ((List.range n).map fun k => Val.int (intWord i.order b (ptr + 9 + hdr + k))) = ws.map Val.int by
    rw [hws, List.map_map]; rfl, mapM_ints, ok_bind] at h
  have hwi : ∀ w ∈ ws, inI32 w := by
    intro w hw
    rw [hws] at hw
    obtain ⟨k, _, rfl⟩ := List.mem_map.1 hw
    exact intWord_range _ _ _
  obtain ⟨rv, r1, h⟩ := bind_inv h
  obtain ⟨sv, r2, h⟩ := bind_inv h
  obtain ⟨dv, r6, h⟩ := bind_inv h
  obtain ⟨mv, r3, h⟩ := bind_inv h
  obtain ⟨o, r4, h⟩ := bind_inv h
  split at h
  on_goal 1 => cases h
  rename_i g
  obtain rfl := Option.some.inj (Except.ok.inj h)
  have hw : 1 < ws.length := by
    unfold unpackDiff at r4
    split at r4
    · assumption
    · cases r4
  rw [show ptr + 6 + hdr + 1 = ptr + 7 + hdr by omega] at r2
  rw [show ptr + 6 + hdr + 2 = ptr + 8 + hdr by omega] at r6
  refine .diff mv rv sv dv hk (fieldValue_some r3) (fieldValue_some r1) (fieldValue_some r2) (fieldValue_some r6) (by omega) ?_
  intro bits hb hb2
  dsimp only
  have hnn : fileWord i.order b ptr - hdr - 8 = n := by omega
  rw [hnn, ← hws]
  rw [Nat.add_zero, hb, Int.toNat_natCast] at r4
  by_cases hfit : ky.toNat * kx.toNat * bits ≤ 32 * ws.length
  · refine ⟨hfit, ?_⟩
    rw [C32_values _ ws _ _ hwi (by dsimp only; omega) hw (by dsimp only; exact hfit)] at r4
    obtain rfl := Option.some.inj (Except.ok.inj r4)
    rw [show ptr + 3 + hdr = ptr + 2 + hdr + 1 by omega]
    unfold maskMissing diffGrid
    rw [List.map_map]
    refine List.map_congr_left fun j _ => ?_
    rw [Function.comp, List.map_map]
    refine List.map_congr_left fun c _ => ?_
    show (if some (if diffOf _ ws _ = none then mv else _) = some mv then none else _) = _
    unfold unlessMissing
    by_cases hd : diffOf ⟨bits, intWord i.order b (ptr + 2 + hdr + 1) ≠ 0, rv, sv, dv, mv⟩ ws (j * kx.toNat + c) = none
    · rw [if_pos hd, if_pos rfl, if_pos hd]
    · rw [if_neg hd, if_neg hd]
      simp only [Option.some.injEq]
      rw [if_neg hd]
  · rw [C32_short _ ws _ _ hwi (by dsimp only; omega) hw (by dsimp only; omega)] at r4
    cases r4

/-! ## The record -/

theorem unpackFrom_beyond {e : Endian} {fs : List Fmt} {b : Bytes} {p : Int} {vs : List Val} (hp : b.length ≤ p) (hf : 0 < fmtSize fs) :
    unpackFrom e fs b p ≠ .ok vs := by
  intro h
  obtain ⟨n, rfl⟩ : ∃ n : Nat, p = n := ⟨p.toNat, by omega⟩
  obtain ⟨_, h2⟩ := unpackFrom_inv h
  omega

theorem unpackGrid_stored (hlen : len = fileWord i.order b ptr) (hpos : pos = (4 * (ptr + 1 + hdr) : Nat) ∨ b.length ≤ pos)
    {data : List (List (Option ℚ))}
    (h : unpackGrid i b (fileWord i.order b (ptr + 1 + hdr) : Nat) pos len hdr kx ky = .ok (some data)) :
    GridHolds i.order b i.label.missingFloat ptr hdr kx.toNat ky.toNat data := by
  unfold unpackGrid at h
  split at h
  · rename_i hk
    rcases hpos with hpos | hpos
    · exact plain_read hlen hpos (by omega) h
    · exfalso
      unfold readRawGrid at h
      split at h
      on_goal 2 => cases h
      obtain ⟨vs, h1, h⟩ := bind_inv h
      unfold readWords at h1
      rw [if_neg (by omega)] at h1
      exact unpackFrom_beyond hpos (by rw [fmtSize_floats]; omega) h1
  split at h
  · rename_i hk
    rcases hpos with hpos | hpos
    · exact grib_read hlen hpos (by omega) h
    · exfalso
      unfold readGribGrid at h
      obtain ⟨vs, h1, h⟩ := bind_inv h
      exact unpackFrom_beyond hpos (by decide) h1
  split at h
  · rename_i hk
    rcases hpos with hpos | hpos
    · exact diff_read hlen hpos (by omega) h
    · exfalso
      unfold readDiffGrid at h
      obtain ⟨vs, h1, h⟩ := bind_inv h
      exact unpackFrom_beyond hpos (by decide) h1
  split at h <;> cases h

theorem unpackGrid_short (hlen : len = fileWord i.order b ptr)
    (h : unpackGrid i b (fileWord i.order b (ptr + 1 + hdr) : Nat) pos len hdr kx ky = .ok none) : GridShort i.order b ptr hdr := by
  unfold unpackGrid at h
  split at h
  · rename_i hk
    refine .plain (by omega) ?_
    unfold readRawGrid at h
    split at h
    · obtain ⟨_, _, h⟩ := bind_inv h
      obtain ⟨_, _, h⟩ := bind_inv h
      cases h
    · omega
  split at h
  · rename_i hk
    refine .grib (by omega) ?_
    unfold readGribGrid at h
    obtain ⟨_, _, h⟩ := bind_inv h
    obtain ⟨_, _, h⟩ := bind_inv h
    split at h
    on_goal 2 => cases h
    split at h
    on_goal 1 => cases h
    obtain ⟨vs, h3, h⟩ := bind_inv h
    obtain ⟨ws, h4, h⟩ := bind_inv h
    obtain ⟨_, _, h⟩ := bind_inv h
    obtain ⟨_, _, h⟩ := bind_inv h
    obtain ⟨_, _, h⟩ := bind_inv h
    obtain ⟨o, h5, h⟩ := bind_inv h
    split at h
    on_goal 2 =>
      obtain ⟨_, _, h⟩ := bind_inv h
      cases h
    have := words_short h3 h4 (by
      unfold Grib.readGrib at h5
      split at h5
      · cases hx : Grib.unpackGrib _ _ _ _ _ _ with
        | error e => rw [hx] at h5; cases h5
        | ok x => rw [hx] at h5; cases h5
      · omega)
    omega
  split at h
  · rename_i hk
    refine .diff (by omega) ?_
    unfold readDiffGrid at h
    obtain ⟨_, _, h⟩ := bind_inv h
    obtain ⟨_, _, h⟩ := bind_inv h
    split at h
    on_goal 2 => cases h
    obtain ⟨vs, h3, h⟩ := bind_inv h
    obtain ⟨ws, h4, h⟩ := bind_inv h
    obtain ⟨_, _, h⟩ := bind_inv h
    obtain ⟨_, _, h⟩ := bind_inv h
    obtain ⟨_, _, h⟩ := bind_inv h
    obtain ⟨_, _, h⟩ := bind_inv h
    obtain ⟨o, h5, h⟩ := bind_inv h
    split at h
    on_goal 2 => cases h
    have := words_short h3 h4 (by
      unfold unpackDiff at h5
      split at h5
      · cases hx : diffLines _ _ _ _ _ with
        | error e => rw [hx] at h5; cases h5
        | ok x => rw [hx] at h5; cases h5
      · omega)
    omega
  split at h <;> cases h

end

/-- Where the parts of a record are looked for. -/
theorem gridData_at (i : DMInfo) (b : Bytes) (hi : Addressable i) (part : PartInfo) (hpart : part ∈ i.parts) (col j : Nat) (kx ky : Int)
    (h1 : 1 ≤ partWord i b 0 col j) :
    ∃ pos : Int, (pos = (4 * (partWord i b 0 col j + 1 + part.headerLength.toNat) : Nat) ∨ (b.length : Int) ≤ pos) ∧
      gridData i b part col j kx ky = unpackGrid i b (fileWord i.order b (partWord i b 0 col j + 1 + part.headerLength.toNat) : Nat) pos
        (fileWord i.order b (partWord i b 0 col j) : Nat) part.headerLength.toNat kx ky := by
  obtain ⟨hdr, hh⟩ : ∃ hdr : Nat, part.headerLength = hdr := ⟨part.headerLength.toNat, by have := hi.headers part hpart; omega⟩
  unfold gridData
  rw [show dataPointer i b 0 col j = (partWord i b 0 col j : Nat) from dataPointer_file i b 0 col j hi.table hi.columns hi.parts, hh,
    Int.toNat_natCast]
  generalize partWord i b 0 col j = ptr at h1 ⊢
  dsimp only
  rw [readWord_file i.order b h1]
  have e1 : wordToPosition (ptr : Int) = ((4 * (ptr - 1) : Nat) : Int) := by unfold wordToPosition; omega
  have e2 : wordToPosition ((hdr : Int) + 1) = ((4 * hdr : Nat) : Int) := by unfold wordToPosition; omega
  rw [e1, e2]
  have sl : ∀ p : Nat, (pySlice b (p : Int) ((p : Int) + 4)).length = min 4 (b.length - p) := by
    intro p
    rw [show (p : Int) + 4 = ((p + 4 : Nat) : Int) by omega, pySlice_nat _ _ _ (by omega), List.length_take, List.length_drop]
    omega
  rw [sl]
  by_cases hfull : 4 * (ptr - 1) + 4 ≤ b.length
  · have eq : ((4 * (ptr - 1) : Nat) : Int) + ((min 4 (b.length - 4 * (ptr - 1)) : Nat) : Int) + ((4 * hdr : Nat) : Int) =
        ((4 * (ptr + 1 + hdr - 1) : Nat) : Int) := by omega
    rw [eq, readWord_pos i.order b (w := ptr + 1 + hdr) (by omega) rfl, sl]
    refine ⟨_, ?_, rfl⟩
    omega
  · obtain ⟨q, hq, hqb⟩ : ∃ q : Nat, ((4 * (ptr - 1) : Nat) : Int) + ((min 4 (b.length - 4 * (ptr - 1)) : Nat) : Int) + ((4 * hdr : Nat) : Int) = (q : Nat) ∧
        b.length ≤ q := ⟨4 * (ptr - 1) + min 4 (b.length - 4 * (ptr - 1)) + 4 * hdr, by omega, by omega⟩
    have z : ∀ w, b.length ≤ 4 * (w - 1) → fileWord i.order b w = 0 := by
      intro w hw
      rw [fileWord_eq, List.drop_eq_nil_of_le hw]
      cases i.order <;> rfl
    have zq : readWord i.order b (q : Int) = 0 := by
      unfold readWord intFromBytes
      rw [show (q : Int) + 4 = ((q + 4 : Nat) : Int) by omega, pySlice_nat _ _ _ (by omega), List.drop_eq_nil_of_le hqb, List.take_nil]
      cases i.order <;> rfl
    rw [hq, zq, z (ptr + 1 + hdr) (by omega), sl]
    exact ⟨_, .inr (by omega), rfl⟩

theorem slice_before (b : Bytes) : pySlice b (wordToPosition ((0 : Nat) : Int)) (wordToPosition ((0 : Nat) : Int) + 4) = [] := by
  show pySlice b (-4) 0 = []
  unfold pySlice
  dsimp only
  rw [if_neg (by decide : ¬ (0 : Int) < 0), if_pos (by decide : (-4 : Int) < 0)]
  apply List.take_eq_nil_iff.2
  left
  omega

theorem fileWord_zero_record {i : DMInfo} {b : Bytes} {part : PartInfo} {col j : Nat} {kx ky : Int} {data : List (List (Option ℚ))}
    (hi : Addressable i) (hpart : part ∈ i.parts) (h0 : partWord i b 0 col j = 0) : gridData i b part col j kx ky ≠ .ok (some data) := by
  obtain ⟨hdr, hh⟩ : ∃ hdr : Nat, part.headerLength = hdr := ⟨part.headerLength.toNat, by have := hi.headers part hpart; omega⟩
  unfold gridData
  rw [show dataPointer i b 0 col j = (partWord i b 0 col j : Nat) from dataPointer_file i b 0 col j hi.table hi.columns hi.parts, hh, h0]
  have hl : readWord i.order b (wordToPosition ((0 : Nat) : Int)) = 0 := by
    unfold readWord intFromBytes
    rw [slice_before]
    cases i.order <;> rfl
  dsimp only
  rw [hl]
  intro h
  unfold unpackGrid at h
  split at h
  · unfold readRawGrid at h
    rw [if_neg (by omega)] at h
    cases h
  split at h
  · unfold readGribGrid at h
    obtain ⟨_, _, h⟩ := bind_inv h
    obtain ⟨_, _, h⟩ := bind_inv h
    split at h
    on_goal 2 => cases h
    split at h
    on_goal 1 => cases h
    obtain ⟨vs, h3, h⟩ := bind_inv h
    unfold readWords at h3
    rw [if_pos (by omega)] at h3
    cases h3
  split at h
  · unfold readDiffGrid at h
    obtain ⟨_, _, h⟩ := bind_inv h
    obtain ⟨_, _, h⟩ := bind_inv h
    split at h
    on_goal 2 => cases h
    obtain ⟨vs, h3, h⟩ := bind_inv h
    unfold readWords at h3
    rw [if_pos (by omega)] at h3
    cases h3
  split at h <;> cases h

/-! ## The file -/

/-- What became of a grid. -/
inductive Spec.GridSeen (lower : Text → Text) (f : GridFileR) (b : Bytes) (kx ky : Nat) (x : GridInfo × PartInfo × Nat) : Option GridObj → Prop
  | returned (o : GridObj) (stored : 1 ≤ partWord f.info b 0 x.1.number x.2.2) (h : GridFrom lower f b kx ky x.1 x.2.1 x.2.2 o) : GridSeen lower f b kx ky x (some o)
  | left (h : GridShort f.info.order b (partWord f.info b 0 x.1.number x.2.2) x.2.1.headerLength.toNat) : GridSeen lower f b kx ky x none

theorem columnGrids_seen {lower : Text → Text} {f : GridFileR} (hi : Addressable f.info) {s : Int × Int} (hs : f.size = some s) (g : GridInfo)
    (ps : List PartInfo) (hps : ∀ p ∈ ps, p ∈ f.info.parts) (j : Nat) {out : List GridObj} (h : columnGrids lower f g ps j = .ok out) :
    ∃ os, out = os.filterMap id ∧
      List.Forall₂ (GridSeen lower f f.bytes s.1.toNat s.2.toNat) ((ps.zipIdx j).map fun x => (g, x)) os := by
  induction ps generalizing j out with
  | nil =>
    obtain rfl := Except.ok.inj h
    exact ⟨[], rfl, .nil⟩
  | cons p r ih =>
    unfold columnGrids at h
    rw [hs] at h
    dsimp only at h
    obtain ⟨d, h1, h⟩ := bind_inv h
    obtain ⟨t, h2, h⟩ := bind_inv h
    obtain ⟨os, rfl, hos⟩ := ih (fun q hq => hps q (List.mem_cons_of_mem _ hq)) (j + 1) h2
    have hp := hps p List.mem_cons_self
    have key : ∀ (ptr : Nat), ptr = partWord f.info f.bytes 0 g.number j → 1 ≤ ptr ∨ ptr = 0 := by omega
    cases d with
    | none =>
      obtain rfl := Except.ok.inj h
      refine ⟨none :: os, rfl, .cons (.left ?_) hos⟩
      rcases key _ rfl with hk | hk
      · obtain ⟨pos, _, e⟩ := gridData_at f.info f.bytes hi p hp g.number j s.1 s.2 hk
        rw [e] at h1
        exact unpackGrid_short rfl h1
      · exact .empty hk
    | some x =>
      obtain rfl := Except.ok.inj h
      refine ⟨some _ :: os, rfl, .cons ?_ hos⟩
      rcases key _ rfl with hk | hk
      · obtain ⟨pos, hpos, e⟩ := gridData_at f.info f.bytes hi p hp g.number j s.1 s.2 hk
        rw [e] at h1
        exact .returned _ hk ⟨varName_spec lower _, rfl, rfl, rfl, rfl, unpackGrid_stored rfl hpos h1⟩
      · exact absurd h1 (fileWord_zero_record hi hp hk)

theorem mapM_seen {lower : Text → Text} {f : GridFileR} (hi : Addressable f.info) {s : Int × Int} (hs : f.size = some s) (gs : List GridInfo)
    {r : List (List GridObj)} (h : (gs.mapM fun g => columnGrids lower f g f.info.parts 0) = .ok r) :
    ∃ os, r.flatten = os.filterMap id ∧
      List.Forall₂ (GridSeen lower f f.bytes s.1.toNat s.2.toNat) (gs.flatMap fun g => f.info.parts.zipIdx.map fun x => (g, x)) os := by
  induction gs generalizing r with
  | nil =>
    obtain rfl := Except.ok.inj h
    exact ⟨[], rfl, .nil⟩
  | cons g gs ih =>
    rw [List.mapM_cons] at h
    obtain ⟨a, h1, h⟩ := bind_inv h
    obtain ⟨t, h2, h⟩ := bind_inv h
    obtain rfl := Except.ok.inj h
    obtain ⟨o1, e1, f1⟩ := columnGrids_seen hi hs g f.info.parts (fun _ hp => hp) 0 h1
    obtain ⟨o2, e2, f2⟩ := ih h2
    refine ⟨o1 ++ o2, ?_, ?_⟩
    · rw [List.flatten_cons, List.filterMap_append, e1, e2]
    · rw [List.flatMap_cons]
      exact List.rel_append f1 f2

theorem readParts_size {e : Endian} {b : Bytes} {ptr : Int} {total k : Nat} {ps : List PartInfo} (h : readParts e b ptr total k = .ok ps) :
    ps.length = k := by
  induction k generalizing ps with
  | zero => obtain rfl := Except.ok.inj h; rfl
  | succ k ih =>
    simp only [readParts] at h
    obtain ⟨p, h1, h2⟩ := bind_inv h
    obtain ⟨q, h5, h6⟩ := bind_inv h2
    have := ih h5
    obtain rfl := Except.ok.inj h6
    simp [this]

/-- **C124**: whoever wrote a file, what `gdxarray()` returns are the listed grids in their order, part by part, each with the values stored in
its record; left out are those without a record and those with fewer than two words of data. -/
theorem C124_values (host : Endian) (b : Bytes) (f : GridFileR) (upper lower : Text → Text) (out : List GridObj) (ho : openGrid host b = .ok f)
    (hi : Addressable f.info) (h : gdxarray upper lower {} f = .ok out) :
    ∃ s os, f.size = some s ∧ out = os.filterMap id ∧
      List.Forall₂ (GridSeen lower f b s.1.toNat s.2.toNat) (f.grids.flatMap fun g => f.info.parts.zipIdx.map fun x => (g, x)) os := by
  have hb : f.bytes = b := openGrid_bytes ho
  unfold gdxarray at h
  obtain ⟨m, h1, h⟩ := bind_inv h
  obtain ⟨r, h2, h⟩ := bind_inv h
  obtain rfl := Except.ok.inj h
  rw [selectGrids_all] at h1
  split at h1
  · cases h1
  obtain rfl := Except.ok.inj h1
  rename_i hne
  cases hs : f.size with
  | some s =>
    obtain ⟨os, e, ha⟩ := mapM_seen hi hs f.grids h2
    rw [hb] at ha
    exact ⟨s, os, rfl, e, ha⟩
  | none =>
    exfalso
    cases hp : f.info.parts with
    | nil =>
      obtain ⟨_, _, _, _, _, _, _, k8, k9, _⟩ := readDM_inv (openGrid_blocks ho).1
      have := readParts_size k9
      rw [hp] at this
      simp only [List.length_nil] at this
      omega
    | cons p ps =>
      cases hg : f.grids with
      | nil => exact hne (by rw [hg]; decide)
      | cons g gs =>
        rw [hg, List.mapM_cons] at h2
        obtain ⟨a, h3, _⟩ := bind_inv h2
        rw [hp] at h3
        unfold columnGrids at h3
        rw [hs] at h3
        cases h3

/-- A file of three grids of two by two points: plain numbers, fields of eight bits, and differences of eight bits. -/
def valuesSample : Bytes :=
  wordsOf ["GEMPAK DATA MANAGEMENT FILE "] ++
  intsOf [1, 2, 32, 1, 1, 424, 435, 3, 10, 425, 437, 1, 470, 478, 32, 510, 3, 2, 0, -9999, 0, 0, 0, -971228160] ++
  wordsOf ["NAVB", "ANLB"] ++ intsOf [256, 128, 1, 1] ++
  intsOf [256, 0] ++ wordsOf ["CED "] ++ intsOf [0, 0, 1073741824, 1073741824] ++ intsOf (List.replicate 250 0) ++
  intsOf [128] ++ intsOf (List.replicate 128 0) ++
  wordsOf ["GRID"] ++ wordsOf ["GDT1", "GTM1", "GDT2", "GTM2", "GLV1", "GLV2", "GVCD", "GPM1", "GPM2", "GPM3"] ++
  intsOf [9999, 1] ++
  intsOf [9999, 241116, 100600, 0, 0, 500, -1, 1] ++ wordsOf ["TMPK", "    ", "    "] ++
  intsOf [9999, 241116, 100600, 0, 0, 700, -1, 1] ++ wordsOf ["HGHT", "    ", "    "] ++
  intsOf [9999, 241116, 100600, 0, 0, 850, -1, 1] ++ wordsOf ["THTA", "    ", "    "] ++
  wordsOf ["GRID"] ++ intsOf [2, 5, 1] ++ wordsOf ["GRID"] ++ intsOf [0, 0, 0] ++ intsOf (List.replicate 32 0) ++ intsOf [513, 521, 532] ++
  intsOf [7, 0, 0, 0, 1065353216, 1073741824, -971228160, -1077936128] ++
  intsOf [10, 0, 0, 1, 8, 1, 4, 1065353216, 1073741824, 16973572, 0] ++
  intsOf [12, 0, 0, 3, 8, 1, 2, 2, 1092616192, 1065353216, 0, 16973571, 0]

/-- It meets the hypotheses of `C124_values`, and shows the three kinds of records. -/
example : ∃ f, openGrid .little valuesSample = .ok f ∧ Addressable f.info ∧ f.size = some (2, 2) ∧
    (gdxarray id id {} f).toOption.map (fun l => l.map fun o => (o.name, o.data)) =
      some [(txt "TMPK", [[some 1, some 2], [none, some (-3 / 2)]]), (txt "z", [[some 3, some 5], [none, some 9]]),
        (txt "theta", [[some 10, some 12], [none, some 13]])] := by
  have h0 : (openGrid .little valuesSample).toOption.isSome = true := by decide +kernel
  have h1 : (openGrid .little valuesSample).toOption.all (fun f => decide (1 ≤ f.info.label.dataBlockPtr ∧ 0 ≤ f.info.label.columns ∧
      0 ≤ f.info.label.parts ∧ (∀ p ∈ f.info.parts, 0 ≤ p.headerLength) ∧ f.size = some (2, 2) ∧
      (gdxarray id id {} f).toOption.map (fun l => l.map fun o => (o.name, o.data)) =
      some [(txt "TMPK", [[some 1, some 2], [none, some (-3 / 2)]]), (txt "z", [[some 3, some 5], [none, some 9]]),
        (txt "theta", [[some 10, some 12], [none, some 13]])])) = true := by decide +kernel
  cases hg : openGrid .little valuesSample with
  | error e => rw [hg] at h0; cases h0
  | ok f =>
    rw [hg] at h1
    obtain ⟨a1, a2, a3, a4, a5, a6⟩ := of_decide_eq_true h1
    exact ⟨f, rfl, ⟨a1, a2, a3, a4⟩, a5, a6⟩

/-! ## Grids without a record -/

theorem mapM_each_ok {α β : Type} {f : α → Except PyErr β} {l : List α} {r : List β} (h : l.mapM f = .ok r) : ∀ a ∈ l, ∃ y, f a = .ok y := by
  induction l generalizing r with
  | nil => intro a ha; cases ha
  | cons x l ih =>
    rw [List.mapM_cons] at h
    obtain ⟨y, h1, h⟩ := bind_inv h
    obtain ⟨ys, h2, _⟩ := bind_inv h
    intro a ha
    rcases List.mem_cons.1 ha with rfl | ha
    · exact ⟨y, h1⟩
    · exact ih h2 a ha

theorem columnGrids_each {lower : Text → Text} {f : GridFileR} {s : Int × Int} (hs : f.size = some s) (g : GridInfo) (ps : List PartInfo) (j : Nat)
    {out : List GridObj} (h : columnGrids lower f g ps j = .ok out) (k : Nat) (p : PartInfo) (hk : ps[k]? = some p) :
    ∃ d, gridData f.info f.bytes p g.number (j + k) s.1 s.2 = .ok d := by
  induction ps generalizing j out k with
  | nil => cases hk
  | cons q r ih =>
    unfold columnGrids at h
    rw [hs] at h
    dsimp only at h
    obtain ⟨d, h1, h⟩ := bind_inv h
    obtain ⟨t, h2, h⟩ := bind_inv h
    cases k with
    | zero =>
      obtain rfl := Option.some.inj hk
      exact ⟨d, h1⟩
    | succ k =>
      rw [show j + (k + 1) = j + 1 + k by omega]
      exact ih (j + 1) h2 k hk

/-- No word of the title is a kind of packing. -/
theorem title_packing (e : Endian) (w : Nat) (h1 : 1 ≤ w) (h7 : w ≤ 7) : 5 < decNat e ((banner.drop (4 * (w - 1))).take 4) := by
  have : ∀ w ∈ List.range 7, 5 < decNat .little ((banner.drop (4 * w)).take 4) ∧ 5 < decNat .big ((banner.drop (4 * w)).take 4) := by
    decide +kernel
  have h := this (w - 1) (List.mem_range.2 (by omega))
  cases e
  · exact h.1
  · exact h.2

/-- **C124** fails for grids without a record: with one to seven header words, as usual, the words of the title of the file are taken for the
kind of packing, and nothing at all is returned. -/
theorem C124_empty (host : Endian) (b : Bytes) (f : GridFileR) (upper lower : Text → Text) (ho : openGrid host b = .ok f)
    (hi : Addressable f.info) (g : GridInfo) (hg : g ∈ f.grids) (p : PartInfo) (j : Nat) (hp : f.info.parts[j]? = some p)
    (h1 : 1 ≤ p.headerLength) (h7 : p.headerLength ≤ 7) (h0 : partWord f.info b 0 g.number j = 0) (out : List GridObj) :
    gdxarray upper lower {} f ≠ .ok out := by
  intro h
  obtain ⟨s, _, hs, _, _⟩ := C124_values host b f upper lower out ho hi h
  have hb : f.bytes = b := openGrid_bytes ho
  have hban := C21_banner host b f.info (openGrid_blocks ho).1
  unfold gdxarray at h
  obtain ⟨m, k1, h⟩ := bind_inv h
  obtain ⟨r, k2, h⟩ := bind_inv h
  rw [selectGrids_all] at k1
  split at k1
  · cases k1
  obtain rfl := Except.ok.inj k1
  obtain ⟨l, k3⟩ := mapM_each_ok k2 g hg
  obtain ⟨d, k4⟩ := columnGrids_each hs g f.info.parts 0 k3 j p hp
  rw [Nat.zero_add, hb] at k4
  obtain ⟨hdr, hh⟩ : ∃ hdr : Nat, p.headerLength = hdr := ⟨p.headerLength.toNat, by omega⟩
  unfold gridData at k4
  rw [show dataPointer f.info b 0 g.number j = (partWord f.info b 0 g.number j : Nat) from
    dataPointer_file f.info b 0 g.number j hi.table hi.columns hi.parts, hh, h0] at k4
  have hsl : pySlice b (wordToPosition ((0 : Nat) : Int)) (wordToPosition ((0 : Nat) : Int) + 4) = [] := slice_before b
  have hw : wordToPosition ((0 : Nat) : Int) + (([] : Bytes).length : Int) + wordToPosition ((hdr : Int) + 1) = ((4 * (hdr - 1) : Nat) : Int) := by
    unfold wordToPosition
    rw [List.length_nil]
    omega
  dsimp only at k4
  rw [hsl, hw, readWord_pos f.info.order b (w := hdr) (by omega) rfl] at k4
  have hbig : 5 < fileWord f.info.order b hdr := by
    have := title_packing f.info.order hdr (by omega) (by omega)
    rw [fileWord_eq]
    rw [← hban, List.drop_take, List.take_take, Nat.min_eq_left (by omega)] at this
    exact this
  unfold unpackGrid at k4
  rw [if_neg (by omega), if_neg (by omega), if_neg (by omega), if_neg (by omega)] at k4
  cases k4

/-- The file with the pointer of its second grid erased. -/
def pointerSample : Bytes := valuesSample.take (4 * 510) ++ [0, 0, 0, 0] ++ valuesSample.drop (4 * 511)

/-- It meets the hypotheses of `C124_empty`. -/
example : ∃ f, openGrid .little pointerSample = .ok f ∧ Addressable f.info ∧ ∃ g ∈ f.grids, ∃ p, f.info.parts[0]? = some p ∧ p.headerLength = 2 ∧
    partWord f.info pointerSample 0 g.number 0 = 0 := by
  have h0 : (openGrid .little pointerSample).toOption.isSome = true := by decide +kernel
  have h1 : (openGrid .little pointerSample).toOption.all (fun f => decide (1 ≤ f.info.label.dataBlockPtr ∧ 0 ≤ f.info.label.columns ∧
      0 ≤ f.info.label.parts ∧ (∀ p ∈ f.info.parts, 0 ≤ p.headerLength) ∧ f.info.parts.map PartInfo.headerLength = [2] ∧
      ∃ g ∈ f.grids, partWord f.info pointerSample 0 g.number 0 = 0)) = true := by decide +kernel
  cases hg : openGrid .little pointerSample with
  | error e => rw [hg] at h0; cases h0
  | ok f =>
    rw [hg] at h1
    obtain ⟨a1, a2, a3, a4, a5, g, a6, a7⟩ := of_decide_eq_true h1
    obtain ⟨p, hp⟩ : ∃ p, f.info.parts = [p] := by
      match hm : f.info.parts with
      | [] => rw [hm] at a5; cases a5
      | [p] => exact ⟨p, rfl⟩
      | x :: y :: z => rw [hm] at a5; exact absurd (congrArg List.length a5) (by simp)
    rw [hp] at a5
    exact ⟨f, rfl, ⟨a1, a2, a3, a4⟩, g, a6, p, by rw [hp]; rfl, (List.cons.inj a5).1, a7⟩

end Gempak
