import Verif.Proof.Diff

/-!
# C32: grids packed by differences

The values are exact: the single-precision rounding of each stored sum is left out of the model.
-/

namespace Gempak
open Spec

/-! ## Specification -/

/-- Difference stored for point `k` (counted along the rows), none where the flag is stored. -/
def Spec.diffOf (m : DiffMeta) (ws : List Int) (k : Nat) : Option ℚ :=
  if m.flag = true ∧ msbField ws (k * m.bits) m.bits = 2 ^ m.bits - 1 then none
  else some (m.diffmin + (msbField ws (k * m.bits) m.bits : Nat) * m.scale)

/-- Stored differences, row by row. -/
def Spec.diffRows (m : DiffMeta) (ws : List Int) (kx ky : Nat) : List (List (Option ℚ)) :=
  (List.range ky).map fun j => (List.range kx).map fun i => diffOf m ws (j * kx + i)

/-- Sum of the differences that are present. -/
def Spec.total (ds : List (Option ℚ)) : ℚ := (ds.map fun d => d.getD 0).sum

/-- First difference that is present (zero if there is none). -/
def Spec.firstDiff (ds : List (Option ℚ)) : ℚ := ((ds.filterMap id).head?).getD 0

/-- Value of the point at column `i` of row `j`: the reference value plus the differences of the first points of the rows
before, plus the differences of this row up to the point.  The very first point has no difference: its value is the
reference. -/
def Spec.diffValue (reference : ℚ) (rows : List (List (Option ℚ))) (j i : Nat) : ℚ :=
  reference - firstDiff rows.flatten + ((rows.take j).map firstDiff).sum + total ((rows.getD j []).take (i + 1))

/-- The decoded grid. -/
def Spec.diffGrid (m : DiffMeta) (ws : List Int) (kx ky : Nat) : List (List ℚ) :=
  (List.range ky).map fun j => (List.range kx).map fun i =>
    if diffOf m ws (j * kx + i) = none then m.missing else diffValue m.reference (diffRows m ws kx ky) j i

/-! ## Rows of differences -/

/-- The decoder on differences. -/
def rowStep (m : DiffMeta) : List (Option ℚ) → Option (ℚ × ℚ) → Bool → List ℚ × Option (ℚ × ℚ)
  | [], prev, _ => ([], prev)
  | none :: r, prev, line => let q := rowStep m r prev line; (m.missing :: q.1, q.2)
  | some _ :: r, none, _ =>
    let q := rowStep m r (some (m.reference, m.reference)) true
    (m.reference :: q.1, q.2)
  | some d :: r, some (psav, plin), true => let q := rowStep m r (some (psav + d, plin)) true; ((psav + d) :: q.1, q.2)
  | some d :: r, some (_, plin), false =>
    let q := rowStep m r (some (plin + d, plin + d)) true
    ((plin + d) :: q.1, q.2)

/-- Running sums from a base. -/
def runSums (miss base : ℚ) : List (Option ℚ) → List ℚ
  | [] => []
  | none :: r => miss :: runSums miss base r
  | some d :: r => (base + d) :: runSums miss (base + d) r

theorem total_cons (d : Option ℚ) (ds : List (Option ℚ)) : total (d :: ds) = d.getD 0 + total ds := by
  unfold total; rw [List.map_cons, List.sum_cons]

theorem runSums_eq (miss base : ℚ) (ds : List (Option ℚ)) :
    runSums miss base ds = (List.range ds.length).map fun i =>
      if ds.getD i none = none then miss else base + total (ds.take (i + 1)) := by
  induction ds generalizing base with
  | nil => rfl
  | cons d ds ih =>
    rw [List.length_cons, List.range_succ_eq_map, List.map_cons, List.map_map]
    cases d with
    | none =>
      rw [runSums, ih]
      refine List.cons_eq_cons.mpr ⟨by rw [List.getD_cons_zero, if_pos rfl], ?_⟩
      apply List.map_congr_left
      intro i _
      simp only [Function.comp, List.getD_cons_succ, List.take_succ_cons, total_cons, Option.getD_none, zero_add]
    | some d =>
      rw [runSums, ih]
      refine List.cons_eq_cons.mpr ⟨by
        rw [List.getD_cons_zero, if_neg (by simp)]
        simp [total], ?_⟩
      apply List.map_congr_left
      intro i _
      simp only [Function.comp, List.getD_cons_succ, List.take_succ_cons, total_cons, Option.getD_some, add_assoc]

theorem rowStep_true (m : DiffMeta) (ds : List (Option ℚ)) (p q : ℚ) :
    (rowStep m ds (some (p, q)) true).1 = runSums m.missing p ds ∧ ∃ p', (rowStep m ds (some (p, q)) true).2 = some (p', q) := by
  induction ds generalizing p with
  | nil => exact ⟨rfl, p, rfl⟩
  | cons d ds ih =>
    cases d with
    | none => exact ⟨congrArg _ (ih p).1, (ih p).2⟩
    | some d => exact ⟨congrArg _ (ih (p + d)).1, (ih (p + d)).2⟩

theorem rowStep_false (m : DiffMeta) (ds : List (Option ℚ)) (p q : ℚ) :
    (rowStep m ds (some (p, q)) false).1 = runSums m.missing q ds ∧
      ∃ p', (rowStep m ds (some (p, q)) false).2 = some (p', q + firstDiff ds) := by
  induction ds with
  | nil => exact ⟨rfl, p, by simp [rowStep, firstDiff]⟩
  | cons d ds ih =>
    cases d with
    | none => exact ⟨congrArg _ ih.1, ih.2⟩
    | some d => exact ⟨congrArg _ (rowStep_true m ds _ _).1, (rowStep_true m ds _ _).2⟩

theorem runSums_none (miss base base' : ℚ) (ds : List (Option ℚ)) (h : ds.filterMap id = []) :
    runSums miss base ds = runSums miss base' ds := by
  induction ds with
  | nil => rfl
  | cons d ds ih =>
    cases d with
    | none => exact congrArg _ (ih (by simpa using h))
    | some d => simp at h

theorem rowStep_none (m : DiffMeta) (ds : List (Option ℚ)) (line : Bool) :
    (rowStep m ds none line).1 = runSums m.missing (m.reference - firstDiff ds) ds ∧
      ((ds.filterMap id = [] ∧ (rowStep m ds none line).2 = none) ∨
        ds.filterMap id ≠ [] ∧ ∃ p, (rowStep m ds none line).2 = some (p, m.reference)) := by
  induction ds with
  | nil => exact ⟨rfl, Or.inl ⟨rfl, rfl⟩⟩
  | cons d ds ih =>
    cases d with
    | none => exact ⟨congrArg _ ih.1, ih.2⟩
    | some d =>
      have h := rowStep_true m ds m.reference m.reference
      have e : firstDiff (some d :: ds) = d := rfl
      refine ⟨?_, Or.inr ⟨by simp, h.2⟩⟩
      show m.reference :: (rowStep m ds (some (m.reference, m.reference)) true).1 = _
      rw [h.1, e, runSums, sub_add_cancel]

/-- All rows. -/
def rowsStep (m : DiffMeta) : List (List (Option ℚ)) → Option (ℚ × ℚ) → List (List ℚ)
  | [], _ => []
  | ds :: r, prev => let q := rowStep m ds prev false; q.1 :: rowsStep m r q.2

/-- Rows of running sums, each from the first point of the row before. -/
def runRows (miss base : ℚ) : List (List (Option ℚ)) → List (List ℚ)
  | [] => []
  | ds :: r => runSums miss base ds :: runRows miss (base + firstDiff ds) r

theorem rowsStep_some (m : DiffMeta) (rows : List (List (Option ℚ))) (p q : ℚ) :
    rowsStep m rows (some (p, q)) = runRows m.missing q rows := by
  induction rows generalizing p q with
  | nil => rfl
  | cons ds r ih =>
    obtain ⟨h1, p', h2⟩ := rowStep_false m ds p q
    rw [rowsStep, runRows]
    rw [h1, h2, ih]

theorem rowsStep_none (m : DiffMeta) (rows : List (List (Option ℚ))) :
    rowsStep m rows none = runRows m.missing (m.reference - firstDiff rows.flatten) rows := by
  induction rows with
  | nil => rfl
  | cons ds r ih =>
    obtain ⟨h1, h2⟩ := rowStep_none m ds false
    rw [rowsStep, runRows]
    rw [h1]
    rcases h2 with ⟨he, h2⟩ | ⟨hne, p, h2⟩
    · have e : firstDiff (ds :: r).flatten = firstDiff r.flatten := by
        unfold firstDiff; rw [List.flatten_cons, List.filterMap_append, he, List.nil_append]
      have e2 : firstDiff ds = 0 := by unfold firstDiff; rw [he]; rfl
      rw [h2, ih, e, e2, add_zero]
      exact congrArg (· :: _) (runSums_none _ _ _ _ he)
    · have e : firstDiff (ds :: r).flatten = firstDiff ds := by
        unfold firstDiff
        rw [List.flatten_cons, List.filterMap_append, List.head?_append]
        obtain ⟨a, l, hl⟩ := List.exists_cons_of_ne_nil hne
        rw [hl]; rfl
      rw [h2, rowsStep_some, e, sub_add_cancel]

theorem runRows_eq (miss base : ℚ) (rows : List (List (Option ℚ))) :
    runRows miss base rows = (List.range rows.length).map fun j =>
      runSums miss (base + ((rows.take j).map firstDiff).sum) (rows.getD j []) := by
  induction rows generalizing base with
  | nil => rfl
  | cons ds r ih =>
    rw [List.length_cons, List.range_succ_eq_map, List.map_cons, List.map_map, runRows, ih]
    refine List.cons_eq_cons.mpr ⟨by simp, ?_⟩
    apply List.map_congr_left
    intro j _
    simp only [Function.comp, List.getD_cons_succ, List.take_succ_cons, List.map_cons, List.sum_cons, add_assoc]

/-! ## The decoder works on these rows -/

theorem diffPoint_spec (m : DiffMeta) (ws : List Int) (k : Nat) (prev : Option (ℚ × ℚ)) (line : Bool)
    (hw : ∀ w ∈ ws, inI32 w) (hb : m.bits ≤ 32) (h : k * m.bits / 32 < ws.length) (hfit : (k + 1) * m.bits ≤ 32 * ws.length) :
    ∃ prev' line' v, (∀ r, rowStep m (diffOf m ws k :: r) prev line = (v :: (rowStep m r prev' line').1, (rowStep m r prev' line').2)) ∧
      diffPoint m ws ⟨k * m.bits / 32, k * m.bits % 32 + 1, prev⟩ line =
        .ok (v, ⟨(k + 1) * m.bits / 32, (k + 1) * m.bits % 32 + 1, prev'⟩, line') := by
  have e1 : (k + 1) * m.bits = k * m.bits + m.bits := by ring
  rw [e1] at hfit ⊢
  unfold diffPoint
  dsimp only
  rw [diffField_spec ws m.bits _ hw hb h hfit, ok_bind, diffStep_spec _ _ hb]
  unfold diffOf
  by_cases hm : m.flag = true ∧ msbField ws (k * m.bits) m.bits = 2 ^ m.bits - 1
  · rw [if_pos hm, if_pos ⟨hm.1, by rw [hm.2]⟩]
    exact ⟨prev, line, m.missing, fun r => rfl, rfl⟩
  · rw [if_neg hm, if_neg (fun hc => hm ⟨hc.1, Int.ofNat.inj hc.2⟩)]
    match prev, line with
    | none, line => exact ⟨_, _, _, fun r => rfl, rfl⟩
    | some (p, q), true => exact ⟨some (_, q), true, _, fun r => rfl, by simp⟩
    | some (p, q), false => exact ⟨some (_, _), true, _, fun r => rfl, by simp⟩

/-- The place of every point lies inside. -/
theorem place_inside {k n bits len : Nat} (hlen : 0 < len) (hfit : n * bits ≤ 32 * len) (h : k < n) : k * bits / 32 < len := by
  have : (k + 1) * bits ≤ n * bits := Nat.mul_le_mul_right _ h
  rw [Nat.add_mul, Nat.one_mul] at this
  by_cases hb : bits = 0
  · subst hb; simpa using hlen
  · omega

theorem diffLine_spec (m : DiffMeta) (ws : List Int) (n k : Nat) (prev : Option (ℚ × ℚ)) (line : Bool)
    (hw : ∀ w ∈ ws, inI32 w) (hb : m.bits ≤ 32) (hl : 0 < ws.length) (hfit : (k + n) * m.bits ≤ 32 * ws.length) :
    diffLine m ws n ⟨k * m.bits / 32, k * m.bits % 32 + 1, prev⟩ line =
      .ok ((rowStep m ((List.range n).map fun i => diffOf m ws (k + i)) prev line).1,
        ⟨(k + n) * m.bits / 32, (k + n) * m.bits % 32 + 1,
          (rowStep m ((List.range n).map fun i => diffOf m ws (k + i)) prev line).2⟩) := by
  induction n generalizing k prev line with
  | zero => rfl
  | succ n ih =>
    have h1 : (k + 1) * m.bits ≤ (k + (n + 1)) * m.bits := Nat.mul_le_mul_right _ (by omega)
    obtain ⟨prev', line', v, hr, hp⟩ := diffPoint_spec m ws k prev line hw hb
      (place_inside hl hfit (show k < k + (n + 1) by omega)) (by omega)
    rw [diffLine, hp, ok_bind]
    dsimp only
    rw [ih (k + 1) prev' line' (by rw [show k + 1 + n = k + (n + 1) by omega]; exact hfit), ok_bind]
    have e : (List.range (n + 1)).map (fun i => diffOf m ws (k + i)) =
        diffOf m ws k :: (List.range n).map (fun i => diffOf m ws (k + 1 + i)) := by
      rw [List.range_succ_eq_map, List.map_cons, List.map_map]
      refine List.cons_eq_cons.mpr ⟨by rw [Nat.add_zero], ?_⟩
      apply List.map_congr_left
      intro i _
      show diffOf m ws (k + (i + 1)) = _
      rw [show k + (i + 1) = k + 1 + i by omega]
    rw [e, hr, show k + 1 + n = k + (n + 1) by omega]

theorem diffLines_spec (m : DiffMeta) (ws : List Int) (kx n j : Nat) (prev : Option (ℚ × ℚ))
    (hw : ∀ w ∈ ws, inI32 w) (hb : m.bits ≤ 32) (hl : 0 < ws.length) (hfit : (j + n) * kx * m.bits ≤ 32 * ws.length) :
    diffLines m ws kx n ⟨j * kx * m.bits / 32, j * kx * m.bits % 32 + 1, prev⟩ =
      .ok (rowsStep m ((List.range n).map fun r => (List.range kx).map fun i => diffOf m ws ((j + r) * kx + i)) prev) := by
  induction n generalizing j prev with
  | zero => rfl
  | succ n ih =>
    have h1 : (j + 1) * kx * m.bits ≤ (j + (n + 1)) * kx * m.bits :=
      Nat.mul_le_mul_right _ (Nat.mul_le_mul_right _ (by omega))
    have e1 : j * kx + kx = (j + 1) * kx := by ring
    rw [diffLines, diffLine_spec m ws kx (j * kx) prev false hw hb hl (by rw [e1]; omega), ok_bind, e1]
    dsimp only
    rw [ih (j + 1) _ (by rw [show j + 1 + n = j + (n + 1) by omega]; exact hfit), ok_bind]
    have e : (List.range (n + 1)).map (fun r => (List.range kx).map fun i => diffOf m ws ((j + r) * kx + i)) =
        ((List.range kx).map fun i => diffOf m ws (j * kx + i)) ::
          (List.range n).map (fun r => (List.range kx).map fun i => diffOf m ws ((j + 1 + r) * kx + i)) := by
      rw [List.range_succ_eq_map, List.map_cons, List.map_map]
      refine List.cons_eq_cons.mpr ⟨by rw [Nat.add_zero], ?_⟩
      apply List.map_congr_left
      intro r _
      show (List.range kx).map (fun i => diffOf m ws ((j + (r + 1)) * kx + i)) = _
      rw [show j + (r + 1) = j + 1 + r by omega]
    rw [e]
    rfl

/-- C32: with enough words every grid decodes to the running sums, missing exactly where the flag is stored. -/
theorem C32_values (m : DiffMeta) (ws : List Int) (kx ky : Nat) (hw : ∀ w ∈ ws, inI32 w) (hb : m.bits ≤ 32)
    (hl : 1 < ws.length) (hfit : ky * kx * m.bits ≤ 32 * ws.length) :
    unpackDiff m ws kx ky = .ok (some (diffGrid m ws kx ky)) := by
  unfold unpackDiff
  rw [if_pos hl]
  have h := diffLines_spec m ws kx ky 0 none hw hb (by omega) (by rw [Nat.zero_add]; exact hfit)
  have e0 : 0 * kx * m.bits / 32 = 0 := by simp
  have e1 : 0 * kx * m.bits % 32 + 1 = 1 := by simp
  rw [e0, e1] at h
  rw [h]
  refine congrArg (fun x => Except.ok (some x)) ?_
  have e2 : ((List.range ky).map fun r => (List.range kx).map fun i => diffOf m ws ((0 + r) * kx + i)) = diffRows m ws kx ky := by
    unfold diffRows; simp only [Nat.zero_add]
  rw [e2, rowsStep_none, runRows_eq]
  unfold diffGrid
  have hlen : (diffRows m ws kx ky).length = ky := by unfold diffRows; simp
  rw [hlen]
  apply List.map_congr_left
  intro j hj
  rw [List.mem_range] at hj
  have hrow : (diffRows m ws kx ky).getD j [] = (List.range kx).map fun i => diffOf m ws (j * kx + i) := by
    unfold diffRows
    rw [List.getD_eq_getElem?_getD, List.getElem?_map, List.getElem?_range hj]; rfl
  rw [runSums_eq, hrow, List.length_map, List.length_range]
  apply List.map_congr_left
  intro i hi
  rw [List.mem_range] at hi
  have hget : ((List.range kx).map fun i => diffOf m ws (j * kx + i)).getD i none = diffOf m ws (j * kx + i) := by
    rw [List.getD_eq_getElem?_getD, List.getElem?_map, List.getElem?_range hi]; rfl
  rw [hget]
  split
  · rfl
  · unfold diffValue
    rw [hrow]

theorem diffLine_short (m : DiffMeta) (ws : List Int) (n k : Nat) (prev : Option (ℚ × ℚ)) (line : Bool)
    (hw : ∀ w ∈ ws, inI32 w) (hb : m.bits ≤ 32) (hl : 0 < ws.length) (hfit : 32 * ws.length < (k + n) * m.bits)
    (hk : k * m.bits ≤ 32 * ws.length) :
    diffLine m ws n ⟨k * m.bits / 32, k * m.bits % 32 + 1, prev⟩ line = .error .indexError := by
  induction n generalizing k prev line with
  | zero => rw [Nat.add_zero] at hfit; omega
  | succ n ih =>
    have e1 : (k + 1) * m.bits = k * m.bits + m.bits := by ring
    by_cases h : (k + 1) * m.bits ≤ 32 * ws.length
    · obtain ⟨prev', line', v, hr, hp⟩ := diffPoint_spec m ws k prev line hw hb
        (place_inside hl h (show k < k + 1 by omega)) h
      rw [diffLine, hp, ok_bind]
      dsimp only
      rw [ih (k + 1) prev' line' (by rw [show k + 1 + n = k + (n + 1) by omega]; exact hfit) h]
      rfl
    · rw [diffLine]
      unfold diffPoint
      dsimp only
      rw [diffField_short ws m.bits _ hb (by omega)]
      rfl

/-- C32: a record too short for its grid is refused with `IndexError`; no values are made up. -/
theorem C32_short (m : DiffMeta) (ws : List Int) (kx ky : Nat) (hw : ∀ w ∈ ws, inI32 w) (hb : m.bits ≤ 32)
    (hl : 1 < ws.length) (hfit : 32 * ws.length < ky * kx * m.bits) :
    unpackDiff m ws kx ky = .error .indexError := by
  unfold unpackDiff
  rw [if_pos hl]
  have h : ∀ n j prev, 32 * ws.length < (j + n) * kx * m.bits → j * kx * m.bits ≤ 32 * ws.length →
      diffLines m ws kx n ⟨j * kx * m.bits / 32, j * kx * m.bits % 32 + 1, prev⟩ = .error .indexError := by
    intro n
    induction n with
    | zero => intro j prev h1 h2; rw [Nat.add_zero] at h1; omega
    | succ n ih =>
      intro j prev h1 h2
      have e1 : j * kx + kx = (j + 1) * kx := by ring
      rw [diffLines]
      by_cases hj : (j + 1) * kx * m.bits ≤ 32 * ws.length
      · rw [diffLine_spec m ws kx (j * kx) prev false hw hb (by omega) (by rw [e1]; exact hj), ok_bind, e1]
        dsimp only
        rw [ih (j + 1) _ (by rw [show j + 1 + n = j + (n + 1) by omega]; exact h1) hj]
        rfl
      · rw [diffLine_short m ws kx (j * kx) prev false hw hb (by omega) (by rw [e1]; omega) h2]
        rfl
  have h0 := h ky 0 none (by rw [Nat.zero_add]; exact hfit) (by simp)
  have e0 : 0 * kx * m.bits / 32 = 0 := by simp
  have e1 : 0 * kx * m.bits % 32 + 1 = 1 := by simp
  rw [e0, e1] at h0
  rw [h0]
  rfl

/-! ## Reading from a file -/

theorem mapM_ints (l : List Int) : (l.map Val.int).mapM intOf = .ok l := by
  induction l with
  | nil => rfl
  | cons a l ih => rw [List.map_cons, List.mapM_cons, ih]; rfl

/-- C32 on files: the grid stored behind its seven header words is shown with exactly the flagged points missing (and any
point whose value is the missing value of the file itself). -/
theorem C32_file (i : DMInfo) (b : Bytes) (pos len hdr kx ky bits flag n1 n2 : Int) (r s d : F32) (rv sv dv miss : ℚ)
    (ws : List Int) (h1 : unpackFrom i.order [.i32, .i32, .i32, .i32] b pos = .ok [.int bits, .int flag, .int n1, .int n2])
    (h2 : unpackFrom i.order [.f32, .f32, .f32] b (pos + 16) = .ok [.flt r, .flt s, .flt d])
    (h3 : readWords i b (pos + 28) (len - hdr - 8) .i32 = .ok (ws.map Val.int))
    (hr : f32Value r = some rv) (hs : f32Value s = some sv) (hd : f32Value d = some dv)
    (hm : f32Value i.label.missingFloat = some miss) (hb0 : 0 ≤ bits) (hb : bits ≤ 32) (hw : ∀ w ∈ ws, inI32 w)
    (hl : 1 < ws.length) (hfit : ky.toNat * kx.toNat * bits.toNat ≤ 32 * ws.length) :
    readDiffGrid i b pos len hdr kx ky =
      .ok (some ((List.range ky.toNat).map fun j => (List.range kx.toNat).map fun c =>
        let m : DiffMeta := ⟨bits.toNat, flag ≠ 0, rv, sv, dv, miss⟩
        if diffOf m ws (j * kx.toNat + c) = none ∨ diffValue rv (diffRows m ws kx.toNat ky.toNat) j c = miss then none
        else some (diffValue rv (diffRows m ws kx.toNat ky.toNat) j c))) := by
  unfold readDiffGrid fieldValue
  rw [h1, ok_bind, h2, ok_bind]
  dsimp only
  rw [h3, ok_bind, mapM_ints, ok_bind]
  simp only [hr, hs, hd, hm, ok_bind]
  rw [C32_values _ ws _ _ hw (by dsimp only; omega) hl (by dsimp only; exact hfit), ok_bind]
  refine congrArg (fun x => Except.ok (some x)) ?_
  unfold maskMissing diffGrid
  rw [List.map_map]
  apply List.map_congr_left
  intro j _
  rw [Function.comp, List.map_map]
  apply List.map_congr_left
  intro c _
  simp only [Function.comp]
  by_cases hn : diffOf ⟨bits.toNat, flag ≠ 0, rv, sv, dv, miss⟩ ws (j * kx.toNat + c) = none
  · rw [if_pos hn, if_pos rfl, if_pos (Or.inl hn)]
  · rw [if_neg hn]
    by_cases hv : diffValue rv (diffRows ⟨bits.toNat, flag ≠ 0, rv, sv, dv, miss⟩ ws kx.toNat ky.toNat) j c = miss
    · rw [if_pos (by rw [hv]), if_pos (Or.inr hv)]
    · rw [if_neg (fun hc => hv (Option.some.inj hc)), if_neg (by rintro (h | h) <;> contradiction)]

/-- A 2 by 3 grid of 12-bit fields 1, flag, 2 and 3, 4, flag in three words. -/
def sampleDiff : List Int := [0x001FFF00, 0x2003004F, 0xFF000000 - 0x100000000]

/-- It satisfies the hypotheses and shows 10, missing, 12 and 13, 17, missing. -/
example : (∀ w ∈ sampleDiff, inI32 w) ∧ 2 * 3 * 12 ≤ 32 * sampleDiff.length ∧
    diffGrid ⟨12, true, 10, 1, 0, -9999⟩ sampleDiff 3 2 = [[10, -9999, 12], [13, 17, -9999]] := by
  refine ⟨by decide, by decide, by decide +kernel⟩

end Gempak
