import Verif.Proof.VgfElem
import Verif.Proof.F32Order
import Verif.Props.VgfFile
import Mathlib.Tactic.NormNum

/-!
# C90: constructors of vector graphic elements; C56: all setters
-/

namespace Gempak

/-! ## Specification -/

/-- As many longitudes as latitudes, 2 to 500. -/
def Spec.Track (lon lat : List F32) : Prop := lon.length = lat.length ∧ 2 ≤ lon.length ∧ lon.length ≤ 500

/-- A size from 0.1 to 10 (not-a-number passes too). -/
def Spec.SizeOk (v : F32) : Prop := f32Nan v = true ∨ ∃ x, f32Value v = some x ∧ 1 / 10 ≤ x ∧ x ≤ 10

/-- A colour number. -/
def Spec.Colour (c : Int) : Prop := 0 ≤ c ∧ c ≤ 32

/-- Arguments that a constructor accepts. -/
def Spec.Acceptable : VgNew → Prop
  | .line lon lat color lt cl fi sm w =>
    Spec.Track lon lat ∧ Spec.Colour color ∧ (0 ≤ lt ∧ lt ≤ 99) ∧ (cl = 0 ∨ cl = 1) ∧ (0 ≤ fi ∧ fi ≤ 8) ∧ (0 ≤ sm ∧ sm ≤ 2) ∧ (1 ≤ w ∧ w ≤ 10)
  | .front lon lat fc mj mn sm ps st pd =>
    Spec.Track lon lat ∧ (0 ≤ fc ∧ fc ≤ 999) ∧ Spec.Colour mj ∧ (∀ c, mn = some c → Spec.Colour c) ∧ (0 ≤ sm ∧ sm ≤ 2) ∧ (40 ≤ ps ∧ ps ≤ 500) ∧
      1 ≤ st ∧ (pd = 1 ∨ pd = -1)
  | .specialLine lon lat color lt cl fi st w sm sz d =>
    Spec.Track lon lat ∧ Spec.Colour color ∧ (1 ≤ lt ∧ lt ≤ 26) ∧ (cl = 0 ∨ cl = 1) ∧ (0 ≤ fi ∧ fi ≤ 8) ∧ (0 ≤ sm ∧ sm ≤ 2) ∧ (1 ≤ w ∧ w ≤ 10) ∧
      Spec.SizeOk sz ∧ (d = 1 ∨ d = -1) ∧ (lt = 24 ∨ lt = 25 → 25 ≤ st ∧ st ≤ 75)
  | .specialText _ _ text tc sz tt fo al ec fc _ _ _ tu =>
    text.length ≤ 254 ∧ Spec.Colour tc ∧ sz ∈ ([10, 12, 14, 18, 24, 34] : List Int) ∧ (0 ≤ tt ∧ tt ≤ 16) ∧
      fo ∈ ([1, 2, 3, 11, 12, 13, 21, 22, 23, 31, 32, 33] : List Int) ∧ (-1 ≤ al ∧ al ≤ 1) ∧ (∀ c, ec = some c → Spec.Colour c) ∧
      (∀ c, fc = some c → Spec.Colour c) ∧ (tt = 7 ∨ tt = 9 → 0 ≤ tu ∧ tu ≤ 8) ∧ (tt = 12 → 0 ≤ tu ∧ tu ≤ 10)
  | .specialSymbol _ _ _ color _ _ _ _ | .marker _ _ _ color _ _ _ _ => Spec.Colour color

/-- The number is one of a list of numbers and least among them. -/
def Spec.Least (m : F32) (xs : List F32) : Prop :=
  (∀ x ∈ xs, f32Value x ≠ none) → m ∈ xs ∧ ∃ v, f32Value m = some v ∧ ∀ x ∈ xs, ∀ y, f32Value x = some y → v ≤ y

/-- The number is one of a list of numbers and greatest among them. -/
def Spec.Greatest (m : F32) (xs : List F32) : Prop :=
  (∀ x ∈ xs, f32Value x ≠ none) → m ∈ xs ∧ ∃ v, f32Value m = some v ∧ ∀ x ∈ xs, ∀ y, f32Value x = some y → y ≤ v

/-- The header of a new element: not deleted, in no group, with colours, and the box of its points. -/
def Spec.NewHead (h : VgHead) (lon lat : List F32) (major minor closed filled smooth : Int) : Prop :=
  h.delete = 0 ∧ h.version = 0 ∧ h.groupType = 0 ∧ h.groupNumber = 0 ∧ h.majorColor = major ∧ h.minorColor = minor ∧ h.closed = closed ∧
    h.filled = filled ∧ h.smooth = smooth ∧ Spec.Least h.minLon lon ∧ Spec.Least h.minLat lat ∧ Spec.Greatest h.maxLon lon ∧
    Spec.Greatest h.maxLat lat

/-- An element has the arguments of its constructor. -/
def Spec.Made : VgNew → VgElem → Prop
  | .line lon lat color lt cl fi sm w, .line l =>
    Spec.NewHead l.base.head lon lat color color cl fi sm ∧ l.base.lon = lon ∧ l.base.lat = lat ∧ l.lineType = lt ∧ l.base.width = w
  | .front lon lat fc mj mn sm ps st pd, .front f =>
    Spec.NewHead f.head lon lat mj (mn.getD mj) 0 0 sm ∧ f.lon = lon ∧ f.lat = lat ∧ f.frontCode = fc ∧ f.pipSize = ps ∧ f.pipStroke = st ∧
      f.pipDirection = pd
  | .specialLine lon lat color lt cl fi st w sm sz d, .specialLine l =>
    Spec.NewHead l.base.head lon lat color color cl fi sm ∧ l.base.lon = lon ∧ l.base.lat = lat ∧ l.lineType = lt ∧ l.base.width = w ∧
      l.size = sz ∧ l.direction = d ∧ l.stroke = (if lt = 24 ∨ lt = 25 then st else 1)
  | .specialText lon lat text tc sz tt fo al ec fc ro ox oy tu, .specialText t =>
    Spec.NewHead t.head [lon] [lat] tc tc 0 0 0 ∧ t.lon = lon ∧ t.lat = lat ∧ t.text = text ++ [Char.ofNat 0] ∧ t.textColor = tc ∧ t.size = sz ∧
      t.textType = tt ∧ t.font = fo ∧ t.align = al ∧ t.edgecolor = ec.getD tc ∧ t.facecolor = fc.getD tc ∧ t.rotation = ro ∧ t.offsetX = ox ∧
      t.offsetY = oy ∧ t.turbulenceSymbol = tu ∧ t.textFlag = 2 ∧ t.width = 1
  | .specialSymbol lon lat code color w sz ox oy, .specialSymbol s | .marker lon lat code color w sz ox oy, .marker s =>
    Spec.NewHead s.head [lon] [lat] color color 0 0 0 ∧ s.lon = lon ∧ s.lat = lat ∧ s.symbolCode = code ∧ s.width = w ∧ s.size = sz ∧
      s.offsetX = ox ∧ s.offsetY = oy
  | _, _ => False

/-! ## Lemmas -/

theorem pyMin_least (xs : List F32) (hx : xs ≠ []) : Spec.Least (pyMin xs) xs := by
  intro hv
  cases xs with
  | nil => exact absurd rfl hx
  | cons x xs =>
    unfold pyMin
    dsimp only
    have key : ∀ (ys : List F32) (m : F32), (∀ y ∈ ys, f32Value y ≠ none) → ∀ v, f32Value m = some v →
        (ys.foldl (fun m y => if f32Lt y m then y else m) m = m ∨ ys.foldl (fun m y => if f32Lt y m then y else m) m ∈ ys) ∧
        ∃ w, f32Value (ys.foldl (fun m y => if f32Lt y m then y else m) m) = some w ∧ w ≤ v ∧ ∀ y ∈ ys, ∀ z, f32Value y = some z → w ≤ z := by
      intro ys
      induction ys with
      | nil => intro m _ v hm; exact ⟨Or.inl rfl, v, hm, le_refl _, fun y hy => by cases hy⟩
      | cons y ys ih =>
        intro m hy v hm
        rw [List.foldl_cons]
        obtain ⟨z, hz⟩ := Option.ne_none_iff_exists'.1 (hy y List.mem_cons_self)
        have hlt : f32Lt y m = true ↔ z < v := by
          unfold f32Lt
          rw [f32Nan_value hz, f32Nan_value hm]
          simp only [Bool.not_false, Bool.true_and, decide_eq_true_eq]
          have := f32Key_le hm hz
          constructor
          · intro h; by_contra hc; have := this.2 (not_lt.1 hc); omega
          · intro h; by_contra hc; exact absurd (this.1 (not_lt.1 hc)) (not_le.2 h)
        by_cases hc : f32Lt y m = true
        · rw [if_pos hc]
          obtain ⟨h1, w, h2, h3, h4⟩ := ih y (fun a ha => hy a (List.mem_cons_of_mem _ ha)) z hz
          refine ⟨Or.inr ?_, w, h2, h3.trans (hlt.1 hc).le, ?_⟩
          · rcases h1 with h1 | h1
            · rw [h1]; exact List.mem_cons_self
            · exact List.mem_cons_of_mem _ h1
          · intro a ha b hb
            rcases List.mem_cons.1 ha with rfl | ha
            · rw [hz] at hb; rw [← Option.some.inj hb]; exact h3
            · exact h4 a ha b hb
        · rw [if_neg hc]
          obtain ⟨h1, w, h2, h3, h4⟩ := ih m (fun a ha => hy a (List.mem_cons_of_mem _ ha)) v hm
          refine ⟨?_, w, h2, h3, ?_⟩
          · rcases h1 with h1 | h1
            · exact Or.inl h1
            · exact Or.inr (List.mem_cons_of_mem _ h1)
          · intro a ha b hb
            rcases List.mem_cons.1 ha with rfl | ha
            · rw [hz] at hb; rw [← Option.some.inj hb]
              exact h3.trans (not_lt.1 fun h => hc (hlt.2 h))
            · exact h4 a ha b hb
    obtain ⟨v, hm⟩ := Option.ne_none_iff_exists'.1 (hv x List.mem_cons_self)
    obtain ⟨h1, w, h2, h3, h4⟩ := key xs x (fun y hy => hv y (List.mem_cons_of_mem _ hy)) v hm
    refine ⟨?_, w, h2, ?_⟩
    · rcases h1 with h1 | h1
      · rw [h1]; exact List.mem_cons_self
      · exact List.mem_cons_of_mem _ h1
    · intro a ha b hb
      rcases List.mem_cons.1 ha with rfl | ha
      · rw [hm] at hb; rw [← Option.some.inj hb]; exact h3
      · exact h4 a ha b hb

theorem pyMax_greatest (xs : List F32) (hx : xs ≠ []) : Spec.Greatest (pyMax xs) xs := by
  intro hv
  cases xs with
  | nil => exact absurd rfl hx
  | cons x xs =>
    unfold pyMax
    dsimp only
    have key : ∀ (ys : List F32) (m : F32), (∀ y ∈ ys, f32Value y ≠ none) → ∀ v, f32Value m = some v →
        (ys.foldl (fun m y => if f32Lt m y then y else m) m = m ∨ ys.foldl (fun m y => if f32Lt m y then y else m) m ∈ ys) ∧
        ∃ w, f32Value (ys.foldl (fun m y => if f32Lt m y then y else m) m) = some w ∧ v ≤ w ∧ ∀ y ∈ ys, ∀ z, f32Value y = some z → z ≤ w := by
      intro ys
      induction ys with
      | nil => intro m _ v hm; exact ⟨Or.inl rfl, v, hm, le_refl _, fun y hy => by cases hy⟩
      | cons y ys ih =>
        intro m hy v hm
        rw [List.foldl_cons]
        obtain ⟨z, hz⟩ := Option.ne_none_iff_exists'.1 (hy y List.mem_cons_self)
        have hlt : f32Lt m y = true ↔ v < z := by
          unfold f32Lt
          rw [f32Nan_value hz, f32Nan_value hm]
          simp only [Bool.not_false, Bool.true_and, decide_eq_true_eq]
          have := f32Key_le hz hm
          constructor
          · intro h; by_contra hc; have := this.2 (not_lt.1 hc); omega
          · intro h; by_contra hc; exact absurd (this.1 (not_lt.1 hc)) (not_le.2 h)
        by_cases hc : f32Lt m y = true
        · rw [if_pos hc]
          obtain ⟨h1, w, h2, h3, h4⟩ := ih y (fun a ha => hy a (List.mem_cons_of_mem _ ha)) z hz
          refine ⟨Or.inr ?_, w, h2, (hlt.1 hc).le.trans h3, ?_⟩
          · rcases h1 with h1 | h1
            · rw [h1]; exact List.mem_cons_self
            · exact List.mem_cons_of_mem _ h1
          · intro a ha b hb
            rcases List.mem_cons.1 ha with rfl | ha
            · rw [hz] at hb; rw [← Option.some.inj hb]; exact h3
            · exact h4 a ha b hb
        · rw [if_neg hc]
          obtain ⟨h1, w, h2, h3, h4⟩ := ih m (fun a ha => hy a (List.mem_cons_of_mem _ ha)) v hm
          refine ⟨?_, w, h2, h3, ?_⟩
          · rcases h1 with h1 | h1
            · exact Or.inl h1
            · exact Or.inr (List.mem_cons_of_mem _ h1)
          · intro a ha b hb
            rcases List.mem_cons.1 ha with rfl | ha
            · rw [hz] at hb; rw [← Option.some.inj hb]
              exact (not_lt.1 fun h => hc (hlt.2 h)).trans h3
            · exact h4 a ha b hb
    obtain ⟨v, hm⟩ := Option.ne_none_iff_exists'.1 (hv x List.mem_cons_self)
    obtain ⟨h1, w, h2, h3, h4⟩ := key xs x (fun y hy => hv y (List.mem_cons_of_mem _ hy)) v hm
    refine ⟨?_, w, h2, ?_⟩
    · rcases h1 with h1 | h1
      · rw [h1]; exact List.mem_cons_self
      · exact List.mem_cons_of_mem _ h1
    · intro a ha b hb
      rcases List.mem_cons.1 ha with rfl | ha
      · rw [hm] at hb; rw [← Option.some.inj hb]; exact h3
      · exact h4 a ha b hb

theorem track_ne {lon lat : List F32} (h : Spec.Track lon lat) : lon ≠ [] ∧ lat ≠ [] := by
  obtain ⟨h1, h2, _⟩ := h
  constructor
  · rintro rfl; simp at h2
  · rintro rfl; rw [h1] at h2; simp at h2

theorem least_one (x : F32) : Spec.Least x [x] := by
  intro h
  obtain ⟨v, hv⟩ := Option.ne_none_iff_exists'.1 (h x List.mem_cons_self)
  refine ⟨List.mem_cons_self, v, hv, fun y hy z hz => ?_⟩
  rw [List.mem_singleton.1 hy, hv] at hz
  rw [Option.some.inj hz]

theorem greatest_one (x : F32) : Spec.Greatest x [x] := by
  intro h
  obtain ⟨v, hv⟩ := Option.ne_none_iff_exists'.1 (h x List.mem_cons_self)
  refine ⟨List.mem_cons_self, v, hv, fun y hy z hz => ?_⟩
  rw [List.mem_singleton.1 hy, hv] at hz
  rw [Option.some.inj hz]

theorem guard_bind {α β : Type} (b : Bool) (a : α) (f : α → Except PyErr β) :
    (guardSet b a >>= f) = if b = true then f a else .error .valueError := by
  unfold guardSet
  split <;> rfl

theorem checkPoints_bind {β : Type} (lon lat : List F32) (f : Unit → Except PyErr β) [Decidable (Spec.Track lon lat)] :
    (checkPoints lon lat >>= f) = if Spec.Track lon lat then f () else .error .valueError := by
  unfold checkPoints maxPoints
  by_cases h : Spec.Track lon lat
  · rw [if_pos h]
    obtain ⟨h1, h2, h3⟩ := h
    rw [if_neg (by omega), if_neg (by omega), if_neg (by omega)]
    rfl
  · rw [if_neg h]
    unfold Spec.Track at h
    split
    · rfl
    · split
      · rfl
      · split
        · rfl
        · exact absurd ⟨by omega, by omega, by omega⟩ h

theorem f32_finite {v : F32} (h : f32Nan v = false) (hn : f32Value v = none) : f32Key v = 0x7F800000 ∨ f32Key v = -0x7F800000 := by
  unfold f32Value at hn
  dsimp only at hn
  split at hn
  · unfold f32Nan at h
    simp only [decide_eq_false_iff_not] at h
    unfold f32Key
    have := v.isLt
    split <;> omega
  · split at hn <;> cases hn

/-- The check of sizes. -/
theorem sizeOk_iff (v : F32) : badSize v = false ↔ Spec.SizeOk v := by
  unfold badSize Spec.SizeOk
  have ht : f32Value f32Tenth = some (13421773 / 134217728) := by unfold f32Value f32Tenth; norm_num
  have hp : f32Value 0x3DCCCCCC#32 = some (3355443 / 33554432) := by unfold f32Value; norm_num
  have h10 : f32Value f32Ten = some 10 := by unfold f32Value f32Ten; norm_num
  cases hnan : f32Nan v with
  | true =>
    simp [f32Lt, hnan]
  | false =>
    simp only [Bool.or_eq_false_iff]
    have e1 : f32Lt v f32Tenth = decide (f32Key v < f32Key f32Tenth) := by simp [f32Lt, hnan, f32Nan_value ht]
    have e2 : f32Lt f32Ten v = decide (f32Key f32Ten < f32Key v) := by simp [f32Lt, hnan, f32Nan_value h10]
    rw [e1, e2]
    simp only [decide_eq_false_iff_not]
    cases hv : f32Value v with
    | none =>
      have k1 : f32Key f32Tenth = 0x3DCCCCCD := by decide
      have k2 : f32Key f32Ten = 0x41200000 := by decide
      rcases f32_finite hnan hv with h | h
      · constructor
        · rintro ⟨_, h2⟩; omega
        · rintro (h | ⟨x, h, _⟩) <;> cases h
      · constructor
        · rintro ⟨h1, _⟩; omega
        · rintro (h | ⟨x, h, _⟩) <;> cases h
    | some x =>
      have a1 := f32Key_le hv hp
      have a2 := f32Key_le ht hv
      have a3 := f32Key_le hv h10
      have k1 : f32Key f32Tenth = 0x3DCCCCCD := by decide
      have k0 : f32Key 0x3DCCCCCC#32 = 0x3DCCCCCC := by decide
      constructor
      · rintro ⟨h1, h2⟩
        refine Or.inr ⟨x, rfl, ?_, a3.1 (by omega)⟩
        refine le_trans ?_ (a2.1 (by omega))
        norm_num
      · rintro (h | ⟨y, hy, h1, h2⟩)
        · cases h
        · obtain rfl := Option.some.inj hy
          refine ⟨fun hc => ?_, fun hc => ?_⟩
          · have := a1.1 (by omega)
            have := h1.trans this
            norm_num at this
          · have := a3.2 h2
            omega

/-- The digits of a front code. -/
theorem setCode_ok (f : VgFront) (v : Int) (h : 0 ≤ v ∧ v ≤ 999) : ∃ t i c, digitAt (fmtD 3 v) 0 = .ok t ∧ digitAt (fmtD 3 v) 1 = .ok i ∧
    digitAt (fmtD 3 v) 2 = .ok c ∧
    f.setCode v = .ok { f with frontCode := v, frontType := t, frontIntensity := i, frontCharacter := c, width := i } := by
  have key : ∀ n : Fin 1000, ∃ t i c, digitAt (fmtD 3 (n : Nat)) 0 = .ok t ∧ digitAt (fmtD 3 (n : Nat)) 1 = .ok i ∧
      digitAt (fmtD 3 (n : Nat)) 2 = .ok c := by
    intro n
    have h := n.2
    have : ∀ n : Nat, n < 1000 → (match digitAt (fmtD 3 (n : Nat)) 0, digitAt (fmtD 3 (n : Nat)) 1, digitAt (fmtD 3 (n : Nat)) 2 with
        | .ok _, .ok _, .ok _ => true | _, _, _ => false) = true := by decide +kernel
    have := this n.1 n.2
    revert this
    split
    · rename_i t i c h1 h2 h3
      intro _
      exact ⟨t, i, c, h1, h2, h3⟩
    · intro h; cases h
  obtain ⟨t, i, c, h1, h2, h3⟩ := key ⟨v.toNat, by omega⟩
  have hv : ((v.toNat : Nat) : Int) = v := by omega
  dsimp only at h1 h2 h3
  rw [hv] at h1 h2 h3
  refine ⟨t, i, c, h1, h2, h3, ?_⟩
  unfold VgFront.setCode
  rw [if_pos (inRange_iff.2 (by omega))]
  dsimp only
  rw [h1, h2, h3]
  rfl

open Classical in
theorem mkLineBase_eq (lon lat : List F32) (color width closed filled smooth : Int) :
    mkLineBase lon lat color width closed filled smooth =
      if Spec.Track lon lat ∧ Spec.Colour color ∧ (1 ≤ width ∧ width ≤ 10) ∧ (closed = 0 ∨ closed = 1) ∧ (0 ≤ filled ∧ filled ≤ 8) ∧
        (0 ≤ smooth ∧ smooth ≤ 2) then
        .ok ⟨{
          minLon := pyMin lon, minLat := pyMin lat, maxLon := pyMax lon, maxLat := pyMax lat, majorColor := color, minorColor := color,
          closed := closed, filled := filled, smooth := smooth }, lon, lat, lon.length, width⟩
      else .error .valueError := by
  unfold mkLineBase
  rw [checkPoints_bind]
  simp only [VgHead.set, VgLineBase.setWidth, guard_bind, inRange, Bool.or_eq_true, beq_iff_eq, decide_eq_true_eq]
  unfold Spec.Colour
  split_ifs <;> first
    | rfl
    | (exfalso; omega)
    | (exfalso; rename_i h; exact h ⟨by assumption, by omega, by omega, by omega, by omega, by omega⟩)
    | (exfalso; rename_i h; exact absurd h.1 (by assumption))

theorem newHead_track {lon lat : List F32} (ht : Spec.Track lon lat) (h : VgHead) (hd : h.delete = 0) (hv : h.version = 0) (hg : h.groupType = 0)
    (hn : h.groupNumber = 0) (h1 : h.minLon = pyMin lon) (h2 : h.minLat = pyMin lat) (h3 : h.maxLon = pyMax lon) (h4 : h.maxLat = pyMax lat) :
    Spec.NewHead h lon lat h.majorColor h.minorColor h.closed h.filled h.smooth := by
  obtain ⟨a, b⟩ := track_ne ht
  refine ⟨hd, hv, hg, hn, rfl, rfl, rfl, rfl, rfl, ?_, ?_, ?_, ?_⟩
  · rw [h1]; exact pyMin_least lon a
  · rw [h2]; exact pyMin_least lat b
  · rw [h3]; exact pyMax_greatest lon a
  · rw [h4]; exact pyMax_greatest lat b

theorem make_line (lon lat : List F32) (color lt cl fi sm w : Int) :
    (Spec.Acceptable (.line lon lat color lt cl fi sm w) → ∃ e, VgElem.make (.line lon lat color lt cl fi sm w) = .ok e ∧
      Spec.Made (.line lon lat color lt cl fi sm w) e) ∧
    (¬ Spec.Acceptable (.line lon lat color lt cl fi sm w) → VgElem.make (.line lon lat color lt cl fi sm w) = .error .valueError) := by
  unfold VgElem.make mkLine Spec.Acceptable
  dsimp only
  rw [mkLineBase_eq]
  constructor
  · rintro ⟨ht, hc, hl, hcl, hf, hs, hw⟩
    rw [if_pos ⟨ht, hc, hw, hcl, hf, hs⟩]
    simp only [ok_bind, VgLine.setLineType, guard_bind]
    rw [if_pos (by simp only [decide_eq_true_eq]; omega)]
    exact ⟨_, rfl, newHead_track ht _ rfl rfl rfl rfl rfl rfl rfl rfl, rfl, rfl, rfl, rfl⟩
  · intro hn
    split
    · rename_i h
      simp only [ok_bind, VgLine.setLineType, guard_bind]
      rw [if_neg (by
        simp only [decide_eq_true_eq]
        intro hl
        exact hn ⟨h.1, h.2.1, by omega, h.2.2.2.1, h.2.2.2.2.1, h.2.2.2.2.2, h.2.2.1⟩)]
      rfl
    · rfl

theorem make_specialLine (lon lat : List F32) (color lt cl fi st w sm : Int) (sz : F32) (d : Int) :
    (Spec.Acceptable (.specialLine lon lat color lt cl fi st w sm sz d) → ∃ e, VgElem.make (.specialLine lon lat color lt cl fi st w sm sz d) = .ok e ∧
      Spec.Made (.specialLine lon lat color lt cl fi st w sm sz d) e) ∧
    (¬ Spec.Acceptable (.specialLine lon lat color lt cl fi st w sm sz d) →
      VgElem.make (.specialLine lon lat color lt cl fi st w sm sz d) = .error .valueError) := by
  unfold VgElem.make mkSpecialLine Spec.Acceptable
  dsimp only
  rw [mkLineBase_eq]
  constructor
  · rintro ⟨ht, hc, hl, hcl, hf, hs, hw, hz, hd, hst⟩
    rw [if_pos ⟨ht, hc, hw, hcl, hf, hs⟩]
    simp only [ok_bind, VgSpecialLine.setLineType, VgSpecialLine.setDirection, VgSpecialLine.setSize, guard_bind]
    rw [if_pos (by rw [inRange_iff]; omega), if_pos (by simp only [Bool.or_eq_true, beq_iff_eq]; omega),
      if_pos (by rw [(sizeOk_iff sz).2 hz]; rfl)]
    simp only [Bool.or_eq_true, beq_iff_eq]
    by_cases hk : lt = 24 ∨ lt = 25
    · have := hst hk
      rw [if_pos hk, if_pos (inRange_iff.2 (by omega))]
      exact ⟨_, rfl, newHead_track ht _ rfl rfl rfl rfl rfl rfl rfl rfl, rfl, rfl, rfl, rfl, rfl, rfl, (if_pos hk).symm⟩
    · rw [if_neg hk]
      exact ⟨_, rfl, newHead_track ht _ rfl rfl rfl rfl rfl rfl rfl rfl, rfl, rfl, rfl, rfl, rfl, rfl, (if_neg hk).symm⟩
  · intro hn
    split
    · rename_i h
      simp only [ok_bind, VgSpecialLine.setLineType, VgSpecialLine.setDirection, VgSpecialLine.setSize, guard_bind]
      split
      · rename_i hl
        split
        · rename_i hd
          split
          · rename_i hz
            rw [inRange_iff] at hl
            simp only [Bool.or_eq_true, beq_iff_eq] at hd
            have hz := (sizeOk_iff sz).1 (by simpa using hz)
            simp only [Bool.or_eq_true, beq_iff_eq]
            split
            · split
              · rename_i hs
                rw [inRange_iff] at hs
                exact absurd ⟨h.1, h.2.1, by omega, h.2.2.2.1, h.2.2.2.2.1, h.2.2.2.2.2, h.2.2.1, hz, hd, fun _ => by omega⟩ hn
              · rfl
            · rename_i hk
              exact absurd ⟨h.1, h.2.1, by omega, h.2.2.2.1, h.2.2.2.2.1, h.2.2.2.2.2, h.2.2.1, hz, hd, fun h => absurd h hk⟩ hn
          · rfl
        · rfl
      · rfl
    · rfl

theorem make_front (lon lat : List F32) (fc mj : Int) (mn : Option Int) (sm ps st pd : Int) :
    (Spec.Acceptable (.front lon lat fc mj mn sm ps st pd) → ∃ e, VgElem.make (.front lon lat fc mj mn sm ps st pd) = .ok e ∧
      Spec.Made (.front lon lat fc mj mn sm ps st pd) e) ∧
    (¬ Spec.Acceptable (.front lon lat fc mj mn sm ps st pd) → VgElem.make (.front lon lat fc mj mn sm ps st pd) = .error .valueError) := by
  classical
  unfold VgElem.make mkFront Spec.Acceptable
  dsimp only
  rw [checkPoints_bind]
  have hm0 : Spec.Colour mj → ((∀ c, mn = some c → Spec.Colour c) ↔ Spec.Colour (mn.getD mj)) := by
    intro hj
    cases mn with
    | none => exact ⟨fun _ => hj, fun _ c hc => by cases hc⟩
    | some c => exact ⟨fun h => h c rfl, fun h d hd => by rw [← Option.some.inj hd]; exact h⟩
  constructor
  · rintro ⟨ht, hf, hj, hn, hs, hp, hst, hd⟩
    have hn := (hm0 hj).1 hn
    unfold Spec.Colour at hj hn
    rw [if_pos ht]
    simp only [VgHead.set, guard_bind]
    rw [if_pos (by rw [inRange_iff]; omega), if_pos (by rw [inRange_iff]; omega), if_pos (by rfl), if_pos (by rfl)]
    obtain ⟨t, i, c, d1, d2, d3, hcode⟩ := setCode_ok ⟨{ vgClass := 1, vgType := 2, minLon := pyMin lon, minLat := pyMin lat, maxLon := pyMax lon, maxLat := pyMax lat, majorColor := mj, minorColor := mn.getD mj, closed := 0, filled := 0 }, lon, lat, lon.length, [83, 80, 67], 0, 0, 0, 0, 0, 0, 0, 0⟩ fc hf
    rw [hcode]
    simp only [ok_bind, VgFront.setPipSize, VgFront.setPipStroke, VgFront.setPipDirection, guard_bind]
    rw [if_pos (by rw [inRange_iff]; omega), if_pos (by simp only [decide_eq_true_eq]; omega),
      if_pos (by simp only [Bool.or_eq_true, beq_iff_eq]; omega), if_pos (by rw [inRange_iff]; omega), d1, d2, d3]
    exact ⟨_, rfl, newHead_track ht _ rfl rfl rfl rfl rfl rfl rfl rfl, rfl, rfl, rfl, rfl, rfl, rfl⟩
  · intro hn
    split
    · rename_i ht
      simp only [VgHead.set, guard_bind]
      split
      · rename_i hj
        split
        · rename_i hmn
          rw [if_pos (by rfl), if_pos (by rfl)]
          rw [inRange_iff] at hj hmn
          have hj : Spec.Colour mj := ⟨by omega, by omega⟩
          have hmn := (hm0 hj).2 ⟨by omega, by omega⟩
          by_cases hf : 0 ≤ fc ∧ fc ≤ 999
          · obtain ⟨t, i, c, d1, d2, d3, hcode⟩ := setCode_ok ⟨{ vgClass := 1, vgType := 2, minLon := pyMin lon, minLat := pyMin lat, maxLon := pyMax lon, maxLat := pyMax lat, majorColor := mj, minorColor := mn.getD mj, closed := 0, filled := 0 }, lon, lat, lon.length, [83, 80, 67], 0, 0, 0, 0, 0, 0, 0, 0⟩ fc hf
            rw [hcode]
            simp only [ok_bind, VgFront.setPipSize, VgFront.setPipStroke, VgFront.setPipDirection, guard_bind]
            split
            · rename_i hp
              rw [inRange_iff] at hp
              split
              · rename_i hs
                simp only [decide_eq_true_eq] at hs
                split
                · rename_i hd
                  simp only [Bool.or_eq_true, beq_iff_eq] at hd
                  split
                  · rename_i hsm
                    rw [inRange_iff] at hsm
                    exact absurd ⟨ht, hf, hj, hmn, by omega, by omega, by omega, by omega⟩ hn
                  · rfl
                · rfl
              · rfl
            · rfl
          · unfold VgFront.setCode
            rw [if_neg (by rw [inRange_iff]; omega)]
            rfl
        · rfl
      · rfl
    · rfl

theorem make_symbol (ty : Int) (lon lat : F32) (code color w : Int) (sz : F32) (ox oy : Int) :
    (Spec.Colour color → ∃ s, mkSymbol ty lon lat code color w sz ox oy = .ok s ∧ Spec.NewHead s.head [lon] [lat] color color 0 0 0 ∧ s.lon = lon ∧
      s.lat = lat ∧ s.symbolCode = code ∧ s.width = w ∧ s.size = sz ∧ s.offsetX = ox ∧ s.offsetY = oy) ∧
    (¬ Spec.Colour color → mkSymbol ty lon lat code color w sz ox oy = .error .valueError) := by
  unfold mkSymbol Spec.Colour
  simp only [VgHead.set, guard_bind]
  constructor
  · intro hc
    rw [if_pos (by rw [inRange_iff]; omega), if_pos (by rw [inRange_iff]; omega)]
    exact ⟨_, rfl, ⟨rfl, rfl, rfl, rfl, rfl, rfl, rfl, rfl, rfl, least_one _, least_one _, greatest_one _, greatest_one _⟩, rfl, rfl, rfl, rfl, rfl,
      rfl, rfl⟩
  · intro hc
    rw [if_neg (by rw [inRange_iff]; omega)]

theorem make_text (lon lat : F32) (text : Text) (tc sz tt fo al : Int) (ec fc : Option Int) (ro : F32) (ox oy tu : Int) :
    (Spec.Acceptable (.specialText lon lat text tc sz tt fo al ec fc ro ox oy tu) →
      ∃ e, VgElem.make (.specialText lon lat text tc sz tt fo al ec fc ro ox oy tu) = .ok e ∧
        Spec.Made (.specialText lon lat text tc sz tt fo al ec fc ro ox oy tu) e) ∧
    (¬ Spec.Acceptable (.specialText lon lat text tc sz tt fo al ec fc ro ox oy tu) →
      VgElem.make (.specialText lon lat text tc sz tt fo al ec fc ro ox oy tu) = .error .valueError) := by
  unfold VgElem.make mkSpecialText Spec.Acceptable
  have hm0 : ∀ mn : Option Int, Spec.Colour tc → ((∀ c, mn = some c → Spec.Colour c) ↔ Spec.Colour (mn.getD tc)) := by
    intro mn hj
    cases mn with
    | none => exact ⟨fun _ => hj, fun _ c hc => by cases hc⟩
    | some c => exact ⟨fun h => h c rfl, fun h d hd => by rw [← Option.some.inj hd]; exact h⟩
  have hal : al ∈ ([-1, 0, 1] : List Int) ↔ -1 ≤ al ∧ al ≤ 1 := by simp; omega
  have hcol : ∀ c : Int, inRange c 0 33 = true ↔ Spec.Colour c := by
    intro c; rw [inRange_iff]; unfold Spec.Colour; omega
  have htype : inRange tt 0 17 = true ↔ 0 ≤ tt ∧ tt ≤ 16 := by rw [inRange_iff]; omega
  have hdec : ∀ (v : Int) (l : List Int), (decide (v ∈ l) = true) = (v ∈ l) := fun v l => by rw [decide_eq_true_eq]
  simp only [VgHead.set, VgSpecialText.setSize, VgSpecialText.setTextColor, VgSpecialText.setTextFlag, VgSpecialText.setFont, VgSpecialText.setAlign,
    VgSpecialText.setTextType, VgSpecialText.setEdgecolor, VgSpecialText.setFacecolor, guard_bind]
  constructor
  · rintro ⟨h1, h2, h3, h4, h5, h6, h7, h8, h9, h10⟩
    have h7 := (hm0 ec h2).1 h7
    have h8 := (hm0 fc h2).1 h8
    have h3 : sz ∈ fontSizes := h3
    rw [if_pos ((hdec _ _).mpr h3), if_pos ((hcol _).2 h2), if_pos ((hcol _).2 h2), if_pos ((hcol _).2 h2), if_pos (by rfl),
      if_pos (by have : fo ∈ fontCodes := h5
                 simp [this]), if_pos ((hdec _ _).mpr (hal.2 h6)), if_neg (by omega), if_pos (htype.2 h4), if_pos ((hcol _).2 h7), if_pos ((hcol _).2 h8)]
    unfold VgSpecialText.setTurbulence
    dsimp only
    rw [if_neg (by
      simp only [Bool.and_eq_true, Bool.or_eq_true, beq_iff_eq, Bool.not_eq_true', ← Bool.not_eq_true, inRange_iff]
      rintro ⟨h, h'⟩
      have := h9 h
      exact h' (by omega)), if_neg (by
      simp only [Bool.and_eq_true, beq_iff_eq, Bool.not_eq_true', ← Bool.not_eq_true, inRange_iff]
      rintro ⟨h, h'⟩
      have := h10 h
      exact h' (by omega))]
    exact ⟨_, rfl, ⟨rfl, rfl, rfl, rfl, rfl, rfl, rfl, rfl, rfl, least_one _, least_one _, greatest_one _, greatest_one _⟩, rfl, rfl, rfl, rfl, rfl,
      rfl, rfl, rfl, rfl, rfl, rfl, rfl, rfl, rfl, rfl, rfl⟩
  · intro hn
    by_cases h3 : decide (sz ∈ fontSizes) = true
    swap
    · rw [if_neg h3]; rfl
    rw [if_pos h3]
    by_cases h2 : inRange tc 0 33 = true
    swap
    · rw [if_neg h2]; rfl
    rw [if_pos h2, if_pos h2, if_pos h2, if_pos (by rfl)]
    by_cases h5 : fo ∈ fontCodes
    swap
    · rw [if_neg (by simp [h5])]; rfl
    rw [if_pos (by simp [h5])]
    by_cases h6 : decide (al ∈ ([-1, 0, 1] : List Int)) = true
    swap
    · rw [if_neg h6]; rfl
    rw [if_pos h6]
    by_cases h1 : text.length + 1 > 255
    · rw [if_pos h1]; rfl
    rw [if_neg h1]
    by_cases h4 : inRange tt 0 17 = true
    swap
    · rw [if_neg h4]; rfl
    rw [if_pos h4]
    by_cases h7 : inRange (ec.getD tc) 0 33 = true
    swap
    · rw [if_neg h7]; rfl
    rw [if_pos h7]
    by_cases h8 : inRange (fc.getD tc) 0 33 = true
    swap
    · rw [if_neg h8]; rfl
    rw [if_pos h8]
    have h3 := (hdec _ _).mp h3
    have h2 := (hcol _).1 h2
    have h6 := hal.1 ((hdec _ _).mp h6)
    have h4 := htype.1 h4
    have h7 := (hm0 ec h2).2 ((hcol _).1 h7)
    have h8 := (hm0 fc h2).2 ((hcol _).1 h8)
    unfold VgSpecialText.setTurbulence
    dsimp only
    by_cases h9 : ((tt == 7 || tt == 9) && !inRange tu 0 9) = true
    · rw [if_pos h9]; rfl
    rw [if_neg h9]
    by_cases h10 : (tt == 12 && !inRange tu 0 11) = true
    · rw [if_pos h10]; rfl
    simp only [Bool.and_eq_true, Bool.or_eq_true, beq_iff_eq, Bool.not_eq_true', ← Bool.not_eq_true, inRange_iff] at h9 h10
    refine absurd ⟨by omega, h2, h3, h4, h5, h6, h7, h8, ?_, ?_⟩ hn
    · intro h
      by_contra hc
      exact h9 ⟨h, by omega⟩
    · intro h
      by_contra hc
      exact h10 ⟨h, by omega⟩

/-! ## Theorems -/

/-- C90: a constructor accepts exactly the arguments of the table `Spec.Acceptable` and raises `ValueError` for all others. -/
theorem C90_accepts (n : VgNew) : (Spec.Acceptable n → ∃ e, VgElem.make n = .ok e) ∧ (¬ Spec.Acceptable n → VgElem.make n = .error .valueError) := by
  cases n with
  | line lon lat color lt cl fi sm w =>
    exact ⟨fun h => ((make_line _ _ _ _ _ _ _ _).1 h).imp fun _ h => h.1, (make_line _ _ _ _ _ _ _ _).2⟩
  | front lon lat fc mj mn sm ps st pd =>
    exact ⟨fun h => ((make_front _ _ _ _ _ _ _ _ _).1 h).imp fun _ h => h.1, (make_front _ _ _ _ _ _ _ _ _).2⟩
  | specialLine lon lat color lt cl fi st w sm sz d =>
    exact ⟨fun h => ((make_specialLine _ _ _ _ _ _ _ _ _ _ _).1 h).imp fun _ h => h.1, (make_specialLine _ _ _ _ _ _ _ _ _ _ _).2⟩
  | specialText lon lat text tc sz tt fo al ec fc ro ox oy tu =>
    exact ⟨fun h => ((make_text _ _ _ _ _ _ _ _ _ _ _ _ _ _).1 h).imp fun _ h => h.1, (make_text _ _ _ _ _ _ _ _ _ _ _ _ _ _).2⟩
  | specialSymbol lon lat code color w sz ox oy =>
    have := make_symbol 15 lon lat code color w sz ox oy
    refine ⟨fun h => ?_, fun h => ?_⟩
    · obtain ⟨s, hs, _⟩ := this.1 h
      exact ⟨.specialSymbol s, by unfold VgElem.make; dsimp only; rw [hs]; rfl⟩
    · unfold VgElem.make; dsimp only; rw [this.2 h]; rfl
  | marker lon lat code color w sz ox oy =>
    have := make_symbol 19 lon lat code color w sz ox oy
    refine ⟨fun h => ?_, fun h => ?_⟩
    · obtain ⟨s, hs, _⟩ := this.1 h
      exact ⟨.marker s, by unfold VgElem.make; dsimp only; rw [hs]; rfl⟩
    · unfold VgElem.make; dsimp only; rw [this.2 h]; rfl

/-- C90: an element has all arguments of its constructor, and the box of its points. -/
theorem C90_keeps (n : VgNew) (e : VgElem) (h : VgElem.make n = .ok e) : Spec.Made n e := by
  have ha : Spec.Acceptable n := by
    by_contra hc
    rw [(C90_accepts n).2 hc] at h
    cases h
  cases n with
  | line lon lat color lt cl fi sm w =>
    obtain ⟨e', h', hm⟩ := (make_line _ _ _ _ _ _ _ _).1 ha
    rw [h] at h'; rw [Except.ok.inj h']; exact hm
  | front lon lat fc mj mn sm ps st pd =>
    obtain ⟨e', h', hm⟩ := (make_front _ _ _ _ _ _ _ _ _).1 ha
    rw [h] at h'; rw [Except.ok.inj h']; exact hm
  | specialLine lon lat color lt cl fi st w sm sz d =>
    obtain ⟨e', h', hm⟩ := (make_specialLine _ _ _ _ _ _ _ _ _ _ _).1 ha
    rw [h] at h'; rw [Except.ok.inj h']; exact hm
  | specialText lon lat text tc sz tt fo al ec fc ro ox oy tu =>
    obtain ⟨e', h', hm⟩ := (make_text _ _ _ _ _ _ _ _ _ _ _ _ _ _).1 ha
    rw [h] at h'; rw [Except.ok.inj h']; exact hm
  | specialSymbol lon lat code color w sz ox oy =>
    obtain ⟨s, hs, hm⟩ := (make_symbol 15 lon lat code color w sz ox oy).1 ha
    unfold VgElem.make at h; dsimp only at h; rw [hs] at h
    rw [← Except.ok.inj h]; exact hm
  | marker lon lat code color w sz ox oy =>
    obtain ⟨s, hs, hm⟩ := (make_symbol 19 lon lat code color w sz ox oy).1 ha
    unfold VgElem.make at h; dsimp only at h; rw [hs] at h
    rw [← Except.ok.inj h]; exact hm

/-- C55: the height of a text in points is kept as a fraction of 14, to single precision. -/
theorem C55_text_size (p : Int) (hp : p ∈ ([10, 12, 14, 18, 24, 34] : List Int)) :
    ∃ x v, pointsToSize p = .ok x ∧ f32Value x = some v ∧ |v * 14 - p| ≤ p / 2 ^ 24 := by
  have key : ∀ i ∈ ([10, 12, 14, 18, 24, 34] : List Int), (match pointsToSize i with
      | .ok x => match f32Value x with | some v => decide (|v * 14 - i| ≤ (i : ℚ) / 2 ^ 24) | none => false
      | .error _ => false) = true := by decide +kernel
  have h := key p hp
  split at h
  · rename_i x hx
    split at h
    · rename_i v hv
      exact ⟨x, v, hx, hv, of_decide_eq_true h⟩
    · cases h
  · cases h

/-- C90 and C55: for any list of accepted constructor calls that the writer writes, the reader shows one element per call, in order, and each
is the table `Spec.dElem` of an element that has the arguments of its call. -/
theorem C90_read_back_partial {ν : Type} (env : VgEnv ν) (ns : List VgNew) (hns : ∀ n ∈ ns, Spec.Acceptable n)
    (hp : ∀ n ∈ ns, ∀ e, VgElem.make n = .ok e → Spec.Plain e) :
    ∃ es, List.Forall₂ (fun n e => VgElem.make n = .ok e ∧ Spec.Made n e) ns es ∧
      ∀ bytes, toVgf es = .ok bytes → ∃ s, openVgf env (ns.length + 1) bytes = .done s ∧ s.elements = es.map (Spec.dElem env) := by
  have hm : ∃ es, List.Forall₂ (fun n e => VgElem.make n = .ok e ∧ Spec.Made n e) ns es ∧ ∀ e ∈ es, Spec.Built e ∧ Spec.Plain e := by
    clear env
    induction ns with
    | nil => exact ⟨[], .nil, by simp⟩
    | cons n ns ih =>
      obtain ⟨es, h1, h2⟩ := ih (fun n hn => hns n (List.mem_cons_of_mem _ hn)) (fun n hn => hp n (List.mem_cons_of_mem _ hn))
      obtain ⟨e, he⟩ := (C90_accepts n).1 (hns n List.mem_cons_self)
      refine ⟨e :: es, .cons ⟨he, C90_keeps n e he⟩ h1, ?_⟩
      intro a ha
      rcases List.mem_cons.1 ha with rfl | ha
      · exact ⟨⟨n, a, [], he, rfl⟩, hp n List.mem_cons_self a he⟩
      · exact h2 a ha
  obtain ⟨es, h1, h2⟩ := hm
  refine ⟨es, h1, fun bytes hb => ?_⟩
  obtain ⟨g, hg⟩ := C55_fields_partial env es h2 bytes hb (ns.length + 1) (by rw [h1.length_eq])
  exact ⟨_, hg, rfl⟩

/-- A closed line of three points, with its box. -/
example : ∃ e, VgElem.make (.line [0x3F800000#32, 0xC0000000#32, 0x40400000#32] [0x40400000#32, 0x3F800000#32, 0x40000000#32] 5 1 1 0 1 3) = .ok e ∧
    e.head.minLon = 0xC0000000#32 ∧ e.head.maxLon = 0x40400000#32 ∧ e.head.minLat = 0x3F800000#32 ∧ e.head.maxLat = 0x40400000#32 :=
  ⟨_, rfl, by decide +kernel⟩

/-- Calls that are acceptable, and calls that are not. -/
example : Spec.Acceptable (.line [0x3F800000#32, 0x40000000#32] [0x40400000#32, 0x3F800000#32] 5 1 0 0 1 3) ∧
    ¬ Spec.Acceptable (.line [0x3F800000#32] [0x40400000#32] 5 1 0 0 1 3) ∧
    ¬ Spec.Acceptable (.specialText 0 0 (List.replicate 255 'a') 1 14 0 1 0 none none 0 0 0 0) := by
  refine ⟨?_, ?_, ?_⟩
  · simp [Spec.Acceptable, Spec.Track, Spec.Colour]
  · simp [Spec.Acceptable, Spec.Track]
  · rintro ⟨h, _⟩
    rw [List.length_replicate] at h
    omega

/-- C90 is false for symbols and markers: they are made with any symbol code, width and size, although the setters refuse these. -/
theorem C90_unchecked (lon lat : F32) (code color w : Int) (sz : F32) (ox oy : Int) (hc : Spec.Colour color) :
    (∃ s, VgElem.make (.marker lon lat code color w sz ox oy) = .ok (.marker s) ∧ s.symbolCode = code ∧ s.width = w ∧ s.size = sz ∧
      (code < 1 ∨ 24 < code → (VgElem.marker s).set (.symbolCode code) = .error .valueError) ∧
      (w < 1 ∨ 10 < w → (VgElem.marker s).set (.width w) = .error .valueError)) ∧
    ∃ s, VgElem.make (.specialSymbol lon lat code color w sz ox oy) = .ok (.specialSymbol s) ∧ s.symbolCode = code ∧ s.width = w ∧ s.size = sz ∧
      (code < 1 ∨ 41 < code → (VgElem.specialSymbol s).set (.symbolCode code) = .error .valueError) ∧
      (w < 1 ∨ 10 < w → (VgElem.specialSymbol s).set (.width w) = .error .valueError) := by
  constructor
  · obtain ⟨s, hs, -⟩ := (make_symbol 19 lon lat code color w sz ox oy).1 hc
    have hm : VgElem.make (.marker lon lat code color w sz ox oy) = .ok (.marker s) := by
      unfold VgElem.make; dsimp only; rw [hs]; rfl
    have := C90_keeps _ _ hm
    simp only [Spec.Made] at this
    refine ⟨s, hm, by tauto, by tauto, by tauto, fun h => ?_, fun h => ?_⟩
    · show (VgSymbol.setCode 24 s code).map VgElem.marker = _
      rw [VgSymbol.setCode, guardSet, if_neg (by rw [decide_eq_true_eq]; omega)]; rfl
    · show (VgSymbol.setWidth s w).map VgElem.marker = _
      rw [VgSymbol.setWidth, guardSet, if_neg (by rw [decide_eq_true_eq]; omega)]; rfl
  · obtain ⟨s, hs, -⟩ := (make_symbol 15 lon lat code color w sz ox oy).1 hc
    have hm : VgElem.make (.specialSymbol lon lat code color w sz ox oy) = .ok (.specialSymbol s) := by
      unfold VgElem.make; dsimp only; rw [hs]; rfl
    have := C90_keeps _ _ hm
    simp only [Spec.Made] at this
    refine ⟨s, hm, by tauto, by tauto, by tauto, fun h => ?_, fun h => ?_⟩
    · show (VgSymbol.setCode 41 s code).map VgElem.specialSymbol = _
      rw [VgSymbol.setCode, guardSet, if_neg (by rw [decide_eq_true_eq]; omega)]; rfl
    · show (VgSymbol.setWidth s w).map VgElem.specialSymbol = _
      rw [VgSymbol.setWidth, guardSet, if_neg (by rw [decide_eq_true_eq]; omega)]; rfl

end Gempak
