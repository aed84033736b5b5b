import Verif.Props.VgfMake
import Mathlib.Tactic.Tauto

/-!
# C56: every setter of every kind of element
-/

namespace Gempak

/-- Attributes of elements. -/
inductive Spec.Attr where
  | closed | filled | smooth | groupType | groupNumber | majorColor | minorColor | width | lineType | frontCode | frontType | frontIntensity
  | frontCharacter | pipSize | pipStroke | pipDirection | direction | stroke | size | textSize | textColor | textFlag | font | align | rotation
  | offsetX | offsetY | textType | edgecolor | facecolor | turbulence | symbolCode
  deriving DecidableEq

/-- Value of an attribute. -/
inductive Spec.Value where
  | int (i : Int) | flt (x : F32)
  deriving DecidableEq

/-- Attributes of the header. -/
def Spec.headValue (h : VgHead) : Spec.Attr → Option Spec.Value
  | .closed => some (.int h.closed) | .filled => some (.int h.filled) | .smooth => some (.int h.smooth)
  | .groupType => some (.int h.groupType) | .groupNumber => some (.int h.groupNumber) | .majorColor => some (.int h.majorColor)
  | .minorColor => some (.int h.minorColor) | _ => none

/-- The value of an attribute of an element, `none` where the kind of element has no such attribute. -/
def Spec.value : VgElem → Spec.Attr → Option Spec.Value
  | .fileHeader h _ _, a => Spec.headValue h a
  | .line l, .width => some (.int l.base.width) | .line l, .lineType => some (.int l.lineType) | .line l, a => Spec.headValue l.base.head a
  | .front f, .width => some (.int f.width) | .front f, .frontCode => some (.int f.frontCode) | .front f, .frontType => some (.int f.frontType)
  | .front f, .frontIntensity => some (.int f.frontIntensity) | .front f, .frontCharacter => some (.int f.frontCharacter)
  | .front f, .pipSize => some (.int f.pipSize) | .front f, .pipStroke => some (.int f.pipStroke)
  | .front f, .pipDirection => some (.int f.pipDirection) | .front f, a => Spec.headValue f.head a
  | .specialLine l, .width => some (.int l.base.width) | .specialLine l, .lineType => some (.int l.lineType)
  | .specialLine l, .stroke => some (.int l.stroke) | .specialLine l, .direction => some (.int l.direction)
  | .specialLine l, .size => some (.flt l.size) | .specialLine l, a => Spec.headValue l.base.head a
  | .specialText t, .width => some (.int t.width) | .specialText t, .textSize => some (.int t.size)
  | .specialText t, .textColor => some (.int t.textColor) | .specialText t, .textFlag => some (.int t.textFlag)
  | .specialText t, .font => some (.int t.font) | .specialText t, .align => some (.int t.align) | .specialText t, .rotation => some (.flt t.rotation)
  | .specialText t, .offsetX => some (.int t.offsetX) | .specialText t, .offsetY => some (.int t.offsetY)
  | .specialText t, .textType => some (.int t.textType) | .specialText t, .edgecolor => some (.int t.edgecolor)
  | .specialText t, .facecolor => some (.int t.facecolor) | .specialText t, .turbulence => some (.int t.turbulenceSymbol)
  | .specialText t, a => Spec.headValue t.head a
  | .specialSymbol s, .width => some (.int s.width) | .specialSymbol s, .size => some (.flt s.size)
  | .specialSymbol s, .symbolCode => some (.int s.symbolCode) | .specialSymbol s, .offsetX => some (.int s.offsetX)
  | .specialSymbol s, .offsetY => some (.int s.offsetY) | .specialSymbol s, a => Spec.headValue s.head a
  | .marker s, .width => some (.int s.width) | .marker s, .size => some (.flt s.size) | .marker s, .symbolCode => some (.int s.symbolCode)
  | .marker s, .offsetX => some (.int s.offsetX) | .marker s, .offsetY => some (.int s.offsetY) | .marker s, a => Spec.headValue s.head a

/-- What a call assigns; `flip` assigns no given value. -/
def Spec.target : VgSet → Option (Spec.Attr × Spec.Value)
  | .head (.closed v) => some (.closed, .int v) | .head (.filled v) => some (.filled, .int v) | .head (.smooth v) => some (.smooth, .int v)
  | .head (.groupType v) => some (.groupType, .int v) | .head (.groupNumber v) => some (.groupNumber, .int v)
  | .head (.majorColor v) => some (.majorColor, .int v) | .head (.minorColor v) => some (.minorColor, .int v)
  | .width v => some (.width, .int v) | .lineType v => some (.lineType, .int v) | .frontCode v => some (.frontCode, .int v)
  | .pipSize v => some (.pipSize, .int v) | .pipStroke v => some (.pipStroke, .int v) | .pipDirection v => some (.pipDirection, .int v)
  | .direction v => some (.direction, .int v) | .flip => none | .size v => some (.size, .flt v) | .points v => some (.textSize, .int v)
  | .textColor v => some (.textColor, .int v) | .textFlag v => some (.textFlag, .int v) | .font v => some (.font, .int v)
  | .align v => some (.align, .int v) | .rotation v => some (.rotation, .flt v) | .offsetX v => some (.offsetX, .int v)
  | .offsetY v => some (.offsetY, .int v) | .textType v => some (.textType, .int v) | .edgecolor v => some (.edgecolor, .int v)
  | .facecolor v => some (.facecolor, .int v) | .turbulence v => some (.turbulence, .int v) | .symbolCode v => some (.symbolCode, .int v)

/-- Values that the class of an element accepts for an attribute it has. -/
def Spec.Allowed : VgElem → Spec.Attr → Spec.Value → Prop
  | _, .closed, .int v => v = 0 ∨ v = 1
  | _, .filled, .int v => 0 ≤ v ∧ v ≤ 8
  | _, .smooth, .int v => 0 ≤ v ∧ v ≤ 2
  | _, .groupType, .int v | _, .groupNumber, .int v => 0 ≤ v
  | _, .majorColor, .int v | _, .minorColor, .int v | _, .textColor, .int v | _, .edgecolor, .int v | _, .facecolor, .int v => 0 ≤ v ∧ v ≤ 32
  | .front _, .width, .int v => 1 ≤ v ∧ v ≤ 8
  | .specialText _, .width, .int _ => True
  | _, .width, .int v => 1 ≤ v ∧ v ≤ 10
  | .line _, .lineType, .int v => 0 ≤ v ∧ v ≤ 99
  | _, .lineType, .int v => 1 ≤ v ∧ v ≤ 26
  | _, .frontCode, .int v => 0 ≤ v ∧ v ≤ 999
  | _, .pipSize, .int v => 40 ≤ v ∧ v ≤ 500
  | _, .pipStroke, .int v => 1 ≤ v
  | _, .pipDirection, .int v | _, .direction, .int v => v = 1 ∨ v = -1
  | _, .size, .flt v => Spec.SizeOk v
  | _, .textSize, .int v => v ∈ ([10, 12, 14, 18, 24, 34] : List Int)
  | _, .textFlag, .int v => v = 1 ∨ v = 2
  | .specialText t, .font, .int v => t.textFlag = 2 → v ∈ ([1, 2, 3, 11, 12, 13, 21, 22, 23, 31, 32, 33] : List Int)
  | _, .align, .int v => -1 ≤ v ∧ v ≤ 1
  | _, .textType, .int v => 0 ≤ v ∧ v ≤ 16
  | .specialText t, .turbulence, .int v => (t.textType = 7 ∨ t.textType = 9 → 0 ≤ v ∧ v ≤ 8) ∧ (t.textType = 12 → 0 ≤ v ∧ v ≤ 10)
  | .marker _, .symbolCode, .int v => 1 ≤ v ∧ v ≤ 24
  | _, .symbolCode, .int v => 1 ≤ v ∧ v ≤ 41
  | _, _, _ => True

/-- Attributes tied to another one: the digits of a front code, its width, and the symbol of turbulence, which a new text type resets. -/
def Spec.tied : VgElem → Spec.Attr → List Spec.Attr
  | .front _, .width => [.frontCode, .frontType, .frontIntensity, .frontCharacter]
  | .front _, .frontCode => [.width, .frontType, .frontIntensity, .frontCharacter]
  | .specialText _, .textType => [.turbulence]
  | _, _ => []

theorem guardSet_cases {α : Type} (b : Bool) (a : α) : (b = true ∧ guardSet b a = .ok a) ∨ (b = false ∧ guardSet b a = .error .valueError) := by
  unfold guardSet
  cases b
  · exact Or.inr ⟨rfl, rfl⟩
  · exact Or.inl ⟨rfl, rfl⟩

/-- The claim about one call on one element. -/
def SetsWell (e : VgElem) (s : VgSet) : Prop := ∀ a v, Spec.target s = some (a, v) → (Spec.value e a).isSome →
  (Spec.Allowed e a v → ∃ e', e.step s = (e', none) ∧ Spec.value e' a = some v ∧
    ∀ b, b ≠ a → b ∉ Spec.tied e a → Spec.value e' b = Spec.value e b) ∧
  (¬ Spec.Allowed e a v → e.step s = (e, some .valueError))

theorem setsWell_guard {e e' : VgElem} {s : VgSet} {b : Bool} {a : Spec.Attr} {v : Spec.Value} (ht : Spec.target s = some (a, v))
    (he : e.set s = guardSet b e') (hb : b = true ↔ Spec.Allowed e a v) (hv : Spec.value e' a = some v)
    (ho : ∀ c, c ≠ a → c ∉ Spec.tied e a → Spec.value e' c = Spec.value e c) : SetsWell e s := by
  intro a' v' ht' _
  rw [ht] at ht'
  obtain ⟨rfl, rfl⟩ := Prod.mk.inj (Option.some.inj ht')
  rcases guardSet_cases b e' with ⟨h1, h2⟩ | ⟨h1, h2⟩
  · refine ⟨fun _ => ⟨e', ?_, hv, ho⟩, fun hn => absurd (hb.1 h1) hn⟩
    unfold VgElem.step
    rw [he, h2]
  · refine ⟨fun h => ?_, fun _ => ?_⟩
    · rw [hb.2 h] at h1; cases h1
    · unfold VgElem.step
      rw [he, h2]

theorem guardSet_map {α β : Type} (b : Bool) (a : α) (f : α → β) : (guardSet b a).map f = guardSet b (f a) := by
  unfold guardSet
  cases b <;> rfl

theorem guardSet_bind {α β : Type} (b : Bool) (a : α) (f : α → β) : (guardSet b a >>= fun x => (.ok (f x) : Except PyErr β)) = guardSet b (f a) := by
  unfold guardSet
  cases b <;> rfl

/-- The element with another header. -/
def withHead : VgElem → VgHead → VgElem
  | .fileHeader _ v n, h => .fileHeader h v n
  | .line l, h => .line { l with base := { l.base with head := h } }
  | .front f, h => .front { f with head := h }
  | .specialLine l, h => .specialLine { l with base := { l.base with head := h } }
  | .specialText t, h => .specialText { t with head := h }
  | .specialSymbol s, h => .specialSymbol { s with head := h }
  | .marker s, h => .marker { s with head := h }

theorem set_head (e : VgElem) (s : HeadSet) : e.set (.head s) = (e.head.set s).map (withHead e) := by
  cases e
  case fileHeader h v n => show (do .ok (VgElem.fileHeader (← h.set s) v n)) = (h.set s).map _; cases h.set s <;> rfl
  case line l => show Except.map _ (do .ok { l with base := { l.base with head := ← l.base.head.set s } }) = (l.base.head.set s).map _; cases l.base.head.set s <;> rfl
  case front f => show Except.map _ (do .ok { f with head := ← f.head.set s }) = (f.head.set s).map _; cases f.head.set s <;> rfl
  case specialLine l => show Except.map _ (do .ok { l with base := { l.base with head := ← l.base.head.set s } }) = (l.base.head.set s).map _; cases l.base.head.set s <;> rfl
  case specialText f => show Except.map _ (do .ok { f with head := ← f.head.set s }) = (f.head.set s).map _; cases f.head.set s <;> rfl
  case specialSymbol f => show Except.map _ (do .ok { f with head := ← f.head.set s }) = (f.head.set s).map _; cases f.head.set s <;> rfl
  case marker f => show Except.map _ (do .ok { f with head := ← f.head.set s }) = (f.head.set s).map _; cases f.head.set s <;> rfl

theorem head_guard {e : VgElem} {s : HeadSet} {b : Bool} {h : VgHead} (hs : e.head.set s = guardSet b h) :
    e.set (.head s) = guardSet b (withHead e h) := by
  rw [set_head, hs, guardSet_map]

theorem value_head (e : VgElem) (a : Spec.Attr) (h : (Spec.headValue e.head a).isSome) : Spec.value e a = Spec.headValue e.head a := by
  cases e <;> cases a <;> first | rfl | cases h

theorem value_other (e : VgElem) (h : VgHead) (a : Spec.Attr) (ha : Spec.headValue h a = Spec.headValue e.head a) :
    Spec.value (withHead e h) a = Spec.value e a := by
  cases e <;> cases a <;> first | rfl | exact ha

theorem head_withHead (e : VgElem) (h : VgHead) : (withHead e h).head = h := by cases e <;> rfl

/-- Setters of the header, on any element. -/
theorem head_setsWell (e : VgElem) (s : HeadSet) : SetsWell e (.head s) := by
  cases s
  case closed v =>
    refine setsWell_guard (b := (v == 0 || v == 1)) (e' := withHead e { e.head with closed := v }) rfl (head_guard rfl) ?_ ?_ ?_
    · simp only [inRange_iff, Bool.or_eq_true, beq_iff_eq, decide_eq_true_eq]
      show _ ↔ Spec.Allowed e .closed (.int v)
      cases e <;> (simp only [Spec.Allowed]; try omega)
    · rw [value_head _ _ (by rw [head_withHead]; rfl), head_withHead]; rfl
    · intro c hc _
      refine value_other e _ c ?_
      cases c <;> first | rfl | exact absurd rfl hc
  case filled v =>
    refine setsWell_guard (b := inRange v 0 9) (e' := withHead e { e.head with filled := v }) rfl (head_guard rfl) ?_ ?_ ?_
    · simp only [inRange_iff, Bool.or_eq_true, beq_iff_eq, decide_eq_true_eq]
      show _ ↔ Spec.Allowed e .filled (.int v)
      cases e <;> (simp only [Spec.Allowed]; try omega)
    · rw [value_head _ _ (by rw [head_withHead]; rfl), head_withHead]; rfl
    · intro c hc _
      refine value_other e _ c ?_
      cases c <;> first | rfl | exact absurd rfl hc
  case smooth v =>
    refine setsWell_guard (b := inRange v 0 3) (e' := withHead e { e.head with smooth := v }) rfl (head_guard rfl) ?_ ?_ ?_
    · simp only [inRange_iff, Bool.or_eq_true, beq_iff_eq, decide_eq_true_eq]
      show _ ↔ Spec.Allowed e .smooth (.int v)
      cases e <;> (simp only [Spec.Allowed]; try omega)
    · rw [value_head _ _ (by rw [head_withHead]; rfl), head_withHead]; rfl
    · intro c hc _
      refine value_other e _ c ?_
      cases c <;> first | rfl | exact absurd rfl hc
  case groupType v =>
    refine setsWell_guard (b := decide (¬ v < 0)) (e' := withHead e { e.head with groupType := v }) rfl (head_guard rfl) ?_ ?_ ?_
    · simp only [inRange_iff, Bool.or_eq_true, beq_iff_eq, decide_eq_true_eq]
      show _ ↔ Spec.Allowed e .groupType (.int v)
      cases e <;> (simp only [Spec.Allowed]; try omega)
    · rw [value_head _ _ (by rw [head_withHead]; rfl), head_withHead]; rfl
    · intro c hc _
      refine value_other e _ c ?_
      cases c <;> first | rfl | exact absurd rfl hc
  case groupNumber v =>
    refine setsWell_guard (b := decide (¬ v < 0)) (e' := withHead e { e.head with groupNumber := v }) rfl (head_guard rfl) ?_ ?_ ?_
    · simp only [inRange_iff, Bool.or_eq_true, beq_iff_eq, decide_eq_true_eq]
      show _ ↔ Spec.Allowed e .groupNumber (.int v)
      cases e <;> (simp only [Spec.Allowed]; try omega)
    · rw [value_head _ _ (by rw [head_withHead]; rfl), head_withHead]; rfl
    · intro c hc _
      refine value_other e _ c ?_
      cases c <;> first | rfl | exact absurd rfl hc
  case majorColor v =>
    refine setsWell_guard (b := inRange v 0 33) (e' := withHead e { e.head with majorColor := v }) rfl (head_guard rfl) ?_ ?_ ?_
    · simp only [inRange_iff, Bool.or_eq_true, beq_iff_eq, decide_eq_true_eq]
      show _ ↔ Spec.Allowed e .majorColor (.int v)
      cases e <;> (simp only [Spec.Allowed]; try omega)
    · rw [value_head _ _ (by rw [head_withHead]; rfl), head_withHead]; rfl
    · intro c hc _
      refine value_other e _ c ?_
      cases c <;> first | rfl | exact absurd rfl hc
  case minorColor v =>
    refine setsWell_guard (b := inRange v 0 33) (e' := withHead e { e.head with minorColor := v }) rfl (head_guard rfl) ?_ ?_ ?_
    · simp only [inRange_iff, Bool.or_eq_true, beq_iff_eq, decide_eq_true_eq]
      show _ ↔ Spec.Allowed e .minorColor (.int v)
      cases e <;> (simp only [Spec.Allowed]; try omega)
    · rw [value_head _ _ (by rw [head_withHead]; rfl), head_withHead]; rfl
    · intro c hc _
      refine value_other e _ c ?_
      cases c <;> first | rfl | exact absurd rfl hc

theorem line_setsWell (l : VgLine) (s : VgSet) : SetsWell (.line l) s := by
  cases s
  case head s => exact head_setsWell _ s
  case flip => intro a v h; cases h
  case width v =>
    refine setsWell_guard (b := decide (¬ (v < 1 ∨ v > 10))) (e' := .line { l with base := { l.base with width := v } }) rfl ?_ ?_ rfl ?_
    · exact (congrArg (Except.map VgElem.line) (guardSet_bind _ _ _)).trans (guardSet_map _ _ _)
    · simp only [inRange_iff, Bool.or_eq_true, beq_iff_eq, decide_eq_true_eq, Spec.Allowed, Bool.not_eq_true', sizeOk_iff]
      try omega
    · intro c hc ht
      cases c <;> first | rfl | exact absurd rfl hc | exact absurd (by simp [Spec.tied]) ht
  case lineType v =>
    refine setsWell_guard (b := decide (¬ (v < 0 ∨ v > 99))) (e' := .line { l with lineType := v }) rfl ?_ ?_ rfl ?_
    · exact guardSet_map _ _ _
    · simp only [inRange_iff, Bool.or_eq_true, beq_iff_eq, decide_eq_true_eq, Spec.Allowed, Bool.not_eq_true', sizeOk_iff]
      try omega
    · intro c hc ht
      cases c <;> first | rfl | exact absurd rfl hc | exact absurd (by simp [Spec.tied]) ht
  all_goals
    intro a v h hs
    obtain ⟨rfl, rfl⟩ := Prod.mk.inj (Option.some.inj h)
    cases hs

theorem specialLine_setsWell (l : VgSpecialLine) (s : VgSet) : SetsWell (.specialLine l) s := by
  cases s
  case head s => exact head_setsWell _ s
  case flip => intro a v h; cases h
  case width v =>
    refine setsWell_guard (b := decide (¬ (v < 1 ∨ v > 10))) (e' := .specialLine { l with base := { l.base with width := v } }) rfl ?_ ?_ rfl ?_
    · exact (congrArg (Except.map VgElem.specialLine) (guardSet_bind _ _ _)).trans (guardSet_map _ _ _)
    · simp only [inRange_iff, Bool.or_eq_true, beq_iff_eq, decide_eq_true_eq, Spec.Allowed, Bool.not_eq_true', sizeOk_iff]
      try omega
    · intro c hc ht
      cases c <;> first | rfl | exact absurd rfl hc | exact absurd (by simp [Spec.tied]) ht
  case lineType v =>
    refine setsWell_guard (b := inRange v 1 27) (e' := .specialLine { l with lineType := v }) rfl ?_ ?_ rfl ?_
    · exact guardSet_map _ _ _
    · simp only [inRange_iff, Bool.or_eq_true, beq_iff_eq, decide_eq_true_eq, Spec.Allowed, Bool.not_eq_true', sizeOk_iff]
      try omega
    · intro c hc ht
      cases c <;> first | rfl | exact absurd rfl hc | exact absurd (by simp [Spec.tied]) ht
  case direction v =>
    refine setsWell_guard (b := (v == 1 || v == -1)) (e' := .specialLine { l with direction := v }) rfl ?_ ?_ rfl ?_
    · exact guardSet_map _ _ _
    · simp only [inRange_iff, Bool.or_eq_true, beq_iff_eq, decide_eq_true_eq, Spec.Allowed, Bool.not_eq_true', sizeOk_iff]
      try omega
    · intro c hc ht
      cases c <;> first | rfl | exact absurd rfl hc | exact absurd (by simp [Spec.tied]) ht
  case size v =>
    refine setsWell_guard (b := !badSize v) (e' := .specialLine { l with size := v }) rfl ?_ ?_ rfl ?_
    · exact guardSet_map _ _ _
    · simp only [inRange_iff, Bool.or_eq_true, beq_iff_eq, decide_eq_true_eq, Spec.Allowed, Bool.not_eq_true', sizeOk_iff]
      try omega
    · intro c hc ht
      cases c <;> first | rfl | exact absurd rfl hc | exact absurd (by simp [Spec.tied]) ht
  all_goals
    intro a v h hs
    obtain ⟨rfl, rfl⟩ := Prod.mk.inj (Option.some.inj h)
    cases hs

theorem specialText_setsWell (t : VgSpecialText) (s : VgSet) : SetsWell (.specialText t) s := by
  cases s
  case head s => exact head_setsWell _ s
  case flip => intro a v h; cases h
  case points v =>
    refine setsWell_guard (b := decide (v ∈ fontSizes)) (e' := .specialText { t with size := v }) rfl ?_ ?_ rfl ?_
    · exact guardSet_map _ _ _
    · simp [Spec.Allowed, fontSizes, fontCodes]
    · intro c hc ht
      cases c <;> first | rfl | exact absurd rfl hc | exact absurd (by simp [Spec.tied]) ht
  case textColor v =>
    refine setsWell_guard (b := inRange v 0 33) (e' := .specialText { t with textColor := v }) rfl ?_ ?_ rfl ?_
    · exact guardSet_map _ _ _
    · simp only [inRange_iff, Bool.or_eq_true, beq_iff_eq, decide_eq_true_eq, Spec.Allowed, Bool.not_eq_true', sizeOk_iff]
      try omega
    · intro c hc ht
      cases c <;> first | rfl | exact absurd rfl hc | exact absurd (by simp [Spec.tied]) ht
  case textFlag v =>
    refine setsWell_guard (b := (v == 1 || v == 2)) (e' := .specialText { t with textFlag := v }) rfl ?_ ?_ rfl ?_
    · exact guardSet_map _ _ _
    · simp only [inRange_iff, Bool.or_eq_true, beq_iff_eq, decide_eq_true_eq, Spec.Allowed, Bool.not_eq_true', sizeOk_iff]
      try omega
    · intro c hc ht
      cases c <;> first | rfl | exact absurd rfl hc | exact absurd (by simp [Spec.tied]) ht
  case font v =>
    refine setsWell_guard (b := !(decide (t.textFlag = 2) && !decide (v ∈ fontCodes))) (e' := .specialText { t with font := v }) rfl ?_ ?_ rfl ?_
    · exact guardSet_map _ _ _
    · simp [Spec.Allowed, fontSizes, fontCodes]
      tauto
    · intro c hc ht
      cases c <;> first | rfl | exact absurd rfl hc | exact absurd (by simp [Spec.tied]) ht
  case align v =>
    refine setsWell_guard (b := decide (v ∈ ([-1, 0, 1] : List Int))) (e' := .specialText { t with align := v }) rfl ?_ ?_ rfl ?_
    · exact guardSet_map _ _ _
    · simp [Spec.Allowed]; omega
    · intro c hc ht
      cases c <;> first | rfl | exact absurd rfl hc | exact absurd (by simp [Spec.tied]) ht
  case textType v =>
    refine setsWell_guard (b := inRange v 0 17) (e' := .specialText { t with textType := v, turbulenceSymbol := 0 }) rfl ?_ ?_ rfl ?_
    · exact guardSet_map _ _ _
    · simp only [inRange_iff, Bool.or_eq_true, beq_iff_eq, decide_eq_true_eq, Spec.Allowed, Bool.not_eq_true', sizeOk_iff]
      try omega
    · intro c hc ht
      cases c <;> first | rfl | exact absurd rfl hc | exact absurd (by simp [Spec.tied]) ht
  case edgecolor v =>
    refine setsWell_guard (b := inRange v 0 33) (e' := .specialText { t with edgecolor := v }) rfl ?_ ?_ rfl ?_
    · exact guardSet_map _ _ _
    · simp only [inRange_iff, Bool.or_eq_true, beq_iff_eq, decide_eq_true_eq, Spec.Allowed, Bool.not_eq_true', sizeOk_iff]
      try omega
    · intro c hc ht
      cases c <;> first | rfl | exact absurd rfl hc | exact absurd (by simp [Spec.tied]) ht
  case facecolor v =>
    refine setsWell_guard (b := inRange v 0 33) (e' := .specialText { t with facecolor := v }) rfl ?_ ?_ rfl ?_
    · exact guardSet_map _ _ _
    · simp only [inRange_iff, Bool.or_eq_true, beq_iff_eq, decide_eq_true_eq, Spec.Allowed, Bool.not_eq_true', sizeOk_iff]
      try omega
    · intro c hc ht
      cases c <;> first | rfl | exact absurd rfl hc | exact absurd (by simp [Spec.tied]) ht
  case width v =>
    refine setsWell_guard (b := true) (e' := .specialText { t with width := v }) rfl ?_ ?_ rfl ?_
    · rfl
    · simp [Spec.Allowed]
    · intro c hc ht
      cases c <;> first | rfl | exact absurd rfl hc | exact absurd (by simp [Spec.tied]) ht
  case rotation v =>
    refine setsWell_guard (b := true) (e' := .specialText { t with rotation := v }) rfl ?_ ?_ rfl ?_
    · rfl
    · simp [Spec.Allowed]
    · intro c hc ht
      cases c <;> first | rfl | exact absurd rfl hc | exact absurd (by simp [Spec.tied]) ht
  case offsetX v =>
    refine setsWell_guard (b := true) (e' := .specialText { t with offsetX := v }) rfl ?_ ?_ rfl ?_
    · rfl
    · simp [Spec.Allowed]
    · intro c hc ht
      cases c <;> first | rfl | exact absurd rfl hc | exact absurd (by simp [Spec.tied]) ht
  case offsetY v =>
    refine setsWell_guard (b := true) (e' := .specialText { t with offsetY := v }) rfl ?_ ?_ rfl ?_
    · rfl
    · simp [Spec.Allowed]
    · intro c hc ht
      cases c <;> first | rfl | exact absurd rfl hc | exact absurd (by simp [Spec.tied]) ht
  case turbulence v =>
    refine setsWell_guard (b := !(((t.textType == 7 || t.textType == 9) && !inRange v 0 9) || (t.textType == 12 && !inRange v 0 11)))
      (e' := .specialText { t with turbulenceSymbol := v }) rfl ?_ ?_ rfl ?_
    · show Except.map _ (VgSpecialText.setTurbulence t v) = _
      unfold VgSpecialText.setTurbulence
      generalize ((t.textType == 7 || t.textType == 9) && !inRange v 0 9) = x
      generalize (t.textType == 12 && !inRange v 0 11) = y
      cases x <;> cases y <;> rfl
    · show _ ↔ ((t.textType = 7 ∨ t.textType = 9 → 0 ≤ v ∧ v ≤ 8) ∧ (t.textType = 12 → 0 ≤ v ∧ v ≤ 10))
      by_cases h7 : t.textType = 7
      · simp [h7, inRange]; omega
      · by_cases h9 : t.textType = 9
        · simp [h9, inRange]; omega
        · by_cases h12 : t.textType = 12
          · simp [h12, inRange]; omega
          · simp [h7, h9, h12]
    · intro c hc ht
      cases c <;> first | rfl | exact absurd rfl hc
  all_goals
    intro a v h hs
    obtain ⟨rfl, rfl⟩ := Prod.mk.inj (Option.some.inj h)
    cases hs

theorem symbol_setsWell (y : VgSymbol) (s : VgSet) : SetsWell (.specialSymbol y) s := by
  cases s
  case head s => exact head_setsWell _ s
  case flip => intro a v h; cases h
  case width v =>
    refine setsWell_guard (b := decide (¬ (v < 1 ∨ v > 10))) (e' := .specialSymbol { y with width := v }) rfl ?_ ?_ rfl ?_
    · exact guardSet_map _ _ _
    · simp only [inRange_iff, Bool.or_eq_true, beq_iff_eq, decide_eq_true_eq, Spec.Allowed, Bool.not_eq_true', sizeOk_iff]
      try omega
    · intro c hc ht
      cases c <;> first | rfl | exact absurd rfl hc | exact absurd (by simp [Spec.tied]) ht
  case size v =>
    refine setsWell_guard (b := !badSize v) (e' := .specialSymbol { y with size := v }) rfl ?_ ?_ rfl ?_
    · exact guardSet_map _ _ _
    · simp only [inRange_iff, Bool.or_eq_true, beq_iff_eq, decide_eq_true_eq, Spec.Allowed, Bool.not_eq_true', sizeOk_iff]
      try omega
    · intro c hc ht
      cases c <;> first | rfl | exact absurd rfl hc | exact absurd (by simp [Spec.tied]) ht
  case symbolCode v =>
    refine setsWell_guard (b := decide (¬ (v < 1 ∨ v > 41))) (e' := .specialSymbol { y with symbolCode := v }) rfl ?_ ?_ rfl ?_
    · exact guardSet_map _ _ _
    · simp only [inRange_iff, Bool.or_eq_true, beq_iff_eq, decide_eq_true_eq, Spec.Allowed, Bool.not_eq_true', sizeOk_iff]
      try omega
    · intro c hc ht
      cases c <;> first | rfl | exact absurd rfl hc | exact absurd (by simp [Spec.tied]) ht
  case offsetX v =>
    refine setsWell_guard (b := true) (e' := .specialSymbol { y with offsetX := v }) rfl ?_ ?_ rfl ?_
    · rfl
    · simp [Spec.Allowed]
    · intro c hc ht
      cases c <;> first | rfl | exact absurd rfl hc | exact absurd (by simp [Spec.tied]) ht
  case offsetY v =>
    refine setsWell_guard (b := true) (e' := .specialSymbol { y with offsetY := v }) rfl ?_ ?_ rfl ?_
    · rfl
    · simp [Spec.Allowed]
    · intro c hc ht
      cases c <;> first | rfl | exact absurd rfl hc | exact absurd (by simp [Spec.tied]) ht
  all_goals
    intro a v h hs
    obtain ⟨rfl, rfl⟩ := Prod.mk.inj (Option.some.inj h)
    cases hs

theorem marker_setsWell (y : VgSymbol) (s : VgSet) : SetsWell (.marker y) s := by
  cases s
  case head s => exact head_setsWell _ s
  case flip => intro a v h; cases h
  case width v =>
    refine setsWell_guard (b := decide (¬ (v < 1 ∨ v > 10))) (e' := .marker { y with width := v }) rfl ?_ ?_ rfl ?_
    · exact guardSet_map _ _ _
    · simp only [inRange_iff, Bool.or_eq_true, beq_iff_eq, decide_eq_true_eq, Spec.Allowed, Bool.not_eq_true', sizeOk_iff]
      try omega
    · intro c hc ht
      cases c <;> first | rfl | exact absurd rfl hc | exact absurd (by simp [Spec.tied]) ht
  case size v =>
    refine setsWell_guard (b := !badSize v) (e' := .marker { y with size := v }) rfl ?_ ?_ rfl ?_
    · exact guardSet_map _ _ _
    · simp only [inRange_iff, Bool.or_eq_true, beq_iff_eq, decide_eq_true_eq, Spec.Allowed, Bool.not_eq_true', sizeOk_iff]
      try omega
    · intro c hc ht
      cases c <;> first | rfl | exact absurd rfl hc | exact absurd (by simp [Spec.tied]) ht
  case symbolCode v =>
    refine setsWell_guard (b := decide (¬ (v < 1 ∨ v > 24))) (e' := .marker { y with symbolCode := v }) rfl ?_ ?_ rfl ?_
    · exact guardSet_map _ _ _
    · simp only [inRange_iff, Bool.or_eq_true, beq_iff_eq, decide_eq_true_eq, Spec.Allowed, Bool.not_eq_true', sizeOk_iff]
      try omega
    · intro c hc ht
      cases c <;> first | rfl | exact absurd rfl hc | exact absurd (by simp [Spec.tied]) ht
  case offsetX v =>
    refine setsWell_guard (b := true) (e' := .marker { y with offsetX := v }) rfl ?_ ?_ rfl ?_
    · rfl
    · simp [Spec.Allowed]
    · intro c hc ht
      cases c <;> first | rfl | exact absurd rfl hc | exact absurd (by simp [Spec.tied]) ht
  case offsetY v =>
    refine setsWell_guard (b := true) (e' := .marker { y with offsetY := v }) rfl ?_ ?_ rfl ?_
    · rfl
    · simp [Spec.Allowed]
    · intro c hc ht
      cases c <;> first | rfl | exact absurd rfl hc | exact absurd (by simp [Spec.tied]) ht
  all_goals
    intro a v h hs
    obtain ⟨rfl, rfl⟩ := Prod.mk.inj (Option.some.inj h)
    cases hs

theorem front_setsWell (f : VgFront) (hf : Spec.FrontOk f) (s : VgSet) : SetsWell (.front f) s := by
  cases s
  case head s => exact head_setsWell _ s
  case flip => intro a v h; cases h
  case pipSize v =>
    refine setsWell_guard (b := inRange v 40 501) (e' := .front { f with pipSize := v }) rfl ?_ ?_ rfl ?_
    · exact guardSet_map _ _ _
    · simp only [inRange_iff, Bool.or_eq_true, beq_iff_eq, decide_eq_true_eq, Spec.Allowed, Bool.not_eq_true', sizeOk_iff]
      try omega
    · intro c hc ht
      cases c <;> first | rfl | exact absurd rfl hc | exact absurd (by simp [Spec.tied]) ht
  case pipStroke v =>
    refine setsWell_guard (b := decide (¬ v ≤ 0)) (e' := .front { f with pipStroke := v }) rfl ?_ ?_ rfl ?_
    · exact guardSet_map _ _ _
    · simp only [inRange_iff, Bool.or_eq_true, beq_iff_eq, decide_eq_true_eq, Spec.Allowed, Bool.not_eq_true', sizeOk_iff]
      try omega
    · intro c hc ht
      cases c <;> first | rfl | exact absurd rfl hc | exact absurd (by simp [Spec.tied]) ht
  case pipDirection v =>
    refine setsWell_guard (b := (v == -1 || v == 1)) (e' := .front { f with pipDirection := v }) rfl ?_ ?_ rfl ?_
    · exact guardSet_map _ _ _
    · simp only [inRange_iff, Bool.or_eq_true, beq_iff_eq, decide_eq_true_eq, Spec.Allowed, Bool.not_eq_true', sizeOk_iff]
      try omega
    · intro c hc ht
      cases c <;> first | rfl | exact absurd rfl hc | exact absurd (by simp [Spec.tied]) ht
  case frontCode v =>
    intro a w h hs
    obtain ⟨rfl, rfl⟩ := Prod.mk.inj (Option.some.inj h)
    constructor
    · intro ha
      obtain ⟨t, i, c, _, _, _, hc⟩ := setCode_ok f v ha
      refine ⟨.front { f with frontCode := v, frontType := t, frontIntensity := i, frontCharacter := c, width := i }, ?_, rfl, ?_⟩
      · unfold VgElem.step
        rw [show VgElem.set (.front f) (.frontCode v) = Except.map VgElem.front (VgFront.setCode f v) from rfl]
        rw [hc]
        rfl
      · intro c hc ht
        cases c <;> first | rfl | exact absurd rfl hc | exact absurd (by simp [Spec.tied]) ht
    · intro ha
      have ha : ¬ (0 ≤ v ∧ v ≤ 999) := ha
      unfold VgElem.step
      rw [show VgElem.set (.front f) (.frontCode v) = Except.map VgElem.front (VgFront.setCode f v) from rfl]
      unfold VgFront.setCode
      rw [if_neg (by rw [inRange_iff]; omega)]
      rfl
  case width v =>
    intro a w h hs
    obtain ⟨rfl, rfl⟩ := Prod.mk.inj (Option.some.inj h)
    constructor
    · intro ha
      have ha : 1 ≤ v ∧ v ≤ 8 := ha
      refine ⟨.front { f with width := v, frontIntensity := v, frontCode := 100 * f.frontType + 10 * v + f.frontCharacter }, ?_, rfl, ?_⟩
      · unfold VgElem.step
        rw [show VgElem.set (.front f) (.width v) = Except.map VgElem.front (VgFront.setWidth f v) from rfl]
        rw [setFrontWidth_eq f hf, if_pos ha]
        rfl
      · intro c hc ht
        cases c <;> first | rfl | exact absurd rfl hc | exact absurd (by simp [Spec.tied]) ht
    · intro ha
      have ha : ¬ (1 ≤ v ∧ v ≤ 8) := ha
      unfold VgElem.step
      rw [show VgElem.set (.front f) (.width v) = Except.map VgElem.front (VgFront.setWidth f v) from rfl]
      unfold VgFront.setWidth
      rw [if_neg (by rw [inRange_iff]; omega)]
      rfl
  all_goals
    intro a v h hs
    obtain ⟨rfl, rfl⟩ := Prod.mk.inj (Option.some.inj h)
    cases hs

theorem header_setsWell (h : VgHead) (ver notes : Bytes) (s : VgSet) : SetsWell (.fileHeader h ver notes) s := by
  cases s
  case head s => exact head_setsWell _ s
  case flip => intro a v h; cases h
  all_goals
    intro a v h hs
    obtain ⟨rfl, rfl⟩ := Prod.mk.inj (Option.some.inj h)
    cases hs

/-- C56: after any calls, assigning an attribute that the element has succeeds exactly for the values of the table `Spec.Allowed`; then the
attribute has the value and all others keep theirs, except those tied to it; otherwise `ValueError` and nothing changes. -/
theorem C56_any_setter (n : VgNew) (e0 : VgElem) (hn : VgElem.make n = .ok e0) (ss : List VgSet) (s : VgSet) (a : Spec.Attr) (v : Spec.Value)
    (ht : Spec.target s = some (a, v)) (ha : (Spec.value (e0.run ss) a).isSome) :
    (Spec.Allowed (e0.run ss) a v → ∃ e', (e0.run ss).step s = (e', none) ∧ Spec.value e' a = some v ∧
      ∀ b, b ≠ a → b ∉ Spec.tied (e0.run ss) a → Spec.value e' b = Spec.value (e0.run ss) b) ∧
    (¬ Spec.Allowed (e0.run ss) a v → (e0.run ss).step s = (e0.run ss, some .valueError)) := by
  have hok := C56_ranges n e0 hn ss
  generalize e0.run ss = e at *
  suffices SetsWell e s from this a v ht ha
  cases e with
  | fileHeader h v n => exact header_setsWell h v n s
  | line l => exact line_setsWell l s
  | front f => exact front_setsWell f hok s
  | specialLine l => exact specialLine_setsWell l s
  | specialText t => exact specialText_setsWell t s
  | specialSymbol y => exact symbol_setsWell y s
  | marker y => exact marker_setsWell y s

/-- C56: an attribute that an element does not have: no call to assign it changes an attribute. -/
theorem C56_foreign (e : VgElem) (s : VgSet) (a : Spec.Attr) (v : Spec.Value) (ht : Spec.target s = some (a, v)) (ha : Spec.value e a = none) :
    e.step s = (e, none) := by
  cases e <;> cases s <;> first
    | rfl
    | (cases ht; done)
    | (obtain ⟨rfl, rfl⟩ := Prod.mk.inj (Option.some.inj ht); cases ha; done)
    | (rename_i s; cases s <;> (obtain ⟨rfl, rfl⟩ := Prod.mk.inj (Option.some.inj ht); cases ha))

/-- A marker takes the symbol code 24 and refuses 25; a text of type 7 refuses the turbulence symbol 9. -/
example : ∃ e, VgElem.make (.marker 0 0 17 2 1 0x3F800000#32 0 0) = .ok e ∧ (Spec.value e .symbolCode) = some (.int 17) ∧
    Spec.value (e.run [.symbolCode 24, .symbolCode 25]) .symbolCode = some (.int 24) ∧ (e.step (.symbolCode 25)).2 = some .valueError ∧
    ¬ Spec.Allowed e .symbolCode (.int 25) ∧ Spec.value e .lineType = none :=
  ⟨_, rfl, rfl, by decide +kernel, by decide +kernel, by simp [Spec.Allowed], rfl⟩

end Gempak
