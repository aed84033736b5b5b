import Verif.Props.MergeHeights
import Verif.Props.CalcFill

/-!
# Merging: where the levels and their temperatures come from
-/

namespace Gempak

set_option linter.unusedSectionVars false

section
variable {α : Type} [Field α] [LinearOrder α]

/-! ## Words of the claim -/

/-- A pressure of the report: of a mandatory, tropopause, significant or maximum wind level, or its magnitude; winds may be given on
pressures under the name of heights. -/
def Spec.PressureIn (ps : SndParts α) (P : α) : Prop :=
  (∃ name ∈ ["TTAA", "TTCC", "TRPA", "TRPC", "TTBB", "TTDD", "PPBB", "PPDD", "MXWA", "MXWC"], ∃ p i x, ps.part name = some p ∧
    p.at "PRES" i = .ok x ∧ (P = x ∨ P = |x|)) ∨
  ∃ name ∈ ["PPBB", "PPDD"], ∃ p i x, ps.part name = some p ∧ p.at "HGHT" i = .ok x ∧ P = |x|

/-- A height for which the report gives a wind. -/
def Spec.WindHeight (ps : SndParts α) (Z : α) : Prop :=
  ∃ name ∈ ["PPBB", "PPDD"], ∃ p i, ps.part name = some p ∧ p.at "HGHT" i = .ok Z

/-- Value `v` stands in column `key` of a temperature part, beside a pressure in the relation `rel` to `P`. -/
def Spec.ReadBy (rel : α → α → Prop) (ps : SndParts α) (key : String) (P v : α) : Prop :=
  ∃ name ∈ ["TTAA", "TTCC", "TRPA", "TRPC", "TTBB", "TTDD"], ∃ p i x, ps.part name = some p ∧ p.at "PRES" i = .ok x ∧ p.at key i = .ok v ∧ rel x P

/-- The pressure itself, its magnitude, or one next to it. -/
def Spec.NearP (x P : α) : Prop := P = x ∨ P = |x| ∨ |x - P| ≤ 1 / 100000000 + 1 / 100000 * |P|

/-- The value at level `j` lies on the line, in the logarithm of pressure, between those of a level before and a level after it. -/
def Spec.OnLine (c : Calc α) (m : α) (P C : List α) (j : Nat) : Prop :=
  ∃ a b, a < j ∧ j < b ∧ ((P.getD a m < P.getD j m ∧ P.getD j m < P.getD b m) ∨ (P.getD b m < P.getD j m ∧ P.getD j m < P.getD a m)) ∧
    C.getD a m ≠ m ∧ C.getD b m ≠ m ∧
    C.getD j m = C.getD a m + (C.getD b m - C.getD a m) * (c.log (P.getD j m / P.getD a m) / c.log (P.getD b m / P.getD a m))

open Spec

/-! ## Rows -/

/-- Every level satisfies `R`. -/
def AllRows (R : α → α → α → α → Prop) (m : α) (s : Snd α) : Prop :=
  ∀ j, R (s.pres.getD j m) (s.hght.getD j m) (s.temp.getD j m) (s.dwpt.getD j m)

/-- A level before the winds on heights. -/
structure Row1 (rel : α → α → Prop) (ps : SndParts α) (m p z t d : α) : Prop where
  miss : p = m → z = m ∧ t = m ∧ d = m
  pres : p ≠ m → PressureIn ps p
  temp : t ≠ m → ReadBy rel ps "TEMP" p t
  dwpt : d ≠ m → ReadBy rel ps "DWPT" p d

variable {m : α} {rel : α → α → Prop} {ps : SndParts α}

theorem Row1.empty : Row1 rel ps m m m m m := ⟨fun _ => ⟨rfl, rfl, rfl⟩, fun h => absurd rfl h, fun h => absurd rfl h, fun h => absurd rfl h⟩

theorem ReadBy_mono {rel' : α → α → Prop} {P v : α} {k : String} (h : ∀ x, rel x P → rel' x P) (hr : ReadBy rel ps k P v) : ReadBy rel' ps k P v := by
  obtain ⟨n, hn, p, i, x, h1, h2, h3, h4⟩ := hr
  exact ⟨n, hn, p, i, x, h1, h2, h3, h x h4⟩

theorem Row1.mono {rel' : α → α → Prop} {p z t d : α} (h : ∀ x, rel x p → rel' x p) (hr : Row1 rel ps m p z t d) : Row1 rel' ps m p z t d :=
  ⟨hr.miss, hr.pres, fun e => ReadBy_mono h (hr.temp e), fun e => ReadBy_mono h (hr.dwpt e)⟩

/-- Any height beside a pressure. -/
theorem Row1.height {p z z' t d : α} (hp : p = m → z' = m) (hr : Row1 rel ps m p z t d) : Row1 rel ps m p z' t d :=
  ⟨fun e => ⟨hp e, (hr.miss e).2⟩, hr.pres, hr.temp, hr.dwpt⟩

theorem insert_getD (n : Nat) (loc : Int) : ∃ k, k ≤ n ∧ ∀ (l : List α) (v : α), l.length = n → ∀ i,
    (pyInsert l loc v).getD i m = if i < k then l.getD i m else if i = k then v else l.getD (i - 1) m := by
  refine ⟨if loc < 0 then (loc + n).toNat else min loc.toNat n, ?_, fun l v hl i => ?_⟩
  · split
    · omega
    · omega
  · rw [pyInsert_nat, hl, getD_insert _ _ _ _ _ (by rw [hl]; split <;> omega)]

theorem AllRows.insert {R : α → α → α → α → Prop} {s : Snd α} (hs : Same s) (h : AllRows R m s) (loc : Int) {p z t d r w : α} (hr : R p z t d) :
    AllRows R m (s.insert loc p z t d r w) := by
  obtain ⟨n, hs⟩ := hs
  obtain ⟨k, _, g⟩ := insert_getD (m := m) n loc
  intro j
  show R ((pyInsert s.pres loc p).getD j m) ((pyInsert s.hght loc z).getD j m) ((pyInsert s.temp loc t).getD j m) ((pyInsert s.dwpt loc d).getD j m)
  rw [g _ _ hs.pres, g _ _ hs.hght, g _ _ hs.temp, g _ _ hs.dwpt]
  split
  · exact h j
  · split
    · exact hr
    · exact h _

/-- Winds do not matter. -/
theorem AllRows.winds {R : α → α → α → α → Prop} {s s' : Snd α} (h : AllRows R m s) (h1 : s'.pres = s.pres) (h2 : s'.hght = s.hght)
    (h3 : s'.temp = s.temp) (h4 : s'.dwpt = s.dwpt) : AllRows R m s' := by
  intro j
  rw [h1, h2, h3, h4]
  exact h j

theorem setWind_rest {s s' : Snd α} {loc : Nat} {r w : Run α} (h : setWind m s loc r w = .ok s') :
    s'.pres = s.pres ∧ s'.hght = s.hght ∧ s'.temp = s.temp ∧ s'.dwpt = s.dwpt := by
  unfold setWind at h
  obtain ⟨x, _, h⟩ := run_inv h
  split at h
  · obtain ⟨_, _, h⟩ := run_inv h
    obtain ⟨_, _, h⟩ := run_inv h
    obtain ⟨_, _, h⟩ := run_inv h
    obtain ⟨_, _, h⟩ := run_inv h
    obtain rfl := Except.ok.inj h
    exact ⟨rfl, rfl, rfl, rfl⟩
  · obtain rfl := Except.ok.inj h; exact ⟨rfl, rfl, rfl, rfl⟩

/-! ## The surface -/

theorem surfaceLevel_rows {c : Counts} {s : Snd α} {f : α} {s' : Snd α} (h : surfaceLevel ps m c = .ok s) (h' : surfaceCheck m f s = .ok s') :
    AllRows (Row1 (fun x P => P = x) ps m) m s' := by
  have key : ∀ p z t d r w : α, (p ≠ m → PressureIn ps p) → (p ≠ m → ReadBy (fun x P => P = x) ps "TEMP" p t) →
      (p ≠ m → ReadBy (fun x P => P = x) ps "DWPT" p d) → s = ⟨[p], [z], [t], [d], [r], [w]⟩ → AllRows (Row1 (fun x P => P = x) ps m) m s' := by
    rintro p z t d r w k1 k2 k3 rfl
    unfold surfaceCheck at h'
    obtain ⟨q, hq, h'⟩ := run_inv h'
    have eq : q = p := (Except.ok.inj hq).symm
    subst eq
    dsimp only at h'
    by_cases hc : (if q > 1060 then m else q) = m ∨ ((if q > 1060 then m else q) < f ∧ (if q > 1060 then m else q) ≠ m)
    · rw [if_pos hc] at h'
      obtain rfl : (⟨[m], [m], [m], [m], [m], [m]⟩ : Snd α) = s' := Except.ok.inj h'
      intro j
      cases j with
      | zero => exact Row1.empty
      | succ j => exact Row1.empty
    · rw [if_neg hc] at h'
      obtain rfl := Except.ok.inj h'
      intro j
      cases j with
      | zero =>
        have hne : q ≠ m := by
          rintro rfl
          exact hc (Or.inl (by split <;> rfl))
        exact ⟨fun e => absurd e hne, k1, fun _ => k2 hne, fun _ => k3 hne⟩
      | succ j => exact Row1.empty
  unfold surfaceLevel at h
  split at h
  · obtain rfl := Except.ok.inj h
    exact key _ _ _ _ _ _ (fun e => absurd rfl e) (fun e => absurd rfl e) (fun e => absurd rfl e) rfl
  · obtain ⟨p, hp, h⟩ := run_inv h
    obtain ⟨pr, h1, h⟩ := run_inv h
    obtain ⟨_, _, h⟩ := run_inv h
    obtain ⟨t, h2, h⟩ := run_inv h
    obtain ⟨d, h3, h⟩ := run_inv h
    obtain ⟨_, _, h⟩ := run_inv h
    obtain ⟨_, _, h⟩ := run_inv h
    obtain rfl := Except.ok.inj h
    exact key _ _ _ _ _ _ (fun _ => Or.inl ⟨"TTAA", by decide, p, 0, pr, get_part hp, h1, Or.inl rfl⟩)
      (fun _ => ⟨"TTAA", by decide, p, 0, pr, get_part hp, h1, h2, rfl⟩) (fun _ => ⟨"TTAA", by decide, p, 0, pr, get_part hp, h1, h3, rfl⟩) rfl

theorem surfaceSigT_rows {c : Counts} {s s' : Snd α} (hs : AllRows (Row1 (fun x P => P = x) ps m) m s) (h : surfaceSigT ps m c s = .ok s') :
    AllRows (Row1 (fun x P => P = x) ps m) m s' := by
  unfold surfaceSigT at h
  split at h
  · obtain rfl := Except.ok.inj h; exact hs
  · obtain ⟨b, hb, h⟩ := run_inv h
    obtain ⟨p, hp, h⟩ := run_inv h
    split at h
    · obtain rfl := Except.ok.inj h; exact hs
    · rename_i hpm
      obtain ⟨t, ht, h⟩ := run_inv h
      split at h
      · obtain rfl := Except.ok.inj h; exact hs
      · obtain ⟨f, hf, h⟩ := run_inv h
        split at h
        · obtain ⟨pr, e1, h⟩ := run_inv h
          obtain ⟨x, hx, h⟩ := run_inv h
          obtain ⟨d, e2, h⟩ := run_inv h
          obtain ⟨t', e3, h⟩ := run_inv h
          obtain rfl := Except.ok.inj h
          intro j
          dsimp only
          by_cases hj : j = 0
          · subst hj
            obtain ⟨l1, rfl⟩ := put_val e1
            obtain ⟨l2, rfl⟩ := put_val e2
            obtain ⟨l3, rfl⟩ := put_val e3
            rw [getD_set _ _ _ _ _ l1, getD_set _ _ _ _ _ l2, getD_set _ _ _ _ _ l3, if_pos rfl, if_pos rfl, if_pos rfl]
            exact ⟨fun e => absurd e hpm, fun _ => Or.inl ⟨"TTBB", by decide, b, 0, p, get_part hb, hp, Or.inl rfl⟩,
              fun _ => ⟨"TTBB", by decide, b, 0, p, get_part hb, hp, ht, rfl⟩, fun _ => ⟨"TTBB", by decide, b, 0, p, get_part hb, hp, hx, rfl⟩⟩
          · rw [getD_put_ne e1 hj, getD_put_ne e2 hj, getD_put_ne e3 hj]
            exact hs j
        · obtain rfl := Except.ok.inj h; exact hs

/-- The part of significant winds with the pressures it may have got. -/
def WindPart (ps : SndParts α) (name : String) (b : Option (SndPart α)) : Prop :=
  ∀ q, b = some q → ∃ p, ps.part name = some p ∧ (∀ i v, q.at "HGHT" i = .ok v → p.at "HGHT" i = .ok v) ∧
    ∀ i v, q.at "PRES" i = .ok v → p.at "PRES" i = .ok v ∨ p.at "HGHT" i = .ok v

theorem windCoord_from {name : String} {n : Nat} {r : Bool × Option (SndPart α)} (h : windCoord ps m name n = .ok r) : WindPart ps name r.2 := by
  have same : ∀ p, ps.part name = some p → WindPart ps name (some p) := by
    intro p hp q hq
    obtain rfl := Option.some.inj hq
    exact ⟨p, hp, fun _ _ e => e, fun _ _ e => Or.inl e⟩
  unfold windCoord at h
  split at h
  · obtain rfl := Except.ok.inj h
    intro q hq
    exact same q hq q rfl
  · obtain ⟨p, hp, h⟩ := run_inv h
    have hp := get_part hp
    split at h
    · obtain rfl := Except.ok.inj h; exact same p hp
    · rename_i hno
      obtain ⟨hs, hh, h⟩ := run_inv h
      split at h
      · obtain rfl := Except.ok.inj h
        intro q hq
        obtain rfl := Option.some.inj hq
        refine ⟨p, hp, fun i v e => ?_, fun i v e => Or.inr ?_⟩
        · have : (p ++ [("PRES", hs)] : SndPart α).col "HGHT" = p.col "HGHT" := by
            unfold SndPart.col
            rw [List.find?_append]
            cases p.find? (fun x => decide (x.1 = "HGHT")) <;> simp
          unfold SndPart.at at e ⊢
          rw [this] at e
          exact e
        · have : (p ++ [("PRES", hs)] : SndPart α).col "PRES" = .ok hs := by
            unfold SndPart.col
            rw [List.find?_append, List.find?_eq_none.2]
            · rfl
            · intro x hx hxe
              exact hno (List.any_eq_true.2 ⟨x, hx, hxe⟩)
          unfold SndPart.at at e ⊢
          rw [this, ok_bind] at e
          rw [hh, ok_bind]
          exact e
      · obtain rfl := Except.ok.inj h; exact same p hp

theorem WindPart.pressure {name : String} {b : Option (SndPart α)} (hw : WindPart ps name b) (hn : name = "PPBB" ∨ name = "PPDD") {q : SndPart α}
    (hb : b = some q) {i : Nat} {x : α} (h : q.at "PRES" i = .ok x) : PressureIn ps |x| := by
  obtain ⟨p, h1, h2, h3⟩ := hw q hb
  rcases h3 i x h with e | e
  · exact Or.inl ⟨name, by rcases hn with rfl | rfl <;> decide, p, i, x, h1, e, Or.inr rfl⟩
  · exact Or.inr ⟨name, by rcases hn with rfl | rfl <;> decide, p, i, x, h1, e, rfl⟩

theorem surfaceSigW_rows {b : Option (SndPart α)} {z : Bool} {c : Counts} {s s' : Snd α} (hm : ∀ x : α, |x| ≠ m) (hb : WindPart ps "PPBB" b)
    (hs : AllRows (Row1 (fun x P => P = x) ps m) m s) (h : surfaceSigW b z m c s = .ok s') : AllRows (Row1 NearP ps m) m s' := by
  have hs' : AllRows (Row1 NearP ps m) m s := fun j => (hs j).mono fun x e => Or.inl e
  unfold surfaceSigW at h
  split at h
  · obtain rfl := Except.ok.inj h; exact hs'
  · split at h
    · cases h
    · rename_i q
      split at h
      · obtain ⟨_, _, h⟩ := run_inv h
        split at h
        · obtain ⟨_, _, h⟩ := run_inv h
          split at h
          · obtain ⟨_, _, h⟩ := run_inv h
            obtain ⟨_, _, h⟩ := run_inv h
            obtain ⟨_, _, h⟩ := run_inv h
            obtain rfl := Except.ok.inj h
            exact hs'.winds rfl rfl rfl rfl
          · obtain rfl := Except.ok.inj h; exact hs'
        · obtain rfl := Except.ok.inj h; exact hs'
      · obtain ⟨p, hp, h⟩ := run_inv h
        split at h
        · obtain ⟨_, _, h⟩ := run_inv h
          split at h
          · obtain ⟨f, hf, h⟩ := run_inv h
            split at h
            · rename_i hc
              obtain ⟨pr, e1, h⟩ := run_inv h
              obtain ⟨_, _, h⟩ := run_inv h
              obtain ⟨_, _, h⟩ := run_inv h
              obtain ⟨_, _, h⟩ := run_inv h
              obtain rfl := Except.ok.inj h
              intro j
              dsimp only
              by_cases hj : j = 0
              · subst hj
                have ef : f = s.pres.getD 0 m := idx_val m hf
                obtain ⟨l1, rfl⟩ := put_val e1
                rw [getD_set _ _ _ _ _ l1, if_pos rfl]
                have h0 := hs 0
                rw [← ef] at h0
                refine ⟨fun e => absurd e (hm _), fun _ => hb.pressure (Or.inl rfl) rfl hp, fun e => ?_, fun e => ?_⟩
                · rcases hc with e' | e'
                  · exact absurd (h0.miss e').2.1 e
                  · obtain ⟨n, hn, p', i, x, g1, g2, g3, g4⟩ := h0.temp e
                    exact ⟨n, hn, p', i, x, g1, g2, g3, Or.inr (Or.inr (by rw [← g4]; exact e'))⟩
                · rcases hc with e' | e'
                  · exact absurd (h0.miss e').2.2 e
                  · obtain ⟨n, hn, p', i, x, g1, g2, g3, g4⟩ := h0.dwpt e
                    exact ⟨n, hn, p', i, x, g1, g2, g3, Or.inr (Or.inr (by rw [← g4]; exact e'))⟩
              · rw [getD_put_ne e1 hj]
                exact hs' j
            · obtain rfl := Except.ok.inj h; exact hs'
          · obtain rfl := Except.ok.inj h; exact hs'
        · obtain rfl := Except.ok.inj h; exact hs'

/-! ## Mandatory levels -/

theorem mergeMan_from {name : String} (hname : name = "TTAA" ∨ name = "TTCC") {p : SndPart α} (hpp : ps.part name = some p) {N i : Nat} {s : Snd α} {plast : α}
    {bgl : Nat} {r : Snd α × α × Nat} (hp : SixNames p) (hz : Same s) (hs : AllRows (Row1 NearP ps m) m s) (h : mergeMan p m N i s plast bgl = .ok r) :
    AllRows (Row1 NearP ps m) m r.1 := by
  induction N generalizing i s plast bgl with
  | zero => obtain rfl := Except.ok.inj h; exact hs
  | succ N ih =>
    rw [mergeMan] at h
    obtain ⟨b, hb, h⟩ := run_inv h
    split at h
    · rename_i hbt
      obtain ⟨s1, h1, h⟩ := run_inv h
      obtain ⟨pl, h2, h⟩ := run_inv h
      obtain ⟨n, hn⟩ := hz
      refine ih ⟨n + 1, appendLevel_same hp hn h1⟩ ?_ h
      obtain ⟨x, hx, hxm⟩ := takesLevel_val hb hbt
      obtain ⟨v1, a1, b1⟩ := (appendLevel_colOf h1 "PRES").2 (six_count hp (by decide))
      obtain ⟨v2, a2, b2⟩ := (appendLevel_colOf h1 "HGHT").2 (six_count hp (by decide))
      obtain ⟨v3, a3, b3⟩ := (appendLevel_colOf h1 "TEMP").2 (six_count hp (by decide))
      obtain ⟨v4, a4, b4⟩ := (appendLevel_colOf h1 "DWPT").2 (six_count hp (by decide))
      change s1.pres = s.pres ++ _ at b1
      change s1.hght = s.hght ++ _ at b2
      change s1.temp = s.temp ++ _ at b3
      change s1.dwpt = s.dwpt ++ _ at b4
      obtain rfl := Except.ok.inj (a1.symm.trans hx)
      have g : ∀ (l : List α) (v : α) (j : Nat), l.length = n → (l ++ [v]).getD j m = if j < n then l.getD j m else if j = n then v else m := by
        intro l v j hl
        rw [List.getD_eq_getElem?_getD, List.getD_eq_getElem?_getD]
        by_cases h1 : j < n
        · rw [if_pos h1, List.getElem?_append_left (by omega)]
        · rw [if_neg h1]
          by_cases h2 : j = n
          · subst h2; subst hl; rw [if_pos rfl, List.getElem?_concat_length]; rfl
          · rw [if_neg h2, List.getElem?_eq_none (by simp; omega)]; rfl
      intro j
      rw [b1, b2, b3, b4, g _ _ _ hn.pres, g _ _ _ hn.hght, g _ _ _ hn.temp, g _ _ _ hn.dwpt]
      have hmem : name ∈ ["TTAA", "TTCC", "TRPA", "TRPC", "TTBB", "TTDD"] := by rcases hname with rfl | rfl <;> decide
      split
      · exact hs j
      · split
        · exact ⟨fun e => absurd e hxm, fun _ => Or.inl ⟨name, by rcases hname with rfl | rfl <;> decide, p, i, _, hpp, hx, Or.inl rfl⟩,
            fun _ => ⟨name, hmem, p, i, _, hpp, hx, a3, Or.inl rfl⟩, fun _ => ⟨name, hmem, p, i, _, hpp, hx, a4, Or.inl rfl⟩⟩
        · exact Row1.empty
    · obtain ⟨_, _, h⟩ := run_inv h
      obtain ⟨_, _, h⟩ := run_inv h
      exact ih hz hs h

theorem mergeManWind_rest {p : SndPart α} {l : List α} {i : Nat} {s s' : Snd α} (h : mergeManWind p m l i s = .ok s') :
    s'.pres = s.pres ∧ s'.hght = s.hght ∧ s'.temp = s.temp ∧ s'.dwpt = s.dwpt := by
  induction l generalizing i s with
  | nil => obtain rfl := Except.ok.inj h; exact ⟨rfl, rfl, rfl, rfl⟩
  | cons x l ih =>
    rw [mergeManWind] at h
    split at h
    · obtain ⟨s1, h1, h⟩ := run_inv h
      obtain ⟨a, b, c, d⟩ := setWind_rest h1
      obtain ⟨a', b', c', d'⟩ := ih h
      exact ⟨a'.trans a, b'.trans b, c'.trans c, d'.trans d⟩
    · exact ih h

theorem mandatory_from {c : Counts} {z : Bool} {b : Option (SndPart α)} {r : Snd α × Nat} (hm : ∀ x : α, |x| ≠ m) (hb : WindPart ps "PPBB" b)
    (h1 : ∀ p, ps.part "TTAA" = some p → SixNames p) (h2 : ∀ p, ps.part "TTCC" = some p → SixNames p) (h : mergeMandatory ps m c z b = .ok r) :
    AllRows (Row1 NearP ps m) m r.1 := by
  unfold mergeMandatory at h
  obtain ⟨s0, e0, h⟩ := run_inv h
  obtain ⟨f, _, h⟩ := run_inv h
  obtain ⟨s1, e1, h⟩ := run_inv h
  obtain ⟨s2, e2, h⟩ := run_inv h
  obtain ⟨s3, e3, h⟩ := run_inv h
  obtain ⟨p0, _, h⟩ := run_inv h
  dsimp only at h
  obtain ⟨r4, e4, h⟩ := run_inv h
  obtain ⟨r5, e5, h⟩ := run_inv h
  obtain ⟨s6, e6, h⟩ := run_inv h
  obtain ⟨s7, e7, h⟩ := run_inv h
  obtain rfl := Except.ok.inj h
  have a3 := surfaceSigW_rows hm hb (surfaceSigT_rows (surfaceLevel_rows e0 e1) e2) e3
  have z3 : Same s3 := ⟨1, surfaceSigW_same (surfaceSigT_same (surfaceCheck_same (surfaceLevel_same e0) e1) e2) e3⟩
  obtain ⟨a4, z4⟩ : AllRows (Row1 NearP ps m) m r4.1 ∧ Same r4.1 := by
    rcases whenSome_inv e4 with ⟨_, e⟩ | ⟨_, e⟩
    · obtain ⟨p, hp, e⟩ := run_inv e
      have hp := get_part hp
      exact ⟨mergeMan_from (Or.inl rfl) hp (h1 p hp) z3 a3 e, mergeMan_same (h1 p hp) z3 e⟩
    · rw [e]; exact ⟨a3, z3⟩
  obtain ⟨a5, z5⟩ : AllRows (Row1 NearP ps m) m r5.1 ∧ Same r5.1 := by
    rcases whenSome_inv e5 with ⟨_, e⟩ | ⟨_, e⟩
    · obtain ⟨p, hp, e⟩ := run_inv e
      have hp := get_part hp
      exact ⟨mergeMan_from (Or.inr rfl) hp (h2 p hp) z4 a4 e, mergeMan_same (h2 p hp) z4 e⟩
    · rw [e]; exact ⟨a4, z4⟩
  have a6 : AllRows (Row1 NearP ps m) m s6 := by
    split at e6
    · obtain ⟨_, _, e6⟩ := run_inv e6
      obtain ⟨_, _, e6⟩ := run_inv e6
      obtain ⟨u1, u2, u3, u4⟩ := mergeManWind_rest e6
      exact a5.winds u1 u2 u3 u4
    · obtain rfl := Except.ok.inj e6; exact a5
  split at e7
  · obtain ⟨_, _, e7⟩ := run_inv e7
    obtain ⟨_, _, e7⟩ := run_inv e7
    obtain ⟨u1, u2, u3, u4⟩ := mergeManWind_rest e7
    exact a6.winds u1 u2 u3 u4
  · obtain rfl := Except.ok.inj e7; exact a6

/-! ## Levels on pressure -/

theorem onPressure_from {Q : Snd α → Prop} {p : SndPart α} {has : Nat → Run Bool} {pr : Nat → Snd α → Nat → Run (Snd α)}
    {fr : Nat → Snd α → α → Run (Snd α)}
    (h1 : ∀ i s x s', p.at "PRES" i = .ok x → |x| ≠ m → |x| ∈ s.pres → Same s → Q s → pr i s (s.pres.idxOf |x|) = .ok s' → Q s' ∧ Same s')
    (h2 : ∀ i s x s', p.at "PRES" i = .ok x → |x| ≠ m → Same s → Q s → fr i s |x| = .ok s' → Q s' ∧ Same s')
    {l : List α} {i : Nat} (hl : ∀ k x, l[k]? = some x → p.at "PRES" (i + k) = .ok x) {s : Snd α} {pbot : α} {r : Snd α × α} (hz : Same s)
    (hs : Q s) (h : mergeOnPressure m has pr fr l i s pbot = .ok r) : Q r.1 := by
  induction l generalizing i s pbot with
  | nil => obtain rfl := Except.ok.inj h; exact hs
  | cons x l ih =>
    have hx := hl 0 x rfl
    have hl' : ∀ k y, l[k]? = some y → p.at "PRES" (i + 1 + k) = .ok y := by
      intro k y e
      rw [show i + 1 + k = i + (k + 1) by omega]
      exact hl (k + 1) y e
    rw [mergeOnPressure] at h
    obtain ⟨ok, hok, h⟩ := run_inv h
    split at h
    · rename_i hc
      have hxm : |x| ≠ m := by
        intro e
        rw [if_neg (by simpa using e)] at hok
        rw [← Except.ok.inj hok] at hc
        exact absurd hc.1 (by decide)
      split at h
      · exact ih hl' hz hs h
      · split at h
        · rename_i hmem
          obtain ⟨s1, e1, h⟩ := run_inv h
          obtain ⟨k, z⟩ := h1 _ _ _ _ hx hxm hmem hz hs e1
          exact ih hl' z k h
        · obtain ⟨s1, e1, h⟩ := run_inv h
          obtain ⟨k, z⟩ := h2 _ _ _ _ hx hxm hz hs e1
          exact ih hl' z k h
    · exact ih hl' hz hs h

theorem col_at {p : SndPart α} {k : String} {col : List α} (h : p.col k = .ok col) (j : Nat) (x : α) (hx : col[j]? = some x) : p.at k (0 + j) = .ok x := by
  unfold SndPart.at idx
  rw [h, ok_bind, Nat.zero_add, hx]

/-- A temperature part. -/
def TempPart (ps : SndParts α) (p : SndPart α) : Prop := ∃ name ∈ ["TTAA", "TTCC", "TRPA", "TRPC", "TTBB", "TTDD"], ps.part name = some p

theorem TempPart.row {p : SndPart α} (hp : TempPart ps p) {i : Nat} {x t d : α} (hx : p.at "PRES" i = .ok x) (hxm : |x| ≠ m) (ht : p.at "TEMP" i = .ok t)
    (hd : p.at "DWPT" i = .ok d) (z : α) : Row1 NearP ps m |x| z t d := by
  obtain ⟨name, hn, hp⟩ := hp
  refine ⟨fun e => absurd e hxm, fun _ => Or.inl ⟨name, ?_, p, i, x, hp, hx, Or.inr rfl⟩, fun _ => ⟨name, hn, p, i, x, hp, hx, ht, Or.inr (Or.inl rfl)⟩,
    fun _ => ⟨name, hn, p, i, x, hp, hx, hd, Or.inr (Or.inl rfl)⟩⟩
  revert hn
  simp only [List.mem_cons, List.not_mem_nil, or_false]
  rintro (rfl | rfl | rfl | rfl | rfl | rfl) <;> decide

theorem sigTPresent_from {p : SndPart α} (hp : TempPart ps p) {i : Nat} {s s' : Snd α} {x : α} (hx : p.at "PRES" i = .ok x) (hxm : |x| ≠ m)
    (hmem : |x| ∈ s.pres) (hs : AllRows (Row1 NearP ps m) m s) (h : sigTPresent p m i s (s.pres.idxOf |x|) = .ok s') :
    AllRows (Row1 NearP ps m) m s' ∧ s'.pres = s.pres := by
  unfold sigTPresent at h
  obtain ⟨t, _, h⟩ := run_inv h
  split at h
  · obtain ⟨t, ht, h⟩ := run_inv h
    obtain ⟨_, e1, h⟩ := run_inv h
    obtain ⟨d, hd, h⟩ := run_inv h
    obtain ⟨_, e2, h⟩ := run_inv h
    obtain rfl := Except.ok.inj h
    refine ⟨fun j => ?_, rfl⟩
    dsimp only
    by_cases hj : j = s.pres.idxOf |x|
    · obtain ⟨l1, rfl⟩ := put_val e1
      obtain ⟨l2, rfl⟩ := put_val e2
      rw [getD_set _ _ _ _ _ l1, getD_set _ _ _ _ _ l2, if_pos hj, if_pos hj, hj, idxOf_getD hmem]
      exact hp.row hx hxm ht hd _
    · rw [getD_put_ne e1 hj, getD_put_ne e2 hj]
      exact hs j
  · obtain rfl := Except.ok.inj h; exact ⟨hs, rfl⟩

theorem tropPresent_from {p : SndPart α} (hp : TempPart ps p) {i : Nat} {s s' : Snd α} {x : α} (hx : p.at "PRES" i = .ok x) (hxm : |x| ≠ m)
    (hmem : |x| ∈ s.pres) (hs : AllRows (Row1 NearP ps m) m s) (h : tropPresent p m i s (s.pres.idxOf |x|) = .ok s') :
    AllRows (Row1 NearP ps m) m s' := by
  unfold tropPresent at h
  obtain ⟨t, ht, h⟩ := run_inv h
  obtain ⟨s1, h1, h⟩ := run_inv h
  obtain ⟨s2, h2, h⟩ := run_inv h
  obtain ⟨z, h3, h⟩ := run_inv h
  obtain rfl := Except.ok.inj h
  have e1 : sigTPresent p m i s (s.pres.idxOf |x|) = .ok s1 := by
    unfold sigTPresent
    rw [ht, ok_bind]
    exact h1
  obtain ⟨a1, hp1⟩ := sigTPresent_from hp hx hxm hmem hs e1
  obtain ⟨u1, u2, u3, u4⟩ := setWind_rest h2
  have a2 := a1.winds u1 u2 u3 u4
  intro j
  dsimp only
  obtain ⟨l, rfl⟩ := put_val h3
  rw [getD_set _ _ _ _ _ l]
  split
  · exact (a2 j).height fun _ => rfl
  · exact a2 j

theorem trop_from {p : SndPart α} (hp : TempPart ps p) {s : Snd α} {pbot : α} {r : Snd α × α} (hz : Same s) (hs : AllRows (Row1 NearP ps m) m s)
    (h : mergeTrop p m s pbot = .ok r) : AllRows (Row1 NearP ps m) m r.1 ∧ Same r.1 := by
  refine ⟨?_, mergeTrop_same hz h⟩
  unfold mergeTrop at h
  obtain ⟨c, hc, h⟩ := run_inv h
  refine onPressure_from (Q := AllRows (Row1 NearP ps m) m) (p := p) ?_ ?_ (col_at hc) hz hs h
  · rintro i s x s' hx hxm hmem ⟨n, hn⟩ hs e
    exact ⟨tropPresent_from hp hx hxm hmem hs e, n, tropPresent_same hn e⟩
  · rintro i s x s' hx hxm ⟨n, hn⟩ hs e
    unfold tropNew at e
    obtain ⟨t, ht, e⟩ := run_inv e
    obtain ⟨d, hd, e⟩ := run_inv e
    obtain ⟨_, _, e⟩ := run_inv e
    obtain ⟨_, _, e⟩ := run_inv e
    obtain rfl := Except.ok.inj e
    exact ⟨hs.insert ⟨n, hn⟩ _ (hp.row hx hxm ht hd _), n + 1, insert_size hn _ _ _ _ _ _ _⟩

theorem sigT_from {p : SndPart α} (hp : TempPart ps p) {s : Snd α} {pbot : α} {r : Snd α × α} (hz : Same s) (hs : AllRows (Row1 NearP ps m) m s)
    (h : mergeSigT p m s pbot = .ok r) : AllRows (Row1 NearP ps m) m r.1 ∧ Same r.1 := by
  refine ⟨?_, mergeSigT_same hz h⟩
  unfold mergeSigT at h
  obtain ⟨c, hc, h⟩ := run_inv h
  refine onPressure_from (Q := AllRows (Row1 NearP ps m) m) (p := p) ?_ ?_ (col_at hc) hz hs h
  · rintro i s x s' hx hxm hmem ⟨n, hn⟩ hs e
    exact ⟨(sigTPresent_from hp hx hxm hmem hs e).1, n, sigTPresent_same hn e⟩
  · rintro i s x s' hx hxm ⟨n, hn⟩ hs e
    unfold sigTNew at e
    obtain ⟨t, ht, e⟩ := run_inv e
    obtain ⟨d, hd, e⟩ := run_inv e
    obtain rfl := Except.ok.inj e
    exact ⟨hs.insert ⟨n, hn⟩ _ (hp.row hx hxm ht hd _), n + 1, insert_size hn _ _ _ _ _ _ _⟩

theorem windPresent_rest {p : SndPart α} {i loc : Nat} {s s' : Snd α} (h : windPresent p m i s loc = .ok s') :
    s'.pres = s.pres ∧ s'.hght = s.hght ∧ s'.temp = s.temp ∧ s'.dwpt = s.dwpt := by
  unfold windPresent at h
  obtain ⟨r, _, h⟩ := run_inv h
  obtain ⟨w, _, h⟩ := run_inv h
  split at h
  · obtain ⟨_, _, h⟩ := run_inv h
    obtain ⟨_, _, h⟩ := run_inv h
    obtain ⟨_, _, h⟩ := run_inv h
    obtain ⟨_, _, h⟩ := run_inv h
    obtain rfl := Except.ok.inj h
    exact ⟨rfl, rfl, rfl, rfl⟩
  · obtain rfl := Except.ok.inj h; exact ⟨rfl, rfl, rfl, rfl⟩

theorem wind_from {p : SndPart α} (hp : ∀ i x, p.at "PRES" i = .ok x → PressureIn ps |x|) {s : Snd α} {pbot : α} {r : Snd α × α} (hz : Same s)
    (hs : AllRows (Row1 NearP ps m) m s) (h : mergeWind p m s pbot = .ok r) : AllRows (Row1 NearP ps m) m r.1 ∧ Same r.1 := by
  refine ⟨?_, mergeWind_same hz h⟩
  unfold mergeWind at h
  obtain ⟨c, hc, h⟩ := run_inv h
  refine onPressure_from (Q := AllRows (Row1 NearP ps m) m) (p := p) ?_ ?_ (col_at hc) hz hs h
  · rintro i s x s' hx hxm hmem ⟨n, hn⟩ hs e
    obtain ⟨u1, u2, u3, u4⟩ := windPresent_rest e
    exact ⟨hs.winds u1 u2 u3 u4, n, windPresent_same hn e⟩
  · rintro i s x s' hx hxm ⟨n, hn⟩ hs e
    unfold windNew at e
    obtain ⟨_, _, e⟩ := run_inv e
    obtain ⟨_, _, e⟩ := run_inv e
    obtain rfl := Except.ok.inj e
    exact ⟨hs.insert ⟨n, hn⟩ _ ⟨fun e => absurd e hxm, fun _ => hp i x hx, fun e => absurd rfl e, fun e => absurd rfl e⟩, n + 1,
      insert_size hn _ _ _ _ _ _ _⟩

theorem pair_from {Q : Snd α → Prop} {n1 n2 : Nat} {bot : Snd α → Run α} {f1 f2 : Snd α → α → Run (Snd α × α)}
    (h1 : ∀ s p r, Same s → Q s → f1 s p = .ok r → Q r.1 ∧ Same r.1)
    (h2 : ∀ s p r, Same s → Q s → f2 s p = .ok r → Q r.1 ∧ Same r.1) {s s' : Snd α} (hz : Same s) (hs : Q s)
    (h : mergePair n1 n2 bot f1 f2 s = .ok s') : Q s' ∧ Same s' := by
  unfold mergePair at h
  split at h
  · obtain ⟨pb, _, h⟩ := run_inv h
    obtain ⟨r1, e1, h⟩ := run_inv h
    obtain ⟨r2, e2, h⟩ := run_inv h
    obtain rfl := Except.ok.inj h
    have hr1 : Q r1.1 ∧ Same r1.1 := by
      rcases whenSome_inv e1 with ⟨_, e⟩ | ⟨_, e⟩
      · exact h1 _ _ _ hz hs e
      · rw [e]; exact ⟨hs, hz⟩
    rcases whenSome_inv e2 with ⟨_, e⟩ | ⟨_, e⟩
    · exact h2 _ _ _ hr1.2 hr1.1 e
    · rw [e]; exact hr1
  · obtain rfl := Except.ok.inj h; exact ⟨hs, hz⟩

/-! ## Heights beside missing pressures stay missing -/

theorem storeHeights_miss {c : Calc α} {d : α} {hl : List α} {N i : Nat} {hb pb : α} {s s' : Snd α} (h : storeHeights c d hl N i hb pb s = .ok s') :
    s' = { s with hght := s'.hght } ∧ ∀ j, s.pres.getD j d = d → s.hght.getD j d = d → s'.hght.getD j d = d := by
  induction N generalizing i hb pb s with
  | zero => obtain rfl := Except.ok.inj h; exact ⟨rfl, fun _ _ e => e⟩
  | succ N ih =>
    rw [storeHeights] at h
    obtain ⟨p, hp, h⟩ := run_inv h
    obtain ⟨sc, _, h⟩ := run_inv h
    obtain ⟨hh, e1, h⟩ := run_inv h
    obtain ⟨h1, h2⟩ := ih h
    refine ⟨by rw [h1], fun j e2 e3 => h2 j e2 ?_⟩
    obtain ⟨l, rfl⟩ := put_val e1
    show (s.hght.set i _).getD j d = d
    rw [getD_set _ _ _ _ _ l]
    split
    · rename_i hj
      subst hj
      rw [idx_val d hp, e2]
      unfold moistHydrostaticHeight
      rw [if_pos (Or.inl (Or.inr (Or.inr (Or.inl rfl))))]
    · exact e3

theorem moistLoop_miss {c : Calc α} {fuel i : Nat} {hl : List α} {s s' : Snd α} (h : moistLoop c (-9999) fuel i hl s = .ok s') :
    s' = { s with hght := s'.hght } ∧
      ∀ j, s.pres.getD j (-9999) = -9999 → s.hght.getD j (-9999) = -9999 → s'.hght.getD j (-9999) = -9999 := by
  induction fuel generalizing i s hl with
  | zero => cases h
  | succ fuel ih =>
    rw [moistLoop] at h
    obtain ⟨r, hr, h⟩ := run_inv h
    unfold moistStep at hr
    obtain ⟨_, _, hr⟩ := run_inv hr
    obtain ⟨_, _, hr⟩ := run_inv hr
    obtain ⟨_, _, hr⟩ := run_inv hr
    obtain ⟨_, _, hr⟩ := run_inv hr
    obtain ⟨q, hq, hr⟩ := run_inv hr
    obtain ⟨_, _, hr⟩ := run_inv hr
    obtain ⟨s1, h1, hr⟩ := run_inv hr
    obtain rfl := Except.ok.inj hr
    obtain ⟨a1, a2⟩ := storeHeights_miss h1
    dsimp only at h
    split at h
    · obtain ⟨b1, b2⟩ := ih h
      refine ⟨by rw [b1, a1], fun j e1 e2 => b2 j ?_ (a2 j e1 e2)⟩
      rw [a1]
      exact e1
    · obtain rfl := Except.ok.inj h
      exact ⟨a1, a2⟩

theorem moist_miss {c : Calc α} {fuel : Nat} {s s' : Snd α} (h : interpMoistHeight c (-9999) fuel s = .ok s') :
    s' = { s with hght := s'.hght } ∧
      ∀ j, s.pres.getD j (-9999) = -9999 → s.hght.getD j (-9999) = -9999 → s'.hght.getD j (-9999) = -9999 := by
  unfold interpMoistHeight at h
  obtain ⟨o, _, h⟩ := run_inv h
  split at h
  · obtain rfl := Except.ok.inj h; exact ⟨rfl, fun _ _ e => e⟩
  · exact moistLoop_miss h

theorem heightLoop_miss {c : Calc α} {fuel N i : Nat} {s r : Snd α} {v : BotTop α} (h : heightLoop c m fuel N i s v = .ok r) :
    r = { s with hght := r.hght } ∧ ∀ j, s.pres.getD j m = m → r.hght.getD j m = s.hght.getD j m := by
  induction N generalizing i s v with
  | zero => obtain rfl := Except.ok.inj h; exact ⟨rfl, fun _ _ => rfl⟩
  | succ N ih =>
    rw [heightLoop] at h
    obtain ⟨q, e, h⟩ := run_inv h
    obtain ⟨b1, b2⟩ := ih h
    have key : q.1 = { s with hght := q.1.hght } ∧ ∀ j, s.pres.getD j m = m → q.1.hght.getD j m = s.hght.getD j m := by
      unfold heightStep at e
      obtain ⟨p, hp, e⟩ := run_inv e
      obtain ⟨z, _, e⟩ := run_inv e
      split at e
      · obtain rfl := Except.ok.inj e; exact ⟨rfl, fun _ _ => rfl⟩
      · rename_i hpm
        split at e
        · obtain rfl := Except.ok.inj e; exact ⟨rfl, fun _ _ => rfl⟩
        · split at e
          · obtain rfl := Except.ok.inj e; exact ⟨rfl, fun _ _ => rfl⟩
          · obtain ⟨_, _, e⟩ := run_inv e
            split at e
            · cases e
            · obtain ⟨hh, hput, e⟩ := run_inv e
              obtain rfl := Except.ok.inj e
              refine ⟨rfl, fun j hj => getD_put_ne hput ?_⟩
              rintro rfl
              rw [← idx_val m hp] at hj
              exact hpm hj
    refine ⟨by rw [b1, key.1], fun j hj => ?_⟩
    rw [b2 j (by rw [key.1]; exact hj), key.2 j hj]

theorem extendLoop_miss {c : Calc α} {m : α} {N i : Nat} {s r : Snd α} {b : Layer α} (h : extendLoop c m m N i s b = .ok r) :
    r = { s with hght := r.hght } ∧ ∀ j, s.pres.getD j m = m → s.hght.getD j m = m → r.hght.getD j m = m := by
  induction N generalizing i s b with
  | zero => obtain rfl := Except.ok.inj h; exact ⟨rfl, fun _ _ e => e⟩
  | succ N ih =>
    rw [extendLoop] at h
    obtain ⟨z, _, h⟩ := run_inv h
    obtain ⟨s1, e1, h⟩ := run_inv h
    have key : s1 = { s with hght := s1.hght } ∧ ∀ j, s.pres.getD j m = m → s.hght.getD j m = m → s1.hght.getD j m = m := by
      unfold extendStep at e1
      split at e1
      · obtain ⟨_, _, e1⟩ := run_inv e1
        obtain ⟨_, _, e1⟩ := run_inv e1
        obtain ⟨p, hp, e1⟩ := run_inv e1
        dsimp only at e1
        obtain ⟨hh, hput, e1⟩ := run_inv e1
        obtain rfl := Except.ok.inj e1
        refine ⟨rfl, fun j e2 e3 => ?_⟩
        obtain ⟨l, rfl⟩ := put_val hput
        show (s.hght.set i _).getD j m = m
        rw [getD_set _ _ _ _ _ l]
        split
        · rename_i hj
          subst hj
          rw [idx_val m hp, e2]
          unfold moistHydrostaticHeight
          rw [if_pos (Or.inl (Or.inr (Or.inr (Or.inl rfl))))]
        · exact e3
      · obtain rfl := Except.ok.inj e1; exact ⟨rfl, fun _ _ e => e⟩
    obtain ⟨_, _, h⟩ := run_inv h
    obtain ⟨_, _, h⟩ := run_inv h
    have fin : ∀ {b'}, extendLoop c m m N (i + 1) s1 b' = .ok r →
        r = { s with hght := r.hght } ∧ ∀ j, s.pres.getD j m = m → s.hght.getD j m = m → r.hght.getD j m = m := by
      intro b' h
      obtain ⟨b1, b2⟩ := ih h
      refine ⟨by rw [b1, key.1], fun j e2 e3 => b2 j (by rw [key.1]; exact e2) (key.2 j e2 e3)⟩
    split at h
    · obtain ⟨_, _, h⟩ := run_inv h
      obtain ⟨_, _, h⟩ := run_inv h
      exact fin h
    · exact fin h

theorem logpHeight_miss {c : Calc α} {fuel : Nat} {s r : Snd α} (h : interpLogpHeight c (-9999) fuel s = .ok r) :
    r = { s with hght := r.hght } ∧
      ∀ j, s.pres.getD j (-9999) = -9999 → s.hght.getD j (-9999) = -9999 → r.hght.getD j (-9999) = -9999 := by
  unfold interpLogpHeight at h
  split at h
  · cases h
  · dsimp only at h
    split at h
    · obtain ⟨s1, e1, h⟩ := run_inv h
      obtain ⟨a1, a2⟩ := heightLoop_miss e1
      split at h
      · obtain ⟨_, _, h⟩ := run_inv h
        obtain ⟨_, _, h⟩ := run_inv h
        obtain ⟨_, _, h⟩ := run_inv h
        obtain ⟨_, _, h⟩ := run_inv h
        obtain ⟨b1, b2⟩ := extendLoop_miss h
        refine ⟨by rw [b1, a1], fun j e1 e2 => b2 j (by rw [a1]; exact e1) (by rw [a2 j e1]; exact e2)⟩
      · obtain rfl := Except.ok.inj h
        exact ⟨a1, fun j e1 e2 => by rw [a2 j e1]; exact e2⟩
    · exact extendLoop_miss h

theorem AllRows.heights {s s' : Snd α} (h : AllRows (Row1 rel ps m) m s) (h1 : s' = { s with hght := s'.hght })
    (h2 : ∀ j, s.pres.getD j m = m → s.hght.getD j m = m → s'.hght.getD j m = m) : AllRows (Row1 rel ps m) m s' := by
  intro j
  have := (h j).height (z' := s'.hght.getD j m) fun e => h2 j e ((h j).miss e).1
  rw [h1]
  rw [h1] at this
  exact this

end

end Gempak
