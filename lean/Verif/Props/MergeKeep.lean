import Verif.Proof.MergeKeep
import Mathlib.Tactic.NormNum

/-!
# C87: mandatory levels in the merged sounding
-/

namespace Gempak

set_option linter.unusedSectionVars false

open Spec

section
variable {α : Type} [Field α] [LinearOrder α]

/-! ## Specification -/

/-- Level `i` of a part. -/
structure Spec.PartLevel (p : SndPart α) (i : Nat) (P Z T D R W : α) : Prop where
  pres : p.at "PRES" i = .ok P
  hght : p.at "HGHT" i = .ok Z
  temp : p.at "TEMP" i = .ok T
  dwpt : p.at "DWPT" i = .ok D
  drct : p.at "DRCT" i = .ok R
  sped : p.at "SPED" i = .ok W

/-- The winds of a part are given by pressure, maybe as negative heights. -/
def Spec.OnPressure (p : SndPart α) (m : α) : Prop := p.any (fun x => x.1 = "PRES") = true ∨ ∃ hs, p.col "HGHT" = .ok hs ∧ ∃ z ∈ hs, z ≠ m ∧ z < 0

/-- Pressures a report gives for the surface: of the first level of the mandatory temperatures, of the significant temperatures and of the
significant winds by pressure. -/
inductive Spec.SurfaceAt (ps : SndParts α) (m : α) : α → Prop
  | man {p x} : ps.part "TTAA" = some p → p.at "PRES" 0 = .ok x → Spec.SurfaceAt ps m x
  | sigT {p x} : ps.part "TTBB" = some p → p.at "PRES" 0 = .ok x → Spec.SurfaceAt ps m x
  | sigW {p x} : ps.part "PPBB" = some p → p.at "PRES" 0 = .ok x → Spec.SurfaceAt ps m |x|
  | sigZ {p x} : ps.part "PPBB" = some p → Spec.OnPressure p m → p.at "HGHT" 0 = .ok x → Spec.SurfaceAt ps m |x|

/-- A pressure is above all levels `lo ≤ j < hi` of a part that give their pressure. -/
def Spec.Above (m P : α) (p : SndPart α) (lo hi : Nat) : Prop := ∀ j x, lo ≤ j → j < hi → p.at "PRES" j = .ok x → x ≠ m → P < x

/-- No tropopause at a pressure. -/
def Spec.NoTropAt (ps : SndParts α) (P : α) : Prop :=
  ∀ name, name = "TRPA" ∨ name = "TRPC" → ∀ p, ps.part name = some p → ∀ col, p.col "PRES" = .ok col → ∀ x ∈ col, |x| ≠ P

/-- No significant winds by height in the lower part. -/
def Spec.NoWindsByHeight (ps : SndParts α) (m : α) : Prop := ∀ p, ps.part "PPBB" = some p → Spec.OnPressure p m ∨ p.col "SPED" = .ok []

/-- The level is in the sounding: pressure and temperature, the dew point if there is one, the height, the wind. -/
structure Spec.LevelIn (ps : SndParts α) (m : α) (s : Snd α) (P Z T D R W : α) (j : Nat) : Prop where
  pres : s.pres[j]? = some P
  temp : s.temp[j]? = some T
  dwpt : D ≠ m → s.dwpt[j]? = some D
  hght : Spec.NoTropAt ps P → s.hght[j]? = some Z
  wind : Spec.NoWindsByHeight ps m → R ≠ m → W ≠ m → s.drct[j]? = some R ∧ s.sped[j]? = some W

/-! ## Appending a level -/

/-- A column by name. -/
def Snd.colOf (s : Snd α) (k : String) : List α :=
  if k = "PRES" then s.pres else if k = "HGHT" then s.hght else if k = "TEMP" then s.temp else if k = "DWPT" then s.dwpt
  else if k = "DRCT" then s.drct else if k = "SPED" then s.sped else []

theorem appendNamed_colOf {s s' : Snd α} {name : String} {v : α} (h : appendNamed s name v = .ok s') (k : String) :
    s'.colOf k = s.colOf k ++ if name = k then [v] else [] := by
  have key : ∀ c : String, name = c → (name = k ↔ k = c) := fun c e => by rw [e]; exact eq_comm
  unfold appendNamed at h
  repeat' split at h
  all_goals first
    | cases h; done
    | skip
  all_goals
    rename_i e
    obtain rfl := Except.ok.inj h
    simp only [key _ e, Snd.colOf]
    repeat' split
    all_goals first | rfl | simp_all

theorem appendLevel_colOf {i : Nat} {p : SndPart α} {s s' : Snd α} (h : appendLevel i p s = .ok s') (k : String) :
    ((names p).count k = 0 → s'.colOf k = s.colOf k) ∧
      ((names p).count k = 1 → ∃ v, p.at k i = .ok v ∧ s'.colOf k = s.colOf k ++ [v]) := by
  induction p generalizing s with
  | nil =>
    obtain rfl := Except.ok.inj h
    exact ⟨fun _ => rfl, fun h => by simp [names] at h⟩
  | cons x r ih =>
    obtain ⟨name, col⟩ := x
    rw [appendLevel] at h
    obtain ⟨v, hv, h⟩ := run_inv h
    obtain ⟨s1, h1, h⟩ := run_inv h
    have a1 := appendNamed_colOf h1 k
    obtain ⟨b2, b3⟩ := ih h
    have ec : (names ((name, col) :: r)).count k = (names r).count k + if name = k then 1 else 0 := by
      simp only [names, List.map_cons, List.count_cons, beq_iff_eq]
    refine ⟨?_, ?_⟩
    · intro h0
      rw [ec] at h0
      by_cases hn : name = k
      · rw [if_pos hn] at h0; omega
      · rw [if_neg hn] at h0 a1
        rw [b2 (by omega), a1, List.append_nil]
    · intro h0
      rw [ec] at h0
      by_cases hn : name = k
      · rw [if_pos hn] at h0 a1
        refine ⟨v, ?_, by rw [b2 (by omega), a1]⟩
        unfold SndPart.at SndPart.col
        rw [List.find?_cons_of_pos (by simpa using hn)]
        exact hv
      · rw [if_neg hn] at h0 a1
        obtain ⟨w, c1, c2⟩ := b3 (by omega)
        refine ⟨w, ?_, by rw [c2, a1, List.append_nil]⟩
        unfold SndPart.at SndPart.col at c1 ⊢
        rw [List.find?_cons_of_neg (by simpa using hn)]
        exact c1

/-- A level with given values. -/
structure RowAt (s : Snd α) (j : Nat) (P Z T D R W : α) : Prop where
  pres : s.pres[j]? = some P
  hght : s.hght[j]? = some Z
  temp : s.temp[j]? = some T
  dwpt : s.dwpt[j]? = some D
  drct : s.drct[j]? = some R
  sped : s.sped[j]? = some W

theorem getElem?_append_some {l t : List α} {j : Nat} {v : α} (h : l[j]? = some v) : (l ++ t)[j]? = some v := by
  obtain ⟨hj, _⟩ := List.getElem?_eq_some_iff.1 h
  rw [List.getElem?_append_left hj]; exact h

theorem six_count {p : SndPart α} (hp : SixNames p) {k : String} (hk : k ∈ ["PRES", "HGHT", "TEMP", "DWPT", "DRCT", "SPED"]) :
    (names p).count k = 1 := by
  rw [names, hp.count_eq]
  revert k
  decide

theorem appendLevel_row {i : Nat} {p : SndPart α} {s s' : Snd α} (hp : SixNames p) (h : appendLevel i p s = .ok s') :
    (∀ j P Z T D R W, RowAt s j P Z T D R W → RowAt s' j P Z T D R W) ∧
      ∀ n P Z T D R W, s.Size n → PartLevel p i P Z T D R W → RowAt s' n P Z T D R W := by
  obtain ⟨v1, a1, b1⟩ := (appendLevel_colOf h "PRES").2 (six_count hp (by decide))
  obtain ⟨v2, a2, b2⟩ := (appendLevel_colOf h "HGHT").2 (six_count hp (by decide))
  obtain ⟨v3, a3, b3⟩ := (appendLevel_colOf h "TEMP").2 (six_count hp (by decide))
  obtain ⟨v4, a4, b4⟩ := (appendLevel_colOf h "DWPT").2 (six_count hp (by decide))
  obtain ⟨v5, a5, b5⟩ := (appendLevel_colOf h "DRCT").2 (six_count hp (by decide))
  obtain ⟨v6, a6, b6⟩ := (appendLevel_colOf h "SPED").2 (six_count hp (by decide))
  change s'.pres = s.pres ++ _ at b1
  change s'.hght = s.hght ++ _ at b2
  change s'.temp = s.temp ++ _ at b3
  change s'.dwpt = s.dwpt ++ _ at b4
  change s'.drct = s.drct ++ _ at b5
  change s'.sped = s.sped ++ _ at b6
  refine ⟨fun j P Z T D R W r => ?_, fun n P Z T D R W hn l => ?_⟩
  · exact ⟨b1 ▸ getElem?_append_some r.pres, b2 ▸ getElem?_append_some r.hght, b3 ▸ getElem?_append_some r.temp,
      b4 ▸ getElem?_append_some r.dwpt, b5 ▸ getElem?_append_some r.drct, b6 ▸ getElem?_append_some r.sped⟩
  · rw [Except.ok.inj (a1.symm.trans l.pres)] at b1
    rw [Except.ok.inj (a2.symm.trans l.hght)] at b2
    rw [Except.ok.inj (a3.symm.trans l.temp)] at b3
    rw [Except.ok.inj (a4.symm.trans l.dwpt)] at b4
    rw [Except.ok.inj (a5.symm.trans l.drct)] at b5
    rw [Except.ok.inj (a6.symm.trans l.sped)] at b6
    have g : ∀ (q : List α) (v : α), q.length = n → (q ++ [v])[n]? = some v := by
      rintro q v rfl
      exact List.getElem?_concat_length
    exact ⟨b1 ▸ g _ _ hn.pres, b2 ▸ g _ _ hn.hght, b3 ▸ g _ _ hn.temp, b4 ▸ g _ _ hn.dwpt, b5 ▸ g _ _ hn.drct, b6 ▸ g _ _ hn.sped⟩

/-! ## Mandatory levels -/

theorem takesLevel_val {p : SndPart α} {m plast : α} {i : Nat} {b : Bool} (h : takesLevel p m plast i = .ok b) (hb : b = true) :
    ∃ x, p.at "PRES" i = .ok x ∧ x ≠ m := by
  unfold takesLevel at h
  obtain ⟨x, hx, h⟩ := run_inv h
  refine ⟨x, hx, ?_⟩
  split at h
  · split at h
    · assumption
    · rw [← Except.ok.inj h] at hb; cases hb
  · rw [← Except.ok.inj h] at hb; cases hb

theorem takesLevel_yes {p : SndPart α} {m plast P Z T D R W : α} {i : Nat} (l : PartLevel p i P Z T D R W) (h1 : P < plast) (h2 : P ≠ m)
    (h3 : T ≠ m) (h4 : Z ≠ m) : takesLevel p m plast i = .ok true := by
  unfold takesLevel
  rw [l.pres, ok_bind, if_pos h1, if_pos h2, l.temp, ok_bind, if_pos h3, l.hght, ok_bind, decide_eq_true h4]

theorem mergeMan_rows {p : SndPart α} {m : α} {N i : Nat} {s : Snd α} {plast : α} {bgl : Nat} {r : Snd α × α × Nat} (hp : SixNames p)
    (hs : Same s) (h : mergeMan p m N i s plast bgl = .ok r) :
    (∀ j P Z T D R W, RowAt s j P Z T D R W → RowAt r.1 j P Z T D R W) ∧
    (∀ P, P < plast → Above m P p i (i + N) → P < r.2.1) ∧
    ∀ k P Z T D R W, i ≤ k → k < i + N → PartLevel p k P Z T D R W → P ≠ m → T ≠ m → Z ≠ m → P < plast → Above m P p i k →
      ∃ j, RowAt r.1 j P Z T D R W := by
  induction N generalizing i s plast bgl with
  | zero =>
    obtain rfl := Except.ok.inj h
    exact ⟨fun _ _ _ _ _ _ _ h => h, fun _ h _ => h, fun k _ _ _ _ _ _ _ _ => by omega⟩
  | succ N ih =>
    rw [mergeMan] at h
    obtain ⟨b, hb, h⟩ := run_inv h
    split at h
    · rename_i hbt
      obtain ⟨s1, h1, h⟩ := run_inv h
      obtain ⟨pl, h2, h⟩ := run_inv h
      obtain ⟨n, hn⟩ := hs
      have hsz := appendLevel_same hp hn h1
      obtain ⟨x, hx, hxm⟩ := takesLevel_val hb hbt
      obtain ⟨c1, c2⟩ := appendLevel_row hp h1
      obtain ⟨d1, d2, d3⟩ := ih ⟨n + 1, hsz⟩ h
      have epl : pl = x := by
        obtain ⟨v, e1, e2⟩ := (appendLevel_colOf h1 "PRES").2 (six_count hp (by decide))
        change s1.pres = s.pres ++ _ at e2
        unfold lastPres at h2
        rw [hsz.pres] at h2
        have := idx_val m h2
        rw [this, e2, List.getD_eq_getElem?_getD, Nat.add_sub_cancel, ← hn.pres, List.getElem?_concat_length]
        exact Except.ok.inj (e1.symm.trans hx)
      subst epl
      refine ⟨fun j P Z T D R W q => d1 _ _ _ _ _ _ _ (c1 _ _ _ _ _ _ _ q), fun P hP ha => ?_, fun k P Z T D R W h3 h4 l e1 e2 e3 hP ha => ?_⟩
      · exact d2 P (ha i pl (le_refl _) (by omega) hx hxm) fun j y hj1 hj2 => ha j y (by omega) (by omega)
      · by_cases hk : k = i
        · subst hk
          exact ⟨n, d1 _ _ _ _ _ _ _ (c2 n _ _ _ _ _ _ hn l)⟩
        · exact d3 k P Z T D R W (by omega) (by omega) l e1 e2 e3 (ha i pl (le_refl _) (by omega) hx hxm)
            fun j y hj1 hj2 => ha j y (by omega) hj2
    · rename_i hbf
      obtain ⟨_, _, h⟩ := run_inv h
      obtain ⟨_, _, h⟩ := run_inv h
      obtain ⟨d1, d2, d3⟩ := ih hs h
      refine ⟨d1, fun P hP ha => d2 P hP fun j y hj1 hj2 => ha j y (by omega) (by omega), fun k P Z T D R W h3 h4 l e1 e2 e3 hP ha => ?_⟩
      by_cases hk : k = i
      · subst hk
        rw [takesLevel_yes l hP e1 e2 e3] at hb
        exact absurd (Except.ok.inj hb).symm hbf
      · exact d3 k P Z T D R W (by omega) (by omega) l e1 e2 e3 hP fun j y hj1 hj2 => ha j y (by omega) hj2

/-! ## The surface pressure -/

/-- The pressure of the first level is missing or given by the report. -/
def SfcFrom (ps : SndParts α) (m : α) (s : Snd α) : Prop := s.pres.getD 0 m = m ∨ SurfaceAt ps m (s.pres.getD 0 m)

theorem surfaceLevel_from {ps : SndParts α} {m : α} {c : Counts} {s : Snd α} (h : surfaceLevel ps m c = .ok s) : SfcFrom ps m s := by
  unfold surfaceLevel at h
  split at h
  · obtain rfl := Except.ok.inj h; exact Or.inl rfl
  · obtain ⟨p, hp, h⟩ := run_inv h
    obtain ⟨x, hx, h⟩ := run_inv h
    obtain ⟨_, _, h⟩ := run_inv h
    obtain ⟨_, _, h⟩ := run_inv h
    obtain ⟨_, _, h⟩ := run_inv h
    obtain ⟨_, _, h⟩ := run_inv h
    obtain ⟨_, _, h⟩ := run_inv h
    obtain rfl := Except.ok.inj h
    exact Or.inr (.man (get_part hp) hx)

theorem surfaceCheck_from {ps : SndParts α} {m f : α} {s s' : Snd α} (hs : SfcFrom ps m s) (h : surfaceCheck m f s = .ok s') : SfcFrom ps m s' := by
  unfold surfaceCheck at h
  obtain ⟨p, ep, h⟩ := run_inv h
  dsimp only at h
  generalize (if p > 1060 then m else p) = sp at h
  split at h
  · obtain ⟨_, hz, h⟩ := run_inv h
    obtain ⟨_, _, h⟩ := run_inv h
    obtain ⟨_, _, h⟩ := run_inv h
    obtain ⟨_, _, h⟩ := run_inv h
    obtain ⟨_, _, h⟩ := run_inv h
    obtain ⟨_, _, h⟩ := run_inv h
    obtain rfl := Except.ok.inj h
    obtain ⟨h1, rfl⟩ := put_val hz
    exact Or.inl (getD_set_same _ _ _ _ h1)
  · obtain rfl := Except.ok.inj h; exact hs

theorem surfaceSigT_from {ps : SndParts α} {m : α} {c : Counts} {s s' : Snd α} (hs : SfcFrom ps m s) (h : surfaceSigT ps m c s = .ok s') :
    SfcFrom ps m s' := by
  unfold surfaceSigT at h
  split at h
  · obtain rfl := Except.ok.inj h; exact hs
  · obtain ⟨b, hb, h⟩ := run_inv h
    obtain ⟨p, hp, h⟩ := run_inv h
    split at h
    · obtain rfl := Except.ok.inj h; exact hs
    · obtain ⟨t, _, h⟩ := run_inv h
      split at h
      · obtain rfl := Except.ok.inj h; exact hs
      · obtain ⟨f, _, h⟩ := run_inv h
        split at h
        · obtain ⟨pr, hpr, h⟩ := run_inv h
          obtain ⟨_, _, h⟩ := run_inv h
          obtain ⟨_, _, h⟩ := run_inv h
          obtain ⟨_, _, h⟩ := run_inv h
          obtain rfl := Except.ok.inj h
          obtain ⟨h1, rfl⟩ := put_val hpr
          right
          show SurfaceAt ps m ((s.pres.set 0 p).getD 0 m)
          rw [getD_set_same _ _ _ _ h1]
          exact .sigT (get_part hb) hp
        · obtain rfl := Except.ok.inj h; exact hs

theorem surfaceSigW_from {ps : SndParts α} {b : Option (SndPart α)} {z : Bool} {m : α} {c : Counts} {s s' : Snd α}
    (hb : z = false → ∀ q x, b = some q → q.at "PRES" 0 = .ok x → SurfaceAt ps m |x|) (hs : SfcFrom ps m s)
    (h : surfaceSigW b z m c s = .ok s') : SfcFrom ps m s' := by
  unfold surfaceSigW at h
  split at h
  · obtain rfl := Except.ok.inj h; exact hs
  · split at h
    · cases h
    · rename_i q
      split at h
      · obtain ⟨_, _, h⟩ := run_inv h
        split at h
        · obtain ⟨_, _, h⟩ := run_inv h
          split at h
          · obtain ⟨_, _, h⟩ := run_inv h
            obtain ⟨_, _, h⟩ := run_inv h
            obtain ⟨_, _, h⟩ := run_inv h
            obtain rfl := Except.ok.inj h; exact hs
          · obtain rfl := Except.ok.inj h; exact hs
        · obtain rfl := Except.ok.inj h; exact hs
      · rename_i hz
        obtain ⟨p, ep, h⟩ := run_inv h
        split at h
        · obtain ⟨_, _, h⟩ := run_inv h
          split at h
          · obtain ⟨_, _, h⟩ := run_inv h
            split at h
            · obtain ⟨pr, hp, h⟩ := run_inv h
              obtain ⟨_, _, h⟩ := run_inv h
              obtain ⟨_, _, h⟩ := run_inv h
              obtain ⟨_, _, h⟩ := run_inv h
              obtain rfl := Except.ok.inj h
              obtain ⟨h1, rfl⟩ := put_val hp
              right
              show SurfaceAt ps m ((s.pres.set 0 |p|).getD 0 m)
              rw [getD_set_same _ _ _ _ h1]
              exact hb (by cases z <;> simp_all) q p rfl ep
            · obtain rfl := Except.ok.inj h; exact hs
          · obtain rfl := Except.ok.inj h; exact hs
        · obtain rfl := Except.ok.inj h; exact hs

theorem windCoord_inv {ps : SndParts α} {m : α} {name : String} {n : Nat} {b : Bool × Option (SndPart α)} (h : windCoord ps m name n = .ok b) :
    (n = 0 ∧ b.1 = true) ∨ ∃ p, ps.part name = some p ∧
      ((OnPressure p m ∧ b.1 = false ∧ ∀ q x, b.2 = some q → q.at "PRES" 0 = .ok x → p.at "PRES" 0 = .ok x ∨ p.at "HGHT" 0 = .ok x) ∨
        (¬ OnPressure p m ∧ b.1 = true)) := by
  unfold windCoord at h
  split at h
  · rename_i e
    obtain rfl := Except.ok.inj h; exact Or.inl ⟨e, rfl⟩
  · obtain ⟨p, hp, h⟩ := run_inv h
    refine Or.inr ⟨p, get_part hp, ?_⟩
    split at h
    · rename_i e
      obtain rfl := Except.ok.inj h
      refine Or.inl ⟨Or.inl e, rfl, fun q x eq hx => ?_⟩
      obtain rfl := Option.some.inj eq
      exact Or.inl hx
    · rename_i hno
      obtain ⟨hs, hh, h⟩ := run_inv h
      split at h
      · rename_i e
        obtain rfl := Except.ok.inj h
        refine Or.inl ⟨Or.inr ⟨hs, hh, ?_⟩, rfl, fun q x eq hx => ?_⟩
        · obtain ⟨z, hz, e⟩ := List.any_eq_true.1 e
          exact ⟨z, hz, by simpa using e⟩
        · obtain rfl := Option.some.inj eq
          right
          have hnone : p.find? (fun x => x.1 = "PRES") = none := by
            rw [List.find?_eq_none]
            intro y hy e
            exact hno (List.any_eq_true.2 ⟨y, hy, e⟩)
          unfold SndPart.at at hx ⊢
          unfold SndPart.col at hx
          rw [List.find?_append, hnone, Option.none_or, List.find?_cons_of_pos (by simp)] at hx
          rw [hh]
          exact hx
      · rename_i e
        obtain rfl := Except.ok.inj h
        refine Or.inr ⟨?_, rfl⟩
        rintro (h1 | ⟨hs', h1, z, hz, h2, h3⟩)
        · exact hno h1
        · obtain rfl := Except.ok.inj (hh.symm.trans h1)
          exact e (List.any_eq_true.2 ⟨z, hz, by simp [h2, h3]⟩)

theorem count_part {ps : SndParts α} {name key : String} {n : Nat} (h : ps.count name key = .ok n) :
    ∀ p, ps.part name = some p → ∃ col, p.col key = .ok col ∧ col.length = n := by
  intro p hp
  unfold SndParts.count at h
  rw [hp] at h
  obtain ⟨c, hc, h⟩ := run_inv h
  exact ⟨c, hc, Except.ok.inj h⟩

theorem at_lt {p : SndPart α} {k : String} {i : Nat} {x : α} {col : List α} (h : p.at k i = .ok x) (hc : p.col k = .ok col) : i < col.length := by
  unfold SndPart.at at h
  rw [hc, ok_bind] at h
  unfold idx at h
  split at h
  · rename_i w hw
    exact (List.getElem?_eq_some_iff.1 hw).1
  · cases h

/-! ## The levels after the mandatory winds -/

/-- A level of the report that is to be taken: it gives pressure, temperature and height, and its pressure is less than 2000, less than that of
the surface and less than those of the levels before it. -/
def Spec.Taken (ps : SndParts α) (m : α) (P Z T : α) : Prop := P ≠ m ∧ T ≠ m ∧ Z ≠ m ∧ P < 2000 ∧ ∀ x, SurfaceAt ps m x → x ≠ m → P < x

/-- Pressures after the mandatory temperatures: the surface, then pressures that fall, are given, differ from the surface and are `O`. -/
def ManTail (m : α) (O : α → Prop) (p0 : α) (s : Snd α) (plast : α) : Prop :=
  ∃ t, s.pres = p0 :: t ∧ t.Pairwise (fun x y => y < x) ∧ (∀ x ∈ t, plast ≤ x ∧ x ≠ m ∧ x ≠ p0 ∧ O x) ∧ (p0 = m ∨ plast ≤ p0)

theorem mergeMan_tail {p : SndPart α} {m : α} {O : α → Prop} {N i : Nat} {s : Snd α} {p0 plast : α} {bgl : Nat} {r : Snd α × α × Nat} (hp : SixNames p)
    (hO : ∀ j x, i ≤ j → p.at "PRES" j = .ok x → O x) (hs : ManTail m O p0 s plast) (h : mergeMan p m N i s plast bgl = .ok r) :
    ManTail m O p0 r.1 r.2.1 := by
  induction N generalizing i s plast bgl with
  | zero => obtain rfl := Except.ok.inj h; exact hs
  | succ N ih =>
    rw [mergeMan] at h
    obtain ⟨b, hb, h⟩ := run_inv h
    split at h
    · rename_i hbt
      obtain ⟨s1, h1, h⟩ := run_inv h
      obtain ⟨pl, h2, h⟩ := run_inv h
      refine ih (fun j x hj => hO j x (by omega)) ?_ h
      obtain ⟨v, e1, e2⟩ := (appendLevel_colOf h1 "PRES").2 (six_count hp (by decide))
      change s1.pres = s.pres ++ [v] at e2
      have epl : pl = v := by
        unfold lastPres at h2
        rw [e2] at h2
        have := idx_val m h2
        rw [this, List.getD_eq_getElem?_getD, List.length_append, List.length_singleton, Nat.add_sub_cancel, List.getElem?_concat_length]
        rfl
      subst epl
      have hv : pl < plast ∧ pl ≠ m := by
        unfold takesLevel at hb
        rw [e1, ok_bind] at hb
        split at hb
        · rename_i hlt
          split at hb
          · rename_i hne
            exact ⟨hlt, hne⟩
          · rw [← Except.ok.inj hb] at hbt; cases hbt
        · rw [← Except.ok.inj hb] at hbt; cases hbt
      obtain ⟨t, a1, a2, a3, a4⟩ := hs
      have hp0 : pl ≠ p0 ∧ (p0 = m ∨ pl ≤ p0) := by
        rcases a4 with e | e
        · exact ⟨by rw [e]; exact hv.2, Or.inl e⟩
        · exact ⟨(lt_of_lt_of_le hv.1 e).ne, Or.inr (lt_of_lt_of_le hv.1 e).le⟩
      refine ⟨t ++ [pl], by rw [e2, a1]; rfl, ?_, ?_, hp0.2⟩
      · rw [List.pairwise_append]
        refine ⟨a2, List.pairwise_singleton _ _, fun x hx y hy => ?_⟩
        rw [List.mem_singleton.1 hy]
        exact lt_of_lt_of_le hv.1 (a3 x hx).1
      · intro x hx
        rcases List.mem_append.1 hx with hx | hx
        · obtain ⟨b1, b2⟩ := a3 x hx
          exact ⟨hv.1.le.trans b1, b2⟩
        · rw [List.mem_singleton.1 hx]
          exact ⟨le_refl _, hv.2, hp0.1, hO i pl (le_refl _) e1⟩
    · obtain ⟨_, _, h⟩ := run_inv h
      obtain ⟨_, _, h⟩ := run_inv h
      exact ih (fun j x hj => hO j x (by omega)) hs h

/-- The pressure of a mandatory temperature level. -/
def Spec.MandatoryAt (ps : SndParts α) (P : α) : Prop :=
  (∃ p i, ps.part "TTAA" = some p ∧ 1 ≤ i ∧ p.at "PRES" i = .ok P) ∨ ∃ p i, ps.part "TTCC" = some p ∧ p.at "PRES" i = .ok P

/-- Mandatory winds, when there are any. -/
def manWinds (ps : SndParts α) (m : α) (name : String) (nw nm : Nat) (s : Snd α) : Run (Snd α) :=
  if 1 ≤ nw ∧ 1 ≤ nm ∧ 2 ≤ s.pres.length then do
    let p ← ps.get name
    mergeManWind p m (← p.col "PRES") 0 s
  else .ok s

theorem mandatory_levels {ps : SndParts α} {m : α} {n : Counts} {b : Bool × Option (SndPart α)} {r : Snd α × Nat} {P Z T D R W : α}
    (hn : ps.counts = .ok n) (hb : windCoord ps m "PPBB" n.sigW = .ok b)
    (hA : ∀ p, ps.part "TTAA" = some p → SixNames p) (hC : ∀ p, ps.part "TTCC" = some p → SixNames p)
    (h : mergeMandatory ps m n b.1 b.2 = .ok r) (ht : Taken ps m P Z T)
    (hl : (∃ p i, ps.part "TTAA" = some p ∧ 1 ≤ i ∧ PartLevel p i P Z T D R W ∧ Above m P p 1 i) ∨
      ∃ p i, ps.part "TTCC" = some p ∧ PartLevel p i P Z T D R W ∧ Above m P p 0 i ∧
        ∀ q col, ps.part "TTAA" = some q → q.col "PRES" = .ok col → Above m P q 1 col.length) :
    ∃ s s' j p0 plast, RowAt s j P Z T D R W ∧ P ≠ p0 ∧ (p0 = m ∨ SurfaceAt ps m p0) ∧ ManTail m (MandatoryAt ps) p0 s plast ∧
      manWinds ps m "PPAA" n.manWind n.man s = .ok s' ∧ manWinds ps m "PPCC" n.aManWind n.man s' = .ok r.1 := by
  obtain ⟨ht1, ht2, ht3, ht4, ht5⟩ := ht
  have hman : ps.count "TTAA" "PRES" = .ok n.man ∧ ps.count "TTCC" "PRES" = .ok n.aMan := by
    unfold SndParts.counts at hn
    obtain ⟨_, e1, hn⟩ := run_inv hn
    obtain ⟨_, _, hn⟩ := run_inv hn
    obtain ⟨_, _, hn⟩ := run_inv hn
    obtain ⟨_, _, hn⟩ := run_inv hn
    obtain ⟨_, _, hn⟩ := run_inv hn
    obtain ⟨_, _, hn⟩ := run_inv hn
    obtain ⟨_, e2, hn⟩ := run_inv hn
    obtain ⟨_, _, hn⟩ := run_inv hn
    obtain ⟨_, _, hn⟩ := run_inv hn
    obtain ⟨_, _, hn⟩ := run_inv hn
    obtain ⟨_, _, hn⟩ := run_inv hn
    obtain ⟨_, _, hn⟩ := run_inv hn
    obtain rfl := Except.ok.inj hn
    exact ⟨e1, e2⟩
  unfold mergeMandatory at h
  obtain ⟨s0, h0, h⟩ := run_inv h
  obtain ⟨f, _, h⟩ := run_inv h
  obtain ⟨s1, h1, h⟩ := run_inv h
  obtain ⟨s2, h2, h⟩ := run_inv h
  obtain ⟨s3, h3, h⟩ := run_inv h
  obtain ⟨p0, hp0, h⟩ := run_inv h
  dsimp only at h
  obtain ⟨r4, h4, h⟩ := run_inv h
  obtain ⟨r5, h5, h⟩ := run_inv h
  obtain ⟨s6, h6, h⟩ := run_inv h
  obtain ⟨s7, h7, h⟩ := run_inv h
  obtain rfl := Except.ok.inj h
  have k3 : Same s3 := ⟨1, surfaceSigW_same (surfaceSigT_same (surfaceCheck_same (surfaceLevel_same h0) h1) h2) h3⟩
  have f3 : SfcFrom ps m s3 := by
    refine surfaceSigW_from ?_ (surfaceSigT_from (surfaceCheck_from (surfaceLevel_from h0) h1) h2) h3
    intro hz q x hq hx
    rcases windCoord_inv hb with ⟨_, e⟩ | ⟨p, hp, ⟨hon, _, e⟩ | ⟨_, e⟩⟩
    · rw [hz] at e; cases e
    · rcases e q x hq hx with e | e
      · exact .sigW hp e
      · exact .sigZ hp hon e
    · rw [hz] at e; cases e
  have hlt : P < if p0 = m then 2000 else p0 := by
    by_cases e : p0 = m
    · rw [if_pos e]; exact ht4
    · rw [if_neg e]
      have ep := idx_val m hp0
      rcases f3 with e' | e'
      · exact absurd (ep.trans e') e
      · rw [← ep] at e'; exact ht5 p0 e' e
  have hp0P : P ≠ p0 := by
    rintro rfl
    rw [if_neg ht1] at hlt
    exact lt_irrefl _ hlt
  have t3 : ManTail m (MandatoryAt ps) p0 s3 (if p0 = m then 2000 else p0) := by
    obtain ⟨k, hk⟩ := k3
    refine ⟨[], ?_, List.Pairwise.nil, fun x hx => (by cases hx), ?_⟩
    · have hs3 := surfaceSigW_same (surfaceSigT_same (surfaceCheck_same (surfaceLevel_same h0) h1) h2) h3
      have ep := idx_val m hp0
      cases hq : s3.pres with
      | nil => have := hs3.pres; rw [hq] at this; cases this
      | cons x l =>
        have := hs3.pres
        rw [hq] at this ep
        obtain rfl : l = [] := List.length_eq_zero_iff.1 (by simpa using this)
        rw [ep]; rfl
    · by_cases e : p0 = m
      · exact Or.inl e
      · rw [if_neg e]; exact Or.inr (le_refl _)
  generalize (if p0 = m then (2000 : α) else p0) = pl at h4 hlt t3
  have hrow : ∃ j, RowAt r5.1 j P Z T D R W := by
    have m5 : ∀ j, RowAt r4.1 j P Z T D R W → RowAt r5.1 j P Z T D R W := by
      have k4 : Same r4.1 := by
        rcases whenSome_inv h4 with ⟨_, e⟩ | ⟨_, e⟩
        · obtain ⟨p, hp, e⟩ := run_inv e
          exact mergeMan_same (hA p (get_part hp)) k3 e
        · rw [e]; exact k3
      rcases whenSome_inv h5 with ⟨_, e⟩ | ⟨_, e⟩
      · obtain ⟨p, hp, e⟩ := run_inv e
        exact fun j q => (mergeMan_rows (hC p (get_part hp)) k4 e).1 _ _ _ _ _ _ _ q
      · rw [e]; exact fun _ q => q
    rcases hl with ⟨p, i, hp, hi, l, ha⟩ | ⟨p, i, hp, l, ha, hq⟩
    · obtain ⟨col, hc, hcl⟩ := count_part hman.1 p hp
      have := at_lt l.pres hc
      rcases whenSome_inv h4 with ⟨_, e⟩ | ⟨e, _⟩
      · obtain ⟨p', hp', e⟩ := run_inv e
        obtain rfl := Option.some.inj (hp.symm.trans (get_part hp'))
        obtain ⟨j, q⟩ := (mergeMan_rows (hA p hp) k3 e).2.2 i P Z T D R W hi (by omega) l ht1 ht2 ht3 hlt ha
        exact ⟨j, m5 j q⟩
      · omega
    · obtain ⟨col, hc, hcl⟩ := count_part hman.2 p hp
      have := at_lt l.pres hc
      have hlt4 : P < r4.2.1 ∧ Same r4.1 := by
        rcases whenSome_inv h4 with ⟨hge, e⟩ | ⟨_, e⟩
        · obtain ⟨p', hp', e⟩ := run_inv e
          have hp' := get_part hp'
          obtain ⟨col', hc', hcl'⟩ := count_part hman.1 p' hp'
          refine ⟨(mergeMan_rows (hA p' hp') k3 e).2.1 P hlt fun j x h1 h2 => hq p' col' hp' hc' j x h1 (by omega), mergeMan_same (hA p' hp') k3 e⟩
        · rw [e]; exact ⟨hlt, k3⟩
      rcases whenSome_inv h5 with ⟨_, e⟩ | ⟨e, _⟩
      · obtain ⟨p', hp', e⟩ := run_inv e
        obtain rfl := Option.some.inj (hp.symm.trans (get_part hp'))
        exact (mergeMan_rows (hC p hp) hlt4.2 e).2.2 i P Z T D R W (by omega) (by omega) l ht1 ht2 ht3 hlt4.1 ha
      · omega
  obtain ⟨j, hj⟩ := hrow
  have t4 : ManTail m (MandatoryAt ps) p0 r4.1 r4.2.1 := by
    rcases whenSome_inv h4 with ⟨_, e⟩ | ⟨_, e⟩
    · obtain ⟨p, hp, e⟩ := run_inv e
      exact mergeMan_tail (hA p (get_part hp)) (fun j x hj hx => Or.inl ⟨p, j, get_part hp, hj, hx⟩) t3 e
    · rw [e]; exact t3
  have t5 : ManTail m (MandatoryAt ps) p0 r5.1 r5.2.1 := by
    rcases whenSome_inv h5 with ⟨_, e⟩ | ⟨_, e⟩
    · obtain ⟨p, hp, e⟩ := run_inv e
      exact mergeMan_tail (hC p (get_part hp)) (fun j x _ hx => Or.inr ⟨p, j, get_part hp, hx⟩) t4 e
    · rw [e]; exact t4
  exact ⟨r5.1, s6, j, p0, r5.2.1, hj, hp0P, by rw [idx_val m hp0]; exact f3, t5, h6, h7⟩

theorem keeps_manWinds {ps : SndParts α} {m : α} {name : String} {nw nm : Nat} {s s' : Snd α} {hOK : α → Prop} {wOK : Prop}
    (h : manWinds ps m name nw nm s = .ok s') : KeepsRows m hOK wOK s s' := by
  unfold manWinds at h
  split at h
  · obtain ⟨p, _, h⟩ := run_inv h
    obtain ⟨_, _, h⟩ := run_inv h
    exact keeps_manWind h
  · obtain rfl := Except.ok.inj h; exact KeepsRows.refl _

theorem mandatory_rows {ps : SndParts α} {m : α} {n : Counts} {b : Bool × Option (SndPart α)} {r : Snd α × Nat} {P Z T D R W : α}
    {hOK : α → Prop} {wOK : Prop} (hn : ps.counts = .ok n) (hb : windCoord ps m "PPBB" n.sigW = .ok b)
    (hA : ∀ p, ps.part "TTAA" = some p → SixNames p) (hC : ∀ p, ps.part "TTCC" = some p → SixNames p)
    (h : mergeMandatory ps m n b.1 b.2 = .ok r) (ht : Taken ps m P Z T)
    (hl : (∃ p i, ps.part "TTAA" = some p ∧ 1 ≤ i ∧ PartLevel p i P Z T D R W ∧ Above m P p 1 i) ∨
      ∃ p i, ps.part "TTCC" = some p ∧ PartLevel p i P Z T D R W ∧ Above m P p 0 i ∧
        ∀ q col, ps.part "TTAA" = some q → q.col "PRES" = .ok col → Above m P q 1 col.length) :
    ∃ s j, RowAt s j P Z T D R W ∧ KeepsRows m hOK wOK s r.1 := by
  obtain ⟨s, s', j, _, _, row, _, _, _, h1, h2⟩ := mandatory_levels hn hb hA hC h ht hl
  exact ⟨s, j, row, (keeps_manWinds h1).trans (keeps_manWinds h2)⟩

theorem getD_some {l : List α} {j : Nat} {v : α} (m : α) (h : l[j]? = some v) : l.getD j m = v := by
  rw [List.getD_eq_getElem?_getD, h]; rfl

theorem some_getD {l : List α} {j : Nat} {v m : α} (h : l.getD j m = v) (hv : v ≠ m) : l[j]? = some v := by
  rw [List.getD_eq_getElem?_getD] at h
  cases e : l[j]? with
  | none => rw [e] at h; exact absurd h.symm hv
  | some w => rw [e] at h; exact congrArg some h

/-- Rows kept from the mandatory levels to the end of the merge. -/
theorem merge_keeps_kept [FloorRing α] {c : Calc α} {m : α} {fuel : Nat} {ps : SndParts α} {s s0 : Snd α}
    (hA : ∀ p, ps.part "TTAA" = some p → SixNames p) (hC : ∀ p, ps.part "TTCC" = some p → SixNames p)
    (h : mergeSounding c m fuel ps = .ok (some s))
    (hl : ∀ n b r, ps.counts = .ok n → windCoord ps m "PPBB" n.sigW = .ok b → mergeMandatory ps m n b.1 b.2 = .ok r →
      KeepsRows m (NoTropAt ps) (NoWindsByHeight ps m) s0 r.1) :
    KeepsRows m (NoTropAt ps) (NoWindsByHeight ps m) s0 s := by
  unfold mergeSounding at h
  obtain ⟨n, hn, h⟩ := run_inv h
  split at h
  · cases h
  · obtain ⟨b, hb, h⟩ := run_inv h
    obtain ⟨d, hd, h⟩ := run_inv h
    obtain ⟨r, hr, h⟩ := run_inv h
    obtain ⟨s1, h1, h⟩ := run_inv h
    obtain ⟨s2, h2, h⟩ := run_inv h
    obtain rfl := Option.some.inj (Except.ok.inj h)
    have kr := mergeMandatory_same hA hC hr
    have k1 := mergeLevels_same kr h1
    have k0 := hl n b r hn hb hr
    have hto : TropOut ps (NoTropAt ps) := fun name hname p col hp hc x hx ho => ho name hname p hp col hc x hx rfl
    have hsw : ps.count "PPBB" "SPED" = .ok n.sigW := by
      unfold SndParts.counts at hn
      obtain ⟨_, _, hn⟩ := run_inv hn
      obtain ⟨_, _, hn⟩ := run_inv hn
      obtain ⟨_, _, hn⟩ := run_inv hn
      obtain ⟨_, _, hn⟩ := run_inv hn
      obtain ⟨_, _, hn⟩ := run_inv hn
      obtain ⟨_, e1, hn⟩ := run_inv hn
      obtain ⟨_, _, hn⟩ := run_inv hn
      obtain ⟨_, _, hn⟩ := run_inv hn
      obtain ⟨_, _, hn⟩ := run_inv hn
      obtain ⟨_, _, hn⟩ := run_inv hn
      obtain ⟨_, _, hn⟩ := run_inv hn
      obtain ⟨_, _, hn⟩ := run_inv hn
      obtain rfl := Except.ok.inj hn
      exact e1
    have hw : NoWindsByHeight ps m → b.1 = true → n.sigW = 0 := by
      intro w hz
      rcases windCoord_inv hb with ⟨e, _⟩ | ⟨p, hp, ⟨_, e, _⟩ | ⟨e, _⟩⟩
      · exact e
      · rw [hz] at e; cases e
      · rcases w p hp with e' | e'
        · exact absurd e' e
        · obtain ⟨col, hc, hl⟩ := count_part hsw p hp
          obtain rfl := Except.ok.inj (e'.symm.trans hc)
          exact hl.symm
    exact k0.trans ((keeps_levels hto kr h1).trans (keeps_rest hw k1 h2))

/-- A row with pressure, temperature and height. -/
theorem merge_keeps_row [FloorRing α] {c : Calc α} {m : α} {fuel : Nat} {ps : SndParts α} {s : Snd α} {P Z T D R W : α}
    (hA : ∀ p, ps.part "TTAA" = some p → SixNames p) (hC : ∀ p, ps.part "TTCC" = some p → SixNames p)
    (h : mergeSounding c m fuel ps = .ok (some s)) (ht : Taken ps m P Z T)
    (hl : ∀ n b r, ps.counts = .ok n → windCoord ps m "PPBB" n.sigW = .ok b → mergeMandatory ps m n b.1 b.2 = .ok r →
      ∃ s0 j, RowAt s0 j P Z T D R W ∧ KeepsRows m (NoTropAt ps) (NoWindsByHeight ps m) s0 r.1) :
    ∃ j, LevelIn ps m s P Z T D R W j := by
  have hst : ∃ n b r, ps.counts = .ok n ∧ windCoord ps m "PPBB" n.sigW = .ok b ∧ mergeMandatory ps m n b.1 b.2 = .ok r := by
    unfold mergeSounding at h
    obtain ⟨n, hn, h⟩ := run_inv h
    split at h
    · cases h
    · obtain ⟨b, hb, h⟩ := run_inv h
      obtain ⟨d, hd, h⟩ := run_inv h
      obtain ⟨r, hr, h⟩ := run_inv h
      exact ⟨n, b, r, hn, hb, hr⟩
  obtain ⟨n, b, r, hn, hb, hr⟩ := hst
  obtain ⟨s0, j, row, k0⟩ := hl n b r hn hb hr
  obtain ⟨j', kj⟩ := merge_keeps_kept hA hC h (fun n' b' r' hn' hb' hr' => by
    obtain rfl := Except.ok.inj (hn.symm.trans hn')
    obtain rfl := Except.ok.inj (hb.symm.trans hb')
    obtain rfl := Except.ok.inj (hr.symm.trans hr')
    exact k0) j
  obtain ⟨t1, t2, t3, t4, t5⟩ := ht
  have g1 := getD_some m row.pres
  have g2 := getD_some m row.hght
  have g3 := getD_some m row.temp
  have g4 := getD_some m row.dwpt
  have g5 := getD_some m row.drct
  have g6 := getD_some m row.sped
  have q := kj.pres
  have q1 := kj.temp
  have q2 := kj.dwpt
  have q3 := kj.wind
  have q4 := kj.hght
  rw [g1] at q
  rw [g3] at q1
  rw [g3, g4] at q2
  rw [g5, g6] at q3
  rw [g1, g2, g3] at q4
  exact ⟨j', some_getD (q t1) t1, some_getD (q1 t2) t2, fun hD => some_getD (q2 t2 hD) hD, fun ho => some_getD (q4 ho t1 t2 t3) t3,
    fun w e1 e2 => ⟨some_getD (q3 w e1 e2).1 e1, some_getD (q3 w e1 e2).2 e2⟩⟩

/-- The same for the levels of the mandatory parts. -/
theorem merge_keeps [FloorRing α] {c : Calc α} {m : α} {fuel : Nat} {ps : SndParts α} {s : Snd α} {P Z T D R W : α}
    (hA : ∀ p, ps.part "TTAA" = some p → SixNames p) (hC : ∀ p, ps.part "TTCC" = some p → SixNames p)
    (h : mergeSounding c m fuel ps = .ok (some s)) (ht : Taken ps m P Z T)
    (hl : (∃ p i, ps.part "TTAA" = some p ∧ 1 ≤ i ∧ PartLevel p i P Z T D R W ∧ Above m P p 1 i) ∨
      ∃ p i, ps.part "TTCC" = some p ∧ PartLevel p i P Z T D R W ∧ Above m P p 0 i ∧
        ∀ q col, ps.part "TTAA" = some q → q.col "PRES" = .ok col → Above m P q 1 col.length) :
    ∃ j, LevelIn ps m s P Z T D R W j := by
  exact merge_keeps_row hA hC h ht fun _ _ _ hn hb hr => mandatory_rows hn hb hA hC hr ht hl

/-- C87: a mandatory level of the lower part (after the surface) that gives pressure, temperature and height, with a pressure below those of the
surface and of the levels before it, is a level of the merged sounding with its pressure, temperature and dew point; with its height
unless a tropopause is reported at the pressure; with its wind unless the lower part has winds by height.
Missing: height and wind in those cases, see `C87_height_lost` and `C87_wind_lost`; parts with other columns. -/
theorem C87_mandatory_partial [FloorRing α] (c : Calc α) (m : α) (fuel : Nat) (ps : SndParts α) (s : Snd α) (p : SndPart α)
    (hA : SixNames p) (hC : ∀ q, ps.part "TTCC" = some q → SixNames q) (hp : ps.part "TTAA" = some p)
    (h : mergeSounding c m fuel ps = .ok (some s)) (i : Nat) (P Z T D R W : α) (hi : 1 ≤ i) (hl : PartLevel p i P Z T D R W)
    (ht : Taken ps m P Z T) (ha : Above m P p 1 i) : ∃ j, LevelIn ps m s P Z T D R W j :=
  merge_keeps (fun _ hq => Option.some.inj (hp.symm.trans hq) ▸ hA) hC h ht (Or.inl ⟨p, i, hp, hi, hl, ha⟩)

/-- C87: the same for the mandatory levels of the upper part, all of which come after those of the lower part.
Missing: as for `C87_mandatory_partial`. -/
theorem C87_upper_partial [FloorRing α] (c : Calc α) (m : α) (fuel : Nat) (ps : SndParts α) (s : Snd α) (p : SndPart α)
    (hA : ∀ q, ps.part "TTAA" = some q → SixNames q) (hC : SixNames p) (hp : ps.part "TTCC" = some p)
    (h : mergeSounding c m fuel ps = .ok (some s)) (i : Nat) (P Z T D R W : α) (hl : PartLevel p i P Z T D R W)
    (ht : Taken ps m P Z T) (ha : Above m P p 0 i)
    (hlow : ∀ q col, ps.part "TTAA" = some q → q.col "PRES" = .ok col → Above m P q 1 col.length) : ∃ j, LevelIn ps m s P Z T D R W j :=
  merge_keeps hA (fun _ hq => Option.some.inj (hp.symm.trans hq) ▸ hC) h ht (Or.inr ⟨p, i, hp, hl, ha, hlow⟩)

end

/-! ## What is lost, and a case -/

/-- Surface and two mandatory levels, the second of them with a tropopause at its pressure. -/
def tropAtLevel : SndParts ℚ :=
  ⟨100, fun x =>
    if x = "TTAA" then some [("PRES", [1000, 850, 500]), ("TEMP", [20, 10, -10]), ("DWPT", [15, 5, -20]), ("DRCT", [90, 180, 200]), ("SPED", [5, 10, 20]),
      ("HGHT", [100, 1500, 5500])]
    else if x = "TRPA" then some [("PRES", [500]), ("TEMP", [-10]), ("DWPT", [-20]), ("DRCT", [200]), ("SPED", [20])]
    else none⟩

/-- C87: the height reported for a mandatory level is lost when the tropopause is at its pressure; another is computed for it. -/
theorem C87_height_lost : (mergeSounding ⟨fun x => x - 1, fun x => x + 1⟩ (-9999) 5 tropAtLevel).toOption.bind
    (fun o => o.map fun s => (s.pres, s.hght.take 2, decide (5500 ∈ s.hght))) = some ([1000, 850, 500], [100, 1500], false) := by
  decide +kernel

/-- A mandatory level with a wind, above a surface without, and a wind given by height at the height of the level. -/
def windAtLevel : SndParts ℚ :=
  ⟨100, fun x =>
    if x = "TTAA" then some [("PRES", [1000, 850]), ("TEMP", [20, 10]), ("DWPT", [15, 5]), ("DRCT", [-9999, 180]), ("SPED", [-9999, 10]),
      ("HGHT", [100, 1500])]
    else if x = "PPBB" then some [("HGHT", [1500]), ("DRCT", [270]), ("SPED", [99])]
    else none⟩

/-- C87: the wind of a mandatory level is replaced by a wind given by height when the level below it has none. -/
theorem C87_wind_lost : (mergeSounding ⟨fun x => x - 1, fun x => x + 1⟩ (-9999) 5 windAtLevel).toOption.bind
    (fun o => o.map fun s => (s.pres, s.drct, s.sped)) = some ([1000, 850], [-9999, 270], [-9999, 99]) := by
  decide +kernel

/-- Mandatory levels in both parts, significant temperatures and winds by pressure, the first of which is at the surface. -/
def keepSample : SndParts ℚ :=
  ⟨100, fun x =>
    if x = "TTAA" then some [("PRES", [1000, 850, 500]), ("TEMP", [20, 10, -10]), ("DWPT", [15, 5, -20]), ("DRCT", [90, 180, 200]), ("SPED", [5, 10, 20]),
      ("HGHT", [100, 1500, 5500])]
    else if x = "TTCC" then some [("PRES", [70]), ("TEMP", [-60]), ("DWPT", [-70]), ("DRCT", [240]), ("SPED", [25]), ("HGHT", [18000])]
    else if x = "TTBB" then some [("PRES", [1000, 900]), ("TEMP", [20, 12]), ("DWPT", [15, 6])]
    else if x = "PPBB" then some [("PRES", [1000, 700]), ("DRCT", [90, 190]), ("SPED", [5, 15])]
    else none⟩

example : (∃ s, mergeSounding ⟨fun x => x - 1, fun x => x + 1⟩ (-9999) 5 keepSample = .ok (some s) ∧ s.pres = [1000, 900, 850, 700, 500, 70]) ∧
    (∃ p, keepSample.part "TTAA" = some p ∧ SixNames p ∧ PartLevel p 2 500 5500 (-10) (-20) 200 20 ∧ Above (-9999) 500 p 1 2) ∧
    (∃ p, keepSample.part "TTCC" = some p ∧ SixNames p ∧ PartLevel p 0 70 18000 (-60) (-70) 240 25 ∧ Above (-9999) 70 p 0 0) ∧
    Taken keepSample (-9999) 500 5500 (-10) ∧ NoTropAt keepSample 500 ∧ NoWindsByHeight keepSample (-9999) := by
  refine ⟨?_, ⟨_, rfl, ?_, ⟨rfl, rfl, rfl, rfl, rfl, rfl⟩, ?_⟩, ⟨_, rfl, ?_, ⟨rfl, rfl, rfl, rfl, rfl, rfl⟩, ?_⟩, ?_, ?_, ?_⟩
  · have h : (mergeSounding ⟨fun x => x - 1, fun x => x + 1⟩ (-9999) 5 keepSample).toOption.bind (fun o => o.map Snd.pres) =
        some [1000, 900, 850, 700, 500, 70] := by decide +kernel
    revert h
    cases mergeSounding ⟨fun x => x - 1, fun x => x + 1⟩ (-9999) 5 keepSample with
    | error e => intro h; cases h
    | ok o =>
      cases o with
      | none => intro h; cases h
      | some s => intro h; exact ⟨s, rfl, Option.some.inj h⟩
  · unfold SixNames; decide
  · intro j x h1 h2 h3 _
    obtain rfl : j = 1 := by omega
    rw [← Except.ok.inj h3]
    norm_num
  · unfold SixNames; decide
  · intro j x h1 h2; omega
  · refine ⟨by norm_num, by norm_num, by norm_num, by norm_num, ?_⟩
    rintro x (⟨hp, h⟩ | ⟨hp, h⟩ | ⟨hp, h⟩ | ⟨hp, ho, h⟩) _
    all_goals
      obtain rfl := Option.some.inj hp
      first
        | (cases h; done)
        | (rw [← Except.ok.inj h]; norm_num)
  · rintro name (rfl | rfl) p hp
    · cases hp
    · cases hp
  · intro p hp
    obtain rfl := Option.some.inj hp
    exact Or.inl (Or.inl rfl)

end Gempak
