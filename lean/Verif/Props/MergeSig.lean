import Verif.Proof.MergeSig
import Mathlib.Tactic.FinCases

/-!
# C88: significant levels in the merged sounding
-/

namespace Gempak

set_option linter.unusedSectionVars false

open Spec

section
variable {α : Type} [Field α] [LinearOrder α]

/-! ## Specification -/

/-- The pressure of level `i` of a part of winds on pressure; the heights, if there is no such column. -/
def Spec.WindPres (p : SndPart α) (i : Nat) (x : α) : Prop :=
  p.at "PRES" i = .ok x ∨ (p.any (fun y => y.1 = "PRES") = false ∧ p.at "HGHT" i = .ok x)

/-- The report gives a pressure for the surface: a first mandatory level not above 1060 hPa and not above another level with data; or a
first significant temperature; or a first significant wind on pressure. -/
inductive Spec.SurfaceGiven (ps : SndParts α) (m : α) : Prop
  | man {p x} : ps.part "TTAA" = some p → p.at "PRES" 0 = .ok x → x ≠ m → m ≤ x → x ≤ 1060 →
      (∀ i y t z, p.at "PRES" i = .ok y → p.at "TEMP" i = .ok t → p.at "HGHT" i = .ok z → y ≠ m → t ≠ m → z ≠ m → y ≤ x) → Spec.SurfaceGiven ps m
  | sigT {p x t} : ps.part "TTBB" = some p → p.at "PRES" 0 = .ok x → p.at "TEMP" 0 = .ok t → x ≠ m → t ≠ m → Spec.SurfaceGiven ps m
  | sigW {p x r w} : ps.part "PPBB" = some p → OnPressure p m → WindPres p 0 x → p.at "DRCT" 0 = .ok r → p.at "SPED" 0 = .ok w → x ≠ m → r ≠ m →
      Spec.SurfaceGiven ps m

/-- The pressure is not that of a level in one of some parts. -/
def Spec.NewAt (ps : SndParts α) (names : List String) (P : α) : Prop :=
  ∀ name ∈ names, ∀ p, ps.part name = some p → ∀ i y, p.at "PRES" i = .ok y → y ≠ P ∧ |y| ≠ P

/-- A pressure below that of the surface. -/
def Spec.AboveSurface (ps : SndParts α) (m P : α) : Prop := ∀ y, SurfaceAt ps m y → y ≠ m → P < y

/-- All levels of a part, if there is one, have pressures above `P`. -/
def Spec.AllBelow (ps : SndParts α) (name : String) (P : α) : Prop := ∀ p i y, ps.part name = some p → p.at "PRES" i = .ok y → P < |y|

/-! ## The surface -/

theorem firstManP_inv {m v : α} {a b c : List α} (h : firstManP m a b c = .ok v) :
    v = m ∨ ∃ (i : Nat) (t z : α), a[i]? = some v ∧ b[i]? = some t ∧ c[i]? = some z ∧ v ≠ m ∧ t ≠ m ∧ z ≠ m := by
  fun_induction firstManP m a b c with
  | case1 p ps t ts z zs hc =>
    obtain rfl := Except.ok.inj h
    exact Or.inr ⟨0, t, z, rfl, rfl, rfl, hc⟩
  | case2 p ps t ts z zs hc ih =>
    rcases ih h with e | ⟨i, t', z', h1, h2, h3, h4⟩
    · exact Or.inl e
    · exact Or.inr ⟨i + 1, t', z', h1, h2, h3, h4⟩
  | case3 => exact Or.inl (Except.ok.inj h).symm
  | case4 => cases h

theorem surfaceSigT_head {ps : SndParts α} {m : α} {c : Counts} {s s' : Snd α} (h : surfaceSigT ps m c s = .ok s')
    (hs : s.pres.getD 0 m ≠ m ∨ (1 ≤ c.sigT ∧ ∃ p x t, ps.part "TTBB" = some p ∧ p.at "PRES" 0 = .ok x ∧ p.at "TEMP" 0 = .ok t ∧ x ≠ m ∧ t ≠ m)) :
    s'.pres.getD 0 m ≠ m := by
  unfold surfaceSigT at h
  split at h
  · obtain rfl := Except.ok.inj h
    rcases hs with e | ⟨e, _⟩
    · exact e
    · omega
  · obtain ⟨b, hb, h⟩ := run_inv h
    obtain ⟨p, hp, h⟩ := run_inv h
    split at h
    · rename_i e
      obtain rfl := Except.ok.inj h
      rcases hs with e' | ⟨_, p', x, t, h1, h2, _, h3, _⟩
      · exact e'
      · obtain rfl := Option.some.inj (h1.symm.trans (get_part hb))
        exact absurd ((Except.ok.inj (h2.symm.trans hp)).trans e) h3
    · rename_i hpm
      obtain ⟨t, ht, h⟩ := run_inv h
      split at h
      · rename_i e
        obtain rfl := Except.ok.inj h
        rcases hs with e' | ⟨_, p', x, t', h1, _, h2, _, h3⟩
        · exact e'
        · obtain rfl := Option.some.inj (h1.symm.trans (get_part hb))
          exact absurd ((Except.ok.inj (h2.symm.trans ht)).trans e) h3
      · obtain ⟨f, hf, h⟩ := run_inv h
        split at h
        · obtain ⟨pr, hpr, h⟩ := run_inv h
          obtain ⟨_, _, h⟩ := run_inv h
          obtain ⟨_, _, h⟩ := run_inv h
          obtain ⟨_, _, h⟩ := run_inv h
          obtain rfl := Except.ok.inj h
          obtain ⟨h1, rfl⟩ := put_val hpr
          show (s.pres.set 0 p).getD 0 m ≠ m
          rw [getD_set_same _ _ _ _ h1]
          exact hpm
        · rename_i hc
          obtain rfl := Except.ok.inj h
          rw [← idx_val m hf]
          exact fun e => hc (Or.inl e)

theorem surfaceSigW_head {b : Option (SndPart α)} {z : Bool} {m : α} {c : Counts} {s s' : Snd α} (hm : ∀ x : α, |x| ≠ m)
    (h : surfaceSigW b z m c s = .ok s')
    (hs : s.pres.getD 0 m ≠ m ∨ (1 ≤ c.sigW ∧ z = false ∧ ∃ q x r, b = some q ∧ q.at "PRES" 0 = .ok x ∧ q.at "DRCT" 0 = .ok r ∧ x ≠ m ∧ r ≠ m)) :
    s'.pres.getD 0 m ≠ m := by
  unfold surfaceSigW at h
  split at h
  · obtain rfl := Except.ok.inj h
    rcases hs with e | ⟨e, _⟩
    · exact e
    · omega
  · split at h
    · cases h
    · rename_i q
      split at h
      · rename_i hz
        have hs : s.pres.getD 0 m ≠ m := by
          rcases hs with e | ⟨_, e, _⟩
          · exact e
          · rw [e] at hz; cases hz
        obtain ⟨_, _, h⟩ := run_inv h
        split at h
        · obtain ⟨_, _, h⟩ := run_inv h
          split at h
          · obtain ⟨_, _, h⟩ := run_inv h
            obtain ⟨_, _, h⟩ := run_inv h
            obtain ⟨_, _, h⟩ := run_inv h
            obtain rfl := Except.ok.inj h; exact hs
          · obtain rfl := Except.ok.inj h; exact hs
        · obtain rfl := Except.ok.inj h; exact hs
      · obtain ⟨p, ep, h⟩ := run_inv h
        split at h
        · obtain ⟨r, er, h⟩ := run_inv h
          split at h
          · obtain ⟨f, hf, h⟩ := run_inv h
            split at h
            · obtain ⟨pr, hp, h⟩ := run_inv h
              obtain ⟨_, _, h⟩ := run_inv h
              obtain ⟨_, _, h⟩ := run_inv h
              obtain ⟨_, _, h⟩ := run_inv h
              obtain rfl := Except.ok.inj h
              obtain ⟨h1, rfl⟩ := put_val hp
              show (s.pres.set 0 |p|).getD 0 m ≠ m
              rw [getD_set_same _ _ _ _ h1]
              exact hm p
            · rename_i hc
              obtain rfl := Except.ok.inj h
              rw [← idx_val m hf]
              exact fun e => hc (Or.inl e)
          · rename_i e
            obtain rfl := Except.ok.inj h
            rcases hs with e' | ⟨_, _, q', x, r', h1, _, h2, _, h3⟩
            · exact e'
            · obtain rfl := Option.some.inj h1
              exact absurd (Except.ok.inj (h2.symm.trans er) ▸ h3) e
        · rename_i e
          obtain rfl := Except.ok.inj h
          rcases hs with e' | ⟨_, _, q', x, r', h1, h2, _, h3, _⟩
          · exact e'
          · obtain rfl := Option.some.inj h1
            exact absurd (Except.ok.inj (h2.symm.trans ep) ▸ h3) e

/-- The part of winds after its coordinate is known. -/
theorem windCoord_part {ps : SndParts α} {m : α} {name : String} {n : Nat} {b : Bool × Option (SndPart α)} {p : SndPart α}
    (h : windCoord ps m name n = .ok b) (hn : 1 ≤ n) (hp : ps.part name = some p) (ho : OnPressure p m) :
    b.1 = false ∧ ∃ q, b.2 = some q ∧ (∀ i x, WindPres p i x ↔ q.at "PRES" i = .ok x) ∧
      ∀ k i x, k ≠ "PRES" → p.at k i = .ok x → q.at k i = .ok x := by
  unfold windCoord at h
  rw [if_neg (by omega)] at h
  obtain ⟨p', hp', h⟩ := run_inv h
  obtain rfl := Option.some.inj (hp.symm.trans (get_part hp'))
  have nopres : ∀ i x, p.any (fun y => y.1 = "PRES") = false → p.at "PRES" i = .ok x → False := by
    intro i x hno hx
    have hnone : p.find? (fun y => y.1 = "PRES") = none := by
      rw [List.find?_eq_none]
      intro y hy e
      rw [List.any_eq_false] at hno
      exact hno y hy e
    unfold SndPart.at SndPart.col at hx
    rw [hnone] at hx
    cases hx
  split at h
  · rename_i hany
    obtain rfl := Except.ok.inj h
    refine ⟨rfl, p, rfl, fun i x => ⟨?_, Or.inl⟩, fun k i x _ h => h⟩
    rintro (h | ⟨h, _⟩)
    · exact h
    · rw [hany] at h; cases h
  · rename_i hno
    have hno : p.any (fun y => y.1 = "PRES") = false := Bool.eq_false_iff.2 hno
    obtain ⟨hs, hh, h⟩ := run_inv h
    have hneg : hs.any (fun z => z ≠ m ∧ z < 0) = true := by
      rcases ho with h1 | ⟨hs', h1, z, hz, h2, h3⟩
      · rw [hno] at h1; cases h1
      · obtain rfl := Except.ok.inj (hh.symm.trans h1)
        exact List.any_eq_true.2 ⟨z, hz, by simp [h2, h3]⟩
    rw [if_pos hneg] at h
    obtain rfl := Except.ok.inj h
    have hnone : p.find? (fun y => y.1 = "PRES") = none := by
      rw [List.find?_eq_none]
      intro y hy e
      rw [List.any_eq_false] at hno
      exact hno y hy e
    have hcol : (p ++ [("PRES", hs)]).col "PRES" = .ok hs := by
      unfold SndPart.col
      rw [List.find?_append, hnone, Option.none_or, List.find?_cons_of_pos (by simp)]
    refine ⟨rfl, _, rfl, fun i x => ⟨?_, fun hx => ?_⟩, fun k i x hk hx => ?_⟩
    · rintro (h | ⟨_, h⟩)
      · exact (nopres i x hno h).elim
      · exact getElem_at (at_getElem h hh) hcol
    · exact Or.inr ⟨hno, getElem_at (at_getElem hx hcol) hh⟩
    · unfold SndPart.at SndPart.col at hx ⊢
      rw [List.find?_append]
      cases e : p.find? (fun y => y.1 = k) with
      | none => rw [e] at hx; cases hx
      | some y => rw [e] at hx; exact hx

/-! ## After the mandatory levels -/

theorem mergeMan_pres {p : SndPart α} {m : α} {N i : Nat} {s : Snd α} {plast : α} {bgl : Nat} {r : Snd α × α × Nat} (hp : SixNames p)
    (h : mergeMan p m N i s plast bgl = .ok r) : ∃ t, r.1.pres = s.pres ++ t ∧ ∀ y ∈ t, ∃ j, p.at "PRES" j = .ok y := by
  induction N generalizing i s plast bgl with
  | zero => obtain rfl := Except.ok.inj h; exact ⟨[], by simp, fun _ h => by cases h⟩
  | succ N ih =>
    rw [mergeMan] at h
    obtain ⟨b, hb, h⟩ := run_inv h
    split at h
    · obtain ⟨s1, h1, h⟩ := run_inv h
      obtain ⟨pl, h2, h⟩ := run_inv h
      obtain ⟨v, e1, e2⟩ := (appendLevel_colOf h1 "PRES").2 (six_count hp (by decide))
      change s1.pres = s.pres ++ _ at e2
      obtain ⟨t, e3, e4⟩ := ih h
      refine ⟨v :: t, by rw [e3, e2, List.append_assoc]; rfl, fun y hy => ?_⟩
      rcases List.mem_cons.1 hy with rfl | hy
      · exact ⟨i, e1⟩
      · exact e4 y hy
    · obtain ⟨_, _, h⟩ := run_inv h
      obtain ⟨_, _, h⟩ := run_inv h
      exact ih h

theorem mergeManWind_pres {p : SndPart α} {m : α} {l : List α} {i : Nat} {s s' : Snd α} (h : mergeManWind p m l i s = .ok s') :
    s'.pres = s.pres := by
  induction l generalizing i s with
  | nil => obtain rfl := Except.ok.inj h; rfl
  | cons x r ih =>
    rw [mergeManWind] at h
    split at h
    · obtain ⟨s1, h1, h⟩ := run_inv h
      rw [ih h, (setWind_cols h1).1]
    · exact ih h

/-- The pressure of the first level when the report gives one. -/
theorem surface_head {ps : SndParts α} {m f : α} {n : Counts} {b : Bool × Option (SndPart α)} {s0 s1 s2 s3 : Snd α} (hm : ∀ x : α, m < |x|)
    (hcounts : ps.count "TTAA" "PRES" = .ok n.man ∧ ps.count "TTBB" "PRES" = .ok n.sigT ∧ ps.count "PPBB" "SPED" = .ok n.sigW)
    (hb : windCoord ps m "PPBB" n.sigW = .ok b) (h0 : surfaceLevel ps m n = .ok s0)
    (hf : (whenSome n.man m fun _ => do
      let p ← ps.get "TTAA"
      firstManP m (← p.col "PRES") (← p.col "TEMP") (← p.col "HGHT")) = .ok f)
    (h1 : surfaceCheck m f s0 = .ok s1) (h2 : surfaceSigT ps m n s1 = .ok s2) (h3 : surfaceSigW b.2 b.1 m n s2 = .ok s3)
    (hg : SurfaceGiven ps m) : s3.pres.getD 0 m ≠ m := by
  refine surfaceSigW_head (fun x => (hm x).ne') h3 ?_
  cases hg with
  | @man p x hp hx hxm hmx hx60 hmax =>
    left
    refine surfaceSigT_head h2 (Or.inl ?_)
    obtain ⟨col, hc, hcl⟩ := count_part hcounts.1 p hp
    have hlt := at_lt hx hc
    have es0 : s0.pres = [x] := by
      unfold surfaceLevel at h0
      rw [if_neg (by omega)] at h0
      obtain ⟨p', hp', h0⟩ := run_inv h0
      obtain rfl := Option.some.inj (hp.symm.trans (get_part hp'))
      rw [hx, ok_bind] at h0
      obtain ⟨_, _, h0⟩ := run_inv h0
      obtain ⟨_, _, h0⟩ := run_inv h0
      obtain ⟨_, _, h0⟩ := run_inv h0
      obtain ⟨_, _, h0⟩ := run_inv h0
      obtain ⟨_, _, h0⟩ := run_inv h0
      obtain rfl := Except.ok.inj h0
      rfl
    have hfx : ¬ x < f := by
      rcases whenSome_inv hf with ⟨_, e⟩ | ⟨e, _⟩
      · obtain ⟨p', hp', e⟩ := run_inv e
        obtain rfl := Option.some.inj (hp.symm.trans (get_part hp'))
        obtain ⟨ca, hca, e⟩ := run_inv e
        obtain ⟨cb, hcb, e⟩ := run_inv e
        obtain ⟨cz, hcz, e⟩ := run_inv e
        rcases firstManP_inv e with rfl | ⟨i, t, z, e1, e2, e3, e4, e5, e6⟩
        · exact not_lt.2 hmx
        · exact not_lt.2 (hmax i f t z (getElem_at e1 hca) (getElem_at e2 hcb) (getElem_at e3 hcz) e4 e5 e6)
      · omega
    unfold surfaceCheck at h1
    rw [es0] at h1
    change (do let p ← Except.ok x; _) = _ at h1
    rw [ok_bind] at h1
    dsimp only at h1
    rw [if_neg (not_lt.2 hx60), if_neg (by rintro (e | ⟨e, _⟩); exacts [hxm e, hfx e])] at h1
    obtain rfl := Except.ok.inj h1
    rw [es0]
    exact hxm
  | @sigT p x t hp hx ht hxm htm =>
    left
    obtain ⟨col, hc, hcl⟩ := count_part hcounts.2.1 p hp
    have hlt := at_lt hx hc
    exact surfaceSigT_head h2 (Or.inr ⟨by omega, p, x, t, hp, hx, ht, hxm, htm⟩)
  | @sigW p x r w hp ho hx hr hw hxm hrm =>
    right
    obtain ⟨col, hc, hcl⟩ := count_part hcounts.2.2 p hp
    have hlt := at_lt hw hc
    obtain ⟨e1, q, e2, e3, e4⟩ := windCoord_part hb (by omega) hp ho
    exact ⟨by omega, e1, q, x, r, e2, (e3 0 x).1 hx, e4 _ _ _ (by decide) hr, hxm, hrm⟩

theorem mandatory_base {ps : SndParts α} {m : α} {n : Counts} {b : Bool × Option (SndPart α)} {r : Snd α × Nat} {P : α} (hm : ∀ x : α, m < |x|)
    (hn : ps.counts = .ok n) (hb : windCoord ps m "PPBB" n.sigW = .ok b)
    (hA : ∀ p, ps.part "TTAA" = some p → SixNames p) (hC : ∀ p, ps.part "TTCC" = some p → SixNames p)
    (h : mergeMandatory ps m n b.1 b.2 = .ok r) (hg : SurfaceGiven ps m) (hsf : AboveSurface ps m P) :
    TInv P m (NewAt ps ["TTAA", "TTCC"] P) r.1 := by
  have hr := mergeMandatory_same hA hC h
  have hcounts : ps.count "TTAA" "PRES" = .ok n.man ∧ ps.count "TTBB" "PRES" = .ok n.sigT ∧ ps.count "PPBB" "SPED" = .ok n.sigW := by
    unfold SndParts.counts at hn
    obtain ⟨_, e1, hn⟩ := run_inv hn
    obtain ⟨_, _, hn⟩ := run_inv hn
    obtain ⟨_, _, hn⟩ := run_inv hn
    obtain ⟨_, _, hn⟩ := run_inv hn
    obtain ⟨_, e2, hn⟩ := run_inv hn
    obtain ⟨_, e3, hn⟩ := run_inv hn
    obtain ⟨_, _, hn⟩ := run_inv hn
    obtain ⟨_, _, hn⟩ := run_inv hn
    obtain ⟨_, _, hn⟩ := run_inv hn
    obtain ⟨_, _, hn⟩ := run_inv hn
    obtain ⟨_, _, hn⟩ := run_inv hn
    obtain ⟨_, _, hn⟩ := run_inv hn
    obtain rfl := Except.ok.inj hn
    exact ⟨e1, e2, e3⟩
  unfold mergeMandatory at h
  obtain ⟨s0, h0, h⟩ := run_inv h
  obtain ⟨f, hf, h⟩ := run_inv h
  obtain ⟨s1, h1, h⟩ := run_inv h
  obtain ⟨s2, h2, h⟩ := run_inv h
  obtain ⟨s3, h3, h⟩ := run_inv h
  obtain ⟨p0, hp0, h⟩ := run_inv h
  dsimp only at h
  obtain ⟨r4, h4, h⟩ := run_inv h
  obtain ⟨r5, h5, h⟩ := run_inv h
  obtain ⟨s6, h6, h⟩ := run_inv h
  obtain ⟨s7, h7, h⟩ := run_inv h
  obtain rfl := Except.ok.inj h
  have hsz : s3.Size 1 := surfaceSigW_same (surfaceSigT_same (surfaceCheck_same (surfaceLevel_same h0) h1) h2) h3
  have f3 : SfcFrom ps m s3 := by
    refine surfaceSigW_from ?_ (surfaceSigT_from (surfaceCheck_from (surfaceLevel_from h0) h1) h2) h3
    intro hz q x hq hx
    rcases windCoord_inv hb with ⟨_, e⟩ | ⟨p, hp, ⟨hon, _, e⟩ | ⟨_, e⟩⟩
    · rw [hz] at e; cases e
    · rcases e q x hq hx with e | e
      · exact .sigW hp e
      · exact .sigZ hp hon e
    · rw [hz] at e; cases e
  have hhead : s3.pres.getD 0 m ≠ m := surface_head hm hcounts hb h0 hf h1 h2 h3 hg
  have hfrom : SurfaceAt ps m (s3.pres.getD 0 m) := f3.resolve_left hhead
  have hlt : P < s3.pres.getD 0 m := hsf _ hfrom hhead
  obtain ⟨v, hv⟩ : ∃ v, s3.pres = [v] := List.length_eq_one_iff.1 hsz.pres
  have e4 : ∃ t, r4.1.pres = s3.pres ++ t ∧ ∀ y ∈ t, ∃ p j, ps.part "TTAA" = some p ∧ p.at "PRES" j = .ok y := by
    rcases whenSome_inv h4 with ⟨_, e⟩ | ⟨_, e⟩
    · obtain ⟨p, hp, e⟩ := run_inv e
      obtain ⟨t, e1, e2⟩ := mergeMan_pres (hA p (get_part hp)) e
      exact ⟨t, e1, fun y hy => by obtain ⟨j, ej⟩ := e2 y hy; exact ⟨p, j, get_part hp, ej⟩⟩
    · exact ⟨[], by rw [e]; simp, fun _ h => by cases h⟩
  have e5 : ∃ t, r5.1.pres = r4.1.pres ++ t ∧ ∀ y ∈ t, ∃ p j, ps.part "TTCC" = some p ∧ p.at "PRES" j = .ok y := by
    rcases whenSome_inv h5 with ⟨_, e⟩ | ⟨_, e⟩
    · obtain ⟨p, hp, e⟩ := run_inv e
      obtain ⟨t, e1, e2⟩ := mergeMan_pres (hC p (get_part hp)) e
      exact ⟨t, e1, fun y hy => by obtain ⟨j, ej⟩ := e2 y hy; exact ⟨p, j, get_part hp, ej⟩⟩
    · exact ⟨[], by rw [e]; simp, fun _ h => by cases h⟩
  have e7 : s7.pres = r5.1.pres := by
    have e6 : s6.pres = r5.1.pres := by
      split at h6
      · obtain ⟨_, _, h6⟩ := run_inv h6
        obtain ⟨_, _, h6⟩ := run_inv h6
        exact mergeManWind_pres h6
      · obtain rfl := Except.ok.inj h6; rfl
    rw [← e6]
    split at h7
    · obtain ⟨_, _, h7⟩ := run_inv h7
      obtain ⟨_, _, h7⟩ := run_inv h7
      exact mergeManWind_pres h7
    · obtain rfl := Except.ok.inj h7; rfl
  obtain ⟨t4, e4, m4⟩ := e4
  obtain ⟨t5, e5, m5⟩ := e5
  have eall : s7.pres = v :: (t4 ++ t5) := by rw [e7, e5, e4, hv]; rfl
  rw [hv] at hlt
  change P < v at hlt
  refine ⟨⟨hr, ?_, ?_⟩, fun f hmem => ?_⟩
  · show 0 < s7.pres.length
    rw [eall]; simp
  · show P ≤ s7.pres.getD 0 m
    rw [eall]; exact hlt.le
  · change P ∈ s7.pres at hmem
    rw [eall] at hmem
    rcases List.mem_cons.1 hmem with e | hmem
    · exact hlt.ne e
    · rcases List.mem_append.1 hmem with hmem | hmem
      · obtain ⟨p, j, hp, ej⟩ := m4 _ hmem
        exact (f "TTAA" (by decide) p hp j P ej).1 rfl
      · obtain ⟨p, j, hp, ej⟩ := m5 _ hmem
        exact (f "TTCC" (by decide) p hp j P ej).1 rfl

/-! ## The steps -/

theorem pair_steps {n1 n2 : Nat} {bot : Snd α → Run α} {f1 f2 : Snd α → α → Run (Snd α × α)} {s s' : Snd α}
    (h : mergePair n1 n2 bot f1 f2 s = .ok s') :
    (n1 = 0 ∧ n2 = 0 ∧ s' = s) ∨ ∃ pb r1 r2, bot s = .ok pb ∧ ((1 ≤ n1 ∧ f1 s pb = .ok r1) ∨ (n1 = 0 ∧ r1 = (s, pb))) ∧
      ((1 ≤ n2 ∧ f2 r1.1 r1.2 = .ok r2) ∨ (n2 = 0 ∧ r2 = r1)) ∧ s' = r2.1 := by
  unfold mergePair at h
  split at h
  · obtain ⟨pb, hb, h⟩ := run_inv h
    obtain ⟨r1, e1, h⟩ := run_inv h
    obtain ⟨r2, e2, h⟩ := run_inv h
    obtain rfl := Except.ok.inj h
    exact Or.inr ⟨pb, r1, r2, hb, whenSome_inv e1, whenSome_inv e2, rfl⟩
  · obtain rfl := Except.ok.inj h
    exact Or.inl ⟨by omega, by omega, rfl⟩

/-- All steps of a merge. -/
structure Stages [FloorRing α] (c : Calc α) (m : α) (fuel : Nat) (ps : SndParts α) (s : Snd α) (n : Counts) (b d : Bool × Option (SndPart α))
    (r : Snd α × Nat) (s1 s2 s3 s4 s5 s6 : Snd α) : Prop where
  counts : ps.counts = .ok n
  lower : windCoord ps m "PPBB" n.sigW = .ok b
  upper : windCoord ps m "PPDD" n.aSigW = .ok d
  man : mergeMandatory ps m n b.1 b.2 = .ok r
  trop : mergePair n.trop n.aTrop (bottomOf ps m "TRPA") (withPart ps "TRPA" (mergeTrop · m)) (withPart ps "TRPC" (mergeTrop · m)) r.1 = .ok s1
  sigT : mergePair n.sigT n.aSigT (bottomOf ps m "TTBB") (withPart ps "TTBB" (mergeSigT · m)) (withPart ps "TTDD" (mergeSigT · m)) s1 = .ok s2
  moist : interpMoistHeight c m s2.pres.length s2 = .ok s3
  wind : mergePair (if b.1 then 0 else n.sigW) (if d.1 then 0 else n.aSigW) (windBottom m) (withOpt b.2 (mergeWind · m)) (withOpt d.2 (mergeWind · m)) s3 =
    .ok s4
  maxW : mergePair n.maxWind n.aMaxWind (windBottom m) (withPart ps "MXWA" (mergeWind · m)) (withPart ps "MXWC" (mergeWind · m)) s4 = .ok s5
  logp : interpLogpHeight c m fuel s5 = .ok s6
  rest : mergeRest c m ps n b.1 d.1 b.2 d.2 r.2 r.1 s6 = .ok s

theorem merge_stages [FloorRing α] {c : Calc α} {m : α} {fuel : Nat} {ps : SndParts α} {s : Snd α} (h : mergeSounding c m fuel ps = .ok (some s)) :
    ∃ n b d r s1 s2 s3 s4 s5 s6, Stages c m fuel ps s n b d r s1 s2 s3 s4 s5 s6 := by
  unfold mergeSounding at h
  obtain ⟨n, hn, h⟩ := run_inv h
  split at h
  · cases h
  · obtain ⟨b, hb, h⟩ := run_inv h
    obtain ⟨d, hd, h⟩ := run_inv h
    obtain ⟨r, hr, h⟩ := run_inv h
    obtain ⟨s', h1, h⟩ := run_inv h
    obtain ⟨s2, h2, h⟩ := run_inv h
    obtain rfl := Option.some.inj (Except.ok.inj h)
    unfold mergeLevels at h1
    obtain ⟨t1, e1, h1⟩ := run_inv h1
    obtain ⟨t2, e2, h1⟩ := run_inv h1
    obtain ⟨t3, e3, h1⟩ := run_inv h1
    obtain ⟨t4, e4, h1⟩ := run_inv h1
    obtain ⟨t5, e5, h1⟩ := run_inv h1
    exact ⟨n, b, d, r, t1, t2, t3, t4, t5, s', hn, hb, hd, hr, e1, e2, e3, e4, e5, h1, h2⟩

/-- All counts. -/
theorem counts_each {ps : SndParts α} {n : Counts} (hn : ps.counts = .ok n) :
    ps.count "TRPA" "PRES" = .ok n.trop ∧ ps.count "MXWA" "PRES" = .ok n.maxWind ∧ ps.count "TTBB" "PRES" = .ok n.sigT ∧
    ps.count "PPBB" "SPED" = .ok n.sigW ∧ ps.count "TRPC" "PRES" = .ok n.aTrop ∧ ps.count "MXWC" "SPED" = .ok n.aMaxWind ∧
    ps.count "TTDD" "PRES" = .ok n.aSigT ∧ ps.count "PPDD" "SPED" = .ok n.aSigW := by
  unfold SndParts.counts at hn
  obtain ⟨_, _, hn⟩ := run_inv hn
  obtain ⟨_, _, hn⟩ := run_inv hn
  obtain ⟨_, e3, hn⟩ := run_inv hn
  obtain ⟨_, e4, hn⟩ := run_inv hn
  obtain ⟨_, e5, hn⟩ := run_inv hn
  obtain ⟨_, e6, hn⟩ := run_inv hn
  obtain ⟨_, _, hn⟩ := run_inv hn
  obtain ⟨_, e8, hn⟩ := run_inv hn
  obtain ⟨_, e9, hn⟩ := run_inv hn
  obtain ⟨_, e10, hn⟩ := run_inv hn
  obtain ⟨_, e11, hn⟩ := run_inv hn
  obtain ⟨_, _, hn⟩ := run_inv hn
  obtain rfl := Except.ok.inj hn
  exact ⟨e3, e4, e5, e6, e8, e9, e10, e11⟩

theorem count_pos {ps : SndParts α} {name key : String} {n i : Nat} {p : SndPart α} {x : α} (h : ps.count name key = .ok n)
    (hp : ps.part name = some p) (hx : p.at key i = .ok x) : 1 ≤ n := by
  obtain ⟨col, hc, hl⟩ := count_part h p hp
  have := at_lt hx hc
  omega

section
variable [FloorRing α] {c : Calc α} {m : α} {fuel : Nat} {ps : SndParts α} {s : Snd α} {n : Counts} {b d : Bool × Option (SndPart α)}
  {r : Snd α × Nat} {s1 s2 s3 s4 s5 s6 : Snd α}

theorem Stages.noHeights (h : Stages c m fuel ps s n b d r s1 s2 s3 s4 s5 s6) (w : NoWindsByHeight ps m) (hz : b.1 = true) : n.sigW = 0 := by
  rcases windCoord_inv h.lower with ⟨e, _⟩ | ⟨p, hp, ⟨_, e, _⟩ | ⟨e, _⟩⟩
  · exact e
  · rw [hz] at e; cases e
  · rcases w p hp with e' | e'
    · exact absurd e' e
    · obtain ⟨col, hc, hl⟩ := count_part (counts_each h.counts).2.2.2.1 p hp
      obtain rfl := Except.ok.inj (e'.symm.trans hc)
      exact hl.symm

theorem Stages.keep5 (h : Stages c m fuel ps s n b d r s1 s2 s3 s4 s5 s6) (hs : Same s5) : KeepsRows m (fun _ => False) (NoWindsByHeight ps m) s5 s := by
  obtain ⟨k, hk⟩ := hs
  exact (keeps_logpHeight ⟨k, hk⟩ h.logp).trans (keeps_rest h.noHeights ⟨k, logpHeight_same hk h.logp⟩ h.rest)

theorem Stages.keep4 (h : Stages c m fuel ps s n b d r s1 s2 s3 s4 s5 s6) (hs : Same s4) : KeepsRows m (fun _ => False) (NoWindsByHeight ps m) s4 s := by
  obtain ⟨k, g⟩ : KeepsRows m (fun _ => False) (NoWindsByHeight ps m) s4 s5 ∧ Same s5 := keeps_pair
    (fun _ _ _ a e => by obtain ⟨p, e⟩ := withPart_inv e; exact ⟨keeps_wind a e, mergeWind_same a e⟩)
    (fun _ _ _ a e => by obtain ⟨p, e⟩ := withPart_inv e; exact ⟨keeps_wind a e, mergeWind_same a e⟩) hs h.maxW
  exact k.trans (h.keep5 g)

theorem Stages.moist_cols (h : Stages c m fuel ps s n b d r s1 s2 s3 s4 s5 s6) (hs : Same s2) :
    s3 = { s2 with hght := s3.hght } ∧ Same s3 ∧ KeepsRows m (fun _ => False) (NoWindsByHeight ps m) s2 s3 := by
  obtain ⟨k, hk⟩ := hs
  obtain ⟨s', e, g, b1, b2⟩ := C51_moist c m k s2.pres.length s2 hk (by rw [hk.pres])
  obtain rfl := Except.ok.inj (e.symm.trans h.moist)
  exact ⟨b1, ⟨k, g⟩, keeps_hght b1 b2⟩

theorem Stages.keep2 (h : Stages c m fuel ps s n b d r s1 s2 s3 s4 s5 s6) (hs : Same s2) : KeepsRows m (fun _ => False) (NoWindsByHeight ps m) s2 s := by
  obtain ⟨_, g3, k3⟩ := h.moist_cols hs
  obtain ⟨k4, g4⟩ : KeepsRows m (fun _ => False) (NoWindsByHeight ps m) s3 s4 ∧ Same s4 := keeps_pair
    (fun _ _ _ a e => by obtain ⟨p, e⟩ := withOpt_inv e; exact ⟨keeps_wind a e, mergeWind_same a e⟩)
    (fun _ _ _ a e => by obtain ⟨p, e⟩ := withOpt_inv e; exact ⟨keeps_wind a e, mergeWind_same a e⟩) g3 h.wind
  exact (k3.trans k4).trans (h.keep4 g4)

theorem Stages.keep1 (h : Stages c m fuel ps s n b d r s1 s2 s3 s4 s5 s6) (hs : Same s1) : KeepsRows m (fun _ => False) (NoWindsByHeight ps m) s1 s := by
  obtain ⟨k, g⟩ : KeepsRows m (fun _ => False) (NoWindsByHeight ps m) s1 s2 ∧ Same s2 := keeps_pair
    (fun _ _ _ a e => by obtain ⟨p, e⟩ := withPart_inv e; exact ⟨keeps_sigT a e, mergeSigT_same a e⟩)
    (fun _ _ _ a e => by obtain ⟨p, e⟩ := withPart_inv e; exact ⟨keeps_sigT a e, mergeSigT_same a e⟩) hs h.sigT
  exact k.trans (h.keep2 g)

theorem bottomOf_head {P : α} {name : String} {t : Snd α} {pb : α} (hm : m < P) (h : Base P m t) (e : bottomOf ps m name t = .ok pb) : P ≤ pb := by
  unfold bottomOf at e
  obtain ⟨p0, h0, e⟩ := run_inv e
  have e0 := idx_val m h0
  have hh := h.head
  rw [← e0] at hh
  rw [if_pos (hm.trans_le hh).ne'] at e
  rw [← Except.ok.inj e]; exact hh

theorem windBottom_head {P : α} {t : Snd α} {pb : α} (hm : m < P) (h : Base P m t) (e : windBottom m t = .ok pb) : P ≤ pb := by
  unfold windBottom at e
  obtain ⟨p0, h0, e⟩ := run_inv e
  have e0 := idx_val m h0
  have hh := h.head
  rw [← e0] at hh
  rw [if_pos (hm.trans_le hh).ne'] at e
  rw [← Except.ok.inj e]; exact hh

theorem NewAt.sub {P : α} {l l' : List String} (hl : ∀ x ∈ l', x ∈ l) (h : NewAt ps l P) : NewAt ps l' P := fun name hn => h name (hl name hn)

theorem NewAt.colOut {P : α} {l : List String} (h : NewAt ps l P) {name : String} (hn : name ∈ l) {p : SndPart α} (hp : ps.part name = some p)
    (col : List α) (hc : p.col "PRES" = .ok col) : ∀ y ∈ col, |y| ≠ P := by
  intro y hy
  obtain ⟨i, hi⟩ := List.mem_iff_getElem?.1 hy
  exact (h name hn p hp i y (getElem_at hi hc)).2

theorem AllBelow.col {P : α} {name : String} (h : AllBelow ps name P) {p : SndPart α} (hp : ps.part name = some p)
    (col : List α) (hc : p.col "PRES" = .ok col) : ∀ y ∈ col, P < |y| := by
  intro y hy
  obtain ⟨i, hi⟩ := List.mem_iff_getElem?.1 hy
  exact h p i y hp (getElem_at hi hc)

/-- After the tropopause. -/
theorem Stages.base1 (h : Stages c m fuel ps s n b d r s1 s2 s3 s4 s5 s6) {P : α} (h0 : TInv P m (NewAt ps ["TTAA", "TTCC"] P) r.1) :
    TInv P m (NewAt ps ["TTAA", "TTCC", "TRPA", "TRPC"] P) s1 := by
  have h0' : TInv P m (NewAt ps ["TTAA", "TTCC", "TRPA", "TRPC"] P) r.1 :=
    ⟨h0.1, fun f => h0.2 (NewAt.sub (by intro x hx; fin_cases hx <;> decide) f)⟩
  rcases pair_steps h.trop with ⟨_, _, rfl⟩ | ⟨pb, r1, r2, _, e1, e2, rfl⟩
  · exact h0'
  · have g1 : TInv P m (NewAt ps ["TTAA", "TTCC", "TRPA", "TRPC"] P) r1.1 := by
      rcases e1 with ⟨_, e⟩ | ⟨_, rfl⟩
      · obtain ⟨p, hp, e⟩ := withPart_get e
        exact (trop_inv h0' (fun f => NewAt.colOut f (by decide) hp) e).1
      · exact h0'
    rcases e2 with ⟨_, e⟩ | ⟨_, rfl⟩
    · obtain ⟨p, hp, e⟩ := withPart_get e
      exact (trop_inv g1 (fun f => NewAt.colOut f (by decide) hp) e).1
    · exact g1

/-- After the temperatures. -/
theorem Stages.base3 (h : Stages c m fuel ps s n b d r s1 s2 s3 s4 s5 s6) {P : α} {fresh : Prop} (h0 : WInv P m fresh s1) :
    WInv P m fresh s3 := by
  have g2 : WInv P m fresh s2 := by
    rcases pair_steps h.sigT with ⟨_, _, rfl⟩ | ⟨pb, r1, r2, _, e1, e2, rfl⟩
    · exact h0
    · have g1 : WInv P m fresh r1.1 := by
        rcases e1 with ⟨_, e⟩ | ⟨_, rfl⟩
        · obtain ⟨p, hp, e⟩ := withPart_get e
          exact sigT_winv h0 e
        · exact h0
      rcases e2 with ⟨_, e⟩ | ⟨_, rfl⟩
      · obtain ⟨p, hp, e⟩ := withPart_get e
        exact sigT_winv g1 e
      · exact g1
  obtain ⟨e, g, _⟩ := h.moist_cols g2.1.same
  refine g2.same ?_ ?_ g
  · rw [e]
  · rw [e]

theorem TInv.mono {P : α} {f f' : Prop} {t : Snd α} (hf : f' → f) (h : TInv P m f t) : TInv P m f' t := ⟨h.1, fun x => h.2 (hf x)⟩

theorem WInv.mono {P : α} {f f' : Prop} {t : Snd α} (hf : f' → f) (h : WInv P m f t) : WInv P m f' t := ⟨h.1, fun x => h.2 (hf x)⟩

end

/-- What every theorem here needs of a report: the six columns of the mandatory parts, a missing value below all absolute values, and a
surface pressure. -/
structure Spec.GoodReport (ps : SndParts α) (m : α) : Prop where
  low : ∀ x : α, m < |x|
  man : ∀ p, ps.part "TTAA" = some p → SixNames p
  upper : ∀ p, ps.part "TTCC" = some p → SixNames p
  surface : SurfaceGiven ps m

/-- C88: a significant temperature of the lower or upper part, with a pressure below that of the surface and of the levels before it, is at a level
of the merged sounding: its pressure is there with a temperature, and that and the dew point are its own unless mandatory levels or
the tropopause are at the same pressure. -/
theorem C88_temperature [FloorRing α] (c : Calc α) (m : α) (fuel : Nat) (ps : SndParts α) (s : Snd α) (p : SndPart α) (hr : GoodReport ps m)
    (h : mergeSounding c m fuel ps = .ok (some s)) (name : String) (hname : name = "TTBB" ∨ name = "TTDD") (hp : ps.part name = some p)
    (i : Nat) (x T D : α) (hx : p.at "PRES" i = .ok x) (hT : p.at "TEMP" i = .ok T) (hD : p.at "DWPT" i = .ok D) (h0 : |x| ≠ 0) (hTm : T ≠ m)
    (hsf : AboveSurface ps m |x|) (ha : AbsAbove |x| p i) (hlow : name = "TTDD" → AllBelow ps "TTBB" |x|) :
    ∃ j : Nat, s.pres[j]? = some |x| ∧ ∃ T', s.temp[j]? = some T' ∧ T' ≠ m ∧
      (NewAt ps ["TTAA", "TTCC", "TRPA", "TRPC"] |x| → T' = T ∧ (D ≠ m → s.dwpt[j]? = some D)) := by
  obtain ⟨n, b, d, r, s1, s2, s3, s4, s5, s6, st⟩ := merge_stages h
  have b1 := st.base1 (mandatory_base hr.low st.counts st.lower hr.man hr.upper st.man hr.surface hsf)
  obtain ⟨_, _, c1, _, _, _, c2, _⟩ := counts_each st.counts
  have hs2 : Same s2 := (st.sigT |> fun e => (keeps_pair (m := m) (hOK := fun _ => False) (wOK := False)
    (fun _ _ _ a e => by obtain ⟨p, e⟩ := withPart_inv e; exact ⟨keeps_sigT a e, mergeSigT_same a e⟩)
    (fun _ _ _ a e => by obtain ⟨p, e⟩ := withPart_inv e; exact ⟨keeps_sigT a e, mergeSigT_same a e⟩) b1.1.same e).2)
  have hxm : |x| ≠ m := (hr.low x).ne'
  rcases hname with rfl | rfl
  · have hn := count_pos c1 hp hx
    rcases pair_steps st.sigT with ⟨e, _⟩ | ⟨pb, r1, r2, hb, e1, e2, rfl⟩
    · omega
    · rcases e1 with ⟨_, e⟩ | ⟨e, _⟩
      · obtain ⟨p', hp', e⟩ := withPart_get e
        obtain rfl := Option.some.inj (hp.symm.trans hp')
        obtain ⟨t, ht, k⟩ := sigT_level (hOK := fun _ => False) (wOK := NoWindsByHeight ps m) b1 hx rfl hT hD hTm h0 hxm
          (bottomOf_head (hr.low x) b1.1 hb) ha e
        have k2 : KeepsRows m (fun _ => False) (NoWindsByHeight ps m) r1.1 r2.1 := by
          rcases e2 with ⟨_, e2⟩ | ⟨_, rfl⟩
          · obtain ⟨q, e2⟩ := withPart_inv e2
            exact keeps_sigT (mergeSigT_same b1.1.same e) e2
          · exact KeepsRows.refl _
        exact ht.keep hxm ((k.trans k2).trans (st.keep2 hs2))
      · omega
  · have hn := count_pos c2 hp hx
    rcases pair_steps st.sigT with ⟨_, e, _⟩ | ⟨pb, r1, r2, hb, e1, e2, rfl⟩
    · omega
    · have hpb := bottomOf_head (hr.low x) b1.1 hb
      have g1 : TInv |x| m (NewAt ps ["TTAA", "TTCC", "TRPA", "TRPC"] |x|) r1.1 ∧ |x| ≤ r1.2 := by
        rcases e1 with ⟨_, e⟩ | ⟨_, rfl⟩
        · obtain ⟨q, hq, e⟩ := withPart_get e
          obtain ⟨g, l⟩ := sigT_inv b1 (fun _ col hc y hy => (AllBelow.col (hlow rfl) hq col hc y hy).ne') e
          exact ⟨g, l hpb fun col hc y hy => (AllBelow.col (hlow rfl) hq col hc y hy).le⟩
        · exact ⟨b1, hpb⟩
      rcases e2 with ⟨_, e⟩ | ⟨e, _⟩
      · obtain ⟨p', hp', e⟩ := withPart_get e
        obtain rfl := Option.some.inj (hp.symm.trans hp')
        obtain ⟨t, ht, k⟩ := sigT_level (hOK := fun _ => False) (wOK := NoWindsByHeight ps m) g1.1 hx rfl hT hD hTm h0 hxm g1.2 ha e
        exact ht.keep hxm (k.trans (st.keep2 hs2))
      · omega

/-- C88: the same for the levels of the tropopause. -/
theorem C88_tropopause [FloorRing α] (c : Calc α) (m : α) (fuel : Nat) (ps : SndParts α) (s : Snd α) (p : SndPart α) (hr : GoodReport ps m)
    (h : mergeSounding c m fuel ps = .ok (some s)) (name : String) (hname : name = "TRPA" ∨ name = "TRPC") (hp : ps.part name = some p)
    (i : Nat) (x T D R W : α) (hx : p.at "PRES" i = .ok x) (hT : p.at "TEMP" i = .ok T) (hD : p.at "DWPT" i = .ok D) (hR : p.at "DRCT" i = .ok R)
    (hW : p.at "SPED" i = .ok W) (h0 : |x| ≠ 0) (hTm : T ≠ m)
    (hsf : AboveSurface ps m |x|) (ha : AbsAbove |x| p i) (hlow : name = "TRPC" → AllBelow ps "TRPA" |x|) :
    ∃ j : Nat, s.pres[j]? = some |x| ∧ ∃ T', s.temp[j]? = some T' ∧ T' ≠ m ∧
      (NewAt ps ["TTAA", "TTCC"] |x| → T' = T ∧ (D ≠ m → s.dwpt[j]? = some D)) := by
  obtain ⟨n, b, d, r, s1, s2, s3, s4, s5, s6, st⟩ := merge_stages h
  have b0 := mandatory_base hr.low st.counts st.lower hr.man hr.upper st.man hr.surface hsf
  have b1 := st.base1 b0
  obtain ⟨c1, _, _, _, c2, _⟩ := counts_each st.counts
  have hxm : |x| ≠ m := (hr.low x).ne'
  rcases hname with rfl | rfl
  · have hn := count_pos c1 hp hx
    rcases pair_steps st.trop with ⟨e, _⟩ | ⟨pb, r1, r2, hb, e1, e2, rfl⟩
    · omega
    · rcases e1 with ⟨_, e⟩ | ⟨e, _⟩
      · obtain ⟨p', hp', e⟩ := withPart_get e
        obtain rfl := Option.some.inj (hp.symm.trans hp')
        obtain ⟨t, ht, k⟩ := trop_level (wOK := NoWindsByHeight ps m) b0 hx rfl hT hD hR hW hTm h0 hxm (bottomOf_head (hr.low x) b0.1 hb) ha e
        have k2 : KeepsRows m (fun _ => False) (NoWindsByHeight ps m) r1.1 r2.1 := by
          rcases e2 with ⟨_, e2⟩ | ⟨_, rfl⟩
          · obtain ⟨q, e2⟩ := withPart_inv e2
            exact keeps_trop (mergeTrop_same b0.1.same e) (fun _ _ _ _ h => h) e2
          · exact KeepsRows.refl _
        exact ht.keep hxm ((k.trans k2).trans (st.keep1 b1.1.same))
      · omega
  · have hn := count_pos c2 hp hx
    rcases pair_steps st.trop with ⟨_, e, _⟩ | ⟨pb, r1, r2, hb, e1, e2, rfl⟩
    · omega
    · have hpb := bottomOf_head (hr.low x) b0.1 hb
      have g1 : TInv |x| m (NewAt ps ["TTAA", "TTCC"] |x|) r1.1 ∧ |x| ≤ r1.2 := by
        rcases e1 with ⟨_, e⟩ | ⟨_, rfl⟩
        · obtain ⟨q, hq, e⟩ := withPart_get e
          obtain ⟨g, l⟩ := trop_inv b0 (fun _ col hc y hy => (AllBelow.col (hlow rfl) hq col hc y hy).ne') e
          exact ⟨g, l hpb fun col hc y hy => (AllBelow.col (hlow rfl) hq col hc y hy).le⟩
        · exact ⟨b0, hpb⟩
      rcases e2 with ⟨_, e⟩ | ⟨e, _⟩
      · obtain ⟨p', hp', e⟩ := withPart_get e
        obtain rfl := Option.some.inj (hp.symm.trans hp')
        obtain ⟨t, ht, k⟩ := trop_level (wOK := NoWindsByHeight ps m) g1.1 hx rfl hT hD hR hW hTm h0 hxm g1.2 ha e
        exact ht.keep hxm (k.trans (st.keep1 b1.1.same))
      · omega

/-- The pressures of the first `hi` levels of a part of winds are above `P`. -/
def Spec.WindsBelow (P : α) (p : SndPart α) (hi : Nat) : Prop := ∀ j y, j < hi → WindPres p j y → P < |y|

/-- All winds of a part, if there is one and it is on pressure, have pressures above `P`. -/
def Spec.AllWindsBelow (ps : SndParts α) (m : α) (name : String) (P : α) : Prop :=
  ∀ p j y, ps.part name = some p → OnPressure p m → WindPres p j y → P < |y|

theorem withOpt_get {q : Option (SndPart α)} {f : SndPart α → Snd α → α → Run (Snd α × α)} {s : Snd α} {pb : α} {r : Snd α × α}
    (h : withOpt q f s pb = .ok r) : ∃ p, q = some p ∧ f p s pb = .ok r := by
  cases q with
  | none => cases h
  | some p => exact ⟨p, rfl, h⟩

/-- A part of winds that is merged on pressure. -/
theorem windCoord_used {ps : SndParts α} {m : α} {name : String} {n : Nat} {b : Bool × Option (SndPart α)} (h : windCoord ps m name n = .ok b)
    (hn : 1 ≤ if b.1 = true then 0 else n) : ∃ p q, ps.part name = some p ∧ OnPressure p m ∧ b.2 = some q ∧ ∀ i x, WindPres p i x ↔ q.at "PRES" i = .ok x := by
  have hb : b.1 = false := by
    cases e : b.1
    · rfl
    · rw [if_pos e] at hn; omega
  rw [if_neg (by rw [hb]; decide)] at hn
  rcases windCoord_inv h with ⟨e, _⟩ | ⟨p, hp, ⟨ho, _⟩ | ⟨_, e⟩⟩
  · omega
  · obtain ⟨_, q, e1, e2, _⟩ := windCoord_part h hn hp ho
    exact ⟨p, q, hp, ho, e1, e2⟩
  · rw [hb] at e; cases e

/-- C88: a significant wind on pressure of the lower or upper part, with a pressure below that of the surface and of the winds before it, is at a
level of the merged sounding: its pressure is there with a wind, which is its own unless mandatory levels or the tropopause are
at the same pressure. -/
theorem C88_wind [FloorRing α] (c : Calc α) (m : α) (fuel : Nat) (ps : SndParts α) (s : Snd α) (p : SndPart α) (hr : GoodReport ps m)
    (hz : NoWindsByHeight ps m) (h : mergeSounding c m fuel ps = .ok (some s)) (name : String) (hname : name = "PPBB" ∨ name = "PPDD")
    (hp : ps.part name = some p) (ho : OnPressure p m)
    (i : Nat) (x R W : α) (hx : WindPres p i x) (hR : p.at "DRCT" i = .ok R) (hW : p.at "SPED" i = .ok W) (h0 : |x| ≠ 0) (hRm : R ≠ m) (hWm : W ≠ m)
    (hsf : AboveSurface ps m |x|) (ha : WindsBelow |x| p i) (hlow : name = "PPDD" → AllWindsBelow ps m "PPBB" |x|) :
    ∃ j : Nat, s.pres[j]? = some |x| ∧ ∃ R' W', s.drct[j]? = some R' ∧ s.sped[j]? = some W' ∧ R' ≠ m ∧ W' ≠ m ∧
      (NewAt ps ["TTAA", "TTCC", "TRPA", "TRPC"] |x| → R' = R ∧ W' = W) := by
  obtain ⟨n, b, d, r, s1, s2, s3, s4, s5, s6, st⟩ := merge_stages h
  have hxm : |x| ≠ m := (hr.low x).ne'
  have b3 := st.base3 ((st.base1 (mandatory_base hr.low st.counts st.lower hr.man hr.upper st.man hr.surface hsf)).toW hxm)
  obtain ⟨_, _, _, c1, _, _, _, c2⟩ := counts_each st.counts
  have hs4 : Same s4 := (keeps_pair (m := m) (hOK := fun _ => False) (wOK := False)
    (fun _ _ _ a e => by obtain ⟨p, e⟩ := withOpt_inv e; exact ⟨keeps_wind a e, mergeWind_same a e⟩)
    (fun _ _ _ a e => by obtain ⟨p, e⟩ := withOpt_inv e; exact ⟨keeps_wind a e, mergeWind_same a e⟩) b3.1.same st.wind).2
  rcases hname with rfl | rfl
  · have hn := count_pos c1 hp hW
    obtain ⟨f1, q, f2, f3, f4⟩ := windCoord_part st.lower hn hp ho
    rcases pair_steps st.wind with ⟨e, _⟩ | ⟨pb, r1, r2, hb, e1, e2, rfl⟩
    · rw [f1] at e; exact absurd e (by simp; omega)
    · rcases e1 with ⟨_, e⟩ | ⟨e, _⟩
      · obtain ⟨p', hp', e⟩ := withOpt_get e
        obtain rfl := Option.some.inj (f2.symm.trans hp')
        obtain ⟨t, ht, k⟩ := wind_level (hOK := fun _ => False) (wOK := NoWindsByHeight ps m) b3 ((f3 i x).1 hx) rfl (f4 _ _ _ (by decide) hR)
          (f4 _ _ _ (by decide) hW) hRm hWm h0 hxm (windBottom_head (hr.low x) b3.1 hb) (fun j y hj hy => ha j y hj ((f3 j y).2 hy)) e
        have k2 : KeepsRows m (fun _ => False) (NoWindsByHeight ps m) r1.1 r2.1 := by
          rcases e2 with ⟨_, e2⟩ | ⟨_, rfl⟩
          · obtain ⟨q, e2⟩ := withOpt_inv e2
            exact keeps_wind (mergeWind_same b3.1.same e) e2
          · exact KeepsRows.refl _
        exact ht.keep hxm hz ((k.trans k2).trans (st.keep4 hs4))
      · rw [f1] at e; exact absurd e (by simp; omega)
  · have hn := count_pos c2 hp hW
    obtain ⟨f1, q, f2, f3, f4⟩ := windCoord_part st.upper hn hp ho
    rcases pair_steps st.wind with ⟨_, e, _⟩ | ⟨pb, r1, r2, hb, e1, e2, rfl⟩
    · rw [f1] at e; exact absurd e (by simp; omega)
    · have hpb := windBottom_head (hr.low x) b3.1 hb
      have g1 : WInv |x| m (NewAt ps ["TTAA", "TTCC", "TRPA", "TRPC"] |x|) r1.1 ∧ |x| ≤ r1.2 := by
        rcases e1 with ⟨hn1, e⟩ | ⟨_, rfl⟩
        · obtain ⟨p1, q1, hp1, ho1, hq1, hpr⟩ := windCoord_used st.lower hn1
          obtain ⟨q', hq', e⟩ := withOpt_get e
          obtain rfl := Option.some.inj (hq1.symm.trans hq')
          have low : ∀ col, q1.col "PRES" = .ok col → ∀ y ∈ col, |x| < |y| := by
            intro col hc y hy
            obtain ⟨j, hj⟩ := List.mem_iff_getElem?.1 hy
            exact hlow rfl p1 j y hp1 ho1 ((hpr j y).2 (getElem_at hj hc))
          obtain ⟨g, l⟩ := wind_inv b3 (fun _ col hc y hy => (low col hc y hy).ne') e
          exact ⟨g, l hpb fun col hc y hy => (low col hc y hy).le⟩
        · exact ⟨b3, hpb⟩
      rcases e2 with ⟨_, e⟩ | ⟨e, _⟩
      · obtain ⟨p', hp', e⟩ := withOpt_get e
        obtain rfl := Option.some.inj (f2.symm.trans hp')
        obtain ⟨t, ht, k⟩ := wind_level (hOK := fun _ => False) (wOK := NoWindsByHeight ps m) g1.1 ((f3 i x).1 hx) rfl (f4 _ _ _ (by decide) hR)
          (f4 _ _ _ (by decide) hW) hRm hWm h0 hxm g1.2 (fun j y hj hy => ha j y hj ((f3 j y).2 hy)) e
        exact ht.keep hxm hz (k.trans (st.keep4 hs4))
      · rw [f1] at e; exact absurd e (by simp; omega)

/-- No significant wind on pressure at the pressure. -/
def Spec.NoSigWindAt (ps : SndParts α) (m P : α) : Prop :=
  ∀ name, name = "PPBB" ∨ name = "PPDD" → ∀ p, ps.part name = some p → OnPressure p m → ∀ i y, WindPres p i y → |y| ≠ P

/-- C88: the same for the levels of maximum wind; the wind is their own unless significant winds are at the same pressure as well. -/
theorem C88_maximum_wind [FloorRing α] (c : Calc α) (m : α) (fuel : Nat) (ps : SndParts α) (s : Snd α) (p : SndPart α) (hr : GoodReport ps m)
    (hz : NoWindsByHeight ps m) (h : mergeSounding c m fuel ps = .ok (some s)) (name : String) (hname : name = "MXWA" ∨ name = "MXWC")
    (hp : ps.part name = some p)
    (i : Nat) (x R W : α) (hx : p.at "PRES" i = .ok x) (hR : p.at "DRCT" i = .ok R) (hW : p.at "SPED" i = .ok W) (h0 : |x| ≠ 0) (hRm : R ≠ m)
    (hWm : W ≠ m) (hsf : AboveSurface ps m |x|) (ha : AbsAbove |x| p i) (hlow : name = "MXWC" → AllBelow ps "MXWA" |x|) :
    ∃ j : Nat, s.pres[j]? = some |x| ∧ ∃ R' W', s.drct[j]? = some R' ∧ s.sped[j]? = some W' ∧ R' ≠ m ∧ W' ≠ m ∧
      (NewAt ps ["TTAA", "TTCC", "TRPA", "TRPC"] |x| → NoSigWindAt ps m |x| → R' = R ∧ W' = W) := by
  obtain ⟨n, b, d, r, s1, s2, s3, s4, s5, s6, st⟩ := merge_stages h
  have hxm : |x| ≠ m := (hr.low x).ne'
  have b3 := st.base3 ((st.base1 (mandatory_base hr.low st.counts st.lower hr.man hr.upper st.man hr.surface hsf)).toW hxm)
  have b3 : WInv |x| m (NewAt ps ["TTAA", "TTCC", "TRPA", "TRPC"] |x| ∧ NoSigWindAt ps m |x|) s3 := b3.mono And.left
  obtain ⟨_, c1, _, _, _, c2, _⟩ := counts_each st.counts
  have b4 : WInv |x| m (NewAt ps ["TTAA", "TTCC", "TRPA", "TRPC"] |x| ∧ NoSigWindAt ps m |x|) s4 := by
    have one : ∀ {name n} {y : Bool × Option (SndPart α)} {t : Snd α} {pb} {r' : Snd α × α}, (name = "PPBB" ∨ name = "PPDD") →
        windCoord ps m name n = .ok y → (1 ≤ if y.1 = true then 0 else n) → withOpt y.2 (mergeWind · m) t pb = .ok r' →
        WInv |x| m (NewAt ps ["TTAA", "TTCC", "TRPA", "TRPC"] |x| ∧ NoSigWindAt ps m |x|) t →
        WInv |x| m (NewAt ps ["TTAA", "TTCC", "TRPA", "TRPC"] |x| ∧ NoSigWindAt ps m |x|) r'.1 := by
      intro name n y t pb r' hn hy h1 e ht
      obtain ⟨p1, q1, hp1, ho1, hq1, hpr⟩ := windCoord_used hy h1
      obtain ⟨q', hq', e⟩ := withOpt_get e
      obtain rfl := Option.some.inj (hq1.symm.trans hq')
      refine (wind_inv ht (fun f col hc y hy => ?_) e).1
      obtain ⟨j, hj⟩ := List.mem_iff_getElem?.1 hy
      exact f.2 name hn p1 hp1 ho1 j y ((hpr j y).2 (getElem_at hj hc))
    rcases pair_steps st.wind with ⟨_, _, rfl⟩ | ⟨pb, r1, r2, _, e1, e2, rfl⟩
    · exact b3
    · have g1 : WInv |x| m (NewAt ps ["TTAA", "TTCC", "TRPA", "TRPC"] |x| ∧ NoSigWindAt ps m |x|) r1.1 := by
        rcases e1 with ⟨h1, e⟩ | ⟨_, rfl⟩
        · exact one (Or.inl rfl) st.lower h1 e b3
        · exact b3
      rcases e2 with ⟨h1, e⟩ | ⟨_, rfl⟩
      · exact one (Or.inr rfl) st.upper h1 e g1
      · exact g1
  have hs5 : Same s5 := (keeps_pair (m := m) (hOK := fun _ => False) (wOK := False)
    (fun _ _ _ a e => by obtain ⟨p, e⟩ := withPart_inv e; exact ⟨keeps_wind a e, mergeWind_same a e⟩)
    (fun _ _ _ a e => by obtain ⟨p, e⟩ := withPart_inv e; exact ⟨keeps_wind a e, mergeWind_same a e⟩) b4.1.same st.maxW).2
  have fin : ∀ {t t' : Snd α}, WindAt t m |x| R W (NewAt ps ["TTAA", "TTCC", "TRPA", "TRPC"] |x| ∧ NoSigWindAt ps m |x|) →
      KeepsRows m (fun _ => False) (NoWindsByHeight ps m) t t' → ∃ j : Nat, t'.pres[j]? = some |x| ∧ ∃ R' W', t'.drct[j]? = some R' ∧
        t'.sped[j]? = some W' ∧ R' ≠ m ∧ W' ≠ m ∧ (NewAt ps ["TTAA", "TTCC", "TRPA", "TRPC"] |x| → NoSigWindAt ps m |x| → R' = R ∧ W' = W) := by
    intro t t' ht k
    obtain ⟨j, g1, R', W', g2, g3, g4, g5, g6⟩ := ht.keep hxm hz k
    exact ⟨j, g1, R', W', g2, g3, g4, g5, fun f1 f2 => g6 ⟨f1, f2⟩⟩
  rcases hname with rfl | rfl
  · have hn := count_pos c1 hp hx
    rcases pair_steps st.maxW with ⟨e, _⟩ | ⟨pb, r1, r2, hb, e1, e2, rfl⟩
    · omega
    · rcases e1 with ⟨_, e⟩ | ⟨e, _⟩
      · obtain ⟨p', hp', e⟩ := withPart_get e
        obtain rfl := Option.some.inj (hp.symm.trans hp')
        obtain ⟨t, ht, k⟩ := wind_level (hOK := fun _ => False) (wOK := NoWindsByHeight ps m) b4 hx rfl hR hW hRm hWm h0 hxm
          (windBottom_head (hr.low x) b4.1 hb) ha e
        have k2 : KeepsRows m (fun _ => False) (NoWindsByHeight ps m) r1.1 r2.1 := by
          rcases e2 with ⟨_, e2⟩ | ⟨_, rfl⟩
          · obtain ⟨q, e2⟩ := withPart_inv e2
            exact keeps_wind (mergeWind_same b4.1.same e) e2
          · exact KeepsRows.refl _
        exact fin ht ((k.trans k2).trans (st.keep5 hs5))
      · omega
  · have hn := count_pos c2 hp hW
    rcases pair_steps st.maxW with ⟨_, e, _⟩ | ⟨pb, r1, r2, hb, e1, e2, rfl⟩
    · omega
    · have hpb := windBottom_head (hr.low x) b4.1 hb
      have g1 : WInv |x| m (NewAt ps ["TTAA", "TTCC", "TRPA", "TRPC"] |x| ∧ NoSigWindAt ps m |x|) r1.1 ∧ |x| ≤ r1.2 := by
        rcases e1 with ⟨_, e⟩ | ⟨_, rfl⟩
        · obtain ⟨q, hq, e⟩ := withPart_get e
          obtain ⟨g, l⟩ := wind_inv b4 (fun _ col hc y hy => (AllBelow.col (hlow rfl) hq col hc y hy).ne') e
          exact ⟨g, l hpb fun col hc y hy => (AllBelow.col (hlow rfl) hq col hc y hy).le⟩
        · exact ⟨b4, hpb⟩
      rcases e2 with ⟨_, e⟩ | ⟨e, _⟩
      · obtain ⟨p', hp', e⟩ := withPart_get e
        obtain rfl := Option.some.inj (hp.symm.trans hp')
        obtain ⟨t, ht, k⟩ := wind_level (hOK := fun _ => False) (wOK := NoWindsByHeight ps m) g1.1 hx rfl hR hW hRm hWm h0 hxm g1.2 ha e
        exact fin ht (k.trans (st.keep5 hs5))
      · omega

end

/-- A report with significant temperatures and winds, a tropopause and a maximum wind. -/
def sigSample : SndParts ℚ :=
  ⟨100, fun x =>
    if x = "TTAA" then some [("PRES", [1000, 850, 500]), ("TEMP", [20, 10, -10]), ("DWPT", [15, 5, -20]), ("DRCT", [90, 180, 200]), ("SPED", [5, 10, 20]),
      ("HGHT", [100, 1500, 5500])]
    else if x = "TTBB" then some [("PRES", [1000, 900]), ("TEMP", [20, 12]), ("DWPT", [15, 6])]
    else if x = "PPBB" then some [("PRES", [1000, 700]), ("DRCT", [90, 190]), ("SPED", [5, 15])]
    else if x = "TRPA" then some [("PRES", [220]), ("TEMP", [-58]), ("DWPT", [-66]), ("DRCT", [230]), ("SPED", [30])]
    else if x = "MXWA" then some [("PRES", [240]), ("DRCT", [235]), ("SPED", [45])]
    else none⟩

theorem sigSample_surface (y : ℚ) (h : SurfaceAt sigSample (-9999) y) : y = 1000 := by
  rcases h with ⟨hp, h⟩ | ⟨hp, h⟩ | ⟨hp, h⟩ | ⟨hp, ho, h⟩
  all_goals
    obtain rfl := Option.some.inj hp
    first
      | (cases h; done)
      | exact (Except.ok.inj h).symm
      | (rw [← Except.ok.inj h]; norm_num)

theorem sigSample_merges : ∃ s, mergeSounding ⟨fun x => x - 1, fun x => x + 1⟩ (-9999) 5 sigSample = .ok (some s) ∧
    s.pres = [1000, 900, 850, 700, 500, 240, 220] := by
  have h : (mergeSounding ⟨fun x => x - 1, fun x => x + 1⟩ (-9999) 5 sigSample).toOption.bind (fun o => o.map Snd.pres) =
      some [1000, 900, 850, 700, 500, 240, 220] := by decide +kernel
  revert h
  cases mergeSounding ⟨fun x => x - 1, fun x => x + 1⟩ (-9999) 5 sigSample with
  | error e => intro h; cases h
  | ok o =>
    cases o with
    | none => intro h; cases h
    | some s => intro h; exact ⟨s, rfl, Option.some.inj h⟩

theorem sigSample_good : GoodReport sigSample (-9999) where
  low x := lt_of_lt_of_le (by norm_num) (abs_nonneg x)
  man p hp := by
    obtain rfl := Option.some.inj hp
    unfold SixNames
    decide
  upper p hp := by cases hp
  surface := .sigT (p := [("PRES", [1000, 900]), ("TEMP", [20, 12]), ("DWPT", [15, 6])]) (x := 1000) (t := 20) rfl rfl rfl (by norm_num) (by norm_num)

example (s : Snd ℚ) (h : mergeSounding ⟨fun x => x - 1, fun x => x + 1⟩ (-9999) 5 sigSample = .ok (some s)) :
    ∃ j : Nat, s.pres[j]? = some 900 ∧ ∃ T', s.temp[j]? = some T' ∧ T' ≠ -9999 := by
  obtain ⟨j, h1, T', h2, h3, _⟩ := C88_temperature _ _ _ sigSample s [("PRES", [1000, 900]), ("TEMP", [20, 12]), ("DWPT", [15, 6])] sigSample_good h "TTBB"
    (Or.inl rfl) rfl 1 900 12 6 rfl rfl rfl (by norm_num) (by norm_num)
    (fun y hy _ => by rw [sigSample_surface y hy]; norm_num)
    (fun j y hj hy => by obtain rfl : j = 0 := by omega
                         rw [← Except.ok.inj hy]; norm_num)
    (fun e => absurd e (by decide))
  exact ⟨j, by simpa using h1, T', h2, h3⟩

example (s : Snd ℚ) (h : mergeSounding ⟨fun x => x - 1, fun x => x + 1⟩ (-9999) 5 sigSample = .ok (some s)) :
    ∃ j : Nat, s.pres[j]? = some 220 ∧ ∃ T', s.temp[j]? = some T' ∧ T' ≠ -9999 := by
  obtain ⟨j, h1, T', h2, h3, _⟩ := C88_tropopause _ _ _ sigSample s [("PRES", [220]), ("TEMP", [-58]), ("DWPT", [-66]), ("DRCT", [230]), ("SPED", [30])]
    sigSample_good h "TRPA"
    (Or.inl rfl) rfl 0 220 (-58) (-66) 230 30 rfl rfl rfl rfl rfl (by norm_num) (by norm_num)
    (fun y hy _ => by rw [sigSample_surface y hy]; norm_num)
    (fun j y hj _ => absurd hj (by omega))
    (fun e => absurd e (by decide))
  exact ⟨j, by simpa using h1, T', h2, h3⟩

theorem sigSample_noHeights : NoWindsByHeight sigSample (-9999) := by
  intro p hp
  obtain rfl := Option.some.inj hp
  exact Or.inl (Or.inl rfl)

example (s : Snd ℚ) (h : mergeSounding ⟨fun x => x - 1, fun x => x + 1⟩ (-9999) 5 sigSample = .ok (some s)) :
    ∃ j : Nat, s.pres[j]? = some 700 ∧ ∃ R' W', s.drct[j]? = some R' ∧ s.sped[j]? = some W' ∧ R' ≠ -9999 ∧ W' ≠ -9999 := by
  obtain ⟨j, h1, R', W', h2, h3, h4, h5, _⟩ := C88_wind _ _ _ sigSample s [("PRES", [1000, 700]), ("DRCT", [90, 190]), ("SPED", [5, 15])] sigSample_good
    sigSample_noHeights h "PPBB" (Or.inl rfl) rfl (Or.inl rfl) 1 700 190 15 (Or.inl rfl) rfl rfl (by norm_num) (by norm_num) (by norm_num)
    (fun y hy _ => by rw [sigSample_surface y hy]; norm_num)
    (fun j y hj hy => by
      obtain rfl : j = 0 := by omega
      rcases hy with hy | ⟨_, hy⟩
      · rw [← Except.ok.inj hy]; norm_num
      · cases hy)
    (fun e => absurd e (by decide))
  exact ⟨j, by simpa using h1, R', W', h2, h3, h4, h5⟩

example (s : Snd ℚ) (h : mergeSounding ⟨fun x => x - 1, fun x => x + 1⟩ (-9999) 5 sigSample = .ok (some s)) :
    ∃ j : Nat, s.pres[j]? = some 240 ∧ ∃ R' W', s.drct[j]? = some R' ∧ s.sped[j]? = some W' ∧ R' ≠ -9999 ∧ W' ≠ -9999 := by
  obtain ⟨j, h1, R', W', h2, h3, h4, h5, _⟩ := C88_maximum_wind _ _ _ sigSample s [("PRES", [240]), ("DRCT", [235]), ("SPED", [45])] sigSample_good
    sigSample_noHeights h "MXWA" (Or.inl rfl) rfl 0 240 235 45 rfl rfl rfl (by norm_num) (by norm_num) (by norm_num)
    (fun y hy _ => by rw [sigSample_surface y hy]; norm_num)
    (fun j y hj _ => absurd hj (by omega))
    (fun e => absurd e (by decide))
  exact ⟨j, by simpa using h1, R', W', h2, h3, h4, h5⟩

end Gempak
