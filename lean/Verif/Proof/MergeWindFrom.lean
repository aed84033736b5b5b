import Verif.Props.MergeFrom

/-!
# Merging: where the winds come from
-/

namespace Gempak

set_option linter.unusedSectionVars false

open Spec

section
variable {α : Type} [Field α] [LinearOrder α]

/-! ## Words of the claim -/

/-- The report gives direction `r` and speed `w` for pressure `P`, or one next to it; significant winds may be given on pressures under the
name of heights. -/
def Spec.WindRead (ps : SndParts α) (P r w : α) : Prop :=
  ∃ name ∈ ["TTAA", "TTCC", "PPAA", "PPCC", "TRPA", "TRPC", "MXWA", "MXWC", "PPBB", "PPDD"], ∃ p i x, ps.part name = some p ∧
    (p.at "PRES" i = .ok x ∨ name ∈ ["PPBB", "PPDD"] ∧ p.at "HGHT" i = .ok x) ∧ p.at "DRCT" i = .ok r ∧ p.at "SPED" i = .ok w ∧ NearP x P

/-- The report gives direction `r` and speed `w` for a height. -/
def Spec.HeightWind (ps : SndParts α) (m r w : α) : Prop :=
  ∃ name ∈ ["PPBB", "PPDD"], ∃ p i z, ps.part name = some p ∧ ¬ OnPressure p m ∧ p.at "HGHT" i = .ok z ∧ p.at "DRCT" i = .ok r ∧ p.at "SPED" i = .ok w

/-- Every level satisfies `R`, on pressure, height, direction and speed. -/
def AllWinds (R : α → α → α → α → Prop) (m : α) (s : Snd α) : Prop :=
  ∀ j, R (s.pres.getD j m) (s.hght.getD j m) (s.drct.getD j m) (s.sped.getD j m)

/-- A wind of the report. -/
def GivenWind (ps : SndParts α) (m p r w : α) : Prop := r ≠ m ∨ w ≠ m → WindRead ps p r w ∨ HeightWind ps m r w

/-- The winds of a level before those on heights. -/
def Wind1 (ps : SndParts α) (m p _z r w : α) : Prop := GivenWind ps m p r w

variable {m : α} {ps : SndParts α}

theorem GivenWind.none {p : α} : GivenWind ps m p m m := fun h => by rcases h with h | h <;> exact absurd rfl h

theorem AllWinds.insert {R : α → α → α → α → Prop} {s : Snd α} (hs : Same s) (h : AllWinds R m s) (loc : Int) {p z t d r w : α} (hr : R p z r w) :
    AllWinds R m (s.insert loc p z t d r w) := by
  obtain ⟨n, hs⟩ := hs
  obtain ⟨k, _, g⟩ := insert_getD (m := m) n loc
  intro j
  show R ((pyInsert s.pres loc p).getD j m) ((pyInsert s.hght loc z).getD j m) ((pyInsert s.drct loc r).getD j m) ((pyInsert s.sped loc w).getD j m)
  rw [g _ _ hs.pres, g _ _ hs.hght, g _ _ hs.drct, g _ _ hs.sped]
  split
  · exact h j
  · split
    · exact hr
    · exact h _

/-- Heights and temperatures do not matter. -/
theorem Wind1.others {s s' : Snd α} (h : AllWinds (Wind1 ps m) m s) (h1 : s'.pres = s.pres) (h2 : s'.drct = s.drct) (h3 : s'.sped = s.sped) :
    AllWinds (Wind1 ps m) m s' := by
  intro j
  unfold Wind1
  rw [h1, h2, h3]
  exact h j

/-- A wind stored at one level. -/
theorem AllWinds.store {R : α → α → α → α → Prop} {s : Snd α} {loc : Nat} {r w : α} {dr sp : List α} (h : AllWinds R m s) (h1 : put s.drct loc r = .ok dr)
    (h2 : put s.sped loc w = .ok sp) (hr : R (s.pres.getD loc m) (s.hght.getD loc m) r w) : AllWinds R m { s with drct := dr, sped := sp } := by
  intro j
  dsimp only
  by_cases hj : j = loc
  · subst hj
    obtain ⟨l1, rfl⟩ := put_val h1
    obtain ⟨l2, rfl⟩ := put_val h2
    rw [getD_set _ _ _ _ _ l1, getD_set _ _ _ _ _ l2, if_pos rfl, if_pos rfl]
    exact hr
  · rw [getD_put_ne h1 hj, getD_put_ne h2 hj]
    exact h j

theorem setWind_winds {s s' : Snd α} {loc : Nat} {r w : Run α} (hs : AllWinds (Wind1 ps m) m s)
    (hr : ∀ a b, r = .ok a → w = .ok b → WindRead ps (s.pres.getD loc m) a b) (h : setWind m s loc r w = .ok s') : AllWinds (Wind1 ps m) m s' := by
  unfold setWind at h
  obtain ⟨x, _, h⟩ := run_inv h
  split at h
  · obtain ⟨a, ha, h⟩ := run_inv h
    obtain ⟨dr, h1, h⟩ := run_inv h
    obtain ⟨b, hb, h⟩ := run_inv h
    obtain ⟨sp, h2, h⟩ := run_inv h
    obtain rfl := Except.ok.inj h
    exact hs.store h1 h2 fun _ => Or.inl (hr a b ha hb)
  · obtain rfl := Except.ok.inj h; exact hs

/-! ## The surface -/

theorem surfaceCheck_winds {c : Counts} {s : Snd α} {f : α} {s' : Snd α} (h : surfaceLevel ps m c = .ok s) (h' : surfaceCheck m f s = .ok s') :
    AllWinds (Wind1 ps m) m s' ∧ (s'.pres.getD 0 m = m → s'.drct.getD 0 m = m ∧ s'.sped.getD 0 m = m) ∧
      ∀ P r w, s'.pres.getD 0 m = P → P ≠ m → s'.drct.getD 0 m = r → s'.sped.getD 0 m = w →
        ∃ p, ps.part "TTAA" = some p ∧ p.at "PRES" 0 = .ok P ∧ p.at "DRCT" 0 = .ok r ∧ p.at "SPED" 0 = .ok w := by
  have key : ∀ p z t d r w : α, (p ≠ m → ∃ q, ps.part "TTAA" = some q ∧ q.at "PRES" 0 = .ok p ∧ q.at "DRCT" 0 = .ok r ∧ q.at "SPED" 0 = .ok w) →
      s = ⟨[p], [z], [t], [d], [r], [w]⟩ →
      AllWinds (Wind1 ps m) m s' ∧ (s'.pres.getD 0 m = m → s'.drct.getD 0 m = m ∧ s'.sped.getD 0 m = m) ∧
      ∀ P r w, s'.pres.getD 0 m = P → P ≠ m → s'.drct.getD 0 m = r → s'.sped.getD 0 m = w →
        ∃ p, ps.part "TTAA" = some p ∧ p.at "PRES" 0 = .ok P ∧ p.at "DRCT" 0 = .ok r ∧ p.at "SPED" 0 = .ok w := by
    rintro p z t d r w k1 rfl
    unfold surfaceCheck at h'
    obtain ⟨q, hq, h'⟩ := run_inv h'
    have eq : q = p := (Except.ok.inj hq).symm
    subst eq
    dsimp only at h'
    by_cases hc : (if q > 1060 then m else q) = m ∨ ((if q > 1060 then m else q) < f ∧ (if q > 1060 then m else q) ≠ m)
    · rw [if_pos hc] at h'
      obtain rfl : (⟨[m], [m], [m], [m], [m], [m]⟩ : Snd α) = s' := Except.ok.inj h'
      refine ⟨fun j => ?_, fun _ => ⟨rfl, rfl⟩, fun P r w e hne => absurd e.symm hne⟩
      cases j with
      | zero => exact GivenWind.none
      | succ j => exact GivenWind.none
    · rw [if_neg hc] at h'
      obtain rfl := Except.ok.inj h'
      have hne : q ≠ m := by
        rintro rfl
        exact hc (Or.inl (by split <;> rfl))
      refine ⟨fun j => ?_, fun e => absurd e hne, ?_⟩
      · cases j with
        | zero =>
          obtain ⟨p, g1, g2, g3, g4⟩ := k1 hne
          exact fun _ => Or.inl ⟨"TTAA", by decide, p, 0, q, g1, Or.inl g2, g3, g4, Or.inl rfl⟩
        | succ j => exact GivenWind.none
      · rintro P r' w' rfl _ rfl rfl
        exact k1 hne
  unfold surfaceLevel at h
  split at h
  · obtain rfl := Except.ok.inj h
    exact key _ _ _ _ _ _ (fun e => absurd rfl e) rfl
  · obtain ⟨p, hp, h⟩ := run_inv h
    obtain ⟨pr, h1, h⟩ := run_inv h
    obtain ⟨_, _, h⟩ := run_inv h
    obtain ⟨t, _, h⟩ := run_inv h
    obtain ⟨d, _, h⟩ := run_inv h
    obtain ⟨_, h2, h⟩ := run_inv h
    obtain ⟨_, h3, h⟩ := run_inv h
    obtain rfl := Except.ok.inj h
    exact key _ _ _ _ _ _ (fun _ => ⟨p, get_part hp, h1, h2, h3⟩) rfl

theorem surfaceSigT_winds {c c' : Counts} {s s' s0 : Snd α} {f : α} (h0 : surfaceLevel ps m c' = .ok s0) (h1 : surfaceCheck m f s0 = .ok s)
    (h : surfaceSigT ps m c s = .ok s') : AllWinds (Wind1 ps m) m s' := by
  obtain ⟨hs, w1, w2⟩ := surfaceCheck_winds h0 h1
  unfold surfaceSigT at h
  split at h
  · obtain rfl := Except.ok.inj h; exact hs
  · obtain ⟨b, hb, h⟩ := run_inv h
    obtain ⟨p, hp, h⟩ := run_inv h
    split at h
    · obtain rfl := Except.ok.inj h; exact hs
    · obtain ⟨t, ht, h⟩ := run_inv h
      split at h
      · obtain rfl := Except.ok.inj h; exact hs
      · obtain ⟨g, hg, h⟩ := run_inv h
        split at h
        · rename_i hc
          obtain ⟨pr, e1, h⟩ := run_inv h
          obtain ⟨x, hx, h⟩ := run_inv h
          obtain ⟨d, e2, h⟩ := run_inv h
          obtain ⟨t', e3, h⟩ := run_inv h
          obtain rfl := Except.ok.inj h
          intro j
          unfold Wind1
          dsimp only
          by_cases hj : j = 0
          · subst hj
            obtain ⟨l1, rfl⟩ := put_val e1
            rw [getD_set _ _ _ _ _ l1, if_pos rfl]
            have hg := idx_val m hg
            by_cases hgm : g = m
            · obtain ⟨u1, u2⟩ := w1 (hg.symm.trans hgm)
              rw [u1, u2]
              exact GivenWind.none
            · obtain ⟨q, g1, g2, g3, g4⟩ := w2 g _ _ hg.symm hgm rfl rfl
              exact fun _ => Or.inl ⟨"TTAA", by decide, q, 0, g, g1, Or.inl g2, g3, g4, Or.inr (Or.inr (hc.resolve_left hgm))⟩
          · rw [getD_put_ne e1 hj]
            exact hs j
        · obtain rfl := Except.ok.inj h; exact hs

/-- The part of significant winds that is merged. -/
structure WindPart2 (ps : SndParts α) (m : α) (name : String) (n : Nat) (z : Bool) (q : SndPart α) (p : SndPart α) : Prop where
  part : ps.part name = some p
  hght : ∀ i v, q.at "HGHT" i = .ok v → p.at "HGHT" i = .ok v
  drct : ∀ i v, q.at "DRCT" i = .ok v → p.at "DRCT" i = .ok v
  sped : ∀ i v, q.at "SPED" i = .ok v → p.at "SPED" i = .ok v
  pres : ∀ i v, q.at "PRES" i = .ok v → p.at "PRES" i = .ok v ∨ p.at "HGHT" i = .ok v
  high : z = true → 1 ≤ n → ¬ OnPressure p m

theorem windCoord_winds {name : String} {n : Nat} {r : Bool × Option (SndPart α)} (h : windCoord ps m name n = .ok r) {q : SndPart α} (hq : r.2 = some q) :
    ∃ p, WindPart2 ps m name n r.1 q p := by
  unfold windCoord at h
  split at h
  · rename_i hn
    obtain rfl := Except.ok.inj h
    exact ⟨q, hq, fun _ _ e => e, fun _ _ e => e, fun _ _ e => e, fun _ _ e => Or.inl e, fun _ h => absurd h (by omega)⟩
  · obtain ⟨p, hp, h⟩ := run_inv h
    have hp := get_part hp
    split at h
    · obtain rfl := Except.ok.inj h
      obtain rfl := Option.some.inj hq
      exact ⟨p, hp, fun _ _ e => e, fun _ _ e => e, fun _ _ e => e, fun _ _ e => Or.inl e, fun h => by cases h⟩
    · rename_i hno
      obtain ⟨hs, hh, h⟩ := run_inv h
      split at h
      · obtain rfl := Except.ok.inj h
        obtain rfl := Option.some.inj hq
        have keep : ∀ k, k ≠ "PRES" → ∀ i v, (p ++ [("PRES", hs)] : SndPart α).at k i = .ok v → p.at k i = .ok v := by
          intro k hk i v e
          have : (p ++ [("PRES", hs)] : SndPart α).col k = p.col k := by
            unfold SndPart.col
            rw [List.find?_append]
            cases p.find? (fun x => decide (x.1 = k)) with
            | some x => rfl
            | none => rw [List.find?_cons, decide_eq_false (fun e => hk e.symm)]; rfl
          unfold SndPart.at at e ⊢
          rw [this] at e
          exact e
        refine ⟨p, hp, keep _ (by decide), keep _ (by decide), keep _ (by decide), fun i v e => Or.inr ?_, fun h => by cases h⟩
        have : (p ++ [("PRES", hs)] : SndPart α).col "PRES" = .ok hs := by
          unfold SndPart.col
          rw [List.find?_append, List.find?_eq_none.2]
          · rfl
          · intro x hx hxe
            exact hno (List.any_eq_true.2 ⟨x, hx, hxe⟩)
        unfold SndPart.at at e ⊢
        rw [this, ok_bind] at e
        rw [hh, ok_bind]
        exact e
      · rename_i hz
        obtain rfl := Except.ok.inj h
        obtain rfl := Option.some.inj hq
        refine ⟨p, hp, fun _ _ e => e, fun _ _ e => e, fun _ _ e => e, fun _ _ e => Or.inl e, fun _ _ h => ?_⟩
        rcases h with h | ⟨zs, h1, z, h2, h3⟩
        · exact hno h
        · rw [hh] at h1
          obtain rfl := Except.ok.inj h1
          exact hz (List.any_eq_true.2 ⟨z, h2, decide_eq_true h3⟩)

theorem WindPart2.read {name : String} {n : Nat} {z : Bool} {q p : SndPart α} (hw : WindPart2 ps m name n z q p) (hn : name = "PPBB" ∨ name = "PPDD") {i : Nat}
    {x r w P : α} (hx : q.at "PRES" i = .ok x) (hr : q.at "DRCT" i = .ok r) (hs : q.at "SPED" i = .ok w) (hP : NearP x P) : WindRead ps P r w := by
  refine ⟨name, by rcases hn with rfl | rfl <;> decide, p, i, x, hw.part, ?_, hw.drct i r hr, hw.sped i w hs, hP⟩
  rcases hw.pres i x hx with e | e
  · exact Or.inl e
  · exact Or.inr ⟨by rcases hn with rfl | rfl <;> decide, e⟩

theorem WindPart2.height {name : String} {n : Nat} {q p : SndPart α} (hw : WindPart2 ps m name n true q p) (hn : name = "PPBB" ∨ name = "PPDD") (h1 : 1 ≤ n)
    {i : Nat} {x r w : α} (hx : q.at "HGHT" i = .ok x) (hr : q.at "DRCT" i = .ok r) (hs : q.at "SPED" i = .ok w) : HeightWind ps m r w :=
  ⟨name, by rcases hn with rfl | rfl <;> decide, p, i, x, hw.part, hw.high rfl h1, hw.hght i x hx, hw.drct i r hr, hw.sped i w hs⟩

theorem surfaceSigW_winds {b : Bool × Option (SndPart α)} {c : Counts} {s s' : Snd α} (hb : windCoord ps m "PPBB" c.sigW = .ok b)
    (hs : AllWinds (Wind1 ps m) m s) (h : surfaceSigW b.2 b.1 m c s = .ok s') : AllWinds (Wind1 ps m) m s' := by
  unfold surfaceSigW at h
  split at h
  · obtain rfl := Except.ok.inj h; exact hs
  · rename_i hn
    split at h
    · cases h
    · rename_i q hq
      obtain ⟨p', hw⟩ := windCoord_winds hb hq
      split at h
      · rename_i hz
        rw [hz] at hw
        obtain ⟨z, e1, h⟩ := run_inv h
        split at h
        · obtain ⟨r, e2, h⟩ := run_inv h
          split at h
          · obtain ⟨dr, e3, h⟩ := run_inv h
            obtain ⟨w, e4, h⟩ := run_inv h
            obtain ⟨sp, e5, h⟩ := run_inv h
            obtain rfl := Except.ok.inj h
            exact hs.store e3 e5 fun _ => Or.inr (hw.height (Or.inl rfl) (by omega) e1 e2 e4)
          · obtain rfl := Except.ok.inj h; exact hs
        · obtain rfl := Except.ok.inj h; exact hs
      · obtain ⟨p, hp, h⟩ := run_inv h
        split at h
        · obtain ⟨r, e2, h⟩ := run_inv h
          split at h
          · obtain ⟨f, hf, h⟩ := run_inv h
            split at h
            · obtain ⟨pr, e3, h⟩ := run_inv h
              obtain ⟨dr, e4, h⟩ := run_inv h
              obtain ⟨w, e5, h⟩ := run_inv h
              obtain ⟨sp, e6, h⟩ := run_inv h
              obtain rfl := Except.ok.inj h
              intro j
              unfold Wind1
              dsimp only
              by_cases hj : j = 0
              · subst hj
                obtain ⟨l1, rfl⟩ := put_val e3
                obtain ⟨l2, rfl⟩ := put_val e4
                obtain ⟨l3, rfl⟩ := put_val e6
                rw [getD_set _ _ _ _ _ l1, getD_set _ _ _ _ _ l2, getD_set _ _ _ _ _ l3, if_pos rfl, if_pos rfl, if_pos rfl]
                exact fun _ => Or.inl (hw.read (Or.inl rfl) hp e2 e5 (Or.inr (Or.inl rfl)))
              · rw [getD_put_ne e3 hj, getD_put_ne e4 hj, getD_put_ne e6 hj]
                exact hs j
            · obtain rfl := Except.ok.inj h; exact hs
          · obtain rfl := Except.ok.inj h; exact hs
        · obtain rfl := Except.ok.inj h; exact hs

/-! ## Mandatory levels -/

theorem mergeMan_winds {name : String} (hname : name = "TTAA" ∨ name = "TTCC") {p : SndPart α} (hpp : ps.part name = some p) {N i : Nat} {s : Snd α} {plast : α}
    {bgl : Nat} {r : Snd α × α × Nat} (hp : SixNames p) (hz : Same s) (hs : AllWinds (Wind1 ps m) m s) (h : mergeMan p m N i s plast bgl = .ok r) :
    AllWinds (Wind1 ps m) m r.1 := by
  induction N generalizing i s plast bgl with
  | zero => obtain rfl := Except.ok.inj h; exact hs
  | succ N ih =>
    rw [mergeMan] at h
    obtain ⟨b, hb, h⟩ := run_inv h
    split at h
    · obtain ⟨s1, h1, h⟩ := run_inv h
      obtain ⟨pl, h2, h⟩ := run_inv h
      obtain ⟨n, hn⟩ := hz
      refine ih ⟨n + 1, appendLevel_same hp hn h1⟩ ?_ h
      obtain ⟨v1, a1, b1⟩ := (appendLevel_colOf h1 "PRES").2 (six_count hp (by decide))
      obtain ⟨v3, a3, b3⟩ := (appendLevel_colOf h1 "DRCT").2 (six_count hp (by decide))
      obtain ⟨v4, a4, b4⟩ := (appendLevel_colOf h1 "SPED").2 (six_count hp (by decide))
      change s1.pres = s.pres ++ _ at b1
      change s1.drct = s.drct ++ _ at b3
      change s1.sped = s.sped ++ _ at b4
      have g : ∀ (l : List α) (v : α) (j : Nat), l.length = n → (l ++ [v]).getD j m = if j < n then l.getD j m else if j = n then v else m := by
        intro l v j hl
        rw [List.getD_eq_getElem?_getD, List.getD_eq_getElem?_getD]
        by_cases h1 : j < n
        · rw [if_pos h1, List.getElem?_append_left (by omega)]
        · rw [if_neg h1]
          by_cases h2 : j = n
          · subst h2; subst hl; rw [if_pos rfl, List.getElem?_concat_length]; rfl
          · rw [if_neg h2, List.getElem?_eq_none (by simp; omega)]; rfl
      intro j
      unfold Wind1
      rw [b1, b3, b4, g _ _ _ hn.pres, g _ _ _ hn.drct, g _ _ _ hn.sped]
      split
      · exact hs j
      · split
        · exact fun _ => Or.inl ⟨name, by rcases hname with rfl | rfl <;> decide, p, i, _, hpp, Or.inl a1, a3, a4, Or.inl rfl⟩
        · exact GivenWind.none
    · obtain ⟨_, _, h⟩ := run_inv h
      obtain ⟨_, _, h⟩ := run_inv h
      exact ih hz hs h

theorem mergeManWind_winds {name : String} (hname : name = "PPAA" ∨ name = "PPCC") {p : SndPart α} (hpp : ps.part name = some p) {l : List α} {i : Nat}
    (hl : ∀ k x, l[k]? = some x → p.at "PRES" (i + k) = .ok x) {s s' : Snd α} (hs : AllWinds (Wind1 ps m) m s) (h : mergeManWind p m l i s = .ok s') :
    AllWinds (Wind1 ps m) m s' := by
  induction l generalizing i s with
  | nil => obtain rfl := Except.ok.inj h; exact hs
  | cons x l ih =>
    have hl' : ∀ k y, l[k]? = some y → p.at "PRES" (i + 1 + k) = .ok y := by
      intro k y e
      rw [show i + 1 + k = i + (k + 1) by omega]
      exact hl (k + 1) y e
    rw [mergeManWind] at h
    split at h
    · rename_i hmem
      obtain ⟨s1, h1, h⟩ := run_inv h
      refine ih hl' (setWind_winds hs (fun a b ha hb => ?_) h1) h
      rw [idxOf_getD (List.mem_of_mem_drop hmem)]
      exact ⟨name, by rcases hname with rfl | rfl <;> decide, p, i, x, hpp, Or.inl (hl 0 x rfl), ha, hb, Or.inl rfl⟩
    · exact ih hl' hs h

theorem mandatory_winds {c : Counts} {b : Bool × Option (SndPart α)} {r : Snd α × Nat} (hb : windCoord ps m "PPBB" c.sigW = .ok b)
    (h1 : ∀ p, ps.part "TTAA" = some p → SixNames p) (h2 : ∀ p, ps.part "TTCC" = some p → SixNames p) (h : mergeMandatory ps m c b.1 b.2 = .ok r) :
    AllWinds (Wind1 ps m) m r.1 := by
  unfold mergeMandatory at h
  obtain ⟨s0, e0, h⟩ := run_inv h
  obtain ⟨f, _, h⟩ := run_inv h
  obtain ⟨s1, e1, h⟩ := run_inv h
  obtain ⟨s2, e2, h⟩ := run_inv h
  obtain ⟨s3, e3, h⟩ := run_inv h
  obtain ⟨p0, _, h⟩ := run_inv h
  dsimp only at h
  obtain ⟨r4, e4, h⟩ := run_inv h
  obtain ⟨r5, e5, h⟩ := run_inv h
  obtain ⟨s6, e6, h⟩ := run_inv h
  obtain ⟨s7, e7, h⟩ := run_inv h
  obtain rfl := Except.ok.inj h
  have a3 := surfaceSigW_winds hb (surfaceSigT_winds e0 e1 e2) e3
  have z3 : Same s3 := ⟨1, surfaceSigW_same (surfaceSigT_same (surfaceCheck_same (surfaceLevel_same e0) e1) e2) e3⟩
  obtain ⟨a4, z4⟩ : AllWinds (Wind1 ps m) m r4.1 ∧ Same r4.1 := by
    rcases whenSome_inv e4 with ⟨_, e⟩ | ⟨_, e⟩
    · obtain ⟨p, hp, e⟩ := run_inv e
      have hp := get_part hp
      exact ⟨mergeMan_winds (Or.inl rfl) hp (h1 p hp) z3 a3 e, mergeMan_same (h1 p hp) z3 e⟩
    · rw [e]; exact ⟨a3, z3⟩
  have a5 : AllWinds (Wind1 ps m) m r5.1 := by
    rcases whenSome_inv e5 with ⟨_, e⟩ | ⟨_, e⟩
    · obtain ⟨p, hp, e⟩ := run_inv e
      have hp := get_part hp
      exact mergeMan_winds (Or.inr rfl) hp (h2 p hp) z4 a4 e
    · rw [e]; exact a4
  have a6 : AllWinds (Wind1 ps m) m s6 := by
    split at e6
    · obtain ⟨p, hp, e6⟩ := run_inv e6
      obtain ⟨col, hc, e6⟩ := run_inv e6
      exact mergeManWind_winds (Or.inl rfl) (get_part hp) (col_at hc) a5 e6
    · obtain rfl := Except.ok.inj e6; exact a5
  split at e7
  · obtain ⟨p, hp, e7⟩ := run_inv e7
    obtain ⟨col, hc, e7⟩ := run_inv e7
    exact mergeManWind_winds (Or.inr rfl) (get_part hp) (col_at hc) a6 e7
  · obtain rfl := Except.ok.inj e7; exact a6

/-! ## Levels on pressure -/

theorem sigTPresent_rest {p : SndPart α} {i loc : Nat} {s s' : Snd α} (h : sigTPresent p m i s loc = .ok s') :
    s'.pres = s.pres ∧ s'.drct = s.drct ∧ s'.sped = s.sped := by
  unfold sigTPresent at h
  obtain ⟨t, _, h⟩ := run_inv h
  split at h
  · obtain ⟨_, _, h⟩ := run_inv h
    obtain ⟨_, _, h⟩ := run_inv h
    obtain ⟨_, _, h⟩ := run_inv h
    obtain ⟨_, _, h⟩ := run_inv h
    obtain rfl := Except.ok.inj h
    exact ⟨rfl, rfl, rfl⟩
  · obtain rfl := Except.ok.inj h; exact ⟨rfl, rfl, rfl⟩

theorem tropPresent_winds {p : SndPart α} {i : Nat} {s s' : Snd α} {x : α} (hp : ∀ r w, p.at "DRCT" i = .ok r → p.at "SPED" i = .ok w → WindRead ps |x| r w)
    (hmem : |x| ∈ s.pres) (hs : AllWinds (Wind1 ps m) m s) (h : tropPresent p m i s (s.pres.idxOf |x|) = .ok s') : AllWinds (Wind1 ps m) m s' := by
  unfold tropPresent at h
  obtain ⟨t, ht, h⟩ := run_inv h
  obtain ⟨s1, h1, h⟩ := run_inv h
  obtain ⟨s2, h2, h⟩ := run_inv h
  obtain ⟨z, h3, h⟩ := run_inv h
  obtain rfl := Except.ok.inj h
  have e1 : sigTPresent p m i s (s.pres.idxOf |x|) = .ok s1 := by
    unfold sigTPresent
    rw [ht, ok_bind]
    exact h1
  obtain ⟨u1, u2, u3⟩ := sigTPresent_rest e1
  have a2 := setWind_winds (Wind1.others hs u1 u2 u3) (fun a b ha hb => by rw [u1, idxOf_getD hmem]; exact hp a b ha hb) h2
  exact Wind1.others a2 rfl rfl rfl

/-- A part whose winds are for its pressures. -/
def PressureWinds (ps : SndParts α) (p : SndPart α) : Prop :=
  ∀ i x r w, p.at "PRES" i = .ok x → p.at "DRCT" i = .ok r → p.at "SPED" i = .ok w → WindRead ps |x| r w

theorem pressureWinds_of {name : String} (hn : name ∈ ["TRPA", "TRPC", "MXWA", "MXWC"]) {p : SndPart α} (hp : ps.part name = some p) : PressureWinds ps p := by
  intro i x r w h1 h2 h3
  refine ⟨name, ?_, p, i, x, hp, Or.inl h1, h2, h3, Or.inr (Or.inl rfl)⟩
  revert hn
  simp only [List.mem_cons, List.not_mem_nil, or_false]
  rintro (rfl | rfl | rfl | rfl) <;> decide

theorem trop_winds {p : SndPart α} (hp : PressureWinds ps p) {s : Snd α} {pbot : α} {r : Snd α × α} (hz : Same s) (hs : AllWinds (Wind1 ps m) m s)
    (h : mergeTrop p m s pbot = .ok r) : AllWinds (Wind1 ps m) m r.1 ∧ Same r.1 := by
  refine ⟨?_, mergeTrop_same hz h⟩
  unfold mergeTrop at h
  obtain ⟨c, hc, h⟩ := run_inv h
  refine onPressure_from (Q := AllWinds (Wind1 ps m) m) (p := p) ?_ ?_ (col_at hc) hz hs h
  · rintro i s x s' hx hxm hmem ⟨n, hn⟩ hs e
    exact ⟨tropPresent_winds (fun r w h1 h2 => hp i x r w hx h1 h2) hmem hs e, n, tropPresent_same hn e⟩
  · rintro i s x s' hx hxm ⟨n, hn⟩ hs e
    unfold tropNew at e
    obtain ⟨t, _, e⟩ := run_inv e
    obtain ⟨d, _, e⟩ := run_inv e
    obtain ⟨_, h1, e⟩ := run_inv e
    obtain ⟨_, h2, e⟩ := run_inv e
    obtain rfl := Except.ok.inj e
    exact ⟨hs.insert ⟨n, hn⟩ _ fun _ => Or.inl (hp i x _ _ hx h1 h2), n + 1, insert_size hn _ _ _ _ _ _ _⟩

theorem sigT_winds {p : SndPart α} {s : Snd α} {pbot : α} {r : Snd α × α} (hz : Same s) (hs : AllWinds (Wind1 ps m) m s)
    (h : mergeSigT p m s pbot = .ok r) : AllWinds (Wind1 ps m) m r.1 ∧ Same r.1 := by
  refine ⟨?_, mergeSigT_same hz h⟩
  unfold mergeSigT at h
  obtain ⟨c, hc, h⟩ := run_inv h
  refine onPressure_from (Q := AllWinds (Wind1 ps m) m) (p := p) ?_ ?_ (col_at hc) hz hs h
  · rintro i s x s' hx hxm hmem ⟨n, hn⟩ hs e
    obtain ⟨u1, u2, u3⟩ := sigTPresent_rest e
    exact ⟨Wind1.others hs u1 u2 u3, n, sigTPresent_same hn e⟩
  · rintro i s x s' hx hxm ⟨n, hn⟩ hs e
    unfold sigTNew at e
    obtain ⟨t, _, e⟩ := run_inv e
    obtain ⟨d, _, e⟩ := run_inv e
    obtain rfl := Except.ok.inj e
    exact ⟨hs.insert ⟨n, hn⟩ _ GivenWind.none, n + 1, insert_size hn _ _ _ _ _ _ _⟩

theorem wind_winds {p : SndPart α} (hp : PressureWinds ps p) {s : Snd α} {pbot : α} {r : Snd α × α} (hz : Same s)
    (hs : AllWinds (Wind1 ps m) m s) (h : mergeWind p m s pbot = .ok r) : AllWinds (Wind1 ps m) m r.1 ∧ Same r.1 := by
  refine ⟨?_, mergeWind_same hz h⟩
  unfold mergeWind at h
  obtain ⟨c, hc, h⟩ := run_inv h
  refine onPressure_from (Q := AllWinds (Wind1 ps m) m) (p := p) ?_ ?_ (col_at hc) hz hs h
  · rintro i s x s' hx hxm hmem ⟨n, hn⟩ hs e
    refine ⟨?_, n, windPresent_same hn e⟩
    unfold windPresent at e
    obtain ⟨_, _, e⟩ := run_inv e
    obtain ⟨_, _, e⟩ := run_inv e
    split at e
    · obtain ⟨_, h1, e⟩ := run_inv e
      obtain ⟨_, h2, e⟩ := run_inv e
      obtain ⟨_, h3, e⟩ := run_inv e
      obtain ⟨_, h4, e⟩ := run_inv e
      obtain rfl := Except.ok.inj e
      exact hs.store h2 h4 (by rw [idxOf_getD hmem]; exact fun _ => Or.inl (hp i x _ _ hx h1 h3))
    · obtain rfl := Except.ok.inj e; exact hs
  · rintro i s x s' hx hxm ⟨n, hn⟩ hs e
    unfold windNew at e
    obtain ⟨_, h1, e⟩ := run_inv e
    obtain ⟨_, h2, e⟩ := run_inv e
    obtain rfl := Except.ok.inj e
    exact ⟨hs.insert ⟨n, hn⟩ _ fun _ => Or.inl (hp i x _ _ hx h1 h2), n + 1, insert_size hn _ _ _ _ _ _ _⟩

end

end Gempak
