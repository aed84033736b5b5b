import Verif.Proof.MergeOnce
import Verif.Proof.MergeFrom
import Verif.Props.MergeBelow
import Verif.Props.MergeHigh
import Verif.Props.CalcPressure
import Verif.Props.CalcMissing
import Mathlib.Tactic.FieldSimp
import Mathlib.Tactic.Linarith

/-!
# C117: merged soundings have each pressure once
-/

namespace Gempak

set_option linter.unusedSectionVars false

open Spec

section
variable {α : Type} [Field α] [LinearOrder α]

/-! ## Surface and mandatory levels -/

theorem mandatory_fall {ps : SndParts α} {m : α} {n : Counts} {b : Bool × Option (SndPart α)} {r : Snd α × Nat} (hr : GoodReport ps m)
    (hn : ps.counts = .ok n) (hb : windCoord ps m "PPBB" n.sigW = .ok b) (h : mergeMandatory ps m n b.1 b.2 = .ok r) :
    ∃ p0, PFall m p0 r.1.pres ∧ SurfaceAt ps m p0 ∧ p0 ≠ m ∧ r.1.pres.head? = some p0 ∧
      ((∀ p, ps.part "TTAA" = some p → ∀ j x, 1 ≤ j → p.at "PRES" j = .ok x → x ≤ p0) → r.2 = 0) := by
  have hman : ps.count "TTAA" "PRES" = .ok n.man := by
    unfold SndParts.counts at hn
    obtain ⟨_, e1, hn⟩ := run_inv hn
    obtain ⟨_, _, hn⟩ := run_inv hn
    obtain ⟨_, _, hn⟩ := run_inv hn
    obtain ⟨_, _, hn⟩ := run_inv hn
    obtain ⟨_, _, hn⟩ := run_inv hn
    obtain ⟨_, _, hn⟩ := run_inv hn
    obtain ⟨_, _, hn⟩ := run_inv hn
    obtain ⟨_, _, hn⟩ := run_inv hn
    obtain ⟨_, _, hn⟩ := run_inv hn
    obtain ⟨_, _, hn⟩ := run_inv hn
    obtain ⟨_, _, hn⟩ := run_inv hn
    obtain ⟨_, _, hn⟩ := run_inv hn
    obtain rfl := Except.ok.inj hn
    exact e1
  have hcounts : ps.count "TTAA" "PRES" = .ok n.man ∧ ps.count "TTBB" "PRES" = .ok n.sigT ∧ ps.count "PPBB" "SPED" = .ok n.sigW :=
    ⟨hman, (counts_each hn).2.2.1, (counts_each hn).2.2.2.1⟩
  unfold mergeMandatory at h
  obtain ⟨s0, h0, h⟩ := run_inv h
  obtain ⟨f, hf, h⟩ := run_inv h
  obtain ⟨s1, h1, h⟩ := run_inv h
  obtain ⟨s2, h2, h⟩ := run_inv h
  obtain ⟨s3, h3, h⟩ := run_inv h
  obtain ⟨p0, hp0, h⟩ := run_inv h
  dsimp only at h
  obtain ⟨r4, h4, h⟩ := run_inv h
  obtain ⟨r5, h5, h⟩ := run_inv h
  obtain ⟨s6, h6, h⟩ := run_inv h
  obtain ⟨s7, h7, h⟩ := run_inv h
  obtain rfl := Except.ok.inj h
  have hsz : s3.Size 1 := surfaceSigW_same (surfaceSigT_same (surfaceCheck_same (surfaceLevel_same h0) h1) h2) h3
  have f3 : SfcFrom ps m s3 := by
    refine surfaceSigW_from ?_ (surfaceSigT_from (surfaceCheck_from (surfaceLevel_from h0) h1) h2) h3
    intro hz q x hq hx
    rcases windCoord_inv hb with ⟨_, e⟩ | ⟨p, hp, ⟨hon, _, e⟩ | ⟨_, e⟩⟩
    · rw [hz] at e; cases e
    · rcases e q x hq hx with e | e
      · exact .sigW hp e
      · exact .sigZ hp hon e
    · rw [hz] at e; cases e
  have hhead : s3.pres.getD 0 m ≠ m := surface_head hr.low hcounts hb h0 hf h1 h2 h3 hr.surface
  have hfrom : SurfaceAt ps m (s3.pres.getD 0 m) := f3.resolve_left hhead
  have ep := idx_val m hp0
  rw [← ep] at hhead hfrom
  obtain ⟨v, hv⟩ : ∃ v, s3.pres = [v] := List.length_eq_one_iff.1 hsz.pres
  have ev : v = p0 := by rw [ep, hv]; rfl
  subst ev
  rw [if_neg hhead] at h4
  have a3 : PFall m v s3.pres := by
    rw [hv]
    exact ⟨fun x hx => by rw [List.mem_singleton.1 hx]; exact hhead, List.mem_singleton.2 rfl, List.pairwise_singleton _ _⟩
  have a4 : PFall m v r4.1.pres ∧ r4.1.pres.head? = some v ∧ r4.1.pres.getLast? = some r4.2.1 ∧
      ((∀ p, ps.part "TTAA" = some p → ∀ j x, 1 ≤ j → p.at "PRES" j = .ok x → x ≤ v) → r4.2.2 = 0) := by
    rcases whenSome_inv h4 with ⟨_, e⟩ | ⟨_, e⟩
    · obtain ⟨p, hp, e⟩ := run_inv e
      have := mergeMan_fall (hr.man p (get_part hp)) a3 (by rw [hv]; rfl) (by rw [hv]; rfl) e
      exact ⟨this.1, this.2.1, this.2.2.1, fun g => this.2.2.2 (g p (get_part hp))⟩
    · rw [e]
      exact ⟨a3, by dsimp only; rw [hv]; rfl, by dsimp only; rw [hv]; rfl, fun _ => rfl⟩
  have a5 : PFall m v r5.1.pres ∧ r5.1.pres.head? = some v := by
    rcases whenSome_inv h5 with ⟨_, e⟩ | ⟨_, e⟩
    · obtain ⟨p, hp, e⟩ := run_inv e
      have := mergeMan_fall (hr.upper p (get_part hp)) a4.1 a4.2.1 a4.2.2.1 e
      exact ⟨this.1, this.2.1⟩
    · rw [e]; exact ⟨a4.1, a4.2.1⟩
  have e6 : s6.pres = r5.1.pres := by
    split at h6
    · obtain ⟨p, hp, h6⟩ := run_inv h6
      obtain ⟨col, hc, h6⟩ := run_inv h6
      exact mergeManWind_pres h6
    · obtain rfl := Except.ok.inj h6; rfl
  have e7 : s7.pres = s6.pres := by
    split at h7
    · obtain ⟨p, hp, h7⟩ := run_inv h7
      obtain ⟨col, hc, h7⟩ := run_inv h7
      exact mergeManWind_pres h7
    · obtain rfl := Except.ok.inj h7; rfl
  dsimp only
  rw [e7, e6]
  exact ⟨v, a5.1, hfrom, hhead, a5.2, a4.2.2.2⟩

/-! ## Levels on pressure -/

theorem Stages.same5 [FloorRing α] {c : Calc α} {m : α} {fuel : Nat} {ps : SndParts α} {s : Snd α} {n : Counts} {b d : Bool × Option (SndPart α)}
    {r : Snd α × Nat} {s1 s2 s3 s4 s5 s6 : Snd α} (hr : GoodReport ps m) (st : Stages c m fuel ps s n b d r s1 s2 s3 s4 s5 s6) :
    Same r.1 ∧ Same s2 ∧ Same s5 := by
  have k0 := mergeMandatory_same hr.man hr.upper st.man
  have k1 : Same s1 := mergePair_same (fun _ _ _ a e => by obtain ⟨p, e⟩ := withPart_inv e; exact mergeTrop_same a e)
    (fun _ _ _ a e => by obtain ⟨p, e⟩ := withPart_inv e; exact mergeTrop_same a e) k0 st.trop
  have k2 : Same s2 := mergePair_same (fun _ _ _ a e => by obtain ⟨p, e⟩ := withPart_inv e; exact mergeSigT_same a e)
    (fun _ _ _ a e => by obtain ⟨p, e⟩ := withPart_inv e; exact mergeSigT_same a e) k1 st.sigT
  have k3 : Same s3 := (st.moist_cols k2).2.1
  have k4 : Same s4 := mergePair_same (fun _ _ _ a e => by obtain ⟨p, e⟩ := withOpt_inv e; exact mergeWind_same a e)
    (fun _ _ _ a e => by obtain ⟨p, e⟩ := withOpt_inv e; exact mergeWind_same a e) k3 st.wind
  exact ⟨k0, k2, mergePair_same (fun _ _ _ a e => by obtain ⟨p, e⟩ := withPart_inv e; exact mergeWind_same a e)
    (fun _ _ _ a e => by obtain ⟨p, e⟩ := withPart_inv e; exact mergeWind_same a e) k4 st.maxW⟩

theorem Stages.fall6 [FloorRing α] {c : Calc α} {m : α} {fuel : Nat} {ps : SndParts α} {s : Snd α} {n : Counts} {b d : Bool × Option (SndPart α)}
    {r : Snd α × Nat} {s1 s2 s3 s4 s5 s6 : Snd α} (hr : GoodReport ps m) (st : Stages c m fuel ps s n b d r s1 s2 s3 s4 s5 s6) :
    ∃ p0, PFall m p0 s6.pres ∧ SurfaceAt ps m p0 ∧ p0 ≠ m ∧ Same s6 ∧
      ((∀ p, ps.part "TTAA" = some p → ∀ j x, 1 ≤ j → p.at "PRES" j = .ok x → x ≤ p0) → r.2 = 0) := by
  obtain ⟨_, k2, k5⟩ := st.same5 hr
  obtain ⟨p0, g0, hp0, hm0, _, hbgl⟩ := mandatory_fall hr st.counts st.lower st.man
  have g1 : PFall m p0 s1.pres := pair_fall (fun _ _ _ a e => by obtain ⟨p, e⟩ := withPart_inv e; exact trop_fall a e)
    (fun _ _ _ a e => by obtain ⟨p, e⟩ := withPart_inv e; exact trop_fall a e) g0 st.trop
  have g2 : PFall m p0 s2.pres := pair_fall (fun _ _ _ a e => by obtain ⟨p, e⟩ := withPart_inv e; exact sigT_fall a e)
    (fun _ _ _ a e => by obtain ⟨p, e⟩ := withPart_inv e; exact sigT_fall a e) g1 st.sigT
  have g3 : PFall m p0 s3.pres := by rw [(st.moist_cols k2).1]; exact g2
  have g4 : PFall m p0 s4.pres := pair_fall (fun _ _ _ a e => by obtain ⟨p, e⟩ := withOpt_inv e; exact wind_fall a e)
    (fun _ _ _ a e => by obtain ⟨p, e⟩ := withOpt_inv e; exact wind_fall a e) g3 st.wind
  have g5 : PFall m p0 s5.pres := pair_fall (fun _ _ _ a e => by obtain ⟨p, e⟩ := withPart_inv e; exact wind_fall a e)
    (fun _ _ _ a e => by obtain ⟨p, e⟩ := withPart_inv e; exact wind_fall a e) g4 st.maxW
  obtain ⟨k, hk⟩ := k5
  exact ⟨p0, by rw [logp_pres ⟨k, hk⟩ st.logp]; exact g5, hp0, hm0, ⟨k, logpHeight_same hk st.logp⟩, hbgl⟩

/-! ## No winds by height -/

theorem mergeZ_still {c : Calc α} {m : α} {b d : Option (SndPart α)} {y : Nat} {s : Snd α} {r : Snd α × Nat} (hs : Same s)
    (hg : ∀ x ∈ s.pres, x ≠ m) (h : mergeZ c m b d 0 y s = .ok r) : r.1.pres = s.pres ∧ Same r.1 := by
  refine ⟨?_, r.2, mergeZ_size hs h⟩
  unfold mergeZ at h
  obtain ⟨i, hi, h⟩ := run_inv h
  obtain ⟨v, hv, h⟩ := run_inv h
  obtain ⟨q, hq, h⟩ := run_inv h
  obtain ⟨s', hp, h⟩ := run_inv h
  obtain rfl := Except.ok.inj h
  unfold zFirst at hi
  rw [if_pos (by omega)] at hi
  obtain rfl := Except.ok.inj hi
  rw [if_pos (le_refl _), zLoop_end (le_refl _)] at hq
  obtain rfl := Except.ok.inj hq
  obtain ⟨n, hs⟩ := hs
  obtain ⟨P', e, l, e2, _⟩ := C49_filled c m s n hs.pres hs.hght
  obtain rfl := Except.ok.inj (e.symm.trans hp)
  dsimp only
  refine List.ext_getElem (l.trans hs.pres.symm) fun j h1 h2 => ?_
  have hj : s.pres.getD j m = s.pres[j] := List.getD_eq_getElem _ _ h2
  have := e2 j (by rw [hj]; exact hg _ (List.getElem_mem _))
  rw [hj, List.getD_eq_getElem _ _ h1] at this
  exact this

/-- Before the levels below the ground, without winds by height: the pressures of the levels on pressure. -/
theorem Stages.still [FloorRing α] {c : Calc α} {m : α} {fuel : Nat} {ps : SndParts α} {s : Snd α} {n : Counts} {b d : Bool × Option (SndPart α)}
    {r : Snd α × Nat} {s1 s2 s3 s4 s5 s6 : Snd α} (hr : GoodReport ps m) (hz : NoWindsByHeight ps m)
    (st : Stages c m fuel ps s n b d r s1 s2 s3 s4 s5 s6) :
    ∃ t p0 q0, PFall m p0 t.pres ∧ SurfaceAt ps m p0 ∧ p0 ≠ m ∧ t.pres.head? = some q0 ∧
      ((∀ p, ps.part "TTAA" = some p → ∀ j x, 1 ≤ j → p.at "PRES" j = .ok x → x ≤ p0) → r.2 = 0) ∧
      ((0 < r.2 ∧ ∃ p k, ps.part "TTAA" = some p ∧ mergeBelow p (n.man - 1) 1 t k = .ok s) ∨
      (r.2 = 0 ∧ s = t)) := by
  obtain ⟨q0, g6, hq0, hm0, k6, hbgl⟩ := st.fall6 hr
  have h := st.rest
  unfold mergeRest at h
  obtain ⟨q, hq, h⟩ := run_inv h
  obtain ⟨t, ht, h⟩ := run_inv h
  obtain ⟨p0, hp0, h⟩ := run_inv h
  have hq1 : q.1.pres = s6.pres ∧ Same q.1 := by
    split at hq
    · obtain ⟨x, hx, hq⟩ := run_inv hq
      obtain rfl := Except.ok.inj hq
      have e0 : (if b.1 = true then n.sigW else 0) = 0 := by
        split
        · rename_i hb; exact st.noHeights hz hb
        · rfl
      rw [e0] at hx
      exact mergeZ_still k6 g6.given hx
    · obtain rfl := Except.ok.inj hq; exact ⟨rfl, k6⟩
  obtain ⟨k, hk⟩ := hq1.2
  have et : t.pres = s6.pres := (C50_kept c m _ _ k hk ht).2.1.trans hq1.1
  have gt : PFall m q0 t.pres := by rw [et]; exact g6
  have h0 : t.pres.head? = some p0 := by
    have hl := idx_val m hp0
    cases e : t.pres with
    | nil => rw [e] at hp0; cases hp0
    | cons x l => rw [e] at hl; rw [hl]; rfl
  have hp0m : p0 ≠ m := gt.given p0 (List.mem_of_mem_head? h0)
  refine ⟨t, q0, p0, gt, hq0, hm0, h0, hbgl, ?_⟩
  split at h
  · rename_i hc
    obtain ⟨p, hp, h⟩ := run_inv h
    exact Or.inl ⟨hc.2, p, _, get_part hp, h⟩
  · rename_i hc
    exact Or.inr ⟨by by_contra hne; exact hc ⟨hp0m, Nat.pos_of_ne_zero hne⟩, (Except.ok.inj h).symm⟩

/-! ## The theorems -/

/-- C117: when the report gives a surface pressure, has no winds by height and no mandatory level below the surface, every level of the merged
sounding has a pressure, and the pressures fall from level to level: none occurs twice. -/
theorem C117_falls_partial [FloorRing α] (c : Calc α) (m : α) (fuel : Nat) (ps : SndParts α) (s : Snd α) (hr : GoodReport ps m)
    (hz : NoWindsByHeight ps m) (h : mergeSounding c m fuel ps = .ok (some s))
    (hg : ∀ p, ps.part "TTAA" = some p → ∀ j x y, 1 ≤ j → p.at "PRES" j = .ok x → SurfaceAt ps m y → y ≠ m → x ≤ y) :
    (∀ x ∈ s.pres, x ≠ m) ∧ s.pres.Pairwise fun x y => y < x := by
  obtain ⟨n, b, d, r, s1, s2, s3, s4, s5, s6, st⟩ := merge_stages h
  obtain ⟨t, p0, q0, gt, hp0, hm0, _, hbgl, ⟨h1, _⟩ | ⟨_, rfl⟩⟩ := st.still hr hz
  · have := hbgl fun p hp j x hj hx => hg p hp j x p0 hj hx hp0 hm0
    omega
  · exact ⟨gt.given, gt.falls⟩

theorem pyInsert_perm (l : List α) (loc : Int) (v : α) : (pyInsert l loc v).Perm (v :: l) := by
  unfold pyInsert
  dsimp only
  refine List.perm_middle.trans (List.Perm.cons _ ?_)
  rw [List.take_append_drop]

/-- Levels below the ground: what is greater than `q0` comes from levels of the part used so far. -/
theorem mergeBelow_once {p : SndPart α} {m q0 : α} {N i : Nat} {s s' : Snd α} {k : Option Nat} (h : mergeBelow p N i s k = .ok s')
    (hd : ∀ a b x, 1 ≤ a → a < b → p.at "PRES" a = .ok x → p.at "PRES" b = .ok x → x ≤ q0) (hi : 1 ≤ i) (h0 : q0 ≤ s.pres.getD 0 m) (hnd : s.pres.Nodup)
    (hs : ∀ x ∈ s.pres, x ≤ q0 ∨ ∃ a, 1 ≤ a ∧ a < i ∧ p.at "PRES" a = .ok x) (hm : ∀ x ∈ s.pres, x ≠ m) (hmq : m < q0) :
    s'.pres.Nodup ∧ ∀ x ∈ s'.pres, x ≠ m := by
  induction N generalizing i s k with
  | zero => obtain rfl := Except.ok.inj h; exact ⟨hnd, hm⟩
  | succ N ih =>
    rw [mergeBelow] at h
    obtain ⟨pr, hpr, h⟩ := run_inv h
    obtain ⟨p0, hp0, h⟩ := run_inv h
    have e0 := idx_val m hp0
    rw [← e0] at h0
    split at h
    · rename_i hlt
      rcases k with _ | k'
      · cases h
      · dsimp only at h
        obtain ⟨z, _, h⟩ := run_inv h
        obtain ⟨t, _, h⟩ := run_inv h
        obtain ⟨d, _, h⟩ := run_inv h
        obtain ⟨r, _, h⟩ := run_inv h
        obtain ⟨w, _, h⟩ := run_inv h
        have hq : q0 < pr := lt_of_le_of_lt h0 hlt
        have hni : pr ∉ s.pres := fun hc => by
          rcases hs pr hc with e | ⟨a, ha, hai, e⟩
          · exact absurd hq (not_lt.2 e)
          · exact absurd hq (not_lt.2 (hd a i pr ha hai e hpr))
        generalize ((k' : Int) - bisectLeft (s.pres.drop 1).reverse pr) = loc at h
        have hperm : (s.insert loc pr z t d r w).pres.Perm (pr :: s.pres) := pyInsert_perm s.pres loc pr
        have hmem : ∀ x, x ∈ (s.insert loc pr z t d r w).pres → x = pr ∨ x ∈ s.pres := fun x hx => List.mem_cons.1 (hperm.mem_iff.1 hx)
        refine ih h (by omega) ?_ (hperm.nodup_iff.2 (List.nodup_cons.2 ⟨hni, hnd⟩)) ?_ ?_
        · obtain ⟨j, hj, hg⟩ := insert_getD (m := m) s.pres.length loc
          show q0 ≤ (pyInsert s.pres loc pr).getD 0 m
          rw [hg s.pres pr rfl 0]
          split
          · rw [← e0]; exact h0
          · rw [if_pos (by omega)]; exact hq.le
        · intro x hx
          rcases hmem x hx with rfl | hx
          · exact Or.inr ⟨i, hi, by omega, hpr⟩
          · rcases hs x hx with e | ⟨a, ha, hai, e⟩
            · exact Or.inl e
            · exact Or.inr ⟨a, ha, by omega, e⟩
        · intro x hx
          rcases hmem x hx with rfl | hx
          · exact (hmq.trans hq).ne'
          · exact hm x hx
    · refine ih h (by omega) (by rw [← e0]; exact h0) hnd (fun x hx => ?_) hm
      rcases hs x hx with e | ⟨a, ha, hai, e⟩
      · exact Or.inl e
      · exact Or.inr ⟨a, ha, by omega, e⟩

/-- C117: when the report gives a surface pressure, has no winds by height, and no two mandatory levels below the surface have the same pressure,
every level of the merged sounding has a pressure and no pressure occurs twice. -/
theorem C117_once_partial [FloorRing α] (c : Calc α) (m : α) (fuel : Nat) (ps : SndParts α) (s : Snd α) (hr : GoodReport ps m)
    (hz : NoWindsByHeight ps m) (h : mergeSounding c m fuel ps = .ok (some s)) (hpos : ∀ y, SurfaceAt ps m y → m ≤ y)
    (hg : ∀ p, ps.part "TTAA" = some p → ∀ i j x y, 1 ≤ i → i < j → p.at "PRES" i = .ok x → p.at "PRES" j = .ok x → SurfaceAt ps m y → y ≠ m → x ≤ y) :
    (∀ x ∈ s.pres, x ≠ m) ∧ s.pres.Nodup := by
  obtain ⟨n, b, d, r, s1, s2, s3, s4, s5, s6, st⟩ := merge_stages h
  obtain ⟨t, p0, q0, gt, hp0, hm0, hq0, hbgl, ⟨_, p, k, hp, e⟩ | ⟨_, rfl⟩⟩ := st.still hr hz
  · have hall : ∀ x ∈ t.pres, x ≤ q0 := by
      intro x hx
      cases el : t.pres with
      | nil => rw [el] at hx; cases hx
      | cons y l =>
        rw [el] at hq0 hx
        obtain rfl : y = q0 := Option.some.inj hq0
        rcases List.mem_cons.1 hx with rfl | hx
        · exact le_refl _
        · have := gt.falls
          rw [el] at this
          exact (List.rel_of_pairwise_cons this hx).le
    have hpq := hall p0 gt.has
    have := mergeBelow_once (m := m) (q0 := q0) e (fun a b x h1 h2 h3 h4 => (hg p hp a b x p0 h1 h2 h3 h4 hp0 hm0).trans hpq) (le_refl _)
      (le_of_eq (by rw [List.getD_eq_getElem?_getD, ← List.head?_eq_getElem?, hq0]; rfl)) (gt.falls.imp fun h => h.ne') (fun x hx => Or.inl (hall x hx)) gt.given
      (lt_of_lt_of_le (lt_of_le_of_ne (hpos p0 hp0) (Ne.symm hm0)) hpq)
    exact ⟨this.2, this.1⟩
  · exact ⟨gt.given, gt.falls.imp fun h => h.ne'⟩

/-! ## Winds by height -/

/-- The line of log pressure over height through two levels goes through them and falls between them. -/
structure Spec.LineFalls (c : Calc α) : Prop where
  low : ∀ pb zb pt zt : α, 0 < pt → pt < pb → zb < zt → linePressure c pb zb pt zt zb = pb
  high : ∀ pb zb pt zt : α, 0 < pt → pt < pb → zb < zt → linePressure c pb zb pt zt zt = pt
  falls : ∀ pb zb pt zt y z : α, 0 < pt → pt < pb → zb ≤ y → y < z → z ≤ zt → linePressure c pb zb pt zt z < linePressure c pb zb pt zt y

theorem filter_insert (l : List α) (loc : Int) (m : α) : (pyInsert l loc m).filter (· ≠ m) = l.filter (· ≠ m) := by
  unfold pyInsert
  dsimp only
  rw [List.filter_append, List.filter_cons_of_neg (by simp), ← List.filter_append, List.take_append_drop]

theorem zWind_pres {m : α} {p : SndPart α} {i : Nat} {s : Snd α} {v : ZVars α} {r : Snd α × ZVars α} (h : zWind m p i s v = .ok r) :
    r.1.pres.filter (· ≠ m) = s.pres.filter (· ≠ m) := by
  unfold zWind at h
  obtain ⟨z, _, h⟩ := run_inv h
  obtain ⟨d, _, h⟩ := run_inv h
  obtain ⟨w, _, h⟩ := run_inv h
  obtain ⟨q, hq, h⟩ := run_inv h
  have e1 : q.1.pres = s.pres := by
    unfold zPlace at hq
    split at hq
    · obtain rfl := Except.ok.inj hq; rfl
    · split at hq
      · obtain ⟨a, _, hq⟩ := run_inv hq
        obtain ⟨b, _, hq⟩ := run_inv hq
        split at hq
        · obtain ⟨x, _, hq⟩ := run_inv hq
          obtain ⟨y, _, hq⟩ := run_inv hq
          obtain rfl := Except.ok.inj hq; rfl
        · obtain rfl := Except.ok.inj hq; rfl
      · split at hq
        · obtain ⟨a, _, hq⟩ := run_inv hq
          obtain rfl := Except.ok.inj hq; rfl
        · obtain rfl := Except.ok.inj hq; rfl
  rw [← e1]
  split at h
  · unfold zStore at h
    split at h
    · obtain ⟨a, _, h⟩ := run_inv h
      obtain ⟨b, _, h⟩ := run_inv h
      split at h
      · obtain ⟨x, _, h⟩ := run_inv h
        obtain ⟨y, _, h⟩ := run_inv h
        obtain rfl := Except.ok.inj h; rfl
      · obtain rfl := Except.ok.inj h; rfl
    · obtain rfl := Except.ok.inj h
      exact filter_insert _ _ _
  · obtain rfl := Except.ok.inj h; rfl

theorem zLoop_pres {m : α} {b d : Option (SndPart α)} {x y N i e : Nat} {above : Bool} {s : Snd α} {v : ZVars α} {r : Snd α × ZVars α}
    (h : zLoop m b d x y N above i e s v = .ok r) : r.1.pres.filter (· ≠ m) = s.pres.filter (· ≠ m) := by
  induction N generalizing above i e s v with
  | zero => cases h
  | succ N ih =>
    rw [zLoop] at h
    split at h
    · split at h
      · cases h
      · obtain ⟨q, hq, h⟩ := run_inv h
        split at h
        · exact (ih h).trans (zWind_pres hq)
        · exact (ih h).trans (zWind_pres hq)
    · obtain rfl := Except.ok.inj h; rfl

/-- The next full levels around a level. -/
theorem exists_bracket {P Z : List α} {m : α} {j : Nat} (h1 : ∃ k, k < j ∧ Full P Z m k) (h2 : ∃ k, j < k ∧ Full P Z m k) (hj : ¬ Full P Z m j) :
    ∃ a b, Bracket P Z m a j b := by
  classical
  have up : ∃ b, j < b ∧ Full P Z m b ∧ ∀ k, j < k → k < b → ¬ Full P Z m k := by
    refine ⟨Nat.find h2, (Nat.find_spec h2).1, (Nat.find_spec h2).2, fun k hk hb hf => Nat.find_min h2 hb ⟨hk, hf⟩⟩
  have dn : ∃ a, a < j ∧ Full P Z m a ∧ ∀ k, a < k → k < j → ¬ Full P Z m k := by
    clear h2 up hj
    induction j with
    | zero => obtain ⟨k, hk, _⟩ := h1; omega
    | succ j ih =>
      by_cases hf : Full P Z m j
      · exact ⟨j, by omega, hf, fun k _ _ => by omega⟩
      · obtain ⟨k, hk, hkf⟩ := h1
        have hkj : k ≠ j := fun e => hf (e ▸ hkf)
        obtain ⟨a, ha, haf, hn⟩ := ih ⟨k, by omega, hkf⟩
        refine ⟨a, by omega, haf, fun k' h3 h4 => ?_⟩
        by_cases e : k' = j
        · rw [e]; exact hf
        · exact hn k' h3 (by omega)
  obtain ⟨a, ha, haf, hna⟩ := dn
  obtain ⟨b, hb, hbf, hnb⟩ := up
  refine ⟨a, b, ha, hb, haf, hbf, fun k h3 h4 => ?_⟩
  rcases lt_trichotomy k j with h | h | h
  · exact hna k h3 h
  · rw [h]; exact hj
  · exact hnb k h h4

/-- Filled pressures fall with those that were there. -/
theorem filled_falls (c : Calc α) (hc : LineFalls c) {P Z P' : List α} {m : α} (hlen : P'.length = P.length) (hz : Z.length = P.length)
    (hkeep : ∀ j, P.getD j m ≠ m → P'.getD j m = P.getD j m)
    (hline : ∀ a j b, Bracket P Z m a j b → Z.getD j m ≠ m →
        P'.getD j m = linePressure c (P.getD a m) (Z.getD a m) (P.getD b m) (Z.getD b m) (Z.getD j m))
    (hnone : ∀ j, P.getD j m = m → (Z.getD j m = m ∨ (∀ k, k < j → ¬ Full P Z m k) ∨ ∀ k, j < k → ¬ Full P Z m k) → P'.getD j m = m)
    (hg : ∀ z ∈ Z, z ≠ m) (hr : Z.Pairwise (· < ·)) (hp : (P.filter (· ≠ m)).Pairwise fun x y => y < x) (hpos : ∀ x ∈ P', x ≠ m → 0 < x) :
    (P'.filter (· ≠ m)).Pairwise fun x y => y < x := by
  have zlt : ∀ i j, i < j → j < P.length → Z.getD i m < Z.getD j m := by
    intro i j hij hj
    rw [List.getD_eq_getElem _ _ (by omega), List.getD_eq_getElem _ _ (by omega)]
    exact List.pairwise_iff_getElem.1 hr i j (by omega) (by omega) hij
  have zm : ∀ i, i < P.length → Z.getD i m ≠ m := by
    intro i hi
    rw [List.getD_eq_getElem _ _ (by omega)]
    exact hg _ (List.getElem_mem _)
  have full : ∀ i, Full P Z m i ↔ P.getD i m ≠ m := fun i =>
    ⟨fun h => h.1, fun h => ⟨h, zm i (getD_ne_lt h)⟩⟩
  have plt : ∀ i j, i < j → P.getD i m ≠ m → P.getD j m ≠ m → P.getD j m < P.getD i m := by
    intro i j hij hi hj
    have h1 := getD_ne_lt hi
    have h2 := getD_ne_lt hj
    rw [List.pairwise_filter] at hp
    have := List.pairwise_iff_getElem.1 hp i j h1 h2 hij
    rw [List.getD_eq_getElem _ _ h1] at hi ⊢
    rw [List.getD_eq_getElem _ _ h2] at hj ⊢
    exact this (by simpa using hi) (by simpa using hj)
  have ple : ∀ i j, i ≤ j → P.getD i m ≠ m → P.getD j m ≠ m → P.getD j m ≤ P.getD i m := by
    intro i j hij hi hj
    rcases hij.lt_or_eq with h | rfl
    · exact (plt i j h hi hj).le
    · exact le_refl _
  have pos : ∀ i, P.getD i m ≠ m → 0 < P.getD i m := by
    intro i hi
    have h1 := getD_ne_lt hi
    have e := hkeep i hi
    rw [← e] at hi ⊢
    rw [List.getD_eq_getElem _ _ (by omega)] at hi ⊢
    exact hpos _ (List.getElem_mem _) hi
  -- what a filled level is
  have fill : ∀ j, P'.getD j m ≠ m → P.getD j m = m → ∃ a b, Bracket P Z m a j b ∧
      P'.getD j m = linePressure c (P.getD a m) (Z.getD a m) (P.getD b m) (Z.getD b m) (Z.getD j m) ∧
      P'.getD j m < P.getD a m ∧ P.getD b m < P'.getD j m := by
    intro j hj hm
    have hjl : j < P.length := hlen ▸ getD_ne_lt hj
    have h1 : ∃ k, k < j ∧ Full P Z m k := by
      by_contra hc'
      exact hj (hnone j hm (Or.inr (Or.inl fun k hk hf => hc' ⟨k, hk, hf⟩)))
    have h2 : ∃ k, j < k ∧ Full P Z m k := by
      by_contra hc'
      exact hj (hnone j hm (Or.inr (Or.inr fun k hk hf => hc' ⟨k, hk, hf⟩)))
    obtain ⟨a, b, hb⟩ := exists_bracket h1 h2 fun hf => hf.1 hm
    have hbl := getD_ne_lt hb.high.1
    have e := hline a j b hb (zm j hjl)
    have hlt := plt a b (hb.below.trans hb.above) hb.low.1 hb.high.1
    have h0 := pos b hb.high.1
    have za := zlt a j hb.below hjl
    have zb := zlt j b hb.above hbl
    refine ⟨a, b, hb, e, ?_, ?_⟩
    · rw [e]
      conv_rhs => rw [← hc.low _ (Z.getD a m) _ (Z.getD b m) h0 hlt (za.trans zb)]
      exact hc.falls _ _ _ _ _ _ h0 hlt (le_refl _) za zb.le
    · rw [e]
      conv_lhs => rw [← hc.high _ (Z.getD a m) _ (Z.getD b m) h0 hlt (za.trans zb)]
      exact hc.falls _ _ _ _ _ _ h0 hlt za.le zb (le_refl _)
  rw [List.pairwise_filter, List.pairwise_iff_getElem]
  intro i j hi hj hij hi' hj'
  have hi' : P'.getD i m ≠ m := by rw [List.getD_eq_getElem _ _ hi]; simpa using hi'
  have hj' : P'.getD j m ≠ m := by rw [List.getD_eq_getElem _ _ hj]; simpa using hj'
  rw [← List.getD_eq_getElem _ m hi, ← List.getD_eq_getElem _ m hj]
  by_cases ei : P.getD i m = m
  · obtain ⟨a, b, hb, e1, e2, e3⟩ := fill i hi' ei
    by_cases ej : P.getD j m = m
    · obtain ⟨a', b', hb', e1', e2', e3'⟩ := fill j hj' ej
      rcases lt_or_ge j b with hjb | hjb
      · have ha1 : ¬ a' < a := fun h => hb'.next a h (by have := hb.below; have := hb'.above; omega) hb.low
        have ha2 : ¬ a < a' := fun h => hb.next a' h (by have := hb'.below; omega) hb'.low
        have hb1 : ¬ b < b' := fun h => hb'.next b (by have := hb'.below; omega) h hb.high
        have hb2 : ¬ b' < b := fun h => hb.next b' (by have := hb.below; have := hb'.above; omega) h hb'.high
        obtain rfl : a' = a := by omega
        obtain rfl : b' = b := by omega
        have hbl := getD_ne_lt hb.high.1
        rw [e1, e1']
        exact hc.falls _ _ _ _ _ _ (pos b' hb.high.1) (plt a' b' (hb.below.trans hb.above) hb.low.1 hb.high.1) (zlt a' i hb.below (by omega)).le
          (zlt i j hij (by omega)) (zlt j b' hjb hbl).le
      · have hjb' : j ≠ b := fun h => hb.high.1 (h ▸ ej)
        have : b ≤ a' := by
          by_contra h
          exact hb'.next b (by omega) (by have := hb'.above; omega) hb.high
        exact (e2'.trans_le (ple b a' this hb.high.1 hb'.low.1)).trans e3
    · rw [hkeep j ej]
      have : b ≤ j := by
        by_contra h
        exact hb.next j (by have := hb.below; omega) (by omega) ((full j).2 ej)
      exact (ple b j this hb.high.1 ej).trans_lt e3
  · rw [hkeep i ei]
    by_cases ej : P.getD j m = m
    · obtain ⟨a', b', hb', e1', e2', e3'⟩ := fill j hj' ej
      have : i ≤ a' := by
        by_contra h
        exact hb'.next i (by omega) (by have := hb'.above; omega) ((full i).2 ei)
      exact e2'.trans_le (ple i a' this ei hb'.low.1)
    · rw [hkeep j ej]
      exact plt i j hij ei ej

/-- C117, with winds by height: when the report gives a surface pressure and has no mandatory level below the surface, and all levels of the merged
sounding have heights that rise, the pressures it has are all different and fall from level to level. -/
theorem C117_heights_partial [FloorRing α] (c : Calc α) (m : α) (fuel : Nat) (ps : SndParts α) (s : Snd α) (hr : GoodReport ps m) (hc : LineFalls c)
    (h : mergeSounding c m fuel ps = .ok (some s))
    (hg : ∀ p, ps.part "TTAA" = some p → ∀ j x y, 1 ≤ j → p.at "PRES" j = .ok x → SurfaceAt ps m y → y ≠ m → x ≤ y)
    (hz : ∀ z ∈ s.hght, z ≠ m) (hrise : s.hght.Pairwise (· < ·)) (hpos : ∀ x ∈ s.pres, x ≠ m → 0 < x) :
    (s.pres.filter (· ≠ m)).Pairwise fun x y => y < x := by
  obtain ⟨n, b, d, r, s1, s2, s3, s4, s5, s6, st⟩ := merge_stages h
  obtain ⟨p0, g6, hp0, hm0, k6, hbgl⟩ := st.fall6 hr
  have hb0 : r.2 = 0 := hbgl fun p hp j x hj hx => hg p hp j x p0 hj hx hp0 hm0
  have h := st.rest
  unfold mergeRest at h
  obtain ⟨q, hq, h⟩ := run_inv h
  obtain ⟨t, ht, h⟩ := run_inv h
  obtain ⟨q0, hq0, h⟩ := run_inv h
  rw [if_neg (by rw [hb0]; exact fun h => absurd h.2 (by omega))] at h
  obtain rfl := Except.ok.inj h
  have f6 : (s6.pres.filter (· ≠ m)).Pairwise fun x y => y < x := g6.falls.sublist List.filter_sublist
  split at hq
  · obtain ⟨x, hx, hq⟩ := run_inv hq
    obtain rfl := Except.ok.inj hq
    have hsz := mergeZ_size k6 hx
    have k := C50_kept c m _ _ _ hsz ht
    clear hsz
    generalize (if b.1 = true then n.sigW else 0) = nb at hx
    unfold mergeZ at hx
    obtain ⟨i, _, hx⟩ := run_inv hx
    obtain ⟨v, hv, hx⟩ := run_inv hx
    obtain ⟨w, hw, hx⟩ := run_inv hx
    obtain ⟨s', hp, hx⟩ := run_inv hx
    obtain rfl := Except.ok.inj hx
    have hw1 : w.1.pres.filter (· ≠ m) = s6.pres.filter (· ≠ m) ∧ w.1.Size w.2.size := by
      obtain ⟨l, hl⟩ := k6
      have hs : s6.Size v.size := by rw [zStart_levels hv, hl.hght]; exact hl
      split at hw
      · exact ⟨zLoop_pres hw, zLoop_levels hs hw⟩
      · exact ⟨zLoop_pres hw, zLoop_levels hs hw⟩
    obtain ⟨P', e, l, e1, e2, e3⟩ := C49_filled c m w.1 _ hw1.2.pres hw1.2.hght
    obtain rfl := Except.ok.inj (e.symm.trans hp)
    rw [k.2.2.1] at hz hrise
    rw [k.2.1] at hpos ⊢
    exact filled_falls c hc (l.trans hw1.2.pres.symm) (hw1.2.hght.trans hw1.2.pres.symm) e1 e2 e3 hz hrise (by rw [hw1.1]; exact f6) hpos
  · obtain rfl := Except.ok.inj hq
    obtain ⟨l, hl⟩ := k6
    rw [(C50_kept c m _ _ _ hl ht).2.1]
    exact f6

end

/-- The logarithm and the exponential function are such. -/
theorem real_lineFalls : LineFalls realCalc := by
  have key : ∀ pb zb pt zt z : ℝ, 0 < pt → pt < pb → linePressure realCalc pb zb pt zt z = pb * Real.exp ((z - zb) / (zt - zb) * Real.log (pt / pb)) := by
    intro pb zb pt zt z _ _
    unfold linePressure realCalc
    dsimp only
    congr 2
    ring
  refine ⟨fun pb zb pt zt h0 h1 h2 => ?_, fun pb zb pt zt h0 h1 h2 => ?_, fun pb zb pt zt y z h0 h1 h2 h3 h4 => ?_⟩
  · rw [key _ _ _ _ _ h0 h1]; simp
  · rw [key _ _ _ _ _ h0 h1, div_self (by linarith), one_mul, Real.exp_log (div_pos h0 (h0.trans h1)), mul_div_cancel₀ _ (h0.trans h1).ne']
  · rw [key _ _ _ _ _ h0 h1, key _ _ _ _ _ h0 h1]
    have hl : Real.log (pt / pb) < 0 := Real.log_neg (div_pos h0 (h0.trans h1)) ((div_lt_one (h0.trans h1)).2 h1)
    have hd : 0 < zt - zb := by linarith
    have : (y - zb) / (zt - zb) < (z - zb) / (zt - zb) := div_lt_div_of_pos_right (by linarith) hd
    exact mul_lt_mul_of_pos_left (Real.exp_lt_exp.2 (mul_lt_mul_of_neg_right this hl)) (h0.trans h1)

/-- So are the functions used in examples. -/
theorem sample_lineFalls : LineFalls (⟨fun x => x - 1, fun x => x + 1⟩ : Calc ℚ) := by
  have key : ∀ pb zb pt zt z : ℚ, 0 < pt → pt < pb → linePressure ⟨fun x => x - 1, fun x => x + 1⟩ pb zb pt zt z = pb + (z - zb) / (zt - zb) * (pt - pb) := by
    intro pb zb pt zt z h0 h1
    unfold linePressure
    dsimp only
    have : pb ≠ 0 := (h0.trans h1).ne'
    field_simp
    ring
  refine ⟨fun pb zb pt zt h0 h1 h2 => ?_, fun pb zb pt zt h0 h1 h2 => ?_, fun pb zb pt zt y z h0 h1 h2 h3 h4 => ?_⟩
  · rw [key _ _ _ _ _ h0 h1]; simp
  · rw [key _ _ _ _ _ h0 h1, div_self (by linarith)]; ring
  · rw [key _ _ _ _ _ h0 h1, key _ _ _ _ _ h0 h1]
    have hd : 0 < zt - zb := by linarith
    have : (y - zb) / (zt - zb) < (z - zb) / (zt - zb) := div_lt_div_of_pos_right (by linarith) hd
    nlinarith

/-! ## Examples -/

theorem some_merge {ps : SndParts ℚ} {v : List ℚ × List ℚ}
    (h : ((mergeSounding ⟨fun x => x - 1, fun x => x + 1⟩ (-9999) 5 ps).toOption.bind (fun o => o.map fun s => (s.pres, s.hght))) = some v) :
    ∃ s, mergeSounding ⟨fun x => x - 1, fun x => x + 1⟩ (-9999) 5 ps = .ok (some s) ∧ s.pres = v.1 ∧ s.hght = v.2 := by
  match e : mergeSounding ⟨fun x => x - 1, fun x => x + 1⟩ (-9999) 5 ps with
  | .error _ => rw [e] at h; cases h
  | .ok none => rw [e] at h; cases h
  | .ok (some s) =>
    rw [e] at h
    have h := Option.some.inj h
    exact ⟨s, rfl, congrArg Prod.fst h, congrArg Prod.snd h⟩

theorem windy_good : GoodReport windyStation (-9999) where
  low x := lt_of_lt_of_le (by norm_num) (abs_nonneg x)
  man p hp := by
    obtain rfl := Option.some.inj hp
    unfold SixNames
    decide
  upper p hp := by
    obtain rfl := Option.some.inj hp
    unfold SixNames
    decide
  surface := by
    refine Spec.SurfaceGiven.man (ps := windyStation) (m := (-9999 : ℚ)) (x := 1000) rfl rfl (by norm_num) (by norm_num) (by norm_num) ?_
    intro i y t z hy ht _ _ hm _
    match i, hy with
    | 0, hy => rw [← Except.ok.inj hy]
    | 1, hy => rw [← Except.ok.inj hy]; norm_num
    | 2, hy => rw [← Except.ok.inj hy]; norm_num
    | _ + 3, hy => cases hy

/-- Levels on pressure and winds by height: eight levels, from 1000 to 10 hPa. -/
example : ∃ s, mergeSounding ⟨fun x => x - 1, fun x => x + 1⟩ (-9999) 5 windyStation = .ok (some s) ∧
    s.pres = [1000, 6400 / 7, 850, 2875 / 4, 500, 70, 35, 10] ∧ (s.pres.filter (· ≠ -9999)).Pairwise fun x y => y < x := by
  obtain ⟨s, e, h1, h2⟩ := some_merge (ps := windyStation) (v := ([1000, 6400 / 7, 850, 2875 / 4, 500, 70, 35, 10],
    [100, 900, 1500, 3000, 5500, 18000, 25000, 30000])) (by decide +kernel)
  dsimp only at h1 h2
  refine ⟨s, e, h1, C117_heights_partial _ _ _ _ s windy_good sample_lineFalls e ?_ ?_ ?_ ?_⟩
  · intro p hp j x y hj hx hy hm
    obtain rfl := Option.some.inj hp
    have hx : x ≤ 850 := by
      match j, hj, hx with
      | 1, _, hx => exact (Except.ok.inj hx).symm.le
      | 2, _, hx => rw [← Except.ok.inj hx]; norm_num
      | _ + 3, _, hx => cases hx
    cases hy with
    | man hp h =>
      obtain rfl := Option.some.inj hp
      rw [← Except.ok.inj h]; linarith
    | sigT hp h => cases hp
    | sigW hp h =>
      obtain rfl := Option.some.inj hp
      cases h
    | sigZ hp ho h =>
      obtain rfl := Option.some.inj hp
      refine absurd ho ?_
      rintro (h | ⟨hs, h, z, hz, _, h'⟩)
      · exact absurd h (by decide +kernel)
      · obtain rfl := Except.ok.inj h
        have : ∀ z ∈ [(0 : ℚ), 900, 3000], ¬ z < 0 := by decide +kernel
        exact this z hz h'
  · rw [h2]; decide +kernel
  · rw [h2]; decide +kernel
  · rw [h1]; decide +kernel

/-- A station in the mountains: the mandatory levels below the ground follow the surface, and no pressure is there twice. -/
example : ∃ s, mergeSounding ⟨fun x => x - 1, fun x => x + 1⟩ (-9999) 5 (highStation (some lowWinds) none) = .ok (some s) ∧
    s.pres = [840, 1000, 850, 750, 700] ∧ s.pres.Nodup := by
  obtain ⟨s, e, h1, _⟩ := some_merge highStation_merges
  have sfc := highStation_surface (some lowWinds) (Or.inr rfl)
  refine ⟨s, e, h1, (C117_once_partial _ _ _ _ s (highStation_good _ _) ?_ e (fun y hy => ?_) ?_).2⟩
  · intro p hp
    obtain rfl := Option.some.inj hp
    exact Or.inl (Or.inl (by decide +kernel))
  · rw [sfc y hy]; norm_num
  · intro p hp i j x y hi hij h2 h3 _ _
    obtain rfl := Option.some.inj hp
    match i, j, hi, hij, h2, h3 with
    | 1, 2, _, _, h2, h3 => exact absurd (Except.ok.inj (h2.trans h3.symm)) (by decide +kernel)
    | 1, 3, _, _, h2, h3 => exact absurd (Except.ok.inj (h2.trans h3.symm)) (by decide +kernel)
    | 2, 3, _, _, h2, h3 => exact absurd (Except.ok.inj (h2.trans h3.symm)) (by decide +kernel)
    | 1, _ + 4, _, _, _, h3 => cases h3
    | 2, _ + 4, _, _, _, h3 => cases h3
    | 3, _ + 4, _, _, _, h3 => cases h3
    | _ + 4, _, _, _, h2, _ => cases h2

/-- A low station with a significant temperature and a wind on pressure. -/
example : ∃ s, mergeSounding ⟨fun x => x - 1, fun x => x + 1⟩ (-9999) 5 keepSample = .ok (some s) ∧ s.pres = [1000, 900, 850, 700, 500, 70] ∧
    s.pres.Pairwise fun x y => y < x := by
  have h : (mergeSounding ⟨fun x => x - 1, fun x => x + 1⟩ (-9999) 5 keepSample).toOption.bind (fun o => o.map Snd.pres) =
    some [1000, 900, 850, 700, 500, 70] := by decide +kernel
  match e : mergeSounding ⟨fun x => x - 1, fun x => x + 1⟩ (-9999) 5 keepSample with
  | .error _ => rw [e] at h; cases h
  | .ok none => rw [e] at h; cases h
  | .ok (some s) =>
    rw [e] at h
    refine ⟨s, rfl, Option.some.inj h, (C117_falls_partial _ _ _ _ s ⟨?_, ?_, ?_, ?_⟩ ?_ e ?_).2⟩
    · exact fun x => lt_of_lt_of_le (by norm_num) (abs_nonneg x)
    · intro p hp
      obtain rfl := Option.some.inj hp
      unfold SixNames
      decide
    · intro p hp
      obtain rfl := Option.some.inj hp
      unfold SixNames
      decide
    · refine Spec.SurfaceGiven.man (ps := keepSample) (m := (-9999 : ℚ)) (x := 1000) rfl rfl (by norm_num) (by norm_num) (by norm_num) ?_
      intro i y t z hy ht _ _ hm _
      match i, hy with
      | 0, hy => rw [← Except.ok.inj hy]
      | 1, hy => rw [← Except.ok.inj hy]; norm_num
      | 2, hy => rw [← Except.ok.inj hy]; norm_num
      | _ + 3, hy => cases hy
    · intro p hp
      obtain rfl := Option.some.inj hp
      exact Or.inl (Or.inl (by decide +kernel))
    · intro p hp j x y hj hx hy hm
      obtain rfl := Option.some.inj hp
      have hx : x ≤ 850 := by
        match j, hj, hx with
        | 1, _, hx => exact (Except.ok.inj hx).symm.le
        | 2, _, hx => rw [← Except.ok.inj hx]; norm_num
        | _ + 3, _, hx => cases hx
      cases hy with
      | man hp h =>
        obtain rfl := Option.some.inj hp
        rw [← Except.ok.inj h]; linarith
      | sigT hp h =>
        obtain rfl := Option.some.inj hp
        rw [← Except.ok.inj h]; linarith
      | sigW hp h =>
        obtain rfl := Option.some.inj hp
        rw [← Except.ok.inj h]; norm_num; linarith
      | sigZ hp ho h =>
        obtain rfl := Option.some.inj hp
        cases h

end Gempak
