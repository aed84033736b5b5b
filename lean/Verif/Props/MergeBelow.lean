import Verif.Props.MergeSig
import Verif.Props.MergeHigh

/-!
# C95: mandatory levels below the ground
-/

namespace Gempak

set_option linter.unusedSectionVars false

open Spec

section
variable {α : Type} [Field α] [LinearOrder α]

/-- A pressure greater than all that the report gives for the surface. -/
def Spec.BelowSurface (ps : SndParts α) (m P : α) : Prop := ∀ y, SurfaceAt ps m y → y ≠ m → y < P

/-- At least one of the two parts of significant winds is absent, empty or by height. -/
def Spec.HeightsOrNone (ps : SndParts α) (m : α) : Prop :=
  ∃ name, (name = "PPBB" ∨ name = "PPDD") ∧ ∀ p, ps.part name = some p → ¬ OnPressure p m ∨ p.col "SPED" = .ok []

/-! ## Counting them -/

theorem mergeMan_count {p : SndPart α} {m : α} {N i : Nat} {s : Snd α} {plast : α} {bgl : Nat} {r : Snd α × α × Nat} (hp : SixNames p)
    {n : Nat} (hn : s.Size (n + 1)) (h : mergeMan p m N i s plast bgl = .ok r) (hpl : plast ≤ s.pres.getD 0 m) :
    bgl ≤ r.2.2 ∧ ∀ k P, i ≤ k → k < i + N → p.at "PRES" k = .ok P → s.pres.getD 0 m < P → bgl + 1 ≤ r.2.2 := by
  induction N generalizing i s plast bgl n with
  | zero =>
    obtain rfl := Except.ok.inj h
    exact ⟨le_refl _, fun k _ _ _ => by omega⟩
  | succ N ih =>
    rw [mergeMan] at h
    obtain ⟨b, hb, h⟩ := run_inv h
    split at h
    · rename_i hbt
      obtain ⟨s1, h1, h⟩ := run_inv h
      obtain ⟨pl, h2, h⟩ := run_inv h
      have hsz := appendLevel_same hp hn h1
      obtain ⟨v, e1, e2⟩ := (appendLevel_colOf h1 "PRES").2 (six_count hp (by decide))
      change s1.pres = s.pres ++ _ at e2
      have epl : pl = v := by
        unfold lastPres at h2
        rw [hsz.pres] at h2
        rw [idx_val m h2, e2, List.getD_eq_getElem?_getD, Nat.add_sub_cancel, ← hn.pres, List.getElem?_concat_length]
        rfl
      have hv : v < plast := by
        unfold takesLevel at hb
        rw [e1, ok_bind] at hb
        split at hb
        · assumption
        · rw [← Except.ok.inj hb] at hbt; cases hbt
      have hhead : s1.pres.getD 0 m = s.pres.getD 0 m := by
        rw [e2, List.getD_eq_getElem?_getD, List.getD_eq_getElem?_getD, List.getElem?_append_left (by rw [hn.pres]; omega)]
      obtain ⟨d1, d2⟩ := ih hsz h (by rw [epl, hhead]; exact hv.le.trans hpl)
      refine ⟨d1, fun k P h3 h4 h5 h6 => ?_⟩
      by_cases hk : k = i
      · subst hk
        rw [e1] at h5
        obtain rfl := Except.ok.inj h5
        exact absurd (hv.trans_le hpl) h6.asymm
      · exact d2 k P (by omega) (by omega) h5 (by rw [hhead]; exact h6)
    · obtain ⟨pr, hpr, h⟩ := run_inv h
      obtain ⟨p0, hp0, h⟩ := run_inv h
      obtain ⟨d1, d2⟩ := ih hn h hpl
      have e0 := idx_val m hp0
      refine ⟨?_, fun k P h3 h4 h5 h6 => ?_⟩
      · split at d1 <;> omega
      · by_cases hk : k = i
        · subst hk
          rw [hpr] at h5
          obtain rfl := Except.ok.inj h5
          rw [if_pos (by rw [e0]; exact h6)] at d1
          exact d1
        · have := d2 k P (by omega) (by omega) h5 h6
          split at this <;> omega

theorem counts_man {ps : SndParts α} {n : Counts} (hn : ps.counts = .ok n) : ps.count "TTAA" "PRES" = .ok n.man := by
  unfold SndParts.counts at hn
  obtain ⟨_, e, hn⟩ := run_inv hn
  iterate 11 obtain ⟨_, _, hn⟩ := run_inv hn
  obtain rfl := Except.ok.inj hn
  exact e

theorem mandatory_count {ps : SndParts α} {m : α} {n : Counts} {b : Bool × Option (SndPart α)} {r : Snd α × Nat} {p : SndPart α} {P : α} {i : Nat}
    (hm : ∀ x : α, m < |x|) (hn : ps.counts = .ok n) (hb : windCoord ps m "PPBB" n.sigW = .ok b) (hp : ps.part "TTAA" = some p) (hA : SixNames p)
    (h : mergeMandatory ps m n b.1 b.2 = .ok r) (hg : SurfaceGiven ps m) (hi : 1 ≤ i) (hP : p.at "PRES" i = .ok P) (hsf : BelowSurface ps m P) :
    1 ≤ r.2 := by
  have hcounts := And.intro (counts_man hn) (And.intro (counts_each hn).2.2.1 (counts_each hn).2.2.2.1)
  unfold mergeMandatory at h
  obtain ⟨s0, h0, h⟩ := run_inv h
  obtain ⟨f, hf, h⟩ := run_inv h
  obtain ⟨s1, h1, h⟩ := run_inv h
  obtain ⟨s2, h2, h⟩ := run_inv h
  obtain ⟨s3, h3, h⟩ := run_inv h
  obtain ⟨p0, hp0, h⟩ := run_inv h
  dsimp only at h
  obtain ⟨r4, h4, h⟩ := run_inv h
  obtain ⟨r5, h5, h⟩ := run_inv h
  obtain ⟨s6, h6, h⟩ := run_inv h
  obtain ⟨s7, h7, h⟩ := run_inv h
  obtain rfl := Except.ok.inj h
  have hsz : s3.Size 1 := surfaceSigW_same (surfaceSigT_same (surfaceCheck_same (surfaceLevel_same h0) h1) h2) h3
  have f3 : SfcFrom ps m s3 := by
    refine surfaceSigW_from ?_ (surfaceSigT_from (surfaceCheck_from (surfaceLevel_from h0) h1) h2) h3
    intro hz q x hq hx
    rcases windCoord_inv hb with ⟨_, e⟩ | ⟨p, hp, ⟨hon, _, e⟩ | ⟨_, e⟩⟩
    · rw [hz] at e; cases e
    · rcases e q x hq hx with e | e
      · exact .sigW hp e
      · exact .sigZ hp hon e
    · rw [hz] at e; cases e
  have hhead := surface_head hm hcounts hb h0 hf h1 h2 h3 hg
  have e0 := idx_val m hp0
  obtain ⟨col, hc, hcl⟩ := count_part hcounts.1 p hp
  have hlt := at_lt hP hc
  rcases whenSome_inv h4 with ⟨_, e⟩ | ⟨e, _⟩
  · obtain ⟨p', hp', e⟩ := run_inv e
    obtain rfl := Option.some.inj (hp.symm.trans (get_part hp'))
    exact (mergeMan_count (n := 0) hA hsz e (by rw [if_neg (by rw [e0]; exact hhead), e0])).2 i P hi (by omega) hP
      (hsf _ (f3.resolve_left hhead) hhead)
  · omega

/-! ## The number of levels after the winds by height -/

theorem zStore_levels {m a b c : α} {s : Snd α} {v : ZVars α} {r : Snd α × ZVars α} (hs : s.Size v.size) (h : zStore m a b c s v = .ok r) :
    r.1.Size r.2.size := by
  unfold zStore at h
  split at h
  · obtain ⟨_, _, h⟩ := run_inv h
    obtain ⟨_, _, h⟩ := run_inv h
    split at h
    · obtain ⟨_, h1, h⟩ := run_inv h
      obtain ⟨_, h2, h⟩ := run_inv h
      obtain rfl := Except.ok.inj h
      exact ⟨hs.pres, hs.hght, hs.temp, hs.dwpt, (put_len h1).trans hs.drct, (put_len h2).trans hs.sped⟩
    · obtain rfl := Except.ok.inj h; exact hs
  · obtain rfl := Except.ok.inj h
    exact insert_size hs _ _ _ _ _ _ _

theorem zWind_levels {m : α} {p : SndPart α} {i : Nat} {s : Snd α} {v : ZVars α} {r : Snd α × ZVars α} (hs : s.Size v.size)
    (h : zWind m p i s v = .ok r) : r.1.Size r.2.size := by
  unfold zWind at h
  obtain ⟨_, _, h⟩ := run_inv h
  obtain ⟨_, _, h⟩ := run_inv h
  obtain ⟨_, _, h⟩ := run_inv h
  obtain ⟨q, hq, h⟩ := run_inv h
  have h1 := zPlace_same hs hq
  rw [← zPlace_size hq] at h1
  split at h
  · exact zStore_levels h1 h
  · obtain rfl := Except.ok.inj h; exact h1

theorem zLoop_levels {m : α} {b d : Option (SndPart α)} {x y N i e : Nat} {above : Bool} {s : Snd α} {v : ZVars α} {r : Snd α × ZVars α}
    (hs : s.Size v.size) (h : zLoop m b d x y N above i e s v = .ok r) : r.1.Size r.2.size := by
  induction N generalizing above i e s v with
  | zero => cases h
  | succ N ih =>
    rw [zLoop] at h
    split at h
    · split at h
      · cases h
      · obtain ⟨q, hq, h⟩ := run_inv h
        have := zWind_levels hs hq
        split at h
        · exact ih this h
        · exact ih this h
    · obtain rfl := Except.ok.inj h; exact hs

theorem zStart_levels {m : α} {s : Snd α} {v : ZVars α} (h : zStart m s = .ok v) : v.size = s.hght.length := by
  unfold zStart at h
  obtain ⟨_, _, h⟩ := run_inv h
  obtain ⟨_, _, h⟩ := run_inv h
  obtain ⟨w, hw, h⟩ := run_inv h
  have e : w.size = s.hght.length := by
    split at hw
    · obtain ⟨_, _, hw⟩ := run_inv hw
      obtain ⟨_, _, hw⟩ := run_inv hw
      obtain rfl := Except.ok.inj hw; rfl
    · split at hw
      · obtain ⟨_, _, hw⟩ := run_inv hw
        obtain ⟨_, _, hw⟩ := run_inv hw
        obtain rfl := Except.ok.inj hw; rfl
      · obtain rfl := Except.ok.inj hw; rfl
  obtain rfl := Except.ok.inj h
  split <;> exact e

theorem mergeZ_size {c : Calc α} {m : α} {b d : Option (SndPart α)} {x y : Nat} {s : Snd α} {r : Snd α × Nat} (hs : Same s)
    (h : mergeZ c m b d x y s = .ok r) : r.1.Size r.2 := by
  unfold mergeZ at h
  obtain ⟨i, _, h⟩ := run_inv h
  obtain ⟨v, hv, h⟩ := run_inv h
  obtain ⟨q, hq, h⟩ := run_inv h
  obtain ⟨s', hp, h⟩ := run_inv h
  obtain rfl := Except.ok.inj h
  obtain ⟨n, hs⟩ := hs
  have hs : s.Size v.size := by rw [zStart_levels hv, hs.hght]; exact hs
  have hn : q.1.Size q.2.size := by split at hq <;> exact zLoop_levels hs hq
  obtain ⟨P', e, l, _⟩ := C49_filled c m q.1 _ hn.pres hn.hght
  rw [e] at hp
  obtain rfl := Except.ok.inj hp
  exact ⟨l, hn.hght, hn.temp, hn.dwpt, hn.drct, hn.sped⟩

/-! ## Putting them in -/

theorem insert_get {l : List α} {loc : Nat} (v : α) (h : loc ≤ l.length) (i : Nat) :
    (pyInsert l (loc : Int) v)[i]? = if i < loc then l[i]? else if i = loc then some v else l[i - 1]? := by
  unfold pyInsert
  have e : (if (loc : Int) < 0 then ((loc : Int) + l.length).toNat else min (loc : Int).toNat l.length) = loc := by
    rw [if_neg (by omega)]; simp; omega
  dsimp only
  rw [e]
  have hl : (l.take loc).length = loc := by rw [List.length_take]; omega
  by_cases h1 : i < loc
  · rw [if_pos h1, List.getElem?_append_left (by omega), List.getElem?_take_of_lt h1]
  · rw [if_neg h1, List.getElem?_append_right (by omega), hl]
    by_cases h2 : i = loc
    · rw [if_pos h2, h2, Nat.sub_self]; rfl
    · rw [if_neg h2]
      obtain ⟨k, hk⟩ : ∃ k, i - loc = k + 1 := ⟨i - loc - 1, by omega⟩
      rw [hk, List.getElem?_cons_succ, List.getElem?_drop]
      congr 1
      omega

theorem insert_rowAt {s : Snd α} {n loc : Nat} (hn : s.Size n) (hl : loc ≤ n) (P Z T D R W : α) :
    RowAt (s.insert (loc : Int) P Z T D R W) loc P Z T D R W := by
  have key : ∀ (l : List α) (v : α), l.length = n → (pyInsert l (loc : Int) v)[loc]? = some v := by
    intro l v h
    rw [insert_get v (by omega), if_neg (by omega), if_pos rfl]
  exact ⟨key _ _ hn.pres, key _ _ hn.hght, key _ _ hn.temp, key _ _ hn.dwpt, key _ _ hn.drct, key _ _ hn.sped⟩

theorem insert_other {s : Snd α} {n loc : Nat} (hn : s.Size n) (hl : loc ≤ n) (P Z T D R W : α) {j : Nat} {P' Z' T' D' R' W' : α}
    (h : RowAt s j P' Z' T' D' R' W') : RowAt (s.insert (loc : Int) P Z T D R W) (if j < loc then j else j + 1) P' Z' T' D' R' W' := by
  have key : ∀ (l : List α) (v w : α), l.length = n → l[j]? = some w → (pyInsert l (loc : Int) v)[if j < loc then j else j + 1]? = some w := by
    intro l v w h1 h2
    rw [insert_get v (by omega)]
    by_cases h3 : j < loc
    · rw [if_pos h3, if_pos h3, h2]
    · rw [if_neg h3, if_neg (by omega), if_neg (by omega), Nat.add_sub_cancel, h2]
  exact ⟨key _ _ _ hn.pres h.pres, key _ _ _ hn.hght h.hght, key _ _ _ hn.temp h.temp, key _ _ _ hn.dwpt h.dwpt, key _ _ _ hn.drct h.drct,
    key _ _ _ hn.sped h.sped⟩

theorem mergeBelow_rows {p : SndPart α} {m : α} {N i n : Nat} {s s' : Snd α} (hn : s.Size (n + 1)) (h : mergeBelow p N i s (some (n + 1)) = .ok s') :
    s'.pres.getD 0 m = s.pres.getD 0 m ∧ (∀ j P Z T D R W, RowAt s j P Z T D R W → ∃ j', RowAt s' j' P Z T D R W) ∧
      (∀ k P Z T D R W, i ≤ k → k < i + N → PartLevel p k P Z T D R W → s.pres.getD 0 m < P → ∃ j, RowAt s' j P Z T D R W) ∧
      ∀ P, P ∈ s'.pres → P ∈ s.pres ∨ (s.pres.getD 0 m < P ∧ ∃ k, i ≤ k ∧ k < i + N ∧ p.at "PRES" k = .ok P) := by
  induction N generalizing i s n with
  | zero =>
    obtain rfl := Except.ok.inj h
    exact ⟨rfl, fun j _ _ _ _ _ _ q => ⟨j, q⟩, fun k _ _ _ _ _ _ _ _ => by omega, fun _ h => Or.inl h⟩
  | succ N ih =>
    rw [mergeBelow] at h
    obtain ⟨pr, hpr, h⟩ := run_inv h
    obtain ⟨p0, hp0, h⟩ := run_inv h
    have e0 := idx_val m hp0
    split at h
    · rename_i hgt
      obtain ⟨z, hz, h⟩ := run_inv h
      obtain ⟨t, ht, h⟩ := run_inv h
      obtain ⟨dw, hd, h⟩ := run_inv h
      obtain ⟨r, hr, h⟩ := run_inv h
      obtain ⟨w, hw, h⟩ := run_inv h
      obtain ⟨b1, _, _⟩ := bisectLeft_spec (s.pres.drop 1).reverse pr m
      rw [List.length_reverse, List.length_drop, hn.pres] at b1
      obtain ⟨loc, hloc, hl1, hl2⟩ : ∃ loc : Nat, ((n + 1 : Nat) : Int) - bisectLeft (s.pres.drop 1).reverse pr = loc ∧ 1 ≤ loc ∧ loc ≤ n + 1 :=
        ⟨n + 1 - bisectLeft (s.pres.drop 1).reverse pr, by omega, by omega, by omega⟩
      rw [hloc] at h
      obtain ⟨d1, d2, d3, d4⟩ := ih (insert_size hn _ _ _ _ _ _ _) h
      have hhead : (s.insert (loc : Int) pr z t dw r w).pres.getD 0 m = s.pres.getD 0 m := by
        show (pyInsert s.pres (loc : Int) pr).getD 0 m = _
        rw [getD_insert _ _ _ _ _ (by rw [hn.pres]; exact hl2), if_pos (by omega)]
      rw [hhead] at d1 d3 d4
      refine ⟨d1, fun j P Z T D R W q => d2 _ _ _ _ _ _ _ (insert_other hn hl2 _ _ _ _ _ _ q), fun k P Z T D R W h3 h4 l hP => ?_, fun P hmem => ?_⟩
      · by_cases hk : k = i
        · subst hk
          have e1 := Except.ok.inj (hpr.symm.trans l.pres)
          have e2 := Except.ok.inj (hz.symm.trans l.hght)
          have e3 := Except.ok.inj (ht.symm.trans l.temp)
          have e4 := Except.ok.inj (hd.symm.trans l.dwpt)
          have e5 := Except.ok.inj (hr.symm.trans l.drct)
          have e6 := Except.ok.inj (hw.symm.trans l.sped)
          subst e1 e2 e3 e4 e5 e6
          exact d2 _ _ _ _ _ _ _ (insert_rowAt hn hl2 _ _ _ _ _ _)
        · exact d3 k P Z T D R W (by omega) (by omega) l hP
      · rcases d4 P hmem with d | ⟨q1, k, q2, q3, q4⟩
        · rcases mem_pyInsert d with rfl | d
          · exact Or.inr ⟨by rw [← e0]; exact hgt, i, le_refl _, by omega, hpr⟩
          · exact Or.inl d
        · exact Or.inr ⟨q1, k, by omega, by omega, q4⟩
    · rename_i hgt
      obtain ⟨d1, d2, d3, d4⟩ := ih hn h
      refine ⟨d1, d2, fun k P Z T D R W h3 h4 l hP => ?_, fun P hmem => ?_⟩
      · by_cases hk : k = i
        · subst hk
          have e1 := Except.ok.inj (hpr.symm.trans l.pres)
          subst e1
          rw [e0] at hgt
          exact absurd hP hgt
        · exact d3 k P Z T D R W (by omega) (by omega) l hP
      · rcases d4 P hmem with d | ⟨q1, k, q2, q3, q4⟩
        · exact Or.inl d
        · exact Or.inr ⟨q1, k, by omega, by omega, q4⟩

variable [FloorRing α]

theorem heights_flag {ps : SndParts α} {m : α} {n : Counts} {b d : Bool × Option (SndPart α)} (hn : ps.counts = .ok n)
    (hb : windCoord ps m "PPBB" n.sigW = .ok b) (hd : windCoord ps m "PPDD" n.aSigW = .ok d) (h : HeightsOrNone ps m) : b.1 ∨ d.1 := by
  have one : ∀ (name : String) (k : Nat) (x : Bool × Option (SndPart α)), ps.count name "SPED" = .ok k → windCoord ps m name k = .ok x →
      (∀ p, ps.part name = some p → ¬ OnPressure p m ∨ p.col "SPED" = .ok []) → x.1 = true := by
    intro name k x hk hx hh
    rcases windCoord_inv hx with ⟨_, e⟩ | ⟨p, hp, ⟨hon, e, _⟩ | ⟨_, e⟩⟩
    · exact e
    · rcases hh p hp with e2 | e2
      · exact absurd hon e2
      · obtain ⟨col, hc, hcl⟩ := count_part hk p hp
        obtain rfl := Except.ok.inj (e2.symm.trans hc)
        subst hcl
        unfold windCoord at hx
        rw [if_pos List.length_nil] at hx
        obtain rfl := Except.ok.inj hx
        rfl
    · exact e
  have hcounts := And.intro (counts_each hn).2.2.2.1 (counts_each hn).2.2.2.2.2.2.2
  obtain ⟨name, rfl | rfl, hh⟩ := h
  · exact Or.inl (one _ _ _ hcounts.1 hb hh)
  · exact Or.inr (one _ _ _ hcounts.2 hd hh)

/-- C95: a mandatory level of the lower part with a pressure greater than all given for the surface, and greater than that of the first level
of the merged sounding, is in the merged sounding with all its values, missing ones included; the first level stays in front of it.
Missing: soundings with both parts of significant winds on pressure, for which it is false (`C95_lost`, `C95_unbound`). -/
theorem C95_below_partial (c : Calc α) (m : α) (fuel : Nat) (ps : SndParts α) (s : Snd α) (p : SndPart α) (hr : GoodReport ps m)
    (hw : HeightsOrNone ps m) (hp : ps.part "TTAA" = some p) (h : mergeSounding c m fuel ps = .ok (some s)) (i : Nat) (hi : 1 ≤ i)
    (P Z T D R W : α) (hl : PartLevel p i P Z T D R W) (hsf : BelowSurface ps m P) (P0 : α) (h0 : s.pres[0]? = some P0) (h0m : P0 ≠ m)
    (hP : P0 < P) : ∃ j, 1 ≤ j ∧ RowAt s j P Z T D R W := by
  obtain ⟨n, b, d, r, s1, s2, s3, s4, s5, s6, st⟩ := merge_stages h
  have hA := hr.man p hp
  have hbgl := mandatory_count hr.low st.counts st.lower hp hA st.man hr.surface hi hl.pres hsf
  have hs6 : Same s6 := by
    have h1 := mergeMandatory_same hr.man hr.upper st.man
    refine mergeLevels_same (c := c) (m := m) (f := fuel) (ps := ps) (n := n) (x := b.1) (y := d.1) (b := b.2) (d := d.2) (s := r.1) h1 ?_
    unfold mergeLevels
    rw [st.trop, ok_bind, st.sigT, ok_bind, st.moist, ok_bind, st.wind, ok_bind, st.maxW, ok_bind]
    exact st.logp
  have hr' := st.rest
  unfold mergeRest at hr'
  obtain ⟨x, hx, hr'⟩ := run_inv hr'
  obtain ⟨t, ht, hr'⟩ := run_inv hr'
  obtain ⟨q0, hq0, hr'⟩ := run_inv hr'
  have hflag := heights_flag st.counts st.lower st.upper hw
  rw [if_pos hflag] at hx
  obtain ⟨y, hy, hx⟩ := run_inv hx
  obtain rfl := Except.ok.inj hx
  have hsz := mergeZ_size hs6 hy
  have htz := (C50_kept c m _ t _ hsz ht).1
  have e0 := idx_val m hq0
  obtain ⟨k, hk⟩ : ∃ k, y.2 = k + 1 := by
    refine ⟨y.2 - 1, ?_⟩
    have : t.pres.length ≠ 0 := by
      intro h0
      unfold idx at hq0
      rw [List.getElem?_eq_none (by omega)] at hq0
      cases hq0
    rw [htz.pres] at this
    omega
  obtain ⟨col, hc, hcl⟩ := count_part (counts_man st.counts) p hp
  have hlt := at_lt hl.pres hc
  by_cases hcond : q0 ≠ m ∧ 0 < r.2
  · rw [if_pos hcond] at hr'
    obtain ⟨p', hp', hr'⟩ := run_inv hr'
    obtain rfl := Option.some.inj (hp.symm.trans (get_part hp'))
    rw [hk] at htz
    dsimp only at hr'
    rw [hk] at hr'
    obtain ⟨d1, d2, d3, d4⟩ := mergeBelow_rows (m := m) htz hr'
    rw [getD_some m h0] at d1
    obtain ⟨j, hj⟩ := d3 i P Z T D R W hi (by omega) hl (by rw [← d1]; exact hP)
    refine ⟨j, ?_, hj⟩
    by_contra hc0
    obtain rfl : j = 0 := by omega
    have := hj.pres
    rw [h0] at this
    exact hP.ne (Option.some.inj this)
  · rw [if_neg hcond] at hr'
    obtain rfl := Except.ok.inj hr'
    have : q0 = P0 := by rw [e0]; exact getD_some m h0
    exact absurd ⟨by rw [this]; exact h0m, by omega⟩ hcond

end

/-! ## Two parts of winds on pressure -/

/-- A station above the mandatory levels of 1000 and 850 hPa. -/
def highStation (b d : Option (SndPart ℚ)) : SndParts ℚ :=
  ⟨1500, fun x =>
    if x = "TTAA" then some [("PRES", [840, 1000, 850, 700]), ("TEMP", [20, -9999, -9999, 10]), ("DWPT", [15, -9999, -9999, 5]),
      ("DRCT", [90, -9999, -9999, 180]), ("SPED", [5, -9999, -9999, 10]), ("HGHT", [1500, 100, 1400, 3000])]
    else if x = "PPBB" then b else if x = "PPDD" then d
    else none⟩

/-- Winds at the surface and at 750 hPa. -/
def lowWinds : SndPart ℚ := [("PRES", [840, 750]), ("DRCT", [90, 190]), ("SPED", [5, 15])]

/-- A wind at 90 hPa. -/
def topWinds : SndPart ℚ := [("PRES", [90]), ("DRCT", [270]), ("SPED", [25])]

theorem highStation_surface (b : Option (SndPart ℚ)) (hb : b = none ∨ b = some lowWinds) (y : ℚ) (h : SurfaceAt (highStation b none) (-9999) y) :
    y = 840 := by
  rcases hb with rfl | rfl <;> rcases h with ⟨hp, h⟩ | ⟨hp, h⟩ | ⟨hp, h⟩ | ⟨hp, ho, h⟩
  all_goals first
    | (cases hp; done)
    | (obtain rfl := Option.some.inj hp
       first
         | (cases h; done)
         | exact (Except.ok.inj h).symm
         | (rw [← Except.ok.inj h]; norm_num))

theorem highStation_good (b d : Option (SndPart ℚ)) : GoodReport (highStation b d) (-9999) where
  low x := lt_of_lt_of_le (by norm_num) (abs_nonneg x)
  man p hp := by
    obtain rfl := Option.some.inj hp
    unfold SixNames
    decide
  upper p hp := by cases hp
  surface := by
    refine Spec.SurfaceGiven.man (ps := highStation b d) (m := (-9999 : ℚ)) (x := 840) rfl rfl (by norm_num) (by norm_num) (by norm_num) ?_
    intro i y t z hy ht _ _ hm _
    match i, hy, ht with
    | 0, hy, _ => rw [← Except.ok.inj hy]
    | 1, _, ht => exact absurd (Except.ok.inj ht).symm hm
    | 2, _, ht => exact absurd (Except.ok.inj ht).symm hm
    | 3, hy, _ => rw [← Except.ok.inj hy]; norm_num
    | _ + 4, hy, _ => cases hy

theorem highStation_merges : ((mergeSounding ⟨fun x => x - 1, fun x => x + 1⟩ (-9999) 5 (highStation (some lowWinds) none)).toOption.bind
    (fun o => o.map fun s => (s.pres, s.hght))) = some ([840, 1000, 850, 750, 700], [1500, 100, 1400, 17250 / 7, 3000]) := by decide +kernel

example : ∃ s, mergeSounding ⟨fun x => x - 1, fun x => x + 1⟩ (-9999) 5 (highStation (some lowWinds) none) = .ok (some s) ∧
    ∃ j, 1 ≤ j ∧ RowAt s j 850 1400 (-9999) (-9999) (-9999) (-9999) := by
  have h := highStation_merges
  match e : mergeSounding ⟨fun x => x - 1, fun x => x + 1⟩ (-9999) 5 (highStation (some lowWinds) none) with
  | .error _ => rw [e] at h; cases h
  | .ok none => rw [e] at h; cases h
  | .ok (some s) =>
    rw [e] at h
    have h := congrArg Prod.fst (Option.some.inj h)
    refine ⟨s, rfl, C95_below_partial _ _ _ _ s _ (highStation_good _ _) ⟨"PPDD", Or.inr rfl, fun p hp => ?_⟩ rfl e 2 (by omega) _ _ _ _ _ _
      ⟨rfl, rfl, rfl, rfl, rfl, rfl⟩ (fun y hy _ => ?_) 840 ?_ (by norm_num) (by norm_num)⟩
    · cases hp
    · rw [highStation_surface _ (Or.inr rfl) y hy]; norm_num
    · change s.pres = _ at h
      rw [h]; rfl

/-- C95, what is false: with winds on pressure in both parts, the first level below the ground goes in front of the surface, and the next is lost. -/
theorem C95_lost : ((mergeSounding ⟨fun x => x - 1, fun x => x + 1⟩ (-9999) 5 (highStation (some lowWinds) (some topWinds))).toOption.bind
    (fun o => o.map fun s => (s.pres, s.hght))) = some ([1000, 840, 750, 700, 90], [100, 1500, 17250 / 7, 3000, -9999]) := by decide +kernel

/-- C95, what is false: with winds on pressure in both parts, all at levels that are there already, nothing is returned for a station with
levels below the ground: `size` has no value (UnboundLocalError). -/
theorem C95_unbound : mergeSounding ⟨fun x => x - 1, fun x => x + 1⟩ (-9999) 5
    (highStation (some [("PRES", [840]), ("DRCT", [90]), ("SPED", [5])]) (some [("PRES", [700]), ("DRCT", [180]), ("SPED", [10])])) =
      .error .unbound := by
  have h : (match mergeSounding ⟨fun x => x - 1, fun x => x + 1⟩ (-9999) 5
    (highStation (some [("PRES", [840]), ("DRCT", [90]), ("SPED", [5])]) (some [("PRES", [700]), ("DRCT", [180]), ("SPED", [10])])) with
      | .error .unbound => true
      | _ => false) = true := by decide +kernel
  revert h
  split
  · intro _; assumption
  · intro h; cases h

end Gempak
