import Verif.Props.MergeHeights
import Verif.Props.MergeEnds

/-!
# Merging: pressures fall from level to level
-/

namespace Gempak

set_option linter.unusedSectionVars false

open Spec

section
variable {α : Type} [Field α] [LinearOrder α]

/-- Pressures are given and fall; `p0` is among them. -/
structure PFall (m p0 : α) (l : List α) : Prop where
  given : ∀ x ∈ l, x ≠ m
  has : p0 ∈ l
  falls : l.Pairwise fun x y => y < x

theorem insert_split (l : List α) (loc : Nat) (v : α) (h : loc ≤ l.length) : pyInsert l (loc : Int) v = l.take loc ++ v :: l.drop loc := by
  unfold pyInsert
  have e : (if (loc : Int) < 0 then ((loc : Int) + l.length).toNat else min (loc : Int).toNat l.length) = loc := by
    rw [if_neg (by omega)]; simp; omega
  dsimp only
  rw [e]

theorem PFall.insert {m p0 : α} {s : Snd α} {x : α} (h : PFall m p0 s.pres) (hx : x ∉ s.pres) (hm : x ≠ m) (t d r w : α) :
    PFall m p0 (s.insert (placeOf s x) x m t d r w).pres := by
  obtain ⟨loc, e, h1, h2, h3⟩ := placeOf_spec s x m
  have hi : (s.insert (placeOf s x) x m t d r w).pres = s.pres.take loc ++ x :: s.pres.drop loc := by
    show pyInsert s.pres (placeOf s x) x = _
    rw [e, insert_split _ _ _ h1]
  have hf := List.pairwise_iff_getElem.1 h.falls
  have up : ∀ y ∈ s.pres.take loc, x < y := by
    intro y hy
    obtain ⟨i, hi, rfl⟩ := List.mem_take_iff_getElem.1 hy
    have hil : i < loc := by omega
    have hp : x < s.pres.getD (loc - 1) m := by
      rcases h3 with h3 | h3
      · omega
      · refine lt_of_le_of_ne h3 fun hc => hx ?_
        rw [hc, List.getD_eq_getElem _ _ (by omega : loc - 1 < s.pres.length)]
        exact List.getElem_mem _
    rw [List.getD_eq_getElem _ _ (by omega : loc - 1 < s.pres.length)] at hp
    by_cases ei : i = loc - 1
    · subst ei; exact hp
    · exact hp.trans (hf i (loc - 1) (by omega) (by omega) (by omega))
  have dn : ∀ y ∈ s.pres.drop loc, y < x := by
    intro y hy
    obtain ⟨i, hi, rfl⟩ := List.mem_drop_iff_getElem.1 hy
    rcases h2 with h2 | h2
    · omega
    · rw [List.getD_eq_getElem _ _ (by omega : loc < s.pres.length)] at h2
      by_cases ei : i = 0
      · subst ei; simpa using h2
      · exact (hf loc (loc + i) (by omega) (by omega) (by omega)).trans h2
  rw [hi]
  constructor
  · intro y hy
    rcases List.mem_append.1 hy with hy | hy
    · exact h.given y (List.mem_of_mem_take hy)
    · rcases List.mem_cons.1 hy with rfl | hy
      · exact hm
      · exact h.given y (List.mem_of_mem_drop hy)
  · have := h.has
    rw [← List.take_append_drop loc s.pres] at this
    rcases List.mem_append.1 this with e | e
    · exact List.mem_append_left _ e
    · exact List.mem_append_right _ (List.mem_cons_of_mem _ e)
  · rw [List.pairwise_append, List.pairwise_cons]
    refine ⟨h.falls.sublist (List.take_sublist _ _), ⟨dn, h.falls.sublist (List.drop_sublist _ _)⟩, fun y hy z hz => ?_⟩
    rcases List.mem_cons.1 hz with rfl | hz
    · exact up y hy
    · exact (dn z hz).trans (up y hy)

theorem onPressure_fall {m p0 : α} {has : Nat → Run Bool} {pr : Nat → Snd α → Nat → Run (Snd α)} {fr : Nat → Snd α → α → Run (Snd α)}
    (h1 : ∀ i s loc s', pr i s loc = .ok s' → s'.pres = s.pres)
    (h2 : ∀ i s p s', fr i s p = .ok s' → ∃ t d r w, s' = s.insert (placeOf s p) p m t d r w)
    {l : List α} {i : Nat} {s : Snd α} {pbot : α} {r : Snd α × α} (hs : PFall m p0 s.pres) (h : mergeOnPressure m has pr fr l i s pbot = .ok r) :
    PFall m p0 r.1.pres := by
  induction l generalizing i s pbot with
  | nil => obtain rfl := Except.ok.inj h; exact hs
  | cons x xs ih =>
    rw [mergeOnPressure] at h
    obtain ⟨ok, hok, h⟩ := run_inv h
    split at h
    · rename_i hcond
      have hxm : |x| ≠ m := by
        intro e
        rw [if_neg (not_not.2 e)] at hok
        rw [← Except.ok.inj hok] at hcond
        exact absurd hcond.1 (by decide)
      split at h
      · exact ih hs h
      · split at h
        · obtain ⟨s1, e1, h⟩ := run_inv h
          exact ih (by rw [h1 _ _ _ _ e1]; exact hs) h
        · rename_i hx
          obtain ⟨s1, e1, h⟩ := run_inv h
          obtain ⟨t, d, r', w, rfl⟩ := h2 _ _ _ _ e1
          exact ih (hs.insert hx hxm t d r' w) h
    · exact ih hs h

theorem trop_fall {p : SndPart α} {m p0 : α} {s : Snd α} {pbot : α} {r : Snd α × α} (hs : PFall m p0 s.pres) (h : mergeTrop p m s pbot = .ok r) :
    PFall m p0 r.1.pres := by
  unfold mergeTrop at h
  obtain ⟨_, _, h⟩ := run_inv h
  exact onPressure_fall (fun _ _ _ _ e => (tropPresent_pres e).1) (fun i s p s' e => tropNew_inv e) hs h

theorem sigT_fall {p : SndPart α} {m p0 : α} {s : Snd α} {pbot : α} {r : Snd α × α} (hs : PFall m p0 s.pres) (h : mergeSigT p m s pbot = .ok r) :
    PFall m p0 r.1.pres := by
  unfold mergeSigT at h
  obtain ⟨_, _, h⟩ := run_inv h
  refine onPressure_fall (fun i s loc s' e => ?_) (fun i s p s' e => sigTNew_inv e) hs h
  unfold sigTPresent at e
  obtain ⟨_, _, e⟩ := run_inv e
  split at e
  · obtain ⟨_, _, e⟩ := run_inv e
    obtain ⟨_, _, e⟩ := run_inv e
    obtain ⟨_, _, e⟩ := run_inv e
    obtain ⟨_, _, e⟩ := run_inv e
    obtain rfl := Except.ok.inj e
    rfl
  · obtain rfl := Except.ok.inj e; rfl

theorem wind_fall {p : SndPart α} {m p0 : α} {s : Snd α} {pbot : α} {r : Snd α × α} (hs : PFall m p0 s.pres) (h : mergeWind p m s pbot = .ok r) :
    PFall m p0 r.1.pres := by
  unfold mergeWind at h
  obtain ⟨_, _, h⟩ := run_inv h
  exact onPressure_fall (fun _ _ _ _ e => (windPresent_pres e).1) (fun i s p s' e => windNew_inv e) hs h

theorem pair_fall {n1 n2 : Nat} {m p0 : α} {bot : Snd α → Run α} {f1 f2 : Snd α → α → Run (Snd α × α)}
    (h1 : ∀ s p r, PFall m p0 s.pres → f1 s p = .ok r → PFall m p0 r.1.pres) (h2 : ∀ s p r, PFall m p0 s.pres → f2 s p = .ok r → PFall m p0 r.1.pres)
    {s s' : Snd α} (hs : PFall m p0 s.pres) (h : mergePair n1 n2 bot f1 f2 s = .ok s') : PFall m p0 s'.pres := by
  rcases pair_steps h with ⟨_, _, rfl⟩ | ⟨pb, r1, r2, _, e1, e2, rfl⟩
  · exact hs
  · have g1 : PFall m p0 r1.1.pres := by
      rcases e1 with ⟨_, e⟩ | ⟨_, rfl⟩
      · exact h1 _ _ _ hs e
      · exact hs
    rcases e2 with ⟨_, e⟩ | ⟨_, rfl⟩
    · exact h2 _ _ _ g1 e
    · exact g1

theorem logp_pres {c : Calc α} {m : α} {fuel : Nat} {s r : Snd α} (hs : Same s) (h : interpLogpHeight c m fuel s = .ok r) : r.pres = s.pres := by
  obtain ⟨n, hs⟩ := hs
  unfold interpLogpHeight at h
  split at h
  · cases h
  · rename_i h0
    dsimp only at h
    rw [hs.hght] at h h0
    split at h
    · rename_i t e
      obtain ⟨s1, e1, h⟩ := run_inv h
      have h1 := heightLoop_same hs e1
      obtain ⟨a1, _⟩ := heightLoop_cols e1
      have ep : s1.pres = s.pres := by rw [a1]
      split at h
      · obtain ⟨_, _, h⟩ := run_inv h
        obtain ⟨_, _, h⟩ := run_inv h
        obtain ⟨_, _, h⟩ := run_inv h
        obtain ⟨_, _, h⟩ := run_inv h
        obtain ⟨s2, e2, h2, b1, b2⟩ := extendLoop_ok c m (-9999) n (n - (t + 1)) (t + 1) s1 _ h1 (by omega)
        rw [e2] at h
        obtain rfl := Except.ok.inj h
        rw [b1]; exact ep
      · obtain rfl := Except.ok.inj h; exact ep
    · obtain ⟨s2, e2, h2, b1, b2⟩ := extendLoop_ok c m (-9999) n n 0 s ⟨m, m, m, m⟩ hs (by omega)
      rw [e2] at h
      obtain rfl := Except.ok.inj h
      rw [b1]

/-- Mandatory temperatures; the first level stays, and levels are counted as below the ground only when their pressure is greater. -/
theorem mergeMan_fall {p : SndPart α} {m : α} {N i : Nat} {s : Snd α} {p0 plast : α} {bgl : Nat} {r : Snd α × α × Nat} (hp : SixNames p)
    (hs : PFall m p0 s.pres) (h0 : s.pres.head? = some p0) (hl : s.pres.getLast? = some plast) (h : mergeMan p m N i s plast bgl = .ok r) :
    PFall m p0 r.1.pres ∧ r.1.pres.head? = some p0 ∧ r.1.pres.getLast? = some r.2.1 ∧
      ((∀ j x, i ≤ j → p.at "PRES" j = .ok x → x ≤ p0) → r.2.2 = bgl) := by
  induction N generalizing i s plast bgl with
  | zero => obtain rfl := Except.ok.inj h; exact ⟨hs, h0, hl, fun _ => rfl⟩
  | succ N ih =>
    rw [mergeMan] at h
    obtain ⟨b, hb, h⟩ := run_inv h
    split at h
    · rename_i hbt
      obtain ⟨s1, h1, h⟩ := run_inv h
      obtain ⟨pl, h2, h⟩ := run_inv h
      obtain ⟨v, e1, e2⟩ := (appendLevel_colOf h1 "PRES").2 (six_count hp (by decide))
      change s1.pres = s.pres ++ [v] at e2
      have epl : pl = v := by
        unfold lastPres at h2
        rw [e2] at h2
        have := idx_val m h2
        rw [this, List.getD_eq_getElem?_getD, List.length_append, List.length_singleton, Nat.add_sub_cancel, List.getElem?_concat_length]
        rfl
      subst epl
      have hv : pl < plast ∧ pl ≠ m := by
        unfold takesLevel at hb
        rw [e1, ok_bind] at hb
        split at hb
        · rename_i hlt
          split at hb
          · rename_i hne
            exact ⟨hlt, hne⟩
          · rw [← Except.ok.inj hb] at hbt; cases hbt
        · rw [← Except.ok.inj hb] at hbt; cases hbt
      have hlast : ∀ x ∈ s.pres, plast ≤ x := by
        intro x hx
        obtain ⟨l, hl'⟩ := List.getLast?_eq_some_iff.1 hl
        rw [hl'] at hx
        rcases List.mem_append.1 hx with hx | hx
        · have := hs.falls
          rw [hl', List.pairwise_append] at this
          exact (this.2.2 x hx plast (List.mem_singleton.2 rfl)).le
        · rw [List.mem_singleton.1 hx]
      have hs1 : PFall m p0 s1.pres := by
        rw [e2]
        constructor
        · intro x hx
          rcases List.mem_append.1 hx with hx | hx
          · exact hs.given x hx
          · rw [List.mem_singleton.1 hx]; exact hv.2
        · exact List.mem_append_left _ hs.has
        · rw [List.pairwise_append]
          refine ⟨hs.falls, List.pairwise_singleton _ _, fun x hx y hy => ?_⟩
          rw [List.mem_singleton.1 hy]
          exact hv.1.trans_le (hlast x hx)
      obtain ⟨g1, g2, g3, g4⟩ := ih hs1 (by rw [e2, List.head?_append, h0]; rfl) (by rw [e2, List.getLast?_append]; rfl) h
      exact ⟨g1, g2, g3, fun hall => g4 fun j x hj => hall j x (by omega)⟩
    · obtain ⟨pr, hpr, h⟩ := run_inv h
      obtain ⟨q0, hq0, h⟩ := run_inv h
      obtain ⟨g1, g2, g3, g4⟩ := ih hs h0 hl h
      refine ⟨g1, g2, g3, fun hall => ?_⟩
      rw [g4 fun j x hj => hall j x (by omega)]
      have e0 : q0 = p0 := by
        have := idx_val m hq0
        rw [this, List.getD_eq_getElem?_getD, ← List.head?_eq_getElem?, h0]
        rfl
      rw [if_neg (by rw [e0]; exact not_lt.2 (hall i pr (le_refl _) hpr))]

end

end Gempak
