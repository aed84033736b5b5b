import Verif.Proof.Merge

/-!
# Merging: order of the pressures
-/

namespace Gempak

set_option linter.unusedSectionVars false

section
variable {α : Type} [Field α] [LinearOrder α]

/-! ## `bisect_left` -/

theorem bisectLoop_spec (a : List α) (x m : α) (N lo hi : Nat) (hN : hi ≤ lo + N) (hlh : lo ≤ hi) (hh : hi ≤ a.length)
    (h1 : lo = 0 ∨ a.getD (lo - 1) m < x) (h2 : hi = a.length ∨ x ≤ a.getD hi m) :
    bisectLoop a x N lo hi ≤ a.length ∧ (bisectLoop a x N lo hi = 0 ∨ a.getD (bisectLoop a x N lo hi - 1) m < x) ∧
      (bisectLoop a x N lo hi = a.length ∨ x ≤ a.getD (bisectLoop a x N lo hi) m) := by
  induction N generalizing lo hi with
  | zero =>
    obtain rfl : lo = hi := by omega
    exact ⟨hh, h1, h2⟩
  | succ N ih =>
    rw [bisectLoop]
    split
    · rename_i hlt
      have hmid : (lo + hi) / 2 < a.length := by omega
      dsimp only
      rw [List.getElem?_eq_getElem hmid]
      have e : a.getD ((lo + hi) / 2) m = a[(lo + hi) / 2] := by
        rw [List.getD_eq_getElem?_getD, List.getElem?_eq_getElem hmid]; rfl
      dsimp only
      split
      · rename_i hv
        exact ih _ _ (by omega) (by omega) hh (Or.inr (by rw [Nat.add_sub_cancel, e]; exact hv)) h2
      · rename_i hv
        exact ih _ _ (by omega) (by omega) (by omega) h1 (Or.inr (by rw [e]; exact not_lt.mp hv))
    · obtain rfl : lo = hi := by omega
      exact ⟨hh, h1, h2⟩

/-- Neighbours of the place found, in any list. -/
theorem bisectLeft_spec (a : List α) (x m : α) :
    bisectLeft a x ≤ a.length ∧ (bisectLeft a x = 0 ∨ a.getD (bisectLeft a x - 1) m < x) ∧
      (bisectLeft a x = a.length ∨ x ≤ a.getD (bisectLeft a x) m) :=
  bisectLoop_spec a x m a.length 0 a.length (by omega) (by omega) (le_refl _) (Or.inl rfl) (Or.inl rfl)

theorem getD_reverse (a : List α) (j : Nat) (m : α) (h : j < a.length) : a.reverse.getD j m = a.getD (a.length - 1 - j) m := by
  rw [List.getD_eq_getElem?_getD, List.getD_eq_getElem?_getD, List.getElem?_reverse h]

/-- The place for a new pressure: between a pressure that is not less and one that is less. -/
theorem placeOf_spec (s : Snd α) (x m : α) :
    ∃ loc : Nat, placeOf s x = loc ∧ loc ≤ s.pres.length ∧ (loc = s.pres.length ∨ s.pres.getD loc m < x) ∧
      (loc = 0 ∨ x ≤ s.pres.getD (loc - 1) m) := by
  obtain ⟨h1, h2, h3⟩ := bisectLeft_spec s.pres.reverse x m
  unfold placeOf
  generalize bisectLeft s.pres.reverse x = k at *
  rw [List.length_reverse] at h1 h3
  refine ⟨s.pres.length - k, by omega, by omega, ?_, ?_⟩
  · rcases h2 with h | h
    · left; omega
    · by_cases hk : k = 0
      · left; omega
      · right
        rw [getD_reverse _ _ _ (by omega)] at h
        rwa [show s.pres.length - 1 - (k - 1) = s.pres.length - k by omega] at h
  · rcases h3 with h | h
    · left; omega
    · by_cases hk : k < s.pres.length
      · right
        rw [getD_reverse _ _ _ hk] at h
        rwa [show s.pres.length - 1 - k = s.pres.length - k - 1 by omega] at h
      · left; omega

theorem getD_insert (l : List α) (loc i : Nat) (v m : α) (h : loc ≤ l.length) :
    (pyInsert l (loc : Int) v).getD i m = if i < loc then l.getD i m else if i = loc then v else l.getD (i - 1) m := by
  unfold pyInsert
  have e : (if (loc : Int) < 0 then ((loc : Int) + l.length).toNat else min (loc : Int).toNat l.length) = loc := by
    rw [if_neg (by omega)]; simp; omega
  dsimp only
  rw [e]
  have hl : (l.take loc).length = loc := by simp; omega
  rw [List.getD_eq_getElem?_getD]
  by_cases h1 : i < loc
  · rw [if_pos h1, List.getElem?_append_left (by omega), List.getElem?_take_of_lt h1, List.getD_eq_getElem?_getD]
  · rw [if_neg h1, List.getElem?_append_right (by omega), hl]
    by_cases h2 : i = loc
    · subst h2; simp
    · rw [if_neg h2]
      obtain ⟨d, rfl⟩ : ∃ d, i = loc + 1 + d := ⟨i - (loc + 1), by omega⟩
      rw [show loc + 1 + d - loc = d + 1 by omega, List.getElem?_cons_succ, List.getElem?_drop, List.getD_eq_getElem?_getD,
        show loc + 1 + d - 1 = loc + d by omega]

/-! ## The invariant -/

/-- Pressures fall from level `k` on; if `k` is not zero, level `k - 1` has no pressure and no level below `k` has a pressure and a height. -/
structure OrdInv (s : Snd α) (m : α) (n k : Nat) : Prop where
  pres : s.pres.length = n
  hght : s.hght.length = n
  le : k ≤ n
  falls : ∀ i j, k ≤ i → i < j → j < n → s.pres.getD j m < s.pres.getD i m
  gap : k = 0 ∨ s.pres.getD (k - 1) m = m
  blank : ∀ j, j < k → s.hght.getD j m = m ∨ s.pres.getD j m = m

/-- There is such a `k`. -/
def Ordered (s : Snd α) (m : α) : Prop := ∃ n k, OrdInv s m n k

/-- Only other columns, or heights set to missing, change. -/
theorem Ordered.blank {s s' : Snd α} {m : α} (h : Ordered s m) (hp : s'.pres = s.pres) (hs : s'.hght.length = s.hght.length)
    (hz : ∀ j, s'.hght.getD j m = s.hght.getD j m ∨ s'.hght.getD j m = m) : Ordered s' m := by
  obtain ⟨n, k, h⟩ := h
  refine ⟨n, k, by rw [hp]; exact h.pres, hs.trans h.hght, h.le, by rw [hp]; exact h.falls, by rw [hp]; exact h.gap, fun j hj => ?_⟩
  rcases hz j with e | e
  · rw [e, hp]; exact h.blank j hj
  · exact Or.inl e

/-- A new pressure level without height keeps the invariant. -/
theorem Ordered.insert {s : Snd α} {m x : α} (h : Ordered s m) (hx : x ∉ s.pres) (t d r w : α) :
    Ordered (s.insert (placeOf s x) x m t d r w) m := by
  obtain ⟨n, k, h⟩ := h
  obtain ⟨loc, e, h1, h2, h3⟩ := placeOf_spec s x m
  rw [e]
  have hn := h.pres
  have h3' : loc = 0 ∨ x < s.pres.getD (loc - 1) m := by
    by_cases h0 : loc = 0
    · exact Or.inl h0
    · rcases h3 with h3 | h3
      · exact Or.inl h3
      · refine Or.inr (lt_of_le_of_ne h3 fun hc => hx ?_)
        rw [hc, List.getD_eq_getElem?_getD, List.getElem?_eq_getElem (by omega)]
        exact List.getElem_mem _
  have gp : ∀ i, (pyInsert s.pres (loc : Int) x).getD i m = if i < loc then s.pres.getD i m else if i = loc then x else s.pres.getD (i - 1) m :=
    fun i => getD_insert _ _ _ _ _ h1
  have gz : ∀ i, (pyInsert s.hght (loc : Int) m).getD i m = if i < loc then s.hght.getD i m else if i = loc then m else s.hght.getD (i - 1) m :=
    fun i => getD_insert _ _ _ _ _ (by rw [h.hght]; omega)
  have hsp : (s.insert (loc : Int) x m t d r w).pres.length = n + 1 := (pyInsert_len _ _ _).trans (by rw [h.pres])
  have hsz : (s.insert (loc : Int) x m t d r w).hght.length = n + 1 := (pyInsert_len _ _ _).trans (by rw [h.hght])
  have hgap := h.gap
  have hle := h.le
  by_cases hk : loc < k
  · refine ⟨n + 1, k + 1, hsp, hsz, by omega, ?_, ?_, ?_⟩
    · intro i j a1 a2 a3
      show (pyInsert s.pres (loc : Int) x).getD j m < (pyInsert s.pres (loc : Int) x).getD i m
      rw [gp, gp, if_neg (by omega), if_neg (by omega), if_neg (by omega), if_neg (by omega)]
      exact h.falls (i - 1) (j - 1) (by omega) (by omega) (by omega)
    · right
      show (pyInsert s.pres (loc : Int) x).getD (k + 1 - 1) m = m
      rw [gp, if_neg (by omega), if_neg (by omega)]
      rcases hgap with hg | hg
      · omega
      · rw [show k + 1 - 1 - 1 = k - 1 by omega]; exact hg
    · intro j hj
      show (pyInsert s.hght (loc : Int) m).getD j m = m ∨ (pyInsert s.pres (loc : Int) x).getD j m = m
      rw [gz, gp]
      by_cases h1 : j < loc
      · rw [if_pos h1, if_pos h1]; exact h.blank j (by omega)
      · rw [if_neg h1, if_neg h1]
        by_cases h2 : j = loc
        · rw [if_pos h2]; exact Or.inl rfl
        · rw [if_neg h2, if_neg h2]; exact h.blank (j - 1) (by omega)
  · refine ⟨n + 1, k, hsp, hsz, by omega, ?_, ?_, ?_⟩
    · have up : ∀ i, k ≤ i → i < loc → x < s.pres.getD i m := by
        intro i a1 a2
        rcases h3' with h3' | h3'
        · omega
        · by_cases ei : i = loc - 1
          · rw [ei]; exact h3'
          · exact h3'.trans (h.falls i (loc - 1) a1 (by omega) (by omega))
      have dn : ∀ j, loc ≤ j → j < n → s.pres.getD j m < x := by
        intro j a1 a2
        rcases h2 with h2 | h2
        · omega
        · by_cases ej : j = loc
          · rw [ej]; exact h2
          · exact (h.falls loc j (by omega) (by omega) a2).trans h2
      intro i j a1 a2 a3
      show (pyInsert s.pres (loc : Int) x).getD j m < (pyInsert s.pres (loc : Int) x).getD i m
      rw [gp, gp]
      by_cases hj : j < loc
      · rw [if_pos hj, if_pos (by omega)]
        exact h.falls i j a1 a2 (by omega)
      · rw [if_neg hj]
        by_cases ej : j = loc
        · rw [if_pos ej, if_pos (by omega)]
          exact up i a1 (by omega)
        · rw [if_neg ej]
          by_cases hi : i < loc
          · rw [if_pos hi]
            exact (dn (j - 1) (by omega) (by omega)).trans (up i a1 hi)
          · rw [if_neg hi]
            by_cases ei : i = loc
            · rw [if_pos ei]; exact dn (j - 1) (by omega) (by omega)
            · rw [if_neg ei]
              exact h.falls (i - 1) (j - 1) (by omega) (by omega) (by omega)
    · rcases hgap with hg | hg
      · exact Or.inl hg
      · by_cases h0 : k = 0
        · exact Or.inl h0
        · right
          show (pyInsert s.pres (loc : Int) x).getD (k - 1) m = m
          rw [gp, if_pos (by omega)]
          exact hg
    · intro j hj
      show (pyInsert s.hght (loc : Int) m).getD j m = m ∨ (pyInsert s.pres (loc : Int) x).getD j m = m
      rw [gz, gp, if_pos (by omega), if_pos (by omega)]
      exact h.blank j hj

end

end Gempak
