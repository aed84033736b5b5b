import Mathlib.Data.List.Nodup
import Verif.Model.Dict

/-!
# Dictionaries: lemmas
-/

namespace Gempak

section
variable {κ β : Type} [DecidableEq κ]

theorem dictGet_eq_some {d : List (κ × β)} (h : (d.map Prod.fst).Nodup) {k : κ} {v : β} :
    dictGet d k = some v ↔ (k, v) ∈ d := by
  induction d with
  | nil => simp [dictGet]
  | cons x r ih =>
    obtain ⟨k', v'⟩ := x
    rw [List.map_cons, List.nodup_cons] at h
    unfold dictGet
    by_cases hk : k' = k
    · subst hk
      rw [if_pos rfl]
      simp only [Option.some.injEq, List.mem_cons, Prod.mk.injEq, true_and]
      constructor
      · rintro rfl; exact Or.inl rfl
      · rintro (rfl | hm)
        · rfl
        · exact absurd (List.mem_map_of_mem hm) h.1
    · rw [if_neg hk, ih h.2]
      simp only [List.mem_cons, Prod.mk.injEq, Ne.symm hk, false_and, false_or]

theorem dictGet_isSome {d : List (κ × β)} {k : κ} : (dictGet d k).isSome ↔ k ∈ d.map Prod.fst := by
  induction d with
  | nil => simp [dictGet]
  | cons x r ih =>
    obtain ⟨k', v'⟩ := x
    unfold dictGet
    by_cases hk : k' = k
    · simp [hk]
    · rw [if_neg hk, ih]; simp [Ne.symm hk]

theorem dictGet_eq_none {d : List (κ × β)} {k : κ} : dictGet d k = none ↔ k ∉ d.map Prod.fst := by
  rw [← dictGet_isSome]; cases dictGet d k <;> simp

theorem dictSet_fst_mem {d : List (κ × β)} {k k' : κ} {v : β} :
    k' ∈ (dictSet d k v).map Prod.fst ↔ k' ∈ d.map Prod.fst ∨ k' = k := by
  induction d with
  | nil => simp [dictSet]
  | cons x r ih =>
    obtain ⟨k0, v0⟩ := x
    unfold dictSet
    by_cases hk : k0 = k
    · rw [if_pos hk]; subst hk; simp only [List.map_cons, List.mem_cons]; tauto
    · rw [if_neg hk]; simp only [List.map_cons, List.mem_cons, ih]; tauto

theorem dictSet_nodup {d : List (κ × β)} (h : (d.map Prod.fst).Nodup) (k : κ) (v : β) :
    ((dictSet d k v).map Prod.fst).Nodup := by
  induction d with
  | nil => simp [dictSet]
  | cons x r ih =>
    obtain ⟨k0, v0⟩ := x
    rw [List.map_cons, List.nodup_cons] at h
    unfold dictSet
    by_cases hk : k0 = k
    · rw [if_pos hk, List.map_cons, List.nodup_cons]; exact h
    · rw [if_neg hk, List.map_cons, List.nodup_cons]
      refine ⟨?_, ih h.2⟩
      rw [dictSet_fst_mem]
      rintro (hm | he)
      · exact h.1 hm
      · exact hk he

theorem dictGet_dictSet (d : List (κ × β)) (k k' : κ) (v : β) :
    dictGet (dictSet d k v) k' = if k' = k then some v else dictGet d k' := by
  induction d with
  | nil =>
    unfold dictSet dictGet
    by_cases hk : k = k'
    · rw [if_pos hk, if_pos hk.symm]
    · rw [if_neg hk, if_neg (Ne.symm hk)]; rfl
  | cons x r ih =>
    obtain ⟨k0, v0⟩ := x
    unfold dictSet
    by_cases h0 : k0 = k
    · rw [if_pos h0]
      subst h0
      unfold dictGet
      by_cases hk : k0 = k'
      · rw [if_pos hk, if_pos hk.symm]
      · rw [if_neg hk, if_neg (Ne.symm hk), if_neg hk]
    · rw [if_neg h0]
      unfold dictGet
      by_cases hk : k0 = k'
      · subst hk; rw [if_pos rfl, if_pos rfl, if_neg h0]
      · rw [if_neg hk, if_neg hk, ih]

theorem dictSet_append_of_not_mem {d : List (κ × β)} {k : κ} (h : k ∉ d.map Prod.fst) (v : β) :
    dictSet d k v = d ++ [(k, v)] := by
  induction d with
  | nil => rfl
  | cons x r ih =>
    obtain ⟨k0, v0⟩ := x
    rw [List.map_cons, List.mem_cons, not_or] at h
    unfold dictSet
    rw [if_neg (Ne.symm h.1), ih h.2]; rfl

theorem dictUpdate_cons (d : List (κ × β)) (k : κ) (v : β) (r : List (κ × β)) :
    dictUpdate d ((k, v) :: r) = dictUpdate (dictSet d k v) r := rfl

theorem dictUpdate_append (d a b : List (κ × β)) : dictUpdate d (a ++ b) = dictUpdate (dictUpdate d a) b := by
  unfold dictUpdate; rw [List.foldl_append]

theorem dictUpdate_fresh {d items : List (κ × β)} (h : (d.map Prod.fst ++ items.map Prod.fst).Nodup) :
    dictUpdate d items = d ++ items := by
  induction items generalizing d with
  | nil => simp [dictUpdate]
  | cons x r ih =>
    obtain ⟨k, v⟩ := x
    rw [dictUpdate_cons, dictSet_append_of_not_mem, ih]
    · simp
    · simpa using h
    · intro hm
      rw [List.nodup_append] at h
      exact h.2.2 k hm k (by simp) rfl

theorem dictUpdate_nodup {d : List (κ × β)} (h : (d.map Prod.fst).Nodup) (items : List (κ × β)) :
    ((dictUpdate d items).map Prod.fst).Nodup := by
  induction items generalizing d with
  | nil => exact h
  | cons x r ih => exact ih (dictSet_nodup h x.1 x.2)

theorem dictUpdate_fst_mem {d items : List (κ × β)} {k : κ} :
    k ∈ (dictUpdate d items).map Prod.fst ↔ k ∈ d.map Prod.fst ∨ k ∈ items.map Prod.fst := by
  induction items generalizing d with
  | nil => simp [dictUpdate]
  | cons x r ih =>
    obtain ⟨k', v'⟩ := x
    rw [dictUpdate_cons, ih, dictSet_fst_mem, List.map_cons, List.mem_cons, or_assoc]

/-- The value found is the last one stored. -/
theorem dictGet_dictUpdate (d items : List (κ × β)) (k : κ) :
    dictGet (dictUpdate d items) k = ((items.reverse.find? fun x => x.1 = k).map Prod.snd).or (dictGet d k) := by
  induction items generalizing d with
  | nil => simp [dictUpdate]
  | cons x r ih =>
    obtain ⟨k', v'⟩ := x
    rw [dictUpdate_cons, ih, dictGet_dictSet, List.reverse_cons, List.find?_append]
    cases hf : r.reverse.find? fun x => x.1 = k with
    | some y => simp
    | none =>
      by_cases hk : k = k'
      · subst hk; simp
      · simp [hk, Ne.symm hk]

end

end Gempak
