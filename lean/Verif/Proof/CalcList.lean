import Mathlib.Data.List.GetD
import Verif.Model.Calc
import Verif.Proof.DMRead

/-!
# Columns of soundings: reading and writing
-/

namespace Gempak

section
variable {α : Type} [Field α] [LinearOrder α]

theorem run_inv {β γ : Type} {x : Run β} {f : β → Run γ} {y : γ} (h : x >>= f = .ok y) : ∃ a, x = .ok a ∧ f a = .ok y := by
  cases x with
  | error e => cases h
  | ok a => exact ⟨a, rfl, h⟩

theorem idx_ok {l : List α} {i : Nat} (h : i < l.length) (m : α) : idx l i = .ok (l.getD i m) := by
  unfold idx
  rw [List.getElem?_eq_getElem h, List.getD_eq_getElem?_getD, List.getElem?_eq_getElem h]
  rfl

theorem put_ok {l : List α} {i : Nat} (h : i < l.length) (v : α) : put l i v = .ok (l.set i v) := by
  unfold put; rw [if_pos h]

theorem getD_set (l : List α) (i k : Nat) (v m : α) (h : i < l.length) :
    (l.set i v).getD k m = if k = i then v else l.getD k m := by
  rw [List.getD_eq_getElem?_getD, List.getElem?_set]
  by_cases e : i = k
  · rw [if_pos e, if_pos e.symm, if_pos h]; rfl
  · rw [if_neg e, if_neg (fun x => e x.symm), List.getD_eq_getElem?_getD]

theorem getD_ge (l : List α) (k : Nat) (m : α) (h : l.length ≤ k) : l.getD k m = m := by
  rw [List.getD_eq_getElem?_getD, List.getElem?_eq_none h]; rfl

theorem getD_ne_lt {l : List α} {k : Nat} {m : α} (h : l.getD k m ≠ m) : k < l.length := by
  by_contra hc
  exact h (getD_ge l k m (by omega))

theorem getD_ext {l l' : List α} {m : α} (hl : l.length = l'.length) (h : ∀ k, l.getD k m = l'.getD k m) : l = l' := by
  apply List.ext_getElem hl
  intro i h1 h2
  have := h i
  rw [List.getD_eq_getElem?_getD, List.getD_eq_getElem?_getD, List.getElem?_eq_getElem h1, List.getElem?_eq_getElem h2] at this
  exact this

/-- All six columns have the given number of levels. -/
structure Snd.Size (s : Snd α) (n : Nat) : Prop where
  pres : s.pres.length = n
  hght : s.hght.length = n
  temp : s.temp.length = n
  dwpt : s.dwpt.length = n
  drct : s.drct.length = n
  sped : s.sped.length = n

end

end Gempak
