import Mathlib.Tactic.Linarith
import Verif.Proof.CalcList
import Verif.Props.Calc

/-!
# C50: filling missing data
-/

namespace Gempak

section
variable {α : Type} [Field α] [LinearOrder α]

/-- Level `k` is the same in two soundings. -/
def Spec.SameLevel (m : α) (s s' : Snd α) (k : Nat) : Prop :=
  s'.pres.getD k m = s.pres.getD k m ∧ s'.hght.getD k m = s.hght.getD k m ∧ s'.temp.getD k m = s.temp.getD k m ∧
    s'.dwpt.getD k m = s.dwpt.getD k m ∧ s'.drct.getD k m = s.drct.getD k m ∧ s'.sped.getD k m = s.sped.getD k m

open Spec

theorem Spec.SameLevel.refl (m : α) (s : Snd α) (k : Nat) : SameLevel m s s k := ⟨rfl, rfl, rfl, rfl, rfl, rfl⟩

theorem Spec.SameLevel.trans {m : α} {s s' s'' : Snd α} {k : Nat} (h : SameLevel m s s' k) (h' : SameLevel m s' s'' k) :
    SameLevel m s s'' k :=
  ⟨h'.1.trans h.1, h'.2.1.trans h.2.1, h'.2.2.1.trans h.2.2.1, h'.2.2.2.1.trans h.2.2.2.1, h'.2.2.2.2.1.trans h.2.2.2.2.1,
    h'.2.2.2.2.2.trans h.2.2.2.2.2⟩

theorem Spec.SameLevel.column {m : α} {s s' : Snd α} {k : Nat} (h : SameLevel m s s' k) (r : Recipe) :
    (r.column s').getD k m = (r.column s).getD k m := by
  cases r
  · exact h.2.2.1
  · exact h.2.2.2.2.1
  · exact h.2.2.2.1

/-- Columns a recipe does not touch. -/
def Others (r : Recipe) (s s' : Snd α) : Prop :=
  s'.pres = s.pres ∧ s'.hght = s.hght ∧
    match r with
    | .temp => s'.drct = s.drct ∧ s'.sped = s.sped
    | .drct => s'.temp = s.temp ∧ s'.dwpt = s.dwpt
    | .dwpt => s'.temp = s.temp ∧ s'.drct = s.drct ∧ s'.sped = s.sped

theorem Others.refl (r : Recipe) (s : Snd α) : Others r s s := by cases r <;> exact ⟨rfl, rfl, by simp⟩

theorem Others.trans {r : Recipe} {s s' s'' : Snd α} (h : Others r s s') (h' : Others r s' s'') : Others r s s'' := by
  obtain ⟨a, b, c⟩ := h
  obtain ⟨a', b', c'⟩ := h'
  refine ⟨a'.trans a, b'.trans b, ?_⟩
  cases r
  · exact ⟨c'.1.trans c.1, c'.2.trans c.2⟩
  · exact ⟨c'.1.trans c.1, c'.2.trans c.2⟩
  · exact ⟨c'.1.trans c.1, c'.2.1.trans c.2.1, c'.2.2.trans c.2.2⟩

/-- Effect of one recipe. -/
structure KeepsLevels (r : Recipe) (m : α) (n : Nat) (s s' : Snd α) : Prop where
  size : s'.Size n
  others : Others r s s'
  same : ∀ k, k = 0 ∨ n ≤ k + 1 ∨ (r.column s).getD k m ≠ m → SameLevel m s s' k

theorem KeepsLevels.trans {r : Recipe} {m : α} {n : Nat} {s s' s'' : Snd α} (h : KeepsLevels r m n s s') (h' : KeepsLevels r m n s' s'') :
    KeepsLevels r m n s s'' := by
  refine ⟨h'.size, h.others.trans h'.others, fun k hk => (h.same k hk).trans (h'.same k ?_)⟩
  rcases hk with e | e | e
  · exact Or.inl e
  · exact Or.inr (Or.inl e)
  · exact Or.inr (Or.inr (by rw [(h.same k (Or.inr (Or.inr e))).column r]; exact e))

theorem set_same {l : List α} {i k n : Nat} {v m : α} (hl : l.length = n) (hi : i < n) (h : k ≠ i) : (l.set i v).getD k m = l.getD k m := by
  rw [getD_set _ _ _ _ _ (by omega), if_neg h]

theorem storeLevel_keeps {r : Recipe} {m : α} {n i : Nat} {s s' : Snd α} {out : LevelData α} (hs : s.Size n) (hi0 : i ≠ 0)
    (hi : i + 1 < n) (hv : (r.column s).getD i m = m) (h : storeLevel r s i out = .ok s') : KeepsLevels r m n s s' := by
  have hne : ∀ k, k = 0 ∨ n ≤ k + 1 ∨ (r.column s).getD k m ≠ m → k ≠ i := by
    rintro k (e | e | e) rfl
    · exact hi0 e
    · omega
    · exact e hv
  have hin : i < n := by omega
  cases r with
  | temp =>
    unfold storeLevel at h
    obtain ⟨a, _, h⟩ := run_inv h
    rw [put_ok (by rw [hs.temp]; omega), ok_bind] at h
    obtain ⟨b, _, h⟩ := run_inv h
    rw [put_ok (by rw [hs.dwpt]; omega), ok_bind] at h
    obtain rfl := Except.ok.inj h
    refine ⟨⟨hs.pres, hs.hght, by simpa using hs.temp, by simpa using hs.dwpt, hs.drct, hs.sped⟩, ⟨rfl, rfl, rfl, rfl⟩, fun k hk => ?_⟩
    exact ⟨rfl, rfl, set_same hs.temp hin (hne k hk), set_same hs.dwpt hin (hne k hk), rfl, rfl⟩
  | drct =>
    unfold storeLevel at h
    obtain ⟨a, _, h⟩ := run_inv h
    rw [put_ok (by rw [hs.drct]; omega), ok_bind] at h
    obtain ⟨b, _, h⟩ := run_inv h
    rw [put_ok (by rw [hs.sped]; omega), ok_bind] at h
    obtain rfl := Except.ok.inj h
    refine ⟨⟨hs.pres, hs.hght, hs.temp, hs.dwpt, by simpa using hs.drct, by simpa using hs.sped⟩, ⟨rfl, rfl, rfl, rfl⟩, fun k hk => ?_⟩
    exact ⟨rfl, rfl, rfl, rfl, set_same hs.drct hin (hne k hk), set_same hs.sped hin (hne k hk)⟩
  | dwpt =>
    unfold storeLevel at h
    obtain ⟨a, _, h⟩ := run_inv h
    rw [put_ok (by rw [hs.dwpt]; omega), ok_bind] at h
    obtain rfl := Except.ok.inj h
    refine ⟨⟨hs.pres, hs.hght, hs.temp, by simpa using hs.dwpt, hs.drct, hs.sped⟩, ⟨rfl, rfl, rfl, rfl, rfl⟩, fun k hk => ?_⟩
    exact ⟨rfl, rfl, rfl, set_same hs.dwpt hin (hne k hk), rfl, rfl⟩

variable [FloorRing α]

theorem fillMissing_keeps {c : Calc α} {r : Recipe} {m : α} {n i k : Nat} {s s' : Snd α} (hs : s.Size n) (hi0 : i ≠ 0) (hi : i + 1 < n)
    (hv : (r.column s).getD i m = m) (h : fillMissing c r s m i k = .ok s') : KeepsLevels r m n s s' := by
  unfold fillMissing at h
  split at h
  · obtain ⟨_, _, h⟩ := run_inv h
    obtain ⟨_, _, h⟩ := run_inv h
    obtain ⟨_, _, h⟩ := run_inv h
    obtain ⟨_, _, h⟩ := run_inv h
    exact storeLevel_keeps hs hi0 hi hv h
  · obtain rfl := Except.ok.inj h
    exact ⟨hs, Others.refl r s, fun k _ => SameLevel.refl m s k⟩

omit [Field α] [LinearOrder α] [FloorRing α] in
theorem column_length {r : Recipe} {n : Nat} {s : Snd α} (hs : s.Size n) : (r.column s).length = n := by
  cases r
  · exact hs.temp
  · exact hs.drct
  · exact hs.dwpt

theorem missingLoop_keeps {c : Calc α} {r : Recipe} {m : α} {n N i ia : Nat} {s s' : Snd α} (hs : s.Size n) (hi0 : i ≠ 0)
    (hi : i + N + 1 ≤ n) (h : missingLoop c r m n N i ia s = .ok s') : KeepsLevels r m n s s' := by
  induction N generalizing i ia s with
  | zero =>
    obtain rfl := Except.ok.inj h
    exact ⟨hs, Others.refl r s, fun k _ => SameLevel.refl m s k⟩
  | succ N ih =>
    rw [missingLoop, idx_ok (by rw [column_length hs]; omega) m, ok_bind] at h
    split at h
    · rename_i hv
      obtain ⟨a, _, h⟩ := run_inv h
      obtain ⟨k, _, h⟩ := run_inv h
      obtain ⟨s1, h1, h⟩ := run_inv h
      have hk := fillMissing_keeps hs hi0 (by omega) hv h1
      split at h
      · exact hk.trans (ih hk.size (by omega) (by omega) h)
      · obtain rfl := Except.ok.inj h
        exact hk
    · exact ih hs (by omega) (by omega) h

/-- C50: the number of levels, the pressures, the heights, the first and the last level stay; a present temperature or direction stays,
a speed stays where the direction was present, and a dew point stays where it and the temperature were present. -/
theorem C50_kept (c : Calc α) (m : α) (s s' : Snd α) (n : Nat) (hs : s.Size n) (h : interpMissingData c m s = .ok s') :
    s'.Size n ∧ s'.pres = s.pres ∧ s'.hght = s.hght ∧ SameLevel m s s' 0 ∧ SameLevel m s s' (n - 1) ∧
      (∀ k, s.temp.getD k m ≠ m → s'.temp.getD k m = s.temp.getD k m) ∧
      (∀ k, s.drct.getD k m ≠ m → s'.drct.getD k m = s.drct.getD k m ∧ s'.sped.getD k m = s.sped.getD k m) ∧
      (∀ k, s.temp.getD k m ≠ m → s.dwpt.getD k m ≠ m → s'.dwpt.getD k m = s.dwpt.getD k m) := by
  unfold interpMissingData at h
  dsimp only at h
  by_cases hn : n < 2
  · rw [hs.pres, show n - 2 = 0 by omega] at h
    have : s' = s := (Except.ok.inj h).symm
    subst this
    exact ⟨hs, rfl, rfl, SameLevel.refl m _ _, SameLevel.refl m _ _, fun _ _ => rfl, fun _ _ => ⟨rfl, rfl⟩, fun _ _ _ => rfl⟩
  · rw [hs.pres] at h
    obtain ⟨s1, h1, h⟩ := run_inv h
    obtain ⟨s2, h2, h3⟩ := run_inv h
    have k1 := missingLoop_keeps hs (by omega) (by omega) h1
    have k2 := missingLoop_keeps k1.size (by omega) (by omega) h2
    have k3 := missingLoop_keeps k2.size (by omega) (by omega) h3
    obtain ⟨p1, z1, d1, v1⟩ := k1.others
    obtain ⟨p2, z2, t2, w2⟩ := k2.others
    obtain ⟨p3, z3, t3, d3, v3⟩ := k3.others
    refine ⟨k3.size, by rw [p3, p2, p1], by rw [z3, z2, z1], ?_, ?_, ?_, ?_, ?_⟩
    · exact ((k1.same 0 (Or.inl rfl)).trans (k2.same 0 (Or.inl rfl))).trans (k3.same 0 (Or.inl rfl))
    · have e : n ≤ n - 1 + 1 := by omega
      exact ((k1.same _ (Or.inr (Or.inl e))).trans (k2.same _ (Or.inr (Or.inl e)))).trans (k3.same _ (Or.inr (Or.inl e)))
    · intro k hk
      rw [t3, t2]
      exact (k1.same k (Or.inr (Or.inr hk))).2.2.1
    · intro k hk
      rw [d3, v3]
      have := k2.same k (Or.inr (Or.inr (by rw [← d1] at hk; exact hk)))
      rw [← d1, ← v1]
      exact ⟨this.2.2.2.2.1, this.2.2.2.2.2⟩
    · intro k ht hd
      have e1 := (k1.same k (Or.inr (Or.inr ht))).2.2.2.1
      have e2 := k3.same k (Or.inr (Or.inr (by show s2.dwpt.getD k m ≠ m; rw [w2, e1]; exact hd)))
      rw [e2.2.2.2.1, w2, e1]

end

end Gempak
