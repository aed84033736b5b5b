import Verif.Props.MergeWindFrom
import Verif.Props.UnmergedHeights

/-!
# C113 for all winds: nothing else is shown
-/

namespace Gempak

open Spec

section
variable {α : Type} [Field α] [LinearOrder α]

/-- What a dataset shows in one place: a value, or nothing, for which `m` is written here. -/
def Spec.CellIs (d : SnData α) (m : α) (name : Text) (k : Nat) (v : α) : Prop := ShownAt d name k v ∨ (v = m ∧ ∀ u, ¬ ShownAt d name k u)

/-- Wind `R`, `W` at pressure `P` is interpolated between two levels that are shown. -/
def Spec.BetweenWinds (c : Calc α) (lower : Text → Text) (d : SnData α) (m P R W : α) : Prop :=
  ∃ (k1 k2 : Nat) (P1 P2 x : α), d.levels[k1]? = some P1 ∧ d.levels[k2]? = some P2 ∧ ((P1 < P ∧ P < P2) ∨ (P2 < P ∧ P < P1)) ∧
    x = c.log (P / P1) / c.log (P2 / P1) ∧
    (R ≠ m → ∃ R1 R2, ShownAt d (lower (txt "DRCT")) k1 R1 ∧ ShownAt d (lower (txt "DRCT")) k2 R2 ∧ TurnedTo R1 R2 x R) ∧
    (W ≠ m → ∃ W1 W2, ShownAt d (lower (txt "SPED")) k1 W1 ∧ ShownAt d (lower (txt "SPED")) k2 W2 ∧ W = W1 + (W2 - W1) * x)

theorem windBetween_shown {lower : Text → Text} {c : Calc α} {m : α} {x : Snd α} {d : SnData α} (h : IsProfile lower m x d) {n : Nat} (hx : x.Size n) {j : Nat}
    (hj : x.drct.getD j m ≠ m ∨ x.sped.getD j m ≠ m)
    (hl : WindBetween c m x j) : BetweenWinds c lower d m (x.pres.getD j m) (x.drct.getD j m) (x.sped.getD j m) := by
  obtain ⟨a, b, f, _, _, h1, hf, h2, h3⟩ := hl
  obtain ⟨σ, s1, _, s2, s3⟩ := profile_rows h
  have hb : b < n := by
    rcases hj with hj | hj
    · exact hx.drct ▸ getD_ne_lt (h2 hj).2.1
    · exact hx.sped ▸ getD_ne_lt (h3 hj).2.1
  have ha : a < n := by
    rcases hj with hj | hj
    · exact hx.drct ▸ getD_ne_lt (h2 hj).1
    · exact hx.sped ▸ getD_ne_lt (h3 hj).1
  have key : ∀ i, i < n → ∃ k : Nat, d.levels[k]? = some (x.pres.getD i m) ∧
      (x.drct.getD i m ≠ m → ShownAt d (lower (txt "DRCT")) k (x.drct.getD i m)) ∧ (x.sped.getD i m ≠ m → ShownAt d (lower (txt "SPED")) k (x.sped.getD i m)) := by
    intro i hi
    obtain ⟨k, hk⟩ := (perm_range_mem s1).2 (hx.pres ▸ hi)
    obtain ⟨e1, e2⟩ := s3 k i hk
    refine ⟨k, ?_, fun hne => e2 (_, x.drct) (by simp [namedCols]) _ ?_ hne, fun hne => e2 (_, x.sped) (by simp [namedCols]) _ ?_ hne⟩
    · rw [e1, List.getD_eq_getElem?_getD, List.getElem?_eq_getElem (by rw [hx.pres]; exact hi)]; rfl
    · show x.drct[i]? = _
      rw [List.getD_eq_getElem?_getD, List.getElem?_eq_getElem (by rw [hx.drct]; exact hi)]; rfl
    · show x.sped[i]? = _
      rw [List.getD_eq_getElem?_getD, List.getElem?_eq_getElem (by rw [hx.sped]; exact hi)]; rfl
  obtain ⟨k1, q1, r1, w1⟩ := key a ha
  obtain ⟨k2, q2, r2, w2⟩ := key b hb
  refine ⟨k1, k2, _, _, f, q1, q2, h1, hf, fun hne => ?_, fun hne => ?_⟩
  · obtain ⟨g1, g2, g3⟩ := h2 hne
    exact ⟨_, _, r1 g1, r2 g2, g3⟩
  · obtain ⟨g1, g2, g3⟩ := h3 hne
    exact ⟨_, _, w1 g1, w2 g2, g3⟩

/-- C113: direction and speed shown at a level of a dataset are a pair that a part of the records of its sounding gives for that pressure or
for a height, or are interpolated between two other levels of the dataset. -/
theorem C113_no_other_winds [FloorRing α] [IsStrictOrderedRing α] (c : Calc α) (e : LevEnv α) (fuel : Nat) (host : Endian) (b : Bytes)
    (f : SoundingReader) (upper lower : Text → Text) (q : SiteQuery) (ds : List (SnData α)) (ho : openSounding host b = .ok f)
    (h : f.unmergedDatasets c e fuel upper lower q = .ok ds) (ha : Addressable f.info) (hn : NamesApart f.info) (hu : UsualParts f.info)
    (hm : e.flt f.info.label.missingFloat = -9999)
    (hlow : [lower (txt "HGHT"), lower (txt "TEMP"), lower (txt "DWPT"), lower (txt "DRCT"), lower (txt "SPED")].Nodup)
    (d : SnData α) (hd : d ∈ ds) :
    ∃ s ∈ selected upper (AsksExactly upper) q f.sninfo, Describes s d ∧ ∃ ps,
      unmergedParts f.info f.bytes s.row s.col (f.info.parts.zip f.info.params) 0 [] = .ok ps ∧
      ∀ (k : Nat) (P R W : α), d.levels[k]? = some P → CellIs d (-9999) (lower (txt "DRCT")) k R → CellIs d (-9999) (lower (txt "SPED")) k W →
        R ≠ -9999 ∨ W ≠ -9999 →
        WindRead (e.parts s.elev ps) P R W ∨ HeightWind (e.parts s.elev ps) (-9999) R W ∨ BetweenWinds c lower d (-9999) P R W := by
  obtain ⟨Ts, t1, t2, t3⟩ := C76_datasets c e fuel host b f upper lower q ds ho h
  rw [t2] at hd
  obtain ⟨t, ht1, ht2⟩ := List.mem_filterMap.1 hd
  obtain ⟨ps, r1, _, r3⟩ := (t3 t ht1).parts
  obtain ⟨d1, ⟨x, x1, x2⟩, _⟩ := r3 d ht2
  rw [hm] at x1 x2
  refine ⟨t.1, by rw [← t1]; exact List.mem_map_of_mem ht1, d1, ps, r1, fun k P R W hP hR hW hne => ?_⟩
  have hA := fun x => usual_six e t.1.elev ha hn hu r1 "TTAA" (Or.inl rfl) x
  have hC := fun x => usual_six e t.1.elev ha hn hu r1 "TTCC" (Or.inr rfl) x
  obtain ⟨σ, s1, s2, s3, s4⟩ := profile_shown x2 (by rw [x2.names]; exact hlow)
  obtain ⟨j, hj⟩ : ∃ j, σ[k]? = some j := ⟨_, List.getElem?_eq_getElem (by rw [s2]; exact (List.getElem?_eq_some_iff.1 hP).1)⟩
  obtain ⟨e1, e2⟩ := s4 k j hj
  have hjl := (perm_range_mem s1).1 ⟨k, hj⟩
  have hPj : x.pres.getD j (-9999) = P := by
    rw [List.getD_eq_getElem?_getD, ← e1, hP]; rfl
  have cell : ∀ {name : Text} {C : List α} {v : α}, (name, C) ∈ namedCols lower x → CellIs d (-9999) name k v → C.getD j (-9999) = v := by
    intro name C v hnc hv
    rcases hv with hv | ⟨rfl, hv⟩
    · rw [List.getD_eq_getElem?_getD, ((e2 _ hnc v).1 hv).1]; rfl
    · by_contra hc
      refine hv (C.getD j (-9999)) ((e2 _ hnc _).2 ⟨?_, hc⟩)
      have hl : j < C.length := by rw [s3 _ hnc]; exact hjl
      show C[j]? = _
      rw [List.getD_eq_getElem?_getD, List.getElem?_eq_getElem hl]; rfl
  have gR := cell (C := x.drct) (by simp [namedCols]) hR
  have gW := cell (C := x.sped) (by simp [namedCols]) hW
  have hne' : x.drct.getD j (-9999) ≠ -9999 ∨ x.sped.getD j (-9999) ≠ -9999 := by rw [gR, gW]; exact hne
  rcases C118_winds_from_report c fuel _ x hA hC x1 j hne' with w | w | w
  · rw [hPj, gR, gW] at w; exact Or.inl w
  · rw [gR, gW] at w; exact Or.inr (Or.inl w)
  · have hx : x.Size x.pres.length := ⟨rfl, s3 (_, x.hght) (by simp [namedCols] : (lower (txt "HGHT"), x.hght) ∈ _),
      s3 (_, x.temp) (by simp [namedCols] : (lower (txt "TEMP"), x.temp) ∈ _), s3 (_, x.dwpt) (by simp [namedCols] : (lower (txt "DWPT"), x.dwpt) ∈ _),
      s3 (_, x.drct) (by simp [namedCols] : (lower (txt "DRCT"), x.drct) ∈ _), s3 (_, x.sped) (by simp [namedCols] : (lower (txt "SPED"), x.sped) ∈ _)⟩
    have := windBetween_shown x2 hx hne' w
    rw [hPj, gR, gW] at this
    exact Or.inr (Or.inr this)

end

/-- The file with winds by height meets the hypotheses: the wind 190 degrees, 15, shown at a level of its dataset is of the report. -/
example : ∃ f ds, openSounding .little windFile = .ok f ∧
    f.unmergedDatasets (⟨fun x => x - 1, fun x => x + 1⟩ : Calc ℚ) ratEnv 5 id id {} = .ok ds ∧ ∃ d ∈ ds, ∃ (s : SiteInfo) (ps : _) (k : Nat) (P : ℚ),
      unmergedParts f.info f.bytes s.row s.col (f.info.parts.zip f.info.params) 0 [] = .ok ps ∧ d.levels[k]? = some P ∧
      (WindRead (ratEnv.parts s.elev ps) P 190 15 ∨ HeightWind (ratEnv.parts s.elev ps) (-9999) 190 15 ∨
        BetweenWinds ⟨fun x => x - 1, fun x => x + 1⟩ id d (-9999) P 190 15) := by
  obtain ⟨f, ds, s, ho, hds, ha, hn, hu, hm, d, hd, _, k, k1, _, k2, k3⟩ := windFile_shown
  obtain ⟨s', _, _, ps, hps, hw⟩ := C113_no_other_winds _ ratEnv 5 .little windFile f id id {} ds ho hds ha hn hu hm (by decide) d hd
  obtain ⟨P, hP⟩ : ∃ P, d.levels[k]? = some P := ⟨_, List.getElem?_eq_getElem k1⟩
  exact ⟨f, ds, ho, hds, d, hd, s', ps, k, P, hps, hP, hw k P 190 15 hP (Or.inl k2) (Or.inl k3) (Or.inl (by norm_num))⟩

end Gempak
