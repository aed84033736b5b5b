import Mathlib.Data.List.Lex
import Mathlib.Order.Defs.LinearOrder
import Verif.Proof.StationTable
import Verif.Model.Surface
import Verif.Model.SoundingData

/-!
# Order of headers and of what is listed

Comparisons of tuples, written with a key of each header.
-/

namespace Gempak
open Spec

/-! ## Specification -/

/-- A time, from years to microseconds. -/
def Spec.momentKey (t : Date × Clock) : List Nat := [t.1.y, t.1.m, t.1.d, t.2.h, t.2.mi, t.2.s, t.2.us]

/-- A text by its code points. -/
def Spec.codes (t : Text) : List Nat := t.map Char.toNat

/-- Not later. -/
def Spec.Entry.NotAfter {κ β : Type} (a b : Entry κ β) : Prop := ¬ momentKey (b.date, b.clock) < momentKey (a.date, a.clock)

/-- Earlier, or at the same time and by the first four letters and the number of the station not after. -/
def Spec.Entry.Before {κ β : Type} (a b : Entry κ β) : Prop :=
  momentKey (a.date, a.clock) < momentKey (b.date, b.clock) ∨ momentKey (a.date, a.clock) = momentKey (b.date, b.clock) ∧
    (codes (a.id.take 4) < codes (b.id.take 4) ∨ a.id.take 4 = b.id.take 4 ∧ a.number ≤ b.number)

/-- The host compares coordinates as numbers. -/
structure Spec.Ordered {κ : Type} (le : κ → κ → Bool) : Prop where
  total : ∀ a b, le a b = true ∨ le b a = true
  trans : ∀ a b c, le a b = true → le b c = true → le a c = true

/-! ## Comparisons -/

/-- Both comparisons come from a total preorder. -/
def GoodCmp {γ : Type} (f : γ → γ → Bool × Bool) : Prop :=
  ∃ le : γ → γ → Prop, (∀ a b, le a b ∨ le b a) ∧ (∀ a b c, le a b → le b c → le a c) ∧
    ∀ a b, ((f a b).1 = true ↔ ¬ le b a) ∧ ((f a b).2 = true ↔ ¬ le a b)

theorem GoodCmp.of_key {γ K : Type} [LinearOrder K] (k : γ → K) {f : γ → γ → Bool × Bool}
    (h : ∀ a b, ((f a b).1 = true ↔ k a < k b) ∧ ((f a b).2 = true ↔ k b < k a)) : GoodCmp f := by
  refine ⟨fun a b => k a ≤ k b, fun a b => le_total _ _, fun a b c => le_trans, fun a b => ?_⟩
  rw [(h a b).1, (h a b).2, not_le, not_le]
  exact ⟨Iff.rfl, Iff.rfl⟩

theorem textLt_iff (a b : Text) : textLt a b = true ↔ codes a < codes b := by
  induction a generalizing b with
  | nil =>
    cases b with
    | nil => simp [textLt, codes]
    | cons x s => simp [textLt, codes]
  | cons x s ih =>
    cases b with
    | nil => simp [textLt, codes]
    | cons y t =>
      unfold textLt
      unfold codes at ih ⊢
      rw [List.map_cons, List.map_cons, List.cons_lt_cons_iff, ← ih]
      split
      · rename_i h; simp [h]
      · rename_i h
        split
        · rename_i h2
          simp only [Bool.false_eq_true, false_iff, not_or, not_and]
          exact ⟨h, fun he => by omega⟩
        · rename_i h2
          have : x.toNat = y.toNat := by omega
          simp [this]

theorem good_text {γ : Type} (k : γ → Text) : GoodCmp fun a b => cmpText (k a) (k b) :=
  .of_key (fun a => codes (k a)) fun _ _ => ⟨textLt_iff _ _, textLt_iff _ _⟩

theorem good_int {γ : Type} (k : γ → Int) : GoodCmp fun a b => cmpInt (k a) (k b) :=
  .of_key k fun _ _ => ⟨decide_eq_true_iff, decide_eq_true_iff⟩

theorem good_nat {γ : Type} (k : γ → Nat) : GoodCmp fun a b => cmpNat (k a) (k b) :=
  .of_key k fun _ _ => ⟨decide_eq_true_iff, decide_eq_true_iff⟩

/-- A first comparison decides. -/
theorem lexLe_step (lt gt : Bool) (r : List (Bool × Bool)) : lexLe ((lt, gt) :: r) = if lt then true else if gt then false else lexLe r := rfl

theorem lexLe_cons {lt gt : Bool} {r : List (Bool × Bool)} : lexLe ((lt, gt) :: r) = true ↔ lt = true ∨ gt = false ∧ lexLe r = true := by
  rw [lexLe_step]
  cases lt <;> cases gt <;> simp

theorem lexLe_good {γ : Type} (fs : List (γ → γ → Bool × Bool)) (h : ∀ f ∈ fs, GoodCmp f) :
    (∀ a b, lexLe (fs.map fun f => f a b) = true ∨ lexLe (fs.map fun f => f b a) = true) ∧
    (∀ a b c, lexLe (fs.map fun f => f a b) = true → lexLe (fs.map fun f => f b c) = true → lexLe (fs.map fun f => f a c) = true) := by
  induction fs with
  | nil => exact ⟨fun _ _ => Or.inl rfl, fun _ _ _ _ _ => rfl⟩
  | cons f r ih =>
    obtain ⟨i1, i2⟩ := ih fun g hg => h g (List.mem_cons_of_mem _ hg)
    obtain ⟨le, tot, tr, hf⟩ := h f List.mem_cons_self
    have key : ∀ a b, lexLe ((f :: r).map fun f => f a b) = true ↔ (¬ le b a ∨ le a b ∧ lexLe (r.map fun f => f a b) = true) := by
      intro a b
      rw [List.map_cons]
      obtain ⟨h1, h2⟩ := hf a b
      cases hx : f a b with
      | mk lt gt =>
        rw [hx] at h1 h2
        dsimp only at h1 h2
        rw [lexLe_step]
        cases lt with
        | true => simp [h1.1 rfl]
        | false =>
          have n1 : le b a := by
            by_contra hc
            have := h1.2 hc
            cases this
          cases gt with
          | true => simp [h2.1 rfl, n1]
          | false =>
            have n2 : le a b := by
              by_contra hc
              have := h2.2 hc
              cases this
            simp [n1, n2]
    constructor
    · intro a b
      rw [key, key]
      by_cases h1 : le b a
      · by_cases h2 : le a b
        · rcases i1 a b with hh | hh
          · exact Or.inl (Or.inr ⟨h2, hh⟩)
          · exact Or.inr (Or.inr ⟨h1, hh⟩)
        · exact Or.inr (Or.inl h2)
      · exact Or.inl (Or.inl h1)
    · intro a b c
      rw [key, key, key]
      rintro (h1 | ⟨h1, h1'⟩) (h2 | ⟨h2, h2'⟩)
      · exact Or.inl fun hc => (tot b c).elim (fun hbc => h1 (tr _ _ _ hbc hc)) (fun hcb => by
          rcases tot a b with hab | hba
          · exact h2 (tr _ _ _ hc hab)
          · exact h1 hba)
      · exact Or.inl fun hc => h1 (tr _ _ _ h2 hc)
      · exact Or.inl fun hc => h2 (tr _ _ _ hc h1)
      · by_cases hca : le c a
        · exact Or.inr ⟨tr _ _ _ h1 h2, i2 _ _ _ h1' h2'⟩
        · exact Or.inl hca

theorem codes_inj {a b : Text} (h : codes a = codes b) : a = b :=
  List.map_injective_iff.2 (fun x y hxy => Char.toNat_inj.1 hxy) h

/-! ## Rows -/

theorem nat_lex {x y : Nat} {X Y : List Nat} {r : List (Bool × Bool)} (h : lexLe r = true ↔ ¬ Y < X) :
    lexLe (cmpNat x y :: r) = true ↔ ¬ y :: Y < x :: X := by
  unfold cmpNat
  rw [lexLe_cons, List.cons_lt_cons_iff, h, decide_eq_true_iff, decide_eq_false_iff_not, not_or, not_and]
  constructor
  · rintro (h1 | ⟨h1, h2⟩)
    · exact ⟨by omega, fun he => by omega⟩
    · exact ⟨h1, fun _ => h2⟩
  · rintro ⟨h1, h2⟩
    rcases Nat.lt_or_ge x y with h3 | h3
    · exact Or.inl h3
    · exact Or.inr ⟨h1, h2 (by omega)⟩

theorem row_le (a b : Row) : Row.le a b = true ↔ ¬ momentKey b < momentKey a := by
  unfold Row.le momentKey
  refine nat_lex (nat_lex (nat_lex (nat_lex (nat_lex (nat_lex (nat_lex ?_))))))
  simp [lexLe]

theorem momentKey_inj {a b : Date × Clock} (h : momentKey a = momentKey b) : a = b := by
  obtain ⟨⟨_, _, _⟩, ⟨_, _, _, _⟩⟩ := a
  obtain ⟨⟨_, _, _⟩, ⟨_, _, _, _⟩⟩ := b
  unfold momentKey at h
  simp only [List.cons.injEq, and_true] at h
  obtain ⟨h1, h2, h3, h4, h5, h6, h7⟩ := h
  subst h1 h2 h3 h4 h5 h6 h7
  rfl

theorem rows_sorted (l : List Row) : (l.mergeSort Row.le).Pairwise fun a b => ¬ momentKey b < momentKey a := by
  refine (List.pairwise_mergeSort ?_ ?_ l).imp fun h => (row_le _ _).1 h
  · intro a b c h1 h2
    rw [row_le, not_lt] at *
    exact le_trans h1 h2
  · intro a b
    rw [Bool.or_eq_true, row_le, row_le, not_lt, not_lt]
    exact le_total _ _

/-! ## Columns -/

theorem good_of_le {γ κ : Type} {le : κ → κ → Bool} (h : Ordered le) (k : γ → κ) :
    GoodCmp fun a b => (!le (k b) (k a), !le (k a) (k b)) := by
  refine ⟨fun a b => le (k a) (k b) = true, fun a b => h.total _ _, fun a b c => h.trans _ _ _, fun a b => ?_⟩
  simp

theorem col_le_good {κ : Type} {leK : κ → κ → Bool} (h : Ordered leK) :
    (∀ a b, Col.le leK a b = true ∨ Col.le leK b a = true) ∧
      ∀ a b c, Col.le leK a b = true → Col.le leK b c = true → Col.le leK a c = true := by
  exact lexLe_good (γ := Col κ) [fun a b => cmpText a.stid b.stid, fun a b => cmpInt a.stnm b.stnm,
    fun a b => (!leK b.slat a.slat, !leK a.slat b.slat), fun a b => (!leK b.slon a.slon, !leK a.slon b.slon), fun a b => cmpInt a.selv b.selv,
    fun a b => cmpText a.stat b.stat, fun a b => cmpText a.coun b.coun, fun a b => cmpText a.std2 b.std2, fun a b => cmpInt a.spri b.spri] (by
      intro f hf
      simp only [List.mem_cons, List.not_mem_nil, or_false] at hf
      rcases hf with rfl | rfl | rfl | rfl | rfl | rfl | rfl | rfl | rfl
      · exact good_text Col.stid
      · exact good_int Col.stnm
      · exact good_of_le h Col.slat
      · exact good_of_le h Col.slon
      · exact good_int Col.selv
      · exact good_text Col.stat
      · exact good_text Col.coun
      · exact good_text Col.std2
      · exact good_int Col.spri)

theorem cols_sorted {κ : Type} {leK : κ → κ → Bool} (h : Ordered leK) (l : List (Col κ)) :
    (l.mergeSort (Col.le leK)).Pairwise fun a b => codes a.stid < codes b.stid ∨ a.stid = b.stid ∧ a.stnm ≤ b.stnm := by
  obtain ⟨h1, h2⟩ := col_le_good h
  refine (List.pairwise_mergeSort (le := Col.le leK) (fun a b c => h2 a b c) (fun a b => ?_) l).imp ?_
  · rw [Bool.or_eq_true]
    exact h1 a b
  · intro a b hab
    unfold Col.le at hab
    unfold cmpText at hab
    rw [lexLe_cons, textLt_iff, ← Bool.not_eq_true, textLt_iff] at hab
    rcases hab with hab | ⟨h3, hab⟩
    · exact Or.inl hab
    · unfold cmpInt at hab
      rw [lexLe_cons, decide_eq_true_iff, decide_eq_false_iff_not] at hab
      rcases lt_trichotomy (codes a.stid) (codes b.stid) with h4 | h4 | h4
      · exact Or.inl h4
      · refine Or.inr ⟨codes_inj h4, ?_⟩
        rcases hab with h5 | ⟨h5, _⟩ <;> omega
      · exact absurd h4 h3

/-! ## What is listed -/

theorem sites_sorted (l : List SiteInfo) :
    (l.mergeSort SiteInfo.le).Pairwise fun a b => a.row < b.row ∨ a.row = b.row ∧ a.col ≤ b.col := by
  refine (List.pairwise_mergeSort ?_ ?_ l).imp fun h => ?_
  · intro a b c h1 h2
    unfold SiteInfo.le at *
    rw [decide_eq_true_iff] at *
    omega
  · intro a b
    unfold SiteInfo.le
    rw [Bool.or_eq_true, decide_eq_true_iff, decide_eq_true_iff]
    omega
  · unfold SiteInfo.le at h
    exact of_decide_eq_true h

variable {ρ κ β : Type} [DecidableEq κ] [Inhabited β]

/-- What is listed in order of places is listed in order of times and stations. -/
theorem entries_sorted {env : NumEnv ρ κ} {names : List Text} {L : List ((Row × Col κ) × β)} {b : Builder κ β} (hist : History env names L b)
    (hcap : b.rows + b.columns ≤ mmhdrs) {full : Bool} {l : List SiteInfo} {P : List (Pair κ)} (hP : P.Perm (kept b))
    (hl : l.mergeSort SiteInfo.le = P.map (infoOf env full)) {es : List (Entry κ β)}
    (he : es.map (fun x => (x.place, x.value)) = P.map (content b)) :
    es.Pairwise Entry.NotAfter ∧ (Ordered env.leK → es.Pairwise Entry.Before) := by
  obtain ⟨hr, hc⟩ := hist.headers hcap
  have hsort : P.Pairwise fun p q => p.1.2 < q.1.2 ∨ p.1.2 = q.1.2 ∧ p.2.2 ≤ q.2.2 := by
    have := sites_sorted l
    rw [hl, List.pairwise_map] at this
    exact this
  have hmem : ∀ p ∈ P, b.rowHeaders[p.1.2]? = some p.1.1 ∧ b.columnHeaders[p.2.2]? = some p.2.1 := by
    intro p hp
    exact mem_pairs.1 (List.mem_filter.1 (hP.mem_iff.1 hp)).1
  have hrow : ∀ p ∈ P, ∀ q ∈ P, p.1.2 < q.1.2 → ¬ momentKey q.1.1 < momentKey p.1.1 := by
    intro p hp q hq h
    have hs := rows_sorted b.rowSet.keys
    rw [← hr] at hs
    obtain ⟨i1, e1⟩ := List.getElem?_eq_some_iff.1 (hmem p hp).1
    obtain ⟨i2, e2⟩ := List.getElem?_eq_some_iff.1 (hmem q hq).1
    have := List.pairwise_iff_getElem.1 hs _ _ i1 i2 h
    rwa [e1, e2] at this
  have hrow' : ∀ p ∈ P, ∀ q ∈ P, p.1.2 < q.1.2 → p.1.1 ≠ q.1.1 := by
    intro p hp q hq h heq
    have hnd : b.rowHeaders.Nodup := by
      rw [hr, (List.mergeSort_perm _ _).nodup_iff, hist.rowSet]
      exact (C42_from_iterable _).2.1
    obtain ⟨i1, e1⟩ := List.getElem?_eq_some_iff.1 (hmem p hp).1
    obtain ⟨i2, e2⟩ := List.getElem?_eq_some_iff.1 (hmem q hq).1
    have := (List.Nodup.getElem_inj_iff hnd (hi := i1) (hj := i2)).1 (by rw [e1, e2, heq])
    omega
  have hsame : ∀ p ∈ P, ∀ q ∈ P, p.1.2 = q.1.2 → p.1.1 = q.1.1 := by
    intro p hp q hq h
    have h1 := (hmem p hp).1
    rw [h, (hmem q hq).1] at h1
    exact (Option.some.inj h1).symm
  have step : ∀ R : Entry κ β → Entry κ β → Prop, ∀ S : (Row × Col κ) → (Row × Col κ) → Prop, (∀ x y, S x.place y.place → R x y) →
      (P.Pairwise fun p q => S (p.1.1, p.2.1) (q.1.1, q.2.1)) → es.Pairwise R := by
    intro R S h1 h2
    have h3 : (P.map (content b)).Pairwise fun x y => S x.1 y.1 := List.pairwise_map.2 h2
    rw [← he, List.pairwise_map] at h3
    exact h3.imp fun h => h1 _ _ h
  constructor
  · refine step _ (fun x y => ¬ momentKey y.1 < momentKey x.1) (fun x y h => h) (hsort.imp_of_mem fun hp hq h => ?_)
    rcases h with h | ⟨h, _⟩
    · exact hrow _ hp _ hq h
    · dsimp only
      rw [hsame _ hp _ hq h]
      exact lt_irrefl _
  · intro ho
    refine step _ (fun x y => momentKey x.1 < momentKey y.1 ∨ momentKey x.1 = momentKey y.1 ∧
      (codes x.2.stid < codes y.2.stid ∨ x.2.stid = y.2.stid ∧ x.2.stnm ≤ y.2.stnm)) (fun x y h => h) (hsort.imp_of_mem fun {p q} hp hq h => ?_)
    rcases h with h | ⟨h, h'⟩
    · exact Or.inl (lt_of_le_of_ne (not_lt.1 (hrow _ hp _ hq h)) fun hk => hrow' _ hp _ hq h (momentKey_inj hk))
    · refine Or.inr ⟨by dsimp only; rw [hsame _ hp _ hq h], ?_⟩
      dsimp only
      have hs := cols_sorted ho b.colSet.keys
      rw [← hc] at hs
      obtain ⟨i1, e1⟩ := List.getElem?_eq_some_iff.1 (hmem p hp).2
      obtain ⟨i2, e2⟩ := List.getElem?_eq_some_iff.1 (hmem q hq).2
      rcases Nat.lt_or_ge p.2.2 q.2.2 with h5 | h5
      · have := List.pairwise_iff_getElem.1 hs _ _ i1 i2 h5
        rwa [e1, e2] at this
      · have h6 : p.2.2 = q.2.2 := by omega
        have h7 := (hmem p hp).2
        rw [h6, (hmem q hq).2] at h7
        rw [Option.some.inj h7]
        exact Or.inr ⟨rfl, le_refl _⟩

end Gempak
