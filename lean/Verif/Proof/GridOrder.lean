import Verif.Proof.Order
import Verif.Proof.GridParse

/-!
# Order of the headers of grids
-/

namespace Gempak
open Spec

/-! ## Specification -/

/-- A time: its type, the initial time from years to microseconds, hours and minutes of the lead. -/
def Spec.When.rank (w : When) : List ℤ :=
  [w.type, w.date.y, w.date.m, w.date.d, w.clock.h, w.clock.mi, w.clock.s, w.clock.us, w.hours, w.minutes]

/-- A grid: its times, levels, the number of its coordinate, and the name filled up to twelve letters. -/
def Spec.GEntry.rank (e : GEntry) : List ℤ :=
  e.first.rank ++ ((match e.second with | none => [] | some w => w.rank) ++
    ([e.level, e.level2, ((coordinates.map Prod.fst).idxOf e.coord : ℤ)] ++ (ljust 12 e.name).map fun c => (c.toNat : ℤ)))

/-! ## Comparisons -/

theorem int_lex {x y : Int} {X Y : List Int} {r : List (Bool × Bool)} (h : x = y → (lexLe r = true ↔ ¬ Y < X)) :
    lexLe (cmpInt x y :: r) = true ↔ ¬ y :: Y < x :: X := by
  unfold cmpInt
  rw [lexLe_cons, List.cons_lt_cons_iff, decide_eq_true_iff, decide_eq_false_iff_not, not_or, not_and]
  rcases lt_trichotomy x y with h1 | h1 | h1
  · exact ⟨fun _ => ⟨by omega, fun he => by omega⟩, fun _ => Or.inl h1⟩
  · rw [h h1]
    exact ⟨fun hh => ⟨by omega, fun _ => by rcases hh with hh | hh; · omega
                                            · exact hh.2⟩, fun hh => Or.inr ⟨by omega, hh.2 h1.symm⟩⟩
  · exact ⟨fun hh => by omega, fun hh => absurd h1 hh.1⟩

theorem cmpNat_cast (x y : Nat) : cmpNat x y = cmpInt x y := by
  unfold cmpNat cmpInt
  simp

theorem natz_lex {x y : Nat} {X Y : List Int} {r : List (Bool × Bool)} (h : x = y → (lexLe r = true ↔ ¬ Y < X)) :
    lexLe (cmpNat x y :: r) = true ↔ ¬ (y : ℤ) :: Y < (x : ℤ) :: X := by
  rw [cmpNat_cast]
  exact int_lex fun he => h (by exact_mod_cast he)

theorem cmpNat_self (x : Nat) (r : List (Bool × Bool)) : lexLe (cmpNat x x :: r) = lexLe r := by
  unfold cmpNat
  rw [lexLe_step]
  simp

theorem text_lex {p q : Text} (hlen : p.length = q.length) {X Y : List Int} {r : List (Bool × Bool)}
    (h : p = q → (lexLe r = true ↔ ¬ Y < X)) :
    lexLe (cmpText p q :: r) = true ↔ ¬ (q.map fun c => (c.toNat : ℤ)) ++ Y < (p.map fun c => (c.toNat : ℤ)) ++ X := by
  induction p generalizing q with
  | nil =>
    obtain rfl := List.length_eq_zero_iff.1 hlen.symm
    exact h rfl
  | cons x s ih =>
    cases q with
    | nil => cases hlen
    | cons y t =>
      have ih := ih (q := t) (by simpa using hlen)
      rw [List.map_cons, List.map_cons, List.cons_append, List.cons_append, List.cons_lt_cons_iff, not_or, not_and]
      rcases lt_trichotomy x.toNat y.toNat with h1 | h1 | h1
      · have e1 : cmpText (x :: s) (y :: t) = (true, false) := by
          unfold cmpText textLt
          rw [if_pos h1, if_neg (by omega), if_pos h1]
        rw [e1, lexLe_step]
        simp only [if_true, true_iff]
        exact ⟨by omega, fun he => by omega⟩
      · obtain rfl := Char.toNat_inj.1 h1
        have e1 : cmpText (x :: s) (x :: t) = cmpText s t := by
          unfold cmpText
          rw [textLt, if_neg (lt_irrefl _), if_neg (lt_irrefl _), textLt, if_neg (lt_irrefl _), if_neg (lt_irrefl _)]
        rw [e1, ih fun he => h (by rw [he])]
        exact ⟨fun hh => ⟨lt_irrefl _, fun _ => hh⟩, fun hh => hh.2 rfl⟩
      · have e1 : cmpText (x :: s) (y :: t) = (false, true) := by
          unfold cmpText textLt
          rw [if_neg (by omega), if_pos h1, if_pos h1]
        rw [e1, lexLe_step]
        simp only [Bool.false_eq_true, if_false, if_true, false_iff, not_and]
        intro hh
        omega

/-- One of two times. -/
theorem when_lex {a b : When} {X Y : List Int} {r : List (Bool × Bool)} (h : a = b → (lexLe r = true ↔ ¬ Y < X)) :
    lexLe (cmpGDate a.gdate b.gdate ++ (cmpGTime a.gtime b.gtime ++ r)) = true ↔ ¬ b.rank ++ Y < a.rank ++ X := by
  obtain ⟨t, ⟨y, m, d⟩, ⟨hh, mi, s, us⟩, hr, mn⟩ := a
  obtain ⟨t', ⟨y', m', d'⟩, ⟨hh', mi', s', us'⟩, hr', mn'⟩ := b
  unfold cmpGDate cmpGTime When.rank When.gdate When.gtime
  dsimp only [List.cons_append, List.nil_append]
  refine natz_lex fun h0 => natz_lex fun h1 => natz_lex fun h2 => natz_lex fun h3 => natz_lex fun h4 => natz_lex fun h5 =>
    natz_lex fun h6 => natz_lex fun h7 => ?_
  subst h0
  rw [cmpNat_self]
  refine int_lex fun h8 => int_lex fun h9 => h ?_
  rw [h1, h2, h3, h4, h5, h6, h7, h8, h9]

/-- Two headers that can be compared. -/
theorem gcol_le {a b : GEntry} (ha : a.name.length ≤ 12) (hb : b.name.length ≤ 12) (hc : a.first = b.first → (a.second = none ↔ b.second = none)) :
    GCol.le a.col b.col = true ↔ ¬ b.rank < a.rank := by
  have hlen : ∀ s : Text, s.length ≤ 12 → (ljust 12 s).length = 12 := by
    intro s hs
    unfold ljust
    rw [List.length_append, List.length_replicate]
    omega
  unfold GCol.le GEntry.rank
  rw [List.append_assoc, List.append_assoc, List.append_assoc]
  refine when_lex fun h1 => ?_
  have hc := hc h1
  have last : lexLe [cmpInt a.col.glv1 b.col.glv1, cmpInt a.col.glv2 b.col.glv2, cmpNat a.col.gvcd b.col.gvcd, cmpText a.col.gpm1 b.col.gpm1,
      cmpText a.col.gpm2 b.col.gpm2, cmpText a.col.gpm3 b.col.gpm3] = true ↔
      ¬ [b.level, b.level2, ((coordinates.map Prod.fst).idxOf b.coord : ℤ)] ++ ((ljust 12 b.name).map fun c => (c.toNat : ℤ)) <
        [a.level, a.level2, ((coordinates.map Prod.fst).idxOf a.coord : ℤ)] ++ (ljust 12 a.name).map fun c => (c.toNat : ℤ) := by
    refine int_lex fun _ => int_lex fun _ => natz_lex fun _ => ?_
    have ea := hlen _ ha
    have eb := hlen _ hb
    rw [← chunks_join a.name, ← chunks_join b.name]
    show lexLe [cmpText (chunks a.name).1 (chunks b.name).1, cmpText (chunks a.name).2.1 (chunks b.name).2.1,
      cmpText (chunks a.name).2.2 (chunks b.name).2.2] = true ↔ _
    simp only [List.map_append, List.append_assoc, List.nil_append]
    refine text_lex (by unfold chunks; simp [ea, eb]) fun _ => text_lex (by unfold chunks; simp [ea, eb]) fun _ => ?_
    rw [← List.append_nil (List.map _ (chunks a.name).2.2), ← List.append_nil (List.map _ (chunks b.name).2.2)]
    refine text_lex (by unfold chunks; simp [ea, eb]) fun _ => ?_
    simp [lexLe]
  cases e1 : a.second with
  | none =>
    have e2 := hc.1 e1
    have f1 : a.col.gdt2 = none := by unfold GEntry.col; rw [e1]; rfl
    have f2 : b.col.gdt2 = none := by unfold GEntry.col; rw [e2]; rfl
    have g1 : a.col.gtm2 = ⟨0, 0, 0⟩ := by unfold GEntry.col; rw [e1]; rfl
    have g2 : b.col.gtm2 = ⟨0, 0, 0⟩ := by unfold GEntry.col; rw [e2]; rfl
    rw [f1, f2, g1, g2, e2]
    exact last
  | some w =>
    cases e2 : b.second with
    | none =>
      rw [hc.2 e2] at e1
      cases e1
    | some v =>
      have f1 : a.col.gdt2 = some w.gdate := by unfold GEntry.col; rw [e1]; rfl
      have f2 : b.col.gdt2 = some v.gdate := by unfold GEntry.col; rw [e2]; rfl
      have g1 : a.col.gtm2 = w.gtime := by unfold GEntry.col; rw [e1]; rfl
      have g2 : b.col.gtm2 = v.gtime := by unfold GEntry.col; rw [e2]; rfl
      rw [f1, f2, g1, g2]
      exact when_lex fun _ => last

/-- Headers sorted, entries in order. -/
theorem grids_sorted {P : List GEntry} {ks : List GCol} (hP : P.map GEntry.col = ks.mergeSort GCol.le) (hl : ∀ x ∈ P, x.name.length ≤ 12)
    (hc : ∀ a ∈ P, ∀ b ∈ P, a.first = b.first → (a.second = none ↔ b.second = none)) : P.Pairwise fun a b => ¬ b.rank < a.rank := by
  obtain ⟨Q, hQ, hks⟩ : ∃ Q : List GEntry, Q.Perm P ∧ Q.map GEntry.col = ks :=
    perm_map_inv (hP ▸ (List.mergeSort_perm ks GCol.le).symm) |>.imp fun Q h => ⟨h.1, h.2⟩
  have hle : ∀ a ∈ P, ∀ b ∈ P, (GCol.le a.col b.col = true ↔ ¬ b.rank < a.rank) := fun a ha b hb => gcol_le (hl a ha) (hl b hb) (hc a ha b hb)
  have h1 : (Q.mergeSort fun a b => GCol.le a.col b.col).map GEntry.col = ks.mergeSort GCol.le := by
    rw [← hks]
    exact List.map_mergeSort fun _ _ _ _ => rfl
  have h2 : (Q.mergeSort fun a b => GCol.le a.col b.col).map id = (Q.map id).mergeSort fun a b => decide (¬ b.rank < a.rank) := by
    refine List.map_mergeSort fun a ha b hb => ?_
    rw [Bool.eq_iff_iff, decide_eq_true_iff]
    exact hle a (hQ.mem_iff.1 ha) b (hQ.mem_iff.1 hb)
  rw [List.map_id, List.map_id] at h2
  have h3 : (Q.mergeSort fun a b => GCol.le a.col b.col).Pairwise fun a b => ¬ b.rank < a.rank := by
    rw [h2]
    refine (List.pairwise_mergeSort ?_ ?_ Q).imp fun h => of_decide_eq_true h
    · intro a b c u v
      rw [decide_eq_true_iff, not_lt] at *
      exact le_trans u v
    · intro a b
      rw [Bool.or_eq_true, decide_eq_true_iff, decide_eq_true_iff, not_lt, not_lt]
      exact le_total _ _
  have h4 : (P.map GEntry.col).Pairwise fun a b => GCol.le a b = true := by
    rw [hP, ← h1, List.pairwise_map]
    refine h3.imp_of_mem fun {a b} ha hb h => ?_
    rw [List.mem_mergeSort] at ha hb
    exact (hle a (hQ.mem_iff.1 ha) b (hQ.mem_iff.1 hb)).2 h
  rw [List.pairwise_map] at h4
  exact h4.imp_of_mem fun {a b} ha hb h => (hle a ha b hb).1 h

end Gempak
