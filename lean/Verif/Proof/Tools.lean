import Verif.Spec.Tools
import Verif.Proof.Struct
import Mathlib.Data.List.Induction
import Mathlib.Data.List.Sort

/-! Helper lemmas for the buffer reader and the ordered set. -/

namespace Gempak

theorem pySlice_nat {α : Type} (l : List α) (a b : Nat) (h : a ≤ b) :
    pySlice l (a : Int) (b : Int) = (l.drop a).take (b - a) := by
  unfold pySlice
  simp only [Int.natCast_nonneg, Int.not_lt.mpr, if_false]
  by_cases ha : a ≤ l.length
  · have e1 : (min (a : Int) l.length).toNat = a := by omega
    rw [e1]
    by_cases hb : b ≤ l.length
    · have e2 : (min (b : Int) l.length - min (a : Int) l.length).toNat = b - a := by omega
      rw [e2]
    · have e2 : (min (b : Int) l.length - min (a : Int) l.length).toNat = l.length - a := by omega
      rw [e2, List.take_of_length_le (by simp), List.take_of_length_le (by simp; omega)]
  · rw [List.drop_eq_nil_of_le (by omega), List.drop_eq_nil_of_le (by omega)]
    simp

theorem pySlice_tail {α : Type} (l : List α) (a : Nat) : pySlice l (a : Int) (l.length : Int) = l.drop a := by
  by_cases h : a ≤ l.length
  · rw [pySlice_nat l a _ h, List.take_of_length_le (by simp)]
  · unfold pySlice
    dsimp only
    rw [List.drop_eq_nil_of_le (by split <;> omega), List.drop_eq_nil_of_le (by omega)]
    simp

theorem pySlice_prefix {α : Type} (l : List α) (b : Nat) : pySlice l 0 (b : Int) = l.take b := by
  have := pySlice_nat l 0 b (by omega)
  simpa using this

theorem pySlice_neg {α : Type} (l : List α) (n : Nat) (h : n ≠ 0) :
    pySlice l 0 (-(n : Int)) = l.take (l.length - n) := by
  unfold pySlice
  have h1 : (-(n : Int)) < 0 := by omega
  have h2 : ¬ ((0 : Int) < 0) := by omega
  simp only [h1, if_true, h2, if_false]
  have e1 : (min (0 : Int) l.length).toNat = 0 := by omega
  have e2 : (max (-(n : Int) + l.length) 0 - min (0 : Int) l.length).toNat = l.length - n := by omega
  rw [e1, e2, List.drop_zero]

/-- The buffer state that a cursor describes. -/
def Spec.Cursor.abs (c : Spec.Cursor) : IOBuffer := ⟨c.bytes, c.pos, c.marks.map Int.ofNat⟩

theorem marks_getElem? (l : List Nat) (m : Nat) :
    (l.map Int.ofNat)[m]? = (l[m]?).map Int.ofNat := by simp

theorem unpackItems_take (e : Endian) (fs : List Fmt) (b : Bytes) :
    unpackItems e fs (b.take (fmtSize fs)) = unpackItems e fs b := by
  induction fs generalizing b with
  | nil => rfl
  | cons f fs ih =>
    have hs : fmtSize (f :: fs) = f.size + fmtSize fs := by simp [fmtSize]
    unfold unpackItems
    rw [hs, List.take_take, Nat.min_eq_left (by omega), List.drop_take, Nat.add_sub_cancel_left, ih]

theorem getNext_abs (c : Spec.Cursor) (n : Option Nat) :
    c.abs.getNext (n.map Int.ofNat) =
      match n with | none => c.bytes.drop c.pos | some n => (c.bytes.drop c.pos).take n := by
  cases n with
  | none => simp only [Option.map_none, IOBuffer.getNext, Spec.Cursor.abs]; exact pySlice_tail _ _
  | some n =>
    simp only [Option.map_some, IOBuffer.getNext, Spec.Cursor.abs]
    have : (c.pos : Int) + Int.ofNat n = ((c.pos + n : Nat) : Int) := by simp
    rw [this, pySlice_nat _ _ _ (by omega), Nat.add_sub_cancel_left]

/-- One operation follows the cursor. -/
theorem step_abs (c : Spec.Cursor) (o : BufOp) (ho : o ≠ .truncate 0) (c' : Spec.Cursor) (out : BufOut)
    (h : c.step o = some (c', out)) : c.abs.step o = (c'.abs, out) := by
  cases o with
  | read n =>
    have hg := getNext_abs c n
    simp only [IOBuffer.step, IOBuffer.read]
    rw [hg]
    cases n with
    | none =>
      simp only [Spec.Cursor.step, Option.some.injEq, Prod.mk.injEq] at h
      obtain ⟨rfl, rfl⟩ := h
      simp only [IOBuffer.skip, Spec.Cursor.abs, List.length_drop, Prod.mk.injEq, and_true, IOBuffer.mk.injEq, true_and]
      omega
    | some n =>
      simp only [Spec.Cursor.step, Option.some.injEq, Prod.mk.injEq] at h
      obtain ⟨rfl, rfl⟩ := h
      simp only [IOBuffer.skip, Spec.Cursor.abs, List.length_take, List.length_drop, Prod.mk.injEq, and_true,
        IOBuffer.mk.injEq, true_and]
      omega
  | getNext n =>
    simp only [IOBuffer.step]
    rw [getNext_abs c n]
    cases n <;>
      (simp only [Spec.Cursor.step, Option.some.injEq, Prod.mk.injEq] at h; obtain ⟨rfl, rfl⟩ := h; rfl)
  | skip n =>
    cases n with
    | none =>
      simp only [Spec.Cursor.step, Option.some.injEq, Prod.mk.injEq] at h; obtain ⟨rfl, rfl⟩ := h; rfl
    | some n =>
      simp only [Spec.Cursor.step, Spec.Cursor.moveTo] at h
      split at h
      · simp at h
      · rename_i hn
        simp only [Option.map_some, Option.some.injEq, Prod.mk.injEq] at h; obtain ⟨rfl, rfl⟩ := h
        simp only [IOBuffer.step, IOBuffer.skip, Spec.Cursor.abs, Prod.mk.injEq, and_true, IOBuffer.mk.injEq, true_and]
        omega
  | setMark =>
    simp only [Spec.Cursor.step, Option.some.injEq, Prod.mk.injEq] at h; obtain ⟨rfl, rfl⟩ := h
    simp [IOBuffer.step, IOBuffer.setMark, Spec.Cursor.abs]
  | jumpTo m off =>
    simp only [Spec.Cursor.step] at h
    simp only [IOBuffer.step, IOBuffer.jumpTo, Spec.Cursor.abs, marks_getElem?]
    cases hm : c.marks[m]? with
    | none => simp only [hm, Option.some.injEq, Prod.mk.injEq] at h; obtain ⟨rfl, rfl⟩ := h; rfl
    | some p =>
      simp only [hm, Spec.Cursor.moveTo] at h
      split at h
      · simp at h
      · rename_i hn
        simp only [Option.map_some, Option.some.injEq, Prod.mk.injEq] at h; obtain ⟨rfl, rfl⟩ := h
        simp only [Option.map_some, Prod.mk.injEq, and_true, IOBuffer.mk.injEq, true_and]
        simp; omega
  | offsetFrom m =>
    simp only [Spec.Cursor.step] at h
    simp only [IOBuffer.step, IOBuffer.offsetFrom, Spec.Cursor.abs, marks_getElem?]
    cases hm : c.marks[m]? with
    | none => simp only [hm, Option.some.injEq, Prod.mk.injEq] at h; obtain ⟨rfl, rfl⟩ := h; rfl
    | some p => simp only [hm, Option.some.injEq, Prod.mk.injEq] at h; obtain ⟨rfl, rfl⟩ := h; rfl
  | clearMarks =>
    simp only [Spec.Cursor.step, Option.some.injEq, Prod.mk.injEq] at h; obtain ⟨rfl, rfl⟩ := h; rfl
  | reset =>
    simp only [Spec.Cursor.step, Option.some.injEq, Prod.mk.injEq] at h; obtain ⟨rfl, rfl⟩ := h; rfl
  | readInt n e sg =>
    have hg := getNext_abs c (some n)
    simp only [Option.map_some] at hg
    simp only [Spec.Cursor.step, Option.some.injEq, Prod.mk.injEq] at h
    obtain ⟨rfl, rfl⟩ := h
    simp only [IOBuffer.step, IOBuffer.readInt, IOBuffer.read]
    have hg' : c.abs.getNext (some (n : Int)) = (c.bytes.drop c.pos).take n := hg
    rw [hg']
    simp only [IOBuffer.skip, Spec.Cursor.abs, List.length_take, List.length_drop, Prod.mk.injEq, and_true,
      IOBuffer.mk.injEq, true_and]
    omega
  | readStruct e fs =>
    simp only [Spec.Cursor.step] at h
    simp only [IOBuffer.step, IOBuffer.readStruct, unpackFrom, Spec.Cursor.abs]
    have h0 : ¬ ((c.pos : Int) < 0) := by omega
    simp only [h0, if_false, Int.toNat_natCast]
    split at h
    · rename_i hle
      simp only [Option.some.injEq, Prod.mk.injEq] at h; obtain ⟨rfl, rfl⟩ := h
      simp only [hle, if_true, bind, Except.bind, IOBuffer.skip, Prod.mk.injEq, IOBuffer.mk.injEq, true_and, and_true]
      refine ⟨by simp, ?_⟩
      rw [unpackItems_take]
    · rename_i hle
      simp only [Option.some.injEq, Prod.mk.injEq] at h; obtain ⟨rfl, rfl⟩ := h
      simp only [hle, if_false, bind, Except.bind]
  | splice m d =>
    simp only [Spec.Cursor.step] at h
    simp only [IOBuffer.step, IOBuffer.splice, IOBuffer.jumpTo, Spec.Cursor.abs, marks_getElem?]
    cases hm : c.marks[m]? with
    | none => simp only [hm, Option.some.injEq, Prod.mk.injEq] at h; obtain ⟨rfl, rfl⟩ := h; rfl
    | some p =>
      simp only [hm, Option.some.injEq, Prod.mk.injEq] at h; obtain ⟨rfl, rfl⟩ := h
      simp only [Option.map_some, bind, Except.bind]
      have : (Int.ofNat p + 0 : Int) = (p : Int) := by simp
      rw [this, pySlice_prefix]
  | truncate n =>
    simp only [Spec.Cursor.step, Option.some.injEq, Prod.mk.injEq] at h; obtain ⟨rfl, rfl⟩ := h
    simp only [IOBuffer.step, IOBuffer.truncate, Spec.Cursor.abs]
    rw [pySlice_neg _ _ (by rintro rfl; exact ho rfl)]
  | checkRemains n =>
    simp only [Spec.Cursor.step, Option.some.injEq, Prod.mk.injEq] at h; obtain ⟨rfl, rfl⟩ := h
    have hp : pySlice c.abs.data c.abs.offset (c.abs.data.length : Int) = c.bytes.drop c.pos := pySlice_tail _ _
    simp only [IOBuffer.step, IOBuffer.checkRemains, hp, Prod.mk.injEq, BufOut.bool.injEq, true_and, decide_eq_decide,
      List.length_drop]
    omega
  | atEnd =>
    simp only [Spec.Cursor.step, Option.some.injEq, Prod.mk.injEq] at h; obtain ⟨rfl, rfl⟩ := h
    simp [IOBuffer.step, IOBuffer.atEnd, Spec.Cursor.abs]

/-! ## Ordered set -/

section
variable {α : Type} [DecidableEq α]

/-- The set after a history. -/
def OrderedSet.run (ops : List (SetOp α)) : OrderedSet α := ops.foldl OrderedSet.step ⟨[]⟩

theorem run_append (ops : List (SetOp α)) (o : SetOp α) :
    OrderedSet.run (ops ++ [o]) = (OrderedSet.run ops).step o := by simp [OrderedSet.run]

theorem member_append (x : α) (ops : List (SetOp α)) (o : SetOp α) :
    Spec.member x (ops ++ [o]) = match o with
      | .add y => if y = x then true else Spec.member x ops
      | .discard y => if y = x then false else Spec.member x ops := by
  simp only [Spec.member, List.foldl_append, List.foldl_cons, List.foldl_nil]
  cases o <;> rfl

theorem bornAt_append (x : α) (ops : List (SetOp α)) (o : SetOp α) :
    Spec.bornAt x (ops ++ [o]) = match o with
      | .add y => if y = x then (match Spec.bornAt x ops with | some t => some t | none => some ops.length)
          else Spec.bornAt x ops
      | .discard y => if y = x then none else Spec.bornAt x ops := by
  simp only [Spec.bornAt, List.zipIdx_append, List.zipIdx_cons, List.zipIdx_nil, List.foldl_append, List.foldl_cons,
    List.foldl_nil, Nat.zero_add]
  cases o <;> rfl

theorem run_invariant (ops : List (SetOp α)) :
    (∀ x, x ∈ (OrderedSet.run ops).keys ↔ Spec.member x ops = true) ∧
    (∀ x, (Spec.bornAt x ops).isSome = Spec.member x ops) ∧
    (∀ x t, Spec.bornAt x ops = some t → t < ops.length) ∧
    (OrderedSet.run ops).keys.Pairwise
      (fun a b => ∃ s t, Spec.bornAt a ops = some s ∧ Spec.bornAt b ops = some t ∧ s < t) := by
  induction ops using List.reverseRecOn with
  | nil => simp [OrderedSet.run, Spec.member, Spec.bornAt]
  | append_singleton ops o ih =>
    obtain ⟨h1, h2, h3, h4⟩ := ih
    have h2' : ∀ x, (Spec.bornAt x (ops ++ [o])).isSome = Spec.member x (ops ++ [o]) := by
      intro x
      rw [bornAt_append, member_append]
      cases o with
      | add y =>
        dsimp only
        by_cases hy : y = x
        · simp only [hy, if_true]; cases Spec.bornAt x ops <;> rfl
        · simp only [hy, if_false]; exact h2 x
      | discard y =>
        dsimp only
        by_cases hy : y = x
        · simp [hy]
        · simp only [hy, if_false]; exact h2 x
    have h3' : ∀ x t, Spec.bornAt x (ops ++ [o]) = some t → t < (ops ++ [o]).length := by
      intro x t h
      rw [bornAt_append] at h
      simp only [List.length_append, List.length_cons, List.length_nil]
      cases o with
      | add y =>
        dsimp only at h
        by_cases hy : y = x
        · simp only [hy, if_true] at h
          cases hb : Spec.bornAt x ops with
          | none => rw [hb] at h; simp at h; omega
          | some s => rw [hb] at h; simp at h; have := h3 x s hb; omega
        · simp only [hy, if_false] at h; have := h3 x t h; omega
      | discard y =>
        dsimp only at h
        by_cases hy : y = x
        · simp [hy] at h
        · simp only [hy, if_false] at h; have := h3 x t h; omega
    refine ⟨?_, h2', h3', ?_⟩
    · intro x
      rw [run_append, member_append]
      cases o with
      | add y =>
        dsimp only [OrderedSet.step, OrderedSet.add]
        by_cases hy : y = x
        · subst hy; simp only [if_true, iff_true]; split <;> simp_all
        · simp only [hy, if_false]
          split
          · exact h1 x
          · simp only [List.mem_append, List.mem_singleton]
            rw [h1 x]
            constructor
            · rintro (h | h)
              · exact h
              · exact absurd h.symm hy
            · exact Or.inl
      | discard y =>
        dsimp only [OrderedSet.step, OrderedSet.discard]
        by_cases hy : y = x
        · subst hy; simp
        · simp only [hy, if_false]
          rw [List.mem_filter, h1 x]
          simp only [ne_eq, decide_not, Bool.not_eq_eq_eq_not, Bool.not_true, decide_eq_false_iff_not,
            and_iff_left_iff_imp]
          intro _ hxy
          exact hy hxy.symm
    · rw [run_append]
      cases o with
      | add y =>
        dsimp only [OrderedSet.step, OrderedSet.add]
        have keep : ∀ a, a ∈ (OrderedSet.run ops).keys →
            Spec.bornAt a (ops ++ [SetOp.add y]) = Spec.bornAt a ops := by
          intro a ha
          rw [bornAt_append]
          dsimp only
          split
          · have := h2 a
            rw [(h1 a).1 ha] at this
            cases hb : Spec.bornAt a ops with
            | none => rw [hb] at this; simp at this
            | some s => rfl
          · rfl
        have h4' : (OrderedSet.run ops).keys.Pairwise
            (fun a b => ∃ s t, Spec.bornAt a (ops ++ [SetOp.add y]) = some s ∧
              Spec.bornAt b (ops ++ [SetOp.add y]) = some t ∧ s < t) := by
          refine h4.imp_of_mem ?_
          intro a b ha hb h
          rw [keep a ha, keep b hb]; exact h
        split
        · exact h4'
        · rename_i hy
          rw [List.pairwise_append]
          refine ⟨h4', by simp, ?_⟩
          intro a ha b hb
          simp only [List.mem_singleton] at hb
          subst hb
          have hmb : Spec.member b ops = false := by
            have := h1 b
            cases hm : Spec.member b ops
            · rfl
            · exact absurd (this.2 hm) hy
          have hbn : Spec.bornAt b ops = none := by
            have := h2 b
            rw [hmb] at this
            cases hb : Spec.bornAt b ops with
            | none => rfl
            | some s => rw [hb] at this; simp at this
          have hbb : Spec.bornAt b (ops ++ [SetOp.add b]) = some ops.length := by
            rw [bornAt_append]; simp [hbn]
          have hma := h2 a
          rw [(h1 a).1 ha] at hma
          cases hs : Spec.bornAt a ops with
          | none => rw [hs] at hma; simp at hma
          | some s => exact ⟨s, ops.length, by rw [keep a ha, hs], hbb, h3 a s hs⟩
      | discard y =>
        dsimp only [OrderedSet.step, OrderedSet.discard]
        have := h4.filter (fun z => decide (z ≠ y))
        refine this.imp_of_mem ?_
        intro a b ha hb h
        rw [List.mem_filter] at ha hb
        have hay : ¬ y = a := by
          intro h; have := ha.2; simp [h] at this
        have hby : ¬ y = b := by
          intro h; have := hb.2; simp [h] at this
        rw [bornAt_append, bornAt_append]
        simp only [hay, hby, if_false]
        exact h

end
end Gempak
