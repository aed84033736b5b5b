import Verif.Proof.Tools

/-!
# C41, C42, C44: buffer reader, ordered set, word positions
-/

namespace Gempak
open Spec

/-- C41: for every source and every sequence of buffer calls whose cursor stays at a non-negative position and which
never truncates by zero bytes, the buffer returns exactly what a byte string with a cursor returns (values, remembered
positions, exceptions included) and ends in the corresponding state.
`_partial`: without the restriction on `truncate` the statement is false (`C41_truncate_zero`), and so it is at negative positions
(`C41_negative`, `C41_negative_split`). -/
theorem C41_cursor_partial (src : Bytes) (ops : List BufOp) (htr : ∀ o ∈ ops, o ≠ .truncate 0)
    (c : Cursor) (outs : List BufOut) (h : (Cursor.mk src 0 []).run ops = some (c, outs)) :
    (IOBuffer.ofSource src).run ops = (c.abs, outs) := by
  suffices H : ∀ c0 : Cursor, c0.run ops = some (c, outs) → c0.abs.run ops = (c.abs, outs) from H ⟨src, 0, []⟩ h
  clear h
  induction ops generalizing outs with
  | nil =>
    intro c0 h
    simp only [Cursor.run, Option.some.injEq, Prod.mk.injEq] at h
    obtain ⟨rfl, rfl⟩ := h
    rfl
  | cons o os ih =>
    intro c0 h
    simp only [Cursor.run, Option.bind_eq_bind, Option.bind_eq_some_iff, Prod.exists] at h
    obtain ⟨c1, o1, h1, c2, os1, h2, h3⟩ := h
    simp only [Option.some.injEq, Prod.mk.injEq] at h3
    obtain ⟨rfl, rfl⟩ := h3
    have hs := step_abs c0 o (htr o List.mem_cons_self) c1 o1 h1
    have hr := ih (fun o ho => htr o (List.mem_cons_of_mem _ ho)) os1 c1 h2
    simp only [IOBuffer.run, hs, hr]

example : ∃ c outs, (Cursor.mk [1, 2, 3, 4, 5] 0 []).run
    [.read (some 2), .setMark, .skip (some 2), .jumpTo 0 1, .readInt 9 .big false, .atEnd, .jumpTo 4 0, .truncate 1]
      = some (c, outs) ∧
    outs = [.bytes [1, 2], .int 0, .none, .none, .int 1029, .bool true, .err .indexError, .none] :=
  ⟨_, _, rfl, rfl⟩

/-- C41: reading `a` bytes and then `b` bytes gives the bytes and the state of reading `a + b` bytes at once, at any
non-negative position. -/
theorem C41_split_read (d : Bytes) (p : Nat) (ms : List Int) (a b : Nat) :
    let s : IOBuffer := ⟨d, p, ms⟩
    (s.read (some (a + b : Nat))).2 = (s.read (some a)).2 ++ ((s.read (some a)).1.read (some b)).2 ∧
    (s.read (some (a + b : Nat))).1 = ((s.read (some a)).1.read (some b)).1 := by
  have hslice : ∀ (q n : Nat), pySlice d (q : Int) ((q : Int) + (n : Int)) = (d.drop q).take n := by
    intro q n
    have : (q : Int) + (n : Int) = ((q + n : Nat) : Int) := by simp
    rw [this, pySlice_nat _ _ _ (by omega), Nat.add_sub_cancel_left]
  have hl : ((p : Int) + (((d.drop p).take a).length : Int)) = ((p + min a (d.length - p) : Nat) : Int) := by simp
  simp only [IOBuffer.read, IOBuffer.getNext, IOBuffer.skip, hslice, hl]
  have key : (d.drop p).take (a + b) = (d.drop p).take a ++ (d.drop (p + min a (d.length - p))).take b := by
    rw [List.take_add, List.drop_drop]
    congr 1
    by_cases ha : a ≤ d.length - p
    · rw [Nat.min_eq_left ha]
    · rw [List.drop_eq_nil_of_le (by omega), List.drop_eq_nil_of_le (by omega)]
  refine ⟨key, ?_⟩
  simp only [IOBuffer.mk.injEq, true_and, and_true, List.length_take, List.length_drop]
  omega

example : ((IOBuffer.ofSource [1, 2, 3]).read (some 5)).2 = [1, 2, 3] := rfl

/-- C41: looking ahead and asking whether the end is reached never change what later calls return. -/
theorem C41_pure_queries (s : IOBuffer) (o : BufOp)
    (ho : (∃ n, o = .getNext n) ∨ (∃ n, o = .checkRemains n) ∨ o = .atEnd ∨ ∃ m, o = .offsetFrom m) :
    (s.step o).1 = s := by
  rcases ho with ⟨n, rfl⟩ | ⟨n, rfl⟩ | rfl | ⟨m, rfl⟩
  · rfl
  · rfl
  · rfl
  · simp only [IOBuffer.step]; split <;> rfl

/-- C41, deviation: removing zero bytes from the end removes everything, for every source. -/
theorem C41_truncate_zero (s : IOBuffer) : (s.truncate 0).data = [] := by
  simp [IOBuffer.truncate, pySlice]

/-- C41, deviation: reading an integer where fewer bytes remain succeeds with the value of the shorter byte string. -/
theorem C41_short_int : (IOBuffer.ofSource [7]).step (.readInt 4 .big true) = (⟨[7], 1, []⟩, .int 7) := rfl

/-- C41, deviation: `skip` and `jump_to` accept negative positions; there the buffer reads from its end instead: `n` bytes at position `-p` are
those `p` before the end if `n < p`, and none if `n = p`, without an exception. -/
theorem C41_negative (d : Bytes) (p : Nat) (ms : List Int) (hp : p ≤ d.length) (h0 : 0 < p) :
    (∀ n : Nat, n < p → ((IOBuffer.mk d 0 ms).skip (some (-(p : Int)))).read (some (n : Int)) =
      (⟨d, -(p : Int) + n, ms⟩, (d.drop (d.length - p)).take n)) ∧
    ((IOBuffer.mk d 0 ms).skip (some (-(p : Int)))).read (some (p : Int)) = (⟨d, -(p : Int), ms⟩, []) := by
  have e : (IOBuffer.mk d 0 ms).skip (some (-(p : Int))) = ⟨d, -(p : Int), ms⟩ := by simp [IOBuffer.skip]
  rw [e]
  have hlo : (if (-(p : Int)) < 0 then max (-(p : Int) + d.length) 0 else min (-(p : Int)) d.length) = ((d.length - p : Nat) : Int) := by
    rw [if_pos (by omega)]; omega
  constructor
  · intro n h
    have hs : pySlice d (-(p : Int)) (-(p : Int) + n) = (d.drop (d.length - p)).take n := by
      unfold pySlice
      simp only [hlo]
      rw [if_pos (by omega), Int.toNat_natCast]
      congr 1
      omega
    unfold IOBuffer.read IOBuffer.getNext IOBuffer.skip
    simp only [hs, List.length_take, List.length_drop]
    congr 2
    omega
  · have hs : pySlice d (-(p : Int)) (-(p : Int) + p) = [] := by
      unfold pySlice
      simp only [hlo]
      rw [if_neg (by omega), Int.toNat_natCast, show (min (-(p : Int) + p) d.length - ((d.length - p : Nat) : Int)).toNat = 0 by omega]
      rfl
    unfold IOBuffer.read IOBuffer.getNext IOBuffer.skip
    simp [hs]

/-- C41, deviation: two reads at a negative position need not give what one read gives. -/
theorem C41_negative_split (d : Bytes) (ms : List Int) (h : 2 ≤ d.length) :
    let s := (IOBuffer.mk d 0 ms).skip (some (-2))
    (s.read (some 2)).2 = [] ∧ (s.read (some 1)).2 ++ ((s.read (some 1)).1.read (some 1)).2 = [d[d.length - 2]] := by
  have h2 := C41_negative d 2 ms h (by omega)
  have h1 := C41_negative d 1 ms (by omega) (by omega)
  have e1 : ((IOBuffer.mk d 0 ms).skip (some (-2))).read (some 1) = (⟨d, -1, ms⟩, (d.drop (d.length - 2)).take 1) := h2.1 1 (by omega)
  have e2 : (IOBuffer.mk d (-1) ms).read (some 1) = (⟨d, -1, ms⟩, []) := h1.2
  have e0 : ((IOBuffer.mk d 0 ms).skip (some (-2))).read (some 2) = (⟨d, -2, ms⟩, []) := h2.2
  refine ⟨by rw [e0], ?_⟩
  rw [e1, e2, List.append_nil, List.take_one, List.head?_drop, List.getElem?_eq_getElem (by omega)]
  rfl

/-- C42: after any history of additions and removals the set contains exactly the elements added since they were last
removed, without repetition, iterated in the order of the additions still in effect. -/
theorem C42_ordered_set {α : Type} [DecidableEq α] (ops : List (SetOp α)) :
    (∀ x, x ∈ (OrderedSet.run ops).keys ↔ member x ops = true) ∧
    (OrderedSet.run ops).keys.Nodup ∧
    (OrderedSet.run ops).keys.Pairwise
      (fun a b => ∃ s t, bornAt a ops = some s ∧ bornAt b ops = some t ∧ s < t) := by
  obtain ⟨h1, _, _, h4⟩ := run_invariant ops
  refine ⟨h1, ?_, h4⟩
  refine h4.imp ?_
  rintro a b ⟨s, t, hs, ht, hlt⟩ rfl
  rw [hs] at ht
  simp at ht
  omega

example : (OrderedSet.run [.add 3, .add 1, .add 2, .add 3, .discard 1, .add 1, .discard 9]).keys = [3, 2, 1] := rfl

/-- C42: two sets compare equal exactly when the same elements are iterated in the same order; comparing with another
collection ignores order and repetition. -/
theorem C42_eq {α : Type} [DecidableEq α] (a b : OrderedSet α) (l : List α) :
    (a.beq b = true ↔ a.keys = b.keys) ∧ (a.beqIter l = true ↔ ∀ x, x ∈ a.keys ↔ x ∈ l) := by
  constructor
  · simp [OrderedSet.beq]
  · simp only [OrderedSet.beqIter, Bool.and_eq_true, List.all_eq_true, decide_eq_true_eq]
    exact ⟨fun h x => ⟨h.1 x, h.2 x⟩, fun h => ⟨fun x => (h x).1, fun x => (h x).2⟩⟩

example : (OrderedSet.ofList [1, 2, 1]).beqIter [2, 2, 1] = true := by decide

/-- C42: building from an iterable keeps each element once, at its first place. -/
theorem C42_from_iterable {α : Type} [DecidableEq α] (l : List α) :
    (∀ x, x ∈ (OrderedSet.ofList l).keys ↔ x ∈ l) ∧ (OrderedSet.ofList l).keys.Nodup ∧
    (OrderedSet.ofList l).keys.Pairwise (fun a b => l.idxOf a < l.idxOf b) := by
  induction l using List.reverseRecOn with
  | nil => simp [OrderedSet.ofList]
  | append_singleton l y ih =>
    obtain ⟨h1, h2, h3⟩ := ih
    have hr : OrderedSet.ofList (l ++ [y]) = (OrderedSet.ofList l).add y := by simp [OrderedSet.ofList]
    rw [hr]
    unfold OrderedSet.add
    have hidx : ∀ a, a ∈ (OrderedSet.ofList l).keys → (l ++ [y]).idxOf a = l.idxOf a := by
      intro a ha
      exact List.idxOf_append_of_mem ((h1 a).1 ha)
    have h3' : (OrderedSet.ofList l).keys.Pairwise (fun a b => (l ++ [y]).idxOf a < (l ++ [y]).idxOf b) := by
      refine h3.imp_of_mem ?_
      intro a b ha hb h
      rw [hidx a ha, hidx b hb]; exact h
    split
    · rename_i hy
      refine ⟨fun x => ?_, h2, h3'⟩
      rw [h1 x]
      simp only [List.mem_append, List.mem_singleton]
      constructor
      · exact Or.inl
      · rintro (h | rfl)
        · exact h
        · exact (h1 _).1 hy
    · rename_i hy
      refine ⟨fun x => by simp [h1 x], ?_, ?_⟩
      · exact List.nodup_append.2 ⟨h2, by simp, by
          intro a ha b hb; simp only [List.mem_singleton] at hb; rintro rfl; exact hy (hb ▸ ha)⟩
      · rw [List.pairwise_append]
        refine ⟨h3', by simp, ?_⟩
        intro a ha b hb
        simp only [List.mem_singleton] at hb
        subst hb
        rw [hidx a ha]
        have h5 : b ∉ l := fun h => hy ((h1 b).2 h)
        rw [List.idxOf_append_of_notMem h5]
        have := List.idxOf_lt_length_of_mem ((h1 a).1 ha)
        omega

example : (OrderedSet.ofList [2, 1, 2, 3, 1]).keys = [2, 1, 3] := rfl

/-- C44: a byte position belongs to the word that starts at or up to three bytes before it; word and position
conversions are inverse on word starts, monotone, and steps of one word are steps of four bytes. -/
theorem C44_words (p w : Int) :
    positionToWord (wordToPosition w) = w ∧
    wordToPosition (positionToWord p) ≤ p ∧ p < wordToPosition (positionToWord p) + 4 ∧
    (∀ q, p ≤ q → positionToWord p ≤ positionToWord q) ∧
    wordToPosition (w + 1) = wordToPosition w + 4 ∧
    (0 ≤ p → 1 ≤ positionToWord p) ∧ (∀ v, wordToPosition v = wordToPosition w → v = w) := by
  unfold positionToWord wordToPosition
  refine ⟨by omega, by omega, by omega, fun q h => by omega, by omega, fun h => by omega, fun v h => by omega⟩

example : positionToWord 514 = 129 ∧ wordToPosition 129 = 512 := by decide

end Gempak
