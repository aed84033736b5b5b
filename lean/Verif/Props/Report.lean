import Mathlib.Data.List.Infix
import Verif.Props.Select

/-!
# Report texts (C38)
-/

namespace Gempak
open Spec

/-! ## Splitting -/

theorem cutFirst_some {sep s a r : Text} (h : cutFirst sep s = some (a, r)) : s = a ++ sep ++ r := by
  induction s generalizing a r with
  | nil =>
    unfold cutFirst at h
    split at h
    · rename_i h0
      have := Option.some.inj h
      obtain ⟨rfl, rfl⟩ := Prod.mk.inj this
      rw [h0]; rfl
    · cases h
  | cons c s ih =>
    unfold cutFirst at h
    split at h
    · rename_i h0
      obtain ⟨rfl, rfl⟩ := Prod.mk.inj (Option.some.inj h)
      obtain ⟨t, ht⟩ := List.isPrefixOf_iff_prefix.1 h0
      rw [← ht, List.drop_left]; rfl
    · obtain ⟨⟨a', r'⟩, h1, h2⟩ := Option.map_eq_some_iff.1 h
      obtain ⟨rfl, rfl⟩ := Prod.mk.inj h2
      rw [ih h1]; rfl

theorem cutFirst_first {sep s a r : Text} (hs : sep ≠ []) (h : cutFirst sep s = some (a, r)) : ¬ sep <:+: a := by
  induction s generalizing a r with
  | nil =>
    unfold cutFirst at h
    rw [if_neg hs] at h
    cases h
  | cons c s ih =>
    unfold cutFirst at h
    split at h
    · obtain ⟨rfl, rfl⟩ := Prod.mk.inj (Option.some.inj h)
      intro hi
      exact hs (List.infix_nil.1 hi)
    · rename_i h0
      obtain ⟨⟨a', r'⟩, h1, h2⟩ := Option.map_eq_some_iff.1 h
      obtain ⟨rfl, rfl⟩ := Prod.mk.inj h2
      intro hi
      rcases List.infix_cons_iff.1 hi with hp | hi
      · apply h0
        rw [List.isPrefixOf_iff_prefix, cutFirst_some h1]
        exact hp.trans ⟨sep ++ r', by simp⟩
      · exact ih h1 hi

theorem cutFirst_none {sep s : Text} (hs : sep ≠ []) (h : cutFirst sep s = none) : ¬ sep <:+: s := by
  induction s with
  | nil => intro hi; exact hs (List.infix_nil.1 hi)
  | cons c s ih =>
    unfold cutFirst at h
    split at h
    · cases h
    · rename_i h0
      intro hi
      rcases List.infix_cons_iff.1 hi with hp | hi
      · exact h0 (List.isPrefixOf_iff_prefix.2 hp)
      · exact ih (Option.map_eq_none_iff.1 h) hi

/-- Pieces put together again with the separator between them. -/
def joinWith (sep : Text) : List Text → Text
  | [] => []
  | [p] => p
  | p :: q :: r => p ++ sep ++ joinWith sep (q :: r)

theorem joinWith_cons {sep p : Text} {l : List Text} (h : l ≠ []) : joinWith sep (p :: l) = p ++ sep ++ joinWith sep l := by
  cases l with
  | nil => exact absurd rfl h
  | cons q r => rfl

theorem splitFuel_ne (sep : Text) (n : Nat) (s : Text) : splitFuel sep n s ≠ [] := by
  cases n with
  | zero => simp [splitFuel]
  | succ n =>
    unfold splitFuel
    split <;> simp

theorem splitFuel_join (sep : Text) (n : Nat) (s : Text) : joinWith sep (splitFuel sep n s) = s := by
  induction n generalizing s with
  | zero => rfl
  | succ n ih =>
    unfold splitFuel
    split
    · rename_i a r h
      rw [joinWith_cons (splitFuel_ne _ _ _), ih, cutFirst_some h]
    · rfl

theorem splitFuel_free {sep : Text} (hs : sep ≠ []) (n : Nat) (s : Text) (hn : s.length ≤ n) : ∀ p ∈ splitFuel sep n s, ¬ sep <:+: p := by
  induction n generalizing s with
  | zero =>
    have : s = [] := List.length_eq_zero_iff.1 (by omega)
    subst this
    intro p hp
    have : p = [] := by simpa [splitFuel] using hp
    subst this
    intro hi
    exact hs (List.infix_nil.1 hi)
  | succ n ih =>
    unfold splitFuel
    split
    · rename_i a r h
      intro p hp
      rcases List.mem_cons.1 hp with rfl | hp
      · exact cutFirst_first hs h
      · refine ih r ?_ p hp
        have := congrArg List.length (cutFirst_some h)
        simp only [List.length_append] at this
        have := List.length_pos_of_ne_nil hs
        omega
    · rename_i h
      intro p hp
      rw [List.mem_singleton] at hp
      subst hp
      exact cutFirst_none hs h

/-- The pieces make up the text, with the separator between them, and contain no separator. -/
theorem splitOn_spec {sep : Text} (hs : sep ≠ []) (s : Text) :
    joinWith sep (splitOn sep s) = s ∧ ∀ p ∈ splitOn sep s, ¬ sep <:+: p :=
  ⟨splitFuel_join sep _ s, splitFuel_free hs _ s (Nat.le_refl _)⟩

/-! ## Reports of one text -/

/-- The station at the beginning of a text: a capital letter, three capital letters or digits, white space. -/
def Spec.StartsWithStation (t stn : Text) : Prop :=
  ∃ a b c d s r, t = a :: b :: c :: d :: s :: r ∧ stn = [a, b, c, d] ∧ ('A' ≤ a ∧ a ≤ 'Z') ∧
    (∀ x ∈ [b, c, d], 'A' ≤ x ∧ x ≤ 'Z' ∨ '0' ≤ x ∧ x ≤ '9') ∧ isSpace s = true

theorem isUpperAZ_iff (c : Char) : isUpperAZ c = true ↔ 'A' ≤ c ∧ c ≤ 'Z' := by
  unfold isUpperAZ
  rw [Bool.and_eq_true, decide_eq_true_eq, decide_eq_true_eq]
  exact Iff.rfl

theorem isDigit09_iff (c : Char) : isDigit09 c = true ↔ '0' ≤ c ∧ c ≤ '9' := by
  unfold isDigit09
  rw [Bool.and_eq_true, decide_eq_true_eq, decide_eq_true_eq]
  exact Iff.rfl

theorem metarStation_some {t stn : Text} : metarStation t = some stn ↔ StartsWithStation t stn := by
  constructor
  · intro h
    unfold metarStation at h
    split at h
    · rename_i a b c d s r
      dsimp only at h
      split at h
      · rename_i hc
        simp only [Bool.and_eq_true, Bool.or_eq_true, isUpperAZ_iff, isDigit09_iff] at hc
        obtain ⟨⟨⟨⟨h1, h2⟩, h3⟩, h4⟩, h5⟩ := hc
        exact ⟨a, b, c, d, s, r, rfl, (Option.some.inj h).symm, h1, by simp [h2, h3, h4], h5⟩
      · cases h
    · cases h
  · rintro ⟨a, b, c, d, s, r, rfl, rfl, h1, h2, h5⟩
    unfold metarStation
    dsimp only
    rw [if_pos]
    simp only [List.mem_cons, List.not_mem_nil, or_false, forall_eq_or_imp, forall_eq] at h2
    simp only [Bool.and_eq_true, Bool.or_eq_true, isUpperAZ_iff, isDigit09_iff]
    exact ⟨⟨⟨⟨h1, h2.1⟩, h2.2.1⟩, h2.2.2⟩, h5⟩

/-- The marker at which a text is split: its station, or four hyphens. -/
def marker (t : Text) : Text := (metarStation t).getD (txt "----")

theorem marker_ne (t : Text) : marker t ≠ [] := by
  unfold marker
  cases h : metarStation t with
  | none => decide +kernel
  | some stn =>
    obtain ⟨a, b, c, d, s, r, _, rfl, _⟩ := metarStation_some.1 h
    simp

theorem splitReports_eq (t : Text) : splitReports t =
    if countOf (marker t) t > 1 then ((splitOn (marker t) t).filter fun s => s ≠ []).map fun s => strip (marker t ++ s) else [strip t] := rfl

theorem joinWith_empty {sep : Text} {l : List Text} (h : ∀ p ∈ l, p = []) : joinWith sep l = (List.replicate (l.length - 1) sep).flatten := by
  induction l with
  | nil => rfl
  | cons p l ih =>
    cases l with
    | nil => simpa [joinWith] using h p
    | cons q r =>
      rw [joinWith_cons (by simp), ih fun p hp => h p (List.mem_cons_of_mem _ hp), h p List.mem_cons_self]
      simp [List.replicate_succ]

/-- C38: no text disappears, except one made of nothing but repeated markers: the pieces between markers make up the text, and
every piece that is not empty is reported behind the marker. -/
theorem C38_split_partial (t : Text) :
    ∃ (mark : Text) (pieces : List Text), (StartsWithStation t mark ∨ (∀ stn, ¬ StartsWithStation t stn) ∧ mark = txt "----") ∧
      joinWith mark pieces = t ∧ (∀ p ∈ pieces, ¬ mark <:+: p) ∧
      splitReports t = if pieces.length ≤ 2 then [strip t] else (pieces.filter fun p => p ≠ []).map fun p => strip (mark ++ p) := by
  obtain ⟨h1, h2⟩ := splitOn_spec (marker_ne t) t
  refine ⟨marker t, splitOn (marker t) t, ?_, h1, h2, ?_⟩
  · unfold marker
    cases h : metarStation t with
    | some stn => exact Or.inl (metarStation_some.1 h)
    | none =>
      refine Or.inr ⟨fun stn hs => ?_, rfl⟩
      rw [metarStation_some.2 hs] at h
      cases h
  · rw [splitReports_eq]
    unfold countOf
    by_cases h : (splitOn (marker t) t).length ≤ 2
    · rw [if_neg (by omega), if_pos h]
    · rw [if_pos (by omega), if_neg h]

theorem splitFuel_repeat {sep : Text} (hs : sep ≠ []) (k n : Nat) (hn : k ≤ n) :
    splitFuel sep n (List.replicate k sep).flatten = List.replicate (k + 1) [] := by
  induction k generalizing n with
  | zero =>
    cases n with
    | zero => rfl
    | succ n =>
      have : cutFirst sep [] = none := by unfold cutFirst; rw [if_neg hs]
      show splitFuel sep (n + 1) [] = [[]]
      unfold splitFuel
      rw [this]
  | succ k ih =>
    obtain ⟨n, rfl⟩ : ∃ m, n = m + 1 := ⟨n - 1, by omega⟩
    obtain ⟨c, r, rfl⟩ := List.exists_cons_of_ne_nil hs
    have hc : cutFirst (c :: r) (List.replicate (k + 1) (c :: r)).flatten = some ([], (List.replicate k (c :: r)).flatten) := by
      rw [List.replicate_succ, List.flatten_cons]
      show cutFirst (c :: r) (c :: (r ++ _)) = _
      unfold cutFirst
      rw [if_pos ((List.isPrefixOf_iff_prefix (l₂ := c :: (r ++ (List.replicate k (c :: r)).flatten))).2 ⟨(List.replicate k (c :: r)).flatten, rfl⟩)]
      refine congrArg some (Prod.ext rfl ?_)
      show List.drop (c :: r).length ((c :: r) ++ _) = _
      rw [List.drop_left]
    unfold splitFuel
    rw [hc]
    dsimp only
    rw [ih n (by omega)]
    rfl

/-- C38: a text yields no report exactly when it consists of four hyphens repeated at least twice. -/
theorem C38_text_dropped (t : Text) : splitReports t = [] ↔ ∃ k, 2 ≤ k ∧ t = (List.replicate k (txt "----")).flatten := by
  constructor
  · intro h
    obtain ⟨mark, pieces, hm, h1, _, h3⟩ := C38_split_partial t
    rw [h] at h3
    split at h3
    · cases h3
    rename_i hl
    have hall : ∀ p ∈ pieces, p = [] := by
      have := List.map_eq_nil_iff.1 h3.symm
      rw [List.filter_eq_nil_iff] at this
      intro p hp
      simpa using this p hp
    rw [joinWith_empty hall] at h1
    obtain ⟨k, hk⟩ : ∃ k, pieces.length - 1 = k + 1 := ⟨pieces.length - 2, by omega⟩
    rcases hm with ⟨a, b, c, d, s, r, ht, rfl, hA, hB, hs⟩ | ⟨_, rfl⟩
    · exfalso
      obtain ⟨k', rfl⟩ : ∃ k', k = k' + 1 := ⟨k - 1, by omega⟩
      rw [hk, ht, List.replicate_succ, List.replicate_succ] at h1
      simp only [List.flatten_cons, List.cons_append, List.nil_append, List.cons.injEq, true_and] at h1
      obtain ⟨rfl, _⟩ := h1
      rw [← isUpperAZ_iff] at hA
      have h65 : 65 ≤ a.toNat ∧ a.toNat ≤ 90 := by
        unfold isUpperAZ at hA
        simpa using hA
      have hx : ∀ n, 65 ≤ n → n ≤ 90 → isSpace (Char.ofNat n) = false := by
        intro n h1 h2
        interval_cases n <;> decide +kernel
      have := hx a.toNat h65.1 h65.2
      rw [Char.ofNat_toNat] at this
      rw [this] at hs
      cases hs
    · exact ⟨pieces.length - 1, by omega, h1.symm⟩
  · rintro ⟨k, hk, rfl⟩
    obtain ⟨k, rfl⟩ : ∃ j, k = j + 2 := ⟨k - 2, by omega⟩
    have hm : marker (List.replicate (k + 2) (txt "----")).flatten = txt "----" := by
      unfold marker
      rw [List.replicate_succ, List.replicate_succ, List.flatten_cons, List.flatten_cons]
      rfl
    have hsp : splitOn (txt "----") (List.replicate (k + 2) (txt "----")).flatten = List.replicate (k + 3) [] := by
      unfold splitOn
      refine splitFuel_repeat (by decide +kernel) _ _ ?_
      have : (txt "----").length = 4 := rfl
      rw [List.length_flatten, List.map_replicate, List.sum_replicate_nat, this]
      omega
    rw [splitReports_eq, hm]
    unfold countOf
    rw [hsp, if_pos (by rw [List.length_replicate]; omega), List.map_eq_nil_iff, List.filter_eq_nil_iff]
    intro p hp
    simp [List.eq_of_mem_replicate hp]

/-! ## Times of special reports -/

/-- Decimal digit. -/
def Spec.digit (n : Nat) : Char := Char.ofNat (48 + n)

/-- A group of two digits each for day, hour and minute, followed by `Z`. -/
def Spec.IsGroup (g : Text) (d h mi : Nat) : Prop :=
  ∃ d1 d2 h1 h2 m1 m2, d1 < 10 ∧ d2 < 10 ∧ h1 < 10 ∧ h2 < 10 ∧ m1 < 10 ∧ m2 < 10 ∧
    g = [digit d1, digit d2, digit h1, digit h2, digit m1, digit m2, 'Z'] ∧ d = 10 * d1 + d2 ∧ h = 10 * h1 + h2 ∧ mi = 10 * m1 + m2

/-- The first such group in a text. -/
def Spec.FirstGroup (t : Text) (d h mi : Nat) : Prop :=
  ∃ pre g post, t = pre ++ g ++ post ∧ IsGroup g d h mi ∧
    ∀ pre' g' post' d' h' mi', t = pre' ++ g' ++ post' → IsGroup g' d' h' mi' → pre.length ≤ pre'.length

theorem digit_facts (n : Nat) (h : n < 10) : isDigit09 (digit n) = true ∧ (digit n).toNat - 48 = n := by
  interval_cases n <;> decide +kernel

theorem digit_of {c : Char} (h : isDigit09 c = true) : c.toNat - 48 < 10 ∧ c = digit (c.toNat - 48) := by
  unfold isDigit09 at h
  rw [Bool.and_eq_true, decide_eq_true_eq, decide_eq_true_eq] at h
  refine ⟨by omega, ?_⟩
  unfold digit
  rw [show 48 + (c.toNat - 48) = c.toNat by omega, Char.ofNat_toNat]

theorem metarTimeAt_some {t : Text} {d h mi : Nat} : metarTimeAt t = some (d, h, mi) ↔ ∃ g post, t = g ++ post ∧ IsGroup g d h mi := by
  constructor
  · intro hh
    unfold metarTimeAt at hh
    split at hh
    · rename_i a b c e f g z r
      split at hh
      · rename_i hc
        simp only [Bool.and_eq_true, decide_eq_true_eq] at hc
        obtain ⟨⟨⟨⟨⟨⟨h1, h2⟩, h3⟩, h4⟩, h5⟩, h6⟩, rfl⟩ := hc
        obtain ⟨e1, e2⟩ := Prod.mk.inj (Option.some.inj hh)
        obtain ⟨e2, e3⟩ := Prod.mk.inj e2
        refine ⟨[a, b, c, e, f, g, 'Z'], r, rfl, _, _, _, _, _, _, (digit_of h1).1, (digit_of h2).1, (digit_of h3).1, (digit_of h4).1,
          (digit_of h5).1, (digit_of h6).1, ?_, ?_, ?_, ?_⟩
        · rw [← (digit_of h1).2, ← (digit_of h2).2, ← (digit_of h3).2, ← (digit_of h4).2, ← (digit_of h5).2, ← (digit_of h6).2]
        · rw [← e1]; unfold twoDigits; omega
        · rw [← e2]; unfold twoDigits; omega
        · rw [← e3]; unfold twoDigits; omega
      · cases hh
    · cases hh
  · rintro ⟨g, post, rfl, d1, d2, h1, h2, m1, m2, b1, b2, b3, b4, b5, b6, rfl, rfl, rfl, rfl⟩
    obtain ⟨x1, y1⟩ := digit_facts d1 b1
    obtain ⟨x2, y2⟩ := digit_facts d2 b2
    obtain ⟨x3, y3⟩ := digit_facts h1 b3
    obtain ⟨x4, y4⟩ := digit_facts h2 b4
    obtain ⟨x5, y5⟩ := digit_facts m1 b5
    obtain ⟨x6, y6⟩ := digit_facts m2 b6
    simp only [List.cons_append, List.nil_append, metarTimeAt, x1, x2, x3, x4, x5, x6, Bool.and_self, twoDigits, y1, y2, y3, y4, y5, y6,
      decide_true, if_true, Nat.mul_comm 10]

theorem metarTime_some {t : Text} {d h mi : Nat} : metarTime t = some (d, h, mi) ↔ FirstGroup t d h mi := by
  induction t with
  | nil =>
    constructor
    · intro h; cases h
    · rintro ⟨pre, g, post, ht, ⟨d1, d2, h1, h2, m1, m2, _, _, _, _, _, _, rfl, _⟩, _⟩
      simp at ht
  | cons c r ih =>
    unfold metarTime
    cases hat : metarTimeAt (c :: r) with
    | some v =>
      obtain ⟨d0, h0, m0⟩ := v
      obtain ⟨g, post, h1, h2⟩ := metarTimeAt_some.1 hat
      have h3 : FirstGroup (c :: r) d0 h0 m0 := ⟨[], g, post, by simpa using h1, h2, fun _ _ _ _ _ _ _ _ => Nat.zero_le _⟩
      show some (d0, h0, m0) = some (d, h, mi) ↔ _
      constructor
      · intro hh
        obtain ⟨rfl, e2⟩ := Prod.mk.inj (Option.some.inj hh)
        obtain ⟨rfl, rfl⟩ := Prod.mk.inj e2
        exact h3
      · rintro ⟨pre, g', post', h4, h5, h6⟩
        have := h6 [] g post d0 h0 m0 (by simpa using h1) h2
        have hp : pre = [] := List.length_eq_zero_iff.1 (by simpa using this)
        subst hp
        have := metarTimeAt_some.2 ⟨g', post', by simpa using h4, h5⟩
        rw [hat] at this
        exact this
    | none =>
      rw [Option.none_or, ih]
      constructor
      · rintro ⟨pre, g, post, h1, h2, h3⟩
        refine ⟨c :: pre, g, post, by rw [h1]; rfl, h2, ?_⟩
        intro pre' g' post' d' h' mi' h4 h5
        cases pre' with
        | nil =>
          have := metarTimeAt_some.2 ⟨g', post', by simpa using h4, h5⟩
          rw [hat] at this
          cases this
        | cons a pre' =>
          obtain ⟨_, h4⟩ := List.cons.inj h4
          exact Nat.succ_le_succ (h3 pre' g' post' d' h' mi' h4 h5)
      · rintro ⟨pre, g, post, h1, h2, h3⟩
        cases pre with
        | nil =>
          have := metarTimeAt_some.2 ⟨g, post, by simpa using h1, h2⟩
          rw [hat] at this
          cases this
        | cons a pre =>
          obtain ⟨rfl, h1'⟩ := List.cons.inj h1
          refine ⟨pre, g, post, h1', h2, ?_⟩
          intro pre' g' post' d' h' mi' h4 h5
          exact Nat.le_of_succ_le_succ (h3 (c :: pre') g' post' d' h' mi' (by rw [h4]; rfl) h5)

/-- C38: a special report whose first day-hour-minute group is a time of the month of the file has that time; any other has the time
of the file, to the minute. -/
theorem C38_special_time (x : Date) (c : Clock) (rpt : Text) :
    (∀ d h mi, FirstGroup rpt d h mi → Date.Valid ⟨x.y, x.m, d⟩ → h < 24 → mi < 60 →
      reportTime x c rpt = (⟨x.y, x.m, d⟩, ⟨h, mi, 0, 0⟩)) ∧
    ((∀ d h mi, FirstGroup rpt d h mi → ¬ (Date.Valid ⟨x.y, x.m, d⟩ ∧ h < 24 ∧ mi < 60)) →
      reportTime x c rpt = (x, ⟨c.h, c.mi, 0, 0⟩)) := by
  constructor
  · intro d h mi hg h1 h2 h3
    unfold reportTime
    rw [metarTime_some.2 hg]
    dsimp only
    rw [if_pos ⟨h1, h2, h3⟩]
  · intro hn
    unfold reportTime
    split
    · rename_i d h mi hm
      rw [if_neg (hn d h mi (metarTime_some.1 hm))]
    · rfl

/-! ## Reports of a cell -/

/-- Text of a parameter, empty when there is none. -/
def Spec.TextOf (values : List (Text × HVal)) (k t : Text) : Prop :=
  dictGet values k = some (.text t) ∨ dictGet values k = none ∧ t = []

/-- Reports the texts of which are wanted. -/
def Spec.pieces (t : Text) : List Text := if t = [] then [] else splitReports t

theorem textValue_of {values : List (Text × HVal)} {k t : Text} (h : TextOf values k t) : textValue values k = .ok t := by
  unfold textValue
  rcases h with h | ⟨h, rfl⟩ <;> rw [h]

theorem dictGet_pop (d : List (Text × HVal)) (k k' : Text) : dictGet (dictPop d k) k' = if k' = k then none else dictGet d k' := by
  unfold dictPop
  induction d with
  | nil => simp [dictGet]
  | cons kv d ih =>
    obtain ⟨a, v⟩ := kv
    by_cases ha : a = k
    · rw [List.filter_cons_of_neg (by simpa using ha), ih]
      split
      · rfl
      · rename_i hk
        rw [dictGet, if_neg (by rw [ha]; exact fun h => hk h.symm)]
    · rw [List.filter_cons_of_pos (by simpa using ha)]
      by_cases hk : a = k'
      · rw [dictGet, if_pos hk, dictGet, if_pos hk, if_neg (by rw [← hk]; exact ha)]
      · rw [dictGet, if_neg hk, dictGet, if_neg hk, ih]

/-- What a report made from `TEXT` holds. -/
structure Spec.IsTextReport (report values : List (Text × HVal)) (piece : Text) (o : List (Text × HVal)) : Prop where
  /-- The piece of text. -/
  text : dictGet o (txt "TEXT") = some (.text piece)
  /-- Everything else is from the values or from the headers, with the date and time of the file. -/
  others : ∀ k, k ≠ txt "TEXT" → k ≠ txt "SPCL" → dictGet o k = (dictGet values k).or (dictGet report k)
  special : dictGet o (txt "SPCL") = none

/-- What a report made from `SPCL` holds; the values only when there is no `TEXT`. -/
structure Spec.IsSpecialReport (report values : List (Text × HVal)) (x : Date) (c : Clock) (alone : Prop) (piece : Text)
    (o : List (Text × HVal)) : Prop where
  text : dictGet o (txt "SPCL") = some (.text piece)
  date : dictGet o (txt "DATE") = some (.date (reportTime x c piece).1)
  time : dictGet o (txt "TIME") = some (.time (reportTime x c piece).2)
  others : ∀ k, k ≠ txt "TEXT" → k ≠ txt "SPCL" → k ≠ txt "DATE" → k ≠ txt "TIME" →
    (alone → dictGet o k = (dictGet values k).or (dictGet report k)) ∧ (¬ alone → dictGet o k = dictGet report k)

theorem getUpdate (d items : List (Text × HVal)) (hn : (items.map Prod.fst).Nodup) (k : Text) :
    dictGet (dictUpdate d items) k = (dictGet items k).or (dictGet d k) := by
  induction items generalizing d with
  | nil => rfl
  | cons kv r ih =>
    obtain ⟨a, v⟩ := kv
    rw [List.map_cons, List.nodup_cons] at hn
    rw [dictUpdate_cons, ih _ hn.2, dictGet_dictSet]
    by_cases hk : a = k
    · subst hk
      have : dictGet r a = none := dictGet_eq_none.2 hn.1
      rw [this, dictGet, if_pos rfl]
      simp
    · rw [dictGet, if_neg hk]
      congr 1
      rw [if_neg]
      first | exact hk | exact fun h => hk h.symm

/-- C38: from the texts of a cell come exactly the reports of their pieces: regular ones with the time of the file, special ones
with their own; headers and values are kept. -/
theorem C38_reports (report values : List (Text × HVal)) (x : Date) (c : Clock) (text spcl : Text)
    (hd : dictGet report (txt "DATE") = some (.date x)) (ht : dictGet report (txt "TIME") = some (.time c))
    (hr : dictGet report (txt "TEXT") = none ∧ dictGet report (txt "SPCL") = none)
    (hv : dictGet values (txt "DATE") = none ∧ dictGet values (txt "TIME") = none) (hn : (values.map Prod.fst).Nodup)
    (htext : TextOf values (txt "TEXT") text) (hspcl : TextOf values (txt "SPCL") spcl) :
    ∃ A B, processText report values = .ok (A ++ B) ∧ List.Forall₂ (IsTextReport report values) (pieces text) A ∧
      List.Forall₂ (IsSpecialReport report values x c (text = [])) (pieces spcl) B := by
  have k1 : txt "TEXT" ≠ txt "SPCL" := by decide +kernel
  have k2 : txt "DATE" ≠ txt "SPCL" := by decide +kernel
  have k3 : txt "TIME" ≠ txt "SPCL" := by decide +kernel
  have k4 : txt "DATE" ≠ txt "TIME" := by decide +kernel
  have k5 : txt "DATE" ≠ txt "TEXT" := by decide +kernel
  have k6 : txt "TIME" ≠ txt "TEXT" := by decide +kernel
  have hrest : ∀ k, k ≠ txt "TEXT" → k ≠ txt "SPCL" → dictGet (dictPop (dictPop values (txt "TEXT")) (txt "SPCL")) k = dictGet values k := by
    intro k h1 h2
    rw [dictGet_pop, if_neg h2, dictGet_pop, if_neg h1]
  have hrs : dictGet (dictPop (dictPop values (txt "TEXT")) (txt "SPCL")) (txt "SPCL") = none := by rw [dictGet_pop, if_pos rfl]
  have hnr : ((dictPop (dictPop values (txt "TEXT")) (txt "SPCL")).map Prod.fst).Nodup := by
    unfold dictPop
    exact hn.sublist ((List.filter_sublist.trans List.filter_sublist).map _)
  unfold processText reportBase
  rw [hd, ht, ok_bind, textValue_of htext, ok_bind, textValue_of hspcl, ok_bind]
  refine ⟨_, _, rfl, ?_, ?_⟩
  · unfold textReports pieces
    split
    · exact .nil
    · rw [List.forall₂_map_right_iff, List.forall₂_same]
      intro r _
      refine ⟨?_, ?_, ?_⟩
      · rw [dictGet_dictSet, if_pos rfl]
      · intro k h1 h2
        rw [dictGet_dictSet, if_neg h1, getUpdate _ _ hnr, hrest k h1 h2]
      · rw [dictGet_dictSet, if_neg (fun h => k1 h.symm), getUpdate _ _ hnr, hrs, hr.2]; rfl
  · unfold spclReports pieces
    split
    · exact .nil
    · rw [List.forall₂_map_right_iff, List.forall₂_same]
      intro r _
      have hset : ∀ (d : List (Text × HVal)) (k k' : Text) (v : HVal), k' ≠ k → dictGet (dictSet d k v) k' = dictGet d k' := by
        intro d k k' v h
        rw [dictGet_dictSet, if_neg h]
      have hget : ∀ (d : List (Text × HVal)) (k : Text) (v : HVal), dictGet (dictSet d k v) k = some v := by
        intro d k v
        rw [dictGet_dictSet, if_pos rfl]
      dsimp only
      refine ⟨hget _ _ _, ?_, ?_, ?_⟩
      · rw [hset _ _ _ _ k2]
        split
        · rw [getUpdate _ _ hnr, hrest _ k5 k2, hv.1, Option.none_or, hset _ _ _ _ k4, hget]
        · rw [hset _ _ _ _ k4, hget]
      · rw [hset _ _ _ _ k3]
        split
        · rw [getUpdate _ _ hnr, hrest _ k6 k3, hv.2, Option.none_or, hget]
        · rw [hget]
      · intro k h1 h2 h3 h4
        rw [hset _ _ _ _ h2]
        constructor
        · intro h0
          rw [if_pos h0, getUpdate _ _ hnr, hrest k h1 h2, hset _ _ _ _ h4, hset _ _ _ _ h3]
        · intro h0
          rw [if_neg h0, hset _ _ _ _ h4, hset _ _ _ _ h3]

/-- C38: a cell with text parameters yields no report at all exactly when both texts are empty or nothing but repeated hyphens, so
its values are lost with them. -/
theorem C38_dropped (report values : List (Text × HVal)) (x : Date) (c : Clock) (text spcl : Text)
    (hd : dictGet report (txt "DATE") = some (.date x)) (ht : dictGet report (txt "TIME") = some (.time c))
    (htext : TextOf values (txt "TEXT") text) (hspcl : TextOf values (txt "SPCL") spcl) :
    processText report values = .ok [] ↔ ∀ t ∈ [text, spcl], t = [] ∨ ∃ k, 2 ≤ k ∧ t = (List.replicate k (txt "----")).flatten := by
  unfold processText reportBase
  rw [hd, ht, ok_bind, textValue_of htext, ok_bind, textValue_of hspcl, ok_bind]
  have h1 : ∀ rest, textReports report rest text = [] ↔ (text = [] ∨ ∃ k, 2 ≤ k ∧ text = (List.replicate k (txt "----")).flatten) := by
    intro rest
    unfold textReports
    split
    · rename_i h; simp [h]
    · rename_i h
      rw [List.map_eq_nil_iff, C38_text_dropped]
      simp [h]
  have h2 : ∀ rest, spclReports report rest (x, c) text spcl = [] ↔ (spcl = [] ∨ ∃ k, 2 ≤ k ∧ spcl = (List.replicate k (txt "----")).flatten) := by
    intro rest
    unfold spclReports
    split
    · rename_i h; simp [h]
    · rename_i h
      rw [List.map_eq_nil_iff, C38_text_dropped]
      simp [h]
  rw [Except.ok.injEq, List.append_eq_nil_iff, h1, h2]
  simp

/-- A text of two reports, a special report with its own time and one with an impossible time. -/
example : splitReports (txt "KDEN 010153Z AUTO KDEN 010253Z CLR") = [txt "KDEN 010153Z AUTO", txt "KDEN 010253Z CLR"] ∧
    reportTime ⟨2020, 2, 1⟩ ⟨1, 0, 0, 0⟩ (txt "KDEN 010153Z AUTO") = (⟨2020, 2, 1⟩, ⟨1, 53, 0, 0⟩) ∧
    reportTime ⟨2020, 2, 1⟩ ⟨1, 0, 0, 0⟩ (txt "KDEN 310153Z AUTO") = (⟨2020, 2, 1⟩, ⟨1, 0, 0, 0⟩) := by
  decide +kernel

end Gempak
