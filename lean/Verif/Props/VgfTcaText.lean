import Verif.Props.VgfTca

/-!
# C86: what is found in the text of an advisory, for any text
-/

namespace Gempak
variable {ν : Type}

/-- The value of a tag ends before the next tag. -/
def Spec.tagNext (rest : Text) : Prop := ∃ r, rest = '<' :: r

/-- Break points may also end with the text, or with a line feed at its end. -/
def Spec.tagOrEnd (rest : Text) : Prop := Spec.tagNext rest ∨ rest = [] ∨ rest = ['\n']

/-- A value with what follows it: not empty, on one line, and nothing shorter is a value. -/
def Spec.TagValue (stop : Text → Prop) (v rest : Text) : Prop :=
  v ≠ [] ∧ '\n' ∉ v ∧ stop rest ∧ ∀ u w, v = u ++ w → u ≠ [] → w ≠ [] → ¬ stop (w ++ rest)

/-- The first value of a tag in a text. -/
def Spec.FirstValue (stop : Text → Prop) (name : String) (s v : Text) : Prop :=
  ∃ pre rest, s = pre ++ ("<tca_" ++ name ++ ">").toList ++ v ++ rest ∧ Spec.TagValue stop v rest ∧
    ∀ pre' v' rest', s = pre' ++ ("<tca_" ++ name ++ ">").toList ++ v' ++ rest' → Spec.TagValue stop v' rest' → pre.length ≤ pre'.length

theorem atTag_iff (s : Text) : atTag s = true ↔ Spec.tagNext s := by
  constructor
  · intro h
    unfold atTag at h
    split at h
    · exact ⟨_, rfl⟩
    · cases h
  · rintro ⟨r, rfl⟩; rfl

theorem atTagOrEnd_iff (s : Text) : atTagOrEnd s = true ↔ Spec.tagOrEnd s := by
  unfold atTagOrEnd Spec.tagOrEnd
  rw [Bool.or_eq_true, Bool.or_eq_true, atTag_iff, decide_eq_true_iff, decide_eq_true_iff, or_assoc]

theorem lazyText_iff {ends : Text → Bool} {stop : Text → Prop} (hs : ∀ s, ends s = true ↔ stop s) : ∀ (t v : Text),
    lazyText ends t = some v ↔ ∃ rest, t = v ++ rest ∧ Spec.TagValue stop v rest := by
  intro t
  induction t with
  | nil =>
    intro v
    constructor
    · intro h; cases h
    · rintro ⟨rest, h, h1, _⟩
      exact absurd (List.append_eq_nil_iff.1 h.symm).1 h1
  | cons c t ih =>
    intro v
    unfold lazyText
    by_cases hc : c = '\n'
    · rw [if_pos hc]
      constructor
      · intro h; cases h
      · rintro ⟨rest, h, h1, h2, _⟩
        cases v with
        | nil => exact absurd rfl h1
        | cons d v =>
          obtain ⟨rfl, _⟩ := List.cons.inj h
          exact absurd (hc ▸ List.mem_cons_self) h2
    rw [if_neg hc]
    by_cases he : ends t = true
    · rw [if_pos he]
      constructor
      · intro h
        obtain rfl := Option.some.inj h
        refine ⟨t, rfl, by simp, by simpa using fun h => hc h.symm, (hs t).1 he, ?_⟩
        intro u w e hu hw
        cases u with
        | nil => exact absurd rfl hu
        | cons _ u =>
          have := congrArg List.length e
          rw [List.length_append, List.length_cons, List.length_nil, List.length_cons] at this
          have : w.length = 0 := by omega
          exact absurd (List.length_eq_zero_iff.1 this) hw
      · rintro ⟨rest, h, h1, h2, h3, h4⟩
        cases v with
        | nil => exact absurd rfl h1
        | cons d v =>
          obtain ⟨rfl, ht⟩ := List.cons.inj h
          cases v with
          | nil => rfl
          | cons x v =>
            refine absurd ((hs _).1 he) ?_
            rw [ht]
            exact h4 [c] (x :: v) rfl (by simp) (by simp)
    · rw [if_neg he, Option.map_eq_some_iff]
      constructor
      · rintro ⟨w, hw, rfl⟩
        obtain ⟨rest, h, h1, h2, h3, h4⟩ := (ih w).1 hw
        refine ⟨rest, by rw [h]; rfl, by simp, ?_, h3, ?_⟩
        · intro hm
          rcases List.mem_cons.1 hm with hm | hm
          · exact hc hm.symm
          · exact h2 hm
        · intro u x e hu hx
          cases u with
          | nil => exact absurd rfl hu
          | cons d u =>
            obtain ⟨rfl, et⟩ := List.cons.inj e
            cases u with
            | nil =>
              rw [← (show w = x from et), ← h]
              exact fun h => he ((hs _).2 h)
            | cons y u => exact h4 (y :: u) x et (by simp) hx
      · rintro ⟨rest, h, h1, h2, h3, h4⟩
        cases v with
        | nil => exact absurd rfl h1
        | cons d v =>
          obtain ⟨rfl, ht⟩ := List.cons.inj h
          refine ⟨v, (ih v).2 ⟨rest, ht, ?_, fun hm => h2 (List.mem_cons_of_mem _ hm), h3, ?_⟩, rfl⟩
          · rintro rfl
            exact he ((hs _).2 (by rw [ht]; exact h3))
          · intro u w e hu hw
            exact h4 (c :: u) w (by rw [e]; rfl) (by simp) hw

theorem searchAfter_iff {ends : Text → Bool} {stop : Text → Prop} (hs : ∀ s, ends s = true ↔ stop s) {tag : Text} (ht : tag ≠ []) :
    ∀ (s v : Text), searchAfter tag ends s = some v ↔ ∃ pre rest, s = pre ++ tag ++ v ++ rest ∧ Spec.TagValue stop v rest ∧
      ∀ pre' v' rest', s = pre' ++ tag ++ v' ++ rest' → Spec.TagValue stop v' rest' → pre.length ≤ pre'.length := by
  intro s
  induction s with
  | nil =>
    intro v
    constructor
    · intro h; cases h
    · rintro ⟨pre, rest, h, _⟩
      have := congrArg List.length h
      have := List.length_pos_iff.2 ht
      simp only [List.length_append, List.length_nil] at *
      omega
  | cons c s ih =>
    intro v
    have hdrop : tag.isPrefixOf (c :: s) = true → c :: s = tag ++ (c :: s).drop tag.length := by
      intro h
      obtain ⟨r, hr⟩ := List.isPrefixOf_iff_prefix.1 h
      rw [← hr, List.drop_left]
    -- a match that does not begin here
    have later : (∀ v' rest', c :: s = tag ++ v' ++ rest' → ¬ Spec.TagValue stop v' rest') →
        ((∃ pre rest, s = pre ++ tag ++ v ++ rest ∧ Spec.TagValue stop v rest ∧
          ∀ pre' v' rest', s = pre' ++ tag ++ v' ++ rest' → Spec.TagValue stop v' rest' → pre.length ≤ pre'.length) ↔
        ∃ pre rest, c :: s = pre ++ tag ++ v ++ rest ∧ Spec.TagValue stop v rest ∧
          ∀ pre' v' rest', c :: s = pre' ++ tag ++ v' ++ rest' → Spec.TagValue stop v' rest' → pre.length ≤ pre'.length) := by
      intro hno
      constructor
      · rintro ⟨pre, rest, h, h1, h2⟩
        refine ⟨c :: pre, rest, by rw [h]; rfl, h1, ?_⟩
        intro pre' v' rest' e hv
        cases pre' with
        | nil => exact absurd hv (hno v' rest' e)
        | cons d pre' => exact Nat.succ_le_succ (h2 pre' v' rest' (List.cons.inj e).2 hv)
      · rintro ⟨pre, rest, h, h1, h2⟩
        cases pre with
        | nil => exact absurd h1 (hno v rest h)
        | cons d pre =>
          refine ⟨pre, rest, (List.cons.inj h).2, h1, ?_⟩
          intro pre' v' rest' e hv
          exact Nat.le_of_succ_le_succ (h2 (c :: pre') v' rest' (by rw [e]; rfl) hv)
    unfold searchAfter
    by_cases hp : tag.isPrefixOf (c :: s) = true
    · rw [if_pos hp]
      cases hl : lazyText ends ((c :: s).drop tag.length) with
      | some w =>
        dsimp only
        obtain ⟨rest, e, hv⟩ := (lazyText_iff hs _ _).1 hl
        have hcs : c :: s = tag ++ (w ++ rest) := by rw [← e]; exact hdrop hp
        constructor
        · intro h
          obtain rfl := Option.some.inj h
          exact ⟨[], rest, by rw [hcs]; simp, hv, fun _ _ _ _ _ => Nat.zero_le _⟩
        · rintro ⟨pre, rest', h, h1, h2⟩
          have h0 := h2 [] w rest (by rw [hcs]; simp) hv
          obtain rfl : pre = [] := List.length_eq_zero_iff.1 (Nat.le_zero.1 h0)
          have : lazyText ends ((c :: s).drop tag.length) = some v := by
            refine (lazyText_iff hs _ _).2 ⟨rest', ?_, h1⟩
            rw [h, List.nil_append, List.append_assoc, List.drop_left]
          rw [hl] at this
          exact this
      | none =>
        dsimp only
        rw [ih v]
        refine later ?_
        intro v' rest' e hv
        have : lazyText ends ((c :: s).drop tag.length) = some v' := by
          refine (lazyText_iff hs _ _).2 ⟨rest', ?_, hv⟩
          rw [e, List.append_assoc, List.drop_left]
        rw [hl] at this
        cases this
    · rw [if_neg hp, ih v]
      refine later ?_
      intro v' rest' e hv
      refine hp (List.isPrefixOf_iff_prefix.2 ⟨v' ++ rest', ?_⟩)
      rw [e, List.append_assoc]

theorem tcaTag_text (name : String) : tcaTag (txt name) = ("<tca_" ++ name ++ ">").toList := by
  rw [String.toList_append, String.toList_append]
  rfl

theorem tcaField_iff {ends : Text → Bool} {stop : Text → Prop} (hs : ∀ s, ends s = true ↔ stop s) (name : String) (s v : Text) :
    tcaField ends (txt name) s = .ok v ↔ Spec.FirstValue stop name s v := by
  unfold Spec.FirstValue
  rw [← tcaTag_text, ← searchAfter_iff hs (by unfold tcaTag; simp)]
  unfold tcaField
  cases searchAfter (tcaTag (txt name)) ends s with
  | none =>
    constructor
    · intro h; cases h
    · intro h; cases h
  | some w => exact ⟨fun h => by rw [Except.ok.inj h], fun h => by rw [Option.some.inj h]⟩

/-- **C86, values.** For any text, the value found for a tag is the first one that stands between the tag and the next `<`. -/
theorem C86_value (name : String) (s v : Text) : tcaField atTag (txt name) s = .ok v ↔ Spec.FirstValue Spec.tagNext name s v :=
  tcaField_iff atTag_iff name s v

/-- **C86, break points.** For any text, the break points found are the first ones that stand between their tag and the next `<` or the end. -/
theorem C86_value_end (name : String) (s v : Text) : tcaField atTagOrEnd (txt name) s = .ok v ↔ Spec.FirstValue Spec.tagOrEnd name s v :=
  tcaField_iff atTagOrEnd_iff name s v

/-- Where there is no value, `AttributeError` is raised. -/
theorem C86_no_value (name : String) (s : Text) (h : ∀ v, ¬ Spec.FirstValue Spec.tagNext name s v) :
    tcaField atTag (txt name) s = .error .attributeError := by
  cases hf : tcaField atTag (txt name) s with
  | ok v => exact absurd ((C86_value name s v).1 hf) (h v)
  | error e =>
    unfold tcaField at hf
    split at hf
    · cases hf
    · rw [← hf]

example : Spec.FirstValue Spec.tagOrEnd "x" "<tca_x>\n<tca_x>12\n".toList "12".toList := by
  rw [← C86_value_end]
  decide +kernel

/-! ## Break points -/

theorem arraySplit_flatten {α : Type} {l : List α} {n : Int} {parts : List (List α)} (h : arraySplit l n = .ok parts) :
    parts.flatten = l ∧ (parts.length : Int) = n := by
  unfold arraySplit at h
  by_cases hn : n ≤ 0
  · rw [if_pos hn] at h; cases h
  rw [if_neg hn] at h
  obtain rfl := Except.ok.inj h
  obtain ⟨k, rfl⟩ : ∃ k : Nat, n = k := ⟨n.toNat, by omega⟩
  rw [Int.toNat_natCast]
  have hk : 0 < k := by omega
  have hm := Nat.mod_lt l.length hk
  have hd := Nat.div_add_mod l.length k
  generalize hq : l.length / k = q at *
  generalize hr : l.length % k = m at *
  have key : ∀ j, j ≤ k → (((List.range j).map fun i => (l.drop (i * q + min i m)).take (if i < m then q + 1 else q))).flatten =
      l.take (j * q + min j m) := by
    intro j
    induction j with
    | zero => intro _; simp
    | succ j ih =>
      intro hj
      rw [List.range_succ, List.map_append, List.flatten_append, ih (by omega), List.map_cons, List.map_nil, List.flatten_cons,
        List.flatten_nil, List.append_nil, ← List.take_add]
      congr 1
      rw [Nat.succ_mul]
      split <;> omega
  refine ⟨?_, by rw [List.length_map, List.length_range]⟩
  rw [key k (le_refl k), Nat.min_eq_right (by omega), hd, List.take_length]

theorem splitChar_join (c : Char) : ∀ (t : Text), c = '|' → splitChar c t ≠ [] ∧ Spec.bars (splitChar c t) = t ∧ ∀ g ∈ splitChar c t, c ∉ g := by
  intro t hc
  subst hc
  induction t with
  | nil => exact ⟨by simp [splitChar], rfl, by simp [splitChar]⟩
  | cons x t ih =>
    obtain ⟨h1, h2, h3⟩ := ih
    unfold splitChar
    by_cases hx : x = '|'
    · rw [if_pos hx]
      refine ⟨by simp, ?_, ?_⟩
      · cases hs : splitChar '|' t with
        | nil => exact absurd hs h1
        | cons g gs =>
          rw [hs] at h2
          show [] ++ '|' :: Spec.bars (g :: gs) = _
          rw [h2, hx]
          rfl
      · intro g hg
        rcases List.mem_cons.1 hg with rfl | hg
        · simp
        · exact h3 g hg
    · rw [if_neg hx]
      cases hs : splitChar '|' t with
      | nil => exact absurd hs h1
      | cons g gs =>
        rw [hs] at h2 h3
        dsimp only
        refine ⟨by simp, ?_, ?_⟩
        · rw [← h2]
          cases gs <;> rfl
        · intro y hy
          rcases List.mem_cons.1 hy with rfl | hy
          · intro hm
            rcases List.mem_cons.1 hm with hm | hm
            · exact hx hm.symm
            · exact h3 g List.mem_cons_self hm
          · exact h3 y (List.mem_cons_of_mem _ hy)

/-- A break point and its three texts. -/
def Spec.BreakOf (float : Text → Except PyErr ν) (ts : List Text) (b : DRec ν) : Prop :=
  ∃ lat lon name y x, ts = [lat, lon, name] ∧ float lat = .ok y ∧ float lon = .ok x ∧ b = [("lat", .num y), ("lon", .num x), ("name", .text name)]

/-- **C86, break points.** For any text: a watch or warning that is read has as many break points as it says, and they are made from all the texts between
the bars, three for each. -/
theorem C86_breaks (float : Text → Except PyErr ν) (s : Text) (n : Nat) (r : DRec ν) (h : tcaWarning float s n = .ok r) :
    ∃ (bp : Text) (tss : List (List Text)) (breaks : List (DRec ν)) (nb : Int), tcaField atTagOrEnd (txt "breakPts_" ++ Nat.toDigits 10 n) s = .ok bp ∧
      Spec.bars tss.flatten = bp ∧ (∀ t ∈ tss.flatten, '|' ∉ t) ∧ (tss.length : Int) = nb ∧ List.Forall₂ (Spec.BreakOf float) tss breaks ∧
      r.lookup "number_breaks" = some (.int nb) ∧ r.lookup "break_points" = some (.recs breaks) := by
  unfold tcaWarning at h
  dsimp only at h
  obtain ⟨wwstr, _, h1⟩ := Except.bind_ok h
  obtain ⟨nb, _, h2⟩ := Except.bind_ok h1
  obtain ⟨bp, hbp, h3⟩ := Except.bind_ok h2
  split at h3
  case h_2 => cases h3
  obtain ⟨parts, hparts, h4⟩ := Except.bind_ok h3
  obtain ⟨breaks, hbreaks, h5⟩ := Except.bind_ok h4
  obtain ⟨sev, _, h6⟩ := Except.bind_ok h5
  obtain ⟨typ, _, h7⟩ := Except.bind_ok h6
  obtain ⟨geo, _, h8⟩ := Except.bind_ok h7
  obtain rfl := Except.ok.inj h8
  obtain ⟨p1, p2⟩ := arraySplit_flatten hparts
  obtain ⟨_, s2, s3⟩ := splitChar_join '|' bp rfl
  refine ⟨bp, parts, breaks, nb, hbp, by rw [p1]; exact s2, by rw [p1]; exact s3, p2, ?_, rfl, rfl⟩
  clear h h1 h2 h3 h4 h5 h6 h7 h8 p1 p2 hparts
  induction parts generalizing breaks with
  | nil =>
    obtain rfl := Except.ok.inj hbreaks
    exact .nil
  | cons ts parts ih =>
    rw [List.mapM_cons] at hbreaks
    obtain ⟨b, hb, hbreaks⟩ := Except.bind_ok hbreaks
    obtain ⟨bs, hbs, hbreaks⟩ := Except.bind_ok hbreaks
    obtain rfl := Except.ok.inj hbreaks
    refine .cons ?_ (ih bs hbs)
    unfold breakPoint at hb
    split at hb
    · rename_i lat lon name
      obtain ⟨y, hy, hb⟩ := Except.bind_ok hb
      obtain ⟨x, hx, hb⟩ := Except.bind_ok hb
      exact ⟨lat, lon, name, y, x, rfl, hy, hx, (Except.ok.inj hb).symm⟩
    · cases hb

/-- A text with a watch of one break point meets the hypothesis. -/
example : (tcaWarning (fun t => .ok t) "<tca_tcawwStr_0>1|1|0<tca_numBreakPts_0>1<tca_breakPts_0>25.75|-80.25|Ocean_Reef\n".toList 0).isOk = true := by
  decide +kernel

end Gempak
