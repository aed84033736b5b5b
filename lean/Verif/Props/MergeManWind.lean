import Verif.Props.MergeKeep

/-!
# C100: winds of mandatory levels given in parts of their own
-/

namespace Gempak

set_option linter.unusedSectionVars false

open Spec

section
variable {α : Type} [Field α] [LinearOrder α]

/-! ## Specification -/

/-- The first wind a part gives for a pressure. -/
def Spec.FirstWind (q : SndPart α) (P R W : α) : Prop :=
  ∃ k, q.at "PRES" k = .ok P ∧ q.at "DRCT" k = .ok R ∧ q.at "SPED" k = .ok W ∧ ∀ k', k' < k → q.at "PRES" k' ≠ .ok P

/-- The mandatory wind reported for a pressure: in the lower part, else in the upper part. -/
def Spec.WindAt (ps : SndParts α) (P R W : α) : Prop :=
  (∃ q, ps.part "PPAA" = some q ∧ Spec.FirstWind q P R W) ∨
    (∃ q, ps.part "PPCC" = some q ∧ Spec.FirstWind q P R W) ∧ ∀ q k, ps.part "PPAA" = some q → q.at "PRES" k ≠ .ok P

/-- The report has mandatory temperatures in the lower part. -/
def Spec.HasLower (ps : SndParts α) : Prop := ∃ p x, ps.part "TTAA" = some p ∧ p.at "PRES" 0 = .ok x

/-- A level of the mandatory temperatures that is to be taken. -/
def Spec.MandatoryLevel (ps : SndParts α) (m P Z T D R W : α) : Prop :=
  (∃ p i, ps.part "TTAA" = some p ∧ 1 ≤ i ∧ PartLevel p i P Z T D R W ∧ Above m P p 1 i) ∨
    ∃ p i, ps.part "TTCC" = some p ∧ PartLevel p i P Z T D R W ∧ Above m P p 0 i ∧
      ∀ q col, ps.part "TTAA" = some q → q.col "PRES" = .ok col → Above m P q 1 col.length

/-! ## What mandatory winds change -/

theorem setWind_eff {m : α} {s s' : Snd α} {loc : Nat} {r w : Run α} (h : setWind m s loc r w = .ok s') :
    s'.pres = s.pres ∧ s'.hght = s.hght ∧ s'.temp = s.temp ∧ s'.dwpt = s.dwpt ∧
      (∀ j, j ≠ loc → s'.drct[j]? = s.drct[j]? ∧ s'.sped[j]? = s.sped[j]?) ∧
      (s.drct[loc]? ≠ some m → s' = s) ∧
      (s.drct[loc]? = some m → ∃ x y, r = .ok x ∧ w = .ok y ∧ s'.drct[loc]? = some x ∧ s'.sped[loc]? = some y) := by
  unfold setWind at h
  obtain ⟨x, hx, h⟩ := run_inv h
  have ex : s.drct[loc]? = some x := by
    unfold idx at hx
    split at hx
    · rename_i v hv; rw [hv, Except.ok.inj hx]
    · cases hx
  split at h
  · rename_i e
    obtain ⟨a, ha, h⟩ := run_inv h
    obtain ⟨dr, h1, h⟩ := run_inv h
    obtain ⟨b, hb, h⟩ := run_inv h
    obtain ⟨sp, h2, h⟩ := run_inv h
    obtain rfl := Except.ok.inj h
    obtain ⟨l1, rfl⟩ := put_val h1
    obtain ⟨l2, rfl⟩ := put_val h2
    refine ⟨rfl, rfl, rfl, rfl, fun j hj => ⟨List.getElem?_set_ne hj.symm, List.getElem?_set_ne hj.symm⟩, ?_, fun _ => ⟨a, b, ha, hb, ?_, ?_⟩⟩
    · intro hn
      exact absurd (by rw [ex, e]) hn
    · exact List.getElem?_set_self l1
    · exact List.getElem?_set_self l2
  · rename_i e
    obtain rfl := Except.ok.inj h
    refine ⟨rfl, rfl, rfl, rfl, fun _ _ => ⟨rfl, rfl⟩, fun _ => rfl, fun hm => ?_⟩
    rw [ex] at hm
    exact absurd (Option.some.inj hm) e

/-- Rows stay, except that the missing wind of row `j` may be set; it is not when no pressure of the part is that of row `j`. -/
theorem manWind_other {p : SndPart α} {m : α} {l : List α} {i j : Nat} {s s' : Snd α} (h : mergeManWind p m l i s = .ok s')
    (hj : s.drct[j]? ≠ some m ∨ ∀ x ∈ l, x ∈ s.pres.drop 1 → s.pres.idxOf x ≠ j) :
    s'.pres = s.pres ∧ s'.hght = s.hght ∧ s'.temp = s.temp ∧ s'.dwpt = s.dwpt ∧ s'.drct[j]? = s.drct[j]? ∧ s'.sped[j]? = s.sped[j]? := by
  induction l generalizing i s with
  | nil => obtain rfl := Except.ok.inj h; exact ⟨rfl, rfl, rfl, rfl, rfl, rfl⟩
  | cons x l ih =>
    rw [mergeManWind] at h
    split at h
    · rename_i hx
      obtain ⟨s1, h1, h⟩ := run_inv h
      obtain ⟨a1, a2, a3, a4, a5, a6, _⟩ := setWind_eff h1
      have hrow : s1.drct[j]? = s.drct[j]? ∧ s1.sped[j]? = s.sped[j]? := by
        by_cases e : j = s.pres.idxOf x
        · rcases hj with hj | hj
          · rw [a6 (by rw [← e]; exact hj)]; exact ⟨rfl, rfl⟩
          · exact absurd e.symm (hj x List.mem_cons_self hx)
        · exact a5 j e
      have hj' : s1.drct[j]? ≠ some m ∨ ∀ y ∈ l, y ∈ s1.pres.drop 1 → s1.pres.idxOf y ≠ j := by
        rcases hj with hj | hj
        · exact Or.inl (by rw [hrow.1]; exact hj)
        · exact Or.inr fun y hy hm => by rw [a1] at hm ⊢; exact hj y (List.mem_cons_of_mem _ hy) hm
      obtain ⟨b1, b2, b3, b4, b5, b6⟩ := ih h hj'
      exact ⟨b1.trans a1, b2.trans a2, b3.trans a3, b4.trans a4, b5.trans hrow.1, b6.trans hrow.2⟩
    · refine ih h ?_
      rcases hj with hj | hj
      · exact Or.inl hj
      · exact Or.inr fun y hy => hj y (List.mem_cons_of_mem _ hy)

/-- The first wind for the pressure of a row goes there if the row has none. -/
theorem manWind_first {p : SndPart α} {m P R W : α} {l : List α} {i j k : Nat} {s s' : Snd α} (h : mergeManWind p m l i s = .ok s')
    (hP : P ∈ s.pres.drop 1) (hij : s.pres.idxOf P = j) (hd : s.drct[j]? = some m) (hk : l[k]? = some P) (hfirst : ∀ k', k' < k → l[k']? ≠ some P)
    (hR : p.at "DRCT" (i + k) = .ok R) (hW : p.at "SPED" (i + k) = .ok W) (hRm : R ≠ m) :
    s'.pres = s.pres ∧ s'.hght = s.hght ∧ s'.temp = s.temp ∧ s'.dwpt = s.dwpt ∧ s'.drct[j]? = some R ∧ s'.sped[j]? = some W := by
  induction l generalizing i k s with
  | nil => cases hk
  | cons x l ih =>
    rw [mergeManWind] at h
    cases k with
    | zero =>
      obtain rfl : x = P := Option.some.inj hk
      rw [if_pos hP] at h
      obtain ⟨s1, h1, h⟩ := run_inv h
      obtain ⟨a1, a2, a3, a4, _, _, a7⟩ := setWind_eff h1
      rw [hij] at a7
      obtain ⟨r, w, e1, e2, e3, e4⟩ := a7 hd
      rw [Nat.add_zero] at hR hW
      obtain rfl := Except.ok.inj (e1.symm.trans hR)
      obtain rfl := Except.ok.inj (e2.symm.trans hW)
      obtain ⟨b1, b2, b3, b4, b5, b6⟩ := manWind_other (j := j) h (Or.inl (by rw [e3]; exact fun e => hRm (Option.some.inj e)))
      exact ⟨b1.trans a1, b2.trans a2, b3.trans a3, b4.trans a4, b5.trans e3, b6.trans e4⟩
    | succ k =>
      have hx : x ≠ P := fun e => hfirst 0 (by omega) (by rw [e]; rfl)
      have hR' : p.at "DRCT" (i + 1 + k) = .ok R := by rw [← hR]; congr 1; omega
      have hW' : p.at "SPED" (i + 1 + k) = .ok W := by rw [← hW]; congr 1; omega
      have hf' : ∀ k', k' < k → l[k']? ≠ some P := fun k' hk' => hfirst (k' + 1) (by omega)
      split at h
      · rename_i hm
        obtain ⟨s1, h1, h⟩ := run_inv h
        obtain ⟨a1, a2, a3, a4, a5, _, _⟩ := setWind_eff h1
        have hne : j ≠ s.pres.idxOf x := by
          intro e
          refine hx ?_
          have g1 := List.getElem_idxOf (List.idxOf_lt_length_of_mem (List.mem_of_mem_drop hm))
          have g2 := List.getElem_idxOf (List.idxOf_lt_length_of_mem (List.mem_of_mem_drop hP))
          rw [← g1, ← g2]
          congr 1
          omega
        obtain ⟨b1, b2, b3, b4, b5, b6⟩ := ih h (by rw [a1]; exact hP) (by rw [a1]; exact hij) (by rw [(a5 j hne).1]; exact hd) hk hf' hR' hW'
        exact ⟨b1.trans a1, b2.trans a2, b3.trans a3, b4.trans a4, b5, b6⟩
      · exact ih h hP hij hd hk hf' hR' hW'

theorem at_get {p : SndPart α} {k : String} {i : Nat} {x : α} {col : List α} (hc : p.col k = .ok col) : p.at k i = .ok x ↔ col[i]? = some x := by
  unfold SndPart.at idx
  rw [hc, ok_bind]
  cases col[i]? with
  | none =>
    constructor
    · intro h; cases h
    · intro h; cases h
  | some v => exact ⟨fun h => by rw [Except.ok.inj h], fun h => by rw [Option.some.inj h]⟩

theorem count_level {ps : SndParts α} {name key : String} {n : Nat} {p : SndPart α} {i : Nat} {x : α} (h : ps.count name key = .ok n)
    (hp : ps.part name = some p) (hx : p.at key i = .ok x) : 1 ≤ n := by
  obtain ⟨col, hc, rfl⟩ := count_part h p hp
  have := at_lt hx hc
  omega

theorem counts_vals {ps : SndParts α} {n : Counts} (hn : ps.counts = .ok n) :
    ps.count "TTAA" "PRES" = .ok n.man ∧ ps.count "PPAA" "PRES" = .ok n.manWind ∧ ps.count "PPCC" "SPED" = .ok n.aManWind := by
  unfold SndParts.counts at hn
  obtain ⟨_, e1, hn⟩ := run_inv hn
  obtain ⟨_, e2, hn⟩ := run_inv hn
  obtain ⟨_, _, hn⟩ := run_inv hn
  obtain ⟨_, _, hn⟩ := run_inv hn
  obtain ⟨_, _, hn⟩ := run_inv hn
  obtain ⟨_, _, hn⟩ := run_inv hn
  obtain ⟨_, _, hn⟩ := run_inv hn
  obtain ⟨_, _, hn⟩ := run_inv hn
  obtain ⟨_, _, hn⟩ := run_inv hn
  obtain ⟨_, _, hn⟩ := run_inv hn
  obtain ⟨_, _, hn⟩ := run_inv hn
  obtain ⟨_, e3, hn⟩ := run_inv hn
  obtain rfl := Except.ok.inj hn
  exact ⟨e1, e2, e3⟩

/-- The rows of `manWinds`. -/
theorem manWinds_row {ps : SndParts α} {m P Z T D W : α} {name : String} {nw nm j : Nat} {s s' : Snd α} (h : manWinds ps m name nw nm s = .ok s')
    (hrow : RowAt s j P Z T D m W) (hP : P ∈ s.pres.drop 1) (hij : s.pres.idxOf P = j) :
    (∀ q R' W', ps.part name = some q → FirstWind q P R' W' → 1 ≤ nw → 1 ≤ nm → R' ≠ m → RowAt s' j P Z T D R' W' ∧ s'.pres = s.pres) ∧
      ((∀ q k, ps.part name = some q → q.at "PRES" k ≠ .ok P) → RowAt s' j P Z T D m W ∧ s'.pres = s.pres) := by
  have hlen : 2 ≤ s.pres.length := by
    have := List.length_pos_of_mem hP
    rw [List.length_drop] at this
    omega
  unfold manWinds at h
  refine ⟨?_, ?_⟩
  · rintro q R' W' hq ⟨k, k1, k2, k3, k4⟩ hw hn hR
    rw [if_pos ⟨hw, hn, hlen⟩] at h
    obtain ⟨q', hq', h⟩ := run_inv h
    obtain rfl := Option.some.inj (hq.symm.trans (get_part hq'))
    obtain ⟨col, hc, h⟩ := run_inv h
    obtain ⟨a1, a2, a3, a4, a5, a6⟩ := manWind_first h hP hij hrow.drct ((at_get hc).1 k1)
      (fun k' hk' e => k4 k' hk' ((at_get hc).2 e)) (by rw [Nat.zero_add]; exact k2) (by rw [Nat.zero_add]; exact k3) hR
    exact ⟨⟨by rw [a1]; exact hrow.pres, by rw [a2]; exact hrow.hght, by rw [a3]; exact hrow.temp, by rw [a4]; exact hrow.dwpt, a5, a6⟩, a1⟩
  · intro hno
    split at h
    · obtain ⟨q, hq, h⟩ := run_inv h
      obtain ⟨col, hc, h⟩ := run_inv h
      have hside : ∀ x ∈ col, x ∈ s.pres.drop 1 → s.pres.idxOf x ≠ j := by
        intro x hx hm e
        have g1 := List.getElem_idxOf (List.idxOf_lt_length_of_mem (List.mem_of_mem_drop hm))
        have g2 := List.getElem_idxOf (List.idxOf_lt_length_of_mem (List.mem_of_mem_drop hP))
        have : x = P := by rw [← g1, ← g2]; congr 1; omega
        subst this
        obtain ⟨k, hk⟩ := List.getElem?_of_mem hx
        exact hno q k (get_part hq) ((at_get hc).2 hk)
      obtain ⟨a1, a2, a3, a4, a5, a6⟩ := manWind_other (j := j) h (Or.inr hside)
      exact ⟨⟨by rw [a1]; exact hrow.pres, by rw [a2]; exact hrow.hght, by rw [a3]; exact hrow.temp, by rw [a4]; exact hrow.dwpt,
        by rw [a5]; exact hrow.drct, by rw [a6]; exact hrow.sped⟩, a1⟩
    · obtain rfl := Except.ok.inj h
      exact ⟨hrow, rfl⟩

theorem ManTail.place {m : α} {O : α → Prop} {p0 plast P : α} {s : Snd α} (h : ManTail m O p0 s plast) {j : Nat} (hj : s.pres[j]? = some P) (hP : P ≠ p0) :
    P ∈ s.pres.drop 1 ∧ s.pres.idxOf P = j := by
  obtain ⟨t, a1, a2, a3, _⟩ := h
  rw [a1] at hj ⊢
  cases j with
  | zero => exact absurd (Option.some.inj hj).symm hP
  | succ j =>
    have hm : t[j]? = some P := hj
    refine ⟨List.mem_of_getElem? hm, ?_⟩
    have nd : (p0 :: t).Nodup := by
      refine List.nodup_cons.2 ⟨fun h => (a3 p0 h).2.2.1 rfl, ?_⟩
      exact a2.imp fun h => h.ne'
    obtain ⟨hlt, e⟩ := List.getElem?_eq_some_iff.1 hj
    rw [← e]
    exact List.Nodup.idxOf_getElem nd _ hlt

/-- C100: a mandatory level without a wind gets the mandatory wind reported for its pressure, and keeps its other values, if the report has
mandatory temperatures in the lower part.
Missing: reports with mandatory temperatures in the upper part only, see `C100_upper_lost`; winds by height in the lower part, see `C87_wind_lost`. -/
theorem C100_wind_partial [FloorRing α] (c : Calc α) (m : α) (fuel : Nat) (ps : SndParts α) (s : Snd α)
    (hA : ∀ p, ps.part "TTAA" = some p → SixNames p) (hC : ∀ p, ps.part "TTCC" = some p → SixNames p)
    (h : mergeSounding c m fuel ps = .ok (some s)) (P Z T D R W W0 : α) (ht : Taken ps m P Z T) (hl : MandatoryLevel ps m P Z T D m W0)
    (hlow : HasLower ps) (hw : WindAt ps P R W) (hR : R ≠ m) : ∃ j, LevelIn ps m s P Z T D R W j := by
  refine merge_keeps_row hA hC h ht fun n b r hn hb hr => ?_
  obtain ⟨s5, s6, j, p0, plast, row, hp0, _, tail, h6, h7⟩ := mandatory_levels hn hb hA hC hr ht hl
  obtain ⟨hP, hij⟩ := tail.place row.pres hp0
  obtain ⟨c1, c2, c3⟩ := counts_vals hn
  obtain ⟨pa, xa, hpa, hxa⟩ := hlow
  have hman := count_level c1 hpa hxa
  rcases hw with ⟨q, hq, hf⟩ | ⟨⟨q, hq, hf⟩, hno⟩
  · obtain ⟨row6, _⟩ := (manWinds_row h6 row hP hij).1 q R W hq hf (by obtain ⟨k, k1, _⟩ := hf; exact count_level c2 hq k1) hman hR
    exact ⟨s6, j, row6, keeps_manWinds h7⟩
  · obtain ⟨row6, e6⟩ := (manWinds_row h6 row hP hij).2 hno
    obtain ⟨row7, _⟩ := (manWinds_row h7 row6 (by rw [e6]; exact hP) (by rw [e6]; exact hij)).1 q R W hq hf
      (by obtain ⟨k, _, _, k3, _⟩ := hf; exact count_level c3 hq k3) hman hR
    exact ⟨r.1, j, row7, KeepsRows.refl _⟩

/-! ## Winds that are not used -/

theorem bind_congr_ok {β γ : Type} {x : Run β} {f g : β → Run γ} (h : ∀ a, x = .ok a → f a = g a) : x >>= f = x >>= g := by
  cases x with
  | error e => rfl
  | ok a => exact h a rfl

/-- Winds at pressures that are not those of levels after the first are not looked at. -/
theorem manWind_congr {p p' : SndPart α} {m : α} {l : List α} {i : Nat} {s : Snd α}
    (h : ∀ k x, l[k]? = some x → x ∈ s.pres.drop 1 → p.at "DRCT" (i + k) = p'.at "DRCT" (i + k) ∧ p.at "SPED" (i + k) = p'.at "SPED" (i + k)) :
    mergeManWind p m l i s = mergeManWind p' m l i s := by
  induction l generalizing i s with
  | nil => rfl
  | cons x l ih =>
    rw [mergeManWind, mergeManWind]
    have tl : ∀ s1 : Snd α, s1.pres = s.pres → mergeManWind p m l (i + 1) s1 = mergeManWind p' m l (i + 1) s1 := by
      intro s1 e
      refine ih fun k y hk hy => ?_
      rw [e] at hy
      rw [show i + 1 + k = i + (k + 1) by omega]
      exact h (k + 1) y hk hy
    split
    · rename_i hx
      obtain ⟨e1, e2⟩ := h 0 x rfl hx
      rw [Nat.add_zero] at e1 e2
      rw [e1, e2]
      exact bind_congr_ok fun s1 h1 => tl s1 (setWind_eff h1).1
    · exact tl s rfl

/-- Two reports that differ in the winds of one mandatory part only, and there only at pressures without a mandatory temperature level. -/
structure Spec.SameButWinds (ps ps' : SndParts α) (name : String) (p p' : SndPart α) : Prop where
  selv : ps'.selv = ps.selv
  others : ∀ x, x ≠ name → ps'.part x = ps.part x
  left : ps.part name = some p
  right : ps'.part name = some p'
  pres : p'.col "PRES" = p.col "PRES"
  count : (p'.col "SPED").map List.length = (p.col "SPED").map List.length
  winds : ∀ k P, p.at "PRES" k = .ok P → Spec.MandatoryAt ps P → p'.at "DRCT" k = p.at "DRCT" k ∧ p'.at "SPED" k = p.at "SPED" k

variable {ps ps' : SndParts α} {name : String} {p p' : SndPart α}

theorem Spec.SameButWinds.get (h : SameButWinds ps ps' name p p') {x : String} (hx : x ≠ name) : ps'.get x = ps.get x := by
  unfold SndParts.get
  rw [h.others x hx]

theorem Spec.SameButWinds.counts' (h : SameButWinds ps ps' name p p') (x k : String) (hk : k = "PRES" ∨ k = "SPED") : ps'.count x k = ps.count x k := by
  unfold SndParts.count
  by_cases hx : x = name
  · subst hx
    rw [h.left, h.right]
    dsimp only
    rcases hk with rfl | rfl
    · rw [h.pres]
    · have := h.count
      cases h1 : p'.col "SPED" <;> cases h2 : p.col "SPED" <;> rw [h1, h2] at this
      · rw [Except.error.inj this]
      · cases this
      · cases this
      · rename_i a b
        have e : a.length = b.length := Except.ok.inj this
        rw [ok_bind, ok_bind, e]
  · rw [h.others x hx]

theorem Spec.SameButWinds.manWinds (h : SameButWinds ps ps' name p p') {m : α} {x : String} {nw nm : Nat} {s : Snd α}
    (hs : ∀ P ∈ s.pres.drop 1, MandatoryAt ps P) : manWinds ps' m x nw nm s = manWinds ps m x nw nm s := by
  unfold Gempak.manWinds
  split
  · by_cases hx : x = name
    · subst hx
      unfold SndParts.get
      rw [h.left, h.right]
      show (p'.col "PRES" >>= fun l => mergeManWind p' m l 0 s) = (p.col "PRES" >>= fun l => mergeManWind p m l 0 s)
      rw [h.pres]
      refine bind_congr_ok fun l hl => manWind_congr fun k y hk hy => ?_
      rw [Nat.zero_add]
      exact h.winds k y ((at_get hl).2 hk) (hs y hy)
    · rw [h.get hx]
  · rfl

theorem manWinds_pres {m : α} {x : String} {nw nm : Nat} {s s' : Snd α} (h : manWinds ps m x nw nm s = .ok s') : s'.pres = s.pres := by
  unfold Gempak.manWinds at h
  split at h
  · obtain ⟨q, hq, h⟩ := run_inv h
    obtain ⟨col, hc, h⟩ := run_inv h
    exact (manWind_other (j := s.drct.length) h (Or.inl (by rw [List.getElem?_eq_none (le_refl _)]; exact fun h => by cases h))).1
  · obtain rfl := Except.ok.inj h; rfl

theorem Spec.SameButWinds.mandatory (h : SameButWinds ps ps' name p p') (hn : name = "PPAA" ∨ name = "PPCC")
    (hA : ∀ p, ps.part "TTAA" = some p → SixNames p) (hC : ∀ p, ps.part "TTCC" = some p → SixNames p)
    (m : α) (c : Counts) (z : Bool) (b : Option (SndPart α)) : mergeMandatory ps' m c z b = mergeMandatory ps m c z b := by
  have g : ∀ x, x = "TTAA" ∨ x = "TTBB" ∨ x = "TTCC" → ps'.get x = ps.get x := by
    intro x hx
    refine h.get ?_
    rcases hn with rfl | rfl <;> rcases hx with rfl | rfl | rfl <;> decide
  have e0 : surfaceLevel ps' m c = surfaceLevel ps m c := by
    unfold surfaceLevel
    rw [g "TTAA" (by simp), h.selv]
  have e2 : ∀ s, surfaceSigT ps' m c s = surfaceSigT ps m c s := by
    intro s
    unfold surfaceSigT
    rw [g "TTBB" (by simp)]
  unfold mergeMandatory
  rw [e0, g "TTAA" (by simp), g "TTCC" (by simp)]
  refine bind_congr_ok fun s0 h0 => bind_congr_ok fun f _ => bind_congr_ok fun s1 h1 => ?_
  rw [e2]
  refine bind_congr_ok fun s2 h2 => bind_congr_ok fun s3 h3 => bind_congr_ok fun p0 hp0 => ?_
  dsimp only
  refine bind_congr_ok fun r4 h4 => bind_congr_ok fun r5 h5 => ?_
  have hs3 := surfaceSigW_same (surfaceSigT_same (surfaceCheck_same (surfaceLevel_same h0) h1) h2) h3
  have t3 : ManTail m (MandatoryAt ps) p0 s3 (if p0 = m then 2000 else p0) := by
    refine ⟨[], ?_, List.Pairwise.nil, fun x hx => (by cases hx), ?_⟩
    · have ep := idx_val m hp0
      cases hq : s3.pres with
      | nil => have := hs3.pres; rw [hq] at this; cases this
      | cons x l =>
        have := hs3.pres
        rw [hq] at this ep
        obtain rfl : l = [] := List.length_eq_zero_iff.1 (by simpa using this)
        rw [ep]; rfl
    · by_cases e : p0 = m
      · exact Or.inl e
      · rw [if_neg e]; exact Or.inr (le_refl _)
  have t4 : ManTail m (MandatoryAt ps) p0 r4.1 r4.2.1 := by
    rcases whenSome_inv h4 with ⟨_, e⟩ | ⟨_, e⟩
    · obtain ⟨p, hp, e⟩ := run_inv e
      exact mergeMan_tail (hA p (get_part hp)) (fun j x hj hx => Or.inl ⟨p, j, get_part hp, hj, hx⟩) t3 e
    · rw [e]; exact t3
  have t5 : ManTail m (MandatoryAt ps) p0 r5.1 r5.2.1 := by
    rcases whenSome_inv h5 with ⟨_, e⟩ | ⟨_, e⟩
    · obtain ⟨p, hp, e⟩ := run_inv e
      exact mergeMan_tail (hC p (get_part hp)) (fun j x _ hx => Or.inr ⟨p, j, get_part hp, hx⟩) t4 e
    · rw [e]; exact t4
  have hd : ∀ P ∈ r5.1.pres.drop 1, MandatoryAt ps P := by
    obtain ⟨t, a1, _, a3, _⟩ := t5
    rw [a1]
    exact fun P hP => (a3 P hP).2.2.2
  show (Gempak.manWinds ps' m "PPAA" c.manWind c.man r5.1 >>= fun s6 => Gempak.manWinds ps' m "PPCC" c.aManWind c.man s6 >>= fun s7 => .ok (s7, r4.2.2)) =
    (Gempak.manWinds ps m "PPAA" c.manWind c.man r5.1 >>= fun s6 => Gempak.manWinds ps m "PPCC" c.aManWind c.man s6 >>= fun s7 => .ok (s7, r4.2.2))
  rw [h.manWinds hd]
  refine bind_congr_ok fun s6 h6 => ?_
  rw [h.manWinds (by rw [manWinds_pres h6]; exact hd)]

/-- C100: mandatory winds at pressures without a mandatory temperature level are ignored: the merged sounding does not depend on them. -/
theorem C100_ignored [FloorRing α] (c : Calc α) (m : α) (fuel : Nat) (h : SameButWinds ps ps' name p p') (hn : name = "PPAA" ∨ name = "PPCC")
    (hA : ∀ p, ps.part "TTAA" = some p → SixNames p) (hC : ∀ p, ps.part "TTCC" = some p → SixNames p) :
    mergeSounding c m fuel ps' = mergeSounding c m fuel ps := by
  have g : ∀ x, x ≠ "PPAA" → x ≠ "PPCC" → ps'.part x = ps.part x := by
    intro x h1 h2
    refine h.others x ?_
    rcases hn with rfl | rfl
    · exact h1
    · exact h2
  have gg : ∀ x, x ≠ "PPAA" → x ≠ "PPCC" → ps'.get x = ps.get x := fun x h1 h2 => by unfold SndParts.get; rw [g x h1 h2]
  have ec : ps'.counts = ps.counts := by
    unfold SndParts.counts
    simp only [h.counts' _ "PRES" (Or.inl rfl), h.counts' _ "SPED" (Or.inr rfl)]
  have ew : ∀ x n, x ≠ "PPAA" → x ≠ "PPCC" → windCoord ps' m x n = windCoord ps m x n := by
    intro x n h1 h2
    unfold windCoord
    rw [g x h1 h2, gg x h1 h2]
  have eb : ∀ x, x ≠ "PPAA" → x ≠ "PPCC" → bottomOf ps' m x = bottomOf ps m x := by
    intro x h1 h2
    funext s
    unfold bottomOf
    rw [gg x h1 h2]
  have ep : ∀ x f, x ≠ "PPAA" → x ≠ "PPCC" → withPart ps' x f = withPart ps x f := by
    intro x f h1 h2
    funext s q
    unfold withPart
    rw [gg x h1 h2]
  unfold mergeSounding
  rw [ec]
  refine bind_congr_ok fun n _ => ?_
  split
  · rfl
  rw [ew _ _ (by decide) (by decide), ew _ _ (by decide) (by decide)]
  refine bind_congr_ok fun b _ => bind_congr_ok fun d _ => ?_
  rw [h.mandatory hn hA hC]
  refine bind_congr_ok fun r _ => ?_
  have el : mergeLevels c m fuel ps' n b.1 d.1 b.2 d.2 r.1 = mergeLevels c m fuel ps n b.1 d.1 b.2 d.2 r.1 := by
    unfold mergeLevels
    rw [eb "TRPA" (by decide) (by decide), eb "TTBB" (by decide) (by decide), ep "TRPA" _ (by decide) (by decide),
      ep "TRPC" _ (by decide) (by decide), ep "TTBB" _ (by decide) (by decide), ep "TTDD" _ (by decide) (by decide),
      ep "MXWA" _ (by decide) (by decide), ep "MXWC" _ (by decide) (by decide)]
  rw [el]
  refine bind_congr_ok fun s _ => ?_
  unfold mergeRest
  rw [gg "TTAA" (by decide) (by decide)]

end

/-! ## Cases -/

/-- Mandatory levels whose winds are in parts of their own; the first wind is at the surface. -/
def windParts : SndParts ℚ :=
  ⟨100, fun x =>
    if x = "TTAA" then some [("PRES", [1000, 850, 500]), ("TEMP", [20, 10, -10]), ("DWPT", [15, 5, -20]), ("DRCT", [-9999, -9999, -9999]),
      ("SPED", [-9999, -9999, -9999]), ("HGHT", [100, 1500, 5500])]
    else if x = "PPAA" then some [("PRES", [1000, 850, 700]), ("DRCT", [90, 180, 190]), ("SPED", [5, 10, 15])]
    else if x = "PPCC" then some [("PRES", [500]), ("DRCT", [200]), ("SPED", [20])]
    else none⟩

/-- The winds of 850 and 500 hPa are merged, that of the surface is not. -/
example : (mergeSounding ⟨fun x => x - 1, fun x => x + 1⟩ (-9999) 5 windParts).toOption.bind (fun o => o.map fun s => (s.pres, s.drct, s.sped)) =
    some ([1000, 850, 500], [-9999, 180, 200], [-9999, 10, 20]) := by decide +kernel

/-- The hypotheses of `C100_wind_partial` hold there. -/
example : MandatoryLevel windParts (-9999) 850 1500 10 5 (-9999) (-9999) ∧ HasLower windParts ∧ WindAt windParts 850 180 10 := by
  refine ⟨Or.inl ⟨_, 1, rfl, le_refl _, ⟨by decide +kernel, by decide +kernel, by decide +kernel, by decide +kernel, by decide +kernel,
    by decide +kernel⟩, fun j x h1 h2 => by omega⟩, ⟨_, 1000, rfl, by decide +kernel⟩, Or.inl ⟨_, rfl, 1, by decide +kernel, by decide +kernel,
    by decide +kernel, fun k hk => ?_⟩⟩
  obtain rfl : k = 0 := by omega
  decide +kernel

/-- A report with mandatory temperatures and winds in the upper parts only. -/
def upperOnly : SndParts ℚ :=
  ⟨100, fun x =>
    if x = "TTCC" then some [("PRES", [70]), ("TEMP", [-60]), ("DWPT", [-70]), ("DRCT", [-9999]), ("SPED", [-9999]), ("HGHT", [18000])]
    else if x = "PPCC" then some [("PRES", [70]), ("DRCT", [200]), ("SPED", [20])]
    else none⟩

/-- C100 fails in full: the winds of the upper part are lost when there are no mandatory temperatures in the lower part. -/
theorem C100_upper_lost : MandatoryLevel upperOnly (-9999) 70 18000 (-60) (-70) (-9999) (-9999) ∧ WindAt upperOnly 70 200 20 ∧
    (mergeSounding ⟨fun x => x - 1, fun x => x + 1⟩ (-9999) 5 upperOnly).toOption.bind (fun o => o.map fun s => (s.pres, s.drct, s.sped)) =
      some ([-9999, 70], [-9999, -9999], [-9999, -9999]) := by
  refine ⟨Or.inr ⟨_, 0, rfl, ⟨by decide +kernel, by decide +kernel, by decide +kernel, by decide +kernel, by decide +kernel, by decide +kernel⟩,
    fun j x h1 h2 => by omega, fun q col hq => by cases hq⟩, Or.inr ⟨⟨_, rfl, 0, by decide +kernel, by decide +kernel, by decide +kernel,
    fun k hk => by omega⟩, fun q k hq => by cases hq⟩, by decide +kernel⟩

end Gempak
