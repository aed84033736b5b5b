import Verif.Props.MergeKeep

/-!
# Merging on pressure: the levels that are inserted
-/

namespace Gempak

set_option linter.unusedSectionVars false

open Spec

section
variable {α : Type} [Field α] [LinearOrder α] {m : α} {hOK : α → Prop} {wOK : Prop}

/-- The loop reaches level `k` with its invariant, treats the level, and keeps the result. -/
theorem onPressure_level {has : Nat → Run Bool} {pr : Nat → Snd α → Nat → Run (Snd α)} {fr : Nat → Snd α → α → Run (Snd α)} {l : List α}
    {k : Nat} {x : α} {i : Nat} {s : Snd α} {pbot : α} {r : Snd α × α} (hk : l[k]? = some x) (hpb : |x| ≤ pbot)
    (hle : ∀ (j : Nat) y, j < k → l[j]? = some y → |x| ≤ |y|) (hhas : has (i + k) = .ok true) (h0 : |x| ≠ 0) (hm : |x| ≠ m) (I : Snd α → Prop) (hI : I s)
    (hI1 : ∀ (j : Nat) y s s', j < k → l[j]? = some y → I s → |y| ∈ s.pres → pr (i + j) s (s.pres.idxOf |y|) = .ok s' → I s')
    (hI2 : ∀ (j : Nat) y s s', j < k → l[j]? = some y → I s → |y| ∉ s.pres → fr (i + j) s |y| = .ok s' → I s')
    (h1 : ∀ i s x s', x ∈ l.map (|·|) → x ∈ s.pres → Same s → pr i s (s.pres.idxOf x) = .ok s' → KeepsRows m hOK wOK s s' ∧ Same s')
    (h2 : ∀ i s p s', Same s → fr i s p = .ok s' → KeepsRows m hOK wOK s s' ∧ Same s')
    (h : mergeOnPressure m has pr fr l i s pbot = .ok r) :
    ∃ sa sb, I sa ∧ ((|x| ∈ sa.pres ∧ pr (i + k) sa (sa.pres.idxOf |x|) = .ok sb) ∨ (|x| ∉ sa.pres ∧ fr (i + k) sa |x| = .ok sb)) ∧
      (Same sb → KeepsRows m hOK wOK sb r.1) := by
  induction l generalizing k i s pbot with
  | nil => cases hk
  | cons y l ih =>
    have h1' : ∀ i s x s', x ∈ l.map (|·|) → x ∈ s.pres → Same s → pr i s (s.pres.idxOf x) = .ok s' → KeepsRows m hOK wOK s s' ∧ Same s' :=
      fun i s z s' hz => h1 i s z s' (List.mem_cons_of_mem _ hz)
    rw [mergeOnPressure] at h
    cases k with
    | zero =>
      obtain rfl : y = x := Option.some.inj hk
      rw [if_pos hm, show has i = .ok true from hhas, ok_bind, if_pos ⟨rfl, h0⟩, if_neg (not_lt.2 hpb)] at h
      split at h
      · rename_i hmem
        obtain ⟨s1, e1, h⟩ := run_inv h
        exact ⟨s, s1, hI, Or.inl ⟨hmem, e1⟩, fun hs => keeps_onPressure h1' h2 hs h⟩
      · rename_i hmem
        obtain ⟨s1, e1, h⟩ := run_inv h
        exact ⟨s, s1, hI, Or.inr ⟨hmem, e1⟩, fun hs => keeps_onPressure h1' h2 hs h⟩
    | succ k =>
      have hk' : l[k]? = some x := hk
      have hy : |x| ≤ |y| := hle 0 y (by omega) rfl
      have hle' : ∀ (j : Nat) z, j < k → l[j]? = some z → |x| ≤ |z| := fun j z hj hz => hle (j + 1) z (by omega) hz
      have ea : ∀ j, i + 1 + j = i + (j + 1) := fun j => by omega
      have go : ∀ {s pb}, I s → |x| ≤ pb → mergeOnPressure m has pr fr l (i + 1) s pb = .ok r → _ := fun {s pb} hI hpb h =>
        ih (k := k) (i := i + 1) (s := s) (pbot := pb) hk' hpb hle' (by rw [ea]; exact hhas) hI
          (fun j z s s' hj hz => by rw [ea]; exact hI1 (j + 1) z s s' (by omega) hz)
          (fun j z s s' hj hz => by rw [ea]; exact hI2 (j + 1) z s s' (by omega) hz) h1' h
      rw [ea] at go
      obtain ⟨ok, _, h⟩ := run_inv h
      split at h
      · split at h
        · exact go hI hpb h
        · split at h
          · rename_i hmem
            obtain ⟨s1, e1, h⟩ := run_inv h
            exact go (hI1 0 y s s1 (by omega) rfl hI hmem e1) hy h
          · rename_i hmem
            obtain ⟨s1, e1, h⟩ := run_inv h
            exact go (hI2 0 y s s1 (by omega) rfl hI hmem e1) hy h
      · exact go hI hy h

/-- An invariant, and a bound on the bottom pressure, through a whole part. -/
theorem onPressure_inv {has : Nat → Run Bool} {pr : Nat → Snd α → Nat → Run (Snd α)} {fr : Nat → Snd α → α → Run (Snd α)} {l : List α}
    {i : Nat} {s : Snd α} {pbot : α} {r : Snd α × α} (I : Snd α → Prop) (hI : I s)
    (hI1 : ∀ i y s s', y ∈ l → I s → |y| ∈ s.pres → pr i s (s.pres.idxOf |y|) = .ok s' → I s')
    (hI2 : ∀ i y s s', y ∈ l → I s → |y| ∉ s.pres → fr i s |y| = .ok s' → I s')
    (h : mergeOnPressure m has pr fr l i s pbot = .ok r) : I r.1 ∧ ∀ P, P ≤ pbot → (∀ y ∈ l, P ≤ |y|) → P ≤ r.2 := by
  induction l generalizing i s pbot with
  | nil => obtain rfl := Except.ok.inj h; exact ⟨hI, fun _ h _ => h⟩
  | cons y l ih =>
    have go : ∀ {s pb}, I s → mergeOnPressure m has pr fr l (i + 1) s pb = .ok r → _ := fun {s pb} hI h => ih (s := s) (pbot := pb) hI
      (fun i z s s' hz => hI1 i z s s' (List.mem_cons_of_mem _ hz)) (fun i z s s' hz => hI2 i z s s' (List.mem_cons_of_mem _ hz)) h
    rw [mergeOnPressure] at h
    obtain ⟨ok, _, h⟩ := run_inv h
    have fin : ∀ {s pb}, I s → (∀ P, P ≤ pbot → P ≤ |y| → P ≤ pb) → mergeOnPressure m has pr fr l (i + 1) s pb = .ok r →
        I r.1 ∧ ∀ P, P ≤ pbot → (∀ z ∈ y :: l, P ≤ |z|) → P ≤ r.2 := by
      intro s pb hI hb h
      obtain ⟨a, b⟩ := go hI h
      exact ⟨a, fun P h1 h2 => b P (hb P h1 (h2 y List.mem_cons_self)) fun z hz => h2 z (List.mem_cons_of_mem _ hz)⟩
    split at h
    · split at h
      · exact fin hI (fun P h _ => h) h
      · split at h
        · rename_i hmem
          obtain ⟨s1, e1, h⟩ := run_inv h
          exact fin (hI1 i y s s1 List.mem_cons_self hI hmem e1) (fun P _ h => h) h
        · rename_i hmem
          obtain ⟨s1, e1, h⟩ := run_inv h
          exact fin (hI2 i y s s1 List.mem_cons_self hI hmem e1) (fun P _ h => h) h
    · exact fin hI (fun P _ h => h) h

/-! ## The bottom level -/

/-- Columns of one length, not empty, the first pressure not below `P`. -/
structure Base (P m : α) (s : Snd α) : Prop where
  same : Same s
  pos : 0 < s.pres.length
  head : P ≤ s.pres.getD 0 m

theorem Base.insert {P x z t d r w : α} {s : Snd α} (h : Base P m s) : Base P m (s.insert (placeOf s x) x z t d r w) := by
  obtain ⟨n, hn⟩ := h.same
  have hs := insert_size hn (placeOf s x) x z t d r w
  refine ⟨⟨n + 1, hs⟩, by rw [hs.pres]; omega, ?_⟩
  obtain ⟨loc, e, h1, h2, h3⟩ := placeOf_spec s x m
  show P ≤ (pyInsert s.pres (placeOf s x) x).getD 0 m
  rw [e, getD_insert _ _ _ _ _ h1]
  by_cases hl : 0 < loc
  · rw [if_pos hl]; exact h.head
  · obtain rfl : loc = 0 := by omega
    rw [if_neg hl, if_pos rfl]
    rcases h2 with e | e
    · have := h.pos; omega
    · exact h.head.trans e.le

theorem Base.pres_eq {P : α} {s s' : Snd α} (h : Base P m s) (hp : s'.pres = s.pres) (hs : Same s') : Base P m s' :=
  ⟨hs, by rw [hp]; exact h.pos, by rw [hp]; exact h.head⟩

theorem mem_pyInsert {l : List α} {i : Int} {v y : α} (h : y ∈ pyInsert l i v) : y = v ∨ y ∈ l := by
  unfold pyInsert at h
  rcases List.mem_append.1 h with h | h
  · exact Or.inr (List.mem_of_mem_take h)
  · rcases List.mem_cons.1 h with h | h
    · exact Or.inl h
    · exact Or.inr (List.mem_of_mem_drop h)

theorem insert_row {s : Snd α} {n : Nat} (hs : s.Size n) (loc : Int) (p z t d r w : α) :
    ∃ k, (s.insert loc p z t d r w).pres.getD k m = p ∧ (s.insert loc p z t d r w).temp.getD k m = t ∧
      (s.insert loc p z t d r w).dwpt.getD k m = d ∧ (s.insert loc p z t d r w).drct.getD k m = r ∧
      (s.insert loc p z t d r w).sped.getD k m = w := by
  obtain ⟨k, hk, hle⟩ : ∃ k : Nat, (if loc < 0 then (loc + n).toNat else min loc.toNat n) = k ∧ k ≤ n := by
    refine ⟨_, rfl, ?_⟩
    split <;> omega
  have g : ∀ (l : List α) (v : α), l.length = n → (pyInsert l loc v).getD k m = v := by
    intro l v hl
    rw [pyInsert_nat, hl, hk, getD_insert _ _ _ _ _ (by omega), if_neg (by omega), if_pos rfl]
  exact ⟨k, g _ _ hs.pres, g _ _ hs.temp, g _ _ hs.dwpt, g _ _ hs.drct, g _ _ hs.sped⟩

theorem sigTPresent_cols {p : SndPart α} {i loc : Nat} {s s' : Snd α} (h : sigTPresent p m i s loc = .ok s') :
    s'.pres = s.pres ∧ s'.drct = s.drct ∧ s'.sped = s.sped := by
  unfold sigTPresent at h
  obtain ⟨t, _, h⟩ := run_inv h
  split at h
  · obtain ⟨_, _, h⟩ := run_inv h
    obtain ⟨_, _, h⟩ := run_inv h
    obtain ⟨_, _, h⟩ := run_inv h
    obtain ⟨_, _, h⟩ := run_inv h
    obtain rfl := Except.ok.inj h; exact ⟨rfl, rfl, rfl⟩
  · obtain rfl := Except.ok.inj h; exact ⟨rfl, rfl, rfl⟩

theorem tropPresent_pres {p : SndPart α} {i loc : Nat} {s s' : Snd α} (h : tropPresent p m i s loc = .ok s') :
    s'.pres = s.pres ∧ ∃ s1, sigTPresent p m i s loc = .ok s1 ∧ s'.temp = s1.temp ∧ s'.dwpt = s1.dwpt := by
  unfold tropPresent at h
  obtain ⟨t, ht, h⟩ := run_inv h
  obtain ⟨s1, h1, h⟩ := run_inv h
  obtain ⟨s2, h2, h⟩ := run_inv h
  obtain ⟨z, h3, h⟩ := run_inv h
  obtain rfl := Except.ok.inj h
  have e1 : sigTPresent p m i s loc = .ok s1 := by
    unfold sigTPresent
    rw [ht, ok_bind]
    exact h1
  have e2 : s2.temp = s1.temp ∧ s2.dwpt = s1.dwpt := by
    unfold setWind at h2
    obtain ⟨_, _, h2⟩ := run_inv h2
    split at h2
    · obtain ⟨_, _, h2⟩ := run_inv h2
      obtain ⟨_, _, h2⟩ := run_inv h2
      obtain ⟨_, _, h2⟩ := run_inv h2
      obtain ⟨_, _, h2⟩ := run_inv h2
      obtain rfl := Except.ok.inj h2
      exact ⟨rfl, rfl⟩
    · obtain rfl := Except.ok.inj h2; exact ⟨rfl, rfl⟩
  exact ⟨(setWind_cols h2).1.trans (sigTPresent_cols e1).1, s1, e1, e2.1, e2.2⟩

theorem windPresent_pres {p : SndPart α} {i loc : Nat} {s s' : Snd α} (h : windPresent p m i s loc = .ok s') :
    s'.pres = s.pres ∧ ∀ j, j ≠ loc → s'.drct.getD j m = s.drct.getD j m := by
  unfold windPresent at h
  obtain ⟨r, hr, h⟩ := run_inv h
  obtain ⟨w, hw, h⟩ := run_inv h
  split at h
  · obtain ⟨_, _, h⟩ := run_inv h
    obtain ⟨_, h1, h⟩ := run_inv h
    obtain ⟨_, _, h⟩ := run_inv h
    obtain ⟨_, h2, h⟩ := run_inv h
    obtain rfl := Except.ok.inj h
    exact ⟨rfl, fun j hj => getD_put_ne h1 hj⟩
  · obtain rfl := Except.ok.inj h; exact ⟨rfl, fun _ _ => rfl⟩

/-- A level with a temperature at the pressure; it is the one given if the pressure is new. -/
def TempAt (s : Snd α) (m P T D : α) (fresh : Prop) : Prop :=
  ∃ j, s.pres.getD j m = P ∧ s.temp.getD j m ≠ m ∧ (fresh → s.temp.getD j m = T ∧ s.dwpt.getD j m = D)

/-- A level with a wind at the pressure; it is the one given if the pressure has no wind yet. -/
def WindAt (s : Snd α) (m P R W : α) (fresh : Prop) : Prop :=
  ∃ j, s.pres.getD j m = P ∧ s.drct.getD j m ≠ m ∧ s.sped.getD j m ≠ m ∧ (fresh → s.drct.getD j m = R ∧ s.sped.getD j m = W)

theorem sigTPresent_at {p : SndPart α} {i : Nat} {P T : α} {s s' : Snd α} (hT : p.at "TEMP" i = .ok T) (hTm : T ≠ m)
    (h : sigTPresent p m i s (s.pres.idxOf P) = .ok s') : s'.temp.getD (s.pres.idxOf P) m ≠ m := by
  unfold sigTPresent at h
  obtain ⟨t, ht, h⟩ := run_inv h
  split at h
  · obtain ⟨a, ha, h⟩ := run_inv h
    obtain ⟨_, h1, h⟩ := run_inv h
    obtain ⟨_, _, h⟩ := run_inv h
    obtain ⟨_, h2, h⟩ := run_inv h
    obtain rfl := Except.ok.inj h
    obtain rfl := Except.ok.inj (ha.symm.trans hT)
    obtain ⟨hl, rfl⟩ := put_val h1
    show (s.temp.set _ _).getD _ m ≠ m
    rw [getD_set_same _ _ _ _ hl]; exact hTm
  · rename_i e
    obtain rfl := Except.ok.inj h
    rw [← idx_val m ht]; exact e

theorem windPresent_at {p : SndPart α} {i : Nat} {P R W : α} {s s' : Snd α} (hR : p.at "DRCT" i = .ok R) (hW : p.at "SPED" i = .ok W)
    (hRm : R ≠ m) (hWm : W ≠ m) (hP : P ∈ s.pres) (h : windPresent p m i s (s.pres.idxOf P) = .ok s') :
    WindAt s' m P R W (∀ j, s.pres.getD j m = P → s.drct.getD j m = m) := by
  refine ⟨s.pres.idxOf P, by rw [(windPresent_pres h).1]; exact idxOf_getD hP, ?_⟩
  unfold windPresent at h
  obtain ⟨r, hr, h⟩ := run_inv h
  obtain ⟨w, hw, h⟩ := run_inv h
  split at h
  · obtain ⟨a, ha, h⟩ := run_inv h
    obtain ⟨_, h1, h⟩ := run_inv h
    obtain ⟨b, hb, h⟩ := run_inv h
    obtain ⟨_, h2, h⟩ := run_inv h
    obtain rfl := Except.ok.inj h
    obtain rfl := Except.ok.inj (ha.symm.trans hR)
    obtain rfl := Except.ok.inj (hb.symm.trans hW)
    obtain ⟨hl, rfl⟩ := put_val h1
    obtain ⟨hl', rfl⟩ := put_val h2
    show (s.drct.set _ _).getD _ m ≠ m ∧ (s.sped.set _ _).getD _ m ≠ m ∧ (_ → (s.drct.set _ _).getD _ m = _ ∧ (s.sped.set _ _).getD _ m = _)
    rw [getD_set_same _ _ _ _ hl, getD_set_same _ _ _ _ hl']
    exact ⟨hRm, hWm, fun _ => ⟨rfl, rfl⟩⟩
  · rename_i e
    obtain rfl := Except.ok.inj h
    obtain ⟨e1, e2⟩ := not_or.1 e
    rw [if_neg e1] at hw
    have e3 := idx_val m hr
    rw [← e3, ← idx_val m hw]
    exact ⟨e1, e2, fun hf => absurd (e3.trans (hf _ (idxOf_getD hP))) e1⟩

/-- Temperatures through later steps. -/
theorem TempAt.keep {s s' : Snd α} {P T D : α} {fresh : Prop} (hP : P ≠ m) (h : TempAt s m P T D fresh) (k : KeepsRows m hOK wOK s s') :
    ∃ j : Nat, s'.pres[j]? = some P ∧ ∃ T', s'.temp[j]? = some T' ∧ T' ≠ m ∧ (fresh → T' = T ∧ (D ≠ m → s'.dwpt[j]? = some D)) := by
  obtain ⟨j, h1, h2, h3⟩ := h
  obtain ⟨j', kj⟩ := k j
  have e1 := kj.pres (by rw [h1]; exact hP)
  have e2 := kj.temp h2
  refine ⟨j', some_getD (e1.trans h1) hP, s.temp.getD j m, some_getD e2 h2, h2, fun f => ?_⟩
  obtain ⟨h4, h5⟩ := h3 f
  exact ⟨h4, fun hD => some_getD ((kj.dwpt h2 (by rw [h5]; exact hD)).trans h5) hD⟩

theorem WindAt.keep {s s' : Snd α} {P R W : α} {fresh : Prop} (hP : P ≠ m) (hw : wOK) (h : WindAt s m P R W fresh) (k : KeepsRows m hOK wOK s s') :
    ∃ j : Nat, s'.pres[j]? = some P ∧ ∃ R' W', s'.drct[j]? = some R' ∧ s'.sped[j]? = some W' ∧ R' ≠ m ∧ W' ≠ m ∧ (fresh → R' = R ∧ W' = W) := by
  obtain ⟨j, h1, h2, h3, h4⟩ := h
  obtain ⟨j', kj⟩ := k j
  have e1 := kj.pres (by rw [h1]; exact hP)
  obtain ⟨e2, e3⟩ := kj.wind hw h2 h3
  exact ⟨j', some_getD (e1.trans h1) hP, s.drct.getD j m, s.sped.getD j m, some_getD e2 h2, some_getD e3 h3, h2, h3, h4⟩

/-! ## Parts -/

theorem at_getElem {p : SndPart α} {k : String} {i : Nat} {x : α} {col : List α} (h : p.at k i = .ok x) (hc : p.col k = .ok col) :
    col[i]? = some x := by
  unfold SndPart.at at h
  rw [hc, ok_bind] at h
  unfold idx at h
  split at h
  · rename_i w hw
    rw [hw, Except.ok.inj h]
  · cases h

theorem getElem_at {p : SndPart α} {k : String} {i : Nat} {x : α} {col : List α} (h : col[i]? = some x) (hc : p.col k = .ok col) :
    p.at k i = .ok x := by
  unfold SndPart.at
  rw [hc, ok_bind]
  unfold idx
  rw [h]

/-- A pressure is less than those of the first `hi` levels of a part, all taken as positive. -/
def Spec.AbsAbove (P : α) (p : SndPart α) (hi : Nat) : Prop := ∀ j x, j < hi → p.at "PRES" j = .ok x → P < |x|

theorem hasTemp {p : SndPart α} {i : Nat} {T : α} (hT : p.at "TEMP" i = .ok T) (hTm : T ≠ m) : hasValue p m "TEMP" i = .ok true := by
  unfold hasValue
  rw [hT, ok_bind, decide_eq_true hTm]

theorem hasWind_yes {p : SndPart α} {i : Nat} {R W : α} (hR : p.at "DRCT" i = .ok R) (hW : p.at "SPED" i = .ok W) (hRm : R ≠ m) (hWm : W ≠ m) :
    hasWind p m i = .ok true := by
  unfold hasWind
  rw [hR, ok_bind, if_pos hRm]
  unfold hasValue
  rw [hW, ok_bind, decide_eq_true hWm]

/-- The invariant for temperatures: the bottom, and the pressure being new. -/
def TInv (P m : α) (fresh : Prop) (s : Snd α) : Prop := Base P m s ∧ (fresh → P ∉ s.pres)

theorem TInv.ins {P x z t d r w : α} {fresh : Prop} {s : Snd α} (h : TInv P m fresh s) (hx : fresh → x ≠ P) :
    TInv P m fresh (s.insert (placeOf s x) x z t d r w) := by
  refine ⟨h.1.insert, fun f hmem => ?_⟩
  rcases mem_pyInsert hmem with e | e
  · exact hx f e.symm
  · exact h.2 f e

theorem TInv.same {P : α} {fresh : Prop} {s s' : Snd α} (h : TInv P m fresh s) (hp : s'.pres = s.pres) (hs : Same s') : TInv P m fresh s' :=
  ⟨h.1.pres_eq hp hs, fun f => by rw [hp]; exact h.2 f⟩

/-- A tropopause part without the pressure. -/
theorem trop_inv {P : α} {fresh : Prop} {p : SndPart α} {s : Snd α} {pbot : α} {r : Snd α × α} (h : TInv P m fresh s)
    (hf : fresh → ∀ col, p.col "PRES" = .ok col → ∀ y ∈ col, |y| ≠ P) (e : mergeTrop p m s pbot = .ok r) :
    TInv P m fresh r.1 ∧ (P ≤ pbot → (∀ col, p.col "PRES" = .ok col → ∀ y ∈ col, P ≤ |y|) → P ≤ r.2) := by
  unfold mergeTrop at e
  obtain ⟨col, hc, e⟩ := run_inv e
  suffices hs : TInv P m fresh r.1 ∧ ∀ P, P ≤ pbot → (∀ y ∈ col, P ≤ |y|) → P ≤ r.2 from ⟨hs.1, fun h1 h2 => hs.2 P h1 (h2 col hc)⟩
  refine onPressure_inv (I := TInv P m fresh) h ?_ ?_ e
  · intro i y s s' _ hI _ e
    obtain ⟨n, hn⟩ := hI.1.same
    exact hI.same (tropPresent_pres e).1 ⟨n, tropPresent_same hn e⟩
  · intro i y s s' hy hI _ e
    obtain ⟨t, d, r, w, rfl⟩ := tropNew_inv e
    exact hI.ins fun f => hf f col hc y hy

theorem sigT_inv {P : α} {fresh : Prop} {p : SndPart α} {s : Snd α} {pbot : α} {r : Snd α × α} (h : TInv P m fresh s)
    (hf : fresh → ∀ col, p.col "PRES" = .ok col → ∀ y ∈ col, |y| ≠ P) (e : mergeSigT p m s pbot = .ok r) :
    TInv P m fresh r.1 ∧ (P ≤ pbot → (∀ col, p.col "PRES" = .ok col → ∀ y ∈ col, P ≤ |y|) → P ≤ r.2) := by
  unfold mergeSigT at e
  obtain ⟨col, hc, e⟩ := run_inv e
  suffices hs : TInv P m fresh r.1 ∧ ∀ P, P ≤ pbot → (∀ y ∈ col, P ≤ |y|) → P ≤ r.2 from ⟨hs.1, fun h1 h2 => hs.2 P h1 (h2 col hc)⟩
  refine onPressure_inv (I := TInv P m fresh) h ?_ ?_ e
  · intro i y s s' _ hI _ e
    obtain ⟨n, hn⟩ := hI.1.same
    exact hI.same (sigTPresent_cols e).1 ⟨n, sigTPresent_same hn e⟩
  · intro i y s s' hy hI _ e
    obtain ⟨t, d, r, w, rfl⟩ := sigTNew_inv e
    exact hI.ins fun f => hf f col hc y hy

/-- The level of a part of significant temperatures. -/
theorem sigT_level {P : α} {fresh : Prop} {p : SndPart α} {s : Snd α} {pbot : α} {r : Snd α × α} {i : Nat} {x T D : α} (h : TInv P m fresh s)
    (hx : p.at "PRES" i = .ok x) (hxP : |x| = P) (hT : p.at "TEMP" i = .ok T) (hD : p.at "DWPT" i = .ok D) (hTm : T ≠ m) (h0 : P ≠ 0) (hPm : P ≠ m)
    (hpb : P ≤ pbot) (ha : AbsAbove P p i) (e : mergeSigT p m s pbot = .ok r) :
    ∃ s', TempAt s' m P T D fresh ∧ KeepsRows m hOK wOK s' r.1 := by
  unfold mergeSigT at e
  obtain ⟨col, hc, e⟩ := run_inv e
  subst hxP
  obtain ⟨sa, sb, hIa, hcase, hk⟩ := onPressure_level (hOK := hOK) (wOK := wOK) (k := i) (at_getElem hx hc) hpb
    (fun j y hj hy => (ha j y hj (getElem_at hy hc)).le) (by rw [Nat.zero_add]; exact hasTemp hT hTm) h0 hPm (TInv |x| m fresh) h
    (fun j y s s' hj hy hI _ e => by
      obtain ⟨n, hn⟩ := hI.1.same
      exact hI.same (sigTPresent_cols e).1 ⟨n, sigTPresent_same hn e⟩)
    (fun j y s s' hj hy hI _ e => by
      obtain ⟨t, d, r, w, rfl⟩ := sigTNew_inv e
      exact hI.ins fun _ => (ha j y hj (getElem_at hy hc)).ne')
    (fun i s x s' _ _ ⟨n, hn⟩ e => ⟨keeps_sigTPresent e, n, sigTPresent_same hn e⟩)
    (fun i s x s' ⟨n, hn⟩ e => by
      obtain ⟨t, d, r, w, rfl⟩ := sigTNew_inv e
      exact ⟨keeps_insert hn _ _ _ _ _ _ _, n + 1, insert_size hn _ _ _ _ _ _ _⟩) e
  obtain ⟨n, hn⟩ := hIa.1.same
  rw [Nat.zero_add] at hcase
  rcases hcase with ⟨hmem, e⟩ | ⟨_, e⟩
  · refine ⟨sb, ?_, hk ⟨n, sigTPresent_same hn e⟩⟩
    exact ⟨sa.pres.idxOf |x|, by rw [(sigTPresent_cols e).1]; exact idxOf_getD hmem, sigTPresent_at hT hTm e, fun f => absurd hmem (hIa.2 f)⟩
  · unfold sigTNew at e
    rw [hT, ok_bind, hD, ok_bind] at e
    obtain rfl := Except.ok.inj e
    refine ⟨_, ?_, hk ⟨n + 1, insert_size hn _ _ _ _ _ _ _⟩⟩
    obtain ⟨k, e1, e2, e3, _⟩ := insert_row (m := m) hn (placeOf sa |x|) |x| m T D m m
    exact ⟨k, e1, by rw [e2]; exact hTm, fun _ => ⟨e2, e3⟩⟩

/-- The level of a tropopause part. -/
theorem trop_level {P : α} {fresh : Prop} {p : SndPart α} {s : Snd α} {pbot : α} {r : Snd α × α} {i : Nat} {x T D R W : α} (h : TInv P m fresh s)
    (hx : p.at "PRES" i = .ok x) (hxP : |x| = P) (hT : p.at "TEMP" i = .ok T) (hD : p.at "DWPT" i = .ok D) (hR : p.at "DRCT" i = .ok R)
    (hW : p.at "SPED" i = .ok W) (hTm : T ≠ m) (h0 : P ≠ 0) (hPm : P ≠ m)
    (hpb : P ≤ pbot) (ha : AbsAbove P p i) (e : mergeTrop p m s pbot = .ok r) :
    ∃ s', TempAt s' m P T D fresh ∧ KeepsRows m (fun _ => False) wOK s' r.1 := by
  unfold mergeTrop at e
  obtain ⟨col, hc, e⟩ := run_inv e
  subst hxP
  obtain ⟨sa, sb, hIa, hcase, hk⟩ := onPressure_level (hOK := fun _ => False) (wOK := wOK) (k := i) (at_getElem hx hc) hpb
    (fun j y hj hy => (ha j y hj (getElem_at hy hc)).le) (by rw [Nat.zero_add]; exact hasTemp hT hTm) h0 hPm (TInv |x| m fresh) h
    (fun j y s s' hj hy hI _ e => by
      obtain ⟨n, hn⟩ := hI.1.same
      exact hI.same (tropPresent_pres e).1 ⟨n, tropPresent_same hn e⟩)
    (fun j y s s' hj hy hI _ e => by
      obtain ⟨t, d, r, w, rfl⟩ := tropNew_inv e
      exact hI.ins fun _ => (ha j y hj (getElem_at hy hc)).ne')
    (fun i s x s' _ _ ⟨n, hn⟩ e => ⟨keeps_tropPresent (fun h => h) e, n, tropPresent_same hn e⟩)
    (fun i s x s' ⟨n, hn⟩ e => by
      obtain ⟨t, d, r, w, rfl⟩ := tropNew_inv e
      exact ⟨keeps_insert hn _ _ _ _ _ _ _, n + 1, insert_size hn _ _ _ _ _ _ _⟩) e
  obtain ⟨n, hn⟩ := hIa.1.same
  rw [Nat.zero_add] at hcase
  rcases hcase with ⟨hmem, e⟩ | ⟨_, e⟩
  · refine ⟨sb, ?_, hk ⟨n, tropPresent_same hn e⟩⟩
    obtain ⟨ep, s1, e1, et, ed⟩ := tropPresent_pres e
    exact ⟨sa.pres.idxOf |x|, by rw [ep]; exact idxOf_getD hmem, by rw [et]; exact sigTPresent_at hT hTm e1, fun f => absurd hmem (hIa.2 f)⟩
  · unfold tropNew at e
    rw [hT, ok_bind, hD, ok_bind, hR, ok_bind, hW, ok_bind] at e
    obtain rfl := Except.ok.inj e
    refine ⟨_, ?_, hk ⟨n + 1, insert_size hn _ _ _ _ _ _ _⟩⟩
    obtain ⟨k, e1, e2, e3, _⟩ := insert_row (m := m) hn (placeOf sa |x|) |x| m T D R W
    exact ⟨k, e1, by rw [e2]; exact hTm, fun _ => ⟨e2, e3⟩⟩

/-! ## Winds -/

/-- The invariant for winds: the bottom, and no wind at the pressure. -/
def WInv (P m : α) (fresh : Prop) (s : Snd α) : Prop := Base P m s ∧ (fresh → ∀ j, s.pres.getD j m = P → s.drct.getD j m = m)

theorem TInv.toW {P : α} {fresh : Prop} {s : Snd α} (hPm : P ≠ m) (h : TInv P m fresh s) : WInv P m fresh s := by
  refine ⟨h.1, fun f j hj => absurd ?_ (h.2 f)⟩
  have := some_getD hj hPm
  exact List.mem_of_getElem? this

theorem WInv.ins {P x z t d r w : α} {fresh : Prop} {s : Snd α} (h : WInv P m fresh s) (hx : fresh → x ≠ P ∨ r = m) :
    WInv P m fresh (s.insert (placeOf s x) x z t d r w) := by
  refine ⟨h.1.insert, fun f j hj => ?_⟩
  obtain ⟨n, hn⟩ := h.1.same
  obtain ⟨loc, e, h1, _⟩ := placeOf_spec s x m
  have hlen : loc ≤ s.drct.length := by rw [hn.drct, ← hn.pres]; exact h1
  change (pyInsert s.pres (placeOf s x) x).getD j m = P at hj
  show (pyInsert s.drct (placeOf s x) r).getD j m = m
  rw [e, getD_insert _ _ _ _ _ h1] at hj
  rw [e, getD_insert _ _ _ _ _ hlen]
  by_cases hj1 : j < loc
  · rw [if_pos hj1] at hj ⊢; exact h.2 f j hj
  · rw [if_neg hj1] at hj ⊢
    by_cases hj2 : j = loc
    · rw [if_pos hj2] at hj ⊢
      exact (hx f).resolve_left fun h => h hj
    · rw [if_neg hj2] at hj ⊢; exact h.2 f _ hj

theorem WInv.same {P : α} {fresh : Prop} {s s' : Snd α} (h : WInv P m fresh s) (hp : s'.pres = s.pres) (hd : s'.drct = s.drct) (hs : Same s') :
    WInv P m fresh s' :=
  ⟨h.1.pres_eq hp hs, fun f j => by rw [hp, hd]; exact h.2 f j⟩

theorem WInv.wind {P y : α} {fresh : Prop} {p : SndPart α} {i : Nat} {s s' : Snd α} (h : WInv P m fresh s) (hy : fresh → y ≠ P) (hmem : y ∈ s.pres)
    (e : windPresent p m i s (s.pres.idxOf y) = .ok s') : WInv P m fresh s' := by
  obtain ⟨n, hn⟩ := h.1.same
  obtain ⟨e1, e2⟩ := windPresent_pres e
  refine ⟨h.1.pres_eq e1 ⟨n, windPresent_same hn e⟩, fun f j hj => ?_⟩
  rw [e1] at hj
  rw [e2 j]
  · exact h.2 f j hj
  · rintro rfl
    rw [idxOf_getD hmem] at hj
    exact hy f hj

theorem sigT_winv {P : α} {fresh : Prop} {p : SndPart α} {s : Snd α} {pbot : α} {r : Snd α × α} (h : WInv P m fresh s)
    (e : mergeSigT p m s pbot = .ok r) : WInv P m fresh r.1 := by
  unfold mergeSigT at e
  obtain ⟨col, hc, e⟩ := run_inv e
  refine (onPressure_inv (I := WInv P m fresh) h ?_ ?_ e).1
  · intro i y s s' _ hI _ e
    obtain ⟨n, hn⟩ := hI.1.same
    exact hI.same (sigTPresent_cols e).1 (sigTPresent_cols e).2.1 ⟨n, sigTPresent_same hn e⟩
  · intro i y s s' hy hI _ e
    unfold sigTNew at e
    obtain ⟨_, _, e⟩ := run_inv e
    obtain ⟨_, _, e⟩ := run_inv e
    obtain rfl := Except.ok.inj e
    exact hI.ins fun _ => Or.inr rfl

theorem wind_inv {P : α} {fresh : Prop} {p : SndPart α} {s : Snd α} {pbot : α} {r : Snd α × α} (h : WInv P m fresh s)
    (hf : fresh → ∀ col, p.col "PRES" = .ok col → ∀ y ∈ col, |y| ≠ P) (e : mergeWind p m s pbot = .ok r) :
    WInv P m fresh r.1 ∧ (P ≤ pbot → (∀ col, p.col "PRES" = .ok col → ∀ y ∈ col, P ≤ |y|) → P ≤ r.2) := by
  unfold mergeWind at e
  obtain ⟨col, hc, e⟩ := run_inv e
  suffices hs : WInv P m fresh r.1 ∧ ∀ P, P ≤ pbot → (∀ y ∈ col, P ≤ |y|) → P ≤ r.2 from ⟨hs.1, fun h1 h2 => hs.2 P h1 (h2 col hc)⟩
  refine onPressure_inv (I := WInv P m fresh) h ?_ ?_ e
  · intro i y s s' hy hI hmem e
    exact hI.wind (fun f => hf f col hc y hy) hmem e
  · intro i y s s' hy hI _ e
    obtain ⟨t, d, r, w, rfl⟩ := windNew_inv e
    exact hI.ins fun f => Or.inl (hf f col hc y hy)

/-- The level of a part of winds. -/
theorem wind_level {P : α} {fresh : Prop} {p : SndPart α} {s : Snd α} {pbot : α} {r : Snd α × α} {i : Nat} {x R W : α} (h : WInv P m fresh s)
    (hx : p.at "PRES" i = .ok x) (hxP : |x| = P) (hR : p.at "DRCT" i = .ok R) (hW : p.at "SPED" i = .ok W) (hRm : R ≠ m) (hWm : W ≠ m)
    (h0 : P ≠ 0) (hPm : P ≠ m) (hpb : P ≤ pbot) (ha : AbsAbove P p i) (e : mergeWind p m s pbot = .ok r) :
    ∃ s', WindAt s' m P R W fresh ∧ KeepsRows m hOK wOK s' r.1 := by
  unfold mergeWind at e
  obtain ⟨col, hc, e⟩ := run_inv e
  subst hxP
  obtain ⟨sa, sb, hIa, hcase, hk⟩ := onPressure_level (hOK := hOK) (wOK := wOK) (k := i) (at_getElem hx hc) hpb
    (fun j y hj hy => (ha j y hj (getElem_at hy hc)).le) (by rw [Nat.zero_add]; exact hasWind_yes hR hW hRm hWm) h0 hPm (WInv |x| m fresh) h
    (fun j y s s' hj hy hI hmem e => hI.wind (fun _ => (ha j y hj (getElem_at hy hc)).ne') hmem e)
    (fun j y s s' hj hy hI _ e => by
      obtain ⟨t, d, r, w, rfl⟩ := windNew_inv e
      exact hI.ins fun _ => Or.inl (ha j y hj (getElem_at hy hc)).ne')
    (fun i s x s' _ _ ⟨n, hn⟩ e => ⟨keeps_windPresent e, n, windPresent_same hn e⟩)
    (fun i s x s' ⟨n, hn⟩ e => by
      obtain ⟨t, d, r, w, rfl⟩ := windNew_inv e
      exact ⟨keeps_insert hn _ _ _ _ _ _ _, n + 1, insert_size hn _ _ _ _ _ _ _⟩) e
  obtain ⟨n, hn⟩ := hIa.1.same
  rw [Nat.zero_add] at hcase
  rcases hcase with ⟨hmem, e⟩ | ⟨_, e⟩
  · refine ⟨sb, ?_, hk ⟨n, windPresent_same hn e⟩⟩
    obtain ⟨j, e1, e2, e3, e4⟩ := windPresent_at hR hW hRm hWm hmem e
    exact ⟨j, e1, e2, e3, fun f => e4 (hIa.2 f)⟩
  · unfold windNew at e
    rw [hR, ok_bind, hW, ok_bind] at e
    obtain rfl := Except.ok.inj e
    refine ⟨_, ?_, hk ⟨n + 1, insert_size hn _ _ _ _ _ _ _⟩⟩
    obtain ⟨k, e1, e2, e3, e4, e5⟩ := insert_row (m := m) hn (placeOf sa |x|) |x| m m m R W
    exact ⟨k, e1, by rw [e4]; exact hRm, by rw [e5]; exact hWm, fun _ => ⟨e4, e5⟩⟩

end

end Gempak
