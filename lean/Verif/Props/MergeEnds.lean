import Verif.Proof.MergeEnds
import Verif.Props.Merge

/-!
# C72: merging a sounding ends
-/

namespace Gempak

set_option linter.unusedSectionVars false

open Spec

section
variable {α : Type} [Field α] [LinearOrder α]

/-! ## Mandatory levels -/

theorem appendNamed_cols {s s' : Snd α} {name : String} {v : α} (h : appendNamed s name v = .ok s') :
    s'.pres = s.pres ++ (if name = "PRES" then [v] else []) ∧ s'.hght = s.hght ++ (if name = "HGHT" then [v] else []) := by
  unfold appendNamed at h
  split at h
  · rename_i e
    obtain rfl := Except.ok.inj h
    rw [if_pos e, if_neg (by rw [e]; decide), List.append_nil]
    exact ⟨rfl, rfl⟩
  · rename_i e
    rw [if_neg e, List.append_nil]
    split at h
    · rename_i e'
      obtain rfl := Except.ok.inj h
      rw [if_pos e']
      exact ⟨rfl, rfl⟩
    · rename_i e'
      rw [if_neg e', List.append_nil]
      repeat' split at h
      all_goals first
        | (obtain rfl := Except.ok.inj h; exact ⟨rfl, rfl⟩)
        | cases h

theorem appendLevel_cols {i : Nat} {p : SndPart α} {s s' : Snd α} (h : appendLevel i p s = .ok s') :
    (∃ t, s'.hght = s.hght ++ t ∧ t.length = (names p).count "HGHT") ∧ ((names p).count "PRES" = 0 → s'.pres = s.pres) ∧
      ((names p).count "PRES" = 1 → ∃ v, p.at "PRES" i = .ok v ∧ s'.pres = s.pres ++ [v]) := by
  induction p generalizing s with
  | nil =>
    obtain rfl := Except.ok.inj h
    exact ⟨⟨[], by simp, rfl⟩, fun _ => rfl, fun h => by simp [names] at h⟩
  | cons x r ih =>
    obtain ⟨name, col⟩ := x
    rw [appendLevel] at h
    obtain ⟨v, hv, h⟩ := run_inv h
    obtain ⟨s1, h1, h⟩ := run_inv h
    obtain ⟨a1, a2⟩ := appendNamed_cols h1
    obtain ⟨⟨t2, b1, b0⟩, b2, b3⟩ := ih h
    have ec : ∀ k, (names ((name, col) :: r)).count k = (names r).count k + if name = k then 1 else 0 := by
      intro k
      simp only [names, List.map_cons, List.count_cons, beq_iff_eq]
    refine ⟨⟨(if name = "HGHT" then [v] else []) ++ t2, by rw [b1, a2, List.append_assoc], ?_⟩, ?_, ?_⟩
    · rw [ec, List.length_append, b0]
      split <;> simp; omega
    · intro h0
      rw [ec] at h0
      by_cases hn : name = "PRES"
      · rw [if_pos hn] at h0; omega
      · rw [if_neg hn] at h0 a1
        rw [b2 (by omega), a1, List.append_nil]
    · intro h0
      rw [ec] at h0
      by_cases hn : name = "PRES"
      · rw [if_pos hn] at h0 a1
        refine ⟨v, ?_, by rw [b2 (by omega), a1]⟩
        unfold SndPart.at SndPart.col
        rw [List.find?_cons_of_pos (by simpa using hn)]
        exact hv
      · rw [if_neg hn] at h0 a1
        obtain ⟨w, c1, c2⟩ := b3 (by omega)
        refine ⟨w, ?_, by rw [c2, a1, List.append_nil]⟩
        unfold SndPart.at SndPart.col at c1 ⊢
        rw [List.find?_cons_of_neg (by simpa using hn)]
        exact c1

/-- A part is a `dict`: no column occurs twice. -/
def Spec.OnceNamed (p : SndPart α) : Prop := (p.map Prod.fst).Nodup

/-- A column that can be read is there, and only once. -/
theorem count_of_at {p : SndPart α} {name : String} {i : Nat} {v : α} (hp : OnceNamed p) (h : p.at name i = .ok v) : (names p).count name = 1 := by
  unfold SndPart.at at h
  obtain ⟨c, hc, _⟩ := run_inv h
  unfold SndPart.col at hc
  split at hc
  · rename_i q hq
    have h1 := List.mem_of_find?_eq_some hq
    have h2 : q.1 = name := by simpa using List.find?_some hq
    refine List.count_eq_one_of_mem hp ?_
    rw [← h2]
    exact List.mem_map_of_mem h1
  · cases hc

/-- The levels so far are in order and `plast` is the last pressure, once there is one. -/
def ManInv (s : Snd α) (m plast : α) : Prop := ∃ n k, OrdInv s m n k ∧ (k < n → plast = s.pres.getD (n - 1) m)

theorem getD_append_left (l t : List α) (i : Nat) (m : α) (h : i < l.length) : (l ++ t).getD i m = l.getD i m := by
  rw [List.getD_eq_getElem?_getD, List.getElem?_append_left h, List.getD_eq_getElem?_getD]

theorem takesLevel_true {p : SndPart α} {m plast : α} {i : Nat} (h : takesLevel p m plast i = .ok true) :
    ∃ v, p.at "PRES" i = .ok v ∧ ∃ z, p.at "HGHT" i = .ok z ∧ v < plast := by
  unfold takesLevel at h
  obtain ⟨v, hv, h⟩ := run_inv h
  split at h
  · rename_i hlt
    split at h
    · obtain ⟨_, _, h⟩ := run_inv h
      split at h
      · obtain ⟨z, hz, _⟩ := run_inv h
        exact ⟨v, hv, z, hz, hlt⟩
      · cases h
    · cases h
  · cases h

theorem mergeMan_order {p : SndPart α} {m : α} {N i : Nat} {s : Snd α} {plast : α} {bgl : Nat} {r : Snd α × α × Nat} (hp : OnceNamed p)
    (hs : ManInv s m plast) (h : mergeMan p m N i s plast bgl = .ok r) : ManInv r.1 m r.2.1 := by
  induction N generalizing i s plast bgl with
  | zero => obtain rfl := Except.ok.inj h; exact hs
  | succ N ih =>
    rw [mergeMan] at h
    obtain ⟨b, hb, h⟩ := run_inv h
    split at h
    · rename_i hbt
      obtain ⟨s1, h1, h⟩ := run_inv h
      obtain ⟨pl, h2, h⟩ := run_inv h
      refine ih ?_ h
      obtain ⟨n, k, inv, hl⟩ := hs
      obtain ⟨⟨t, ez, et⟩, _, hpr⟩ := appendLevel_cols h1
      subst hbt
      obtain ⟨v, ev, z, hz, hlt⟩ := takesLevel_true hb
      obtain ⟨v', ev', epr⟩ := hpr (count_of_at hp ev)
      obtain rfl : v = v' := Except.ok.inj (ev.symm.trans ev')
      have hn := inv.pres
      have hsp : s1.pres.length = n + 1 := by rw [epr, List.length_append, hn]; rfl
      have hsz : s1.hght.length = n + 1 := by rw [ez, List.length_append, inv.hght, et, count_of_at hp hz]
      have hlast : s1.pres.getD n m = v := by
        rw [epr, List.getD_eq_getElem?_getD, ← hn, List.getElem?_concat_length]; rfl
      have hold : ∀ j, j < n → s1.pres.getD j m = s.pres.getD j m := fun j hj => by rw [epr, getD_append_left _ _ _ _ (by omega)]
      refine ⟨n + 1, k, ⟨hsp, hsz, by have := inv.le; omega, ?_, ?_, ?_⟩, ?_⟩
      · intro a c h1 h2 h3
        by_cases ec : c = n
        · subst ec
          rw [hlast, hold a h2]
          have e := hl (by omega)
          by_cases ea : a = c - 1
          · rw [ea, ← e]; exact hlt
          · exact (e ▸ hlt).trans (inv.falls a (c - 1) h1 (by omega) (by omega))
        · rw [hold c (by omega), hold a (by omega)]
          exact inv.falls a c h1 h2 (by omega)
      · by_cases hk : k = 0
        · exact Or.inl hk
        · rcases inv.gap with e | e
          · exact Or.inl e
          · right; rw [hold _ (by have := inv.le; omega)]; exact e
      · intro j hj
        have := inv.le
        rw [ez, getD_append_left _ _ _ _ (by rw [inv.hght]; omega), hold j (by omega)]
        exact inv.blank j hj
      · intro _
        have := idx_val m h2
        rw [this, hsp]
    · obtain ⟨_, _, h⟩ := run_inv h
      obtain ⟨_, _, h⟩ := run_inv h
      exact ih hs h

theorem setWind_cols {m : α} {s s' : Snd α} {loc : Nat} {r w : Run α} (h : setWind m s loc r w = .ok s') : s'.pres = s.pres ∧ s'.hght = s.hght := by
  unfold setWind at h
  obtain ⟨_, _, h⟩ := run_inv h
  split at h
  · obtain ⟨_, _, h⟩ := run_inv h
    obtain ⟨_, _, h⟩ := run_inv h
    obtain ⟨_, _, h⟩ := run_inv h
    obtain ⟨_, _, h⟩ := run_inv h
    obtain rfl := Except.ok.inj h
    exact ⟨rfl, rfl⟩
  · obtain rfl := Except.ok.inj h; exact ⟨rfl, rfl⟩

theorem mergeManWind_order {p : SndPart α} {m : α} {l : List α} {i : Nat} {s s' : Snd α} (hs : Ordered s m)
    (h : mergeManWind p m l i s = .ok s') : Ordered s' m := by
  induction l generalizing i s with
  | nil => obtain rfl := Except.ok.inj h; exact hs
  | cons x r ih =>
    rw [mergeManWind] at h
    split at h
    · obtain ⟨s1, h1, h⟩ := run_inv h
      obtain ⟨e1, e2⟩ := setWind_cols h1
      exact ih (hs.blank e1 (by rw [e2]) (fun j => by rw [e2]; exact Or.inl rfl)) h
    · exact ih hs h

theorem mergeMandatory_order {ps : SndParts α} {m : α} {c : Counts} {z : Bool} {b : Option (SndPart α)} {r : Snd α × Nat}
    (hA : ∀ p, ps.part "TTAA" = some p → OnceNamed p) (hC : ∀ p, ps.part "TTCC" = some p → OnceNamed p)
    (h : mergeMandatory ps m c z b = .ok r) : Ordered r.1 m := by
  have hget : ∀ {n p}, ps.get n = .ok p → ps.part n = some p := by
    intro n p e
    unfold SndParts.get at e
    split at e
    · rename_i q hq; rw [hq, Except.ok.inj e]
    · cases e
  unfold mergeMandatory at h
  obtain ⟨s0, h0, h⟩ := run_inv h
  obtain ⟨f, _, h⟩ := run_inv h
  obtain ⟨s1, h1, h⟩ := run_inv h
  obtain ⟨s2, h2, h⟩ := run_inv h
  obtain ⟨s3, h3, h⟩ := run_inv h
  obtain ⟨p0, hp0, h⟩ := run_inv h
  have st := surfaceSigW_same (surfaceSigT_same (surfaceCheck_same (surfaceLevel_same h0) h1) h2) h3
  have ep := idx_val m hp0
  dsimp only at h
  have inv0 : ManInv s3 m (if p0 = m then 2000 else p0) := by
    by_cases e : p0 = m
    · exact ⟨1, 1, ⟨st.pres, st.hght, le_refl _, fun i j _ _ _ => by omega, Or.inr (by rw [← ep]; exact e),
        fun j hj => by obtain rfl : j = 0 := by omega
                       exact Or.inr (by rw [← ep]; exact e)⟩, fun h => by omega⟩
    · rw [if_neg e]
      exact ⟨1, 0, ⟨st.pres, st.hght, by omega, fun i j _ _ _ => by omega, Or.inl rfl, fun j hj => by omega⟩, fun _ => ep⟩
  generalize (if p0 = m then (2000 : α) else p0) = pl at h inv0
  obtain ⟨r4, h4, h⟩ := run_inv h
  have i4 : ManInv r4.1 m r4.2.1 := by
    rcases whenSome_inv h4 with ⟨_, e⟩ | ⟨_, rfl⟩
    · obtain ⟨p, hp, e⟩ := run_inv e
      exact mergeMan_order (hA p (hget hp)) inv0 e
    · exact inv0
  obtain ⟨r5, h5, h⟩ := run_inv h
  have i5 : ManInv r5.1 m r5.2.1 := by
    rcases whenSome_inv h5 with ⟨_, e⟩ | ⟨_, rfl⟩
    · obtain ⟨p, hp, e⟩ := run_inv e
      exact mergeMan_order (hC p (hget hp)) i4 e
    · exact i4
  have o5 : Ordered r5.1 m := by
    obtain ⟨n, k, i, _⟩ := i5
    exact ⟨n, k, i⟩
  obtain ⟨s6, h6, h⟩ := run_inv h
  have o6 : Ordered s6 m := by
    split at h6
    · obtain ⟨p, _, h6⟩ := run_inv h6
      obtain ⟨_, _, h6⟩ := run_inv h6
      exact mergeManWind_order o5 h6
    · obtain rfl := Except.ok.inj h6; exact o5
  obtain ⟨s7, h7, h⟩ := run_inv h
  have o7 : Ordered s7 m := by
    split at h7
    · obtain ⟨p, _, h7⟩ := run_inv h7
      obtain ⟨_, _, h7⟩ := run_inv h7
      exact mergeManWind_order o6 h7
    · obtain rfl := Except.ok.inj h7; exact o6
  obtain rfl := Except.ok.inj h
  exact o7

/-! ## Levels on pressure -/

theorem mergeOnPressure_order {m : α} {has : Nat → Run Bool} {pr : Nat → Snd α → Nat → Run (Snd α)} {fr : Nat → Snd α → α → Run (Snd α)}
    (h1 : ∀ i s loc s', Ordered s m → pr i s loc = .ok s' → Ordered s' m)
    (h2 : ∀ i s p s', fr i s p = .ok s' → ∃ t d r w, s' = s.insert (placeOf s p) p m t d r w)
    {l : List α} {i : Nat} {s : Snd α} {pbot : α} {r : Snd α × α} (hs : Ordered s m) (h : mergeOnPressure m has pr fr l i s pbot = .ok r) :
    Ordered r.1 m := by
  induction l generalizing i s pbot with
  | nil => obtain rfl := Except.ok.inj h; exact hs
  | cons x xs ih =>
    rw [mergeOnPressure] at h
    obtain ⟨_, _, h⟩ := run_inv h
    split at h
    · split at h
      · exact ih hs h
      · split at h
        · obtain ⟨s1, e1, h⟩ := run_inv h
          exact ih (h1 _ _ _ _ hs e1) h
        · rename_i hx
          obtain ⟨s1, e1, h⟩ := run_inv h
          obtain ⟨t, d, r', w, rfl⟩ := h2 _ _ _ _ e1
          exact ih (hs.insert hx t d r' w) h
    · exact ih hs h

theorem mergeTrop_order {p : SndPart α} {m : α} {s : Snd α} {pbot : α} {r : Snd α × α} (hs : Ordered s m)
    (h : mergeTrop p m s pbot = .ok r) : Ordered r.1 m := by
  unfold mergeTrop at h
  obtain ⟨_, _, h⟩ := run_inv h
  refine mergeOnPressure_order ?_ (fun i s p s' e => tropNew_inv e) hs h
  intro i s loc s' ho e
  unfold tropPresent at e
  obtain ⟨_, _, e⟩ := run_inv e
  obtain ⟨s1, e1, e⟩ := run_inv e
  obtain ⟨s2, e2, e⟩ := run_inv e
  obtain ⟨hh, e3, e⟩ := run_inv e
  have c1 : s1.pres = s.pres ∧ s1.hght = s.hght := by
    split at e1
    · obtain ⟨_, _, e1⟩ := run_inv e1
      obtain ⟨_, _, e1⟩ := run_inv e1
      obtain ⟨_, _, e1⟩ := run_inv e1
      obtain ⟨_, _, e1⟩ := run_inv e1
      obtain rfl := Except.ok.inj e1
      exact ⟨rfl, rfl⟩
    · obtain rfl := Except.ok.inj e1; exact ⟨rfl, rfl⟩
  have c2 := setWind_cols e2
  obtain rfl := Except.ok.inj e
  obtain ⟨hl, rfl⟩ := put_val e3
  refine ho.blank (c2.1.trans c1.1) (by simp [c2.2, c1.2]) fun j => ?_
  show (s2.hght.set loc m).getD j m = _ ∨ (s2.hght.set loc m).getD j m = m
  rw [List.getD_eq_getElem?_getD, List.getElem?_set]
  by_cases ej : loc = j
  · subst ej
    right
    rw [if_pos rfl, if_pos hl]; rfl
  · left
    rw [if_neg ej, c2.2, c1.2, List.getD_eq_getElem?_getD]

theorem mergeSigT_order {p : SndPart α} {m : α} {s : Snd α} {pbot : α} {r : Snd α × α} (hs : Ordered s m)
    (h : mergeSigT p m s pbot = .ok r) : Ordered r.1 m := by
  unfold mergeSigT at h
  obtain ⟨_, _, h⟩ := run_inv h
  refine mergeOnPressure_order ?_ (fun i s p s' e => sigTNew_inv e) hs h
  intro i s loc s' ho e
  unfold sigTPresent at e
  obtain ⟨_, _, e⟩ := run_inv e
  split at e
  · obtain ⟨_, _, e⟩ := run_inv e
    obtain ⟨_, _, e⟩ := run_inv e
    obtain ⟨_, _, e⟩ := run_inv e
    obtain ⟨_, _, e⟩ := run_inv e
    obtain rfl := Except.ok.inj e
    exact ho.blank rfl rfl fun j => Or.inl rfl
  · obtain rfl := Except.ok.inj e; exact ho

theorem mergeWind_order {p : SndPart α} {m : α} {s : Snd α} {pbot : α} {r : Snd α × α} (hs : Ordered s m)
    (h : mergeWind p m s pbot = .ok r) : Ordered r.1 m := by
  unfold mergeWind at h
  obtain ⟨_, _, h⟩ := run_inv h
  refine mergeOnPressure_order ?_ (fun i s p s' e => windNew_inv e) hs h
  intro i s loc s' ho e
  unfold windPresent at e
  obtain ⟨_, _, e⟩ := run_inv e
  obtain ⟨_, _, e⟩ := run_inv e
  split at e
  · obtain ⟨_, _, e⟩ := run_inv e
    obtain ⟨_, _, e⟩ := run_inv e
    obtain ⟨_, _, e⟩ := run_inv e
    obtain ⟨_, _, e⟩ := run_inv e
    obtain rfl := Except.ok.inj e
    exact ho.blank rfl rfl fun j => Or.inl rfl
  · obtain rfl := Except.ok.inj e; exact ho

theorem mergePair_order {n1 n2 : Nat} {m : α} {bot : Snd α → Run α} {f1 f2 : Snd α → α → Run (Snd α × α)}
    (h1 : ∀ s p r, Ordered s m → f1 s p = .ok r → Ordered r.1 m) (h2 : ∀ s p r, Ordered s m → f2 s p = .ok r → Ordered r.1 m) {s s' : Snd α}
    (hs : Ordered s m) (h : mergePair n1 n2 bot f1 f2 s = .ok s') : Ordered s' m := by
  unfold mergePair at h
  split at h
  · obtain ⟨b, _, h⟩ := run_inv h
    obtain ⟨r1, e1, h⟩ := run_inv h
    obtain ⟨r2, e2, h⟩ := run_inv h
    obtain rfl := Except.ok.inj h
    have o1 : Ordered r1.1 m := by
      rcases whenSome_inv e1 with ⟨_, e⟩ | ⟨_, rfl⟩
      · exact h1 _ _ _ hs e
      · exact hs
    rcases whenSome_inv e2 with ⟨_, e⟩ | ⟨_, rfl⟩
    · exact h2 _ _ _ o1 e
    · exact o1
  · obtain rfl := Except.ok.inj h; exact hs

theorem ends_mergeLevels (c : Calc α) (m : α) (ps : SndParts α) (n : Counts) (x y : Bool) (b d : Option (SndPart α)) (s : Snd α)
    (ho : Ordered s m) :
    ∃ N, ∀ fuel, N ≤ fuel → Ends (mergeLevels c m fuel ps n x y b d s) := by
  by_cases hall : ∃ s1 s2 s4 s5 s3,
      mergePair n.trop n.aTrop (bottomOf ps m "TRPA") (withPart ps "TRPA" (mergeTrop · m)) (withPart ps "TRPC" (mergeTrop · m)) s = .ok s1 ∧
      mergePair n.sigT n.aSigT (bottomOf ps m "TTBB") (withPart ps "TTBB" (mergeSigT · m)) (withPart ps "TTDD" (mergeSigT · m)) s1 = .ok s2 ∧
      interpMoistHeight c m s2.pres.length s2 = .ok s3 ∧
      mergePair (if x then 0 else n.sigW) (if y then 0 else n.aSigW) (windBottom m) (withOpt b (mergeWind · m)) (withOpt d (mergeWind · m)) s3 = .ok s4 ∧
      mergePair n.maxWind n.aMaxWind (windBottom m) (withPart ps "MXWA" (mergeWind · m)) (withPart ps "MXWC" (mergeWind · m)) s4 = .ok s5
  · obtain ⟨s1, s2, s4, s5, s3, e1, e2, e3, e4, e5⟩ := hall
    have o1 := mergePair_order (fun s p r h e => mergeTrop_order h (withPart_inv e).choose_spec)
      (fun s p r h e => mergeTrop_order h (withPart_inv e).choose_spec) ho e1
    have o2 := mergePair_order (fun s p r h e => mergeSigT_order h (withPart_inv e).choose_spec)
      (fun s p r h e => mergeSigT_order h (withPart_inv e).choose_spec) o1 e2
    have o3 := moist_order o2 e3
    have o4 := mergePair_order (fun s p r h e => mergeWind_order h (withOpt_inv e).choose_spec)
      (fun s p r h e => mergeWind_order h (withOpt_inv e).choose_spec) o3 e4
    have o5 := mergePair_order (fun s p r h e => mergeWind_order h (withPart_inv e).choose_spec)
      (fun s p r h e => mergeWind_order h (withPart_inv e).choose_spec) o4 e5
    refine ⟨s5.pres.length, fun fuel hf => ?_⟩
    unfold mergeLevels
    rw [e1, ok_bind, e2, ok_bind, e3, ok_bind, e4, ok_bind, e5, ok_bind]
    exact ends_logpHeight c m s5 o5 fuel hf
  · refine ⟨0, fun fuel _ => ?_⟩
    unfold mergeLevels
    refine ends_bind (ends_mergePair _ _ (ends_bottomOf _ _ _) (ends_withPart _ _ fun p => ends_mergeTrop p m)
      (ends_withPart _ _ fun p => ends_mergeTrop p m) _) fun s1 e1 => ?_
    refine ends_bind (ends_mergePair _ _ (ends_bottomOf _ _ _) (ends_withPart _ _ fun p => ends_mergeSigT p m)
      (ends_withPart _ _ fun p => ends_mergeSigT p m) _) fun s2 e2 => ?_
    refine ends_bind (ends_moist _ _ _ _ (le_refl _)) fun s3 e3 => ?_
    refine ends_bind (ends_mergePair _ _ (ends_windBottom _) (ends_withOpt _ fun p => ends_mergeWind p m)
      (ends_withOpt _ fun p => ends_mergeWind p m) _) fun s4 e4 => ?_
    refine ends_bind (ends_mergePair _ _ (ends_windBottom _) (ends_withPart _ _ fun p => ends_mergeWind p m)
      (ends_withPart _ _ fun p => ends_mergeWind p m) _) fun s5 e5 => ?_
    exact absurd ⟨s1, s2, s4, s5, s3, e1, e2, e3, e4, e5⟩ hall

/-- C72: merging always ends, with a sounding or with an error, whatever the parts hold and whatever the missing value is: there is a number of
rounds after which no loop is still running.  A part cannot have a column twice. -/
theorem C72_ends [IsStrictOrderedRing α] [FloorRing α] (c : Calc α) (m : α) (ps : SndParts α)
    (hA : ∀ p, ps.part "TTAA" = some p → OnceNamed p) (hC : ∀ p, ps.part "TTCC" = some p → OnceNamed p) :
    ∃ N, ∀ fuel, N ≤ fuel → mergeSounding c m fuel ps ≠ .error .outOfFuel := by
  cases e0 : ps.counts with
  | error e =>
    refine ⟨0, fun fuel _ => ?_⟩
    unfold mergeSounding
    exact ends_bind (ends_counts ps) fun n hn => by rw [hn] at e0; cases e0
  | ok n =>
    by_cases h0 : n.total = 0
    · refine ⟨0, fun fuel _ => ?_⟩
      unfold mergeSounding
      rw [e0, ok_bind, if_pos h0]
      exact ends_ok _
    · cases e1 : windCoord ps m "PPBB" n.sigW with
      | error e =>
        refine ⟨0, fun fuel _ => ?_⟩
        unfold mergeSounding
        rw [e0, ok_bind, if_neg h0]
        exact ends_bind (ends_windCoord _ _ _ _) fun b hb => by rw [hb] at e1; cases e1
      | ok b =>
        cases e2 : windCoord ps m "PPDD" n.aSigW with
        | error e =>
          refine ⟨0, fun fuel _ => ?_⟩
          unfold mergeSounding
          rw [e0, ok_bind, if_neg h0, e1, ok_bind]
          exact ends_bind (ends_windCoord _ _ _ _) fun b hb => by rw [hb] at e2; cases e2
        | ok d =>
          cases e3 : mergeMandatory ps m n b.1 b.2 with
          | error e =>
            refine ⟨0, fun fuel _ => ?_⟩
            unfold mergeSounding
            rw [e0, ok_bind, if_neg h0, e1, ok_bind, e2, ok_bind]
            exact ends_bind (ends_mergeMandatory _ _ _ _ _) fun b hb => by rw [hb] at e3; cases e3
          | ok r =>
            obtain ⟨N, hN⟩ := ends_mergeLevels c m ps n b.1 d.1 b.2 d.2 r.1 (mergeMandatory_order hA hC e3)
            refine ⟨N, fun fuel hf => ?_⟩
            unfold mergeSounding
            rw [e0, ok_bind, if_neg h0, e1, ok_bind, e2, ok_bind, e3, ok_bind]
            exact ends_bind (hN fuel hf) fun s _ => ends_bind (ends_mergeRest _ _ _ _ _ _ _ _ _ _ _) fun _ _ => ends_ok _

end

/-- An upper part without winds: the columns of the merged sounding have different lengths. -/
def windless : SndParts ℚ :=
  ⟨100, fun x => if x = "TTCC" then some [("PRES", [70, 50]), ("TEMP", [-60, -55]), ("DWPT", [-80, -85]), ("HGHT", [18500, 20600])] else mergeSample.part x⟩

/-- The hypotheses of `C72_ends` hold for it, and merging it ends with an error. -/
theorem C72_windless : (∀ p, windless.part "TTAA" = some p → OnceNamed p) ∧ (∀ p, windless.part "TTCC" = some p → OnceNamed p) ∧
    mergeSounding ⟨fun x => x - 1, fun x => x + 1⟩ (-9999) 5 windless = .error (.raised .indexError) := by
  refine ⟨?_, ?_, by decide +kernel⟩
  · intro p hp
    obtain rfl := Option.some.inj hp
    unfold OnceNamed; decide
  · intro p hp
    obtain rfl := Option.some.inj hp
    unfold OnceNamed; decide

end Gempak
