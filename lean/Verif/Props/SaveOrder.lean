import Verif.Props.Order

/-!
# C128: the bytes of a saved file

What is written is settled by what was accepted last for every time and place: neither the order of the calls, nor calls that
were refused, nor earlier calls for the same time and place leave a trace in the bytes.
-/

namespace Gempak
open Spec

/-! ## Specification -/

/-- The host compares coordinates as numbers, and equal numbers are the same coordinate. -/
structure Spec.Compares {κ : Type} (le : κ → κ → Bool) : Prop extends Ordered le where
  antisymm : ∀ a b, le a b = true → le b a = true → a = b

/-! ## Sorting -/

/-- Two comparisons of the same things, in both directions. -/
theorem lexLe_antisymm {l m : List (Bool × Bool)} (h : List.Forall₂ (fun x y => y = (x.2, x.1) ∧ ¬ (x.1 = true ∧ x.2 = true)) l m)
    (h1 : lexLe l = true) (h2 : lexLe m = true) : ∀ x ∈ l, x = (false, false) := by
  induction h with
  | nil => intro x hx; cases hx
  | @cons x y l m hxy h ih =>
    obtain ⟨a, b⟩ := x
    obtain ⟨rfl, hn⟩ := hxy
    rw [lexLe_step] at h1 h2
    cases a <;> cases b
    · intro x hx
      rcases List.mem_cons.1 hx with rfl | hx
      · rfl
      · exact ih h1 h2 x hx
    · cases h1
    · cases h2
    · exact absurd ⟨rfl, rfl⟩ hn

theorem cmpNat_pair (a b : Nat) : cmpNat b a = ((cmpNat a b).2, (cmpNat a b).1) ∧ ¬ ((cmpNat a b).1 = true ∧ (cmpNat a b).2 = true) := by
  refine ⟨rfl, ?_⟩
  unfold cmpNat
  rw [decide_eq_true_iff, decide_eq_true_iff]
  omega

theorem cmpInt_pair (a b : Int) : cmpInt b a = ((cmpInt a b).2, (cmpInt a b).1) ∧ ¬ ((cmpInt a b).1 = true ∧ (cmpInt a b).2 = true) := by
  refine ⟨rfl, ?_⟩
  unfold cmpInt
  rw [decide_eq_true_iff, decide_eq_true_iff]
  omega

theorem cmpText_pair (a b : Text) : cmpText b a = ((cmpText a b).2, (cmpText a b).1) ∧ ¬ ((cmpText a b).1 = true ∧ (cmpText a b).2 = true) := by
  refine ⟨rfl, ?_⟩
  unfold cmpText
  rw [textLt_iff, textLt_iff]
  rintro ⟨h1, h2⟩
  exact lt_asymm h1 h2

theorem cmpLe_pair {κ : Type} {le : κ → κ → Bool} (h : Ordered le) (a b : κ) :
    (!le a b, !le b a) = ((!le b a, !le a b).2, (!le b a, !le a b).1) ∧ ¬ ((!le b a) = true ∧ (!le a b) = true) := by
  refine ⟨rfl, ?_⟩
  rcases h.total a b with h | h <;> simp [h]

theorem cmpNat_eq {a b : Nat} (h : cmpNat a b = (false, false)) : a = b := by
  unfold cmpNat at h
  rw [Prod.mk.injEq, decide_eq_false_iff_not, decide_eq_false_iff_not] at h
  omega

theorem cmpInt_eq {a b : Int} (h : cmpInt a b = (false, false)) : a = b := by
  unfold cmpInt at h
  rw [Prod.mk.injEq, decide_eq_false_iff_not, decide_eq_false_iff_not] at h
  omega

theorem cmpText_eq {a b : Text} (h : cmpText a b = (false, false)) : a = b := by
  unfold cmpText at h
  rw [Prod.mk.injEq, ← Bool.not_eq_true, ← Bool.not_eq_true, textLt_iff, textLt_iff] at h
  exact codes_inj (le_antisymm (not_lt.1 h.2) (not_lt.1 h.1))

theorem col_antisymm {κ : Type} {leK : κ → κ → Bool} (h : Compares leK) {a b : Col κ} (h1 : Col.le leK a b = true)
    (h2 : Col.le leK b a = true) : a = b := by
  unfold Col.le at h1 h2
  have := lexLe_antisymm (l := [cmpText a.stid b.stid, cmpInt a.stnm b.stnm, (!leK b.slat a.slat, !leK a.slat b.slat),
    (!leK b.slon a.slon, !leK a.slon b.slon), cmpInt a.selv b.selv, cmpText a.stat b.stat, cmpText a.coun b.coun,
    cmpText a.std2 b.std2, cmpInt a.spri b.spri]) (by
      refine .cons (cmpText_pair _ _) (.cons (cmpInt_pair _ _) (.cons (cmpLe_pair h.toOrdered _ _) (.cons (cmpLe_pair h.toOrdered _ _)
        (.cons (cmpInt_pair _ _) (.cons (cmpText_pair _ _) (.cons (cmpText_pair _ _) (.cons (cmpText_pair _ _) (.cons (cmpInt_pair _ _)
          .nil))))))))) h1 h2
  simp only [List.mem_cons, List.not_mem_nil, or_false, forall_eq_or_imp, forall_eq] at this
  obtain ⟨e1, e2, e3, e4, e5, e6, e7, e8, e9⟩ := this
  have k : ∀ {x y : κ}, (!leK y x, !leK x y) = (false, false) → x = y := by
    intro x y hxy
    simp only [Prod.mk.injEq, Bool.not_eq_false'] at hxy
    exact h.antisymm _ _ hxy.2 hxy.1
  obtain ⟨_, _, _, _, _, _, _, _, _⟩ := a
  obtain ⟨_, _, _, _, _, _, _, _, _⟩ := b
  rw [Col.mk.injEq]
  exact ⟨cmpText_eq e1, cmpInt_eq e2, k e3, k e4, cmpInt_eq e5, cmpText_eq e6, cmpText_eq e7, cmpText_eq e8, cmpInt_eq e9⟩

theorem rows_sort_eq {l m : List Row} (h : l.Perm m) : l.mergeSort Row.le = m.mergeSort Row.le := by
  refine List.Perm.eq_of_pairwise (le := fun a b => ¬ momentKey b < momentKey a) ?_ (rows_sorted l) (rows_sorted m)
    ((List.mergeSort_perm _ _).trans (h.trans (List.mergeSort_perm _ _).symm))
  intro a b _ _ h1 h2
  exact momentKey_inj (le_antisymm (not_lt.1 h1) (not_lt.1 h2))

theorem cols_sort_eq {κ : Type} {leK : κ → κ → Bool} (h : Compares leK) {l m : List (Col κ)} (hp : l.Perm m) :
    l.mergeSort (Col.le leK) = m.mergeSort (Col.le leK) := by
  obtain ⟨h1, h2⟩ := col_le_good h.toOrdered
  refine List.Perm.eq_of_pairwise (le := fun a b => Col.le leK a b = true) (fun a b _ _ => col_antisymm h)
    (List.pairwise_mergeSort h2 (fun a b => by rw [Bool.or_eq_true]; exact h1 a b) l)
    (List.pairwise_mergeSort h2 (fun a b => by rw [Bool.or_eq_true]; exact h1 a b) m)
    ((List.mergeSort_perm _ _).trans (hp.trans (List.mergeSort_perm _ _).symm))

/-! ## Stations -/

variable {ρ κ β : Type} [DecidableEq κ]

theorem final_map_mem {γ : Type} (f : Row × Col κ → γ) (es : List (Entry κ β)) (k : γ) :
    k ∈ es.map (fun e => f e.place) ↔ k ∈ (final es).map fun e => f e.place := by
  rw [List.mem_map, List.mem_map]
  constructor
  · rintro ⟨x, hx, rfl⟩
    obtain ⟨y, hy, hk⟩ := final_covers hx
    exact ⟨y, hy, by rw [(sameKey_iff _ _).1 hk]⟩
  · rintro ⟨x, hx, rfl⟩
    exact ⟨x, final_sub hx, rfl⟩

theorem ofList_perm {γ : Type} [DecidableEq γ] {l m : List γ} (h : ∀ k, k ∈ l ↔ k ∈ m) :
    (OrderedSet.ofList l).keys.Perm (OrderedSet.ofList m).keys := by
  rw [List.perm_ext_iff_of_nodup (C42_from_iterable l).2.1 (C42_from_iterable m).2.1]
  intro k
  rw [(C42_from_iterable l).1, (C42_from_iterable m).1, h]

theorem find_perm {γ δ : Type} [DecidableEq δ] {key : γ → δ} {l m : List γ} (h : l.Perm m) (hn : (l.map key).Nodup) (k : δ) :
    (l.find? fun e => key e = k) = m.find? fun e => key e = k := by
  induction h with
  | nil => rfl
  | cons x _ ih =>
    rw [List.find?_cons, List.find?_cons, ih (List.nodup_cons.1 hn).2]
  | swap x y l =>
    have hxy : key x ≠ key y := by
      rw [List.map_cons, List.map_cons, List.nodup_cons] at hn
      intro he
      exact hn.1 (by rw [he]; exact List.mem_cons_self)
    rw [List.find?_cons, List.find?_cons, List.find?_cons, List.find?_cons]
    by_cases h1 : key x = k
    · have h2 : ¬ key y = k := fun h => hxy (h1.trans h.symm)
      simp [h1, h2]
    · simp [h1]
  | trans h1 _ ih1 ih2 => exact (ih1 hn).trans (ih2 ((h1.map key).nodup_iff.1 hn))

/-- Two builders that hold the same look the same to what is written. -/
theorem History.same {env : NumEnv ρ κ} {names : List Text} {es es' : List (Entry κ β)} {b b' : Builder κ β}
    (h : History env names (es.map fun e => (e.place, e.value)) b) (h' : History env names (es'.map fun e => (e.place, e.value)) b')
    (hK : Compares env.leK) (hp : (final es).Perm (final es')) (hcap : Spec.headers es ≤ 32000) :
    b.names = b'.names ∧ b.rows = b'.rows ∧ b.columns = b'.columns ∧ b.rowHeaders = b'.rowHeaders ∧
      b.columnHeaders = b'.columnHeaders ∧ ∀ k, dictGet b.data k = dictGet b'.data k := by
  have hr : b.rowSet.keys.Perm b'.rowSet.keys := by
    rw [h.rowSet, h'.rowSet, List.map_map, List.map_map]
    refine ofList_perm fun k => ?_
    have e1 := final_map_mem (fun p => p.1) es k
    have e2 := final_map_mem (fun p => p.1) es' k
    exact e1.trans ((hp.map _).mem_iff.trans e2.symm)
  have hc : b.colSet.keys.Perm b'.colSet.keys := by
    rw [h.colSet, h'.colSet, List.map_map, List.map_map]
    refine ofList_perm fun k => ?_
    have e1 := final_map_mem (fun p => p.2) es k
    have e2 := final_map_mem (fun p => p.2) es' k
    exact e1.trans ((hp.map _).mem_iff.trans e2.symm)
  have c1 : b.rows + b.columns ≤ mmhdrs := by rw [h.headers_eq]; exact hcap
  have r1 : b.rows = b'.rows := by rw [h.rows, h'.rows, hr.length_eq]
  have r2 : b.columns = b'.columns := by rw [h.columns, h'.columns, hc.length_eq]
  have c2 : b'.rows + b'.columns ≤ mmhdrs := by rw [← r1, ← r2]; exact c1
  refine ⟨h.names.trans h'.names.symm, r1, r2, ?_, ?_, fun k => ?_⟩
  · rw [(h.headers c1).1, (h'.headers c2).1, rows_sort_eq hr]
  · rw [(h.headers c1).2, (h'.headers c2).2, cols_sort_eq hK hc]
  · rw [h.data, h'.data, dictGet_final, dictGet_final, find_perm hp (final_nodup es)]

/-- C128: two histories of `add_station` after which the same reports stand give the same bytes. -/
theorem C128_reports_same (env : NumEnv ρ κ) (hK : Compares env.leK) (ps : List Text) (b0 : Builder κ (List ρ)) (rs rs' : List (AddReq κ ρ))
    (e : Endian) (hnew : newBuilder env ps = .ok b0) (hcap : headers (rs.filterMap (sfEntry env b0.names)) ≤ 32000)
    (hp : (final (rs.filterMap (sfEntry env b0.names))).Perm (final (rs'.filterMap (sfEntry env b0.names)))) :
    save e (surfaceFile env (run (addStation env) b0 rs)) = save e (surfaceFile env (run (addStation env) b0 rs')) := by
  have h := run_station (History.new hnew) rs
  have h' := run_station (History.new hnew) rs'
  rw [List.nil_append] at h h'
  obtain ⟨e1, e2, e3, e4, e5, e6⟩ := h.same h' hK hp hcap
  have : surfaceFile env (run (addStation env) b0 rs) = surfaceFile env (run (addStation env) b0 rs') := by
    unfold surfaceFile sfVisits
    simp only [e1, e2, e3, e4, e5, e6]
  rw [this]

/-- C128: the same for `add_sounding`. -/
theorem C128_soundings_same (env : NumEnv ρ κ) (hK : Compares env.leK) (ps : List Text) (b0 : Builder κ (List (List ρ)))
    (rs rs' : List (AddReq κ (List ρ))) (e : Endian) (hnew : newBuilder env ps = .ok b0)
    (hcap : headers (rs.filterMap (snEntry env b0.names)) ≤ 32000)
    (hp : (final (rs.filterMap (snEntry env b0.names))).Perm (final (rs'.filterMap (snEntry env b0.names)))) :
    save e (soundingFile env (run (addSounding env) b0 rs)) = save e (soundingFile env (run (addSounding env) b0 rs')) := by
  have h := run_sounding (History.new hnew) rs
  have h' := run_sounding (History.new hnew) rs'
  rw [List.nil_append] at h h'
  obtain ⟨e1, e2, e3, e4, e5, e6⟩ := h.same h' hK hp hcap
  have : soundingFile env (run (addSounding env) b0 rs) = soundingFile env (run (addSounding env) b0 rs') := by
    unfold soundingFile snVisits
    simp only [e1, e2, e3, e4, e5, e6]
  rw [this]

theorem final_of_distinct {es : List (Entry κ β)} (h : es.Pairwise fun a b => ¬ a.SameKey b) : final es = es := by
  induction es with
  | nil => rfl
  | cons x r ih =>
    rw [List.pairwise_cons] at h
    rw [final_cons, if_neg (by rintro ⟨y, hy, hk⟩; exact h.1 y hy hk), ih h.2]

theorem distinct_perm {es es' : List (Entry κ β)} (h : es.Pairwise fun a b => ¬ a.SameKey b) (hp : es.Perm es') :
    es'.Pairwise fun a b => ¬ a.SameKey b :=
  hp.pairwise h fun hab hba => hab ((sameKey_iff _ _).2 ((sameKey_iff _ _).1 hba).symm)

/-- C128: reports of different times or places may be added in any order: the bytes are the same. -/
theorem C128_reports (env : NumEnv ρ κ) (hK : Compares env.leK) (ps : List Text) (b0 : Builder κ (List ρ)) (rs rs' : List (AddReq κ ρ))
    (e : Endian) (hnew : newBuilder env ps = .ok b0) (hcap : headers (rs.filterMap (sfEntry env b0.names)) ≤ 32000)
    (hd : (rs.filterMap (sfEntry env b0.names)).Pairwise fun a b => ¬ a.SameKey b) (hp : rs.Perm rs') :
    save e (surfaceFile env (run (addStation env) b0 rs)) = save e (surfaceFile env (run (addStation env) b0 rs')) := by
  have hq := hp.filterMap (sfEntry env b0.names)
  refine C128_reports_same env hK ps b0 rs rs' e hnew hcap ?_
  rw [final_of_distinct hd, final_of_distinct (distinct_perm hd hq)]
  exact hq

/-- C128: so may soundings. -/
theorem C128_soundings (env : NumEnv ρ κ) (hK : Compares env.leK) (ps : List Text) (b0 : Builder κ (List (List ρ)))
    (rs rs' : List (AddReq κ (List ρ))) (e : Endian) (hnew : newBuilder env ps = .ok b0)
    (hcap : headers (rs.filterMap (snEntry env b0.names)) ≤ 32000)
    (hd : (rs.filterMap (snEntry env b0.names)).Pairwise fun a b => ¬ a.SameKey b) (hp : rs.Perm rs') :
    save e (soundingFile env (run (addSounding env) b0 rs)) = save e (soundingFile env (run (addSounding env) b0 rs')) := by
  have hq := hp.filterMap (snEntry env b0.names)
  refine C128_soundings_same env hK ps b0 rs rs' e hnew hcap ?_
  rw [final_of_distinct hd, final_of_distinct (distinct_perm hd hq)]
  exact hq

/-! ## Grids -/

theorem gdate_antisymm {a b : GDate} (h : ∀ x ∈ cmpGDate a b, x = (false, false)) : a = b := by
  unfold cmpGDate at h
  simp only [List.mem_cons, List.not_mem_nil, or_false, forall_eq_or_imp, forall_eq] at h
  obtain ⟨e1, e2, e3, e4, e5, e6, e7, e8⟩ := h
  obtain ⟨_, ⟨_, _, _⟩, ⟨_, _, _, _⟩⟩ := a
  obtain ⟨_, ⟨_, _, _⟩, ⟨_, _, _, _⟩⟩ := b
  dsimp only at e1 e2 e3 e4 e5 e6 e7 e8
  rw [cmpNat_eq e1, cmpNat_eq e2, cmpNat_eq e3, cmpNat_eq e4, cmpNat_eq e5, cmpNat_eq e6, cmpNat_eq e7, cmpNat_eq e8]

theorem gtime_antisymm {a b : GTime} (h : ∀ x ∈ cmpGTime a b, x = (false, false)) : a = b := by
  unfold cmpGTime at h
  simp only [List.mem_cons, List.not_mem_nil, or_false, forall_eq_or_imp, forall_eq] at h
  obtain ⟨e1, e2, e3⟩ := h
  obtain ⟨_, _, _⟩ := a
  obtain ⟨_, _, _⟩ := b
  dsimp only at e1 e2 e3
  rw [cmpNat_eq e1, cmpInt_eq e2, cmpInt_eq e3]

theorem gcol_antisymm {a b : GCol} (hc : a.clash b = false) (h1 : GCol.le a b = true) (h2 : GCol.le b a = true) : a = b := by
  have fd : ∀ x y : GDate, List.Forall₂ (fun x y => y = (x.2, x.1) ∧ ¬ (x.1 = true ∧ x.2 = true)) (cmpGDate x y) (cmpGDate y x) := fun x y =>
    .cons (cmpNat_pair _ _) (.cons (cmpNat_pair _ _) (.cons (cmpNat_pair _ _) (.cons (cmpNat_pair _ _) (.cons (cmpNat_pair _ _)
      (.cons (cmpNat_pair _ _) (.cons (cmpNat_pair _ _) (.cons (cmpNat_pair _ _) .nil)))))))
  have ft : ∀ x y : GTime, List.Forall₂ (fun x y => y = (x.2, x.1) ∧ ¬ (x.1 = true ∧ x.2 = true)) (cmpGTime x y) (cmpGTime y x) := fun x y =>
    .cons (cmpNat_pair _ _) (.cons (cmpInt_pair _ _) (.cons (cmpInt_pair _ _) .nil))
  have f2 : ∀ x y : Option GDate, List.Forall₂ (fun x y => y = (x.2, x.1) ∧ ¬ (x.1 = true ∧ x.2 = true)) (cmpGDate2 x y) (cmpGDate2 y x) := by
    intro x y
    cases x <;> cases y
    · exact .nil
    · exact .nil
    · exact .nil
    · exact fd _ _
  have := lexLe_antisymm (List.rel_append (List.rel_append (List.rel_append (List.rel_append (fd a.gdt1 b.gdt1) (ft a.gtm1 b.gtm1))
    (f2 a.gdt2 b.gdt2)) (ft a.gtm2 b.gtm2)) (.cons (cmpInt_pair a.glv1 b.glv1) (.cons (cmpInt_pair a.glv2 b.glv2)
      (.cons (cmpNat_pair a.gvcd b.gvcd) (.cons (cmpText_pair a.gpm1 b.gpm1) (.cons (cmpText_pair a.gpm2 b.gpm2)
        (.cons (cmpText_pair a.gpm3 b.gpm3) .nil))))))) h1 h2
  have d1 : a.gdt1 = b.gdt1 := gdate_antisymm fun x hx => this x (by simp [hx])
  have d2 : a.gtm1 = b.gtm1 := gtime_antisymm fun x hx => this x (by simp [hx])
  have d3 : a.gdt2.isSome = b.gdt2.isSome := by
    unfold GCol.clash at hc
    by_contra hn
    rw [decide_eq_false_iff_not] at hc
    exact hc ⟨d1, d2, hn⟩
  have d4 : a.gdt2 = b.gdt2 := by
    have k : ∀ x ∈ cmpGDate2 a.gdt2 b.gdt2, x = (false, false) := fun x hx => this x (by simp [hx])
    cases ha : a.gdt2 with
    | none =>
      cases hb : b.gdt2 with
      | none => rfl
      | some _ => rw [ha, hb] at d3; cases d3
    | some x =>
      cases hb : b.gdt2 with
      | none => rw [ha, hb] at d3; cases d3
      | some y =>
        rw [ha, hb] at k
        rw [gdate_antisymm k]
  have d5 : a.gtm2 = b.gtm2 := gtime_antisymm fun x hx => this x (by simp [hx])
  have e1 := cmpInt_eq (this (cmpInt a.glv1 b.glv1) (by simp))
  have e2 := cmpInt_eq (this (cmpInt a.glv2 b.glv2) (by simp))
  have e3 := cmpNat_eq (this (cmpNat a.gvcd b.gvcd) (by simp))
  have e4 := cmpText_eq (this (cmpText a.gpm1 b.gpm1) (by simp))
  have e5 := cmpText_eq (this (cmpText a.gpm2 b.gpm2) (by simp))
  have e6 := cmpText_eq (this (cmpText a.gpm3 b.gpm3) (by simp))
  obtain ⟨_, _, _, _, _, _, _, _, _, _⟩ := a
  obtain ⟨_, _, _, _, _, _, _, _, _, _⟩ := b
  rw [GCol.mk.injEq]
  exact ⟨d1, d2, d4, d5, e1, e2, e3, e4, e5, e6⟩

theorem gfinal_sub' {es : List GEntry} {x : GEntry} (h : x ∈ gfinal es) : x ∈ es := by
  induction es with
  | nil => cases h
  | cons y r ih =>
    unfold gfinal at h
    split at h
    · exact List.mem_cons_of_mem _ (ih h)
    · rcases List.mem_cons.1 h with rfl | h
      · exact List.mem_cons_self
      · exact List.mem_cons_of_mem _ (ih h)

/-- The headers of a builder in order. -/
theorem GHistory.sorted {b0 b : GridBuilder} {es : List GEntry} (h : GHistory b0 (es.map GEntry.item) b)
    (hs : ∀ e ∈ es, e.Sound b0.nx b0.ny) (hcap : 1 + (gfinal es).length ≤ mmhdrs) (hc : Comparable es) :
    b.columnHeaders.Pairwise fun x y => GCol.le x y = true := by
  obtain ⟨_, P, hP, he, _⟩ := h.table hs hcap hc
  have hh := h.headers (by rw [h.count hs]; exact hcap) ((clashing_iff h.keys.2).2 hc)
  have hm : ∀ x ∈ P, x ∈ es := fun x hx => gfinal_sub' (hP.mem_iff.1 hx)
  have hl : ∀ x ∈ P, x.name.length ≤ 12 := fun x hx => (hs x (hm x hx)).name.2
  have hcc : ∀ x ∈ P, ∀ y ∈ P, x.first = y.first → (x.second = none ↔ y.second = none) := fun x hx y hy => hc x (hm x hx) y (hm y hy)
  have := grids_sorted (he.trans hh) hl hcc
  rw [← he, List.pairwise_map]
  exact this.imp_of_mem fun {x y} hx hy hxy => (gcol_le (hl x hx) (hl y hy) (hcc x hx y hy)).2 hxy

/-- Two builders that hold the same grids look the same to what is written. -/
theorem GHistory.same {b0 b b' : GridBuilder} {es es' : List GEntry} (h : GHistory b0 (es.map GEntry.item) b)
    (h' : GHistory b0 (es'.map GEntry.item) b') (hs : ∀ e ∈ es, e.Sound b0.nx b0.ny) (hs' : ∀ e ∈ es', e.Sound b0.nx b0.ny)
    (hcap : 1 + (gfinal es).length ≤ mmhdrs) (hc : Comparable es) (hc' : Comparable es') (hp : (gfinal es).Perm (gfinal es')) :
    b.columns = b'.columns ∧ b.columnHeaders = b'.columnHeaders ∧ ∀ k, dictGet b.data k = dictGet b'.data k := by
  have hcap' : 1 + (gfinal es').length ≤ mmhdrs := by rw [← hp.length_eq]; exact hcap
  obtain ⟨t1, P, hP, he, _⟩ := h.table hs hcap hc
  obtain ⟨t1', P', hP', he', _⟩ := h'.table hs' hcap' hc'
  have hq : b.columnHeaders.Perm b'.columnHeaders := by
    rw [← he, ← he']
    exact (hP.trans (hp.trans hP'.symm)).map _
  have hh := h.headers (by rw [h.count hs]; exact hcap) ((clashing_iff h.keys.2).2 hc)
  have hk := (clashing_iff h.keys.2).2 hc
  have hmem : ∀ k, k ∈ b.columnHeaders → k ∈ b.colSet.keys := fun k hk => by rw [hh, List.mem_mergeSort] at hk; exact hk
  refine ⟨by rw [t1, t1', hq.length_eq], ?_, fun k => ?_⟩
  · refine List.Perm.eq_of_pairwise (fun x y hx hy => gcol_antisymm ?_) (h.sorted hs hcap hc) (h'.sorted hs' hcap' hc') hq
    unfold clashing at hk
    rw [List.any_eq_false] at hk
    have := hk x (hmem x hx)
    rw [Bool.not_eq_true, List.any_eq_false] at this
    exact Bool.eq_false_iff.2 (this y (hmem y (hq.mem_iff.2 hy)))
  · have e1 : b.data = dictUpdate [] (es.map fun e => (e.col, e.values)) := h.data
    have e2 : b'.data = dictUpdate [] (es'.map fun e => (e.col, e.values)) := h'.data
    rw [e1, e2, dictGet_finalBy, dictGet_finalBy, ← gfinal_eq hs, ← gfinal_eq hs',
      find_perm hp (by rw [gfinal_eq hs]; exact finalBy_nodup _ _)]

/-- C128: two histories of `add_grid` without failing calls after which the same grids stand give the same bytes. -/
theorem C128_grids_same (env : GridEnv) (nx ny : Nat) (proj : Text) (corners angles : List F32) (delta : F32) (precision : Int)
    (rs rs' : List GridReq) (hok : AllOk env (newGrid nx ny proj corners angles delta precision) rs)
    (hok' : AllOk env (newGrid nx ny proj corners angles delta precision) rs') (e : Endian)
    (hp : (gfinal (gAccepted env nx ny rs)).Perm (gfinal (gAccepted env nx ny rs'))) :
    saveGrid env e (runGrid env (newGrid nx ny proj corners angles delta precision) rs) =
      saveGrid env e (runGrid env (newGrid nx ny proj corners angles delta precision) rs') := by
  obtain ⟨_, c1, c2⟩ := C19_grid_history env nx ny proj corners angles delta precision rs hok
  obtain ⟨_, _, c2'⟩ := C19_grid_history env nx ny proj corners angles delta precision rs' hok'
  have h := new_history env _ (GHistory.new nx ny proj corners angles delta precision) rs
  have h' := new_history env _ (GHistory.new nx ny proj corners angles delta precision) rs'
  obtain ⟨e1, e2, e3⟩ := h.same h' entries_sound entries_sound c1 c2 c2' hp
  unfold saveGrid gridFile
  simp only [h.nx, h.ny, h.proj, h.corners, h.angles, h.delta, h.precision, h'.nx, h'.ny, h'.proj, h'.corners, h'.angles, h'.delta,
    h'.precision, e1, e2, e3]

/-- A history of grids succeeds when all is acceptable, the limit is kept and the times can be compared. -/
theorem allOk_of {env : GridEnv} {nx ny : Nat} {proj : Text} {corners angles : List F32} {delta : F32} {precision : Int}
    {rs : List GridReq} (h1 : ∀ r ∈ rs, (gEntry env nx ny r).isSome) (h2 : 1 + (gfinal (gAccepted env nx ny rs)).length ≤ 32000)
    (h3 : Comparable (gAccepted env nx ny rs)) : AllOk env (newGrid nx ny proj corners angles delta precision) rs := by
  rintro pre r post rfl
  rw [C19_grid]
  have hsub : ∀ x, x ∈ gAccepted env nx ny (pre ++ [r]) → x ∈ gAccepted env nx ny (pre ++ r :: post) := by
    intro x hx
    obtain ⟨y, hy, he⟩ := List.mem_filterMap.1 hx
    exact List.mem_filterMap.2 ⟨y, by simp only [List.mem_append, List.mem_cons, List.not_mem_nil, or_false] at hy ⊢; tauto, he⟩
  refine ⟨h1 r (by simp), le_trans (Nat.add_le_add_left ?_ 1) h2, fun x hx y hy => h3 x (hsub x hx) y (hsub y hy)⟩
  rw [gfinal_eq (entries_sound (env := env) (nx := nx) (ny := ny) (rs := pre ++ [r])),
    gfinal_eq (entries_sound (env := env) (nx := nx) (ny := ny) (rs := pre ++ r :: post)), ← List.length_map (as := finalBy GEntry.col _) GEntry.col,
    ← List.length_map (as := finalBy GEntry.col (gAccepted env nx ny (pre ++ r :: post))) GEntry.col]
  refine (List.Nodup.subperm (finalBy_nodup _ _) ?_).length_le
  intro k hk
  obtain ⟨x, hx, rfl⟩ := List.mem_map.1 hk
  obtain ⟨y, hy, he⟩ := finalBy_covers (key := GEntry.col) (hsub x (finalBy_sub hx))
  exact List.mem_map.2 ⟨y, hy, he.symm⟩

theorem gfinal_of_distinct {es : List GEntry} (h : es.Pairwise fun a b => ¬ a.SameKey b) : gfinal es = es := by
  induction es with
  | nil => rfl
  | cons x r ih =>
    rw [List.pairwise_cons] at h
    unfold gfinal
    rw [if_neg (by rintro ⟨y, hy, hk⟩; exact h.1 y hy hk), ih h.2]

/-- C128: grids that differ in more than their data may be added in any order: every order of the calls succeeds if one does, and the bytes
are the same. -/
theorem C128_grids (env : GridEnv) (nx ny : Nat) (proj : Text) (corners angles : List F32) (delta : F32) (precision : Int)
    (rs rs' : List GridReq) (hok : AllOk env (newGrid nx ny proj corners angles delta precision) rs)
    (hd : (gAccepted env nx ny rs).Pairwise fun a b => ¬ a.SameKey b) (hp : rs.Perm rs') (e : Endian) :
    AllOk env (newGrid nx ny proj corners angles delta precision) rs' ∧
      saveGrid env e (runGrid env (newGrid nx ny proj corners angles delta precision) rs) =
        saveGrid env e (runGrid env (newGrid nx ny proj corners angles delta precision) rs') := by
  have hq : (gAccepted env nx ny rs).Perm (gAccepted env nx ny rs') := hp.filterMap _
  have hd' : (gAccepted env nx ny rs').Pairwise fun a b => ¬ a.SameKey b := by
    refine hq.pairwise hd fun {a b} hab hba => hab ?_
    obtain ⟨h1, h2, h3, h4, h5, h6⟩ := hba
    exact ⟨h1.symm, h2.symm, h3.symm, h4.symm, h5.symm, h6.symm⟩
  have hf : (gfinal (gAccepted env nx ny rs)).Perm (gfinal (gAccepted env nx ny rs')) := by
    rw [gfinal_of_distinct hd, gfinal_of_distinct hd']
    exact hq
  obtain ⟨c0, c1, c2⟩ := C19_grid_history env nx ny proj corners angles delta precision rs hok
  have hok' : AllOk env (newGrid nx ny proj corners angles delta precision) rs' :=
    allOk_of (fun r hr => c0 r (hp.mem_iff.2 hr)) (by rw [← hf.length_eq]; exact c1)
      fun x hx y hy => c2 x (hq.mem_iff.2 hx) y (hq.mem_iff.2 hy)
  exact ⟨hok', C128_grids_same env nx ny proj corners angles delta precision rs rs' hok hok' e hf⟩

/-! ## Instances -/

theorem intEnv_compares : Compares intEnv.leK := by
  refine ⟨intEnv_ordered, fun a b h1 h2 => ?_⟩
  have h1 : decide (a ≤ b) = true := h1
  have h2 : decide (b ≤ a) = true := h2
  rw [decide_eq_true_iff] at *
  omega

/-- Two reports of different times, in either order. -/
example (e : Endian) : ∃ b0 bytes, newBuilder intEnv [txt "TMPF"] = .ok b0 ∧
    save e (surfaceFile intEnv (run (addStation intEnv) b0 datedReports)) = .ok bytes ∧
    save e (surfaceFile intEnv (run (addStation intEnv) b0 datedReports.reverse)) = .ok bytes := by
  have hnew : newBuilder intEnv [txt "TMPF"] = .ok (⟨[txt "TMPF"], ⟨[]⟩, ⟨[]⟩, [], 0, 0, [], []⟩ : Builder Int (List F32)) := rfl
  have hcap : headers (datedReports.filterMap (sfEntry intEnv [txt "TMPF"])) ≤ 32000 := by
    rw [datedEntries]; decide +kernel
  have hd : (datedReports.filterMap (sfEntry intEnv [txt "TMPF"])).Pairwise fun a b => ¬ a.SameKey b := by
    rw [datedEntries]; decide +kernel
  have hs : ∃ bytes, save e (surfaceFile intEnv (run (addStation intEnv) ⟨[txt "TMPF"], ⟨[]⟩, ⟨[]⟩, [], 0, 0, [], []⟩ datedReports)) = .ok bytes := by
    refine C14_saves intEnv [txt "TMPF"] _ datedReports e hnew hcap ?_ ?_ (fun _ _ v _ => ⟨v, rfl⟩) (by decide +kernel)
    · intro x hx
      have hx : x ∈ datedReports.filterMap (sfEntry intEnv [txt "TMPF"]) := hx
      rw [datedEntries] at hx
      simp only [List.mem_cons, List.not_mem_nil, or_false] at hx
      rcases hx with rfl | rfl <;> exact ⟨by decide +kernel, by decide +kernel⟩
    · intro x hx
      have hx : x ∈ datedReports.filterMap (sfEntry intEnv [txt "TMPF"]) := hx
      rw [datedEntries] at hx
      simp only [List.mem_cons, List.not_mem_nil, or_false] at hx
      rcases hx with rfl | rfl <;> exact ⟨by decide, by decide, by decide, ⟨_, rfl, by decide⟩, _, rfl, by decide⟩
  obtain ⟨bytes, hs⟩ := hs
  exact ⟨_, bytes, hnew, hs, (C128_reports intEnv intEnv_compares _ _ _ _ e hnew hcap hd (List.reverse_perm _).symm).symm.trans hs⟩

/-- Two grids of different names, in either order. -/
example (e : Endian) : AllOk sampleEnv (newGrid 3 3 (txt "CED") [0, 0, 0, 0] [0, 0, 0] 0 (16 : ℕ)) [namedReq (txt "ABCXYZ"), namedReq (txt "ABC XYZ")] ∧
    saveGrid sampleEnv e (runGrid sampleEnv (newGrid 3 3 (txt "CED") [0, 0, 0, 0] [0, 0, 0] 0 (16 : ℕ)) [namedReq (txt "ABC XYZ"), namedReq (txt "ABCXYZ")]) =
      saveGrid sampleEnv e (runGrid sampleEnv (newGrid 3 3 (txt "CED") [0, 0, 0, 0] [0, 0, 0] 0 (16 : ℕ)) [namedReq (txt "ABCXYZ"), namedReq (txt "ABC XYZ")]) := by
  refine C128_grids sampleEnv 3 3 _ _ _ _ _ _ _ (C16_blanks (txt "CED") [0, 0, 0, 0] [0, 0, 0] 0 (by decide +kernel) rfl rfl e e).1 ?_
    (List.Perm.swap _ _ _) e
  have n1 : gEntry sampleEnv 3 3 (namedReq (txt "ABC XYZ")) = some (namedEntry (txt "ABC XYZ")) :=
    named_entry (by unfold nameOf sampleEnv; decide)
  have n2 : gEntry sampleEnv 3 3 (namedReq (txt "ABCXYZ")) = some (namedEntry (txt "ABCXYZ")) :=
    named_entry (by unfold nameOf sampleEnv; decide)
  unfold gAccepted
  rw [List.filterMap_cons_some n1, List.filterMap_cons_some n2, List.filterMap_nil]
  refine List.pairwise_pair.2 ?_
  rintro ⟨_, _, _, _, _, h⟩
  exact absurd h (by decide)

end Gempak
