import Verif.Proof.GridParse

/-!
# Grid files: builder histories
-/

namespace Gempak
open Spec

/-! ## The last entry for a key survives -/

section
variable {α κ β : Type} [DecidableEq κ]

/-- Of entries with the same key the last one. -/
def finalBy (key : α → κ) : List α → List α
  | [] => []
  | e :: r => if ∃ x ∈ r, key e = key x then finalBy key r else e :: finalBy key r

theorem finalBy_cons (key : α → κ) (x : α) (r : List α) :
    finalBy key (x :: r) = if ∃ y ∈ r, key x = key y then finalBy key r else x :: finalBy key r := rfl

theorem finalBy_sub {key : α → κ} {es : List α} {e : α} (h : e ∈ finalBy key es) : e ∈ es := by
  induction es with
  | nil => simp [finalBy] at h
  | cons x r ih =>
    rw [finalBy_cons] at h
    split at h
    · exact List.mem_cons_of_mem _ (ih h)
    · rcases List.mem_cons.1 h with rfl | h
      · exact List.mem_cons_self
      · exact List.mem_cons_of_mem _ (ih h)

theorem finalBy_nodup (key : α → κ) (es : List α) : ((finalBy key es).map key).Nodup := by
  induction es with
  | nil => simp [finalBy]
  | cons x r ih =>
    rw [finalBy_cons]
    split
    · exact ih
    · rename_i h
      rw [List.map_cons, List.nodup_cons]
      refine ⟨?_, ih⟩
      intro hm
      obtain ⟨y, hy, he⟩ := List.mem_map.1 hm
      exact h ⟨y, finalBy_sub hy, he.symm⟩

theorem finalBy_covers {key : α → κ} {es : List α} {e : α} (h : e ∈ es) : ∃ x ∈ finalBy key es, key e = key x := by
  induction es generalizing e with
  | nil => simp at h
  | cons x r ih =>
    rw [finalBy_cons]
    rcases List.mem_cons.1 h with rfl | h
    · split
      · rename_i hx
        obtain ⟨y, hy, hk⟩ := hx
        obtain ⟨z, hz, hk'⟩ := ih hy
        exact ⟨z, hz, hk.trans hk'⟩
      · exact ⟨_, List.mem_cons_self, rfl⟩
    · obtain ⟨z, hz, hk⟩ := ih h
      split
      · exact ⟨z, hz, hk⟩
      · exact ⟨z, List.mem_cons_of_mem _ hz, hk⟩

theorem dictGet_finalBy (key : α → κ) (val : α → β) (es : List α) (k : κ) :
    dictGet (dictUpdate [] (es.map fun e => (key e, val e))) k = ((finalBy key es).find? fun e => key e = k).map val := by
  rw [dictGet_dictUpdate]
  simp only [dictGet, Option.or_none]
  rw [← List.map_reverse, List.find?_map, Option.map_map]
  have : ((fun x : κ × β => decide (x.1 = k)) ∘ fun e : α => (key e, val e)) = fun e => decide (key e = k) := rfl
  rw [this]
  have hk : (es.reverse.find? fun e => decide (key e = k)) = (finalBy key es).find? fun e => decide (key e = k) := by
    induction es with
    | nil => rfl
    | cons x r ih =>
      rw [List.reverse_cons, List.find?_append, ih, finalBy_cons]
      by_cases hx : key x = k
      · split
        · rename_i h
          obtain ⟨y, hy, hk⟩ := h
          obtain ⟨z, hz, hk'⟩ := finalBy_covers (key := key) hy
          have : ((finalBy key r).find? fun e => decide (key e = k)).isSome := by
            rw [List.find?_isSome]
            exact ⟨z, hz, by simp [← hk', ← hk, hx]⟩
          obtain ⟨w, hw⟩ := Option.isSome_iff_exists.1 this
          rw [hw]; rfl
        · rename_i h
          have : ((finalBy key r).find? fun e => decide (key e = k)) = none := by
            rw [List.find?_eq_none]
            intro y hy hc
            apply h
            exact ⟨y, finalBy_sub hy, by rw [hx]; exact (of_decide_eq_true hc).symm⟩
          rw [this, List.find?_cons_of_pos (by simp [hx])]
          simp [hx]
      · have e1 : List.find? (fun e : α => decide (key e = k)) [x] = none := by simp [hx]
        rw [e1, Option.or_none]
        split
        · rfl
        · rw [List.find?_cons_of_neg (by simp [hx])]
  rw [hk]
  rfl

theorem data_perm_finalBy (key : α → κ) (val : α → β) (es : List α) :
    (dictUpdate [] (es.map fun e => (key e, val e))).Perm ((finalBy key es).map fun e => (key e, val e)) := by
  have n1 : ((dictUpdate [] (es.map fun e => (key e, val e))).map Prod.fst).Nodup := dictUpdate_nodup (d := []) List.nodup_nil _
  have n2 : (((finalBy key es).map fun e => (key e, val e)).map Prod.fst).Nodup := by
    rw [List.map_map]; exact finalBy_nodup key es
  rw [List.perm_ext_iff_of_nodup n1.of_map n2.of_map]
  rintro ⟨k, v⟩
  rw [← dictGet_eq_some n1, ← dictGet_eq_some n2, dictGet_finalBy]
  constructor
  · intro h
    obtain ⟨e, he, hv⟩ := Option.map_eq_some_iff.1 h
    rw [dictGet_eq_some n2]
    have := List.find?_some he
    exact List.mem_map.2 ⟨e, List.mem_of_find?_eq_some he, by rw [← hv, of_decide_eq_true this]⟩
  · intro h
    rw [dictGet_eq_some n2] at h
    obtain ⟨e, he, hv⟩ := List.mem_map.1 h
    injection hv with h1 h2
    have : ((finalBy key es).find? fun e => decide (key e = k)) = some e := by
      have hs : ((finalBy key es).find? fun e => decide (key e = k)).isSome := by
        rw [List.find?_isSome]; exact ⟨e, he, by simp [h1]⟩
      obtain ⟨w, hw⟩ := Option.isSome_iff_exists.1 hs
      have hwm := List.mem_of_find?_eq_some hw
      have hwk : key w = k := by simpa using List.find?_some hw
      rw [hw, List.inj_on_of_nodup_map (finalBy_nodup key es) hwm he (hwk.trans h1.symm)]
    rw [this, Option.map_some, h2]

/-- A listing of the keys, each with what is found under it. -/
theorem listing_perm {key : α → κ} {val : α → β} {es : List α} {cols : List κ} (hn : cols.Nodup)
    (hm : ∀ k, k ∈ cols ↔ k ∈ es.map key) :
    (cols.map fun c => (c, dictGet (dictUpdate [] (es.map fun e => (key e, val e))) c)).Perm
      ((finalBy key es).map fun e => (key e, some (val e))) := by
  have n1 : ((dictUpdate [] (es.map fun e => (key e, val e))).map Prod.fst).Nodup := dictUpdate_nodup (d := []) List.nodup_nil _
  have hp := (data_perm_finalBy key val es).map fun x : κ × β => (x.1, some x.2)
  rw [List.map_map] at hp
  refine List.Perm.trans ?_ hp
  have e1 : (dictUpdate [] (es.map fun e => (key e, val e))).map (fun x : κ × β => (x.1, some x.2)) =
      ((dictUpdate [] (es.map fun e => (key e, val e))).map Prod.fst).map
        fun c => (c, dictGet (dictUpdate [] (es.map fun e => (key e, val e))) c) := by
    rw [List.map_map]
    apply List.map_congr_left
    rintro ⟨k, v⟩ hx
    simp only [Function.comp]
    rw [(dictGet_eq_some n1).2 hx]
  rw [e1]
  apply List.Perm.map
  rw [List.perm_ext_iff_of_nodup hn n1]
  intro k
  rw [hm, dictUpdate_fst_mem]
  simp only [List.map_nil, List.not_mem_nil, false_or, List.map_map]
  rfl

end

theorem gfinal_eq {nx ny : Nat} {es : List GEntry} (h : ∀ e ∈ es, e.Sound nx ny) : gfinal es = finalBy GEntry.col es := by
  induction es with
  | nil => rfl
  | cons x r ih =>
    have ih := ih fun e he => h e (List.mem_cons_of_mem _ he)
    have hx := h x List.mem_cons_self
    have hiff : (∃ y ∈ r, x.SameKey y) ↔ ∃ y ∈ r, x.col = y.col := by
      constructor
      · rintro ⟨y, hy, hk⟩
        exact ⟨y, hy, (gsameKey_iff hx (h y (List.mem_cons_of_mem _ hy))).1 hk⟩
      · rintro ⟨y, hy, hk⟩
        exact ⟨y, hy, (gsameKey_iff hx (h y (List.mem_cons_of_mem _ hy))).2 hk⟩
    rw [finalBy_cons]
    unfold gfinal
    rw [ih]
    simp only [hiff]

/-! ## Histories -/

/-- State after a list of calls; a call that raises is followed by the next one. -/
def runGrid (env : GridEnv) (b : GridBuilder) (rs : List GridReq) : GridBuilder := rs.foldl (fun b r => (addGrid env b r).1) b

/-- The builder holds exactly what a list of entries says. -/
structure GHistory (b0 : GridBuilder) (es : List (GCol × List (List ℚ))) (b : GridBuilder) : Prop where
  nx : b.nx = b0.nx
  ny : b.ny = b0.ny
  proj : b.proj = b0.proj
  corners : b.corners = b0.corners
  angles : b.angles = b0.angles
  delta : b.delta = b0.delta
  precision : b.precision = b0.precision
  data : b.data = dictUpdate [] es
  colSet : b.colSet = OrderedSet.ofList (es.map Prod.fst)
  columns : b.columns = b.colSet.keys.length
  headers : 1 + b.columns ≤ mmhdrs → clashing b.colSet.keys = false → b.columnHeaders = b.colSet.keys.mergeSort GCol.le

theorem GHistory.enter {b0 b : GridBuilder} {es : List (GCol × List (List ℚ))} (h : GHistory b0 es b) (c : GCol) (g : List (List ℚ)) :
    GHistory b0 (es ++ [(c, g)]) (b.enter c g).1 := by
  have hd : dictSet b.data c g = dictUpdate [] (es ++ [(c, g)]) := by
    rw [dictUpdate_append, ← h.data]; rfl
  have hc : b.colSet.add c = OrderedSet.ofList ((es ++ [(c, g)]).map Prod.fst) := by
    rw [List.map_append, h.colSet]; exact (ofList_snoc _ _).symm
  unfold GridBuilder.enter
  dsimp only
  split
  · rename_i hgt
    exact ⟨h.nx, h.ny, h.proj, h.corners, h.angles, h.delta, h.precision, hd, hc, rfl, fun hle => absurd hle (by simpa using hgt)⟩
  · split
    · rename_i hcl
      refine ⟨h.nx, h.ny, h.proj, h.corners, h.angles, h.delta, h.precision, hd, hc, rfl, fun _ hn => ?_⟩
      rw [hcl] at hn; cases hn
    · exact ⟨h.nx, h.ny, h.proj, h.corners, h.angles, h.delta, h.precision, hd, hc, rfl, fun _ _ => rfl⟩

theorem GHistory.new (nx ny : Nat) (proj : Text) (corners angles : List F32) (delta : F32) (precision : Int) :
    GHistory (newGrid nx ny proj corners angles delta precision) [] (newGrid nx ny proj corners angles delta precision) :=
  ⟨rfl, rfl, rfl, rfl, rfl, rfl, rfl, rfl, rfl, rfl, fun _ _ => List.mergeSort_nil.symm⟩

/-- What an entry leaves in the dictionary. -/
abbrev Spec.GEntry.item (e : GEntry) : GCol × List (List ℚ) := (e.col, e.values)

/-- After any calls of `add_grid` the builder holds the accepted entries. -/
theorem run_grid {env : GridEnv} {b0 b : GridBuilder} {es : List (GCol × List (List ℚ))} (h : GHistory b0 es b) (rs : List GridReq) :
    GHistory b0 (es ++ (rs.filterMap (gEntry env b0.nx b0.ny)).map GEntry.item) (runGrid env b rs) := by
  induction rs generalizing b es with
  | nil => simpa [runGrid] using h
  | cons r rs ih =>
    have hr := checkGrid_eq env b0.nx b0.ny r
    show GHistory b0 _ (runGrid env (addGrid env b r).1 rs)
    cases he : gEntry env b0.nx b0.ny r with
    | none =>
      rw [he] at hr
      obtain ⟨err, hr⟩ := hr
      have ha : (addGrid env b r).1 = b := by unfold addGrid; rw [h.nx, h.ny, hr]
      rw [ha, List.filterMap_cons_none he]
      exact ih h
    | some e =>
      rw [he] at hr
      have ha : (addGrid env b r).1 = (b.enter e.col e.values).1 := by
        unfold addGrid; rw [h.nx, h.ny, hr]
      rw [ha, List.filterMap_cons_some he]
      have := ih (h.enter e.col e.values)
      rw [List.append_assoc] at this
      exact this

theorem entries_sound {env : GridEnv} {nx ny : Nat} {rs : List GridReq} : ∀ e ∈ rs.filterMap (gEntry env nx ny), e.Sound nx ny := by
  intro e he
  obtain ⟨r, _, h⟩ := List.mem_filterMap.1 he
  exact gEntry_sound h

end Gempak
