import Verif.Model.GridAlias
import Verif.Props.GridFile

/-!
# C99: later changes of arrays
-/

namespace Gempak
open Spec

/-- The arrays as the program has last set them. -/
def Spec.lastSet (arrays : Nat → List (List (Option ℚ))) : List ArrayOp → Nat → List (List (Option ℚ))
  | [] => arrays
  | .assign a g :: ops => Spec.lastSet (fun i => if i = a then g else arrays i) ops
  | .add _ _ :: ops => Spec.lastSet arrays ops

/-- The calls of `add_grid`, with the values their arrays have at the time. -/
def Spec.asked (arrays : Nat → List (List (Option ℚ))) : List ArrayOp → List GridReq
  | [] => []
  | .assign a g :: ops => Spec.asked (fun i => if i = a then g else arrays i) ops
  | .add a r :: ops => { r with grid := arrays a } :: Spec.asked arrays ops

/-- The calls of `add_grid`, with given values of the arrays. -/
def Spec.askedWith (values : Nat → List (List (Option ℚ))) : List ArrayOp → List GridReq
  | [] => []
  | .assign _ _ :: ops => Spec.askedWith values ops
  | .add a r :: ops => { r with grid := values a } :: Spec.askedWith values ops

/-- Number of rows and their lengths. -/
def Spec.shape (g : List (List (Option ℚ))) : List Nat := g.map List.length

/-- Assignments leave the shapes of arrays as they are. -/
def Spec.SameShapes (arrays : Nat → List (List (Option ℚ))) (ops : List ArrayOp) : Prop :=
  ∀ a g, ArrayOp.assign a g ∈ ops → shape g = shape (arrays a)

/-- No array is changed after it has been added. -/
def Spec.Undisturbed (ops : List ArrayOp) : Prop :=
  ∀ pre a g post, ops = pre ++ .assign a g :: post → ∀ r, ArrayOp.add a r ∉ pre

/-- Missing points pointsFilled. -/
def pointsFilled (g : List (List (Option ℚ))) : List (List ℚ) := g.map (List.map (·.getD (-9999)))

theorem shape_ok {g g' : List (List (Option ℚ))} (h : shape g = shape g') (nx ny : Nat) :
    (g.length = ny ∧ ∀ row ∈ g, row.length = nx) ↔ (g'.length = ny ∧ ∀ row ∈ g', row.length = nx) := by
  have key : ∀ l : List (List (Option ℚ)), (l.length = ny ∧ ∀ row ∈ l, row.length = nx) ↔
      ((shape l).length = ny ∧ ∀ n ∈ shape l, n = nx) := by
    intro l
    unfold shape
    rw [List.length_map]
    simp
  rw [key, key, h]

theorem filled_some (g : List (List ℚ)) : pointsFilled (g.map (List.map some)) = g := by
  unfold pointsFilled
  rw [List.map_map]
  conv_rhs => rw [← List.map_id g]
  congr 1
  funext row
  show List.map _ (List.map some row) = row
  rw [List.map_map]
  exact List.map_id row

theorem shape_filled {g g' : List (List (Option ℚ))} (h : pointsFilled g = pointsFilled g') : shape g = shape g' := by
  have key : ∀ l : List (List (Option ℚ)), shape l = (pointsFilled l).map List.length := by
    intro l
    unfold shape pointsFilled
    rw [List.map_map]
    congr 1
    funext row
    exact (List.length_map _).symm
  rw [key, key, h]

/-- The checks look at the shape of a grid only. -/
theorem checkGrid_shape (env : GridEnv) (nx ny : Nat) (r : GridReq) {g g' : List (List (Option ℚ))} (h : shape g = shape g') :
    (∃ e, checkGrid env nx ny { r with grid := g } = .error e ∧ checkGrid env nx ny { r with grid := g' } = .error e) ∨
      ∃ c, checkGrid env nx ny { r with grid := g } = .ok (c, pointsFilled g) ∧ checkGrid env nx ny { r with grid := g' } = .ok (c, pointsFilled g') := by
  unfold checkGrid
  dsimp only
  by_cases hs : g.length = ny ∧ ∀ row ∈ g, row.length = nx
  · have hs' := (shape_ok h nx ny).1 hs
    rw [if_neg (not_not_intro hs), if_neg (not_not_intro hs')]
    split
    · exact Or.inl ⟨_, rfl, rfl⟩
    cases vertText env r.vcoord with
    | error e => exact Or.inl ⟨_, rfl, rfl⟩
    | ok v =>
    cases r.level.toInt with
    | error e => exact Or.inl ⟨_, rfl, rfl⟩
    | ok l =>
    cases firstTime env r.dateTime with
    | error e => exact Or.inl ⟨_, rfl, rfl⟩
    | ok t =>
    cases secondLevel r.level2 with
    | error e => exact Or.inl ⟨_, rfl, rfl⟩
    | ok l2 =>
    cases h2 : secondTime env t.1.type r.dateTime.isStr r.dateTime2 with
    | error e => exact Or.inl ⟨e, by simp only [ok_bind, h2]; rfl, by simp only [ok_bind, h2]; rfl⟩
    | ok t2 =>
    cases hc : nameChunks (env.upper r.name) with
    | error e => exact Or.inl ⟨e, by simp only [ok_bind, h2, hc]; rfl, by simp only [ok_bind, h2, hc]; rfl⟩
    | ok c =>
    cases hn : verticalNumber env v with
    | error e => exact Or.inl ⟨e, by simp only [ok_bind, h2, hc, hn]; rfl, by simp only [ok_bind, h2, hc, hn]; rfl⟩
    | ok n => exact Or.inr ⟨⟨t.1, t.2, t2.1, t2.2, l, l2, n, c.1, c.2.1, c.2.2⟩, by simp only [ok_bind, h2, hc, hn]; rfl,
        by simp only [ok_bind, h2, hc, hn]; rfl⟩
  · rw [if_pos hs, if_pos (mt (shape_ok h nx ny).2 hs)]
    exact Or.inl ⟨_, rfl, rfl⟩

theorem dictSet_map {α β γ : Type} [DecidableEq α] (f : β → γ) (d : List (α × β)) (k : α) (v : β) :
    (dictSet d k v).map (fun x => (x.1, f x.2)) = dictSet (d.map fun x => (x.1, f x.2)) k (f v) := by
  induction d with
  | nil => rfl
  | cons x d ih =>
    obtain ⟨k', v'⟩ := x
    simp only [dictSet, List.map_cons]
    split
    · rfl
    · rw [List.map_cons, ih]

/-- The file with given values of the arrays. -/
def ArrayState.view (s : ArrayState) (values : Nat → List (List (Option ℚ))) : GridBuilder :=
  { s.file with data := s.refs.map fun x => (x.1, pointsFilled (values x.2)) }

theorem enter_data (b : GridBuilder) (d : List (GCol × List (List ℚ))) (col : GCol) (g : List (List ℚ)) (g' : List (List ℚ)) :
    (({ b with data := d } : GridBuilder).enter col g).1 = { (b.enter col g').1 with data := dictSet d col g } ∧
      (({ b with data := d } : GridBuilder).enter col g).2 = (b.enter col g').2 := by
  unfold GridBuilder.enter
  dsimp only
  split
  · exact ⟨rfl, rfl⟩
  · split
    · exact ⟨rfl, rfl⟩
    · exact ⟨rfl, rfl⟩

theorem view_add (env : GridEnv) (s : ArrayState) (values : Nat → List (List (Option ℚ))) (a : Nat) (r : GridReq)
    (h : shape (s.arrays a) = shape (values a)) :
    (s.step env (.add a r)).1.view values = (addGrid env (s.view values) { r with grid := values a }).1 ∧
      (s.step env (.add a r)).2 = (addGrid env (s.view values) { r with grid := values a }).2 := by
  unfold ArrayState.step addGrid
  show _ = (match checkGrid env s.file.nx s.file.ny { r with grid := values a } with
    | .ok (col, g) => (s.view values).enter col g
    | .error e => (s.view values, .error e)).1 ∧ _ = (match checkGrid env s.file.nx s.file.ny { r with grid := values a } with
    | .ok (col, g) => (s.view values).enter col g
    | .error e => (s.view values, .error e)).2
  dsimp only
  rcases checkGrid_shape env s.file.nx s.file.ny r h with ⟨e, h1, h2⟩ | ⟨c, h1, h2⟩
  · rw [h1, h2]
    exact ⟨rfl, rfl⟩
  · rw [h1, h2]
    dsimp only
    obtain ⟨e1, e2⟩ := enter_data s.file (s.refs.map fun x => (x.1, pointsFilled (values x.2))) c (pointsFilled (values a)) (pointsFilled (s.arrays a))
    refine ⟨?_, e2.symm⟩
    unfold ArrayState.view
    rw [e1]
    dsimp only
    rw [dictSet_map (fun i => pointsFilled (values i))]

theorem view_assign (env : GridEnv) (s : ArrayState) (values : Nat → List (List (Option ℚ))) (a : Nat) (g : List (List (Option ℚ))) :
    (s.step env (.assign a g)).1.view values = s.view values := rfl

/-- The shapes of the arrays do not change. -/
theorem step_shapes (env : GridEnv) (s : ArrayState) (shapes : Nat → List Nat) (hs : ∀ a, shape (s.arrays a) = shapes a) (o : ArrayOp)
    (ho : ∀ a g, o = .assign a g → shape g = shapes a) (a : Nat) : shape ((s.step env o).1.arrays a) = shapes a := by
  cases o with
  | assign b g =>
    show shape (if a = b then g else s.arrays a) = _
    split
    · rename_i h
      rw [h]; exact ho b g rfl
    · exact hs a
  | add b r =>
    unfold ArrayState.step
    rcases checkGrid_shape env s.file.nx s.file.ny r (g := s.arrays b) (g' := s.arrays b) rfl with ⟨e, h1, _⟩ | ⟨c, h1, _⟩
    · simp only [h1]; exact hs a
    · simp only [h1]
      show shape (if a = b then _ else s.arrays a) = _
      split
      · rename_i h
        rw [h, ← hs b]
        exact shape_filled (filled_some _)
      · exact hs a

theorem run_view (env : GridEnv) (values : Nat → List (List (Option ℚ))) : ∀ (ops : List ArrayOp) (s : ArrayState),
    (∀ a, shape (s.arrays a) = shape (values a)) → (∀ a g, ArrayOp.assign a g ∈ ops → shape g = shape (values a)) →
      (s.run env ops).view values = runGrid env (s.view values) (askedWith values ops) := by
  intro ops
  induction ops with
  | nil => intro s _ _; rfl
  | cons o ops ih =>
    intro s hs ho
    have hs' := step_shapes env s (fun a => shape (values a)) hs o (fun a g h => ho a g (h ▸ List.mem_cons_self))
    have := ih (s.step env o).1 hs' (fun a g h => ho a g (List.mem_cons_of_mem _ h))
    show ((s.step env o).1.run env ops).view values = _
    rw [this]
    cases o with
    | assign a g => rfl
    | add a r =>
      rw [(view_add env s values a r (hs a)).1]
      rfl

/-- Filled values of the arrays are those assigned last. -/
theorem run_filled (env : GridEnv) : ∀ (ops : List ArrayOp) (s : ArrayState) (arrays : Nat → List (List (Option ℚ))),
    (∀ a, pointsFilled (s.arrays a) = pointsFilled (arrays a)) → ∀ a, pointsFilled ((s.run env ops).arrays a) = pointsFilled (lastSet arrays ops a) := by
  intro ops
  induction ops with
  | nil => intro s arrays h; exact h
  | cons o ops ih =>
    intro s arrays h
    show ∀ a, pointsFilled (((s.step env o).1.run env ops).arrays a) = _
    cases o with
    | assign b g =>
      refine ih _ _ ?_
      intro a
      show pointsFilled (if a = b then g else s.arrays a) = pointsFilled (if a = b then g else arrays a)
      split
      · rfl
      · exact h a
    | add b r =>
      refine ih _ _ ?_
      intro a
      rw [← h a]
      unfold ArrayState.step
      rcases checkGrid_shape env s.file.nx s.file.ny r (g := s.arrays b) (g' := s.arrays b) rfl with ⟨e, h1, _⟩ | ⟨c, h1, _⟩
      · simp only [h1]
      · simp only [h1]
        show pointsFilled (if a = b then _ else s.arrays a) = _
        split
        · rename_i hab
          rw [hab]
          exact filled_some _
        · rfl

theorem lastSet_shapes {shapes : Nat → List Nat} : ∀ (ops : List ArrayOp) (arrays : Nat → List (List (Option ℚ))),
    (∀ a, shape (arrays a) = shapes a) → (∀ a g, ArrayOp.assign a g ∈ ops → shape g = shapes a) → ∀ a, shape (lastSet arrays ops a) = shapes a := by
  intro ops
  induction ops with
  | nil => intro arrays h _; exact h
  | cons o ops ih =>
    intro arrays h ho
    cases o with
    | assign b g =>
      refine ih _ ?_ fun a g h => ho a g (List.mem_cons_of_mem _ h)
      intro a
      show shape (if a = b then g else arrays a) = _
      split
      · rename_i hab
        rw [hab]; exact ho b g List.mem_cons_self
      · exact h a
    | add b r => exact ih _ h fun a g h => ho a g (List.mem_cons_of_mem _ h)

/-- **C99 (what holds).** A file holds the values its arrays have in the end: it is the file that would result if every call of `add_grid` had been
made with the last values of its array. -/
theorem C99_last (env : GridEnv) (arrays : Nat → List (List (Option ℚ))) (b : GridBuilder) (hb : b.data = []) (ops : List ArrayOp)
    (h : SameShapes arrays ops) :
    ((ArrayState.new arrays b).run env ops).contents = runGrid env b (askedWith (lastSet arrays ops) ops) := by
  have hv := lastSet_shapes (shapes := fun a => shape (arrays a)) ops arrays (fun _ => rfl) h
  have h1 := run_view env (lastSet arrays ops) ops (ArrayState.new arrays b) (fun a => (hv a).symm) (fun a g hg => (h a g hg).trans (hv a).symm)
  have h2 : (ArrayState.new arrays b).view (lastSet arrays ops) = b := by
    show ({ b with data := [] } : GridBuilder) = b
    rw [← hb]
  rw [h2] at h1
  rw [← h1]
  have h3 : ((ArrayState.new arrays b).run env ops).refs.map (fun x => (x.1, pointsFilled (((ArrayState.new arrays b).run env ops).arrays x.2))) =
      ((ArrayState.new arrays b).run env ops).refs.map (fun x => (x.1, pointsFilled (lastSet arrays ops x.2))) :=
    List.map_congr_left fun x _ => congrArg (Prod.mk x.1) (run_filled env ops (ArrayState.new arrays b) arrays (fun _ => rfl) x.2)
  unfold ArrayState.view
  rw [← h3]
  rfl

theorem asked_undisturbed : ∀ (ops : List ArrayOp) (arrays : Nat → List (List (Option ℚ))), Undisturbed ops →
    asked arrays ops = askedWith (lastSet arrays ops) ops := by
  have fixed : ∀ (ops : List ArrayOp) (arrays : Nat → List (List (Option ℚ))) (a : Nat), (∀ g, ArrayOp.assign a g ∉ ops) →
      lastSet arrays ops a = arrays a := by
    intro ops
    induction ops with
    | nil => intro arrays a _; rfl
    | cons o ops ih =>
      intro arrays a h
      cases o with
      | assign b g =>
        show lastSet _ ops a = _
        rw [ih _ a fun g hg => h g (List.mem_cons_of_mem _ hg)]
        refine if_neg ?_
        rintro rfl
        exact h g List.mem_cons_self
      | add b r => exact ih _ a fun g hg => h g (List.mem_cons_of_mem _ hg)
  intro ops
  induction ops with
  | nil => intro _ _; rfl
  | cons o ops ih =>
    intro arrays h
    have h' : Undisturbed ops := by
      intro pre a g post e r hr
      exact h (o :: pre) a g post (by rw [e]; rfl) r (List.mem_cons_of_mem _ hr)
    cases o with
    | assign b g => exact ih _ h'
    | add b r =>
      show _ :: _ = _ :: _
      rw [ih arrays h']
      congr 2
      show arrays b = lastSet arrays ops b
      rw [fixed ops arrays b]
      intro g hg
      obtain ⟨pre, post, e⟩ := List.append_of_mem hg
      exact h (.add b r :: pre) b g post (by rw [e]; rfl) r List.mem_cons_self

/-- **C99 (partial).** The file holds the values its arrays had when they were added, provided no array is changed after it has been added. -/
theorem C99_kept_partial (env : GridEnv) (arrays : Nat → List (List (Option ℚ))) (b : GridBuilder) (hb : b.data = []) (ops : List ArrayOp)
    (h : SameShapes arrays ops) (hu : Undisturbed ops) :
    ((ArrayState.new arrays b).run env ops).contents = runGrid env b (asked arrays ops) := by
  rw [C99_last env arrays b hb ops h, asked_undisturbed ops arrays hu]

/-- Points that are no numbers. -/
def Spec.HasNaN (g : List (List (Option ℚ))) : Prop := ∃ row ∈ g, none ∈ row

/-- **C99 (deviation).** Adding a grid changes the array of the caller just when the call passes its checks and there are points that are no numbers. -/
theorem C99_caller (env : GridEnv) (s : ArrayState) (a : Nat) (r : GridReq) :
    (s.step env (.add a r)).1.arrays a ≠ s.arrays a ↔
      HasNaN (s.arrays a) ∧ (gEntry env s.file.nx s.file.ny { r with grid := s.arrays a }).isSome := by
  have hk := checkGrid_eq env s.file.nx s.file.ny { r with grid := s.arrays a }
  unfold ArrayState.step
  rcases checkGrid_shape env s.file.nx s.file.ny r (g := s.arrays a) (g' := s.arrays a) rfl with ⟨e, h1, _⟩ | ⟨c, h1, _⟩
  · simp only [h1]
    constructor
    · intro h; exact absurd rfl h
    · rintro ⟨_, h⟩
      obtain ⟨x, hx⟩ := Option.isSome_iff_exists.1 h
      rw [hx] at hk
      rw [h1] at hk
      cases hk
  · simp only [h1]
    have hsome : (gEntry env s.file.nx s.file.ny { r with grid := s.arrays a }).isSome := by
      cases hx : gEntry env s.file.nx s.file.ny { r with grid := s.arrays a } with
      | some _ => rfl
      | none =>
        rw [hx] at hk
        obtain ⟨err, hk⟩ := hk
        rw [h1] at hk
        cases hk
    have harr : setArray s.arrays a ((pointsFilled (s.arrays a)).map (List.map some)) a = (pointsFilled (s.arrays a)).map (List.map some) := if_pos rfl
    show setArray s.arrays a ((pointsFilled (s.arrays a)).map (List.map some)) a ≠ _ ↔ _
    rw [harr]
    simp only [hsome, and_true]
    have row_iff : ∀ row : List (Option ℚ), (row.map (·.getD (-9999))).map some = row ↔ none ∉ row := by
      intro row
      induction row with
      | nil => simp
      | cons x row ih =>
        rw [List.map_cons, List.map_cons, List.cons.injEq, ih]
        cases x <;> simp
    have grid_iff : ∀ g : List (List (Option ℚ)), (pointsFilled g).map (List.map some) = g ↔ ¬ HasNaN g := by
      intro g
      unfold HasNaN
      induction g with
      | nil => simp [pointsFilled]
      | cons row g ih =>
        have : pointsFilled (row :: g) = (row.map (·.getD (-9999))) :: pointsFilled g := rfl
        rw [this, List.map_cons, List.cons.injEq, ih, row_iff]
        simp
    rw [Ne, grid_iff, not_not]

/-! ## An array used twice -/

/-- Nine points of one value. -/
def evenGrid (v : ℚ) : List (List (Option ℚ)) := [[some v, some v, some v], [some v, some v, some v], [some v, some v, some v]]

/-- Two grids, one an hour after the other. -/
def hourReq (h : Nat) : GridReq := ⟨[], txt "TMPK", some (txt "pres"), .num 500, .dt ⟨2020, 2, 29⟩ ⟨h, 0, 0, 0⟩, none, none⟩

/-- The entry of such a request with values. -/
def hourEntry (h : Nat) (g : List (List (Option ℚ))) : GEntry :=
  ⟨⟨0, ⟨2020, 2, 29⟩, ⟨h, 0, 0, 0⟩, h, 0⟩, none, 500, -1, txt "pres", txt "TMPK", g⟩

theorem hour_entry (h : Nat) (v : ℚ) : gEntry sampleEnv 3 3 { hourReq h with grid := evenGrid v } = some (hourEntry h (evenGrid v)) := by
  have hl : levelOf (.num 500) = some 500 := by
    unfold levelOf; norm_num
  unfold gEntry
  rw [if_pos ⟨rfl, by
    intro row h
    simp only [evenGrid, List.mem_cons, List.not_mem_nil, or_false] at h
    rcases h with rfl | rfl | rfl <;> rfl⟩]
  have h1 : nameOf sampleEnv ({ hourReq h with grid := evenGrid v } : GridReq).name = some (txt "TMPK") := by
    show nameOf sampleEnv (txt "TMPK") = _
    unfold nameOf sampleEnv; decide
  have h2 : coordOf sampleEnv ({ hourReq h with grid := evenGrid v } : GridReq).vcoord = some (txt "pres") := by
    show coordOf sampleEnv (some (txt "pres")) = _
    unfold coordOf sampleEnv; decide
  have h3 : levelOf ({ hourReq h with grid := evenGrid v } : GridReq).level = some 500 := hl
  rw [h1, h2, h3]
  rfl

/-- A program that uses one array for two times: values 1 are added, then the array is set to 2 and added for the next hour. -/
def reuse : List ArrayOp := [.assign 0 (evenGrid 1), .add 0 (hourReq 1), .assign 0 (evenGrid 2), .add 0 (hourReq 2)]

/-- **C99 does not hold**: when one array is set to new values for every time, the file holds the last values for all times. -/
theorem C99_counterexample (proj : Text) (corners angles : List F32) (delta : F32) :
    let b := newGrid 3 3 proj corners angles delta (16 : ℕ)
    let s := (ArrayState.new (fun _ => evenGrid 0) b).run sampleEnv reuse
    s.contents = runGrid sampleEnv b [{ hourReq 1 with grid := evenGrid 2 }, { hourReq 2 with grid := evenGrid 2 }] ∧
      asked (fun _ => evenGrid 0) reuse = [{ hourReq 1 with grid := evenGrid 1 }, { hourReq 2 with grid := evenGrid 2 }] ∧
      s.contents ≠ runGrid sampleEnv b (asked (fun _ => evenGrid 0) reuse) := by
  intro b s
  have h1 : s.contents = runGrid sampleEnv b [{ hourReq 1 with grid := evenGrid 2 }, { hourReq 2 with grid := evenGrid 2 }] := by
    refine C99_last sampleEnv (fun _ => evenGrid 0) b rfl reuse ?_
    intro a g h
    simp only [reuse, List.mem_cons, List.not_mem_nil, or_false, reduceCtorEq, false_or] at h
    rcases h with h | h <;> (injection h with h2 h3; rw [h3]; rfl)
  refine ⟨h1, rfl, ?_⟩
  rw [h1]
  show runGrid sampleEnv b _ ≠ runGrid sampleEnv b [{ hourReq 1 with grid := evenGrid 1 }, { hourReq 2 with grid := evenGrid 2 }]
  have hb := GHistory.new 3 3 proj corners angles delta (16 : ℕ)
  intro h
  have d1 := (new_history sampleEnv _ hb [{ hourReq 1 with grid := evenGrid 2 }, { hourReq 2 with grid := evenGrid 2 }]).data
  have d2 := (new_history sampleEnv _ hb [{ hourReq 1 with grid := evenGrid 1 }, { hourReq 2 with grid := evenGrid 2 }]).data
  rw [show newGrid 3 3 proj corners angles delta ((16 : ℕ) : Int) = b from rfl] at d1 d2
  rw [h, d2] at d1
  have e : ∀ u v : ℚ, gAccepted sampleEnv 3 3 [{ hourReq 1 with grid := evenGrid u }, { hourReq 2 with grid := evenGrid v }] =
      [hourEntry 1 (evenGrid u), hourEntry 2 (evenGrid v)] := by
    intro u v
    unfold gAccepted
    rw [List.filterMap_cons_some (hour_entry 1 u), List.filterMap_cons_some (hour_entry 2 v), List.filterMap_nil]
  have d3 : dictUpdate [] ([hourEntry 1 (evenGrid 1), hourEntry 2 (evenGrid 2)].map GEntry.item) =
      dictUpdate [] ([hourEntry 1 (evenGrid 2), hourEntry 2 (evenGrid 2)].map GEntry.item) := by
    rw [← e 1 2, ← e 2 2]; exact d1
  revert d3
  decide +kernel

example : SameShapes (fun _ => evenGrid 0) [.assign 0 (evenGrid 1), .add 0 (hourReq 1), .assign 1 (evenGrid 2), .add 1 (hourReq 2)] := by
  intro a g h
  simp only [List.mem_cons, List.not_mem_nil, or_false, reduceCtorEq, false_or] at h
  rcases h with h | h <;> (injection h with h2 h3; rw [h3]; rfl)

end Gempak
