import Verif.Props.GridFile

/-!
# C120: copies of grid files

What `gdinfo` lists is given to `add_grid` again, with the values.
-/

namespace Gempak
open Spec

/-- The call of `add_grid` that copies a listed grid. -/
def Spec.copyReq (g : GridInfo) (d : List (List (Option ℚ))) : GridReq :=
  ⟨d, g.parm, some g.coord, (match g.level1 with | some l => .num l | none => .other), .dt g.time1.1 g.time1.2,
    g.level2.map fun l => .num l, g.time2.map fun t => .dt t.1 t.2⟩

/-- A time that a file can hold: to the minute, from 1969 to 2068. -/
def Spec.Holdable (t : Date × Clock) : Prop := t.1.Valid ∧ t.2.Valid ∧ t.2.s = 0 ∧ t.2.us = 0 ∧ 1969 ≤ t.1.y ∧ t.1.y ≤ 2068

/-- Listed grids that can be copied. -/
structure Spec.Copyable (env : GridEnv) (g : GridInfo) : Prop where
  level1 : ∃ l, g.level1 = some l ∧ 0 ≤ l
  level2 : ∀ l, g.level2 = some l → 0 ≤ l
  time1 : Holdable g.time1
  time2 : ∀ t, g.time2 = some t → Holdable t
  /-- At most twelve capital letters, without blanks at the borders of four letters. -/
  name : g.parm.length ≤ 12 ∧ env.upper g.parm = g.parm ∧ trimEnd g.parm = g.parm ∧ NameLegible g.parm
  coord : g.coord ∈ coordinates.map Prod.snd

/-- The host turns the names of coordinates to capitals and back. -/
def Spec.CasesKnown (env : GridEnv) : Prop := ∀ p ∈ coordinates, env.upper p.2 = p.2 ∧ env.lower p.2 = p.1

/-- All that is listed but the number and type. -/
structure Spec.SameGrid (g h : GridInfo) : Prop where
  time1 : h.time1 = g.time1
  time2 : h.time2 = g.time2
  parm : h.parm = g.parm
  level1 : h.level1 = g.level1
  level2 : h.level2 = g.level2
  coord : h.coord = g.coord

/-! ## The entries of a copy -/

/-- What the call says. -/
def copyEntry (env : GridEnv) (g : GridInfo) (d : List (List (Option ℚ))) : GEntry :=
  ⟨analysis g.time1.1 g.time1.2, g.time2.map fun t => analysis t.1 t.2, g.level1.getD (-1), g.level2.getD (-1), env.lower g.coord, g.parm, d⟩

theorem levelOf_int (l : Int) : levelOf (.num l) = some l := by
  show some (if 0 ≤ (l : ℚ) then ⌊(l : ℚ)⌋ else ⌈(l : ℚ)⌉) = some l
  rw [Int.floor_intCast, Int.ceil_intCast, ite_self]

theorem coord_mem {g : Text} (h : g ∈ coordinates.map Prod.snd) : ∃ c, (c, g) ∈ coordinates := by
  obtain ⟨p, hp, rfl⟩ := List.mem_map.1 h
  exact ⟨p.1, hp⟩

theorem coordinates_fun {a b c d : Text} (h1 : (a, b) ∈ coordinates) (h2 : (c, d) ∈ coordinates) : a = c ↔ b = d := by
  have key : ∀ p ∈ coordinates, ∀ q ∈ coordinates, (p.1 = q.1 ↔ p.2 = q.2) := by decide +kernel
  exact key _ h1 _ h2

theorem gridCopy_entry {env : GridEnv} (hc : CasesKnown env) {nx ny : Nat} {g : GridInfo} {d : List (List (Option ℚ))} (hg : Copyable env g)
    (hd : d.length = ny ∧ ∀ row ∈ d, row.length = nx) : gEntry env nx ny (copyReq g d) = some (copyEntry env g d) := by
  obtain ⟨l, hl, _⟩ := hg.level1
  obtain ⟨c, hcm⟩ := coord_mem hg.coord
  obtain ⟨n1, n2, n3, _⟩ := hg.name
  unfold gEntry
  rw [if_pos (show (copyReq g d).grid.length = ny ∧ ∀ row ∈ (copyReq g d).grid, row.length = nx from hd)]
  have h1 : nameOf env (copyReq g d).name = some g.parm := by
    show nameOf env g.parm = _
    unfold nameOf
    rw [n2, if_pos ⟨n1, n1⟩, n3]
  have h2 : coordOf env (copyReq g d).vcoord = some (env.lower g.coord) := by
    show coordOf env (some g.coord) = _
    unfold coordOf
    dsimp only [Option.map_some, Option.getD_some]
    rw [(hc _ hcm).1, if_pos]
    refine ⟨?_, ?_⟩
    · have : ∀ p ∈ coordinates, p.2.length ≤ 4 := by decide +kernel
      exact this _ hcm
    · rw [(hc _ hcm).2]
      exact List.mem_map_of_mem hcm
  have h3 : levelOf (copyReq g d).level = some l := by
    show levelOf (match g.level1 with | some l => .num l | none => .other) = _
    rw [hl]
    exact levelOf_int l
  have h4 : level2Of (copyReq g d).level2 = some (g.level2.getD (-1)) := by
    show level2Of (g.level2.map fun l => .num l) = _
    cases g.level2 with
    | none => rfl
    | some k => exact levelOf_int k
  have h5 : secondOf env (copyReq g d).dateTime (analysis g.time1.1 g.time1.2) (copyReq g d).dateTime2 =
      some (g.time2.map fun t => analysis t.1 t.2) := by
    show secondOf env _ _ (g.time2.map fun t => .dt t.1 t.2) = _
    cases g.time2 <;> rfl
  rw [h1, h2, h3, h4]
  show (secondOf env (copyReq g d).dateTime (analysis g.time1.1 g.time1.2) (copyReq g d).dateTime2 >>= _) = _
  rw [h5]
  unfold copyEntry
  rw [hl]
  rfl

theorem holdable_legible {t : Date × Clock} (h : Holdable t) : (analysis t.1 t.2).Legible := by
  obtain ⟨h1, h2, _⟩ := h
  have hh : t.2.h < 24 := h2.1
  have hm : t.2.mi < 60 := h2.2.1
  refine ⟨h1, h2, ⟨?_, ?_⟩, ?_, ?_⟩ <;> (unfold analysis; dsimp only; omega)

theorem holdable_time {t u : Date × Clock} (h : Holdable t) (hu : IsValidTime (analysis t.1 t.2) u) : u = t := by
  obtain ⟨h1, h2, h3, h4, h5, h6⟩ := h
  refine instant_inj hu.valid ⟨h1, h2⟩ ?_
  rw [hu.instant]
  obtain ⟨⟨y, mo, d⟩, ⟨hh, mi, s, us⟩⟩ := t
  dsimp only at h3 h4 h5 h6
  subst h3 h4
  unfold analysis storedTime
  dsimp only
  have hy : (if y % 100 ≤ 68 then 2000 + y % 100 else 1900 + y % 100) = y := by split <;> omega
  rw [hy, if_pos rfl]
  unfold instant
  dsimp only
  push_cast
  ring

theorem copy_legible {env : GridEnv} {g : GridInfo} {d : List (List (Option ℚ))} (hg : Copyable env g) : (copyEntry env g d).Legible := by
  refine ⟨holdable_legible hg.time1, ?_, hg.name.2.2.2⟩
  intro w hw
  obtain ⟨t, ht, rfl⟩ := Option.map_eq_some_iff.1 hw
  exact holdable_legible (hg.time2 t ht)

theorem copy_listed {env : GridEnv} (hc : CasesKnown env) {g h : GridInfo} {d : List (List (Option ℚ))} (hg : Copyable env g)
    (hl : IsGridListed (copyEntry env g d) h) : SameGrid g h ∧ h.type = 0 := by
  obtain ⟨l, el, h0⟩ := hg.level1
  obtain ⟨c, hcm⟩ := coord_mem hg.coord
  refine ⟨⟨holdable_time hg.time1 hl.time1, ?_, hl.parm, ?_, ?_, ?_⟩, hl.type⟩
  · rcases hl.time2 with ⟨h1, h2⟩ | ⟨w, t, h1, h2, h3⟩
    · rw [h2]
      exact (Option.map_eq_none_iff.1 h1).symm
    · obtain ⟨u, hu, rfl⟩ := Option.map_eq_some_iff.1 h1
      rw [h2, hu, holdable_time (hg.time2 u hu) h3]
  · rw [hl.level1]
    show listedLevel (g.level1.getD (-1)) = _
    rw [el, Option.getD_some, listedLevel, if_pos h0]
  · rw [hl.level2]
    show listedLevel (g.level2.getD (-1)) = _
    cases e2 : g.level2 with
    | none => rfl
    | some k => rw [Option.getD_some, listedLevel, if_pos (hg.level2 k e2)]
  · have h1 : (env.lower g.coord, h.coord) ∈ coordinates := hl.coord
    rw [(hc _ hcm).2] at h1
    exact (coordinates_fun h1 hcm).1 rfl

theorem analysis_inj {t u : Date × Clock} (h : analysis t.1 t.2 = analysis u.1 u.2) : t = u := by
  unfold analysis at h
  simp only [When.mk.injEq] at h
  exact Prod.ext h.2.1 h.2.2.1

theorem copy_key {env : GridEnv} (hc : CasesKnown env) {g h : GridInfo} {d d' : List (List (Option ℚ))} (hg : Copyable env g) (hh : Copyable env h)
    (hk : (copyEntry env g d).SameKey (copyEntry env h d')) : SameGrid g h := by
  obtain ⟨k1, k2, k3, k4, k5, k6⟩ := hk
  obtain ⟨l, el, h0⟩ := hg.level1
  obtain ⟨l', el', h0'⟩ := hh.level1
  obtain ⟨c, hcm⟩ := coord_mem hg.coord
  obtain ⟨c', hcm'⟩ := coord_mem hh.coord
  refine ⟨(analysis_inj k1).symm, ?_, Eq.symm k6, ?_, ?_, ?_⟩
  · have k2 : (g.time2.map fun t => analysis t.1 t.2) = h.time2.map fun t => analysis t.1 t.2 := k2
    cases e1 : g.time2 <;> cases e2 : h.time2 <;> rw [e1, e2] at k2
    · cases k2
    · cases k2
    · exact congrArg some (analysis_inj (Option.some.inj k2)).symm
  · have k3 : g.level1.getD (-1) = h.level1.getD (-1) := k3
    rw [el, el'] at k3 ⊢
    exact congrArg some (Eq.symm k3)
  · have k4 : g.level2.getD (-1) = h.level2.getD (-1) := k4
    cases e1 : g.level2 with
    | none =>
      cases e2 : h.level2 with
      | none => rfl
      | some k =>
        rw [e1, e2] at k4
        have := hh.level2 k e2
        change (-1 : Int) = k at k4
        omega
    | some k =>
      cases e2 : h.level2 with
      | none =>
        rw [e1, e2] at k4
        have := hg.level2 k e1
        change k = (-1 : Int) at k4
        omega
      | some k' =>
        rw [e1, e2] at k4
        exact congrArg some (Eq.symm k4)
  · have k5 : env.lower g.coord = env.lower h.coord := k5
    rw [(hc _ hcm).2, (hc _ hcm').2] at k5
    exact ((coordinates_fun hcm hcm').1 k5).symm

theorem gfinal_distinct {es : List GEntry} (h : es.Pairwise fun a b => ¬ a.SameKey b) : gfinal es = es := by
  induction es with
  | nil => rfl
  | cons a r ih =>
    obtain ⟨h1, h2⟩ := List.pairwise_cons.1 h
    unfold gfinal
    rw [if_neg (by rintro ⟨x, hx, hk⟩; exact h1 x hx hk), ih h2]

theorem gfinal_length_le (es : List GEntry) : (gfinal es).length ≤ es.length := by
  induction es with
  | nil => exact le_refl _
  | cons a r ih =>
    unfold gfinal
    split
    · exact ih.trans (Nat.le_succ _)
    · exact Nat.succ_le_succ ih

/-! ## The theorems -/

/-- The grids to copy: those of a list, with their values. -/
structure Spec.CanCopy (env : GridEnv) (nx ny : Nat) (G : List (GridInfo × List (List (Option ℚ)))) : Prop where
  shape : ∀ x ∈ G, x.2.length = ny ∧ ∀ row ∈ x.2, row.length = nx
  each : ∀ x ∈ G, Copyable env x.1
  /-- At one time, all grids have a second time or none has. -/
  second : ∀ x ∈ G, ∀ y ∈ G, x.1.time1 = y.1.time1 → (x.1.time2 = none ↔ y.1.time2 = none)
  size : G.length < 32000

theorem copy_accepted {env : GridEnv} (hc : CasesKnown env) {nx ny : Nat} {G : List (GridInfo × List (List (Option ℚ)))} (hG : CanCopy env nx ny G) :
    gAccepted env nx ny (G.map fun x => copyReq x.1 x.2) = G.map fun x => copyEntry env x.1 x.2 := by
  have h1 := hG.shape
  have h2 := hG.each
  clear hG
  induction G with
  | nil => rfl
  | cons a r ih =>
    rw [List.map_cons, List.map_cons, gAccepted, List.filterMap_cons_some (gridCopy_entry hc (h2 a List.mem_cons_self) (h1 a List.mem_cons_self))]
    congr 1
    exact ih (fun x hx => h1 x (List.mem_cons_of_mem _ hx)) (fun x hx => h2 x (List.mem_cons_of_mem _ hx))

/-- All calls that copy succeed. -/
theorem C120_accepted (env : GridEnv) (hc : CasesKnown env) (nx ny : Nat) (proj : Text) (corners angles : List F32) (delta : F32) (bits : Nat)
    (G : List (GridInfo × List (List (Option ℚ)))) (hG : CanCopy env nx ny G) :
    AllOk env (newGrid nx ny proj corners angles delta bits) (G.map fun x => copyReq x.1 x.2) := by
  intro pre r post h
  obtain ⟨A, B, rfl, rfl, hB⟩ := List.map_eq_append_iff.1 h
  obtain ⟨x, C, rfl, rfl, rfl⟩ := List.map_eq_cons_iff.1 hB
  have hsub : ∀ y ∈ A ++ [x], y ∈ A ++ x :: C := by
    intro y hy
    rcases List.mem_append.1 hy with hy | hy
    · exact List.mem_append_left _ hy
    · rw [List.mem_singleton.1 hy]
      exact List.mem_append_right _ List.mem_cons_self
  have hG' : CanCopy env nx ny (A ++ [x]) := by
    refine ⟨fun y hy => hG.shape y (hsub y hy), fun y hy => hG.each y (hsub y hy), fun y hy z hz => hG.second y (hsub y hy) z (hsub z hz), ?_⟩
    have := hG.size
    rw [List.length_append, List.length_cons] at this
    rw [List.length_append, List.length_singleton]
    omega
  have hacc := copy_accepted hc hG'
  rw [List.map_append, List.map_singleton] at hacc
  rw [C19_grid, hacc]
  have hx := hsub x (List.mem_append_right _ (List.mem_singleton_self _))
  refine ⟨by rw [gridCopy_entry hc (hG.each x hx) (hG.shape x hx)]; rfl, ?_, ?_⟩
  · have h1 := gfinal_length_le ((A ++ [x]).map fun x => copyEntry env x.1 x.2)
    have h2 := hG'.size
    rw [List.length_map] at h1
    omega
  · intro a ha b hb hab
    obtain ⟨y, hy, rfl⟩ := List.mem_map.1 ha
    obtain ⟨z, hz, rfl⟩ := List.mem_map.1 hb
    have := hG'.second y hy z hz (analysis_inj hab)
    show (y.1.time2.map _ = none) ↔ (z.1.time2.map _ = none)
    rw [Option.map_eq_none_iff, Option.map_eq_none_iff]
    exact this

/-- C120: grids that are listed by any file and can be copied (`Spec.CanCopy`), no two of them alike but for number and type, are given to `add_grid`
of a new file.  If it can be saved, the copy lists exactly these grids with the same names, coordinates, levels and times, and returns values as
near to those given as the packing allows.  Missing: the type, which becomes that of an analysis; what cannot be copied. -/
theorem C120_copy_partial (env : GridEnv) (hr : env.Rounds) (hc : CasesKnown env) (nx ny : Nat) (proj : Text) (corners angles : List F32)
    (delta : F32) (bits : Nat) (hproj : proj ∈ knownProjections) (hcorners : corners.length = 4) (hangles : angles.length = 3)
    (hx : nx < 2 ^ 24) (hy : ny < 2 ^ 24) (hbits : 32 < bits * nx * ny) (G : List (GridInfo × List (List (Option ℚ))))
    (hG : CanCopy env nx ny G) (hd : G.Pairwise fun x y => ¬ SameGrid x.1 y.1) (e host : Endian) (bytes : Bytes)
    (hsave : saveGrid env e (runGrid env (newGrid nx ny proj corners angles delta bits) (G.map fun x => copyReq x.1 x.2)) = .ok bytes) :
    ∃ f P, openGrid host bytes = .ok f ∧ P.Perm G ∧ List.Forall₂ (fun x g => SameGrid x.1 g ∧ g.type = 0) P f.grids ∧
      (G ≠ [] → ∀ upper lower, ∃ out, gdxarray upper lower {} f = .ok out ∧
        List.Forall₂ (fun x o => ∀ R δ, Spread x.2 R → Near x.2 δ → List.Forall₂ (List.Forall₂ (IsPoint bits R δ)) x.2 o.data) P out) := by
  have hacc := copy_accepted hc hG
  have hfin : gfinal (gAccepted env nx ny (G.map fun x => copyReq x.1 x.2)) = G.map fun x => copyEntry env x.1 x.2 := by
    rw [hacc]
    refine gfinal_distinct (List.pairwise_map.2 (hd.imp_of_mem fun hx hy h hk => h ?_))
    exact copy_key hc (hG.each _ hx) (hG.each _ hy) hk
  obtain ⟨f, P, f1, f2, f3, f4⟩ := (C16_round_trip_partial env hr nx ny proj corners angles delta bits hproj hcorners hangles hx hy hbits _
    (C120_accepted env hc nx ny proj corners angles delta bits G hG) (by
      rw [hacc]
      intro x hx
      obtain ⟨y, hy, rfl⟩ := List.mem_map.1 hx
      exact copy_legible (hG.each y hy)) e host bytes hsave).grids
  rw [hfin] at f2
  obtain ⟨Q, q1, q2⟩ := List.perm_comp_forall₂ (r := fun (a : GEntry) (x : GridInfo × List (List (Option ℚ))) => a = copyEntry env x.1 x.2) f2
    (List.forall₂_map_left_iff.2 (List.forall₂_same.2 fun _ _ => rfl))
  have hP : P = Q.map fun x => copyEntry env x.1 x.2 := by
    clear f2 f3 f4 q2
    induction q1 with
    | nil => rfl
    | cons h _ ih => rw [List.map_cons, ← h, ← ih]
  subst hP
  refine ⟨f, Q, f1, q2, ?_, ?_⟩
  · rw [List.forall₂_map_left_iff] at f3
    have hQ : ∀ x ∈ Q, Copyable env x.1 := fun x hx => hG.each x (q2.mem_iff.1 hx)
    clear f1 f4 f2 q1 q2
    generalize f.grids = L at f3 ⊢
    induction f3 with
    | nil => exact .nil
    | cons h _ ih =>
      exact .cons (copy_listed hc (hQ _ List.mem_cons_self) h) (ih fun x hx => hQ x (List.mem_cons_of_mem _ hx))
  · intro hne upper lower
    obtain ⟨out, o1, o2⟩ := f4 (by simpa using hne) upper lower
    refine ⟨out, o1, ?_⟩
    rw [List.forall₂_map_left_iff] at o2
    exact o2.imp fun x o h => h.data

/-- C120 (deviation): a grid listed without level cannot be copied: `add_grid` refuses it, and nothing is added. -/
theorem C120_no_level (env : GridEnv) (b : GridBuilder) (g : GridInfo) (d : List (List (Option ℚ))) (hl : g.level1 = none) :
    (∃ x, (addGrid env b (copyReq g d)).2 = .error x) ∧ (addGrid env b (copyReq g d)).1 = b := by
  refine addGrid_none ?_
  unfold gEntry
  split
  · have h3 : levelOf (copyReq g d).level = none := by
      show levelOf (match g.level1 with | some l => .num l | none => .other) = _
      rw [hl]; rfl
    rw [h3]
    cases nameOf env (copyReq g d).name <;> [rfl; skip]
    cases coordOf env (copyReq g d).vcoord <;> rfl
  · rfl

/-- C120 (deviation): of two grids alike but for number and type only the later one is in the copy. -/
theorem C120_alike (env : GridEnv) (hr : env.Rounds) (hc : CasesKnown env) (nx ny : Nat) (proj : Text) (corners angles : List F32)
    (delta : F32) (bits : Nat) (hproj : proj ∈ knownProjections) (hcorners : corners.length = 4) (hangles : angles.length = 3)
    (hx : nx < 2 ^ 24) (hy : ny < 2 ^ 24) (hbits : 32 < bits * nx * ny) (g g' : GridInfo) (d d' : List (List (Option ℚ)))
    (hG : CanCopy env nx ny [(g, d), (g', d')]) (hs : SameGrid g g') (e host : Endian) (bytes : Bytes)
    (hsave : saveGrid env e (runGrid env (newGrid nx ny proj corners angles delta bits) [copyReq g d, copyReq g' d']) = .ok bytes) :
    ∃ f h, openGrid host bytes = .ok f ∧ f.grids = [h] ∧ SameGrid g' h ∧
      ∀ upper lower, ∃ o, gdxarray upper lower {} f = .ok [o] ∧
        ∀ R δ, Spread d' R → Near d' δ → List.Forall₂ (List.Forall₂ (IsPoint bits R δ)) d' o.data := by
  have hacc := copy_accepted hc hG
  have hkey : (copyEntry env g d).SameKey (copyEntry env g' d') := by
    obtain ⟨s1, s2, s3, s4, s5, s6⟩ := hs
    refine ⟨?_, ?_, ?_, ?_, ?_, ?_⟩ <;> (unfold copyEntry; dsimp only)
    · rw [s1]
    · rw [s2]
    · rw [s4]
    · rw [s5]
    · rw [s6]
    · exact s3.symm
  have hfin : gfinal (gAccepted env nx ny [copyReq g d, copyReq g' d']) = [copyEntry env g' d'] := by
    have : gAccepted env nx ny [copyReq g d, copyReq g' d'] = [copyEntry env g d, copyEntry env g' d'] := hacc
    rw [this]
    unfold gfinal
    rw [if_pos ⟨_, List.mem_singleton_self _, hkey⟩]
    exact gfinal_distinct (List.pairwise_singleton _ _)
  have hall : AllOk env (newGrid nx ny proj corners angles delta bits) [copyReq g d, copyReq g' d'] :=
    C120_accepted env hc nx ny proj corners angles delta bits _ hG
  have hg' : Copyable env g' := hG.each (g', d') (List.mem_cons_of_mem _ List.mem_cons_self)
  obtain ⟨f, P, f1, f2, f3, f4⟩ := (C16_round_trip_partial env hr nx ny proj corners angles delta bits hproj hcorners hangles hx hy hbits _
    hall (by
      intro x hx
      rw [show gAccepted env nx ny [copyReq g d, copyReq g' d'] = [copyEntry env g d, copyEntry env g' d'] from hacc] at hx
      rcases List.mem_pair.1 hx with rfl | rfl
      · exact copy_legible (hG.each (g, d) List.mem_cons_self)
      · exact copy_legible hg') e host bytes hsave).grids
  rw [hfin] at f2
  obtain rfl := List.perm_singleton.1 f2
  have f5 := f4 (List.cons_ne_nil _ _)
  clear f4
  obtain ⟨h, hl⟩ := List.length_eq_one_iff.1 f3.length_eq.symm
  rw [hl] at f3
  refine ⟨f, h, f1, hl, ?_, ?_⟩
  · rcases f3 with _ | ⟨h1, _⟩
    exact (copy_listed hc hg' h1).1
  · intro upper lower
    obtain ⟨out, o1, o2⟩ := f5 upper lower
    obtain ⟨o, rfl⟩ := List.length_eq_one_iff.1 o2.length_eq.symm
    refine ⟨o, o1, ?_⟩
    rcases o2 with _ | ⟨h1, _⟩
    exact h1.data

/-! ## An instance -/

/-- A host that knows the small and capital letters of the coordinates. -/
noncomputable def caseEnv : GridEnv :=
  { sampleEnv with lower := fun t => ((coordinates.find? fun p => p.2 == t).map Prod.fst).getD t }

theorem caseEnv_known : CasesKnown caseEnv := by
  have h : ∀ p ∈ coordinates, ((coordinates.find? fun q => q.2 == p.2).map Prod.fst).getD p.2 = p.1 := by decide +kernel
  exact fun p hp => ⟨rfl, h p hp⟩

theorem caseEnv_rounds : caseEnv.Rounds := ⟨sampleEnv_rounds.1, sampleEnv_rounds.2⟩

/-- A forecast between two levels, of the time between two times. -/
def copyInfo (type : Int) (l : Int) : GridInfo :=
  ⟨4, type, (⟨2020, 2, 29⟩, ⟨12, 30, 0, 0⟩), some (⟨2020, 3, 1⟩, ⟨0, 0, 0, 0⟩), txt "TMPK", some l, some 400, txt "PRES"⟩

theorem copyInfo_copyable (type : Int) {l : Int} (hl : 0 ≤ l) : Copyable caseEnv (copyInfo type l) := by
  refine ⟨⟨l, rfl, hl⟩, ?_, ?_, ?_, ⟨by show (txt "TMPK").length ≤ 12; decide, rfl, by show trimEnd (txt "TMPK") = txt "TMPK"; decide, ?_⟩, ?_⟩
  · intro k hk
    obtain rfl := Option.some.inj hk
    decide
  · show Holdable (⟨2020, 2, 29⟩, ⟨12, 30, 0, 0⟩)
    exact ⟨by decide, by decide, rfl, rfl, by decide, by decide⟩
  · intro t ht
    obtain rfl := Option.some.inj ht
    exact ⟨by decide, by decide, rfl, rfl, by decide, by decide⟩
  · show NameLegible (txt "TMPK")
    refine ⟨⟨?_, by decide⟩, ⟨?_, by decide⟩, ⟨?_, by decide⟩⟩ <;> decide
  · show txt "PRES" ∈ _
    decide +kernel

theorem copyInfo_canCopy (t t' : Int) {l l' : Int} (hl : 0 ≤ l) (hl' : 0 ≤ l') :
    CanCopy caseEnv 3 3 [(copyInfo t l, (sampleReq 3).grid), (copyInfo t' l', (sampleReq 5).grid)] := by
  refine ⟨?_, ?_, ?_, show 2 < 32000 by decide⟩
  · intro x hx
    rcases List.mem_pair.1 hx with rfl | rfl
    · refine ⟨rfl, fun row h => ?_⟩
      simp only [sampleReq, List.mem_cons, List.not_mem_nil, or_false] at h
      rcases h with rfl | rfl | rfl <;> rfl
    · refine ⟨rfl, fun row h => ?_⟩
      simp only [sampleReq, List.mem_cons, List.not_mem_nil, or_false] at h
      rcases h with rfl | rfl | rfl <;> rfl
  · intro x hx
    rcases List.mem_pair.1 hx with rfl | rfl
    · exact copyInfo_copyable t hl
    · exact copyInfo_copyable t' hl'
  · intro x hx y hy _
    rcases List.mem_pair.1 hx with rfl | rfl <;> rcases List.mem_pair.1 hy with rfl | rfl <;> exact ⟨nofun, nofun⟩

/-- Two grids of two levels meet the hypotheses of `C120_copy_partial`. -/
example : CanCopy caseEnv 3 3 [(copyInfo 1 500, (sampleReq 3).grid), (copyInfo 1 850, (sampleReq 5).grid)] ∧
    [(copyInfo 1 500, (sampleReq 3).grid), (copyInfo 1 850, (sampleReq 5).grid)].Pairwise fun x y => ¬ SameGrid x.1 y.1 := by
  refine ⟨copyInfo_canCopy _ _ (by decide) (by decide), List.pairwise_cons.2 ⟨?_, List.pairwise_singleton _ _⟩⟩
  intro y hy h
  rw [List.mem_singleton.1 hy] at h
  have := h.level1
  revert this
  decide

/-- An analysis and a forecast of one time meet those of `C120_alike`. -/
example : CanCopy caseEnv 3 3 [(copyInfo 0 500, (sampleReq 3).grid), (copyInfo 1 500, (sampleReq 5).grid)] ∧
    SameGrid (copyInfo 0 500) (copyInfo 1 500) :=
  ⟨copyInfo_canCopy _ _ (by decide) (by decide), ⟨rfl, rfl, rfl, rfl, rfl, rfl⟩⟩

end Gempak
