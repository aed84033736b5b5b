import Mathlib.Data.Fintype.EquivFin
import Mathlib.Data.Fintype.Lattice
import Mathlib.Tactic.Ring
import Verif.Proof.GridWrites

/-!
# Grid files: properties

C16, C17, C18, C19, C25, C26, C27 and C69 for grid files.
-/

namespace Gempak
open Spec

/-- The requests that are accepted, with what they say. -/
abbrev gAccepted (env : GridEnv) (nx ny : Nat) (rs : List GridReq) : List GEntry := rs.filterMap (gEntry env nx ny)

/-- History of a new file. -/
theorem new_history (env : GridEnv) (b0 : GridBuilder) (hb : GHistory b0 [] b0) (rs : List GridReq) :
    GHistory b0 ((gAccepted env b0.nx b0.ny rs).map GEntry.item) (runGrid env b0 rs) := by
  have := run_grid (env := env) hb rs
  rwa [List.nil_append] at this

theorem gAccepted_typed {env : GridEnv} {nx ny : Nat} {rs : List GridReq} : ∀ e ∈ gAccepted env nx ny rs, e.Typed := by
  intro e he
  obtain ⟨r, _, h⟩ := List.mem_filterMap.1 he
  exact gEntry_typed h

/-- Outcome of an accepted request. -/
theorem addGrid_some {env : GridEnv} {b0 : GridBuilder} (hb : GHistory b0 [] b0) (rs : List GridReq) (r : GridReq) (x : GEntry)
    (hx : gEntry env b0.nx b0.ny r = some x) :
    ((addGrid env (runGrid env b0 rs) r).2 = .ok () ↔
      1 + (gfinal (gAccepted env b0.nx b0.ny (rs ++ [r]))).length ≤ 32000 ∧ Comparable (gAccepted env b0.nx b0.ny (rs ++ [r]))) := by
  have h0 := new_history env b0 hb rs
  have h1 := new_history env b0 hb (rs ++ [r])
  have hr := checkGrid_eq env b0.nx b0.ny r
  rw [hx] at hr
  have ha : addGrid env (runGrid env b0 rs) r = (runGrid env b0 rs).enter x.col x.values := by
    unfold addGrid; rw [h0.nx, h0.ny, hr]
  have hrun : runGrid env b0 (rs ++ [r]) = ((runGrid env b0 rs).enter x.col x.values).1 := by
    rw [← ha]; unfold runGrid; rw [List.foldl_append]; rfl
  have hcount := h1.count entries_sound
  have hcl := clashing_iff h1.keys.2
  rw [hrun] at hcount hcl
  rw [ha, ← hcount, ← hcl]
  unfold GridBuilder.enter
  dsimp only
  split
  · rename_i hgt
    dsimp only at hgt ⊢
    refine ⟨fun h => (by cases h), fun h => absurd h.1 (by unfold mmhdrs at hgt; omega)⟩
  · rename_i hgt
    split
    · rename_i h
      dsimp only
      refine ⟨fun h => (by cases h), fun h2 => ?_⟩
      rw [h] at h2; exact absurd h2.2 (by simp)
    · rename_i h
      dsimp only at hgt ⊢
      refine ⟨fun _ => ⟨by unfold mmhdrs at hgt; omega, by simpa using h⟩, fun _ => rfl⟩

theorem addGrid_none {env : GridEnv} {b : GridBuilder} {r : GridReq} (h : gEntry env b.nx b.ny r = none) :
    (∃ e, (addGrid env b r).2 = .error e) ∧ (addGrid env b r).1 = b := by
  have hr := checkGrid_eq env b.nx b.ny r
  rw [h] at hr
  obtain ⟨e, hr⟩ := hr
  unfold addGrid
  rw [hr]
  exact ⟨⟨e, rfl⟩, rfl⟩

/-! ## C19 -/

/-- C19 for grid files: a call succeeds exactly when the request is acceptable, the distinct keys so far and one row header
are at most 32000, and no two requests differ in having a second time while sharing the first. -/
theorem C19_grid (env : GridEnv) (nx ny : Nat) (proj : Text) (corners angles : List F32) (delta : F32) (precision : Int)
    (rs : List GridReq) (r : GridReq) :
    (addGrid env (runGrid env (newGrid nx ny proj corners angles delta precision) rs) r).2 = .ok () ↔
      (gEntry env nx ny r).isSome ∧ 1 + (gfinal (gAccepted env nx ny (rs ++ [r]))).length ≤ 32000 ∧
        Comparable (gAccepted env nx ny (rs ++ [r])) := by
  have hb := GHistory.new nx ny proj corners angles delta precision
  cases hx : gEntry env nx ny r with
  | none =>
    refine ⟨fun h => ?_, fun h => absurd h.1 (by simp)⟩
    have h0 := new_history env _ hb rs
    obtain ⟨⟨e, he⟩, _⟩ := addGrid_none (env := env)
      (b := runGrid env (newGrid nx ny proj corners angles delta precision) rs) (r := r) (by rw [h0.nx, h0.ny]; exact hx)
    rw [he] at h; cases h
  | some x =>
    rw [addGrid_some hb rs r x hx]
    exact ⟨fun h => ⟨rfl, h⟩, fun h => h.2⟩

/-- A history in which every call succeeded. -/
def AllOk (env : GridEnv) (b0 : GridBuilder) (rs : List GridReq) : Prop :=
  ∀ pre r post, rs = pre ++ r :: post → (addGrid env (runGrid env b0 pre) r).2 = .ok ()

/-- C19: a history without failing calls took every request and stayed below the limit. -/
theorem C19_grid_history (env : GridEnv) (nx ny : Nat) (proj : Text) (corners angles : List F32) (delta : F32) (precision : Int)
    (rs : List GridReq) (h : AllOk env (newGrid nx ny proj corners angles delta precision) rs) :
    (∀ r ∈ rs, (gEntry env nx ny r).isSome) ∧ 1 + (gfinal (gAccepted env nx ny rs)).length ≤ 32000 ∧
      Comparable (gAccepted env nx ny rs) := by
  constructor
  · intro r hr
    obtain ⟨pre, post, rfl⟩ := List.append_of_mem hr
    exact ((C19_grid env nx ny proj corners angles delta precision pre r).1 (h pre r post rfl)).1
  · rcases List.eq_nil_or_concat rs with rfl | ⟨pre, r, rfl⟩
    · exact ⟨by simp [gfinal], by intro a ha; cases ha⟩
    · rw [List.concat_eq_append] at h ⊢
      exact ((C19_grid env nx ny proj corners angles delta precision pre r).1 (h pre r [] rfl)).2

/-! ## C16 -/

/-- What a reader sees of a grid file. -/
structure GridOutput (env : GridEnv) (nx ny bits : Nat) (rs : List GridReq) (host : Endian) (bytes : Bytes) : Prop where
  /-- The listing has one grid per distinct key; reading all of them gives the data last added. -/
  grids : ∃ (f : GridFileR) (P : List GEntry), openGrid host bytes = .ok f ∧ P.Perm (gfinal (gAccepted env nx ny rs)) ∧
    List.Forall₂ IsGridListed P f.grids ∧
    (rs ≠ [] → ∀ upper lower, ∃ out, gdxarray upper lower {} f = .ok out ∧ List.Forall₂ (IsGridRead lower bits) P out)

/-- C16: after calls that all succeeded, opening the written file, in whatever byte order, lists exactly one grid per distinct
key, and reading returns for each the data last added, as exact as the precision allows.  Lead times are to be written in
at most three digits for hours and two for minutes, and names without blanks beside the borders of their four-character
parts.  Partial: other lead times and names are accepted too but read differently; data of at most 32 bits in all do not fit
the packing. -/
theorem C16_round_trip_partial (env : GridEnv) (hr : env.Rounds) (nx ny : Nat) (proj : Text) (corners angles : List F32) (delta : F32)
    (bits : Nat) (hproj : proj ∈ knownProjections) (hcorners : corners.length = 4) (hangles : angles.length = 3)
    (hx : nx < 2 ^ 24) (hy : ny < 2 ^ 24) (hbits : 32 < bits * nx * ny) (rs : List GridReq)
    (hok : AllOk env (newGrid nx ny proj corners angles delta bits) rs) (hl : ∀ e ∈ gAccepted env nx ny rs, e.Legible)
    (e host : Endian) (bytes : Bytes)
    (hsave : saveGrid env e (runGrid env (newGrid nx ny proj corners angles delta bits) rs) = .ok bytes) :
    GridOutput env nx ny bits rs host bytes := by
  obtain ⟨h1, h2, h3⟩ := C19_grid_history env nx ny proj corners angles delta bits rs hok
  obtain ⟨f, P, f1, f2, f3, f4⟩ := grid_file_read hr (b0 := newGrid nx ny proj corners angles delta bits)
    ⟨hcorners, hangles, hproj⟩ hx hy
    (new_history env _ (GHistory.new nx ny proj corners angles delta bits) rs) entries_sound gAccepted_typed hl h2 h3 hsave host
  refine ⟨f, P, f1, f2, f3, ?_⟩
  intro hne upper lower
  refine f4 ?_ ?_ upper lower
  · show (32 : Int) < (bits : Int) * nx * ny
    exact_mod_cast hbits
  · intro h0
    obtain ⟨r, hr⟩ := List.exists_mem_of_ne_nil _ hne
    obtain ⟨x, hx⟩ := Option.isSome_iff_exists.1 (h1 r hr)
    have : x ∈ gAccepted env nx ny rs := List.mem_filterMap.2 ⟨r, hr, hx⟩
    change gAccepted env nx ny rs = [] at h0
    rw [h0] at this; cases this

/-- `C16_names_partial` with the order. -/
theorem grids_ordered (env : GridEnv) (hr : env.Rounds) (nx ny : Nat) (proj : Text) (corners angles : List F32) (delta : F32)
    (bits : Nat) (hproj : proj ∈ knownProjections) (hcorners : corners.length = 4) (hangles : angles.length = 3)
    (hx : nx < 2 ^ 24) (hy : ny < 2 ^ 24) (hbits : 32 < bits * nx * ny) (rs : List GridReq)
    (hok : AllOk env (newGrid nx ny proj corners angles delta bits) rs) (hl : ∀ e ∈ gAccepted env nx ny rs, e.Readable)
    (e host : Endian) (bytes : Bytes)
    (hsave : saveGrid env e (runGrid env (newGrid nx ny proj corners angles delta bits) rs) = .ok bytes) :
    ∃ (f : GridFileR) (P : List GEntry), openGrid host bytes = .ok f ∧ P.Perm (gfinal (gAccepted env nx ny rs)) ∧
      List.Forall₂ (fun x g => IsGridListed x.seen g) P f.grids ∧
      (rs ≠ [] → ∀ upper lower, ∃ out, gdxarray upper lower {} f = .ok out ∧ List.Forall₂ (fun x o => IsGridRead lower bits x.seen o) P out) ∧
      P.Pairwise (fun a b => ¬ b.rank < a.rank) := by
  obtain ⟨h1, h2, h3⟩ := C19_grid_history env nx ny proj corners angles delta bits rs hok
  obtain ⟨f, P, f1, f2, f3, f4, f5⟩ := grid_file_seen hr (b0 := newGrid nx ny proj corners angles delta bits)
    ⟨hcorners, hangles, hproj⟩ hx hy
    (new_history env _ (GHistory.new nx ny proj corners angles delta bits) rs) entries_sound gAccepted_typed hl h2 h3 hsave host
  refine ⟨f, P, f1, f2, f3, ?_, f5⟩
  intro hne upper lower
  refine f4 ?_ ?_ upper lower
  · show (32 : Int) < (bits : Int) * nx * ny
    exact_mod_cast hbits
  · intro h0
    obtain ⟨r, hr⟩ := List.exists_mem_of_ne_nil _ hne
    obtain ⟨x, hx⟩ := Option.isSome_iff_exists.1 (h1 r hr)
    have : x ∈ gAccepted env nx ny rs := List.mem_filterMap.2 ⟨r, hr, hx⟩
    change gAccepted env nx ny rs = [] at h0
    rw [h0] at this; cases this

/-- C16 for names of one-byte characters with any blanks and lead times with any number of minutes: all is as in `C16_round_trip_partial`, but
every four characters of a name are read without their outer blanks (`Spec.seenName`), and lead times of a hundred minutes or more as another
time (`Spec.When.seen`). -/
theorem C16_names_partial (env : GridEnv) (hr : env.Rounds) (nx ny : Nat) (proj : Text) (corners angles : List F32) (delta : F32)
    (bits : Nat) (hproj : proj ∈ knownProjections) (hcorners : corners.length = 4) (hangles : angles.length = 3)
    (hx : nx < 2 ^ 24) (hy : ny < 2 ^ 24) (hbits : 32 < bits * nx * ny) (rs : List GridReq)
    (hok : AllOk env (newGrid nx ny proj corners angles delta bits) rs) (hl : ∀ e ∈ gAccepted env nx ny rs, e.Readable)
    (e host : Endian) (bytes : Bytes)
    (hsave : saveGrid env e (runGrid env (newGrid nx ny proj corners angles delta bits) rs) = .ok bytes) :
    ∃ (f : GridFileR) (P : List GEntry), openGrid host bytes = .ok f ∧ P.Perm (gfinal (gAccepted env nx ny rs)) ∧
      List.Forall₂ (fun x g => IsGridListed x.seen g) P f.grids ∧
      (rs ≠ [] → ∀ upper lower, ∃ out, gdxarray upper lower {} f = .ok out ∧ List.Forall₂ (fun x o => IsGridRead lower bits x.seen o) P out) := by
  obtain ⟨f, P, f1, f2, f3, f4, _⟩ := grids_ordered env hr nx ny proj corners angles delta bits hproj hcorners hangles hx hy hbits rs hok hl e host bytes hsave
  exact ⟨f, P, f1, f2, f3, f4⟩

/-- C16: writing succeeds when everything fits: levels in a word, values of a grid within 2³¹ of one another and within
single precision, and less than 4 GiB of data. -/
theorem C16_writes (env : GridEnv) (hr : env.Rounds) (nx ny : Nat) (proj : Text) (corners angles : List F32) (delta : F32)
    (bits : Nat) (hproj : proj ∈ knownProjections) (hcorners : corners.length = 4) (hangles : angles.length = 3)
    (hx : 3 ≤ nx) (hy : 3 ≤ ny) (hxy : nx * ny < 2 ^ 24) (h1 : 1 ≤ bits) (h2 : bits ≤ 31) (hbits : 32 < bits * nx * ny)
    (rs : List GridReq) (hok : AllOk env (newGrid nx ny proj corners angles delta bits) rs)
    (hl : ∀ e ∈ gAccepted env nx ny rs, e.Stamped) (hw : ∀ e ∈ gAccepted env nx ny rs, e.Writable env)
    (hsize : (gfinal (gAccepted env nx ny rs)).length * (nx * ny + 10) ≤ 2 ^ 30) (e : Endian) :
    ∃ bytes, saveGrid env e (runGrid env (newGrid nx ny proj corners angles delta bits) rs) = .ok bytes := by
  obtain ⟨_, g2, g3⟩ := C19_grid_history env nx ny proj corners angles delta bits rs hok
  refine grid_saves hr (b0 := newGrid nx ny proj corners angles delta bits) ⟨hcorners, hangles, hproj⟩ hx hy hxy ?_ ?_
    (new_history env _ (GHistory.new nx ny proj corners angles delta bits) rs) entries_sound gAccepted_typed hl hw g2 g3 hsize e
  · show (1 : Int) ≤ (bits : Int) ∧ (bits : Int) ≤ 31
    omega
  · show (32 : Int) < (bits : Int) * nx * ny
    exact_mod_cast hbits

/-! ### A concrete case -/

/-- Nearest single precision numbers exist. -/
theorem exists_nearest (q : ℚ) : ∃ p v, f32Value p = some v ∧ ∀ p' v', f32Value p' = some v' → |v - q| ≤ |v' - q| := by
  have hfin : Finite F32 := Finite.of_injective (fun p : F32 => p.toFin) fun a b h => BitVec.eq_of_toFin_eq h
  have : Finite {p : F32 // (f32Value p).isSome} := Finite.of_injective Subtype.val Subtype.val_injective
  obtain ⟨p0, h0⟩ : ∃ p0, f32Value p0 = some ((0 : ℕ) : ℚ) := f32Value_nat 0 (by decide)
  have : Nonempty {p : F32 // (f32Value p).isSome} := ⟨⟨p0, by rw [h0]; rfl⟩⟩
  obtain ⟨x, hx⟩ := Finite.exists_min fun p : {p : F32 // (f32Value p).isSome} => |(f32Value p.1).get p.2 - q|
  refine ⟨x.1, (f32Value x.1).get x.2, (Option.some_get x.2).symm, ?_⟩
  intro p' v' h
  have := hx ⟨p', by rw [h]; rfl⟩
  dsimp only at this
  rwa [show (f32Value p').get (by rw [h]; rfl) = v' from by simp [h]] at this

/-- A host that rounds to nearest and reads no texts. -/
noncomputable def sampleEnv : GridEnv :=
  ⟨id, id, fun _ => .error .valueError, fun _ => .error .valueError, fun q => .ok (exists_nearest q).choose⟩

theorem sampleEnv_rounds : sampleEnv.Rounds := by
  constructor
  · intro p q _; exact ⟨_, rfl⟩
  · intro q p h
    have := Except.ok.inj h
    subst this
    exact (exists_nearest q).choose_spec

/-- A request: 3 by 3 points, one missing. -/
def sampleReq (v : ℚ) : GridReq :=
  ⟨[[some v, some 2, none], [some 4, some 5, some 6], [some 7, some 8, some 9]], txt "TMPK", some (txt "pres"), .num 500,
    .dt ⟨2020, 2, 29⟩ ⟨12, 30, 0, 0⟩, none, none⟩

/-- Its entry. -/
def sampleEntry (v : ℚ) : GEntry :=
  ⟨⟨0, ⟨2020, 2, 29⟩, ⟨12, 30, 0, 0⟩, 12, 30⟩, none, 500, -1, txt "pres", txt "TMPK", (sampleReq v).grid⟩

theorem sample_entry (v : ℚ) : gEntry sampleEnv 3 3 (sampleReq v) = some (sampleEntry v) := by
  have hl : levelOf (.num 500) = some 500 := by
    unfold levelOf; norm_num
  unfold gEntry
  rw [if_pos ⟨rfl, by
    intro row h
    simp only [sampleReq, List.mem_cons, List.not_mem_nil, or_false] at h
    rcases h with rfl | rfl | rfl <;> rfl⟩]
  have h1 : nameOf sampleEnv (sampleReq v).name = some (txt "TMPK") := by
    show nameOf sampleEnv (txt "TMPK") = _
    unfold nameOf sampleEnv; decide
  have h2 : coordOf sampleEnv (sampleReq v).vcoord = some (txt "pres") := by
    show coordOf sampleEnv (some (txt "pres")) = _
    unfold coordOf sampleEnv; decide
  rw [h1, h2]
  have h3 : levelOf (sampleReq v).level = some 500 := hl
  rw [h3]
  rfl

theorem sample_history (v w : ℚ) : gAccepted sampleEnv 3 3 [sampleReq v, sampleReq w] = [sampleEntry v, sampleEntry w] := by
  unfold gAccepted
  rw [List.filterMap_cons_some (sample_entry v), List.filterMap_cons_some (sample_entry w), List.filterMap_nil]

/-- Two additions under one key: every hypothesis of `C16_round_trip_partial` and `C16_writes` holds and one grid is listed. -/
theorem sample_conditions (v w : ℚ) (hv : |v| ≤ 1000) (hw : |w| ≤ 1000) (proj : Text) (corners angles : List F32) (delta : F32) :
    AllOk sampleEnv (newGrid 3 3 proj corners angles delta (16 : ℕ)) [sampleReq v, sampleReq w] ∧
      (∀ e ∈ gAccepted sampleEnv 3 3 [sampleReq v, sampleReq w], e.Legible ∧ e.Writable sampleEnv) ∧
      gfinal (gAccepted sampleEnv 3 3 [sampleReq v, sampleReq w]) = [sampleEntry w] := by
  have hsame : (sampleEntry v).SameKey (sampleEntry w) := ⟨rfl, rfl, rfl, rfl, rfl, rfl⟩
  have hfin : gfinal [sampleEntry v, sampleEntry w] = [sampleEntry w] := by
    unfold gfinal
    rw [if_pos ⟨_, List.mem_singleton_self _, hsame⟩]
    unfold gfinal
    rw [if_neg (by rintro ⟨x, hx, _⟩; cases hx)]
    rfl
  refine ⟨?_, ?_, by rw [sample_history, hfin]⟩
  · intro pre r post h
    rcases pre with _ | ⟨a, _ | ⟨b, pre⟩⟩
    · obtain ⟨rfl, _⟩ := List.cons.inj h
      rw [C19_grid]
      refine ⟨by rw [sample_entry]; rfl, ?_, ?_⟩
      · rw [List.nil_append, gAccepted, List.filterMap_cons_some (sample_entry v), List.filterMap_nil]
        unfold gfinal
        rw [if_neg (by rintro ⟨x, hx, _⟩; cases hx)]
        simp [gfinal]
      · rw [List.nil_append, gAccepted, List.filterMap_cons_some (sample_entry v), List.filterMap_nil]
        intro a ha b hb _
        rw [List.mem_singleton.1 ha, List.mem_singleton.1 hb]
    · obtain ⟨ha, h⟩ := List.cons.inj h
      obtain ⟨hr, _⟩ := List.cons.inj h
      rw [← ha, ← hr, C19_grid]
      refine ⟨by rw [sample_entry]; rfl, ?_, ?_⟩
      · rw [List.singleton_append, sample_history, hfin]; simp
      · rw [List.singleton_append, sample_history]
        intro a ha b hb _
        simp only [List.mem_cons, List.not_mem_nil, or_false] at ha hb
        rcases ha with rfl | rfl <;> rcases hb with rfl | rfl <;> exact Iff.rfl
    · have := congrArg List.length h
      simp at this
  · have key : ∀ u : ℚ, |u| ≤ 1000 → (sampleEntry u).Legible ∧ (sampleEntry u).Writable sampleEnv := by
      intro u hu
      have g1 : When.Legible ⟨0, ⟨2020, 2, 29⟩, ⟨12, 30, 0, 0⟩, 12, 30⟩ := ⟨by decide, by decide, by decide, by decide⟩
      have g2 : NameLegible (txt "TMPK") := by
        refine ⟨⟨?_, by decide⟩, ⟨?_, by decide⟩, ⟨?_, by decide⟩⟩ <;> decide
      have g3 : inI32 500 ∧ inI32 (-1) := ⟨by decide, by decide⟩
      refine ⟨⟨g1, (by intro w h; exact absurd h (by simp [sampleEntry])), g2⟩, ⟨g3.1, g3.2, ?_, ?_⟩⟩
      · obtain ⟨a1, a2⟩ := abs_le.1 hu
        intro x hx y hy
        have hb : ∀ x ∈ (sampleEntry u).grid.flatten, -10000 ≤ counted x ∧ counted x ≤ 10000 := by
          intro x hx
          simp only [sampleEntry, sampleReq, List.flatten_cons, List.flatten_nil, List.append_nil, List.cons_append, List.nil_append,
            List.mem_cons, List.not_mem_nil, or_false] at hx
          rcases hx with rfl | rfl | rfl | rfl | rfl | rfl | rfl | rfl | rfl <;> (unfold counted; constructor <;> (simp; linarith))
        linarith [(hb x hx).2, (hb y hy).1]
      · intro x _; exact ⟨_, rfl⟩
    intro e he
    rw [sample_history] at he
    simp only [List.mem_cons, List.not_mem_nil, or_false] at he
    rcases he with rfl | rfl
    · exact key v hv
    · exact key w hw

example : AllOk sampleEnv (newGrid 3 3 (txt "CED") [0, 0, 0, 0] [0, 0, 0] 0 (16 : ℕ)) [sampleReq 3, sampleReq (-7 / 2)] :=
  (sample_conditions 3 (-7 / 2) (by norm_num) (by norm_num [abs_of_neg]) _ _ _ _).1

/-- A request under another name. -/
def namedReq (n : Text) : GridReq := { sampleReq 3 with name := n }

/-- Its entry. -/
def namedEntry (n : Text) : GEntry := { sampleEntry 3 with name := n }

theorem named_entry {n : Text} (hn : nameOf sampleEnv n = some n) : gEntry sampleEnv 3 3 (namedReq n) = some (namedEntry n) := by
  have hl : levelOf (.num 500) = some 500 := by
    unfold levelOf; norm_num
  unfold gEntry
  rw [if_pos ⟨rfl, by
    intro row h
    simp only [namedReq, sampleReq, List.mem_cons, List.not_mem_nil, or_false] at h
    rcases h with rfl | rfl | rfl <;> rfl⟩]
  have h1 : nameOf sampleEnv (namedReq n).name = some n := hn
  have h2 : coordOf sampleEnv (namedReq n).vcoord = some (txt "pres") := by
    show coordOf sampleEnv (some (txt "pres")) = _
    unfold coordOf sampleEnv; decide
  have h3 : levelOf (namedReq n).level = some 500 := hl
  rw [h1, h2, h3]
  rfl

/-- C16 does not hold for names with blanks at the borders of their four-character parts: after adding grids under the two names `ABC XYZ` and
`ABCXYZ`, the file lists two grids of the name `ABCXYZ`. -/
theorem C16_blanks (proj : Text) (corners angles : List F32) (delta : F32) (hproj : proj ∈ knownProjections) (hcorners : corners.length = 4)
    (hangles : angles.length = 3) (e host : Endian) :
    AllOk sampleEnv (newGrid 3 3 proj corners angles delta (16 : ℕ)) [namedReq (txt "ABC XYZ"), namedReq (txt "ABCXYZ")] ∧
      ∃ bytes f, saveGrid sampleEnv e (runGrid sampleEnv (newGrid 3 3 proj corners angles delta (16 : ℕ))
          [namedReq (txt "ABC XYZ"), namedReq (txt "ABCXYZ")]) = .ok bytes ∧ openGrid host bytes = .ok f ∧
        f.grids.map GridInfo.parm = [txt "ABCXYZ", txt "ABCXYZ"] := by
  have n1 : gEntry sampleEnv 3 3 (namedReq (txt "ABC XYZ")) = some (namedEntry (txt "ABC XYZ")) :=
    named_entry (by unfold nameOf sampleEnv; decide)
  have n2 : gEntry sampleEnv 3 3 (namedReq (txt "ABCXYZ")) = some (namedEntry (txt "ABCXYZ")) :=
    named_entry (by unfold nameOf sampleEnv; decide)
  have hacc : gAccepted sampleEnv 3 3 [namedReq (txt "ABC XYZ"), namedReq (txt "ABCXYZ")] =
      [namedEntry (txt "ABC XYZ"), namedEntry (txt "ABCXYZ")] := by
    unfold gAccepted
    rw [List.filterMap_cons_some n1, List.filterMap_cons_some n2, List.filterMap_nil]
  have hdiff : ¬ (namedEntry (txt "ABC XYZ")).SameKey (namedEntry (txt "ABCXYZ")) := by
    rintro ⟨_, _, _, _, _, h⟩
    exact absurd h (by decide)
  have hfin : gfinal [namedEntry (txt "ABC XYZ"), namedEntry (txt "ABCXYZ")] = [namedEntry (txt "ABC XYZ"), namedEntry (txt "ABCXYZ")] := by
    unfold gfinal
    rw [if_neg (by rintro ⟨x, hx, hk⟩; rw [List.mem_singleton.1 hx] at hk; exact hdiff hk)]
    unfold gfinal
    rw [if_neg (by rintro ⟨x, hx, _⟩; cases hx)]
    rfl
  have hall : AllOk sampleEnv (newGrid 3 3 proj corners angles delta (16 : ℕ)) [namedReq (txt "ABC XYZ"), namedReq (txt "ABCXYZ")] := by
    intro pre r post h
    rcases pre with _ | ⟨a, _ | ⟨b, pre⟩⟩
    · obtain ⟨rfl, _⟩ := List.cons.inj h
      rw [C19_grid]
      refine ⟨by rw [n1]; rfl, ?_, ?_⟩
      · rw [List.nil_append, gAccepted, List.filterMap_cons_some n1, List.filterMap_nil]
        unfold gfinal
        rw [if_neg (by rintro ⟨x, hx, _⟩; cases hx)]
        simp [gfinal]
      · rw [List.nil_append, gAccepted, List.filterMap_cons_some n1, List.filterMap_nil]
        intro a ha b hb _
        rw [List.mem_singleton.1 ha, List.mem_singleton.1 hb]
    · obtain ⟨ha, h⟩ := List.cons.inj h
      obtain ⟨hr, _⟩ := List.cons.inj h
      rw [← ha, ← hr, C19_grid]
      refine ⟨by rw [n2]; rfl, ?_, ?_⟩
      · rw [List.singleton_append, hacc, hfin]; simp
      · rw [List.singleton_append, hacc]
        intro a ha b hb _
        simp only [List.mem_cons, List.not_mem_nil, or_false] at ha hb
        rcases ha with rfl | rfl <;> rcases hb with rfl | rfl <;> exact Iff.rfl
    · have := congrArg List.length h
      simp at this
  refine ⟨hall, ?_⟩
  have base := (sample_conditions 3 3 (by norm_num) (by norm_num) proj corners angles delta).2.1 (sampleEntry 3)
    (by rw [sample_history]; exact List.mem_cons_self)
  have hread : ∀ x ∈ gAccepted sampleEnv 3 3 [namedReq (txt "ABC XYZ"), namedReq (txt "ABCXYZ")], x.Readable := by
    rw [hacc]
    intro x hx
    simp only [List.mem_cons, List.not_mem_nil, or_false] at hx
    rcases hx with rfl | rfl
    · exact ⟨⟨base.1.first.fits, fun w hw => (base.1.second w hw).fits⟩, by decide +kernel⟩
    · exact ⟨⟨base.1.first.fits, fun w hw => (base.1.second w hw).fits⟩, by decide +kernel⟩
  have hwr : ∀ x ∈ gAccepted sampleEnv 3 3 [namedReq (txt "ABC XYZ"), namedReq (txt "ABCXYZ")], x.Writable sampleEnv := by
    rw [hacc]
    intro x hx
    simp only [List.mem_cons, List.not_mem_nil, or_false] at hx
    rcases hx with rfl | rfl <;> exact ⟨base.2.level, base.2.level2, base.2.3, base.2.4⟩
  obtain ⟨bytes, hb⟩ := C16_writes sampleEnv sampleEnv_rounds 3 3 proj corners angles delta 16 hproj hcorners hangles (by omega) (by omega)
    (by norm_num) (by omega) (by omega) (by norm_num) _ hall (fun x hx => (hread x hx).toTimed.stamped) hwr (by rw [hacc, hfin]; norm_num) e
  obtain ⟨f, P, f1, f2, f3, _⟩ := C16_names_partial sampleEnv sampleEnv_rounds 3 3 proj corners angles delta 16 hproj hcorners hangles (by norm_num)
    (by norm_num) (by norm_num) _ hall hread e host bytes hb
  refine ⟨bytes, f, hb, f1, ?_⟩
  rw [hacc, hfin] at f2
  have hlen := f2.length_eq
  have hparm : ∀ x ∈ P, x.seen.name = txt "ABCXYZ" := by
    intro x hx
    have := f2.mem_iff.1 hx
    simp only [List.mem_cons, List.not_mem_nil, or_false] at this
    rcases this with rfl | rfl <;> decide +kernel
  obtain ⟨a, b, rfl⟩ := List.length_eq_two.1 hlen
  clear f1 f2 hb hall hread hwr
  generalize f.grids = gs at f3 ⊢
  rcases f3 with _ | ⟨ha, _ | ⟨hb, _ | _⟩⟩
  rw [List.map_cons, List.map_cons, List.map_nil, ha.parm, hb.parm, hparm a (by simp), hparm b (by simp)]

/-! ## C17 -/

theorem gfinal_cons (a : GEntry) (r : List GEntry) : gfinal (a :: r) = if ∃ x ∈ r, a.SameKey x then gfinal r else a :: gfinal r := rfl

/-- C17 for grid files: what survives are the requests with no later one for the same grid. -/
theorem C17_grid_survivors (es : List GEntry) (x : GEntry) :
    x ∈ gfinal es ↔ ∃ pre post, es = pre ++ x :: post ∧ ∀ y ∈ post, ¬ x.SameKey y := by
  induction es with
  | nil => simp [gfinal]
  | cons a r ih =>
    rw [gfinal_cons]
    have hshift : (∃ pre post, r = pre ++ x :: post ∧ ∀ y ∈ post, ¬ x.SameKey y) →
        ∃ pre post, a :: r = pre ++ x :: post ∧ ∀ y ∈ post, ¬ x.SameKey y := by
      rintro ⟨pre, post, rfl, h⟩
      exact ⟨a :: pre, post, rfl, h⟩
    have hback : (∃ pre post, a :: r = pre ++ x :: post ∧ ∀ y ∈ post, ¬ x.SameKey y) →
        (x = a ∧ ∀ y ∈ r, ¬ a.SameKey y) ∨ ∃ pre post, r = pre ++ x :: post ∧ ∀ y ∈ post, ¬ x.SameKey y := by
      rintro ⟨pre, post, h, hp⟩
      cases pre with
      | nil =>
        obtain ⟨rfl, rfl⟩ := List.cons.inj h
        exact Or.inl ⟨rfl, hp⟩
      | cons b pre =>
        obtain ⟨_, h⟩ := List.cons.inj h
        exact Or.inr ⟨pre, post, h, hp⟩
    split
    · rename_i hex
      rw [ih]
      refine ⟨hshift, fun h => ?_⟩
      rcases hback h with ⟨rfl, h⟩ | h
      · obtain ⟨y, hy, hs⟩ := hex
        exact absurd hs (h y hy)
      · exact h
    · rename_i hex
      rw [List.mem_cons, ih]
      constructor
      · rintro (rfl | h)
        · exact ⟨[], r, rfl, fun y hy hs => hex ⟨y, hy, hs⟩⟩
        · exact hshift h
      · intro h
        rcases hback h with ⟨rfl, _⟩ | h
        · exact Or.inl rfl
        · exact Or.inr h

/-- C17 for grid files: no two survivors concern the same grid; a further request changes the survivors for no other one. -/
theorem C17_grid_other_keys (es : List GEntry) (x : GEntry) :
    (gfinal es).Pairwise (fun a b => ¬ a.SameKey b) ∧ ∀ y, ¬ y.SameKey x → (y ∈ gfinal (es ++ [x]) ↔ y ∈ gfinal es) := by
  constructor
  · induction es with
    | nil => exact List.Pairwise.nil
    | cons a r ih =>
      rw [gfinal_cons]
      split
      · exact ih
      · rename_i h
        refine List.Pairwise.cons ?_ ih
        intro b hb hs
        obtain ⟨pre, post, rfl, _⟩ := (C17_grid_survivors r b).1 hb
        exact h ⟨b, by simp, hs⟩
  · intro y hy
    rw [C17_grid_survivors, C17_grid_survivors]
    constructor
    · rintro ⟨pre, post, h, hp⟩
      rcases List.eq_nil_or_concat post with rfl | ⟨post', z, rfl⟩
      · obtain ⟨_, h2⟩ := List.append_inj' h rfl
        rw [List.singleton_inj] at h2
        subst h2
        exact absurd ⟨rfl, rfl, rfl, rfl, rfl, rfl⟩ hy
      · rw [List.concat_eq_append] at *
        have h' : es ++ [x] = (pre ++ y :: post') ++ [z] := by rw [h]; simp
        obtain ⟨h1, h2⟩ := List.append_inj' h' rfl
        exact ⟨pre, post', h1, fun w hw => hp w (List.mem_append_left _ hw)⟩
    · rintro ⟨pre, post, rfl, hp⟩
      refine ⟨pre, post ++ [x], by simp, ?_⟩
      intro w hw
      rcases List.mem_append.1 hw with hw | hw
      · exact hp w hw
      · rw [List.mem_singleton] at hw
        subst hw
        exact hy

/-- C17 for grid files: a request not followed by another one for the same grid is the one listed and the one read; there are
exactly as many grids as different keys. -/
theorem C17_grid (env : GridEnv) (nx ny bits : Nat) (pre post : List GridReq) (r : GridReq) (x : GEntry) (host : Endian) (bytes : Bytes)
    (h : GridOutput env nx ny bits (pre ++ r :: post) host bytes) (hx : gEntry env nx ny r = some x)
    (hpost : ∀ y ∈ gAccepted env nx ny post, ¬ x.SameKey y) :
    ∃ f, openGrid host bytes = .ok f ∧ f.grids.length = (gfinal (gAccepted env nx ny (pre ++ r :: post))).length ∧
      (∃ g ∈ f.grids, IsGridListed x g) ∧
      ∀ upper lower, ∃ out, gdxarray upper lower {} f = .ok out ∧ out.length = f.grids.length ∧ ∃ o ∈ out, IsGridRead lower bits x o := by
  obtain ⟨f, P, h1, h2, h3, h4⟩ := h.grids
  have hP : x ∈ P := by
    rw [h2.mem_iff, C17_grid_survivors]
    refine ⟨gAccepted env nx ny pre, gAccepted env nx ny post, ?_, hpost⟩
    rw [gAccepted, List.filterMap_append, List.filterMap_cons_some hx]
  obtain ⟨i, hi, rfl⟩ := List.getElem_of_mem hP
  refine ⟨f, h1, by rw [← h3.length_eq, h2.length_eq], ⟨f.grids[i]'(h3.length_eq ▸ hi), List.getElem_mem _, h3.get hi _⟩, ?_⟩
  intro upper lower
  obtain ⟨out, g1, g2⟩ := h4 (by simp) upper lower
  exact ⟨out, g1, by rw [← g2.length_eq, h3.length_eq], out[i]'(g2.length_eq ▸ hi), List.getElem_mem _, g2.get hi _⟩

/-! ## C18 -/

/-- C18 for grid files: the data read have the shape of the data supplied and every not-a-number is read as missing. -/
theorem C18_grid {lower : Text → Text} {bits : Nat} {x : GEntry} {o : GridObj} (h : IsGridRead lower bits x o) :
    List.Forall₂ (List.Forall₂ fun a b => a = none → b = none) x.grid o.data := by
  obtain ⟨R, hR⟩ := exists_spread (x.grid.flatten.map counted)
  obtain ⟨B, hB⟩ := exists_bound (x.grid.flatten.map counted)
  obtain ⟨p0, h0⟩ : ∃ p0, f32Value p0 = some ((0 : ℕ) : ℚ) := f32Value_nat 0 (by decide)
  have := h.data R B (fun a ha b hb => hR _ (List.mem_map_of_mem ha) _ (List.mem_map_of_mem hb)) (by
    intro a ha
    refine ⟨p0, _, h0, ?_⟩
    have := hB _ (List.mem_map_of_mem ha)
    rwa [Nat.cast_zero, zero_sub, abs_neg])
  exact this.imp fun _ _ h => h.imp fun _ _ h h2 => h.missing (Or.inl h2)

/-- C18 for grid files: no other value is lost or changed by more than the precision allows, unless it is that near to the
missing value or the range reaches the number of steps. -/
theorem C18_grid_values {lower : Text → Text} {bits : Nat} {x : GEntry} {o : GridObj} (h : IsGridRead lower bits x o) {R δ : ℚ}
    (hR : Spread x.grid R) (hδ : Near x.grid δ) (hlt : R < 2 ^ bits - 3 / 2) :
    List.Forall₂ (List.Forall₂ fun a b => ∀ v, a = some v → v ≠ -9999 → tolerance bits R δ < |v + 9999| →
      ∃ u, b = some u ∧ |u - v| ≤ tolerance bits R δ)
      x.grid o.data := by
  refine (h.data R δ hR hδ).imp fun _ _ h => h.imp fun a b h => ?_
  rintro v rfl hn hv
  cases b with
  | some u => exact ⟨u, rfl, h.value u rfl⟩
  | none =>
    rcases h.present rfl with (h | h) | h | h
    · cases h
    · exact absurd (Option.some.inj h) hn
    · exact absurd h (not_le.2 hv)
    · exact absurd h (not_le.2 hlt)

/-! ## C25 -/

/-- Instant to the minute. -/
def Spec.minuteOf (x : Date) (c : Clock) : Int := instant (x, ⟨c.h, c.mi, 0, 0⟩)

/-- The valid time a request asks for, to the minute: the time given, plus the lead time behind a letter. -/
def Spec.requested (env : GridEnv) : DateArg → Option Int
  | .dt x c => some (minuteOf x c)
  | .str t =>
    if typed (env.upper t) then
      (whenOf env (env.upper t)).map fun w => minuteOf w.date w.clock + (w.hours * 60 + w.minutes) * 60000000
    else (env.parseTime (env.upper t)).toOption.map fun x => minuteOf x.1 x.2
  | .other => none

theorem storedTime_window {x : Date} (c : Clock) (h1 : 1969 ≤ x.y) (h2 : x.y ≤ 2068) : storedTime x c = (x, ⟨c.h, c.mi, 0, 0⟩) := by
  rw [storedTime_eq, windowYear_same h1 h2]

theorem minuteOf_analysis (x : Date) (c : Clock) :
    instant (x, ⟨0, 0, 0, 0⟩) + (((c.h : Int)) * 60 + c.mi) * 60000000 = minuteOf x c := by
  unfold minuteOf instant
  push_cast
  ring

/-- What a date argument says. -/
def Spec.Says (env : GridEnv) (d : DateArg) (w : When) : Prop :=
  (∃ x c, d = .dt x c ∧ w = analysis x c) ∨ ∃ t, d = .str t ∧ whenOf env (env.upper t) = some w

theorem firstOf_says {env : GridEnv} {d : DateArg} {w : When} (h : firstOf env d = some w) : Says env d w := by
  unfold firstOf at h
  split at h
  · exact Or.inl ⟨_, _, rfl, (Option.some.inj h).symm⟩
  · split at h
    · exact Or.inr ⟨_, rfl, h⟩
    · cases h
  · cases h

theorem secondOf_says {env : GridEnv} {d d2 : DateArg} {w v : When} (h : secondOf env d w (some d2) = some (some v)) : Says env d2 v := by
  unfold secondOf at h
  split at h
  · rename_i heq; cases heq
  · rename_i heq
    obtain rfl := Option.some.inj heq
    exact Or.inl ⟨_, _, rfl, (Option.some.inj (Option.some.inj h)).symm⟩
  · rename_i heq
    obtain rfl := Option.some.inj heq
    split at h
    · split at h
      · split at h
        · cases h
        · rename_i hw _
          obtain rfl := Option.some.inj (Option.some.inj h)
          exact Or.inr ⟨_, rfl, hw⟩
      · cases h
    · cases h
  · cases h

theorem whenOf_typed {env : GridEnv} {s : Text} {w : When} (h : whenOf env s = some w) (ht : typed s = true) (hA : 'A' ∉ s) :
    w.type ≠ 0 := by
  cases hd : s.dropWhile noLetter with
  | nil =>
    exfalso
    unfold typed at ht
    obtain ⟨c, hc, hc2⟩ := List.any_eq_true.1 ht
    have := List.all_eq_true.1 (dropWhile_nil_iff.1 hd) c hc
    unfold noLetter at this
    rw [Option.isSome_iff_ne_none] at hc2
    rw [Option.isNone_iff_eq_none] at this
    exact hc2 this
  | cons g lead =>
    have hg : noLetter g = false := (splitTypes_letter hd).2
    obtain ⟨n, hn⟩ : ∃ n, letterNumber g = some n := by
      unfold noLetter at hg
      cases h2 : letterNumber g with
      | none => rw [h2] at hg; cases hg
      | some n => exact ⟨n, rfl⟩
    rw [whenOf_letter env hd hn] at h
    split at h
    · unfold whenPieces at h
      split at h
      · obtain rfl := Option.some.inj h
        dsimp only
        have hgs : g ∈ s := by
          have := List.takeWhile_append_dropWhile (p := noLetter) (l := s)
          rw [← this, hd]; simp
        have hne : g ≠ 'A' := fun h => hA (h ▸ hgs)
        intro h0
        subst h0
        unfold letterNumber letters at hn
        simp only [List.find?_cons, List.find?_nil] at hn
        rw [decide_eq_false (Ne.symm hne)] at hn
        simp only at hn
        split at hn
        · cases hn
        · split at hn
          · cases hn
          · split at hn
            · cases hn
            · split at hn
              · cases hn
              · cases hn
      · cases h
    · cases h

theorem whenOf_untyped {env : GridEnv} {s : Text} {w : When} (h : whenOf env s = some w) (ht : typed s = false) :
    ∃ x, env.parseTime s = .ok x ∧ w = analysis x.1 x.2 := by
  have hd : s.dropWhile noLetter = [] := by
    rw [dropWhile_nil_iff, List.all_eq_true]
    intro c hc
    unfold typed at ht
    have := List.any_eq_false.1 ht c hc
    unfold noLetter
    simpa using this
  rw [whenOf_plain env hd] at h
  cases hp : env.parseTime s with
  | error e => rw [hp] at h; cases h
  | ok x => rw [hp] at h; exact ⟨x, rfl, (Option.some.inj h).symm⟩

theorem analysis_instant {x : Date} {c : Clock} {t : Date × Clock} (h : IsValidTime (analysis x c) t) (h1 : 1969 ≤ x.y) (h2 : x.y ≤ 2068) :
    instant t = minuteOf x c := by
  rw [h.instant]
  show instant ((storedTime x c).1, if (0 : Nat) = 0 then ⟨0, 0, 0, 0⟩ else _) + _ = _
  rw [if_pos rfl, storedTime_window c h1 h2]
  exact minuteOf_analysis x c

theorem says_instant {env : GridEnv} {d : DateArg} {w : When} {t : Date × Clock} (hs : Says env d w) (h : IsValidTime w t)
    (h1 : 1969 ≤ w.date.y) (h2 : w.date.y ≤ 2068) (hA : ∀ s, d = .str s → 'A' ∉ env.upper s) : requested env d = some (instant t) := by
  rcases hs with ⟨x, c, rfl, rfl⟩ | ⟨s, rfl, hw⟩
  · rw [analysis_instant h h1 h2]; rfl
  · unfold requested
    dsimp only
    cases ht : typed (env.upper s) with
    | true =>
      rw [if_pos rfl, hw]
      have h0 := whenOf_typed hw ht (hA s rfl)
      rw [h.instant, if_neg h0, storedTime_window _ h1 h2]
      rfl
    | false =>
      obtain ⟨x, hx, rfl⟩ := whenOf_untyped hw ht
      rw [if_neg (by simp), hx, analysis_instant h h1 h2]
      rfl

theorem gEntry_inv {env : GridEnv} {nx ny : Nat} {r : GridReq} {x : GEntry} (h : gEntry env nx ny r = some x) :
    nameOf env r.name = some x.name ∧ coordOf env r.vcoord = some x.coord ∧ levelOf r.level = some x.level ∧
      level2Of r.level2 = some x.level2 ∧ firstOf env r.dateTime = some x.first ∧
      secondOf env r.dateTime x.first r.dateTime2 = some x.second ∧ x.grid = r.grid := by
  unfold gEntry at h
  split at h
  · obtain ⟨n, h1, h⟩ := bind_some h
    obtain ⟨c, h2, h⟩ := bind_some h
    obtain ⟨l, h3, h⟩ := bind_some h
    obtain ⟨l2, h4, h⟩ := bind_some h
    obtain ⟨t, h5, h⟩ := bind_some h
    obtain ⟨t2, h6, h⟩ := bind_some h
    obtain rfl := Option.some.inj h
    exact ⟨h1, h2, h3, h4, h5, h6, rfl⟩
  · cases h

/-- C25: the valid times listed for a grid are the ones asked for when adding it: the time given, or the initial time plus the
lead time behind a letter, for first and second time.  Partial: not for an explicit letter `A`, and for years 1969–2068 only
(two digits of the year are stored). -/
theorem C25_valid_time_partial (env : GridEnv) (nx ny : Nat) (r : GridReq) (x : GEntry) (g : GridInfo)
    (hx : gEntry env nx ny r = some x) (hg : IsGridListed x g) :
    ((∀ s, r.dateTime = .str s → 'A' ∉ env.upper s) → 1969 ≤ x.first.date.y → x.first.date.y ≤ 2068 →
      requested env r.dateTime = some (instant g.time1)) ∧
    (r.dateTime2 = none → g.time2 = none) ∧
    ∀ d2 t2, r.dateTime2 = some d2 → g.time2 = some t2 → (∀ s, d2 = .str s → 'A' ∉ env.upper s) →
      (∀ w, x.second = some w → 1969 ≤ w.date.y ∧ w.date.y ≤ 2068) → requested env d2 = some (instant t2) := by
  obtain ⟨_, _, _, _, h5, h6, _⟩ := gEntry_inv hx
  refine ⟨fun hA h1 h2 => says_instant (firstOf_says h5) hg.time1 h1 h2 hA, ?_, ?_⟩
  · intro h
    rw [h] at h6
    have h7 : x.second = none := (Option.some.inj h6).symm
    rcases hg.time2 with ⟨_, h⟩ | ⟨w, t, h, _⟩
    · exact h
    · rw [h7] at h; cases h
  · intro d2 t2 hd ht hA hy
    rcases hg.time2 with ⟨_, h⟩ | ⟨w, t, hw, ht', hv⟩
    · rw [ht] at h; cases h
    · rw [ht] at ht'
      obtain rfl := Option.some.inj ht'
      rw [hd, hw] at h6
      exact says_instant (secondOf_says h6) hv (hy w hw).1 (hy w hw).2 hA

/-- A host that reads every text as noon of the first of January 2020 and every number as zero. -/
noncomputable def noonEnv : GridEnv := { sampleEnv with parseTime := fun _ => .ok (⟨2020, 1, 1⟩, ⟨12, 0, 0, 0⟩), parseInt := fun _ => .ok 0 }

/-- A request with an explicit letter for the analysis. -/
def letterReq : GridReq := { sampleReq 1 with dateTime := .str (txt "202001011200A000") }

/-- C25 does not hold for an explicit letter `A`: such a grid is listed twelve hours early (the time of day is lost). -/
theorem C25_counterexample : ∃ x, gEntry noonEnv 3 3 letterReq = some x ∧ x.Legible ∧ ∀ g, IsGridListed x g →
    requested noonEnv letterReq.dateTime = some (instant g.time1 + 12 * 60 * 60000000) := by
  have hf : firstOf noonEnv letterReq.dateTime = some ⟨0, ⟨2020, 1, 1⟩, ⟨12, 0, 0, 0⟩, 0, 0⟩ := by
    have hlen : 12 ≤ (txt "202001011200A000").length := by decide
    show (if 12 ≤ (txt "202001011200A000").length then whenOf noonEnv (txt "202001011200A000") else none) = _
    rw [if_pos hlen]
    have hd : (txt "202001011200A000").dropWhile noLetter = 'A' :: txt "000" := by decide
    rw [whenOf_letter noonEnv hd (n := 0) (by decide), if_pos (by decide)]
    rfl
  have hreq : requested noonEnv letterReq.dateTime = some (minuteOf ⟨2020, 1, 1⟩ ⟨12, 0, 0, 0⟩) := by
    have hlen : 12 ≤ (txt "202001011200A000").length := by decide
    have hd : (txt "202001011200A000").dropWhile noLetter = 'A' :: txt "000" := by decide
    have ht : typed (txt "202001011200A000") = true := by decide
    unfold requested letterReq
    dsimp only
    rw [show noonEnv.upper (txt "202001011200A000") = txt "202001011200A000" from rfl, if_pos ht, whenOf_letter noonEnv hd (n := 0) (by decide), if_pos (by decide)]
    rfl
  refine ⟨⟨⟨0, ⟨2020, 1, 1⟩, ⟨12, 0, 0, 0⟩, 0, 0⟩, none, 500, -1, txt "pres", txt "TMPK", (sampleReq 1).grid⟩, ?_, ?_, ?_⟩
  · have h := sample_entry 1
    have hinv := gEntry_inv h
    unfold gEntry
    rw [if_pos ⟨rfl, by
      intro row h
      simp only [letterReq, sampleReq, List.mem_cons, List.not_mem_nil, or_false] at h
      rcases h with rfl | rfl | rfl <;> rfl⟩]
    have h1 : nameOf noonEnv letterReq.name = some (txt "TMPK") := hinv.1
    have h2 : coordOf noonEnv letterReq.vcoord = some (txt "pres") := hinv.2.1
    have h3 : levelOf letterReq.level = some 500 := hinv.2.2.1
    rw [h1, h2, h3, hf]
    rfl
  · refine ⟨⟨by decide, by decide, by decide, by decide⟩, ?_, ?_⟩
    · intro w h; cases h
    · refine ⟨⟨?_, by decide⟩, ⟨?_, by decide⟩, ⟨?_, by decide⟩⟩ <;> decide
  · intro g hg
    rw [hreq, hg.time1.instant]
    decide +kernel

/-! ## C26, C27 -/

/-- C26: levels and vertical coordinates are listed as written: a whole number of at least zero, a second one or none, and
every coordinate name the reader knows, given in any case the host maps to it. -/
theorem C26_levels (env : GridEnv) (nx ny : Nat) (r : GridReq) (x : GEntry) (g : GridInfo)
    (hx : gEntry env nx ny r = some x) (hg : IsGridListed x g) :
    (∀ n : ℕ, r.level = .num n → g.level1 = some (n : Int)) ∧ (∀ n : ℕ, r.level2 = some (.num n) → g.level2 = some (n : Int)) ∧
      (r.level2 = none → g.level2 = none) ∧
      ∀ c, r.vcoord = some c → (env.lower (env.upper c), env.upper c) ∈ coordinates → g.coord = env.upper c := by
  obtain ⟨_, h2, h3, h4, _⟩ := gEntry_inv hx
  have hlev : ∀ n : ℕ, levelOf (.num n) = some (n : Int) := by
    intro n
    unfold levelOf
    dsimp only
    rw [if_pos (Nat.cast_nonneg n)]
    simp
  refine ⟨?_, ?_, ?_, ?_⟩
  · intro n h
    rw [h, hlev] at h3
    rw [hg.level1, ← Option.some.inj h3]
    unfold listedLevel
    rw [if_pos (Int.natCast_nonneg n)]
  · intro n h
    rw [h] at h4
    have h5 : level2Of (some (.num n)) = levelOf (.num n) := rfl
    rw [h5, hlev] at h4
    rw [hg.level2, ← Option.some.inj h4]
    unfold listedLevel
    rw [if_pos (Int.natCast_nonneg n)]
  · intro h
    rw [h] at h4
    have := Option.some.inj h4
    rw [hg.level2, ← this]; rfl
  · intro c h hc
    rw [h] at h2
    unfold coordOf at h2
    dsimp only [Option.map_some, Option.getD_some] at h2
    split at h2
    · have h5 := Option.some.inj h2
      have h6 := hg.coord
      rw [← h5] at h6
      have huniq : ∀ a ∈ coordinates, ∀ b ∈ coordinates, a.1 = b.1 → a.2 = b.2 := by decide +kernel
      exact huniq _ h6 _ hc rfl
    · cases h2

/-- All nine coordinate names are covered. -/
example : (coordinates.map Prod.snd).length = 9 ∧ ∀ p ∈ coordinates, asciiUpper p.1 = p.2 := by decide +kernel

/-- C26: no level is listed where a negative one was written, and the numbers themselves are lost. -/
theorem C26_negative (env : GridEnv) (nx ny : Nat) (r : GridReq) (x : GEntry) (g : GridInfo)
    (hx : gEntry env nx ny r = some x) (hg : IsGridListed x g) (q : ℚ) (hq : q ≤ -1) (hl : r.level = .num q) : g.level1 = none := by
  obtain ⟨_, _, h3, _⟩ := gEntry_inv hx
  rw [hl] at h3
  unfold levelOf at h3
  dsimp only at h3
  rw [if_neg (by linarith)] at h3
  have hc : ⌈q⌉ ≤ -1 := Int.ceil_le.2 (by push_cast; exact hq)
  rw [hg.level1, ← Option.some.inj h3]
  unfold listedLevel
  rw [if_neg (by omega)]

theorem trimEnd_legible {t : Text} (h : NameLegible t) (hl : t.length ≤ 12) : trimEnd t = t := by
  have hlast : ∀ c, t.getLast? = some c → isSpace c = false := by
    intro c hc
    by_cases h8 : 8 < t.length
    · refine h.2.2.1.2 c ?_
      rw [List.getLast?_drop, if_neg (by omega)]; exact hc
    · by_cases h4 : 4 < t.length
      · refine h.2.1.1.2 c ?_
        rw [List.take_of_length_le (by rw [List.length_drop]; omega), List.getLast?_drop, if_neg (by omega)]; exact hc
      · refine h.1.1.2 c ?_
        rw [List.take_of_length_le (by omega)]; exact hc
  unfold trimEnd
  rw [dropWhile_head_false, List.reverse_reverse]
  intro c hc
  rw [List.head?_reverse] at hc
  have := hlast c hc
  rw [decide_eq_false_iff_not]
  rintro rfl
  exact absurd this (by decide)

/-- C27: a name of at most twelve characters, of which every four-character part has no blanks at its ends, is listed unchanged,
in upper case. -/
theorem C27_names (env : GridEnv) (nx ny : Nat) (r : GridReq) (x : GEntry) (g : GridInfo)
    (hx : gEntry env nx ny r = some x) (hg : IsGridListed x g) (hn : NameLegible (env.upper r.name)) : g.parm = env.upper r.name := by
  obtain ⟨h1, _⟩ := gEntry_inv hx
  unfold nameOf at h1
  split at h1
  · rename_i h
    rw [hg.parm, ← Option.some.inj h1, trimEnd_legible hn h.2]
  · cases h1

/-- A concrete case of `C25_valid_time_partial`, `C26_levels` and `C27_names`. -/
example : ∃ x g, gEntry sampleEnv 3 3 (sampleReq 1) = some x ∧ IsGridListed x g ∧ g.time1 = (⟨2020, 2, 29⟩, ⟨12, 30, 0, 0⟩) := by
  refine ⟨sampleEntry 1, ⟨0, 0, (⟨2020, 2, 29⟩, ⟨12, 30, 0, 0⟩), none, txt "TMPK", some 500, none, txt "PRES"⟩, sample_entry 1, ?_, rfl⟩
  refine ⟨rfl, ⟨?_, ?_⟩, Or.inl ⟨rfl, rfl⟩, rfl, rfl, rfl, ?_⟩
  · have : ∀ w : When, w = ⟨0, ⟨2020, 2, 29⟩, ⟨12, 30, 0, 0⟩, 12, 30⟩ →
        instant (⟨2020, 2, 29⟩, ⟨12, 30, 0, 0⟩) = instant ((storedTime w.date w.clock).1, if w.type = 0 then ⟨0, 0, 0, 0⟩ else (storedTime w.date w.clock).2) +
          (w.hours * 60 + w.minutes) * 60000000 := by
      rintro w rfl; decide +kernel
    exact this _ rfl
  · decide
  · show (txt "pres", txt "PRES") ∈ coordinates
    decide +kernel

/-! ## C69 -/

/-- C69 for grid files: a request that is not acceptable raises and leaves the object unchanged, and so everything written or
added later.  Partial: requests beyond the limit and clashing ones are not covered, see `C69_grid_stuck`. -/
theorem C69_grid_refused_partial (env : GridEnv) (b : GridBuilder) (r : GridReq) (h : gEntry env b.nx b.ny r = none) :
    (∃ e, (addGrid env b r).2 = .error e) ∧ (addGrid env b r).1 = b := addGrid_none h

theorem gfinal_mono {nx ny : Nat} {es es' : List GEntry} (h : ∀ e ∈ es, e.Sound nx ny) (h' : ∀ e ∈ es', e.Sound nx ny)
    (hs : ∀ e ∈ es, e ∈ es') : (gfinal es).length ≤ (gfinal es').length := by
  rw [gfinal_eq h, gfinal_eq h']
  have h1 := finalBy_nodup GEntry.col es
  have h2 : (finalBy GEntry.col es).map GEntry.col ⊆ (finalBy GEntry.col es').map GEntry.col := by
    intro k hk
    obtain ⟨e, he, rfl⟩ := List.mem_map.1 hk
    obtain ⟨x, hx, hx2⟩ := finalBy_covers (key := GEntry.col) (hs e (finalBy_sub he))
    rw [hx2]
    exact List.mem_map_of_mem hx
  have := (List.Nodup.subperm h1 h2).length_le
  rwa [List.length_map, List.length_map] at this

/-- C69: once an acceptable request has failed (too many headers, or a second time where another grid of the same first time
has none) every later addition to that file fails too. -/
theorem C69_grid_stuck (env : GridEnv) (nx ny : Nat) (proj : Text) (corners angles : List F32) (delta : F32) (precision : Int)
    (rs ss : List GridReq) (r s : GridReq) (hr : (gEntry env nx ny r).isSome)
    (hfail : (addGrid env (runGrid env (newGrid nx ny proj corners angles delta precision) rs) r).2 ≠ .ok ()) :
    (addGrid env (runGrid env (newGrid nx ny proj corners angles delta precision) (rs ++ r :: ss)) s).2 ≠ .ok () := by
  intro h
  apply hfail
  rw [C19_grid] at h ⊢
  have hsub : ∀ e ∈ gAccepted env nx ny (rs ++ [r]), e ∈ gAccepted env nx ny (rs ++ r :: ss ++ [s]) := by
    intro x hx
    obtain ⟨q, hq, hq2⟩ := List.mem_filterMap.1 hx
    refine List.mem_filterMap.2 ⟨q, ?_, hq2⟩
    simp only [List.mem_append, List.mem_cons, List.not_mem_nil, or_false] at hq ⊢
    tauto
  refine ⟨hr, ?_, ?_⟩
  · have h1 := gfinal_mono (nx := nx) (ny := ny) entries_sound entries_sound hsub
    exact (Nat.add_le_add_left h1 1).trans h.2.1
  · intro a ha b hb hab
    exact h.2.2 a (hsub a ha) b (hsub b hb) hab

/-- The same with a second time. -/
def sampleReq2 : GridReq := { sampleReq 1 with dateTime2 := some (.dt ⟨2020, 3, 1⟩ ⟨0, 0, 0, 0⟩) }

/-- C69 does not hold for clashing requests: the second addition raises, and afterwards the first one, which had succeeded,
raises when repeated. -/
theorem C69_grid_counterexample :
    (addGrid sampleEnv (runGrid sampleEnv (newGrid 3 3 (txt "CED") [0, 0, 0, 0] [0, 0, 0] 0 16) [sampleReq 1]) (sampleReq 1)).2 = .ok () ∧
    (addGrid sampleEnv (runGrid sampleEnv (newGrid 3 3 (txt "CED") [0, 0, 0, 0] [0, 0, 0] 0 16) [sampleReq 1]) sampleReq2).2 ≠ .ok () ∧
    (addGrid sampleEnv (runGrid sampleEnv (newGrid 3 3 (txt "CED") [0, 0, 0, 0] [0, 0, 0] 0 16) [sampleReq 1, sampleReq2]) (sampleReq 1)).2 ≠ .ok () := by
  have h2 : gEntry sampleEnv 3 3 sampleReq2 =
      some { sampleEntry 1 with second := some (analysis ⟨2020, 3, 1⟩ ⟨0, 0, 0, 0⟩) } := by
    obtain ⟨g1, g2, g3, g4, g5, _, _⟩ := gEntry_inv (sample_entry 1)
    unfold gEntry
    rw [if_pos ⟨rfl, by
      intro row h
      simp only [sampleReq2, sampleReq, List.mem_cons, List.not_mem_nil, or_false] at h
      rcases h with rfl | rfl | rfl <;> rfl⟩]
    have g1 : nameOf sampleEnv sampleReq2.name = _ := g1
    have g2 : coordOf sampleEnv sampleReq2.vcoord = _ := g2
    have g3 : levelOf sampleReq2.level = _ := g3
    rw [g1, g2, g3]
    rfl
  have hfail : (addGrid sampleEnv (runGrid sampleEnv (newGrid 3 3 (txt "CED") [0, 0, 0, 0] [0, 0, 0] 0 16) [sampleReq 1]) sampleReq2).2 ≠
      .ok () := by
    intro h
    have h := ((C19_grid sampleEnv 3 3 (txt "CED") [0, 0, 0, 0] [0, 0, 0] 0 16 [sampleReq 1] sampleReq2).1 h).2.2
    rw [List.singleton_append, gAccepted, List.filterMap_cons_some (sample_entry 1), List.filterMap_cons_some h2, List.filterMap_nil] at h
    have := h _ List.mem_cons_self _ (List.mem_cons_of_mem _ List.mem_cons_self) rfl
    exact absurd (this.1 rfl) (by simp)
  refine ⟨?_, hfail, C69_grid_stuck sampleEnv 3 3 (txt "CED") [0, 0, 0, 0] [0, 0, 0] 0 16 [sampleReq 1] [] sampleReq2 (sampleReq 1)
    (by rw [h2]; rfl) hfail⟩
  rw [C19_grid]
  refine ⟨by rw [sample_entry]; rfl, ?_, ?_⟩
  · rw [List.singleton_append, sample_history, gfinal_cons, if_pos ⟨_, List.mem_singleton_self _, rfl, rfl, rfl, rfl, rfl, rfl⟩, gfinal_cons,
      if_neg (by rintro ⟨x, hx, _⟩; cases hx)]
    simp [gfinal]
  · rw [List.singleton_append, sample_history]
    intro a ha b hb _
    simp only [List.mem_cons, List.not_mem_nil, or_false] at ha hb
    rcases ha with rfl | rfl <;> rcases hb with rfl | rfl <;> exact Iff.rfl

end Gempak
