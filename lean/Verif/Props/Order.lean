import Verif.Props.GridFile
import Verif.Props.Surface
import Verif.Props.Sounding

/-!
# C121: order

In whatever order things are added, a saved file gives them in order.
-/

namespace Gempak
open Spec

variable {ρ κ : Type} [DecidableEq κ]

/-- C121: reports come in order of times; at one time by the first four letters of the identifier, then by number. -/
theorem C121_reports (env : NumEnv ρ κ) (upper lower : Text → Text) (names : List Text) (rs : List (AddReq κ ρ)) (out : List SfObj)
    (h : SurfaceOutput env upper lower names rs out) :
    ∃ es : List (Entry κ (List ρ)), es.Perm (final (rs.filterMap (sfEntry env names))) ∧ List.Forall₂ (IsReport env lower names) es out ∧
      es.Pairwise Entry.NotAfter ∧ (Ordered env.leK → es.Pairwise Entry.Before) := by
  obtain ⟨ps, b0, e, host, bytes, g, special, hnew, rfl, hs, ho, hj⟩ := h.saved
  have hist := run_station (History.new hnew) rs
  rw [List.nil_append] at hist
  obtain ⟨g', out', es, h1, h2, h3, h4, h5⟩ := surface_ordered env upper lower ps b0 rs e host bytes special hnew
    (by rw [hist.headers_eq]; exact h.small) h.clear h.legible h.some hs
  rw [ho] at h1
  have := Except.ok.inj h1
  subst this
  rw [hj] at h2
  have := Except.ok.inj h2
  subst this
  exact ⟨es, h3, h4, h5⟩

/-- C121: so do soundings. -/
theorem C121_soundings (env : NumEnv ρ κ) (upper lower : Text → Text) (names : List Text) (rs : List (AddReq κ (List ρ))) (out : List SnObj)
    (h : SoundingOutput env upper lower names rs out) :
    ∃ es : List (Entry κ (List (List ρ))), es.Perm (final (rs.filterMap (snEntry env names))) ∧
      List.Forall₂ (IsSounding env lower names) es out ∧ es.Pairwise Entry.NotAfter ∧ (Ordered env.leK → es.Pairwise Entry.Before) := by
  obtain ⟨ps, b0, e, host, bytes, g, hnew, rfl, hs, ho, hj⟩ := h.saved
  obtain ⟨g', out', es, h1, h2, h3, h4, h5⟩ := sounding_ordered env upper lower ps b0 rs e host bytes hnew h.small h.clear h.legible
    h.levels h.some hs
  rw [ho] at h1
  have := Except.ok.inj h1
  subst this
  rw [hj] at h2
  have := Except.ok.inj h2
  subst this
  exact ⟨es, h3, h4, h5⟩

/-- What is stored of two times is in their order, if the years are kept. -/
theorem stored_order {x y : Date} {c d : Clock} (hx : 1969 ≤ x.y ∧ x.y ≤ 2068) (hy : 1969 ≤ y.y ∧ y.y ≤ 2068)
    (h : ¬ momentKey (y, d) < momentKey (x, c)) : ¬ momentKey (storedTime y d) < momentKey (storedTime x c) := by
  have e1 : ∀ n, 1969 ≤ n ∧ n ≤ 2068 → (if n % 100 ≤ 68 then 2000 + n % 100 else 1900 + n % 100) = n := by
    intro n hn
    split <;> omega
  unfold storedTime
  rw [e1 _ hx, e1 _ hy]
  intro hlt
  refine h ?_
  clear h
  unfold momentKey at *
  simp only [List.cons_lt_cons_iff, List.not_lt_nil, Nat.lt_irrefl, and_false, or_false] at *
  omega

/-- C121: the times of the reports never fall, for years that are kept (1969 to 2068). -/
theorem C121_times_partial (env : NumEnv ρ κ) (upper lower : Text → Text) (names : List Text) (rs : List (AddReq κ ρ)) (out : List SfObj)
    (h : SurfaceOutput env upper lower names rs out) (hy : ∀ x ∈ rs.filterMap (sfEntry env names), 1969 ≤ x.date.y ∧ x.date.y ≤ 2068) :
    out.Pairwise fun a b => ¬ momentKey b.dateTime < momentKey a.dateTime := by
  obtain ⟨es, h1, h2, h3, _⟩ := C121_reports env upper lower names rs out h
  have hm : ∀ x ∈ es, 1969 ≤ x.date.y ∧ x.date.y ≤ 2068 := fun x hx => hy x (final_sub (h1.mem_iff.1 hx))
  clear h h1
  rw [List.pairwise_iff_getElem] at h3 ⊢
  intro i j hi hj hij
  have li : i < es.length := h2.length_eq ▸ hi
  have lj : j < es.length := h2.length_eq ▸ hj
  have d1 : out[i].dateTime = _ := (h2.get li hi).dateTime
  have d2 : out[j].dateTime = _ := (h2.get lj hj).dateTime
  rw [d1, d2]
  exact stored_order (hm _ (List.get_mem es ⟨i, li⟩)) (hm _ (List.get_mem es ⟨j, lj⟩)) (h3 i j li lj hij)

/-- C121: nor do those of the soundings. -/
theorem C121_sounding_times_partial (env : NumEnv ρ κ) (upper lower : Text → Text) (names : List Text) (rs : List (AddReq κ (List ρ)))
    (out : List SnObj) (h : SoundingOutput env upper lower names rs out)
    (hy : ∀ x ∈ rs.filterMap (snEntry env names), 1969 ≤ x.date.y ∧ x.date.y ≤ 2068) :
    out.Pairwise fun a b => ¬ momentKey b.dateTime < momentKey a.dateTime := by
  obtain ⟨es, h1, h2, h3, _⟩ := C121_soundings env upper lower names rs out h
  have hm : ∀ x ∈ es, 1969 ≤ x.date.y ∧ x.date.y ≤ 2068 := fun x hx => hy x (final_sub (h1.mem_iff.1 hx))
  clear h h1
  rw [List.pairwise_iff_getElem] at h3 ⊢
  intro i j hi hj hij
  have li : i < es.length := h2.length_eq ▸ hi
  have lj : j < es.length := h2.length_eq ▸ hj
  have d1 : out[i].dateTime = _ := (h2.get li hi).dateTime
  have d2 : out[j].dateTime = _ := (h2.get lj hj).dateTime
  rw [d1, d2]
  exact stored_order (hm _ (List.get_mem es ⟨i, li⟩)) (hm _ (List.get_mem es ⟨j, lj⟩)) (h3 i j li lj hij)

/-- C121: grids come in order of type, initial time and lead, of the second time, of levels, coordinate and name (`Spec.GEntry.rank`). -/
theorem C121_grids (env : GridEnv) (hr : env.Rounds) (nx ny : Nat) (proj : Text) (corners angles : List F32) (delta : F32)
    (bits : Nat) (hproj : proj ∈ knownProjections) (hcorners : corners.length = 4) (hangles : angles.length = 3)
    (hx : nx < 2 ^ 24) (hy : ny < 2 ^ 24) (hbits : 32 < bits * nx * ny) (rs : List GridReq)
    (hok : AllOk env (newGrid nx ny proj corners angles delta bits) rs) (hl : ∀ e ∈ gAccepted env nx ny rs, e.Readable)
    (e host : Endian) (bytes : Bytes)
    (hsave : saveGrid env e (runGrid env (newGrid nx ny proj corners angles delta bits) rs) = .ok bytes) :
    ∃ (f : GridFileR) (P : List GEntry), openGrid host bytes = .ok f ∧ P.Perm (gfinal (gAccepted env nx ny rs)) ∧
      List.Forall₂ (fun x g => IsGridListed x.seen g) P f.grids ∧ P.Pairwise (fun a b => ¬ b.rank < a.rank) := by
  obtain ⟨f, P, f1, f2, f3, _, f5⟩ := grids_ordered env hr nx ny proj corners angles delta bits hproj hcorners hangles hx hy hbits rs hok hl e host
    bytes hsave
  exact ⟨f, P, f1, f2, f3, f5⟩

/-! ## Instances -/

theorem intEnv_ordered : Ordered intEnv.leK := by
  refine ⟨fun a b => ?_, fun a b c h1 h2 => ?_⟩
  · show decide (a ≤ b) = true ∨ decide (b ≤ a) = true
    rw [decide_eq_true_iff, decide_eq_true_iff]
    omega
  · have h1 : decide (a ≤ b) = true := h1
    have h2 : decide (b ≤ c) = true := h2
    show decide (a ≤ c) = true
    rw [decide_eq_true_iff] at *
    omega

/-- A report of 2020 and one of 1950. -/
def datedReports : List (AddReq Int F32) :=
  [⟨[(txt "TMPF", 1)], some 40, some (-105), .dt ⟨2020, 3, 1⟩ ⟨12, 0, 0, 0⟩, none⟩, ⟨[(txt "TMPF", 2)], some 40, some (-105), .dt ⟨1950, 3, 1⟩ ⟨6, 30, 0, 0⟩, none⟩]

theorem datedEntries : datedReports.filterMap (sfEntry intEnv [txt "TMPF"]) =
    [⟨⟨2020, 3, 1⟩, ⟨12, 0, 0, 0⟩, [], -9999, 40, -105, -9999, [], [], 0, [1]⟩, ⟨⟨1950, 3, 1⟩, ⟨6, 30, 0, 0⟩, [], -9999, 40, -105, -9999, [], [], 0, [2]⟩] := by
  decide +kernel

theorem dated_output : ∃ out, SurfaceOutput intEnv id id [txt "TMPF"] datedReports out := by
  have hnew : newBuilder intEnv [txt "TMPF"] = .ok (⟨[txt "TMPF"], ⟨[]⟩, ⟨[]⟩, [], 0, 0, [], []⟩ : Builder Int (List F32)) := rfl
  have hn : SurfaceNames id [txt "TMPF"] := by
    constructor <;> decide +kernel
  have hleg : ∀ x ∈ datedReports.filterMap (sfEntry intEnv [txt "TMPF"]), x.Legible := by
    rw [datedEntries]
    intro x hx
    simp only [List.mem_cons, List.not_mem_nil, or_false] at hx
    rcases hx with rfl | rfl <;> constructor <;> decide +kernel
  have hw : ∀ x ∈ datedReports.filterMap (sfEntry intEnv [txt "TMPF"]), x.Writable intEnv := by
    rw [datedEntries]
    intro x hx
    simp only [List.mem_cons, List.not_mem_nil, or_false] at hx
    rcases hx with rfl | rfl <;>
      exact ⟨by decide, by decide, by decide, ⟨_, rfl, by decide⟩, _, rfl, by decide⟩
  have hcap : headers (datedReports.filterMap (sfEntry intEnv [txt "TMPF"])) ≤ 32000 := by
    rw [datedEntries]; decide +kernel
  have hne : datedReports.filterMap (sfEntry intEnv [txt "TMPF"]) ≠ [] := by rw [datedEntries]; simp
  have hist := run_station (History.new hnew) datedReports
  rw [List.nil_append] at hist
  obtain ⟨bytes, hs⟩ := C14_saves intEnv [txt "TMPF"] _ datedReports .little hnew hcap (fun x hx => ⟨(hleg x hx).date, (hleg x hx).clock⟩)
    hw (fun _ _ v _ => ⟨v, rfl⟩) (by decide +kernel)
  obtain ⟨g, out, es, h1, h2, h3, h4⟩ := C14_round_trip intEnv id id [txt "TMPF"] _ datedReports .little .little bytes true hnew
    (by rw [hist.headers_eq]; exact hcap) hn hleg hne hs
  exact ⟨out, hn, hleg, hcap, hne, ⟨_, _, _, _, bytes, g, true, hnew, rfl, hs, h1, h2⟩⟩

/-- C121 (deviation): with years outside of 1969 to 2068 the listed times need not be in order: reports of 2020 and 1950 come as those of 2050, then 2020. -/
theorem C121_window : ∃ out, SurfaceOutput intEnv id id [txt "TMPF"] datedReports out ∧
    out.map SfObj.dateTime = [(⟨2050, 3, 1⟩, ⟨6, 30, 0, 0⟩), (⟨2020, 3, 1⟩, ⟨12, 0, 0, 0⟩)] := by
  obtain ⟨out, h⟩ := dated_output
  refine ⟨out, h, ?_⟩
  obtain ⟨es, h1, h2, h3, _⟩ := C121_reports intEnv id id _ _ out h
  rw [datedEntries] at h1
  have hfin : final ([⟨⟨2020, 3, 1⟩, ⟨12, 0, 0, 0⟩, [], -9999, 40, -105, -9999, [], [], 0, [1]⟩,
      ⟨⟨1950, 3, 1⟩, ⟨6, 30, 0, 0⟩, [], -9999, 40, -105, -9999, [], [], 0, [2]⟩] : List (Entry Int (List F32))) =
      [⟨⟨2020, 3, 1⟩, ⟨12, 0, 0, 0⟩, [], -9999, 40, -105, -9999, [], [], 0, [1]⟩,
        ⟨⟨1950, 3, 1⟩, ⟨6, 30, 0, 0⟩, [], -9999, 40, -105, -9999, [], [], 0, [2]⟩] := by decide +kernel
  rw [hfin] at h1
  have hes : es = [⟨⟨1950, 3, 1⟩, ⟨6, 30, 0, 0⟩, [], -9999, 40, -105, -9999, [], [], 0, [2]⟩,
      ⟨⟨2020, 3, 1⟩, ⟨12, 0, 0, 0⟩, [], -9999, 40, -105, -9999, [], [], 0, [1]⟩] := by
    obtain ⟨p, q, rfl⟩ := List.length_eq_two.1 h1.length_eq
    have hpq := List.rel_of_pairwise_cons h3 (List.mem_singleton_self _)
    have hp := h1.mem_iff.1 (List.mem_cons_self (a := p))
    rcases List.mem_pair.1 hp with rfl | rfl
    · have hq := h1.cons_inv
      obtain rfl := List.singleton_inj.1 (List.perm_singleton.1 hq)
      exact absurd (show (_ : List Nat) < _ by decide) hpq
    · have hq := (h1.trans (List.Perm.swap _ _ _)).cons_inv
      rw [List.singleton_inj.1 (List.perm_singleton.1 hq)]
  subst hes
  rcases h2 with _ | ⟨a, _ | ⟨b, _ | _⟩⟩
  rw [List.map_cons, List.map_cons, List.map_nil, a.dateTime, b.dateTime]
  rfl

end Gempak
