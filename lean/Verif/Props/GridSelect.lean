import Verif.Props.GridFile
import Verif.Props.Select

/-!
# Queries for grids (C34)
-/

namespace Gempak
open Spec

namespace Spec

/-- A criterion for the first time asks for a time: one of the given ones, or the earliest or latest listed. -/
def AsksTime1 (all : List GridInfo) : TimeSel → Date × Clock → Prop
  | .these l, t => t ∈ l
  | .first, t => ∀ g ∈ all, instant t ≤ instant g.time1
  | .last, t => ∀ g ∈ all, instant g.time1 ≤ instant t

/-- The same for the second time, which may be absent. -/
def AsksTime2 (all : List GridInfo) : TimeSel2 → Option (Date × Clock) → Prop
  | .these l, t => t ∈ l
  | .first, t => ∃ u, t = some u ∧ ∀ g ∈ all, ∀ v, g.time2 = some v → instant u ≤ instant v
  | .last, t => ∃ u, t = some u ∧ ∀ g ∈ all, ∀ v, g.time2 = some v → instant v ≤ instant u

/-- A criterion for a level asks for it. -/
def AsksLevel (ls : List (Option ℚ)) : Option Int → Prop
  | some l => some (l : ℚ) ∈ ls
  | none => none ∈ ls

/-- The listed grid satisfies every criterion given. -/
structure GWanted (upper : Text → Text) (q : GridQuery) (all : List GridInfo) (g : GridInfo) : Prop where
  parm : ∀ a, q.parameter = some a → Asks upper a g.parm
  time1 : ∀ t, q.dateTime = some t → AsksTime1 all t g.time1
  coord : ∀ a, q.coordinate = some a → Asks upper a g.coord
  level1 : ∀ l, q.level = some l → AsksLevel l g.level1
  time2 : ∀ t, q.dateTime2 = some t → AsksTime2 all t g.time2
  level2 : ∀ l, q.level2 = some l → AsksLevel l g.level2

open scoped Classical in
/-- The listed grids satisfying every criterion, in the order of the list. -/
noncomputable def gselected (upper : Text → Text) (q : GridQuery) (all : List GridInfo) : List GridInfo :=
  all.filter fun g => decide (GWanted upper q all g)

/-- The query asks for the earliest or latest first time. -/
def AsksExtreme1 (q : GridQuery) : Prop := q.dateTime = some .first ∨ q.dateTime = some .last

/-- The query asks for the earliest or latest second time. -/
def AsksExtreme2 (q : GridQuery) : Prop := q.dateTime2 = some .first ∨ q.dateTime2 = some .last

/-- The times listed exist. -/
def GTimesExist (all : List GridInfo) : Prop :=
  ∀ g ∈ all, (g.time1.1.Valid ∧ g.time1.2.Valid) ∧ ∀ t, g.time2 = some t → t.1.Valid ∧ t.2.Valid

end Spec

/-! ## Earliest and latest -/

theorem earliest {l : List (Date × Clock)} (hne : l ≠ []) (hv : ∀ t ∈ l, t.1.Valid ∧ t.2.Valid) :
    ∃ z, extremeTime (fun t m => timeLt t m) l = .ok z ∧ z ∈ l ∧ ∀ t ∈ l, instant z ≤ instant t := by
  obtain ⟨a, r, rfl⟩ := List.exists_cons_of_ne_nil hne
  have h := extreme_spec (better := fun t m => timeLt t m) (r := fun a b => instant a ≤ instant b) (fun t => t.1.Valid ∧ t.2.Valid)
    (by intro a b ha hb; rw [timeLt_iff ha hb]; omega) (by intro a; exact le_refl _) (by intro a b; omega) (by intro a b c; omega)
    r a (hv _ List.mem_cons_self) (fun t ht => hv t (List.mem_cons_of_mem _ ht))
  dsimp only at h
  obtain ⟨h1, h2, h3⟩ := h
  refine ⟨_, rfl, ?_, ?_⟩
  · rcases h1 with h1 | h1
    · exact List.mem_cons.2 (Or.inl h1)
    · exact List.mem_cons.2 (Or.inr h1)
  · intro t ht
    rcases List.mem_cons.1 ht with rfl | ht
    · exact h2
    · exact h3 t ht

theorem latest {l : List (Date × Clock)} (hne : l ≠ []) (hv : ∀ t ∈ l, t.1.Valid ∧ t.2.Valid) :
    ∃ z, extremeTime (fun t m => timeLt m t) l = .ok z ∧ z ∈ l ∧ ∀ t ∈ l, instant t ≤ instant z := by
  obtain ⟨a, r, rfl⟩ := List.exists_cons_of_ne_nil hne
  have h := extreme_spec (better := fun t m => timeLt m t) (r := fun a b => instant b ≤ instant a) (fun t => t.1.Valid ∧ t.2.Valid)
    (by intro a b ha hb; rw [timeLt_iff hb ha]; omega) (by intro a; exact le_refl _) (by intro a b; omega) (by intro a b c; omega)
    r a (hv _ List.mem_cons_self) (fun t ht => hv t (List.mem_cons_of_mem _ ht))
  dsimp only at h
  obtain ⟨h1, h2, h3⟩ := h
  refine ⟨_, rfl, ?_, ?_⟩
  · rcases h1 with h1 | h1
    · exact List.mem_cons.2 (Or.inl h1)
    · exact List.mem_cons.2 (Or.inr h1)
  · intro t ht
    rcases List.mem_cons.1 ht with rfl | ht
    · exact h2
    · exact h3 t ht

theorem gridTimes_spec {all : List GridInfo} (hv : GTimesExist all) (sel : TimeSel) (hne : sel = .first ∨ sel = .last → all ≠ []) :
    ∃ l, gridTimes all sel = .ok l ∧ ∀ g ∈ all, g.time1 ∈ l ↔ AsksTime1 all sel g.time1 := by
  have hv1 : ∀ t ∈ all.map GridInfo.time1, t.1.Valid ∧ t.2.Valid := by
    intro t ht
    obtain ⟨g, hg, rfl⟩ := List.mem_map.1 ht
    exact (hv g hg).1
  cases sel with
  | these l => exact ⟨l, rfl, fun s _ => Iff.rfl⟩
  | first =>
    obtain ⟨z, h1, h2, h3⟩ := earliest (by simpa using hne (Or.inl rfl)) hv1
    refine ⟨[z], by unfold gridTimes; rw [h1]; rfl, fun g hg => ?_⟩
    rw [List.mem_singleton]
    constructor
    · rintro rfl x hx
      exact h3 _ (List.mem_map_of_mem hx)
    · intro h
      refine instant_inj (hv g hg).1 (hv1 z h2) (le_antisymm ?_ (h3 _ (List.mem_map_of_mem hg)))
      obtain ⟨x, hx, rfl⟩ := List.mem_map.1 h2
      exact h x hx
  | last =>
    obtain ⟨z, h1, h2, h3⟩ := latest (by simpa using hne (Or.inr rfl)) hv1
    refine ⟨[z], by unfold gridTimes; rw [h1]; rfl, fun g hg => ?_⟩
    rw [List.mem_singleton]
    constructor
    · rintro rfl x hx
      exact h3 _ (List.mem_map_of_mem hx)
    · intro h
      refine instant_inj (hv g hg).1 (hv1 z h2) (le_antisymm (h3 _ (List.mem_map_of_mem hg)) ?_)
      obtain ⟨x, hx, rfl⟩ := List.mem_map.1 h2
      exact h x hx

theorem extremeTime2_some {better : Date × Clock → Date × Clock → Bool} {l : List (Date × Clock)} (hne : l ≠ []) :
    extremeTime2 better (l.map some) = (extremeTime better l).map some := by
  match l, hne with
  | [x], _ => rfl
  | x :: y :: r, _ =>
    unfold extremeTime2
    simp only [List.map_cons]
    rw [if_neg (by simp)]
    congr 1
    simp [List.filterMap_map]

theorem gridTimes2_spec {all : List GridInfo} (hv : GTimesExist all) (sel : TimeSel2)
    (hne : sel = .first ∨ sel = .last → all ≠ [] ∧ ∀ g ∈ all, g.time2 ≠ none) :
    ∃ l, gridTimes2 all sel = .ok l ∧ ∀ g ∈ all, g.time2 ∈ l ↔ AsksTime2 all sel g.time2 := by
  have hsome : (∀ g ∈ all, g.time2 ≠ none) → ∃ ts : List (Date × Clock), all.map GridInfo.time2 = ts.map some := by
    intro h
    refine ⟨(all.map GridInfo.time2).filterMap id, ?_⟩
    clear hne hv
    induction all with
    | nil => rfl
    | cons a r ih =>
      have ha := h a List.mem_cons_self
      obtain ⟨t, ht⟩ := Option.ne_none_iff_exists'.1 ha
      rw [List.map_cons, ht]
      simp only [List.filterMap_cons, id, List.map_cons]
      exact congrArg _ (ih fun g hg => h g (List.mem_cons_of_mem _ hg))
  cases sel with
  | these l => exact ⟨l, rfl, fun s _ => Iff.rfl⟩
  | first =>
    obtain ⟨hne, hs⟩ := hne (Or.inl rfl)
    obtain ⟨ts, hts⟩ := hsome hs
    have hmem : ∀ t, t ∈ ts ↔ ∃ g ∈ all, g.time2 = some t := by
      intro t
      rw [← List.mem_map_of_injective (Option.some_injective _) (a := t), ← hts, List.mem_map]
    have hv1 : ∀ t ∈ ts, t.1.Valid ∧ t.2.Valid := by
      intro t ht
      obtain ⟨g, hg, h⟩ := (hmem t).1 ht
      exact (hv g hg).2 t h
    have hne' : ts ≠ [] := by
      rintro rfl
      rw [List.map_nil, List.map_eq_nil_iff] at hts
      exact hne hts
    obtain ⟨z, h1, h2, h3⟩ := earliest hne' hv1
    refine ⟨[some z], by unfold gridTimes2; dsimp only; rw [hts, extremeTime2_some hne', h1]; rfl, fun g hg => ?_⟩
    rw [List.mem_singleton]
    constructor
    · intro h
      exact ⟨z, h, fun x hx v hxv => h3 v ((hmem v).2 ⟨x, hx, hxv⟩)⟩
    · rintro ⟨u, hu, h⟩
      rw [hu]
      congr 1
      obtain ⟨x, hx, hxz⟩ := (hmem z).1 h2
      exact instant_inj ((hv g hg).2 u hu) (hv1 z h2) (le_antisymm (h x hx z hxz) (h3 u ((hmem u).2 ⟨g, hg, hu⟩)))
  | last =>
    obtain ⟨hne, hs⟩ := hne (Or.inr rfl)
    obtain ⟨ts, hts⟩ := hsome hs
    have hmem : ∀ t, t ∈ ts ↔ ∃ g ∈ all, g.time2 = some t := by
      intro t
      rw [← List.mem_map_of_injective (Option.some_injective _) (a := t), ← hts, List.mem_map]
    have hv1 : ∀ t ∈ ts, t.1.Valid ∧ t.2.Valid := by
      intro t ht
      obtain ⟨g, hg, h⟩ := (hmem t).1 ht
      exact (hv g hg).2 t h
    have hne' : ts ≠ [] := by
      rintro rfl
      rw [List.map_nil, List.map_eq_nil_iff] at hts
      exact hne hts
    obtain ⟨z, h1, h2, h3⟩ := latest hne' hv1
    refine ⟨[some z], by unfold gridTimes2; dsimp only; rw [hts, extremeTime2_some hne', h1]; rfl, fun g hg => ?_⟩
    rw [List.mem_singleton]
    constructor
    · intro h
      exact ⟨z, h, fun x hx v hxv => h3 v ((hmem v).2 ⟨x, hx, hxv⟩)⟩
    · rintro ⟨u, hu, h⟩
      rw [hu]
      congr 1
      obtain ⟨x, hx, hxz⟩ := (hmem z).1 h2
      exact instant_inj ((hv g hg).2 u hu) (hv1 z h2) (le_antisymm (h3 u ((hmem u).2 ⟨g, hg, hu⟩)) (h x hx z hxz))

theorem levelIn_iff (ls : List (Option ℚ)) (l : Option Int) : levelIn ls l = true ↔ AsksLevel ls l := by
  unfold levelIn
  rw [decide_eq_true_eq]
  cases l <;> rfl

/-- The chain of filters keeps exactly the wanted grids. -/
theorem selectGrids_spec (upper : Text → Text) (q : GridQuery) (all : List GridInfo) (hv : GTimesExist all)
    (h1 : AsksExtreme1 q → all ≠ []) (h2 : AsksExtreme2 q → all ≠ [] ∧ ∀ g ∈ all, g.time2 ≠ none) :
    selectGrids upper q all = if gselected upper q all = [] then .error .keyError else .ok (gselected upper q all) := by
  classical
  obtain ⟨t1, ht1, hts1⟩ : ∃ t1, optM (gridTimes all) q.dateTime = .ok t1 ∧
      ∀ g ∈ all, ((t1.map fun c => decide (g.time1 ∈ c)).getD true = true ↔ ∀ t, q.dateTime = some t → AsksTime1 all t g.time1) := by
    cases hq : q.dateTime with
    | none => exact ⟨none, rfl, by simp⟩
    | some t =>
      obtain ⟨l, g1, g2⟩ := gridTimes_spec hv t (by
        intro h
        apply h1
        unfold AsksExtreme1
        rw [hq]
        rcases h with rfl | rfl <;> simp)
      refine ⟨some l, by unfold optM; dsimp only; rw [g1]; rfl, fun s hs => ?_⟩
      simp [g2 s hs]
  obtain ⟨t2, ht2, hts2⟩ : ∃ t2, optM (gridTimes2 all) q.dateTime2 = .ok t2 ∧
      ∀ g ∈ all, ((t2.map fun c => decide (g.time2 ∈ c)).getD true = true ↔ ∀ t, q.dateTime2 = some t → AsksTime2 all t g.time2) := by
    cases hq : q.dateTime2 with
    | none => exact ⟨none, rfl, by simp⟩
    | some t =>
      obtain ⟨l, g1, g2⟩ := gridTimes2_spec hv t (by
        intro h
        apply h2
        unfold AsksExtreme2
        rw [hq]
        rcases h with rfl | rfl <;> simp)
      refine ⟨some l, by unfold optM; dsimp only; rw [g1]; rfl, fun s hs => ?_⟩
      simp [g2 s hs]
  unfold selectGrids
  rw [ht1, ok_bind, ht2, ok_bind]
  dsimp only
  simp only [filterBy_eq, List.filter_filter]
  have key : (all.filter fun g => (q.level2.map fun c => levelIn c g.level2).getD true &&
      ((t2.map fun c => decide (g.time2 ∈ c)).getD true &&
      ((q.level.map fun c => levelIn c g.level1).getD true && ((q.coordinate.map fun c => decide (g.coord ∈ c.upperAll upper)).getD true &&
      ((t1.map fun c => decide (g.time1 ∈ c)).getD true && (q.parameter.map fun c => decide (g.parm ∈ c.upperAll upper)).getD true))))) =
      gselected upper q all := by
    unfold gselected
    refine List.filter_congr fun g hg => ?_
    rw [Bool.eq_iff_iff, decide_eq_true_eq]
    simp only [Bool.and_eq_true, hts1 g hg, hts2 g hg]
    have e1 : (q.parameter.map fun c => decide (g.parm ∈ c.upperAll upper)).getD true = true ↔ ∀ a, q.parameter = some a → Asks upper a g.parm := by
      cases q.parameter <;> simp [asks_all]
    have e2 : (q.coordinate.map fun c => decide (g.coord ∈ c.upperAll upper)).getD true = true ↔ ∀ a, q.coordinate = some a → Asks upper a g.coord := by
      cases q.coordinate <;> simp [asks_all]
    have e3 : (q.level.map fun c => levelIn c g.level1).getD true = true ↔ ∀ l, q.level = some l → AsksLevel l g.level1 := by
      cases q.level <;> simp [levelIn_iff]
    have e4 : (q.level2.map fun c => levelIn c g.level2).getD true = true ↔ ∀ l, q.level2 = some l → AsksLevel l g.level2 := by
      cases q.level2 <;> simp [levelIn_iff]
    rw [e1, e2, e3, e4]
    exact ⟨fun ⟨a, b, c, d, e, f⟩ => ⟨f, e, d, c, b, a⟩, fun ⟨a, b, c, d, e, f⟩ => ⟨f, e, d, c, b, a⟩⟩
  rw [key]
  cases gselected upper q all <;> simp

/-! ## Times of opened files exist -/

/-- Dates exist and lead times are small in a header. -/
def GHeaderTimes (h : GHeader) : Prop :=
  ∀ kv ∈ h, (∀ x, kv.2 = .dattim (some x) → (x.1.Valid ∧ x.2.Valid) ∧ x.1.y ≤ 2068) ∧
    ∀ f, kv.2 = .ftime (some f) → 0 ≤ f.2 ∧ f.2 ≤ 70000

theorem mkDate_ok {y m d : Nat} {x : Date} (h : mkDate y m d = .ok x) : x = ⟨y, m, d⟩ ∧ Date.Valid ⟨y, m, d⟩ := by
  unfold mkDate at h
  split at h
  · rename_i hv
    exact ⟨(Except.ok.inj h).symm, hv⟩
  · cases h

theorem mkClock_ok {hh mi : Nat} {x : Clock} (h : mkClock hh mi = .ok x) : x.Valid := by
  unfold mkClock at h
  split at h
  · rename_i hv
    obtain rfl := Except.ok.inj h
    exact ⟨hv.1, hv.2, Nat.succ_pos _, Nat.succ_pos _⟩
  · cases h

theorem pivotYear_le {n : Nat} (h : n < 100) : pivotYear n ≤ 2068 := by
  unfold pivotYear
  split <;> omega

theorem convertDattim_valid {w : Int} {x : Date × Clock} (h : convertDattim w = .ok (some x)) :
    (x.1.Valid ∧ x.2.Valid) ∧ x.1.y ≤ 2068 := by
  unfold convertDattim at h
  split at h
  · cases h
  · split at h
    · unfold parseYmd at h
      split at h
      · cases h
      · rename_i hw
        cases hm : mkDate (pivotYear (w.toNat / 10000)) (w.toNat / 100 % 100) (w.toNat % 100) with
        | error e => rw [hm] at h; cases h
        | ok d =>
          rw [hm] at h
          have h : some (d, (⟨0, 0, 0, 0⟩ : Clock)) = some x := Except.ok.inj h
          obtain rfl := Option.some.inj h
          obtain ⟨h1, h2⟩ := mkDate_ok hm
          refine ⟨⟨h1 ▸ h2, (by decide : Clock.Valid ⟨0, 0, 0, 0⟩)⟩, ?_⟩
          rw [h1]
          refine pivotYear_le ?_
          omega
    · unfold parseMdyhm at h
      split at h
      · cases h
      · rename_i hw
        cases hm : mkDate (pivotYear (w.toNat / 10000 % 100)) (w.toNat / 100000000) (w.toNat / 1000000 % 100) with
        | error e => rw [hm] at h; cases h
        | ok d =>
          rw [hm] at h
          cases hc : mkClock (w.toNat / 100 % 100) (w.toNat % 100) with
          | error e => rw [ok_bind, hc] at h; cases h
          | ok c =>
            rw [ok_bind, hc] at h
            have h : some (d, c) = some x := Except.ok.inj h
            obtain rfl := Option.some.inj h
            obtain ⟨h1, h2⟩ := mkDate_ok hm
            refine ⟨⟨h1 ▸ h2, mkClock_ok hc⟩, ?_⟩
            rw [h1]
            exact pivotYear_le (Nat.mod_lt _ (by decide))

theorem convertFtime_small {w : Int} {f : Int × Int} (h : convertFtime w = .ok (some f)) : 0 ≤ f.2 ∧ f.2 ≤ 70000 := by
  unfold convertFtime at h
  split at h
  · dsimp only at h
    split at h
    · have h := Option.some.inj (Except.ok.inj h)
      subst h
      dsimp only
      omega
    · cases h
  · cases h

theorem gconv_times {e : Endian} {k : GKind} {v : Val} {x : GVal} (h : k.conv e v = .ok x) :
    (∀ y, x = .dattim (some y) → (y.1.Valid ∧ y.2.Valid) ∧ y.1.y ≤ 2068) ∧ ∀ f, x = .ftime (some f) → 0 ≤ f.2 ∧ f.2 ≤ 70000 := by
  cases k with
  | int =>
    simp only [GKind.conv, Except.map] at h
    split at h
    · cases h
    · obtain rfl := Except.ok.inj h; exact ⟨by simp, by simp⟩
  | text =>
    simp only [GKind.conv, Except.map] at h
    split at h
    · cases h
    · obtain rfl := Except.ok.inj h; exact ⟨by simp, by simp⟩
  | level =>
    simp only [GKind.conv, Except.map] at h
    split at h
    · cases h
    · obtain rfl := Except.ok.inj h; exact ⟨by simp, by simp⟩
  | dattim =>
    change (intOf v >>= fun w => convertDattim w >>= fun d => .ok (.dattim d)) = .ok x at h
    obtain ⟨w, _, h⟩ := bind_inv h
    obtain ⟨d, hd, h⟩ := bind_inv h
    obtain rfl := Except.ok.inj h
    refine ⟨fun y hy => ?_, by simp⟩
    rw [GVal.dattim.inj hy] at hd
    exact convertDattim_valid hd
  | ftime =>
    change (intOf v >>= fun w => convertFtime w >>= fun d => .ok (.ftime d)) = .ok x at h
    obtain ⟨w, _, h⟩ := bind_inv h
    obtain ⟨d, hd, h⟩ := bind_inv h
    obtain rfl := Except.ok.inj h
    refine ⟨by simp, fun y hy => ?_⟩
    rw [GVal.ftime.inj hy] at hd
    exact convertFtime_small hd
  | coord =>
    change (intOf v >>= fun w => convertCoord e w >>= fun d => .ok (.text d)) = .ok x at h
    obtain ⟨w, _, h⟩ := bind_inv h
    obtain ⟨d, hd, h⟩ := bind_inv h
    obtain rfl := Except.ok.inj h
    exact ⟨by simp, by simp⟩

theorem convGHeader_times {e : Endian} {ks : List Text} {vs : List Val} {h : GHeader} (hh : convGHeader e ks vs = .ok h) :
    GHeaderTimes h := by
  induction ks generalizing vs h with
  | nil =>
    cases vs with
    | nil => simp only [convGHeader] at hh; obtain rfl := Except.ok.inj hh; intro kv hkv; simp at hkv
    | cons => cases hh
  | cons k ks ih =>
    cases vs with
    | nil => cases hh
    | cons v vs =>
      unfold convGHeader at hh
      obtain ⟨x, h1, hh⟩ := bind_inv hh
      obtain ⟨r, h2, hh⟩ := bind_inv hh
      obtain rfl := Except.ok.inj hh
      intro kv hkv
      rcases List.mem_cons.1 hkv with rfl | hkv
      · exact gconv_times h1
      · exact ih h2 kv hkv

theorem dictGet_mem' {α : Type} {h : List (Text × α)} {k : Text} {v : α} (hv : dictGet h k = some v) : (k, v) ∈ h := by
  induction h with
  | nil => cases hv
  | cons kv r ih =>
    obtain ⟨k', v'⟩ := kv
    unfold dictGet at hv
    split at hv
    · rename_i hk
      obtain rfl := Option.some.inj hv
      subst hk
      exact List.mem_cons_self
    · exact List.mem_cons_of_mem _ (ih hv)

theorem ghGet_mem {h : GHeader} {k : Text} {v : GVal} (hv : ghGet h k = .ok v) : ∃ kv ∈ h, kv.2 = v := by
  unfold ghGet at hv
  split at hv
  · rename_i w hw
    obtain rfl := Except.ok.inj hv
    exact ⟨_, dictGet_mem' hw, rfl⟩
  · cases hv

theorem ghDate_valid {h : GHeader} (hh : GHeaderTimes h) {k : Text} {x : Date × Clock} (hv : ghDate h k = .ok (some x)) :
    (x.1.Valid ∧ x.2.Valid) ∧ x.1.y ≤ 2068 := by
  unfold ghDate at hv
  obtain ⟨v, h1, hv⟩ := bind_inv hv
  obtain ⟨kv, hkv, rfl⟩ := ghGet_mem h1
  split at hv
  · rename_i d hd
    have := Except.ok.inj hv
    subst this
    exact (hh kv hkv).1 x hd
  · cases hv

theorem ghLead_small {h : GHeader} (hh : GHeaderTimes h) {k : Text} {x : Int × Int} (hv : ghLead h k = .ok (some x)) :
    0 ≤ x.2 ∧ x.2 ≤ 70000 := by
  unfold ghLead at hv
  obtain ⟨v, h1, hv⟩ := bind_inv hv
  obtain ⟨kv, hkv, rfl⟩ := ghGet_mem h1
  split at hv
  · rename_i d hd
    have := Except.ok.inj hv
    subst this
    exact (hh kv hkv).2 x hd
  · cases hv

theorem gridInfo_times {n : Nat} {h : GHeader} (hh : GHeaderTimes h) {g : GridInfo} (hg : gridInfo n h = .ok g) :
    ((g.time1.1.Valid ∧ g.time1.2.Valid) ∧ ∀ t, g.time2 = some t → t.1.Valid ∧ t.2.Valid) ∧ g.number = n := by
  unfold gridInfo at hg
  obtain ⟨v, h1, hg⟩ := bind_inv hg
  obtain ⟨v2, h2, hg⟩ := bind_inv hg
  obtain ⟨_, _, hg⟩ := bind_inv hg
  obtain ⟨_, _, hg⟩ := bind_inv hg
  obtain ⟨_, _, hg⟩ := bind_inv hg
  obtain ⟨_, _, hg⟩ := bind_inv hg
  obtain rfl := Except.ok.inj hg
  refine ⟨⟨?_, ?_⟩, rfl⟩
  · unfold ghValid at h1
    obtain ⟨f, h3, h1⟩ := bind_inv h1
    obtain ⟨d, h4, h1⟩ := bind_inv h1
    split at h1
    · obtain rfl := Except.ok.inj h1
      obtain ⟨a1, a2⟩ := ghDate_valid hh h4
      obtain ⟨b1, b2⟩ := ghLead_small hh h3
      exact (addMinutes_instant a1.1 a1.2 a2 b1 b2).2
    · cases h1
  · intro t ht
    dsimp only at ht
    subst ht
    unfold ghValid2 at h2
    obtain ⟨d, h4, h2⟩ := bind_inv h2
    split at h2
    · cases h2
    · obtain ⟨f, h3, h2⟩ := bind_inv h2
      split at h2
      · have h2 := Option.some.inj (Except.ok.inj h2)
        subst h2
        obtain ⟨a1, a2⟩ := ghDate_valid hh h4
        obtain ⟨b1, b2⟩ := ghLead_small hh h3
        exact (addMinutes_instant a1.1 a1.2 a2 b1 b2).2
      · cases h2

theorem gridInfos_times {hs : List GHeader} {n : Nat} {gs : List GridInfo} (hh : ∀ h ∈ hs, GHeaderTimes h) (h : gridInfos hs n = .ok gs) :
    GTimesExist gs ∧ gs.map GridInfo.number = List.range' n gs.length := by
  induction hs generalizing n gs with
  | nil =>
    obtain rfl := Except.ok.inj h
    exact ⟨by intro g hg; simp at hg, rfl⟩
  | cons a r ih =>
    unfold gridInfos at h
    obtain ⟨x, h1, h⟩ := bind_inv h
    obtain ⟨xs, h2, h⟩ := bind_inv h
    obtain rfl := Except.ok.inj h
    obtain ⟨i1, i2⟩ := ih (fun h hh' => hh h (List.mem_cons_of_mem _ hh')) h2
    obtain ⟨j1, j2⟩ := gridInfo_times (hh a List.mem_cons_self) h1
    refine ⟨?_, ?_⟩
    · intro g hg
      rcases List.mem_cons.1 hg with rfl | hg
      · exact j1
      · exact i1 g hg
    · rw [List.map_cons, i2, j2, List.length_cons, List.range'_succ]

theorem openGrid_times {host : Endian} {b : Bytes} {f : GridFileR} (h : openGrid host b = .ok f) :
    GTimesExist f.grids ∧ f.grids.map GridInfo.number = List.range f.grids.length := by
  unfold openGrid at h
  obtain ⟨i, _, h⟩ := bind_inv h
  obtain ⟨_, _, h⟩ := bind_inv h
  obtain ⟨_, _, h⟩ := bind_inv h
  obtain ⟨_, _, h⟩ := bind_inv h
  obtain ⟨cols, h1, h⟩ := bind_inv h
  obtain ⟨gs, h2, h⟩ := bind_inv h
  obtain ⟨_, _, h⟩ := bind_inv h
  obtain rfl := Except.ok.inj h
  have := gridInfos_times (readHeaders_all h1 GHeaderTimes fun vs x hx => convGHeader_times hx) h2
  exact ⟨this.1, by rw [this.2, List.range_eq_range']⟩

/-! ## C34 -/

theorem gselected_sub (upper : Text → Text) (q : GridQuery) (all : List GridInfo) : ∀ g ∈ gselected upper q all, g ∈ all :=
  fun _ h => (List.mem_filter.1 h).1

theorem selectGrids_all (upper : Text → Text) (gs : List GridInfo) :
    selectGrids upper {} gs = if gs.length < 1 then .error .keyError else .ok gs := rfl

theorem mapM_got {α γ : Type} {f : α → Except PyErr (List γ)} {m : List α} (h : ∀ s ∈ m, ∃ l, f s = .ok l) :
    m.mapM f = .ok (m.map fun s => got (f s)) := mapM_ok fun s hs => got_of (h s hs)

/-- C34 (part): once a file can be read as a whole, every query returns the grids of exactly those listed entries that satisfy
every criterion, each once and in the order of the list, and raises `KeyError` exactly when there are none.  Missing: the
earliest or latest time of a file without grids, or second time when some grid has none, see `C34_empty` and
`C34_second_time`. -/
theorem C34_selection_partial (host : Endian) (b : Bytes) (f : GridFileR) (upper lower : Text → Text) (all : List GridObj)
    (ho : openGrid host b = .ok f) (hall : gdxarray upper lower {} f = .ok all) :
    ∃ grids : GridInfo → List GridObj, all = f.grids.flatMap grids ∧
      ∀ q, (AsksExtreme2 q → ∀ g ∈ f.grids, g.time2 ≠ none) →
        gdxarray upper lower q f = if gselected upper q f.grids = [] then .error .keyError
          else .ok ((gselected upper q f.grids).flatMap grids) := by
  unfold gdxarray at hall
  rw [selectGrids_all] at hall
  split at hall
  · cases hall
  rename_i hlen
  rw [ok_bind] at hall
  obtain ⟨r, hr, hall⟩ := bind_inv hall
  have hcell := mapM_each hr
  rw [mapM_got hcell] at hr
  obtain rfl := Except.ok.inj hr
  have hne : f.grids ≠ [] := by
    intro h; rw [h] at hlen; simp at hlen
  refine ⟨_, (by rw [← Except.ok.inj hall, ← List.flatMap_def]), fun q h2 => ?_⟩
  unfold gdxarray
  rw [selectGrids_spec upper q f.grids (openGrid_times ho).1 (fun _ => hne) (fun h => ⟨hne, h2 h⟩)]
  by_cases h0 : gselected upper q f.grids = []
  · rw [if_pos h0, if_pos h0]; rfl
  · rw [if_neg h0, if_neg h0, ok_bind, mapM_got fun s hs => hcell s (gselected_sub _ _ _ s hs), ok_bind, ← List.flatMap_def]

/-- C34: a listed grid is listed once. -/
theorem C34_listing (host : Endian) (b : Bytes) (f : GridFileR) (ho : openGrid host b = .ok f) :
    (f.grids.map GridInfo.number).Nodup := by
  rw [(openGrid_times ho).2]; exact List.nodup_range

/-- C34: in a file without grids every query raises, `ValueError` when the earliest or latest time is asked for and `KeyError`
otherwise. -/
theorem C34_empty (f : GridFileR) (upper lower : Text → Text) (q : GridQuery) (h : f.grids = []) :
    (AsksExtreme1 q ∨ AsksExtreme2 q → gdxarray upper lower q f = .error .valueError) ∧
      (¬ (AsksExtreme1 q ∨ AsksExtreme2 q) → gdxarray upper lower q f = .error .keyError) := by
  unfold gdxarray
  rw [h]
  constructor
  · intro hq
    have : selectGrids upper q [] = .error .valueError := by
      unfold selectGrids
      by_cases h1 : AsksExtreme1 q
      · rcases h1 with h1 | h1 <;> rw [h1] <;> rfl
      · have h2 := hq.resolve_left h1
        have h3 : ∃ t, optM (gridTimes []) q.dateTime = .ok t := by
          cases hd : q.dateTime with
          | none => exact ⟨_, rfl⟩
          | some t =>
            cases t with
            | first => exact absurd (Or.inl hd) h1
            | last => exact absurd (Or.inr hd) h1
            | these l => exact ⟨_, rfl⟩
        obtain ⟨t, ht⟩ := h3
        rw [ht, ok_bind]
        rcases h2 with h2 | h2 <;> rw [h2] <;> rfl
    rw [this]; rfl
  · intro hq
    rw [selectGrids_spec upper q [] (by intro g hg; simp at hg) (fun h => absurd (Or.inl h) hq) (fun h => absurd (Or.inr h) hq)]
    rfl

/-- C34: asking for the earliest or latest second time raises `TypeError` when there are several grids and one has none. -/
theorem C34_second_time (f : GridFileR) (upper lower : Text → Text) (q : GridQuery) (h1 : ∃ t1, optM (gridTimes f.grids) q.dateTime = .ok t1)
    (h2 : AsksExtreme2 q) (hn : ∃ g ∈ f.grids, g.time2 = none) (hlen : 2 ≤ f.grids.length) :
    gdxarray upper lower q f = .error .typeError := by
  obtain ⟨t1, h1⟩ := h1
  have hx : ∀ better, extremeTime2 better (f.grids.map GridInfo.time2) = .error .typeError := by
    intro better
    obtain ⟨g, hg, hg2⟩ := hn
    have hmem : none ∈ f.grids.map GridInfo.time2 := by rw [← hg2]; exact List.mem_map_of_mem hg
    match hl : f.grids.map GridInfo.time2 with
    | [] => rw [hl] at hmem; simp at hmem
    | [x] =>
      have := congrArg List.length hl
      simp at this
      omega
    | x :: y :: r =>
      unfold extremeTime2
      dsimp only
      rw [if_pos (hl ▸ hmem)]
  have : selectGrids upper q f.grids = .error .typeError := by
    unfold selectGrids
    rw [h1, ok_bind]
    rcases h2 with h2 | h2
    · rw [h2]
      show ((gridTimes2 f.grids .first).map some >>= _) = _
      unfold gridTimes2
      dsimp only
      rw [hx]; rfl
    · rw [h2]
      show ((gridTimes2 f.grids .last).map some >>= _) = _
      unfold gridTimes2
      dsimp only
      rw [hx]; rfl
  unfold gdxarray
  rw [this]; rfl

/-- C34: for every written file with grids all queries are answered like that. -/
theorem C34_written (env : GridEnv) (nx ny bits : Nat) (rs : List GridReq) (host : Endian) (bytes : Bytes)
    (h : GridOutput env nx ny bits rs host bytes) (hne : rs ≠ []) (upper lower : Text → Text) :
    ∃ f, openGrid host bytes = .ok f ∧ ∃ (all : List GridObj) (grids : GridInfo → List GridObj),
      gdxarray upper lower {} f = .ok all ∧ all = f.grids.flatMap grids ∧
      ∀ q, (AsksExtreme2 q → ∀ g ∈ f.grids, g.time2 ≠ none) →
        gdxarray upper lower q f = if gselected upper q f.grids = [] then .error .keyError
          else .ok ((gselected upper q f.grids).flatMap grids) := by
  obtain ⟨f, P, h1, _, _, h4⟩ := h.grids
  obtain ⟨out, g1, _⟩ := h4 hne upper lower
  obtain ⟨grids, ha, hq⟩ := C34_selection_partial host bytes f upper lower out h1 g1
  exact ⟨f, h1, out, grids, g1, ha, hq⟩

/-- Two listed grids. -/
def twoGrids : List GridInfo :=
  [⟨0, 0, (⟨2020, 1, 1⟩, ⟨0, 0, 0, 0⟩), none, txt "TMPK", some 500, none, txt "PRES"⟩,
    ⟨1, 1, (⟨2020, 1, 2⟩, ⟨0, 0, 0, 0⟩), none, txt "TMPK", some 850, none, txt "PRES"⟩]

/-- Both share name and coordinate; asking for the latest time or for a level singles one out. -/
example : selectGrids id { parameter := some (.one (txt "TMPK")) } twoGrids = .ok twoGrids ∧
    selectGrids id { dateTime := some .last } twoGrids = .ok (twoGrids.drop 1) ∧
    selectGrids id { level := some [some 500], coordinate := some (.one (txt "PRES")) } twoGrids = .ok (twoGrids.take 1) ∧
    selectGrids id { level := some [some 500], dateTime := some .last } twoGrids = .error .keyError := by
  refine ⟨by decide +kernel, by decide +kernel, by decide +kernel, by decide +kernel⟩

end Gempak
