import Verif.Proof.Time
import Verif.Proof.DMRead
import Verif.Spec.Select
import Verif.Model.Sounding
import Verif.Props.Calendar

/-!
# Selection of listed sites
-/

namespace Gempak
open Spec

theorem asks_all (upper : Text → Text) (a : StrArg) (t : Text) : t ∈ a.upperAll upper ↔ Asks upper a t := by
  cases a with
  | one x => simp [StrArg.upperAll, Asks]
  | many l => simp [StrArg.upperAll, Asks, eq_comm]

theorem asks_one (upper : Text → Text) (a : StrArg) (t : Text) : t ∈ a.upperOne upper ↔ AsksExactly upper a t := by
  cases a with
  | one x => simp [StrArg.upperOne, AsksExactly]
  | many l => simp [StrArg.upperOne, AsksExactly]

theorem holds_iff (b : BBox) (lat lon : Int) : b.holds lat lon = true ↔ Inside b lat lon := by
  unfold BBox.holds Inside
  rw [decide_eq_true_eq]

theorem filterBy_eq {α β : Type} (c : Option β) (p : β → α → Bool) (l : List α) :
    filterBy c p l = l.filter fun x => (c.map fun b => p b x).getD true := by
  cases c with
  | none => simp [filterBy]
  | some b => simp [filterBy]

/-- The fold of `min`/`max` keeps a best element. -/
theorem extreme_spec {better : Date × Clock → Date × Clock → Bool} {r : Date × Clock → Date × Clock → Prop}
    (P : Date × Clock → Prop) (hb : ∀ a b, P a → P b → (better a b = true ↔ ¬ r b a)) (hrefl : ∀ a, r a a)
    (htot : ∀ a b, r a b ∨ r b a) (htr : ∀ a b c, r a b → r b c → r a c) (l : List (Date × Clock)) (m : Date × Clock)
    (hm : P m) (hl : ∀ t ∈ l, P t) :
    let z := l.foldl (fun m t => if better t m then t else m) m
    (z = m ∨ z ∈ l) ∧ r z m ∧ ∀ t ∈ l, r z t := by
  induction l generalizing m with
  | nil => exact ⟨Or.inl rfl, hrefl m, by simp⟩
  | cons a l ih =>
    have ha := hl a List.mem_cons_self
    have hl' : ∀ t ∈ l, P t := fun t ht => hl t (List.mem_cons_of_mem _ ht)
    simp only [List.foldl_cons]
    by_cases hc : better a m = true
    · rw [if_pos hc]
      have hc' := (hb a m ha hm).1 hc
      obtain ⟨h1, h2, h3⟩ := ih a ha hl'
      refine ⟨?_, htr _ _ _ h2 ((htot a m).resolve_right hc'), ?_⟩
      · rcases h1 with h1 | h1
        · right; rw [h1]; exact List.mem_cons_self
        · right; exact List.mem_cons_of_mem _ h1
      · intro t ht
        rcases List.mem_cons.1 ht with rfl | ht
        · exact h2
        · exact h3 t ht
    · rw [if_neg hc]
      have hc' : r m a := by
        by_contra h
        exact hc ((hb a m ha hm).2 h)
      obtain ⟨h1, h2, h3⟩ := ih m hm hl'
      refine ⟨?_, h2, ?_⟩
      · rcases h1 with h1 | h1
        · left; exact h1
        · right; exact List.mem_cons_of_mem _ h1
      · intro t ht
        rcases List.mem_cons.1 ht with rfl | ht
        · exact htr _ _ _ h2 hc'
        · exact h3 t ht

/-- The times standing for the criterion are those it asks for, among the listed ones. -/
theorem resolve_spec (all : List SiteInfo) (hv : TimesExist all) (sel : TimeSel) (hne : sel = .first ∨ sel = .last → all ≠ []) :
    ∃ l, sel.resolve all = .ok l ∧ ∀ s ∈ all, s.dattim ∈ l ↔ AsksTime all sel s.dattim := by
  cases sel with
  | these l => exact ⟨l, rfl, fun s _ => Iff.rfl⟩
  | first =>
    obtain ⟨a, r, rfl⟩ := List.exists_cons_of_ne_nil (hne (Or.inl rfl))
    have hv' : ∀ t ∈ (a :: r).map SiteInfo.dattim, t.1.Valid ∧ t.2.Valid := by
      intro t ht
      obtain ⟨s, hs, rfl⟩ := List.mem_map.1 ht
      exact hv s hs
    have h := extreme_spec (better := fun t m => timeLt t m) (r := fun a b => instant a ≤ instant b) (fun t => t.1.Valid ∧ t.2.Valid)
      (by intro a b ha hb; rw [timeLt_iff ha hb]; omega) (by intro a; exact le_refl _) (by intro a b; omega) (by intro a b c; omega)
      (r.map SiteInfo.dattim) a.dattim (hv' _ List.mem_cons_self) (fun t ht => hv' t (List.mem_cons_of_mem _ ht))
    dsimp only at h
    generalize hz : (r.map SiteInfo.dattim).foldl (fun m t => if timeLt t m then t else m) a.dattim = z at h
    obtain ⟨h1, h2, h3⟩ := h
    have hzv : z.1.Valid ∧ z.2.Valid := by
      rcases h1 with h1 | h1
      · rw [h1]; exact hv' _ List.mem_cons_self
      · exact hv' _ (List.mem_cons_of_mem _ h1)
    refine ⟨[z], by rw [← hz]; rfl, fun s hs => ?_⟩
    rw [List.mem_singleton]
    have hmin : ∀ t ∈ (a :: r).map SiteInfo.dattim, instant z ≤ instant t := by
      intro t ht
      rcases List.mem_cons.1 ht with rfl | ht
      · exact h2
      · exact h3 t ht
    constructor
    · rintro rfl x hx
      exact hmin _ (List.mem_map_of_mem hx)
    · intro h
      apply instant_inj (hv s hs) hzv
      apply le_antisymm
      · rcases h1 with h1 | h1
        · rw [h1]; exact h a List.mem_cons_self
        · obtain ⟨x, hx, hx2⟩ := List.mem_map.1 h1
          rw [← hx2]; exact h x (List.mem_cons_of_mem _ hx)
      · exact hmin _ (List.mem_map_of_mem hs)
  | last =>
    obtain ⟨a, r, rfl⟩ := List.exists_cons_of_ne_nil (hne (Or.inr rfl))
    have hv' : ∀ t ∈ (a :: r).map SiteInfo.dattim, t.1.Valid ∧ t.2.Valid := by
      intro t ht
      obtain ⟨s, hs, rfl⟩ := List.mem_map.1 ht
      exact hv s hs
    have h := extreme_spec (better := fun t m => timeLt m t) (r := fun a b => instant b ≤ instant a) (fun t => t.1.Valid ∧ t.2.Valid)
      (by intro a b ha hb; rw [timeLt_iff hb ha]; omega) (by intro a; exact le_refl _) (by intro a b; omega) (by intro a b c; omega)
      (r.map SiteInfo.dattim) a.dattim (hv' _ List.mem_cons_self) (fun t ht => hv' t (List.mem_cons_of_mem _ ht))
    dsimp only at h
    generalize hz : (r.map SiteInfo.dattim).foldl (fun m t => if timeLt m t then t else m) a.dattim = z at h
    obtain ⟨h1, h2, h3⟩ := h
    have hzv : z.1.Valid ∧ z.2.Valid := by
      rcases h1 with h1 | h1
      · rw [h1]; exact hv' _ List.mem_cons_self
      · exact hv' _ (List.mem_cons_of_mem _ h1)
    refine ⟨[z], by rw [← hz]; rfl, fun s hs => ?_⟩
    rw [List.mem_singleton]
    have hmax : ∀ t ∈ (a :: r).map SiteInfo.dattim, instant t ≤ instant z := by
      intro t ht
      rcases List.mem_cons.1 ht with rfl | ht
      · exact h2
      · exact h3 t ht
    constructor
    · rintro rfl x hx
      exact hmax _ (List.mem_map_of_mem hx)
    · intro h
      apply instant_inj (hv s hs) hzv
      apply le_antisymm
      · exact hmax _ (List.mem_map_of_mem hs)
      · rcases h1 with h1 | h1
        · rw [h1]; exact h a List.mem_cons_self
        · obtain ⟨x, hx, hx2⟩ := List.mem_map.1 h1
          rw [← hx2]; exact h x (List.mem_cons_of_mem _ hx)

/-- The chain of filters keeps exactly the wanted sites. -/
theorem selectSites_spec (upper : Text → Text) (arg : StrArg → List Text) (asks : StrArg → Text → Prop)
    (harg : ∀ a t, t ∈ arg a ↔ asks a t) (q : SiteQuery) (all : List SiteInfo) (hv : TimesExist all)
    (hne : AsksExtreme q → all ≠ []) :
    selectSites upper arg q all =
      if selected upper asks q all = [] then .error .keyError else .ok (selected upper asks q all) := by
  classical
  obtain ⟨times, ht, hts⟩ : ∃ times, q.times all = .ok times ∧
      ∀ s ∈ all, ((times.map fun c => decide (s.dattim ∈ c)).getD true = true ↔ ∀ t, q.dateTime = some t → AsksTime all t s.dattim) := by
    unfold SiteQuery.times
    cases hq : q.dateTime with
    | none => exact ⟨none, rfl, by simp⟩
    | some t =>
      obtain ⟨l, h1, h2⟩ := resolve_spec all hv t (by
        intro h
        apply hne
        unfold AsksExtreme
        rw [hq]
        rcases h with rfl | rfl <;> simp)
      refine ⟨some l, by dsimp only; rw [h1]; rfl, fun s hs => ?_⟩
      simp [h2 s hs]
  unfold selectSites
  rw [ht, ok_bind]
  dsimp only
  simp only [filterBy_eq, List.filter_filter]
  have key : (all.filter fun s => (q.stationNumber.map fun c => decide (s.number ∈ c)).getD true &&
      ((q.stationId.map fun c => decide (s.id ∈ c.upperAll upper)).getD true &&
      ((times.map fun c => decide (s.dattim ∈ c)).getD true && ((q.bbox.map fun c => c.holds s.lat s.lon).getD true &&
      ((q.state.map fun c => decide (s.state ∈ arg c)).getD true && (q.country.map fun c => decide (s.country ∈ arg c)).getD true))))) =
      selected upper asks q all := by
    unfold selected
    refine List.filter_congr fun s hs => ?_
    rw [Bool.eq_iff_iff, decide_eq_true_eq]
    simp only [Bool.and_eq_true, hts s hs]
    have e1 : (q.stationNumber.map fun c => decide (s.number ∈ c)).getD true = true ↔ ∀ l, q.stationNumber = some l → s.number ∈ l := by
      cases q.stationNumber <;> simp
    have e2 : (q.stationId.map fun c => decide (s.id ∈ c.upperAll upper)).getD true = true ↔ ∀ a, q.stationId = some a → Asks upper a s.id := by
      cases q.stationId <;> simp [asks_all]
    have e3 : (q.bbox.map fun c => c.holds s.lat s.lon).getD true = true ↔ ∀ b, q.bbox = some b → Inside b s.lat s.lon := by
      cases q.bbox <;> simp [holds_iff]
    have e4 : (q.state.map fun c => decide (s.state ∈ arg c)).getD true = true ↔ ∀ a, q.state = some a → asks a s.state := by
      cases q.state <;> simp [harg]
    have e5 : (q.country.map fun c => decide (s.country ∈ arg c)).getD true = true ↔ ∀ a, q.country = some a → asks a s.country := by
      cases q.country <;> simp [harg]
    rw [e1, e2, e3, e4, e5]
    exact ⟨fun ⟨a, b, c, d, e, f⟩ => ⟨b, a, c, e, f, d⟩, fun ⟨b, a, c, e, f, d⟩ => ⟨a, b, c, d, e, f⟩⟩
  rw [key]
  cases selected upper asks q all <;> simp

/-- Asking for the earliest or latest time of a file without sites. -/
theorem selectSites_extreme (upper : Text → Text) (arg : StrArg → List Text) (q : SiteQuery) (h : AsksExtreme q) :
    selectSites upper arg q [] = .error .valueError := by
  unfold selectSites SiteQuery.times
  rcases h with h | h <;> rw [h] <;> rfl

/-! ## Times of opened files exist -/

theorem bind_inv {α β : Type} {x : Except PyErr α} {f : α → Except PyErr β} {y : β} (h : x >>= f = .ok y) :
    ∃ a, x = .ok a ∧ f a = .ok y := by
  cases x with
  | error e => cases h
  | ok a => exact ⟨a, rfl, h⟩

/-- Dates and times in a header exist. -/
def HeaderTimes (h : Header) : Prop := ∀ kv ∈ h, (∀ x, kv.2 = .date x → x.Valid) ∧ ∀ c, kv.2 = .time c → c.Valid

theorem makeTime_valid {w : Int} {c : Clock} (h : makeTime w = .ok c) : c.Valid := by
  unfold makeTime mkClock at h
  split at h
  · cases h
  split at h
  · rename_i h1
    injection h with h
    subst h
    exact ⟨h1.1, h1.2, Nat.succ_pos _, Nat.succ_pos _⟩
  · cases h

theorem conv_times {k : KeyKind} {v : Val} {x : HVal} (h : k.conv v = .ok x) :
    (∀ d, x = .date d → d.Valid) ∧ ∀ c, x = .time c → c.Valid := by
  cases k with
  | text =>
    simp only [KeyKind.conv, Except.map] at h
    split at h
    · cases h
    · injection h with h; subst h; exact ⟨by simp, by simp⟩
  | int =>
    simp only [KeyKind.conv, Except.map] at h
    split at h
    · cases h
    · injection h with h; subst h; exact ⟨by simp, by simp⟩
  | coord =>
    simp only [KeyKind.conv, Except.map] at h
    split at h
    · cases h
    · injection h with h; subst h; exact ⟨by simp, by simp⟩
  | date =>
    change (intOf v >>= fun w => makeDate w >>= fun d => .ok (.date d)) = .ok x at h
    obtain ⟨w, _, h⟩ := bind_inv h
    obtain ⟨d, hd, h⟩ := bind_inv h
    injection h with h
    subst h
    refine ⟨fun d' hd' => ?_, by simp⟩
    injection hd' with hd'
    subst hd'
    exact (C22_reads_valid w d hd).1
  | time =>
    change (intOf v >>= fun w => makeTime w >>= fun d => .ok (.time d)) = .ok x at h
    obtain ⟨w, _, h⟩ := bind_inv h
    obtain ⟨d, hd, h⟩ := bind_inv h
    injection h with h
    subst h
    refine ⟨by simp, fun d' hd' => ?_⟩
    injection hd' with hd'
    subst hd'
    exact makeTime_valid hd

theorem convHeader_times {kind : Text → KeyKind} {ks : List Text} {vs : List Val} {h : Header} (hh : convHeader kind ks vs = .ok h) :
    HeaderTimes h := by
  induction ks generalizing vs h with
  | nil =>
    cases vs with
    | nil => simp only [convHeader] at hh; injection hh with hh; subst hh; intro kv hkv; simp at hkv
    | cons => cases hh
  | cons k ks ih =>
    cases vs with
    | nil => cases hh
    | cons v vs =>
      unfold convHeader at hh
      obtain ⟨x, h1, hh⟩ := bind_inv hh
      obtain ⟨r, h2, hh⟩ := bind_inv hh
      injection hh with hh
      subst hh
      intro kv hkv
      rcases List.mem_cons.1 hkv with rfl | hkv
      · exact conv_times h1
      · exact ih h2 kv hkv

theorem readHeaders_all {α : Type} {e : Endian} {b : Bytes} {fs : List Fmt} {conv : List Val → Except PyErr α} {n : Nat} {p : Int}
    {l : List α} (h : readHeaders e b fs conv n p = .ok l) (P : α → Prop) (hP : ∀ vs x, conv vs = .ok x → P x) : ∀ x ∈ l, P x := by
  induction n generalizing p l with
  | zero => simp only [readHeaders] at h; injection h with h; subst h; simp
  | succ n ih =>
    unfold readHeaders at h
    dsimp only at h
    split at h
    · obtain ⟨x, h1, h⟩ := bind_inv h
      obtain ⟨vs, _, h1⟩ := bind_inv h1
      obtain ⟨r, h2, h⟩ := bind_inv h
      injection h with h
      subst h
      intro y hy
      rcases List.mem_cons.1 hy with rfl | hy
      · exact hP vs _ h1
      · exact ih h2 y hy
    · exact ih h

theorem openStation_times {rk ck : Text → KeyKind} {host : Endian} {b : Bytes} {f : StationFile} (h : openStation rk ck host b = .ok f) :
    (∀ x ∈ f.rows, HeaderTimes x) ∧ ∀ x ∈ f.cols, HeaderTimes x := by
  unfold openStation at h
  obtain ⟨i, _, h⟩ := bind_inv h
  obtain ⟨_, _, h⟩ := bind_inv h
  obtain ⟨rows, h1, h⟩ := bind_inv h
  obtain ⟨_, _, h⟩ := bind_inv h
  obtain ⟨cols, h2, h⟩ := bind_inv h
  injection h with h
  subst h
  exact ⟨readHeaders_all h1 _ fun vs x hx => convHeader_times hx, readHeaders_all h2 _ fun vs x hx => convHeader_times hx⟩

theorem dictGet_mem {h : List (Text × HVal)} {k : Text} {v : HVal} (hv : dictGet h k = some v) : (k, v) ∈ h := by
  induction h with
  | nil => cases hv
  | cons kv r ih =>
    obtain ⟨k', v'⟩ := kv
    unfold dictGet at hv
    split at hv
    · rename_i hk
      injection hv with hv
      subst hk hv
      exact List.mem_cons_self
    · exact List.mem_cons_of_mem _ (ih hv)

theorem headTime_valid {h : Header} (hh : HeaderTimes h) {t : Date × Clock} (ht : headTime h = .ok t) : t.1.Valid ∧ t.2.Valid := by
  have get : ∀ k v, headGet h k = .ok v → ∃ kv ∈ h, kv.2 = v := by
    intro k v hv
    unfold headGet at hv
    split at hv
    · rename_i w hw
      injection hv with hv
      subst hv
      exact ⟨_, dictGet_mem hw, rfl⟩
    · cases hv
  unfold headTime at ht
  obtain ⟨d, h1, ht⟩ := bind_inv ht
  obtain ⟨c, h2, ht⟩ := bind_inv ht
  obtain ⟨x, hx, rfl⟩ := get _ _ h1
  obtain ⟨y, hy, rfl⟩ := get _ _ h2
  unfold combine at ht
  split at ht
  · rename_i e1 e2
    injection ht with ht
    subst ht
    exact ⟨(hh x hx).1 _ e1, (hh y hy).2 _ e2⟩
  · cases ht

theorem mapM_all {α β : Type} {f : α → Except PyErr β} {l : List α} {r : List β} (h : l.mapM f = .ok r) (P : β → Prop)
    (hP : ∀ x ∈ l, ∀ y, f x = .ok y → P y) : ∀ y ∈ r, P y := by
  induction l generalizing r with
  | nil => simp only [List.mapM_nil] at h; injection h with h; subst h; simp
  | cons a l ih =>
    rw [List.mapM_cons] at h
    obtain ⟨x, h1, h⟩ := bind_inv h
    obtain ⟨s, h2, h⟩ := bind_inv h
    injection h with h
    subst h
    intro y hy
    rcases List.mem_cons.1 hy with rfl | hy
    · exact hP a List.mem_cons_self _ h1
    · exact ih h2 (fun z hz => hP z (List.mem_cons_of_mem _ hz)) y hy

theorem sfinfo_times {host : Endian} {b : Bytes} {g : SurfaceReader} (h : openSurface host b = .ok g) : TimesExist g.sfinfo := by
  unfold openSurface at h
  obtain ⟨f, h1, h⟩ := bind_inv h
  obtain ⟨t, _, h⟩ := bind_inv h
  obtain ⟨infos, h2, h⟩ := bind_inv h
  injection h with h
  subst h
  obtain ⟨hr, hc⟩ := openStation_times h1
  intro s hs
  unfold SurfaceReader.sfinfo at hs
  rw [(List.mergeSort_perm _ _).mem_iff] at hs
  dsimp only at hs
  revert s
  refine mapM_all h2 (fun s => s.dattim.1.Valid ∧ s.dattim.2.Valid) ?_
  intro c hc1 s hs
  have hct : HeaderTimes c.time := by
    have hc2 := (List.mem_filter.1 hc1).1
    have mz : ∀ {l : List Header} {x : Header × Nat}, x ∈ l.zipIdx → x.1 ∈ l := by
      intro l x hx
      have := List.mem_map_of_mem (f := Prod.fst) hx
      rwa [List.zipIdx_map_fst] at this
    unfold SfType.cells at hc2
    split at hc2
    · unfold standardCells at hc2
      obtain ⟨r, h3, h4⟩ := List.mem_flatMap.1 hc2
      obtain ⟨d, h5, rfl⟩ := List.mem_map.1 h4
      exact hr _ (mz h3)
    · obtain ⟨d, h5, rfl⟩ := List.mem_map.1 hc2
      exact hc _ (mz h5)
    · obtain ⟨r, h3, h4⟩ := List.mem_flatMap.1 hc2
      obtain ⟨d, h5, rfl⟩ := List.mem_map.1 h4
      exact hc _ (mz h3)
  unfold surfaceInfo at hs
  obtain ⟨t, ht, hs⟩ := bind_inv hs
  obtain ⟨_, _, hs⟩ := bind_inv hs
  obtain ⟨_, _, hs⟩ := bind_inv hs
  obtain ⟨_, _, hs⟩ := bind_inv hs
  obtain ⟨_, _, hs⟩ := bind_inv hs
  obtain ⟨_, _, hs⟩ := bind_inv hs
  obtain ⟨_, _, hs⟩ := bind_inv hs
  obtain ⟨_, _, hs⟩ := bind_inv hs
  obtain ⟨_, _, hs⟩ := bind_inv hs
  injection hs with hs
  subst hs
  exact headTime_valid hct ht

theorem sninfo_times {host : Endian} {b : Bytes} {g : SoundingReader} (h : openSounding host b = .ok g) : TimesExist g.sninfo := by
  unfold openSounding at h
  obtain ⟨f, h1, h⟩ := bind_inv h
  dsimp only at h
  obtain ⟨infos, h2, h⟩ := bind_inv h
  injection h with h
  subst h
  obtain ⟨hr, hc⟩ := openStation_times h1
  intro s hs
  unfold SoundingReader.sninfo at hs
  rw [(List.mergeSort_perm _ _).mem_iff] at hs
  dsimp only at hs
  revert s
  refine mapM_all h2 (fun s => s.dattim.1.Valid ∧ s.dattim.2.Valid) ?_
  intro c hc1 s hs
  have hct : HeaderTimes c.time := by
    have hc2 := (List.mem_filter.1 hc1).1
    unfold standardCells at hc2
    obtain ⟨r, h3, h4⟩ := List.mem_flatMap.1 hc2
    obtain ⟨d, h5, rfl⟩ := List.mem_map.1 h4
    have := List.mem_map_of_mem (f := Prod.fst) h3
    rw [List.zipIdx_map_fst] at this
    exact hr _ this
  unfold soundingInfo at hs
  obtain ⟨t, ht, hs⟩ := bind_inv hs
  obtain ⟨_, _, hs⟩ := bind_inv hs
  obtain ⟨_, _, hs⟩ := bind_inv hs
  obtain ⟨_, _, hs⟩ := bind_inv hs
  obtain ⟨_, _, hs⟩ := bind_inv hs
  obtain ⟨_, _, hs⟩ := bind_inv hs
  obtain ⟨_, _, hs⟩ := bind_inv hs
  obtain ⟨_, _, hs⟩ := bind_inv hs
  injection hs with hs
  subst hs
  exact headTime_valid hct ht

end Gempak
