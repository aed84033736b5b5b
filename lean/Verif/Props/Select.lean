import Verif.Proof.Select
import Verif.Props.Surface
import Verif.Props.Sounding

/-!
# Queries for surface reports and soundings (C35, C36)
-/

namespace Gempak
open Spec

set_option linter.unusedSectionVars false

variable {ρ κ : Type} [DecidableEq κ]

/-- What was obtained, if anything. -/
def got {γ : Type} (x : Except PyErr (List γ)) : List γ := x.toOption.getD []

theorem got_of {γ : Type} {x : Except PyErr (List γ)} (h : ∃ l, x = .ok l) : x = .ok (got x) := by
  obtain ⟨l, rfl⟩ := h
  rfl

theorem mapM_each {α β : Type} {f : α → Except PyErr β} {l : List α} {r : List β} (h : l.mapM f = .ok r) :
    ∀ x ∈ l, ∃ y, f x = .ok y := by
  induction l generalizing r with
  | nil => simp
  | cons a l ih =>
    rw [List.mapM_cons] at h
    obtain ⟨x, h1, h⟩ := bind_inv h
    obtain ⟨s, h2, h⟩ := bind_inv h
    intro z hz
    rcases List.mem_cons.1 hz with rfl | hz
    · exact ⟨x, h1⟩
    · exact ih h2 z hz

/-- Reading cells and making objects of what is kept. -/
def makeObjects {α γ δ : Type} (read : α → Except PyErr (List γ)) (keep : γ → Bool) (make : γ → Except PyErr δ) (m : List α) :
    Except PyErr (List δ) := do
  let data ← m.mapM read
  (data.flatten.filter keep).mapM make

/-- The objects of one cell. -/
def cellObjects {α γ δ : Type} (read : α → Except PyErr (List γ)) (keep : γ → Bool) (make : γ → Except PyErr δ) (s : α) :
    Except PyErr (List δ) := do
  let c ← read s
  (c.filter keep).mapM make

theorem makeObjects_ok {α γ δ : Type} {read : α → Except PyErr (List γ)} {keep : γ → Bool} {make : γ → Except PyErr δ} {m : List α}
    (h : ∀ s ∈ m, ∃ l, cellObjects read keep make s = .ok l) :
    makeObjects read keep make m = .ok (m.flatMap fun s => got (cellObjects read keep make s)) := by
  have h1 : ∀ s ∈ m, read s = .ok (got (read s)) := by
    intro s hs
    obtain ⟨l, hl⟩ := h s hs
    obtain ⟨c, hc, _⟩ := bind_inv hl
    exact got_of ⟨c, hc⟩
  unfold makeObjects
  rw [mapM_ok h1, ok_bind]
  induction m with
  | nil => rfl
  | cons a m ih =>
    rw [List.map_cons, List.flatten_cons, List.filter_append, List.mapM_append,
      ih (fun s hs => h s (List.mem_cons_of_mem _ hs)) (fun s hs => h1 s (List.mem_cons_of_mem _ hs))]
    have h2 : ((got (read a)).filter keep).mapM make = .ok (got (cellObjects read keep make a)) := by
      have h3 : cellObjects read keep make a = ((got (read a)).filter keep).mapM make := by
        unfold cellObjects
        rw [h1 a List.mem_cons_self, ok_bind]
        rfl
      rw [← h3]
      exact got_of (h a List.mem_cons_self)
    rw [h2]
    rfl

theorem makeObjects_inv {α γ δ : Type} {read : α → Except PyErr (List γ)} {keep : γ → Bool} {make : γ → Except PyErr δ} {m : List α}
    {out : List δ} (h : makeObjects read keep make m = .ok out) : ∀ s ∈ m, ∃ l, cellObjects read keep make s = .ok l := by
  unfold makeObjects at h
  obtain ⟨data, h1, h⟩ := bind_inv h
  induction m generalizing data out with
  | nil => simp
  | cons a m ih =>
    rw [List.mapM_cons] at h1
    obtain ⟨c, h2, h1⟩ := bind_inv h1
    obtain ⟨d, h3, h1⟩ := bind_inv h1
    injection h1 with h1
    subst h1
    rw [List.flatten_cons, List.filter_append, List.mapM_append] at h
    obtain ⟨x, h4, h⟩ := bind_inv h
    obtain ⟨y, h5, h⟩ := bind_inv h
    intro s hs
    rcases List.mem_cons.1 hs with rfl | hs
    · unfold cellObjects
      rw [h2, ok_bind]
      exact ⟨x, h4⟩
    · exact ih (by rw [h3, ok_bind]; exact h5) d h3 h5 s hs

theorem selected_sub (upper : Text → Text) (asks : StrArg → Text → Prop) (q : SiteQuery) (all : List SiteInfo) :
    ∀ s ∈ selected upper asks q all, s ∈ all := fun _ h => (List.mem_filter.1 h).1

theorem sfjson_eq (g : SurfaceReader) (upper lower : Text → Text) (q : SiteQuery) (special : Bool) :
    g.sfjson upper lower q special = selectSites upper (StrArg.upperAll upper) q g.sfinfo >>=
      makeObjects (fun s : SiteInfo => g.unpackCell s.row s.col) (fun stn => special || !(dictGet stn (txt "SPCL")).isSome)
        (sfObject lower) := rfl

/-- C36 (part): once a file can be read as a whole, every query returns the reports of exactly those listed sites that satisfy every
criterion, each once and in the order of the list, and raises `KeyError` exactly when there are none.  Missing: files without
any report, see `C36_empty`. -/
theorem C36_selection_partial (host : Endian) (b : Bytes) (g : SurfaceReader) (upper lower : Text → Text) (special : Bool) (all : List SfObj)
    (ho : openSurface host b = .ok g) (hall : g.sfjson upper lower {} special = .ok all) :
    ∃ reports : SiteInfo → List SfObj, all = g.sfinfo.flatMap reports ∧
      ∀ q, g.sfjson upper lower q special = if selected upper (Asks upper) q g.sfinfo = [] then .error .keyError
        else .ok ((selected upper (Asks upper) q g.sfinfo).flatMap reports) := by
  rw [sfjson_eq, selectSites_all] at hall
  split at hall
  · cases hall
  rename_i hlen
  rw [ok_bind] at hall
  have hcell := makeObjects_inv hall
  rw [makeObjects_ok hcell] at hall
  refine ⟨_, (Except.ok.inj hall).symm, fun q => ?_⟩
  rw [sfjson_eq, selectSites_spec upper _ (Asks upper) (asks_all upper) q _ (sfinfo_times ho) (by
    intro _ h; rw [h] at hlen; simp at hlen)]
  by_cases h0 : selected upper (Asks upper) q g.sfinfo = []
  · rw [if_pos h0, if_pos h0]; rfl
  · rw [if_neg h0, if_neg h0, ok_bind]
    exact makeObjects_ok fun s hs => hcell s (selected_sub _ _ _ _ s hs)

/-- C36: in a file without reports every query raises, `ValueError` when the earliest or latest time is asked for and `KeyError`
otherwise. -/
theorem C36_empty (g : SurfaceReader) (upper lower : Text → Text) (special : Bool) (q : SiteQuery) (h : g.sfinfo = []) :
    (AsksExtreme q → g.sfjson upper lower q special = .error .valueError) ∧
      (¬ AsksExtreme q → g.sfjson upper lower q special = .error .keyError) := by
  constructor
  · intro hq
    rw [sfjson_eq, h, selectSites_extreme upper _ q hq]; rfl
  · intro hq
    rw [sfjson_eq, h, selectSites_spec upper _ (Asks upper) (asks_all upper) q _ (by intro s hs; simp at hs) (fun h => absurd h hq)]
    rfl

/-- A listed place is listed once: no two entries of `sfinfo` are for the same cell. -/
theorem cells_nodup (t : SfType) (rows cols : List Header) : ((t.cells rows cols).map fun c => (c.row, c.col)).Nodup := by
  have nz : ∀ l : List Header, (l.zipIdx.map Prod.snd).Nodup := by
    intro l
    rw [List.zipIdx_map_snd]
    exact List.nodup_range'
  have prod : ∀ (l m : List Header) (f : Nat → Nat → Nat × Nat), (∀ a b c d, f a b = f c d → a = c ∧ b = d) →
      (l.zipIdx.flatMap fun r => m.zipIdx.map fun c => f r.2 c.2).Nodup := by
    intro l m f hf
    have e : (l.zipIdx.flatMap fun r => m.zipIdx.map fun c => f r.2 c.2) =
        (l.zipIdx.map Prod.snd).flatMap fun a => (m.zipIdx.map Prod.snd).map fun b => f a b := by
      rw [List.flatMap_map]
      simp only [List.map_map]
      rfl
    rw [e, List.nodup_flatMap]
    refine ⟨fun a _ => (nz m).map (fun b b' h => (hf _ _ _ _ h).2), ?_⟩
    refine (nz l).imp ?_
    intro a a' hne x hx hx'
    obtain ⟨b, _, rfl⟩ := List.mem_map.1 hx
    obtain ⟨b', _, h⟩ := List.mem_map.1 hx'
    exact hne (hf _ _ _ _ h).1.symm
  unfold SfType.cells
  split
  · unfold standardCells
    rw [List.map_flatMap]
    simp only [List.map_map]
    exact prod rows cols (fun a b => (a, b)) (fun a b c d h => Prod.mk.inj h)
  · rw [List.map_map]
    have : (((fun c : CellRef => (c.row, c.col)) ∘ fun c : Header × Nat => ⟨0, c.2, c.1, c.1⟩) : Header × Nat → Nat × Nat) =
        (fun k => (0, k)) ∘ Prod.snd := rfl
    rw [this, ← List.map_map]
    exact (nz cols).map (fun a b h => (Prod.mk.inj h).2)
  · rw [List.map_flatMap]
    simp only [List.map_map]
    exact prod cols rows (fun a b => (b, a)) (fun a b c d h => ⟨(Prod.mk.inj h).2, (Prod.mk.inj h).1⟩)

theorem mapM_map_fst {α β γ : Type} {f : α → Except PyErr β} {k : α → γ} {k' : β → γ} {l : List α} {r : List β}
    (h : l.mapM f = .ok r) (hk : ∀ x y, f x = .ok y → k' y = k x) : r.map k' = l.map k := by
  induction l generalizing r with
  | nil => simp only [List.mapM_nil] at h; injection h with h; subst h; rfl
  | cons a l ih =>
    rw [List.mapM_cons] at h
    obtain ⟨x, h1, h⟩ := bind_inv h
    obtain ⟨s, h2, h⟩ := bind_inv h
    injection h with h
    subst h
    rw [List.map_cons, List.map_cons, ih h2, hk _ _ h1]

/-- C36: the list of a file names no cell twice. -/
theorem C36_listing (host : Endian) (b : Bytes) (g : SurfaceReader) (ho : openSurface host b = .ok g) :
    (g.sfinfo.map fun s => (s.row, s.col)).Nodup := by
  unfold openSurface at ho
  obtain ⟨f, h1, ho⟩ := bind_inv ho
  obtain ⟨t, _, ho⟩ := bind_inv ho
  obtain ⟨infos, h2, ho⟩ := bind_inv ho
  injection ho with ho
  subst ho
  unfold SurfaceReader.sfinfo
  rw [((List.mergeSort_perm _ _).map _).nodup_iff]
  dsimp only
  rw [mapM_map_fst (k := fun c : CellRef => (c.row, c.col)) h2]
  · exact (cells_nodup t f.rows f.cols).sublist (List.filter_sublist.map _)
  · intro c s hs
    unfold surfaceInfo at hs
    obtain ⟨_, _, hs⟩ := bind_inv hs
    obtain ⟨_, _, hs⟩ := bind_inv hs
    obtain ⟨_, _, hs⟩ := bind_inv hs
    obtain ⟨_, _, hs⟩ := bind_inv hs
    obtain ⟨_, _, hs⟩ := bind_inv hs
    obtain ⟨_, _, hs⟩ := bind_inv hs
    obtain ⟨_, _, hs⟩ := bind_inv hs
    obtain ⟨_, _, hs⟩ := bind_inv hs
    obtain ⟨_, _, hs⟩ := bind_inv hs
    injection hs with hs
    subst hs
    rfl

/-! ## Soundings -/

instance : Inhabited SnObj := ⟨⟨.int 0, .int 0, .int 0, .int 0, .int 0, .int 0, .int 0, (⟨1, 1, 1⟩, ⟨0, 0, 0, 0⟩), [], .int 0, []⟩⟩

/-- Reading and making one object per cell. -/
theorem mapM_mapM_ok {α γ δ : Type} {read : α → Except PyErr γ} {make : γ → Except PyErr δ} {m : List α} {o : α → δ}
    (h : ∀ s ∈ m, read s >>= make = .ok (o s)) : m.mapM read >>= (fun d => d.mapM make) = .ok (m.map o) := by
  induction m with
  | nil => rfl
  | cons a m ih =>
    obtain ⟨x, h1, h2⟩ := bind_inv (h a List.mem_cons_self)
    obtain ⟨d, h3, h4⟩ := bind_inv (ih fun s hs => h s (List.mem_cons_of_mem _ hs))
    rw [List.mapM_cons, h1, ok_bind, h3, ok_bind]
    show List.mapM make (x :: d) = _
    rw [List.mapM_cons, h2, ok_bind, h4]
    rfl

theorem mapM_mapM_inv {α γ δ : Type} {read : α → Except PyErr γ} {make : γ → Except PyErr δ} {m : List α} {out : List δ}
    (h : m.mapM read >>= (fun d => d.mapM make) = .ok out) : ∀ s ∈ m, ∃ o, read s >>= make = .ok o := by
  induction m generalizing out with
  | nil => simp
  | cons a m ih =>
    obtain ⟨d, h1, h⟩ := bind_inv h
    rw [List.mapM_cons] at h1
    obtain ⟨x, h2, h1⟩ := bind_inv h1
    obtain ⟨d', h3, h1⟩ := bind_inv h1
    injection h1 with h1
    subst h1
    rw [List.mapM_cons] at h
    obtain ⟨y, h4, h⟩ := bind_inv h
    obtain ⟨z, h5, h⟩ := bind_inv h
    intro s hs
    rcases List.mem_cons.1 hs with rfl | hs
    · rw [h2, ok_bind]; exact ⟨y, h4⟩
    · exact ih (out := z) (by rw [h3, ok_bind]; exact h5) s hs

theorem snxarray_eq (g : SoundingReader) (upper lower : Text → Text) (q : SiteQuery) (hm : g.merged = true) :
    g.snxarray upper lower q = selectSites upper (StrArg.upperOne upper) q g.sninfo >>= fun m =>
      m.mapM (fun s => g.unpackMerged s.row s.col) >>= fun d => d.mapM (snObject lower) := by
  unfold SoundingReader.snxarray
  cases selectSites upper (StrArg.upperOne upper) q g.sninfo with
  | error e => rfl
  | ok m => rw [ok_bind, ok_bind, if_neg (by simp [hm])]

/-- C35 (part): once a file of merged soundings can be read as a whole, every query returns exactly one sounding for each listed
one that satisfies every criterion, in the order of the list, and raises `KeyError` exactly when there are none.  Lists of
states or countries are compared as they are, see `C35_case`.  Missing: files without soundings, see `C35_empty`. -/
theorem C35_selection_partial (host : Endian) (b : Bytes) (g : SoundingReader) (upper lower : Text → Text) (all : List SnObj)
    (ho : openSounding host b = .ok g) (hm : g.merged = true) (hall : g.snxarray upper lower {} = .ok all) :
    ∃ sounding : SiteInfo → SnObj, all = g.sninfo.map sounding ∧
      ∀ q, g.snxarray upper lower q = if selected upper (AsksExactly upper) q g.sninfo = [] then .error .keyError
        else .ok ((selected upper (AsksExactly upper) q g.sninfo).map sounding) := by
  rw [snxarray_eq _ _ _ _ hm, selectSites_all] at hall
  split at hall
  · cases hall
  rename_i hlen
  rw [ok_bind] at hall
  have hcell := mapM_mapM_inv hall
  have hcell' : ∀ s ∈ g.sninfo, (g.unpackMerged s.row s.col >>= snObject lower) =
      .ok ((g.unpackMerged s.row s.col >>= snObject lower).toOption.getD default) := by
    intro s hs
    obtain ⟨o, h⟩ := hcell s hs
    rw [h]; rfl
  rw [mapM_mapM_ok hcell'] at hall
  refine ⟨_, (Except.ok.inj hall).symm, fun q => ?_⟩
  rw [snxarray_eq _ _ _ _ hm, selectSites_spec upper _ (AsksExactly upper) (asks_one upper) q _ (sninfo_times ho) (by
    intro _ h; rw [h] at hlen; simp at hlen)]
  by_cases h0 : selected upper (AsksExactly upper) q g.sninfo = []
  · rw [if_pos h0, if_pos h0]; rfl
  · rw [if_neg h0, if_neg h0, ok_bind]
    exact mapM_mapM_ok fun s hs => hcell' s (selected_sub _ _ _ _ s hs)

/-- C35: in a file without soundings every query raises, `ValueError` when the earliest or latest time is asked for and `KeyError`
otherwise. -/
theorem C35_empty (g : SoundingReader) (upper lower : Text → Text) (q : SiteQuery) (h : g.sninfo = []) (hm : g.merged = true) :
    (AsksExtreme q → g.snxarray upper lower q = .error .valueError) ∧ (¬ AsksExtreme q → g.snxarray upper lower q = .error .keyError) := by
  rw [snxarray_eq _ _ _ _ hm, h]
  constructor
  · intro hq
    rw [selectSites_extreme upper _ q hq]; rfl
  · intro hq
    rw [selectSites_spec upper _ (AsksExactly upper) (asks_one upper) q _ (by intro s hs; simp at hs) (fun h => absurd h hq)]
    rfl

/-- C35: a state given in lower case selects soundings when given alone, and raises `KeyError` when given as a list of one. -/
theorem C35_case (host : Endian) (b : Bytes) (g : SoundingReader) (upper lower : Text → Text) (all : List SnObj)
    (ho : openSounding host b = .ok g) (hm : g.merged = true) (hall : g.snxarray upper lower {} = .ok all)
    (s : SiteInfo) (hs : s ∈ g.sninfo) (x : Text) (hx : upper x = s.state) (hno : ∀ t ∈ g.sninfo, t.state ≠ x) :
    (∃ out, g.snxarray upper lower { state := some (.one x) } = .ok out ∧ out ≠ []) ∧
      g.snxarray upper lower { state := some (.many [x]) } = .error .keyError := by
  classical
  obtain ⟨f, _, h⟩ := C35_selection_partial host b g upper lower all ho hm hall
  constructor
  · rw [h]
    have hmem : s ∈ selected upper (AsksExactly upper) { state := some (.one x) } g.sninfo := by
      refine List.mem_filter.2 ⟨hs, ?_⟩
      rw [decide_eq_true_eq]
      refine ⟨by simp, by simp, by simp, ?_, by simp, by simp⟩
      intro a ha
      have := Option.some.inj ha
      subst this
      exact hx.symm
    have hne : selected upper (AsksExactly upper) { state := some (.one x) } g.sninfo ≠ [] := List.ne_nil_of_mem hmem
    rw [if_neg hne]
    exact ⟨_, rfl, fun h0 => hne (List.map_eq_nil_iff.1 h0)⟩
  · rw [h, if_pos]
    refine List.filter_eq_nil_iff.2 fun t ht => ?_
    rw [decide_eq_true_eq]
    intro hw
    have := hw.state _ rfl
    exact hno t ht (by simpa [AsksExactly] using this)

/-- C35: the list of a file names no cell twice. -/
theorem C35_listing (host : Endian) (b : Bytes) (g : SoundingReader) (ho : openSounding host b = .ok g) :
    (g.sninfo.map fun s => (s.row, s.col)).Nodup := by
  unfold openSounding at ho
  obtain ⟨f, h1, ho⟩ := bind_inv ho
  dsimp only at ho
  obtain ⟨infos, h2, ho⟩ := bind_inv ho
  injection ho with ho
  subst ho
  unfold SoundingReader.sninfo
  rw [((List.mergeSort_perm _ _).map _).nodup_iff]
  dsimp only
  rw [mapM_map_fst (k := fun c : CellRef => (c.row, c.col)) h2]
  · exact (cells_nodup .standard f.rows f.cols).sublist (List.filter_sublist.map _)
  · intro c s hs
    unfold soundingInfo at hs
    obtain ⟨_, _, hs⟩ := bind_inv hs
    obtain ⟨_, _, hs⟩ := bind_inv hs
    obtain ⟨_, _, hs⟩ := bind_inv hs
    obtain ⟨_, _, hs⟩ := bind_inv hs
    obtain ⟨_, _, hs⟩ := bind_inv hs
    obtain ⟨_, _, hs⟩ := bind_inv hs
    obtain ⟨_, _, hs⟩ := bind_inv hs
    obtain ⟨_, _, hs⟩ := bind_inv hs
    injection hs with hs
    subst hs
    rfl

/-! ## Written files -/

theorem infoOf_listed {β : Type} [Inhabited β] {env : NumEnv ρ κ} {b : Builder κ β} {p : Pair κ} {x : Entry κ β} (full : Bool)
    (hx : (x.place, x.value) = content b p) (h1 : ∃ n, env.centi p.2.1.slat = .ok n) (h2 : ∃ n, env.centi p.2.1.slon = .ok n) :
    IsListed env full x (infoOf env full p) := by
  have h : x.place = (p.1.1, p.2.1) := (Prod.mk.inj hx).1
  obtain ⟨⟨row, i⟩, ⟨col, j⟩⟩ := p
  obtain ⟨h3, h4⟩ := Prod.mk.inj h
  dsimp only at *
  subst h3 h4
  obtain ⟨n, hn⟩ := h1
  obtain ⟨m, hm⟩ := h2
  refine ⟨rfl, ?_, rfl, ?_, ?_, rfl, rfl, rfl⟩
  · cases full
    · rfl
    · exact List.take_append_drop 4 x.id
  · show env.centi x.lat = .ok (centiD env _)
    rw [centiD_ok hn]; exact hn
  · show env.centi x.lon = .ok (centiD env _)
    rw [centiD_ok hm]; exact hm

/-- Entries side by side with the cells they are in. -/
theorem zip_entries {α γ ε : Type} {g : α → ε} {h : γ → ε} {p : List α} {es : List γ} (he : es.map h = p.map g) :
    ∃ T : List (γ × α), T.map Prod.fst = es ∧ T.map Prod.snd = p ∧ ∀ t ∈ T, h t.1 = g t.2 := by
  have hl : es.length = p.length := by simpa using congrArg List.length he
  refine ⟨es.zip p, List.map_fst_zip (by omega), List.map_snd_zip (by omega), ?_⟩
  intro t ht
  obtain ⟨i, hi, rfl⟩ := List.getElem_of_mem ht
  rw [List.getElem_zip]
  rw [List.length_zip] at hi
  have : (es.map h)[i]? = (p.map g)[i]? := by rw [he]
  simpa [List.getElem?_map, List.getElem?_eq_getElem (show i < es.length by omega),
    List.getElem?_eq_getElem (show i < p.length by omega)] using this

theorem selected_filter {α : Type} (upper : Text → Text) (asks : StrArg → Text → Prop) (q : SiteQuery) (T : List α) (f : α → SiteInfo) :
    selected upper asks q (T.map f) = (T.filter fun t => decide (f t ∈ selected upper asks q (T.map f))).map f := by
  classical
  conv_lhs => unfold selected
  rw [List.filter_map]
  refine congrArg (List.map f) (List.filter_congr fun t ht => ?_)
  rw [Bool.eq_iff_iff, decide_eq_true_eq]
  unfold selected
  rw [List.mem_filter]
  exact ⟨fun h => ⟨List.mem_map_of_mem ht, h⟩, fun h => h.2⟩

/-- C36, C14: in the saved file of any history of `add_station` calls each surviving request is listed and reported once, and a
query returns exactly the reports of the surviving requests whose listed site satisfies every criterion. -/
theorem C36_written (env : NumEnv ρ κ) (upper lower : Text → Text) (ps : List Text) (b0 : Builder κ (List ρ)) (rs : List (AddReq κ ρ))
    (e host : Endian) (bytes : Bytes) (special : Bool) (hnew : newBuilder env ps = .ok b0)
    (hcap : headers (rs.filterMap (sfEntry env b0.names)) ≤ 32000)
    (hn : SurfaceNames lower b0.names) (hes : ∀ x ∈ rs.filterMap (sfEntry env b0.names), x.Legible)
    (hne : rs.filterMap (sfEntry env b0.names) ≠ [])
    (hs : save e (surfaceFile env (run (addStation env) b0 rs)) = .ok bytes) :
    ∃ (g : SurfaceReader) (T : List (Entry κ (List ρ) × SiteInfo × SfObj)), openSurface host bytes = .ok g ∧
      (T.map fun t => t.1).Perm (final (rs.filterMap (sfEntry env b0.names))) ∧ g.sfinfo = T.map (fun t => t.2.1) ∧
      (∀ t ∈ T, IsListed env true t.1 t.2.1 ∧ IsReport env lower b0.names t.1 t.2.2) ∧
      ∀ q, g.sfjson upper lower q special = if selected upper (Asks upper) q g.sfinfo = [] then .error .keyError
        else .ok ((T.filter fun t => decide (t.2.1 ∈ selected upper (Asks upper) q g.sfinfo)).map fun t => t.2.2) := by
  have hist := run_station (History.new hnew) rs
  rw [List.nil_append] at hist
  have hcap' : (run (addStation env) b0 rs).rows + (run (addStation env) b0 rs).columns ≤ mmhdrs := by
    rw [hist.headers_eq]; exact hcap
  have hlen : ∀ x ∈ rs.filterMap (sfEntry env b0.names), x.value.length = b0.names.length := by
    intro x hx
    obtain ⟨r, _, hr⟩ := List.mem_filterMap.1 hx
    exact sfEntry_length hr
  obtain ⟨g, P, ho, hP, hinfo, hcell⟩ := surface_read (host := host) hist hcap' hn hes hlen hs
  generalize run (addStation env) b0 rs = b at *
  have hperm := (hP.map (content b)).trans (kept_perm hist hcap')
  obtain ⟨es, he1, he2⟩ := perm_map_inv hperm
  have hPne : P ≠ [] := by
    intro h0
    rw [h0, List.map_nil, List.map_eq_nil_iff] at he2
    subst he2
    obtain ⟨x, hx⟩ := List.exists_mem_of_ne_nil _ hne
    obtain ⟨y, hy, _⟩ := final_covers hx
    have := he1.symm.subset hy
    simp at this
  obtain ⟨T, hT1, hT2, hT3⟩ := zip_entries he2
  obtain ⟨val, hval⟩ : ∃ val : Pair κ → List ρ, ∀ p vs, cellOf b p = some vs → val p = vs :=
    ⟨fun p => (cellOf b p).getD [], fun p vs h => by dsimp only; rw [h]; rfl⟩
  have hcells : ∀ p ∈ P, cellObjects (fun s : SiteInfo => g.unpackCell s.row s.col) (fun stn => special || !(dictGet stn (txt "SPCL")).isSome)
      (sfObject lower) (infoOf env true p) = .ok [objOf env lower b0.names p (val p)] := by
    intro p hp
    obtain ⟨vs, h1, h2, h3, h4, h5, _⟩ := hcell p hp
    rw [hval p vs h1]
    unfold cellObjects
    dsimp only
    have h3' : g.unpackCell (infoOf env true p).row (infoOf env true p).col = .ok [reportOf env b0.names p vs] := h3
    rw [h3', ok_bind, List.filter_cons_of_pos (by rw [h5]; simp), List.filter_nil, List.mapM_cons, h4]
    rfl
  refine ⟨g, T.map fun t => (t.1, infoOf env true t.2, objOf env lower b0.names t.2 (val t.2)), ho, ?_, ?_, ?_, ?_⟩
  · rw [List.map_map]
    have : ((fun t => t.1) ∘ fun t : Entry κ (List ρ) × Pair κ => (t.1, infoOf env true t.2, objOf env lower b0.names t.2 (val t.2))) = Prod.fst := rfl
    rw [this, hT1]
    exact he1
  · rw [List.map_map, hinfo, ← hT2, List.map_map]
    rfl
  · intro t ht
    obtain ⟨⟨x, p⟩, hxp, rfl⟩ := List.mem_map.1 ht
    have hp : p ∈ P := by rw [← hT2]; exact List.mem_map.2 ⟨_, hxp, rfl⟩
    have hx := hT3 _ hxp
    dsimp only at hx ⊢
    obtain ⟨vs, h1, h2, h3, h4, h5, h6, h7, h8⟩ := hcell p hp
    refine ⟨infoOf_listed true hx h7 h8, ?_⟩
    rw [hval p vs h1]
    refine objOf_report ?_ h2 h6 h7 h8
    have h9 : content b p = ((p.1.1, p.2.1), vs) := by unfold content; rw [h1, Option.getD_some]
    exact Eq.trans hx h9
  · intro q
    have hinfo' : g.sfinfo = T.map fun t => infoOf env true t.2 := by
      rw [hinfo, ← hT2, List.map_map]; rfl
    rw [sfjson_eq, selectSites_spec upper _ (Asks upper) (asks_all upper) q _ (sfinfo_times ho) (by
      intro _ h
      rw [hinfo] at h
      exact hPne (List.map_eq_nil_iff.1 h))]
    by_cases h0 : selected upper (Asks upper) q g.sfinfo = []
    · rw [if_pos h0, if_pos h0]; rfl
    · rw [if_neg h0, if_neg h0, ok_bind, makeObjects_ok]
      · rw [List.filter_map, List.map_map]
        refine congrArg Except.ok ?_
        conv_lhs => rw [hinfo', selected_filter, ← hinfo']
        rw [List.flatMap_map]
        have : ∀ T' : List (Entry κ (List ρ) × Pair κ), (∀ t ∈ T', t.2 ∈ P) → (T'.flatMap fun t => got (cellObjects
            (fun s : SiteInfo => g.unpackCell s.row s.col) (fun stn => special || !(dictGet stn (txt "SPCL")).isSome) (sfObject lower)
            (infoOf env true t.2))) = T'.map fun t => objOf env lower b0.names t.2 (val t.2) := by
          intro T' hT'
          induction T' with
          | nil => rfl
          | cons t T' ih =>
            rw [List.flatMap_cons, List.map_cons, hcells t.2 (hT' t List.mem_cons_self), ih fun t ht => hT' t (List.mem_cons_of_mem _ ht)]
            rfl
        rw [this]
        · rfl
        · intro t ht
          rw [← hT2]
          exact List.mem_map_of_mem (List.mem_filter.1 ht).1
      · intro s hs
        have := selected_sub _ _ _ _ s hs
        rw [hinfo] at this
        obtain ⟨p, hp, rfl⟩ := List.mem_map.1 this
        exact ⟨_, hcells p hp⟩

/-- C35, C15: the same for soundings with levels. -/
theorem C35_written (env : NumEnv ρ κ) (upper lower : Text → Text) (ps : List Text) (b0 : Builder κ (List (List ρ)))
    (rs : List (AddReq κ (List ρ))) (e host : Endian) (bytes : Bytes) (hnew : newBuilder env ps = .ok b0)
    (hcap : headers (rs.filterMap (snEntry env b0.names)) ≤ 32000) (hn : SoundingNames lower b0.names)
    (hes : ∀ x ∈ rs.filterMap (snEntry env b0.names), x.Legible)
    (hpos : ∀ x ∈ rs.filterMap (snEntry env b0.names), ∀ c ∈ x.value, c ≠ [])
    (hne : rs.filterMap (snEntry env b0.names) ≠ [])
    (hs : save e (soundingFile env (run (addSounding env) b0 rs)) = .ok bytes) :
    ∃ (g : SoundingReader) (T : List (Entry κ (List (List ρ)) × SiteInfo × SnObj)), openSounding host bytes = .ok g ∧
      (T.map fun t => t.1).Perm (final (rs.filterMap (snEntry env b0.names))) ∧ g.sninfo = T.map (fun t => t.2.1) ∧
      (∀ t ∈ T, IsListed env false t.1 t.2.1 ∧ IsSounding env lower b0.names t.1 t.2.2) ∧
      ∀ q, g.snxarray upper lower q = if selected upper (AsksExactly upper) q g.sninfo = [] then .error .keyError
        else .ok ((T.filter fun t => decide (t.2.1 ∈ selected upper (AsksExactly upper) q g.sninfo)).map fun t => t.2.2) := by
  have hist := run_sounding (History.new hnew) rs
  rw [List.nil_append] at hist
  have hcap' : (run (addSounding env) b0 rs).rows + (run (addSounding env) b0 rs).columns ≤ mmhdrs := by
    rw [hist.headers_eq]; exact hcap
  obtain ⟨g, P, ho, hmg, hP, hinfo, hcell⟩ := sounding_read (host := host) hist hcap' hn hes (by
    intro x hx
    obtain ⟨r, _, hr⟩ := List.mem_filterMap.1 hx
    exact ⟨(snEntry_value hr).1, (snEntry_value hr).2.1⟩) hs
  generalize run (addSounding env) b0 rs = b at *
  have hperm := (hP.map (content b)).trans (kept_perm hist hcap')
  obtain ⟨es, he1, he2⟩ := perm_map_inv hperm
  have hPne : P ≠ [] := by
    intro h0
    rw [h0, List.map_nil, List.map_eq_nil_iff] at he2
    subst he2
    obtain ⟨x, hx⟩ := List.exists_mem_of_ne_nil _ hne
    obtain ⟨y, hy, _⟩ := final_covers hx
    have := he1.symm.subset hy
    simp at this
  obtain ⟨T, hT1, hT2, hT3⟩ := zip_entries he2
  obtain ⟨val, hval⟩ : ∃ val : Pair κ → SnObj, ∀ p ∈ P, (g.unpackMerged (infoOf env false p).row (infoOf env false p).col >>= snObject lower) = .ok (val p) ∧
      ∀ x, (x.place, x.value) = content b p → IsListed env false x (infoOf env false p) ∧ IsSounding env lower b0.names x (val p) := by
    have : ∀ p : Pair κ, ∃ y : SnObj, p ∈ P → (g.unpackMerged (infoOf env false p).row (infoOf env false p).col >>= snObject lower) = .ok y ∧
        ∀ x, (x.place, x.value) = content b p → IsListed env false x (infoOf env false p) ∧ IsSounding env lower b0.names x y := by
      intro p
      by_cases hp : p ∈ P
      · obtain ⟨cols, a1, a2, ⟨x0, hx0, hx1⟩, a4, a5, a6, a7⟩ := hcell p hp
        obtain ⟨lev, h1, h2⟩ := snObject_spec (env := env) hn p a2 (by
          have := hpos x0 hx0
          rwa [hx1] at this)
        have a4' : g.unpackMerged (infoOf env false p).row (infoOf env false p).col = .ok (soundingOf env b0.names p cols) := a4
        refine ⟨snObjOf env lower b0.names p cols lev, fun _ => ⟨by rw [a4', ok_bind]; exact h2, fun x hx => ⟨infoOf_listed false hx a6 a7, ?_⟩⟩⟩
        have h9 : content b p = ((p.1.1, p.2.1), cols) := by
          unfold content; rw [a1, Option.getD_some]
        exact snObj_report (Eq.trans hx h9) h1 a5 a6 a7
      · exact ⟨default, fun h => absurd h hp⟩
    exact ⟨fun p => (this p).choose, fun p hp => (this p).choose_spec hp⟩
  refine ⟨g, T.map fun t => (t.1, infoOf env false t.2, val t.2), ho, ?_, ?_, ?_, ?_⟩
  · rw [List.map_map]
    have : ((fun t => t.1) ∘ fun t : Entry κ (List (List ρ)) × Pair κ => (t.1, infoOf env false t.2, val t.2)) = Prod.fst := rfl
    rw [this, hT1]
    exact he1
  · rw [List.map_map, hinfo, ← hT2, List.map_map]
    rfl
  · intro t ht
    obtain ⟨⟨x, p⟩, hxp, rfl⟩ := List.mem_map.1 ht
    have hp : p ∈ P := by rw [← hT2]; exact List.mem_map.2 ⟨_, hxp, rfl⟩
    exact (hval p hp).2 x (hT3 _ hxp)
  · intro q
    have hinfo' : g.sninfo = T.map fun t => infoOf env false t.2 := by
      rw [hinfo, ← hT2, List.map_map]; rfl
    rw [snxarray_eq _ _ _ _ hmg, selectSites_spec upper _ (AsksExactly upper) (asks_one upper) q _ (sninfo_times ho) (by
      intro _ h
      rw [hinfo] at h
      exact hPne (List.map_eq_nil_iff.1 h))]
    by_cases h0 : selected upper (AsksExactly upper) q g.sninfo = []
    · rw [if_pos h0, if_pos h0]; rfl
    · rw [if_neg h0, if_neg h0, ok_bind, List.filter_map, List.map_map]
      conv_lhs => rw [hinfo', selected_filter, ← hinfo', List.mapM_map]
      refine mapM_mapM_ok (o := fun t : Entry κ (List (List ρ)) × Pair κ => val t.2) fun t ht => ?_
      refine (hval t.2 ?_).1
      rw [← hT2]
      exact List.mem_map_of_mem (List.mem_filter.1 ht).1

/-! ## Concrete files -/

/-- The history of Props/Surface: a query for one of its stations is answered by its report, one for an unknown station is refused. -/
theorem someSelection : ∃ (bytes : Bytes) (g : SurfaceReader), openSurface .little bytes = .ok g ∧
    (∃ o, g.sfjson id id { stationId := some (.one (txt "KDENVER")) } true = .ok o ∧ o ≠ []) ∧
    g.sfjson id id { stationId := some (.one (txt "KXYZ")) } true = .error .keyError := by
  classical
  have hnew : newBuilder intEnv someNames = .ok (⟨someNames, ⟨[]⟩, ⟨[]⟩, [], 0, 0, [], []⟩ : Builder Int (List F32)) := rfl
  have hn : SurfaceNames id someNames := by
    constructor <;> decide +kernel
  have hleg : ∀ x ∈ someRequests.filterMap (sfEntry intEnv someNames), x.Legible := by
    rw [someEntries]
    intro x hx
    simp only [List.mem_cons, List.not_mem_nil, or_false] at hx
    rcases hx with rfl | rfl | rfl <;> constructor <;> decide +kernel
  have hw : ∀ x ∈ someRequests.filterMap (sfEntry intEnv someNames), x.Writable intEnv := by
    rw [someEntries]
    intro x hx
    simp only [List.mem_cons, List.not_mem_nil, or_false] at hx
    rcases hx with rfl | rfl | rfl <;>
      exact ⟨by decide, by decide, by decide, ⟨_, rfl, by decide⟩, _, rfl, by decide⟩
  have hcap : headers (someRequests.filterMap (sfEntry intEnv someNames)) ≤ 32000 := by
    rw [someEntries]; decide +kernel
  have hne : someRequests.filterMap (sfEntry intEnv someNames) ≠ [] := by rw [someEntries]; simp
  obtain ⟨bytes, hs⟩ := C14_saves intEnv someNames _ someRequests .little hnew hcap (fun x hx => ⟨(hleg x hx).date, (hleg x hx).clock⟩)
    hw (fun _ _ v _ => ⟨v, rfl⟩) (by decide +kernel)
  obtain ⟨g, T, h1, h2, h3, h4, h5⟩ := C36_written intEnv id id someNames _ someRequests .little .little bytes true hnew hcap hn hleg hne hs
  have hfin : final (someRequests.filterMap (sfEntry intEnv someNames)) =
      [⟨⟨2020, 2, 29⟩, ⟨12, 0, 0, 0⟩, [], -9999, 35, -97, -9999, [], [], 0, [3, 4]⟩,
       ⟨⟨2020, 2, 29⟩, ⟨12, 0, 0, 0⟩, txt "KDENVER", 724690, 40, -105, -9999, [], [], 0, [6, 7]⟩] := by
    rw [someEntries]; decide +kernel
  rw [hfin] at h2
  refine ⟨bytes, g, h1, ?_, ?_⟩
  · obtain ⟨t, ht, ht1⟩ := List.mem_map.1 (h2.symm.subset (List.mem_cons_of_mem _ (List.mem_singleton_self _)))
    have hid := (h4 t ht).1.id
    rw [ht1] at hid
    have hsel : t.2.1 ∈ selected id (Asks id) { stationId := some (.one (txt "KDENVER")) } g.sfinfo := by
      refine List.mem_filter.2 ⟨by rw [h3]; exact List.mem_map_of_mem ht, ?_⟩
      rw [decide_eq_true_eq]
      refine ⟨?_, by simp, by simp, by simp, by simp, by simp⟩
      intro a ha
      have := Option.some.inj ha
      subst this
      exact hid.trans (by decide +kernel)
    rw [h5, if_neg (List.ne_nil_of_mem hsel)]
    refine ⟨_, rfl, List.ne_nil_of_mem (List.mem_map_of_mem (List.mem_filter.2 ⟨ht, by rw [decide_eq_true_eq]; exact hsel⟩))⟩
  · rw [h5, if_pos]
    refine List.filter_eq_nil_iff.2 fun s hs => ?_
    rw [decide_eq_true_eq]
    intro hw
    rw [h3] at hs
    obtain ⟨t, ht, rfl⟩ := List.mem_map.1 hs
    have hid := (h4 t ht).1.id
    have hx : t.2.1.id = txt "KXYZ" := hw.id _ rfl
    rw [hx] at hid
    have hm := h2.subset (List.mem_map_of_mem (f := fun t => t.1) ht)
    simp only [List.mem_cons, List.not_mem_nil, or_false] at hm
    rcases hm with hm | hm <;> rw [hm] at hid <;> revert hid <;> decide +kernel

end Gempak
