import Verif.Props.GridSelect
import Verif.Props.Unmerged
import Verif.Props.PlacesValues

/-!
# C129: narrower queries give parts of the results, and queries for several values those of each

Nothing is asked of the rest of the file: when a query is answered, so is every narrower one, unless nothing satisfies it.
-/

namespace Gempak
open Spec

namespace Spec

/-- The texts a criterion names. -/
def textsOf : StrArg → List Text
  | .one x => [x]
  | .many l => l

/-- `n` has every criterion of `w`, with no other values. -/
structure Narrower (n w : SiteQuery) : Prop where
  id : ∀ a, w.stationId = some a → ∃ b, n.stationId = some b ∧ textsOf b ⊆ textsOf a
  number : ∀ l, w.stationNumber = some l → ∃ k, n.stationNumber = some k ∧ k ⊆ l
  time : ∀ t, w.dateTime = some t → n.dateTime = some t ∨ ∃ l k, t = .these l ∧ n.dateTime = some (.these k) ∧ k ⊆ l
  state : ∀ a, w.state = some a → ∃ b, n.state = some b ∧ textsOf b ⊆ textsOf a
  country : ∀ a, w.country = some a → ∃ b, n.country = some b ∧ textsOf b ⊆ textsOf a
  box : ∀ b, w.bbox = some b → ∃ c, n.bbox = some c ∧ b.left ≤ c.left ∧ c.right ≤ b.right ∧ b.bottom ≤ c.bottom ∧ c.top ≤ b.top

/-- Both are texts or both are lists. -/
def SameForm : StrArg → StrArg → Prop
  | .one _, .one _ => True
  | .many _, .many _ => True
  | _, _ => False

/-- States and countries are given in one form. -/
structure StatesAlike (n w : SiteQuery) : Prop where
  state : ∀ a b, w.state = some a → n.state = some b → SameForm b a
  country : ∀ a b, w.country = some a → n.country = some b → SameForm b a

/-- The same for grids. -/
structure GNarrower (n w : GridQuery) : Prop where
  parm : ∀ a, w.parameter = some a → ∃ b, n.parameter = some b ∧ textsOf b ⊆ textsOf a
  time1 : ∀ t, w.dateTime = some t → n.dateTime = some t ∨ ∃ l k, t = .these l ∧ n.dateTime = some (.these k) ∧ k ⊆ l
  coord : ∀ a, w.coordinate = some a → ∃ b, n.coordinate = some b ∧ textsOf b ⊆ textsOf a
  level1 : ∀ l, w.level = some l → ∃ k, n.level = some k ∧ k ⊆ l
  time2 : ∀ t, w.dateTime2 = some t → n.dateTime2 = some t ∨ ∃ l k, t = .these l ∧ n.dateTime2 = some (.these k) ∧ k ⊆ l
  level2 : ∀ l, w.level2 = some l → ∃ k, n.level2 = some k ∧ k ⊆ l

end Spec

/-! ## Reading some of what was read -/

/-- Read every entry, keep parts of what was read, and make objects of them. -/
def collect {ε α γ δ ω : Type} (read : α → Except ε γ) (keep : γ → List δ) (make : δ → Except ε ω) (m : List α) : Except ε (List ω) := do
  let data ← m.mapM read
  (data.flatMap keep).mapM make

theorem exc_inv {ε α β : Type} {x : Except ε α} {f : α → Except ε β} {y : β} (h : x >>= f = .ok y) : ∃ a, x = .ok a ∧ f a = .ok y := by
  cases x with
  | error e => cases h
  | ok a => exact ⟨a, rfl, h⟩

theorem collect_cons {ε α γ δ ω : Type} {read : α → Except ε γ} {keep : γ → List δ} {make : δ → Except ε ω} {a : α} {m : List α} {out : List ω}
    (h : collect read keep make (a :: m) = .ok out) :
    ∃ x y z, read a = .ok x ∧ (keep x).mapM make = .ok y ∧ collect read keep make m = .ok z ∧ out = y ++ z := by
  unfold collect at h
  obtain ⟨d, hd, h⟩ := exc_inv h
  rw [List.mapM_cons] at hd
  obtain ⟨x, hx, hd⟩ := exc_inv hd
  obtain ⟨d', hd', hd⟩ := exc_inv hd
  obtain rfl := Except.ok.inj hd
  rw [List.flatMap_cons, List.mapM_append] at h
  obtain ⟨y, hy, h⟩ := exc_inv h
  obtain ⟨z, hz, h⟩ := exc_inv h
  refine ⟨x, y, z, hx, hy, ?_, (Except.ok.inj h).symm⟩
  unfold collect
  rw [hd']
  exact hz

theorem collect_make {ε α γ δ ω : Type} {read : α → Except ε γ} {keep : γ → List δ} {make : δ → Except ε ω} {f : α → List ω} {m : List α}
    (h : ∀ a ∈ m, ∃ x, read a = .ok x ∧ (keep x).mapM make = .ok (f a)) : collect read keep make m = .ok (m.flatMap f) := by
  induction m with
  | nil => rfl
  | cons a m ih =>
    obtain ⟨x, hx, hy⟩ := h a List.mem_cons_self
    have ih := ih fun b hb => h b (List.mem_cons_of_mem _ hb)
    unfold collect at ih ⊢
    obtain ⟨d, hd, ih⟩ := exc_inv ih
    rw [List.mapM_cons, hx]
    simp only [hd, bind, Except.bind, pure, Except.pure]
    rw [List.flatMap_cons, List.mapM_append, hy]
    simp only [bind, Except.bind, ih, pure, Except.pure]
    rw [List.flatMap_cons]

/-- What is made of each entry does not depend on the others. -/
theorem collect_parts {ε α γ δ ω : Type} {read : α → Except ε γ} {keep : γ → List δ} {make : δ → Except ε ω} {m : List α} {out : List ω}
    (h : collect read keep make m = .ok out) :
    ∃ f : α → List ω, out = m.flatMap f ∧ ∀ m', m' ⊆ m → collect read keep make m' = .ok (m'.flatMap f) := by
  have each : ∀ a ∈ m, ∃ x y, read a = .ok x ∧ (keep x).mapM make = .ok y := by
    induction m generalizing out with
    | nil => intro a ha; cases ha
    | cons b m ih =>
      obtain ⟨x, y, z, hx, hy, hz, _⟩ := collect_cons h
      intro a ha
      rcases List.mem_cons.1 ha with rfl | ha
      · exact ⟨x, y, hx, hy⟩
      · exact ih hz a ha
  refine ⟨fun a => match (do let x ← read a; (keep x).mapM make : Except ε (List ω)) with | .ok l => l | .error _ => [], ?_⟩
  have all : ∀ m', m' ⊆ m → collect read keep make m' = .ok (m'.flatMap fun a =>
      match (do let x ← read a; (keep x).mapM make : Except ε (List ω)) with | .ok l => l | .error _ => []) := by
    intro m' hs
    refine collect_make fun a ha => ?_
    obtain ⟨x, y, hx, hy⟩ := each a (hs ha)
    refine ⟨x, hx, ?_⟩
    simp only [hx, hy, bind, Except.bind]
  refine ⟨?_, all⟩
  have := all m (List.Subset.refl _)
  rw [h] at this
  exact Except.ok.inj this

/-! ## Which entries -/

theorem asks_texts (upper : Text → Text) (a : StrArg) (t : Text) : Asks upper a t ↔ ∃ x ∈ textsOf a, t = upper x := by
  cases a <;> simp [Asks, textsOf]

theorem asks_narrow {upper : Text → Text} {a b : StrArg} (h : textsOf b ⊆ textsOf a) {t : Text} (hb : Asks upper b t) : Asks upper a t := by
  rw [asks_texts] at hb ⊢
  obtain ⟨x, hx, e⟩ := hb
  exact ⟨x, h hx, e⟩

theorem exactly_narrow {upper : Text → Text} {a b : StrArg} (hf : SameForm b a) (h : textsOf b ⊆ textsOf a) {t : Text} (hb : AsksExactly upper b t) :
    AsksExactly upper a t := by
  cases a with
  | one x =>
    cases b with
    | one y =>
      have : y = x := by simpa [textsOf] using h
      subst this
      exact hb
    | many l => exact hf.elim
  | many k =>
    cases b with
    | one y => exact hf.elim
    | many l => exact h hb

theorem inside_narrow {b c : BBox} (h : b.left ≤ c.left ∧ c.right ≤ b.right ∧ b.bottom ≤ c.bottom ∧ c.top ≤ b.top) {lat lon : Int} (hc : Inside c lat lon) :
    Inside b lat lon := ⟨h.1.trans hc.1, hc.2.1.trans h.2.1, h.2.2.1.trans hc.2.2.1, hc.2.2.2.trans h.2.2.2⟩

theorem wanted_narrow {upper : Text → Text} {asks : StrArg → Text → Prop} {n w : SiteQuery} (h : Narrower n w)
    (hs : ∀ a b, w.state = some a → n.state = some b → textsOf b ⊆ textsOf a → ∀ t, asks b t → asks a t)
    (hc : ∀ a b, w.country = some a → n.country = some b → textsOf b ⊆ textsOf a → ∀ t, asks b t → asks a t)
    {all : List SiteInfo} {s : SiteInfo} (hn : Wanted upper asks n all s) : Wanted upper asks w all s where
  id := fun a ha => by obtain ⟨b, hb, hsub⟩ := h.id a ha; exact asks_narrow hsub (hn.id b hb)
  number := fun l hl => by obtain ⟨k, hk, hsub⟩ := h.number l hl; exact hsub (hn.number k hk)
  time := fun t ht => by
    rcases h.time t ht with e | ⟨l, k, rfl, e, hsub⟩
    · exact hn.time t e
    · exact hsub (hn.time _ e)
  state := fun a ha => by obtain ⟨b, hb, hsub⟩ := h.state a ha; exact hs a b ha hb hsub _ (hn.state b hb)
  country := fun a ha => by obtain ⟨b, hb, hsub⟩ := h.country a ha; exact hc a b ha hb hsub _ (hn.country b hb)
  box := fun b hb => by obtain ⟨c, hc, hsub⟩ := h.box b hb; exact inside_narrow hsub (hn.box c hc)

theorem level_narrow {k l : List (Option ℚ)} (h : k ⊆ l) {x : Option Int} (hx : AsksLevel k x) : AsksLevel l x := by
  cases x with
  | none => exact h hx
  | some y => exact h hx

theorem gwanted_narrow {upper : Text → Text} {n w : GridQuery} (h : GNarrower n w) {all : List GridInfo} {g : GridInfo} (hn : GWanted upper n all g) :
    GWanted upper w all g where
  parm := fun a ha => by obtain ⟨b, hb, hsub⟩ := h.parm a ha; exact asks_narrow hsub (hn.parm b hb)
  time1 := fun t ht => by
    rcases h.time1 t ht with e | ⟨l, k, rfl, e, hsub⟩
    · exact hn.time1 t e
    · exact hsub (hn.time1 _ e)
  coord := fun a ha => by obtain ⟨b, hb, hsub⟩ := h.coord a ha; exact asks_narrow hsub (hn.coord b hb)
  level1 := fun l hl => by obtain ⟨k, hk, hsub⟩ := h.level1 l hl; exact level_narrow hsub (hn.level1 k hk)
  time2 := fun t ht => by
    rcases h.time2 t ht with e | ⟨l, k, rfl, e, hsub⟩
    · exact hn.time2 t e
    · exact hsub (hn.time2 _ e)
  level2 := fun l hl => by obtain ⟨k, hk, hsub⟩ := h.level2 l hl; exact level_narrow hsub (hn.level2 k hk)

theorem filter_narrow {α : Type} {p q : α → Bool} (h : ∀ a, p a = true → q a = true) (l : List α) : (l.filter p).Sublist (l.filter q) := by
  have : l.filter p = (l.filter q).filter p := by
    rw [List.filter_filter]
    refine List.filter_congr fun a _ => ?_
    cases hp : p a with
    | false => simp
    | true => simp [h a hp]
  rw [this]
  exact List.filter_sublist

theorem flatMap_narrow {α β : Type} {k l : List α} (h : k.Sublist l) (f : α → List β) : (k.flatMap f).Sublist (l.flatMap f) := by
  induction h with
  | slnil => exact List.Sublist.refl _
  | cons a _ ih => rw [List.flatMap_cons]; exact ih.trans (List.sublist_append_right _ _)
  | cons_cons a _ ih => rw [List.flatMap_cons, List.flatMap_cons]; exact (List.Sublist.refl _).append ih

theorem selected_narrow {upper : Text → Text} {asks : StrArg → Text → Prop} {n w : SiteQuery} {all : List SiteInfo}
    (h : ∀ s, Wanted upper asks n all s → Wanted upper asks w all s) : (selected upper asks n all).Sublist (selected upper asks w all) := by
  classical
  unfold selected
  refine filter_narrow (fun s hs => ?_) _
  rw [decide_eq_true_eq] at hs ⊢
  exact h s hs

theorem select_some {upper : Text → Text} {arg : StrArg → List Text} {asks : StrArg → Text → Prop} (harg : ∀ a t, t ∈ arg a ↔ asks a t) {q : SiteQuery}
    {all m : List SiteInfo} (hv : TimesExist all) (h : selectSites upper arg q all = .ok m) : all ≠ [] ∧ m = selected upper asks q all := by
  have hne : all ≠ [] := by
    rintro rfl
    by_cases hq : AsksExtreme q
    · rw [selectSites_extreme upper _ q hq] at h; cases h
    · rw [selectSites_spec upper _ asks harg q _ (by intro s hs; cases hs) (fun h => absurd h hq)] at h
      rw [if_pos (show selected upper asks q [] = [] from rfl)] at h
      cases h
  rw [selectSites_spec upper _ asks harg q _ hv (fun _ => hne)] at h
  split at h
  · cases h
  · exact ⟨hne, (Except.ok.inj h).symm⟩

/-! ## Sites -/

theorem pieces_id (upper : Text → Text) (asks : StrArg → Text → Prop) (q : SiteQuery) (l : List Text) (all : List SiteInfo) (s : SiteInfo) :
    Wanted upper asks { q with stationId := some (.many l) } all s ↔ ∃ i ∈ l, Wanted upper asks { q with stationId := some (.one i) } all s := by
  constructor
  · intro h
    obtain ⟨x, hx, e⟩ := h.id _ rfl
    exact ⟨x, hx, fun a ha => by obtain rfl := Option.some.inj ha; exact e, h.number, h.time, h.state, h.country, h.box⟩
  · rintro ⟨i, hi, h⟩
    exact ⟨fun a ha => by obtain rfl := Option.some.inj ha; exact ⟨i, hi, h.id _ rfl⟩, h.number, h.time, h.state, h.country, h.box⟩

theorem pieces_number (upper : Text → Text) (asks : StrArg → Text → Prop) (q : SiteQuery) (l : List Int) (all : List SiteInfo) (s : SiteInfo) :
    Wanted upper asks { q with stationNumber := some l } all s ↔ ∃ i ∈ l, Wanted upper asks { q with stationNumber := some [i] } all s := by
  constructor
  · intro h
    exact ⟨s.number, h.number _ rfl, h.id, fun a ha => by obtain rfl := Option.some.inj ha; exact List.mem_singleton_self _, h.time, h.state, h.country, h.box⟩
  · rintro ⟨i, hi, h⟩
    refine ⟨h.id, fun a ha => ?_, h.time, h.state, h.country, h.box⟩
    obtain rfl := Option.some.inj ha
    have : s.number = i := by simpa using h.number _ rfl
    rw [this]
    exact hi

theorem pieces_time (upper : Text → Text) (asks : StrArg → Text → Prop) (q : SiteQuery) (l : List (Date × Clock)) (all : List SiteInfo) (s : SiteInfo) :
    Wanted upper asks { q with dateTime := some (.these l) } all s ↔ ∃ i ∈ l, Wanted upper asks { q with dateTime := some (.these [i]) } all s := by
  constructor
  · intro h
    exact ⟨s.dattim, h.time _ rfl, h.id, h.number, fun a ha => by obtain rfl := Option.some.inj ha; exact List.mem_singleton_self _, h.state, h.country, h.box⟩
  · rintro ⟨i, hi, h⟩
    refine ⟨h.id, h.number, fun a ha => ?_, h.state, h.country, h.box⟩
    obtain rfl := Option.some.inj ha
    have : s.dattim = i := by simpa [AsksTime] using h.time _ rfl
    show s.dattim ∈ l
    rw [this]
    exact hi

/-- A query as it is answered: the entries selected, then what is made of them. -/
def answer {ε α ω : Type} (inj : PyErr → ε) (sel : Except PyErr (List α)) (c : List α → Except ε (List ω)) : Except ε (List ω) :=
  match sel with
  | .ok m => c m
  | .error e => .error (inj e)

section
variable {ε γ δ ω : Type} {inj : PyErr → ε} {upper : Text → Text} {arg : StrArg → List Text} {asks : StrArg → Text → Prop}
  {R : SiteQuery → Except ε (List ω)} {read : SiteInfo → Except ε γ} {keep : γ → List δ} {make : δ → Except ε ω} {all : List SiteInfo}

/-- When a query is answered, all queries for part of it are determined by what each site gives. -/
theorem site_parts (hR : ∀ q, R q = answer inj (selectSites upper arg q all) (collect read keep make)) (harg : ∀ a t, t ∈ arg a ↔ asks a t)
    (hv : TimesExist all) {w : SiteQuery} {out : List ω} (h : R w = .ok out) :
    ∃ f : SiteInfo → List ω, out = (selected upper asks w all).flatMap f ∧ ∀ n, (∀ s, Wanted upper asks n all s → Wanted upper asks w all s) →
      R n = if selected upper asks n all = [] then .error (inj .keyError) else .ok ((selected upper asks n all).flatMap f) := by
  rw [hR] at h
  unfold answer at h
  split at h
  · rename_i m hm
    obtain ⟨hne, rfl⟩ := select_some harg hv hm
    obtain ⟨f, hf, hall⟩ := collect_parts h
    refine ⟨f, hf, fun n hn => ?_⟩
    rw [hR, selectSites_spec upper _ asks harg n _ hv (fun _ => hne)]
    by_cases h0 : selected upper asks n all = []
    · rw [if_pos h0, if_pos h0]; rfl
    · rw [if_neg h0, if_neg h0]
      exact hall _ (selected_narrow hn).subset
  · cases h

theorem site_narrow (hR : ∀ q, R q = answer inj (selectSites upper arg q all) (collect read keep make)) (harg : ∀ a t, t ∈ arg a ↔ asks a t)
    (hv : TimesExist all) {n w : SiteQuery} {out : List ω} (h : R w = .ok out) (hw : ∀ s, Wanted upper asks n all s → Wanted upper asks w all s) :
    ((∀ s ∈ all, ¬ Wanted upper asks n all s) ∧ R n = .error (inj .keyError)) ∨
      ((∃ s ∈ all, Wanted upper asks n all s) ∧ ∃ part, R n = .ok part ∧ part.Sublist out) := by
  classical
  obtain ⟨f, rfl, hf⟩ := site_parts hR harg hv h
  rw [hf n hw]
  by_cases h0 : selected upper asks n all = []
  · rw [if_pos h0]
    refine Or.inl ⟨fun s hs hs' => ?_, rfl⟩
    have := List.filter_eq_nil_iff.1 h0 s hs
    rw [decide_eq_true_eq] at this
    exact this hs'
  · rw [if_neg h0]
    obtain ⟨s, hs⟩ := List.exists_mem_of_ne_nil _ h0
    obtain ⟨hs, hs'⟩ := List.mem_filter.1 hs
    rw [decide_eq_true_eq] at hs'
    exact Or.inr ⟨⟨s, hs, hs'⟩, _, rfl, flatMap_narrow (selected_narrow hw) f⟩

/-- A query in pieces: the pieces together ask for what the whole asks for. -/
theorem site_pieces (hR : ∀ q, R q = answer inj (selectSites upper arg q all) (collect read keep make)) (harg : ∀ a t, t ∈ arg a ↔ asks a t)
    (hv : TimesExist all) {w : SiteQuery} {out : List ω} (h : R w = .ok out) {ι : Type} (l : List ι) (piece : ι → SiteQuery)
    (hp : ∀ s, Wanted upper asks w all s ↔ ∃ i ∈ l, Wanted upper asks (piece i) all s) (x : ω) :
    x ∈ out ↔ ∃ i ∈ l, ∃ part, R (piece i) = .ok part ∧ x ∈ part := by
  classical
  obtain ⟨f, rfl, hf⟩ := site_parts hR harg hv h
  rw [List.mem_flatMap]
  constructor
  · rintro ⟨s, hs, hx⟩
    obtain ⟨hs, hs'⟩ := List.mem_filter.1 hs
    rw [decide_eq_true_eq] at hs'
    obtain ⟨i, hi, hw⟩ := (hp s).1 hs'
    have hmem : s ∈ selected upper asks (piece i) all := List.mem_filter.2 ⟨hs, by rw [decide_eq_true_eq]; exact hw⟩
    refine ⟨i, hi, _, ?_, List.mem_flatMap.2 ⟨s, hmem, hx⟩⟩
    rw [hf _ fun t ht => (hp t).2 ⟨i, hi, ht⟩, if_neg (List.ne_nil_of_mem hmem)]
  · rintro ⟨i, hi, part, hpart, hx⟩
    have hsub : ∀ t, Wanted upper asks (piece i) all t → Wanted upper asks w all t := fun t ht => (hp t).2 ⟨i, hi, ht⟩
    rw [hf _ hsub] at hpart
    split at hpart
    · cases hpart
    · obtain rfl := Except.ok.inj hpart
      obtain ⟨s, hs, hx⟩ := List.mem_flatMap.1 hx
      exact ⟨s, (selected_narrow hsub).subset hs, hx⟩

/-- Pieces for stations, numbers and times. -/
theorem site_each (hR : ∀ q, R q = answer inj (selectSites upper arg q all) (collect read keep make)) (harg : ∀ a t, t ∈ arg a ↔ asks a t)
    (hv : TimesExist all) (q : SiteQuery) (out : List ω) (x : ω) :
    (∀ l, R { q with stationId := some (.many l) } = .ok out →
      (x ∈ out ↔ ∃ i ∈ l, ∃ part, R { q with stationId := some (.one i) } = .ok part ∧ x ∈ part)) ∧
    (∀ l, R { q with stationNumber := some l } = .ok out →
      (x ∈ out ↔ ∃ i ∈ l, ∃ part, R { q with stationNumber := some [i] } = .ok part ∧ x ∈ part)) ∧
    (∀ l, R { q with dateTime := some (.these l) } = .ok out →
      (x ∈ out ↔ ∃ i ∈ l, ∃ part, R { q with dateTime := some (.these [i]) } = .ok part ∧ x ∈ part)) :=
  ⟨fun l h => site_pieces hR harg hv h l (fun i => { q with stationId := some (.one i) }) (pieces_id upper _ q l _) x,
    fun l h => site_pieces hR harg hv h l (fun i => { q with stationNumber := some [i] }) (pieces_number upper _ q l _) x,
    fun l h => site_pieces hR harg hv h l (fun i => { q with dateTime := some (.these [i]) }) (pieces_time upper _ q l _) x⟩

end

theorem wanted_surface {upper : Text → Text} {n w : SiteQuery} (hn : Narrower n w) {all : List SiteInfo} (s : SiteInfo)
    (h : Wanted upper (Asks upper) n all s) : Wanted upper (Asks upper) w all s :=
  wanted_narrow (asks := Asks upper) hn (fun _ _ _ _ hsub _ h => asks_narrow hsub h) (fun _ _ _ _ hsub _ h => asks_narrow hsub h) h

theorem wanted_sounding {upper : Text → Text} {n w : SiteQuery} (hn : Narrower n w) (hf : StatesAlike n w) {all : List SiteInfo} (s : SiteInfo)
    (h : Wanted upper (AsksExactly upper) n all s) : Wanted upper (AsksExactly upper) w all s :=
  wanted_narrow (asks := AsksExactly upper) hn (fun a b ha hb hsub _ h => exactly_narrow (hf.state a b ha hb) hsub h)
    (fun a b ha hb hsub _ h => exactly_narrow (hf.country a b ha hb) hsub h) h

/-! ## Surface files -/

theorem sfjson_collect (g : SurfaceReader) (upper lower : Text → Text) (q : SiteQuery) (special : Bool) :
    g.sfjson upper lower q special = answer id (selectSites upper (StrArg.upperAll upper) q g.sfinfo)
      (collect (fun s : SiteInfo => g.unpackCell s.row s.col) (List.filter fun stn => special || !(dictGet stn (txt "SPCL")).isSome)
        (sfObject lower)) := by
  rw [sfjson_eq]
  cases selectSites upper (StrArg.upperAll upper) q g.sfinfo with
  | error e => rfl
  | ok m =>
    show makeObjects _ _ _ m = collect _ _ _ m
    unfold makeObjects collect
    congr 1
    funext d
    rw [List.flatMap_def, ← List.filter_flatten]

/-- C129 for surface files: when a query is answered, every narrower one is answered with part of the reports, in the same order, or raises `KeyError`
because no listed site satisfies it. -/
theorem C129_surface (host : Endian) (b : Bytes) (g : SurfaceReader) (upper lower : Text → Text) (special : Bool) (n w : SiteQuery) (out : List SfObj)
    (ho : openSurface host b = .ok g) (h : g.sfjson upper lower w special = .ok out) (hn : Narrower n w) :
    ((∀ s ∈ g.sfinfo, ¬ Wanted upper (Asks upper) n g.sfinfo s) ∧ g.sfjson upper lower n special = .error .keyError) ∨
      ((∃ s ∈ g.sfinfo, Wanted upper (Asks upper) n g.sfinfo s) ∧ ∃ part, g.sfjson upper lower n special = .ok part ∧ part.Sublist out) :=
  site_narrow (fun q => sfjson_collect g upper lower q special) (asks_all upper) (sfinfo_times ho) h (wanted_surface hn)

/-- C129 for surface files: a query for several stations, numbers or times returns the reports that the queries for each of them return. -/
theorem C129_surface_each (host : Endian) (b : Bytes) (g : SurfaceReader) (upper lower : Text → Text) (special : Bool) (q : SiteQuery) (out : List SfObj)
    (ho : openSurface host b = .ok g) (x : SfObj) :
    (∀ l, g.sfjson upper lower { q with stationId := some (.many l) } special = .ok out →
      (x ∈ out ↔ ∃ i ∈ l, ∃ part, g.sfjson upper lower { q with stationId := some (.one i) } special = .ok part ∧ x ∈ part)) ∧
    (∀ l, g.sfjson upper lower { q with stationNumber := some l } special = .ok out →
      (x ∈ out ↔ ∃ i ∈ l, ∃ part, g.sfjson upper lower { q with stationNumber := some [i] } special = .ok part ∧ x ∈ part)) ∧
    (∀ l, g.sfjson upper lower { q with dateTime := some (.these l) } special = .ok out →
      (x ∈ out ↔ ∃ i ∈ l, ∃ part, g.sfjson upper lower { q with dateTime := some (.these [i]) } special = .ok part ∧ x ∈ part)) :=
  site_each (fun q => sfjson_collect g upper lower q special) (asks_all upper) (sfinfo_times ho) q out x

theorem mapM_sublist {ε δ ω : Type} {make : δ → Except ε ω} {k l : List δ} (h : k.Sublist l) {y : List ω} (hy : l.mapM make = .ok y) :
    ∃ z, k.mapM make = .ok z ∧ z.Sublist y := by
  induction h generalizing y with
  | slnil => exact ⟨y, hy, List.Sublist.refl _⟩
  | cons a _ ih =>
    rw [List.mapM_cons] at hy
    obtain ⟨x, _, hy⟩ := exc_inv hy
    obtain ⟨r, hr, hy⟩ := exc_inv hy
    obtain rfl := Except.ok.inj hy
    obtain ⟨z, hz, hs⟩ := ih hr
    exact ⟨z, hz, hs.cons x⟩
  | cons_cons a _ ih =>
    rw [List.mapM_cons] at hy
    obtain ⟨x, hx, hy⟩ := exc_inv hy
    obtain ⟨r, hr, hy⟩ := exc_inv hy
    obtain rfl := Except.ok.inj hy
    obtain ⟨z, hz, hs⟩ := ih hr
    refine ⟨x :: z, ?_, hs.cons_cons x⟩
    rw [List.mapM_cons, hx]
    simp only [hz, bind, Except.bind, pure, Except.pure]

/-- C129 for surface files: without special reports the result is part of the one with them. -/
theorem C129_special (g : SurfaceReader) (upper lower : Text → Text) (q : SiteQuery) (out : List SfObj) (h : g.sfjson upper lower q true = .ok out) :
    ∃ part, g.sfjson upper lower q false = .ok part ∧ part.Sublist out := by
  unfold SurfaceReader.sfjson at h ⊢
  obtain ⟨m, hm, h⟩ := exc_inv h
  obtain ⟨d, hd, h⟩ := exc_inv h
  simp only [hm, hd, bind, Except.bind]
  refine mapM_sublist ?_ h
  refine filter_narrow (fun a _ => ?_) _
  rfl

/-! ## Soundings -/

theorem snxarray_collect (g : SoundingReader) (upper lower : Text → Text) (q : SiteQuery) (hm : g.merged = true) :
    g.snxarray upper lower q = answer id (selectSites upper (StrArg.upperOne upper) q g.sninfo)
      (collect (fun s : SiteInfo => g.unpackMerged s.row s.col) (fun x => [x]) (snObject lower)) := by
  rw [snxarray_eq _ _ _ _ hm]
  cases selectSites upper (StrArg.upperOne upper) q g.sninfo with
  | error e => rfl
  | ok m =>
    show _ = collect _ _ _ m
    unfold collect
    rw [ok_bind]
    congr 1
    funext d
    rw [List.flatMap_singleton']

theorem unmerged_collect {α : Type} [Field α] [LinearOrder α] [IsStrictOrderedRing α] [FloorRing α] (c : Calc α) (e : LevEnv α) (fuel : Nat)
    (f : SoundingReader) (upper lower : Text → Text) (q : SiteQuery) :
    f.unmergedDatasets c e fuel upper lower q = answer Stop.raised (selectSites upper (StrArg.upperOne upper) q f.sninfo)
      (collect (fun s : SiteInfo => f.unpackUnmerged c e fuel s.row s.col) Option.toList
        (fun x => toRun (mergedDataset lower (e.flt f.info.label.missingFloat) x))) := by
  unfold SoundingReader.unmergedDatasets
  cases selectSites upper (StrArg.upperOne upper) q f.sninfo with
  | error e => rfl
  | ok m =>
    show (m.mapM _ >>= _ : Run _) = collect _ _ _ m
    unfold collect
    congr 1
    funext d
    congr 1
    induction d with
    | nil => rfl
    | cons a d ih => cases a <;> simp <;> exact ih

/-- C129 for files of merged soundings. -/
theorem C129_sounding_partial (host : Endian) (b : Bytes) (g : SoundingReader) (upper lower : Text → Text) (n w : SiteQuery) (out : List SnObj)
    (ho : openSounding host b = .ok g) (hm : g.merged = true) (h : g.snxarray upper lower w = .ok out) (hn : Narrower n w) (hf : StatesAlike n w) :
    ((∀ s ∈ g.sninfo, ¬ Wanted upper (AsksExactly upper) n g.sninfo s) ∧ g.snxarray upper lower n = .error .keyError) ∨
      ((∃ s ∈ g.sninfo, Wanted upper (AsksExactly upper) n g.sninfo s) ∧ ∃ part, g.snxarray upper lower n = .ok part ∧ part.Sublist out) :=
  site_narrow (fun q => snxarray_collect g upper lower q hm) (asks_one upper) (sninfo_times ho) h (wanted_sounding hn hf)

/-- C129 for files of merged soundings: several stations, numbers or times. -/
theorem C129_sounding_each (host : Endian) (b : Bytes) (g : SoundingReader) (upper lower : Text → Text) (q : SiteQuery) (out : List SnObj)
    (ho : openSounding host b = .ok g) (hm : g.merged = true) (x : SnObj) :
    (∀ l, g.snxarray upper lower { q with stationId := some (.many l) } = .ok out →
      (x ∈ out ↔ ∃ i ∈ l, ∃ part, g.snxarray upper lower { q with stationId := some (.one i) } = .ok part ∧ x ∈ part)) ∧
    (∀ l, g.snxarray upper lower { q with stationNumber := some l } = .ok out →
      (x ∈ out ↔ ∃ i ∈ l, ∃ part, g.snxarray upper lower { q with stationNumber := some [i] } = .ok part ∧ x ∈ part)) ∧
    (∀ l, g.snxarray upper lower { q with dateTime := some (.these l) } = .ok out →
      (x ∈ out ↔ ∃ i ∈ l, ∃ part, g.snxarray upper lower { q with dateTime := some (.these [i]) } = .ok part ∧ x ∈ part)) :=
  site_each (fun q => snxarray_collect g upper lower q hm) (asks_one upper) (sninfo_times ho) q out x

/-- C129 for files of unmerged soundings: whether a sounding can be merged does not depend on what else is asked for. -/
theorem C129_unmerged_partial {α : Type} [Field α] [LinearOrder α] [IsStrictOrderedRing α] [FloorRing α] (c : Calc α) (e : LevEnv α) (fuel : Nat)
    (host : Endian) (b : Bytes) (g : SoundingReader) (upper lower : Text → Text) (n w : SiteQuery) (out : List (SnData α))
    (ho : openSounding host b = .ok g) (h : g.unmergedDatasets c e fuel upper lower w = .ok out) (hn : Narrower n w) (hf : StatesAlike n w) :
    ((∀ s ∈ g.sninfo, ¬ Wanted upper (AsksExactly upper) n g.sninfo s) ∧ g.unmergedDatasets c e fuel upper lower n = .error (.raised .keyError)) ∨
      ((∃ s ∈ g.sninfo, Wanted upper (AsksExactly upper) n g.sninfo s) ∧
        ∃ part, g.unmergedDatasets c e fuel upper lower n = .ok part ∧ part.Sublist out) :=
  site_narrow (fun q => unmerged_collect c e fuel g upper lower q) (asks_one upper) (sninfo_times ho) h (wanted_sounding hn hf)

/-- C129 for files of unmerged soundings: several stations, numbers or times. -/
theorem C129_unmerged_each {α : Type} [Field α] [LinearOrder α] [IsStrictOrderedRing α] [FloorRing α] (c : Calc α) (e : LevEnv α) (fuel : Nat)
    (host : Endian) (b : Bytes) (g : SoundingReader) (upper lower : Text → Text) (q : SiteQuery) (out : List (SnData α))
    (ho : openSounding host b = .ok g) (x : SnData α) :
    (∀ l, g.unmergedDatasets c e fuel upper lower { q with stationId := some (.many l) } = .ok out →
      (x ∈ out ↔ ∃ i ∈ l, ∃ part, g.unmergedDatasets c e fuel upper lower { q with stationId := some (.one i) } = .ok part ∧ x ∈ part)) ∧
    (∀ l, g.unmergedDatasets c e fuel upper lower { q with stationNumber := some l } = .ok out →
      (x ∈ out ↔ ∃ i ∈ l, ∃ part, g.unmergedDatasets c e fuel upper lower { q with stationNumber := some [i] } = .ok part ∧ x ∈ part)) ∧
    (∀ l, g.unmergedDatasets c e fuel upper lower { q with dateTime := some (.these l) } = .ok out →
      (x ∈ out ↔ ∃ i ∈ l, ∃ part, g.unmergedDatasets c e fuel upper lower { q with dateTime := some (.these [i]) } = .ok part ∧ x ∈ part)) :=
  site_each (fun q => unmerged_collect c e fuel g upper lower q) (asks_one upper) (sninfo_times ho) q out x

/-- C129 is false for soundings when a state is given alone and in a list: the narrow query finds soundings although the wide one raises `KeyError`
because it finds none. -/
theorem C129_state (host : Endian) (b : Bytes) (g : SoundingReader) (upper lower : Text → Text) (all : List SnObj)
    (ho : openSounding host b = .ok g) (hm : g.merged = true) (hall : g.snxarray upper lower {} = .ok all)
    (s : SiteInfo) (hs : s ∈ g.sninfo) (x : Text) (hx : upper x = s.state) (hno : ∀ t ∈ g.sninfo, t.state ≠ x) :
    ∃ n w, Narrower n w ∧ (∃ out, g.snxarray upper lower n = .ok out ∧ out ≠ []) ∧ g.snxarray upper lower w = .error .keyError := by
  obtain ⟨h1, h2⟩ := C35_case host b g upper lower all ho hm hall s hs x hx hno
  refine ⟨{ state := some (.one x) }, { state := some (.many [x]) }, ⟨by simp, by simp, by simp, ?_, by simp, by simp⟩, h1, h2⟩
  intro a ha
  obtain rfl := Option.some.inj ha
  exact ⟨_, rfl, fun y hy => hy⟩

/-! ## Grids -/

theorem gselected_narrow {upper : Text → Text} {n w : GridQuery} {all : List GridInfo}
    (h : ∀ g, GWanted upper n all g → GWanted upper w all g) : (gselected upper n all).Sublist (gselected upper w all) := by
  classical
  unfold gselected
  refine filter_narrow (fun s hs => ?_) _
  rw [decide_eq_true_eq] at hs ⊢
  exact h s hs

/-- C129 for grids: when a query is answered, every narrower one is answered with part of the grids, in the same order, or raises `KeyError` because
no listed grid satisfies it.  The earliest or latest second time may be asked for when all grids have one (`C34_second_time`). -/
theorem C129_grid_partial (host : Endian) (b : Bytes) (f : GridFileR) (upper lower : Text → Text) (n w : GridQuery) (out : List GridObj)
    (ho : openGrid host b = .ok f) (h : gdxarray upper lower w f = .ok out) (hn : GNarrower n w)
    (h2 : AsksExtreme2 n ∨ AsksExtreme2 w → ∀ g ∈ f.grids, g.time2 ≠ none) :
    ((∀ g ∈ f.grids, ¬ GWanted upper n f.grids g) ∧ gdxarray upper lower n f = .error .keyError) ∨
      ((∃ g ∈ f.grids, GWanted upper n f.grids g) ∧ ∃ part, gdxarray upper lower n f = .ok part ∧ part.Sublist out) := by
  classical
  have hv := (openGrid_times ho).1
  have hne : f.grids ≠ [] := by
    intro h0
    obtain ⟨e1, e2⟩ := C34_empty f upper lower w h0
    by_cases hq : AsksExtreme1 w ∨ AsksExtreme2 w
    · rw [e1 hq] at h; cases h
    · rw [e2 hq] at h; cases h
  have hw : ∀ g, GWanted upper n f.grids g → GWanted upper w f.grids g := fun g hg => gwanted_narrow hn hg
  unfold gdxarray at h ⊢
  rw [selectGrids_spec upper w f.grids hv (fun _ => hne) (fun hq => ⟨hne, h2 (Or.inr hq)⟩)] at h
  rw [selectGrids_spec upper n f.grids hv (fun _ => hne) (fun hq => ⟨hne, h2 (Or.inl hq)⟩)]
  split at h
  · cases h
  rw [ok_bind] at h
  obtain ⟨r, hr, h⟩ := bind_inv h
  have hcell := mapM_each hr
  rw [mapM_got hcell] at hr
  obtain rfl := Except.ok.inj hr
  obtain rfl := Except.ok.inj h
  have hsub := gselected_narrow hw
  by_cases h0 : gselected upper n f.grids = []
  · rw [if_pos h0]
    refine Or.inl ⟨fun g hg hg' => ?_, rfl⟩
    have := List.filter_eq_nil_iff.1 h0 g hg
    rw [decide_eq_true_eq] at this
    exact this hg'
  · rw [if_neg h0, ok_bind, mapM_got fun s hs => hcell s (hsub.subset hs), ok_bind]
    obtain ⟨g, hg⟩ := List.exists_mem_of_ne_nil _ h0
    obtain ⟨hg, hg'⟩ := List.mem_filter.1 hg
    rw [decide_eq_true_eq] at hg'
    refine Or.inr ⟨⟨g, hg, hg'⟩, _, rfl, ?_⟩
    rw [← List.flatMap_def, ← List.flatMap_def]
    exact flatMap_narrow hsub _

/-- A query in pieces. -/
theorem grid_pieces {host : Endian} {b : Bytes} {f : GridFileR} {upper lower : Text → Text} {w : GridQuery} {out : List GridObj}
    (ho : openGrid host b = .ok f) (h : gdxarray upper lower w f = .ok out) (hw2 : AsksExtreme2 w → ∀ g ∈ f.grids, g.time2 ≠ none)
    {ι : Type} (l : List ι) (piece : ι → GridQuery) (h2 : ∀ i, AsksExtreme2 (piece i) → AsksExtreme2 w)
    (hp : ∀ g, GWanted upper w f.grids g ↔ ∃ i ∈ l, GWanted upper (piece i) f.grids g) (x : GridObj) :
    x ∈ out ↔ ∃ i ∈ l, ∃ part, gdxarray upper lower (piece i) f = .ok part ∧ x ∈ part := by
  classical
  have hv := (openGrid_times ho).1
  have hne : f.grids ≠ [] := by
    intro h0
    obtain ⟨e1, e2⟩ := C34_empty f upper lower w h0
    by_cases hq : AsksExtreme1 w ∨ AsksExtreme2 w
    · rw [e1 hq] at h; cases h
    · rw [e2 hq] at h; cases h
  unfold gdxarray at h
  rw [selectGrids_spec upper w f.grids hv (fun _ => hne) (fun hq => ⟨hne, hw2 hq⟩)] at h
  split at h
  · cases h
  rw [ok_bind] at h
  obtain ⟨r, hr, h⟩ := bind_inv h
  have hcell := mapM_each hr
  rw [mapM_got hcell] at hr
  obtain rfl := Except.ok.inj hr
  obtain rfl := Except.ok.inj h
  have hsub : ∀ i ∈ l, (gselected upper (piece i) f.grids).Sublist (gselected upper w f.grids) := fun i hi =>
    gselected_narrow fun g hg => (hp g).2 ⟨i, hi, hg⟩
  have hpart : ∀ i ∈ l, gdxarray upper lower (piece i) f = if gselected upper (piece i) f.grids = [] then .error .keyError else
      .ok ((gselected upper (piece i) f.grids).flatMap fun g => got (columnGrids lower f g f.info.parts 0)) := by
    intro i hi
    unfold gdxarray
    rw [selectGrids_spec upper (piece i) f.grids hv (fun _ => hne) (fun hq => ⟨hne, hw2 (h2 i hq)⟩)]
    by_cases h0 : gselected upper (piece i) f.grids = []
    · rw [if_pos h0, if_pos h0]; rfl
    · rw [if_neg h0, if_neg h0, ok_bind, mapM_got fun s hs => hcell s ((hsub i hi).subset hs), ok_bind, ← List.flatMap_def]
  rw [← List.flatMap_def, List.mem_flatMap]
  constructor
  · rintro ⟨g, hg, hx⟩
    obtain ⟨hg, hg'⟩ := List.mem_filter.1 hg
    rw [decide_eq_true_eq] at hg'
    obtain ⟨i, hi, hw⟩ := (hp g).1 hg'
    have hmem : g ∈ gselected upper (piece i) f.grids := List.mem_filter.2 ⟨hg, by rw [decide_eq_true_eq]; exact hw⟩
    exact ⟨i, hi, _, by rw [hpart i hi, if_neg (List.ne_nil_of_mem hmem)], List.mem_flatMap.2 ⟨g, hmem, hx⟩⟩
  · rintro ⟨i, hi, part, hq, hx⟩
    rw [hpart i hi] at hq
    split at hq
    · cases hq
    · obtain rfl := Except.ok.inj hq
      obtain ⟨g, hg, hx⟩ := List.mem_flatMap.1 hx
      exact ⟨g, (hsub i hi).subset hg, hx⟩

/-- C129 for grids: a query for several parameters, levels or times returns the grids that the queries for each of them return. -/
theorem C129_grid_each (host : Endian) (b : Bytes) (f : GridFileR) (upper lower : Text → Text) (q : GridQuery) (out : List GridObj)
    (ho : openGrid host b = .ok f) (h2 : AsksExtreme2 q → ∀ g ∈ f.grids, g.time2 ≠ none) (x : GridObj) :
    (∀ l, gdxarray upper lower { q with parameter := some (.many l) } f = .ok out →
      (x ∈ out ↔ ∃ i ∈ l, ∃ part, gdxarray upper lower { q with parameter := some (.one i) } f = .ok part ∧ x ∈ part)) ∧
    (∀ l, gdxarray upper lower { q with level := some l } f = .ok out →
      (x ∈ out ↔ ∃ i ∈ l, ∃ part, gdxarray upper lower { q with level := some [i] } f = .ok part ∧ x ∈ part)) ∧
    (∀ l, gdxarray upper lower { q with dateTime := some (.these l) } f = .ok out →
      (x ∈ out ↔ ∃ i ∈ l, ∃ part, gdxarray upper lower { q with dateTime := some (.these [i]) } f = .ok part ∧ x ∈ part)) := by
  refine ⟨fun l h => ?_, fun l h => ?_, fun l h => ?_⟩
  · refine grid_pieces ho h h2 l (fun i => { q with parameter := some (.one i) }) (fun _ hi => hi) (fun g => ⟨fun hg => ?_, ?_⟩) x
    · obtain ⟨y, hy, e⟩ := hg.parm _ rfl
      exact ⟨y, hy, fun a ha => by obtain rfl := Option.some.inj ha; exact e, hg.time1, hg.coord, hg.level1, hg.time2, hg.level2⟩
    · rintro ⟨i, hi, hg⟩
      exact ⟨fun a ha => by obtain rfl := Option.some.inj ha; exact ⟨i, hi, hg.parm _ rfl⟩, hg.time1, hg.coord, hg.level1, hg.time2, hg.level2⟩
  · refine grid_pieces ho h h2 l (fun i => { q with level := some [i] }) (fun _ hi => hi) (fun g => ⟨fun hg => ?_, ?_⟩) x
    · have hl := hg.level1 _ rfl
      rw [← levelIn_iff] at hl
      refine ⟨_, of_decide_eq_true hl, hg.parm, hg.time1, hg.coord, fun a ha => ?_, hg.time2, hg.level2⟩
      obtain rfl := Option.some.inj ha
      rw [← levelIn_iff]
      exact decide_eq_true (List.mem_singleton_self _)
    · rintro ⟨i, hi, hg⟩
      refine ⟨hg.parm, hg.time1, hg.coord, fun a ha => ?_, hg.time2, hg.level2⟩
      obtain rfl := Option.some.inj ha
      exact level_narrow (k := [i]) (by simpa using hi) (hg.level1 _ rfl)
  · refine grid_pieces ho h h2 l (fun i => { q with dateTime := some (.these [i]) }) (fun _ hi => hi) (fun g => ⟨fun hg => ?_, ?_⟩) x
    · exact ⟨g.time1, hg.time1 _ rfl, hg.parm, fun a ha => by obtain rfl := Option.some.inj ha; exact List.mem_singleton_self _, hg.coord, hg.level1,
        hg.time2, hg.level2⟩
    · rintro ⟨i, hi, hg⟩
      refine ⟨hg.parm, fun a ha => ?_, hg.coord, hg.level1, hg.time2, hg.level2⟩
      obtain rfl := Option.some.inj ha
      have : g.time1 = i := by simpa [AsksTime1] using hg.time1 _ rfl
      show g.time1 ∈ l
      rw [this]
      exact hi

/-! ## Cases -/

/-- An answered query for reports of a station and a narrower one that asks for a time and a box, too. -/
example : ∃ (bytes : Bytes) (g : SurfaceReader) (out : List SfObj) (n w : SiteQuery), openSurface .little bytes = .ok g ∧
    g.sfjson id id w true = .ok out ∧ out ≠ [] ∧ Narrower n w ∧ n.dateTime = some .last ∧ n.bbox = some ⟨-110, -90, 30, 45⟩ := by
  obtain ⟨bytes, g, h1, ⟨o, h2, h3⟩, _⟩ := someSelection
  refine ⟨bytes, g, o, { stationId := some (.one (txt "KDENVER")), dateTime := some .last, bbox := some ⟨-110, -90, 30, 45⟩ }, _, h1, h2, h3, ?_, rfl, rfl⟩
  exact ⟨fun a ha => ⟨a, ha, List.Subset.refl _⟩, by simp, by simp, by simp, by simp, by simp⟩

/-- A query for three stations and a narrower one for two of them in a smaller box. -/
example : Narrower { stationId := some (.many [txt "KC", txt "KA"]), bbox := some ⟨-105, -95, 35, 40⟩, state := some (.one (txt "CO")) }
    { stationId := some (.many [txt "KA", txt "KB", txt "KC"]), bbox := some ⟨-110, -90, 30, 45⟩ } := by
  refine ⟨fun a ha => ?_, by simp, by simp, by simp, by simp, fun b hb => ?_⟩
  · obtain rfl := Option.some.inj ha
    exact ⟨_, rfl, by decide⟩
  · obtain rfl := Option.some.inj hb
    exact ⟨_, rfl, by norm_num⟩

/-- In the sample file of grids a query for two parameters returns two grids, and a narrower one for a parameter and a level one of them. -/
example : ∃ f, openGrid .little valuesSample = .ok f ∧
    (gdxarray id id { parameter := some (.many [txt "TMPK", txt "HGHT"]) } f).toOption.map (fun l => l.map GridObj.name) = some [txt "TMPK", txt "z"] ∧
    (gdxarray id id { parameter := some (.one (txt "HGHT")), level := some [some 700] } f).toOption.map (fun l => l.map GridObj.name) = some [txt "z"] ∧
    GNarrower { parameter := some (.one (txt "HGHT")), level := some [some 700] } { parameter := some (.many [txt "TMPK", txt "HGHT"]) } := by
  have h0 : (openGrid .little valuesSample).toOption.isSome = true := by decide +kernel
  have h1 : (openGrid .little valuesSample).toOption.all (fun f => decide (
      (gdxarray id id { parameter := some (.many [txt "TMPK", txt "HGHT"]) } f).toOption.map (fun l => l.map GridObj.name) = some [txt "TMPK", txt "z"] ∧
      (gdxarray id id { parameter := some (.one (txt "HGHT")), level := some [some 700] } f).toOption.map (fun l => l.map GridObj.name) =
        some [txt "z"])) = true := by decide +kernel
  cases hg : openGrid .little valuesSample with
  | error e => rw [hg] at h0; cases h0
  | ok f =>
    rw [hg] at h1
    obtain ⟨a1, a2⟩ := of_decide_eq_true h1
    refine ⟨f, rfl, a1, a2, fun a ha => ?_, by simp, by simp, by simp, by simp, by simp⟩
    obtain rfl := Option.some.inj ha
    exact ⟨_, rfl, by decide⟩

/-- The hypotheses of `C129_state` and of `C129_sounding_partial` hold for the sample file of soundings. -/
example : ∃ g all, openSounding .little levelsSample = .ok g ∧ g.merged = true ∧ g.snxarray asciiUpper asciiLower {} = .ok all ∧
    (∃ s ∈ g.sninfo, asciiUpper (txt "co") = s.state) ∧ (∀ t ∈ g.sninfo, t.state ≠ txt "co") ∧
    Narrower { stationId := some (.one (txt "kden")) } {} ∧ StatesAlike { stationId := some (.one (txt "kden")) } {} := by
  obtain ⟨g, h1, h2, _⟩ := levelsSample_opens
  have h3 : (openSounding .little levelsSample).toOption.all (fun g => decide ((g.snxarray asciiUpper asciiLower {}).toOption.isSome = true ∧
      g.infos.map (fun s => s.state) = [txt "CO"])) = true := by decide +kernel
  rw [h1] at h3
  obtain ⟨a1, a2⟩ := of_decide_eq_true h3
  have hst : g.sninfo.map (fun s => s.state) = [txt "CO"] := by
    have := ((List.mergeSort_perm g.infos SiteInfo.le).map fun s => s.state).trans (List.Perm.of_eq a2)
    exact List.perm_singleton.1 this
  cases hq : g.snxarray asciiUpper asciiLower {} with
  | error e => rw [hq] at a1; cases a1
  | ok all =>
    refine ⟨g, all, h1, h2, hq, ?_, ?_, ⟨by simp, by simp, by simp, by simp, by simp, by simp⟩, ⟨by simp, by simp⟩⟩
    · have : txt "CO" ∈ g.sninfo.map (fun s => s.state) := by rw [hst]; exact List.mem_singleton_self _
      obtain ⟨s, hs, e⟩ := List.mem_map.1 this
      exact ⟨s, hs, by rw [e]; decide⟩
    · intro t ht e
      have : t.state ∈ g.sninfo.map (fun s => s.state) := List.mem_map_of_mem ht
      rw [hst, e] at this
      exact absurd this (by decide)

end Gempak
