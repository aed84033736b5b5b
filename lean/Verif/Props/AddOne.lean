import Verif.Props.Surface
import Verif.Props.Sounding

/-!
# C133: adding a report or a sounding leaves the others as they were

What is read from a file saved after one more call, compared with what is read from the file saved without it.
-/

namespace Gempak
open Spec

variable {ρ κ β : Type} [DecidableEq κ]

/-! ## The reports that stand after one more call -/

theorem final_snoc (es : List (Entry κ β)) (x : Entry κ β) : final (es ++ [x]) = (final es).filter (fun y => ¬ y.SameKey x) ++ [x] := by
  induction es with
  | nil => simp [final]
  | cons a r ih =>
    rw [List.cons_append, final_cons, final_cons, ih]
    by_cases h : ∃ y ∈ r, a.SameKey y
    · rw [if_pos h, if_pos]
      obtain ⟨y, hy, hk⟩ := h
      exact ⟨y, List.mem_append_left _ hy, hk⟩
    · rw [if_neg h]
      by_cases hx : a.SameKey x
      · rw [if_pos ⟨x, by simp, hx⟩, List.filter_cons_of_neg (by simpa using hx)]
      · rw [if_neg, List.filter_cons_of_pos (by simpa using hx), List.cons_append]
        rintro ⟨y, hy, hk⟩
        rcases List.mem_append.1 hy with hy | hy
        · exact h ⟨y, hy, hk⟩
        · rw [List.mem_singleton.1 hy] at hk
          exact hx hk

theorem sameKey_trans' {a b c : Entry κ β} (h1 : a.SameKey b) (h2 : b.SameKey c) : a.SameKey c := by
  rw [sameKey_iff] at *
  exact h1.trans h2

theorem sameKey_symm' {a b : Entry κ β} (h : a.SameKey b) : b.SameKey a := by
  rw [sameKey_iff] at *
  exact h.symm

theorem final_keys (es : List (Entry κ β)) : (final es).Pairwise fun a b => ¬ a.SameKey b := by
  have := final_nodup es
  rw [List.Nodup, List.pairwise_map] at this
  exact this.imp fun h hk => h ((sameKey_iff _ _).1 hk)

/-- Of different entries one at most has a given key. -/
theorem one_with_key {es : List (Entry κ β)} (h : es.Pairwise fun a b => ¬ a.SameKey b) {y : Entry κ β} (hy : y ∈ es) (x : Entry κ β)
    (hk : y.SameKey x) : es.Perm (y :: es.filter fun z => ¬ z.SameKey x) := by
  induction es with
  | nil => cases hy
  | cons a r ih =>
    rw [List.pairwise_cons] at h
    rcases List.mem_cons.1 hy with rfl | hy
    · rw [List.filter_cons_of_neg (by simpa using hk), List.filter_eq_self.2]
      intro z hz
      simp only [decide_not, Bool.not_eq_eq_eq_not, Bool.not_true, decide_eq_false_iff_not]
      exact fun hzx => h.1 z hz (sameKey_trans' hk (sameKey_symm' hzx))
    · have ha : ¬ a.SameKey x := fun hax => h.1 y hy (sameKey_trans' hax (sameKey_symm' hk))
      rw [List.filter_cons_of_pos (by simpa using ha)]
      exact ((ih h.2 hy).cons a).trans (List.Perm.swap _ _ _)

/-! ## What is read -/

section
variable {E O : Type} {is : E → O → Prop}

theorem reads_map {es : List E} {out : List O} (h : List.Forall₂ is es out) :
    ∀ f : E → Option O, (∀ e o, is e o → f e = some o) → out.map some = es.map f := by
  intro f hf
  induction h with
  | nil => rfl
  | cons h _ ih => rw [List.map_cons, List.map_cons, ih, hf _ _ h]

theorem some_perm {l k : List O} (h : (l.map some).Perm (k.map some)) : l.Perm k := (List.map_perm_map_iff (Option.some_injective O)).1 h

/-- There is a function that gives what is read. -/
theorem read_fun (hu : ∀ e o o', is e o → is e o' → o = o') : ∃ f : E → Option O, ∀ e o, is e o → f e = some o := by
  classical
  refine ⟨fun e => if h : ∃ o, is e o then some h.choose else none, fun e o ho => ?_⟩
  have h : ∃ o, is e o := ⟨o, ho⟩
  show dite _ _ _ = _
  rw [dif_pos h, hu e _ _ h.choose_spec ho]

theorem reads_perm (hu : ∀ e o o', is e o → is e o' → o = o') {es es' : List E} {out out' : List O} (h : List.Forall₂ is es out)
    (h' : List.Forall₂ is es' out') (hp : es.Perm es') : out.Perm out' := by
  obtain ⟨f, hf⟩ := read_fun hu
  refine some_perm ?_
  rw [reads_map h f hf, reads_map h' f hf]
  exact hp.map f

theorem reads_of_perm {es es' : List E} {out : List O} (hp : es.Perm es') (h : List.Forall₂ is es out) :
    ∃ out', List.Forall₂ is es' out' ∧ out.Perm out' := by
  induction hp generalizing out with
  | nil => exact ⟨out, h, List.Perm.refl _⟩
  | cons x _ ih =>
    cases h with
    | cons h1 h2 =>
      obtain ⟨o, h3, h4⟩ := ih h2
      exact ⟨_, .cons h1 h3, h4.cons _⟩
  | swap x y l =>
    cases h with
    | cons h1 h2 =>
      cases h2 with
      | cons h2 h3 => exact ⟨_, .cons h2 (.cons h1 h3), List.Perm.swap _ _ _⟩
  | trans _ _ ih1 ih2 =>
    obtain ⟨o, h1, h2⟩ := ih1 h
    obtain ⟨o', h3, h4⟩ := ih2 h1
    exact ⟨o', h3, h2.trans h4⟩

end

section
variable {O : Type} {is : Entry κ β → O → Prop}

/-- One more call, on a key of its own. -/
theorem added_new (hu : ∀ e o o', is e o → is e o' → o = o') {es l l' : List (Entry κ β)} {x : Entry κ β} {out out' : List O}
    (hl : l.Perm (final es)) (h : List.Forall₂ is l out) (hl' : l'.Perm (final (es ++ [x]))) (h' : List.Forall₂ is l' out')
    (hx : ∀ y ∈ es, ¬ y.SameKey x) : ∃ o, is x o ∧ out'.Perm (o :: out) := by
  have e : final (es ++ [x]) = final es ++ [x] := by
    rw [final_snoc, List.filter_eq_self.2]
    intro y hy
    simpa using hx y (final_sub hy)
  rw [e] at hl'
  obtain ⟨o', h1, h2⟩ := reads_of_perm (hl'.trans (List.perm_append_comm.trans (hl.symm.cons x))) h'
  cases h1 with
  | cons h3 h4 => exact ⟨_, h3, h2.trans ((reads_perm hu h4 h (List.Perm.refl _)).cons _)⟩

/-- One more call, on the key of an earlier one. -/
theorem added_again (hu : ∀ e o o', is e o → is e o' → o = o') {es l l' : List (Entry κ β)} {x : Entry κ β} {out out' : List O}
    (hl : l.Perm (final es)) (h : List.Forall₂ is l out) (hl' : l'.Perm (final (es ++ [x]))) (h' : List.Forall₂ is l' out')
    (hx : ∃ y ∈ es, y.SameKey x) :
    ∃ y ∈ es, y.SameKey x ∧ ∃ o o' rest, is y o ∧ is x o' ∧ out.Perm (o :: rest) ∧ out'.Perm (o' :: rest) := by
  obtain ⟨z, hz, hk⟩ := hx
  obtain ⟨y, hy, hzy⟩ := final_covers hz
  have hyx : y.SameKey x := sameKey_trans' (sameKey_symm' hzy) hk
  obtain ⟨a, h1, h2⟩ := reads_of_perm (hl.trans (one_with_key (final_keys es) hy x hyx)) h
  rw [final_snoc] at hl'
  obtain ⟨b, h3, h4⟩ := reads_of_perm (hl'.trans List.perm_append_comm) h'
  rw [List.singleton_append] at h3
  cases h1 with
  | cons h5 h6 =>
    cases h3 with
    | cons h7 h8 =>
      exact ⟨y, final_sub hy, hyx, _, _, _, h5, h7, h2, h4.trans ((reads_perm hu h8 h6 (List.Perm.refl _)).cons _)⟩

end

/-! ## Reports -/

omit [DecidableEq κ] in
theorem floats_unique {env : NumEnv ρ κ} {vs : List ρ} {a b : List HVal} (h : List.Forall₂ (IsFloat env) vs a) (h' : List.Forall₂ (IsFloat env) vs b) :
    a = b := by
  induction h generalizing b with
  | nil => cases h'; rfl
  | cons h _ ih =>
    cases h' with
    | cons h1 h2 =>
      obtain ⟨f, e1, rfl⟩ := h
      obtain ⟨f', e2, rfl⟩ := h1
      rw [e1] at e2
      rw [Except.ok.inj e2, ih h2]

theorem pairs_unique {α γ : Type} {l k : List (α × γ)} (h1 : l.map Prod.fst = k.map Prod.fst) (h2 : l.map Prod.snd = k.map Prod.snd) : l = k := by
  induction l generalizing k with
  | nil => cases k with
    | nil => rfl
    | cons a k => cases h1
  | cons a l ih => cases k with
    | nil => cases h1
    | cons b k =>
      simp only [List.map_cons, List.cons.injEq] at h1 h2
      rw [ih h1.2 h2.2, Prod.ext h1.1 h2.1]

omit [DecidableEq κ] in
theorem added_report_unique {env : NumEnv ρ κ} {lower : Text → Text} {names : List Text} (e : Entry κ (List ρ)) (o o' : SfObj)
    (h : IsReport env lower names e o) (h' : IsReport env lower names e o') : o = o' := by
  obtain ⟨n, a1, a2⟩ := h.latitude
  obtain ⟨n', b1, b2⟩ := h'.latitude
  obtain ⟨m, c1, c2⟩ := h.longitude
  obtain ⟨m', d1, d2⟩ := h'.longitude
  rw [a1] at b1
  rw [c1] at d1
  have hv := pairs_unique (h.keys.trans h'.keys.symm) (floats_unique h.values h'.values)
  have e1 := h.dateTime.trans h'.dateTime.symm
  have e2 := h.stationId.trans h'.stationId.symm
  have e3 := h.stationNumber.trans h'.stationNumber.symm
  have e4 := h.elevation.trans h'.elevation.symm
  have e5 := h.state.trans h'.state.symm
  have e6 := h.country.trans h'.country.symm
  have e7 := h.priority.trans h'.priority.symm
  have e8 : o.latitude = o'.latitude := by rw [a2, b2, Except.ok.inj b1]
  have e9 : o.longitude = o'.longitude := by rw [c2, d2, Except.ok.inj d1]
  cases o; cases o'
  simp only at hv e1 e2 e3 e4 e5 e6 e7 e8 e9
  subst hv e1 e2 e3 e4 e5 e6 e7 e8 e9
  rfl

/-- **C133** for reports of a new time or place: the file has one report more, the others are as they were. -/
theorem C133_report_new (env : NumEnv ρ κ) (upper lower : Text → Text) (names : List Text) (rs : List (AddReq κ ρ)) (r : AddReq κ ρ)
    (x : Entry κ (List ρ)) (out out' : List SfObj) (hr : sfEntry env names r = some x)
    (h : SurfaceOutput env upper lower names rs out) (h' : SurfaceOutput env upper lower names (rs ++ [r]) out')
    (hx : ∀ y ∈ rs.filterMap (sfEntry env names), ¬ y.SameKey x) : ∃ o, IsReport env lower names x o ∧ out'.Perm (o :: out) := by
  obtain ⟨l, h1, h2⟩ := h.reports
  obtain ⟨l', h3, h4⟩ := h'.reports
  rw [List.filterMap_append, List.filterMap_cons_some hr, List.filterMap_nil] at h3
  exact added_new added_report_unique h1 h2 h3 h4 hx

/-- **C133** for reports of a time and place there is a report of: that one is replaced, the others are as they were. -/
theorem C133_report_again (env : NumEnv ρ κ) (upper lower : Text → Text) (names : List Text) (rs : List (AddReq κ ρ)) (r : AddReq κ ρ)
    (x : Entry κ (List ρ)) (out out' : List SfObj) (hr : sfEntry env names r = some x)
    (h : SurfaceOutput env upper lower names rs out) (h' : SurfaceOutput env upper lower names (rs ++ [r]) out')
    (hx : ∃ y ∈ rs.filterMap (sfEntry env names), y.SameKey x) :
    ∃ y ∈ rs.filterMap (sfEntry env names), y.SameKey x ∧ ∃ o o' rest, IsReport env lower names y o ∧ IsReport env lower names x o' ∧
      out.Perm (o :: rest) ∧ out'.Perm (o' :: rest) := by
  obtain ⟨l, h1, h2⟩ := h.reports
  obtain ⟨l', h3, h4⟩ := h'.reports
  rw [List.filterMap_append, List.filterMap_cons_some hr, List.filterMap_nil] at h3
  exact added_again added_report_unique h1 h2 h3 h4 hx

/-- **C133** for calls that are refused: all reports are as they were. -/
theorem C133_report_refused (env : NumEnv ρ κ) (upper lower : Text → Text) (names : List Text) (rs : List (AddReq κ ρ)) (r : AddReq κ ρ)
    (out out' : List SfObj) (hr : sfEntry env names r = none)
    (h : SurfaceOutput env upper lower names rs out) (h' : SurfaceOutput env upper lower names (rs ++ [r]) out') : out'.Perm out := by
  obtain ⟨l, h1, h2⟩ := h.reports
  obtain ⟨l', h3, h4⟩ := h'.reports
  rw [List.filterMap_append, List.filterMap_cons_none hr, List.filterMap_nil, List.append_nil] at h3
  exact reads_perm added_report_unique h4 h2 (h3.trans h1.symm)

/-! ## Soundings -/

omit [DecidableEq κ] in
theorem column_unique {env : NumEnv ρ κ} {c : List ρ} {a b : HVal} (h : IsColumn env c a) (h' : IsColumn env c b) : a = b := by
  obtain ⟨f, h1, rfl⟩ := h
  obtain ⟨g, h2, rfl⟩ := h'
  congr 1
  induction h1 generalizing g with
  | nil => cases h2; rfl
  | cons h _ ih =>
    cases h2 with
    | cons h3 h4 =>
      rw [h] at h3
      rw [Except.ok.inj h3, ih _ h4]

theorem zip_unique {α γ : Type} {ns : List α} (hn : ns.Nodup) {vs : List γ} {n : α} {c d : γ} (h : (n, c) ∈ ns.zip vs) (h' : (n, d) ∈ ns.zip vs) :
    c = d := by
  induction ns generalizing vs with
  | nil => cases h
  | cons m ns ih =>
    cases vs with
    | nil => cases h
    | cons v vs =>
      rw [List.nodup_cons] at hn
      rw [List.zip_cons_cons, List.mem_cons] at h h'
      rcases h with h | h
      · rcases h' with h' | h'
        · exact (Prod.mk.inj h).2.trans (Prod.mk.inj h').2.symm
        · rw [(Prod.mk.inj h).1] at h'; exact absurd (List.of_mem_zip h').1 hn.1
      · rcases h' with h' | h'
        · rw [(Prod.mk.inj h').1] at h; exact absurd (List.of_mem_zip h).1 hn.1
        · exact ih hn.2 h h'

omit [DecidableEq κ] in
theorem sounding_unique {env : NumEnv ρ κ} {lower : Text → Text} {names : List Text} (hn : names.Nodup) (e : Entry κ (List (List ρ))) (o o' : SnObj)
    (h : IsSounding env lower names e o) (h' : IsSounding env lower names e o') : o = o' := by
  obtain ⟨n, a1, a2⟩ := h.lat
  obtain ⟨n', b1, b2⟩ := h'.lat
  obtain ⟨m, c1, c2⟩ := h.lon
  obtain ⟨m', d1, d2⟩ := h'.lon
  rw [a1] at b1
  rw [c1] at d1
  have hv : o.vars = o'.vars := by
    have g1 := h.vars
    have g2 := h'.vars
    revert g1 g2
    generalize (names.zip e.value).filter _ = l
    generalize o.vars = a
    generalize o'.vars = b
    intro g1
    induction g1 generalizing b with
    | nil => intro g2; cases g2; rfl
    | cons k1 _ ih =>
      intro g2
      cases g2 with
      | cons k2 k3 => rw [ih _ k3, Prod.ext (k1.1.trans k2.1.symm) (column_unique k1.2 k2.2)]
  obtain ⟨c, l1, l2⟩ := h.levels
  obtain ⟨c', l3, l4⟩ := h'.levels
  rw [zip_unique hn l3 l1] at l4
  have e0 := column_unique l2 l4
  have e1 := h.dateTime.trans h'.dateTime.symm
  have e2 := h.stationId.trans h'.stationId.symm
  have e3 := h.stationNumber.trans h'.stationNumber.symm
  have e4 := h.elevation.trans h'.elevation.symm
  have e5 := h.state.trans h'.state.symm
  have e6 := h.country.trans h'.country.symm
  have e7 := h.vcoord.trans h'.vcoord.symm
  have e8 : o.lat = o'.lat := by rw [a2, b2, Except.ok.inj b1]
  have e9 : o.lon = o'.lon := by rw [c2, d2, Except.ok.inj d1]
  cases o; cases o'
  simp only at hv e0 e1 e2 e3 e4 e5 e6 e7 e8 e9
  subst hv e0 e1 e2 e3 e4 e5 e6 e7 e8 e9
  rfl

/-- **C133** for soundings of a new time or place. -/
theorem C133_sounding_new (env : NumEnv ρ κ) (upper lower : Text → Text) (names : List Text) (rs : List (AddReq κ (List ρ))) (r : AddReq κ (List ρ))
    (x : Entry κ (List (List ρ))) (out out' : List SnObj) (hr : snEntry env names r = some x)
    (h : SoundingOutput env upper lower names rs out) (h' : SoundingOutput env upper lower names (rs ++ [r]) out')
    (hx : ∀ y ∈ rs.filterMap (snEntry env names), ¬ y.SameKey x) : ∃ o, IsSounding env lower names x o ∧ out'.Perm (o :: out) := by
  obtain ⟨l, h1, h2⟩ := h.reports
  obtain ⟨l', h3, h4⟩ := h'.reports
  rw [List.filterMap_append, List.filterMap_cons_some hr, List.filterMap_nil] at h3
  exact added_new (sounding_unique h.clear.nodup) h1 h2 h3 h4 hx

/-- **C133** for soundings of a time and place there is a sounding of. -/
theorem C133_sounding_again (env : NumEnv ρ κ) (upper lower : Text → Text) (names : List Text) (rs : List (AddReq κ (List ρ))) (r : AddReq κ (List ρ))
    (x : Entry κ (List (List ρ))) (out out' : List SnObj) (hr : snEntry env names r = some x)
    (h : SoundingOutput env upper lower names rs out) (h' : SoundingOutput env upper lower names (rs ++ [r]) out')
    (hx : ∃ y ∈ rs.filterMap (snEntry env names), y.SameKey x) :
    ∃ y ∈ rs.filterMap (snEntry env names), y.SameKey x ∧ ∃ o o' rest, IsSounding env lower names y o ∧ IsSounding env lower names x o' ∧
      out.Perm (o :: rest) ∧ out'.Perm (o' :: rest) := by
  obtain ⟨l, h1, h2⟩ := h.reports
  obtain ⟨l', h3, h4⟩ := h'.reports
  rw [List.filterMap_append, List.filterMap_cons_some hr, List.filterMap_nil] at h3
  exact added_again (sounding_unique h.clear.nodup) h1 h2 h3 h4 hx

/-- **C133** for soundings that are refused. -/
theorem C133_sounding_refused (env : NumEnv ρ κ) (upper lower : Text → Text) (names : List Text) (rs : List (AddReq κ (List ρ)))
    (r : AddReq κ (List ρ)) (out out' : List SnObj) (hr : snEntry env names r = none)
    (h : SoundingOutput env upper lower names rs out) (h' : SoundingOutput env upper lower names (rs ++ [r]) out') : out'.Perm out := by
  obtain ⟨l, h1, h2⟩ := h.reports
  obtain ⟨l', h3, h4⟩ := h'.reports
  rw [List.filterMap_append, List.filterMap_cons_none hr, List.filterMap_nil, List.append_nil] at h3
  exact reads_perm (sounding_unique h.clear.nodup) h4 h2 (h3.trans h1.symm)

/-! ## Cases -/

/-- Parts of the sample history give files that can be read. -/
theorem part_output (rs : List (AddReq Int F32))
    (hsub : ∀ x ∈ rs.filterMap (sfEntry intEnv someNames), x ∈ someRequests.filterMap (sfEntry intEnv someNames))
    (hcap : headers (rs.filterMap (sfEntry intEnv someNames)) ≤ 32000) (hne : rs.filterMap (sfEntry intEnv someNames) ≠ [])
    (hsize : (run (addStation intEnv) (⟨someNames, ⟨[]⟩, ⟨[]⟩, [], 0, 0, [], []⟩ : Builder Int (List F32)) rs).rows *
      (run (addStation intEnv) (⟨someNames, ⟨[]⟩, ⟨[]⟩, [], 0, 0, [], []⟩ : Builder Int (List F32)) rs).columns * (someNames.length + 3) ≤ 2 ^ 30) :
    ∃ out, SurfaceOutput intEnv id id someNames rs out := by
  have hnew : newBuilder intEnv someNames = .ok (⟨someNames, ⟨[]⟩, ⟨[]⟩, [], 0, 0, [], []⟩ : Builder Int (List F32)) := rfl
  have hn : SurfaceNames id someNames := by
    constructor <;> decide +kernel
  have hleg : ∀ x ∈ rs.filterMap (sfEntry intEnv someNames), x.Legible := by
    intro x hx
    have hx := hsub x hx
    rw [someEntries] at hx
    simp only [List.mem_cons, List.not_mem_nil, or_false] at hx
    rcases hx with rfl | rfl | rfl <;> constructor <;> decide +kernel
  have hw : ∀ x ∈ rs.filterMap (sfEntry intEnv someNames), x.Writable intEnv := by
    intro x hx
    have hx := hsub x hx
    rw [someEntries] at hx
    simp only [List.mem_cons, List.not_mem_nil, or_false] at hx
    rcases hx with rfl | rfl | rfl <;>
      exact ⟨by decide, by decide, by decide, ⟨_, rfl, by decide⟩, _, rfl, by decide⟩
  have hist := run_station (History.new hnew) rs
  rw [List.nil_append] at hist
  obtain ⟨bytes, hs⟩ := C14_saves intEnv someNames _ rs .little hnew hcap (fun x hx => ⟨(hleg x hx).date, (hleg x hx).clock⟩)
    hw (fun _ _ v _ => ⟨v, rfl⟩) hsize
  obtain ⟨g, out, es, h1, h2, h3, h4⟩ := C14_round_trip intEnv id id someNames _ rs .little .little bytes true hnew
    (by rw [hist.headers_eq]; exact hcap) hn hleg hne hs
  exact ⟨out, hn, hleg, hcap, hne, ⟨_, _, _, _, bytes, g, true, hnew, rfl, hs, h1, h2⟩⟩

/-- The second request of the sample history is for a new report, the third is refused, the fourth is for the first report again. -/
example : (∃ r x out out', sfEntry intEnv someNames r = some x ∧ SurfaceOutput intEnv id id someNames (someRequests.take 1) out ∧
      SurfaceOutput intEnv id id someNames (someRequests.take 1 ++ [r]) out' ∧
      ∀ y ∈ (someRequests.take 1).filterMap (sfEntry intEnv someNames), ¬ y.SameKey x) ∧
    (∃ r out out', sfEntry intEnv someNames r = none ∧ SurfaceOutput intEnv id id someNames (someRequests.take 2) out ∧
      SurfaceOutput intEnv id id someNames (someRequests.take 2 ++ [r]) out') ∧
    ∃ r x out out', sfEntry intEnv someNames r = some x ∧ SurfaceOutput intEnv id id someNames (someRequests.take 3) out ∧
      SurfaceOutput intEnv id id someNames (someRequests.take 3 ++ [r]) out' ∧
      ∃ y ∈ (someRequests.take 3).filterMap (sfEntry intEnv someNames), y.SameKey x := by
  have o1 := part_output (someRequests.take 1) (by decide +kernel) (by decide +kernel) (by decide +kernel) (by decide +kernel)
  have o2 := part_output (someRequests.take 2) (by decide +kernel) (by decide +kernel) (by decide +kernel) (by decide +kernel)
  have o3 := part_output (someRequests.take 3) (by decide +kernel) (by decide +kernel) (by decide +kernel) (by decide +kernel)
  have o4 := part_output someRequests (by decide +kernel) (by decide +kernel) (by decide +kernel) (by decide +kernel)
  obtain ⟨a1, o1⟩ := o1
  obtain ⟨a2, o2⟩ := o2
  obtain ⟨a3, o3⟩ := o3
  obtain ⟨a4, o4⟩ := o4
  refine ⟨⟨⟨[(txt "DWPF", 4), (txt "TMPF", 3)], some 35, some (-97), .dt ⟨2020, 2, 29⟩ ⟨12, 0, 0, 0⟩, none⟩, _, a1, a2, rfl, o1, o2, by decide +kernel⟩,
    ⟨⟨[(txt "TMPF", 5)], some 35, some (-97), .dt ⟨2020, 2, 29⟩ ⟨12, 0, 0, 0⟩, none⟩, a2, a3, by decide +kernel, o2, o3⟩,
    ⟨⟨[(txt "TMPF", 6), (txt "DWPF", 7)], some 40, some (-105), .dt ⟨2020, 2, 29⟩ ⟨12, 0, 0, 0⟩,
      some ⟨some (txt "KDENVER"), some 724690, none, none, none, none⟩⟩, _, a3, a4, rfl, o3, o4, by decide +kernel⟩⟩

end Gempak
