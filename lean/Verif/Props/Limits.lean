import Verif.Props.Surface

/-!
# C102: what the limits of the format admit; C103: one report for each site and time
-/

namespace Gempak
open Spec

set_option linter.unusedSectionVars false

variable {ρ κ β : Type} [DecidableEq κ]

/-! ## C102 -/

theorem upper_fold (upper : Text → Text) (hup : ∀ t, upper (upper t) = upper t) (ps acc : List Text) (hu : (acc ++ ps.map upper).Nodup)
    (ha : ∀ t ∈ acc, upper t = t) : ps.foldl (fun acc p => if p ∈ acc then acc else acc ++ [upper p]) acc = acc ++ ps.map upper := by
  induction ps generalizing acc with
  | nil => simp
  | cons p r ih =>
    rw [List.foldl_cons, List.map_cons]
    have hp : p ∉ acc := by
      intro h
      rw [List.map_cons, List.nodup_append] at hu
      exact hu.2.2 p h (upper p) List.mem_cons_self (ha p h).symm
    rw [if_neg hp, ih, List.append_assoc, List.singleton_append]
    · rw [List.append_assoc, List.singleton_append]; exact hu
    · intro t ht
      rcases List.mem_append.1 ht with h | h
      · exact ha t h
      · rw [List.mem_singleton.1 h]; exact hup p

/-- C102: a file can be made for up to 44 parameters that differ in upper case and are fit to be names; it has them in upper case, in order. -/
theorem C102_parameters (env : NumEnv ρ κ) (ps : List Text) (hup : ∀ t, env.upper (env.upper t) = env.upper t) (hl : ps.length ≤ 44)
    (hu : (ps.map env.upper).Nodup) (hi : ∀ p ∈ ps, env.ident (env.upper p)) :
    ∃ b : Builder κ β, newBuilder env ps = .ok b ∧ b.names = ps.map env.upper := by
  refine ⟨⟨ps.map env.upper, ⟨[]⟩, ⟨[]⟩, [], 0, 0, [], []⟩, ?_, rfl⟩
  unfold newBuilder addParameters
  have := upper_fold env.upper hup ps [] hu (by simp)
  rw [List.nil_append] at this
  rw [if_neg (by unfold mmparm; omega)]
  dsimp only
  rw [this, if_pos ⟨hu, by simpa using hi⟩]
  rfl

/-- C102: a parameter given twice, in upper case and not, is taken once or refused, as the order is. -/
theorem C102_twice (env : NumEnv ρ κ) (p : Text) (hup : env.upper (env.upper p) = env.upper p) (hp : env.upper p ≠ p) (hi : env.ident (env.upper p)) :
    (∃ b : Builder κ β, newBuilder env [p, env.upper p] = .ok b ∧ b.names = [env.upper p]) ∧
      newBuilder (β := β) env [env.upper p, p] = .error .valueError := by
  constructor
  · refine ⟨⟨[env.upper p], ⟨[]⟩, ⟨[]⟩, [], 0, 0, [], []⟩, ?_, rfl⟩
    simp [newBuilder, addParameters, mmparm, hi]
    rfl
  · simp [newBuilder, addParameters, mmparm, hup, hp.symm]
    rfl

theorem given_long (env : NumEnv ρ κ) (names : List Text) (data : List (Text × List ρ)) (n : Nat) (hc : Complete env.upper names data)
    (hlen : ∀ kv ∈ data, kv.2.length = n) (hn : names ≠ []) :
    (∀ x ∈ columnsOf env names data, x.length = n) ∧ columnsOf env names data ≠ [] := by
  constructor
  · intro x hx
    unfold columnsOf at hx
    obtain ⟨m, hm, hx⟩ := List.mem_filterMap.1 hx
    obtain ⟨l, hl, rfl⟩ := Option.map_eq_some_iff.1 hx
    unfold given at hl
    obtain ⟨kv, hk, rfl⟩ := Option.map_eq_some_iff.1 hl
    rw [List.length_map]
    exact hlen kv (List.mem_reverse.1 (List.mem_of_find?_eq_some hk))
  · obtain ⟨m, r, rfl⟩ := List.exists_cons_of_ne_nil hn
    obtain ⟨kv, h1, h2⟩ := hc.2 m List.mem_cons_self
    have hg : (given env.upper data m).isSome := by
      unfold given
      rw [Option.isSome_map, List.find?_isSome]
      exact ⟨kv, List.mem_reverse.2 h1, by simpa using h2⟩
    obtain ⟨l, hl⟩ := Option.isSome_iff_exists.1 hg
    unfold columnsOf
    rw [List.filterMap_cons_some (b := l.map env.clean) (by rw [hl]; rfl)]
    simp

/-- C102: a sounding of fewer than 500 levels, with all parameters and columns of one length, is accepted by any file of fewer than 31999 headers. -/
theorem C102_levels_partial (env : NumEnv ρ κ) (b : Builder κ (List (List ρ))) (r : AddReq κ (List ρ)) (n : Nat) (lat lon : κ) (x : Date) (c : Clock)
    (hrows : b.rowSet.keys.length + b.colSet.keys.length ≤ 31998) (hn : b.names ≠ []) (hc : Complete env.upper b.names r.data)
    (hlen : ∀ kv ∈ r.data, kv.2.length = n) (h500 : n < 500) (hlat : r.slat = some lat) (hlon : r.slon = some lon) (hdt : r.dateTime = .dt x c) :
    (addSounding env b r).2 = .ok () := by
  obtain ⟨g1, g2⟩ := given_long env b.names r.data n hc hlen hn
  have hrect : Rectangular (columnsOf env b.names r.data) := by
    obtain ⟨a, l, e⟩ := List.exists_cons_of_ne_nil g2
    rw [e] at g1 ⊢
    have ha := g1 a List.mem_cons_self
    exact ⟨by omega, fun y hy => by rw [g1 y (List.mem_cons_of_mem _ hy), ha]⟩
  have he : ∃ e, snEntry env b.names r = some e := by
    unfold snEntry
    rw [hlat, hlon, hdt]
    dsimp only
    rw [if_pos ⟨hc, hrect⟩]
    exact ⟨_, rfl⟩
  obtain ⟨e, he⟩ := he
  have hcs := checkSounding_eq env b.names r
  rw [he] at hcs
  unfold addSounding
  rw [hcs]
  dsimp only
  unfold Builder.enter
  dsimp only
  rw [if_neg]
  have len : ∀ {α : Type} [DecidableEq α] (s : OrderedSet α) (k : α), (s.add k).keys.length ≤ s.keys.length + 1 := by
    intro α _ s k
    unfold OrderedSet.add
    split <;> simp
  have a1 := len b.rowSet e.place.1
  have a2 := len b.colSet e.place.2
  unfold mmhdrs
  omega

/-- C102: a sounding of 500 levels, the number the format admits, is refused. -/
theorem C102_levels (env : NumEnv ρ κ) (b : Builder κ (List (List ρ))) (r : AddReq κ (List ρ)) (hn : b.names ≠ [])
    (hc : Complete env.upper b.names r.data) (hlen : ∀ kv ∈ r.data, kv.2.length = 500) :
    addSounding env b r = (b, .error .valueError) := by
  obtain ⟨g1, g2⟩ := given_long env b.names r.data 500 hc hlen hn
  have hv : b.names.filterMap (given env.upper (r.data.map fun kv => (kv.1, kv.2.map env.clean))) = columnsOf env b.names r.data := by
    unfold columnsOf
    congr 1
    funext n
    exact given_map env.upper (fun l => List.map env.clean l) r.data n
  have hl : validateLength (columnsOf env b.names r.data) = .ok false := by
    obtain ⟨a, l, e⟩ := List.exists_cons_of_ne_nil g2
    rw [e] at g1 ⊢
    have ha := g1 a List.mem_cons_self
    show Except.ok _ = _
    rw [ha, show decide (500 < maxLevels) = false by decide, Bool.and_false]
  have : checkSounding env b.names r = .error .valueError := by
    unfold checkSounding
    rw [bindParams_eq, if_pos ((complete_map _ _ _ _).2 hc), hv]
    simp only [bind, Except.bind, hl]
    rfl
  unfold addSounding
  rw [this]

/-- It does not matter what else is in the file. -/
example : addSounding (κ := Int) intEnv ⟨[txt "PRES", txt "TEMP"], ⟨[]⟩, ⟨[]⟩, [], 0, 0, [], []⟩
    ⟨[(txt "PRES", List.replicate 500 1), (txt "TEMP", List.replicate 500 2)], some 40, some (-105), .dt ⟨2020, 2, 29⟩ ⟨12, 0, 0, 0⟩, none⟩ =
      (⟨[txt "PRES", txt "TEMP"], ⟨[]⟩, ⟨[]⟩, [], 0, 0, [], []⟩, .error .valueError) := by
  refine C102_levels _ _ _ (by decide) ⟨by decide, by decide⟩ fun kv hkv => ?_
  simp only [List.mem_cons, List.not_mem_nil, or_false] at hkv
  rcases hkv with rfl | rfl <;> exact List.length_replicate

/-- With one level less it is accepted. -/
example : (addSounding (κ := Int) intEnv ⟨[txt "PRES", txt "TEMP"], ⟨[]⟩, ⟨[]⟩, [], 0, 0, [], []⟩
    ⟨[(txt "PRES", List.replicate 499 1), (txt "TEMP", List.replicate 499 2)], some 40, some (-105), .dt ⟨2020, 2, 29⟩ ⟨12, 0, 0, 0⟩, none⟩).2 = .ok () := by
  refine C102_levels_partial _ _ _ 499 40 (-105) ⟨2020, 2, 29⟩ ⟨12, 0, 0, 0⟩ (by decide) (by decide) ⟨by decide, by decide⟩ (fun kv hkv => ?_) (by omega)
    rfl rfl rfl
  simp only [List.mem_cons, List.not_mem_nil, or_false] at hkv
  rcases hkv with rfl | rfl <;> exact List.length_replicate

/-! ## C103 -/

/-- Two reports are of the same site and time. -/
def Spec.Alike (a b : SfObj) : Prop :=
  a.dateTime = b.dateTime ∧ a.stationId = b.stationId ∧ a.stationNumber = b.stationNumber ∧ a.latitude = b.latitude ∧ a.longitude = b.longitude ∧
    a.elevation = b.elevation ∧ a.state = b.state ∧ a.country = b.country ∧ a.priority = b.priority

/-- Two requests have the same words for site and time: times are kept to the minute, coordinates to the hundredth of a degree. -/
def Spec.SameWords (env : NumEnv ρ κ) (a b : Entry κ β) : Prop :=
  storedTime a.date a.clock = storedTime b.date b.clock ∧ a.id = b.id ∧ a.number = b.number ∧ env.centi a.lat = env.centi b.lat ∧
    env.centi a.lon = env.centi b.lon ∧ a.elev = b.elev ∧ a.state = b.state ∧ a.country = b.country ∧ a.priority = b.priority

theorem alike_iff {env : NumEnv ρ κ} {lower : Text → Text} {names : List Text} {x y : Entry κ (List ρ)} {o p : SfObj}
    (h1 : IsReport env lower names x o) (h2 : IsReport env lower names y p) : Alike o p ↔ SameWords env x y := by
  unfold Alike SameWords
  obtain ⟨n1, a1, b1⟩ := h1.latitude
  obtain ⟨n2, a2, b2⟩ := h2.latitude
  obtain ⟨n3, a3, b3⟩ := h1.longitude
  obtain ⟨n4, a4, b4⟩ := h2.longitude
  rw [h1.dateTime, h2.dateTime, h1.stationId, h2.stationId, h1.stationNumber, h2.stationNumber, b1, b2, b3, b4, a1, a2, a3, a4, h1.elevation,
    h2.elevation, h1.state, h2.state, h1.country, h2.country, h1.priority, h2.priority]
  simp only [HVal.int.injEq, HVal.coord.injEq, HVal.text.injEq, Except.ok.injEq]

theorem forall₂_pairwise {α γ : Type} {R : α → γ → Prop} {P : α → α → Prop} {Q : γ → γ → Prop} (h : ∀ x y o p, R x o → R y p → (P x y ↔ Q o p))
    {l : List α} {m : List γ} (hl : List.Forall₂ R l m) : l.Pairwise P ↔ m.Pairwise Q := by
  induction hl with
  | nil => simp
  | cons h1 h2 ih =>
    rw [List.pairwise_cons, List.pairwise_cons, ih]
    apply and_congr_left
    intro hd
    clear ih hd
    induction h2 with
    | nil => simp
    | cons h3 h4 ih' => rw [List.forall_mem_cons, List.forall_mem_cons, ih', h _ _ _ _ h1 h3]

/-- C103: the reports of a saved file are of different sites and times exactly when the requests kept differ in the words that are written for them. -/
theorem C103_iff (env : NumEnv ρ κ) (upper lower : Text → Text) (names : List Text) (rs : List (AddReq κ ρ)) (out : List SfObj)
    (h : SurfaceOutput env upper lower names rs out) :
    out.Pairwise (fun a b => ¬ Alike a b) ↔
      ∀ x ∈ rs.filterMap (sfEntry env names), ∀ y ∈ rs.filterMap (sfEntry env names), SameWords env x y → x.SameKey y := by
  obtain ⟨es, h1, h2⟩ := h.reports
  have symm' : ∀ {a b : Entry κ (List ρ)}, SameWords env a b → SameWords env b a := by
    rintro a b ⟨e1, e2, e3, e4, e5, e6, e7, e8, e9⟩
    exact ⟨e1.symm, e2.symm, e3.symm, e4.symm, e5.symm, e6.symm, e7.symm, e8.symm, e9.symm⟩
  have sym : ∀ {a b : Entry κ (List ρ)}, ¬ SameWords env a b → ¬ SameWords env b a := fun hn hs => hn (symm' hs)
  have key : ∀ {a b : Entry κ (List ρ)}, a.SameKey b → SameWords env a b := by
    rintro a b ⟨e0, e1, e2, e3, e4, e5, e6, e7, e8, e9⟩
    exact ⟨by rw [e0, e1], e2, e3, by rw [e4], by rw [e5], e6, e7, e8, e9⟩
  have trans : ∀ {a b c : Entry κ (List ρ)}, SameWords env a b → SameWords env b c → SameWords env a c := by
    rintro a b c ⟨e1, e2, e3, e4, e5, e6, e7, e8, e9⟩ ⟨f1, f2, f3, f4, f5, f6, f7, f8, f9⟩
    exact ⟨e1.trans f1, e2.trans f2, e3.trans f3, e4.trans f4, e5.trans f5, e6.trans f6, e7.trans f7, e8.trans f8, e9.trans f9⟩
  have hp : es.Pairwise (fun a b => ¬ SameWords env a b) ↔ out.Pairwise (fun a b => ¬ Alike a b) :=
    forall₂_pairwise (R := IsReport env lower names) (P := fun a b => ¬ SameWords env a b) (Q := fun a b => ¬ Alike a b) (fun x y o p r1 r2 => not_congr (alike_iff r1 r2).symm) h2
  rw [← hp, h1.pairwise_iff (fun {a b} => sym)]
  constructor
  · intro hf x hx y hy hs
    obtain ⟨x', hx', kx⟩ := final_covers hx
    obtain ⟨y', hy', ky⟩ := final_covers hy
    by_cases e : x' = y'
    · rw [sameKey_iff] at kx ky ⊢
      rw [kx, ky, e]
    · have hs' : SameWords env x' y' := trans (symm' (key kx)) (trans hs (key ky))
      haveI : Std.Symm (fun a b : Entry κ (List ρ) => ¬ SameWords env a b) := ⟨fun a b => sym⟩
      exact absurd hs' (hf.forall hx' hy' e)
  · intro hf
    obtain ⟨x0, _⟩ := List.exists_mem_of_ne_nil _ h.some
    refine (C17_other_keys (rs.filterMap (sfEntry env names)) x0).1.imp_of_mem fun {a b} ha hb hk hs => hk ?_
    exact hf a (final_sub ha) b (final_sub hb) hs

/-- One station, reported twice within a minute. -/
def sameMinute : List (AddReq Int F32) :=
  [⟨[(txt "TMPF", 1), (txt "DWPF", 2)], some 40, some (-105), .dt ⟨2020, 2, 29⟩ ⟨12, 0, 0, 0⟩, some ⟨some (txt "KDEN"), some 724690, none, none, none, none⟩⟩,
   ⟨[(txt "TMPF", 6), (txt "DWPF", 7)], some 40, some (-105), .dt ⟨2020, 2, 29⟩ ⟨12, 0, 30, 0⟩, some ⟨some (txt "KDEN"), some 724690, none, none, none, none⟩⟩]

theorem sameMinute_entries : sameMinute.filterMap (sfEntry intEnv someNames) =
    [⟨⟨2020, 2, 29⟩, ⟨12, 0, 0, 0⟩, txt "KDEN", 724690, 40, -105, -9999, [], [], 0, [1, 2]⟩,
     ⟨⟨2020, 2, 29⟩, ⟨12, 0, 30, 0⟩, txt "KDEN", 724690, 40, -105, -9999, [], [], 0, [6, 7]⟩] := by
  decide +kernel

/-- C103: reports of one station that differ only in the seconds are both written, and read back with one time. -/
theorem C103_counterexample : ∃ out, SurfaceOutput intEnv id id someNames sameMinute out ∧ ¬ out.Pairwise (fun a b => ¬ Alike a b) := by
  have hnew : newBuilder intEnv someNames = .ok (⟨someNames, ⟨[]⟩, ⟨[]⟩, [], 0, 0, [], []⟩ : Builder Int (List F32)) := rfl
  have hn : SurfaceNames id someNames := by
    constructor <;> decide +kernel
  have hleg : ∀ x ∈ sameMinute.filterMap (sfEntry intEnv someNames), x.Legible := by
    rw [sameMinute_entries]
    intro x hx
    simp only [List.mem_cons, List.not_mem_nil, or_false] at hx
    rcases hx with rfl | rfl <;> constructor <;> decide +kernel
  have hw : ∀ x ∈ sameMinute.filterMap (sfEntry intEnv someNames), x.Writable intEnv := by
    rw [sameMinute_entries]
    intro x hx
    simp only [List.mem_cons, List.not_mem_nil, or_false] at hx
    rcases hx with rfl | rfl <;>
      exact ⟨by decide, by decide, by decide, ⟨_, rfl, by decide⟩, _, rfl, by decide⟩
  have hcap : headers (sameMinute.filterMap (sfEntry intEnv someNames)) ≤ 32000 := by
    rw [sameMinute_entries]; decide +kernel
  have hne : sameMinute.filterMap (sfEntry intEnv someNames) ≠ [] := by rw [sameMinute_entries]; simp
  have hist := run_station (History.new hnew) sameMinute
  rw [List.nil_append] at hist
  obtain ⟨bytes, hs⟩ := C14_saves intEnv someNames _ sameMinute .little hnew hcap (fun x hx => ⟨(hleg x hx).date, (hleg x hx).clock⟩)
    hw (fun _ _ v _ => ⟨v, rfl⟩) (by decide +kernel)
  obtain ⟨g, out, es, h1, h2, h3, h4⟩ := C14_round_trip intEnv id id someNames _ sameMinute .little .little bytes true hnew
    (by rw [hist.headers_eq]; exact hcap) hn hleg hne hs
  have ho : SurfaceOutput intEnv id id someNames sameMinute out := ⟨hn, hleg, hcap, hne, ⟨_, _, _, _, bytes, g, true, hnew, rfl, hs, h1, h2⟩⟩
  refine ⟨out, ho, ?_⟩
  rw [C103_iff _ _ _ _ _ _ ho, sameMinute_entries]
  intro h
  have := h _ List.mem_cons_self _ (List.mem_cons_of_mem _ List.mem_cons_self) ⟨rfl, rfl, rfl, rfl, rfl, rfl, rfl, rfl, rfl⟩
  exact absurd this.2.1 (by decide)

end Gempak
