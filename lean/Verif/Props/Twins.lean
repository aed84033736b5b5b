import Verif.Props.Limits
import Verif.Props.Sounding

/-!
# C107: soundings of one site and time in a saved file
-/

namespace Gempak

open Spec

variable {ρ κ : Type} [DecidableEq κ]

/-- Two soundings are of the same site and time. -/
def Spec.Twins (a b : SnObj) : Prop :=
  a.dateTime = b.dateTime ∧ a.stationId = b.stationId ∧ a.stationNumber = b.stationNumber ∧ a.lat = b.lat ∧ a.lon = b.lon ∧
    a.elevation = b.elevation ∧ a.state = b.state ∧ a.country = b.country

/-- Two requests have the same words for site and time: of the identifier four characters are kept. -/
def Spec.TwinWords (env : NumEnv ρ κ) (a b : Entry κ β) : Prop :=
  storedTime a.date a.clock = storedTime b.date b.clock ∧ a.id.take 4 = b.id.take 4 ∧ a.number = b.number ∧
    env.centi a.lat = env.centi b.lat ∧ env.centi a.lon = env.centi b.lon ∧ a.elev = b.elev ∧ a.state = b.state ∧ a.country = b.country

omit [DecidableEq κ] in
theorem twins_iff {env : NumEnv ρ κ} {lower : Text → Text} {names : List Text} {x y : Entry κ (List (List ρ))} {o p : SnObj}
    (h1 : IsSounding env lower names x o) (h2 : IsSounding env lower names y p) : Twins o p ↔ TwinWords env x y := by
  unfold Twins TwinWords
  obtain ⟨n1, a1, b1⟩ := h1.lat
  obtain ⟨n2, a2, b2⟩ := h2.lat
  obtain ⟨n3, a3, b3⟩ := h1.lon
  obtain ⟨n4, a4, b4⟩ := h2.lon
  rw [h1.dateTime, h2.dateTime, h1.stationId, h2.stationId, h1.stationNumber, h2.stationNumber, b1, b2, b3, b4, a1, a2, a3, a4, h1.elevation,
    h2.elevation, h1.state, h2.state, h1.country, h2.country]
  simp only [HVal.int.injEq, HVal.coord.injEq, HVal.text.injEq, Except.ok.injEq]

/-- C107: the soundings of a saved file are of different sites and times exactly when the requests kept differ in the words that
are written for them. -/
theorem C107_iff (env : NumEnv ρ κ) (upper lower : Text → Text) (names : List Text) (rs : List (AddReq κ (List ρ))) (out : List SnObj)
    (h : SoundingOutput env upper lower names rs out) :
    out.Pairwise (fun a b => ¬ Twins a b) ↔
      ∀ x ∈ rs.filterMap (snEntry env names), ∀ y ∈ rs.filterMap (snEntry env names), TwinWords env x y → x.SameKey y := by
  obtain ⟨es, h1, h2⟩ := h.reports
  have symm' : ∀ {a b : Entry κ (List (List ρ))}, TwinWords env a b → TwinWords env b a := by
    rintro a b ⟨e1, e2, e3, e4, e5, e6, e7, e8⟩
    exact ⟨e1.symm, e2.symm, e3.symm, e4.symm, e5.symm, e6.symm, e7.symm, e8.symm⟩
  have sym : ∀ {a b : Entry κ (List (List ρ))}, ¬ TwinWords env a b → ¬ TwinWords env b a := fun hn hs => hn (symm' hs)
  have key : ∀ {a b : Entry κ (List (List ρ))}, a.SameKey b → TwinWords env a b := by
    rintro a b ⟨e0, e1, e2, e3, e4, e5, e6, e7, e8, e9⟩
    exact ⟨by rw [e0, e1], by rw [e2], e3, by rw [e4], by rw [e5], e6, e7, e8⟩
  have trans : ∀ {a b c : Entry κ (List (List ρ))}, TwinWords env a b → TwinWords env b c → TwinWords env a c := by
    rintro a b c ⟨e1, e2, e3, e4, e5, e6, e7, e8⟩ ⟨f1, f2, f3, f4, f5, f6, f7, f8⟩
    exact ⟨e1.trans f1, e2.trans f2, e3.trans f3, e4.trans f4, e5.trans f5, e6.trans f6, e7.trans f7, e8.trans f8⟩
  have hp : es.Pairwise (fun a b => ¬ TwinWords env a b) ↔ out.Pairwise (fun a b => ¬ Twins a b) :=
    forall₂_pairwise (R := IsSounding env lower names) (P := fun a b => ¬ TwinWords env a b) (Q := fun a b => ¬ Twins a b)
      (fun x y o p r1 r2 => not_congr (twins_iff r1 r2).symm) h2
  rw [← hp, h1.pairwise_iff (fun {a b} => sym)]
  constructor
  · intro hf x hx y hy hs
    obtain ⟨x', hx', kx⟩ := final_covers hx
    obtain ⟨y', hy', ky⟩ := final_covers hy
    by_cases e : x' = y'
    · rw [sameKey_iff] at kx ky ⊢
      rw [kx, ky, e]
    · have hs' : TwinWords env x' y' := trans (symm' (key kx)) (trans hs (key ky))
      haveI : Std.Symm (fun a b : Entry κ (List (List ρ)) => ¬ TwinWords env a b) := ⟨fun a b => sym⟩
      exact absurd hs' (hf.forall hx' hy' e)
  · intro hf
    obtain ⟨x0, _⟩ := List.exists_mem_of_ne_nil _ h.some
    refine (C17_other_keys (rs.filterMap (snEntry env names)) x0).1.imp_of_mem fun {a b} ha hb hk hs => hk ?_
    exact hf a (final_sub ha) b (final_sub hb) hs

/-- Two stations whose identifiers have the first four characters in common. -/
def longIds : List (AddReq Int (List F32)) :=
  [⟨[(txt "PRES", [1000, 500]), (txt "TMPC", [10, 3])], some 40, some (-105), .dt ⟨2020, 2, 29⟩ ⟨12, 0, 0, 0⟩, some ⟨some (txt "KDEN1"), none, none, none, none, none⟩⟩,
   ⟨[(txt "PRES", [900, 400]), (txt "TMPC", [7, 8])], some 40, some (-105), .dt ⟨2020, 2, 29⟩ ⟨12, 0, 0, 0⟩, some ⟨some (txt "KDEN2"), none, none, none, none, none⟩⟩]

theorem longIds_entries : longIds.filterMap (snEntry intEnv snTwo) =
    [⟨⟨2020, 2, 29⟩, ⟨12, 0, 0, 0⟩, txt "KDEN1", -9999, 40, -105, -9999, [], [], 0, [[1000, 500], [10, 3]]⟩,
     ⟨⟨2020, 2, 29⟩, ⟨12, 0, 0, 0⟩, txt "KDEN2", -9999, 40, -105, -9999, [], [], 0, [[900, 400], [7, 8]]⟩] := by
  decide +kernel

theorem longIds_alike : (txt "KDEN1").take 4 = (txt "KDEN2").take 4 := by decide +kernel

theorem longIds_differ : txt "KDEN1" ≠ txt "KDEN2" := by decide +kernel

/-- C107: soundings of two stations whose identifiers agree in four characters are both written, and cannot be told apart when
they are read. -/
theorem C107_counterexample : ∃ out, SoundingOutput intEnv id id snTwo longIds out ∧ ¬ out.Pairwise (fun a b => ¬ Twins a b) := by
  have hnew : newBuilder intEnv snTwo = .ok (⟨snTwo, ⟨[]⟩, ⟨[]⟩, [], 0, 0, [], []⟩ : Builder Int (List (List F32))) := rfl
  have hn : SoundingNames id snTwo := by
    constructor <;> decide +kernel
  have hleg : ∀ x ∈ longIds.filterMap (snEntry intEnv snTwo), x.Legible := by
    rw [longIds_entries]
    intro x hx
    simp only [List.mem_cons, List.not_mem_nil, or_false] at hx
    rcases hx with rfl | rfl <;> constructor <;> decide +kernel
  have hw : ∀ x ∈ longIds.filterMap (snEntry intEnv snTwo), x.Writable intEnv := by
    rw [longIds_entries]
    intro x hx
    simp only [List.mem_cons, List.not_mem_nil, or_false] at hx
    rcases hx with rfl | rfl <;>
      exact ⟨by decide, by decide, by decide, ⟨_, rfl, by decide⟩, _, rfl, by decide⟩
  have hpos : ∀ x ∈ longIds.filterMap (snEntry intEnv snTwo), ∀ c ∈ x.value, c ≠ [] := by
    rw [longIds_entries]; decide +kernel
  have hcap : headers (longIds.filterMap (snEntry intEnv snTwo)) ≤ 32000 := by
    rw [longIds_entries]; decide +kernel
  have hne : longIds.filterMap (snEntry intEnv snTwo) ≠ [] := by rw [longIds_entries]; simp
  obtain ⟨bytes, hs⟩ := C15_saves intEnv snTwo _ longIds .big hnew hcap (fun x hx => ⟨(hleg x hx).date, (hleg x hx).clock⟩)
    hw (fun _ _ _ _ v _ => ⟨v, rfl⟩) (by decide +kernel)
  obtain ⟨g, out, es, h1, h2, h3, h4⟩ := C15_round_trip_partial intEnv id id snTwo _ longIds .big .little bytes hnew
    hcap hn hleg hpos hne hs
  have ho : SoundingOutput intEnv id id snTwo longIds out := ⟨hn, hleg, hpos, hcap, hne, ⟨_, _, _, _, bytes, g, hnew, rfl, hs, h1, h2⟩⟩
  refine ⟨out, ho, ?_⟩
  rw [C107_iff _ _ _ _ _ _ ho, longIds_entries]
  intro h
  have := h _ List.mem_cons_self _ (List.mem_cons_of_mem _ List.mem_cons_self) ⟨rfl, longIds_alike, rfl, rfl, rfl, rfl, rfl, rfl⟩
  exact longIds_differ this.2.2.1

end Gempak
