import Verif.Proof.Hours
import Verif.Props.Station
import Verif.Props.GridFile

/-!
# C98: times given as text
-/

namespace Gempak
open Spec

variable {ρ κ : Type}

/-- The time a text stands for: a time, or a time, the letter `F` and a number of hours. -/
inductive Spec.Denotes (env : NumEnv ρ κ) : Text → Date × Clock → Prop
  | plain {t x} (h : 'F' ∉ t) (hx : env.parse t = .ok x) : Spec.Denotes env t x
  | lead {a b x y n} (ha : 'F' ∉ a) (hb : 'F' ∉ b) (hx : env.parse a = .ok x) (hn : env.parseInt b = .ok n)
      (hy : instant y = instant x + n * 3600000000) (hv : y.1.Valid ∧ y.2.Valid) : Spec.Denotes env (a ++ 'F' :: b) y

theorem split_at {t : Text} (h : 'F' ∈ t) : ∃ a b, t = a ++ 'F' :: b ∧ 'F' ∉ a := by
  induction t with
  | nil => cases h
  | cons c t ih =>
    by_cases hc : c = 'F'
    · exact ⟨[], t, by rw [hc]; rfl, by simp⟩
    · have ht : 'F' ∈ t := by
        rcases List.mem_cons.1 h with h | h
        · exact absurd h.symm hc
        · exact h
      obtain ⟨a', b', e1, e2⟩ := ih ht
      refine ⟨c :: a', b', by rw [e1]; rfl, ?_⟩
      intro hm
      rcases List.mem_cons.1 hm with h | h
      · exact hc h.symm
      · exact e2 h

theorem take_split {a b : Text} (ha : 'F' ∉ a) :
    (a ++ 'F' :: b).takeWhile (· ≠ 'F') = a ∧ ((a ++ 'F' :: b).dropWhile (· ≠ 'F')).drop 1 = b := by
  induction a with
  | nil => simp
  | cons c a ih =>
    have h1 : c ≠ 'F' := fun h => ha (by rw [h]; exact List.mem_cons_self)
    obtain ⟨i1, i2⟩ := ih fun h => ha (List.mem_cons_of_mem _ h)
    rw [List.cons_append, List.takeWhile_cons_of_pos (by simpa using h1), List.dropWhile_cons_of_pos (by simpa using h1)]
    exact ⟨by rw [i1], i2⟩

theorem soundingTime_split (env : NumEnv ρ κ) {a b : Text} (ha : 'F' ∉ a) :
    soundingTime env (a ++ 'F' :: b) = if 'F' ∈ b then .error .valueError else
      env.parse a >>= fun x => env.parseInt b >>= fun n => addHours x n := by
  obtain ⟨h1, h2⟩ := take_split (b := b) ha
  unfold soundingTime
  rw [if_pos (by simp)]
  dsimp only
  rw [h1, h2]

/-- `add_sounding` reads a text as the time it stands for, and refuses texts that stand for none. -/
theorem soundingTime_iff (env : NumEnv ρ κ) (t : Text) (x : Date × Clock) : soundingTime env t = .ok x ↔ Denotes env t x := by
  by_cases hF : 'F' ∈ t
  · obtain ⟨a, b, rfl, ha⟩ := split_at hF
    rw [soundingTime_split env ha]
    constructor
    · intro h
      by_cases hb : 'F' ∈ b
      · rw [if_pos hb] at h; cases h
      rw [if_neg hb] at h
      obtain ⟨y, hy, h⟩ := Except.bind_ok h
      obtain ⟨n, hn, h⟩ := Except.bind_ok h
      have hv := env.parse_valid _ _ hy
      obtain ⟨h1, h2⟩ := addHours_ok hv.1 hv.2 h
      exact .lead ha hb hy hn h1 h2
    · intro h
      generalize ht : a ++ 'F' :: b = t at h hF
      cases h with
      | plain h0 => exact absurd hF h0
      | @lead a' b' x' y n ha' hb hx hn hy hv =>
        have he : a = a' ∧ b = b' := by
          have h1 := take_split (b := b) ha
          have h2 := take_split (b := b') ha'
          rw [ht] at h1
          exact ⟨h1.1.symm.trans h2.1, h1.2.symm.trans h2.2⟩
        obtain ⟨rfl, rfl⟩ := he
        have hv' := env.parse_valid _ _ hx
        rw [if_neg hb, hx, ok_bind, hn, ok_bind, addHours_some hv'.1 hv'.2 hv hy]
  · unfold soundingTime
    rw [if_neg hF]
    constructor
    · exact fun h => .plain hF h
    · intro h
      cases h with
      | plain _ hx => exact hx
      | lead _ _ _ _ _ _ => exact absurd (by simp) hF

variable [DecidableEq κ]

/-- **C98, soundings.** A text has the effect of the time it stands for. -/
theorem C98_sounding (env : NumEnv ρ κ) (b : Builder κ (List (List ρ))) (r : AddReq κ (List ρ)) (t : Text) (x : Date) (c : Clock)
    (h : Denotes env (env.upper t) (x, c)) :
    addSounding env b { r with dateTime := .str t } = addSounding env b { r with dateTime := .dt x c } := by
  have := (soundingTime_iff env _ _).2 h
  unfold addSounding checkSounding
  dsimp only
  rw [this]

/-- **C98, soundings.** Texts that stand for no time are refused, and nothing changes. -/
theorem C98_sounding_refused (env : NumEnv ρ κ) (b : Builder κ (List (List ρ))) (r : AddReq κ (List ρ)) (t : Text)
    (h : ∀ x, ¬ Denotes env (env.upper t) x) : ∃ e, addSounding env b { r with dateTime := .str t } = (b, .error e) := by
  have h0 : snEntry env b.names { r with dateTime := .str t } = none := by
    unfold snEntry
    cases r.slat with
    | none => rfl
    | some lat =>
      cases r.slon with
      | none => rfl
      | some lon =>
        dsimp only
        split
        · cases hs : soundingTime env (env.upper t) with
          | error e => rfl
          | ok x => exact absurd ((soundingTime_iff env _ _).1 hs) (h x)
        · rfl
  have h1 := checkSounding_eq env b.names { r with dateTime := .str t }
  rw [h0] at h1
  obtain ⟨e, h1⟩ := h1
  exact ⟨e, by unfold addSounding; rw [h1]⟩

/-- **C98 does not hold for surface files.** Times given as text are documented for `add_station`, but never accepted. -/
theorem C98_surface (env : NumEnv ρ κ) (b : Builder κ (List ρ)) (r : AddReq κ ρ) (t : Text) :
    ∃ e, addStation env b { r with dateTime := .str t } = (b, .error e) := by
  have h0 : sfEntry env b.names { r with dateTime := .str t } = none := by
    unfold sfEntry
    cases r.slat <;> cases r.slon <;> rfl
  have h1 := checkStation_eq env b.names { r with dateTime := .str t }
  rw [h0] at h1
  obtain ⟨e, h1⟩ := h1
  exact ⟨e, by unfold addStation; rw [h1]⟩

/-- **C98 does not hold for surface files**: whenever the time would have been accepted, the text for it raises `AttributeError`. -/
theorem C98_surface_error (env : NumEnv ρ κ) (b : Builder κ (List ρ)) (r : AddReq κ ρ) (t : Text) (x : Date) (c : Clock)
    (h : Denotes env (env.upper t) (x, c)) (hF : 'F' ∉ env.upper t) (hok : (addStation env b { r with dateTime := .dt x c }).2 = .ok ()) :
    addStation env b { r with dateTime := .str t } = (b, .error .attributeError) := by
  have hp : env.parse (env.upper t) = .ok (x, c) := by
    generalize env.upper t = u at h hF
    cases h with
    | plain _ hx => exact hx
    | lead _ _ _ _ _ _ => exact absurd (by simp) hF
  unfold addStation checkStation at hok ⊢
  dsimp only at hok ⊢
  cases hb : bindParams env b.names (r.data.map fun kv => (kv.1, env.clean kv.2)) with
  | error e => rw [hb] at hok; cases hok
  | ok params =>
    rw [hb, ok_bind] at hok
    rw [ok_bind]
    cases hlat : r.slat with
    | none => rw [hlat] at hok; cases hok
    | some lat =>
      cases hlon : r.slon with
      | none => rw [hlat, hlon] at hok; cases hok
      | some lon =>
        dsimp only
        rw [hp, ok_bind]

/-! ## Grids -/

theorem splitTypes_plain : ∀ {t : Text}, (∀ c ∈ t, isTypeLetter c = false) → splitTypes t = [t] := by
  intro t
  induction t with
  | nil => intro _; rfl
  | cons c t ih =>
    intro h
    unfold splitTypes
    rw [if_neg (by rw [h c List.mem_cons_self]; decide), ih fun y hy => h y (List.mem_cons_of_mem _ hy)]

/-- **C98, grids.** A text without a letter for the type of forecast has the effect of the time it stands for, if there is no second time. -/
theorem C98_grid (env : GridEnv) (b : GridBuilder) (r : GridReq) (t : Text) (x : Date) (c : Clock) (hlen : 12 ≤ t.length)
    (hl : ∀ y ∈ env.upper t, y ≠ 'A' ∧ y ≠ 'F' ∧ y ≠ 'V' ∧ y ≠ 'I' ∧ y ≠ 'G') (h : env.parseTime (env.upper t) = .ok (x, c)) (h2 : r.dateTime2 = none) :
    addGrid env b { r with dateTime := .str t } = addGrid env b { r with dateTime := .dt x c } := by
  have hs : splitTypes (env.upper t) = [env.upper t] := splitTypes_plain (by
    intro y hy
    obtain ⟨y1, y2, y3, y4, y5⟩ := hl y hy
    unfold isTypeLetter
    simp [y1, y2, y3, y4, y5])
  have hf : firstTime env (.str t) = firstTime env (.dt x c) := by
    show (if t.length < 12 then Except.error PyErr.valueError else parseGridTime env (env.upper t)) = _
    rw [if_neg (by omega)]
    unfold parseGridTime
    rw [hs]
    dsimp only
    rw [h]
    rfl
  unfold addGrid checkGrid
  dsimp only
  rw [hf, h2]
  rfl

/-- **C98 does not hold for second times of grids**: a text is refused beside a first time that is none, whatever it stands for. -/
theorem C98_second (env : GridEnv) (b : GridBuilder) (r : GridReq) (t : Text) (x : Date) (c : Clock) :
    ∃ e, addGrid env b { r with dateTime := .dt x c, dateTime2 := some (.str t) } = (b, .error e) := by
  have : gEntry env b.nx b.ny { r with dateTime := .dt x c, dateTime2 := some (.str t) } = none := by
    unfold gEntry
    split
    · cases nameOf env r.name with
      | none => rfl
      | some n =>
        cases coordOf env r.vcoord with
        | none => rfl
        | some v =>
          cases levelOf r.level with
          | none => rfl
          | some l =>
            cases level2Of r.level2 with
            | none => rfl
            | some l2 => rfl
    · rfl
  obtain ⟨⟨e, he⟩, hb⟩ := addGrid_none (env := env) (b := b) this
  exact ⟨e, Prod.ext hb he⟩

/-! ## Cases -/

/-- A host that reads two texts. -/
def textEnv : NumEnv F32 Int :=
  { intEnv with
    parse := fun t => if t = txt "202002282300" then .ok (⟨2020, 2, 28⟩, ⟨23, 0, 0, 0⟩) else .error .valueError
    parse_valid := by
      intro t x h
      split at h
      · obtain rfl := Except.ok.inj h
        decide
      · cases h
    parseInt := fun t => if t = txt "26" then .ok 26 else .error .valueError }

/-- 26 hours after 23 o'clock of the 28th of February 2020. -/
example : Denotes textEnv (txt "202002282300F26") (⟨2020, 3, 1⟩, ⟨1, 0, 0, 0⟩) :=
  Denotes.lead (a := txt "202002282300") (b := txt "26") (x := (⟨2020, 2, 28⟩, ⟨23, 0, 0, 0⟩)) (n := 26) (by decide) (by decide)
    (by unfold textEnv; decide) (by unfold textEnv; decide) (by decide +kernel) (by decide)

example : soundingTime textEnv (txt "202002282300F26") = .ok (⟨2020, 3, 1⟩, ⟨1, 0, 0, 0⟩) := by
  unfold textEnv; decide +kernel

end Gempak
