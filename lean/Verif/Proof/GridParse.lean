import Mathlib.Data.List.TakeWhile
import Mathlib.Data.List.DropRight
import Verif.Proof.Station
import Verif.Proof.DMTotal
import Verif.Spec.Grid

/-!
# Grid files: what requests are accepted
-/

namespace Gempak
open Spec

/-- Not a letter of a forecast type. -/
abbrev noLetter (c : Char) : Bool := (letterNumber c).isNone

theorem isTypeLetter_eq (c : Char) : isTypeLetter c = !noLetter c := by
  unfold isTypeLetter noLetter letterNumber letters
  by_cases h1 : c = 'A'
  · subst h1; decide
  by_cases h2 : c = 'F'
  · subst h2; decide
  by_cases h3 : c = 'V'
  · subst h3; decide
  by_cases h4 : c = 'G'
  · subst h4; decide
  by_cases h5 : c = 'I'
  · subst h5; decide
  simp [h1, h2, h3, h4, h5, Ne.symm h1, Ne.symm h2, Ne.symm h3, Ne.symm h4, Ne.symm h5, List.find?]

theorem letterNumber_some {c : Char} {n : Nat} (h : letterNumber c = some n) : typeNumber c = n ∧ n ≤ 3 := by
  have hl : isTypeLetter c = true := by rw [isTypeLetter_eq, noLetter, h]; rfl
  unfold isTypeLetter at hl
  simp only [Bool.or_eq_true, decide_eq_true_eq] at hl
  have a : letterNumber 'A' = some 0 := by decide +kernel
  have f : letterNumber 'F' = some 1 := by decide +kernel
  have v : letterNumber 'V' = some 1 := by decide +kernel
  have g : letterNumber 'G' = some 2 := by decide +kernel
  have i : letterNumber 'I' = some 3 := by decide +kernel
  rcases hl with (((rfl | rfl) | rfl) | rfl) | rfl
  all_goals
    first
    | (obtain rfl := Option.some.inj (a.symm.trans h); decide)
    | (obtain rfl := Option.some.inj (f.symm.trans h); decide)
    | (obtain rfl := Option.some.inj (v.symm.trans h); decide)
    | (obtain rfl := Option.some.inj (g.symm.trans h); decide)
    | (obtain rfl := Option.some.inj (i.symm.trans h); decide)

theorem splitTypes_free {s : Text} (h : s.dropWhile noLetter = []) : splitTypes s = [s] := by
  induction s with
  | nil => rfl
  | cons c s ih =>
    rw [List.dropWhile_cons] at h
    split at h
    · rename_i hc
      unfold splitTypes
      rw [isTypeLetter_eq, hc, if_neg (by simp), ih h]
    · cases h

theorem splitTypes_letter {s : Text} {g : Char} {lead : Text} (h : s.dropWhile noLetter = g :: lead) :
    splitTypes s = s.takeWhile noLetter :: [g] :: splitTypes lead ∧ noLetter g = false := by
  induction s with
  | nil => cases h
  | cons c s ih =>
    rw [List.dropWhile_cons] at h
    split at h
    · rename_i hc
      obtain ⟨h1, h2⟩ := ih h
      refine ⟨?_, h2⟩
      rw [splitTypes, isTypeLetter_eq, hc, if_neg (by simp), h1, List.takeWhile_cons, if_pos hc]
    · rename_i hc
      obtain ⟨rfl, rfl⟩ := List.cons.inj h
      have hc' : noLetter c = false := Bool.eq_false_iff.2 hc
      refine ⟨?_, hc'⟩
      rw [splitTypes, isTypeLetter_eq, hc', if_pos (by simp), List.takeWhile_cons, if_neg hc]

theorem dropWhile_nil_iff {s : Text} : s.dropWhile noLetter = [] ↔ s.all noLetter = true := by
  rw [List.dropWhile_eq_nil_iff, List.all_eq_true]

theorem takeWhile_of_drop {s : Text} (h : s.dropWhile noLetter = []) : s.takeWhile noLetter = s := by
  have := List.takeWhile_append_dropWhile (p := noLetter) (l := s)
  rw [h, List.append_nil] at this
  exact this

/-- Spelled out lead times. -/
theorem parseLead_eq (env : GridEnv) (t : Text) :
    match leadOf env t with
    | some l => parseLead env t = .ok l
    | none => ∃ err, parseLead env t = .error err := by
  unfold leadOf parseLead
  by_cases h : t = []
  · subst h; rfl
  · rw [if_neg h]
    by_cases h3 : t.length ≤ 3
    · rw [if_pos h3, if_neg (by omega), if_neg h, List.take_of_length_le h3]
      cases env.parseInt t with
      | error e => exact ⟨e, rfl⟩
      | ok x => rfl
    · rw [if_neg h3, if_pos (by omega)]
      cases env.parseInt (t.take 3) with
      | error e => exact ⟨e, rfl⟩
      | ok x =>
        cases env.parseInt (t.drop 3) with
        | error e => exact ⟨e, rfl⟩
        | ok y => rfl

/-- Dates of a time. -/
def Spec.When.gdate (w : When) : GDate := ⟨w.type, w.date, w.clock⟩
/-- Lead of a time. -/
def Spec.When.gtime (w : When) : GTime := ⟨w.type, w.hours, w.minutes⟩

theorem plainTime_eq (x : Date) (c : Clock) : plainTime (x, c) = ((analysis x c).gdate, (analysis x c).gtime) := rfl

theorem whenOf_plain (env : GridEnv) {s : Text} (hd : s.dropWhile noLetter = []) :
    whenOf env s = (env.parseTime s).toOption.map fun x => analysis x.1 x.2 := by
  have h2 := takeWhile_of_drop hd
  unfold whenOf
  dsimp only
  rw [hd]
  dsimp only
  rw [h2]

/-- Text with a letter: the three pieces. -/
def whenPieces (env : GridEnv) (init : Text) (n : Nat) (lead : Text) : Option When :=
  match env.parseTime init, leadOf env lead with
  | .ok x, some l => some ⟨n, x.1, x.2, l.1, l.2⟩
  | _, _ => none

theorem whenOf_letter (env : GridEnv) {s : Text} {g : Char} {lead : Text} {n : Nat} (hd : s.dropWhile noLetter = g :: lead)
    (hn : letterNumber g = some n) :
    whenOf env s = if lead.all noLetter = true then whenPieces env (s.takeWhile noLetter) n lead else none := by
  unfold whenOf whenPieces
  dsimp only
  rw [hd]
  dsimp only
  rw [hn]
  by_cases h : lead.all noLetter = true
  · rw [if_pos h, if_pos h]
    cases env.parseTime (s.takeWhile noLetter) with
    | error e => rfl
    | ok x => cases leadOf env lead <;> rfl
  · rw [if_neg h, if_neg h]

theorem parseGridTime_eq (env : GridEnv) (s : Text) :
    match whenOf env s with
    | some w => parseGridTime env s = .ok (w.gdate, w.gtime)
    | none => ∃ err, parseGridTime env s = .error err := by
  cases hd : s.dropWhile noLetter with
  | nil =>
    rw [whenOf_plain env hd]
    unfold parseGridTime
    rw [splitTypes_free hd]
    cases env.parseTime s with
    | error e => exact ⟨e, rfl⟩
    | ok x => rfl
  | cons g lead =>
    obtain ⟨h1, hg⟩ := splitTypes_letter hd
    obtain ⟨n, hn⟩ : ∃ n, letterNumber g = some n := by
      cases hl : letterNumber g with
      | none => rw [noLetter, hl] at hg; cases hg
      | some n => exact ⟨n, rfl⟩
    rw [whenOf_letter env hd hn]
    by_cases hall : lead.all noLetter = true
    · rw [if_pos hall]
      have h3 := splitTypes_free (dropWhile_nil_iff.2 hall)
      rw [h3] at h1
      unfold parseGridTime whenPieces
      rw [h1]
      dsimp only
      have hlead := parseLead_eq env lead
      cases ht : env.parseTime (s.takeWhile noLetter) with
      | error e => exact ⟨e, rfl⟩
      | ok x =>
        cases hl : leadOf env lead with
        | none =>
          rw [hl] at hlead
          obtain ⟨err, he⟩ := hlead
          refine ⟨err, ?_⟩
          rw [he]; rfl
        | some l =>
          rw [hl] at hlead
          dsimp only at hlead ⊢
          rw [hlead]
          show Except.ok _ = Except.ok _
          rw [(letterNumber_some hn).1]
          rfl
    · rw [if_neg hall]
      have hne : lead.dropWhile noLetter ≠ [] := fun hc => hall (dropWhile_nil_iff.1 hc)
      obtain ⟨g2, lead2, h4⟩ := List.exists_cons_of_ne_nil hne
      obtain ⟨h5, _⟩ := splitTypes_letter h4
      cases hs : splitTypes lead2 with
      | nil =>
        refine ⟨.valueError, ?_⟩
        unfold parseGridTime
        rw [h1, h5]
      | cons a b =>
        refine ⟨.valueError, ?_⟩
        unfold parseGridTime
        rw [h1, h5]

theorem typed_eq (s : Text) (w : When) (env : GridEnv) (h : whenOf env s = some w) :
    ((splitTypes s).length = 3 ↔ typed s = true) := by
  have ht : typed s = true ↔ ¬ s.all noLetter = true := by
    unfold typed
    rw [List.any_eq_true, List.all_eq_true]
    push Not
    constructor
    · rintro ⟨c, hc, h⟩
      refine ⟨c, hc, ?_⟩
      unfold noLetter
      cases hl : letterNumber c with
      | none => rw [hl] at h; cases h
      | some _ => simp
    · rintro ⟨c, hc, h⟩
      refine ⟨c, hc, ?_⟩
      unfold noLetter at h
      cases hl : letterNumber c with
      | none => rw [hl] at h; simp at h
      | some _ => rfl
  rw [ht, ← dropWhile_nil_iff]
  cases hd : s.dropWhile noLetter with
  | nil => rw [splitTypes_free hd]; simp
  | cons g lead =>
    obtain ⟨h1, hg⟩ := splitTypes_letter hd
    obtain ⟨n, hn⟩ : ∃ n, letterNumber g = some n := by
      cases hl : letterNumber g with
      | none => rw [noLetter, hl] at hg; cases hg
      | some n => exact ⟨n, rfl⟩
    rw [whenOf_letter env hd hn] at h
    by_cases hall : lead.all noLetter = true
    · rw [h1, splitTypes_free (dropWhile_nil_iff.2 hall)]; simp
    · rw [if_neg hall] at h; cases h

theorem firstTime_eq (env : GridEnv) (d : DateArg) :
    match firstOf env d with
    | some w => firstTime env d = .ok (w.gdate, w.gtime)
    | none => ∃ err, firstTime env d = .error err := by
  cases d with
  | other => exact ⟨_, rfl⟩
  | dt x c => rfl
  | str t =>
    unfold firstOf firstTime
    dsimp only
    by_cases h : 12 ≤ t.length
    · rw [if_pos h, if_neg (by omega)]
      exact parseGridTime_eq env _
    · rw [if_neg h, if_pos (by omega)]
      exact ⟨_, rfl⟩

/-- Second lead, zero if there is no second time. -/
def secondLead : Option When → GTime
  | none => ⟨0, 0, 0⟩
  | some w => w.gtime

theorem secondTime_eq (env : GridEnv) (d : DateArg) (w : When) (d2 : Option DateArg) :
    match secondOf env d w d2 with
    | some v => secondTime env w.gdate.type d.isStr d2 = .ok (v.map When.gdate, secondLead v)
    | none => ∃ err, secondTime env w.gdate.type d.isStr d2 = .error err := by
  cases d2 with
  | none => rfl
  | some x =>
    cases x with
    | other => exact ⟨_, rfl⟩
    | dt x c => rfl
    | str t =>
      cases d with
      | other => exact ⟨_, rfl⟩
      | dt x c => exact ⟨_, rfl⟩
      | str s =>
        have hi : (DateArg.str s).isStr = true := rfl
        rw [hi]
        unfold secondOf secondTime
        have hp := parseGridTime_eq env (env.upper t)
        dsimp only
        rw [if_pos rfl]
        cases hw : whenOf env (env.upper t) with
        | none =>
          rw [hw] at hp
          obtain ⟨err, hp⟩ := hp
          rw [hp]
          exact ⟨err, rfl⟩
        | some v =>
          rw [hw] at hp
          have ht := typed_eq _ v env hw
          rw [hp]
          dsimp only
          rw [ok_bind']
          dsimp only
          by_cases hc : typed (env.upper t) = true ∧ v.type ≠ w.type
          · rw [if_pos hc, if_pos ⟨ht.2 hc.1, fun h => hc.2 h.symm⟩]
            exact ⟨_, rfl⟩
          · rw [if_neg hc, if_neg (fun h => hc ⟨ht.1 h.1, fun h2 => h.2 h2.symm⟩)]
            rfl

theorem levelOf_eq (l : LevelArg) :
    match levelOf l with
    | some i => l.toInt = .ok i
    | none => ∃ err, l.toInt = .error err := by
  cases l with
  | num q => rfl
  | nan => exact ⟨_, rfl⟩
  | inf => exact ⟨_, rfl⟩
  | other => exact ⟨_, rfl⟩

theorem level2Of_eq (l : Option LevelArg) :
    match level2Of l with
    | some i => secondLevel l = .ok i
    | none => ∃ err, secondLevel l = .error err := by
  cases l with
  | none => rfl
  | some l => exact levelOf_eq l

/-! ## Names -/

theorem trimEnd_append (t : Text) : ∃ n, t = trimEnd t ++ List.replicate n ' ' := by
  have h := List.takeWhile_append_dropWhile (p := fun c : Char => decide (c = ' ')) (l := t.reverse)
  refine ⟨(t.reverse.takeWhile fun c => c = ' ').length, ?_⟩
  have h2 : t.reverse.takeWhile (fun c => decide (c = ' ')) = List.replicate (t.reverse.takeWhile fun c => decide (c = ' ')).length ' ' := by
    rw [List.eq_replicate_iff]
    refine ⟨rfl, ?_⟩
    intro c hc
    simpa using List.mem_takeWhile_imp hc
  have h3 := congrArg List.reverse h
  rw [List.reverse_append, List.reverse_reverse, h2, List.reverse_replicate] at h3
  exact h3.symm

theorem trimEnd_idem (t : Text) : trimEnd (trimEnd t) = trimEnd t := by
  unfold trimEnd
  rw [List.reverse_reverse, List.dropWhile_idempotent]

theorem trimEnd_blanks (t : Text) (n : Nat) : trimEnd (t ++ List.replicate n ' ') = trimEnd t := by
  unfold trimEnd
  rw [List.reverse_append, List.reverse_replicate, List.dropWhile_append]
  have : (List.replicate n ' ').dropWhile (fun c => decide (c = ' ')) = [] := by
    rw [List.dropWhile_eq_nil_iff]
    intro c hc
    simpa using List.eq_of_mem_replicate hc
  rw [this]; rfl

/-- The name padded to twelve characters determines the name. -/
theorem ljust_trimEnd {t : Text} (h : t.length ≤ 12) : ljust 12 (trimEnd t) = ljust 12 t := by
  obtain ⟨n, hn⟩ := trimEnd_append t
  have hl : t.length = (trimEnd t).length + n := by
    conv_lhs => rw [hn]
    rw [List.length_append, List.length_replicate]
  unfold ljust
  conv_rhs => rw [hn]
  rw [List.append_assoc, ← List.replicate_add, ← hn]
  congr 2
  omega

theorem trimEnd_ljust {t : Text} (h : trimEnd t = t) (n : Nat) : trimEnd (ljust n t) = t := by
  unfold ljust
  rw [trimEnd_blanks, h]

theorem trimEnd_length (t : Text) : (trimEnd t).length ≤ t.length := by
  obtain ⟨n, hn⟩ := trimEnd_append t
  conv_rhs => rw [hn]
  rw [List.length_append]
  omega

/-- Three chunks of a name. -/
def chunks (s : Text) : Text × Text × Text := ((ljust 12 s).take 4, ((ljust 12 s).drop 4).take 4, (ljust 12 s).drop 8)

theorem nameChunks_eq (env : GridEnv) (t : Text) (h : t.length ≤ 12) :
    match nameOf env t with
    | some n => nameChunks (env.upper t) = .ok (chunks n)
    | none => ∃ err, nameChunks (env.upper t) = .error err := by
  unfold nameOf nameChunks
  dsimp only
  have hlen : (env.upper t ++ List.replicate (12 - (env.upper t).length) ' ').length = max 12 (env.upper t).length := by
    rw [List.length_append, List.length_replicate]; omega
  by_cases hu : (env.upper t).length ≤ 12
  · rw [if_pos ⟨h, hu⟩]
    dsimp only
    rw [if_pos (by rw [hlen]; omega)]
    unfold chunks
    rw [ljust_trimEnd hu]
    rfl
  · rw [if_neg (fun hc => hu hc.2), if_neg (by rw [hlen]; omega)]
    exact ⟨_, rfl⟩

theorem chunks_join (s : Text) : (chunks s).1 ++ (chunks s).2.1 ++ (chunks s).2.2 = ljust 12 s := by
  unfold chunks
  dsimp only
  have h1 : (ljust 12 s).drop 8 = ((ljust 12 s).drop 4).drop 4 := by rw [List.drop_drop]
  rw [h1, List.append_assoc, List.take_append_drop, List.take_append_drop]

/-! ## Vertical coordinates -/

theorem verticalNames_fst : coordinates.map Prod.fst = verticalNames := rfl
theorem verticalNames_snd : coordinates.map Prod.snd = verticalNamesUpper := rfl

/-- Number of a vertical coordinate. -/
def coordNumber (c : Text) : Nat := verticalNames.idxOf c

theorem coordNumber_lt {c : Text} (h : c ∈ coordinates.map Prod.fst) : coordNumber c < 9 := by
  rw [verticalNames_fst] at h
  exact List.idxOf_lt_length_of_mem h

theorem coordNumber_inj {c c' : Text} (h : c ∈ coordinates.map Prod.fst) (e : coordNumber c = coordNumber c') : c = c' := by
  rw [verticalNames_fst] at h
  unfold coordNumber at e
  exact (List.idxOf_inj h).1 e

theorem coordNumber_listed {c : Text} (h : c ∈ coordinates.map Prod.fst) : (c, verticalNamesUpper.getD (coordNumber c) []) ∈ coordinates := by
  have : ∀ x ∈ coordinates, (x.1, verticalNamesUpper.getD (coordNumber x.1) []) ∈ coordinates := by decide +kernel
  obtain ⟨x, hx, rfl⟩ := List.mem_map.1 h
  exact this x hx

theorem idxOf?_eq {c : Text} (h : c ∈ verticalNames) : verticalNames.idxOf? c = some (coordNumber c) := by
  unfold coordNumber
  rw [List.idxOf_eq_getD_idxOf?]
  cases hi : verticalNames.idxOf? c with
  | none => rw [List.idxOf?_eq_none_iff] at hi; exact absurd h hi
  | some n => rfl

theorem coordOf_eq (env : GridEnv) (v : Option Text) :
    match coordOf env v with
    | some c => ∃ t, vertText env v = .ok t ∧ verticalNumber env t = .ok (coordNumber c)
    | none => (∃ err, vertText env v = .error err) ∨ ∃ t err, vertText env v = .ok t ∧ verticalNumber env t = .error err := by
  have ht : vertText env v = if 4 < ((v.map env.upper).getD (txt "NONE")).length then .error .valueError
      else .ok ((v.map env.upper).getD (txt "NONE")) := by cases v <;> rfl
  rw [ht]
  unfold coordOf
  dsimp only
  generalize (v.map env.upper).getD (txt "NONE") = t
  by_cases h4 : t.length ≤ 4
  · rw [if_neg (show ¬ 4 < t.length by omega)]
    by_cases hm : env.lower t ∈ coordinates.map Prod.fst
    · rw [if_pos (show t.length ≤ 4 ∧ env.lower t ∈ coordinates.map Prod.fst from ⟨h4, hm⟩)]
      refine ⟨t, rfl, ?_⟩
      unfold verticalNumber
      rw [verticalNames_fst] at hm
      rw [idxOf?_eq hm]
    · rw [if_neg (show ¬ (t.length ≤ 4 ∧ env.lower t ∈ coordinates.map Prod.fst) from fun h => hm h.2)]
      refine Or.inr ⟨t, .keyError, rfl, ?_⟩
      unfold verticalNumber
      rw [verticalNames_fst] at hm
      rw [List.idxOf?_eq_none_iff.2 hm]
  · rw [if_neg (show ¬ (t.length ≤ 4 ∧ env.lower t ∈ coordinates.map Prod.fst) from fun h => h4 h.1), if_pos (show 4 < t.length by omega)]
    exact Or.inl ⟨_, rfl⟩

/-! ## Requests -/

/-- Column header of an entry. -/
def Spec.GEntry.col (e : GEntry) : GCol :=
  ⟨e.first.gdate, e.first.gtime, e.second.map When.gdate, secondLead e.second, e.level, e.level2, coordNumber e.coord, (chunks e.name).1,
    (chunks e.name).2.1, (chunks e.name).2.2⟩

/-- Values stored. -/
def Spec.GEntry.values (e : GEntry) : List (List ℚ) := e.grid.map (List.map counted)

/-- Facts about accepted requests. -/
structure Spec.GEntry.Sound (e : GEntry) (nx ny : Nat) : Prop where
  coord : e.coord ∈ coordinates.map Prod.fst
  name : trimEnd e.name = e.name ∧ e.name.length ≤ 12
  rows : e.grid.length = ny
  row : ∀ row ∈ e.grid, row.length = nx

theorem bind_some {α β : Type} {o : Option α} {f : α → Option β} {b : β} (h : (o >>= f) = some b) : ∃ a, o = some a ∧ f a = some b :=
  Option.bind_eq_some_iff.1 h

theorem gEntry_sound {env : GridEnv} {nx ny : Nat} {r : GridReq} {e : GEntry} (h : gEntry env nx ny r = some e) : e.Sound nx ny := by
  unfold gEntry at h
  split at h
  · rename_i hsh
    obtain ⟨n, h1, h⟩ := bind_some h
    obtain ⟨c, h2, h⟩ := bind_some h
    obtain ⟨l, h3, h⟩ := bind_some h
    obtain ⟨l2, h4, h⟩ := bind_some h
    obtain ⟨t, h5, h⟩ := bind_some h
    obtain ⟨t2, h6, h⟩ := bind_some h
    obtain rfl := Option.some.inj h
    refine ⟨?_, ?_, hsh.1, hsh.2⟩
    · unfold coordOf at h2
      dsimp only at h2
      split at h2
      · rename_i hc
        obtain rfl := Option.some.inj h2
        exact hc.2
      · cases h2
    · unfold nameOf at h1
      split at h1
      · rename_i hc
        obtain rfl := Option.some.inj h1
        exact ⟨trimEnd_idem _, le_trans (trimEnd_length _) hc.2⟩
      · cases h1
  · cases h

theorem err_bind {α β : Type} (e : PyErr) (f : α → Except PyErr β) : ((.error e : Except PyErr α) >>= f) = .error e := rfl

/-- The checks of `add_grid` accept exactly the described requests. -/
theorem checkGrid_eq (env : GridEnv) (nx ny : Nat) (r : GridReq) :
    match gEntry env nx ny r with
    | some e => checkGrid env nx ny r = .ok (e.col, e.values)
    | none => ∃ err, checkGrid env nx ny r = .error err := by
  unfold gEntry checkGrid
  by_cases hsh : r.grid.length = ny ∧ ∀ row ∈ r.grid, row.length = nx
  · rw [if_pos hsh, if_neg (not_not.2 hsh)]
    by_cases hn : r.name.length ≤ 12
    · rw [if_neg (by omega)]
      have a1 := nameChunks_eq env r.name hn
      have a2 := coordOf_eq env r.vcoord
      have a3 := levelOf_eq r.level
      have a4 := level2Of_eq r.level2
      have a5 := firstTime_eq env r.dateTime
      -- vertical text
      cases hc : coordOf env r.vcoord with
      | none =>
        rw [hc] at a2
        have hnone : (nameOf env r.name >>= fun n => (none : Option Text) >>= fun c => levelOf r.level >>= fun l =>
            level2Of r.level2 >>= fun l2 => firstOf env r.dateTime >>= fun t => secondOf env r.dateTime t r.dateTime2 >>= fun t2 =>
            some (GEntry.mk t t2 l l2 c n r.grid)) = none := by cases nameOf env r.name <;> rfl
        rw [hnone]
        dsimp only
        rcases a2 with ⟨err, h⟩ | ⟨v, err, h, h'⟩
        · rw [h]; exact ⟨err, rfl⟩
        · rw [h, ok_bind']
          cases r.level.toInt with
          | error x => exact ⟨x, rfl⟩
          | ok l =>
          rw [ok_bind']
          cases firstTime env r.dateTime with
          | error x => exact ⟨x, rfl⟩
          | ok t =>
          rw [ok_bind']
          cases secondLevel r.level2 with
          | error x => exact ⟨x, rfl⟩
          | ok l2 =>
          rw [ok_bind']
          cases secondTime env t.1.type r.dateTime.isStr r.dateTime2 with
          | error x => exact ⟨x, rfl⟩
          | ok t2 =>
          rw [ok_bind']
          cases nameChunks (env.upper r.name) with
          | error x => exact ⟨x, rfl⟩
          | ok n =>
          rw [ok_bind', h']
          exact ⟨err, rfl⟩
      | some c =>
        rw [hc] at a2
        obtain ⟨v, h1, h2⟩ := a2
        rw [h1, ok_bind']
        cases hl : levelOf r.level with
        | none =>
          rw [hl] at a3
          obtain ⟨err, a3⟩ := a3
          have : (nameOf env r.name >>= fun n => some c >>= fun c => (none : Option Int) >>= fun l =>
            level2Of r.level2 >>= fun l2 => firstOf env r.dateTime >>= fun t => secondOf env r.dateTime t r.dateTime2 >>= fun t2 =>
            some (GEntry.mk t t2 l l2 c n r.grid)) = none := by cases nameOf env r.name <;> rfl
          rw [this, a3]
          exact ⟨err, rfl⟩
        | some l =>
          rw [hl] at a3
          dsimp only at a3
          rw [a3, ok_bind']
          cases ht : firstOf env r.dateTime with
          | none =>
            rw [ht] at a5
            obtain ⟨err, a5⟩ := a5
            have : (nameOf env r.name >>= fun n => some c >>= fun c => some l >>= fun l =>
              level2Of r.level2 >>= fun l2 => (none : Option When) >>= fun t => secondOf env r.dateTime t r.dateTime2 >>= fun t2 =>
              some (GEntry.mk t t2 l l2 c n r.grid)) = none := by
              cases nameOf env r.name <;> cases level2Of r.level2 <;> rfl
            rw [this, a5]
            exact ⟨err, rfl⟩
          | some t =>
            rw [ht] at a5
            dsimp only at a5
            rw [a5, ok_bind']
            cases hl2 : level2Of r.level2 with
            | none =>
              rw [hl2] at a4
              obtain ⟨err, a4⟩ := a4
              have : (nameOf env r.name >>= fun n => some c >>= fun c => some l >>= fun l =>
                (none : Option Int) >>= fun l2 => some t >>= fun t => secondOf env r.dateTime t r.dateTime2 >>= fun t2 =>
                some (GEntry.mk t t2 l l2 c n r.grid)) = none := by cases nameOf env r.name <;> rfl
              rw [this, a4]
              exact ⟨err, rfl⟩
            | some l2 =>
              rw [hl2] at a4
              dsimp only at a4
              rw [a4, ok_bind']
              have a6 := secondTime_eq env r.dateTime t r.dateTime2
              cases ht2 : secondOf env r.dateTime t r.dateTime2 with
              | none =>
                rw [ht2] at a6
                obtain ⟨err, a6⟩ := a6
                have : (nameOf env r.name >>= fun n => some c >>= fun c => some l >>= fun l =>
                  some l2 >>= fun l2 => some t >>= fun t => secondOf env r.dateTime t r.dateTime2 >>= fun t2 =>
                  some (GEntry.mk t t2 l l2 c n r.grid)) = none := by
                  cases nameOf env r.name with
                  | none => rfl
                  | some n =>
                    show (secondOf env r.dateTime t r.dateTime2 >>= fun t2 => some (GEntry.mk t t2 l l2 c n r.grid)) = none
                    rw [ht2]; rfl
                rw [this, a6]
                exact ⟨err, rfl⟩
              | some t2 =>
                rw [ht2] at a6
                dsimp only at a6
                rw [a6, ok_bind']
                cases hnm : nameOf env r.name with
                | none =>
                  rw [hnm] at a1
                  obtain ⟨err, a1⟩ := a1
                  rw [a1]
                  exact ⟨err, rfl⟩
                | some n =>
                  rw [hnm] at a1
                  dsimp only at a1
                  rw [a1, ok_bind', h2, ok_bind']
                  have : (some n >>= fun n => some c >>= fun c => some l >>= fun l =>
                    some l2 >>= fun l2 => some t >>= fun t => secondOf env r.dateTime t r.dateTime2 >>= fun t2 =>
                    some (GEntry.mk t t2 l l2 c n r.grid)) = some (GEntry.mk t t2 l l2 c n r.grid) := by
                    show (secondOf env r.dateTime t r.dateTime2 >>= fun t2 => some (GEntry.mk t t2 l l2 c n r.grid)) = _
                    rw [ht2]; rfl
                  rw [this]
                  rfl
    · rw [if_pos (by omega)]
      have : nameOf env r.name = none := by
        unfold nameOf
        rw [if_neg (fun h => hn h.1)]
      rw [this]
      exact ⟨_, rfl⟩
  · rw [if_neg hsh, if_pos hsh]
    exact ⟨_, rfl⟩

theorem gsameKey_iff {a b : GEntry} {nx ny : Nat} (ha : a.Sound nx ny) (hb : b.Sound nx ny) : a.SameKey b ↔ a.col = b.col := by
  unfold GEntry.SameKey
  constructor
  · rintro ⟨h1, h2, h3, h4, h5, h6⟩
    unfold GEntry.col
    rw [h1, h2, h3, h4, h5, h6]
  · intro h
    unfold GEntry.col at h
    simp only [GCol.mk.injEq] at h
    obtain ⟨h1, h2, h3, h4, h5, h6, h7, h8, h9, h10⟩ := h
    have hw : ∀ u v : When, u.gdate = v.gdate → u.gtime = v.gtime → u = v := by
      rintro ⟨a1, a2, a3, a4, a5⟩ ⟨b1, b2, b3, b4, b5⟩ e1 e2
      simp only [When.gdate, When.gtime, GDate.mk.injEq, GTime.mk.injEq] at e1 e2
      obtain ⟨rfl, rfl, rfl⟩ := e1
      obtain ⟨_, rfl, rfl⟩ := e2
      rfl
    refine ⟨hw _ _ h1 h2, ?_, h5, h6, coordNumber_inj ha.coord h7, ?_⟩
    · cases hsa : a.second with
      | none =>
        cases hsb : b.second with
        | none => rfl
        | some v => rw [hsa, hsb] at h3; cases h3
      | some u =>
        cases hsb : b.second with
        | none => rw [hsa, hsb] at h3; cases h3
        | some v =>
          rw [hsa, hsb] at h3 h4
          rw [hw u v (Option.some.inj h3) h4]
    · have := chunks_join a.name
      rw [h8, h9, h10, chunks_join] at this
      have h11 := congrArg trimEnd this
      rw [trimEnd_ljust ha.name.1, trimEnd_ljust hb.name.1] at h11
      exact h11.symm

end Gempak
