import Verif.Model.SelArgs

/-!
# C111, C112: forms in which times and station numbers may be given
-/

namespace Gempak

/-- The time an item stands for: a datetime, or a text that is a time. -/
inductive Spec.ItemMeant (env : SelEnv) : TimeItem → Date × Clock → Prop
  | at (t) : Spec.ItemMeant env (.at t) t
  | text {s t} (h : env.parse s = .ok t) : Spec.ItemMeant env (.text s) t

/-- The times an argument stands for. -/
inductive Spec.TimesMeant (env : SelEnv) : TimeArg → List (Date × Clock) → Prop
  | one {x t} (h : Spec.ItemMeant env x t) : Spec.TimesMeant env (.one x) [t]
  | list {l ts} (h : List.Forall₂ (Spec.ItemMeant env) l ts) : Spec.TimesMeant env (.list l) ts
  | tuple {l ts} (h : List.Forall₂ (Spec.ItemMeant env) l ts) : Spec.TimesMeant env (.tuple l) ts

/-- A tuple with a text in it. -/
def Spec.TupleOfTexts : TimeArg → Prop
  | .tuple l => ∃ s, TimeItem.text s ∈ l
  | _ => False

/-- The words `first` and `last` are no times. -/
def Spec.WordsApart (env : SelEnv) : Prop :=
  ∀ s, (s = txt "first" ∨ s = txt "FIRST" ∨ s = txt "last" ∨ s = txt "LAST") → ∀ t, env.parse s ≠ .ok t

open Spec

theorem replaceTexts_meant {env : SelEnv} {l : List TimeItem} {ts : List (Date × Clock)}
    (h : List.Forall₂ (ItemMeant env) l ts) : replaceTexts env l = (ts.map .at, .ok ts) := by
  induction h with
  | nil => rfl
  | cons h _ ih =>
    cases h with
    | «at» t => simp [replaceTexts, ih, Except.map]
    | text h => simp [replaceTexts, h, ih, Except.map]

theorem tupleTimes_dates {env : SelEnv} {l : List TimeItem} {ts : List (Date × Clock)}
    (h : List.Forall₂ (ItemMeant env) l ts) (hn : ∀ s, TimeItem.text s ∉ l) : tupleTimes env l = .ok ts := by
  induction h with
  | nil => rfl
  | cons h _ ih =>
    cases h with
    | «at» t =>
      rw [tupleTimes, ih fun s hs => hn s (List.mem_cons_of_mem _ hs)]
      rfl
    | text h => exact absurd List.mem_cons_self (hn _)

theorem tupleTimes_text {env : SelEnv} {l : List TimeItem} {ts : List (Date × Clock)}
    (h : List.Forall₂ (ItemMeant env) l ts) (hn : ∃ s, TimeItem.text s ∈ l) : tupleTimes env l = .error .typeError := by
  induction h with
  | nil => obtain ⟨s, hs⟩ := hn; cases hs
  | cons h _ ih =>
    cases h with
    | «at» t =>
      obtain ⟨s, hs⟩ := hn
      rw [tupleTimes, ih ⟨s, by simpa using hs⟩]
      rfl
    | text h => rw [tupleTimes, h]

theorem timeArg_meant {env : SelEnv} (hw : WordsApart env) {a : TimeArg} {ts : List (Date × Clock)} (h : TimesMeant env a ts)
    (hn : ¬ TupleOfTexts a) : timeArg env a = .ok (.these ts) := by
  cases h with
  | one h =>
    cases h with
    | «at» t => rfl
    | @text s u h =>
      have h1 : ¬ (s = txt "first" ∨ s = txt "FIRST") := fun hc => hw s (by tauto) _ h
      have h2 : ¬ (s = txt "last" ∨ s = txt "LAST") := fun hc => hw s (by tauto) _ h
      simp only [timeArg, if_neg h1, if_neg h2, h]
      rfl
  | list h => rw [timeArg, replaceTexts_meant h]; rfl
  | tuple h => rw [timeArg, tupleTimes_dates h fun s hs => hn ⟨s, hs⟩]; rfl

theorem forall₂_at {env : SelEnv} (ts : List (Date × Clock)) : List.Forall₂ (ItemMeant env) (ts.map .at) ts := by
  induction ts with
  | nil => exact .nil
  | cons t ts ih => exact .cons (.at t) ih

theorem timeArg_same {env : SelEnv} (hw : WordsApart env) {a : TimeArg} {ts : List (Date × Clock)} (h : TimesMeant env a ts)
    (hn : ¬ TupleOfTexts a) : timeArg env a = timeArg env (.list (ts.map .at)) := by
  rw [timeArg_meant hw h hn, timeArg_meant hw (.list (forall₂_at ts)) (fun h => h)]

/-- **C111 (partial).** Times may be given as one datetime or text, as a list of datetimes and texts, or as a tuple of datetimes:
what is selected is what the list of datetimes selects, in surface, sounding and grid files.  Missing from the full claim:
tuples with texts (`C111_tuple`). -/
theorem C111_times_partial (env : SelEnv) (hw : WordsApart env) (lower : Text → Text) (x : TimeArg) (ts : List (Date × Clock))
    (h : TimesMeant env x ts) (hn : ¬ TupleOfTexts x) :
    (∀ (f : SurfaceReader) (a : SiteArgs) (sp : Bool), f.sfjsonArgs env lower { a with dateTime := some x } sp =
      f.sfjsonArgs env lower { a with dateTime := some (.list (ts.map .at)) } sp) ∧
    (∀ (f : SoundingReader) (a : SiteArgs), f.snxarrayArgs env lower { a with dateTime := some x } =
      f.snxarrayArgs env lower { a with dateTime := some (.list (ts.map .at)) }) ∧
    (∀ (f : GridFileR) (a : GridArgs), gdxarrayArgs env lower { a with dateTime := some x } f =
      gdxarrayArgs env lower { a with dateTime := some (.list (ts.map .at)) } f) ∧
    ∀ (f : GridFileR) (a : GridArgs), gdxarrayArgs env lower { a with dateTime2 := some x } f =
      gdxarrayArgs env lower { a with dateTime2 := some (.list (ts.map .at)) } f := by
  have hs := timeArg_same hw h hn
  have ho : optM (timeArg env) (some x) = optM (timeArg env) (some (.list (ts.map .at))) := by
    show (timeArg env x).map some = _
    rw [hs]; rfl
  refine ⟨fun f a sp => ?_, fun f a => ?_, fun f a => ?_, fun f a => ?_⟩
  · simp only [SurfaceReader.sfjsonArgs, SiteArgs.query, ho]
  · simp only [SoundingReader.snxarrayArgs, SiteArgs.query, ho]
  · simp only [gdxarrayArgs, ho]
  · simp only [gdxarrayArgs, ho]

/-- **C111 (deviation).** A tuple with a text in it is never accepted, whatever the file and the other criteria that can be read:
`TypeError`. -/
theorem C111_tuple (env : SelEnv) (lower : Text → Text) (x : TimeArg) (ts : List (Date × Clock)) (h : TimesMeant env x ts)
    (hn : TupleOfTexts x) :
    (∀ (f : SurfaceReader) (a : SiteArgs) (sp : Bool), (∀ n, a.stationNumber = some n → ∃ r, numArg env n = .ok r) →
      f.sfjsonArgs env lower { a with dateTime := some x } sp = .error .typeError) ∧
    (∀ (f : SoundingReader) (a : SiteArgs), (∀ n, a.stationNumber = some n → ∃ r, numArg env n = .ok r) →
      f.snxarrayArgs env lower { a with dateTime := some x } = .error .typeError) ∧
    ∀ (f : GridFileR) (a : GridArgs), gdxarrayArgs env lower { a with dateTime := some x } f = .error .typeError := by
  have ht : timeArg env x = .error .typeError := by
    cases h with
    | one h => exact hn.elim
    | list h => exact hn.elim
    | tuple h => rw [timeArg, tupleTimes_text h hn]; rfl
  have ho : optM (timeArg env) (some x) = .error .typeError := by
    show (timeArg env x).map some = _
    rw [ht]; rfl
  have hnum : ∀ a : SiteArgs, (∀ n, a.stationNumber = some n → ∃ r, numArg env n = .ok r) →
      ∃ r, optM (numArg env) a.stationNumber = .ok r := by
    intro a ha
    cases hc : a.stationNumber with
    | none => exact ⟨none, rfl⟩
    | some n =>
      obtain ⟨r, hr⟩ := ha n hc
      exact ⟨some r, by show (numArg env n).map some = _; rw [hr]; rfl⟩
  refine ⟨fun f a sp ha => ?_, fun f a ha => ?_, fun f a => ?_⟩
  · obtain ⟨r, hr⟩ := hnum a ha
    simp only [SurfaceReader.sfjsonArgs, SiteArgs.query, ho, hr]
    rfl
  · obtain ⟨r, hr⟩ := hnum a ha
    simp only [SoundingReader.snxarrayArgs, SiteArgs.query, ho, hr]
    rfl
  · simp only [gdxarrayArgs, ho]
    rfl

/-- **C111 (deviation).** The list of the caller is changed: after the call it holds datetimes only.  It was changed exactly when
there was a text in it. -/
theorem C111_caller (env : SelEnv) (l : List TimeItem) (ts : List (Date × Clock)) (h : List.Forall₂ (ItemMeant env) l ts) :
    (replaceTexts env l).1 = ts.map .at ∧ ((replaceTexts env l).1 = l ↔ ∀ s, TimeItem.text s ∉ l) := by
  have h1 := replaceTexts_meant h
  rw [h1]
  refine ⟨rfl, ?_⟩
  show ts.map TimeItem.at = l ↔ _
  constructor
  · rintro rfl s hs
    simp at hs
  · intro hn
    clear h1
    induction h with
    | nil => rfl
    | cons h _ ih =>
      cases h with
      | «at» t => rw [List.map_cons, ih fun s hs => hn s (List.mem_cons_of_mem _ hs)]
      | text h => exact absurd List.mem_cons_self (hn _)

/-- A list of a datetime and a text, and a tuple of the same. -/
example : ∃ env : SelEnv, WordsApart env ∧
    TimesMeant env (.list [.at (⟨2020, 1, 1⟩, ⟨0, 0, 0, 0⟩), .text (txt "202001011200")]) [(⟨2020, 1, 1⟩, ⟨0, 0, 0, 0⟩), (⟨2020, 1, 1⟩, ⟨12, 0, 0, 0⟩)] ∧
    TimesMeant env (.tuple [.text (txt "202001011200")]) [(⟨2020, 1, 1⟩, ⟨12, 0, 0, 0⟩)] ∧
    TupleOfTexts (.tuple [.text (txt "202001011200")]) := by
  refine ⟨⟨id, fun s => if s = txt "202001011200" then .ok (⟨2020, 1, 1⟩, ⟨12, 0, 0, 0⟩) else .error .valueError, fun _ => .ok 0⟩,
    ?_, .list (.cons (.at _) (.cons (.text rfl) .nil)), .tuple (.cons (.text rfl) .nil), _, List.mem_singleton.2 rfl⟩
  intro s hs t
  rcases hs with rfl | rfl | rfl | rfl <;> (dsimp only; rw [if_neg (by decide)]; exact fun h => by cases h)

/-! ## Station numbers -/

/-- The station numbers an argument stands for. -/
inductive Spec.NumsMeant (env : SelEnv) : NumArg → List Int → Prop
  | one (n) : Spec.NumsMeant env (.one n) [n]
  | text {s n} (h : env.toInt s = .ok n) : Spec.NumsMeant env (.text s) [n]
  | list {l ns} (h : List.Forall₂ (fun x n => NumItem.int env x = .ok n) l ns) : Spec.NumsMeant env (.list l) ns

theorem mapM_ok₂ {α β : Type} {f : α → Except PyErr β} {l : List α} {r : List β}
    (h : List.Forall₂ (fun x y => f x = .ok y) l r) : l.mapM f = .ok r := by
  induction h with
  | nil => rfl
  | cons h _ ih =>
    rw [List.mapM_cons, h, ih]
    rfl

theorem numArg_meant {env : SelEnv} {x : NumArg} {ns : List Int} (h : NumsMeant env x ns) (hn : ∀ s, x = .text s → s.length = 1) :
    numArg env x = .ok ns := by
  cases h with
  | one n => rfl
  | @text s n h =>
    have h1 := hn s rfl
    match s, h1 with
    | [c], _ => rw [numArg, List.mapM_cons, h]; rfl
  | list h => exact mapM_ok₂ h

/-- **C112 (partial).** Station numbers may be given as an integer or as a list of integers and texts: what is selected is what
the list of integers selects.  Missing from the full claim: texts of several digits (`C112_digits`, `C112_text`), and number zero for
`nearest_time` (`C112_zero`). -/
theorem C112_numbers_partial (env : SelEnv) (lower : Text → Text) (x : NumArg) (ns : List Int) (h : NumsMeant env x ns)
    (hn : ∀ s, x = .text s → s.length = 1) :
    (∀ (f : SurfaceReader) (a : SiteArgs) (sp : Bool), f.sfjsonArgs env lower { a with stationNumber := some x } sp =
      f.sfjsonArgs env lower { a with stationNumber := some (.list (ns.map .num)) } sp) ∧
    (∀ (f : SoundingReader) (a : SiteArgs), f.snxarrayArgs env lower { a with stationNumber := some x } =
      f.snxarrayArgs env lower { a with stationNumber := some (.list (ns.map .num)) }) ∧
    (∀ (f : SurfaceReader) (t : Date × Clock) (sp : Bool), x.truthy → ns ≠ [] →
      f.nearestArgs env lower t { stationNumber := some x } sp = f.nearestTime env.upper lower t { stationNumber := some ns } sp) := by
  have h1 := numArg_meant h hn
  have h2 : numArg env (.list (ns.map .num)) = .ok ns := by
    apply mapM_ok₂
    clear h h1
    induction ns with
    | nil => exact .nil
    | cons n ns ih => exact .cons rfl ih
  have ho : optM (numArg env) (some x) = optM (numArg env) (some (.list (ns.map .num))) := by
    show (numArg env x).map some = (numArg env _).map some
    rw [h1, h2]
  refine ⟨fun f a sp => ?_, fun f a => ?_, fun f t sp ht hne => ?_⟩
  · simp only [SurfaceReader.sfjsonArgs, SiteArgs.query, ho]
  · simp only [SoundingReader.snxarrayArgs, SiteArgs.query, ho]
  · have e1 : NearArgs.nargs { stationNumber := some x } = 1 := by simp [NearArgs.nargs, ht]
    have e2 : NearQuery.nargs { stationNumber := some ns } = 1 := by simp [NearQuery.nargs, hne]
    have e3 : optM (numArg env) (some x) = .ok (some ns) := by
      show (numArg env x).map some = _
      rw [h1]; rfl
    unfold SurfaceReader.nearestArgs SurfaceReader.nearestTime
    rw [e1, e2, e3]
    rfl

/-- **C112 (deviation).** A text of decimal digits is not taken as one number: it selects the stations whose numbers are its
digits, in every file. -/
theorem C112_digits (env : SelEnv) (lower : Text → Text) (s : Text) (ds : List Int)
    (hd : List.Forall₂ (fun c d => env.toInt [c] = .ok d) s ds) :
    (∀ (f : SurfaceReader) (a : SiteArgs) (sp : Bool), f.sfjsonArgs env lower { a with stationNumber := some (.text s) } sp =
      f.sfjsonArgs env lower { a with stationNumber := some (.list (ds.map .num)) } sp) ∧
    ∀ (f : SoundingReader) (a : SiteArgs), f.snxarrayArgs env lower { a with stationNumber := some (.text s) } =
      f.snxarrayArgs env lower { a with stationNumber := some (.list (ds.map .num)) } := by
  have h1 : numArg env (.text s) = .ok ds := mapM_ok₂ hd
  have h2 : numArg env (.list (ds.map .num)) = .ok ds := by
    apply mapM_ok₂
    clear hd h1
    induction ds with
    | nil => exact .nil
    | cons n ns ih => exact .cons rfl ih
  have ho : optM (numArg env) (some (.text s)) = optM (numArg env) (some (.list (ds.map .num))) := by
    show (numArg env _).map some = (numArg env _).map some
    rw [h1, h2]
  refine ⟨fun f a sp => ?_, fun f a => ?_⟩
  · simp only [SurfaceReader.sfjsonArgs, SiteArgs.query, ho]
  · simp only [SoundingReader.snxarrayArgs, SiteArgs.query, ho]

/-- **C112 (deviation).** So in a file whose station numbers all have several digits no text of digits finds a station, not even
the number of one: `KeyError`. -/
theorem C112_text (env : SelEnv) (lower : Text → Text) (f : SurfaceReader) (sp : Bool) (s : Text) (ds : List Int)
    (hd : List.Forall₂ (fun c d => env.toInt [c] = .ok d ∧ 0 ≤ d ∧ d ≤ 9) s ds) (hf : ∀ i ∈ f.sfinfo, i.number < 0 ∨ 9 < i.number) :
    f.sfjsonArgs env lower { stationNumber := some (.text s) } sp = .error .keyError := by
  have hd1 : List.Forall₂ (fun c d => env.toInt [c] = .ok d) s ds := hd.imp fun _ _ h => h.1
  have h1 : numArg env (.text s) = .ok ds := mapM_ok₂ hd1
  have hin : ∀ d ∈ ds, 0 ≤ d ∧ d ≤ 9 := by
    clear hd1 h1
    induction hd with
    | nil => intro d hd; cases hd
    | cons h _ ih =>
      intro d hd
      rcases List.mem_cons.1 hd with rfl | hd
      · exact h.2
      · exact ih d hd
  have hnone : f.sfinfo.filter (fun i => decide (i.number ∈ ds)) = [] := by
    rw [List.filter_eq_nil_iff]
    intro i hi
    simp only [decide_eq_true_eq]
    intro hm
    have h2 := hin _ hm
    have h3 := hf i hi
    omega
  have ho : optM (numArg env) (some (.text s)) = .ok (some ds) := by
    show (numArg env _).map some = _
    rw [h1]; rfl
  simp only [SurfaceReader.sfjsonArgs, SiteArgs.query, ho]
  show (f.sfjson env.upper lower ⟨none, some ds, none, none, none, none⟩ sp) = _
  unfold SurfaceReader.sfjson selectSites
  simp only [SiteQuery.times, filterBy]
  show (if (f.sfinfo.filter (fun i => decide (i.number ∈ ds))).length < 1 then Except.error PyErr.keyError else _) >>= _ = _
  rw [hnone]
  rfl

/-- **C112 (deviation).** `nearest_time` refuses to look for station number zero, in every file. -/
theorem C112_zero (env : SelEnv) (lower : Text → Text) (f : SurfaceReader) (t : Date × Clock) (sp : Bool) :
    f.nearestArgs env lower t { stationNumber := some (.one 0) } sp = .error .valueError ∧
    f.nearestArgs env lower t { stationNumber := some (.list [.num 0]) } sp =
      f.nearestTime env.upper lower t { stationNumber := some [0] } sp := by
  refine ⟨rfl, (C112_numbers_partial env lower (.list [.num 0]) [0] (.list (.cons rfl .nil)) (by intro s h; cases h)).2.2 f t sp rfl (by simp)⟩

/-- The text of a station number and its digits. -/
example : ∃ env : SelEnv, NumsMeant env (.text (txt "72357")) [72357] ∧
    List.Forall₂ (fun c d => env.toInt [c] = .ok d ∧ 0 ≤ d ∧ d ≤ 9) (txt "72357") [7, 2, 3, 5, 7] := by
  refine ⟨⟨id, fun _ => .error .valueError, fun s => .ok (s.foldl (fun n c => n * 10 + ((c.toNat : Int) - 48)) 0)⟩, .text (by decide +kernel), ?_⟩
  exact .cons (by decide) (.cons (by decide) (.cons (by decide) (.cons (by decide) (.cons (by decide) .nil))))

end Gempak
