import Mathlib.Data.List.Nodup
import Mathlib.Data.List.Dedup
import Mathlib.Data.List.Perm.Basic
import Mathlib.Data.List.Perm.Subperm
import Mathlib.Data.List.ProdSigma
import Verif.Proof.Dict
import Verif.Spec.Station

/-!
# Station files: builder histories
-/

set_option linter.unusedSectionVars false

namespace Gempak
open Spec

section
variable {ρ κ β : Type} [DecidableEq κ]

/-! ## Requests and entries -/

/-- Row and column of an entry. -/
def Spec.Entry.place (e : Entry κ β) : Row × Col κ :=
  ((e.date, e.clock), ⟨e.id.take 4, e.number, e.lat, e.lon, e.elev, e.state, e.country, e.id.drop 4, e.priority⟩)

theorem sameKey_iff (a b : Entry κ β) : a.SameKey b ↔ a.place = b.place := by
  unfold Entry.SameKey Entry.place
  simp only [Prod.mk.injEq, Col.mk.injEq]
  constructor
  · rintro ⟨h1, h2, h3, h4, h5, h6, h7, h8, h9, h10⟩
    rw [h3]
    exact ⟨⟨h1, h2⟩, rfl, h4, h5, h6, h7, h8, h9, rfl, h10⟩
  · rintro ⟨⟨h1, h2⟩, h3, h4, h5, h6, h7, h8, h9, h3', h10⟩
    exact ⟨h1, h2, by rw [← List.take_append_drop 4 a.id, h3, h3', List.take_append_drop], h4, h5, h6, h7, h8, h9, h10⟩

theorem makeColumn_place (env : NumEnv ρ κ) (info : Option StationInfo) (lat lon : κ) (x : Date) (c : Clock) (v : β) :
    makeColumn env info lat lon = (describe env.upper info lat lon x c ((info.bind StationInfo.priority).getD 0) v).place.2 := by
  unfold makeColumn describe Entry.place
  cases info with
  | none => rfl
  | some i =>
    simp only [Option.bind_some]
    by_cases h : 4 < (env.upper (i.stationId.getD [])).length
    · rw [if_pos h]
      simp [List.take_take, List.drop_take]
    · rw [if_neg h]
      have h1 : (env.upper (i.stationId.getD [])).take 8 = env.upper (i.stationId.getD []) := List.take_of_length_le (by omega)
      rw [h1, List.take_of_length_le (l := env.upper (i.stationId.getD [])) (by omega),
        List.drop_eq_nil_of_le (as := env.upper (i.stationId.getD [])) (by omega)]

theorem bindParams_eq {α : Type} (env : NumEnv ρ κ) (names : List Text) (data : List (Text × α)) :
    bindParams env names data =
      if Complete env.upper names data then .ok (names.filterMap (given env.upper data)) else .error .typeError := by
  unfold bindParams
  have hget : ∀ n, dictGet (dictUpdate [] (data.map fun kv => (env.upper kv.1, kv.2))) n = given env.upper data n := by
    intro n
    rw [dictGet_dictUpdate]
    unfold given
    rw [← List.map_reverse, List.find?_map]
    rw [show ((fun x : Text × α => decide (x.1 = n)) ∘ fun kv : Text × α => (env.upper kv.1, kv.2)) =
      fun kv => decide (env.upper kv.1 = n) from rfl]
    cases List.find? (fun kv : Text × α => decide (env.upper kv.1 = n)) data.reverse with
    | none => rfl
    | some y => rfl
  have hiff : ((∀ kv ∈ dictUpdate [] (data.map fun kv => (env.upper kv.1, kv.2)), kv.1 ∈ names) ∧
      ∀ n ∈ names, (dictGet (dictUpdate [] (data.map fun kv => (env.upper kv.1, kv.2))) n).isSome) ↔
      Complete env.upper names data := by
    unfold Complete
    apply and_congr
    · constructor
      · intro h kv hkv
        have : env.upper kv.1 ∈ (dictUpdate [] (data.map fun kv => (env.upper kv.1, kv.2))).map Prod.fst := by
          rw [dictUpdate_fst_mem]
          exact Or.inr (by simp only [List.map_map]; exact List.mem_map.2 ⟨kv, hkv, rfl⟩)
        obtain ⟨y, hy, he⟩ := List.mem_map.1 this
        rw [← he]; exact h y hy
      · intro h kv hkv
        have : kv.1 ∈ (dictUpdate [] (data.map fun kv => (env.upper kv.1, kv.2))).map Prod.fst := List.mem_map_of_mem hkv
        rw [dictUpdate_fst_mem] at this
        rcases this with h0 | h1
        · simp at h0
        · simp only [List.map_map] at h1
          obtain ⟨y, hy, he⟩ := List.mem_map.1 h1
          rw [← he]; exact h y hy
    · apply forall_congr'
      intro n
      apply imp_congr_right
      intro _
      rw [dictGet_isSome, dictUpdate_fst_mem]
      simp only [List.map_nil, List.not_mem_nil, false_or, List.map_map, List.mem_map, Function.comp]
  simp only [hiff]
  rw [show dictGet (dictUpdate [] (data.map fun kv => (env.upper kv.1, kv.2))) = given env.upper data from funext hget]

theorem given_map {α α' : Type} (upper : Text → Text) (f : α → α') (data : List (Text × α)) (n : Text) :
    given upper (data.map fun kv => (kv.1, f kv.2)) n = (given upper data n).map f := by
  unfold given
  rw [← List.map_reverse, List.find?_map]
  simp only [Option.map_map]
  rfl

theorem complete_map {α α' : Type} (upper : Text → Text) (names : List Text) (f : α → α') (data : List (Text × α)) :
    Complete upper names (data.map fun kv => (kv.1, f kv.2)) ↔ Complete upper names data := by
  unfold Complete
  rw [List.forall_mem_map]
  apply and_congr Iff.rfl
  apply forall_congr'
  intro n
  apply imp_congr_right
  intro _
  constructor
  · rintro ⟨kv, hk, he⟩
    obtain ⟨y, hy, rfl⟩ := List.mem_map.1 hk
    exact ⟨y, hy, he⟩
  · rintro ⟨kv, hk, he⟩
    exact ⟨_, List.mem_map_of_mem hk, he⟩

/-- The checks of `add_station` accept exactly the described requests. -/
theorem checkStation_eq (env : NumEnv ρ κ) (names : List Text) (r : AddReq κ ρ) :
    match sfEntry env names r with
    | some e => checkStation env names r = .ok (e.place.1, e.place.2, e.value)
    | none => ∃ err, checkStation env names r = .error err := by
  obtain ⟨data, slat, slon, dt, info⟩ := r
  unfold checkStation sfEntry
  rw [bindParams_eq]
  simp only [complete_map]
  by_cases hc : Complete env.upper names data
  · simp only [if_pos hc]
    have hv : names.filterMap (given env.upper (data.map fun kv => (kv.1, env.clean kv.2))) = valuesOf env names data := by
      unfold valuesOf
      congr 1
      funext n
      exact given_map env.upper env.clean data n
    rw [hv]
    cases slat with
    | none => exact ⟨_, rfl⟩
    | some lat =>
      cases slon with
      | none => exact ⟨_, rfl⟩
      | some lon =>
        cases dt with
        | str t =>
          dsimp only
          cases env.parse (env.upper t) with
          | ok _ => exact ⟨_, rfl⟩
          | error _ => exact ⟨_, rfl⟩
        | other => exact ⟨_, rfl⟩
        | dt x c =>
          dsimp only
          rw [makeColumn_place env info lat lon x c (valuesOf env names data)]
          show Except.ok _ = Except.ok _
          unfold describe Entry.place
          cases info <;> rfl
  · simp only [if_neg hc]
    cases slat <;> cases slon <;> cases dt <;> exact ⟨_, rfl⟩

theorem makeColumn_place0 (env : NumEnv ρ κ) (info : Option StationInfo) (lat lon : κ) (x : Date) (c : Clock) (v : β) :
    { makeColumn env info lat lon with spri := 0 } = (describe env.upper info lat lon x c 0 v).place.2 := by
  rw [makeColumn_place env info lat lon x c v]
  unfold describe
  cases info <;> rfl

theorem describe_row (upper : Text → Text) (info : Option StationInfo) (lat lon : κ) (x : Date) (c : Clock) (p : Int) (v : β) :
    (describe upper info lat lon x c p v).place.1 = (x, c) ∧ (describe upper info lat lon x c p v).value = v := by
  unfold describe
  cases info <;> exact ⟨rfl, rfl⟩

theorem validateLength_eq {α : Type} (cols : List (List α)) :
    (Rectangular cols → validateLength cols = .ok true) ∧
      (¬ Rectangular cols → validateLength cols = .ok false ∨ ∃ e, validateLength cols = .error e) := by
  cases cols with
  | nil => exact ⟨fun h => h.elim, fun _ => Or.inr ⟨_, rfl⟩⟩
  | cons c r =>
    constructor
    · rintro ⟨h1, h2⟩
      have : (r.all (fun y => decide (y.length = c.length)) && decide (c.length < maxLevels)) = true := by
        simp only [Bool.and_eq_true, List.all_eq_true, decide_eq_true_eq]
        exact ⟨h2, h1⟩
      exact congrArg Except.ok this
    · intro h
      left
      have : (r.all (fun y => decide (y.length = c.length)) && decide (c.length < maxLevels)) = false := by
        rw [Bool.eq_false_iff]
        intro hc
        simp only [Bool.and_eq_true, List.all_eq_true, decide_eq_true_eq] at hc
        exact h ⟨hc.2, hc.1⟩
      exact congrArg Except.ok this

/-- The checks of `add_sounding` accept exactly the described requests. -/
theorem checkSounding_eq (env : NumEnv ρ κ) (names : List Text) (r : AddReq κ (List ρ)) :
    match snEntry env names r with
    | some e => checkSounding env names r = .ok (e.place.1, e.place.2, e.value)
    | none => ∃ err, checkSounding env names r = .error err := by
  obtain ⟨data, slat, slon, dt, info⟩ := r
  unfold checkSounding snEntry
  rw [bindParams_eq]
  simp only [complete_map]
  by_cases hc : Complete env.upper names data
  · simp only [hc, true_and, if_true]
    have hv : names.filterMap (given env.upper (data.map fun kv => (kv.1, kv.2.map env.clean))) = columnsOf env names data := by
      unfold columnsOf
      congr 1
      funext n
      exact given_map env.upper (fun l => List.map env.clean l) data n
    rw [hv]
    have hl := validateLength_eq (columnsOf env names data)
    by_cases hr : Rectangular (columnsOf env names data)
    · have hlr := hl.1 hr
      simp only [if_pos hr, bind, Except.bind, hlr, Bool.not_true, Bool.false_eq_true, if_false]
      cases slat with
      | none => exact ⟨_, rfl⟩
      | some lat =>
        cases slon with
        | none => exact ⟨_, rfl⟩
        | some lon =>
          cases dt with
          | other => exact ⟨_, rfl⟩
          | dt x c =>
            dsimp only
            have hd := describe_row env.upper info lat lon x c 0 (columnsOf env names data)
            rw [makeColumn_place0 env info lat lon x c (columnsOf env names data), hd.1, hd.2]
          | str t =>
            dsimp only
            cases soundingTime env (env.upper t) with
            | error _ => exact ⟨_, rfl⟩
            | ok xc =>
              obtain ⟨x, c⟩ := xc
              dsimp only
              have hd := describe_row env.upper info lat lon x c 0 (columnsOf env names data)
              rw [makeColumn_place0 env info lat lon x c (columnsOf env names data), hd.1, hd.2]
    · have hf : ∃ err, (do
          if !(← validateLength (columnsOf env names data)) then Except.error PyErr.valueError else do
          match slat, slon with
          | some slat, some slon =>
            let row ← match dt with
              | .str t => soundingTime env (env.upper t)
              | .other => .error .typeError
              | .dt x c => .ok (x, c)
            .ok (row, { makeColumn env info slat slon with spri := 0 }, columnsOf env names data)
          | _, _ => .error .typeError : Except PyErr (Row × Col κ × List (List ρ))) = .error err := by
        rcases hl.2 hr with h | ⟨e, h⟩
        · rw [h]; exact ⟨_, rfl⟩
        · rw [h]; exact ⟨_, rfl⟩
      simp only [if_neg hr]
      cases slat <;> cases slon <;> exact hf
  · simp only [hc, false_and, if_false]
    cases slat <;> cases slon <;> exact ⟨_, rfl⟩

/-! ## Histories -/

/-- State after a list of calls; a call that raises is followed by the next one. -/
def run (add : Builder κ β → α → Builder κ β × Except PyErr Unit) (b : Builder κ β) (rs : List α) : Builder κ β :=
  rs.foldl (fun b r => (add b r).1) b

/-- The builder holds exactly what a list of entries says. -/
structure History (env : NumEnv ρ κ) (names : List Text) (es : List ((Row × Col κ) × β)) (b : Builder κ β) : Prop where
  names : b.names = names
  data : b.data = dictUpdate [] es
  rowSet : b.rowSet = OrderedSet.ofList (es.map fun x => x.1.1)
  colSet : b.colSet = OrderedSet.ofList (es.map fun x => x.1.2)
  rows : b.rows = b.rowSet.keys.length
  columns : b.columns = b.colSet.keys.length
  headers : b.rows + b.columns ≤ mmhdrs →
    b.rowHeaders = b.rowSet.keys.mergeSort Row.le ∧ b.columnHeaders = b.colSet.keys.mergeSort (Col.le env.leK)

theorem ofList_snoc {α : Type} [DecidableEq α] (l : List α) (x : α) :
    OrderedSet.ofList (l ++ [x]) = (OrderedSet.ofList l).add x := by
  unfold OrderedSet.ofList; rw [List.foldl_append]; rfl

theorem History.enter {env : NumEnv ρ κ} {names : List Text} {es : List ((Row × Col κ) × β)} {b : Builder κ β}
    (h : History env names es b) (row : Row) (col : Col κ) (v : β) :
    History env names (es ++ [((row, col), v)]) (b.enter env row col v).1 := by
  have hd : dictSet b.data (row, col) v = dictUpdate [] (es ++ [((row, col), v)]) := by
    rw [dictUpdate_append, ← h.data]; rfl
  have hr : b.rowSet.add row = OrderedSet.ofList ((es ++ [((row, col), v)]).map fun x => x.1.1) := by
    rw [List.map_append, h.rowSet]; exact (ofList_snoc _ _).symm
  have hc : b.colSet.add col = OrderedSet.ofList ((es ++ [((row, col), v)]).map fun x => x.1.2) := by
    rw [List.map_append, h.colSet]; exact (ofList_snoc _ _).symm
  unfold Builder.enter
  dsimp only
  split
  · rename_i hgt
    exact ⟨h.names, hd, hr, hc, rfl, rfl, fun hle => absurd hle (by simpa using hgt)⟩
  · exact ⟨h.names, hd, hr, hc, rfl, rfl, fun _ => ⟨rfl, rfl⟩⟩

theorem Builder.enter_outcome (env : NumEnv ρ κ) (b : Builder κ β) (row : Row) (col : Col κ) (v : β) :
    (b.enter env row col v).2 = if (b.enter env row col v).1.rows + (b.enter env row col v).1.columns > mmhdrs
      then .error .valueError else .ok () := by
  unfold Builder.enter
  dsimp only
  split
  · rfl
  · rfl

theorem History.new {env : NumEnv ρ κ} {ps : List Text} {b : Builder κ β} (h : newBuilder env ps = .ok b) :
    History env b.names ([] : List ((Row × Col κ) × β)) b := by
  unfold newBuilder at h
  cases hp : addParameters env ps with
  | error e => rw [hp] at h; cases h
  | ok names =>
    rw [hp] at h
    have : b = ⟨names, ⟨[]⟩, ⟨[]⟩, [], 0, 0, [], []⟩ := (Except.ok.inj h).symm
    subst this
    exact ⟨rfl, rfl, rfl, rfl, rfl, rfl, fun _ => ⟨List.mergeSort_nil.symm, List.mergeSort_nil.symm⟩⟩

/-- After any calls of `add_station` the builder holds the accepted entries. -/
theorem run_station {env : NumEnv ρ κ} {names : List Text} {es : List ((Row × Col κ) × List ρ)} {b : Builder κ (List ρ)}
    (h : History env names es b) (rs : List (AddReq κ ρ)) :
    History env names (es ++ (rs.filterMap (sfEntry env names)).map fun e => (e.place, e.value)) (run (addStation env) b rs) := by
  induction rs generalizing b es with
  | nil => simpa [run] using h
  | cons r rs ih =>
    have hr := checkStation_eq env names r
    show History env names _ (run (addStation env) (addStation env b r).1 rs)
    cases he : sfEntry env names r with
    | none =>
      rw [he] at hr
      obtain ⟨err, hr⟩ := hr
      have ha : (addStation env b r).1 = b := by unfold addStation; rw [h.names, hr]
      rw [ha, List.filterMap_cons_none he]
      exact ih h
    | some e =>
      rw [he] at hr
      have ha : (addStation env b r).1 = (b.enter env e.place.1 e.place.2 e.value).1 := by
        unfold addStation; rw [h.names, hr]
      rw [ha, List.filterMap_cons_some he]
      have := ih (h.enter e.place.1 e.place.2 e.value)
      rw [List.append_assoc] at this
      exact this

/-- After any calls of `add_sounding` the builder holds the accepted entries. -/
theorem run_sounding {env : NumEnv ρ κ} {names : List Text} {es : List ((Row × Col κ) × List (List ρ))}
    {b : Builder κ (List (List ρ))} (h : History env names es b) (rs : List (AddReq κ (List ρ))) :
    History env names (es ++ (rs.filterMap (snEntry env names)).map fun e => (e.place, e.value)) (run (addSounding env) b rs) := by
  induction rs generalizing b es with
  | nil => simpa [run] using h
  | cons r rs ih =>
    have hr := checkSounding_eq env names r
    show History env names _ (run (addSounding env) (addSounding env b r).1 rs)
    cases he : snEntry env names r with
    | none =>
      rw [he] at hr
      obtain ⟨err, hr⟩ := hr
      have ha : (addSounding env b r).1 = b := by unfold addSounding; rw [h.names, hr]
      rw [ha, List.filterMap_cons_none he]
      exact ih h
    | some e =>
      rw [he] at hr
      have ha : (addSounding env b r).1 = (b.enter env e.place.1 e.place.2 e.value).1 := by
        unfold addSounding; rw [h.names, hr]
      rw [ha, List.filterMap_cons_some he]
      have := ih (h.enter e.place.1 e.place.2 e.value)
      rw [List.append_assoc] at this
      exact this

/-! ## The last entry for a key survives -/

theorem final_cons (x : Entry κ β) (r : List (Entry κ β)) :
    final (x :: r) = if ∃ y ∈ r, x.SameKey y then final r else x :: final r := rfl

theorem final_sub {es : List (Entry κ β)} {e : Entry κ β} (h : e ∈ final es) : e ∈ es := by
  induction es with
  | nil => simp [final] at h
  | cons x r ih =>
    unfold final at h
    split at h
    · exact List.mem_cons_of_mem _ (ih h)
    · rcases List.mem_cons.1 h with rfl | h
      · exact List.mem_cons_self
      · exact List.mem_cons_of_mem _ (ih h)

theorem final_nodup (es : List (Entry κ β)) : ((final es).map Entry.place).Nodup := by
  induction es with
  | nil => simp [final]
  | cons x r ih =>
    unfold final
    split
    · exact ih
    · rename_i h
      rw [List.map_cons, List.nodup_cons]
      refine ⟨?_, ih⟩
      intro hm
      obtain ⟨y, hy, he⟩ := List.mem_map.1 hm
      exact h ⟨y, final_sub hy, (sameKey_iff x y).2 he.symm⟩

theorem final_covers {es : List (Entry κ β)} {e : Entry κ β} (h : e ∈ es) : ∃ x ∈ final es, e.SameKey x := by
  induction es generalizing e with
  | nil => simp at h
  | cons x r ih =>
    unfold final
    rcases List.mem_cons.1 h with rfl | h
    · split
      · rename_i hx
        obtain ⟨y, hy, hk⟩ := hx
        obtain ⟨z, hz, hk'⟩ := ih hy
        exact ⟨z, hz, (sameKey_iff _ _).2 (((sameKey_iff _ _).1 hk).trans ((sameKey_iff _ _).1 hk'))⟩
      · exact ⟨_, List.mem_cons_self, (sameKey_iff _ _).2 rfl⟩
    · obtain ⟨z, hz, hk⟩ := ih h
      split
      · exact ⟨z, hz, hk⟩
      · exact ⟨z, List.mem_cons_of_mem _ hz, hk⟩

/-- The dictionary finds the value of the last entry for the key. -/
theorem dictGet_final (es : List (Entry κ β)) (k : Row × Col κ) :
    dictGet (dictUpdate [] (es.map fun e => (e.place, e.value))) k =
      ((final es).find? fun e => e.place = k).map Entry.value := by
  rw [dictGet_dictUpdate]
  simp only [dictGet, Option.or_none]
  rw [← List.map_reverse, List.find?_map, Option.map_map]
  have : ((fun x : (Row × Col κ) × β => decide (x.1 = k)) ∘ fun e : Entry κ β => (e.place, e.value)) =
    fun e => decide (e.place = k) := rfl
  rw [this]
  have key : (es.reverse.find? fun e => decide (e.place = k)) = (final es).find? fun e => decide (e.place = k) := by
    induction es with
    | nil => rfl
    | cons x r ih =>
      rw [List.reverse_cons, List.find?_append, ih, final_cons]
      by_cases hx : x.place = k
      · split
        · rename_i h
          obtain ⟨y, hy, hk⟩ := h
          obtain ⟨z, hz, hk'⟩ := final_covers hy
          have : ((final r).find? fun e => decide (e.place = k)).isSome := by
            rw [List.find?_isSome]
            exact ⟨z, hz, by simp [← (sameKey_iff _ _).1 hk', ← (sameKey_iff _ _).1 hk, hx]⟩
          obtain ⟨w, hw⟩ := Option.isSome_iff_exists.1 this
          rw [hw]; rfl
        · rename_i h
          have : ((final r).find? fun e => decide (e.place = k)) = none := by
            rw [List.find?_eq_none]
            intro y hy hc
            apply h
            exact ⟨y, final_sub hy, (sameKey_iff _ _).2 (by rw [hx]; exact (of_decide_eq_true hc).symm)⟩
          rw [this, List.find?_cons_of_pos (by simp [hx])]
          simp [hx]
      · have e1 : List.find? (fun e : Entry κ β => decide (e.place = k)) [x] = none := by simp [hx]
        rw [e1, Option.or_none]
        split
        · rfl
        · rw [List.find?_cons_of_neg (by simp [hx])]
  rw [key]
  rfl

theorem data_perm_final (es : List (Entry κ β)) :
    (dictUpdate [] (es.map fun e => (e.place, e.value))).Perm ((final es).map fun e => (e.place, e.value)) := by
  have n1 : ((dictUpdate [] (es.map fun e => (e.place, e.value))).map Prod.fst).Nodup := dictUpdate_nodup (d := []) List.nodup_nil _
  have n2 : (((final es).map fun e => (e.place, e.value)).map Prod.fst).Nodup := by
    rw [List.map_map]; exact final_nodup es
  rw [List.perm_ext_iff_of_nodup n1.of_map n2.of_map]
  rintro ⟨k, v⟩
  rw [← dictGet_eq_some n1, ← dictGet_eq_some n2, dictGet_final]
  constructor
  · intro h
    obtain ⟨e, he, hv⟩ := Option.map_eq_some_iff.1 h
    rw [dictGet_eq_some n2]
    have := List.find?_some he
    exact List.mem_map.2 ⟨e, List.mem_of_find?_eq_some he, by rw [← hv, of_decide_eq_true this]⟩
  · intro h
    rw [dictGet_eq_some n2] at h
    obtain ⟨e, he, hv⟩ := List.mem_map.1 h
    injection hv with h1 h2
    have : ((final es).find? fun e => decide (e.place = k)) = some e := by
      have hs : ((final es).find? fun e => decide (e.place = k)).isSome := by
        rw [List.find?_isSome]; exact ⟨e, he, by simp [h1]⟩
      obtain ⟨w, hw⟩ := Option.isSome_iff_exists.1 hs
      have hwm := List.mem_of_find?_eq_some hw
      have hwk : w.place = k := by simpa using List.find?_some hw
      rw [hw, List.inj_on_of_nodup_map (final_nodup es) hwm he (hwk.trans h1.symm)]
    rw [this, Option.map_some, h2]

/-! ## Enumeration of the table -/

/-- Cells with data, row by row. -/
theorem table_perm {R : List Row} {C : List (Col κ)} {d : List ((Row × Col κ) × β)} (hR : R.Nodup) (hC : C.Nodup)
    (hd : (d.map Prod.fst).Nodup) (hin : ∀ x ∈ d, x.1.1 ∈ R ∧ x.1.2 ∈ C) :
    ((R.flatMap fun r => C.map fun c => (r, c)).filterMap fun k => (dictGet d k).map fun v => (k, v)).Perm d := by
  have hprod : (R.flatMap fun r => C.map fun c => (r, c)) = R.product C := rfl
  rw [hprod]
  have hn : (R.product C).Nodup := hR.product hC
  rw [List.perm_ext_iff_of_nodup _ hd.of_map]
  · rintro ⟨k, v⟩
    rw [List.mem_filterMap]
    constructor
    · rintro ⟨k', hk', h⟩
      obtain ⟨v', hv', he⟩ := Option.map_eq_some_iff.1 h
      injection he with h1 h2
      subst h1 h2
      exact (dictGet_eq_some hd).1 hv'
    · intro hm
      refine ⟨k, ?_, by rw [(dictGet_eq_some hd).2 hm]; rfl⟩
      have := hin _ hm
      exact List.pair_mem_product.2 this
  · apply hn.filterMap
    intro a a' b ha ha'
    obtain ⟨v, _, h1⟩ := Option.map_eq_some_iff.1 (Option.mem_def.1 ha)
    obtain ⟨v', _, h2⟩ := Option.map_eq_some_iff.1 (Option.mem_def.1 ha')
    rw [← h2] at h1
    exact (Prod.mk.inj h1).1

end

end Gempak
