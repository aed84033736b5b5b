import Verif.Proof.VgfBodies

/-!
# Reading the pieces of a vector graphic record succeeds when the bytes are there (for C115)
-/

namespace Gempak
open Spec (bytesAt vals shown singlesAt textsAt pointsAt Place wordAt byteAt littleNat singleAt)
variable {ν : Type}

theorem swap_ok (t : Bytes) (i : Nat) (h : i + 4 ≤ t.length) (hb : byteAt t i < 128) :
    ∃ x, swap32 (toI32 (decNat .big ((t.drop i).take 4))) = .ok x := by
  obtain ⟨a, b, c, d, e, h0, _, _, _⟩ := four_bytes t i h
  rw [e]
  have ha := a.toNat_lt
  have hb' := b.toNat_lt
  have hc := c.toNat_lt
  have hd := d.toNat_lt
  rw [h0] at hb
  have hlt : decNat .big [a, b, c, d] < 2 ^ 31 := by rw [be4]; omega
  have hi : toI32 (decNat .big [a, b, c, d]) = (decNat .big [a, b, c, d] : Nat) := by
    unfold toI32; rw [if_pos (by omega)]
  unfold swap32
  rw [hi, if_pos ⟨by omega, by omega⟩]
  exact ⟨_, rfl⟩

/-- A field whose value can be made out is converted. -/
theorem field_ok (env : VgEnv ν) (t : Bytes) (i : Nat) (e : Endian) (f : DField) (hp : (place i e f).val env t ≠ none)
    (hl : i + f.size ≤ t.length) {fm : Fmt} (hfm : (f.info env).fmt = some fm) {v : Val}
    (hu : unpackOne e fm ((t.drop i).take fm.size) = [v]) : ∃ x, (f.info env).apply dInj v = .ok x := by
  cases f with
  | skip n =>
    have : fm = .pad n := (Option.some.inj hfm).symm
    subst this
    cases hu
  | plain n f => exact ⟨_, rfl⟩
  | conv n f c =>
    have : fm = f := (Option.some.inj hfm).symm
    subst this
    show ∃ x, c.run env v = .ok x
    cases fm with
    | i32 =>
      have hu := List.head_eq_of_cons_eq hu
      subst hu
      cases e with
      | little => cases c <;> exact absurd rfl hp
      | big =>
        cases c with
        | swap32 =>
          have hlt : byteAt t i < 128 := by
            by_contra hge
            apply hp
            show (if byteAt t i < 128 then some (DVal.int (littleNat t i)) else none) = none
            rw [if_neg hge]
          obtain ⟨x, hx⟩ := swap_ok t i hl hlt
          refine ⟨.int x, ?_⟩
          show (Gempak.swap32 (toI32 (decNat .big ((t.drop i).take 4)))).map DVal.int = _
          rw [hx]
          rfl
        | _ => exact absurd rfl hp
    | f32 =>
      have hu := List.head_eq_of_cons_eq hu
      subst hu
      cases e with
      | little =>
        cases c with
        | round k => exact ⟨_, rfl⟩
        | _ => exact absurd rfl hp
      | big =>
        cases c with
        | round k => exact ⟨_, rfl⟩
        | toInt =>
          have hp : (f32Value (singleAt t i)).map (fun q => DVal.int (ν := ν) (if 0 ≤ q then ⌊q⌋ else ⌈q⌉)) ≠ none := hp
          show ∃ x, (f32Int (BitVec.ofNat 32 (decNat .big ((t.drop i).take 4)))).map DVal.int = .ok x
          rw [single_take t i hl]
          unfold f32Int
          cases hq : f32Value (singleAt t i) with
          | none => rw [hq] at hp; exact absurd rfl hp
          | some q => exact ⟨_, rfl⟩
        | _ => exact absurd rfl hp
    | str k =>
      have hu := List.head_eq_of_cons_eq hu
      subst hu
      cases c with
      | stripNull => exact ⟨_, rfl⟩
      | _ => cases e <;> exact absurd rfl hp
    | u8 => cases e <;> cases c <;> exact absurd rfl hp
    | i8 => cases e <;> cases c <;> exact absurd rfl hp
    | pad k => cases hu

theorem fields_ok (env : VgEnv ν) (e : Endian) (t : Bytes) : ∀ (fs : List DField) (i : Nat),
    (∀ x ∈ places e i fs, x.2.val env t ≠ none) →
    WellFormed (fs.map (DField.info env)) → i + dSize fs ≤ t.length →
    ∃ vs, ((named (fs.map (DField.info env))).zip (unpackItems e ((fs.map (DField.info env)).filterMap (·.fmt)) (t.drop i))).mapM
        (fun (i, v) => i.apply dInj v) = .ok vs := by
  intro fs
  induction fs with
  | nil => intro i _ _ _; exact ⟨[], rfl⟩
  | cons f fs ih =>
    intro i hp hw hl
    have hw' : WellFormed (fs.map (DField.info env)) := fun i hi => hw i (by
      rw [List.map_cons]; exact List.mem_cons_of_mem _ hi)
    have hw0 := hw (DField.info env f) (by simp)
    rw [dSize_cons] at hl
    cases f with
    | skip n =>
      simp only [List.map_cons, DField.info, named, List.filter_cons, Option.isSome_none,
        Bool.false_eq_true, if_false, List.filterMap_cons, unpackItems, unpackOne, List.nil_append, Fmt.size]
      rw [List.drop_drop]
      exact ih (i + n) hp hw' (by simp only [DField.size] at hl; omega)
    | plain n f =>
      have hv : f.hasVal = true := by
        rcases hw0 with ⟨_, g, _, hg, hv⟩ | ⟨hn, _⟩
        · simp only [DField.info, Option.some.injEq] at hg; subst hg; exact hv
        · simp [DField.info] at hn
      obtain ⟨v, hu⟩ : ∃ v, unpackOne e f ((t.drop i).take f.size) = [v] := by
        cases f <;> first | exact ⟨_, rfl⟩ | cases hv
      obtain ⟨x, hx⟩ := field_ok env t i e (.plain n f) (hp (n, place i e (.plain n f)) (by simp [places])) (by omega) rfl hu
      obtain ⟨vs, hvs⟩ := ih (i + f.size) (fun x hx => hp x (by simp [places, hx])) hw'
        (by simp only [DField.size] at hl; omega)
      refine ⟨x :: vs, ?_⟩
      simp only [List.map_cons, DField.info, named, List.filter_cons, Option.isSome_some, if_true,
        List.filterMap_cons, unpackItems, hu, List.cons_append, List.nil_append, List.zip_cons_cons, List.mapM_cons]
      simp only [DField.info] at hx
      rw [hx, ok_bind, List.drop_drop]
      have hvs' := hvs
      unfold named at hvs'
      rw [hvs']
      rfl
    | conv n f c =>
      have hv : f.hasVal = true := by
        rcases hw0 with ⟨_, g, _, hg, hv⟩ | ⟨hn, _⟩
        · simp only [DField.info, Option.some.injEq] at hg; subst hg; exact hv
        · simp [DField.info] at hn
      obtain ⟨v, hu⟩ : ∃ v, unpackOne e f ((t.drop i).take f.size) = [v] := by
        cases f <;> first | exact ⟨_, rfl⟩ | cases hv
      obtain ⟨x, hx⟩ := field_ok env t i e (.conv n f c) (hp (n, place i e (.conv n f c)) (by simp [places])) (by omega) rfl hu
      obtain ⟨vs, hvs⟩ := ih (i + f.size) (fun x hx => hp x (by simp [places, hx])) hw'
        (by simp only [DField.size] at hl; omega)
      refine ⟨x :: vs, ?_⟩
      simp only [List.map_cons, DField.info, named, List.filter_cons, Option.isSome_some, if_true,
        List.filterMap_cons, unpackItems, hu, List.cons_append, List.nil_append, List.zip_cons_cons, List.mapM_cons]
      simp only [DField.info] at hx
      rw [hx, ok_bind, List.drop_drop]
      have hvs' := hvs
      unfold named at hvs'
      rw [hvs']
      rfl

/-- The reader stands at byte `i` of the record that starts the bytes `t`. -/
structure Exact (b : IOBuffer) (pre t : Bytes) (i : Nat) : Prop where
  data : b.data = pre ++ t
  offset : b.offset = pre.length + i

theorem Exact.on {b : IOBuffer} {pre t : Bytes} {i : Nat} (h : Exact b pre t i) : On b pre t i := ⟨h.data, Or.inl h.offset⟩

theorem Exact.cast {b : IOBuffer} {pre t : Bytes} {i j : Nat} (h : Exact b pre t i) (e : i = j) : Exact b pre t j := e ▸ h

theorem Exact.length {b : IOBuffer} {pre t : Bytes} {i : Nat} (h : Exact b pre t i) :
    (b.data.length : Int) = pre.length + t.length := h.on.data_length

/-- Not every field has a converter. -/
def someBare (fs : List DField) : Bool := fs.any fun f => match f with | .conv _ _ _ => false | _ => true

theorem struct_ok (env : VgEnv ν) (e : Endian) (fs : List DField) (h : someBare fs = true) :
    dStruct env e fs = .ok ⟨fs.map (DField.info env), e, dInj⟩ := by
  unfold dStruct NamedStruct.make
  rw [if_neg]
  intro hall
  rw [List.all_eq_true] at hall
  obtain ⟨f, hf, hb⟩ := List.any_eq_true.1 h
  have := hall _ (List.mem_map_of_mem hf)
  cases f with
  | conv n f c => cases hb
  | plain n f => cases this
  | skip n => cases this

/-- A structure is read when its bytes are there and its values can be made out. -/
theorem rec_ok (env : VgEnv ν) (e : Endian) (fs : List DField) (hw : WellFormed (fs.map (DField.info env)))
    (hc : someBare fs = true) {b : IOBuffer} {pre t : Bytes} {i : Nat} (hb : Exact b pre t i)
    (hl : i + dSize fs ≤ t.length) (hv : ∀ x ∈ places e i fs, x.2.val env t ≠ none) :
    ∃ r b', readRec env e fs b = .ok (r, b') ∧ Exact b' pre t (i + dSize fs) := by
  obtain ⟨vs, hvs⟩ := fields_ok env e t fs i hv hw hl
  have hlen := hb.length
  have ho := hb.offset
  have h1 : b.offset.toNat = pre.length + i := by omega
  have hu : Gempak.unpackFrom e ((fs.map (DField.info env)).filterMap (·.fmt)) b.data b.offset =
      .ok (unpackItems e ((fs.map (DField.info env)).filterMap (·.fmt)) (t.drop i)) := by
    unfold Gempak.unpackFrom
    have h0 : ¬ b.offset < 0 := by omega
    dsimp only
    rw [if_neg h0, if_neg h0, dSize_eq, if_pos (by omega), h1, hb.data, ← List.drop_drop, List.drop_left]
  have hs : NamedStruct.unpackFrom ⟨fs.map (DField.info env), e, dInj⟩ b.data b.offset = .ok vs := by
    show (Gempak.unpackFrom e ((fs.map (DField.info env)).filterMap (·.fmt)) b.data b.offset >>=
      NamedStruct.create ⟨fs.map (DField.info env), e, dInj⟩) = _
    rw [hu, ok_bind, create_eq _ hw _ (by
        rw [unpackItems_vals, valFmts_named _ hw]
        exact named_fmt_length _ hw)]
    exact hvs
  refine ⟨((fs.map (DField.info env)).filterMap (·.name)).zip vs, b.skip (some (dSize fs)), ?_, hb.data, ?_⟩
  · unfold readRec
    rw [struct_ok env e fs hc, ok_bind, hs, ok_bind]
    have : NamedStruct.size (⟨fs.map (DField.info env), e, dInj⟩ : NamedStruct (DVal ν)) = dSize fs := dSize_eq env fs
    rw [this]
    rfl
  · show b.offset + (dSize fs : Int) = _
    rw [ho]; push_cast; omega

theorem words_ok {n : Int} (hn : 0 ≤ n) {b : IOBuffer} {pre t : Bytes} {i : Nat} (hb : Exact b pre t i)
    (hl : i + 4 * n.toNat ≤ t.length) :
    ∃ ws b', readVgWords n b = .ok (ws, b') ∧ Exact b' pre t (i + 4 * n.toNat) := by
  have hlen := hb.length
  have ho := hb.offset
  unfold readVgWords
  rw [if_neg (by omega)]
  dsimp only
  rw [if_neg (by omega), if_neg (by rw [List.length_drop]; omega)]
  refine ⟨_, _, rfl, hb.data, ?_⟩
  show b.offset + ((4 * n.toNat : Nat) : Int) = _
  rw [ho]; push_cast; omega

theorem latlon_ok (env : VgEnv ν) {n : Int} (hn : n ≤ 500) {b : IOBuffer} {pre t : Bytes} {i : Nat} (hb : Exact b pre t i)
    (hl : i + 8 * n.toNat ≤ t.length) :
    ∃ ll b', getLatLon env n b = .ok (ll, b') ∧ Exact b' pre t (i + 8 * n.toNat) := by
  unfold getLatLon
  rw [if_neg (by show ¬ n > 500; omega)]
  by_cases h : n ≥ 1
  · rw [if_pos h]
    obtain ⟨w1, b1, h1, x1⟩ := words_ok (n := n) (by omega) hb (by omega)
    obtain ⟨w2, b2, h2, x2⟩ := words_ok (n := n) (by omega) x1 (by omega)
    rw [rd_ok h1, rd_ok h2]
    exact ⟨_, _, rfl, x2.cast (by omega)⟩
  · rw [if_neg h]
    exact ⟨_, _, rfl, hb.cast (by omega)⟩

theorem bytes_ok (w : Nat) {b : IOBuffer} {pre t : Bytes} {i : Nat} (hb : Exact b pre t i) (hl : i + w ≤ t.length) :
    ∃ x b', readBytes w b = .ok (x, b') ∧ Exact b' pre t (i + w) := by
  refine ⟨_, _, rfl, hb.data, ?_⟩
  have ho := hb.offset
  show b.offset + ((pySlice b.data b.offset (b.offset + w)).length : Int) = _
  have hs : pySlice b.data b.offset (b.offset + w) = (b.data.drop (pre.length + i)).take w := by
    have := pySlice_nat b.data (pre.length + i) (pre.length + i + w) (by omega)
    rw [Nat.add_sub_cancel_left] at this
    rw [← this, ho]
    push_cast
    rfl
  rw [hs, hb.data, List.length_take, List.length_drop, List.length_append, ho]
  push_cast
  omega

theorem cstring_ok (w : Nat) {b : IOBuffer} {pre t : Bytes} {i : Nat} (hb : Exact b pre t i) (hl : i + w ≤ t.length)
    (hv : utf8Dec ((bytesAt t i w).takeWhile (· ≠ 0)) ≠ none) :
    ∃ x b', readCString w b = .ok (x, b') ∧ Exact b' pre t (i + w) := by
  obtain ⟨x, b1, h1, x1⟩ := bytes_ok w hb hl
  have e1 := (on_bytes w hb.on h1).1
  subst e1
  unfold readCString
  rw [rd_ok h1]
  cases hu : utf8Dec ((bytesAt t i w).takeWhile (· ≠ 0)) with
  | none => exact absurd hu hv
  | some s =>
    refine ⟨s, b1, ?_, x1⟩
    unfold Rd.pure' cString
    rw [hu]
    rfl

theorem skip_ok {k : Int} (hk : 0 ≤ k) {b : IOBuffer} {pre t : Bytes} {i : Nat} (hb : Exact b pre t i) :
    ∃ b', skipBytes k b = .ok ((), b') ∧ Exact b' pre t (i + k.toNat) := by
  refine ⟨_, rfl, hb.data, ?_⟩
  show b.offset + k = _
  rw [hb.offset]; push_cast; omega

theorem repeat_ok {α : Type} {x : Rd α} {w : Nat} {pre t : Bytes} {n i : Nat}
    (hx : ∀ k < n, ∀ b, Exact b pre t (i + w * k) → ∃ a b', x b = .ok (a, b') ∧ Exact b' pre t (i + w * k + w))
    {b : IOBuffer} (hb : Exact b pre t i) : ∃ as b', repeatRd x n b = .ok (as, b') ∧ Exact b' pre t (i + w * n) := by
  induction n generalizing i b with
  | zero => exact ⟨_, _, rfl, hb⟩
  | succ n ih =>
    obtain ⟨a, b1, h1, x1⟩ := hx 0 (by omega) b (hb.cast (by omega))
    have x1 := x1.cast (show i + w * 0 + w = i + w by omega)
    obtain ⟨as, b2, h2, x2⟩ := ih (i := i + w) (fun k hk c hc => by
      have e : i + w * (k + 1) = i + w + w * k := by rw [Nat.mul_succ]; omega
      have := hx (k + 1) (by omega) c (hc.cast e.symm)
      rw [e] at this
      exact this) x1
    unfold repeatRd
    rw [rd_ok h1, rd_ok h2]
    exact ⟨_, _, rfl, x2.cast (by rw [Nat.mul_succ]; omega)⟩

theorem mapM_some_all {α β : Type} {f : α → Option β} : ∀ {l : List α}, l.mapM f ≠ none → ∀ a ∈ l, f a ≠ none := by
  intro l
  induction l with
  | nil => intro _ a ha; cases ha
  | cons x l ih =>
    intro h a ha hn
    rw [List.mapM_cons] at h
    rcases List.mem_cons.1 ha with rfl | ha
    · rw [hn] at h; exact h rfl
    · cases hx : f x with
      | none => rw [hx] at h; exact h rfl
      | some y =>
        rw [hx] at h
        refine ih (fun h0 => h ?_) a ha hn
        show (some y).bind (fun r => (l.mapM f).bind _) = none
        rw [h0]
        rfl

theorem texts_ok (w : Nat) (n : Int) {b : IOBuffer} {pre t : Bytes} {i : Nat} (hb : Exact b pre t i)
    (hl : i + w * n.toNat ≤ t.length) (hv : textsAt t i w n ≠ none) :
    ∃ xs b', repeatRd (readCString w) n.toNat b = .ok (xs, b') ∧ Exact b' pre t (i + w * n.toNat) := by
  refine repeat_ok (fun k hk c hc => cstring_ok w hc ?_ ?_) hb
  · have : w * k + w ≤ w * n.toNat := by
      rw [← Nat.mul_succ]; exact Nat.mul_le_mul_left _ hk
    omega
  · exact mapM_some_all hv k (List.mem_range.2 hk)

theorem count_ok {b : IOBuffer} {pre t : Bytes} {i : Nat} (hb : Exact b pre t i) (hl : i + 4 ≤ t.length) :
    ∃ n b', readCount b = .ok (n, b') ∧ Exact b' pre t (i + 4) := by
  obtain ⟨x, b1, h1, x1⟩ := bytes_ok 4 hb hl
  have h1 := (Prod.mk.inj (Except.ok.inj h1)).2
  exact ⟨_, b1, by rw [← h1]; rfl, x1⟩

theorem int_ok (env : VgEnv ν) {t : Bytes} {tbl : List (String × Place)} {r : DRec ν}
    (h : shown r = vals env t tbl) {n : String} {i : Nat} (hp : tbl.lookup n = some (.word i)) : r.int n = .ok (wordAt t i) := by
  obtain ⟨v, h1, h2⟩ := lookup_place env h hp
  unfold DRec.int DRec.get
  rw [h1, ← Option.some.inj h2]
  rfl

theorem get_ok (env : VgEnv ν) {t : Bytes} {tbl : List (String × Place)} {r : DRec ν}
    (h : shown r = vals env t tbl) {n : String} (hp : (tbl.lookup n).isSome = true) : ∃ v, r.get n = .ok v := by
  obtain ⟨p, hp⟩ := Option.isSome_iff_exists.1 hp
  obtain ⟨v, h1, _⟩ := lookup_place env h hp
  refine ⟨v, ?_⟩
  unfold DRec.get
  rw [h1]

theorem pick_ok (env : VgEnv ν) {t : Bytes} {tbl : List (String × Place)} {r : DRec ν}
    (h : shown r = vals env t tbl) : ∀ (ns : List String), (ns.all fun n => (tbl.lookup n).isSome) = true →
    ∃ a, r.pick ns = .ok a := by
  intro ns
  induction ns with
  | nil => intro _; exact ⟨[], rfl⟩
  | cons n ns ih =>
    intro ha
    rw [List.all_cons, Bool.and_eq_true] at ha
    obtain ⟨v, hv⟩ := get_ok env h ha.1
    obtain ⟨a, ha'⟩ := ih ha.2
    refine ⟨(n, v) :: a, ?_⟩
    unfold DRec.pick at ha' ⊢
    rw [List.mapM_cons, hv, ok_bind, ok_bind, ha']
    rfl

theorem pickAs_ok (env : VgEnv ν) {t : Bytes} {tbl : List (String × Place)} {r : DRec ν}
    (h : shown r = vals env t tbl) {a n : String} (hp : (tbl.lookup n).isSome = true) : ∃ x, r.pickAs a n = .ok x := by
  obtain ⟨v, hv⟩ := get_ok env h hp
  refine ⟨[(a, v)], ?_⟩
  unfold DRec.pickAs
  rw [hv]
  rfl

theorem enum_ok {lo : Int} {names : List String} {i : Int} (h : (Spec.codeName lo names i : Option (DVal ν)) ≠ none) :
    ∃ s, enumName lo names i = .ok s := by
  unfold Spec.codeName at h
  unfold enumName
  by_cases hi : lo ≤ i
  · rw [if_neg (by omega)]
    rw [if_pos hi] at h
    cases hn : names[(i - lo).toNat]? with
    | none => rw [hn] at h; exact absurd rfl h
    | some s => exact ⟨s, rfl⟩
  · rw [if_neg hi] at h; exact absurd rfl h

theorem lineProps_ok {c : Int} (h : 0 ≤ c) : ∃ p : DRec ν, lineProps c = .ok p := by
  obtain ⟨n, rfl⟩ := Int.eq_ofNat_of_zero_le h
  have hl := lead_lt 2 n
  obtain ⟨t1, t2⟩ := line_digits ⟨Spec.lead 2 n, hl⟩
  dsimp only at t1 t2
  have hn : ∀ d : Fin 10, ∃ s, enumName 0 lineTypeNames (d.val : Int) = .ok s := by
    intro d; exact ⟨lineTypeNames.getD d.val "", by revert d; decide⟩
  obtain ⟨s, hs⟩ := hn ⟨Spec.lead 2 n % 10, by omega⟩
  unfold lineProps
  dsimp only
  rw [digit_lead 2 (by omega) 0 (by omega), digit_lead 2 (by omega) 1 (by omega), t1, t2]
  simp only [ok_bind]
  rw [hs]
  exact ⟨_, rfl⟩

theorem frontProps_ok {c : Int} (h : 0 ≤ c) : ∃ p : DRec ν, frontProps c = .ok p := by
  obtain ⟨n, rfl⟩ := Int.eq_ofNat_of_zero_le h
  have hl := lead_lt 3 n
  obtain ⟨t0, t1, t2⟩ := code_table ⟨Spec.lead 3 n, hl⟩
  dsimp only at t0 t1 t2
  have hn : ∀ d : Fin 10, enumName 0 frontTypeNames (d.val : Int) = .ok (frontTypeNames.getD d.val "") ∧
      enumName 0 frontIntensityNames (d.val : Int) = .ok (frontIntensityNames.getD d.val "") ∧
      enumName 0 frontCharacterNames (d.val : Int) = .ok (frontCharacterNames.getD d.val "") := by decide
  have s0 := (hn ⟨Spec.lead 3 n / 100, by omega⟩).1
  have s1 := (hn ⟨Spec.lead 3 n / 10 % 10, by omega⟩).2.1
  have s2 := (hn ⟨Spec.lead 3 n % 10, by omega⟩).2.2
  dsimp only at s0 s1 s2
  unfold frontProps
  dsimp only
  rw [digit_lead 3 (by omega) 0 (by omega), digit_lead 3 (by omega) 1 (by omega), digit_lead 3 (by omega) 2 (by omega),
    t0, t1, t2]
  simp only [ok_bind]
  rw [s0, s1, s2]
  exact ⟨_, rfl⟩

/-! ## Bodies -/

/-- Every value of a record can be made out. -/
def Spec.Content.Legible (c : Spec.Content ν) : Prop := ∀ e ∈ c.elems, ∀ f ∈ e.2, f.2 ≠ none

theorem Spec.Content.Legible.one {k : String} {fs : Spec.Fields ν} {n : Nat}
    (h : Spec.Content.Legible ⟨[(k, fs)], n⟩) {a : String} {v : Option (DVal ν)} (hm : (a, v) ∈ fs) : v ≠ none :=
  h (k, fs) (List.mem_singleton.2 rfl) (a, v) hm

/-- A body decoder succeeds. -/
def Works (b : IOBuffer) (x : Rd (Prod' ν)) : Prop := ∃ r, x b = .ok r

/-- Places whose values can always be made out. -/
def sure (tbl : List (String × Place)) : Bool :=
  tbl.all fun x => match x.2 with | .whole _ => false | .swapped _ => false | .nowhere => false | _ => true

theorem sure_vals (env : VgEnv ν) (t : Bytes) {tbl : List (String × Place)} (h : sure tbl = true) :
    ∀ x ∈ tbl, x.2.val env t ≠ none := by
  intro x hx
  have := List.all_eq_true.1 h x hx
  cases hp : x.2 <;> rw [hp] at this <;> first | (exact absurd this Bool.false_ne_true) | (intro hn; cases hn)

theorem works_fronts (env : VgEnv ν) {b : IOBuffer} {pre t : Bytes} (hb : Exact b pre t 40)
    (hs : (Spec.frontAt env t).size ≤ t.length) (hl : (Spec.frontAt env t).Legible) (hn : wordAt t 40 ≤ 500) :
    Works b (decodeFronts env) := by
  have hs : 68 + 8 * (wordAt t 40).toNat ≤ t.length := hs
  obtain ⟨r, b1, hr, x1⟩ := rec_ok env .big frontInfo (wellFormed_info env _ rfl) (by decide) hb
    (by have : dSize frontInfo = 28 := by decide
        omega) (sure_vals env t (by decide))
  have x1 := x1.cast (show _ = 68 by decide)
  obtain ⟨e1, _⟩ := on_rec env .big frontInfo (wellFormed_info env _ rfl) (by decide) (by decide) hb.on hr
  obtain ⟨ll, b2, h2, x2⟩ := latlon_ok env hn x1 (by omega)
  obtain ⟨a, ha⟩ := pick_ok env e1 ["number_points", "front_code", "pip_size", "pip_stroke", "pip_direction", "width", "label"]
    (by decide)
  have hc : 0 ≤ wordAt t 44 := by
    by_contra hc
    refine hl.one (a := "front_type") (List.mem_append_right _ (List.mem_cons_self)) (if_neg hc)
  obtain ⟨p, hp⟩ := frontProps_ok (ν := ν) hc
  unfold decodeFronts
  unfold Works
  rw [rd_ok hr, rd_pure' (int_ok env e1 (i := 40) (by decide)), rd_ok h2, rd_pure' ha,
    rd_pure' (a := p) (by rw [int_ok env e1 (i := 44) (by decide), ok_bind]; exact hp)]
  exact ⟨_, rfl⟩

end Gempak
