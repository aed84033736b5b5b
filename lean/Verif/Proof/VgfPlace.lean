import Verif.Props.VgfEnds
import Verif.Spec.VgfRecords
import Verif.Proof.Tools

/-!
# Reading the fields of a record by their places
-/

namespace Gempak
variable {ν : Type}
open Spec (byteAt wordAt bytesAt singleAt littleNat littleWordAt Place vals shown singlesAt wordsAt textsAt pointsAt)

/-! ## Numbers -/

theorem four_bytes (t : Bytes) (i : Nat) (h : i + 4 ≤ t.length) : ∃ a b c d : UInt8, (t.drop i).take 4 = [a, b, c, d] ∧
    byteAt t i = a.toNat ∧ byteAt t (i + 1) = b.toNat ∧ byteAt t (i + 2) = c.toNat ∧ byteAt t (i + 3) = d.toNat := by
  have h1 : 3 + 1 ≤ (t.drop i).length := by rw [List.length_drop]; omega
  obtain ⟨a, r1, e1, k1⟩ := cons_of_length h1
  obtain ⟨b, r2, rfl, k2⟩ := cons_of_length k1
  obtain ⟨c, r3, rfl, k3⟩ := cons_of_length k2
  obtain ⟨d, r4, rfl, k4⟩ := cons_of_length k3
  have hg : ∀ j, t.getD (i + j) 0 = (a :: b :: c :: d :: r4).getD j 0 := by
    intro j
    rw [← e1, List.getD_eq_getElem?_getD, List.getD_eq_getElem?_getD, List.getElem?_drop]
  have g0 := hg 0
  rw [Nat.add_zero] at g0
  refine ⟨a, b, c, d, by rw [e1]; rfl, ?_, ?_, ?_, ?_⟩ <;> unfold Spec.byteAt
  · rw [g0]; rfl
  · rw [hg 1]; rfl
  · rw [hg 2]; rfl
  · rw [hg 3]; rfl

theorem le4 (a b c d : UInt8) : decNat .little [a, b, c, d] = ((d.toNat * 256 + c.toNat) * 256 + b.toNat) * 256 + a.toNat := by
  simp [decNat, leToNat]; ring

theorem single_take (t : Bytes) (i : Nat) (h : i + 4 ≤ t.length) :
    BitVec.ofNat 32 (decNat .big ((t.drop i).take 4)) = singleAt t i := by
  obtain ⟨a, b, c, d, e, h0, h1, h2, h3⟩ := four_bytes t i h
  unfold Spec.singleAt
  rw [e, be4, h0, h1, h2, h3]

theorem little_take (t : Bytes) (i : Nat) (h : i + 4 ≤ t.length) :
    decNat .little ((t.drop i).take 4) = littleNat t i := by
  obtain ⟨a, b, c, d, e, h0, h1, h2, h3⟩ := four_bytes t i h
  unfold Spec.littleNat
  rw [e, le4, h0, h1, h2, h3]

theorem byte_take (e : Endian) (t : Bytes) (i : Nat) (h : i + 1 ≤ t.length) :
    decNat e ((t.drop i).take 1) = byteAt t i := by
  have h1 : 0 + 1 ≤ (t.drop i).length := by rw [List.length_drop]; omega
  obtain ⟨a, r1, e1, _⟩ := cons_of_length h1
  have hg : t.getD i 0 = a := by
    have : t.getD (i + 0) 0 = (a :: r1).getD 0 0 := by
      rw [← e1, List.getD_eq_getElem?_getD, List.getD_eq_getElem?_getD, List.getElem?_drop]
    simpa using this
  unfold Spec.byteAt
  rw [hg, e1]
  cases e <;> simp [decNat, leToNat]

theorem swap_take (t : Bytes) (i : Nat) (h : i + 4 ≤ t.length) {x : Int}
    (hx : swap32 (toI32 (decNat .big ((t.drop i).take 4))) = .ok x) : byteAt t i < 128 ∧ x = littleNat t i := by
  obtain ⟨a, b, c, d, e, h0, h1, h2, h3⟩ := four_bytes t i h
  rw [e] at hx
  unfold swap32 at hx
  have ha := a.toNat_lt
  have hb := b.toNat_lt
  have hc := c.toNat_lt
  have hd := d.toNat_lt
  split at hx
  · rename_i hr
    have hlt : decNat .big [a, b, c, d] < 2 ^ 31 := by
      unfold toI32 at hr
      split at hr
      · omega
      · rw [be4] at hr; omega
    have hi : toI32 (decNat .big [a, b, c, d]) = (decNat .big [a, b, c, d] : Nat) := by
      unfold toI32; rw [if_pos (by omega)]
    have hx := Except.ok.inj hx
    rw [hi, Int.toNat_natCast] at hx
    have hle : natToLE (decNat .big [a, b, c, d]) 4 = [d, c, b, a] := natToLE_leToNat [d, c, b, a]
    rw [hle] at hx
    refine ⟨by rw [h0]; rw [be4] at hlt; omega, ?_⟩
    rw [← hx]
    unfold Spec.littleNat
    rw [h0, h1, h2, h3, ← le4]
    rfl
  · cases hx

/-! ## Structures -/

/-- Where a field stands. -/
def place (i : Nat) : Endian → DField → Place
  | _, .plain _ .u8 => .byte i
  | _, .plain _ .i8 => .signedByte i
  | .big, .plain _ .i32 => .word i
  | .big, .plain _ .f32 => .single i
  | .big, .conv _ .f32 (.round n) => .rounded n i
  | .big, .conv _ .f32 .toInt => .whole i
  | .big, .conv _ .i32 .swap32 => .swapped i
  | _, .conv _ (.str n) .stripNull => .text i n
  | .little, .plain _ .i32 => .littleWord i
  | .little, .conv _ .f32 (.round n) => .littleRounded n i
  | _, _ => .nowhere

/-- Size of a field. -/
def DField.size : DField → Nat
  | .plain _ f | .conv _ f _ => f.size
  | .skip n => n

/-- Places of the fields of a structure that starts at byte `i`. -/
def places (e : Endian) : Nat → List DField → List (String × Place)
  | _, [] => []
  | i, .skip n :: fs => places e (i + n) fs
  | i, .plain n f :: fs => (n, place i e (.plain n f)) :: places e (i + f.size) fs
  | i, .conv n f c :: fs => (n, place i e (.conv n f c)) :: places e (i + f.size) fs

/-- Every field has a place. -/
def placed (e : Endian) (fs : List DField) : Bool := (places e 0 fs).all fun x => decide (x.2 ≠ .nowhere)

theorem field_val (env : VgEnv ν) (t : Bytes) (i : Nat) (e : Endian) (f : DField) (hp : place i e f ≠ .nowhere)
    (hl : i + f.size ≤ t.length) {fm : Fmt} (hfm : (f.info env).fmt = some fm) {v : Val}
    (hu : unpackOne e fm ((t.drop i).take fm.size) = [v]) {x : DVal ν} (hx : (f.info env).apply dInj v = .ok x) :
    some x = (place i e f).val env t := by
  cases f with
  | skip n =>
    have : fm = .pad n := (Option.some.inj hfm).symm
    subst this
    cases hu
  | plain n f =>
    have : fm = f := (Option.some.inj hfm).symm
    subst this
    have hy := Except.ok.inj hx
    cases fm with
    | i32 =>
      cases e with
      | big =>
        have hu2 := List.head_eq_of_cons_eq hu
        rw [← hy, ← hu2]
        show some (DVal.int (toI32 (decNat .big ((t.drop i).take 4)))) = some (DVal.int (wordAt t i))
        rw [word_take t i hl]
      | little =>
        have hu2 := List.head_eq_of_cons_eq hu
        rw [← hy, ← hu2]
        show some (DVal.int (toI32 (decNat .little ((t.drop i).take 4)))) = some (DVal.int (littleWordAt t i))
        rw [little_take t i hl]
        rfl
    | f32 =>
      cases e with
      | big =>
        have hu2 := List.head_eq_of_cons_eq hu
        rw [← hy, ← hu2]
        show some (DVal.flt (BitVec.ofNat 32 (decNat .big ((t.drop i).take 4)))) = some (DVal.flt (singleAt t i))
        rw [single_take t i hl]
      | little => exact absurd rfl hp
    | u8 =>
      have hu2 := List.head_eq_of_cons_eq hu
      rw [← hy, ← hu2]
      have : (place i e (.plain n .u8)) = .byte i := by cases e <;> rfl
      rw [this]
      show some (DVal.int (decNat e ((t.drop i).take 1))) = some (DVal.int (byteAt t i))
      rw [byte_take e t i hl]
    | i8 =>
      have hu2 := List.head_eq_of_cons_eq hu
      rw [← hy, ← hu2]
      have : (place i e (.plain n .i8)) = .signedByte i := by cases e <;> rfl
      rw [this]
      show some (DVal.int (if decNat e ((t.drop i).take 1) < 128 then (decNat e ((t.drop i).take 1) : Int)
        else (decNat e ((t.drop i).take 1) : Int) - 256)) = some (DVal.int _)
      rw [byte_take e t i hl]
    | str n => cases e <;> exact absurd rfl hp
    | pad n => cases hu
  | conv n f c =>
    have : fm = f := (Option.some.inj hfm).symm
    subst this
    have hx : c.run env v = .ok x := hx
    cases fm with
    | i32 =>
      have hu := List.head_eq_of_cons_eq hu
      subst hu
      cases e with
      | little => cases c <;> exact absurd rfl hp
      | big =>
        cases c with
        | swap32 =>
          have hx : (Gempak.swap32 (toI32 (decNat .big ((t.drop i).take 4)))).map DVal.int = .ok x := hx
          cases hs : Gempak.swap32 (toI32 (decNat .big ((t.drop i).take 4))) with
          | error er => rw [hs] at hx; cases hx
          | ok y =>
            rw [hs] at hx
            obtain ⟨h1, h2⟩ := swap_take t i hl hs
            have hx := Except.ok.inj hx
            show some x = if byteAt t i < 128 then some (.int (littleNat t i)) else none
            rw [if_pos h1, ← hx, h2]
        | _ => exact absurd rfl hp
    | f32 =>
      have hu := List.head_eq_of_cons_eq hu
      subst hu
      cases e with
      | little =>
        cases c with
        | round k =>
          have hx := Except.ok.inj hx
          rw [← hx]
          show some (DVal.num (env.scalar k (BitVec.ofNat 32 (decNat .little ((t.drop i).take 4))))) =
            some (DVal.num (env.scalar k (BitVec.ofNat 32 (littleNat t i))))
          rw [little_take t i hl]
        | _ => exact absurd rfl hp
      | big =>
        cases c with
        | round k =>
          have hx := Except.ok.inj hx
          rw [← hx]
          show some (DVal.num (env.scalar k (BitVec.ofNat 32 (decNat .big ((t.drop i).take 4))))) =
            some (DVal.num (env.scalar k (singleAt t i)))
          rw [single_take t i hl]
        | toInt =>
          have hx : (f32Int (BitVec.ofNat 32 (decNat .big ((t.drop i).take 4)))).map DVal.int = .ok x := hx
          rw [single_take t i hl] at hx
          unfold f32Int at hx
          show some x = (f32Value (singleAt t i)).map _
          cases hq : f32Value (singleAt t i) with
          | none =>
            rw [hq] at hx
            dsimp only at hx
            split at hx <;> cases hx
          | some q =>
            rw [hq] at hx
            have hx := Except.ok.inj hx
            rw [← hx]
            rfl
        | _ => exact absurd rfl hp
    | str k =>
      have hu := List.head_eq_of_cons_eq hu
      subst hu
      cases c with
      | stripNull =>
        have hx := Except.ok.inj hx
        have : (place i e (.conv n (.str k) .stripNull)) = .text i k := by cases e <;> rfl
        rw [this, ← hx]
        rfl
      | _ => cases e <;> exact absurd rfl hp
    | u8 => cases e <;> cases c <;> exact absurd rfl hp
    | i8 => cases e <;> cases c <;> exact absurd rfl hp
    | pad k => cases hu

theorem dSize_cons (f : DField) (fs : List DField) : dSize (f :: fs) = f.size + dSize fs := by
  unfold dSize
  rw [List.map_cons, List.sum_cons]
  cases f <;> rfl

theorem zip_places (env : VgEnv ν) (e : Endian) (t : Bytes) : ∀ (fs : List DField) (i : Nat),
    ((places e i fs).all fun x => decide (x.2 ≠ .nowhere)) = true →
    WellFormed (fs.map (DField.info env)) → i + dSize fs ≤ t.length →
    ∀ vs, ((named (fs.map (DField.info env))).zip (unpackItems e ((fs.map (DField.info env)).filterMap (·.fmt)) (t.drop i))).mapM
        (fun (i, v) => i.apply dInj v) = .ok vs →
    shown (((fs.map (DField.info env)).filterMap (·.name)).zip vs) = vals env t (places e i fs) := by
  intro fs
  induction fs with
  | nil => intro i _ _ _ vs h; rfl
  | cons f fs ih =>
    intro i hp hw hl vs h
    have hw' : WellFormed (fs.map (DField.info env)) := fun i hi => hw i (by
      rw [List.map_cons]; exact List.mem_cons_of_mem _ hi)
    have hw0 := hw (DField.info env f) (by simp)
    rw [dSize_cons] at hl
    cases f with
    | skip n =>
      simp only [List.map_cons, DField.info, named, List.filter_cons, Option.isSome_none,
        Bool.false_eq_true, if_false, List.filterMap_cons, unpackItems, unpackOne, List.nil_append, Fmt.size] at h ⊢
      rw [List.drop_drop] at h
      exact ih (i + n) hp hw' (by simp only [DField.size] at hl; omega) vs h
    | plain n f =>
      have hv : f.hasVal = true := by
        rcases hw0 with ⟨_, g, _, hg, hv⟩ | ⟨hn, _⟩
        · simp only [DField.info, Option.some.injEq] at hg; subst hg; exact hv
        · simp [DField.info] at hn
      obtain ⟨v, hu⟩ : ∃ v, unpackOne e f ((t.drop i).take f.size) = [v] := by
        cases f <;> first | exact ⟨_, rfl⟩ | cases hv
      simp only [List.map_cons, DField.info, named, List.filter_cons, Option.isSome_some, if_true,
        List.filterMap_cons, unpackItems, hu, List.cons_append, List.nil_append, List.zip_cons_cons, List.mapM_cons] at h
      obtain ⟨x, hx, h⟩ := bind_inv h
      obtain ⟨vs', h', h⟩ := bind_inv h
      have h := Except.ok.inj h
      subst h
      simp only [places, List.all_cons, Bool.and_eq_true, decide_eq_true_eq] at hp
      rw [List.drop_drop] at h'
      have := ih (i + f.size) hp.2 hw' (by simp only [DField.size] at hl; omega) vs' h'
      have hx' := field_val env t i e (.plain n f) hp.1 (by omega) rfl hu hx
      simp only [List.map_cons, DField.info, List.filterMap_cons, List.zip_cons_cons, Spec.shown, places, Spec.vals] at this ⊢
      rw [this, hx']
    | conv n f c =>
      have hv : f.hasVal = true := by
        rcases hw0 with ⟨_, g, _, hg, hv⟩ | ⟨hn, _⟩
        · simp only [DField.info, Option.some.injEq] at hg; subst hg; exact hv
        · simp [DField.info] at hn
      obtain ⟨v, hu⟩ : ∃ v, unpackOne e f ((t.drop i).take f.size) = [v] := by
        cases f <;> first | exact ⟨_, rfl⟩ | cases hv
      simp only [List.map_cons, DField.info, named, List.filter_cons, Option.isSome_some, if_true,
        List.filterMap_cons, unpackItems, hu, List.cons_append, List.nil_append, List.zip_cons_cons, List.mapM_cons] at h
      obtain ⟨x, hx, h⟩ := bind_inv h
      obtain ⟨vs', h', h⟩ := bind_inv h
      have h := Except.ok.inj h
      subst h
      simp only [places, List.all_cons, Bool.and_eq_true, decide_eq_true_eq] at hp
      rw [List.drop_drop] at h'
      have := ih (i + f.size) hp.2 hw' (by simp only [DField.size] at hl; omega) vs' h'
      have hx' := field_val env t i e (.conv n f c) hp.1 (by omega) rfl hu hx
      simp only [List.map_cons, DField.info, List.filterMap_cons, List.zip_cons_cons, Spec.shown, places, Spec.vals] at this ⊢
      rw [this, hx']

/-! ## The reader within a record -/

/-- The reader stands at byte `i` of the record that starts the bytes `t`, or past the end of the file, which is then before
byte `i`. -/
structure On (b : IOBuffer) (pre t : Bytes) (i : Nat) : Prop where
  data : b.data = pre ++ t
  pos : b.offset = pre.length + i ∨ (t.length ≤ i ∧ (pre.length + t.length : Int) ≤ b.offset)

theorem On.cast {b : IOBuffer} {pre t : Bytes} {i j : Nat} (h : On b pre t i) (e : i = j) : On b pre t j := e ▸ h

theorem On.data_length {b : IOBuffer} {pre t : Bytes} {i : Nat} (h : On b pre t i) :
    (b.data.length : Int) = pre.length + t.length := by
  rw [h.data, List.length_append]; push_cast; rfl

theorem places_all (e : Endian) (fs : List DField) : ∀ i j, ((places e i fs).all fun x => decide (x.2 ≠ .nowhere)) =
    ((places e j fs).all fun x => decide (x.2 ≠ .nowhere)) := by
  induction fs with
  | nil => intro i j; rfl
  | cons f fs ih =>
    intro i j
    have hpl : ∀ g, decide (place i e g ≠ .nowhere) = decide (place j e g ≠ .nowhere) := by
      intro g
      cases e <;> cases g with
      | plain n f => cases f <;> rfl
      | conv n f c => cases f <;> cases c <;> rfl
      | skip n => rfl
    cases f with
    | skip n => exact ih _ _
    | plain n f => simp only [places, List.all_cons, hpl]; rw [ih]
    | conv n f c => simp only [places, List.all_cons, hpl]; rw [ih]

/-- Reading a structure. -/
theorem on_rec (env : VgEnv ν) (e : Endian) (fs : List DField) (hw : WellFormed (fs.map (DField.info env)))
    (hp : placed e fs = true) (hpos : 0 < dSize fs) {b b' : IOBuffer} {pre t : Bytes} {i : Nat} (hb : On b pre t i)
    {r : DRec ν} (h : readRec env e fs b = .ok (r, b')) :
    shown r = vals env t (places e i fs) ∧ On b' pre t (i + dSize fs) := by
  have hst := readRec_state env e fs h
  unfold readRec dStruct NamedStruct.make at h
  split at h
  · cases h
  · obtain ⟨s, hs, h⟩ := bind_inv h
    have hs := Except.ok.inj hs
    subst hs
    obtain ⟨vs, hv, h⟩ := bind_inv h
    have h := (Prod.mk.inj (Except.ok.inj h)).1
    subst h
    have hv : ((Gempak.unpackFrom e ((fs.map (DField.info env)).filterMap (·.fmt)) b.data
      b.offset) >>= NamedStruct.create ⟨fs.map (DField.info env), e, dInj⟩) = .ok vs := hv
    obtain ⟨items, hi, hv⟩ := bind_inv hv
    unfold Gempak.unpackFrom at hi
    have hlen := hb.data_length
    have h0 : ¬ b.offset < 0 := by
      rcases hb.pos with h | ⟨_, h⟩ <;> omega
    dsimp only at hi
    rw [if_neg h0, if_neg h0, dSize_eq] at hi
    split at hi
    · rename_i hle
      have hoff : b.offset = pre.length + i := by
        rcases hb.pos with h | ⟨h1, h2⟩
        · exact h
        · omega
      have h1 : b.offset.toNat = pre.length + i := by omega
      have hi := Except.ok.inj hi
      rw [h1, hb.data, ← List.drop_drop, List.drop_left] at hi
      subst hi
      rw [create_eq _ hw _ (by
        rw [unpackItems_vals, valFmts_named _ hw]
        exact named_fmt_length _ hw)] at hv
      refine ⟨zip_places env e t fs i ?_ hw (by omega) vs hv, ?_⟩
      · rw [places_all e fs i 0]; exact hp
      · subst hst
        exact ⟨hb.data, Or.inl (by show b.offset + _ = _; rw [hoff]; push_cast; omega)⟩
    · cases hi

theorem unpack_singles {g : Val → Option F32} (hg : ∀ f, g (.flt f) = some f) (t : Bytes) : ∀ (n i : Nat),
    i + 4 * n ≤ t.length → (unpackItems .big (List.replicate n .f32) (t.drop i)).filterMap g =
      (List.range n).map fun k => singleAt t (i + 4 * k) := by
  intro n
  induction n with
  | zero => intro i _; rfl
  | succ n ih =>
    intro i h
    rw [List.replicate_succ, List.range_succ_eq_map, List.map_cons, List.map_map]
    simp only [unpackItems, unpackOne, List.cons_append, List.nil_append, List.filterMap_cons, Fmt.size]
    rw [hg]
    dsimp only
    rw [List.drop_drop, ih (i + 4) (by omega), single_take t i (by omega), List.cons.injEq]
    refine ⟨by rw [Nat.mul_zero, Nat.add_zero], ?_⟩
    apply List.map_congr_left
    intro k _
    show singleAt t (i + 4 + 4 * k) = singleAt t (i + 4 * (k + 1))
    have : i + 4 + 4 * k = i + 4 * (k + 1) := by omega
    rw [this]

/-- Reading numbers. -/
theorem on_words {n : Int} (hn : 0 ≤ n) {b b' : IOBuffer} {pre t : Bytes} {i : Nat} (hb : On b pre t i)
    {ws : List (BitVec 32)} (h : readVgWords n b = .ok (ws, b')) :
    ws = singlesAt t i n ∧ On b' pre t (i + 4 * n.toNat) ∧ (1 ≤ n → i + 4 * n.toNat ≤ t.length) := by
  unfold readVgWords at h
  have hlen := hb.data_length
  split at h
  · cases h
  · rename_i hr
    dsimp only at h
    rw [if_neg (by omega)] at h
    split at h
    · cases h
    · rename_i hle
      have h := Prod.mk.inj (Except.ok.inj h)
      obtain ⟨h1, h2⟩ := h
      rw [List.length_drop] at hle
      rcases hb.pos with hp | ⟨hp1, hp2⟩
      · have ho : b.offset.toNat = pre.length + i := by omega
        rw [ho, hb.data, ← List.drop_drop, List.drop_left, unpack_singles (fun _ => rfl) t _ _ (by omega)] at h1
        refine ⟨h1.symm, ?_, fun _ => by omega⟩
        subst h2
        exact ⟨hb.data, Or.inl (by show b.offset + ((4 * n.toNat : Nat) : Int) = _; rw [hp]; push_cast; omega)⟩
      · have h0 : n.toNat = 0 := by omega
        rw [h0] at h1 h2
        refine ⟨?_, ?_, fun _ => by omega⟩
        · rw [← h1]; unfold Spec.singlesAt; rw [h0]; rfl
        · rw [h0]
          subst h2
          exact ⟨hb.data, Or.inr ⟨by omega, by show _ ≤ b.offset + ((4 * 0 : Nat) : Int); omega⟩⟩

theorem int_singles (t : Bytes) (i : Nat) (n : Int) (h : 1 ≤ n → i + 4 * n.toNat ≤ t.length) :
    wordInts (singlesAt t i n) = wordsAt t i n := by
  unfold wordInts Spec.singlesAt Spec.wordsAt
  rw [List.map_map]
  apply List.map_congr_left
  intro k hk
  have hk := List.mem_range.1 hk
  have hl : i + 4 * k + 4 ≤ t.length := by
    have := h (by omega)
    omega
  show toI32 (singleAt t (i + 4 * k)).toNat = _
  rw [← single_take t _ hl, ← word_take t _ hl]
  congr 1
  rw [BitVec.toNat_ofNat]
  apply Nat.mod_eq_of_lt
  have : decNat .big ((t.drop (i + 4 * k)).take 4) < 256 ^ ((t.drop (i + 4 * k)).take 4).reverse.length :=
    leToNat_lt ((t.drop (i + 4 * k)).take 4).reverse
  refine lt_of_lt_of_le this ?_
  rw [List.length_reverse, List.length_take]
  calc 256 ^ (min 4 _) ≤ 256 ^ 4 := Nat.pow_le_pow_right (by omega) (Nat.min_le_left _ _)
    _ = 2 ^ 32 := by norm_num

/-- Reading coordinates. -/
theorem on_latlon (env : VgEnv ν) {n : Int} {b b' : IOBuffer} {pre t : Bytes} {i : Nat} (hb : On b pre t i)
    {ll : Option (List ν × List ν)} (h : getLatLon env n b = .ok (ll, b')) :
    ll = (if 1 ≤ n then some ((singlesAt t i n).map env.array, (singlesAt t (i + 4 * n.toNat) n).map env.array) else none) ∧
      On b' pre t (i + 8 * n.toNat) := by
  unfold getLatLon at h
  split at h
  · cases h
  · split at h
    · rename_i hn
      obtain ⟨lat, b1, h1, h⟩ := rd_inv h
      obtain ⟨lon, b2, h2, h⟩ := rd_inv h
      have h := Prod.mk.inj (Except.ok.inj h)
      obtain ⟨h3, h4⟩ := h
      subst h4
      obtain ⟨e1, o1, _⟩ := on_words (by omega) hb h1
      obtain ⟨e2, o2, _⟩ := on_words (by omega) o1 h2
      rw [if_pos hn, ← h3, e1, e2]
      exact ⟨rfl, o2.cast (by omega)⟩
    · rename_i hn
      have h := Prod.mk.inj (Except.ok.inj h)
      obtain ⟨h3, h4⟩ := h
      subst h4
      rw [if_neg (by omega), ← h3]
      exact ⟨rfl, hb.cast (by omega)⟩

theorem points_eq (env : VgEnv ν) (t : Bytes) (i : Nat) (n : Int) {ll : Option (List ν × List ν)}
    (h : ll = (if 1 ≤ n then some ((singlesAt t i n).map env.array, (singlesAt t (i + 4 * n.toNat) n).map env.array)
      else none)) : shown [("lat", latVal ll), ("lon", lonVal ll)] = pointsAt env t i n := by
  subst h
  unfold Spec.pointsAt Spec.coordAt
  split <;> rfl

/-- Reading bytes. -/
theorem on_bytes (w : Nat) {b b' : IOBuffer} {pre t : Bytes} {i : Nat} (hb : On b pre t i) {x : Bytes}
    (h : readBytes w b = .ok (x, b')) : x = bytesAt t i w ∧ On b' pre t (i + w) := by
  have h := Prod.mk.inj (Except.ok.inj h)
  obtain ⟨h1, h2⟩ := h
  have hlen := hb.data_length
  have h1 : pySlice b.data b.offset (b.offset + w) = x := h1
  have h2 : b.skip (some (pySlice b.data b.offset (b.offset + w)).length) = b' := h2
  have h0 : 0 ≤ b.offset := by rcases hb.pos with h | ⟨_, h⟩ <;> omega
  obtain ⟨o, ho⟩ := Int.eq_ofNat_of_zero_le h0
  have hs : pySlice b.data b.offset (b.offset + w) = (b.data.drop o).take w := by
    rw [ho]
    have := pySlice_nat b.data o (o + w) (by omega)
    rw [Nat.cast_add] at this
    rw [this]
    rw [Nat.add_sub_cancel_left]
  rw [hs] at h1 h2
  have hd : (b.data.drop o).take w = (t.drop i).take w ∧
      (b'.offset = pre.length + (i + w : Nat) ∨ (t.length ≤ i + w ∧ (pre.length + t.length : Int) ≤ b'.offset)) := by
    subst h2
    rw [hb.data]
    rcases hb.pos with hp | ⟨hp1, hp2⟩
    · have : o = pre.length + i := by omega
      subst this
      rw [← List.drop_drop, List.drop_left]
      refine ⟨rfl, ?_⟩
      show b.offset + (((t.drop i).take w).length : Int) = _ ∨ (_ ∧ _ ≤ b.offset + (((t.drop i).take w).length : Int))
      rw [List.length_take, List.length_drop]
      push_cast
      omega
    · have e1 : (pre ++ t).drop o = [] := List.drop_eq_nil_of_le (by rw [List.length_append]; omega)
      have e2 : t.drop i = [] := List.drop_eq_nil_of_le hp1
      rw [e1, e2]
      refine ⟨rfl, Or.inr ⟨by omega, ?_⟩⟩
      show _ ≤ b.offset + ((List.take w ([] : Bytes)).length : Int)
      simp
      omega
  have hdat : b'.data = b.data := by subst h2; rfl
  refine ⟨by rw [← h1, hd.1]; rfl, hdat.trans hb.data, ?_⟩
  exact hd.2

theorem on_cstring (w : Nat) {b b' : IOBuffer} {pre t : Bytes} {i : Nat} (hb : On b pre t i) {x : Text}
    (h : readCString w b = .ok (x, b')) :
    utf8Dec ((bytesAt t i w).takeWhile (· ≠ 0)) = some x ∧ On b' pre t (i + w) := by
  unfold readCString at h
  obtain ⟨y, b1, h1, h⟩ := rd_inv h
  obtain ⟨h2, rfl⟩ := rd_pure_inv h
  obtain ⟨e1, o1⟩ := on_bytes w hb h1
  subst e1
  refine ⟨?_, o1⟩
  unfold cString at h2
  split at h2
  · rename_i s hs
    rw [← Except.ok.inj h2]; exact hs
  · cases h2

theorem on_skip {k : Int} (hk : 0 ≤ k) {b b' : IOBuffer} {pre t : Bytes} {i : Nat} (hb : On b pre t i) {u : Unit}
    (h : skipBytes k b = .ok (u, b')) : On b' pre t (i + k.toNat) := by
  have h := (Prod.mk.inj (Except.ok.inj h)).2
  subst h
  refine ⟨hb.data, ?_⟩
  show b.offset + k = _ ∨ (_ ∧ _ ≤ b.offset + k)
  rcases hb.pos with h | ⟨h1, h2⟩ <;> omega

/-- Reading `n` things of `w` bytes each. -/
theorem on_repeat {α β : Type} {x : Rd α} {w : Nat} {f : Nat → Option β} {g : α → β} {pre t : Bytes}
    (hx : ∀ {b b' : IOBuffer} {i : Nat} {a : α}, On b pre t i → x b = .ok (a, b') → f i = some (g a) ∧ On b' pre t (i + w)) :
    ∀ (n : Nat) {b b' : IOBuffer} {i : Nat} {as : List α}, On b pre t i → repeatRd x n b = .ok (as, b') →
      (List.range n).mapM (fun k => f (i + w * k)) = some (as.map g) ∧ On b' pre t (i + w * n) := by
  intro n
  induction n with
  | zero =>
    intro b b' i as hb h
    have h := Prod.mk.inj (Except.ok.inj h)
    obtain ⟨rfl, rfl⟩ := h
    exact ⟨rfl, hb⟩
  | succ n ih =>
    intro b b' i as hb h
    unfold repeatRd at h
    obtain ⟨a, b1, h1, h⟩ := rd_inv h
    obtain ⟨as', b2, h2, h⟩ := rd_inv h
    have h := Prod.mk.inj (Except.ok.inj h)
    obtain ⟨rfl, rfl⟩ := h
    obtain ⟨e1, o1⟩ := hx hb h1
    obtain ⟨e2, o2⟩ := ih o1 h2
    refine ⟨?_, o2.cast (by rw [Nat.mul_succ]; omega)⟩
    rw [List.range_succ_eq_map, List.mapM_cons, List.mapM_map]
    have e3 : (fun k => f (i + w + w * k)) = (fun k => f (i + w * (k + 1))) := by
      funext k; congr 1; rw [Nat.mul_succ]; omega
    rw [e3] at e2
    have e1' : f (i + w * 0) = some (g a) := by rw [Nat.mul_zero]; exact e1
    show (do let r ← f (i + w * 0); let rs ← (List.range n).mapM (fun k => f (i + w * (k + 1))); pure (r :: rs)) = _
    rw [e1', e2]
    rfl

theorem on_texts (w : Nat) (n : Int) {b b' : IOBuffer} {pre t : Bytes} {i : Nat} (hb : On b pre t i) {xs : List Text}
    (h : repeatRd (readCString w) n.toNat b = .ok (xs, b')) :
    textsAt t i w n = some xs ∧ On b' pre t (i + w * n.toNat) := by
  have := on_repeat (x := readCString w) (w := w) (f := fun i => utf8Dec ((bytesAt t i w).takeWhile (· ≠ 0))) (g := id)
    (pre := pre) (t := t) (fun hb h => on_cstring w hb h) n.toNat hb h
  rw [List.map_id] at this
  exact this

theorem on_count {b b' : IOBuffer} {pre t : Bytes} {i : Nat} (hb : On b pre t i) {n : Int}
    (h : readCount b = .ok (n, b')) : n = Spec.countAt t i ∧ On b' pre t (i + 4) := by
  have h := Prod.mk.inj (Except.ok.inj h)
  obtain ⟨h1, h2⟩ := h
  obtain ⟨e, o⟩ := on_bytes 4 hb (x := (b.read (some (4 : Nat))).2) (b' := b') (by
    rw [← h2]; rfl)
  refine ⟨?_, o⟩
  rw [← h1]
  show intFromBytes .big false (b.read (some (4 : Nat))).2 = _
  rw [e]
  unfold intFromBytes Spec.countAt
  rw [if_neg (by simp)]
  congr 1
  show leToNat (bytesAt t i 4).reverse = _
  rw [← List.foldr_reverse]
  generalize (bytesAt t i 4).reverse = l
  induction l with
  | nil => rfl
  | cons a l ih =>
    rw [List.foldr_cons, ← ih]
    show a.toNat + 256 * leToNat l = leToNat l * 256 + a.toNat
    omega

/-! ## Attributes -/

theorem lookup_shown (r : DRec ν) (n : String) : (shown r).lookup n = (r.lookup n).map some := by
  induction r with
  | nil => rfl
  | cons x r ih =>
    unfold Spec.shown at ih ⊢
    rw [List.map_cons, List.lookup_cons, List.lookup_cons]
    split
    · rfl
    · exact ih

theorem lookup_vals (env : VgEnv ν) (t : Bytes) (tbl : List (String × Place)) (n : String) :
    (vals env t tbl).lookup n = (tbl.lookup n).map fun p => p.val env t := by
  induction tbl with
  | nil => rfl
  | cons x r ih =>
    unfold Spec.vals at ih ⊢
    rw [List.map_cons, List.lookup_cons, List.lookup_cons]
    split
    · rfl
    · exact ih

theorem lookup_place (env : VgEnv ν) {t : Bytes} {tbl : List (String × Place)} {r : DRec ν}
    (h : shown r = vals env t tbl) {n : String} {p : Place} (hp : tbl.lookup n = some p) :
    ∃ v, r.lookup n = some v ∧ p.val env t = some v := by
  have := lookup_shown r n
  rw [h, lookup_vals, hp] at this
  cases hr : r.lookup n with
  | none => rw [hr] at this; cases this
  | some v => rw [hr] at this; exact ⟨v, rfl, Option.some.inj this⟩

theorem lookup_noplace (env : VgEnv ν) {t : Bytes} {tbl : List (String × Place)} {r : DRec ν}
    (h : shown r = vals env t tbl) {n : String} (hp : tbl.lookup n = none) : r.lookup n = none := by
  have := lookup_shown r n
  rw [h, lookup_vals, hp] at this
  cases hr : r.lookup n with
  | none => rfl
  | some v => rw [hr] at this; cases this

theorem int_place (env : VgEnv ν) {t : Bytes} {tbl : List (String × Place)} {r : DRec ν}
    (h : shown r = vals env t tbl) {n : String} {i : Nat} (hp : tbl.lookup n = some (.word i)) {k : Int}
    (hk : r.int n = .ok k) : k = wordAt t i := by
  obtain ⟨v, h1, h2⟩ := lookup_place env h hp
  unfold DRec.int DRec.get at hk
  rw [h1, ← Option.some.inj h2] at hk
  exact (Except.ok.inj hk).symm

theorem pick_place (env : VgEnv ν) {t : Bytes} {tbl : List (String × Place)} {r : DRec ν}
    (h : shown r = vals env t tbl) : ∀ (ns : List String) {a : DRec ν} (_ : r.pick ns = .ok a)
    {out : List (String × Place)} (_ : ns.map (fun n => (n, tbl.lookup n)) = out.map fun x => (x.1, some x.2)),
    shown a = vals env t out := by
  intro ns
  induction ns with
  | nil =>
    intro a ha out ho
    have ha := Except.ok.inj ha
    subst ha
    cases out with
    | nil => rfl
    | cons x xs => cases ho
  | cons n ns ih =>
    intro a ha out ho
    unfold DRec.pick at ha
    rw [List.mapM_cons] at ha
    obtain ⟨x, hx, ha⟩ := bind_inv ha
    obtain ⟨xs, hxs, ha⟩ := bind_inv ha
    have ha := Except.ok.inj ha
    subst ha
    cases out with
    | nil => cases ho
    | cons o os =>
      rw [List.map_cons, List.map_cons] at ho
      have h1 := List.head_eq_of_cons_eq ho
      have h2 := List.tail_eq_of_cons_eq ho
      have hrest := ih hxs h2
      obtain ⟨v, hv, hx⟩ := bind_inv hx
      have hx := Except.ok.inj hx
      have h1' := Prod.mk.inj h1
      obtain ⟨w, hw, hpv⟩ := lookup_place env h h1'.2
      unfold DRec.get at hv
      rw [hw] at hv
      have hv := Except.ok.inj hv
      subst hx
      unfold Spec.shown Spec.vals at hrest ⊢
      rw [List.map_cons, List.map_cons, hrest, hpv, ← h1'.1, hv]

theorem pickAs_place (env : VgEnv ν) {t : Bytes} {tbl : List (String × Place)} {r : DRec ν}
    (h : shown r = vals env t tbl) {a n : String} {x : DRec ν} (hx : r.pickAs a n = .ok x) {p : Place}
    (hp : tbl.lookup n = some p) : shown x = vals env t [(a, p)] := by
  obtain ⟨v, hv, hx⟩ := bind_inv hx
  have hx := Except.ok.inj hx
  subst hx
  obtain ⟨w, hw, hpv⟩ := lookup_place env h hp
  unfold DRec.get at hv
  rw [hw] at hv
  have hv := Except.ok.inj hv
  show [(a, some v)] = [(a, p.val env t)]
  rw [hpv, hv]

theorem shown_append (a b : DRec ν) : shown (a ++ b) = shown a ++ shown b := List.map_append
theorem vals_append (env : VgEnv ν) (t : Bytes) (a b : List (String × Place)) :
    vals env t (a ++ b) = vals env t a ++ vals env t b := List.map_append

theorem shown_inj {a b : DRec ν} (h : shown a = shown b) : a = b := by
  unfold Spec.shown at h
  refine List.map_injective_iff.2 ?_ h
  intro x y e
  have e := Prod.mk.inj e
  exact Prod.ext e.1 (Option.some.inj e.2)

theorem whole_shown (r : DRec ν) : Spec.whole (shown r) = some r := by
  unfold Spec.whole Spec.shown
  induction r with
  | nil => rfl
  | cons x r ih =>
    rw [List.map_cons, List.mapM_cons, ih]
    rfl

end Gempak
