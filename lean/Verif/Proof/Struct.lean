import Verif.Model.Struct
import Verif.Proof.Base
import Mathlib.Data.List.Forall2

/-! Helper lemmas about packed structures. -/

namespace Gempak

/-- A value is accepted by a format item. -/
def Fits : Fmt → Val → Prop
  | .i32, .int i => inI32 i
  | .u8, .int i => 0 ≤ i ∧ i < 256
  | .i8, .int i => -128 ≤ i ∧ i < 128
  | .f32, .flt _ => True
  | .str _, .str _ => True
  | _, _ => False

/-- What a value becomes after packing and unpacking: only strings change (cut or zero filled). -/
def canon : Fmt → Val → Val
  | .str n, .str b => .str (b.take n ++ List.replicate (n - b.length) 0)
  | _, v => v

theorem unpackOne_packOne (e : Endian) (f : Fmt) (v : Val) (h : Fits f v) :
    ∃ b, packOne e f v = .ok b ∧ b.length = f.size ∧ unpackOne e f b = [canon f v] := by
  cases f <;> cases v <;> simp only [Fits] at h
  · rename_i i
    refine ⟨_, if_pos h, by simp [Fmt.size], ?_⟩
    have := toU32_lt i
    simp only [unpackOne, decNat_encNat]
    rw [Nat.mod_eq_of_lt (by omega), toI32_toU32 h]; rfl
  · rename_i f
    refine ⟨_, rfl, by simp [Fmt.size], ?_⟩
    have := f.isLt
    simp only [unpackOne, decNat_encNat]
    rw [Nat.mod_eq_of_lt (by omega)]
    simp [canon]
  · rename_i i
    refine ⟨_, if_pos h, by simp [Fmt.size], ?_⟩
    have hd : decNat e [UInt8.ofNat i.toNat] = i.toNat := by
      cases e <;> simp [decNat, leToNat] <;> omega
    simp only [unpackOne, hd, canon]
    congr 2; omega
  · rename_i i
    refine ⟨_, if_pos h, by simp [Fmt.size], ?_⟩
    have hd : decNat e [UInt8.ofNat (i % 256).toNat] = (i % 256).toNat := by
      cases e <;> simp [decNat, leToNat] <;> omega
    simp only [unpackOne, hd, canon]
    congr 2; split <;> omega
  · rename_i n b
    refine ⟨_, rfl, ?_, ?_⟩
    · simp [Fmt.size]; omega
    · rfl

/-- The formats that take values. -/
def valFmts (fs : List Fmt) : List Fmt := fs.filter Fmt.hasVal

theorem packFmts_pad (e : Endian) (n : Nat) (fs : List Fmt) (vs : List Val) :
    packFmts e (.pad n :: fs) vs = (packFmts e fs vs).map (List.replicate n 0 ++ ·) := by
  simp only [packFmts]; cases packFmts e fs vs <;> rfl

theorem packFmts_cons (e : Endian) (f : Fmt) (fs : List Fmt) (v : Val) (vs : List Val) (hf : f.hasVal = true)
    (b : Bytes) (hb : packOne e f v = .ok b) :
    packFmts e (f :: fs) (v :: vs) = (packFmts e fs vs).map (b ++ ·) := by
  cases f <;> simp [Fmt.hasVal] at hf <;>
  · simp only [packFmts, hb]; cases packFmts e fs vs <;> rfl

/-- Pack then unpack, pads included. -/
theorem unpackItems_packFmts (e : Endian) (fs : List Fmt) :
    ∀ vs : List Val, List.Forall₂ Fits (valFmts fs) vs →
    ∃ b, packFmts e fs vs = .ok b ∧ b.length = fmtSize fs ∧
      ∀ rest, unpackItems e fs (b ++ rest) = List.zipWith canon (valFmts fs) vs := by
  induction fs with
  | nil =>
    intro vs h
    cases h
    exact ⟨[], rfl, rfl, fun _ => rfl⟩
  | cons f fs ih =>
    intro vs h
    by_cases hf : f.hasVal = true
    · rw [valFmts, List.filter_cons_of_pos hf] at h ⊢
      cases h with
      | @cons _ v _ vs hv ht =>
        obtain ⟨b, hb, hl, hu⟩ := unpackOne_packOne e f v hv
        obtain ⟨bs, hbs, hls, hus⟩ := ih vs ht
        refine ⟨b ++ bs, ?_, ?_, ?_⟩
        · rw [packFmts_cons e f fs v vs hf b hb, hbs]; rfl
        · simp [fmtSize, hl, hls]
        · intro rest
          rw [unpackItems, List.append_assoc, ← hl, List.take_left, List.drop_left, hus, hu]
          rfl
    · rw [valFmts, List.filter_cons_of_neg hf] at h ⊢
      cases f <;> simp [Fmt.hasVal] at hf
      rename_i n
      obtain ⟨bs, hbs, hls, hus⟩ := ih vs h
      refine ⟨List.replicate n 0 ++ bs, ?_, ?_, ?_⟩
      · rw [packFmts_pad, hbs]; rfl
      · simp [fmtSize, hls, Fmt.size]
      · intro rest
        rw [unpackItems, List.append_assoc]
        have : (List.replicate n (0 : UInt8)).length = (Fmt.pad n).size := by simp [Fmt.size]
        rw [← this, List.take_left, List.drop_left, hus]
        rfl

/-- Pack fails with `struct.error` when a value does not fit or counts differ. -/
theorem packFmts_ok_iff (e : Endian) (fs : List Fmt) :
    ∀ vs : List Val, (∃ b, packFmts e fs vs = .ok b) ↔ List.Forall₂ Fits (valFmts fs) vs := by
  intro vs
  constructor
  · induction fs generalizing vs with
    | nil =>
      rintro ⟨b, hb⟩
      cases vs with
      | nil => exact List.Forall₂.nil
      | cons v vs => simp [packFmts] at hb
    | cons f fs ih =>
      rintro ⟨b, hb⟩
      by_cases hf : f.hasVal = true
      · rw [valFmts, List.filter_cons_of_pos hf]
        cases vs with
        | nil => cases f <;> simp [Fmt.hasVal] at hf <;> simp [packFmts] at hb
        | cons v vs =>
          have hfit : ∃ c, packOne e f v = .ok c := by
            cases hp : packOne e f v with
            | ok c => exact ⟨c, rfl⟩
            | error x =>
              cases f <;> simp [Fmt.hasVal] at hf <;> simp [packFmts, hp, bind, Except.bind] at hb
          obtain ⟨c, hc⟩ := hfit
          rw [packFmts_cons e f fs v vs hf c hc] at hb
          refine List.Forall₂.cons ?_ (ih vs ?_)
          · cases f <;> cases v <;> simp only [packOne] at hc <;> simp only [Fits] <;> first
              | trivial
              | (split at hc <;> simp_all)
          · cases hp : packFmts e fs vs with
            | ok x => exact ⟨x, rfl⟩
            | error x => rw [hp] at hb; simp [Except.map] at hb
      · rw [valFmts, List.filter_cons_of_neg hf]
        cases f <;> simp [Fmt.hasVal] at hf
        rename_i n
        rw [packFmts_pad] at hb
        apply ih
        cases hp : packFmts e fs vs with
        | ok x => exact ⟨x, rfl⟩
        | error x => rw [hp] at hb; simp [Except.map] at hb
  · intro h
    obtain ⟨b, hb, _⟩ := unpackItems_packFmts e fs vs h
    exact ⟨b, hb⟩

end Gempak
