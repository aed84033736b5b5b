import Verif.Props.WrongKind
import Verif.Props.UnmergedParts
import Verif.Props.RealPack

/-!
# C83, C84: what the packed numbers of a report and of a sounding are

`Spec.PartHolds` and `Spec.ColumnHolds` say that packed numbers are unpacked together.  Here they are given one by one, from the words of the
file: a record is a number of as many words as its parameters need, the first word lowest; a parameter has the bits after those of the
parameters before it; all bits set is missing, and any other number has the offset added and is scaled.
-/

namespace Gempak

open Spec

/-! ## What is said -/

/-- The number of `n` words from word `w` on, the first one lowest. -/
def Spec.packedNumber (e : Endian) (b : Bytes) (w n : Nat) : Nat :=
  Nat.ofDigits (2 ^ 32) ((List.range n).map fun j => fileWord e b (w + j))

/-- Words of a record of packed parameters. -/
def Spec.packedWords (a : ParamInfo) : Nat := ((a.bits.map Int.toNat).sum + 31) / 32

/-- The bits of parameter `k` of the record that begins at word `w`. -/
def Spec.packedBits (e : Endian) (b : Bytes) (w : Nat) (a : ParamInfo) (k : Nat) : Nat :=
  packedNumber e b w (packedWords a) / 2 ^ ((a.bits.map Int.toNat).take k).sum % 2 ^ (a.bits.getD k 0).toNat

/-- Parameter `k` of the record at word `w`: missing when all its bits are set. -/
def Spec.packedValue (e : Endian) (b : Bytes) (w : Nat) (a : ParamInfo) (k : Nat) : RealVal :=
  if packedBits e b w a k = 2 ^ (a.bits.getD k 0).toNat - 1 then none
  else some (packedBits e b w a k + a.offset.getD k 0, a.scale.getD k 0)

/-- Widths that `_unpack_real` can read. -/
def Spec.Packable (a : ParamInfo) : Prop := ∀ w ∈ a.bits, 1 ≤ w ∧ w ≤ 32

/-! ## Proof -/

theorem fileWord_lt (e : Endian) (b : Bytes) (n : Nat) : fileWord e b n < 4294967296 := by
  rw [fileWord_eq]
  refine lt_of_lt_of_le (decNat_lt e _) (le_trans (Nat.pow_le_pow_right (by norm_num) (List.length_take_le 4 _)) (by norm_num))

theorem decodedFrom_get (ws : List Int) (as : List RealAttr) (pos k : Nat) :
    (decodedFrom ws pos as)[k]? = as[k]?.map fun a => decoded ws (pos + ((as.take k).map RealAttr.bits).sum) a := by
  induction as generalizing pos k with
  | nil => rfl
  | cons a as ih =>
    cases k with
    | zero => rfl
    | succ k =>
      show (decodedFrom ws (pos + a.bits) as)[k]? = as[k]?.map _
      rw [ih]
      congr 1
      funext x
      rw [List.take_succ_cons, List.map_cons, List.sum_cons, Nat.add_assoc]

theorem decodedFrom_length (ws : List Int) (as : List RealAttr) (pos : Nat) : (decodedFrom ws pos as).length = as.length := by
  induction as generalizing pos with
  | nil => rfl
  | cons a as ih => show _ + 1 = _ + 1; rw [ih]

theorem recordNumber_digits (ws : List Int) : recordNumber ws = Nat.ofDigits (2 ^ 32) (ws.map toU32) := by
  induction ws with
  | nil => rfl
  | cons w ws ih => rw [recordNumber_cons, List.map_cons, Nat.ofDigits_cons, ih]; rfl

theorem startsInside_of (T : Nat) (as : List RealAttr) (pos : Nat) (hb : ∀ a ∈ as, 1 ≤ a.bits) (h : pos + (as.map RealAttr.bits).sum ≤ T) :
    StartsInside T pos as := by
  induction as generalizing pos with
  | nil => trivial
  | cons a as ih =>
    rw [List.map_cons, List.sum_cons] at h
    have := hb a List.mem_cons_self
    exact ⟨by omega, ih _ (fun x hx => hb x (List.mem_cons_of_mem _ hx)) (by omega)⟩

theorem packedAttrs_get (p : ParamInfo) (k : Nat) :
    (packedAttrs p)[k]? = (p.bits[k]?).bind fun b => (p.scale[k]?).bind fun s => (p.offset[k]?).map fun o => ⟨b.toNat, s, o⟩ := by
  unfold packedAttrs
  generalize p.bits = bs
  generalize p.scale = ss
  generalize p.offset = os
  induction bs generalizing ss os k with
  | nil => rfl
  | cons b bs ih =>
    cases ss with
    | nil => cases k <;> simp [List.zipWith3]
    | cons s ss =>
      cases os with
      | nil => cases k <;> simp [List.zipWith3]
      | cons o os =>
        cases k with
        | zero => rfl
        | succ k => exact ih k ss os

theorem packedAttrs_bits (p : ParamInfo) (h1 : p.scale.length = p.bits.length) (h2 : p.offset.length = p.bits.length) :
    (packedAttrs p).map RealAttr.bits = p.bits.map Int.toNat := by
  apply List.ext_getElem?
  intro k
  rw [List.getElem?_map, packedAttrs_get, List.getElem?_map]
  rcases Nat.lt_or_ge k p.bits.length with hk | hk
  · rw [List.getElem?_eq_getElem hk, List.getElem?_eq_getElem (h1 ▸ hk), List.getElem?_eq_getElem (h2 ▸ hk)]; rfl
  · rw [List.getElem?_eq_none hk]; rfl

theorem flatMap_range_get {β : Type} (F : Nat → List β) (m n l k : Nat) (hF : ∀ j, (F j).length = m) (hk : k < m) :
    ((List.range n).flatMap F)[l * m + k]? = if l < n then (F l)[k]? else none := by
  induction n generalizing l F with
  | zero => rfl
  | succ n ih =>
    rw [List.range_succ_eq_map, List.flatMap_cons, List.flatMap_map]
    cases l with
    | zero =>
      rw [if_pos (by omega), Nat.zero_mul, Nat.zero_add, List.getElem?_append_left (by rw [hF]; exact hk)]
    | succ l =>
      rw [List.getElem?_append_right (by rw [hF, Nat.succ_mul]; omega), hF, show (l + 1) * m + k - m = l * m + k by rw [Nat.succ_mul]; omega,
        ih (fun j => F (j + 1)) l fun j => hF _]
      by_cases hl : l < n
      · rw [if_pos hl, if_pos (by omega)]
      · rw [if_neg hl, if_neg (by omega)]

/-- The numbers unpacked from the words of a part. -/
theorem packed_get {e : Endian} {b : Bytes} {w0 len : Nat} {a : ParamInfo} (hp : Packable a) (h1 : a.scale.length = a.bits.length)
    (h2 : a.offset.length = a.bits.length) (h0 : a.bits ≠ []) {rs : List RealVal}
    (h : unpackReal ((List.range len).map fun j => toI32 (fileWord e b (w0 + j))) (packedAttrs a) len = .ok rs) (l k : Nat)
    (hk : k < a.bits.length) :
    rs[l * a.bits.length + k]? = if (l + 1) * packedWords a ≤ len then some (packedValue e b (w0 + l * packedWords a) a k) else none := by
  have hbits := packedAttrs_bits a h1 h2
  have hlen : (packedAttrs a).length = a.bits.length := by
    have := congrArg List.length hbits
    rwa [List.length_map, List.length_map] at this
  have hW : recordWords (packedAttrs a) = packedWords a := by unfold recordWords packedWords; rw [hbits]
  have hin : ∀ x ∈ packedAttrs a, 1 ≤ x.bits ∧ x.bits ≤ 32 := by
    intro x hx
    have : x.bits ∈ a.bits.map Int.toNat := hbits ▸ List.mem_map_of_mem hx
    obtain ⟨w, w1, w2⟩ := List.mem_map.1 this
    have := hp w w1
    omega
  have hsum : 0 < ((packedAttrs a).map RealAttr.bits).sum := by
    cases hx : packedAttrs a with
    | nil => rw [hx] at hlen; exact absurd (List.eq_nil_of_length_eq_zero hlen.symm) h0
    | cons x xs =>
      have := (hin x (hx ▸ List.mem_cons_self)).1
      rw [List.map_cons, List.sum_cons]; omega
  have hWpos : 0 < packedWords a := by rw [← hW]; unfold recordWords; omega
  by_cases hd : packedWords a ∣ len
  swap
  · rw [C31_short _ _ _ hsum (by rwa [hW])] at h; cases h
  obtain ⟨n, rfl⟩ := hd
  have hc := C30_decoded_partial ((List.range (packedWords a * n)).map fun j => toI32 (fileWord e b (w0 + j))) (packedAttrs a) n
    (fun w hw => by
      obtain ⟨j, _, rfl⟩ := List.mem_map.1 hw
      exact inI32_toI32 (fileWord_lt e b _))
    (fun x hx => (hin x hx).2) hsum
    (startsInside_of _ _ _ (fun x hx => (hin x hx).1) (by unfold recordWords; omega))
    (by rw [List.length_map, List.length_range, hW, Nat.mul_comm])
  rw [List.length_map, List.length_range] at hc
  rw [hc] at h
  obtain rfl := Except.ok.inj h
  rw [← hlen, flatMap_range_get _ (packedAttrs a).length n l k (fun j => decodedFrom_length _ _ _) (by omega), hW]
  have hle : (l + 1) * packedWords a ≤ packedWords a * n ↔ l < n := by
    rw [Nat.mul_comm (packedWords a)]
    exact ⟨fun hh => Nat.lt_of_succ_le (Nat.le_of_mul_le_mul_right hh hWpos), fun hh => Nat.mul_le_mul_right _ hh⟩
  by_cases hl : l < n
  swap
  · rw [if_neg hl, if_neg (fun hh => hl (hle.1 hh))]
  rw [if_pos hl, if_pos (hle.2 hl), decodedFrom_get, packedAttrs_get, List.getElem?_eq_getElem hk, List.getElem?_eq_getElem (h1 ▸ hk),
    List.getElem?_eq_getElem (h2 ▸ hk)]
  have hfit := hle.2 hl
  have hbuf : (((List.range (packedWords a * n)).map fun j => toI32 (fileWord e b (w0 + j))).drop (l * packedWords a)).take (packedWords a) =
      (List.range (packedWords a)).map fun j => toI32 (fileWord e b (w0 + l * packedWords a + j)) := by
    apply List.ext_getElem?
    intro j
    rw [List.getElem?_take, List.getElem?_drop, List.getElem?_map, List.getElem?_map, Nat.add_mul] at *
    by_cases hj : j < packedWords a
    · rw [if_pos hj, List.getElem?_range (by omega), List.getElem?_range hj]
      show some (toI32 (fileWord e b (w0 + (l * packedWords a + j)))) = some (toI32 (fileWord e b (w0 + l * packedWords a + j)))
      rw [Nat.add_assoc]
    · rw [if_neg hj, List.getElem?_eq_none (by rw [List.length_range]; omega)]; rfl
  rw [hbuf]
  show some (decoded _ (0 + _) _) = some _
  have hnum : recordNumber ((List.range (packedWords a)).map fun j => toI32 (fileWord e b (w0 + l * packedWords a + j))) =
      packedNumber e b (w0 + l * packedWords a) (packedWords a) := by
    rw [recordNumber_digits, List.map_map]
    unfold packedNumber
    congr 1
    exact List.map_congr_left fun j _ => toU32_toI32 (fileWord_lt e b _)
  have hf : bitField ((List.range (packedWords a)).map fun j => toI32 (fileWord e b (w0 + l * packedWords a + j)))
      (0 + (((packedAttrs a).take k).map RealAttr.bits).sum) a.bits[k].toNat = packedBits e b (w0 + l * packedWords a) a k := by
    unfold bitField packedBits
    rw [hnum, Nat.zero_add, List.map_take, hbits, List.getD_eq_getElem _ _ hk]
  unfold decoded packedValue
  rw [hf, List.getD_eq_getElem _ _ hk, List.getD_eq_getElem _ _ (h2 ▸ hk), List.getD_eq_getElem _ _ (h1 ▸ hk)]

/-- In a file that opens each parameter has its width, scale and offset. -/
theorem params_lengths {host : Endian} {b : Bytes} {i : DMInfo} (h : readDM host b = .ok i) (hp : Placed i.label) {j : Nat} {a : ParamInfo}
    (ha : i.params[j]? = some a) :
    a.bits.length = a.names.length ∧ a.scale.length = a.bits.length ∧ a.offset.length = a.bits.length := by
  have := (C119_structure host b i h hp).params.2 j a ha
  have hn := this.names.1
  rw [this.bits, this.scale, this.offset, hn]
  simp

/-- C83: a packed value in a report of a surface file, whoever wrote it, is made of its bits in the record of the part. -/
theorem C83_packed (host : Endian) (b : Bytes) (g : SurfaceReader) (ho : openSurface host b = .ok g) (hl : Placed g.info.label) (j : Nat)
    (p : PartInfo) (a : ParamInfo) (ha : g.info.params[j]? = some a) (hp : Packable a) (ht : p.dataType = 4) (ptr hdr k : Nat)
    (hk : k < a.names.length) (v : HVal) (hv : PartHolds g.info.order g.bytes p a ptr hdr k v) :
    v = .real (packedValue g.info.order g.bytes (ptr + 1 + hdr) a k) := by
  obtain ⟨n1, n2, n3⟩ := params_lengths (openStation_inv (openSurface_station ho).1).1 hl ha
  cases hv with
  | real h _ => omega
  | text _ h _ _ => omega
  | packed rs v h hw hv =>
    have := packed_get hp n2 n3 (by intro hc; rw [hc] at n1; simp at n1; omega) hw 0 k (by omega)
    rw [Nat.zero_mul, Nat.zero_add, hv] at this
    split at this
    · rw [Option.some.inj this, Nat.zero_mul, Nat.add_zero]
    · cases this

/-- C84: the packed values of a column of a sounding are those of the records of its levels, one after the other, as many as there are
complete ones. -/
theorem C84_packed (host : Endian) (b : Bytes) (g : SoundingReader) (ho : openSounding host b = .ok g) (hl : Placed g.info.label) (j : Nat)
    (p : PartInfo) (a : ParamInfo) (ha : g.info.params[j]? = some a) (hp : Packable a) (ht : p.dataType = 4) (ptr hdr k : Nat)
    (hk : k < a.names.length) (v : HVal) (hv : ColumnHolds g.info.order g.bytes p a ptr hdr k v) :
    ∃ vs, v = .rarr vs ∧ ∀ l : Nat, vs[l]? = if (l + 1) * packedWords a ≤ fileWord g.info.order g.bytes ptr - hdr then
      some (packedValue g.info.order g.bytes (ptr + 1 + hdr + l * packedWords a) a k) else none := by
  obtain ⟨n1, n2, n3⟩ := params_lengths (openStation_inv (openSounding_station ho).1).1 hl ha
  cases hv with
  | real _ h _ => omega
  | packed rs vs h hw hv =>
    refine ⟨vs, rfl, fun l => ?_⟩
    rw [hv l, ← n1]
    exact packed_get hp n2 n3 (by intro hc; rw [hc] at n1; simp at n1; omega) hw l k (by omega)

/-- C94: the same for the parts of a sounding that has to be merged. -/
theorem C94_packed_values {α : Type} [Field α] [LinearOrder α] (e : LevEnv α) (selv : Int) (host : Endian) (b : Bytes) (g : SoundingReader)
    (ho : openSounding host b = .ok g) (hl : Placed g.info.label) (row col : Nat) (ha : Addressable g.info) (hn : NamesApart g.info)
    (ps : List (Text × List (Text × HVal)))
    (h : unmergedParts g.info g.bytes row col (g.info.parts.zip g.info.params) 0 [] = .ok ps) (j : Nat) (p : PartInfo) (a : ParamInfo)
    (hp : g.info.parts[j]? = some p) (hpa : g.info.params[j]? = some a) (hb : Packable a) (ht : p.dataType = 4)
    (h0 : partWord g.info g.bytes row col j ≠ 0) :
    ∃ part, (e.parts selv ps).part (String.ofList p.name) = some part ∧ ∀ (k : Nat) (n : Text), a.names[k]? = some n → ∀ l : Nat,
      part.at (String.ofList n) l =
        if (l + 1) * packedWords a ≤ fileWord g.info.order g.bytes (partWord g.info g.bytes row col j) - p.headerLength.toNat then
          .ok (e.real (packedValue g.info.order g.bytes
            (partWord g.info g.bytes row col j + 1 + p.headerLength.toNat + l * packedWords a) a k))
        else .error (.raised .indexError) := by
  obtain ⟨n1, n2, n3⟩ := params_lengths (openStation_inv (openSounding_station ho).1).1 hl hpa
  obtain ⟨part, g1, g2⟩ := C94_packed e selv g.info g.bytes row col ha hn ps h j p a hp hpa ht h0
  refine ⟨part, g1, fun k n hk l => ?_⟩
  obtain ⟨rs, hw, hv⟩ := g2 k n hk
  have hk' : k < a.names.length := (List.getElem?_eq_some_iff.1 hk).1
  have := packed_get hb n2 n3 (by intro hc; rw [hc] at n1; simp at n1; omega) hw l k (by omega)
  rw [hv l, ← n1]
  unfold idx
  rw [List.getElem?_map, this]
  by_cases hc : (l + 1) * packedWords a ≤ fileWord g.info.order g.bytes (partWord g.info g.bytes row col j) - p.headerLength.toNat
  · rw [if_pos hc, if_pos hc]; rfl
  · rw [if_neg hc, if_neg hc]; rfl

/-! ## A case -/

/-- A surface file with one time, two stations and two parts: two packed numbers after one header word, of 11 bits in tenths with an offset of
-500 and of 9 bits, and a text.  The second station has the numbers 1000 and 511. -/
def packedSample : Bytes :=
  wordsOf ["GEMPAK DATA MANAGEMENT FILE "] ++
  intsOf [1, 0, 32, 1, 2, 32, 43, 2, 9, 34, 46, 2, 66, 86, 32, 118, 1, 1, 0, -9999, 0, 0, 0, 0] ++
  wordsOf ["DATE", "TIME"] ++ wordsOf ["STID", "STNM", "SLAT", "SLON", "SELV", "STAT", "COUN", "STD2", "SPRI"] ++
  intsOf [9999, 241116, 1200] ++
  intsOf [9999] ++ wordsOf ["KDEN"] ++ intsOf [724690, 3975, -10487, 1611] ++ wordsOf ["CO  ", "US  ", "    "] ++ intsOf [0] ++
  intsOf [9999] ++ wordsOf ["KORD"] ++ intsOf [725300, 4198, -8790, 200] ++ wordsOf ["IL  ", "US  ", "    "] ++ intsOf [0] ++
  wordsOf ["SFDT", "SFTX"] ++ intsOf [1, 0] ++ intsOf [4, 3] ++ intsOf [2, 1] ++
  wordsOf ["TMPF", "DWPF", "REMK"] ++ intsOf [-1, 0, 0] ++ intsOf [-500, 0, 0] ++ intsOf [11, 9, 0] ++ intsOf (List.replicate 32 0) ++
  intsOf [0, 125, 122, 0] ++ intsOf [2, 77, 1047528] ++ intsOf [2] ++ wordsOf ["NO DATA "]

theorem packedSample_opens : ∃ g a p, openSurface .little packedSample = .ok g ∧ g.info.params[0]? = some a ∧ g.info.parts[0]? = some p ∧
    Placed g.info.label ∧ p.dataType = 4 ∧ p.headerLength = 1 ∧ g.info.order = .little ∧ g.bytes = packedSample ∧
    a = ⟨[txt "TMPF", txt "DWPF"], [-1, 0], [-500, 0], [11, 9]⟩ ∧ partWord g.info g.bytes 0 1 0 = 122 := by
  have h : (openSurface .little packedSample).toOption.any (fun g => decide (
      (1 ≤ g.info.label.fileKeysPtr ∧ 1 ≤ g.info.label.rowKeysPtr ∧ 1 ≤ g.info.label.columnKeysPtr ∧ 1 ≤ g.info.label.partsPtr) ∧
      g.info.parts[0]?.map (fun p => (p.dataType, p.headerLength)) = some (4, 1) ∧ g.info.order = .little ∧ g.bytes = packedSample ∧
      g.info.params[0]? = some ⟨[txt "TMPF", txt "DWPF"], [-1, 0], [-500, 0], [11, 9]⟩ ∧ partWord g.info g.bytes 0 1 0 = 122)) = true := by
    decide +kernel
  cases hg : openSurface .little packedSample with
  | error e => rw [hg] at h; cases h
  | ok g =>
    rw [hg] at h
    obtain ⟨⟨h1, h2, h3, h4⟩, h5, h6, h7, h8, h9⟩ := of_decide_eq_true (show decide _ = true from h)
    cases hp : g.info.parts[0]? with
    | none => rw [hp] at h5; cases h5
    | some p =>
      rw [hp] at h5
      have := Option.some.inj h5
      exact ⟨g, _, p, rfl, h8, hp, ⟨h1, h2, h3, h4⟩, congrArg Prod.fst this, congrArg Prod.snd this, h6, h7, rfl, h9⟩

/-- The numbers are 50.0 and missing. -/
example : ∃ g a p, openSurface .little packedSample = .ok g ∧ g.info.params[0]? = some a ∧ Placed g.info.label ∧ Packable a ∧ p.dataType = 4 ∧
    PartHolds g.info.order g.bytes p a 122 1 0 (.real (some (500, -1))) ∧ PartHolds g.info.order g.bytes p a 122 1 1 (.real none) ∧
    packedValue g.info.order g.bytes 124 a 0 = some (500, -1) ∧ packedValue g.info.order g.bytes 124 a 1 = none := by
  obtain ⟨g, a, p, h1, h2, h3, h4, h5, h6, h7, h8, rfl, h9⟩ := packedSample_opens
  have hw : unpackReal ((List.range (fileWord .little packedSample 122 - 1)).map fun j => toI32 (fileWord .little packedSample (122 + 1 + 1 + j)))
      (packedAttrs ⟨[txt "TMPF", txt "DWPF"], [-1, 0], [-500, 0], [11, 9]⟩) (fileWord .little packedSample 122 - 1 : Nat) =
      .ok [some (500, -1), none] := by decide +kernel
  refine ⟨g, _, p, h1, h2, h4, by unfold Packable; decide, h5, ?_⟩
  rw [h7, h8]
  exact ⟨.packed _ _ h5 hw rfl, .packed _ _ h5 hw rfl, by decide +kernel, by decide +kernel⟩

end Gempak
