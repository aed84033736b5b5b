import Verif.Props.Unmerged
import Mathlib.Data.Nat.Digits.Defs
import Mathlib.Data.List.Forall2

/-!
# Records with several parts (C83)

For every surface file, whoever wrote it: a report is made of all the parts of its cell that have data.
-/

namespace Gempak
open Spec

/-! ## Specification -/

/-- Word `n` of a file, counted from one, as an unsigned number; a word cut by the end of the file has fewer bytes. -/
def Spec.fileWord (e : Endian) (b : Bytes) (n : Nat) : Nat :=
  let w := (b.drop (4 * (n - 1))).take 4
  Nat.ofDigits 256 ((match e with | .little => w | .big => w.reverse).map UInt8.toNat)

/-- The word of the pointer table for a cell and part. -/
def Spec.cellWord (i : DMInfo) (irow icol iprt : Nat) : Nat :=
  i.label.dataBlockPtr.toNat + irow * (i.label.columns.toNat * i.label.parts.toNat) + (icol * i.label.parts.toNat + iprt)

/-- Width, scale and offset of each parameter of a part. -/
def Spec.packedAttrs (p : ParamInfo) : List RealAttr :=
  List.zipWith3 (fun b s o => { bits := b.toNat, scale := s, offset := o }) p.bits p.scale p.offset

/-- Value `k` of a record at word `ptr` of a file whose part has `hdr` header words: a single precision word, a packed number or a
text. -/
inductive Spec.PartHolds (e : Endian) (b : Bytes) (part : PartInfo) (params : ParamInfo) (ptr hdr k : Nat) : HVal → Prop
  | real (h : part.dataType = 1) (hin : 4 * (ptr + hdr + k) + 4 ≤ b.length) :
      PartHolds e b part params ptr hdr k (.flt (BitVec.ofNat 32 (fileWord e b (ptr + 1 + hdr + k))))
  | packed (rs : List RealVal) (v : RealVal) (h : part.dataType = 4)
      (hw : unpackReal ((List.range (fileWord e b ptr - hdr)).map fun j => toI32 (fileWord e b (ptr + 1 + hdr + j))) (packedAttrs params)
        (fileWord e b ptr - hdr : Nat) = .ok rs) (hk : rs[k]? = some v) : PartHolds e b part params ptr hdr k (.real v)
  | text (t : Text) (h : part.dataType = 3) (hin : fileWord e b ptr ≠ 0 → 4 * (ptr + fileWord e b ptr) ≤ b.length)
      (ht : decodeStrip ((b.drop (4 * (ptr + hdr))).take (4 * (fileWord e b ptr - hdr))) = .ok t) : PartHolds e b part params ptr hdr k (.text t)

/-- Header fields of a file that addresses need: counts and lengths are not negative, the pointer table has a place. -/
structure Spec.Addressable (i : DMInfo) : Prop where
  table : 1 ≤ i.label.dataBlockPtr
  columns : 0 ≤ i.label.columns
  parts : 0 ≤ i.label.parts
  headers : ∀ p ∈ i.parts, 0 ≤ p.headerLength

/-- Word of the file where part `j` of a cell begins, zero when there is none. -/
def Spec.partWord (i : DMInfo) (b : Bytes) (row col j : Nat) : Nat := fileWord i.order b (cellWord i row col j)

/-- Names of parameters that can be told from each other and from the reader's own keys. -/
structure Spec.Distinguished (own : List Text) (lower : Text → Text) (i : DMInfo) : Prop where
  lower_nodup : ((i.params.flatMap ParamInfo.names).map lower).Nodup
  free : ∀ n ∈ i.params.flatMap ParamInfo.names, n ∉ own

/-- The items of a cell are those of its parts with data: every parameter of such a part is there with a value that the part holds,
no parameter of another part is there, and nothing else. -/
structure Spec.AllParts (holds : PartInfo → ParamInfo → Nat → Nat → Nat → HVal → Prop) (i : DMInfo) (b : Bytes) (row col : Nat)
    (name : Text → Text) (items : List (Text × HVal)) : Prop where
  present : ∀ (j : Nat) (p : PartInfo) (a : ParamInfo), i.parts[j]? = some p → i.params[j]? = some a → partWord i b row col j ≠ 0 →
    ∀ (k : Nat) (n : Text), a.names[k]? = some n →
      ∃ v, dictGet items (name n) = some v ∧ holds p a (partWord i b row col j) p.headerLength.toNat k v
  absent : ∀ (j : Nat) (a : ParamInfo), i.params[j]? = some a → partWord i b row col j = 0 → ∀ n ∈ a.names, dictGet items (name n) = none
  only : ∀ kv ∈ items, ∃ (j : Nat) (a : ParamInfo), i.params[j]? = some a ∧ partWord i b row col j ≠ 0 ∧ ∃ n ∈ a.names, kv.1 = name n

/-- A report for an entry of the list of sites: it names the site and time of the entry and has the items of all its parts. -/
structure Spec.ReportOf (g : SurfaceReader) (lower : Text → Text) (s : SiteInfo) (o : SfObj) : Prop where
  time : o.dateTime = s.dattim
  id : o.stationId = s.id
  number : o.stationNumber = .int s.number
  latitude : o.latitude = .coord s.lat
  longitude : o.longitude = .coord s.lon
  elevation : o.elevation = .int s.elev
  state : o.state = .text s.state
  country : o.country = .text s.country
  values : AllParts (PartHolds g.info.order g.bytes) g.info g.bytes s.row s.col lower o.values

/-- Column `k` of a record of a sounding: a value for every level, the parameters of a level standing together. -/
inductive Spec.ColumnHolds (e : Endian) (b : Bytes) (part : PartInfo) (params : ParamInfo) (ptr hdr k : Nat) : HVal → Prop
  | real (fs : List F32) (h : part.dataType = 1)
      (hv : ∀ l : Nat, fs[l]? = if l * params.names.length + k < fileWord e b ptr - hdr then
        some (BitVec.ofNat 32 (fileWord e b (ptr + 1 + hdr + (l * params.names.length + k)))) else none) :
      ColumnHolds e b part params ptr hdr k (.arr fs)
  | packed (rs vs : List RealVal) (h : part.dataType = 4)
      (hw : unpackReal ((List.range (fileWord e b ptr - hdr)).map fun j => toI32 (fileWord e b (ptr + 1 + hdr + j))) (packedAttrs params)
        (fileWord e b ptr - hdr : Nat) = .ok rs) (hv : ∀ l : Nat, vs[l]? = rs[l * params.names.length + k]?) :
      ColumnHolds e b part params ptr hdr k (.rarr vs)

/-- A sounding for an entry of the list: it names the site and time of the entry and has the columns of all its parts, one of them as
vertical coordinate: pressure, or height when there is no pressure. -/
structure Spec.SoundingOf (g : SoundingReader) (lower : Text → Text) (s : SiteInfo) (o : SnObj) : Prop where
  time : o.dateTime = s.dattim
  id : o.stationId = .text s.id
  number : o.stationNumber = .int s.number
  latitude : o.lat = .coord s.lat
  longitude : o.lon = .coord s.lon
  elevation : o.elevation = .int s.elev
  state : o.state = .text s.state
  country : o.country = .text s.country
  vertical : o.vcoord = txt "pres" ∨ o.vcoord = txt "hght" ∧ ∀ (j : Nat) (p : PartInfo) (a : ParamInfo), g.info.parts[j]? = some p →
    g.info.params[j]? = some a → partWord g.info g.bytes s.row s.col j ≠ 0 → txt "PRES" ∉ a.names
  values : AllParts (ColumnHolds g.info.order g.bytes) g.info g.bytes s.row s.col lower ((o.vcoord, o.levels) :: o.vars)

/-! ## Words -/

theorem leToNat_digits (b : Bytes) : leToNat b = Nat.ofDigits 256 (b.map UInt8.toNat) := by
  induction b with
  | nil => rfl
  | cons x b ih => rw [leToNat, ih, List.map_cons, Nat.ofDigits_cons]

theorem decNat_digits (e : Endian) (b : Bytes) :
    decNat e b = Nat.ofDigits 256 ((match e with | .little => b | .big => b.reverse).map UInt8.toNat) := by
  cases e <;> exact leToNat_digits _

theorem fileWord_eq (e : Endian) (b : Bytes) (n : Nat) : fileWord e b n = decNat e ((b.drop (4 * (n - 1))).take 4) := by
  rw [decNat_digits]; rfl

theorem readWord_file (e : Endian) (b : Bytes) {n : Nat} (hn : 1 ≤ n) : readWord e b (wordToPosition n) = (fileWord e b n : Nat) := by
  unfold readWord intFromBytes wordToPosition
  have h1 : (n : Int) * 4 - 4 = ((4 * (n - 1) : Nat) : Int) := by omega
  have h2 : ((4 * (n - 1) : Nat) : Int) + 4 = ((4 * (n - 1) + 4 : Nat) : Int) := by omega
  rw [h1, h2, pySlice_nat _ _ _ (by omega), if_neg (by simp), fileWord_eq, Nat.add_sub_cancel_left]

/-- The pointer of a cell is a word of the file. -/
theorem dataPointer_file (i : DMInfo) (b : Bytes) (irow icol iprt : Nat) (h1 : 1 ≤ i.label.dataBlockPtr) (h2 : 0 ≤ i.label.columns)
    (h3 : 0 ≤ i.label.parts) : dataPointer i b irow icol iprt = (fileWord i.order b (cellWord i irow icol iprt) : Nat) := by
  have : cellPointer i irow icol iprt = ((cellWord i irow icol iprt : Nat) : Int) := by
    unfold cellPointer cellWord
    push_cast
    rw [Int.toNat_of_nonneg h2, Int.toNat_of_nonneg h3, Int.toNat_of_nonneg (by omega), Int.mul_assoc]
  unfold dataPointer
  rw [this, readWord_file]
  unfold cellWord
  omega

theorem unpack_words (e : Endian) (f : Fmt) (hf : f.size = 4) (g : Bytes → Val) (hg : ∀ b, unpackOne e f b = [g b]) (n : Nat) (b : Bytes) :
    unpackItems e (List.replicate n f) b = (List.range n).map fun k => g ((b.drop (4 * k)).take 4) := by
  induction n generalizing b with
  | zero => rfl
  | succ n ih =>
    rw [List.replicate_succ, unpackItems, ih, hg, hf, List.range_succ_eq_map, List.map_cons, List.map_map]
    simp only [List.singleton_append, Nat.mul_zero, List.drop_zero, List.cons.injEq, true_and]
    apply List.map_congr_left
    intro k _
    simp only [Function.comp, List.drop_drop]
    rw [show 4 + 4 * k = 4 * k.succ by omega]

/-- A record of words, read. -/
theorem readRecord_file {i : DMInfo} {b : Bytes} {part : PartInfo} {ptr hdr : Nat} (hp : 1 ≤ ptr) (hh : part.headerLength = hdr) {f : Fmt}
    (hf : f.size = 4) (g : Nat → Val) (hg : ∀ w, unpackOne i.order f w = [g (decNat i.order w)]) {vs : List Val}
    (h : readRecord i b part ptr f = .ok vs) :
    hdr ≤ fileWord i.order b ptr ∧ vs = (List.range (fileWord i.order b ptr - hdr)).map (fun k => g (fileWord i.order b (ptr + 1 + hdr + k))) ∧
      ∀ k < fileWord i.order b ptr - hdr, 4 * (ptr + hdr + k) + 4 ≤ b.length := by
  unfold readRecord at h
  dsimp only at h
  rw [readWord_file _ _ hp, hh] at h
  split at h
  · cases h
  rename_i hlen
  have hle : hdr ≤ fileWord i.order b ptr := by omega
  refine ⟨hle, ?_⟩
  obtain ⟨m, hm⟩ : ∃ m, fileWord i.order b ptr - hdr = m := ⟨_, rfl⟩
  have hm' : ((fileWord i.order b ptr : Nat) - (hdr : Int)).toNat = m := by omega
  rw [hm] at *
  rw [hm'] at h
  have p0 : wordToPosition (ptr : Int) = ((4 * (ptr - 1) : Nat) : Int) := by unfold wordToPosition; omega
  have p1 : ((4 * (ptr - 1) : Nat) : Int) + 4 = ((4 * (ptr - 1) + 4 : Nat) : Int) := by omega
  rw [p0, p1, pySlice_nat _ _ _ (by omega)] at h
  have p2 : wordToPosition ((hdr : Int) + 1) = ((4 * hdr : Nat) : Int) := by unfold wordToPosition; omega
  rw [p2] at h
  unfold unpackFrom at h
  dsimp only at h
  have hfs : fmtSize (List.replicate m f) = 4 * m := by
    unfold fmtSize
    rw [List.map_replicate, hf, List.sum_replicate]
    simp [Nat.mul_comm]
  have hnn : ¬ (((4 * (ptr - 1) : Nat) : Int) + ((((b.drop (4 * (ptr - 1))).take (4 * (ptr - 1) + 4 - 4 * (ptr - 1))).length : Nat) : Int) +
      ((4 * hdr : Nat) : Int)) < 0 := by omega
  simp only [if_neg hnn, hfs] at h
  split at h
  · rename_i hin
    obtain rfl := Except.ok.inj h
    rw [unpack_words i.order f hf (fun w => g (decNat i.order w)) hg]
    by_cases h0 : m = 0
    · subst h0
      exact ⟨rfl, fun k hk => absurd hk (by omega)⟩
    · have hl : ((b.drop (4 * (ptr - 1))).take (4 * (ptr - 1) + 4 - 4 * (ptr - 1))).length = 4 := by
        rw [List.length_take, List.length_drop] at hin ⊢
        omega
      rw [hl] at hin ⊢
      have q : (((4 * (ptr - 1) : Nat) : Int) + ((4 : Nat) : Int) + ((4 * hdr : Nat) : Int)).toNat = 4 * (ptr + hdr) := by omega
      rw [q] at hin ⊢
      refine ⟨?_, fun k hk => by omega⟩
      apply List.map_congr_left
      intro k _
      rw [fileWord_eq, List.drop_drop]
      congr 4
      omega
  · cases h

theorem readText_file {i : DMInfo} {b : Bytes} {part : PartInfo} {ptr hdr : Nat} (hp : 1 ≤ ptr) (hh : part.headerLength = hdr) {s : Bytes}
    (h : readText i b part ptr = .ok s) :
    (fileWord i.order b ptr ≠ 0 → 4 * (ptr + fileWord i.order b ptr) ≤ b.length) ∧ s = (b.drop (4 * (ptr + hdr))).take (4 * (fileWord i.order b ptr - hdr)) := by
  unfold readText at h
  dsimp only at h
  rw [readWord_file _ _ hp, hh] at h
  split at h
  · cases h
  rename_i hlen
  have p0 : wordToPosition (ptr : Int) = ((4 * (ptr - 1) : Nat) : Int) := by unfold wordToPosition; omega
  have p1 : ((4 * (ptr - 1) : Nat) : Int) + 4 = ((4 * (ptr - 1) + 4 : Nat) : Int) := by omega
  rw [p0, p1, pySlice_nat _ _ _ (by omega)] at h
  have p2 : wordToPosition ((hdr : Int) + 1) = ((4 * hdr : Nat) : Int) := by unfold wordToPosition; omega
  rw [p2] at h
  obtain ⟨m, hm⟩ : ∃ m, fileWord i.order b ptr = hdr + m := ⟨fileWord i.order b ptr - hdr, by omega⟩
  rw [hm] at h ⊢
  have p3 : (((hdr + m : Nat) : Int) - (hdr : Int)) * 4 = ((4 * m : Nat) : Int) := by omega
  rw [p3, Int.toNat_natCast] at h
  obtain ⟨vs, h1, h⟩ := bind_inv h
  unfold unpackFrom at h1
  dsimp only at h1
  have hnn : ¬ (((4 * (ptr - 1) : Nat) : Int) + ((((b.drop (4 * (ptr - 1))).take (4 * (ptr - 1) + 4 - 4 * (ptr - 1))).length : Nat) : Int) +
      ((4 * hdr : Nat) : Int)) < 0 := by omega
  have hfs : fmtSize [.str (4 * m)] = 4 * m := by simp [fmtSize, Fmt.size]
  simp only [if_neg hnn, hfs] at h1
  split at h1
  · rename_i hin
    obtain rfl := Except.ok.inj h1
    obtain rfl := Except.ok.inj h
    rw [List.length_take, List.length_drop] at hin ⊢
    by_cases h4 : 4 * (ptr - 1) + 4 ≤ b.length
    · have hl : min (4 * (ptr - 1) + 4 - 4 * (ptr - 1)) (b.length - 4 * (ptr - 1)) = 4 := by omega
      rw [hl] at hin ⊢
      have q : (((4 * (ptr - 1) : Nat) : Int) + ((4 : Nat) : Int) + ((4 * hdr : Nat) : Int)).toNat = 4 * (ptr + hdr) := by omega
      rw [q] at hin ⊢
      refine ⟨fun _ => by omega, ?_⟩
      show (b.drop _).take (4 * m) = _
      congr 1
      omega
    · have h0 : m = 0 := by omega
      subst h0
      refine ⟨fun h => by omega, ?_⟩
      simp [Fmt.size]
  · cases h1

theorem pickEach_inv {α : Type} {f : α → HVal} {vs : List α} {ns : List Text} {k : Nat} {xs : List (Text × HVal)}
    (h : pickEach f vs ns k = .ok xs) : xs.map Prod.fst = ns ∧
      ∀ (j : Nat) (n : Text), ns[j]? = some n → ∃ v, vs[k + j]? = some v ∧ xs[j]? = some (n, f v) := by
  induction ns generalizing k xs with
  | nil => unfold pickEach at h; obtain rfl := Except.ok.inj h; exact ⟨rfl, by simp⟩
  | cons a ns ih =>
    unfold pickEach at h
    split at h
    · rename_i v hv
      obtain ⟨r, h1, h⟩ := bind_inv h
      obtain rfl := Except.ok.inj h
      obtain ⟨h2, h3⟩ := ih h1
      refine ⟨by rw [List.map_cons, h2], ?_⟩
      intro j n hj
      cases j with
      | zero =>
        obtain rfl := Option.some.inj hj
        exact ⟨v, hv, rfl⟩
      | succ j =>
        obtain ⟨w, h4, h5⟩ := h3 j n hj
        exact ⟨w, by rw [← h4]; congr 1; omega, h5⟩
    · cases h

theorem range_get {α : Type} (f : Nat → α) (m j : Nat) : ((List.range m).map f)[j]? = if j < m then some (f j) else none := by
  by_cases h : j < m <;> simp [h]

theorem reals_file {i : DMInfo} {b : Bytes} {part : PartInfo} {ptr hdr : Nat} (hp : 1 ≤ ptr) (hh : part.headerLength = hdr) {vs : List Val}
    {fs : List F32} (h : readRecord i b part ptr .f32 = .ok vs) (h2 : vs.mapM fltOf = .ok fs) :
    fs = (List.range (fileWord i.order b ptr - hdr)).map (fun k => BitVec.ofNat 32 (fileWord i.order b (ptr + 1 + hdr + k))) ∧
      ∀ k < fileWord i.order b ptr - hdr, 4 * (ptr + hdr + k) + 4 ≤ b.length := by
  obtain ⟨_, hv, hin⟩ := readRecord_file hp hh rfl (fun n => .flt (BitVec.ofNat 32 n)) (fun _ => rfl) h
  refine ⟨?_, hin⟩
  subst hv
  have : ((List.range (fileWord i.order b ptr - hdr)).map fun k => Val.flt (BitVec.ofNat 32 (fileWord i.order b (ptr + 1 + hdr + k)))).mapM fltOf
      = .ok ((List.range (fileWord i.order b ptr - hdr)).map (fun k => BitVec.ofNat 32 (fileWord i.order b (ptr + 1 + hdr + k)))) := by
    rw [List.mapM_map]
    exact mapM_ok fun x _ => rfl
  rw [this] at h2
  exact (Except.ok.inj h2).symm

theorem realAttrs_eq (p : ParamInfo) : realAttrs p = packedAttrs p := by
  unfold realAttrs packedAttrs
  generalize p.bits = bs
  generalize p.scale = ss
  generalize p.offset = os
  induction bs generalizing ss os with
  | nil => rfl
  | cons b bs ih =>
    cases ss with
    | nil => rfl
    | cons s ss =>
      cases os with
      | nil => rfl
      | cons o os =>
        show (⟨b.toNat, s, o⟩ : RealAttr) :: ((bs.zip (ss.zip os)).map _) = _ :: _
        rw [ih ss os]

theorem packed_file {i : DMInfo} {b : Bytes} {part : PartInfo} {params : ParamInfo} {ptr hdr : Nat} (hp : 1 ≤ ptr)
    (hh : part.headerLength = hdr) {rs : List RealVal} (h : readReals i b part params ptr = .ok rs) :
    unpackReal ((List.range (fileWord i.order b ptr - hdr)).map fun j => toI32 (fileWord i.order b (ptr + 1 + hdr + j))) (packedAttrs params)
        (fileWord i.order b ptr - hdr : Nat) = .ok rs := by
  unfold readReals at h
  obtain ⟨vs, h1, h⟩ := bind_inv h
  obtain ⟨ws, h2, h⟩ := bind_inv h
  obtain ⟨_, hv, _⟩ := readRecord_file hp hh rfl (fun n => .int (toI32 n)) (fun _ => rfl) h1
  subst hv
  have : ((List.range (fileWord i.order b ptr - hdr)).map fun k => Val.int (toI32 (fileWord i.order b (ptr + 1 + hdr + k)))).mapM intOf
      = .ok ((List.range (fileWord i.order b ptr - hdr)).map (fun k => toI32 (fileWord i.order b (ptr + 1 + hdr + k)))) := by
    rw [List.mapM_map]
    exact mapM_ok fun x _ => rfl
  rw [this] at h2
  obtain rfl := Except.ok.inj h2
  rw [List.length_map, List.length_range, realAttrs_eq] at h
  exact h

/-- One part of a surface report. -/
theorem surfacePart_file {i : DMInfo} {b : Bytes} {part : PartInfo} {params : ParamInfo} {ptr hdr : Nat} (hp : 1 ≤ ptr)
    (hh : part.headerLength = hdr) {xs : List (Text × HVal)} (h : surfacePart i b part params ptr = .ok xs) :
    xs.map Prod.fst = params.names ∧ ∀ (j : Nat) (n : Text), params.names[j]? = some n →
      ∃ v, xs[j]? = some (n, v) ∧ PartHolds i.order b part params ptr hdr j v := by
  unfold surfacePart at h
  split at h
  · rename_i ht
    obtain ⟨vs, h1, h⟩ := bind_inv h
    obtain ⟨fs, h2, h⟩ := bind_inv h
    obtain ⟨rfl, hin⟩ := reals_file hp hh h1 h2
    obtain ⟨h3, h4⟩ := pickEach_inv h
    refine ⟨h3, fun j n hj => ?_⟩
    obtain ⟨v, h5, h6⟩ := h4 j n hj
    rw [range_get] at h5
    split at h5
    · rename_i hlt
      obtain rfl := Option.some.inj h5
      rw [Nat.zero_add] at hlt h6
      exact ⟨_, h6, .real ht (hin j hlt)⟩
    · cases h5
  split at h
  · rename_i ht
    obtain ⟨rs, h1, h⟩ := bind_inv h
    obtain ⟨h3, h4⟩ := pickEach_inv h
    refine ⟨h3, fun j n hj => ?_⟩
    obtain ⟨v, h5, h6⟩ := h4 j n hj
    rw [Nat.zero_add] at h5
    exact ⟨_, h6, .packed rs v ht (packed_file hp hh h1) h5⟩
  split at h
  · rename_i ht
    obtain ⟨s, h1, h⟩ := bind_inv h
    obtain ⟨hin, hs⟩ := readText_file hp hh h1
    unfold pickText at h
    split at h
    · rename_i hn
      obtain rfl := Except.ok.inj h
      rw [hn]
      exact ⟨rfl, by simp⟩
    · rename_i n hn
      obtain ⟨t, h2, h⟩ := bind_inv h
      obtain rfl := Except.ok.inj h
      rw [hn]
      refine ⟨rfl, fun j n' hj => ?_⟩
      cases j with
      | zero =>
        obtain rfl := Option.some.inj hj
        exact ⟨_, rfl, .text t ht hin (by rw [← hs]; exact h2)⟩
      | succ j => simp at hj
    · obtain ⟨t, _, h⟩ := bind_inv h
      cases h
  · cases h

/-- The parts of a cell. -/
theorem cellItems_inv {rd : PartInfo → ParamInfo → Int → Except PyErr (List (Text × HVal))} {i : DMInfo} {b : Bytes} {irow icol : Nat}
    {l : List (PartInfo × ParamInfo)} {k : Nat} {items : List (Text × HVal)} (h : cellItems rd i b irow icol l k = .ok items) :
    ∃ xs : List (List (Text × HVal)), items = xs.flatten ∧ xs.length = l.length ∧ ∀ (j : Nat) (p : PartInfo) (a : ParamInfo),
      l[j]? = some (p, a) → ∃ x, xs[j]? = some x ∧ (dataPointer i b irow icol (k + j) = 0 → x = []) ∧
        (dataPointer i b irow icol (k + j) ≠ 0 → rd p a (dataPointer i b irow icol (k + j)) = .ok x) := by
  induction l generalizing k items with
  | nil => unfold cellItems at h; obtain rfl := Except.ok.inj h; exact ⟨[], rfl, rfl, by simp⟩
  | cons pa l ih =>
    obtain ⟨p, a⟩ := pa
    unfold cellItems at h
    dsimp only at h
    have step : ∀ x r, cellItems rd i b irow icol l (k + 1) = .ok r → (dataPointer i b irow icol k = 0 → x = []) →
        (dataPointer i b irow icol k ≠ 0 → rd p a (dataPointer i b irow icol k) = .ok x) → items = x ++ r →
        ∃ xs : List (List (Text × HVal)), items = xs.flatten ∧ xs.length = ((p, a) :: l).length ∧ ∀ (j : Nat) (p' : PartInfo) (a' : ParamInfo),
          ((p, a) :: l)[j]? = some (p', a') → ∃ x, xs[j]? = some x ∧ (dataPointer i b irow icol (k + j) = 0 → x = []) ∧
            (dataPointer i b irow icol (k + j) ≠ 0 → rd p' a' (dataPointer i b irow icol (k + j)) = .ok x) := by
      intro x r hr h0 h1 hx
      obtain ⟨xs, e1, e2, e3⟩ := ih hr
      refine ⟨x :: xs, by rw [hx, e1, List.flatten_cons], by simp [e2], ?_⟩
      intro j p' a' hj
      cases j with
      | zero =>
        obtain ⟨rfl, rfl⟩ := Prod.mk.inj (Option.some.inj hj)
        exact ⟨x, rfl, h0, h1⟩
      | succ j =>
        obtain ⟨y, y1, y2, y3⟩ := e3 j p' a' hj
        rw [show k + 1 + j = k + (j + 1) by omega] at y2 y3
        exact ⟨y, y1, y2, y3⟩
    split at h
    · rename_i h0
      exact step [] items h (fun _ => rfl) (fun h1 => absurd h0 h1) rfl
    · rename_i h0
      obtain ⟨x, hx, h⟩ := bind_inv h
      obtain ⟨r, hr, h⟩ := bind_inv h
      obtain rfl := Except.ok.inj h
      exact step x r hr (fun h1 => absurd h1 h0) (fun _ => hx) rfl

theorem surfacePart_keys {i : DMInfo} {b : Bytes} {part : PartInfo} {params : ParamInfo} {ptr : Int} {xs : List (Text × HVal)}
    (h : surfacePart i b part params ptr = .ok xs) : xs.map Prod.fst = params.names := by
  unfold surfacePart at h
  split at h
  · obtain ⟨vs, h1, h⟩ := bind_inv h
    obtain ⟨fs, h2, h⟩ := bind_inv h
    exact (pickEach_inv h).1
  split at h
  · obtain ⟨rs, h1, h⟩ := bind_inv h
    exact (pickEach_inv h).1
  split at h
  · obtain ⟨s, h1, h⟩ := bind_inv h
    unfold pickText at h
    split at h
    · rename_i hn
      obtain rfl := Except.ok.inj h
      rw [hn]; rfl
    · rename_i n hn
      obtain ⟨t, h2, h⟩ := bind_inv h
      obtain rfl := Except.ok.inj h
      rw [hn]; rfl
    · obtain ⟨t, _, h⟩ := bind_inv h
      cases h
  · cases h

theorem cellItems_keys {rd : PartInfo → ParamInfo → Int → Except PyErr (List (Text × HVal))} (hk : ∀ p a ptr x, rd p a ptr = .ok x →
      x.map Prod.fst = a.names) {i : DMInfo} {b : Bytes} {irow icol : Nat} {l : List (PartInfo × ParamInfo)} {k : Nat}
    {items : List (Text × HVal)} (h : cellItems rd i b irow icol l k = .ok items) :
    (items.map Prod.fst).Sublist (l.flatMap fun pa => pa.2.names) := by
  induction l generalizing k items with
  | nil => unfold cellItems at h; obtain rfl := Except.ok.inj h; exact List.Sublist.refl _
  | cons pa l ih =>
    obtain ⟨p, a⟩ := pa
    unfold cellItems at h
    dsimp only at h
    rw [List.flatMap_cons]
    split at h
    · exact (ih h).trans (List.sublist_append_right _ _)
    · obtain ⟨x, hx, h⟩ := bind_inv h
      obtain ⟨r, hr, h⟩ := bind_inv h
      obtain rfl := Except.ok.inj h
      rw [List.map_append, hk _ _ _ _ hx]
      exact (List.Sublist.refl _).append (ih hr)

theorem zip_snd_sublist {α γ : Type} (l : List α) (m : List γ) : ((l.zip m).map Prod.snd).Sublist m := by
  induction l generalizing m with
  | nil => simp
  | cons a l ih =>
    cases m with
    | nil => simp
    | cons c m => simpa using ih m

theorem flatMap_sublist {α γ : Type} {l m : List α} (f : α → List γ) (h : l.Sublist m) : (l.flatMap f).Sublist (m.flatMap f) := by
  induction h with
  | slnil => exact List.Sublist.refl _
  | cons a _ ih => rw [List.flatMap_cons]; exact ih.trans (List.sublist_append_right _ _)
  | cons_cons a _ ih => rw [List.flatMap_cons, List.flatMap_cons]; exact (List.Sublist.refl _).append ih

theorem zip_names (i : DMInfo) :
    ((i.parts.zip i.params).flatMap fun pa => pa.2.names).Sublist (i.params.flatMap ParamInfo.names) := by
  have := flatMap_sublist ParamInfo.names (zip_snd_sublist i.parts i.params)
  rwa [List.flatMap_map] at this

/-- Items of all parts. -/
theorem cellItems_parts {rd : PartInfo → ParamInfo → Int → Except PyErr (List (Text × HVal))}
    {holds : PartInfo → ParamInfo → Nat → Nat → Nat → HVal → Prop} {i : DMInfo} {b : Bytes} {irow icol : Nat} (ha : Addressable i)
    (hk : ∀ p a ptr x, rd p a ptr = .ok x → x.map Prod.fst = a.names)
    (hrd : ∀ (p : PartInfo) (a : ParamInfo) (ptr hdr : Nat) x, 1 ≤ ptr → p.headerLength = hdr → rd p a ptr = .ok x →
      ∀ (j : Nat) (n : Text), a.names[j]? = some n → ∃ v, x[j]? = some (n, v) ∧ holds p a ptr hdr j v)
    (hn : (i.params.flatMap ParamInfo.names).Nodup) {items : List (Text × HVal)}
    (h : cellItems rd i b irow icol (i.parts.zip i.params) 0 = .ok items) :
    (items.map Prod.fst).Nodup ∧ (∀ n ∈ items.map Prod.fst, n ∈ i.params.flatMap ParamInfo.names) ∧
      AllParts holds i b irow icol id items := by
  have hsub := (cellItems_keys hk h).trans (zip_names i)
  have hnd : (items.map Prod.fst).Nodup := hn.sublist hsub
  have hptr : ∀ j, dataPointer i b irow icol j = (partWord i b irow icol j : Nat) := fun j =>
    dataPointer_file i b irow icol j ha.table ha.columns ha.parts
  obtain ⟨xs, hx, hl, hj⟩ := cellItems_inv h
  have honly : ∀ kv ∈ items, ∃ (j : Nat) (a : ParamInfo), i.params[j]? = some a ∧ partWord i b irow icol j ≠ 0 ∧ kv.1 ∈ a.names := by
    intro kv hkv
    rw [hx] at hkv
    obtain ⟨x, h1, h2⟩ := List.mem_flatten.1 hkv
    obtain ⟨j, hjl, h3⟩ := List.getElem_of_mem h1
    have h4 : j < (i.parts.zip i.params).length := by rw [← hl]; exact hjl
    obtain ⟨y, y1, y2, y3⟩ := hj j _ _ (List.getElem?_eq_getElem h4)
    rw [List.getElem?_eq_getElem hjl] at y1
    have hxy : x = y := by rw [← h3]; exact Option.some.inj y1
    subst hxy
    rw [Nat.zero_add, hptr] at y2 y3
    have h0 : partWord i b irow icol j ≠ 0 := by
      intro h0
      rw [y2 (by rw [h0]; rfl)] at h2
      simp at h2
    have h5 := y3 (by exact_mod_cast h0)
    have h6 : j < i.params.length := by rw [List.length_zip] at h4; omega
    refine ⟨j, i.params[j], List.getElem?_eq_getElem h6, h0, ?_⟩
    have := hk _ _ _ _ h5
    rw [List.get_eq_getElem, List.getElem_zip] at this
    dsimp only at this
    rw [← this]
    exact List.mem_map_of_mem h2
  refine ⟨hnd, fun n h => hsub.subset h, ?_, ?_, ?_⟩
  · intro j p a hp hpa h0 k n hkn
    have hz : (i.parts.zip i.params)[j]? = some (p, a) := List.getElem?_zip_eq_some.2 ⟨hp, hpa⟩
    obtain ⟨x, x1, x2, x3⟩ := hj j p a hz
    rw [Nat.zero_add, hptr] at x2 x3
    have h5 := x3 (by exact_mod_cast h0)
    have hh : p.headerLength = (p.headerLength.toNat : Int) := (Int.toNat_of_nonneg (ha.headers p (List.mem_of_getElem? hp))).symm
    obtain ⟨v, v1, v2⟩ := hrd p a _ _ x (by omega) hh h5 k n hkn
    refine ⟨v, ?_, v2⟩
    show dictGet items n = _
    rw [dictGet_eq_some hnd, hx]
    exact List.mem_flatten.2 ⟨x, List.mem_of_getElem? x1, List.mem_of_getElem? v1⟩
  · intro j a hpa h0 n hna
    show dictGet items n = none
    rw [dictGet_eq_none]
    intro hmem
    obtain ⟨kv, h1, rfl⟩ := List.mem_map.1 hmem
    obtain ⟨j', a', h2, h3, h4⟩ := honly kv h1
    have hne : j ≠ j' := by rintro rfl; exact h3 h0
    rw [List.nodup_flatMap] at hn
    have hpw := List.pairwise_iff_getElem.1 hn.2
    obtain ⟨l1, rfl⟩ := List.getElem?_eq_some_iff.1 hpa
    obtain ⟨l2, rfl⟩ := List.getElem?_eq_some_iff.1 h2
    rcases Nat.lt_or_gt_of_ne hne with hlt | hlt
    · exact hpw _ _ l1 l2 hlt hna h4
    · exact hpw _ _ l2 l1 hlt h4 hna
  · intro kv hkv
    obtain ⟨j, a, h1, h2, h3⟩ := honly kv hkv
    exact ⟨j, a, h1, h2, kv.1, h3, rfl⟩

theorem dictGet_mapKeys {lower : Text → Text} {items : List (Text × HVal)} {names : List Text} (hn : (names.map lower).Nodup)
    (hk : ∀ kv ∈ items, kv.1 ∈ names) {n : Text} (h : n ∈ names) :
    dictGet (items.map fun kv => (lower kv.1, kv.2)) (lower n) = dictGet items n := by
  have hinj : ∀ a ∈ names, ∀ c ∈ names, lower a = lower c → a = c := fun a ha c hc => List.inj_on_of_nodup_map hn ha hc
  clear hn
  induction items with
  | nil => rfl
  | cons x r ih =>
    obtain ⟨k, v⟩ := x
    rw [List.map_cons, dictGet, dictGet, ih fun kv hkv => hk kv (List.mem_cons_of_mem _ hkv)]
    by_cases hkn : k = n
    · subst hkn; rw [if_pos rfl, if_pos rfl]
    · rw [if_neg hkn, if_neg fun e => hkn (hinj _ (hk _ List.mem_cons_self) _ h e)]

/-- The same with names changed. -/
theorem AllParts_rename {holds : PartInfo → ParamInfo → Nat → Nat → Nat → HVal → Prop} {i : DMInfo} {b : Bytes} {row col : Nat}
    {lower : Text → Text} {items items' : List (Text × HVal)}
    (hg : ∀ n ∈ i.params.flatMap ParamInfo.names, dictGet items' (lower n) = dictGet items n)
    (ho : ∀ kv ∈ items', ∃ x ∈ items, kv.1 = lower x.1) (h : AllParts holds i b row col id items) :
    AllParts holds i b row col lower items' := by
  refine ⟨?_, ?_, ?_⟩
  · intro j p a hp ha h0 k n hkn
    obtain ⟨v, h1, h2⟩ := h.present j p a hp ha h0 k n hkn
    refine ⟨v, ?_, h2⟩
    rw [hg]
    · exact h1
    · exact List.mem_flatMap.2 ⟨a, List.mem_of_getElem? ha, List.mem_of_getElem? hkn⟩
  · intro j a ha h0 n hna
    rw [hg]
    · exact h.absent j a ha h0 n hna
    · exact List.mem_flatMap.2 ⟨a, List.mem_of_getElem? ha, hna⟩
  · intro kv hkv
    obtain ⟨x, hx, he⟩ := ho kv hkv
    obtain ⟨j, a, h1, h2, n, h3, h4⟩ := h.only x hx
    exact ⟨j, a, h1, h2, n, h3, he.trans (congrArg lower h4)⟩

theorem AllParts_lower {holds : PartInfo → ParamInfo → Nat → Nat → Nat → HVal → Prop} {i : DMInfo} {b : Bytes} {row col : Nat}
    {lower : Text → Text} {items : List (Text × HVal)} (hn : ((i.params.flatMap ParamInfo.names).map lower).Nodup)
    (hk : ∀ kv ∈ items, kv.1 ∈ i.params.flatMap ParamInfo.names) (h : AllParts holds i b row col id items) :
    AllParts holds i b row col lower (items.map fun kv => (lower kv.1, kv.2)) :=
  AllParts_rename (fun _ hm => dictGet_mapKeys hn hk hm) (fun kv hkv => by
    obtain ⟨x, hx, rfl⟩ := List.mem_map.1 hkv
    exact ⟨x, hx, rfl⟩) h

theorem headItems_inv {h : Header} {ks : List Text} {s : List (Text × HVal)} (hs : headItems h ks = .ok s) :
    s.map Prod.fst = ks ∧ ∀ k ∈ ks, ∃ v, headGet h k = .ok v ∧ dictGet s k = some v := by
  unfold headItems at hs
  induction ks generalizing s with
  | nil => rw [List.mapM_nil] at hs; obtain rfl := Except.ok.inj hs; exact ⟨rfl, by simp⟩
  | cons a ks ih =>
    rw [List.mapM_cons] at hs
    obtain ⟨x, h1, hs⟩ := bind_inv hs
    obtain ⟨r, h2, hs⟩ := bind_inv hs
    obtain rfl := Except.ok.inj hs
    obtain ⟨h3, h4⟩ := ih h2
    cases hg : headGet h a with
    | error e => rw [hg] at h1; cases h1
    | ok v =>
      rw [hg] at h1
      obtain rfl := Except.ok.inj h1
      refine ⟨by rw [List.map_cons, h3], ?_⟩
      intro k hk
      rw [dictGet]
      by_cases hka : a = k
      · subst hka; rw [if_pos rfl]; exact ⟨v, hg, rfl⟩
      · rw [if_neg hka]
        rcases List.mem_cons.1 hk with rfl | hk
        · exact absurd rfl hka
        · exact h4 k hk

/-! ## Surface files -/

/-- Keys that the reader of surface files uses itself. -/
def Spec.surfaceOwn : List Text :=
  [txt "DATE", txt "TIME", txt "STID", txt "STNM", txt "SLAT", txt "SLON", txt "SELV", txt "STAT", txt "COUN", txt "STD2", txt "SPRI",
    txt "TEXT", txt "SPCL"]

theorem zipIdx_get {l : List Header} {x : Header × Nat} (h : x ∈ l.zipIdx) : l[x.2]? = some x.1 := by
  obtain ⟨a, k⟩ := x
  exact List.mk_mem_zipIdx_iff_getElem?.1 h

/-- The headers of a listed cell are those it was listed with. -/
theorem heads_cell {g : SurfaceReader} {c : CellRef} (h : c ∈ g.type.cells g.rows g.cols) : g.heads c.row c.col = .ok (c.site, c.time) := by
  unfold SfType.cells at h
  unfold SurfaceReader.heads
  have ha : ∀ (l : List Header) (x : Header × Nat), x ∈ l.zipIdx → headerAt l x.2 = .ok x.1 := by
    intro l x hx; unfold headerAt; rw [zipIdx_get hx]
  split at h
  · unfold standardCells at h
    obtain ⟨r, h3, h4⟩ := List.mem_flatMap.1 h
    obtain ⟨d, h5, rfl⟩ := List.mem_map.1 h4
    dsimp only
    rw [ha _ _ h3, ok_bind, ha _ _ h5, ok_bind]
  · obtain ⟨d, h5, rfl⟩ := List.mem_map.1 h
    dsimp only
    rw [ha _ _ h5, ok_bind]
  · obtain ⟨r, h3, h4⟩ := List.mem_flatMap.1 h
    obtain ⟨d, h5, rfl⟩ := List.mem_map.1 h4
    dsimp only
    rw [ha _ _ h3, ok_bind, ha _ _ h5, ok_bind]

/-- Where an entry of the list comes from. -/
theorem sfinfo_cell {host : Endian} {b : Bytes} {g : SurfaceReader} (ho : openSurface host b = .ok g) {s : SiteInfo} (hs : s ∈ g.sfinfo) :
    ∃ c ∈ g.type.cells g.rows g.cols, surfaceInfo c = .ok s := by
  unfold openSurface at ho
  obtain ⟨f, h1, ho⟩ := bind_inv ho
  obtain ⟨t, _, ho⟩ := bind_inv ho
  obtain ⟨infos, h2, ho⟩ := bind_inv ho
  obtain rfl := Except.ok.inj ho
  unfold SurfaceReader.sfinfo at hs
  rw [(List.mergeSort_perm _ _).mem_iff] at hs
  dsimp only at hs ⊢
  refine mapM_all h2 (fun s => ∃ c ∈ t.cells f.rows f.cols, surfaceInfo c = .ok s) ?_ s hs
  intro c hc s hs
  exact ⟨c, (List.mem_filter.1 hc).1, hs⟩

/-- The single report of a cell. -/
theorem unpackCell_inv {g : SurfaceReader} {lower : Text → Text} {c : CellRef} (hc : c ∈ g.type.cells g.rows g.cols)
    (ha : Addressable g.info) (hd : Distinguished surfaceOwn lower g.info) {stns : List (List (Text × HVal))}
    (h : g.unpackCell c.row c.col = .ok stns) :
    ∃ s t items, headItems c.site siteKeys = .ok s ∧ headItems c.time [txt "DATE", txt "TIME"] = .ok t ∧ stns = [s ++ t ++ items] ∧
      (items.map Prod.fst).Nodup ∧ (∀ n ∈ items.map Prod.fst, n ∈ g.info.params.flatMap ParamInfo.names) ∧
      AllParts (PartHolds g.info.order g.bytes) g.info g.bytes c.row c.col id items := by
  unfold SurfaceReader.unpackCell at h
  rw [heads_cell hc, ok_bind] at h
  dsimp only at h
  obtain ⟨s, hs, h⟩ := bind_inv h
  obtain ⟨t, ht, h⟩ := bind_inv h
  obtain ⟨items, hi, h⟩ := bind_inv h
  have hn : (g.info.params.flatMap ParamInfo.names).Nodup := hd.lower_nodup.of_map
  obtain ⟨h1, h2, h3⟩ := cellItems_parts (rd := surfacePart g.info g.bytes) (holds := PartHolds g.info.order g.bytes) ha (fun _ _ _ _ h => surfacePart_keys h)
    (fun p a ptr hdr x hp hh h => (surfacePart_file hp hh h).2) hn hi
  refine ⟨s, t, items, hs, ht, ?_, h1, h2, h3⟩
  have hfree : ∀ k ∈ surfaceOwn, k ∉ items.map Prod.fst := fun k hk hm => hd.free k (h2 k hm) hk
  have hnd : ((s ++ t).map Prod.fst ++ items.map Prod.fst).Nodup := by
    rw [List.map_append, (headItems_inv hs).1, (headItems_inv ht).1]
    refine List.Nodup.append (by decide +kernel) h1 ?_
    intro k hk hm
    refine hfree k ?_ hm
    have : ∀ k ∈ siteKeys ++ [txt "DATE", txt "TIME"], k ∈ surfaceOwn := by decide +kernel
    exact this k hk
  by_cases hty : g.type = .standard
  · rw [if_pos hty] at h
    have d1 : dictUpdate [] items = items := by
      rw [dictUpdate_fresh (by simpa using h1), List.nil_append]
    have t1 : dictGet items (txt "TEXT") = none := dictGet_eq_none.2 (hfree _ (by decide +kernel))
    have t2 : dictGet items (txt "SPCL") = none := dictGet_eq_none.2 (hfree _ (by decide +kernel))
    rw [d1, t1, t2, if_neg (by simp), dictUpdate_fresh hnd] at h
    exact (Except.ok.inj h).symm
  · rw [if_neg hty, dictUpdate_fresh hnd] at h
    exact (Except.ok.inj h).symm

theorem popKey_inv {d : List (Text × HVal)} {k : Text} {v : HVal} (h : popKey d k = .ok v) : dictGet d k = some v := by
  unfold popKey at h
  split at h
  · rename_i w hw; rw [hw]; exact congrArg some (Except.ok.inj h)
  · cases h

/-- The report of a listed cell, as an object. -/
theorem sfObject_inv {g : SurfaceReader} {lower : Text → Text} {c : CellRef} {e : SiteInfo} (he : surfaceInfo c = .ok e)
    (hd : Distinguished surfaceOwn lower g.info) {s t items : List (Text × HVal)} (hs : headItems c.site siteKeys = .ok s)
    (ht : headItems c.time [txt "DATE", txt "TIME"] = .ok t) (h1 : (items.map Prod.fst).Nodup)
    (h2 : ∀ n ∈ items.map Prod.fst, n ∈ g.info.params.flatMap ParamInfo.names)
    (h3 : AllParts (PartHolds g.info.order g.bytes) g.info g.bytes c.row c.col id items) {o : SfObj}
    (h : sfObject lower (s ++ t ++ items) = .ok o) : ReportOf g lower e o := by
  unfold surfaceInfo at he
  obtain ⟨tm, e1, he⟩ := bind_inv he
  obtain ⟨id1, e2, he⟩ := bind_inv he
  obtain ⟨id2, e3, he⟩ := bind_inv he
  obtain ⟨num, e4, he⟩ := bind_inv he
  obtain ⟨lat, e5, he⟩ := bind_inv he
  obtain ⟨lon, e6, he⟩ := bind_inv he
  obtain ⟨elv, e7, he⟩ := bind_inv he
  obtain ⟨sta, e8, he⟩ := bind_inv he
  obtain ⟨cou, e9, he⟩ := bind_inv he
  obtain rfl := Except.ok.inj he
  unfold headTime at e1
  obtain ⟨d0, e10, e1⟩ := bind_inv e1
  obtain ⟨t0, e11, e1⟩ := bind_inv e1
  obtain ⟨sk, sg⟩ := headItems_inv hs
  obtain ⟨tk, tg⟩ := headItems_inv ht
  have siteGet : ∀ k ∈ siteKeys, ∀ v w, headGet c.site k = .ok v → dictGet (s ++ t ++ items) k = some w → w = v := by
    intro k hk v w hv hw
    obtain ⟨x, x1, x2⟩ := sg k hk
    rw [List.append_assoc, dictGet_append, x2] at hw
    rw [x1] at hv
    rw [← Option.some.inj hw]; exact Except.ok.inj hv
  have timeGet : ∀ k ∈ [txt "DATE", txt "TIME"], ∀ v w, headGet c.time k = .ok v → dictGet (s ++ t ++ items) k = some w → w = v := by
    intro k hk v w hv hw
    obtain ⟨x, x1, x2⟩ := tg k hk
    have hns : dictGet s k = none := by
      rw [dictGet_eq_none, sk]
      have : ∀ k ∈ [txt "DATE", txt "TIME"], k ∉ siteKeys := by decide +kernel
      exact this k hk
    rw [List.append_assoc, dictGet_append, hns, Option.none_or, dictGet_append, x2] at hw
    rw [x1] at hv
    rw [← Option.some.inj hw]; exact Except.ok.inj hv
  unfold sfObject at h
  obtain ⟨p1, q1, h⟩ := bind_inv h
  obtain ⟨p2, q2, h⟩ := bind_inv h
  obtain ⟨dt, q3, h⟩ := bind_inv h
  obtain ⟨p4, q4, h⟩ := bind_inv h
  obtain ⟨p5, q5, h⟩ := bind_inv h
  obtain ⟨sid, q6, h⟩ := bind_inv h
  obtain ⟨p7, q7, h⟩ := bind_inv h
  obtain ⟨p8, q8, h⟩ := bind_inv h
  obtain ⟨p9, q9, h⟩ := bind_inv h
  obtain ⟨p10, q10, h⟩ := bind_inv h
  obtain ⟨p11, q11, h⟩ := bind_inv h
  obtain ⟨p12, q12, h⟩ := bind_inv h
  obtain ⟨p13, q13, h⟩ := bind_inv h
  obtain rfl := Except.ok.inj h
  obtain rfl := timeGet _ (by simp) _ _ e10 (popKey_inv q1)
  obtain rfl := timeGet _ (by simp) _ _ e11 (popKey_inv q2)
  obtain rfl := siteGet _ (by decide +kernel) _ _ (headText_inv e2) (popKey_inv q4)
  obtain rfl := siteGet _ (by decide +kernel) _ _ (headText_inv e3) (popKey_inv q5)
  rw [e1] at q3
  obtain rfl := Except.ok.inj q3
  obtain rfl := Except.ok.inj q6
  have hf : (s ++ t ++ items).filter (fun kv => kv.1 ∉ popped) = items := by
    rw [List.filter_append, List.filter_eq_nil_iff.2, List.nil_append, List.filter_eq_self.2]
    · intro kv hkv
      rw [decide_eq_true_eq]
      intro hp
      have hsub : ∀ k ∈ popped, k ∈ surfaceOwn := by decide +kernel
      exact hd.free _ (h2 _ (List.mem_map_of_mem hkv)) (hsub _ hp)
    · intro kv hkv
      rw [decide_eq_true_eq, not_not]
      have : kv.1 ∈ (s ++ t).map Prod.fst := List.mem_map_of_mem hkv
      rw [List.map_append, sk, tk] at this
      exact keys_popped _ this
  have hk : ∀ kv ∈ items, kv.1 ∈ g.info.params.flatMap ParamInfo.names := fun kv hkv => h2 _ (List.mem_map_of_mem hkv)
  have hu : dictUpdate [] (items.map fun kv => (lower kv.1, kv.2)) = items.map fun kv => (lower kv.1, kv.2) := by
    rw [dictUpdate_fresh, List.nil_append]
    rw [List.map_nil, List.nil_append, List.map_map]
    have : (Prod.fst ∘ fun kv : Text × HVal => (lower kv.1, kv.2)) = lower ∘ Prod.fst := rfl
    rw [this, ← List.map_map]
    exact h1.map_on fun a ha c hc hac => List.inj_on_of_nodup_map hd.lower_nodup (h2 a ha) (h2 c hc) hac
  refine ⟨rfl, rfl, siteGet _ (by decide +kernel) _ _ (headInt_inv e4) (popKey_inv q7), siteGet _ (by decide +kernel) _ _ (headCoord_inv e5) (popKey_inv q9),
    siteGet _ (by decide +kernel) _ _ (headCoord_inv e6) (popKey_inv q8), siteGet _ (by decide +kernel) _ _ (headInt_inv e7) (popKey_inv q10),
    siteGet _ (by decide +kernel) _ _ (headText_inv e8) (popKey_inv q11), siteGet _ (by decide +kernel) _ _ (headText_inv e9) (popKey_inv q12), ?_⟩
  dsimp only
  rw [hf, hu]
  exact AllParts_lower hd.lower_nodup hk h3

/-- C83: whoever wrote the file, a query returns one report for each site wanted, which names that site and time as the list does and has
the values of all parts with data. -/
theorem C83_reports (host : Endian) (b : Bytes) (g : SurfaceReader) (upper lower : Text → Text) (q : SiteQuery) (special : Bool)
    (objs : List SfObj) (ho : openSurface host b = .ok g) (ha : Addressable g.info) (hd : Distinguished surfaceOwn lower g.info)
    (h : g.sfjson upper lower q special = .ok objs) :
    List.Forall₂ (ReportOf g lower) (selected upper (Asks upper) q g.sfinfo) objs := by
  have hne : g.sfinfo ≠ [] := by
    intro h0
    by_cases hq : AsksExtreme q
    · rw [(C36_empty g upper lower special q h0).1 hq] at h; cases h
    · rw [(C36_empty g upper lower special q h0).2 hq] at h; cases h
  rw [sfjson_eq, selectSites_spec upper _ (Asks upper) (asks_all upper) q _ (sfinfo_times ho) (fun _ => hne)] at h
  split at h
  · cases h
  rw [ok_bind] at h
  have hsub := selected_sub upper (Asks upper) q g.sfinfo
  generalize selected upper (Asks upper) q g.sfinfo = m at h hsub
  have hcell := makeObjects_inv h
  rw [makeObjects_ok hcell] at h
  obtain rfl := Except.ok.inj h
  clear h
  induction m with
  | nil => exact .nil
  | cons e m ih =>
    rw [List.flatMap_cons]
    obtain ⟨l, hl⟩ := hcell e List.mem_cons_self
    obtain ⟨c, hc, he⟩ := sfinfo_cell ho (hsub e List.mem_cons_self)
    have hrow : e.row = c.row ∧ e.col = c.col := by
      have he' := he
      unfold surfaceInfo at he'
      obtain ⟨_, _, he'⟩ := bind_inv he'
      obtain ⟨_, _, he'⟩ := bind_inv he'
      obtain ⟨_, _, he'⟩ := bind_inv he'
      obtain ⟨_, _, he'⟩ := bind_inv he'
      obtain ⟨_, _, he'⟩ := bind_inv he'
      obtain ⟨_, _, he'⟩ := bind_inv he'
      obtain ⟨_, _, he'⟩ := bind_inv he'
      obtain ⟨_, _, he'⟩ := bind_inv he'
      obtain ⟨_, _, he'⟩ := bind_inv he'
      obtain rfl := Except.ok.inj he'
      exact ⟨rfl, rfl⟩
    have hl' := hl
    unfold cellObjects at hl'
    obtain ⟨stns, h1, h2⟩ := bind_inv hl'
    dsimp only at h1
    rw [hrow.1, hrow.2] at h1
    obtain ⟨s, t, items, i1, i2, rfl, i4, i5, i6⟩ := unpackCell_inv hc ha hd h1
    have hsp : dictGet (s ++ t ++ items) (txt "SPCL") = none := by
      rw [dictGet_eq_none, List.map_append, List.map_append, (headItems_inv i1).1, (headItems_inv i2).1, List.mem_append]
      rintro (hm | hm)
      · exact absurd hm (by decide +kernel)
      · exact hd.free _ (i5 _ hm) (by decide +kernel)
    rw [List.filter_cons, hsp, if_pos (by simp), List.filter_nil, List.mapM_cons] at h2
    obtain ⟨o, o1, h2⟩ := bind_inv h2
    have hlo : l = [o] := (Except.ok.inj h2).symm
    have hg : got (cellObjects (fun s : SiteInfo => g.unpackCell s.row s.col) (fun stn => special || !(dictGet stn (txt "SPCL")).isSome)
        (sfObject lower) e) = [o] := by rw [hl, hlo]; rfl
    rw [hg, List.singleton_append]
    exact .cons (sfObject_inv he hd i1 i2 i4 i5 i6 o1)
      (ih (fun s hs => hsub s (List.mem_cons_of_mem _ hs)) (fun s hs => hcell s (List.mem_cons_of_mem _ hs)))

/-- C83: a cell is listed exactly when one of its parts, not only the first, has data. -/
theorem C83_listed (host : Endian) (b : Bytes) (g : SurfaceReader) (ho : openSurface host b = .ok g) (ha : Addressable g.info)
    (row col : Nat) : (row, col) ∈ g.sfinfo.map (fun s => (s.row, s.col)) ↔
      ((if g.type = .ship then row = 0 else row < g.rows.length) ∧ col < g.cols.length ∧
        ∃ j < g.info.parts.length, partWord g.info g.bytes row col j ≠ 0) := by
  unfold openSurface at ho
  obtain ⟨f, h1, ho⟩ := bind_inv ho
  obtain ⟨t, _, ho⟩ := bind_inv ho
  obtain ⟨infos, h2, ho⟩ := bind_inv ho
  have hb : f.bytes = b := by
    unfold openStation at h1
    obtain ⟨_, _, h1⟩ := bind_inv h1
    obtain ⟨_, _, h1⟩ := bind_inv h1
    obtain ⟨_, _, h1⟩ := bind_inv h1
    obtain ⟨_, _, h1⟩ := bind_inv h1
    obtain ⟨_, _, h1⟩ := bind_inv h1
    obtain rfl := Except.ok.inj h1
    rfl
  obtain rfl := Except.ok.inj ho
  unfold SurfaceReader.sfinfo
  rw [((List.mergeSort_perm _ _).map _).mem_iff]
  dsimp only at ha ⊢
  rw [mapM_map_fst (k := fun c : CellRef => (c.row, c.col)) h2]
  · have hdata : ∀ r c, hasData f.info b r c = true ↔ ∃ j < f.info.parts.length, partWord f.info f.bytes r c j ≠ 0 := by
      intro r c
      unfold hasData
      rw [List.any_eq_true, hb]
      simp only [List.mem_range, decide_eq_true_eq]
      refine exists_congr fun j => and_congr_right fun _ => ?_
      rw [dataPointer_file f.info b r c j ha.table ha.columns ha.parts]
      unfold partWord
      exact_mod_cast Iff.rfl
    have hidx : ∀ (l : List Header) (k : Nat), (∃ x ∈ l.zipIdx, x.2 = k) ↔ k < l.length := by
      intro l k
      constructor
      · rintro ⟨x, hx, rfl⟩
        exact (List.getElem?_eq_some_iff.1 (zipIdx_get hx)).1
      · intro hk
        exact ⟨(l[k], k), List.mk_mem_zipIdx_iff_getElem?.2 (List.getElem?_eq_getElem hk), rfl⟩
    have hcells : (∃ c ∈ t.cells f.rows f.cols, c.row = row ∧ c.col = col) ↔
        (if t = .ship then row = 0 else row < f.rows.length) ∧ col < f.cols.length := by
      rw [← hidx f.cols col]
      unfold SfType.cells
      cases t with
      | standard =>
        rw [if_neg (by decide), ← hidx f.rows row]
        unfold standardCells
        constructor
        · rintro ⟨c, hc, rfl, rfl⟩
          obtain ⟨r, h3, h4⟩ := List.mem_flatMap.1 hc
          obtain ⟨d, h5, rfl⟩ := List.mem_map.1 h4
          exact ⟨⟨r, h3, rfl⟩, ⟨d, h5, rfl⟩⟩
        · rintro ⟨⟨r, h3, rfl⟩, ⟨d, h5, rfl⟩⟩
          exact ⟨_, List.mem_flatMap.2 ⟨r, h3, List.mem_map.2 ⟨d, h5, rfl⟩⟩, rfl, rfl⟩
      | ship =>
        rw [if_pos rfl]
        constructor
        · rintro ⟨c, hc, rfl, rfl⟩
          obtain ⟨d, h5, rfl⟩ := List.mem_map.1 hc
          exact ⟨rfl, ⟨d, h5, rfl⟩⟩
        · rintro ⟨rfl, ⟨d, h5, rfl⟩⟩
          exact ⟨_, List.mem_map.2 ⟨d, h5, rfl⟩, rfl, rfl⟩
      | climate =>
        rw [if_neg (by decide), ← hidx f.rows row]
        constructor
        · rintro ⟨c, hc, rfl, rfl⟩
          obtain ⟨r, h3, h4⟩ := List.mem_flatMap.1 hc
          obtain ⟨d, h5, rfl⟩ := List.mem_map.1 h4
          exact ⟨⟨d, h5, rfl⟩, ⟨r, h3, rfl⟩⟩
        · rintro ⟨⟨d, h5, rfl⟩, ⟨r, h3, rfl⟩⟩
          exact ⟨_, List.mem_flatMap.2 ⟨r, h3, List.mem_map.2 ⟨d, h5, rfl⟩⟩, rfl, rfl⟩
    rw [← and_assoc, ← hcells, List.mem_map]
    constructor
    · rintro ⟨c, hc, hrc⟩
      obtain ⟨h3, h4⟩ := List.mem_filter.1 hc
      obtain ⟨rfl, rfl⟩ := Prod.mk.inj hrc
      exact ⟨⟨c, h3, rfl, rfl⟩, (hdata _ _).1 h4⟩
    · rintro ⟨⟨c, h3, rfl, rfl⟩, h4⟩
      exact ⟨c, List.mem_filter.2 ⟨h3, (hdata _ _).2 h4⟩, rfl⟩
  · intro c s hs
    unfold surfaceInfo at hs
    obtain ⟨_, _, hs⟩ := bind_inv hs
    obtain ⟨_, _, hs⟩ := bind_inv hs
    obtain ⟨_, _, hs⟩ := bind_inv hs
    obtain ⟨_, _, hs⟩ := bind_inv hs
    obtain ⟨_, _, hs⟩ := bind_inv hs
    obtain ⟨_, _, hs⟩ := bind_inv hs
    obtain ⟨_, _, hs⟩ := bind_inv hs
    obtain ⟨_, _, hs⟩ := bind_inv hs
    obtain ⟨_, _, hs⟩ := bind_inv hs
    obtain rfl := Except.ok.inj hs
    rfl

/-! ## Merged soundings -/

theorem everyNth_get {α : Type} (n : Nat) (hn : 1 ≤ n) (l : List α) (j : Nat) : (everyNth n l)[j]? = l[j * n]? := by
  induction j generalizing l with
  | zero => cases l <;> simp [everyNth]
  | succ j ih =>
    cases l with
    | nil => simp [everyNth]
    | cons x r =>
      rw [everyNth, List.getElem?_cons_succ, ih, List.getElem?_drop,
        show (j + 1) * n = (n - 1 + j * n) + 1 by rw [Nat.add_mul, Nat.one_mul]; omega, List.getElem?_cons_succ]

theorem stride_get {α : Type} (k n : Nat) (hn : 1 ≤ n) (l : List α) (j : Nat) : (stride k n l)[j]? = l[j * n + k]? := by
  unfold stride
  rw [everyNth_get n hn, List.getElem?_drop, Nat.add_comm]

theorem zipIdx_keys (l : List Text) (f : Nat → HVal) : (l.zipIdx.map fun n => (n.1, f n.2)).map Prod.fst = l := by
  rw [List.map_map]
  have : (Prod.fst ∘ fun n : Text × Nat => (n.1, f n.2)) = Prod.fst := rfl
  rw [this, List.zipIdx_map_fst]

theorem soundingPart_keys {i : DMInfo} {b : Bytes} {part : PartInfo} {params : ParamInfo} {ptr : Int} {xs : List (Text × HVal)}
    (h : soundingPart i b part params ptr = .ok xs) : xs.map Prod.fst = params.names := by
  unfold soundingPart at h
  split at h
  · obtain ⟨vs, h1, h⟩ := bind_inv h
    obtain ⟨fs, h2, h⟩ := bind_inv h
    obtain rfl := Except.ok.inj h
    exact zipIdx_keys _ fun k => .arr (stride k params.names.length fs)
  split at h
  · obtain ⟨rs, h1, h⟩ := bind_inv h
    obtain rfl := Except.ok.inj h
    exact zipIdx_keys _ fun k => .rarr (stride k params.names.length rs)
  · cases h

/-- One part of a sounding. -/
theorem soundingPart_file {i : DMInfo} {b : Bytes} {part : PartInfo} {params : ParamInfo} {ptr hdr : Nat} (hp : 1 ≤ ptr)
    (hh : part.headerLength = hdr) {xs : List (Text × HVal)} (h : soundingPart i b part params ptr = .ok xs) :
    ∀ (j : Nat) (n : Text), params.names[j]? = some n →
      ∃ v, xs[j]? = some (n, v) ∧ ColumnHolds i.order b part params ptr hdr j v := by
  have hlen : ∀ (j : Nat) (n : Text), params.names[j]? = some n → 1 ≤ params.names.length := by
    intro j n hj
    have := (List.getElem?_eq_some_iff.1 hj).1
    omega
  unfold soundingPart at h
  split at h
  · rename_i ht
    obtain ⟨vs, h1, h⟩ := bind_inv h
    obtain ⟨fs, h2, h⟩ := bind_inv h
    obtain ⟨hfs, hin⟩ := reals_file hp hh h1 h2
    obtain rfl := Except.ok.inj h
    intro j n hj
    refine ⟨.arr (stride j params.names.length fs), ?_, .real _ ht ?_⟩
    · rw [List.getElem?_map, List.getElem?_zipIdx, hj]; simp
    · intro l
      rw [stride_get _ _ (hlen j n hj), hfs, range_get]
  split at h
  · rename_i ht
    obtain ⟨rs, h1, h⟩ := bind_inv h
    obtain rfl := Except.ok.inj h
    intro j n hj
    refine ⟨.rarr (stride j params.names.length rs), ?_, .packed rs _ ht (packed_file hp hh h1) ?_⟩
    · rw [List.getElem?_map, List.getElem?_zipIdx, hj]; simp
    · intro l
      rw [stride_get _ _ (hlen j n hj)]
  · cases h

/-- Keys that the reader of soundings uses itself. -/
def Spec.soundingOwn : List Text :=
  [txt "DATE", txt "TIME", txt "TXTA", txt "TXTB", txt "TXTC", txt "TXPB", txt "STID", txt "STNM", txt "SLAT", txt "SLON", txt "SELV",
    txt "STAT", txt "COUN"]

/-- The sounding of a cell. -/
theorem unpackMerged_inv {g : SoundingReader} {lower : Text → Text} {c : CellRef} (hc : c ∈ standardCells g.rows g.cols)
    (ha : Addressable g.info) (hd : Distinguished soundingOwn lower g.info) {snd : List (Text × HVal)}
    (h : g.unpackMerged c.row c.col = .ok snd) :
    ∃ s t items, headItems c.site snKeys = .ok s ∧ headItems c.time [txt "DATE", txt "TIME"] = .ok t ∧ snd = s ++ t ++ items ∧
      (items.map Prod.fst).Nodup ∧ (∀ n ∈ items.map Prod.fst, n ∈ g.info.params.flatMap ParamInfo.names) ∧
      AllParts (ColumnHolds g.info.order g.bytes) g.info g.bytes c.row c.col id items := by
  have hat : ∀ (l : List Header) (x : Header × Nat), x ∈ l.zipIdx → snHeaderAt l x.2 = .ok x.1 := by
    intro l x hx; unfold snHeaderAt; rw [zipIdx_get hx]
  unfold standardCells at hc
  obtain ⟨r, h3, h4⟩ := List.mem_flatMap.1 hc
  obtain ⟨d, h5, rfl⟩ := List.mem_map.1 h4
  unfold SoundingReader.unpackMerged at h
  dsimp only at h ⊢
  rw [hat _ _ h3, ok_bind, hat _ _ h5, ok_bind] at h
  obtain ⟨s, hs, h⟩ := bind_inv h
  obtain ⟨t, ht, h⟩ := bind_inv h
  obtain ⟨items, hi, h⟩ := bind_inv h
  have hn : (g.info.params.flatMap ParamInfo.names).Nodup := hd.lower_nodup.of_map
  obtain ⟨h1, h2, h3⟩ := cellItems_parts (rd := soundingPart g.info g.bytes) (holds := ColumnHolds g.info.order g.bytes) ha
    (fun _ _ _ _ h => soundingPart_keys h) (fun p a ptr hdr x hp hh h => soundingPart_file hp hh h) hn hi
  refine ⟨s, t, items, hs, ht, ?_, h1, h2, h3⟩
  have hfree : ∀ k ∈ soundingOwn, k ∉ items.map Prod.fst := fun k hk hm => hd.free k (h2 k hm) hk
  have hnd : ((s ++ t).map Prod.fst ++ items.map Prod.fst).Nodup := by
    rw [List.map_append, (headItems_inv hs).1, (headItems_inv ht).1]
    refine List.Nodup.append (by decide +kernel) h1 ?_
    intro k hk hm
    refine hfree k ?_ hm
    have : ∀ k ∈ snKeys ++ [txt "DATE", txt "TIME"], k ∈ soundingOwn := by decide +kernel
    exact this k hk
  rw [dictUpdate_fresh hnd] at h
  exact (Except.ok.inj h).symm

theorem snPop_inv {d : List (Text × HVal)} {k : Text} {v : HVal} (h : snPop d k = .ok v) : dictGet d k = some v := by
  unfold snPop at h
  split at h
  · rename_i w hw; rw [hw]; exact congrArg some (Except.ok.inj h)
  · cases h

theorem vertical_inv {snd : List (Text × HVal)} {r : Text × Text × HVal} (h : vertical snd = .ok r) :
    dictGet snd r.1 = some r.2.2 ∧ (r.1 = txt "PRES" ∧ r.2.1 = txt "pres" ∨
      r.1 = txt "HGHT" ∧ r.2.1 = txt "hght" ∧ dictGet snd (txt "PRES") = none) := by
  unfold vertical at h
  split at h
  · rename_i p hp
    obtain ⟨_, _, h⟩ := bind_inv h
    obtain rfl := Except.ok.inj h
    exact ⟨hp, .inl ⟨rfl, rfl⟩⟩
  · rename_i hp
    split at h
    · rename_i v hv
      obtain rfl := Except.ok.inj h
      exact ⟨hv, .inr ⟨rfl, rfl, hp⟩⟩
    · cases h

theorem dictGet_filter {l : List (Text × HVal)} {p : Text → Bool} {n : Text} (h : p n = true) :
    dictGet (l.filter fun kv => p kv.1) n = dictGet l n := by
  induction l with
  | nil => rfl
  | cons x r ih =>
    obtain ⟨k, v⟩ := x
    rw [List.filter_cons, dictGet]
    by_cases hk : k = n
    · subst hk; rw [if_pos h, dictGet, if_pos rfl, if_pos rfl]
    · rw [if_neg hk]
      split
      · rw [dictGet, if_neg hk, ih]
      · exact ih

/-- The sounding of a listed cell, as an object. -/
theorem snObject_inv {g : SoundingReader} {lower : Text → Text} {c : CellRef} {e : SiteInfo} (he : soundingInfo c = .ok e)
    (hd : Distinguished soundingOwn lower g.info) (hp : lower (txt "PRES") = txt "pres") (hh : lower (txt "HGHT") = txt "hght")
    {s t items : List (Text × HVal)} (hs : headItems c.site snKeys = .ok s)
    (ht : headItems c.time [txt "DATE", txt "TIME"] = .ok t) (h1 : (items.map Prod.fst).Nodup)
    (h2 : ∀ n ∈ items.map Prod.fst, n ∈ g.info.params.flatMap ParamInfo.names)
    (h3 : AllParts (ColumnHolds g.info.order g.bytes) g.info g.bytes c.row c.col id items) {o : SnObj}
    (h : snObject lower (s ++ t ++ items) = .ok o) : SoundingOf g lower e o := by
  unfold soundingInfo at he
  obtain ⟨tm, e1, he⟩ := bind_inv he
  obtain ⟨id1, e2, he⟩ := bind_inv he
  obtain ⟨num, e4, he⟩ := bind_inv he
  obtain ⟨lat, e5, he⟩ := bind_inv he
  obtain ⟨lon, e6, he⟩ := bind_inv he
  obtain ⟨elv, e7, he⟩ := bind_inv he
  obtain ⟨sta, e8, he⟩ := bind_inv he
  obtain ⟨cou, e9, he⟩ := bind_inv he
  obtain rfl := Except.ok.inj he
  unfold headTime at e1
  obtain ⟨d0, e10, e1⟩ := bind_inv e1
  obtain ⟨t0, e11, e1⟩ := bind_inv e1
  obtain ⟨sk, sg⟩ := headItems_inv hs
  obtain ⟨tk, tg⟩ := headItems_inv ht
  have siteGet : ∀ k ∈ snKeys, ∀ v w, headGet c.site k = .ok v → dictGet (s ++ t ++ items) k = some w → w = v := by
    intro k hk v w hv hw
    obtain ⟨x, x1, x2⟩ := sg k hk
    rw [List.append_assoc, dictGet_append, x2] at hw
    rw [x1] at hv
    rw [← Option.some.inj hw]; exact Except.ok.inj hv
  have timeGet : ∀ k ∈ [txt "DATE", txt "TIME"], ∀ v w, headGet c.time k = .ok v → dictGet (s ++ t ++ items) k = some w → w = v := by
    intro k hk v w hv hw
    obtain ⟨x, x1, x2⟩ := tg k hk
    have hns : dictGet s k = none := by
      rw [dictGet_eq_none, sk]
      have : ∀ k ∈ [txt "DATE", txt "TIME"], k ∉ snKeys := by decide +kernel
      exact this k hk
    rw [List.append_assoc, dictGet_append, hns, Option.none_or, dictGet_append, x2] at hw
    rw [x1] at hv
    rw [← Option.some.inj hw]; exact Except.ok.inj hv
  have itemGet : ∀ k, k ∉ snKeys ++ [txt "DATE", txt "TIME"] → dictGet (s ++ t ++ items) k = dictGet items k := by
    intro k hk
    rw [dictGet_append]
    have : dictGet (s ++ t) k = none := by
      rw [dictGet_eq_none, List.map_append, sk, tk]; exact hk
    rw [this, Option.none_or]
  unfold snObject at h
  obtain ⟨p1, q1, h⟩ := bind_inv h
  obtain ⟨p2, q2, h⟩ := bind_inv h
  obtain ⟨p3, q3, h⟩ := bind_inv h
  obtain ⟨p4, q4, h⟩ := bind_inv h
  obtain ⟨p5, q5, h⟩ := bind_inv h
  obtain ⟨p6, q6, h⟩ := bind_inv h
  obtain ⟨p7, q7, h⟩ := bind_inv h
  obtain ⟨⟨vc, dim, lev⟩, q8, h⟩ := bind_inv h
  dsimp only at h
  obtain ⟨p9, q9, h⟩ := bind_inv h
  obtain ⟨p10, q10, h⟩ := bind_inv h
  obtain ⟨dt, q11, h⟩ := bind_inv h
  obtain rfl := Except.ok.inj h
  obtain rfl := timeGet _ (by simp) _ _ e10 (snPop_inv q9)
  obtain rfl := timeGet _ (by simp) _ _ e11 (snPop_inv q10)
  rw [e1] at q11
  obtain rfl := Except.ok.inj q11
  obtain ⟨v1, v2⟩ := vertical_inv q8
  dsimp only at v1 v2
  have hvc : vc ∉ snKeys ++ [txt "DATE", txt "TIME"] := by
    rcases v2 with ⟨rfl, _⟩ | ⟨rfl, _⟩ <;> decide +kernel
  have hdim : dim = lower vc := by
    rcases v2 with ⟨rfl, rfl⟩ | ⟨rfl, rfl, _⟩
    · exact hp.symm
    · exact hh.symm
  rw [itemGet vc hvc] at v1
  have hk : ∀ kv ∈ items, kv.1 ∈ g.info.params.flatMap ParamInfo.names := fun kv hkv => h2 _ (List.mem_map_of_mem hkv)
  have hvmem : (vc, lev) ∈ items := (dictGet_eq_some h1).1 v1
  have hf : (s ++ t ++ items).filter (fun kv => kv.1 ∉
      vc :: txt "DATE" :: txt "TIME" :: txt "TXTA" :: txt "TXTB" :: txt "TXTC" :: txt "TXPB" :: snKeys) =
      items.filter fun kv => decide (kv.1 ≠ vc) := by
    rw [List.filter_append, List.filter_eq_nil_iff.2, List.nil_append]
    · refine List.filter_congr fun kv hkv => ?_
      rw [decide_eq_decide]
      have hfree : kv.1 ∉ txt "DATE" :: txt "TIME" :: txt "TXTA" :: txt "TXTB" :: txt "TXTC" :: txt "TXPB" :: snKeys := by
        intro hm
        exact hd.free _ (hk _ hkv) hm
      rw [List.mem_cons, not_or]
      exact ⟨fun h => h.1, fun h => ⟨h, hfree⟩⟩
    · intro kv hkv
      rw [decide_eq_true_eq, not_not]
      have : kv.1 ∈ (s ++ t).map Prod.fst := List.mem_map_of_mem hkv
      rw [List.map_append, sk, tk] at this
      have hall : ∀ k ∈ snKeys ++ [txt "DATE", txt "TIME"],
        k ∈ txt "DATE" :: txt "TIME" :: txt "TXTA" :: txt "TXTB" :: txt "TXTC" :: txt "TXPB" :: snKeys := by decide +kernel
      exact List.mem_cons_of_mem _ (hall _ this)
  have hk' : ∀ kv ∈ items.filter (fun kv => decide (kv.1 ≠ vc)), kv.1 ∈ g.info.params.flatMap ParamInfo.names :=
    fun kv hkv => hk _ (List.mem_filter.1 hkv).1
  have hinj : ∀ a ∈ g.info.params.flatMap ParamInfo.names, ∀ c ∈ g.info.params.flatMap ParamInfo.names, lower a = lower c → a = c :=
    fun a ha c hc => List.inj_on_of_nodup_map hd.lower_nodup ha hc
  have hu : dictUpdate [] ((items.filter fun kv => decide (kv.1 ≠ vc)).map fun kv => (lower kv.1, kv.2)) =
      (items.filter fun kv => decide (kv.1 ≠ vc)).map fun kv => (lower kv.1, kv.2) := by
    rw [dictUpdate_fresh, List.nil_append]
    rw [List.map_nil, List.nil_append, List.map_map]
    have : (Prod.fst ∘ fun kv : Text × HVal => (lower kv.1, kv.2)) = lower ∘ Prod.fst := rfl
    rw [this, ← List.map_map]
    refine (h1.sublist (List.filter_sublist.map _)).map_on fun a ha c hc hac => ?_
    obtain ⟨x, hx, rfl⟩ := List.mem_map.1 ha
    obtain ⟨y, hy, rfl⟩ := List.mem_map.1 hc
    exact hinj _ (hk' x hx) _ (hk' y hy) hac
  have hvn := hk _ hvmem
  dsimp only at hvn
  refine ⟨rfl, siteGet _ (by decide +kernel) _ _ (headText_inv e2) (snPop_inv q1), siteGet _ (by decide +kernel) _ _ (headInt_inv e4) (snPop_inv q2),
    siteGet _ (by decide +kernel) _ _ (headCoord_inv e5) (snPop_inv q3), siteGet _ (by decide +kernel) _ _ (headCoord_inv e6) (snPop_inv q4),
    siteGet _ (by decide +kernel) _ _ (headInt_inv e7) (snPop_inv q5), siteGet _ (by decide +kernel) _ _ (headText_inv e8) (snPop_inv q6),
    siteGet _ (by decide +kernel) _ _ (headText_inv e9) (snPop_inv q7), ?_, ?_⟩
  · dsimp only
    rcases v2 with ⟨_, rfl⟩ | ⟨rfl, rfl, hno⟩
    · exact .inl rfl
    · right
      refine ⟨rfl, fun j p a hp ha h0 hm => ?_⟩
      rw [itemGet _ (by decide +kernel)] at hno
      obtain ⟨k, hk1, hk2⟩ := List.getElem_of_mem hm
      obtain ⟨v, h4, _⟩ := h3.present j p a hp ha h0 k _ (by rw [List.getElem?_eq_getElem hk1, hk2])
      rw [id, hno] at h4
      cases h4
  · dsimp only
    rw [hf, hu, hdim]
    refine AllParts_rename ?_ ?_ h3
    · intro n hn
      rw [dictGet]
      by_cases hnv : vc = n
      · subst hnv; rw [if_pos rfl, v1]
      · rw [if_neg fun h => hnv (hinj _ hvn _ hn h), dictGet_mapKeys hd.lower_nodup hk' hn]
        exact dictGet_filter (p := fun k => decide (k ≠ vc)) (decide_eq_true (Ne.symm hnv))
    · intro kv hkv
      rcases List.mem_cons.1 hkv with rfl | hkv
      · exact ⟨_, hvmem, rfl⟩
      · obtain ⟨x, hx, rfl⟩ := List.mem_map.1 hkv
        exact ⟨x, (List.mem_filter.1 hx).1, rfl⟩

/-- C84: whoever wrote the file, a query for merged soundings returns one for each wanted, which names its site and time as the list does
and has the columns of all parts with data. -/
theorem C84_soundings (host : Endian) (b : Bytes) (g : SoundingReader) (upper lower : Text → Text) (q : SiteQuery) (objs : List SnObj)
    (ho : openSounding host b = .ok g) (hm : g.merged = true) (ha : Addressable g.info) (hd : Distinguished soundingOwn lower g.info)
    (hp : lower (txt "PRES") = txt "pres") (hh : lower (txt "HGHT") = txt "hght") (h : g.snxarray upper lower q = .ok objs) :
    List.Forall₂ (SoundingOf g lower) (selected upper (AsksExactly upper) q g.sninfo) objs := by
  have hne : g.sninfo ≠ [] := by
    intro h0
    by_cases hq : AsksExtreme q
    · rw [(C35_empty g upper lower q h0 hm).1 hq] at h; cases h
    · rw [(C35_empty g upper lower q h0 hm).2 hq] at h; cases h
  rw [snxarray_eq _ _ _ _ hm, selectSites_spec upper _ (AsksExactly upper) (asks_one upper) q _ (sninfo_times ho) (fun _ => hne)] at h
  split at h
  · cases h
  rw [ok_bind] at h
  have hsub := selected_sub upper (AsksExactly upper) q g.sninfo
  generalize selected upper (AsksExactly upper) q g.sninfo = m at h hsub
  induction m generalizing objs with
  | nil =>
    obtain rfl := Except.ok.inj h
    exact .nil
  | cons e m ih =>
    obtain ⟨d, h1, h⟩ := bind_inv h
    rw [List.mapM_cons] at h1
    obtain ⟨snd, h2, h1⟩ := bind_inv h1
    obtain ⟨d', h3, h1⟩ := bind_inv h1
    obtain rfl := Except.ok.inj h1
    rw [List.mapM_cons] at h
    obtain ⟨o, h4, h⟩ := bind_inv h
    obtain ⟨r, h5, h⟩ := bind_inv h
    obtain rfl := Except.ok.inj h
    obtain ⟨row, col, r1, r2, r3, _⟩ := sninfo_cell ho (hsub e List.mem_cons_self)
    have hc : (⟨e.row, e.col, col, row⟩ : CellRef) ∈ standardCells g.rows g.cols := by
      unfold standardCells
      exact List.mem_flatMap.2 ⟨(row, e.row), List.mk_mem_zipIdx_iff_getElem?.2 r1,
        List.mem_map.2 ⟨(col, e.col), List.mk_mem_zipIdx_iff_getElem?.2 r2, rfl⟩⟩
    obtain ⟨s, t, items, i1, i2, rfl, i4, i5, i6⟩ := unpackMerged_inv hc ha hd h2
    exact .cons (snObject_inv r3 hd hp hh i1 i2 i4 i5 i6 h4)
      (ih r (by rw [h3, ok_bind]; exact h5) fun s hs => hsub s (List.mem_cons_of_mem _ hs))

/-- C84: a sounding is listed exactly when its first part has data; later parts do not count. -/
theorem C84_listed (host : Endian) (b : Bytes) (g : SoundingReader) (ho : openSounding host b = .ok g) (ha : Addressable g.info)
    (row col : Nat) : (row, col) ∈ g.sninfo.map (fun s => (s.row, s.col)) ↔
      row < g.rows.length ∧ col < g.cols.length ∧ partWord g.info g.bytes row col 0 ≠ 0 := by
  constructor
  · intro h
    obtain ⟨s, hs, hrc⟩ := List.mem_map.1 h
    obtain ⟨rfl, rfl⟩ := Prod.mk.inj hrc
    obtain ⟨r, c, r1, r2, _, r4⟩ := sninfo_cell ho hs
    refine ⟨(List.getElem?_eq_some_iff.1 r1).1, (List.getElem?_eq_some_iff.1 r2).1, ?_⟩
    rw [dataPointer_file _ _ _ _ _ ha.table ha.columns ha.parts] at r4
    intro h0
    apply r4
    unfold partWord at h0
    rw [h0]; rfl
  · rintro ⟨hr, hc, h0⟩
    unfold openSounding at ho
    obtain ⟨f, h1, ho⟩ := bind_inv ho
    dsimp only at ho
    obtain ⟨infos, h2, ho⟩ := bind_inv ho
    have hb : f.bytes = b := by
      unfold openStation at h1
      obtain ⟨_, _, h1⟩ := bind_inv h1
      obtain ⟨_, _, h1⟩ := bind_inv h1
      obtain ⟨_, _, h1⟩ := bind_inv h1
      obtain ⟨_, _, h1⟩ := bind_inv h1
      obtain ⟨_, _, h1⟩ := bind_inv h1
      obtain rfl := Except.ok.inj h1
      rfl
    obtain rfl := Except.ok.inj ho
    unfold SoundingReader.sninfo
    rw [((List.mergeSort_perm _ _).map _).mem_iff]
    dsimp only at ha hr hc h0 ⊢
    rw [mapM_map_fst (k := fun c : CellRef => (c.row, c.col)) h2]
    · refine List.mem_map.2 ⟨⟨row, col, f.cols[col], f.rows[row]⟩, List.mem_filter.2 ⟨?_, ?_⟩, rfl⟩
      · unfold standardCells
        exact List.mem_flatMap.2 ⟨(f.rows[row], row), List.mk_mem_zipIdx_iff_getElem?.2 (List.getElem?_eq_getElem hr),
          List.mem_map.2 ⟨(f.cols[col], col), List.mk_mem_zipIdx_iff_getElem?.2 (List.getElem?_eq_getElem hc), rfl⟩⟩
      · rw [decide_eq_true_eq]
        dsimp only
        rw [dataPointer_file _ _ _ _ _ ha.table ha.columns ha.parts, ← hb]
        unfold partWord at h0
        exact_mod_cast h0
    · intro c s hs
      unfold soundingInfo at hs
      obtain ⟨_, _, hs⟩ := bind_inv hs
      obtain ⟨_, _, hs⟩ := bind_inv hs
      obtain ⟨_, _, hs⟩ := bind_inv hs
      obtain ⟨_, _, hs⟩ := bind_inv hs
      obtain ⟨_, _, hs⟩ := bind_inv hs
      obtain ⟨_, _, hs⟩ := bind_inv hs
      obtain ⟨_, _, hs⟩ := bind_inv hs
      obtain ⟨_, _, hs⟩ := bind_inv hs
      obtain rfl := Except.ok.inj hs
      rfl

/-! ## A concrete file -/

/-- Text as words. -/
def wordsOf (l : List String) : Bytes := l.flatMap fun s => s.toList.map fun c => UInt8.ofNat c.toNat

/-- Integers as words. -/
def intsOf (l : List Int) : Bytes := l.flatMap fun i => encNat .little 4 (toU32 i)

/-- A surface file with one time, two stations and two parts: two single precision numbers after one header word, and a text.  The first
station has only the text, the second only the numbers. -/
def partsSample : Bytes :=
  wordsOf ["GEMPAK DATA MANAGEMENT FILE "] ++
  intsOf [1, 0, 32, 1, 2, 32, 43, 2, 9, 34, 46, 2, 66, 86, 32, 118, 1, 1, 0, -9999, 0, 0, 0, 0] ++
  wordsOf ["DATE", "TIME"] ++ wordsOf ["STID", "STNM", "SLAT", "SLON", "SELV", "STAT", "COUN", "STD2", "SPRI"] ++
  intsOf [9999, 241116, 1200] ++
  intsOf [9999] ++ wordsOf ["KDEN"] ++ intsOf [724690, 3975, -10487, 1611] ++ wordsOf ["CO  ", "US  ", "    "] ++ intsOf [0] ++
  intsOf [9999] ++ wordsOf ["KORD"] ++ intsOf [725300, 4198, -8790, 200] ++ wordsOf ["IL  ", "US  ", "    "] ++ intsOf [0] ++
  wordsOf ["SFDT", "SFTX"] ++ intsOf [1, 0] ++ intsOf [1, 3] ++ intsOf [2, 1] ++
  wordsOf ["TMPF", "DWPF", "REMK"] ++ intsOf (List.replicate 9 0) ++ intsOf (List.replicate 32 0) ++
  intsOf [0, 126, 122, 0] ++ intsOf [3, 77, 0x42480000, 0x41F00000] ++ intsOf [2] ++ wordsOf ["NO DATA "]

theorem partsSample_opens : ∃ g, openSurface .little partsSample = .ok g ∧ Addressable g.info ∧ Distinguished surfaceOwn id g.info ∧
    g.infos.map (fun s => (s.row, s.col, s.id)) = [(0, 0, txt "KDEN"), (0, 1, txt "KORD")] ∧
    (∀ s ∈ g.infos, ((cellObjects (fun s : SiteInfo => g.unpackCell s.row s.col) (fun stn => true || !(dictGet stn (txt "SPCL")).isSome)
        (sfObject id) s).toOption.map fun l => l.map SfObj.values) =
      some [if s.col = 0 then [(txt "REMK", .text (txt "NO DATA"))]
        else [(txt "TMPF", .flt 0x42480000), (txt "DWPF", .flt 0x41F00000)]]) := by
  have h : (openSurface .little partsSample).toOption.all (fun g => decide (
      (1 ≤ g.info.label.dataBlockPtr ∧ 0 ≤ g.info.label.columns ∧ 0 ≤ g.info.label.parts ∧ ∀ p ∈ g.info.parts, 0 ≤ p.headerLength) ∧
      (((g.info.params.flatMap ParamInfo.names).map id).Nodup ∧ ∀ n ∈ g.info.params.flatMap ParamInfo.names, n ∉ surfaceOwn) ∧
      g.infos.map (fun s => (s.row, s.col, s.id)) = [(0, 0, txt "KDEN"), (0, 1, txt "KORD")] ∧
      (∀ s ∈ g.infos, ((cellObjects (fun s : SiteInfo => g.unpackCell s.row s.col) (fun stn => true || !(dictGet stn (txt "SPCL")).isSome)
          (sfObject id) s).toOption.map fun l => l.map SfObj.values) =
        some [if s.col = 0 then [(txt "REMK", HVal.text (txt "NO DATA"))]
          else [(txt "TMPF", HVal.flt 0x42480000), (txt "DWPF", HVal.flt 0x41F00000)]]))) = true := by
    decide +kernel
  have h0 : (openSurface .little partsSample).toOption.isSome = true := by decide +kernel
  cases hg : openSurface .little partsSample with
  | error e => rw [hg] at h0; cases h0
  | ok g =>
    rw [hg] at h
    have h := of_decide_eq_true h
    exact ⟨g, rfl, ⟨h.1.1, h.1.2.1, h.1.2.2.1, h.1.2.2.2⟩, ⟨h.2.1.1, h.2.1.2⟩, h.2.2.1, h.2.2.2⟩

/-- The hypotheses of `C83_reports` hold for it. -/
example : ∃ g objs, openSurface .little partsSample = .ok g ∧ Addressable g.info ∧ Distinguished surfaceOwn id g.info ∧
    g.sfjson id id {} true = .ok objs ∧ g.sfinfo.length = 2 ∧ List.Forall₂ (ReportOf g id) (selected id (Asks id) {} g.sfinfo) objs := by
  obtain ⟨g, h1, h2, h3, h4, h5⟩ := partsSample_opens
  have hl : g.sfinfo.length = 2 := by
    have := congrArg List.length h4
    unfold SurfaceReader.sfinfo
    rw [List.length_mergeSort]
    simpa using this
  have hq : ∃ objs, g.sfjson id id {} true = .ok objs := by
    rw [sfjson_eq, selectSites_all, if_neg (by omega), ok_bind]
    refine ⟨_, makeObjects_ok fun s hs => ?_⟩
    have := h5 s ((List.mergeSort_perm _ _).mem_iff.1 hs)
    cases hc : cellObjects (fun s : SiteInfo => g.unpackCell s.row s.col) (fun stn => true || !(dictGet stn (txt "SPCL")).isSome) (sfObject id) s with
    | error e => rw [hc] at this; cases this
    | ok l => exact ⟨l, rfl⟩
  obtain ⟨objs, hq⟩ := hq
  exact ⟨g, objs, h1, h2, h3, hq, hl, C83_reports .little _ g id id {} true objs h1 h2 h3 hq⟩

/-- ASCII part of `str.lower`, for examples. -/
def asciiLower (s : Text) : Text := s.map fun c => if 'A' ≤ c ∧ c ≤ 'Z' then Char.ofNat (c.toNat + 32) else c

/-- A file of merged soundings with one time, two stations and two parts: pressures and temperatures on two levels, and winds.  The first
station has both parts, the second only the winds. -/
def levelsSample : Bytes :=
  wordsOf ["GEMPAK DATA MANAGEMENT FILE "] ++
  intsOf [1, 0, 32, 1, 2, 32, 41, 2, 7, 34, 44, 2, 60, 80, 32, 112, 2, 1, 0, -9999, 0, 0, 0, 0] ++
  wordsOf ["DATE", "TIME"] ++ wordsOf ["STID", "STNM", "SLAT", "SLON", "SELV", "STAT", "COUN"] ++
  intsOf [9999, 241116, 1200] ++
  intsOf [9999] ++ wordsOf ["KDEN"] ++ intsOf [724690, 3975, -10487, 1611] ++ wordsOf ["CO  ", "US  "] ++
  intsOf [9999] ++ wordsOf ["KORD"] ++ intsOf [725300, 4198, -8790, 200] ++ wordsOf ["IL  ", "US  "] ++
  wordsOf ["SNDT", "WIND"] ++ intsOf [1, 0] ++ intsOf [1, 1] ++ intsOf [2, 1] ++
  wordsOf ["PRES", "TMPC", "SPED"] ++ intsOf (List.replicate 9 0) ++ intsOf (List.replicate 32 0) ++
  intsOf [116, 122, 0, 125] ++ intsOf [5, 77, 0x447A0000, 0x41A00000, 0x44610000, 0x41200000] ++
  intsOf [2, 0x40A00000, 0x40C00000] ++ intsOf [1, 0x41200000]

/-- The hypotheses of `C84_soundings` hold for it; the second station is not listed although it has winds. -/
theorem levelsSample_opens : ∃ g, openSounding .little levelsSample = .ok g ∧ g.merged = true ∧ Addressable g.info ∧
    Distinguished soundingOwn asciiLower g.info ∧ g.infos.map (fun s => (s.row, s.col, s.id)) = [(0, 0, txt "KDEN")] ∧
    partWord g.info g.bytes 0 1 1 ≠ 0 ∧
    (∀ s ∈ g.infos, ((g.unpackMerged s.row s.col >>= snObject asciiLower).toOption.map fun o => (o.vcoord, o.levels, o.vars)) =
      some (txt "pres", .arr [0x447A0000, 0x44610000],
        [(txt "tmpc", .arr [0x41A00000, 0x41200000]), (txt "sped", .arr [0x40A00000, 0x40C00000])])) := by
  have h : (openSounding .little levelsSample).toOption.all (fun g => decide (g.merged = true ∧
      (1 ≤ g.info.label.dataBlockPtr ∧ 0 ≤ g.info.label.columns ∧ 0 ≤ g.info.label.parts ∧ ∀ p ∈ g.info.parts, 0 ≤ p.headerLength) ∧
      (((g.info.params.flatMap ParamInfo.names).map asciiLower).Nodup ∧ ∀ n ∈ g.info.params.flatMap ParamInfo.names, n ∉ soundingOwn) ∧
      g.infos.map (fun s => (s.row, s.col, s.id)) = [(0, 0, txt "KDEN")] ∧ partWord g.info g.bytes 0 1 1 ≠ 0 ∧
      (∀ s ∈ g.infos, ((g.unpackMerged s.row s.col >>= snObject asciiLower).toOption.map fun o => (o.vcoord, o.levels, o.vars)) =
        some (txt "pres", HVal.arr [0x447A0000, 0x44610000],
          [(txt "tmpc", HVal.arr [0x41A00000, 0x41200000]), (txt "sped", HVal.arr [0x40A00000, 0x40C00000])])))) = true := by
    decide +kernel
  have h0 : (openSounding .little levelsSample).toOption.isSome = true := by decide +kernel
  cases hg : openSounding .little levelsSample with
  | error e => rw [hg] at h0; cases h0
  | ok g =>
    rw [hg] at h
    have h := of_decide_eq_true h
    exact ⟨g, rfl, h.1, ⟨h.2.1.1, h.2.1.2.1, h.2.1.2.2.1, h.2.1.2.2.2⟩, ⟨h.2.2.1.1, h.2.2.1.2⟩, h.2.2.2.1, h.2.2.2.2.1, h.2.2.2.2.2⟩

example : asciiLower (txt "PRES") = txt "pres" ∧ asciiLower (txt "HGHT") = txt "hght" := by decide +kernel

end Gempak
