import Verif.Props.Parts
import Verif.Props.Calendar
import Verif.Props.DMOpen

/-!
# Any file: what its structure says is stored at documented places (C119)

Nothing is assumed about who wrote the file.  Words are counted from one, as GEMPAK does.
-/

namespace Gempak
open Spec

/-! ## Specification -/

/-- The bytes of word `n`. -/
def Spec.wordBytes (b : Bytes) (n : Nat) : Bytes := (b.drop (4 * (n - 1))).take 4

/-- Word `n` as an integer. -/
def Spec.intWord (e : Endian) (b : Bytes) (n : Nat) : Int :=
  if fileWord e b n < 2147483648 then fileWord e b n else (fileWord e b n : Int) - 4294967296

/-- Word `n` as a single precision number. -/
def Spec.floatWord (e : Endian) (b : Bytes) (n : Nat) : F32 := BitVec.ofNat 32 (fileWord e b n)

/-- Word `n` is the name `t`. -/
def Spec.NameAt (b : Bytes) (n : Nat) (t : Text) : Prop := decodeStrip (wordBytes b n) = .ok t

/-- The label of a file. -/
structure Spec.LabelAt (e : Endian) (b : Bytes) (l : Label) : Prop where
  version : l.version = intWord e b 8
  fileHeaders : l.fileHeaders = intWord e b 9
  fileKeysPtr : l.fileKeysPtr = intWord e b 10
  rows : l.rows = intWord e b 11
  rowKeys : l.rowKeys = intWord e b 12
  rowKeysPtr : l.rowKeysPtr = intWord e b 13
  rowHeadersPtr : l.rowHeadersPtr = intWord e b 14
  columns : l.columns = intWord e b 15
  columnKeys : l.columnKeys = intWord e b 16
  columnKeysPtr : l.columnKeysPtr = intWord e b 17
  columnHeadersPtr : l.columnHeadersPtr = intWord e b 18
  parts : l.parts = intWord e b 19
  partsPtr : l.partsPtr = intWord e b 20
  dataMgmtPtr : l.dataMgmtPtr = intWord e b 21
  dataMgmtLength : l.dataMgmtLength = intWord e b 22
  dataBlockPtr : l.dataBlockPtr = intWord e b 23
  fileType : l.fileType = intWord e b 24
  /-- Surface, sounding or grid file. -/
  kind : l.fileType = 1 ∨ l.fileType = 2 ∨ l.fileType = 3
  /-- The sources of GEMPAK are 0 to 7, 99, 100 and 102 to 105; others are shown as unknown (99). -/
  dataSource : l.dataSource = if 0 ≤ intWord e b 25 ∧ intWord e b 25 ≤ 7 ∨ intWord e b 25 = 100 ∨
    102 ≤ intWord e b 25 ∧ intWord e b 25 ≤ 105 then intWord e b 25 else 99
  machineType : l.machineType = intWord e b 26
  missingInt : l.missingInt = intWord e b 27
  missingFloat : l.missingFloat = floatWord e b 31

/-- `n` names from word `w` on. -/
def Spec.NamesAt (b : Bytes) (w n : Nat) (ts : List Text) : Prop :=
  ts.length = n ∧ ∀ (k : Nat) (t : Text), ts[k]? = some t → NameAt b (w + k) t

/-- Part `j` of `n`, described from word `w` on: the names of all parts, then the lengths of their record headers, their kinds of
data and their numbers of parameters. -/
structure Spec.PartAt (e : Endian) (b : Bytes) (w n j : Nat) (p : PartInfo) : Prop where
  name : NameAt b (w + j) p.name
  header : p.headerLength = intWord e b (w + n + j)
  type : p.dataType = intWord e b (w + 2 * n + j)
  known : 1 ≤ p.dataType ∧ p.dataType ≤ 5
  count : p.paramCount = intWord e b (w + 3 * n + j)

/-- Parameters of a part, `m` being those of the parts before and `t` those of all parts, described from word `w` on: the names of
all parameters, then their scales, their offsets and their numbers of bits. -/
structure Spec.ParamsAt (e : Endian) (b : Bytes) (w t m n : Nat) (a : ParamInfo) : Prop where
  names : NamesAt b (w + m) n a.names
  scale : a.scale = (List.range n).map fun k => intWord e b (w + t + m + k)
  offset : a.offset = (List.range n).map fun k => intWord e b (w + 2 * t + m + k)
  bits : a.bits = (List.range n).map fun k => intWord e b (w + 3 * t + m + k)

/-- Numbers of parameters of the parts. -/
def Spec.paramCounts (i : DMInfo) : List Nat := i.parts.map fun p => p.paramCount.toNat

/-- Navigation and analysis block of a grid file with `n` file headers, their keys from word `w` on: three words for every file
header, the size of the navigation block (256 words) and that block, the size of the analysis block (128 words) and that block, of
kind 1 or 2 or some other kind that is not looked at. -/
structure Spec.BlocksAt (e : Endian) (b : Bytes) (w n : Nat) (x : Blocks) : Prop where
  navSize : fileWord e b (w + 3 * n) = 256
  nav : x.nav = [.flt (floatWord e b (w + 3 * n + 1)), .str ((wordBytes b (w + 3 * n + 2)).take 3)] ++
    (List.range 11).map fun k => .flt (floatWord e b (w + 3 * n + 3 + k))
  anlSize : fileWord e b (w + 3 * n + 257) = 128
  anl : x.anl =
    if floatWord e b (w + 3 * n + 258) = 0x3F800000#32 then
      some (((List.range 4).map fun k => .flt (floatWord e b (w + 3 * n + 258 + k))) ++
        (List.range 12).map fun k => .flt (floatWord e b (w + 3 * n + 263 + k)))
    else if floatWord e b (w + 3 * n + 258) = 0x40000000#32 then
      some ((List.range 18).map fun k => .flt (floatWord e b (w + 3 * n + 258 + k)))
    else none

/-- All that a file says about its structure. -/
structure Spec.StructureAt (host : Endian) (b : Bytes) (i : DMInfo) : Prop where
  /-- The file begins with the name of the format. -/
  banner : b.take 28 = "GEMPAK DATA MANAGEMENT FILE ".toList.map fun c => UInt8.ofNat c.toNat
  /-- The byte order of the machine if the version then is one, otherwise the other one. -/
  order : i.order = if fileWord host b 8 = 1 then host else match host with | .little => .big | .big => .little
  label : LabelAt i.order b i.label
  noBlocks : i.label.fileHeaders ≤ 0 → i.blocks = none
  blocks : 0 < i.label.fileHeaders → ∃ x, i.blocks = some x ∧
    BlocksAt i.order b i.label.fileKeysPtr.toNat i.label.fileHeaders.toNat x
  rowKeys : NamesAt b i.label.rowKeysPtr.toNat i.label.rowKeys.toNat i.rowKeys
  columnKeys : NamesAt b i.label.columnKeysPtr.toNat i.label.columnKeys.toNat i.columnKeys
  parts : 1 ≤ i.label.parts ∧ i.parts.length = i.label.parts.toNat ∧ ∀ (j : Nat) (p : PartInfo), i.parts[j]? = some p →
    PartAt i.order b i.label.partsPtr.toNat i.label.parts.toNat j p
  params : i.params.length = i.parts.length ∧ ∀ (j : Nat) (a : ParamInfo), i.params[j]? = some a →
    ParamsAt i.order b (i.label.partsPtr.toNat + 4 * i.label.parts.toNat) (paramCounts i).sum ((paramCounts i).take j).sum
      ((paramCounts i).getD j 0) a

/-! ## Proof -/

theorem intWord_eq (e : Endian) (b : Bytes) (n : Nat) : toI32 (decNat e (wordBytes b n)) = intWord e b n := by
  unfold intWord wordBytes
  rw [← fileWord_eq]
  rfl

theorem floatWord_eq (e : Endian) (b : Bytes) (n : Nat) : BitVec.ofNat 32 (decNat e (wordBytes b n)) = floatWord e b n := by
  unfold floatWord wordBytes
  rw [← fileWord_eq]

theorem unpackFrom_inv {e : Endian} {fs : List Fmt} {b : Bytes} {p : Nat} {vs : List Val} (h : unpackFrom e fs b p = .ok vs) :
    vs = unpackItems e fs (b.drop p) ∧ p + fmtSize fs ≤ b.length := by
  unfold unpackFrom at h
  have hp : ¬ ((p : Int) < 0) := by omega
  simp only [if_neg hp, Int.toNat_natCast] at h
  split at h
  · rename_i hle
    exact ⟨(Except.ok.inj h).symm, hle⟩
  · cases h

theorem wtp' {w : Int} (h : 1 ≤ w) : wordToPosition w = ((4 * (w.toNat - 1) : Nat) : Int) := by
  unfold wordToPosition
  omega

/-- The bytes four at a time. -/
theorem wordBytes_drop (b : Bytes) {w k m : Nat} (h : m = 4 * (w - 1 + k)) (hw : 1 ≤ w) : (b.drop m).take 4 = wordBytes b (w + k) := by
  unfold wordBytes
  rw [show 4 * (w + k - 1) = m by omega]

theorem label_at {e : Endian} {b : Bytes} {l : Label} (h : unpackFrom e labelReadFmts b 28 >>= labelOf = .ok l) : LabelAt e b l := by
  obtain ⟨vs, h1, h2⟩ := bind_inv h
  obtain ⟨rfl, _⟩ := unpackFrom_inv (p := 28) h1
  have hz : unpackItems e labelReadFmts (b.drop 28) =
      (((List.range 20).map fun k => Val.int (intWord e b (8 + k))) ++ [.flt (floatWord e b 31)]) := by
    unfold labelReadFmts
    rw [show (List.replicate 20 Fmt.i32 ++ [.pad 12, .f32] : List Fmt) = List.replicate 20 Fmt.i32 ++ [.pad 12, .f32] from rfl,
      unpackItems_append, unpack_words e .i32 rfl (fun x => .int (toI32 (decNat e x))) (fun _ => rfl)]
    congr 1
    · apply List.map_congr_left
      intro k _
      rw [List.drop_drop, wordBytes_drop b (w := 8) (k := k) (by omega) (by omega), intWord_eq]
    · simp only [unpackItems, unpackOne, Fmt.size, List.nil_append, List.append_nil, List.drop_drop]
      rw [show fmtSize (List.replicate 20 Fmt.i32) = 80 by decide, wordBytes_drop b (w := 8) (k := 23) (by omega) (by omega), floatWord_eq]
  rw [hz] at h2
  simp only [show List.range 20 = [0, 1, 2, 3, 4, 5, 6, 7, 8, 9, 10, 11, 12, 13, 14, 15, 16, 17, 18, 19] from rfl, List.map_cons,
    List.map_nil, List.cons_append, List.nil_append, labelOf] at h2
  split at h2
  · rename_i hk
    obtain rfl := Except.ok.inj h2
    refine ⟨rfl, rfl, rfl, rfl, rfl, rfl, rfl, rfl, rfl, rfl, rfl, rfl, rfl, rfl, rfl, rfl, rfl, hk, ?_, rfl, rfl, rfl⟩
    dsimp only
    have hm : ∀ x : Int, (if x ∈ knownSources then x else 99) =
        if 0 ≤ x ∧ x ≤ 7 ∨ x = 100 ∨ 102 ≤ x ∧ x ≤ 105 then x else 99 := by
      intro x
      by_cases hx : x = 99
      · subst hx; decide
      · have : x ∈ knownSources ↔ 0 ≤ x ∧ x ≤ 7 ∨ x = 100 ∨ 102 ≤ x ∧ x ≤ 105 := by
          unfold knownSources
          simp only [List.mem_cons, List.not_mem_nil, or_false]
          omega
        by_cases h : x ∈ knownSources
        · rw [if_pos h, if_pos (this.1 h)]
        · rw [if_neg h, if_neg fun h' => h (this.2 h')]
    exact hm _
  · cases h2

theorem keys_at {e : Endian} {b : Bytes} {ptr n : Int} {ts : List Text} (hp : 1 ≤ ptr) (h : readKeys e b ptr n = .ok ts) :
    NamesAt b ptr.toNat n.toNat ts := by
  unfold readKeys at h
  obtain ⟨vs, h1, h2⟩ := bind_inv h
  rw [wtp' hp] at h1
  obtain ⟨rfl, _⟩ := unpackFrom_inv h1
  rw [unpack_words e (.str 4) rfl (fun x => .str x) (fun _ => rfl)] at h2
  have h3 := mapM_inv h2
  refine ⟨by rw [← h3.length_eq]; simp, ?_⟩
  intro k t ht
  obtain ⟨hk, ht⟩ := List.getElem?_eq_some_iff.1 ht
  have hk' : k < ((List.range n.toNat).map fun k => Val.str (((b.drop (4 * (ptr.toNat - 1))).drop (4 * k)).take 4)).length := by
    rw [h3.length_eq]; exact hk
  have h4 := h3.get hk' hk
  simp only [List.get_eq_getElem, List.getElem_map, List.getElem_range, List.drop_drop, ht] at h4
  rw [wordBytes_drop b (w := ptr.toNat) (k := k) (by omega) (by omega)] at h4
  exact h4

theorem parts_at {e : Endian} {b : Bytes} {ptr : Int} {n : Nat} (hp : 1 ≤ ptr) (hn : 1 ≤ n) : ∀ (k : Nat) (ps : List PartInfo), k ≤ n →
    readParts e b ptr n k = .ok ps →
    ps.length = k ∧ ∀ (j : Nat) (p : PartInfo), ps[j]? = some p → PartAt e b ptr.toNat n (n - k + j) p := by
  intro k
  induction k with
  | zero =>
    intro ps _ h
    obtain rfl := Except.ok.inj h
    exact ⟨rfl, fun j p hj => by cases hj⟩
  | succ k ih =>
    intro ps hk h
    unfold readParts at h
    obtain ⟨p, h1, h⟩ := bind_inv h
    obtain ⟨r, h2, h⟩ := bind_inv h
    obtain rfl := Except.ok.inj h
    obtain ⟨i1, i2⟩ := ih r (by omega) h2
    refine ⟨by rw [List.length_cons, i1], ?_⟩
    intro j p' hj
    rcases j with _ | j
    · obtain rfl := Option.some.inj hj
      obtain ⟨vs, h3, h4⟩ := bind_inv h1
      rw [show wordToPosition (ptr + ((n - (k + 1) : Nat) : Int)) = ((4 * (ptr.toNat - 1 + (n - (k + 1))) : Nat) : Int) by
        unfold wordToPosition; omega] at h3
      obtain ⟨rfl, _⟩ := unpackFrom_inv h3
      simp only [partFmts, unpackItems, unpackOne, Fmt.size, List.nil_append, List.append_nil, List.drop_drop, List.cons_append] at h4
      rw [wordBytes_drop b (w := ptr.toNat) (k := n - (k + 1)) (by omega) (by omega),
        wordBytes_drop b (w := ptr.toNat) (k := n + (n - (k + 1))) (by omega) (by omega),
        wordBytes_drop b (w := ptr.toNat) (k := 2 * n + (n - (k + 1))) (by omega) (by omega),
        wordBytes_drop b (w := ptr.toNat) (k := 3 * n + (n - (k + 1))) (by omega) (by omega), intWord_eq, intWord_eq, intWord_eq] at h4
      unfold partOf at h4
      obtain ⟨nm, h5, h6⟩ := bind_inv h4
      split at h6
      · rename_i ht
        obtain rfl := Except.ok.inj h6
        exact ⟨h5, congrArg (intWord e b) (by omega), congrArg (intWord e b) (by omega), ht, congrArg (intWord e b) (by omega)⟩
      · cases h6
    · have := i2 j p' hj
      rw [show n - (k + 1) + (j + 1) = n - k + j by omega]
      exact this

theorem many_at {α : Type} {rd : Int → Except PyErr α} : ∀ (n : Nat) (p : Int) (l : List α) (q : Int), readMany rd n p = .ok (l, q) →
    q = p + 4 * n ∧ l.length = n ∧ ∀ (k : Nat) (a : α), l[k]? = some a → rd (p + 4 * k) = .ok a := by
  intro n
  induction n with
  | zero =>
    intro p l q h
    obtain ⟨rfl, rfl⟩ := Prod.mk.inj (Except.ok.inj h)
    exact ⟨by simp, rfl, fun k a hk => by cases hk⟩
  | succ n ih =>
    intro p l q h
    unfold readMany at h
    obtain ⟨a, h1, h⟩ := bind_inv h
    obtain ⟨⟨r1, r2⟩, h2, h⟩ := bind_inv h
    obtain ⟨rfl, rfl⟩ := Prod.mk.inj (Except.ok.inj h)
    obtain ⟨i1, i2, i3⟩ := ih _ _ _ h2
    refine ⟨by dsimp only; rw [i1]; push_cast; omega, by rw [List.length_cons, i2], ?_⟩
    intro k a' hk
    rcases k with _ | k
    · obtain rfl := Option.some.inj hk
      rw [show p + 4 * ((0 : Nat) : Int) = p by omega]
      exact h1
    · have := i3 k a' hk
      rw [show p + 4 * ((k + 1 : Nat) : Int) = p + 4 + 4 * k by push_cast; omega]
      exact this

theorem perPart_at {α : Type} {rd : Int → Except PyErr α} : ∀ (ns : List Nat) (p : Int) (ls : List (List α)) (q : Int),
    readPerPart rd ns p = .ok (ls, q) →
    q = p + 4 * ns.sum ∧ ls.length = ns.length ∧ ∀ (j : Nat) (l : List α), ls[j]? = some l →
      l.length = ns.getD j 0 ∧ ∀ (k : Nat) (a : α), l[k]? = some a → rd (p + 4 * ((ns.take j).sum + k : Nat)) = .ok a := by
  intro ns
  induction ns with
  | nil =>
    intro p ls q h
    obtain ⟨rfl, rfl⟩ := Prod.mk.inj (Except.ok.inj h)
    exact ⟨by simp, rfl, fun k a hk => by cases hk⟩
  | cons n ns ih =>
    intro p ls q h
    unfold readPerPart at h
    obtain ⟨⟨a1, a2⟩, h1, h⟩ := bind_inv h
    obtain ⟨⟨r1, r2⟩, h2, h⟩ := bind_inv h
    obtain ⟨rfl, rfl⟩ := Prod.mk.inj (Except.ok.inj h)
    obtain ⟨m1, m2, m3⟩ := many_at _ _ _ _ h1
    obtain ⟨i1, i2, i3⟩ := ih _ _ _ h2
    dsimp only at i1 i2 i3 ⊢
    refine ⟨by rw [i1, m1, List.sum_cons]; push_cast; omega, by rw [List.length_cons, i2, List.length_cons], ?_⟩
    intro j l hj
    rcases j with _ | j
    · obtain rfl := Option.some.inj hj
      refine ⟨m2, fun k a hk => ?_⟩
      have := m3 k a hk
      rw [List.take_zero, List.sum_nil, Nat.zero_add]
      exact this
    · obtain ⟨j1, j2⟩ := i3 j l hj
      refine ⟨j1, fun k a hk => ?_⟩
      have := j2 k a hk
      rw [List.take_succ_cons, List.sum_cons, show p + 4 * ((n + (ns.take j).sum + k : Nat) : Int) = a2 + 4 * (((ns.take j).sum + k : Nat) : Int) by
        rw [m1]; push_cast; omega]
      exact this

theorem name_at {e : Endian} {b : Bytes} {w : Nat} (hw : 1 ≤ w) {k : Nat} {p : Int} {t : Text} (hp : p = (4 * (w - 1 + k) : Nat))
    (h : readName e b p = .ok t) : NameAt b (w + k) t := by
  unfold readName at h
  obtain ⟨vs, h1, h⟩ := bind_inv h
  rw [hp] at h1
  obtain ⟨rfl, _⟩ := unpackFrom_inv h1
  simp only [unpackItems, unpackOne, Fmt.size, List.append_nil] at h
  rw [wordBytes_drop b rfl hw] at h
  exact h

theorem int_at {e : Endian} {b : Bytes} {w : Nat} (hw : 1 ≤ w) {k : Nat} {p : Int} {t : Int} (hp : p = (4 * (w - 1 + k) : Nat))
    (h : readI e b p = .ok t) : t = intWord e b (w + k) := by
  unfold readI at h
  obtain ⟨vs, h1, h⟩ := bind_inv h
  rw [hp] at h1
  obtain ⟨rfl, _⟩ := unpackFrom_inv h1
  simp only [unpackItems, unpackOne, Fmt.size, List.append_nil] at h
  rw [wordBytes_drop b rfl hw, intWord_eq] at h
  exact (Except.ok.inj h).symm

theorem ints_at {e : Endian} {b : Bytes} {w m n : Nat} (hw : 1 ≤ w) {p : Int} {l : List Int} (hp : p = (4 * (w - 1) : Nat))
    (hl : l.length = n) (h : ∀ (k : Nat) (a : Int), l[k]? = some a → readI e b (p + 4 * (m + k : Nat)) = .ok a) :
    l = (List.range n).map fun k => intWord e b (w + m + k) := by
  apply List.ext_getElem?
  intro k
  rw [range_get]
  by_cases hk : k < n
  · rw [if_pos hk]
    obtain ⟨a, ha⟩ : ∃ a, l[k]? = some a := ⟨_, List.getElem?_eq_getElem (by omega)⟩
    rw [ha, int_at hw (k := m + k) (by rw [hp]; push_cast; omega) (h k a ha), Nat.add_assoc]
  · rw [if_neg hk, List.getElem?_eq_none (by omega)]

theorem zipParams_get : ∀ (a : List (List Text)) (b c d : List (List Int)), a.length = b.length → b.length = c.length → c.length = d.length →
    (zipParams a b c d).length = a.length ∧ ∀ (j : Nat) (p : ParamInfo), (zipParams a b c d)[j]? = some p →
      a[j]? = some p.names ∧ b[j]? = some p.scale ∧ c[j]? = some p.offset ∧ d[j]? = some p.bits
  | [], b, c, d, h1, h2, h3 => by
    obtain rfl : b = [] := List.length_eq_zero_iff.1 h1.symm
    exact ⟨rfl, fun j p h => by cases h⟩
  | x :: a, y :: b, z :: c, u :: d, h1, h2, h3 => by
    have ih := zipParams_get a b c d (by simpa using h1) (by simpa using h2) (by simpa using h3)
    refine ⟨by simp only [zipParams, List.length_cons, ih.1], ?_⟩
    intro j p h
    rcases j with _ | j
    · obtain rfl := Option.some.inj h
      exact ⟨rfl, rfl, rfl, rfl⟩
    · exact ih.2 j p h
  | _ :: _, [], _, _, h1, _, _ => by simp at h1
  | _ :: _, _ :: _, [], _, _, h2, _ => by simp at h2
  | _ :: _, _ :: _, _ :: _, [], _, _, h3 => by simp at h3

theorem params_at {e : Endian} {b : Bytes} {ptr : Int} {parts : List PartInfo} {l : List ParamInfo} (hp : 1 ≤ ptr)
    (h : readParams e b ptr parts = .ok l) : l.length = parts.length ∧ ∀ (j : Nat) (a : ParamInfo), l[j]? = some a →
      ParamsAt e b ptr.toNat (parts.map fun p => p.paramCount.toNat).sum ((parts.map fun p => p.paramCount.toNat).take j).sum
        ((parts.map fun p => p.paramCount.toNat).getD j 0) a := by
  unfold readParams at h
  dsimp only at h
  obtain ⟨⟨a1, a2⟩, h1, h⟩ := bind_inv h
  obtain ⟨⟨b1, b2⟩, h2, h⟩ := bind_inv h
  obtain ⟨⟨c1, c2⟩, h3, h⟩ := bind_inv h
  obtain ⟨⟨d1, d2⟩, h4, h⟩ := bind_inv h
  obtain rfl := Except.ok.inj h
  dsimp only at *
  generalize hns : (parts.map fun p => p.paramCount.toNat) = ns at *
  have hlen : ns.length = parts.length := by rw [← hns, List.length_map]
  obtain ⟨p1, p2, p3⟩ := perPart_at _ _ _ _ h1
  obtain ⟨q1, q2, q3⟩ := perPart_at _ _ _ _ h2
  obtain ⟨r1, r2, r3⟩ := perPart_at _ _ _ _ h3
  obtain ⟨s1, s2, s3⟩ := perPart_at _ _ _ _ h4
  have w1 := wtp' hp
  obtain ⟨z1, z2⟩ := zipParams_get a1 b1 c1 d1 (by omega) (by omega) (by omega)
  refine ⟨by omega, ?_⟩
  intro j a ha
  obtain ⟨y1, y2, y3, y4⟩ := z2 j a ha
  refine ⟨⟨(p3 j _ y1).1, ?_⟩, ?_, ?_, ?_⟩
  · intro k t ht
    have := (p3 j _ y1).2 k t ht
    rw [Nat.add_assoc]
    exact name_at (by omega) (by rw [w1]; push_cast; omega) this
  · exact ints_at (w := ptr.toNat + ns.sum) (by omega) (by rw [p1, w1]; omega) (q3 j _ y2).1 (q3 j _ y2).2
  · exact ints_at (w := ptr.toNat + 2 * ns.sum) (by omega) (by rw [q1, p1, w1]; omega) (r3 j _ y3).1 (r3 j _ y3).2
  · exact ints_at (w := ptr.toNat + 3 * ns.sum) (by omega) (by rw [r1, q1, p1, w1]; omega) (s3 j _ y4).1 (s3 j _ y4).2

theorem readWord_pos (e : Endian) (b : Bytes) {w : Nat} (hw : 1 ≤ w) {p : Int} (hp : p = (4 * (w - 1) : Nat)) :
    readWord e b p = (fileWord e b w : Nat) := by
  rw [← readWord_file e b hw]
  congr 1
  unfold wordToPosition
  omega

theorem floats_at (e : Endian) (b : Bytes) (n w : Nat) (hw : 1 ≤ w) {m : Nat} (hm : m = 4 * (w - 1)) :
    unpackItems e (List.replicate n Fmt.f32) (b.drop m) = (List.range n).map fun k => Val.flt (floatWord e b (w + k)) := by
  rw [unpack_words e .f32 rfl (fun x => .flt (BitVec.ofNat 32 (decNat e x))) (fun _ => rfl)]
  apply List.map_congr_left
  intro k _
  rw [List.drop_drop, wordBytes_drop b (w := w) (k := k) (by omega) hw, floatWord_eq]

theorem fmtSize_floats (n : Nat) : fmtSize (List.replicate n Fmt.f32) = 4 * n := by
  unfold fmtSize
  rw [List.map_replicate, List.sum_replicate]
  show n * 4 = 4 * n
  omega

theorem blocks_at {e : Endian} {b : Bytes} {l : Label} {x : Option Blocks} (hp : 1 ≤ l.fileKeysPtr) (h : readBlocks e b l = .ok x) :
    (l.fileHeaders ≤ 0 → x = none) ∧
      (0 < l.fileHeaders → ∃ y, x = some y ∧ BlocksAt e b l.fileKeysPtr.toNat l.fileHeaders.toNat y) := by
  unfold readBlocks at h
  by_cases hf : l.fileHeaders > 0
  swap
  · rw [if_neg hf] at h
    obtain rfl := Except.ok.inj h
    exact ⟨fun _ => rfl, fun h => absurd h hf⟩
  rw [if_pos hf] at h
  refine ⟨fun h => absurd hf (by omega), fun _ => ?_⟩
  dsimp only at h
  obtain ⟨keys, h1, h⟩ := bind_inv h
  generalize hn : l.fileHeaders.toNat = n at *
  generalize hw : l.fileKeysPtr.toNat = w at *
  have hw1 : 1 ≤ w := by omega
  have e1 : wordToPosition l.fileKeysPtr +
      (fmtSize (List.replicate n (Fmt.str 4) ++ List.replicate n Fmt.i32 ++ List.replicate n Fmt.i32) : Int) =
      ((4 * (w + 3 * n - 1) : Nat) : Int) := by
    have : fmtSize (List.replicate n (Fmt.str 4) ++ List.replicate n Fmt.i32 ++ List.replicate n Fmt.i32) = 12 * n := by
      unfold fmtSize
      simp only [List.map_append, List.map_replicate, List.sum_append, List.sum_replicate, Fmt.size, smul_eq_mul]
      omega
    rw [this]
    unfold wordToPosition
    omega
  rw [e1] at h
  clear e1
  split at h
  · cases h
  rename_i hs
  rw [readWord_pos e b (w := w + 3 * n) (by omega) rfl] at hs
  obtain ⟨nav, h2, h⟩ := bind_inv h
  rw [show ((4 * (w + 3 * n - 1) : Nat) : Int) + 4 = ((4 * (w + 3 * n) : Nat) : Int) by omega] at h h2
  obtain ⟨hnav, _⟩ := unpackFrom_inv h2
  split at h
  · cases h
  have e2 : ((4 * (w + 3 * n) : Nat) : Int) + (fmtSize navReadFmts : Int) = ((4 * (w + 3 * n + 256) : Nat) : Int) := by
    rw [show fmtSize navReadFmts = 1024 by decide]
    push_cast
    omega
  rw [e2] at h
  split at h
  · cases h
  rename_i _ ha
  rw [readWord_pos e b (w := w + 3 * n + 257) (by omega) (by omega)] at ha
  rw [show ((4 * (w + 3 * n + 256) : Nat) : Int) + 4 = ((4 * (w + 3 * n + 257) : Nat) : Int) by omega] at h
  obtain ⟨ts, h3, h⟩ := bind_inv h
  obtain ⟨ht, _⟩ := unpackFrom_inv h3
  have ht : ts = [.flt (floatWord e b (w + 3 * n + 258))] := by
    rw [ht, show [Fmt.f32] = List.replicate 1 Fmt.f32 from rfl, floats_at e b 1 (w + 3 * n + 258) (by omega) (by omega)]
    rfl
  subst ht
  dsimp only at h
  have hnav : nav = [.flt (floatWord e b (w + 3 * n + 1)), .str ((wordBytes b (w + 3 * n + 2)).take 3)] ++
      (List.range 11).map fun k => .flt (floatWord e b (w + 3 * n + 3 + k)) := by
    rw [hnav]
    unfold navReadFmts
    rw [unpackItems_append, unpackItems_append]
    have z0 : fmtSize ([Fmt.f32, .str 3, .pad 1] : List Fmt) = 8 := by decide
    have z1 : fmtSize ([Fmt.f32, .str 3, .pad 1] ++ List.replicate 11 Fmt.f32 : List Fmt) = 52 := by decide
    rw [z0, List.drop_drop, floats_at e b 11 (w + 3 * n + 3) (by omega) (by omega)]
    simp only [unpackItems, unpackOne, Fmt.size, List.append_nil, List.drop_drop, List.cons_append, List.nil_append]
    rw [wordBytes_drop b (w := w) (k := 3 * n + 1) (by omega) hw1, floatWord_eq]
    have : ((b.drop (4 * (w + 3 * n) + 4)).take 3) = (wordBytes b (w + 3 * n + 2)).take 3 := by
      unfold wordBytes
      rw [List.take_take, show 4 * (w + 3 * n + 2 - 1) = 4 * (w + 3 * n) + 4 by omega]
      rfl
    rw [this, show w + (3 * n + 1) = w + 3 * n + 1 by omega]
  have done : ∀ a, BlocksAt e b w n ⟨keys, nav, a⟩ ↔ a =
      if floatWord e b (w + 3 * n + 258) = 0x3F800000#32 then
        some (((List.range 4).map fun k => .flt (floatWord e b (w + 3 * n + 258 + k))) ++
          (List.range 12).map fun k => .flt (floatWord e b (w + 3 * n + 263 + k)))
      else if floatWord e b (w + 3 * n + 258) = 0x40000000#32 then
        some ((List.range 18).map fun k => .flt (floatWord e b (w + 3 * n + 258 + k)))
      else none :=
    fun a => ⟨fun h => h.anl, fun h => ⟨by omega, hnav, by omega, h⟩⟩
  by_cases k1 : floatWord e b (w + 3 * n + 258) = 0x3F800000#32
  · rw [if_pos k1] at h
    obtain ⟨vs, h4, h⟩ := bind_inv h
    obtain rfl := Except.ok.inj h
    obtain ⟨rfl, _⟩ := unpackFrom_inv h4
    refine ⟨_, rfl, (done _).2 ?_⟩
    rw [if_pos k1]
    congr 1
    unfold anl1ReadFmts
    rw [unpackItems_append, unpackItems_append, unpackItems_append, floats_at e b 4 (w + 3 * n + 258) (by omega) (by omega)]
    have z1 : fmtSize (List.replicate 4 Fmt.f32 ++ [.pad 4] : List Fmt) = 20 := by decide
    rw [z1]
    simp only [List.drop_drop]
    rw [floats_at e b 12 (w + 3 * n + 263) (by omega) (by omega)]
    simp only [unpackItems, unpackOne, List.append_nil]
  · rw [if_neg k1] at h
    by_cases k2 : floatWord e b (w + 3 * n + 258) = 0x40000000#32
    · rw [if_pos k2] at h
      obtain ⟨vs, h4, h⟩ := bind_inv h
      obtain rfl := Except.ok.inj h
      obtain ⟨rfl, _⟩ := unpackFrom_inv h4
      refine ⟨_, rfl, (done _).2 ?_⟩
      rw [if_neg k1, if_pos k2]
      congr 1
      unfold anl2ReadFmts
      rw [unpackItems_append, floats_at e b 18 (w + 3 * n + 258) (by omega) (by omega)]
      simp only [unpackItems, unpackOne, List.append_nil]
    · rw [if_neg k2] at h
      obtain rfl := Except.ok.inj h
      exact ⟨_, rfl, (done _).2 (by rw [if_neg k1, if_neg k2])⟩

/-- The tables of a file lie in the file: pointers count from one. -/
structure Spec.Placed (l : Label) : Prop where
  fileKeys : 1 ≤ l.fileKeysPtr
  rowKeys : 1 ≤ l.rowKeysPtr
  columnKeys : 1 ≤ l.columnKeysPtr
  parts : 1 ≤ l.partsPtr

theorem order_at {host : Endian} {b : Bytes} (hl : 32 ≤ b.length) :
    readOrder host b = if fileWord host b 8 = 1 then host else match host with | .little => .big | .big => .little := by
  unfold readOrder
  have h1 : pySlice b 28 32 = (b.drop 28).take 4 := pySlice_nat b 28 32 (by omega)
  have h2 : fileWord host b 8 = decNat host ((b.drop 28).take 4) := fileWord_eq host b 8
  have hlen : ((b.drop 28).take 4).length = 4 := by rw [List.length_take, List.length_drop]; omega
  rw [h1, h2]
  have : (b.drop 28).take 4 = encNat host 4 1 ↔ decNat host ((b.drop 28).take 4) = 1 := by
    constructor
    · intro h
      rw [h, decNat_encNat]
    · intro h
      have := encNat_decNat host ((b.drop 28).take 4)
      rw [hlen, h] at this
      exact this.symm
  by_cases h : decNat host ((b.drop 28).take 4) = 1
  · rw [if_pos h, if_pos (this.2 h)]
  · rw [if_neg h, if_neg fun h' => h (this.1 h')]
    cases host <;> rfl

/-- **C119**: whoever wrote a file, what a reader says about its structure is stored at the documented words. -/
theorem C119_structure (host : Endian) (b : Bytes) (i : DMInfo) (h : readDM host b = .ok i) (hp : Placed i.label) :
    StructureAt host b i := by
  obtain ⟨_, h2, h3, h4, _, h6, h7, h8, h9, h10⟩ := readDM_inv h
  have hlen : 32 ≤ b.length := by
    obtain ⟨vs, h1, _⟩ := bind_inv h3
    have := (unpackFrom_inv (p := 28) h1).2
    rw [show fmtSize labelReadFmts = 96 by decide] at this
    omega
  obtain ⟨p1, p2⟩ := parts_at hp.parts (by omega) i.label.parts.toNat i.parts (le_refl _) h9
  have hq := hp.parts
  obtain ⟨q1, q2⟩ := params_at (by omega) h10
  obtain ⟨b1, b2⟩ := blocks_at hp.fileKeys h4
  refine ⟨?_, ?_, label_at h3, b1, b2, keys_at hp.rowKeys h6, keys_at hp.columnKeys h7, ⟨by omega, p1, ?_⟩, q1, ?_⟩
  · rw [C21_banner host b i h]
    decide +kernel
  · rw [h2, order_at hlen]
  · intro j p hj
    have := p2 j p hj
    rwa [Nat.sub_self, Nat.zero_add] at this
  · intro j a ha
    have := q2 j a ha
    rw [show (i.label.partsPtr + i.label.parts * 4).toNat = i.label.partsPtr.toNat + 4 * i.label.parts.toNat by omega] at this
    exact this

end Gempak
