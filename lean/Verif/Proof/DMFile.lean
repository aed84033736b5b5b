import Verif.Proof.DMRead
import Verif.Spec.DM

/-! Consequences for opened files. -/

namespace Gempak
open Spec

theorem stored_eq (v : Val) : stored v = canonW v := by cases v <;> rfl

theorem HoldsW.wordsAt {e : Endian} {b : Bytes} {w : Nat} {ws : List Val} (hw : 1 ≤ w) (h : HoldsW e b w ws) :
    WordsAt e b w ws := by
  by_cases hne : ws = []
  · exact Or.inl hne
  · right
    have h1 := h.read hw hne
    unfold wordToPosition at h1
    rw [h1]
    congr 1
    exact List.map_congr_left (fun v _ => (stored_eq v).symm)

/-- Opening, step by step. -/
theorem readDM_inv {host : Endian} {b : Bytes} {i : DMInfo} (h : readDM host b = .ok i) :
    readBanner b = .ok () ∧ i.order = readOrder host b ∧
    (unpackFrom i.order labelReadFmts b 28 >>= labelOf) = .ok i.label ∧
    readBlocks i.order b i.label = .ok i.blocks ∧
    unpackFrom i.order (List.replicate 32 .i32) b (wordToPosition i.label.dataMgmtPtr) = .ok i.dataMgmt ∧
    readKeys i.order b i.label.rowKeysPtr i.label.rowKeys = .ok i.rowKeys ∧
    readKeys i.order b i.label.columnKeysPtr i.label.columnKeys = .ok i.columnKeys ∧
    ¬ i.label.parts < 1 ∧
    readParts i.order b i.label.partsPtr i.label.parts.toNat i.label.parts.toNat = .ok i.parts ∧
    readParams i.order b (i.label.partsPtr + i.label.parts * 4) i.parts = .ok i.params := by
  unfold readDM at h
  dsimp only at h
  obtain ⟨u, h1, k1⟩ := Except.bind_ok h
  obtain ⟨l, h2, k2⟩ := Except.bind_ok k1
  obtain ⟨bl, h3, k3⟩ := Except.bind_ok k2
  obtain ⟨dm, h4, k4⟩ := Except.bind_ok k3
  obtain ⟨rk, h5, k5⟩ := Except.bind_ok k4
  obtain ⟨ck, h6, k6⟩ := Except.bind_ok k5
  by_cases hp : l.parts < 1
  · rw [if_pos hp] at k6; cases k6
  · rw [if_neg hp] at k6
    obtain ⟨ps, h7, k7⟩ := Except.bind_ok k6
    obtain ⟨pr, h8, k8⟩ := Except.bind_ok k7
    simp only [Except.ok.injEq] at k8
    subst k8
    exact ⟨h1, rfl, h2, h3, h4, h5, h6, hp, h7, h8⟩

/-- File headers are those of surface and sounding files (none) or of grid files. -/
def DMFile.Blocky (f : DMFile) : Prop :=
  (f.fileHeaders = [] ∨ ∃ proj nav anl, f.fileHeaders = gridFileHeaders ∧ f.fileBody = gridFileBody proj nav anl ∧
    nav.length = 11 ∧ anl.length = 17 ∧ (utf8Dec ((utf8 (ljust 4 proj)).take 3)).isSome)

theorem Head.open {e : Endian} {f : DMFile} {b : Bytes} (h : Head e f b) (wf : f.WF) (rd : f.Readable) (bl : f.Blocky) :
    ∃ blocks, ∀ host, readDM host b = .ok (expectedInfo e f blocks) := by
  rcases bl with hn | ⟨proj, nav, anl, h1, h2, h3, h4, h5⟩
  · exact ⟨none, fun host => readDM_spec host wf rd h (readBlocks_none hn)⟩
  · exact ⟨_, fun host => readDM_spec host wf rd h (readBlocks_grid h h1 h2 h3 h4 h5)⟩

theorem HoldsV.take {e : Endian} {b : Bytes} {p n : Nat} {fs : List Fmt} {vs : List Val} (h : HoldsV e b p fs vs)
    (hn : p + fmtSize fs ≤ n) : HoldsV e (b.take n) p fs vs := by
  obtain ⟨bs, hp, hh⟩ := h
  have hl := packFmts_length hp
  refine ⟨bs, hp, fun i hi => ?_⟩
  rw [List.getElem?_take, if_pos (by omega), hh i hi]

theorem HoldsW.take {e : Endian} {b : Bytes} {w n : Nat} {ws : List Val} (hw : 1 ≤ w) (h : HoldsW e b w ws)
    (hn : (w + ws.length) * 4 - 4 ≤ n) : HoldsW e (b.take n) w ws :=
  HoldsV.take h (by rw [fmtSize_words]; omega)

theorem HoldsS.take {e : Endian} {b : Bytes} {p n : Nat} {r : List (List Fmt × List Val)} (h : HoldsS e b p r)
    (hn : p + bodySize r ≤ n) : HoldsS e (b.take n) p r := by
  induction r generalizing p with
  | nil => trivial
  | cons x r ih =>
    obtain ⟨fs, vs⟩ := x
    have hb : bodySize ((fs, vs) :: r) = fmtSize fs + bodySize r := by simp [bodySize]
    exact ⟨h.1.take (by omega), ih h.2 (by omega)⟩

theorem headerWords_length {vss : List (List Val)} {n k : Nat} (hk : ∀ vs ∈ vss, vs.length = k) (hn : vss.length ≤ n) :
    (usedWords vss ++ List.replicate ((n - vss.length) * (k + 1)) (Val.int (-9999))).length = n * (k + 1) := by
  rw [List.length_append, List.length_replicate, usedWords_length hk, ← Nat.add_mul, Nat.add_sub_cancel' hn]

/-- Cutting a file behind the structures keeps them. -/
theorem Head.take {e : Endian} {f : DMFile} {b : Bytes} (h : Head e f b) (wf : f.WF) (n : Nat)
    (hn : (setPointers f).parts * 4 - 4 + 4 * (partWords f).length ≤ n) : Head e f (b.take n) := by
  have L := setPointers_layout f
  have l1 := L.rowKeys
  have l2 := L.columnKeys
  have l3 := L.fileKeys
  have l4 := L.fileEnd
  have l5 := L.columnHeaders
  have l6 := L.columnEnd
  have hb := wf.body
  have hfl := fileKeyWords_length f
  generalize (f.fileHeaders.map fun h => h.length + 1).sum = lenfil at *
  obtain ⟨rv, r1, r2, r3⟩ := h.rowHeaders
  obtain ⟨cv, c1, c2, c3⟩ := h.columnHeaders
  have hrv : rv.length ≤ f.rows := by have := wf.rowCount; rw [r1] at this; simpa using this
  have hcv : cv.length ≤ f.columns := by have := wf.columnCount; rw [c1] at this; simpa using this
  refine ⟨h.label.take (by rw [labelFmts_size]; omega), h.rowKeys.take (by omega) (by rw [List.length_map]; omega),
    h.columnKeys.take (by omega) (by rw [List.length_map]; omega), fun hne => ⟨(h.fileKeys hne).1.take (by omega) (by omega),
    (h.fileKeys hne).2.take (by omega)⟩, h.parts.take (by omega) (by omega),
    ⟨rv, r1, r2, r3.take (by omega) (by rw [headerWords_length r2 hrv]; omega)⟩,
    ⟨cv, c1, c2, c3.take (by omega) (by rw [headerWords_length c2 hcv]; omega)⟩,
    h.dataMgmt.take (by rw [dataMgmtFmts_size]; omega)⟩

/-! ## Prefixes -/

theorem unpackFrom_ok {e : Endian} {fs : List Fmt} {b : Bytes} {off : Int} {vs : List Val} (h0 : 0 ≤ off)
    (h : unpackFrom e fs b off = .ok vs) : off.toNat + fmtSize fs ≤ b.length ∧ vs = unpackItems e fs (b.drop off.toNat) := by
  unfold unpackFrom at h
  have h1 : ¬ (off < 0) := by omega
  simp only [h1, if_false] at h
  by_cases h2 : off.toNat + fmtSize fs ≤ b.length
  · rw [if_pos h2] at h
    injection h with h
    exact ⟨h2, h.symm⟩
  · rw [if_neg h2] at h; cases h

theorem unpackItems_prefix (e : Endian) (fs : List Fmt) (b c : Bytes) (h : fmtSize fs ≤ b.length) :
    unpackItems e fs (b ++ c) = unpackItems e fs b := by
  rw [← unpackItems_take, List.take_append_of_le_length h, unpackItems_take]

/-- A structure read from a prefix is the structure of the whole. -/
theorem unpackFrom_take {e : Endian} {fs : List Fmt} {b : Bytes} {off : Int} {n : Nat} {vs : List Val} (h0 : 0 ≤ off)
    (h : unpackFrom e fs (b.take n) off = .ok vs) : unpackFrom e fs b off = .ok vs := by
  obtain ⟨h1, h2⟩ := unpackFrom_ok h0 h
  have hl : (b.take n).length ≤ b.length := by simp
  have e1 : off = ((off.toNat : Nat) : Int) := by omega
  rw [e1, unpackFrom_nat _ _ _ _ (by omega), h2]
  congr 1
  have e2 : b.drop off.toNat = (b.take n).drop off.toNat ++ (b.drop n) := by
    rw [List.length_take] at h1
    conv_lhs => rw [← List.take_append_drop n b]
    rw [List.drop_append_of_le_length (by rw [List.length_take]; omega)]
  rw [e2, unpackItems_prefix _ _ _ _ (by rw [List.length_drop]; omega)]

theorem readWord_take {e : Endian} {b : Bytes} {n : Nat} {p : Int} (h0 : 0 ≤ p) (h : p + 4 ≤ (b.take n).length) :
    readWord e (b.take n) p = readWord e b p := by
  unfold readWord
  have e1 : p = ((p.toNat : Nat) : Int) := by omega
  have e2 : p + 4 = ((p.toNat + 4 : Nat) : Int) := by omega
  rw [e2, e1]
  simp only [Int.toNat_natCast]
  rw [pySlice_nat _ _ _ (by omega), pySlice_nat _ _ _ (by omega)]
  congr 1
  rw [List.drop_take, List.take_take]
  congr 1
  rw [List.length_take] at h
  omega

theorem utf8Dec_banner {b : Bytes} (h : utf8Dec b = some (txt "GEMPAK DATA MANAGEMENT FILE ")) : b = banner :=
  (utf8Dec_some b.length b _ (Nat.le_refl _) h).symm

theorem readBanner_take {b : Bytes} {n : Nat} (h : readBanner (b.take n) = .ok ()) : readBanner b = .ok () ∧ 28 ≤ min n b.length := by
  unfold readBanner at h ⊢
  by_cases hl : (b.take n).length < 28
  · rw [if_pos hl] at h; cases h
  · rw [if_neg hl] at h
    rw [List.length_take] at hl
    rw [List.take_take, Nat.min_eq_left (by omega)] at h
    rw [if_neg (by omega)]
    exact ⟨h, by omega⟩

theorem readParts_take {e : Endian} {b : Bytes} {n : Nat} {ptr : Int} (h0 : 1 ≤ ptr) {total : Nat} (k : Nat) {ps : List PartInfo}
    (h : readParts e (b.take n) ptr total k = .ok ps) : readParts e b ptr total k = .ok ps := by
  induction k generalizing ps with
  | zero => exact h
  | succ k ih =>
    simp only [readParts] at h ⊢
    obtain ⟨p, h1, h2⟩ := Except.bind_ok h
    obtain ⟨vs, h3, h4⟩ := Except.bind_ok h1
    obtain ⟨q, h5, h6⟩ := Except.bind_ok h2
    rw [unpackFrom_take (by unfold wordToPosition; omega) h3, ok_bind, h4, ok_bind, ih h5, ok_bind]
    exact h6

theorem readMany_take {α : Type} {rd rd' : Int → Except PyErr α} (hrd : ∀ p a, 0 ≤ p → rd p = .ok a → rd' p = .ok a)
    (k : Nat) (p : Int) (h0 : 0 ≤ p) (r : List α × Int) (h : readMany rd k p = .ok r) :
    readMany rd' k p = .ok r ∧ r.2 = p + 4 * k := by
  induction k generalizing p r with
  | zero => simp only [readMany, Except.ok.injEq] at h; subst h; exact ⟨rfl, by simp⟩
  | succ k ih =>
    simp only [readMany] at h ⊢
    obtain ⟨a, h1, h2⟩ := Except.bind_ok h
    obtain ⟨q, h3, h4⟩ := Except.bind_ok h2
    obtain ⟨h5, h6⟩ := ih (p + 4) (by omega) q h3
    simp only [Except.ok.injEq] at h4
    rw [hrd p a h0 h1, ok_bind, h5, ok_bind]
    subst h4
    exact ⟨rfl, by dsimp only; omega⟩

theorem readPerPart_take {α : Type} {rd rd' : Int → Except PyErr α} (hrd : ∀ p a, 0 ≤ p → rd p = .ok a → rd' p = .ok a)
    (ks : List Nat) (p : Int) (h0 : 0 ≤ p) (r : List (List α) × Int) (h : readPerPart rd ks p = .ok r) :
    readPerPart rd' ks p = .ok r ∧ 0 ≤ r.2 := by
  induction ks generalizing p r with
  | nil => simp only [readPerPart, Except.ok.injEq] at h; subst h; exact ⟨rfl, h0⟩
  | cons k ks ih =>
    simp only [readPerPart] at h ⊢
    obtain ⟨a, h1, h2⟩ := Except.bind_ok h
    obtain ⟨q, h3, h4⟩ := Except.bind_ok h2
    obtain ⟨g1, g2⟩ := readMany_take hrd k p h0 a h1
    obtain ⟨h5, h6⟩ := ih a.2 (by omega) q h3
    simp only [Except.ok.injEq] at h4
    rw [g1, ok_bind, h5, ok_bind]
    subst h4
    exact ⟨rfl, h6⟩

theorem readName_take {e : Endian} {b : Bytes} {n : Nat} (p : Int) (a : Text) (h0 : 0 ≤ p)
    (h : readName e (b.take n) p = .ok a) : readName e b p = .ok a := by
  unfold readName at h ⊢
  obtain ⟨vs, h1, h2⟩ := Except.bind_ok h
  rw [unpackFrom_take h0 h1, ok_bind]
  exact h2

theorem readI_take {e : Endian} {b : Bytes} {n : Nat} (p : Int) (a : Int) (h0 : 0 ≤ p)
    (h : readI e (b.take n) p = .ok a) : readI e b p = .ok a := by
  unfold readI at h ⊢
  obtain ⟨vs, h1, h2⟩ := Except.bind_ok h
  rw [unpackFrom_take h0 h1, ok_bind]
  exact h2

theorem readParams_take {e : Endian} {b : Bytes} {n : Nat} {ptr : Int} (h0 : 1 ≤ ptr) {ps : List PartInfo}
    {r : List ParamInfo} (h : readParams e (b.take n) ptr ps = .ok r) : readParams e b ptr ps = .ok r := by
  unfold readParams at h ⊢
  dsimp only at h ⊢
  obtain ⟨a1, h1, k1⟩ := Except.bind_ok h
  obtain ⟨a2, h2, k2⟩ := Except.bind_ok k1
  obtain ⟨a3, h3, k3⟩ := Except.bind_ok k2
  obtain ⟨a4, h4, k4⟩ := Except.bind_ok k3
  obtain ⟨g1, p1⟩ := readPerPart_take (rd' := readName e b) (fun p a => readName_take p a) _ _
    (by unfold wordToPosition; omega) _ h1
  obtain ⟨g2, p2⟩ := readPerPart_take (rd' := readI e b) (fun p a => readI_take p a) _ _ p1 _ h2
  obtain ⟨g3, p3⟩ := readPerPart_take (rd' := readI e b) (fun p a => readI_take p a) _ _ p2 _ h3
  obtain ⟨g4, p4⟩ := readPerPart_take (rd' := readI e b) (fun p a => readI_take p a) _ _ p3 _ h4
  rw [g1, ok_bind, g2, ok_bind, g3, ok_bind, g4, ok_bind]
  exact k4

theorem readKeys_take {e : Endian} {b : Bytes} {n : Nat} {ptr m : Int} (h0 : 1 ≤ ptr) {r : List Text}
    (h : readKeys e (b.take n) ptr m = .ok r) : readKeys e b ptr m = .ok r := by
  unfold readKeys at h ⊢
  obtain ⟨vs, h1, h2⟩ := Except.bind_ok h
  rw [unpackFrom_take (by unfold wordToPosition; omega) h1, ok_bind]
  exact h2

theorem readBlocks_take {e : Endian} {b : Bytes} {n : Nat} {l : Label} (h0 : 1 ≤ l.fileKeysPtr) {r : Option Blocks}
    (h : readBlocks e (b.take n) l = .ok r) : readBlocks e b l = .ok r := by
  unfold readBlocks at h ⊢
  by_cases hf : l.fileHeaders > 0
  · rw [if_pos hf] at h ⊢
    dsimp only at h ⊢
    obtain ⟨ks, h1, h2⟩ := Except.bind_ok h
    clear h
    have hp : 0 ≤ wordToPosition l.fileKeysPtr := by unfold wordToPosition; omega
    generalize hfk : (List.replicate l.fileHeaders.toNat (Fmt.str 4) ++ List.replicate l.fileHeaders.toNat Fmt.i32 ++
      List.replicate l.fileHeaders.toNat Fmt.i32) = fk at *
    generalize hP : wordToPosition l.fileKeysPtr + (fmtSize fk : Int) = P at *
    have hP0 : 0 ≤ P := by omega
    rw [unpackFrom_take hp h1, ok_bind]
    by_cases hw : readWord e (b.take n) P ≠ 256
    · rw [if_pos hw] at h2; cases h2
    · rw [if_neg hw] at h2
      obtain ⟨nav, h3, h4⟩ := Except.bind_ok h2
      have c4 : fmtSize navReadFmts = 1024 := by decide +kernel
      have hl := (unpackFrom_ok (by omega) h3).1
      rw [c4] at hl
      rw [readWord_take hP0 (by omega)] at hw
      rw [if_neg hw, unpackFrom_take (by omega) h3, ok_bind]
      by_cases hd : ¬ navDecodable nav = true
      · rw [if_pos hd] at h4; cases h4
      · rw [if_neg hd] at h4 ⊢
        rw [c4] at h4 ⊢
        by_cases hw2 : readWord e (b.take n) (P + 4 + ((1024 : Nat) : Int)) ≠ 128
        · rw [if_pos hw2] at h4; cases h4
        · rw [if_neg hw2] at h4
          obtain ⟨vs, h5, h6⟩ := Except.bind_ok h4
          have hl5 := (unpackFrom_ok (by omega) h5).1
          have c5 : fmtSize [Fmt.f32] = 4 := rfl
          rw [c5] at hl5
          rw [readWord_take (by omega) (by omega)] at hw2
          rw [if_neg hw2, unpackFrom_take (by omega) h5, ok_bind]
          split at h6
          · rename_i t
            by_cases t1 : t = 0x3F800000#32
            · rw [if_pos t1] at h6 ⊢
              obtain ⟨a, h7, h8⟩ := Except.bind_ok h6
              rw [unpackFrom_take (by omega) h7, ok_bind]
              exact h8
            · rw [if_neg t1] at h6 ⊢
              by_cases t2 : t = 0x40000000#32
              · rw [if_pos t2] at h6 ⊢
                obtain ⟨a, h7, h8⟩ := Except.bind_ok h6
                rw [unpackFrom_take (by omega) h7, ok_bind]
                exact h8
              · rw [if_neg t2] at h6 ⊢
                exact h6
          · cases h6
  · rw [if_neg hf] at h ⊢
    exact h

/-- Pointers of a label that point into the file. -/
structure GoodPointers (l : Label) : Prop where
  fileKeys : 1 ≤ l.fileKeysPtr
  rowKeys : 1 ≤ l.rowKeysPtr
  columnKeys : 1 ≤ l.columnKeysPtr
  parts : 1 ≤ l.partsPtr
  dataMgmt : 1 ≤ l.dataMgmtPtr

/-- What opening a truncated file gives is what opening the whole gives. -/
theorem readDM_take {host : Endian} {b : Bytes} {n : Nat} {i : DMInfo} (h : readDM host (b.take n) = .ok i)
    (g : GoodPointers i.label) : readDM host b = .ok i := by
  obtain ⟨h1, h2, h3, h4, h5, h6, h7, h8, h9, h10⟩ := readDM_inv h
  obtain ⟨b1, b2⟩ := readBanner_take h1
  obtain ⟨lv, h31, h32⟩ := Except.bind_ok h3
  have hl := (unpackFrom_ok (by omega) h31).1
  have c4 : fmtSize labelReadFmts = 96 := by decide +kernel
  rw [c4] at hl
  have horder : readOrder host b = i.order := by
    rw [h2]
    unfold readOrder
    have e1 : pySlice b 28 32 = (b.drop 28).take 4 := pySlice_nat b 28 32 (by omega)
    have e2 : pySlice (b.take n) 28 32 = ((b.take n).drop 28).take 4 := pySlice_nat _ 28 32 (by omega)
    rw [e1, e2, List.drop_take, List.take_take]
    have : min 4 (n - 28) = 4 := by
      rw [List.length_take] at hl
      have : (28 : Int).toNat = 28 := rfl
      omega
    rw [this]
  unfold readDM
  dsimp only
  rw [b1, ok_bind, horder, unpackFrom_take (by omega) h31, ok_bind, h32, ok_bind, readBlocks_take g.fileKeys h4, ok_bind,
    unpackFrom_take (by unfold wordToPosition; have := g.dataMgmt; omega) h5, ok_bind, readKeys_take g.rowKeys h6, ok_bind,
    readKeys_take g.columnKeys h7, ok_bind, if_neg h8, readParts_take g.parts _ h9, ok_bind,
    readParams_take (by have := g.parts; omega) h10, ok_bind]

end Gempak
