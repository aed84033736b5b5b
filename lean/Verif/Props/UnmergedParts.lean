import Verif.Props.Parts

/-!
# C94: the parts of an unmerged sounding

For every unmerged sounding file: the parts that are merged are those of the cell that have data, and their columns are the words of
their records.
-/

namespace Gempak
open Spec

/-- A column of a part: numbers for each level, or the text of a part of text. -/
def Spec.UnmergedHolds (e : Endian) (b : Bytes) (part : PartInfo) (params : ParamInfo) (ptr hdr k : Nat) (v : HVal) : Prop :=
  ColumnHolds e b part params ptr hdr k v ∨ part.dataType = 3 ∧ PartHolds e b part params ptr hdr k v

/-- Names that can be told from each other: those of the parts, and those of the parameters of a part. -/
structure Spec.NamesApart (i : DMInfo) : Prop where
  parts : (i.parts.map PartInfo.name).Nodup
  params : ∀ a ∈ i.params, a.names.Nodup

theorem unmergedParts_other {i : DMInfo} {b : Bytes} {irow icol : Nat} {l : List (PartInfo × ParamInfo)} {k : Nat}
    {acc ps : List (Text × List (Text × HVal))} (h : unmergedParts i b irow icol l k acc = .ok ps) (n : Text)
    (hn : n ∉ l.map fun x => x.1.name) : dictGet ps n = dictGet acc n := by
  induction l generalizing k acc with
  | nil => rw [← Except.ok.inj h]
  | cons pa l ih =>
    obtain ⟨p, a⟩ := pa
    rw [List.map_cons, List.mem_cons, not_or] at hn
    rw [unmergedParts] at h
    split at h
    · exact ih h hn.2
    · obtain ⟨x, _, h⟩ := bind_inv h
      rw [ih h hn.2, dictGet_dictSet, if_neg hn.1]

theorem unmergedParts_inv {i : DMInfo} {b : Bytes} {irow icol : Nat} {l : List (PartInfo × ParamInfo)} {k : Nat}
    {acc ps : List (Text × List (Text × HVal))} (h : unmergedParts i b irow icol l k acc = .ok ps) (hn : (l.map fun x => x.1.name).Nodup) (j : Nat)
    (p : PartInfo) (a : ParamInfo) (hj : l[j]? = some (p, a)) :
    (dataPointer i b irow icol (k + j) = 0 → dictGet ps p.name = dictGet acc p.name) ∧
      (dataPointer i b irow icol (k + j) ≠ 0 → ∃ x, unmergedPart i b p a (dataPointer i b irow icol (k + j)) = .ok x ∧
        dictGet ps p.name = some (dictUpdate [] x)) := by
  induction l generalizing k acc j with
  | nil => simp at hj
  | cons pa l ih =>
    obtain ⟨p', a'⟩ := pa
    rw [List.map_cons, List.nodup_cons] at hn
    rw [unmergedParts] at h
    cases j with
    | zero =>
      have e : (p', a') = (p, a) := Option.some.inj hj
      obtain ⟨rfl, rfl⟩ := Prod.mk.inj e
      rw [Nat.add_zero]
      split at h
      · rename_i h0
        exact ⟨fun _ => unmergedParts_other h _ hn.1, fun h1 => absurd h0 h1⟩
      · rename_i h0
        obtain ⟨x, hx, h⟩ := bind_inv h
        refine ⟨fun h1 => absurd h1 h0, fun _ => ⟨x, hx, ?_⟩⟩
        rw [unmergedParts_other h _ hn.1, dictGet_dictSet, if_pos rfl]
    | succ j =>
      have hj' : l[j]? = some (p, a) := hj
      have hne : p.name ≠ p'.name := by
        intro e
        exact hn.1 (e ▸ List.mem_map.2 ⟨(p, a), List.mem_of_getElem? hj', rfl⟩)
      rw [show k + (j + 1) = k + 1 + j by omega]
      split at h
      · exact ih h hn.2 j hj'
      · obtain ⟨x, hx, h⟩ := bind_inv h
        have := ih h hn.2 j hj'
        rwa [dictGet_dictSet, if_neg hne] at this

/-- One part. -/
theorem unmergedPart_file {i : DMInfo} {b : Bytes} {part : PartInfo} {params : ParamInfo} {ptr hdr : Nat} (hp : 1 ≤ ptr)
    (hh : part.headerLength = hdr) {xs : List (Text × HVal)} (h : unmergedPart i b part params ptr = .ok xs) :
    xs.map Prod.fst = params.names ∧ ∀ (j : Nat) (n : Text), params.names[j]? = some n →
      ∃ v, xs[j]? = some (n, v) ∧ UnmergedHolds i.order b part params ptr hdr j v := by
  unfold unmergedPart at h
  split at h
  · rename_i ht
    have hs : surfacePart i b part params ptr = .ok xs := by
      unfold surfacePart
      rw [if_neg (by omega), if_neg (by omega), if_pos ht]
      exact h
    obtain ⟨h1, h2⟩ := surfacePart_file hp hh hs
    refine ⟨h1, fun j n hj => ?_⟩
    obtain ⟨v, v1, v2⟩ := h2 j n hj
    exact ⟨v, v1, Or.inr ⟨ht, v2⟩⟩
  · refine ⟨soundingPart_keys h, fun j n hj => ?_⟩
    obtain ⟨v, v1, v2⟩ := soundingPart_file hp hh h j n hj
    exact ⟨v, v1, Or.inl v2⟩

/-- The parts of a cell: every part with data is there, with the columns that its record holds and no others; parts without data are
not there, wherever they stand; nothing else is there. -/
structure Spec.CellParts (i : DMInfo) (b : Bytes) (row col : Nat) (ps : List (Text × List (Text × HVal))) : Prop where
  present : ∀ (j : Nat) (p : PartInfo) (a : ParamInfo), i.parts[j]? = some p → i.params[j]? = some a → partWord i b row col j ≠ 0 →
    ∃ cols, dictGet ps p.name = some cols ∧ cols.map Prod.fst = a.names ∧ ∀ (k : Nat) (n : Text), a.names[k]? = some n →
      ∃ v, dictGet cols n = some v ∧ UnmergedHolds i.order b p a (partWord i b row col j) p.headerLength.toNat k v
  absent : ∀ (j : Nat) (p : PartInfo) (a : ParamInfo), i.parts[j]? = some p → i.params[j]? = some a → partWord i b row col j = 0 →
    dictGet ps p.name = none
  only : ∀ n cols, dictGet ps n = some cols → ∃ (j : Nat) (p : PartInfo), i.parts[j]? = some p ∧ p.name = n ∧ partWord i b row col j ≠ 0

/-- C94: the parts of an unmerged sounding are those of its cell in the file. -/
theorem C94_parts (i : DMInfo) (b : Bytes) (row col : Nat) (ha : Addressable i) (hn : NamesApart i) (ps : List (Text × List (Text × HVal)))
    (h : unmergedParts i b row col (i.parts.zip i.params) 0 [] = .ok ps) : CellParts i b row col ps := by
  have hptr : ∀ j, dataPointer i b row col j = (partWord i b row col j : Nat) := fun j =>
    dataPointer_file i b row col j ha.table ha.columns ha.parts
  have hsub : ((i.parts.zip i.params).map fun x => x.1.name).Nodup := by
    have hs : ((i.parts.zip i.params).map Prod.fst).Sublist i.parts := by
      generalize i.params = q
      generalize i.parts = l
      induction l generalizing q with
      | nil => simp
      | cons a l ih =>
        cases q with
        | nil => simp
        | cons c q => simpa using ih q
    have := (hs.map PartInfo.name)
    rw [List.map_map] at this
    exact hn.parts.sublist this
  have inv : ∀ (j : Nat) (p : PartInfo) (a : ParamInfo), (i.parts.zip i.params)[j]? = some (p, a) → _ := fun j p a hj => unmergedParts_inv h hsub j p a hj
  refine ⟨fun j p a hp hpa h0 => ?_, fun j p a hp hpa h0 => ?_, fun n cols hc => ?_⟩
  · obtain ⟨x, x1, x2⟩ := (inv j p a (List.getElem?_zip_eq_some.2 ⟨hp, hpa⟩)).2 (by rw [Nat.zero_add, hptr]; exact_mod_cast h0)
    rw [Nat.zero_add, hptr] at x1
    have hh : p.headerLength = (p.headerLength.toNat : Int) := (Int.toNat_of_nonneg (ha.headers p (List.mem_of_getElem? hp))).symm
    obtain ⟨y1, y2⟩ := unmergedPart_file (by omega) hh x1
    have hnd : (x.map Prod.fst).Nodup := by rw [y1]; exact hn.params a (List.mem_of_getElem? hpa)
    have hup : dictUpdate [] x = x := dictUpdate_fresh (d := []) (by simpa using hnd)
    rw [hup] at x2
    refine ⟨x, x2, y1, fun k n hk => ?_⟩
    obtain ⟨v, v1, v2⟩ := y2 k n hk
    exact ⟨v, (dictGet_eq_some hnd).2 (List.mem_of_getElem? v1), v2⟩
  · have := (inv j p a (List.getElem?_zip_eq_some.2 ⟨hp, hpa⟩)).1 (by rw [Nat.zero_add, hptr, h0]; rfl)
    rw [this]
    rfl
  · have hmem : n ∈ (i.parts.zip i.params).map fun x => x.1.name := by
      by_contra hc2
      rw [unmergedParts_other h n hc2] at hc
      cases hc
    obtain ⟨⟨p, a⟩, q1, q2⟩ := List.mem_map.1 hmem
    obtain ⟨j, hj⟩ := List.mem_iff_getElem?.1 q1
    refine ⟨j, p, (List.getElem?_zip_eq_some.1 hj).1, q2, fun h0 => ?_⟩
    have := (inv j p a hj).1 (by rw [Nat.zero_add, hptr, h0]; rfl)
    dsimp only at q2
    rw [q2, hc] at this
    cases this

section
variable {α : Type} [Field α] [LinearOrder α]

omit [Field α] [LinearOrder α] in
/-- A column by name. -/
theorem column_find (e : LevEnv α) {cols : List (Text × HVal)} (hn : (cols.map Prod.fst).Nodup) {n : Text} {v : HVal} {c : List α}
    (hv : dictGet cols n = some v) (hc : e.column (n, v) = some (String.ofList n, c)) :
    (cols.filterMap e.column).find? (fun x => x.1 = String.ofList n) = some (String.ofList n, c) := by
  have hfst : ∀ (kv : Text × HVal) x, e.column kv = some x → x.1 = String.ofList kv.1 := by
    intro kv x hx
    unfold LevEnv.column at hx
    split at hx
    · rw [← Option.some.inj hx]
    · rw [← Option.some.inj hx]
    · cases hx
  induction cols with
  | nil => cases hv
  | cons kv r ih =>
    rw [List.map_cons, List.nodup_cons] at hn
    obtain ⟨k, w⟩ := kv
    rw [dictGet] at hv
    split at hv
    · rename_i hk
      have hk : k = n := hk
      subst hk
      obtain rfl := Option.some.inj hv
      rw [List.filterMap_cons, hc]
      simp
    · rename_i hk
      have ih' := ih hn.2 hv
      rw [List.filterMap_cons]
      cases hx : e.column (k, w) with
      | none => exact ih'
      | some x =>
        dsimp only
        rw [List.find?_cons_of_neg]
        · exact ih'
        · have := hfst _ _ hx
          simp only [this, decide_eq_true_eq]
          intro e2
          exact hk (String.ofList_injective e2)

/-- C94: the numbers that are merged are those of the file: level `l` of a column of single precision numbers is the number at its place in
the record of its part, and the column ends with the record. -/
theorem C94_numbers (e : LevEnv α) (selv : Int) (i : DMInfo) (b : Bytes) (row col : Nat) (ha : Addressable i) (hn : NamesApart i)
    (ps : List (Text × List (Text × HVal))) (h : unmergedParts i b row col (i.parts.zip i.params) 0 [] = .ok ps) (j : Nat) (p : PartInfo)
    (a : ParamInfo) (hp : i.parts[j]? = some p) (hpa : i.params[j]? = some a) (ht : p.dataType = 1) :
    (partWord i b row col j = 0 → (e.parts selv ps).part (String.ofList p.name) = none) ∧
    (partWord i b row col j ≠ 0 → ∃ part, (e.parts selv ps).part (String.ofList p.name) = some part ∧
      ∀ (k : Nat) (n : Text), a.names[k]? = some n → ∀ l : Nat,
        part.at (String.ofList n) l =
          if l * a.names.length + k < fileWord i.order b (partWord i b row col j) - p.headerLength.toNat then
            .ok (e.flt (BitVec.ofNat 32 (fileWord i.order b (partWord i b row col j + 1 + p.headerLength.toNat + (l * a.names.length + k)))))
          else .error (.raised .indexError)) := by
  have hc := C94_parts i b row col ha hn ps h
  constructor
  · intro h0
    show (dictGet ps (String.ofList p.name).toList).map _ = none
    rw [String.toList_ofList, hc.absent j p a hp hpa h0]
    rfl
  · intro h0
    obtain ⟨cols, c1, c2, c3⟩ := hc.present j p a hp hpa h0
    refine ⟨cols.filterMap e.column, ?_, fun k n hk l => ?_⟩
    · show (dictGet ps (String.ofList p.name).toList).map _ = _
      rw [String.toList_ofList, c1]
      rfl
    · obtain ⟨v, v1, v2⟩ := c3 k n hk
      have hnd : (cols.map Prod.fst).Nodup := by rw [c2]; exact hn.params a (List.mem_of_getElem? hpa)
      rcases v2 with v2 | ⟨h3, _⟩
      · cases v2 with
        | packed rs vs h4 hw hv => omega
        | real fs h1 hv =>
          have hf := column_find e hnd v1 rfl
          unfold SndPart.at SndPart.col
          rw [hf]
          show idx (fs.map e.flt) l = _
          unfold idx
          rw [List.getElem?_map, hv l]
          by_cases hl : l * a.names.length + k < fileWord i.order b (partWord i b row col j) - p.headerLength.toNat
          · rw [if_pos hl, if_pos hl]; rfl
          · rw [if_neg hl, if_neg hl]; rfl
      · omega

/-- C94: the same for parts of packed numbers, which are unpacked together. -/
theorem C94_packed (e : LevEnv α) (selv : Int) (i : DMInfo) (b : Bytes) (row col : Nat) (ha : Addressable i) (hn : NamesApart i)
    (ps : List (Text × List (Text × HVal))) (h : unmergedParts i b row col (i.parts.zip i.params) 0 [] = .ok ps) (j : Nat) (p : PartInfo)
    (a : ParamInfo) (hp : i.parts[j]? = some p) (hpa : i.params[j]? = some a) (ht : p.dataType = 4) (h0 : partWord i b row col j ≠ 0) :
    ∃ part, (e.parts selv ps).part (String.ofList p.name) = some part ∧ ∀ (k : Nat) (n : Text), a.names[k]? = some n →
      ∃ rs, unpackReal ((List.range (fileWord i.order b (partWord i b row col j) - p.headerLength.toNat)).map fun w =>
          toI32 (fileWord i.order b (partWord i b row col j + 1 + p.headerLength.toNat + w))) (Spec.packedAttrs a)
          (fileWord i.order b (partWord i b row col j) - p.headerLength.toNat : Nat) = .ok rs ∧
        ∀ l : Nat, part.at (String.ofList n) l = idx (rs.map e.real) (l * a.names.length + k) := by
  have hc := C94_parts i b row col ha hn ps h
  obtain ⟨cols, c1, c2, c3⟩ := hc.present j p a hp hpa h0
  refine ⟨cols.filterMap e.column, ?_, fun k n hk => ?_⟩
  · show (dictGet ps (String.ofList p.name).toList).map _ = _
    rw [String.toList_ofList, c1]
    rfl
  · obtain ⟨v, v1, v2⟩ := c3 k n hk
    have hnd : (cols.map Prod.fst).Nodup := by rw [c2]; exact hn.params a (List.mem_of_getElem? hpa)
    rcases v2 with v2 | ⟨h3, _⟩
    · cases v2 with
      | real fs h1 hv => omega
      | packed rs vs h4 hw hv =>
        refine ⟨rs, hw, fun l => ?_⟩
        have hf := column_find e hnd v1 rfl
        unfold SndPart.at SndPart.col
        rw [hf]
        show idx (vs.map e.real) l = _
        unfold idx
        rw [List.getElem?_map, List.getElem?_map, hv l]
    · omega

end

set_option synthInstance.maxSize 1000 in
/-- A file whose sounding has mandatory levels in its first part; the hypotheses of C94 hold for it. -/
example : ∃ f ps, openSounding .little bothParts = .ok f ∧ Addressable f.info ∧ NamesApart f.info ∧
    unmergedParts f.info f.bytes 0 0 (f.info.parts.zip f.info.params) 0 [] = .ok ps ∧ ps.map Prod.fst = [txt "TTAA", txt "TTBB"] := by
  have key : (openSounding .little bothParts).toOption.map (fun f => (f.info.label.dataBlockPtr, f.info.label.columns, f.info.label.parts,
      f.info.parts.map (fun p => (p.name, p.headerLength)), f.info.params.map ParamInfo.names,
      (unmergedParts f.info f.bytes 0 0 (f.info.parts.zip f.info.params) 0 []).toOption.map fun ps => ps.map Prod.fst)) =
      some (96, 1, 2, [(txt "TTAA", 0), (txt "TTBB", 0)],
        [[txt "PRES", txt "TEMP", txt "DWPT", txt "DRCT", txt "SPED", txt "HGHT"], [txt "PRES", txt "TEMP", txt "DWPT"]],
        some [txt "TTAA", txt "TTBB"]) := by decide +kernel
  cases ho : openSounding .little bothParts with
  | error e => rw [ho] at key; cases key
  | ok f =>
    rw [ho] at key
    obtain ⟨k1, k⟩ := Prod.mk.inj (Option.some.inj key)
    obtain ⟨k2, k⟩ := Prod.mk.inj k
    obtain ⟨k3, k⟩ := Prod.mk.inj k
    obtain ⟨k4, k⟩ := Prod.mk.inj k
    obtain ⟨k5, k6⟩ := Prod.mk.inj k
    cases hps : unmergedParts f.info f.bytes 0 0 (f.info.parts.zip f.info.params) 0 [] with
    | error e => rw [hps] at k6; cases k6
    | ok ps =>
      rw [hps] at k6
      refine ⟨f, ps, rfl, ⟨by omega, by omega, by omega, fun p hp => ?_⟩, ⟨?_, fun a ha => ?_⟩, hps, Option.some.inj k6⟩
      · have : (p.name, p.headerLength) ∈ f.info.parts.map fun p => (p.name, p.headerLength) := List.mem_map_of_mem hp
        rw [k4] at this
        simp only [List.mem_cons, Prod.mk.injEq, List.not_mem_nil, or_false] at this
        rcases this with ⟨_, h⟩ | ⟨_, h⟩ <;> omega
      · have : f.info.parts.map PartInfo.name = [txt "TTAA", txt "TTBB"] := by
          have := congrArg (List.map Prod.fst) k4
          rw [List.map_map] at this
          exact this
        rw [this]
        decide
      · have : a.names ∈ f.info.params.map ParamInfo.names := List.mem_map_of_mem ha
        rw [k5] at this
        simp only [List.mem_cons, List.not_mem_nil, or_false] at this
        rcases this with h | h <;> rw [h] <;> decide

end Gempak
