import Verif.Proof.DMWrite

/-! Saving succeeds when every number fits a word. -/

namespace Gempak

theorem ok_bind' {α β ε : Type} (a : α) (f : α → Except ε β) : ((Except.ok a : Except ε α) >>= f) = f a := rfl

/-- Values `struct` accepts in one word. -/
def Val.Packable : Val → Prop
  | .int i => inI32 i
  | _ => True

theorem putStruct_total {e : Endian} {fs : List Fmt} {vs : List Val} (s : Stream) (h : ∃ bs, packFmts e fs vs = .ok bs) :
    ∃ s', s.putStruct e fs vs = .ok s' := by
  obtain ⟨bs, h⟩ := h
  exact ⟨s.write bs, by unfold Stream.putStruct; rw [h]; rfl⟩

theorem putWord_total {e : Endian} {v : Val} (s : Stream) (h : v.Packable) : ∃ s', s.putWord e v = .ok s' := by
  refine putStruct_total s ?_
  cases v with
  | int i =>
    have h : inI32 i := h
    exact ⟨_, by simp only [Val.fmt, packFmts, packOne, h, if_true]; rfl⟩
  | flt f => exact ⟨_, rfl⟩
  | str b => exact ⟨_, rfl⟩

theorem putWords_total {e : Endian} (ws : List Val) (s : Stream) (h : ∀ v ∈ ws, v.Packable) :
    ∃ s', s.putWords e ws = .ok s' := by
  induction ws generalizing s with
  | nil => exact ⟨s, rfl⟩
  | cons v ws ih =>
    obtain ⟨s1, h1⟩ := putWord_total (e := e) s (h v (by simp))
    obtain ⟨s2, h2⟩ := ih s1 (fun v hv => h v (by simp [hv]))
    exact ⟨s2, by simp only [Stream.putWords, h1]; exact h2⟩

theorem putStructs_total {e : Endian} (r : List (List Fmt × List Val)) (s : Stream)
    (h : ∀ x ∈ r, ∃ bs, packFmts e x.1 x.2 = .ok bs) : ∃ s', putStructs e r s = .ok s' := by
  induction r generalizing s with
  | nil => exact ⟨s, rfl⟩
  | cons x r ih =>
    obtain ⟨fs, vs⟩ := x
    obtain ⟨s1, h1⟩ := putStruct_total s (h (fs, vs) (by simp))
    obtain ⟨s2, h2⟩ := ih s1 (fun v hv => h v (by simp [hv]))
    exact ⟨s2, by simp only [putStructs, h1]; exact h2⟩

theorem inI32_nat {n : Nat} (h : n < 2 ^ 31) : inI32 (n : Int) := by unfold inI32; omega

theorem putHeaders_total {e : Endian} (hs : List (Except PyErr (List Val))) (s : Stream)
    (h : ∀ x ∈ hs, ∃ vs, x = .ok vs ∧ ∀ v ∈ vs, v.Packable) : ∃ s', putHeaders e hs s = .ok s' := by
  induction hs generalizing s with
  | nil => exact ⟨s, rfl⟩
  | cons x r ih =>
    obtain ⟨vs, rfl, hv⟩ := h x (by simp)
    obtain ⟨s1, h1⟩ := putWords_total (e := e) (.int 9999 :: vs) s (by
      intro v hm
      rcases List.mem_cons.1 hm with rfl | hm
      · show inI32 9999; decide
      · exact hv v hm)
    obtain ⟨s2, h2⟩ := ih s1 (fun v hv => h v (by simp [hv]))
    exact ⟨s2, by simp only [putHeaders, ok_bind', h1]; exact h2⟩

theorem writeHeaders_total {e : Endian} (init : Bool) (n k : Nat) (hs : List (Except PyErr (List Val))) (s : Stream)
    (h : ∀ x ∈ hs, ∃ vs, x = .ok vs ∧ ∀ v ∈ vs, v.Packable) : ∃ s', writeHeaders e init n k hs s = .ok s' := by
  unfold writeHeaders
  cases init with
  | false => simpa using putHeaders_total hs s h
  | true =>
    obtain ⟨s1, h1⟩ := putWords_total (e := e) (List.replicate (n * (k + 1)) (.int (-9999))) s (by
      intro v hm
      rw [List.eq_of_mem_replicate hm]
      show inI32 (-9999); decide)
    obtain ⟨s2, h2⟩ := putHeaders_total (e := e) hs (s1.jumpTo s.word) h
    exact ⟨s2, by simp only [if_true, h1]; exact h2⟩

theorem dataLoop_total {e : Endian} {dbp : Nat} : ∀ (vs : List (Nat × Option (Except PyErr (List Val)))) (nf : Nat) (s : Stream),
    1 ≤ nf → nf + visitLen vs < 2 ^ 31 →
    (∀ v ∈ vs, ∀ r, v.2 = some r → ∃ ws, r = .ok ws ∧ ∀ w ∈ ws, w.Packable) →
    ∃ s' nf', dataLoop e dbp vs nf s = .ok (s', nf') := by
  intro vs
  induction vs with
  | nil => intro nf s _ _ _; exact ⟨s, nf, rfl⟩
  | cons v vs ih =>
    intro nf s h1 h2 h3
    obtain ⟨k, cell⟩ := v
    rw [visitLen_cons] at h2
    have h3' : ∀ v ∈ vs, ∀ r, v.2 = some r → ∃ ws, r = .ok ws ∧ ∀ w ∈ ws, w.Packable := fun v hv => h3 v (by simp [hv])
    cases cell with
    | none =>
      obtain ⟨s1, e1⟩ := putWord_total (e := e) (v := .int 0) (s.jumpTo (dbp + k)) (by show inI32 0; decide)
      obtain ⟨s2, nf2, e2⟩ := ih nf s1 h1 (by omega) h3'
      exact ⟨s2, nf2, by simp only [dataLoop, e1]; exact e2⟩
    | some r =>
      obtain ⟨ws, rfl, hw⟩ := h3 (k, some r) (by simp) r rfl
      dsimp only [cellLen] at h2
      obtain ⟨s1, e1⟩ := putWord_total (e := e) (v := .int nf) (s.jumpTo (dbp + k)) (inI32_nat (by omega))
      obtain ⟨s2, e2⟩ := putWords_total (e := e) ws (s1.jumpTo nf) hw
      obtain ⟨_, hp, _⟩ := putWords_spec e2 h1 (jumpTo_pos _ _)
      have hwd : s2.word = nf + ws.length := word_of_pos (by omega) hp
      obtain ⟨s3, nf3, e3⟩ := ih (nf + ws.length) s2 (by omega) (by omega) h3'
      refine ⟨s3, nf3, ?_⟩
      simp only [dataLoop, e1]
      show ((s1.jumpTo nf).putWords e ws >>= fun s => dataLoop e dbp vs s.word s) = _
      rw [e2]
      show dataLoop e dbp vs s2.word s2 = _
      rw [hwd, e3]

theorem fillBlock_total {e : Endian} (s : Stream) : ∃ s', fillBlock e s = .ok s' := by
  unfold fillBlock
  dsimp only
  split
  · exact putWords_total _ _ (by
      intro v hm
      rw [List.eq_of_mem_replicate hm]
      show inI32 0; decide)
  · exact ⟨s, rfl⟩

/-- Everything to be written fits. -/
structure DMFile.Fits (f : DMFile) : Prop where
  size : (setPointers f).nextFree + visitLen f.visits < 2 ^ 31
  names : ∀ h ∈ f.fileHeaders, h.length < 2 ^ 31 ∧ inI32 h.type
  body : ∀ e, ∀ x ∈ f.fileBody, ∃ bs, packFmts e x.1 x.2 = .ok bs
  parts : ∀ p ∈ f.parts, inI32 p.header ∧ inI32 p.type ∧ (∀ i ∈ p.offset, inI32 i) ∧ (∀ i ∈ p.scale, inI32 i) ∧
    ∀ i ∈ p.bits, inI32 i
  fileType : inI32 f.fileType
  dataSource : inI32 f.dataSource
  dims : f.rows < 2 ^ 31 ∧ f.columns < 2 ^ 31
  rowHeaders : ∀ x ∈ f.rowHeaders, ∃ vs, x = .ok vs ∧ ∀ v ∈ vs, v.Packable
  columnHeaders : ∀ x ∈ f.columnHeaders, ∃ vs, x = .ok vs ∧ ∀ v ∈ vs, v.Packable
  records : ∀ v ∈ f.visits, ∀ r, v.2 = some r → ∃ ws, r = .ok ws ∧ ∀ w ∈ ws, w.Packable

theorem nameWord_packable (t : Text) : (nameWord t).Packable := trivial

theorem sum_ge_of_mem {l : List Nat} {a : Nat} (h : a ∈ l) : a ≤ l.sum := by
  induction l with
  | nil => simp at h
  | cons x l ih =>
    rcases List.mem_cons.1 h with rfl | h
    · simp
    · have := ih h; simp; omega

theorem labelVals_ok {e : Endian} {f : DMFile} (ft : f.Fits) : ∃ bs, packFmts e labelFmts (labelVals f (setPointers f)) = .ok bs := by
  have L := setPointers_layout f
  have l1 := L.rowKeys
  have l2 := L.columnKeys
  have l3 := L.fileKeys
  have l4 := L.fileEnd
  have l5 := L.columnHeaders
  have l6 := L.columnEnd
  have l7 := L.partsEnd
  have l8 := L.tableEnd
  have hs := ft.size
  have hd := ft.dims
  generalize (f.fileHeaders.map fun h => h.length + 1).sum = lenfil at *
  generalize f.rows * (f.rowNames.length + 1) = rl at *
  generalize f.columns * (f.columnNames.length + 1) = cl at *
  generalize (f.parts.map fun p => p.params.length).sum = lenpart at *
  generalize f.parts.length * f.rows * f.columns = T at *
  generalize setPointers f = p at *
  have i1 : inI32 (1 : Int) := by decide
  have i2 : inI32 (f.fileHeaders.length : Int) := inI32_nat (by omega)
  have i3 : inI32 (p.fileKeys : Int) := inI32_nat (by omega)
  have i4 : inI32 (f.rows : Int) := inI32_nat (by omega)
  have i5 : inI32 (f.rowNames.length : Int) := inI32_nat (by omega)
  have i6 : inI32 (p.rowKeys : Int) := inI32_nat (by omega)
  have i7 : inI32 (p.rowHeaders : Int) := inI32_nat (by omega)
  have i8 : inI32 (f.columns : Int) := inI32_nat (by omega)
  have i9 : inI32 (f.columnNames.length : Int) := inI32_nat (by omega)
  have i10 : inI32 (p.columnKeys : Int) := inI32_nat (by omega)
  have i11 : inI32 (p.columnHeaders : Int) := inI32_nat (by omega)
  have i12 : inI32 (f.parts.length : Int) := inI32_nat (by omega)
  have i13 : inI32 (p.parts : Int) := inI32_nat (by omega)
  have i14 : inI32 (129 : Int) := by decide
  have i15 : inI32 ((blk : Nat) : Int) := by decide
  have i16 : inI32 (p.dataBlock : Int) := inI32_nat (by omega)
  have i17 := ft.fileType
  have i18 := ft.dataSource
  have i19 : inI32 (11 : Int) := by decide
  have i20 : inI32 (-9999 : Int) := by decide
  rw [packFmts_ok_iff]
  exact .cons trivial (.cons i1 (.cons i2 (.cons i3 (.cons i4 (.cons i5 (.cons i6 (.cons i7 (.cons i8 (.cons i9
    (.cons i10 (.cons i11 (.cons i12 (.cons i13 (.cons i14 (.cons i15 (.cons i16 (.cons i17 (.cons i18 (.cons i19
    (.cons i20 (.cons trivial .nil)))))))))))))))))))))

/-- Saving succeeds. -/
theorem save_total {e : Endian} {f : DMFile} (wf : f.WF) (ft : f.Fits) : ∃ b, save e f = .ok b := by
  have L := setPointers_layout f
  have l7 := L.partsEnd
  have l8 := L.tableEnd
  have l9 := L.aligned
  have hsz := ft.size
  obtain ⟨s1, h1⟩ := putStruct_total (e := e) ⟨[], 0⟩ (labelVals_ok ft)
  obtain ⟨s2, h2⟩ := putWords_total (e := e) (f.rowNames.map nameWord) (s1.jumpTo (setPointers f).rowKeys) (by
    intro v hv; obtain ⟨t, _, rfl⟩ := List.mem_map.1 hv; trivial)
  obtain ⟨s3, h3⟩ := putWords_total (e := e) (f.columnNames.map nameWord) (s2.jumpTo (setPointers f).columnKeys) (by
    intro v hv; obtain ⟨t, _, rfl⟩ := List.mem_map.1 hv; trivial)
  obtain ⟨s4, h4⟩ : ∃ s4, writeFileHeaders e f (setPointers f) s3 = .ok s4 := by
    unfold writeFileHeaders
    split
    · obtain ⟨t, ht⟩ := putWords_total (e := e) (fileKeyWords f) (s3.jumpTo (setPointers f).fileKeys) (by
        intro v hv
        unfold fileKeyWords at hv
        simp only [List.mem_append, List.mem_map] at hv
        rcases hv with (⟨h, hh, rfl⟩ | ⟨h, hh, rfl⟩) | ⟨h, hh, rfl⟩
        · trivial
        · exact inI32_nat (ft.names h hh).1
        · exact (ft.names h hh).2)
      obtain ⟨u, hu⟩ := putStructs_total (e := e) f.fileBody t (ft.body e)
      exact ⟨u, by rw [ht]; exact hu⟩
    · exact ⟨s3, rfl⟩
  obtain ⟨s5, h5⟩ := putWords_total (e := e) (partWords f) (s4.jumpTo (setPointers f).parts) (by
    intro v hv
    unfold partWords at hv
    simp only [List.mem_append, List.mem_map, List.mem_flatMap] at hv
    rcases hv with ((((((⟨p, hp, rfl⟩ | ⟨p, hp, rfl⟩) | ⟨p, hp, rfl⟩) | ⟨p, hp, rfl⟩) | ⟨p, hp, x, hx, rfl⟩) |
      ⟨p, hp, x, hx, rfl⟩) | ⟨p, hp, x, hx, rfl⟩) | ⟨p, hp, x, hx, rfl⟩
    · trivial
    · exact (ft.parts p hp).1
    · exact (ft.parts p hp).2.1
    · have : p.params.length ≤ _ := sum_ge_of_mem (List.mem_map.2 ⟨p, hp, rfl⟩ : p.params.length ∈ f.parts.map fun p => p.params.length)
      exact inI32_nat (by omega)
    · trivial
    · exact (ft.parts p hp).2.2.1 x hx
    · exact (ft.parts p hp).2.2.2.1 x hx
    · exact (ft.parts p hp).2.2.2.2 x hx)
  obtain ⟨s6, h6⟩ := writeHeaders_total (e := e) f.rowInit f.rows f.rowNames.length f.rowHeaders
    (s5.jumpTo (setPointers f).rowHeaders) ft.rowHeaders
  obtain ⟨s7, h7⟩ := writeHeaders_total (e := e) true f.columns f.columnNames.length f.columnHeaders
    (s6.jumpTo (setPointers f).columnHeaders) ft.columnHeaders
  obtain ⟨s8, nf, h8⟩ := dataLoop_total (e := e) (dbp := (setPointers f).dataBlock) f.visits (setPointers f).nextFree
    (s7.jumpTo (setPointers f).dataBlock) (by omega) ft.size ft.records
  obtain ⟨s9, h9⟩ := fillBlock_total (e := e) s8
  have hnf : nf = (setPointers f).nextFree + visitLen f.visits :=
    (dataLoop_spec (by omega) f.visits _ nf _ s8 h8 (by omega) (fun v hv => by have := wf.visitLt v hv; omega) wf.visitNodup).1
  obtain ⟨s10, h10⟩ := putStruct_total (e := e) (fs := dataMgmtFmts) (vs := dataMgmtVals nf) (s9.jumpTo 129) (by
    have i1 : inI32 (nf : Int) := inI32_nat (by omega)
    have i2 : inI32 (62 : Int) := by decide
    have i3 : inI32 (0 : Int) := by decide
    rw [packFmts_ok_iff]
    exact .cons i1 (.cons i2 (.cons i3 (.cons i3 .nil))))
  refine ⟨s10.buf, ?_⟩
  have : saveWith e f (setPointers f) = .ok (s10.buf, nf) := by
    unfold saveWith
    dsimp only
    rw [h1, ok_bind', h2, ok_bind', h3, ok_bind', h4, ok_bind', h5, ok_bind', h6, ok_bind', h7, ok_bind', h8, ok_bind']
    dsimp only
    rw [h9, ok_bind', h10, ok_bind']
  unfold save
  rw [this]
  rfl

end Gempak
