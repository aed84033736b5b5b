import Verif.Proof.Stream

/-! What `save` leaves in the file. -/

namespace Gempak

theorem Except.bind_ok {α β ε : Type} {x : Except ε α} {f : α → Except ε β} {b : β} (h : (x >>= f) = .ok b) :
    ∃ a, x = .ok a ∧ f a = .ok b := by
  cases x with
  | error e => simp [bind, Except.bind] at h
  | ok a => exact ⟨a, rfl, h⟩

/-- A stretch of the stream has been written: everything else is as before, the length has not passed the end. -/
structure Wrote (s s' : Stream) (lo hi : Nat) : Prop where
  keeps : Keeps s.buf s'.buf (fun i => lo ≤ i ∧ i < hi)
  ge : s.buf.length ≤ s'.buf.length
  le : s'.buf.length ≤ max s.buf.length hi

theorem Wrote.refl (s : Stream) (lo hi : Nat) : Wrote s s lo hi := ⟨Keeps.refl _ _, Nat.le_refl _, by omega⟩

theorem Wrote.trans {a b c : Stream} {l1 h1 l2 h2 lo hi : Nat} (x : Wrote a b l1 h1) (y : Wrote b c l2 h2)
    (hl1 : lo ≤ l1) (hl2 : lo ≤ l2) (hh1 : h1 ≤ hi) (hh2 : h2 ≤ hi) : Wrote a c lo hi := by
  refine ⟨x.keeps.trans y.keeps (fun i h => by omega) (fun i h => by omega), ?_, ?_⟩
  · exact Nat.le_trans x.ge y.ge
  · have := x.le; have := y.le; omega

theorem Wrote.of_jump {s s' : Stream} {w lo hi : Nat} (h : Wrote (s.jumpTo w) s' lo hi) : Wrote s s' lo hi :=
  ⟨h.keeps, h.ge, h.le⟩

theorem Wrote.to_jump {s s' : Stream} {w lo hi : Nat} (h : Wrote s s' lo hi) : Wrote s (s'.jumpTo w) lo hi :=
  ⟨h.keeps, h.ge, h.le⟩

theorem putWords_wrote {e : Endian} {ws : List Val} {s s' : Stream} {w : Nat} (h : s.putWords e ws = .ok s')
    (hw : 1 ≤ w) (hpos : s.pos = w * 4 - 4) : Wrote s s' (w * 4 - 4) ((w + ws.length) * 4 - 4) := by
  obtain ⟨_, _, hk, hl, hn⟩ := putWords_spec h hw hpos
  by_cases hne : ws = []
  · have := hn hne
    exact ⟨hk, by rw [this], by rw [this]; omega⟩
  · have := hl hne
    exact ⟨hk, by omega, by omega⟩

theorem putStruct_spec {e : Endian} {fs : List Fmt} {vs : List Val} {s s' : Stream}
    (h : s.putStruct e fs vs = .ok s') :
    HoldsV e s'.buf s.pos fs vs ∧ s'.pos = s.pos + fmtSize fs ∧ Wrote s s' s.pos (s.pos + fmtSize fs) := by
  obtain ⟨bs, hb, rfl⟩ := putStruct_ok h
  have hl := packFmts_length hb
  refine ⟨⟨bs, hb, writeAt_holds _ _ _⟩, by simp [Stream.write, hl], ?_, ?_, ?_⟩
  · have := writeAt_keeps s.buf s.pos bs
    rw [hl] at this; exact this
  · exact writeAt_length_ge _ _ _
  · simp only [Stream.write]
    by_cases hne : bs = []
    · simp [writeAt, hne]
    · rw [writeAt_length _ _ _ hne, hl]

theorem putWord_spec {e : Endian} {v : Val} {s s' : Stream} {w : Nat} (h : s.putWord e v = .ok s')
    (hw : 1 ≤ w) (hpos : s.pos = w * 4 - 4) :
    HoldsW e s'.buf w [v] ∧ s'.pos = (w + 1) * 4 - 4 ∧ Wrote s s' (w * 4 - 4) ((w + 1) * 4 - 4) ∧
      (w + 1) * 4 - 4 ≤ s'.buf.length := by
  have h' : s.putWords e [v] = .ok s' := by simp [Stream.putWords, h, bind, Except.bind]
  obtain ⟨h1, h2, _, h4, _⟩ := putWords_spec h' hw hpos
  refine ⟨h1, h2, putWords_wrote h' hw hpos, ?_⟩
  have := h4 (by simp)
  simp only [List.length_singleton] at this
  omega

theorem HoldsW.join {e : Endian} {b : Bytes} {w : Nat} {xs ys : List Val} (hw : 1 ≤ w)
    (h1 : HoldsW e b w xs) (h2 : HoldsW e b (w + xs.length) ys) : HoldsW e b w (xs ++ ys) := by
  obtain ⟨b1, p1, hh1⟩ := h1
  obtain ⟨b2, p2, hh2⟩ := h2
  have hl := packFmts_length p1
  rw [fmtSize_words] at hl
  refine ⟨b1 ++ b2, ?_, ?_⟩
  · clear hh1 hh2 hl
    induction xs generalizing b1 with
    | nil =>
      simp only [List.map_nil, packFmts, Except.ok.injEq] at p1
      subst p1
      simpa using p2
    | cons v xs ih =>
      have : v :: xs = [v] ++ xs := rfl
      rw [this] at p1
      obtain ⟨c1, c2, q1, q2, rfl⟩ := packFmts_append_words p1
      have := ih c2 q2
      rw [List.append_assoc]
      exact packFmts_cons_ok q1 this
  · rw [Holds.append]
    refine ⟨hh1, ?_⟩
    have : w * 4 - 4 + b1.length = (w + xs.length) * 4 - 4 := by omega
    rw [this]; exact hh2

/-- Concatenated used headers. -/
def usedWords (vss : List (List Val)) : List Val := vss.flatMap fun vs => .int 9999 :: vs

theorem usedWords_length {vss : List (List Val)} {k : Nat} (h : ∀ vs ∈ vss, vs.length = k) :
    (usedWords vss).length = vss.length * (k + 1) := by
  induction vss with
  | nil => simp [usedWords]
  | cons v vss ih =>
    have h1 := ih (fun vs hv => h vs (List.mem_cons_of_mem _ hv))
    have h2 := h v List.mem_cons_self
    have : usedWords (v :: vss) = (.int 9999 :: v) ++ usedWords vss := rfl
    rw [this, List.length_append, h1, List.length_cons, List.length_cons, h2, Nat.succ_mul]; omega

theorem putHeaders_spec {e : Endian} {hs : List (Except PyErr (List Val))} {s s' : Stream} {w : Nat}
    (h : putHeaders e hs s = .ok s') (hw : 1 ≤ w) (hpos : s.pos = w * 4 - 4) :
    ∃ vss, hs = vss.map .ok ∧ HoldsW e s'.buf w (usedWords vss) ∧
      s'.pos = (w + (usedWords vss).length) * 4 - 4 ∧
      Wrote s s' (w * 4 - 4) ((w + (usedWords vss).length) * 4 - 4) ∧
      (hs ≠ [] → (w + (usedWords vss).length) * 4 - 4 ≤ s'.buf.length) := by
  induction hs generalizing s w with
  | nil =>
    simp only [putHeaders, Except.ok.injEq] at h
    subst h
    refine ⟨[], rfl, ⟨[], rfl, ?_⟩, ?_, Wrote.refl _ _ _, by simp⟩
    · intro i hi; simp at hi
    · simp [usedWords, hpos]
  | cons x hs ih =>
    simp only [putHeaders] at h
    obtain ⟨vs, hx, h⟩ := Except.bind_ok h
    obtain ⟨s1, h1, h⟩ := Except.bind_ok h
    obtain ⟨g1, g2, _, g4, _⟩ := putWords_spec h1 hw hpos
    have g3 := putWords_wrote h1 hw hpos
    obtain ⟨vss, q1, q2, q3, q4, q5⟩ := ih h (by omega : 1 ≤ w + (Val.int 9999 :: vs).length) g2
    have eU : usedWords (vs :: vss) = (.int 9999 :: vs) ++ usedWords vss := rfl
    refine ⟨vs :: vss, ?_, ?_, ?_, ?_, ?_⟩
    · rw [hx, q1]; rfl
    · rw [eU]
      refine HoldsW.join hw ?_ q2
      exact g1.keep hw q4.keeps (fun i a b => by omega)
    · rw [eU, List.length_append, q3]; congr 2; omega
    · rw [eU, List.length_append]
      exact g3.trans q4 (by omega) (by omega) (by omega) (by omega)
    · intro _
      rw [eU, List.length_append]
      have hl := g4 (by simp)
      have hge := q4.ge
      by_cases hnil : hs = []
      · have : vss = [] := by
          rw [hnil] at q1
          cases vss with
          | nil => rfl
          | cons _ _ => simp at q1
        subst this
        simp only [usedWords, List.flatMap_nil, List.length_nil, Nat.add_zero]
        omega
      · have := q5 hnil; omega

theorem word_of_pos {s : Stream} {w : Nat} (hw : 1 ≤ w) (h : s.pos = w * 4 - 4) : s.word = w := by
  unfold Stream.word; rw [h]; omega

theorem HoldsW.suffix {e : Endian} {b : Bytes} {w m n : Nat} {v : Val} (hw : 1 ≤ w)
    (h : HoldsW e b w (List.replicate (m + n) v)) : HoldsW e b (w + m) (List.replicate n v) := by
  rw [List.replicate_add] at h
  have := (HoldsW.append hw h).2
  simpa using this

/-- Headers written over the initial marks. -/
theorem writeHeaders_spec {e : Endian} {init : Bool} {n k : Nat} {hs : List (Except PyErr (List Val))} {s s' : Stream}
    {w : Nat} (h : writeHeaders e init n k hs s = .ok s') (hw : 1 ≤ w) (hpos : s.pos = w * 4 - 4)
    (hk : ∀ x ∈ hs, ∀ vs, x = .ok vs → vs.length = k) (hn : hs.length ≤ n) (hi : init = false → hs.length = n) :
    ∃ vss, hs = vss.map .ok ∧ (∀ vs ∈ vss, vs.length = k) ∧
      HoldsW e s'.buf w (usedWords vss ++ List.replicate ((n - vss.length) * (k + 1)) (.int (-9999))) ∧
      Wrote s s' (w * 4 - 4) ((w + n * (k + 1)) * 4 - 4) ∧
      (1 ≤ n → (w + n * (k + 1)) * 4 - 4 ≤ s'.buf.length) := by
  have tail : ∀ (vss : List (List Val)), hs = vss.map .ok → (∀ vs ∈ vss, vs.length = k) := by
    rintro vss rfl vs hv
    exact hk (.ok vs) (List.mem_map.2 ⟨vs, hv, rfl⟩) vs rfl
  cases init with
  | false =>
    have hlen := hi rfl
    simp only [writeHeaders, Bool.false_eq_true, if_false] at h
    obtain ⟨vss, q1, q2, q3, q4, q5⟩ := putHeaders_spec h hw hpos
    have hk' := tail vss q1
    have hU := usedWords_length hk'
    have hl2 : vss.length = n := by rw [← hlen, q1]; simp
    rw [hl2] at hU
    refine ⟨vss, q1, hk', ?_, ?_, ?_⟩
    · rw [hl2]; simpa using q2
    · rw [← hU]; exact q4
    · intro h1
      rw [← hU]
      exact q5 (by intro hnil; rw [hnil] at hlen; simp at hlen; omega)
  | true =>
    simp only [writeHeaders, if_true] at h
    obtain ⟨s1, h1, h⟩ := Except.bind_ok h
    rw [word_of_pos hw hpos] at h
    obtain ⟨g1, _, _, g4, _⟩ := putWords_spec h1 hw hpos
    have g3 := putWords_wrote h1 hw hpos
    simp only [List.length_replicate] at g3 g4
    obtain ⟨vss, q1, q2, q3, q4, q5⟩ := putHeaders_spec h hw (jumpTo_pos s1 w)
    have hk' := tail vss q1
    have hU := usedWords_length hk'
    have hl2 : vss.length ≤ n := by rw [q1] at hn; simpa using hn
    have hmul : vss.length * (k + 1) + (n - vss.length) * (k + 1) = n * (k + 1) := by
      rw [← Nat.add_mul]; congr 1; omega
    refine ⟨vss, q1, hk', ?_, ?_, ?_⟩
    · refine HoldsW.join hw q2 ?_
      rw [hU]
      rw [← hmul] at g1
      have g5 := HoldsW.suffix hw g1
      refine g5.keep (by omega) q4.of_jump.keeps (fun i a b => by rw [hU]; omega)
    · refine g3.trans q4.of_jump (by omega) (by omega) (by omega) (by rw [hU]; omega)
    · intro hn1
      have := q4.ge
      rw [jumpTo_buf] at this
      have hp : 1 ≤ n * (k + 1) := Nat.mul_pos hn1 (by omega)
      have := g4 (by simp; omega)
      omega

/-! ## The data loop -/

/-- Number of words a cell adds to the data region. -/
def cellLen : Option (Except PyErr (List Val)) → Nat
  | some (.ok ws) => ws.length
  | _ => 0

/-- Words used by a list of visits. -/
def visitLen (vs : List (Nat × Option (Except PyErr (List Val)))) : Nat := (vs.map fun v => cellLen v.2).sum

theorem visitLen_cons (v : Nat × Option (Except PyErr (List Val))) (vs) :
    visitLen (v :: vs) = cellLen v.2 + visitLen vs := by simp [visitLen]

theorem visitLen_append (a b : List (Nat × Option (Except PyErr (List Val)))) :
    visitLen (a ++ b) = visitLen a + visitLen b := by simp [visitLen]

/-- The bytes the data loop may touch. -/
def dataRegion (dbp : Nat) (vs : List (Nat × Option (Except PyErr (List Val)))) (nf nf' i : Nat) : Prop :=
  (∃ v ∈ vs, (dbp + v.1) * 4 - 4 ≤ i ∧ i < (dbp + v.1 + 1) * 4 - 4) ∨ (nf * 4 - 4 ≤ i ∧ i < nf' * 4 - 4)

/-- What is held for one cell after the loop. -/
def CellHeld (e : Endian) (b : Bytes) (dbp k nf : Nat) (cell : Option (Except PyErr (List Val))) : Prop :=
  match cell with
  | none => HoldsW e b (dbp + k) [.int 0]
  | some r => ∃ ws, r = .ok ws ∧ HoldsW e b (dbp + k) [.int nf] ∧ HoldsW e b nf ws

theorem CellHeld.keep {e : Endian} {b b' : Bytes} {R : Nat → Prop} {dbp k nf : Nat}
    {cell : Option (Except PyErr (List Val))} (h1 : 1 ≤ dbp) (h2 : 1 ≤ nf) (h : CellHeld e b dbp k nf cell)
    (kp : Keeps b b' R) (hp : ∀ i, (dbp + k) * 4 - 4 ≤ i → i < (dbp + k + 1) * 4 - 4 → ¬ R i)
    (hd : ∀ i, nf * 4 - 4 ≤ i → i < (nf + cellLen cell) * 4 - 4 → ¬ R i) : CellHeld e b' dbp k nf cell := by
  cases cell with
  | none => exact HoldsW.keep (by omega) h kp (fun i a b => hp i a b)
  | some r =>
    obtain ⟨ws, rfl, a, b⟩ := h
    exact ⟨ws, rfl, a.keep (by omega) kp (fun i x y => hp i x y), b.keep h2 kp (fun i x y => hd i x y)⟩

theorem dataLoop_spec {e : Endian} {dbp : Nat} (hd : 1 ≤ dbp) :
    ∀ (vs : List (Nat × Option (Except PyErr (List Val)))) (nf nf' : Nat) (s s' : Stream),
    dataLoop e dbp vs nf s = .ok (s', nf') → 1 ≤ nf → (∀ v ∈ vs, dbp + v.1 < nf) → (vs.map Prod.fst).Nodup →
    nf' = nf + visitLen vs ∧ Keeps s.buf s'.buf (dataRegion dbp vs nf nf') ∧
    (∀ A k cell B, vs = A ++ (k, cell) :: B → CellHeld e s'.buf dbp k (nf + visitLen A) cell) ∧
    s.buf.length ≤ s'.buf.length ∧ s'.buf.length ≤ max s.buf.length (nf' * 4 - 4) ∧
    (vs = [] → s' = s) ∧
    (∀ A k, vs = A ++ [(k, none)] → s'.pos = (dbp + k + 1) * 4 - 4) ∧
    (∀ A k r, vs = A ++ [(k, some r)] → s'.pos = nf' * 4 - 4 ∧ (1 ≤ cellLen (some r) → nf' * 4 - 4 ≤ s'.buf.length)) := by
  intro vs
  induction vs with
  | nil =>
    intro nf nf' s s' h hnf _ _
    simp only [dataLoop, Except.ok.injEq, Prod.mk.injEq] at h
    obtain ⟨rfl, rfl⟩ := h
    exact ⟨by simp [visitLen], Keeps.refl _ _, by simp, Nat.le_refl _, by omega, fun _ => rfl, by simp, by simp⟩
  | cons v vs ih =>
    obtain ⟨k, cell⟩ := v
    intro nf nf' s s' h hnf hlt hnd
    have hk : dbp + k < nf := hlt (k, cell) List.mem_cons_self
    have hlt' : ∀ v ∈ vs, dbp + v.1 < nf := fun v hv => hlt v (List.mem_cons_of_mem _ hv)
    simp only [List.map_cons, List.nodup_cons] at hnd
    have hnk : ∀ v ∈ vs, v.1 ≠ k := by
      intro v hv hc
      exact hnd.1 (List.mem_map.2 ⟨v, hv, hc⟩)
    cases cell with
    | none =>
      simp only [dataLoop] at h
      obtain ⟨s1, h1, h⟩ := Except.bind_ok h
      obtain ⟨g1, g2, g3, g4⟩ := putWord_spec h1 (by omega : 1 ≤ dbp + k) (jumpTo_pos s _)
      have g3' := g3.of_jump
      obtain ⟨i1, i2, i3, i4, i5, i6, i7, i8⟩ := ih nf nf' s1 s' h hnf hlt' hnd.2
      have hlen : visitLen ((k, none) :: vs) = visitLen vs := by simp [visitLen_cons, cellLen]
      have hkeep : ∀ i, (dbp + k) * 4 - 4 ≤ i → i < (dbp + k + 1) * 4 - 4 → ¬ dataRegion dbp vs nf nf' i := by
        rintro i a b (⟨v, hv, c, d⟩ | ⟨c, d⟩)
        · have := hnk v hv; omega
        · omega
      refine ⟨by rw [hlen]; exact i1, ?_, ?_, ?_, ?_, by simp, ?_, ?_⟩
      · refine g3'.keeps.trans i2 ?_ ?_
        · intro i hi; exact Or.inl ⟨_, List.mem_cons_self, hi⟩
        · rintro i (⟨v, hv, c⟩ | c)
          · exact Or.inl ⟨v, List.mem_cons_of_mem _ hv, c⟩
          · exact Or.inr c
      · intro A k' cell' B hs
        cases A with
        | nil =>
          simp only [List.nil_append, List.cons.injEq, Prod.mk.injEq] at hs
          obtain ⟨⟨rfl, rfl⟩, rfl⟩ := hs
          exact HoldsW.keep (by omega) g1 i2 (fun i a b => hkeep i a b)
        | cons a A =>
          simp only [List.cons_append, List.cons.injEq] at hs
          obtain ⟨rfl, hs⟩ := hs
          have := i3 A k' cell' B hs
          simpa [visitLen_cons, cellLen] using this
      · have := g3'.ge; omega
      · have := g3'.le; omega
      · intro A k' hs
        cases A with
        | nil =>
          simp only [List.nil_append, List.cons.injEq, Prod.mk.injEq, and_true] at hs
          obtain ⟨rfl, rfl⟩ := hs
          rw [i6 rfl]; exact g2
        | cons a A =>
          simp only [List.cons_append, List.cons.injEq] at hs
          exact i7 A k' hs.2
      · intro A k' r hs
        cases A with
        | nil => simp at hs
        | cons a A =>
          simp only [List.cons_append, List.cons.injEq] at hs
          exact i8 A k' r hs.2
    | some r =>
      simp only [dataLoop] at h
      obtain ⟨s1, h1, ha⟩ := Except.bind_ok h
      obtain ⟨ws, hr, hb⟩ := Except.bind_ok ha
      obtain ⟨s2, h2, hc⟩ := Except.bind_ok hb
      clear h ha hb
      subst hr
      obtain ⟨g1, g2, g3, g4⟩ := putWord_spec h1 (by omega : 1 ≤ dbp + k) (jumpTo_pos s _)
      have g3' := g3.of_jump
      obtain ⟨p1, p2, _, p4, p5⟩ := putWords_spec h2 hnf (jumpTo_pos s1 _)
      have p3 := (putWords_wrote h2 hnf (jumpTo_pos s1 _)).of_jump
      have hw2 : s2.word = nf + ws.length := word_of_pos (by omega) p2
      rw [hw2] at hc
      obtain ⟨i1, i2, i3, i4, i5, i6, i7, i8⟩ := ih (nf + ws.length) nf' s2 s' hc (by omega)
        (fun v hv => by have := hlt' v hv; omega) hnd.2
      have hlen : visitLen ((k, some (.ok ws)) :: vs) = ws.length + visitLen vs := by simp [visitLen_cons, cellLen]
      have hkeepP : ∀ i, (dbp + k) * 4 - 4 ≤ i → i < (dbp + k + 1) * 4 - 4 →
          ¬ dataRegion dbp vs (nf + ws.length) nf' i := by
        rintro i a b (⟨v, hv, c, d⟩ | ⟨c, d⟩)
        · have := hnk v hv; omega
        · omega
      have hkeepD : ∀ i, nf * 4 - 4 ≤ i → i < (nf + ws.length) * 4 - 4 →
          ¬ dataRegion dbp vs (nf + ws.length) nf' i := by
        rintro i a b (⟨v, hv, c, d⟩ | ⟨c, d⟩)
        · have := hlt' v hv; omega
        · omega
      have c1 : HoldsW e s'.buf (dbp + k) [.int nf] := by
        have := g1.keep (by omega) p3.keeps (fun i a b => by simp only [List.length_singleton] at b; omega)
        exact this.keep (by omega) i2 (fun i a b => hkeepP i a b)
      have c2 : HoldsW e s'.buf nf ws := p1.keep hnf i2 hkeepD
      refine ⟨by rw [hlen]; omega, ?_, ?_, ?_, ?_, by simp, ?_, ?_⟩
      · refine (g3'.keeps.trans p3.keeps (T := dataRegion dbp ((k, some (.ok ws)) :: vs) nf nf') ?_ ?_).trans i2 ?_ ?_
        · intro i hi; exact Or.inl ⟨_, List.mem_cons_self, hi⟩
        · intro i hi; exact Or.inr (by omega)
        · intro i hi; exact hi
        · rintro i (⟨v, hv, c⟩ | c)
          · exact Or.inl ⟨v, List.mem_cons_of_mem _ hv, c⟩
          · exact Or.inr (by omega)
      · intro A k' cell' B hs
        cases A with
        | nil =>
          simp only [List.nil_append, List.cons.injEq, Prod.mk.injEq] at hs
          obtain ⟨⟨rfl, rfl⟩, rfl⟩ := hs
          exact ⟨ws, rfl, by simpa [visitLen] using c1, by simpa [visitLen] using c2⟩
        | cons a A =>
          simp only [List.cons_append, List.cons.injEq] at hs
          obtain ⟨rfl, hs⟩ := hs
          have := i3 A k' cell' B hs
          rw [visitLen_cons]
          simp only [cellLen]
          rw [← Nat.add_assoc]; exact this
      · have := g3'.ge; have := p3.ge; omega
      · have := g3'.le; have := p3.le; omega
      · intro A k' hs
        cases A with
        | nil => simp at hs
        | cons a A =>
          simp only [List.cons_append, List.cons.injEq] at hs
          exact i7 A k' hs.2
      · intro A k' r' hs
        cases A with
        | nil =>
          simp only [List.nil_append, List.cons.injEq, Prod.mk.injEq, Option.some.injEq] at hs
          obtain ⟨⟨rfl, rfl⟩, rfl⟩ := hs
          rw [i6 rfl]
          have : nf' = nf + ws.length := by rw [i1]; simp [visitLen]
          rw [this]
          refine ⟨p2, ?_⟩
          intro hc
          simp only [cellLen] at hc
          have := p4 (by rintro rfl; simp at hc)
          omega
        | cons a A =>
          simp only [List.cons_append, List.cons.injEq] at hs
          exact i8 A k' r' hs.2

/-! ## File headers -/

/-- Structures held one after the other. -/
def HoldsS (e : Endian) (b : Bytes) : Nat → List (List Fmt × List Val) → Prop
  | _, [] => True
  | p, (fs, vs) :: r => HoldsV e b p fs vs ∧ HoldsS e b (p + fmtSize fs) r

/-- Total size of structures. -/
def bodySize (r : List (List Fmt × List Val)) : Nat := (r.map fun x => fmtSize x.1).sum

theorem HoldsS.keep {e : Endian} {b b' : Bytes} {R : Nat → Prop} {r : List (List Fmt × List Val)} {p : Nat}
    (h : HoldsS e b p r) (k : Keeps b b' R) (hR : ∀ i, p ≤ i → i < p + bodySize r → ¬ R i) : HoldsS e b' p r := by
  induction r generalizing p with
  | nil => trivial
  | cons x r ih =>
    obtain ⟨fs, vs⟩ := x
    have hb : bodySize ((fs, vs) :: r) = fmtSize fs + bodySize r := by simp [bodySize]
    refine ⟨h.1.keep k (fun i a b => hR i a (by omega)), ih h.2 (fun i a b => hR i (by omega) (by omega))⟩

theorem putStructs_spec {e : Endian} {r : List (List Fmt × List Val)} {s s' : Stream}
    (h : putStructs e r s = .ok s') :
    HoldsS e s'.buf s.pos r ∧ Wrote s s' s.pos (s.pos + bodySize r) := by
  induction r generalizing s with
  | nil =>
    simp only [putStructs, Except.ok.injEq] at h
    subst h
    exact ⟨trivial, Wrote.refl _ _ _⟩
  | cons x r ih =>
    obtain ⟨fs, vs⟩ := x
    simp only [putStructs] at h
    obtain ⟨s1, h1, h⟩ := Except.bind_ok h
    obtain ⟨g1, g2, g3⟩ := putStruct_spec h1
    obtain ⟨q1, q2⟩ := ih h
    rw [g2] at q1 q2
    have hb : bodySize ((fs, vs) :: r) = fmtSize fs + bodySize r := by simp [bodySize]
    refine ⟨⟨g1.keep q2.keeps (fun i a b => by omega), q1⟩, ?_⟩
    exact g3.trans q2 (by omega) (by omega) (by omega) (by omega)

/-! ## Block arithmetic -/

theorem nextBlock_spec (w : Nat) (h : 1 ≤ w) : w ≤ nextBlock w ∧ nextBlock w < w + 128 ∧ nextBlock w % 128 = 1 := by
  unfold nextBlock dmword blk
  dsimp only
  split
  · rename_i hne; omega
  · rename_i he
    have : w - ((w - 1) / 128 + 1 - 1) * 128 = 1 := by
      by_contra hc; exact he hc
    omega

theorem fillBlock_spec {e : Endian} {s s' : Stream} {w : Nat} (h : fillBlock e s = .ok s') (hw : 1 ≤ w)
    (hpos : s.pos = w * 4 - 4) :
    Wrote s s' (w * 4 - 4) (nextBlock w * 4 - 4) ∧
      (w * 4 - 4 ≤ s.buf.length → nextBlock w * 4 - 4 ≤ s'.buf.length) := by
  unfold fillBlock at h
  rw [word_of_pos hw hpos] at h
  unfold nextBlock
  by_cases hne : (dmword w).2 ≠ 1
  · simp only [hne, ne_eq, not_false_eq_true, if_true] at h ⊢
    obtain ⟨_, _, _, g4, _⟩ := putWords_spec h hw hpos
    have g3 := putWords_wrote h hw hpos
    simp only [List.length_replicate] at g3 g4
    have hd : (dmword w).2 = w - ((w - 1) / 128 + 1 - 1) * 128 := rfl
    have hd1 : (dmword w).1 = (w - 1) / 128 + 1 := rfl
    have he : w + (blk - (dmword w).2 + 1) = (dmword w).1 * blk + 1 := by
      rw [hd, hd1]; unfold blk; omega
    rw [he] at g3 g4
    refine ⟨g3, fun _ => ?_⟩
    have := g4 (by intro hc; simp at hc)
    omega
  · have he : (dmword w).2 = 1 := by simpa using hne
    simp only [he, ne_eq, not_true_eq_false, if_false, Except.ok.injEq] at h ⊢
    subst h
    exact ⟨Wrote.refl _ _ _, fun h => h⟩

/-! ## The whole file -/

/-- The shape of the objects the subclasses build. -/
structure DMFile.WF (f : DMFile) : Prop where
  parts : ∀ p ∈ f.parts, p.offset.length = p.params.length ∧ p.scale.length = p.params.length ∧
    p.bits.length = p.params.length
  body : bodySize f.fileBody ≤ 4 * (f.fileHeaders.map fun h => h.length + 1).sum
  rowKeys : ∀ x ∈ f.rowHeaders, ∀ vs, x = .ok vs → vs.length = f.rowNames.length
  rowCount : f.rowHeaders.length ≤ f.rows
  rowInit : f.rowInit = false → f.rowHeaders.length = f.rows
  columnKeys : ∀ x ∈ f.columnHeaders, ∀ vs, x = .ok vs → vs.length = f.columnNames.length
  columnCount : f.columnHeaders.length ≤ f.columns
  visitLt : ∀ v ∈ f.visits, v.1 < f.parts.length * f.rows * f.columns
  visitNodup : (f.visits.map Prod.fst).Nodup
  visitLast : ∀ A v, f.visits = A ++ [v] → v.1 + 1 = f.parts.length * f.rows * f.columns

/-- Contents of a saved file up to the pointer table. -/
structure Head (e : Endian) (f : DMFile) (b : Bytes) : Prop where
  label : HoldsV e b 0 labelFmts (labelVals f (setPointers f))
  rowKeys : HoldsW e b (setPointers f).rowKeys (f.rowNames.map nameWord)
  columnKeys : HoldsW e b (setPointers f).columnKeys (f.columnNames.map nameWord)
  fileKeys : f.fileHeaders ≠ [] → HoldsW e b (setPointers f).fileKeys (fileKeyWords f) ∧
    HoldsS e b (((setPointers f).fileKeys + 3 * f.fileHeaders.length) * 4 - 4) f.fileBody
  parts : HoldsW e b (setPointers f).parts (partWords f)
  rowHeaders : ∃ vss, f.rowHeaders = vss.map .ok ∧ (∀ vs ∈ vss, vs.length = f.rowNames.length) ∧
    HoldsW e b (setPointers f).rowHeaders
      (usedWords vss ++ List.replicate ((f.rows - vss.length) * (f.rowNames.length + 1)) (.int (-9999)))
  columnHeaders : ∃ vss, f.columnHeaders = vss.map .ok ∧ (∀ vs ∈ vss, vs.length = f.columnNames.length) ∧
    HoldsW e b (setPointers f).columnHeaders
      (usedWords vss ++ List.replicate ((f.columns - vss.length) * (f.columnNames.length + 1)) (.int (-9999)))
  dataMgmt : HoldsV e b 512 dataMgmtFmts (dataMgmtVals ((setPointers f).nextFree + visitLen f.visits))

/-- Contents of a saved file. -/
structure Saved (e : Endian) (f : DMFile) (b : Bytes) : Prop where
  head : Head e f b
  cells : ∀ A k cell B, f.visits = A ++ (k, cell) :: B →
    CellHeld e b (setPointers f).dataBlock k ((setPointers f).nextFree + visitLen A) cell
  length_le : b.length ≤ nextBlock ((setPointers f).nextFree + visitLen f.visits) * 4 - 4
  length_eq : ∀ A k r, f.visits = A ++ [(k, some r)] → 1 ≤ cellLen (some r) →
    b.length = nextBlock ((setPointers f).nextFree + visitLen f.visits) * 4 - 4
  length_none : ∀ A k, f.visits = A ++ [(k, none)] → b.length ≤ ((setPointers f).nextFree + visitLen f.visits) * 4 - 4

/-- Order of the regions. -/
structure Layout (f : DMFile) (p : Pointers) : Prop where
  rowKeys : p.rowKeys = 257
  columnKeys : p.columnKeys = p.rowKeys + f.rowNames.length
  fileKeys : p.fileKeys = p.columnKeys + f.columnNames.length
  fileEnd : p.fileKeys + 3 * f.fileHeaders.length + (f.fileHeaders.map fun h => h.length + 1).sum ≤ p.rowHeaders
  columnHeaders : p.columnHeaders = p.rowHeaders + f.rows * (f.rowNames.length + 1)
  columnEnd : p.columnHeaders + f.columns * (f.columnNames.length + 1) ≤ p.parts
  partsEnd : p.parts + 4 * f.parts.length + 4 * (f.parts.map fun p => p.params.length).sum ≤ p.dataBlock
  tableEnd : p.dataBlock + f.parts.length * f.rows * f.columns ≤ p.nextFree
  free : p.nextFree = nextBlock (p.dataBlock + f.parts.length * f.rows * f.columns)
  aligned : p.rowHeaders % 128 = 1 ∧ p.parts % 128 = 1 ∧ p.dataBlock % 128 = 1 ∧ p.nextFree % 128 = 1

theorem setPointers_layout (f : DMFile) : Layout f (setPointers f) := by
  unfold setPointers
  dsimp only
  have h1 := nextBlock_spec (129 + blk + f.rowNames.length + f.columnNames.length + 3 * f.fileHeaders.length +
    (f.fileHeaders.map fun h => h.length + 1).sum) (by unfold blk; omega)
  generalize hR : nextBlock (129 + blk + f.rowNames.length + f.columnNames.length + 3 * f.fileHeaders.length +
    (f.fileHeaders.map fun h => h.length + 1).sum) = R at *
  have hb : blk = 128 := rfl
  rw [hb] at h1 ⊢
  have h2 := nextBlock_spec (R + f.rows * (f.rowNames.length + 1) + f.columns * (f.columnNames.length + 1)) (by omega)
  generalize hP : nextBlock (R + f.rows * (f.rowNames.length + 1) + f.columns * (f.columnNames.length + 1)) = P at *
  have h3 := nextBlock_spec (P + 4 * f.parts.length + 4 * (f.parts.map fun p => p.params.length).sum) (by omega)
  generalize hD : nextBlock (P + 4 * f.parts.length + 4 * (f.parts.map fun p => p.params.length).sum) = D at *
  have h4 := nextBlock_spec (D + f.parts.length * f.rows * f.columns) (by omega)
  refine ⟨rfl, rfl, rfl, h1.1, rfl, h2.1, h3.1, h4.1, rfl, h1.2.2, h2.2.2, h3.2.2, h4.2.2⟩

theorem partWords_length {f : DMFile} (h : ∀ p ∈ f.parts, p.offset.length = p.params.length ∧
    p.scale.length = p.params.length ∧ p.bits.length = p.params.length) :
    (partWords f).length = 4 * f.parts.length + 4 * (f.parts.map fun p => p.params.length).sum := by
  have hs : ∀ (g : Part → List Int), (∀ p ∈ f.parts, (g p).length = p.params.length) →
      (f.parts.flatMap fun p => (g p).map Val.int).length = (f.parts.map fun p => p.params.length).sum := by
    intro g hg
    rw [List.length_flatMap]
    congr 1
    apply List.map_congr_left
    intro p hp
    simp [hg p hp]
  unfold partWords
  simp only [List.length_append, List.length_map]
  rw [hs (fun p => p.offset) (fun p hp => (h p hp).1), hs (fun p => p.scale) (fun p hp => (h p hp).2.1),
    hs (fun p => p.bits) (fun p hp => (h p hp).2.2)]
  have : (f.parts.flatMap fun p => p.params.map nameWord).length = (f.parts.map fun p => p.params.length).sum := by
    rw [List.length_flatMap]; congr 1; apply List.map_congr_left; intro p _; simp
  rw [this]; omega

theorem fileKeyWords_length (f : DMFile) : (fileKeyWords f).length = 3 * f.fileHeaders.length := by
  simp [fileKeyWords]; omega

theorem labelFmts_size : fmtSize labelFmts = 124 := by decide +kernel

theorem dataMgmtFmts_size : fmtSize dataMgmtFmts = 480 := by decide +kernel

theorem nextBlock_mono {a b : Nat} (ha : 1 ≤ a) (h : a ≤ b) : nextBlock a ≤ nextBlock b := by
  have := nextBlock_spec a ha
  have := nextBlock_spec b (by omega)
  omega

theorem nextBlock_id {w : Nat} (h : w % 128 = 1) : nextBlock w = w := by
  have := nextBlock_spec w (by omega)
  omega

theorem save_spec {e : Endian} {f : DMFile} {b : Bytes} (wf : f.WF) (h : save e f = .ok b) : Saved e f b := by
  have L := setPointers_layout f
  have hpl := partWords_length wf.parts
  have hfl := fileKeyWords_length f
  unfold save at h
  obtain ⟨⟨b', nf'⟩, h0, h00⟩ := Except.bind_ok h
  simp only [Except.ok.injEq] at h00
  subst h00
  clear h
  unfold saveWith at h0
  dsimp only at h0
  generalize hp : setPointers f = p at *
  obtain ⟨s1, h1, k1⟩ := Except.bind_ok h0
  obtain ⟨s2, h2, k2⟩ := Except.bind_ok k1
  obtain ⟨s3, h3, k3⟩ := Except.bind_ok k2
  obtain ⟨s4, h4, k4⟩ := Except.bind_ok k3
  obtain ⟨s5, h5, k5⟩ := Except.bind_ok k4
  obtain ⟨s6, h6, k6⟩ := Except.bind_ok k5
  obtain ⟨s7, h7, k7⟩ := Except.bind_ok k6
  obtain ⟨⟨s8, nf⟩, h8, k8⟩ := Except.bind_ok k7
  obtain ⟨s9, h9, k9⟩ := Except.bind_ok k8
  obtain ⟨s10, h10, k10⟩ := Except.bind_ok k9
  simp only [Except.ok.injEq, Prod.mk.injEq] at k10
  obtain ⟨rfl, rfl⟩ := k10
  clear h0 k1 k2 k3 k4 k5 k6 k7 k8 k9
  have l1 := L.rowKeys
  have l2 := L.columnKeys
  have l3 := L.fileKeys
  have l4 := L.fileEnd
  have l5 := L.columnHeaders
  have l6 := L.columnEnd
  have l7 := L.partsEnd
  have l8 := L.tableEnd
  have l9 := L.aligned
  have hbody := wf.body
  generalize (f.fileHeaders.map fun h => h.length + 1).sum = lenfil at *
  generalize hrl : f.rows * (f.rowNames.length + 1) = rl at *
  generalize hcl : f.columns * (f.columnNames.length + 1) = cl at *
  generalize (f.parts.map fun p => p.params.length).sum = lenpart at *
  generalize hT : f.parts.length * f.rows * f.columns = T at *
  -- label
  obtain ⟨a1, a2, a3⟩ := putStruct_spec h1
  rw [labelFmts_size] at a3 a2
  simp only [Nat.zero_add] at a3 a2
  -- row keys
  obtain ⟨b1, _, _, _, _⟩ := putWords_spec h2 (by omega) (jumpTo_pos _ _)
  have b3 := (putWords_wrote h2 (by omega) (jumpTo_pos _ _)).of_jump
  simp only [List.length_map] at b3
  -- column keys
  obtain ⟨c1, _, _, _, _⟩ := putWords_spec h3 (by omega) (jumpTo_pos _ _)
  have c3 := (putWords_wrote h3 (by omega) (jumpTo_pos _ _)).of_jump
  simp only [List.length_map] at c3
  -- file keys and headers
  have d : Wrote s3 s4 (p.fileKeys * 4 - 4) (p.rowHeaders * 4 - 4) ∧ (f.fileHeaders ≠ [] →
      HoldsW e s4.buf p.fileKeys (fileKeyWords f) ∧
      HoldsS e s4.buf ((p.fileKeys + 3 * f.fileHeaders.length) * 4 - 4) f.fileBody) := by
    unfold writeFileHeaders at h4
    by_cases hne : f.fileHeaders ≠ []
    · rw [if_pos hne] at h4
      obtain ⟨t, ht, h4⟩ := Except.bind_ok h4
      obtain ⟨d1, d2, _, _, _⟩ := putWords_spec ht (by omega) (jumpTo_pos _ _)
      have d3 := (putWords_wrote ht (by omega) (jumpTo_pos _ _)).of_jump
      obtain ⟨d4, d5⟩ := putStructs_spec h4
      rw [hfl] at d2 d3
      rw [d2] at d4 d5
      refine ⟨d3.trans d5 (by omega) (by omega) (by omega) (by omega), fun _ => ⟨?_, d4⟩⟩
      exact d1.keep (by omega) d5.keeps (fun i x y => by rw [hfl] at y; omega)
    · rw [if_neg hne] at h4
      simp only [Except.ok.injEq] at h4
      subst h4
      exact ⟨Wrote.refl _ _ _, fun hc => absurd hc hne⟩
  obtain ⟨d3, d1⟩ := d
  -- parts
  obtain ⟨e1, _, _, _, _⟩ := putWords_spec h5 (by omega) (jumpTo_pos _ _)
  have e3 := (putWords_wrote h5 (by omega) (jumpTo_pos _ _)).of_jump
  rw [hpl] at e3
  -- row headers
  obtain ⟨rv, r1, r2, r3, r4, r5⟩ := writeHeaders_spec h6 (by omega) (jumpTo_pos _ _) wf.rowKeys wf.rowCount wf.rowInit
  have r4 := r4.of_jump
  rw [hrl] at r4
  -- column headers
  obtain ⟨cv, g1, g2, g3, g4, g5⟩ := writeHeaders_spec h7 (by omega) (jumpTo_pos _ _) wf.columnKeys wf.columnCount
    (by simp)
  have g4 := g4.of_jump
  rw [hcl] at g4
  -- data
  obtain ⟨m1, m2, m3, m4, m5, m6, m7, m8⟩ := dataLoop_spec (by omega) f.visits p.nextFree nf _ s8 h8 (by omega)
    (fun v hv => by have := wf.visitLt v hv; rw [hT] at this; omega) wf.visitNodup
  rw [jumpTo_buf] at m2 m4 m5
  have hnf : p.nextFree ≤ nf := by omega
  have hT' := wf.visitLt
  rw [hT] at hT'
  have m2' : Keeps s7.buf s8.buf (fun i => p.dataBlock * 4 - 4 ≤ i) := by
    refine m2.mono ?_
    rintro i (⟨v, hv, x, y⟩ | ⟨x, y⟩) <;> omega
  -- filling
  have fill : ∃ w, w * 4 - 4 = s8.pos ∧ ((p.dataBlock + T = w ∨ (w = p.dataBlock ∧ s9 = s8)) ∨ w = nf) ∧ 1 ≤ w := by
    rcases List.eq_nil_or_concat f.visits with hv | ⟨A, ⟨k, cell⟩, hv⟩
    · refine ⟨p.dataBlock, ?_, Or.inl (Or.inr ⟨rfl, ?_⟩), by omega⟩
      · rw [m6 hv, jumpTo_pos]
      · rw [m6 hv] at h9 ⊢
        unfold fillBlock at h9
        rw [word_of_pos (w := p.dataBlock) (by omega) (jumpTo_pos _ _)] at h9
        have : (dmword p.dataBlock).2 = 1 := by
          have hd : (dmword p.dataBlock).2 = p.dataBlock - ((p.dataBlock - 1) / 128 + 1 - 1) * 128 := rfl
          omega
        simp only [this, ne_eq, not_true_eq_false, if_false, Except.ok.injEq] at h9
        exact h9.symm
    · rw [List.concat_eq_append] at hv
      cases cell with
      | none =>
        have := wf.visitLast A _ hv
        rw [hT] at this
        simp only at this
        exact ⟨p.dataBlock + k + 1, (m7 A k hv).symm, Or.inl (Or.inl (by omega)), by omega⟩
      | some r => exact ⟨nf, (m8 A k r hv).1.symm, Or.inr rfl, by omega⟩
  have free := L.free
  rw [hT] at free
  have nb := nextBlock_spec nf (by omega)
  have fill2 : ∃ lo hi, Wrote s8 s9 lo hi ∧ ((p.dataBlock + T) * 4 - 4 ≤ lo ∧ hi ≤ p.nextFree * 4 - 4 ∨
      nf * 4 - 4 ≤ lo ∧ hi ≤ nextBlock nf * 4 - 4) := by
    obtain ⟨w, w1, w2, w3⟩ := fill
    rcases w2 with (w2 | ⟨_, w2⟩) | w2
    · obtain ⟨x, _⟩ := fillBlock_spec h9 w3 w1.symm
      refine ⟨_, _, x, Or.inl ⟨by omega, ?_⟩⟩
      rw [← w2, ← free]
    · rw [w2]; exact ⟨nf * 4 - 4, nf * 4 - 4, Wrote.refl _ _ _, Or.inr ⟨by omega, by omega⟩⟩
    · obtain ⟨x, _⟩ := fillBlock_spec h9 w3 w1.symm
      exact ⟨_, _, x, Or.inr ⟨by omega, by rw [w2]⟩⟩
  obtain ⟨lo, hi, f3, f4⟩ := fill2
  -- data management block
  obtain ⟨q1, _, q3⟩ := putStruct_spec h10
  rw [jumpTo_pos, dataMgmtFmts_size] at q3
  rw [jumpTo_pos] at q1
  have q3 := q3.of_jump
  simp only [Nat.reduceMul, Nat.reduceSub, Nat.reduceAdd] at q1 q3
  rw [m1] at q1
  have f3' : Keeps s8.buf s9.buf (fun i => (p.dataBlock + T) * 4 - 4 ≤ i) :=
    f3.keeps.mono (fun i x => by rcases f4 with y | y <;> omega)
  -- what the last steps keep of everything before the data
  have tail8 : Keeps s7.buf s10.buf (fun i => (512 ≤ i ∧ i < 992) ∨ p.dataBlock * 4 - 4 ≤ i) :=
    (m2'.trans f3' (T := fun i => (512 ≤ i ∧ i < 992) ∨ p.dataBlock * 4 - 4 ≤ i) (fun i x => Or.inr x)
      (fun i x => Or.inr (by omega))).trans q3.keeps (fun i x => x) (fun i x => Or.inl x)
  have tail7 : Keeps s6.buf s10.buf (fun i => (512 ≤ i ∧ i < 992) ∨ p.dataBlock * 4 - 4 ≤ i ∨
      (p.columnHeaders * 4 - 4 ≤ i ∧ i < (p.columnHeaders + cl) * 4 - 4)) :=
    g4.keeps.trans tail8 (fun i x => by omega) (fun i x => by omega)
  have tail6 : Keeps s5.buf s10.buf (fun i => (512 ≤ i ∧ i < 992) ∨ p.dataBlock * 4 - 4 ≤ i ∨
      (p.rowHeaders * 4 - 4 ≤ i ∧ i < (p.columnHeaders + cl) * 4 - 4)) :=
    r4.keeps.trans tail7 (fun i x => by omega) (fun i x => by omega)
  have tail5 : Keeps s4.buf s10.buf (fun i => (512 ≤ i ∧ i < 992) ∨ p.rowHeaders * 4 - 4 ≤ i) :=
    e3.keeps.trans tail6 (fun i x => by omega) (fun i x => by omega)
  have tail4 : Keeps s3.buf s10.buf (fun i => (512 ≤ i ∧ i < 992) ∨ p.fileKeys * 4 - 4 ≤ i) :=
    d3.keeps.trans tail5 (fun i x => by omega) (fun i x => by omega)
  have tail3 : Keeps s2.buf s10.buf (fun i => (512 ≤ i ∧ i < 992) ∨ p.columnKeys * 4 - 4 ≤ i) :=
    c3.keeps.trans tail4 (fun i x => by omega) (fun i x => by omega)
  have tail2 : Keeps s1.buf s10.buf (fun i => (512 ≤ i ∧ i < 992) ∨ p.rowKeys * 4 - 4 ≤ i) :=
    b3.keeps.trans tail3 (fun i x => by omega) (fun i x => by omega)
  have rlen : ∀ (vss : List (List Val)) (n k : Nat), (∀ vs ∈ vss, vs.length = k) → vss.length ≤ n →
      (usedWords vss ++ List.replicate ((n - vss.length) * (k + 1)) (Val.int (-9999))).length = n * (k + 1) := by
    intro vss n k hk hn
    rw [List.length_append, List.length_replicate, usedWords_length hk, ← Nat.add_mul, Nat.add_sub_cancel' hn]
  have hrv : rv.length ≤ f.rows := by have := wf.rowCount; rw [r1] at this; simpa using this
  have hcv : cv.length ≤ f.columns := by have := wf.columnCount; rw [g1] at this; simpa using this
  -- lengths
  have mx : ∀ {x y z w : Nat}, x ≤ max y z → y ≤ w → z ≤ w → x ≤ w := by omega
  have hz : ([] : Bytes).length ≤ 1024 := by simp
  have x1 := mx a3.le hz (by omega)
  have x2 := mx b3.le (w := p.rowHeaders * 4 - 4) (Nat.le_trans x1 (by omega)) (by omega)
  have x3 := mx c3.le (w := p.rowHeaders * 4 - 4) x2 (by omega)
  have x4 := mx d3.le (w := p.rowHeaders * 4 - 4) x3 (by omega)
  have x5 := mx e3.le (w := p.dataBlock * 4 - 4) (Nat.le_trans x4 (by omega)) (by omega)
  have x6 := mx r4.le (w := p.dataBlock * 4 - 4) x5 (by omega)
  have x7 := mx g4.le (w := p.dataBlock * 4 - 4) x6 (by omega)
  have x8 := mx m5 (w := nf * 4 - 4) (Nat.le_trans x7 (by omega)) (by omega)
  have x9 := mx f3.le (w := nextBlock nf * 4 - 4) (Nat.le_trans x8 (by omega)) (by rcases f4 with y | y <;> omega)
  have hlen := mx q3.le (w := nextBlock nf * 4 - 4) x9 (by omega)
  refine ⟨⟨?_, ?_, ?_, ?_, ?_, ?_, ?_, ?_⟩, ?_, ?_, ?_, ?_⟩
  · rw [hp]
    refine a1.keep tail2 (fun i x y => ?_)
    rw [labelFmts_size] at y
    simp only at y
    omega
  · rw [hp]
    refine b1.keep (by omega) tail3 (fun i x y => ?_)
    rw [List.length_map] at y
    omega
  · rw [hp]
    refine c1.keep (by omega) tail4 (fun i x y => ?_)
    rw [List.length_map] at y
    omega
  · intro hne
    rw [hp]
    obtain ⟨d5, d6⟩ := d1 hne
    refine ⟨d5.keep (by omega) tail5 (fun i x y => ?_), d6.keep tail5 (fun i x y => ?_)⟩
    · rw [hfl] at y; omega
    · omega
  · rw [hp]
    refine e1.keep (by omega) tail6 (fun i x y => ?_)
    rw [hpl] at y
    omega
  · rw [hp]
    refine ⟨rv, r1, r2, r3.keep (by omega) tail7 (fun i x y => ?_)⟩
    rw [rlen rv f.rows _ r2 hrv, hrl] at y
    omega
  · rw [hp]
    refine ⟨cv, g1, g2, g3.keep (by omega) tail8 (fun i x y => ?_)⟩
    rw [rlen cv f.columns _ g2 hcv, hcl] at y
    omega
  · rw [hp]; exact q1
  · intro A k cell B hv
    rw [hp]
    have hk : k < T := hT' (k, cell) (by rw [hv]; simp)
    have hvl : visitLen A + cellLen cell ≤ visitLen f.visits := by
      rw [hv, visitLen_append, visitLen_cons]; dsimp only; omega
    have y := m3 A k cell B hv
    have y2 := CellHeld.keep (by omega) (by omega) y f3.keeps (fun i a b => by rcases f4 with z | z <;> omega)
      (fun i a b => by rcases f4 with z | z <;> omega)
    exact CellHeld.keep (by omega) (by omega) y2 q3.keeps (fun i a b => by omega) (fun i a b => by omega)
  · rw [hp, ← m1]; exact hlen
  · intro A k r hv hr
    rw [hp, ← m1]
    have y := m8 A k r hv
    obtain ⟨z1, z2⟩ := fillBlock_spec h9 (w := nf) (by omega) y.1
    have := z2 (y.2 hr)
    have := q3.ge
    omega
  · intro A k hv
    rw [hp, ← m1]
    have hk := wf.visitLast A _ hv
    rw [hT] at hk
    simp only at hk
    obtain ⟨z1, _⟩ := fillBlock_spec h9 (w := p.dataBlock + T) (by omega) (by rw [m7 A k hv]; omega)
    rw [← free] at z1
    have y9 := mx z1.le (w := nf * 4 - 4) x8 (by omega)
    exact mx q3.le (w := nf * 4 - 4) y9 (by omega)

end Gempak
