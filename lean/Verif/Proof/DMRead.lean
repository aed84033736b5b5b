import Verif.Proof.DMWrite
import Verif.Model.DMRead

/-! Reading a saved file. -/

namespace Gempak

theorem wtp (w : Nat) (h : 1 ≤ w) : wordToPosition (w : Int) = ((w * 4 - 4 : Nat) : Int) := by
  unfold wordToPosition; omega

theorem wtp_add (w n : Nat) : wordToPosition (w : Int) + (4 * n : Nat) = wordToPosition ((w + n : Nat) : Int) := by
  unfold wordToPosition; push_cast; omega

theorem ok_bind {α β ε : Type} (a : α) (f : α → Except ε β) : (Except.ok a >>= f) = f a := rfl

/-- Split off the first field. -/
theorem HoldsV.cons {e : Endian} {b : Bytes} {p : Nat} {f : Fmt} {fs : List Fmt} {v : Val} {vs : List Val}
    (hf : f.hasVal = true) (h : HoldsV e b p (f :: fs) (v :: vs)) :
    HoldsV e b p [f] [v] ∧ HoldsV e b (p + f.size) fs vs := by
  obtain ⟨bs, hp, hh⟩ := h
  have hfit := (packFmts_ok_iff e _ _).1 ⟨bs, hp⟩
  rw [valFmts, List.filter_cons_of_pos hf] at hfit
  cases hfit with
  | cons h1 h2 =>
    obtain ⟨c, hc, hl, _⟩ := unpackOne_packOne e f v h1
    rw [packFmts_cons e f fs v vs hf c hc] at hp
    have h3 : packFmts e [f] [v] = .ok c := by
      rw [packFmts_cons e f [] v [] hf c hc]; simp [packFmts, Except.map]
    cases hq : packFmts e fs vs with
    | error x => rw [hq] at hp; simp [Except.map] at hp
    | ok d =>
      rw [hq] at hp
      simp only [Except.map, Except.ok.injEq] at hp
      subst hp
      rw [Holds.append, hl] at hh
      exact ⟨⟨c, h3, hh.1⟩, d, hq, hh.2⟩

/-- The bytes of one field. -/
theorem HoldsV.one {e : Endian} {b : Bytes} {p : Nat} {f : Fmt} {v : Val} (hf : f.hasVal = true)
    (h : HoldsV e b p [f] [v]) : unpackOne e f ((b.drop p).take f.size) = [canon f v] ∧ (0 < f.size → p + f.size ≤ b.length) := by
  obtain ⟨bs, hp, hh⟩ := h
  have hfit := (packFmts_ok_iff e _ _).1 ⟨bs, hp⟩
  rw [valFmts, List.filter_cons_of_pos hf] at hfit
  cases hfit with
  | cons h1 h2 =>
    obtain ⟨c, hc, hl, hu⟩ := unpackOne_packOne e f v h1
    rw [packFmts_cons e f [] v [] hf c hc] at hp
    simp only [packFmts, Except.map, List.append_nil, Except.ok.injEq] at hp
    subst hp
    have := hh.slice
    rw [hl] at this
    refine ⟨by rw [this, hu], fun hs => ?_⟩
    have := hh.length_le (by rintro rfl; simp at hl; omega)
    omega

theorem fmt_size4 (v : Val) : v.fmt.size = 4 := by cases v <;> rfl

theorem fmt_hasVal (v : Val) : v.fmt.hasVal = true := by cases v <;> rfl

theorem HoldsW.one {e : Endian} {b : Bytes} {w : Nat} {v : Val} (h : HoldsW e b w [v]) :
    unpackOne e v.fmt ((b.drop (w * 4 - 4)).take 4) = [canonW v] ∧ w * 4 - 4 + 4 ≤ b.length := by
  have := HoldsV.one (fmt_hasVal v) h
  rw [fmt_size4] at this
  exact ⟨this.1, this.2 (by omega)⟩

theorem unpackItems_append (e : Endian) (fs gs : List Fmt) (b : Bytes) :
    unpackItems e (fs ++ gs) b = unpackItems e fs b ++ unpackItems e gs (b.drop (fmtSize fs)) := by
  induction fs generalizing b with
  | nil => simp [unpackItems, fmtSize]
  | cons f fs ih =>
    have hs : fmtSize (f :: fs) = f.size + fmtSize fs := by simp [fmtSize]
    simp only [List.cons_append, unpackItems, ih, List.append_assoc, List.drop_drop, hs]

theorem unpackItems_one (e : Endian) (f : Fmt) (b : Bytes) : unpackItems e [f] b = unpackOne e f (b.take f.size) := by
  simp [unpackItems]

theorem unpackFrom_nat (e : Endian) (fs : List Fmt) (b : Bytes) (p : Nat) (h : p + fmtSize fs ≤ b.length) :
    unpackFrom e fs b (p : Int) = .ok (unpackItems e fs (b.drop p)) := by
  unfold unpackFrom
  have h1 : ¬ ((p : Int) < 0) := by omega
  simp only [h1, if_false, Int.toNat_natCast, h, if_true]

theorem readWord_length {e : Endian} {b : Bytes} {w : Nat} {v : Val} (hw : 1 ≤ w) (h : HoldsW e b w [v]) :
    (pySlice b (wordToPosition w) (wordToPosition w + 4)).length = 4 := by
  have h1 := h.one.2
  have e2 : wordToPosition (w : Int) + 4 = ((w * 4 - 4 + 4 : Nat) : Int) := by rw [wtp w hw]; simp
  rw [e2, wtp w hw, pySlice_nat _ _ _ (by omega), List.length_take, List.length_drop]
  omega

/-- Names that fit a word. -/
def Name4 (s : Text) : Prop := Trimmed s ∧ (utf8 (ljust 4 s)).length = 4

theorem textOf_name {s : Text} (h : Name4 s) : textOf (canonW (nameWord s)) = .ok s := decodeStrip_str4 s h.1 h.2

theorem mapM_textOf {ns : List Text} (h : ∀ s ∈ ns, Name4 s) : ((ns.map nameWord).map canonW).mapM textOf = .ok ns := by
  induction ns with
  | nil => rfl
  | cons s ns ih =>
    have h1 := textOf_name (h s List.mem_cons_self)
    have h2 := ih (fun t ht => h t (List.mem_cons_of_mem _ ht))
    simp only [List.map_cons, List.mapM_cons, h1, h2, bind, Except.bind, pure, Except.pure]

theorem readKeys_spec {e : Endian} {b : Bytes} {w : Nat} {ns : List Text} (hw : 1 ≤ w) (hne : ns ≠ [])
    (h : HoldsW e b w (ns.map nameWord)) (hn : ∀ s ∈ ns, Name4 s) : readKeys e b w ns.length = .ok ns := by
  have hf : (ns.map nameWord).map Val.fmt = List.replicate ns.length (.str 4) := by
    rw [List.map_map, List.eq_replicate_iff]
    refine ⟨by simp, ?_⟩
    intro f hf
    obtain ⟨s, _, rfl⟩ := List.mem_map.1 hf
    rfl
  have h1 := h.read hw (by simpa using hne)
  rw [hf] at h1
  unfold readKeys
  rw [Int.toNat_natCast, h1]
  exact mapM_textOf hn

/-! ## Headers -/

theorem toU32_flag : (toU32 9999 : Int) = 9999 := by decide
theorem toU32_missing : (toU32 (-9999) : Int) ≠ 9999 := by decide

theorem readHeaders_unused {α : Type} {e : Endian} {b : Bytes} {fs : List Fmt} {conv : List Val → Except PyErr α}
    (n m : Nat) (w : Nat) (hw : 1 ≤ w) (h : HoldsW e b w (List.replicate m (.int (-9999)))) (hn : n ≤ m) :
    readHeaders e b fs conv n (wordToPosition w) = .ok [] := by
  induction n generalizing m w with
  | zero => rfl
  | succ n ih =>
    obtain ⟨m, rfl⟩ : ∃ k, m = k + 1 := ⟨m - 1, by omega⟩
    rw [List.replicate_succ] at h
    have h' : HoldsW e b w ([.int (-9999)] ++ List.replicate m (.int (-9999))) := h
    obtain ⟨h1, h2⟩ := HoldsW.append hw h'
    have h3 := (h1.readWord hw).2
    have h4 := readWord_length hw h1
    unfold readHeaders
    dsimp only
    rw [h3, h4, if_neg toU32_missing]
    have := ih m (w + 1) (by omega) h2 (by omega)
    rw [← wtp_add] at this
    exact this

/-- Reading back the headers written: the used ones, in order. -/
theorem readHeaders_spec {α : Type} {e : Endian} {b : Bytes} {fs : List Fmt} {conv : List Val → Except PyErr α}
    (g : List Val → α) (vss : List (List Val)) (n m w : Nat) (hw : 1 ≤ w)
    (h : HoldsW e b w (usedWords vss ++ List.replicate m (.int (-9999)))) (hn : n ≤ m) (hne : fs ≠ [])
    (hf : ∀ vs ∈ vss, vs.map Val.fmt = fs) (hc : ∀ vs ∈ vss, conv (vs.map canonW) = .ok (g vs)) :
    readHeaders e b fs conv (vss.length + n) (wordToPosition w) = .ok (vss.map g) := by
  induction vss generalizing w with
  | nil =>
    have h' : HoldsW e b w (List.replicate m (.int (-9999))) := h
    simpa using readHeaders_unused n m w hw h' hn
  | cons vs vss ih =>
    have e1 : usedWords (vs :: vss) ++ List.replicate m (.int (-9999)) =
        [Val.int 9999] ++ (vs ++ (usedWords vss ++ List.replicate m (.int (-9999)))) := by
      simp [usedWords]
    rw [e1] at h
    obtain ⟨h1, h2⟩ := HoldsW.append hw h
    obtain ⟨h2, h5⟩ := HoldsW.append (by omega) h2
    simp only [List.length_singleton] at h2 h5
    have h3 := (h1.readWord hw).2
    have h4 := readWord_length hw h1
    have hfs := hf vs List.mem_cons_self
    have hvne : vs ≠ [] := by rintro rfl; simp at hfs; exact hne hfs
    have h6 := h2.read (by omega) hvne
    rw [hfs] at h6
    have hsz : fmtSize fs = 4 * vs.length := by rw [← hfs, fmtSize_words]
    have e2 : (vs :: vss).length + n = (vss.length + n) + 1 := by simp; omega
    rw [e2]
    unfold readHeaders
    dsimp only
    rw [h3, h4, if_pos toU32_flag]
    have e3 : wordToPosition (w : Int) + ((4 : Nat) : Int) = wordToPosition ((w + 1 : Nat) : Int) := by
      have := wtp_add w 1; simpa using this
    rw [e3, h6, hsz, wtp_add]
    have h7 := ih (w + 1 + vs.length) (by omega) h5 (fun v hv => hf v (List.mem_cons_of_mem _ hv))
      (fun v hv => hc v (List.mem_cons_of_mem _ hv))
    rw [h7]
    simp only [bind, Except.bind, hc vs List.mem_cons_self, List.map_cons]

/-! ## Parts -/

/-- What the reader should learn about a part. -/
def Part.info (p : Part) : PartInfo := ⟨p.name, p.header, p.type, p.params.length⟩

theorem HoldsW.int {e : Endian} {b : Bytes} {w : Nat} {i : Int} (h : HoldsW e b w [.int i]) :
    unpackOne e .i32 ((b.drop (w * 4 - 4)).take 4) = [.int i] := h.one.1

theorem HoldsW.name {e : Endian} {b : Bytes} {w : Nat} {s : Text} (h : HoldsW e b w [nameWord s]) :
    unpackOne e (.str 4) ((b.drop (w * 4 - 4)).take 4) = [.str (str4 s)] := h.one.1

theorem readPart_spec {e : Endian} {b : Bytes} {w N : Nat} {p : Part} (hw : 1 ≤ w) (hN : 1 ≤ N)
    (h1 : HoldsW e b w [nameWord p.name]) (h2 : HoldsW e b (w + N) [.int p.header])
    (h3 : HoldsW e b (w + 2 * N) [.int p.type]) (h4 : HoldsW e b (w + 3 * N) [.int p.params.length])
    (hn : Name4 p.name) (ht : 1 ≤ p.type ∧ p.type ≤ 5) :
    (unpackFrom e (partFmts N) b (wordToPosition w) >>= partOf) = .ok p.info := by
  have hl := h4.one.2
  have hs : fmtSize (partFmts N) = 4 + (N - 1) * 4 + 4 + (N - 1) * 4 + 4 + (N - 1) * 4 + 4 := by
    simp [partFmts, fmtSize, Fmt.size]; omega
  rw [wtp w hw, unpackFrom_nat _ _ _ _ (by rw [hs]; omega)]
  have a1 := h1.name
  have a2 := h2.int
  have a3 := h3.int
  have a4 := h4.int
  have d2 : w * 4 - 4 + 4 + (N - 1) * 4 = (w + N) * 4 - 4 := by omega
  have d3 : (w + N) * 4 - 4 + 4 + (N - 1) * 4 = (w + 2 * N) * 4 - 4 := by omega
  have d4 : (w + 2 * N) * 4 - 4 + 4 + (N - 1) * 4 = (w + 3 * N) * 4 - 4 := by omega
  have hp : ∀ n x, unpackOne e (.pad n) x = [] := fun _ _ => rfl
  have s1 : (Fmt.str 4).size = 4 := rfl
  have s2 : Fmt.i32.size = 4 := rfl
  have s3 : ∀ n, (Fmt.pad n).size = n := fun _ => rfl
  have key : unpackItems e (partFmts N) (b.drop (w * 4 - 4)) =
      [.str (str4 p.name), .int p.header, .int p.type, .int p.params.length] := by
    simp only [partFmts, unpackItems, List.drop_drop, s1, s2, s3, hp, d2, d3, d4, a1, a2, a3, a4, List.nil_append,
      List.append_nil, List.cons_append]
  rw [key]
  simp only [bind, Except.bind, partOf, decodeStrip_str4 p.name hn.1 hn.2, ht, and_self, if_true, Part.info]

theorem HoldsW.getMap {α : Type} {e : Endian} {b : Bytes} {w : Nat} {xs : List α} {g : α → Val} (hw : 1 ≤ w)
    (h : HoldsW e b w (xs.map g)) (k : Nat) (x : α) (hk : xs[k]? = some x) : HoldsW e b (w + k) [g x] :=
  h.get hw k (g x) (by simp [hk])

theorem readParts_spec {e : Endian} {b : Bytes} {w : Nat} {ps : List Part} (hw : 1 ≤ w)
    (h1 : HoldsW e b w (ps.map fun p => nameWord p.name)) (h2 : HoldsW e b (w + ps.length) (ps.map fun p => .int p.header))
    (h3 : HoldsW e b (w + 2 * ps.length) (ps.map fun p => .int p.type))
    (h4 : HoldsW e b (w + 3 * ps.length) (ps.map fun p => .int p.params.length))
    (hn : ∀ p ∈ ps, Name4 p.name) (ht : ∀ p ∈ ps, 1 ≤ p.type ∧ p.type ≤ 5) (k : Nat) (hk : k ≤ ps.length) :
    readParts e b w ps.length k = .ok ((ps.map Part.info).drop (ps.length - k)) := by
  induction k with
  | zero => simp [readParts]
  | succ k ih =>
    have hlt : ps.length - (k + 1) < ps.length := by omega
    have hx : ps[ps.length - (k + 1)]? = some ps[ps.length - (k + 1)] := List.getElem?_eq_getElem hlt
    have hmem : ps[ps.length - (k + 1)] ∈ ps := List.getElem_mem hlt
    have r := readPart_spec (N := ps.length) (w := w + (ps.length - (k + 1))) (by omega) (by omega)
      (h1.getMap hw _ _ hx)
      (by have := h2.getMap (by omega) _ _ hx; rwa [Nat.add_right_comm] at this)
      (by have := h3.getMap (by omega) _ _ hx; rwa [Nat.add_right_comm] at this)
      (by have := h4.getMap (by omega) _ _ hx; rwa [Nat.add_right_comm] at this) (hn _ hmem) (ht _ hmem)
    unfold readParts
    have e1 : ((w : Int) + ((ps.length - (k + 1) : Nat) : Int)) = ((w + (ps.length - (k + 1)) : Nat) : Int) := by simp
    rw [e1, r, ih (by omega)]
    simp only [bind, Except.bind, Except.ok.injEq]
    have e2 : ps.length - k = ps.length - (k + 1) + 1 := by omega
    rw [e2]
    rw [List.drop_eq_getElem_cons (i := ps.length - (k + 1)) (by simpa using hlt)]
    simp

theorem readMany_spec {α β : Type} {e : Endian} {b : Bytes} {rd : Int → Except PyErr β} {enc : α → Val} {g : α → β}
    (xs : List α) (hrd : ∀ x ∈ xs, ∀ w : Nat, 1 ≤ w → HoldsW e b w [enc x] → rd (wordToPosition w) = .ok (g x))
    (w : Nat) (hw : 1 ≤ w) (h : HoldsW e b w (xs.map enc)) :
    readMany rd xs.length (wordToPosition w) = .ok (xs.map g, wordToPosition ((w + xs.length : Nat) : Int)) := by
  induction xs generalizing w with
  | nil => rfl
  | cons x xs ih =>
    have h' : HoldsW e b w ([enc x] ++ xs.map enc) := h
    obtain ⟨h1, h2⟩ := HoldsW.append hw h'
    simp only [List.length_singleton] at h2
    have r1 := hrd x List.mem_cons_self w hw h1
    have r2 := ih (fun y hy => hrd y (List.mem_cons_of_mem _ hy)) (w + 1) (by omega) h2
    have e1 : wordToPosition (w : Int) + 4 = wordToPosition ((w + 1 : Nat) : Int) := by
      have := wtp_add w 1; simpa using this
    simp only [List.length_cons, readMany, r1, e1, r2, bind, Except.bind, List.map_cons]
    have : w + 1 + xs.length = w + (xs.length + 1) := by omega
    rw [this]

theorem readPerPart_spec {α β : Type} {e : Endian} {b : Bytes} {rd : Int → Except PyErr β} {enc : α → Val} {g : α → β}
    (xss : List (List α))
    (hrd : ∀ xs ∈ xss, ∀ x ∈ xs, ∀ w : Nat, 1 ≤ w → HoldsW e b w [enc x] → rd (wordToPosition w) = .ok (g x))
    (w : Nat) (hw : 1 ≤ w) (h : HoldsW e b w (xss.flatMap fun xs => xs.map enc)) :
    readPerPart rd (xss.map List.length) (wordToPosition w) =
      .ok (xss.map (·.map g), wordToPosition ((w + (xss.map List.length).sum : Nat) : Int)) := by
  induction xss generalizing w with
  | nil => rfl
  | cons xs xss ih =>
    rw [List.flatMap_cons] at h
    obtain ⟨h1, h2⟩ := HoldsW.append hw h
    rw [List.length_map] at h2
    have r1 := readMany_spec xs (hrd xs List.mem_cons_self) w hw h1
    have r2 := ih (fun y hy => hrd y (List.mem_cons_of_mem _ hy)) (w + xs.length) (by omega) h2
    simp only [List.map_cons, readPerPart, r1, r2, bind, Except.bind, List.sum_cons, Nat.add_assoc]

theorem readName_spec {e : Endian} {b : Bytes} {w : Nat} {s : Text} (hw : 1 ≤ w) (h : HoldsW e b w [nameWord s])
    (hn : Name4 s) : readName e b (wordToPosition w) = .ok s := by
  have := h.read hw (by simp)
  have h2 : unpackFrom e [.str 4] b (wordToPosition w) = .ok [canonW (nameWord s)] := this
  unfold readName
  rw [h2]
  exact textOf_name hn

theorem readI_spec {e : Endian} {b : Bytes} {w : Nat} {i : Int} (hw : 1 ≤ w) (h : HoldsW e b w [.int i]) :
    readI e b (wordToPosition w) = .ok i := by
  have := h.read hw (by simp)
  have h2 : unpackFrom e [.i32] b (wordToPosition w) = .ok [.int i] := this
  unfold readI
  rw [h2]
  rfl

/-- What the reader learns about the parameters of a part.  The writer stores names, offsets, scales, bits; the reader
takes them as names, scales, offsets, bits. -/
def Part.readBack (p : Part) : ParamInfo := ⟨p.params, p.offset, p.scale, p.bits⟩

theorem zipParams_map (ps : List Part) :
    zipParams (ps.map (·.params)) (ps.map (·.offset)) (ps.map (·.scale)) (ps.map (·.bits)) = ps.map Part.readBack := by
  induction ps with
  | nil => rfl
  | cons p ps ih => simp only [List.map_cons, zipParams, ih, Part.readBack]

theorem readParams_spec {e : Endian} {b : Bytes} {w : Nat} {ps : List Part} (hw : 1 ≤ w)
    (hlen : ∀ p ∈ ps, p.offset.length = p.params.length ∧ p.scale.length = p.params.length ∧
      p.bits.length = p.params.length)
    (h : HoldsW e b w (ps.flatMap (fun p => p.params.map nameWord) ++ ps.flatMap (fun p => p.offset.map .int) ++
      ps.flatMap (fun p => p.scale.map .int) ++ ps.flatMap (fun p => p.bits.map .int)))
    (hn : ∀ p ∈ ps, ∀ s ∈ p.params, Name4 s) :
    readParams e b w (ps.map Part.info) = .ok (ps.map Part.readBack) := by
  have lens : ∀ g : Part → List Int, (∀ p ∈ ps, (g p).length = p.params.length) →
      (ps.map g).map List.length = (ps.map (·.params)).map List.length := by
    intro g hg
    simp only [List.map_map]
    exact List.map_congr_left (fun p hp => hg p hp)
  have lo := lens (·.offset) (fun p hp => (hlen p hp).1)
  have ls := lens (·.scale) (fun p hp => (hlen p hp).2.1)
  have lb := lens (·.bits) (fun p hp => (hlen p hp).2.2)
  have flen : ∀ {α : Type} (xss : List (List α)) (f : α → Val),
      (xss.flatMap fun xs => xs.map f).length = (xss.map List.length).sum := by
    intro α xss f; simp [List.length_flatMap]
  have fm : ∀ {α : Type} (g : Part → List α) (f : α → Val),
      ps.flatMap (fun p => (g p).map f) = (ps.map g).flatMap (fun xs => xs.map f) := by
    intro α g f; rw [List.flatMap_map]
  rw [fm (·.params) nameWord, fm (·.offset) Val.int, fm (·.scale) Val.int, fm (·.bits) Val.int] at h
  obtain ⟨h, h4⟩ := HoldsW.append hw h
  obtain ⟨h, h3⟩ := HoldsW.append hw h
  obtain ⟨h1, h2⟩ := HoldsW.append hw h
  simp only [List.length_append, flen, lo, ls] at h2 h3 h4
  have hc : (ps.map Part.info).map (fun p => p.paramCount.toNat) = (ps.map (·.params)).map List.length := by
    simp [Part.info]
  have r1 := readPerPart_spec (rd := readName e b) (enc := nameWord) (g := id) (ps.map (·.params))
    (by
      intro xs hxs x hx w hw hh
      obtain ⟨p, hp, rfl⟩ := List.mem_map.1 hxs
      exact readName_spec hw hh (hn p hp x hx)) w hw h1
  have ri : ∀ (xss : List (List Int)), ∀ xs ∈ xss, ∀ x ∈ xs, ∀ w : Nat, 1 ≤ w → HoldsW e b w [Val.int x] →
      readI e b (wordToPosition w) = .ok (id x) := by
    intro xss xs _ x _ w hw hh; exact readI_spec hw hh
  have r2 := readPerPart_spec (rd := readI e b) (enc := Val.int) (g := id) (ps.map (·.offset)) (ri _) _ (by omega) h2
  have r3 := readPerPart_spec (rd := readI e b) (enc := Val.int) (g := id) (ps.map (·.scale)) (ri _) _ (by omega) h3
  have r4 := readPerPart_spec (rd := readI e b) (enc := Val.int) (g := id) (ps.map (·.bits)) (ri _) _ (by omega) h4
  rw [lo] at r2
  rw [ls] at r3
  rw [lb] at r4
  simp only [Nat.add_assoc] at r1 r2 r3 r4
  unfold readParams
  dsimp only
  rw [hc, r1]
  simp only [bind, Except.bind]
  rw [r2]
  simp only
  rw [r3]
  simp only
  rw [r4]
  simp only [List.map_id, List.map_id', Except.ok.injEq]
  exact zipParams_map ps

/-! ## Label -/

/-- The label a reader should see. -/
def expectedLabel (f : DMFile) : Label :=
  let p := setPointers f
  { version := 1, fileHeaders := f.fileHeaders.length, fileKeysPtr := p.fileKeys, rows := f.rows
    rowKeys := f.rowNames.length, rowKeysPtr := p.rowKeys, rowHeadersPtr := p.rowHeaders, columns := f.columns
    columnKeys := f.columnNames.length, columnKeysPtr := p.columnKeys, columnHeadersPtr := p.columnHeaders
    parts := f.parts.length, partsPtr := p.parts, dataMgmtPtr := 129, dataMgmtLength := 128, dataBlockPtr := p.dataBlock
    fileType := f.fileType, dataSource := f.dataSource, machineType := 11, missingInt := -9999
    missingFloat := missingF32 }

theorem banner_length : banner.length = 28 := by decide +kernel

theorem readBanner_spec {e : Endian} {b : Bytes} (h : HoldsV e b 0 [.str 28] [.str banner]) :
    readBanner b = .ok () := by
  obtain ⟨h1, h2⟩ := HoldsV.one rfl h
  have h2 := h2 (by decide)
  simp only [Fmt.size, List.drop_zero, unpackOne, canon, List.cons.injEq, Val.str.injEq, and_true, Nat.zero_add] at h1 h2
  have hb : banner.take 28 ++ List.replicate (28 - banner.length) 0 = banner := by
    rw [banner_length, List.take_of_length_le (by rw [banner_length])]; simp
  rw [hb] at h1
  unfold readBanner
  rw [if_neg (by omega), h1, banner, utf8Dec_utf8]
  simp

theorem encNat_one_ne (e : Endian) : encNat e 4 1 ≠ encNat e.swap 4 1 := by cases e <;> decide +kernel

theorem readOrder_spec (host : Endian) {e : Endian} {b : Bytes} (h : HoldsV e b 28 [.i32] [.int 1]) :
    readOrder host b = e := by
  obtain ⟨bs, hp, hh⟩ := h
  have h1 : packOne e .i32 (.int 1) = .ok (encNat e 4 (toU32 1)) := by
    have h : inI32 1 := by decide
    simp only [packOne, h, if_true]
  rw [packFmts_cons e .i32 [] (.int 1) [] rfl _ h1] at hp
  simp only [packFmts, Except.map, List.append_nil, Except.ok.injEq] at hp
  subst hp
  have hs := hh.slice
  have hl : (encNat e 4 (toU32 1)).length = 4 := by simp
  rw [hl] at hs
  have hu : toU32 1 = 1 := by decide
  unfold readOrder
  have e1 : pySlice b 28 32 = (b.drop 28).take 4 := pySlice_nat b 28 32 (by omega)
  rw [e1, hs, hu]
  by_cases hq : host = e
  · subst hq; rw [if_pos rfl]
  · have : e = host.swap := by cases host <;> cases e <;> simp_all [Endian.swap]
    subst this
    rw [if_neg (fun hc => encNat_one_ne host hc.symm)]

theorem label_spec {e : Endian} {f : DMFile} {b : Bytes}
    (h : HoldsV e b 0 labelFmts (labelVals f (setPointers f))) (ht : f.fileType = 1 ∨ f.fileType = 2 ∨ f.fileType = 3)
    (hd : f.dataSource ∈ knownSources) :
    readBanner b = .ok () ∧ (∀ host, readOrder host b = e) ∧
    (unpackFrom e labelReadFmts b 28 >>= labelOf) = .ok (expectedLabel f) := by
  obtain ⟨h1, h2⟩ := HoldsV.cons rfl h
  have h2' : HoldsV e b 28 labelReadFmts (labelVals f (setPointers f)).tail := h2
  obtain ⟨h3, _⟩ := HoldsV.cons rfl h2
  refine ⟨readBanner_spec h1, fun host => readOrder_spec host h3, ?_⟩
  have h4 := h2'.read (by decide +kernel)
  have hv : valFmts labelReadFmts = List.replicate 20 .i32 ++ [.f32] := by decide +kernel
  rw [hv] at h4
  have h5 : unpackFrom e labelReadFmts b 28 = .ok (labelVals f (setPointers f)).tail := h4
  rw [h5]
  simp only [bind, Except.bind, labelVals, List.tail, labelOf, if_pos ht, if_pos hd]
  rfl

/-! ## The whole opening -/

/-- Names and types a reader can represent. -/
structure DMFile.Readable (f : DMFile) : Prop where
  rowNames : f.rowNames ≠ [] ∧ ∀ s ∈ f.rowNames, Name4 s
  columnNames : f.columnNames ≠ [] ∧ ∀ s ∈ f.columnNames, Name4 s
  parts : f.parts ≠ [] ∧ ∀ p ∈ f.parts, Name4 p.name ∧ (1 ≤ p.type ∧ p.type ≤ 5) ∧ ∀ s ∈ p.params, Name4 s
  fileType : f.fileType = 1 ∨ f.fileType = 2 ∨ f.fileType = 3
  dataSource : f.dataSource ∈ knownSources

theorem parts_split {e : Endian} {f : DMFile} {b : Bytes} {w : Nat} (hw : 1 ≤ w) (h : HoldsW e b w (partWords f)) :
    HoldsW e b w (f.parts.map fun p => nameWord p.name) ∧
    HoldsW e b (w + f.parts.length) (f.parts.map fun p => .int p.header) ∧
    HoldsW e b (w + 2 * f.parts.length) (f.parts.map fun p => .int p.type) ∧
    HoldsW e b (w + 3 * f.parts.length) (f.parts.map fun p => .int p.params.length) ∧
    HoldsW e b (w + 4 * f.parts.length) (f.parts.flatMap (fun p => p.params.map nameWord) ++
      f.parts.flatMap (fun p => p.offset.map .int) ++ f.parts.flatMap (fun p => p.scale.map .int) ++
      f.parts.flatMap (fun p => p.bits.map .int)) := by
  unfold partWords at h
  simp only [List.append_assoc] at h
  obtain ⟨h1, h⟩ := HoldsW.append hw h
  obtain ⟨h2, h⟩ := HoldsW.append (by omega) h
  obtain ⟨h3, h⟩ := HoldsW.append (by omega) h
  obtain ⟨h4, h5⟩ := HoldsW.append (by omega) h
  simp only [List.length_map] at h2 h3 h4 h5
  simp only [List.append_assoc]
  have e2 : w + 2 * f.parts.length = w + f.parts.length + f.parts.length := by omega
  have e3 : w + 3 * f.parts.length = w + f.parts.length + f.parts.length + f.parts.length := by omega
  have e4 : w + 4 * f.parts.length = w + f.parts.length + f.parts.length + f.parts.length + f.parts.length := by omega
  rw [e2, e3, e4]
  exact ⟨h1, h2, h3, h4, h5⟩

theorem HoldsV.len {e : Endian} {b : Bytes} {p : Nat} {fs : List Fmt} {vs : List Val} (h : HoldsV e b p fs vs)
    (hs : 0 < fmtSize fs) : p + fmtSize fs ≤ b.length := by
  obtain ⟨bs, hp, hh⟩ := h
  have h1 := packFmts_length hp
  have := hh.length_le (by rintro rfl; simp at h1; omega)
  omega

theorem HoldsV.items {e : Endian} {b : Bytes} {p : Nat} {fs : List Fmt} {vs : List Val} (h : HoldsV e b p fs vs)
    (hs : 0 < fmtSize fs) : unpackItems e fs (b.drop p) = List.zipWith canon (valFmts fs) vs := by
  have h1 := h.read hs
  rw [unpackFrom_nat _ _ _ _ (h.len hs)] at h1
  injection h1

theorem decNat_zeros (e : Endian) (n : Nat) : decNat e (List.replicate n 0) = 0 := by
  have h := decNat_encNat e n 0
  have h2 : encNat e n 0 = List.replicate n 0 := by
    have aux : ∀ m, encNat .little m 0 = List.replicate m 0 := by
      intro m
      induction m with
      | zero => rfl
      | succ m ih => simp only [encNat] at ih ⊢; rw [List.replicate_succ, ← ih]; rfl
    cases e with
    | little => exact aux n
    | big =>
      have := aux n
      simp only [encNat] at this ⊢
      rw [this, List.reverse_replicate]
  rw [h2] at h
  simpa using h

theorem unpackItems_zeros (e : Endian) (n : Nat) (rest : Bytes) :
    unpackItems e (List.replicate n .i32) (List.replicate (4 * n) 0 ++ rest) = List.replicate n (.int 0) := by
  induction n with
  | zero => rfl
  | succ n ih =>
    have e1 : 4 * (n + 1) = 4 + 4 * n := by omega
    rw [e1, List.replicate_add (m := 4), List.replicate_succ (n := n) (a := Fmt.i32), List.append_assoc]
    unfold unpackItems
    have s : Fmt.i32.size = (List.replicate 4 (0 : UInt8)).length := rfl
    rw [s, List.take_left, List.drop_left, ih]
    simp only [unpackOne, decNat_zeros]
    rfl

theorem dataMgmt_read {e : Endian} {b : Bytes} {nf : Nat} (h : HoldsV e b 512 dataMgmtFmts (dataMgmtVals nf)) :
    unpackFrom e (List.replicate 32 .i32) b (wordToPosition 129) = .ok (dataMgmtVals nf ++ List.replicate 28 (.int 0)) := by
  have hfour : HoldsV e b 512 [.i32, .i32, .i32, .i32] (dataMgmtVals nf) ∧ Holds b 528 (List.replicate 464 0) := by
    obtain ⟨bs, hp, hh⟩ := h
    have hfit := (packFmts_ok_iff e _ _).1 ⟨bs, hp⟩
    have hfit' : List.Forall₂ Fits (valFmts [.i32, .i32, .i32, .i32]) (dataMgmtVals nf) := hfit
    obtain ⟨c, hc, hl, _⟩ := unpackItems_packFmts e [.i32, .i32, .i32, .i32] _ hfit'
    have hcat : packFmts e dataMgmtFmts (dataMgmtVals nf) = .ok (c ++ List.replicate 464 0) := by
      clear hh
      unfold dataMgmtFmts dataMgmtVals
      unfold dataMgmtVals at hc
      cases hfit' with
      | cons f1 g1 => cases g1 with
        | cons f2 g2 => cases g2 with
          | cons f3 g3 => cases g3 with
            | cons f4 g4 =>
              obtain ⟨b1, q1, _⟩ := unpackOne_packOne e _ _ f1
              obtain ⟨b2, q2, _⟩ := unpackOne_packOne e _ _ f2
              obtain ⟨b3, q3, _⟩ := unpackOne_packOne e _ _ f3
              obtain ⟨b4, q4, _⟩ := unpackOne_packOne e _ _ f4
              rw [packFmts_cons e _ _ _ _ rfl b1 q1, packFmts_cons e _ _ _ _ rfl b2 q2,
                packFmts_cons e _ _ _ _ rfl b3 q3, packFmts_cons e _ _ _ _ rfl b4 q4] at hc ⊢
              rw [packFmts_pad]
              simp only [packFmts, Except.map, Except.ok.injEq, List.append_nil] at hc ⊢
              rw [← hc]
              simp only [List.append_assoc]
    rw [hcat] at hp
    injection hp with hp
    subst hp
    rw [Holds.append] at hh
    have hl' : c.length = 16 := hl
    rw [hl'] at hh
    exact ⟨⟨c, hc, hh.1⟩, hh.2⟩
  obtain ⟨h1, h2⟩ := hfour
  have hl := h2.length_le (by decide)
  have hl' : 992 ≤ b.length := by
    rw [List.length_replicate] at hl; exact hl
  have h3 := h1.items (by decide)
  have e0 : wordToPosition 129 = ((512 : Nat) : Int) := by decide
  have e2 : List.replicate 32 Fmt.i32 = [.i32, .i32, .i32, .i32] ++ List.replicate 28 .i32 := by decide +kernel
  have hz : List.zipWith canon (valFmts [.i32, .i32, .i32, .i32]) (dataMgmtVals nf) = dataMgmtVals nf := rfl
  rw [hz] at h3
  have c1 : fmtSize (List.replicate 32 Fmt.i32) = 128 := by decide +kernel
  rw [e0, unpackFrom_nat _ _ _ _ (by rw [c1]; omega), e2, unpackItems_append, h3]
  have h4 : (b.drop 528).take 464 = List.replicate 464 0 := by
    have := h2.slice
    rwa [List.length_replicate] at this
  have h5 : (b.drop 512).drop (fmtSize [Fmt.i32, .i32, .i32, .i32]) =
      List.replicate (4 * 28) 0 ++ (List.replicate 352 0 ++ (b.drop 528).drop 464) := by
    have c2 : fmtSize [Fmt.i32, .i32, .i32, .i32] = 16 := rfl
    rw [c2, List.drop_drop, ← List.append_assoc, ← List.replicate_add]
    have : (b.drop 528) = (b.drop 528).take 464 ++ (b.drop 528).drop 464 := (List.take_append_drop _ _).symm
    rw [h4] at this
    exact this
  rw [h5, unpackItems_zeros]

/-- Everything the reader should learn when opening. -/
def expectedInfo (e : Endian) (f : DMFile) (blocks : Option Blocks) : DMInfo :=
  { order := e, label := expectedLabel f, blocks := blocks
    dataMgmt := dataMgmtVals ((setPointers f).nextFree + visitLen f.visits) ++ List.replicate 28 (.int 0)
    rowKeys := f.rowNames, columnKeys := f.columnNames
    parts := f.parts.map Part.info, params := f.parts.map Part.readBack }

theorem readDM_spec (host : Endian) {e : Endian} {f : DMFile} {b : Bytes} {blocks : Option Blocks} (wf : f.WF) (rd : f.Readable)
    (h : Head e f b) (hblk : readBlocks e b (expectedLabel f) = .ok blocks) :
    readDM host b = .ok (expectedInfo e f blocks) := by
  have L := setPointers_layout f
  have l1 := L.rowKeys
  have l2 := L.columnKeys
  have l3 := L.aligned
  obtain ⟨b1, b2, b3⟩ := label_spec h.label rd.fileType rd.dataSource
  have dm := dataMgmt_read h.dataMgmt
  have k1 := readKeys_spec (by omega) rd.rowNames.1 h.rowKeys rd.rowNames.2
  have k2 := readKeys_spec (by omega) rd.columnNames.1 h.columnKeys rd.columnNames.2
  obtain ⟨p1, p2, p3, p4, p5⟩ := parts_split (by omega) h.parts
  have r1 := readParts_spec (by omega) p1 p2 p3 p4 (fun p hp => (rd.parts.2 p hp).1) (fun p hp => (rd.parts.2 p hp).2.1)
    f.parts.length (Nat.le_refl _)
  have r2 := readParams_spec (by omega) wf.parts p5 (fun p hp => (rd.parts.2 p hp).2.2)
  unfold readDM
  rw [b1, ok_bind]
  dsimp only
  rw [b2 host, b3, ok_bind, hblk, ok_bind]
  have dm' : unpackFrom e (List.replicate 32 .i32) b (wordToPosition (expectedLabel f).dataMgmtPtr) = _ := dm
  rw [dm', ok_bind]
  have k1' : readKeys e b (expectedLabel f).rowKeysPtr (expectedLabel f).rowKeys = _ := k1
  have k2' : readKeys e b (expectedLabel f).columnKeysPtr (expectedLabel f).columnKeys = _ := k2
  rw [k1', ok_bind, k2', ok_bind]
  have hp : (expectedLabel f).parts = (f.parts.length : Int) := rfl
  have hpp : (expectedLabel f).partsPtr = ((setPointers f).parts : Int) := rfl
  have hpos : 0 < f.parts.length := List.length_pos_of_ne_nil rd.parts.1
  rw [hp, if_neg (by omega), Int.toNat_natCast, hpp, r1, ok_bind]
  have e1 : ((setPointers f).parts : Int) + (f.parts.length : Int) * 4 =
      (((setPointers f).parts + 4 * f.parts.length : Nat) : Int) := by push_cast; omega
  rw [e1]
  rw [Nat.sub_self, List.drop_zero, r2, ok_bind]
  rfl

/-! ## File headers -/

theorem readBlocks_none {e : Endian} {b : Bytes} {f : DMFile} (h : f.fileHeaders = []) :
    readBlocks e b (expectedLabel f) = .ok none := by
  unfold readBlocks
  have : (expectedLabel f).fileHeaders = 0 := by simp [expectedLabel, h]
  rw [this, if_neg (by omega)]

/-- Analysis and navigation block as read from a grid file. -/
def expectedBlocks (proj : Text) (nav anl : List F32) : Blocks :=
  { keys := [.str (utf8 (txt "NAVB")), .str (utf8 (txt "ANLB")), .int 256, .int 128, .int 1, .int 1]
    nav := .flt 0x40000000#32 :: .str ((utf8 (ljust 4 proj)).take 3) :: nav.map .flt
    anl := some (.flt 0x40000000#32 :: anl.map .flt) }

theorem HoldsV.toW {e : Endian} {b : Bytes} {w : Nat} {i : Int} (h : HoldsV e b (w * 4 - 4) [.i32] [.int i]) :
    HoldsW e b w [.int i] := h

theorem zipWith_canon_f32 (n : Nat) (l : List F32) (h : l.length = n) :
    List.zipWith canon (List.replicate n .f32) (l.map Val.flt) = l.map .flt := by
  induction l generalizing n with
  | nil => subst h; rfl
  | cons a l ih =>
    subst h
    simp only [List.length_cons, List.replicate_succ, List.map_cons, List.zipWith_cons_cons]
    rw [ih l.length rfl]; rfl

theorem readBlocks_grid {e : Endian} {f : DMFile} {b : Bytes} (h : Head e f b) {proj : Text} {nav anl : List F32}
    (hfh : f.fileHeaders = gridFileHeaders) (hbody : f.fileBody = gridFileBody proj nav anl)
    (hnav : nav.length = 11) (hanl : anl.length = 17) (hproj : (utf8Dec ((utf8 (ljust 4 proj)).take 3)).isSome) :
    readBlocks e b (expectedLabel f) = .ok (some (expectedBlocks proj nav anl)) := by
  have L := setPointers_layout f
  have l1 := L.rowKeys
  have l2 := L.columnKeys
  have l3 := L.fileKeys
  obtain ⟨h1, h2⟩ := h.fileKeys (by rw [hfh]; simp [gridFileHeaders])
  generalize hw : (setPointers f).fileKeys = w at *
  have hw1 : 1 ≤ w := by omega
  rw [hfh] at h2
  rw [hbody] at h2
  have hlen : gridFileHeaders.length = 2 := rfl
  rw [hlen] at h2
  obtain ⟨n1, n2, n3, n4, _⟩ := h2
  have c1 : fmtSize [Fmt.i32] = 4 := rfl
  have c2 : fmtSize navWriteFmts = 1024 := by decide +kernel
  have c3 : fmtSize anlWriteFmts = 512 := by decide +kernel
  have c4 : fmtSize navReadFmts = 1024 := by decide +kernel
  have c5 : fmtSize anl2ReadFmts = 512 := by decide +kernel
  rw [c1, c2] at n3 n4
  rw [c1] at n2
  have hfk : fileKeyWords f = [nameWord (txt "NAVB"), nameWord (txt "ANLB"), .int 256, .int 128, .int 1, .int 1] := by
    unfold fileKeyWords; rw [hfh]; rfl
  rw [hfk] at h1
  have k1 := h1.read hw1 (by simp)
  have k1' : unpackFrom e (List.replicate 2 (.str 4) ++ List.replicate 2 .i32 ++ List.replicate 2 .i32) b
      (wordToPosition w) = .ok (expectedBlocks proj nav anl).keys := by
    have e1 : (List.replicate 2 (.str 4) ++ List.replicate 2 .i32 ++ List.replicate 2 .i32 : List Fmt) =
      [nameWord (txt "NAVB"), nameWord (txt "ANLB"), .int 256, .int 128, .int 1, .int 1].map Val.fmt := rfl
    rw [e1, k1]
    have e2 : [nameWord (txt "NAVB"), nameWord (txt "ANLB"), .int 256, .int 128, .int 1, .int 1].map canonW =
      [.str (utf8 (txt "NAVB")), .str (utf8 (txt "ANLB")), .int 256, .int 128, .int 1, .int 1] := by decide +kernel
    rw [e2]; rfl
  -- size words
  have w1 : HoldsW e b (w + 6) [.int 256] := HoldsV.toW n1
  have e3 : (w + 3 * 2) * 4 - 4 + 4 + 1024 = (w + 6 + 257) * 4 - 4 := by omega
  rw [e3] at n3 n4
  have w2 : HoldsW e b (w + 263) [.int 128] := HoldsV.toW n3
  have r1 := (w1.readWord (by omega)).2
  have r2 := (w2.readWord (by omega)).2
  have u1 : (toU32 256 : Int) = 256 := by decide
  have u2 : (toU32 128 : Int) = 128 := by decide
  rw [u1] at r1
  rw [u2] at r2
  -- navigation
  have v1 : unpackFrom e navReadFmts b (((w + 6) * 4 : Nat) : Int) = .ok (expectedBlocks proj nav anl).nav := by
    have e4 : (w + 3 * 2) * 4 - 4 + 4 = (w + 6) * 4 := by omega
    rw [e4] at n2
    have hl := n2.len (by omega)
    have hi := n2.items (by omega)
    rw [c2] at hl
    rw [unpackFrom_nat _ _ _ _ (by rw [c4]; omega)]
    congr 1
    have hv : valFmts navWriteFmts = .f32 :: .str 4 :: List.replicate 11 .f32 := by decide +kernel
    rw [hv, List.zipWith_cons_cons, List.zipWith_cons_cons, zipWith_canon_f32 11 nav hnav] at hi
    have s1 : navWriteFmts = [Fmt.f32, .str 4] ++ (List.replicate 11 .f32 ++ [.pad 972]) := by decide +kernel
    have s2 : navReadFmts = [Fmt.f32, .str 3, .pad 1] ++ (List.replicate 11 .f32 ++ [.pad 972]) := by decide +kernel
    rw [s1, unpackItems_append] at hi
    rw [s2, unpackItems_append]
    have z1 : fmtSize [Fmt.f32, .str 4] = 8 := rfl
    have z2 : fmtSize [Fmt.f32, .str 3, .pad 1] = 8 := rfl
    rw [z1] at hi
    rw [z2]
    have q1 : ∀ x, unpackItems e [Fmt.f32, .str 4] x = [.flt (BitVec.ofNat 32 (decNat e (x.take 4))), .str ((x.drop 4).take 4)] :=
      fun x => by simp [unpackItems, unpackOne, Fmt.size]
    have q2 : ∀ x, unpackItems e [Fmt.f32, .str 3, .pad 1] x = [.flt (BitVec.ofNat 32 (decNat e (x.take 4))), .str ((x.drop 4).take 3)] :=
      fun x => by simp [unpackItems, unpackOne, Fmt.size]
    rw [q1] at hi
    rw [q2]
    simp only [List.cons_append, List.nil_append, List.cons.injEq] at hi ⊢
    obtain ⟨a1, a2, a3⟩ := hi
    rw [a1, a3]
    have a2' : (((b.drop ((w + 6) * 4)).drop 4).take 4) = (utf8 (ljust 4 proj)).take 4 := by
      simp only [canon, Val.str.injEq] at a2
      rw [a2]
      have hge := utf8_length_ge (ljust 4 proj)
      rw [ljust_length] at hge
      have : 4 - (utf8 (ljust 4 proj)).length = 0 := by omega
      rw [this]; simp
    have a4 : (((b.drop ((w + 6) * 4)).drop 4).take 3) = (utf8 (ljust 4 proj)).take 3 := by
      have := congrArg (List.take 3) a2'
      simpa [List.take_take] using this
    rw [a4]
    rfl
  -- analysis
  have e5 : (w + 6 + 257) * 4 - 4 + 4 = (w + 263) * 4 := by omega
  rw [e5] at n4
  have hl4 := n4.len (by omega)
  rw [c3] at hl4
  have v3 : unpackFrom e anl2ReadFmts b (((w + 263) * 4 : Nat) : Int) = .ok (.flt 0x40000000#32 :: anl.map .flt) := by
    have := n4.read (by omega)
    have hv : valFmts anlWriteFmts = .f32 :: List.replicate 17 .f32 := by decide +kernel
    rw [hv, List.zipWith_cons_cons, zipWith_canon_f32 17 anl hanl] at this
    exact this
  have v2 : unpackFrom e [.f32] b (((w + 263) * 4 : Nat) : Int) = .ok [.flt 0x40000000#32] := by
    have hc := (HoldsV.cons (f := .f32) rfl n4).1
    have := hc.read (by decide)
    exact this
  unfold readBlocks
  have g1 : (expectedLabel f).fileHeaders = 2 := by
    unfold expectedLabel; dsimp only; rw [hfh]; rfl
  have g2 : (expectedLabel f).fileKeysPtr = (w : Int) := by
    unfold expectedLabel; dsimp only; rw [hw]
  rw [g1, g2, if_pos (by omega)]
  have t2 : (2 : Int).toNat = 2 := rfl
  dsimp only
  rw [t2, k1', ok_bind]
  have fk : fmtSize (List.replicate 2 (.str 4) ++ List.replicate 2 .i32 ++ List.replicate 2 .i32 : List Fmt) = 24 := rfl
  rw [fk, c4]
  have p1 : wordToPosition (w : Int) + ((24 : Nat) : Int) = wordToPosition ((w + 6 : Nat) : Int) := by
    have := wtp_add w 6; simpa using this
  have p2 : wordToPosition ((w + 6 : Nat) : Int) + 4 = (((w + 6) * 4 : Nat) : Int) := by
    unfold wordToPosition; omega
  have p3 : (((w + 6) * 4 : Nat) : Int) + ((1024 : Nat) : Int) = wordToPosition ((w + 263 : Nat) : Int) := by
    unfold wordToPosition; omega
  have p4 : wordToPosition ((w + 263 : Nat) : Int) + 4 = (((w + 263) * 4 : Nat) : Int) := by
    unfold wordToPosition; omega
  rw [p1, r1, p2, v1, ok_bind, p3, r2, p4, v2, ok_bind, v3]
  have hnd : navDecodable (expectedBlocks proj nav anl).nav = true := hproj
  rw [hnd]
  simp only [ne_eq, not_true_eq_false, if_false]
  have t1 : ¬ (0x40000000#32 = 0x3F800000#32) := by decide
  rw [if_neg t1, if_pos trivial]
  rfl

end Gempak
