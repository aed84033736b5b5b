import Verif.Model.DMRead
import Verif.Proof.Struct
import Verif.Proof.Tools
import Verif.Proof.Text

/-! Helper lemmas about streams: what is held where, and what a write leaves alone. -/

namespace Gempak

/-- The bytes `bs` are found at offset `p`. -/
def Holds (buf : Bytes) (p : Nat) (bs : Bytes) : Prop := ∀ i, i < bs.length → buf[p + i]? = bs[i]?

/-- Bytes outside the region keep their values. -/
def Keeps (b b' : Bytes) (R : Nat → Prop) : Prop := ∀ i, ¬ R i → ∀ x, b[i]? = some x → b'[i]? = some x

theorem writeAt_getElem? (buf : Bytes) (p : Nat) (bs : Bytes) (hne : bs ≠ []) (i : Nat) :
    (writeAt buf p bs)[i]? =
      if i < p then (if i < buf.length then buf[i]? else some 0)
      else if i < p + bs.length then bs[i - p]? else buf[i]? := by
  unfold writeAt
  rw [if_neg hne]
  by_cases h1 : i < p
  · rw [if_pos h1, List.getElem?_append_left (by simp; omega), List.getElem?_append_left (by simp; omega)]
    by_cases h2 : i < buf.length
    · rw [if_pos h2, List.getElem?_append_left (by simp; omega), List.getElem?_take, if_pos h1]
    · rw [if_neg h2, List.getElem?_append_right (by simp; omega), List.getElem?_replicate, if_pos]
      simp; omega
  · rw [if_neg h1]
    have hl : (buf.take p ++ List.replicate (p - buf.length) (0 : UInt8)).length = p := by simp; omega
    by_cases h2 : i < p + bs.length
    · rw [if_pos h2, List.getElem?_append_left (by rw [List.length_append, hl]; omega),
        List.getElem?_append_right (by omega), hl]
    · rw [if_neg h2, List.getElem?_append_right (by rw [List.length_append, hl]; omega), List.getElem?_drop]
      congr 1
      rw [List.length_append, hl]; omega

theorem writeAt_length (buf : Bytes) (p : Nat) (bs : Bytes) (hne : bs ≠ []) :
    (writeAt buf p bs).length = max buf.length (p + bs.length) := by
  unfold writeAt; rw [if_neg hne]; simp; omega

theorem writeAt_length_ge (buf : Bytes) (p : Nat) (bs : Bytes) : buf.length ≤ (writeAt buf p bs).length := by
  by_cases h : bs = []
  · simp [writeAt, h]
  · rw [writeAt_length _ _ _ h]; omega

theorem writeAt_holds (buf : Bytes) (p : Nat) (bs : Bytes) : Holds (writeAt buf p bs) p bs := by
  intro i hi
  have hne : bs ≠ [] := by rintro rfl; simp at hi
  rw [writeAt_getElem? _ _ _ hne, if_neg (by omega), if_pos (by omega)]
  congr 1; omega

theorem writeAt_keeps (buf : Bytes) (p : Nat) (bs : Bytes) :
    Keeps buf (writeAt buf p bs) (fun i => p ≤ i ∧ i < p + bs.length) := by
  intro i hi x hx
  by_cases hne : bs = []
  · rw [writeAt, if_pos hne]; exact hx
  · rw [writeAt_getElem? _ _ _ hne]
    have hlen : i < buf.length := by
      by_contra h
      rw [List.getElem?_eq_none (by omega)] at hx
      cases hx
    by_cases h1 : i < p
    · rw [if_pos h1, if_pos hlen]; exact hx
    · rw [if_neg h1, if_neg (by omega)]; exact hx

theorem Keeps.refl (b : Bytes) (R : Nat → Prop) : Keeps b b R := fun _ _ _ h => h

theorem Keeps.trans {a b c : Bytes} {R S T : Nat → Prop} (h1 : Keeps a b R) (h2 : Keeps b c S)
    (hR : ∀ i, R i → T i) (hS : ∀ i, S i → T i) : Keeps a c T :=
  fun i hi x hx => h2 i (fun h => hi (hS i h)) x (h1 i (fun h => hi (hR i h)) x hx)

theorem Keeps.mono {a b : Bytes} {R T : Nat → Prop} (h : Keeps a b R) (hR : ∀ i, R i → T i) : Keeps a b T :=
  fun i hi x hx => h i (fun h => hi (hR i h)) x hx

theorem Holds.keep {b b' : Bytes} {R : Nat → Prop} {p : Nat} {bs : Bytes} (h : Holds b p bs) (k : Keeps b b' R)
    (hR : ∀ i, p ≤ i → i < p + bs.length → ¬ R i) : Holds b' p bs := by
  intro i hi
  have h1 := h i hi
  rw [List.getElem?_eq_getElem hi] at h1 ⊢
  exact k (p + i) (hR _ (by omega) (by omega)) _ h1

theorem Holds.length_le {b : Bytes} {p : Nat} {bs : Bytes} (h : Holds b p bs) (hne : bs ≠ []) :
    p + bs.length ≤ b.length := by
  have hpos : 0 < bs.length := List.length_pos_of_ne_nil hne
  have h1 := h (bs.length - 1) (by omega)
  have h2 : bs[bs.length - 1]? = some bs[bs.length - 1] := List.getElem?_eq_getElem (by omega)
  by_contra hc
  rw [List.getElem?_eq_none (by omega), h2] at h1
  cases h1

theorem Holds.slice {b : Bytes} {p : Nat} {bs : Bytes} (h : Holds b p bs) : (b.drop p).take bs.length = bs := by
  by_cases hne : bs = []
  · simp [hne]
  · have hl := h.length_le hne
    apply List.ext_getElem?
    intro i
    by_cases hi : i < bs.length
    · rw [List.getElem?_take, if_pos hi, List.getElem?_drop, h i hi]
    · rw [List.getElem?_eq_none (by simp; omega), List.getElem?_eq_none (by omega)]

theorem Holds.append {b : Bytes} {p : Nat} {xs ys : Bytes} :
    Holds b p (xs ++ ys) ↔ Holds b p xs ∧ Holds b (p + xs.length) ys := by
  constructor
  · intro h
    constructor
    · intro i hi
      rw [h i (by simp; omega), List.getElem?_append_left hi]
    · intro i hi
      have := h (xs.length + i) (by simp; omega)
      rw [List.getElem?_append_right (by omega)] at this
      rw [Nat.add_assoc, this]; congr 1; omega
  · rintro ⟨h1, h2⟩ i hi
    simp at hi
    by_cases hx : i < xs.length
    · rw [h1 i hx, List.getElem?_append_left hx]
    · have := h2 (i - xs.length) (by omega)
      rw [List.getElem?_append_right (by omega), ← this]
      congr 1; omega

/-! ## Values held -/

/-- The packed values are found at offset `p`. -/
def HoldsV (e : Endian) (b : Bytes) (p : Nat) (fs : List Fmt) (vs : List Val) : Prop :=
  ∃ bs, packFmts e fs vs = .ok bs ∧ Holds b p bs

/-- Words held at word `w`. -/
def HoldsW (e : Endian) (b : Bytes) (w : Nat) (ws : List Val) : Prop :=
  HoldsV e b (w * 4 - 4) (ws.map Val.fmt) ws

/-- What a word reads back as. -/
def canonW (v : Val) : Val := canon v.fmt v

theorem packFmts_length {e : Endian} {fs : List Fmt} {vs : List Val} {bs : Bytes} (h : packFmts e fs vs = .ok bs) :
    bs.length = fmtSize fs := by
  have hf := (packFmts_ok_iff e fs vs).1 ⟨bs, h⟩
  obtain ⟨b, hb, hl, _⟩ := unpackItems_packFmts e fs vs hf
  rw [h] at hb
  injection hb with hb
  rw [hb, hl]

theorem HoldsV.read {e : Endian} {b : Bytes} {p : Nat} {fs : List Fmt} {vs : List Val} (h : HoldsV e b p fs vs)
    (hpos : 0 < fmtSize fs) : unpackFrom e fs b (p : Int) = .ok (List.zipWith canon (valFmts fs) vs) := by
  obtain ⟨bs, hp, hh⟩ := h
  have hf := (packFmts_ok_iff e fs vs).1 ⟨bs, hp⟩
  obtain ⟨c, hc, hl, hu⟩ := unpackItems_packFmts e fs vs hf
  rw [hp] at hc
  injection hc with hc
  subst hc
  have hne : bs ≠ [] := by rintro rfl; simp at hl; omega
  have hle := hh.length_le hne
  unfold unpackFrom
  dsimp only
  have hn : ¬ ((p : Int) < 0) := by omega
  rw [if_neg hn, if_neg hn]
  simp only [Int.toNat_natCast]
  rw [if_pos (by omega)]
  congr 1
  have hsl := hh.slice
  rw [hl] at hsl
  rw [← unpackItems_take, hsl]
  have := hu []
  simpa using this

theorem fmtSize_words (ws : List Val) : fmtSize (ws.map Val.fmt) = 4 * ws.length := by
  induction ws with
  | nil => rfl
  | cons v ws ih =>
    have h : v.fmt.size = 4 := by cases v <;> rfl
    simp only [fmtSize, List.map_cons, List.sum_cons, List.length_cons, h]
    simp only [fmtSize] at ih
    rw [ih]; omega

theorem fmtSize_append (a b : List Fmt) : fmtSize (a ++ b) = fmtSize a + fmtSize b := by simp [fmtSize]

theorem valFmts_words (ws : List Val) : valFmts (ws.map Val.fmt) = ws.map Val.fmt := by
  apply List.filter_eq_self.2
  intro f hf
  obtain ⟨v, _, rfl⟩ := List.mem_map.1 hf
  cases v <;> rfl

theorem zipWith_canon_words (ws : List Val) : List.zipWith canon (ws.map Val.fmt) ws = ws.map canonW := by
  induction ws with
  | nil => rfl
  | cons v ws ih => simp [ih, canonW]

theorem HoldsW.read {e : Endian} {b : Bytes} {w : Nat} {ws : List Val} (h : HoldsW e b w ws) (hw : 1 ≤ w)
    (hne : ws ≠ []) : unpackFrom e (ws.map Val.fmt) b (wordToPosition w) = .ok (ws.map canonW) := by
  have hl : 0 < ws.length := List.length_pos_of_ne_nil hne
  have := HoldsV.read h (by rw [fmtSize_words]; omega)
  rw [valFmts_words, zipWith_canon_words] at this
  rw [← this]
  congr 1
  unfold wordToPosition
  omega

theorem packFmts_append_words {e : Endian} {xs ys : List Val} {bs : Bytes}
    (h : packFmts e ((xs ++ ys).map Val.fmt) (xs ++ ys) = .ok bs) :
    ∃ b1 b2, packFmts e (xs.map Val.fmt) xs = .ok b1 ∧ packFmts e (ys.map Val.fmt) ys = .ok b2 ∧ bs = b1 ++ b2 := by
  induction xs generalizing bs with
  | nil => exact ⟨[], bs, rfl, h, rfl⟩
  | cons v xs ih =>
    have hv : v.fmt.hasVal = true := by cases v <;> rfl
    simp only [List.cons_append, List.map_cons] at h
    have hfit := (packFmts_ok_iff e _ _).1 ⟨bs, h⟩
    rw [valFmts, List.filter_cons_of_pos hv] at hfit
    cases hfit with
    | cons hv1 hrest =>
      obtain ⟨c, hc, _, _⟩ := unpackOne_packOne e _ _ hv1
      rw [packFmts_cons e _ _ _ _ hv c hc] at h
      cases hr : packFmts e ((xs ++ ys).map Val.fmt) (xs ++ ys) with
      | error x => rw [hr] at h; simp [Except.map] at h
      | ok r =>
        rw [hr] at h
        simp only [Except.map, Except.ok.injEq] at h
        obtain ⟨b1, b2, h1, h2, h3⟩ := ih hr
        refine ⟨c ++ b1, b2, ?_, h2, ?_⟩
        · rw [List.map_cons, packFmts_cons e _ _ _ _ hv c hc, h1]; rfl
        · rw [← h, h3, List.append_assoc]

theorem HoldsW.append {e : Endian} {b : Bytes} {w : Nat} {xs ys : List Val} (hw : 1 ≤ w)
    (h : HoldsW e b w (xs ++ ys)) : HoldsW e b w xs ∧ HoldsW e b (w + xs.length) ys := by
  obtain ⟨bs, hp, hh⟩ := h
  obtain ⟨b1, b2, h1, h2, rfl⟩ := packFmts_append_words hp
  rw [Holds.append] at hh
  refine ⟨⟨b1, h1, hh.1⟩, b2, h2, ?_⟩
  have hl := packFmts_length h1
  rw [fmtSize_words] at hl
  have : w * 4 - 4 + b1.length = (w + xs.length) * 4 - 4 := by omega
  rw [← this]; exact hh.2

theorem HoldsW.get {e : Endian} {b : Bytes} {w : Nat} {ws : List Val} (hw : 1 ≤ w)
    (h : HoldsW e b w ws) (k : Nat) (v : Val) (hk : ws[k]? = some v) : HoldsW e b (w + k) [v] := by
  have hlt : k < ws.length := by
    by_contra hc
    rw [List.getElem?_eq_none (by omega)] at hk; cases hk
  have e1 : ws = ws.take k ++ [v] ++ ws.drop (k + 1) := by
    rw [List.getElem?_eq_getElem hlt] at hk
    injection hk with hk
    rw [← hk, List.take_append_getElem, List.take_append_drop]
  rw [e1] at h
  have h1 := (HoldsW.append hw h).1
  have h2 := (HoldsW.append hw h1).2
  rw [List.length_take, Nat.min_eq_left (by omega)] at h2
  exact h2

/-- Reading an unsigned word. -/
theorem HoldsW.readWord {e : Endian} {b : Bytes} {w : Nat} {i : Int} (h : HoldsW e b w [.int i]) (hw : 1 ≤ w) :
    inI32 i ∧ readWord e b (wordToPosition w) = (toU32 i : Int) := by
  obtain ⟨bs, hp, hh⟩ := h
  have hfit := (packFmts_ok_iff e _ _).1 ⟨bs, hp⟩
  have hi : inI32 i := by cases hfit with | cons h _ => exact h
  refine ⟨hi, ?_⟩
  have hbs : bs = encNat e 4 (toU32 i) := by
    have h1 : packOne e (Val.int i).fmt (Val.int i) = .ok (encNat e 4 (toU32 i)) := if_pos hi
    have h2 := packFmts_cons e (Val.int i).fmt [] (Val.int i) [] rfl _ h1
    simp only [List.map_cons, List.map_nil] at hp
    rw [h2] at hp
    simp only [packFmts, Except.map, List.append_nil, Except.ok.injEq] at hp
    exact hp.symm
  have hsl := hh.slice
  have hlen : bs.length = 4 := by rw [hbs]; simp
  rw [hlen] at hsl
  unfold Gempak.readWord
  have e1 : wordToPosition (w : Int) = ((w * 4 - 4 : Nat) : Int) := by unfold wordToPosition; omega
  have e2 : wordToPosition (w : Int) + 4 = ((w * 4 - 4 + 4 : Nat) : Int) := by rw [e1]; simp
  rw [e2, e1, pySlice_nat _ _ _ (by omega)]
  have e3 : w * 4 - 4 + 4 - (w * 4 - 4) = 4 := by omega
  rw [e3, hsl, hbs]
  unfold intFromBytes
  have := toU32_lt i
  simp only [Bool.false_eq_true, false_and, if_false, decNat_encNat]
  rw [Nat.mod_eq_of_lt (by omega)]

/-! ## Writing -/

theorem putStruct_ok {e : Endian} {fs : List Fmt} {vs : List Val} {s s' : Stream}
    (h : s.putStruct e fs vs = .ok s') : ∃ bs, packFmts e fs vs = .ok bs ∧ s' = s.write bs := by
  unfold Stream.putStruct at h
  cases hp : packFmts e fs vs with
  | error x => rw [hp] at h; simp [bind, Except.bind] at h
  | ok bs =>
    rw [hp] at h
    simp only [bind, Except.bind, Except.ok.injEq] at h
    exact ⟨bs, rfl, h.symm⟩

theorem write_append (s : Stream) (a b : Bytes) : (s.write a).write b = s.write (a ++ b) := by
  unfold Stream.write
  by_cases ha : a = []
  · subst ha; simp [writeAt]
  · by_cases hb : b = []
    · subst hb; simp [writeAt]
    · simp only [List.length_append, Stream.mk.injEq]
      refine ⟨?_, by omega⟩
      apply List.ext_getElem?
      intro i
      rw [writeAt_getElem? _ _ _ hb, writeAt_getElem? _ _ _ ha, writeAt_getElem? _ _ _ (by simp [ha]),
        writeAt_length _ _ _ ha]
      simp only [List.length_append]
      by_cases h1 : i < s.pos
      · simp only [h1, if_true]
        have : i < s.pos + a.length := by omega
        simp only [this, if_true]
        rw [if_pos (by omega)]
      · simp only [h1, if_false]
        by_cases h2 : i < s.pos + a.length
        · simp only [h2, if_true]
          rw [if_pos (by omega), if_pos (by omega), List.getElem?_append_left (by omega)]
        · simp only [h2, if_false]
          by_cases h3 : i < s.pos + a.length + b.length
          · rw [if_pos h3, if_pos (by omega), List.getElem?_append_right (by omega)]
            congr 1; omega
          · rw [if_neg h3, if_neg (by omega)]

theorem packFmts_cons_ok {e : Endian} {v : Val} {vs : List Val} {b1 b2 : Bytes}
    (h1 : packFmts e [v.fmt] [v] = .ok b1) (h2 : packFmts e (vs.map Val.fmt) vs = .ok b2) :
    packFmts e ((v :: vs).map Val.fmt) (v :: vs) = .ok (b1 ++ b2) := by
  have hv : v.fmt.hasVal = true := by cases v <;> rfl
  have hfit := (packFmts_ok_iff e _ _).1 ⟨b1, h1⟩
  rw [valFmts, List.filter_cons_of_pos hv] at hfit
  cases hfit with
  | cons hv1 _ =>
    obtain ⟨c, hc, _, _⟩ := unpackOne_packOne e _ _ hv1
    rw [packFmts_cons e _ _ _ _ hv c hc] at h1
    simp only [packFmts, Except.map, List.append_nil, Except.ok.injEq] at h1
    rw [List.map_cons, packFmts_cons e _ _ _ _ hv c hc, h2, ← h1]; rfl

theorem putWords_ok {e : Endian} {ws : List Val} {s s' : Stream} (h : s.putWords e ws = .ok s') :
    ∃ bs, packFmts e (ws.map Val.fmt) ws = .ok bs ∧ s' = s.write bs := by
  induction ws generalizing s with
  | nil =>
    simp only [Stream.putWords, Except.ok.injEq] at h
    exact ⟨[], rfl, by simp [Stream.write, writeAt, ← h]⟩
  | cons v ws ih =>
    simp only [Stream.putWords] at h
    cases hp : s.putWord e v with
    | error x => rw [hp] at h; simp [bind, Except.bind] at h
    | ok s1 =>
      rw [hp] at h
      simp only [bind, Except.bind] at h
      obtain ⟨b1, hb1, rfl⟩ := putStruct_ok hp
      obtain ⟨b2, hb2, rfl⟩ := ih h
      exact ⟨b1 ++ b2, packFmts_cons_ok hb1 hb2, write_append s b1 b2⟩

/-- Effect of writing words at a word position. -/
theorem putWords_spec {e : Endian} {ws : List Val} {s s' : Stream} {w : Nat} (h : s.putWords e ws = .ok s')
    (hw : 1 ≤ w) (hpos : s.pos = w * 4 - 4) :
    HoldsW e s'.buf w ws ∧ s'.pos = (w + ws.length) * 4 - 4 ∧
    Keeps s.buf s'.buf (fun i => w * 4 - 4 ≤ i ∧ i < (w + ws.length) * 4 - 4) ∧
    (ws ≠ [] → s'.buf.length = max s.buf.length ((w + ws.length) * 4 - 4)) ∧ (ws = [] → s'.buf = s.buf) := by
  obtain ⟨bs, hb, rfl⟩ := putWords_ok h
  have hl := packFmts_length hb
  rw [fmtSize_words] at hl
  have e1 : w * 4 - 4 + bs.length = (w + ws.length) * 4 - 4 := by omega
  refine ⟨⟨bs, hb, ?_⟩, ?_, ?_, ?_, ?_⟩
  · rw [← hpos]; exact writeAt_holds _ _ _
  · simp only [Stream.write, hpos]; exact e1
  · have := writeAt_keeps s.buf s.pos bs
    rw [hpos, e1] at this
    simp only [Stream.write, hpos]; exact this
  · intro hne
    have : bs ≠ [] := by
      rintro rfl
      have : ws.length ≠ 0 := by simpa using hne
      simp at hl; omega
    simp only [Stream.write]
    rw [writeAt_length _ _ _ this, hpos, e1]
  · rintro rfl
    have : bs = [] := by simpa using hl
    simp [Stream.write, writeAt, this]

theorem HoldsV.keep {e : Endian} {b b' : Bytes} {R : Nat → Prop} {p : Nat} {fs : List Fmt} {vs : List Val}
    (h : HoldsV e b p fs vs) (k : Keeps b b' R) (hR : ∀ i, p ≤ i → i < p + fmtSize fs → ¬ R i) :
    HoldsV e b' p fs vs := by
  obtain ⟨bs, hp, hh⟩ := h
  refine ⟨bs, hp, hh.keep k ?_⟩
  rw [packFmts_length hp]; exact hR

theorem HoldsW.keep {e : Endian} {b b' : Bytes} {R : Nat → Prop} {w : Nat} {ws : List Val} (hw : 1 ≤ w)
    (h : HoldsW e b w ws) (k : Keeps b b' R)
    (hR : ∀ i, w * 4 - 4 ≤ i → i < (w + ws.length) * 4 - 4 → ¬ R i) : HoldsW e b' w ws := by
  refine HoldsV.keep h k ?_
  rw [fmtSize_words]
  intro i h1 h2
  exact hR i h1 (by omega)

theorem jumpTo_buf (s : Stream) (w : Nat) : (s.jumpTo w).buf = s.buf := rfl
theorem jumpTo_pos (s : Stream) (w : Nat) : (s.jumpTo w).pos = w * 4 - 4 := rfl

end Gempak
