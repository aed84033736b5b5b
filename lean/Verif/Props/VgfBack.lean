import Verif.Props.VgfEnds
import Verif.Proof.VgfWorkBodies

/-!
# C60, C70: records of positive size that move the reader backwards

The blank places of a list are skipped by `500 - n` names and numbers; with more than 500 items, of which the file holds only some, the reader
goes back further than it came.
-/

namespace Gempak
variable {ν : Type}

/-- The first 60 bytes of a list: 3200 bytes, one kind of list, 1300 items. -/
def backHead : Bytes :=
  [0, 34, 14] ++ List.replicate 17 0 ++ [0, 0, 12, 128] ++ List.replicate 16 0 ++ [0, 0, 0, 1] ++ [0, 0, 0, 1] ++ List.replicate 8 0 ++ [0, 0, 5, 20]

/-- The list at the end of the file. -/
def backList : Bytes := backHead ++ List.replicate 3140 0

/-- The record before: 4000 bytes of a class that is skipped. -/
def backFirst : Bytes := [0, 1, 7] ++ List.replicate 17 0 ++ [0, 0, 15, 160] ++ List.replicate 3976 0

/-- A file of two records of the sizes they state. -/
def backFile : Bytes := backFirst ++ backList

theorem backFirst_length : backFirst.length = 4000 := by
  unfold backFirst
  simp only [List.length_append, List.length_replicate, List.length_cons, List.length_nil]

theorem backHead_length : backHead.length = 60 := by decide

theorem backList_length : backList.length = 3200 := by
  unfold backList
  rw [List.length_append, backHead_length, List.length_replicate]

theorem backFile_length : backFile.length = 7200 := by
  unfold backFile
  rw [List.length_append, backFirst_length, backList_length]

theorem backFile_eq : backFile = backFirst ++ backList := rfl

theorem backFile_zeros : backFile = (backFirst ++ backHead) ++ List.replicate 3140 0 := by
  unfold backFile backList
  rw [List.append_assoc]

seal backFirst backList backFile

/-- Reading texts from zeros until the file is over. -/
theorem zeros_read (pre : Bytes) (k : Nat) (m : List Int) (n : Nat) : ∀ o : Nat, pre.length ≤ o → o ≤ pre.length + k →
    repeatRd (readCString 9) n ⟨pre ++ List.replicate k 0, o, m⟩ =
      .ok (List.replicate n [], ⟨pre ++ List.replicate k 0, (min (o + 9 * n) (pre.length + k) : Nat), m⟩) := by
  induction n with
  | zero =>
    intro o hp ho
    have : min (o + 9 * 0) (pre.length + k) = o := by omega
    rw [this]
    rfl
  | succ n ih =>
    intro o hp ho
    have hl : (pre ++ List.replicate k (0 : UInt8)).length = pre.length + k := by rw [List.length_append, List.length_replicate]
    have hslice : pySlice (pre ++ List.replicate k (0 : UInt8)) o ((o : Int) + 9) = List.replicate (min 9 (pre.length + k - o)) 0 := by
      unfold pySlice
      dsimp only
      rw [hl, if_neg (by omega), if_neg (by omega)]
      have e1 : (min (o : Int) ((pre.length + k : Nat) : Int)).toNat = o := by omega
      have e2 : (min ((o : Int) + 9) ((pre.length + k : Nat) : Int) - min (o : Int) ((pre.length + k : Nat) : Int)).toNat =
        min 9 (pre.length + k - o) := by omega
      rw [e1, e2, List.drop_append, List.drop_eq_nil_of_le hp, List.nil_append, List.drop_replicate, List.take_replicate]
      congr 1
      omega
    have hread : readCString 9 ⟨pre ++ List.replicate k 0, o, m⟩ =
        .ok ([], ⟨pre ++ List.replicate k 0, ((o + min 9 (pre.length + k - o) : Nat) : Int), m⟩) := by
      unfold readCString
      rw [rd_ok (a := List.replicate (min 9 (pre.length + k - o)) 0)
        (b' := ⟨pre ++ List.replicate k 0, ((o + min 9 (pre.length + k - o) : Nat) : Int), m⟩) (by
          unfold readBytes IOBuffer.read IOBuffer.getNext IOBuffer.skip
          dsimp only
          rw [hslice, List.length_replicate]
          push_cast
          rfl)]
      have : cString (List.replicate (min 9 (pre.length + k - o)) 0) = .ok [] := by
        unfold cString
        have : (List.replicate (min 9 (pre.length + k - o)) (0 : UInt8)).takeWhile (· ≠ 0) = [] := by
          cases min 9 (pre.length + k - o) with
          | zero => rfl
          | succ j => rfl
        rw [this]
        rfl
      unfold Rd.pure'
      rw [this]
      rfl
    unfold repeatRd
    rw [rd_ok hread, rd_ok (ih _ (by omega) (by omega))]
    have : min (o + min 9 (pre.length + k - o) + 9 * n) (pre.length + k) = min (o + 9 * (n + 1)) (pre.length + k) := by omega
    rw [this]
    rfl

/-- Any words can be read. -/
theorem any_words {D : Bytes} {o n : Nat} {m : List Int} (h : o + 4 * n ≤ D.length) :
    ∃ ws, readVgWords n ⟨D, o, m⟩ = .ok (ws, ⟨D, ((o + 4 * n : Nat) : Int), m⟩) := by
  unfold readVgWords
  dsimp only
  rw [if_neg (by omega), if_neg (by omega), Int.toNat_natCast, Int.toNat_natCast, if_neg (by rw [List.length_drop]; omega)]
  unfold IOBuffer.skip
  push_cast
  exact ⟨_, rfl⟩

/-- The list takes the reader back to its beginning. -/
theorem back_body (env : VgEnv ν) {D : Bytes} (hD : D = backFile) (m : List Int) :
    ∃ a m', decodeLists env ⟨D, 4040, m⟩ = .ok (a, ⟨D, 4000, m'⟩) := by
  have hx : Exact ⟨D, 4040, m⟩ backFirst backList 40 := ⟨hD.trans backFile_eq, by rw [backFirst_length]; rfl⟩
  obtain ⟨r, b1, hr, x1, e1⟩ := rec_read env .big listInfo (wellFormed_info env _ rfl) (by decide) (by decide)
    (by decide) (k := 20) (by decide) hx (by rw [backList_length]; omega) (sure_vals env backList (by decide))
  obtain ⟨D', o, m⟩ := b1
  obtain ⟨x1, x2⟩ := x1
  have x1 : D' = D := x1.trans (hD.trans backFile_eq).symm
  have x3 : o = 4060 := x2.trans (by rw [backFirst_length]; rfl)
  rw [x1] at hr
  subst x3
  clear x2
  have w40 : Spec.wordAt backList 40 = 1 := by decide +kernel
  have w44 : Spec.wordAt backList 44 = 1 := by decide +kernel
  have w56 : Spec.wordAt backList 56 = 1300 := by decide +kernel
  obtain ⟨a1, h8⟩ := pick_ok env e1 ["list_type", "marker_type", "marker_size", "marker_width", "number_items"] (by decide)
  have hf := hD.trans backFile_zeros
  have hpl : (backFirst ++ backHead).length = 4060 := by rw [List.length_append, backFirst_length, backHead_length]
  have h2 : repeatRd (readCString 9) (1300 : Int).toNat ⟨D, 4060, m⟩ = .ok (List.replicate 1300 [], ⟨D, 7200, m⟩) := by
    have := zeros_read (backFirst ++ backHead) 3140 m 1300 4060 (by rw [hpl]) (by rw [hpl]; decide)
    rw [hpl, ← hf] at this
    exact this
  obtain ⟨w4, h4⟩ : ∃ ws, readVgWords 1300 ⟨D, 0, m⟩ = .ok (ws, ⟨D, 5200, m⟩) :=
    any_words (D := D) (o := 0) (n := 1300) (m := m) (by rw [hD, backFile_length]; omega)
  obtain ⟨w6, h6⟩ : ∃ ws, readVgWords 1300 ⟨D, 2000, m⟩ = .ok (ws, ⟨D, 7200, m⟩) :=
    any_words (D := D) (o := 2000) (n := 1300) (m := m) (by rw [hD, backFile_length])
  have h3 : skipBytes ((maxPoints - 1300) * 9) ⟨D, 7200, m⟩ = .ok ((), ⟨D, 0, m⟩) := rfl
  have h5 : skipBytes (4 * (maxPoints - 1300)) ⟨D, 5200, m⟩ = .ok ((), ⟨D, 2000, m⟩) := rfl
  have h7 : skipBytes (4 * (maxPoints - 1300)) ⟨D, 7200, m⟩ = .ok ((), ⟨D, 4000, m⟩) := rfl
  obtain ⟨s1, h9⟩ : ∃ s, enumName 1 listTypeNames 1 = .ok s := ⟨_, rfl⟩
  obtain ⟨s2, h10⟩ : ∃ s, enumName 0 markerTypeNames 1 = .ok s := ⟨_, rfl⟩
  unfold decodeLists
  rw [rd_ok hr, rd_pure' (int_ok env e1 (i := 56) (by decide)), w56, rd_ok h2, rd_ok h3, rd_ok h4, rd_ok h5, rd_ok h6, rd_ok h7,
    rd_pure' h8, rd_pure' (a := s1) (by rw [int_ok env e1 (i := 40) (by decide), w40, ok_bind]; exact h9),
    rd_pure' (a := s2) (by rw [int_ok env e1 (i := 44) (by decide), w44, ok_bind]; exact h10)]
  exact ⟨_, _, rfl⟩

/-- The first record is skipped. -/
theorem back_first (env : VgEnv ν) {D : Bytes} (hD : D = backFile) (s : VgState ν) :
    vgTurn env s (IOBuffer.ofSource D) = .ok (.next s, ⟨D, 4000, []⟩) := by
  have hb : At (IOBuffer.ofSource D) [] D := ⟨rfl, rfl⟩
  obtain ⟨hd, hr, h0, h1, h2, h7, h3, h4, h5⟩ := readHeader_any env hb (by rw [hD, backFile_length]; omega)
  have w : Spec.wordAt D 20 = 4000 := by rw [hD]; decide +kernel
  have w1 : Spec.byteAt D 1 = 1 := by rw [hD]; decide +kernel
  have w2 : Spec.byteAt D 2 = 7 := by rw [hD]; decide +kernel
  have w7 : Spec.byteAt D 7 = 0 := by rw [hD]; decide +kernel
  have w0 : Spec.byteAt D 0 = 0 := by rw [hD]; decide +kernel
  have w12 : Spec.wordAt D 12 = 0 := by rw [hD]; decide +kernel
  have w16 : Spec.wordAt D 16 = 0 := by rw [hD]; decide +kernel
  rw [w0] at h0; rw [w1] at h1; rw [w2] at h2; rw [w] at h5; rw [w7] at h7; rw [w12] at h3; rw [w16] at h4
  unfold vgTurn
  simp only [hr, bind, Except.bind]
  have hv : invalidHeader (IOBuffer.ofSource D).data.length hd = false := by
    unfold invalidHeader
    rw [h0, h1, h2, h3, h4, h5]
    show _ = false
    rw [show (IOBuffer.ofSource D).data.length = 7200 from by rw [show (IOBuffer.ofSource D).data = D from rfl, hD, backFile_length]]
    decide
  have hsk : decodeBody env hd = skipData hd := by
    unfold decodeBody
    rw [h2]
    rfl
  have hs : skipData hd (adv (IOBuffer.ofSource D) 40) = .ok ([], ⟨D, 4000, []⟩) := by
    unfold skipData
    rw [h5]
    rfl
  rw [if_neg (by rw [hv]; decide), if_neg (by omega), hsk, hs]
  simp [h7]

/-- The list is read, accepted, and found again. -/
theorem back_turn (env : VgEnv ν) {D : Bytes} (hD : D = backFile) (s : VgState ν) (m : List Int) :
    ∃ s' m', vgTurn env s ⟨D, 4000, m⟩ = .ok (.next s', ⟨D, 4000, m'⟩) := by
  have hb : At ⟨D, 4000, m⟩ backFirst backList := ⟨hD.trans backFile_eq, by rw [backFirst_length]; rfl⟩
  obtain ⟨hd, hr, h0, h1, h2, h7, h3, h4, h5⟩ := readHeader_any env hb (by rw [backList_length]; omega)
  have w : Spec.wordAt backList 20 = 3200 := by decide +kernel
  have w1 : Spec.byteAt backList 1 = 34 := by decide +kernel
  have w2 : Spec.byteAt backList 2 = 14 := by decide +kernel
  have w7 : Spec.byteAt backList 7 = 0 := by decide +kernel
  have w0 : Spec.byteAt backList 0 = 0 := by decide +kernel
  have w12 : Spec.wordAt backList 12 = 0 := by decide +kernel
  have w16 : Spec.wordAt backList 16 = 0 := by decide +kernel
  rw [w0] at h0; rw [w1] at h1; rw [w2] at h2; rw [w] at h5; rw [w7] at h7; rw [w12] at h3; rw [w16] at h4
  unfold vgTurn
  simp only [hr, bind, Except.bind]
  have hv : invalidHeader D.length hd = false := by
    unfold invalidHeader
    rw [h0, h1, h2, h3, h4, h5, hD, backFile_length]
    decide
  have hsk : decodeBody env hd = decodeLists env := by
    unfold decodeBody
    rw [h2]
    rfl
  obtain ⟨a, m', ha⟩ := back_body env hD m
  have ha : decodeLists env (adv ⟨D, 4000, m⟩ 40) = _ := ha
  rw [if_neg (by rw [hv]; decide), if_neg (by omega), hsk, ha]
  exact ⟨_, m', rfl⟩

/-- C60 is false for records of positive size, too: a file of 7200 bytes in two records of the sizes they state is decoded forever, since its list of
1300 items is found again and again. -/
theorem C60_list_endless (env : VgEnv ν) (fuel : Nat) : openVgf env fuel backFile = .outOfFuel := by
  obtain ⟨D, hD⟩ : ∃ D, D = backFile := ⟨_, rfl⟩
  rw [← hD]
  have he : ∀ m, (⟨D, 4000, m⟩ : IOBuffer).atEnd = false := by
    intro m
    unfold IOBuffer.atEnd
    dsimp only
    rw [hD, backFile_length]
    rfl
  have loop : ∀ n s m, vgLoop env n ⟨D, 4000, m⟩ s = .outOfFuel := by
    intro n
    induction n with
    | zero => intro s m; rw [vgLoop.eq_def]; dsimp only; rw [he]; rfl
    | succ n ih =>
      intro s m
      obtain ⟨s', m', ht⟩ := back_turn env hD s m
      rw [vgLoop.eq_def]
      dsimp only
      rw [he, ht]
      exact ih s' m'
  have h0 : (IOBuffer.ofSource D).atEnd = false := by
    unfold IOBuffer.atEnd IOBuffer.ofSource
    dsimp only
    rw [hD, backFile_length]
    rfl
  unfold openVgf
  cases fuel with
  | zero => rw [vgLoop.eq_def]; dsimp only; rw [h0]; rfl
  | succ n =>
    rw [vgLoop.eq_def]
    dsimp only
    rw [h0, back_first env hD]
    exact loop n _ _

/-- C70 is false for records of positive size, too: from a list of 1300 items that states its 3200 bytes the reader comes back to where it was, having
read words in front of the record. -/
theorem C70_list_back (env : VgEnv ν) (s : VgState ν) (m : List Int) : Spec.wordAt backList 20 = backList.length ∧
    backFile = backFirst ++ backList ∧ ∃ s' m', vgTurn env s ⟨backFile, backFirst.length, m⟩ = .ok (.next s', ⟨backFile, backFirst.length, m'⟩) := by
  refine ⟨by rw [backList_length]; decide +kernel, backFile_eq, ?_⟩
  rw [backFirst_length]
  exact back_turn env rfl s m

end Gempak
