import Verif.Props.VgfBack

/-!
# C60, C70: tracks that move the reader backwards

The blank places of a track are skipped by `50 - n` times and points; with more than 50 points, of which the file holds only some, the reader goes
back further than it came.
-/

namespace Gempak
variable {ν : Type}

/-- The first 48 bytes of a track: 500 bytes, one kind of track, 100 points. -/
def turnHead : Bytes :=
  [0, 26, 10] ++ List.replicate 17 0 ++ [0, 0, 1, 244] ++ List.replicate 16 0 ++ [0, 0, 0, 0] ++ [0, 0, 0, 100]

/-- The track at the end of the file. -/
def turnTrack : Bytes := turnHead ++ List.replicate 452 0

/-- The record before: 600 bytes of a class that is skipped. -/
def turnFirst : Bytes := [0, 1, 7] ++ List.replicate 17 0 ++ [0, 0, 2, 88] ++ List.replicate 576 0

/-- A file of two records of the sizes they state. -/
def turnFile : Bytes := turnFirst ++ turnTrack

theorem turnFirst_length : turnFirst.length = 600 := by
  unfold turnFirst
  simp only [List.length_append, List.length_replicate, List.length_cons, List.length_nil]

theorem turnHead_length : turnHead.length = 48 := by decide

theorem turnTrack_length : turnTrack.length = 500 := by
  unfold turnTrack
  rw [List.length_append, turnHead_length, List.length_replicate]

theorem turnFile_length : turnFile.length = 1100 := by
  unfold turnFile
  rw [List.length_append, turnFirst_length, turnTrack_length]

theorem turnFile_eq : turnFile = turnFirst ++ turnTrack := rfl

theorem turnFile_zeros : turnFile = (turnFirst ++ turnHead) ++ List.replicate 452 0 := by
  unfold turnFile turnTrack
  rw [List.append_assoc]

seal turnFirst turnTrack turnFile

/-- Reading texts from zeros until the file is over. -/
theorem zeros_texts (w : Nat) (pre : Bytes) (k : Nat) (m : List Int) (n : Nat) : ∀ o : Nat, pre.length ≤ o → o ≤ pre.length + k →
    repeatRd (readCString w) n ⟨pre ++ List.replicate k 0, o, m⟩ =
      .ok (List.replicate n [], ⟨pre ++ List.replicate k 0, (min (o + w * n) (pre.length + k) : Nat), m⟩) := by
  induction n with
  | zero =>
    intro o hp ho
    have : min (o + w * 0) (pre.length + k) = o := by rw [Nat.mul_zero]; omega
    rw [this]
    rfl
  | succ n ih =>
    intro o hp ho
    have hl : (pre ++ List.replicate k (0 : UInt8)).length = pre.length + k := by rw [List.length_append, List.length_replicate]
    have hslice : pySlice (pre ++ List.replicate k (0 : UInt8)) o ((o : Int) + w) = List.replicate (min w (pre.length + k - o)) 0 := by
      unfold pySlice
      dsimp only
      rw [hl, if_neg (by omega), if_neg (by omega)]
      have e1 : (min (o : Int) ((pre.length + k : Nat) : Int)).toNat = o := by omega
      have e2 : (min ((o : Int) + w) ((pre.length + k : Nat) : Int) - min (o : Int) ((pre.length + k : Nat) : Int)).toNat =
        min w (pre.length + k - o) := by omega
      rw [e1, e2, List.drop_append, List.drop_eq_nil_of_le hp, List.nil_append, List.drop_replicate, List.take_replicate]
      congr 1
      omega
    have hread : readCString w ⟨pre ++ List.replicate k 0, o, m⟩ =
        .ok ([], ⟨pre ++ List.replicate k 0, ((o + min w (pre.length + k - o) : Nat) : Int), m⟩) := by
      unfold readCString
      rw [rd_ok (a := List.replicate (min w (pre.length + k - o)) 0)
        (b' := ⟨pre ++ List.replicate k 0, ((o + min w (pre.length + k - o) : Nat) : Int), m⟩) (by
          unfold readBytes IOBuffer.read IOBuffer.getNext IOBuffer.skip
          dsimp only
          rw [hslice, List.length_replicate]
          push_cast
          rfl)]
      have : cString (List.replicate (min w (pre.length + k - o)) 0) = .ok [] := by
        unfold cString
        have : (List.replicate (min w (pre.length + k - o)) (0 : UInt8)).takeWhile (· ≠ 0) = [] := by
          cases min w (pre.length + k - o) with
          | zero => rfl
          | succ j => rfl
        rw [this]
        rfl
      unfold Rd.pure'
      rw [this]
      rfl
    unfold repeatRd
    rw [rd_ok hread, rd_ok (ih _ (by omega) (by omega))]
    have : min (o + min w (pre.length + k - o) + w * n) (pre.length + k) = min (o + w * (n + 1)) (pre.length + k) := by rw [Nat.mul_succ]; omega
    rw [this]
    rfl

/-- The track takes the reader back to its beginning. -/
theorem turn_body (env : VgEnv ν) {D : Bytes} (hD : D = turnFile) (m : List Int) :
    ∃ a m', decodeTracks env ⟨D, 640, m⟩ = .ok (a, ⟨D, 600, m'⟩) := by
  have hx : Exact ⟨D, 640, m⟩ turnFirst turnTrack 40 := ⟨hD.trans turnFile_eq, by rw [turnFirst_length]; rfl⟩
  obtain ⟨⟨r, fsz⟩, b1, hr, x1⟩ := track_ok env hx (by rw [turnTrack_length]; omega)
  obtain ⟨_, hcase⟩ := on_track env hx.on hr
  have hint : DRec.int r "total_points" = .ok (Spec.wordAt turnTrack 44) := by
    rcases hcase with ⟨_, e, _⟩ | ⟨_, e, _⟩ | ⟨_, e, _⟩ <;> exact int_ok env e (i := 44) (by decide)
  have hpick : ∃ a, DRec.pick r ["track_type", "total_points", "initial_points", "initial_line_type",
    "extrapolated_line_type", "initial_mark_type", "extrapolated_mark_type", "line_width", "speed", "direction",
    "increment"] = .ok a := by
    rcases hcase with ⟨_, e, _⟩ | ⟨_, e, _⟩ | ⟨_, e, _⟩ <;> exact pick_ok env e _ (by decide)
  obtain ⟨a, ha⟩ := hpick
  have hend : Spec.trackEnd turnTrack = 100 := by decide +kernel
  rw [hend] at x1
  obtain ⟨D', o, m⟩ := b1
  obtain ⟨x1, x2⟩ := x1
  have x1 : D' = D := x1.trans (hD.trans turnFile_eq).symm
  have x3 : o = 700 := x2.trans (by rw [turnFirst_length]; rfl)
  rw [x1] at hr
  subst x3
  clear x2
  have w44 : Spec.wordAt turnTrack 44 = 100 := by decide +kernel
  have hf := hD.trans turnFile_zeros
  have hpl : (turnFirst ++ turnHead).length = 648 := by rw [List.length_append, turnFirst_length, turnHead_length]
  have h2 : repeatRd (readCString 18) (100 : Int).toNat ⟨D, 700, m⟩ = .ok (List.replicate 100 [], ⟨D, 1100, m⟩) := by
    have := zeros_texts 18 (turnFirst ++ turnHead) 452 m 100 700 (by rw [hpl]; decide) (by rw [hpl]; decide)
    rw [hpl, ← hf] at this
    exact this
  obtain ⟨w4, h4⟩ : ∃ ws, readVgWords 100 ⟨D, 200, m⟩ = .ok (ws, ⟨D, 600, m⟩) :=
    any_words (D := D) (o := 200) (n := 100) (m := m) (by rw [hD, turnFile_length]; omega)
  obtain ⟨w5, h5⟩ : ∃ ws, readVgWords 100 ⟨D, 600, m⟩ = .ok (ws, ⟨D, 1000, m⟩) :=
    any_words (D := D) (o := 600) (n := 100) (m := m) (by rw [hD, turnFile_length]; omega)
  have h3 : skipBytes ((50 - 100) * 18) ⟨D, 1100, m⟩ = .ok ((), ⟨D, 200, m⟩) := rfl
  have h6 : skipBytes (8 * (50 - 100)) ⟨D, 1000, m⟩ = .ok ((), ⟨D, 600, m⟩) := rfl
  have h7 : getLatLon env 100 ⟨D, 200, m⟩ = .ok (some (w4.map env.array, w5.map env.array), ⟨D, 1000, m⟩) := by
    unfold getLatLon
    rw [if_neg (by decide), if_pos (by decide), rd_ok h4, rd_ok h5]
    rfl
  unfold decodeTracks
  rw [rd_ok hr]
  dsimp only
  rw [rd_pure' hint, w44, rd_ok h2, rd_ok h3, rd_ok h7, rd_ok h6, rd_pure' ha]
  exact ⟨_, _, rfl⟩

/-- The first record is skipped. -/
theorem turn_first (env : VgEnv ν) {D : Bytes} (hD : D = turnFile) (s : VgState ν) :
    vgTurn env s (IOBuffer.ofSource D) = .ok (.next s, ⟨D, 600, []⟩) := by
  have hb : At (IOBuffer.ofSource D) [] D := ⟨rfl, rfl⟩
  obtain ⟨hd, hr, h0, h1, h2, h7, h3, h4, h5⟩ := readHeader_any env hb (by rw [hD, turnFile_length]; omega)
  have w : Spec.wordAt D 20 = 600 := by rw [hD]; decide +kernel
  have w1 : Spec.byteAt D 1 = 1 := by rw [hD]; decide +kernel
  have w2 : Spec.byteAt D 2 = 7 := by rw [hD]; decide +kernel
  have w7 : Spec.byteAt D 7 = 0 := by rw [hD]; decide +kernel
  have w0 : Spec.byteAt D 0 = 0 := by rw [hD]; decide +kernel
  have w12 : Spec.wordAt D 12 = 0 := by rw [hD]; decide +kernel
  have w16 : Spec.wordAt D 16 = 0 := by rw [hD]; decide +kernel
  rw [w0] at h0; rw [w1] at h1; rw [w2] at h2; rw [w] at h5; rw [w7] at h7; rw [w12] at h3; rw [w16] at h4
  unfold vgTurn
  simp only [hr, bind, Except.bind]
  have hv : invalidHeader (IOBuffer.ofSource D).data.length hd = false := by
    unfold invalidHeader
    rw [h0, h1, h2, h3, h4, h5]
    show _ = false
    rw [show (IOBuffer.ofSource D).data.length = 1100 from by rw [show (IOBuffer.ofSource D).data = D from rfl, hD, turnFile_length]]
    decide
  have hsk : decodeBody env hd = skipData hd := by
    unfold decodeBody
    rw [h2]
    rfl
  have hs : skipData hd (adv (IOBuffer.ofSource D) 40) = .ok ([], ⟨D, 600, []⟩) := by
    unfold skipData
    rw [h5]
    rfl
  rw [if_neg (by rw [hv]; decide), if_neg (by omega), hsk, hs]
  simp [h7]

/-- The track is read, accepted, and found again. -/
theorem turn_turn (env : VgEnv ν) {D : Bytes} (hD : D = turnFile) (s : VgState ν) (m : List Int) :
    ∃ s' m', vgTurn env s ⟨D, 600, m⟩ = .ok (.next s', ⟨D, 600, m'⟩) := by
  have hb : At ⟨D, 600, m⟩ turnFirst turnTrack := ⟨hD.trans turnFile_eq, by rw [turnFirst_length]; rfl⟩
  obtain ⟨hd, hr, h0, h1, h2, h7, h3, h4, h5⟩ := readHeader_any env hb (by rw [turnTrack_length]; omega)
  have w : Spec.wordAt turnTrack 20 = 500 := by decide +kernel
  have w1 : Spec.byteAt turnTrack 1 = 26 := by decide +kernel
  have w2 : Spec.byteAt turnTrack 2 = 10 := by decide +kernel
  have w7 : Spec.byteAt turnTrack 7 = 0 := by decide +kernel
  have w0 : Spec.byteAt turnTrack 0 = 0 := by decide +kernel
  have w12 : Spec.wordAt turnTrack 12 = 0 := by decide +kernel
  have w16 : Spec.wordAt turnTrack 16 = 0 := by decide +kernel
  rw [w0] at h0; rw [w1] at h1; rw [w2] at h2; rw [w] at h5; rw [w7] at h7; rw [w12] at h3; rw [w16] at h4
  unfold vgTurn
  simp only [hr, bind, Except.bind]
  have hv : invalidHeader D.length hd = false := by
    unfold invalidHeader
    rw [h0, h1, h2, h3, h4, h5, hD, turnFile_length]
    decide
  have hsk : decodeBody env hd = decodeTracks env := by
    unfold decodeBody
    rw [h2]
    rfl
  obtain ⟨a, m', ha⟩ := turn_body env hD m
  have ha : decodeTracks env (adv ⟨D, 600, m⟩ 40) = _ := ha
  rw [if_neg (by rw [hv]; decide), if_neg (by omega), hsk, ha]
  exact ⟨_, m', rfl⟩

/-- C60 is false for records of positive size, too: a file of 1100 bytes in two records of the sizes they state is decoded forever, since its track of
100 points is found again and again. -/
theorem C60_track_endless (env : VgEnv ν) (fuel : Nat) : openVgf env fuel turnFile = .outOfFuel := by
  obtain ⟨D, hD⟩ : ∃ D, D = turnFile := ⟨_, rfl⟩
  rw [← hD]
  have he : ∀ m, (⟨D, 600, m⟩ : IOBuffer).atEnd = false := by
    intro m
    unfold IOBuffer.atEnd
    dsimp only
    rw [hD, turnFile_length]
    rfl
  have loop : ∀ n s m, vgLoop env n ⟨D, 600, m⟩ s = .outOfFuel := by
    intro n
    induction n with
    | zero => intro s m; rw [vgLoop.eq_def]; dsimp only; rw [he]; rfl
    | succ n ih =>
      intro s m
      obtain ⟨s', m', ht⟩ := turn_turn env hD s m
      rw [vgLoop.eq_def]
      dsimp only
      rw [he, ht]
      exact ih s' m'
  have h0 : (IOBuffer.ofSource D).atEnd = false := by
    unfold IOBuffer.atEnd IOBuffer.ofSource
    dsimp only
    rw [hD, turnFile_length]
    rfl
  unfold openVgf
  cases fuel with
  | zero => rw [vgLoop.eq_def]; dsimp only; rw [h0]; rfl
  | succ n =>
    rw [vgLoop.eq_def]
    dsimp only
    rw [h0, turn_first env hD]
    exact loop n _ _

/-- C70 is false for records of positive size, too: from a track of 100 points that states its 500 bytes the reader comes back to where it was, having
read words in front of the record. -/
theorem C70_track_back (env : VgEnv ν) (s : VgState ν) (m : List Int) : Spec.wordAt turnTrack 20 = turnTrack.length ∧
    turnFile = turnFirst ++ turnTrack ∧ ∃ s' m', vgTurn env s ⟨turnFile, turnFirst.length, m⟩ = .ok (.next s', ⟨turnFile, turnFirst.length, m'⟩) := by
  refine ⟨by rw [turnTrack_length]; decide +kernel, turnFile_eq, ?_⟩
  rw [turnFirst_length]
  exact turn_turn env rfl s m

end Gempak
