import Verif.Proof.VgfWorks

/-!
# Reading the bodies of vector graphic records succeeds when all bytes are there (for C115)
-/

namespace Gempak
open Spec (bytesAt vals shown singlesAt textsAt pointsAt Place wordAt byteAt littleNat singleAt)
variable {ν : Type}

/-- `rec_ok` together with what is read. -/
theorem rec_read (env : VgEnv ν) (e : Endian) (fs : List DField) (hw : WellFormed (fs.map (DField.info env)))
    (hc : someBare fs = true) (hp : placed e fs = true) (hpos : 0 < dSize fs) {k : Nat} (hk : dSize fs = k)
    {b : IOBuffer} {pre t : Bytes} {i : Nat} (hb : Exact b pre t i)
    (hl : i + k ≤ t.length) (hv : ∀ x ∈ places e i fs, x.2.val env t ≠ none) :
    ∃ r b', readRec env e fs b = .ok (r, b') ∧ Exact b' pre t (i + k) ∧ shown r = vals env t (places e i fs) := by
  subst hk
  obtain ⟨r, b', h, x⟩ := rec_ok env e fs hw hc hb hl hv
  exact ⟨r, b', h, x, (on_rec env e fs hw hp hpos hb.on h).1⟩

/-- Every place is sure or one of those given. -/
theorem mixed_vals (env : VgEnv ν) (t : Bytes) {tbl : List (String × Place)} (ps : List (String × Place))
    (h : (tbl.all fun x => sure [x] || ps.any fun y => decide (y.2 = x.2)) = true) (hp : ∀ y ∈ ps, y.2.val env t ≠ none) :
    ∀ x ∈ tbl, x.2.val env t ≠ none := by
  intro x hx
  have := List.all_eq_true.1 h x hx
  rw [Bool.or_eq_true] at this
  rcases this with h1 | h1
  · exact sure_vals env t h1 x (List.mem_singleton.2 rfl)
  · obtain ⟨y, hy, he⟩ := List.any_eq_true.1 h1
    rw [← of_decide_eq_true he]
    exact hp y hy

theorem vals_mem (env : VgEnv ν) (t : Bytes) {ps : List (String × Place)} {y : String × Place} (h : y ∈ ps) :
    (y.1, y.2.val env t) ∈ vals env t ps := List.mem_map.2 ⟨y, h, rfl⟩

theorem map_some {α β : Type} {f : α → β} {o : Option α} (h : o.map f ≠ none) : o ≠ none := by
  intro hn; rw [hn] at h; exact h rfl

theorem works_symbols (env : VgEnv ν) {b : IOBuffer} {pre t : Bytes} (hb : Exact b pre t 40)
    (hs : (Spec.symbolAt env t).size ≤ t.length) (hl : (Spec.symbolAt env t).Legible) : Works b (decodeSymbols env) := by
  have hs : 76 ≤ t.length := hs
  obtain ⟨r, b1, hr, x1, e1⟩ := rec_read env .big symbolInfo (wellFormed_info env _ rfl) (by decide) (by decide) (by decide)
    (k := 36) (by decide) hb hs (mixed_vals env t Spec.symbolPlaces (by decide) (fun y hy => hl.one (vals_mem env t hy)))
  obtain ⟨a1, h1⟩ := pick_ok env e1 ["number_symbols", "width"] (by decide)
  obtain ⟨a2, h2⟩ := pickAs_ok env e1 (a := "size") (n := "symbol_size") (by decide)
  obtain ⟨a3, h3⟩ := pick_ok env e1 ["symbol_type", "symbol_code", "offset_x", "offset_y", "lat", "lon"] (by decide)
  unfold decodeSymbols Works
  rw [rd_ok hr, rd_pure' h1, rd_pure' h2, rd_pure' h3]
  exact ⟨_, rfl⟩

theorem works_circles (env : VgEnv ν) {b : IOBuffer} {pre t : Bytes} (hb : Exact b pre t 40)
    (hs : (Spec.circleAt env t).size ≤ t.length) (hl : (Spec.circleAt env t).Legible) (hn : wordAt t 40 ≤ 500) :
    Works b (decodeCircles env) := by
  have hs : 60 + 8 * (wordAt t 40).toNat ≤ t.length := hs
  obtain ⟨r, b1, hr, x1, e1⟩ := rec_read env .big circleInfo (wellFormed_info env _ rfl) (by decide) (by decide) (by decide)
    (k := 20) (by decide) hb (by omega) (sure_vals env t (by decide))
  obtain ⟨ll, b2, h2, x2⟩ := latlon_ok env hn x1 (by omega)
  obtain ⟨a, ha⟩ := pick_ok env e1 ["number_points", "line_type", "line_type_hardware", "width", "line_width_hardware"]
    (by decide)
  have hc : 0 ≤ wordAt t 44 := by
    by_contra hc
    refine hl.one (a := "line_modifier") (List.mem_append_right _ (List.mem_cons_self)) (if_neg hc)
  obtain ⟨p, hp⟩ := lineProps_ok (ν := ν) hc
  unfold decodeCircles Works
  rw [rd_ok hr, rd_pure' (int_ok env e1 (i := 40) (by decide)), rd_ok h2, rd_pure' ha,
    rd_pure' (a := p) (by rw [int_ok env e1 (i := 44) (by decide), ok_bind]; exact hp)]
  exact ⟨_, rfl⟩

theorem works_lines (env : VgEnv ν) {b : IOBuffer} {pre t : Bytes} (hb : Exact b pre t 40) (hd : DHdr ν)
    (hs : (Spec.lineAt env t).size ≤ t.length) (hl : (Spec.lineAt env t).Legible) (hn : wordAt t 40 ≤ 500) :
    Works b (decodeLines env hd) := by
  have hs : 60 + 8 * (wordAt t 40).toNat ≤ t.length := hs
  obtain ⟨r, b1, hr, x1, e1⟩ := rec_read env .big lineInfo (wellFormed_info env _ rfl) (by decide) (by decide) (by decide)
    (k := 20) (by decide) hb (by omega) (sure_vals env t (by decide))
  obtain ⟨ll, b2, h2, x2⟩ := latlon_ok env hn x1 (by omega)
  obtain ⟨a, ha⟩ := pick_ok env e1 ["number_points", "line_type", "line_type_hardware", "width", "line_width_hardware"]
    (by decide)
  have e2 := (on_latlon env x1.on h2).1
  unfold decodeLines Works
  rw [rd_ok hr, rd_pure' (int_ok env e1 (i := 40) (by decide)), rd_ok h2]
  by_cases h1 : 1 ≤ wordAt t 40
  · rw [if_pos h1] at e2
    subst e2
    have hc : 0 ≤ wordAt t 44 := by
      by_contra hc
      unfold Spec.lineAt at hl
      dsimp only at hl
      rw [if_neg (by omega)] at hl
      refine hl.one (a := "line_modifier") (List.mem_append_right _ (List.mem_cons_self)) (if_neg hc)
    obtain ⟨p, hp⟩ := lineProps_ok (ν := ν) hc
    dsimp only
    rw [rd_pure' ha, rd_pure' (a := p) (by rw [int_ok env e1 (i := 44) (by decide), ok_bind]; exact hp)]
    exact ⟨_, rfl⟩
  · rw [if_neg h1] at e2
    subst e2
    exact ⟨_, rfl⟩

theorem works_special_lines (env : VgEnv ν) {b : IOBuffer} {pre t : Bytes} (hb : Exact b pre t 40) (hd : DHdr ν)
    (hs : (Spec.specialLineAt env t).size ≤ t.length) (hl : (Spec.specialLineAt env t).Legible) (hn : wordAt t 40 ≤ 500) :
    Works b (decodeSpecialLines env hd) := by
  have hs : 64 + 8 * (wordAt t 40).toNat ≤ t.length := hs
  obtain ⟨r, b1, hr, x1, e1⟩ := rec_read env .big specialLineInfo (wellFormed_info env _ rfl) (by decide) (by decide)
    (by decide) (k := 24) (by decide) hb (by omega) (sure_vals env t (by decide))
  obtain ⟨ll, b2, h2, x2⟩ := latlon_ok env hn x1 (by omega)
  obtain ⟨a1, h3⟩ := pick_ok env e1 ["number_points", "line_type", "stroke", "direction"] (by decide)
  obtain ⟨a2, h4⟩ := pickAs_ok env e1 (a := "size") (n := "line_size") (by decide)
  obtain ⟨a3, h5⟩ := pick_ok env e1 ["width"] (by decide)
  have e2 := (on_latlon env x1.on h2).1
  unfold decodeSpecialLines Works
  rw [rd_ok hr, rd_pure' (int_ok env e1 (i := 40) (by decide)), rd_ok h2]
  by_cases h1 : 1 ≤ wordAt t 40
  · rw [if_pos h1] at e2
    subst e2
    unfold Spec.specialLineAt at hl
    dsimp only at hl
    rw [if_neg (by omega)] at hl
    obtain ⟨s, hs⟩ := enum_ok (hl.one (a := "line_style") (v := Spec.codeName 1 Spec.specialLineStyles (wordAt t 44))
      (List.mem_append_right _ (by simp)))
    have hs : enumName 1 specialLineTypeNames (wordAt t 44) = .ok s := hs
    dsimp only
    rw [rd_pure' (int_ok env e1 (i := 52) (by decide)), rd_pure' h3, rd_pure' h4, rd_pure' h5,
      rd_pure' (int_ok env e1 (i := 44) (by decide)), rd_pure' hs]
    exact ⟨_, rfl⟩
  · rw [if_neg h1] at e2
    subst e2
    exact ⟨_, rfl⟩

theorem works_lists (env : VgEnv ν) {b : IOBuffer} {pre t : Bytes} (hb : Exact b pre t 40)
    (hs : (Spec.listAt env t).size ≤ t.length) (hl : (Spec.listAt env t).Legible)
    (hn : 0 ≤ wordAt t 56 ∧ wordAt t 56 ≤ 500) : Works b (decodeLists env) := by
  have hs : 8560 ≤ t.length := hs
  obtain ⟨r, b1, hr, x1, e1⟩ := rec_read env .big listInfo (wellFormed_info env _ rfl) (by decide) (by decide)
    (by decide) (k := 20) (by decide) hb (by omega) (sure_vals env t (by decide))
  have hm : ∀ {n : String} {v : Option (DVal ν)}, (n, v) ∈ [("list_items", (textsAt t 60 9 (wordAt t 56)).map DVal.texts),
      ("lat", some (.raw (singlesAt t 4560 (wordAt t 56)))), ("lon", some (.raw (singlesAt t 6560 (wordAt t 56)))),
      ("list_type_name", Spec.codeName 1 Spec.listKinds (wordAt t 40)),
      ("marker_name", Spec.codeName 0 Spec.markers (wordAt t 44))] → v ≠ none :=
    fun h => hl.one (List.mem_append_right _ h)
  obtain ⟨xs, b2, h2, x2⟩ := texts_ok 9 (wordAt t 56) x1 (by omega)
    (map_some (hm (n := "list_items") (v := (textsAt t 60 9 (wordAt t 56)).map DVal.texts) (by simp)))
  have h2 : repeatRd (readCString 9) (wordAt t 56).toNat b1 = .ok (xs, b2) := h2
  obtain ⟨b3, h3, x3⟩ := skip_ok (k := (maxPoints - wordAt t 56) * 9) (by unfold maxPoints; omega) x2
  have x3 := x3.cast (show _ = 4560 by unfold maxPoints; omega)
  obtain ⟨w4, b4, h4, x4⟩ := words_ok hn.1 x3 (by omega)
  obtain ⟨b5, h5, x5⟩ := skip_ok (k := 4 * (maxPoints - wordAt t 56)) (by unfold maxPoints; omega) x4
  have x5 := x5.cast (show _ = 6560 by unfold maxPoints; omega)
  obtain ⟨w6, b6, h6, x6⟩ := words_ok hn.1 x5 (by omega)
  obtain ⟨b7, h7, x7⟩ := skip_ok (k := 4 * (maxPoints - wordAt t 56)) (by unfold maxPoints; omega) x6
  obtain ⟨a1, h8⟩ := pick_ok env e1 ["list_type", "marker_type", "marker_size", "marker_width", "number_items"] (by decide)
  obtain ⟨s1, h9⟩ := enum_ok (hm (n := "list_type_name") (v := Spec.codeName 1 Spec.listKinds (wordAt t 40)) (by simp))
  obtain ⟨s2, h10⟩ := enum_ok (hm (n := "marker_name") (v := Spec.codeName 0 Spec.markers (wordAt t 44)) (by simp))
  unfold decodeLists Works
  rw [rd_ok hr, rd_pure' (int_ok env e1 (i := 56) (by decide)), rd_ok h2, rd_ok h3, rd_ok h4, rd_ok h5, rd_ok h6, rd_ok h7,
    rd_pure' h8, rd_pure' (a := s1) (by rw [int_ok env e1 (i := 40) (by decide), ok_bind]; exact h9),
    rd_pure' (a := s2) (by rw [int_ok env e1 (i := 44) (by decide), ok_bind]; exact h10)]
  exact ⟨_, rfl⟩

/-- The text at the end of a record. -/
theorem rest_ok {b : IOBuffer} {pre t : Bytes} {i : Nat} (hb : Exact b pre t i) {size : Int} (hsz : size = wordAt t 20)
    {k : Nat} (hk : 40 + k = i) (hi : (i : Int) ≤ size) (hl : size.toNat ≤ t.length)
    (hv : (Spec.restText t i : Option (DVal ν)) ≠ none) : ∃ r, readVgText size k b = .ok r := by
  have hw : size - vgfHeaderSize - (k : Int) = ((size.toNat - i : Nat) : Int) := by unfold vgfHeaderSize; omega
  subst hsz
  obtain ⟨x, b', h, _⟩ := cstring_ok ((wordAt t 20).toNat - i) hb (by omega) (map_some hv)
  unfold readVgText
  rw [hw, rd_ok h]
  exact ⟨_, rfl⟩

theorem works_text (env : VgEnv ν) {b : IOBuffer} {pre t : Bytes} (hb : Exact b pre t 40) {hd : DHdr ν}
    (hsz : hd.recordSize = wordAt t 20) (hc : 80 ≤ wordAt t 20)
    (hs : (Spec.textAt env t).size ≤ t.length) (hl : (Spec.textAt env t).Legible) : Works b (decodeText env hd) := by
  have hs : (wordAt t 20).toNat ≤ t.length := hs
  obtain ⟨r, b1, hr, x1, e1⟩ := rec_read env .big textInfo (wellFormed_info env _ rfl) (by decide) (by decide)
    (by decide) (k := 40) (by decide) hb (by omega) (sure_vals env t (by decide))
  obtain ⟨⟨s, b2⟩, h2⟩ := rest_ok x1 hsz (k := dSize textInfo) (by decide) (by rw [hsz]; omega) (by rw [hsz]; exact hs)
    (hl.one (a := "text") (List.mem_append_right _ List.mem_cons_self))
  obtain ⟨a1, h3⟩ := pick_ok env e1 ["rotation"] (by decide)
  obtain ⟨a2, h4⟩ := pickAs_ok env e1 (a := "size") (n := "text_size") (by decide)
  obtain ⟨a3, h5⟩ := pick_ok env e1 ["font", "text_flag", "width", "align", "lat", "lon", "offset_x", "offset_y"] (by decide)
  unfold decodeText Works
  rw [rd_ok hr, rd_ok h2, rd_pure' h3, rd_pure' h4, rd_pure' h5]
  exact ⟨_, rfl⟩

theorem works_special_text (env : VgEnv ν) {b : IOBuffer} {pre t : Bytes} (hb : Exact b pre t 40) {hd : DHdr ν}
    (hsz : hd.recordSize = wordAt t 20) (hc : 100 ≤ wordAt t 20)
    (hs : (Spec.specialTextAt env t).size ≤ t.length) (hl : (Spec.specialTextAt env t).Legible) :
    Works b (decodeSpecialText env hd) := by
  have hs : (wordAt t 20).toNat ≤ t.length := hs
  obtain ⟨r, b1, hr, x1, e1⟩ := rec_read env .big specialTextInfo (wellFormed_info env _ rfl) (by decide) (by decide)
    (by decide) (k := 60) (by decide) hb (by omega) (sure_vals env t (by decide))
  obtain ⟨⟨s, b2⟩, h2⟩ := rest_ok x1 hsz (k := dSize specialTextInfo) (by decide) (by rw [hsz]; omega)
    (by rw [hsz]; exact hs) (hl.one (a := "text") (List.mem_append_right _ List.mem_cons_self))
  obtain ⟨a1, h3⟩ := pick_ok env e1 ["rotation"] (by decide)
  obtain ⟨a2, h4⟩ := pickAs_ok env e1 (a := "size") (n := "text_size") (by decide)
  obtain ⟨a3, h5⟩ := pick_ok env e1 ["text_type", "turbulence_symbol", "font", "text_flag", "width", "text_color", "line_color",
    "fill_color", "align", "lat", "lon", "offset_x", "offset_y"] (by decide)
  unfold decodeSpecialText Works
  rw [rd_ok hr, rd_ok h2, rd_pure' h3, rd_pure' h4, rd_pure' h5]
  exact ⟨_, rfl⟩

theorem little_ok {b : IOBuffer} {pre t : Bytes} {i : Nat} (hb : Exact b pre t i) (hl : i + 4 ≤ t.length) :
    ∃ f b', readLittleF32 b = .ok (f, b') ∧ Exact b' pre t (i + 4) ∧ b'.marks = b.marks := by
  have hlen := hb.length
  have ho := hb.offset
  have h0 : ¬ b.offset < 0 := by omega
  have hsz : fmtSize [Fmt.f32] = 4 := by decide
  have hu : Gempak.unpackFrom .little [.f32] b.data b.offset =
      .ok (unpackItems .little [.f32] (b.data.drop b.offset.toNat)) := by
    unfold Gempak.unpackFrom
    dsimp only
    rw [if_neg h0, if_neg h0, hsz, if_pos (by omega)]
  unfold readLittleF32 IOBuffer.readStruct
  rw [hu, ok_bind, ok_bind]
  refine ⟨_, _, rfl, ⟨hb.data, ?_⟩, rfl⟩
  show b.offset + ((fmtSize [Fmt.f32] : Nat) : Int) = _
  rw [hsz, ho]; push_cast; omega

theorem block_ok {b : IOBuffer} {pre t : Bytes} {i : Nat} (hb : Exact b pre t i) (hl : i + 1024 ≤ t.length) :
    ∃ s b', readBlock b = .ok (s, b') ∧ Exact b' pre t (i + 1024) := by
  have hlen := hb.length
  have ho := hb.offset
  have h0 : ¬ b.offset < 0 := by omega
  have hsz : fmtSize [Fmt.str 1024] = 1024 := by decide
  have hu : Gempak.unpackFrom .little [.str 1024] b.data b.offset =
      .ok (unpackItems .little [.str 1024] (b.data.drop b.offset.toNat)) := by
    unfold Gempak.unpackFrom
    dsimp only
    rw [if_neg h0, if_neg h0, hsz, if_pos (by omega)]
  unfold readBlock IOBuffer.readStruct
  rw [hu, ok_bind, ok_bind]
  refine ⟨_, _, rfl, hb.data, ?_⟩
  show b.offset + ((fmtSize [Fmt.str 1024] : Nat) : Int) = _
  rw [hsz, ho]; push_cast; omega

theorem track_ok (env : VgEnv ν) {b : IOBuffer} {pre t : Bytes} (hb : Exact b pre t 40) (hl : 100 ≤ t.length) :
    ∃ p b', readTrack env b = .ok (p, b') ∧ Exact b' pre t (Spec.trackEnd t) := by
  have hb1 : Exact b.setMark.1 pre t 40 := ⟨hb.data, hb.offset⟩
  obtain ⟨r, b1, hr, x1, e1⟩ := rec_read env .big trackInfo (wellFormed_info env _ rfl) (by decide) (by decide)
    (by decide) (k := 56) (by decide) hb1 (by omega) (sure_vals env t (by decide))
  have s1 := readRec_state env _ _ hr
  obtain ⟨f, b2, h2, x2, hmk⟩ := little_ok x1 (by omega)
  have jump : ∃ c, jumpMark b.setMark.2 b2 = .ok ((), c) ∧ Exact c pre t 40 := by
    have hmark : b2.marks[b.setMark.2]? = some b.offset := by
      rw [hmk, s1]
      show (b.marks ++ [b.offset])[b.marks.length]? = _
      simp
    unfold jumpMark IOBuffer.jumpTo
    rw [hmark]
    refine ⟨_, rfl, x2.data, ?_⟩
    show b.offset + 0 = _
    rw [Int.add_zero]
    exact hb.offset
  obtain ⟨c, hj, xc⟩ := jump
  have hm : getMark b = .ok (b.setMark.2, b.setMark.1) := rfl
  unfold readTrack
  rw [rd_ok hm, rd_ok hr, rd_ok h2, rd_pure' (int_ok env e1 (i := 84) (by decide)),
    rd_pure' (int_ok env e1 (i := 88) (by decide))]
  unfold Spec.trackEnd
  by_cases hc : wordAt t 84 < -3 ∨ wordAt t 84 > 4
  · rw [if_pos hc, if_pos hc]
    obtain ⟨r', b3, hr', x3, _⟩ := rec_read env .big trackInfoOld (wellFormed_info env _ rfl) (by decide) (by decide)
      (by decide) (k := 44) (by decide) xc (by omega) (sure_vals env t (by decide))
    rw [rd_ok hj, rd_ok hr']
    exact ⟨_, _, rfl, x3⟩
  · rw [if_neg hc, if_neg hc]
    by_cases hc2 : wordAt t 88 < 0 ∨ wordAt t 88 > 33
    · rw [if_pos hc2, if_pos hc2]
      obtain ⟨r', b3, hr', x3, _⟩ := rec_read env .big trackInfoSkip (wellFormed_info env _ rfl) (by decide) (by decide)
        (by decide) (k := 48) (by decide) xc (by omega) (sure_vals env t (by decide))
      rw [rd_ok hj, rd_ok hr']
      exact ⟨_, _, rfl, x3⟩
    · rw [if_neg hc2, if_neg hc2]
      exact ⟨_, _, rfl, x2⟩

theorem works_tracks (env : VgEnv ν) {b : IOBuffer} {pre t : Bytes} (hb : Exact b pre t 40)
    (hs : (Spec.trackAt env t).size ≤ t.length) (hl : (Spec.trackAt env t).Legible)
    (hn : 0 ≤ wordAt t 44 ∧ wordAt t 44 ≤ 50) : Works b (decodeTracks env) := by
  have hs : Spec.trackEnd t + 1300 ≤ t.length := hs
  have hge : 84 ≤ Spec.trackEnd t := by unfold Spec.trackEnd; split <;> [omega; split <;> omega]
  obtain ⟨⟨r, fsz⟩, b1, hr, x1⟩ := track_ok env hb (by omega)
  obtain ⟨_, hcase⟩ := on_track env hb.on hr
  have hint : DRec.int r "total_points" = .ok (wordAt t 44) := by
    rcases hcase with ⟨_, e, _⟩ | ⟨_, e, _⟩ | ⟨_, e, _⟩ <;> exact int_ok env e (i := 44) (by decide)
  have hpick : ∃ a, DRec.pick r ["track_type", "total_points", "initial_points", "initial_line_type",
    "extrapolated_line_type", "initial_mark_type", "extrapolated_mark_type", "line_width", "speed", "direction",
    "increment"] = .ok a := by
    rcases hcase with ⟨_, e, _⟩ | ⟨_, e, _⟩ | ⟨_, e, _⟩ <;> exact pick_ok env e _ (by decide)
  obtain ⟨a, ha⟩ := hpick
  have htx : (textsAt t (Spec.trackEnd t) 18 (wordAt t 44)).map (DVal.texts (ν := ν)) ≠ none :=
    hl.one (a := "times") (List.mem_append_left _ (List.mem_append_right _ (by simp)))
  obtain ⟨xs, b2, h2, x2⟩ := texts_ok 18 (wordAt t 44) x1 (by omega) (map_some htx)
  have h2 : repeatRd (readCString 18) (wordAt t 44).toNat b1 = .ok (xs, b2) := h2
  obtain ⟨b3, h3, x3⟩ := skip_ok (k := (50 - wordAt t 44) * 18) (by omega) x2
  obtain ⟨ll, b4, h4, x4⟩ := latlon_ok env (n := wordAt t 44) (by omega) x3 (by omega)
  obtain ⟨b5, h5, x5⟩ := skip_ok (k := 8 * (50 - wordAt t 44)) (by omega) x4
  unfold decodeTracks Works
  rw [rd_ok hr]
  dsimp only
  rw [rd_pure' hint, rd_ok h2, rd_ok h3, rd_ok h4, rd_ok h5, rd_pure' ha]
  exact ⟨_, rfl⟩

theorem works_sigmet0 (env : VgEnv ν) {b : IOBuffer} {pre t : Bytes} (hb : Exact b pre t 40) {hd : DHdr ν}
    (hv : hd.version = 0) (hs : (Spec.sigmet0At env t).size ≤ t.length) (hn : 0 ≤ wordAt t 44) :
    Works b (decodeSigmet env hd) := by
  have hs : 428 + 8 * (wordAt t 44).toNat ≤ t.length := hs
  obtain ⟨r, b1, hr, x1, e1⟩ := rec_read env .big sigmetInfo0 (wellFormed_info env _ rfl) (by decide) (by decide)
    (by decide) (k := 388) (by decide) hb (by omega) (sure_vals env t (by decide))
  obtain ⟨w2, b2, h2, x2⟩ := words_ok hn x1 (by omega)
  obtain ⟨w3, b3, h3, x3⟩ := words_ok hn x2 (by omega)
  obtain ⟨a1, p1⟩ := pick_ok env e1 ["subtype", "number_points", "line_type", "line_width", "side_of_line", "area",
    "flight_info_region"] (by decide)
  obtain ⟨a2, p2⟩ := pickAs_ok env e1 (a := "status") (n := "area") (by decide)
  obtain ⟨a3, p3⟩ := pick_ok env e1 ["distance", "message_id", "sequence_number", "start_time", "end_time", "remarks", "sonic",
    "phenomena"] (by decide)
  obtain ⟨a4, p4⟩ := pick_ok env e1 ["trend", "movement", "type_indicator", "type_time", "flight_level", "speed", "direction",
    "tops", "forecaster"] (by decide)
  unfold decodeSigmet Works
  rw [rd_pure' (a := sigmetInfo0) (if_pos hv), rd_ok hr, rd_pure' (int_ok env e1 (i := 44) (by decide)), rd_ok h2, rd_ok h3,
    rd_pure' p1, rd_pure' p2, rd_pure' p3, rd_pure' p4]
  exact ⟨_, rfl⟩

theorem works_sigmet1 (env : VgEnv ν) {b : IOBuffer} {pre t : Bytes} (hb : Exact b pre t 40) {hd : DHdr ν}
    (hv : hd.version = 1) (hs : (Spec.sigmet1At env t).size ≤ t.length) (hn : 0 ≤ wordAt t 44) :
    Works b (decodeSigmet env hd) := by
  have hs : 776 + 8 * (wordAt t 44).toNat ≤ t.length := hs
  obtain ⟨r, b1, hr, x1, e1⟩ := rec_read env .big sigmetInfo1 (wellFormed_info env _ rfl) (by decide) (by decide)
    (by decide) (k := 736) (by decide) hb (by omega) (sure_vals env t (by decide))
  obtain ⟨w2, b2, h2, x2⟩ := words_ok hn x1 (by omega)
  obtain ⟨w3, b3, h3, x3⟩ := words_ok hn x2 (by omega)
  obtain ⟨a1, p1⟩ := pick_ok env e1 ["subtype", "number_points", "line_type", "line_width", "side_of_line", "area",
    "flight_info_region"] (by decide)
  obtain ⟨a2, p2⟩ := pickAs_ok env e1 (a := "status") (n := "area") (by decide)
  obtain ⟨a3, p3⟩ := pick_ok env e1 ["distance", "message_id", "sequence_number", "start_time", "end_time", "remarks", "sonic",
    "phenomena"] (by decide)
  obtain ⟨a4, p4⟩ := pick_ok env e1 ["trend", "movement", "type_indicator", "type_time", "flight_level", "speed", "direction",
    "tops", "forecaster"] (by decide)
  unfold decodeSigmet Works
  rw [rd_pure' (a := sigmetInfo1) (by rw [if_neg (by omega), if_pos hv]), rd_ok hr,
    rd_pure' (int_ok env e1 (i := 44) (by decide)), rd_ok h2, rd_ok h3, rd_pure' p1, rd_pure' p2, rd_pure' p3, rd_pure' p4]
  exact ⟨_, rfl⟩

theorem works_ccf (env : VgEnv ν) {b : IOBuffer} {pre t : Bytes} (hb : Exact b pre t 40)
    (hs : (Spec.ccfAt env t).size ≤ t.length) (hl : (Spec.ccfAt env t).Legible)
    (hn : 0 ≤ wordAt t 44 ∧ wordAt t 44 ≤ 100) : Works b (decodeCcf env) := by
  have hs : 1480 ≤ t.length := hs
  obtain ⟨r, b1, hr, x1, e1⟩ := rec_read env .big ccfInfo (wellFormed_info env _ rfl) (by decide) (by decide)
    (by decide) (k := 32) (by decide) hb (by omega) (sure_vals env t (by decide))
  obtain ⟨r2, b2, hr2, x2, e2⟩ := rec_read env .little ccfInfoNoswap (wellFormed_info env _ rfl) (by decide) (by decide)
    (by decide) (k := 36) (by decide) x1 (by omega) (sure_vals env t (by decide))
  obtain ⟨r3, b3, hr3, x3, e3⟩ := rec_read env .big ccfTextInfo (wellFormed_info env _ rfl) (by decide) (by decide)
    (by decide) (k := 316) (by decide) x2 (by omega) (mixed_vals env t Spec.ccfTextPlaces (by decide)
      (fun y hy => hl.one (List.mem_append_left _ (List.mem_append_left _ (List.mem_append_right _ (vals_mem env t hy))))))
  obtain ⟨s, b4, h4, x4⟩ := cstring_ok 256 x3 (by omega)
    (map_some (hl.one (a := "text_layout") (List.mem_append_left _ (List.mem_append_right _ List.mem_cons_self))))
  obtain ⟨ll, b5, h5, x5⟩ := latlon_ok env (n := wordAt t 44) (by omega) x4 (by omega)
  obtain ⟨a1, p1⟩ := pick_ok env e1 ["subtype", "number_points", "coverage", "storm_tops", "probability", "growth", "speed",
    "direction"] (by decide)
  obtain ⟨a2, p2⟩ := pick_ok env e2 ["text_lat", "text_lon", "arrow_lat", "arrow_lon", "high_fill", "med_fill", "low_fill",
    "line_type", "arrow_size"] (by decide)
  obtain ⟨a3, p3⟩ := pick_ok env e3 ["rotation", "text_size", "text_type", "turbulence_symbol", "font", "text_flag", "width",
    "fill_color", "align", "offset_x", "offset_y", "text"] (by decide)
  unfold decodeCcf Works
  have h4 : readCString 256 b3 = .ok (s, b4) := h4
  rw [rd_ok hr, rd_ok hr2, rd_ok hr3, rd_ok h4, rd_pure' (int_ok env e1 (i := 44) (by decide)), rd_ok h5, rd_pure' p1,
    rd_pure' p2, rd_pure' p3]
  exact ⟨_, rfl⟩

theorem works_volcanoes (env : VgEnv ν) {b : IOBuffer} {pre t : Bytes} (hb : Exact b pre t 40)
    (hs : (Spec.volcanoAt env t).size ≤ t.length) : Works b (decodeVolcanoes env) := by
  have hs : 5916 ≤ t.length := hs
  obtain ⟨r, b1, hr, x1, e1⟩ := rec_read env .big volcanoInfo (wellFormed_info env _ rfl) (by decide) (by decide)
    (by decide) (k := 5876) (by decide) hb (by omega) (sure_vals env t (by decide))
  obtain ⟨a1, p1⟩ := pick_ok env e1 ["name", "code", "size", "width", "number", "location", "area", "origin_station", "vaac",
    "wmo_id", "header_number", "elevation", "year", "advisory_number", "correction", "info_source",
    "additional_source", "aviation_color", "details", "obs_date", "obs_time", "obs_ash", "forecast_6hr",
    "forecast_12hr", "forecast_18hr", "remarks", "next_advisory", "forecaster", "offset_x", "offset_y", "lat", "lon"]
    (by decide)
  unfold decodeVolcanoes Works
  rw [rd_ok hr, rd_pure' p1]
  exact ⟨_, rfl⟩

theorem works_winds (env : VgEnv ν) {b : IOBuffer} {pre t : Bytes} (hb : Exact b pre t 40)
    (hs : (Spec.windAt env t).size ≤ t.length) : Works b (decodeWinds env) := by
  have hs : 76 ≤ t.length := hs
  obtain ⟨r, b1, hr, x1, e1⟩ := rec_read env .big windInfo (wellFormed_info env _ rfl) (by decide) (by decide)
    (by decide) (k := 36) (by decide) hb (by omega) (sure_vals env t (by decide))
  obtain ⟨a1, p1⟩ := pick_ok env e1 ["number_wind", "width", "size", "wind_type", "head_size", "speed", "direction", "lat",
    "lon"] (by decide)
  unfold decodeWinds Works
  rw [rd_ok hr, rd_pure' p1]
  exact ⟨_, rfl⟩

theorem works_ash (env : VgEnv ν) {b : IOBuffer} {pre t : Bytes} (hb : Exact b pre t 40)
    (hs : (Spec.ashAt env t).size ≤ t.length) (hl : (Spec.ashAt env t).Legible)
    (hn : 0 ≤ wordAt t 44 ∧ wordAt t 44 ≤ 50) : Works b (decodeAshClouds env) := by
  have hs : 840 ≤ t.length := hs
  obtain ⟨r, b1, hr, x1, e1⟩ := rec_read env .big ashInfo (wellFormed_info env _ rfl) (by decide) (by decide)
    (by decide) (k := 84) (by decide) hb (by omega) (sure_vals env t (by decide))
  obtain ⟨r2, b2, hr2, x2, e2⟩ := rec_read env .big ashTextInfo (wellFormed_info env _ rfl) (by decide) (by decide)
    (by decide) (k := 60) (by decide) x1 (by omega) (sure_vals env t (by decide))
  obtain ⟨s, b4, h4, x4⟩ := cstring_ok 255 x2 (by omega)
    (map_some (hl.one (a := "text") (List.mem_append_left _ (List.mem_append_right _ List.mem_cons_self))))
  obtain ⟨b5, h5, x5⟩ := skip_ok (k := 1) (by omega) x4
  have x5 := x5.cast (show _ = 440 by omega)
  obtain ⟨ll, b6, h6, x6⟩ := latlon_ok env (n := wordAt t 44) (by omega) x5 (by omega)
  obtain ⟨b7, h7, x7⟩ := skip_ok (k := (50 - wordAt t 44) * 8) (by omega) x6
  obtain ⟨a1, p1⟩ := pick_ok env e1 ["subtype", "number_points", "distance", "forecast_hour", "line_type", "line_width",
    "side_of_line", "speed", "speeds", "direction"] (by decide)
  obtain ⟨a2, p2⟩ := pickAs_ok env e1 (a := "flight_level1") (n := "flight_level_1") (by decide)
  obtain ⟨a3, p3⟩ := pickAs_ok env e1 (a := "flight_level2") (n := "flight_level_2") (by decide)
  obtain ⟨a4, p4⟩ := pick_ok env e2 ["rotation", "text_size", "text_type", "turbulence_symbol", "font", "text_flag", "width",
    "text_color", "line_color", "fill_color", "align"] (by decide)
  obtain ⟨a5, p5⟩ := pickAs_ok env e2 (a := "text_lat") (n := "lat") (by decide)
  obtain ⟨a6, p6⟩ := pickAs_ok env e2 (a := "text_lon") (n := "lon") (by decide)
  obtain ⟨a7, p7⟩ := pick_ok env e2 ["offset_x", "offset_y"] (by decide)
  unfold decodeAshClouds Works
  have h4 : readCString 255 b2 = .ok (s, b4) := h4
  rw [rd_ok hr, rd_ok hr2, rd_ok h4, rd_ok h5, rd_pure' (int_ok env e1 (i := 44) (by decide)), rd_ok h6, rd_ok h7, rd_pure' p1,
    rd_pure' p2, rd_pure' p3, rd_pure' p4, rd_pure' p5, rd_pure' p6, rd_pure' p7]
  exact ⟨_, rfl⟩

theorem works_gfa (env : VgEnv ν) {b : IOBuffer} {pre t : Bytes} (hb : Exact b pre t 40)
    (hs : (Spec.gfaAt env t).size ≤ t.length) (hn : wordAt t 44 ≤ 500) : Works b (decodeGfa env) := by
  have hs : 48 + 1024 * (wordAt t 40).toNat + 8 * (wordAt t 44).toNat ≤ t.length := hs
  obtain ⟨r, b1, hr, x1, e1⟩ := rec_read env .big gfaInfo (wellFormed_info env _ rfl) (by decide) (by decide)
    (by decide) (k := 8) (by decide) hb (by omega) (sure_vals env t (by decide))
  obtain ⟨bl, b2, h2, x2⟩ := repeat_ok (x := readBlock) (w := 1024) (n := (wordAt t 40).toNat)
    (fun k hk c hc => block_ok hc (by omega)) x1
  obtain ⟨ll, b3, h3, x3⟩ := latlon_ok env hn x2 (by omega)
  obtain ⟨a1, p1⟩ := pick_ok env e1 ["number_blocks", "number_points"] (by decide)
  unfold decodeGfa Works
  rw [rd_ok hr, rd_pure' (int_ok env e1 (i := 40) (by decide)), rd_ok h2, rd_pure' (int_ok env e1 (i := 44) (by decide)),
    rd_ok h3, rd_pure' p1]
  exact ⟨_, rfl⟩

theorem works_tca (env : VgEnv ν) {b : IOBuffer} {pre t : Bytes} (hb : Exact b pre t 40) {hd : DHdr ν}
    (hsz : hd.recordSize = wordAt t 20) (hc : 40 ≤ wordAt t 20)
    (hs : (Spec.tcaAt env t).size ≤ t.length) (hl : (Spec.tcaAt env t).Legible) : Works b (decodeTca env hd) := by
  have hs : (wordAt t 20).toNat ≤ t.length := hs
  have hw : hd.recordSize - vgfHeaderSize = (((wordAt t 20).toNat - 40 : Nat) : Int) := by
    rw [hsz]; unfold vgfHeaderSize; omega
  unfold Spec.tcaAt at hl
  cases hu : utf8Dec ((bytesAt t 40 ((wordAt t 20).toNat - 40)).takeWhile (· ≠ 0)) with
  | none =>
    rw [hu] at hl
    exact absurd rfl (hl.one (a := "") (v := none) (List.mem_singleton.2 rfl))
  | some s =>
    rw [hu] at hl
    dsimp only at hl
    cases ht : env.tca s with
    | error e =>
      rw [ht] at hl
      exact absurd rfl (hl.one (a := "") (v := none) (List.mem_singleton.2 rfl))
    | ok rs =>
      obtain ⟨x, b1, h1, x1⟩ := cstring_ok ((wordAt t 20).toNat - 40) hb (by omega) (by rw [hu]; exact Option.some_ne_none _)
      have e1 := (on_cstring _ hb.on h1).1
      rw [hu] at e1
      have e1 := Option.some.inj e1
      subst e1
      unfold decodeTca Works
      rw [hw, rd_ok h1, rd_pure' ht]
      exact ⟨_, rfl⟩

theorem tables_ok (env : VgEnv ν) (fs : List DField) (hw : WellFormed (fs.map (DField.info env)))
    (hc : someBare fs = true) {w : Nat} (hdw : dSize fs = w) (hv : ∀ j, sure (places .big j fs) = true)
    (n : Nat) {b : IOBuffer} {pre t : Bytes} {i : Nat} (hb : Exact b pre t i) (hl : i + w * n ≤ t.length) :
    ∃ rs b', repeatRd (readRec env .big fs) n b = .ok (rs, b') ∧ Exact b' pre t (i + w * n) := by
  subst hdw
  refine repeat_ok (fun k hk c hx => ?_) hb
  refine rec_ok env .big fs hw hc hx ?_ (sure_vals env t (hv _))
  have : dSize fs * k + dSize fs ≤ dSize fs * n := by rw [← Nat.mul_succ]; exact Nat.mul_le_mul_left _ hk
  omega

theorem works_jet (env : VgEnv ν) {b : IOBuffer} {pre t : Bytes} (hb : Exact b pre t 40)
    (hs : (Spec.jetAt env t).size ≤ t.length)
    (hc : 0 ≤ wordAt t 44 ∧ Spec.countAt t 4068 ≤ 50 ∧ Spec.countAt t 22072 ≤ 50) (hn : wordAt t 44 ≤ 500) :
    Works b (decodeJet env) := by
  have hs : 24076 ≤ t.length := hs
  obtain ⟨h44, hb50, hh50⟩ := hc
  have dbarb : dSize jetBarbInfo = 360 := by decide
  have dhash : dSize jetHashInfo = 40 := by decide
  obtain ⟨r, b1, hr, x1, e1⟩ := rec_read env .big jetLineInfo (wellFormed_info env _ rfl) (by decide) (by decide)
    (by decide) (k := 28) (by decide) hb (by omega) (sure_vals env t (by decide))
  obtain ⟨ll, b3, h3, x3⟩ := latlon_ok env hn x1 (by omega)
  obtain ⟨a1, p1⟩ := pick_ok env e1 ["line_color", "number_points", "line_type", "stroke", "direction", "size", "width"]
    (by decide)
  obtain ⟨b4, h4, x4⟩ := skip_ok (k := (maxPoints - wordAt t 44) * 8) (by unfold maxPoints; omega) x3
  have x4 := x4.cast (show _ = 4068 by unfold maxPoints; omega)
  obtain ⟨nb, b5, h5, x5⟩ := count_ok x4 (by omega)
  have e5 := (on_count x4.on h5).1
  subst e5
  have hbn : ((Spec.countAt t 4068 : Nat) : Int).toNat = Spec.countAt t 4068 := Int.toNat_natCast _
  obtain ⟨rs, b6, h6, x6⟩ := tables_ok env jetBarbInfo (wellFormed_info env _ rfl) (by decide) dbarb
    (fun j => rfl) (Spec.countAt t 4068) x5 (by omega)
  obtain ⟨b7, h7, x7⟩ := skip_ok (k := (50 - (Spec.countAt t 4068 : Int)) * (360 : Nat)) (by omega) x6
  have x7 := x7.cast (show _ = 22072 by omega)
  obtain ⟨nh, b8, h8, x8⟩ := count_ok x7 (by omega)
  have e8 := (on_count x7.on h8).1
  subst e8
  obtain ⟨hs', b9, h9, x9⟩ := tables_ok env jetHashInfo (wellFormed_info env _ rfl) (by decide) dhash
    (fun j => rfl) (Spec.countAt t 22072) x8 (by omega)
  unfold decodeJet Works
  rw [rd_ok hr, rd_pure' (int_ok env e1 (i := 44) (by decide)), rd_ok h3, rd_pure' p1, rd_ok h4, rd_ok h5, hbn, rd_ok h6, dbarb,
    rd_ok h7, rd_ok h8, Int.toNat_natCast, rd_ok h9]
  exact ⟨_, rfl⟩

/-! ### Watches -/

theorem mapM_ok_all {α β : Type} {f : α → Except PyErr β} : ∀ {l : List α}, (∀ x ∈ l, ∃ y, f x = .ok y) → ∃ ys, l.mapM f = .ok ys
  | [], _ => ⟨[], rfl⟩
  | x :: l, h => by
    obtain ⟨y, hy⟩ := h x List.mem_cons_self
    obtain ⟨ys, hys⟩ := mapM_ok_all (l := l) fun z hz => h z (List.mem_cons_of_mem _ hz)
    exact ⟨y :: ys, by rw [List.mapM_cons, hy, ok_bind, hys, ok_bind]; rfl⟩

theorem counties_ok_none {b : IOBuffer} {v : Int} (hv : v < 2) {w : DRec ν} :
    readCounties v w b = .ok (([], [], [], []), b) := by
  unfold readCounties
  rw [if_pos hv]
  rfl

theorem rd_bind_pure {α β : Type} {a : α} {f : α → Rd β} {b : IOBuffer} : ((pure a : Rd α) >>= f) b = f a b := rfl

/-- A table of counties. -/
theorem table_ok {b : IOBuffer} {pre t : Bytes} {i : Nat} {m size : Int} (hm : 0 ≤ m ∧ m ≤ size) (hb : Exact b pre t i)
    (hl : i + 4 * size.toNat ≤ t.length) :
    ∃ xs b' b'', readVgWords m b = .ok (xs, b') ∧ skipBytes (4 * (size - m)) b' = .ok ((), b'') ∧
      Exact b'' pre t (i + 4 * size.toNat) := by
  obtain ⟨s, b1, h1, x1⟩ := words_ok hm.1 hb (by omega)
  obtain ⟨b2, h2, x2⟩ := skip_ok (k := 4 * (size - m)) (by omega) x1
  exact ⟨s, b1, b2, h1, h2, x2.cast (by omega)⟩

theorem counties_ok {b : IOBuffer} {pre t : Bytes} {e : Nat} (hb : Exact b pre t e) {v : Int} (hv : 2 ≤ v) {w : DRec ν} {m : Int}
    (hm : 0 ≤ m ∧ m ≤ (if v < 5 then 200 else 400)) (hw : w.int "number_counties" = .ok m)
    (hl : e + (if v < 4 then 2400 else if v < 5 then 3200 else 4800) ≤ t.length) :
    ∃ c b', readCounties v w b = .ok (c, b') ∧
      Exact b' pre t (e + (if v < 4 then 2400 else if v < 5 then 3200 else 4800)) := by
  unfold readCounties
  rw [if_neg (by omega), rd_pure' hw]
  by_cases h5 : v < 5
  · simp only [if_pos h5] at hm ⊢
    by_cases h4 : v < 4
    · simp only [if_pos h4] at hl ⊢
      obtain ⟨s, b0, b1, h0, h1, x1⟩ := table_ok (size := 200) hm hb (by omega)
      obtain ⟨la, b2, h2, x2⟩ := words_ok hm.1 x1 (by omega)
      obtain ⟨lo, b3, h3, x3⟩ := words_ok hm.1 x2 (by omega)
      obtain ⟨b4, h4', x4⟩ := skip_ok (k := 8 * (200 - m)) (by omega) x3
      rw [rd_ok h0, rd_ok h1, rd_bind_pure, rd_bind_pure, rd_ok h2, rd_ok h3, rd_ok h4']
      exact ⟨_, _, rfl, x4.cast (by omega)⟩
    · simp only [if_neg h4, if_pos h5] at hl ⊢
      obtain ⟨s, b0, b1, h0, h1, x1⟩ := table_ok (size := 200) hm hb (by omega)
      obtain ⟨f, b6, b5, h6, h5', x5⟩ := table_ok (size := 200) hm x1 (by omega)
      obtain ⟨la, b2, h2, x2⟩ := words_ok hm.1 x5 (by omega)
      obtain ⟨lo, b3, h3, x3⟩ := words_ok hm.1 x2 (by omega)
      obtain ⟨b4, h4', x4⟩ := skip_ok (k := 8 * (200 - m)) (by omega) x3
      rw [rd_ok h0, rd_ok h1, rd_bind_pure, rd_ok h6, rd_ok h5', rd_bind_pure, rd_ok h2, rd_ok h3, rd_ok h4']
      exact ⟨_, _, rfl, x4.cast (by omega)⟩
  · simp only [if_neg h5, if_neg (show ¬ v < 4 by omega)] at hm hl ⊢
    obtain ⟨s, b0, b1, h0, h1, x1⟩ := table_ok (size := 400) hm hb (by omega)
    obtain ⟨la, b2, h2, x2⟩ := words_ok hm.1 x1 (by omega)
    obtain ⟨lo, b3, h3, x3⟩ := words_ok hm.1 x2 (by omega)
    obtain ⟨b4, h4', x4⟩ := skip_ok (k := 8 * (400 - m)) (by omega) x3
    rw [rd_bind_pure, rd_ok h0, rd_ok h1, rd_bind_pure, rd_ok h2, rd_ok h3, rd_ok h4']
    exact ⟨_, _, rfl, x4.cast (by omega)⟩

/-- What follows the county tables. -/
theorem works_watch_tail (env : VgEnv ν) {b b1 b2 : IOBuffer} {pre t : Bytes} {v : Nat} {hd : DHdr ν} {info : List DField}
    (hbv : byteAt t 6 = v) (hi : watchInfo hd.version = .ok info)
    (hn : (Spec.watchPlaces v).lookup "number_points" = some (.word 40))
    (hmk : (Spec.watchPlaces v).lookup "marker_type" = if v = 6 then some (.word 52) else none)
    (hc : 0 ≤ wordAt t 40) {w : DRec ν} (hw : readRec env .big info b = .ok (w, b1))
    (e1 : shown w = vals env t (Spec.watchPlaces v)) {c : List Int × List Int × List F32 × List F32}
    (hcn : readCounties hd.version w b1 = .ok (c, b2)) (x2 : Exact b2 pre t (Spec.watchPoints v))
    (hs : (Spec.watchAt env t).size ≤ t.length) (hl : (Spec.watchAt env t).Legible) : Works b (decodeWatches env hd) := by
  have hs : Spec.watchPoints (byteAt t 6) + 8 * (wordAt t 40).toNat ≤ t.length := hs
  rw [hbv] at hs
  obtain ⟨la, b3, h3, x3⟩ := words_ok hc x2 (by omega)
  obtain ⟨lo, b4, h4, x4⟩ := words_ok hc x3 (by omega)
  have hall : ∃ a, watchAttrs.mapM (watchAttr w) = .ok a := by
    refine mapM_ok_all fun x hx => ?_
    have hne : Spec.watchField env v t x ≠ none := by
      have := hl.one (a := x.1) (v := Spec.watchField env (byteAt t 6) t x)
        (List.mem_append_left _ (List.mem_append_left _ (List.mem_map.2 ⟨x, hx, rfl⟩)))
      rw [hbv] at this
      exact this
    unfold Spec.watchField at hne
    unfold watchAttr
    cases hp : (Spec.watchPlaces v).lookup x.1 with
    | none =>
      rw [hp] at hne
      rw [lookup_noplace env e1 hp]
      cases hx2 : x.2 with
      | none => rw [hx2] at hne; exact absurd rfl hne
      | some d => exact ⟨_, rfl⟩
    | some p =>
      obtain ⟨y, h1, _⟩ := lookup_place env e1 hp
      rw [h1]
      cases x.2 <;> exact ⟨_, rfl⟩
  obtain ⟨a, ha'⟩ := hall
  have ha := watch_place env e1 watchAttrs ha'
  have hlook : (shown a).lookup "marker_type" = some (some (.int (if v = 6 then wordAt t 52 else 1))) := by
    rw [ha]
    show some (match (Spec.watchPlaces v).lookup "marker_type" with | some p => p.val env t | none => some (.int 1)) = _
    rw [hmk]
    by_cases h6 : v = 6
    · rw [if_pos h6, if_pos h6]; rfl
    · rw [if_neg h6, if_neg h6]
  have hlook2 : a.lookup "marker_type" = some (.int (if v = 6 then wordAt t 52 else 1)) := by
    rw [lookup_shown] at hlook
    revert hlook
    cases a.lookup "marker_type" with
    | none => intro hlook; cases hlook
    | some y => intro hlook; rw [Option.some.inj (Option.some.inj hlook)]
  have hcode : Spec.codeName (ν := ν) 0 Spec.markers (if v = 6 then wordAt t 52 else 1) ≠ none := by
    have := hl.one (a := "marker_name") (v := Spec.codeName 0 Spec.markers (if byteAt t 6 = 6 then wordAt t 52 else 1))
      (List.mem_append_right _ (by simp))
    rw [hbv] at this
    exact this
  obtain ⟨mt, hmt⟩ := enum_ok hcode
  have hmt : enumName 0 markerTypeNames (if v = 6 then wordAt t 52 else 1) = .ok mt := hmt
  unfold decodeWatches Works
  rw [rd_pure' hi, rd_ok hw, rd_ok hcn, rd_pure' (int_ok env e1 (i := 40) hn), rd_ok h3, rd_ok h4]
  dsimp only
  rw [rd_pure' ha', hlook2]
  dsimp only
  rw [rd_pure' hmt]
  exact ⟨_, rfl⟩

theorem works_watch0 (env : VgEnv ν) {b : IOBuffer} {pre t : Bytes} (hb : Exact b pre t 40) {hd : DHdr ν}
    (hv : hd.version = (0 : Nat)) (hbv : byteAt t 6 = 0) (hc : 0 ≤ wordAt t 40)
    (hm : 0 ≤ Spec.watchCounties 0 t ∧ Spec.watchCounties 0 t ≤ 200)
    (hs : (Spec.watchAt env t).size ≤ t.length) (hl : (Spec.watchAt env t).Legible) : Works b (decodeWatches env hd) := by
  have hs' : Spec.watchPoints (byteAt t 6) + 8 * (wordAt t 40).toNat ≤ t.length := hs
  rw [hbv] at hs'
  have hpt : Spec.watchPoints 0 = 188 := by decide
  rw [hpt] at hs'
  have hi : watchInfo hd.version = .ok watchInfo0 := by rw [hv]; rfl
  have htbl : places .big 40 watchInfo0 = Spec.watchPlaces 0 := by decide
  obtain ⟨w, b1, hw, x1, e1⟩ := rec_read env .big watchInfo0 (wellFormed_info env _ rfl) (by decide) (by decide)
    (by decide) (k := 148) (by decide) hb (by omega) (sure_vals env t (by decide))
  rw [htbl] at e1
  exact works_watch_tail env hbv hi (by decide) (by decide) hc hw e1 (counties_ok_none (by rw [hv]; decide)) x1 hs hl

theorem works_watch1 (env : VgEnv ν) {b : IOBuffer} {pre t : Bytes} (hb : Exact b pre t 40) {hd : DHdr ν}
    (hv : hd.version = (1 : Nat)) (hbv : byteAt t 6 = 1) (hc : 0 ≤ wordAt t 40)
    (hm : 0 ≤ Spec.watchCounties 1 t ∧ Spec.watchCounties 1 t ≤ 200)
    (hs : (Spec.watchAt env t).size ≤ t.length) (hl : (Spec.watchAt env t).Legible) : Works b (decodeWatches env hd) := by
  have hs' : Spec.watchPoints (byteAt t 6) + 8 * (wordAt t 40).toNat ≤ t.length := hs
  rw [hbv] at hs'
  have hpt : Spec.watchPoints 1 = 684 := by decide
  rw [hpt] at hs'
  have hi : watchInfo hd.version = .ok watchInfo1 := by rw [hv]; rfl
  have htbl : places .big 40 watchInfo1 = Spec.watchPlaces 1 := by decide
  obtain ⟨w, b1, hw, x1, e1⟩ := rec_read env .big watchInfo1 (wellFormed_info env _ rfl) (by decide) (by decide)
    (by decide) (k := 644) (by decide) hb (by omega) (sure_vals env t (by decide))
  rw [htbl] at e1
  exact works_watch_tail env hbv hi (by decide) (by decide) hc hw e1 (counties_ok_none (by rw [hv]; decide)) x1 hs hl

theorem works_watch2 (env : VgEnv ν) {b : IOBuffer} {pre t : Bytes} (hb : Exact b pre t 40) {hd : DHdr ν}
    (hv : hd.version = (2 : Nat)) (hbv : byteAt t 6 = 2) (hc : 0 ≤ wordAt t 40)
    (hm : 0 ≤ Spec.watchCounties 2 t ∧ Spec.watchCounties 2 t ≤ 200)
    (hs : (Spec.watchAt env t).size ≤ t.length) (hl : (Spec.watchAt env t).Legible) : Works b (decodeWatches env hd) := by
  have hs' : Spec.watchPoints (byteAt t 6) + 8 * (wordAt t 40).toNat ≤ t.length := hs
  rw [hbv] at hs'
  have hpt : Spec.watchPoints 2 = 3092 := by decide
  rw [hpt] at hs'
  have hi : watchInfo hd.version = .ok watchInfo2 := by rw [hv]; rfl
  have htbl : places .big 40 watchInfo2 = Spec.watchPlaces 2 := by decide
  obtain ⟨w, b1, hw, x1, e1⟩ := rec_read env .big watchInfo2 (wellFormed_info env _ rfl) (by decide) (by decide)
    (by decide) (k := 652) (by decide) hb (by omega) (sure_vals env t (by decide))
  rw [htbl] at e1
  obtain ⟨c, b2, hcn, x2⟩ := counties_ok x1 (v := (2 : Nat)) (by decide) hm
    (int_ok env e1 (i := 684) (by decide)) (by show _ + 2400 ≤ _; omega)
  rw [← hv] at hcn
  exact works_watch_tail env hbv hi (by decide) (by decide) hc hw e1 hcn x2 hs hl

theorem works_watch3 (env : VgEnv ν) {b : IOBuffer} {pre t : Bytes} (hb : Exact b pre t 40) {hd : DHdr ν}
    (hv : hd.version = (3 : Nat)) (hbv : byteAt t 6 = 3) (hc : 0 ≤ wordAt t 40)
    (hm : 0 ≤ Spec.watchCounties 3 t ∧ Spec.watchCounties 3 t ≤ 200)
    (hs : (Spec.watchAt env t).size ≤ t.length) (hl : (Spec.watchAt env t).Legible) : Works b (decodeWatches env hd) := by
  have hs' : Spec.watchPoints (byteAt t 6) + 8 * (wordAt t 40).toNat ≤ t.length := hs
  rw [hbv] at hs'
  have hpt : Spec.watchPoints 3 = 3140 := by decide
  rw [hpt] at hs'
  have hi : watchInfo hd.version = .ok watchInfo3 := by rw [hv]; rfl
  have htbl : places .big 40 watchInfo3 = Spec.watchPlaces 3 := by decide
  obtain ⟨w, b1, hw, x1, e1⟩ := rec_read env .big watchInfo3 (wellFormed_info env _ rfl) (by decide) (by decide)
    (by decide) (k := 700) (by decide) hb (by omega) (sure_vals env t (by decide))
  rw [htbl] at e1
  obtain ⟨c, b2, hcn, x2⟩ := counties_ok x1 (v := (3 : Nat)) (by decide) hm
    (int_ok env e1 (i := 732) (by decide)) (by show _ + 2400 ≤ _; omega)
  rw [← hv] at hcn
  exact works_watch_tail env hbv hi (by decide) (by decide) hc hw e1 hcn x2 hs hl

theorem works_watch4 (env : VgEnv ν) {b : IOBuffer} {pre t : Bytes} (hb : Exact b pre t 40) {hd : DHdr ν}
    (hv : hd.version = (4 : Nat)) (hbv : byteAt t 6 = 4) (hc : 0 ≤ wordAt t 40)
    (hm : 0 ≤ Spec.watchCounties 4 t ∧ Spec.watchCounties 4 t ≤ 200)
    (hs : (Spec.watchAt env t).size ≤ t.length) (hl : (Spec.watchAt env t).Legible) : Works b (decodeWatches env hd) := by
  have hs' : Spec.watchPoints (byteAt t 6) + 8 * (wordAt t 40).toNat ≤ t.length := hs
  rw [hbv] at hs'
  have hpt : Spec.watchPoints 4 = 4060 := by decide
  rw [hpt] at hs'
  have hi : watchInfo hd.version = .ok watchInfo4 := by rw [hv]; rfl
  have htbl : places .big 40 watchInfo4 = Spec.watchPlaces 4 := by decide
  obtain ⟨w, b1, hw, x1, e1⟩ := rec_read env .big watchInfo4 (wellFormed_info env _ rfl) (by decide) (by decide)
    (by decide) (k := 820) (by decide) hb (by omega) (sure_vals env t (by decide))
  rw [htbl] at e1
  obtain ⟨c, b2, hcn, x2⟩ := counties_ok x1 (v := (4 : Nat)) (by decide) hm
    (int_ok env e1 (i := 852) (by decide)) (by show _ + 3200 ≤ _; omega)
  rw [← hv] at hcn
  exact works_watch_tail env hbv hi (by decide) (by decide) hc hw e1 hcn x2 hs hl

theorem works_watch5 (env : VgEnv ν) {b : IOBuffer} {pre t : Bytes} (hb : Exact b pre t 40) {hd : DHdr ν}
    (hv : hd.version = (5 : Nat)) (hbv : byteAt t 6 = 5) (hc : 0 ≤ wordAt t 40)
    (hm : 0 ≤ Spec.watchCounties 5 t ∧ Spec.watchCounties 5 t ≤ 400)
    (hs : (Spec.watchAt env t).size ≤ t.length) (hl : (Spec.watchAt env t).Legible) : Works b (decodeWatches env hd) := by
  have hs' : Spec.watchPoints (byteAt t 6) + 8 * (wordAt t 40).toNat ≤ t.length := hs
  rw [hbv] at hs'
  have hpt : Spec.watchPoints 5 = 5660 := by decide
  rw [hpt] at hs'
  have hi : watchInfo hd.version = .ok watchInfo5 := by rw [hv]; rfl
  have htbl : places .big 40 watchInfo5 = Spec.watchPlaces 5 := by decide
  obtain ⟨w, b1, hw, x1, e1⟩ := rec_read env .big watchInfo5 (wellFormed_info env _ rfl) (by decide) (by decide)
    (by decide) (k := 820) (by decide) hb (by omega) (sure_vals env t (by decide))
  rw [htbl] at e1
  obtain ⟨c, b2, hcn, x2⟩ := counties_ok x1 (v := (5 : Nat)) (by decide) hm
    (int_ok env e1 (i := 852) (by decide)) (by show _ + 4800 ≤ _; omega)
  rw [← hv] at hcn
  exact works_watch_tail env hbv hi (by decide) (by decide) hc hw e1 hcn x2 hs hl

theorem works_watch6 (env : VgEnv ν) {b : IOBuffer} {pre t : Bytes} (hb : Exact b pre t 40) {hd : DHdr ν}
    (hv : hd.version = (6 : Nat)) (hbv : byteAt t 6 = 6) (hc : 0 ≤ wordAt t 40)
    (hm : 0 ≤ Spec.watchCounties 6 t ∧ Spec.watchCounties 6 t ≤ 400)
    (hs : (Spec.watchAt env t).size ≤ t.length) (hl : (Spec.watchAt env t).Legible) : Works b (decodeWatches env hd) := by
  have hs' : Spec.watchPoints (byteAt t 6) + 8 * (wordAt t 40).toNat ≤ t.length := hs
  rw [hbv] at hs'
  have hpt : Spec.watchPoints 6 = 5672 := by decide
  rw [hpt] at hs'
  have hi : watchInfo hd.version = .ok watchInfo6 := by rw [hv]; rfl
  have htbl : places .big 40 watchInfo6 = Spec.watchPlaces 6 := by decide
  obtain ⟨w, b1, hw, x1, e1⟩ := rec_read env .big watchInfo6 (wellFormed_info env _ rfl) (by decide) (by decide)
    (by decide) (k := 832) (by decide) hb (by omega) (sure_vals env t (by decide))
  rw [htbl] at e1
  obtain ⟨c, b2, hcn, x2⟩ := counties_ok x1 (v := (6 : Nat)) (by decide) hm
    (int_ok env e1 (i := 864) (by decide)) (by show _ + 4800 ≤ _; omega)
  rw [← hv] at hcn
  exact works_watch_tail env hbv hi (by decide) (by decide) hc hw e1 hcn x2 hs hl

theorem works_watches (env : VgEnv ν) {b : IOBuffer} {pre t : Bytes} (hb : Exact b pre t 40) {hd : DHdr ν}
    (hv : hd.version = byteAt t 6) (h6 : byteAt t 6 ≤ 6) (hc : 0 ≤ wordAt t 40)
    (hm : 0 ≤ Spec.watchCounties (byteAt t 6) t ∧
      Spec.watchCounties (byteAt t 6) t ≤ (if byteAt t 6 < 5 then 200 else 400))
    (hs : (Spec.watchAt env t).size ≤ t.length) (hl : (Spec.watchAt env t).Legible) : Works b (decodeWatches env hd) := by
  generalize hk : byteAt t 6 = k at hv hm h6
  match k, hk, hv, hm, h6 with
  | 0, hk, hv, hm, _ => exact works_watch0 env hb hv hk hc hm hs hl
  | 1, hk, hv, hm, _ => exact works_watch1 env hb hv hk hc hm hs hl
  | 2, hk, hv, hm, _ => exact works_watch2 env hb hv hk hc hm hs hl
  | 3, hk, hv, hm, _ => exact works_watch3 env hb hv hk hc hm hs hl
  | 4, hk, hv, hm, _ => exact works_watch4 env hb hv hk hc hm hs hl
  | 5, hk, hv, hm, _ => exact works_watch5 env hb hv hk hc hm hs hl
  | 6, hk, hv, hm, _ => exact works_watch6 env hb hv hk hc hm hs hl
  | k + 7, hk, hv, hm, h6 => omega

end Gempak
