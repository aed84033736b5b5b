import Verif.Proof.GridTable

/-!
# Grid files: saving succeeds when everything fits
-/

namespace Gempak
open Spec Grib Grib.Spec

theorem toI32_fits {n : Nat} (h : n < 2 ^ 32) : inI32 (toI32 n) := by
  unfold inI32 toI32
  split <;> omega

theorem wordAt_lt (bs : List Bool) (w : Nat) : wordAt bs w < 2 ^ 32 := by
  unfold wordAt
  refine lt_of_lt_of_le (ofBits_lt _) (Nat.pow_le_pow_right (by decide) ?_)
  unfold take0
  simp

theorem packed_fits (n : Nat) (r : List Nat) : ∀ x ∈ packed n r, inI32 x := by
  intro x hx
  obtain ⟨w, _, rfl⟩ := List.mem_map.1 hx
  exact toI32_fits (wordAt_lt _ _)

/-- Packing succeeds. -/
theorem packGrib_total (a : ℚ) (l : List ℚ) (missing : ℚ) (n : ℕ) (hn1 : 1 ≤ n) (hn2 : n ≤ 31) (hL : 32 < n * (a :: l).length)
    (hr : ∀ x ∈ a :: l, ∀ y ∈ a :: l, x - y ≤ 2147483647) :
    ∃ ref scale w, packGrib (a :: l) missing n = .ok (ref, scale, w) ∧ (∀ x ∈ w, inI32 x) ∧ w.length = wordCount n (a :: l).length := by
  have hL' : 2 ≤ wordCount n (a :: l).length := by unfold wordCount; omega
  have hmin := qMin_mem a l
  have hmax := qMax_mem a l
  have h1 : qMax a l - qMin a l ≤ 2147483647 := hr _ hmax _ hmin
  have h2 : qMin a l ≤ qMax a l := qMin_le a l _ hmax
  have h3 : roundEven (qMax a l - qMin a l) ≤ 2147483647 := roundEven_le_of_lt _ _ (by exact_mod_cast h1)
  unfold packGrib
  rw [if_neg (by omega), qRange_cons]
  simp only [Int.toNat_natCast]
  rw [if_neg (by push Not; exact ⟨by linarith, h3⟩)]
  split
  · refine ⟨_, _, _, rfl, ?_, ?_⟩
    · intro x hx
      rw [List.eq_of_mem_replicate hx]
      decide
    · rw [List.length_replicate, lendat_eq]
  · have hbound : ∀ x ∈ (a :: l).map (quantOne n missing (qMin a l) (scaleExp n (qMax a l - qMin a l))), x < 2 ^ n := by
      intro x hx
      obtain ⟨y, hy, rfl⟩ := List.mem_map.mp hx
      refine lt_of_le_of_lt (quantOne_le n hn1 _ _ _ _ ?_ (by linarith)) (imaxOf_lt n)
      have := le_qMax a l y hy
      linarith
    rw [packWords_ok n hn1 hn2 _ hbound (by simpa using hL')]
    refine ⟨_, _, _, rfl, packed_fits _ _, ?_⟩
    simp [packed]

/-- An entry whose data can be packed and whose levels fit. -/
structure Spec.GEntry.Writable (env : GridEnv) (e : GEntry) : Prop where
  level : inI32 e.level
  level2 : inI32 e.level2
  range : Spread e.grid 2147483647
  single : ∀ x ∈ e.grid.flatten, ∃ p, env.f32 (counted x) = .ok p

theorem gridRecord_total {env : GridEnv} (hr : env.Rounds) {e : GEntry} {nx ny : Nat} (hs : e.Sound nx ny) (hw : e.Writable env)
    {k : Nat} (hk1 : 1 ≤ k) (hk2 : k ≤ 31) (hbits : 32 < k * (ny * nx)) (hsz : nx * ny < 2 ^ 30) :
    ∃ ws, gridRecord env nx ny k e.values = .ok ws ∧ (∀ w ∈ ws, w.Packable) ∧ ws.length ≤ nx * ny + 10 := by
  have hfl := flatten_length hs.row
  rw [hs.rows] at hfl
  have hlen : e.values.flatten.length = ny * nx := by rw [values_flatten, List.length_map, hfl]
  obtain ⟨a, l, hal⟩ : ∃ a l, e.values.flatten = a :: l := by
    cases hq : e.values.flatten with
    | nil => rw [hq] at hlen; rw [← hlen] at hbits; simp at hbits
    | cons a l => exact ⟨a, l, rfl⟩
  have hrange : ∀ x ∈ a :: l, ∀ y ∈ a :: l, x - y ≤ 2147483647 := by
    rw [← hal, values_flatten]
    intro x hx y hy
    obtain ⟨x', hx', rfl⟩ := List.mem_map.1 hx
    obtain ⟨y', hy', rfl⟩ := List.mem_map.1 hy
    exact hw.range x' hx' y' hy'
  have hlen' := hlen
  rw [hal] at hlen
  obtain ⟨ref, scale, w, g1, g2, g3⟩ := packGrib_total a l (-9999) k hk1 hk2 (by rw [hlen]; exact hbits) hrange
  obtain ⟨⟨sc, s1, s2, hsc⟩, hmem, w2, _⟩ := packed_points a l k hk1 hk2 (by rw [hlen]; exact hbits) ref scale w g1
  rw [← hal, values_flatten] at hmem
  obtain ⟨x, hx, rfl⟩ := List.mem_map.1 hmem
  obtain ⟨fr, hfr⟩ := hw.single x hx
  obtain ⟨ps, hps⟩ := f32Value_pow sc s1 s2
  obtain ⟨fs, hfs⟩ := hr.ok ps _ hps
  rw [← hsc] at hfs
  have hwl : w.length ≤ nx * ny + 1 := by
    rw [g3, hlen, Nat.mul_comm ny nx]
    unfold wordCount
    have : k * (nx * ny) ≤ 31 * (nx * ny) := Nat.mul_le_mul_right _ hk2
    generalize k * (nx * ny) = q at *
    omega
  refine ⟨.int (w.length + 8 : Nat) :: .int nx :: .int ny :: .int 1 :: .int k :: .int (-1) :: .int (nx * ny : Nat) ::
    .flt fr :: .flt fs :: w.map Val.int, ?_, ?_, ?_⟩
  · unfold gridRecord
    rw [hal, g1, ok_bind]
    dsimp only
    rw [hfr, ok_bind, hfs, ok_bind]
  · have hpos : 1 ≤ nx ∧ 1 ≤ ny := by
      refine ⟨Nat.pos_of_ne_zero ?_, Nat.pos_of_ne_zero ?_⟩ <;> rintro rfl <;> simp at hbits
    have hx1 : nx ≤ nx * ny := Nat.le_mul_of_pos_right _ hpos.2
    have hy1 : ny ≤ nx * ny := Nat.le_mul_of_pos_left _ hpos.1
    intro v hv
    simp only [List.mem_cons] at hv
    rcases hv with rfl | rfl | rfl | rfl | rfl | rfl | rfl | rfl | rfl | hv
    · exact inI32_nat (by omega)
    · exact inI32_nat (by omega)
    · exact inI32_nat (by omega)
    · show inI32 1; decide
    · show inI32 (k : Int); exact inI32_nat (by omega)
    · show inI32 (-1); decide
    · exact inI32_nat (by omega)
    · trivial
    · trivial
    · obtain ⟨i, hi, rfl⟩ := List.mem_map.1 hv
      exact g2 i hi
  · simp only [List.length_cons, List.length_map]
    omega

theorem gdtWord_inI32 {w : When} (h : w.Stamped) : inI32 (gdtWord w.gdate) := by
  unfold gdtWord
  split
  · exact dateWord_fits h.date
  · exact C23_fits _ _ h.date h.clock

theorem gcolWords_packable {env : GridEnv} {e : GEntry} {nx ny : Nat} (h : e.Stamped) (hs : e.Sound nx ny) (ht : e.Typed)
    (hw : e.Writable env) : ∃ vs, gcolWords e.col = .ok vs ∧ ∀ v ∈ vs, v.Packable := by
  have lead : ∀ w : When, w.Stamped → w.type ≤ 3 → inI32 w.stamp := by
    intro w hw ht
    have := abs_le.1 hw.lead
    unfold inI32 When.stamp
    omega
  have h1 := gtmWord_stamped h.first.minutes
  obtain ⟨t2, h2, h3⟩ : ∃ t2, gtmWord (secondLead e.second) = .ok t2 ∧ inI32 t2 := by
    cases hsec : e.second with
    | none => exact ⟨0, by decide +kernel, by decide⟩
    | some w => exact ⟨_, gtmWord_stamped (h.second w hsec).minutes, lead w (h.second w hsec) (ht.second w hsec)⟩
  refine ⟨[.int (gdtWord e.first.gdate), .int e.first.stamp,
      .int (gdt2Word (e.second.map When.gdate)), .int t2, .int e.level, .int e.level2, .int (coordNumber e.coord), nameWord (chunks e.name).1,
      nameWord (chunks e.name).2.1, nameWord (chunks e.name).2.2], ?_, ?_⟩
  · unfold gcolWords GEntry.col
    dsimp only
    rw [h1, ok_bind, h2, ok_bind]
  · intro v hv
    simp only [List.mem_cons, List.not_mem_nil, or_false] at hv
    rcases hv with rfl | rfl | rfl | rfl | rfl | rfl | rfl | rfl | rfl | rfl
    · exact gdtWord_inI32 h.first
    · exact lead _ h.first ht.first
    · cases hsec : e.second with
      | none => show inI32 0; decide
      | some w => exact gdtWord_inI32 (h.second w hsec)
    · exact h3
    · exact hw.level
    · exact hw.level2
    · have := coordNumber_lt hs.coord
      exact inI32_nat (by omega)
    · trivial
    · trivial
    · trivial

theorem forall₂_replicate {α β : Type} {R : α → β → Prop} {a : α} {l : List β} {n : Nat} (hl : l.length = n) (h : ∀ x ∈ l, R a x) :
    List.Forall₂ R (List.replicate n a) l := by
  induction l generalizing n with
  | nil => subst hl; exact .nil
  | cons x l ih =>
    subst hl
    rw [List.length_cons, List.replicate_succ]
    exact .cons (h x List.mem_cons_self) (ih rfl fun y hy => h y (List.mem_cons_of_mem _ hy))

theorem flt_fits (fs : List F32) : ∀ x ∈ fs.map Val.flt, Fits .f32 x := by
  intro x hx
  obtain ⟨f, _, rfl⟩ := List.mem_map.1 hx
  trivial

theorem gridBody_packs {proj : Text} {nav anl : List F32} (hnav : nav.length = 11) (hanl : anl.length = 17) (e : Endian) :
    ∀ x ∈ gridFileBody proj nav anl, ∃ bs, packFmts e x.1 x.2 = .ok bs := by
  intro x hx
  unfold gridFileBody at hx
  simp only [List.mem_cons, List.not_mem_nil, or_false] at hx
  rcases hx with rfl | rfl | rfl | rfl
  · rw [packFmts_ok_iff]; exact .cons (by show inI32 256; decide) .nil
  · rw [packFmts_ok_iff]
    have : valFmts navWriteFmts = .f32 :: .str 4 :: List.replicate 11 .f32 := by decide +kernel
    rw [this]
    exact .cons trivial (.cons trivial (forall₂_replicate (by rw [List.length_map, hnav]) (flt_fits _)))
  · rw [packFmts_ok_iff]; exact .cons (by show inI32 128; decide) .nil
  · rw [packFmts_ok_iff]
    have : valFmts anlWriteFmts = .f32 :: List.replicate 17 .f32 := by decide +kernel
    rw [this]
    exact .cons trivial (forall₂_replicate (by rw [List.length_map, hanl]) (flt_fits _))

theorem gridNextFree_le (env : GridEnv) (b : GridBuilder) (fx fy : F32) :
    (setPointers (gridFile env b fx fy)).nextFree ≤ 2000 + b.columns * 12 := by
  unfold setPointers
  dsimp only
  have hb : blk = 128 := rfl
  simp only [hb, gridFile, gridFileHeaders, gridColumns, gridPart, List.length_cons, List.length_nil, List.map_nil, List.sum_nil,
    List.map_cons, List.sum_cons, Nat.zero_add, Nat.add_zero, Nat.one_mul, Nat.mul_one]
  have h1 := nextBlock_spec (129 + 128 + 1 + (1 + 1 + 1 + 1 + 1 + 1 + 1 + 1 + 1 + 1) + 3 * (1 + 1) + (256 + 1 + (128 + 1))) (by omega)
  generalize nextBlock (129 + 128 + 1 + (1 + 1 + 1 + 1 + 1 + 1 + 1 + 1 + 1 + 1) + 3 * (1 + 1) + (256 + 1 + (128 + 1))) = R at *
  have h2 := nextBlock_spec (R + (1 + 1) + b.columns * (1 + 1 + 1 + 1 + 1 + 1 + 1 + 1 + 1 + 1 + 1)) (by omega)
  generalize nextBlock (R + (1 + 1) + b.columns * (1 + 1 + 1 + 1 + 1 + 1 + 1 + 1 + 1 + 1 + 1)) = P at *
  have h3 := nextBlock_spec (P + 4 + 4) (by omega)
  generalize nextBlock (P + 4 + 4) = D at *
  have h4 := nextBlock_spec (D + b.columns) (by omega)
  omega

/-- Saving succeeds. -/
theorem grid_saves_of {env : GridEnv} (hr : env.Rounds) {b0 b : GridBuilder} {es : List GEntry} (hb : b0.Regular)
    (hx : 3 ≤ b0.nx) (hy : 3 ≤ b0.ny) (hxy : b0.nx * b0.ny < 2 ^ 24)
    (hrec0 : ∀ x ∈ es, ∃ ws, gridRecord env b0.nx b0.ny b0.precision x.values = .ok ws ∧ (∀ w ∈ ws, w.Packable) ∧ ws.length ≤ b0.nx * b0.ny + 10)
    (h : GHistory b0 (es.map GEntry.item) b) (hs : ∀ e ∈ es, e.Sound b0.nx b0.ny) (ht : ∀ e ∈ es, e.Typed) (hl : ∀ e ∈ es, e.Stamped)
    (hw : ∀ e ∈ es, e.Writable env) (hcap : 1 + (gfinal es).length ≤ mmhdrs) (hc : Comparable es)
    (hsize : (gfinal es).length * (b0.nx * b0.ny + 10) ≤ 2 ^ 30) (e : Endian) : ∃ bytes, saveGrid env e b = .ok bytes := by
  obtain ⟨hcol, P, hP, hPc, hPd⟩ := h.table hs hcap hc
  have hPe : ∀ x ∈ P, x ∈ es := by
    intro x hx
    have := hP.mem_iff.1 hx
    rw [gfinal_eq hs] at this
    exact finalBy_sub this
  have hreg : b.Regular := ⟨by rw [h.corners]; exact hb.corners, by rw [h.angles]; exact hb.angles, by rw [h.proj]; exact hb.proj⟩
  have hx1 : b0.nx < 2 ^ 24 := lt_of_le_of_lt (Nat.le_mul_of_pos_right _ (by omega)) hxy
  have hy1 : b0.ny < 2 ^ 24 := lt_of_le_of_lt (Nat.le_mul_of_pos_left _ (by omega)) hxy
  obtain ⟨fx, e1, _⟩ := hr.nat hx1
  obtain ⟨fy, e2, _⟩ := hr.nat hy1
  have hcount := h.count hs
  have hmm : mmhdrs = 32000 := rfl
  have hrec : ∀ v ∈ (gridFile env b fx fy).visits, ∀ r, v.2 = some r →
      ∃ ws, r = .ok ws ∧ (∀ w ∈ ws, w.Packable) ∧ ws.length ≤ b0.nx * b0.ny + 10 := by
    intro v hv r hvr
    obtain ⟨c, hc', rfl⟩ := List.mem_map.1 hv
    have hm : c.1 ∈ b.columnHeaders := List.fst_mem_of_mem_zipIdx hc'
    rw [← hPc] at hm
    obtain ⟨x, hxP, hxc⟩ := List.mem_map.1 hm
    obtain ⟨g, hg, rfl⟩ := Option.map_eq_some_iff.1 hvr
    rw [← hxc, hPd x hxP] at hg
    obtain rfl := Option.some.inj hg
    rw [h.nx, h.ny, h.precision]
    exact hrec0 x (hPe x hxP)
  have hsave : ∃ bytes, save e (gridFile env b fx fy) = .ok bytes := by
    refine save_total (gridFile_wf hcol) ⟨?_, ?_, ?_, ?_, by show inI32 3; decide, by show inI32 6; decide, ?_, ?_, ?_, ?_⟩
    · have h1 := gridNextFree_le env b fx fy
      have h2 : visitLen (gridFile env b fx fy).visits ≤ (gridFile env b fx fy).visits.length * (b0.nx * b0.ny + 10) := by
        apply visitLen_le
        intro v hv
        cases hc' : v.2 with
        | none => simp [cellLen]
        | some r =>
          obtain ⟨ws, rfl, _, h⟩ := hrec v hv r hc'
          exact h
      have h3 : (gridFile env b fx fy).visits.length = b.columns := by
        show (b.columnHeaders.zipIdx.map _).length = _
        rw [List.length_map, List.length_zipIdx, hcol]
      rw [h3, hcount] at h2
      rw [hcount] at h1
      generalize (gfinal es).length * (b0.nx * b0.ny + 10) = q at *
      omega
    · intro x hx'
      have hx' : x ∈ gridFileHeaders := hx'
      have : ∀ x ∈ gridFileHeaders, x.length < 2 ^ 31 ∧ (-2147483648 ≤ x.type ∧ x.type < 2147483648) := by decide +kernel
      exact this x hx'
    · intro e' x hx'
      exact gridBody_packs (gridNav_length hreg) (gridAnl_length hreg) e' x hx'
    · intro p hp
      have hp : p ∈ [gridPart] := hp
      rw [List.mem_singleton] at hp
      subst hp
      have z : ∀ i ∈ [(0 : Int)], inI32 i := by
        intro i hi
        rw [List.mem_singleton] at hi
        subst hi
        decide
      exact ⟨by show inI32 2; decide, by show inI32 5; decide, z, z, z⟩
    · exact ⟨by show (1 : Nat) < 2 ^ 31; decide, by show b.columns < 2 ^ 31; omega⟩
    · intro x hx'
      have hx' : x ∈ [Except.ok [Val.int 1]] := hx'
      rw [List.mem_singleton] at hx'
      subst hx'
      refine ⟨_, rfl, ?_⟩
      intro v hv
      rw [List.mem_singleton] at hv
      subst hv
      show inI32 1
      decide
    · intro x hx'
      have hx' : x ∈ b.columnHeaders.map gcolWords := hx'
      rw [← hPc, List.map_map] at hx'
      obtain ⟨y, hy', rfl⟩ := List.mem_map.1 hx'
      exact gcolWords_packable (hl y (hPe y hy')) (hs y (hPe y hy')) (ht y (hPe y hy')) (hw y (hPe y hy'))
    · intro v hv r hvr
      obtain ⟨ws, h1, h2, _⟩ := hrec v hv r hvr
      exact ⟨ws, h1, h2⟩
  obtain ⟨bytes, hbytes⟩ := hsave
  refine ⟨bytes, ?_⟩
  unfold saveGrid
  rw [h.nx, h.ny, e1, ok_bind, e2, ok_bind, if_neg (by omega)]
  exact hbytes

theorem grid_saves {env : GridEnv} (hr : env.Rounds) {b0 b : GridBuilder} {es : List GEntry} (hb : b0.Regular)
    (hx : 3 ≤ b0.nx) (hy : 3 ≤ b0.ny) (hxy : b0.nx * b0.ny < 2 ^ 24)
    (hprec : 1 ≤ b0.precision ∧ b0.precision ≤ 31) (hbits : 32 < b0.precision * b0.nx * b0.ny)
    (h : GHistory b0 (es.map GEntry.item) b) (hs : ∀ e ∈ es, e.Sound b0.nx b0.ny) (ht : ∀ e ∈ es, e.Typed) (hl : ∀ e ∈ es, e.Stamped)
    (hw : ∀ e ∈ es, e.Writable env) (hcap : 1 + (gfinal es).length ≤ mmhdrs) (hc : Comparable es)
    (hsize : (gfinal es).length * (b0.nx * b0.ny + 10) ≤ 2 ^ 30) (e : Endian) : ∃ bytes, saveGrid env e b = .ok bytes := by
  obtain ⟨k, hk⟩ : ∃ k : Nat, b0.precision = k := ⟨b0.precision.toNat, by omega⟩
  have hk' : 32 < k * (b0.ny * b0.nx) := by
    rw [hk] at hbits
    have : (k : Int) * b0.nx * b0.ny = ((k * (b0.ny * b0.nx) : Nat) : Int) := by
      push_cast; rw [mul_assoc, mul_comm (b0.nx : Int) (b0.ny : Int)]
    rw [this] at hbits
    exact_mod_cast hbits
  refine grid_saves_of hr hb hx hy hxy (fun x hx' => ?_) h hs ht hl hw hcap hc hsize e
  rw [hk]
  exact gridRecord_total hr (hs x hx') (hw x hx') (by omega) (by omega) hk' (by omega)

end Gempak
