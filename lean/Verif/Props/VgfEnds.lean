import Verif.Proof.VgfAdv

/-!
# C60, C70: does decoding a vector graphic file end?
-/

namespace Gempak
variable {ν : Type}

/-! ## The counts of lists and tracks -/

theorem word_take (t : Bytes) (i : Nat) (h : i + 4 ≤ t.length) :
    toI32 (decNat .big ((t.drop i).take 4)) = Spec.wordAt t i := by
  have h1 : 3 + 1 ≤ (t.drop i).length := by rw [List.length_drop]; omega
  obtain ⟨a, r1, e1, k1⟩ := cons_of_length h1
  obtain ⟨b, r2, rfl, k2⟩ := cons_of_length k1
  obtain ⟨c, r3, rfl, k3⟩ := cons_of_length k2
  obtain ⟨d, r4, rfl, k4⟩ := cons_of_length k3
  have hg : ∀ j, t.getD (i + j) 0 = (a :: b :: c :: d :: r4).getD j 0 := by
    intro j
    rw [← e1, List.getD_eq_getElem?_getD, List.getD_eq_getElem?_getD, List.getElem?_drop]
  unfold Spec.wordAt Spec.byteAt
  have g0 := hg 0
  rw [Nat.add_zero] at g0
  rw [g0, hg 1, hg 2, hg 3, e1]
  exact congrArg toI32 (be4 a b c d)

/-- Reading a word field: the value stands at the place given by the fields before it. -/
theorem zip_int (env : VgEnv ν) (nm : String) (qs : List DField) : ∀ (ps : List DField) (t : Bytes),
    (∀ p ∈ ps, match p with | .plain n _ | .conv n _ _ => n ≠ nm | .skip _ => True) →
    WellFormed ((ps ++ .plain nm .i32 :: qs).map (DField.info env)) →
    ∀ vs, ((named ((ps ++ .plain nm .i32 :: qs).map (DField.info env))).zip
      (unpackItems .big (((ps ++ .plain nm .i32 :: qs).map (DField.info env)).filterMap (·.fmt)) t)).mapM
        (fun (i, v) => i.apply dInj v) = .ok vs →
    ((((ps ++ .plain nm .i32 :: qs).map (DField.info env)).filterMap (·.name)).zip vs).lookup nm =
      some (.int (toI32 (decNat .big ((t.drop (dSize ps)).take 4)))) := by
  intro ps
  induction ps with
  | nil =>
    intro t _ _ vs h
    simp only [List.nil_append, List.map_cons, DField.info, named, List.filter_cons, Option.isSome_some, if_true,
      List.filterMap_cons, unpackItems, unpackOne, List.cons_append, List.nil_append, List.zip_cons_cons,
      List.mapM_cons] at h
    obtain ⟨v, hv, h⟩ := bind_inv h
    obtain ⟨vs', _, h⟩ := bind_inv h
    have h := Except.ok.inj h
    subst h
    have hv := Except.ok.inj hv
    subst hv
    simp only [List.nil_append, List.map_cons, DField.info, List.filterMap_cons, List.zip_cons_cons, List.lookup_cons,
      beq_self_eq_true, dSize, List.map_nil, List.sum_nil, List.drop_zero, Fmt.size]
    rfl
  | cons p ps ih =>
    intro t hp hw vs h
    have hp' := fun q hq => hp q (List.mem_cons_of_mem _ hq)
    have hw' : WellFormed ((ps ++ .plain nm .i32 :: qs).map (DField.info env)) := fun i hi => hw i (by
      rw [List.cons_append, List.map_cons]; exact List.mem_cons_of_mem _ hi)
    have hp0 := hp p (by simp)
    have hw0 := hw (DField.info env p) (by simp)
    cases p with
    | skip n =>
      simp only [List.cons_append, List.map_cons, DField.info, named, List.filter_cons, Option.isSome_none,
        Bool.false_eq_true, if_false, List.filterMap_cons, unpackItems, unpackOne, List.nil_append, Fmt.size] at h ⊢
      have := ih (t.drop n) hp' hw' vs h
      rw [this, List.drop_drop]
      simp only [dSize, List.map_cons, List.sum_cons]
    | plain n f =>
      have hv : f.hasVal = true := by
        rcases hw0 with ⟨_, g, _, hg, hv⟩ | ⟨hn, _⟩
        · simp only [DField.info, Option.some.injEq] at hg; subst hg; exact hv
        · simp [DField.info] at hn
      obtain ⟨v, hu⟩ : ∃ v, unpackOne .big f (t.take f.size) = [v] := by cases f <;> first | exact ⟨_, rfl⟩ | cases hv
      simp only [List.cons_append, List.map_cons, DField.info, named, List.filter_cons, Option.isSome_some, if_true,
        List.filterMap_cons, unpackItems, hu, List.cons_append, List.nil_append, List.zip_cons_cons, List.mapM_cons] at h
      obtain ⟨x, _, h⟩ := bind_inv h
      obtain ⟨vs', h', h⟩ := bind_inv h
      have h := Except.ok.inj h
      subst h
      have := ih (t.drop f.size) hp' hw' vs' h'
      have hne : (nm == n) = false := by simpa using Ne.symm hp0
      simp only [List.cons_append, List.map_cons, DField.info, List.filterMap_cons, List.zip_cons_cons, List.lookup_cons,
        hne]
      rw [this, List.drop_drop]
      simp only [dSize, List.map_cons, List.sum_cons]
    | conv n f c =>
      have hv : f.hasVal = true := by
        rcases hw0 with ⟨_, g, _, hg, hv⟩ | ⟨hn, _⟩
        · simp only [DField.info, Option.some.injEq] at hg; subst hg; exact hv
        · simp [DField.info] at hn
      obtain ⟨v, hu⟩ : ∃ v, unpackOne .big f (t.take f.size) = [v] := by cases f <;> first | exact ⟨_, rfl⟩ | cases hv
      simp only [List.cons_append, List.map_cons, DField.info, named, List.filter_cons, Option.isSome_some, if_true,
        List.filterMap_cons, unpackItems, hu, List.cons_append, List.nil_append, List.zip_cons_cons, List.mapM_cons] at h
      obtain ⟨x, _, h⟩ := bind_inv h
      obtain ⟨vs', h', h⟩ := bind_inv h
      have h := Except.ok.inj h
      subst h
      have := ih (t.drop f.size) hp' hw' vs' h'
      have hne : (nm == n) = false := by simpa using Ne.symm hp0
      simp only [List.cons_append, List.map_cons, DField.info, List.filterMap_cons, List.zip_cons_cons, List.lookup_cons,
        hne]
      rw [this, List.drop_drop]
      simp only [dSize, List.map_cons, List.sum_cons]

theorem unpackItems_vals (e : Endian) (fs : List Fmt) : ∀ t, (unpackItems e fs t).length = (valFmts fs).length := by
  induction fs with
  | nil => intro t; rfl
  | cons f fs ih =>
    intro t
    cases f <;> simp [unpackItems, unpackOne, valFmts, Fmt.hasVal, List.filter_cons, ih] <;> rfl

/-- A word field of a structure read from bytes `t`. -/
theorem readRec_int (env : VgEnv ν) (ps qs : List DField) (nm : String)
    (hp : ∀ p ∈ ps, match p with | .plain n _ | .conv n _ _ => n ≠ nm | .skip _ => True)
    (hw : WellFormed ((ps ++ .plain nm .i32 :: qs).map (DField.info env))) {b b' : IOBuffer} {pre t : Bytes}
    (hb : At b pre t) {r : DRec ν} (h : readRec env .big (ps ++ .plain nm .i32 :: qs) b = .ok (r, b')) {n : Int}
    (hn : r.int nm = .ok n) : n = Spec.wordAt t (dSize ps) := by
  unfold readRec dStruct NamedStruct.make at h
  split at h
  · cases h
  · obtain ⟨s, hs, h⟩ := bind_inv h
    have hs := Except.ok.inj hs
    subst hs
    obtain ⟨vs, hv, h⟩ := bind_inv h
    have h := (Prod.mk.inj (Except.ok.inj h)).1
    subst h
    have hv : ((Gempak.unpackFrom .big (((ps ++ .plain nm .i32 :: qs).map (DField.info env)).filterMap (·.fmt)) b.data
      b.offset) >>= NamedStruct.create ⟨(ps ++ .plain nm .i32 :: qs).map (DField.info env), .big, dInj⟩) = .ok vs := hv
    obtain ⟨items, hi, hv⟩ := bind_inv hv
    unfold Gempak.unpackFrom at hi
    have h0 : ¬ b.offset < 0 := by rw [hb.offset]; omega
    have h1 : b.offset.toNat = pre.length := by rw [hb.offset]; simp
    dsimp only at hi
    rw [if_neg h0, if_neg h0, h1, hb.data, List.drop_left] at hi
    split at hi
    · rename_i hle
      have hi := Except.ok.inj hi
      subst hi
      rw [create_eq _ hw _ (by
        rw [unpackItems_vals, valFmts_named _ hw]
        exact named_fmt_length _ hw)] at hv
      have hz := zip_int env nm qs ps t hp hw vs hv
      have hlen : dSize ps + 4 ≤ t.length := by
        rw [dSize_eq, List.length_append] at hle
        have : dSize (ps ++ .plain nm .i32 :: qs) = dSize ps + (4 + dSize qs) := by
          unfold dSize
          rw [List.map_append, List.sum_append, List.map_cons, List.sum_cons]
          rfl
        omega
      rw [word_take t _ hlen] at hz
      unfold DRec.int DRec.get at hn
      have hz' : List.lookup nm (NamedStruct.names ⟨(ps ++ .plain nm .i32 :: qs).map (DField.info env), .big, dInj⟩ |>.zip vs) =
        some (.int (Spec.wordAt t (dSize ps))) := hz
      rw [hz'] at hn
      exact (Except.ok.inj hn).symm
    · cases hi

theorem rd_inv {α β : Type} {x : Rd α} {f : α → Rd β} {b b' : IOBuffer} {c : β} (h : (x >>= f) b = .ok (c, b')) :
    ∃ a b1, x b = .ok (a, b1) ∧ f a b1 = .ok (c, b') := by
  have h : Except.bind (x b) (fun p => f p.1 p.2) = .ok (c, b') := h
  cases hxb : x b with
  | error e => rw [hxb] at h; cases h
  | ok p => rw [hxb] at h; exact ⟨p.1, p.2, rfl, h⟩

theorem rd_pure_inv {α : Type} {x : Except PyErr α} {b b' : IOBuffer} {a : α} (h : Rd.pure' x b = .ok (a, b')) :
    x = .ok a ∧ b = b' := by
  cases x with
  | error e => cases h
  | ok v =>
    have h := Prod.mk.inj (Except.ok.inj h)
    exact ⟨by rw [h.1], h.2⟩

theorem readRec_state (env : VgEnv ν) (e : Endian) (fs : List DField) {b b' : IOBuffer} {a : DRec ν}
    (h : readRec env e fs b = .ok (a, b')) : b' = adv b (dSize fs) := by
  unfold readRec dStruct NamedStruct.make at h
  split at h
  · cases h
  · obtain ⟨s, hs, h⟩ := bind_inv h
    have hs := Except.ok.inj hs
    subst hs
    obtain ⟨vs, hv, h⟩ := bind_inv h
    have h := (Prod.mk.inj (Except.ok.inj h)).2
    subst h
    rw [← dSize_eq env fs]
    rfl

theorem lists_at (env : VgEnv ν) {b b' : IOBuffer} {pre t : Bytes} (hb : At b pre t) (hc : Spec.wordAt t 16 ≤ 500)
    {a : Prod' ν} (h : decodeLists env b = .ok (a, b')) : b.offset ≤ b'.offset ∧ b'.data = b.data := by
  unfold decodeLists at h
  obtain ⟨r, b1, hr, h⟩ := rd_inv h
  obtain ⟨n, b2, hn', h⟩ := rd_inv h
  obtain ⟨hn, rfl⟩ := rd_pure_inv hn'
  have hle := readRec_int env [.plain "list_type" .i32, .plain "marker_type" .i32, .conv "marker_size" .f32 (.round 1),
    .plain "marker_width" .i32] [] "number_items" (by simp) (wellFormed_info env _ rfl) hb hr hn
  have hle : n = Spec.wordAt t 16 := hle
  have h1 := adv_readRec env _ _ _ _ _ hr
  have hrest : Adv (do
      let items ← repeatRd (readCString 9) n.toNat
      skipBytes ((maxPoints - n) * 9)
      let lat ← readVgWords n
      skipBytes (4 * (maxPoints - n))
      let lon ← readVgWords n
      skipBytes (4 * (maxPoints - n))
      let a ← Rd.pure' (r.pick ["list_type", "marker_type", "marker_size", "marker_width", "number_items"])
      let lt ← Rd.pure' (do enumName 1 listTypeNames (← r.int "list_type"))
      let mt ← Rd.pure' (do enumName 0 markerTypeNames (← r.int "marker_type"))
      pure [("ListElement", a ++ [("list_items", .texts items), ("lat", .raw lat), ("lon", .raw lon),
        ("list_type_name", .text (txt lt)), ("marker_name", .text (txt mt))])] : Rd (Prod' ν)) 0 := by
    refine (adv_repeat' (k := 0) (adv_cstring 9) _).step fun _ => ?_
    repeat adv1
    refine .ret ?_
    simp only [maxPoints, Nat.cast_zero, mul_zero]
    omega
  have h2 := hrest _ _ _ h
  exact ⟨by omega, h2.2.trans h1.2⟩

theorem readTrack_at (env : VgEnv ν) {b b' : IOBuffer} {pre t : Bytes} (hb : At b pre t) {p : DRec ν × DVal ν}
    (h : readTrack env b = .ok (p, b')) : (b.offset ≤ b'.offset ∧ b'.data = b.data) ∧
      ∀ n, p.1.int "total_points" = .ok n → n = Spec.wordAt t 4 := by
  unfold readTrack at h
  obtain ⟨m, b1, hm, h⟩ := rd_inv h
  have hm := Prod.mk.inj (Except.ok.inj hm)
  obtain ⟨rfl, rfl⟩ := hm
  obtain ⟨tr, b2, htr, h⟩ := rd_inv h
  obtain ⟨fs, b3, hfs, h⟩ := rd_inv h
  obtain ⟨sk, b4, hsk, h⟩ := rd_inv h
  obtain ⟨_, rfl⟩ := rd_pure_inv hsk
  obtain ⟨fo, b5, hfo, h⟩ := rd_inv h
  obtain ⟨_, rfl⟩ := rd_pure_inv hfo
  have hb1 : At b.setMark.1 pre t := ⟨hb.data, hb.offset⟩
  have s1 := readRec_state env _ _ htr
  have s2 := adv_little _ _ _ hfs
  have hmark : b3.marks = b.marks ++ [b.offset] := by
    have : b3.marks = b2.marks := by
      unfold readLittleF32 at hfs
      obtain ⟨r, hr, hfs⟩ := bind_inv hfs
      unfold IOBuffer.readStruct at hr
      obtain ⟨vs, _, hr⟩ := bind_inv hr
      have hr := Except.ok.inj hr
      subst hr
      dsimp only at hfs
      split at hfs
      · have hfs := (Prod.mk.inj (Except.ok.inj hfs)).2
        subst hfs; rfl
      · cases hfs
    rw [this, s1]; rfl
  have hdata : b3.data = b.data := by rw [s2.2, s1]; rfl
  have jump : ∀ {u : Unit} {c : IOBuffer}, jumpMark b.setMark.2 b3 = .ok (u, c) → c.offset = b.offset ∧ c.data = b.data := by
    intro u c hj
    unfold jumpMark IOBuffer.jumpTo at hj
    have : b3.marks[b.setMark.2]? = some b.offset := by
      rw [hmark]
      show (b.marks ++ [b.offset])[b.marks.length]? = _
      simp
    rw [this] at hj
    have hj := (Prod.mk.inj (Except.ok.inj hj)).2
    subst hj
    exact ⟨by simp, hdata⟩
  have old : ∀ {u : Unit} {c c' : IOBuffer} {fs : List DField} {r : DRec ν}, jumpMark b.setMark.2 b3 = .ok (u, c) →
      readRec env .big (.plain "track_type" .i32 :: .plain "total_points" .i32 :: fs) c = .ok (r, c') →
      WellFormed ((.plain "track_type" .i32 :: .plain "total_points" .i32 :: fs).map (DField.info env)) →
      (b.offset ≤ c'.offset ∧ c'.data = b.data) ∧ ∀ n, r.int "total_points" = .ok n → n = Spec.wordAt t 4 := by
    intro u c c' fs r hj hr hw
    obtain ⟨j1, j2⟩ := jump hj
    have hc : At c pre t := ⟨j2.trans hb.data, j1.trans hb.offset⟩
    have a1 := adv_readRec env _ _ _ _ _ hr
    refine ⟨⟨by omega, a1.2.trans j2⟩, fun n hn => ?_⟩
    exact readRec_int env [.plain "track_type" .i32] fs "total_points" (by simp) hw hc hr hn
  split at h
  · obtain ⟨_, c, hj, h⟩ := rd_inv h
    obtain ⟨r, c', hr, h⟩ := rd_inv h
    have h := Prod.mk.inj (Except.ok.inj h)
    obtain ⟨rfl, rfl⟩ := h
    exact old hj hr (wellFormed_info env _ rfl)
  · split at h
    · obtain ⟨_, c, hj, h⟩ := rd_inv h
      obtain ⟨r, c', hr, h⟩ := rd_inv h
      have h := Prod.mk.inj (Except.ok.inj h)
      obtain ⟨rfl, rfl⟩ := h
      exact old hj hr (wellFormed_info env _ rfl)
    · have h := Prod.mk.inj (Except.ok.inj h)
      obtain ⟨rfl, rfl⟩ := h
      have a1 := adv_readRec env _ _ _ _ _ htr
      have e1 : b.setMark.1.offset = b.offset := rfl
      refine ⟨⟨by omega, hdata⟩, fun n hn => ?_⟩
      exact readRec_int env [.plain "track_type" .i32] _ "total_points" (by simp) (wellFormed_info env _ rfl) hb1 htr hn

theorem tracks_at (env : VgEnv ν) {b b' : IOBuffer} {pre t : Bytes} (hb : At b pre t) (hc : Spec.wordAt t 4 ≤ 50)
    {a : Prod' ν} (h : decodeTracks env b = .ok (a, b')) : b.offset ≤ b'.offset ∧ b'.data = b.data := by
  unfold decodeTracks at h
  obtain ⟨tf, b1, hr, h⟩ := rd_inv h
  obtain ⟨n, b2, hn', h⟩ := rd_inv h
  obtain ⟨hn, rfl⟩ := rd_pure_inv hn'
  obtain ⟨h1, hle⟩ := readTrack_at env hb hr
  have hle := hle n hn
  have hrest : Adv (do
      let times ← repeatRd (readCString 18) n.toNat
      skipBytes ((50 - n) * 18)
      let ll ← getLatLon env n
      skipBytes (8 * (50 - n))
      let a ← Rd.pure' (tf.1.pick ["track_type", "total_points", "initial_points", "initial_line_type",
        "extrapolated_line_type", "initial_mark_type", "extrapolated_mark_type", "line_width", "speed", "direction",
        "increment"])
      pure [("TrackElement", a ++ tf.1.pickOr [("skip", .int 0), ("font", .int 1), ("font_flag", .int 2)] ++
        [("font_size", tf.2), ("times", .texts times), ("lat", latVal ll), ("lon", lonVal ll)])] : Rd (Prod' ν)) 0 := by
    refine (adv_repeat' (k := 0) (adv_cstring 18) _).step fun _ => ?_
    repeat adv1
    refine .ret ?_
    simp only [Nat.cast_zero, mul_zero]
    omega
  have h2 := hrest _ _ _ h
  exact ⟨by omega, h2.2.trans h1.2⟩

/-! ## C70 -/

/-- What the partial theorems ask of a record: its size is positive, a list has at most 500 items, a track at most 50
points. -/
def Spec.SaneRecord (t : Bytes) : Prop :=
  1 ≤ Spec.wordAt t 20 ∧ (Spec.byteAt t 2 = 14 → Spec.wordAt t 56 ≤ 500) ∧ (Spec.byteAt t 2 = 10 → Spec.wordAt t 44 ≤ 50)

theorem wordAt_drop (t : Bytes) (i j : Nat) : Spec.wordAt (t.drop i) j = Spec.wordAt t (i + j) := by
  unfold Spec.wordAt Spec.byteAt
  simp only [List.getD_eq_getElem?_getD, List.getElem?_drop, Nat.add_assoc]

/-- A body decoder that, started at `b`, moves back at most 39 bytes. -/
def Fwd (b : IOBuffer) (x : Rd (Prod' ν)) : Prop :=
  ∀ a b', x b = .ok (a, b') → b.offset - 39 ≤ b'.offset ∧ b'.data = b.data

theorem fwd_adv {b : IOBuffer} {x : Rd (Prod' ν)} {k : Int} (hk : Adv x k) (h0 : -39 ≤ k) : Fwd b x := by
  intro a b' e
  have := hk _ _ _ e
  exact ⟨by omega, this.2⟩

theorem fwd_ite {b : IOBuffer} {p : Prop} [Decidable p] {x y : Rd (Prod' ν)} (h1 : p → Fwd b x) (h2 : Fwd b y) :
    Fwd b (if p then x else y) := by
  split
  · exact h1 ‹_›
  · exact h2

theorem body_adv (env : VgEnv ν) (h : DHdr ν) (hr : 1 ≤ h.recordSize) {b : IOBuffer} {pre t : Bytes} (hb : At b pre t)
    (hl : h.vgClass = 14 → Spec.wordAt t 16 ≤ 500) (ht : h.vgClass = 10 → Spec.wordAt t 4 ≤ 50) :
    Fwd b (decodeBody env h) := by
  have sk : Fwd b (skipData h) := fwd_adv (adv_skip h hr) (by omega)
  unfold decodeBody
  refine fwd_ite (fun _ => fwd_adv (adv_fronts env) (by omega)) ?_
  refine fwd_ite (fun _ => fwd_adv (adv_symbols env) (by omega)) ?_
  refine fwd_ite (fun _ => fwd_ite (fun _ => fwd_adv (adv_circles env) (by omega)) sk) ?_
  refine fwd_ite (fun _ => fwd_ite (fun _ => fwd_adv (adv_lines env h) (by omega))
    (fwd_ite (fun _ => fwd_adv (adv_special_lines env h) (by omega)) sk)) ?_
  refine fwd_ite (fun hc a b' hx => ?_) ?_
  · have := lists_at env hb (hl hc) hx
    exact ⟨by omega, this.2⟩
  refine fwd_ite (fun _ => fwd_ite (fun _ => fwd_adv (adv_text_body env h) (by omega))
    (fwd_ite (fun _ => fwd_adv (adv_special_text env h) (by omega)) sk)) ?_
  refine fwd_ite (fun hc a b' hx => ?_) ?_
  · have := tracks_at env hb (ht hc) hx
    exact ⟨by omega, this.2⟩
  refine fwd_ite (fun _ => fwd_ite (fun _ => fwd_adv (adv_sigmet env h) (by omega))
    (fwd_ite (fun _ => fwd_adv (adv_ccf env) (by omega)) (fwd_ite (fun _ => fwd_adv (adv_volcanoes env) (by omega))
    (fwd_ite (fun _ => fwd_adv (adv_ash env) (by omega)) sk)))) ?_
  refine fwd_ite (fun _ => fwd_ite (fun _ => fwd_adv (adv_gfa env) (by omega))
    (fwd_ite (fun _ => fwd_adv (adv_jet env) (by omega)) (fwd_ite (fun _ => fwd_adv (adv_tca env h) (by omega))
    (fwd_ite (fun _ => fwd_adv (adv_tc env _) (by omega)) (fwd_ite (fun _ => fwd_adv (adv_tc env _) (by omega))
    (fwd_ite (fun _ => fwd_adv (adv_tc env _) (by omega)) (fwd_ite (fun _ => fwd_adv (adv_sgwx env) (by omega))
    sk))))))) ?_
  refine fwd_ite (fun _ => fwd_adv (adv_watches env h) (by omega)) ?_
  exact fwd_ite (fun _ => fwd_adv (adv_winds env) (by omega)) sk

/-- **C70** for records of positive size whose counts are in range: an accepted record advances the reader by at least one
byte, in the same file. -/
theorem C70_advances_partial (env : VgEnv ν) (s s' : VgState ν) (b b' : IOBuffer) (pre t : Bytes) (hd : b.data = pre ++ t)
    (ho : b.offset = pre.length) (hs : Spec.SaneRecord t) (h : vgTurn env s b = .ok (.next s', b')) :
    b.offset + 1 ≤ b'.offset ∧ b'.data = b.data := by
  have hb : At b pre t := ⟨hd, ho⟩
  obtain ⟨s1, s2, s3⟩ := hs
  have hl : 40 ≤ t.length := by
    by_contra hlt
    unfold vgTurn readHeader at h
    have e : readRec env .big vgfHeaderInfo b = .error .structError := by
      rw [readHead_eq env, headFrom hb, if_neg (by omega)]; rfl
    have h : Except.bind (Except.bind (readRec env .big vgfHeaderInfo b) _) _ = _ := h
    rw [e] at h
    cases h
  obtain ⟨hd, hr, h0, h1, h2, _, h3, h4, h5⟩ := readHeader_any env hb hl
  unfold vgTurn at h
  simp only [hr, bind, Except.bind] at h
  split at h
  · cases Except.ok.inj h
  · have e40 : (adv b 40).offset = b.offset + 40 := rfl
    have hb30 : At (adv b 40) (pre ++ t.take 40) (t.drop 40) := by
      have : At b pre (t.take 40 ++ t.drop 40) := by rw [List.take_append_drop]; exact hb
      have := this.adv
      rw [List.length_take, Nat.min_eq_left hl] at this
      exact this
    split at h
    · split at h
      · cases h
      · rename_i pb hp
        have := adv_file_header hd _ _ _ hp
        have h := (Prod.mk.inj (Except.ok.inj h)).2
        subst h
        exact ⟨by omega, this.2⟩
    · split at h
      · cases h
      · rename_i pb hp
        have := body_adv env hd (by omega) hb30 (by rw [wordAt_drop]; intro hc; exact s2 (by omega))
          (by rw [wordAt_drop]; intro hc; exact s3 (by omega)) _ _ hp
        have h := (Prod.mk.inj (Except.ok.inj h)).2
        subst h
        exact ⟨by omega, this.2⟩

/-! ## C60 -/

/-- The places where the decoder of a file looks for a record. -/
inductive Visits (env : VgEnv ν) (data : Bytes) : VgState ν → IOBuffer → Prop
  | start : Visits env data {} (IOBuffer.ofSource data)
  | next {s s' b b'} : Visits env data s b → b.atEnd = false → vgTurn env s b = .ok (.next s', b') → Visits env data s' b'

theorem loop_ends (env : VgEnv ν) (data : Bytes)
    (hs : ∀ s b, Visits env data s b → ∀ s' b', b.atEnd = false → vgTurn env s b = .ok (.next s', b') →
      Spec.SaneRecord (data.drop b.offset.toNat)) (n : Nat) :
    ∀ s b, Visits env data s b → b.data = data → 0 ≤ b.offset → (data.length : Int) ≤ b.offset + n →
      vgLoop env n b s ≠ .outOfFuel := by
  induction n with
  | zero =>
    intro s b hv hd h0 hn
    rw [vgLoop.eq_def]
    dsimp only
    have : b.atEnd = true := by
      unfold IOBuffer.atEnd
      rw [hd]; simp; omega
    rw [if_pos this]
    intro h; cases h
  | succ n ih =>
    intro s b hv hd h0 hn
    rw [vgLoop.eq_def]
    dsimp only
    by_cases he : b.atEnd = true
    · rw [if_pos he]; intro h; cases h
    · rw [if_neg he]
      have hlt : b.offset < data.length := by
        unfold IOBuffer.atEnd at he
        rw [hd] at he; simp at he; omega
      split
      · intro h; cases h
      · intro h; cases h
      · rename_i s' b' ht
        have hdt : b.data = data.take b.offset.toNat ++ data.drop b.offset.toNat := by rw [List.take_append_drop, hd]
        have hot : b.offset = (data.take b.offset.toNat).length := by rw [List.length_take]; omega
        obtain ⟨a1, a2⟩ := C70_advances_partial env s s' b b' _ _ hdt hot
          (hs s b hv s' b' (by simpa using he) ht) ht
        refine ih s' b' (.next hv (by simpa using he) ht) (a2.trans hd) (by omega) (by push_cast at hn; omega)

/-- **C60** for files whose accepted records, as far as the decoder comes, have a positive size and counts in range: decoding
ends after at most as many records as the file has bytes. -/
theorem C60_ends_partial (env : VgEnv ν) (data : Bytes)
    (hs : ∀ s b, Visits env data s b → ∀ s' b', b.atEnd = false → vgTurn env s b = .ok (.next s', b') →
      Spec.SaneRecord (data.drop b.offset.toNat)) (fuel : Nat) (hf : data.length ≤ fuel) :
    openVgf env fuel data ≠ .outOfFuel :=
  loop_ends env data hs fuel _ _ .start rfl (le_refl _) (by show (data.length : Int) ≤ 0 + fuel; omega)

/-- Forty bytes: class 7, type 1, everything else 0, the record size too. -/
def stuckFile : Bytes := [0, 1, 7] ++ List.replicate 37 0

theorem stuck_turn (env : VgEnv ν) (s : VgState ν) :
    vgTurn env s (IOBuffer.ofSource stuckFile) = .ok (.next s, IOBuffer.ofSource stuckFile) := by
  have hb : At (IOBuffer.ofSource stuckFile) [] stuckFile := ⟨rfl, rfl⟩
  obtain ⟨hd, hr, h0, h1, h2, h7, h3, h4, h5⟩ := readHeader_any env hb (by decide)
  have w : Spec.wordAt stuckFile 20 = 0 := by decide
  have w1 : Spec.byteAt stuckFile 1 = 1 := by decide
  have w2 : Spec.byteAt stuckFile 2 = 7 := by decide
  have w7 : Spec.byteAt stuckFile 7 = 0 := by decide
  rw [w1] at h1; rw [w2] at h2; rw [w] at h5; rw [w7] at h7
  unfold vgTurn
  simp only [hr, bind, Except.bind]
  have hv : invalidHeader (IOBuffer.ofSource stuckFile).data.length hd = false := by
    unfold invalidHeader
    rw [h0, h1, h2, h3, h4, h5]
    decide
  have hsk : decodeBody env hd = skipData hd := by
    unfold decodeBody
    rw [h2]
    rfl
  have hs : skipData hd (adv (IOBuffer.ofSource stuckFile) 40) = .ok ([], IOBuffer.ofSource stuckFile) := by
    unfold skipData
    rw [h5]
    rfl
  rw [if_neg (by rw [hv]; decide), if_neg (by omega), hsk, hs]
  simp [h7]

/-- C60 is false as it stands: a file of one record of size 0 is decoded forever; the reader does not move (C70). -/
theorem C60_counterexample (env : VgEnv ν) (fuel : Nat) : openVgf env fuel stuckFile = .outOfFuel := by
  unfold openVgf
  generalize ({} : VgState ν) = s
  have he : (IOBuffer.ofSource stuckFile).atEnd = false := by decide
  induction fuel with
  | zero => rw [vgLoop.eq_def]; dsimp only; rw [he]; rfl
  | succ n ih =>
    rw [vgLoop.eq_def]
    dsimp only
    rw [he, stuck_turn env s]
    exact ih

/-- C70 is false as it stands: the record is accepted and the reader stays where it was. -/
theorem C70_counterexample (env : VgEnv ν) (s : VgState ν) : ∃ s', vgTurn env s (IOBuffer.ofSource stuckFile) =
    .ok (.next s', IOBuffer.ofSource stuckFile) := ⟨_, stuck_turn env s⟩

/-- A record of class 7 that says it is 40 bytes long. -/
def skippedFile : Bytes := [0, 1, 7] ++ List.replicate 20 0 ++ [40] ++ List.replicate 16 0

def turnEnds (r : Except PyErr (VgTurn Unit × IOBuffer)) : Bool :=
  match r with
  | .ok (.next _, b) => b.atEnd
  | _ => false

example : openVgf env0 40 skippedFile ≠ .outOfFuel := by
  have hend : turnEnds (vgTurn env0 {} (IOBuffer.ofSource skippedFile)) = true := by decide +kernel
  have hv : ∀ s b, Visits env0 skippedFile s b → (s = {} ∧ b = IOBuffer.ofSource skippedFile) ∨ b.atEnd = true := by
    intro s b h
    induction h with
    | start => exact .inl ⟨rfl, rfl⟩
    | next _ he ht ih =>
      rcases ih with ⟨rfl, rfl⟩ | h
      · rw [ht] at hend
        exact .inr hend
      · rw [he] at h; cases h
  refine C60_ends_partial env0 skippedFile (fun s b h s' b' he _ => ?_) 40 (by decide)
  rcases hv s b h with ⟨rfl, rfl⟩ | h
  · refine ⟨?_, ?_, ?_⟩ <;> decide
  · rw [he] at h; cases h

/-! ## C74 -/

theorem valid_of_not_bad (n : Nat) (t : Bytes) (hb : ¬ Spec.BadRecord n t) (h : DHdr ν) (h0 : h.delete = Spec.byteAt t 0)
    (h1 : h.vgType = Spec.byteAt t 1) (h2 : h.vgClass = Spec.byteAt t 2) (h3 : h.majorColor = Spec.wordAt t 12)
    (h4 : h.minorColor = Spec.wordAt t 16) (h5 : h.recordSize = Spec.wordAt t 20) : invalidHeader n h = false := by
  unfold invalidHeader validType validClass
  unfold Spec.BadRecord at hb
  rw [h0, h1, h2, h3, h4, h5]
  simp only [Bool.or_eq_false_iff, decide_eq_false_iff_not, Bool.not_eq_false', decide_eq_true_eq]
  omega

theorem tc_fails (env : VgEnv ν) (info : List DField) (hi : info.all (fun f => (f.info env).conv.isSome) = true)
    (b : IOBuffer) : decodeTc env info b = .error .valueError := by
  have : readRec env .big info b = .error .valueError := by
    unfold readRec dStruct NamedStruct.make
    rw [if_pos (by rw [List.all_map]; exact hi)]
    rfl
  unfold decodeTc
  show Except.bind (readRec env .big info b) _ = _
  rw [this]; rfl

theorem sgwx_fails (env : VgEnv ν) (b : IOBuffer) (r : Prod' ν × IOBuffer) : decodeSgwx env b ≠ .ok r := by
  intro h
  obtain ⟨a, b'⟩ := r
  unfold decodeSgwx at h
  obtain ⟨x, b1, _, h⟩ := rd_inv h
  obtain ⟨y, b2, hy, h⟩ := rd_inv h
  obtain ⟨n, b3, _, h⟩ := rd_inv h
  obtain ⟨z, b4, _, h⟩ := rd_inv h
  obtain ⟨w, b5, hw, _⟩ := rd_inv h
  obtain ⟨hw, _⟩ := rd_pure_inv hw
  unfold readRec dStruct NamedStruct.make at hy
  split at hy
  · cases hy
  · obtain ⟨s, hs, hy⟩ := bind_inv hy
    have hs := Except.ok.inj hs
    subst hs
    obtain ⟨vs, hv, hy⟩ := bind_inv hy
    have hy := (Prod.mk.inj (Except.ok.inj hy)).1
    have hnot : "text_width" ∉ (NamedStruct.mk (sgwxTextInfo.map (DField.info env)) .big (dInj (ν := ν))).names := by
      show "text_width" ∉ (sgwxTextInfo.map (DField.info env)).filterMap (·.name)
      have : (sgwxTextInfo.map (DField.info env)).filterMap (·.name) =
          ["rotation", "text_size", "text_type", "turbulence_symbol", "font", "text_flag", "width", "text_color",
            "line_color", "fill_color", "align", "lat", "lon", "offset_x", "offset_y"] := rfl
      rw [this]; decide
    have : y.lookup "text_width" = none := by
      rw [← hy]
      generalize (NamedStruct.mk (sgwxTextInfo.map (DField.info env)) .big (dInj (ν := ν))).names = ns at hnot
      clear hy hv hw
      clear * - hnot
      induction ns generalizing vs with
      | nil => rfl
      | cons n ns ih =>
        cases vs with
        | nil => rfl
        | cons v vs =>
          rw [List.zip_cons_cons, List.lookup_cons]
          have : ("text_width" == n) = false := by
            rw [beq_eq_false_iff_ne]
            intro e; exact hnot (by rw [e]; exact List.mem_cons_self)
          rw [this]
          exact ih vs (fun hm => hnot (List.mem_cons_of_mem _ hm))
    unfold DRec.get at hw
    rw [this] at hw
    cases hw

/-- **C74** is false for every record of these four kinds: wherever an accepted tropical cyclone error cone, track or
break point record (class 15, types 40 to 42) stands, decoding the file raises `ValueError`; at a significant weather
record (type 43) it raises too. -/
theorem C74_fails (env : VgEnv ν) (s : VgState ν) (b : IOBuffer) (pre t : Bytes) (hd : b.data = pre ++ t)
    (ho : b.offset = pre.length) (ht : 40 ≤ t.length) (hv : ¬ Spec.BadRecord b.data.length t) (hc : Spec.byteAt t 2 = 15) :
    (40 ≤ Spec.byteAt t 1 ∧ Spec.byteAt t 1 ≤ 42 → ∀ n, vgLoop env (n + 1) b s = .raised .valueError) ∧
    (Spec.byteAt t 1 = 43 → ∀ n, ∃ e, vgLoop env (n + 1) b s = .raised e) := by
  have hb : At b pre t := ⟨hd, ho⟩
  obtain ⟨h, hr, h0, h1, h2, _, h3, h4, h5⟩ := readHeader_any env hb ht
  have hval := valid_of_not_bad b.data.length t hv h h0 h1 h2 h3 h4 h5
  have hend : b.atEnd = false := by
    unfold IOBuffer.atEnd
    rw [hd]; simp; omega
  have key : ∀ e, decodeBody env h (adv b 40) = .error e → ∀ n, vgLoop env (n + 1) b s = .raised e := by
    intro e he n
    rw [vgLoop.eq_def]
    dsimp only
    have : vgTurn env s b = .error e := by
      unfold vgTurn
      simp only [hr, bind, Except.bind]
      rw [if_neg (by rw [hval]; decide), if_neg (by omega), he]
    rw [hend, this]
    rfl
  have hcl : h.vgClass = 15 := by omega
  have hbody : decodeBody env h = (if h.vgType = 38 then decodeGfa env
    else if h.vgType = 37 then decodeJet env
    else if h.vgType = 39 then decodeTca env h
    else if h.vgType = 40 then decodeTc env tcErrorInfo
    else if h.vgType = 41 then decodeTc env tcTrackInfo
    else if h.vgType = 42 then decodeTc env tcBreakInfo
    else if h.vgType = 43 then decodeSgwx env
    else skipData h) := by
    unfold decodeBody
    rw [hcl]; rfl
  constructor
  · intro hty
    refine key _ ?_
    rw [hbody, if_neg (by omega), if_neg (by omega), if_neg (by omega)]
    have : h.vgType = 40 ∨ h.vgType = 41 ∨ h.vgType = 42 := by omega
    rcases this with e | e | e
    · rw [if_pos e]; exact tc_fails env _ rfl _
    · rw [if_neg (by omega), if_pos e]; exact tc_fails env _ rfl _
    · rw [if_neg (by omega), if_neg (by omega), if_pos e]; exact tc_fails env _ rfl _
  · intro hty n
    have hb' : decodeBody env h = decodeSgwx env := by
      rw [hbody, if_neg (by omega), if_neg (by omega), if_neg (by omega), if_neg (by omega), if_neg (by omega),
        if_neg (by omega), if_pos (by omega)]
    cases hx : decodeSgwx env (adv b 40) with
    | error e => exact ⟨e, key e (by rw [hb']; exact hx) n⟩
    | ok r => exact absurd hx (sgwx_fails env _ r)

example : ¬ Spec.BadRecord 240 ([0, 40, 15] ++ List.replicate 20 0 ++ [240] ++ List.replicate 216 0) := by
  unfold Spec.BadRecord; decide +kernel

/-! ## C59 for any file -/

theorem visits_loop (env : VgEnv ν) (data : Bytes) (s : VgState ν) (b : IOBuffer) (h : Visits env data s b) :
    ∃ n, ∀ m, openVgf env (n + m) data = vgLoop env m b s := by
  induction h with
  | start => exact ⟨0, fun m => by rw [Nat.zero_add]; rfl⟩
  | @next s s' b b' _ he ht ih =>
    obtain ⟨n, ih⟩ := ih
    refine ⟨n + 1, fun m => ?_⟩
    rw [show n + 1 + m = n + (m + 1) by omega, ih, vgLoop.eq_def]
    dsimp only
    rw [he, ht]
    rfl

/-- **C59** for records of every kind: if decoding comes, with `s` decoded so far, to a place where at least 40 bytes remain
and they are no valid record header, it ends there without an exception and yields exactly `s`. -/
theorem C59_anywhere_partial (env : VgEnv ν) (data : Bytes) (s : VgState ν) (b : IOBuffer) (h : Visits env data s b)
    (hd : b.data = data) (h0 : 0 ≤ b.offset) (hl : b.offset + 40 ≤ data.length)
    (hbad : Spec.BadRecord data.length (data.drop b.offset.toNat)) :
    ∃ n, ∀ fuel, n ≤ fuel → openVgf env fuel data = .done s := by
  obtain ⟨n, hn⟩ := visits_loop env data s b h
  refine ⟨n + 1, fun fuel hf => ?_⟩
  obtain ⟨m, rfl⟩ : ∃ m, fuel = n + (m + 1) := ⟨fuel - n - 1, by omega⟩
  rw [hn, vgLoop.eq_def]
  dsimp only
  have he : b.atEnd = false := by
    unfold IOBuffer.atEnd
    rw [hd]; simp; omega
  have hb : At b (data.take b.offset.toNat) (data.drop b.offset.toNat) :=
    ⟨by rw [List.take_append_drop, hd], by rw [List.length_take]; omega⟩
  obtain ⟨hdr, hr, k0, k1, k2, _, k3, k4, k5⟩ := readHeader_any env hb (by rw [List.length_drop]; omega)
  have hi := invalid_of_bad hbad k0 k1 k2 k3 k4 k5
  have : vgTurn env s b = .ok (.stop, adv b 40) := by
    unfold vgTurn
    simp only [hr, bind, Except.bind]
    rw [hd, if_pos hi]
  rw [he, this]
  rfl

example : ∃ n, ∀ fuel, n ≤ fuel → openVgf env0 fuel (List.replicate 40 0) = .done {} :=
  C59_anywhere_partial env0 _ _ _ .start rfl (le_refl _) (by decide) (by unfold Spec.BadRecord; decide)

end Gempak
