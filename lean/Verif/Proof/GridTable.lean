import Verif.Proof.GridOrder
import Verif.Proof.GridSave

/-!
# Grid files: the table of grids and the data read back
-/

namespace Gempak
open Spec

/-- Grids at the same first time either all have a second time, or none has. -/
def Spec.Comparable (es : List GEntry) : Prop :=
  ∀ a ∈ es, ∀ b ∈ es, a.first = b.first → (a.second = none ↔ b.second = none)

theorem varName_spec (lower : Text → Text) (n : Text) : varName lower n = variableName lower n := by
  unfold varName variableName
  by_cases h1 : txt "PRES" = n
  · subst h1; rfl
  · by_cases h2 : txt "HGHT" = n
    · subst h2; rfl
    · by_cases h3 : txt "THTA" = n
      · subst h3; rfl
      · simp [List.find?, h1, h2, h3, Ne.symm h1, Ne.symm h2, Ne.symm h3, eq_comm]

theorem first_of_col {a b : GEntry} (h1 : a.col.gdt1 = b.col.gdt1) (h2 : a.col.gtm1 = b.col.gtm1) : a.first = b.first := by
  have h1 : a.first.gdate = b.first.gdate := h1
  have h2 : a.first.gtime = b.first.gtime := h2
  generalize a.first = x at *
  generalize b.first = y at *
  obtain ⟨t, d, c, h, m⟩ := x
  obtain ⟨t', d', c', h', m'⟩ := y
  unfold When.gdate at h1
  unfold When.gtime at h2
  simp only [GDate.mk.injEq] at h1
  simp only [GTime.mk.injEq] at h2
  obtain ⟨rfl, rfl, rfl⟩ := h1
  obtain ⟨_, rfl, rfl⟩ := h2
  rfl

theorem clashing_iff {es : List GEntry} {ks : List GCol} (hk : ∀ k, k ∈ ks ↔ k ∈ es.map GEntry.col) :
    clashing ks = false ↔ Comparable es := by
  unfold clashing
  rw [List.any_eq_false]
  constructor
  · intro h a ha b hb hab
    have h1 := h a.col ((hk _).2 (List.mem_map_of_mem ha))
    rw [Bool.not_eq_true, List.any_eq_false] at h1
    have h2 := h1 b.col ((hk _).2 (List.mem_map_of_mem hb))
    unfold GCol.clash at h2
    rw [decide_eq_true_iff] at h2
    by_contra hc
    apply h2
    refine ⟨?_, ?_, ?_⟩
    · show a.first.gdate = b.first.gdate
      rw [hab]
    · show a.first.gtime = b.first.gtime
      rw [hab]
    · show (a.second.map When.gdate).isSome ≠ (b.second.map When.gdate).isSome
      intro he
      apply hc
      cases ha2 : a.second <;> cases hb2 : b.second <;> rw [ha2, hb2] at he <;> simp_all
  · intro h x hx
    rw [Bool.not_eq_true, List.any_eq_false]
    intro y hy
    obtain ⟨a, ha, rfl⟩ := List.mem_map.1 ((hk x).1 hx)
    obtain ⟨c, hc, rfl⟩ := List.mem_map.1 ((hk y).1 hy)
    unfold GCol.clash
    rw [decide_eq_true_iff]
    rintro ⟨h1, h2, h3⟩
    have h4 := h a ha c hc (first_of_col h1 h2)
    apply h3
    show (a.second.map When.gdate).isSome = (c.second.map When.gdate).isSome
    cases ha2 : a.second <;> cases hc2 : c.second <;> rw [ha2, hc2] at h4 <;> simp_all

/-- The columns of a builder. -/
theorem GHistory.keys {b0 b : GridBuilder} {es : List GEntry} (h : GHistory b0 (es.map GEntry.item) b) :
    b.colSet.keys.Nodup ∧ ∀ k, k ∈ b.colSet.keys ↔ k ∈ es.map GEntry.col := by
  have h1 := h.colSet
  rw [List.map_map] at h1
  have h2 : (Prod.fst ∘ GEntry.item) = GEntry.col := rfl
  rw [h2] at h1
  rw [h1]
  exact ⟨(C42_from_iterable _).2.1, fun k => (C42_from_iterable _).1 k⟩

theorem GHistory.count {b0 b : GridBuilder} {es : List GEntry} (h : GHistory b0 (es.map GEntry.item) b)
    (hs : ∀ e ∈ es, e.Sound b0.nx b0.ny) : b.columns = (gfinal es).length := by
  obtain ⟨k1, k2⟩ := h.keys
  rw [h.columns, gfinal_eq hs]
  have := (listing_perm (key := GEntry.col) (val := GEntry.values) (es := es) k1 k2).length_eq
  rwa [List.length_map, List.length_map] at this

theorem GHistory.table {b0 b : GridBuilder} {es : List GEntry} (h : GHistory b0 (es.map GEntry.item) b)
    (hs : ∀ e ∈ es, e.Sound b0.nx b0.ny) (hcap : 1 + (gfinal es).length ≤ mmhdrs) (hc : Comparable es) :
    b.columns = b.columnHeaders.length ∧ ∃ P : List GEntry, P.Perm (gfinal es) ∧ P.map GEntry.col = b.columnHeaders ∧
      ∀ x ∈ P, dictGet b.data x.col = some x.values := by
  obtain ⟨k1, k2⟩ := h.keys
  have hh := h.headers (by rw [h.count hs]; exact hcap) ((clashing_iff k2).2 hc)
  have hp := List.mergeSort_perm b.colSet.keys GCol.le
  rw [← hh] at hp
  have hn : b.columnHeaders.Nodup := hp.nodup_iff.2 k1
  have hm : ∀ k, k ∈ b.columnHeaders ↔ k ∈ es.map GEntry.col := fun k => hp.mem_iff.trans (k2 k)
  refine ⟨h.columns.trans hp.length_eq.symm, ?_⟩
  have L := listing_perm (key := GEntry.col) (val := GEntry.values) hn hm
  rw [← gfinal_eq hs] at L
  obtain ⟨P, hP, he⟩ := perm_map_inv L
  have hd : b.data = dictUpdate [] (es.map fun e => (e.col, e.values)) := h.data
  refine ⟨P, hP, ?_, ?_⟩
  · have := congrArg (List.map Prod.fst) he
    rw [List.map_map, List.map_map] at this
    have e1 : (Prod.fst ∘ fun e : GEntry => (e.col, some e.values)) = GEntry.col := rfl
    rw [e1] at this
    rw [this]
    exact List.map_id _
  · intro x hx
    have : (x.col, some x.values) ∈ P.map fun e => (e.col, some e.values) := List.mem_map_of_mem hx
    rw [he] at this
    obtain ⟨c, _, hc⟩ := List.mem_map.1 this
    have h1 := congrArg Prod.fst hc
    have h2 := congrArg Prod.snd hc
    dsimp only at h1 h2
    rw [hd, ← h1, h2]

/-! ## Data -/

/-- The grids of an entry are its data, within the tolerance. -/
def DataOf (n : ℕ) (e : GEntry) (d : List (List (Option ℚ))) : Prop :=
  ∀ R δ, Spread e.grid R → Near e.grid δ → List.Forall₂ (List.Forall₂ (IsPoint n R δ)) e.grid d

theorem flatten_length {α : Type} {g : List (List α)} {nx : Nat} (h : ∀ r ∈ g, r.length = nx) : g.flatten.length = g.length * nx := by
  induction g with
  | nil => simp
  | cons r g ih =>
    rw [List.flatten_cons, List.length_append, h r List.mem_cons_self, ih fun x hx => h x (List.mem_cons_of_mem _ hx),
      List.length_cons, Nat.add_mul, Nat.one_mul, Nat.add_comm]

theorem values_flatten (e : GEntry) : e.values.flatten = e.grid.flatten.map counted := by
  unfold GEntry.values; rw [List.map_flatten]

theorem exists_bound (l : List ℚ) : ∃ R : ℚ, ∀ x ∈ l, |x| ≤ R := by
  induction l with
  | nil => exact ⟨0, by simp⟩
  | cons a l ih =>
    obtain ⟨R, hR⟩ := ih
    refine ⟨max |a| R, ?_⟩
    intro x hx
    rcases List.mem_cons.1 hx with rfl | hx
    · exact le_max_left _ _
    · exact (hR x hx).trans (le_max_right _ _)

theorem exists_spread (l : List ℚ) : ∃ R : ℚ, ∀ x ∈ l, ∀ y ∈ l, x - y ≤ R := by
  obtain ⟨R, hR⟩ := exists_bound l
  refine ⟨2 * R, fun x hx y hy => ?_⟩
  have h1 := abs_le.1 (hR x hx)
  have h2 := abs_le.1 (hR y hy)
  linarith [h1.2, h2.1]

theorem record_read {env : GridEnv} (hr : env.Rounds) {e : GEntry} {nx ny : Nat} (hs : e.Sound nx ny) {precision : Int}
    (hbits : 32 < precision * nx * ny) {ws : List Val} (hw : gridRecord env nx ny precision e.values = .ok ws)
    {i : DMInfo} {bytes : Bytes} {part : PartInfo} {icol n : Nat} (hn : 1 ≤ n) (hp : dataPointer i bytes 0 icol 0 = n)
    (hh : part.headerLength = 2) (hm : f32Value i.label.missingFloat = some (-9999)) (hH : HoldsW i.order bytes n ws) :
    ∃ d, gridData i bytes part icol 0 nx ny = .ok (some d) ∧ DataOf precision.toNat e d := by
  unfold gridRecord at hw
  obtain ⟨⟨ref, scale, w⟩, g1, hw⟩ := Except.bind_ok hw
  obtain ⟨fr, g2, hw⟩ := Except.bind_ok hw
  obtain ⟨fs, g3, hw⟩ := Except.bind_ok hw
  obtain rfl := Except.ok.inj hw
  dsimp only at g2 g3 hH
  obtain ⟨p1, p2, _⟩ := packGrib_range g1
  obtain ⟨k, rfl⟩ : ∃ k : Nat, precision = k := ⟨precision.toNat, by omega⟩
  have hfl := flatten_length hs.row
  rw [hs.rows] at hfl
  have hlen : e.values.flatten.length = ny * nx := by rw [values_flatten, List.length_map, hfl]
  have hk : 32 < k * (ny * nx) := by
    have : (k : Int) * nx * ny = ((k * (ny * nx) : Nat) : Int) := by
      push_cast; rw [mul_assoc, mul_comm (nx : Int) (ny : Int)]
    rw [this] at hbits
    exact_mod_cast hbits
  obtain ⟨a, l, hal⟩ : ∃ a l, e.values.flatten = a :: l := by
    cases hq : e.values.flatten with
    | nil =>
      rw [hq] at hlen
      rw [← hlen] at hk
      simp at hk
    | cons a l => exact ⟨a, l, rfl⟩
  rw [hal] at g1 hlen
  obtain ⟨⟨sc, s1, s2, rfl⟩, hmem, w2, hread⟩ := packed_points a l k (by omega) (by omega) (by rw [hlen]; exact hk) ref scale w g1
  obtain ⟨rv, v1, v2⟩ := hr.nearest _ _ g2
  obtain ⟨ps, hps⟩ := f32Value_pow sc s1 s2
  have v3 := hr.exact hps g3
  obtain ⟨R0, hR0⟩ := exists_spread (a :: l)
  obtain ⟨out, o1, o2⟩ := hread R0 |rv - ref| rv hR0 le_rfl
  have hol : out.length = ny * nx := by rw [← o2.length_eq, hlen]
  rw [hlen, Nat.mul_comm ny nx] at o1
  refine ⟨_, gridData_spec hn hp hh hm hH v1 v3 (by rintro rfl; simp at w2) (by rw [Int.toNat_natCast]; exact o1) hol, ?_⟩
  intro R δ hS hN
  rw [Int.toNat_natCast]
  have hS' : ∀ x ∈ a :: l, ∀ y ∈ a :: l, x - y ≤ R := by
    rw [← hal, values_flatten]
    intro x hx y hy
    obtain ⟨x', hx', rfl⟩ := List.mem_map.1 hx
    obtain ⟨y', hy', rfl⟩ := List.mem_map.1 hy
    exact hS x' hx' y' hy'
  have hN' : |rv - ref| ≤ δ := by
    rw [← hal, values_flatten] at hmem
    obtain ⟨x, hx, rfl⟩ := List.mem_map.1 hmem
    obtain ⟨p, v, q1, q2⟩ := hN x hx
    exact (v2 p v q1).trans q2
  obtain ⟨out', o3, o4⟩ := hread R δ rv hS' hN'
  rw [hlen, Nat.mul_comm ny nx, o1] at o3
  obtain rfl := Option.some.inj (Except.ok.inj o3)
  rw [← hal, values_flatten, List.forall₂_map_left_iff] at o4
  have o5 := rows_forall₂ e.grid out hs.row o4
  rw [hs.rows] at o5
  unfold maskMissing
  rw [List.forall₂_map_right_iff]
  refine List.Forall₂.imp ?_ o5
  intro r s hrs
  rw [List.forall₂_map_right_iff]
  exact List.Forall₂.imp (fun x y hxy => point_of hxy) hrs

/-! ## Opening and reading everything -/

theorem forall₂_zipIdx {α β : Type} {R : α → β → Prop} {f : α × Nat → β} (l : List α) (k : Nat) (h : ∀ x ∈ l.zipIdx k, R x.1 (f x)) :
    List.Forall₂ R l ((l.zipIdx k).map f) := by
  induction l generalizing k with
  | nil => exact .nil
  | cons a l ih =>
    rw [List.zipIdx_cons] at h ⊢
    exact .cons (h _ List.mem_cons_self) (ih (k + 1) fun x hx => h x (List.mem_cons_of_mem _ hx))

theorem singletons_flatten {α β : Type} (f : α → β) (l : List α) : (l.map fun x => [f x]).flatten = l.map f := by
  induction l with
  | nil => rfl
  | cons a l ih => rw [List.map_cons, List.flatten_cons, ih]; rfl

theorem saveGrid_inv {env : GridEnv} {e : Endian} {b : GridBuilder} {bytes : Bytes} (h : saveGrid env e b = .ok bytes) :
    3 ≤ b.nx ∧ 3 ≤ b.ny ∧ ∃ fx fy, env.f32 b.nx = .ok fx ∧ env.f32 b.ny = .ok fy ∧ save e (gridFile env b fx fy) = .ok bytes := by
  unfold saveGrid at h
  obtain ⟨fx, h1, h⟩ := Except.bind_ok h
  obtain ⟨fy, h2, h⟩ := Except.bind_ok h
  split at h
  · cases h
  · exact ⟨by omega, by omega, fx, fy, h1, h2, h⟩

theorem grid_file_seen {env : GridEnv} (hr : env.Rounds) {b0 b : GridBuilder} {es : List GEntry} (hb : b0.Regular)
    (hx : b0.nx < 2 ^ 24) (hy : b0.ny < 2 ^ 24)
    (h : GHistory b0 (es.map GEntry.item) b) (hs : ∀ e ∈ es, e.Sound b0.nx b0.ny) (ht : ∀ e ∈ es, e.Typed) (hl : ∀ e ∈ es, e.Readable)
    (hcap : 1 + (gfinal es).length ≤ mmhdrs) (hc : Comparable es) {e : Endian} {bytes : Bytes} (hsave : saveGrid env e b = .ok bytes)
    (host : Endian) : ∃ (f : GridFileR) (P : List GEntry), openGrid host bytes = .ok f ∧ P.Perm (gfinal es) ∧
      List.Forall₂ (fun x g => IsGridListed x.seen g) P f.grids ∧
      (32 < b0.precision * b0.nx * b0.ny → es ≠ [] → ∀ upper lower, ∃ out, gdxarray upper lower {} f = .ok out ∧
        List.Forall₂ (fun x o => IsGridRead lower b0.precision.toNat x.seen o) P out) ∧ P.Pairwise (fun a b => ¬ b.rank < a.rank) := by
  obtain ⟨hcol, P, hP, hPc, hPd⟩ := h.table hs hcap hc
  have hPe : ∀ x ∈ P, x ∈ es := by
    intro x hx
    have := hP.mem_iff.1 hx
    rw [gfinal_eq hs] at this
    exact finalBy_sub this
  have hreg : b.Regular := ⟨by rw [h.corners]; exact hb.corners, by rw [h.angles]; exact hb.angles, by rw [h.proj]; exact hb.proj⟩
  obtain ⟨_, _, fx, fy, e1, e2, hsv⟩ := saveGrid_inv hsave
  rw [h.nx] at e1
  rw [h.ny] at e2
  obtain ⟨_, e1', v1⟩ := hr.nat hx
  obtain ⟨_, e2', v2⟩ := hr.nat hy
  obtain rfl := Except.ok.inj (e1.symm.trans e1')
  obtain rfl := Except.ok.inj (e2.symm.trans e2')
  have hopen := openGrid_spec (env := env) (host := host) hreg hcol hsv v1 v2 hPc headOf infoOfEntry
    (fun c hc' vs hv => header_read e (hl c (hPe c hc')) (hs c (hPe c hc')) (ht c (hPe c hc')) hv)
    (fun c _ n => gridInfo_read n c)
  have hsort : P.Pairwise fun a b => ¬ b.rank < a.rank := by
    have hh := h.headers (by rw [h.count hs]; exact hcap) ((clashing_iff h.keys.2).2 hc)
    exact grids_sorted (hPc.trans hh) (fun x hx' => (hs x (hPe x hx')).name.2) fun a ha b hb => hc a (hPe a ha) b (hPe b hb)
  refine ⟨_, P, hopen, hP, forall₂_zipIdx P 0 ?_, ?_, hsort⟩
  · intro x hx'
    have hxP : x.1 ∈ P := List.fst_mem_of_mem_zipIdx hx'
    exact info_listed x.2 (hl _ (hPe _ hxP)) (hs _ (hPe _ hxP))
  · intro hbits hne upper lower
    obtain ⟨I, hI⟩ : ∃ I, I = expectedInfo e (gridFile env b fx fy) (some (expectedBlocks b.proj (gridNav b fx fy) (gridAnl b))) := ⟨_, rfl⟩
    rw [← hI]
    have hparts : I.parts = [gridPart.info] := by rw [hI]; rfl
    have hdata : ∀ x : GEntry × Nat, ∃ d, x ∈ P.zipIdx →
        gridData I bytes gridPart.info x.2 0 b0.nx b0.ny = .ok (some d) ∧ DataOf b0.precision.toNat x.1 d := by
      intro x
      by_cases hx' : x ∈ P.zipIdx
      · have hxP : x.1 ∈ P := List.fst_mem_of_mem_zipIdx hx'
        have hj : b.columnHeaders[x.2]? = some x.1.col := by
          rw [← hPc, List.getElem?_map, mem_zipIdx_iff.1 hx']; rfl
        obtain ⟨ws, n, n1, n2, n3, n4⟩ := grid_cell (env := env) (bk := some (expectedBlocks b.proj (gridNav b fx fy) (gridAnl b)))
          hcol hsv hj (hPd _ hxP)
        rw [h.nx, h.ny, h.precision] at n2
        rw [← hI] at n3
        have ho : I.order = e := by rw [hI]; rfl
        have hm : f32Value I.label.missingFloat = some (-9999) := by rw [hI]; exact f32Value_missing
        rw [← ho] at n4
        obtain ⟨d, d1, d2⟩ := record_read hr (hs _ (hPe _ hxP)) hbits n2 n1 n3 (part := gridPart.info) rfl hm n4
        exact ⟨d, fun _ => ⟨d1, d2⟩⟩
      · exact ⟨[], fun hc => absurd hc hx'⟩
    choose d hd using hdata
    have hPne : P ≠ [] := by
      intro hnil
      rw [hnil] at hP
      have : gfinal es = [] := hP.symm.eq_nil
      obtain ⟨a, ha⟩ := List.exists_mem_of_ne_nil _ hne
      obtain ⟨y, hy', _⟩ := finalBy_covers (key := GEntry.col) ha
      rw [← gfinal_eq hs, this] at hy'
      cases hy'
    obtain ⟨F, hF⟩ : ∃ F : GridFileR, F = ⟨I, bytes, P.map headOf, P.zipIdx.map (fun x => infoOfEntry x.2 x.1),
      some ((b0.nx : Int), (b0.ny : Int))⟩ := ⟨_, rfl⟩
    rw [← hF]
    have hcolumn : ∀ x ∈ P.zipIdx, columnGrids lower F (infoOfEntry x.2 x.1) F.info.parts 0 =
        .ok [⟨varName lower (seenName x.1.name), (infoOfEntry x.2 x.1).time1, x.1.first.type, lower (infoOfEntry x.2 x.1).coord,
          listedLevel x.1.level, d x⟩] := by
      intro x hx'
      have hp' : F.info.parts = [gridPart.info] := by rw [hF]; exact hparts
      have hsz : F.size = some ((b0.nx : Int), (b0.ny : Int)) := by rw [hF]
      rw [hp', columnGrids, hsz]
      have : gridData F.info F.bytes gridPart.info (infoOfEntry x.2 x.1).number 0 b0.nx b0.ny = .ok (some (d x)) := by
        rw [hF]; exact (hd x hx').1
      dsimp only
      rw [this, ok_bind]
      rfl
    have hsel : selectGrids upper {} F.grids = .ok F.grids := by
      unfold selectGrids
      have h1 : optM (gridTimes F.grids) ({} : GridQuery).dateTime = .ok none := rfl
      have h2 : optM (gridTimes2 F.grids) ({} : GridQuery).dateTime2 = .ok none := rfl
      rw [h1, ok_bind, h2, ok_bind]
      show (if F.grids.length < 1 then Except.error PyErr.keyError else .ok F.grids) = _
      rw [if_neg]
      rw [hF]
      show ¬ (P.zipIdx.map (fun x => infoOfEntry x.2 x.1)).length < 1
      rw [List.length_map, List.length_zipIdx]
      have := List.length_pos_of_ne_nil hPne
      omega
    refine ⟨P.zipIdx.map fun x => ⟨varName lower (seenName x.1.name), (infoOfEntry x.2 x.1).time1, x.1.first.type,
      lower (infoOfEntry x.2 x.1).coord, listedLevel x.1.level, d x⟩, ?_, forall₂_zipIdx P 0 ?_⟩
    · unfold gdxarray
      rw [hsel, ok_bind]
      have hg : F.grids = P.zipIdx.map (fun x => infoOfEntry x.2 x.1) := by rw [hF]
      rw [hg, List.mapM_map, mapM_ok (f := (fun g => columnGrids lower F g F.info.parts 0) ∘ fun x => infoOfEntry x.2 x.1) (g := fun x => [(⟨varName lower (seenName x.1.name), (infoOfEntry x.2 x.1).time1, x.1.first.type,
        lower (infoOfEntry x.2 x.1).coord, listedLevel x.1.level, d x⟩ : GridObj)]) hcolumn, ok_bind]
      exact congrArg Except.ok (singletons_flatten _ _)
    · intro x hx'
      have hxP : x.1 ∈ P := List.fst_mem_of_mem_zipIdx hx'
      have hi := info_listed x.2 (hl _ (hPe _ hxP)) (hs _ (hPe _ hxP))
      exact ⟨varName_spec lower _, hi.time1, rfl, ⟨_, hi.coord, rfl⟩, rfl, (hd x hx').2⟩

theorem grid_file_read {env : GridEnv} (hr : env.Rounds) {b0 b : GridBuilder} {es : List GEntry} (hb : b0.Regular)
    (hx : b0.nx < 2 ^ 24) (hy : b0.ny < 2 ^ 24)
    (h : GHistory b0 (es.map GEntry.item) b) (hs : ∀ e ∈ es, e.Sound b0.nx b0.ny) (ht : ∀ e ∈ es, e.Typed) (hl : ∀ e ∈ es, e.Legible)
    (hcap : 1 + (gfinal es).length ≤ mmhdrs) (hc : Comparable es) {e : Endian} {bytes : Bytes} (hsave : saveGrid env e b = .ok bytes)
    (host : Endian) : ∃ (f : GridFileR) (P : List GEntry), openGrid host bytes = .ok f ∧ P.Perm (gfinal es) ∧
      List.Forall₂ IsGridListed P f.grids ∧
      (32 < b0.precision * b0.nx * b0.ny → es ≠ [] → ∀ upper lower, ∃ out, gdxarray upper lower {} f = .ok out ∧
        List.Forall₂ (IsGridRead lower b0.precision.toNat) P out) := by
  obtain ⟨f, P, h1, h2, h3, h4, h5⟩ := grid_file_seen hr hb hx hy h hs ht (fun e he => (hl e he).readable) hcap hc hsave host
  have hseen : ∀ x ∈ P, x.seen = x := by
    intro x hx'
    have := h2.mem_iff.1 hx'
    rw [gfinal_eq hs] at this
    exact (hl x (finalBy_sub this)).seen_eq
  have conv : ∀ {β : Type} {R : GEntry → β → Prop} {l : List β}, List.Forall₂ (fun x g => R x.seen g) P l → List.Forall₂ R P l := by
    intro β R l hall
    clear h2 h3 h4 h5
    induction hall with
    | nil => exact .nil
    | cons ha _ ih =>
      refine .cons ?_ (ih fun x hx' => hseen x (List.mem_cons_of_mem _ hx'))
      rw [← hseen _ List.mem_cons_self]; exact ha
  refine ⟨f, P, h1, h2, conv h3, fun a b u l => ?_⟩
  obtain ⟨out, o1, o2⟩ := h4 a b u l
  exact ⟨out, o1, conv o2⟩

end Gempak
