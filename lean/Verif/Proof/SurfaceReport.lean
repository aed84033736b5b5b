import Verif.Proof.StationTable

/-! Reports of a written surface file. -/

namespace Gempak
open Spec

set_option linter.unusedSectionVars false

variable {ρ κ β : Type} [DecidableEq κ]

/-- Names of parameters that a surface file can carry: distinct, also in lower case, and none of the reader's own keys. -/
structure Spec.SurfaceNames (lower : Text → Text) (names : List Text) : Prop where
  legible : ∀ n ∈ names, Name4 n
  nodup : names.Nodup
  lower_nodup : (names.map lower).Nodup
  free : ∀ n ∈ names, n ∉ popped ∧ n ≠ txt "TEXT" ∧ n ≠ txt "SPCL"

/-- Items of the values of a cell. -/
def itemsOf (env : NumEnv ρ κ) (names : List Text) (vs : List ρ) : List (Text × HVal) := names.zip ((f32s env vs).map .flt)

/-- Report of a cell. -/
def reportOf (env : NumEnv ρ κ) (names : List Text) (p : Pair κ) (vs : List ρ) : List (Text × HVal) :=
  (sfHead env p.2.1 ++ rowHead p.1.1) ++ itemsOf env names vs

/-- What `sfjson` makes of it. -/
def objOf (env : NumEnv ρ κ) (lower : Text → Text) (names : List Text) (p : Pair κ) (vs : List ρ) : SfObj :=
  ⟨storedTime p.1.1.1 p.1.1.2, p.2.1.stid ++ p.2.1.std2, .int p.2.1.stnm, .coord (centiD env p.2.1.slon), .coord (centiD env p.2.1.slat),
    .int p.2.1.selv, .text p.2.1.stat, .text p.2.1.coun, .int p.2.1.spri, (itemsOf env names vs).map fun kv => (lower kv.1, kv.2)⟩

theorem f32s_length (env : NumEnv ρ κ) (vs : List ρ) : (f32s env vs).length = vs.length := by simp [f32s]

theorem items_fst {env : NumEnv ρ κ} {names : List Text} {vs : List ρ} (h : vs.length = names.length) :
    (itemsOf env names vs).map Prod.fst = names := by
  unfold itemsOf
  rw [List.map_fst_zip]
  rw [List.length_map, f32s_length, h]

theorem items_snd {env : NumEnv ρ κ} {names : List Text} {vs : List ρ} (h : vs.length = names.length) :
    (itemsOf env names vs).map Prod.snd = (f32s env vs).map .flt := by
  unfold itemsOf
  rw [List.map_snd_zip]
  rw [List.length_map, f32s_length, h]

theorem heads_keys (env : NumEnv ρ κ) (p : Pair κ) :
    (sfHead env p.2.1 ++ rowHead p.1.1).map Prod.fst = siteKeys ++ [txt "DATE", txt "TIME"] := rfl

theorem keys_popped : ∀ k ∈ siteKeys ++ [txt "DATE", txt "TIME"], k ∈ popped := by decide +kernel

theorem report_nodup {env : NumEnv ρ κ} {lower : Text → Text} {names : List Text} (hn : SurfaceNames lower names) (p : Pair κ)
    {vs : List ρ} (h : vs.length = names.length) : ((reportOf env names p vs).map Prod.fst).Nodup := by
  unfold reportOf
  rw [List.map_append, heads_keys, items_fst h]
  refine List.Nodup.append (by decide +kernel) hn.nodup ?_
  intro k h1 h2
  exact (hn.free k h2).1 (keys_popped k h1)

theorem headItems_all {h : Header} (hn : (h.map Prod.fst).Nodup) : headItems h (h.map Prod.fst) = .ok h := by
  have : ∀ l : Header, (∀ x ∈ l, x ∈ h) → (l.map Prod.fst).mapM (fun k => (headGet h k).map fun v => (k, v)) = .ok l := by
    intro l
    induction l with
    | nil => intro _; rfl
    | cons x l ih =>
      intro hx
      have h1 := headGet_of hn (hx x List.mem_cons_self)
      have h2 := ih fun y hy => hx y (List.mem_cons_of_mem _ hy)
      rw [List.map_cons, List.mapM_cons, h2, h1]
      rfl
  exact this h fun _ hx => hx

theorem cellItems_one {rd : PartInfo → ParamInfo → Int → Except PyErr (List (Text × HVal))} {i : DMInfo} {b : Bytes} {irow icol : Nat}
    {p : PartInfo} {a : ParamInfo} {x : List (Text × HVal)} (h0 : dataPointer i b irow icol 0 ≠ 0)
    (h : rd p a (dataPointer i b irow icol 0) = .ok x) : cellItems rd i b irow icol [(p, a)] 0 = .ok x := by
  unfold cellItems
  dsimp only
  rw [if_neg h0, h, ok_bind]
  unfold cellItems
  rw [ok_bind, List.append_nil]

/-- The reports of one cell. -/
theorem unpackCell_spec {e : Endian} {bytes : Bytes} {env : NumEnv ρ κ} {lower : Text → Text} {b : Builder κ (List ρ)} {bk : Option Blocks}
    {infos : List SiteInfo} (hr : b.rows = b.rowHeaders.length) (hc : b.columns = b.columnHeaders.length)
    (hn : SurfaceNames lower b.names) (hs : save e (surfaceFile env b) = .ok bytes) {p : Pair κ} (hp : p ∈ pairs b) {vs : List ρ}
    (hv : cellOf b p = some vs) (hl : vs.length = b.names.length) :
    SurfaceReader.unpackCell ⟨⟨expectedInfo e (surfaceFile env b) bk, bytes, b.rowHeaders.map rowHead,
      b.columnHeaders.map (sfHead env)⟩, .standard, infos⟩ p.1.2 p.2.2 = .ok [reportOf env b.names p vs] ∧
      ∀ v ∈ vs, ∃ f, env.f32 v = .ok f := by
  obtain ⟨h1, h2⟩ := mem_pairs.1 hp
  have hcell := cell_spec (bk := bk) (sfStation (env := env) hr hc) hs h1 h2
  have hv' : dictGet b.data (p.1.1, p.2.1) = some vs := hv
  rw [hv'] at hcell
  obtain ⟨ws, n, hn1, hw, hptr, hh⟩ := hcell
  obtain ⟨fs, hf, hpart⟩ := surfacePart_spec (i := expectedInfo e (surfaceFile env b) bk) rfl hn1 hw hh (txt "SFDT") b.names hl
  have hfs := f32s_eq hf
  have hitems : cellItems (surfacePart (expectedInfo e (surfaceFile env b) bk) bytes) (expectedInfo e (surfaceFile env b) bk) bytes
      p.1.2 p.2.2 ((expectedInfo e (surfaceFile env b) bk).parts.zip (expectedInfo e (surfaceFile env b) bk).params) 0 =
      .ok (itemsOf env b.names vs) := by
    have hz : (expectedInfo e (surfaceFile env b) bk).parts.zip (expectedInfo e (surfaceFile env b) bk).params =
      [((stationPart (txt "SFDT") b.names).info, (stationPart (txt "SFDT") b.names).readBack)] := rfl
    rw [hz]
    apply cellItems_one
    · rw [hptr]; omega
    · rw [hptr, hpart]
      unfold itemsOf
      rw [hfs]
  refine ⟨?_, ?_⟩
  · have hheads : SurfaceReader.heads ⟨⟨expectedInfo e (surfaceFile env b) bk, bytes, b.rowHeaders.map rowHead,
        b.columnHeaders.map (sfHead env)⟩, .standard, infos⟩ p.1.2 p.2.2 = .ok (sfHead env p.2.1, rowHead p.1.1) := by
      have g1 : headerAt (b.rowHeaders.map rowHead) p.1.2 = .ok (rowHead p.1.1) := by
        unfold headerAt; rw [List.getElem?_map, h1]; rfl
      have g2 : headerAt (b.columnHeaders.map (sfHead env)) p.2.2 = .ok (sfHead env p.2.1) := by
        unfold headerAt; rw [List.getElem?_map, h2]; rfl
      unfold SurfaceReader.heads
      dsimp only
      rw [g1, ok_bind, g2, ok_bind]
    unfold SurfaceReader.unpackCell
    rw [hheads, ok_bind]
    dsimp only
    have i1 : headItems (sfHead env p.2.1) siteKeys = .ok (sfHead env p.2.1) := headItems_all (sfHead_nodup env p.2.1)
    have i2 : headItems (rowHead p.1.1) [txt "DATE", txt "TIME"] = .ok (rowHead p.1.1) := headItems_all (rowHead_nodup p.1.1)
    rw [i1, ok_bind, i2, ok_bind, hitems, ok_bind, if_pos rfl]
    have hfst := items_fst (env := env) hl
    have d1 : dictUpdate [] (itemsOf env b.names vs) = itemsOf env b.names vs := by
      rw [dictUpdate_fresh (by simpa [hfst] using hn.nodup), List.nil_append]
    have t1 : dictGet (itemsOf env b.names vs) (txt "TEXT") = none := by
      rw [dictGet_eq_none, hfst]
      intro h; exact (hn.free _ h).2.1 rfl
    have t2 : dictGet (itemsOf env b.names vs) (txt "SPCL") = none := by
      rw [dictGet_eq_none, hfst]
      intro h; exact (hn.free _ h).2.2 rfl
    rw [d1, t1, t2, if_neg (by simp)]
    have := report_nodup (env := env) hn p hl
    unfold reportOf at this
    rw [List.map_append] at this
    rw [dictUpdate_fresh this]
    rfl
  · have : ∀ {vs : List ρ} {fs : List F32}, List.Forall₂ (fun v f => env.f32 v = .ok f) vs fs → ∀ v ∈ vs, ∃ f, env.f32 v = .ok f := by
      intro vs fs h
      induction h with
      | nil => intro v hv; simp at hv
      | cons h _ ih =>
        intro v hv
        rcases List.mem_cons.1 hv with rfl | hv
        · exact ⟨_, h⟩
        · exact ih v hv
    exact this hf

/-- The object made of the report. -/
theorem sfObject_spec {env : NumEnv ρ κ} {lower : Text → Text} {names : List Text} (hn : SurfaceNames lower names) (p : Pair κ)
    {vs : List ρ} (hl : vs.length = names.length) :
    sfObject lower (reportOf env names p vs) = .ok (objOf env lower names p vs) := by
  have nd := report_nodup (env := env) hn p hl
  have pop : ∀ k v, (k, v) ∈ sfHead env p.2.1 ++ rowHead p.1.1 → popKey (reportOf env names p vs) k = .ok v := by
    intro k v h
    unfold popKey
    rw [(dictGet_eq_some nd).2 (List.mem_append_left _ h)]
  have hfst := items_fst (env := env) hl
  unfold sfObject
  rw [pop (txt "DATE") (.date (storedTime p.1.1.1 p.1.1.2).1) (by simp [sfHead, snHead, rowHead]), ok_bind,
    pop (txt "TIME") (.time (storedTime p.1.1.1 p.1.1.2).2) (by simp [sfHead, snHead, rowHead]), ok_bind]
  rw [show combine (.date (storedTime p.1.1.1 p.1.1.2).1) (.time (storedTime p.1.1.1 p.1.1.2).2) =
    .ok (storedTime p.1.1.1 p.1.1.2) from rfl, ok_bind]
  rw [pop (txt "STID") (.text p.2.1.stid) (by simp [sfHead, snHead]), ok_bind, pop (txt "STD2") (.text p.2.1.std2) (by simp [sfHead, snHead]),
    ok_bind]
  rw [show joinId (.text p.2.1.stid) (.text p.2.1.std2) = .ok (p.2.1.stid ++ p.2.1.std2) from rfl, ok_bind]
  rw [pop (txt "STNM") (.int p.2.1.stnm) (by simp [sfHead, snHead]), ok_bind,
    pop (txt "SLON") (.coord (centiD env p.2.1.slon)) (by simp [sfHead, snHead]), ok_bind,
    pop (txt "SLAT") (.coord (centiD env p.2.1.slat)) (by simp [sfHead, snHead]), ok_bind,
    pop (txt "SELV") (.int p.2.1.selv) (by simp [sfHead, snHead]), ok_bind,
    pop (txt "STAT") (.text p.2.1.stat) (by simp [sfHead, snHead]), ok_bind,
    pop (txt "COUN") (.text p.2.1.coun) (by simp [sfHead, snHead]), ok_bind,
    pop (txt "SPRI") (.int p.2.1.spri) (by simp [sfHead, snHead]), ok_bind]
  have hfil : (reportOf env names p vs).filter (fun kv => decide (kv.1 ∉ popped)) = itemsOf env names vs := by
    unfold reportOf
    rw [List.filter_append]
    have f1 : (sfHead env p.2.1 ++ rowHead p.1.1).filter (fun kv => decide (kv.1 ∉ popped)) = [] := by
      rw [List.filter_eq_nil_iff]
      intro kv hkv
      have : kv.1 ∈ siteKeys ++ [txt "DATE", txt "TIME"] := by rw [← heads_keys env p]; exact List.mem_map_of_mem hkv
      simpa using keys_popped _ this
    have f2 : (itemsOf env names vs).filter (fun kv => decide (kv.1 ∉ popped)) = itemsOf env names vs := by
      rw [List.filter_eq_self]
      intro kv hkv
      have : kv.1 ∈ names := by rw [← hfst]; exact List.mem_map_of_mem hkv
      simpa using (hn.free _ this).1
    rw [f1, f2, List.nil_append]
  rw [hfil]
  unfold objOf
  have : dictUpdate [] ((itemsOf env names vs).map fun kv => (lower kv.1, kv.2)) = (itemsOf env names vs).map fun kv => (lower kv.1, kv.2) := by
    rw [dictUpdate_fresh, List.nil_append]
    simp only [List.map_nil, List.nil_append, List.map_map]
    have : (itemsOf env names vs).map (Prod.fst ∘ fun kv => (lower kv.1, kv.2)) = names.map lower := by
      conv_rhs => rw [← hfst]
      rw [List.map_map]; rfl
    rw [this]
    exact hn.lower_nodup
  rw [this]

theorem report_spcl {env : NumEnv ρ κ} {lower : Text → Text} {names : List Text} (hn : SurfaceNames lower names) (p : Pair κ)
    {vs : List ρ} (hl : vs.length = names.length) : dictGet (reportOf env names p vs) (txt "SPCL") = none := by
  rw [dictGet_eq_none]
  unfold reportOf
  rw [List.map_append, heads_keys, items_fst hl, List.mem_append]
  rintro (h | h)
  · exact absurd h (by decide +kernel)
  · exact (hn.free _ h).2.2 rfl

end Gempak
