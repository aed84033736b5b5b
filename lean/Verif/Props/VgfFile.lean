import Verif.Proof.VgfTurn

/-!
# C54, C55, C59, C61, C67: reading back written vector graphic files
-/

namespace Gempak
variable {ν : Type}

/-- What a user can add to a file: an object from a constructor, changed by any calls. -/
def Spec.Built (e : VgElem) : Prop := ∃ n e0 ss, VgElem.make n = .ok e0 ∧ e = e0.run ss

theorem Spec.Built.ok {e : VgElem} (h : Spec.Built e) : Spec.ElemOk e := by
  obtain ⟨n, e0, ss, hn, rfl⟩ := h
  exact C56_ranges n e0 hn ss

/-- Class of the decoded object. -/
def Spec.kindOf : VgElem → String
  | .fileHeader _ _ _ => "FileHeaderElement"
  | .line _ => "LineElement"
  | .front _ => "FrontElement"
  | .specialLine _ => "SpecialLineElement"
  | .specialText _ => "SpecialTextElement"
  | .specialSymbol _ | .marker _ => "SymbolElement"

/-! ## C54 and C55 -/

/-- **C55** (and C54), exact form: the decoded file is, element by element and attribute by attribute, the table
`Spec.dElem`. Missing for the full statement: texts whose written bytes end inside a character, which make the file unreadable (`C54_unreadable`),
symbol codes outside 0 .. 2²⁴ − 1 (the constructor accepts
any), closing points and reversals (see `C55_closed_counterexample`, `C55_reversed_counterexample`). -/
theorem C55_fields_partial (env : VgEnv ν) (es : List VgElem) (hes : ∀ e ∈ es, Spec.Built e ∧ Spec.Plain e) (bytes : Bytes)
    (h : toVgf es = .ok bytes) (fuel : Nat) (hf : es.length + 1 ≤ fuel) :
    ∃ groups, openVgf env fuel bytes = .done ⟨es.map (Spec.dElem env), groups,
      some (Spec.dElem env mkFileHeader)⟩ := by
  obtain ⟨k, rfl⟩ : ∃ k, fuel = es.length + 1 + k := ⟨fuel - (es.length + 1), by omega⟩
  have := open_at env (fun e he => ⟨(hes e he).1.ok, (hes e he).2⟩) h [] k
  rw [List.append_nil] at this
  refine ⟨seenAll [] es, ?_⟩
  rw [this, vgLoop.eq_def]
  dsimp only
  rw [if_pos]
  show decide ((0 : Int) + bytes.length ≥ bytes.length) = true
  simp

/-- **C54**: one decoded element per added element, in order, of the same kind, with the header that was set. -/
theorem C54_file_partial (env : VgEnv ν) (es : List VgElem) (hes : ∀ e ∈ es, Spec.Built e ∧ Spec.Plain e) (bytes : Bytes)
    (h : toVgf es = .ok bytes) :
    ∃ s, openVgf env (es.length + 1) bytes = .done s ∧ s.elements.map (·.kind) = es.map Spec.kindOf ∧
      s.elements.map (·.hdr) = es.map (fun e => Spec.dHead env e.head) := by
  obtain ⟨g, hg⟩ := C55_fields_partial env es hes bytes h _ (le_refl _)
  refine ⟨_, hg, ?_, ?_⟩
  · rw [List.map_map]
    exact List.map_congr_left fun e _ => by cases e <;> rfl
  · rw [List.map_map]
    exact List.map_congr_left fun e _ => by cases e <;> rfl

/-- **C54** fails for all files with a special text whose written bytes end inside a character: they cannot be read. -/
theorem C54_unreadable (env : VgEnv ν) (es : List VgElem) (hes : ∀ e ∈ es, Spec.Built e ∧ (Spec.Plain e ∨ Spec.BadText e))
    (hbad : ∃ e ∈ es, Spec.BadText e) (bytes : Bytes) (h : toVgf es = .ok bytes) (fuel : Nat) (hf : es.length + 1 ≤ fuel) :
    openVgf env fuel bytes = .raised .unicodeError := by
  obtain ⟨k, rfl⟩ : ∃ k, fuel = es.length + 1 + k := ⟨fuel - (es.length + 1), by omega⟩
  exact open_fails env (fun e he => ⟨(hes e he).1.ok, (hes e he).2⟩) hbad h k

/-- The coordinates of a line, front or special line as the user set them, in single precision, with the decoder's rounding. -/
def Spec.coords (env : VgEnv ν) : VgElem → Option (List ν × List ν)
  | .line l => some (l.base.lat.map env.array, l.base.lon.map env.array)
  | .specialLine l => some (l.base.lat.map env.array, l.base.lon.map env.array)
  | .front f => some (f.lat.map env.array, f.lon.map env.array)
  | _ => none

/-- Not closed and not reversed. -/
def Spec.Straight : VgElem → Prop
  | .line l => l.base.head.closed = 0
  | .specialLine l => l.base.head.closed = 0 ∧ l.direction = 1
  | _ => True

theorem attr_lat_lon (env : VgEnv ν) (e : VgElem) (hs : Spec.Straight e) (p : List ν × List ν)
    (hp : Spec.coords env e = some p) :
    (Spec.dElem env e).attrs.lookup "lat" = some (.arr p.1) ∧ (Spec.dElem env e).attrs.lookup "lon" = some (.arr p.2) := by
  have hring : ∀ xs : List ν, Spec.ring 0 xs = xs := by
    intro xs; unfold Spec.ring; split <;> simp
  cases e with
  | line l =>
    have hp := Option.some.inj hp
    subst hp
    have e1 : (Spec.dElem env (.line l)).attrs.lookup "lat" =
      some (.arr (Spec.ring l.base.head.closed (l.base.lat.map env.array))) := rfl
    have e2 : (Spec.dElem env (.line l)).attrs.lookup "lon" =
      some (.arr (Spec.ring l.base.head.closed (l.base.lon.map env.array))) := rfl
    have hs : l.base.head.closed = 0 := hs
    rw [e1, e2, hs, hring, hring]
    exact ⟨rfl, rfl⟩
  | specialLine l =>
    have hp := Option.some.inj hp
    subst hp
    have e1 : (Spec.dElem env (.specialLine l)).attrs.lookup "lat" =
      some (.arr (Spec.oriented l.direction (Spec.ring l.base.head.closed (l.base.lat.map env.array)))) := rfl
    have e2 : (Spec.dElem env (.specialLine l)).attrs.lookup "lon" =
      some (.arr (Spec.oriented l.direction (Spec.ring l.base.head.closed (l.base.lon.map env.array)))) := rfl
    rw [e1, e2, hs.1, hs.2, hring, hring]
    exact ⟨rfl, rfl⟩
  | front f =>
    have hp := Option.some.inj hp
    subst hp
    exact ⟨rfl, rfl⟩
  | _ => cases hp

/-- **C55** for coordinates: without closing and reversal they come back as set. -/
theorem C55_coordinates_partial (env : VgEnv ν) (es : List VgElem) (hes : ∀ e ∈ es, Spec.Built e ∧ Spec.Plain e)
    (bytes : Bytes) (h : toVgf es = .ok bytes) (i : Nat) (e : VgElem) (hi : es[i]? = some e) (hs : Spec.Straight e)
    (p : List ν × List ν) (hp : Spec.coords env e = some p) :
    ∃ s d, openVgf env (es.length + 1) bytes = .done s ∧ s.elements[i]? = some d ∧ d.attrs.lookup "lat" = some (.arr p.1) ∧
      d.attrs.lookup "lon" = some (.arr p.2) := by
  obtain ⟨g, hg⟩ := C55_fields_partial env es hes bytes h _ (le_refl _)
  have ha := attr_lat_lon env e hs p hp
  exact ⟨_, _, hg, by rw [List.getElem?_map, hi]; rfl, ha⟩

/-! ## C67 -/

theorem specialText_set_text {t t' : VgSpecialText} {s : VgSet} (h : t.set s = .ok t') : t'.text = t.text := by
  cases s with
  | head s =>
    have h : (do .ok { t with head := ← t.head.set s }) = Except.ok t' := h
    obtain ⟨_, _, h⟩ := bind_inv h
    have := Except.ok.inj h
    subst this; rfl
  | points v => obtain ⟨_, rfl⟩ := guardSet_ok (show t.setSize v = .ok t' from h); rfl
  | textColor v => obtain ⟨_, rfl⟩ := guardSet_ok (show t.setTextColor v = .ok t' from h); rfl
  | textFlag v => obtain ⟨_, rfl⟩ := guardSet_ok (show t.setTextFlag v = .ok t' from h); rfl
  | font v => obtain ⟨_, rfl⟩ := guardSet_ok (show t.setFont v = .ok t' from h); rfl
  | align v => obtain ⟨_, rfl⟩ := guardSet_ok (show t.setAlign v = .ok t' from h); rfl
  | textType v => obtain ⟨_, rfl⟩ := guardSet_ok (show t.setTextType v = .ok t' from h); rfl
  | edgecolor v => obtain ⟨_, rfl⟩ := guardSet_ok (show t.setEdgecolor v = .ok t' from h); rfl
  | facecolor v => obtain ⟨_, rfl⟩ := guardSet_ok (show t.setFacecolor v = .ok t' from h); rfl
  | turbulence v =>
    have h : t.setTurbulence v = .ok t' := h
    unfold VgSpecialText.setTurbulence at h
    repeat' split at h
    all_goals first
      | (obtain ⟨_, rfl⟩ := guardSet_ok h; rfl)
      | (have := Except.ok.inj h; subst this; rfl)
      | cases h
  | flip => cases h
  | _ => have := Except.ok.inj h; subst this; rfl

theorem specialText_run (ss : List VgSet) : ∀ t : VgSpecialText, ∃ t', (VgElem.specialText t).run ss = .specialText t' ∧
    t'.text = t.text := by
  induction ss with
  | nil => exact fun t => ⟨t, rfl, rfl⟩
  | cons s ss ih =>
    intro t
    have hstep : ∃ t', ((VgElem.specialText t).step s).1 = .specialText t' ∧ t'.text = t.text := by
      unfold VgElem.step
      have hset : (VgElem.specialText t).set s = (t.set s).map .specialText := rfl
      cases hx : t.set s with
      | error x => rw [hset, hx]; exact ⟨t, rfl, rfl⟩
      | ok t' => rw [hset, hx]; exact ⟨t', rfl, specialText_set_text hx⟩
    obtain ⟨t', e1, e2⟩ := hstep
    obtain ⟨t'', f1, f2⟩ := ih t'
    refine ⟨t'', ?_, f2.trans e2⟩
    show (VgElem.run ((VgElem.specialText t).step s).1 ss) = _
    rw [e1, f1]

theorem mkSpecialText_text {lon lat : F32} {text : Text} {tc sz tt fo al : Int} {ec fc : Option Int} {ro : F32}
    {ox oy tu : Int} {t : VgSpecialText} (h : mkSpecialText lon lat text tc sz tt fo al ec fc ro ox oy tu = .ok t) :
    t.text = text ++ [Char.ofNat 0] ∧ text.length ≤ 254 := by
  unfold mkSpecialText at h
  dsimp only at h
  obtain ⟨_, _, h⟩ := bind_inv h
  obtain ⟨_, _, h⟩ := bind_inv h
  obtain ⟨_, _, h⟩ := bind_inv h
  obtain ⟨_, _, h⟩ := bind_inv h
  obtain ⟨_, _, h⟩ := bind_inv h
  obtain ⟨_, _, h⟩ := bind_inv h
  obtain ⟨_, _, h⟩ := bind_inv h
  split at h
  · cases h
  · obtain ⟨t1, h1, h⟩ := bind_inv h
    obtain ⟨t2, h2, h⟩ := bind_inv h
    obtain ⟨t3, h3, h⟩ := bind_inv h
    obtain ⟨t4, h4, h⟩ := bind_inv h
    have := Except.ok.inj h
    subst this
    have k1 := specialText_set_text (s := .textType tt) h1
    have k2 := specialText_set_text (s := .edgecolor (ec.getD tc)) h2
    have k3 := specialText_set_text (s := .facecolor (fc.getD tc)) h3
    have k4 := specialText_set_text (s := .turbulence tu) h4
    refine ⟨?_, by omega⟩
    show t4.text = _
    rw [k4, k3, k2, k1]

theorem takeWhile_nul (s : Text) (h : Char.ofNat 0 ∉ s) :
    (s ++ [Char.ofNat 0]).takeWhile (· ≠ Char.ofNat 0) = s := by
  induction s with
  | nil => rfl
  | cons c s ih =>
    have hc : c ≠ Char.ofNat 0 := fun e => h (by simp [e])
    rw [List.cons_append, List.takeWhile_cons]
    simp only [ne_eq, hc, not_false_eq_true, decide_true, if_true]
    have := ih (fun hm => h (by simp [hm]))
    simp only [ne_eq] at this
    rw [this]

/-- Two dollar signs in a row nowhere. -/
def Spec.NoBreak : Text → Prop
  | '$' :: '$' :: _ => False
  | _ :: s => Spec.NoBreak s
  | [] => True

theorem dollarBreaks_none (s : Text) (h : Spec.NoBreak s) : dollarBreaks s = s := by
  fun_induction dollarBreaks s with
  | case1 s ih => exact absurd h (by simp [Spec.NoBreak])
  | case2 c s hc ih =>
    congr 1
    apply ih
    unfold Spec.NoBreak at h
    split at h
    · exact absurd h id
    · rename_i heq
      injection heq with e1 e2
      subst e2
      exact h
    · rename_i heq; cases heq
  | case3 => rfl

/-- **C67**, exact form for every text: a special text made with the text `s`, whatever is set on it afterwards and whatever stands
before and after it in a file that can be read, is read back with what is kept of `s` and a NUL in as many bytes as they have characters, with line
breaks for `$$` and without blanks at the ends. -/
theorem C67_exact (env : VgEnv ν) (lon lat : F32) (s : Text) (tc sz tt fo al : Int) (ec fc : Option Int) (ro : F32)
    (ox oy tu : Int) (t : VgSpecialText) (ht : mkSpecialText lon lat s tc sz tt fo al ec fc ro ox oy tu = .ok t)
    (ss : List VgSet) (es : List VgElem) (hes : ∀ e ∈ es, Spec.Built e ∧ Spec.Plain e) (bytes : Bytes)
    (h : toVgf es = .ok bytes) (i : Nat) (hi : es[i]? = some ((VgElem.specialText t).run ss)) :
    ∃ k st d, Spec.keptText (s ++ [Char.ofNat 0]) (s.length + 1) = some k ∧ openVgf env (es.length + 1) bytes = .done st ∧
      st.elements[i]? = some d ∧ d.attrs.lookup "text" = some (.text (strip (dollarBreaks k))) := by
  obtain ⟨g, hg⟩ := C55_fields_partial env es hes bytes h _ (le_refl _)
  obtain ⟨t', e1, e2⟩ := specialText_run ss t
  have e3 : t'.text = s ++ [Char.ofNat 0] := by rw [e2, (mkSpecialText_text ht).1]
  have hp := (hes _ (List.mem_of_getElem? hi)).2
  rw [e1] at hp
  obtain ⟨k, hk⟩ := Option.isSome_iff_exists.1 (show (Spec.keptText t'.text t'.text.length).isSome from hp)
  have hk' := hk
  rw [e3, List.length_append, List.length_singleton] at hk'
  refine ⟨k, _, _, hk', hg, by rw [List.getElem?_map, hi]; rfl, ?_⟩
  rw [e1]
  have : (Spec.dElem env (.specialText t')).attrs.lookup "text" =
      some (.text (strip (dollarBreaks ((Spec.keptText t'.text t'.text.length).getD [])))) := rfl
  rw [this, hk]
  rfl

/-- **C67** for ASCII texts: a special text made with the text `s`, whatever is set on it afterwards and whatever stands
before and after it in the file, is read back with the text `s` without blanks at the ends.  Missing: texts beyond ASCII
(`C67_counterexample`, `C67_exact`) and texts with `$$`, which stands for a line break in the decoder (`C67_dollar_counterexample`). -/
theorem C67_text_partial (env : VgEnv ν) (lon lat : F32) (s : Text) (tc sz tt fo al : Int) (ec fc : Option Int) (ro : F32)
    (ox oy tu : Int) (t : VgSpecialText) (ht : mkSpecialText lon lat s tc sz tt fo al ec fc ro ox oy tu = .ok t)
    (ss : List VgSet) (es : List VgElem) (hes : ∀ e ∈ es, Spec.Built e ∧ Spec.Plain e) (bytes : Bytes)
    (h : toVgf es = .ok bytes) (i : Nat) (hi : es[i]? = some ((VgElem.specialText t).run ss))
    (hasc : ∀ c ∈ s, c.toNat < 128) (hnul : Char.ofNat 0 ∉ s) (hd : Spec.NoBreak s) :
    ∃ st d, openVgf env (es.length + 1) bytes = .done st ∧ st.elements[i]? = some d ∧
      d.attrs.lookup "text" = some (.text (strip s)) := by
  obtain ⟨k, st, d, h1, h2, h3, h4⟩ := C67_exact env lon lat s tc sz tt fo al ec fc ro ox oy tu t ht ss es hes bytes h i hi
  rw [kept_ascii _ _ (by
    intro c hc
    rcases List.mem_append.1 hc with hc | hc
    · exact hasc c hc
    · rw [List.mem_singleton.1 hc]; decide) (by simp), takeWhile_nul s hnul] at h1
  obtain rfl := Option.some.inj h1
  exact ⟨st, d, h2, h3, by rw [h4, dollarBreaks_none s hd]⟩

/-! ## C59 -/

/-- Byte `i`. -/
def Spec.byteAt (t : Bytes) (i : Nat) : Nat := (t.getD i 0).toNat

/-- Big-endian two's complement word at byte `i`. -/
def Spec.wordAt (t : Bytes) (i : Nat) : Int :=
  let n := ((Spec.byteAt t i * 256 + Spec.byteAt t (i + 1)) * 256 + Spec.byteAt t (i + 2)) * 256 + Spec.byteAt t (i + 3)
  if n < 2 ^ 31 then n else (n : Int) - 2 ^ 32

/-- The first bytes cannot be the header of a record of a file of `size` bytes: delete flag not 0 or 1, unknown type or class,
colour not within 0 .. 32, record longer than the file. -/
def Spec.BadRecord (size : Nat) (t : Bytes) : Prop :=
  1 < Spec.byteAt t 0 ∨ Spec.byteAt t 1 = 0 ∨ 43 < Spec.byteAt t 1 ∨ Spec.byteAt t 1 = 3 ∨ 16 < Spec.byteAt t 2 ∨
    Spec.wordAt t 12 < 0 ∨ 32 < Spec.wordAt t 12 ∨ Spec.wordAt t 16 < 0 ∨ 32 < Spec.wordAt t 16 ∨
    (size : Int) < Spec.wordAt t 20

theorem be1 (a : UInt8) : decNat .big [a] = a.toNat := by simp [decNat, leToNat]

theorem be4 (a b c d : UInt8) : decNat .big [a, b, c, d] = ((a.toNat * 256 + b.toNat) * 256 + c.toNat) * 256 + d.toNat := by
  simp [decNat, leToNat]; ring

theorem cons_of_length {n : Nat} {t : Bytes} (h : n + 1 ≤ t.length) : ∃ a r, t = a :: r ∧ n ≤ r.length := by
  cases t with
  | nil => simp at h
  | cons a r => exact ⟨a, r, rfl, by simpa using h⟩

/-- Layout of the header as `NamedStruct` sees it. -/
def headInfo (env : VgEnv ν) : List (FieldInfo (DVal ν)) := vgfHeaderInfo.map (DField.info env)

theorem headInfo_fmts (env : VgEnv ν) : (headInfo env).filterMap (·.fmt) = headFmts := rfl

theorem readHead_eq (env : VgEnv ν) (b : IOBuffer) : readRec env .big vgfHeaderInfo b =
      ((Gempak.unpackFrom .big headFmts b.data b.offset).bind (NamedStruct.create ⟨headInfo env, .big, dInj⟩)).bind fun vs =>
          .ok (((headInfo env).filterMap (·.name)).zip vs, adv b 40) := by
  have hc : (vgfHeaderInfo.map (DField.info env)).all (·.conv.isSome) = false := rfl
  have hsz : fmtSize headFmts = 40 := rfl
  have hk : b.skip (some ((40 : Nat) : Int)) = adv b 40 := rfl
  rw [← hk, ← hsz, ← headInfo_fmts env]
  unfold readRec dStruct NamedStruct.make
  rw [hc]
  rfl

theorem headFrom {b : IOBuffer} {pre t : Bytes} (hb : At b pre t) : Gempak.unpackFrom .big headFmts b.data b.offset =
    if 40 ≤ t.length then .ok (unpackItems .big headFmts t) else .error .structError := by
  unfold Gempak.unpackFrom
  have h0 : ¬ b.offset < 0 := by rw [hb.offset]; omega
  have h1 : b.offset.toNat = pre.length := by rw [hb.offset]; simp
  have h2 : fmtSize headFmts = 40 := rfl
  dsimp only
  rw [if_neg h0, if_neg h0, h1, hb.data, h2, List.drop_left, List.length_append]
  by_cases h : 40 ≤ t.length
  · rw [if_pos h, if_pos (by omega)]
  · rw [if_neg h, if_neg (by omega)]

/-- What the header reader makes of any bytes. -/
theorem readHeader_any (env : VgEnv ν) {b : IOBuffer} {pre t : Bytes} (hb : At b pre t) (ht : 40 ≤ t.length) :
    ∃ h, readHeader env b = .ok (h, adv b 40) ∧ h.delete = Spec.byteAt t 0 ∧ h.vgType = Spec.byteAt t 1 ∧
      h.vgClass = Spec.byteAt t 2 ∧ h.groupType = Spec.byteAt t 7 ∧ h.majorColor = Spec.wordAt t 12 ∧
      h.minorColor = Spec.wordAt t 16 ∧ h.recordSize = Spec.wordAt t 20 := by
  have hu := headFrom hb
  rw [if_pos ht] at hu
  have hr := readHead_eq env b
  rw [hu] at hr
  clear hu
  obtain ⟨a0, t1, rfl, k1⟩ := cons_of_length ht
  obtain ⟨a1, t2, rfl, k2⟩ := cons_of_length k1
  obtain ⟨a2, t3, rfl, k3⟩ := cons_of_length k2
  obtain ⟨a3, t4, rfl, k4⟩ := cons_of_length k3
  obtain ⟨a4, t5, rfl, k5⟩ := cons_of_length k4
  obtain ⟨a5, t6, rfl, k6⟩ := cons_of_length k5
  obtain ⟨a6, t7, rfl, k7⟩ := cons_of_length k6
  obtain ⟨a7, t8, rfl, k8⟩ := cons_of_length k7
  obtain ⟨a8, t9, rfl, k9⟩ := cons_of_length k8
  obtain ⟨a9, t10, rfl, k10⟩ := cons_of_length k9
  obtain ⟨a10, t11, rfl, k11⟩ := cons_of_length k10
  obtain ⟨a11, t12, rfl, k12⟩ := cons_of_length k11
  obtain ⟨a12, t13, rfl, k13⟩ := cons_of_length k12
  obtain ⟨a13, t14, rfl, k14⟩ := cons_of_length k13
  obtain ⟨a14, t15, rfl, k15⟩ := cons_of_length k14
  obtain ⟨a15, t16, rfl, k16⟩ := cons_of_length k15
  obtain ⟨a16, t17, rfl, k17⟩ := cons_of_length k16
  obtain ⟨a17, t18, rfl, k18⟩ := cons_of_length k17
  obtain ⟨a18, t19, rfl, k19⟩ := cons_of_length k18
  obtain ⟨a19, t20, rfl, k20⟩ := cons_of_length k19
  obtain ⟨a20, t21, rfl, k21⟩ := cons_of_length k20
  obtain ⟨a21, t22, rfl, k22⟩ := cons_of_length k21
  obtain ⟨a22, t23, rfl, k23⟩ := cons_of_length k22
  obtain ⟨a23, t24, rfl, k24⟩ := cons_of_length k23
  have hv : unpackItems .big headFmts (a0 :: a1 :: a2 :: a3 :: a4 :: a5 :: a6 :: a7 :: a8 :: a9 :: a10 :: a11 :: a12 :: a13 :: a14 :: a15 :: a16 :: a17 :: a18 :: a19 :: a20 :: a21 :: a22 :: a23 :: t24) =
      [.int (decNat .big [a0]), .int (decNat .big [a1]), .int (decNat .big [a2]),
        .int (if decNat .big [a3] < 128 then (decNat .big [a3] : Int) else (decNat .big [a3] : Int) - 256),
        .int (decNat .big [a4]), .int (decNat .big [a5]), .int (decNat .big [a6]), .int (decNat .big [a7]),
        .int (toI32 (decNat .big [a8, a9, a10, a11])), .int (toI32 (decNat .big [a12, a13, a14, a15])),
        .int (toI32 (decNat .big [a16, a17, a18, a19])), .int (toI32 (decNat .big [a20, a21, a22, a23])),
        .flt (BitVec.ofNat 32 (decNat .big (t24.take 4))), .flt (BitVec.ofNat 32 (decNat .big ((t24.drop 4).take 4))),
        .flt (BitVec.ofNat 32 (decNat .big (((t24.drop 4).drop 4).take 4))),
        .flt (BitVec.ofNat 32 (decNat .big ((((t24.drop 4).drop 4).drop 4).take 4)))] := rfl
  rw [hv] at hr
  clear hv
  have hw : WellFormed (headInfo env) := wellFormed_info env _ rfl
  have hcr := fun items hl => create_eq ⟨headInfo env, .big, dInj⟩ hw items hl
  simp only [Except.bind] at hr
  rw [hcr _ rfl] at hr
  refine ⟨_, by unfold readHeader; rw [rd_ok hr]; rfl, ?_, ?_, ?_, ?_, ?_, ?_, ?_⟩
  · exact congrArg Nat.cast (be1 a0)
  · exact congrArg Nat.cast (be1 a1)
  · exact congrArg Nat.cast (be1 a2)
  · exact congrArg Nat.cast (be1 a7)
  · exact congrArg toI32 (be4 a12 a13 a14 a15)
  · exact congrArg toI32 (be4 a16 a17 a18 a19)
  · exact congrArg toI32 (be4 a20 a21 a22 a23)

theorem invalid_of_bad {h : DHdr ν} {n : Nat} {t : Bytes} (hbad : Spec.BadRecord n t) (h0 : h.delete = Spec.byteAt t 0)
    (h1 : h.vgType = Spec.byteAt t 1) (h2 : h.vgClass = Spec.byteAt t 2) (h3 : h.majorColor = Spec.wordAt t 12)
    (h4 : h.minorColor = Spec.wordAt t 16) (h5 : h.recordSize = Spec.wordAt t 20) : invalidHeader n h = true := by
  unfold invalidHeader validType validClass
  rw [h0, h1, h2, h3, h4, h5]
  simp only [Bool.or_eq_true, decide_eq_true_eq, Bool.not_eq_true', decide_eq_false_iff_not]
  unfold Spec.BadRecord at hbad
  omega

/-- **C59** for files of added elements followed by bytes that are no record: exactly the added elements, no exception. -/
theorem C59_stops_partial (env : VgEnv ν) (es : List VgElem) (hes : ∀ e ∈ es, Spec.Built e ∧ Spec.Plain e) (bytes : Bytes)
    (h : toVgf es = .ok bytes) (tail : Bytes) (hl : 40 ≤ tail.length)
    (hbad : Spec.BadRecord (bytes.length + tail.length) tail) (fuel : Nat) (hf : es.length + 2 ≤ fuel) :
    ∃ groups, openVgf env fuel (bytes ++ tail) = .done ⟨es.map (Spec.dElem env), groups,
      some (Spec.dElem env mkFileHeader)⟩ := by
  obtain ⟨k, rfl⟩ : ∃ k, fuel = es.length + 1 + (k + 1) := ⟨fuel - (es.length + 2), by omega⟩
  rw [open_at env (fun e he => ⟨(hes e he).1.ok, (hes e he).2⟩) h tail (k + 1)]
  refine ⟨seenAll [] es, ?_⟩
  have hat : At (adv (IOBuffer.ofSource (bytes ++ tail)) bytes.length) bytes tail :=
    ⟨rfl, by show (0 : Int) + bytes.length = _; simp⟩
  obtain ⟨hd, hr, h0, h1, h2, _, h3, h4, h5⟩ := readHeader_any env hat hl
  have hne : (adv (IOBuffer.ofSource (bytes ++ tail)) bytes.length).atEnd = false := by
    unfold IOBuffer.atEnd
    rw [hat.offset, hat.data]
    simp only [List.length_append, decide_eq_false_iff_not]
    omega
  have hinv : invalidHeader (adv (IOBuffer.ofSource (bytes ++ tail)) bytes.length).data.length hd = true := by
    refine invalid_of_bad ?_ h0 h1 h2 h3 h4 h5
    rw [hat.data, List.length_append]
    exact hbad
  rw [vgLoop, hne]
  have ht : ∀ s : VgState ν, vgTurn env s (adv (IOBuffer.ofSource (bytes ++ tail)) bytes.length) = .ok (.stop, adv (adv
      (IOBuffer.ofSource (bytes ++ tail)) bytes.length) 40) := by
    intro s
    unfold vgTurn
    simp only [hr, bind, Except.bind, hinv, if_true]
  simp only [Bool.false_eq_true, if_false, ht]

/-- C59 fails when fewer bytes follow than a header has: `struct.error`. -/
theorem C59_short_tail (env : VgEnv ν) (es : List VgElem) (hes : ∀ e ∈ es, Spec.Built e ∧ Spec.Plain e) (bytes : Bytes)
    (h : toVgf es = .ok bytes) (tail : Bytes) (h0 : 0 < tail.length) (hl : tail.length < 40) (fuel : Nat)
    (hf : es.length + 2 ≤ fuel) : openVgf env fuel (bytes ++ tail) = .raised .structError := by
  obtain ⟨k, rfl⟩ : ∃ k, fuel = es.length + 1 + (k + 1) := ⟨fuel - (es.length + 2), by omega⟩
  rw [open_at env (fun e he => ⟨(hes e he).1.ok, (hes e he).2⟩) h tail (k + 1)]
  have hat : At (adv (IOBuffer.ofSource (bytes ++ tail)) bytes.length) bytes tail :=
    ⟨rfl, by show (0 : Int) + bytes.length = _; simp⟩
  generalize hB : adv (IOBuffer.ofSource (bytes ++ tail)) bytes.length = b at hat ⊢
  have hne : b.atEnd = false := by
    unfold IOBuffer.atEnd
    rw [hat.offset, hat.data]
    simp only [List.length_append, decide_eq_false_iff_not]
    omega
  have hs : readRec env .big vgfHeaderInfo b = .error .structError := by
    rw [readHead_eq env, headFrom hat, if_neg (by omega)]
    rfl
  have hr : readHeader env b = .error .structError := by
    unfold readHeader
    show Except.bind (readRec env .big vgfHeaderInfo b) _ = _
    rw [hs]; rfl
  rw [vgLoop, hne]
  simp only [Bool.false_eq_true, if_false, vgTurn, hr, bind, Except.bind]

/-! ## What is not read back as set -/

/-- C55 is false as it stands: a closed line of three points or more comes back with the first point repeated at the end. -/
theorem C55_closed_counterexample (env : VgEnv ν) (es : List VgElem) (hes : ∀ e ∈ es, Spec.Built e ∧ Spec.Plain e)
    (bytes : Bytes) (h : toVgf es = .ok bytes) (i : Nat) (l : VgLine) (hi : es[i]? = some (.line l))
    (hc : l.base.head.closed = 1) (x y z : F32) (r : List F32) (hl : l.base.lat = x :: y :: z :: r) :
    ∃ s d, openVgf env (es.length + 1) bytes = .done s ∧ s.elements[i]? = some d ∧
      d.attrs.lookup "number_points" = some (.int (r.length + 3 : Nat)) ∧
      d.attrs.lookup "lat" = some (.arr (l.base.lat.map env.array ++ [env.array x])) := by
  obtain ⟨g, hg⟩ := C55_fields_partial env es hes bytes h _ (le_refl _)
  refine ⟨_, _, hg, by rw [List.getElem?_map, hi]; rfl, ?_, ?_⟩
  · have e1 : (Spec.dElem env (.line l)).attrs.lookup "number_points" = some (.int l.base.lon.length) := rfl
    have hp := (hes _ (List.mem_of_getElem? hi)).1.ok.points
    have : l.base.lon.length = r.length + 3 := by
      have h1 := hp.lon
      have h2 := hp.lat
      rw [hl] at h2
      simp only [List.length_cons] at h2
      omega
    rw [e1, this]
  · have e1 : (Spec.dElem env (.line l)).attrs.lookup "lat" =
      some (.arr (Spec.ring l.base.head.closed (l.base.lat.map env.array))) := rfl
    rw [e1, hc, hl]
    rfl

/-- C55 is false as it stands: an open special line of direction −1 comes back with its points in reverse order. -/
theorem C55_reversed_counterexample (env : VgEnv ν) (es : List VgElem) (hes : ∀ e ∈ es, Spec.Built e ∧ Spec.Plain e)
    (bytes : Bytes) (h : toVgf es = .ok bytes) (i : Nat) (l : VgSpecialLine) (hi : es[i]? = some (.specialLine l))
    (hc : l.base.head.closed = 0) (hd : l.direction = -1) :
    ∃ s d, openVgf env (es.length + 1) bytes = .done s ∧ s.elements[i]? = some d ∧
      d.attrs.lookup "lat" = some (.arr (l.base.lat.map env.array).reverse) := by
  obtain ⟨g, hg⟩ := C55_fields_partial env es hes bytes h _ (le_refl _)
  refine ⟨_, _, hg, by rw [List.getElem?_map, hi]; rfl, ?_⟩
  have e1 : (Spec.dElem env (.specialLine l)).attrs.lookup "lat" =
      some (.arr (Spec.oriented l.direction (Spec.ring l.base.head.closed (l.base.lat.map env.array)))) := rfl
  have hring : ∀ xs : List ν, Spec.ring 0 xs = xs := by
    intro xs; unfold Spec.ring; split <;> simp
  rw [e1, hc, hd, hring]
  rfl

/-- A decoder that ignores numbers. -/
def env0 : VgEnv Unit := { scalar := fun _ _ => (), array := fun _ => (), tca := fun _ => .error .valueError }

/-- The exception met when the elements made by some calls are written and read. -/
def raisedOn (ns : List VgNew) (fuel : Nat) : Option PyErr :=
  match ns.mapM VgElem.make with
  | .ok es => match toVgf es with
    | .ok b => match openVgf env0 fuel b with
      | .raised x => some x
      | _ => none
    | _ => none
  | _ => none

/-- The texts of the elements after writing and reading. -/
def textsOf (ns : List VgNew) (fuel : Nat) : Option (List (Option Text)) :=
  match ns.mapM VgElem.make with
  | .ok es => match toVgf es with
    | .ok b => match openVgf env0 fuel b with
      | .done s => some (s.elements.map fun d => match d.attrs.lookup "text" with | some (.text t) => some t | _ => none)
      | _ => none
    | _ => none
  | _ => none

/-- C54 and C67 are false as they stand: a file holding the special text `éé` cannot be read at all. -/
theorem C67_counterexample :
    raisedOn [.specialText 0 0 (txt "éé") 1 14 0 1 0 none none 0 0 0 0] 5 = some .unicodeError := by decide +kernel

/-- Further: `ééab` comes back without its last letter. -/
theorem C67_cut_counterexample :
    textsOf [.specialText 0 0 (txt "ééab") 1 14 0 1 0 none none 0 0 0 0] 5 = some [some (txt "ééa")] := by decide +kernel

/-- Two dollar signs come back as a line break. -/
theorem C67_dollar_counterexample :
    textsOf [.specialText 0 0 (txt "a$$b") 1 14 0 1 0 none none 0 0 0 0] 5 = some [some (txt "a\nb")] := by decide +kernel

/-! ## Groups of a file (C61) -/

/-- What holds of the groups while reading. -/
def Spec.GroupsOk (gs : List Int) (es : List (DElem ν)) : Prop :=
  gs.Nodup ∧ 0 ∉ gs ∧ ∀ e ∈ es, e.hdr.groupType ≠ 0 → e.hdr.groupType ∈ gs

theorem vgTurn_groups (env : VgEnv ν) {s s' : VgState ν} {b b' : IOBuffer} (h : vgTurn env s b = .ok (.next s', b'))
    (hs : Spec.GroupsOk s.groups s.elements) : Spec.GroupsOk s'.groups s'.elements := by
  obtain ⟨g1, g2, g3⟩ := hs
  unfold vgTurn at h
  obtain ⟨⟨hd, b1⟩, hr, h⟩ := bind_inv h
  dsimp only at h
  split at h
  · cases Except.ok.inj h
  · have key : Spec.GroupsOk (if hd.groupType ∉ s.groups ∧ hd.groupType ≠ 0 ∧ hd.vgClass ≠ 0 then
        s.groups ++ [hd.groupType] else s.groups) s.elements ∧ (hd.vgClass ≠ 0 → hd.groupType ≠ 0 →
        hd.groupType ∈ (if hd.groupType ∉ s.groups ∧ hd.groupType ≠ 0 ∧ hd.vgClass ≠ 0 then
        s.groups ++ [hd.groupType] else s.groups)) := by
      split
      · rename_i hc
        refine ⟨⟨?_, ?_, ?_⟩, fun _ _ => by simp⟩
        · rw [List.nodup_append]
          refine ⟨g1, by simp, ?_⟩
          intro a ha c hc'
          rw [List.mem_singleton] at hc'
          rintro rfl
          exact hc.1 (hc' ▸ ha)
        · intro h0
          rw [List.mem_append, List.mem_singleton] at h0
          rcases h0 with h0 | h0
          · exact g2 h0
          · exact hc.2.1 h0.symm
        · intro e he h0
          exact List.mem_append_left _ (g3 e he h0)
      · rename_i hc
        refine ⟨⟨g1, g2, g3⟩, fun c1 c2 => ?_⟩
        by_contra h0
        exact hc ⟨h0, c2, c1⟩
    generalize (if hd.groupType ∉ s.groups ∧ hd.groupType ≠ 0 ∧ hd.vgClass ≠ 0 then
        s.groups ++ [hd.groupType] else s.groups) = gs at key h
    obtain ⟨⟨k1, k2, k3⟩, k4⟩ := key
    split at h
    · obtain ⟨pb, _, h⟩ := bind_inv h
      have h := Except.ok.inj h
      simp only [Prod.mk.injEq, VgTurn.next.injEq] at h
      obtain ⟨rfl, _⟩ := h
      exact ⟨k1, k2, k3⟩
    · obtain ⟨⟨p, b2⟩, hp, h⟩ := bind_inv h
      have h := Except.ok.inj h
      simp only [Prod.mk.injEq, VgTurn.next.injEq] at h
      obtain ⟨rfl, _⟩ := h
      refine ⟨k1, k2, ?_⟩
      intro e he h0
      rw [List.mem_append] at he
      rcases he with he | he
      · exact k3 e he h0
      · obtain ⟨q, hq, rfl⟩ := List.mem_map.1 he
        refine k4 ?_ h0
        intro hz
        have hz' : hd.vgClass = 0 := hz
        have : decodeBody env hd b1 = .ok ([], b1.skip (some (hd.recordSize - vgfHeaderSize))) := by
          unfold decodeBody
          simp [hz']
          rfl
        rw [this] at hp
        have := (Prod.mk.inj (Except.ok.inj hp)).1
        rw [← this] at hq
        cases hq

theorem vgLoop_groups (env : VgEnv ν) (fuel : Nat) : ∀ (b : IOBuffer) (s s' : VgState ν),
    vgLoop env fuel b s = .done s' → Spec.GroupsOk s.groups s.elements → Spec.GroupsOk s'.groups s'.elements := by
  induction fuel with
  | zero =>
    intro b s s' h hs
    rw [vgLoop.eq_def] at h
    dsimp only at h
    split at h
    · cases h; exact hs
    · cases h
  | succ n ih =>
    intro b s s' h hs
    rw [vgLoop.eq_def] at h
    dsimp only at h
    split at h
    · cases h; exact hs
    · split at h
      · cases h
      · cases h; exact hs
      · rename_i ht
        exact ih _ _ _ h (vgTurn_groups env ht hs)

/-- **C61** for the list of groups of any file that opens: no group twice, no group 0, and every group type carried by an
element is listed. -/
theorem C61_listed (env : VgEnv ν) (data : Bytes) (fuel : Nat) (s : VgState ν) (h : openVgf env fuel data = .done s) :
    s.groups.Nodup ∧ 0 ∉ s.groups ∧ ∀ e ∈ s.elements, e.hdr.groupType ≠ 0 → e.hdr.groupType ∈ s.groups :=
  vgLoop_groups env fuel _ _ _ h ⟨List.nodup_nil, by simp, by simp⟩

/-! ## Concrete cases -/

instance (e : VgElem) : Decidable (Spec.Plain e) :=
  match e with
  | .fileHeader _ _ _ => inferInstanceAs (Decidable False)
  | .line _ | .front _ | .specialLine _ => inferInstanceAs (Decidable True)
  | .specialText t => inferInstanceAs (Decidable ((Spec.keptText t.text t.text.length).isSome = true))
  | .specialSymbol s | .marker s => inferInstanceAs (Decidable (0 ≤ s.symbolCode ∧ s.symbolCode < 2 ^ 24))

theorem built_all (ns : List VgNew) : ∀ es, ns.mapM VgElem.make = .ok es → ∀ e ∈ es, Spec.Built e := by
  induction ns with
  | nil => intro es h; have := Except.ok.inj h; subst this; simp
  | cons n ns ih =>
    intro es h
    rw [List.mapM_cons] at h
    obtain ⟨x, hx, h⟩ := bind_inv h
    obtain ⟨xs, hxs, h⟩ := bind_inv h
    have := Except.ok.inj h
    subst this
    intro e he
    rcases List.mem_cons.1 he with rfl | he
    · exact ⟨n, e, [], hx, rfl⟩
    · exact ih xs hxs e he

/-- Calls as a user makes them: a line, a front, a special line, a text, a symbol and a marker. -/
def sampleCalls : List VgNew := [.line [0x3F800000#32, 0x40000000#32] [0x40400000#32, 0x3F800000#32] 5 1 0 0 1 3,
  .front [0x3F800000#32, 0x40000000#32] [0x40400000#32, 0x3F800000#32] 425 2 none 0 100 1 1,
  .specialLine [0x3F800000#32, 0x40000000#32] [0x40400000#32, 0x3F800000#32] 5 2 0 0 1 3 0 0x3F800000#32 (-1),
  .specialText 0 0 (txt " LOW ") 1 14 0 1 0 none none 0 0 0 0, .specialSymbol 0 0 13 2 1 0x3F800000#32 0 0,
  .marker 0 0 17 2 1 0x3F800000#32 0 0]

/-- The hypotheses of the round trips hold of them, and the file is written; the text comes back stripped. -/
example : ∃ es bytes, sampleCalls.mapM VgElem.make = .ok es ∧ es.length = 6 ∧ (∀ e ∈ es, Spec.Built e ∧ Spec.Plain e) ∧
    toVgf es = .ok bytes ∧ textsOf sampleCalls 7 = some [none, none, none, some (txt "LOW"), none, none] := by
  have h : (match sampleCalls.mapM VgElem.make with
    | .ok es => decide (es.length = 6) && decide (∀ e ∈ es, Spec.Plain e) && (toVgf es).toOption.isSome
    | .error _ => false) = true := by decide +kernel
  split at h
  · rename_i es hes
    simp only [Bool.and_eq_true, decide_eq_true_eq] at h
    cases hb : toVgf es with
    | error x => rw [hb] at h; exact absurd h.2 (by simp [Except.toOption])
    | ok b => exact ⟨es, b, hes, h.1.1, fun e he => ⟨built_all _ es hes e he, h.1.2 e he⟩, hb, by decide +kernel⟩
  · cases h

/-- What is kept of texts: of `ééab` all but the last letter, of `aé` the whole, of `éé` nothing. -/
example : Spec.keptText (txt "ééab" ++ [Char.ofNat 0]) 5 = some (txt "ééa") ∧ Spec.keptText (txt "aé" ++ [Char.ofNat 0]) 3 = some (txt "aé") ∧
    ¬ Spec.Whole (txt "éé" ++ [Char.ofNat 0]) := by
  unfold Spec.Whole
  decide +kernel

/-- The hypotheses of `C54_unreadable` hold of a file with a marker and the text `éé`. -/
example : ∃ es bytes, (∀ e ∈ es, Spec.Built e ∧ (Spec.Plain e ∨ Spec.BadText e)) ∧ (∃ e ∈ es, Spec.BadText e) ∧ toVgf es = .ok bytes := by
  have h : (match ([.marker 0 0 17 2 1 0x3F800000#32 0 0, .specialText 0 0 (txt "éé") 1 14 0 1 0 none none 0 0 0 0] : List VgNew).mapM VgElem.make with
    | .ok [a, .specialText t] => decide (Spec.Plain a) && decide (Spec.keptText t.text t.text.length = none) && (toVgf [a, .specialText t]).toOption.isSome
    | _ => false) = true := by decide +kernel
  split at h
  · rename_i a t hes
    simp only [Bool.and_eq_true, decide_eq_true_eq] at h
    have hb : Spec.BadText (.specialText t) := ⟨t, rfl, by unfold Spec.Whole; rw [h.1.2]; simp⟩
    cases hx : toVgf [a, .specialText t] with
    | error x => rw [hx] at h; exact absurd h.2 (by simp [Except.toOption])
    | ok b =>
      refine ⟨_, b, fun e he => ⟨built_all _ _ hes e he, ?_⟩, ⟨_, List.mem_cons_of_mem _ List.mem_cons_self, hb⟩, hx⟩
      rcases List.mem_cons.1 he with rfl | he
      · exact Or.inl h.1.1
      · rw [List.mem_singleton.1 he]; exact Or.inr hb
  · cases h

/-- A tail that is no record: forty bytes 255. -/
example : 40 ≤ (List.replicate 40 (255 : UInt8)).length ∧ Spec.BadRecord 1000 (List.replicate 40 255) :=
  ⟨by decide, Or.inl (by decide)⟩

end Gempak
