import Verif.Proof.VgfPack
import Verif.Proof.F32
import Verif.Props.VgfText
import Verif.Props.Struct
import Verif.Spec.VgfFile

/-!
# Reading back what the encoder of vector graphic files wrote
-/

namespace Gempak
variable {ν : Type}

/-- The buffer stands between `pre` and `rest`. -/
structure At (b : IOBuffer) (pre rest : Bytes) : Prop where
  data : b.data = pre ++ rest
  offset : b.offset = pre.length

/-- Advance. -/
def adv (b : IOBuffer) (n : Nat) : IOBuffer := { b with offset := b.offset + n }

theorem At.adv {b : IOBuffer} {pre x rest : Bytes} (h : At b pre (x ++ rest)) : At (adv b x.length) (pre ++ x) rest := by
  constructor
  · show b.data = _
    rw [h.data, List.append_assoc]
  · show b.offset + _ = _
    rw [h.offset, List.length_append]; push_cast; rfl

theorem adv_adv (b : IOBuffer) (m n : Nat) : adv (adv b m) n = adv b (m + n) := by
  simp only [Gempak.adv, Nat.cast_add, add_assoc]

theorem rd_ok {α β : Type} {x : Rd α} {f : α → Rd β} {b b' : IOBuffer} {a : α} (h : x b = .ok (a, b')) :
    (x >>= f) b = f a b' := by
  show Except.bind (x b) _ = _
  rw [h]; rfl

theorem rd_pure' {α β : Type} {a : α} {f : α → Rd β} {b : IOBuffer} {x : Except PyErr α} (h : x = .ok a) :
    (Rd.pure' x >>= f) b = f a b := by
  subst h; rfl

theorem mapM_of_forall₂ {α β : Type} {f : α → Except PyErr β} {l : List α} {out : List β}
    (h : List.Forall₂ (fun a b => f a = .ok b) l out) : l.mapM f = .ok out := by
  induction h with
  | nil => rfl
  | cons h1 _ ih => rw [List.mapM_cons, h1, ih]; rfl

/-- Reading a structure that was packed. -/
theorem readRec_at (env : VgEnv ν) (fs : List DField) (hw : WellFormed (fs.map (DField.info env)))
    (hc : (fs.map (DField.info env)).all (·.conv.isSome) = false) {vals : List Val} {x : Bytes}
    (hx : packFmts .big ((fs.map (DField.info env)).filterMap (·.fmt)) vals = .ok x) {b : IOBuffer} {pre rest : Bytes}
    (hb : At b pre (x ++ rest)) {vs : List (DVal ν)}
    (hv : ((named (fs.map (DField.info env))).zip (List.zipWith canon ((named (fs.map (DField.info env))).filterMap (·.fmt))
      vals)).mapM (fun (i, v) => i.apply dInj v) = .ok vs) :
    readRec env .big fs b = .ok (((fs.map (DField.info env)).filterMap (·.name)).zip vs, adv b x.length) := by
  unfold readRec dStruct NamedStruct.make
  rw [hc]
  have hfit := (packFmts_ok_iff _ _ _).1 ⟨x, hx⟩
  obtain ⟨y, hy, hlen, hun⟩ := unpackItems_packFmts .big _ vals hfit
  rw [hx] at hy
  have hy := Except.ok.inj hy
  subst hy
  have hvf := valFmts_named (fs.map (DField.info env)) hw
  have hu : Gempak.unpackFrom .big ((fs.map (DField.info env)).filterMap (·.fmt)) b.data b.offset =
      .ok (List.zipWith canon ((named (fs.map (DField.info env))).filterMap (·.fmt)) vals) := by
    unfold Gempak.unpackFrom
    have h0 : ¬ b.offset < 0 := by rw [hb.offset]; omega
    dsimp only
    rw [if_neg h0, if_neg h0]
    have h1 : b.offset.toNat = pre.length := by rw [hb.offset]; simp
    rw [h1, hb.data, if_pos (by simp only [List.length_append]; omega), List.drop_left, hun, hvf]
  have hcr : NamedStruct.create ⟨fs.map (DField.info env), .big, dInj⟩
      (List.zipWith canon ((named (fs.map (DField.info env))).filterMap (·.fmt)) vals) = .ok vs := by
    rw [create_eq _ hw, ← hv]
    rw [← hvf, List.length_zipWith, ← hfit.length_eq, Nat.min_self, hvf, named_fmt_length _ hw]
  show Except.bind (Except.bind (Gempak.unpackFrom .big ((fs.map (DField.info env)).filterMap (·.fmt)) b.data b.offset) _) _
    = _
  rw [hu]
  show Except.bind (NamedStruct.create ⟨fs.map (DField.info env), .big, dInj⟩ _) _ = _
  rw [hcr]
  have hlen' : NamedStruct.size ⟨fs.map (DField.info env), .big, (dInj : Val → DVal ν)⟩ = x.length := hlen.symm
  show Except.ok (_, b.skip (some (NamedStruct.size ⟨fs.map (DField.info env), .big, (dInj : Val → DVal ν)⟩ : Int))) = _
  rw [hlen']
  rfl

theorem wellFormed_info (env : VgEnv ν) (fs : List DField)
    (h : fs.all (fun f => match f with | .plain _ f => f.hasVal | .conv _ f _ => f.hasVal | .skip _ => true) = true) :
    WellFormed (fs.map (DField.info env)) := by
  intro i hi
  obtain ⟨f, hf, rfl⟩ := List.mem_map.1 hi
  have := List.all_eq_true.1 h f hf
  cases f with
  | plain n f => exact Or.inl ⟨n, f, rfl, rfl, this⟩
  | conv n f c => exact Or.inl ⟨n, f, rfl, rfl, this⟩
  | skip n => exact Or.inr ⟨rfl, rfl, Or.inr ⟨n, rfl⟩⟩

/-! ## The structures -/

theorem readHeader_at (env : VgEnv ν) {h : VgHead} {x : Bytes} (hx : packFmts .big headFmts (headVals h) = .ok x)
    {b : IOBuffer} {pre rest : Bytes} (hb : At b pre (x ++ rest)) :
    readHeader env b = .ok (Spec.dHead env h, adv b 40) := by
  have hl : x.length = 40 := packFmts_length hx
  have h1 := readRec_at env vgfHeaderInfo (wellFormed_info env _ rfl) rfl hx hb
    (vs := [.int h.delete, .int h.vgType, .int h.vgClass, .int h.filled, .int h.closed, .int h.smooth, .int h.version,
      .int h.groupType, .int h.groupNumber, .int h.majorColor, .int h.minorColor, .int h.recordSize,
      .num (env.scalar 2 h.minLat), .num (env.scalar 2 h.minLon), .num (env.scalar 2 h.maxLat),
      .num (env.scalar 2 h.maxLon)]) rfl
  unfold readHeader
  rw [rd_ok h1, hl]
  rfl

theorem readLine_at (env : VgEnv ν) {l : VgLine} {x : Bytes} (hx : packFmts .big lineFmts (lineVals l) = .ok x)
    {b : IOBuffer} {pre rest : Bytes} (hb : At b pre (x ++ rest)) :
    readRec env .big lineInfo b = .ok ([("number_points", .int l.base.numberPoints), ("line_type", .int l.lineType),
      ("line_type_hardware", .int l.lineTypeHardware), ("width", .int l.base.width),
      ("line_width_hardware", .int l.lineWidthHardware)], adv b x.length) :=
  readRec_at env lineInfo (wellFormed_info env _ rfl) rfl hx hb
    (vs := [.int l.base.numberPoints, .int l.lineType, .int l.lineTypeHardware, .int l.base.width,
      .int l.lineWidthHardware]) rfl

theorem readFront_at (env : VgEnv ν) {f : VgFront} {x : Bytes} (hx : packFmts .big frontFmts (frontVals f) = .ok x)
    {b : IOBuffer} {pre rest : Bytes} (hb : At b pre (x ++ rest)) :
    readRec env .big frontInfo b = .ok ([("number_points", .int f.numberPoints), ("front_code", .int f.frontCode),
      ("pip_size", .int f.pipSize), ("pip_stroke", .int f.pipStroke), ("pip_direction", .int f.pipDirection),
      ("width", .int f.width), ("label", .text (stripNull (f.label.take 4 ++ List.replicate (4 - f.label.length) 0)))],
      adv b x.length) :=
  readRec_at env frontInfo (wellFormed_info env _ rfl) rfl hx hb
    (vs := [.int f.numberPoints, .int f.frontCode, .int f.pipSize, .int f.pipStroke, .int f.pipDirection, .int f.width,
      .text (stripNull (f.label.take 4 ++ List.replicate (4 - f.label.length) 0))]) rfl

theorem readSpecialLine_at (env : VgEnv ν) {l : VgSpecialLine} {x : Bytes}
    (hx : packFmts .big specialLineFmts (specialLineVals l) = .ok x) {b : IOBuffer} {pre rest : Bytes}
    (hb : At b pre (x ++ rest)) :
    readRec env .big specialLineInfo b = .ok ([("number_points", .int l.base.numberPoints),
      ("line_type", .int l.lineType), ("stroke", .int l.stroke), ("direction", .int l.direction),
      ("line_size", .num (env.scalar 1 l.size)), ("width", .int l.base.width)], adv b x.length) :=
  readRec_at env specialLineInfo (wellFormed_info env _ rfl) rfl hx hb
    (vs := [.int l.base.numberPoints, .int l.lineType, .int l.stroke, .int l.direction, .num (env.scalar 1 l.size),
      .int l.base.width]) rfl

theorem readSpecialText_at (env : VgEnv ν) {t : VgSpecialText} {ts : F32} {x : Bytes}
    (hx : packFmts .big specialTextFmts (specialTextVals t ts) = .ok x) {b : IOBuffer} {pre rest : Bytes}
    (hb : At b pre (x ++ rest)) :
    readRec env .big specialTextInfo b = .ok ([("rotation", .num (env.scalar 1 t.rotation)),
      ("text_size", .num (env.scalar 3 ts)), ("text_type", .int t.textType), ("turbulence_symbol", .int t.turbulenceSymbol),
      ("font", .int t.font), ("text_flag", .int t.textFlag), ("width", .int t.width), ("text_color", .int t.textColor),
      ("line_color", .int t.edgecolor), ("fill_color", .int t.facecolor), ("align", .int t.align),
      ("lat", .num (env.scalar 2 t.lat)), ("lon", .num (env.scalar 2 t.lon)), ("offset_x", .int t.offsetX),
      ("offset_y", .int t.offsetY)], adv b x.length) :=
  readRec_at env specialTextInfo (wellFormed_info env _ rfl) rfl hx hb
    (vs := [.num (env.scalar 1 t.rotation), .num (env.scalar 3 ts), .int t.textType, .int t.turbulenceSymbol, .int t.font,
      .int t.textFlag, .int t.width, .int t.textColor, .int t.edgecolor, .int t.facecolor, .int t.align,
      .num (env.scalar 2 t.lat), .num (env.scalar 2 t.lon), .int t.offsetX, .int t.offsetY]) rfl

theorem readSymbol_at (env : VgEnv ν) {s : VgSymbol} {code : F32} {n : Int} (hn : f32Int code = .ok n) {x : Bytes}
    (hx : packFmts .big symbolFmts (symbolVals s code) = .ok x) {b : IOBuffer} {pre rest : Bytes}
    (hb : At b pre (x ++ rest)) :
    readRec env .big symbolInfo b = .ok ([("number_symbols", .int s.numberSymbols), ("width", .int s.width),
      ("symbol_size", .num (env.scalar 1 s.size)), ("symbol_type", .int s.symbolType), ("symbol_code", .int n),
      ("lat", .num (env.scalar 2 s.lat)), ("lon", .num (env.scalar 2 s.lon)), ("offset_x", .int s.offsetX),
      ("offset_y", .int s.offsetY)], adv b x.length) := by
  refine readRec_at env symbolInfo (wellFormed_info env _ rfl) rfl hx hb
    (vs := [.int s.numberSymbols, .int s.width, .num (env.scalar 1 s.size), .int s.symbolType, .int n,
      .num (env.scalar 2 s.lat), .num (env.scalar 2 s.lon), .int s.offsetX, .int s.offsetY]) ?_
  have : DConv.run env .toInt (.flt code) = .ok (.int n) := by
    show (f32Int code).map DVal.int = _
    rw [hn]; rfl
  exact mapM_of_forall₂ (.cons rfl (.cons rfl (.cons rfl (.cons rfl (.cons this (.cons rfl (.cons rfl (.cons rfl
    (.cons rfl .nil)))))))))

end Gempak
