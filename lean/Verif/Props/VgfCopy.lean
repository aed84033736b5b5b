import Verif.Props.VgfMake

/-!
# C125: copies of vector graphic files

A program copies a file when it opens it, passes the attributes of every decoded element to the constructor of its class, and writes the
new elements.
-/

namespace Gempak
variable {ν : Type}

/-! ## Specification -/

/-- An integer attribute of a decoded element. -/
def Spec.attrInt (d : DElem ν) (k : String) : Option Int := match d.attrs.lookup k with | some (.int i) => some i | _ => none

/-- A number of a decoded element. -/
def Spec.attrNum (d : DElem ν) (k : String) : Option ν := match d.attrs.lookup k with | some (.num x) => some x | _ => none

/-- An array of a decoded element. -/
def Spec.attrArr (d : DElem ν) (k : String) : Option (List ν) := match d.attrs.lookup k with | some (.arr x) => some x | _ => none

/-- The constructor call with the attributes of a decoded element.  (Special texts have no such call: the constructor wants points, the
decoded size is a ratio.) -/
def Spec.again (back : ν → F32) (d : DElem ν) : Option VgNew :=
  if d.kind = "LineElement" then do
    some (.line ((← Spec.attrArr d "lon").map back) ((← Spec.attrArr d "lat").map back) d.hdr.majorColor (← Spec.attrInt d "line_type") d.hdr.closed
      d.hdr.filled d.hdr.smooth (← Spec.attrInt d "width"))
  else if d.kind = "FrontElement" then do
    some (.front ((← Spec.attrArr d "lon").map back) ((← Spec.attrArr d "lat").map back) (← Spec.attrInt d "front_code") d.hdr.majorColor
      (some d.hdr.minorColor) d.hdr.smooth (← Spec.attrInt d "pip_size") (← Spec.attrInt d "pip_stroke") (← Spec.attrInt d "pip_direction"))
  else if d.kind = "SpecialLineElement" then do
    some (.specialLine ((← Spec.attrArr d "lon").map back) ((← Spec.attrArr d "lat").map back) d.hdr.majorColor (← Spec.attrInt d "line_type")
      d.hdr.closed d.hdr.filled (← Spec.attrInt d "stroke") (← Spec.attrInt d "width") d.hdr.smooth (back (← Spec.attrNum d "size"))
      (← Spec.attrInt d "direction"))
  else if d.kind = "SymbolElement" then do
    let lon ← Spec.attrNum d "lon"
    let lat ← Spec.attrNum d "lat"
    let code ← Spec.attrInt d "symbol_code"
    let w ← Spec.attrInt d "width"
    let sz ← Spec.attrNum d "size"
    let ox ← Spec.attrInt d "offset_x"
    let oy ← Spec.attrInt d "offset_y"
    some (if d.hdr.vgType = 19 then .marker (back lon) (back lat) code d.hdr.majorColor w (back sz) ox oy
      else .specialSymbol (back lon) (back lat) code d.hdr.majorColor w (back sz) ox oy)
  else none

/-- The numbers among the arguments of a constructor. -/
def Spec.numbersOf : VgNew → List F32
  | .line lon lat _ _ _ _ _ _ | .front lon lat _ _ _ _ _ _ _ => lon ++ lat
  | .specialLine lon lat _ _ _ _ _ _ _ sz _ => sz :: (lon ++ lat)
  | .specialText lon lat _ _ _ _ _ _ _ _ ro _ _ _ => [lon, lat, ro]
  | .specialSymbol lon lat _ _ _ sz _ _ | .marker lon lat _ _ _ sz _ _ => [lon, lat, sz]

/-- Decoded numbers can be passed on: rounding a rounded number changes nothing, and sizes stay within their bounds. -/
structure Spec.Rounded (env : VgEnv ν) (back : ν → F32) (xs : List F32) : Prop where
  array : ∀ x ∈ xs, env.array (back (env.array x)) = env.array x
  scalar : ∀ n, ∀ x ∈ xs, env.scalar n (back (env.scalar n x)) = env.scalar n x
  size : ∀ x ∈ xs, Spec.SizeOk x → Spec.SizeOk (back (env.scalar 1 x))

/-- Elements that are copied well: open lines (or of two points), not of direction −1; fronts; symbols and markers; integers of 32 bits. -/
def Spec.CopiesWell : VgNew → Prop
  | .line lon _ _ _ cl _ _ _ => cl = 0 ∨ lon.length = 2
  | .front _ _ _ _ _ _ _ st _ => st < 2 ^ 31
  | .specialLine lon _ _ _ cl _ _ _ _ _ d => (cl = 0 ∨ lon.length = 2) ∧ d = 1
  | .specialText _ _ _ _ _ _ _ _ _ _ _ _ _ _ => False
  | .specialSymbol _ _ code _ w _ ox oy | .marker _ _ code _ w _ ox oy =>
    (0 ≤ code ∧ code < 2 ^ 24) ∧ inI32 w ∧ inI32 ox ∧ inI32 oy

/-- Two decoded elements with the same class, attributes and header, but for the box of the points. -/
def Spec.SameButBox (d d' : DElem ν) : Prop :=
  d'.kind = d.kind ∧ d'.attrs = d.attrs ∧
    d'.hdr = { d.hdr with minLat := d'.hdr.minLat, minLon := d'.hdr.minLon, maxLat := d'.hdr.maxLat, maxLon := d'.hdr.maxLon }

/-- The copy of a file. -/
def Spec.CopyOf (env : VgEnv ν) (back : ν → F32) (bytes bytes' : Bytes) : Prop :=
  ∃ fuel s ns es, openVgf env fuel bytes = .done s ∧ s.elements.mapM (Spec.again back) = some ns ∧ ns.mapM VgElem.make = .ok es ∧
    toVgf es = .ok bytes'

/-- `bytes'` comes from `bytes` by `k` copies. -/
def Spec.Copies (env : VgEnv ν) (back : ν → F32) : Nat → Bytes → Bytes → Prop
  | 0, b, b' => b' = b
  | k + 1, b, b' => ∃ b1, Spec.Copies env back k b b1 ∧ Spec.CopyOf env back b1 b'

/-! ## Lemmas -/

theorem ring_plain {cl : Int} {n : Nat} (xs : List ν) (hl : xs.length = n) (h : cl = 0 ∨ n = 2) : Spec.ring cl xs = xs := by
  unfold Spec.ring
  split
  · split
    · rename_i hc
      subst hc
      rcases h with h | h
      · cases h
      · simp at hl; omega
    · rfl
  · rfl

theorem map_settled {env : VgEnv ν} {back : ν → F32} {xs : List F32} (h : ∀ x ∈ xs, env.array (back (env.array x)) = env.array x) :
    ((xs.map env.array).map back).map env.array = xs.map env.array := by
  rw [List.map_map, List.map_map]
  exact List.map_congr_left fun x hx => h x hx

/-- What the copy of one element is. -/
theorem copy_one (env : VgEnv ν) (back : ν → F32) (n : VgNew) (e : VgElem) (hn : VgElem.make n = .ok e) (hc : Spec.CopiesWell n)
    (hs : Spec.Rounded env back (Spec.numbersOf n)) :
    ∃ n' e', Spec.again back (Spec.dElem env e) = some n' ∧ VgElem.make n' = .ok e' ∧ Spec.SameButBox (Spec.dElem env e) (Spec.dElem env e') ∧
      Spec.Plain e' ∧ ∃ b, e'.encode = .ok b := by
  have hm := C90_keeps n e hn
  have ha : Spec.Acceptable n := by
    by_contra hc
    rw [(C90_accepts n).2 hc] at hn
    cases hn
  have hok : Spec.ElemOk e := C56_ranges n e hn []
  cases n with
  | line lon lat color lt cl fi sm w =>
    cases e with
    | line l =>
      obtain ⟨hh, h1, h2, h3, h4⟩ := hm
      obtain ⟨p1, p2, p3, p4, p5, p6, p7, p8, p9, -⟩ := hh
      obtain ⟨⟨t1, t2, t3⟩, a2⟩ := ha
      have r1 : Spec.ring cl (lon.map env.array) = lon.map env.array := ring_plain _ (List.length_map ..) hc
      have r2 : Spec.ring cl (lat.map env.array) = lat.map env.array := ring_plain _ ((List.length_map ..).trans t1.symm) hc
      have s1 : ((lon.map env.array).map back).map env.array = lon.map env.array :=
        map_settled fun x hx => hs.array x (List.mem_append_left _ hx)
      have s2 : ((lat.map env.array).map back).map env.array = lat.map env.array :=
        map_settled fun x hx => hs.array x (List.mem_append_right _ hx)
      have e1 : Spec.again back (Spec.dElem env (.line l)) =
          some (.line ((lon.map env.array).map back) ((lat.map env.array).map back) color lt cl fi sm w) := by
        have : Spec.again back (Spec.dElem env (.line l)) =
            some (.line ((Spec.ring l.base.head.closed (l.base.lon.map env.array)).map back) ((Spec.ring l.base.head.closed (l.base.lat.map env.array)).map back)
              l.base.head.majorColor l.lineType l.base.head.closed l.base.head.filled l.base.head.smooth l.base.width) := rfl
        rw [this, h1, h2, h3, h4, p5, p7, p8, p9, r1, r2]
      obtain ⟨e', he'⟩ := (C90_accepts (.line ((lon.map env.array).map back) ((lat.map env.array).map back) color lt cl fi sm w)).1
        ⟨⟨by simpa using t1, by simpa using t2, by simpa using t3⟩, a2⟩
      have hm' := C90_keeps _ _ he'
      have hok' : Spec.ElemOk e' := C56_ranges _ e' he' []
      cases e' with
      | line l' =>
        obtain ⟨hh', g1, g2, g3, g4⟩ := hm'
        obtain ⟨q1, q2, q3, q4, q5, q6, q7, q8, q9, -⟩ := hh'
        have hL : Spec.LineOk l := hok
        have hL' : Spec.LineOk l' := hok'
        have nlen : (l'.base.lon.length : Int) = l.base.lon.length := by rw [g1, h1]; simp
        refine ⟨_, _, e1, he', ⟨rfl, ?_, ?_⟩, trivial, ?_⟩
        · simp only [Spec.dElem, List.length_map, g1, g2, g3, g4, q7, h1, h2, h3, h4, p7, s1, s2]
        · simp only [Spec.dElem, Spec.dHead, q1, q2, q3, q4, q5, q6, q7, q8, q9, p1, p2, p3, p4, p5, p6, p7, p8, p9, hL.vgType, hL.vgClass,
            hL'.vgType, hL'.vgClass, hL.recordSize, hL'.recordSize, ← hL.points.lon, ← hL'.points.lon, nlen]
        · exact C53_encodes _ hok' (by show l'.base.head.groupType ≤ 255; omega) (by show l'.base.head.groupNumber < 2 ^ 31; omega)
            (by rintro f ⟨⟩) (by rintro f ⟨⟩) (by rintro f (⟨⟨⟩⟩ | ⟨⟨⟩⟩))
      | _ => exact hm'.elim
    | _ => exact hm.elim
  | front lon lat fc mj mn sm ps st pd =>
    cases e with
    | front l =>
      obtain ⟨hh, h1, h2, h3, h4, h5, h6⟩ := hm
      obtain ⟨p1, p2, p3, p4, p5, p6, p7, p8, p9, -⟩ := hh
      obtain ⟨⟨t1, t2, t3⟩, a1, a2, a3, a4⟩ := ha
      have hmn : Spec.Colour (mn.getD mj) := by
        cases mn with
        | none => exact a2
        | some c => exact a3 c rfl
      have s1 : ((lon.map env.array).map back).map env.array = lon.map env.array :=
        map_settled fun x hx => hs.array x (List.mem_append_left _ hx)
      have s2 : ((lat.map env.array).map back).map env.array = lat.map env.array :=
        map_settled fun x hx => hs.array x (List.mem_append_right _ hx)
      have e1 : Spec.again back (Spec.dElem env (.front l)) =
          some (.front ((lon.map env.array).map back) ((lat.map env.array).map back) fc mj (some (mn.getD mj)) sm ps st pd) := by
        have : Spec.again back (Spec.dElem env (.front l)) =
            some (.front ((l.lon.map env.array).map back) ((l.lat.map env.array).map back)
              l.frontCode l.head.majorColor (some l.head.minorColor) l.head.smooth l.pipSize l.pipStroke l.pipDirection) := rfl
        rw [this, h1, h2, h3, h4, h5, h6, p5, p6, p9]
      obtain ⟨e', he'⟩ := (C90_accepts (.front ((lon.map env.array).map back) ((lat.map env.array).map back) fc mj (some (mn.getD mj)) sm ps st pd)).1
        ⟨⟨by simpa using t1, by simpa using t2, by simpa using t3⟩, a1, a2, fun c hc => by rw [← Option.some.inj hc]; exact hmn, a4⟩
      have hm' := C90_keeps _ _ he'
      have hok' : Spec.ElemOk e' := C56_ranges _ e' he' []
      cases e' with
      | front l' =>
        obtain ⟨hh', g1, g2, g3, g4, g5, g6⟩ := hm'
        obtain ⟨q1, q2, q3, q4, q5, q6, q7, q8, q9, -⟩ := hh'
        have hL : Spec.FrontOk l := hok
        have hL' : Spec.FrontOk l' := hok'
        have nlen : (l'.lon.length : Int) = l.lon.length := by rw [g1, h1]; simp
        have c1 := hL.code
        have c2 := hL'.code
        have d1 := hL.frontType
        have d2 := hL.frontIntensity
        have d3 := hL.frontCharacter
        have d1' := hL'.frontType
        have d2' := hL'.frontIntensity
        have d3' := hL'.frontCharacter
        have f1 : l'.frontType = l.frontType := by omega
        have f2 : l'.frontIntensity = l.frontIntensity := by omega
        have f3 : l'.frontCharacter = l.frontCharacter := by omega
        refine ⟨_, _, e1, he', ⟨rfl, ?_, ?_⟩, trivial, ?_⟩
        · simp only [Spec.dElem, List.length_map, g1, g2, g3, g4, g5, g6, q7, h1, h2, h3, h4, h5, h6, s1, s2, f1, f2, f3, hL.width, hL'.width]
        · simp only [Spec.dElem, Spec.dHead, q1, q2, q3, q4, q5, q6, q7, q8, q9, p1, p2, p3, p4, p5, p6, p7, p8, p9, hL.vgType, hL.vgClass,
            hL'.vgType, hL'.vgClass, hL.recordSize, hL'.recordSize, ← hL.points.lon, ← hL'.points.lon, nlen, Option.getD_some]
        · exact C53_encodes _ hok' (by show l'.head.groupType ≤ 255; omega) (by show l'.head.groupNumber < 2 ^ 31; omega)
            (by rintro f ⟨⟩; rw [g5]; exact hc) (by rintro f ⟨⟩) (by rintro f (⟨⟨⟩⟩ | ⟨⟨⟩⟩))
      | _ => exact hm'.elim
    | _ => exact hm.elim
  | specialLine lon lat color lt cl fi st w sm sz d =>
    cases e with
    | specialLine l =>
      obtain ⟨hh, h1, h2, h3, h4, h5, h6, h7⟩ := hm
      obtain ⟨p1, p2, p3, p4, p5, p6, p7, p8, p9, -⟩ := hh
      obtain ⟨⟨t1, t2, t3⟩, a1, a2, a3, a4, a5, a6, a7, a8, a9⟩ := ha
      obtain ⟨hc, rfl⟩ := hc
      have r1 : Spec.ring cl (lon.map env.array) = lon.map env.array := ring_plain _ (List.length_map ..) hc
      have r2 : Spec.ring cl (lat.map env.array) = lat.map env.array := ring_plain _ ((List.length_map ..).trans t1.symm) hc
      have s1 : ((lon.map env.array).map back).map env.array = lon.map env.array :=
        map_settled fun x hx => hs.array x (List.mem_cons_of_mem _ (List.mem_append_left _ hx))
      have s2 : ((lat.map env.array).map back).map env.array = lat.map env.array :=
        map_settled fun x hx => hs.array x (List.mem_cons_of_mem _ (List.mem_append_right _ hx))
      have s3 := hs.scalar 1 sz List.mem_cons_self
      have o1 : ∀ xs : List ν, Spec.oriented 1 xs = xs := fun xs => if_neg (by decide)
      have e1 : Spec.again back (Spec.dElem env (.specialLine l)) =
          some (.specialLine ((lon.map env.array).map back) ((lat.map env.array).map back) color lt cl fi (if lt = 24 ∨ lt = 25 then st else 1) w sm
            (back (env.scalar 1 sz)) 1) := by
        have : Spec.again back (Spec.dElem env (.specialLine l)) =
            some (.specialLine ((Spec.oriented l.direction (Spec.ring l.base.head.closed (l.base.lon.map env.array))).map back)
              ((Spec.oriented l.direction (Spec.ring l.base.head.closed (l.base.lat.map env.array))).map back)
              l.base.head.majorColor l.lineType l.base.head.closed l.base.head.filled l.stroke l.base.width l.base.head.smooth
              (back (env.scalar 1 l.size)) l.direction) := rfl
        rw [this, h1, h2, h3, h4, h5, h6, h7, p5, p7, p8, p9, r1, r2, o1, o1]
      obtain ⟨e', he'⟩ := (C90_accepts (.specialLine ((lon.map env.array).map back) ((lat.map env.array).map back) color lt cl fi
          (if lt = 24 ∨ lt = 25 then st else 1) w sm (back (env.scalar 1 sz)) 1)).1
        ⟨⟨by simpa using t1, by simpa using t2, by simpa using t3⟩, a1, a2, a3, a4, a5, a6, hs.size sz List.mem_cons_self a7, a8,
          fun h => by rw [if_pos h]; exact a9 h⟩
      have hm' := C90_keeps _ _ he'
      have hok' : Spec.ElemOk e' := C56_ranges _ e' he' []
      cases e' with
      | specialLine l' =>
        obtain ⟨hh', g1, g2, g3, g4, g5, g6, g7⟩ := hm'
        obtain ⟨q1, q2, q3, q4, q5, q6, q7, q8, q9, -⟩ := hh'
        have hL : Spec.SpecialLineOk l := hok
        have hL' : Spec.SpecialLineOk l' := hok'
        have nlen : (l'.base.lon.length : Int) = l.base.lon.length := by rw [g1, h1]; simp
        have g7' : l'.stroke = l.stroke := by
          rw [g7, h7]
          split <;> rfl
        refine ⟨_, _, e1, he', ⟨rfl, ?_, ?_⟩, trivial, ?_⟩
        · simp only [Spec.dElem, List.length_map, g1, g2, g3, g4, g5, g6, g7', q7, h1, h2, h3, h4, h5, h6, p7, s1, s2, s3]
        · simp only [Spec.dElem, Spec.dHead, q1, q2, q3, q4, q5, q6, q7, q8, q9, p1, p2, p3, p4, p5, p6, p7, p8, p9, hL.vgType, hL.vgClass,
            hL'.vgType, hL'.vgClass, hL.recordSize, hL'.recordSize, ← hL.points.lon, ← hL'.points.lon, nlen]
        · exact C53_encodes _ hok' (by show l'.base.head.groupType ≤ 255; omega) (by show l'.base.head.groupNumber < 2 ^ 31; omega)
            (by rintro f ⟨⟩) (by rintro f ⟨⟩) (by rintro f (⟨⟨⟩⟩ | ⟨⟨⟩⟩))
      | _ => exact hm'.elim
    | _ => exact hm.elim
  | specialText => exact hc.elim
  | specialSymbol lon lat code color w sz ox oy =>
    cases e with
    | specialSymbol l =>
      obtain ⟨hh, h1, h2, h3, h4, h5, h6, h7⟩ := hm
      obtain ⟨p1, p2, p3, p4, p5, p6, p7, p8, p9, -⟩ := hh
      have hL : Spec.SymbolOk 15 l := hok
      have s1 := hs.scalar 2 lon (by simp [Spec.numbersOf])
      have s2 := hs.scalar 2 lat (by simp [Spec.numbersOf])
      have s3 := hs.scalar 1 sz (by simp [Spec.numbersOf])
      have e1 : Spec.again back (Spec.dElem env (.specialSymbol l)) =
          some (.specialSymbol (back (env.scalar 2 lon)) (back (env.scalar 2 lat)) code color w (back (env.scalar 1 sz)) ox oy) := by
        have : Spec.again back (Spec.dElem env (.specialSymbol l)) =
            some (if l.head.vgType = 19 then .marker (back (env.scalar 2 l.lon)) (back (env.scalar 2 l.lat)) l.symbolCode l.head.majorColor l.width
                (back (env.scalar 1 l.size)) l.offsetX l.offsetY
              else .specialSymbol (back (env.scalar 2 l.lon)) (back (env.scalar 2 l.lat)) l.symbolCode l.head.majorColor l.width
                (back (env.scalar 1 l.size)) l.offsetX l.offsetY) := rfl
        rw [this, hL.vgType, if_neg (by decide), h1, h2, h3, h4, h5, h6, h7, p5]
      obtain ⟨e', he'⟩ := (C90_accepts (.specialSymbol (back (env.scalar 2 lon)) (back (env.scalar 2 lat)) code color w (back (env.scalar 1 sz)) ox
        oy)).1 ha
      have hm' := C90_keeps _ _ he'
      have hok' : Spec.ElemOk e' := C56_ranges _ e' he' []
      cases e' with
      | specialSymbol l' =>
        obtain ⟨hh', g1, g2, g3, g4, g5, g6, g7⟩ := hm'
        obtain ⟨q1, q2, q3, q4, q5, q6, q7, q8, q9, -⟩ := hh'
        have hL' : Spec.SymbolOk 15 l' := hok'
        obtain ⟨c1, c2, c3, c4⟩ := hc
        refine ⟨_, _, e1, he', ⟨rfl, ?_, ?_⟩, ?_, ?_⟩
        · simp only [Spec.dElem, g1, g2, g3, g4, g5, g6, g7, h1, h2, h3, h4, h5, h6, h7, s1, s2, s3]
        · simp only [Spec.dElem, Spec.dHead, q1, q2, q3, q4, q5, q6, q7, q8, q9, p1, p2, p3, p4, p5, p6, p7, p8, p9, hL.vgType, hL.vgClass,
            hL'.vgType, hL'.vgClass, hL.recordSize, hL'.recordSize]
        · show 0 ≤ l'.symbolCode ∧ l'.symbolCode < 2 ^ 24
          rw [g3]; exact c1
        · refine C53_encodes _ hok' (by show l'.head.groupType ≤ 255; omega) (by show l'.head.groupNumber < 2 ^ 31; omega)
            (by rintro f ⟨⟩) (by rintro f ⟨⟩) ?_
          rintro f (⟨⟨⟩⟩ | ⟨⟨⟩⟩)
          rw [g3, g4, g6, g7]
          obtain ⟨m, rfl⟩ : ∃ m : ℕ, code = m := ⟨code.toNat, by omega⟩
          obtain ⟨p, hp, -⟩ := ratToF32_nat m (by exact_mod_cast c1.2)
          exact ⟨c2, c3, c4, p, by exact_mod_cast hp⟩
      | _ => exact hm'.elim
    | _ => exact hm.elim
  | marker lon lat code color w sz ox oy =>
    cases e with
    | marker l =>
      obtain ⟨hh, h1, h2, h3, h4, h5, h6, h7⟩ := hm
      obtain ⟨p1, p2, p3, p4, p5, p6, p7, p8, p9, -⟩ := hh
      have hL : Spec.SymbolOk 19 l := hok
      have s1 := hs.scalar 2 lon (by simp [Spec.numbersOf])
      have s2 := hs.scalar 2 lat (by simp [Spec.numbersOf])
      have s3 := hs.scalar 1 sz (by simp [Spec.numbersOf])
      have e1 : Spec.again back (Spec.dElem env (.marker l)) =
          some (.marker (back (env.scalar 2 lon)) (back (env.scalar 2 lat)) code color w (back (env.scalar 1 sz)) ox oy) := by
        have : Spec.again back (Spec.dElem env (.marker l)) =
            some (if l.head.vgType = 19 then .marker (back (env.scalar 2 l.lon)) (back (env.scalar 2 l.lat)) l.symbolCode l.head.majorColor l.width
                (back (env.scalar 1 l.size)) l.offsetX l.offsetY
              else .specialSymbol (back (env.scalar 2 l.lon)) (back (env.scalar 2 l.lat)) l.symbolCode l.head.majorColor l.width
                (back (env.scalar 1 l.size)) l.offsetX l.offsetY) := rfl
        rw [this, hL.vgType, if_pos rfl, h1, h2, h3, h4, h5, h6, h7, p5]
      obtain ⟨e', he'⟩ := (C90_accepts (.marker (back (env.scalar 2 lon)) (back (env.scalar 2 lat)) code color w (back (env.scalar 1 sz)) ox
        oy)).1 ha
      have hm' := C90_keeps _ _ he'
      have hok' : Spec.ElemOk e' := C56_ranges _ e' he' []
      cases e' with
      | marker l' =>
        obtain ⟨hh', g1, g2, g3, g4, g5, g6, g7⟩ := hm'
        obtain ⟨q1, q2, q3, q4, q5, q6, q7, q8, q9, -⟩ := hh'
        have hL' : Spec.SymbolOk 19 l' := hok'
        obtain ⟨c1, c2, c3, c4⟩ := hc
        refine ⟨_, _, e1, he', ⟨rfl, ?_, ?_⟩, ?_, ?_⟩
        · simp only [Spec.dElem, g1, g2, g3, g4, g5, g6, g7, h1, h2, h3, h4, h5, h6, h7, s1, s2, s3]
        · simp only [Spec.dElem, Spec.dHead, q1, q2, q3, q4, q5, q6, q7, q8, q9, p1, p2, p3, p4, p5, p6, p7, p8, p9, hL.vgType, hL.vgClass,
            hL'.vgType, hL'.vgClass, hL.recordSize, hL'.recordSize]
        · show 0 ≤ l'.symbolCode ∧ l'.symbolCode < 2 ^ 24
          rw [g3]; exact c1
        · refine C53_encodes _ hok' (by show l'.head.groupType ≤ 255; omega) (by show l'.head.groupNumber < 2 ^ 31; omega)
            (by rintro f ⟨⟩) (by rintro f ⟨⟩) ?_
          rintro f (⟨⟨⟩⟩ | ⟨⟨⟩⟩)
          rw [g3, g4, g6, g7]
          obtain ⟨m, rfl⟩ : ∃ m : ℕ, code = m := ⟨code.toNat, by omega⟩
          obtain ⟨p, hp, -⟩ := ratToF32_nat m (by exact_mod_cast c1.2)
          exact ⟨c2, c3, c4, p, by exact_mod_cast hp⟩
      | _ => exact hm'.elim
    | _ => exact hm.elim

theorem encode_header : ∃ b, mkFileHeader.encode = .ok b := by
  refine C53_encodes _ (C56_file_header []) ?_ ?_ ?_ ?_ ?_
  · show (0 : Int) ≤ 255; decide
  · show (0 : Int) < 2 ^ 31; decide
  · rintro f ⟨⟩
  · rintro f ⟨⟩
  · rintro f (⟨⟨⟩⟩ | ⟨⟨⟩⟩)

theorem toVgf_all {es : List VgElem} (h : ∀ e ∈ es, ∃ b, e.encode = .ok b) : ∃ b, toVgf es = .ok b := by
  have key : ∀ xs : List VgElem, (∀ e ∈ xs, ∃ b, e.encode = .ok b) → ∃ bs, xs.mapM VgElem.encode = .ok bs := by
    intro xs
    induction xs with
    | nil => intro _; exact ⟨[], rfl⟩
    | cons x xs ih =>
      intro h
      obtain ⟨b, hb⟩ := h x List.mem_cons_self
      obtain ⟨bs, hbs⟩ := ih fun e he => h e (List.mem_cons_of_mem _ he)
      refine ⟨b :: bs, ?_⟩
      rw [List.mapM_cons, hb]
      show Except.bind (List.mapM VgElem.encode xs) _ = _
      rw [hbs]; rfl
  obtain ⟨bs, hbs⟩ := key (vgFile es) (by
    intro e he
    rcases List.mem_cons.1 he with rfl | he
    · exact encode_header
    · exact h e he)
  refine ⟨bs.flatten, ?_⟩
  unfold toVgf
  rw [hbs]; rfl

/-! ## Theorems -/

/-- **C125**: a file of open lines, fronts, special lines of direction 1, symbols and markers can be copied without an exception, and the copy shows the
elements of the file, each with the same class, attributes and header but for the box of its points.  (Partial: closed lines, special lines of
direction −1 and special texts are not copied faithfully, see below.) -/
theorem C125_copy_partial (env : VgEnv ν) (back : ν → F32) (ns : List VgNew) (es : List VgElem) (hm : ns.mapM VgElem.make = .ok es)
    (hc : ∀ n ∈ ns, Spec.CopiesWell n ∧ Spec.Rounded env back (Spec.numbersOf n)) (bytes : Bytes) (hb : toVgf es = .ok bytes) :
    ∃ bytes', Spec.CopyOf env back bytes bytes' ∧ ∃ s s', openVgf env (ns.length + 1) bytes = .done s ∧
      openVgf env (ns.length + 1) bytes' = .done s' ∧ s.elements.length = ns.length ∧ List.Forall₂ Spec.SameButBox s.elements s'.elements := by
  have key : ∀ (ns : List VgNew) (es : List VgElem), ns.mapM VgElem.make = .ok es →
      (∀ n ∈ ns, Spec.CopiesWell n ∧ Spec.Rounded env back (Spec.numbersOf n)) →
      es.length = ns.length ∧ (∀ e ∈ es, Spec.Built e ∧ Spec.Plain e) ∧ ∃ ns' es', (es.map (Spec.dElem env)).mapM (Spec.again back) = some ns' ∧
        ns'.mapM VgElem.make = .ok es' ∧ es'.length = es.length ∧ (∀ e ∈ es', Spec.Built e ∧ Spec.Plain e ∧ ∃ b, e.encode = .ok b) ∧
        List.Forall₂ Spec.SameButBox (es.map (Spec.dElem env)) (es'.map (Spec.dElem env)) := by
    intro ns
    induction ns with
    | nil =>
      intro es h _
      have h := (Except.ok.inj h).symm
      subst h
      exact ⟨rfl, by simp, [], [], rfl, rfl, rfl, by simp, .nil⟩
    | cons n ns ih =>
      intro es h hc
      rw [List.mapM_cons] at h
      obtain ⟨e, he, h⟩ := bind_inv h
      obtain ⟨es1, hes, h⟩ := bind_inv h
      have h := (Except.ok.inj h).symm
      subst h
      obtain ⟨i1, i2, ns', es', i3, i4, i5, i6, i7⟩ := ih es1 hes fun m hm => hc m (List.mem_cons_of_mem _ hm)
      obtain ⟨c1, c2⟩ := hc n List.mem_cons_self
      obtain ⟨n', e', o1, o2, o3, o4, o5⟩ := copy_one env back n e he c1 c2
      refine ⟨by simp [i1], ?_, n' :: ns', e' :: es', ?_, ?_, by simp [i5], ?_, .cons o3 i7⟩
      · intro x hx
        rcases List.mem_cons.1 hx with rfl | hx
        · refine ⟨⟨n, x, [], he, rfl⟩, ?_⟩
          have hk := C90_keeps _ _ he
          cases n <;> cases x <;> first | exact hk.elim | trivial | (simp only [Spec.CopiesWell] at c1; first | exact c1.elim | skip)
          · have : _ = _ := hk.2.2.2.1
            show 0 ≤ _ ∧ _
            rw [this]; exact c1.1
          · have : _ = _ := hk.2.2.2.1
            show 0 ≤ _ ∧ _
            rw [this]; exact c1.1
        · exact i2 x hx
      · rw [List.map_cons, List.mapM_cons, o1, i3]; rfl
      · rw [List.mapM_cons, o2]
        show Except.bind (List.mapM VgElem.make ns') _ = _
        rw [i4]; rfl
      · intro x hx
        rcases List.mem_cons.1 hx with rfl | hx
        · exact ⟨⟨n', x, [], o2, rfl⟩, o4, o5⟩
        · exact i6 x hx
  obtain ⟨k1, k2, ns', es', k3, k4, k5, k6, k7⟩ := key ns es hm hc
  obtain ⟨g, hg⟩ := C55_fields_partial env es k2 bytes hb (ns.length + 1) (by omega)
  obtain ⟨bytes', hb'⟩ := toVgf_all fun e he => (k6 e he).2.2
  obtain ⟨g', hg'⟩ := C55_fields_partial env es' (fun e he => ⟨(k6 e he).1, (k6 e he).2.1⟩) bytes' hb' (ns.length + 1) (by omega)
  exact ⟨bytes', ⟨_, _, ns', es', hg, k3, k4, hb'⟩, _, _, hg, hg', by simp [k1], k7⟩

/-- A closed line of at least three points: the decoded points, followed by the first. -/
theorem ring_closed (xs : List ν) (h : 3 ≤ xs.length) : ∃ x, xs.head? = some x ∧ Spec.ring 1 xs = xs ++ [x] := by
  match xs, h with
  | x :: a :: b :: t, _ => exact ⟨x, rfl, rfl⟩

/-- The copy of a file with one closed line. -/
theorem copy_closed (env : VgEnv ν) (back : ν → F32) (lon lat : List F32) (color lt fi sm w : Int) (e : VgElem)
    (hn : VgElem.make (.line lon lat color lt 1 fi sm w) = .ok e) (h3 : 3 ≤ lon.length) :
    ∃ y x, (lat.map env.array).head? = some y ∧ (lon.map env.array).head? = some x ∧
      Spec.attrInt (Spec.dElem env e) "number_points" = some (lon.length : Int) ∧
      Spec.attrArr (Spec.dElem env e) "lat" = some (lat.map env.array ++ [y]) ∧ Spec.attrArr (Spec.dElem env e) "lon" = some (lon.map env.array ++ [x]) ∧
      Spec.again back (Spec.dElem env e) =
        some (.line ((lon.map env.array ++ [x]).map back) ((lat.map env.array ++ [y]).map back) color lt 1 fi sm w) ∧
      Spec.Built e ∧ Spec.Plain e ∧ ∃ b, toVgf [e] = .ok b := by
  have hm := C90_keeps _ e hn
  have ha : Spec.Acceptable (.line lon lat color lt 1 fi sm w) := by
    by_contra hc
    rw [(C90_accepts _).2 hc] at hn
    cases hn
  have hok : Spec.ElemOk e := C56_ranges _ e hn []
  have ht := ha.1.1
  cases e with
  | line l =>
    obtain ⟨hh, h1, h2, h4, h5⟩ := hm
    obtain ⟨p1, p2, p3, p4, p5, p6, p7, p8, p9, -⟩ := hh
    obtain ⟨x, x1, x2⟩ := ring_closed (lon.map env.array) (by simpa using h3)
    obtain ⟨y, y1, y2⟩ := ring_closed (lat.map env.array) (by simpa [← ht] using h3)
    refine ⟨y, x, y1, x1, ?_, ?_, ?_, ?_, ⟨_, _, [], hn, rfl⟩, trivial, ?_⟩
    · show some (l.base.lon.length : Int) = _
      rw [h1]
    · show some (Spec.ring l.base.head.closed (l.base.lat.map env.array)) = _
      rw [p7, h2, y2]
    · show some (Spec.ring l.base.head.closed (l.base.lon.map env.array)) = _
      rw [p7, h1, x2]
    · have : Spec.again back (Spec.dElem env (.line l)) =
          some (.line ((Spec.ring l.base.head.closed (l.base.lon.map env.array)).map back) ((Spec.ring l.base.head.closed (l.base.lat.map env.array)).map back)
            l.base.head.majorColor l.lineType l.base.head.closed l.base.head.filled l.base.head.smooth l.base.width) := rfl
      rw [this, h1, h2, h4, h5, p5, p7, p8, p9, x2, y2]
    · refine toVgf_all ?_
      intro e he
      rw [List.mem_singleton] at he
      subst he
      exact C53_encodes _ hok (by show l.base.head.groupType ≤ 255; omega) (by show l.base.head.groupNumber < 2 ^ 31; omega)
            (by rintro f ⟨⟩) (by rintro f ⟨⟩) (by rintro f (⟨⟨⟩⟩ | ⟨⟨⟩⟩))
  | _ => exact hm.elim

/-- **C125** fails for closed lines: with every copy a closed line grows by its first point. -/
theorem C125_grows (env : VgEnv ν) (back : ν → F32) (lon lat : List F32) (color lt fi sm w : Int) (e : VgElem)
    (hn : VgElem.make (.line lon lat color lt 1 fi sm w) = .ok e) (h3 : 3 ≤ lon.length) (hs : Spec.Rounded env back (lon ++ lat))
    (bytes : Bytes) (hb : toVgf [e] = .ok bytes) (k : Nat) (hk : lon.length + k ≤ 500) :
    ∃ bytes' s d y x, Spec.Copies env back k bytes bytes' ∧ openVgf env 2 bytes' = .done s ∧ s.elements = [d] ∧
      Spec.attrInt d "number_points" = some ((lon.length + k : Nat) : Int) ∧ (lat.map env.array).head? = some y ∧ (lon.map env.array).head? = some x ∧
      Spec.attrArr d "lat" = some (lat.map env.array ++ List.replicate (k + 1) y) ∧
      Spec.attrArr d "lon" = some (lon.map env.array ++ List.replicate (k + 1) x) := by
  obtain ⟨y, x, hy, hx, -⟩ := copy_closed env back lon lat color lt fi sm w e hn h3
  have ha : Spec.Acceptable (.line lon lat color lt 1 fi sm w) := by
    by_contra hc
    rw [(C90_accepts _).2 hc] at hn
    cases hn
  have ht := ha.1.1
  have key : ∀ k, lon.length + k ≤ 500 → ∃ bytes' lon' lat' e', Spec.Copies env back k bytes bytes' ∧
      VgElem.make (.line lon' lat' color lt 1 fi sm w) = .ok e' ∧ toVgf [e'] = .ok bytes' ∧ lon'.length = lon.length + k ∧ lat'.length = lon.length + k ∧
      lon'.map env.array = lon.map env.array ++ List.replicate k x ∧ lat'.map env.array = lat.map env.array ++ List.replicate k y := by
    intro k
    induction k with
    | zero => intro _; exact ⟨bytes, lon, lat, e, rfl, hn, hb, rfl, ht.symm, by simp, by simp⟩
    | succ k ih =>
      intro hk
      obtain ⟨b1, lon', lat', e', i1, i2, i3, i4, i5, i6, i7⟩ := ih (by omega)
      obtain ⟨y', x', y1, x1, -, -, -, o1, o2, o3, -⟩ := copy_closed env back lon' lat' color lt fi sm w e' i2 (by omega)
      have hy' : y' = y := by
        rw [i7, List.head?_append, hy] at y1
        exact (Option.some.inj y1).symm
      have hx' : x' = x := by
        rw [i6, List.head?_append, hx] at x1
        exact (Option.some.inj x1).symm
      rw [hy', hx'] at o1
      have acc : Spec.Acceptable (.line ((lon'.map env.array ++ [x]).map back) ((lat'.map env.array ++ [y]).map back) color lt 1 fi sm w) :=
        ⟨⟨by simp; omega, by simp; omega, by simp; omega⟩, ha.2⟩
      obtain ⟨e2, he2⟩ := (C90_accepts _).1 acc
      obtain ⟨-, -, -, -, -, -, -, -, -, -, b2, hb2⟩ := copy_closed env back _ _ color lt fi sm w e2 he2 (by simp; omega)
      have sett : ∀ xs : List F32, (∀ a ∈ xs, env.array (back (env.array a)) = env.array a) → ∀ a ∈ xs.map env.array, env.array (back a) = a := by
        intro xs h a ha
        obtain ⟨c, hc, rfl⟩ := List.mem_map.1 ha
        exact h c hc
      have sx := sett lon fun a ha => hs.array a (List.mem_append_left _ ha)
      have sy := sett lat fun a ha => hs.array a (List.mem_append_right _ ha)
      have grow : ∀ (xs : List ν) (a : ν), xs.head? = some a → (∀ c ∈ xs, env.array (back c) = c) →
          ((xs ++ List.replicate k a ++ [a]).map back).map env.array = xs ++ List.replicate (k + 1) a := by
        intro xs a h1 h2
        rw [List.map_map, List.append_assoc, ← List.replicate_succ']
        conv_rhs => rw [← List.map_id (xs ++ List.replicate (k + 1) a)]
        apply List.map_congr_left
        intro c hc
        rcases List.mem_append.1 hc with hc | hc
        · exact h2 c hc
        · rw [(List.mem_replicate.1 hc).2]
          exact h2 a (List.mem_of_mem_head? h1)
      refine ⟨b2, _, _, e2, ⟨b1, i1, ?_⟩, he2, hb2, by simp; omega, by simp; omega, ?_, ?_⟩
      · obtain ⟨g, hg⟩ := C55_fields_partial env [e'] (by simpa using ⟨o2, o3⟩) b1 i3 2 (by simp)
        refine ⟨2, _, [.line ((lon'.map env.array ++ [x]).map back) ((lat'.map env.array ++ [y]).map back) color lt 1 fi sm w], [e2], hg, ?_, ?_, hb2⟩
        · simp only [List.map_cons, List.map_nil, List.mapM_cons, List.mapM_nil, o1]; rfl
        · rw [List.mapM_cons, he2]; rfl
      · rw [i6]; exact grow _ _ hx sx
      · rw [i7]; exact grow _ _ hy sy
  obtain ⟨b1, lon', lat', e', i1, i2, i3, i4, i5, i6, i7⟩ := key k hk
  obtain ⟨y', x', y1, x1, o4, o5, o6, -, o2, o3, -⟩ := copy_closed env back lon' lat' color lt fi sm w e' i2 (by omega)
  have hy' : y' = y := by
    rw [i7, List.head?_append, hy] at y1
    exact (Option.some.inj y1).symm
  have hx' : x' = x := by
    rw [i6, List.head?_append, hx] at x1
    exact (Option.some.inj x1).symm
  obtain ⟨g, hg⟩ := C55_fields_partial env [e'] (by simpa using ⟨o2, o3⟩) b1 i3 2 (by simp)
  refine ⟨b1, _, _, y, x, i1, hg, rfl, ?_, hy, hx, ?_, ?_⟩
  · rw [o4, i4]
  · rw [o5, hy', i7, List.append_assoc, ← List.replicate_succ']
  · rw [o6, hx', i6, List.append_assoc, ← List.replicate_succ']

/-- More turns of the reader do not change what was read. -/
theorem open_more (env : VgEnv ν) : ∀ (n m : Nat) (b : IOBuffer) (s r : VgState ν), vgLoop env n b s = .done r → n ≤ m → vgLoop env m b s = .done r := by
  intro n
  induction n with
  | zero =>
    intro m b s r h _
    rw [vgLoop.eq_def] at h ⊢
    dsimp only at h ⊢
    by_cases hb : b.atEnd = true
    · rw [if_pos hb] at h ⊢; exact h
    · rw [if_neg hb] at h; cases h
  | succ n ih =>
    intro m b s r h hm
    obtain ⟨m, rfl⟩ : ∃ k, m = k + 1 := ⟨m - 1, by omega⟩
    rw [vgLoop.eq_def] at h ⊢
    dsimp only at h ⊢
    by_cases hb : b.atEnd = true
    · rw [if_pos hb] at h ⊢; exact h
    · rw [if_neg hb] at h ⊢
      split at h
      · cases h
      · exact h
      · exact ih _ _ _ _ h (by omega)

theorem open_same {env : VgEnv ν} {bytes : Bytes} {n m : Nat} {r r' : VgState ν} (h : openVgf env n bytes = .done r)
    (h' : openVgf env m bytes = .done r') : r = r' := by
  rcases Nat.le_total n m with hm | hm
  · have := open_more env n m _ _ _ h hm
    have h' : vgLoop env m _ _ = _ := h'
    rw [this] at h'
    exact VgOut.done.inj h'
  · have := open_more env m n _ _ _ h' hm
    have h : vgLoop env n _ _ = _ := h
    rw [this] at h
    exact (VgOut.done.inj h).symm

/-- **C125** fails: a file with a closed line of 500 points, the most there can be, has no copy. -/
theorem C125_full (env : VgEnv ν) (back : ν → F32) (lon lat : List F32) (color lt fi sm w : Int) (e : VgElem)
    (hn : VgElem.make (.line lon lat color lt 1 fi sm w) = .ok e) (h5 : lon.length = 500) (bytes : Bytes) (hb : toVgf [e] = .ok bytes) :
    ¬ ∃ bytes', Spec.CopyOf env back bytes bytes' := by
  rintro ⟨bytes', fuel, s, ns, es, h1, h2, h3, h4⟩
  obtain ⟨y, x, hy, hx, -, -, -, o1, o2, o3, -⟩ := copy_closed env back lon lat color lt fi sm w e hn (by omega)
  obtain ⟨g, hg⟩ := C55_fields_partial env [e] (by simpa using ⟨o2, o3⟩) bytes hb 2 (by simp)
  have := open_same h1 hg
  subst this
  have hns : [VgNew.line ((lon.map env.array ++ [x]).map back) ((lat.map env.array ++ [y]).map back) color lt 1 fi sm w] = ns := by
    simp only [List.map_cons, List.map_nil, List.mapM_cons, List.mapM_nil, o1] at h2
    exact Option.some.inj h2
  subst hns
  have hr : ¬ Spec.Acceptable (.line ((lon.map env.array ++ [x]).map back) ((lat.map env.array ++ [y]).map back) color lt 1 fi sm w) := by
    rintro ⟨⟨-, -, h⟩, -⟩
    simp at h
    omega
  rw [List.mapM_cons, (C90_accepts _).2 hr] at h3
  cases h3

/-- **C125** fails for open special lines of direction −1: the copy has the points in the opposite order. -/
theorem C125_turned (env : VgEnv ν) (back : ν → F32) (lon lat : List F32) (color lt fi st w sm : Int) (sz : F32) (e : VgElem)
    (hn : VgElem.make (.specialLine lon lat color lt 0 fi st w sm sz (-1)) = .ok e) (hs : Spec.Rounded env back (sz :: (lon ++ lat)))
    (bytes : Bytes) (hb : toVgf [e] = .ok bytes) :
    ∃ bytes' s s' d d', Spec.CopyOf env back bytes bytes' ∧ openVgf env 2 bytes = .done s ∧ openVgf env 2 bytes' = .done s' ∧
      s.elements = [d] ∧ s'.elements = [d'] ∧ Spec.attrArr d "lat" = some (lat.map env.array).reverse ∧
      Spec.attrArr d "lon" = some (lon.map env.array).reverse ∧ Spec.attrArr d' "lat" = some (lat.map env.array) ∧
      Spec.attrArr d' "lon" = some (lon.map env.array) := by
  have hm := C90_keeps _ e hn
  have ha : Spec.Acceptable (.specialLine lon lat color lt 0 fi st w sm sz (-1)) := by
    by_contra hc
    rw [(C90_accepts _).2 hc] at hn
    cases hn
  have hok : Spec.ElemOk e := C56_ranges _ e hn []
  cases e with
  | specialLine l =>
    obtain ⟨hh, h1, h2, h3, h4, h5, h6, h7⟩ := hm
    obtain ⟨p1, p2, p3, p4, p5, p6, p7, p8, p9, -⟩ := hh
    obtain ⟨⟨t1, t2, t3⟩, a1, a2, a3, a4, a5, a6, a7, a8, a9⟩ := ha
    have r0 : ∀ xs : List ν, Spec.ring 0 xs = xs := fun xs => ring_plain xs rfl (Or.inl rfl)
    have o0 : ∀ xs : List ν, Spec.oriented (-1) xs = xs.reverse := fun xs => if_pos rfl
    have sx : ∀ xs : List F32, (∀ x ∈ xs, x ∈ lon ++ lat) → (((xs.map env.array).reverse.map back).map env.array) = (xs.map env.array).reverse := by
      intro xs h
      rw [List.map_reverse, List.map_reverse, map_settled fun x hx => hs.array x (List.mem_cons_of_mem _ (h x hx))]
    have e1 : Spec.again back (Spec.dElem env (.specialLine l)) =
        some (.specialLine ((lon.map env.array).reverse.map back) ((lat.map env.array).reverse.map back) color lt 0 fi (if lt = 24 ∨ lt = 25 then st else 1) w sm
          (back (env.scalar 1 sz)) (-1)) := by
      have : Spec.again back (Spec.dElem env (.specialLine l)) =
          some (.specialLine ((Spec.oriented l.direction (Spec.ring l.base.head.closed (l.base.lon.map env.array))).map back)
            ((Spec.oriented l.direction (Spec.ring l.base.head.closed (l.base.lat.map env.array))).map back)
            l.base.head.majorColor l.lineType l.base.head.closed l.base.head.filled l.stroke l.base.width l.base.head.smooth
            (back (env.scalar 1 l.size)) l.direction) := rfl
      rw [this, h1, h2, h3, h4, h5, h6, h7, p5, p7, p8, p9, r0, r0, o0, o0]
    obtain ⟨e', he'⟩ := (C90_accepts (.specialLine ((lon.map env.array).reverse.map back) ((lat.map env.array).reverse.map back) color lt 0 fi
        (if lt = 24 ∨ lt = 25 then st else 1) w sm (back (env.scalar 1 sz)) (-1))).1
      ⟨⟨by simpa using t1, by simpa using t2, by simpa using t3⟩, a1, a2, a3, a4, a5, a6, hs.size sz List.mem_cons_self a7, a8,
        fun h => by rw [if_pos h]; exact a9 h⟩
    have hm' := C90_keeps _ _ he'
    have hok' : Spec.ElemOk e' := C56_ranges _ e' he' []
    cases e' with
    | specialLine l' =>
      obtain ⟨hh', g1, g2, g3, g4, g5, g6, g7⟩ := hm'
      obtain ⟨q1, q2, q3, q4, q5, q6, q7, q8, q9, -⟩ := hh'
      obtain ⟨b', hb'⟩ : ∃ b, toVgf [.specialLine l'] = .ok b := by
        refine toVgf_all ?_
        intro e he
        rw [List.mem_singleton] at he
        subst he
        exact C53_encodes _ hok' (by show l'.base.head.groupType ≤ 255; omega) (by show l'.base.head.groupNumber < 2 ^ 31; omega)
            (by rintro f ⟨⟩) (by rintro f ⟨⟩) (by rintro f (⟨⟨⟩⟩ | ⟨⟨⟩⟩))
      have bu : Spec.Built (.specialLine l) := ⟨_, _, [], hn, rfl⟩
      have bu' : Spec.Built (.specialLine l') := ⟨_, _, [], he', rfl⟩
      obtain ⟨g, hg⟩ := C55_fields_partial env [.specialLine l] (by simpa using ⟨bu, trivial⟩) bytes hb 2 (by simp)
      obtain ⟨g', hg'⟩ := C55_fields_partial env [.specialLine l'] (by simpa using ⟨bu', trivial⟩) b' hb' 2 (by simp)
      refine ⟨b', _, _, _, _, ⟨2, _, [.specialLine ((lon.map env.array).reverse.map back) ((lat.map env.array).reverse.map back) color lt 0 fi
        (if lt = 24 ∨ lt = 25 then st else 1) w sm (back (env.scalar 1 sz)) (-1)], [.specialLine l'], hg, ?_, ?_, hb'⟩, hg, hg', rfl, rfl, ?_, ?_, ?_, ?_⟩
      · simp only [List.map_cons, List.map_nil, List.mapM_cons, List.mapM_nil, e1]; rfl
      · rw [List.mapM_cons, he']; rfl
      · show some (Spec.oriented l.direction (Spec.ring l.base.head.closed (l.base.lat.map env.array))) = _
        rw [h6, p7, h2, r0, o0]
      · show some (Spec.oriented l.direction (Spec.ring l.base.head.closed (l.base.lon.map env.array))) = _
        rw [h6, p7, h1, r0, o0]
      · show some (Spec.oriented l'.direction (Spec.ring l'.base.head.closed (l'.base.lat.map env.array))) = _
        rw [g6, q7, g2, sx lat fun x hx => List.mem_append_right _ hx, r0, o0, List.reverse_reverse]
      · show some (Spec.oriented l'.direction (Spec.ring l'.base.head.closed (l'.base.lon.map env.array))) = _
        rw [g6, q7, g1, sx lon fun x hx => List.mem_append_left _ hx, r0, o0, List.reverse_reverse]
    | _ => exact hm'.elim
  | _ => exact hm.elim

/-! ## Examples -/

/-- A rounding that drops the last 16 bits of coordinates of lines. -/
def dropEnv : VgEnv F32 where
  scalar _ x := x
  array x := x &&& 0xFFFF0000#32
  tca _ := .ok []

theorem drop_drop (x : F32) : (x &&& 0xFFFF0000#32) &&& 0xFFFF0000#32 = x &&& 0xFFFF0000#32 := by
  rw [BitVec.and_assoc]; rfl

theorem drop_settled (xs : List F32) : Spec.Rounded dropEnv id xs := ⟨fun x _ => drop_drop x, fun _ _ _ => rfl, fun _ _ h => h⟩

/-- A line, a front, a special line, a symbol and a marker. -/
def copyCalls : List VgNew :=
  [.line [0xC2C80001#32, 0xC2C60000#32, 0xC2C40000#32] [0x42200003#32, 0x42240000#32, 0x42280000#32] 2 1 0 0 0 3,
    .front [0xC2C80000#32, 0xC2C60000#32] [0x42200000#32, 0x42240000#32] 425 2 none 1 100 1 (-1),
    .specialLine [0xC2C80000#32, 0xC2C60000#32] [0x42200000#32, 0x42240000#32] 4 24 1 0 50 2 0 0x3F800000#32 1,
    .specialSymbol 0xC2C80001#32 0x42200007#32 3 5 1 0x3F800000#32 0 (-2), .marker 0xC2C80000#32 0x42200000#32 17 6 2 0x40000000#32 1 1]

/-- The hypotheses of `C125_copy_partial` hold of a file with five elements. -/
example : ∃ es bytes, copyCalls.mapM VgElem.make = .ok es ∧ es.length = 5 ∧ toVgf es = .ok bytes ∧
    ∀ n ∈ copyCalls, Spec.CopiesWell n ∧ Spec.Rounded dropEnv id (Spec.numbersOf n) := by
  have h : (match copyCalls.mapM VgElem.make with
    | .ok es => decide (es.length = 5) && (toVgf es).toOption.isSome
    | .error _ => false) = true := by decide +kernel
  have hc : ∀ n ∈ copyCalls, Spec.CopiesWell n ∧ Spec.Rounded dropEnv id (Spec.numbersOf n) := by
    intro n hn
    refine ⟨?_, drop_settled _⟩
    · simp only [copyCalls, List.mem_cons, List.not_mem_nil, or_false] at hn
      rcases hn with rfl | rfl | rfl | rfl | rfl
      · exact Or.inl rfl
      · show (1 : Int) < 2 ^ 31; decide
      · exact ⟨Or.inr rfl, rfl⟩
      · exact ⟨by decide, by decide, by decide, by decide⟩
      · exact ⟨by decide, by decide, by decide, by decide⟩
  split at h
  · rename_i es hes
    simp only [Bool.and_eq_true, decide_eq_true_eq] at h
    cases hb : toVgf es with
    | error x => rw [hb] at h; exact absurd h.2 (by simp [Except.toOption])
    | ok b => exact ⟨es, b, hes, h.1, hb, hc⟩
  · cases h

/-- A closed line of three points, a closed line of 500 points and a special line of direction −1 are accepted. -/
example : Spec.Acceptable (.line [0xC2C80000#32, 0xC2C60000#32, 0xC2C40000#32] [0x42200000#32, 0x42240000#32, 0x42280000#32] 2 1 1 0 0 3) ∧
    Spec.Acceptable (.line (List.replicate 500 0) (List.replicate 500 0) 2 1 1 0 0 3) ∧
    Spec.Acceptable (.specialLine [0xC2C80000#32, 0xC2C60000#32] [0x42200000#32, 0x42240000#32] 4 24 0 0 50 2 0 0x3F800000#32 (-1)) := by
  refine ⟨⟨⟨rfl, by decide, by decide⟩, by unfold Spec.Colour; decide, by decide, by decide, by decide, by decide, by decide⟩,
    ⟨⟨rfl, by rw [List.length_replicate]; decide, by rw [List.length_replicate]⟩, by unfold Spec.Colour; decide, by decide, by decide, by decide, by decide, by decide⟩,
    ⟨⟨rfl, by decide, by decide⟩, by unfold Spec.Colour; decide, by decide, by decide, by decide, by decide, by decide, Or.inr ⟨1, by decide +kernel, by norm_num, by norm_num⟩,
      by decide, by decide⟩⟩

end Gempak
