import Verif.Props.VgfOpens

/-!
# C131: what is appended to a vector graphic file changes nothing of it
-/

namespace Gempak
open Spec
variable {ν : Type}

/-- `FullFile env data p cs`: from byte `p` on, the file is made of complete records up to its last byte; `cs` are their elements. -/
inductive Spec.FullFile (env : VgEnv ν) (data : Bytes) : Nat → List (DHdr ν × String × Spec.Fields ν) → Prop
  | ended {p} : p = data.length → Spec.FullFile env data p []
  | header {p cs} : byteAt (data.drop p) 2 = 0 → byteAt (data.drop p) 1 = 22 → ¬ Spec.BadRecord data.length (data.drop p) →
      168 ≤ wordAt (data.drop p) 20 → p + (wordAt (data.drop p) 20).toNat ≤ data.length →
      Spec.FullFile env data (p + (wordAt (data.drop p) 20).toNat) cs → Spec.FullFile env data p cs
  | record {p cs} : ¬ (byteAt (data.drop p) 2 = 0 ∧ byteAt (data.drop p) 1 = 22) →
      p + 40 ≤ data.length → ¬ Spec.BadRecord data.length (data.drop p) → Spec.Regular (data.drop p) → Spec.Known (data.drop p) →
      p + (Spec.contentAt env (data.drop p)).size ≤ data.length → (Spec.contentAt env (data.drop p)).Legible →
      Spec.FullFile env data (p + (Spec.contentAt env (data.drop p)).size) cs →
      Spec.FullFile env data p ((Spec.contentAt env (data.drop p)).elems.map (fun e => (Spec.headAt env (data.drop p), e)) ++ cs)

/-! ## Reading from longer bytes -/

theorem byteAt_more {t u : Bytes} {i : Nat} (h : i < t.length) : byteAt (t ++ u) i = byteAt t i := by
  unfold byteAt
  rw [List.getD_eq_getElem?_getD, List.getD_eq_getElem?_getD, List.getElem?_append_left h]

theorem wordAt_more {t u : Bytes} {i : Nat} (h : i + 4 ≤ t.length) : wordAt (t ++ u) i = wordAt t i := by
  unfold wordAt
  rw [byteAt_more (by omega), byteAt_more (by omega), byteAt_more (by omega), byteAt_more (by omega)]

theorem singleAt_more {t u : Bytes} {i : Nat} (h : i + 4 ≤ t.length) : singleAt (t ++ u) i = singleAt t i := by
  unfold singleAt
  rw [byteAt_more (by omega), byteAt_more (by omega), byteAt_more (by omega), byteAt_more (by omega)]

theorem littleNat_more {t u : Bytes} {i : Nat} (h : i + 4 ≤ t.length) : littleNat (t ++ u) i = littleNat t i := by
  unfold littleNat
  rw [byteAt_more (by omega), byteAt_more (by omega), byteAt_more (by omega), byteAt_more (by omega)]

theorem bytesAt_more {t u : Bytes} {i n : Nat} (h : i + n ≤ t.length) : bytesAt (t ++ u) i n = bytesAt t i n := by
  unfold bytesAt
  rw [List.drop_append_of_le_length (by omega), List.take_append_of_le_length (by rw [List.length_drop]; omega)]

theorem countAt_more {t u : Bytes} {i : Nat} (h : i + 4 ≤ t.length) : countAt (t ++ u) i = countAt t i := by
  unfold countAt
  rw [bytesAt_more h]

/-- Where a value ends. -/
def Spec.Place.last : Spec.Place → Nat
  | .byte i => i + 1
  | .signedByte i => i + 1
  | .word i => i + 4
  | .single i => i + 4
  | .rounded _ i => i + 4
  | .whole i => i + 4
  | .text i n => i + n
  | .littleWord i => i + 4
  | .littleRounded _ i => i + 4
  | .swapped i => i + 4
  | .nowhere => 0

theorem val_more (env : VgEnv ν) {t u : Bytes} {p : Place} (h : p.last ≤ t.length) : p.val env (t ++ u) = p.val env t := by
  cases p with
  | byte i => unfold Place.val; dsimp only; rw [byteAt_more h]
  | signedByte i => unfold Place.val; dsimp only; rw [byteAt_more h]
  | word i => unfold Place.val; dsimp only; rw [wordAt_more h]
  | single i => unfold Place.val; dsimp only; rw [singleAt_more h]
  | rounded n i => unfold Place.val; dsimp only; rw [singleAt_more h]
  | whole i => unfold Place.val; dsimp only; rw [singleAt_more h]
  | text i n => unfold Place.val; dsimp only; rw [bytesAt_more h]
  | littleWord i => unfold Place.val littleWordAt; dsimp only; rw [littleNat_more h]
  | littleRounded n i => unfold Place.val; dsimp only; rw [littleNat_more h]
  | swapped i =>
    have h' : i + 4 ≤ t.length := h
    unfold Place.val; dsimp only; rw [littleNat_more h, byteAt_more (by omega)]
  | nowhere => rfl

theorem vals_more (env : VgEnv ν) {t u : Bytes} (tbl : List (String × Place)) (n : Nat) (ht : (tbl.all fun x => decide (x.2.last ≤ n)) = true)
    (h : n ≤ t.length) : vals env (t ++ u) tbl = vals env t tbl := by
  unfold vals
  refine List.map_congr_left fun x hx => ?_
  have := of_decide_eq_true (List.all_eq_true.1 ht x hx)
  rw [val_more env (by omega)]

theorem singlesAt_more {t u : Bytes} {i : Nat} {n : Int} (h : i + 4 * n.toNat ≤ t.length) : singlesAt (t ++ u) i n = singlesAt t i n := by
  unfold singlesAt
  refine List.map_congr_left fun k hk => singleAt_more ?_
  have := List.mem_range.1 hk
  omega

theorem wordsAt_more {t u : Bytes} {i : Nat} {n : Int} (h : i + 4 * n.toNat ≤ t.length) : wordsAt (t ++ u) i n = wordsAt t i n := by
  unfold wordsAt
  refine List.map_congr_left fun k hk => wordAt_more ?_
  have := List.mem_range.1 hk
  omega

theorem mapM_more {α β : Type} {f g : α → Option β} : ∀ {l : List α}, (∀ x ∈ l, f x = g x) → l.mapM f = l.mapM g := by
  intro l
  induction l with
  | nil => intro _; rfl
  | cons x l ih =>
    intro h
    rw [List.mapM_cons, List.mapM_cons, h x (by simp), ih fun y hy => h y (List.mem_cons_of_mem _ hy)]

theorem textsAt_more {t u : Bytes} {i w : Nat} {n : Int} (h : i + w * n.toNat ≤ t.length) : textsAt (t ++ u) i w n = textsAt t i w n := by
  unfold textsAt
  refine mapM_more fun k hk => ?_
  have hk := List.mem_range.1 hk
  have : w * (k + 1) ≤ w * n.toNat := Nat.mul_le_mul_left _ hk
  rw [Nat.mul_add, Nat.mul_one] at this
  rw [bytesAt_more (by omega)]

theorem pointsAt_more (env : VgEnv ν) {t u : Bytes} {i : Nat} {n : Int} (h : i + 8 * n.toNat ≤ t.length) :
    pointsAt env (t ++ u) i n = pointsAt env t i n := by
  unfold pointsAt coordAt
  rw [singlesAt_more (by omega), singlesAt_more (by omega)]

theorem tablesAt_more (env : VgEnv ν) {t u : Bytes} {i w n : Nat} (tbl : List (String × Place))
    (ht : (tbl.all fun x => decide (x.2.last ≤ w)) = true) (h : i + w * n ≤ t.length) :
    tablesAt env (t ++ u) i w n tbl = tablesAt env t i w n tbl := by
  unfold tablesAt
  refine mapM_more fun k hk => ?_
  have hk := List.mem_range.1 hk
  have : w * (k + 1) ≤ w * n := Nat.mul_le_mul_left _ hk
  rw [Nat.mul_add, Nat.mul_one] at this
  rw [List.drop_append_of_le_length (by omega), vals_more env tbl w ht (by rw [List.length_drop]; omega)]

theorem headAt_more (env : VgEnv ν) {t u : Bytes} (h : 40 ≤ t.length) : headAt env (t ++ u) = headAt env t := by
  unfold headAt
  simp only [byteAt_more (t := t) (u := u) (show 0 < t.length by omega), byteAt_more (t := t) (u := u) (show 1 < t.length by omega),
    byteAt_more (t := t) (u := u) (show 2 < t.length by omega), byteAt_more (t := t) (u := u) (show 3 < t.length by omega),
    byteAt_more (t := t) (u := u) (show 4 < t.length by omega), byteAt_more (t := t) (u := u) (show 5 < t.length by omega),
    byteAt_more (t := t) (u := u) (show 6 < t.length by omega), byteAt_more (t := t) (u := u) (show 7 < t.length by omega),
    wordAt_more (t := t) (u := u) (show 8 + 4 ≤ t.length by omega), wordAt_more (t := t) (u := u) (show 12 + 4 ≤ t.length by omega),
    wordAt_more (t := t) (u := u) (show 16 + 4 ≤ t.length by omega), wordAt_more (t := t) (u := u) (show 20 + 4 ≤ t.length by omega),
    singleAt_more (t := t) (u := u) (show 24 + 4 ≤ t.length by omega), singleAt_more (t := t) (u := u) (show 28 + 4 ≤ t.length by omega),
    singleAt_more (t := t) (u := u) (show 32 + 4 ≤ t.length by omega), singleAt_more (t := t) (u := u) (show 36 + 4 ≤ t.length by omega)]

/-! ## Records of longer bytes -/

theorem front_more (env : VgEnv ν) {t u : Bytes} (h : (frontAt env t).size ≤ t.length) : frontAt env (t ++ u) = frontAt env t := by
  have h : 68 + 8 * (wordAt t 40).toNat ≤ t.length := h
  unfold frontAt
  rw [wordAt_more (i := 40) (by omega), wordAt_more (i := 44) (by omega), vals_more env frontPlaces 68 (by decide) (by omega), pointsAt_more env (by omega)]

theorem symbol_more (env : VgEnv ν) {t u : Bytes} (h : (symbolAt env t).size ≤ t.length) : symbolAt env (t ++ u) = symbolAt env t := by
  have h : 76 ≤ t.length := h
  unfold symbolAt
  rw [vals_more env symbolPlaces 76 (by decide) (by omega)]

theorem circle_more (env : VgEnv ν) {t u : Bytes} (h : (circleAt env t).size ≤ t.length) : circleAt env (t ++ u) = circleAt env t := by
  have h : 60 + 8 * (wordAt t 40).toNat ≤ t.length := h
  unfold circleAt
  rw [wordAt_more (i := 40) (by omega), wordAt_more (i := 44) (by omega), vals_more env linePlaces 60 (by decide) (by omega), pointsAt_more env (by omega)]

theorem line_more (env : VgEnv ν) {t u : Bytes} (h : (lineAt env t).size ≤ t.length) : lineAt env (t ++ u) = lineAt env t := by
  have h : 60 + 8 * (wordAt t 40).toNat ≤ t.length := h
  unfold lineAt
  dsimp only
  rw [wordAt_more (i := 40) (by omega), wordAt_more (i := 44) (by omega), byteAt_more (i := 4) (by omega),
    vals_more env linePlaces 60 (by decide) (by omega), singlesAt_more (i := 60) (by omega), singlesAt_more (by omega)]

theorem specialLine_more (env : VgEnv ν) {t u : Bytes} (h : (specialLineAt env t).size ≤ t.length) :
    specialLineAt env (t ++ u) = specialLineAt env t := by
  have h : 64 + 8 * (wordAt t 40).toNat ≤ t.length := h
  unfold specialLineAt
  dsimp only
  rw [wordAt_more (i := 40) (by omega), wordAt_more (i := 44) (by omega), wordAt_more (i := 52) (by omega), byteAt_more (i := 4) (by omega),
    vals_more env specialLinePlaces 64 (by decide) (by omega), singlesAt_more (i := 64) (by omega), singlesAt_more (by omega)]

theorem list_more (env : VgEnv ν) {t u : Bytes} (h : (listAt env t).size ≤ t.length) (hn : wordAt t 56 ≤ 500) :
    listAt env (t ++ u) = listAt env t := by
  have h : 8560 ≤ t.length := h
  unfold listAt
  dsimp only
  rw [wordAt_more (i := 56) (by omega), wordAt_more (i := 40) (by omega), wordAt_more (i := 44) (by omega),
    vals_more env listPlaces 60 (by decide) (by omega), singlesAt_more (i := 4560) (by omega), singlesAt_more (i := 6560) (by omega),
    textsAt_more (by omega)]

theorem restText_more {t u : Bytes} {i : Nat} (h40 : 40 ≤ t.length) (h : (wordAt t 20).toNat ≤ t.length) (hi : i ≤ (wordAt t 20).toNat) :
    (restText (t ++ u) i : Option (DVal ν)) = restText t i := by
  unfold restText
  rw [wordAt_more (i := 20) (by omega), bytesAt_more (by omega)]

theorem text_more (env : VgEnv ν) {t u : Bytes} (h40 : 40 ≤ t.length) (h : (textAt env t).size ≤ t.length) (hn : 80 ≤ wordAt t 20) :
    textAt env (t ++ u) = textAt env t := by
  have h : (wordAt t 20).toNat ≤ t.length := h
  unfold textAt
  rw [restText_more h40 h (by omega), wordAt_more (i := 20) (by omega), vals_more env textPlaces 80 (by decide) (by omega)]

theorem specialText_more (env : VgEnv ν) {t u : Bytes} (h40 : 40 ≤ t.length) (h : (specialTextAt env t).size ≤ t.length)
    (hn : 100 ≤ wordAt t 20) : specialTextAt env (t ++ u) = specialTextAt env t := by
  have h : (wordAt t 20).toNat ≤ t.length := h
  unfold specialTextAt
  rw [restText_more h40 h (by omega), wordAt_more (i := 20) (by omega), vals_more env specialTextPlaces 100 (by decide) (by omega)]

theorem track_more (env : VgEnv ν) {t u : Bytes} (h : (trackAt env t).size ≤ t.length) (hn : wordAt t 44 ≤ 50) :
    trackAt env (t ++ u) = trackAt env t := by
  have h : trackEnd t + 1300 ≤ t.length := h
  have he : trackEnd (t ++ u) = trackEnd t := by
    unfold trackEnd
    rw [wordAt_more (i := 84) (by omega), wordAt_more (i := 88) (by omega)]
  have hv : (Place.littleRounded 1 96).val env (t ++ u) = (Place.littleRounded 1 96).val env t :=
    val_more env (show 96 + 4 ≤ t.length by omega)
  unfold trackAt
  dsimp only
  rw [he, hv, wordAt_more (i := 44) (by omega), wordAt_more (i := 84) (by omega), wordAt_more (i := 88) (by omega), wordAt_more (i := 92) (by omega),
    vals_more env trackPlaces 84 (by decide) (by omega), textsAt_more (by omega), pointsAt_more env (by omega)]

theorem sigmet0_more (env : VgEnv ν) {t u : Bytes} (h : (sigmet0At env t).size ≤ t.length) : sigmet0At env (t ++ u) = sigmet0At env t := by
  have h : 428 + 8 * (wordAt t 44).toNat ≤ t.length := h
  unfold sigmet0At
  dsimp only
  rw [wordAt_more (i := 44) (by omega), vals_more env sigmetFirst 280 (by decide) (by omega), vals_more env sigmetLast0 428 (by decide) (by omega),
    singlesAt_more (i := 428) (by omega), singlesAt_more (by omega)]

theorem sigmet1_more (env : VgEnv ν) {t u : Bytes} (h : (sigmet1At env t).size ≤ t.length) : sigmet1At env (t ++ u) = sigmet1At env t := by
  have h : 776 + 8 * (wordAt t 44).toNat ≤ t.length := h
  unfold sigmet1At
  dsimp only
  rw [wordAt_more (i := 44) (by omega), vals_more env sigmetFirst 280 (by decide) (by omega), vals_more env sigmetMiddle 628 (by decide) (by omega),
    vals_more env sigmetLast1 776 (by decide) (by omega), singlesAt_more (i := 776) (by omega), singlesAt_more (by omega)]

theorem ccf_more (env : VgEnv ν) {t u : Bytes} (h : (ccfAt env t).size ≤ t.length) (hn : wordAt t 44 ≤ 100) :
    ccfAt env (t ++ u) = ccfAt env t := by
  have h : 1480 ≤ t.length := h
  unfold ccfAt
  rw [wordAt_more (i := 44) (by omega), vals_more env ccfPlaces 72 (by decide) (by omega), vals_more env ccfLittlePlaces 108 (by decide) (by omega),
    vals_more env ccfTextPlaces 423 (by decide) (by omega), bytesAt_more (by omega), pointsAt_more env (by omega)]

theorem volcano_more (env : VgEnv ν) {t u : Bytes} (h : (volcanoAt env t).size ≤ t.length) : volcanoAt env (t ++ u) = volcanoAt env t := by
  have h : 5916 ≤ t.length := h
  unfold volcanoAt
  rw [vals_more env volcanoPlaces 5916 (by decide) (by omega)]

theorem ash_more (env : VgEnv ν) {t u : Bytes} (h : (ashAt env t).size ≤ t.length) (hn : wordAt t 44 ≤ 50) :
    ashAt env (t ++ u) = ashAt env t := by
  have h : 840 ≤ t.length := h
  unfold ashAt
  rw [wordAt_more (i := 44) (by omega), vals_more env ashPlaces 124 (by decide) (by omega), vals_more env ashTextPlaces 184 (by decide) (by omega),
    bytesAt_more (by omega), pointsAt_more env (by omega)]

theorem gfa_more (env : VgEnv ν) {t u : Bytes} (h : (gfaAt env t).size ≤ t.length) : gfaAt env (t ++ u) = gfaAt env t := by
  have h : 48 + 1024 * (wordAt t 40).toNat + 8 * (wordAt t 44).toNat ≤ t.length := h
  unfold gfaAt
  dsimp only
  have hb : ((List.range (wordAt t 40).toNat).map fun k => stripNull (bytesAt (t ++ u) (48 + 1024 * k) 1024)) =
      (List.range (wordAt t 40).toNat).map fun k => stripNull (bytesAt t (48 + 1024 * k) 1024) := by
    refine List.map_congr_left fun k hk => ?_
    have := List.mem_range.1 hk
    rw [bytesAt_more (by omega)]
  rw [wordAt_more (i := 40) (by omega), wordAt_more (i := 44) (by omega), hb, vals_more env gfaPlaces 48 (by decide) (by omega), pointsAt_more env (by omega)]

theorem jet_more (env : VgEnv ν) {t u : Bytes} (h : (jetAt env t).size ≤ t.length) (hn : wordAt t 44 ≤ 500) (hb : countAt t 4068 ≤ 50)
    (hh : countAt t 22072 ≤ 50) : jetAt env (t ++ u) = jetAt env t := by
  have h : 24076 ≤ t.length := h
  unfold jetAt
  dsimp only
  rw [wordAt_more (i := 44) (by omega), countAt_more (i := 4068) (by omega), countAt_more (i := 22072) (by omega),
    vals_more env jetLinePlaces 68 (by decide) (by omega), pointsAt_more env (by omega), tablesAt_more env barbPlaces (by decide) (by omega),
    tablesAt_more env hashPlaces (by decide) (by omega)]

theorem tca_more (env : VgEnv ν) {t u : Bytes} (h40 : 40 ≤ t.length) (h : (tcaAt env t).size ≤ t.length) : tcaAt env (t ++ u) = tcaAt env t := by
  have h : (wordAt t 20).toNat ≤ t.length := h
  unfold tcaAt
  rw [wordAt_more (i := 20) (by omega), bytesAt_more (by omega)]

theorem wind_more (env : VgEnv ν) {t u : Bytes} (h : (windAt env t).size ≤ t.length) : windAt env (t ++ u) = windAt env t := by
  have h : 76 ≤ t.length := h
  unfold windAt
  rw [vals_more env windPlaces 76 (by decide) (by omega)]

theorem skipped_more {t u : Bytes} (h40 : 40 ≤ t.length) : (skippedAt (t ++ u) : Content ν) = skippedAt t := by
  unfold skippedAt
  rw [wordAt_more (i := 20) (by omega)]

/-- The tables of a watch. -/
theorem watchPlaces_last {v : Nat} (hv : v ≤ 6) : ((watchPlaces v).all fun x => decide (x.2.last ≤ watchEnd v)) = true := by
  interval_cases v <;> decide

theorem watchPoints_le {v : Nat} (hv : v ≤ 6) : watchEnd v + (if v < 2 then 0 else if v < 4 then 2400 else if v = 4 then 3200 else 4800) =
    watchPoints v ∧ 188 ≤ watchEnd v := by
  interval_cases v <;> decide

theorem watchCounties_more {t u : Bytes} {v : Nat} (hv : v ≤ 6) (h : watchPoints v ≤ t.length) :
    watchCounties v (t ++ u) = watchCounties v t := by
  interval_cases v
  · simp only [watchCounties]
  · simp only [watchCounties]
  · have hp : watchPoints 2 = 3092 := by norm_num [watchPoints, watchEnd]
    simp only [watchCounties]
    rw [wordAt_more (i := 684) (by omega)]
  · have hp : watchPoints 3 = 3140 := by norm_num [watchPoints, watchEnd]
    simp only [watchCounties]
    rw [wordAt_more (i := 732) (by omega)]
  · have hp : watchPoints 4 = 4060 := by norm_num [watchPoints, watchEnd]
    simp only [watchCounties]
    rw [wordAt_more (i := 852) (by omega)]
  · have hp : watchPoints 5 = 5660 := by norm_num [watchPoints, watchEnd]
    simp only [watchCounties]
    rw [wordAt_more (i := 852) (by omega)]
  · have hp : watchPoints 6 = 5672 := by norm_num [watchPoints, watchEnd]
    simp only [watchCounties]
    rw [wordAt_more (i := 864) (by omega)]

theorem lookup_all {α : Type} {p : α → Bool} {k : String} {a : α} : ∀ {l : List (String × α)}, (l.all fun x => p x.2) = true → l.lookup k = some a →
    p a = true := by
  intro l
  induction l with
  | nil => intro _ h; cases h
  | cons x l ih =>
    intro hl h
    rw [List.all_cons, Bool.and_eq_true] at hl
    rw [List.lookup_cons] at h
    split at h
    · cases h; exact hl.1
    · exact ih hl.2 h

theorem watchField_more (env : VgEnv ν) {t u : Bytes} {v : Nat} (hv : v ≤ 6) (h : watchPoints v ≤ t.length) (x : String × Option (DVal ν)) :
    watchField env v (t ++ u) x = watchField env v t x := by
  unfold watchField
  cases hl : (watchPlaces v).lookup x.1 with
  | none => rfl
  | some p =>
    have := of_decide_eq_true (lookup_all (p := fun q => decide (q.last ≤ watchEnd v)) (watchPlaces_last hv) hl)
    have := (watchPoints_le hv).1
    exact val_more env (by omega)

theorem counties_more {t u : Bytes} {v : Nat} (hv : v ≤ 6) (h : watchPoints v ≤ t.length)
    (hm : watchCounties v t ≤ if v < 5 then 200 else 400) : (countiesAt v (t ++ u) : Fields ν) = countiesAt v t := by
  unfold countiesAt
  dsimp only
  rw [watchCounties_more hv h]
  generalize watchCounties v t = m at hm
  have hw := watchPoints_le hv
  generalize watchPoints v = p at *
  generalize watchEnd v = e at *
  interval_cases v <;> simp at hw hm ⊢
  · exact ⟨wordsAt_more (by omega), singlesAt_more (by omega), singlesAt_more (by omega)⟩
  · exact ⟨wordsAt_more (by omega), singlesAt_more (by omega), singlesAt_more (by omega)⟩
  · exact ⟨wordsAt_more (by omega), wordsAt_more (by omega), singlesAt_more (by omega), singlesAt_more (by omega)⟩
  · exact ⟨wordsAt_more (by omega), singlesAt_more (by omega), singlesAt_more (by omega)⟩
  · exact ⟨wordsAt_more (by omega), singlesAt_more (by omega), singlesAt_more (by omega)⟩

theorem watch_more (env : VgEnv ν) {t u : Bytes} (hv : byteAt t 6 ≤ 6) (h : (watchAt env t).size ≤ t.length)
    (hm : watchCounties (byteAt t 6) t ≤ if byteAt t 6 < 5 then 200 else 400) : watchAt env (t ++ u) = watchAt env t := by
  have h : watchPoints (byteAt t 6) + 8 * (wordAt t 40).toNat ≤ t.length := h
  have hw := watchPoints_le hv
  unfold watchAt
  dsimp only
  have e6 : byteAt (t ++ u) 6 = byteAt t 6 := byteAt_more (by omega)
  have hf : (watchFields.map fun x => (x.1, watchField env (byteAt t 6) (t ++ u) x)) =
      (watchFields.map fun x => (x.1, watchField env (byteAt t 6) t x)) :=
    List.map_congr_left fun x _ => by rw [watchField_more env hv (by omega)]
  rw [e6, hf, counties_more hv (by omega) hm, wordAt_more (i := 40) (by omega), wordAt_more (i := 52) (by omega), singlesAt_more (by omega),
    singlesAt_more (by omega)]

/-- A complete record holds the same, whatever follows it. -/
theorem content_more (env : VgEnv ν) {t u : Bytes} (h40 : 40 ≤ t.length) (hr : Regular t) (hk : Known t)
    (hs : (contentAt env t).size ≤ t.length) : contentAt env (t ++ u) = contentAt env t ∧ Regular (t ++ u) ∧ Known (t ++ u) := by
  have e1 : byteAt (t ++ u) 1 = byteAt t 1 := byteAt_more (by omega)
  have e2 : byteAt (t ++ u) 2 = byteAt t 2 := byteAt_more (by omega)
  have e6 : byteAt (t ++ u) 6 = byteAt t 6 := byteAt_more (by omega)
  have e20 : wordAt (t ++ u) 20 = wordAt t 20 := wordAt_more (by omega)
  unfold contentAt at hs ⊢
  unfold Regular at hr ⊢
  unfold Known at hk ⊢
  dsimp only at hs hr hk ⊢
  rw [e1, e2, e6, e20]
  generalize byteAt t 1 = y at *
  generalize byteAt t 2 = c at *
  have sk : (skippedAt (t ++ u) : Content ν) = skippedAt t := skipped_more h40
  split at hs <;> simp only at hr hk ⊢
  · have hs' : 68 + 8 * (wordAt t 40).toNat ≤ t.length := hs
    rw [wordAt_more (i := 40) (by omega)]
    exact ⟨front_more env hs, hr, hk⟩
  · have hs' : watchPoints (byteAt t 6) + 8 * (wordAt t 40).toNat ≤ t.length := hs
    have hw := watchPoints_le hk
    rw [wordAt_more (i := 40) (by omega), watchCounties_more hk (by omega)]
    exact ⟨watch_more env hk hs hr.2.2, hr, hk⟩
  · split at hs <;> rename_i hy
    · have hs' : 60 + 8 * (wordAt t 40).toNat ≤ t.length := hs
      simp only [if_pos hy]
      rw [wordAt_more (i := 40) (by omega)]
      exact ⟨line_more env hs, hr, hk⟩
    · simp only [if_neg hy]
      split at hs <;> rename_i hy
      · have hs' : 64 + 8 * (wordAt t 40).toNat ≤ t.length := hs
        simp only [if_pos hy]
        rw [wordAt_more (i := 40) (by omega)]
        exact ⟨specialLine_more env hs, hr, hk⟩
      · simp only [if_neg hy]
        exact ⟨sk, hr, fun h => by rcases h with h | h <;> contradiction⟩
  · exact ⟨symbol_more env hs, hr, hk⟩
  · split at hs <;> rename_i hy
    · simp only [if_pos hy] at hr
      simp only [if_pos hy]
      exact ⟨text_more env h40 hs hr, hr, hk⟩
    · simp only [if_neg hy] at hr
      simp only [if_neg hy]
      split at hs <;> rename_i hy
      · simp only [if_pos hy] at hr
        simp only [if_pos hy]
        exact ⟨specialText_more env h40 hs hr, hr, hk⟩
      · simp only [if_neg hy] at hr
        simp only [if_neg hy]
        exact ⟨sk, hr, hk⟩
  · exact ⟨wind_more env hs, hr, hk⟩
  · have hs' : trackEnd t + 1300 ≤ t.length := hs
    rw [wordAt_more (i := 44) (by omega)]
    exact ⟨track_more env hs hr.2, hr, hk⟩
  · split at hs <;> rename_i hy
    · simp only [if_pos hy] at hr
      simp only [if_pos hy]
      split at hs <;> rename_i hy
      · have hs' : 428 + 8 * (wordAt t 44).toNat ≤ t.length := hs
        simp only [if_pos hy]
        rw [wordAt_more (i := 44) (by omega)]
        exact ⟨sigmet0_more env hs, hr, hk⟩
      · have hs' : 776 + 8 * (wordAt t 44).toNat ≤ t.length := hs
        simp only [if_neg hy]
        rw [wordAt_more (i := 44) (by omega)]
        exact ⟨sigmet1_more env hs, hr, hk⟩
    · simp only [if_neg hy] at hr
      simp only [if_neg hy]
      split at hs <;> rename_i hy
      · have hs' : 1480 ≤ t.length := hs
        simp only [if_pos hy] at hr
        simp only [if_pos hy]
        rw [wordAt_more (i := 44) (by omega)]
        exact ⟨ccf_more env hs hr.2, hr, hk⟩
      · simp only [if_neg hy] at hr
        simp only [if_neg hy]
        split at hs <;> rename_i hy
        · simp only [if_pos hy]
          exact ⟨volcano_more env hs, trivial, hk⟩
        · simp only [if_neg hy] at hr
          simp only [if_neg hy]
          split at hs <;> rename_i hy
          · have hs' : 840 ≤ t.length := hs
            simp only [if_pos hy] at hr
            simp only [if_pos hy]
            rw [wordAt_more (i := 44) (by omega)]
            exact ⟨ash_more env hs hr.2, hr, hk⟩
          · simp only [if_neg hy] at hr
            simp only [if_neg hy]
            exact ⟨sk, hr, hk⟩
  · split at hs <;> rename_i hy
    · have hs' : 60 + 8 * (wordAt t 40).toNat ≤ t.length := hs
      simp only [if_pos hy]
      rw [wordAt_more (i := 40) (by omega)]
      exact ⟨circle_more env hs, hr, hk⟩
    · simp only [if_neg hy]
      exact ⟨sk, hr, fun h => by contradiction⟩
  · have hs' : 8560 ≤ t.length := hs
    rw [wordAt_more (i := 56) (by omega)]
    exact ⟨list_more env hs hr.2, hr, hk⟩
  · split at hs <;> rename_i hy
    · have hs' : 24076 ≤ t.length := hs
      simp only [if_pos hy] at hr
      simp only [if_pos hy]
      rw [wordAt_more (i := 44) (by omega), countAt_more (i := 4068) (by omega),
        countAt_more (i := 22072) (by omega)]
      exact ⟨jet_more env hs (hk (Or.inl hy)) hr.2.1 hr.2.2, hr, hk⟩
    · simp only [if_neg hy] at hr
      simp only [if_neg hy]
      split at hs <;> rename_i hy
      · have hs' : 48 + 1024 * (wordAt t 40).toNat + 8 * (wordAt t 44).toNat ≤ t.length := hs
        simp only [if_pos hy]
        rw [wordAt_more (i := 44) (by omega)]
        exact ⟨gfa_more env hs, trivial, hk⟩
      · simp only [if_neg hy] at hr
        simp only [if_neg hy]
        have hk' : ∀ P : Prop, y = 37 ∨ y = 38 → P := fun P h => by rcases h with h | h <;> contradiction
        split at hs <;> rename_i hy
        · simp only [if_pos hy]
          exact ⟨tca_more env h40 hs, hr, hk' _⟩
        · simp only [if_neg hy]
          split at hs <;> rename_i hy
          · simp only [if_pos hy]
            exact ⟨trivial, trivial, hk' _⟩
          · simp only [if_neg hy] at hr
            simp only [if_neg hy]
            exact ⟨sk, hr, hk' _⟩
  · rename_i n1 n2 n3 n4 n5 n6 n10 n11 n12 n14 n15
    refine ⟨sk, ?_, ?_⟩
    · split at hr <;> first | contradiction | exact hr
    · trivial

/-! ## Joining files -/

theorem bad_more {n m : Nat} {t u : Bytes} (h40 : 40 ≤ t.length) (hn : n ≤ m) (h : ¬ BadRecord n t) : ¬ BadRecord m (t ++ u) := by
  unfold BadRecord at h ⊢
  rw [byteAt_more (i := 0) (by omega), byteAt_more (i := 1) (by omega), byteAt_more (i := 2) (by omega), wordAt_more (i := 12) (by omega),
    wordAt_more (i := 16) (by omega), wordAt_more (i := 20) (by omega)]
  omega

theorem bad_same {n m : Nat} {t : Bytes} (hn : n ≤ m) (h : ¬ BadRecord n t) : ¬ BadRecord m t := by
  unfold BadRecord at h ⊢
  omega

/-- The records of a file are the same after those of another one. -/
theorem full_after (env : VgEnv ν) (a : Bytes) {b : Bytes} {p : Nat} {cs : List (DHdr ν × String × Fields ν)} (h : FullFile env b p cs) :
    FullFile env (a ++ b) (a.length + p) cs := by
  have hd : ∀ p, (a ++ b).drop (a.length + p) = b.drop p := fun p => by
    rw [← List.drop_drop, List.drop_left]
  have hl : (a ++ b).length = a.length + b.length := List.length_append
  induction h with
  | ended e => exact .ended (by rw [hl, e])
  | header h1 h2 h3 h4 h5 _ ih =>
    refine .header (by rw [hd]; exact h1) (by rw [hd]; exact h2) (by rw [hd]; exact bad_same (by omega) h3) (by rw [hd]; exact h4)
      (by rw [hd]; omega) ?_
    rw [hd, Nat.add_assoc]
    exact ih
  | @record p cs h1 h2 h3 h4 h5 h6 h7 _ ih =>
    have := FullFile.record (env := env) (data := a ++ b) (p := a.length + p) (cs := cs) (by rw [hd]; exact h1) (by omega)
      (by rw [hd]; exact bad_same (by omega) h3) (by rw [hd]; exact h4) (by rw [hd]; exact h5) (by rw [hd]; omega) (by rw [hd]; exact h7)
      (by rw [hd, Nat.add_assoc]; exact ih)
    rw [hd] at this
    exact this

/-- What follows a file changes none of its records. -/
theorem full_before (env : VgEnv ν) {a : Bytes} (b : Bytes) {ds : List (DHdr ν × String × Fields ν)} (hb : FullFile env (a ++ b) a.length ds)
    {p : Nat} {cs : List (DHdr ν × String × Fields ν)} (h : FullFile env a p cs) : FullFile env (a ++ b) p (cs ++ ds) := by
  have hl : (a ++ b).length = a.length + b.length := List.length_append
  have hd : ∀ p, p ≤ a.length → (a ++ b).drop p = a.drop p ++ b := fun p hp => List.drop_append_of_le_length hp
  induction h with
  | ended e => rw [e]; exact hb
  | @header p cs h1 h2 h3 h4 h5 _ ih =>
    have hp : 40 ≤ (a.drop p).length := by rw [List.length_drop]; omega
    have hw : wordAt (a.drop p ++ b) 20 = wordAt (a.drop p) 20 := wordAt_more (by omega)
    have hdp := hd p (by omega)
    refine .header (by rw [hdp, byteAt_more (by omega)]; exact h1) (by rw [hdp, byteAt_more (by omega)]; exact h2)
      (by rw [hdp]; exact bad_more hp (by omega) h3) (by rw [hdp, hw]; exact h4) (by rw [hdp, hw]; omega) ?_
    rw [hdp, hw]
    exact ih
  | @record p cs h1 h2 h3 h4 h5 h6 h7 _ ih =>
    have hp : 40 ≤ (a.drop p).length := by rw [List.length_drop]; omega
    have hdp := hd p (by omega)
    obtain ⟨c1, c2, c3⟩ := content_more env (u := b) hp h4 h5 (by rw [List.length_drop]; omega)
    have := FullFile.record (env := env) (data := a ++ b) (p := p) (cs := cs ++ ds)
      (by rw [hdp, byteAt_more (by omega), byteAt_more (by omega)]; exact h1) (by omega)
      (by rw [hdp]; exact bad_more hp (by omega) h3) (by rw [hdp]; exact c2) (by rw [hdp]; exact c3) (by rw [hdp, c1]; omega)
      (by rw [hdp, c1]; exact h7) (by rw [hdp, c1]; exact ih)
    rw [hdp, c1, headAt_more env hp, ← List.append_assoc] at this
    exact this

theorem full_complete (env : VgEnv ν) {a : Bytes} {p : Nat} {cs : List (DHdr ν × String × Fields ν)} (h : FullFile env a p cs) :
    CompleteFile env a p cs := by
  induction h with
  | ended e => exact .ended (by omega)
  | header h1 h2 h3 h4 h5 _ ih => exact .header h1 h2 h3 h4 h5 ih
  | record h1 h2 h3 h4 h5 h6 h7 _ ih => exact .record h1 h2 h3 h4 h5 h6 h7 ih

/-- Any number of files joined. -/
theorem full_join (env : VgEnv ν) : ∀ (l : List (Bytes × List (DHdr ν × String × Fields ν))), (∀ x ∈ l, FullFile env x.1 0 x.2) →
    FullFile env (l.flatMap Prod.fst) 0 (l.flatMap Prod.snd) := by
  intro l
  induction l with
  | nil => intro _; exact .ended rfl
  | cons x l ih =>
    intro h
    rw [List.flatMap_cons, List.flatMap_cons]
    have h2 := full_after env x.1 (ih fun y hy => h y (List.mem_cons_of_mem _ hy))
    exact full_before env _ h2 (h x (by simp))

/-- **C131**: the file made of the bytes of any number of complete files, one after another, opens and has the elements of the first, then those
of the second, and so on: no record has a part in what is read from another. -/
theorem C131_joined (env : VgEnv ν) (l : List (Bytes × List (DHdr ν × String × Fields ν))) (h : ∀ x ∈ l, FullFile env x.1 0 x.2) :
    ∃ N s, (∀ fuel, N ≤ fuel → openVgf env fuel (l.flatMap Prod.fst) = .done s) ∧
      s.elements.map (fun e => (e.hdr, e.kind, shown e.attrs)) = l.flatMap Prod.snd :=
  C115_opens env _ _ (full_complete env (full_join env l h))

/-- What is read from the records of a file does not depend on what follows them. -/
theorem full_records (env : VgEnv ν) {a : Bytes} (b : Bytes) {p : Nat} {cs : List (DHdr ν × String × Fields ν)} (h : FullFile env a p cs) :
    ∀ {h0 h1 : Option (DElem ν)} {es : List (DElem ν)}, Records env (a ++ b) p h0 es h1 →
      ∃ rest, es.map (fun e => (e.hdr, e.kind, shown e.attrs)) = cs ++ rest := by
  have hl : (a ++ b).length = a.length + b.length := List.length_append
  have hd : ∀ p, p ≤ a.length → (a ++ b).drop p = a.drop p ++ b := fun p hp => List.drop_append_of_le_length hp
  induction h with
  | ended e => intro h0 h1 es _; exact ⟨_, rfl⟩
  | @header p cs h1 h2 h3 h4 h5 _ ih =>
    intro g0 g1 es hr
    have hp : 40 ≤ (a.drop p).length := by rw [List.length_drop]; omega
    have hw : wordAt (a.drop p ++ b) 20 = wordAt (a.drop p) 20 := wordAt_more (by omega)
    have hdp := hd p (by omega)
    have e1 : byteAt ((a ++ b).drop p) 1 = 22 := by rw [hdp, byteAt_more (by omega)]; exact h2
    have e2 : byteAt ((a ++ b).drop p) 2 = 0 := by rw [hdp, byteAt_more (by omega)]; exact h1
    have hbad : ¬ BadRecord (a ++ b).length ((a ++ b).drop p) := by rw [hdp]; exact bad_more hp (by omega) h3
    cases hr with
    | ended h => omega
    | stopped _ h => exact absurd h hbad
    | header _ _ _ _ _ h =>
      rw [hdp, hw] at h
      exact ih h
    | record _ _ h => exact absurd ⟨e2, e1⟩ h
    | lost _ _ h =>
      refine absurd ?_ h
      unfold Regular
      simp only [e1, e2, if_true]
      rw [hdp, hw]
      exact h4
  | @record p cs h1 h2 h3 h4 h5 h6 h7 _ ih =>
    intro g0 g1 es hr
    have hp : 40 ≤ (a.drop p).length := by rw [List.length_drop]; omega
    have hdp := hd p (by omega)
    obtain ⟨c1, c2, c3⟩ := content_more env (u := b) hp h4 h5 (by rw [List.length_drop]; omega)
    have hbad : ¬ BadRecord (a ++ b).length ((a ++ b).drop p) := by rw [hdp]; exact bad_more hp (by omega) h3
    cases hr with
    | ended h => omega
    | stopped _ h => exact absurd h hbad
    | header _ _ k2 k1 _ _ =>
      rw [hdp, byteAt_more (by omega)] at k1 k2
      exact absurd ⟨k2, k1⟩ h1
    | @record _ _ es rest _ _ _ _ _ hs h =>
      rw [hdp, c1] at h
      obtain ⟨more, hm⟩ := ih h
      refine ⟨more, ?_⟩
      obtain ⟨s1, s2⟩ := hs
      rw [hdp] at s1 s2
      rw [c1] at s1
      rw [headAt_more env hp] at s2
      rw [List.map_append, hm, ← List.append_assoc, ← s1, List.map_map]
      congr 1
      congr 1
      exact List.map_congr_left fun e he => by rw [s2 e he]; rfl
    | lost _ _ h => rw [hdp] at h; exact absurd c2 h

/-- **C131**: when a complete file with anything appended can be opened, its elements come first, as they were. -/
theorem C131_appended (env : VgEnv ν) (a b : Bytes) (cs : List (DHdr ν × String × Fields ν)) (h : FullFile env a 0 cs) (fuel : Nat)
    (s : VgState ν) (ho : openVgf env fuel (a ++ b) = .done s) :
    ∃ rest, s.elements.map (fun e => (e.hdr, e.kind, shown e.attrs)) = cs ++ rest :=
  full_records env b h (C85_records_partial env fuel _ s ho)

/-- A file of one symbol is complete. -/
theorem symbolFile_full : FullFile env0 symbolFile 0
    ((contentAt env0 symbolFile).elems.map (fun e => (headAt env0 symbolFile, e)) ++ []) := by
  refine .record (p := 0) ?_ ?_ ?_ ?_ ?_ ?_ ?_ (.ended ?_)
  · decide +kernel
  · decide +kernel
  · unfold BadRecord; decide +kernel
  · trivial
  · trivial
  · decide +kernel
  · have h : (contentAt env0 symbolFile).elems.all (fun e => e.2.all fun f => f.2.isSome) = true := by decide +kernel
    intro e he f hf
    have := List.all_eq_true.1 (List.all_eq_true.1 h e he) f hf
    exact fun hn => by rw [hn] at this; cases this
  · decide +kernel

/-- So three of them, one after another, are a file of three elements. -/
example : ∃ N s, (∀ fuel, N ≤ fuel → openVgf env0 fuel (symbolFile ++ (symbolFile ++ (symbolFile ++ []))) = .done s) ∧ s.elements.length = 3 := by
  have e := symbolFile_full
  generalize hc : (contentAt env0 symbolFile).elems.map (fun e => (headAt env0 symbolFile, e)) ++ [] = c at e
  have hl : c.length = 1 := by
    rw [← hc, List.append_nil, List.length_map]
    decide +kernel
  obtain ⟨N, s, h1, h2⟩ := C131_joined env0 [(symbolFile, c), (symbolFile, c), (symbolFile, c)] (by
    intro x hx
    simp only [List.mem_cons, List.not_mem_nil, or_false, or_self] at hx
    rw [hx]
    exact e)
  refine ⟨N, s, h1, ?_⟩
  have := congrArg List.length h2
  simpa [hl] using this

/-- C131: one byte too many at the end, and none of the elements can be had. -/
theorem C131_all_lost : (∃ s : VgState Unit, openVgf env0 10 symbolFile = .done s ∧ s.elements.length = 1) ∧
    openVgf env0 10 (symbolFile ++ [0]) = .raised .structError := by
  have h : (match openVgf env0 10 symbolFile with | .done s => decide (s.elements.length = 1) | _ => false) = true := by decide +kernel
  have h' : (match openVgf env0 10 (symbolFile ++ [0]) with | .raised e => decide (e = .structError) | _ => false) = true := by decide +kernel
  constructor
  · cases hs : openVgf env0 10 symbolFile with
    | done s => rw [hs] at h; exact ⟨s, rfl, of_decide_eq_true h⟩
    | raised e => rw [hs] at h; cases h
    | outOfFuel => rw [hs] at h; cases h
  · cases hs : openVgf env0 10 (symbolFile ++ [0]) with
    | done s => rw [hs] at h'; cases h'
    | raised e => rw [hs] at h'; rw [of_decide_eq_true h']
    | outOfFuel => rw [hs] at h'; cases h'

end Gempak
