import Verif.Proof.VgfPlace
import Verif.Proof.VgfBody

/-!
# What the decoder of each kind of record returns
-/

namespace Gempak
variable {ν : Type}
open Spec (byteAt wordAt bytesAt singleAt Place vals shown singlesAt wordsAt textsAt pointsAt codeName lead)

/-! ## Names -/

theorem enum_codeName {lo : Int} {names : List String} {i : Int} {s : String} (h : enumName lo names i = .ok s) :
    (codeName lo names i : Option (DVal ν)) = some (.text (txt s)) := by
  unfold enumName at h
  unfold Spec.codeName
  split at h
  · cases h
  · rename_i hlo
    rw [if_pos (by omega)]
    split at h
    · rename_i n hn
      rw [hn, ← Except.ok.inj h]; rfl
    · cases h

theorem fmtD_lead (w : Nat) (hw : 0 < w) (k : Nat) (hk : k < w) (n : Nat) (h : 10 ^ w ≤ n) :
    (fmtD w (n : Int))[k]? = (fmtD w ((n / 10 : Nat) : Int))[k]? := by
  have hp : 10 ^ w = 10 ^ (w - 1) * 10 := by
    rw [← Nat.pow_succ]; congr 1; omega
  have h10 : 10 ≤ n := by
    have : 1 ≤ 10 ^ (w - 1) := Nat.one_le_pow _ _ (by omega)
    omega
  have hlen : w ≤ (Nat.toDigits 10 (n / 10)).length := by
    by_contra hlt
    have hlt : (Nat.toDigits 10 (n / 10)).length ≤ w - 1 := by omega
    have h0 := @Nat.length_toDigits_pos 10 (n / 10)
    have := (Nat.length_toDigits_le_iff (b := 10) (by omega) (show 0 < w - 1 by omega)).1 hlt
    omega
  have e := Nat.toDigits_of_base_le (b := 10) (by omega) h10
  unfold fmtD
  dsimp only
  rw [if_neg (by omega), if_neg (by omega), Int.natAbs_natCast, Int.natAbs_natCast, e]
  have r1 : w - (Nat.toDigits 10 (n / 10) ++ [Nat.digitChar (n % 10)]).length = 0 := by
    rw [List.length_append]; omega
  have r2 : w - (Nat.toDigits 10 (n / 10)).length = 0 := by omega
  rw [r1, r2]
  simp only [List.replicate_zero, List.nil_append]
  rw [List.getElem?_append_left (by omega)]

theorem digit_lead (w : Nat) (hw : 0 < w) (k : Nat) (hk : k < w) (n : Nat) :
    digitAt (fmtD w (n : Int)) k = digitAt (fmtD w ((lead w n : Nat) : Int)) k := by
  fun_induction lead w n with
  | case1 => rfl
  | case2 n h ih =>
    rw [← ih]
    unfold digitAt
    rw [fmtD_lead w hw k hk n (by omega)]

theorem lead_lt (w n : Nat) : lead w n < 10 ^ w := by
  fun_induction lead w n with
  | case1 => assumption
  | case2 n h ih => exact ih

theorem digit_neg (w : Nat) (i : Int) (h : i < 0) : digitAt (fmtD w i) 0 = .error .valueError := by
  unfold fmtD digitAt
  dsimp only
  rw [if_pos h]
  rfl

theorem line_digits : ∀ v : Fin 100, digitAt (fmtD 2 (v.val : Int)) 0 = .ok ((v.val / 10 : Nat) : Int) ∧
    digitAt (fmtD 2 (v.val : Int)) 1 = .ok ((v.val % 10 : Nat) : Int) := by
  decide +kernel

theorem lineProps_place {c : Int} {p : DRec ν} (h : lineProps c = .ok p) : shown p = Spec.lineNaming c := by
  unfold lineProps at h
  obtain ⟨m, hm, h⟩ := bind_inv h
  obtain ⟨d, hd, h⟩ := bind_inv h
  obtain ⟨s, hs, h⟩ := bind_inv h
  have h := Except.ok.inj h
  subst h
  have h0 : 0 ≤ c := by
    by_contra hc
    rw [digit_neg 2 c (by omega)] at hm
    cases hm
  obtain ⟨n, rfl⟩ := Int.eq_ofNat_of_zero_le h0
  rw [digit_lead 2 (by omega) 0 (by omega)] at hm
  rw [digit_lead 2 (by omega) 1 (by omega)] at hd
  have hl := lead_lt 2 n
  obtain ⟨t1, t2⟩ := line_digits ⟨lead 2 n, hl⟩
  dsimp only at t1 t2
  rw [t1] at hm
  rw [t2] at hd
  have hm := Except.ok.inj hm
  have hd := Except.ok.inj hd
  subst hm hd
  unfold Spec.lineNaming
  dsimp only
  rw [Int.toNat_natCast, if_pos h0]
  have hs' : (codeName 0 Spec.lineStyles ((lead 2 n : Nat) % 10 : Int) : Option (DVal ν)) = some (.text (txt s)) :=
    enum_codeName (by push_cast at hs; exact hs)
  rw [hs']
  simp only [Spec.shown, List.map_cons, List.map_nil]
  push_cast
  rfl

theorem frontProps_place {c : Int} {p : DRec ν} (h : frontProps c = .ok p) : shown p = Spec.frontNaming c := by
  unfold frontProps at h
  obtain ⟨d0, h0', h⟩ := bind_inv h
  obtain ⟨s0, hs0, h⟩ := bind_inv h
  obtain ⟨d1, h1', h⟩ := bind_inv h
  obtain ⟨s1, hs1, h⟩ := bind_inv h
  obtain ⟨d2, h2', h⟩ := bind_inv h
  obtain ⟨s2, hs2, h⟩ := bind_inv h
  have h := Except.ok.inj h
  subst h
  have h0 : 0 ≤ c := by
    by_contra hc
    rw [digit_neg 3 c (by omega)] at h0'
    cases h0'
  obtain ⟨n, rfl⟩ := Int.eq_ofNat_of_zero_le h0
  rw [digit_lead 3 (by omega) 0 (by omega)] at h0'
  rw [digit_lead 3 (by omega) 1 (by omega)] at h1'
  rw [digit_lead 3 (by omega) 2 (by omega)] at h2'
  have hl := lead_lt 3 n
  obtain ⟨t0, t1, t2⟩ := code_table ⟨lead 3 n, hl⟩
  dsimp only at t0 t1 t2
  rw [t0] at h0'
  rw [t1] at h1'
  rw [t2] at h2'
  have h0' := Except.ok.inj h0'
  have h1' := Except.ok.inj h1'
  have h2' := Except.ok.inj h2'
  subst h0' h1' h2'
  push_cast at hs0 hs1 hs2
  unfold Spec.frontNaming
  dsimp only
  rw [Int.toNat_natCast, if_pos h0]
  have e0 : (codeName 0 Spec.frontKinds ((lead 3 n : Nat) / 100 : Int) : Option (DVal ν)) = _ := enum_codeName hs0
  have e1 : (codeName 0 Spec.frontStrengths ((lead 3 n : Nat) / 10 % 10 : Int) : Option (DVal ν)) = _ := enum_codeName hs1
  have e2 : (codeName 0 Spec.frontCharacters ((lead 3 n : Nat) % 10 : Int) : Option (DVal ν)) = _ := enum_codeName hs2
  rw [e0, e1, e2]
  rfl

/-! ## Bodies -/

/-- A body decoder returns what stands in the record and goes on right after it. -/
def Reads (b : IOBuffer) (pre t : Bytes) (x : Rd (Prod' ν)) (c : Spec.Content ν) : Prop :=
  ∀ a b', x b = .ok (a, b') → a.map (fun p => (p.1, shown p.2)) = c.elems ∧ On b' pre t c.size

theorem reads_fronts (env : VgEnv ν) {b : IOBuffer} {pre t : Bytes} (hb : On b pre t 40) :
    Reads b pre t (decodeFronts env) (Spec.frontAt env t) := by
  intro a b' h
  unfold decodeFronts at h
  obtain ⟨r, b1, hr, h⟩ := rd_inv h
  obtain ⟨e1, o1⟩ := on_rec env .big frontInfo (wellFormed_info env _ rfl) (by decide) (by decide) hb hr
  obtain ⟨n, b2, hn', h⟩ := rd_inv h
  obtain ⟨hn, rfl⟩ := rd_pure_inv hn'
  have hn := int_place env e1 (i := 40) (by decide) hn
  obtain ⟨ll, b3, hll, h⟩ := rd_inv h
  obtain ⟨e2, o2⟩ := on_latlon env o1 hll
  obtain ⟨x, b4, hx', h⟩ := rd_inv h
  obtain ⟨hx, rfl⟩ := rd_pure_inv hx'
  have hx := pick_place env e1 _ hx (out := Spec.frontPlaces) (by decide)
  obtain ⟨p, b5, hp', h⟩ := rd_inv h
  obtain ⟨hp, rfl⟩ := rd_pure_inv hp'
  obtain ⟨c, hc, hp⟩ := bind_inv hp
  have hc := int_place env e1 (i := 44) (by decide) hc
  have hp := frontProps_place hp
  have h := Prod.mk.inj (Except.ok.inj h)
  obtain ⟨rfl, rfl⟩ := h
  subst hn hc
  refine ⟨?_, o2⟩
  show [("FrontElement", shown (x ++ [("lat", latVal ll), ("lon", lonVal ll)] ++ p))] = _
  rw [shown_append, shown_append, hx, hp, points_eq env t 68 _ e2]
  rfl

theorem reads_symbols (env : VgEnv ν) {b : IOBuffer} {pre t : Bytes} (hb : On b pre t 40) :
    Reads b pre t (decodeSymbols env) (Spec.symbolAt env t) := by
  intro a b' h
  unfold decodeSymbols at h
  obtain ⟨r, b1, hr1, h⟩ := rd_inv h
  obtain ⟨e1, o1⟩ := on_rec env .big symbolInfo (wellFormed_info env _ rfl) (by decide) (by decide) hb hr1
  obtain ⟨x1, b2, hp2, h⟩ := rd_inv h
  obtain ⟨hq2, rfl⟩ := rd_pure_inv hp2
  have hq2 := pick_place env e1 _ hq2 (out := [("number_symbols", .word 40), ("width", .word 44)]) (by decide)
  obtain ⟨x2, b3, hp3, h⟩ := rd_inv h
  obtain ⟨hq3, rfl⟩ := rd_pure_inv hp3
  have hq3 := pickAs_place env e1 hq3 (p := .rounded 1 48) (by decide)
  obtain ⟨x3, b4, hp4, h⟩ := rd_inv h
  obtain ⟨hq4, rfl⟩ := rd_pure_inv hp4
  have hq4 := pick_place env e1 _ hq4 (out := [("symbol_type", .word 52), ("symbol_code", .whole 56), ("offset_x", .word 68), ("offset_y", .word 72),
    ("lat", .rounded 2 60), ("lon", .rounded 2 64)]) (by decide)
  have h := Prod.mk.inj (Except.ok.inj h)
  obtain ⟨rfl, rfl⟩ := h
  refine ⟨?_, o1⟩
  show [("SymbolElement", shown (x1 ++ x2 ++ x3))] = _
  rw [shown_append, shown_append, hq2, hq3, hq4]
  rfl

theorem reads_circles (env : VgEnv ν) {b : IOBuffer} {pre t : Bytes} (hb : On b pre t 40) :
    Reads b pre t (decodeCircles env) (Spec.circleAt env t) := by
  intro a b' h
  unfold decodeCircles at h
  obtain ⟨r, b1, hr1, h⟩ := rd_inv h
  obtain ⟨e1, o1⟩ := on_rec env .big circleInfo (wellFormed_info env _ rfl) (by decide) (by decide) hb hr1
  obtain ⟨n, b2, hn2, h⟩ := rd_inv h
  obtain ⟨hi2, rfl⟩ := rd_pure_inv hn2
  have hi2 := int_place env e1 (i := 40) (by decide) hi2
  obtain ⟨ll, b3, hll, h⟩ := rd_inv h
  obtain ⟨e2, o2⟩ := on_latlon env o1 hll
  obtain ⟨x, b4, hp4, h⟩ := rd_inv h
  obtain ⟨hq4, rfl⟩ := rd_pure_inv hp4
  have hq4 := pick_place env e1 _ hq4 (out := Spec.linePlaces) (by decide)
  obtain ⟨p, b5, hp', h⟩ := rd_inv h
  obtain ⟨hp, rfl⟩ := rd_pure_inv hp'
  obtain ⟨c, hc, hp⟩ := bind_inv hp
  have hc := int_place env e1 (i := 44) (by decide) hc
  have hp := lineProps_place hp
  have h := Prod.mk.inj (Except.ok.inj h)
  obtain ⟨rfl, rfl⟩ := h
  subst hi2 hc
  refine ⟨?_, o2⟩
  show [("CircleElement", shown (x ++ [("lat", latVal ll), ("lon", lonVal ll)] ++ p))] = _
  rw [shown_append, shown_append, hq4, hp, points_eq env t 60 _ e2]
  rfl

theorem closeIf_ringed {α : Type} (c : Bool) (n : Int) (x y : List α) (hx : x.length = n.toNat) (hy : y.length = n.toNat) :
    closeIf (c && decide (n > 2)) (x, y) = (Spec.ringed c x, Spec.ringed c y) := by
  have one : ∀ z : List α, z.length = n.toNat →
      (if (c && decide (n > 2)) = true then z ++ z.head?.toList else z) = Spec.ringed c z := by
    intro z hz
    match z, hz with
    | [], h => simp [Spec.ringed]
    | [a], h =>
      have : ¬ n > 2 := by simp only [List.length_cons, List.length_nil] at h; omega
      simp [Spec.ringed, this]
    | [a, b], h =>
      have : ¬ n > 2 := by simp only [List.length_cons, List.length_nil] at h; omega
      simp [Spec.ringed, this]
    | a :: b :: d :: r, h =>
      have : n > 2 := by simp only [List.length_cons] at h; omega
      simp [Spec.ringed, this]
  have h1 := one x hx
  have h2 := one y hy
  unfold closeIf
  rw [← h1, ← h2]
  split <;> rfl

theorem singles_length (t : Bytes) (i : Nat) (n : Int) : (singlesAt t i n).length = n.toNat := by
  simp [Spec.singlesAt]

theorem reads_lines (env : VgEnv ν) {b : IOBuffer} {pre t : Bytes} (hb : On b pre t 40) {hd : DHdr ν}
    (hcl : hd.closed = byteAt t 4) : Reads b pre t (decodeLines env hd) (Spec.lineAt env t) := by
  intro a b' h
  unfold decodeLines at h
  obtain ⟨r, b1, hr1, h⟩ := rd_inv h
  obtain ⟨e1, o1⟩ := on_rec env .big lineInfo (wellFormed_info env _ rfl) (by decide) (by decide) hb hr1
  obtain ⟨n, b2, hn2, h⟩ := rd_inv h
  obtain ⟨hi2, rfl⟩ := rd_pure_inv hn2
  have hi2 := int_place env e1 (i := 40) (by decide) hi2
  obtain ⟨ll, b3, hll, h⟩ := rd_inv h
  obtain ⟨e2, o2⟩ := on_latlon env o1 hll
  have hcd : decide (hd.closed ≠ 0) = decide (byteAt t 4 ≠ 0) := by rw [hcl]; congr 1; simp
  unfold Spec.lineAt
  dsimp only
  by_cases hn1 : 1 ≤ n
  · rw [if_pos hn1] at e2
    subst e2
    dsimp only at h
    obtain ⟨x, b4, hp4, h⟩ := rd_inv h
    obtain ⟨hq4, rfl⟩ := rd_pure_inv hp4
    have hq4 := pick_place env e1 _ hq4 (out := Spec.linePlaces) (by decide)
    obtain ⟨p, b5, hp', h⟩ := rd_inv h
    obtain ⟨hp, rfl⟩ := rd_pure_inv hp'
    obtain ⟨c, hc, hp⟩ := bind_inv hp
    have hc := int_place env e1 (i := 44) (by decide) hc
    have hp := lineProps_place hp
    have h := Prod.mk.inj (Except.ok.inj h)
    obtain ⟨rfl, rfl⟩ := h
    rw [closeIf_ringed _ _ _ _ (by rw [List.length_map, singles_length]) (by rw [List.length_map, singles_length]), hcd]
    subst hi2 hc
    rw [if_neg (by omega)]
    refine ⟨?_, o2⟩
    show [("LineElement", shown (x ++ [_, _] ++ p))] = _
    rw [shown_append, shown_append, hq4, hp]
    rfl
  · rw [if_neg hn1] at e2
    subst e2
    have h := Prod.mk.inj (Except.ok.inj h)
    obtain ⟨rfl, rfl⟩ := h
    subst hi2
    rw [if_pos (by omega)]
    exact ⟨rfl, o2⟩

theorem oriented_pair {α : Type} (d : Int) (x y : List α) :
    (if d = -1 then ((x, y).1.reverse, (x, y).2.reverse) else (x, y)) = (Spec.oriented d x, Spec.oriented d y) := by
  unfold Spec.oriented
  split <;> rfl

theorem reads_special_lines (env : VgEnv ν) {b : IOBuffer} {pre t : Bytes} (hb : On b pre t 40) {hd : DHdr ν}
    (hcl : hd.closed = byteAt t 4) : Reads b pre t (decodeSpecialLines env hd) (Spec.specialLineAt env t) := by
  intro a b' h
  unfold decodeSpecialLines at h
  obtain ⟨r, b1, hr1, h⟩ := rd_inv h
  obtain ⟨e1, o1⟩ := on_rec env .big specialLineInfo (wellFormed_info env _ rfl) (by decide) (by decide) hb hr1
  obtain ⟨n, b2, hn2, h⟩ := rd_inv h
  obtain ⟨hi2, rfl⟩ := rd_pure_inv hn2
  have hi2 := int_place env e1 (i := 40) (by decide) hi2
  obtain ⟨ll, b3, hll, h⟩ := rd_inv h
  obtain ⟨e2, o2⟩ := on_latlon env o1 hll
  have hcd : decide (hd.closed ≠ 0) = decide (byteAt t 4 ≠ 0) := by rw [hcl]; congr 1; simp
  unfold Spec.specialLineAt
  dsimp only
  by_cases hn1 : 1 ≤ n
  · rw [if_pos hn1] at e2
    subst e2
    dsimp only at h
    obtain ⟨d, b4, hn4, h⟩ := rd_inv h
    obtain ⟨hi4, rfl⟩ := rd_pure_inv hn4
    have hi4 := int_place env e1 (i := 52) (by decide) hi4
    obtain ⟨x1, b5, hp5, h⟩ := rd_inv h
    obtain ⟨hq5, rfl⟩ := rd_pure_inv hp5
    have hq5 := pick_place env e1 _ hq5 (out := [("number_points", .word 40), ("line_type", .word 44), ("stroke", .word 48),
      ("direction", .word 52)]) (by decide)
    obtain ⟨x2, b6, hp6, h⟩ := rd_inv h
    obtain ⟨hq6, rfl⟩ := rd_pure_inv hp6
    have hq6 := pickAs_place env e1 hq6 (p := .rounded 1 56) (by decide)
    obtain ⟨x3, b7, hp7, h⟩ := rd_inv h
    obtain ⟨hq7, rfl⟩ := rd_pure_inv hp7
    have hq7 := pick_place env e1 _ hq7 (out := [("width", .word 60)]) (by decide)
    obtain ⟨lt, b8, hn8, h⟩ := rd_inv h
    obtain ⟨hi8, rfl⟩ := rd_pure_inv hn8
    have hi8 := int_place env e1 (i := 44) (by decide) hi8
    obtain ⟨s, b9, hs', h⟩ := rd_inv h
    obtain ⟨hs, rfl⟩ := rd_pure_inv hs'
    have hs : (codeName 1 Spec.specialLineStyles lt : Option (DVal ν)) = _ := enum_codeName hs
    have h := Prod.mk.inj (Except.ok.inj h)
    obtain ⟨rfl, rfl⟩ := h
    rw [closeIf_ringed _ _ _ _ (by rw [List.length_map, singles_length]) (by rw [List.length_map, singles_length]), hcd,
      oriented_pair]
    subst hi2 hi4 hi8
    rw [if_neg (by omega)]
    refine ⟨?_, o2⟩
    show [("SpecialLineElement", shown (x1 ++ x2 ++ x3 ++ [_, _] ++ [_]))] = _
    rw [shown_append, shown_append, shown_append, shown_append, hq5, hq6, hq7, hs]
    rfl
  · rw [if_neg hn1] at e2
    subst e2
    have h := Prod.mk.inj (Except.ok.inj h)
    obtain ⟨rfl, rfl⟩ := h
    subst hi2
    rw [if_pos (by omega)]
    exact ⟨rfl, o2⟩

theorem reads_lists (env : VgEnv ν) {b : IOBuffer} {pre t : Bytes} (hb : On b pre t 40)
    (hc : 0 ≤ wordAt t 56 ∧ wordAt t 56 ≤ 500) :
    Reads b pre t (decodeLists env) (Spec.listAt env t) := by
  intro a b' h
  unfold decodeLists at h
  obtain ⟨r, b1, hr1, h⟩ := rd_inv h
  obtain ⟨e1, o1⟩ := on_rec env .big listInfo (wellFormed_info env _ rfl) (by decide) (by decide) hb hr1
  have o1 := o1.cast (show _ = 60 by decide)
  obtain ⟨n, b2, hn2, h⟩ := rd_inv h
  obtain ⟨hi2, rfl⟩ := rd_pure_inv hn2
  have hi2 := int_place env e1 (i := 56) (by decide) hi2
  rw [← hi2] at hc
  obtain ⟨items, b3, hit, h⟩ := rd_inv h
  obtain ⟨e3, o3⟩ := on_texts 9 n o1 hit
  simp only [maxPoints, Nat.cast_ofNat] at h
  obtain ⟨u4, b4, hs4, h⟩ := rd_inv h
  have o4 := (on_skip (by omega) o3 hs4).cast (show _ = 4560 by omega)
  obtain ⟨lat, b5, hlat, h⟩ := rd_inv h
  obtain ⟨e5, o5, _⟩ := on_words hc.1 o4 hlat
  obtain ⟨u6, b6, hs6, h⟩ := rd_inv h
  have o6 := (on_skip (by omega) o5 hs6).cast (show _ = 6560 by omega)
  obtain ⟨lon, b7, hlon, h⟩ := rd_inv h
  obtain ⟨e7, o7, _⟩ := on_words hc.1 o6 hlon
  obtain ⟨u8, b8, hs8, h⟩ := rd_inv h
  have o8 := (on_skip (by omega) o7 hs8).cast (show _ = 8560 by omega)
  obtain ⟨x, b9, hp9, h⟩ := rd_inv h
  obtain ⟨hq9, rfl⟩ := rd_pure_inv hp9
  have hq9 := pick_place env e1 _ hq9 (out := Spec.listPlaces) (by decide)
  obtain ⟨lt, b10, hlt', h⟩ := rd_inv h
  obtain ⟨hlt, rfl⟩ := rd_pure_inv hlt'
  obtain ⟨c1, hc1, hlt⟩ := bind_inv hlt
  have hc1 := int_place env e1 (i := 40) (by decide) hc1
  have hlt : (codeName 1 Spec.listKinds c1 : Option (DVal ν)) = _ := enum_codeName hlt
  obtain ⟨mt, b11, hmt', h⟩ := rd_inv h
  obtain ⟨hmt, rfl⟩ := rd_pure_inv hmt'
  obtain ⟨c2, hc2, hmt⟩ := bind_inv hmt
  have hc2 := int_place env e1 (i := 44) (by decide) hc2
  have hmt : (codeName 0 Spec.markers c2 : Option (DVal ν)) = _ := enum_codeName hmt
  have h := Prod.mk.inj (Except.ok.inj h)
  obtain ⟨rfl, rfl⟩ := h
  subst e5 e7
  refine ⟨?_, o8⟩
  unfold Spec.listAt
  dsimp only
  show [("ListElement", shown (x ++ [_, _, _, _, _]))] = _
  rw [shown_append, hq9, ← hi2, e3, ← hc1, hlt, ← hc2, hmt]
  rfl

theorem reads_text (env : VgEnv ν) {b : IOBuffer} {pre t : Bytes} (hb : On b pre t 40) {hd : DHdr ν}
    (hsz : hd.recordSize = wordAt t 20) (hc : 80 ≤ wordAt t 20) : Reads b pre t (decodeText env hd) (Spec.textAt env t) := by
  intro a b' h
  unfold decodeText at h
  obtain ⟨r, b1, hr1, h⟩ := rd_inv h
  obtain ⟨e1, o1⟩ := on_rec env .big textInfo (wellFormed_info env _ rfl) (by decide) (by decide) hb hr1
  have o1 := o1.cast (show _ = 80 by decide)
  obtain ⟨s, b2, hs2, h⟩ := rd_inv h
  unfold readVgText at hs2
  obtain ⟨y, b3, hy, hs3⟩ := rd_inv hs2
  have hs4 := Prod.mk.inj (Except.ok.inj hs3)
  obtain ⟨hs5, rfl⟩ := hs4
  have hw : hd.recordSize - vgfHeaderSize - ((dSize textInfo : Nat) : Int) = (((wordAt t 20).toNat - 80 : Nat) : Int) := by
    rw [hsz]
    have : dSize textInfo = 40 := by decide
    rw [this]
    unfold vgfHeaderSize
    omega
  rw [hw] at hy
  obtain ⟨e2, o2⟩ := on_cstring _ o1 hy
  obtain ⟨x1, b4, hp4, h⟩ := rd_inv h
  obtain ⟨hq4, rfl⟩ := rd_pure_inv hp4
  have hq4 := pick_place env e1 _ hq4 (out := [("rotation", .rounded 1 40)]) (by decide)
  obtain ⟨x2, b5, hp5, h⟩ := rd_inv h
  obtain ⟨hq5, rfl⟩ := rd_pure_inv hp5
  have hq5 := pickAs_place env e1 hq5 (p := .rounded 3 44) (by decide)
  obtain ⟨x3, b6, hp6, h⟩ := rd_inv h
  obtain ⟨hq6, rfl⟩ := rd_pure_inv hp6
  have hq6 := pick_place env e1 _ hq6 (out := [("font", .word 48), ("text_flag", .word 52), ("width", .word 56), ("align", .word 60),
    ("lat", .rounded 2 64), ("lon", .rounded 2 68), ("offset_x", .word 72), ("offset_y", .word 76)]) (by decide)
  have h := Prod.mk.inj (Except.ok.inj h)
  obtain ⟨rfl, rfl⟩ := h
  refine ⟨?_, o2.cast (by show _ = (wordAt t 20).toNat; omega)⟩
  unfold Spec.textAt Spec.restText
  rw [e2]
  show [("TextElement", shown (x1 ++ x2 ++ x3 ++ [_]))] = _
  rw [shown_append, shown_append, shown_append, hq4, hq5, hq6, ← hs5]
  rfl

theorem reads_special_text (env : VgEnv ν) {b : IOBuffer} {pre t : Bytes} (hb : On b pre t 40) {hd : DHdr ν}
    (hsz : hd.recordSize = wordAt t 20) (hc : 100 ≤ wordAt t 20) : Reads b pre t (decodeSpecialText env hd) (Spec.specialTextAt env t) := by
  intro a b' h
  unfold decodeSpecialText at h
  obtain ⟨r, b1, hr1, h⟩ := rd_inv h
  obtain ⟨e1, o1⟩ := on_rec env .big specialTextInfo (wellFormed_info env _ rfl) (by decide) (by decide) hb hr1
  have o1 := o1.cast (show _ = 100 by decide)
  obtain ⟨s, b2, hs2, h⟩ := rd_inv h
  unfold readVgText at hs2
  obtain ⟨y, b3, hy, hs3⟩ := rd_inv hs2
  have hs4 := Prod.mk.inj (Except.ok.inj hs3)
  obtain ⟨hs5, rfl⟩ := hs4
  have hw : hd.recordSize - vgfHeaderSize - ((dSize specialTextInfo : Nat) : Int) = (((wordAt t 20).toNat - 100 : Nat) : Int) := by
    rw [hsz]
    have : dSize specialTextInfo = 60 := by decide
    rw [this]
    unfold vgfHeaderSize
    omega
  rw [hw] at hy
  obtain ⟨e2, o2⟩ := on_cstring _ o1 hy
  obtain ⟨x1, b4, hp4, h⟩ := rd_inv h
  obtain ⟨hq4, rfl⟩ := rd_pure_inv hp4
  have hq4 := pick_place env e1 _ hq4 (out := [("rotation", .rounded 1 40)]) (by decide)
  obtain ⟨x2, b5, hp5, h⟩ := rd_inv h
  obtain ⟨hq5, rfl⟩ := rd_pure_inv hp5
  have hq5 := pickAs_place env e1 hq5 (p := .rounded 3 44) (by decide)
  obtain ⟨x3, b6, hp6, h⟩ := rd_inv h
  obtain ⟨hq6, rfl⟩ := rd_pure_inv hp6
  have hq6 := pick_place env e1 _ hq6 (out := [("text_type", .word 48), ("turbulence_symbol", .word 52), ("font", .word 56),
    ("text_flag", .word 60), ("width", .word 64), ("text_color", .word 68), ("line_color", .word 72),
    ("fill_color", .word 76), ("align", .word 80), ("lat", .rounded 2 84), ("lon", .rounded 2 88), ("offset_x", .word 92),
    ("offset_y", .word 96)]) (by decide)
  have h := Prod.mk.inj (Except.ok.inj h)
  obtain ⟨rfl, rfl⟩ := h
  refine ⟨?_, o2.cast (by show _ = (wordAt t 20).toNat; omega)⟩
  unfold Spec.specialTextAt Spec.restText
  rw [e2]
  show [("SpecialTextElement", shown (x1 ++ x2 ++ x3 ++ [_]))] = _
  rw [shown_append, shown_append, shown_append, hq4, hq5, hq6, ← hs5]
  rfl

theorem reads_volcanoes (env : VgEnv ν) {b : IOBuffer} {pre t : Bytes} (hb : On b pre t 40) :
    Reads b pre t (decodeVolcanoes env) (Spec.volcanoAt env t) := by
  intro a b' h
  unfold decodeVolcanoes at h
  obtain ⟨r, b1, hr1, h⟩ := rd_inv h
  obtain ⟨e1, o1⟩ := on_rec env .big volcanoInfo (wellFormed_info env _ rfl) (by decide) (by decide) hb hr1
  have o1 := o1.cast (show _ = 5916 by decide)
  obtain ⟨x, b2, hp2, h⟩ := rd_inv h
  obtain ⟨hq2, rfl⟩ := rd_pure_inv hp2
  have hq2 := pick_place env e1 _ hq2 (out := Spec.volcanoPlaces) (by decide)
  have h := Prod.mk.inj (Except.ok.inj h)
  obtain ⟨rfl, rfl⟩ := h
  refine ⟨?_, o1⟩
  show [("VolcanoElement", shown x)] = _
  rw [hq2]
  rfl

theorem reads_winds (env : VgEnv ν) {b : IOBuffer} {pre t : Bytes} (hb : On b pre t 40) :
    Reads b pre t (decodeWinds env) (Spec.windAt env t) := by
  intro a b' h
  unfold decodeWinds at h
  obtain ⟨r, b1, hr1, h⟩ := rd_inv h
  obtain ⟨e1, o1⟩ := on_rec env .big windInfo (wellFormed_info env _ rfl) (by decide) (by decide) hb hr1
  have o1 := o1.cast (show _ = 76 by decide)
  obtain ⟨x, b2, hp2, h⟩ := rd_inv h
  obtain ⟨hq2, rfl⟩ := rd_pure_inv hp2
  have hq2 := pick_place env e1 _ hq2 (out := Spec.windPlaces) (by decide)
  have h := Prod.mk.inj (Except.ok.inj h)
  obtain ⟨rfl, rfl⟩ := h
  refine ⟨?_, o1⟩
  show [("WindElement", shown x)] = _
  rw [hq2]
  rfl

theorem reads_ccf (env : VgEnv ν) {b : IOBuffer} {pre t : Bytes} (hb : On b pre t 40)
    (hc : 0 ≤ wordAt t 44 ∧ wordAt t 44 ≤ 100) :
    Reads b pre t (decodeCcf env) (Spec.ccfAt env t) := by
  intro a b' h
  unfold decodeCcf at h
  obtain ⟨r, b1, hr1, h⟩ := rd_inv h
  obtain ⟨e1, o1⟩ := on_rec env .big ccfInfo (wellFormed_info env _ rfl) (by decide) (by decide) hb hr1
  have o1 := o1.cast (show _ = 72 by decide)
  obtain ⟨raw, b2, hr2, h⟩ := rd_inv h
  obtain ⟨e2, o2⟩ := on_rec env .little ccfInfoNoswap (wellFormed_info env _ rfl) (by decide) (by decide) o1 hr2
  have o2 := o2.cast (show _ = 108 by decide)
  obtain ⟨tx, b3, hr3, h⟩ := rd_inv h
  obtain ⟨e3, o3⟩ := on_rec env .big ccfTextInfo (wellFormed_info env _ rfl) (by decide) (by decide) o2 hr3
  have o3 := o3.cast (show _ = 424 by decide)
  obtain ⟨lay, b4, hl, h⟩ := rd_inv h
  obtain ⟨e4, o4⟩ := on_cstring 256 o3 hl
  obtain ⟨n, b5, hn5, h⟩ := rd_inv h
  obtain ⟨hi5, rfl⟩ := rd_pure_inv hn5
  have hi5 := int_place env e1 (i := 44) (by decide) hi5
  obtain ⟨ll, b6, hll, h⟩ := rd_inv h
  obtain ⟨e6, o6⟩ := on_latlon env o4 hll
  rw [← hi5] at hc
  obtain ⟨x1, b7, hp7, h⟩ := rd_inv h
  obtain ⟨hq7, rfl⟩ := rd_pure_inv hp7
  have hq7 := pick_place env e1 _ hq7 (out := Spec.ccfPlaces) (by decide)
  obtain ⟨x2, b8, hp8, h⟩ := rd_inv h
  obtain ⟨hq8, rfl⟩ := rd_pure_inv hp8
  have hq8 := pick_place env e2 _ hq8 (out := Spec.ccfLittlePlaces) (by decide)
  obtain ⟨x3, b9, hp9, h⟩ := rd_inv h
  obtain ⟨hq9, rfl⟩ := rd_pure_inv hp9
  have hq9 := pick_place env e3 _ hq9 (out := Spec.ccfTextPlaces) (by decide)
  obtain ⟨u10, b10, hs10, h⟩ := rd_inv h
  have o10 := (on_skip (by omega) o6 hs10).cast (show _ = 1480 by omega)
  have h := Prod.mk.inj (Except.ok.inj h)
  obtain ⟨rfl, rfl⟩ := h
  refine ⟨?_, o10⟩
  show [("CollaborativeConvectiveForecastElement", shown (x1 ++ x2 ++ x3 ++ ([("text_layout", .text lay)] ++
    [("lat", latVal ll), ("lon", lonVal ll)])))] = _
  unfold Spec.ccfAt
  rw [shown_append, shown_append, shown_append, shown_append, hq7, hq8, hq9, points_eq env t 680 _ e6, e4, ← hi5]
  simp only [List.append_assoc]
  rfl

theorem reads_ash (env : VgEnv ν) {b : IOBuffer} {pre t : Bytes} (hb : On b pre t 40)
    (hc : 0 ≤ wordAt t 44 ∧ wordAt t 44 ≤ 50) :
    Reads b pre t (decodeAshClouds env) (Spec.ashAt env t) := by
  intro a b' h
  unfold decodeAshClouds at h
  obtain ⟨r, b1, hr1, h⟩ := rd_inv h
  obtain ⟨e1, o1⟩ := on_rec env .big ashInfo (wellFormed_info env _ rfl) (by decide) (by decide) hb hr1
  have o1 := o1.cast (show _ = 124 by decide)
  obtain ⟨tx, b2, hr2, h⟩ := rd_inv h
  obtain ⟨e2, o2⟩ := on_rec env .big ashTextInfo (wellFormed_info env _ rfl) (by decide) (by decide) o1 hr2
  have o2 := o2.cast (show _ = 184 by decide)
  obtain ⟨s, b3, hs3, h⟩ := rd_inv h
  obtain ⟨e3, o3⟩ := on_cstring 255 o2 hs3
  obtain ⟨u4, b4, hs4, h⟩ := rd_inv h
  have o4 := (on_skip (by omega) o3 hs4).cast (show _ = 440 by omega)
  obtain ⟨n, b5, hn5, h⟩ := rd_inv h
  obtain ⟨hi5, rfl⟩ := rd_pure_inv hn5
  have hi5 := int_place env e1 (i := 44) (by decide) hi5
  obtain ⟨ll, b6, hll, h⟩ := rd_inv h
  obtain ⟨e6, o6⟩ := on_latlon env o4 hll
  rw [← hi5] at hc
  obtain ⟨u7, b7, hs7, h⟩ := rd_inv h
  have o7 := (on_skip (by omega) o6 hs7).cast (show _ = 840 by omega)
  obtain ⟨x1, b8, hp8, h⟩ := rd_inv h
  obtain ⟨hq8, rfl⟩ := rd_pure_inv hp8
  have hq8 := pick_place env e1 _ hq8 (out := (Spec.ashPlaces).take 10) (by decide)
  obtain ⟨x2, b9, hp9, h⟩ := rd_inv h
  obtain ⟨hq9, rfl⟩ := rd_pure_inv hp9
  have hq9 := pickAs_place env e1 hq9 (p := .text 92 16) (by decide)
  obtain ⟨x3, b10, hp10, h⟩ := rd_inv h
  obtain ⟨hq10, rfl⟩ := rd_pure_inv hp10
  have hq10 := pickAs_place env e1 hq10 (p := .text 108 16) (by decide)
  obtain ⟨x4, b11, hp11, h⟩ := rd_inv h
  obtain ⟨hq11, rfl⟩ := rd_pure_inv hp11
  have hq11 := pick_place env e2 _ hq11 (out := (Spec.ashTextPlaces).take 11) (by decide)
  obtain ⟨x5, b12, hp12, h⟩ := rd_inv h
  obtain ⟨hq12, rfl⟩ := rd_pure_inv hp12
  have hq12 := pickAs_place env e2 hq12 (p := .rounded 2 168) (by decide)
  obtain ⟨x6, b13, hp13, h⟩ := rd_inv h
  obtain ⟨hq13, rfl⟩ := rd_pure_inv hp13
  have hq13 := pickAs_place env e2 hq13 (p := .rounded 2 172) (by decide)
  obtain ⟨x7, b14, hp14, h⟩ := rd_inv h
  obtain ⟨hq14, rfl⟩ := rd_pure_inv hp14
  have hq14 := pick_place env e2 _ hq14 (out := [("offset_x", .word 176), ("offset_y", .word 180)]) (by decide)
  have h := Prod.mk.inj (Except.ok.inj h)
  obtain ⟨rfl, rfl⟩ := h
  refine ⟨?_, o7⟩
  show [("AshCloudElement", shown (x1 ++ x2 ++ x3 ++ x4 ++ x5 ++ x6 ++ x7 ++ ([("text", .text s)] ++
    [("lat", latVal ll), ("lon", lonVal ll)])))] = _
  unfold Spec.ashAt
  simp only [shown_append]
  rw [hq8, hq9, hq10, hq11, hq12, hq13, hq14, points_eq env t 440 _ e6, e3, ← hi5]
  simp only [← List.append_assoc, ← vals_append]
  rfl

theorem on_block {b b' : IOBuffer} {pre t : Bytes} {i : Nat} (hb : On b pre t i) {s : Text}
    (h : readBlock b = .ok (s, b')) : some (stripNull (bytesAt t i 1024)) = some s ∧ On b' pre t (i + 1024) := by
  unfold readBlock at h
  obtain ⟨r, hr, h⟩ := bind_inv h
  unfold IOBuffer.readStruct at hr
  obtain ⟨vs, hv, hr⟩ := bind_inv hr
  have hr := Except.ok.inj hr
  subst hr
  unfold unpackFrom at hv
  have hlen := hb.data_length
  have h0 : ¬ b.offset < 0 := by
    rcases hb.pos with h | ⟨_, h⟩ <;> omega
  have hsz : fmtSize [Fmt.str 1024] = 1024 := by decide
  dsimp only at hv
  rw [if_neg h0, if_neg h0, hsz] at hv
  split at hv
  · rename_i hle
    have hoff : b.offset = pre.length + i := by
      rcases hb.pos with h | ⟨h1, h2⟩
      · exact h
      · omega
    have h1 : b.offset.toNat = pre.length + i := by omega
    have hv := Except.ok.inj hv
    rw [h1, hb.data, ← List.drop_drop, List.drop_left] at hv
    have hv : [Val.str ((t.drop i).take 1024)] = vs := hv
    subst hv
    have h := Prod.mk.inj (Except.ok.inj h)
    refine ⟨by rw [← h.1]; rfl, ?_⟩
    rw [← h.2]
    exact ⟨hb.data, Or.inl (by show b.offset + ((fmtSize [Fmt.str 1024] : Nat) : Int) = _; rw [hsz, hoff]; push_cast; omega)⟩
  · cases hv

theorem mapM_some {α β : Type} (f : α → β) (l : List α) : l.mapM (fun x => some (f x)) = some (l.map f) := by
  induction l with
  | nil => rfl
  | cons a l ih => rw [List.mapM_cons, ih]; rfl

theorem reads_gfa (env : VgEnv ν) {b : IOBuffer} {pre t : Bytes} (hb : On b pre t 40) :
    Reads b pre t (decodeGfa env) (Spec.gfaAt env t) := by
  intro a b' h
  unfold decodeGfa at h
  obtain ⟨r, b1, hr1, h⟩ := rd_inv h
  obtain ⟨e1, o1⟩ := on_rec env .big gfaInfo (wellFormed_info env _ rfl) (by decide) (by decide) hb hr1
  have o1 := o1.cast (show _ = 48 by decide)
  obtain ⟨nb, b2, hn2, h⟩ := rd_inv h
  obtain ⟨hi2, rfl⟩ := rd_pure_inv hn2
  have hi2 := int_place env e1 (i := 40) (by decide) hi2
  obtain ⟨bl, b3, hbl, h⟩ := rd_inv h
  obtain ⟨e3, o3⟩ := on_repeat (x := readBlock) (w := 1024) (f := fun i => some (stripNull (bytesAt t i 1024))) (g := id)
    (pre := pre) (t := t) (fun hb h => on_block hb h) nb.toNat o1 hbl
  rw [mapM_some, List.map_id] at e3
  have e3 := Option.some.inj e3
  obtain ⟨n, b4, hn4, h⟩ := rd_inv h
  obtain ⟨hi4, rfl⟩ := rd_pure_inv hn4
  have hi4 := int_place env e1 (i := 44) (by decide) hi4
  obtain ⟨ll, b5, hll, h⟩ := rd_inv h
  obtain ⟨e5, o5⟩ := on_latlon env o3 hll
  obtain ⟨x, b6, hp6, h⟩ := rd_inv h
  obtain ⟨hq6, rfl⟩ := rd_pure_inv hp6
  have hq6 := pick_place env e1 _ hq6 (out := Spec.gfaPlaces) (by decide)
  have h := Prod.mk.inj (Except.ok.inj h)
  obtain ⟨rfl, rfl⟩ := h
  subst hi2 hi4 e3
  refine ⟨?_, o5⟩
  show [("GraphicalForecastAreaElement", shown (x ++ ([("blocks", .texts _)] ++ [("lat", latVal ll), ("lon", lonVal ll)])))] = _
  rw [shown_append, shown_append, hq6, points_eq env t _ _ e5, ← List.append_assoc]
  rfl

theorem reads_tca (env : VgEnv ν) {b : IOBuffer} {pre t : Bytes} (hb : On b pre t 40) {hd : DHdr ν}
    (hsz : hd.recordSize = wordAt t 20) (hc : 40 ≤ wordAt t 20) : Reads b pre t (decodeTca env hd) (Spec.tcaAt env t) := by
  intro a b' h
  unfold decodeTca at h
  obtain ⟨s, b1, hs1, h⟩ := rd_inv h
  have hw : hd.recordSize - vgfHeaderSize = (((wordAt t 20).toNat - 40 : Nat) : Int) := by
    rw [hsz]
    unfold vgfHeaderSize
    omega
  rw [hw] at hs1
  obtain ⟨e1, o1⟩ := on_cstring _ hb hs1
  obtain ⟨rs, b2, hr, h⟩ := rd_inv h
  obtain ⟨hr', rfl⟩ := rd_pure_inv hr
  have h := Prod.mk.inj (Except.ok.inj h)
  obtain ⟨rfl, rfl⟩ := h
  refine ⟨?_, o1.cast (by show _ = (wordAt t 20).toNat; omega)⟩
  unfold Spec.tcaAt
  rw [e1]
  dsimp only
  rw [hr', List.map_map]
  rfl

theorem reads_skip {b : IOBuffer} {pre t : Bytes} (hb : On b pre t 40) {hd : DHdr ν}
    (hsz : hd.recordSize = wordAt t 20) (hc : 40 ≤ wordAt t 20) : Reads b pre t (skipData hd) (Spec.skippedAt t) := by
  intro a b' h
  unfold skipData at h
  obtain ⟨u, b1, hs1, h⟩ := rd_inv h
  have hw : 0 ≤ hd.recordSize - vgfHeaderSize := by
    rw [hsz]
    unfold vgfHeaderSize
    omega
  have o1 := on_skip hw hb hs1
  have h := Prod.mk.inj (Except.ok.inj h)
  obtain ⟨rfl, rfl⟩ := h
  refine ⟨rfl, o1.cast ?_⟩
  rw [hsz]
  show _ = (wordAt t 20).toNat
  unfold vgfHeaderSize
  omega

/-! ### Tracks -/

theorem on_little {b b' : IOBuffer} {pre t : Bytes} {i : Nat} (hb : On b pre t i) {f : F32}
    (h : readLittleF32 b = .ok (f, b')) : f = BitVec.ofNat 32 (Spec.littleNat t i) ∧ On b' pre t (i + 4) ∧
      b'.marks = b.marks := by
  unfold readLittleF32 at h
  obtain ⟨r, hr, h⟩ := bind_inv h
  unfold IOBuffer.readStruct at hr
  obtain ⟨vs, hv, hr⟩ := bind_inv hr
  have hr := Except.ok.inj hr
  subst hr
  unfold unpackFrom at hv
  have hlen := hb.data_length
  have h0 : ¬ b.offset < 0 := by
    rcases hb.pos with h | ⟨_, h⟩ <;> omega
  have hsz : fmtSize [Fmt.f32] = 4 := by decide
  dsimp only at hv
  rw [if_neg h0, if_neg h0, hsz] at hv
  split at hv
  · rename_i hle
    have hoff : b.offset = pre.length + i := by
      rcases hb.pos with h | ⟨h1, h2⟩
      · exact h
      · omega
    have h1 : b.offset.toNat = pre.length + i := by omega
    have hv := Except.ok.inj hv
    rw [h1, hb.data, ← List.drop_drop, List.drop_left] at hv
    have hv : [Val.flt (BitVec.ofNat 32 (decNat .little ((t.drop i).take 4)))] = vs := hv
    rw [little_take t i (by omega)] at hv
    subst hv
    have h := Prod.mk.inj (Except.ok.inj h)
    refine ⟨h.1.symm, ?_, ?_⟩
    · rw [← h.2]
      exact ⟨hb.data, Or.inl (by show b.offset + ((fmtSize [Fmt.f32] : Nat) : Int) = _; rw [hsz, hoff]; push_cast; omega)⟩
    · rw [← h.2]; rfl
  · cases hv

/-- The structure of a track in its three layouts. -/
theorem on_track (env : VgEnv ν) {b b' : IOBuffer} {pre t : Bytes} (hb : On b pre t 40) {p : DRec ν × DVal ν}
    (h : readTrack env b = .ok (p, b')) : On b' pre t (Spec.trackEnd t) ∧
      ((Spec.trackEnd t = 84 ∧ shown p.1 = vals env t (places .big 40 trackInfoOld) ∧ p.2 = .flt 0x3F800000#32) ∨
        (Spec.trackEnd t = 88 ∧ shown p.1 = vals env t (places .big 40 trackInfoSkip) ∧ p.2 = .flt 0x3F800000#32) ∨
        (Spec.trackEnd t = 100 ∧ shown p.1 = vals env t (places .big 40 trackInfo) ∧
          p.2 = .num (env.scalar 1 (BitVec.ofNat 32 (Spec.littleNat t 96))))) := by
  unfold readTrack at h
  obtain ⟨m, b1, hm, h⟩ := rd_inv h
  have hm := Prod.mk.inj (Except.ok.inj hm)
  obtain ⟨rfl, rfl⟩ := hm
  obtain ⟨tr, b2, htr, h⟩ := rd_inv h
  obtain ⟨fs, b3, hfs, h⟩ := rd_inv h
  obtain ⟨sk, b4, hsk, h⟩ := rd_inv h
  obtain ⟨hsk', rfl⟩ := rd_pure_inv hsk
  obtain ⟨fo, b5, hfo, h⟩ := rd_inv h
  obtain ⟨hfo', rfl⟩ := rd_pure_inv hfo
  have hb1 : On b.setMark.1 pre t 40 := ⟨hb.data, hb.pos⟩
  have s1 := readRec_state env _ _ htr
  obtain ⟨e1, o1⟩ := on_rec env .big trackInfo (wellFormed_info env _ rfl) (by decide) (by decide) hb1 htr
  have o1 := o1.cast (show _ = 96 by decide)
  obtain ⟨e2, o2, hmk⟩ := on_little o1 hfs
  have hsk2 := int_place env e1 (i := 84) (by decide) hsk'
  have hfo2 := int_place env e1 (i := 88) (by decide) hfo'
  have hmark : b3.marks = b.marks ++ [b.offset] := by
    rw [hmk, s1]; rfl
  have hdata : b3.data = b.data := by rw [o2.data, hb.data]
  have jump : ∀ {u : Unit} {c : IOBuffer}, jumpMark b.setMark.2 b3 = .ok (u, c) → On c pre t 40 := by
    intro u c hj
    unfold jumpMark IOBuffer.jumpTo at hj
    have : b3.marks[b.setMark.2]? = some b.offset := by
      rw [hmark]
      show (b.marks ++ [b.offset])[b.marks.length]? = _
      simp
    rw [this] at hj
    have hj := (Prod.mk.inj (Except.ok.inj hj)).2
    subst hj
    have : (b3.data : Bytes) = b.data := hdata
    refine ⟨this.trans hb.data, ?_⟩
    show b.offset + 0 = _ ∨ (_ ∧ _ ≤ b.offset + 0)
    rw [Int.add_zero]
    exact hb.pos
  unfold Spec.trackEnd
  rw [← hsk2, ← hfo2]
  split at h
  · rename_i hc
    obtain ⟨_, c, hj, h⟩ := rd_inv h
    obtain ⟨r, c', hr, h⟩ := rd_inv h
    have h := Prod.mk.inj (Except.ok.inj h)
    obtain ⟨rfl, rfl⟩ := h
    obtain ⟨e3, o3⟩ := on_rec env .big trackInfoOld (wellFormed_info env _ rfl) (by decide) (by decide) (jump hj) hr
    rw [if_pos (by omega)]
    exact ⟨o3, Or.inl ⟨rfl, e3, rfl⟩⟩
  · rename_i hc
    rw [if_neg (by omega)]
    split at h
    · rename_i hc2
      obtain ⟨_, c, hj, h⟩ := rd_inv h
      obtain ⟨r, c', hr, h⟩ := rd_inv h
      have h := Prod.mk.inj (Except.ok.inj h)
      obtain ⟨rfl, rfl⟩ := h
      obtain ⟨e3, o3⟩ := on_rec env .big trackInfoSkip (wellFormed_info env _ rfl) (by decide) (by decide) (jump hj) hr
      rw [if_pos (by omega)]
      exact ⟨o3, Or.inr (Or.inl ⟨rfl, e3, rfl⟩)⟩
    · rename_i hc2
      have h := Prod.mk.inj (Except.ok.inj h)
      obtain ⟨rfl, rfl⟩ := h
      rw [if_neg (by omega)]
      subst e2
      exact ⟨o2, Or.inr (Or.inr ⟨rfl, e1, rfl⟩)⟩

theorem pickOr_place (env : VgEnv ν) {t : Bytes} {tbl : List (String × Place)} {r : DRec ν}
    (h : shown r = vals env t tbl) (ns : List (String × DVal ν)) :
    shown (r.pickOr ns) = ns.map fun x => (x.1, match tbl.lookup x.1 with | some p => p.val env t | none => some x.2) := by
  unfold DRec.pickOr Spec.shown
  rw [List.map_map]
  apply List.map_congr_left
  intro x _
  show (x.1, some ((r.lookup x.1).getD x.2)) = _
  cases hp : tbl.lookup x.1 with
  | none => rw [lookup_noplace env h hp]; rfl
  | some p =>
    obtain ⟨v, h1, h2⟩ := lookup_place env h hp
    rw [h1]
    dsimp only
    rw [h2]
    rfl

theorem reads_tracks (env : VgEnv ν) {b : IOBuffer} {pre t : Bytes} (hb : On b pre t 40)
    (hc : 0 ≤ wordAt t 44 ∧ wordAt t 44 ≤ 50) : Reads b pre t (decodeTracks env) (Spec.trackAt env t) := by
  intro a b' h
  unfold decodeTracks at h
  obtain ⟨tf, b1, hr, h⟩ := rd_inv h
  obtain ⟨o1, hcase⟩ := on_track env hb hr
  obtain ⟨n, b2, hn', h⟩ := rd_inv h
  obtain ⟨hn2, rfl⟩ := rd_pure_inv hn'
  have hn : n = wordAt t 44 := by
    rcases hcase with ⟨_, e, _⟩ | ⟨_, e, _⟩ | ⟨_, e, _⟩ <;> exact int_place env e (i := 44) (by decide) hn2
  rw [← hn] at hc
  obtain ⟨times, b3, ht, h⟩ := rd_inv h
  obtain ⟨e3, o3⟩ := on_texts 18 n o1 ht
  obtain ⟨u4, b4, hs4, h⟩ := rd_inv h
  have o4 := (on_skip (by omega) o3 hs4).cast (show _ = Spec.trackEnd t + 900 by omega)
  obtain ⟨ll, b5, hll, h⟩ := rd_inv h
  obtain ⟨e5, o5⟩ := on_latlon env o4 hll
  obtain ⟨u6, b6, hs6, h⟩ := rd_inv h
  have o6 := (on_skip (by omega) o5 hs6).cast (show _ = Spec.trackEnd t + 1300 by omega)
  obtain ⟨x, b7, hp7, h⟩ := rd_inv h
  obtain ⟨hq7, rfl⟩ := rd_pure_inv hp7
  have hx : shown x = vals env t Spec.trackPlaces := by
    rcases hcase with ⟨_, e, _⟩ | ⟨_, e, _⟩ | ⟨_, e, _⟩ <;>
      exact pick_place env e _ hq7 (out := Spec.trackPlaces) (by decide)
  have h := Prod.mk.inj (Except.ok.inj h)
  obtain ⟨rfl, rfl⟩ := h
  refine ⟨?_, o6⟩
  show [("TrackElement", shown (x ++ _ ++ ([("font_size", tf.2), ("times", .texts times)] ++
    [("lat", latVal ll), ("lon", lonVal ll)])))] = _
  unfold Spec.trackAt
  dsimp only
  rw [shown_append, shown_append, shown_append, hx, points_eq env t _ _ e5, ← hn, e3]
  rcases hcase with ⟨he, e, hv⟩ | ⟨he, e, hv⟩ | ⟨he, e, hv⟩
  · have l1 : (places .big 40 trackInfoOld).lookup "skip" = none := by decide
    have l2 : (places .big 40 trackInfoOld).lookup "font" = none := by decide
    have l3 : (places .big 40 trackInfoOld).lookup "font_flag" = none := by decide
    rw [pickOr_place env e, he, hv]
    simp only [List.map_cons, List.map_nil, l1, l2, l3, List.append_assoc]
    rfl
  · have l1 : (places .big 40 trackInfoSkip).lookup "skip" = some (.word 84) := by decide
    have l2 : (places .big 40 trackInfoSkip).lookup "font" = none := by decide
    have l3 : (places .big 40 trackInfoSkip).lookup "font_flag" = none := by decide
    rw [pickOr_place env e, he, hv]
    simp only [List.map_cons, List.map_nil, l1, l2, l3, List.append_assoc]
    rfl
  · have l1 : (places .big 40 trackInfo).lookup "skip" = some (.word 84) := by decide
    have l2 : (places .big 40 trackInfo).lookup "font" = some (.word 88) := by decide
    have l3 : (places .big 40 trackInfo).lookup "font_flag" = some (.word 92) := by decide
    rw [pickOr_place env e, he, hv]
    simp only [List.map_cons, List.map_nil, l1, l2, l3, List.append_assoc]
    rfl

theorem reads_sigmet0 (env : VgEnv ν) {b : IOBuffer} {pre t : Bytes} (hb : On b pre t 40) {hd : DHdr ν}
    (hv : hd.version = 0) (hc : 0 ≤ wordAt t 44) : Reads b pre t (decodeSigmet env hd) (Spec.sigmet0At env t) := by
  intro a b' h
  unfold decodeSigmet at h
  obtain ⟨info, b0, hi, h⟩ := rd_inv h
  obtain ⟨hj0, rfl⟩ := rd_pure_inv hi
  rw [hv] at hj0
  have hj1 := Except.ok.inj hj0
  subst hj1
  obtain ⟨r, b1, hr1, h⟩ := rd_inv h
  obtain ⟨e1, o1⟩ := on_rec env .big sigmetInfo0 (wellFormed_info env _ rfl) (by decide) (by decide) hb hr1
  have o1 := o1.cast (show _ = 428 by decide)
  obtain ⟨n, b2, hn2, h⟩ := rd_inv h
  obtain ⟨hi2, rfl⟩ := rd_pure_inv hn2
  have hi2 := int_place env e1 (i := 44) (by decide) hi2
  rw [← hi2] at hc
  obtain ⟨lat, b3, hlat, h⟩ := rd_inv h
  obtain ⟨e3, o3, _⟩ := on_words hc o1 hlat
  obtain ⟨lon, b4, hlon, h⟩ := rd_inv h
  obtain ⟨e4, o4, _⟩ := on_words hc o3 hlon
  obtain ⟨x1, b5, hp5, h⟩ := rd_inv h
  obtain ⟨hq5, rfl⟩ := rd_pure_inv hp5
  have hq5 := pick_place env e1 _ hq5 (out := [("subtype", .word 40), ("number_points", .word 44), ("line_type", .word 48), ("line_width", .word 52),
    ("side_of_line", .word 56), ("area", .text 60 8), ("flight_info_region", .text 68 32)]) (by decide)
  obtain ⟨x2, b6, hp6, h⟩ := rd_inv h
  obtain ⟨hq6, rfl⟩ := rd_pure_inv hp6
  have hq6 := pickAs_place env e1 hq6 (p := .text 60 8) (by decide)
  obtain ⟨x3, b7, hp7, h⟩ := rd_inv h
  obtain ⟨hq7, rfl⟩ := rd_pure_inv hp7
  have hq7 := pick_place env e1 _ hq7 (out := Spec.sigmetFirst.drop 8) (by decide)
  obtain ⟨x4, b8, hp8, h⟩ := rd_inv h
  obtain ⟨hq8, rfl⟩ := rd_pure_inv hp8
  have hq8 := pick_place env e1 _ hq8 (out := Spec.sigmetLast0) (by decide)
  have h := Prod.mk.inj (Except.ok.inj h)
  obtain ⟨rfl, rfl⟩ := h
  have l0 : (places .big 40 sigmetInfo0).lookup "phenomena2" = none := by decide
  have l1 : (places .big 40 sigmetInfo0).lookup "phenomena_name" = none := by decide
  have l2 : (places .big 40 sigmetInfo0).lookup "phenomena_lat" = none := by decide
  have l3 : (places .big 40 sigmetInfo0).lookup "phenomena_lon" = none := by decide
  have l4 : (places .big 40 sigmetInfo0).lookup "pressure" = none := by decide
  have l5 : (places .big 40 sigmetInfo0).lookup "max_wind" = none := by decide
  have l6 : (places .big 40 sigmetInfo0).lookup "free_text" = none := by decide
  subst e3 e4
  refine ⟨?_, o4.cast (by show _ = 428 + 8 * (wordAt t 44).toNat; rw [← hi2]; omega)⟩
  show [("SigmetElement", shown (x1 ++ x2 ++ x3 ++ _ ++ x4 ++ [_, _]))] = _
  unfold Spec.sigmet0At
  dsimp only
  rw [shown_append, shown_append, shown_append, shown_append, shown_append, pickOr_place env e1, hq5, hq6, hq7, hq8, ← hi2]
  simp only [List.map_cons, List.map_nil, l0, l1, l2, l3, l4, l5, l6]
  rfl

theorem reads_sigmet1 (env : VgEnv ν) {b : IOBuffer} {pre t : Bytes} (hb : On b pre t 40) {hd : DHdr ν}
    (hv : hd.version = 1) (hc : 0 ≤ wordAt t 44) : Reads b pre t (decodeSigmet env hd) (Spec.sigmet1At env t) := by
  intro a b' h
  unfold decodeSigmet at h
  obtain ⟨info, b0, hi, h⟩ := rd_inv h
  obtain ⟨hj0, rfl⟩ := rd_pure_inv hi
  rw [hv] at hj0
  have hj1 := Except.ok.inj hj0
  subst hj1
  obtain ⟨r, b1, hr1, h⟩ := rd_inv h
  obtain ⟨e1, o1⟩ := on_rec env .big sigmetInfo1 (wellFormed_info env _ rfl) (by decide) (by decide) hb hr1
  have o1 := o1.cast (show _ = 776 by decide)
  obtain ⟨n, b2, hn2, h⟩ := rd_inv h
  obtain ⟨hi2, rfl⟩ := rd_pure_inv hn2
  have hi2 := int_place env e1 (i := 44) (by decide) hi2
  rw [← hi2] at hc
  obtain ⟨lat, b3, hlat, h⟩ := rd_inv h
  obtain ⟨e3, o3, _⟩ := on_words hc o1 hlat
  obtain ⟨lon, b4, hlon, h⟩ := rd_inv h
  obtain ⟨e4, o4, _⟩ := on_words hc o3 hlon
  obtain ⟨x1, b5, hp5, h⟩ := rd_inv h
  obtain ⟨hq5, rfl⟩ := rd_pure_inv hp5
  have hq5 := pick_place env e1 _ hq5 (out := [("subtype", .word 40), ("number_points", .word 44), ("line_type", .word 48), ("line_width", .word 52),
    ("side_of_line", .word 56), ("area", .text 60 8), ("flight_info_region", .text 68 32)]) (by decide)
  obtain ⟨x2, b6, hp6, h⟩ := rd_inv h
  obtain ⟨hq6, rfl⟩ := rd_pure_inv hp6
  have hq6 := pickAs_place env e1 hq6 (p := .text 60 8) (by decide)
  obtain ⟨x3, b7, hp7, h⟩ := rd_inv h
  obtain ⟨hq7, rfl⟩ := rd_pure_inv hp7
  have hq7 := pick_place env e1 _ hq7 (out := Spec.sigmetFirst.drop 8) (by decide)
  obtain ⟨x4, b8, hp8, h⟩ := rd_inv h
  obtain ⟨hq8, rfl⟩ := rd_pure_inv hp8
  have hq8 := pick_place env e1 _ hq8 (out := Spec.sigmetLast1) (by decide)
  have h := Prod.mk.inj (Except.ok.inj h)
  obtain ⟨rfl, rfl⟩ := h
  have l0 : (places .big 40 sigmetInfo1).lookup "phenomena2" = some (.text 280 32) := by decide
  have l1 : (places .big 40 sigmetInfo1).lookup "phenomena_name" = some (.text 312 36) := by decide
  have l2 : (places .big 40 sigmetInfo1).lookup "phenomena_lat" = some (.text 348 8) := by decide
  have l3 : (places .big 40 sigmetInfo1).lookup "phenomena_lon" = some (.text 356 8) := by decide
  have l4 : (places .big 40 sigmetInfo1).lookup "pressure" = some (.word 364) := by decide
  have l5 : (places .big 40 sigmetInfo1).lookup "max_wind" = some (.word 368) := by decide
  have l6 : (places .big 40 sigmetInfo1).lookup "free_text" = some (.text 372 256) := by decide
  subst e3 e4
  refine ⟨?_, o4.cast (by show _ = 776 + 8 * (wordAt t 44).toNat; rw [← hi2]; omega)⟩
  show [("SigmetElement", shown (x1 ++ x2 ++ x3 ++ _ ++ x4 ++ [_, _]))] = _
  unfold Spec.sigmet1At
  dsimp only
  rw [shown_append, shown_append, shown_append, shown_append, shown_append, pickOr_place env e1, hq5, hq6, hq7, hq8, ← hi2]
  simp only [List.map_cons, List.map_nil, l0, l1, l2, l3, l4, l5, l6]
  rfl

/-! ### Jets -/

theorem byteAt_shift (t : Bytes) (i j : Nat) : Spec.byteAt (t.drop i) j = Spec.byteAt t (i + j) := by
  unfold Spec.byteAt
  simp [List.getD_eq_getElem?_getD, List.getElem?_drop]

theorem place_shift (env : VgEnv ν) (t : Bytes) (i j : Nat) (e : Endian) (f : DField) :
    (place (i + j) e f).val env t = (place j e f).val env (t.drop i) := by
  have hw : ∀ j, wordAt (t.drop i) j = wordAt t (i + j) := by
    intro j
    unfold Spec.wordAt
    simp only [byteAt_shift, Nat.add_assoc]
  have hs : ∀ j, Spec.singleAt (t.drop i) j = Spec.singleAt t (i + j) := by
    intro j
    unfold Spec.singleAt
    simp only [byteAt_shift, Nat.add_assoc]
  have hl : ∀ j, Spec.littleNat (t.drop i) j = Spec.littleNat t (i + j) := by
    intro j
    unfold Spec.littleNat
    simp only [byteAt_shift, Nat.add_assoc]
  have hb : ∀ j n, bytesAt (t.drop i) j n = bytesAt t (i + j) n := by
    intro j n
    unfold Spec.bytesAt
    rw [List.drop_drop]
  have hm : ∀ j, Spec.littleWordAt (t.drop i) j = Spec.littleWordAt t (i + j) := by
    intro j
    unfold Spec.littleWordAt
    rw [hl]
  cases e <;> cases f with
  | skip n => rfl
  | plain n f => cases f <;> simp only [place, Spec.Place.val, byteAt_shift, hw, hs, hl, hb, hm]
  | conv n f c => cases f <;> cases c <;> simp only [place, Spec.Place.val, byteAt_shift, hw, hs, hl, hb, hm]

theorem vals_shift (env : VgEnv ν) (t : Bytes) (i : Nat) (e : Endian) (fs : List DField) : ∀ j,
    vals env t (places e (i + j) fs) = vals env (t.drop i) (places e j fs) := by
  induction fs with
  | nil => intro j; rfl
  | cons f fs ih =>
    intro j
    cases f with
    | skip n =>
      show vals env t (places e (i + j + n) fs) = vals env _ (places e (j + n) fs)
      rw [Nat.add_assoc, ih]
    | plain n f =>
      show (n, _) :: vals env t (places e (i + j + f.size) fs) = (n, _) :: vals env _ (places e (j + f.size) fs)
      rw [Nat.add_assoc, ih, place_shift]
    | conv n f c =>
      show (n, _) :: vals env t (places e (i + j + f.size) fs) = (n, _) :: vals env _ (places e (j + f.size) fs)
      rw [Nat.add_assoc, ih, place_shift]

theorem on_tables (env : VgEnv ν) (fs : List DField) (hw : WellFormed (fs.map (DField.info env)))
    (hp : placed .big fs = true) (hpos : 0 < dSize fs) {tbl : List (String × Place)} (htbl : places .big 0 fs = tbl) {w : Nat}
    (hdw : dSize fs = w) (n : Nat) {b b' : IOBuffer} {pre t : Bytes} {i : Nat} (hb : On b pre t i) {rs : List (DRec ν)}
    (h : repeatRd (readRec env .big fs) n b = .ok (rs, b')) :
    Spec.tablesAt env t i w n tbl = some rs ∧ On b' pre t (i + w * n) := by
  have := on_repeat (x := readRec env .big fs) (w := w) (f := fun i => Spec.whole (vals env (t.drop i) tbl)) (g := id)
    (pre := pre) (t := t) (fun {b b' i a} hb h => by
      obtain ⟨e1, o1⟩ := on_rec env .big fs hw hp hpos hb h
      have hv := vals_shift env t i .big fs 0
      rw [Nat.add_zero, htbl] at hv
      rw [hv] at e1
      exact ⟨by show Spec.whole (vals env (t.drop i) tbl) = some a; rw [← e1, whole_shown], by rw [← hdw]; exact o1⟩) n hb h
  rw [List.map_id] at this
  exact this

theorem latlon_most (env : VgEnv ν) {n : Int} {b b' : IOBuffer} {ll : Option (List ν × List ν)}
    (h : getLatLon env n b = .ok (ll, b')) : n ≤ 500 := by
  unfold getLatLon at h
  split at h
  · cases h
  · rename_i hn
    unfold maxPoints at hn
    omega

theorem reads_jet (env : VgEnv ν) {b : IOBuffer} {pre t : Bytes} (hb : On b pre t 40)
    (hc : 0 ≤ wordAt t 44 ∧ Spec.countAt t 4068 ≤ 50 ∧ Spec.countAt t 22072 ≤ 50) :
    Reads b pre t (decodeJet env) (Spec.jetAt env t) := by
  intro a b' h
  unfold decodeJet at h
  obtain ⟨r, b1, hr1, h⟩ := rd_inv h
  obtain ⟨e1, o1⟩ := on_rec env .big jetLineInfo (wellFormed_info env _ rfl) (by decide) (by decide) hb hr1
  have o1 := o1.cast (show _ = 68 by decide)
  obtain ⟨n, b2, hn2, h⟩ := rd_inv h
  obtain ⟨hi2, rfl⟩ := rd_pure_inv hn2
  have hi2 := int_place env e1 (i := 44) (by decide) hi2
  obtain ⟨ll, b3, hll, h⟩ := rd_inv h
  have hmost := latlon_most env hll
  obtain ⟨e3, o3⟩ := on_latlon env o1 hll
  obtain ⟨x, b4, hp4, h⟩ := rd_inv h
  obtain ⟨hq4, rfl⟩ := rd_pure_inv hp4
  have hq4 := pick_place env e1 _ hq4 (out := Spec.jetLinePlaces) (by decide)
  rw [← hi2] at hc
  obtain ⟨h44, hb50, hh50⟩ := hc
  have dbarb : dSize jetBarbInfo = 360 := by decide
  have dhash : dSize jetHashInfo = 40 := by decide
  rw [dbarb, dhash] at h
  obtain ⟨u5, b5, hs5, h⟩ := rd_inv h
  have o5 := on_skip (by unfold maxPoints; omega) o3 hs5
  have o5 := o5.cast (show _ = 4068 by unfold maxPoints; omega)
  obtain ⟨nb, b6, hn6, h⟩ := rd_inv h
  obtain ⟨e6, o6⟩ := on_count o5 hn6
  subst e6
  obtain ⟨barbs, b7, hb7, h⟩ := rd_inv h
  obtain ⟨e7, o7⟩ := on_tables env jetBarbInfo (wellFormed_info env _ rfl) (by decide) (by decide) (tbl := Spec.barbPlaces)
    (by decide) dbarb _ o6 hb7
  obtain ⟨u8, b8, hs8, h⟩ := rd_inv h
  have o8 := on_skip (by omega) o7 hs8
  have o8 := o8.cast (show _ = 22072 by omega)
  obtain ⟨nh, b9, hn9, h⟩ := rd_inv h
  obtain ⟨e9, o9⟩ := on_count o8 hn9
  subst e9
  obtain ⟨hashes, b10, hb10, h⟩ := rd_inv h
  obtain ⟨e10, o10⟩ := on_tables env jetHashInfo (wellFormed_info env _ rfl) (by decide) (by decide) (tbl := Spec.hashPlaces)
    (by decide) dhash _ o9 hb10
  obtain ⟨u11, b11, hs11, h⟩ := rd_inv h
  have o11 := on_skip (by omega) o10 hs11
  have o11 := o11.cast (show _ = 24076 by omega)
  have h := Prod.mk.inj (Except.ok.inj h)
  obtain ⟨rfl, rfl⟩ := h
  refine ⟨?_, o11⟩
  rw [Int.toNat_natCast] at e7 e10
  unfold Spec.jetAt
  dsimp only
  have hl : shown (x ++ [("lat", latVal ll), ("lon", lonVal ll)]) =
      vals env t Spec.jetLinePlaces ++ pointsAt env t 68 (wordAt t 44) := by
    rw [shown_append, hq4, points_eq env t 68 _ e3, hi2]
  rw [← hl, whole_shown, e7, e10]
  rfl

/-! ### Watches -/

theorem watch_place (env : VgEnv ν) {t : Bytes} {tbl : List (String × Place)} {w : DRec ν} (hw : shown w = vals env t tbl) :
    ∀ (l : List (String × Option (DVal ν))) {a : DRec ν}, l.mapM (watchAttr w) = .ok a →
      shown a = l.map fun x => (x.1, match tbl.lookup x.1 with | some p => p.val env t | none => x.2) := by
  intro l
  induction l with
  | nil =>
    intro a h
    have h := Except.ok.inj h
    subst h
    rfl
  | cons x l ih =>
    intro a h
    rw [List.mapM_cons] at h
    obtain ⟨y, hy, h⟩ := bind_inv h
    obtain ⟨ys, hys, h⟩ := bind_inv h
    have h := Except.ok.inj h
    subst h
    have hi := ih hys
    show (y.1, some y.2) :: shown ys = _
    rw [hi, List.map_cons]
    have hxy : (y.1, some y.2) = (x.1, match tbl.lookup x.1 with | some p => p.val env t | none => x.2) := by
      unfold watchAttr at hy
      cases hp : tbl.lookup x.1 with
      | none =>
        rw [lookup_noplace env hw hp] at hy
        cases hx : x.2 with
        | none => rw [hx] at hy; cases hy
        | some d =>
          rw [hx] at hy
          have hy := Except.ok.inj hy
          subst hy
          rfl
      | some p =>
        obtain ⟨v, h1, h2⟩ := lookup_place env hw hp
        rw [h1] at hy
        have hy : (x.1, v) = y := by
          revert hy
          cases x.2 <;> exact fun hy => Except.ok.inj hy
        subst hy
        dsimp only
        rw [h2]
    rw [hxy]

/-- County tables. -/
theorem on_counties_none {b b' : IOBuffer} {v : Int} (hv : v < 2) {w : DRec ν} {c : List Int × List Int × List F32 × List F32}
    (h : readCounties v w b = .ok (c, b')) : c = ([], [], [], []) ∧ b' = b := by
  unfold readCounties at h
  rw [if_pos hv] at h
  have h := Prod.mk.inj (Except.ok.inj h)
  exact ⟨h.1.symm, h.2.symm⟩

theorem on_counties_status {b b' : IOBuffer} {pre t : Bytes} {e : Nat} (hb : On b pre t e) {v : Int} (hv : 2 ≤ v ∧ v < 4)
    {w : DRec ν} {m : Int} (hm : 0 ≤ m ∧ m ≤ 200) (hw : ∀ {x}, w.int "number_counties" = .ok x → x = m)
    {c : List Int × List Int × List F32 × List F32} (h : readCounties v w b = .ok (c, b')) :
    c = ([], wordsAt t e m, singlesAt t (e + 800) m, singlesAt t (e + 800 + 4 * m.toNat) m) ∧ On b' pre t (e + 2400) := by
  unfold readCounties at h
  rw [if_neg (by omega)] at h
  simp only [if_pos (show v < 5 by omega), if_pos hv.2] at h
  obtain ⟨nc, b1, hn1, h⟩ := rd_inv h
  obtain ⟨hn, rfl⟩ := rd_pure_inv hn1
  have hn := hw hn
  subst hn
  obtain ⟨ws, b3, hws, h⟩ := rd_inv h
  obtain ⟨e3, o3, l3⟩ := on_words hm.1 hb hws
  obtain ⟨u, b4, hu, h⟩ := rd_inv h
  have o4 := on_skip (by omega) o3 hu
  have o4 := o4.cast (show _ = e + 800 by omega)
  obtain ⟨st, c1, hpu, h⟩ := rd_inv h
  have hpu := Prod.mk.inj (Except.ok.inj hpu)
  obtain ⟨rfl, rfl⟩ := hpu
  obtain ⟨fp, c2, hpu, h⟩ := rd_inv h
  have hpu := Prod.mk.inj (Except.ok.inj hpu)
  obtain ⟨rfl, rfl⟩ := hpu
  obtain ⟨la, b6, hla, h⟩ := rd_inv h
  obtain ⟨e6, o6, _⟩ := on_words hm.1 o4 hla
  obtain ⟨lo, b7, hlo, h⟩ := rd_inv h
  obtain ⟨e7, o7, _⟩ := on_words hm.1 o6 hlo
  obtain ⟨u8, b8, hu8, h⟩ := rd_inv h
  have o8 := on_skip (by omega) o7 hu8
  have o8 := o8.cast (show _ = e + 2400 by omega)
  have h := Prod.mk.inj (Except.ok.inj h)
  obtain ⟨rfl, rfl⟩ := h
  subst e3 e6 e7
  exact ⟨by rw [int_singles _ _ _ l3], o8⟩

theorem on_counties_both {b b' : IOBuffer} {pre t : Bytes} {e : Nat} (hb : On b pre t e) {v : Int} (hv : v = 4)
    {w : DRec ν} {m : Int} (hm : 0 ≤ m ∧ m ≤ 200) (hw : ∀ {x}, w.int "number_counties" = .ok x → x = m)
    {c : List Int × List Int × List F32 × List F32} (h : readCounties v w b = .ok (c, b')) :
    c = (wordsAt t (e + 800) m, wordsAt t e m, singlesAt t (e + 1600) m, singlesAt t (e + 1600 + 4 * m.toNat) m) ∧
      On b' pre t (e + 3200) := by
  unfold readCounties at h
  rw [if_neg (by omega)] at h
  simp only [if_pos (show v < 5 by omega), if_neg (show ¬ v < 4 by omega)] at h
  obtain ⟨nc, b1, hn1, h⟩ := rd_inv h
  obtain ⟨hn, rfl⟩ := rd_pure_inv hn1
  have hn := hw hn
  subst hn
  obtain ⟨ws, b3, hws, h⟩ := rd_inv h
  obtain ⟨e3, o3, l3⟩ := on_words hm.1 hb hws
  obtain ⟨u, b4, hu, h⟩ := rd_inv h
  have o4 := on_skip (by omega) o3 hu
  have o4 := o4.cast (show _ = e + 800 by omega)
  obtain ⟨st, c1, hpu, h⟩ := rd_inv h
  have hpu := Prod.mk.inj (Except.ok.inj hpu)
  obtain ⟨rfl, rfl⟩ := hpu
  obtain ⟨fs, b9, hfs, h⟩ := rd_inv h
  obtain ⟨e9, o9, l9⟩ := on_words hm.1 o4 hfs
  obtain ⟨u9, b10, hu9, h⟩ := rd_inv h
  have o10 := on_skip (by omega) o9 hu9
  have o10 := o10.cast (show _ = e + 1600 by omega)
  obtain ⟨fp, c2, hpu, h⟩ := rd_inv h
  have hpu := Prod.mk.inj (Except.ok.inj hpu)
  obtain ⟨rfl, rfl⟩ := hpu
  obtain ⟨la, b6, hla, h⟩ := rd_inv h
  obtain ⟨e6, o6, _⟩ := on_words hm.1 o10 hla
  obtain ⟨lo, b7, hlo, h⟩ := rd_inv h
  obtain ⟨e7, o7, _⟩ := on_words hm.1 o6 hlo
  obtain ⟨u8, b8, hu8, h⟩ := rd_inv h
  have o8 := on_skip (by omega) o7 hu8
  have o8 := o8.cast (show _ = e + 3200 by omega)
  have h := Prod.mk.inj (Except.ok.inj h)
  obtain ⟨rfl, rfl⟩ := h
  subst e3 e6 e7 e9
  exact ⟨by rw [int_singles _ _ _ l3, int_singles _ _ _ l9], o8⟩

theorem on_counties_fips {b b' : IOBuffer} {pre t : Bytes} {e : Nat} (hb : On b pre t e) {v : Int} (hv : 5 ≤ v)
    {w : DRec ν} {m : Int} (hm : 0 ≤ m ∧ m ≤ 400) (hw : ∀ {x}, w.int "number_counties" = .ok x → x = m)
    {c : List Int × List Int × List F32 × List F32} (h : readCounties v w b = .ok (c, b')) :
    c = (wordsAt t e m, [], singlesAt t (e + 1600) m, singlesAt t (e + 1600 + 4 * m.toNat) m) ∧
      On b' pre t (e + 4800) := by
  unfold readCounties at h
  rw [if_neg (by omega)] at h
  simp only [if_neg (show ¬ v < 5 by omega), if_neg (show ¬ v < 4 by omega)] at h
  obtain ⟨nc, b1, hn1, h⟩ := rd_inv h
  obtain ⟨hn, rfl⟩ := rd_pure_inv hn1
  have hn := hw hn
  subst hn
  obtain ⟨st, c1, hpu, h⟩ := rd_inv h
  have hpu := Prod.mk.inj (Except.ok.inj hpu)
  obtain ⟨rfl, rfl⟩ := hpu
  obtain ⟨fs, b9, hfs, h⟩ := rd_inv h
  obtain ⟨e9, o9, l9⟩ := on_words hm.1 hb hfs
  obtain ⟨u9, b10, hu9, h⟩ := rd_inv h
  have o10 := on_skip (by omega) o9 hu9
  have o10 := o10.cast (show _ = e + 1600 by omega)
  obtain ⟨fp, c2, hpu, h⟩ := rd_inv h
  have hpu := Prod.mk.inj (Except.ok.inj hpu)
  obtain ⟨rfl, rfl⟩ := hpu
  obtain ⟨la, b6, hla, h⟩ := rd_inv h
  obtain ⟨e6, o6, _⟩ := on_words hm.1 o10 hla
  obtain ⟨lo, b7, hlo, h⟩ := rd_inv h
  obtain ⟨e7, o7, _⟩ := on_words hm.1 o6 hlo
  obtain ⟨u8, b8, hu8, h⟩ := rd_inv h
  have o8 := on_skip (by omega) o7 hu8
  have o8 := o8.cast (show _ = e + 4800 by omega)
  have h := Prod.mk.inj (Except.ok.inj h)
  obtain ⟨rfl, rfl⟩ := h
  subst e6 e7 e9
  exact ⟨by rw [int_singles _ _ _ l9], o8⟩

/-- What follows the county tables. -/
theorem reads_watch_tail (env : VgEnv ν) {b b1 : IOBuffer} {pre t : Bytes} {v : Nat} {hd : DHdr ν} {info : List DField}
    (hv : hd.version = v) (hbv : byteAt t 6 = v) (hi : watchInfo hd.version = .ok info)
    (htbl : places .big 40 info = Spec.watchPlaces v) (hn : (Spec.watchPlaces v).lookup "number_points" = some (.word 40))
    (hmk : (Spec.watchPlaces v).lookup "marker_type" = if v = 6 then some (.word 52) else none)
    (hc : 0 ≤ wordAt t 40) {w : DRec ν} (hw : readRec env .big info b = .ok (w, b1))
    (e1 : shown w = vals env t (Spec.watchPlaces v))
    (hcount : ∀ {c b2}, readCounties hd.version w b1 = .ok (c, b2) →
      shown (ν := ν) [("county_fips", DVal.ints c.1), ("county_status", .ints c.2.1), ("county_lat", .raw c.2.2.1),
        ("county_lon", .raw c.2.2.2)] = Spec.countiesAt v t ∧ On b2 pre t (Spec.watchPoints v)) :
    Reads b pre t (decodeWatches env hd) (Spec.watchAt env t) := by
  intro a b' h
  unfold decodeWatches at h
  obtain ⟨info', b0, hi', h⟩ := rd_inv h
  obtain ⟨hj, rfl⟩ := rd_pure_inv hi'
  rw [hi] at hj
  have hj' := Except.ok.inj hj
  subst hj'
  obtain ⟨w', b1', hw', h⟩ := rd_inv h
  rw [hw] at hw'
  obtain ⟨rfl, rfl⟩ := Prod.mk.inj (Except.ok.inj hw')
  obtain ⟨c, b2, hcn, h⟩ := rd_inv h
  obtain ⟨ec, o2⟩ := hcount hcn
  obtain ⟨n, b3, hn3, h⟩ := rd_inv h
  obtain ⟨hn4, rfl⟩ := rd_pure_inv hn3
  have hn5 := int_place env e1 (i := 40) hn hn4
  rw [← hn5] at hc
  obtain ⟨lat, b4, hla, h⟩ := rd_inv h
  obtain ⟨e4, o4, _⟩ := on_words hc o2 hla
  obtain ⟨lon, b5, hlo, h⟩ := rd_inv h
  obtain ⟨e5, o5, _⟩ := on_words hc o4 hlo
  dsimp only at h
  obtain ⟨x, b6, hx, h⟩ := rd_inv h
  obtain ⟨hx', rfl⟩ := rd_pure_inv hx
  have ha := watch_place env e1 watchAttrs hx'
  have hlook : (shown x).lookup "marker_type" = some (some (.int (if v = 6 then wordAt t 52 else 1))) := by
    rw [ha]
    show some (match (Spec.watchPlaces v).lookup "marker_type" with | some p => p.val env t | none => some (.int 1)) = _
    rw [hmk]
    by_cases h6 : v = 6
    · rw [if_pos h6, if_pos h6]; rfl
    · rw [if_neg h6, if_neg h6]
  have hlook2 : x.lookup "marker_type" = some (.int (if v = 6 then wordAt t 52 else 1)) := by
    rw [lookup_shown] at hlook
    revert hlook
    cases x.lookup "marker_type" with
    | none => intro hlook; cases hlook
    | some y => intro hlook; rw [Option.some.inj (Option.some.inj hlook)]
  rw [hlook2] at h
  dsimp only at h
  obtain ⟨mt, b7, hmt, h⟩ := rd_inv h
  obtain ⟨hmt', rfl⟩ := rd_pure_inv hmt
  have hnm := enum_codeName (ν := ν) hmt'
  have h := Prod.mk.inj (Except.ok.inj h)
  obtain ⟨rfl, rfl⟩ := h
  subst e4 e5
  refine ⟨?_, o5.cast (by show _ = Spec.watchPoints (byteAt t 6) + 8 * (wordAt t 40).toNat; rw [hbv, ← hn5]; omega)⟩
  unfold Spec.watchAt
  dsimp only
  rw [hbv, ← hn5, ← ec]
  show [("WatchBoxElement", shown (x ++ ([_, _, _, _] ++ [_, _, _])))] = _
  rw [shown_append, shown_append, ha]
  have hr := closeIf_ringed true n (singlesAt t (Spec.watchPoints v) n) (singlesAt t (Spec.watchPoints v + 4 * n.toNat) n)
    (singles_length _ _ _) (singles_length _ _ _)
  rw [Bool.true_and] at hr
  have hnm2 : codeName 0 Spec.markers (if v = 6 then wordAt t 52 else 1) = some (DVal.text (ν := ν) (txt mt)) := hnm
  rw [hnm2, hr, ← List.append_assoc]
  rfl

theorem reads_watch0 (env : VgEnv ν) {b : IOBuffer} {pre t : Bytes} (hb : On b pre t 40) {hd : DHdr ν}
    (hv : hd.version = (0 : Nat)) (hbv : byteAt t 6 = 0) (hc : 0 ≤ wordAt t 40)
    (hm : 0 ≤ Spec.watchCounties 0 t ∧ Spec.watchCounties 0 t ≤ 200) :
    Reads b pre t (decodeWatches env hd) (Spec.watchAt env t) := by
  intro a b' h
  have hi : watchInfo hd.version = .ok watchInfo0 := by rw [hv]; rfl
  have h0 := h
  unfold decodeWatches at h
  obtain ⟨info', b0, hi', h⟩ := rd_inv h
  obtain ⟨hj, rfl⟩ := rd_pure_inv hi'
  rw [hi] at hj
  have hj' := Except.ok.inj hj
  subst hj'
  obtain ⟨w, b1, hw, h⟩ := rd_inv h
  obtain ⟨e1, o1⟩ := on_rec env .big watchInfo0 (wellFormed_info env _ rfl) (by decide) (by decide) hb hw
  have o1 := o1.cast (show _ = 188 by decide)
  have htbl : places .big 40 watchInfo0 = Spec.watchPlaces 0 := by decide
  rw [htbl] at e1
  refine reads_watch_tail env hv hbv hi htbl (by decide) (by decide) hc hw e1 ?_ _ _ h0
  intro c b2 hcn
  rw [hv] at hcn
  obtain ⟨rfl, rfl⟩ := on_counties_none (by decide) hcn
  exact ⟨rfl, o1⟩

theorem reads_watch1 (env : VgEnv ν) {b : IOBuffer} {pre t : Bytes} (hb : On b pre t 40) {hd : DHdr ν}
    (hv : hd.version = (1 : Nat)) (hbv : byteAt t 6 = 1) (hc : 0 ≤ wordAt t 40)
    (hm : 0 ≤ Spec.watchCounties 1 t ∧ Spec.watchCounties 1 t ≤ 200) :
    Reads b pre t (decodeWatches env hd) (Spec.watchAt env t) := by
  intro a b' h
  have hi : watchInfo hd.version = .ok watchInfo1 := by rw [hv]; rfl
  have h0 := h
  unfold decodeWatches at h
  obtain ⟨info', b0, hi', h⟩ := rd_inv h
  obtain ⟨hj, rfl⟩ := rd_pure_inv hi'
  rw [hi] at hj
  have hj' := Except.ok.inj hj
  subst hj'
  obtain ⟨w, b1, hw, h⟩ := rd_inv h
  obtain ⟨e1, o1⟩ := on_rec env .big watchInfo1 (wellFormed_info env _ rfl) (by decide) (by decide) hb hw
  have o1 := o1.cast (show _ = 684 by decide)
  have htbl : places .big 40 watchInfo1 = Spec.watchPlaces 1 := by decide
  rw [htbl] at e1
  refine reads_watch_tail env hv hbv hi htbl (by decide) (by decide) hc hw e1 ?_ _ _ h0
  intro c b2 hcn
  rw [hv] at hcn
  obtain ⟨rfl, rfl⟩ := on_counties_none (by decide) hcn
  exact ⟨rfl, o1⟩

theorem reads_watch2 (env : VgEnv ν) {b : IOBuffer} {pre t : Bytes} (hb : On b pre t 40) {hd : DHdr ν}
    (hv : hd.version = (2 : Nat)) (hbv : byteAt t 6 = 2) (hc : 0 ≤ wordAt t 40)
    (hm : 0 ≤ Spec.watchCounties 2 t ∧ Spec.watchCounties 2 t ≤ 200) :
    Reads b pre t (decodeWatches env hd) (Spec.watchAt env t) := by
  intro a b' h
  have hi : watchInfo hd.version = .ok watchInfo2 := by rw [hv]; rfl
  have h0 := h
  unfold decodeWatches at h
  obtain ⟨info', b0, hi', h⟩ := rd_inv h
  obtain ⟨hj, rfl⟩ := rd_pure_inv hi'
  rw [hi] at hj
  have hj' := Except.ok.inj hj
  subst hj'
  obtain ⟨w, b1, hw, h⟩ := rd_inv h
  obtain ⟨e1, o1⟩ := on_rec env .big watchInfo2 (wellFormed_info env _ rfl) (by decide) (by decide) hb hw
  have o1 := o1.cast (show _ = 692 by decide)
  have htbl : places .big 40 watchInfo2 = Spec.watchPlaces 2 := by decide
  rw [htbl] at e1
  refine reads_watch_tail env hv hbv hi htbl (by decide) (by decide) hc hw e1 ?_ _ _ h0
  intro c b2 hcn
  rw [hv] at hcn
  obtain ⟨rfl, o2⟩ := on_counties_status o1 (by decide) hm (fun hx => int_place env e1 (i := 684) (by decide) hx) hcn
  exact ⟨rfl, o2⟩

theorem reads_watch3 (env : VgEnv ν) {b : IOBuffer} {pre t : Bytes} (hb : On b pre t 40) {hd : DHdr ν}
    (hv : hd.version = (3 : Nat)) (hbv : byteAt t 6 = 3) (hc : 0 ≤ wordAt t 40)
    (hm : 0 ≤ Spec.watchCounties 3 t ∧ Spec.watchCounties 3 t ≤ 200) :
    Reads b pre t (decodeWatches env hd) (Spec.watchAt env t) := by
  intro a b' h
  have hi : watchInfo hd.version = .ok watchInfo3 := by rw [hv]; rfl
  have h0 := h
  unfold decodeWatches at h
  obtain ⟨info', b0, hi', h⟩ := rd_inv h
  obtain ⟨hj, rfl⟩ := rd_pure_inv hi'
  rw [hi] at hj
  have hj' := Except.ok.inj hj
  subst hj'
  obtain ⟨w, b1, hw, h⟩ := rd_inv h
  obtain ⟨e1, o1⟩ := on_rec env .big watchInfo3 (wellFormed_info env _ rfl) (by decide) (by decide) hb hw
  have o1 := o1.cast (show _ = 740 by decide)
  have htbl : places .big 40 watchInfo3 = Spec.watchPlaces 3 := by decide
  rw [htbl] at e1
  refine reads_watch_tail env hv hbv hi htbl (by decide) (by decide) hc hw e1 ?_ _ _ h0
  intro c b2 hcn
  rw [hv] at hcn
  obtain ⟨rfl, o2⟩ := on_counties_status o1 (by decide) hm (fun hx => int_place env e1 (i := 732) (by decide) hx) hcn
  exact ⟨rfl, o2⟩

theorem reads_watch4 (env : VgEnv ν) {b : IOBuffer} {pre t : Bytes} (hb : On b pre t 40) {hd : DHdr ν}
    (hv : hd.version = (4 : Nat)) (hbv : byteAt t 6 = 4) (hc : 0 ≤ wordAt t 40)
    (hm : 0 ≤ Spec.watchCounties 4 t ∧ Spec.watchCounties 4 t ≤ 200) :
    Reads b pre t (decodeWatches env hd) (Spec.watchAt env t) := by
  intro a b' h
  have hi : watchInfo hd.version = .ok watchInfo4 := by rw [hv]; rfl
  have h0 := h
  unfold decodeWatches at h
  obtain ⟨info', b0, hi', h⟩ := rd_inv h
  obtain ⟨hj, rfl⟩ := rd_pure_inv hi'
  rw [hi] at hj
  have hj' := Except.ok.inj hj
  subst hj'
  obtain ⟨w, b1, hw, h⟩ := rd_inv h
  obtain ⟨e1, o1⟩ := on_rec env .big watchInfo4 (wellFormed_info env _ rfl) (by decide) (by decide) hb hw
  have o1 := o1.cast (show _ = 860 by decide)
  have htbl : places .big 40 watchInfo4 = Spec.watchPlaces 4 := by decide
  rw [htbl] at e1
  refine reads_watch_tail env hv hbv hi htbl (by decide) (by decide) hc hw e1 ?_ _ _ h0
  intro c b2 hcn
  rw [hv] at hcn
  obtain ⟨rfl, o2⟩ := on_counties_both o1 (by decide) hm (fun hx => int_place env e1 (i := 852) (by decide) hx) hcn
  exact ⟨rfl, o2⟩

theorem reads_watch5 (env : VgEnv ν) {b : IOBuffer} {pre t : Bytes} (hb : On b pre t 40) {hd : DHdr ν}
    (hv : hd.version = (5 : Nat)) (hbv : byteAt t 6 = 5) (hc : 0 ≤ wordAt t 40)
    (hm : 0 ≤ Spec.watchCounties 5 t ∧ Spec.watchCounties 5 t ≤ 400) :
    Reads b pre t (decodeWatches env hd) (Spec.watchAt env t) := by
  intro a b' h
  have hi : watchInfo hd.version = .ok watchInfo5 := by rw [hv]; rfl
  have h0 := h
  unfold decodeWatches at h
  obtain ⟨info', b0, hi', h⟩ := rd_inv h
  obtain ⟨hj, rfl⟩ := rd_pure_inv hi'
  rw [hi] at hj
  have hj' := Except.ok.inj hj
  subst hj'
  obtain ⟨w, b1, hw, h⟩ := rd_inv h
  obtain ⟨e1, o1⟩ := on_rec env .big watchInfo5 (wellFormed_info env _ rfl) (by decide) (by decide) hb hw
  have o1 := o1.cast (show _ = 860 by decide)
  have htbl : places .big 40 watchInfo5 = Spec.watchPlaces 5 := by decide
  rw [htbl] at e1
  refine reads_watch_tail env hv hbv hi htbl (by decide) (by decide) hc hw e1 ?_ _ _ h0
  intro c b2 hcn
  rw [hv] at hcn
  obtain ⟨rfl, o2⟩ := on_counties_fips o1 (by decide) hm (fun hx => int_place env e1 (i := 852) (by decide) hx) hcn
  exact ⟨rfl, o2⟩

theorem reads_watch6 (env : VgEnv ν) {b : IOBuffer} {pre t : Bytes} (hb : On b pre t 40) {hd : DHdr ν}
    (hv : hd.version = (6 : Nat)) (hbv : byteAt t 6 = 6) (hc : 0 ≤ wordAt t 40)
    (hm : 0 ≤ Spec.watchCounties 6 t ∧ Spec.watchCounties 6 t ≤ 400) :
    Reads b pre t (decodeWatches env hd) (Spec.watchAt env t) := by
  intro a b' h
  have hi : watchInfo hd.version = .ok watchInfo6 := by rw [hv]; rfl
  have h0 := h
  unfold decodeWatches at h
  obtain ⟨info', b0, hi', h⟩ := rd_inv h
  obtain ⟨hj, rfl⟩ := rd_pure_inv hi'
  rw [hi] at hj
  have hj' := Except.ok.inj hj
  subst hj'
  obtain ⟨w, b1, hw, h⟩ := rd_inv h
  obtain ⟨e1, o1⟩ := on_rec env .big watchInfo6 (wellFormed_info env _ rfl) (by decide) (by decide) hb hw
  have o1 := o1.cast (show _ = 872 by decide)
  have htbl : places .big 40 watchInfo6 = Spec.watchPlaces 6 := by decide
  rw [htbl] at e1
  refine reads_watch_tail env hv hbv hi htbl (by decide) (by decide) hc hw e1 ?_ _ _ h0
  intro c b2 hcn
  rw [hv] at hcn
  obtain ⟨rfl, o2⟩ := on_counties_fips o1 (by decide) hm (fun hx => int_place env e1 (i := 864) (by decide) hx) hcn
  exact ⟨rfl, o2⟩

theorem reads_watches (env : VgEnv ν) {b : IOBuffer} {pre t : Bytes} (hb : On b pre t 40) {hd : DHdr ν}
    (hv : hd.version = byteAt t 6) (hc : 0 ≤ wordAt t 40)
    (hm : 0 ≤ Spec.watchCounties (byteAt t 6) t ∧
      Spec.watchCounties (byteAt t 6) t ≤ (if byteAt t 6 < 5 then 200 else 400)) :
    Reads b pre t (decodeWatches env hd) (Spec.watchAt env t) := by
  intro a b' h
  generalize hk : byteAt t 6 = k at hv hm
  match k, hk, hv, hm with
  | 0, hk, hv, hm => exact reads_watch0 env hb hv hk hc hm _ _ h
  | 1, hk, hv, hm => exact reads_watch1 env hb hv hk hc hm _ _ h
  | 2, hk, hv, hm => exact reads_watch2 env hb hv hk hc hm _ _ h
  | 3, hk, hv, hm => exact reads_watch3 env hb hv hk hc hm _ _ h
  | 4, hk, hv, hm => exact reads_watch4 env hb hv hk hc hm _ _ h
  | 5, hk, hv, hm => exact reads_watch5 env hb hv hk hc hm _ _ h
  | 6, hk, hv, hm => exact reads_watch6 env hb hv hk hc hm _ _ h
  | k + 7, hk, hv, hm =>
    exfalso
    unfold decodeWatches at h
    obtain ⟨info', b0, hi', h⟩ := rd_inv h
    obtain ⟨hj, rfl⟩ := rd_pure_inv hi'
    rw [hv] at hj
    unfold watchInfo at hj
    split at hj <;> first | omega | cases hj

end Gempak
