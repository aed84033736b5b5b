import Verif.Props.PlacesHeads
import Verif.Props.GridSelect

/-!
# Any file: what is listed for a grid is stored in its column header (C119)
-/

namespace Gempak
open Spec

/-! ## Specification -/

/-- The word says this date and time: without time of day as year, month and day, or as month, day, year, hour and minute. -/
def Spec.StartIs (w : Int) (t : Date × Clock) : Prop :=
  t.1.Valid ∧ (1969 ≤ t.1.y ∧ t.1.y ≤ 2068) ∧ t.2.h < 24 ∧ t.2.mi < 60 ∧ t.2.s = 0 ∧ t.2.us = 0 ∧
    (w = t.1.y % 100 * 10000 + t.1.m * 100 + t.1.d ∧ t.2 = ⟨0, 0, 0, 0⟩ ∨
      w = t.1.m * 100000000 + t.1.d * 1000000 + t.1.y % 100 * 10000 + t.2.h * 100 + t.2.mi)

/-- Time of which one word says the start and another the hours and minutes after it, as `hhhmm`. -/
def Spec.ValidIs (start lead : Int) (t : Date × Clock) : Prop :=
  t.1.Valid ∧ t.2.Valid ∧ ∃ t0, StartIs start t0 ∧
    instant t = instant t0 + (lead % 100000 / 100 * 60 + lead % 100) * 60000000

/-- Names of vertical coordinates in order of their codes. -/
def Spec.coordNames : List Text :=
  [txt "NONE", txt "PRES", txt "THTA", txt "HGHT", txt "SGMA", txt "DPTH", txt "HYBD", txt "PVAB", txt "PVBL"]

/-- An entry of the list of grids, `word` giving the words with the fields of its header. -/
structure Spec.GridAt (e : Endian) (b : Bytes) (word : Text → Nat) (g : GridInfo) : Prop where
  /-- Analysis, forecast, guess or initial. -/
  type : 0 ≤ g.type ∧ g.type ≤ 3 ∧ g.type = intWord e b (word (txt "GTM1")) / 100000
  time1 : ValidIs (intWord e b (word (txt "GDT1"))) (intWord e b (word (txt "GTM1"))) g.time1
  time2 : match g.time2 with
    | none => intWord e b (word (txt "GDT2")) = 0 ∨ intWord e b (word (txt "GTM2")) < 0
    | some t => 0 ≤ intWord e b (word (txt "GTM2")) ∧ ValidIs (intWord e b (word (txt "GDT2"))) (intWord e b (word (txt "GTM2"))) t
  name : ∃ p q r, NameAt b (word (txt "GPM1")) p ∧ NameAt b (word (txt "GPM2")) q ∧ NameAt b (word (txt "GPM3")) r ∧ g.parm = p ++ q ++ r
  level1 : g.level1 = let w := intWord e b (word (txt "GLV1")); if w < 0 then none else some w
  level2 : g.level2 = let w := intWord e b (word (txt "GLV2")); if w < 0 then none else some w
  /-- A code, or else four letters. -/
  coord : let w := intWord e b (word (txt "GVCD"))
    0 ≤ w ∧ if w ≤ 8 then coordNames[w.toNat]? = some g.coord else utf8Dec (wordBytes b (word (txt "GVCD"))) = some g.coord

/-! ## Headers -/

/-- The value stored in a word for a key. -/
def gkeyVal (e : Endian) (b : Bytes) (n : Nat) : GKind → Val
  | .text => .str (wordBytes b n)
  | _ => .int (intWord e b n)

theorem gkeyFmt_size (k : GKind) : k.fmt.size = 4 := by cases k <;> rfl

theorem fmtSize_gkeys (ks : List Text) : fmtSize (ks.map fun k => (gridKey k).fmt) = 4 * ks.length := by
  unfold fmtSize
  induction ks with
  | nil => rfl
  | cons k ks ih => rw [List.map_cons, List.map_cons, List.sum_cons, ih, gkeyFmt_size, List.length_cons]; omega

theorem gfield_at {e o : Endian} {b : Bytes} : ∀ (ks : List Text) (w : Nat) (h : GHeader), 1 ≤ w →
    convGHeader o ks (unpackItems e (ks.map fun k => (gridKey k).fmt) (b.drop (4 * (w - 1)))) = .ok h → ∀ (k : Text) (v : GVal),
    dictGet h k = some v → (gridKey k).conv o (gkeyVal e b (w + ks.idxOf k) (gridKey k)) = .ok v ∧ 4 * (w + ks.idxOf k) ≤ 4 * (w - 1) + 4 * ks.length := by
  intro ks
  induction ks with
  | nil =>
    intro w h _ hc k v hv
    obtain rfl := Except.ok.inj hc
    cases hv
  | cons a ks ih =>
    intro w h hw hc k v hv
    rw [List.map_cons, unpackItems, gkeyFmt_size, List.drop_drop] at hc
    have hone : unpackOne e (gridKey a).fmt ((b.drop (4 * (w - 1))).take 4) = [gkeyVal e b w (gridKey a)] := by
      have : (b.drop (4 * (w - 1))).take 4 = wordBytes b w := rfl
      rw [this]
      cases gridKey a <;> simp only [GKind.fmt, unpackOne, gkeyVal, intWord_eq]
    rw [hone, List.singleton_append] at hc
    unfold convGHeader at hc
    obtain ⟨x, h1, hc⟩ := bind_inv hc
    obtain ⟨r, h2, hc⟩ := bind_inv hc
    obtain rfl := Except.ok.inj hc
    unfold dictGet at hv
    by_cases hak : a = k
    · rw [if_pos hak] at hv
      obtain rfl := Option.some.inj hv
      subst hak
      rw [List.idxOf_cons_self, Nat.add_zero, List.length_cons]
      exact ⟨h1, by omega⟩
    · rw [if_neg hak] at hv
      have := ih (w + 1) r (by omega) (by rw [show 4 * (w + 1 - 1) = 4 * (w - 1) + 4 by omega]; exact h2) k v hv
      rw [List.idxOf_cons_ne ks hak, show w + (ks.idxOf k).succ = w + 1 + ks.idxOf k by omega, List.length_cons]
      exact ⟨this.1, by omega⟩

/-- Fields of a header as words. -/
def GFieldsAt (e : Endian) (b : Bytes) (word : Text → Nat) (h : GHeader) : Prop :=
  ∀ name v, ghGet h name = .ok v → (gridKey name).conv e (gkeyVal e b (word name) (gridKey name)) = .ok v ∧
    (wordBytes b (word name)).length = 4

theorem ghGet_dict {h : GHeader} {k : Text} {v : GVal} (hv : ghGet h k = .ok v) : dictGet h k = some v := by
  unfold ghGet at hv
  split at hv
  · rename_i hd
    rw [hd, Except.ok.inj hv]
  · cases hv

theorem gkeys_ne {e o : Endian} {b : Bytes} {n : Nat} {p : Int} {ks : List Text} {l : List GHeader}
    (h : readHeaders e b (ks.map fun k => (gridKey k).fmt) (convGHeader o ks) n p = .ok l) {x : GHeader} (hx : x ∈ l) {k : Text} {v : GVal}
    (hv : ghGet x k = .ok v) : ks ≠ [] := by
  rintro rfl
  have := readHeaders_all h (fun x => x = []) (fun vs y hy => by
    cases vs with
    | nil => exact (Except.ok.inj hy).symm
    | cons _ _ => cases hy) x hx
  subst this
  cases hv

theorem gfields_of {e : Endian} {b : Bytes} {n : Nat} {ptr : Int} {ks : List Text} {l : List GHeader} (hp : 1 ≤ ptr)
    (h : readHeaders e b (ks.map fun k => (gridKey k).fmt) (convGHeader e ks) n (wordToPosition ptr) = .ok l) {k : Nat} {x : GHeader}
    (hk : l[k]? = some x) (hu : UsedTo e b ks ptr.toNat k) : GFieldsAt e b (headWord ks ptr.toNat k) x := by
  intro name v hv
  have hne := gkeys_ne h (List.mem_of_getElem? hk) hv
  rw [wtp' hp] at h
  have h1 := headers_at (m := ks.length) (List.length_pos_iff.2 hne) (fmtSize_gkeys ks) n ptr.toNat l (by omega) h k x hk hu
  obtain ⟨a1, a2⟩ := gfield_at ks (ptr.toNat + k * (ks.length + 1) + 1) x (by omega) (by rw [Nat.add_sub_cancel]; exact h1.1) name v (ghGet_dict hv)
  refine ⟨a1, ?_⟩
  have h2 := h1.2
  unfold wordBytes headWord
  rw [List.length_take, List.length_drop]
  generalize k * (ks.length + 1) = q at *
  omega

/-! ## Fields -/

section
variable {e : Endian} {b : Bytes} {word : Text → Nat} {h : GHeader}

theorem GFieldsAt.text (hf : GFieldsAt e b word h) {k t : Text} (hk : gridKey k = .text) (ht : ghText h k = .ok t) : NameAt b (word k) t := by
  unfold ghText at ht
  obtain ⟨v, h1, ht⟩ := bind_inv ht
  have h2 := (hf k v h1).1
  rw [hk] at h2
  split at ht
  · obtain rfl := Except.ok.inj ht
    unfold GKind.conv gkeyVal textOf at h2
    dsimp only at h2
    unfold NameAt
    cases hd : decodeStrip (wordBytes b (word k)) with
    | error x => rw [hd] at h2; cases h2
    | ok t' =>
      rw [hd] at h2
      have := Except.ok.inj h2
      injection this with this
      rw [this]
  · cases ht

theorem GFieldsAt.coord (hf : GFieldsAt e b word h) {k t : Text} (hk : gridKey k = .coord) (ht : ghText h k = .ok t) :
    convertCoord e (intWord e b (word k)) = .ok t ∧ (wordBytes b (word k)).length = 4 := by
  unfold ghText at ht
  obtain ⟨v, h1, ht⟩ := bind_inv ht
  refine ⟨?_, (hf k v h1).2⟩
  have h2 := (hf k v h1).1
  rw [hk] at h2
  split at ht
  · obtain rfl := Except.ok.inj ht
    unfold GKind.conv gkeyVal intOf at h2
    dsimp only at h2
    obtain ⟨i, h3, h2⟩ := bind_inv h2
    obtain rfl := Except.ok.inj h3
    obtain ⟨y, h3, h2⟩ := bind_inv h2
    have := Except.ok.inj h2
    injection this with this
    rw [← this]; exact h3
  · cases ht

theorem GFieldsAt.level (hf : GFieldsAt e b word h) {k : Text} {l : Option Int} (hk : gridKey k = .level) (ht : ghLevel h k = .ok l) :
    l = let w := intWord e b (word k); if w < 0 then none else some w := by
  unfold ghLevel at ht
  obtain ⟨v, h1, ht⟩ := bind_inv ht
  have h2 := (hf k v h1).1
  rw [hk] at h2
  split at ht
  · obtain rfl := Except.ok.inj ht
    have := Except.ok.inj h2
    injection this with this
    rw [← this]
    unfold convertLevel
    dsimp only
    by_cases hw : intWord e b (word k) < 0
    · rw [if_pos hw, if_neg (by omega)]
    · rw [if_neg hw, if_pos (by omega)]
  · cases ht

theorem GFieldsAt.date (hf : GFieldsAt e b word h) {k : Text} {d : Option (Date × Clock)} (hk : gridKey k = .dattim) (ht : ghDate h k = .ok d) :
    convertDattim (intWord e b (word k)) = .ok d := by
  unfold ghDate at ht
  obtain ⟨v, h1, ht⟩ := bind_inv ht
  have h2 := (hf k v h1).1
  rw [hk] at h2
  split at ht
  · obtain rfl := Except.ok.inj ht
    unfold GKind.conv gkeyVal intOf at h2
    dsimp only at h2
    obtain ⟨i, h3, h2⟩ := bind_inv h2
    obtain rfl := Except.ok.inj h3
    obtain ⟨y, h3, h2⟩ := bind_inv h2
    have := Except.ok.inj h2
    injection this with this
    rw [← this]; exact h3
  · cases ht

theorem GFieldsAt.lead (hf : GFieldsAt e b word h) {k : Text} {d : Option (Int × Int)} (hk : gridKey k = .ftime) (ht : ghLead h k = .ok d) :
    convertFtime (intWord e b (word k)) = .ok d := by
  unfold ghLead at ht
  obtain ⟨v, h1, ht⟩ := bind_inv ht
  have h2 := (hf k v h1).1
  rw [hk] at h2
  split at ht
  · obtain rfl := Except.ok.inj ht
    unfold GKind.conv gkeyVal intOf at h2
    dsimp only at h2
    obtain ⟨i, h3, h2⟩ := bind_inv h2
    obtain rfl := Except.ok.inj h3
    obtain ⟨y, h3, h2⟩ := bind_inv h2
    have := Except.ok.inj h2
    injection this with this
    rw [← this]; exact h3
  · cases ht

end

theorem start_word {w : Int} {t : Date × Clock} (h : convertDattim w = .ok (some t)) : StartIs w t := dattim_word (x := t.1) (c := t.2) h

theorem dattim_none {w : Int} (h : convertDattim w = .ok none) : w = 0 := by
  unfold convertDattim at h
  split at h
  · assumption
  · split at h
    · cases hp : parseYmd w with
      | error e => rw [hp] at h; cases h
      | ok x => rw [hp] at h; cases h
    · cases hp : parseMdyhm w with
      | error e => rw [hp] at h; cases h
      | ok x => rw [hp] at h; cases h

theorem lead_word {w : Int} {f : Int × Int} (h : convertFtime w = .ok (some f)) :
    0 ≤ w ∧ 0 ≤ f.1 ∧ f.1 ≤ 3 ∧ f.1 = w / 100000 ∧ f.2 = w % 100000 / 100 * 60 + w % 100 := by
  unfold convertFtime at h
  split at h
  · dsimp only at h
    split at h
    · have h := Option.some.inj (Except.ok.inj h)
      subst h
      dsimp only
      omega
    · cases h
  · cases h

theorem lead_none {w : Int} (h : convertFtime w = .ok none) : w < 0 := by
  unfold convertFtime at h
  split at h
  · dsimp only at h
    split at h <;> cases h
  · omega

theorem valid_word {w l : Int} {t : Date × Clock} {f : Int × Int} (h1 : convertDattim w = .ok (some t)) (h2 : convertFtime l = .ok (some f)) :
    ValidIs w l (addMinutes t f.2) := by
  have hs := start_word h1
  obtain ⟨a0, a1, a2, a3, a4⟩ := lead_word h2
  obtain ⟨b1, b2, b3, b4, b5, b6, _⟩ := hs
  obtain ⟨c1, c2, c3⟩ := addMinutes_instant (t := t) (n := f.2) b1 ⟨b3, b4, by omega, by omega⟩ b2.2 (by omega) (by omega)
  exact ⟨c2, c3, t, start_word h1, by rw [c1, a4]⟩

theorem wordBytes_enc {e : Endian} {b : Bytes} {n : Nat} (hn : (wordBytes b n).length = 4) :
    encNat e 4 (toU32 (intWord e b n)) = wordBytes b n := by
  rw [← intWord_eq, toU32_toI32, ← hn, encNat_decNat]
  have := decNat_lt e (wordBytes b n)
  rw [hn] at this
  exact this

theorem gridInfo_at {e : Endian} {b : Bytes} {word : Text → Nat} {h : GHeader} (hf : GFieldsAt e b word h) {n : Nat} {g : GridInfo} (hg : gridInfo n h = .ok g) : GridAt e b word g := by
  unfold gridInfo at hg
  obtain ⟨v, h1, hg⟩ := bind_inv hg
  obtain ⟨v2, h2, hg⟩ := bind_inv hg
  obtain ⟨p, h3, hg⟩ := bind_inv hg
  obtain ⟨l1, h4, hg⟩ := bind_inv hg
  obtain ⟨l2, h5, hg⟩ := bind_inv hg
  obtain ⟨c, h6, hg⟩ := bind_inv hg
  obtain rfl := Except.ok.inj hg
  unfold ghValid at h1
  obtain ⟨f, f1, h1⟩ := bind_inv h1
  obtain ⟨d, f2, h1⟩ := bind_inv h1
  have f1 := hf.lead (by decide +kernel) f1
  have f2 := hf.date (by decide +kernel) f2
  split at h1
  on_goal 2 => cases h1
  rename_i f d
  obtain rfl := Except.ok.inj h1
  unfold ghName at h3
  obtain ⟨n1, m1, h3⟩ := bind_inv h3
  obtain ⟨n2, m2, h3⟩ := bind_inv h3
  obtain ⟨n3, m3, h3⟩ := bind_inv h3
  obtain rfl := Except.ok.inj h3
  obtain ⟨hc, hlen⟩ := hf.coord (by decide +kernel) h6
  refine ⟨?_, valid_word f2 f1, ?_, ⟨n1, n2, n3, hf.text (by decide +kernel) m1, hf.text (by decide +kernel) m2,
    hf.text (by decide +kernel) m3, rfl⟩, hf.level (by decide +kernel) h4, hf.level (by decide +kernel) h5, ?_⟩
  · obtain ⟨_, a1, a2, a3, _⟩ := lead_word f1
    exact ⟨a1, a2, a3⟩
  · unfold ghValid2 at h2
    obtain ⟨d2, k1, h2⟩ := bind_inv h2
    have k1 := hf.date (by decide +kernel) k1
    split at h2
    · obtain rfl := Except.ok.inj h2
      exact .inl (dattim_none k1)
    · obtain ⟨f2', k2, h2⟩ := bind_inv h2
      have k2 := hf.lead (by decide +kernel) k2
      split at h2
      · obtain rfl := Except.ok.inj h2
        exact ⟨(lead_word k2).1, valid_word k1 k2⟩
      · obtain rfl := Except.ok.inj h2
        exact .inr (lead_none k2)
  · dsimp only
    unfold convertCoord at hc
    split at hc
    · rename_i h8
      split at hc
      · rename_i h0
        rw [if_pos h8]
        refine ⟨h0, ?_⟩
        rw [← Except.ok.inj hc]
        have : verticalNamesUpper = coordNames := rfl
        rw [this]
        have hl : (intWord e b (word (txt "GVCD"))).toNat < coordNames.length := by
          show _ < 9
          omega
        rw [List.getD_eq_getElem?_getD, List.getElem?_eq_getElem hl]
        rfl
      · cases hc
    · rename_i h8
      rw [if_neg h8]
      refine ⟨by omega, ?_⟩
      rw [wordBytes_enc hlen] at hc
      split at hc
      · rename_i ht
        rw [ht, Except.ok.inj hc]
      · cases hc

theorem gridInfos_get {hs : List GHeader} {n : Nat} {gs : List GridInfo} (h : gridInfos hs n = .ok gs) {g : GridInfo} (hg : g ∈ gs) :
    ∃ k x, g.number = n + k ∧ hs[k]? = some x ∧ gridInfo g.number x = .ok g := by
  induction hs generalizing n gs with
  | nil =>
    obtain rfl := Except.ok.inj h
    cases hg
  | cons a r ih =>
    unfold gridInfos at h
    obtain ⟨x, h1, h⟩ := bind_inv h
    obtain ⟨xs, h2, h⟩ := bind_inv h
    obtain rfl := Except.ok.inj h
    rcases List.mem_cons.1 hg with rfl | hg
    · have hn : g.number = n := by
        unfold gridInfo at h1
        obtain ⟨_, _, h1⟩ := bind_inv h1
        obtain ⟨_, _, h1⟩ := bind_inv h1
        obtain ⟨_, _, h1⟩ := bind_inv h1
        obtain ⟨_, _, h1⟩ := bind_inv h1
        obtain ⟨_, _, h1⟩ := bind_inv h1
        obtain ⟨_, _, h1⟩ := bind_inv h1
        obtain rfl := Except.ok.inj h1
        rfl
      exact ⟨0, a, by omega, rfl, by rw [hn]; exact h1⟩
    · obtain ⟨k, y, k1, k2, k3⟩ := ih h2 hg
      exact ⟨k + 1, y, by omega, k2, k3⟩

/-- **C119** for grids: whoever wrote a file, an entry of `gdinfo()` has the values of the words of its column header, if none before it is
unused. -/
theorem C119_grids (host : Endian) (b : Bytes) (f : GridFileR) (ho : openGrid host b = .ok f)
    (hc : 1 ≤ f.info.label.columnHeadersPtr) (g : GridInfo) (hg : g ∈ f.grids)
    (hu : UsedTo f.info.order b f.info.columnKeys f.info.label.columnHeadersPtr.toNat g.number) :
    GridAt f.info.order b (headWord f.info.columnKeys f.info.label.columnHeadersPtr.toNat g.number) g := by
  unfold openGrid at ho
  obtain ⟨i, h1, ho⟩ := bind_inv ho
  obtain ⟨_, _, ho⟩ := bind_inv ho
  obtain ⟨_, _, ho⟩ := bind_inv ho
  obtain ⟨_, _, ho⟩ := bind_inv ho
  obtain ⟨cols, h2, ho⟩ := bind_inv ho
  obtain ⟨gs, h3, ho⟩ := bind_inv ho
  obtain ⟨_, _, ho⟩ := bind_inv ho
  obtain rfl := Except.ok.inj ho
  dsimp only at *
  obtain ⟨k, x, k1, k2, k3⟩ := gridInfos_get h3 hg
  obtain rfl : g.number = k := by omega
  exact gridInfo_at (gfields_of hc h2 k2 hu) k3

/-- A file with headers of two grids, the second on a coordinate named by its letters and with a range of times. -/
def gridsSample : Bytes :=
  wordsOf ["GEMPAK DATA MANAGEMENT FILE "] ++
  intsOf [1, 0, 32, 1, 1, 32, 43, 2, 10, 33, 45, 1, 67, 75, 32, 107, 3, 2, 0, -9999, 0, 0, 0, 0] ++
  wordsOf ["GRID"] ++ wordsOf ["GDT1", "GTM1", "GDT2", "GTM2", "GLV1", "GLV2", "GVCD", "GPM1", "GPM2", "GPM3"] ++
  intsOf [9999, 1] ++
  intsOf [9999, 241116, 100600, 0, 0, 500, -1, 1] ++ wordsOf ["TMPK", "    ", "    "] ++
  intsOf [9999, 1116241200, 101230, 1116241200, 101830, 2, -1] ++ wordsOf ["HGT2", "P06M", "    ", "    "] ++
  wordsOf ["GRID"] ++ intsOf [2, 5, 1] ++ wordsOf ["GRID"] ++ intsOf [0, 0, 0] ++ intsOf (List.replicate 32 0) ++ intsOf [0, 0]

/-- It meets the hypotheses of `C119_grids`. -/
example : ∃ f, openGrid .little gridsSample = .ok f ∧ 1 ≤ f.info.label.columnHeadersPtr ∧
    f.grids.map (fun g => (g.number, g.type, g.coord, g.time2.isSome)) =
      [(0, 1, txt "PRES", false), (1, 1, txt "HGT2", true)] ∧
    ∀ g ∈ f.grids, UsedTo f.info.order gridsSample f.info.columnKeys f.info.label.columnHeadersPtr.toNat g.number := by
  have h : (openGrid .little gridsSample).toOption.all (fun f => decide (1 ≤ f.info.label.columnHeadersPtr ∧
      ∀ g ∈ f.grids, ∀ j ≤ g.number,
        fileWord f.info.order gridsSample (f.info.label.columnHeadersPtr.toNat + j * (f.info.columnKeys.length + 1)) = 9999)) = true := by
    decide +kernel
  have h' : ((openGrid .little gridsSample).toOption.map fun f => f.grids.map fun g => (g.number, g.type, g.coord, g.time2.isSome)) =
      some [(0, 1, txt "PRES", false), (1, 1, txt "HGT2", true)] := by
    decide +kernel
  have h0 : (openGrid .little gridsSample).toOption.isSome = true := by decide +kernel
  cases hg : openGrid .little gridsSample with
  | error e => rw [hg] at h0; cases h0
  | ok f =>
    rw [hg] at h h'
    exact ⟨f, rfl, (of_decide_eq_true h).1, Option.some.inj h', (of_decide_eq_true h).2⟩

end Gempak
