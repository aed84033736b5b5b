import Verif.Props.Places

/-!
# Any file: what is listed for a site and time is stored in their headers (C119)
-/

namespace Gempak
open Spec

/-! ## Specification -/

/-- Word with the field `name` of header `k`, the headers of these keys being stored from word `w` on: each has a word that marks it
as used and a word for every key. -/
def Spec.headWord (keys : List Text) (w k : Nat) (name : Text) : Nat := w + k * (keys.length + 1) + 1 + keys.idxOf name

/-- Header `k` is marked as used, and so are those before it. -/
def Spec.UsedTo (e : Endian) (b : Bytes) (keys : List Text) (w k : Nat) : Prop :=
  ∀ j ≤ k, fileWord e b (w + j * (keys.length + 1)) = 9999

/-- The word says this date, with two digits for the year: year, month and day, or month, day, year, hour and minute. -/
structure Spec.DateIs (w : Int) (x : Date) : Prop where
  valid : x.Valid
  window : 1969 ≤ x.y ∧ x.y ≤ 2068
  word : w = x.y % 100 * 10000 + x.m * 100 + x.d ∨
    ∃ h mi : Nat, h < 24 ∧ mi < 60 ∧ w = x.m * 100000000 + x.d * 1000000 + x.y % 100 * 10000 + h * 100 + mi

/-- The word says this time of day. -/
def Spec.TimeIs (w : Int) (c : Clock) : Prop := c.h < 24 ∧ c.mi < 60 ∧ c.s = 0 ∧ c.us = 0 ∧ w = 100 * c.h + c.mi

/-- An entry of the list of sites, `site` and `time` giving the words with the fields of the site and of the time; `second` tells
whether identifiers go on in a second field. -/
structure Spec.EntryAt (e : Endian) (b : Bytes) (site time : Text → Nat) (second : Bool) (s : SiteInfo) : Prop where
  id : ∃ i, NameAt b (site (txt "STID")) i ∧
    if second then ∃ i', NameAt b (site (txt "STD2")) i' ∧ s.id = i ++ i' else s.id = i
  number : s.number = intWord e b (site (txt "STNM"))
  /-- In hundredths of a degree. -/
  latitude : s.lat = intWord e b (site (txt "SLAT"))
  longitude : s.lon = intWord e b (site (txt "SLON"))
  elevation : s.elev = intWord e b (site (txt "SELV"))
  state : NameAt b (site (txt "STAT")) s.state
  country : NameAt b (site (txt "COUN")) s.country
  date : DateIs (intWord e b (time (txt "DATE"))) s.dattim.1
  time : TimeIs (intWord e b (time (txt "TIME"))) s.dattim.2

/-! ## Headers -/

theorem headers_at {α : Type} {e : Endian} {b : Bytes} {fs : List Fmt} {conv : List Val → Except PyErr α} {m : Nat} (hm : 1 ≤ m)
    (hfs : fmtSize fs = 4 * m) : ∀ (n w : Nat) (l : List α), 1 ≤ w → readHeaders e b fs conv n ((4 * (w - 1) : Nat) : Int) = .ok l →
    ∀ (k : Nat) (x : α), l[k]? = some x → (∀ j ≤ k, fileWord e b (w + j * (m + 1)) = 9999) →
      conv (unpackItems e fs (b.drop (4 * (w + k * (m + 1))))) = .ok x ∧ 4 * (w + k * (m + 1) + m) ≤ b.length := by
  intro n
  induction n with
  | zero =>
    intro w l _ h k x hk _
    obtain rfl := Except.ok.inj h
    cases hk
  | succ n ih =>
    intro w l hw h k x hk hu
    unfold readHeaders at h
    dsimp only at h
    have h0 := hu 0 (by omega)
    rw [Nat.zero_mul, Nat.add_zero] at h0
    have hr : readWord e b ((4 * (w - 1) : Nat) : Int) = 9999 := by
      rw [readWord_pos e b hw rfl, h0]
      rfl
    rw [if_pos hr] at h
    obtain ⟨y, h1, h⟩ := bind_inv h
    obtain ⟨r, h2, h⟩ := bind_inv h
    obtain rfl := Except.ok.inj h
    obtain ⟨vs, h3, h4⟩ := bind_inv h1
    have hsl : pySlice b ((4 * (w - 1) : Nat) : Int) (((4 * (w - 1) : Nat) : Int) + 4) = (b.drop (4 * (w - 1))).take 4 := by
      rw [show ((4 * (w - 1) : Nat) : Int) + 4 = ((4 * (w - 1) + 4 : Nat) : Int) by omega, pySlice_nat _ _ _ (by omega),
        Nat.add_sub_cancel_left]
    rw [hsl] at h2 h3
    have hL : ((b.drop (4 * (w - 1))).take 4).length = min 4 (b.length - 4 * (w - 1)) := by
      rw [List.length_take, List.length_drop]
    generalize hg : ((b.drop (4 * (w - 1))).take 4).length = L at *
    have h3' : unpackFrom e fs b ((4 * (w - 1) + L : Nat) : Int) = .ok vs := by
      rw [← h3]; congr 1
    obtain ⟨rfl, hle⟩ := unpackFrom_inv h3'
    have hL4 : L = 4 := by omega
    subst hL4
    have e1 : 4 * (w - 1) + 4 = 4 * w := by omega
    rw [e1] at h4
    rcases k with _ | k
    · obtain rfl := Option.some.inj hk
      rw [Nat.zero_mul, Nat.add_zero]
      exact ⟨h4, by omega⟩
    · have h5 : readHeaders e b fs conv n ((4 * (w + (m + 1) - 1) : Nat) : Int) = .ok r := by
        rw [← h2]; congr 1; omega
      have := ih (w + (m + 1)) r (by omega) h5 k x hk (fun j hj => by
        rw [Nat.add_assoc, show m + 1 + j * (m + 1) = (j + 1) * (m + 1) by ring]
        exact hu (j + 1) (by omega))
      rw [Nat.add_assoc, show m + 1 + k * (m + 1) = (k + 1) * (m + 1) by ring] at this
      exact this

/-- The value stored in a word for a key. -/
def keyVal (e : Endian) (b : Bytes) (n : Nat) : KeyKind → Val
  | .text => .str (wordBytes b n)
  | _ => .int (intWord e b n)

theorem keyFmt_size (k : KeyKind) : k.fmt.size = 4 := by cases k <;> rfl

theorem fmtSize_keys (kind : Text → KeyKind) (ks : List Text) : fmtSize (ks.map fun k => (kind k).fmt) = 4 * ks.length := by
  unfold fmtSize
  induction ks with
  | nil => rfl
  | cons k ks ih => rw [List.map_cons, List.map_cons, List.sum_cons, ih, keyFmt_size, List.length_cons]; omega

theorem field_at {e : Endian} {b : Bytes} {kind : Text → KeyKind} : ∀ (ks : List Text) (w : Nat) (h : Header), 1 ≤ w →
    convHeader kind ks (unpackItems e (ks.map fun k => (kind k).fmt) (b.drop (4 * (w - 1)))) = .ok h → ∀ (k : Text) (v : HVal),
    dictGet h k = some v → (kind k).conv (keyVal e b (w + ks.idxOf k) (kind k)) = .ok v := by
  intro ks
  induction ks with
  | nil =>
    intro w h _ hc k v hv
    obtain rfl := Except.ok.inj hc
    cases hv
  | cons a ks ih =>
    intro w h hw hc k v hv
    rw [List.map_cons, unpackItems, keyFmt_size, List.drop_drop] at hc
    have hone : unpackOne e (kind a).fmt ((b.drop (4 * (w - 1))).take 4) = [keyVal e b w (kind a)] := by
      have : (b.drop (4 * (w - 1))).take 4 = wordBytes b w := rfl
      rw [this]
      cases kind a <;> simp only [KeyKind.fmt, unpackOne, keyVal, intWord_eq]
    rw [hone, List.singleton_append] at hc
    unfold convHeader at hc
    obtain ⟨x, h1, hc⟩ := bind_inv hc
    obtain ⟨r, h2, hc⟩ := bind_inv hc
    obtain rfl := Except.ok.inj hc
    unfold dictGet at hv
    by_cases hak : a = k
    · rw [if_pos hak] at hv
      obtain rfl := Option.some.inj hv
      subst hak
      rw [List.idxOf_cons_self, Nat.add_zero]
      exact h1
    · rw [if_neg hak] at hv
      have := ih (w + 1) r (by omega) (by rw [show 4 * (w + 1 - 1) = 4 * (w - 1) + 4 by omega]; exact h2) k v hv
      rw [List.idxOf_cons_ne ks hak, show w + (ks.idxOf k).succ = w + 1 + ks.idxOf k by omega]
      exact this

/-- A header read by `openStation`, field by field. -/
theorem header_fields {e : Endian} {b : Bytes} {kind : Text → KeyKind} {ks : List Text} {n w : Nat} {l : List Header} (hw : 1 ≤ w)
    (hne : ks ≠ []) {ptr : Int} (hp : wordToPosition ptr = ((4 * (w - 1) : Nat) : Int))
    (h : readHeaders e b (ks.map fun k => (kind k).fmt) (convHeader kind ks) n (wordToPosition ptr) = .ok l)
    {k : Nat} {x : Header} (hk : l[k]? = some x) (hu : UsedTo e b ks w k) {name : Text} {v : HVal} (hv : headGet x name = .ok v) :
    (kind name).conv (keyVal e b (headWord ks w k name) (kind name)) = .ok v := by
  rw [hp] at h
  have h1 := headers_at (m := ks.length) (List.length_pos_iff.2 hne) (fmtSize_keys kind ks) n w l hw h k x hk hu
  have hv' : dictGet x name = some v := by
    unfold headGet at hv
    split at hv
    · rename_i hd
      rw [hd, Except.ok.inj hv]
    · cases hv
  have := field_at ks (w + k * (ks.length + 1) + 1) x (by omega) (by
    rw [Nat.add_sub_cancel]
    exact h1.1) name v hv'
  exact this

/-! ## Fields -/

theorem mkDate_inv {y m d : Nat} {x : Date} (h : mkDate y m d = .ok x) : x = ⟨y, m, d⟩ ∧ x.Valid := by
  unfold mkDate at h
  split at h
  · rename_i hv
    obtain rfl := Except.ok.inj h
    exact ⟨rfl, hv⟩
  · cases h

theorem pivotYear_mod {n : Nat} (h : n < 100) : pivotYear n % 100 = n ∧ 1969 ≤ pivotYear n ∧ pivotYear n ≤ 2068 := by
  unfold pivotYear
  split <;> omega

/-- Dates and times of words. -/
theorem dattim_word {w : Int} {x : Date} {c : Clock} (h : convertDattim w = .ok (some (x, c))) :
    x.Valid ∧ (1969 ≤ x.y ∧ x.y ≤ 2068) ∧ c.h < 24 ∧ c.mi < 60 ∧ c.s = 0 ∧ c.us = 0 ∧
      (w = x.y % 100 * 10000 + x.m * 100 + x.d ∧ c = ⟨0, 0, 0, 0⟩ ∨
        w = x.m * 100000000 + x.d * 1000000 + x.y % 100 * 10000 + c.h * 100 + c.mi) := by
  unfold convertDattim at h
  split at h
  · cases h
  split at h
  · unfold parseYmd at h
    split at h
    · cases h
    cases hd : mkDate (pivotYear (w.toNat / 10000)) (w.toNat / 100 % 100) (w.toNat % 100) with
    | error e => rw [hd] at h; cases h
    | ok y =>
      rw [hd] at h
      have h := Option.some.inj (Except.ok.inj h)
      obtain ⟨rfl, rfl⟩ := Prod.mk.inj h
      obtain ⟨hy, hv⟩ := mkDate_inv hd
      obtain ⟨p1, p2, p3⟩ := pivotYear_mod (n := w.toNat / 10000) (by omega)
      subst hy
      dsimp only at *
      refine ⟨hv, ⟨p2, p3⟩, by omega, by omega, rfl, rfl, .inl ⟨?_, rfl⟩⟩
      omega
  · unfold parseMdyhm at h
    split at h
    · cases h
    cases hd : mkDate (pivotYear (w.toNat / 10000 % 100)) (w.toNat / 100000000) (w.toNat / 1000000 % 100) with
    | error e => rw [hd] at h; cases h
    | ok y =>
      cases hcl : mkClock (w.toNat / 100 % 100) (w.toNat % 100) with
      | error e => rw [hd, hcl] at h; cases h
      | ok z =>
        rw [hd, hcl] at h
        have h := Option.some.inj (Except.ok.inj h)
        obtain ⟨rfl, rfl⟩ := Prod.mk.inj h
        obtain ⟨hy, hv⟩ := mkDate_inv hd
        obtain ⟨p1, p2, p3⟩ := pivotYear_mod (n := w.toNat / 10000 % 100) (by omega)
        unfold mkClock at hcl
        split at hcl
        · rename_i hb
          obtain rfl := Except.ok.inj hcl
          subst hy
          dsimp only at *
          exact ⟨hv, ⟨p2, p3⟩, hb.1, hb.2, rfl, rfl, .inr (by omega)⟩
        · cases hcl

theorem date_word {w : Int} {x : Date} (h : makeDate w = .ok x) : DateIs w x := by
  unfold makeDate at h
  obtain ⟨o, h1, h⟩ := bind_inv h
  cases o with
  | none => cases h
  | some t =>
    obtain ⟨y, c⟩ := t
    obtain rfl := Except.ok.inj h
    obtain ⟨a1, a2, a3, a4, _, _, a7⟩ := dattim_word h1
    refine ⟨a1, a2, ?_⟩
    rcases a7 with ⟨h, _⟩ | h
    · exact .inl h
    · exact .inr ⟨c.h, c.mi, a3, a4, h⟩

theorem time_word {w : Int} {c : Clock} (h : makeTime w = .ok c) : TimeIs w c := by
  obtain ⟨h1, h2, h3, h4⟩ := (C22_time_words w c).1 h
  exact ⟨h1, h2, by rw [h3], by rw [h3], h4⟩

theorem headTime_inv {h : Header} {t : Date × Clock} (ht : headTime h = .ok t) :
    headGet h (txt "DATE") = .ok (.date t.1) ∧ headGet h (txt "TIME") = .ok (.time t.2) := by
  unfold headTime at ht
  obtain ⟨d, h1, ht⟩ := bind_inv ht
  obtain ⟨c, h2, ht⟩ := bind_inv ht
  unfold combine at ht
  split at ht
  · obtain rfl := Except.ok.inj ht
    exact ⟨h1, h2⟩
  · cases ht

section
variable {e : Endian} {b : Bytes} {n : Nat}

theorem text_word {t : Text} (h : KeyKind.text.conv (keyVal e b n .text) = .ok (.text t)) : NameAt b n t := by
  unfold KeyKind.conv keyVal textOf at h
  dsimp only at h
  unfold NameAt
  cases hd : decodeStrip (wordBytes b n) with
  | error x => rw [hd] at h; cases h
  | ok t' =>
    rw [hd] at h
    have := Except.ok.inj h
    injection this with this
    rw [this]

theorem int_word {i : Int} (h : KeyKind.int.conv (keyVal e b n .int) = .ok (.int i)) : i = intWord e b n := by
  have := Except.ok.inj h
  injection this with this
  exact this.symm

theorem coord_word {i : Int} (h : KeyKind.coord.conv (keyVal e b n .coord) = .ok (.coord i)) : i = intWord e b n := by
  have := Except.ok.inj h
  injection this with this
  exact this.symm

theorem dateKey_word {x : Date} (h : KeyKind.date.conv (keyVal e b n .date) = .ok (.date x)) : DateIs (intWord e b n) x := by
  unfold KeyKind.conv keyVal intOf at h
  dsimp only at h
  obtain ⟨i, h1, h⟩ := bind_inv h
  obtain rfl := Except.ok.inj h1
  obtain ⟨y, h2, h⟩ := bind_inv h
  have := Except.ok.inj h
  injection this with this
  subst this
  exact date_word h2

theorem timeKey_word {x : Clock} (h : KeyKind.time.conv (keyVal e b n .time) = .ok (.time x)) : TimeIs (intWord e b n) x := by
  unfold KeyKind.conv keyVal intOf at h
  dsimp only at h
  obtain ⟨i, h1, h⟩ := bind_inv h
  obtain rfl := Except.ok.inj h1
  obtain ⟨y, h2, h⟩ := bind_inv h
  have := Except.ok.inj h
  injection this with this
  subst this
  exact time_word h2

end

/-- Fields of a header as words. -/
def FieldsAt (e : Endian) (b : Bytes) (kind : Text → KeyKind) (word : Text → Nat) (h : Header) : Prop :=
  ∀ name v, headGet h name = .ok v → (kind name).conv (keyVal e b (word name) (kind name)) = .ok v

section
variable {e : Endian} {b : Bytes} {kind : Text → KeyKind} {word : Text → Nat} {h : Header}

theorem FieldsAt.text (hf : FieldsAt e b kind word h) {k t : Text} (hk : kind k = .text) (ht : headText h k = .ok t) : NameAt b (word k) t := by
  have := hf k _ (headText_inv ht)
  rw [hk] at this
  exact text_word this

theorem FieldsAt.int (hf : FieldsAt e b kind word h) {k : Text} {i : Int} (hk : kind k = .int) (ht : headInt h k = .ok i) :
    i = intWord e b (word k) := by
  have := hf k _ (headInt_inv ht)
  rw [hk] at this
  exact int_word this

theorem FieldsAt.coord (hf : FieldsAt e b kind word h) {k : Text} {i : Int} (hk : kind k = .coord) (ht : headCoord h k = .ok i) :
    i = intWord e b (word k) := by
  have := hf k _ (headCoord_inv ht)
  rw [hk] at this
  exact coord_word this

theorem FieldsAt.time (hf : FieldsAt e b kind word h) (h1 : kind (txt "DATE") = .date) (h2 : kind (txt "TIME") = .time) {t : Date × Clock}
    (ht : headTime h = .ok t) : DateIs (intWord e b (word (txt "DATE"))) t.1 ∧ TimeIs (intWord e b (word (txt "TIME"))) t.2 := by
  obtain ⟨a1, a2⟩ := headTime_inv ht
  have a1 := hf _ _ a1
  have a2 := hf _ _ a2
  rw [h1] at a1
  rw [h2] at a2
  exact ⟨dateKey_word a1, timeKey_word a2⟩

end

theorem surface_entry {e : Endian} {b : Bytes} {site time : Text → Nat} {c : CellRef} {s : SiteInfo} (h1 : FieldsAt e b sfKey site c.site)
    (h2 : FieldsAt e b sfKey time c.time) (h : surfaceInfo c = .ok s) : EntryAt e b site time true s ∧ s.row = c.row ∧ s.col = c.col := by
  unfold surfaceInfo at h
  obtain ⟨t, a1, h⟩ := bind_inv h
  obtain ⟨id, a2, h⟩ := bind_inv h
  obtain ⟨id2, a3, h⟩ := bind_inv h
  obtain ⟨n, a4, h⟩ := bind_inv h
  obtain ⟨lat, a5, h⟩ := bind_inv h
  obtain ⟨lon, a6, h⟩ := bind_inv h
  obtain ⟨elev, a7, h⟩ := bind_inv h
  obtain ⟨st, a8, h⟩ := bind_inv h
  obtain ⟨co, a9, h⟩ := bind_inv h
  obtain rfl := Except.ok.inj h
  have ht := h2.time (by decide +kernel) (by decide +kernel) a1
  exact ⟨⟨⟨id, h1.text (by decide +kernel) a2, ⟨id2, h1.text (by decide +kernel) a3, rfl⟩⟩, h1.int (by decide +kernel) a4,
    h1.coord (by decide +kernel) a5, h1.coord (by decide +kernel) a6, h1.int (by decide +kernel) a7, h1.text (by decide +kernel) a8,
    h1.text (by decide +kernel) a9, ht.1, ht.2⟩, rfl, rfl⟩

theorem sounding_entry {e : Endian} {b : Bytes} {site time : Text → Nat} {c : CellRef} {s : SiteInfo} (h1 : FieldsAt e b siteKey site c.site)
    (h2 : FieldsAt e b timeKey time c.time) (h : soundingInfo c = .ok s) : EntryAt e b site time false s := by
  unfold soundingInfo at h
  obtain ⟨t, a1, h⟩ := bind_inv h
  obtain ⟨id, a2, h⟩ := bind_inv h
  obtain ⟨n, a4, h⟩ := bind_inv h
  obtain ⟨lat, a5, h⟩ := bind_inv h
  obtain ⟨lon, a6, h⟩ := bind_inv h
  obtain ⟨elev, a7, h⟩ := bind_inv h
  obtain ⟨st, a8, h⟩ := bind_inv h
  obtain ⟨co, a9, h⟩ := bind_inv h
  obtain rfl := Except.ok.inj h
  have ht := h2.time (by decide +kernel) (by decide +kernel) a1
  exact ⟨⟨id, h1.text (by decide +kernel) a2, rfl⟩, h1.int (by decide +kernel) a4,
    h1.coord (by decide +kernel) a5, h1.coord (by decide +kernel) a6, h1.int (by decide +kernel) a7, h1.text (by decide +kernel) a8,
    h1.text (by decide +kernel) a9, ht.1, ht.2⟩

/-! ## Lists of sites -/

/-- What `openStation` has read. -/
theorem openStation_inv {rk ck : Text → KeyKind} {host : Endian} {b : Bytes} {f : StationFile} (h : openStation rk ck host b = .ok f) :
    readDM host b = .ok f.info ∧ f.bytes = b ∧
      readHeaders f.info.order b (f.info.rowKeys.map fun k => (rk k).fmt) (convHeader rk f.info.rowKeys) f.info.label.rows.toNat
        (wordToPosition f.info.label.rowHeadersPtr) = .ok f.rows ∧
      readHeaders f.info.order b (f.info.columnKeys.map fun k => (ck k).fmt) (convHeader ck f.info.columnKeys) f.info.label.columns.toNat
        (wordToPosition f.info.label.columnHeadersPtr) = .ok f.cols := by
  unfold openStation at h
  obtain ⟨i, h1, h⟩ := bind_inv h
  obtain ⟨_, _, h⟩ := bind_inv h
  obtain ⟨rows, h2, h⟩ := bind_inv h
  obtain ⟨_, _, h⟩ := bind_inv h
  obtain ⟨cols, h3, h⟩ := bind_inv h
  obtain rfl := Except.ok.inj h
  exact ⟨h1, rfl, h2, h3⟩

/-- A key found in a header is one of the keys. -/
theorem keys_ne {kind : Text → KeyKind} {e : Endian} {b : Bytes} {n : Nat} {p : Int} {ks : List Text} {l : List Header}
    (h : readHeaders e b (ks.map fun k => (kind k).fmt) (convHeader kind ks) n p = .ok l) {x : Header} (hx : x ∈ l) {k : Text} {v : HVal}
    (hv : headGet x k = .ok v) : ks ≠ [] := by
  rintro rfl
  have := readHeaders_all h (fun x => x = []) (fun vs y hy => by
    cases vs with
    | nil => exact (Except.ok.inj hy).symm
    | cons _ _ => cases hy) x hx
  subst this
  cases hv

/-- Fields of row or column `k`. -/
theorem fields_of {kind : Text → KeyKind} {e : Endian} {b : Bytes} {n : Nat} {ptr : Int} {ks : List Text} {l : List Header} (hp : 1 ≤ ptr)
    (h : readHeaders e b (ks.map fun k => (kind k).fmt) (convHeader kind ks) n (wordToPosition ptr) = .ok l) {k : Nat} {x : Header}
    (hk : l[k]? = some x) (hu : UsedTo e b ks ptr.toNat k) : FieldsAt e b kind (headWord ks ptr.toNat k) x :=
  fun _ _ hv => header_fields (by omega) (keys_ne h (List.mem_of_getElem? hk) hv) (wtp' hp) h hk hu hv

/-- **C119** for soundings: whoever wrote a file, an entry of `sninfo()` has the values of the words of its column and row header, if
no header before them is unused. -/
theorem C119_soundings (host : Endian) (b : Bytes) (f : SoundingReader) (ho : openSounding host b = .ok f)
    (hr : 1 ≤ f.info.label.rowHeadersPtr) (hc : 1 ≤ f.info.label.columnHeadersPtr) (s : SiteInfo) (hs : s ∈ f.sninfo)
    (h1 : UsedTo f.info.order b f.info.rowKeys f.info.label.rowHeadersPtr.toNat s.row)
    (h2 : UsedTo f.info.order b f.info.columnKeys f.info.label.columnHeadersPtr.toNat s.col) :
    EntryAt f.info.order b (headWord f.info.columnKeys f.info.label.columnHeadersPtr.toNat s.col)
      (headWord f.info.rowKeys f.info.label.rowHeadersPtr.toNat s.row) false s := by
  obtain ⟨row, col, r1, r2, r3, _⟩ := sninfo_cell ho hs
  have hst : openStation timeKey siteKey host b = .ok f.toStationFile := by
    unfold openSounding at ho
    obtain ⟨g, g1, ho⟩ := bind_inv ho
    obtain ⟨infos, _, ho⟩ := bind_inv ho
    obtain rfl := Except.ok.inj ho
    exact g1
  obtain ⟨_, _, q1, q2⟩ := openStation_inv hst
  exact sounding_entry (fields_of hc q2 r2 h2) (fields_of hr q1 r1 h1) r3

/-! ## Surface files -/

/-- **C119** for surface files: whoever wrote a file, an entry of `sfinfo()` has the values of the words of its headers, if none before
them is unused: sites in columns and times in rows, both in columns for ships, and sites in rows and times in columns for climate
files. -/
theorem C119_surface (host : Endian) (b : Bytes) (g : SurfaceReader) (ho : openSurface host b = .ok g)
    (hr : 1 ≤ g.info.label.rowHeadersPtr) (hc : 1 ≤ g.info.label.columnHeadersPtr) (s : SiteInfo) (hs : s ∈ g.sfinfo)
    (h1 : g.type ≠ .ship → UsedTo g.info.order b g.info.rowKeys g.info.label.rowHeadersPtr.toNat s.row)
    (h2 : UsedTo g.info.order b g.info.columnKeys g.info.label.columnHeadersPtr.toNat s.col) :
    let byRow := headWord g.info.rowKeys g.info.label.rowHeadersPtr.toNat s.row
    let byColumn := headWord g.info.columnKeys g.info.label.columnHeadersPtr.toNat s.col
    match g.type with
    | .standard => EntryAt g.info.order b byColumn byRow true s
    | .ship => EntryAt g.info.order b byColumn byColumn true s
    | .climate => EntryAt g.info.order b byRow byColumn true s := by
  obtain ⟨c, hcell, hi⟩ := sfinfo_cell ho hs
  have hst : openStation sfKey sfKey host b = .ok g.toStationFile := by
    unfold openSurface at ho
    obtain ⟨f, g1, ho⟩ := bind_inv ho
    obtain ⟨t, _, ho⟩ := bind_inv ho
    obtain ⟨infos, _, ho⟩ := bind_inv ho
    obtain rfl := Except.ok.inj ho
    exact g1
  obtain ⟨_, _, q1, q2⟩ := openStation_inv hst
  have hrc : s.row = c.row ∧ s.col = c.col := by
    unfold surfaceInfo at hi
    obtain ⟨t, _, hi⟩ := bind_inv hi
    obtain ⟨_, _, hi⟩ := bind_inv hi
    obtain ⟨_, _, hi⟩ := bind_inv hi
    obtain ⟨_, _, hi⟩ := bind_inv hi
    obtain ⟨_, _, hi⟩ := bind_inv hi
    obtain ⟨_, _, hi⟩ := bind_inv hi
    obtain ⟨_, _, hi⟩ := bind_inv hi
    obtain ⟨_, _, hi⟩ := bind_inv hi
    obtain ⟨_, _, hi⟩ := bind_inv hi
    obtain rfl := Except.ok.inj hi
    exact ⟨rfl, rfl⟩
  rw [hrc.1] at h1
  rw [hrc.2] at h2
  rw [hrc.1, hrc.2]
  dsimp only
  cases ht : g.type with
  | standard =>
    rw [ht] at hcell h1
    unfold SfType.cells standardCells at hcell
    obtain ⟨r, h3, h4⟩ := List.mem_flatMap.1 hcell
    obtain ⟨d, h5, rfl⟩ := List.mem_map.1 h4
    exact (surface_entry (fields_of hc q2 (zipIdx_get h5) h2) (fields_of hr q1 (zipIdx_get h3) (h1 (by decide))) hi).1
  | ship =>
    rw [ht] at hcell
    unfold SfType.cells at hcell
    obtain ⟨d, h5, rfl⟩ := List.mem_map.1 hcell
    exact (surface_entry (fields_of hc q2 (zipIdx_get h5) h2) (fields_of hc q2 (zipIdx_get h5) h2) hi).1
  | climate =>
    rw [ht] at hcell h1
    unfold SfType.cells at hcell
    obtain ⟨r, h3, h4⟩ := List.mem_flatMap.1 hcell
    obtain ⟨d, h5, rfl⟩ := List.mem_map.1 h4
    exact (surface_entry (fields_of hr q1 (zipIdx_get h5) (h1 (by decide))) (fields_of hc q2 (zipIdx_get h3) h2) hi).1

/-- The file with two stations meets the hypotheses of `C119_structure` and of `C119_surface`. -/
example : ∃ g, openSurface .little partsSample = .ok g ∧ Placed g.info.label ∧ StructureAt .little partsSample g.info ∧
    1 ≤ g.info.label.rowHeadersPtr ∧ 1 ≤ g.info.label.columnHeadersPtr ∧ g.type = .standard ∧ g.sfinfo.length = 2 ∧
    ∀ s ∈ g.sfinfo, UsedTo g.info.order partsSample g.info.rowKeys g.info.label.rowHeadersPtr.toNat s.row ∧
      UsedTo g.info.order partsSample g.info.columnKeys g.info.label.columnHeadersPtr.toNat s.col := by
  have h : (openSurface .little partsSample).toOption.all (fun g => decide (
      (1 ≤ g.info.label.fileKeysPtr ∧ 1 ≤ g.info.label.rowKeysPtr ∧ 1 ≤ g.info.label.columnKeysPtr ∧ 1 ≤ g.info.label.partsPtr) ∧
      1 ≤ g.info.label.rowHeadersPtr ∧ 1 ≤ g.info.label.columnHeadersPtr ∧ g.type = .standard ∧ g.infos.length = 2 ∧
      ∀ s ∈ g.infos, (∀ j ≤ s.row, fileWord g.info.order partsSample (g.info.label.rowHeadersPtr.toNat + j * (g.info.rowKeys.length + 1)) = 9999) ∧
        ∀ j ≤ s.col, fileWord g.info.order partsSample (g.info.label.columnHeadersPtr.toNat + j * (g.info.columnKeys.length + 1)) = 9999)) = true := by
    decide +kernel
  have h0 : (openSurface .little partsSample).toOption.isSome = true := by decide +kernel
  cases hg : openSurface .little partsSample with
  | error e => rw [hg] at h0; cases h0
  | ok g =>
    rw [hg] at h
    obtain ⟨⟨p1, p2, p3, p4⟩, p5, p6, p7, p8, p9⟩ := of_decide_eq_true h
    have hst : readDM .little partsSample = .ok g.info := by
      unfold openSurface at hg
      obtain ⟨f, g1, hg⟩ := bind_inv hg
      obtain ⟨t, _, hg⟩ := bind_inv hg
      obtain ⟨infos, _, hg⟩ := bind_inv hg
      obtain rfl := Except.ok.inj hg
      exact (openStation_inv g1).1
    refine ⟨g, rfl, ⟨p1, p2, p3, p4⟩, C119_structure _ _ _ hst ⟨p1, p2, p3, p4⟩, p5, p6, p7, ?_, ?_⟩
    · unfold SurfaceReader.sfinfo
      rw [List.length_mergeSort]
      exact p8
    · intro s hs
      exact p9 s ((List.mergeSort_perm _ _).mem_iff.1 hs)

/-- The file with soundings meets the hypotheses of `C119_soundings`. -/
example : ∃ g, openSounding .little levelsSample = .ok g ∧ 1 ≤ g.info.label.rowHeadersPtr ∧ 1 ≤ g.info.label.columnHeadersPtr ∧
    g.sninfo.length = 1 ∧ ∀ s ∈ g.sninfo, UsedTo g.info.order levelsSample g.info.rowKeys g.info.label.rowHeadersPtr.toNat s.row ∧
      UsedTo g.info.order levelsSample g.info.columnKeys g.info.label.columnHeadersPtr.toNat s.col := by
  have h : (openSounding .little levelsSample).toOption.all (fun g => decide (
      1 ≤ g.info.label.rowHeadersPtr ∧ 1 ≤ g.info.label.columnHeadersPtr ∧ g.infos.length = 1 ∧
      ∀ s ∈ g.infos, (∀ j ≤ s.row, fileWord g.info.order levelsSample (g.info.label.rowHeadersPtr.toNat + j * (g.info.rowKeys.length + 1)) = 9999) ∧
        ∀ j ≤ s.col, fileWord g.info.order levelsSample (g.info.label.columnHeadersPtr.toNat + j * (g.info.columnKeys.length + 1)) = 9999)) = true := by
    decide +kernel
  have h0 : (openSounding .little levelsSample).toOption.isSome = true := by decide +kernel
  cases hg : openSounding .little levelsSample with
  | error e => rw [hg] at h0; cases h0
  | ok g =>
    rw [hg] at h
    obtain ⟨p1, p2, p3, p4⟩ := of_decide_eq_true h
    refine ⟨g, rfl, p1, p2, ?_, ?_⟩
    · unfold SoundingReader.sninfo
      rw [List.length_mergeSort]
      exact p3
    · intro s hs
      exact p4 s ((List.mergeSort_perm _ _).mem_iff.1 hs)

end Gempak
