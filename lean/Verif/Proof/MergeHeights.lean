import Verif.Props.MergeBelow

/-!
# The loop over winds by height
-/

namespace Gempak

set_option linter.unusedSectionVars false

section
variable {α : Type} [Field α] [LinearOrder α] [IsStrictOrderedRing α]

/-- There is a level with the height and the wind. -/
def Spec.WindLevel (s : Snd α) (h r w : α) : Prop := ∃ j : Nat, s.hght[j]? = some h ∧ s.drct[j]? = some r ∧ s.sped[j]? = some w

open Spec

/-- The state between two winds. -/
structure ZInv (m : α) (s : Snd α) (v : ZVars α) : Prop where
  size : s.Size v.size
  inc : s.hght.Pairwise (· < ·)
  low : ∀ z ∈ s.hght, m ≤ z
  here : v.more = true → 1 ≤ v.ilev ∧ v.ilev < v.size ∧ s.hght[v.ilev - 1]? = some v.zold ∧ s.hght[v.ilev]? = some v.znxt

theorem inc_le {l : List α} (h : l.Pairwise (· < ·)) {i j : Nat} {a b : α} (hij : i ≤ j) (ha : l[i]? = some a) (hb : l[j]? = some b) : a ≤ b := by
  rcases Nat.lt_or_eq_of_le hij with e | e
  · obtain ⟨h1, rfl⟩ := List.getElem?_eq_some_iff.1 ha
    obtain ⟨h2, rfl⟩ := List.getElem?_eq_some_iff.1 hb
    exact (List.pairwise_iff_getElem.1 h i j h1 h2 e).le
  · subst e
    rw [ha] at hb
    exact (Option.some.inj hb).le

theorem inc_lt {l : List α} (h : l.Pairwise (· < ·)) {i j : Nat} {a b : α} (ha : l[i]? = some a) (hb : l[j]? = some b) (hab : a < b) : i < j := by
  by_contra hc
  exact absurd (inc_le h (by omega) hb ha) (not_le.2 hab)

theorem zClimb_inv {m e : α} {s : Snd α} {n : Nat} {v v' : ZVars α} (hi : ZInv m s v) (hz : v.more = true → v.zold < e)
    (hf : v.more = false → ∀ z ∈ s.hght, z < e) (h : zClimb m s e n v = .ok v') :
    ZInv m s v' ∧ (v'.more = true → v'.zold < e ∧ e ≤ v'.znxt) ∧ (v'.more = false → ∀ z ∈ s.hght, z < e) := by
  induction n generalizing v with
  | zero => cases h
  | succ n ih =>
    rw [zClimb] at h
    by_cases hc : v.more = true ∧ e > v.znxt
    · rw [if_pos hc] at h
      obtain ⟨h1, h2, h3, h4⟩ := hi.here hc.1
      by_cases h5 : v.ilev + 1 ≥ v.size
      · rw [if_pos h5] at h
        refine ih ?_ ?_ (fun _ z hz => ?_) h
        · exact ⟨hi.size, hi.inc, hi.low, fun q => by cases q⟩
        · exact fun q => by cases q
        obtain ⟨j, hj⟩ := List.mem_iff_getElem?.1 hz
        have hjl := (List.getElem?_eq_some_iff.1 hj).1
        rw [hi.size.hght] at hjl
        exact (inc_le hi.inc (by omega) hj h4).trans_lt hc.2
      · rw [if_neg h5] at h
        obtain ⟨z, hz', h⟩ := run_inv h
        have hz2 : s.hght[v.ilev + 1]? = some z := by
          unfold idx at hz'
          split at hz'
          · rename_i w hw
            rw [hw, Except.ok.inj hz']
          · cases hz'
        have hzm : z ≠ m := by
          obtain ⟨a0, b0⟩ := List.getElem?_eq_some_iff.1 h4
          have c1 := hi.low v.znxt (List.mem_of_getElem? h4)
          obtain ⟨a1, b1⟩ := List.getElem?_eq_some_iff.1 hz2
          have c2 := List.pairwise_iff_getElem.1 hi.inc v.ilev (v.ilev + 1) a0 a1 (by omega)
          rw [b0, b1] at c2
          exact (c1.trans_lt c2).ne'
        rw [if_neg hzm] at h
        refine ih ?_ (fun _ => hc.2) (fun q => ?_) h
        · exact ⟨hi.size, hi.inc, hi.low, fun q => ⟨by dsimp only; omega, by dsimp only; omega, h4, hz2⟩⟩
        · rw [hc.1] at q; cases q
    · rw [if_neg hc] at h
      obtain rfl := Except.ok.inj h
      exact ⟨hi, fun q => ⟨hz q, not_lt.1 fun q' => hc ⟨q, q'⟩⟩, hf⟩

theorem set_getElem {l : List α} {i j : Nat} (v : α) (h : i ≠ j) : (l.set i v)[j]? = l[j]? := List.getElem?_set_ne h

theorem WindLevel.set {s : Snd α} {h r w : α} {i : Nat} {z a b : α} (hw : WindLevel s h r w) (hi : s.hght[i]? = some z) (hz : z ≠ h) :
    WindLevel { s with drct := s.drct.set i a, sped := s.sped.set i b } h r w := by
  obtain ⟨j, h1, h2, h3⟩ := hw
  have hij : i ≠ j := by
    rintro rfl
    rw [hi] at h1
    exact hz (Option.some.inj h1)
  exact ⟨j, h1, (set_getElem a hij).trans h2, (set_getElem b hij).trans h3⟩

/-- Testing one wind. -/
theorem zPlace_step {m e d w : α} {s : Snd α} {v : ZVars α} {r : Snd α × ZVars α × Bool} (hi : ZInv m s v) (hv : v.more = true)
    (h : zPlace m e d w s v = .ok r) :
    ZInv m r.1 r.2.1 ∧ r.1.hght = s.hght ∧ (r.2.1.more = false → ∀ z ∈ s.hght, z < e) ∧ (r.2.1.more = true → r.2.1.zold = v.zold ∨ r.2.1.zold < e) ∧
      (∀ h' a b, WindLevel s h' a b → 1 ≤ |e - h'| → WindLevel r.1 h' a b) ∧
      (r.2.2 = false → r.2.1.more = true → r.2.1.zold < e ∧ e ≤ r.2.1.znxt) ∧
      (v.zold < e → (∀ z ∈ s.hght, 1 ≤ |z - e|) → r.2.2 = false) := by
  obtain ⟨h1, h2, h3, h4⟩ := hi.here hv
  unfold zPlace at h
  by_cases c1 : (e = m ∧ d = m ∧ w = m) ∨ e ≤ v.zold
  · rw [if_pos c1] at h
    obtain rfl := Except.ok.inj h
    refine ⟨hi, rfl, fun q => ?_, fun _ => Or.inl rfl, fun _ _ _ q _ => q, fun q => (by cases q), fun hz _ => ?_⟩
    · rw [hv] at q; cases q
    · rcases c1 with c | c
      · have := hi.low _ (List.mem_of_getElem? h3)
        rw [c.1] at hz
        exact absurd hz (not_lt.2 this)
      · exact absurd hz (not_lt.2 c)
  · rw [if_neg c1] at h
    have hz : v.zold < e := not_le.1 fun q => c1 (Or.inr q)
    by_cases c2 : |v.zold - e| < 1
    · rw [if_pos c2] at h
      have near : ∀ h', 1 ≤ |e - h'| → v.zold ≠ h' := by
        rintro h' q rfl
        rw [abs_sub_comm] at q
        exact absurd c2 (not_lt.2 q)
      obtain ⟨x, _, h⟩ := run_inv h
      obtain ⟨y, _, h⟩ := run_inv h
      by_cases c3 : x = m ∨ y = m
      · rw [if_pos c3] at h
        obtain ⟨dr, e1, h⟩ := run_inv h
        obtain ⟨sp, e2, h⟩ := run_inv h
        obtain rfl := Except.ok.inj h
        obtain ⟨_, rfl⟩ := put_val e1
        obtain ⟨_, rfl⟩ := put_val e2
        refine ⟨⟨⟨hi.size.pres, hi.size.hght, hi.size.temp, hi.size.dwpt, (List.length_set ..).trans hi.size.drct,
          (List.length_set ..).trans hi.size.sped⟩, hi.inc, hi.low, hi.here⟩, rfl, fun q => ?_, fun _ => Or.inl rfl, fun h' a b q1 q2 => ?_, fun q => (by cases q), fun _ q => ?_⟩
        · rw [hv] at q; cases q
        · exact WindLevel.set q1 h3 (near h' q2)
        · exact absurd c2 (not_lt.2 (q _ (List.mem_of_getElem? h3)))
      · rw [if_neg c3] at h
        obtain rfl := Except.ok.inj h
        refine ⟨hi, rfl, fun q => ?_, fun _ => Or.inl rfl, fun _ _ _ q _ => q, fun q => (by cases q), fun _ q => ?_⟩
        · rw [hv] at q; cases q
        · exact absurd c2 (not_lt.2 (q _ (List.mem_of_getElem? h3)))
    · rw [if_neg c2] at h
      by_cases c3 : e ≥ v.znxt
      · rw [if_pos c3] at h
        obtain ⟨v', e1, h⟩ := run_inv h
        obtain rfl := Except.ok.inj h
        obtain ⟨g1, g2, g3⟩ := zClimb_inv hi (fun _ => hz) (fun q => by rw [hv] at q; cases q) e1
        exact ⟨g1, rfl, g3, fun q => Or.inr (g2 q).1, fun _ _ _ q _ => q, fun _ q => g2 q, fun _ _ => rfl⟩
      · rw [if_neg c3] at h
        obtain rfl := Except.ok.inj h
        refine ⟨hi, rfl, fun q => ?_, fun _ => Or.inl rfl, fun _ _ _ q _ => q, fun _ _ => ⟨hz, (not_le.1 c3).le⟩, fun _ _ => rfl⟩
        rw [hv] at q; cases q

theorem insert_mem {l : List α} {loc : Nat} {v z : α} : z ∈ pyInsert l (loc : Int) v ↔ z = v ∨ z ∈ l := by
  unfold pyInsert
  dsimp only
  generalize (if (loc : Int) < 0 then ((loc : Int) + l.length).toNat else min (loc : Int).toNat l.length) = k
  conv_rhs => rw [← List.take_append_drop k l]
  simp only [List.mem_append, List.mem_cons]
  tauto

theorem insert_inc {l : List α} {loc : Nat} {v : α} (h : l.Pairwise (· < ·)) (hl : loc ≤ l.length) (h1 : ∀ i z, i < loc → l[i]? = some z → z < v)
    (h2 : ∀ i z, loc ≤ i → l[i]? = some z → v < z) : (pyInsert l (loc : Int) v).Pairwise (· < ·) := by
  unfold pyInsert
  have e : (if (loc : Int) < 0 then ((loc : Int) + l.length).toNat else min (loc : Int).toNat l.length) = loc := by
    rw [if_neg (by omega)]; simp; omega
  dsimp only
  rw [e]
  have h0 := h
  rw [← List.take_append_drop loc l] at h0
  obtain ⟨a1, a2, a3⟩ := List.pairwise_append.1 h0
  have b2 : ∀ z ∈ l.drop loc, v < z := by
    intro z hz
    obtain ⟨j, hj⟩ := List.mem_iff_getElem?.1 hz
    rw [List.getElem?_drop] at hj
    exact h2 _ z (by omega) hj
  refine List.pairwise_append.2 ⟨a1, List.pairwise_cons.2 ⟨b2, a2⟩, fun a ha b hb => ?_⟩
  rcases List.mem_cons.1 hb with rfl | hb
  · obtain ⟨j, hj⟩ := List.mem_iff_getElem?.1 ha
    have : j < loc := by
      have := (List.getElem?_eq_some_iff.1 hj).1
      rw [List.length_take] at this
      omega
    rw [List.getElem?_take_of_lt this] at hj
    exact h1 j a this hj
  · exact a3 a ha b hb

theorem WindLevel.insert {s : Snd α} {n loc : Nat} {h r w : α} (hs : s.Size n) (hl : loc ≤ n) (P Z T D R W : α) (hw : WindLevel s h r w) :
    WindLevel (s.insert (loc : Int) P Z T D R W) h r w := by
  obtain ⟨j, h1, h2, h3⟩ := hw
  have key : ∀ (l : List α) (v w : α), l.length = n → l[j]? = some w → (pyInsert l (loc : Int) v)[if j < loc then j else j + 1]? = some w := by
    intro l v w h1 h2
    rw [insert_get v (by omega)]
    by_cases h3 : j < loc
    · rw [if_pos h3, if_pos h3, h2]
    · rw [if_neg h3, if_neg (by omega), if_neg (by omega), Nat.add_sub_cancel, h2]
  exact ⟨_, key _ _ _ hs.hght h1, key _ _ _ hs.drct h2, key _ _ _ hs.sped h3⟩

/-- Storing one wind. -/
theorem zStore_step {m e d w : α} {s : Snd α} {v : ZVars α} {r : Snd α × ZVars α} (hi : ZInv m s v) (hv : v.more = true)
    (hz : v.zold < e) (hn : e ≤ v.znxt) (h : zStore m e d w s v = .ok r) :
    ZInv m r.1 r.2 ∧ r.2.more = true ∧ (r.2.zold = v.zold ∨ r.2.zold = e) ∧ (∀ z, z ∈ s.hght → z ∈ r.1.hght) ∧
      (∀ z, z ∈ r.1.hght → z = e ∨ z ∈ s.hght) ∧
      (∀ h' a b, WindLevel s h' a b → 1 ≤ |e - h'| → WindLevel r.1 h' a b) ∧
      ((∀ z ∈ s.hght, 1 ≤ |z - e|) → WindLevel r.1 e d w) := by
  obtain ⟨h1, h2, h3, h4⟩ := hi.here hv
  unfold zStore at h
  by_cases c1 : |v.znxt - e| < 1
  · rw [if_pos c1] at h
    have near : ∀ h', 1 ≤ |e - h'| → v.znxt ≠ h' := by
      rintro h' q rfl
      rw [abs_sub_comm] at q
      exact absurd c1 (not_lt.2 q)
    have far : (∀ z ∈ s.hght, 1 ≤ |z - e|) → False := fun q => absurd c1 (not_lt.2 (q _ (List.mem_of_getElem? h4)))
    obtain ⟨x, _, h⟩ := run_inv h
    obtain ⟨y, _, h⟩ := run_inv h
    by_cases c3 : x = m ∨ y = m
    · rw [if_pos c3] at h
      obtain ⟨dr, e1, h⟩ := run_inv h
      obtain ⟨sp, e2, h⟩ := run_inv h
      obtain rfl := Except.ok.inj h
      obtain ⟨_, rfl⟩ := put_val e1
      obtain ⟨_, rfl⟩ := put_val e2
      exact ⟨⟨⟨hi.size.pres, hi.size.hght, hi.size.temp, hi.size.dwpt, (List.length_set ..).trans hi.size.drct,
        (List.length_set ..).trans hi.size.sped⟩, hi.inc, hi.low, hi.here⟩, hv, Or.inl rfl, fun _ q => q, fun _ q => Or.inr q,
        fun h' a b q1 q2 => WindLevel.set q1 h4 (near h' q2), fun q => (far q).elim⟩
    · rw [if_neg c3] at h
      obtain rfl := Except.ok.inj h
      exact ⟨hi, hv, Or.inl rfl, fun _ q => q, fun _ q => Or.inr q, fun _ _ _ q _ => q, fun q => (far q).elim⟩
  · rw [if_neg c1] at h
    obtain rfl := Except.ok.inj h
    have hlt : e < v.znxt := by
      refine lt_of_le_of_ne hn fun q => c1 ?_
      rw [← q, sub_self, abs_zero]
      exact one_pos
    obtain ⟨b1, b2, b3⟩ := bisectLeft_spec s.hght e m
    have hloc : bisectLeft s.hght e = v.ilev := by
      rw [hi.size.hght] at b1 b3
      have u1 : bisectLeft s.hght e ≤ v.ilev := by
        rcases b2 with b2 | b2
        · omega
        · have q : s.hght[bisectLeft s.hght e - 1]? = some (s.hght.getD (bisectLeft s.hght e - 1) m) := by
            rw [List.getD_eq_getElem?_getD, List.getElem?_eq_getElem (by rw [hi.size.hght]; omega)]; rfl
          have := inc_lt hi.inc q h4 (b2.trans hlt)
          omega
      have u2 : v.ilev ≤ bisectLeft s.hght e := by
        rcases b3 with b3 | b3
        · omega
        · by_contra hc
          have q : s.hght[bisectLeft s.hght e]? = some (s.hght.getD (bisectLeft s.hght e) m) := by
            rw [List.getD_eq_getElem?_getD, List.getElem?_eq_getElem (by rw [hi.size.hght]; omega)]; rfl
          have := inc_le hi.inc (show bisectLeft s.hght e ≤ v.ilev - 1 by omega) q h3
          exact absurd (b3.trans this) (not_le.2 hz)
      omega
    rw [hloc]
    have hle : v.ilev ≤ v.size := h2.le
    have hle' : v.ilev ≤ s.hght.length := by rw [hi.size.hght]; exact hle
    refine ⟨⟨insert_size hi.size _ _ _ _ _ _ _, ?_, ?_, fun _ => ⟨by dsimp only; omega, by dsimp only; omega, ?_, ?_⟩⟩, hv, Or.inr rfl,
      fun z q => insert_mem.2 (Or.inr q), fun z q => insert_mem.1 q, fun h' a b q _ => WindLevel.insert hi.size hle _ _ _ _ _ _ q, fun _ => ?_⟩
    · refine insert_inc hi.inc hle' (fun i z q1 q2 => ?_) fun i z q1 q2 => ?_
      · exact (inc_le hi.inc (by omega) q2 h3).trans_lt hz
      · exact hlt.trans_le (inc_le hi.inc q1 h4 q2)
    · intro z q
      rcases insert_mem.1 q with rfl | q
      · exact (hi.low _ (List.mem_of_getElem? h3)).trans hz.le
      · exact hi.low z q
    · show (pyInsert s.hght (v.ilev : Int) e)[v.ilev + 1 - 1]? = some e
      rw [insert_get e hle', if_neg (by omega), if_pos (by omega)]
    · show (pyInsert s.hght (v.ilev : Int) e)[v.ilev + 1]? = some v.znxt
      rw [insert_get e hle', if_neg (by omega), if_neg (by omega)]
      exact h4
    · have r0 := insert_rowAt hi.size hle m e m m d w
      exact ⟨_, r0.hght, r0.drct, r0.sped⟩

/-- One wind. -/
structure ZStep (m e d w : α) (s : Snd α) (v : ZVars α) (s' : Snd α) (v' : ZVars α) : Prop where
  inv : ZInv m s' v'
  stop : v'.more = false → ∀ z ∈ s.hght, z < e
  old : v'.more = true → v'.zold = v.zold ∨ v'.zold ≤ e
  has : ∀ z, z ∈ s.hght → z ∈ s'.hght
  from' : ∀ z, z ∈ s'.hght → z = e ∨ z ∈ s.hght
  keep : ∀ h' a b, WindLevel s h' a b → 1 ≤ |e - h'| → WindLevel s' h' a b
  find : v.zold < e → (∀ z ∈ s.hght, 1 ≤ |z - e|) → (∃ z ∈ s.hght, e < z) → WindLevel s' e d w

theorem zWind_step {m : α} {p : SndPart α} {i : Nat} {s : Snd α} {v : ZVars α} {r : Snd α × ZVars α} (hi : ZInv m s v) (hv : v.more = true)
    (h : zWind m p i s v = .ok r) :
    ∃ e d w, p.at "HGHT" i = .ok e ∧ p.at "DRCT" i = .ok d ∧ p.at "SPED" i = .ok w ∧ ZStep m e d w s v r.1 r.2 := by
  unfold zWind at h
  obtain ⟨e, h1, h⟩ := run_inv h
  obtain ⟨d, h2, h⟩ := run_inv h
  obtain ⟨w, h3, h⟩ := run_inv h
  refine ⟨e, d, w, h1, h2, h3, ?_⟩
  obtain ⟨q, hq, h⟩ := run_inv h
  obtain ⟨a1, a2, a3, a4, a5, a6, a7⟩ := zPlace_step hi hv hq
  by_cases c : q.2.1.more = true ∧ ¬ q.2.2 = true
  · rw [if_pos c] at h
    obtain ⟨u1, u2⟩ := a6 (by simpa using c.2) c.1
    obtain ⟨b1, b2, b3, b4, b5, b6, b7⟩ := zStore_step a1 c.1 u1 u2 h
    refine ⟨b1, fun x => ?_, fun _ => ?_, fun z hz => b4 z (by rw [a2]; exact hz), fun z hz => ?_, fun h' a b q1 q2 => b6 h' a b (a5 h' a b q1 q2) q2,
      fun _ q _ => b7 (by rw [a2]; exact q)⟩
    · rw [b2] at x; cases x
    · rcases b3 with b3 | b3
      · rcases a4 c.1 with a4 | a4
        · exact Or.inl (b3.trans a4)
        · exact Or.inr (b3.le.trans a4.le)
      · exact Or.inr b3.le
    · rw [← a2]; exact b5 z hz
  · rw [if_neg c] at h
    obtain rfl := Except.ok.inj h
    refine ⟨a1, a3, fun x => ?_, fun z hz => by rw [a2]; exact hz, fun z hz => by rw [a2] at hz; exact Or.inr hz, a5, fun q1 q2 ⟨z, q3, q4⟩ => ?_⟩
    · rcases a4 x with a4 | a4
      · exact Or.inl a4
      · exact Or.inr a4.le
    · have hs := a7 q1 q2
      have hm : q.2.1.more = false := by
        cases hm : q.2.1.more with
        | false => rfl
        | true => exact absurd ⟨hm, by rw [hs]; decide⟩ c
      exact absurd (a3 hm z q3) q4.asymm

/-! ## All winds -/

/-- What is asked of the state for a wind to come. -/
structure ZWait (m h : α) (s : Snd α) (v : ZVars α) : Prop where
  inv : ZInv m s v
  more : v.more = true
  old : v.zold < h
  far : ∀ z ∈ s.hght, 1 ≤ |z - h|
  top : ∃ z ∈ s.hght, h < z

theorem ZWait.step {m h e d w : α} {s s' : Snd α} {v v' : ZVars α} (hw : ZWait m h s v) (hs : ZStep m e d w s v s' v') (he : e < h)
    (hd : 1 ≤ |e - h|) : ZWait m h s' v' := by
  obtain ⟨z, hz, hz'⟩ := hw.top
  have hm : v'.more = true := by
    cases q : v'.more with
    | true => rfl
    | false => exact absurd ((hs.stop q z hz).trans he) hz'.asymm
  refine ⟨hs.inv, hm, ?_, fun y hy => ?_, z, hs.has z hz, hz'⟩
  · rcases hs.old hm with q | q
    · rw [q]; exact hw.old
    · exact q.trans_lt he
  · rcases hs.from' y hy with rfl | hy
    · exact hd
    · exact hw.far y hy

theorem zLoop_keep_up {m : α} {b : Option (SndPart α)} {p : SndPart α} {x y N i e : Nat} {s : Snd α} {v : ZVars α} {r : Snd α × ZVars α}
    (hi : ZInv m s v) (h : zLoop m b (some p) x y N true i e s v = .ok r) {z d w : α} (hw : WindLevel s z d w)
    (ha : ∀ j c, i ≤ j → p.at "HGHT" j = .ok c → 1 ≤ |c - z|) : WindLevel r.1 z d w := by
  induction N generalizing i s v with
  | zero => cases h
  | succ N ih =>
    rw [zLoop] at h
    by_cases c : v.more = true ∧ i < e
    · rw [if_pos c] at h
      simp only [if_true] at h
      obtain ⟨q, hq, h⟩ := run_inv h
      rw [if_neg (by simp)] at h
      obtain ⟨c', _, _, g1, _, _, g⟩ := zWind_step hi c.1 hq
      exact ih g.inv h (g.keep _ _ _ hw (ha i c' (le_refl _) g1)) fun j c h1 h2 => ha j c (by omega) h2
    · rw [if_neg c] at h
      obtain rfl := Except.ok.inj h
      exact hw

theorem zLoop_find_up {m : α} {b : Option (SndPart α)} {p : SndPart α} {x y N i e k : Nat} {s : Snd α} {v : ZVars α} {r : Snd α × ZVars α}
    {z d w : α} (hi : ZWait m z s v) (h : zLoop m b (some p) x y N true i e s v = .ok r) (hik : i ≤ k) (hke : k < e)
    (h1 : p.at "HGHT" k = .ok z) (h2 : p.at "DRCT" k = .ok d) (h3 : p.at "SPED" k = .ok w)
    (hl : ∀ j c, i ≤ j → j < k → p.at "HGHT" j = .ok c → c < z)
    (ha : ∀ j c, j ≠ k → p.at "HGHT" j = .ok c → 1 ≤ |c - z|) : WindLevel r.1 z d w := by
  induction N generalizing i s v with
  | zero => cases h
  | succ N ih =>
    rw [zLoop, if_pos ⟨hi.more, by omega⟩] at h
    simp only [if_true] at h
    obtain ⟨q, hq, h⟩ := run_inv h
    rw [if_neg (by simp)] at h
    obtain ⟨c1, c2, c3, g1, g2, g3, g⟩ := zWind_step hi.inv hi.more hq
    by_cases c : i = k
    · subst c
      obtain rfl := Except.ok.inj (g1.symm.trans h1)
      obtain rfl := Except.ok.inj (g2.symm.trans h2)
      obtain rfl := Except.ok.inj (g3.symm.trans h3)
      exact zLoop_keep_up g.inv h (g.find hi.old hi.far hi.top) fun j c q1 q2 => ha j c (by omega) q2
    · exact ih (hi.step g (hl i c1 (le_refl _) (by omega) g1) (ha i c1 c g1)) h (by omega) fun j c q1 q2 q3 => hl j c (by omega) q2 q3

theorem zLoop_keep_low {m : α} {d' : Option (SndPart α)} {p : SndPart α} {x y N i e : Nat} {s : Snd α} {v : ZVars α} {r : Snd α × ZVars α}
    (hi : ZInv m s v) (h : zLoop m (some p) d' x y N false i e s v = .ok r) {z d w : α} (hw : WindLevel s z d w)
    (ha : ∀ j c, i ≤ j → p.at "HGHT" j = .ok c → 1 ≤ |c - z|)
    (hb : 0 < y → ∀ q, d' = some q → ∀ j c, q.at "HGHT" j = .ok c → 1 ≤ |c - z|) : WindLevel r.1 z d w := by
  induction N generalizing i s v with
  | zero => cases h
  | succ N ih =>
    rw [zLoop] at h
    by_cases c : v.more = true ∧ i < e
    · rw [if_pos c] at h
      simp only [if_false, Bool.false_eq_true] at h
      obtain ⟨q, hq, h⟩ := run_inv h
      obtain ⟨c', _, _, g1, _, _, g⟩ := zWind_step hi c.1 hq
      have hk := g.keep _ _ _ hw (ha i c' (le_refl _) g1)
      by_cases c2 : ¬ False ∧ i + 1 = x
      · rw [if_pos (by simpa using c2)] at h
        cases d' with
        | none =>
          cases N with
          | zero => cases h
          | succ N =>
            rw [zLoop] at h
            split at h
            · cases h
            · obtain rfl := Except.ok.inj h
              exact hk
        | some q' =>
          by_cases hy : 0 < y
          · exact zLoop_keep_up g.inv h hk fun j c _ h2 => hb hy q' rfl j c h2
          · cases N with
            | zero => cases h
            | succ N =>
              rw [zLoop, if_neg (by omega)] at h
              obtain rfl := Except.ok.inj h
              exact hk
      · rw [if_neg (by simpa using c2)] at h
        exact ih g.inv h hk fun j c h1 h2 => ha j c (by omega) h2
    · rw [if_neg c] at h
      obtain rfl := Except.ok.inj h
      exact hw

/-- A wind of the lower part. -/
theorem zLoop_find_low {m : α} {d' : Option (SndPart α)} {p : SndPart α} {y N i e k : Nat} {s : Snd α} {v : ZVars α} {r : Snd α × ZVars α}
    {z d w : α} (hi : ZWait m z s v) (h : zLoop m (some p) d' e y N false i e s v = .ok r) (hik : i ≤ k) (hke : k < e)
    (h1 : p.at "HGHT" k = .ok z) (h2 : p.at "DRCT" k = .ok d) (h3 : p.at "SPED" k = .ok w)
    (hl : ∀ j c, i ≤ j → j < k → p.at "HGHT" j = .ok c → c < z)
    (ha : ∀ j c, j ≠ k → p.at "HGHT" j = .ok c → 1 ≤ |c - z|)
    (hb : 0 < y → ∀ q, d' = some q → ∀ j c, q.at "HGHT" j = .ok c → 1 ≤ |c - z|) : WindLevel r.1 z d w := by
  induction N generalizing i s v with
  | zero => cases h
  | succ N ih =>
    have h0 := h
    rw [zLoop, if_pos ⟨hi.more, by omega⟩] at h
    simp only [if_false, Bool.false_eq_true] at h
    obtain ⟨q, hq, h⟩ := run_inv h
    obtain ⟨c1, c2, c3, g1, g2, g3, g⟩ := zWind_step hi.inv hi.more hq
    by_cases c : i = k
    · subst c
      obtain rfl := Except.ok.inj (g1.symm.trans h1)
      obtain rfl := Except.ok.inj (g2.symm.trans h2)
      obtain rfl := Except.ok.inj (g3.symm.trans h3)
      have hk := g.find hi.old hi.far hi.top
      by_cases c2 : ¬ False ∧ i + 1 = e
      · rw [if_pos (by simpa using c2)] at h
        cases d' with
        | none =>
          cases N with
          | zero => cases h
          | succ N =>
            rw [zLoop] at h
            split at h
            · cases h
            · obtain rfl := Except.ok.inj h
              exact hk
        | some q' =>
          by_cases hy : 0 < y
          · exact zLoop_keep_up g.inv h hk fun j c _ h2 => hb hy q' rfl j c h2
          · cases N with
            | zero => cases h
            | succ N =>
              rw [zLoop, if_neg (by omega)] at h
              obtain rfl := Except.ok.inj h
              exact hk
      · rw [if_neg (by simpa using c2)] at h
        exact zLoop_keep_low g.inv h hk (fun j c q1 q2 => ha j c (by omega) q2) hb
    · rw [if_neg (by simp; omega)] at h
      exact ih (hi.step g (hl i c1 (le_refl _) (by omega) g1) (ha i c1 c g1)) h (by omega) fun j c q1 q2 q3 => hl j c (by omega) q2 q3

/-- A wind of the upper part. -/
theorem zLoop_find_both {m : α} {p p' : SndPart α} {y N i e k : Nat} {s : Snd α} {v : ZVars α} {r : Snd α × ZVars α}
    {z d w : α} (hi : ZWait m z s v) (h : zLoop m (some p) (some p') e y N false i e s v = .ok r) (hie : i < e) (hke : k < y)
    (h1 : p'.at "HGHT" k = .ok z) (h2 : p'.at "DRCT" k = .ok d) (h3 : p'.at "SPED" k = .ok w)
    (hl : ∀ j c, p.at "HGHT" j = .ok c → c < z) (hl' : ∀ j c, j < k → p'.at "HGHT" j = .ok c → c < z)
    (ha : ∀ j c, p.at "HGHT" j = .ok c → 1 ≤ |c - z|)
    (ha' : ∀ j c, j ≠ k → p'.at "HGHT" j = .ok c → 1 ≤ |c - z|) : WindLevel r.1 z d w := by
  induction N generalizing i s v with
  | zero => cases h
  | succ N ih =>
    rw [zLoop, if_pos ⟨hi.more, by omega⟩] at h
    simp only [if_false, Bool.false_eq_true] at h
    obtain ⟨q, hq, h⟩ := run_inv h
    obtain ⟨c1, c2, c3, g1, g2, g3, g⟩ := zWind_step hi.inv hi.more hq
    have hst := hi.step g (hl i c1 g1) (ha i c1 g1)
    by_cases c : i + 1 = e
    · rw [if_pos (by simpa using c)] at h
      exact zLoop_find_up hst h (Nat.zero_le _) hke h1 h2 h3 (fun j c _ q2 q3 => hl' j c q2 q3) ha'
    · rw [if_neg (by simpa using c)] at h
      exact ih hst h (by omega)

end

end Gempak
