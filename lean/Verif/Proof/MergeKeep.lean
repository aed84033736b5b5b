import Verif.Props.MergeEnds
import Verif.Props.CalcMissing

/-!
# Merging: what later steps keep of a level
-/

namespace Gempak

set_option linter.unusedSectionVars false

section
variable {α : Type} [Field α] [LinearOrder α]

/-- Level `j` of the first sounding is level `j'` of the second, with the values it has: pressure, temperature, dew point beside a
temperature, winds if `wOK`, the height beside a temperature for pressures that are `hOK`. -/
structure KeptRow (m : α) (hOK : α → Prop) (wOK : Prop) (s s' : Snd α) (j j' : Nat) : Prop where
  pres : s.pres.getD j m ≠ m → s'.pres.getD j' m = s.pres.getD j m
  temp : s.temp.getD j m ≠ m → s'.temp.getD j' m = s.temp.getD j m
  dwpt : s.temp.getD j m ≠ m → s.dwpt.getD j m ≠ m → s'.dwpt.getD j' m = s.dwpt.getD j m
  wind : wOK → s.drct.getD j m ≠ m → s.sped.getD j m ≠ m →
    s'.drct.getD j' m = s.drct.getD j m ∧ s'.sped.getD j' m = s.sped.getD j m
  hght : hOK (s.pres.getD j m) → s.pres.getD j m ≠ m → s.temp.getD j m ≠ m → s.hght.getD j m ≠ m →
    s'.hght.getD j' m = s.hght.getD j m

def KeepsRows (m : α) (hOK : α → Prop) (wOK : Prop) (s s' : Snd α) : Prop := ∀ j, ∃ j', KeptRow m hOK wOK s s' j j'

variable {m : α} {hOK : α → Prop} {wOK : Prop}

theorem KeptRow.trans {s s' s'' : Snd α} {j j' j'' : Nat} (h1 : KeptRow m hOK wOK s s' j j') (h2 : KeptRow m hOK wOK s' s'' j' j'') :
    KeptRow m hOK wOK s s'' j j'' where
  pres h := by rw [h2.pres (by rw [h1.pres h]; exact h), h1.pres h]
  temp h := by rw [h2.temp (by rw [h1.temp h]; exact h), h1.temp h]
  dwpt h h' := by rw [h2.dwpt (by rw [h1.temp h]; exact h) (by rw [h1.dwpt h h']; exact h'), h1.dwpt h h']
  wind w h h' := by
    obtain ⟨e1, e2⟩ := h1.wind w h h'
    obtain ⟨e3, e4⟩ := h2.wind w (by rw [e1]; exact h) (by rw [e2]; exact h')
    exact ⟨e3.trans e1, e4.trans e2⟩
  hght o h t z := by
    have e1 := h1.pres h
    have e2 := h1.temp t
    have e3 := h1.hght o h t z
    rw [h2.hght (by rw [e1]; exact o) (by rw [e1]; exact h) (by rw [e2]; exact t) (by rw [e3]; exact z), e3]

theorem KeepsRows.refl (s : Snd α) : KeepsRows m hOK wOK s s := fun j =>
  ⟨j, fun _ => rfl, fun _ => rfl, fun _ _ => rfl, fun _ _ _ => ⟨rfl, rfl⟩, fun _ _ _ _ => rfl⟩

theorem KeepsRows.trans {s s' s'' : Snd α} (h1 : KeepsRows m hOK wOK s s') (h2 : KeepsRows m hOK wOK s' s'') : KeepsRows m hOK wOK s s'' := fun j => by
  obtain ⟨j', a⟩ := h1 j
  obtain ⟨j'', b⟩ := h2 j'
  exact ⟨j'', a.trans b⟩

/-- Less is kept. -/
theorem KeepsRows.mono {wOK' : Prop} {hOK' : α → Prop} (hw : wOK' → wOK) (hh : ∀ x, hOK' x → hOK x) {s s' : Snd α} (h : KeepsRows m hOK wOK s s') :
    KeepsRows m hOK' wOK' s s' := fun j => by
  obtain ⟨j', a⟩ := h j
  exact ⟨j', a.pres, a.temp, a.dwpt, fun w => a.wind (hw w), fun o => a.hght (hh _ o)⟩

omit [Field α] [LinearOrder α] in
theorem pyInsert_nat (l : List α) (i : Int) (v : α) :
    pyInsert l i v = pyInsert l ((if i < 0 then (i + l.length).toNat else min i.toNat l.length : Nat) : Int) v := by
  unfold pyInsert
  dsimp only
  by_cases h : i < 0
  · simp only [if_pos h]
    rw [if_neg (by omega)]
    congr 1
    · congr 1; omega
    · congr 1; congr 1; omega
  · simp only [if_neg h]
    rw [if_neg (by omega)]
    congr 1
    · congr 1; omega
    · congr 1; congr 1; omega

theorem keeps_insert {s : Snd α} {n : Nat} (hs : s.Size n) (loc : Int) (p z t d r w : α) : KeepsRows m hOK wOK s (s.insert loc p z t d r w) := by
  obtain ⟨k, hk, hle⟩ : ∃ k : Nat, (if loc < 0 then (loc + n).toNat else min loc.toNat n) = k ∧ k ≤ n := by
    refine ⟨_, rfl, ?_⟩
    split <;> omega
  have g : ∀ (l : List α) (v : α), l.length = n → ∀ i, (pyInsert l loc v).getD i m =
      if i < k then l.getD i m else if i = k then v else l.getD (i - 1) m := by
    intro l v hl i
    rw [pyInsert_nat, hl, hk, getD_insert _ _ _ _ _ (by omega)]
  intro j
  have key : ∀ (l : List α) (v : α), l.length = n → (pyInsert l loc v).getD (if j < k then j else j + 1) m = l.getD j m := by
    intro l v hl
    rw [g l v hl]
    by_cases hj : j < k
    · rw [if_pos hj, if_pos hj]
    · rw [if_neg hj, if_neg (by omega), if_neg (by omega), Nat.add_sub_cancel]
  refine ⟨if j < k then j else j + 1, fun _ => key _ _ hs.pres, fun _ => key _ _ hs.temp, fun _ _ => key _ _ hs.dwpt,
    fun _ _ _ => ⟨key _ _ hs.drct, key _ _ hs.sped⟩, fun _ _ _ _ => key _ _ hs.hght⟩

/-- Only some values change. -/
theorem keeps_cols {s s' : Snd α} (h1 : ∀ j, s.pres.getD j m ≠ m → s'.pres.getD j m = s.pres.getD j m)
    (h2 : ∀ j, s.temp.getD j m ≠ m → s'.temp.getD j m = s.temp.getD j m)
    (h3 : ∀ j, s.temp.getD j m ≠ m → s.dwpt.getD j m ≠ m → s'.dwpt.getD j m = s.dwpt.getD j m)
    (h4 : ∀ j, wOK → s.drct.getD j m ≠ m → s.sped.getD j m ≠ m →
      s'.drct.getD j m = s.drct.getD j m ∧ s'.sped.getD j m = s.sped.getD j m)
    (h5 : ∀ j, hOK (s.pres.getD j m) → s.pres.getD j m ≠ m → s.temp.getD j m ≠ m → s.hght.getD j m ≠ m →
      s'.hght.getD j m = s.hght.getD j m) : KeepsRows m hOK wOK s s' :=
  fun j => ⟨j, h1 j, h2 j, h3 j, h4 j, h5 j⟩

theorem getD_put_ne {l l' : List α} {i k : Nat} {v : α} (h : put l i v = .ok l') (hk : k ≠ i) : l'.getD k m = l.getD k m := by
  obtain ⟨h1, rfl⟩ := put_val h
  rw [getD_set _ _ _ _ _ h1, if_neg hk]

/-- Winds are stored where the direction or the speed is missing. -/
theorem keeps_winds {s : Snd α} {loc : Nat} {dr sp : List α} {a b : α} (h1 : put s.drct loc a = .ok dr) (h2 : put s.sped loc b = .ok sp)
    (hw : wOK → s.drct.getD loc m = m ∨ s.sped.getD loc m = m) : KeepsRows m hOK wOK s { s with drct := dr, sped := sp } := by
  refine keeps_cols (fun _ _ => rfl) (fun _ _ => rfl) (fun _ _ _ => rfl) (fun j w e1 e2 => ?_) (fun _ _ _ _ _ => rfl)
  have hj : j ≠ loc := by
    rintro rfl
    rcases hw w with e | e
    · exact e1 e
    · exact e2 e
  exact ⟨getD_put_ne h1 hj, getD_put_ne h2 hj⟩

theorem keeps_setWind {s s' : Snd α} {loc : Nat} {r w : Run α} (h : setWind m s loc r w = .ok s') : KeepsRows m hOK wOK s s' := by
  unfold setWind at h
  obtain ⟨x, hx, h⟩ := run_inv h
  split at h
  · rename_i e
    obtain ⟨_, _, h⟩ := run_inv h
    obtain ⟨_, h1, h⟩ := run_inv h
    obtain ⟨_, _, h⟩ := run_inv h
    obtain ⟨_, h2, h⟩ := run_inv h
    obtain rfl := Except.ok.inj h
    exact keeps_winds h1 h2 fun _ => Or.inl (by rw [← idx_val m hx]; exact e)
  · obtain rfl := Except.ok.inj h; exact KeepsRows.refl _

theorem keeps_manWind {p : SndPart α} {l : List α} {i : Nat} {s s' : Snd α} (h : mergeManWind p m l i s = .ok s') : KeepsRows m hOK wOK s s' := by
  induction l generalizing i s with
  | nil => obtain rfl := Except.ok.inj h; exact KeepsRows.refl _
  | cons x l ih =>
    rw [mergeManWind] at h
    split at h
    · obtain ⟨s1, h1, h⟩ := run_inv h
      exact (keeps_setWind h1).trans (ih h)
    · exact ih h

/-! ## Levels on pressure -/

theorem keeps_onPressure {has : Nat → Run Bool} {pr : Nat → Snd α → Nat → Run (Snd α)} {fr : Nat → Snd α → α → Run (Snd α)} {l : List α}
    (h1 : ∀ i s x s', x ∈ l.map (|·|) → x ∈ s.pres → Same s → pr i s (s.pres.idxOf x) = .ok s' → KeepsRows m hOK wOK s s' ∧ Same s')
    (h2 : ∀ i s p s', Same s → fr i s p = .ok s' → KeepsRows m hOK wOK s s' ∧ Same s')
    {i : Nat} {s : Snd α} {pbot : α} {r : Snd α × α} (hs : Same s) (h : mergeOnPressure m has pr fr l i s pbot = .ok r) :
    KeepsRows m hOK wOK s r.1 := by
  induction l generalizing i s pbot with
  | nil => obtain rfl := Except.ok.inj h; exact KeepsRows.refl _
  | cons x l ih =>
    have ih' := @ih (fun i s y s' hy => h1 i s y s' (List.mem_cons_of_mem _ hy))
    rw [mergeOnPressure] at h
    obtain ⟨ok, _, h⟩ := run_inv h
    split at h
    · split at h
      · exact ih' hs h
      · split at h
        · rename_i hmem
          obtain ⟨s1, e1, h⟩ := run_inv h
          obtain ⟨k, hs1⟩ := h1 _ _ _ _ List.mem_cons_self hmem hs e1
          exact k.trans (ih' hs1 h)
        · obtain ⟨s1, e1, h⟩ := run_inv h
          obtain ⟨k, hs1⟩ := h2 _ _ _ _ hs e1
          exact k.trans (ih' hs1 h)
    · exact ih' hs h

theorem keeps_sigTPresent {p : SndPart α} {i loc : Nat} {s s' : Snd α} (h : sigTPresent p m i s loc = .ok s') : KeepsRows m hOK wOK s s' := by
  unfold sigTPresent at h
  obtain ⟨t, ht, h⟩ := run_inv h
  split at h
  · rename_i e
    obtain ⟨_, _, h⟩ := run_inv h
    obtain ⟨_, h1, h⟩ := run_inv h
    obtain ⟨_, _, h⟩ := run_inv h
    obtain ⟨_, h2, h⟩ := run_inv h
    obtain rfl := Except.ok.inj h
    have et : s.temp.getD loc m = m := by rw [← idx_val m ht]; exact e
    refine keeps_cols (fun _ _ => rfl) (fun j hj => getD_put_ne h1 ?_) (fun j hj _ => getD_put_ne h2 ?_) (fun _ _ _ _ => ⟨rfl, rfl⟩)
      (fun _ _ _ _ _ => rfl)
    · rintro rfl; exact hj et
    · rintro rfl; exact hj et
  · obtain rfl := Except.ok.inj h; exact KeepsRows.refl _

theorem keeps_tropPresent {p : SndPart α} {i loc : Nat} {s s' : Snd α} (hloc : ¬ hOK (s.pres.getD loc m)) (h : tropPresent p m i s loc = .ok s') :
    KeepsRows m hOK wOK s s' := by
  unfold tropPresent at h
  obtain ⟨t, ht, h⟩ := run_inv h
  obtain ⟨s1, h1, h⟩ := run_inv h
  obtain ⟨s2, h2, h⟩ := run_inv h
  obtain ⟨z, h3, h⟩ := run_inv h
  obtain rfl := Except.ok.inj h
  have e1 : sigTPresent p m i s loc = .ok s1 := by
    unfold sigTPresent
    rw [ht, ok_bind]
    exact h1
  have hp1 : s1.pres = s.pres := by
    unfold sigTPresent at e1
    obtain ⟨t, _, e1⟩ := run_inv e1
    split at e1
    · obtain ⟨_, _, e1⟩ := run_inv e1
      obtain ⟨_, _, e1⟩ := run_inv e1
      obtain ⟨_, _, e1⟩ := run_inv e1
      obtain ⟨_, _, e1⟩ := run_inv e1
      obtain rfl := Except.ok.inj e1; rfl
    · obtain rfl := Except.ok.inj e1; rfl
  have hp2 := (setWind_cols h2).1
  refine ((keeps_sigTPresent e1).trans (keeps_setWind h2)).trans ?_
  refine keeps_cols (fun _ _ => rfl) (fun _ _ => rfl) (fun _ _ _ => rfl) (fun _ _ _ _ => ⟨rfl, rfl⟩) (fun j o _ _ _ => getD_put_ne h3 ?_)
  rintro rfl
  rw [hp2, hp1] at o
  exact hloc o

theorem keeps_windPresent {p : SndPart α} {i loc : Nat} {s s' : Snd α} (h : windPresent p m i s loc = .ok s') : KeepsRows m hOK wOK s s' := by
  unfold windPresent at h
  obtain ⟨r, hr, h⟩ := run_inv h
  obtain ⟨w, hw, h⟩ := run_inv h
  split at h
  · rename_i e
    obtain ⟨_, _, h⟩ := run_inv h
    obtain ⟨_, h1, h⟩ := run_inv h
    obtain ⟨_, _, h⟩ := run_inv h
    obtain ⟨_, h2, h⟩ := run_inv h
    obtain rfl := Except.ok.inj h
    refine keeps_winds h1 h2 fun _ => ?_
    by_cases er : r = m
    · left; rw [← idx_val m hr]; exact er
    · rw [if_neg er] at hw
      right; rw [← idx_val m hw]; exact e.resolve_left er
  · obtain rfl := Except.ok.inj h; exact KeepsRows.refl _

theorem idxOf_getD {l : List α} {x : α} (h : x ∈ l) : l.getD (l.idxOf x) m = x := by
  have := List.idxOf_lt_length_iff.2 h
  rw [List.getD_eq_getElem?_getD, List.getElem?_eq_getElem this]
  exact List.getElem_idxOf this

theorem keeps_trop {p : SndPart α} {s : Snd α} {pbot : α} {r : Snd α × α} (hs : Same s)
    (hp : ∀ col, p.col "PRES" = .ok col → ∀ x ∈ col, ¬ hOK |x|) (h : mergeTrop p m s pbot = .ok r) : KeepsRows m hOK wOK s r.1 := by
  unfold mergeTrop at h
  obtain ⟨c, hc, h⟩ := run_inv h
  refine keeps_onPressure ?_ ?_ hs h
  · rintro i s x s' hx hmem ⟨n, hn⟩ e
    obtain ⟨y, hy, rfl⟩ := List.mem_map.1 hx
    exact ⟨keeps_tropPresent (by rw [idxOf_getD hmem]; exact hp c hc y hy) e, n, tropPresent_same hn e⟩
  · rintro i s x s' ⟨n, hn⟩ e
    obtain ⟨t, d, r, w, rfl⟩ := tropNew_inv e
    exact ⟨keeps_insert hn _ _ _ _ _ _ _, n + 1, insert_size hn _ _ _ _ _ _ _⟩

theorem keeps_sigT {p : SndPart α} {s : Snd α} {pbot : α} {r : Snd α × α} (hs : Same s) (h : mergeSigT p m s pbot = .ok r) :
    KeepsRows m hOK wOK s r.1 := by
  unfold mergeSigT at h
  obtain ⟨c, hc, h⟩ := run_inv h
  refine keeps_onPressure ?_ ?_ hs h
  · rintro i s x s' hx hmem ⟨n, hn⟩ e
    exact ⟨keeps_sigTPresent e, n, sigTPresent_same hn e⟩
  · rintro i s x s' ⟨n, hn⟩ e
    obtain ⟨t, d, r, w, rfl⟩ := sigTNew_inv e
    exact ⟨keeps_insert hn _ _ _ _ _ _ _, n + 1, insert_size hn _ _ _ _ _ _ _⟩

theorem keeps_wind {p : SndPart α} {s : Snd α} {pbot : α} {r : Snd α × α} (hs : Same s) (h : mergeWind p m s pbot = .ok r) :
    KeepsRows m hOK wOK s r.1 := by
  unfold mergeWind at h
  obtain ⟨c, hc, h⟩ := run_inv h
  refine keeps_onPressure ?_ ?_ hs h
  · rintro i s x s' hx hmem ⟨n, hn⟩ e
    exact ⟨keeps_windPresent e, n, windPresent_same hn e⟩
  · rintro i s x s' ⟨n, hn⟩ e
    obtain ⟨t, d, r, w, rfl⟩ := windNew_inv e
    exact ⟨keeps_insert hn _ _ _ _ _ _ _, n + 1, insert_size hn _ _ _ _ _ _ _⟩

theorem keeps_pair {n1 n2 : Nat} {bot : Snd α → Run α} {f1 f2 : Snd α → α → Run (Snd α × α)}
    (h1 : ∀ s p r, Same s → f1 s p = .ok r → KeepsRows m hOK wOK s r.1 ∧ Same r.1)
    (h2 : ∀ s p r, Same s → f2 s p = .ok r → KeepsRows m hOK wOK s r.1 ∧ Same r.1) {s s' : Snd α} (hs : Same s)
    (h : mergePair n1 n2 bot f1 f2 s = .ok s') : KeepsRows m hOK wOK s s' ∧ Same s' := by
  unfold mergePair at h
  split at h
  · obtain ⟨pb, _, h⟩ := run_inv h
    obtain ⟨r1, e1, h⟩ := run_inv h
    obtain ⟨r2, e2, h⟩ := run_inv h
    obtain rfl := Except.ok.inj h
    have hr1 : KeepsRows m hOK wOK s r1.1 ∧ Same r1.1 := by
      rcases whenSome_inv e1 with ⟨_, e⟩ | ⟨_, e⟩
      · exact h1 _ _ _ hs e
      · rw [e]; exact ⟨KeepsRows.refl _, hs⟩
    rcases whenSome_inv e2 with ⟨_, e⟩ | ⟨_, e⟩
    · obtain ⟨k, hr2⟩ := h2 _ _ _ hr1.2 e
      exact ⟨hr1.1.trans k, hr2⟩
    · rw [e]; exact hr1
  · obtain rfl := Except.ok.inj h; exact ⟨KeepsRows.refl _, hs⟩

/-! ## Heights -/

theorem heightStep_cols {c : Calc α} {fuel i : Nat} {s : Snd α} {v : BotTop α} {r : Snd α × BotTop α}
    (h : heightStep c m fuel i s v = .ok r) : r.1 = { s with hght := r.1.hght } ∧
      ∀ j, s.hght.getD j m ≠ m → r.1.hght.getD j m = s.hght.getD j m := by
  unfold heightStep at h
  obtain ⟨p, _, h⟩ := run_inv h
  obtain ⟨z, hz, h⟩ := run_inv h
  split at h
  · obtain rfl := Except.ok.inj h; exact ⟨rfl, fun _ _ => rfl⟩
  · split at h
    · obtain rfl := Except.ok.inj h; exact ⟨rfl, fun _ _ => rfl⟩
    · rename_i hm
      split at h
      · obtain rfl := Except.ok.inj h; exact ⟨rfl, fun _ _ => rfl⟩
      · obtain ⟨q, _, h⟩ := run_inv h
        split at h
        · cases h
        · obtain ⟨hh, hp, h⟩ := run_inv h
          obtain rfl := Except.ok.inj h
          refine ⟨rfl, fun j hj => getD_put_ne hp ?_⟩
          rintro rfl
          rw [← idx_val m hz] at hj
          exact hm hj

theorem heightLoop_cols {c : Calc α} {fuel N i : Nat} {s r : Snd α} {v : BotTop α} (h : heightLoop c m fuel N i s v = .ok r) :
    r = { s with hght := r.hght } ∧ ∀ j, s.hght.getD j m ≠ m → r.hght.getD j m = s.hght.getD j m := by
  induction N generalizing i s v with
  | zero => obtain rfl := Except.ok.inj h; exact ⟨rfl, fun _ _ => rfl⟩
  | succ N ih =>
    rw [heightLoop] at h
    obtain ⟨q, e, h⟩ := run_inv h
    obtain ⟨a1, a2⟩ := heightStep_cols e
    obtain ⟨b1, b2⟩ := ih h
    refine ⟨?_, fun j hj => ?_⟩
    · rw [b1, a1]
    · rw [b2 j (by rw [a2 j hj]; exact hj), a2 j hj]

theorem keeps_hght {s s' : Snd α} (h1 : s' = { s with hght := s'.hght })
    (h2 : ∀ j, s.temp.getD j m ≠ m → s.hght.getD j m ≠ m → s'.hght.getD j m = s.hght.getD j m) : KeepsRows m hOK wOK s s' := by
  refine keeps_cols ?_ ?_ ?_ ?_ fun j _ _ t z => h2 j t z
  all_goals rw [h1]
  · exact fun _ _ => rfl
  · exact fun _ _ => rfl
  · exact fun _ _ _ => rfl
  · exact fun _ _ _ _ => ⟨rfl, rfl⟩

theorem keeps_logpHeight {c : Calc α} {fuel : Nat} {s r : Snd α} (hs : Same s) (h : interpLogpHeight c m fuel s = .ok r) :
    KeepsRows m hOK wOK s r := by
  obtain ⟨n, hs⟩ := hs
  unfold interpLogpHeight at h
  split at h
  · cases h
  · rename_i h0
    dsimp only at h
    rw [hs.hght] at h h0
    split at h
    · rename_i t e
      obtain ⟨s1, e1, h⟩ := run_inv h
      have h1 := heightLoop_same hs e1
      obtain ⟨a1, a2⟩ := heightLoop_cols e1
      refine (keeps_hght a1 fun j _ z => a2 j z).trans ?_
      split at h
      · obtain ⟨_, _, h⟩ := run_inv h
        obtain ⟨_, _, h⟩ := run_inv h
        obtain ⟨_, _, h⟩ := run_inv h
        obtain ⟨_, _, h⟩ := run_inv h
        obtain ⟨s2, e2, h2, b1, b2⟩ := extendLoop_ok c m (-9999) n (n - (t + 1)) (t + 1) s1 _ h1 (by omega)
        rw [e2] at h
        obtain rfl := Except.ok.inj h
        exact keeps_hght b1 fun j _ z => b2 j (Or.inr z)
      · obtain rfl := Except.ok.inj h; exact KeepsRows.refl _
    · obtain ⟨s2, e2, h2, b1, b2⟩ := extendLoop_ok c m (-9999) n n 0 s ⟨m, m, m, m⟩ hs (by omega)
      rw [e2] at h
      obtain rfl := Except.ok.inj h
      exact keeps_hght b1 fun j _ z => b2 j (Or.inr z)

/-- The pressures of the tropopause levels are not `hOK`. -/
def TropOut (ps : SndParts α) (hOK : α → Prop) : Prop :=
  ∀ name, name = "TRPA" ∨ name = "TRPC" → ∀ p col, ps.part name = some p → p.col "PRES" = .ok col → ∀ x ∈ col, ¬ hOK |x|

theorem get_part {ps : SndParts α} {name : String} {p : SndPart α} (h : ps.get name = .ok p) : ps.part name = some p := by
  unfold SndParts.get at h
  split at h
  · rename_i e; rw [e]; exact congrArg some (Except.ok.inj h)
  · cases h

theorem withPart_get {ps : SndParts α} {name : String} {f : SndPart α → Snd α → α → Run (Snd α × α)} {s : Snd α} {pb : α} {r : Snd α × α}
    (h : withPart ps name f s pb = .ok r) : ∃ p, ps.part name = some p ∧ f p s pb = .ok r := by
  unfold withPart at h
  obtain ⟨p, hp, h⟩ := run_inv h
  exact ⟨p, get_part hp, h⟩

theorem keeps_levels {c : Calc α} {f : Nat} {ps : SndParts α} {n : Counts} {x y : Bool} {b d : Option (SndPart α)} {s s' : Snd α}
    (ht : TropOut ps hOK) (hs : Same s) (h : mergeLevels c m f ps n x y b d s = .ok s') : KeepsRows m hOK wOK s s' := by
  unfold mergeLevels at h
  obtain ⟨s1, h1, h⟩ := run_inv h
  obtain ⟨s2, h2, h⟩ := run_inv h
  obtain ⟨s3, h3, h⟩ := run_inv h
  obtain ⟨s4, h4, h⟩ := run_inv h
  obtain ⟨s5, h5, h⟩ := run_inv h
  obtain ⟨k1, g1⟩ : KeepsRows m hOK wOK s s1 ∧ Same s1 := keeps_pair
    (fun _ _ _ a e => by
      obtain ⟨p, hp, e⟩ := withPart_get e
      exact ⟨keeps_trop a (fun col hc => ht _ (Or.inl rfl) p col hp hc) e, mergeTrop_same a e⟩)
    (fun _ _ _ a e => by
      obtain ⟨p, hp, e⟩ := withPart_get e
      exact ⟨keeps_trop a (fun col hc => ht _ (Or.inr rfl) p col hp hc) e, mergeTrop_same a e⟩) hs h1
  obtain ⟨k2, g2⟩ : KeepsRows m hOK wOK s1 s2 ∧ Same s2 := keeps_pair
    (fun _ _ _ a e => by obtain ⟨p, e⟩ := withPart_inv e; exact ⟨keeps_sigT a e, mergeSigT_same a e⟩)
    (fun _ _ _ a e => by obtain ⟨p, e⟩ := withPart_inv e; exact ⟨keeps_sigT a e, mergeSigT_same a e⟩) g1 h2
  obtain ⟨k3, g3⟩ : KeepsRows m hOK wOK s2 s3 ∧ Same s3 := by
    obtain ⟨n, hn⟩ := g2
    obtain ⟨s', e, g, b1, b2⟩ := C51_moist c m n s2.pres.length s2 hn (by rw [hn.pres])
    rw [e] at h3
    obtain rfl := Except.ok.inj h3
    exact ⟨keeps_hght b1 b2, n, g⟩
  obtain ⟨k4, g4⟩ : KeepsRows m hOK wOK s3 s4 ∧ Same s4 := keeps_pair
    (fun _ _ _ a e => by obtain ⟨p, e⟩ := withOpt_inv e; exact ⟨keeps_wind a e, mergeWind_same a e⟩)
    (fun _ _ _ a e => by obtain ⟨p, e⟩ := withOpt_inv e; exact ⟨keeps_wind a e, mergeWind_same a e⟩) g3 h4
  obtain ⟨k5, g5⟩ : KeepsRows m hOK wOK s4 s5 ∧ Same s5 := keeps_pair
    (fun _ _ _ a e => by obtain ⟨p, e⟩ := withPart_inv e; exact ⟨keeps_wind a e, mergeWind_same a e⟩)
    (fun _ _ _ a e => by obtain ⟨p, e⟩ := withPart_inv e; exact ⟨keeps_wind a e, mergeWind_same a e⟩) g4 h5
  exact (((k1.trans k2).trans k3).trans (k4.trans k5)).trans (keeps_logpHeight g5 h)

/-! ## Winds on heights and the rest -/

theorem keeps_zPlace {a b c : α} {s : Snd α} {v : ZVars α} {r : Snd α × ZVars α × Bool} (h : zPlace m a b c s v = .ok r) :
    KeepsRows m hOK wOK s r.1 := by
  unfold zPlace at h
  split at h
  · obtain rfl := Except.ok.inj h; exact KeepsRows.refl _
  · split at h
    · obtain ⟨r, hr, h⟩ := run_inv h
      obtain ⟨w, hw, h⟩ := run_inv h
      split at h
      · rename_i e
        obtain ⟨_, h1, h⟩ := run_inv h
        obtain ⟨_, h2, h⟩ := run_inv h
        obtain rfl := Except.ok.inj h
        refine keeps_winds h1 h2 fun _ => ?_
        by_cases er : r = m
        · left; rw [← idx_val m hr]; exact er
        · rw [if_neg er] at hw
          right; rw [← idx_val m hw]; exact e.resolve_left er
      · obtain rfl := Except.ok.inj h; exact KeepsRows.refl _
    · split at h
      · obtain ⟨_, _, h⟩ := run_inv h
        obtain rfl := Except.ok.inj h; exact KeepsRows.refl _
      · obtain rfl := Except.ok.inj h; exact KeepsRows.refl _

/-- Storing a wind on a height can replace a wind, hence winds are not kept. -/
theorem keeps_zStore (hw : ¬ wOK) {a b c : α} {s : Snd α} {v : ZVars α} {r : Snd α × ZVars α} (hs : Same s) (h : zStore m a b c s v = .ok r) :
    KeepsRows m hOK wOK s r.1 := by
  obtain ⟨n, hs⟩ := hs
  unfold zStore at h
  split at h
  · obtain ⟨_, _, h⟩ := run_inv h
    obtain ⟨_, _, h⟩ := run_inv h
    split at h
    · obtain ⟨_, h1, h⟩ := run_inv h
      obtain ⟨_, h2, h⟩ := run_inv h
      obtain rfl := Except.ok.inj h
      exact keeps_winds h1 h2 fun w => absurd w hw
    · obtain rfl := Except.ok.inj h; exact KeepsRows.refl _
  · obtain rfl := Except.ok.inj h
    exact keeps_insert hs _ _ _ _ _ _ _

theorem keeps_zWind (hw : ¬ wOK) {p : SndPart α} {i : Nat} {s : Snd α} {v : ZVars α} {r : Snd α × ZVars α} (hs : Same s)
    (h : zWind m p i s v = .ok r) : KeepsRows m hOK wOK s r.1 := by
  unfold zWind at h
  obtain ⟨_, _, h⟩ := run_inv h
  obtain ⟨_, _, h⟩ := run_inv h
  obtain ⟨_, _, h⟩ := run_inv h
  obtain ⟨q, hq, h⟩ := run_inv h
  obtain ⟨n, hs⟩ := hs
  have hq' := zPlace_same hs hq
  split at h
  · exact (keeps_zPlace hq).trans (keeps_zStore hw ⟨n, hq'⟩ h)
  · obtain rfl := Except.ok.inj h; exact keeps_zPlace hq

theorem keeps_zLoop {b d : Option (SndPart α)} {x y N i e : Nat} {above : Bool} {s : Snd α} {v : ZVars α} {r : Snd α × ZVars α}
    (hw : wOK → e = 0) (hs : Same s) (h : zLoop m b d x y N above i e s v = .ok r) : KeepsRows m hOK wOK s r.1 := by
  induction N generalizing above i e s v with
  | zero => cases h
  | succ N ih =>
    rw [zLoop] at h
    split at h
    · rename_i hc
      have hw' : ¬ wOK := fun w => by have := hw w; omega
      split at h
      · cases h
      · obtain ⟨q, hq, h⟩ := run_inv h
        have := zWind_same hs hq
        refine (keeps_zWind hw' hs hq).trans ?_
        split at h
        · exact ih (fun w => absurd w hw') this h
        · exact ih (fun w => absurd w hw') this h
    · obtain rfl := Except.ok.inj h; exact KeepsRows.refl _

theorem zFirst_le {b : Option (SndPart α)} {x i : Nat} {s : Snd α} (h : zFirst b x s = .ok i) : i ≤ x := by
  unfold zFirst at h
  split at h
  · rw [← Except.ok.inj h]; omega
  · split at h
    · cases h
    · obtain ⟨_, _, h⟩ := run_inv h
      split at h
      · rw [← Except.ok.inj h]; omega
      · obtain ⟨_, _, h⟩ := run_inv h
        rw [← Except.ok.inj h]
        split <;> omega

theorem keeps_mergeZ {c : Calc α} {b d : Option (SndPart α)} {x y : Nat} {s : Snd α} {r : Snd α × Nat} (hw : wOK → x = 0) (hs : Same s)
    (h : mergeZ c m b d x y s = .ok r) : KeepsRows m hOK wOK s r.1 := by
  unfold mergeZ at h
  obtain ⟨i, hi, h⟩ := run_inv h
  obtain ⟨v, _, h⟩ := run_inv h
  obtain ⟨q, hq, h⟩ := run_inv h
  obtain ⟨s', hp, h⟩ := run_inv h
  obtain rfl := Except.ok.inj h
  rw [if_pos (zFirst_le hi)] at hq
  have hk : KeepsRows m hOK wOK s q.1 ∧ Same q.1 := ⟨keeps_zLoop hw hs hq, zLoop_same hs hq⟩
  obtain ⟨k, n, hn⟩ := hk
  obtain ⟨P', e, l, h1, _⟩ := C49_filled c m q.1 n hn.pres hn.hght
  rw [e] at hp
  obtain rfl := Except.ok.inj hp
  exact k.trans (keeps_cols h1 (fun _ _ => rfl) (fun _ _ _ => rfl) (fun _ _ _ _ => ⟨rfl, rfl⟩) (fun _ _ _ _ _ => rfl))

theorem keeps_below {p : SndPart α} {N i : Nat} {s s' : Snd α} {k : Option Nat} (hs : Same s) (h : mergeBelow p N i s k = .ok s') :
    KeepsRows m hOK wOK s s' := by
  induction N generalizing i s k with
  | zero => obtain rfl := Except.ok.inj h; exact KeepsRows.refl _
  | succ N ih =>
    rw [mergeBelow] at h
    obtain ⟨pr, _, h⟩ := run_inv h
    obtain ⟨p0, _, h⟩ := run_inv h
    split at h
    · split at h
      · cases h
      · dsimp only at h
        obtain ⟨_, _, h⟩ := run_inv h
        obtain ⟨_, _, h⟩ := run_inv h
        obtain ⟨_, _, h⟩ := run_inv h
        obtain ⟨_, _, h⟩ := run_inv h
        obtain ⟨_, _, h⟩ := run_inv h
        obtain ⟨n, hn⟩ := hs
        exact (keeps_insert hn _ _ _ _ _ _ _).trans (ih ⟨n + 1, insert_size hn _ _ _ _ _ _ _⟩ h)
    · exact ih hs h

theorem keeps_rest [FloorRing α] {c : Calc α} {ps : SndParts α} {n : Counts} {x y : Bool} {b d : Option (SndPart α)} {g : Nat} {s0 s s' : Snd α}
    (hw : wOK → x = true → n.sigW = 0) (hs : Same s) (h : mergeRest c m ps n x y b d g s0 s = .ok s') :
    KeepsRows m hOK wOK s s' := by
  unfold mergeRest at h
  obtain ⟨r, hr, h⟩ := run_inv h
  obtain ⟨s1, h1, h⟩ := run_inv h
  obtain ⟨p0, _, h⟩ := run_inv h
  obtain ⟨k, n, hn⟩ : KeepsRows m hOK wOK s r.1 ∧ Same r.1 := by
    split at hr
    · obtain ⟨q, hq, hr⟩ := run_inv hr
      obtain rfl := Except.ok.inj hr
      refine ⟨keeps_mergeZ (fun w => ?_) hs hq, mergeZ_same hs hq⟩
      split
      · rename_i e; exact hw w e
      · rfl
    · obtain rfl := Except.ok.inj hr; exact ⟨KeepsRows.refl _, hs⟩
  obtain ⟨g1, e1, e2, _, _, e3, e4, e5⟩ := C50_kept c m r.1 s1 n hn h1
  have k1 : KeepsRows m hOK wOK r.1 s1 := keeps_cols (fun _ _ => by rw [e1]) e3 e5 (fun j _ a _ => e4 j a) (fun _ _ _ _ _ => by rw [e2])
  refine (k.trans k1).trans ?_
  split at h
  · obtain ⟨p, _, h⟩ := run_inv h
    exact keeps_below ⟨n, g1⟩ h
  · obtain rfl := Except.ok.inj h; exact KeepsRows.refl _

end

end Gempak
