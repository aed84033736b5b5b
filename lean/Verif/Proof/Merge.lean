import Verif.Model.Merge
import Verif.Props.CalcHeight
import Verif.Props.CalcPressure

/-!
# Merging: lengths of the columns
-/

namespace Gempak

set_option linter.unusedSectionVars false

section
variable {α : Type} [Field α] [LinearOrder α]

theorem put_len {l l' : List α} {i : Nat} {v : α} (h : put l i v = .ok l') : l'.length = l.length := by
  unfold put at h
  split at h
  · obtain rfl := Except.ok.inj h; simp
  · cases h

omit [Field α] [LinearOrder α] in
theorem pyInsert_len (l : List α) (i : Int) (v : α) : (pyInsert l i v).length = l.length + 1 := by
  unfold pyInsert
  dsimp only
  simp
  split <;> omega

omit [Field α] [LinearOrder α] in
theorem insert_size {s : Snd α} {n : Nat} (h : s.Size n) (loc : Int) (p z t d r w : α) : (s.insert loc p z t d r w).Size (n + 1) := by
  unfold Snd.insert
  exact ⟨by rw [pyInsert_len, h.pres], by rw [pyInsert_len, h.hght], by rw [pyInsert_len, h.temp], by rw [pyInsert_len, h.dwpt],
    by rw [pyInsert_len, h.drct], by rw [pyInsert_len, h.sped]⟩

/-- All columns have one length. -/
def Same (s : Snd α) : Prop := ∃ n, s.Size n

theorem surfaceLevel_same {ps : SndParts α} {m : α} {c : Counts} {s : Snd α} (h : surfaceLevel ps m c = .ok s) : s.Size 1 := by
  unfold surfaceLevel at h
  split at h
  · obtain rfl := Except.ok.inj h
    exact ⟨rfl, rfl, rfl, rfl, rfl, rfl⟩
  · obtain ⟨_, _, h⟩ := run_inv h
    obtain ⟨_, _, h⟩ := run_inv h
    obtain ⟨_, _, h⟩ := run_inv h
    obtain ⟨_, _, h⟩ := run_inv h
    obtain ⟨_, _, h⟩ := run_inv h
    obtain ⟨_, _, h⟩ := run_inv h
    obtain ⟨_, _, h⟩ := run_inv h
    obtain rfl := Except.ok.inj h
    exact ⟨rfl, rfl, rfl, rfl, rfl, rfl⟩

theorem surfaceCheck_same {m f : α} {s s' : Snd α} {n : Nat} (hs : s.Size n) (h : surfaceCheck m f s = .ok s') : s'.Size n := by
  unfold surfaceCheck at h
  obtain ⟨p, _, h⟩ := run_inv h
  dsimp only at h
  generalize (if p > 1060 then m else p) = sp at h
  split at h
  · obtain ⟨_, h1, h⟩ := run_inv h
    obtain ⟨_, h2, h⟩ := run_inv h
    obtain ⟨_, h3, h⟩ := run_inv h
    obtain ⟨_, h4, h⟩ := run_inv h
    obtain ⟨_, h5, h⟩ := run_inv h
    obtain ⟨_, h6, h⟩ := run_inv h
    obtain rfl := Except.ok.inj h
    exact ⟨(put_len h1).trans hs.pres, (put_len h2).trans hs.hght, (put_len h3).trans hs.temp, (put_len h4).trans hs.dwpt,
      (put_len h5).trans hs.drct, (put_len h6).trans hs.sped⟩
  · obtain rfl := Except.ok.inj h; exact hs

theorem surfaceSigT_same {ps : SndParts α} {m : α} {c : Counts} {s s' : Snd α} {n : Nat} (hs : s.Size n) (h : surfaceSigT ps m c s = .ok s') :
    s'.Size n := by
  unfold surfaceSigT at h
  split at h
  · obtain rfl := Except.ok.inj h; exact hs
  · obtain ⟨b, _, h⟩ := run_inv h
    obtain ⟨p, _, h⟩ := run_inv h
    split at h
    · obtain rfl := Except.ok.inj h; exact hs
    · obtain ⟨t, _, h⟩ := run_inv h
      split at h
      · obtain rfl := Except.ok.inj h; exact hs
      · obtain ⟨f, _, h⟩ := run_inv h
        split at h
        · obtain ⟨_, h1, h⟩ := run_inv h
          obtain ⟨_, _, h⟩ := run_inv h
          obtain ⟨_, h2, h⟩ := run_inv h
          obtain ⟨_, h3, h⟩ := run_inv h
          obtain rfl := Except.ok.inj h
          exact ⟨(put_len h1).trans hs.pres, hs.hght, (put_len h3).trans hs.temp, (put_len h2).trans hs.dwpt, hs.drct, hs.sped⟩
        · obtain rfl := Except.ok.inj h; exact hs

theorem surfaceSigW_same {b : Option (SndPart α)} {z : Bool} {m : α} {c : Counts} {s s' : Snd α} {n : Nat} (hs : s.Size n)
    (h : surfaceSigW b z m c s = .ok s') : s'.Size n := by
  unfold surfaceSigW at h
  split at h
  · obtain rfl := Except.ok.inj h; exact hs
  · split at h
    · cases h
    · split at h
      · obtain ⟨_, _, h⟩ := run_inv h
        split at h
        · obtain ⟨_, _, h⟩ := run_inv h
          split at h
          · obtain ⟨_, h1, h⟩ := run_inv h
            obtain ⟨_, _, h⟩ := run_inv h
            obtain ⟨_, h2, h⟩ := run_inv h
            obtain rfl := Except.ok.inj h
            exact ⟨hs.pres, hs.hght, hs.temp, hs.dwpt, (put_len h1).trans hs.drct, (put_len h2).trans hs.sped⟩
          · obtain rfl := Except.ok.inj h; exact hs
        · obtain rfl := Except.ok.inj h; exact hs
      · obtain ⟨_, _, h⟩ := run_inv h
        split at h
        · obtain ⟨_, _, h⟩ := run_inv h
          split at h
          · obtain ⟨_, _, h⟩ := run_inv h
            split at h
            · obtain ⟨_, h0, h⟩ := run_inv h
              obtain ⟨_, h1, h⟩ := run_inv h
              obtain ⟨_, _, h⟩ := run_inv h
              obtain ⟨_, h2, h⟩ := run_inv h
              obtain rfl := Except.ok.inj h
              exact ⟨(put_len h0).trans hs.pres, hs.hght, hs.temp, hs.dwpt, (put_len h1).trans hs.drct, (put_len h2).trans hs.sped⟩
            · obtain rfl := Except.ok.inj h; exact hs
          · obtain rfl := Except.ok.inj h; exact hs
        · obtain rfl := Except.ok.inj h; exact hs

/-- Names of a part. -/
def names (p : SndPart α) : List String := p.map Prod.fst

theorem appendNamed_len {s s' : Snd α} {name : String} {v : α} (h : appendNamed s name v = .ok s') :
    s'.pres.length = s.pres.length + [name].count "PRES" ∧ s'.hght.length = s.hght.length + [name].count "HGHT" ∧
      s'.temp.length = s.temp.length + [name].count "TEMP" ∧ s'.dwpt.length = s.dwpt.length + [name].count "DWPT" ∧
      s'.drct.length = s.drct.length + [name].count "DRCT" ∧ s'.sped.length = s.sped.length + [name].count "SPED" := by
  unfold appendNamed at h
  split at h
  · rename_i e; obtain rfl := Except.ok.inj h; subst e; simp
  · split at h
    · rename_i e; obtain rfl := Except.ok.inj h; subst e; simp
    · split at h
      · rename_i e; obtain rfl := Except.ok.inj h; subst e; simp
      · split at h
        · rename_i e; obtain rfl := Except.ok.inj h; subst e; simp
        · split at h
          · rename_i e; obtain rfl := Except.ok.inj h; subst e; simp
          · split at h
            · rename_i e; obtain rfl := Except.ok.inj h; subst e; simp
            · cases h

theorem appendLevel_len {i : Nat} {p : SndPart α} {s s' : Snd α} (h : appendLevel i p s = .ok s') :
    s'.pres.length = s.pres.length + (names p).count "PRES" ∧ s'.hght.length = s.hght.length + (names p).count "HGHT" ∧
      s'.temp.length = s.temp.length + (names p).count "TEMP" ∧ s'.dwpt.length = s.dwpt.length + (names p).count "DWPT" ∧
      s'.drct.length = s.drct.length + (names p).count "DRCT" ∧ s'.sped.length = s.sped.length + (names p).count "SPED" := by
  induction p generalizing s with
  | nil => obtain rfl := Except.ok.inj h; simp [names]
  | cons x p ih =>
    obtain ⟨name, col⟩ := x
    rw [appendLevel] at h
    obtain ⟨v, _, h⟩ := run_inv h
    obtain ⟨s1, h1, h⟩ := run_inv h
    obtain ⟨a1, a2, a3, a4, a5, a6⟩ := appendNamed_len h1
    obtain ⟨b1, b2, b3, b4, b5, b6⟩ := ih h
    have e : ∀ k, (names ((name, col) :: p)).count k = [name].count k + (names p).count k := by
      intro k
      show (name :: names p).count k = _
      rw [← List.count_append]; rfl
    simp only [e]
    omega

/-- The part has exactly the six columns of a sounding, in any order. -/
def Spec.SixNames (p : SndPart α) : Prop := (p.map Prod.fst).Perm ["PRES", "HGHT", "TEMP", "DWPT", "DRCT", "SPED"]

open Spec

theorem appendLevel_same {i n : Nat} {p : SndPart α} {s s' : Snd α} (hp : SixNames p) (hs : s.Size n) (h : appendLevel i p s = .ok s') :
    s'.Size (n + 1) := by
  obtain ⟨a1, a2, a3, a4, a5, a6⟩ := appendLevel_len h
  have e : ∀ k, (names p).count k = ["PRES", "HGHT", "TEMP", "DWPT", "DRCT", "SPED"].count k := fun k => hp.count_eq k
  rw [e] at a1 a2 a3 a4 a5 a6
  exact ⟨by rw [a1, hs.pres]; rfl, by rw [a2, hs.hght]; rfl, by rw [a3, hs.temp]; rfl, by rw [a4, hs.dwpt]; rfl, by rw [a5, hs.drct]; rfl,
    by rw [a6, hs.sped]; rfl⟩

theorem mergeMan_same {p : SndPart α} {m : α} {N i : Nat} {s : Snd α} {plast : α} {bgl : Nat} {r : Snd α × α × Nat} (hp : SixNames p)
    (hs : Same s) (h : mergeMan p m N i s plast bgl = .ok r) : Same r.1 := by
  induction N generalizing i s plast bgl with
  | zero => obtain rfl := Except.ok.inj h; exact hs
  | succ N ih =>
    rw [mergeMan] at h
    obtain ⟨b, _, h⟩ := run_inv h
    cases b with
    | true =>
      rw [if_pos rfl] at h
      obtain ⟨s1, h1, h⟩ := run_inv h
      obtain ⟨pl, _, h⟩ := run_inv h
      obtain ⟨n, hn⟩ := hs
      exact ih ⟨n + 1, appendLevel_same hp hn h1⟩ h
    | false =>
      rw [if_neg (by simp)] at h
      obtain ⟨_, _, h⟩ := run_inv h
      obtain ⟨_, _, h⟩ := run_inv h
      exact ih hs h

theorem setWind_same {m : α} {s s' : Snd α} {loc n : Nat} {r w : Run α} (hs : s.Size n) (h : setWind m s loc r w = .ok s') : s'.Size n := by
  unfold setWind at h
  obtain ⟨x, _, h⟩ := run_inv h
  split at h
  · obtain ⟨_, _, h⟩ := run_inv h
    obtain ⟨_, h1, h⟩ := run_inv h
    obtain ⟨_, _, h⟩ := run_inv h
    obtain ⟨_, h2, h⟩ := run_inv h
    obtain rfl := Except.ok.inj h
    exact ⟨hs.pres, hs.hght, hs.temp, hs.dwpt, (put_len h1).trans hs.drct, (put_len h2).trans hs.sped⟩
  · obtain rfl := Except.ok.inj h; exact hs

theorem mergeManWind_same {p : SndPart α} {m : α} {l : List α} {i n : Nat} {s s' : Snd α} (hs : s.Size n) (h : mergeManWind p m l i s = .ok s') :
    s'.Size n := by
  induction l generalizing i s with
  | nil => obtain rfl := Except.ok.inj h; exact hs
  | cons x l ih =>
    rw [mergeManWind] at h
    split at h
    · obtain ⟨s1, h1, h⟩ := run_inv h
      exact ih (setWind_same hs h1) h
    · exact ih hs h

/-- Merging on pressure keeps any property kept by its two actions. -/
theorem mergeOnPressure_same {m : α} {has : Nat → Run Bool} {pr : Nat → Snd α → Nat → Run (Snd α)} {fr : Nat → Snd α → α → Run (Snd α)}
    (h1 : ∀ i s loc s', Same s → pr i s loc = .ok s' → Same s') (h2 : ∀ i s p s', Same s → fr i s p = .ok s' → Same s')
    {l : List α} {i : Nat} {s : Snd α} {pbot : α} {r : Snd α × α} (hs : Same s) (h : mergeOnPressure m has pr fr l i s pbot = .ok r) :
    Same r.1 := by
  induction l generalizing i s pbot with
  | nil => obtain rfl := Except.ok.inj h; exact hs
  | cons x l ih =>
    rw [mergeOnPressure] at h
    obtain ⟨ok, _, h⟩ := run_inv h
    split at h
    · split at h
      · exact ih hs h
      · split at h
        · obtain ⟨s1, e1, h⟩ := run_inv h
          exact ih (h1 _ _ _ _ hs e1) h
        · obtain ⟨s1, e1, h⟩ := run_inv h
          exact ih (h2 _ _ _ _ hs e1) h
    · exact ih hs h

theorem sigTPresent_same {p : SndPart α} {m : α} {i loc n : Nat} {s s' : Snd α} (hs : s.Size n) (h : sigTPresent p m i s loc = .ok s') : s'.Size n := by
  unfold sigTPresent at h
  obtain ⟨t, _, h⟩ := run_inv h
  split at h
  · obtain ⟨_, _, h⟩ := run_inv h
    obtain ⟨_, h1, h⟩ := run_inv h
    obtain ⟨_, _, h⟩ := run_inv h
    obtain ⟨_, h2, h⟩ := run_inv h
    obtain rfl := Except.ok.inj h
    exact ⟨hs.pres, hs.hght, (put_len h1).trans hs.temp, (put_len h2).trans hs.dwpt, hs.drct, hs.sped⟩
  · obtain rfl := Except.ok.inj h; exact hs

theorem tropPresent_same {p : SndPart α} {m : α} {i loc n : Nat} {s s' : Snd α} (hs : s.Size n) (h : tropPresent p m i s loc = .ok s') : s'.Size n := by
  unfold tropPresent at h
  obtain ⟨t, ht, h⟩ := run_inv h
  obtain ⟨s1, h1, h⟩ := run_inv h
  obtain ⟨s2, h2, h⟩ := run_inv h
  obtain ⟨z, h3, h⟩ := run_inv h
  obtain rfl := Except.ok.inj h
  have hs1 : s1.Size n := by
    refine sigTPresent_same (p := p) (m := m) (i := i) (loc := loc) hs ?_
    unfold sigTPresent
    rw [ht, ok_bind]
    exact h1
  have hs2 := setWind_same hs1 h2
  exact ⟨hs2.pres, (put_len h3).trans hs2.hght, hs2.temp, hs2.dwpt, hs2.drct, hs2.sped⟩

theorem windPresent_same {p : SndPart α} {m : α} {i loc n : Nat} {s s' : Snd α} (hs : s.Size n) (h : windPresent p m i s loc = .ok s') : s'.Size n := by
  unfold windPresent at h
  obtain ⟨r, _, h⟩ := run_inv h
  obtain ⟨w, _, h⟩ := run_inv h
  split at h
  · obtain ⟨_, _, h⟩ := run_inv h
    obtain ⟨_, h1, h⟩ := run_inv h
    obtain ⟨_, _, h⟩ := run_inv h
    obtain ⟨_, h2, h⟩ := run_inv h
    obtain rfl := Except.ok.inj h
    exact ⟨hs.pres, hs.hght, hs.temp, hs.dwpt, (put_len h1).trans hs.drct, (put_len h2).trans hs.sped⟩
  · obtain rfl := Except.ok.inj h; exact hs

theorem tropNew_inv {p : SndPart α} {m : α} {i : Nat} {s s' : Snd α} {pres : α} (h : tropNew p m i s pres = .ok s') :
    ∃ t d r w, s' = s.insert (placeOf s pres) pres m t d r w := by
  unfold tropNew at h
  obtain ⟨t, _, h⟩ := run_inv h
  obtain ⟨d, _, h⟩ := run_inv h
  obtain ⟨r, _, h⟩ := run_inv h
  obtain ⟨w, _, h⟩ := run_inv h
  exact ⟨t, d, r, w, (Except.ok.inj h).symm⟩

theorem sigTNew_inv {p : SndPart α} {m : α} {i : Nat} {s s' : Snd α} {pres : α} (h : sigTNew p m i s pres = .ok s') :
    ∃ t d r w, s' = s.insert (placeOf s pres) pres m t d r w := by
  unfold sigTNew at h
  obtain ⟨t, _, h⟩ := run_inv h
  obtain ⟨d, _, h⟩ := run_inv h
  exact ⟨t, d, m, m, (Except.ok.inj h).symm⟩

theorem windNew_inv {p : SndPart α} {m : α} {i : Nat} {s s' : Snd α} {pres : α} (h : windNew p m i s pres = .ok s') :
    ∃ t d r w, s' = s.insert (placeOf s pres) pres m t d r w := by
  unfold windNew at h
  obtain ⟨r, _, h⟩ := run_inv h
  obtain ⟨w, _, h⟩ := run_inv h
  exact ⟨m, m, r, w, (Except.ok.inj h).symm⟩

theorem mergeTrop_same {p : SndPart α} {m : α} {s : Snd α} {pbot : α} {r : Snd α × α} (hs : Same s) (h : mergeTrop p m s pbot = .ok r) : Same r.1 := by
  unfold mergeTrop at h
  obtain ⟨c, _, h⟩ := run_inv h
  refine mergeOnPressure_same ?_ ?_ hs h
  · rintro i s loc s' ⟨n, hn⟩ h; exact ⟨n, tropPresent_same hn h⟩
  · rintro i s p s' ⟨n, hn⟩ h
    obtain ⟨t, d, r, w, rfl⟩ := tropNew_inv h
    exact ⟨n + 1, insert_size hn _ _ _ _ _ _ _⟩

theorem mergeSigT_same {p : SndPart α} {m : α} {s : Snd α} {pbot : α} {r : Snd α × α} (hs : Same s) (h : mergeSigT p m s pbot = .ok r) : Same r.1 := by
  unfold mergeSigT at h
  obtain ⟨c, _, h⟩ := run_inv h
  refine mergeOnPressure_same ?_ ?_ hs h
  · rintro i s loc s' ⟨n, hn⟩ h; exact ⟨n, sigTPresent_same hn h⟩
  · rintro i s p s' ⟨n, hn⟩ h
    obtain ⟨t, d, r, w, rfl⟩ := sigTNew_inv h
    exact ⟨n + 1, insert_size hn _ _ _ _ _ _ _⟩

theorem mergeWind_same {p : SndPart α} {m : α} {s : Snd α} {pbot : α} {r : Snd α × α} (hs : Same s) (h : mergeWind p m s pbot = .ok r) : Same r.1 := by
  unfold mergeWind at h
  obtain ⟨c, _, h⟩ := run_inv h
  refine mergeOnPressure_same ?_ ?_ hs h
  · rintro i s loc s' ⟨n, hn⟩ h; exact ⟨n, windPresent_same hn h⟩
  · rintro i s p s' ⟨n, hn⟩ h
    obtain ⟨t, d, r, w, rfl⟩ := windNew_inv h
    exact ⟨n + 1, insert_size hn _ _ _ _ _ _ _⟩

theorem whenSome_inv {β : Type} {n : Nat} {x y : β} {f : Unit → Run β} (h : whenSome n x f = .ok y) : (1 ≤ n ∧ f () = .ok y) ∨ (n = 0 ∧ y = x) := by
  unfold whenSome at h
  split at h
  · rename_i hn; exact Or.inl ⟨hn, h⟩
  · exact Or.inr ⟨by omega, (Except.ok.inj h).symm⟩

theorem mergePair_same {n1 n2 : Nat} {bot : Snd α → Run α} {f1 f2 : Snd α → α → Run (Snd α × α)}
    (h1 : ∀ s p r, Same s → f1 s p = .ok r → Same r.1) (h2 : ∀ s p r, Same s → f2 s p = .ok r → Same r.1) {s s' : Snd α} (hs : Same s)
    (h : mergePair n1 n2 bot f1 f2 s = .ok s') : Same s' := by
  unfold mergePair at h
  split at h
  · obtain ⟨pb, _, h⟩ := run_inv h
    obtain ⟨r1, e1, h⟩ := run_inv h
    obtain ⟨r2, e2, h⟩ := run_inv h
    obtain rfl := Except.ok.inj h
    have hr1 : Same r1.1 := by
      rcases whenSome_inv e1 with ⟨_, e⟩ | ⟨_, e⟩
      · exact h1 _ _ _ hs e
      · rw [e]; exact hs
    rcases whenSome_inv e2 with ⟨_, e⟩ | ⟨_, e⟩
    · exact h2 _ _ _ hr1 e
    · rw [e]; exact hr1
  · obtain rfl := Except.ok.inj h; exact hs

theorem withPart_inv {ps : SndParts α} {name : String} {f : SndPart α → Snd α → α → Run (Snd α × α)} {s : Snd α} {pb : α} {r : Snd α × α}
    (h : withPart ps name f s pb = .ok r) : ∃ p, f p s pb = .ok r := by
  unfold withPart at h
  obtain ⟨p, _, h⟩ := run_inv h
  exact ⟨p, h⟩

theorem withOpt_inv {p : Option (SndPart α)} {f : SndPart α → Snd α → α → Run (Snd α × α)} {s : Snd α} {pb : α} {r : Snd α × α}
    (h : withOpt p f s pb = .ok r) : ∃ p, f p s pb = .ok r := by
  unfold withOpt at h
  split at h
  · exact ⟨_, h⟩
  · cases h

theorem heightStep_same {c : Calc α} {m : α} {f i n : Nat} {s : Snd α} {v : BotTop α} {r : Snd α × BotTop α} (hs : s.Size n)
    (h : heightStep c m f i s v = .ok r) : r.1.Size n := by
  unfold heightStep at h
  obtain ⟨p, _, h⟩ := run_inv h
  obtain ⟨z, _, h⟩ := run_inv h
  split at h
  · obtain rfl := Except.ok.inj h; exact hs
  · split at h
    · obtain rfl := Except.ok.inj h; exact hs
    · split at h
      · obtain rfl := Except.ok.inj h; exact hs
      · obtain ⟨t, _, h⟩ := run_inv h
        split at h
        · cases h
        · obtain ⟨x, h1, h⟩ := run_inv h
          obtain rfl := Except.ok.inj h
          exact ⟨hs.pres, (put_len h1).trans hs.hght, hs.temp, hs.dwpt, hs.drct, hs.sped⟩

theorem heightLoop_same {c : Calc α} {m : α} {f N i n : Nat} {s r : Snd α} {v : BotTop α} (hs : s.Size n)
    (h : heightLoop c m f N i s v = .ok r) : r.Size n := by
  induction N generalizing i s v with
  | zero => obtain rfl := Except.ok.inj h; exact hs
  | succ N ih =>
    rw [heightLoop] at h
    obtain ⟨q, e, h⟩ := run_inv h
    exact ih (heightStep_same hs e) h

theorem logpHeight_same {c : Calc α} {m : α} {f n : Nat} {s r : Snd α} (hs : s.Size n) (h : interpLogpHeight c m f s = .ok r) : r.Size n := by
  unfold interpLogpHeight at h
  split at h
  · cases h
  · rename_i h0
    dsimp only at h
    rw [hs.hght] at h h0
    split at h
    · rename_i t e
      obtain ⟨s1, e1, h⟩ := run_inv h
      have h1 := heightLoop_same hs e1
      split at h
      · obtain ⟨_, _, h⟩ := run_inv h
        obtain ⟨_, _, h⟩ := run_inv h
        obtain ⟨_, _, h⟩ := run_inv h
        obtain ⟨_, _, h⟩ := run_inv h
        obtain ⟨s2, e2, h2, _⟩ := extendLoop_ok c m (-9999) n (n - (t + 1)) (t + 1) s1 _ h1 (by omega)
        rw [e2] at h
        obtain rfl := Except.ok.inj h
        exact h2
      · obtain rfl := Except.ok.inj h; exact h1
    · obtain ⟨s2, e2, h2, _⟩ := extendLoop_ok c m (-9999) n n 0 s ⟨m, m, m, m⟩ hs (by omega)
      rw [e2] at h
      obtain rfl := Except.ok.inj h
      exact h2

theorem mergeLevels_same {c : Calc α} {m : α} {f : Nat} {ps : SndParts α} {n : Counts} {x y : Bool} {b d : Option (SndPart α)} {s s' : Snd α}
    (hs : Same s) (h : mergeLevels c m f ps n x y b d s = .ok s') : Same s' := by
  unfold mergeLevels at h
  obtain ⟨s1, h1, h⟩ := run_inv h
  obtain ⟨s2, h2, h⟩ := run_inv h
  obtain ⟨s3, h3, h⟩ := run_inv h
  obtain ⟨s4, h4, h⟩ := run_inv h
  obtain ⟨s5, h5, h⟩ := run_inv h
  have k1 : Same s1 := mergePair_same (fun _ _ _ a e => by obtain ⟨p, e⟩ := withPart_inv e; exact mergeTrop_same a e)
    (fun _ _ _ a e => by obtain ⟨p, e⟩ := withPart_inv e; exact mergeTrop_same a e) hs h1
  have k2 : Same s2 := mergePair_same (fun _ _ _ a e => by obtain ⟨p, e⟩ := withPart_inv e; exact mergeSigT_same a e)
    (fun _ _ _ a e => by obtain ⟨p, e⟩ := withPart_inv e; exact mergeSigT_same a e) k1 h2
  have k3 : Same s3 := by
    obtain ⟨n, hn⟩ := k2
    obtain ⟨s', e, g, _⟩ := C51_moist c m n s2.pres.length s2 hn (by rw [hn.pres])
    rw [e] at h3
    obtain rfl := Except.ok.inj h3
    exact ⟨n, g⟩
  have k4 : Same s4 := mergePair_same (fun _ _ _ a e => by obtain ⟨p, e⟩ := withOpt_inv e; exact mergeWind_same a e)
    (fun _ _ _ a e => by obtain ⟨p, e⟩ := withOpt_inv e; exact mergeWind_same a e) k3 h4
  have k5 : Same s5 := mergePair_same (fun _ _ _ a e => by obtain ⟨p, e⟩ := withPart_inv e; exact mergeWind_same a e)
    (fun _ _ _ a e => by obtain ⟨p, e⟩ := withPart_inv e; exact mergeWind_same a e) k4 h5
  obtain ⟨n, hn⟩ := k5
  exact ⟨n, logpHeight_same hn h⟩

theorem mergeMandatory_same {ps : SndParts α} {m : α} {c : Counts} {z : Bool} {b : Option (SndPart α)} {r : Snd α × Nat}
    (hA : ∀ p, ps.part "TTAA" = some p → SixNames p) (hC : ∀ p, ps.part "TTCC" = some p → SixNames p)
    (h : mergeMandatory ps m c z b = .ok r) : Same r.1 := by
  unfold mergeMandatory at h
  obtain ⟨s0, h0, h⟩ := run_inv h
  obtain ⟨f, _, h⟩ := run_inv h
  obtain ⟨s1, h1, h⟩ := run_inv h
  obtain ⟨s2, h2, h⟩ := run_inv h
  obtain ⟨s3, h3, h⟩ := run_inv h
  obtain ⟨p0, _, h⟩ := run_inv h
  dsimp only at h
  obtain ⟨r4, h4, h⟩ := run_inv h
  obtain ⟨r5, h5, h⟩ := run_inv h
  obtain ⟨s6, h6, h⟩ := run_inv h
  obtain ⟨s7, h7, h⟩ := run_inv h
  obtain rfl := Except.ok.inj h
  have getp : ∀ name p, ps.get name = .ok p → ps.part name = some p := by
    intro name p hp
    unfold SndParts.get at hp
    split at hp
    · rename_i e; rw [e]; exact congrArg some (Except.ok.inj hp)
    · cases hp
  have k3 : Same s3 := ⟨1, surfaceSigW_same (surfaceSigT_same (surfaceCheck_same (surfaceLevel_same h0) h1) h2) h3⟩
  have k4 : Same r4.1 := by
    rcases whenSome_inv h4 with ⟨_, e⟩ | ⟨_, e⟩
    · obtain ⟨p, hp, e⟩ := run_inv e
      exact mergeMan_same (hA p (getp _ _ hp)) k3 e
    · rw [e]; exact k3
  have k5 : Same r5.1 := by
    rcases whenSome_inv h5 with ⟨_, e⟩ | ⟨_, e⟩
    · obtain ⟨p, hp, e⟩ := run_inv e
      exact mergeMan_same (hC p (getp _ _ hp)) k4 e
    · rw [e]; exact k4
  have k6 : Same s6 := by
    obtain ⟨n, hn⟩ := k5
    split at h6
    · obtain ⟨p, _, h6⟩ := run_inv h6
      obtain ⟨q, _, h6⟩ := run_inv h6
      exact ⟨n, mergeManWind_same hn h6⟩
    · obtain rfl := Except.ok.inj h6; exact ⟨n, hn⟩
  obtain ⟨n, hn⟩ := k6
  split at h7
  · obtain ⟨p, _, h7⟩ := run_inv h7
    obtain ⟨q, _, h7⟩ := run_inv h7
    exact ⟨n, mergeManWind_same hn h7⟩
  · obtain rfl := Except.ok.inj h7; exact ⟨n, hn⟩

theorem zPlace_same {m a b c : α} {s : Snd α} {v : ZVars α} {r : Snd α × ZVars α × Bool} {n : Nat} (hs : s.Size n)
    (h : zPlace m a b c s v = .ok r) : r.1.Size n := by
  unfold zPlace at h
  split at h
  · obtain rfl := Except.ok.inj h; exact hs
  · split at h
    · obtain ⟨_, _, h⟩ := run_inv h
      obtain ⟨_, _, h⟩ := run_inv h
      split at h
      · obtain ⟨_, h1, h⟩ := run_inv h
        obtain ⟨_, h2, h⟩ := run_inv h
        obtain rfl := Except.ok.inj h
        exact ⟨hs.pres, hs.hght, hs.temp, hs.dwpt, (put_len h1).trans hs.drct, (put_len h2).trans hs.sped⟩
      · obtain rfl := Except.ok.inj h; exact hs
    · split at h
      · obtain ⟨_, _, h⟩ := run_inv h
        obtain rfl := Except.ok.inj h; exact hs
      · obtain rfl := Except.ok.inj h; exact hs

theorem zStore_same {m a b c : α} {s : Snd α} {v : ZVars α} {r : Snd α × ZVars α} (hs : Same s) (h : zStore m a b c s v = .ok r) : Same r.1 := by
  obtain ⟨n, hs⟩ := hs
  unfold zStore at h
  split at h
  · obtain ⟨_, _, h⟩ := run_inv h
    obtain ⟨_, _, h⟩ := run_inv h
    split at h
    · obtain ⟨_, h1, h⟩ := run_inv h
      obtain ⟨_, h2, h⟩ := run_inv h
      obtain rfl := Except.ok.inj h
      exact ⟨n, hs.pres, hs.hght, hs.temp, hs.dwpt, (put_len h1).trans hs.drct, (put_len h2).trans hs.sped⟩
    · obtain rfl := Except.ok.inj h; exact ⟨n, hs⟩
  · obtain rfl := Except.ok.inj h
    exact ⟨n + 1, insert_size hs _ _ _ _ _ _ _⟩

theorem zWind_same {m : α} {p : SndPart α} {i : Nat} {s : Snd α} {v : ZVars α} {r : Snd α × ZVars α} (hs : Same s) (h : zWind m p i s v = .ok r) :
    Same r.1 := by
  unfold zWind at h
  obtain ⟨_, _, h⟩ := run_inv h
  obtain ⟨_, _, h⟩ := run_inv h
  obtain ⟨_, _, h⟩ := run_inv h
  obtain ⟨q, hq, h⟩ := run_inv h
  obtain ⟨n, hs⟩ := hs
  have hq := zPlace_same hs hq
  split at h
  · exact zStore_same ⟨n, hq⟩ h
  · obtain rfl := Except.ok.inj h; exact ⟨n, hq⟩

theorem zLoop_same {m : α} {b d : Option (SndPart α)} {x y N i e : Nat} {above : Bool} {s : Snd α} {v : ZVars α} {r : Snd α × ZVars α}
    (hs : Same s) (h : zLoop m b d x y N above i e s v = .ok r) : Same r.1 := by
  induction N generalizing above i e s v with
  | zero => cases h
  | succ N ih =>
    rw [zLoop] at h
    split at h
    · split at h
      · cases h
      · obtain ⟨q, hq, h⟩ := run_inv h
        have := zWind_same hs hq
        split at h
        · exact ih this h
        · exact ih this h
    · obtain rfl := Except.ok.inj h; exact hs

theorem mergeZ_same {c : Calc α} {m : α} {b d : Option (SndPart α)} {x y : Nat} {s : Snd α} {r : Snd α × Nat} (hs : Same s)
    (h : mergeZ c m b d x y s = .ok r) : Same r.1 := by
  unfold mergeZ at h
  obtain ⟨i, _, h⟩ := run_inv h
  obtain ⟨v, _, h⟩ := run_inv h
  obtain ⟨q, hq, h⟩ := run_inv h
  obtain ⟨s', hp, h⟩ := run_inv h
  obtain rfl := Except.ok.inj h
  have : Same q.1 := by split at hq <;> exact zLoop_same hs hq
  obtain ⟨n, hn⟩ := this
  obtain ⟨P', e, l, _⟩ := C49_filled c m q.1 n hn.pres hn.hght
  rw [e] at hp
  obtain rfl := Except.ok.inj hp
  exact ⟨n, l, hn.hght, hn.temp, hn.dwpt, hn.drct, hn.sped⟩

theorem mergeBelow_same {p : SndPart α} {N i : Nat} {s s' : Snd α} {k : Option Nat} (hs : Same s) (h : mergeBelow p N i s k = .ok s') : Same s' := by
  induction N generalizing i s k with
  | zero => obtain rfl := Except.ok.inj h; exact hs
  | succ N ih =>
    rw [mergeBelow] at h
    obtain ⟨pr, _, h⟩ := run_inv h
    obtain ⟨p0, _, h⟩ := run_inv h
    split at h
    · split at h
      · cases h
      · dsimp only at h
        obtain ⟨_, _, h⟩ := run_inv h
        obtain ⟨_, _, h⟩ := run_inv h
        obtain ⟨_, _, h⟩ := run_inv h
        obtain ⟨_, _, h⟩ := run_inv h
        obtain ⟨_, _, h⟩ := run_inv h
        obtain ⟨n, hn⟩ := hs
        exact ih ⟨n + 1, insert_size hn _ _ _ _ _ _ _⟩ h
    · exact ih hs h

theorem mergeRest_same [FloorRing α] {c : Calc α} {m : α} {ps : SndParts α} {n : Counts} {x y : Bool} {b d : Option (SndPart α)} {g : Nat} {s0 s s' : Snd α}
    (hs : Same s) (h : mergeRest c m ps n x y b d g s0 s = .ok s') : Same s' := by
  unfold mergeRest at h
  obtain ⟨r, hr, h⟩ := run_inv h
  obtain ⟨s1, h1, h⟩ := run_inv h
  obtain ⟨p0, _, h⟩ := run_inv h
  have k : Same r.1 := by
    split at hr
    · obtain ⟨q, hq, hr⟩ := run_inv hr
      obtain rfl := Except.ok.inj hr
      exact mergeZ_same hs hq
    · obtain rfl := Except.ok.inj hr; exact hs
  obtain ⟨n, hn⟩ := k
  have k1 : Same s1 := ⟨n, (C50_kept c m r.1 s1 n hn h1).1⟩
  split at h
  · obtain ⟨p, _, h⟩ := run_inv h
    exact mergeBelow_same k1 h
  · obtain rfl := Except.ok.inj h; exact k1

end

end Gempak
