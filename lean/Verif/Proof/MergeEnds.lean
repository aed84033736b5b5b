import Verif.Proof.MergeOrder
import Verif.Props.CalcHeight

/-!
# Merging: no step runs forever
-/

namespace Gempak

set_option linter.unusedSectionVars false

/-- The run does not go on forever. -/
def Ends {β : Type} (x : Run β) : Prop := x ≠ .error .outOfFuel

theorem ends_ok {β : Type} (b : β) : Ends (Except.ok b : Run β) := nofun

theorem ends_raised {β : Type} (e : PyErr) : Ends (Except.error (.raised e) : Run β) := nofun

theorem ends_unbound {β : Type} : Ends (Except.error .unbound : Run β) := nofun

theorem ends_bind {β γ : Type} {x : Run β} {f : β → Run γ} (h : Ends x) (hf : ∀ b, x = .ok b → Ends (f b)) : Ends (x >>= f) := by
  cases x with
  | ok b => exact hf b rfl
  | error e => intro h'; exact h (by cases h'; rfl)

theorem ends_of_ok {β : Type} {x : Run β} {b : β} (h : x = .ok b) : Ends x := by rw [h]; exact ends_ok b

section
variable {α : Type} [Field α] [LinearOrder α]

theorem ends_idx (l : List α) (i : Nat) : Ends (idx l i) := by
  unfold idx
  split
  · exact ends_ok _
  · exact ends_raised _

theorem ends_put (l : List α) (i : Nat) (v : α) : Ends (put l i v) := by
  unfold put
  split
  · exact ends_ok _
  · exact ends_raised _

theorem ends_get (ps : SndParts α) (n : String) : Ends (ps.get n) := by
  unfold SndParts.get
  split
  · exact ends_ok _
  · exact ends_raised _

theorem ends_col (p : SndPart α) (n : String) : Ends (p.col n) := by
  unfold SndPart.col
  split
  · exact ends_ok _
  · exact ends_raised _

theorem ends_at (p : SndPart α) (n : String) (i : Nat) : Ends (p.at n i) := by
  unfold SndPart.at
  exact ends_bind (ends_col _ _) fun _ _ => ends_idx _ _

theorem ends_lift {β : Type} (e : Except PyErr β) : Ends (lift e) := by
  unfold lift
  split
  · exact ends_ok _
  · exact ends_raised _

/-- Straight-line steps: each of them ends. -/
macro "ends" : tactic => `(tactic| repeat' first
  | exact ends_ok _ | exact ends_raised _ | exact ends_unbound | exact ends_idx _ _ | exact ends_put _ _ _ | exact ends_get _ _
  | exact ends_col _ _ | exact ends_at _ _ _ | exact ends_lift _ | assumption
  | (refine ends_bind ?_ fun _ _ => ?_) | split)

theorem ends_count (ps : SndParts α) (a b : String) : Ends (ps.count a b) := by
  unfold SndParts.count
  ends

theorem ends_counts (ps : SndParts α) : Ends ps.counts := by
  unfold SndParts.counts
  repeat' first | exact ends_ok _ | exact ends_count _ _ _ | (refine ends_bind ?_ fun _ _ => ?_)

theorem ends_windCoord (ps : SndParts α) (m : α) (a : String) (n : Nat) : Ends (windCoord ps m a n) := by
  unfold windCoord
  ends

theorem ends_surfaceLevel (ps : SndParts α) (m : α) (c : Counts) : Ends (surfaceLevel ps m c) := by
  unfold surfaceLevel
  ends

theorem ends_firstManP (m : α) (a b c : List α) : Ends (firstManP m a b c) := by
  fun_induction firstManP m a b c <;> first | exact ends_ok _ | exact ends_raised _ | assumption

theorem ends_surfaceCheck (m f : α) (s : Snd α) : Ends (surfaceCheck m f s) := by
  unfold surfaceCheck
  refine ends_bind (ends_idx _ _) fun _ _ => ?_
  dsimp only
  split <;> ends

theorem ends_surfaceSigT (ps : SndParts α) (m : α) (c : Counts) (s : Snd α) : Ends (surfaceSigT ps m c s) := by
  unfold surfaceSigT
  ends

theorem ends_surfaceSigW (b : Option (SndPart α)) (z : Bool) (m : α) (c : Counts) (s : Snd α) : Ends (surfaceSigW b z m c s) := by
  unfold surfaceSigW
  ends

theorem ends_appendNamed (s : Snd α) (n : String) (v : α) : Ends (appendNamed s n v) := by
  unfold appendNamed
  ends

theorem ends_appendLevel (i : Nat) (p : SndPart α) (s : Snd α) : Ends (appendLevel i p s) := by
  induction p generalizing s with
  | nil => exact ends_ok _
  | cons x r ih =>
    rw [appendLevel]
    exact ends_bind (ends_idx _ _) fun _ _ => ends_bind (ends_appendNamed _ _ _) fun _ _ => ih _

theorem ends_takesLevel (p : SndPart α) (m l : α) (i : Nat) : Ends (takesLevel p m l i) := by
  unfold takesLevel
  ends

theorem ends_mergeMan (p : SndPart α) (m : α) (N i : Nat) (s : Snd α) (l : α) (g : Nat) : Ends (mergeMan p m N i s l g) := by
  induction N generalizing i s l g with
  | zero => exact ends_ok _
  | succ N ih =>
    rw [mergeMan]
    refine ends_bind (ends_takesLevel _ _ _ _) fun _ _ => ?_
    split
    · refine ends_bind (ends_appendLevel _ _ _) fun _ _ => ends_bind (ends_idx _ _) fun _ _ => ih _ _ _ _
    · refine ends_bind (ends_at _ _ _) fun _ _ => ends_bind (ends_idx _ _) fun _ _ => ih _ _ _ _

theorem ends_setWind (m : α) (s : Snd α) (l : Nat) (r w : Run α) (hr : Ends r) (hw : Ends w) : Ends (setWind m s l r w) := by
  unfold setWind
  ends

theorem ends_mergeManWind (p : SndPart α) (m : α) (l : List α) (i : Nat) (s : Snd α) : Ends (mergeManWind p m l i s) := by
  induction l generalizing i s with
  | nil => exact ends_ok _
  | cons x r ih =>
    rw [mergeManWind]
    split
    · exact ends_bind (ends_setWind _ _ _ _ _ (ends_at _ _ _) (ends_at _ _ _)) fun _ _ => ih _ _
    · exact ih _ _

theorem ends_bottomOf (ps : SndParts α) (m : α) (n : String) (s : Snd α) : Ends (bottomOf ps m n s) := by
  unfold bottomOf
  ends

theorem ends_mergeOnPressure (m : α) {has : Nat → Run Bool} {pr : Nat → Snd α → Nat → Run (Snd α)} {fr : Nat → Snd α → α → Run (Snd α)}
    (h0 : ∀ i, Ends (has i)) (h1 : ∀ i s l, Ends (pr i s l)) (h2 : ∀ i s p, Ends (fr i s p)) (l : List α) (i : Nat) (s : Snd α) (pb : α) :
    Ends (mergeOnPressure m has pr fr l i s pb) := by
  induction l generalizing i s pb with
  | nil => exact ends_ok _
  | cons x r ih =>
    rw [mergeOnPressure]
    refine ends_bind ?_ fun _ _ => ?_
    · split
      · exact h0 _
      · exact ends_ok _
    · split
      · split
        · exact ih _ _ _
        · split
          · exact ends_bind (h1 _ _ _) fun _ _ => ih _ _ _
          · exact ends_bind (h2 _ _ _) fun _ _ => ih _ _ _
      · exact ih _ _ _

theorem ends_hasValue (p : SndPart α) (m : α) (k : String) (i : Nat) : Ends (hasValue p m k i) := by
  unfold hasValue
  ends

theorem ends_mergeTrop (p : SndPart α) (m : α) (s : Snd α) (pb : α) : Ends (mergeTrop p m s pb) := by
  unfold mergeTrop
  refine ends_bind (ends_col _ _) fun _ _ => ends_mergeOnPressure m (fun i => ends_hasValue _ _ _ _) (fun i s l => ?_) (fun i s l => ?_) _ _ _ _
  · unfold tropPresent
    refine ends_bind (ends_idx _ _) fun _ _ => ends_bind (by ends) fun _ _ =>
      ends_bind (ends_setWind _ _ _ _ _ (ends_at _ _ _) (ends_at _ _ _)) fun _ _ => ends_bind (ends_put _ _ _) fun _ _ => ends_ok _
  · unfold tropNew; ends

theorem ends_mergeSigT (p : SndPart α) (m : α) (s : Snd α) (pb : α) : Ends (mergeSigT p m s pb) := by
  unfold mergeSigT
  refine ends_bind (ends_col _ _) fun _ _ => ends_mergeOnPressure m (fun i => ends_hasValue _ _ _ _) (fun i s l => ?_) (fun i s l => ?_) _ _ _ _
  · unfold sigTPresent; ends
  · unfold sigTNew; ends

theorem ends_mergeWind (p : SndPart α) (m : α) (s : Snd α) (pb : α) : Ends (mergeWind p m s pb) := by
  unfold mergeWind
  refine ends_bind (ends_col _ _) fun _ _ => ends_mergeOnPressure m (fun i => ?_) (fun i s l => ?_) (fun i s l => ?_) _ _ _ _
  · unfold hasWind
    refine ends_bind (ends_at _ _ _) fun _ _ => ?_
    split
    · exact ends_hasValue _ _ _ _
    · exact ends_ok _
  · unfold windPresent; ends
  · unfold windNew; ends

theorem ends_windBottom (m : α) (s : Snd α) : Ends (windBottom m s) := by
  unfold windBottom
  ends

theorem ends_whenSome {β : Type} (n : Nat) (x : β) {f : Unit → Run β} (h : Ends (f ())) : Ends (whenSome n x f) := by
  unfold whenSome
  split
  · exact h
  · exact ends_ok _

theorem ends_mergePair (n1 n2 : Nat) {bot : Snd α → Run α} {f1 f2 : Snd α → α → Run (Snd α × α)} (h0 : ∀ s, Ends (bot s))
    (h1 : ∀ s p, Ends (f1 s p)) (h2 : ∀ s p, Ends (f2 s p)) (s : Snd α) : Ends (mergePair n1 n2 bot f1 f2 s) := by
  unfold mergePair
  split
  · exact ends_bind (h0 _) fun _ _ => ends_bind (ends_whenSome _ _ (h1 _ _)) fun _ _ => ends_bind (ends_whenSome _ _ (h2 _ _)) fun _ _ => ends_ok _
  · exact ends_ok _

theorem ends_withPart (ps : SndParts α) (n : String) {f : SndPart α → Snd α → α → Run (Snd α × α)} (h : ∀ p s b, Ends (f p s b)) (s : Snd α) (b : α) :
    Ends (withPart ps n f s b) := by
  unfold withPart
  exact ends_bind (ends_get _ _) fun _ _ => h _ _ _

theorem ends_withOpt (p : Option (SndPart α)) {f : SndPart α → Snd α → α → Run (Snd α × α)} (h : ∀ p s b, Ends (f p s b)) (s : Snd α) (b : α) :
    Ends (withOpt p f s b) := by
  unfold withOpt
  split
  · exact h _ _ _
  · exact ends_raised _

theorem ends_mergeMandatory (ps : SndParts α) (m : α) (c : Counts) (z : Bool) (b : Option (SndPart α)) : Ends (mergeMandatory ps m c z b) := by
  unfold mergeMandatory
  refine ends_bind (ends_surfaceLevel _ _ _) fun _ _ => ends_bind ?_ fun _ _ => ends_bind (ends_surfaceCheck _ _ _) fun _ _ =>
    ends_bind (ends_surfaceSigT _ _ _ _) fun _ _ => ends_bind (ends_surfaceSigW _ _ _ _ _) fun _ _ => ends_bind (ends_idx _ _) fun _ _ => ?_
  · exact ends_whenSome _ _ (ends_bind (ends_get _ _) fun _ _ => ends_bind (ends_col _ _) fun _ _ => ends_bind (ends_col _ _) fun _ _ =>
      ends_bind (ends_col _ _) fun _ _ => ends_firstManP _ _ _ _)
  dsimp only
  refine ends_bind (ends_whenSome _ _ (ends_bind (ends_get _ _) fun _ _ => ends_mergeMan _ _ _ _ _ _ _)) fun _ _ =>
    ends_bind (ends_whenSome _ _ (ends_bind (ends_get _ _) fun _ _ => ends_mergeMan _ _ _ _ _ _ _)) fun _ _ => ends_bind ?_ fun _ _ => ends_bind ?_ fun _ _ => ends_ok _
  all_goals
    split
    · exact ends_bind (ends_get _ _) fun _ _ => ends_bind (ends_col _ _) fun _ _ => ends_mergeManWind _ _ _ _ _
    · exact ends_ok _

/-! ## Winds on heights -/

theorem ends_zClimb (m : α) (s : Snd α) (h : α) (N : Nat) (v : ZVars α) (hN : v.more = true → v.size + 1 ≤ v.ilev + N ∧ 2 ≤ N) (hN0 : 0 < N) :
    Ends (zClimb m s h N v) := by
  induction N generalizing v with
  | zero => omega
  | succ N ih =>
    rw [zClimb]
    split
    · rename_i hc
      have := hN hc.1
      split
      · exact ih _ (fun h => by cases h) (by omega)
      · refine ends_bind (ends_idx _ _) fun z _ => ih _ (fun _ => ?_) (by omega)
        show v.size + 1 ≤ v.ilev + 1 + N ∧ 2 ≤ N
        omega
    · exact ends_ok _

theorem zClimb_size (m : α) (s : Snd α) (h : α) (N : Nat) (v v' : ZVars α) (e : zClimb m s h N v = .ok v') : v'.size = v.size := by
  induction N generalizing v with
  | zero => cases e
  | succ N ih =>
    rw [zClimb] at e
    split at e
    · split at e
      · have := ih _ e
        exact this
      · obtain ⟨z, _, e⟩ := run_inv e
        have := ih _ e
        exact this
    · obtain rfl := Except.ok.inj e; rfl

theorem ends_zPlace (m h d w : α) (s : Snd α) (v : ZVars α) (hv : 1 ≤ v.size) : Ends (zPlace m h d w s v) := by
  unfold zPlace
  split
  · exact ends_ok _
  · split
    · ends
    · split
      · exact ends_bind (ends_zClimb _ _ _ _ _ (fun _ => by omega) (by omega)) fun _ _ => ends_ok _
      · exact ends_ok _

theorem zPlace_size {m h d w : α} {s : Snd α} {v : ZVars α} {r : Snd α × ZVars α × Bool} (e : zPlace m h d w s v = .ok r) :
    r.2.1.size = v.size := by
  unfold zPlace at e
  split at e
  · obtain rfl := Except.ok.inj e; rfl
  · split at e
    · obtain ⟨_, _, e⟩ := run_inv e
      obtain ⟨_, _, e⟩ := run_inv e
      split at e
      · obtain ⟨_, _, e⟩ := run_inv e
        obtain ⟨_, _, e⟩ := run_inv e
        obtain rfl := Except.ok.inj e; rfl
      · obtain rfl := Except.ok.inj e; rfl
    · split at e
      · obtain ⟨v', e1, e⟩ := run_inv e
        obtain rfl := Except.ok.inj e
        exact zClimb_size _ _ _ _ _ _ e1
      · obtain rfl := Except.ok.inj e; rfl

theorem ends_zWind (m : α) (p : SndPart α) (i : Nat) (s : Snd α) (v : ZVars α) (hv : 1 ≤ v.size) : Ends (zWind m p i s v) := by
  unfold zWind
  refine ends_bind (ends_at _ _ _) fun _ _ => ends_bind (ends_at _ _ _) fun _ _ => ends_bind (ends_at _ _ _) fun _ _ =>
    ends_bind (ends_zPlace _ _ _ _ _ _ hv) fun _ _ => ?_
  split
  · unfold zStore
    ends
  · exact ends_ok _

theorem zWind_size {m : α} {p : SndPart α} {i : Nat} {s : Snd α} {v : ZVars α} {r : Snd α × ZVars α} (e : zWind m p i s v = .ok r) :
    v.size ≤ r.2.size := by
  unfold zWind at e
  obtain ⟨_, _, e⟩ := run_inv e
  obtain ⟨_, _, e⟩ := run_inv e
  obtain ⟨_, _, e⟩ := run_inv e
  obtain ⟨q, e1, e⟩ := run_inv e
  have h1 := zPlace_size e1
  split at e
  · unfold zStore at e
    split at e
    · obtain ⟨_, _, e⟩ := run_inv e
      obtain ⟨_, _, e⟩ := run_inv e
      split at e
      · obtain ⟨_, _, e⟩ := run_inv e
        obtain ⟨_, _, e⟩ := run_inv e
        obtain rfl := Except.ok.inj e; exact h1.ge
      · obtain rfl := Except.ok.inj e; exact h1.ge
    · obtain rfl := Except.ok.inj e
      show v.size ≤ q.2.1.size + 1
      omega
  · obtain rfl := Except.ok.inj e; exact h1.ge

theorem ends_zLoop (m : α) (b d : Option (SndPart α)) (x y N : Nat) (above : Bool) (i e : Nat) (s : Snd α) (v : ZVars α)
    (hv : v.more = true → 1 ≤ v.size) (h1 : above = true → e - i + 1 ≤ N) (h2 : above = false → e = x ∧ e - i + y + 1 ≤ N) :
    Ends (zLoop m b d x y N above i e s v) := by
  induction N generalizing above i e s v with
  | zero =>
    cases above with
    | true => have := h1 rfl; omega
    | false => have := h2 rfl; omega
  | succ N ih =>
    rw [zLoop]
    split
    · rename_i hc
      have hsz := hv hc.1
      split
      · exact ends_raised _
      · refine ends_bind (ends_zWind _ _ _ _ _ hsz) fun r hr => ?_
        have hr' := zWind_size hr
        split
        · rename_i ha
          refine ih _ _ _ _ _ (fun _ => by omega) (fun _ => ?_) (fun h => by cases h)
          have := h2 (by simpa using ha.1)
          omega
        · rename_i ha
          refine ih _ _ _ _ _ (fun _ => by omega) (fun h => ?_) (fun h => ?_)
          · have := h1 h; omega
          · have := h2 h; omega
    · exact ends_ok _

theorem ends_fillPressure (c : Calc α) (m pb zb pt zt : α) (N j : Nat) (s : Snd α) : Ends (fillPressure c m pb zb pt zt N j s) := by
  induction N generalizing j s with
  | zero => exact ends_ok _
  | succ N ih =>
    rw [fillPressure]
    refine ends_bind (ends_idx _ _) fun _ _ => ?_
    split
    · exact ends_bind (ends_put _ _ _) fun _ _ => ih _ _
    · exact ih _ _

theorem ends_pressureLoop (c : Calc α) (m : α) (N j : Nat) (s : Snd α) (v : PresVars α) : Ends (pressureLoop c m N j s v) := by
  induction N generalizing j s v with
  | zero => exact ends_ok _
  | succ N ih =>
    rw [pressureLoop]
    refine ends_bind (ends_idx _ _) fun _ _ => ends_bind (ends_idx _ _) fun _ _ => ends_bind ?_ fun _ _ => ih _ _ _
    unfold fillBetween
    split
    · exact ends_fillPressure _ _ _ _ _ _ _ _ _
    · exact ends_ok _

theorem ends_mergeZ (c : Calc α) (m : α) (b d : Option (SndPart α)) (x y : Nat) (s : Snd α) : Ends (mergeZ c m b d x y s) := by
  unfold mergeZ
  refine ends_bind ?_ fun i hi => ends_bind ?_ fun v hv => ends_bind ?_ fun r _ => ends_bind (ends_pressureLoop _ _ _ _ _ _) fun _ _ => ends_ok _
  · unfold zFirst
    ends
  · unfold zStart
    refine ends_bind (ends_idx _ _) fun _ _ => ends_bind (ends_idx _ _) fun _ _ => ends_bind ?_ fun _ _ => ends_ok _
    ends
  · have hsz : v.more = true → 1 ≤ v.size := by
      unfold zStart at hv
      obtain ⟨_, _, hv⟩ := run_inv hv
      obtain ⟨_, _, hv⟩ := run_inv hv
      obtain ⟨w, hw, hv⟩ := run_inv hv
      have h1 : w.more = true → 1 ≤ w.size := by
        split at hw
        · rename_i hc
          obtain ⟨_, _, hw⟩ := run_inv hw
          obtain ⟨_, _, hw⟩ := run_inv hw
          obtain rfl := Except.ok.inj hw
          intro _; show 1 ≤ s.hght.length; omega
        · split at hw
          · obtain ⟨_, _, hw⟩ := run_inv hw
            obtain ⟨_, _, hw⟩ := run_inv hw
            obtain rfl := Except.ok.inj hw
            intro _; show 1 ≤ s.hght.length; omega
          · obtain rfl := Except.ok.inj hw
            intro h; cases h
      obtain rfl := Except.ok.inj hv
      split
      · intro h; cases h
      · exact h1
    split
    · rename_i hle
      exact ends_zLoop _ _ _ _ _ _ _ _ _ _ _ hsz (fun h => by cases h) (fun _ => ⟨rfl, by omega⟩)
    · exact ends_zLoop _ _ _ _ _ _ _ _ _ _ _ hsz (fun _ => by omega) (fun h => by cases h)

/-! ## Missing data and below the ground -/

theorem ends_findAbove (col : List α) (m : α) (n N k : Nat) (h : n ≤ k + N) (hN : 0 < N) : Ends (findAbove col m n N k) := by
  induction N generalizing k with
  | zero => omega
  | succ N ih =>
    rw [findAbove]
    refine ends_bind (ends_idx _ _) fun _ _ => ?_
    split
    · exact ends_ok _
    · split
      · exact ends_ok _
      · exact ih _ (by omega) (by omega)

theorem ends_missingLoop [FloorRing α] (c : Calc α) (r : Recipe) (m : α) (n N i k : Nat) (s : Snd α) (hn : N = 0 ∨ 0 < n) :
    Ends (missingLoop c r m n N i k s) := by
  induction N generalizing i k s with
  | zero => exact ends_ok _
  | succ N ih =>
    rw [missingLoop]
    refine ends_bind (ends_idx _ _) fun _ _ => ?_
    split
    · refine ends_bind ?_ fun _ _ => ends_bind ?_ fun _ _ => ends_bind ?_ fun _ _ => ?_
      · unfold levelAbove
        split
        · refine ends_bind (ends_findAbove _ _ _ _ _ (by omega) (by omega)) fun _ _ => ?_
          split <;> exact ends_ok _
        · exact ends_ok _
      · unfold crossTest
        ends
      · unfold fillMissing
        split
        · refine ends_bind ?_ fun _ _ => ends_bind ?_ fun _ _ => ends_bind (ends_idx _ _) fun _ _ => ends_bind (ends_lift _) fun _ _ => ?_
          · unfold levelAt; ends
          · unfold levelAt; ends
          · unfold storeLevel; ends
        · exact ends_ok _
      · split
        · exact ih _ _ _ (by omega)
        · exact ends_ok _
    · exact ih _ _ _ (by omega)

theorem ends_missing [FloorRing α] (c : Calc α) (m : α) (s : Snd α) : Ends (interpMissingData c m s) := by
  unfold interpMissingData
  refine ends_bind (ends_missingLoop _ _ _ _ _ _ _ _ (by omega)) fun _ _ => ends_bind (ends_missingLoop _ _ _ _ _ _ _ _ (by omega)) fun _ _ =>
    ends_missingLoop _ _ _ _ _ _ _ _ (by omega)

theorem ends_mergeBelow (p : SndPart α) (N i : Nat) (s : Snd α) (k : Option Nat) : Ends (mergeBelow p N i s k) := by
  induction N generalizing i s k with
  | zero => exact ends_ok _
  | succ N ih =>
    rw [mergeBelow]
    refine ends_bind (ends_at _ _ _) fun _ _ => ends_bind (ends_idx _ _) fun _ _ => ?_
    split
    · split
      · exact ends_unbound
      · exact ends_bind (ends_at _ _ _) fun _ _ => ends_bind (ends_at _ _ _) fun _ _ => ends_bind (ends_at _ _ _) fun _ _ =>
          ends_bind (ends_at _ _ _) fun _ _ => ends_bind (ends_at _ _ _) fun _ _ => ih _ _ _
    · exact ih _ _ _

theorem ends_mergeRest [FloorRing α] (c : Calc α) (m : α) (ps : SndParts α) (n : Counts) (x y : Bool) (b d : Option (SndPart α)) (g : Nat)
    (s0 s : Snd α) : Ends (mergeRest c m ps n x y b d g s0 s) := by
  unfold mergeRest
  refine ends_bind ?_ fun _ _ => ends_bind (ends_missing _ _ _) fun _ _ => ends_bind (ends_idx _ _) fun _ _ => ?_
  · split
    · exact ends_bind (ends_mergeZ _ _ _ _ _ _ _) fun _ _ => ends_ok _
    · exact ends_ok _
  · split
    · exact ends_bind (ends_get _ _) fun _ _ => ends_mergeBelow _ _ _ _ _
    · exact ends_ok _

/-! ## Heights -/

theorem idx_val {l : List α} {i : Nat} {v : α} (m : α) (h : idx l i = .ok v) : v = l.getD i m := by
  unfold idx at h
  split at h
  · rename_i w hw
    obtain rfl := Except.ok.inj h
    rw [List.getD_eq_getElem?_getD, hw]; rfl
  · cases h

theorem put_val {l l' : List α} {i : Nat} {v : α} (h : put l i v = .ok l') : i < l.length ∧ l' = l.set i v := by
  unfold put at h
  split at h
  · rename_i hi; exact ⟨hi, (Except.ok.inj h).symm⟩
  · cases h

theorem getD_set_same (l : List α) (i : Nat) (v m : α) (h : i < l.length) : (l.set i v).getD i m = v := by
  rw [List.getD_eq_getElem?_getD, List.getElem?_set_self h]; rfl

theorem ends_heightStep (c : Calc α) (m : α) (n k fuel i t : Nat) (s : Snd α) (v : BotTop α) (hsp : s.pres.length = n)
    (hsz : s.hght.length = n) (hfall : ∀ i j, k ≤ i → i < j → j < n → s.pres.getD j m < s.pres.getD i m) (hb : v.bot ≠ none → k ≤ i) (hit : i < t) (htn : t < n)
    (ht : s.hght.getD t m ≠ m) (hf : n ≤ fuel) : Ends (heightStep c m fuel i s v) := by
  unfold heightStep
  rw [idx_ok (by rw [hsp]; omega) m, ok_bind, idx_ok (by rw [hsz]; omega) m, ok_bind]
  split
  · exact ends_ok _
  · split
    · exact ends_ok _
    · split
      · exact ends_ok _
      · rename_i pb zb pt e
        have hk := hb (by rw [e]; exact fun h => by cases h)
        obtain ⟨b, b1, b2, b3, b4⟩ := nearest_above s.hght m i t hit ht
        refine ends_bind ?_ fun q _ => ?_
        · by_cases hp : s.pres.getD i m ≤ pt
          · exact ends_of_ok (findTop_spec s m _ n b hsz hsp (by omega) b3 (hfall i b hk b1 (by omega)) fuel (i + 1) pt v.ztop (by omega) (by omega)
              (fun j h1 h2 => b4 j (by omega) h2) hp)
          · exact ends_of_ok (findTop_stop _ _ _ _ _ _ _ hp)
        · split
          · exact ends_unbound
          · ends

theorem heightStep_keeps {c : Calc α} {m : α} {fuel i : Nat} {s : Snd α} {v : BotTop α} {r : Snd α × BotTop α}
    (h : heightStep c m fuel i s v = .ok r) : r.1.pres = s.pres ∧ r.1.hght.length = s.hght.length ∧ (∀ j, i < j → r.1.hght.getD j m = s.hght.getD j m) ∧
      (r.2.bot ≠ none → v.bot ≠ none ∨ s.hght.getD i m ≠ m ∧ s.pres.getD i m ≠ m) := by
  refine ⟨?_, ?_, ?_, ?_⟩ <;>
  · unfold heightStep at h
    obtain ⟨p, hp, h⟩ := run_inv h
    obtain ⟨z, hz, h⟩ := run_inv h
    have ez : z = s.hght.getD i m := idx_val m hz
    have ep : p = s.pres.getD i m := idx_val m hp
    split at h
    · obtain rfl := Except.ok.inj h
      first | rfl | exact fun _ _ => rfl | exact fun h => Or.inl h
    · rename_i hpm
      split at h
      · rename_i hm
        obtain rfl := Except.ok.inj h
        first | rfl | exact fun _ _ => rfl | exact fun _ => Or.inr ⟨ez ▸ hm, ep ▸ hpm⟩
      · split at h
        · obtain rfl := Except.ok.inj h
          first | rfl | exact fun _ _ => rfl | exact fun h => Or.inl h
        · rename_i e
          obtain ⟨q, _, h⟩ := run_inv h
          split at h
          · cases h
          · obtain ⟨hh, hp, h⟩ := run_inv h
            obtain rfl := Except.ok.inj h
            first
              | rfl
              | exact put_len hp
              | exact fun _ => Or.inl (by rw [e]; exact fun h => by cases h)
              | (intro j hj
                 unfold put at hp
                 split at hp
                 · obtain rfl := Except.ok.inj hp
                   show (s.hght.set i _).getD j m = _
                   rw [List.getD_eq_getElem?_getD, List.getD_eq_getElem?_getD, List.getElem?_set_ne (by omega)]
                 · cases hp)

theorem ends_heightLoop (c : Calc α) (m : α) (n k fuel t N i : Nat) (s : Snd α) (v : BotTop α) (hsp : s.pres.length = n)
    (hsz : s.hght.length = n) (hfall : ∀ i j, k ≤ i → i < j → j < n → s.pres.getD j m < s.pres.getD i m) (hz : ∀ j, i ≤ j → j < k → s.hght.getD j m = m ∨ s.pres.getD j m = m)
    (hb : v.bot ≠ none → k ≤ i) (hN : i + N = t) (htn : t < n) (ht : s.hght.getD t m ≠ m) (hf : n ≤ fuel) :
    Ends (heightLoop c m fuel N i s v) := by
  induction N generalizing i s v with
  | zero => exact ends_ok _
  | succ N ih =>
    rw [heightLoop]
    refine ends_bind (ends_heightStep c m n k fuel i t s v hsp hsz hfall hb (by omega) htn ht hf) fun r hr => ?_
    obtain ⟨h1, h2, h3, h4⟩ := heightStep_keeps hr
    refine ih (i + 1) r.1 r.2 (by rw [h1]; exact hsp) (h2.trans hsz) (by rw [h1]; exact hfall)
      (fun j a b => by rw [h3 j (by omega), h1]; exact hz j (by omega) b) ?_ (by omega)
      (by rw [h3 t (by omega)]; exact ht)
    intro hne
    rcases h4 hne with e | e
    · have := hb e; omega
    · by_contra hc
      rcases hz i (le_refl _) (by omega) with h | h
      · exact e.1 h
      · exact e.2 h

theorem ends_extendLoop (c : Calc α) (m d : α) (N i : Nat) (s : Snd α) (b : Layer α) : Ends (extendLoop c m d N i s b) := by
  induction N generalizing i s b with
  | zero => exact ends_ok _
  | succ N ih =>
    rw [extendLoop]
    refine ends_bind (ends_idx _ _) fun _ _ => ends_bind ?_ fun _ _ => ends_bind (ends_idx _ _) fun _ _ => ends_bind (ends_idx _ _) fun _ _ => ?_
    · unfold extendStep
      ends
    · split
      · exact ends_bind (ends_idx _ _) fun _ _ => ends_bind (ends_idx _ _) fun _ _ => ih _ _ _
      · exact ih _ _ _

/-- The second height interpolation ends on every sounding ordered as the merge leaves it. -/
theorem ends_logpHeight (c : Calc α) (m : α) (s : Snd α) (h : Ordered s m) (fuel : Nat) (hf : s.pres.length ≤ fuel) : Ends (interpLogpHeight c m fuel s) := by
  obtain ⟨n, k, h⟩ := h
  rw [h.pres] at hf
  unfold interpLogpHeight
  split
  · exact ends_raised _
  · rename_i h0
    rw [h.hght] at h0
    dsimp only
    rcases lastHeight_spec s.hght m n (n - 1) h.hght (by omega) with ⟨t, e, t1, t2, t3, _⟩ | ⟨e, _⟩
    · rw [h.hght, e]
      dsimp only
      refine ends_bind (ends_heightLoop c m n k fuel t t 0 s _ h.pres h.hght h.falls (fun j _ hj => h.blank j hj) (fun hc => absurd rfl hc) (by omega)
        (by omega) t3 hf) fun s1 h1 => ?_
      split
      · refine ends_bind (ends_idx _ _) fun _ _ => ends_bind (ends_idx _ _) fun _ _ => ends_bind (ends_idx _ _) fun _ _ =>
          ends_bind (ends_idx _ _) fun _ _ => ends_extendLoop _ _ _ _ _ _ _
      · exact ends_ok _
    · rw [h.hght, e]
      dsimp only
      exact ends_extendLoop _ _ _ _ _ _ _

/-! ## Heights by the hypsometric equation -/

theorem ends_firstFull (s : Snd α) (m : α) (N i : Nat) : Ends (firstFull s m N i) := by
  induction N generalizing i with
  | zero => exact ends_ok _
  | succ N ih =>
    rw [firstFull]
    refine ends_bind (ends_idx _ _) fun _ _ => ?_
    split
    · refine ends_bind (ends_idx _ _) fun _ _ => ?_
      split
      · refine ends_bind (ends_idx _ _) fun _ _ => ?_
        split
        · exact ends_ok _
        · exact ih _
      · exact ih _
    · exact ih _

theorem firstFull_found {s : Snd α} {m : α} {N i k : Nat} (h : firstFull s m N i = .ok (some k)) :
    i ≤ k ∧ k < i + N ∧ s.hght.getD k m ≠ m ∧ s.pres.getD k m ≠ m := by
  induction N generalizing i with
  | zero => cases h
  | succ N ih =>
    have next : ∀ {i}, firstFull s m N (i + 1) = .ok (some k) → i ≤ k ∧ k < i + (N + 1) ∧ s.hght.getD k m ≠ m ∧ s.pres.getD k m ≠ m := by
      intro i h
      obtain ⟨h1, h2, h3⟩ := ih h
      exact ⟨by omega, by omega, h3⟩
    rw [firstFull] at h
    obtain ⟨p, hp, h⟩ := run_inv h
    split at h
    · rename_i hpm
      obtain ⟨_, _, h⟩ := run_inv h
      split at h
      · obtain ⟨z, hz, h⟩ := run_inv h
        split at h
        · rename_i hne
          obtain rfl := Option.some.inj (Except.ok.inj h)
          exact ⟨le_refl _, by omega, by rw [← idx_val m hz]; exact hne, by rw [← idx_val m hp]; exact hpm⟩
        · exact next h
      · exact next h
    · exact next h

theorem ends_moistScan (c : Calc α) (s : Snd α) (m pi ti : α) (N j : Nat) (b : Layer α) (hl : List α) : Ends (moistScan c s m pi ti N j b hl) := by
  induction N generalizing j b hl with
  | zero => exact ends_ok _
  | succ N ih =>
    rw [moistScan]
    refine ends_bind (ends_idx _ _) fun _ _ => ends_bind (ends_idx _ _) fun _ _ => ends_bind (ends_idx _ _) fun _ _ => ends_bind (ends_idx _ _) fun _ _ => ?_
    dsimp only
    refine ends_bind (ends_put _ _ _) fun _ _ => ?_
    split
    · exact ends_ok _
    · exact ih _ _ _

theorem moistScan_found {c : Calc α} {s : Snd α} {m pi ti : α} {N j : Nat} {b : Layer α} {hl : List α} {r : MoistScan α}
    (h : moistScan c s m pi ti N j b hl = .ok r) : ∀ x, r.found = some x → j ≤ x.1 ∧ x.1 < j + N := by
  induction N generalizing j b hl with
  | zero => obtain rfl := Except.ok.inj h; intro x hx; cases hx
  | succ N ih =>
    rw [moistScan] at h
    obtain ⟨_, _, h⟩ := run_inv h
    obtain ⟨_, _, h⟩ := run_inv h
    obtain ⟨_, _, h⟩ := run_inv h
    obtain ⟨_, _, h⟩ := run_inv h
    dsimp only at h
    obtain ⟨_, _, h⟩ := run_inv h
    split at h
    · obtain rfl := Except.ok.inj h
      intro x hx
      obtain rfl := Option.some.inj hx
      exact ⟨le_refl _, by dsimp only; omega⟩
    · intro x hx
      obtain ⟨h1, h2⟩ := ih h x hx
      exact ⟨by omega, by omega⟩

theorem ends_scaleList (f : α) (N h : Nat) (hl : List α) : Ends (scaleList f N h hl) := by
  induction N generalizing h hl with
  | zero => exact ends_ok _
  | succ N ih =>
    rw [scaleList]
    exact ends_bind (ends_idx _ _) fun _ _ => ends_bind (ends_put _ _ _) fun _ _ => ih _ _

theorem ends_storeHeights (c : Calc α) (d : α) (hl : List α) (N i : Nat) (hb pb : α) (s : Snd α) : Ends (storeHeights c d hl N i hb pb s) := by
  induction N generalizing i hb pb s with
  | zero => exact ends_ok _
  | succ N ih =>
    rw [storeHeights]
    exact ends_bind (ends_idx _ _) fun _ _ => ends_bind (ends_idx _ _) fun _ _ => ends_bind (ends_put _ _ _) fun _ _ => ih _ _ _ _

theorem storeHeights_keeps {c : Calc α} {d m : α} {hl : List α} {N i : Nat} {hb pb : α} {s s' : Snd α} (h : storeHeights c d hl N i hb pb s = .ok s') :
    s'.pres = s.pres ∧ s'.hght.length = s.hght.length ∧ ∀ j, j < i → s'.hght.getD j m = s.hght.getD j m := by
  induction N generalizing i hb pb s with
  | zero => obtain rfl := Except.ok.inj h; exact ⟨rfl, rfl, fun _ _ => rfl⟩
  | succ N ih =>
    rw [storeHeights] at h
    obtain ⟨_, _, h⟩ := run_inv h
    obtain ⟨_, _, h⟩ := run_inv h
    obtain ⟨hh, hp, h⟩ := run_inv h
    obtain ⟨h1, h2, h3⟩ := ih h
    obtain ⟨_, rfl⟩ := put_val hp
    refine ⟨h1, h2.trans (by simp), fun j hj => (h3 j (by omega)).trans ?_⟩
    show (s.hght.set i _).getD j m = _
    rw [List.getD_eq_getElem?_getD, List.getD_eq_getElem?_getD, List.getElem?_set_ne (by omega)]

theorem ends_moistStep (c : Calc α) (m : α) (s : Snd α) (hl : List α) (i : Nat) : Ends (moistStep c m s hl i) := by
  unfold moistStep
  refine ends_bind (ends_idx _ _) fun _ _ => ends_bind (ends_idx _ _) fun _ _ => ends_bind (ends_idx _ _) fun _ _ => ends_bind (ends_idx _ _) fun _ _ =>
    ends_bind (ends_moistScan _ _ _ _ _ _ _ _ _) fun _ _ => ends_bind ?_ fun _ _ => ends_bind (ends_storeHeights _ _ _ _ _ _ _ _) fun _ _ => ends_ok _
  unfold rescale
  split
  · exact ends_scaleList _ _ _ _
  · exact ends_ok _

theorem moistStep_keeps {c : Calc α} {m : α} {s : Snd α} {hl : List α} {i : Nat} {r : Snd α × List α × Option Nat} (h : moistStep c m s hl i = .ok r) :
    r.1.pres = s.pres ∧ r.1.hght.length = s.hght.length ∧ (∀ j, j ≤ i → r.1.hght.getD j m = s.hght.getD j m) ∧
      ∀ k, r.2.2 = some k → i < k ∧ k < s.pres.length := by
  unfold moistStep at h
  obtain ⟨_, _, h⟩ := run_inv h
  obtain ⟨_, _, h⟩ := run_inv h
  obtain ⟨_, _, h⟩ := run_inv h
  obtain ⟨_, _, h⟩ := run_inv h
  obtain ⟨q, hq, h⟩ := run_inv h
  obtain ⟨_, _, h⟩ := run_inv h
  obtain ⟨s1, hs, h⟩ := run_inv h
  obtain rfl := Except.ok.inj h
  obtain ⟨h1, h2, h3⟩ := storeHeights_keeps (m := m) hs
  refine ⟨h1, h2, fun j hj => h3 j (by omega), fun k hk => ?_⟩
  cases e : q.found with
  | none => dsimp only at hk; rw [e] at hk; cases hk
  | some x =>
    dsimp only at hk
    rw [e] at hk
    obtain rfl := Option.some.inj hk
    have := moistScan_found hq x e
    omega

theorem ends_moistLoop (c : Calc α) (m : α) (fuel i : Nat) (hl : List α) (s : Snd α) (hi : i < s.pres.length) (hf : s.pres.length ≤ i + fuel) :
    Ends (moistLoop c m fuel i hl s) := by
  induction fuel generalizing i s hl with
  | zero => omega
  | succ fuel ih =>
    rw [moistLoop]
    refine ends_bind (ends_moistStep _ _ _ _ _) fun r hr => ?_
    obtain ⟨h1, _, _, h4⟩ := moistStep_keeps hr
    split
    · rename_i k e
      obtain ⟨k1, k2⟩ := h4 k e
      exact ih k _ _ (by rw [h1]; exact k2) (by rw [h1]; omega)
    · exact ends_ok _

theorem moistLoop_keeps {c : Calc α} {m : α} {fuel i : Nat} {hl : List α} {s s' : Snd α} (h : moistLoop c m fuel i hl s = .ok s') :
    s'.pres = s.pres ∧ s'.hght.length = s.hght.length ∧ ∀ j, j ≤ i → s'.hght.getD j m = s.hght.getD j m := by
  induction fuel generalizing i s hl with
  | zero => cases h
  | succ fuel ih =>
    rw [moistLoop] at h
    obtain ⟨r, hr, h⟩ := run_inv h
    obtain ⟨h1, h2, h3, h4⟩ := moistStep_keeps hr
    split at h
    · rename_i k e
      obtain ⟨k1, _⟩ := h4 k e
      obtain ⟨g1, g2, g3⟩ := ih h
      exact ⟨g1.trans h1, g2.trans h2, fun j hj => (g3 j (by omega)).trans (h3 j hj)⟩
    · obtain rfl := Except.ok.inj h
      exact ⟨h1, h2, h3⟩

/-- The first height interpolation ends on every sounding. -/
theorem ends_moist (c : Calc α) (m : α) (fuel : Nat) (s : Snd α) (hf : s.pres.length ≤ fuel) : Ends (interpMoistHeight c m fuel s) := by
  unfold interpMoistHeight
  refine ends_bind (ends_firstFull _ _ _ _) fun o ho => ?_
  split
  · exact ends_ok _
  · rename_i k
    obtain ⟨_, h2, _⟩ := firstFull_found ho
    exact ends_moistLoop _ _ _ _ _ _ (by omega) (by omega)

theorem moist_order {c : Calc α} {m : α} {fuel : Nat} {s s' : Snd α} (ho : Ordered s m) (h : interpMoistHeight c m fuel s = .ok s') :
    Ordered s' m := by
  unfold interpMoistHeight at h
  obtain ⟨o, ho', h⟩ := run_inv h
  split at h
  · obtain rfl := Except.ok.inj h; exact ho
  · rename_i k
    obtain ⟨_, _, h3, h4⟩ := firstFull_found ho'
    obtain ⟨n, q, ho⟩ := ho
    obtain ⟨g1, g2, g3⟩ := moistLoop_keeps (m := m) h
    have hq : q ≤ k := by
      by_contra hc
      rcases ho.blank k (by omega) with e | e
      · exact h3 e
      · exact h4 e
    exact ⟨n, q, by rw [g1]; exact ho.pres, g2.trans ho.hght, ho.le, by rw [g1]; exact ho.falls, by rw [g1]; exact ho.gap,
      fun j hj => by rw [g3 j (by omega), g1]; exact ho.blank j hj⟩

end

end Gempak
