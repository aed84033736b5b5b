import Verif.Proof.VgfBodies
import Verif.Props.VgfEnds

/-!
# Any vector graphic file: its elements have the values of its bytes (C85)

Nothing is assumed about where the file comes from.
-/

namespace Gempak
open Spec (bytesAt vals shown singlesAt wordsAt textsAt pointsAt Place wordAt byteAt)
variable {ν : Type}

/-- The header reader gives what is stored in the header. -/
theorem header_at (env : VgEnv ν) {b b' : IOBuffer} {pre t : Bytes} (hb : On b pre t 0) {h : DHdr ν}
    (hr : readHeader env b = .ok (h, b')) : h = Spec.headAt env t ∧ On b' pre t 40 ∧ 40 ≤ t.length := by
  unfold readHeader at hr
  obtain ⟨r, b1, h1, hr⟩ := rd_inv hr
  have hlen := hb.data_length
  have h40 : 40 ≤ t.length := by
    have e := readHead_eq env b
    rw [h1] at e
    by_contra hlt
    have hu : Gempak.unpackFrom .big headFmts b.data b.offset = .error .structError := by
      unfold Gempak.unpackFrom
      have h2 : fmtSize headFmts = 40 := rfl
      dsimp only
      rcases hb.pos with hp | ⟨hp1, hp2⟩
      · rw [if_neg (by omega), if_neg (by omega)]
      · rw [if_neg (by omega), if_neg (by omega)]
    rw [hu] at e
    cases e
  obtain ⟨e1, o1⟩ := on_rec env .big vgfHeaderInfo (wellFormed_info env _ rfl) (by decide) (by decide) hb h1
  have o1 := o1.cast (show _ = 40 by decide)
  have hinj : r = [("delete", .int (byteAt t 0)), ("vg_type", .int (byteAt t 1)), ("vg_class", .int (byteAt t 2)),
      ("filled", .int (if byteAt t 3 < 128 then (byteAt t 3 : Int) else (byteAt t 3 : Int) - 256)),
      ("closed", .int (byteAt t 4)), ("smooth", .int (byteAt t 5)),
      ("version", .int (byteAt t 6)), ("group_type", .int (byteAt t 7)), ("group_number", .int (wordAt t 8)),
      ("major_color", .int (wordAt t 12)), ("minor_color", .int (wordAt t 16)), ("record_size", .int (wordAt t 20)),
      ("min_lat", .num (env.scalar 2 (Spec.singleAt t 24))), ("min_lon", .num (env.scalar 2 (Spec.singleAt t 28))),
      ("max_lat", .num (env.scalar 2 (Spec.singleAt t 32))), ("max_lon", .num (env.scalar 2 (Spec.singleAt t 36)))] :=
    shown_inj e1
  subst hinj
  have hr := Prod.mk.inj (Except.ok.inj hr)
  obtain ⟨hr1, hr2⟩ := hr
  subst hr2
  exact ⟨hr1.symm, o1, h40⟩

/-- A header is refused exactly if it is bad. -/
theorem invalid_iff (env : VgEnv ν) (n : Nat) (t : Bytes) :
    invalidHeader n (Spec.headAt env t) = true ↔ Spec.BadRecord n t := by
  unfold invalidHeader validType validClass Spec.BadRecord Spec.headAt
  simp only [Bool.or_eq_true, decide_eq_true_eq, Bool.not_eq_true', decide_eq_false_iff_not]
  omega

/-- The body of a record. -/
theorem record_body (env : VgEnv ν) {b : IOBuffer} {pre t : Bytes} (hb : On b pre t 40) (hreg : Spec.Regular t)
    (hnf : ¬ (byteAt t 2 = 0 ∧ byteAt t 1 = 22)) :
    Reads b pre t (decodeBody env (Spec.headAt env t)) (Spec.contentAt env t) := by
  have hsz : (Spec.headAt env t).recordSize = wordAt t 20 := rfl
  have hclo : (Spec.headAt env t).closed = byteAt t 4 := rfl
  have hver : (Spec.headAt env t).version = byteAt t 6 := rfl
  have hcl : (Spec.headAt env t).vgClass = byteAt t 2 := rfl
  have hty : (Spec.headAt env t).vgType = byteAt t 1 := rfl
  generalize hg : Spec.headAt env t = hd at *
  clear hg
  have hskip : 40 ≤ wordAt t 20 → Reads b pre t (skipData hd) (Spec.skippedAt t) := fun h => reads_skip hb hsz h
  unfold Spec.contentAt
  unfold Spec.Regular at hreg
  dsimp only at hreg ⊢
  generalize hk : byteAt t 2 = k at *
  generalize hy : byteAt t 1 = y at *
  clear hk hy
  unfold decodeBody
  rw [hcl, hty]
  clear hcl hty
  have never : ∀ {x : Rd (Prod' ν)} {c : Spec.Content ν}, (∀ r, x b ≠ .ok r) → Reads b pre t x c :=
    fun h a b' ha => absurd ha (h _)
  have tcNever : ∀ (info : List DField) r, decodeTc env info b ≠ .ok r := by
    intro info r h
    unfold decodeTc at h
    obtain ⟨_, _, _, h⟩ := rd_inv h
    cases h
  have ey : (((y : Int) = 1) = (y = 1)) ∧
      (((y : Int) = 4) = (y = 4)) ∧
      (((y : Int) = 17) = (y = 17)) ∧
      (((y : Int) = 18) = (y = 18)) ∧
      (((y : Int) = 20) = (y = 20)) ∧
      (((y : Int) = 21) = (y = 21)) ∧
      (((y : Int) = 27) = (y = 27)) ∧
      (((y : Int) = 28) = (y = 28)) ∧
      (((y : Int) = 29) = (y = 29)) ∧
      (((y : Int) = 30) = (y = 30)) ∧
      (((y : Int) = 31) = (y = 31)) ∧
      (((y : Int) = 32) = (y = 32)) ∧
      (((y : Int) = 35) = (y = 35)) ∧
      (((y : Int) = 36) = (y = 36)) ∧
      (((y : Int) = 37) = (y = 37)) ∧
      (((y : Int) = 38) = (y = 38)) ∧
      (((y : Int) = 39) = (y = 39)) ∧
      (((y : Int) = 40) = (y = 40)) ∧
      (((y : Int) = 41) = (y = 41)) ∧
      (((y : Int) = 42) = (y = 42)) ∧
      (((y : Int) = 43) = (y = 43)) := by
    refine ⟨?_, ?_, ?_, ?_, ?_, ?_, ?_, ?_, ?_, ?_, ?_, ?_, ?_, ?_, ?_, ?_, ?_, ?_, ?_, ?_, ?_⟩ <;> exact propext (by omega)
  match k, hnf, hreg with
  | 0, hnf, hreg =>
    have hy : y ≠ 22 := fun h => hnf ⟨rfl, h⟩
    rw [if_neg hy] at hreg
    exact hskip hreg
  | 1, _, _ => exact reads_fronts env hb
  | 2, _, hreg => exact reads_watches env hb hver hreg.1 hreg.2
  | 3, _, hreg =>
    simp only [Nat.cast_ofNat, Int.reduceEq, if_true, if_false, ey]
    by_cases h1 : y = 1
    · rw [if_pos h1, if_pos h1]; exact reads_lines env hb hclo
    · rw [if_neg h1, if_neg h1]
      by_cases h2 : y = 20
      · rw [if_pos h2, if_pos h2]; exact reads_special_lines env hb hclo
      · rw [if_neg h2, if_neg h2]
        exact hskip (by rcases hreg with h | h | h <;> [exact absurd h h1; exact absurd h h2; exact h])
  | 4, _, _ => exact reads_symbols env hb
  | 5, _, hreg =>
    simp only [Nat.cast_ofNat, Int.reduceEq, if_true, if_false, ey]
    by_cases h1 : y = 17 ∨ y = 18
    · rw [if_pos h1] at hreg; rw [if_pos h1, if_pos h1]; exact reads_text env hb hsz hreg
    · rw [if_neg h1] at hreg; rw [if_neg h1, if_neg h1]
      by_cases h2 : y = 21
      · rw [if_pos h2] at hreg; rw [if_pos h2, if_pos h2]; exact reads_special_text env hb hsz hreg
      · rw [if_neg h2] at hreg; rw [if_neg h2, if_neg h2]; exact hskip hreg
  | 6, _, _ => exact reads_winds env hb
  | 7, _, hreg => exact hskip hreg
  | 8, _, hreg => exact hskip hreg
  | 9, _, hreg => exact hskip hreg
  | 10, _, hreg => exact reads_tracks env hb hreg
  | 11, _, hreg =>
    simp only [Nat.cast_ofNat, Int.reduceEq, if_true, if_false, ey, List.mem_cons,
      List.not_mem_nil, or_false]
    by_cases h1 : 27 ≤ y ∧ y ≤ 31
    · rw [if_pos h1] at hreg; rw [if_pos h1, if_pos (by omega)]
      by_cases hv : byteAt t 6 = 0
      · rw [if_pos hv]; exact reads_sigmet0 env hb (by rw [hver, hv]; rfl) hreg
      · rw [if_neg hv]
        by_cases hv1 : byteAt t 6 = 1
        · exact reads_sigmet1 env hb (by rw [hver, hv1]; rfl) hreg
        · refine never fun r h => ?_
          unfold decodeSigmet at h
          obtain ⟨_, _, h0, _⟩ := rd_inv h
          obtain ⟨h0', _⟩ := rd_pure_inv h0
          rw [if_neg (by omega), if_neg (by omega)] at h0'
          cases h0'
    · rw [if_neg h1] at hreg; rw [if_neg h1, if_neg (by omega)]
      by_cases h2 : y = 32
      · rw [if_pos h2] at hreg; rw [if_pos h2, if_pos h2]; exact reads_ccf env hb hreg
      · rw [if_neg h2] at hreg; rw [if_neg h2, if_neg h2]
        by_cases h3 : y = 35
        · rw [if_pos h3, if_pos h3]; exact reads_volcanoes env hb
        · rw [if_neg h3] at hreg; rw [if_neg h3, if_neg h3]
          by_cases h4 : y = 36
          · rw [if_pos h4] at hreg; rw [if_pos h4, if_pos h4]; exact reads_ash env hb hreg
          · rw [if_neg h4] at hreg; rw [if_neg h4, if_neg h4]; exact hskip hreg
  | 12, _, hreg =>
    simp only [Nat.cast_ofNat, Int.reduceEq, if_true, if_false, ey]
    by_cases h1 : y = 4
    · rw [if_pos h1, if_pos h1]; exact reads_circles env hb
    · rw [if_neg h1, if_neg h1]
      exact hskip (by rcases hreg with h | h <;> [exact absurd h h1; exact h])
  | 13, _, hreg => exact hskip hreg
  | 14, _, hreg => exact reads_lists env hb hreg
  | 15, _, hreg =>
    simp only [Nat.cast_ofNat, Int.reduceEq, if_true, if_false, ey]
    by_cases h1 : y = 38
    · rw [if_pos h1, if_neg (by omega), if_pos h1]; exact reads_gfa env hb
    · rw [if_neg h1]
      by_cases h2 : y = 37
      · rw [if_pos h2] at hreg; rw [if_pos h2, if_pos h2]; exact reads_jet env hb hreg
      · rw [if_neg h2, if_neg h1] at hreg; rw [if_neg h2, if_neg h2, if_neg h1]
        by_cases h3 : y = 39
        · rw [if_neg (show ¬ (40 ≤ y ∧ y ≤ 43) by omega)] at hreg; rw [if_pos h3, if_pos h3]; exact reads_tca env hb hsz hreg
        · rw [if_neg h3, if_neg h3]
          by_cases h4 : 40 ≤ y ∧ y ≤ 43
          · rw [if_pos h4]
            split
            · exact never (tcNever _)
            · split
              · exact never (tcNever _)
              · split
                · exact never (tcNever _)
                · rw [if_pos (by omega)]
                  exact never (sgwx_fails env b)
          · rw [if_neg h4] at hreg
            rw [if_neg h4, if_neg (by omega), if_neg (by omega), if_neg (by omega), if_neg (by omega)]
            exact hskip hreg
  | k + 16, _, hreg =>
    rw [if_neg (by omega), if_neg (by omega), if_neg (by omega), if_neg (by omega), if_neg (by omega), if_neg (by omega),
      if_neg (by omega), if_neg (by omega), if_neg (by omega), if_neg (by omega), if_neg (by omega)]
    exact hskip hreg

/-- The body of the file header. -/
theorem file_header_at (env : VgEnv ν) {b b' : IOBuffer} {pre t : Bytes} (hb : On b pre t 40) (hsz : 168 ≤ wordAt t 20)
    {a : Prod' ν} (h : decodeFileHeader (Spec.headAt env t) b = .ok (a, b')) :
    (a.map fun p => (⟨p.1, Spec.headAt env t, p.2⟩ : DElem ν)).head? = some (Spec.fileHeaderAt env t) ∧
      On b' pre t (wordAt t 20).toNat := by
  unfold Spec.fileHeaderAt
  unfold decodeFileHeader at h
  obtain ⟨v, b1, h1, h⟩ := rd_inv h
  obtain ⟨e1, o1⟩ := on_bytes 128 hb h1
  have o1 := o1.cast (show _ = 168 by norm_num)
  obtain ⟨n, b2, h2, h⟩ := rd_inv h
  have hw : (Spec.headAt env t).recordSize - vgfHeaderSize - 128 = (((wordAt t 20).toNat - 168 : Nat) : Int) := by
    show wordAt t 20 - 40 - 128 = _
    omega
  rw [hw] at h2
  obtain ⟨e2, o2⟩ := on_bytes _ o1 h2
  have h := Prod.mk.inj (Except.ok.inj h)
  obtain ⟨h3, h4⟩ := h
  rw [← e1, ← e2, ← h3, ← h4]
  exact ⟨rfl, o2.cast (by omega)⟩

/-- Elements once found stay. -/
theorem loop_grows (env : VgEnv ν) : ∀ (fuel : Nat) (b : IOBuffer) (s s' : VgState ν), vgLoop env fuel b s = .done s' →
    ∃ es, s'.elements = s.elements ++ es := by
  intro fuel
  induction fuel with
  | zero =>
    intro b s s' h
    rw [vgLoop] at h
    split at h
    · have h : s = s' := by injection h
      exact ⟨[], by rw [h, List.append_nil]⟩
    · cases h
  | succ n ih =>
    intro b s s' h
    rw [vgLoop] at h
    split at h
    · have h : s = s' := by injection h
      exact ⟨[], by rw [h, List.append_nil]⟩
    · split at h
      · cases h
      · have h : s = s' := by injection h
        exact ⟨[], by rw [h, List.append_nil]⟩
      · rename_i s1 b1 ht
        obtain ⟨es, he⟩ := ih b1 s1 s' h
        have hs : ∃ e1, s1.elements = s.elements ++ e1 := by
          unfold vgTurn at ht
          obtain ⟨hb, _, ht⟩ := bind_inv ht
          dsimp only at ht
          split at ht
          · have ht := (Prod.mk.inj (Except.ok.inj ht)).1
            cases ht
          · split at ht
            · obtain ⟨pb, _, ht⟩ := bind_inv ht
              have ht := (Prod.mk.inj (Except.ok.inj ht)).1
              injection ht with ht
              exact ⟨[], by rw [← ht, List.append_nil]⟩
            · obtain ⟨pb, _, ht⟩ := bind_inv ht
              have ht := (Prod.mk.inj (Except.ok.inj ht)).1
              injection ht with ht
              exact ⟨_, by rw [← ht]⟩
        obtain ⟨e1, h1⟩ := hs
        exact ⟨e1 ++ es, by rw [he, h1, List.append_assoc]⟩

/-- From a position on, the elements found by the loop. -/
theorem loop_records (env : VgEnv ν) (data : Bytes) : ∀ (fuel p : Nat) (b : IOBuffer) (s s' : VgState ν),
    b.data = data → (b.offset = p ∨ (data.length ≤ p ∧ (data.length : Int) ≤ b.offset)) → vgLoop env fuel b s = .done s' →
    ∃ es, s'.elements = s.elements ++ es ∧ Spec.Records env data p s.header es s'.header := by
  intro fuel
  induction fuel with
  | zero =>
    intro p b s s' hd hp h
    rw [vgLoop] at h
    split at h
    · rename_i hend
      have h : s = s' := by injection h
      subst h
      unfold IOBuffer.atEnd at hend
      have hend := of_decide_eq_true hend
      rw [hd] at hend
      exact ⟨[], (List.append_nil _).symm, .ended (by rcases hp with h | h <;> omega)⟩
    · cases h
  | succ n ih =>
    intro p b s s' hd hp h
    have hall := h
    rw [vgLoop] at h
    split at h
    · rename_i hend
      have h : s = s' := by injection h
      subst h
      unfold IOBuffer.atEnd at hend
      have hend := of_decide_eq_true hend
      rw [hd] at hend
      exact ⟨[], (List.append_nil _).symm, .ended (by rcases hp with h | h <;> omega)⟩
    · rename_i hend
      unfold IOBuffer.atEnd at hend
      have hend : ¬ _ := fun h => hend (decide_eq_true h)
      rw [hd] at hend
      have hp : b.offset = p := by rcases hp with h | h <;> omega
      have hple : p ≤ data.length := by omega
      have hon : On b (data.take p) (data.drop p) 0 :=
        ⟨by rw [hd, List.take_append_drop], Or.inl (by rw [hp, List.length_take, Nat.min_eq_left hple]; push_cast; omega)⟩
      have hlt : (data.take p).length = p := by rw [List.length_take, Nat.min_eq_left hple]
      -- where the reader stands after a record
      have after : ∀ {b' : IOBuffer} {i : Nat}, On b' (data.take p) (data.drop p) i → b'.data = data ∧
          (b'.offset = ((p + i : Nat) : Int) ∨ (data.length ≤ p + i ∧ (data.length : Int) ≤ b'.offset)) := by
        intro b' i o
        refine ⟨by rw [o.data, List.take_append_drop], ?_⟩
        have hl : (data.drop p).length = data.length - p := List.length_drop
        rcases o.pos with h | ⟨h1, h2⟩
        · left; rw [h, hlt]; push_cast; rfl
        · right
          rw [hl] at h1 h2
          rw [hlt] at h2
          exact ⟨by omega, by omega⟩
      unfold vgTurn at h
      cases hhd : readHeader env b with
      | error e => simp only [hhd, bind, Except.bind] at h; cases h
      | ok hb =>
        obtain ⟨hd', b1⟩ := hb
        obtain ⟨rfl, o1, h40⟩ := header_at env hon hhd
        have hlen : p + 40 ≤ data.length := by rw [List.length_drop] at h40; omega
        simp only [hhd, bind, Except.bind] at h
        rw [hd] at h
        by_cases hbad : invalidHeader data.length (Spec.headAt env (data.drop p)) = true
        · rw [if_pos hbad] at h
          have h : s = s' := by injection h
          subst h
          exact ⟨[], (List.append_nil _).symm, .stopped hlen ((invalid_iff env _ _).1 hbad)⟩
        · rw [if_neg hbad] at h
          have hgood : ¬ Spec.BadRecord data.length (data.drop p) := fun hb => hbad ((invalid_iff env _ _).2 hb)
          by_cases hreg : Spec.Regular (data.drop p)
          · by_cases hf : byteAt (data.drop p) 2 = 0 ∧ byteAt (data.drop p) 1 = 22
            · have hf' : (Spec.headAt env (data.drop p)).vgClass = 0 ∧ (Spec.headAt env (data.drop p)).vgType = 22 := by
                show ((byteAt (data.drop p) 2 : Nat) : Int) = 0 ∧ ((byteAt (data.drop p) 1 : Nat) : Int) = 22
                omega
              rw [if_pos hf'] at h
              cases hbo : decodeFileHeader (Spec.headAt env (data.drop p)) b1 with
              | error e => rw [hbo] at h; cases h
              | ok pb =>
                obtain ⟨a, b2⟩ := pb
                rw [hbo] at h
                dsimp only at h
                have h168 : 168 ≤ wordAt (data.drop p) 20 := by
                  unfold Spec.Regular at hreg
                  dsimp only at hreg
                  rw [hf.1, hf.2] at hreg
                  exact hreg
                obtain ⟨e2, o2⟩ := file_header_at env o1 h168 hbo
                rw [e2] at h
                obtain ⟨hda, hpo⟩ := after o2
                obtain ⟨es, he1, he2⟩ := ih _ b2 _ s' hda hpo h
                exact ⟨es, he1, .header hlen hgood hf.1 hf.2 hreg he2⟩
            · have hf' : ¬ ((Spec.headAt env (data.drop p)).vgClass = 0 ∧ (Spec.headAt env (data.drop p)).vgType = 22) := by
                show ¬ (((byteAt (data.drop p) 2 : Nat) : Int) = 0 ∧ ((byteAt (data.drop p) 1 : Nat) : Int) = 22)
                omega
              rw [if_neg hf'] at h
              cases hbo : decodeBody env (Spec.headAt env (data.drop p)) b1 with
              | error e => rw [hbo] at h; cases h
              | ok pb =>
                obtain ⟨a, b2⟩ := pb
                rw [hbo] at h
                dsimp only at h
                obtain ⟨e2, o2⟩ := record_body env o1 hreg hf a b2 hbo
                obtain ⟨hda, hpo⟩ := after o2
                obtain ⟨es, he1, he2⟩ := ih _ b2 _ s' hda hpo h
                refine ⟨a.map (fun q => ⟨q.1, Spec.headAt env (data.drop p), q.2⟩) ++ es, ?_, ?_⟩
                · rw [he1, List.append_assoc]
                · refine .record hlen hgood hf hreg ⟨?_, ?_⟩ he2
                  · rw [List.map_map]; exact e2
                  · intro e he
                    obtain ⟨q, _, rfl⟩ := List.mem_map.1 he
                    rfl
          · obtain ⟨es, he⟩ := loop_grows env (n + 1) b s s' hall
            exact ⟨es, he, .lost hlen hgood hreg⟩

/-- **C85** but for the status of SIGMETs (`C85_sigmet_status`): whatever the bytes of a file, if it opens, its elements and its
file header are those that its records hold. -/
theorem C85_records_partial (env : VgEnv ν) (fuel : Nat) (data : Bytes) (s : VgState ν) (h : openVgf env fuel data = .done s) :
    Spec.Records env data 0 none s.elements s.header := by
  obtain ⟨es, he, hr⟩ := loop_records env data fuel 0 (IOBuffer.ofSource data) {} s rfl (Or.inl rfl) h
  have : s.elements = es := by rw [he]; rfl
  rw [this]
  exact hr

/-- **C85** but for the status of SIGMETs, for the first record of a file, and where the second one is found. -/
theorem C85_first_partial (env : VgEnv ν) (fuel : Nat) (data : Bytes) (s : VgState ν) (h : openVgf env fuel data = .done s)
    (hne : 0 < data.length) (hgood : ¬ Spec.BadRecord data.length data) (hreg : Spec.Regular data)
    (hnf : ¬ (byteAt data 2 = 0 ∧ byteAt data 1 = 22)) :
    ∃ es rest, s.elements = es ++ rest ∧ Spec.Shows env data es ∧
      Spec.Records env data (Spec.contentAt env data).size none rest s.header := by
  have hr := C85_records_partial env fuel data s h
  have h0 : data.drop 0 = data := rfl
  generalize s.elements = all at hr ⊢
  generalize s.header = hh at hr ⊢
  cases hr with
  | ended hl => omega
  | stopped _ hb => rw [h0] at hb; exact absurd hb hgood
  | header _ _ h2 h1 _ _ => rw [h0] at h1 h2; exact absurd ⟨h2, h1⟩ hnf
  | lost _ _ hl => rw [h0] at hl; exact absurd hreg hl
  | @record _ _ es rest _ _ _ _ _ hs hrest =>
    refine ⟨es, rest, rfl, hs, ?_⟩
    rw [h0, Nat.zero_add] at hrest
    exact hrest

/-- A file of one symbol: code 7 in single precision, at latitude 1 and longitude −2. -/
def symbolFile : Bytes :=
  [0, 5, 4, 0, 0, 0, 0, 0] ++ List.replicate 15 0 ++ [76] ++ List.replicate 16 0 ++
    [0, 0, 0, 1, 0, 0, 0, 2, 0x3F, 0x80, 0, 0, 0, 0, 0, 1, 0x40, 0xE0, 0, 0, 0x3F, 0x80, 0, 0, 0xC0, 0, 0, 0] ++
    List.replicate 8 0

/-- The hypotheses of `C85_first_partial` hold for a file of one symbol, which opens. -/
example : ¬ Spec.BadRecord symbolFile.length symbolFile ∧ Spec.Regular symbolFile ∧
    ¬ (byteAt symbolFile 2 = 0 ∧ byteAt symbolFile 1 = 22) :=
  ⟨by unfold Spec.BadRecord; decide +kernel, trivial, by decide +kernel⟩

example : (match openVgf env0 3 symbolFile with
    | .done s => s.elements.map fun e => (e.kind, e.attrs.length) | _ => []) = [("SymbolElement", 9)] := by decide +kernel

/-- The width of the symbol is the word at byte 44 of its record. -/
example : (Spec.contentAt env0 symbolFile).elems.map (fun e => e.2.lookup "width") = [some (some (.int 2))] := by
  have h : wordAt symbolFile 44 = 2 := by decide +kernel
  show [some (some (DVal.int (wordAt symbolFile 44)))] = _
  rw [h]

/-- C85 fails for SIGMETs: the status, which is the integer at byte 100 of the record (0 new, 1 amended, 2 cancelled), is not
kept; the attribute `status` is the text of the area. -/
theorem C85_sigmet_status (env : VgEnv ν) (fuel : Nat) (data : Bytes) (s : VgState ν) (h : openVgf env fuel data = .done s)
    (hne : 0 < data.length) (hgood : ¬ Spec.BadRecord data.length data) (hcl : byteAt data 2 = 11)
    (hty : 27 ≤ byteAt data 1 ∧ byteAt data 1 ≤ 31) (hn : 0 ≤ wordAt data 44) :
    ∃ e rest, s.elements = e :: rest ∧ e.kind = "SigmetElement" ∧
      e.attrs.lookup "status" = some (.text (stripNull (bytesAt data 60 8))) ∧
      e.attrs.lookup "status" ≠ some (.int (wordAt data 100)) := by
  have hreg : Spec.Regular data := by
    unfold Spec.Regular
    dsimp only
    simp only [hcl]
    rw [if_pos hty]
    exact hn
  obtain ⟨es, rest, he, ⟨hs, _⟩, _⟩ := C85_first_partial env fuel data s h hne hgood hreg (by omega)
  have hc : ∃ a c, (Spec.contentAt env data).elems = [("SigmetElement",
      a ++ ("status", some (.text (stripNull (bytesAt data 60 8)))) :: c)] ∧ a.lookup "status" = none := by
    unfold Spec.contentAt
    dsimp only
    simp only [hcl]
    rw [if_pos hty]
    by_cases hv : byteAt data 6 = 0
    · rw [if_pos hv]
      exact ⟨vals env data (Spec.sigmetFirst.take 7), _, rfl, rfl⟩
    · rw [if_neg hv]
      exact ⟨vals env data (Spec.sigmetFirst.take 7), _, rfl, rfl⟩
  obtain ⟨a, c, hc, ha⟩ := hc
  rw [hc] at hs
  have h1 : es.length = 1 := by simpa using congrArg List.length hs
  obtain ⟨e, rfl⟩ := List.length_eq_one_iff.1 h1
  · simp only [List.map_cons, List.map_nil, List.cons.injEq, Prod.mk.injEq, and_true] at hs
    have hl : e.attrs.lookup "status" = some (.text (stripNull (bytesAt data 60 8))) := by
      have look : ∀ r : DRec ν, (shown r).lookup "status" = (r.lookup "status").map some := by
        intro r
        induction r with
        | nil => rfl
        | cons x r ih =>
          show List.lookup "status" ((x.1, some x.2) :: shown r) = _
          rw [List.lookup_cons]
          obtain ⟨n, v⟩ := x
          rw [List.lookup_cons]
          cases ("status" == n) with
          | true => rfl
          | false => exact ih
      have := look e.attrs
      rw [hs.2, List.lookup_append, ha] at this
      cases hx : e.attrs.lookup "status" with
      | none => rw [hx] at this; cases this
      | some v =>
        rw [hx] at this
        have e1 : (some (some (.text (stripNull (bytesAt data 60 8)))) : Option (Option (DVal ν))) = some (some v) := this
        injection e1 with e1
        injection e1 with e1
        rw [e1]
    refine ⟨e, rest, he, hs.1, hl, ?_⟩
    rw [hl]
    intro hh
    injection hh with hh
    cases hh

/-- A SIGMET of version 0 without points, amended (status 1), of area `KKCI`. -/
def sigmetFile : Bytes :=
  [0, 27, 11, 0, 0, 0, 0, 0] ++ List.replicate 14 0 ++ [1, 172] ++ List.replicate 16 0 ++
    List.replicate 20 0 ++ [75, 75, 67, 73, 0, 0, 0, 0] ++ List.replicate 32 0 ++ [0, 0, 0, 1] ++ List.replicate 324 0

/-- The hypotheses of `C85_sigmet_status` hold for it, and it opens. -/
example : ¬ Spec.BadRecord sigmetFile.length sigmetFile ∧ byteAt sigmetFile 2 = 11 ∧ 27 ≤ byteAt sigmetFile 1 ∧
    byteAt sigmetFile 1 ≤ 31 ∧ wordAt sigmetFile 44 = 0 ∧ wordAt sigmetFile 100 = 1 := by
  unfold Spec.BadRecord
  decide +kernel

example : (match openVgf env0 3 sigmetFile with
    | .done s => s.elements.map fun e => (e.kind, e.attrs.length) | _ => []) = [("SigmetElement", 34)] := by decide +kernel

end Gempak
