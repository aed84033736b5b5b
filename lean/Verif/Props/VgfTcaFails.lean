import Verif.Props.VgfTcaText

/-!
# C86: advisories that cannot be read
-/

namespace Gempak
open Spec
variable {ν : Type}

/-- A watch or warning that is read states at least one break point. -/
theorem warning_breaks {float : Text → Except PyErr ν} {s : Text} {n : Nat} {r : DRec ν} (h : tcaWarning float s n = .ok r)
    {i : Int} (hi : tcaInt (txt "numBreakPts_" ++ Nat.toDigits 10 n) s = .ok i) : 0 < i := by
  unfold tcaWarning at h
  dsimp only at h
  rw [hi] at h
  obtain ⟨wwstr, _, h1⟩ := Except.bind_ok h
  rw [ok_bind] at h1
  obtain ⟨bp, hbp, h3⟩ := Except.bind_ok h1
  split at h3
  case h_2 => cases h3
  obtain ⟨parts, hparts, -⟩ := Except.bind_ok h3
  by_contra hle
  rw [arraySplit, if_pos (by omega)] at hparts
  cases hparts

theorem warn_each {β : Type} {f : Nat → Except PyErr β} : ∀ (l : List Nat) (ys : List β), l.mapM f = .ok ys →
    ∀ n ∈ l, ∃ r, f n = .ok r := by
  intro l
  induction l with
  | nil => intro _ _ n hn; cases hn
  | cons a l ih =>
    intro ys h n hn
    rw [List.mapM_cons] at h
    obtain ⟨y, hy, h⟩ := Except.bind_ok h
    obtain ⟨zs, hzs, -⟩ := Except.bind_ok h
    rcases List.mem_cons.1 hn with rfl | hn
    · exact ⟨y, hy⟩
    · exact ih zs hzs n hn

/-- What an advisory that is read says of its watches and warnings. -/
theorem parse_warnings {float : Text → Except PyErr ν} {s : Text} {rs : List (DRec ν)} (h : parseTca float s = .ok rs)
    {m : Int} (hm : tcaInt (txt "wwNum") s = .ok m) {n : Nat} (hn : (n : Int) < m) : ∃ r, tcaWarning float s n = .ok r := by
  unfold parseTca at h
  iterate 13 obtain ⟨_, _, h⟩ := Except.bind_ok h
  rw [hm, ok_bind] at h
  obtain ⟨ww, hww, -⟩ := Except.bind_ok h
  exact warn_each _ ww hww n (List.mem_range.2 (by omega))

/-- **C86, watches and warnings without break points.** An advisory that states no break points for one of its watches or warnings cannot be
read, whatever else it says: no list of elements comes from it. -/
theorem C86_no_breaks (float : Text → Except PyErr ν) (ps : List (Text × Text)) (last : Text × Text)
    (hc : Spec.CleanTags (ps ++ [last])) (m i : Int) (n : Nat) (hm : Spec.IntTag ps "tca_wwNum".toList m) (hn : (n : Int) < m)
    (hi : Spec.IntTag ps (Spec.numbered "tca_numBreakPts_" n) i) (h0 : i ≤ 0) (rs : List (DRec ν)) :
    parseTca float (Spec.tagged (ps ++ [last])) ≠ .ok rs := by
  intro h
  obtain ⟨r, hr⟩ := parse_warnings h (int_before hc (name := txt "wwNum") (by decide) hm) hn
  have := warning_breaks hr (int_before hc (name := txt "numBreakPts_" ++ Nat.toDigits 10 n) (plain_append n (by decide)) hi)
  omega

/-- A file whose first record is an advisory that cannot be parsed cannot be opened. -/
theorem C86_unread (env : VgEnv ν) (fuel : Nat) (data : Bytes) (hne : 0 < data.length) (hgood : ¬ Spec.BadRecord data.length data)
    (hclass : byteAt data 2 = 15) (htype : byteAt data 1 = 39) (hsize : 40 ≤ wordAt data 20) (text : Text)
    (htext : utf8Dec ((Spec.bytesAt data 40 ((wordAt data 20).toNat - 40)).takeWhile (· ≠ 0)) = some text)
    (hbad : ∀ rs, env.tca text ≠ .ok rs) (s : VgState ν) : openVgf env fuel data ≠ .done s := by
  intro h
  rw [openVgf] at h
  have hon : On (IOBuffer.ofSource data) [] data 0 := ⟨rfl, Or.inl rfl⟩
  have hend : (IOBuffer.ofSource data).atEnd = false := by
    unfold IOBuffer.atEnd
    refine decide_eq_false ?_
    show ¬ ((data.length : Int) ≤ 0)
    omega
  cases fuel with
  | zero =>
    rw [vgLoop] at h
    rw [if_neg (by rw [hend]; decide)] at h
    cases h
  | succ n =>
    rw [vgLoop, if_neg (by rw [hend]; decide)] at h
    unfold vgTurn at h
    cases hhd : readHeader env (IOBuffer.ofSource data) with
    | error e => simp only [hhd, bind, Except.bind] at h; cases h
    | ok hb =>
      obtain ⟨hd', b1⟩ := hb
      obtain ⟨rfl, o1, h40⟩ := header_at env hon hhd
      simp only [hhd, bind, Except.bind] at h
      rw [show (IOBuffer.ofSource data).data = data from rfl, if_neg (fun hb => hgood ((invalid_iff env _ _).1 hb)), if_neg (by
        show ¬ (((byteAt data 2 : Nat) : Int) = 0 ∧ ((byteAt data 1 : Nat) : Int) = 22)
        omega)] at h
      have hbody : decodeBody env (Spec.headAt env data) = decodeTca env (Spec.headAt env data) := by
        unfold decodeBody
        have e1 : (Spec.headAt env data).vgClass = 15 := by show ((byteAt data 2 : Nat) : Int) = 15; omega
        have e2 : (Spec.headAt env data).vgType = 39 := by show ((byteAt data 1 : Nat) : Int) = 39; omega
        simp [e1, e2]
      rw [hbody] at h
      cases hbo : decodeTca env (Spec.headAt env data) b1 with
      | error e => rw [hbo] at h; cases h
      | ok pb =>
        obtain ⟨a, b2⟩ := pb
        unfold decodeTca at hbo
        obtain ⟨t, b3, hs1, hbo⟩ := rd_inv hbo
        have hw : (Spec.headAt env data).recordSize - vgfHeaderSize = (((wordAt data 20).toNat - 40 : Nat) : Int) := by
          show wordAt data 20 - vgfHeaderSize = _
          unfold vgfHeaderSize
          omega
        rw [hw] at hs1
        obtain ⟨e1, -⟩ := on_cstring _ o1 hs1
        obtain ⟨rs, b4, hr, -⟩ := rd_inv hbo
        obtain ⟨hr', -⟩ := rd_pure_inv hr
        rw [htext] at e1
        obtain rfl := Option.some.inj e1
        exact hbad rs hr'

/-- The tags of an advisory whose warning has no break points. -/
def breaklessTags : List (Text × Text) := exampleTags.map fun p => if p.1 = "tca_numBreakPts_0".toList then (p.1, ['0']) else p

example (rs : List (DRec Text)) : parseTca (fun t => .ok t) (Spec.tagged (breaklessTags ++ [exampleLast])) ≠ .ok rs :=
  C86_no_breaks _ _ _ (by unfold Spec.CleanTags; decide +kernel) 1 0 0 ⟨"1".toList, by decide +kernel, 0, by decide +kernel⟩ (by decide)
    ⟨"0".toList, by decide +kernel, 0, by decide +kernel⟩ (by decide) rs

/-- A file of one advisory whose text is a single letter. -/
def letterAdvisory : Bytes := [0, 39, 15, 0, 0, 0, 0, 0] ++ List.replicate 15 0 ++ [41] ++ List.replicate 16 0 ++ [65]

example (fuel : Nat) (s : VgState Unit) : openVgf { env0 with tca := parseTca fun _ => .ok () } fuel letterAdvisory ≠ .done s :=
  C86_unread _ fuel letterAdvisory (by decide) (by unfold Spec.BadRecord; decide +kernel) (by decide +kernel) (by decide +kernel)
    (by decide +kernel) ['A'] (by decide +kernel) (by
      intro rs h
      have h0 : parseTca (fun _ => Except.ok ()) ['A'] = .error .attributeError := by rfl
      rw [show ({ env0 with tca := parseTca fun _ => .ok () } : VgEnv Unit).tca ['A'] = parseTca (fun _ => .ok ()) ['A'] from rfl, h0] at h
      cases h) s

end Gempak
