import Verif.Proof.VgfWorkBodies
import Verif.Props.VgfRecords

/-!
# C115: vector graphic files whose records are complete open
-/

namespace Gempak
open Spec (byteAt wordAt shown bytesAt)
variable {ν : Type}

/-- The record is of a version that is known, and has no more points than a record may have. -/
def Spec.Known (t : Bytes) : Prop :=
  let y := byteAt t 1
  match byteAt t 2 with
  | 1 => wordAt t 40 ≤ 500
  | 2 => byteAt t 6 ≤ 6
  | 3 => y = 1 ∨ y = 20 → wordAt t 40 ≤ 500
  | 11 => 27 ≤ y ∧ y ≤ 31 → byteAt t 6 ≤ 1
  | 12 => y = 4 → wordAt t 40 ≤ 500
  | 15 => y = 37 ∨ y = 38 → wordAt t 44 ≤ 500
  | _ => True

/-- `CompleteFile env data p cs`: from byte `p` on, the file is made of records that have all their bytes, whose counts fit and
whose texts and codes can be read, up to its end or to bytes that are no record; `cs` are their elements. -/
inductive Spec.CompleteFile (env : VgEnv ν) (data : Bytes) : Nat → List (DHdr ν × String × Spec.Fields ν) → Prop
  | ended {p} : data.length ≤ p → Spec.CompleteFile env data p []
  | stopped {p} : p + 40 ≤ data.length → Spec.BadRecord data.length (data.drop p) → Spec.CompleteFile env data p []
  | header {p cs} : byteAt (data.drop p) 2 = 0 → byteAt (data.drop p) 1 = 22 → ¬ Spec.BadRecord data.length (data.drop p) →
      168 ≤ wordAt (data.drop p) 20 → p + (wordAt (data.drop p) 20).toNat ≤ data.length →
      Spec.CompleteFile env data (p + (wordAt (data.drop p) 20).toNat) cs → Spec.CompleteFile env data p cs
  | record {p cs} : ¬ (byteAt (data.drop p) 2 = 0 ∧ byteAt (data.drop p) 1 = 22) →
      p + 40 ≤ data.length → ¬ Spec.BadRecord data.length (data.drop p) → Spec.Regular (data.drop p) → Spec.Known (data.drop p) →
      p + (Spec.contentAt env (data.drop p)).size ≤ data.length → (Spec.contentAt env (data.drop p)).Legible →
      Spec.CompleteFile env data (p + (Spec.contentAt env (data.drop p)).size) cs →
      Spec.CompleteFile env data p ((Spec.contentAt env (data.drop p)).elems.map (fun e => (Spec.headAt env (data.drop p), e)) ++ cs)

/-- A record is skipped whatever it holds. -/
theorem works_skip (b : IOBuffer) (hd : DHdr ν) : Works b (skipData hd) := ⟨_, rfl⟩

/-- The body of a complete record is read. -/
theorem body_works (env : VgEnv ν) {b : IOBuffer} {pre t : Bytes} (hb : Exact b pre t 40) (hreg : Spec.Regular t)
    (hkn : Spec.Known t) (hs : (Spec.contentAt env t).size ≤ t.length) (hl : (Spec.contentAt env t).Legible) :
    Works b (decodeBody env (Spec.headAt env t)) := by
  have hsz : (Spec.headAt env t).recordSize = wordAt t 20 := rfl
  have hver : (Spec.headAt env t).version = byteAt t 6 := rfl
  have hcl : (Spec.headAt env t).vgClass = byteAt t 2 := rfl
  have hty : (Spec.headAt env t).vgType = byteAt t 1 := rfl
  generalize hg : Spec.headAt env t = hd at *
  clear hg
  unfold Spec.contentAt at hs hl
  unfold Spec.Regular at hreg
  unfold Spec.Known at hkn
  dsimp only at hreg hkn hs hl
  generalize hk : byteAt t 2 = k at *
  generalize hy : byteAt t 1 = y at *
  clear hk hy
  unfold decodeBody
  rw [hcl, hty]
  clear hcl hty
  have ey : (((y : Int) = 1) = (y = 1)) ∧ (((y : Int) = 4) = (y = 4)) ∧ (((y : Int) = 17) = (y = 17)) ∧
      (((y : Int) = 18) = (y = 18)) ∧ (((y : Int) = 20) = (y = 20)) ∧ (((y : Int) = 21) = (y = 21)) ∧
      (((y : Int) = 27) = (y = 27)) ∧ (((y : Int) = 28) = (y = 28)) ∧ (((y : Int) = 29) = (y = 29)) ∧
      (((y : Int) = 30) = (y = 30)) ∧ (((y : Int) = 31) = (y = 31)) ∧ (((y : Int) = 32) = (y = 32)) ∧
      (((y : Int) = 35) = (y = 35)) ∧ (((y : Int) = 36) = (y = 36)) ∧ (((y : Int) = 37) = (y = 37)) ∧
      (((y : Int) = 38) = (y = 38)) ∧ (((y : Int) = 39) = (y = 39)) ∧ (((y : Int) = 40) = (y = 40)) ∧
      (((y : Int) = 41) = (y = 41)) ∧ (((y : Int) = 42) = (y = 42)) ∧ (((y : Int) = 43) = (y = 43)) := by
    refine ⟨?_, ?_, ?_, ?_, ?_, ?_, ?_, ?_, ?_, ?_, ?_, ?_, ?_, ?_, ?_, ?_, ?_, ?_, ?_, ?_, ?_⟩ <;> exact propext (by omega)
  match k, hreg, hkn, hs, hl with
  | 0, _, _, _, _ => exact works_skip b hd
  | 1, _, hkn, hs, hl => exact works_fronts env hb hs hl hkn
  | 2, hreg, hkn, hs, hl => exact works_watches env hb hver hkn hreg.1 hreg.2 hs hl
  | 3, _, hkn, hs, hl =>
    simp only [Nat.cast_ofNat, Int.reduceEq, if_true, if_false, ey]
    by_cases h1 : y = 1
    · rw [if_pos h1] at hs hl ⊢; exact works_lines env hb hd hs hl (hkn (Or.inl h1))
    · rw [if_neg h1] at hs hl ⊢
      by_cases h2 : y = 20
      · rw [if_pos h2] at hs hl ⊢; exact works_special_lines env hb hd hs hl (hkn (Or.inr h2))
      · rw [if_neg h2]; exact works_skip b hd
  | 4, _, _, hs, hl => exact works_symbols env hb hs hl
  | 5, hreg, _, hs, hl =>
    simp only [Nat.cast_ofNat, Int.reduceEq, if_true, if_false, ey]
    by_cases h1 : y = 17 ∨ y = 18
    · rw [if_pos h1] at hreg hs hl ⊢; exact works_text env hb hsz hreg hs hl
    · rw [if_neg h1] at hreg hs hl ⊢
      by_cases h2 : y = 21
      · rw [if_pos h2] at hreg hs hl ⊢; exact works_special_text env hb hsz hreg hs hl
      · rw [if_neg h2]; exact works_skip b hd
  | 6, _, _, hs, _ => exact works_winds env hb hs
  | 7, _, _, _, _ => exact works_skip b hd
  | 8, _, _, _, _ => exact works_skip b hd
  | 9, _, _, _, _ => exact works_skip b hd
  | 10, hreg, _, hs, hl => exact works_tracks env hb hs hl hreg
  | 11, hreg, hkn, hs, hl =>
    simp only [Nat.cast_ofNat, Int.reduceEq, if_true, if_false, ey, List.mem_cons, List.not_mem_nil, or_false]
    by_cases h1 : 27 ≤ y ∧ y ≤ 31
    · have hv := hkn h1
      rw [if_pos h1] at hreg hs hl
      rw [if_pos (by omega)]
      by_cases hv0 : byteAt t 6 = 0
      · rw [if_pos hv0] at hs
        exact works_sigmet0 env hb (by rw [hver, hv0]; rfl) hs hreg
      · rw [if_neg hv0] at hs
        exact works_sigmet1 env hb (by rw [hver]; omega) hs hreg
    · rw [if_neg h1] at hreg hs hl
      rw [if_neg (by omega)]
      by_cases h2 : y = 32
      · rw [if_pos h2] at hreg hs hl ⊢; exact works_ccf env hb hs hl hreg
      · rw [if_neg h2] at hreg hs hl ⊢
        by_cases h3 : y = 35
        · rw [if_pos h3] at hs ⊢; exact works_volcanoes env hb hs
        · rw [if_neg h3] at hreg hs hl ⊢
          by_cases h4 : y = 36
          · rw [if_pos h4] at hreg hs hl ⊢; exact works_ash env hb hs hl hreg
          · rw [if_neg h4]; exact works_skip b hd
  | 12, _, hkn, hs, hl =>
    simp only [Nat.cast_ofNat, Int.reduceEq, if_true, if_false, ey]
    by_cases h1 : y = 4
    · rw [if_pos h1] at hs hl ⊢; exact works_circles env hb hs hl (hkn h1)
    · rw [if_neg h1]; exact works_skip b hd
  | 13, _, _, _, _ => exact works_skip b hd
  | 14, hreg, _, hs, hl => exact works_lists env hb hs hl hreg
  | 15, hreg, hkn, hs, hl =>
    simp only [Nat.cast_ofNat, Int.reduceEq, if_true, if_false, ey]
    have hs : (if y = 37 then Spec.jetAt env t else if y = 38 then Spec.gfaAt env t else if y = 39 then Spec.tcaAt env t
      else if 40 ≤ y ∧ y ≤ 43 then Spec.unreadable else Spec.skippedAt t).size ≤ t.length := hs
    have hl : (if y = 37 then Spec.jetAt env t else if y = 38 then Spec.gfaAt env t else if y = 39 then Spec.tcaAt env t
      else if 40 ≤ y ∧ y ≤ 43 then Spec.unreadable else Spec.skippedAt t).Legible := hl
    by_cases h1 : y = 38
    · rw [if_neg (by omega), if_pos h1] at hs
      rw [if_pos h1]
      exact works_gfa env hb hs (hkn (Or.inr h1))
    · rw [if_neg h1]
      by_cases h2 : y = 37
      · rw [if_pos h2] at hreg hs ⊢; exact works_jet env hb hs hreg (hkn (Or.inl h2))
      · rw [if_neg h2, if_neg h1] at hreg hs hl
        rw [if_neg h2]
        by_cases h3 : y = 39
        · rw [if_neg (show ¬ (40 ≤ y ∧ y ≤ 43) by omega)] at hreg
          rw [if_pos h3] at hs hl ⊢
          exact works_tca env hb hsz hreg hs hl
        · rw [if_neg h3] at hs hl ⊢
          by_cases h4 : 40 ≤ y ∧ y ≤ 43
          · rw [if_pos h4] at hl
            exact absurd rfl (hl.one (a := "") (v := none) (List.mem_singleton.2 rfl))
          · rw [if_neg (by omega), if_neg (by omega), if_neg (by omega), if_neg (by omega)]
            exact works_skip b hd
  | k + 16, _, _, _, _ =>
    rw [if_neg (by omega), if_neg (by omega), if_neg (by omega), if_neg (by omega), if_neg (by omega), if_neg (by omega),
      if_neg (by omega), if_neg (by omega), if_neg (by omega), if_neg (by omega), if_neg (by omega)]
    exact works_skip b hd

/-- The header of a record that has its bytes is read. -/
theorem header_works (env : VgEnv ν) {b : IOBuffer} {pre t : Bytes} (hb : Exact b pre t 0) (hl : 40 ≤ t.length) :
    ∃ b', readHeader env b = .ok (Spec.headAt env t, b') ∧ Exact b' pre t 40 := by
  obtain ⟨r, b1, hr, x1, e1⟩ := rec_read env .big vgfHeaderInfo (wellFormed_info env _ rfl) (by decide) (by decide)
    (by decide) (k := 40) (by decide) hb (by omega) (sure_vals env t (by decide))
  have hinj : r = [("delete", .int (byteAt t 0)), ("vg_type", .int (byteAt t 1)), ("vg_class", .int (byteAt t 2)),
      ("filled", .int (if byteAt t 3 < 128 then (byteAt t 3 : Int) else (byteAt t 3 : Int) - 256)),
      ("closed", .int (byteAt t 4)), ("smooth", .int (byteAt t 5)),
      ("version", .int (byteAt t 6)), ("group_type", .int (byteAt t 7)), ("group_number", .int (wordAt t 8)),
      ("major_color", .int (wordAt t 12)), ("minor_color", .int (wordAt t 16)), ("record_size", .int (wordAt t 20)),
      ("min_lat", .num (env.scalar 2 (Spec.singleAt t 24))), ("min_lon", .num (env.scalar 2 (Spec.singleAt t 28))),
      ("max_lat", .num (env.scalar 2 (Spec.singleAt t 32))), ("max_lon", .num (env.scalar 2 (Spec.singleAt t 36)))] :=
    shown_inj e1
  subst hinj
  refine ⟨b1, ?_, x1⟩
  unfold readHeader
  rw [rd_ok hr]
  rfl

/-- The body of the file header is read. -/
theorem file_header_works (env : VgEnv ν) {b : IOBuffer} {pre t : Bytes} (hb : Exact b pre t 40) (hsz : 168 ≤ wordAt t 20)
    (hl : (wordAt t 20).toNat ≤ t.length) : Works b (decodeFileHeader (Spec.headAt env t)) := by
  obtain ⟨v, b1, h1, x1⟩ := bytes_ok 128 hb (by omega)
  obtain ⟨n, b2, h2, x2⟩ := bytes_ok ((wordAt t 20).toNat - 168) x1 (by omega)
  have hw : (Spec.headAt env t).recordSize - vgfHeaderSize - 128 = (((wordAt t 20).toNat - 168 : Nat) : Int) := by
    show wordAt t 20 - 40 - 128 = _
    omega
  unfold decodeFileHeader Works
  have h1 : readBytes 128 b = .ok (v, b1) := h1
  rw [rd_ok h1, hw, rd_ok h2]
  exact ⟨_, rfl⟩

/-- The loop over a complete file. -/
theorem loop_opens (env : VgEnv ν) {data : Bytes} {p : Nat} {cs : List (DHdr ν × String × Spec.Fields ν)}
    (hc : Spec.CompleteFile env data p cs) : ∀ (b : IOBuffer) (s : VgState ν), b.data = data →
      (b.offset = p ∨ (data.length ≤ p ∧ (data.length : Int) ≤ b.offset)) →
      ∃ N s', (∀ fuel, N ≤ fuel → vgLoop env fuel b s = .done s') ∧ ∃ es, s'.elements = s.elements ++ es ∧
        es.map (fun e => (e.hdr, e.kind, shown e.attrs)) = cs := by
  have ending : ∀ {p : Nat} {b : IOBuffer} {s : VgState ν}, b.data = data → data.length ≤ p →
      (b.offset = p ∨ (data.length ≤ p ∧ (data.length : Int) ≤ b.offset)) → ∀ fuel, vgLoop env fuel b s = .done s := by
    intro p b s hd hle hp fuel
    have hend : b.atEnd = true := by
      unfold IOBuffer.atEnd
      rw [hd]
      exact decide_eq_true (by rcases hp with h | h <;> omega)
    unfold vgLoop
    rw [if_pos hend]
  have going : ∀ {p : Nat} {b : IOBuffer} {s : VgState ν}, b.data = data → p + 40 ≤ data.length →
      (b.offset = p ∨ (data.length ≤ p ∧ (data.length : Int) ≤ b.offset)) → b.atEnd = false ∧
        Exact b (data.take p) (data.drop p) 0 := by
    intro p b s hd hle hp
    have hp : b.offset = p := by rcases hp with h | h <;> omega
    refine ⟨?_, ⟨by rw [hd, List.take_append_drop], ?_⟩⟩
    · unfold IOBuffer.atEnd
      rw [hd, hp]
      exact decide_eq_false (by omega)
    · rw [hp, List.length_take, Nat.min_eq_left (by omega)]; push_cast; omega
  have after : ∀ {p i : Nat} {b' : IOBuffer}, p ≤ data.length → On b' (data.take p) (data.drop p) i → b'.data = data ∧
      (b'.offset = ((p + i : Nat) : Int) ∨ (data.length ≤ p + i ∧ (data.length : Int) ≤ b'.offset)) := by
    intro p i b' hple o
    have hlt : (data.take p).length = p := by rw [List.length_take, Nat.min_eq_left hple]
    refine ⟨by rw [o.data, List.take_append_drop], ?_⟩
    have hl : (data.drop p).length = data.length - p := List.length_drop
    rcases o.pos with h | ⟨h1, h2⟩
    · left; rw [h, hlt]; push_cast; rfl
    · right
      rw [hl] at h1 h2
      rw [hlt] at h2
      exact ⟨by omega, by omega⟩
  induction hc with
  | ended hle =>
    intro b s hd hp
    exact ⟨0, s, fun fuel _ => ending hd hle hp fuel, [], (List.append_nil _).symm, rfl⟩
  | @stopped p h40 hbad =>
    intro b s hd hp
    obtain ⟨hend, hx⟩ := going (s := s) hd h40 hp
    obtain ⟨b1, hr, x1⟩ := header_works env hx (by rw [List.length_drop]; omega)
    refine ⟨1, s, ?_, [], (List.append_nil _).symm, rfl⟩
    intro fuel hf
    obtain ⟨n, rfl⟩ : ∃ n, fuel = n + 1 := ⟨fuel - 1, by omega⟩
    have ht : vgTurn env s b = .ok (.stop, b1) := by
      unfold vgTurn
      rw [hr, ok_bind]
      dsimp only
      rw [hd, if_pos ((invalid_iff env _ _).2 hbad)]
    unfold vgLoop
    rw [hend]
    simp only [ht, Bool.false_eq_true, if_false]
  | @header p cs h2 h1 hgood h168 hle _ ih =>
    intro b s hd hp
    obtain ⟨hend, hx⟩ := going (s := s) hd (by omega) hp
    obtain ⟨b1, hr, x1⟩ := header_works env hx (by rw [List.length_drop]; omega)
    obtain ⟨⟨a, b2⟩, hbo⟩ := file_header_works env x1 h168 (by rw [List.length_drop]; omega)
    obtain ⟨_, o2⟩ := file_header_at env x1.on h168 hbo
    obtain ⟨hda, hpo⟩ := after (by omega) o2
    have hf' : (Spec.headAt env (data.drop p)).vgClass = 0 ∧ (Spec.headAt env (data.drop p)).vgType = 22 := by
      show ((byteAt (data.drop p) 2 : Nat) : Int) = 0 ∧ ((byteAt (data.drop p) 1 : Nat) : Int) = 22
      omega
    have ht : ∃ s1, vgTurn env s b = .ok (.next s1, b2) ∧ s1.elements = s.elements := by
      unfold vgTurn
      rw [hr, ok_bind]
      dsimp only
      rw [hd, if_neg (fun hb => hgood ((invalid_iff env _ _).1 hb)), if_pos hf', hbo, ok_bind]
      exact ⟨_, rfl, rfl⟩
    obtain ⟨s1, ht, he1⟩ := ht
    obtain ⟨N, s', hN, es, he, hcs⟩ := ih b2 s1 hda hpo
    refine ⟨N + 1, s', ?_, es, by rw [he, he1], hcs⟩
    intro fuel hf
    obtain ⟨n, rfl⟩ : ∃ n, fuel = n + 1 := ⟨fuel - 1, by omega⟩
    unfold vgLoop
    rw [hend]
    simp only [ht, Bool.false_eq_true, if_false]
    exact hN n (by omega)
  | @record p cs hnf h40 hgood hreg hkn hle hleg _ ih =>
    intro b s hd hp
    obtain ⟨hend, hx⟩ := going (s := s) hd h40 hp
    obtain ⟨b1, hr, x1⟩ := header_works env hx (by rw [List.length_drop]; omega)
    obtain ⟨⟨a, b2⟩, hbo⟩ := body_works env x1 hreg hkn (by rw [List.length_drop]; omega) hleg
    obtain ⟨e2, o2⟩ := record_body env x1.on hreg hnf a b2 hbo
    obtain ⟨hda, hpo⟩ := after (by omega) o2
    have hf' : ¬ ((Spec.headAt env (data.drop p)).vgClass = 0 ∧ (Spec.headAt env (data.drop p)).vgType = 22) := by
      show ¬ (((byteAt (data.drop p) 2 : Nat) : Int) = 0 ∧ ((byteAt (data.drop p) 1 : Nat) : Int) = 22)
      omega
    have ht : ∃ s1, vgTurn env s b = .ok (.next s1, b2) ∧
        s1.elements = s.elements ++ a.map fun q => ⟨q.1, Spec.headAt env (data.drop p), q.2⟩ := by
      unfold vgTurn
      rw [hr, ok_bind]
      dsimp only
      rw [hd, if_neg (fun hb => hgood ((invalid_iff env _ _).1 hb)), if_neg hf', hbo, ok_bind]
      exact ⟨_, rfl, rfl⟩
    obtain ⟨s1, ht, he1⟩ := ht
    obtain ⟨N, s', hN, es, he, hcs⟩ := ih b2 s1 hda hpo
    refine ⟨N + 1, s', ?_, a.map (fun q => ⟨q.1, Spec.headAt env (data.drop p), q.2⟩) ++ es, ?_, ?_⟩
    · intro fuel hf
      obtain ⟨n, rfl⟩ : ∃ n, fuel = n + 1 := ⟨fuel - 1, by omega⟩
      unfold vgLoop
      rw [hend]
      simp only [ht, Bool.false_eq_true, if_false]
      exact hN n (by omega)
    · rw [he, he1, List.append_assoc]
    · rw [List.map_append, hcs, List.map_map, ← e2, List.map_map]
      rfl

/-- **C115**: a file whose records are complete opens, and has exactly the elements that its records hold, in their order and
each with the header of its record. -/
theorem C115_opens (env : VgEnv ν) (data : Bytes) (cs : List (DHdr ν × String × Spec.Fields ν))
    (h : Spec.CompleteFile env data 0 cs) :
    ∃ N s, (∀ fuel, N ≤ fuel → openVgf env fuel data = .done s) ∧
      s.elements.map (fun e => (e.hdr, e.kind, shown e.attrs)) = cs := by
  obtain ⟨N, s, h1, es, h2, h3⟩ := loop_opens env h (IOBuffer.ofSource data) {} rfl (Or.inl rfl)
  have h2 : s.elements = es := h2
  exact ⟨N, s, h1, by rw [h2, h3]⟩

/-- A file of one symbol is complete. -/
theorem symbolFile_complete : Spec.CompleteFile env0 symbolFile 0
    ((Spec.contentAt env0 symbolFile).elems.map (fun e => (Spec.headAt env0 symbolFile, e)) ++ []) := by
  refine .record (p := 0) ?_ ?_ ?_ ?_ ?_ ?_ ?_ (.ended ?_)
  · decide +kernel
  · decide +kernel
  · unfold Spec.BadRecord; decide +kernel
  · trivial
  · trivial
  · decide +kernel
  · have h : (Spec.contentAt env0 symbolFile).elems.all (fun e => e.2.all fun f => f.2.isSome) = true := by decide +kernel
    intro e he f hf
    have := List.all_eq_true.1 (List.all_eq_true.1 h e he) f hf
    exact fun hn => by rw [hn] at this; cases this
  · decide +kernel

/-- So it opens and has one element. -/
example : ∃ N s, (∀ fuel, N ≤ fuel → openVgf env0 fuel symbolFile = .done s) ∧ s.elements.length = 1 := by
  obtain ⟨N, s, h, he⟩ := C115_opens env0 symbolFile _ symbolFile_complete
  refine ⟨N, s, h, ?_⟩
  have := congrArg List.length he
  rw [List.length_map] at this
  rw [this]
  decide +kernel

end Gempak
