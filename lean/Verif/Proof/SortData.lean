import Mathlib.Data.List.Forall2
import Verif.Proof.Select
import Verif.Model.SoundingData

/-!
# Lemmas on the order of levels
-/

namespace Gempak

variable {τ : Type}

theorem forall₂_get {β γ : Type} {R : β → γ → Prop} {l : List β} {r : List γ} (h : List.Forall₂ R l r) {k : Nat} {x : β} (hx : l[k]? = some x) :
    ∃ y, r[k]? = some y ∧ R x y := by
  induction h generalizing k with
  | nil => simp at hx
  | cons h _ ih =>
    cases k with
    | zero => exact ⟨_, rfl, by simpa using Option.some.inj hx ▸ h⟩
    | succ k => exact ih hx

theorem zipIdx_perm_range (l : List τ) : (l.zipIdx.map Prod.snd) = List.range l.length := by
  rw [List.zipIdx_map_snd, List.range_eq_range']

theorem sortOrder_perm (le : τ → τ → Bool) (desc : Bool) (lev : List τ) : (sortOrder le desc lev).Perm (List.range lev.length) := by
  have h : ((lev.zipIdx.mergeSort fun a b => le a.1 b.1).map Prod.snd).Perm (List.range lev.length) := by
    rw [← zipIdx_perm_range]
    exact (List.mergeSort_perm _ _).map _
  unfold sortOrder
  dsimp only
  split
  · exact (List.reverse_perm _).trans h
  · exact h

theorem takeAt_spec (order : List Nat) (l : List τ) (h : ∀ i ∈ order, i < l.length) :
    List.Forall₂ (fun i v => l[i]? = some v) order (takeAt order l) := by
  induction order with
  | nil => exact .nil
  | cons i r ih =>
    have hi := h i List.mem_cons_self
    unfold takeAt
    rw [List.filterMap_cons_some (b := l[i]) (by rw [List.getElem?_eq_getElem hi])]
    exact .cons (List.getElem?_eq_getElem hi) (ih fun j hj => h j (List.mem_cons_of_mem _ hj))

theorem takeAt_pairs (l : List τ) (ps : List (τ × Nat)) (h : ∀ p ∈ ps, l[p.2]? = some p.1) : takeAt (ps.map Prod.snd) l = ps.map Prod.fst := by
  induction ps with
  | nil => rfl
  | cons p r ih =>
    have hp := h p List.mem_cons_self
    unfold takeAt at ih ⊢
    rw [List.map_cons, List.map_cons, List.filterMap_cons_some (b := p.1) hp, ih fun q hq => h q (List.mem_cons_of_mem _ hq)]

theorem takeAt_reverse (l : List τ) (o : List Nat) : takeAt o.reverse l = (takeAt o l).reverse := by
  unfold takeAt
  rw [List.filterMap_reverse]

/-- The levels come out in order. -/
theorem takeAt_sorted (le : τ → τ → Bool) (tot : ∀ a b, (le a b || le b a) = true) (tr : ∀ a b c, le a b = true → le b c = true → le a c = true)
    (desc : Bool) (lev : List τ) :
    (takeAt (sortOrder le desc lev) lev).Pairwise fun a b => if desc then le b a = true else le a b = true := by
  have hs : (lev.zipIdx.mergeSort fun a b => le a.1 b.1).Pairwise fun a b => le a.1 b.1 = true :=
    List.pairwise_mergeSort (le := fun a b : τ × Nat => le a.1 b.1) (fun a b c => tr a.1 b.1 c.1) (fun a b => tot a.1 b.1) _
  have ht : takeAt ((lev.zipIdx.mergeSort fun a b => le a.1 b.1).map Prod.snd) lev = (lev.zipIdx.mergeSort fun a b => le a.1 b.1).map Prod.fst := by
    refine takeAt_pairs _ _ fun p hp => ?_
    rw [(List.mergeSort_perm _ _).mem_iff] at hp
    exact List.mem_zipIdx_iff_getElem?.1 hp
  unfold sortOrder
  dsimp only
  cases desc
  · rw [if_neg (by simp), ht, List.pairwise_map]
    exact hs.imp fun h => by simpa using h
  · rw [if_pos rfl, takeAt_reverse, ht, List.pairwise_reverse, List.pairwise_map]
    exact hs.imp fun h => by simpa using h

theorem nodup_pairs {α : Type} {l : List α} (hn : l.Nodup) {a b : α} (h1 : [a, b].Sublist l) (h2 : [b, a].Sublist l) : False := by
  induction l with
  | nil => cases h1
  | cons x r ih =>
    rw [List.nodup_cons] at hn
    rcases List.sublist_cons_iff.1 h1 with h | ⟨t, ht, h⟩
    · rcases List.sublist_cons_iff.1 h2 with h' | ⟨t', ht', h'⟩
      · exact ih hn.2 h h'
      · obtain ⟨rfl, rfl⟩ := List.cons.inj ht'
        exact hn.1 (h.subset (by simp))
    · obtain ⟨rfl, rfl⟩ := List.cons.inj ht
      rcases List.sublist_cons_iff.1 h2 with h' | ⟨t', ht', h'⟩
      · exact hn.1 (h'.subset (by simp))
      · obtain ⟨rfl, rfl⟩ := List.cons.inj ht'
        exact hn.1 (h'.subset (by simp))

/-- Levels that are equal in the order stay as they were when it ascends, and are turned round when it descends. -/
theorem sortOrder_ties (le : τ → τ → Bool) (tot : ∀ a b, (le a b || le b a) = true) (tr : ∀ a b c, le a b = true → le b c = true → le a c = true)
    (desc : Bool) (lev : List τ) :
    (sortOrder le desc lev).Pairwise fun i j => ∀ a b, lev[i]? = some a → lev[j]? = some b → le a b = true → le b a = true →
      if desc then j < i else i < j := by
  have hnd : (lev.zipIdx.map Prod.snd).Nodup := by rw [zipIdx_perm_range]; exact List.nodup_range
  have hmem : ∀ p ∈ lev.zipIdx.mergeSort (fun a b => le a.1 b.1), lev[p.2]? = some p.1 := by
    intro p hp
    have := (List.mergeSort_perm _ _).mem_iff.1 hp
    exact List.mk_mem_zipIdx_iff_getElem?.1 this
  have hnd2 : (lev.zipIdx.mergeSort (fun a b => le a.1 b.1)).Nodup :=
    (List.mergeSort_perm _ _).nodup_iff.2 hnd.of_map
  have hs : (lev.zipIdx.mergeSort fun a b => le a.1 b.1).Pairwise fun p q => le p.1 q.1 = true → le q.1 p.1 = true → p.2 < q.2 := by
    rw [List.pairwise_iff_forall_sublist]
    intro p q hpq _ h2
    by_contra hlt
    have hp := hmem p (hpq.subset (by simp))
    have hq := hmem q (hpq.subset (by simp))
    have hne : p.2 ≠ q.2 := by
      intro e
      rw [e, hq] at hp
      have : p = q := Prod.ext (Option.some.inj hp).symm e
      subst this
      have := hpq.nodup hnd2
      simp at this
    have hlt' : q.2 < p.2 := by omega
    have hsub : [q, p].Sublist lev.zipIdx := by
      have hd := List.take_append_drop p.2 lev.zipIdx
      have hq' : q ∈ lev.zipIdx.take p.2 := by
        rw [List.mem_take_iff_getElem]
        obtain ⟨hl, he⟩ := List.getElem?_eq_some_iff.1 hq
        have hpl := (List.getElem?_eq_some_iff.1 hp).1
        exact ⟨q.2, by simp; omega, by simp [he]⟩
      have hp' : p ∈ lev.zipIdx.drop p.2 := by
        obtain ⟨hl, he⟩ := List.getElem?_eq_some_iff.1 hp
        rw [List.mem_iff_getElem]
        exact ⟨0, by simp; omega, by simp [he]⟩
      rw [← hd]
      exact (List.singleton_sublist.2 hq').append (List.singleton_sublist.2 hp')
    exact nodup_pairs hnd2 hpq
      (List.pair_sublist_mergeSort (le := fun a b : τ × Nat => le a.1 b.1) (fun a b c => tr a.1 b.1 c.1) (fun a b => tot a.1 b.1) h2 hsub)
  have hs' : (lev.zipIdx.mergeSort fun a b => le a.1 b.1).Pairwise fun p q => ∀ a b, lev[p.2]? = some a → lev[q.2]? = some b →
      le a b = true → le b a = true → p.2 < q.2 := by
    refine hs.imp_of_mem fun {p q} hp hq h a b ha hb => ?_
    rw [hmem p hp] at ha
    rw [hmem q hq] at hb
    have ha := Option.some.inj ha
    have hb := Option.some.inj hb
    subst ha hb
    exact h
  unfold sortOrder
  dsimp only
  cases desc
  · rw [if_neg (by simp), List.pairwise_map]
    exact hs'.imp fun h a b ha hb h1 h2 => by simpa using h a b ha hb h1 h2
  · rw [if_pos rfl, List.pairwise_reverse, List.pairwise_map]
    exact hs'.imp fun h a b ha hb h1 h2 => by simpa using h b a hb ha h2 h1

/-- The same row of the table of levels and variables. -/
theorem sortData_at {le : τ → τ → Bool} {isMissing : τ → Bool} {desc : Bool} {lev : List τ} {vars : List (Text × List τ)}
    {out : List τ × List (Text × List (Option τ))} (h : sortData le isMissing desc lev vars = .ok out) :
    (sortOrder le desc lev).Perm (List.range lev.length) ∧ List.Forall₂ (fun i v => lev[i]? = some v) (sortOrder le desc lev) out.1 ∧
      out.1 = takeAt (sortOrder le desc lev) lev ∧
      List.Forall₂ (fun kv kw => kw.1 = kv.1 ∧ kv.2.length = lev.length ∧
        List.Forall₂ (fun i w => ∃ v, kv.2[i]? = some v ∧ w = if isMissing v then none else some v) (sortOrder le desc lev) kw.2) vars out.2 := by
  unfold sortData at h
  obtain ⟨vs, h1, h2⟩ := bind_inv h
  have e := Except.ok.inj h2
  have hp := sortOrder_perm le desc lev
  have hlt : ∀ i ∈ sortOrder le desc lev, i < lev.length := fun i hi => List.mem_range.1 (hp.mem_iff.1 hi)
  refine ⟨hp, ?_, ?_, ?_⟩
  · rw [← e]; exact takeAt_spec _ _ hlt
  · rw [← e]
  · rw [← e]
    dsimp only
    clear h h2 e
    induction vars generalizing vs with
    | nil => cases h1; exact .nil
    | cons kv r ih =>
      rw [List.mapM_cons] at h1
      obtain ⟨a, ha, h1⟩ := bind_inv h1
      obtain ⟨as, has, h1⟩ := bind_inv h1
      have e := Except.ok.inj h1
      rw [← e]
      unfold checkColumn at ha
      split at ha
      · rename_i hl
        have ea := Except.ok.inj ha
        rw [← ea]
        refine .cons ⟨rfl, hl, ?_⟩ (ih as has)
        have := takeAt_spec (sortOrder le desc lev) (kv.2.map fun v => if isMissing v then none else some v) (by
          intro i hi; rw [List.length_map, hl]; exact hlt i hi)
        refine this.imp fun i w hw => ?_
        rw [List.getElem?_map] at hw
        obtain ⟨v, hv, hw⟩ := Option.map_eq_some_iff.1 hw
        exact ⟨v, hv, hw.symm⟩
      · cases ha

/-- The same row of the table of levels and variables. -/
theorem sortData_spec {le : τ → τ → Bool} {isMissing : τ → Bool} {desc : Bool} {lev : List τ} {vars : List (Text × List τ)}
    {out : List τ × List (Text × List (Option τ))} (h : sortData le isMissing desc lev vars = .ok out) :
    ∃ σ : List Nat, σ.Perm (List.range lev.length) ∧ List.Forall₂ (fun i v => lev[i]? = some v) σ out.1 ∧
      out.1 = takeAt (sortOrder le desc lev) lev ∧
      List.Forall₂ (fun kv kw => kw.1 = kv.1 ∧ kv.2.length = lev.length ∧
        List.Forall₂ (fun i w => ∃ v, kv.2[i]? = some v ∧ w = if isMissing v then none else some v) σ kw.2) vars out.2 :=
  ⟨_, sortData_at h⟩

/-- When every column has as many values as there are levels, the dataset is made. -/
theorem sortData_ok (le : τ → τ → Bool) (isMissing : τ → Bool) (desc : Bool) (lev : List τ) (vars : List (Text × List τ))
    (h : ∀ kv ∈ vars, kv.2.length = lev.length) : ∃ out, sortData le isMissing desc lev vars = .ok out := by
  have : vars.mapM (checkColumn lev.length) = .ok vars := by
    induction vars with
    | nil => rfl
    | cons kv r ih =>
      rw [List.mapM_cons, ih fun x hx => h x (List.mem_cons_of_mem _ hx)]
      unfold checkColumn
      rw [if_pos (h kv List.mem_cons_self)]
      rfl
  unfold sortData
  rw [this]
  exact ⟨_, rfl⟩

end Gempak
