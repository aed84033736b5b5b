import Verif.Proof.Struct

/-!
# C43: named structures
-/

namespace Gempak

/-- Converter of a field, or the value itself. -/
def FieldInfo.apply {β : Type} (inj : Val → β) (i : FieldInfo β) (v : Val) : Except PyErr β :=
  match i.conv with
  | some c => c v
  | none => .ok (inj v)

/-- The named fields, in order. -/
def named {β : Type} (info : List (FieldInfo β)) : List (FieldInfo β) := info.filter (·.name.isSome)

/-- Shape of every structure in the code base: a field has a name and one value, or neither (padding). -/
def WellFormed {β : Type} (info : List (FieldInfo β)) : Prop :=
  ∀ i ∈ info, (∃ n f, i.name = some n ∧ i.fmt = some f ∧ f.hasVal = true) ∨
    (i.name = none ∧ i.conv = none ∧ (i.fmt = none ∨ ∃ n, i.fmt = some (.pad n)))

theorem convLoop_lt {β : Type} (info : List (FieldInfo β)) (h : WellFormed info) (ind off k : Nat)
    (hk : k < ind - off) (ho : off ≤ ind) : (NamedStruct.convLoop info ind off).lookup k = none := by
  induction info generalizing ind off with
  | nil => rfl
  | cons i is ih =>
    have hw : WellFormed is := fun j hj => h j (List.mem_cons_of_mem _ hj)
    unfold NamedStruct.convLoop
    rcases h i List.mem_cons_self with ⟨n, f, hn, hf, hv⟩ | ⟨hn, hc, _⟩
    · cases hc : i.conv with
      | some c =>
        simp only
        rw [List.lookup_cons]
        have : (k == ind - off) = false := by simp; omega
        rw [this]
        exact ih hw (ind + 1) off (by omega) (by omega)
      | none =>
        simp only [hn, Option.isNone_some, Bool.false_eq_true, if_false]
        exact ih hw (ind + 1) off (by omega) (by omega)
    · simp only [hc, hn, Option.isNone_none, if_true]
      exact ih hw (ind + 1) (off + 1) (by omega) (by omega)

theorem convLoop_lookup {β : Type} (info : List (FieldInfo β)) (h : WellFormed info) (ind off k : Nat)
    (ho : off ≤ ind) :
    (NamedStruct.convLoop info ind off).lookup (ind - off + k) = ((named info)[k]?).bind (·.conv) := by
  induction info generalizing ind off k with
  | nil => simp [NamedStruct.convLoop, named]
  | cons i is ih =>
    have hw : WellFormed is := fun j hj => h j (List.mem_cons_of_mem _ hj)
    unfold NamedStruct.convLoop
    rcases h i List.mem_cons_self with ⟨n, f, hn, hf, hv⟩ | ⟨hn, hc, _⟩
    · have hnamed : named (i :: is) = i :: named is := by simp [named, hn]
      rw [hnamed]
      cases hc : i.conv with
      | some c =>
        simp only
        cases k with
        | zero => simp [hc]
        | succ k =>
          rw [List.lookup_cons]
          have : (ind - off + (k + 1) == ind - off) = false := by simp
          rw [this]
          have := ih hw (ind + 1) off k (by omega)
          rw [show ind + 1 - off + k = ind - off + (k + 1) by omega] at this
          simpa using this
      | none =>
        simp only [hn, Option.isNone_some, Bool.false_eq_true, if_false]
        cases k with
        | zero =>
          have := convLoop_lt is hw (ind + 1) off (ind - off) (by omega) (by omega)
          simpa [hc] using this
        | succ k =>
          have := ih hw (ind + 1) off k (by omega)
          rw [show ind + 1 - off + k = ind - off + (k + 1) by omega] at this
          simpa using this
    · have hnamed : named (i :: is) = named is := by simp [named, hn]
      rw [hnamed]
      simp only [hc, hn, Option.isNone_none, if_true]
      have := ih hw (ind + 1) (off + 1) k (by omega)
      rwa [show ind + 1 - (off + 1) + k = ind - off + k by omega] at this

theorem mapM_zip_fields {β : Type} (inj : Val → β) (L : Nat → Option (Val → Except PyErr β)) :
    ∀ (fields : List (FieldInfo β)) (items : List Val) (base : Nat), items.length = fields.length →
    (∀ k, L (base + k) = (fields[k]?).bind (·.conv)) →
    (items.zipIdx base).mapM (fun x => NamedStruct.runConv inj (L x.2) x.1) =
      (fields.zip items).mapM (fun (i, v) => i.apply inj v) := by
  intro fields
  induction fields with
  | nil =>
    intro items base hl _
    have : items = [] := List.eq_nil_of_length_eq_zero (by simpa using hl)
    subst this
    rfl
  | cons i is ih =>
    intro items base hl hL
    cases items with
    | nil => simp at hl
    | cons v vs =>
      have h0 := hL 0
      simp at h0
      have := ih vs (base + 1) (by simpa using hl) (fun k => by
        have := hL (k + 1)
        rw [show base + 1 + k = base + (k + 1) by omega, this]
        simp)
      simp only [List.zipIdx_cons, List.mapM_cons, List.zip_cons_cons, this]
      rw [show NamedStruct.runConv inj (L base) v = i.apply inj v by
        rw [h0]; rfl]

theorem mapM_length {α β : Type} (f : α → Except PyErr β) (l : List α) (out : List β) (h : l.mapM f = .ok out) :
    out.length = l.length := by
  induction l generalizing out with
  | nil => simp [List.mapM_nil, pure, Except.pure] at h; subst h; rfl
  | cons a l ih =>
    rw [List.mapM_cons] at h
    cases hf : f a with
    | error e => simp [hf, bind, Except.bind] at h
    | ok b =>
      cases hl : l.mapM f with
      | error e => simp [hf, hl, bind, Except.bind] at h
      | ok bs =>
        simp [hf, hl, bind, Except.bind, pure, Except.pure] at h
        subst h
        simp [ih bs hl]

theorem create_eq {β : Type} (s : NamedStruct β) (hw : WellFormed s.info) (items : List Val)
    (hl : items.length = (named s.info).length) :
    s.create items = ((named s.info).zip items).mapM (fun (i, v) => i.apply s.inj v) := by
  have hn : s.names.length = (named s.info).length := by
    unfold NamedStruct.names named
    generalize s.info = info
    clear hl hw
    induction info with
    | nil => rfl
    | cons i is ih => cases h : i.name <;> simp [h, ih]
  unfold NamedStruct.create
  have hz := mapM_zip_fields s.inj (fun k => (NamedStruct.convLoop s.info 0 0).lookup k) (named s.info) items 0 hl
    (fun k => by
      have := convLoop_lookup s.info hw 0 0 k (by omega)
      simpa using this)
  simp only at hz ⊢
  rw [hz]
  cases hm : ((named s.info).zip items).mapM (fun (i, v) => i.apply s.inj v) with
  | error e => rfl
  | ok out =>
    have := mapM_length _ _ _ hm
    simp only [List.length_zip, hl, Nat.min_self] at this
    simp [bind, Except.bind, this, hn]

theorem valFmts_named {β : Type} (info : List (FieldInfo β)) (hw : WellFormed info) :
    valFmts (info.filterMap (·.fmt)) = (named info).filterMap (·.fmt) := by
  induction info with
  | nil => rfl
  | cons i is ih =>
    have hw' : WellFormed is := fun j hj => hw j (List.mem_cons_of_mem _ hj)
    rcases hw i List.mem_cons_self with ⟨n, f, hn, hf, hv⟩ | ⟨hn, _, hf | ⟨n, hf⟩⟩
    · have h1 : named (i :: is) = i :: named is := by simp [named, hn]
      rw [h1, List.filterMap_cons, List.filterMap_cons]
      simp only [hf]
      rw [valFmts, List.filter_cons_of_pos hv, ← ih hw']; rfl
    · have h1 : named (i :: is) = named is := by simp [named, hn]
      rw [h1, List.filterMap_cons]; simp only [hf]; exact ih hw'
    · have h1 : named (i :: is) = named is := by simp [named, hn]
      rw [h1, List.filterMap_cons]; simp only [hf]
      rw [valFmts, List.filter_cons_of_neg (by simp [Fmt.hasVal]), ← ih hw']; rfl

theorem named_fmt_length {β : Type} (info : List (FieldInfo β)) (hw : WellFormed info) :
    ((named info).filterMap (·.fmt)).length = (named info).length := by
  induction info with
  | nil => rfl
  | cons i is ih =>
    have hw' : WellFormed is := fun j hj => hw j (List.mem_cons_of_mem _ hj)
    rcases hw i List.mem_cons_self with ⟨n, f, hn, hf, hv⟩ | ⟨hn, _⟩
    · have h1 : named (i :: is) = i :: named is := by simp [named, hn]
      rw [h1, List.filterMap_cons]; simp only [hf, List.length_cons, ih hw']
    · have h1 : named (i :: is) = named is := by simp [named, hn]
      rw [h1]; exact ih hw'

/-- **C43.** Packing named values that fit their formats and unpacking the bytes gives, for every field, its own
converter applied to the value packed under its own name (strings cut or zero filled to their width), in either byte
order; the byte length is the declared size. -/
theorem C43_named_round_trip {β : Type} (s : NamedStruct β) (hw : WellFormed s.info) (kwargs : List (String × Val))
    (vals : List Val) (hk : kwargs.length = s.names.length)
    (hv : s.names.map (fun n => kwargs.lookup n) = vals.map some)
    (hfit : List.Forall₂ Fits ((named s.info).filterMap (·.fmt)) vals) :
    ∃ b, s.pack kwargs = .ok b ∧ b.length = s.size ∧
      s.unpack b = ((named s.info).zip (List.zipWith canon ((named s.info).filterMap (·.fmt)) vals)).mapM
        (fun (i, v) => i.apply s.inj v) := by
  have hvals : s.names.filterMap (fun n => kwargs.lookup n) = vals := by
    have : s.names.filterMap (fun n => kwargs.lookup n) = (s.names.map (fun n => kwargs.lookup n)).filterMap id := by
      rw [List.filterMap_map]; rfl
    rw [this, hv, List.filterMap_map]
    simp
  have hall : ∀ n ∈ s.names, (kwargs.lookup n).isSome := by
    intro n hn
    have : kwargs.lookup n ∈ s.names.map (fun n => kwargs.lookup n) := List.mem_map_of_mem (f := fun n => kwargs.lookup n) hn
    rw [hv] at this
    obtain ⟨v, _, h⟩ := List.mem_map.mp this
    rw [← h]; rfl
  have hvf := valFmts_named s.info hw
  obtain ⟨b, hb, hlen, hun⟩ := unpackItems_packFmts s.order s.fmts vals (by unfold NamedStruct.fmts; rw [hvf]; exact hfit)
  refine ⟨b, ?_, hlen, ?_⟩
  · unfold NamedStruct.pack
    rw [if_pos ⟨hk, hall⟩, hvals, hb]
  · have hun0 := hun []
    rw [List.append_nil] at hun0
    unfold NamedStruct.unpack unpackFmts
    rw [if_pos hlen, hun0]
    have hvf' : valFmts s.fmts = (named s.info).filterMap (·.fmt) := hvf
    simp only [bind, Except.bind, hvf']
    apply create_eq s hw
    rw [List.length_zipWith, ← hfit.length_eq, Nat.min_self, named_fmt_length s.info hw]

/-- **C43 (error branch).** Packing raises `struct.error` exactly when some value does not fit its format. -/
theorem C43_pack_rejects {β : Type} (s : NamedStruct β) (hw : WellFormed s.info) (kwargs : List (String × Val))
    (vals : List Val) (hk : kwargs.length = s.names.length)
    (hv : s.names.map (fun n => kwargs.lookup n) = vals.map some) :
    (∃ b, s.pack kwargs = .ok b) ↔ List.Forall₂ Fits ((named s.info).filterMap (·.fmt)) vals := by
  have hvals : s.names.filterMap (fun n => kwargs.lookup n) = vals := by
    have : s.names.filterMap (fun n => kwargs.lookup n) = (s.names.map (fun n => kwargs.lookup n)).filterMap id := by
      rw [List.filterMap_map]; rfl
    rw [this, hv, List.filterMap_map]
    simp
  have hall : ∀ n ∈ s.names, (kwargs.lookup n).isSome := by
    intro n hn
    have : kwargs.lookup n ∈ s.names.map (fun n => kwargs.lookup n) := List.mem_map_of_mem (f := fun n => kwargs.lookup n) hn
    rw [hv] at this
    obtain ⟨v, _, h⟩ := List.mem_map.mp this
    rw [← h]; rfl
  have hvf : valFmts s.fmts = (named s.info).filterMap (·.fmt) := valFmts_named s.info hw
  unfold NamedStruct.pack
  rw [if_pos ⟨hk, hall⟩, hvals, packFmts_ok_iff, hvf]

/-- A structure with padding in the middle and a converter after it. -/
def demoStruct : NamedStruct Int where
  info := [⟨some "a", some .i32, none⟩, ⟨none, some (.pad 3), none⟩,
    ⟨some "b", some .u8, some (fun v => match v with | .int i => .ok (i * 10) | _ => .error .typeError)⟩,
    ⟨none, none, none⟩]
  order := .big
  inj := fun v => match v with | .int i => i | _ => 0

example : demoStruct.pack [("b", .int 7), ("a", .int (-2))] = .ok [255, 255, 255, 254, 0, 0, 0, 7] ∧
    demoStruct.unpack [255, 255, 255, 254, 0, 0, 0, 7] = .ok [-2, 70] := by
  constructor <;> rfl

example : WellFormed demoStruct.info := by
  intro i hi
  simp [demoStruct] at hi
  rcases hi with rfl | rfl | rfl | rfl <;> simp [Fmt.hasVal]

end Gempak
