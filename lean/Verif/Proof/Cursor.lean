import Verif.Model.Cursor
import Verif.Proof.DMRead

/-!
# Code on a buffer and the positions it reads at

`Spec.At` says what code gives when it starts at a position of a buffer whose first mark is the beginning of the file.
-/

namespace Gempak

open Cur

/-- Started at position `p` of these bytes, with the first mark at the beginning and any other marks, the code gives `r`;
the bytes and the first mark are as before. -/
def Spec.At {ε α : Type} (b : Bytes) (p : Int) (c : Cur ε α) (r : Except ε α) : Prop :=
  ∀ M, ∃ o M', c ⟨b, p, 0 :: M⟩ = (r, ⟨b, o, 0 :: M'⟩)

/-- The same wherever it starts. -/
def Spec.Anywhere {ε α : Type} (b : Bytes) (c : Cur ε α) (r : Except ε α) : Prop := ∀ p, Spec.At b p c r

/-- With the position at which it ends. -/
def Spec.Moves {ε α : Type} (b : Bytes) (p : Int) (c : Cur ε α) (r : Except ε (α × Int)) : Prop :=
  ∀ M, ∃ o M', c ⟨b, p, 0 :: M⟩ = (r.map Prod.fst, ⟨b, o, 0 :: M'⟩) ∧ ∀ x, r = .ok x → o = x.2

open Spec

section
variable {ε α β : Type} {b : Bytes} {p : Int}

theorem cur_bind_ok {c : Cur ε α} {k : α → Cur ε β} {s t : IOBuffer} {a : α} (h : c s = (.ok a, t)) : (c >>= k) s = k a t := by
  show (ExceptT.bind c k) s = _
  simp only [ExceptT.bind, ExceptT.mk, bind, StateT.bind, ExceptT.bindCont]
  have : (c : IOBuffer → Id (Except ε α × IOBuffer)) s = (.ok a, t) := h
  rw [this]

theorem cur_bind_error {c : Cur ε α} {k : α → Cur ε β} {s t : IOBuffer} {e : ε} (h : c s = (.error e, t)) :
    (c >>= k) s = (.error e, t) := by
  show (ExceptT.bind c k) s = _
  simp only [ExceptT.bind, ExceptT.mk, bind, StateT.bind, ExceptT.bindCont]
  have : (c : IOBuffer → Id (Except ε α × IOBuffer)) s = (.error e, t) := h
  rw [this]; rfl

theorem Spec.At.congr {c : Cur ε α} {r r' : Except ε α} (h : At b p c r) (hr : r = r') : At b p c r' := hr ▸ h

theorem Spec.Moves.at_ {c : Cur ε α} {r : Except ε (α × Int)} (h : Moves b p c r) : At b p c (r.map Prod.fst) := fun M => by
  obtain ⟨o, M', h1, -⟩ := h M
  exact ⟨o, M', h1⟩

theorem Spec.Moves.bind_at {c : Cur ε α} {k : α → Cur ε β} {r : Except ε (α × Int)} {g : α × Int → Except ε β} (h : Moves b p c r)
    (hk : ∀ a q, r = .ok (a, q) → At b q (k a) (g (a, q))) : At b p (c >>= k) (r >>= g) := fun M => by
  obtain ⟨o, M', h1, h2⟩ := h M
  cases r with
  | error e => exact ⟨o, M', cur_bind_error h1⟩
  | ok x =>
    obtain ⟨a, q⟩ := x
    obtain rfl := h2 _ rfl
    obtain ⟨o2, M2, h3⟩ := hk a _ rfl M'
    exact ⟨o2, M2, (cur_bind_ok h1).trans h3⟩

theorem Spec.Moves.bind {c : Cur ε α} {k : α → Cur ε β} {r : Except ε (α × Int)} {g : α × Int → Except ε (β × Int)} (h : Moves b p c r)
    (hk : ∀ a q, r = .ok (a, q) → Moves b q (k a) (g (a, q))) : Moves b p (c >>= k) (r >>= g) := fun M => by
  obtain ⟨o, M', h1, h2⟩ := h M
  cases r with
  | error e => exact ⟨o, M', cur_bind_error h1, fun x h => nomatch h⟩
  | ok x =>
    obtain ⟨a, q⟩ := x
    obtain rfl := h2 _ rfl
    obtain ⟨o2, M2, h3, h4⟩ := hk a _ rfl M'
    exact ⟨o2, M2, (cur_bind_ok h1).trans h3, h4⟩

theorem Spec.At.bind {c : Cur ε α} {k : α → Cur ε β} {r : Except ε α} {g : α → Except ε β} (h : At b p c r)
    (hk : ∀ a, r = .ok a → Anywhere b (k a) (g a)) : At b p (c >>= k) (r >>= g) := fun M => by
  obtain ⟨o, M', h1⟩ := h M
  cases r with
  | error e => exact ⟨o, M', cur_bind_error h1⟩
  | ok a =>
    obtain ⟨o2, M2, h3⟩ := hk a rfl o M'
    exact ⟨o2, M2, (cur_bind_ok h1).trans h3⟩

theorem anywhere_bind {c : Cur ε α} {k : α → Cur ε β} {r : Except ε α} {g : α → Except ε β} (h : Anywhere b c r)
    (hk : ∀ a, r = .ok a → Anywhere b (k a) (g a)) : Anywhere b (c >>= k) (r >>= g) := fun p => (h p).bind hk

theorem anywhere_result (x : Except ε α) : Anywhere b (result x) x := fun p M => ⟨p, M, rfl⟩

theorem anywhere_pure (a : α) : Anywhere b (pure a : Cur ε α) (.ok a) := fun p M => ⟨p, M, rfl⟩

theorem moves_pure (a : α) : Moves b p (pure a : Cur ε α) (.ok (a, p)) := fun M => ⟨p, M, rfl, fun _ h => by cases h; rfl⟩

theorem moves_result (x : Except ε α) : Moves b p (result x) (x.map fun a => (a, p)) := fun M => by
  refine ⟨p, M, ?_, ?_⟩
  · cases x <;> rfl
  · cases x with
    | error e => exact fun _ h => nomatch h
    | ok a => intro y h; cases h; rfl

theorem at_result_bind {x : Except ε α} {k : α → Cur ε β} {g : α → Except ε β} (hk : ∀ a, x = .ok a → At b p (k a) (g a)) :
    At b p (result x >>= k) (x >>= g) := by
  cases x with
  | error e => exact fun M => ⟨p, M, cur_bind_error rfl⟩
  | ok a =>
    intro M
    obtain ⟨o, M', h⟩ := hk a rfl M
    exact ⟨o, M', (cur_bind_ok rfl).trans h⟩

theorem anywhere_result_bind {x : Except ε α} {k : α → Cur ε β} {g : α → Except ε β} (hk : ∀ a, x = .ok a → Anywhere b (k a) (g a)) :
    Anywhere b (result x >>= k) (x >>= g) := fun _ => at_result_bind fun a h => hk a h _

theorem moves_jump (off : Int) : Moves b p (jump 0 off) (.ok ((), off)) := fun M =>
  ⟨off, M, by simp [jump, IOBuffer.jumpTo]; rfl, fun _ h => by cases h; rfl⟩

theorem at_jump {off : Int} {k : Unit → Cur PyErr β} {r : Except PyErr β} (h : At b off (k ()) r) : At b p (jump 0 off >>= k) r :=
  (moves_jump off).bind_at (g := fun _ => r) fun _ _ hq => by cases hq; exact h

theorem anywhere_jump {off : Int} {k : Unit → Cur PyErr β} {r : Except PyErr β} (h : At b off (k ()) r) :
    Anywhere b (jump 0 off >>= k) r := fun _ => at_jump h

theorem moves_word (e : Endian) : Moves b p (word e : Cur ε Int) (.ok (readWord e b p, p + (pySlice b p (p + 4)).length)) := fun M =>
  ⟨_, M, rfl, fun _ h => by cases h; rfl⟩

theorem at_word {e : Endian} {k : Int → Cur ε β} {r : Except ε β}
    (h : At b (p + (pySlice b p (p + 4)).length) (k (readWord e b p)) r) : At b p (word e >>= k) r :=
  (moves_word e).bind_at (g := fun _ => r) fun _ _ hq => by cases hq; exact h

theorem moves_fields (e : Endian) (fs : List Fmt) (conv : List Val → Except PyErr α) :
    Moves b p (fields e fs conv) ((unpackFrom e fs b p >>= conv).map fun a => (a, p + fmtSize fs)) := fun M => by
  cases h : unpackFrom e fs b p >>= conv with
  | error x => exact ⟨p, M, by simp only [fields, h]; rfl, fun _ h => nomatch h⟩
  | ok a => exact ⟨p + fmtSize fs, M, by simp only [fields, h]; rfl, fun _ h => by cases h; rfl⟩

theorem at_fields {e : Endian} {fs : List Fmt} {conv : List Val → Except PyErr α} {k : α → Cur PyErr β} {g : α → Except PyErr β}
    (h : ∀ a, unpackFrom e fs b p >>= conv = .ok a → At b (p + fmtSize fs) (k a) (g a)) :
    At b p (fields e fs conv >>= k) ((unpackFrom e fs b p >>= conv) >>= g) := by
  refine ((moves_fields e fs conv).bind_at (g := fun x => g x.1) ?_).congr ?_
  · intro a q hq
    cases hx : unpackFrom e fs b p >>= conv with
    | error x => rw [hx] at hq; cases hq
    | ok y => rw [hx] at hq; cases hq; exact h _ hx
  · cases unpackFrom e fs b p >>= conv <;> rfl

theorem at_fields_last {e : Endian} {fs : List Fmt} {conv : List Val → Except PyErr α} :
    At b p (fields e fs conv) (unpackFrom e fs b p >>= conv) :=
  (moves_fields e fs conv).at_.congr (by cases unpackFrom e fs b p >>= conv <;> rfl)

theorem at_vals {e : Endian} {fs : List Fmt} {k : List Val → Cur PyErr β} {g : List Val → Except PyErr β}
    (h : ∀ a, unpackFrom e fs b p = .ok a → At b (p + fmtSize fs) (k a) (g a)) :
    At b p (vals e fs >>= k) (unpackFrom e fs b p >>= g) := by
  have h0 : ∀ x : Except PyErr (List Val), (x >>= fun a => Except.ok a) = x := fun x => by cases x <;> rfl
  refine (at_fields (conv := .ok) (g := g) fun a ha => h a ?_).congr ?_
  · rw [← h0 (unpackFrom e fs b p)]; exact ha
  · congr 1; exact h0 _

theorem at_vals_last {e : Endian} {fs : List Fmt} : At b p (vals e fs) (unpackFrom e fs b p) :=
  at_fields_last.congr (by cases unpackFrom e fs b p <;> rfl)

theorem cur_mark (M : List Int) : (mark : Cur ε Nat) ⟨b, p, 0 :: M⟩ = (.ok (M.length + 1), ⟨b, p, 0 :: (M ++ [p])⟩) := rfl

theorem cur_word (e : Endian) (M : List Int) :
    (word e : Cur ε Int) ⟨b, p, 0 :: M⟩ = (.ok (readWord e b p), ⟨b, p + (pySlice b p (p + 4)).length, 0 :: M⟩) := rfl

theorem cur_jump_start (off : Int) (M : List Int) : jump 0 off ⟨b, p, 0 :: M⟩ = (.ok (), ⟨b, off, 0 :: M⟩) := by
  simp [jump, IOBuffer.jumpTo]

theorem cur_jump_last (q off : Int) (M : List Int) :
    jump (M.length + 1) off ⟨b, p, 0 :: (M ++ [q])⟩ = (.ok (), ⟨b, q + off, 0 :: (M ++ [q])⟩) := by
  simp [jump, IOBuffer.jumpTo]

theorem moves_record (i : DMInfo) (part : PartInfo) (ptr : Int) :
    Moves b p (curRecord 0 i part ptr) (.ok (readWord i.order b (wordToPosition ptr),
      wordToPosition ptr + (pySlice b (wordToPosition ptr) (wordToPosition ptr + 4)).length + wordToPosition (part.headerLength + 1))) := fun M => by
  refine ⟨_, M ++ [wordToPosition ptr + (pySlice b (wordToPosition ptr) (wordToPosition ptr + 4)).length], ?_, fun _ h => by cases h; rfl⟩
  unfold curRecord
  rw [cur_bind_ok (cur_jump_start _ M), cur_bind_ok (cur_word _ M), cur_bind_ok (cur_mark M), cur_bind_ok (cur_jump_last _ _ M)]
  rfl

theorem at_record {i : DMInfo} {part : PartInfo} {ptr : Int} {k : Int → Cur PyErr β} {r : Except PyErr β}
    (h : At b (wordToPosition ptr + (pySlice b (wordToPosition ptr) (wordToPosition ptr + 4)).length + wordToPosition (part.headerLength + 1))
      (k (readWord i.order b (wordToPosition ptr))) r) : At b p (curRecord 0 i part ptr >>= k) r :=
  (moves_record i part ptr).bind_at (g := fun _ => r) fun _ _ hq => by cases hq; exact h

theorem anywhere_pointer (i : DMInfo) (irow icol iprt : Nat) :
    Anywhere b (curPointer 0 i irow icol iprt) (.ok (dataPointer i b irow icol iprt)) :=
  anywhere_jump (moves_word _).at_

theorem anywhere_pointer_bind {i : DMInfo} {irow icol iprt : Nat} {k : Int → Cur PyErr β} {r : Except PyErr β}
    (h : Anywhere b (k (dataPointer i b irow icol iprt)) r) : Anywhere b (curPointer 0 i irow icol iprt >>= k) r :=
  anywhere_bind (g := fun _ => r) (anywhere_pointer i irow icol iprt) fun a ha => by cases ha; exact h

theorem anywhere_mapM {c : α → Cur ε β} {r : α → Except ε β} (h : ∀ x, Anywhere b (c x) (r x)) :
    ∀ l : List α, Anywhere b (l.mapM c) (l.mapM r)
  | [] => anywhere_pure _
  | x :: l => by
    rw [List.mapM_cons, List.mapM_cons]
    exact anywhere_bind (h x) fun a _ => anywhere_bind (anywhere_mapM h l) fun y _ => anywhere_pure _

theorem anywhere_mapErr {δ : Type} {g : ε → δ} {c : Cur ε α} {r : Except ε α} (h : Anywhere b c r) :
    Anywhere b (mapErr g c) (r.mapError g) := fun p M => by
  obtain ⟨o, M', h1⟩ := h p M
  refine ⟨o, M', ?_⟩
  simp only [mapErr]
  rw [h1]
  cases r <;> rfl

end

/-! ## Opening -/

section
variable {b : Bytes} {p : Int}

theorem at_headerLoop {α : Type} (e : Endian) (fs : List Fmt) (conv : List Val → Except PyErr α) :
    ∀ n p, At b p (curHeaderLoop e fs conv n) (readHeaders e b fs conv n p)
  | 0, p => anywhere_pure _ p
  | n + 1, p => by
    unfold curHeaderLoop readHeaders
    refine at_word ?_
    by_cases h : readWord e b p = 9999
    · simp only [h, if_true]
      refine at_fields fun a _ => ?_
      exact (at_headerLoop e fs conv n _).bind fun y _ => anywhere_pure _
    · simp only [h, if_false]
      exact at_headerLoop e fs conv n _

theorem anywhere_headers {α : Type} (e : Endian) (fs : List Fmt) (conv : List Val → Except PyErr α) (n : Nat) (ptr : Int) :
    Anywhere b (curHeaders 0 e fs conv n ptr) (readHeaders e b fs conv n (wordToPosition ptr)) :=
  anywhere_jump (at_headerLoop e fs conv n _)

theorem anywhere_keys (e : Endian) (ptr n : Int) : Anywhere b (curKeys 0 e ptr n) (readKeys e b ptr n) :=
  anywhere_jump at_fields_last


theorem moves_many {α : Type} {one : Cur PyErr α} {rd : Int → Except PyErr α} (h : ∀ p, Moves b p one ((rd p).map fun a => (a, p + 4))) :
    ∀ (l : List Nat) (p : Int), Moves b p (l.mapM fun _ => one) (readMany rd l.length p)
  | [], p => moves_pure _
  | _ :: l, p => by
    rw [List.mapM_cons, List.length_cons, readMany]
    have h1 := h p
    cases hr : rd p with
    | error e =>
      rw [hr] at h1
      exact h1.bind (g := fun _ => .error e) fun a q hq => nomatch hq
    | ok a =>
      rw [hr] at h1
      refine h1.bind (g := fun _ => (readMany rd l.length (p + 4)) >>= fun r => .ok (a :: r.1, r.2)) fun a' q hq => ?_
      cases hq
      exact (moves_many h l _).bind (g := fun r => .ok (a :: r.1, r.2)) fun y q _ => moves_pure _

theorem moves_times {α : Type} {one : Cur PyErr α} {rd : Int → Except PyErr α} (h : ∀ p, Moves b p one ((rd p).map fun a => (a, p + 4)))
    (n : Nat) (p : Int) : Moves b p (times n fun _ => one) (readMany rd n p) := by
  have := moves_many (b := b) h (List.range n) p
  rwa [List.length_range] at this

theorem moves_attr {α : Type} {one : Cur PyErr α} {rd : Int → Except PyErr α} (h : ∀ p, Moves b p one ((rd p).map fun a => (a, p + 4))) :
    ∀ (l : List Nat) (p : Int), Moves b p (curAttr one l) (readPerPart rd l p)
  | [], p => moves_pure _
  | n :: l, p => by
    rw [curAttr, List.mapM_cons, readPerPart]
    refine (moves_times h n p).bind fun a q _ => ?_
    exact (moves_attr h l q).bind (g := fun r => .ok (a :: r.1, r.2)) fun y q _ => moves_pure _

theorem moves_name (e : Endian) (p : Int) : Moves b p (curName e) ((readName e b p).map fun a => (a, p + 4)) := moves_fields e [.str 4] _

theorem moves_num (e : Endian) (p : Int) : Moves b p (curNum e) ((readI e b p).map fun a => (a, p + 4)) := moves_fields e [.i32] _

theorem anywhere_params (e : Endian) (ptr : Int) (parts : List PartInfo) : Anywhere b (curParams 0 e ptr parts) (readParams e b ptr parts) := by
  unfold curParams readParams
  refine anywhere_jump ?_
  refine (moves_attr (moves_name e) _ _).bind_at fun a q _ => ?_
  refine (moves_attr (moves_num e) _ _).bind_at fun a q _ => ?_
  refine (moves_attr (moves_num e) _ _).bind_at fun a q _ => ?_
  exact (moves_attr (moves_num e) _ _).bind_at fun a q _ => anywhere_pure _ _

theorem parts_loop (e : Endian) (ptr : Int) (total : Nat) : ∀ n k : Nat, n + k = total →
    At b (wordToPosition (ptr + (k : Nat))) ((List.range' k n).mapM fun k => do
      let p ← fields e (partFmts total) partOf
      jump 0 (wordToPosition (ptr + ((k + 1 : Nat) : Int)))
      return p) (readParts e b ptr total n)
  | 0, k, _ => anywhere_pure _ _
  | n + 1, k, h => by
    rw [List.range'_succ, List.mapM_cons, readParts]
    have hk : total - (n + 1) = k := by omega
    rw [hk]
    simp only [bind_assoc]
    refine (at_fields (g := fun x => readParts e b ptr total n >>= fun t => .ok (x :: t)) fun a _ => at_jump ?_).congr
      (by simp only [bind_assoc])
    simp only [pure_bind]
    exact (parts_loop e ptr total n (k + 1) (by omega)).bind fun y _ => anywhere_pure _

theorem anywhere_parts (e : Endian) (ptr : Int) (total : Nat) : Anywhere b (curParts 0 e ptr total) (readParts e b ptr total total) := by
  unfold curParts times
  rw [List.range_eq_range']
  have := parts_loop (b := b) e ptr total total 0 rfl
  rw [Nat.cast_zero, add_zero] at this
  exact anywhere_jump this

/-- A word that cannot be read whole lies at the end: nothing more can be read after it. -/
theorem word_then_fields (e : Endian) (fs : List Fmt) (hfs : 0 < fmtSize fs) (hb : 8 ≤ b.length) (hp : 0 ≤ p + b.length)
    (h : readWord e b p ≠ 0) : (pySlice b p (p + 4)).length = 4 ∨
      unpackFrom e fs b (p + (pySlice b p (p + 4)).length) = .error .structError ∧ unpackFrom e fs b (p + 4) = .error .structError := by
  unfold readWord at h
  have hne : pySlice b p (p + 4) ≠ [] := fun h0 => h (by rw [h0]; cases e <;> rfl)
  have hpos : 0 < (pySlice b p (p + 4)).length := List.length_pos_of_ne_nil hne
  have hlen : (pySlice b p (p + 4)).length = 4 ∨ (b.length : Int) < p + 4 ∧ 0 ≤ p ∧ p + (pySlice b p (p + 4)).length = b.length := by
    revert hpos
    simp only [pySlice, List.length_take, List.length_drop]
    split_ifs <;> omega
  rcases hlen with h4 | ⟨h1, h2, h3⟩
  · exact Or.inl h4
  · right
    rw [h3]
    unfold unpackFrom
    simp only
    constructor
    · rw [if_neg (by omega), if_neg (by omega)]
    · rw [if_neg (by omega), if_neg (by omega)]

theorem unpackFrom_within {e : Endian} {fs : List Fmt} {vs : List Val} (h : unpackFrom e fs b p = .ok vs) :
    0 ≤ p + b.length ∧ (fmtSize fs : Nat) ≤ b.length := by
  unfold unpackFrom at h
  simp only at h
  split_ifs at h <;> constructor <;> omega

theorem navReadFmts_size : fmtSize navReadFmts = 1024 := by decide +kernel

theorem at_fields_error {e : Endian} {fs : List Fmt} {α β : Type} {conv : List Val → Except PyErr α} {k : α → Cur PyErr β} {x : PyErr}
    (h : unpackFrom e fs b p = .error x) : At b p (fields e fs conv >>= k) (.error x) := by
  refine (at_fields (g := fun _ => .error x) fun a ha => ?_).congr ?_
  · rw [h] at ha; cases ha
  · rw [h]; rfl

theorem at_mark_jump {α β : Type} {e : Endian} {fs : List Fmt} {conv : List Val → Except PyErr α} {k : α → Cur PyErr β}
    {g : α → Except PyErr β} (h : ∀ a, unpackFrom e fs b p >>= conv = .ok a → At b p (k a) (g a)) :
    At b p (mark >>= fun m => fields e fs conv >>= fun a => jump m 0 >>= fun _ => k a) ((unpackFrom e fs b p >>= conv) >>= g) := fun M => by
  rw [cur_bind_ok (cur_mark M)]
  cases hr : unpackFrom e fs b p >>= conv with
  | error x => exact ⟨p, M ++ [p], cur_bind_error (by simp only [fields, hr])⟩
  | ok a =>
    have h1 : fields e fs conv ⟨b, p, 0 :: (M ++ [p])⟩ = (.ok a, ⟨b, p + fmtSize fs, 0 :: (M ++ [p])⟩) := by
      simp only [fields, hr]; rfl
    rw [cur_bind_ok h1, cur_bind_ok (cur_jump_last p 0 M), add_zero]
    exact h a hr (M ++ [p])

/-- The analysis block, from its first word. -/
def anlPart (e : Endian) (b : Bytes) (keys nav : List Val) (p : Int) : Except PyErr (Option Blocks) := do
  match ← unpackFrom e [.f32] b p with
  | [.flt t] =>
    if t = 0x3F800000#32 then do .ok (some ⟨keys, nav, some (← unpackFrom e anl1ReadFmts b p)⟩)
    else if t = 0x40000000#32 then do .ok (some ⟨keys, nav, some (← unpackFrom e anl2ReadFmts b p)⟩)
    else .ok (some ⟨keys, nav, none⟩)
  | _ => .error .indexError

theorem at_anl (e : Endian) (keys nav : List Val) :
    At b p (mark >>= fun m => (fields e [.f32] fun vs => match vs with | [.flt t] => .ok t | _ => .error .indexError) >>= fun t =>
      jump m 0 >>= fun _ =>
        if t = 0x3F800000#32 then do return some ⟨keys, nav, some (← vals e anl1ReadFmts)⟩
        else if t = 0x40000000#32 then do return some ⟨keys, nav, some (← vals e anl2ReadFmts)⟩
        else return some ⟨keys, nav, none⟩) (anlPart e b keys nav p) := by
  refine (at_mark_jump (g := fun t =>
    if t = 0x3F800000#32 then unpackFrom e anl1ReadFmts b p >>= fun x => .ok (some ⟨keys, nav, some x⟩)
    else if t = 0x40000000#32 then unpackFrom e anl2ReadFmts b p >>= fun x => .ok (some ⟨keys, nav, some x⟩)
    else .ok (some ⟨keys, nav, none⟩)) fun t _ => ?_).congr ?_
  · split_ifs
    · exact at_vals fun _ _ => anywhere_pure _ _
    · exact at_vals fun _ _ => anywhere_pure _ _
    · exact anywhere_pure _ _
  · unfold anlPart
    cases unpackFrom e [.f32] b p with
    | error x => rfl
    | ok vs =>
      show ((match vs with | [.flt t] => Except.ok t | _ => .error .indexError : Except PyErr F32) >>= _) = _
      rw [ok_bind]
      split <;> rfl

theorem anywhere_blocks (hb : 8 ≤ b.length) (e : Endian) (l : Label) : Anywhere b (curBlocks 0 e l) (readBlocks e b l) := by
  unfold curBlocks readBlocks
  by_cases hf : l.fileHeaders > 0
  · rw [if_pos hf, if_pos hf]
    refine anywhere_jump ?_
    refine at_vals fun keys hkeys => ?_
    have hq : 0 ≤ wordToPosition l.fileKeysPtr + fmtSize (List.replicate l.fileHeaders.toNat (.str 4) ++ List.replicate l.fileHeaders.toNat .i32
      ++ List.replicate l.fileHeaders.toNat .i32) + (b.length : Int) := by have := (unpackFrom_within hkeys).1; omega
    revert hq
    generalize wordToPosition l.fileKeysPtr + fmtSize (List.replicate l.fileHeaders.toNat (.str 4) ++ List.replicate l.fileHeaders.toNat .i32
      ++ List.replicate l.fileHeaders.toNat .i32) = q
    intro hq
    refine at_word ?_
    by_cases hw : readWord e b q = 256
    · rw [if_neg (not_not_intro hw), if_neg (not_not_intro hw)]
      rcases word_then_fields e navReadFmts (by rw [navReadFmts_size]; omega) hb hq (by rw [hw]; decide) with h4 | ⟨h1, h2⟩
      · rw [h4]
        refine (at_fields (g := fun nav => if readWord e b (q + 4 + fmtSize navReadFmts) ≠ 128 then .error .valueError
          else anlPart e b keys nav (q + 4 + fmtSize navReadFmts + 4)) fun nav hnav => ?_).congr ?_
        · refine at_word ?_
          by_cases hw2 : readWord e b (q + 4 + fmtSize navReadFmts) = 128
          · have hw2' : readWord e b (q + ((4 : Nat) : Int) + fmtSize navReadFmts) = 128 := hw2
            simp only [hw2, hw2', ne_eq, not_true, if_false]
            rcases word_then_fields (p := q + 4 + fmtSize navReadFmts) e [.f32] (by decide) hb (by omega) (by rw [hw2]; decide) with h4' | ⟨h1, h2⟩
            · have h5 : (pySlice b (q + ((4 : Nat) : Int) + fmtSize navReadFmts) (q + ((4 : Nat) : Int) + fmtSize navReadFmts + 4)).length = 4 := h4'
              rw [h5]
              exact at_anl e keys nav
            · have h1' : unpackFrom e [.f32] b (q + ((4 : Nat) : Int) + fmtSize navReadFmts
                + (pySlice b (q + ((4 : Nat) : Int) + fmtSize navReadFmts) (q + ((4 : Nat) : Int) + fmtSize navReadFmts + 4)).length) = .error .structError := h1
              refine (at_anl e keys nav).congr ?_
              unfold anlPart
              rw [h1', h2]
              rfl
          · have hw2' : ¬ readWord e b (q + ((4 : Nat) : Int) + fmtSize navReadFmts) = 128 := hw2
            simp only [hw2, hw2', ne_eq, not_false_eq_true, if_true]
            exact fun M => ⟨_, _, cur_bind_ok (cur_mark M)⟩
        · show _ = (unpackFrom e navReadFmts b (q + 4) >>= _)
          rw [show q + ((4 : Nat) : Int) = q + 4 from rfl]
          cases unpackFrom e navReadFmts b (q + 4) with
          | error x => rfl
          | ok nav =>
            rw [ok_bind, ok_bind]
            by_cases hd : navDecodable nav
            · rw [if_neg (not_not_intro hd), if_neg (not_not_intro hd)]; rfl
            · rw [if_pos hd, if_pos hd]; rfl
      · rw [h2]
        exact at_fields_error h1
    · rw [if_pos hw, if_pos hw]
      exact anywhere_result _ _
  · rw [if_neg hf, if_neg hf]
    exact anywhere_pure _

theorem banner_fields (b : Bytes) : (unpackFrom .little [.str 28] b 0 >>= fun vs =>
    match vs with
    | [.str t] =>
      match utf8Dec t with
      | none => .error .unicodeError
      | some x => if x = txt "GEMPAK DATA MANAGEMENT FILE " then .ok () else .error .typeError
    | _ => .error .typeError) = readBanner b := by
  unfold readBanner unpackFrom
  by_cases h : b.length < 28
  · rw [if_pos h]
    simp only [lt_irrefl, if_false, Int.toNat_zero, zero_add]
    rw [if_neg (by show ¬ 28 ≤ b.length; omega)]
    rfl
  · rw [if_neg h]
    simp only [lt_irrefl, if_false, Int.toNat_zero, zero_add, List.drop_zero]
    rw [if_pos (by show 28 ≤ b.length; omega), ok_bind]
    rfl

theorem at_peek {β : Type} {k : Bytes → Cur PyErr β} {r : Except PyErr β} (h : At b p (k (pySlice b p (p + 4))) r) :
    At b p (mark >>= fun m => bytes 4 >>= fun w => jump m 0 >>= fun _ => k w) r := fun M => by
  rw [cur_bind_ok (cur_mark M)]
  have h1 : (bytes 4 : Cur PyErr Bytes) ⟨b, p, 0 :: (M ++ [p])⟩
      = (.ok (pySlice b p (p + 4)), ⟨b, p + (pySlice b p (p + 4)).length, 0 :: (M ++ [p])⟩) := rfl
  rw [cur_bind_ok h1, cur_bind_ok (cur_jump_last p 0 M), add_zero]
  exact h (M ++ [p])

/-- Everything after the label. -/
def structureOf (b : Bytes) (e : Endian) (l : Label) : Except PyErr DMInfo := do
  let blocks ← readBlocks e b l
  let dm ← unpackFrom e (List.replicate 32 .i32) b (wordToPosition l.dataMgmtPtr)
  let rk ← readKeys e b l.rowKeysPtr l.rowKeys
  let ck ← readKeys e b l.columnKeysPtr l.columnKeys
  if l.parts < 1 then .error .structError else do
  let parts ← readParts e b l.partsPtr l.parts.toNat l.parts.toNat
  let params ← readParams e b (l.partsPtr + l.parts * 4) parts
  .ok ⟨e, l, blocks, dm, rk, ck, parts, params⟩

theorem anywhere_structure (hb : 8 ≤ b.length) (e : Endian) (l : Label) : Anywhere b (curStructure 0 e l) (structureOf b e l) := by
  unfold curStructure structureOf
  refine anywhere_bind (anywhere_blocks hb e l) fun _ _ => anywhere_jump (at_vals fun _ _ => ?_)
  refine anywhere_bind (anywhere_keys _ _ _) (fun _ _ => ?_) _
  refine anywhere_bind (anywhere_keys _ _ _) fun _ _ => ?_
  by_cases h : l.parts < 1
  · rw [if_pos h, if_pos h]
    exact anywhere_result _
  · rw [if_neg h, if_neg h]
    exact anywhere_bind (anywhere_parts _ _ _) fun _ _ => anywhere_bind (anywhere_params _ _ _) fun _ _ => anywhere_pure _

/-- Opening a file, started at its beginning. -/
theorem openDM_cursor (host : Endian) (b : Bytes) :
    ∃ o M, curDM host (IOBuffer.ofSource b) = ((readDM host b).map fun i => (0, i), ⟨b, o, 0 :: M⟩) := by
  have key : At b 0 (curBanner >>= fun _ => mark >>= fun m => bytes 4 >>= fun w => jump m 0 >>= fun _ =>
      fields (swapOrder host w) labelReadFmts labelOf >>= fun l => curStructure 0 (swapOrder host w) l >>= fun i => pure (0, i))
      (readBanner b >>= fun _ => (unpackFrom (readOrder host b) labelReadFmts b 28 >>= labelOf) >>= fun l =>
        structureOf b (readOrder host b) l >>= fun i => .ok (0, i)) := by
    rw [← banner_fields]
    refine at_fields fun _ _ => at_peek (at_fields fun l hl => ?_)
    obtain ⟨vs, h1, -⟩ := Except.bind_ok hl
    have h8 : 8 ≤ b.length := by
      have := (unpackFrom_within h1).2
      have h9 : fmtSize labelReadFmts = 96 := by decide +kernel
      omega
    exact anywhere_bind (anywhere_structure h8 _ _) (fun _ _ => anywhere_pure _) _
  obtain ⟨o, M, h⟩ := key []
  refine ⟨o, M, ?_⟩
  unfold curDM
  have h0 : (mark : Cur PyErr Nat) (IOBuffer.ofSource b) = (.ok 0, ⟨b, 0, [0]⟩) := rfl
  rw [cur_bind_ok h0]
  refine h.trans ?_
  congr 1
  unfold readDM
  cases readBanner b with
  | error x => rfl
  | ok u =>
    rw [ok_bind, ok_bind]
    show _ = ((unpackFrom (readOrder host b) labelReadFmts b 28 >>= labelOf) >>= structureOf b (readOrder host b)).map _
    cases unpackFrom (readOrder host b) labelReadFmts b 28 >>= labelOf with
    | error x => rfl
    | ok l =>
      rw [ok_bind, ok_bind]
      cases structureOf b (readOrder host b) l <;> rfl

/-! ## Grids -/

theorem at_words {β : Type} {e : Endian} {n : Int} {fmt : Fmt} {i : DMInfo} (he : i.order = e) {k : List Val → Cur PyErr β}
    {g : List Val → Except PyErr β} (h : ∀ a, Anywhere b (k a) (g a)) : At b p (curWords e n fmt >>= k) (readWords i b p n fmt >>= g) := by
  subst he
  unfold curWords readWords
  by_cases hn : n < 0
  · rw [if_pos hn, if_pos hn]
    exact anywhere_result_bind (fun a _ => h a) p
  · rw [if_neg hn, if_neg hn]
    exact at_vals fun a _ => h a _

theorem at_gribGrid (i : DMInfo) (len hdr kx ky : Int) : At b p (curGribGrid i len hdr kx ky) (readGribGrid i b p len hdr kx ky) := by
  unfold curGribGrid readGribGrid
  refine at_vals fun a _ => at_vals fun c _ => ?_
  have h20 : p + ((fmtSize [Fmt.i32, Fmt.i32, Fmt.i32] : Nat) : Int) + ((fmtSize [Fmt.f32, Fmt.f32] : Nat) : Int) = p + 20 := by
    show p + 12 + 8 = p + 20; omega
  rw [h20]
  split
  · dsimp only
    split_ifs
    · exact anywhere_result _ _
    · exact at_words rfl fun a => anywhere_result _
    · exact at_words rfl fun a => anywhere_result _
  · next hx =>
    split
    · exact (hx _ _ _ _ _ rfl rfl).elim
    · exact anywhere_result _ _

theorem at_diffGrid (i : DMInfo) (len hdr kx ky : Int) : At b p (curDiffGrid i len hdr kx ky) (readDiffGrid i b p len hdr kx ky) := by
  unfold curDiffGrid readDiffGrid
  refine at_vals fun a _ => at_vals fun c _ => ?_
  have h28 : p + ((fmtSize [Fmt.i32, Fmt.i32, Fmt.i32, Fmt.i32] : Nat) : Int) + ((fmtSize [Fmt.f32, Fmt.f32, Fmt.f32] : Nat) : Int) = p + 28 := by
    show p + 16 + 12 = p + 28; omega
  rw [h28]
  split
  · exact at_words rfl fun a => anywhere_result _
  · next hx =>
    split
    · exact (hx _ _ _ _ _ _ _ rfl rfl).elim
    · exact anywhere_result _ _

theorem at_rawGrid (i : DMInfo) (len hdr kx ky : Int) : At b p (curRawGrid i len hdr kx ky) (readRawGrid i b p len hdr kx ky) := by
  unfold curRawGrid readRawGrid
  split
  · exact at_words rfl fun a => anywhere_result _
  · exact anywhere_pure _ _

theorem at_unpackGrid (i : DMInfo) (packing len hdr kx ky : Int) :
    At b p (curUnpackGrid i packing len hdr kx ky) (unpackGrid i b packing p len hdr kx ky) := by
  unfold curUnpackGrid unpackGrid
  split_ifs
  · apply at_rawGrid
  · apply at_gribGrid
  · apply at_diffGrid
  · exact anywhere_result _ _
  · exact anywhere_result _ _

theorem anywhere_gridData (i : DMInfo) (part : PartInfo) (icol iprt : Nat) (kx ky : Int) :
    Anywhere b (curGridData 0 i part icol iprt kx ky) (gridData i b part icol iprt kx ky) := by
  unfold curGridData gridData
  exact anywhere_pointer_bind fun _ => at_record (at_word (by apply at_unpackGrid))

theorem anywhere_column (lower : Text → Text) (f : GridFileR) (hf : f.bytes = b) (g : GridInfo) : ∀ (ps : List PartInfo) (n : Nat),
    Anywhere b (curColumn lower 0 f g ps n) (columnGrids lower f g ps n)
  | [], _ => anywhere_pure _
  | p :: r, n => by
    unfold curColumn columnGrids
    cases f.size with
    | none => exact anywhere_result _
    | some s =>
      rw [hf]
      refine anywhere_bind (by apply anywhere_gridData) fun d _ => anywhere_bind (anywhere_column lower f hf g r (n + 1)) fun t _ => ?_
      cases d with
      | none => exact anywhere_pure _
      | some x => exact anywhere_pure _

theorem anywhere_gdxarray (upper lower : Text → Text) (f : GridFileR) (hf : f.bytes = b) (q : GridQuery) :
    Anywhere b (curGdxarray upper lower 0 f q) (gdxarray upper lower q f) :=
  anywhere_result_bind fun m _ => anywhere_bind (anywhere_mapM (fun g => anywhere_column lower f hf g _ _) m) fun _ _ => anywhere_pure _

/-! ## Stations -/

theorem at_recordWords {β : Type} (i : DMInfo) (part : PartInfo) (ptr : Int) (fmt : Fmt) {k : List Val → Cur PyErr β}
    {g : List Val → Except PyErr β} (h : ∀ a, Anywhere b (k a) (g a)) :
    Anywhere b (curRecordWords 0 i part ptr fmt >>= k) (readRecord i b part ptr fmt >>= g) := fun p => by
  unfold curRecordWords
  rw [bind_assoc]
  exact at_record (at_words (i := i) rfl h)

theorem anywhere_text (i : DMInfo) (part : PartInfo) (ptr : Int) : Anywhere b (curText 0 i part ptr) (readText i b part ptr) := fun p => by
  unfold curText readText
  refine at_record ?_
  simp only
  split
  · exact anywhere_result _ _
  · exact at_fields_last

theorem anywhere_reals (i : DMInfo) (part : PartInfo) (params : ParamInfo) (ptr : Int) :
    Anywhere b (curReals 0 i part params ptr) (readReals i b part params ptr) := at_recordWords _ _ _ _ fun _ => anywhere_result _

theorem anywhere_surfacePart (i : DMInfo) (part : PartInfo) (params : ParamInfo) (ptr : Int) :
    Anywhere b (curSurfacePart 0 i part params ptr) (surfacePart i b part params ptr) := by
  unfold curSurfacePart surfacePart
  split_ifs
  · exact at_recordWords _ _ _ _ fun _ => anywhere_result _
  · exact anywhere_bind (by apply anywhere_reals) fun _ _ => anywhere_result _
  · exact anywhere_bind (by apply anywhere_text) fun _ _ => anywhere_result _
  · exact anywhere_result _

theorem anywhere_soundingPart (i : DMInfo) (part : PartInfo) (params : ParamInfo) (ptr : Int) :
    Anywhere b (curSoundingPart 0 i part params ptr) (soundingPart i b part params ptr) := by
  unfold curSoundingPart soundingPart
  split_ifs
  · exact at_recordWords _ _ _ _ fun _ => anywhere_result _
  · exact anywhere_bind (by apply anywhere_reals) fun _ _ => anywhere_pure _
  · exact anywhere_result _

theorem anywhere_unmergedPart (i : DMInfo) (part : PartInfo) (params : ParamInfo) (ptr : Int) :
    Anywhere b (curUnmergedPart 0 i part params ptr) (unmergedPart i b part params ptr) := by
  unfold curUnmergedPart unmergedPart
  split_ifs
  · exact anywhere_bind (by apply anywhere_text) fun _ _ => anywhere_result _
  · apply anywhere_soundingPart

theorem anywhere_items {rc : PartInfo → ParamInfo → Int → Cur PyErr (List (Text × HVal))}
    {rp : PartInfo → ParamInfo → Int → Except PyErr (List (Text × HVal))} (h : ∀ x y z, Anywhere b (rc x y z) (rp x y z)) (i : DMInfo)
    (irow icol : Nat) : ∀ ps n, Anywhere b (curItems rc 0 i irow icol ps n) (cellItems rp i b irow icol ps n)
  | [], _ => anywhere_pure _
  | (p, a) :: r, n => by
    unfold curItems cellItems
    refine anywhere_pointer_bind ?_
    simp only
    split
    · exact anywhere_items h i irow icol r _
    · exact anywhere_bind (by apply h) fun _ _ => anywhere_bind (anywhere_items h i irow icol r _) fun _ _ => anywhere_pure _

theorem anywhere_unpackCell (f : SurfaceReader) (hf : f.bytes = b) (irow icol : Nat) :
    Anywhere b (curUnpackCell 0 f irow icol) (f.unpackCell irow icol) := by
  unfold curUnpackCell SurfaceReader.unpackCell
  refine anywhere_result_bind fun x _ => anywhere_result_bind fun s _ => anywhere_result_bind fun t _ => ?_
  rw [hf]
  exact anywhere_bind (by apply anywhere_items; intro x y z; apply anywhere_surfacePart) fun _ _ => anywhere_result _

theorem anywhere_sfjson (f : SurfaceReader) (hf : f.bytes = b) (upper lower : Text → Text) (q : SiteQuery) (special : Bool) :
    Anywhere b (curSfjson 0 f upper lower q special) (f.sfjson upper lower q special) := by
  unfold curSfjson SurfaceReader.sfjson
  refine anywhere_result_bind fun m _ => ?_
  refine anywhere_bind (anywhere_mapM (c := fun s : SiteInfo => curUnpackCell 0 f s.row s.col) (r := fun s => f.unpackCell s.row s.col)
    (fun s => anywhere_unpackCell f hf s.row s.col) m) fun _ _ => ?_
  exact anywhere_result _

theorem anywhere_nearest (f : SurfaceReader) (hf : f.bytes = b) (upper lower : Text → Text) (t : Date × Clock) (q : NearQuery) (special : Bool) :
    Anywhere b (curNearest 0 f upper lower t q special) (f.nearestTime upper lower t q special) := by
  unfold curNearest SurfaceReader.nearestTime
  split_ifs
  · exact anywhere_result _
  · exact anywhere_result _
  · refine anywhere_bind (anywhere_mapM (fun x => ?_) _) fun _ _ => anywhere_bind (anywhere_mapM (fun x => ?_) _) fun _ _ => anywhere_pure _
    · exact anywhere_bind (by apply anywhere_sfjson f hf) fun _ _ => anywhere_result _
    · exact anywhere_bind (by apply anywhere_sfjson f hf) fun _ _ => anywhere_result _

theorem anywhere_unpackMerged (f : SoundingReader) (hf : f.bytes = b) (irow icol : Nat) :
    Anywhere b (curUnpackMerged 0 f irow icol) (f.unpackMerged irow icol) := by
  unfold curUnpackMerged SoundingReader.unpackMerged
  refine anywhere_result_bind fun x _ => anywhere_result_bind fun y _ => anywhere_result_bind fun s _ => anywhere_result_bind fun t _ => ?_
  rw [hf]
  exact anywhere_bind (by apply anywhere_items; intro x y z; apply anywhere_soundingPart) fun _ _ => anywhere_pure _

theorem anywhere_datasets (f : SoundingReader) (hf : f.bytes = b) (upper lower : Text → Text) (q : SiteQuery) :
    Anywhere b (curDatasets 0 f upper lower q) (f.datasets upper lower q) := by
  unfold curDatasets SoundingReader.datasets SoundingReader.snxarray
  rw [bind_assoc]
  refine anywhere_result_bind fun m _ => ?_
  cases f.merged with
  | false =>
    rw [if_pos Bool.false_ne_true, if_pos Bool.false_ne_true]
    exact anywhere_result _
  | true =>
    rw [if_neg (not_not_intro rfl), if_neg (not_not_intro rfl), bind_assoc]
    refine anywhere_bind (anywhere_mapM (c := fun s : SiteInfo => curUnpackMerged 0 f s.row s.col) (r := fun s => f.unpackMerged s.row s.col)
      (fun s => anywhere_unpackMerged f hf s.row s.col) m) fun _ _ => ?_
    exact anywhere_result _

theorem anywhere_unmergedParts (i : DMInfo) (irow icol : Nat) : ∀ ps n acc,
    Anywhere b (curUnmergedParts 0 i irow icol ps n acc) (unmergedParts i b irow icol ps n acc)
  | [], _, _ => anywhere_pure _
  | (p, a) :: r, n, acc => by
    unfold curUnmergedParts unmergedParts
    refine anywhere_pointer_bind ?_
    simp only
    split
    · exact anywhere_unmergedParts i irow icol r _ _
    · exact anywhere_bind (anywhere_unmergedPart _ _ _ _) fun _ _ => anywhere_unmergedParts i irow icol r _ _

theorem toRun_eq {β : Type} (x : Except PyErr β) : x.mapError Stop.raised = toRun x := by cases x <;> rfl

theorem anywhere_unpackUnmerged {α : Type} [Field α] [LinearOrder α] [FloorRing α] (c : Calc α) (e : LevEnv α) (fuel : Nat) (f : SoundingReader)
    (hf : f.bytes = b) (irow icol : Nat) : Anywhere b (curUnpackUnmerged c e fuel 0 f irow icol) (f.unpackUnmerged c e fuel irow icol) := by
  unfold curUnpackUnmerged SoundingReader.unpackUnmerged
  refine anywhere_result_bind fun x _ => anywhere_result_bind fun y _ => anywhere_result_bind fun s _ => anywhere_result_bind fun t _ => ?_
  rw [hf, ← toRun_eq (unmergedParts _ _ _ _ _ _ _)]
  refine anywhere_bind (anywhere_mapErr (anywhere_unmergedParts _ _ _ _ _ _)) fun _ _ => ?_
  exact anywhere_result _

theorem anywhere_unmergedDatasets {α : Type} [Field α] [LinearOrder α] [FloorRing α] (c : Calc α) (e : LevEnv α) (fuel : Nat) (f : SoundingReader)
    (hf : f.bytes = b) (upper lower : Text → Text) (q : SiteQuery) :
    Anywhere b (curUnmergedDatasets c e fuel 0 f upper lower q) (f.unmergedDatasets c e fuel upper lower q) := by
  unfold curUnmergedDatasets SoundingReader.unmergedDatasets
  refine anywhere_result_bind fun m _ => ?_
  refine anywhere_bind (anywhere_mapM (c := fun s : SiteInfo => curUnpackUnmerged c e fuel 0 f s.row s.col)
    (r := fun s => f.unpackUnmerged c e fuel s.row s.col) (fun s => anywhere_unpackUnmerged c e fuel f hf s.row s.col) m) fun _ _ => ?_
  exact anywhere_result _

/-! ## Opening files of each kind -/

theorem anywhere_listed {here : CellRef → Cur PyErr Bool} {p : CellRef → Bool} (h : ∀ c, Anywhere b (here c) (.ok (p c)))
    (info : CellRef → Except PyErr SiteInfo) : ∀ l, Anywhere b (curListed here info l) ((l.filter p).mapM info)
  | [] => anywhere_pure _
  | c :: r => by
    unfold curListed
    refine fun q => (anywhere_bind (g := fun _ => ((c :: r).filter p).mapM info) (h c) fun y hy => ?_) q
    cases hy
    cases hp : p c with
    | true =>
      rw [if_pos rfl, List.filter_cons_of_pos hp, List.mapM_cons]
      exact anywhere_result_bind fun x _ => anywhere_bind (anywhere_listed h info r) fun _ _ => anywhere_pure _
    | false =>
      rw [if_neg Bool.false_ne_true, List.filter_cons_of_neg (by simp [hp])]
      exact anywhere_listed h info r

theorem anywhere_hasData (i : DMInfo) (irow icol : Nat) : Anywhere b (curHasData 0 i irow icol) (.ok (hasData i b irow icol)) := by
  unfold curHasData times
  have h1 : ∀ l : List Nat, Anywhere b (l.mapM fun k => curPointer 0 i irow icol k) (.ok (l.map fun k => dataPointer i b irow icol k)) := fun l => by
    have := anywhere_mapM (b := b) (fun k => anywhere_pointer i irow icol k) l
    rwa [show l.mapM (fun k => Except.ok (ε := PyErr) (dataPointer i b irow icol k)) = .ok (l.map fun k => dataPointer i b irow icol k) from by
      induction l with
      | nil => rfl
      | cons a r ih => rw [List.mapM_cons, ih (anywhere_mapM (fun k => anywhere_pointer i irow icol k) r)]; rfl] at this
  refine fun q => ((anywhere_bind (g := fun ps => .ok (ps.any fun p => p ≠ 0)) (h1 _) fun y _ => anywhere_pure _) q).congr ?_
  show Except.ok _ = Except.ok _
  rw [List.any_map]
  rfl

/-- Code that opens a file, started on its bytes. -/
theorem opening {α : Type} {host : Endian} {k : Nat × DMInfo → Cur PyErr α} {g : DMInfo → Except PyErr α}
    (h : ∀ i, readDM host b = .ok i → Anywhere b (k (0, i)) (g i)) :
    ∃ o M, (curDM host >>= k) (IOBuffer.ofSource b) = (readDM host b >>= g, ⟨b, o, 0 :: M⟩) := by
  obtain ⟨o, M, h1⟩ := openDM_cursor host b
  cases hr : readDM host b with
  | error x =>
    rw [hr] at h1
    exact ⟨o, M, cur_bind_error h1⟩
  | ok i =>
    rw [hr] at h1
    obtain ⟨o2, M2, h2⟩ := h i hr o M
    exact ⟨o2, M2, (cur_bind_ok h1).trans h2⟩

theorem anywhere_get_bytes {α : Type} (f : Bytes → α) : Anywhere b (do let s ← get; return f s.data : Cur PyErr α) (.ok (f b)) :=
  fun p M => ⟨p, M, rfl⟩

theorem exc_map_bind {ε α β γ : Type} (x : Except ε α) (f : α → Except ε β) (h : β → γ) :
    (x >>= f).map h = x >>= fun a => (f a).map h := by cases x <;> rfl

theorem openGrid_cursor (host : Endian) (b : Bytes) :
    ∃ o M, curOpenGrid host (IOBuffer.ofSource b) = ((openGrid host b).map fun f => (0, f), ⟨b, o, 0 :: M⟩) := by
  have key := opening (b := b) (host := host) (k := fun x => (do
    result (checkKeys x.2.rowKeys)
    let _ ← curHeaders x.1 x.2.order (x.2.rowKeys.map fun _ => Fmt.i32) (fun vs => vs.mapM intOf) x.2.label.rows.toNat x.2.label.rowHeadersPtr
    result (checkKeys x.2.columnKeys)
    let cols ← curHeaders x.1 x.2.order (x.2.columnKeys.map fun k => (gridKey k).fmt) (convGHeader x.2.order x.2.columnKeys) x.2.label.columns.toNat
      x.2.label.columnHeadersPtr
    let gs ← result (gridInfos cols 0)
    let size ← result (navSize x.2.blocks)
    let s ← get
    return (x.1, ⟨x.2, s.data, cols, gs, size⟩) : Cur PyErr (Nat × GridFileR))) fun i _ =>
      anywhere_result_bind fun _ _ => anywhere_bind (anywhere_headers _ _ _ _ _) fun _ _ => anywhere_result_bind fun _ _ =>
        anywhere_bind (anywhere_headers _ _ _ _ _) fun cols _ => anywhere_result_bind fun gs _ => anywhere_result_bind fun size _ =>
          anywhere_get_bytes fun x => ((0 : Nat), (⟨i, x, cols, gs, size⟩ : GridFileR))
  obtain ⟨o, M, h⟩ := key
  refine ⟨o, M, ?_⟩
  refine h.trans ?_
  congr 1
  unfold openGrid
  simp only [exc_map_bind]
  rfl


theorem openStation_cursor (rowKind colKind : Text → KeyKind) (host : Endian) (b : Bytes) :
    ∃ o M, curStation rowKind colKind host (IOBuffer.ofSource b) = ((openStation rowKind colKind host b).map fun f => (0, f), ⟨b, o, 0 :: M⟩) := by
  have key := opening (b := b) (host := host) (k := fun x => (do
    result (checkKeys x.2.rowKeys)
    let rows ← curHeaders x.1 x.2.order (x.2.rowKeys.map fun k => (rowKind k).fmt) (convHeader rowKind x.2.rowKeys) x.2.label.rows.toNat
      x.2.label.rowHeadersPtr
    result (checkKeys x.2.columnKeys)
    let cols ← curHeaders x.1 x.2.order (x.2.columnKeys.map fun k => (colKind k).fmt) (convHeader colKind x.2.columnKeys) x.2.label.columns.toNat
      x.2.label.columnHeadersPtr
    let s ← get
    return (x.1, ⟨x.2, s.data, rows, cols⟩) : Cur PyErr (Nat × StationFile))) fun i _ =>
      anywhere_result_bind fun _ _ => anywhere_bind (anywhere_headers _ _ _ _ _) fun rows _ => anywhere_result_bind fun _ _ =>
        anywhere_bind (anywhere_headers _ _ _ _ _) fun cols _ => anywhere_get_bytes fun x => ((0 : Nat), (⟨i, x, rows, cols⟩ : StationFile))
  obtain ⟨o, M, h⟩ := key
  refine ⟨o, M, ?_⟩
  refine h.trans ?_
  congr 1
  unfold openStation
  simp only [exc_map_bind]
  rfl

theorem openStation_bytes {rowKind colKind : Text → KeyKind} {host : Endian} {f : StationFile} (h : openStation rowKind colKind host b = .ok f) :
    f.bytes = b := by
  unfold openStation at h
  obtain ⟨_, _, h⟩ := Except.bind_ok h
  obtain ⟨_, _, h⟩ := Except.bind_ok h
  obtain ⟨_, _, h⟩ := Except.bind_ok h
  obtain ⟨_, _, h⟩ := Except.bind_ok h
  obtain ⟨_, _, h⟩ := Except.bind_ok h
  cases h
  rfl

/-- Code after the headers of a station file. -/
theorem openingStation {α : Type} {rowKind colKind : Text → KeyKind} {host : Endian} {k : Nat × StationFile → Cur PyErr α}
    {g : StationFile → Except PyErr α} (h : ∀ f, f.bytes = b → Anywhere b (k (0, f)) (g f)) :
    ∃ o M, (curStation rowKind colKind host >>= k) (IOBuffer.ofSource b) = (openStation rowKind colKind host b >>= g, ⟨b, o, 0 :: M⟩) := by
  obtain ⟨o, M, h1⟩ := openStation_cursor rowKind colKind host b
  cases hr : openStation rowKind colKind host b with
  | error x =>
    rw [hr] at h1
    exact ⟨o, M, cur_bind_error h1⟩
  | ok f =>
    rw [hr] at h1
    obtain ⟨o2, M2, h2⟩ := h f (openStation_bytes hr) o M
    exact ⟨o2, M2, (cur_bind_ok h1).trans h2⟩

theorem anywhere_sfInfos (i : DMInfo) (l : List CellRef) :
    Anywhere b (curListed (fun c => curHasData 0 i c.row c.col) surfaceInfo l) ((l.filter fun c => hasData i b c.row c.col).mapM surfaceInfo) :=
  anywhere_listed (here := fun c => curHasData 0 i c.row c.col) (p := fun c => hasData i b c.row c.col)
    (fun c => anywhere_hasData i c.row c.col) _ _

theorem anywhere_snInfos (i : DMInfo) (l : List CellRef) :
    Anywhere b (curListed (fun c => do return decide ((← curPointer 0 i c.row c.col 0) ≠ 0)) soundingInfo l)
      ((l.filter fun c => dataPointer i b c.row c.col 0 ≠ 0).mapM soundingInfo) := by
  refine anywhere_listed (here := fun c => do return decide ((← curPointer 0 i c.row c.col 0) ≠ 0))
    (p := fun c => decide (dataPointer i b c.row c.col 0 ≠ 0)) (fun c => ?_) _ _
  refine anywhere_pointer_bind ?_
  exact anywhere_pure _

theorem anywhere_surfaceRest (f : StationFile) :
    Anywhere b ((do
      let t ← result (surfaceType f.info f.rows.length)
      let infos ← curListed (fun c => curHasData 0 f.info c.row c.col) surfaceInfo (t.cells f.rows f.cols)
      return (0, ⟨f, t, infos⟩) : Cur PyErr (Nat × SurfaceReader)))
      (surfaceType f.info f.rows.length >>= fun t => ((t.cells f.rows f.cols).filter fun c => hasData f.info b c.row c.col).mapM surfaceInfo
        >>= fun infos => .ok (0, ⟨f, t, infos⟩)) := by
  refine anywhere_result_bind fun t _ => ?_
  refine anywhere_bind (anywhere_sfInfos f.info _) fun _ _ => ?_
  exact anywhere_pure _

theorem anywhere_soundingRest (f : StationFile) :
    Anywhere b ((do
      let infos ← curListed (fun c => do return decide ((← curPointer 0 f.info c.row c.col 0) ≠ 0)) soundingInfo (standardCells f.rows f.cols)
      return (0, ⟨f, f.info.parts.any fun p => decide (p.name = txt "SNDT"), infos⟩) : Cur PyErr (Nat × SoundingReader)))
      (((standardCells f.rows f.cols).filter fun c => dataPointer f.info b c.row c.col 0 ≠ 0).mapM soundingInfo
        >>= fun infos => .ok (0, ⟨f, f.info.parts.any fun p => decide (p.name = txt "SNDT"), infos⟩)) := by
  refine anywhere_bind (anywhere_snInfos f.info _) fun _ _ => ?_
  exact anywhere_pure _

theorem openSurface_cursor (host : Endian) (b : Bytes) :
    ∃ o M, curOpenSurface host (IOBuffer.ofSource b) = ((openSurface host b).map fun f => (0, f), ⟨b, o, 0 :: M⟩) := by
  obtain ⟨o, M, h⟩ := openingStation (b := b) (host := host) (rowKind := sfKey) (colKind := sfKey) (k := fun x => (do
    let t ← result (surfaceType x.2.info x.2.rows.length)
    let infos ← curListed (fun c => curHasData x.1 x.2.info c.row c.col) surfaceInfo (t.cells x.2.rows x.2.cols)
    return (x.1, ⟨x.2, t, infos⟩) : Cur PyErr (Nat × SurfaceReader))) fun f _ => anywhere_surfaceRest f
  refine ⟨o, M, ?_⟩
  refine h.trans ?_
  congr 1
  unfold openSurface
  simp only [exc_map_bind]
  rfl

theorem openSounding_cursor (host : Endian) (b : Bytes) :
    ∃ o M, curOpenSounding host (IOBuffer.ofSource b) = ((openSounding host b).map fun f => (0, f), ⟨b, o, 0 :: M⟩) := by
  obtain ⟨o, M, h⟩ := openingStation (b := b) (host := host) (rowKind := timeKey) (colKind := siteKey) (k := fun x => (do
    let infos ← curListed (fun c => do return decide ((← curPointer x.1 x.2.info c.row c.col 0) ≠ 0)) soundingInfo (standardCells x.2.rows x.2.cols)
    return (x.1, ⟨x.2, x.2.info.parts.any fun p => decide (p.name = txt "SNDT"), infos⟩) : Cur PyErr (Nat × SoundingReader)))
    fun f _ => anywhere_soundingRest f
  refine ⟨o, M, ?_⟩
  refine h.trans ?_
  congr 1
  unfold openSounding
  simp only [exc_map_bind]
  rfl

theorem openGrid_bytes {host : Endian} {f : GridFileR} (h : openGrid host b = .ok f) : f.bytes = b := by
  unfold openGrid at h
  obtain ⟨_, _, h⟩ := Except.bind_ok h
  obtain ⟨_, _, h⟩ := Except.bind_ok h
  obtain ⟨_, _, h⟩ := Except.bind_ok h
  obtain ⟨_, _, h⟩ := Except.bind_ok h
  obtain ⟨_, _, h⟩ := Except.bind_ok h
  obtain ⟨_, _, h⟩ := Except.bind_ok h
  obtain ⟨_, _, h⟩ := Except.bind_ok h
  cases h
  rfl

theorem openSurface_bytes {host : Endian} {f : SurfaceReader} (h : openSurface host b = .ok f) : f.bytes = b := by
  unfold openSurface at h
  obtain ⟨_, h1, h⟩ := Except.bind_ok h
  obtain ⟨_, _, h⟩ := Except.bind_ok h
  obtain ⟨_, _, h⟩ := Except.bind_ok h
  cases h
  exact openStation_bytes h1

theorem openSounding_bytes {host : Endian} {f : SoundingReader} (h : openSounding host b = .ok f) : f.bytes = b := by
  unfold openSounding at h
  obtain ⟨_, h1, h⟩ := Except.bind_ok h
  obtain ⟨_, _, h⟩ := Except.bind_ok h
  cases h
  exact openStation_bytes h1

/-! ## Calls -/

theorem runCalls_eq {ι ε β : Type} {call : ι → Cur ε β} {r : ι → Except ε β} (h : ∀ q, Anywhere b (call q) (r q)) :
    ∀ (qs : List ι) (o : Int) (M : List Int), runCalls call qs ⟨b, o, 0 :: M⟩ = qs.map r
  | [], _, _ => rfl
  | q :: qs, o, M => by
    obtain ⟨o', M', h1⟩ := h q o M
    rw [runCalls, List.map_cons, h1, runCalls_eq h qs]

theorem session_eq {φ ι ε β : Type} {start : Cur PyErr (Nat × φ)} {call : Nat × φ → ι → Cur ε β} {opened : Except PyErr φ}
    {r : φ → ι → Except ε β} (hs : ∃ o M, start (IOBuffer.ofSource b) = (opened.map fun f => (0, f), ⟨b, o, 0 :: M⟩))
    (hc : ∀ f, opened = .ok f → ∀ q, Anywhere b (call (0, f) q) (r f q)) (qs : List ι) :
    session start call b qs = opened.map fun f => qs.map (r f) := by
  obtain ⟨o, M, h⟩ := hs
  unfold session
  rw [h]
  cases ho : opened with
  | error e => rfl
  | ok f => exact congrArg Except.ok (runCalls_eq (hc f ho) qs o M)

end

end Gempak
