import Verif.Model.Struct

/-!
# Buffer reader, ordered set, word positions

`IOBuffer` and `OrderedSet` of /repo/src/gempakio/tools.py:71-237 and the two helpers of
/repo/src/gempakio/common.py:126-133.
-/

namespace Gempak

/-- Python slice `data[a:b]` for integer bounds, negative bounds counted from the end. -/
def pySlice {α : Type} (data : List α) (a b : Int) : List α :=
  let n : Int := data.length
  let lo := if a < 0 then max (a + n) 0 else min a n
  let hi := if b < 0 then max (b + n) 0 else min b n
  (data.drop lo.toNat).take (hi - lo).toNat

/-- `int.from_bytes(b, order, signed=..)`. -/
def intFromBytes (e : Endian) (signed : Bool) (b : Bytes) : Int :=
  if signed ∧ 2 * decNat e b ≥ 256 ^ b.length then (decNat e b : Int) - (256 ^ b.length : Nat) else (decNat e b : Int)

/-- `IOBuffer` state: `_data`, `_offset`, `_bookmarks` (tools.py:77-80). -/
structure IOBuffer where
  data : Bytes
  offset : Int
  marks : List Int
  deriving DecidableEq, Repr

namespace IOBuffer

/-- `IOBuffer(source)` (tools.py:77-80). -/
def ofSource (b : Bytes) : IOBuffer := ⟨b, 0, []⟩

/-- `reset` (tools.py:87-90). -/
def reset (s : IOBuffer) : IOBuffer := { s with offset := 0, marks := [] }

/-- `set_mark` (tools.py:92-95). -/
def setMark (s : IOBuffer) : IOBuffer × Nat := ({ s with marks := s.marks ++ [s.offset] }, s.marks.length)

/-- `jump_to` (tools.py:97-99). -/
def jumpTo (s : IOBuffer) (mark : Nat) (off : Int) : Except PyErr IOBuffer :=
  match s.marks[mark]? with
  | some m => .ok { s with offset := m + off }
  | none => .error .indexError

/-- `offset_from` (tools.py:101-103). -/
def offsetFrom (s : IOBuffer) (mark : Nat) : Except PyErr Int :=
  match s.marks[mark]? with
  | some m => .ok (s.offset - m)
  | none => .error .indexError

/-- `clear_marks` (tools.py:105-107). -/
def clearMarks (s : IOBuffer) : IOBuffer := { s with marks := [] }

/-- `splice` (tools.py:109-112). -/
def splice (s : IOBuffer) (mark : Nat) (newdata : Bytes) : Except PyErr IOBuffer := do
  let s ← s.jumpTo mark 0
  .ok { s with data := pySlice s.data 0 s.offset ++ newdata }

/-- `get_next` (tools.py:160-165). -/
def getNext (s : IOBuffer) : Option Int → Bytes
  | none => pySlice s.data s.offset s.data.length
  | some n => pySlice s.data s.offset (s.offset + n)

/-- `skip` (tools.py:167-172). -/
def skip (s : IOBuffer) : Option Int → IOBuffer
  | none => { s with offset := s.data.length }
  | some n => { s with offset := s.offset + n }

/-- `read` (tools.py:154-158). -/
def read (s : IOBuffer) (n : Option Int) : IOBuffer × Bytes :=
  let res := s.getNext n
  (s.skip (some res.length), res)

/-- `read_int` (tools.py:144-146). -/
def readInt (s : IOBuffer) (size : Int) (e : Endian) (signed : Bool) : IOBuffer × Int :=
  let r := s.read (some size)
  (r.1, intFromBytes e signed r.2)

/-- `read_struct` (tools.py:114-118) for a struct with the given formats. -/
def readStruct (s : IOBuffer) (e : Endian) (fs : List Fmt) : Except PyErr (IOBuffer × List Val) := do
  let vs ← unpackFrom e fs s.data s.offset
  .ok (s.skip (some (fmtSize fs)), vs)

/-- `check_remains` (tools.py:174-176). -/
def checkRemains (s : IOBuffer) (n : Int) : Bool :=
  decide (((pySlice s.data s.offset s.data.length).length : Int) = n)

/-- `truncate` (tools.py:178-180): `self._data[:-num_bytes]`. -/
def truncate (s : IOBuffer) (n : Int) : IOBuffer := { s with data := pySlice s.data 0 (-n) }

/-- `at_end` (tools.py:182-184). -/
def atEnd (s : IOBuffer) : Bool := decide (s.offset ≥ s.data.length)

end IOBuffer

/-- Operations of a user of the buffer. -/
inductive BufOp where
  | read (n : Option Nat) | getNext (n : Option Nat) | skip (n : Option Int)
  | setMark | jumpTo (mark : Nat) (off : Int) | offsetFrom (mark : Nat) | clearMarks | reset
  | readInt (size : Nat) (e : Endian) (signed : Bool) | readStruct (e : Endian) (fs : List Fmt)
  | splice (mark : Nat) (newdata : Bytes) | truncate (n : Nat) | checkRemains (n : Nat) | atEnd
  deriving DecidableEq, Repr

/-- What an operation returns. -/
inductive BufOut where
  | none | bytes (b : Bytes) | int (i : Int) | vals (v : List Val) | bool (b : Bool) | err (e : PyErr)
  deriving DecidableEq, Repr

/-- One call on the buffer; a raised exception leaves the state unchanged. -/
def IOBuffer.step (s : IOBuffer) : BufOp → IOBuffer × BufOut
  | .read n => let r := s.read (n.map Int.ofNat); (r.1, .bytes r.2)
  | .getNext n => (s, .bytes (s.getNext (n.map Int.ofNat)))
  | .skip n => (s.skip n, .none)
  | .setMark => let r := s.setMark; (r.1, .int r.2)
  | .jumpTo m off => match s.jumpTo m off with | .ok s' => (s', .none) | .error e => (s, .err e)
  | .offsetFrom m => match s.offsetFrom m with | .ok i => (s, .int i) | .error e => (s, .err e)
  | .clearMarks => (s.clearMarks, .none)
  | .reset => (s.reset, .none)
  | .readInt n e sg => let r := s.readInt n e sg; (r.1, .int r.2)
  | .readStruct e fs => match s.readStruct e fs with | .ok r => (r.1, .vals r.2) | .error e => (s, .err e)
  | .splice m d => match s.splice m d with | .ok s' => (s', .none) | .error e => (s, .err e)
  | .truncate n => (s.truncate n, .none)
  | .checkRemains n => (s, .bool (s.checkRemains n))
  | .atEnd => (s, .bool s.atEnd)

/-- A whole history of calls. -/
def IOBuffer.run : IOBuffer → List BufOp → IOBuffer × List BufOut
  | s, [] => (s, [])
  | s, o :: os => let r := s.step o; let t := r.1.run os; (t.1, r.2 :: t.2)

/-! ## Ordered set -/

/-- `OrderedSet` as the key list of its dictionary in insertion order (tools.py:199-226). -/
structure OrderedSet (α : Type) where
  keys : List α

namespace OrderedSet
variable {α : Type} [DecidableEq α]

/-- `add` (tools.py:220-222): assigning to an existing key keeps its place. -/
def add (s : OrderedSet α) (x : α) : OrderedSet α := if x ∈ s.keys then s else ⟨s.keys ++ [x]⟩

/-- `discard` (tools.py:224-226). -/
def discard (s : OrderedSet α) (x : α) : OrderedSet α := ⟨s.keys.filter (· ≠ x)⟩

/-- `OrderedSet(iterable)` (tools.py:202-206). -/
def ofList (l : List α) : OrderedSet α := l.foldl add ⟨[]⟩

/-- `__eq__` between two ordered sets (tools.py:233-237). -/
def beq (a b : OrderedSet α) : Bool := a.keys == b.keys

/-- `__eq__` with another iterable: comparison as sets (tools.py:237). -/
def beqIter (a : OrderedSet α) (b : List α) : Bool := a.keys.all (· ∈ b) && b.all (· ∈ a.keys)
end OrderedSet

/-- Operations on an ordered set. -/
inductive SetOp (α : Type) where
  | add (x : α) | discard (x : α)

/-- One operation. -/
def OrderedSet.step {α : Type} [DecidableEq α] (s : OrderedSet α) : SetOp α → OrderedSet α
  | .add x => s.add x
  | .discard x => s.discard x

/-! ## Words and positions -/

/-- `_position_to_word` (common.py:126-128). -/
def positionToWord (p : Int) : Int := (p + 4) / 4

/-- `_word_to_position` (common.py:131-133). -/
def wordToPosition (w : Int) : Int := w * 4 - 4

end Gempak
