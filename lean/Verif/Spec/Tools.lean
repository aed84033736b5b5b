import Verif.Model.Tools

/-!
# Specification of the buffer reader and of the ordered set

The buffer is a byte string with a cursor and remembered positions, all of them natural numbers.  The ordered set is
described by the history of operations only.
-/

namespace Gempak.Spec

/-- Bytes, cursor, remembered positions. -/
structure Cursor where
  bytes : Bytes
  pos : Nat
  marks : List Nat
  deriving DecidableEq

/-- Move the cursor, unless that would go before the start. -/
def Cursor.moveTo (c : Cursor) (p : Int) : Option Cursor := if p < 0 then none else some { c with pos := p.toNat }

/-- Meaning of an operation; `none` when the cursor would leave the domain of the specification (negative position). -/
def Cursor.step (c : Cursor) : BufOp → Option (Cursor × BufOut)
  | .read none => some ({ c with pos := max c.pos c.bytes.length }, .bytes (c.bytes.drop c.pos))
  | .read (some n) =>
    some ({ c with pos := c.pos + min n (c.bytes.length - c.pos) }, .bytes ((c.bytes.drop c.pos).take n))
  | .getNext none => some (c, .bytes (c.bytes.drop c.pos))
  | .getNext (some n) => some (c, .bytes ((c.bytes.drop c.pos).take n))
  | .skip none => some ({ c with pos := c.bytes.length }, .none)
  | .skip (some n) => (c.moveTo (c.pos + n)).map (·, .none)
  | .setMark => some ({ c with marks := c.marks ++ [c.pos] }, .int c.marks.length)
  | .jumpTo m off =>
    match c.marks[m]? with
    | some p => (c.moveTo (p + off)).map (·, .none)
    | none => some (c, .err .indexError)
  | .offsetFrom m =>
    match c.marks[m]? with
    | some p => some (c, .int ((c.pos : Int) - p))
    | none => some (c, .err .indexError)
  | .clearMarks => some ({ c with marks := [] }, .none)
  | .reset => some ({ c with pos := 0, marks := [] }, .none)
  | .readInt n e sg =>
    some ({ c with pos := c.pos + min n (c.bytes.length - c.pos) },
      .int (intFromBytes e sg ((c.bytes.drop c.pos).take n)))
  | .readStruct e fs =>
    if c.pos + fmtSize fs ≤ c.bytes.length then
      some ({ c with pos := c.pos + fmtSize fs }, .vals (unpackItems e fs ((c.bytes.drop c.pos).take (fmtSize fs))))
    else some (c, .err .structError)
  | .splice m d =>
    match c.marks[m]? with
    | some p => some ({ c with bytes := c.bytes.take p ++ d, pos := p }, .none)
    | none => some (c, .err .indexError)
  | .truncate n => some ({ c with bytes := c.bytes.take (c.bytes.length - n) }, .none)
  | .checkRemains n => some (c, .bool (decide (c.bytes.length - c.pos = n)))
  | .atEnd => some (c, .bool (decide (c.bytes.length ≤ c.pos)))

/-- A history on the cursor. -/
def Cursor.run : Cursor → List BufOp → Option (Cursor × List BufOut)
  | c, [] => some (c, [])
  | c, o :: os => do
    let (c1, out) ← c.step o
    let (c2, outs) ← c1.run os
    some (c2, out :: outs)

/-! ## Ordered set -/

/-- Is `x` a member after the history: was it added since it was last discarded? -/
def member {α : Type} [DecidableEq α] (x : α) : List (SetOp α) → Bool
  | ops => ops.foldl (fun b o => match o with
    | .add y => if y = x then true else b
    | .discard y => if y = x then false else b) false

/-- Time of the insertion that is still in effect. -/
def bornAt {α : Type} [DecidableEq α] (x : α) (ops : List (SetOp α)) : Option Nat :=
  (ops.zipIdx).foldl (fun b o => match o.1 with
    | .add y => if y = x then (match b with | some t => some t | none => some o.2) else b
    | .discard y => if y = x then none else b) none

end Gempak.Spec
