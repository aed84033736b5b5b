import Verif.Model.DMRead

/-!
# Specification of data management files

Stated over what a reader sees (`Label`, pointers read from the bytes), not over the writer's bookkeeping.
-/

namespace Gempak.Spec

/-- A range of words: first word and number of words. -/
structure Range where
  start : Int
  len : Int

/-- The first range ends before the second begins. -/
def Before (a b : Range) : Prop := a.start + a.len ≤ b.start

/-- Ranges sharing no word. -/
def Apart (a b : Range) : Prop := Before a b ∨ Before b a

/-- The regions described by a label, in file order; the label has no field for the sizes of the file headers and of the
parameter attributes. -/
def regions (l : Label) (fileHeaderWords paramWords : Int) : List Range :=
  [⟨1, 31⟩, ⟨l.dataMgmtPtr, l.dataMgmtLength⟩, ⟨l.rowKeysPtr, l.rowKeys⟩, ⟨l.columnKeysPtr, l.columnKeys⟩,
   ⟨l.fileKeysPtr, 3 * l.fileHeaders⟩, ⟨l.fileKeysPtr + 3 * l.fileHeaders, fileHeaderWords⟩,
   ⟨l.rowHeadersPtr, l.rows * (l.rowKeys + 1)⟩, ⟨l.columnHeadersPtr, l.columns * (l.columnKeys + 1)⟩,
   ⟨l.partsPtr, 4 * l.parts + paramWords⟩, ⟨l.dataBlockPtr, l.parts * l.rows * l.columns⟩]

/-- First word of a 128-word block. -/
def BlockStart (w : Int) : Prop := w % 128 = 1

/-- What a stored value reads back as: strings are cut or zero-filled to four bytes. -/
def stored : Val → Val
  | .str b => .str (b.take 4 ++ List.replicate (4 - b.length) 0)
  | v => v

/-- The words of a file starting at a word. -/
def WordsAt (e : Endian) (b : Bytes) (w : Int) (ws : List Val) : Prop :=
  ws = [] ∨ unpackFrom e (ws.map Val.fmt) b (w * 4 - 4) = .ok (ws.map stored)

end Gempak.Spec
