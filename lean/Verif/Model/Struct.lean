import Verif.Model.Base

/-!
# Packed structures

`Fmt`/`packFmts`/`unpackFmts` render the `struct` formats used in /repo with an explicit byte order (`<` or `>`: no
alignment); `NamedStruct` renders /repo/src/gempakio/tools.py:14-68.
-/

namespace Gempak

/-- One item of a `struct` format string: `i`, `f`, `B`, `b`, `Ns`, `Nx`. -/
inductive Fmt where
  | i32 | f32 | u8 | i8 | str (n : Nat) | pad (n : Nat)
  deriving DecidableEq, Repr

/-- Values packed and unpacked. -/
inductive Val where
  | int (i : Int) | flt (f : F32) | str (b : Bytes)
  deriving DecidableEq, Repr

/-- Size of one item. -/
def Fmt.size : Fmt → Nat
  | .i32 => 4 | .f32 => 4 | .u8 => 1 | .i8 => 1 | .str n => n | .pad n => n

/-- `struct.calcsize`. -/
def fmtSize (fs : List Fmt) : Nat := (fs.map Fmt.size).sum

/-- Does the item consume a value (pads do not)? -/
def Fmt.hasVal : Fmt → Bool
  | .pad _ => false
  | _ => true

/-- Pack one value. -/
def packOne (e : Endian) : Fmt → Val → Except PyErr Bytes
  | .i32, .int i => if inI32 i then .ok (encNat e 4 (toU32 i)) else .error .structError
  | .u8, .int i => if 0 ≤ i ∧ i < 256 then .ok [UInt8.ofNat i.toNat] else .error .structError
  | .i8, .int i => if -128 ≤ i ∧ i < 128 then .ok [UInt8.ofNat (i % 256).toNat] else .error .structError
  | .f32, .flt f => .ok (encNat e 4 f.toNat)
  | .str n, .str b => .ok (b.take n ++ List.replicate (n - b.length) 0)
  | _, _ => .error .structError

/-- `Struct.pack(*vals)`: `struct.error` when the number of values differs from the number of items. -/
def packFmts (e : Endian) : List Fmt → List Val → Except PyErr Bytes
  | [], [] => .ok []
  | [], _ :: _ => .error .structError
  | .pad n :: fs, vs => do .ok (List.replicate n 0 ++ (← packFmts e fs vs))
  | _ :: _, [] => .error .structError
  | f :: fs, v :: vs => do
    let b ← packOne e f v
    .ok (b ++ (← packFmts e fs vs))

/-- Unpack one item from exactly `f.size` bytes (pads give nothing). -/
def unpackOne (e : Endian) (f : Fmt) (b : Bytes) : List Val :=
  match f with
  | .i32 => [.int (toI32 (decNat e b))]
  | .u8 => [.int (decNat e b)]
  | .i8 => [.int (if decNat e b < 128 then (decNat e b : Int) else (decNat e b : Int) - 256)]
  | .f32 => [.flt (BitVec.ofNat 32 (decNat e b))]
  | .str _ => [.str b]
  | .pad _ => []

/-- Items of a format from the front of a long enough buffer. -/
def unpackItems (e : Endian) : List Fmt → Bytes → List Val
  | [], _ => []
  | f :: fs, b => unpackOne e f (b.take f.size) ++ unpackItems e fs (b.drop f.size)

/-- `Struct.unpack(b)`: the buffer must have exactly the size. -/
def unpackFmts (e : Endian) (fs : List Fmt) (b : Bytes) : Except PyErr (List Val) :=
  if b.length = fmtSize fs then .ok (unpackItems e fs b) else .error .structError

/-- `Struct.unpack_from(b, offset)`: at least the size must remain; negative offsets count from the end. -/
def unpackFrom (e : Endian) (fs : List Fmt) (b : Bytes) (offset : Int) : Except PyErr (List Val) :=
  let off := if offset < 0 then offset + b.length else offset
  if off < 0 then .error .structError
  else if off.toNat + fmtSize fs ≤ b.length then .ok (unpackItems e fs (b.drop off.toNat))
  else .error .structError

/-- One entry of the `info` argument of `NamedStruct` (tools.py:20-33): name, format, optional converter. -/
structure FieldInfo (β : Type) where
  name : Option String
  fmt : Option Fmt
  conv : Option (Val → Except PyErr β)

/-- `NamedStruct` (tools.py:14-68). `inj` is the identity of Python (a value without converter). -/
structure NamedStruct (β : Type) where
  info : List (FieldInfo β)
  order : Endian
  inj : Val → β

namespace NamedStruct
variable {β : Type}

/-- `NamedStruct(info, order)` (tools.py:20-33): `names, fmts = zip(*info)` fails when there is no entry, and when every
entry has a converter (then `zip` yields three tuples). -/
def make (info : List (FieldInfo β)) (order : Endian) (inj : Val → β) : Except PyErr (NamedStruct β) :=
  if info.all (·.conv.isSome) then .error .valueError else .ok ⟨info, order, inj⟩

/-- Field names of the named tuple (tools.py:32). -/
def names (s : NamedStruct β) : List String := s.info.filterMap (·.name)

/-- Formats of the struct (tools.py:33). -/
def fmts (s : NamedStruct β) : List Fmt := s.info.filterMap (·.fmt)

/-- `size` (tools.py:36-38). -/
def size (s : NamedStruct β) : Nat := fmtSize s.fmts

/-- The loop filling `converters` (tools.py:25-31): index `ind - conv_off`. -/
def convLoop : List (FieldInfo β) → (ind convOff : Nat) → List (Nat × (Val → Except PyErr β))
  | [], _, _ => []
  | i :: is, ind, off =>
    match i.conv with
    | some c => (ind - off, c) :: convLoop is (ind + 1) off
    | none => if i.name.isNone then convLoop is (ind + 1) (off + 1) else convLoop is (ind + 1) off

/-- A converter, or the value itself. -/
def runConv (inj : Val → β) (c : Option (Val → Except PyErr β)) (v : Val) : Except PyErr β :=
  match c with
  | some c => c v
  | none => .ok (inj v)

/-- `_create` (tools.py:40-47): run the converters at their indices, then build the tuple.
Too few items without converters, or too many, raise `TypeError`; with converters missing items become `None`
(simplification: reported as `TypeError` too; it does not occur for formats with one value per named field). -/
def create (s : NamedStruct β) (items : List Val) : Except PyErr (List β) := do
  let convs := convLoop s.info 0 0
  let out ← (items.zipIdx).mapM fun x => runConv s.inj (convs.lookup x.2) x.1
  if out.length = s.names.length then .ok out else .error .typeError

/-- `unpack` (tools.py:53-55). -/
def unpack (s : NamedStruct β) (b : Bytes) : Except PyErr (List β) := do
  s.create (← unpackFmts s.order s.fmts b)

/-- `unpack_from` (tools.py:57-59). -/
def unpackFrom (s : NamedStruct β) (b : Bytes) (offset : Int) : Except PyErr (List β) := do
  s.create (← Gempak.unpackFrom s.order s.fmts b offset)

/-- `pack(**kwargs)` (tools.py:65-68): named tuple construction demands exactly the field names. -/
def pack (s : NamedStruct β) (kwargs : List (String × Val)) : Except PyErr Bytes :=
  if kwargs.length = s.names.length ∧ ∀ n ∈ s.names, (kwargs.lookup n).isSome then
    packFmts s.order s.fmts (s.names.filterMap fun n => kwargs.lookup n)
  else .error .typeError

end NamedStruct
end Gempak
