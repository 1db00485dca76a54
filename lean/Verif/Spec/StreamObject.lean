import Verif.Model.SerialObject
import Verif.Spec.ReadProgram
/-!
# What a user of a `SerialIO` does and sees

`ReadProg.act`: the reading programs of `Spec/ReadProgram.lean`, as calls on the object.
`IoProg`: the same with `lookahead`, `is_eof` and `assert_eof`, nested in any way.
-/

namespace Siotls.Spec
open Siotls

/-- A reading program run on the object. -/
def ReadProg.act : {α : Type} → ReadProg α → O α
  | _, .ret a => pure a
  | _, .raise e => O.throw e
  | _, .readAll k => do let b ← Obj.read none; (k b).act
  | _, .read n k => do let b ← Obj.read (some n); (k b).act
  | _, .readExactly n k => do let b ← Obj.readExactly n; (k b).act
  | _, .readInt n k => do let i ← Obj.readInt n; (k i).act
  | _, .readVar n k => do let b ← Obj.readVar n; (k b).act
  | _, .readListInt n m k => do let l ← Obj.readListInt n m; (k l).act
  | _, .readListVar n m k => do let l ← Obj.readListVar n m; (k l).act
  | _, .tell k => do let i ← Obj.tell; (k i).act
  | _, .limit n body k => do let b ← Obj.limit n body.act; (k b).act

/-- Reads, limits, lookaheads and end tests, in any order and nesting. -/
inductive IoProg : Type → Type 1 where
  | ret {α : Type} (a : α) : IoProg α
  | reads {α β : Type} (p : ReadProg β) (k : β → IoProg α) : IoProg α
  | limit {α β : Type} (n : Nat) (body : IoProg β) (k : β → IoProg α) : IoProg α
  | lookahead {α β : Type} (body : IoProg β) (k : β → IoProg α) : IoProg α
  | isEof {α : Type} (k : Bool → IoProg α) : IoProg α
  | assertEof {α : Type} (k : IoProg α) : IoProg α

def IoProg.act : {α : Type} → IoProg α → O α
  | _, .ret a => pure a
  | _, .reads p k => do let b ← p.act; (k b).act
  | _, .limit n body k => do let b ← Obj.limit n body.act; (k b).act
  | _, .lookahead body k => do let b ← Obj.lookahead body.act; (k b).act
  | _, .isEof k => do let b ← Obj.isEof; (k b).act
  | _, .assertEof k => do Obj.assertEof; k.act

/-- What a reader can still see of the object: the bytes after the cursor, the cursor, the limits. -/
def viewOf (s : SerialIO) : Stream := ⟨s.buf.drop s.pos, s.pos, s.lims⟩

/-- The cursor is inside the buffer and inside every limit, and limits only narrow. -/
def InBounds (s : SerialIO) : Prop :=
  s.pos ≤ s.buf.length ∧ (s.pos :: s.lims).Pairwise (· ≤ ·)

instance (s : SerialIO) : Decidable (InBounds s) := by unfold InBounds; infer_instance

/-- `b` placed at the cursor of `s`, over what is there, the cursor after it. -/
def placed (b : Bytes) (s : SerialIO) : SerialIO :=
  ⟨s.buf.take s.pos ++ b ++ s.buf.drop (s.pos + b.length), s.pos + b.length, s.lims⟩

/-- A writing method does what its functional counterpart says: the very bytes at the cursor, or the
same exception with everything before the cursor intact. -/
def Puts (m : O Unit) (r : Except Exn Bytes) : Prop :=
  ∀ s : SerialIO, s.pos ≤ s.buf.length →
    match r with
    | .ok out => m s = (.ok (), placed out s)
    | .error e => ∃ s', m s = (.error e, s') ∧ s'.buf.take s.pos = s.buf.take s.pos ∧
        s.pos ≤ s'.pos ∧ s'.pos ≤ s'.buf.length ∧ s'.lims = s.lims

end Siotls.Spec
