import Verif.Model.Serial
/-!
# Programs that read a stream

A deep embedding of "any sequence of reads, nested in any way with limits, in which every
action may depend on what was read before", independent of the actual parsers.
-/

namespace Siotls.Spec
open Siotls

inductive ReadProg : Type → Type 1 where
  | ret {α : Type} (a : α) : ReadProg α
  | raise {α : Type} (e : Exn) : ReadProg α
  | readAll {α : Type} (k : Bytes → ReadProg α) : ReadProg α
  | read {α : Type} (n : Nat) (k : Bytes → ReadProg α) : ReadProg α
  | readExactly {α : Type} (n : Nat) (k : Bytes → ReadProg α) : ReadProg α
  | readInt {α : Type} (n : Nat) (k : Nat → ReadProg α) : ReadProg α
  | readVar {α : Type} (n : Nat) (k : Bytes → ReadProg α) : ReadProg α
  | readListInt {α : Type} (nlist nitem : Nat) (k : List Nat → ReadProg α) : ReadProg α
  | readListVar {α : Type} (nlist nitem : Nat) (k : List Bytes → ReadProg α) : ReadProg α
  | tell {α : Type} (k : Nat → ReadProg α) : ReadProg α
  | limit {α β : Type} (n : Nat) (body : ReadProg β) (k : β → ReadProg α) : ReadProg α

/-- Meaning of a program: calls of the `SerialIO` methods. -/
def ReadProg.run : {α : Type} → ReadProg α → P α
  | _, .ret a => pure a
  | _, .raise e => P.throw e
  | _, .readAll k => do let b ← Serial.readAll; (k b).run
  | _, .read n k => do let b ← Serial.read n; (k b).run
  | _, .readExactly n k => do let b ← Serial.readExactly n; (k b).run
  | _, .readInt n k => do let i ← Serial.readInt n; (k i).run
  | _, .readVar n k => do let b ← Serial.readVar n; (k b).run
  | _, .readListInt n m k => do let l ← Serial.readListInt n m; (k l).run
  | _, .readListVar n m k => do let l ← Serial.readListVar n m; (k l).run
  | _, .tell k => fun s => (k s.pos).run s
  | _, .limit n body k => do let b ← Serial.limit n body.run; (k b).run

end Siotls.Spec
