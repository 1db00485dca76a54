import Verif.Model.Env
import Verif.Model.Iana
/-!
# Transcript hash: /repo/src/siotls/transcript.py

A running hash object is represented by its algorithm and everything fed to it.
-/

namespace Siotls

/-- `ORDER`, transcript.py:54-67: (side, handshake type, skippable). -/
def order : List (Side × Nat × Bool) :=
  [(.server, 2, false),
   (.client, 1, false),
   (.server, 2, false),
   (.server, 8, false),
   (.server, 13, true),
   (.server, 11, false),
   (.server, 15, false),
   (.server, 20, false),
   (.client, 5, true),
   (.client, 11, true),
   (.client, 15, true),
   (.client, 20, false)]

/-- `Transcript`, transcript.py:70-76. -/
structure Transcript where
  hashes : List (HashAlg × Bytes)
  orderI : Nat
  deriving DecidableEq, Repr

/-- `Transcript.__init__`, transcript.py:71-76. `algs` is the iteration order of the set. -/
def Transcript.new (algs : List HashAlg) : Except Exn Transcript :=
  if algs.isEmpty then .error .valueError else .ok ⟨algs.map (·, []), 1⟩

/-- `post_init`, transcript.py:78-85. -/
def Transcript.postInit (t : Transcript) (a : HashAlg) : Except Exn Transcript :=
  match t.hashes.find? (·.1 = a) with
  | some h => .ok { t with hashes := [h] }
  | none => .error .valueError

/-- `do_hrr_dance`, transcript.py:87-101. -/
def Transcript.hrrDance (t : Transcript) (side : Side) (chHash : Bytes) : Except Exn Transcript :=
  match t.hashes with
  | [] => .error .indexError
  | (a, _) :: rest =>
    .ok ⟨(a, [0xfe, 0, 0, UInt8.ofNat a.size] ++ chHash) :: rest,
         match side with | .client => 1 | .server => 0⟩

/-- The `while is_skippable …` loop of `update`, transcript.py:109-112: the index it stops at,
walking the suffix of `ORDER` that starts at index `i`. The last entry is not skippable, so the
loop ends inside the list (an IndexError is impossible). -/
def skipLoop (side : Side) (type : Nat) : List (Side × Nat × Bool) → Nat → Nat
  | [], i => i
  | (s, t, skip) :: rest, i =>
    if skip ∧ ¬ (s = side ∧ t = type) then skipLoop side type rest (i + 1) else i

/-- `update`, transcript.py:103-120. The index moved by the skip loop is kept on error. The
boolean tells whether the message was hashed (ghost information). -/
def Transcript.update (t : Transcript) (data : Bytes) (side : Side) (type : Nat) :
    Except Exn Bool × Transcript :=
  if t.orderI = order.length then (.ok false, t) else
  let i := skipLoop side type (order.drop t.orderI) t.orderI
  match order[i]? with
  | none => (.error .indexError, { t with orderI := i })
  | some (s, ty, _) =>
    if s = side ∧ ty = type then
      (.ok true, ⟨t.hashes.map fun h => (h.1, h.2 ++ data), i + 1⟩)
    else (.error (.alert Iana.unexpectedMessage), { t with orderI := i })

/-- `digest`, transcript.py:122-123. -/
def Transcript.digest (E : Env) (t : Transcript) : Except Exn Bytes :=
  match t.hashes with
  | [] => .error .indexError
  | (a, d) :: _ => .ok (E.hash a d)

end Siotls
