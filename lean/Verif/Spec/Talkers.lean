import Verif.Spec.Sockets
import Verif.Spec.Farewell
/-!
# Two wrapped sockets at the ends of a pipe
-/

namespace Siotls.Spec
open Siotls

/-- one end: its wrapped socket, the bytes the socket took that did not reach the peer yet, everything
its program wrote and everything its program read -/
structure Seat where
  wrap : Wrapped
  wire : Bytes := []
  wrote : Bytes := []
  got : Bytes := []

/-- What one program may do next. `read n`: a call of `read` gets up to `n` bytes from the network,
which it waits for; a call that goes on waiting can be continued (by another `read`). -/
inductive Act where
  | write (data : Bytes)
  | read (n : Nat)
  | close

/-- a socket that has the bytes `x` for the next `recv` and takes everything -/
def pipe (x : Bytes) : Sock := ⟨fun _ _ => .ok x, fun _ b => .ok b.length⟩

/-- what the wrapper of `me` did with its socket -/
def Seat.after (me : Seat) (w : Wrapped) : Seat :=
  { me with wrap := w, wire := me.wire ++ w.accepted.drop me.wrap.accepted.length }

/-- `me` acts: what the call returned or raised (`fuel`: it waits for the network), and both ends
afterwards -/
def Act.play (E : Env) (me peer : Seat) : Act → Except Exn Bytes × Seat × Seat
  | .write d =>
    let r := (Call.write d).run E (pipe []) me.wrap
    (r.1, { me.after r.2 with wrote := me.wrote ++ d }, peer)
  | .read n =>
    if peer.wire.take n = [] then (.error .fuel, me, peer) else
    let r := (Call.read 1).run E (pipe (peer.wire.take n)) me.wrap
    (r.1, { me.after r.2 with got := me.got ++ returned r.1 },
      if r.2.nrecv = me.wrap.nrecv then peer else { peer with wire := peer.wire.drop n })
  | .close =>
    let r := Call.close.run E (pipe []) me.wrap
    (r.1, me.after r.2, peer)

/-- Both programs act in any order (`true`: the left one): what the calls did, and both ends
afterwards. -/
def exchange (E E' : Env) : List (Bool × Act) → Seat → Seat → List (Act × Except Exn Bytes) × Seat × Seat
  | [], a, b => ([], a, b)
  | (true, x) :: xs, a, b =>
    let r := x.play E a b
    let t := exchange E E' xs r.2.1 r.2.2
    ((x, r.1) :: t.1, t.2)
  | (false, x) :: xs, a, b =>
    let r := x.play E' b a
    let t := exchange E E' xs r.2.2 r.2.1
    ((x, r.1) :: t.1, t.2)

/-- the end `side` closes once at most and writes nothing after that -/
def Mannered (side : Bool) : List (Bool × Act) → Prop
  | [] => True
  | (s, .close) :: xs => (s = side → ∀ x ∈ xs, x.1 = side → ∃ n, x.2 = .read n) ∧ Mannered side xs
  | _ :: xs => Mannered side xs

/-- at most 16366 bytes at a time, not ten million times, and a proper end -/
structure Sober (xs : List (Bool × Act)) : Prop where
  sizes : ∀ side d, (side, .write d) ∈ xs → d.length ≤ 16366
  count : ∀ side, (xs.filter fun x => x.1 == side && x.2 matches .write _).length < 10000000
  manners : ∀ side, Mannered side xs

/-- what a call may do: `write` and `close` return; `read` returns some bytes, or waits -/
def Fine : Act × Except Exn Bytes → Prop
  | (.read _, r) => r = .error .fuel ∨ ∃ x, x ≠ [] ∧ r = .ok x
  | (_, r) => r = .ok []

/-- However two programs write, read and close, in any order and with any delays and cuts on the way:
`write` and `close` return, `read` returns something or waits, and what each end read is the beginning of
what the other wrote, all of it when nothing is on the way. -/
def Correspond (E : Env) (a : Wrapped) (E' : Env) (b : Wrapped) : Prop :=
  ∀ xs, Sober xs →
    let t := exchange E E' xs ⟨a, [], [], []⟩ ⟨b, [], [], []⟩
    (∀ r ∈ t.1, Fine r) ∧
    (t.2.2.got <+: t.2.1.wrote ∧ (t.2.1.wire = [] → t.2.2.got = t.2.1.wrote)) ∧
    (t.2.1.got <+: t.2.2.wrote ∧ (t.2.2.wire = [] → t.2.1.got = t.2.2.wrote))

end Siotls.Spec
