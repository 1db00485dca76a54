import Verif.Model.Examples
import Verif.Spec.Talkers
/-!
# Two programs over two wrapped sockets
-/

namespace Siotls.Spec
open Siotls

/-- a running program: what it still does, and its end of the pipe -/
structure Actor where
  prog : Prog
  seat : Seat

/-- The program makes its next call; the network has up to `n` bytes of the peer for it. The call raises,
or both ends afterwards. -/
def Actor.turn (E : Env) (n : Nat) (me : Actor) (peer : Seat) : Except Exn (Actor × Seat) :=
  match me.prog with
  | .write d next =>
    match (Act.write d).play E me.seat peer with
    | (.ok _, s, s') => .ok (⟨next, s⟩, s')
    | (.error e, _) => .error e
  | .read next =>
    match (Act.read n).play E me.seat peer with
    | (.ok x, s, s') => .ok (⟨next x, s⟩, s')
    | (.error .fuel, s, s') => .ok (⟨me.prog, s⟩, s')
    | (.error e, _) => .error e
  | .close next =>
    match Act.close.play E me.seat peer with
    | (.ok _, s, s') => .ok (⟨next, s⟩, s')
    | (.error e, _) => .error e
  | .stop => .ok (me, peer)
  | .unbound => .ok (me, peer)

/-- Both programs run; the schedule says who is next (`true`: the left one) and how many bytes the
network has for it. -/
def perform (E E' : Env) : List (Bool × Nat) → Actor → Actor → Except Exn (Actor × Actor)
  | [], p, q => .ok (p, q)
  | (true, n) :: ts, p, q =>
    match p.turn E n q.seat with
    | .ok (p', s) => perform E E' ts p' ⟨q.prog, s⟩
    | .error e => .error e
  | (false, n) :: ts, p, q =>
    match q.turn E' n p.seat with
    | .ok (q', s) => perform E E' ts ⟨p.prog, s⟩ q'
    | .error e => .error e

/-- it ended -/
def Prog.Over (p : Prog) : Prop := p = .stop ∨ p = .unbound

/-- it can only wait for the network, or it ended -/
def Prog.Waits (p : Prog) : Prop := (∃ next, p = .read next) ∨ Prog.Over p

/-- The first line of a text, up to the first CRLF. -/
def FirstLine (text line : PyStr) : Prop :=
  (¬ ['\r', '\n'] <:+: line) ∧ (text = line ∨ ∃ rest, text = line ++ '\r' :: '\n' :: rest)

end Siotls.Spec
