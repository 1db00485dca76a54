import Verif.Spec.Wrapper
import Verif.Spec.EndToEnd
/-!
# Sockets that carry given pieces
-/

namespace Siotls.Spec
open Siotls

/-- The socket takes everything it is given to send, and answers the calls of `recv` from the `n`-th on
with the pieces `xs`. -/
structure Carries (S : Sock) (n : Nat) (xs : List Bytes) : Prop where
  greedy : Greedy S
  pieces : ∀ i x, xs[i]? = some x → ∀ m, S.recv (n + i) m = .ok x

/-- Two wrapped sockets do the handshake, however the bytes are cut on the way: the client sends `H`
before it waits; the server sends `F` when it has the pieces of `H`; neither returns before it has its
last piece; then both do, connected, with nothing left to send. -/
def Greets (E E' : Env) (c₀ s₀ : Conn) (gc gs : Config) (k : Choice) : Prop :=
  ∃ H, H ≠ [] ∧ ∀ xs, Cuts xs H → ∃ F, F ≠ [] ∧ ∀ ys, Cuts ys F → ∃ Z, Z ≠ [] ∧ ∀ zs, Cuts zs Z →
  ∀ Sc Ss, Carries Sc 0 ys → Carries Ss 0 (xs ++ zs) →
    (doHandshake E Sc 0 (.new c₀)).2.accepted = H ∧
    (doHandshake E' Ss xs.length (.new s₀)).2.accepted = F ∧
    (∀ j < ys.length, (doHandshake E Sc j (.new c₀)).1 = .error .fuel) ∧
    (∀ j < (xs ++ zs).length, (doHandshake E' Ss j (.new s₀)).1 = .error .fuel) ∧
    ∃ wc ws, (∀ j, ys.length ≤ j → doHandshake E Sc j (.new c₀) = (.ok (), wc)) ∧
      (∀ j, (xs ++ zs).length ≤ j → doHandshake E' Ss j (.new s₀) = (.ok (), ws)) ∧
      wc.accepted = H ++ Z ∧ ws.accepted = F ∧ wc.nrecv = ys.length ∧ ws.nrecv = (xs ++ zs).length ∧
      wc.conn.outputData = [] ∧ ws.conn.outputData = [] ∧ Established wc.conn ws.conn gc gs k

end Siotls.Spec
