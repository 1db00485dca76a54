import Verif.Spec.Encoding
import Verif.Model.Api
/-!
# The messages that may follow the handshake

RFC 8446 §4.6, of which an endpoint that offers neither pre-shared keys nor post-handshake
authentication may receive NewSessionTicket (clients only) and KeyUpdate.
-/

namespace Siotls.Spec.Rfc
open Siotls

/-- RFC 8446 §4.6.1: uint32 ticket_lifetime, uint32 ticket_age_add, ticket_nonce<0..255>,
ticket<1..2^16-1>, extensions<0..2^16-2> (of any kind: clients ignore those that they do not know);
the message type is 4. -/
def NewSessionTicket (m : Bytes) : Prop :=
  ∃ life add : Nat, ∃ nonce ticket exts body : Bytes, ticket ≠ [] ∧
    Pair (Num 4 life) (Pair (Num 4 add) (Pair (Vec 1 nonce) (Pair (Vec 2 ticket) (Vec 2 exts)))) body ∧
    Pair (Num 1 4) (Vec 3 body) m

/-- RFC 8446 §4.6.3: KeyUpdateRequest, update_not_requested(0) or update_requested(1); the message
type is 24. -/
def KeyUpdate (m : Bytes) : Prop :=
  ∃ request : Nat, ∃ body : Bytes, request ≤ 1 ∧ Num 1 request body ∧ Pair (Num 1 24) (Vec 3 body) m

/-- what the peer of an endpoint of this side may send once the handshake is over -/
def Posthandshake (side : Side) (m : Bytes) : Prop :=
  (side = .client ∧ NewSessionTicket m) ∨ KeyUpdate m

/-- RFC 8446 §5.2: `d` is one record, protected with the key and the number that come next on this
connection, which carries the handshake message `m`, and is not too long for it. -/
def Delivers (E : Env) (c : Conn) (d m : Bytes) : Prop :=
  ∃ k key nonce rd body, c.cipher = some k ∧ k.rd.key = some key ∧
    nextNonce k.info k.rd = .ok (nonce, rd) ∧
    d = [23, 3, 3] ++ be16 body.length ++ body ∧ body.length < 65536 ∧
    body.length ≤ c.mfl + 256 ∧
    E.aeadOpen k.info.id key nonce ([23, 3, 3] ++ be16 body.length) body = some (m ++ [22])

end Siotls.Spec.Rfc
