import Verif.Spec.EndToEnd
/-!
# Two programs that talk to each other
-/

namespace Siotls.Spec

/-- one end of a conversation: its connection, the bytes taken from it that the peer did not get yet,
everything its program sent and everything its program read -/
structure Party where
  conn : Conn
  wire : Bytes := []
  sent : Bytes := []
  got : Bytes := []

/-- what one end may do next: send data, read data, hand the bytes to send to the network, or get (up
to) so many bytes from the network -/
inductive Move where
  | send (data : Bytes)
  | read
  | drain
  | deliver (n : Nat)

/-- `me` moves: the exception if the call raised, and both ends afterwards -/
def Move.play (E : Env) (me peer : Party) : Move → Except Exn Bytes × Party × Party
  | .send d =>
    let r := (Op.send d).run E me.conn
    (r.1, { me with conn := r.2, sent := me.sent ++ d }, peer)
  | .read =>
    let r := Op.read.run E me.conn
    (r.1, { me with conn := r.2, got := me.got ++ r.1.toOption.getD [] }, peer)
  | .drain =>
    let r := Op.drain.run E me.conn
    (r.1, { me with conn := r.2, wire := me.wire ++ r.1.toOption.getD [] }, peer)
  | .deliver n =>
    if peer.wire.take n = [] then (.ok [], me, peer) else
    let r := (Op.receive (peer.wire.take n)).run E me.conn
    (r.1, { me with conn := r.2 }, { peer with wire := peer.wire.drop n })

/-- Both ends move in any order (`true`: the left one); what the calls return or raise, and both ends
afterwards. -/
def converse (E E' : Env) : List (Bool × Move) → Party → Party → List (Except Exn Bytes) × Party × Party
  | [], a, b => ([], a, b)
  | (true, m) :: ms, a, b =>
    let r := m.play E a b
    let t := converse E E' ms r.2.1 r.2.2
    (r.1 :: t.1, t.2)
  | (false, m) :: ms, a, b =>
    let r := m.play E' b a
    let t := converse E E' ms r.2.2 r.2.1
    (r.1 :: t.1, t.2)

/-- moves of programs that send at most 16366 bytes at a time and not ten million times -/
structure Moderate (ms : List (Bool × Move)) : Prop where
  sizes : ∀ side d, (side, .send d) ∈ ms → d.length ≤ 16366
  count : ∀ side, (ms.filter fun m => m.1 == side && m.2 matches .send _).length < 10000000

/-- One direction: what `y` read, followed by what it could read now, is the beginning of what `x`
sent; it is all of it when nothing is on the way. -/
structure Delivers (x y : Party) : Prop where
  beginning : y.got ++ y.conn.applicationData <+: x.sent
  everything : x.conn.outputData = [] → x.wire = [] → y.got ++ y.conn.applicationData = x.sent

/-- However two programs send, read and hand over bytes, in both directions at once: no call raises,
both ends stay connected, and each reads what the other sent. -/
def Duplex (E : Env) (a : Conn) (E' : Env) (b : Conn) : Prop :=
  ∀ ms, Moderate ms →
    let t := converse E E' ms ⟨a, [], [], []⟩ ⟨b, [], [], []⟩
    (∀ r ∈ t.1, raised r = false) ∧
    t.2.1.conn.state = .connected ∧ t.2.2.conn.state = .connected ∧
    Delivers t.2.1 t.2.2 ∧ Delivers t.2.2 t.2.1

end Siotls.Spec
