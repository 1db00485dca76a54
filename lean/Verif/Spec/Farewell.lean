import Verif.Spec.Duplex
/-!
# Conversations that end
-/

namespace Siotls.Spec

/-- what one end may do next: go on talking, or close its sending end -/
inductive Deed where
  | talk (m : Move)
  | close

def Deed.play (E : Env) (me peer : Party) : Deed → Except Exn Bytes × Party × Party
  | .talk m => m.play E me peer
  | .close =>
    let r := Op.closeSend.run E me.conn
    (r.1, { me with conn := r.2 }, peer)

/-- as `converse`, with programs that close their sending end -/
def encounter (E E' : Env) : List (Bool × Deed) → Party → Party → List (Except Exn Bytes) × Party × Party
  | [], a, b => ([], a, b)
  | (true, m) :: ms, a, b =>
    let r := m.play E a b
    let t := encounter E E' ms r.2.1 r.2.2
    (r.1 :: t.1, t.2)
  | (false, m) :: ms, a, b =>
    let r := m.play E' b a
    let t := encounter E E' ms r.2.2 r.2.1
    (r.1 :: t.1, t.2)

/-- the end `side` closes once at most and sends nothing after that -/
def Polite (side : Bool) : List (Bool × Deed) → Prop
  | [] => True
  | (s, .close) :: ms =>
    (s = side → ∀ d ∈ ms, d.1 = side → d.2 ≠ .close ∧ ∀ p, d.2 ≠ .talk (.send p)) ∧ Polite side ms
  | (_, .talk _) :: ms => Polite side ms

/-- sizes and numbers as in `Moderate` -/
structure Civil (ms : List (Bool × Deed)) : Prop where
  sizes : ∀ side d, (side, .talk (.send d)) ∈ ms → d.length ≤ 16366
  count : ∀ side, (ms.filter fun m => m.1 == side && m.2 matches .talk (.send _)).length < 10000000
  polite : ∀ side, Polite side ms

/-- What `y` knows of the end of `x`. `xc`, `yc`: whether they closed their sending ends. As long as
`y` did not close, its state is the connected one until it has everything `x` sent and `x` has closed;
when `x` closed and nothing is on the way, `y` knows. -/
structure Informed (x y : Party) (xc yc : Prop) : Prop where
  sound : y.conn.state = .connected ∨ yc ∨ xc ∧ y.got ++ y.conn.applicationData = x.sent
  complete : xc → x.conn.outputData = [] → x.wire = [] → y.conn.state ≠ .connected

/-- However two programs send, read, hand over bytes and close, in any order: no call raises, each end
reads what the other sent (also after it closed its own sending end), both can go on receiving, and
each learns of the end of the other exactly when it has read everything. -/
def Farewell (E : Env) (a : Conn) (E' : Env) (b : Conn) : Prop :=
  ∀ ms, Civil ms →
    let t := encounter E E' ms ⟨a, [], [], []⟩ ⟨b, [], [], []⟩
    (∀ r ∈ t.1, raised r = false) ∧
    t.2.1.conn.state.isConnected = true ∧ t.2.2.conn.state.isConnected = true ∧
    Delivers t.2.1 t.2.2 ∧ Delivers t.2.2 t.2.1 ∧
    Informed t.2.1 t.2.2 ((true, .close) ∈ ms) ((false, .close) ∈ ms) ∧
    Informed t.2.2 t.2.1 ((false, .close) ∈ ms) ((true, .close) ∈ ms)

end Siotls.Spec
