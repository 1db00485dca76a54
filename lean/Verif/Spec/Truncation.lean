import Verif.Spec.Farewell
/-!
# What a program can know of the end of the stream
-/

namespace Siotls.Spec

/-- what the two predicates of the API say: `is_connected`, `is_post_handshake` -/
def look (c : Conn) : Bool × Bool := (c.state.isConnected, c.state.isPostHandshake)

/-- what a program sees that makes these calls: the predicates, and for each call what it returns or
raises and the predicates afterwards -/
def watch (E : Env) : List Op → Conn → (Bool × Bool) × List (Except Exn Bytes × Bool × Bool)
  | [], c => (look c, [])
  | o :: os, c =>
    let r := o.run E c
    let t := watch E os r.2
    (look c, (r.1, t.1) :: t.2)

/-- calls of a program that gets no more bytes from its peer -/
def Offline (ops : List Op) : Prop := ∀ d, .receive d ∉ ops

/-- The end of the stream when `side` closes and the bytes get through. -/
def ending (side : Bool) (n : Nat) : List (Bool × Deed) :=
  [(side, .close), (side, .talk .drain), (!side, .talk (.deliver n))]

/-- the end on that side -/
def pick (side : Bool) (t : Party × Party) : Party := if side then t.1 else t.2

/-- Two histories of a session: in the first nobody closed and everything sent was delivered, in the
second `side` closed after that and its close_notify was delivered. -/
structure Closing (E : Env) (a : Conn) (E' : Env) (b : Conn) (side : Bool) (ms : List (Bool × Deed)) (n : Nat)
    (open_ closed : Conn) : Prop where
  civil : Civil ms
  nobody : ∀ s, (s, .close) ∉ ms
  delivered : let x := pick side (encounter E E' ms ⟨a, [], [], []⟩ ⟨b, [], [], []⟩).2
    x.conn.outputData = [] ∧ x.wire = []
  notified : (pick side (encounter E E' (ms ++ ending side n) ⟨a, [], [], []⟩ ⟨b, [], [], []⟩).2).wire = []
  first : open_ = (pick (!side) (encounter E E' ms ⟨a, [], [], []⟩ ⟨b, [], [], []⟩).2).conn
  second : closed = (pick (!side) (encounter E E' (ms ++ ending side n) ⟨a, [], [], []⟩ ⟨b, [], [], []⟩).2).conn

/-- A program whose peer stops sending can tell by some calls whether the peer closed. -/
def Detects (E : Env) (a : Conn) (E' : Env) (b : Conn) : Prop :=
  ∀ side ms n o k, Closing E a E' b side ms n o k →
    ∃ ops, Offline ops ∧ watch (if side then E' else E) ops o ≠ watch (if side then E' else E) ops k

/-- No program can. -/
def Undetected (E : Env) (a : Conn) (E' : Env) (b : Conn) : Prop :=
  ∀ side ms n o k, Closing E a E' b side ms n o k →
    o.state ≠ k.state ∧
    ∀ ops, Offline ops → watch (if side then E' else E) ops o = watch (if side then E' else E) ops k

end Siotls.Spec
