import Verif.Spec.Talkers
/-!
# Messages: the arguments of `send_data` and `write`
-/

namespace Siotls.Spec

/-- what one side sends, message by message -/
def sentBy (side : Bool) : List (Bool × Deed) → List Bytes
  | [] => []
  | (s, .talk (.send d)) :: ms => if s = side then d :: sentBy side ms else sentBy side ms
  | _ :: ms => sentBy side ms

/-- what one side writes, message by message -/
def writtenBy (side : Bool) : List (Bool × Act) → List Bytes
  | [] => []
  | (s, .write d) :: xs => if s = side then d :: writtenBy side xs else writtenBy side xs
  | _ :: xs => writtenBy side xs

/-- some whole messages from the first one on -/
def Begins (x : Bytes) (messages : List Bytes) : Prop := ∃ j, x = (messages.take j).flatten

/-- some whole messages, one after the other, after the first `i` ones -/
def Among (x : Bytes) (i : Nat) (messages : List Bytes) : Prop := ∃ j, x = ((messages.drop i).take j).flatten

/-- However two programs send, read, hand over bytes and close: what an end has got, together with what
it could read now, never ends in the middle of a message. -/
def Unbroken (E : Env) (a : Conn) (E' : Env) (b : Conn) : Prop :=
  ∀ ms, Civil ms →
    let t := encounter E E' ms ⟨a, [], [], []⟩ ⟨b, [], [], []⟩
    Begins (t.2.2.got ++ t.2.2.conn.applicationData) (sentBy true ms) ∧
    Begins (t.2.1.got ++ t.2.1.conn.applicationData) (sentBy false ms)

/-- However two programs write, read and close their wrapped sockets: whenever a `read` returns, it
returns some messages of the peer, whole, that follow those returned before. -/
def Undivided (E : Env) (a : Wrapped) (E' : Env) (b : Wrapped) : Prop :=
  ∀ xs side n, Sober xs →
    let t := exchange E E' xs ⟨a, [], [], []⟩ ⟨b, [], [], []⟩
    let me := if side then t.2.1 else t.2.2
    let peer := if side then t.2.2 else t.2.1
    ∃ i, me.got = ((writtenBy (!side) xs).take i).flatten ∧
      ∀ x, ((Act.read n).play (if side then E else E') me peer).1 = .ok x → Among x i (writtenBy (!side) xs)

end Siotls.Spec
