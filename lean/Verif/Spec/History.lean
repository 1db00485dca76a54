import Verif.Model.Api
/-!
# Programs that use a connection, and what is observed of them
-/

namespace Siotls

def Op.isReceive : Op → Bool
  | .receive _ => true
  | _ => false

/-- an exception -/
def raised {α} : Except Exn α → Bool
  | .error _ => true
  | .ok _ => false

/-- A program that does not insist: when `receive_data` raised although the handshake is not over
(`is_post_handshake` is false: not even an alert could be sent), it does not call `receive_data`
again. Every other call, in any order and whatever it raises, is allowed. -/
def Careful (E : Env) : List Op → Conn → Prop
  | [], _ => True
  | o :: os, c =>
    (o.isReceive = true → raised (o.run E c).1 = true →
      (o.run E c).2.state.isPostHandshake = false → os.all (!·.isReceive) = true) ∧
    Careful E os (o.run E c).2

def Careful.decide (E : Env) : (ops : List Op) → (c : Conn) → Decidable (Careful E ops c)
  | [], _ => .isTrue trivial
  | _ :: os, _ =>
    have := Careful.decide E os
    inferInstanceAs (Decidable (_ ∧ _))

instance (E : Env) (ops : List Op) (c : Conn) : Decidable (Careful E ops c) :=
  Careful.decide E ops c

/-- `receive_data` goes from `c` to `c'` by handling completely some of the contents it has. -/
inductive Turns (E : Env) : Conn → Conn → Prop
  | refl (c) : Turns E c c
  | turn {c c' c''} : receiveStep E c = (.ok true, c') → Turns E c' c'' → Turns E c c''

/-- the application closes one end -/
def Op.isClose : Op → Bool
  | .closeRecv | .closeSend => true
  | _ => false

/-- Nobody closed the connection: the application did not, and no close_notify alert (code 0) was
received. -/
def NeverClosed (ops : List Op) (tr : List Ev) : Prop :=
  ops.all (!·.isClose) = true ∧ ∀ level, Ev.recv (.alert level 0) ∉ tr

/-! Observations of a trace, newest event first. -/

/-- write keys installed (suite, key), newest first -/
def writeKeys : List Ev → List (Nat × Bytes)
  | [] => []
  | .wkey s k :: l => (s, k) :: writeKeys l
  | _ :: l => writeKeys l

/-- read keys installed (suite, key), newest first -/
def readKeys : List Ev → List (Nat × Bytes)
  | [] => []
  | .rkey s k :: l => (s, k) :: readKeys l
  | _ :: l => readKeys l

/-- what happened since the newest write key was installed -/
def sinceW : List Ev → List Ev
  | [] => []
  | .wkey _ _ :: _ => []
  | e :: l => e :: sinceW l

/-- what happened since the newest read key was installed -/
def sinceR : List Ev → List Ev
  | [] => []
  | .rkey _ _ :: _ => []
  | e :: l => e :: sinceR l

/-- (key, nonce) of every encryption, newest first -/
def encryptions : List Ev → List (Bytes × Bytes)
  | [] => []
  | .sealed _ k n _ _ :: l => (k, n) :: encryptions l
  | _ :: l => encryptions l

/-- (key, nonce) of every successful decryption, newest first -/
def decryptions : List Ev → List (Bytes × Bytes)
  | [] => []
  | .opened _ k n _ _ :: l => (k, n) :: decryptions l
  | _ :: l => decryptions l

/-- RFC 8446 section 5.2: `inner` is the TLSInnerPlaintext of a fragment -/
def IsInner (inner : Bytes) (ctype : Nat) (fragment : Bytes) : Prop :=
  ∃ t : UInt8, ∃ n, t ≠ 0 ∧ t.toNat = ctype ∧ inner = fragment ++ t :: List.replicate n 0

/-- a fragment that came out of a decryption with this key, among the events `l` -/
def Decrypted (l : List Ev) (suite : Nat) (key : Bytes) (ctype : Nat) (fragment : Bytes) : Prop :=
  ∃ nonce aad inner, Ev.opened suite key nonce aad inner ∈ l ∧ IsInner inner ctype fragment

end Siotls
