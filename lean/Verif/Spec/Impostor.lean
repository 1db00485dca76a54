import Verif.Spec.Sockets
import Verif.Spec.History
/-!
# Someone who knows no key, behind the socket

What they say is a close_notify in the clear, then what they want to be taken for the peer's data, in
clear records.
-/

namespace Siotls.Spec
open Siotls

/-- RFC 8446 §6.1, as one clear record: warning, close_notify -/
def closeNotice : Bytes := recordBytes 21 [1, 0]

/-- the pieces that reach the socket, one for each call of `recv` -/
def lies (words : List Bytes) : List Bytes := closeNotice :: words.map (recordBytes 23)

/-- what each of the calls returned or raised -/
def answers (E : Env) (S : Sock) : List Call → Wrapped → List (Except Exn Bytes)
  | [], _ => []
  | x :: xs, w => (x.run E S w).1 :: answers E S xs (x.run E S w).2

/-- a program that reads (at most as often as there are words) and writes (at most `limit` bytes at a
time), in any order -/
def Converses (limit : Nat) : List Call → List Bytes → Prop
  | [], _ => True
  | .read n :: xs, _ :: ds => 0 < n ∧ Converses limit xs ds
  | .write x :: xs, ds => x.length ≤ limit ∧ Converses limit xs ds
  | _, _ => False

/-- every read returns the next word, every write returns -/
def takenIn : List Call → List Bytes → List (Except Exn Bytes)
  | [], _ => []
  | .read _ :: xs, d :: ds => .ok d :: takenIn xs ds
  | _ :: xs, ds => .ok [] :: takenIn xs ds

/-- what the program wrote, as clear records -/
def leaked : List Call → Bytes
  | [] => []
  | .write x :: xs => recordBytes 23 x ++ leaked xs
  | _ :: xs => leaked xs

/-- the socket never reaches the end of file -/
def Endless (S : Sock) : Prop := ∀ i n, S.recv i n ≠ .ok []

/-- the program does not call `close` -/
def stays : Call → Bool
  | .close => false
  | _ => true

/-- the program ends with the first call that raises -/
def Stops (E : Env) (S : Sock) : List Call → Wrapped → Prop
  | [], _ => True
  | x :: xs, w => (raised (x.run E S w).1 = true → xs = []) ∧ Stops E S xs (x.run E S w).2

end Siotls.Spec
