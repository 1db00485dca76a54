import Verif.Model.Toy
import Verif.Spec.History
/-!
# A complete toy handshake, as histories of API calls

Used only in `example`s and counterexamples.
-/

namespace Siotls.Toy
open Siotls

/-- what the toy client sends first -/
def hello : Bytes :=
  [22, 3, 3, 0, 113, 1, 0, 0, 109, 3, 3, 5, 5, 5, 5, 5, 5, 5, 5, 5, 5, 5, 5, 5, 5, 5, 5, 5, 5, 5,
    5, 5, 5, 5, 5, 5, 5, 5, 5, 5, 5, 5, 5, 0, 0, 6, 19, 3, 19, 2, 19, 1, 1, 0, 0, 62, 0, 43, 0, 3,
    2, 3, 4, 0, 13, 0, 6, 0, 4, 8, 7, 4, 3, 0, 10, 0, 6, 0, 4, 0, 29, 0, 23, 0, 15, 0, 1, 1, 0, 0,
    0, 6, 0, 4, 0, 0, 1, 97, 0, 5, 0, 5, 1, 0, 0, 0, 0, 0, 51, 0, 7, 0, 5, 0, 29, 0, 1, 1]

/-- the answer of a server that does not pad its records -/
def flight : Bytes :=
  [22, 3, 3, 0, 59, 2, 0, 0, 55, 3, 3, 6, 6, 6, 6, 6, 6, 6, 6, 6, 6, 6, 6, 6, 6, 6, 6, 6, 6, 6, 6,
    6, 6, 6, 6, 6, 6, 6, 6, 6, 6, 6, 6, 0, 19, 1, 0, 0, 15, 0, 43, 0, 2, 3, 4, 0, 51, 0, 5, 0, 29,
    0, 1, 1, 20, 3, 3, 0, 1, 1, 23, 3, 3, 0, 28, 8, 0, 0, 7, 0, 5, 0, 15, 0, 1, 1, 22, 0, 0, 0, 0,
    0, 0, 0, 0, 0, 0, 0, 0, 0, 0, 202, 14, 23, 3, 3, 0, 33, 11, 0, 0, 12, 0, 0, 0, 8, 0, 0, 3, 1, 2,
    3, 0, 0, 22, 0, 0, 0, 0, 0, 0, 0, 0, 0, 0, 0, 0, 0, 0, 188, 77, 23, 3, 3, 0, 34, 15, 0, 0, 13,
    8, 7, 0, 9, 8, 7, 1, 2, 3, 0, 0, 34, 71, 22, 0, 0, 0, 0, 0, 0, 0, 0, 0, 0, 0, 0, 0, 0, 174, 136,
    23, 3, 3, 0, 53, 20, 0, 0, 32, 73, 27] ++
  zeros 30 ++
  [22, 0, 0, 0, 0, 0, 0, 0, 0, 0, 0, 0, 0, 0, 0, 160, 213]

/-- a ClientHello that negotiates fragments of 512 bytes -/
def hello512 : Bytes :=
  [22, 3, 3, 0, 118, 1, 0, 0, 114, 3, 3, 5, 5, 5, 5, 5, 5, 5, 5, 5, 5, 5, 5, 5, 5, 5, 5, 5, 5, 5,
    5, 5, 5, 5, 5, 5, 5, 5, 5, 5, 5, 5, 5, 0, 0, 6, 19, 3, 19, 2, 19, 1, 1, 0, 0, 67, 0, 43, 0, 3,
    2, 3, 4, 0, 13, 0, 6, 0, 4, 8, 7, 4, 3, 0, 10, 0, 6, 0, 4, 0, 29, 0, 23, 0, 15, 0, 1, 1, 0, 0,
    0, 6, 0, 4, 0, 0, 1, 97, 0, 5, 0, 5, 1, 0, 0, 0, 0, 0, 51, 0, 7, 0, 5, 0, 29, 0, 1, 1, 0, 1, 0,
    1, 1]

/-- the end of its handshake -/
def finish : Bytes :=
  [20, 3, 3, 0, 1, 1, 23, 3, 3, 0, 53, 20, 0, 0, 32, 113, 186] ++
  zeros 30 ++
  [22, 0, 0, 0, 0, 0, 0, 0, 0, 0, 0, 0, 0, 0, 0, 162, 215]

/-- the end of the handshake of `client0`, not padded -/
def finishU : Bytes :=
  [20, 3, 3, 0, 1, 1, 23, 3, 3, 0, 53, 20, 0, 0, 32, 120, 230] ++
  zeros 30 ++
  [22, 0, 0, 0, 0, 0, 0, 0, 0, 0, 0, 0, 0, 0, 0, 173, 248]

def clientOps : List Op := [.initiate, .drain, .receive flight]
def serverOps : List Op := [.initiate, .receive hello512, .drain, .receive finish]

def clientDone : Conn := runOps env clientOps client0
def serverHalf : Conn := runOps env [.initiate, .receive hello512] server0
def serverDone : Conn := runOps env serverOps server0

/-- the server that `clientDone` is connected to -/
def pairOps : List Op := [.initiate, .receive hello, .drain, .receive finishU]

def serverPair : Conn := runOps env pairOps server0

/-- a letter and a count per kind of event, oldest first: easy to compare -/
def shape (tr : List Ev) : List (Nat × Nat) :=
  tr.reverse.map fun e => match e with
    | .got t _ => (0, t)
    | .recv x => (1, x.ctype)
    | .sent x => (2, x.ctype)
    | .record _ b => (3, b.length)
    | .sealed s _ _ _ _ => (4, s)
    | .opened s _ _ _ _ => (5, s)
    | .wkey s _ => (6, s)
    | .rkey s _ => (7, s)
    | .hashed _ t _ => (8, t)
    | .delivered d => (9, d.length)
    | .logged l => (10, l.length)

end Siotls.Toy
