import Verif.Spec.History
import Verif.Spec.Layout
/-!
# The byte streams of a connection, read off its trace
-/

namespace Siotls.Spec
open Siotls

/-- RFC 8446 §5.1: type, legacy_record_version 0x0303, 16-bit length, fragment -/
def recordBytes (outer : Nat) (body : Bytes) : Bytes :=
  [UInt8.ofNat outer, 3, 3] ++ vec16 body

/-- every record put in the output buffer, oldest first (the trace is newest first) -/
def wire : List Ev → Bytes
  | [] => []
  | .record outer body :: l => wire l ++ recordBytes outer body
  | _ :: l => wire l

/-- the application data handed over to `data_to_read`, oldest first -/
def deliveredData : List Ev → Bytes
  | [] => []
  | .delivered d :: l => deliveredData l ++ d
  | _ :: l => deliveredData l

/-- The next record is a piece of a handshake message that leaves less than the four bytes of a
handshake header in the buffer. -/
def ShortHeader (E : Env) (c : Conn) : Prop :=
  ∃ frag c', readNextRecord E c = (.ok (some (Iana.ctHandshake, frag)), c') ∧
    c.inputHandshake.length + frag.length < 4

/-- every handshake message met by `receive_data` starts with a record holding its whole header -/
def NoShort (E : Env) (c : Conn) : Prop := ∀ c₀, Turns E c c₀ → ¬ ShortHeader E c₀

/-- RFC 8446 appendix D.4: a dummy change_cipher_spec record (any legacy version) -/
def dummyCcs (v : UInt8 × UInt8) : Bytes := [20, v.1, v.2, 0, 1, 1]

/-- one `receive_data` per chunk, until one raises -/
def feed (E : Env) : List Bytes → Conn → Except Exn Unit × Conn
  | [], c => (.ok (), c)
  | x :: xs, c =>
    match receiveData E x c with
    | (.ok _, c) => feed E xs c
    | (.error e, c) => (.error e, c)

/-- Until the last byte of `d` came, a connection that gets `d` in pieces does not take itself for
connected. -/
def Waits (E : Env) (d : Bytes) (c : Conn) : Prop :=
  ∀ xs rest, (∀ x ∈ xs, x ≠ []) → rest ≠ [] → xs.flatten ++ rest = d →
    ∃ c', feed E xs c = (.ok (), c') ∧ c'.state.isPostHandshake = false

/-- `while True: try … except: …` of connection.py:98-128 as a big-step relation: `n` turns handle a
content, then the loop is left, by `break` or by an exception. -/
inductive While (E : Env) : Nat → Conn → Except Exn Unit → Conn → Prop
  | stop {c c'} : receiveStep E c = (.ok false, c') → While E 0 c (.ok ()) c'
  | failed {c c₁ c' e u} : receiveStep E c = (.error e, c₁) →
      failWith E (alertFor e) c₁ = (.ok u, c') → While E 0 c (.error e) c'
  | unreported {c c₁ c' e e'} : receiveStep E c = (.error e, c₁) →
      failWith E (alertFor e) c₁ = (.error e', c') → While E 0 c (.error e') c'
  | turn {n c c₁ r c'} : receiveStep E c = (.ok true, c₁) → While E n c₁ r c' →
      While E (n + 1) c r c'

/-! ## The buffers of the application -/

/-- the bytes returned by a call, if any -/
def returned : Except Exn Bytes → Bytes
  | .ok b => b
  | .error _ => []

/-- everything the calls `o` of the program returned, in order -/
def collected (E : Env) (o : Op) : List Op → Conn → Bytes
  | [], _ => []
  | p :: ps, c => (if p = o then returned (p.run E c).1 else []) ++ collected E o ps (p.run E c).2

/-- the two methods that empty a buffer -/
def buffering : Op → Bool
  | .read | .drain => true
  | _ => false

/-- how the other calls of the program ended -/
def outcomes (E : Env) : List Op → Conn → List (Except Exn Bytes)
  | [], _ => []
  | p :: ps, c => (if buffering p then [] else [(p.run E c).1]) ++ outcomes E ps (p.run E c).2

end Siotls.Spec
