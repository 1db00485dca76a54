import Verif.Spec.Stream
/-!
# Protected records, and two connections that talk to each other
-/

namespace Siotls

/-- The cipher of a suite opens what it sealed. -/
def Env.Opens (E : Env) : Prop := ∀ s info k n a p, suiteInfo s = some info →
  E.aeadOpen s k n a (E.aeadSeal s k n a p) = some p

namespace Spec

/-- records put in the output, oldest first: outer type, length of the body -/
def recordLengths : List Ev → List (Nat × Nat)
  | [] => []
  | .record outer body :: l => recordLengths l ++ [(outer, body.length)]
  | _ :: l => recordLengths l

/-- the contents cut out of the input, oldest first: type and bytes -/
def contentsRead : List Ev → List (Nat × Bytes)
  | [] => []
  | .got ctype data :: l => contentsRead l ++ [(ctype, data)]
  | _ :: l => contentsRead l

/-- `_read_next_content` called again and again, here giving these contents -/
inductive Reads (E : Env) : Conn → List (Nat × Bytes) → Conn → Prop
  | done (r) : Reads E r [] r
  | next {r ctype data r' l r''} :
      readNextContent E r = (.ok (some (ctype, data)), r') → Reads E r' l r'' →
      Reads E r ((ctype, data) :: l) r''

/-- `received` is what was `sent`, except that application data may have been cut in pieces. -/
inductive Carried : (sent received : List (Nat × Bytes)) → Prop
  | nil : Carried [] []
  | same {x sent received} : Carried sent received → Carried (x :: sent) (x :: received)
  | cut {pieces : List Bytes} {sent received} : Carried sent received →
      Carried ((23, pieces.flatten) :: sent) (pieces.map (fun p => (23, p)) ++ received)

/-- one direction: the writer and the reader are both without keys, or both hold the same keys with
the same sequence number -/
def Matched (ks kr : Option CipherSt) : Prop :=
  (∀ k, ks = some k → k.wr.key = none) ∧ (∀ k, kr = some k → k.rd.key = none) ∨
  ∃ s r, ks = some s ∧ kr = some r ∧ s.info = r.info ∧ s.wr = r.rd ∧ s.wr.key ≠ none ∧
    suiteInfo s.info.id = some s.info

/-- The records `s` makes of `n` bytes pass the size check of `r`: both have the same limit (or that of
`r` is larger), and when they are encrypted either the bytes and the overhead are less than the limit,
or `r` also accepts the record of a full fragment. -/
def SizeOk (s r : Conn) (n : Nat) : Prop :=
  s.mfl ≤ r.mfl ∧ ∀ k, s.cipher = some k → k.wr.key ≠ none →
    n + 1 + k.info.tagLength < s.mfl ∨ s.mfl + min s.mfl 4096 ≤ r.mfl + 256

/-- several sends in a row, all of which return -/
inductive Sends (E : Env) : Conn → List Content → Conn → Prop
  | done (c) : Sends E c [] c
  | send {c x c' l c''} : sendContent E x c = (.ok (), c') → Sends E c' l c'' →
      Sends E c (x :: l) c''

/-- `send_data` called once per payload; each call returns -/
inductive SendsData (E : Env) : Conn → List Bytes → Conn → Prop
  | done (c) : SendsData E c [] c
  | send {c d c' l c''} : sendData E d c = (.ok (), c') → SendsData E c' l c'' →
      SendsData E c (d :: l) c''

/-- `_read_next_record` called again and again, here giving these pieces of a handshake message -/
inductive Pieces (E : Env) : Conn → List Bytes → Conn → Prop
  | done (r) : Pieces E r [] r
  | next {r f r' l r''} : readNextRecord E r = (.ok (some (22, f)), r') → Pieces E r' l r'' →
      Pieces E r (f :: l) r''

/-- one whole handshake message: type, length in three bytes, that many bytes (RFC 8446 §4) -/
def Message (m : Bytes) : Prop :=
  ∃ (type a b c : UInt8) (body : Bytes), m = type :: a :: b :: c :: body ∧
    body.length = a.toNat * 65536 + b.toNat * 256 + c.toNat

/-- a program that only receives (non-empty chunks) and empties the buffers -/
def Passive (ops : List Op) : Prop :=
  ∀ o ∈ ops, o = .read ∨ o = .drain ∨ ∃ d, d ≠ [] ∧ o = .receive d

/-- the chunks passed to `receive_data` by a program -/
def chunks : List Op → List Bytes
  | [] => []
  | .receive d :: l => d :: chunks l
  | _ :: l => chunks l

end Spec

end Siotls
