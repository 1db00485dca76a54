import Verif.Model.Exn
/-!
# `SerialIO`: /repo/src/siotls/serial.py

A stream over bytes with a stack of limits. The writer side is modelled by functions that
return the bytes to append (`Except Exn Bytes`), because the code base always builds the
output left to right.
-/

namespace Siotls

/-- serial.py:47-50. `rest`: the bytes after the cursor; `pos`: `tell()`; `lims`: `_limits`
without its `+inf` bottom, innermost first. -/
structure Stream where
  rest : Bytes
  pos : Nat
  lims : List Nat
  deriving DecidableEq, Repr

/-- `SerialIO(b)`. -/
def Stream.new (b : Bytes) : Stream := ⟨b, 0, []⟩

/-- A parser: mutates the stream or raises. -/
abbrev P (α : Type) := StateT Stream (Except Exn) α

/-- `raise e`. -/
def P.throw {α} (e : Exn) : P α := fun _ => .error e

/-- lift a pure computation that may raise. -/
def P.lift {α} (r : Except Exn α) : P α := fun s =>
  match r with
  | .ok a => .ok (a, s)
  | .error e => .error e

namespace Serial

/-- `super().read(n)` of `io.BytesIO` (at most `n` bytes, fewer at the end). -/
def rawRead (n : Nat) : P Bytes := fun s =>
  .ok (s.rest.take n, { s with rest := s.rest.drop n, pos := s.pos + (s.rest.take n).length })

/-- `read()` without argument, serial.py:52-60: everything up to the innermost limit. -/
def readAll : P Bytes := fun s =>
  match s.lims with
  | [] => rawRead s.rest.length s
  | l :: _ => rawRead (l - s.pos) s

/-- `read(n)`, serial.py:52-60. -/
def read (n : Nat) : P Bytes := fun s =>
  match s.lims with
  | [] => rawRead n s
  | l :: _ => if s.pos + n > l then .error .bufTooMuch else rawRead n s

/-- `read_exactly(n)`, serial.py:62-70. The Python loop performs at most two reads on a
`BytesIO`: one that returns `min n (available)` bytes, and, when short, one that returns `b''`
(and then raises), whose limit check cannot fail when the first one did not. -/
def readExactly (n : Nat) : P Bytes := fun s =>
  if n = 0 then .ok ([], s) else
  match read n s with
  | .error e => .error e
  | .ok (d, s') => if d.length = n then .ok (d, s') else .error .bufMissing

/-- `read_int(n)`, serial.py:72-76. -/
def readInt (n : Nat) : P Nat :=
  if n = 0 then P.throw .valueError else do
    let b ← readExactly n
    return beDec b

/-- `read_var(n)`, serial.py:81-83. -/
def readVar (n : Nat) : P Bytes := do
  let len ← readInt n
  readExactly len

/-- `[int.from_bytes(bytes(group)) for group in zip(*([it] * nitem), strict=True)]`,
serial.py:96-100, for a buffer whose length is a multiple of `nitem`. The fuel is the
buffer's length. -/
def chunkInts (nitem : Nat) : Nat → Bytes → List Nat
  | 0, _ => []
  | k + 1, b => if b.isEmpty then [] else beDec (b.take nitem) :: chunkInts nitem k (b.drop nitem)

/-- `read_listint(nlist, nitem)`, serial.py:89-100 (`nitem > 0`). -/
def readListInt (nlist nitem : Nat) : P (List Nat) := do
  let len ← readInt nlist
  if len % nitem ≠ 0 then P.throw .bufOther else do
    let b ← readExactly len
    return chunkInts nitem b.length b

/-- `while not stream.is_eof(): items.append(p(stream))` (serial.py:110-111 and every list of
structures). Fuel: number of bytes left; each `p` in the code consumes at least one byte. -/
def untilEof {α} (p : P α) : Nat → Stream → Except Exn (List α)
  | k, s =>
    if s.rest.isEmpty then .ok [] else
    match k with
    | 0 => .error .fuel
    | k + 1 =>
      match p s with
      | .error e => .error e
      | .ok (a, s') =>
        match untilEof p k s' with
        | .error e => .error e
        | .ok as => .ok (a :: as)

/-- `list_stream = SerialIO(b); while not list_stream.is_eof(): …`. -/
def parseMany {α} (p : P α) (b : Bytes) : Except Exn (List α) :=
  untilEof p b.length (Stream.new b)

/-- `read_listvar(nlist, nitem)`, serial.py:107-112. -/
def readListVar (nlist nitem : Nat) : P (List Bytes) := do
  let b ← readVar nlist
  P.lift (parseMany (readVar nitem) b)

/-- `with stream.limit(length): body`, serial.py:148-167. When the body raises, the limit is
left on the stack, but then the whole parse is abandoned. -/
def limit {α} (length : Nat) (body : P α) : P α := fun s =>
  let newLimit := s.pos + length
  let tooLoose := match s.lims with
    | [] => false
    | l :: _ => newLimit > l
  if tooLoose then .error .valueError else
  match body { s with lims := newLimit :: s.lims } with
  | .error e => .error e
  | .ok (a, s') =>
    if newLimit ≠ s'.pos then .error .bufTooMuch
    else .ok (a, { s' with lims := s'.lims.tail })

/-- `assert_eof()`, serial.py:140-146. -/
def assertEof : P Unit := fun s =>
  if s.rest.isEmpty then .ok ((), s) else .error .bufTooMuch

/-- `i.to_bytes(n, 'big')`: OverflowError when it does not fit. -/
def toBytes (n i : Nat) : Except Exn Bytes :=
  if i < 256 ^ n then .ok (beEnc n i) else .error .overflow

/-- `write_int(n, i)`, serial.py:78-79. -/
def writeInt (n i : Nat) : Except Exn Bytes := toBytes n i

/-- `write_var(n, b)`, serial.py:85-87, and the open-coded
`len(b).to_bytes(n, 'big'), b` of the message serializers. -/
def writeVar (n : Nat) (b : Bytes) : Except Exn Bytes := do
  let h ← toBytes n b.length
  return h ++ b

/-- concatenation of the items' encodings, first failure wins. -/
def concatMapM {α} (f : α → Except Exn Bytes) : List α → Except Exn Bytes
  | [] => .ok []
  | a :: as => do
    let x ← f a
    let y ← concatMapM f as
    return x ++ y

/-- `write_listint(nlist, nitem, items)`, serial.py:102-105. -/
def writeListInt (nlist nitem : Nat) (items : List Nat) : Except Exn Bytes := do
  let h ← toBytes nlist (items.length * nitem)
  let b ← concatMapM (toBytes nitem) items
  return h ++ b

/-- `write_listvar(nlist, nitem, items)`, serial.py:114-123. The size is written last, so an
item that does not fit is reported before a total that does not fit; both are OverflowError. -/
def writeListVar (nlist nitem : Nat) (items : List Bytes) : Except Exn Bytes := do
  let b ← concatMapM (writeVar nitem) items
  writeVar nlist b

end Serial
end Siotls
