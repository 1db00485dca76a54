import Verif.Model.Serial
/-!
# `SerialIO` as an object: /repo/src/siotls/serial.py:47-167

`Model/Serial.lean` simplifies: a parser that raises forgets its stream, and a writer is the list of
bytes that it appends. Here the methods are modelled as they are: they act on a buffer with a
cursor (`io.BytesIO`) and a stack of limits, what they did before an exception stays done, loops are
loops, and `write_listvar` goes back to its placeholder. `Props/SerialObject.lean` (C107) shows what
of it the simplification keeps.
-/

namespace Siotls

/-- serial.py:47-50. `buf`: `getvalue()`; `pos`: `tell()`; `lims`: `_limits` without its `+inf` bottom,
innermost first. -/
structure SerialIO where
  buf : Bytes
  pos : Nat
  lims : List Nat
  deriving DecidableEq, Repr

/-- A method: the object is mutated whether or not an exception is raised. -/
def O (α : Type) := SerialIO → Except Exn α × SerialIO

namespace O

def pure {α} (a : α) : O α := fun s => (.ok a, s)

def bind {α β} (m : O α) (f : α → O β) : O β := fun s =>
  match m s with
  | (.ok a, s') => f a s'
  | (.error e, s') => (.error e, s')

instance : Monad O where
  pure := O.pure
  bind := O.bind

/-- `raise` -/
def throw {α} (e : Exn) : O α := fun s => (.error e, s)

/-- a pure computation that may raise -/
def lift {α} (r : Except Exn α) : O α := fun s => (r, s)

end O

namespace Obj

/-- `SerialIO(b)`, serial.py:48-50. -/
def new (b : Bytes) : SerialIO := ⟨b, 0, []⟩

/-- `self.tell()` -/
def tell : O Nat := fun s => (.ok s.pos, s)

/-- `self.seek(pos)` -/
def seek (pos : Nat) : O Unit := fun s => (.ok (), { s with pos := pos })

/-- `self.seek(0, 2)`: returns the new position -/
def seekEnd : O Nat := fun s => (.ok s.buf.length, { s with pos := s.buf.length })

/-- `super().read(n)` of `io.BytesIO`: at most `n` bytes, all of them when `n` is None. -/
def superRead (n : Option Nat) : O Bytes := fun s =>
  let data := match n with
    | some n => (s.buf.drop s.pos).take n
    | none => s.buf.drop s.pos
  (.ok data, { s with pos := s.pos + data.length })

/-- `super().write(b)` of `io.BytesIO`: overwrites, then extends (the cursor is never beyond the end). -/
def write (b : Bytes) : O Unit := fun s =>
  (.ok (), { s with buf := s.buf.take s.pos ++ b ++ s.buf.drop (s.pos + b.length),
                    pos := s.pos + b.length })

/-- `read(n=None)`, serial.py:52-60. A negative argument of `super().read` means everything. -/
def read (n : Option Nat) : O Bytes := fun s =>
  match n, s.lims with
  | none, [] => superRead none s
  | none, l :: _ => if l < s.pos then superRead none s else superRead (some (l - s.pos)) s
  | some n, [] => superRead (some n) s
  | some n, l :: _ =>
    if (n : Int) > (l : Int) - (s.pos : Int) then (.error .bufTooMuch, s) else superRead (some n) s

/-- the loop of `read_exactly`, serial.py:64-69 -/
def readLoop (n : Nat) : Nat → Bytes → O Bytes
  | 0, _ => O.throw .fuel
  | fuel + 1, data =>
    if data.length = n then pure data else do
      let r ← read (some (n - data.length))
      if r.isEmpty then O.throw .bufMissing else readLoop n fuel (data ++ r)

/-- `read_exactly(n)`, serial.py:62-70: every turn but the last reads at least one byte. -/
def readExactly (n : Nat) : O Bytes := readLoop n (n + 1) []

/-- `read_int(n)`, serial.py:72-76. -/
def readInt (n : Nat) : O Nat :=
  if n = 0 then O.throw .valueError else do
    let b ← readExactly n
    return beDec b

/-- `read_var(n)`, serial.py:81-83. -/
def readVar (n : Nat) : O Bytes := do
  let len ← readInt n
  readExactly len

/-- `read_listint(nlist, nitem)`, serial.py:89-100 (`nitem > 0`). -/
def readListInt (nlist nitem : Nat) : O (List Nat) := do
  let len ← readInt nlist
  if len % nitem ≠ 0 then O.throw .bufOther else do
    let b ← readExactly len
    return Serial.chunkInts nitem b.length b

/-- `is_eof()`, serial.py:134-138. -/
def isEof : O Bool := do
  let current ← tell
  let eof ← seekEnd
  seek current
  return current == eof

/-- `while not list_stream.is_eof(): items.append(list_stream.read_var(nitem))`, serial.py:110-111.
The fuel is the number of bytes. -/
def readVars (nitem : Nat) : Nat → List Bytes → O (List Bytes)
  | fuel, items => do
    let eof ← isEof
    if eof then return items else
    match fuel with
    | 0 => O.throw .fuel
    | fuel + 1 => do
      let item ← readVar nitem
      readVars nitem fuel (items ++ [item])

/-- `read_listvar(nlist, nitem)`, serial.py:107-112: the inner stream is another object. -/
def readListVar (nlist nitem : Nat) : O (List Bytes) := do
  let b ← readVar nlist
  O.lift (readVars nitem b.length [] (new b)).1

/-- `assert_eof()`, serial.py:140-146. -/
def assertEof : O Unit := do
  let current ← tell
  let eof ← seekEnd
  if eof - current ≠ 0 then do
    seek current
    O.throw .bufTooMuch
  else return ()

/-- `with stream.lookahead(): body`, serial.py:126-132. -/
def lookahead {α} (body : O α) : O α := fun s =>
  match body s with
  | (r, s') => (r, { s' with pos := s.pos })

/-- `self._limits.pop()`: None stands for `+inf` -/
def popLimit : O (Option Nat) := fun s => (.ok s.lims.head?, { s with lims := s.lims.tail })

/-- `with stream.limit(length): body`, serial.py:148-167. An exception of the body leaves at the
`yield`: nothing is popped. -/
def limit {α} (length : Nat) (body : O α) : O α := fun s =>
  let newLimit := s.pos + length
  let tooLoose := match s.lims with
    | [] => false
    | l :: _ => newLimit > l
  if tooLoose then (.error .valueError, s) else
  (do
    let a ← body
    let top ← popLimit
    if top ≠ some newLimit then O.throw .runtimeError else do
    let current ← tell
    if (newLimit : Int) - (current : Int) ≠ 0 then O.throw .bufTooMuch
    else return a : O α) { s with lims := newLimit :: s.lims }

/-- `write_int(n, i)`, serial.py:78-79. -/
def writeInt (n i : Nat) : O Unit := do
  let b ← O.lift (Serial.toBytes n i)
  write b

/-- `write_var(n, b)`, serial.py:85-87. -/
def writeVar (n : Nat) (b : Bytes) : O Unit := do
  writeInt n b.length
  write b

/-- `for item in items: f(item)` -/
def forEach {α} (f : α → O Unit) : List α → O Unit
  | [] => pure ()
  | a :: as => do
    f a
    forEach f as

/-- `write_listint(nlist, nitem, items)`, serial.py:102-105. -/
def writeListInt (nlist nitem : Nat) (items : List Nat) : O Unit := do
  writeInt nlist (items.length * nitem)
  forEach (writeInt nitem) items

/-- `write_listvar(nlist, nitem, items)`, serial.py:114-123. -/
def writeListVar (nlist nitem : Nat) (items : List Bytes) : O Unit := do
  let prepos ← tell
  writeInt nlist 0
  forEach (writeVar nitem) items
  let postpos ← tell
  seek prepos
  writeInt nlist (postpos - prepos - nlist)
  seek postpos

end Obj
end Siotls
