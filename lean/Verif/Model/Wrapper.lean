import Verif.Model.Api
/-!
# The socket wrapper: /repo/src/siotls/wrapper.py

A socket is what the operating system answers to the successive `recv` and `send` calls; anything
else it may do is invisible to the wrapper. `with` blocks (`__enter__`, `__exit__`, lines 8-13) are
`do_handhskake` and `close`.
-/

namespace Siotls

/-- A connected TCP socket. `recv i n`: the answer to the `i`-th `recv(n)` (empty = end of file).
`send i b`: the answer to the `i`-th `send(b)`, the number of bytes the kernel took. Both may
raise. -/
structure Sock where
  recv : Nat → Nat → Except Exn Bytes
  send : Nat → Bytes → Except Exn Nat

/-- `WrappedSocket`, wrapper.py:3-6, with the calls made on the socket so far and the bytes it
accepted. -/
structure Wrapped where
  conn : Conn
  nrecv : Nat
  nsend : Nat
  accepted : Bytes

/-- `conn.wrap(sock)`, connection.py:187-188. -/
def Wrapped.new (c : Conn) : Wrapped := ⟨c, 0, 0, []⟩

/-- Methods of the wrapper: they raise or return, and change the connection and the socket. -/
def W (α : Type) := Wrapped → Except Exn α × Wrapped

namespace W

def pure {α} (a : α) : W α := fun w => (.ok a, w)

def bind {α β} (m : W α) (f : α → W β) : W β := fun w =>
  match m w with
  | (.ok a, w') => f a w'
  | (.error e, w') => (.error e, w')

instance : Monad W where
  pure := W.pure
  bind := W.bind

/-- `try: m finally: f`: an exception of `f` replaces the one of `m`. -/
def finally_ {α} (m : W α) (f : W Unit) : W α := fun w =>
  match f (m w).2 with
  | (.ok _, w') => ((m w).1, w')
  | (.error e, w') => (.error e, w')

/-- a method of the connection -/
def call (E : Env) (o : Op) : W Bytes := fun w =>
  ((o.run E w.conn).1, { w with conn := (o.run E w.conn).2 })

/-- `self.sock.send(b)`: the count it returns is ignored. -/
def send (S : Sock) (b : Bytes) : W Unit := fun w =>
  match S.send w.nsend b with
  | .ok n => (.ok (), { w with nsend := w.nsend + 1, accepted := w.accepted ++ b.take n })
  | .error e => (.error e, { w with nsend := w.nsend + 1 })

/-- `self.sock.recv(self.conn.max_fragment_length)` -/
def recv (S : Sock) : W Bytes := fun w =>
  (S.recv w.nrecv w.conn.mfl, { w with nrecv := w.nrecv + 1 })

end W

/-- `if output_data := self.conn.data_to_send(): self.sock.send(output_data)`, wrapper.py:24-25,
36-37, 49-50. -/
def flush (E : Env) (S : Sock) : W Unit := do
  let out ← W.call E .drain
  if out.isEmpty then pure () else W.send S out

/-- wrapper.py:21-25 and 33-37. -/
def takeIn (E : Env) (S : Sock) (data : Bytes) : W Bytes :=
  W.finally_ (W.call E (.receive data)) (flush E S)

/-- `while not self.conn.is_post_handshake(): …`, wrapper.py:19-27, given up after `fuel` turns (the
last `recv` blocks for ever). -/
def handshakeLoop (E : Env) (S : Sock) : Nat → W Unit
  | 0 => fun w => if w.conn.state.isPostHandshake then (.ok (), w) else (.error .fuel, w)
  | fuel + 1 => fun w =>
    if w.conn.state.isPostHandshake then (.ok (), w) else (do
      let data ← W.recv S
      let _ ← if data.isEmpty then W.call E .closeRecv else takeIn E S data
      handshakeLoop E S fuel) w

/-- wrapper.py:17-18. -/
def sendHello (E : Env) (S : Sock) : W Unit := fun w =>
  match w.conn.config.side with
  | .client => (do
    let out ← W.call E .drain
    W.send S out) w
  | .server => (.ok (), w)

/-- `do_handhskake`, wrapper.py:15-27. -/
def doHandshake (E : Env) (S : Sock) (fuel : Nat) : W Unit := do
  let _ ← W.call E .initiate
  sendHello E S
  handshakeLoop E S fuel

/-- `while self.conn.is_connected() and not application_data: …`, wrapper.py:31-40. -/
def readLoop (E : Env) (S : Sock) : Nat → Bytes → W Bytes
  | 0, app => fun w =>
    if w.conn.state.isConnected && app.isEmpty then (.error .fuel, w) else (.ok app, w)
  | fuel + 1, app => fun w =>
    if (w.conn.state.isConnected && app.isEmpty) = false then (.ok app, w) else (do
      let data ← W.recv S
      if data.isEmpty then do
        let _ ← W.call E .closeRecv
        readLoop E S fuel app
      else do
        let _ ← takeIn E S data
        let more ← W.call E .read
        readLoop E S fuel (app ++ more)) w

/-- `read`, wrapper.py:29-41. -/
def wrapRead (E : Env) (S : Sock) (fuel : Nat) : W Bytes := do
  let app ← W.call E .read
  readLoop E S fuel app

/-- `write`, wrapper.py:43-45. -/
def wrapWrite (E : Env) (S : Sock) (data : Bytes) : W Unit := do
  let _ ← W.call E (.send data)
  let out ← W.call E .drain
  W.send S out

/-- `close`, wrapper.py:47-50. -/
def wrapClose (E : Env) (S : Sock) : W Unit := do
  let _ ← W.call E .closeSend
  flush E S

/-- The methods of the wrapper, with their arguments. -/
inductive Call where
  | handshake (fuel : Nat)
  | read (fuel : Nat)
  | write (data : Bytes)
  | close
  deriving DecidableEq, Repr

/-- Call one method: the bytes it returns (empty for `None`) or its exception. -/
def Call.run (E : Env) (S : Sock) : Call → W Bytes
  | .handshake n => do doHandshake E S n; pure []
  | .read n => wrapRead E S n
  | .write d => do wrapWrite E S d; pure []
  | .close => do wrapClose E S; pure []

/-- A program using the wrapper: it may catch every exception and go on. -/
def runCalls (E : Env) (S : Sock) : List Call → Wrapped → Wrapped
  | [], w => w
  | x :: xs, w => runCalls E S xs (x.run E S w).2

end Siotls
