import Verif.Model.Server
/-!
# Public API: /repo/src/siotls/connection.py:67-185
-/

namespace Siotls
open Serial

/-- `Connected.process`, connected.py:11-16. -/
def connectedProcess (content : Content) : M Unit :=
  match content with
  | .applicationData d =>
    M.modify fun c => { c with applicationData := c.applicationData ++ d,
                               tr := .delivered d :: c.tr }
  | _ => baseProcess content

/-- `self._state.process(content)`: dispatch on the class of the state. -/
def process (E : Env) (content : Content) : M Unit := fun c =>
  match c.state with
  | .clientStart _ => baseProcess content c
  | .clientWaitSH f ks h => clientWaitSH E f ks h content c
  | .clientWaitEE => clientWaitEE content c
  | .clientWaitCertCr => clientWaitCertCr E content c
  | .clientWaitCert m => clientWaitCert E m content c
  | .clientWaitCV m h => clientWaitCV E m h content c
  | .clientWaitFin m h => clientWaitFin E m h content c
  | .serverStart => baseProcess content c
  | .serverWaitCH f => serverWaitCH E f content c
  | .serverWaitFin h => serverWaitFin E h content c
  | .connected => connectedProcess content c
  | .closed r _ =>                              -- closed.py:14-18
    if r then connectedProcess content c else (.error (.alert Iana.unexpectedMessage), c)
  | .failed => (.ok (), c)                      -- failed.py:9-10

/-- `initiate_connection`, connection.py:71-87, states/__init__.py:31-33, server/start.py:10-11. -/
def initiate (E : Env) : M Unit := fun c =>
  match c.state with
  | .clientStart cookie => clientInitiate E cookie c
  | .serverStart => moveTo (.serverWaitCH true) c
  | _ => (.error .notImplemented, c)

/-- the lookup key of `Certificate.parse_body`, handshakes/certificate.py:134-139. -/
def Conn.certType (c : Conn) : Option (Option Nat) :=
  match c.nconfig with
  | none => none
  | some n => some (match c.config.side with
    | .client => n.serverCertificateType
    | .server => n.clientCertificateType)

/-- connection.py:99-122, the body of the `try`: `false` when there is no complete content. -/
def receiveStep (E : Env) : M Bool := do
  let next ← readNextContent E
  match next with
  | none => return false
  | some (ctype, data) => do
    let c ← M.get
    let content ← M.lift (decodeContent E c.certType ctype data)
    hashContent data c.config.side.other content
    ghost (.recv content)
    process E content
    return true

/-- the alert of connection.py:123-128 for an exception. -/
def alertFor : Exn → Nat
  | .alert d => d
  | _ => Iana.internalError

/-- `while True: try … except …`, connection.py:98-128. Fuel: every turn but the last consumes
at least five bytes of the input. -/
def receiveLoop (E : Env) : Nat → M Unit
  | 0 => M.throw .fuel
  | fuel + 1 => fun c =>
    match receiveStep E c with
    | (.ok false, c) => (.ok (), c)
    | (.ok true, c) => receiveLoop E fuel c
    | (.error e, c) =>
      match failWith E (alertFor e) c with
      | (.ok _, c) => (.error e, c)
      | (.error e', c) => (.error e', c)

/-- `self._cipher.should_rekey`, ciphers.py:145-147 and connection.py:21. -/
def shouldRekey (c : Conn) : Except Exn Bool :=
  match c.cipher with
  | none => .ok false
  | some k =>
    match k.wr.seq, k.info.usageLimit with
    | some n, some limit => if n < limit then .ok (n ≥ limit - rekeyThreshold)
                            else .error .stopIteration
    | _, _ => .ok false

/-- `rekey`, connection.py:146-150. -/
def rekey : M Unit := fun c =>
  if c.state.canSend = false then (.error .tlsError, c) else (.error .notImplemented, c)

/-- `receive_data`, connection.py:89-131. -/
def receiveData (E : Env) (data : Bytes) : M Unit := fun c =>
  if data.isEmpty then (.error .valueError, c)
  else if c.state.canReceive = false then (.error (.alert Iana.unexpectedMessage), c)
  else
    let c := { c with inputData := c.inputData ++ data }
    match receiveLoop E (c.inputData.length + 1) c with
    | (.error e, c) => (.error e, c)
    | (.ok _, c) =>
      match shouldRekey c with
      | .error e => (.error e, c)
      | .ok true => rekey c
      | .ok false => (.ok (), c)

/-- `send_data`, connection.py:133-134. -/
def sendData (E : Env) (data : Bytes) : M Unit := sendContent E (.applicationData data)

/-- `data_to_read`, connection.py:136-139. -/
def dataToRead : M Bytes := fun c => (.ok c.applicationData, { c with applicationData := [] })

/-- `data_to_send`, connection.py:141-144. -/
def dataToSend : M Bytes := fun c => (.ok c.outputData, { c with outputData := [] })

/-- `close_receiving_end`, connection.py:152-159. -/
def closeReceivingEnd : M Unit := fun c =>
  match c.state with
  | .closed _ s => (.ok (), { c with state := .closed false s })
  | .connected => (.ok (), { c with state := .closed false true })
  | .failed => (.ok (), { c with state := .closed false true })
  | _ => (.ok (), { c with state := .failed })

/-- connection.py:162-163. -/
def St.closing : St → St
  | .closed r s => .closed r s
  | .failed => .failed
  | _ => .closed true true

/-- `close_sending_end`, connection.py:161-166. -/
def closeSendingEnd (E : Env) : M Unit := do
  M.modify fun c => { c with state := c.state.closing }
  let c ← M.get
  if c.state.canSend then do
    sendContent E (.alert Iana.warning Iana.closeNotify)
    M.modify fun c => { c with state := match c.state with
      | .closed r _ => .closed r false
      | s => s }
  else pure ()

/-- The public methods, with their arguments. -/
inductive Op where
  | initiate
  | receive (data : Bytes)
  | send (data : Bytes)
  | read
  | drain
  | closeRecv
  | closeSend
  | rekey
  deriving DecidableEq, Repr

/-- Call one method: the bytes it returns (empty for `None`) or its exception. -/
def Op.run (E : Env) : Op → M Bytes
  | .initiate => do Siotls.initiate E; pure []
  | .receive d => do receiveData E d; pure []
  | .send d => do sendData E d; pure []
  | .read => dataToRead
  | .drain => dataToSend
  | .closeRecv => do closeReceivingEnd; pure []
  | .closeSend => do closeSendingEnd E; pure []
  | .rekey => do Siotls.rekey; pure []

/-- A program using the connection: it may catch every exception and go on. -/
def runOps (E : Env) : List Op → Conn → Conn
  | [], c => c
  | o :: os, c => runOps E os (o.run E c).2

end Siotls
