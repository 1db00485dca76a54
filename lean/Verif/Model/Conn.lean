import Verif.Model.Contents
import Verif.Model.Ciphers
import Verif.Model.Transcript
import Verif.Model.Config
/-!
# The connection object and the monad of its methods

`TLSConnection.__init__` (/repo/src/siotls/connection.py:28-65), the state objects
(/repo/src/siotls/states/), and helpers shared by the other files of the model.
-/

namespace Siotls
open Serial

/-- The instances of `State` (/repo/src/siotls/states/): class and own attributes. -/
inductive St where
  /-- client/start.py:30-33 (`_key_shares` is rewritten by every `initiate_connection`) -/
  | clientStart (cookie : Option Bytes)
  /-- client/wait_server_hello.py:17-21 -/
  | clientWaitSH (isFirst : Bool) (keyShares : List (Nat × Bytes)) (chHash : Bytes)
  | clientWaitEE
  | clientWaitCertCr
  | clientWaitCert (mustAuth : Bool)
  /-- client/wait_certificate_verify.py:20-23 -/
  | clientWaitCV (mustAuth : Bool) (certHash : Bytes)
  /-- client/wait_finished.py:13-16 -/
  | clientWaitFin (mustAuth : Bool) (cvHash : Bytes)
  | serverStart
  /-- server/wait_client_hello.py:56-58 -/
  | serverWaitCH (isFirst : Bool)
  /-- server/wait_finished.py:12-14 -/
  | serverWaitFin (finHash : Bytes)
  | connected
  /-- closed.py: the two attributes that `close_*_end` may set to False -/
  | closed (canReceive canSend : Bool)
  | failed
  deriving DecidableEq, Repr

/-- `state.can_receive` -/
def St.canReceive : St → Bool
  | .closed r _ => r
  | _ => true

/-- `state.can_send` -/
def St.canSend : St → Bool
  | .closed _ s => s
  | .failed => false
  | _ => true

/-- `state.can_send_application_data` (closed.py:10-12, connected.py, wait_finished.py:10) -/
def St.canSendApp : St → Bool
  | .closed _ s => s
  | .connected => true
  | .serverWaitFin _ => true
  | _ => false

/-- `is_post_handshake`, connection.py:177-178. -/
def St.isPostHandshake : St → Bool
  | .connected => true
  | .closed .. => true
  | .failed => true
  | _ => false

/-- `is_connected`, connection.py:180-185. -/
def St.isConnected : St → Bool
  | .closed r _ => r
  | .connected => true
  | _ => false

/-- Ghost events: what an execution did, newest first in `Conn.tr`. Nothing in the model reads
them. -/
inductive Ev where
  /-- `_read_next_content` returned this content type and these bytes -/
  | got (ctype : Nat) (data : Bytes)
  /-- a content object handed to `_state.process` -/
  | recv (c : Content)
  /-- `_send_content` appended this content's records to the output -/
  | sent (c : Content)
  /-- a record appended to the output -/
  | record (outer : Nat) (body : Bytes)
  /-- a call of the AEAD's `encrypt` -/
  | sealed (suite : Nat) (key nonce aad pt : Bytes)
  /-- a successful call of the AEAD's `decrypt` -/
  | opened (suite : Nat) (key nonce aad pt : Bytes)
  /-- new write key -/
  | wkey (suite : Nat) (key : Bytes)
  /-- new read key -/
  | rkey (suite : Nat) (key : Bytes)
  /-- a handshake message fed to the transcript -/
  | hashed (side : Side) (type : Nat) (data : Bytes)
  /-- application data appended to the buffer of `data_to_read` -/
  | delivered (data : Bytes)
  /-- a line given to the key logger -/
  | logged (line : PyStr)
  deriving DecidableEq, Repr

/-- `TLSConnection`, connection.py:28-65. `cipher = none` is `cipher_plaintext`
(connection.py:18-22). `draws` counts calls of external random or time-dependent functions. -/
structure Conn where
  config : Config
  hostname : Option PyStr
  hasOcsp : Bool
  nconfig : Option NConfig
  cipher : Option CipherSt
  signature : Option (Nat × Bytes)
  transcript : Transcript
  inputData : Bytes
  inputHandshake : Bytes
  outputData : Bytes
  applicationData : Bytes
  clientUnique : Option Bytes
  serverUnique : Option Bytes
  state : St
  draws : Nat
  tr : List Ev
  deriving DecidableEq, Repr

/-- digests of the configured suites; KeyError on an unregistered suite (connection.py:36-39). -/
def suiteDigests : List Nat → Except Exn (List HashAlg)
  | [] => .ok []
  | s :: ss =>
    match suiteInfo s with
    | none => .error .keyError
    | some i => do
      let rest ← suiteDigests ss
      return i.digest :: rest

/-- `algs` is an iteration order of the set of the digests of the configured suites. -/
def IsSetOrder (algs ds : List HashAlg) : Prop := algs.Nodup ∧ ∀ a, a ∈ algs ↔ a ∈ ds

/-- `TLSConnection.__init__`, connection.py:29-65. `algs`: iteration order of the set of
digests; `random`: `secrets.token_bytes(32)`. -/
def Conn.new (config : Config) (hostname : Option PyStr) (hasOcsp : Bool) (algs : List HashAlg)
    (random : Bytes) : Except Exn Conn := do
  let _ ← suiteDigests config.cipherSuites
  let transcript ← Transcript.new algs
  match config.side with
  | .client =>
    return { config, hostname, hasOcsp, nconfig := none, cipher := none, signature := none,
             transcript, inputData := [], inputHandshake := [], outputData := [],
             applicationData := [], clientUnique := some random, serverUnique := none,
             state := .clientStart none, draws := 0, tr := [] }
  | .server =>
    if hostname.any (!·.isEmpty) then .error .valueError else
    return { config, hostname := none, hasOcsp, nconfig := none, cipher := none,
             signature := none, transcript, inputData := [], inputHandshake := [],
             outputData := [], applicationData := [], clientUnique := none,
             serverUnique := some random, state := .serverStart, draws := 0, tr := [] }

/-- A method: the connection is mutated whether or not an exception is raised. -/
def M (α : Type) := Conn → Except Exn α × Conn

namespace M

def pure {α} (a : α) : M α := fun c => (.ok a, c)

def bind {α β} (m : M α) (f : α → M β) : M β := fun c =>
  match m c with
  | (.ok a, c') => f a c'
  | (.error e, c') => (.error e, c')

instance : Monad M where
  pure := M.pure
  bind := M.bind

/-- `raise` -/
def throw {α} (e : Exn) : M α := fun c => (.error e, c)

/-- a pure computation that may raise -/
def lift {α} (r : Except Exn α) : M α := fun c => (r, c)

def get : M Conn := fun c => (.ok c, c)

/-- `if b: m` -/
def guarded (b : Bool) (m : M Unit) : M Unit := if b then m else M.pure ()

def modify (f : Conn → Conn) : M Unit := fun c => (.ok (), f c)

end M

/-- `_move_to_state`, connection.py:194-195. -/
def moveTo (s : St) : M Unit := M.modify fun c => { c with state := s }

def ghost (e : Ev) : M Unit := M.modify fun c => { c with tr := e :: c.tr }

/-- index of a random or time-dependent external call -/
def nextDraw : M Nat := fun c => (.ok c.draws, { c with draws := c.draws + 1 })

/-- `self.nconfig` used as an object: AttributeError on None. -/
def getNc : M NConfig := fun c =>
  match c.nconfig with
  | some n => (.ok n, c)
  | none => (.error .attributeError, c)

/-- `self.nconfig.attr = value`, configuration.py:184-188. -/
def setNc (f : NConfig → NConfig) : M Unit := fun c =>
  match c.nconfig with
  | some n => if n.frozen then (.error .typeError, c) else (.ok (), { c with nconfig := some (f n) })
  | none => (.error .attributeError, c)

/-- `self._cipher.method(...)`: the plaintext namespace has no methods. -/
def getCipher : M CipherSt := fun c =>
  match c.cipher with
  | some k => (.ok k, c)
  | none => (.error .attributeError, c)

/-- `self._transcript.update(data, side, type)`. -/
def transcriptUpdate (data : Bytes) (side : Side) (type : Nat) : M Unit := fun c =>
  match c.transcript.update data side type with
  | (.ok b, t) =>
    (.ok (), { c with transcript := t, tr := if b then .hashed side type data :: c.tr else c.tr })
  | (.error e, t) => (.error e, { c with transcript := t })

/-- `self._transcript.digest()`. -/
def transcriptDigest (E : Env) : M Bytes := fun c => (c.transcript.digest E, c)

/-- `self._transcript.post_init(digestmod)`. -/
def transcriptPostInit (a : HashAlg) : M Unit := fun c =>
  match c.transcript.postInit a with
  | .ok t => (.ok (), { c with transcript := t })
  | .error e => (.error e, c)

/-- `self._transcript.do_hrr_dance(side, hash)`. -/
def transcriptHrr (side : Side) (h : Bytes) : M Unit := fun c =>
  match c.transcript.hrrDance side h with
  | .ok t => (.ok (), { c with transcript := t })
  | .error e => (.error e, c)

/-- `dataclasses.replace(self.config, …)` re-runs `__post_init__`. -/
def setConfig (f : Config → Config) : M Unit := fun c =>
  match (f c.config).check with
  | .ok _ => (.ok (), { c with config := f c.config })
  | .error e => (.error e, c)

/-- `self._cipher.skip_early_secrets()`. -/
def cipherSkipEarly (E : Env) : M Unit := fun c =>
  match c.cipher with
  | none => (.error .attributeError, c)
  | some k =>
    match skipEarly E k with
    | .ok k' => (.ok (), { c with cipher := some k' })
    | .error e => (.error e, c)

/-- `_client_unique_hex` of the cipher, ciphers.py:124. Simplified: computed when the keys are derived
and not when the cipher is made; neither the configuration's `log_keys` nor the client's random change
once the cipher is there (states/server/wait_client_hello.py:67-69, 94-99,
states/client/wait_server_hello.py:36-40). -/
def Conn.logId (c : Conn) : PyStr :=
  if c.config.logKeys then hexBytes (c.clientUnique.getD []) else []

/-- ghost events of an (attempted) key installation: the attributes that changed, then the lines
logged. -/
def keyEvents (log : List PyStr) (old new : CipherSt) : List Ev :=
  (log.map Ev.logged).reverse ++
  (match new.wr.key with
   | some k => if new.wr = old.wr then [] else [.wkey new.info.id k]
   | none => []) ++
  (match new.rd.key with
   | some k => if new.rd = old.rd then [] else [.rkey new.info.id k]
   | none => [])

theorem mem_keyEvents {log : List PyStr} {old new : CipherSt} {e : Ev} (h : e ∈ keyEvents log old new) :
    (∃ l ∈ log, e = .logged l) ∨ (∃ s x, e = .wkey s x) ∨ ∃ s x, e = .rkey s x := by
  unfold keyEvents at h
  rw [List.append_assoc] at h
  rcases List.mem_append.mp h with h | h
  · simp only [List.mem_reverse, List.mem_map] at h
    obtain ⟨l, hl, rfl⟩ := h
    exact .inl ⟨l, hl, rfl⟩
  rcases List.mem_append.mp h with h | h
  · split at h
    · split at h
      · cases h
      · exact .inr (.inl ⟨_, _, List.mem_singleton.mp h⟩)
    · cases h
  · split at h
    · split at h
      · cases h
      · exact .inr (.inr ⟨_, _, List.mem_singleton.mp h⟩)
    · cases h

/-- `self._cipher.derive_handshake_secrets(shared, hash)`. -/
def cipherDeriveHandshake (E : Env) (shared hash : Bytes) : M Unit := fun c =>
  match c.cipher with
  | none => (.error .attributeError, c)
  | some k =>
    let (r, k') := deriveHandshake E k shared hash
    (r, { c with cipher := some k', tr := keyEvents (handshakeLog E c.logId k shared hash) k k' ++ c.tr })

/-- `self._cipher.derive_master_secrets(server_hash, client_hash)`. -/
def cipherDeriveMaster (E : Env) (serverFin clientFin : Bytes) : M (Bytes × Bytes) := fun c =>
  match c.cipher with
  | none => (.error .attributeError, c)
  | some k =>
    let (r, k') := deriveMaster E k serverFin clientFin
    (r, { c with cipher := some k', tr := keyEvents (masterLog E c.logId k serverFin clientFin) k k' ++ c.tr })

end Siotls
