import Verif.Model.Env
import Verif.Model.Iana
/-!
# /repo/src/siotls/configuration.py
-/

namespace Siotls

/-- `TLSConfiguration`, configuration.py:22-70, with the default of every field. -/
structure Config where
  side : Side
  cipherSuites : List Nat := [0x1303, 0x1302, 0x1301]
  keyExchanges : List Nat := [0x1d, 0x17]
  signatureAlgorithms : List Nat :=
    [0x0807, 0x0808, 0x0403, 0x0503, 0x0603, 0x0809, 0x080a, 0x080b, 0x0804, 0x0805, 0x0806]
  trustStore : Option Bytes := none
  revocationList : Option (List Bytes) := none
  maxChainDepth : Nat := 5
  trustedPublicKeys : List Bytes := []
  privateKey : Option Bytes := none
  publicKey : Option Bytes := none
  certificateChain : Option (List Bytes) := none
  maxFragmentLength : Nat := 16384
  canEchoHeartbeat : Bool := true
  alpn : List Bytes := []
  serverHostnames : List PyStr := []
  logKeys : Bool := false
  deriving DecidableEq, Repr

namespace Config

/-- `require_peer_authentication`, configuration.py:72-74. -/
def requirePeerAuth (c : Config) : Bool := c.trustStore.isSome || !c.trustedPublicKeys.isEmpty

/-- `bool(self.certificate_chain)` -/
def hasChain (c : Config) : Bool := match c.certificateChain with
  | none => false
  | some l => !l.isEmpty

/-- `certificate_types`, configuration.py:76-83. -/
def certificateTypes (c : Config) : List Nat :=
  (if c.hasChain then [Iana.x509] else []) ++ (if c.publicKey.isSome then [Iana.rawPublicKey] else [])

/-- `peer_certificate_types`, configuration.py:85-92. -/
def peerCertificateTypes (c : Config) : List Nat :=
  (if c.trustStore.isSome then [Iana.x509] else []) ++
  (if c.trustedPublicKeys.isEmpty then [] else [Iana.rawPublicKey])

/-- `_check_mandatory_settings`, configuration.py:113-122. -/
def checkMandatory (c : Config) : Except Exn Unit :=
  if c.cipherSuites.isEmpty then .error .valueError
  else if c.keyExchanges.isEmpty then .error .valueError
  else if c.signatureAlgorithms.isEmpty then .error .valueError
  else .ok ()

/-- `_check_server_settings`, configuration.py:124-137. -/
def checkServer (c : Config) : Except Exn Unit :=
  if c.maxFragmentLength ≠ 16384 then .error .valueError
  else if c.privateKey.isNone then .error .valueError
  else if !(c.hasChain || c.publicKey.isSome) then .error .valueError
  else .ok ()

/-- `_check_client_settings`, configuration.py:139-148. -/
def checkClient (c : Config) : Except Exn Unit :=
  if c.serverHostnames.isEmpty then .ok () else .error .valueError

/-- `__post_init__`, configuration.py:106-111. -/
def check (c : Config) : Except Exn Unit := do
  checkMandatory c
  match c.side with
  | .server => checkServer c
  | .client => checkClient c

end Config

/-- `TLSNegotiatedConfiguration`, configuration.py:151-179. `alpn`: outer `none` is `...` (not
set). `keyExchanges` is the attribute that the client sets instead of `key_exchange`
(states/client/wait_server_hello.py:114). -/
structure NConfig where
  cipherSuite : Option Nat
  keyExchange : Option Nat
  signatureAlgorithm : Option Nat
  alpn : Option (Option Bytes)
  canSendHeartbeat : Option Bool
  canEchoHeartbeat : Option Bool
  maxFragmentLength : Option Nat
  clientCertificateType : Option Nat
  serverCertificateType : Option Nat
  peerWantOcspStapling : Option Bool
  peerCertificate : Option Bytes
  peerPublicKey : Option Bytes
  keyExchanges : Option Nat
  frozen : Bool
  deriving DecidableEq, Repr

/-- `TLSNegotiatedConfiguration.__init__`, configuration.py:166-179. -/
def NConfig.new : NConfig :=
  ⟨none, none, none, none, none, none, none, none, none, none, none, none, none, false⟩

end Siotls
