import Verif.Model.Connection
/-!
# Client states: /repo/src/siotls/states/client/ and the base class

`State.__setattr__` (states/__init__.py:22-25) mirrors attributes on the connection, so
`self.config`, `self.nconfig`, … in a state are those of the connection.
-/

namespace Siotls
open Serial

/-- `State.process`, states/__init__.py:35-53. -/
def baseProcess (content : Content) : M Unit :=
  match content with
  | .alert level desc =>
    if desc = Iana.closeNotify then moveTo (.closed true true)
    else if level = Iana.warning then
      if Iana.alertDescriptions.contains desc then pure () else M.throw .attributeError
    else if Iana.alertDescriptions.contains desc ∧ ¬ Iana.warningAlerts.contains desc then
      M.throw (.alert desc)
    else M.throw .typeError
  | .heartbeat .. => M.throw .notImplemented
  | _ => M.throw (.alert Iana.unexpectedMessage)

/-- `TLSKeyExchange._registry`, crypto/key_exchanges.py. -/
def kexRegistered (g : Nat) : Bool :=
  [0x1d, 0x1e, 0x17, 0x18, 0x19, 0x100, 0x101, 0x102, 0x103, 0x104].contains g

/-- `TLSKeyExchange[group].init()` -/
def kexInit (E : Env) (g : Nat) : M (Bytes × Bytes) := do
  let d ← nextDraw
  M.lift (E.kexInit g d)

/-- the extensions of client/start.py:36-69 but the key share. -/
def clientExtensions (E : Env) (c : Conn) (cookie : Option Bytes) : List Ext :=
  [.supportedVersionsReq [Iana.tls13],
   .signatureAlgorithms c.config.signatureAlgorithms,
   .supportedGroups c.config.keyExchanges,
   .heartbeat (if c.config.canEchoHeartbeat then Iana.peerAllowedToSend
               else Iana.peerNotAllowedToSend)] ++
  (match c.hostname with
   | some h => if h.isEmpty || E.isIp h then [] else [.serverNameReq (some h)]
   | none => []) ++
  (if c.config.alpn.isEmpty then [] else [.alpn c.config.alpn]) ++
  (if c.config.publicKey.isSome then [.clientCertTypeReq c.config.certificateTypes] else []) ++
  (if c.config.trustedPublicKeys.isEmpty then []
   else [.serverCertTypeReq c.config.peerCertificateTypes]) ++
  (if c.config.trustStore.isSome then [.ocspStatusReq [] []] else []) ++
  (match cookie with
   | some k => if k.isEmpty then [] else [.cookie k]
   | none => [])

/-- `ClientStart.initiate_connection`, client/start.py:35-77. -/
def clientInitiate (E : Env) (cookie : Option Bytes) : M Unit := do
  let c ← M.get
  match c.config.keyExchanges, c.clientUnique with
  | [], _ => M.throw .indexError
  | _, none => M.throw .typeError
  | g :: _, some random =>
    if kexRegistered g = false then M.throw .keyError else do
    let (priv, share) ← kexInit E g
    let hello ← M.lift (mkClientHello random c.config.cipherSuites
      (clientExtensions E c cookie ++ [.keyShareReq [(g, share)]]))
    sendContent E (.handshake hello)
    let h ← transcriptDigest E
    let c ← M.get
    moveTo (.clientWaitSH c.nconfig.isNone [(g, priv)] h)

/-- `cookie_ext and cookie_ext.cookie`, client/wait_server_hello.py:69-70. -/
def cookieOf (exts : List Ext) : Except Exn (Option Bytes) :=
  match findExt exts Iana.extCookie with
  | none => .ok none
  | some (.cookie k) => .ok (some k)
  | some _ => .error .attributeError

/-- `_process_hello_retry_request`, client/wait_server_hello.py:49-71. -/
def clientProcessHrr (E : Env) (chHash : Bytes) (exts : List Ext) : M Unit := do
  let c ← M.get
  match findExt exts Iana.extKeyShare with
  | none => M.throw (.alert Iana.missingExtension)
  | some (.keyShareRetry g) =>
    if c.config.keyExchanges.contains g = false then M.throw (.alert Iana.illegalParameter) else do
    let nc ← getNc
    setConfig fun k => { k with cipherSuites := nc.cipherSuite.toList, keyExchanges := [g] }
    transcriptHrr c.config.side chHash
    let cookie ← M.lift (cookieOf exts)
    moveTo (.clientStart cookie)
    clientInitiate E cookie
  | some _ => M.throw .attributeError

/-- `_negociate_key_share`, client/wait_server_hello.py:98-115. -/
def clientNegKeyShare (E : Env) (exts : List Ext) (keyShares : List (Nat × Bytes)) : M Bytes := do
  match findExt exts Iana.extKeyShare with
  | none => M.throw (.alert Iana.missingExtension)
  | some (.keyShareResp g share) =>
    match keyShares.find? (·.1 = g) with
    | none => M.throw (.alert Iana.illegalParameter)
    | some (_, priv) =>
      if kexRegistered g = false then M.throw .keyError else do
      let shared ← M.lift (mapValueError (.alert Iana.illegalParameter) (E.kexResume g priv share))
      setNc fun n => { n with keyExchanges := some g }
      return shared
  | some _ => M.throw .attributeError

/-- `_negociate_supported_versions`, client/wait_server_hello.py:90-96. -/
def clientNegVersion (exts : List Ext) : M Unit :=
  match findExt exts Iana.extSupportedVersions with
  | none => M.throw (.alert Iana.protocolVersion)
  | some (.supportedVersionsResp v) =>
    if v ≠ Iana.tls13 then M.throw (.alert Iana.protocolVersion) else pure ()
  | some _ => M.throw .attributeError

/-- `_process_server_hello`, client/wait_server_hello.py:73-78. -/
def clientProcessServerHello (E : Env) (keyShares : List (Nat × Bytes)) (random : Bytes)
    (exts : List Ext) : M Unit := do
  M.modify fun c => { c with serverUnique := some random }
  clientNegVersion exts
  let shared ← clientNegKeyShare E exts keyShares
  cipherSkipEarly E
  let h ← transcriptDigest E
  cipherDeriveHandshake E shared h
  moveTo .clientWaitEE

/-- client/wait_server_hello.py:31-42: the suite check and the set-up at the first server
message. -/
def clientSetup (E : Env) (isFirst : Bool) (suite : Nat) : M Unit := do
  let c ← M.get
  if c.config.cipherSuites.contains suite = false then M.throw (.alert Iana.illegalParameter)
  else if isFirst then do
    M.modify fun c => { c with nconfig := some { NConfig.new with cipherSuite := some suite } }
    match suiteInfo suite with
    | none => M.throw .keyError
    | some info =>
      M.modify fun c => { c with cipher := some (CipherSt.new info .client) }
      transcriptPostInit info.digest
      sendContent E .changeCipherSpec
  else pure ()

/-- `ClientWaitServerHello.process`, client/wait_server_hello.py:23-47. -/
def clientWaitSH (E : Env) (isFirst : Bool) (keyShares : List (Nat × Bytes)) (chHash : Bytes)
    (content : Content) : M Unit :=
  match content with
  | .handshake (.serverHello random _ suite exts) => do
    clientSetup E isFirst suite
    clientProcessServerHello E keyShares random exts
  | .handshake (.helloRetryRequest _ _ suite exts) => do
    clientSetup E isFirst suite
    clientProcessHrr E chHash exts
  | .handshake _ => if isFirst then baseProcess content else M.throw .attributeError
  | _ => baseProcess content

/-- `ClientWaitEncryptedExtensions`, client/wait_encrypted_extensions.py:20-100, the
negotiation functions. -/
def clientNegMfl (exts : List Ext) : M Unit := do
  let c ← M.get
  match findExt exts Iana.extMaxFragmentLength with
  | none => setNc fun n => { n with maxFragmentLength := some 16384 }
  | some (.maxFragmentLength code) =>
    if Iana.mflOctets code ≠ c.config.maxFragmentLength then M.throw (.alert Iana.illegalParameter)
    else setNc fun n => { n with maxFragmentLength := some (Iana.mflOctets code) }
  | some _ => M.throw .attributeError

def clientNegAlpn (exts : List Ext) : M Unit := do
  let c ← M.get
  match findExt exts Iana.extAlpn with
  | none => setNc fun n => { n with alpn := some none }
  | some (.alpn [p]) =>
    if c.config.alpn.contains p = false then M.throw (.alert Iana.illegalParameter)
    else setNc fun n => { n with alpn := some (some p) }
  | some (.alpn _) => M.throw (.alert Iana.illegalParameter)
  | some _ => M.throw .attributeError

def clientNegHeartbeat (exts : List Ext) : M Unit := do
  let c ← M.get
  match findExt exts Iana.extHeartbeat with
  | none => do
    setNc fun n => { n with canSendHeartbeat := some false }
    setNc fun n => { n with canEchoHeartbeat := some false }
  | some (.heartbeat m) => do
    setNc fun n => { n with canSendHeartbeat := some (m == Iana.peerAllowedToSend) }
    setNc fun n => { n with canEchoHeartbeat := some c.config.canEchoHeartbeat }
  | some _ => M.throw .attributeError

def clientNegCct (exts : List Ext) : M Unit := do
  let c ← M.get
  match findExt exts Iana.extClientCertificateType with
  | none => setNc fun n => { n with clientCertificateType := some Iana.x509 }
  | some (.clientCertTypeResp t) =>
    if c.config.certificateTypes.contains t = false then M.throw (.alert Iana.illegalParameter)
    else setNc fun n => { n with clientCertificateType := some t }
  | some _ => M.throw .attributeError

def clientNegSct (exts : List Ext) : M Unit := do
  let c ← M.get
  match findExt exts Iana.extServerCertificateType with
  | none => setNc fun n => { n with serverCertificateType := some Iana.x509 }
  | some (.serverCertTypeResp t) =>
    if c.config.peerCertificateTypes.contains t = false then
      M.throw (.alert Iana.illegalParameter)
    else setNc fun n => { n with serverCertificateType := some t }
  | some _ => M.throw .attributeError

/-- `ClientWaitEncryptedExtensions.process`, client/wait_encrypted_extensions.py:20-38. -/
def clientWaitEE (content : Content) : M Unit :=
  match content with
  | .handshake (.encryptedExtensions exts) => do
    clientNegMfl exts
    clientNegAlpn exts
    clientNegHeartbeat exts
    clientNegCct exts
    clientNegSct exts
    moveTo .clientWaitCertCr
  | _ => baseProcess content

/-- `entry.certificate_type` -/
def CertEntry.ctype : CertEntry → Nat
  | .x509 .. => Iana.x509
  | .rawKey .. => Iana.rawPublicKey

/-- `entry.certificate` (AttributeError on a raw key) -/
def CertEntry.cert : CertEntry → Except Exn Bytes
  | .x509 c _ => .ok c
  | .rawKey .. => .error .attributeError

/-- `entry.extensions` -/
def CertEntry.exts : CertEntry → List Ext
  | .x509 _ e => e
  | .rawKey _ e => e

/-- `[e.certificate for e in entries]` -/
def certsOf : List CertEntry → Except Exn (List Bytes)
  | [] => .ok []
  | e :: es => do
    let c ← e.cert
    let cs ← certsOf es
    return c :: cs

/-- the name the leaf certificate is checked against, client/wait_certificate.py:75-88. -/
def subjectOf (E : Env) (hostname : Option PyStr) : Subject :=
  match hostname with
  | none => .anonymous
  | some h => if h.isEmpty then .anonymous else if E.isIp h then .ip h else .dns h

/-- `_verify_chain`, client/wait_certificate.py:68-88. -/
def clientVerifyChain (E : Env) (entries : List CertEntry) : M Unit := do
  let c ← M.get
  let certs ← M.lift (certsOf entries)
  match certs, c.config.trustStore with
  | leaf :: others, some store => do
    let d ← nextDraw
    match E.verifyChain store c.config.maxChainDepth (subjectOf E c.hostname) leaf others d with
    | .ok _ => pure ()
    | .error .verificationError => M.throw (.alert Iana.badCertificate)
    | .error e => M.throw e
  | [], _ => M.throw .valueError
  | _, none => M.throw .typeError

/-- `_verify_revocation`, client/wait_certificate.py:90-97: the lookup by serial number is
given a certificate, TypeError. -/
def clientVerifyRevocation (entries : List CertEntry) : M Unit := do
  let c ← M.get
  match c.config.revocationList with
  | none => pure ()
  | some crl => if crl.isEmpty ∨ entries.isEmpty then pure () else M.throw .typeError

/-- one turn of `_verify_statuses`, client/wait_certificate.py:99-121. `service.cache` and
`service.uncache` are assumed not to raise (modelled in `Model/Ocsp.lean`). -/
def clientVerifyStatus (E : Env) (entry : CertEntry) (issuer : CertEntry) : M Unit := do
  let c ← M.get
  match findExt entry.exts Iana.extStatusRequest with
  | some (.ocspStatus res) => do
    let cert ← M.lift entry.cert
    let iss ← M.lift issuer.cert
    let d ← nextDraw
    M.lift (mapValueError (.alert Iana.badCertificate)
      (E.ocspValidate iss (E.ocspRequest cert iss) res d))
  | some _ => M.throw .attributeError
  | none =>
    if c.hasOcsp then do
      let cert ← M.lift entry.cert
      let url ← M.lift (E.ocspUrl cert)
      match url with
      | none => pure ()
      | some [] => pure ()
      | some url => do
        let iss ← M.lift issuer.cert
        let d ← nextDraw
        let res ← M.lift (E.ocspFetch (some url) (E.ocspRequest cert iss) d)
        let d ← nextDraw
        M.lift (mapValueError (.alert Iana.badCertificate)
          (E.ocspValidate iss (E.ocspRequest cert iss) res d))
    else pure ()

/-- `for entry, issuer in pairwise(certificate_entries)`. -/
def clientVerifyStatuses (E : Env) : List CertEntry → M Unit
  | entry :: issuer :: rest => do
    clientVerifyStatus E entry issuer
    clientVerifyStatuses E (issuer :: rest)
  | _ => pure ()

/-- `_process_x509`, client/wait_certificate.py:61-66. -/
def clientProcessX509 (E : Env) (entries : List CertEntry) : M Unit := do
  let c ← M.get
  match entries with
  | [] => M.throw .indexError
  | first :: _ => do
    let cert ← M.lift first.cert
    setNc fun n => { n with peerCertificate := some cert }
    if c.config.requirePeerAuth then do
      clientVerifyChain E entries
      clientVerifyRevocation entries
      clientVerifyStatuses E entries
    else pure ()

/-- `_process_raw_public_key`, client/wait_certificate.py:123-130: `trusted_public_keys` is a
list and is called, TypeError. -/
def clientProcessRaw (entries : List CertEntry) : M Unit := do
  let c ← M.get
  match entries with
  | [] => M.throw .indexError
  | .x509 .. :: _ => M.throw .attributeError
  | .rawKey k _ :: _ => do
    setNc fun n => { n with peerPublicKey := some k }
    if c.config.requirePeerAuth then M.throw .typeError else pure ()

/-- the `match` of client/wait_certificate.py:40-46. -/
def clientProcessEntries (E : Env) (type : Option Nat) (entries : List CertEntry) : M Unit :=
  match type with
  | some 0 => clientProcessX509 E entries
  | some 2 => clientProcessRaw entries
  | _ => M.throw .notImplemented

/-- `ClientWaitCertificate.process`, client/wait_certificate.py:29-49, with
`_check_certificate_types`, 51-59. -/
def clientWaitCert (E : Env) (mustAuth : Bool) (content : Content) : M Unit :=
  match content with
  | .handshake (.certificate _ entries) => do
    let c ← M.get
    if c.config.requirePeerAuth ∧ entries.isEmpty then M.throw (.alert Iana.badCertificate) else do
    let nc ← getNc
    if entries.any (fun e => some e.ctype ≠ nc.serverCertificateType) then
      M.throw (.alert Iana.unsupportedCertificate) else do
    clientProcessEntries E nc.serverCertificateType entries
    let h ← transcriptDigest E
    moveTo (.clientWaitCV mustAuth h)
  | _ => baseProcess content

/-- `ClientWaitCertCr.process`, client/wait_cert_cr.py:12-28. -/
def clientWaitCertCr (E : Env) (content : Content) : M Unit :=
  match content with
  | .handshake (.certificate ..) => do
    moveTo (.clientWaitCert false)
    clientWaitCert E false content
  | .handshake (.certificateRequest ..) => moveTo (.clientWaitCert true)
  | _ => baseProcess content

/-- `TLSSignatureSuite._registry`, crypto/signatures.py:63-163. -/
def sigRegistered (s : Nat) : Bool :=
  [0x0401, 0x0501, 0x0601, 0x0804, 0x0805, 0x0806, 0x0809, 0x080a, 0x080b, 0x0403, 0x0503, 0x0603,
   0x0807, 0x0808].contains s

/-- `CERTIFICATE_VERIFY_SERVER`, client/wait_certificate_verify.py:8-12 and
server/wait_client_hello.py:41-45: 64 spaces, "TLS 1.3, server CertificateVerify", a zero. -/
def certificateVerifyServer : Bytes :=
  List.replicate 64 0x20 ++
  [0x54, 0x4c, 0x53, 0x20, 0x31, 0x2e, 0x33, 0x2c, 0x20, 0x73, 0x65, 0x72, 0x76, 0x65, 0x72, 0x20,
   0x43, 0x65, 0x72, 0x74, 0x69, 0x66, 0x69, 0x63, 0x61, 0x74, 0x65, 0x56, 0x65, 0x72, 0x69, 0x66,
   0x79] ++ [0]

/-- the key of client/wait_certificate_verify.py:38-41. -/
def peerKey (E : Env) (nc : NConfig) : Except Exn Bytes :=
  match nc.peerPublicKey with
  | some k => .ok k
  | none =>
    match nc.peerCertificate with
    | some cert => E.certPub cert
    | none => .error .attributeError

/-- `ClientWaitCertificateVerify.process`, client/wait_certificate_verify.py:25-50. -/
def clientWaitCV (E : Env) (mustAuth : Bool) (certHash : Bytes) (content : Content) : M Unit :=
  match content with
  | .handshake (.certificateVerify alg sig) => do
    let c ← M.get
    if c.config.signatureAlgorithms.contains alg = false then
      M.throw (.alert Iana.illegalParameter) else do
    setNc fun n => { n with signatureAlgorithm := some alg }
    let nc ← getNc
    let pub ← M.lift (peerKey E nc)
    if sigRegistered alg = false then M.throw .keyError else do
    M.lift (E.verify alg pub sig (certificateVerifyServer ++ certHash))
    let h ← transcriptDigest E
    moveTo (.clientWaitFin mustAuth h)
  | _ => baseProcess content

/-- `ClientWaitFinished.process`, client/wait_finished.py:18-49. -/
def clientWaitFin (E : Env) (mustAuth : Bool) (cvHash : Bytes) (content : Content) : M Unit :=
  match content with
  | .handshake (.finished verifyData) => do
    let k ← getCipher
    M.lift (mapValueError (.alert Iana.decryptError) (verifyFinish E k cvHash verifyData))
    let serverFin ← transcriptDigest E
    if mustAuth then M.throw .notImplemented else do
    let mine ← M.lift (signFinish E k serverFin)
    sendContent E (.handshake (.finished mine))
    let clientFin ← transcriptDigest E
    let _ ← cipherDeriveMaster E serverFin clientFin
    moveTo .connected
  | _ => baseProcess content

end Siotls
