import Verif.Model.Client
/-!
# Server states: /repo/src/siotls/states/server/
-/

namespace Siotls
open Serial

/-- `TLSSignatureSuite.for_public_key_oid`, crypto/signatures.py:32-34 and the `pubkey_oid` of
the classes (63-163). -/
def suitesForOid : PubOid → Except Exn (List Nat)
  | .rsaes => .ok [0x0401, 0x0501, 0x0601, 0x0804, 0x0805, 0x0806]
  | .rsassaPss => .ok [0x0809, 0x080a, 0x080b]
  | .ec => .ok [0x0403, 0x0503, 0x0603]
  | .ed25519 => .ok [0x0807]
  | .ed448 => .ok [0x0808]
  | .other => .error .keyError

/-- `_find_common_cipher_suite`, server/wait_client_hello.py:102-107. -/
def findCommonSuite (mine theirs : List Nat) : Except Exn Nat :=
  match mine.find? theirs.contains with
  | some s => .ok s
  | none => .error (.alert Iana.handshakeFailure)

/-- `_setup`, server/wait_client_hello.py:94-100. -/
def serverSetup (random : Bytes) (suites : List Nat) : M Unit := do
  M.modify fun c => { c with nconfig := some NConfig.new }
  let c ← M.get
  let suite ← M.lift (findCommonSuite c.config.cipherSuites suites)
  setNc fun n => { n with cipherSuite := some suite }
  M.modify fun c => { c with clientUnique := some random }
  match suiteInfo suite with
  | none => M.throw .keyError
  | some info =>
    M.modify fun c => { c with cipher := some (CipherSt.new info .server) }
    transcriptPostInit info.digest

/-- `_negociate_supported_versions`, server/wait_client_hello.py:235-242. -/
def serverNegVersions (exts : List Ext) : M (List Ext) :=
  match findExt exts Iana.extSupportedVersions with
  | none => M.throw (.alert Iana.protocolVersion)
  | some (.supportedVersionsReq l) =>
    if l.contains Iana.tls13 = false then M.throw (.alert Iana.protocolVersion)
    else return [.supportedVersionsResp Iana.tls13]
  | some _ => M.throw .attributeError

/-- `_negociate_supported_groups`, server/wait_client_hello.py:244-252. -/
def serverNegGroups (exts : List Ext) : M Unit := do
  let c ← M.get
  match findExt exts Iana.extSupportedGroups with
  | none => M.throw (.alert Iana.missingExtension)
  | some (.supportedGroups l) =>
    match c.config.keyExchanges.find? l.contains with
    | some g => setNc fun n => { n with keyExchange := some g }
    | none => M.throw (.alert Iana.handshakeFailure)
  | some _ => M.throw .attributeError

/-- `_negociate_signature_algorithms`, server/wait_client_hello.py:278-288. -/
def serverNegSignature (E : Env) (exts : List Ext) : M Unit := do
  let c ← M.get
  match findExt exts Iana.extSignatureAlgorithms with
  | none => M.throw (.alert Iana.missingExtension)
  | some (.signatureAlgorithms l) =>
    match c.config.certificateChain with
    | none => M.throw .typeError
    | some [] => M.throw .indexError
    | some (leaf :: _) => do
      let suites ← M.lift (suitesForOid (E.certOid leaf))
      match c.config.signatureAlgorithms.find? (fun s => suites.contains s && l.contains s) with
      | some s => M.modify fun c => { c with signature := some (s, c.config.privateKey.getD []) }
      | none => M.throw (.alert Iana.handshakeFailure)
  | some _ => M.throw .attributeError

/-- `key_share_ext.client_shares`, empty without the extension. -/
def clientShares (exts : List Ext) : Except Exn (List (Nat × Bytes)) :=
  match findExt exts Iana.extKeyShare with
  | none => .ok []
  | some (.keyShareReq l) => .ok l
  | some _ => .error .attributeError

/-- `_negociate_key_share`, server/wait_client_hello.py:290-307: the response and the shared
key. `key_exchange in client_shares` with a `key_exchange` of None is False. -/
def serverNegKeyShare (E : Env) (exts : List Ext) : M (Ext × Option Bytes) := do
  let nc ← getNc
  let shares ← M.lift (clientShares exts)
  match nc.keyExchange with
  | none => M.throw .typeError
  | some g =>
    match shares.find? (·.1 = g) with
    | none => return (.keyShareRetry g, none)
    | some (_, theirs) =>
      if kexRegistered g = false then M.throw .keyError else do
      let d ← nextDraw
      let (priv, mine) ← M.lift (mapValueError (.alert Iana.handshakeFailure) (E.kexInit g d))
      let shared ← M.lift (mapValueError (.alert Iana.handshakeFailure) (E.kexResume g priv theirs))
      return (.keyShareResp g mine, if shared.isEmpty then none else some shared)

/-- `_negociate_client_certificate_type`, server/wait_client_hello.py:254-265. -/
def serverNegCct (exts : List Ext) : M (List Ext) := do
  let c ← M.get
  if c.config.requirePeerAuth = false then return [] else do
  let pick (types : List Nat) (resp : Nat → List Ext) : M (List Ext) :=
    match c.config.peerCertificateTypes.find? types.contains with
    | none => M.throw (.alert Iana.unsupportedCertificate)
    | some t => do
      setNc fun n => { n with clientCertificateType := some t }
      return resp t
  match findExt exts Iana.extClientCertificateType with
  | none => pick [Iana.x509] fun _ => []
  | some (.clientCertTypeReq l) => pick l fun t => [.clientCertTypeResp t]
  | some _ => M.throw .attributeError

/-- `_negociate_server_certificate_type`, server/wait_client_hello.py:267-276. -/
def serverNegSct (exts : List Ext) : M (List Ext) := do
  let c ← M.get
  let pick (types : List Nat) (resp : Nat → List Ext) : M (List Ext) :=
    match c.config.certificateTypes.find? types.contains with
    | none => M.throw (.alert Iana.unsupportedCertificate)
    | some t => do
      setNc fun n => { n with serverCertificateType := some t }
      return resp t
  match findExt exts Iana.extServerCertificateType with
  | none => pick [Iana.x509] fun _ => []
  | some (.serverCertTypeReq l) => pick l fun t => [.serverCertTypeResp t]
  | some _ => M.throw .attributeError

/-- `_negociate_max_fragment_length`, server/wait_client_hello.py:309-315. -/
def serverNegMfl (exts : List Ext) : M (List Ext) := do
  let c ← M.get
  match findExt exts Iana.extMaxFragmentLength with
  | some (.maxFragmentLength code) => do
    setNc fun n => { n with maxFragmentLength := some (Iana.mflOctets code) }
    return [.maxFragmentLength code]
  | none => do
    setNc fun n => { n with maxFragmentLength := some c.config.maxFragmentLength }
    return []
  | some _ => M.throw .attributeError

/-- `_negociate_application_layer_protocol_negotiation`, server/wait_client_hello.py:317-326. -/
def serverNegAlpn (exts : List Ext) : M (List Ext) := do
  let c ← M.get
  match findExt exts Iana.extAlpn with
  | none => do
    setNc fun n => { n with alpn := some none }
    return []
  | some (.alpn l) =>
    if c.config.alpn.isEmpty then do
      setNc fun n => { n with alpn := some none }
      return []
    else
      match c.config.alpn.find? l.contains with
      | some p => do
        setNc fun n => { n with alpn := some (some p) }
        return [.alpn [p]]
      | none => M.throw (.alert Iana.noApplicationProtocol)
  | some _ => M.throw .attributeError

/-- `_negociate_heartbeat`, server/wait_client_hello.py:329-344. -/
def serverNegHeartbeat (exts : List Ext) : M (List Ext) := do
  let c ← M.get
  match findExt exts Iana.extHeartbeat with
  | none => do
    setNc fun n => { n with canSendHeartbeat := some false }
    setNc fun n => { n with canEchoHeartbeat := some false }
    return []
  | some (.heartbeat m) => do
    setNc fun n => { n with canSendHeartbeat := some (m == Iana.peerAllowedToSend) }
    setNc fun n => { n with canEchoHeartbeat := some c.config.canEchoHeartbeat }
    return [.heartbeat (if c.config.canEchoHeartbeat then Iana.peerAllowedToSend
                        else Iana.peerNotAllowedToSend)]
  | some _ => M.throw .attributeError

/-- `_negociate_status_request`, server/wait_client_hello.py:346-353. -/
def serverNegStatus (exts : List Ext) : M Unit :=
  match findExt exts Iana.extStatusRequest with
  | none => setNc fun n => { n with peerWantOcspStapling := some false }
  | some _ => setNc fun n => { n with peerWantOcspStapling := some true }

/-- `_negociate`, server/wait_client_hello.py:204-233: clear extensions, encrypted extensions,
shared key. -/
def serverNegotiate (E : Env) (exts : List Ext) : M (List Ext × List Ext × Option Bytes) := do
  let v ← serverNegVersions exts
  serverNegGroups exts
  serverNegSignature E exts
  let (ks, shared) ← serverNegKeyShare E exts
  match shared with
  | none => return (v ++ [ks], [], none)
  | some shared => do
    let e1 ← serverNegCct exts
    let e2 ← serverNegSct exts
    let e3 ← serverNegMfl exts
    let e4 ← serverNegAlpn exts
    let e5 ← serverNegHeartbeat exts
    serverNegStatus exts
    return (v ++ [ks], e1 ++ (e2 ++ (e3 ++ (e4 ++ e5))), some shared)

/-- `_send_hello_retry_request`, server/wait_client_hello.py:109-130. -/
def serverSendHrr (E : Env) (isFirst : Bool) (sessionId : Bytes) (clear : List Ext) : M Unit := do
  if isFirst = false then M.throw (.alert Iana.illegalParameter) else do
  moveTo (.serverWaitCH false)
  let k ← getCipher
  let nc ← getNc
  let c ← M.get
  match c.signature with
  | none => M.throw .attributeError
  | some (scheme, _) => do
    setConfig fun g => { g with cipherSuites := [k.info.id], keyExchanges := nc.keyExchange.toList,
                                signatureAlgorithms := [scheme] }
    let h ← transcriptDigest E
    transcriptHrr c.config.side h
    sendContent E (.handshake (.helloRetryRequest hrrRandom sessionId k.info.id (dictOfExts clear)))
    sendContent E .changeCipherSpec

/-- `_send_server_hello`, server/wait_client_hello.py:132-145. -/
def serverSendHello (E : Env) (isFirst : Bool) (sessionId : Bytes) (clear encrypted : List Ext)
    (shared : Bytes) : M Unit := do
  cipherSkipEarly E
  let k ← getCipher
  let c ← M.get
  match c.serverUnique with
  | none => M.throw .typeError
  | some random => do
    sendContent E (.handshake (.serverHello random sessionId k.info.id (dictOfExts clear)))
    M.guarded isFirst (sendContent E .changeCipherSpec)
    let h ← transcriptDigest E
    cipherDeriveHandshake E shared h
    sendContent E (.handshake (.encryptedExtensions (dictOfExts encrypted)))

/-- `_request_user_certificate`, server/wait_client_hello.py:147-155. -/
def serverRequestCert (E : Env) : M Unit := do
  let c ← M.get
  sendContent E (.handshake (.certificateRequest [] [.signatureAlgorithms c.config.signatureAlgorithms]))

/-- the OCSP response to staple, server/wait_client_hello.py:169-190; `none`: no staple. -/
def serverStaple (E : Env) (chain : List Bytes) : M (Option Bytes) := do
  let c ← M.get
  let nc ← getNc
  match chain with
  | subject :: issuer :: _ =>
    if nc.peerWantOcspStapling = some true ∧ c.hasOcsp then do
      let url ← M.lift (E.ocspUrl subject)
      let req := E.ocspRequest subject issuer
      let d ← nextDraw
      let res ← M.lift (E.ocspFetch url req d)
      let d ← nextDraw
      match E.ocspValidate issuer req res d with
      | .ok _ => return some res
      | .error .valueError => return none
      | .error e => M.throw e
    else return none
  | _ => return none

/-- the entries of the server's Certificate message, server/wait_client_hello.py:157-190. -/
def serverCertEntries (E : Env) : M (List CertEntry) := do
  let c ← M.get
  let nc ← getNc
  if nc.serverCertificateType = some Iana.rawPublicKey then
    match c.config.publicKey with
    | some k => return [.rawKey k []]
    | none => M.throw .attributeError
  else
    match c.config.certificateChain with
    | none => M.throw .typeError
    | some chain => do
      let staple ← serverStaple E chain
      match chain, staple with
      | leaf :: rest, some res => return .x509 leaf [.ocspStatus res] :: rest.map (.x509 · [])
      | chain, _ => return chain.map (.x509 · [])

/-- `_send_server_certificate`, server/wait_client_hello.py:157-197. -/
def serverSendCertificate (E : Env) : M Unit := do
  let entries ← serverCertEntries E
  sendContent E (.handshake (.certificate [] entries))
  let c ← M.get
  match c.signature with
  | none => M.throw .attributeError
  | some (scheme, priv) => do
    let h ← transcriptDigest E
    let d ← nextDraw
    let sig ← M.lift (E.sign scheme priv (certificateVerifyServer ++ h) d)
    sendContent E (.handshake (.certificateVerify scheme sig))

/-- `_send_finished`, server/wait_client_hello.py:199-202. -/
def serverSendFinished (E : Env) : M Unit := do
  let h ← transcriptDigest E
  let k ← getCipher
  let mac ← M.lift (signFinish E k h)
  sendContent E (.handshake (.finished mac))

/-- server/wait_client_hello.py:80-92: the flight after a successful negotiation.
`ServerWaitFlight2` is abstract: TypeError. -/
def serverFlight (E : Env) (isFirst : Bool) (sessionId : Bytes) (clear encrypted : List Ext)
    (shared : Bytes) : M Unit := do
  serverSendHello E isFirst sessionId clear encrypted shared
  let c ← M.get
  M.guarded c.config.requirePeerAuth (serverRequestCert E)
  serverSendCertificate E
  serverSendFinished E
  let h ← transcriptDigest E
  if c.config.requirePeerAuth then M.throw .typeError else moveTo (.serverWaitFin h)

/-- server/wait_client_hello.py:66-70: checks on the second ClientHello. -/
def serverCheckSecond (random : Bytes) (suites : List Nat) : M Unit := do
  let c ← M.get
  let _ ← M.lift (findCommonSuite c.config.cipherSuites suites)
  if some random ≠ c.clientUnique then M.throw (.alert Iana.illegalParameter) else pure ()

/-- server/wait_client_hello.py:66-73. -/
def serverCheckHello (isFirst : Bool) (random : Bytes) (suites : List Nat) : M Unit :=
  if isFirst then serverSetup random suites else serverCheckSecond random suites

/-- `ServerWaitClientHello.process`, server/wait_client_hello.py:60-92. -/
def serverWaitCH (E : Env) (isFirst : Bool) (content : Content) : M Unit :=
  match content with
  | .handshake (.clientHello random sessionId suites exts) => do
    serverCheckHello isFirst random suites
    let (clear, encrypted, shared) ← serverNegotiate E exts
    match shared with
    | none => serverSendHrr E isFirst sessionId clear
    | some shared => serverFlight E isFirst sessionId clear encrypted shared
  | _ => baseProcess content

/-- `ServerWaitFinished.process`, server/wait_finished.py:16-35. -/
def serverWaitFin (E : Env) (finHash : Bytes) (content : Content) : M Unit :=
  match content with
  | .handshake (.finished verifyData) => do
    let k ← getCipher
    M.lift (mapValueError (.alert Iana.decryptError) (verifyFinish E k finHash verifyData))
    let h ← transcriptDigest E
    let _ ← cipherDeriveMaster E finHash h
    moveTo .connected
  | _ => baseProcess content

end Siotls
