import Verif.Model.Api
import Mathlib.Logic.Relation
/-!
# Atomic steps of a connection

A labelled view of the model used only in proofs: every method of the API is a sequence of
`Step`s (proved in `Proofs/LtsSim.lean`), so a property of all histories can be proved by
checking it on each kind of step. The guards record what the code knows at that point.
-/

namespace Siotls

/-- the content being processed: the newest `recv` event -/
def lastRecv : List Ev → Option Content
  | [] => none
  | .recv x :: _ => some x
  | _ :: l => lastRecv l

/-- places of the order table where the transcript can be after a received message -/
def Landed (i type : Nat) : Prop := i ≠ 0 ∧ (type = 2 → i ≠ 2)

/-- states before the handshake keys -/
def St.early : St → Bool
  | .clientStart _ | .clientWaitSH .. | .serverStart | .serverWaitCH _ => true
  | _ => false

/-- before the handshake keys nothing is encrypted; false only after a failure that could not be
reported to the peer -/
def Conn.Ready (c : Conn) : Prop := c.state.early = true → c.mustEncrypt = false

/-- the transcript uses the hash of the suite -/
def Conn.AlgOk (c : Conn) : Prop :=
  ∃ k d, c.cipher = some k ∧ c.transcript.hashes = [(k.info.digest, d)]

/-- `n` is `o` with justified changes -/
structure NcUpd (E : Env) (c : Conn) (o n : NConfig) : Prop where
  suite : n.cipherSuite = o.cipherSuite ∨
    ∃ s random sid suites exts, n.cipherSuite = some s ∧ c.state = .serverWaitCH true ∧
      lastRecv c.tr = some (.handshake (.clientHello random sid suites exts)) ∧
      c.config.cipherSuites.find? suites.contains = some s
  group : n.keyExchange = o.keyExchange ∨
    ∃ g l random sid suites exts f, n.keyExchange = some g ∧ c.state = .serverWaitCH f ∧
      lastRecv c.tr = some (.handshake (.clientHello random sid suites exts)) ∧
      findExt exts Iana.extSupportedGroups = some (.supportedGroups l) ∧
      c.config.keyExchanges.find? l.contains = some g
  alpn : n.alpn = o.alpn ∨ ((c.state = .clientWaitEE ∨ ∃ f, c.state = .serverWaitCH f) ∧
    (n.alpn = some none ∨ ∃ p, n.alpn = some (some p) ∧ p ∈ c.config.alpn))
  mfl : n.maxFragmentLength = o.maxFragmentLength ∨
    ((c.state = .clientWaitEE ∨ ∃ f, c.state = .serverWaitCH f) ∧
      n.maxFragmentLength = some c.config.maxFragmentLength) ∨
    (c.state = .clientWaitEE ∧ n.maxFragmentLength = some 16384) ∨
    ∃ code random sid suites exts f, n.maxFragmentLength = some (Iana.mflOctets code) ∧
      c.state = .serverWaitCH f ∧
      lastRecv c.tr = some (.handshake (.clientHello random sid suites exts)) ∧
      findExt exts Iana.extMaxFragmentLength = some (.maxFragmentLength code)
  cct : n.clientCertificateType = o.clientCertificateType ∨
    ∃ t, n.clientCertificateType = some t ∧
      ((c.state = .clientWaitEE ∧ (t = Iana.x509 ∨ t ∈ c.config.certificateTypes)) ∨
       ∃ f, c.state = .serverWaitCH f ∧ t ∈ c.config.peerCertificateTypes)
  sct : n.serverCertificateType = o.serverCertificateType ∨
    ∃ t, n.serverCertificateType = some t ∧
      ((c.state = .clientWaitEE ∧ (t = Iana.x509 ∨ t ∈ c.config.peerCertificateTypes)) ∨
       ∃ f, c.state = .serverWaitCH f ∧ t ∈ c.config.certificateTypes)
  peerCert : n.peerCertificate = o.peerCertificate ∨
    ∃ x ex es ctx m, n.peerCertificate = some x ∧ c.state = .clientWaitCert m ∧
      lastRecv c.tr = some (.handshake (.certificate ctx (.x509 x ex :: es)))
  peerKey : n.peerPublicKey = o.peerPublicKey ∨
    ∃ x ex es ctx m, n.peerPublicKey = some x ∧ c.state = .clientWaitCert m ∧
      lastRecv c.tr = some (.handshake (.certificate ctx (.rawKey x ex :: es)))
  sigAlg : n.signatureAlgorithm = o.signatureAlgorithm ∨
    ∃ alg sig m h, n.signatureAlgorithm = some alg ∧ c.state = .clientWaitCV m h ∧
      lastRecv c.tr = some (.handshake (.certificateVerify alg sig)) ∧
      alg ∈ c.config.signatureAlgorithms
  kexs : n.keyExchanges = o.keyExchanges ∨
    ∃ g f ks h, n.keyExchanges = some g ∧ c.state = .clientWaitSH f ks h ∧ g ∈ ks.map Prod.fst
  frozen : n.frozen = o.frozen
  heartbeat : (n.canSendHeartbeat = o.canSendHeartbeat ∧ n.canEchoHeartbeat = o.canEchoHeartbeat) ∨
    c.state = .clientWaitEE ∨ ∃ f, c.state = .serverWaitCH f
  status : n.peerWantOcspStapling = o.peerWantOcspStapling ∨ ∃ f, c.state = .serverWaitCH f

/-- the suite in the server's answer being processed -/
def answerSuite : Content → Option Nat
  | .handshake (.serverHello _ _ s _) => some s
  | .handshake (.helloRetryRequest _ _ s _) => some s
  | _ => none

inductive NcOk (E : Env) (c : Conn) : NConfig → Prop
  | client {ks h s x} : c.state = .clientWaitSH true ks h → lastRecv c.tr = some x →
      answerSuite x = some s → s ∈ c.config.cipherSuites →
      NcOk E c { NConfig.new with cipherSuite := some s }
  | server {random sid suites exts} : c.state = .serverWaitCH true →
      lastRecv c.tr = some (.handshake (.clientHello random sid suites exts)) →
      NcOk E c NConfig.new
  | upd {o n} : c.nconfig = some o → NcUpd E c o n → NcOk E c n

/-- `_process_hello_retry_request` narrowed the configuration to `k`,
client/wait_server_hello.py:59-65 -/
inductive CfgOk (c : Conn) : Config → Prop
  | client {f ks h g nc random sid suite exts k} : c.state = .clientWaitSH f ks h →
      lastRecv c.tr = some (.handshake (.helloRetryRequest random sid suite exts)) →
      suite ∈ c.config.cipherSuites →
      findExt exts Iana.extKeyShare = some (.keyShareRetry g) →
      g ∈ c.config.keyExchanges → c.nconfig = some nc →
      (f = true → nc.cipherSuite = some suite) →
      k = { c.config with cipherSuites := nc.cipherSuite.toList, keyExchanges := [g] } →
      k.check = .ok () → (∀ m, c.tr.head? ≠ some (.sent (.handshake m))) → CfgOk c k

/-- the configuration of the server after its HelloRetryRequest,
server/wait_client_hello.py:113-121 -/
def narrowed (k : Config) (suite : Nat) (group : Option Nat) (scheme : Nat) : Config :=
  { k with cipherSuites := [suite], keyExchanges := group.toList, signatureAlgorithms := [scheme] }

/-- server/wait_client_hello.py:278-288 chose scheme `s` -/
def SigOk (E : Env) (c : Conn) (s : Nat × Bytes) : Prop :=
  ∃ f random sid suites exts l leaf rest fit, c.state = .serverWaitCH f ∧
    lastRecv c.tr = some (.handshake (.clientHello random sid suites exts)) ∧
    findExt exts Iana.extSignatureAlgorithms = some (.signatureAlgorithms l) ∧
    c.config.certificateChain = some (leaf :: rest) ∧ suitesForOid (E.certOid leaf) = .ok fit ∧
    c.config.signatureAlgorithms.find? (fun s => fit.contains s && l.contains s) = some s.1 ∧
    s.2 = c.config.privateKey.getD []

inductive SetupOk (c : Conn) (info : SuiteInfo) : Side → Prop
  | client {ks h x s nc} : c.state = .clientWaitSH true ks h → c.tr.head? = some (.recv x) →
      answerSuite x = some s → s ∈ c.config.cipherSuites → suiteInfo s = some info →
      c.nconfig = some nc → nc.cipherSuite = some s → SetupOk c info .client
  | server {random sid suites exts s nc} : c.state = .serverWaitCH true →
      c.tr.head? = some (.recv (.handshake (.clientHello random sid suites exts))) →
      c.config.cipherSuites.find? suites.contains = some s → suiteInfo s = some info →
      c.nconfig = some nc → nc.cipherSuite = some s → c.clientUnique = some random →
      SetupOk c info .server

/-- where the shared secret and the transcript hash of the handshake keys come from -/
inductive HsOk (E : Env) (c : Conn) (shared hash : Bytes) : Prop
  | client {f ks ch random sid suite exts g share priv} : c.state = .clientWaitSH f ks ch →
      lastRecv c.tr = some (.handshake (.serverHello random sid suite exts)) →
      suite ∈ c.config.cipherSuites →
      findExt exts Iana.extSupportedVersions = some (.supportedVersionsResp Iana.tls13) →
      findExt exts Iana.extKeyShare = some (.keyShareResp g share) →
      ks.find? (·.1 = g) = some (g, priv) → kexRegistered g = true →
      E.kexResume g priv share = .ok shared →
      c.serverUnique = some random → (f = true → c.AlgOk) →
      c.transcript.digest E = .ok hash → HsOk E c shared hash
  | server {f random sid suites exts l g theirs d priv mine sr clear} : c.state = .serverWaitCH f →
      lastRecv c.tr = some (.handshake (.clientHello random sid suites exts)) →
      findExt exts Iana.extKeyShare = some (.keyShareReq l) →
      l.find? (·.1 = g) = some (g, theirs) → kexRegistered g = true →
      E.kexInit g d = .ok (priv, mine) → E.kexResume g priv theirs = .ok shared → shared ≠ [] →
      (∃ suite, Ev.sent (.handshake (.serverHello sr sid suite (dictOfExts clear))) ∈ c.tr) →
      clear = [.supportedVersionsResp Iana.tls13, .keyShareResp g mine] → (f = true → c.AlgOk) →
      c.transcript.digest E = .ok hash → HsOk E c shared hash

/-- the peer's Finished was verified; `sf`, `cf` are the hashes given to the master derivation -/
inductive MsOk (E : Env) (c : Conn) (sf cf : Bytes) : Prop
  | client {h k vd mine data} {t : Transcript} {b} : c.state = .clientWaitFin false h → c.cipher = some k →
      lastRecv c.tr = some (.handshake (.finished vd)) → verifyFinish E k h vd = .ok () →
      t.digest E = .ok sf → signFinish E k sf = .ok mine →
      serHandshake E (.finished mine) = .ok data →
      t.update data c.config.side 20 = (.ok b, c.transcript) →
      c.transcript.digest E = .ok cf → MsOk E c sf cf
  | server {k vd} : c.state = .serverWaitFin sf → c.cipher = some k →
      lastRecv c.tr = some (.handshake (.finished vd)) → verifyFinish E k sf vd = .ok () →
      c.transcript.digest E = .ok cf → MsOk E c sf cf

/-- the negotiation ran on this hello with this configuration and returned these extensions -/
def Negotiated (E : Env) (c : Conn) (exts clear enc : List Ext) (shared : Option Bytes) : Prop :=
  ∃ c₁ c₂ : Conn, c₁.config = c.config ∧
    serverNegotiate E exts c₁ = (.ok (clear, enc, shared), c₂) ∧
    c₂.signature = c.signature ∧ c₂.nconfig = c.nconfig

/-- server/wait_client_hello.py:157-190: the certificates of the configuration, the first with an OCSP
response if there is one to staple -/
inductive EntriesOk (E : Env) (c : Conn) (nc : NConfig) : List CertEntry → Prop
  | raw {k} : nc.serverCertificateType = some Iana.rawPublicKey → c.config.publicKey = some k →
      EntriesOk E c nc [.rawKey k []]
  | plain {chain} : nc.serverCertificateType ≠ some Iana.rawPublicKey →
      c.config.certificateChain = some chain →
      (∀ leaf issuer rest, chain = leaf :: issuer :: rest → nc.peerWantOcspStapling = some true →
        c.hasOcsp = true → ∃ url res d d', E.ocspUrl leaf = .ok url ∧
          E.ocspFetch url (E.ocspRequest leaf issuer) d = .ok res ∧
          E.ocspValidate issuer (E.ocspRequest leaf issuer) res d' = .error .valueError) →
      EntriesOk E c nc (chain.map (.x509 · []))
  | stapled {leaf issuer rest url res d d'} : nc.serverCertificateType ≠ some Iana.rawPublicKey →
      c.config.certificateChain = some (leaf :: issuer :: rest) →
      nc.peerWantOcspStapling = some true → c.hasOcsp = true → E.ocspUrl leaf = .ok url →
      E.ocspFetch url (E.ocspRequest leaf issuer) d = .ok res →
      E.ocspValidate issuer (E.ocspRequest leaf issuer) res d' = .ok () →
      EntriesOk E c nc (.x509 leaf [.ocspStatus res] :: (issuer :: rest).map (.x509 · []))

/-- what the code knows when it starts sending a handshake message -/
def HsGuard (E : Env) (c : Conn) : Handshake → Prop
  | .clientHello r sid suites exts => ∃ cookie g gs random d priv share,
      c.state = .clientStart cookie ∧
      c.clientUnique = some random ∧ c.config.keyExchanges = g :: gs ∧ kexRegistered g = true ∧
      E.kexInit g d = .ok (priv, share) ∧
      mkClientHello random c.config.cipherSuites
        (clientExtensions E c cookie ++ [.keyShareReq [(g, share)]]) =
        .ok (.clientHello r sid suites exts)
  | .serverHello random sid suite exts => ∃ f r suites chExts clear enc shared k,
      c.state = .serverWaitCH f ∧
      lastRecv c.tr = some (.handshake (.clientHello r sid suites chExts)) ∧
      c.serverUnique = some random ∧ c.cipher = some k ∧ k.info.id = suite ∧
      Negotiated E c chExts clear enc (some shared) ∧ exts = dictOfExts clear ∧
      (∃ s, c.config.cipherSuites.find? suites.contains = some s ∧ (f = true → s = suite)) ∧
      c.clientUnique = some r ∧ c.transcript.orderI ≠ 0
  | .helloRetryRequest random sid suite exts => ∃ r suites chExts clear k,
      c.state = .serverWaitCH false ∧ random = hrrRandom ∧
      lastRecv c.tr = some (.handshake (.clientHello r sid suites chExts)) ∧
      c.cipher = some k ∧ k.info.id = suite ∧
      (∃ c₁ c₂ : Conn, serverNegotiate E chExts c₁ = (.ok (clear, [], none), c₂) ∧
        c₂.signature = c.signature ∧ c₂.nconfig = c.nconfig ∧
        ∃ nc scheme, c.nconfig = some nc ∧
          c.config = narrowed c₁.config suite nc.keyExchange scheme) ∧ exts = dictOfExts clear ∧
      c.transcript.orderI = (match c.config.side with | .client => 1 | .server => 0)
  | .encryptedExtensions exts => ∃ f r sid suites chExts clear enc shared,
      c.state = .serverWaitCH f ∧
      lastRecv c.tr = some (.handshake (.clientHello r sid suites chExts)) ∧
      Negotiated E c chExts clear enc (some shared) ∧ exts = dictOfExts enc ∧
      c.mustEncrypt = true ∧ c.mustDecrypt = true
  | .certificateRequest ctx exts => ∃ f, c.state = .serverWaitCH f ∧
      c.config.requirePeerAuth = true ∧ ctx = [] ∧
      exts = [.signatureAlgorithms c.config.signatureAlgorithms]
  | .certificate ctx entries => ∃ f, c.state = .serverWaitCH f ∧ ctx = [] ∧
      ∃ r sid suites chExts clear enc shared nc,
        lastRecv c.tr = some (.handshake (.clientHello r sid suites chExts)) ∧
        Negotiated E c chExts clear enc (some shared) ∧ c.nconfig = some nc ∧
        EntriesOk E c nc entries
  | .certificateVerify scheme sig => ∃ f priv h d, c.state = .serverWaitCH f ∧
      c.signature = some (scheme, priv) ∧ c.transcript.digest E = .ok h ∧
      E.sign scheme priv (certificateVerifyServer ++ h) d = .ok sig ∧
      ∃ r sid suites chExts clear enc shared,
        lastRecv c.tr = some (.handshake (.clientHello r sid suites chExts)) ∧
        c.clientUnique = some r ∧ Negotiated E c chExts clear enc (some shared)
  | .finished mac => ∃ k h, c.cipher = some k ∧ c.transcript.digest E = .ok h ∧
      signFinish E k h = .ok mac ∧
      ((∃ f, c.state = .serverWaitCH f) ∨ ∃ vh, c.state = .clientWaitFin false vh)

/-- what the code knows when it starts sending -/
def SentGuard (E : Env) (c : Conn) : Content → Prop
  | .handshake h => HsGuard E c h
  | .applicationData _ => c.state.canSendApp = true
  | _ => True

/-- two cipher states that differ at most by the number of records written -/
def SameKeys : Option CipherSt → Option CipherSt → Prop
  | some k, some k' => ∃ n, k' = { k with wr := { k.wr with seq := n } }
  | none, none => True
  | _, _ => False

/-- `c` is the connection in the middle of sending `content`, started in `c₀`, when the records
are ready -/
structure SendCtx (E : Env) (c₀ : Conn) (content : Content) (records : List (Nat × Bytes × Bytes))
    (c : Conn) : Prop where
  same : c = { c₀ with cipher := c.cipher, transcript := c.transcript, tr := c.tr }
  keys : SameKeys c₀.cipher c.cipher
  canSend : c₀.state.canSend = true
  data : ∃ data, serContent E content = .ok data ∧
    (∀ h, content = .handshake h → ∃ b,
      c₀.transcript.update data c₀.config.side h.msgType = (.ok b, c.transcript)) ∧
    ∃ seals hs, c.tr = seals ++ (hs ++ c₀.tr) ∧
      (∀ e ∈ seals, ∃ s k n a p, e = Ev.sealed s k n a p) ∧
      (c₀.mustEncrypt = false → seals = []) ∧
      ((∃ h, content = .handshake h ∧ hs = [.hashed c₀.config.side h.msgType data]) ∨
        hs = [] ∧ ((∃ h, content = .handshake h) → c.transcript.orderI = 12)) ∧
      ∀ r ∈ records, recordHeader r.1 r.2.1.length = .ok (r.2.2.take 5) ∧
        r.2.2.drop 5 = r.2.1 ∧
        (c₀.mustEncrypt = false → r.1 = content.ctype) ∧
        (c₀.mustEncrypt = true → r.1 = Iana.ctApplicationData ∧ ∃ s k n a p,
          Ev.sealed s k n a p ∈ seals ∧ r.2.1 = E.aeadSeal s k n a p)
  transcript : (∀ h, content ≠ .handshake h) → c.transcript = c₀.transcript

/-- `stripPadding` of an opened record gave this -/
def openedAs (e : Option Ev) (ctype : Nat) (frag : Bytes) : Prop :=
  ∃ s k n a inner, e = some (.opened s k n a inner) ∧ stripPadding inner = some (ctype, frag)

/-- evidence about the server's certificate when the client accepts it -/
def CertOk (E : Env) (c : Conn) (nc : NConfig) (entries : List CertEntry) : Prop :=
  c.config.requirePeerAuth = true → ∃ store leaf others d,
    c.config.trustStore = some store ∧ certsOf entries = .ok (leaf :: others) ∧
    E.verifyChain store c.config.maxChainDepth (subjectOf E c.hostname) leaf others d = .ok () ∧
    nc.peerCertificate = some leaf ∧
    (c.config.revocationList = none ∨ c.config.revocationList = some [])

/-- evidence about revocation statuses (OCSP) when the client accepts a chain -/
def StatusOk (E : Env) (ocsp : Bool) (entry issuer : CertEntry) : Prop :=
  (∃ res cert iss d, findExt entry.exts Iana.extStatusRequest = some (.ocspStatus res) ∧
    entry.cert = .ok cert ∧ issuer.cert = .ok iss ∧
      E.ocspValidate iss (E.ocspRequest cert iss) res d = .ok ()) ∨
  (findExt entry.exts Iana.extStatusRequest = none ∧ (ocsp = true →
    ∃ cert url, entry.cert = .ok cert ∧ E.ocspUrl cert = .ok url ∧ (url = none ∨ url = some [] ∨
      ∃ iss d res d', issuer.cert = .ok iss ∧ E.ocspFetch url (E.ocspRequest cert iss) d = .ok res ∧
        E.ocspValidate iss (E.ocspRequest cert iss) res d' = .ok ())))

def StatusesOk (E : Env) (ocsp : Bool) : List CertEntry → Prop
  | entry :: issuer :: rest => StatusOk E ocsp entry issuer ∧ StatusesOk E ocsp (issuer :: rest)
  | _ => True

/-- what the client checked about a ServerHello -/
def ServerHelloOk (c : Conn) (f : Bool) (ks : List (Nat × Bytes)) (suite : Nat)
    (exts : List Ext) : Prop :=
  suite ∈ c.config.cipherSuites ∧
  findExt exts Iana.extSupportedVersions = some (.supportedVersionsResp Iana.tls13) ∧
  ∃ g share priv nc, findExt exts Iana.extKeyShare = some (.keyShareResp g share) ∧
    (g, priv) ∈ ks ∧ c.nconfig = some nc ∧ nc.keyExchanges = some g ∧
    (f = true → nc.cipherSuite = some suite)

/-- client/wait_encrypted_extensions.py:40-48 -/
def MflAccepted (k : Config) (exts : List Ext) (x : Option Nat) : Prop :=
  (findExt exts Iana.extMaxFragmentLength = none ∧ x = some 16384) ∨
  ∃ code, findExt exts Iana.extMaxFragmentLength = some (.maxFragmentLength code) ∧
    Iana.mflOctets code = k.maxFragmentLength ∧ x = some k.maxFragmentLength

/-- client/wait_encrypted_extensions.py:50-61 -/
def AlpnAccepted (k : Config) (exts : List Ext) (x : Option (Option Bytes)) : Prop :=
  (findExt exts Iana.extAlpn = none ∧ x = some none) ∨
  ∃ p, findExt exts Iana.extAlpn = some (.alpn [p]) ∧ p ∈ k.alpn ∧ x = some (some p)

/-- client/wait_encrypted_extensions.py:78-88 -/
def CctAccepted (k : Config) (exts : List Ext) (x : Option Nat) : Prop :=
  (findExt exts Iana.extClientCertificateType = none ∧ x = some Iana.x509) ∨
  ∃ t, findExt exts Iana.extClientCertificateType = some (.clientCertTypeResp t) ∧
    t ∈ k.certificateTypes ∧ x = some t

/-- client/wait_encrypted_extensions.py:90-100 -/
def SctAccepted (k : Config) (exts : List Ext) (x : Option Nat) : Prop :=
  (findExt exts Iana.extServerCertificateType = none ∧ x = some Iana.x509) ∨
  ∃ t, findExt exts Iana.extServerCertificateType = some (.serverCertTypeResp t) ∧
    t ∈ k.peerCertificateTypes ∧ x = some t

/-- client/wait_encrypted_extensions.py:63-76 -/
def HeartbeatAccepted (k : Config) (exts : List Ext) (send echo : Option Bool) : Prop :=
  (findExt exts Iana.extHeartbeat = none ∧ send = some false ∧ echo = some false) ∨
  ∃ m, findExt exts Iana.extHeartbeat = some (.heartbeat m) ∧
    send = some (m == Iana.peerAllowedToSend) ∧ echo = some k.canEchoHeartbeat

/-- what the client negotiated with EncryptedExtensions -/
structure ExtsOk (k : Config) (exts : List Ext) (nc : NConfig) : Prop where
  mfl : MflAccepted k exts nc.maxFragmentLength
  alpn : AlpnAccepted k exts nc.alpn
  cct : CctAccepted k exts nc.clientCertificateType
  sct : SctAccepted k exts nc.serverCertificateType
  heartbeat : HeartbeatAccepted k exts nc.canSendHeartbeat nc.canEchoHeartbeat

/-- transitions between states -/
inductive MoveOk (E : Env) (c : Conn) : St → Prop
  | closeNotify {level} : c.tr.head? = some (.recv (.alert level Iana.closeNotify)) →
      c.state.canReceive = true → c.state ≠ .failed → MoveOk E c (.closed true true)
  | failed {d} : c.tr.head? = some (.sent (.alert Iana.fatal d)) → c.state.canSend = true →
      MoveOk E c .failed
  | clientHello {cookie hello g gs d priv share h} : c.state = .clientStart cookie →
      c.tr.head? = some (.sent (.handshake hello)) → hello.msgType = 1 →
      c.config.keyExchanges = g :: gs → E.kexInit g d = .ok (priv, share) →
      c.transcript.digest E = .ok h →
      MoveOk E c (.clientWaitSH c.nconfig.isNone [(g, priv)] h)
  | serverHello {f ks ch random sid suite exts k} : c.state = .clientWaitSH f ks ch →
      lastRecv c.tr = some (.handshake (.serverHello random sid suite exts)) →
      c.cipher = some k → k.wr.key.isSome = true → k.rd.key.isSome = true →
      ServerHelloOk c f ks suite exts →
      MoveOk E c .clientWaitEE
  | extensions {exts nc} : c.state = .clientWaitEE →
      lastRecv c.tr = some (.handshake (.encryptedExtensions exts)) → c.nconfig = some nc →
      ExtsOk c.config exts nc → MoveOk E c .clientWaitCertCr
  | request {ctx exts} : c.state = .clientWaitCertCr →
      lastRecv c.tr = some (.handshake (.certificateRequest ctx exts)) →
      MoveOk E c (.clientWaitCert true)
  | noRequest {ctx entries} : c.state = .clientWaitCertCr →
      lastRecv c.tr = some (.handshake (.certificate ctx entries)) →
      MoveOk E c (.clientWaitCert false)
  | certificate {m ctx entries nc h} : c.state = .clientWaitCert m →
      lastRecv c.tr = some (.handshake (.certificate ctx entries)) → c.nconfig = some nc →
      (c.tr.head? = some (.recv (.handshake (.certificate ctx entries)))) →
      CertOk E c nc entries →
      (c.config.requirePeerAuth = true → StatusesOk E c.hasOcsp entries) →
      c.transcript.digest E = .ok h → MoveOk E c (.clientWaitCV m h)
  | verify {m ch alg sig nc pub h} : c.state = .clientWaitCV m ch →
      lastRecv c.tr = some (.handshake (.certificateVerify alg sig)) →
      c.tr.head? = some (.recv (.handshake (.certificateVerify alg sig))) →
      alg ∈ c.config.signatureAlgorithms → c.nconfig = some nc → peerKey E nc = .ok pub →
      E.verify alg pub sig (certificateVerifyServer ++ ch) = .ok () →
      c.transcript.digest E = .ok h → sigRegistered alg = true → MoveOk E c (.clientWaitFin m h)
  | clientDone {h k} : c.state = .clientWaitFin false h → c.cipher = some k → k.cFin = .none →
      MoveOk E c .connected
  | serverInit : c.state = .serverStart → MoveOk E c (.serverWaitCH true)
  | serverHrr {random sid suites exts} : c.state = .serverWaitCH true →
      lastRecv c.tr = some (.handshake (.clientHello random sid suites exts)) →
      c.AlgOk → c.config.check ≠ .ok () → MoveOk E c (.serverWaitCH false)
  | serverFinished {f mac h} : c.state = .serverWaitCH f → c.config.requirePeerAuth = false →
      c.tr.head? = some (.sent (.handshake (.finished mac))) → c.transcript.digest E = .ok h →
      c.mustEncrypt = true → c.mustDecrypt = true →
      (∃ r sid suites chExts clear enc shared,
        lastRecv c.tr = some (.handshake (.clientHello r sid suites chExts)) ∧
        Negotiated E c chExts clear enc (some shared)) →
      MoveOk E c (.serverWaitFin h)
  | serverDone {h k} : c.state = .serverWaitFin h → c.cipher = some k → k.cFin = .none →
      MoveOk E c .connected

/-- one atomic step; `G` holds of the connection whenever a content is handed to the state -/
inductive Step (E : Env) (G : Conn → Prop) (c : Conn) : Conn → Prop
  | input (d : Bytes) : Step E G c { c with inputData := d }
  | draw (n : Nat) : Step E G c { c with draws := n }
  | fragment (frag : Bytes) :
      (c.mustDecrypt = true → openedAs c.tr.head? Iana.ctHandshake frag) →
      Step E G c { c with inputHandshake := c.inputHandshake ++ frag }
  | gotHandshake : Step E G c { c with inputHandshake := [],
                                       tr := .got Iana.ctHandshake c.inputHandshake :: c.tr }
  | gotOther (ctype : Nat) (data : Bytes) : ctype ≠ Iana.ctHandshake →
      ctype ≠ Iana.ctChangeCipherSpec → c.inputHandshake = [] →
      (c.mustDecrypt = true → openedAs c.tr.head? ctype data) →
      Step E G c { c with tr := .got ctype data :: c.tr }
  | badRecord {k key nonce rd} : c.cipher = some k → k.rd.key = some key →
      nextNonce k.info k.rd = .ok (nonce, rd) →
      Step E G c { c with cipher := some { k with rd := rd } }
  | opened {k key nonce rd aad ct inner} : c.cipher = some k → k.rd.key = some key →
      nextNonce k.info k.rd = .ok (nonce, rd) → E.aeadOpen k.info.id key nonce aad ct = some inner →
      Step E G c { c with cipher := some { k with rd := rd },
                          tr := .opened k.info.id key nonce aad inner :: c.tr }
  | sealed {k key nonce wr aad pt} : c.cipher = some k → k.wr.key = some key →
      nextNonce k.info k.wr = .ok (nonce, wr) →
      Step E G c { c with cipher := some { k with wr := wr },
                          tr := .sealed k.info.id key nonce aad pt :: c.tr }
  | emit {c₀ content records} : SendCtx E c₀ content records c → SentGuard E c₀ content →
      Step E G c { c with outputData := c.outputData ++ (records.map (·.2.2)).flatten,
                          tr := .sent content ::
                          ((records.map fun r => Ev.record r.1 r.2.1).reverse ++ c.tr) }
  | hashSent {h data b t} : serHandshake E h = .ok data → HsGuard E c h →
      c.state.canSend = true →
      c.transcript.update data c.config.side h.msgType = (.ok b, t) →
      Step E G c { c with transcript := t,
                          tr := if b then .hashed c.config.side h.msgType data :: c.tr else c.tr }
  | hashError {data side type e t} : c.transcript.update data side type = (.error e, t) →
      Step E G c { c with transcript := t }
  | received {ctype data content} : G c → c.tr.head? = some (.got ctype data) →
      decodeContent E c.certType ctype data = .ok content → (∀ h, content ≠ .handshake h) →
      content ≠ .unparsed →
      Step E G c { c with tr := .recv content :: c.tr }
  | receivedHs {ctype data h b t} : G c → c.tr.head? = some (.got ctype data) →
      decodeContent E c.certType ctype data = .ok (.handshake h) →
      c.transcript.update data c.config.side.other h.msgType = (.ok b, t) →
      Step E G c { c with transcript := t, tr := .recv (.handshake h) ::
        (if b then .hashed c.config.side.other h.msgType data :: c.tr else c.tr) }
  | delivered {d} : c.tr.head? = some (.recv (.applicationData d)) →
      (c.state = .connected ∨ ∃ s, c.state = .closed true s) →
      Step E G c { c with applicationData := c.applicationData ++ d, tr := .delivered d :: c.tr }
  | nc {n} : NcOk E c n → Step E G c { c with nconfig := some n }
  | cfg {k} : CfgOk c k → Step E G c { c with config := k }
  | retry {k f ks ch cookie} : c.state = .clientWaitSH f ks ch → CfgOk c k →
      (f = true → c.AlgOk) → (∃ a b s e, cookieOf e = .ok cookie ∧
        lastRecv c.tr = some (.handshake (.helloRetryRequest a b s e))) →
      Step E G c { c with config := k, state := .clientStart cookie }
  | signature {s} : SigOk E c s → Step E G c { c with signature := some s }
  | clientUnique {random sid suites exts} : c.state = .serverWaitCH true →
      lastRecv c.tr = some (.handshake (.clientHello random sid suites exts)) →
      Step E G c { c with clientUnique := some random }
  | serverUnique {f ks h random sid suite exts} : c.state = .clientWaitSH f ks h →
      lastRecv c.tr = some (.handshake (.serverHello random sid suite exts)) →
      Step E G c { c with serverUnique := some random }
  | setup {info side} : SetupOk c info side →
      Step E G c { c with cipher := some (CipherSt.new info side) }
  | postInit {k t} : c.cipher = some k → c.transcript.postInit k.info.digest = .ok t →
      ((∃ ks h, c.state = .clientWaitSH true ks h) ∨ c.state = .serverWaitCH true) →
      Step E G c { c with transcript := t }
  | hrrClient {f ks ch random sid suite exts t} : c.state = .clientWaitSH f ks ch →
      lastRecv c.tr = some (.handshake (.helloRetryRequest random sid suite exts)) →
      c.transcript.orderI ≠ 2 →
      c.transcript.hrrDance c.config.side ch = .ok t → (f = true → c.AlgOk) →
      Step E G c { c with transcript := t }
  | hrrServer {random sid suites exts h t c₁ clear nc scheme ks} : c.state = .serverWaitCH true →
      c.tr.head? = some (.recv (.handshake (.clientHello random sid suites exts))) →
      c.transcript.digest E = .ok h → c.AlgOk →
      c.transcript.hrrDance c.config.side h = .ok t →
      c₁.config = c.config → serverNegotiate E exts c₁ = (.ok (clear, [], none), c) →
      c.clientUnique = some random → c.cipher = some ks →
      c.config.cipherSuites.find? suites.contains = some ks.info.id →
      c.nconfig = some nc → c.signature = some scheme →
      (narrowed c.config ks.info.id nc.keyExchange scheme.1).check = .ok () →
      Step E G c { c with transcript := t, state := .serverWaitCH false,
                          config := narrowed c.config ks.info.id nc.keyExchange scheme.1 }
  | skipEarly {k k'} : c.cipher = some k → skipEarly E k = .ok k' →
      Step E G c { c with cipher := some k' }
  | handshakeKeys {k shared hash r k'} : c.inputHandshake = [] → c.cipher = some k → HsOk E c shared hash →
      deriveHandshake E k shared hash = (r, k') →
      Step E G c { c with cipher := some k', tr := keyEvents (handshakeLog E c.logId k shared hash) k k' ++ c.tr }
  | masterKeys {k sf cf r k'} : c.inputHandshake = [] → c.cipher = some k → MsOk E c sf cf →
      deriveMaster E k sf cf = (r, k') →
      Step E G c { c with cipher := some k', tr := keyEvents (masterLog E c.logId k sf cf) k k' ++ c.tr }
  | move {s} : MoveOk E c s → Step E G c { c with state := s }

/-- any number of steps -/
abbrev Steps (E : Env) (G : Conn → Prop) : Conn → Conn → Prop := Relation.ReflTransGen (Step E G)

/-- steps plus the effects of the API methods that the application controls -/
inductive Api (E : Env) (G : Conn → Prop) (c : Conn) : Conn → Prop
  | step {c'} : Step E G c c' → Api E G c c'
  | appended (d : Bytes) : c.state.canReceive = true →
      Api E G c { c with inputData := c.inputData ++ d }
  | read : Api E G c { c with applicationData := [] }
  | drain : Api E G c { c with outputData := [] }
  | closeRecv : Api E G c (closeReceivingEnd c).2
  | closing : Api E G c { c with state := c.state.closing }
  | closedSend {r s} : c.state = .closed r s →
      c.tr.head? = some (.sent (.alert Iana.warning Iana.closeNotify)) →
      Api E G c { c with state := .closed r false }

end Siotls
