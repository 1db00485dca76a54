import Verif.Spec.Negotiation
/-!
# The extensions of the handshake messages, and the certificates
-/

namespace Siotls.Spec
open Siotls

/-- the kinds of certificates (RFC 7250 §3: 0 X.509, 2 raw public key) an endpoint can present, best
first -/
def ownKinds (config : Config) : List Nat :=
  (match config.certificateChain with | some (_ :: _) => [0] | _ => []) ++
  (match config.publicKey with | some _ => [2] | none => [])

/-- the kinds of certificates an endpoint can check, best first -/
def peerKinds (config : Config) : List Nat :=
  (match config.trustStore with | some _ => [0] | none => []) ++
  (match config.trustedPublicKeys with | _ :: _ => [2] | [] => [])

/-- the mode of the heartbeat extension (RFC 6520 §2): 1 peer_allowed_to_send, 2
peer_not_allowed_to_send -/
def heartbeatMode (config : Config) : Nat := if config.canEchoHeartbeat then 1 else 2

/-- the extensions of the ClientHello of a client, but the shares, when it offers these groups and
sends this cookie back (if not empty) -/
inductive Asks (E : Env) (config : Config) (hostname : Option PyStr) (groups : List Nat)
    (cookie : Bytes) : Ext → Prop
  | versions : Asks E config hostname groups cookie (.supportedVersionsReq [0x0304])
  | schemes : Asks E config hostname groups cookie
      (.signatureAlgorithms config.signatureAlgorithms)
  | groups : Asks E config hostname groups cookie (.supportedGroups groups)
  | heartbeat : Asks E config hostname groups cookie (.heartbeat (heartbeatMode config))
  | name {h : PyStr} : hostname = some h → h ≠ [] → E.isIp h = false →
      Asks E config hostname groups cookie (.serverNameReq (some h))
  | alpn : config.alpn ≠ [] → Asks E config hostname groups cookie (.alpn config.alpn)
  | ownKind {k} : config.publicKey = some k →
      Asks E config hostname groups cookie (.clientCertTypeReq (ownKinds config))
  | peerKind : config.trustedPublicKeys ≠ [] →
      Asks E config hostname groups cookie (.serverCertTypeReq (peerKinds config))
  | status {store} : config.trustStore = some store →
      Asks E config hostname groups cookie (.ocspStatusReq [] [])
  | cookie : cookie ≠ [] → Asks E config hostname groups cookie (.cookie cookie)

/-- the cookie of a HelloRetryRequest, empty if it has none -/
def CookieOf (exts : List Ext) (cookie : Bytes) : Prop :=
  .cookie cookie ∈ exts ∨ cookie = [] ∧ ∀ k, .cookie k ∉ exts

/-- the endpoint authenticates its peer -/
def Authenticates (config : Config) : Prop :=
  config.trustStore ≠ none ∨ config.trustedPublicKeys ≠ []

/-- an extension of EncryptedExtensions that answers the extensions of a ClientHello -/
inductive Answers (config : Config) (hello : List Ext) : Ext → Prop
  | clientKind {l t} : Authenticates config → .clientCertTypeReq l ∈ hello →
      Preferred (peerKinds config) (· ∈ l) t → Answers config hello (.clientCertTypeResp t)
  | serverKind {l t} : .serverCertTypeReq l ∈ hello → Preferred (ownKinds config) (· ∈ l) t →
      Answers config hello (.serverCertTypeResp t)
  | fragment {code} : .maxFragmentLength code ∈ hello → Answers config hello (.maxFragmentLength code)
  | alpn {l p} : .alpn l ∈ hello → Preferred config.alpn (· ∈ l) p → Answers config hello (.alpn [p])
  | heartbeat {m} : .heartbeat m ∈ hello →
      Answers config hello (.heartbeat (heartbeatMode config))

/-- the numbers of the extensions that a server for `config` answers in EncryptedExtensions (the IANA
registry: 1 max_fragment_length, 15 heartbeat, 16 alpn, 19 and 20 client_ and
server_certificate_type) -/
def Answerable (config : Config) (t : Nat) : Prop :=
  t = 1 ∨ t = 15 ∨ t = 16 ∧ config.alpn ≠ [] ∨ t = 19 ∧ Authenticates config ∨ t = 20

/-- the rights about heartbeats of an endpoint whose peer sent these extensions: it may send iff its
peer's mode is 1, and echoes as configured; none at all without the extension -/
def Heartbeats (config : Config) (exts : List Ext) (nc : NConfig) : Prop :=
  (∃ m, .heartbeat m ∈ exts ∧ nc.canSendHeartbeat = some (m == 1) ∧
    nc.canEchoHeartbeat = some config.canEchoHeartbeat) ∨
  (∀ m, .heartbeat m ∉ exts) ∧ nc.canSendHeartbeat = some false ∧ nc.canEchoHeartbeat = some false

/-- the kind of certificate a server for `config` presents to a client with this hello -/
def Presents (config : Config) (hello : List Ext) (t : Nat) : Prop :=
  (∃ l, .serverCertTypeReq l ∈ hello ∧ Preferred (ownKinds config) (· ∈ l) t) ∨
  (∀ l, .serverCertTypeReq l ∉ hello) ∧ t = 0 ∧ 0 ∈ ownKinds config

/-- the response `res` was fetched about the certificate `leaf` and its validation gave `verdict` -/
def Fetched (E : Env) (leaf issuer res : Bytes) (verdict : Except Exn Unit) : Prop :=
  ∃ url d d', E.ocspUrl leaf = .ok url ∧ E.ocspFetch url (E.ocspRequest leaf issuer) d = .ok res ∧
    E.ocspValidate issuer (E.ocspRequest leaf issuer) res d' = verdict

/-- the extensions of the leaf certificate: a response about its status (RFC 6066 §8: extension 5)
iff the client asked for one, there is an OCSP service, the chain has an issuer and the response
fetched is valid -/
inductive Stapled (E : Env) (ocsp : Bool) (hello : List Ext) (leaf : Bytes) :
    List Bytes → List Ext → Prop
  | unasked {rest} : (∀ e ∈ hello, e.type ≠ 5) → Stapled E ocsp hello leaf rest []
  | off {rest} : ocsp = false → Stapled E ocsp hello leaf rest []
  | alone : Stapled E ocsp hello leaf [] []
  | invalid {issuer rest res} : Fetched E leaf issuer res (.error .valueError) →
      Stapled E ocsp hello leaf (issuer :: rest) []
  | valid {issuer rest res e} : e ∈ hello → e.type = 5 → ocsp = true →
      Fetched E leaf issuer res (.ok ()) →
      Stapled E ocsp hello leaf (issuer :: rest) [.ocspStatus res]

/-- the entries of the Certificate message of a server -/
inductive Certifies (E : Env) (config : Config) (ocsp : Bool) (hello : List Ext) :
    Nat → List CertEntry → Prop
  | rawKey {k} : config.publicKey = some k → Certifies E config ocsp hello 2 [.rawKey k []]
  | chain {leaf rest exts} : config.certificateChain = some (leaf :: rest) →
      Stapled E ocsp hello leaf rest exts →
      Certifies E config ocsp hello 0 (.x509 leaf exts :: rest.map (.x509 · []))

end Siotls.Spec
