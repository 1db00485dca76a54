import Verif.Model.Extensions
/-!
# Which extension may appear where, and which values are legal (RFC 8446 §4.2 and the
extension RFCs), written down independently of the registry and of the codecs.
-/

namespace Siotls.Spec
open Siotls

/-- RFC 8446 §4.2, the table "TLS 1.3 message". (The cookie is also listed for ServerHello
because the code base registers it there, cookie.py.) -/
def allowedIn : Ext → List HsKind
  | .serverNameReq _ => [.clientHello]
  | .serverNameResp => [.encryptedExtensions]
  | .maxFragmentLength _ => [.clientHello, .encryptedExtensions]
  | .ocspStatusReq .. => [.clientHello, .certificateRequest]
  | .ocspStatus _ => [.certificate]
  | .supportedGroups _ => [.clientHello, .encryptedExtensions]
  | .signatureAlgorithms _ => [.clientHello, .certificateRequest]
  | .heartbeat _ => [.clientHello, .encryptedExtensions]
  | .alpn _ => [.clientHello, .encryptedExtensions]
  | .sct => [.clientHello, .certificateRequest, .certificate]
  | .clientCertTypeReq _ => [.clientHello]
  | .clientCertTypeResp _ => [.encryptedExtensions]
  | .serverCertTypeReq _ => [.clientHello]
  | .serverCertTypeResp _ => [.encryptedExtensions]
  | .padding _ => [.clientHello]
  | .pskReq .. => [.clientHello]
  | .pskResp _ => [.serverHello]
  | .earlyData => [.clientHello, .encryptedExtensions]
  | .newSessionEarlyData _ => [.newSessionTicket]
  | .supportedVersionsReq _ => [.clientHello]
  | .supportedVersionsResp _ => [.serverHello, .helloRetryRequest]
  | .cookie _ => [.clientHello, .serverHello, .helloRetryRequest]
  | .pskModes _ => [.clientHello]
  | .oidFilters _ => [.certificateRequest]
  | .postHandshakeAuth => [.clientHello]
  | .signatureAlgorithmsCert _ => [.clientHello, .certificateRequest]
  | .keyShareReq _ => [.clientHello]
  | .keyShareRetry _ => [.helloRetryRequest]
  | .keyShareResp .. => [.serverHello]
  | .unknown .. => [.clientHello, .serverHello, .helloRetryRequest, .newSessionTicket,
      .encryptedExtensions, .certificate, .certificateRequest]

/-- Values that the RFCs allow on the wire, i.e. that a well-behaved user may put in an
extension object. Lengths are not constrained here: the writer refuses what does not fit. -/
def legal (E : Env) : Ext → Prop
  | .serverNameReq (some h) => ∃ enc, E.idnaEncode h = .ok enc ∧ E.idnaDecode enc = some h
  | .maxFragmentLength c => c ∈ [1, 2, 3, 4]                 -- RFC 6066 §4
  | .heartbeat m => m ∈ [1, 2]                               -- RFC 6520 §2
  | .alpn l => ∀ p ∈ l, ∀ c ∈ p, (' '.toNat ≤ c.toNat ∧ c.toNat ≤ '~'.toNat)  -- printable names
  | .clientCertTypeReq l => l ≠ []
  | .serverCertTypeReq l => l ≠ []
  | .clientCertTypeResp t => t ∈ [0, 1, 2, 3]                -- RFC 7250 §6 registry
  | .serverCertTypeResp t => t ∈ [0, 1, 2, 3]
  | .supportedVersionsResp v => v = 0x0304                   -- RFC 8446 §4.2.1
  | .keyShareReq l => (l.map Prod.fst).Nodup                 -- RFC 8446 §4.2.8
  | .keyShareRetry g => g ∈ [0x17, 0x18, 0x19, 0x1D, 0x1E, 0x100, 0x101, 0x102, 0x103, 0x104]
  | .unknown t _ => t ∉ [0, 1, 5, 10, 13, 14, 15, 16, 18, 19, 20, 21, 41, 42, 43, 44, 45, 47, 48,
      49, 50, 51]
  | _ => True

/-- Extension classes whose `serialize` cannot work, as observed in the code base:
`certificate_type.py` (misspelled attribute, instance method declared as classmethod) and
`pre_shared_key.py` (misspelled attribute, wrong length prefixes). Part of the hypotheses of the
`_partial` round-trip theorems; the failures themselves are theorems too. -/
def knownBroken : Ext → Bool
  | .clientCertTypeReq _ | .clientCertTypeResp _ | .serverCertTypeReq _ | .serverCertTypeResp _ => true
  | .pskReq .. => true
  | _ => false

/-- The IDNA encoding of the host name has as many bytes as the name has characters (true of
ASCII names, false of the others): the code writes the latter as the length of the former. -/
def asciiLike (E : Env) : Ext → Prop
  | .serverNameReq (some h) => ∀ enc, E.idnaEncode h = .ok enc → enc.length = h.length
  | _ => True

/-- An extension that must survive a trip inside a message of kind `k`. -/
structure RoundTrips (E : Env) (k : HsKind) (e : Ext) : Prop where
  legal : legal E e
  allowed : k ∈ allowedIn e
  ascii : asciiLike E e
  works : knownBroken e = false

end Siotls.Spec
