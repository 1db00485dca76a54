import Verif.Spec.EndToEnd
import Verif.Spec.Encoding
import Verif.Spec.Auth
/-!
# The reply of a server of any make

A full handshake without client authentication, written from RFC 8446 section 2 and 4.
-/

namespace Siotls.Spec
open Rfc

/-- RFC 8446 §5.2: the `n`-th record under a traffic secret, with `pad` bytes of padding. -/
def sealedUnder (E : Env) (info : SuiteInfo) (secret : Bytes) (n type : Nat) (content : Bytes) (pad : Nat) : Bytes :=
  let inner := content ++ [UInt8.ofNat type] ++ List.replicate pad 0
  recordBytes 23 (E.aeadSeal info.id ((E.spec info.digest).writeKey secret info.keyLength)
    (xorBytes ((E.spec info.digest).writeIv secret 12) (beEnc info.nonceLength n))
    ([23, 3, 3] ++ be16 (inner.length + info.tagLength)) inner)

/-- What a server chose and how it wrote it down: the values, the five messages, whether it sends the
change_cipher_spec of middlebox compatibility, and how it pads its records. -/
structure Reply where
  random : Bytes
  suite : Nat
  hello : List Ext
  share : Bytes
  encrypted : List Ext
  leaf : Bytes
  rest : List Bytes
  scheme : Nat
  sig : Bytes
  sh : Bytes
  ee : Bytes
  ct : Bytes
  cv : Bytes
  fin : Bytes
  ccs : Bool
  pad : Nat → Nat

/-- the secret of the server's handshake records, RFC 8446 §7.1 -/
def Reply.secret (r : Reply) (E : Env) (info : SuiteInfo) (ch z : Bytes) : Bytes :=
  (E.spec info.digest).sHs z ((E.spec info.digest).hash (ch ++ r.sh))

/-- the bytes on the wire: the ServerHello in clear, the other messages in a protected record each -/
def Reply.bytes (r : Reply) (E : Env) (info : SuiteInfo) (ch z : Bytes) : Bytes :=
  recordBytes 22 r.sh ++ ((if r.ccs then recordBytes 20 [1] else []) ++
    (sealedUnder E info (r.secret E info ch z) 0 22 r.ee (r.pad 0) ++
    (sealedUnder E info (r.secret E info ch z) 1 22 r.ct (r.pad 1) ++
    (sealedUnder E info (r.secret E info ch z) 2 22 r.cv (r.pad 2) ++
      sealedUnder E info (r.secret E info ch z) 3 22 r.fin (r.pad 3)))))

/-- The reply of a server that follows RFC 8446, to a client with this configuration that sent the
ClientHello `ch` with a share of group `g`; `z` is the secret of the key exchange. -/
structure Conforms (E : Env) (gc : Config) (info : SuiteInfo) (g : Nat) (ch z : Bytes) (r : Reply) : Prop where
  /-- §4.1.3: a suite of the client, TLS 1.3, a share of the same group -/
  serverHello : Rfc.Message E (.serverHello r.random [] r.suite r.hello) r.sh ∧
    PeerMessage E none (.serverHello r.random [] r.suite r.hello)
  suite : r.suite ∈ gc.cipherSuites
  version : .supportedVersionsResp 0x0304 ∈ r.hello
  share : .keyShareResp g r.share ∈ r.hello
  /-- §4.3.1, any extensions but answers to what this client does not ask (fragment length and
  certificate types); RFC 7301 §3.1: one protocol, of those offered -/
  encryptedExtensions : Rfc.Message E (.encryptedExtensions r.encrypted) r.ee ∧
    PeerMessage E none (.encryptedExtensions r.encrypted)
  unasked : ∀ e ∈ r.encrypted, extensionCode e ∉ [1, 19, 20]
  protocol : ∀ ps, .alpn ps ∈ r.encrypted → ∃ p ∈ gc.alpn, ps = [p]
  /-- §4.4.2: the chain -/
  certificate : Rfc.Message E (.certificate [] ((r.leaf :: r.rest).map (.x509 · []))) r.ct
  loads : ∀ c ∈ r.leaf :: r.rest, E.certLoad (E.certDer c) = .ok c
  /-- §4.4.3: a scheme of the client that fits the key, a valid signature of the messages so far -/
  certificateVerify : Rfc.Message E (.certificateVerify r.scheme r.sig) r.cv
  scheme : r.scheme ∈ gc.signatureAlgorithms ∧ Fit (E.certOid r.leaf) r.scheme
  signature : ∃ pub, E.certPub r.leaf = .ok pub ∧ E.verify r.scheme pub r.sig
    (signedContent ((E.spec info.digest).hash (ch ++ r.sh ++ r.ee ++ r.ct))) = .ok ()
  /-- §4.4.4 -/
  finished : Rfc.Message E (.finished ((E.spec info.digest).hmac
    ((E.spec info.digest).finishedKey (r.secret E info ch z))
      ((E.spec info.digest).hash (ch ++ r.sh ++ r.ee ++ r.ct ++ r.cv)))) r.fin
  /-- §5.1, §5.2: the records are not larger than the client takes; from EncryptedExtensions on that
  is the default of the protocol -/
  fits : r.sh.length ≤ gc.maxFragmentLength ∧
    r.ee.length + 1 + r.pad 0 + info.tagLength ≤ gc.maxFragmentLength + 256 ∧
    r.ct.length + 1 + r.pad 1 + info.tagLength ≤ 16384 + 256 ∧
    r.cv.length + 1 + r.pad 2 + info.tagLength ≤ 16384 + 256 ∧
    r.fin.length + 1 + r.pad 3 + info.tagLength ≤ 16384 + 256

/-- The client believes in the chain: it has no demands, or the chain verifies, nothing is revoked and
OCSP has no objection. -/
structure Believes (E : Env) (gc : Config) (host : Option PyStr) (ocsp : Bool) (leaf : Bytes) (rest : List Bytes) :
    Prop where
  noRaw : gc.trustedPublicKeys = []
  trusted : ∀ store draw, gc.trustStore = some store →
    E.verifyChain store gc.maxChainDepth (identity E host) leaf rest draw = .ok () ∧
    (gc.revocationList = none ∨ gc.revocationList = some [])
  vouched : Vouched E ocsp false gc (leaf :: rest)

/-- The client came out of the handshake as the RFC has it: it is connected, sends its Finished under
the handshake keys, agreed to what the server chose, and has the application keys of section 7. -/
structure Agreed (E : Env) (info : SuiteInfo) (g : Nat) (ch z : Bytes) (r : Reply) (c : Conn) : Prop where
  state : c.state = .connected
  nothingLeft : c.inputData = [] ∧ c.inputHandshake = [] ∧ c.applicationData = []
  answer : ∃ fin pad, Rfc.Message E (.finished ((E.spec info.digest).hmac ((E.spec info.digest).finishedKey
      ((E.spec info.digest).cHs z ((E.spec info.digest).hash (ch ++ r.sh))))
        ((E.spec info.digest).hash (ch ++ r.sh ++ r.ee ++ r.ct ++ r.cv ++ r.fin)))) fin ∧
    c.outputData = recordBytes 20 [1] ++ sealedUnder E info
      ((E.spec info.digest).cHs z ((E.spec info.digest).hash (ch ++ r.sh))) 0 22 fin pad
  terms : ∃ n, c.nconfig = some n ∧ n.cipherSuite = some r.suite ∧ n.keyExchanges = some g ∧
    n.signatureAlgorithm = some r.scheme ∧ n.peerCertificate = some r.leaf ∧
    (∃ p, n.alpn = some p ∧ ∀ q, p = some q ↔ .alpn [q] ∈ r.encrypted) ∧
    ∃ b, n.canSendHeartbeat = some b ∧ (b = true ↔ .heartbeat 1 ∈ r.encrypted)
  keys : ∃ k, c.cipher = some k ∧ k.info = info ∧
    k.rd = ⟨some ((E.spec info.digest).writeKey ((E.spec info.digest).sAp z ((E.spec info.digest).hash
        (ch ++ r.sh ++ r.ee ++ r.ct ++ r.cv ++ r.fin))) info.keyLength),
      some ((E.spec info.digest).writeIv ((E.spec info.digest).sAp z ((E.spec info.digest).hash
        (ch ++ r.sh ++ r.ee ++ r.ct ++ r.cv ++ r.fin))) 12), some 0⟩ ∧
    k.wr = ⟨some ((E.spec info.digest).writeKey ((E.spec info.digest).cAp z ((E.spec info.digest).hash
        (ch ++ r.sh ++ r.ee ++ r.ct ++ r.cv ++ r.fin))) info.keyLength),
      some ((E.spec info.digest).writeIv ((E.spec info.digest).cAp z ((E.spec info.digest).hash
        (ch ++ r.sh ++ r.ee ++ r.ct ++ r.cv ++ r.fin))) 12), some 0⟩

end Siotls.Spec
