import Verif.Spec.Interop
import Verif.Spec.Schemes
/-!
# The ClientHello and the Finished of a client of any make

A full handshake without client authentication, written from RFC 8446 section 2 and 4.
-/

namespace Siotls.Spec
open Rfc

/-- What a client says first and how it writes it down: the values, the message, and the pieces of the
message in its records. -/
structure Opening where
  random : Bytes
  sid : Bytes
  suites : List Nat
  exts : List Ext
  share : Bytes
  msg : Bytes
  pieces : List Bytes

/-- the bytes on the wire: plaintext handshake records -/
def Opening.bytes (h : Opening) : Bytes := (h.pieces.map (recordBytes 22)).flatten

/-- The ClientHello of a client that follows RFC 8446, to a server with this configuration; `k` is what
the server prefers among what the client has. -/
structure Proposes (E : Env) (gs : Config) (k : Choice) (h : Opening) : Prop where
  /-- §4.1.2: any session id, any extensions in any order -/
  clientHello : Rfc.Message E (.clientHello h.random h.sid h.suites h.exts) h.msg ∧
    PeerMessage E none (.clientHello h.random h.sid h.suites h.exts)
  sid : h.sid.length ≤ 32
  suite : Preferred gs.cipherSuites (· ∈ h.suites) k.suite
  /-- §4.2.1, among other versions -/
  version : ∃ l, .supportedVersionsReq l ∈ h.exts ∧ 0x0304 ∈ l
  /-- §4.2.7, §4.2.8: the group that the server prefers has a share, among others -/
  group : ∃ l, .supportedGroups l ∈ h.exts ∧ Preferred gs.keyExchanges (· ∈ l) k.group
  share : ∃ l, .keyShareReq l ∈ h.exts ∧ (k.group, h.share) ∈ l
  /-- §4.2.3 -/
  scheme : ∃ l, .signatureAlgorithms l ∈ h.exts ∧
    Preferred gs.signatureAlgorithms (fun s => Fit (E.certOid k.leaf) s ∧ s ∈ l) k.scheme
  /-- RFC 7301 §3.2: a protocol in common, if both sides care -/
  protocol : ∀ l, .alpn l ∈ h.exts → gs.alpn = [] ∨ ∃ p ∈ gs.alpn, p ∈ l
  /-- no other fragment length, no other kind of certificate -/
  plain : ∀ e ∈ h.exts, extensionCode e ∉ [1, 20]
  /-- §5.1: records not larger than the default of the protocol, none empty; the header of the message
  is in one piece -/
  cut : h.pieces.flatten = h.msg ∧ (∀ p ∈ h.pieces, p ≠ [] ∧ p.length ≤ 16384) ∧
    ∃ first rest, h.pieces = first :: rest ∧ 4 ≤ first.length

/-- A server that has a chain, default fragments and no demands on the client, and whose library makes
key shares and signatures. -/
structure Admits (E : Env) (gs : Config) (k : Choice) (priv share : Bytes) : Prop where
  side : gs.side = .server
  chain : gs.certificateChain = some (k.leaf :: k.rest)
  anonymous : gs.trustStore = none ∧ gs.trustedPublicKeys = []
  limit : gs.maxFragmentLength = 16384
  usable : k.suite ∈ [0x1301, 0x1302, 0x1303]
  group : NamedGroup k.group
  names : ∀ p ∈ gs.alpn, p.length < 256
  small : ((k.leaf :: k.rest).map fun c => (E.certDer c).length + 5).sum ≤ 15900
  generates : E.kexInit k.group 0 = .ok (priv, share) ∧ share.length ≤ 2048
  signs : ∀ msg, ∃ sig, E.sign k.scheme (gs.privateKey.getD []) msg 1 = .ok sig ∧ sig.length ≤ 15000

/-- The reply of the server is one that RFC 8446 asks for. -/
structure Responds (E : Env) (gs : Config) (info : SuiteInfo) (k : Choice) (h : Opening) (share z : Bytes)
    (y : Reply) : Prop where
  /-- §4.1.3: the session id is echoed -/
  serverHello : Rfc.Message E (.serverHello y.random h.sid k.suite y.hello) y.sh
  version : .supportedVersionsResp 0x0304 ∈ y.hello
  share : .keyShareResp k.group share ∈ y.hello
  twoExtensions : y.hello.length = 2
  /-- §4.2: only answers to what the client sent -/
  encryptedExtensions : Rfc.Message E (.encryptedExtensions y.encrypted) y.ee
  asked : ∀ e ∈ y.encrypted, extensionCode e ∈ h.exts.map extensionCode
  protocol : ∀ ps, .alpn ps ∈ y.encrypted →
    ∃ p l, ps = [p] ∧ .alpn l ∈ h.exts ∧ Preferred gs.alpn (· ∈ l) p
  certificate : Rfc.Message E (.certificate [] ((k.leaf :: k.rest).map (.x509 · []))) y.ct
  certificateVerify : Rfc.Message E (.certificateVerify k.scheme y.sig) y.cv
  signature : E.sign k.scheme (gs.privateKey.getD [])
    (signedContent ((E.spec info.digest).hash (h.msg ++ y.sh ++ y.ee ++ y.ct))) 1 = .ok y.sig
  finished : Rfc.Message E (.finished ((E.spec info.digest).hmac
    ((E.spec info.digest).finishedKey (y.secret E info h.msg z))
      ((E.spec info.digest).hash (h.msg ++ y.sh ++ y.ee ++ y.ct ++ y.cv)))) y.fin

/-- the messages of the handshake up to the Finished of the server -/
def Reply.upToFinished (y : Reply) (h : Opening) : Bytes := h.msg ++ y.sh ++ y.ee ++ y.ct ++ y.cv ++ y.fin

/-- the secret of the client's handshake records, RFC 8446 §7.1 -/
def Reply.theirSecret (y : Reply) (E : Env) (info : SuiteInfo) (h : Opening) (z : Bytes) : Bytes :=
  (E.spec info.digest).cHs z ((E.spec info.digest).hash (h.msg ++ y.sh))

/-- §4.4.4: the Finished of the client -/
def Finishes (E : Env) (info : SuiteInfo) (h : Opening) (y : Reply) (z fin : Bytes) : Prop :=
  Rfc.Message E (.finished ((E.spec info.digest).hmac ((E.spec info.digest).finishedKey
    (y.theirSecret E info h z)) ((E.spec info.digest).hash (y.upToFinished h)))) fin

/-- The server came out of the handshake as the RFC has it. -/
structure Admitted (E : Env) (info : SuiteInfo) (k : Choice) (h : Opening) (y : Reply) (z : Bytes) (s : Conn) :
    Prop where
  state : s.state = .connected
  nothingLeft : s.inputData = [] ∧ s.inputHandshake = [] ∧ s.applicationData = [] ∧ s.outputData = []
  terms : ∃ n, s.nconfig = some n ∧ n.cipherSuite = some k.suite ∧ n.keyExchange = some k.group ∧
    (∃ p, n.alpn = some p ∧ ∀ q, p = some q ↔ .alpn [q] ∈ y.encrypted) ∧
    ∃ b, n.canSendHeartbeat = some b ∧ (b = true ↔ .heartbeat 1 ∈ h.exts)
  keys : ∃ c, s.cipher = some c ∧ c.info = info ∧
    c.rd = ⟨some ((E.spec info.digest).writeKey ((E.spec info.digest).cAp z ((E.spec info.digest).hash
        (y.upToFinished h))) info.keyLength),
      some ((E.spec info.digest).writeIv ((E.spec info.digest).cAp z ((E.spec info.digest).hash
        (y.upToFinished h))) 12), some 0⟩ ∧
    c.wr = ⟨some ((E.spec info.digest).writeKey ((E.spec info.digest).sAp z ((E.spec info.digest).hash
        (y.upToFinished h))) info.keyLength),
      some ((E.spec info.digest).writeIv ((E.spec info.digest).sAp z ((E.spec info.digest).hash
        (y.upToFinished h))) 12), some 0⟩

end Siotls.Spec
