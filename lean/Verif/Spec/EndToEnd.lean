import Verif.Spec.Record
import Verif.Spec.KeySchedule
import Verif.Spec.Lifecycle
import Verif.Spec.Negotiation
/-!
# A client and a server made for each other
-/

namespace Siotls

/-- The same environment where key generation and signing draw other random values: the environment
of the peer, on another machine with another random source. -/
def Env.elsewhere (E : Env) (kex : Nat → Nat → Except Exn (Bytes × Bytes))
    (sign : Nat → Bytes → Bytes → Nat → Except Exn Bytes) : Env :=
  { E with kexInit := kex, sign := sign }

namespace Spec

/-- what a deployment settles: the suite, group, signature scheme and certificate chain -/
structure Choice where
  suite : Nat
  group : Nat
  scheme : Nat
  leaf : Bytes
  rest : List Bytes

/-- whom the certificate must name: an address or a host name when the client gave one -/
def identity (E : Env) : Option PyStr → Subject
  | none => .anonymous
  | some [] => .anonymous
  | some (ch :: h) => if E.isIp (ch :: h) then .ip (ch :: h) else .dns (ch :: h)

/-- A client configuration and a server configuration that share a cipher suite, the client's first
group and a signature scheme fitting the server's certificate; `k` is what the server's order of
preference makes of it. -/
structure Partners (E : Env) (gc gs : Config) (host : Option PyStr) (k : Choice) : Prop where
  client : gc.side = .client
  server : gs.side = .server
  /-- the first suite of the server that the client has -/
  suite : gs.cipherSuites.find? gc.cipherSuites.contains = some k.suite
  /-- the first group of the client, that the server has -/
  group : gc.keyExchanges.head? = some k.group ∧ k.group ∈ gs.keyExchanges
  chain : gs.certificateChain = some (k.leaf :: k.rest)
  /-- the first scheme of the server that fits its key and that the client has -/
  scheme : ∃ before after, gs.signatureAlgorithms = before ++ k.scheme :: after ∧
    (Fit (E.certOid k.leaf) k.scheme ∧ k.scheme ∈ gc.signatureAlgorithms) ∧
    ∀ s ∈ before, ¬ (Fit (E.certOid k.leaf) s ∧ s ∈ gc.signatureAlgorithms)
  /-- the server has no demand on the client -/
  anonymous : gs.trustStore = none ∧ gs.trustedPublicKeys = []
  /-- one side does not care about the application protocol, or they have one in common -/
  protocols : gc.alpn = [] ∨ gs.alpn = [] ∨ ∃ p ∈ gs.alpn, p ∈ gc.alpn
  /-- the chain of the server verifies for the client and nothing is revoked -/
  trusted : ∀ store draw, gc.trustStore = some store →
    E.verifyChain store gc.maxChainDepth (identity E host) k.leaf k.rest draw = .ok () ∧
    (gc.revocationList = none ∨ gc.revocationList = some [])

/-- The configurations that are known to work together. -/
structure Compatible (E : Env) (gc gs : Config) (host : Option PyStr) (k : Choice) : Prop
    extends Partners E gc gs host k where
  /-- the client takes records of 4096 bytes, the server has the default fragment length -/
  limits : (gc.maxFragmentLength = 4096 ∨ gc.maxFragmentLength = 16384) ∧ gs.maxFragmentLength = 16384
  /-- the suite is AES-GCM or ChaCha20-Poly1305 -/
  usable : k.suite ∈ [0x1301, 0x1302, 0x1303]
  /-- the server prefers no other group of the client -/
  preferred : gs.keyExchanges.find? gc.keyExchanges.contains = some k.group
  /-- the client uses certificates, not raw public keys -/
  noRaw : gc.publicKey = none ∧ gc.trustedPublicKeys = []
  /-- the protocols of the client have printable names of less than 256 bytes -/
  names : ∀ p ∈ gc.alpn, p.length < 256 ∧ ∀ c ∈ p, ' '.toNat ≤ c.toNat ∧ c.toNat ≤ '~'.toNat
  /-- the host name, unless it is an address, is ASCII -/
  ascii : ∀ h, host = some h → E.isIp h = false →
    ∃ enc, E.idnaEncode h = .ok enc ∧ E.idnaDecode enc = some h ∧ enc.length = h.length

/-- A cryptographic library that works: digests and MACs have their length, the AEADs open what they
seal, both ends of the key exchange get the same secret, and what is signed with the key of the
certificate verifies. -/
structure Library (E : Env) (kex : Nat → Nat → Except Exn (Bytes × Bytes))
    (sign : Nat → Bytes → Bytes → Nat → Except Exn Bytes) (key : Bytes) (k : Choice) : Prop where
  sized : E.Sized
  opens : E.Opens
  seals : E.Seals
  agrees : ∀ d d' a pa b pb, E.kexInit k.group d = .ok (a, pa) → kex k.group d' = .ok (b, pb) →
    ∃ z, z ≠ [] ∧ E.kexResume k.group a pb = .ok z ∧ E.kexResume k.group b pa = .ok z
  generates : ∀ d, ∃ b pb, kex k.group d = .ok (b, pb) ∧ pb.length ≤ 2048
  signs : ∃ pub, E.certPub k.leaf = .ok pub ∧ ∀ msg d, ∃ sig, sign k.scheme key msg d = .ok sig ∧
    sig.length ≤ 15000 ∧ E.verify k.scheme pub sig msg = .ok ()
  loads : ∀ c ∈ k.leaf :: k.rest, E.certLoad (E.certDer c) = .ok c
  /-- the Certificate message fits in one record -/
  small : ((k.leaf :: k.rest).map fun c => (E.certDer c).length + 5).sum ≤ 15900

/-- The OCSP services, where an end has one, get the chain of the server through: the response that
the server staples is valid to everybody or to nobody (then the server leaves it out) and fits in the
Certificate message with the chain, and the client finds every certificate without responder or its
responder vouching for it. -/
structure Vouched (E : Env) (ocspC ocspS : Bool) (gc : Config) (chain : List Bytes) : Prop where
  /-- the server, asked by the client, for its own certificate -/
  staple : ocspS = true → gc.trustStore.isSome = true → ∀ subject issuer rest,
    chain = subject :: issuer :: rest → ∃ url, E.ocspUrl subject = .ok url ∧
      ∀ d, ∃ res, E.ocspFetch url (E.ocspRequest subject issuer) d = .ok res ∧
        (chain.map fun c => (E.certDer c).length + 5).sum + res.length + 8 ≤ 15900 ∧
        ((∀ d', E.ocspValidate issuer (E.ocspRequest subject issuer) res d' = .ok ()) ∨
          ∀ d', E.ocspValidate issuer (E.ocspRequest subject issuer) res d' = .error .valueError)
  /-- the client, for every certificate but the last -/
  lookup : ocspC = true → gc.trustStore.isSome = true → ∀ before subject issuer after,
    chain = before ++ subject :: issuer :: after → ∃ url, E.ocspUrl subject = .ok url ∧
      (url = none ∨ url = some [] ∨
        ∀ d, ∃ res, E.ocspFetch url (E.ocspRequest subject issuer) d = .ok res ∧
          ∀ d', E.ocspValidate issuer (E.ocspRequest subject issuer) res d' = .ok ())

/-- without OCSP service there is nothing to ask for -/
theorem Vouched.off {E : Env} {gc : Config} {chain : List Bytes} : Vouched E false false gc chain :=
  ⟨fun h => absurd h (by simp), fun h => absurd h (by simp)⟩

/-- `xs` cuts `d` into non-empty chunks -/
def Cuts (xs : List Bytes) (d : Bytes) : Prop := xs.flatten = d ∧ xs ≠ [] ∧ ∀ x ∈ xs, x ≠ []

/-- Both ends are connected, nothing received is left aside, they negotiated the same parameters,
hashed the same handshake and hold mirrored keys that were not used yet. -/
structure Established (c s : Conn) (gc gs : Config) (k : Choice) : Prop where
  states : c.state = .connected ∧ s.state = .connected
  inputs : c.inputData = [] ∧ s.inputData = [] ∧ c.inputHandshake = [] ∧ s.inputHandshake = []
  app : c.applicationData = [] ∧ s.applicationData = []
  limits : c.mfl = 16384 ∧ s.mfl = 16384
  agreed : ∃ nc ns, c.nconfig = some nc ∧ s.nconfig = some ns ∧
    nc.cipherSuite = some k.suite ∧ ns.cipherSuite = some k.suite ∧
    nc.keyExchanges = some k.group ∧ ns.keyExchange = some k.group ∧
    nc.signatureAlgorithm = some k.scheme ∧ s.signature.map Prod.fst = some k.scheme ∧
    nc.peerCertificate = some k.leaf ∧
    nc.alpn = ns.alpn ∧ nc.alpn = some (gs.alpn.find? gc.alpn.contains) ∧
    nc.maxFragmentLength = ns.maxFragmentLength ∧
    nc.canSendHeartbeat = ns.canEchoHeartbeat ∧ nc.canEchoHeartbeat = ns.canSendHeartbeat
  randoms : c.clientUnique = s.clientUnique ∧ c.serverUnique = s.serverUnique ∧
    c.clientUnique.isSome = true ∧ c.serverUnique.isSome = true
  transcripts : c.transcript = s.transcript
  keys : ∃ x y, c.cipher = some x ∧ s.cipher = some y ∧ x.info = y.info ∧ x.info.id = k.suite ∧
    suiteInfo x.info.id = some x.info ∧
    x.wr = y.rd ∧ y.wr = x.rd ∧ x.wr.key ≠ none ∧ y.wr.key ≠ none ∧
    x.wr.iv ≠ none ∧ y.wr.iv ≠ none ∧ x.wr.seq = some 0 ∧ y.wr.seq = some 0

/-- Whatever `a` sends with any number of calls of `send_data` (each at most 16366 bytes), `b` gets:
every call returns, and however the bytes are cut for `receive_data` and whenever `b` reads or drains,
nothing raises and `b` reads the bytes sent. -/
def Talks (E : Env) (a : Conn) (E' : Env) (b : Conn) : Prop :=
  ∀ payloads : List Bytes, (∀ d ∈ payloads, d.length ≤ 16366) → payloads.length < 10000000 →
    ∃ a' w, SendsData E a payloads a' ∧ a'.outputData = a.outputData ++ w ∧
      ∀ ops, Passive ops → (chunks ops).flatten = w →
        (∀ o ∈ outcomes E' ops b, raised o = false) ∧
        collected E' .read ops b ++ (runOps E' ops b).applicationData = payloads.flatten

/-- A client that started and a server that started complete the handshake, however the bytes of each
flight are cut on the way (each flight has bytes), and can then talk both ways. -/
def Completes (E E' : Env) (c₁ s₁ : Conn) (gc gs : Config) (k : Choice) : Prop :=
  c₁.outputData ≠ [] ∧ ∀ xs, Cuts xs c₁.outputData →
  ∃ s₂, feed E' xs s₁ = (.ok (), s₂) ∧ s₂.outputData ≠ [] ∧
  ∀ ys, Cuts ys s₂.outputData →
  ∃ c₂, feed E ys (Op.drain.run E c₁).2 = (.ok (), c₂) ∧ c₂.state = .connected ∧ c₂.outputData ≠ [] ∧
  ∀ zs, Cuts zs c₂.outputData →
  ∃ s₃, feed E' zs (Op.drain.run E' s₂).2 = (.ok (), s₃) ∧
    s₃.outputData = [] ∧ Established c₂ s₃ gc gs k ∧ Talks E c₂ E' s₃ ∧ Talks E' s₃ E c₂

/-- the scheme that the default preferences give for a kind of key -/
def firstFit : PubOid → Nat
  | .ed25519 => 0x0807
  | .ed448 => 0x0808
  | .ec => 0x0403
  | .rsassaPss => 0x0809
  | .rsaes => 0x0804
  | .other => 0

end Spec

end Siotls
