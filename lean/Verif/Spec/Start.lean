import Verif.Spec.Schemes
/-!
# A client configuration that can be put in a ClientHello
-/

namespace Siotls.Spec
open Siotls

/-- The configuration of a client that can start: its first group is one of RFC 8446 and the library
can make a key pair for it; what it offers has identifiers of two bytes and a reasonable size; it uses no
raw public keys. -/
structure Presentable (E : Env) (config : Config) (hostname : Option PyStr) : Prop where
  client : config.side = .client
  group : ∃ g, config.keyExchanges.head? = some g ∧ NamedGroup g ∧
    ∀ draw, ∃ priv share, E.kexInit g draw = .ok (priv, share) ∧ share.length ≤ 2048
  suites : config.cipherSuites ≠ [] ∧ config.cipherSuites.length ≤ 1000
  groups : config.keyExchanges.length ≤ 1000 ∧ ∀ g ∈ config.keyExchanges, g < 65536
  schemes : config.signatureAlgorithms.length ≤ 1000 ∧ ∀ s ∈ config.signatureAlgorithms, s < 65536
  protocols : (∀ p ∈ config.alpn, p.length < 256) ∧ (config.alpn.map fun p => 1 + p.length).sum ≤ 4000
  noRaw : config.publicKey = none ∧ config.trustedPublicKeys = []
  /-- a host name that is not an address can be encoded -/
  host : ∀ h, hostname = some h → E.isIp h = false → h.length ≤ 2000 ∧
    ∃ enc, E.idnaEncode h = .ok enc ∧ enc.length ≤ 2000
  limit : config.maxFragmentLength ∈ [512, 1024, 2048, 4096, 16384]

end Siotls.Spec
