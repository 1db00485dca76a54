import Verif.Spec.KeySchedule
/-!
# RFC 8446 section 7.1 with a pre-shared key

The key schedule of `Spec/KeySchedule.lean`, with the early secret taken from a pre-shared key.
-/

namespace Siotls.Spec

/-- RFC 8446 section 4.2.11: a key provisioned outside of TLS, or established by an earlier
connection. -/
inductive Psk where
  | external
  | resumption
  deriving DecidableEq

/-- The label of the binder key. -/
def Psk.binder : Psk → String
  | .external => "ext binder"
  | .resumption => "res binder"

namespace Hash

/-- Early Secret = HKDF-Extract(0, PSK). -/
def earlyWith (H : Hash) (psk : Bytes) : Bytes := H.extract H.zero psk
/-- binder_key; the context is the hash of the empty string. -/
def binderKey (H : Hash) (psk : Bytes) (p : Psk) : Bytes :=
  H.deriveSecret (H.earlyWith psk) p.binder (H.hash [])
/-- client_early_traffic_secret; `th` = hash of the ClientHello. -/
def cEarly (H : Hash) (psk th : Bytes) : Bytes := H.deriveSecret (H.earlyWith psk) "c e traffic" th
/-- early_exporter_master_secret; `th` = hash of the ClientHello. -/
def earlyExporter (H : Hash) (psk th : Bytes) : Bytes :=
  H.deriveSecret (H.earlyWith psk) "e exp master" th
/-- Handshake Secret -/
def handshakeWith (H : Hash) (psk ecdhe : Bytes) : Bytes :=
  H.extract (H.deriveSecret (H.earlyWith psk) "derived" (H.hash [])) ecdhe
/-- Master Secret -/
def masterWith (H : Hash) (psk ecdhe : Bytes) : Bytes :=
  H.extract (H.deriveSecret (H.handshakeWith psk ecdhe) "derived" (H.hash [])) H.zero

end Hash
end Siotls.Spec
