import Verif.Spec.Veil
import Verif.Spec.Auth
/-!
# The use of a private key
-/

namespace Siotls.Spec

/-- a connection without its private key: neither in the configuration nor with the scheme it signs with -/
def keyless (c : Conn) : Conn :=
  { c with config := { c.config with privateKey := none }, signature := c.signature.map fun p => (p.1, []) }

/-- Two keys that sign the same CertificateVerify messages of servers (RFC 8446 section 4.4.3), whatever
the scheme, the transcript hash and the random bytes used; nothing is said of other messages. -/
def SignAlike (E : Env) (k k' : Bytes) : Prop :=
  ∀ scheme hash random,
    E.sign scheme k (signedContent hash) random = E.sign scheme k' (signedContent hash) random

end Siotls.Spec
