import Verif.Model.Exn
/-!
# The environment: code outside siotls

Every external primitive the library calls is a field of `Env`. Theorems quantify over all
environments; the few assumptions needed are explicit hypotheses.
Certificates and keys are identified with opaque byte strings (for certificates: their DER).
-/

namespace Siotls

/-- `hashlib.sha256` / `hashlib.sha384`, the two digests used by the cipher suites
(/repo/src/siotls/crypto/ciphers.py:308-366). -/
inductive HashAlg where
  | sha256
  | sha384
  deriving DecidableEq, Repr

/-- `digestmod().digest_size`. -/
def HashAlg.size : HashAlg → Nat
  | .sha256 => 32
  | .sha384 => 48

inductive Side where
  | client
  | server
  deriving DecidableEq, Repr

/-- `config.other_side`, /repo/src/siotls/configuration.py:102-104. -/
def Side.other : Side → Side
  | .client => .server
  | .server => .client

/-- Subject of a peer verification (states/client/wait_certificate.py:62-77). -/
inductive Subject where
  | anonymous
  | dns (host : PyStr)
  | ip (host : PyStr)
  deriving DecidableEq, Repr

/-- `public_key_algorithm_oid` of a certificate, as far as the signature registry
(/repo/src/siotls/crypto/signatures.py) distinguishes them. -/
inductive PubOid where
  | rsaes
  | rsassaPss
  | ec
  | ed25519
  | ed448
  | other
  deriving DecidableEq, Repr

/-- External functions. A `draw` argument is the index of a random or time-dependent call: the
result of two calls with different indices may differ. -/
structure Env where
  /-- `hashlib.new(name, data).digest()` -/
  hash : HashAlg → Bytes → Bytes
  /-- `hmac.digest(key, msg, digest)` -/
  hmac : HashAlg → (key msg : Bytes) → Bytes
  /-- `Cipher(key).encrypt(nonce, data, associated_data)` for a cipher suite -/
  aeadSeal : (suite : Nat) → (key nonce aad plaintext : Bytes) → Bytes
  /-- `Cipher(key).decrypt(nonce, data, associated_data)`, `none` = InvalidTag -/
  aeadOpen : (suite : Nat) → (key nonce aad ciphertext : Bytes) → Option Bytes
  /-- `TLSKeyExchange[group].init()`: (private key, key share) -/
  kexInit : (group : Nat) → (draw : Nat) → Except Exn (Bytes × Bytes)
  /-- `TLSKeyExchange[group].resume(private, peer_share)` -/
  kexResume : (group : Nat) → (priv peer : Bytes) → Except Exn Bytes
  /-- `TLSSignatureSuite[scheme](private_key).sign(message)` -/
  sign : (scheme : Nat) → (priv msg : Bytes) → (draw : Nat) → Except Exn Bytes
  /-- `TLSSignatureSuite[scheme](public_key).verify(signature, message)` -/
  verify : (scheme : Nat) → (pub sig msg : Bytes) → Except Exn Unit
  /-- `load_der_x509_certificate` -/
  certLoad : Bytes → Except Exn Bytes
  /-- `certificate.public_bytes(Encoding.DER)` -/
  certDer : Bytes → Bytes
  /-- `certificate.public_key()` -/
  certPub : Bytes → Except Exn Bytes
  /-- `certificate.public_key_algorithm_oid` -/
  certOid : Bytes → PubOid
  /-- `load_der_public_key` -/
  pkLoad : Bytes → Except Exn Bytes
  /-- `public_key.public_bytes(DER, SubjectPublicKeyInfo)` -/
  pkDer : Bytes → Bytes
  /-- `idna.encode(host, uts46=True)` -/
  idnaEncode : PyStr → Except Exn Bytes
  /-- `idna.decode(bytes)`, `none` = IDNAError -/
  idnaDecode : Bytes → Option PyStr
  /-- `ip_address(host)` succeeds -/
  isIp : PyStr → Bool
  /-- path validation of the `cryptography` package
  (`PolicyBuilder().store(…).max_chain_depth(…).build_…_verifier(…).verify(leaf, others)`) -/
  verifyChain : (store : Bytes) → (depth : Nat) → Subject → (leaf : Bytes) →
    (others : List Bytes) → (draw : Nat) → Except Exn Unit
  /-- `get_ocsp_url(certificate)`: raises without AIA extension, may be `None` -/
  ocspUrl : (cert : Bytes) → Except Exn (Option Bytes)
  /-- `make_ocsp_request(certificate, issuer)` -/
  ocspRequest : (cert issuer : Bytes) → Bytes
  /-- `service.request(url, request)` -/
  ocspFetch : (url : Option Bytes) → (request : Bytes) → (draw : Nat) → Except Exn Bytes
  /-- `validate_ocsp(issuer, request, response)` (/repo/src/siotls/crypto/ocsp.py:40-91, modelled
  in `Model/Ocsp.lean`) -/
  ocspValidate : (issuer request response : Bytes) → (draw : Nat) → Except Exn Unit

end Siotls
