import Verif.Spec.Negotiation
/-!
# The groups and signature schemes of RFC 8446
-/

namespace Siotls.Spec

/-- the groups of RFC 8446 §4.2.7 -/
inductive NamedGroup : Nat → Prop
  | secp256r1 : NamedGroup 0x0017
  | secp384r1 : NamedGroup 0x0018
  | secp521r1 : NamedGroup 0x0019
  | x25519 : NamedGroup 0x001d
  | x448 : NamedGroup 0x001e
  | ffdhe2048 : NamedGroup 0x0100
  | ffdhe3072 : NamedGroup 0x0101
  | ffdhe4096 : NamedGroup 0x0102
  | ffdhe6144 : NamedGroup 0x0103
  | ffdhe8192 : NamedGroup 0x0104

/-- RSASSA-PKCS1-v1_5, which RFC 8446 §4.2.3 defines for the signatures of certificates only -/
inductive Pkcs1 : Nat → Prop
  | sha1 : Pkcs1 0x0201
  | sha256 : Pkcs1 0x0401
  | sha384 : Pkcs1 0x0501
  | sha512 : Pkcs1 0x0601

/-- the schemes a CertificateVerify may use, RFC 8446 §4.4.3: those of §4.2.3 but RSASSA-PKCS1-v1_5
and SHA-1 -/
inductive VerifyScheme : Nat → Prop
  | ecdsa_secp256r1_sha256 : VerifyScheme 0x0403
  | ecdsa_secp384r1_sha384 : VerifyScheme 0x0503
  | ecdsa_secp521r1_sha512 : VerifyScheme 0x0603
  | rsa_pss_rsae_sha256 : VerifyScheme 0x0804
  | rsa_pss_rsae_sha384 : VerifyScheme 0x0805
  | rsa_pss_rsae_sha512 : VerifyScheme 0x0806
  | ed25519 : VerifyScheme 0x0807
  | ed448 : VerifyScheme 0x0808
  | rsa_pss_pss_sha256 : VerifyScheme 0x0809
  | rsa_pss_pss_sha384 : VerifyScheme 0x080a
  | rsa_pss_pss_sha512 : VerifyScheme 0x080b

end Siotls.Spec
