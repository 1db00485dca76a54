import Verif.Spec.History
/-!
# Negotiation, read off the messages of a connection

Traces are newest event first.
-/

namespace Siotls.Spec
open Siotls

/-- the shared secret of a key exchange is never empty -/
def _root_.Siotls.Env.Shares (E : Env) : Prop := ∀ g priv theirs, E.kexResume g priv theirs ≠ .ok []

/-- `x` is the first of `mine` that is acceptable -/
def Preferred {α : Type} (mine : List α) (ok : α → Prop) (x : α) : Prop :=
  ∃ l₁ l₂, mine = l₁ ++ x :: l₂ ∧ ok x ∧ ∀ y ∈ l₁, ¬ ok y

/-- the newest content received -/
def heard : List Ev → Option Content
  | [] => none
  | .recv x :: _ => some x
  | _ :: l => heard l

/-- the newest ClientHello sent -/
def offered : List Ev → Option Handshake
  | [] => none
  | .sent (.handshake (.clientHello r sid suites exts)) :: _ => some (.clientHello r sid suites exts)
  | _ :: l => offered l

/-- the first content received among some events -/
def firstHeard : List Ev → Option Content
  | [] => none
  | .recv x :: l => (firstHeard l).or (some x)
  | _ :: l => firstHeard l

/-- TLS 1.3 (RFC 8446 §4.2.1) -/
def tls13 : Nat := 0x0304

/-- the client offers TLS 1.3 -/
def OffersTls13 (exts : List Ext) : Prop := ∃ l, .supportedVersionsReq l ∈ exts ∧ tls13 ∈ l

/-- the signature schemes a certificate's key can be used with (RFC 8446 §4.2.3): rsa_pkcs1 and
rsa_pss_rsae for rsaEncryption keys, rsa_pss_pss for RSASSA-PSS keys, ecdsa, ed25519, ed448 -/
inductive Fit : PubOid → Nat → Prop
  | pkcs1_256 : Fit .rsaes 0x0401
  | pkcs1_384 : Fit .rsaes 0x0501
  | pkcs1_512 : Fit .rsaes 0x0601
  | rsae_256 : Fit .rsaes 0x0804
  | rsae_384 : Fit .rsaes 0x0805
  | rsae_512 : Fit .rsaes 0x0806
  | pss_256 : Fit .rsassaPss 0x0809
  | pss_384 : Fit .rsassaPss 0x080a
  | pss_512 : Fit .rsassaPss 0x080b
  | p256 : Fit .ec 0x0403
  | p384 : Fit .ec 0x0503
  | p521 : Fit .ec 0x0603
  | ed25519 : Fit .ed25519 0x0807
  | ed448 : Fit .ed448 0x0808

/-- the fragment length a code of the max_fragment_length extension stands for (RFC 6066 §4) -/
def fragmentOf : Nat → Option Nat
  | 1 => some 512
  | 2 => some 1024
  | 3 => some 2048
  | 4 => some 4096
  | _ => none

end Siotls.Spec
