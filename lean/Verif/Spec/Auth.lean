import Verif.Spec.Exchange
import Verif.Spec.Negotiation
import Verif.Model.Api
import Mathlib.Data.List.Forall2
/-!
# What it means that the peer was authenticated

Statements about the trace of a connection (newest event first) and the external functions.
-/

namespace Siotls

/-- the entries of a Certificate message are these X.509 certificates -/
def IsChain (entries : List CertEntry) (certs : List Bytes) : Prop :=
  List.Forall₂ (fun e c => ∃ exts, e = CertEntry.x509 c exts) entries certs

/-- the name a certificate must be valid for, given the hostname the application asked for -/
def Requested (E : Env) (hostname : Option PyStr) : Subject → Prop
  | .dns n => hostname = some n ∧ n ≠ [] ∧ E.isIp n = false
  | .ip n => hostname = some n ∧ n ≠ [] ∧ E.isIp n = true
  | .anonymous => hostname = none ∨ hostname = some []

/-- no HelloRetryRequest was received -/
def NoRetry (tr : List Ev) : Prop :=
  ∀ r sid suite exts, Ev.recv (.handshake (.helloRetryRequest r sid suite exts)) ∉ tr

/-- RFC 8446 section 4.4.3: 64 spaces, the context string, a zero byte, the transcript hash -/
def signedContent (h : Bytes) : Bytes :=
  List.replicate 64 0x20 ++ Spec.ascii "TLS 1.3, server CertificateVerify" ++ [0] ++ h

/-- A relation between a hash function, the trace when a hash was taken and that hash. -/
abbrev Covers := HashAlg → List Ev → Bytes → Prop

/-- What the hash of a client covers: all the messages exchanged when there was no
HelloRetryRequest; otherwise a synthetic message with a digest of the first ClientHello (at most 48
bytes) and then all the messages since that HelloRetryRequest, which is not the transcript of
RFC 8446. -/
def CoversSince (E : Env) : Covers := fun a t h =>
  ∃ x, h = E.hash a (x ++ Spec.concat (sinceRetry t)) ∧
    (NoRetry t → x = [] ∧ sinceRetry t = exchanged t) ∧
    (¬ NoRetry t → (∃ ch : Bytes, ch.length ≤ 48 ∧ x = [254, 0, 0, UInt8.ofNat a.size] ++ ch) ∧
      x ++ Spec.concat (sinceRetry t) ≠ Spec.transcript (E.spec a) (exchanged t))

/-- What the hash of a server covers: the transcript of RFC 8446. -/
def CoversRfc (E : Env) : Covers := fun a t h =>
  h = E.hash a (Spec.transcript (E.spec a) (exchanged t))

/-- `shared` is the result of the key exchange with the share of the peer, and `th` the hash of the
messages up to the ServerHello. -/
def ClientExchange (E : Env) (P : Covers) (a : HashAlg) (tr : List Ev) (shared th : Bytes) : Prop :=
  ∃ t random sid suite exts g share priv mine d, t <:+ tr ∧
    Ev.recv (.handshake (.serverHello random sid suite exts)) ∈ t ∧
    findExt exts 51 = some (.keyShareResp g share) ∧
    E.kexInit g d = .ok (priv, mine) ∧ E.kexResume g priv share = .ok shared ∧ P a t th

/-- Likewise on a server, which sent its share in its ServerHello. -/
def ServerExchange (E : Env) (P : Covers) (a : HashAlg) (tr : List Ev) (shared th : Bytes) : Prop :=
  ∃ t random sid suites exts shares g theirs priv mine d random' suite exts', t <:+ tr ∧
    Ev.recv (.handshake (.clientHello random sid suites exts)) ∈ t ∧
    findExt exts 51 = some (.keyShareReq shares) ∧ (g, theirs) ∈ shares ∧
    E.kexInit g d = .ok (priv, mine) ∧ E.kexResume g priv theirs = .ok shared ∧ shared ≠ [] ∧
    Ev.sent (.handshake (.serverHello random' sid suite exts')) ∈ t ∧
    .keyShareResp g mine ∈ exts' ∧ P a t th

/-- Every OCSP response stapled to a certificate that is followed by its issuer was validated. -/
def Stapled (E : Env) (entries : List CertEntry) : Prop :=
  ∀ l cert exts issuer exts' r res,
    entries = l ++ .x509 cert exts :: .x509 issuer exts' :: r →
    findExt exts 5 = some (.ocspStatus res) →
    ∃ d, E.ocspValidate issuer (E.ocspRequest cert issuer) res d = .ok ()

/-- Every certificate followed by its issuer carries an OCSP response that was validated, or carries none
and then, with an OCSP service (`ocsp`), names no responder or the service got a response that was
validated. -/
def LookedUp (E : Env) (ocsp : Bool) (entries : List CertEntry) : Prop :=
  ∀ l cert exts issuer exts' r, entries = l ++ .x509 cert exts :: .x509 issuer exts' :: r →
    (∃ res d, .ocspStatus res ∈ exts ∧ E.ocspValidate issuer (E.ocspRequest cert issuer) res d = .ok ()) ∨
    ((∀ e ∈ exts, e.type ≠ 5) ∧ (ocsp = true →
      ∃ url, E.ocspUrl cert = .ok url ∧ (url = none ∨ url = some [] ∨
        ∃ d res d', E.ocspFetch url (E.ocspRequest cert issuer) d = .ok res ∧
          E.ocspValidate issuer (E.ocspRequest cert issuer) res d' = .ok ())))

/-- A chain of certificates was received and verified, no revocation list was left unchecked; `h` covers the trace up to it. -/
def ChainVerified (E : Env) (P : Covers) (a : HashAlg) (config : Config) (hostname : Option PyStr) (ocsp : Bool)
    (store : Bytes) (tr : List Ev) (leaf h : Bytes) : Prop :=
  ∃ t ctx entries others subject d, t <:+ tr ∧
    t.head? = some (.recv (.handshake (.certificate ctx entries))) ∧
    IsChain entries (leaf :: others) ∧ Requested E hostname subject ∧
    E.verifyChain store config.maxChainDepth subject leaf others d = .ok () ∧
    Stapled E entries ∧ LookedUp E ocsp entries ∧ config.revocationList.getD [] = [] ∧ P a t h

/-- Then a signature made with the key of the leaf certificate was verified, with an algorithm
meant for one of the kinds of keys there are. -/
def SignatureVerified (E : Env) (P : Covers) (a : HashAlg) (config : Config)
    (hostname : Option PyStr) (ocsp : Bool) (store : Bytes) (tr : List Ev) (leaf h : Bytes) : Prop :=
  ∃ t alg sig pub h₁, t <:+ tr ∧
    ChainVerified E P a config hostname ocsp store t leaf h₁ ∧
    t.head? = some (.recv (.handshake (.certificateVerify alg sig))) ∧
    alg ∈ config.signatureAlgorithms ∧ (∃ o, Spec.Fit o alg) ∧ E.certPub leaf = .ok pub ∧
    E.verify alg pub sig (signedContent h₁) = .ok () ∧ P a t h

/-- Then the MAC of the server's Finished was verified. -/
def ServerAuthenticated (E : Env) (P : Covers) (a : HashAlg) (config : Config)
    (hostname : Option PyStr) (ocsp : Bool) (store : Bytes) (tr : List Ev) : Prop :=
  ∃ t leaf h vd shared th, t <:+ tr ∧
    SignatureVerified E P a config hostname ocsp store t leaf h ∧
    Ev.recv (.handshake (.finished vd)) ∈ t ∧ ClientExchange E P a t shared th ∧
    vd = E.hmac a ((E.spec a).finishedKey ((E.spec a).sHs shared th)) h

/-- The MAC of the server's Finished, over the messages up to its CertificateVerify, was verified
(whoever the server is). -/
def ServerFinished (E : Env) (P : Covers) (a : HashAlg) (tr : List Ev) : Prop :=
  ∃ t t₁ alg sig vd h shared th, t <:+ tr ∧ t₁ <:+ t ∧
    t₁.head? = some (.recv (.handshake (.certificateVerify alg sig))) ∧ P a t₁ h ∧
    Ev.recv (.handshake (.finished vd)) ∈ t ∧ ClientExchange E P a t shared th ∧
    vd = E.hmac a ((E.spec a).finishedKey ((E.spec a).sHs shared th)) h

/-- The MAC of the client's Finished, over the messages up to the server's Finished, was
verified. -/
def ClientFinished (E : Env) (P : Covers) (a : HashAlg) (tr : List Ev) : Prop :=
  ∃ t t₁ mac vd h shared th, t <:+ tr ∧ t₁ <:+ t ∧
    t₁.head? = some (.sent (.handshake (.finished mac))) ∧ P a t₁ h ∧
    Ev.recv (.handshake (.finished vd)) ∈ t ∧ ServerExchange E P a t shared th ∧
    vd = E.hmac a ((E.spec a).finishedKey ((E.spec a).cHs shared th)) h

end Siotls
