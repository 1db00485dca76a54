import Verif.Spec.Handshakes
import Verif.Spec.Layout
/-!
# The bytes of the handshake messages and of their extensions

Written down from the presentation language of RFC 8446 §3 and the structures of RFC 8446 §4,
RFC 6066 §3, §4 and §8, RFC 6520 §2, RFC 6962 §3.3.1, RFC 7250 §3, RFC 7301 §3.1 and RFC 7685
§3; the numbers are those of the IANA registries. The lower bounds that the RFCs put on the
length of some vectors are not part of it.
-/

namespace Siotls.Spec.Rfc
open Siotls

/-- RFC 8446 §3.3: `uint8`, `uint16`, `uint24`, `uint32` in network byte order. -/
def Num (n i : Nat) (b : Bytes) : Prop := b.length = n ∧ bigEndian b = i

/-- RFC 8446 §3.4: a variable-length vector, its length in bytes (as a number of `n` bytes)
before it. -/
def Vec (n : Nat) (body b : Bytes) : Prop := ∃ len, Num n body.length len ∧ b = len ++ body

/-- one element after the other -/
def Seq {α : Type} (R : α → Bytes → Prop) : List α → Bytes → Prop
  | [], b => b = []
  | a :: as, b => ∃ x y, R a x ∧ Seq R as y ∧ b = x ++ y

/-- a vector of elements: `T name<..>` -/
def VecOf {α : Type} (n : Nat) (R : α → Bytes → Prop) (l : List α) (b : Bytes) : Prop :=
  ∃ body, Seq R l body ∧ Vec n body b

/-- `struct { T1; T2; }` -/
def Pair (R S : Bytes → Prop) (b : Bytes) : Prop := ∃ x y, R x ∧ S y ∧ b = x ++ y

/-- IANA, TLS ExtensionType Values -/
def extensionCode : Ext → Nat
  | .serverNameReq _ | .serverNameResp => 0              -- server_name
  | .maxFragmentLength _ => 1                            -- max_fragment_length
  | .ocspStatusReq .. | .ocspStatus _ => 5               -- status_request
  | .supportedGroups _ => 10                             -- supported_groups
  | .signatureAlgorithms _ => 13                         -- signature_algorithms
  | .heartbeat _ => 15                                   -- heartbeat
  | .alpn _ => 16                  -- application_layer_protocol_negotiation
  | .sct => 18                                           -- signed_certificate_timestamp
  | .clientCertTypeReq _ | .clientCertTypeResp _ => 19   -- client_certificate_type
  | .serverCertTypeReq _ | .serverCertTypeResp _ => 20   -- server_certificate_type
  | .padding _ => 21                                     -- padding
  | .pskReq .. | .pskResp _ => 41                        -- pre_shared_key
  | .earlyData | .newSessionEarlyData _ => 42            -- early_data
  | .supportedVersionsReq _ | .supportedVersionsResp _ => 43 -- supported_versions
  | .cookie _ => 44                                      -- cookie
  | .pskModes _ => 45                                    -- psk_key_exchange_modes
  | .oidFilters _ => 48                                  -- oid_filters
  | .postHandshakeAuth => 49                             -- post_handshake_auth
  | .signatureAlgorithmsCert _ => 50                     -- signature_algorithms_cert
  | .keyShareReq _ | .keyShareRetry _ | .keyShareResp .. => 51 -- key_share
  | .unknown t _ => t

/-- The `extension_data` of each extension. -/
def ExtensionData (E : Env) : Ext → Bytes → Prop
  /- RFC 6066 §3: ServerName server_name_list<..2^16-1>; NameType host_name(0);
  opaque HostName<..2^16-1> -/
  | .serverNameReq none => fun b => Vec 2 [] b
  | .serverNameReq (some h) => fun b => ∃ enc, E.idnaEncode h = .ok enc ∧
      VecOf 2 (fun x => Pair (Num 1 0) (Vec 2 x)) [enc] b
  | .serverNameResp => fun b => b = []
  /- RFC 6066 §4: one byte -/
  | .maxFragmentLength c => Num 1 c
  /- RFC 6066 §8: status_type ocsp(1), responder_id_list<..2^16-1> of
  ResponderID<..2^16-1>, request_extensions<..2^16-1> -/
  | .ocspStatusReq ids exts => Pair (Num 1 1) (Pair (VecOf 2 (Vec 2) ids) (Vec 2 exts))
  /- RFC 6066 §8: status_type ocsp(1), OCSPResponse<..2^24-1> -/
  | .ocspStatus r => Pair (Num 1 1) (Vec 3 r)
  /- RFC 8446 §4.2.7: NamedGroup named_group_list<..2^16-1> -/
  | .supportedGroups l => VecOf 2 (Num 2) l
  /- RFC 8446 §4.2.3: SignatureScheme supported_signature_algorithms<..2^16-2> -/
  | .signatureAlgorithms l => VecOf 2 (Num 2) l
  | .signatureAlgorithmsCert l => VecOf 2 (Num 2) l
  /- RFC 6520 §2: one byte -/
  | .heartbeat m => Num 1 m
  /- RFC 7301 §3.1: ProtocolName protocol_name_list<..2^16-1>; ProtocolName<..2^8-1> -/
  | .alpn l => VecOf 2 (Vec 1) l
  /- RFC 6962 §3.3.1: empty (what a Certificate message carries is no value of the code's class) -/
  | .sct => fun b => b = []
  /- RFC 7250 §3: CertificateType <..2^8-1> from the client, one byte from the server -/
  | .clientCertTypeReq l => VecOf 1 (Num 1) l
  | .serverCertTypeReq l => VecOf 1 (Num 1) l
  | .clientCertTypeResp t => Num 1 t
  | .serverCertTypeResp t => Num 1 t
  /- RFC 7685 §3: zero bytes -/
  | .padding n => fun b => b = List.replicate n 0
  /- RFC 8446 §4.2.11: PskIdentity identities<..2^16-1>; PskBinderEntry binders<..2^16-1>;
  PskIdentity { opaque identity<..2^16-1>; uint32 obfuscated_ticket_age };
  PskBinderEntry<..255> -/
  | .pskReq ids binders => Pair (VecOf 2 (fun i => Pair (Vec 2 i.1) (Num 4 i.2)) ids)
      (VecOf 2 (Vec 1) binders)
  | .pskResp i => Num 2 i
  /- RFC 8446 §4.2.10: empty, or uint32 max_early_data_size in a NewSessionTicket -/
  | .earlyData => fun b => b = []
  | .newSessionEarlyData i => Num 4 i
  /- RFC 8446 §4.2.1: ProtocolVersion versions<..254>, or the selected one -/
  | .supportedVersionsReq l => VecOf 1 (Num 2) l
  | .supportedVersionsResp v => Num 2 v
  /- RFC 8446 §4.2.2: cookie<..2^16-1> -/
  | .cookie c => Vec 2 c
  /- RFC 8446 §4.2.9: PskKeyExchangeMode ke_modes<..255> -/
  | .pskModes l => VecOf 1 (Num 1) l
  /- RFC 8446 §4.2.5: OIDFilter filters<..2^16-1>; { certificate_extension_oid<..2^8-1>;
  certificate_extension_values<..2^16-1> } -/
  | .oidFilters l => VecOf 2 (fun f => Pair (Vec 1 f.1) (Vec 2 f.2)) l
  /- RFC 8446 §4.2.6: empty -/
  | .postHandshakeAuth => fun b => b = []
  /- RFC 8446 §4.2.8: KeyShareEntry client_shares<..2^16-1>, the selected group, or the
  server's share; KeyShareEntry { NamedGroup group; key_exchange<..2^16-1> } -/
  | .keyShareReq l => VecOf 2 (fun s => Pair (Num 2 s.1) (Vec 2 s.2)) l
  | .keyShareRetry g => Num 2 g
  | .keyShareResp g k => Pair (Num 2 g) (Vec 2 k)
  | .unknown _ d => fun b => b = d

/-- RFC 8446 §4.2: extension_type, extension_data<..2^16-1>. -/
def Extension (E : Env) (e : Ext) (b : Bytes) : Prop :=
  ∃ data, ExtensionData E e data ∧ Pair (Num 2 (extensionCode e)) (Vec 2 data) b

/-- RFC 8446 §4.4.2: cert_data<..2^24-1> (or ASN1_subjectPublicKeyInfo<..2^24-1>),
extensions<..2^16-1>. -/
def CertificateEntry (E : Env) : CertEntry → Bytes → Prop
  | .x509 c exts => Pair (Vec 3 (E.certDer c)) (VecOf 2 (Extension E) exts)
  | .rawKey k exts => Pair (Vec 3 (E.pkDer k)) (VecOf 2 (Extension E) exts)

/-- RFC 8446 §4: HandshakeType. A HelloRetryRequest is a ServerHello. -/
def handshakeCode : Handshake → Nat
  | .clientHello .. => 1
  | .serverHello .. => 2
  | .helloRetryRequest .. => 2
  | .encryptedExtensions .. => 8
  | .certificate .. => 11
  | .certificateRequest .. => 13
  | .certificateVerify .. => 15
  | .finished .. => 20

/-- The body of each message. -/
def MessageBody (E : Env) : Handshake → Bytes → Prop
  /- RFC 8446 §4.1.2: legacy_version = 0x0303, random[32], legacy_session_id<..32>,
  cipher_suites<..2^16-2>, legacy_compression_methods<..2^8-1> = {0}, extensions<..2^16-1> -/
  | .clientHello random sid suites exts =>
    Pair (Num 2 0x0303) (Pair (fun b => b = random ∧ b.length = 32) (Pair (Vec 1 sid)
      (Pair (VecOf 2 (Num 2) suites) (Pair (Vec 1 [0]) (VecOf 2 (Extension E) exts)))))
  /- RFC 8446 §4.1.3: legacy_version = 0x0303, random[32], legacy_session_id_echo<..32>,
  cipher_suite, legacy_compression_method = 0, extensions<..2^16-1> -/
  | .serverHello random sid suite exts =>
    Pair (Num 2 0x0303) (Pair (fun b => b = random ∧ b.length = 32) (Pair (Vec 1 sid)
      (Pair (Num 2 suite) (Pair (Num 1 0) (VecOf 2 (Extension E) exts)))))
  /- RFC 8446 §4.1.4: a ServerHello with a special random -/
  | .helloRetryRequest random sid suite exts =>
    Pair (Num 2 0x0303) (Pair (fun b => b = random ∧ b = helloRetryRandom) (Pair (Vec 1 sid)
      (Pair (Num 2 suite) (Pair (Num 1 0) (VecOf 2 (Extension E) exts)))))
  /- RFC 8446 §4.3.1 -/
  | .encryptedExtensions exts => VecOf 2 (Extension E) exts
  /- RFC 8446 §4.3.2: certificate_request_context<..2^8-1>, extensions<..2^16-1> -/
  | .certificateRequest ctx exts => Pair (Vec 1 ctx) (VecOf 2 (Extension E) exts)
  /- RFC 8446 §4.4.2: certificate_request_context<..2^8-1>,
  CertificateEntry certificate_list<..2^24-1> -/
  | .certificate ctx entries => Pair (Vec 1 ctx) (VecOf 3 (CertificateEntry E) entries)
  /- RFC 8446 §4.4.3: SignatureScheme algorithm, signature<..2^16-1> -/
  | .certificateVerify alg sig => Pair (Num 2 alg) (Vec 2 sig)
  /- RFC 8446 §4.4.4 -/
  | .finished d => fun b => b = d

/-- RFC 8446 §4: msg_type, uint24 length, the body. -/
def Message (E : Env) (h : Handshake) (b : Bytes) : Prop :=
  ∃ body, MessageBody E h body ∧ Pair (Num 1 (handshakeCode h)) (Vec 3 body) b

/-- the extensions of a message, wherever they are -/
def extensionsOf : Handshake → List Ext
  | .clientHello _ _ _ exts | .serverHello _ _ _ exts | .helloRetryRequest _ _ _ exts
  | .encryptedExtensions exts | .certificateRequest _ exts => exts
  | .certificate _ entries => entries.flatMap fun
      | .x509 _ exts => exts
      | .rawKey _ exts => exts
  | .certificateVerify .. | .finished _ => []

/-- the randoms are 32 bytes, that of a HelloRetryRequest is the one of RFC 8446 §4.1.3 -/
def RightRandom : Handshake → Prop
  | .clientHello random .. | .serverHello random .. => random.length = 32
  | .helloRetryRequest random .. => random = helloRetryRandom
  | _ => True

/-- Extensions that a peer may send in a message of kind `k`: any that RFC 8446 §4.2 allows
there, with legal values, each type once. -/
def PeerExts (E : Env) (k : HsKind) (exts : List Ext) : Prop :=
  (exts.map extensionCode).Nodup ∧ ∀ e ∈ exts, legal E e ∧ k ∈ allowedIn e

/-- A message that a conforming peer may send. `certType` is the certificate type negotiated. -/
def PeerMessage (E : Env) (certType : Option (Option Nat)) : Handshake → Prop
  | .clientHello _ _ suites exts => suites ≠ [] ∧ PeerExts E .clientHello exts ∧
      /- RFC 8446 §4.2.11: last, and with psk_key_exchange_modes (§4.2.9) -/
      (∀ e ∈ exts, extensionCode e = 41 → (exts.map extensionCode).getLast? = some 41 ∧
        45 ∈ exts.map extensionCode)
  | .serverHello random _ _ exts => random ≠ helloRetryRandom ∧ PeerExts E .serverHello exts
  | .helloRetryRequest _ _ _ exts => PeerExts E .helloRetryRequest exts
  | .encryptedExtensions exts => PeerExts E .encryptedExtensions exts
  | .certificateRequest _ exts =>
    13 ∈ exts.map extensionCode ∧ PeerExts E .certificateRequest exts
  | .certificate _ entries =>
    (certType = some (some 0) ∧ ∀ x ∈ entries, ∃ c exts, x = .x509 c exts ∧
      E.certLoad (E.certDer c) = .ok c ∧ PeerExts E .certificate exts) ∨
    (certType = some (some 2) ∧ ∀ x ∈ entries, ∃ k exts, x = .rawKey k exts ∧
      E.pkLoad (E.pkDer k) = .ok k ∧ PeerExts E .certificate exts)
  | .certificateVerify .. => True
  | .finished _ => True

end Siotls.Spec.Rfc
