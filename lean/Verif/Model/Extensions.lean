import Verif.Model.Serial
import Verif.Model.Env
import Verif.Model.Iana
/-!
# TLS extensions: /repo/src/siotls/contents/handshakes/extensions/
-/

namespace Siotls
open Serial

/-- Value of an extension object, one constructor per instantiable class.
`CertificateAuthorities` and `UseSRTP` are abstract (they override `serialize` and never
define `serialize_body`): they cannot be instantiated. -/
inductive Ext where
  /-- server_name.py:79-125; the dict has at most one entry (the only NameType is HOST_NAME) -/
  | serverNameReq (host : Option PyStr)
  /-- server_name.py:128-145 -/
  | serverNameResp
  /-- max_fragment_length.py (the code) -/
  | maxFragmentLength (code : Nat)
  /-- status_request.py:53-88 `OCSPStatusRequest` -/
  | ocspStatusReq (responders : List Bytes) (exts : Bytes)
  /-- status_request.py:133-154 `OCSPStatus` -/
  | ocspStatus (response : Bytes)
  /-- supported_groups.py -/
  | supportedGroups (groups : List Nat)
  /-- signature_algorithms.py:39-46 -/
  | signatureAlgorithms (algs : List Nat)
  /-- signature_algorithms.py:49-56 -/
  | signatureAlgorithmsCert (algs : List Nat)
  /-- heartbeat.py -/
  | heartbeat (mode : Nat)
  /-- alpn.py; protocol names as their UTF-8 bytes -/
  | alpn (protocols : List Bytes)
  /-- signed_certificate_timestamp.py -/
  | sct
  /-- certificate_type.py:62-68 -/
  | clientCertTypeReq (types : List Nat)
  /-- certificate_type.py:70-76 -/
  | clientCertTypeResp (type : Nat)
  /-- certificate_type.py:78-84 -/
  | serverCertTypeReq (types : List Nat)
  /-- certificate_type.py:86-92 -/
  | serverCertTypeResp (type : Nat)
  /-- padding.py -/
  | padding (count : Nat)
  /-- pre_shared_key.py:16-68 -/
  | pskReq (identities : List (Bytes × Nat)) (binders : List Bytes)
  /-- pre_shared_key.py:71-92 -/
  | pskResp (identity : Nat)
  /-- early_data.py:10-28 -/
  | earlyData
  /-- early_data.py:31-53 -/
  | newSessionEarlyData (size : Nat)
  /-- supported_versions.py:12-40 -/
  | supportedVersionsReq (versions : List Nat)
  /-- supported_versions.py:43-73 -/
  | supportedVersionsResp (version : Nat)
  /-- cookie.py -/
  | cookie (cookie : Bytes)
  /-- psk_key_exchange_modes.py -/
  | pskModes (modes : List Nat)
  /-- oid_filters.py -/
  | oidFilters (filters : List (Bytes × Bytes))
  /-- post_handshake_auth.py -/
  | postHandshakeAuth
  /-- key_share.py:12-55 -/
  | keyShareReq (shares : List (Nat × Bytes))
  /-- key_share.py:58-81 -/
  | keyShareRetry (group : Nat)
  /-- key_share.py:84-120 -/
  | keyShareResp (group : Nat) (share : Bytes)
  /-- extensions/__init__.py:107-126 -/
  | unknown (type : Nat) (data : Bytes)
  deriving DecidableEq, Repr

/-- `ext.extension_type`. -/
def Ext.type : Ext → Nat
  | serverNameReq _ | serverNameResp => 0
  | maxFragmentLength _ => 1
  | ocspStatusReq _ _ | ocspStatus _ => 5
  | supportedGroups _ => 10
  | signatureAlgorithms _ => 13
  | heartbeat _ => 15
  | alpn _ => 16
  | sct => 18
  | clientCertTypeReq _ | clientCertTypeResp _ => 19
  | serverCertTypeReq _ | serverCertTypeResp _ => 20
  | padding _ => 21
  | pskReq _ _ | pskResp _ => 41
  | earlyData | newSessionEarlyData _ => 42
  | supportedVersionsReq _ | supportedVersionsResp _ => 43
  | cookie _ => 44
  | pskModes _ => 45
  | oidFilters _ => 48
  | postHandshakeAuth => 49
  | signatureAlgorithmsCert _ => 50
  | keyShareReq _ | keyShareRetry _ | keyShareResp _ _ => 51
  | unknown t _ => t

/-- The handshake messages that carry extensions (`handshake_type.name`). -/
inductive HsKind where
  | clientHello
  | serverHello
  | helloRetryRequest
  | newSessionTicket
  | encryptedExtensions
  | certificate
  | certificateRequest
  deriving DecidableEq, Repr

/-- Extension classes, as found in `_extension_registry`. -/
inductive ExtClass where
  | serverNameReq | serverNameResp | maxFragmentLength | statusRequest | certStatus
  | supportedGroups | signatureAlgorithms | signatureAlgorithmsCert | useSrtp | heartbeat | alpn
  | sct | clientCertTypeReq | clientCertTypeResp | serverCertTypeReq | serverCertTypeResp
  | padding | pskReq | pskResp | earlyData | newSessionEarlyData | supportedVersionsReq
  | supportedVersionsResp | cookie | pskModes | certificateAuthorities | oidFilters
  | postHandshakeAuth | keyShareReq | keyShareRetry | keyShareResp | unknown
  deriving DecidableEq, Repr

/-- `_extension_registry`: the classes by extension type and handshake (the `_handshake_types`
of each class). `none`: not registered for that handshake. -/
def extRegistry : Nat → HsKind → Option ExtClass
  | 0, .clientHello => some .serverNameReq
  | 0, .encryptedExtensions => some .serverNameResp
  | 1, .clientHello => some .maxFragmentLength
  | 1, .encryptedExtensions => some .maxFragmentLength
  | 5, .clientHello => some .statusRequest
  | 5, .certificateRequest => some .statusRequest
  | 5, .certificate => some .certStatus
  | 10, .clientHello => some .supportedGroups
  | 10, .encryptedExtensions => some .supportedGroups
  | 13, .clientHello => some .signatureAlgorithms
  | 13, .certificateRequest => some .signatureAlgorithms
  | 14, .clientHello => some .useSrtp
  | 14, .encryptedExtensions => some .useSrtp
  | 15, .clientHello => some .heartbeat
  | 15, .encryptedExtensions => some .heartbeat
  | 16, .clientHello => some .alpn
  | 16, .encryptedExtensions => some .alpn
  | 18, .clientHello => some .sct
  | 18, .certificate => some .sct
  | 18, .certificateRequest => some .sct
  | 19, .clientHello => some .clientCertTypeReq
  | 19, .encryptedExtensions => some .clientCertTypeResp
  | 20, .clientHello => some .serverCertTypeReq
  | 20, .encryptedExtensions => some .serverCertTypeResp
  | 21, .clientHello => some .padding
  | 41, .clientHello => some .pskReq
  | 41, .serverHello => some .pskResp
  | 42, .clientHello => some .earlyData
  | 42, .encryptedExtensions => some .earlyData
  | 42, .newSessionTicket => some .newSessionEarlyData
  | 43, .clientHello => some .supportedVersionsReq
  | 43, .serverHello => some .supportedVersionsResp
  | 43, .helloRetryRequest => some .supportedVersionsResp
  | 44, .clientHello => some .cookie
  | 44, .serverHello => some .cookie
  | 44, .helloRetryRequest => some .cookie
  | 45, .clientHello => some .pskModes
  | 47, .clientHello => some .certificateAuthorities
  | 47, .certificateRequest => some .certificateAuthorities
  | 48, .certificateRequest => some .oidFilters
  | 49, .clientHello => some .postHandshakeAuth
  | 50, .clientHello => some .signatureAlgorithmsCert
  | 50, .certificateRequest => some .signatureAlgorithmsCert
  | 51, .clientHello => some .keyShareReq
  | 51, .helloRetryRequest => some .keyShareRetry
  | 51, .serverHello => some .keyShareResp
  | _, _ => none

/-- The class lookup of `Extension.parse`, extensions/__init__.py:76-92. A type outside
`ExtensionType` is parsed by a dynamically created `UnknownExtension` whatever the handshake. -/
def extClass (type : Nat) (kind : HsKind) : Except Exn ExtClass :=
  if Iana.extensionTypes.contains type then
    match extRegistry type kind with
    | some c => .ok c
    | none => .error (.alert Iana.illegalParameter)
  else .ok .unknown

/-- `SomeEnum(stream.read_int(n))` turned into IllegalParameter when the value is unknown. -/
def readEnum (n : Nat) (values : List Nat) : P Nat := do
  let i ← readInt n
  if values.contains i then return i else P.throw (.alert Iana.illegalParameter)

/-- `all(ord(' ') <= char <= ord('~') for char in protocol)`, alpn.py:33. -/
def isPrintable (b : Bytes) : Bool := b.all fun c => 0x20 ≤ c && c ≤ 0x7e

/-- One turn of the loop of `ServerNameListRequest.parse_body`, server_name.py:107-110, with
`ServerName.parse` (30-41) and `HostName.parse_body` (59-66). `none`: suppressed IDNA error. -/
def parseServerName (E : Env) : P (Option PyStr) := do
  let t ← readInt 1
  if t = 0 then do
    let name ← readVar 2
    return E.idnaDecode name
  else P.throw (.alert Iana.unrecognizedName)

/-- `ServerNameListRequest.__init__`, server_name.py:91-97. -/
def mkServerNameReq : List PyStr → Except Exn Ext
  | [] => .ok (.serverNameReq none)
  | n :: ns => if ns.all (· = n) then .ok (.serverNameReq (some n))
               else .error (.alert Iana.illegalParameter)

/-- One entry of pre_shared_key.py:44-47. -/
def parsePskIdentity : P (Bytes × Nat) := do
  let identity ← readVar 2
  let age ← readInt 4
  return (identity, age)

/-- One entry of oid_filters.py:42-44. -/
def parseOidFilter : P (Bytes × Bytes) := do
  let oid ← readVar 1
  let values ← readVar 2
  return (oid, values)

/-- One entry of key_share.py:34-35. -/
def parseShare : P (Nat × Bytes) := do
  let g ← readInt 2
  let k ← readVar 2
  return (g, k)

/-- The loop of `KeyShareRequest.parse_body`, key_share.py:31-40: IllegalParameter as soon as
a group shows up twice. The duplicate test happens between two entries, so it is part of the
loop's state (`seen`). -/
def parseShares : Nat → List Nat → Stream → Except Exn (List (Nat × Bytes))
  | k, seen, s =>
    if s.rest.isEmpty then .ok [] else
    match k with
    | 0 => .error .fuel
    | k + 1 =>
      match parseShare s with
      | .error e => .error e
      | .ok (gk, s') =>
        if seen.contains gk.1 then .error (.alert Iana.illegalParameter) else
        match parseShares k (gk.1 :: seen) s' with
        | .error e => .error e
        | .ok l => .ok (gk :: l)

/-- `parse_body` of each class. -/
def parseExtBody (E : Env) (type : Nat) : ExtClass → P Ext
  | .serverNameReq => do                        -- server_name.py:103-111
    let b ← readVar 2
    let names ← P.lift (parseMany (parseServerName E) b)
    P.lift (mkServerNameReq (names.filterMap id))
  | .serverNameResp => return .serverNameResp   -- server_name.py:139-141
  | .maxFragmentLength => do                    -- max_fragment_length.py:53-60
    let c ← readEnum 1 Iana.mflCodes
    return .maxFragmentLength c
  | .statusRequest => do                        -- status_request.py:35-44, 70-74
    let t ← readInt 1
    if t = 1 then do
      let ids ← readListVar 2 2
      let exts ← readVar 2
      return .ocspStatusReq ids exts
    else P.throw (.alert Iana.unrecognizedName)
  | .certStatus => do                           -- status_request.py:116-125, 144-146
    let t ← readInt 1
    if t = 1 then do
      let r ← readVar 3
      return .ocspStatus r
    else P.throw (.alert Iana.unrecognizedName)
  | .supportedGroups => do                      -- supported_groups.py:30-36
    let l ← readListInt 2 2
    return .supportedGroups l
  | .signatureAlgorithms => do                  -- signature_algorithms.py:21-27
    let l ← readListInt 2 2
    return .signatureAlgorithms l
  | .signatureAlgorithmsCert => do
    let l ← readListInt 2 2
    return .signatureAlgorithmsCert l
  | .useSrtp => do                              -- use_srtp.py:35-42
    let b ← readVar 2
    if b.length % 2 ≠ 0 then P.throw .valueError else do
      let _mki ← readVar 1
      P.throw .typeError                        -- abstract class
  | .heartbeat => do                            -- heartbeat.py:29-35
    let m ← readEnum 1 Iana.heartbeatModes
    return .heartbeat m
  | .alpn => do                                 -- alpn.py:28-35
    let l ← readListVar 2 1
    return .alpn (l.filter isPrintable)
  | .sct => return .sct                         -- signed_certificate_timestamp.py:23-25
  | .clientCertTypeReq => do                    -- certificate_type.py:23-32
    let l ← readListInt 1 1
    if l.isEmpty then P.throw (.alert Iana.illegalParameter) else return .clientCertTypeReq l
  | .clientCertTypeResp => do                   -- certificate_type.py:49-55
    let t ← readEnum 1 Iana.certificateTypes
    return .clientCertTypeResp t
  | .serverCertTypeReq => do
    let l ← readListInt 1 1
    if l.isEmpty then P.throw (.alert Iana.illegalParameter) else return .serverCertTypeReq l
  | .serverCertTypeResp => do
    let t ← readEnum 1 Iana.certificateTypes
    return .serverCertTypeResp t
  | .padding => do                              -- padding.py:25-27
    let b ← readAll
    return .padding b.length
  | .pskReq => do                               -- pre_shared_key.py:40-51
    let b ← readVar 2
    let ids ← P.lift (parseMany parsePskIdentity b)
    let binders ← readListVar 2 1
    return .pskReq ids binders
  | .pskResp => do                              -- pre_shared_key.py:86-89
    let i ← readInt 2
    return .pskResp i
  | .earlyData => return .earlyData             -- early_data.py:23-25
  | .newSessionEarlyData => do                  -- early_data.py:47-50
    let i ← readInt 4
    return .newSessionEarlyData i
  | .supportedVersionsReq => do                 -- supported_versions.py:27-33
    let l ← readListInt 1 2
    return .supportedVersionsReq l
  | .supportedVersionsResp => do                -- supported_versions.py:57-70
    let v ← readEnum 2 Iana.tlsVersions
    if v < Iana.tls13 then P.throw .valueError else return .supportedVersionsResp v
  | .cookie => do                               -- cookie.py:29-32
    let c ← readVar 2
    return .cookie c
  | .pskModes => do                             -- psk_key_exchange_modes.py:26-32
    let l ← readListInt 1 1
    return .pskModes l
  | .certificateAuthorities => do               -- certificate_authorities.py:28-31
    let _ ← readListVar 2 2
    P.throw .typeError                          -- abstract class
  | .oidFilters => do                           -- oid_filters.py:37-45
    let b ← readVar 2
    let l ← P.lift (parseMany parseOidFilter b)
    return .oidFilters l
  | .postHandshakeAuth => return .postHandshakeAuth -- post_handshake_auth.py:20-22
  | .keyShareReq => do                          -- key_share.py:29-40
    let b ← readVar 2
    let l ← P.lift (parseShares b.length [] (Stream.new b))
    return .keyShareReq l
  | .keyShareRetry => do                        -- key_share.py:72-78
    let g ← readEnum 2 Iana.namedGroups
    return .keyShareRetry g
  | .keyShareResp => do                         -- key_share.py:107-111
    let g ← readInt 2
    let k ← readVar 2
    return .keyShareResp g k
  | .unknown => do                              -- extensions/__init__.py:121-123
    let b ← readAll
    return .unknown type b

/-- `Extension.parse`, extensions/__init__.py:75-96. -/
def parseExt (E : Env) (kind : HsKind) : P Ext := do
  let type ← readInt 2
  let cls ← P.lift (extClass type kind)
  let len ← readInt 2
  limit len (parseExtBody E type cls)

/-- `serialize_body` of each class. -/
def serExtBody (E : Env) : Ext → Except Exn Bytes
  | .serverNameReq none => .ok (beEnc 2 0)      -- server_name.py:113-124
  | .serverNameReq (some h) => do               -- + HostName.serialize_body, 68-72
    let len ← toBytes 2 h.length                -- length of the str, not of its encoding
    let enc ← E.idnaEncode h
    writeVar 2 (beEnc 1 0 ++ len ++ enc)
  | .serverNameResp => .ok []
  | .maxFragmentLength c => toBytes 1 c         -- max_fragment_length.py:62-63
  | .ocspStatusReq ids exts => do               -- status_request.py:46-50, 76-87
    let l ← writeListVar 2 2 ids
    let e ← writeVar 2 exts
    return beEnc 1 1 ++ (l ++ e)
  | .ocspStatus r => do                         -- status_request.py:127-131, 148-152
    let b ← writeVar 3 r
    return beEnc 1 1 ++ b
  | .supportedGroups l => writeListInt 2 2 l    -- supported_groups.py:38-45
  | .signatureAlgorithms l => writeListInt 2 2 l -- signature_algorithms.py:29-36
  | .signatureAlgorithmsCert l => writeListInt 2 2 l
  | .heartbeat m => toBytes 1 m                 -- heartbeat.py:37-38
  | .alpn l => writeListVar 2 1 l               -- alpn.py:37-48
  | .sct => .ok []
  | .clientCertTypeReq _ => .error .attributeError -- certificate_type.py:34-38 (misspelled)
  | .serverCertTypeReq _ => .error .attributeError
  | .clientCertTypeResp _ => .error .attributeError -- certificate_type.py:57-59 (classmethod)
  | .serverCertTypeResp _ => .error .attributeError
  | .padding n => .ok (zeros n)                 -- padding.py:29-30
  | .pskReq ids binders =>                      -- pre_shared_key.py:53-68
    if ids.isEmpty then do                      -- (`pskid.identify` is misspelled)
      let n ← toBytes 2 binders.length
      return beEnc 2 0 ++ (n ++ binders.flatten)
    else .error .attributeError
  | .pskResp i => toBytes 2 i                   -- pre_shared_key.py:91-92
  | .earlyData => .ok []
  | .newSessionEarlyData i => toBytes 4 i       -- early_data.py:52-53
  | .supportedVersionsReq l => writeListInt 1 2 l -- supported_versions.py:35-39
  | .supportedVersionsResp v => toBytes 2 v     -- supported_versions.py:72-73
  | .cookie c => writeVar 2 c                   -- cookie.py:34-38
  | .pskModes l => writeListInt 1 1 l           -- psk_key_exchange_modes.py:34-38
  | .oidFilters l => do                         -- oid_filters.py:47-59
    let b ← concatMapM (fun f => do
      let a ← writeVar 1 f.1
      let v ← writeVar 2 f.2
      return a ++ v) l
    writeVar 2 b
  | .postHandshakeAuth => .ok []
  | .keyShareReq l => do                        -- key_share.py:42-55
    let b ← concatMapM (fun gk => do
      let g ← toBytes 2 gk.1
      let k ← writeVar 2 gk.2
      return g ++ k) l
    writeVar 2 b
  | .keyShareRetry g => toBytes 2 g             -- key_share.py:80-81
  | .keyShareResp g k => do                     -- key_share.py:113-120
    let a ← toBytes 2 g
    let b ← writeVar 2 k
    return a ++ b
  | .unknown _ d => .ok d                       -- extensions/__init__.py:125-126

/-- `Extension.serialize`, extensions/__init__.py:98-104. -/
def serExt (E : Env) (e : Ext) : Except Exn Bytes := do
  let body ← serExtBody E e
  let t ← toBytes 2 e.type
  let b ← writeVar 2 body
  return t ++ b

/-- `{ext.extension_type: ext for ext in extensions}`: insertion order of the first
occurrence, value of the last one. -/
def dictOfExts (l : List Ext) : List Ext :=
  l.foldl (fun d e =>
    if d.any (·.type = e.type) then d.map (fun x => if x.type = e.type then e else x)
    else d ++ [e]) []

/-- `extensions.get(type)` / `extensions[type]`. -/
def findExt (d : List Ext) (type : Nat) : Option Ext := d.find? (·.type = type)

/-- dict equality (order does not matter). -/
def dictEq (a b : List (Nat × Bytes)) : Bool :=
  a.length = b.length && a.all fun kv => b.lookup kv.1 = some kv.2

/-- `ext1 == ext2` for two extensions of a ClientHello with the same type: dataclass equality,
except the certificate-type classes which inherit `Extension.__eq__` and so ignore their
content (certificate_type.py:62,78 are not decorated). -/
def Ext.pyEq : Ext → Ext → Bool
  | .clientCertTypeReq _, .clientCertTypeReq _ => true
  | .serverCertTypeReq _, .serverCertTypeReq _ => true
  | .keyShareReq a, .keyShareReq b => dictEq a b
  | a, b => a = b

end Siotls
