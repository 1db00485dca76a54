import Verif.Model.Extensions
/-!
# Handshake messages: /repo/src/siotls/contents/handshakes/
-/

namespace Siotls
open Serial

/-- `CertificateEntry` objects, handshakes/certificate.py:78-113. `exts` is the dict. -/
inductive CertEntry where
  | x509 (cert : Bytes) (exts : List Ext)
  | rawKey (key : Bytes) (exts : List Ext)
  deriving DecidableEq, Repr

/-- Handshake objects. Extension lists are the dicts built by the constructors. -/
inductive Handshake where
  /-- client_hello.py (`legacy_version` and `legacy_compression_methods` are constants) -/
  | clientHello (random sessionId : Bytes) (suites : List Nat) (exts : List Ext)
  /-- server_hello.py:15-97 -/
  | serverHello (random sessionId : Bytes) (suite : Nat) (exts : List Ext)
  /-- server_hello.py:100-107; the instance's random is the one given to `__init__` -/
  | helloRetryRequest (random sessionId : Bytes) (suite : Nat) (exts : List Ext)
  /-- encrypted_extensions.py -/
  | encryptedExtensions (exts : List Ext)
  /-- certificate_request.py -/
  | certificateRequest (context : Bytes) (exts : List Ext)
  /-- certificate.py:116-164 -/
  | certificate (context : Bytes) (entries : List CertEntry)
  /-- certificate_verify.py -/
  | certificateVerify (alg : Nat) (signature : Bytes)
  /-- finished.py -/
  | finished (verifyData : Bytes)
  deriving DecidableEq, Repr

/-- `content.msg_type` (HELLO_RETRY_REQUEST == SERVER_HELLO == 2). -/
def Handshake.msgType : Handshake → Nat
  | clientHello .. => 1
  | serverHello .. => 2
  | helloRetryRequest .. => 2
  | encryptedExtensions .. => 8
  | certificate .. => 11
  | certificateRequest .. => 13
  | certificateVerify .. => 15
  | finished .. => 20

/-- `HelloRetryRequest.random`, server_hello.py:104-107. -/
def hrrRandom : Bytes :=
  [0xCF, 0x21, 0xAD, 0x74, 0xE5, 0x9A, 0x61, 0x11, 0xBE, 0x1D, 0x8C, 0x02, 0x1E, 0x65, 0xB8, 0x91,
   0xC2, 0xA2, 0x11, 0x16, 0x7A, 0xBB, 0x8C, 0x5E, 0x07, 0x9E, 0x09, 0xE2, 0xC8, 0xA8, 0x33, 0x9C]

/-- `_find_duplicated_extension`, client_hello.py:16-25: does it raise ValueError? -/
def conflictingDup : List Ext → Bool
  | [] => false
  | e :: es => es.any (fun f => e.type = f.type && !e.pyEq f) || conflictingDup es

/-- `ClientHello.__init__`, client_hello.py:54-79. -/
def mkClientHello (random : Bytes) (suites : List Nat) (exts : List Ext) :
    Except Exn Handshake :=
  let d := dictOfExts exts
  if random.length ≠ 32 then .error .valueError
  else if suites.isEmpty then .error .valueError
  else if d.length ≠ exts.length ∧ conflictingDup exts then .error .valueError
  else if (findExt d Iana.extPreSharedKey).isSome then
    if (exts.getLast?.map Ext.type) ≠ some Iana.extPreSharedKey then .error .valueError
    else if (findExt d Iana.extPskKeyExchangeModes).isNone then .error .valueError
    else .ok (.clientHello random [] suites d)
  else .ok (.clientHello random [] suites d)

/-- `list_stream = SerialIO(stream.read_var(2)); while …: Extension.parse(list_stream, …)`,
e.g. client_hello.py:103-107, server_hello.py:77-81. -/
def parseExtList (E : Env) (kind : HsKind) : P (List Ext) := do
  let b ← readVar 2
  P.lift (parseMany (parseExt E kind) b)

/-- `ClientHello.parse_body`, client_hello.py:82-114. -/
def parseClientHello (E : Env) : P Handshake := do
  let version ← readInt 2
  if version ≠ Iana.tls12 then P.throw (.alert Iana.protocolVersion) else do
  let random ← readExactly 32
  let sessionId ← readVar 1
  let suites ← readListInt 2 2
  let compression ← readVar 1
  if compression ≠ [0] then P.throw (.alert Iana.illegalParameter) else do
  let exts ← parseExtList E .clientHello
  let self ← P.lift (mapValueError (.alert Iana.illegalParameter)
    (mkClientHello random suites exts))
  match self with
  | .clientHello r _ s d => return .clientHello r sessionId s d
  | h => return h

/-- `ServerHello.parse_body`, server_hello.py:56-83. -/
def parseServerHello (E : Env) : P Handshake := do
  let version ← readInt 2
  if version ≠ Iana.tls12 then P.throw (.alert Iana.protocolVersion) else do
  let random ← readExactly 32
  let sessionId ← readVar 1
  let suite ← readInt 2
  let compression ← readInt 1
  if compression ≠ 0 then P.throw (.alert Iana.illegalParameter) else do
  if random = hrrRandom then do
    let exts ← parseExtList E .helloRetryRequest
    return .helloRetryRequest random sessionId suite (dictOfExts exts)
  else do
    let exts ← parseExtList E .serverHello
    return .serverHello random sessionId suite (dictOfExts exts)

/-- `EncryptedExtensions.parse_body`, encrypted_extensions.py:30-37. -/
def parseEncryptedExtensions (E : Env) : P Handshake := do
  let exts ← parseExtList E .encryptedExtensions
  return .encryptedExtensions (dictOfExts exts)

/-- `CertificateRequest.parse_body`, certificate_request.py:33-46, and `__init__`, 24-30. -/
def parseCertificateRequest (E : Env) : P Handshake := do
  let ctx ← readVar 1
  let exts ← parseExtList E .certificateRequest
  let d := dictOfExts exts
  if (findExt d Iana.extSignatureAlgorithms).isNone then P.throw (.alert Iana.illegalParameter)
  else return .certificateRequest ctx d

/-- `X509.parse` / `RawPublicKey.parse`: `CertificateEntry.parse`, certificate.py:46-61. -/
def parseCertEntry (E : Env) (raw : Bool) : P CertEntry := do
  let data ← readVar 3
  let obj ← P.lift (if raw then E.pkLoad data else E.certLoad data)
  let exts ← parseExtList E .certificate
  if raw then return .rawKey obj (dictOfExts exts) else return .x509 obj (dictOfExts exts)

/-- `while stream.tell() < limit: …`, certificate.py:143-145. Fuel: bytes left. -/
def untilPos {α} (p : P α) (lim : Nat) : Nat → P (List α)
  | k, s =>
    if s.pos < lim then
      match k with
      | 0 => .error .fuel
      | k + 1 =>
        match p s with
        | .error e => .error e
        | .ok (a, s') =>
          match untilPos p lim k s' with
          | .error e => .error e
          | .ok (as, s'') => .ok (a :: as, s'')
    else .ok ([], s)

/-- `Certificate.parse_body`, certificate.py:133-151. `certType` is the lookup key
`nconfig.{client,server}_certificate_type`: outer `none` when `nconfig` is None
(AttributeError), inner `none` when not negotiated yet (KeyError). -/
def parseCertificate (E : Env) (certType : Option (Option Nat)) : P Handshake :=
  let entry : Except Exn Bool := match certType with
    | none => .error .attributeError
    | some (some 0) => .ok false
    | some (some 2) => .ok true
    | some _ => .error .keyError
  match entry with
  | .error e => P.throw e
  | .ok raw => do
    let ctx ← readVar 1
    let len ← readInt 3
    let entries ← limit len (fun s =>
      untilPos (parseCertEntry E raw) (s.pos + len) (s.rest.length + 1) s)
    return .certificate ctx entries

/-- `CertificateVerify.parse_body`, certificate_verify.py:28-32. -/
def parseCertificateVerify : P Handshake := do
  let alg ← readInt 2
  let sig ← readVar 2
  return .certificateVerify alg sig

/-- `Finished.parse_body`, finished.py:25-26. -/
def parseFinished : P Handshake := do
  let d ← readAll
  return .finished d

/-- `cls.parse_body(stream, **kwargs)` dispatched on the (known) message type. `none` models
the Python value `None` that the classes without `parse_body` return
(end_of_early_data.py, key_update.py, new_session_ticket.py). -/
def parseHsBody (E : Env) (certType : Option (Option Nat)) (msgType : Nat) :
    P (Option Handshake) :=
  match msgType with
  | 1 => some <$> parseClientHello E
  | 2 => some <$> parseServerHello E
  | 8 => some <$> parseEncryptedExtensions E
  | 11 => some <$> parseCertificate E certType
  | 13 => some <$> parseCertificateRequest E
  | 15 => some <$> parseCertificateVerify
  | 20 => some <$> parseFinished
  | _ => return none

/-- `_handshake_registry[HandshakeType(msg_type)]`, handshakes/__init__.py:45-48. -/
def hsRegistry (msgType : Nat) : Except Exn Unit :=
  if [1, 2, 4, 5, 8, 11, 13, 15, 20, 24].contains msgType then .ok ()
  else if msgType = 254 then .error .keyError
  else .error (.alert Iana.illegalParameter)

/-- `Handshake.parse`, handshakes/__init__.py:41-51. -/
def parseHandshake (E : Env) (certType : Option (Option Nat)) : P (Option Handshake) := do
  let msgType ← readInt 1
  let len ← readInt 3
  P.lift (hsRegistry msgType)
  limit len (parseHsBody E certType msgType)

/-- `b''.join(ext.serialize() for ext in self.extensions.values())` with its 2-byte length. -/
def serExtList (E : Env) (exts : List Ext) : Except Exn Bytes := do
  let b ← concatMapM (serExt E) exts
  writeVar 2 b

/-- `CertificateEntry.serialize`, certificate.py:63-72. -/
def serCertEntry (E : Env) : CertEntry → Except Exn Bytes
  | .x509 c exts => do
    let e ← serExtList E exts
    let b ← writeVar 3 (E.certDer c)
    return b ++ e
  | .rawKey k exts => do
    let e ← serExtList E exts
    let b ← writeVar 3 (E.pkDer k)
    return b ++ e

/-- `serialize_body` of the hellos: client_hello.py:116-134, server_hello.py:85-97;
encrypted_extensions.py:39-44; certificate_request.py:48-56; certificate.py:153-161;
certificate_verify.py:34-39; finished.py:30-31. -/
def serHsBody (E : Env) : Handshake → Except Exn Bytes
  | .clientHello random sid suites exts => do
    let e ← serExtList E exts
    let s ← writeVar 1 sid
    let c ← writeListInt 2 2 suites
    return beEnc 2 Iana.tls12 ++ (random ++ (s ++ (c ++ (beEnc 1 1 ++ [0] ++ e))))
  | .serverHello random sid suite exts => do
    let e ← serExtList E exts
    let s ← writeVar 1 sid
    let c ← toBytes 2 suite
    return beEnc 2 Iana.tls12 ++ (random ++ (s ++ (c ++ (beEnc 1 0 ++ e))))
  | .helloRetryRequest random sid suite exts => do
    let e ← serExtList E exts
    let s ← writeVar 1 sid
    let c ← toBytes 2 suite
    return beEnc 2 Iana.tls12 ++ (random ++ (s ++ (c ++ (beEnc 1 0 ++ e))))
  | .encryptedExtensions exts => serExtList E exts
  | .certificateRequest ctx exts => do
    let e ← serExtList E exts
    let c ← writeVar 1 ctx
    return c ++ e
  | .certificate ctx entries => do
    let e ← concatMapM (serCertEntry E) entries
    let c ← writeVar 1 ctx
    let l ← writeVar 3 e
    return c ++ l
  | .certificateVerify alg sig => do
    let a ← toBytes 2 alg
    let s ← writeVar 2 sig
    return a ++ s
  | .finished d => .ok d

/-- `Handshake.serialize`, handshakes/__init__.py:53-59. -/
def serHandshake (E : Env) (h : Handshake) : Except Exn Bytes := do
  let body ← serHsBody E h
  let b ← writeVar 3 body
  return beEnc 1 h.msgType ++ b

end Siotls
