import Verif.Model.Hkdf
import Verif.Model.Utils
/-!
# Cipher suites and the key schedule: /repo/src/siotls/crypto/ciphers.py

Simplifications: `derive_early_secrets` (54-69, 209-228), which no state calls, is in
`EarlySecrets.lean`; the `peekable(iter(range(usage_limit)))` sequence is represented by the
number of values already taken (justified by property C52: peeking consumes nothing).
-/

namespace Siotls
open Serial

/-- Class attributes of a suite, ciphers.py:308-366. `usageLimit = none` is `...` (Ellipsis). -/
structure SuiteInfo where
  id : Nat
  digest : HashAlg
  keyLength : Nat
  tagLength : Nat
  nonceLength : Nat
  usageLimit : Option Nat
  deriving DecidableEq, Repr

/-- `TLSCipherSuite._registry`, ciphers.py:308-366 (`int(2 ** 23.5) = 11863283`). -/
def suiteInfo : Nat → Option SuiteInfo
  | 0x1301 => some ⟨0x1301, .sha256, 16, 16, 12, some 11863283⟩
  | 0x1302 => some ⟨0x1302, .sha384, 32, 16, 12, some 11863283⟩
  | 0x1303 => some ⟨0x1303, .sha256, 32, 16, 12, some (2 ^ 64)⟩
  | 0x1304 => some ⟨0x1304, .sha256, 16, 16, 12, none⟩
  | 0x1305 => some ⟨0x1305, .sha256, 16, 8, 12, none⟩
  | _ => none

/-- `REKEY_THRESHOLD`, ciphers.py:17. -/
def rekeyThreshold : Nat := 1024

/-- `_TLSSecrets`, ciphers.py:31-38: `stage` is EARLY 0, HANDSHAKE 1, APPLICATION 2. -/
structure Secrets where
  stage : Nat
  salt : Bytes
  deriving DecidableEq, Repr

/-- A finished key attribute: not set yet, set to None, or a key. -/
inductive FinKey where
  | unset
  | none
  | key (k : Bytes)
  deriving DecidableEq, Repr

/-- One direction of protection: `_write_cipher` (its key), `_write_iv`, `_write_seq`; likewise
for reading. The three attributes are separate because the CCM suites raise TypeError between
the second and the third assignment. -/
structure Dir where
  key : Option Bytes
  iv : Option Bytes
  seq : Option Nat
  deriving DecidableEq, Repr

def Dir.empty : Dir := ⟨none, none, none⟩

/-- `TLSCipherSuite` instance, ciphers.py:122-127. -/
structure CipherSt where
  info : SuiteInfo
  side : Side
  secrets : Secrets
  rd : Dir
  wr : Dir
  cFin : FinKey
  sFin : FinKey
  deriving DecidableEq, Repr

/-- `TLSCipherSuite[…](side, client_unique)`, ciphers.py:122-127, 32-37. -/
def CipherSt.new (info : SuiteInfo) (side : Side) : CipherSt :=
  ⟨info, side, ⟨0, zeros info.digest.size⟩, .empty, .empty, .unset, .unset⟩

/-- `_make_deriver(..., update_salt=True)`: the secret and the next salt, ciphers.py:39-46. -/
def extractNext (E : Env) (a : HashAlg) (salt ikm : Bytes) : Except Exn (Bytes × Bytes) := do
  let secret := hkdfExtract E a salt ikm
  let salt' ← deriveSecret E a secret lblDerived (E.hash a [])
  return (secret, salt')

/-- `_derive_key_and_iv`, ciphers.py:198-203. -/
def deriveKeyIv (E : Env) (info : SuiteInfo) (secret : Bytes) : Except Exn (Bytes × Bytes) := do
  let k ← hkdfExpandLabel E info.digest secret lblKey [] info.keyLength
  let iv ← hkdfExpandLabel E info.digest secret lblIv [] info.nonceLength
  return (k, iv)

/-- `skip_early_secrets`, ciphers.py:49-52, 206-207. -/
def skipEarly (E : Env) (c : CipherSt) : Except Exn CipherSt :=
  if c.secrets.stage ≠ 0 then .error .assertion else do
  let (_, salt) ← extractNext E c.info.digest c.secrets.salt (zeros c.info.digest.size)
  return { c with secrets := ⟨1, salt⟩ }

/-- installation of one direction, e.g. ciphers.py:244-246: key and IV, then the sequence
`range(usage_limit)` (TypeError for `...`). -/
def installDir (info : SuiteInfo) (key iv : Bytes) : Except Exn Unit × Dir :=
  match info.usageLimit with
  | some _ => (.ok (), ⟨some key, some iv, some 0⟩)
  | none => (.error .typeError, ⟨some key, some iv, none⟩)

/-- ciphers.py:243-256 (and 280-293): write then read direction, by side. -/
def installKeys (c : CipherSt) (clientKey clientIv serverKey serverIv : Bytes) :
    Except Exn Unit × CipherSt :=
  let (wk, wi, rk, ri) := match c.side with
    | .client => (clientKey, clientIv, serverKey, serverIv)
    | .server => (serverKey, serverIv, clientKey, clientIv)
  match installDir c.info wk wi with
  | (.error e, d) => (.error e, { c with wr := { d with seq := c.wr.seq } })
  | (.ok _, d) =>
    let c := { c with wr := d }
    match installDir c.info rk ri with
    | (.error e, d) => (.error e, { c with rd := { d with seq := c.rd.seq } })
    | (.ok _, d) => (.ok (), { c with rd := d })

/-- the derivations of `derive_handshake_secrets`, ciphers.py:69-81, 230-242: new salt,
client/server handshake traffic secrets. -/
def handshakeSecrets (E : Env) (c : CipherSt) (shared hash : Bytes) :
    Except Exn (Bytes × Bytes × Bytes) :=
  if c.secrets.stage ≠ 1 then .error .assertion else do
  let (secret, salt) ← extractNext E c.info.digest c.secrets.salt shared
  let ct ← deriveSecret E c.info.digest secret lblCHs hash
  let st ← deriveSecret E c.info.digest secret lblSHs hash
  return (salt, ct, st)

/-- `derive_handshake_secrets`, ciphers.py:230-261. -/
def deriveHandshake (E : Env) (c : CipherSt) (shared hash : Bytes) : Except Exn Unit × CipherSt :=
  match handshakeSecrets E c shared hash with
  | .error e => (.error e, c)
  | .ok (salt, ct, st) =>
    let c := { c with secrets := ⟨2, salt⟩ }
    let keys : Except Exn _ := do
      let cf ← deriveSecret E c.info.digest ct lblFinished []
      let sf ← deriveSecret E c.info.digest st lblFinished []
      let ck ← deriveKeyIv E c.info ct
      let sk ← deriveKeyIv E c.info st
      return (cf, sf, ck, sk)
    match keys with
    | .error e => (.error e, c)
    | .ok (cf, sf, (ck, ci), (sk, si)) =>
      installKeys { c with cFin := .key cf, sFin := .key sf } ck ci sk si

/-- the derivations of `derive_master_secrets`, ciphers.py:83-100: client/server application
traffic, exporter master, resumption master. -/
def masterSecrets (E : Env) (c : CipherSt) (serverFin clientFin : Bytes) :
    Except Exn (Bytes × Bytes × Bytes × Bytes) :=
  if c.secrets.stage ≠ 2 then .error .assertion else do
  let secret := hkdfExtract E c.info.digest c.secrets.salt (zeros c.info.digest.size)
  let ct ← deriveSecret E c.info.digest secret lblCAp serverFin
  let st ← deriveSecret E c.info.digest secret lblSAp serverFin
  let ex ← deriveSecret E c.info.digest secret lblExp serverFin
  let rs ← deriveSecret E c.info.digest secret lblRes clientFin
  return (ct, st, ex, rs)

/-- `derive_master_secrets`, ciphers.py:263-305. -/
def deriveMaster (E : Env) (c : CipherSt) (serverFin clientFin : Bytes) :
    Except Exn (Bytes × Bytes) × CipherSt :=
  match masterSecrets E c serverFin clientFin with
  | .error e => (.error e, c)
  | .ok (ct, st, ex, rs) =>
    let keys : Except Exn _ := do
      let ck ← deriveKeyIv E c.info ct
      let sk ← deriveKeyIv E c.info st
      return (ck, sk)
    match keys with
    | .error e => (.error e, c)
    | .ok ((ck, ci), (sk, si)) =>
      match installKeys c ck ci sk si with
      | (.error e, c) => (.error e, c)
      | (.ok _, c) => (.ok (ex, rs), { c with cFin := .none, sFin := .none })

/-- `bytes.hex()` -/
def hexBytes (b : Bytes) : PyStr := b.flatMap fun x => [hexDigit (x.toNat / 16), hexDigit (x.toNat % 16)]

/-- `key_logger.info("LABEL %s %s", self._client_unique_hex, secret.hex())` -/
def logLine (label : String) (id : PyStr) (secret : Bytes) : PyStr :=
  label.toList ++ ' ' :: (id ++ ' ' :: hexBytes secret)

/-- what `derive_handshake_secrets` logs once everything else is done, ciphers.py:257-261; `id` is
`_client_unique_hex`. -/
def handshakeLog (E : Env) (id : PyStr) (c : CipherSt) (shared hash : Bytes) : List PyStr :=
  if id = [] then [] else
  match (deriveHandshake E c shared hash).1, handshakeSecrets E c shared hash with
  | .ok _, .ok (_, ct, st) =>
    [logLine "CLIENT_HANDSHAKE_TRAFFIC_SECRET" id ct, logLine "SERVER_HANDSHAKE_TRAFFIC_SECRET" id st]
  | _, _ => []

/-- what `derive_master_secrets` logs once everything else is done, ciphers.py:297-303. -/
def masterLog (E : Env) (id : PyStr) (c : CipherSt) (serverFin clientFin : Bytes) : List PyStr :=
  if id = [] then [] else
  match (deriveMaster E c serverFin clientFin).1, masterSecrets E c serverFin clientFin with
  | .ok _, .ok (ct, st, ex, _) =>
    [logLine "CLIENT_TRAFFIC_SECRET_0" id ct, logLine "SERVER_TRAFFIC_SECRET_0" id st,
     logLine "EXPORTER_SECRET" id ex]
  | _, _ => []

/-- `nonce = self._write_iv ^ next(self._write_seq)`, ciphers.py:155-164: the next nonce of a
direction and the direction after it. The integer xor on `nonce_length` bytes is the bytewise
xor of the IV with the big-endian sequence number. TypeError when the sequence is None,
StopIteration when it is exhausted. -/
def nextNonce (info : SuiteInfo) (d : Dir) : Except Exn (Bytes × Dir) :=
  match d.iv, d.seq, info.usageLimit with
  | some iv, some n, some limit =>
    if n < limit then
      .ok (xorBytes iv (beEnc info.nonceLength n), { d with seq := some (n + 1) })
    else .error .stopIteration
  | _, _, _ => .error .typeError

/-- `hmac.digest(key, transcript_hash, digestmod)` with a finished key: AttributeError when
never set, TypeError when None. -/
def finMac (E : Env) (a : HashAlg) (k : FinKey) (hash : Bytes) : Except Exn Bytes :=
  match k with
  | .unset => .error .attributeError
  | .none => .error .typeError
  | .key k => .ok (E.hmac a k hash)

/-- `sign_finish`, ciphers.py:170-176. -/
def signFinish (E : Env) (c : CipherSt) (hash : Bytes) : Except Exn Bytes :=
  finMac E c.info.digest (match c.side with | .client => c.cFin | .server => c.sFin) hash

/-- `verify_finish`, ciphers.py:178-187. -/
def verifyFinish (E : Env) (c : CipherSt) (hash verifyData : Bytes) : Except Exn Unit := do
  let mac ← finMac E c.info.digest (match c.side with | .client => c.sFin | .server => c.cFin) hash
  if mac = verifyData then return () else .error .valueError

end Siotls
