import Verif.Model.Bytes
import Verif.Model.Env
/-!
# RFC 5869 (HKDF) and RFC 8446 section 7 (key schedule), written from the RFCs

Parameterized by an arbitrary HMAC, hash and hash length (`Env.spec` takes them from the
environment). Nothing here uses the model's functions; labels are ordinary string literals.
-/

namespace Siotls.Spec

/-- ASCII bytes of a string literal. -/
def ascii (s : String) : Bytes := s.toList.map fun c => UInt8.ofNat c.toNat

/-- A hash function with its HMAC. -/
structure Hash where
  len : Nat
  hash : Bytes → Bytes
  hmac : Bytes → Bytes → Bytes

/-- `HashLen` zero bytes. -/
def Hash.zero (H : Hash) : Bytes := List.replicate H.len 0

/-- RFC 5869 section 2.2 with a given salt. -/
def Hash.extract (H : Hash) (salt ikm : Bytes) : Bytes := H.hmac salt ikm

/-- RFC 5869 section 2.3: T(0) = "", T(i) = HMAC(PRK, T(i-1) | info | i). -/
def Hash.T (H : Hash) (prk info : Bytes) : Nat → Bytes
  | 0 => []
  | i + 1 => H.hmac prk (H.T prk info i ++ info ++ [UInt8.ofNat (i + 1)])

/-- RFC 5869 section 2.3: the first L octets of T(1) | T(2) | ... | T(255). -/
def Hash.expand (H : Hash) (prk info : Bytes) (L : Nat) : Bytes :=
  ((List.range 255).flatMap fun i => H.T prk info (i + 1)).take L

/-- RFC 8446 section 7.1, struct HkdfLabel: uint16 length, opaque label<7..255> = "tls13 " +
label, opaque context<0..255>. -/
def hkdfLabel (L : Nat) (label context : Bytes) : Bytes :=
  [UInt8.ofNat (L / 256), UInt8.ofNat (L % 256)]
    ++ [UInt8.ofNat (6 + label.length)] ++ ascii "tls13 " ++ label
    ++ [UInt8.ofNat context.length] ++ context

/-- RFC 8446 section 7.1, HKDF-Expand-Label. -/
def Hash.expandLabel (H : Hash) (secret label context : Bytes) (L : Nat) : Bytes :=
  H.expand secret (hkdfLabel L label context) L

/-- RFC 8446 section 7.1, Derive-Secret with the transcript hash given. -/
def Hash.deriveSecret (H : Hash) (secret : Bytes) (label : String) (th : Bytes) : Bytes :=
  H.expandLabel secret (ascii label) th H.len

/-- RFC 8446 section 7.1, Early Secret without PSK. -/
def Hash.earlySecret (H : Hash) : Bytes := H.extract H.zero H.zero

def Hash.handshakeSecret (H : Hash) (ecdhe : Bytes) : Bytes :=
  H.extract (H.deriveSecret H.earlySecret "derived" (H.hash [])) ecdhe

def Hash.masterSecret (H : Hash) (ecdhe : Bytes) : Bytes :=
  H.extract (H.deriveSecret (H.handshakeSecret ecdhe) "derived" (H.hash [])) H.zero

/-- client_handshake_traffic_secret; `th` = hash of ClientHello...ServerHello. -/
def Hash.cHs (H : Hash) (ecdhe th : Bytes) := H.deriveSecret (H.handshakeSecret ecdhe) "c hs traffic" th
def Hash.sHs (H : Hash) (ecdhe th : Bytes) := H.deriveSecret (H.handshakeSecret ecdhe) "s hs traffic" th
/-- client_application_traffic_secret_0; `th` = hash of ClientHello...server Finished. -/
def Hash.cAp (H : Hash) (ecdhe th : Bytes) := H.deriveSecret (H.masterSecret ecdhe) "c ap traffic" th
def Hash.sAp (H : Hash) (ecdhe th : Bytes) := H.deriveSecret (H.masterSecret ecdhe) "s ap traffic" th
def Hash.exporter (H : Hash) (ecdhe th : Bytes) := H.deriveSecret (H.masterSecret ecdhe) "exp master" th
/-- resumption_master_secret; `th` = hash of ClientHello...client Finished. -/
def Hash.resumption (H : Hash) (ecdhe th : Bytes) := H.deriveSecret (H.masterSecret ecdhe) "res master" th

/-- RFC 8446 section 7.3: [sender]_write_key. -/
def Hash.writeKey (H : Hash) (secret : Bytes) (keyLength : Nat) :=
  H.expandLabel secret (ascii "key") [] keyLength
/-- RFC 8446 section 7.3: [sender]_write_iv. -/
def Hash.writeIv (H : Hash) (secret : Bytes) (ivLength : Nat) :=
  H.expandLabel secret (ascii "iv") [] ivLength
/-- RFC 8446 section 4.4.4: finished_key. -/
def Hash.finishedKey (H : Hash) (secret : Bytes) :=
  H.expandLabel secret (ascii "finished") [] H.len

/-- RFC 8446 appendix B.4 and section 5.3, RFC 5116/8439/6655: hash, key length of each suite;
the IV length is 12 for all of them. -/
def suiteKeyLength : Nat → Option Nat
  | 0x1301 => some 16 | 0x1302 => some 32 | 0x1303 => some 32 | 0x1304 => some 16
  | 0x1305 => some 16 | _ => none

def suiteHashLen : Nat → Option Nat
  | 0x1301 => some 32 | 0x1302 => some 48 | 0x1303 => some 32 | 0x1304 => some 32
  | 0x1305 => some 32 | _ => none

end Siotls.Spec

namespace Siotls

/-- The specification's view of one of the environment's hashes. -/
def Env.spec (E : Env) (a : HashAlg) : Spec.Hash := ⟨a.size, E.hash a, E.hmac a⟩

/-- Assumption on the environment: digests have their nominal size. -/
structure Env.Sized (E : Env) : Prop where
  hash : ∀ a m, (E.hash a m).length = a.size
  hmac : ∀ a k m, (E.hmac a k m).length = a.size

end Siotls
