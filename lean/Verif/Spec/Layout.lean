import Verif.Model.Bytes
/-!
# The bytes of the hello messages (RFC 8446 §4.1.2, §4.1.3), independently of the codecs
-/

namespace Siotls.Spec
open Siotls

/-- The big-endian value of a byte string, written without the model's helpers. -/
def bigEndian : Bytes → Nat
  | [] => 0
  | x :: xs => x.toNat * 256 ^ xs.length + bigEndian xs

/-- two bytes, big endian -/
def be16 (n : Nat) : Bytes := [UInt8.ofNat (n / 256), UInt8.ofNat (n % 256)]

/-- a variable-length vector with a one-byte length -/
def vec8 (b : Bytes) : Bytes := UInt8.ofNat b.length :: b

/-- a variable-length vector with a two-byte length -/
def vec16 (b : Bytes) : Bytes := be16 b.length ++ b

/-- a handshake message: type, 24-bit length, body -/
def message (type : UInt8) (body : Bytes) : Bytes :=
  type :: UInt8.ofNat (body.length / 65536) :: (be16 (body.length % 65536) ++ body)

/-- `struct { ExtensionType extension_type; opaque extension_data<0..2^16-1>; } Extension;` -/
def extensions (items : List (Nat × Bytes)) : Bytes :=
  vec16 (items.flatMap fun x => be16 x.1 ++ vec16 x.2)

/-- RFC 8446 §4.1.2: legacy_version = 0x0303, random, legacy_session_id<0..32>,
cipher_suites<2..2^16-2>, legacy_compression_methods<1..2^8-1> = { 0 }, extensions. -/
def clientHello (random sid : Bytes) (suites : List Nat) (items : List (Nat × Bytes)) : Bytes :=
  message 1 ([3, 3] ++ random ++ vec8 sid ++ vec16 (suites.flatMap be16) ++ vec8 [0] ++
    extensions items)

/-- RFC 8446 §4.1.3: legacy_version = 0x0303, random, legacy_session_id_echo<0..32>,
cipher_suite, legacy_compression_method = 0, extensions. -/
def serverHello (random sid : Bytes) (suite : Nat) (items : List (Nat × Bytes)) : Bytes :=
  message 2 ([3, 3] ++ random ++ vec8 sid ++ be16 suite ++ [0] ++ extensions items)

/-- RFC 8446 §4.1.3: the random of a HelloRetryRequest, SHA-256 of "HelloRetryRequest" -/
def helloRetryRandom : Bytes :=
  [0xCF, 0x21, 0xAD, 0x74, 0xE5, 0x9A, 0x61, 0x11, 0xBE, 0x1D, 0x8C, 0x02, 0x1E, 0x65, 0xB8, 0x91,
   0xC2, 0xA2, 0x11, 0x16, 0x7A, 0xBB, 0x8C, 0x5E, 0x07, 0x9E, 0x09, 0xE2, 0xC8, 0xA8, 0x33, 0x9C]

end Siotls.Spec
