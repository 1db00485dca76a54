/-!
# Byte strings and big-endian integers

Python `bytes`/`bytearray` are modelled by `List UInt8`, Python `str` by `List Char`.
-/

namespace Siotls

abbrev Bytes := List UInt8
abbrev PyStr := List Char

/-- `i.to_bytes(n, 'big')` without the overflow check (used everywhere integers are written,
e.g. /repo/src/siotls/serial.py:78-79, connection.py:338-340). Truncates modulo `256^n`;
the overflow check is in `Serial.writeInt`. -/
def beEnc : Nat → Nat → Bytes
  | 0, _ => []
  | n + 1, i => UInt8.ofNat (i / 256 ^ n) :: beEnc n i

/-- `int.from_bytes(b, 'big')` (serial.py:76, connection.py:211,269). -/
def beDec (b : Bytes) : Nat :=
  b.foldl (fun acc x => acc * 256 + x.toNat) 0

/-- `a ^ b` byte per byte on strings of equal length (crypto/ciphers.py:155-164, where the xor
of two big-endian integers is written back on the IV's length). -/
def xorBytes : Bytes → Bytes → Bytes
  | a :: as, b :: bs => (a ^^^ b) :: xorBytes as bs
  | _, _ => []

/-- `bytes(n)` / `b'\x00' * n`. -/
def zeros (n : Nat) : Bytes := List.replicate n 0

end Siotls
