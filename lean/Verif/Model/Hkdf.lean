import Verif.Model.Serial
import Verif.Model.Env
/-!
# HKDF: /repo/src/siotls/crypto/hkdf.py
-/

namespace Siotls
open Serial

/-! Labels, as ASCII bytes. -/
/-- b'tls13 ' -/
def lblTls13 : Bytes := [0x74, 0x6c, 0x73, 0x31, 0x33, 0x20]
/-- b'derived' -/
def lblDerived : Bytes := [0x64, 0x65, 0x72, 0x69, 0x76, 0x65, 0x64]
/-- b'c hs traffic' -/
def lblCHs : Bytes := [0x63, 0x20, 0x68, 0x73, 0x20, 0x74, 0x72, 0x61, 0x66, 0x66, 0x69, 0x63]
/-- b's hs traffic' -/
def lblSHs : Bytes := [0x73, 0x20, 0x68, 0x73, 0x20, 0x74, 0x72, 0x61, 0x66, 0x66, 0x69, 0x63]
/-- b'c ap traffic' -/
def lblCAp : Bytes := [0x63, 0x20, 0x61, 0x70, 0x20, 0x74, 0x72, 0x61, 0x66, 0x66, 0x69, 0x63]
/-- b's ap traffic' -/
def lblSAp : Bytes := [0x73, 0x20, 0x61, 0x70, 0x20, 0x74, 0x72, 0x61, 0x66, 0x66, 0x69, 0x63]
/-- b'exp master' -/
def lblExp : Bytes := [0x65, 0x78, 0x70, 0x20, 0x6d, 0x61, 0x73, 0x74, 0x65, 0x72]
/-- b'res master' -/
def lblRes : Bytes := [0x72, 0x65, 0x73, 0x20, 0x6d, 0x61, 0x73, 0x74, 0x65, 0x72]
/-- b'finished' -/
def lblFinished : Bytes := [0x66, 0x69, 0x6e, 0x69, 0x73, 0x68, 0x65, 0x64]
/-- b'key' -/
def lblKey : Bytes := [0x6b, 0x65, 0x79]
/-- b'iv' -/
def lblIv : Bytes := [0x69, 0x76]
/-- b'e exp master' -/
def lblEExp : Bytes := [0x65, 0x20, 0x65, 0x78, 0x70, 0x20, 0x6d, 0x61, 0x73, 0x74, 0x65, 0x72]
/-- b'c e traffic' -/
def lblCE : Bytes := [0x63, 0x20, 0x65, 0x20, 0x74, 0x72, 0x61, 0x66, 0x66, 0x69, 0x63]
/-- b'ext binder' -/
def lblExtBinder : Bytes := [0x65, 0x78, 0x74, 0x20, 0x62, 0x69, 0x6e, 0x64, 0x65, 0x72]
/-- b'res binder' -/
def lblResBinder : Bytes := [0x72, 0x65, 0x73, 0x20, 0x62, 0x69, 0x6e, 0x64, 0x65, 0x72]

/-- `hkdf_extract`, hkdf.py:7-11. -/
def hkdfExtract (E : Env) (a : HashAlg) (salt ikm : Bytes) : Bytes :=
  E.hmac a (if salt.isEmpty then zeros a.size else salt) ikm

/-- The loop of `hkdf_expand`, hkdf.py:20-22: rounds `i, i+1, …` (`k` of them), `prev` is
`t[i-1]`; returns the concatenation of the `t`s. OverflowError when `i` exceeds 255. -/
def hkdfRounds (E : Env) (a : HashAlg) (prk info : Bytes) : Nat → Nat → Bytes → Except Exn Bytes
  | 0, _, _ => .ok []
  | k + 1, i, prev => do
    let ib ← toBytes 1 i
    let t := E.hmac a prk (prev ++ info ++ ib)
    let rest ← hkdfRounds E a prk info k (i + 1) t
    return t ++ rest

/-- `hkdf_expand`, hkdf.py:13-25. -/
def hkdfExpand (E : Env) (a : HashAlg) (prk info : Bytes) (length : Nat) : Except Exn Bytes :=
  if length = a.size then .ok (E.hmac a prk (info ++ [1]))
  else do
    let n := (length + a.size - 1) / a.size
    let okm ← hkdfRounds E a prk info n 1 []
    return okm.take length

/-- the `HkdfLabel` structure built by `hkdf_expand_label`, hkdf.py:28-35. -/
def hkdfLabel (label context : Bytes) (length : Nat) : Except Exn Bytes := do
  let l ← toBytes 2 length
  let lb ← writeVar 1 (lblTls13 ++ label)
  let cx ← writeVar 1 context
  return l ++ (lb ++ cx)

/-- `hkdf_expand_label`, hkdf.py:27-36. -/
def hkdfExpandLabel (E : Env) (a : HashAlg) (secret label context : Bytes) (length : Nat) :
    Except Exn Bytes := do
  let info ← hkdfLabel label context length
  hkdfExpand E a secret info length

/-- `derive_secret`, hkdf.py:38-40. -/
def deriveSecret (E : Env) (a : HashAlg) (secret label hash : Bytes) : Except Exn Bytes :=
  hkdfExpandLabel E a secret label hash a.size

end Siotls
