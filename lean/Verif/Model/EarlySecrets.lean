import Verif.Model.Ciphers
/-!
# Early secrets of a pre-shared key: /repo/src/siotls/crypto/ciphers.py

No state calls `derive_early_secrets`: it is the library's entry point for the pre-shared keys and
the early data to come. Simplification: `psk_mode` is a string and the hash and the key are bytes
(Python does not check it).
-/

namespace Siotls
open Serial

/-- 'external' -/
def modeExternal : PyStr := "external".toList
/-- 'resume' -/
def modeResume : PyStr := "resume".toList

/-- `f'{psk_mode[:3]} binder'.encode()`, ciphers.py:57: ASCII for the two modes that pass the
assertion before. -/
def pskLabel (mode : PyStr) : Bytes :=
  (mode.take 3 ++ " binder".toList).map fun c => UInt8.ofNat c.toNat

/-- the three derivations with the early secret, ciphers.py:61-63: binder key, early exporter
master, client early traffic. -/
def earlySecrets (E : Env) (a : HashAlg) (secret : Bytes) (mode : PyStr) (hash : Bytes) :
    Except Exn (Bytes × Bytes × Bytes) := do
  let bk ← deriveSecret E a secret (pskLabel mode) (E.hash a [])
  let ex ← deriveSecret E a secret lblEExp hash
  let ct ← deriveSecret E a secret lblCE hash
  return (bk, ex, ct)

/-- ciphers.py:215-222: the one direction that early data take, by side. -/
def installEarly (c : CipherSt) (key iv : Bytes) : Except Exn Unit × CipherSt :=
  match c.side, installDir c.info key iv with
  | .client, (.error e, d) => (.error e, { c with wr := { d with seq := c.wr.seq } })
  | .client, (.ok _, d) => (.ok (), { c with wr := d })
  | .server, (.error e, d) => (.error e, { c with rd := { d with seq := c.rd.seq } })
  | .server, (.ok _, d) => (.ok (), { c with rd := d })

/-- `derive_early_secrets`, ciphers.py:54-69 and 209-228: the binder key and the early exporter
master, and the lines given to the key logger; `id` is `_client_unique_hex`. -/
def deriveEarly (E : Env) (id : PyStr) (c : CipherSt) (psk : Bytes) (mode : PyStr) (hash : Bytes) :
    Except Exn (Bytes × Bytes) × CipherSt × List PyStr :=
  if c.secrets.stage ≠ 0 then (.error .assertion, c, [])
  else if mode ≠ modeExternal ∧ mode ≠ modeResume then (.error .assertion, c, [])
  else
    match extractNext E c.info.digest c.secrets.salt psk with
    | .error e => (.error e, c, [])
    | .ok (secret, salt) =>
      let c := { c with secrets := ⟨1, salt⟩ }
      let keys : Except Exn _ := do
        let (bk, ex, ct) ← earlySecrets E c.info.digest secret mode hash
        let k ← deriveKeyIv E c.info ct
        return (bk, ex, ct, k)
      match keys with
      | .error e => (.error e, c, [])
      | .ok (bk, ex, ct, (ck, ci)) =>
        match installEarly c ck ci with
        | (.error e, c) => (.error e, c, [])
        | (.ok _, c) =>
          (.ok (bk, ex), c,
            if id = [] then [] else [logLine "CLIENT_EARLY_TRAFFIC_SECRET" id ct])

end Siotls
