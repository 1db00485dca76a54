import Verif.Model.Api
/-!
# A small concrete environment

Used only in `example`s, to show that hypotheses of theorems can be met and to exhibit
counterexamples. The "cryptography" is deliberately trivial (and satisfies the functional laws
that the theorems assume: digest lengths, open∘sealToy, key agreement, verify∘sign).
-/

namespace Siotls.Toy
open Siotls

/-- a checksum, to make digests depend on their input -/
def sum (b : Bytes) : Nat := b.foldl (fun a x => (a * 31 + x.toNat + 1) % 65521) 7

/-- length of the tag of a suite -/
def tagToy (s : Nat) : Nat := if s = 0x1305 then 8 else 16

def sealToy (s : Nat) (k n aad pt : Bytes) : Bytes := pt ++ beEnc (tagToy s) (sum (k ++ n ++ aad))

def env : Env where
  hash a b := (beEnc a.size (sum b)).reverse
  hmac a k m := (beEnc a.size (sum (k ++ 0 :: m))).reverse
  aeadSeal s k n aad pt := sealToy s k n aad pt
  aeadOpen s k n aad ct :=
    let pt := ct.take (ct.length - tagToy s)
    if ct = sealToy s k n aad pt then some pt else none
  kexInit _ d := .ok ([UInt8.ofNat (d + 1)], [UInt8.ofNat (d + 1)])
  kexResume _ priv peer := .ok (xorBytes priv peer ++ [1])
  sign s priv msg _ := .ok (beEnc 2 s ++ priv ++ beEnc 4 (sum msg))
  verify s pub sig msg :=
    if sig = beEnc 2 s ++ pub ++ beEnc 4 (sum msg) then .ok () else .error .invalidSignature
  certLoad b := .ok b
  certDer b := b
  certPub b := .ok b
  certOid _ := .ed25519
  pkLoad b := .ok b
  pkDer b := b
  idnaEncode s := .ok (s.map fun ch => UInt8.ofNat ch.toNat)
  idnaDecode b := some (b.map fun x => Char.ofNat x.toNat)
  isIp _ := false
  verifyChain store _ _ leaf _ _ :=
    if store = leaf then .ok () else .error .verificationError
  ocspUrl _ := .ok none
  ocspRequest cert issuer := cert ++ issuer
  ocspFetch _ _ _ := .error .external
  ocspValidate _ _ _ _ := .ok ()

def clientConfig : Config where
  side := .client
  cipherSuites := [0x1303, 0x1302, 0x1301]
  keyExchanges := [0x1d, 0x17]
  signatureAlgorithms := [0x0807, 0x0403]
  trustStore := some [1, 2, 3]
  revocationList := none
  maxChainDepth := 5
  trustedPublicKeys := []
  privateKey := none
  publicKey := none
  certificateChain := none
  maxFragmentLength := 16384
  canEchoHeartbeat := true
  alpn := []
  serverHostnames := []

def serverConfig : Config where
  side := .server
  cipherSuites := [0x1301, 0x1303]
  keyExchanges := [0x1d]
  signatureAlgorithms := [0x0807]
  trustStore := none
  revocationList := none
  maxChainDepth := 5
  trustedPublicKeys := []
  privateKey := some [1, 2, 3]
  publicKey := none
  certificateChain := some [[1, 2, 3]]
  maxFragmentLength := 16384
  canEchoHeartbeat := true
  alpn := []
  serverHostnames := []

/-- a fresh connection (total: falls back to an arbitrary one, never used) -/
def fresh (cfg : Config) (host : Option PyStr) (algs : List HashAlg) (random : Bytes) : Conn :=
  match Conn.new cfg host false algs random with
  | .ok c => c
  | .error _ => { config := cfg, hostname := none, hasOcsp := false, nconfig := none, cipher := none,
                  signature := none, transcript := ⟨[], 0⟩, inputData := [], inputHandshake := [],
                  outputData := [], applicationData := [], clientUnique := none,
                  serverUnique := none, state := .failed, draws := 0, tr := [] }

def client0 : Conn := fresh clientConfig (some ['a']) [.sha256, .sha384] (List.replicate 32 5)
def server0 : Conn := fresh serverConfig none [.sha256] (List.replicate 32 6)

def client1 : Conn := (Op.initiate.run env client0).2
def server1 : Conn := (Op.initiate.run env server0).2
def server2 : Conn := ((Op.receive client1.outputData).run env server1).2
def client2 : Conn := ((Op.receive server2.outputData).run env ((Op.drain.run env client1).2)).2
def server3 : Conn := ((Op.receive client2.outputData).run env ((Op.drain.run env server2).2)).2
def client3 : Conn := (Op.drain.run env client2).2

end Siotls.Toy
