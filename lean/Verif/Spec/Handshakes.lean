import Verif.Model.Contents
import Verif.Spec.Extensions
/-!
# Handshake messages that the library may send (RFC 8446 §4), independently of the codecs
-/

namespace Siotls.Spec
open Siotls

/-- no extension type twice: extensions are kept in a dict -/
def DistinctTypes (exts : List Ext) : Prop := (exts.map Ext.type).Nodup

/-- every extension is one that survives the trip inside this kind of message -/
def GoodExts (E : Env) (k : HsKind) (exts : List Ext) : Prop :=
  DistinctTypes exts ∧ ∀ e ∈ exts, RoundTrips E k e

/-- A certificate entry of the negotiated type `raw` that `cryptography` can load again. -/
def GoodEntry (E : Env) (raw : Bool) : CertEntry → Prop
  | .x509 c exts => raw = false ∧ E.certLoad (E.certDer c) = .ok c ∧ GoodExts E .certificate exts
  | .rawKey k exts => raw = true ∧ E.pkLoad (E.pkDer k) = .ok k ∧ GoodExts E .certificate exts

/-- "built from wire-representable fields": the constraints of RFC 8446 §4.1.2–§4.4.4 that the
length prefixes do not express. `certType` is the certificate type negotiated by the receiver. -/
def GoodMsg (E : Env) (certType : Option (Option Nat)) : Handshake → Prop
  | .clientHello random _ suites exts =>
    random.length = 32 ∧ suites ≠ [] ∧ GoodExts E .clientHello exts
  | .serverHello random _ _ exts =>
    random.length = 32 ∧ random ≠ hrrRandom ∧ GoodExts E .serverHello exts
  | .helloRetryRequest random _ _ exts =>
    random = hrrRandom ∧ GoodExts E .helloRetryRequest exts
  | .encryptedExtensions exts => GoodExts E .encryptedExtensions exts
  | .certificateRequest _ exts =>
    (∃ e ∈ exts, e.type = 13) ∧ GoodExts E .certificateRequest exts
  | .certificate _ entries =>
    (certType = some (some 0) ∧ ∀ e ∈ entries, GoodEntry E false e) ∨
    (certType = some (some 2) ∧ ∀ e ∈ entries, GoodEntry E true e)
  | .certificateVerify _ _ => True
  | .finished _ => True

end Siotls.Spec
