import Verif.Spec.Stream
/-!
# The life of a connection: failures, closures
-/

namespace Siotls

/-- the description of the alert sent for this exception fits its byte on the wire -/
def Exn.Coded (e : Exn) : Prop := alertFor e < 256

instance (e : Exn) : Decidable e.Coded := inferInstanceAs (Decidable (_ < _))

/-- The code outside of siotls raises no TLS alert that cannot be encoded (it raises none at all). -/
structure Env.Outside (E : Env) : Prop where
  kexInit : ∀ g d e, E.kexInit g d = .error e → e.Coded
  kexResume : ∀ g a b e, E.kexResume g a b = .error e → e.Coded
  sign : ∀ s a b d e, E.sign s a b d = .error e → e.Coded
  verify : ∀ s a b d e, E.verify s a b d = .error e → e.Coded
  certLoad : ∀ a e, E.certLoad a = .error e → e.Coded
  certPub : ∀ a e, E.certPub a = .error e → e.Coded
  pkLoad : ∀ a e, E.pkLoad a = .error e → e.Coded
  idnaEncode : ∀ a e, E.idnaEncode a = .error e → e.Coded
  verifyChain : ∀ a b c d f g e, E.verifyChain a b c d f g = .error e → e.Coded
  ocspUrl : ∀ a e, E.ocspUrl a = .error e → e.Coded
  ocspFetch : ∀ a b d e, E.ocspFetch a b d = .error e → e.Coded
  ocspValidate : ∀ a b c d e, E.ocspValidate a b c d = .error e → e.Coded

/-- The cipher of a suite adds its tag to what it encrypts, no more and no less. -/
def Env.Seals (E : Env) : Prop := ∀ s info k n a p, suiteInfo s = some info →
  (E.aeadSeal s k n a p).length = p.length + info.tagLength

namespace Spec

/-- the suite, when known, has a usage limit (the two CCM suites have none) -/
def Limited (s : Nat) : Prop := ∀ info, suiteInfo s = some info → info.usageLimit.isSome = true

/-- what the peer or the application can notice: something put in one of the two buffers they read -/
def audible : Ev → Bool
  | .record .. | .sent _ | .delivered _ => true
  | _ => false

/-- the contents sent, newest first -/
def sentContents : List Ev → List Content
  | [] => []
  | .sent x :: l => x :: sentContents l
  | _ :: l => sentContents l

/-- the alerts sent, newest first -/
def sentAlerts : List Ev → List (Nat × Nat)
  | [] => []
  | .sent (.alert level desc) :: l => (level, desc) :: sentAlerts l
  | _ :: l => sentAlerts l

/-- a close_notify of the peer among these events -/
def closeNotified (l : List Ev) : Prop := ∃ level, Ev.recv (.alert level 0) ∈ l

/-- a fatal alert of the peer, other than close_notify, among these events -/
def fatalAlerted (l : List Ev) : Prop := ∃ desc, desc ≠ 0 ∧ Ev.recv (.alert 2 desc) ∈ l

/-- The trace of one fatal alert put in the output, newest event first: one record, in clear or
encrypted (RFC 8446 §5.2: content, content type 21, zeros). -/
def AlertOut (E : Env) (desc : Nat) (l : List Ev) : Prop :=
  l = [.sent (.alert 2 desc), .record 21 [2, UInt8.ofNat desc]] ∨
  ∃ suite key nonce aad n,
    l = [.sent (.alert 2 desc),
         .record 23 (E.aeadSeal suite key nonce aad ([2, UInt8.ofNat desc, 21] ++ List.replicate n 0)),
         .sealed suite key nonce aad ([2, UInt8.ofNat desc, 21] ++ List.replicate n 0)]

end Spec

end Siotls
