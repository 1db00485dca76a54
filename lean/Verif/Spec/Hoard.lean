import Verif.Spec.Stream
/-!
# What an endpoint keeps of what it received (C102)
-/

namespace Siotls.Spec

/-- `b` is less than one record: its header, or what the header announces, is not complete. -/
def LessThanRecord (b : Bytes) : Prop :=
  ∀ t v1 v2 l1 l2 rest, b = t :: v1 :: v2 :: l1 :: l2 :: rest → rest.length < 256 * l1.toNat + l2.toNat

/-- every `receive_data` of the program returned -/
def Received (E : Env) : List Op → Conn → Prop
  | [], _ => True
  | o :: os, c => ((∃ d, o = .receive d) → ∃ out, (o.run E c).1 = .ok out) ∧ Received E os (o.run E c).2

/-- an empty handshake record -/
def emptyRecord : Bytes := [22, 3, 3, 0, 0]

end Siotls.Spec
