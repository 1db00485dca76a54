import Verif.Spec.Record
/-!
# What an attacker who owns the network can make of the stream
-/

namespace Siotls.Spec
open Siotls

/-- the pieces of application data handed over to `data_to_read`, oldest first -/
def deliveries : List Ev → List Bytes
  | [] => []
  | .delivered d :: l => deliveries l ++ [d]
  | _ :: l => deliveries l

/-- the plaintexts given to the AEAD, oldest first -/
def sealedTexts : List Ev → List Bytes
  | [] => []
  | .sealed _ _ _ _ inner :: l => sealedTexts l ++ [inner]
  | _ :: l => sealedTexts l

/-- No forgery while `r` became `r'` and `s` became `s'`: under each nonce, `r` opened nothing but
what `s` sealed. -/
def NoForgery (r r' s s' : Conn) : Prop :=
  ∃ l m, r'.tr = l ++ r.tr ∧ s'.tr = m ++ s.tr ∧ ∀ suite key nonce aad inner,
    Ev.opened suite key nonce aad inner ∈ l → ∃ aad', Ev.sealed suite key nonce aad' inner ∈ m

/-- Whenever `receive_data` raises, the connection stops receiving: `is_connected` is false. -/
def GivesUp (E : Env) : List Op → Conn → Prop
  | [], _ => True
  | o :: os, c =>
    (o.isReceive = true → raised (o.run E c).1 = true → (o.run E c).2.state.isConnected = false) ∧
    GivesUp E os (o.run E c).2

def GivesUp.decide (E : Env) : (ops : List Op) → (c : Conn) → Decidable (GivesUp E ops c)
  | [], _ => .isTrue trivial
  | _ :: os, _ =>
    have := GivesUp.decide E os
    inferInstanceAs (Decidable (_ ∧ _))

instance (E : Env) (ops : List Op) (c : Conn) : Decidable (GivesUp E ops c) :=
  GivesUp.decide E ops c

end Siotls.Spec
