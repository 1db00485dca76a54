import Verif.Model.Api
/-!
# What two ends agree on in a handshake
-/

namespace Siotls.Spec
open Siotls

/-- the terms of a connection -/
structure Terms where
  config : Config
  negotiated : Option NConfig
  hostname : Option PyStr
  signature : Option (Nat × Bytes)
  clientRandom : Option Bytes
  serverRandom : Option Bytes
  suite : Option Nat
  /-- key and IV to read with -/
  reading : Option (Option Bytes × Option Bytes)
  /-- key and IV to write with -/
  writing : Option (Option Bytes × Option Bytes)

/-- the terms now -/
def termsOf (c : Conn) : Terms where
  config := c.config
  negotiated := c.nconfig
  hostname := c.hostname
  signature := c.signature
  clientRandom := c.clientUnique
  serverRandom := c.serverUnique
  suite := c.cipher.map (·.info.id)
  reading := c.cipher.map fun k => (k.rd.key, k.rd.iv)
  writing := c.cipher.map fun k => (k.wr.key, k.wr.iv)

/-- a key is installed or logged -/
def rekeys : Ev → Bool
  | .wkey .. | .rkey .. | .logged _ => true
  | _ => false

/-- the records that were sealed (true) or opened (false): suite and key -/
def usedKeys : List Ev → List (Bool × Nat × Bytes)
  | [] => []
  | .sealed s k .. :: l => (true, s, k) :: usedKeys l
  | .opened s k .. :: l => (false, s, k) :: usedKeys l
  | _ :: l => usedKeys l

/-- every one of these records was sealed or opened with the keys of the terms -/
def KeyUse (t : Terms) (since : List Ev) : Prop := ∀ x ∈ usedKeys since,
  t.suite = some x.2.1 ∧ ∃ iv, (if x.1 then t.writing else t.reading) = some (some x.2.2, iv)

end Siotls.Spec
