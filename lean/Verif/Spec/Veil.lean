import Verif.Model.Api
/-!
# Two runs that nobody can tell apart
-/

namespace Siotls.Spec

/-- what each call of a program returns or raises -/
def results (E : Env) : List Op → Conn → List (Except Exn Bytes)
  | [], _ => []
  | o :: os, c => (o.run E c).1 :: results E os (o.run E c).2

/-- an event other than a line of the key log -/
def unlogged : Ev → Bool
  | .logged _ => false
  | _ => true

/-- The two connections are in the same state, negotiated the same, hold the same keys and the same
bytes for the application and for the peer, and did the same things in the same order; their
configurations may differ, and their key logs. -/
structure Twins (c d : Conn) : Prop where
  state : c.state = d.state
  nconfig : c.nconfig = d.nconfig
  cipher : c.cipher = d.cipher
  signature : c.signature = d.signature
  transcript : c.transcript = d.transcript
  output : c.outputData = d.outputData
  application : c.applicationData = d.applicationData
  input : c.inputData = d.inputData ∧ c.inputHandshake = d.inputHandshake
  randoms : c.clientUnique = d.clientUnique ∧ c.serverUnique = d.serverUnique
  draws : c.draws = d.draws
  hostname : c.hostname = d.hostname
  did : c.tr.filter unlogged = d.tr.filter unlogged

end Siotls.Spec
