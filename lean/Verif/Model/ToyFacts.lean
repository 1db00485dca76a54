import Verif.Model.ToyRun
/-!
# The toy handshake completes (evaluated by the kernel)
-/

namespace Siotls.Toy
open Siotls

def hasKey (c : Conn) : Bool := match c.cipher with
  | some k => k.wr.key.isSome && k.rd.key.isSome
  | none => false

/-- the handshake keys are still there -/
def hasFin (c : Conn) : Bool := match c.cipher with
  | some k => k.cFin != .none
  | none => false

set_option maxRecDepth 1000000

theorem client0_new : Conn.new clientConfig (some ['a']) false [.sha256, .sha384]
    (List.replicate 32 5) = .ok client0 := by rfl

theorem server0_new : Conn.new serverConfig none false [.sha256] (List.replicate 32 6) =
    .ok server0 := by rfl

theorem hello_eq : (runOps env [.initiate] client0).outputData = hello := by decide +kernel

theorem client_facts : (clientDone.state = .connected ∧ Careful env clientOps client0) ∧
    hasKey clientDone = true ∧
    ((writeKeys clientDone.tr).map Prod.snd).Nodup ∧ (writeKeys clientDone.tr).length = 2 ∧
    (readKeys clientDone.tr).length = 2 ∧ (encryptions clientDone.tr).length = 1 ∧
    (decryptions clientDone.tr).length = 4 := by decide +kernel

theorem server_facts : (serverDone.state = .connected ∧ Careful env serverOps server0) ∧
    hasKey serverDone = true ∧
    ((writeKeys serverDone.tr).map Prod.snd).Nodup ∧ (writeKeys serverDone.tr).length = 2 ∧
    (readKeys serverDone.tr).length = 2 ∧ (encryptions serverDone.tr).length = 4 ∧
    (decryptions serverDone.tr).length = 1 := by decide +kernel

theorem half_facts : serverHalf.state.canSendApp = true ∧ hasFin serverHalf = true := by
  decide +kernel

end Siotls.Toy
