import Verif.Proofs.Settlement
import Verif.Props.Lifecycle
/-!
# C109: what was agreed in the handshake stays
-/

namespace Siotls
open Spec Serial

variable {E : Env}

/-- C109: once `is_post_handshake()` is true it remains so, and the configuration, the negotiated
configuration, the host name, the signature scheme, both randoms, the suite, and the keys and IVs of both
directions are those of that moment, whatever is called and received, and whether it raises or not. No
key is installed or logged any more, and every record is sealed or opened with the keys of that moment. -/
theorem C109_settled {c : Conn} (h : c.state.isPostHandshake = true) (ops : List Op) :
    (runOps E ops c).state.isPostHandshake = true ∧ termsOf (runOps E ops c) = termsOf c ∧
    ∃ since, (runOps E ops c).tr = since ++ c.tr ∧ since.any rekeys = false ∧ KeyUse (termsOf c) since := by
  have := runOps_inv (E := E) (I := Settlement c) (fun _ _ h hs => h.api hs)
    ⟨h, rfl, [], rfl, rfl, fun x hx => by cases hx⟩ ops
  exact ⟨this.post, this.terms, this.trace⟩

/-- C109: the handshake cannot be started again. -/
theorem C109_once {c : Conn} (h : c.state.isPostHandshake = true) (ops : List Op) :
    Op.initiate.run E (runOps E ops c) = (.error .notImplemented, runOps E ops c) := by
  have hp := (C109_settled (E := E) h ops).1
  generalize runOps E ops c = x at hp
  show (Siotls.initiate E >>= fun _ => pure []) x = _
  rw [M.bind_def]
  unfold Siotls.initiate
  cases hx : x.state <;> first | (rw [hx] at hp; cases hp; done) | rfl

namespace Toy

/-- data, junk, a closed end and a new start -/
def restless : List Op := [.send [1], .receive [23, 3, 3, 0, 2, 9, 9], .closeRecv, .initiate, .send [2]]

theorem restless_facts : clientDone.state.isPostHandshake = true ∧
    (termsOf clientDone).writing.isSome = true ∧
    (usedKeys ((runOps env restless clientDone).tr.take 9)).length ≥ 2 ∧
    (runOps env restless clientDone).state ≠ clientDone.state := by
  decide +kernel

end Toy

/-- a connected client, and a history in which it seals records, fails and is closed -/
example : termsOf (runOps Toy.env Toy.restless Toy.clientDone) = termsOf Toy.clientDone ∧
    (termsOf Toy.clientDone).writing.isSome = true ∧
    (runOps Toy.env Toy.restless Toy.clientDone).state ≠ Toy.clientDone.state :=
  ⟨(C109_settled Toy.restless_facts.1 Toy.restless).2.1, Toy.restless_facts.2.1, Toy.restless_facts.2.2.2⟩

end Siotls
