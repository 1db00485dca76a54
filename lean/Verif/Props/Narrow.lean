import Verif.Proofs.Narrow
import Verif.Props.Duplex
import Verif.Props.Lifecycle
/-!
# C99: a client that lowers its fragment limit below 4096 cannot connect to a server of this library
-/

namespace Siotls
open Spec Serial

variable {E : Env}

/-- Take any client and server that complete the handshake (C56), and lower the `max_fragment_length` of
the client to 512, 1024 or 2048, which the configuration accepts. The server still digests the
ClientHello, however it is cut, and answers. But however its answer is cut, `receive_data` of the client
raises an AttributeError on the way (the alert record_overflow does not exist under the name that is
used), the connection is failed, and it stays so whatever is called next, unless the receiving end is
closed (C23). -/
theorem C99_refused {kex : Nat → Nat → Except Exn (Bytes × Bytes)}
    {sign : Nat → Bytes → Bytes → Nat → Except Exn Bytes} {gc gs : Config} {host : Option PyStr} {k : Choice}
    {ocspC ocspS : Bool} {algsC algsS dsC dsS : List HashAlg} {randomC randomS : Bytes} {c₀ c₁ s₀ : Conn}
    {n : Nat} (hn : n = 512 ∨ n = 1024 ∨ n = 2048)
    (K : Compatible E gc gs host k) (L : Library E kex sign (gs.privateKey.getD []) k)
    (V : Vouched E ocspC ocspS gc (k.leaf :: k.rest))
    (hdc : suiteDigests gc.cipherSuites = .ok dsC) (hac : IsSetOrder algsC dsC)
    (hds : suiteDigests gs.cipherSuites = .ok dsS) (has : IsSetOrder algsS dsS)
    (hrc : randomC.length = 32) (hrs : randomS.length = 32) (hrr : randomS ≠ hrrRandom)
    (hc₀ : Conn.new { gc with maxFragmentLength := n } host ocspC algsC randomC = .ok c₀)
    (hs₀ : Conn.new gs none ocspS algsS randomS = .ok s₀)
    (hc₁ : Op.initiate.run E c₀ = (.ok [], c₁)) :
    ∃ s₁, Op.initiate.run (E.elsewhere kex sign) s₀ = (.ok [], s₁) ∧
    ∀ xs, Cuts xs c₁.outputData →
    ∃ s₂, feed (E.elsewhere kex sign) xs s₁ = (.ok (), s₂) ∧ s₂.outputData ≠ [] ∧
    ∀ ys, Cuts ys s₂.outputData →
    ∃ c₂, feed E ys (Op.drain.run E c₁).2 = (.error .attributeError, c₂) ∧
      ∀ ops, .closeRecv ∉ ops → (runOps E ops c₂).state = .failed := by
  obtain ⟨s₁, h1, h2⟩ := narrow hn K L V hdc hac hds has hrc hrs hrr hc₀ hs₀ hc₁
  refine ⟨s₁, h1, fun xs hxs => ?_⟩
  obtain ⟨s₂, h3, h4, h5⟩ := h2 xs hxs
  refine ⟨s₂, h3, h4, fun ys hys => ?_⟩
  obtain ⟨c₂, h6, h7⟩ := h5 ys hys
  exact ⟨c₂, h6, fun ops ho => (C23_partial h7 ops ho).1⟩

/-- The toy client of C56 with a limit of 512 meets the hypotheses, and so does the one with 2048. -/
example : Compatible Toy.env Toy.clientConfig Toy.serverConfig (some ['a']) Toy.choice ∧
    Library Toy.env Toy.otherKex Toy.env.sign (Toy.serverConfig.privateKey.getD []) Toy.choice ∧
    ({ Toy.clientConfig with maxFragmentLength := 512 } : Config).check = .ok () ∧
    ({ Toy.clientConfig with maxFragmentLength := 2048 } : Config).check = .ok () ∧
    Conn.new { Toy.clientConfig with maxFragmentLength := 512 } (some ['a']) false [.sha256, .sha384]
      (List.replicate 32 5) = .ok Toy.small0 ∧
    Op.initiate.run Toy.env Toy.small0 = (.ok [], Toy.small1) := by
  refine ⟨Toy.compatible, Toy.library _ (.inl rfl), by decide, by decide, rfl, ?_⟩
  have f1 := Toy.small_refuses.1
  rw [Toy.small1]
  generalize Op.initiate.run Toy.env Toy.small0 = x at f1
  rcases x with ⟨_ | _ | _, c⟩ <;> first | rfl | cases f1

end Siotls
