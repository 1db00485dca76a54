import Verif.Proofs.Mute
import Verif.Spec.Veil
import Verif.Model.ToyFacts
/-!
# Settings of the other role: C110
-/

namespace Siotls

open Spec

variable {E : Env} {b : Bool}

theorem mute_twins {c d : Conn} (h : c.mute b = d.mute b) : Twins c d ∧ c.tr = d.tr := by
  unfold Conn.mute at h
  simp only [Conn.mk.injEq] at h
  obtain ⟨-, h1, -, h2, h3, h4, h5, h6, h7, h8, h9, h10, h11, h12, h13, h14⟩ := h
  exact ⟨⟨h12, h2, h3, h4, h5, h8, h9, ⟨h6, h7⟩, ⟨h10, h11⟩, h13, h1, by rw [h14]⟩, h14⟩

theorem results_mute : ∀ (ops : List Op) {c : Conn}, SideInv (roleOf b) c →
    results E ops (c.mute b) = results E ops c
  | [], _, _ => rfl
  | o :: os, c, hi => by
    have h := unswayedAt_run (E := E) hi o
    unfold UnswayedAt at h
    rw [results, results, h, results_mute os (hi.runOp o)]

theorem new_mute {g g' : Config} {hostname : Option PyStr} {ocsp : Bool} {algs : List HashAlg}
    {random : Bytes} {c : Conn} (hg : g.mute b = g'.mute b)
    (h : Conn.new g hostname ocsp algs random = .ok c) :
    ∃ d, Conn.new g' hostname ocsp algs random = .ok d ∧ c.mute b = d.mute b := by
  have h1 : g.cipherSuites = g'.cipherSuites := by
    have : (g.mute b).cipherSuites = (g'.mute b).cipherSuites := by rw [hg]
    exact this
  have h2 : g.side = g'.side := by
    have : (g.mute b).side = (g'.mute b).side := by rw [hg]
    exact this
  unfold Conn.new at h ⊢
  rw [← h1, ← h2]
  cases hd : suiteDigests g.cipherSuites with
  | error e => rw [hd] at h; cases h
  | ok ds =>
    cases ht : Transcript.new algs with
    | error e => rw [hd, ht] at h; cases h
    | ok t =>
      rw [hd, ht] at h
      cases hs : g.side with
      | client =>
        rw [hs] at h
        cases h
        refine ⟨_, rfl, ?_⟩
        simp [Conn.mute, hg]
      | server =>
        rw [hs] at h
        by_cases hh : hostname.any (!·.isEmpty) = true
        · simp [hh, bind, Except.bind] at h
        · simp only [hh, bind, Except.bind] at h ⊢
          cases h
          refine ⟨_, rfl, ?_⟩
          simp [Conn.mute, hg]

theorem mute_alike {g g' : Config} {hostname : Option PyStr} {ocsp : Bool} {algs : List HashAlg}
    {random : Bytes} {c : Conn} (hs : g.side = roleOf b) (hg : g.mute b = g'.mute b)
    (h : Conn.new g hostname ocsp algs random = .ok c) :
    ∃ d, Conn.new g' hostname ocsp algs random = .ok d ∧
      ∀ ops, results E ops c = results E ops d ∧ Twins (runOps E ops c) (runOps E ops d) ∧
        (runOps E ops c).tr = (runOps E ops d).tr := by
  obtain ⟨d, h1, h2⟩ := new_mute hg h
  have hs' : g'.side = roleOf b := by
    have : (g.mute b).side = (g'.mute b).side := by rw [hg]
    exact this.symm.trans hs
  have hi := SideInv.fresh h
  have hi' := SideInv.fresh h1
  rw [hs] at hi
  rw [hs'] at hi'
  refine ⟨d, h1, fun ops => ⟨?_, mute_twins (b := b) ?_⟩⟩
  · rw [← results_mute (E := E) ops hi, ← results_mute (E := E) ops hi', h2]
  · rw [← runOps_mute ops hi, ← runOps_mute ops hi', h2]

/-- C110 for clients. Another private key, or none, another chain of certificates, another public key:
as long as there still is a chain and a public key, or still none, every program gets the same results
and the connection does the same, whatever the peer sends. In particular it sends the same bytes: nothing
tells the key, and nothing proves that the client has it. -/
theorem C110_client {config : Config} {hostname : Option PyStr} {ocsp : Bool} {algs : List HashAlg}
    {random : Bytes} {c : Conn} (hs : config.side = .client)
    (h : Conn.new config hostname ocsp algs random = .ok c)
    (key : Option Bytes) (chain : Option (List Bytes)) (pub : Option Bytes)
    (hc : chain.getD [] = [] ↔ config.certificateChain.getD [] = [])
    (hp : pub = none ↔ config.publicKey = none) :
    ∃ d, Conn.new { config with privateKey := key, certificateChain := chain, publicKey := pub }
        hostname ocsp algs random = .ok d ∧
      ∀ ops, results E ops c = results E ops d ∧ Twins (runOps E ops c) (runOps E ops d) ∧
        (runOps E ops c).tr = (runOps E ops d).tr := by
  refine mute_alike (b := true) hs ?_ h
  have has : ∀ g : Config, g.hasChain = !decide (g.certificateChain.getD [] = []) := by
    intro g
    unfold Config.hasChain
    rcases g.certificateChain with _ | _ | ⟨_, _⟩ <;> simp
  have h1 : Config.hasChain { config with privateKey := key, certificateChain := chain, publicKey := pub } =
      config.hasChain := by
    rw [has, has]
    simp only [hc]
  have h2 : (pub.map fun _ => ([] : Bytes)) = config.publicKey.map fun _ => [] := by
    cases pub <;> cases hq : config.publicKey <;> simp_all
  unfold Config.mute
  rw [h1]
  simp [hs, h2]

/-- C110 for servers. Another trust store, other trusted public keys, another list of revoked
certificates, another maximal depth: as long as the server still has, or still has not, a trust store
and trusted keys, every program gets the same results and the connection does the same, whatever the
client sends. The server judges nobody by them. -/
theorem C110_server {config : Config} {hostname : Option PyStr} {ocsp : Bool} {algs : List HashAlg}
    {random : Bytes} {c : Conn} (hs : config.side = .server)
    (h : Conn.new config hostname ocsp algs random = .ok c)
    (store : Option Bytes) (keys : List Bytes) (crl : Option (List Bytes)) (depth : Nat)
    (ht : store = none ↔ config.trustStore = none)
    (hk : keys = [] ↔ config.trustedPublicKeys = []) :
    ∃ d, Conn.new { config with trustStore := store, trustedPublicKeys := keys, revocationList := crl,
                                maxChainDepth := depth } hostname ocsp algs random = .ok d ∧
      ∀ ops, results E ops c = results E ops d ∧ Twins (runOps E ops c) (runOps E ops d) ∧
        (runOps E ops c).tr = (runOps E ops d).tr := by
  refine mute_alike (b := false) hs ?_ h
  have h1 : (store.map fun _ => ([] : Bytes)) = config.trustStore.map fun _ => [] := by
    cases store <;> cases hq : config.trustStore <;> simp_all
  have h2 : keys.isEmpty = config.trustedPublicKeys.isEmpty := by
    rw [Bool.eq_iff_iff, List.isEmpty_iff, List.isEmpty_iff]
    exact hk
  unfold Config.mute
  simp [h1, h2]

/-- The hypotheses are met: the toys get connected, and do so with other settings of the other role. -/
example : Conn.new Toy.clientConfig (some ['a']) false [.sha256, .sha384] (List.replicate 32 5) =
      .ok Toy.client0 ∧ Toy.clientConfig.side = .client ∧
    (runOps Toy.env Toy.clientOps Toy.client0).state = .connected ∧
    (∃ d, Conn.new { Toy.clientConfig with privateKey := some [1, 2], certificateChain := none, publicKey := none }
        (some ['a']) false [.sha256, .sha384] (List.replicate 32 5) = .ok d ∧
      (runOps Toy.env Toy.clientOps d).state = .connected) ∧
    Conn.new Toy.serverConfig none false [.sha256] (List.replicate 32 6) = .ok Toy.server0 ∧
    Toy.serverConfig.side = .server ∧ (runOps Toy.env Toy.serverOps Toy.server0).state = .connected ∧
    ∃ d, Conn.new { Toy.serverConfig with trustStore := none, trustedPublicKeys := [],
                                          revocationList := some [[7]], maxChainDepth := 0 }
        none false [.sha256] (List.replicate 32 6) = .ok d ∧
      (runOps Toy.env Toy.serverOps d).state = .connected := by
  refine ⟨Toy.client0_new, rfl, Toy.client_facts.1.1, ?_, Toy.server0_new, rfl, Toy.server_facts.1.1, ?_⟩
  · obtain ⟨d, hd, hx⟩ := C110_client (E := Toy.env) rfl Toy.client0_new (some [1, 2]) none none
      (by decide) (by decide)
    exact ⟨d, hd, (hx Toy.clientOps).2.1.state ▸ Toy.client_facts.1.1⟩
  · obtain ⟨d, hd, hx⟩ := C110_server (E := Toy.env) rfl Toy.server0_new none [] (some [[7]]) 0
      (by decide) (by decide)
    exact ⟨d, hd, (hx Toy.serverOps).2.1.state ▸ Toy.server_facts.1.1⟩

end Siotls
