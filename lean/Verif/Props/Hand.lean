import Verif.Proofs.Hand
import Verif.Spec.Hand
import Verif.Model.ToyFacts
/-!
# What the private key is for: C111
-/

namespace Siotls

open Spec

variable {E : Env} {w : Bytes → Bytes}

theorem results_swap (H : SameHand E w) : ∀ (ops : List Op) (c : Conn),
    results E ops (c.swap w) = results E ops c
  | [], _ => rfl
  | o :: os, c => by
    rw [results, results, heedless_run H o, results_swap H os]

theorem keyless_swap (c : Conn) : keyless (c.swap w) = keyless c := by
  rcases c with ⟨g, h, o, n, k, s⟩
  rcases s with _ | ⟨_, _⟩ <;> rfl

/-- C111. A connection uses its private key for nothing but the signature of CertificateVerify messages:
with another key that signs these alike, every call of every program returns or raises the same, and
everything but the key is the same: the bytes sent, the data delivered, the state, the traffic keys. The
bytes that are signed begin with the 64 spaces and the context string of servers, so that the key makes
no other signatures either. (The empty string stands for the absence of a key in the model.) -/
theorem C111_private_key {config : Config} {hostname : Option PyStr} {ocsp : Bool} {algs : List HashAlg}
    {random : Bytes} {c : Conn} (h : Conn.new config hostname ocsp algs random = .ok c)
    {k k' : Bytes} (hk : config.privateKey = some k) (hne : k ≠ []) (hs : SignAlike E k k') :
    ∃ d, Conn.new { config with privateKey := some k' } hostname ocsp algs random = .ok d ∧
      ∀ ops, results E ops c = results E ops d ∧ keyless (runOps E ops c) = keyless (runOps E ops d) := by
  let w : Bytes → Bytes := fun p => if p = k then k' else p
  have H : SameHand E w := by
    refine ⟨if_neg (Ne.symm hne), fun s p m d => ?_⟩
    by_cases hp : p = k
    · have : w p = k' := if_pos hp
      rw [this, hp]
      exact (hs s m d).symm
    · have : w p = p := if_neg hp
      rw [this]
  have hw : config.swap w = { config with privateKey := some k' } := by
    unfold Config.swap
    rw [hk]
    show ({ config with privateKey := some (if k = k then k' else k) } : Config) = _
    rw [if_pos rfl]
  have hnew : Conn.new { config with privateKey := some k' } hostname ocsp algs random = .ok (c.swap w) := by
    rw [← hw]
    unfold Conn.new at h ⊢
    show (do
      let _ ← suiteDigests config.cipherSuites
      _) = _
    cases hd : suiteDigests config.cipherSuites with
    | error e => rw [hd] at h; cases h
    | ok ds =>
    cases ht : Transcript.new algs with
    | error e => rw [hd, ht] at h; cases h
    | ok t =>
      rw [hd, ht] at h
      have hsw : (config.swap w).side = config.side := rfl
      rw [hsw]
      cases hs : config.side with
      | client => rw [hs] at h; cases h; rfl
      | server =>
        rw [hs] at h
        by_cases hh : hostname.any (!·.isEmpty) = true
        · simp [hh, bind, Except.bind] at h
        · simp only [hh, bind, Except.bind] at h ⊢
          cases h
          rfl
  refine ⟨_, hnew, fun ops => ⟨(results_swap H ops c).symm, ?_⟩⟩
  rw [runOps_swap H, keyless_swap]

namespace Toy

/-- a library whose keys have a comment after their third byte, which is of no use to signatures -/
def commenting : Env := { env with sign := fun s priv msg d => env.sign s (priv.take 3) msg d }

theorem commenting_connected : (runOps commenting serverOps server0).state = .connected := by
  decide +kernel

end Toy

/-- The hypotheses are met, by two keys and a run that gets connected. -/
example : Conn.new Toy.serverConfig none false [.sha256] (List.replicate 32 6) = .ok Toy.server0 ∧
    Toy.serverConfig.privateKey = some [1, 2, 3] ∧
    SignAlike Toy.commenting [1, 2, 3] [1, 2, 3, 4] ∧
    (runOps Toy.commenting Toy.serverOps Toy.server0).state = .connected :=
  ⟨Toy.server0_new, rfl, fun _ _ _ => rfl, Toy.commenting_connected⟩

end Siotls
