import Verif.Spec.Schemes
import Verif.Proofs.CertInv
import Verif.Proofs.EndToEnd
import Verif.Props.Negotiation
import Verif.Props.Auth
/-!
# Groups and signature schemes: C75
-/

namespace Siotls

open Spec

variable {E : Env}

/-- C75. The groups that are implemented are those of RFC 8446. -/
theorem C75_groups (g : Nat) : kexRegistered g = true ↔ NamedGroup g := by
  constructor
  · intro h
    simp only [kexRegistered, List.contains_eq_mem, List.mem_cons, List.not_mem_nil, or_false,
      decide_eq_true_eq] at h
    rcases h with rfl | rfl | rfl | rfl | rfl | rfl | rfl | rfl | rfl | rfl <;> constructor
  · intro h
    cases h <;> rfl

/-- C75. A client whose first group is not one of them cannot start: `initiate_connection` raises
KeyError and changes nothing. -/
theorem C75_unknown {config : Config} {hostname ocsp algs random} {c : Conn}
    (h : Conn.new config hostname ocsp algs random = .ok c) (hside : config.side = .client)
    {g : Nat} (hg : config.keyExchanges.head? = some g) (hn : ¬ NamedGroup g) :
    Siotls.initiate E c = (.error .keyError, c) := by
  have hreg : kexRegistered g = false := by
    rw [← C75_groups] at hn
    simpa using hn
  obtain ⟨gs, hgs⟩ : ∃ gs, config.keyExchanges = g :: gs := by
    cases hk : config.keyExchanges with
    | nil => rw [hk] at hg; cases hg
    | cons a l => rw [hk] at hg; cases hg; exact ⟨_, rfl⟩
  obtain ⟨h1, -, -, -, -, -, -, -, -, -, -, -, h2 | h2⟩ := Conn.new_fresh h
  · obtain ⟨-, h3, h4, -, -⟩ := h2
    unfold Siotls.initiate
    rw [h3]
    dsimp only
    unfold clientInitiate
    rw [M.bind_def]
    dsimp only [M.get]
    rw [h1, hgs, h4]
    dsimp only
    rw [if_pos hreg]
    rfl
  · rw [hside] at h2
    cases h2.1

/-- C75. The signature schemes that are implemented are those meant for some kind of key. -/
theorem C75_schemes (s : Nat) : sigRegistered s = true ↔ ∃ o, Fit o s :=
  ⟨registered_fit, fun ⟨_, h⟩ => (fit_known h).1⟩

theorem allowed_of_fit {o : PubOid} {s : Nat} (h : Fit o s) (hp : ¬ Pkcs1 s) : VerifyScheme s := by
  cases h <;> first | constructor | exact absurd (by constructor) hp

/-- C75, partial. The full claim: a server only signs with a scheme that RFC 8446 allows in
CertificateVerify. It is false of the code (`C75_false`): a server configured with RSASSA-PKCS1-v1_5
schemes uses them. It holds of the servers that are not. -/
theorem C75_server_partial (hE : E.Shares) {config : Config} {hostname ocsp algs random} {c : Conn}
    (h : Conn.new config hostname ocsp algs random = .ok c) (hside : config.side = .server)
    (hcheck : config.check = .ok ()) (hp : ∀ s ∈ config.signatureAlgorithms, ¬ Pkcs1 s)
    (ops : List Op) {scheme : Nat} {sig : Bytes}
    (hm : .sent (.handshake (.certificateVerify scheme sig)) ∈ (runOps E ops c).tr) :
    VerifyScheme scheme := by
  obtain ⟨post, pre, ht⟩ := List.append_of_mem hm
  obtain ⟨_, _, _, _, _, _, _, -, -, -, _, leaf, _, -, -, l₁, l₂, hl, ⟨-, hf⟩, -⟩ :=
    C34_scheme hE h hside hcheck ops ht
  exact allowed_of_fit hf (hp _ (by rw [hl]; simp))

/-- C75, partial: likewise for what a client with a trust store accepts: if it is connected, the
CertificateVerify it checked has a scheme that RFC 8446 allows, provided the client is not
configured with RSASSA-PKCS1-v1_5. -/
theorem C75_client_partial (hE : E.Sized) {config : Config} {hostname ocsp algs random} {c : Conn}
    (h : Conn.new config hostname ocsp algs random = .ok c) (hside : config.side = .client)
    {store : Bytes} (hstore : config.trustStore = some store)
    (hp : ∀ s ∈ config.signatureAlgorithms, ¬ Pkcs1 s) (ops : List Op)
    (hst : (runOps E ops c).state = .connected) :
    ∃ alg sig pub th, .recv (.handshake (.certificateVerify alg sig)) ∈ (runOps E ops c).tr ∧
      E.verify alg pub sig (signedContent th) = .ok () ∧ VerifyScheme alg := by
  obtain ⟨k, -, t, leaf, hh, vd, shared, th, hsuf, hs, -⟩ :=
    C20_authenticated hE h hside hstore ops hst
  obtain ⟨t', alg, sig, pub, h₁, hsuf', -, hhead, hmem, ⟨o, hf⟩, -, hv, -⟩ := hs
  refine ⟨alg, sig, pub, h₁, ?_, hv, allowed_of_fit hf (hp _ hmem)⟩
  exact (hsuf'.trans hsuf).subset (List.mem_of_mem_head? hhead)

/-- C75. The defaults of the configuration are groups and schemes that are implemented and that RFC
8446 allows, and its three suites that are not CCM. -/
theorem C75_default (side : Side) :
    (∀ g ∈ ({ side := side } : Config).keyExchanges, NamedGroup g) ∧
    (∀ s ∈ ({ side := side } : Config).signatureAlgorithms, VerifyScheme s ∧ ∃ o, Fit o s) ∧
    (∀ s, s ∈ ({ side := side } : Config).cipherSuites ↔ s = 0x1301 ∨ s = 0x1302 ∨ s = 0x1303) := by
  refine ⟨?_, ?_, ?_⟩
  · simp only [List.mem_cons, List.not_mem_nil, or_false]
    rintro g (rfl | rfl) <;> constructor
  · simp only [List.mem_cons, List.not_mem_nil, or_false]
    rintro s (rfl | rfl | rfl | rfl | rfl | rfl | rfl | rfl | rfl | rfl | rfl) <;>
      exact ⟨by constructor, registered_fit rfl⟩
  · intro s
    simp only [List.mem_cons, List.not_mem_nil, or_false]
    omega

namespace Toy

/-- certificates with an RSA key -/
def rsaEnv : Env := { env with certOid := fun _ => .rsaes }

/-- a server that allows rsa_pkcs1_sha256 -/
def rsaConfig : Config := { serverConfig with signatureAlgorithms := [0x0401] }
def rsa0 : Conn := fresh rsaConfig none [.sha256] (List.replicate 32 6)

theorem rsa0_new : Conn.new rsaConfig none false [.sha256] (List.replicate 32 6) = .ok rsa0 := by rfl

/-- a ClientHello that offers rsa_pkcs1_sha256 -/
def rsaHello : Bytes :=
  [22, 3, 3, 0, 113, 1, 0, 0, 109, 3, 3] ++ List.replicate 32 5 ++
  [0, 0, 6, 19, 3, 19, 2, 19, 1, 1, 0, 0, 62, 0, 43, 0, 3,
    2, 3, 4, 0, 13, 0, 6, 0, 4, 4, 1, 4, 3, 0, 10, 0, 6, 0, 4, 0, 29, 0, 23, 0, 15, 0, 1, 1, 0, 0,
    0, 6, 0, 4, 0, 0, 1, 97, 0, 5, 0, 5, 1, 0, 0, 0, 0, 0, 51, 0, 7, 0, 5, 0, 29, 0, 1, 1]

def isPkcs1Verify : Ev → Bool
  | .sent (.handshake (.certificateVerify s _)) => s == 0x0401
  | _ => false

set_option maxRecDepth 1000000 in
theorem rsa_signed : (runOps rsaEnv [.initiate, .receive rsaHello] rsa0).tr.any isPkcs1Verify = true := by
  decide +kernel

end Toy

/-- the hypotheses are met: a client with an unassigned group, the toy server that signs and the toy
client that is connected -/
example : (∃ c, Conn.new { Toy.clientConfig with keyExchanges := [0x99] } none false [.sha256]
      (List.replicate 32 5) = .ok c) ∧ ¬ NamedGroup 0x99 ∧
    Toy.env.Shares ∧ Toy.env.Sized ∧ (∀ s ∈ Toy.retryConfig.signatureAlgorithms, ¬ Pkcs1 s) ∧
    (∀ s ∈ Toy.clientConfig.signatureAlgorithms, ¬ Pkcs1 s) ∧
    (∃ scheme sig, .sent (.handshake (.certificateVerify scheme sig)) ∈
      (runOps Toy.env Toy.retryOps Toy.retry0).tr) ∧
    (runOps Toy.env Toy.clientOps Toy.client0).state = .connected := by
  refine ⟨⟨_, rfl⟩, by rintro ⟨⟩, Toy.shares, Toy.sized, ?_, ?_, ?_, Toy.client_facts.1.1⟩
  · simp only [Toy.retryConfig, Toy.serverConfig, List.mem_cons, List.not_mem_nil, or_false]
    rintro s rfl ⟨⟩
  · simp only [Toy.clientConfig, List.mem_cons, List.not_mem_nil, or_false]
    rintro s (rfl | rfl) ⟨⟩
  · obtain ⟨post, scheme, sig, pre, h⟩ := Toy.split_verify Toy.retry_sent.2.2.1
    exact ⟨scheme, sig, by rw [h]; simp⟩

/-- C75: a server may send a CertificateVerify with a scheme that RFC 8446 reserves to
certificates. -/
theorem C75_false : ∃ (E : Env) (config : Config) (hostname : Option PyStr) (ocsp : Bool)
    (algs : List HashAlg) (random : Bytes) (c : Conn) (ops : List Op) (scheme : Nat) (sig : Bytes),
    Conn.new config hostname ocsp algs random = .ok c ∧ config.side = .server ∧
    config.check = .ok () ∧
    .sent (.handshake (.certificateVerify scheme sig)) ∈ (runOps E ops c).tr ∧
    Pkcs1 scheme ∧ ¬ VerifyScheme scheme := by
  obtain ⟨e, he, hp⟩ := List.any_eq_true.mp Toy.rsa_signed
  unfold Toy.isPkcs1Verify at hp
  split at hp
  · simp only [beq_iff_eq] at hp
    subst hp
    exact ⟨Toy.rsaEnv, Toy.rsaConfig, none, false, [.sha256], _, Toy.rsa0, _, _, _, Toy.rsa0_new, rfl,
      rfl, he, .sha256, by rintro ⟨⟩⟩
  · cases hp

end Siotls
