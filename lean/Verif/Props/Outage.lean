import Verif.Props.Answers
import Verif.Props.Truncation
/-!
# C92: OCSP stapling and the availability of a server
-/

namespace Siotls
open Spec Serial

variable {E : Env}

/-- C92, full statement: a server that is given an OCSP service serves the clients it would serve
without it, whatever the responder does. False of the code: `C92_false`. -/
def C92_statement : Prop :=
  ∀ (E : Env) (kex : Nat → Nat → Except Exn (Bytes × Bytes))
    (sign : Nat → Bytes → Bytes → Nat → Except Exn Bytes) (gc gs : Config) (host : Option PyStr) (k : Choice)
    (algsC algsS dsC dsS : List HashAlg) (randomC randomS : Bytes) (c₀ s₀ : Conn),
    Presentable E gc host → Compatible E gc gs host k → Library E kex sign (gs.privateKey.getD []) k →
    suiteDigests gc.cipherSuites = .ok dsC → IsSetOrder algsC dsC →
    suiteDigests gs.cipherSuites = .ok dsS → IsSetOrder algsS dsS →
    randomC.length = 32 → randomS.length = 32 → randomS ≠ hrrRandom →
    Conn.new gc host false algsC randomC = .ok c₀ → Conn.new gs none true algsS randomS = .ok s₀ →
    ∃ c₁ s₁, Op.initiate.run E c₀ = (.ok [], c₁) ∧
      Op.initiate.run (E.elsewhere kex sign) s₀ = (.ok [], s₁) ∧
      Completes E (E.elsewhere kex sign) c₁ s₁ gc gs k

/-- C92, what is true: it does when the responder named by the certificate answers. It does not matter
then whether the response is good: one that the validation rejects (with a ValueError) is left out and
the handshake completes, one that it accepts is stapled and the handshake completes. Missing: a server
whose certificate names no responder, or whose responder does not answer. -/
theorem C92_partial {kex : Nat → Nat → Except Exn (Bytes × Bytes)}
    {sign : Nat → Bytes → Bytes → Nat → Except Exn Bytes} {gc gs : Config} {host : Option PyStr} {k : Choice}
    {algsC algsS dsC dsS : List HashAlg} {randomC randomS : Bytes} {c₀ s₀ : Conn}
    (P : Presentable E gc host) (K : Compatible E gc gs host k)
    (L : Library E kex sign (gs.privateKey.getD []) k)
    (hresp : ∀ issuer rest, k.rest = issuer :: rest → ∃ url, E.ocspUrl k.leaf = .ok url ∧
      ∀ d, ∃ res, E.ocspFetch url (E.ocspRequest k.leaf issuer) d = .ok res ∧
        ((k.leaf :: k.rest).map fun c => (E.certDer c).length + 5).sum + res.length + 8 ≤ 15900 ∧
        ((∀ d', E.ocspValidate issuer (E.ocspRequest k.leaf issuer) res d' = .ok ()) ∨
          ∀ d', E.ocspValidate issuer (E.ocspRequest k.leaf issuer) res d' = .error .valueError))
    (hdc : suiteDigests gc.cipherSuites = .ok dsC) (hac : IsSetOrder algsC dsC)
    (hds : suiteDigests gs.cipherSuites = .ok dsS) (has : IsSetOrder algsS dsS)
    (hrc : randomC.length = 32) (hrs : randomS.length = 32) (hrr : randomS ≠ hrrRandom)
    (hc₀ : Conn.new gc host false algsC randomC = .ok c₀)
    (hs₀ : Conn.new gs none true algsS randomS = .ok s₀) :
    ∃ c₁ s₁, Op.initiate.run E c₀ = (.ok [], c₁) ∧
      Op.initiate.run (E.elsewhere kex sign) s₀ = (.ok [], s₁) ∧
      Completes E (E.elsewhere kex sign) c₁ s₁ gc gs k := by
  refine C77_handshake P K L ⟨fun _ _ subject issuer rest hc => ?_, fun h => absurd h (by simp)⟩ hdc hac hds has hrc
    hrs hrr hc₀ hs₀
  cases hc' : k.rest with
  | nil => rw [hc'] at hc; cases hc
  | cons i r =>
    rw [hc'] at hc
    cases hc
    have := hresp _ _ hc'
    rw [hc'] at this
    exact this

/-- C92, what is wrong, for all executions: a server with an OCSP service, a chain of at least two
certificates and no response to be had about the first one never presents its chain to a client that
asks for stapling (extension 5) in its last ClientHello. -/
theorem C92_outage {config : Config} {hostname algs random} {c : Conn}
    (h : Conn.new config hostname true algs random = .ok c) {leaf issuer : Bytes} {rest : List Bytes}
    (hchain : config.certificateChain = some (leaf :: issuer :: rest))
    (hout : ∀ url d res, E.ocspUrl leaf = .ok url → E.ocspFetch url (E.ocspRequest leaf issuer) d ≠ .ok res)
    (ops : List Op) {post pre : List Ev} {ctx : Bytes} {entries : List CertEntry}
    (ht : (runOps E ops c).tr = post ++ .sent (.handshake (.certificate ctx entries)) :: pre) :
    (∃ k, config.publicKey = some k ∧ entries = [.rawKey k []]) ∨
    ∃ r sid suites hello, heard pre = some (.handshake (.clientHello r sid suites hello)) ∧
      ∀ e ∈ hello, e.type ≠ 5 := by
  obtain ⟨-, r, sid, suites, hello, kind, h1, -, h2⟩ := C72_certificate h ops ht
  cases h2 with
  | rawKey hk => exact .inl ⟨_, hk, rfl⟩
  | chain hc hs =>
    rw [hchain] at hc
    cases hc
    refine .inr ⟨r, sid, suites, hello, h1, ?_⟩
    cases hs with
    | unasked hu => exact hu
    | off ho => cases ho
    | invalid hf => obtain ⟨url, d, d', h3, h4, -⟩ := hf; exact absurd h4 (hout _ _ _ h3)
    | valid _ _ _ hf => obtain ⟨url, d, d', h3, h4, -⟩ := hf; exact absurd h4 (hout _ _ _ h3)

namespace Toy

/-- what the toy client agrees on with the toy server that has an issuer -/
def staplerChoice : Choice := ⟨0x1301, 0x1d, 0x0807, [1, 2, 3], [[9]]⟩

theorem staplerLibrary : Library env env.kexInit env.sign (stapler.privateKey.getD []) staplerChoice :=
  have L := library env.kexInit (.inr rfl)
  ⟨L.sized, L.opens, L.seals, L.agrees, L.generates, L.signs, fun _ _ => rfl, by decide⟩

theorem staplerCompatible : Compatible env clientConfig stapler (some ['a']) staplerChoice :=
  ⟨⟨rfl, rfl, rfl, ⟨rfl, by simp [stapler, serverConfig, staplerChoice]⟩, rfl,
    ⟨[], [], rfl, ⟨.ed25519, by simp [clientConfig, staplerChoice]⟩, by simp⟩, ⟨rfl, rfl⟩, .inl rfl, by
      intro store draw h
      cases h
      exact ⟨rfl, .inl rfl⟩⟩, compatible.limits, by decide, by decide, compatible.noRaw, compatible.names,
    compatible.ascii⟩

set_option maxRecDepth 1000000 in
/-- the toy responder is not reached -/
theorem outage_facts :
    raised (feed env [(Op.initiate.run env client0).2.outputData] (Op.initiate.run env stapler0).2).1 = true ∧
    (∃ m ∈ (runOps env [.initiate, .receive hello] stapler0).tr,
      (match m with | .sent (.handshake (.serverHello ..)) => true | _ => false) = true) := by
  decide +kernel

/-- a client without trust store does not ask for stapling -/
def quietOps : List Op := [.initiate, .receive (Op.initiate.run env
  (fresh { clientConfig with trustStore := none } (some ['a']) [.sha256, .sha384] (List.replicate 32 5))).2.outputData]

set_option maxRecDepth 1000000 in
theorem quiet_facts : (runOps env quietOps stapler0).tr.any
    (isCert [.x509 [1, 2, 3] [], .x509 [9] []]) = true := by decide +kernel

end Toy

/-- C92, an example: the certificate names no responder, the OCSP service raises, and so does
`receive_data` for the ClientHello of a compatible client. -/
theorem C92_false : ¬ C92_statement := by
  intro h
  obtain ⟨c₁, s₁, h1, h2, n1, h3⟩ := h Toy.env Toy.env.kexInit Toy.env.sign Toy.clientConfig Toy.stapler
    (some ['a']) Toy.staplerChoice [.sha256, .sha384] [.sha256] [.sha256, .sha384, .sha256] [.sha256, .sha256]
    (List.replicate 32 5) (List.replicate 32 6) Toy.client0 Toy.stapler0 Toy.presentable Toy.staplerCompatible
    Toy.staplerLibrary rfl ⟨by decide, fun a => by cases a <;> decide⟩ rfl
    ⟨by decide, fun a => by cases a <;> decide⟩ rfl rfl (by decide) Toy.client0_new Toy.stapler0_new
  obtain ⟨s₂, h4, -⟩ := h3 _ (Toy.cuts n1)
  have h5 := Toy.outage_facts.1
  have e1 : (Op.initiate.run Toy.env Toy.client0).2 = c₁ := by rw [h1]
  have e2 : (Op.initiate.run Toy.env Toy.stapler0).2 = s₁ := congrArg Prod.snd h2
  rw [e1, e2] at h5
  have h6 := congrArg (fun x => raised x.1) h4
  cases h5.symm.trans h6

/-- The hypotheses of `C92_outage` are met by the same server, which gets as far as sending its
ServerHello. -/
example : Conn.new Toy.stapler none true [.sha256] (List.replicate 32 6) = .ok Toy.stapler0 ∧
    Toy.stapler.certificateChain = some ([1, 2, 3] :: [9] :: []) ∧
    (∀ url d res, Toy.env.ocspUrl [1, 2, 3] = .ok url →
      Toy.env.ocspFetch url (Toy.env.ocspRequest [1, 2, 3] [9]) d ≠ .ok res) ∧
    (∃ m ∈ (runOps Toy.env [.initiate, .receive Toy.hello] Toy.stapler0).tr,
      (match m with | .sent (.handshake (.serverHello ..)) => true | _ => false) = true) := by
  refine ⟨Toy.stapler0_new, rfl, ?_, Toy.outage_facts.2⟩
  intro url d res _ h
  cases h

/-- The hypotheses of `C92_outage` are met by a server that does present its chain to a client that
does not ask. -/
example : ∃ post ctx entries pre, (runOps Toy.env Toy.quietOps Toy.stapler0).tr =
    post ++ .sent (.handshake (.certificate ctx entries)) :: pre := by
  obtain ⟨post, ctx, pre, h⟩ := Toy.split_cert Toy.quiet_facts
  exact ⟨post, ctx, _, pre, h⟩

/-- The hypotheses of `C92_partial` are met by the toys with a responder that answers. -/
example : Presentable Toy.stapleEnv Toy.clientConfig (some ['a']) ∧
    Compatible Toy.stapleEnv Toy.clientConfig Toy.stapler (some ['a']) Toy.staplerChoice ∧
    Library Toy.stapleEnv Toy.stapleEnv.kexInit Toy.stapleEnv.sign (Toy.stapler.privateKey.getD []) Toy.staplerChoice ∧
    (∀ issuer rest, Toy.staplerChoice.rest = issuer :: rest → ∃ url,
      Toy.stapleEnv.ocspUrl Toy.staplerChoice.leaf = .ok url ∧
      ∀ d, ∃ res, Toy.stapleEnv.ocspFetch url (Toy.stapleEnv.ocspRequest Toy.staplerChoice.leaf issuer) d = .ok res ∧
        ((Toy.staplerChoice.leaf :: Toy.staplerChoice.rest).map fun c =>
          (Toy.stapleEnv.certDer c).length + 5).sum + res.length + 8 ≤ 15900 ∧
        ((∀ d', Toy.stapleEnv.ocspValidate issuer (Toy.stapleEnv.ocspRequest Toy.staplerChoice.leaf issuer) res d' =
            .ok ()) ∨
          ∀ d', Toy.stapleEnv.ocspValidate issuer (Toy.stapleEnv.ocspRequest Toy.staplerChoice.leaf issuer) res d' =
            .error .valueError)) ∧
    Conn.new Toy.clientConfig (some ['a']) false [.sha256, .sha384] (List.replicate 32 5) = .ok Toy.client0 ∧
    Conn.new Toy.stapler none true [.sha256] (List.replicate 32 6) = .ok Toy.stapler0 := by
  have P := Toy.presentable
  have L := Toy.staplerLibrary
  have K := Toy.staplerCompatible
  refine ⟨⟨P.1, P.2, P.3, P.4, P.5, P.6, P.7, P.8, P.9⟩,
    ⟨⟨K.client, K.server, K.suite, K.group, K.chain, K.scheme, K.anonymous, K.protocols, K.trusted⟩, K.limits,
      K.usable, K.preferred, K.noRaw, K.names, K.ascii⟩,
    ⟨⟨L.sized.hash, L.sized.hmac⟩, L.opens, L.seals, L.agrees, L.generates, L.signs, L.loads, L.small⟩, ?_,
    Toy.client0_new, Toy.stapler0_new⟩
  intro issuer rest h
  cases h
  exact ⟨none, rfl, fun d => ⟨[7], rfl, by decide, .inl fun _ => rfl⟩⟩

/-- The assumption about OCSP of `C56_partial`, `C77_handshake`, `C80_session`, `C81_session`,
`C83_handshake` and `C84_session` is met with an OCSP service at both ends. -/
example : Vouched { Toy.stapleEnv with ocspUrl := fun _ => .ok (some [1]) } true true Toy.clientConfig
    (Toy.staplerChoice.leaf :: Toy.staplerChoice.rest) := by
  refine ⟨fun _ _ a b l h => ?_, fun _ _ before a b l h => ?_⟩
  · cases h
    exact ⟨_, rfl, fun _ => ⟨[7], rfl, by decide, .inl fun _ => rfl⟩⟩
  · exact ⟨_, rfl, .inr (.inr fun _ => ⟨[7], rfl, fun _ => rfl⟩)⟩

end Siotls
