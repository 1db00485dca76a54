import Verif.Props.Auth
import Verif.Props.Outage
/-!
# C94 and C95: a client with an OCSP service
-/

namespace Siotls
open Spec Serial

variable {E : Env}

/-! ## C94 -/

/-- C94, full statement: a client with a trust store and an OCSP service is only connected to a server all
of whose certificates that name a responder are vouched for by a valid OCSP response. False of the code:
`C94_false`. -/
def C94_statement : Prop :=
  ∀ (E : Env) (config : Config) (hostname : Option PyStr) (algs : List HashAlg) (random : Bytes) (c : Conn)
    (ops : List Op) (ctx : Bytes) (entries : List CertEntry) (cert : Bytes) (exts : List Ext) (url : Bytes),
    E.Sized → Conn.new config hostname true algs random = .ok c → config.side = .client →
    config.trustStore.isSome = true → (runOps E ops c).state = .connected →
    Ev.recv (.handshake (.certificate ctx entries)) ∈ (runOps E ops c).tr → .x509 cert exts ∈ entries →
    E.ocspUrl cert = .ok (some url) → url ≠ [] →
    ∃ issuer res d, E.ocspValidate issuer (E.ocspRequest cert issuer) res d = .ok ()

/-- C94, what is true, for all executions: every certificate of the chain that the server sent *followed by
its issuer* carried a response that was validated, or the OCSP service got one that was validated, or it
names no responder. Missing: the last certificate of the chain (the only one, when the server sends its
certificate alone), which the code never asks about. -/
theorem C94_partial (hE : E.Sized) {config hostname algs random} {c : Conn}
    (h : Conn.new config hostname true algs random = .ok c) (hside : config.side = .client)
    (hstore : config.trustStore.isSome = true) (ops : List Op)
    (hst : (runOps E ops c).state = .connected) :
    ∃ ctx entries leaf others, Ev.recv (.handshake (.certificate ctx entries)) ∈ (runOps E ops c).tr ∧
      IsChain entries (leaf :: others) ∧
      ∀ before cert exts issuer exts' after,
        entries = before ++ .x509 cert exts :: .x509 issuer exts' :: after →
        (∃ res d, E.ocspValidate issuer (E.ocspRequest cert issuer) res d = .ok () ∧
          (.ocspStatus res ∈ exts ∨ ∃ url d', E.ocspUrl cert = .ok url ∧
            E.ocspFetch url (E.ocspRequest cert issuer) d' = .ok res)) ∨
        ((∀ e ∈ exts, e.type ≠ 5) ∧ (E.ocspUrl cert = .ok none ∨ E.ocspUrl cert = .ok (some []))) := by
  obtain ⟨store, hstore⟩ := Option.isSome_iff_exists.mp hstore
  obtain ⟨_, _, _, leaf, _, _, _, _, h0, h1, _⟩ := C20_authenticated hE h hside hstore ops hst
  obtain ⟨_, _, _, _, _, h2, h3, _⟩ := h1
  obtain ⟨_, ctx, entries, others, _, _, h4, h5, h6, _, _, _, h7, _⟩ := h3
  refine ⟨ctx, entries, leaf, others, h0.subset (h2.subset (h4.subset (List.mem_of_mem_head? h5))), h6, ?_⟩
  intro before cert exts issuer exts' after he
  rcases h7 _ _ _ _ _ _ he with ⟨res, d, h8, h9⟩ | ⟨h8, h9⟩
  · exact .inl ⟨res, d, h9, .inl h8⟩
  · obtain ⟨url, h10, h11⟩ := h9 rfl
    rcases h11 with rfl | rfl | ⟨d, res, d', h12, h13⟩
    · exact .inr ⟨h8, .inl h10⟩
    · exact .inr ⟨h8, .inr h10⟩
    · exact .inl ⟨res, d', h13, .inr ⟨url, d, h10, h12⟩⟩

/-- C94, revoked certificates: a client with a trust store and an OCSP service is never connected to a server
that only ever presented chains in which a certificate followed by its issuer names a responder and is
vouched for by no response. -/
theorem C94_revoked_partial (hE : E.Sized) {config hostname algs random} {c : Conn}
    (h : Conn.new config hostname true algs random = .ok c) (hside : config.side = .client)
    (hstore : config.trustStore.isSome = true) (ops : List Op)
    (hrev : ∀ ctx entries, Ev.recv (.handshake (.certificate ctx entries)) ∈ (runOps E ops c).tr →
      ∃ before cert exts issuer exts' after url,
        entries = before ++ .x509 cert exts :: .x509 issuer exts' :: after ∧
        E.ocspUrl cert = .ok (some url) ∧ url ≠ [] ∧
        ∀ res d, E.ocspValidate issuer (E.ocspRequest cert issuer) res d ≠ .ok ()) :
    (runOps E ops c).state ≠ .connected := by
  intro hst
  obtain ⟨ctx, entries, leaf, others, h1, -, h2⟩ := C94_partial hE h hside hstore ops hst
  obtain ⟨before, cert, exts, issuer, exts', after, url, h3, h4, h5, h6⟩ := hrev ctx entries h1
  rcases h2 _ _ _ _ _ _ h3 with ⟨res, d, h7, -⟩ | ⟨-, h7 | h7⟩
  · exact h6 res d h7
  · rw [h4] at h7; cases h7
  · rw [h4] at h7; cases h7; exact h5 rfl

/-! ## C95 -/

/-- C95, full statement: a client that is given an OCSP service connects to the servers it would connect to
without it when their certificates name no responder. False of the code: `C95_false`. -/
def C95_statement : Prop :=
  ∀ (E : Env) (kex : Nat → Nat → Except Exn (Bytes × Bytes))
    (sign : Nat → Bytes → Bytes → Nat → Except Exn Bytes) (gc gs : Config) (host : Option PyStr) (k : Choice)
    (algsC algsS dsC dsS : List HashAlg) (randomC randomS : Bytes) (c₀ s₀ : Conn),
    Presentable E gc host → Compatible E gc gs host k → Library E kex sign (gs.privateKey.getD []) k →
    (∀ cert ∈ k.leaf :: k.rest, ∀ url, E.ocspUrl cert ≠ .ok (some url)) →
    suiteDigests gc.cipherSuites = .ok dsC → IsSetOrder algsC dsC →
    suiteDigests gs.cipherSuites = .ok dsS → IsSetOrder algsS dsS →
    randomC.length = 32 → randomS.length = 32 → randomS ≠ hrrRandom →
    Conn.new gc host true algsC randomC = .ok c₀ → Conn.new gs none false algsS randomS = .ok s₀ →
    ∃ c₁ s₁, Op.initiate.run E c₀ = (.ok [], c₁) ∧
      Op.initiate.run (E.elsewhere kex sign) s₀ = (.ok [], s₁) ∧
      Completes E (E.elsewhere kex sign) c₁ s₁ gc gs k

/-- C95, what is true: it does when every certificate but the last has an Authority Information Access
extension (one that names no responder). Missing: certificates without the extension. -/
theorem C95_partial {kex : Nat → Nat → Except Exn (Bytes × Bytes)}
    {sign : Nat → Bytes → Bytes → Nat → Except Exn Bytes} {gc gs : Config} {host : Option PyStr} {k : Choice}
    {algsC algsS dsC dsS : List HashAlg} {randomC randomS : Bytes} {c₀ s₀ : Conn}
    (P : Presentable E gc host) (K : Compatible E gc gs host k)
    (L : Library E kex sign (gs.privateKey.getD []) k)
    (hnone : ∀ before subject issuer after, k.leaf :: k.rest = before ++ subject :: issuer :: after →
      E.ocspUrl subject = .ok none)
    (hdc : suiteDigests gc.cipherSuites = .ok dsC) (hac : IsSetOrder algsC dsC)
    (hds : suiteDigests gs.cipherSuites = .ok dsS) (has : IsSetOrder algsS dsS)
    (hrc : randomC.length = 32) (hrs : randomS.length = 32) (hrr : randomS ≠ hrrRandom)
    (hc₀ : Conn.new gc host true algsC randomC = .ok c₀)
    (hs₀ : Conn.new gs none false algsS randomS = .ok s₀) :
    ∃ c₁ s₁, Op.initiate.run E c₀ = (.ok [], c₁) ∧
      Op.initiate.run (E.elsewhere kex sign) s₀ = (.ok [], s₁) ∧
      Completes E (E.elsewhere kex sign) c₁ s₁ gc gs k :=
  C77_handshake P K L ⟨fun h => absurd h (by simp), fun _ _ before subject issuer after hc =>
    ⟨_, hnone before subject issuer after hc, .inl rfl⟩⟩ hdc hac hds has hrc hrs hrr hc₀ hs₀

/-- C95, what is wrong, for all executions: a client with a trust store and an OCSP service is never connected
to a server that only ever presented chains in which a certificate without stapled response is followed by its
issuer and `get_ocsp_url` raises for it (ExtensionNotFound: no AIA extension). -/
theorem C95_missing (hE : E.Sized) {config hostname algs random} {c : Conn}
    (h : Conn.new config hostname true algs random = .ok c) (hside : config.side = .client)
    (hstore : config.trustStore.isSome = true) (ops : List Op)
    (hno : ∀ ctx entries, Ev.recv (.handshake (.certificate ctx entries)) ∈ (runOps E ops c).tr →
      ∃ before cert exts issuer exts' after e,
        entries = before ++ .x509 cert exts :: .x509 issuer exts' :: after ∧
        (∀ x ∈ exts, x.type ≠ 5) ∧ E.ocspUrl cert = .error e) :
    (runOps E ops c).state ≠ .connected := by
  intro hst
  obtain ⟨ctx, entries, leaf, others, h1, -, h2⟩ := C94_partial hE h hside hstore ops hst
  obtain ⟨before, cert, exts, issuer, exts', after, e, h3, h4, h5⟩ := hno ctx entries h1
  rcases h2 _ _ _ _ _ _ h3 with ⟨res, d, -, h7 | ⟨url, d', h7, -⟩⟩ | ⟨-, h7 | h7⟩
  · exact h4 _ h7 rfl
  all_goals rw [h5] at h7; cases h7

namespace Toy

/-- a library for which every certificate is revoked -/
def revoker : Env := { env with
  ocspUrl := fun _ => .ok (some [1]), ocspFetch := fun _ _ _ => .ok [7]
  ocspValidate := fun _ _ _ _ => .error .valueError }

/-- a library for which no certificate has the AIA extension -/
def bare : Env := { env with ocspUrl := fun _ => .error .external }

/-- the toy client with an OCSP service -/
def checker0 : Conn := { client0 with hasOcsp := true }

/-- the toy server with an issuer and no OCSP service -/
def pair0 : Conn := { stapler0 with hasOcsp := false }

theorem checker0_new : Conn.new clientConfig (some ['a']) true [.sha256, .sha384] (List.replicate 32 5) =
    .ok checker0 := by rfl

theorem pair0_new : Conn.new stapler none false [.sha256] (List.replicate 32 6) = .ok pair0 := by rfl

set_option maxRecDepth 1000000 in
theorem revoked_facts : (runOps revoker clientOps checker0).state = .connected ∧
    (runOps revoker clientOps checker0).tr.any
      (fun e => e == .recv (.handshake (.certificate [] [.x509 [1, 2, 3] []]))) = true := by decide +kernel

def someCert : Ev → Bool
  | .recv (.handshake (.certificate ..)) => true
  | _ => false

/-- the flight of the toy server with an issuer -/
def pairFlight (E : Env) : Bytes :=
  (feed E [(Op.initiate.run E checker0).2.outputData] (Op.initiate.run E pair0).2).2.outputData

def chainOps : List Op := [.initiate, .drain, .receive (pairFlight env)]

set_option maxRecDepth 1000000 in
theorem chain_facts :
    ((runOps revoker chainOps checker0).tr.filter someCert) =
      [.recv (.handshake (.certificate [] [.x509 [1, 2, 3] [], .x509 [9] []]))] ∧
    ((runOps bare chainOps checker0).tr.filter someCert) =
      [.recv (.handshake (.certificate [] [.x509 [1, 2, 3] [], .x509 [9] []]))] ∧
    (runOps env chainOps checker0).state = .connected := by decide +kernel

set_option maxRecDepth 1000000 in
theorem bare_facts :
    raised (feed bare [pairFlight bare] (Op.drain.run bare (Op.initiate.run bare checker0).2).2).1 = true := by
  decide +kernel

/-- the only Certificate received -/
theorem only_cert {E : Env} {ops : List Op} {c : Conn} {entries : List CertEntry}
    (h : ((runOps E ops c).tr.filter someCert) =
      [.recv (.handshake (.certificate [] entries))]) {ctx : Bytes} {es : List CertEntry}
    (hm : Ev.recv (.handshake (.certificate ctx es)) ∈ (runOps E ops c).tr) : es = entries := by
  have : Ev.recv (.handshake (.certificate ctx es)) ∈ (runOps E ops c).tr.filter someCert :=
    List.mem_filter.mpr ⟨hm, rfl⟩
  rw [h, List.mem_singleton] at this
  cases this
  rfl

end Toy

/-- C94, an example: a server sends its certificate alone, without its issuer; the responder it names says
that it is revoked; the client connects. -/
theorem C94_false : ¬ C94_statement := by
  intro h
  obtain ⟨e, he, hb⟩ := List.any_eq_true.mp Toy.revoked_facts.2
  cases eq_of_beq hb
  obtain ⟨_, _, _, h1⟩ := h Toy.revoker Toy.clientConfig (some ['a']) [.sha256, .sha384] (List.replicate 32 5)
    Toy.checker0 Toy.clientOps [] _ [1, 2, 3] [] [1] ⟨Toy.sized.hash, Toy.sized.hmac⟩ Toy.checker0_new rfl rfl
    Toy.revoked_facts.1 he (.head _) rfl (by simp)
  cases h1

/-- C95, an example: two certificates without AIA extension, and `receive_data` raises. -/
theorem C95_false : ¬ C95_statement := by
  intro h
  have P := Toy.presentable
  have L := Toy.staplerLibrary
  have K := Toy.staplerCompatible
  obtain ⟨c₁, s₁, h1, h2, n1, h3⟩ := h Toy.bare Toy.bare.kexInit Toy.bare.sign Toy.clientConfig Toy.stapler
    (some ['a']) Toy.staplerChoice [.sha256, .sha384] [.sha256] [.sha256, .sha384, .sha256] [.sha256, .sha256]
    (List.replicate 32 5) (List.replicate 32 6) Toy.checker0 Toy.pair0
    ⟨P.1, P.2, P.3, P.4, P.5, P.6, P.7, P.8, P.9⟩
    ⟨⟨K.client, K.server, K.suite, K.group, K.chain, K.scheme, K.anonymous, K.protocols, K.trusted⟩, K.limits,
      K.usable, K.preferred, K.noRaw, K.names, K.ascii⟩
    ⟨⟨L.sized.hash, L.sized.hmac⟩, L.opens, L.seals, L.agrees, L.generates, L.signs, L.loads, L.small⟩
    (fun _ _ _ h => by cases h) rfl ⟨by decide, fun a => by cases a <;> decide⟩ rfl
    ⟨by decide, fun a => by cases a <;> decide⟩ rfl rfl (by decide) Toy.checker0_new Toy.pair0_new
  have e1 : (Op.initiate.run Toy.bare Toy.checker0).2 = c₁ := by rw [h1]
  have e2 : (Op.initiate.run Toy.bare Toy.pair0).2 = s₁ := congrArg Prod.snd h2
  obtain ⟨s₂, h4, n2, h5⟩ := h3 _ (Toy.cuts n1)
  have e3 : Toy.pairFlight Toy.bare = s₂.outputData := by
    unfold Toy.pairFlight
    rw [e1, e2]
    exact congrArg (fun x => x.2.outputData) h4
  obtain ⟨c₂, h6, -⟩ := h5 _ (Toy.cuts n2)
  have h7 := Toy.bare_facts
  rw [e1, e3] at h7
  have h8 := congrArg (fun x => raised x.1) h6
  cases h7.symm.trans h8

/-- The hypotheses of `C94_partial` are met, by a client with an OCSP service connected to a server that sent
two certificates (and by the client of `C94_false`). -/
example : Toy.env.Sized ∧ Conn.new Toy.clientConfig (some ['a']) true [.sha256, .sha384] (List.replicate 32 5) =
      .ok Toy.checker0 ∧ Toy.clientConfig.side = .client ∧ Toy.clientConfig.trustStore.isSome = true ∧
    (runOps Toy.env Toy.chainOps Toy.checker0).state = .connected :=
  ⟨Toy.sized, Toy.checker0_new, rfl, rfl, Toy.chain_facts.2.2⟩

/-- Those of `C94_revoked_partial`, by the same client when the two certificates are revoked. -/
example : Toy.revoker.Sized ∧ ∀ ctx entries,
    Ev.recv (.handshake (.certificate ctx entries)) ∈ (runOps Toy.revoker Toy.chainOps Toy.checker0).tr →
      ∃ before cert exts issuer exts' after url,
        entries = before ++ .x509 cert exts :: .x509 issuer exts' :: after ∧
        Toy.revoker.ocspUrl cert = .ok (some url) ∧ url ≠ [] ∧
        ∀ res d, Toy.revoker.ocspValidate issuer (Toy.revoker.ocspRequest cert issuer) res d ≠ .ok () := by
  refine ⟨⟨Toy.sized.hash, Toy.sized.hmac⟩, fun ctx entries h => ?_⟩
  rw [Toy.only_cert Toy.chain_facts.1 h]
  exact ⟨[], _, _, _, _, [], [1], rfl, rfl, by simp, fun _ _ h => by cases h⟩

/-- Those of `C95_missing`, by the same client when the certificates have no AIA extension. -/
example : Toy.bare.Sized ∧ ∀ ctx entries,
    Ev.recv (.handshake (.certificate ctx entries)) ∈ (runOps Toy.bare Toy.chainOps Toy.checker0).tr →
      ∃ before cert exts issuer exts' after e,
        entries = before ++ .x509 cert exts :: .x509 issuer exts' :: after ∧
        (∀ x ∈ exts, x.type ≠ 5) ∧ Toy.bare.ocspUrl cert = .error e := by
  refine ⟨⟨Toy.sized.hash, Toy.sized.hmac⟩, fun ctx entries h => ?_⟩
  rw [Toy.only_cert Toy.chain_facts.2.1 h]
  exact ⟨[], _, _, _, _, [], _, rfl, by simp, rfl⟩

/-- Those of `C95_partial`, by the toy library, whose certificates name no responder. -/
example : Presentable Toy.env Toy.clientConfig (some ['a']) ∧
    Compatible Toy.env Toy.clientConfig Toy.stapler (some ['a']) Toy.staplerChoice ∧
    Library Toy.env Toy.env.kexInit Toy.env.sign (Toy.stapler.privateKey.getD []) Toy.staplerChoice ∧
    (∀ subject, Toy.env.ocspUrl subject = .ok none) ∧
    Conn.new Toy.clientConfig (some ['a']) true [.sha256, .sha384] (List.replicate 32 5) = .ok Toy.checker0 ∧
    Conn.new Toy.stapler none false [.sha256] (List.replicate 32 6) = .ok Toy.pair0 :=
  ⟨Toy.presentable, Toy.staplerCompatible, Toy.staplerLibrary, fun _ => rfl, Toy.checker0_new, Toy.pair0_new⟩

end Siotls
