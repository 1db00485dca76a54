import Verif.Proofs.Alerts
import Verif.Proofs.Answers
import Verif.Proofs.DoneInv
import Verif.Spec.Alerts
import Verif.Props.Negotiation
/-!
# C73: what is answered to credentials that are not accepted
-/

namespace Siotls
open Spec

variable {E : Env}

theorem fails_with (hS : E.Seals) (hO : E.Outside) {config : Config} {hostname ocsp algs random}
    {c₀ c' : Conn} {res : Except Exn Unit} (hc : Conn.new config hostname ocsp algs random = .ok c₀)
    (hm : config.maxFragmentLength ∈ [512, 1024, 2048, 4096, 16384])
    (hl : ∀ s ∈ config.cipherSuites, Limited s) (ops : List Op) {d : Bytes} {x : Content}
    {new : List Ev} {desc : Nat}
    (hr : (runOps E ops c₀).state.canReceive = true) (hs : (runOps E ops c₀).state.canSend = true)
    (h : receiveData E d (runOps E ops c₀) = (res, c')) (hk : shouldRekey c' = .ok false)
    (hn : c'.tr = new ++ (runOps E ops c₀).tr) (hx : firstHeard new = some x)
    (hp : ∀ c₁, Kept ((runOps E ops c₀).fed d) c₁ →
      ∃ e, (process E x c₁).1 = .error e ∧ alertFor e = desc) :
    FailsWith E desc (runOps E ops c₀) res c' := by
  obtain ⟨e, rfl, h1, h2, h3⟩ := receive_refused hS hO hc hm hl ops hr hs h hk hn hx
    (P := fun e => alertFor e = desc) hp
  exact ⟨⟨e, h1⟩, h2, h3⟩

/-- the certificate states refuse alike -/
theorem certificate_refused (hS : E.Seals) (hO : E.Outside) {config : Config}
    {hostname ocsp algs random} {c₀ c' : Conn} {res : Except Exn Unit}
    (hc : Conn.new config hostname ocsp algs random = .ok c₀)
    (hm : config.maxFragmentLength ∈ [512, 1024, 2048, 4096, 16384])
    (hl : ∀ s ∈ config.cipherSuites, Limited s) (ops : List Op) {d ctx : Bytes}
    {entries : List CertEntry} {new : List Ev} {desc : Nat}
    (hst : AwaitsCertificate (runOps E ops c₀))
    (h : receiveData E d (runOps E ops c₀) = (res, c')) (hk : shouldRekey c' = .ok false)
    (hn : c'.tr = new ++ (runOps E ops c₀).tr)
    (hx : firstHeard new = some (.handshake (.certificate ctx entries)))
    (hp : ∀ m c₁, c₁.config = (runOps E ops c₀).config → c₁.nconfig = (runOps E ops c₀).nconfig →
      c₁.hostname = (runOps E ops c₀).hostname →
      (clientWaitCert E m (.handshake (.certificate ctx entries)) c₁).1 = .error (.alert desc)) :
    FailsWith E desc (runOps E ops c₀) res c' := by
  refine fails_with hS hO hc hm hl ops ?_ ?_ h hk hn hx fun c₁ hkept => ⟨.alert desc, ?_, rfl⟩
  · rcases hst with h | ⟨m, h⟩ <;> rw [h] <;> rfl
  · rcases hst with h | ⟨m, h⟩ <;> rw [h] <;> rfl
  · have h1 : c₁.state = (runOps E ops c₀).state := by rw [hkept.same]; rfl
    have h2 : c₁.config = (runOps E ops c₀).config := by rw [hkept.same]; rfl
    have h3 : c₁.nconfig = (runOps E ops c₀).nconfig := by rw [hkept.same]; rfl
    have h4 : c₁.hostname = (runOps E ops c₀).hostname := by rw [hkept.same]; rfl
    unfold process
    rw [h1]
    rcases hst with h | ⟨m, h⟩ <;> rw [h] <;> dsimp only
    · unfold clientWaitCertCr
      dsimp only
      rw [bind_step (show moveTo (.clientWaitCert false) c₁ =
        (.ok (), { c₁ with state := .clientWaitCert false }) from rfl)]
      exact hp _ _ h2 h3 h4
    · exact hp _ _ h2 h3 h4

namespace Toy

/-- the toy client that waits for Certificate, CertificateVerify, Finished -/
def waitingCert : Conn := runOps env [.initiate, .receive (flight.take 103)] client0
def waitingCV : Conn := runOps env [.initiate, .receive (flight.take 141)] client0
def waitingFin : Conn := runOps env [.initiate, .receive (flight.take 180)] client0

theorem waitingCert_eq : waitingCert = runOps env [.initiate, .receive (flight.take 103)] client0 := by
  delta waitingCert; rfl
theorem waitingCV_eq : waitingCV = runOps env [.initiate, .receive (flight.take 141)] client0 := by
  delta waitingCV; rfl
theorem waitingFin_eq : waitingFin = runOps env [.initiate, .receive (flight.take 180)] client0 := by
  delta waitingFin; rfl
theorem serverHalf_eq : serverHalf = runOps env [.initiate, .receive hello512] server0 := by
  delta serverHalf; rfl

/-- no certificate, one that is not trusted, a scheme that was not offered, a wrong signature -/
def noCert : Bytes := inject waitingCert 22 [11, 0, 0, 4, 0, 0, 0, 0]
def badCert : Bytes := inject waitingCert 22 [11, 0, 0, 12, 0, 0, 0, 8, 0, 0, 3, 9, 9, 9, 0, 0]
def badScheme : Bytes := inject waitingCV 22 [15, 0, 0, 8, 8, 4, 0, 4, 1, 2, 3, 4]
def badSignature : Bytes := inject waitingCV 22 [15, 0, 0, 8, 8, 7, 0, 4, 1, 2, 3, 4]
def badFinished : Bytes := inject waitingFin 22 ([20, 0, 0, 32] ++ List.replicate 32 7)
def badFinishedS : Bytes := inject serverHalf 22 ([20, 0, 0, 32] ++ List.replicate 32 7)

def isContent (x y : Content) : Bool := y == x

def finishedHeard : Ev → Bool
  | .recv (.handshake (.finished _)) => true
  | _ => false

theorem unheard {tr : List Ev} (h : tr.any finishedHeard = false) (v : Bytes) :
    Ev.recv (.handshake (.finished v)) ∉ tr := by
  intro hm
  have := List.any_eq_false.mp h _ hm
  exact this rfl

set_option maxRecDepth 1000000 in
theorem alert_facts :
    (waitingCert.state = .clientWaitCertCr ∧
      waitingCert.nconfig.map (·.serverCertificateType) = some (some 0) ∧
      hears (isContent (.handshake (.certificate [] []))) waitingCert noCert = true ∧
      hears (isContent (.handshake (.certificate [] [.x509 [9, 9, 9] []]))) waitingCert badCert =
        true) ∧
    (waitingCV.state = .clientWaitCV false (221 :: 22 :: List.replicate 30 0) ∧
      waitingCV.nconfig.map (fun n => (n.peerCertificate, n.peerPublicKey)) =
        some (some [1, 2, 3], none) ∧
      hears (isContent (.handshake (.certificateVerify 0x0804 [1, 2, 3, 4]))) waitingCV badScheme =
        true ∧
      hears (isContent (.handshake (.certificateVerify 0x0807 [1, 2, 3, 4]))) waitingCV badSignature =
        true) ∧
    (waitingFin.state = .clientWaitFin false (232 :: 186 :: List.replicate 30 0) ∧
      waitingFin.tr.any finishedHeard = false ∧
      hears (isContent (.handshake (.finished (List.replicate 32 7)))) waitingFin badFinished =
        true) ∧
    (serverHalf.state = .serverWaitFin (109 :: 33 :: List.replicate 30 0) ∧
      serverHalf.tr.any finishedHeard = false ∧
      hears (isContent (.handshake (.finished (List.replicate 32 7)))) serverHalf badFinishedS =
        true ∧ Careful env [.initiate, .receive hello512] server0) := by
  decide +kernel

end Toy

/-- RFC 8446 asks for decode_error (50) when a server has no certificate. What is sent by a client that
authenticates its server is bad_certificate (42). -/
theorem C73_empty_bad (hS : E.Seals) (hO : E.Outside) {config : Config}
    {hostname ocsp algs random} {c₀ c' : Conn} {res : Except Exn Unit}
    (hc : Conn.new config hostname ocsp algs random = .ok c₀)
    (hauth : Authenticates config)
    (hm : config.maxFragmentLength ∈ [512, 1024, 2048, 4096, 16384])
    (hl : ∀ s ∈ config.cipherSuites, Limited s) (ops : List Op) {d ctx : Bytes} {new : List Ev}
    (hst : AwaitsCertificate (runOps E ops c₀))
    (h : receiveData E d (runOps E ops c₀) = (res, c')) (hk : shouldRekey c' = .ok false)
    (hn : c'.tr = new ++ (runOps E ops c₀).tr)
    (hx : firstHeard new = some (.handshake (.certificate ctx []))) :
    FailsWith E 42 (runOps E ops c₀) res c' := by
  obtain ⟨s, g, a, hcfg⟩ := (CfgInv.run (E := E) hc ops).same
  refine certificate_refused hS hO hc hm hl ops hst h hk hn hx fun m c₁ h2 _ _ =>
    clientWaitCert_empty ?_
  rw [h2, hcfg]
  exact (authenticates_iff config).mp hauth

example : ∃ res c' new ctx, Authenticates Toy.clientConfig ∧ AwaitsCertificate Toy.waitingCert ∧
    receiveData Toy.env Toy.noCert Toy.waitingCert = (res, c') ∧ shouldRekey c' = .ok false ∧
    c'.tr = new ++ Toy.waitingCert.tr ∧
    firstHeard new = some (.handshake (.certificate ctx [])) ∧ FailsWith Toy.env 42 Toy.waitingCert res c' := by
  obtain ⟨res, c', new, x, h1, h2, h3, h4, h5⟩ := Toy.heard_of Toy.alert_facts.1.2.2.1
  cases eq_of_beq h5
  have ha : Authenticates Toy.clientConfig := .inl (by simp [Toy.clientConfig])
  refine ⟨res, c', new, _, ha, .inl Toy.alert_facts.1.1, h1, h2, h3, h4, ?_⟩
  have hst : AwaitsCertificate Toy.waitingCert := .inl Toy.alert_facts.1.1
  rw [Toy.waitingCert_eq] at h1 h3 hst ⊢
  exact C73_empty_bad Toy.seals Toy.outside Toy.client0_new ha (by simp [Toy.clientConfig])
    Toy.limited _ hst h1 h2 h3 h4

/-- A chain that the trust store does not vouch for is refused with bad_certificate (42). -/
theorem C73_chain (hS : E.Seals) (hO : E.Outside) {config : Config}
    {hostname ocsp algs random} {c₀ c' : Conn} {res : Except Exn Unit}
    (hc : Conn.new config hostname ocsp algs random = .ok c₀) (hside : config.side = .client)
    (hm : config.maxFragmentLength ∈ [512, 1024, 2048, 4096, 16384])
    (hl : ∀ s ∈ config.cipherSuites, Limited s) (ops : List Op) {d ctx leaf store : Bytes}
    {others : List Bytes} {entries : List CertEntry} {new : List Ev}
    (hst : AwaitsCertificate (runOps E ops c₀))
    (h : receiveData E d (runOps E ops c₀) = (res, c')) (hk : shouldRekey c' = .ok false)
    (hn : c'.tr = new ++ (runOps E ops c₀).tr)
    (hx : firstHeard new = some (.handshake (.certificate ctx entries))) {nc : NConfig}
    (hnc : (runOps E ops c₀).nconfig = some nc) (hkind : nc.serverCertificateType = some 0)
    (hchain : IsChain entries (leaf :: others)) (hstore : config.trustStore = some store)
    (hv : ∀ subject d, Requested E hostname subject →
      E.verifyChain store config.maxChainDepth subject leaf others d = .error .verificationError) :
    FailsWith E 42 (runOps E ops c₀) res c' := by
  have hcfg := CfgInv.run (E := E) hc ops
  obtain ⟨s, g, a, hsame⟩ := hcfg.same
  refine certificate_refused hS hO hc hm hl ops hst h hk hn hx fun m c₁ h2 h3 h4 => ?_
  refine clientWaitCert_chain (h3.trans hnc) (Thawed.run (E := E) hc ops nc hnc) hkind
    (by rw [h2, hsame]; exact hstore) hchain ?_
  rw [h2, hsame, h4, (hcfg.client hside).2]
  exact hv _ _ (subjectOf_requested hostname)

example : ∃ res c' new nc, Toy.clientConfig.side = .client ∧ AwaitsCertificate Toy.waitingCert ∧
    receiveData Toy.env Toy.badCert Toy.waitingCert = (res, c') ∧ shouldRekey c' = .ok false ∧
    c'.tr = new ++ Toy.waitingCert.tr ∧
    firstHeard new = some (.handshake (.certificate [] [.x509 [9, 9, 9] []])) ∧
    Toy.waitingCert.nconfig = some nc ∧ nc.serverCertificateType = some 0 ∧
    IsChain [.x509 [9, 9, 9] []] [[9, 9, 9]] ∧ Toy.clientConfig.trustStore = some [1, 2, 3] ∧
    ∀ subject d, Toy.env.verifyChain [1, 2, 3] Toy.clientConfig.maxChainDepth subject [9, 9, 9] [] d =
      .error .verificationError := by
  obtain ⟨res, c', new, x, h1, h2, h3, h4, h5⟩ := Toy.heard_of Toy.alert_facts.1.2.2.2
  cases eq_of_beq h5
  obtain ⟨nc, h6, h7⟩ := Option.map_eq_some_iff.mp Toy.alert_facts.1.2.1
  exact ⟨res, c', new, nc, rfl, .inl Toy.alert_facts.1.1, h1, h2, h3, h4, h6, h7,
    .cons ⟨_, rfl⟩ .nil, rfl, fun _ _ => rfl⟩

/-- A signature scheme that was not offered is refused with illegal_parameter (47). -/
theorem C73_scheme (hS : E.Seals) (hO : E.Outside) {config : Config}
    {hostname ocsp algs random} {c₀ c' : Conn} {res : Except Exn Unit}
    (hc : Conn.new config hostname ocsp algs random = .ok c₀) (hside : config.side = .client)
    (hm : config.maxFragmentLength ∈ [512, 1024, 2048, 4096, 16384])
    (hl : ∀ s ∈ config.cipherSuites, Limited s) (ops : List Op) {d hash sig : Bytes} {m : Bool}
    {alg : Nat} {new : List Ev} (hst : (runOps E ops c₀).state = .clientWaitCV m hash)
    (h : receiveData E d (runOps E ops c₀) = (res, c')) (hk : shouldRekey c' = .ok false)
    (hn : c'.tr = new ++ (runOps E ops c₀).tr)
    (hx : firstHeard new = some (.handshake (.certificateVerify alg sig)))
    (halg : alg ∉ config.signatureAlgorithms) :
    FailsWith E 47 (runOps E ops c₀) res c' := by
  have hcfg := (CfgInv.run (E := E) hc ops).client hside
  refine fails_with hS hO hc hm hl ops (by rw [hst]; rfl) (by rw [hst]; rfl) h hk hn hx
    fun c₁ hkept => ⟨.alert 47, ?_, rfl⟩
  have h1 : c₁.state = (runOps E ops c₀).state := by rw [hkept.same]; rfl
  have h2 : c₁.config = (runOps E ops c₀).config := by rw [hkept.same]; rfl
  unfold process
  rw [h1, hst]
  refine clientWaitCV_scheme ?_
  rw [h2, hcfg.1]
  exact halg

example : ∃ res c' new m hash, Toy.waitingCV.state = .clientWaitCV m hash ∧
    receiveData Toy.env Toy.badScheme Toy.waitingCV = (res, c') ∧ shouldRekey c' = .ok false ∧
    c'.tr = new ++ Toy.waitingCV.tr ∧
    firstHeard new = some (.handshake (.certificateVerify 0x0804 [1, 2, 3, 4])) ∧
    0x0804 ∉ Toy.clientConfig.signatureAlgorithms := by
  obtain ⟨res, c', new, x, h1, h2, h3, h4, h5⟩ := Toy.heard_of Toy.alert_facts.2.1.2.2.1
  cases eq_of_beq h5
  exact ⟨res, c', new, _, _, Toy.alert_facts.2.1.1, h1, h2, h3, h4, by simp [Toy.clientConfig]⟩

/-- RFC 8446 asks for decrypt_error (51) when the signature is wrong. What is sent is internal_error
(80): nothing converts the exception of the signature library to an alert. -/
theorem C73_signature_internal (hS : E.Seals) (hO : E.Outside) {config : Config}
    {hostname ocsp algs random} {c₀ c' : Conn} {res : Except Exn Unit}
    (hc : Conn.new config hostname ocsp algs random = .ok c₀) (hside : config.side = .client)
    (hm : config.maxFragmentLength ∈ [512, 1024, 2048, 4096, 16384])
    (hl : ∀ s ∈ config.cipherSuites, Limited s) (ops : List Op) {d hash sig leaf pub : Bytes}
    {m : Bool} {alg : Nat} {new : List Ev} (hst : (runOps E ops c₀).state = .clientWaitCV m hash)
    (h : receiveData E d (runOps E ops c₀) = (res, c')) (hk : shouldRekey c' = .ok false)
    (hn : c'.tr = new ++ (runOps E ops c₀).tr)
    (hx : firstHeard new = some (.handshake (.certificateVerify alg sig)))
    (halg : alg ∈ config.signatureAlgorithms) {nc : NConfig}
    (hnc : (runOps E ops c₀).nconfig = some nc) (hraw : nc.peerPublicKey = none)
    (hcert : nc.peerCertificate = some leaf) (hpub : E.certPub leaf = .ok pub)
    (hv : E.verify alg pub sig (signedContent hash) = .error .invalidSignature) :
    FailsWith E 80 (runOps E ops c₀) res c' := by
  have hcfg := (CfgInv.run (E := E) hc ops).client hside
  refine fails_with hS hO hc hm hl ops (by rw [hst]; rfl) (by rw [hst]; rfl) h hk hn hx
    fun c₁ hkept => ?_
  have h1 : c₁.state = (runOps E ops c₀).state := by rw [hkept.same]; rfl
  have h2 : c₁.config = (runOps E ops c₀).config := by rw [hkept.same]; rfl
  have h3 : c₁.nconfig = (runOps E ops c₀).nconfig := by rw [hkept.same]; rfl
  unfold process
  rw [h1, hst]
  rw [← signedContent_eq] at hv
  rcases clientWaitCV_invalid (m := m) (nc := nc) (by rw [h2, hcfg.1]; exact halg) (h3.trans hnc)
    (Thawed.run (E := E) hc ops nc hnc) (by unfold peerKey; rw [hraw, hcert]; exact hpub) hv with h | h
  · exact ⟨_, h, rfl⟩
  · exact ⟨_, h, rfl⟩

example : ∃ res c' new m hash nc, Toy.waitingCV.state = .clientWaitCV m hash ∧
    receiveData Toy.env Toy.badSignature Toy.waitingCV = (res, c') ∧ shouldRekey c' = .ok false ∧
    c'.tr = new ++ Toy.waitingCV.tr ∧
    firstHeard new = some (.handshake (.certificateVerify 0x0807 [1, 2, 3, 4])) ∧
    0x0807 ∈ Toy.clientConfig.signatureAlgorithms ∧ Toy.waitingCV.nconfig = some nc ∧
    nc.peerPublicKey = none ∧ nc.peerCertificate = some [1, 2, 3] ∧
    Toy.env.certPub [1, 2, 3] = .ok [1, 2, 3] ∧
    Toy.env.verify 0x0807 [1, 2, 3] [1, 2, 3, 4] (signedContent hash) = .error .invalidSignature := by
  obtain ⟨res, c', new, x, h1, h2, h3, h4, h5⟩ := Toy.heard_of Toy.alert_facts.2.1.2.2.2
  cases eq_of_beq h5
  obtain ⟨nc, h6, h7⟩ := Option.map_eq_some_iff.mp Toy.alert_facts.2.1.2.1
  simp only [Prod.mk.injEq] at h7
  refine ⟨res, c', new, _, _, nc, Toy.alert_facts.2.1.1, h1, h2, h3, h4, by simp [Toy.clientConfig], h6,
    h7.2, h7.1, rfl, ?_⟩
  decide +kernel

/-- A client answers decrypt_error (51) to a Finished whose MAC is not the one that the key exchange
and the messages up to CertificateVerify define. -/
theorem C73_finished_client (hE : E.Sized) (hS : E.Seals) (hO : E.Outside) {config : Config}
    {hostname ocsp algs random} {c₀ c' : Conn} {res : Except Exn Unit}
    (hc : Conn.new config hostname ocsp algs random = .ok c₀) (hside : config.side = .client)
    (hm : config.maxFragmentLength ∈ [512, 1024, 2048, 4096, 16384])
    (hl : ∀ s ∈ config.cipherSuites, Limited s) (ops : List Op) {d hash vd : Bytes} {m : Bool}
    {new : List Ev} (hst : (runOps E ops c₀).state = .clientWaitFin m hash)
    (hfirst : ∀ v, .recv (.handshake (.finished v)) ∉ (runOps E ops c₀).tr)
    (h : receiveData E d (runOps E ops c₀) = (res, c')) (hk : shouldRekey c' = .ok false)
    (hn : c'.tr = new ++ (runOps E ops c₀).tr)
    (hx : firstHeard new = some (.handshake (.finished vd))) :
    ∃ k t alg sig shared th, (runOps E ops c₀).cipher = some k ∧ t <:+ (runOps E ops c₀).tr ∧
      t.head? = some (.recv (.handshake (.certificateVerify alg sig))) ∧
      CoversSince E k.info.digest t hash ∧
      ClientExchange E (CoversSince E) k.info.digest (runOps E ops c₀).tr shared th ∧
      (vd ≠ E.hmac k.info.digest ((E.spec k.info.digest).finishedKey
          ((E.spec k.info.digest).sHs shared th)) hash →
        FailsWith E 51 (runOps E ops c₀) res c') := by
  have hi := ClientInv.run (E := E) hE hc hside ops
  have ha := (AliveInv.fresh hc hl).run (E := E) ops
  have hlate := LateInv.run (E := E) hc ops (by rw [hst]; rfl)
  obtain ⟨k, t, alg, sig, h1, h2, h3, h4⟩ := hi.done.verified _ _ hst
  rw [h1] at hlate
  have hkey := hi.key.key k h1
  have hlim : k.info.usageLimit.isSome = true := (ha.cipher k h1).2.1
  obtain ⟨x, hsx⟩ : ∃ x, k.sFin = .key x := by
    rcases hkey.2 hlim with ⟨-, -, -, -, h5⟩ | ⟨shared, -, ⟨th, -, h5, -⟩ | ⟨h5, -⟩⟩
    · simp only [decOf, h5] at hlate; cases hlate
    · exact ⟨_, h5⟩
    · have := hi.done.done k h1 h5
      unfold PeerDone at this
      rw [hside] at this
      obtain ⟨t, _, _, _, v, _, _, _, h6, _, _, _, h7, _⟩ := this.1
      exact absurd (h6.subset h7) (hfirst v)
  obtain ⟨shared, th, -, h6, h7⟩ := hi.src.src k h1 hlim x (.inr hsx)
  refine ⟨k, t, alg, sig, shared, th, h1, h2, h3, h4, h7, fun hv => ?_⟩
  refine fails_with hS hO hc hm hl ops (by rw [hst]; rfl) (by rw [hst]; rfl) h hk hn hx
    fun c₁ hkept => ⟨.alert 51, ?_, rfl⟩
  have e1 : c₁.state = (runOps E ops c₀).state := by rw [hkept.same]; rfl
  obtain ⟨k₁, e2, e3, e4, -, e5⟩ := hkept.cipher (k := k) h1
  unfold process
  rw [e1, hst]
  refine clientWaitFin_wrong e2 (e4.trans ?_) (e5.trans h6) (by rw [e3]; exact hv)
  exact hi.side.cipher k h1

example : ∃ res c' new m hash, Toy.waitingFin.state = .clientWaitFin m hash ∧
    (∀ v, .recv (.handshake (.finished v)) ∉ Toy.waitingFin.tr) ∧
    receiveData Toy.env Toy.badFinished Toy.waitingFin = (res, c') ∧ shouldRekey c' = .ok false ∧
    c'.tr = new ++ Toy.waitingFin.tr ∧
    firstHeard new = some (.handshake (.finished (List.replicate 32 7))) := by
  obtain ⟨res, c', new, x, h1, h2, h3, h4, h5⟩ := Toy.heard_of Toy.alert_facts.2.2.1.2.2
  cases eq_of_beq h5
  exact ⟨res, c', new, _, _, Toy.alert_facts.2.2.1.1, Toy.unheard Toy.alert_facts.2.2.1.2.1, h1, h2,
    h3, h4⟩

/-- A server answers decrypt_error (51) to a Finished whose MAC is not the one that the key exchange
and the messages up to its own Finished define. -/
theorem C73_finished_server (hE : E.Sized) (hS : E.Seals) (hO : E.Outside) {config : Config}
    {hostname ocsp algs random} {c₀ c' : Conn} {res : Except Exn Unit}
    (hc : Conn.new config hostname ocsp algs random = .ok c₀) (hside : config.side = .server)
    (hr : random.length = 32) (hne : random ≠ Spec.retryRandom)
    (hm : config.maxFragmentLength ∈ [512, 1024, 2048, 4096, 16384])
    (hl : ∀ s ∈ config.cipherSuites, Limited s) (ops : List Op) (hcare : Careful E ops c₀)
    {d hash vd : Bytes} {new : List Ev} (hst : (runOps E ops c₀).state = .serverWaitFin hash)
    (hfirst : ∀ v, .recv (.handshake (.finished v)) ∉ (runOps E ops c₀).tr)
    (h : receiveData E d (runOps E ops c₀) = (res, c')) (hk : shouldRekey c' = .ok false)
    (hn : c'.tr = new ++ (runOps E ops c₀).tr)
    (hx : firstHeard new = some (.handshake (.finished vd))) :
    ∃ k t mac shared th, (runOps E ops c₀).cipher = some k ∧ t <:+ (runOps E ops c₀).tr ∧
      t.head? = some (.sent (.handshake (.finished mac))) ∧
      CoversRfc E k.info.digest t hash ∧
      ServerExchange E (CoversRfc E) k.info.digest (runOps E ops c₀).tr shared th ∧
      (vd ≠ E.hmac k.info.digest ((E.spec k.info.digest).finishedKey
          ((E.spec k.info.digest).cHs shared th)) hash →
        FailsWith E 51 (runOps E ops c₀) res c') := by
  have hi := ServerInv.run (E := E) hE hc hside hr hne ops hcare
  have ha := (AliveInv.fresh hc hl).run (E := E) ops
  have hlate := LateInv.run (E := E) hc ops (by rw [hst]; rfl)
  obtain ⟨k, t, mac, h1, h2, h3, h4⟩ := hi.done.last _ hst
  rw [h1] at hlate
  have hkey := hi.key.key k h1
  have hlim : k.info.usageLimit.isSome = true := (ha.cipher k h1).2.1
  obtain ⟨x, hsx⟩ : ∃ x, k.cFin = .key x := by
    rcases hkey.2 hlim with ⟨-, -, -, -, h5⟩ | ⟨shared, -, ⟨th, h5, -, -⟩ | ⟨h5, -⟩⟩
    · simp only [decOf, h5] at hlate; cases hlate
    · exact ⟨_, h5⟩
    · have := hi.done.done k h1 h5
      unfold PeerDone at this
      rw [hside] at this
      obtain ⟨t, _, _, v, _, _, _, h6, _, _, _, h7, _⟩ := this
      exact absurd (h6.subset h7) (hfirst v)
  obtain ⟨shared, th, h6, -, h7⟩ := hi.src.src k h1 hlim x (.inl hsx)
  refine ⟨k, t, mac, shared, th, h1, h2, h3, h4, h7, fun hv => ?_⟩
  refine fails_with hS hO hc hm hl ops (by rw [hst]; rfl) (by rw [hst]; rfl) h hk hn hx
    fun c₁ hkept => ⟨.alert 51, ?_, rfl⟩
  have e1 : c₁.state = (runOps E ops c₀).state := by rw [hkept.same]; rfl
  obtain ⟨k₁, e2, e3, e4, e5, -⟩ := hkept.cipher (k := k) h1
  unfold process
  rw [e1, hst]
  refine serverWaitFin_wrong e2 (e4.trans ?_) (e5.trans h6) (by rw [e3]; exact hv)
  exact hi.side.cipher k h1

example : ∃ res c' new hash, Toy.serverHalf.state = .serverWaitFin hash ∧
    Careful Toy.env [.initiate, .receive Toy.hello512] Toy.server0 ∧
    (∀ v, .recv (.handshake (.finished v)) ∉ Toy.serverHalf.tr) ∧
    receiveData Toy.env Toy.badFinishedS Toy.serverHalf = (res, c') ∧ shouldRekey c' = .ok false ∧
    c'.tr = new ++ Toy.serverHalf.tr ∧
    firstHeard new = some (.handshake (.finished (List.replicate 32 7))) := by
  obtain ⟨res, c', new, x, h1, h2, h3, h4, h5⟩ := Toy.heard_of Toy.alert_facts.2.2.2.2.2.1
  cases eq_of_beq h5
  exact ⟨res, c', new, _, Toy.alert_facts.2.2.2.1, Toy.alert_facts.2.2.2.2.2.2,
    Toy.unheard Toy.alert_facts.2.2.2.2.1, h1, h2, h3, h4⟩

end Siotls
