import Verif.Props.Negotiation
/-!
# C68: a ClientHello without a mandatory extension is refused with missing_extension
-/

namespace Siotls
open Serial Spec

variable {E : Env}

namespace Toy

/-- `hello` without supported_groups -/
def helloNoGroups : Bytes :=
  [22, 3, 3, 0, 103, 1, 0, 0, 99, 3, 3] ++ List.replicate 32 5 ++ [0, 0, 6, 19, 3, 19, 2, 19, 1, 1,
    0, 0, 52, 0, 43, 0, 3, 2, 3, 4, 0, 13, 0, 6, 0, 4, 8, 7, 4, 3,
    0, 15, 0, 1, 1, 0, 0, 0, 6, 0, 4, 0, 0, 1, 97, 0, 5, 0, 5, 1, 0, 0, 0, 0, 0, 51, 0, 7, 0, 5, 0,
    29, 0, 1, 1]

/-- `hello` without signature_algorithms -/
def helloNoSchemes : Bytes :=
  [22, 3, 3, 0, 103, 1, 0, 0, 99, 3, 3] ++ List.replicate 32 5 ++ [0, 0, 6, 19, 3, 19, 2, 19, 1, 1,
    0, 0, 52, 0, 43, 0, 3, 2, 3, 4, 0, 10, 0, 6, 0, 4, 0, 29, 0, 23,
    0, 15, 0, 1, 1, 0, 0, 0, 6, 0, 4, 0, 0, 1, 97, 0, 5, 0, 5, 1, 0, 0, 0, 0, 0, 51, 0, 7, 0, 5, 0,
    29, 0, 1, 1]

set_option maxRecDepth 1000000 in
theorem lacking_facts :
    hears (clientHelloIs fun _ _ exts => exts.all fun e => e.type != 10) waiting1 helloNoGroups = true ∧
    hears (clientHelloIs fun _ _ exts => exts.all fun e => e.type != 13) waiting1 helloNoSchemes =
      true := by
  decide +kernel

end Toy

/-- Whatever happened before, a ClientHello without supported_groups, or without signature_algorithms,
makes `receive_data` raise; one alert is sent and the connection is failed. -/
theorem C68_refused (hS : E.Seals) (hO : E.Outside) {config : Config}
    {hostname ocsp algs random} {c₀ c' : Conn} {res : Except Exn Unit}
    (hc : Conn.new config hostname ocsp algs random = .ok c₀)
    (hm : config.maxFragmentLength ∈ [512, 1024, 2048, 4096, 16384])
    (hl : ∀ s ∈ config.cipherSuites, Limited s) (ops : List Op) {d r sid : Bytes} {suites : List Nat}
    {exts : List Ext} {new : List Ev} {f : Bool} (hst : (runOps E ops c₀).state = .serverWaitCH f)
    (h : receiveData E d (runOps E ops c₀) = (res, c')) (hk : shouldRekey c' = .ok false)
    (hn : c'.tr = new ++ (runOps E ops c₀).tr)
    (hx : firstHeard new = some (.handshake (.clientHello r sid suites exts)))
    (hno : (∀ l, .supportedGroups l ∉ exts) ∨ ∀ l, .signatureAlgorithms l ∉ exts) :
    ∃ e, res = .error e ∧ c'.state = .failed ∧
      ∃ out pre, c'.tr = out ++ (pre ++ (runOps E ops c₀).tr) ∧ AlertOut E (alertFor e) out ∧
        sentAlerts pre = [] := by
  obtain ⟨e, -, h1, h2⟩ := receive_refused hS hO hc hm hl ops (by rw [hst]; rfl)
    (by rw [hst]; rfl) h hk hn hx (P := fun _ => True) (fun c₁ hkept => by
      have hst₁ : c₁.state = .serverWaitCH f := by rw [hkept.same]; exact hst
      unfold process
      rw [hst₁]
      obtain ⟨e, he⟩ := raises_of (m := serverWaitCH E f (.handshake (.clientHello r sid suites exts)))
        (c := c₁) (fun a c' ha => by
          obtain ⟨_, _, _, _, _, _, hneg, _⟩ := serverWaitCH_ok ha
          obtain ⟨g, nc, s, ks, hg, _, _, hs, _⟩ := (serverNegotiate_ok hneg).same
          obtain ⟨l, h1, _⟩ := hg
          obtain ⟨l', _, _, _, h2, _⟩ := hs
          rcases hno with hno | hno
          · exact hno _ (findExt_mem h1)
          · exact hno _ (findExt_mem h2))
      exact ⟨e, he, trivial⟩)
  exact ⟨e, h1, h2⟩

example : ∃ res c' new r sid suites exts, Toy.env.Seals ∧ Toy.env.Outside ∧
    Conn.new Toy.serverConfig none false [.sha256] (List.replicate 32 6) = .ok Toy.server0 ∧
    Toy.serverConfig.maxFragmentLength ∈ [512, 1024, 2048, 4096, 16384] ∧
    (∀ s ∈ Toy.serverConfig.cipherSuites, Limited s) ∧
    Toy.waiting1 = runOps Toy.env [.initiate] Toy.server0 ∧
    Toy.waiting1.state = .serverWaitCH true ∧
    receiveData Toy.env Toy.helloNoGroups Toy.waiting1 = (res, c') ∧ shouldRekey c' = .ok false ∧
    c'.tr = new ++ Toy.waiting1.tr ∧
    firstHeard new = some (.handshake (.clientHello r sid suites exts)) ∧
    ∀ l, .supportedGroups l ∉ exts := by
  obtain ⟨res, c', new, x, h1, h2, h3, h4, h5⟩ := Toy.heard_of Toy.lacking_facts.1
  obtain ⟨r, sid, suites, exts, rfl, h6⟩ := Toy.clientHelloIs_of h5
  refine ⟨res, c', new, r, sid, suites, exts, Toy.seals, Toy.outside, Toy.server0_new,
    by simp [Toy.serverConfig], Toy.serverLimited, Toy.waiting1_eq, Toy.refuse_facts.1.1, h1, h2, h3, h4,
    fun l hl => ?_⟩
  simpa [Ext.type] using List.all_eq_true.mp h6 _ hl

example : ∃ res c' new r sid suites exts, Toy.env.Seals ∧ Toy.env.Outside ∧
    Conn.new Toy.serverConfig none false [.sha256] (List.replicate 32 6) = .ok Toy.server0 ∧
    Toy.serverConfig.maxFragmentLength ∈ [512, 1024, 2048, 4096, 16384] ∧
    (∀ s ∈ Toy.serverConfig.cipherSuites, Limited s) ∧
    Toy.waiting1 = runOps Toy.env [.initiate] Toy.server0 ∧
    Toy.waiting1.state = .serverWaitCH true ∧
    receiveData Toy.env Toy.helloNoSchemes Toy.waiting1 = (res, c') ∧ shouldRekey c' = .ok false ∧
    c'.tr = new ++ Toy.waiting1.tr ∧
    firstHeard new = some (.handshake (.clientHello r sid suites exts)) ∧
    ∀ l, .signatureAlgorithms l ∉ exts := by
  obtain ⟨res, c', new, x, h1, h2, h3, h4, h5⟩ := Toy.heard_of Toy.lacking_facts.2
  obtain ⟨r, sid, suites, exts, rfl, h6⟩ := Toy.clientHelloIs_of h5
  refine ⟨res, c', new, r, sid, suites, exts, Toy.seals, Toy.outside, Toy.server0_new,
    by simp [Toy.serverConfig], Toy.serverLimited, Toy.waiting1_eq, Toy.refuse_facts.1.1, h1, h2, h3, h4,
    fun l hl => ?_⟩
  simpa [Ext.type] using List.all_eq_true.mp h6 _ hl

/-- What `_negociate` raises when the hello offers TLS 1.3: missing_extension (109) without
supported_groups, handshake_failure (40) when no group is shared, missing_extension when a group is
shared but signature_algorithms is missing. -/
theorem C68_alert {exts : List Ext} (hv : ∃ l, findExt exts 43 = some (.supportedVersionsReq l) ∧ tls13 ∈ l)
    {c : Conn} {n : NConfig} (hn : c.nconfig = some n) (hf : n.frozen = false) :
    ((∀ e ∈ exts, e.type ≠ 10) → (serverNegotiate E exts c).1 = .error (.alert 109)) ∧
    (∀ l, findExt exts 10 = some (.supportedGroups l) → (∀ g ∈ c.config.keyExchanges, g ∉ l) →
      (serverNegotiate E exts c).1 = .error (.alert 40)) ∧
    (∀ l, findExt exts 10 = some (.supportedGroups l) → (∃ g ∈ c.config.keyExchanges, g ∈ l) →
      (∀ e ∈ exts, e.type ≠ 13) → (serverNegotiate E exts c).1 = .error (.alert 109)) := by
  obtain ⟨lv, hv, ht⟩ := hv
  have h1 : serverNegVersions exts c = (.ok [.supportedVersionsResp Iana.tls13], c) := by
    unfold serverNegVersions
    rw [show findExt exts Iana.extSupportedVersions = _ from hv]
    dsimp only
    rw [if_neg (by simpa using (show Iana.tls13 ∈ lv from ht))]
    rfl
  have none_of : ∀ t, (∀ e ∈ exts, e.type ≠ t) → findExt exts t = none := by
    intro t h
    unfold findExt
    rw [List.find?_eq_none]
    simpa using h
  unfold serverNegotiate
  rw [M.bind_def, h1]
  dsimp only
  refine ⟨fun h => ?_, fun l h hg => ?_, fun l h hg hs => ?_⟩
  · rw [bind_error (c' := c) (e := .alert 109)]
    unfold serverNegGroups
    rw [show findExt exts Iana.extSupportedGroups = none from none_of 10 h]
    rfl
  · rw [bind_error (c' := c) (e := .alert 40)]
    unfold serverNegGroups
    rw [show findExt exts Iana.extSupportedGroups = _ from h, M.bind_def]
    dsimp only [M.get]
    rw [List.find?_eq_none.mpr (by simpa using hg)]
    rfl
  · obtain ⟨g, hg⟩ : ∃ g, c.config.keyExchanges.find? l.contains = some g := by
      obtain ⟨g, h1, h2⟩ := hg
      cases hx : c.config.keyExchanges.find? l.contains with
      | some g => exact ⟨g, rfl⟩
      | none => have := List.find?_eq_none.mp hx g h1; simp [h2] at this
    have h2 : serverNegGroups exts c =
        (.ok (), { c with nconfig := some { n with keyExchange := some g } }) := by
      unfold serverNegGroups
      rw [show findExt exts Iana.extSupportedGroups = _ from h, M.bind_def]
      dsimp only [M.get]
      rw [hg]
      simp [setNc, hn, hf]
    rw [M.bind_def, h2]
    dsimp only
    rw [bind_error (c' := { c with nconfig := some { n with keyExchange := some g } }) (e := .alert 109)]
    unfold serverNegSignature
    rw [show findExt exts Iana.extSignatureAlgorithms = none from none_of 13 hs]
    rfl

example : ∃ n, Toy.choosing.nconfig = some n ∧ n.frozen = false ∧
    (∃ l, findExt [.supportedVersionsReq [0x0304], .supportedGroups [29]] 43 =
      some (.supportedVersionsReq l) ∧ tls13 ∈ l) ∧
    (∀ e ∈ [Ext.supportedVersionsReq [0x0304]], e.type ≠ 10) ∧
    (∃ g ∈ Toy.choosing.config.keyExchanges, g ∈ [29]) ∧
    ∀ g ∈ Toy.choosing.config.keyExchanges, g ∉ [99] := by
  have h : (Toy.choosing.nconfig.any fun n => !n.frozen) = true ∧
      (Toy.choosing.config.keyExchanges.contains 29 &&
        !Toy.choosing.config.keyExchanges.contains 99) = true := by decide +kernel
  obtain ⟨h1, h2⟩ := h
  simp only [Bool.and_eq_true, Bool.not_eq_true', List.contains_iff_mem] at h2
  obtain ⟨n, hn, hf⟩ := (Option.any_eq_true _ _).mp h1
  refine ⟨n, hn, by simpa using hf, ⟨_, rfl, by simp [tls13]⟩, by simp [Ext.type], ⟨29, h2.1, by simp⟩,
    fun g hg h99 => ?_⟩
  rw [List.mem_singleton.mp h99] at hg
  have := h2.2
  simp_all

end Siotls
