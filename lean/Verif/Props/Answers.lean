import Verif.Model.ToyNeg
import Verif.Proofs.Answers
import Verif.Props.Negotiation
/-!
# Properties of the extensions and certificates of the handshake: C69 to C72

In `post ++ e :: pre`, `pre` happened before the event `e`.
-/

namespace Siotls
open Spec

variable {E : Env}

/-! ## Histories for the examples -/

namespace Toy

set_option maxRecDepth 1000000

/-- `retry` with the cookie 7, 8, 9 -/
def cookieRetry : Bytes :=
  [22, 3, 3, 0, 65, 2, 0, 0, 61, 3, 3, 207, 33, 173, 116, 229, 154, 97, 17, 190, 29, 140, 2, 30,
    101, 184, 145, 194, 162, 17, 22, 122, 187, 140, 94, 7, 158, 9, 226, 200, 168, 51, 156, 0, 19, 1,
    0, 0, 21, 0, 43, 0, 2, 3, 4, 0, 44, 0, 5, 0, 3, 7, 8, 9, 0, 51, 0, 2, 0, 23]

/-- a server with an issuer and an OCSP service -/
def stapleEnv : Env := { env with ocspFetch := fun _ _ _ => .ok [7] }
def stapler : Config := { serverConfig with certificateChain := some [[1, 2, 3], [9]] }
def stapler0 : Conn := match Conn.new stapler none true [.sha256] (List.replicate 32 6) with
  | .ok c => c
  | .error _ => server0

/-- a server that authenticates its clients, and one that also wants another group -/
def asker : Config :=
  { serverConfig with trustStore := some [1], signatureAlgorithms := [0x0403, 0x0807] }
def asker0 : Conn := fresh asker none [.sha256] (List.replicate 32 6)
def reasker : Config := { asker with keyExchanges := [0x17] }
def reasker0 : Conn := fresh reasker none [.sha256] (List.replicate 32 6)

theorem stapler0_new : Conn.new stapler none true [.sha256] (List.replicate 32 6) =
    .ok stapler0 := by rfl
theorem asker0_new : Conn.new asker none false [.sha256] (List.replicate 32 6) = .ok asker0 := by rfl
theorem reasker0_new : Conn.new reasker none false [.sha256] (List.replicate 32 6) =
    .ok reasker0 := by rfl
theorem asker_check : asker.check = .ok () := by decide +kernel
theorem reasker_check : reasker.check = .ok () := by decide +kernel

def isCert (entries : List CertEntry) : Ev → Bool
  | .sent (.handshake (.certificate _ l)) => l == entries
  | _ => false

def isAsk (exts : List Ext) : Ev → Bool
  | .sent (.handshake (.certificateRequest _ l)) => l == exts
  | _ => false

def isRecv : Ev → Bool
  | .recv _ => true
  | _ => false

theorem split_offer {tr : List Ev} (h : tr.any isOffer = true) : ∃ post r sid suites exts pre,
    tr = post ++ .sent (.handshake (.clientHello r sid suites exts)) :: pre := by
  obtain ⟨e, he, hp⟩ := List.any_eq_true.mp h
  obtain ⟨post, pre, rfl⟩ := List.append_of_mem he
  unfold isOffer at hp
  split at hp
  · exact ⟨_, _, _, _, _, _, rfl⟩
  · cases hp

theorem split_cert {entries : List CertEntry} {tr : List Ev} (h : tr.any (isCert entries) = true) :
    ∃ post ctx pre, tr = post ++ .sent (.handshake (.certificate ctx entries)) :: pre := by
  obtain ⟨e, he, hp⟩ := List.any_eq_true.mp h
  obtain ⟨post, pre, rfl⟩ := List.append_of_mem he
  unfold isCert at hp
  split at hp
  · rw [eq_of_beq hp]
    exact ⟨_, _, _, rfl⟩
  · cases hp

theorem split_ask {exts : List Ext} {tr : List Ev} (h : tr.any (isAsk exts) = true) :
    ∃ post ctx pre, tr = post ++ .sent (.handshake (.certificateRequest ctx exts)) :: pre := by
  obtain ⟨e, he, hp⟩ := List.any_eq_true.mp h
  obtain ⟨post, pre, rfl⟩ := List.append_of_mem he
  unfold isAsk at hp
  split at hp
  · rw [eq_of_beq hp]
    exact ⟨_, _, _, rfl⟩
  · cases hp

theorem offer_unheard : (runOps env [.initiate] alpnClient0).tr.any isRecv = false := by
  decide +kernel

/-- the newest hello answers a HelloRetryRequest with the cookie 7, 8, 9 -/
def cookieHello : List Ev → Bool
  | [] => false
  | .sent (.handshake (.clientHello ..)) :: l =>
    match heard l with
    | some (.handshake (.helloRetryRequest _ _ _ exts)) => exts.contains (.cookie [7, 8, 9])
    | _ => false
  | _ :: l => cookieHello l

theorem cookieHello_of {tr : List Ev} (h : cookieHello tr = true) :
    ∃ post r sid suites exts pre rnd' sid' suite' exts',
      tr = post ++ .sent (.handshake (.clientHello r sid suites exts)) :: pre ∧
      heard pre = some (.handshake (.helloRetryRequest rnd' sid' suite' exts')) ∧
      .cookie [7, 8, 9] ∈ exts' := by
  fun_induction cookieHello tr with
  | case1 => cases h
  | case2 r sid suites exts l rnd sid' suite' exts' hh =>
    exact ⟨[], r, sid, suites, exts, l, _, _, _, _, rfl, hh, by simpa using h⟩
  | case3 => cases h
  | case4 e l hne ih =>
    obtain ⟨post, r, sid, suites, exts, pre, rnd', sid', suite', exts', h1, h2, h3⟩ := ih h
    exact ⟨e :: post, r, sid, suites, exts, pre, rnd', sid', suite', exts', by rw [h1]; rfl, h2, h3⟩

theorem cookie_facts :
    cookieHello (runOps env [.initiate, .receive cookieRetry] client0).tr = true := by decide +kernel

theorem staple_facts : (runOps stapleEnv [.initiate, .receive hello] stapler0).tr.any
    (isCert [.x509 [1, 2, 3] [.ocspStatus [7]], .x509 [9] []]) = true := by decide +kernel

theorem ask_facts : (runOps env [.initiate, .receive hello] asker0).tr.any
    (isAsk [.signatureAlgorithms [0x0403, 0x0807]]) = true := by decide +kernel

theorem reask_facts : (runOps env retryOps reasker0).tr.any
    (isAsk [.signatureAlgorithms [0x0807]]) = true := by decide +kernel

end Toy

/-! ## C69 -/

/-- The hello of a client that heard no HelloRetryRequest: it offers the suites and groups of the
configuration, one share (of the first group), and has exactly the extensions the configuration calls
for, each once, and no cookie. -/
theorem C69_first {config : Config} {hostname ocsp algs random} {c : Conn}
    (h : Conn.new config hostname ocsp algs random = .ok c) (hside : config.side = .client)
    (ops : List Op) {post pre : List Ev} {r sid : Bytes} {suites : List Nat} {exts : List Ext}
    (ht : (runOps E ops c).tr = post ++ .sent (.handshake (.clientHello r sid suites exts)) :: pre)
    (hno : ∀ a b s e, .recv (.handshake (.helloRetryRequest a b s e)) ∉ pre) :
    r = random ∧ sid = [] ∧ suites = config.cipherSuites ∧ (exts.map Ext.type).Nodup ∧
    ∃ grp share, config.keyExchanges.head? = some grp ∧
      ∀ e, e ∈ exts ↔
        Asks E config hostname config.keyExchanges [] e ∨ e = .keyShareReq [(grp, share)] := by
  have := (CliInv.run (E := E) h hside ops).trace _ pre (by rw [ht]; exact List.suffix_append _ _)
  obtain ⟨h1, h2, k, grp, cookie, ho, h3, -⟩ := this
  obtain ⟨rfl, rfl⟩ := h3 hno
  obtain ⟨c₁, share, h4, h5, rfl⟩ := ho.exts
  obtain ⟨gs, h6⟩ := ho.group
  refine ⟨h1, h2, ho.suites, offer_nodup _ _ _, grp, share, by rw [h6]; rfl, fun e => ?_⟩
  rw [List.mem_append, List.mem_singleton, asks_iff h4 h5]
  rfl

/-- A client with two protocols. -/
example : ∃ post pre r sid suites exts, (runOps Toy.env [.initiate] Toy.alpnClient0).tr =
      post ++ .sent (.handshake (.clientHello r sid suites exts)) :: pre ∧
    (∀ a b s e, .recv (.handshake (.helloRetryRequest a b s e)) ∉ pre) ∧
    .alpn [[120], [104, 50]] ∈ exts := by
  obtain ⟨post, r, sid, suites, exts, pre, h⟩ := Toy.split_offer Toy.alpn_facts.2.2.1
  have hno : ∀ a b s e, .recv (.handshake (.helloRetryRequest a b s e)) ∉ pre := by
    intro a b s e hm
    have h1 := Toy.offer_unheard
    rw [List.any_eq_false] at h1
    exact h1 _ (by rw [h]; exact List.mem_append_right _ (.tail _ hm)) rfl
  refine ⟨post, pre, r, sid, suites, exts, h, hno, ?_⟩
  obtain ⟨-, -, -, -, grp, share, -, h2⟩ := C69_first Toy.alpnClient0_new rfl [.initiate] h hno
  exact (h2 _).mpr (.inl (.alpn (config := Toy.alpnClient) (by decide)))

/-- The hello of a client that answers a HelloRetryRequest: same random, the suite and the group of
the HelloRetryRequest and nothing else, a share of that group, its cookie if it has one, and otherwise
the same extensions as the first. -/
theorem C69_retry {config : Config} {hostname ocsp algs random} {c : Conn}
    (h : Conn.new config hostname ocsp algs random = .ok c) (hside : config.side = .client)
    (ops : List Op) {post pre : List Ev} {r sid : Bytes} {suites : List Nat} {exts : List Ext}
    (ht : (runOps E ops c).tr = post ++ .sent (.handshake (.clientHello r sid suites exts)) :: pre)
    {rnd' sid' suite' exts'}
    (hh : heard pre = some (.handshake (.helloRetryRequest rnd' sid' suite' exts'))) :
    r = random ∧ sid = [] ∧ suites = [suite'] ∧ (exts.map Ext.type).Nodup ∧
    ∃ grp share cookie, .keyShareRetry grp ∈ exts' ∧ CookieOf exts' cookie ∧
      ∀ e, e ∈ exts ↔ Asks E config hostname [grp] cookie e ∨ e = .keyShareReq [(grp, share)] := by
  have := (CliInv.run (E := E) h hside ops).trace _ pre (by rw [ht]; exact List.suffix_append _ _)
  obtain ⟨h1, h2, k, grp, cookie, ho, -, h3⟩ := this
  obtain ⟨e1, rfl, e3, e4⟩ := h3 rnd' sid' suite' exts' (by rw [← heard_eq]; exact hh)
  obtain ⟨c₁, share, h4, h5, rfl⟩ := ho.exts
  refine ⟨h1, h2, e1, offer_nodup _ _ _, grp, share, cookie.getD [], findExt_mem e4,
    cookieOf_spec e3, fun e => ?_⟩
  rw [List.mem_append, List.mem_singleton, asks_iff h4 h5]

/-- A client that got a cookie. -/
example : ∃ post pre r sid suites exts rnd' sid' suite' exts',
    (runOps Toy.env [.initiate, .receive Toy.cookieRetry] Toy.client0).tr =
      post ++ .sent (.handshake (.clientHello r sid suites exts)) :: pre ∧
    heard pre = some (.handshake (.helloRetryRequest rnd' sid' suite' exts')) ∧
    .cookie [7, 8, 9] ∈ exts' := by
  obtain ⟨post, r, sid, suites, exts, pre, rnd', sid', suite', exts', h⟩ :=
    Toy.cookieHello_of Toy.cookie_facts
  exact ⟨post, pre, r, sid, suites, exts, rnd', sid', suite', exts', h⟩

/-! ## C70 -/

/-- EncryptedExtensions of a server: every extension answers one of the hello that was heard last, as
the configuration prefers; every extension of that hello that the server can answer is answered; each
once. -/
theorem C70_extensions {config : Config} {hostname ocsp algs random} {c : Conn}
    (h : Conn.new config hostname ocsp algs random = .ok c) (ops : List Op) {post pre : List Ev}
    {exts : List Ext}
    (ht : (runOps E ops c).tr = post ++ .sent (.handshake (.encryptedExtensions exts)) :: pre) :
    ∃ r sid suites hello, heard pre = some (.handshake (.clientHello r sid suites hello)) ∧
      (exts.map Ext.type).Nodup ∧ (∀ e ∈ exts, Answers config hello e) ∧
      ∀ t, t ∈ exts.map Ext.type ↔ t ∈ hello.map Ext.type ∧ Answerable config t := by
  obtain ⟨c₀, hg, hc, -, hl⟩ := GuardInv.at h ops ht
  obtain ⟨f, r, sid, suites, hello, clear, enc, shared, -, h1, ⟨c₁, c₂, h2, h3, -, h4⟩, rfl, -⟩ := hg
  obtain ⟨s, g, a, h5⟩ := hc.same
  obtain ⟨-, nc, -, -, -, h6, -, -, -, -, -, h7⟩ := (serverNegotiate_ok h3).same
  have h7 := h7 rfl
  rw [h2, h5] at h7
  have h8 : EncOk config hello nc enc := ⟨h7.parts, h7.status⟩
  obtain ⟨k1, k2⟩ := h8.answers
  refine ⟨r, sid, suites, hello, by rw [heard_eq, ← hl]; exact h1, (dictOfExts_spec enc).1, ?_, ?_⟩
  · rw [h8.dict]; exact k1
  · rw [h8.dict]; exact k2

/-- A server that has to choose a protocol. -/
example : ∃ post pre exts, (runOps Toy.env [.initiate, .receive Toy.alpnHello] Toy.alpnServer0).tr =
    post ++ .sent (.handshake (.encryptedExtensions exts)) :: pre := by
  obtain ⟨post, exts, pre, h⟩ := Toy.split_exts Toy.alpn_facts.2.1
  exact ⟨post, pre, exts, h⟩

/-! ## C71 -/

/-- A connected server may send heartbeats iff the hello it answered with its Finished said so, and
echoes them iff its configuration says so and that hello mentioned heartbeats. -/
theorem C71_server (hE : E.Shares) {config : Config} {hostname ocsp algs random} {c : Conn}
    (h : Conn.new config hostname ocsp algs random = .ok c) (hside : config.side = .server)
    (hcheck : config.check = .ok ()) (ops : List Op) (hst : (runOps E ops c).state = .connected) :
    ∃ nc post mac pre r sid suites exts, (runOps E ops c).nconfig = some nc ∧
      (runOps E ops c).tr = post ++ .sent (.handshake (.finished mac)) :: pre ∧
      heard pre = some (.handshake (.clientHello r sid suites exts)) ∧ Heartbeats config exts nc := by
  obtain ⟨r, sid, suites, exts, enc, nc, ⟨post, mac, pre, h1, h2⟩, h3, h4⟩ :=
    (NegInv.run hE h hside hcheck ops).done (by rw [hst]; rfl)
  exact ⟨nc, post, mac, pre, r, sid, suites, exts, h3, h1, by rw [heard_eq]; exact h2, h4.heartbeats⟩

example : Toy.env.Shares ∧ Toy.serverConfig.side = .server ∧ Toy.serverConfig.check = .ok () ∧
    (runOps Toy.env Toy.serverOps Toy.server0).state = .connected ∧
    Conn.new Toy.serverConfig none false [.sha256] (List.replicate 32 6) = .ok Toy.server0 :=
  ⟨Toy.shares, rfl, Toy.serverConfig_check, by rw [← Toy.serverDone_eq]; exact Toy.server_facts.1.1,
    Toy.server0_new⟩

/-- A connected client may send heartbeats iff the server's EncryptedExtensions said so, and echoes
them iff its configuration says so and EncryptedExtensions mentioned heartbeats. -/
theorem C71_client {config : Config} {hostname ocsp algs random} {c : Conn}
    (h : Conn.new config hostname ocsp algs random = .ok c) (hside : config.side = .client)
    (ops : List Op) (hst : (runOps E ops c).state = .connected) :
    ∃ nc exts, (runOps E ops c).nconfig = some nc ∧
      .recv (.handshake (.encryptedExtensions exts)) ∈ (runOps E ops c).tr ∧
      Heartbeats config exts nc := by
  obtain ⟨exts, nc, h1, h2, h3⟩ := (CliInv.run (E := E) h hside ops).settled (by rw [hst]; rfl)
  exact ⟨nc, exts, h2, h1, h3.heartbeats⟩

example : Toy.clientConfig.side = .client ∧
    (runOps Toy.env Toy.clientOps Toy.client0).state = .connected ∧
    Conn.new Toy.clientConfig (some ['a']) false [.sha256, .sha384] (List.replicate 32 5) =
      .ok Toy.client0 :=
  ⟨rfl, by rw [← Toy.clientDone_eq]; exact Toy.client_facts.1.1, Toy.client0_new⟩

/-! ## C72 -/

/-- The Certificate message of a server has an empty context and presents what the hello that was
heard last asked for: the raw public key of the configuration, or its chain, in order, with a valid
OCSP response attached to the leaf when the client wants one and the server has one. -/
theorem C72_certificate {config : Config} {hostname ocsp algs random} {c : Conn}
    (h : Conn.new config hostname ocsp algs random = .ok c) (ops : List Op) {post pre : List Ev}
    {ctx : Bytes} {entries : List CertEntry}
    (ht : (runOps E ops c).tr = post ++ .sent (.handshake (.certificate ctx entries)) :: pre) :
    ctx = [] ∧ ∃ r sid suites hello kind,
      heard pre = some (.handshake (.clientHello r sid suites hello)) ∧
      Presents config hello kind ∧ Certifies E config ocsp hello kind entries := by
  obtain ⟨c₀, hg, hc, ho, hl⟩ := GuardInv.at h ops ht
  obtain ⟨f, -, rfl, r, sid, suites, hello, clear, enc, shared, nc, h1, ⟨c₁, c₂, h2, h3, -, h4⟩, h5,
    h6⟩ := hg
  obtain ⟨s, g, a, h7⟩ := hc.same
  obtain ⟨-, nc', -, -, -, h8, -, -, -, -, -, h9⟩ := (serverNegotiate_ok h3).same
  have h9 := h9 rfl
  rw [h4, h5] at h8
  cases h8
  rw [h2, h7] at h9
  have h10 : EncOk config hello nc enc := ⟨h9.parts, h9.status⟩
  obtain ⟨kind, k1, k2⟩ := h6.certifies h10 (by rw [h7]) (by rw [h7])
  rw [ho] at k2
  exact ⟨rfl, r, sid, suites, hello, kind, by rw [heard_eq, ← hl]; exact h1, k1, k2⟩

/-- A server that staples. -/
example : ∃ post pre ctx, (runOps Toy.stapleEnv [.initiate, .receive Toy.hello] Toy.stapler0).tr =
    post ++ .sent (.handshake (.certificate ctx
      [.x509 [1, 2, 3] [.ocspStatus [7]], .x509 [9] []])) :: pre := by
  obtain ⟨post, ctx, pre, h⟩ := Toy.split_cert Toy.staple_facts
  exact ⟨post, pre, ctx, h⟩

/-- Full claim: the CertificateRequest of a server lists the signature schemes of its configuration.
That is false after a HelloRetryRequest (`C72_request_narrow`). What is true: only a server that
authenticates its peer sends it, its context is empty and its only extension is the list of schemes,
those of the configuration or the one the server chose for its own signature for an earlier hello. -/
theorem C72_request_partial (hE : E.Shares) {config : Config} {hostname ocsp algs random} {c : Conn}
    (h : Conn.new config hostname ocsp algs random = .ok c) (hside : config.side = .server)
    (hcheck : config.check = .ok ()) (ops : List Op) {post pre : List Ev} {ctx : Bytes}
    {exts : List Ext}
    (ht : (runOps E ops c).tr = post ++ .sent (.handshake (.certificateRequest ctx exts)) :: pre) :
    Authenticates config ∧ ctx = [] ∧ ∃ l, exts = [.signatureAlgorithms l] ∧
      (l = config.signatureAlgorithms ∨ ∃ scheme r sid suites hello l₀ leaf rest, l = [scheme] ∧
        .recv (.handshake (.clientHello r sid suites hello)) ∈ pre ∧
        .signatureAlgorithms l₀ ∈ hello ∧ config.certificateChain = some (leaf :: rest) ∧
        Preferred config.signatureAlgorithms (fun s => s ∈ l₀ ∧ Fit (E.certOid leaf) s) scheme) := by
  have := (NegInv.run hE h hside hcheck ops).trace _ pre (by rw [ht]; exact List.suffix_append _ _)
  obtain ⟨h1, h2, h3⟩ := this
  refine ⟨(authenticates_iff _).mpr h1, h2, ?_⟩
  rcases h3 with rfl | ⟨r, sid, suites, hello, scheme, h3, ⟨l0, leaf, rest, fit, h6, h7, h8, h9⟩, rfl⟩
  · exact ⟨_, rfl, .inl rfl⟩
  · refine ⟨_, rfl, .inr ⟨scheme, r, sid, suites, hello, l0, leaf, rest, rfl, h3, findExt_mem h6, h7,
      preferred_find h9 fun y => ?_⟩⟩
    rw [← fit_iff h8 y]
    simp [and_comm]

example : ∃ post pre ctx exts, (runOps Toy.env [.initiate, .receive Toy.hello] Toy.asker0).tr =
    post ++ .sent (.handshake (.certificateRequest ctx exts)) :: pre := by
  obtain ⟨post, ctx, pre, h⟩ := Toy.split_ask Toy.ask_facts
  exact ⟨post, pre, ctx, _, h⟩

/-- After a HelloRetryRequest the CertificateRequest lists the one scheme the server itself signs
with, although its configuration lists another one before it. -/
theorem C72_request_narrow : ∃ (E : Env) (config : Config) (hostname : Option PyStr) (ocsp : Bool)
    (algs : List HashAlg) (random : Bytes) (c : Conn)
    (ops : List Op) (post pre : List Ev) (ctx : Bytes), E.Shares ∧ config.side = .server ∧
    config.check = .ok () ∧ Conn.new config hostname ocsp algs random = .ok c ∧
    config.signatureAlgorithms = [0x0403, 0x0807] ∧
    (runOps E ops c).tr = post ++
      .sent (.handshake (.certificateRequest ctx [.signatureAlgorithms [0x0807]])) :: pre := by
  obtain ⟨post, ctx, pre, h⟩ := Toy.split_ask Toy.reask_facts
  exact ⟨Toy.env, Toy.reasker, none, false, _, _, Toy.reasker0, Toy.retryOps, post, pre, ctx,
    Toy.shares, rfl, Toy.reasker_check, Toy.reasker0_new, rfl, h⟩

end Siotls
