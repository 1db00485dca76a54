import Verif.Model.ToyNeg
import Verif.Proofs.NegSpec
import Verif.Props.Order
import Verif.Props.Lifecycle
/-!
# Properties of the negotiation: C33 to C40

`E.Shares` (the secret of a key exchange is not the empty string) is an assumption on the
cryptography library. The traces are newest event first: in `post ++ e :: pre`, `pre` happened before
the event `e`.
-/

namespace Siotls
open Spec

variable {E : Env}

/-! ## Histories for the examples -/

namespace Toy

set_option maxRecDepth 1000000

theorem shares : env.Shares := by
  intro g priv theirs h
  simp [env] at h

theorem retryConfig_check : retryConfig.check = .ok () := by decide +kernel
theorem serverConfig_check : serverConfig.check = .ok () := by decide +kernel

def isHello : Ev → Bool
  | .sent (.handshake (.serverHello ..)) => true
  | _ => false

def isRetry : Ev → Bool
  | .sent (.handshake (.helloRetryRequest ..)) => true
  | _ => false

def isVerify : Ev → Bool
  | .sent (.handshake (.certificateVerify ..)) => true
  | _ => false

def isExts : Ev → Bool
  | .sent (.handshake (.encryptedExtensions ..)) => true
  | _ => false

def isOffer : Ev → Bool
  | .sent (.handshake (.clientHello ..)) => true
  | _ => false

theorem retry_sent : (runOps env retryOps retry0).tr.any isHello = true ∧
    (runOps env retryOps retry0).tr.any isRetry = true ∧
    (runOps env retryOps retry0).tr.any isVerify = true ∧
    (runOps env retryOps retry0).tr.any isExts = true := by decide +kernel

theorem split_hello {tr : List Ev} (h : tr.any isHello = true) : ∃ post rnd sid suite exts pre,
    tr = post ++ .sent (.handshake (.serverHello rnd sid suite exts)) :: pre := by
  obtain ⟨e, he, hp⟩ := List.any_eq_true.mp h
  obtain ⟨post, pre, rfl⟩ := List.append_of_mem he
  unfold isHello at hp
  split at hp
  · exact ⟨_, _, _, _, _, _, rfl⟩
  · cases hp

theorem split_retry {tr : List Ev} (h : tr.any isRetry = true) : ∃ post rnd sid suite exts pre,
    tr = post ++ .sent (.handshake (.helloRetryRequest rnd sid suite exts)) :: pre := by
  obtain ⟨e, he, hp⟩ := List.any_eq_true.mp h
  obtain ⟨post, pre, rfl⟩ := List.append_of_mem he
  unfold isRetry at hp
  split at hp
  · exact ⟨_, _, _, _, _, _, rfl⟩
  · cases hp

theorem split_verify {tr : List Ev} (h : tr.any isVerify = true) : ∃ post scheme sig pre,
    tr = post ++ .sent (.handshake (.certificateVerify scheme sig)) :: pre := by
  obtain ⟨e, he, hp⟩ := List.any_eq_true.mp h
  obtain ⟨post, pre, rfl⟩ := List.append_of_mem he
  unfold isVerify at hp
  split at hp
  · exact ⟨_, _, _, _, rfl⟩
  · cases hp

theorem split_exts {tr : List Ev} (h : tr.any isExts = true) : ∃ post exts pre,
    tr = post ++ .sent (.handshake (.encryptedExtensions exts)) :: pre := by
  obtain ⟨e, he, hp⟩ := List.any_eq_true.mp h
  obtain ⟨post, pre, rfl⟩ := List.append_of_mem he
  unfold isExts at hp
  split at hp
  · exact ⟨_, _, _, rfl⟩
  · cases hp

theorem heard_of {p : Content → Bool} {c : Conn} {d : Bytes} (h : hears p c d = true) :
    ∃ res c' new x, receiveData env d c = (res, c') ∧ shouldRekey c' = .ok false ∧
      c'.tr = new ++ c.tr ∧ firstHeard new = some x ∧ p x = true := by
  simp only [hears, Bool.and_eq_true] at h
  obtain ⟨⟨h1, h2⟩, h3⟩ := h
  rcases hx : firstHeard (news c d) with _ | x
  · rw [hx] at h1; cases h1
  · rw [hx] at h1
    refine ⟨_, _, _, x, rfl, ?_, eq_of_beq h2, hx, h1⟩
    split at h3
    · assumption
    · cases h3

theorem smallClient0_new : Conn.new smallClient (some ['a']) false [.sha256, .sha384]
    (List.replicate 32 5) = .ok smallClient0 := by rfl
theorem alpnClient0_new : Conn.new alpnClient (some ['a']) false [.sha256, .sha384]
    (List.replicate 32 5) = .ok alpnClient0 := by rfl
theorem alpnServer0_new : Conn.new alpnServer none false [.sha256] (List.replicate 32 6) =
    .ok alpnServer0 := by rfl
theorem alpnServer_check : alpnServer.check = .ok () := by decide +kernel
theorem smallClient_check : smallClient.check = .ok () := by decide +kernel

theorem serverLimited : ∀ s ∈ serverConfig.cipherSuites, Limited s := by
  intro s hs
  simp only [serverConfig, List.mem_cons, List.not_mem_nil, or_false] at hs
  rcases hs with rfl | rfl <;> intro info hi <;> cases hi <;> rfl

def clientHelloIs (p : Bytes → List Nat → List Ext → Bool) : Content → Bool
  | .handshake (.clientHello r _ suites exts) => p r suites exts
  | _ => false

def serverHelloIs (p : Nat → List Ext → Bool) : Content → Bool
  | .handshake (.serverHello _ _ suite exts) => p suite exts
  | _ => false

def extsAre (p : List Ext → Bool) : Content → Bool
  | .handshake (.encryptedExtensions exts) => p exts
  | _ => false

theorem clientHelloIs_of {p x} (h : clientHelloIs p x = true) : ∃ r sid suites exts,
    x = .handshake (.clientHello r sid suites exts) ∧ p r suites exts = true := by
  unfold clientHelloIs at h
  split at h
  · exact ⟨_, _, _, _, rfl, h⟩
  · cases h

theorem serverHelloIs_of {p x} (h : serverHelloIs p x = true) : ∃ r sid suite exts,
    x = .handshake (.serverHello r sid suite exts) ∧ p suite exts = true := by
  unfold serverHelloIs at h
  split at h
  · exact ⟨_, _, _, _, rfl, h⟩
  · cases h

theorem extsAre_of {p x} (h : extsAre p x = true) : ∃ exts,
    x = .handshake (.encryptedExtensions exts) ∧ p exts = true := by
  unfold extsAre at h
  split at h
  · exact ⟨_, rfl, h⟩
  · cases h

/-- the server that waits for the first hello, and the one that waits for the second -/
def waiting1 : Conn := runOps env [.initiate] server0
def waiting2 : Conn := runOps env [.initiate, .receive hello] retry0

/-- the client that waits for ServerHello, and the one that waits for EncryptedExtensions -/
def waitingSH : Conn := runOps env [.initiate] client0
def waitingEE : Conn := runOps env [.initiate, .receive (flight.take 64)] client0

theorem waiting1_eq : waiting1 = runOps env [.initiate] server0 := by delta waiting1; rfl
theorem waiting2_eq : waiting2 = runOps env [.initiate, .receive hello] retry0 := by
  delta waiting2; rfl
theorem waitingSH_eq : waitingSH = runOps env [.initiate] client0 := by delta waitingSH; rfl
theorem waitingEE_eq : waitingEE = runOps env [.initiate, .receive (flight.take 64)] client0 := by
  delta waitingEE; rfl
theorem serverDone_eq : serverDone = runOps env serverOps server0 := by delta serverDone; rfl
theorem clientDone_eq : clientDone = runOps env clientOps client0 := by delta clientDone; rfl

/-- EncryptedExtensions that select the protocol h2 -/
def wrongExts : Bytes := inject waitingEE 22 [8, 0, 0, 11, 0, 9, 0, 16, 0, 5, 0, 3, 2, 104, 50]

theorem refuse_facts :
    (waiting1.state = .serverWaitCH true ∧
      hears (clientHelloIs fun _ suites _ => serverConfig.cipherSuites.all fun s => !suites.contains s)
        waiting1 hello1302 = true ∧
      hears (clientHelloIs fun _ _ exts =>
        (exts.filter fun e => e.type == 43) == [.supportedVersionsReq [0x0303]])
        waiting1 hello12 = true) ∧
    (waiting2.state = .serverWaitCH false ∧
      hears (clientHelloIs fun r _ _ => r == List.replicate 32 4) waiting2 otherHello2 = true ∧
      waiting2.tr.any isRetry = true) ∧
    (waitingSH.state = .clientWaitSH true [(29, [1])]
        (match waitingSH.state with | .clientWaitSH _ _ h => h | _ => []) ∧
      hears (serverHelloIs fun _ exts => !exts.contains (.supportedVersionsResp 0x0304)) waitingSH
        answerUnversioned = true ∧
      hears (serverHelloIs fun suite _ => suite == 0x1304) waitingSH answerCcm = true) ∧
    (waitingEE.state = .clientWaitEE ∧
      hears (extsAre fun exts => exts == [.alpn [[104, 50]]]) waitingEE wrongExts = true) := by
  decide +kernel

/-- `alpnServer0` that looked at the random and the suites of a ClientHello -/
def choosing : Conn :=
  (serverCheckHello true (List.replicate 32 5) [0x1301] (runOps env [.initiate] alpnServer0)).2

/-- extensions with the protocol y -/
def yExts : List Ext := [.supportedVersionsReq [0x0304], .signatureAlgorithms [0x0807],
  .supportedGroups [0x1d], .alpn [[121]], .keyShareReq [(0x1d, [1])]]

theorem choosing_facts : choosing.config.alpn = [[104, 50], [120]] ∧
    choosing.config.side = .server ∧
    (match (serverNegotiate env (yExts.filter (fun e => e.type ≠ 16)) choosing).1 with
      | .ok (_, _, some _) => true
      | _ => false) = true := by decide +kernel

theorem alpn_facts :
    (runOps env [.initiate] alpnClient0).outputData = alpnHello ∧
    (runOps env [.initiate, .receive alpnHello] alpnServer0).tr.any isExts = true ∧
    (runOps env [.initiate] alpnClient0).tr.any isOffer = true ∧
    (runOps env [.initiate, .drain, .receive alpnFlight] alpnClient0).state = .connected ∧
    alpnOf (runOps env [.initiate, .drain, .receive alpnFlight] alpnClient0) =
      some (some [104, 50]) := by decide +kernel

/-- the client, after a HelloRetryRequest and a ServerHello -/
def answered2 : Conn := runOps env [.initiate, .receive retry, .receive answer2] client0

theorem answered2_eq : answered2 = runOps env [.initiate, .receive retry, .receive answer2] client0 := by
  delta answered2; rfl

/-- the newest hello of a trace comes after a HelloRetryRequest -/
def secondHello : List Ev → Bool
  | [] => false
  | .sent (.handshake (.clientHello ..)) :: l =>
    match heard l with
    | some (.handshake (.helloRetryRequest ..)) => true
    | _ => false
  | _ :: l => secondHello l

theorem secondHello_of {tr : List Ev} (h : secondHello tr = true) :
    ∃ post r sid suites exts pre rnd' sid' suite' exts',
      tr = post ++ .sent (.handshake (.clientHello r sid suites exts)) :: pre ∧
      offered post = none ∧
      heard pre = some (.handshake (.helloRetryRequest rnd' sid' suite' exts')) := by
  fun_induction secondHello tr with
  | case1 => cases h
  | case2 r sid suites exts l rnd sid' suite' exts' hh =>
    exact ⟨[], r, sid, suites, exts, l, _, _, _, _, rfl, rfl, hh⟩
  | case3 => cases h
  | case4 e l hne ih =>
    obtain ⟨post, r, sid, suites, exts, pre, rnd', sid', suite', exts', h1, h2, h3⟩ := ih h
    refine ⟨e :: post, r, sid, suites, exts, pre, rnd', sid', suite', exts', by rw [h1]; rfl, ?_, h3⟩
    rw [offered.eq_def]
    split
    · rfl
    · rename_i heq
      cases heq
      exact absurd rfl (hne _ _ _ _)
    · rename_i heq
      cases heq
      exact h2

/-- a ServerHello after a HelloRetryRequest -/
def helloAfterRetry : List Ev → Bool
  | [] => false
  | .sent (.handshake (.serverHello ..)) :: l => l.any isRetry
  | _ :: l => helloAfterRetry l

theorem helloAfterRetry_of {tr : List Ev} (h : helloAfterRetry tr = true) :
    ∃ post rnd sid suite exts mid rnd' sid' suite' exts' pre,
      tr = post ++ .sent (.handshake (.serverHello rnd sid suite exts)) ::
        (mid ++ .sent (.handshake (.helloRetryRequest rnd' sid' suite' exts')) :: pre) := by
  fun_induction helloAfterRetry tr with
  | case1 => cases h
  | case2 rnd sid suite exts l =>
    obtain ⟨mid, rnd', sid', suite', exts', pre, rfl⟩ := split_retry h
    exact ⟨[], rnd, sid, suite, exts, mid, rnd', sid', suite', exts', pre, rfl⟩
  | case3 e l _ ih =>
    obtain ⟨post, rnd, sid, suite, exts, mid, rnd', sid', suite', exts', pre, h⟩ := ih h
    exact ⟨e :: post, rnd, sid, suite, exts, mid, rnd', sid', suite', exts', pre, by rw [h]; rfl⟩

theorem second_facts : answered2.state = .clientWaitEE ∧ secondHello answered2.tr = true ∧
    helloAfterRetry (runOps env retryOps retry0).tr = true ∧
    waiting2.tr.all (fun e => match e with
      | .recv (.handshake (.clientHello r ..)) => r == List.replicate 32 5
      | .recv _ => false
      | _ => true) = true := by
  decide +kernel

theorem small_connected :
    (runOps env [.initiate, .drain, .receive flight] smallClient0).state = .connected ∧
    mflOf (runOps env [.initiate, .drain, .receive flight] smallClient0) = some 16384 := by
  decide +kernel

theorem small_hello : (runOps env [.initiate] smallClient0).outputData = hello := by decide +kernel

theorem small_flight : (runOps env [.initiate, .receive hello] server0).outputData = bigFlight := by
  decide +kernel

theorem small_failed :
    (runOps env [.initiate, .drain, .receive bigFlight] smallClient0).state = .failed := by
  decide +kernel

end Toy

/-! ## C33 -/

/-- The suite of a ServerHello is the first of the server's list that the client offered: offered in
a ClientHello with the random of the one that is answered (the very one that is answered unless there
was another before, and the one the HelloRetryRequest answered if there was one, see `C38_server`).
It is offered by the one that is answered too. -/
theorem C33_hello (hE : E.Shares) {config : Config} {hostname ocsp algs random} {c : Conn}
    (h : Conn.new config hostname ocsp algs random = .ok c) (hside : config.side = .server)
    (hcheck : config.check = .ok ()) (ops : List Op) {post pre : List Ev} {rnd sid : Bytes}
    {suite : Nat} {exts : List Ext} (ht : (runOps E ops c).tr =
      post ++ .sent (.handshake (.serverHello rnd sid suite exts)) :: pre) :
    ∃ r suites chExts sid₀ suites₀ exts₀,
      heard pre = some (.handshake (.clientHello r sid suites chExts)) ∧ suite ∈ suites ∧
      .recv (.handshake (.clientHello r sid₀ suites₀ exts₀)) ∈ pre ∧
      Preferred config.cipherSuites (· ∈ suites₀) suite := by
  have := (NegInv.run hE h hside hcheck ops).trace _ pre (by rw [ht]; exact List.suffix_append _ _)
  obtain ⟨r, suites, chExts, sid0, suites0, exts0, grp, sch, share, l, theirs, gs, h1, h2, h3, h4, -⟩ :=
    this
  exact ⟨r, suites, chExts, sid0, suites0, exts0, by rw [heard_eq]; exact h1, h4, h2,
    preferred_find h3.suite (by simp)⟩

/-- The suite of a HelloRetryRequest is the first of the server's list that the client offered. -/
theorem C33_retry (hE : E.Shares) {config : Config} {hostname ocsp algs random} {c : Conn}
    (h : Conn.new config hostname ocsp algs random = .ok c) (hside : config.side = .server)
    (hcheck : config.check = .ok ()) (ops : List Op) {post pre : List Ev} {rnd sid : Bytes}
    {suite : Nat} {exts : List Ext} (ht : (runOps E ops c).tr =
      post ++ .sent (.handshake (.helloRetryRequest rnd sid suite exts)) :: pre) :
    ∃ r suites chExts, heard pre = some (.handshake (.clientHello r sid suites chExts)) ∧
      Preferred config.cipherSuites (· ∈ suites) suite := by
  have := (NegInv.run hE h hside hcheck ops).trace _ pre (by rw [ht]; exact List.suffix_append _ _)
  obtain ⟨r, suites, chExts, grp, sch, l, h1, h2, -⟩ := this
  exact ⟨r, suites, chExts, by rw [heard_eq]; exact h1, preferred_find h2.suite (by simp)⟩

example : ∃ post pre rnd sid suite exts, (runOps Toy.env Toy.retryOps Toy.retry0).tr =
    post ++ .sent (.handshake (.serverHello rnd sid suite exts)) :: pre := by
  obtain ⟨post, rnd, sid, suite, exts, pre, h⟩ := Toy.split_hello Toy.retry_sent.1
  exact ⟨post, pre, rnd, sid, suite, exts, h⟩

example : ∃ post pre rnd sid suite exts, (runOps Toy.env Toy.retryOps Toy.retry0).tr =
    post ++ .sent (.handshake (.helloRetryRequest rnd sid suite exts)) :: pre := by
  obtain ⟨post, rnd, sid, suite, exts, pre, h⟩ := Toy.split_retry Toy.retry_sent.2.1
  exact ⟨post, pre, rnd, sid, suite, exts, h⟩

/-- A ClientHello without any suite of the server is refused with handshake_failure (40): nothing but
the alert is sent. -/
theorem C33_refused (hE : E.Shares) (hS : E.Seals) (hO : E.Outside) {config : Config}
    {hostname ocsp algs random} {c₀ c' : Conn} {res : Except Exn Unit}
    (hc : Conn.new config hostname ocsp algs random = .ok c₀) (hside : config.side = .server)
    (hcheck : config.check = .ok ())
    (hm : config.maxFragmentLength ∈ [512, 1024, 2048, 4096, 16384])
    (hl : ∀ s ∈ config.cipherSuites, Limited s) (ops : List Op) {d r sid : Bytes} {suites : List Nat}
    {exts : List Ext} {new : List Ev} {f : Bool} (hst : (runOps E ops c₀).state = .serverWaitCH f)
    (h : receiveData E d (runOps E ops c₀) = (res, c')) (hk : shouldRekey c' = .ok false)
    (hn : c'.tr = new ++ (runOps E ops c₀).tr)
    (hx : firstHeard new = some (.handshake (.clientHello r sid suites exts)))
    (hno : ∀ s ∈ config.cipherSuites, s ∉ suites) :
    res = .error (.alert 40) ∧ c'.state = .failed ∧
      ∃ out pre, c'.tr = out ++ (pre ++ (runOps E ops c₀).tr) ∧ AlertOut E 40 out ∧
        sentAlerts pre = [] := by
  have hneg := (NegInv.run hE hc hside hcheck ops).state
  obtain ⟨e, rfl, h1, h2⟩ := receive_refused hS hO hc hm hl ops (by rw [hst]; rfl)
    (by rw [hst]; rfl) h hk hn hx (P := fun e => e = .alert 40) (fun c₁ hkept => by
      refine ⟨_, ?_, rfl⟩
      have hst₁ : c₁.state = .serverWaitCH f := by rw [hkept.same]; exact hst
      have hcfg : c₁.config = (runOps E ops c₀).config := by rw [hkept.same]; rfl
      unfold process
      rw [hst₁]
      refine serverWaitCH_suites ?_
      rw [hcfg]
      cases hneg with
      | plain hp => rw [hp.config]; exact hno
      | bound hb =>
        rw [hb.config]
        intro s hs
        have : s ∈ config.cipherSuites := by
          have hs' := List.mem_singleton.mp hs
          rw [hs']
          exact List.mem_of_find?_eq_some hb.pick.suite
        exact hno s this)
  exact ⟨h1, h2⟩

example : ∃ res c' new r sid suites exts, Toy.env.Shares ∧ Toy.env.Seals ∧ Toy.env.Outside ∧
    Conn.new Toy.serverConfig none false [.sha256] (List.replicate 32 6) = .ok Toy.server0 ∧
    Toy.serverConfig.side = .server ∧ Toy.serverConfig.check = .ok () ∧
    Toy.serverConfig.maxFragmentLength ∈ [512, 1024, 2048, 4096, 16384] ∧
    (∀ s ∈ Toy.serverConfig.cipherSuites, Limited s) ∧
    Toy.waiting1 = runOps Toy.env [.initiate] Toy.server0 ∧
    Toy.waiting1.state = .serverWaitCH true ∧
    receiveData Toy.env Toy.hello1302 Toy.waiting1 = (res, c') ∧
    shouldRekey c' = .ok false ∧ c'.tr = new ++ Toy.waiting1.tr ∧
    firstHeard new = some (.handshake (.clientHello r sid suites exts)) ∧
    ∀ s ∈ Toy.serverConfig.cipherSuites, s ∉ suites := by
  obtain ⟨res, c', new, x, h1, h2, h3, h4, h5⟩ := Toy.heard_of Toy.refuse_facts.1.2.1
  obtain ⟨r, sid, suites, exts, rfl, h6⟩ := Toy.clientHelloIs_of h5
  exact ⟨res, c', new, r, sid, suites, exts, Toy.shares, Toy.seals, Toy.outside, Toy.server0_new, rfl,
    Toy.serverConfig_check, by simp [Toy.serverConfig], Toy.serverLimited, Toy.waiting1_eq, Toy.refuse_facts.1.1, h1, h2,
    h3, h4, fun s hs => by simpa using List.all_eq_true.mp h6 s hs⟩

/-! ## C34 -/

/-- The group of a ServerHello is the first of the server's groups that the client lists (same remark
as for `C33_hello`); the hello that is answered lists it too and has a key share of this very group.
The ServerHello selects TLS 1.3 and this group and nothing else. -/
theorem C34_hello (hE : E.Shares) {config : Config} {hostname ocsp algs random} {c : Conn}
    (h : Conn.new config hostname ocsp algs random = .ok c) (hside : config.side = .server)
    (hcheck : config.check = .ok ()) (ops : List Op) {post pre : List Ev} {rnd sid : Bytes}
    {suite : Nat} {exts : List Ext} (ht : (runOps E ops c).tr =
      post ++ .sent (.handshake (.serverHello rnd sid suite exts)) :: pre) :
    ∃ grp share, exts = [.supportedVersionsResp tls13, .keyShareResp grp share] ∧
    ∃ r suites chExts sid₀ suites₀ exts₀,
      heard pre = some (.handshake (.clientHello r sid suites chExts)) ∧
      (∃ gs, .supportedGroups gs ∈ chExts ∧ grp ∈ gs) ∧
      (∃ shares theirs, .keyShareReq shares ∈ chExts ∧ (grp, theirs) ∈ shares) ∧
      .recv (.handshake (.clientHello r sid₀ suites₀ exts₀)) ∈ pre ∧
      ∃ gs₀, .supportedGroups gs₀ ∈ exts₀ ∧ Preferred config.keyExchanges (· ∈ gs₀) grp := by
  have := (NegInv.run hE h hside hcheck ops).trace _ pre (by rw [ht]; exact List.suffix_append _ _)
  obtain ⟨r, suites, chExts, sid0, suites0, exts0, grp, sch, share, l, theirs, gs, h1, h2, h3, -, -,
    h6, h7, h8, h9, h10, -⟩ := this
  obtain ⟨gs0, h11, h12⟩ := h3.group
  exact ⟨grp, share, h8, r, suites, chExts, sid0, suites0, exts0, by rw [heard_eq]; exact h1,
    ⟨gs, findExt_mem h6, h7⟩, ⟨l, theirs, findExt_mem h9, h10⟩, h2, gs0, findExt_mem h11,
    preferred_find h12 (by simp)⟩

/-- A HelloRetryRequest announces the first of the server's groups that the client lists, and is only
sent when the client gave no key share of this group. -/
theorem C34_retry (hE : E.Shares) {config : Config} {hostname ocsp algs random} {c : Conn}
    (h : Conn.new config hostname ocsp algs random = .ok c) (hside : config.side = .server)
    (hcheck : config.check = .ok ()) (ops : List Op) {post pre : List Ev} {rnd sid : Bytes}
    {suite : Nat} {exts : List Ext} (ht : (runOps E ops c).tr =
      post ++ .sent (.handshake (.helloRetryRequest rnd sid suite exts)) :: pre) :
    ∃ grp, exts = [.supportedVersionsResp tls13, .keyShareRetry grp] ∧
    ∃ r suites chExts, heard pre = some (.handshake (.clientHello r sid suites chExts)) ∧
      (∃ gs, .supportedGroups gs ∈ chExts ∧ Preferred config.keyExchanges (· ∈ gs) grp) ∧
      ((∀ e ∈ chExts, e.type ≠ 51) ∨
        ∃ shares, .keyShareReq shares ∈ chExts ∧ ∀ theirs, (grp, theirs) ∉ shares) := by
  have := (NegInv.run hE h hside hcheck ops).trace _ pre (by rw [ht]; exact List.suffix_append _ _)
  obtain ⟨r, suites, chExts, grp, sch, l, h1, h2, -, h4, h5, h6⟩ := this
  obtain ⟨gs, h7, h8⟩ := h2.group
  refine ⟨grp, h4, r, suites, chExts, by rw [heard_eq]; exact h1, ⟨gs, findExt_mem h7,
    preferred_find h8 (by simp)⟩, ?_⟩
  unfold clientShares at h5
  split at h5
  · rename_i hf
    exact .inl fun e he => findExt_none hf he
  · rename_i l' hf
    cases h5
    exact .inr ⟨_, findExt_mem hf, fun theirs hm => h6 _ hm rfl⟩
  · cases h5

/-- The scheme of a CertificateVerify is the first of the server's schemes that the client lists and
that fits the key of its certificate (same remark as for `C33_hello`); the newest hello lists it
too. -/
theorem C34_scheme (hE : E.Shares) {config : Config} {hostname ocsp algs random} {c : Conn}
    (h : Conn.new config hostname ocsp algs random = .ok c) (hside : config.side = .server)
    (hcheck : config.check = .ok ()) (ops : List Op) {post pre : List Ev} {scheme : Nat}
    {sig : Bytes} (ht : (runOps E ops c).tr =
      post ++ .sent (.handshake (.certificateVerify scheme sig)) :: pre) :
    ∃ r sid suites chExts sid₀ suites₀ exts₀,
      heard pre = some (.handshake (.clientHello r sid suites chExts)) ∧
      (∃ l, .signatureAlgorithms l ∈ chExts ∧ scheme ∈ l) ∧
      .recv (.handshake (.clientHello r sid₀ suites₀ exts₀)) ∈ pre ∧
      ∃ l₀ leaf rest, .signatureAlgorithms l₀ ∈ exts₀ ∧
        config.certificateChain = some (leaf :: rest) ∧
        Preferred config.signatureAlgorithms (fun s => s ∈ l₀ ∧ Fit (E.certOid leaf) s) scheme := by
  have := (NegInv.run hE h hside hcheck ops).trace _ pre (by rw [ht]; exact List.suffix_append _ _)
  obtain ⟨r, sid, suites, chExts, sid0, suites0, exts0, l, h1, h2, h3, h4, h5, -⟩ := this
  obtain ⟨l0, leaf, rest, fit, h6, h7, h8, h9⟩ := h3
  refine ⟨r, sid, suites, chExts, sid0, suites0, exts0, by rw [heard_eq]; exact h1,
    ⟨l, findExt_mem h4, h5⟩, h2, l0, leaf, rest, findExt_mem h6, h7, preferred_find h9 fun y => ?_⟩
  rw [← fit_iff h8 y]
  simp [and_comm]

example : ∃ post pre scheme sig, (runOps Toy.env Toy.retryOps Toy.retry0).tr =
    post ++ .sent (.handshake (.certificateVerify scheme sig)) :: pre := by
  obtain ⟨post, scheme, sig, pre, h⟩ := Toy.split_verify Toy.retry_sent.2.2.1
  exact ⟨post, pre, scheme, sig, h⟩

/-! ## C35 -/

/-- The EncryptedExtensions of a server that has protocols answer a client that has some with the
first of the server's protocols that the client offers; otherwise they have no ALPN. -/
theorem C35_server (hE : E.Shares) {config : Config} {hostname ocsp algs random} {c : Conn}
    (h : Conn.new config hostname ocsp algs random = .ok c) (hside : config.side = .server)
    (hcheck : config.check = .ok ()) (ops : List Op) {post pre : List Ev} {exts : List Ext}
    (ht : (runOps E ops c).tr = post ++ .sent (.handshake (.encryptedExtensions exts)) :: pre) :
    ∃ r sid suites chExts, heard pre = some (.handshake (.clientHello r sid suites chExts)) ∧
      ((∃ l p, .alpn l ∈ chExts ∧ Preferred config.alpn (· ∈ l) p ∧
          ∀ q, .alpn q ∈ exts ↔ q = [p]) ∨
        (((∀ l, .alpn l ∉ chExts) ∨ config.alpn = []) ∧ ∀ q, .alpn q ∉ exts)) := by
  have := (NegInv.run hE h hside hcheck ops).trace _ pre (by rw [ht]; exact List.suffix_append _ _)
  obtain ⟨r, sid, suites, chExts, nc, enc, h1, h2, h3⟩ := this
  refine ⟨r, sid, suites, chExts, by rw [heard_eq]; exact h1, ?_⟩
  rw [h2.dict] at h3
  subst h3
  obtain ⟨h4, h5⟩ | ⟨l, p, h4, h5, h6⟩ := h2.alpn_cases
  · exact .inr ⟨h4.imp (fun h l hl => findExt_none h hl rfl) id, h5⟩
  · exact .inl ⟨l, p, findExt_mem h4, preferred_find h5 (by simp), h6⟩

example : Toy.alpnServer.side = .server ∧ Toy.alpnServer.check = .ok () ∧
    Conn.new Toy.alpnServer none false [.sha256] (List.replicate 32 6) = .ok Toy.alpnServer0 ∧
    Toy.alpnServer.alpn = [[104, 50], [120]] ∧
    ∃ post pre exts, (runOps Toy.env [.initiate, .receive Toy.alpnHello] Toy.alpnServer0).tr =
      post ++ .sent (.handshake (.encryptedExtensions exts)) :: pre := by
  obtain ⟨post, exts, pre, h⟩ := Toy.split_exts Toy.alpn_facts.2.1
  exact ⟨rfl, Toy.alpnServer_check, Toy.alpnServer0_new, rfl, post, pre, exts, h⟩

/-- The protocol a server ends up with, from the hello it answered with its Finished. -/
theorem C35_server_done (hE : E.Shares) {config : Config} {hostname ocsp algs random} {c : Conn}
    (h : Conn.new config hostname ocsp algs random = .ok c) (hside : config.side = .server)
    (hcheck : config.check = .ok ()) (ops : List Op) (hst : (runOps E ops c).state = .connected) :
    ∃ nc post mac pre r sid suites exts, (runOps E ops c).nconfig = some nc ∧
      (runOps E ops c).tr = post ++ .sent (.handshake (.finished mac)) :: pre ∧
      heard pre = some (.handshake (.clientHello r sid suites exts)) ∧
      ((nc.alpn = some none ∧ ((∀ l, .alpn l ∉ exts) ∨ config.alpn = [])) ∨
        ∃ l p, nc.alpn = some (some p) ∧ .alpn l ∈ exts ∧ Preferred config.alpn (· ∈ l) p) := by
  obtain ⟨r, sid, suites, exts, enc, nc, ⟨post, mac, pre, h1, h0⟩, h2, h3⟩ :=
    (NegInv.run hE h hside hcheck ops).done (by rw [hst]; rfl)
  obtain ⟨e1, e2, e3, e4, e5, -, -, -, -, ha, -⟩ := h3.parts
  refine ⟨nc, post, mac, pre, r, sid, suites, exts, h2, h1, by rw [heard_eq]; exact h0, ?_⟩
  rcases ha with ⟨h4, h5, -⟩ | ⟨l, p, h4, h5, h6, -⟩
  · exact .inl ⟨h5, h4.imp (fun h l hl => findExt_none h hl rfl) id⟩
  · exact .inr ⟨l, p, h6, findExt_mem h4, preferred_find h5 (by simp)⟩

/-- a connected server -/
example : Toy.serverConfig.side = .server ∧ Toy.serverConfig.check = .ok () ∧
    Conn.new Toy.serverConfig none false [.sha256] (List.replicate 32 6) = .ok Toy.server0 ∧
    Toy.serverDone = runOps Toy.env Toy.serverOps Toy.server0 ∧ Toy.serverDone.state = .connected :=
  ⟨rfl, Toy.serverConfig_check, Toy.server0_new, Toy.serverDone_eq, Toy.server_facts.1.1⟩

/-- The protocols in common are none: `_negociate` raises no_application_protocol (120), provided
nothing else is wrong with the hello (without its ALPN the negotiation goes through). -/
theorem C35_server_refused {exts clear enc : List Ext} {shared : Bytes} {c c' : Conn}
    {l : List Bytes} (hu : (exts.map Ext.type).Nodup) (hl : .alpn l ∈ exts)
    (hne : c.config.alpn ≠ []) (hno : ∀ p ∈ c.config.alpn, p ∉ l)
    (hok : serverNegotiate E (exts.filter (fun e => e.type ≠ 16)) c =
      (.ok (clear, enc, some shared), c')) :
    (serverNegotiate E exts c).1 = .error (.alert 120) :=
  serverNegotiate_alpn (findExt_of_mem hu hl) hne hno hok

/-- a server for h2 and x that checked the suites of a hello, and a client for y -/
example : ∃ (exts : List Ext) (l : List Bytes) (clear enc : List Ext) (shared : Bytes) (c' : Conn),
    (exts.map Ext.type).Nodup ∧ .alpn l ∈ exts ∧
    Toy.choosing.config.alpn ≠ [] ∧ (∀ p ∈ Toy.choosing.config.alpn, p ∉ l) ∧
    serverNegotiate Toy.env (exts.filter (fun e => e.type ≠ 16)) Toy.choosing =
      (.ok (clear, enc, some shared), c') := by
  obtain ⟨h1, h2, h3⟩ := Toy.choosing_facts
  rcases hx : serverNegotiate Toy.env (Toy.yExts.filter (fun e => e.type ≠ 16)) Toy.choosing with ⟨r, c'⟩
  rw [hx] at h3
  dsimp only at h3
  split at h3
  · exact ⟨Toy.yExts, [[121]], _, _, _, c', by decide, by simp [Toy.yExts], by rw [h1]; simp,
      by rw [h1]; decide, hx⟩
  · cases h3

/-- A client offers its protocols, if it has any. -/
theorem C35_offer {config : Config} {hostname ocsp algs random} {c : Conn}
    (h : Conn.new config hostname ocsp algs random = .ok c) (hside : config.side = .client)
    (ops : List Op) {r sid : Bytes} {suites : List Nat} {exts : List Ext}
    (ht : .sent (.handshake (.clientHello r sid suites exts)) ∈ (runOps E ops c).tr)
    (q : List Bytes) : .alpn q ∈ exts ↔ config.alpn ≠ [] ∧ q = config.alpn := by
  obtain ⟨post, pre, ht⟩ := List.append_of_mem ht
  have := (CliInv.run (E := E) h hside ops).trace _ pre (by rw [ht]; exact List.suffix_append _ _)
  obtain ⟨-, -, k, grp, cookie, ho, -⟩ := this
  exact ho.alpn q

/-- The protocol a client ends up with is one it offered and that the server selected; none when the
server selected none. -/
theorem C35_client {config : Config} {hostname ocsp algs random} {c : Conn}
    (h : Conn.new config hostname ocsp algs random = .ok c) (hside : config.side = .client)
    (ops : List Op) (hst : (runOps E ops c).state = .connected) :
    ∃ nc exts, (runOps E ops c).nconfig = some nc ∧
      .recv (.handshake (.encryptedExtensions exts)) ∈ (runOps E ops c).tr ∧
      ((nc.alpn = some none ∧ ∀ q, .alpn q ∉ exts) ∨
        ∃ p ∈ config.alpn, nc.alpn = some (some p) ∧ .alpn [p] ∈ exts) := by
  obtain ⟨exts, nc, h1, h2, h3⟩ := (CliInv.run (E := E) h hside ops).settled (by rw [hst]; rfl)
  refine ⟨nc, exts, h2, h1, ?_⟩
  rcases h3.alpn with ⟨h4, h5⟩ | ⟨p, h4, h5, h6⟩
  · exact .inl ⟨h5, fun q hq => findExt_none h4 hq rfl⟩
  · exact .inr ⟨p, h5, h6, findExt_mem h4⟩

/-- `C35_offer` and `C35_client` are about this client, which ends up with h2, its second choice. -/
example : Toy.alpnClient.side = .client ∧
    Conn.new Toy.alpnClient (some ['a']) false [.sha256, .sha384] (List.replicate 32 5) =
      .ok Toy.alpnClient0 ∧ Toy.alpnClient.alpn = [[120], [104, 50]] ∧
    (runOps Toy.env [.initiate] Toy.alpnClient0).tr.any Toy.isOffer = true ∧
    (runOps Toy.env [.initiate, .drain, .receive Toy.alpnFlight] Toy.alpnClient0).state = .connected ∧
    Toy.alpnOf (runOps Toy.env [.initiate, .drain, .receive Toy.alpnFlight] Toy.alpnClient0) =
      some (some [104, 50]) :=
  ⟨rfl, Toy.alpnClient0_new, rfl, Toy.alpn_facts.2.2.1, Toy.alpn_facts.2.2.2.1,
    Toy.alpn_facts.2.2.2.2⟩

/-- A client refuses with illegal_parameter (47) EncryptedExtensions that select anything but one of
its protocols. -/
theorem C35_client_refused (hS : E.Seals) (hO : E.Outside) {config : Config}
    {hostname ocsp algs random} {c₀ c' : Conn} {res : Except Exn Unit}
    (hc : Conn.new config hostname ocsp algs random = .ok c₀) (hside : config.side = .client)
    (hm : config.maxFragmentLength ∈ [512, 1024, 2048, 4096, 16384])
    (hl : ∀ s ∈ config.cipherSuites, Limited s) (ops : List Op) {d : Bytes} {exts : List Ext}
    {new : List Ev} (hst : (runOps E ops c₀).state = .clientWaitEE)
    (h : receiveData E d (runOps E ops c₀) = (res, c')) (hk : shouldRekey c' = .ok false)
    (hn : c'.tr = new ++ (runOps E ops c₀).tr)
    (hx : firstHeard new = some (.handshake (.encryptedExtensions exts))) {l : List Bytes}
    (hu : (exts.map Ext.type).Nodup) (hf : ∀ e ∈ exts, e.type = 1 → ∃ code, e = .maxFragmentLength code)
    (ha : .alpn l ∈ exts) (hno : ∀ p ∈ config.alpn, l ≠ [p]) :
    res = .error (.alert 47) ∧ c'.state = .failed ∧
      ∃ out pre, c'.tr = out ++ (pre ++ (runOps E ops c₀).tr) ∧ AlertOut E 47 out ∧
        sentAlerts pre = [] := by
  have hinv := CliInv.run (E := E) hc hside ops
  obtain ⟨e, rfl, h1, h2⟩ := receive_refused hS hO hc hm hl ops (by rw [hst]; rfl)
    (by rw [hst]; rfl) h hk hn hx (P := fun e => e = .alert 47) (fun c₁ hkept => by
      refine ⟨_, ?_, rfl⟩
      have hst₁ : c₁.state = .clientWaitEE := by rw [hkept.same]; exact hst
      have hcfg : c₁.config = (runOps E ops c₀).config := by rw [hkept.same]; rfl
      have hnc : c₁.nconfig = (runOps E ops c₀).nconfig := by rw [hkept.same]; rfl
      obtain ⟨_, _, _, _, _, _, _, _, _, _, nc, _, _, h3, _⟩ := hinv.answer (by rw [hst]; rfl)
      unfold process
      rw [hst₁]
      refine clientWaitEE_alpn (hnc.trans h3) (Thawed.run (E := E) hc ops nc h3)
        (fun e he => hf e (findExt_mem he) ?_) (findExt_of_mem hu ha) ?_
      · simpa using List.find?_some he
      · rw [hcfg]
        have : (runOps E ops c₀).config.alpn = config.alpn := by
          rcases hinv.cfg with h | ⟨s, grp, h⟩
          · rw [h]
          · rw [h.config]; rfl
        rw [this]
        exact hno)
  exact ⟨h1, h2⟩

example : ∃ res c' new exts, Toy.env.Seals ∧ Toy.env.Outside ∧
    Conn.new Toy.clientConfig (some ['a']) false [.sha256, .sha384] (List.replicate 32 5) =
      .ok Toy.client0 ∧ Toy.clientConfig.side = .client ∧
    Toy.clientConfig.maxFragmentLength ∈ [512, 1024, 2048, 4096, 16384] ∧
    (∀ s ∈ Toy.clientConfig.cipherSuites, Limited s) ∧
    Toy.waitingEE = runOps Toy.env [.initiate, .receive (Toy.flight.take 64)] Toy.client0 ∧
    Toy.waitingEE.state = .clientWaitEE ∧
    receiveData Toy.env Toy.wrongExts Toy.waitingEE = (res, c') ∧
    shouldRekey c' = .ok false ∧ c'.tr = new ++ Toy.waitingEE.tr ∧
    firstHeard new = some (.handshake (.encryptedExtensions exts)) ∧
    (exts.map Ext.type).Nodup ∧ (∀ e ∈ exts, e.type = 1 → ∃ code, e = .maxFragmentLength code) ∧
    .alpn [[104, 50]] ∈ exts ∧ ∀ p ∈ Toy.clientConfig.alpn, [[104, 50]] ≠ [p] := by
  obtain ⟨res, c', new, x, h1, h2, h3, h4, h5⟩ := Toy.heard_of Toy.refuse_facts.2.2.2.2
  obtain ⟨exts, rfl, h6⟩ := Toy.extsAre_of h5
  cases eq_of_beq h6
  exact ⟨res, c', new, _, Toy.seals, Toy.outside, Toy.client0_new, rfl, by simp [Toy.clientConfig],
    Toy.limited, Toy.waitingEE_eq, Toy.refuse_facts.2.2.2.1, h1, h2, h3, h4, by simp,
    (fun e he => by rw [List.mem_singleton.mp he]; intro h; cases h), by simp, by simp [Toy.clientConfig]⟩

/-! ## C36 -/

/-- A server only sends a ServerHello to a client that offers TLS 1.3, and selects it. -/
theorem C36_hello (hE : E.Shares) {config : Config} {hostname ocsp algs random} {c : Conn}
    (h : Conn.new config hostname ocsp algs random = .ok c) (hside : config.side = .server)
    (hcheck : config.check = .ok ()) (ops : List Op) {post pre : List Ev} {rnd sid : Bytes}
    {suite : Nat} {exts : List Ext} (ht : (runOps E ops c).tr =
      post ++ .sent (.handshake (.serverHello rnd sid suite exts)) :: pre) :
    .supportedVersionsResp tls13 ∈ exts ∧ ∃ r suites chExts,
      heard pre = some (.handshake (.clientHello r sid suites chExts)) ∧ OffersTls13 chExts := by
  have := (NegInv.run hE h hside hcheck ops).trace _ pre (by rw [ht]; exact List.suffix_append _ _)
  obtain ⟨r, suites, chExts, _, _, _, _, _, _, _, _, _, h1, -, -, -, h2, -, -, h3, -⟩ := this
  exact ⟨by rw [h3]; exact .head _, r, suites, chExts, by rw [heard_eq]; exact h1, h2.offers⟩

/-- The same for a HelloRetryRequest. -/
theorem C36_retry (hE : E.Shares) {config : Config} {hostname ocsp algs random} {c : Conn}
    (h : Conn.new config hostname ocsp algs random = .ok c) (hside : config.side = .server)
    (hcheck : config.check = .ok ()) (ops : List Op) {post pre : List Ev} {rnd sid : Bytes}
    {suite : Nat} {exts : List Ext} (ht : (runOps E ops c).tr =
      post ++ .sent (.handshake (.helloRetryRequest rnd sid suite exts)) :: pre) :
    .supportedVersionsResp tls13 ∈ exts ∧ ∃ r suites chExts,
      heard pre = some (.handshake (.clientHello r sid suites chExts)) ∧ OffersTls13 chExts := by
  have := (NegInv.run hE h hside hcheck ops).trace _ pre (by rw [ht]; exact List.suffix_append _ _)
  obtain ⟨r, suites, chExts, _, _, _, h1, -, h2, h3, -⟩ := this
  exact ⟨by rw [h3]; exact .head _, r, suites, chExts, by rw [heard_eq]; exact h1, h2.offers⟩

/-- A ClientHello that does not offer TLS 1.3 makes `receive_data` raise; one alert is sent and the
connection is failed. -/
theorem C36_server_refused (hS : E.Seals) (hO : E.Outside) {config : Config}
    {hostname ocsp algs random} {c₀ c' : Conn} {res : Except Exn Unit}
    (hc : Conn.new config hostname ocsp algs random = .ok c₀)
    (hm : config.maxFragmentLength ∈ [512, 1024, 2048, 4096, 16384])
    (hl : ∀ s ∈ config.cipherSuites, Limited s) (ops : List Op) {d r sid : Bytes} {suites : List Nat}
    {exts : List Ext} {new : List Ev} {f : Bool} (hst : (runOps E ops c₀).state = .serverWaitCH f)
    (h : receiveData E d (runOps E ops c₀) = (res, c')) (hk : shouldRekey c' = .ok false)
    (hn : c'.tr = new ++ (runOps E ops c₀).tr)
    (hx : firstHeard new = some (.handshake (.clientHello r sid suites exts)))
    (hno : ¬ OffersTls13 exts) :
    ∃ e, res = .error e ∧ c'.state = .failed ∧
      ∃ out pre, c'.tr = out ++ (pre ++ (runOps E ops c₀).tr) ∧ AlertOut E (alertFor e) out ∧
        sentAlerts pre = [] := by
  obtain ⟨e, -, h1, h2⟩ := receive_refused hS hO hc hm hl ops (by rw [hst]; rfl)
    (by rw [hst]; rfl) h hk hn hx (P := fun _ => True) (fun c₁ hkept => by
      have hst₁ : c₁.state = .serverWaitCH f := by rw [hkept.same]; exact hst
      unfold process
      rw [hst₁]
      obtain ⟨e, he⟩ := raises_of (m := serverWaitCH E f (.handshake (.clientHello r sid suites exts)))
        (c := c₁) (fun a c' ha => by
          obtain ⟨_, _, _, _, _, _, _, hv⟩ := serverWaitCH_ok ha
          exact hno hv.offers)
      exact ⟨e, he, trivial⟩)
  exact ⟨e, h1, h2⟩

example : ∃ res c' new r sid suites exts, Toy.env.Seals ∧ Toy.env.Outside ∧
    Conn.new Toy.serverConfig none false [.sha256] (List.replicate 32 6) = .ok Toy.server0 ∧
    Toy.serverConfig.maxFragmentLength ∈ [512, 1024, 2048, 4096, 16384] ∧
    (∀ s ∈ Toy.serverConfig.cipherSuites, Limited s) ∧
    Toy.waiting1 = runOps Toy.env [.initiate] Toy.server0 ∧
    Toy.waiting1.state = .serverWaitCH true ∧
    receiveData Toy.env Toy.hello12 Toy.waiting1 = (res, c') ∧
    shouldRekey c' = .ok false ∧ c'.tr = new ++ Toy.waiting1.tr ∧
    firstHeard new = some (.handshake (.clientHello r sid suites exts)) ∧ ¬ OffersTls13 exts := by
  obtain ⟨res, c', new, x, h1, h2, h3, h4, h5⟩ := Toy.heard_of Toy.refuse_facts.1.2.2
  obtain ⟨r, sid, suites, exts, rfl, h6⟩ := Toy.clientHelloIs_of h5
  refine ⟨res, c', new, r, sid, suites, exts, Toy.seals, Toy.outside, Toy.server0_new,
    by simp [Toy.serverConfig], Toy.serverLimited, Toy.waiting1_eq, Toy.refuse_facts.1.1, h1, h2, h3, h4, ?_⟩
  rintro ⟨l, hl, ht⟩
  have : Ext.supportedVersionsReq l ∈ exts.filter fun e => e.type == 43 :=
    List.mem_filter.mpr ⟨hl, rfl⟩
  rw [eq_of_beq h6] at this
  cases List.mem_singleton.mp this
  simp [tls13] at ht

/-- What `_negociate` raises for such a hello: protocol_version (70). -/
theorem C36_server_alert {exts : List Ext}
    (hf : ∀ e ∈ exts, e.type = 43 → ∃ l, e = .supportedVersionsReq l) (hno : ¬ OffersTls13 exts)
    (c : Conn) : serverNegotiate E exts c = (.error (.alert 70), c) := by
  have : serverNegVersions exts c = (.error (.alert 70), c) := by
    unfold serverNegVersions
    cases hx : findExt exts Iana.extSupportedVersions with
    | none => rfl
    | some e =>
      obtain ⟨l, rfl⟩ := hf e (findExt_mem hx) (by simpa using List.find?_some hx)
      dsimp only
      have : Iana.tls13 ∉ l := fun h => hno ⟨l, findExt_mem hx, h⟩
      rw [if_pos (by simpa using this)]
      rfl
  unfold serverNegotiate
  rw [bind_error this]

example : (∀ e ∈ [Ext.supportedVersionsReq [0x0303]], e.type = 43 →
      ∃ l, e = .supportedVersionsReq l) ∧ ¬ OffersTls13 [Ext.supportedVersionsReq [0x0303]] := by
  refine ⟨fun e he _ => ⟨_, List.mem_singleton.mp he⟩, ?_⟩
  rintro ⟨l, hl, ht⟩
  cases List.mem_singleton.mp hl
  simp [tls13] at ht

/-- A client that goes on after a ServerHello has received one that selects TLS 1.3.

Missing: it answers a HelloRetryRequest that selects no version (`C36_false`). -/
theorem C36_client_partial {config : Config} {hostname ocsp algs random} {c : Conn}
    (h : Conn.new config hostname ocsp algs random = .ok c) (hside : config.side = .client)
    (ops : List Op) (hst : (runOps E ops c).state.answered = true) :
    ∃ r sid suite exts, .recv (.handshake (.serverHello r sid suite exts)) ∈ (runOps E ops c).tr ∧
      .supportedVersionsResp tls13 ∈ exts := by
  obtain ⟨_, _, _, _, r', sid', suite, exts', _, _, _, -, h1, -, -, -, h2, -⟩ :=
    (CliInv.run (E := E) h hside ops).answer hst
  exact ⟨r', sid', suite, exts', h1, findExt_mem h2⟩

/-- the toy client, once connected -/
example : Conn.new Toy.clientConfig (some ['a']) false [.sha256, .sha384] (List.replicate 32 5) =
      .ok Toy.client0 ∧ Toy.clientConfig.side = .client ∧
    Toy.clientDone = runOps Toy.env Toy.clientOps Toy.client0 ∧
    Toy.clientDone.state.answered = true :=
  ⟨Toy.client0_new, rfl, Toy.clientDone_eq, by rw [Toy.client_facts.1.1]; rfl⟩

/-- The full claim is false: a HelloRetryRequest without supported_versions is answered with a second
ClientHello. -/
theorem C36_false : ∃ (E : Env) (config : Config) (hostname : Option PyStr) (algs : List HashAlg)
    (random : Bytes) (c : Conn) (d : Bytes), E.Sized ∧ config.side = .client ∧
    Conn.new config hostname false algs random = .ok c ∧
    ∃ rnd sid suite exts, heard (runOps E [.initiate, .receive d] c).tr =
        some (.handshake (.helloRetryRequest rnd sid suite exts)) ∧
      (∀ v, .supportedVersionsResp v ∉ exts) ∧
      ((runOps E [.initiate, .receive d] c).tr.filter Toy.isOffer).length = 2 ∧
      (runOps E [.initiate, .receive d] c).state ≠ .failed := by
  refine ⟨Toy.env, Toy.clientConfig, _, _, _, Toy.client0, Toy.retryUnversioned, Toy.sized, rfl,
    Toy.client0_new, Spec.retryRandom, [], 0x1301, [.keyShareRetry 0x17], ?_, by simp, ?_⟩
  · set_option maxRecDepth 1000000 in decide +kernel
  · set_option maxRecDepth 1000000 in decide +kernel

/-- A ServerHello that does not select TLS 1.3 makes `receive_data` raise; one alert is sent and the
connection is failed. -/
theorem C36_client_refused (hS : E.Seals) (hO : E.Outside) {config : Config}
    {hostname ocsp algs random} {c₀ c' : Conn} {res : Except Exn Unit}
    (hc : Conn.new config hostname ocsp algs random = .ok c₀)
    (hm : config.maxFragmentLength ∈ [512, 1024, 2048, 4096, 16384])
    (hl : ∀ s ∈ config.cipherSuites, Limited s) (ops : List Op) {d r sid hh : Bytes} {suite : Nat}
    {exts : List Ext} {new : List Ev} {f : Bool} {ks : List (Nat × Bytes)}
    (hst : (runOps E ops c₀).state = .clientWaitSH f ks hh)
    (h : receiveData E d (runOps E ops c₀) = (res, c')) (hk : shouldRekey c' = .ok false)
    (hn : c'.tr = new ++ (runOps E ops c₀).tr)
    (hx : firstHeard new = some (.handshake (.serverHello r sid suite exts)))
    (hno : .supportedVersionsResp tls13 ∉ exts) :
    ∃ e, res = .error e ∧ c'.state = .failed ∧
      ∃ out pre, c'.tr = out ++ (pre ++ (runOps E ops c₀).tr) ∧ AlertOut E (alertFor e) out ∧
        sentAlerts pre = [] := by
  obtain ⟨e, -, h1, h2⟩ := receive_refused hS hO hc hm hl ops (by rw [hst]; rfl)
    (by rw [hst]; rfl) h hk hn hx (P := fun _ => True) (fun c₁ hkept => by
      have hst₁ : c₁.state = .clientWaitSH f ks hh := by rw [hkept.same]; exact hst
      unfold process
      rw [hst₁]
      obtain ⟨e, he⟩ := raises_of
        (m := clientWaitSH E f ks hh (.handshake (.serverHello r sid suite exts))) (c := c₁)
        (fun a c' ha => hno (findExt_mem (clientWaitSH_ok ha).1))
      exact ⟨e, he, trivial⟩)
  exact ⟨e, h1, h2⟩

example : ∃ res c' new r sid suite exts f ks hh, Toy.env.Seals ∧ Toy.env.Outside ∧
    Conn.new Toy.clientConfig (some ['a']) false [.sha256, .sha384] (List.replicate 32 5) =
      .ok Toy.client0 ∧ Toy.clientConfig.maxFragmentLength ∈ [512, 1024, 2048, 4096, 16384] ∧
    (∀ s ∈ Toy.clientConfig.cipherSuites, Limited s) ∧
    Toy.waitingSH = runOps Toy.env [.initiate] Toy.client0 ∧
    Toy.waitingSH.state = .clientWaitSH f ks hh ∧
    receiveData Toy.env Toy.answerUnversioned Toy.waitingSH = (res, c') ∧
    shouldRekey c' = .ok false ∧ c'.tr = new ++ Toy.waitingSH.tr ∧
    firstHeard new = some (.handshake (.serverHello r sid suite exts)) ∧
    .supportedVersionsResp tls13 ∉ exts := by
  obtain ⟨res, c', new, x, h1, h2, h3, h4, h5⟩ := Toy.heard_of Toy.refuse_facts.2.2.1.2.1
  obtain ⟨r, sid, suite, exts, rfl, h6⟩ := Toy.serverHelloIs_of h5
  exact ⟨res, c', new, r, sid, suite, exts, _, _, _, Toy.seals, Toy.outside, Toy.client0_new,
    by simp [Toy.clientConfig], Toy.limited, Toy.waitingSH_eq, Toy.refuse_facts.2.2.1.1, h1, h2, h3, h4,
    by simpa [tls13] using h6⟩

/-- What `_process_server_hello` raises then: protocol_version (70). -/
theorem C36_client_alert {exts : List Ext}
    (hf : ∀ e ∈ exts, e.type = 43 → ∃ v, e = .supportedVersionsResp v)
    (hno : .supportedVersionsResp tls13 ∉ exts) (ks : List (Nat × Bytes)) (r : Bytes) (c : Conn) :
    (clientProcessServerHello E ks r exts c).1 = .error (.alert 70) := by
  have : ∀ c, clientNegVersion exts c = (.error (.alert 70), c) := by
    intro c
    unfold clientNegVersion
    cases hx : findExt exts Iana.extSupportedVersions with
    | none => rfl
    | some e =>
      obtain ⟨v, rfl⟩ := hf e (findExt_mem hx) (by simpa using List.find?_some hx)
      dsimp only
      have : v ≠ Iana.tls13 := fun h => hno (by subst h; exact findExt_mem hx)
      rw [if_pos this]
      rfl
  unfold clientProcessServerHello
  rw [M.bind_def]
  simp only [M.modify]
  rw [bind_error (this _)]

example : (∀ e ∈ [Ext.supportedVersionsResp 0x0303], e.type = 43 →
      ∃ v, e = .supportedVersionsResp v) ∧
    .supportedVersionsResp tls13 ∉ [Ext.supportedVersionsResp 0x0303] := by
  exact ⟨fun e he _ => ⟨_, List.mem_singleton.mp he⟩, by simp [tls13]⟩

/-! ## C37

False of the maximum fragment length: without the extension the client uses 16384, whatever its
configuration (`C37_false`). Likewise X.509 is the certificate type without the extension. -/

/-- What a connected client ended up with. -/
theorem C37_partial {config : Config} {hostname ocsp algs random} {c : Conn}
    (h : Conn.new config hostname ocsp algs random = .ok c) (hside : config.side = .client)
    (ops : List Op) (hst : (runOps E ops c).state = .connected) :
    ∃ nc suite grp, (runOps E ops c).nconfig = some nc ∧
      (nc.cipherSuite = some suite ∧ suite ∈ config.cipherSuites) ∧
      (nc.alpn = some none ∨ ∃ p ∈ config.alpn, nc.alpn = some (some p)) ∧
      (nc.maxFragmentLength = some config.maxFragmentLength ∨ nc.maxFragmentLength = some 16384) ∧
      (∃ t, nc.clientCertificateType = some t ∧ (t = 0 ∨ t ∈ config.certificateTypes)) ∧
      (∃ t, nc.serverCertificateType = some t ∧ (t = 0 ∨ t ∈ config.peerCertificateTypes)) ∧
      nc.keyExchanges = some grp ∧ grp ∈ config.keyExchanges ∧
      ∃ r sid suites exts share r' sid' exts' share',
        offered (runOps E ops c).tr = some (.clientHello r sid suites exts) ∧
        suite ∈ suites ∧ .keyShareReq [(grp, share)] ∈ exts ∧
        .recv (.handshake (.serverHello r' sid' suite exts')) ∈ (runOps E ops c).tr ∧
        .keyShareResp grp share' ∈ exts' := by
  have hi := CliInv.run (E := E) h hside ops
  obtain ⟨exts, nc, h1, h2, h3⟩ := hi.settled (by rw [hst]; rfl)
  obtain ⟨r, sid, suites, exts₁, r', sid', suite, exts', grp, share, nc', k1, k2, k3, k4, k5, k6, k7,
    k8, share', k9⟩ := hi.answer (by rw [hst]; rfl)
  rw [h2] at k3; cases k3
  obtain ⟨pre, hp⟩ := lastHello_split k1
  obtain ⟨-, -, k, grp₁, cookie, ho, -⟩ := hi.trace _ pre hp
  have hsub : suites ⊆ config.cipherSuites := by
    rw [ho.suites]
    rcases ho.config with rfl | ⟨s, g, rfl, hs, _⟩
    · exact fun _ h => h
    · intro x hx
      rw [List.mem_singleton.mp hx]
      exact hs
  have hgrp : grp ∈ config.keyExchanges := by
    obtain ⟨c₁, share₁, hcfg, -, hex⟩ := ho.exts
    have : findExt exts₁ Iana.extKeyShare = some (.keyShareReq [(grp₁, share₁)]) := by
      rw [hex]
      exact findExt_of_mem (x := .keyShareReq [(grp₁, share₁)]) (offer_nodup _ _ _) (by simp)
    rw [k9] at this
    simp only [Option.some.injEq, Ext.keyShareReq.injEq, List.cons.injEq, Prod.mk.injEq, and_true] at this
    rw [this.1]
    obtain ⟨gs, hgs⟩ := ho.group
    rcases ho.config with rfl | ⟨s, g, rfl, _, hg⟩
    · rw [hgs]; exact .head _
    · simp only [retried, List.cons.injEq] at hgs
      rw [← hgs.1]; exact hg
  refine ⟨nc, suite, grp, h2, ⟨k4, hsub k5⟩, ?_, ?_, ?_, ?_, k8, hgrp, r, sid, suites, exts₁, share', r',
    sid', exts', share, offered_of k1, k5, findExt_mem k9, k2, findExt_mem k7⟩
  · rcases h3.alpn with ⟨_, h⟩ | ⟨p, _, hp, h⟩
    · exact .inl h
    · exact .inr ⟨p, hp, h⟩
  · rcases h3.mfl with ⟨_, h⟩ | ⟨_, _, _, h⟩
    · exact .inr h
    · exact .inl h
  · rcases h3.cct with ⟨_, h⟩ | ⟨t, _, ht, h⟩
    · exact ⟨0, h, .inl rfl⟩
    · exact ⟨t, h, .inr ht⟩
  · rcases h3.sct with ⟨_, h⟩ | ⟨t, _, ht, h⟩
    · exact ⟨0, h, .inl rfl⟩
    · exact ⟨t, h, .inr ht⟩

/-- the ALPN client, once connected -/
example : Toy.alpnClient.side = .client ∧
    Conn.new Toy.alpnClient (some ['a']) false [.sha256, .sha384] (List.replicate 32 5) =
      .ok Toy.alpnClient0 ∧
    (runOps Toy.env [.initiate, .drain, .receive Toy.alpnFlight] Toy.alpnClient0).state =
      .connected :=
  ⟨rfl, Toy.alpnClient0_new, Toy.alpn_facts.2.2.2.1⟩

/-- The full claim is false: a client configured for fragments of 512 bytes is connected with fragments
of 16384 bytes. -/
theorem C37_false : ∃ (E : Env) (config : Config) (hostname : Option PyStr) (algs : List HashAlg)
    (random : Bytes) (c : Conn) (ops : List Op) (nc : NConfig), E.Sized ∧ config.side = .client ∧
    config.maxFragmentLength = 512 ∧
    Conn.new config hostname false algs random = .ok c ∧ (runOps E ops c).state = .connected ∧
    (runOps E ops c).nconfig = some nc ∧ nc.maxFragmentLength = some 16384 := by
  obtain ⟨h1, h2⟩ := Toy.small_connected
  rw [Toy.mflOf] at h2
  obtain ⟨nc, h3, h4⟩ := Option.bind_eq_some_iff.mp h2
  exact ⟨Toy.env, Toy.smallClient, _, _, _, Toy.smallClient0, _, nc, Toy.sized, rfl, rfl,
    Toy.smallClient0_new, h1, h3, h4⟩

/-- A client refuses with illegal_parameter (47) a suite it did not offer. -/
theorem C37_refused (hS : E.Seals) (hO : E.Outside) {config : Config}
    {hostname ocsp algs random} {c₀ c' : Conn} {res : Except Exn Unit}
    (hc : Conn.new config hostname ocsp algs random = .ok c₀) (hside : config.side = .client)
    (hm : config.maxFragmentLength ∈ [512, 1024, 2048, 4096, 16384])
    (hl : ∀ s ∈ config.cipherSuites, Limited s) (ops : List Op) {d r sid hh : Bytes} {suite : Nat}
    {exts : List Ext} {new : List Ev} {f : Bool} {ks : List (Nat × Bytes)}
    (hst : (runOps E ops c₀).state = .clientWaitSH f ks hh)
    (h : receiveData E d (runOps E ops c₀) = (res, c')) (hk : shouldRekey c' = .ok false)
    (hn : c'.tr = new ++ (runOps E ops c₀).tr)
    (hx : firstHeard new = some (.handshake (.serverHello r sid suite exts)) ∨
      firstHeard new = some (.handshake (.helloRetryRequest r sid suite exts)))
    {r' sid' : Bytes} {suites : List Nat} {exts' : List Ext}
    (ho : offered (runOps E ops c₀).tr = some (.clientHello r' sid' suites exts'))
    (hno : suite ∉ suites) :
    res = .error (.alert 47) ∧ c'.state = .failed ∧
      ∃ out pre, c'.tr = out ++ (pre ++ (runOps E ops c₀).tr) ∧ AlertOut E 47 out ∧
        sentAlerts pre = [] := by
  have hinv := CliInv.run (E := E) hc hside ops
  obtain ⟨_, _, _, _, _, _, h3, h4, -⟩ := hinv.wait f ks hh hst
  rw [offered_of h3] at ho
  cases ho
  have hp : ∀ c₁, Kept ((runOps E ops c₀).fed d) c₁ → c₁.state = .clientWaitSH f ks hh ∧
      suite ∉ c₁.config.cipherSuites := by
    intro c₁ hkept
    have hcfg : c₁.config = (runOps E ops c₀).config := by rw [hkept.same]; rfl
    exact ⟨by rw [hkept.same]; exact hst, by rw [hcfg]; exact fun hs => hno (h4 hs)⟩
  rcases hx with hx | hx
  · obtain ⟨e, rfl, h1, h2⟩ := receive_refused hS hO hc hm hl ops (by rw [hst]; rfl)
      (by rw [hst]; rfl) h hk hn hx (P := fun e => e = .alert 47) (fun c₁ hkept => by
        refine ⟨_, ?_, rfl⟩
        unfold process
        rw [(hp c₁ hkept).1]
        exact (clientWaitSH_suite (hp c₁ hkept).2).1)
    exact ⟨h1, h2⟩
  · obtain ⟨e, rfl, h1, h2⟩ := receive_refused hS hO hc hm hl ops (by rw [hst]; rfl)
      (by rw [hst]; rfl) h hk hn hx (P := fun e => e = .alert 47) (fun c₁ hkept => by
        refine ⟨_, ?_, rfl⟩
        unfold process
        rw [(hp c₁ hkept).1]
        exact (clientWaitSH_suite (hp c₁ hkept).2).2)
    exact ⟨h1, h2⟩

example : ∃ res c' new r sid suite exts f ks hh r' sid' suites exts',
    Toy.env.Seals ∧ Toy.env.Outside ∧
    Conn.new Toy.clientConfig (some ['a']) false [.sha256, .sha384] (List.replicate 32 5) =
      .ok Toy.client0 ∧ Toy.clientConfig.side = .client ∧
    Toy.clientConfig.maxFragmentLength ∈ [512, 1024, 2048, 4096, 16384] ∧
    (∀ s ∈ Toy.clientConfig.cipherSuites, Limited s) ∧
    Toy.waitingSH = runOps Toy.env [.initiate] Toy.client0 ∧
    Toy.waitingSH.state = .clientWaitSH f ks hh ∧
    receiveData Toy.env Toy.answerCcm Toy.waitingSH = (res, c') ∧
    shouldRekey c' = .ok false ∧ c'.tr = new ++ Toy.waitingSH.tr ∧
    firstHeard new = some (.handshake (.serverHello r sid suite exts)) ∧
    offered Toy.waitingSH.tr =
      some (.clientHello r' sid' suites exts') ∧ suite ∉ suites := by
  obtain ⟨res, c', new, x, h1, h2, h3, h4, h5⟩ := Toy.heard_of Toy.refuse_facts.2.2.1.2.2
  obtain ⟨r, sid, suite, exts, rfl, h6⟩ := Toy.serverHelloIs_of h5
  have ho : ∃ r' sid' exts', offered Toy.waitingSH.tr =
      some (.clientHello r' sid' [0x1303, 0x1302, 0x1301] exts') := by
    have : (match offered Toy.waitingSH.tr with
        | some (.clientHello _ _ suites _) => suites == [0x1303, 0x1302, 0x1301]
        | _ => false) = true := by set_option maxRecDepth 1000000 in decide +kernel
    split at this
    · rename_i h
      rw [h, eq_of_beq this]
      exact ⟨_, _, _, rfl⟩
    · cases this
  obtain ⟨r', sid', exts', ho⟩ := ho
  exact ⟨res, c', new, r, sid, suite, exts, _, _, _, r', sid', _, exts', Toy.seals, Toy.outside,
    Toy.client0_new, rfl, by simp [Toy.clientConfig], Toy.limited, Toy.waitingSH_eq, Toy.refuse_facts.2.2.1.1, h1, h2, h3,
    h4, ho, by rw [eq_of_beq h6]; decide⟩

/-! ## C38 -/

/-- A ServerHello that follows a HelloRetryRequest has its suite and its group, and answers a
ClientHello that has the random of the one that the HelloRetryRequest answered. -/
theorem C38_server (hE : E.Shares) {config : Config} {hostname ocsp algs random} {c : Conn}
    (h : Conn.new config hostname ocsp algs random = .ok c) (hside : config.side = .server)
    (hcheck : config.check = .ok ()) (ops : List Op) {post mid pre : List Ev}
    {rnd sid rnd' sid' : Bytes} {suite suite' : Nat} {exts exts' : List Ext}
    (ht : (runOps E ops c).tr = post ++ .sent (.handshake (.serverHello rnd sid suite exts)) ::
      (mid ++ .sent (.handshake (.helloRetryRequest rnd' sid' suite' exts')) :: pre)) :
    suite = suite' ∧
    (∃ grp share, .keyShareRetry grp ∈ exts' ∧ .keyShareResp grp share ∈ exts) ∧
    ∃ r suites chExts sid₀ suites₀ chExts₀,
      heard (mid ++ .sent (.handshake (.helloRetryRequest rnd' sid' suite' exts')) :: pre) =
        some (.handshake (.clientHello r sid suites chExts)) ∧
      heard pre = some (.handshake (.clientHello r sid₀ suites₀ chExts₀)) := by
  have := (NegInv.run hE h hside hcheck ops).trace _ _ (by rw [ht]; exact List.suffix_append _ _)
  obtain ⟨r, suites, chExts, sid0, suites0, exts0, grp, sch, share, l, theirs, gs, h1, -, -, -, -, -,
    -, h2, -, -, h3, h4⟩ := this
  obtain ⟨h5, h6⟩ := h3 rnd' sid' suite' exts' (by simp)
  refine ⟨h5.symm, ⟨grp, share, ?_, ?_⟩, r, suites, chExts, sid0, suites0, exts0,
    by rw [heard_eq]; exact h1, h4 _ (retryHellos_mem _ _ _ _ _ _)⟩
  · rw [h6]; simp [retryExts]
  · rw [h2]; simp

example : ∃ post mid pre rnd sid suite exts rnd' sid' suite' exts',
    (runOps Toy.env Toy.retryOps Toy.retry0).tr =
      post ++ .sent (.handshake (.serverHello rnd sid suite exts)) ::
      (mid ++ .sent (.handshake (.helloRetryRequest rnd' sid' suite' exts')) :: pre) := by
  obtain ⟨post, rnd, sid, suite, exts, mid, rnd', sid', suite', exts', pre, h⟩ :=
    Toy.helloAfterRetry_of Toy.second_facts.2.2.1
  exact ⟨post, mid, pre, rnd, sid, suite, exts, rnd', sid', suite', exts', h⟩

/-- The second ClientHello must carry the random of the first: otherwise it is refused with
handshake_failure (40) or illegal_parameter (47). -/
theorem C38_server_refused (hE : E.Shares) (hS : E.Seals) (hO : E.Outside) {config : Config}
    {hostname ocsp algs random} {c₀ c' : Conn} {res : Except Exn Unit}
    (hc : Conn.new config hostname ocsp algs random = .ok c₀) (hside : config.side = .server)
    (hcheck : config.check = .ok ())
    (hm : config.maxFragmentLength ∈ [512, 1024, 2048, 4096, 16384])
    (hl : ∀ s ∈ config.cipherSuites, Limited s) (ops : List Op) {d r sid : Bytes} {suites : List Nat}
    {exts : List Ext} {new mid pre₀ : List Ev} {rnd' sid' r₀ sid₀ : Bytes} {suite' : Nat}
    {exts' exts₀ : List Ext} {suites₀ : List Nat}
    (hst : (runOps E ops c₀).state = .serverWaitCH false)
    (hh : (runOps E ops c₀).tr =
      mid ++ .sent (.handshake (.helloRetryRequest rnd' sid' suite' exts')) :: pre₀)
    (h₀ : heard pre₀ = some (.handshake (.clientHello r₀ sid₀ suites₀ exts₀)))
    (h : receiveData E d (runOps E ops c₀) = (res, c')) (hk : shouldRekey c' = .ok false)
    (hn : c'.tr = new ++ (runOps E ops c₀).tr)
    (hx : firstHeard new = some (.handshake (.clientHello r sid suites exts))) (hr : r ≠ r₀) :
    ∃ a, (a = 40 ∨ a = 47) ∧ res = .error (.alert a) ∧ c'.state = .failed ∧
      ∃ out pre, c'.tr = out ++ (pre ++ (runOps E ops c₀).tr) ∧ AlertOut E a out ∧
        sentAlerts pre = [] := by
  have hu : (runOps E ops c₀).clientUnique = some r₀ := by
    cases (NegInv.run hE hc hside hcheck ops).state with
    | plain hp => exact absurd hst hp.state
    | bound hb =>
      have := hb.asked _ (by rw [hh]; exact retryHellos_mem mid rnd' sid' suite' exts' pre₀)
      rw [h₀] at this
      cases this
      exact hb.random
  obtain ⟨e, ⟨a, rfl, ha⟩, h1, h2⟩ := receive_refused hS hO hc hm hl ops (by rw [hst]; rfl)
    (by rw [hst]; rfl) h hk hn hx (P := fun e => ∃ a, e = .alert a ∧ (a = 40 ∨ a = 47))
    (fun c₁ hkept => by
      have hst₁ : c₁.state = .serverWaitCH false := by rw [hkept.same]; exact hst
      have hu₁ : c₁.clientUnique = some r₀ := by rw [hkept.same]; exact hu
      unfold process
      rw [hst₁]
      obtain ⟨a, h3, h4⟩ := serverWaitCH_random (E := E) (c := c₁) (r := r) (sid := sid)
        (suites := suites) (exts := exts) (by rw [hu₁]; simpa using hr)
      exact ⟨_, h3, a, rfl, h4⟩)
  exact ⟨a, ha, h1, h2⟩

example : ∃ res c' new r sid suites exts mid pre₀ rnd' sid' suite' exts' r₀ sid₀ suites₀ exts₀,
    Toy.env.Shares ∧ Toy.env.Seals ∧ Toy.env.Outside ∧
    Conn.new Toy.retryConfig none false [.sha256] (List.replicate 32 6) = .ok Toy.retry0 ∧
    Toy.retryConfig.side = .server ∧ Toy.retryConfig.check = .ok () ∧
    Toy.retryConfig.maxFragmentLength ∈ [512, 1024, 2048, 4096, 16384] ∧
    (∀ s ∈ Toy.retryConfig.cipherSuites, Limited s) ∧
    Toy.waiting2 = runOps Toy.env [.initiate, .receive Toy.hello] Toy.retry0 ∧
    Toy.waiting2.state = .serverWaitCH false ∧
    Toy.waiting2.tr = mid ++ .sent (.handshake (.helloRetryRequest rnd' sid' suite' exts')) :: pre₀ ∧
    heard pre₀ = some (.handshake (.clientHello r₀ sid₀ suites₀ exts₀)) ∧
    receiveData Toy.env Toy.otherHello2 Toy.waiting2 = (res, c') ∧ shouldRekey c' = .ok false ∧
    c'.tr = new ++ Toy.waiting2.tr ∧
    firstHeard new = some (.handshake (.clientHello r sid suites exts)) ∧ r ≠ r₀ := by
  obtain ⟨res, c', new, x, h1, h2, h3, h4, h5⟩ := Toy.heard_of Toy.refuse_facts.2.1.2.1
  obtain ⟨r, sid, suites, exts, rfl, h6⟩ := Toy.clientHelloIs_of h5
  obtain ⟨mid, rnd', sid', suite', exts', pre₀, h7⟩ := Toy.split_retry Toy.refuse_facts.2.1.2.2
  obtain ⟨-, r₀, suites₀, exts₀, h8, -⟩ := C36_retry Toy.shares Toy.retry0_new rfl
    Toy.retryConfig_check [.initiate, .receive Toy.hello] (by rw [← Toy.waiting2_eq]; exact h7)
  refine ⟨res, c', new, r, sid, suites, exts, mid, pre₀, rnd', sid', suite', exts', r₀, sid', suites₀,
    exts₀, Toy.shares, Toy.seals, Toy.outside, Toy.retry0_new, rfl, Toy.retryConfig_check,
    by simp [Toy.retryConfig, Toy.serverConfig], Toy.serverLimited, Toy.waiting2_eq,
    Toy.refuse_facts.2.1.1, h7, h8, h1, h2, h3, h4, ?_⟩
  have h9 := List.all_eq_true.mp Toy.second_facts.2.2.2
    (.recv (.handshake (.clientHello r₀ sid' suites₀ exts₀)))
    (by rw [h7]; exact List.mem_append_right _ (.tail _ (heard_mem h8)))
  rw [eq_of_beq h6, eq_of_beq h9]
  decide

/-- Every ClientHello of a client has the same random; one that answers a HelloRetryRequest offers
its suite only and one share, of its group. -/
theorem C38_client_hello {config : Config} {hostname ocsp algs random} {c : Conn}
    (h : Conn.new config hostname ocsp algs random = .ok c) (hside : config.side = .client)
    (ops : List Op) {post pre : List Ev} {r sid : Bytes} {suites : List Nat} {exts : List Ext}
    (ht : (runOps E ops c).tr = post ++ .sent (.handshake (.clientHello r sid suites exts)) :: pre) :
    r = random ∧ ∀ rnd' sid' suite' exts',
      heard pre = some (.handshake (.helloRetryRequest rnd' sid' suite' exts')) →
      suites = [suite'] ∧
      ∃ grp share, .keyShareRetry grp ∈ exts' ∧ ∀ l, .keyShareReq l ∈ exts ↔ l = [(grp, share)] := by
  have := (CliInv.run (E := E) h hside ops).trace _ _ (by rw [ht]; exact List.suffix_append _ _)
  obtain ⟨h1, -, k, grp, cookie, ho, -, h2⟩ := this
  refine ⟨h1, fun rnd' sid' suite' exts' hp => ?_⟩
  obtain ⟨h3, -, -, h4⟩ := h2 rnd' sid' suite' exts' (by rw [← heard_eq]; exact hp)
  obtain ⟨c₁, share, -, -, h5⟩ := ho.exts
  refine ⟨h3, grp, share, findExt_mem h4, fun l => ?_⟩
  have hu := offer_nodup (E := E) c₁ cookie [(grp, share)]
  rw [← h5] at hu
  have hm : Ext.keyShareReq [(grp, share)] ∈ exts := by rw [h5]; simp
  constructor
  · intro hl
    have e1 := findExt_of_mem hu hl
    have e2 := findExt_of_mem hu hm
    exact (by simpa using e1.symm.trans e2)
  · rintro rfl
    exact hm

/-- A client that goes on after a ServerHello, its last ClientHello answering a HelloRetryRequest,
uses the suite and the group of that HelloRetryRequest, which the ServerHello has too. -/
theorem C38_client {config : Config} {hostname ocsp algs random} {c : Conn}
    (h : Conn.new config hostname ocsp algs random = .ok c) (hside : config.side = .client)
    (ops : List Op) (hst : (runOps E ops c).state.answered = true) {post pre : List Ev}
    {r sid rnd' sid' : Bytes} {suites : List Nat} {exts exts' : List Ext} {suite' : Nat}
    (ht : (runOps E ops c).tr = post ++ .sent (.handshake (.clientHello r sid suites exts)) :: pre)
    (hlast : offered post = none)
    (hp : heard pre = some (.handshake (.helloRetryRequest rnd' sid' suite' exts'))) :
    ∃ nc grp share a b e, (runOps E ops c).nconfig = some nc ∧ nc.cipherSuite = some suite' ∧
      nc.keyExchanges = some grp ∧ .keyShareRetry grp ∈ exts' ∧
      .recv (.handshake (.serverHello a b suite' e)) ∈ (runOps E ops c).tr ∧
      .keyShareResp grp share ∈ e := by
  obtain ⟨-, h2⟩ := C38_client_hello h hside ops ht
  obtain ⟨rfl, grp₀, share₀, h3, h4⟩ := h2 _ _ _ _ hp
  obtain ⟨r₁, sid₁, suites₁, exts₁, r', sid', suite, exts', grp, share, nc, k1, k2, k3, k4, k5, k6, k7,
    k8, share', k9⟩ := (CliInv.run (E := E) h hside ops).answer hst
  have ho := offered_of k1
  rw [ht, offered_skip hlast] at ho
  cases ho
  cases List.mem_singleton.mp k5
  cases (h4 _).mp (findExt_mem k9)
  exact ⟨nc, grp₀, share, r', sid', exts', k3, k4, k8, h3, k2, findExt_mem k7⟩

/-- the toy client that received a HelloRetryRequest, then a ServerHello -/
example : ∃ post pre r sid suites exts rnd' sid' suite' exts',
    Conn.new Toy.clientConfig (some ['a']) false [.sha256, .sha384] (List.replicate 32 5) =
      .ok Toy.client0 ∧ Toy.clientConfig.side = .client ∧
    Toy.answered2 = runOps Toy.env [.initiate, .receive Toy.retry, .receive Toy.answer2] Toy.client0 ∧
    Toy.answered2.state.answered = true ∧
    Toy.answered2.tr = post ++ .sent (.handshake (.clientHello r sid suites exts)) :: pre ∧
    offered post = none ∧
    heard pre = some (.handshake (.helloRetryRequest rnd' sid' suite' exts')) := by
  obtain ⟨post, r, sid, suites, exts, pre, rnd', sid', suite', exts', h1, h2, h3⟩ :=
    Toy.secondHello_of Toy.second_facts.2.1
  exact ⟨post, pre, r, sid, suites, exts, rnd', sid', suite', exts', Toy.client0_new, rfl,
    Toy.answered2_eq, by rw [Toy.second_facts.1]; rfl, h1, h2, h3⟩

/-! ## C39

False of the code: a client never sends the extension, whatever its configuration (`C39_silent`). It
uses its own length until EncryptedExtensions, then 16384, so that a client for 512 fails with a
server that fills its records (`C39_false`) and is connected with 16384 otherwise (`C37_false`). -/

/-- A client for fragments of 512 bytes and a server, both with checked configurations, exchange what
they send: the client fails on the server's answer. -/
theorem C39_false : ∃ (E : Env) (kc ks : Config) (hostname : Option PyStr) (algs algs' : List HashAlg)
    (random random' : Bytes) (c s : Conn) (d d' : Bytes), E.Sized ∧ kc.side = .client ∧
    ks.side = .server ∧ kc.maxFragmentLength = 512 ∧ kc.check = .ok () ∧ ks.check = .ok () ∧
    Conn.new kc hostname false algs random = .ok c ∧ Conn.new ks none false algs' random' = .ok s ∧
    (runOps E [.initiate] c).outputData = d ∧
    (runOps E [.initiate, .receive d] s).outputData = d' ∧
    (runOps E [.initiate, .drain, .receive d'] c).state = .failed := by
  exact ⟨Toy.env, Toy.smallClient, Toy.serverConfig, _, _, _, _, _, Toy.smallClient0, Toy.server0,
    Toy.hello, Toy.bigFlight, Toy.sized, rfl, rfl, rfl, Toy.smallClient_check, Toy.serverConfig_check,
    Toy.smallClient0_new, Toy.server0_new, Toy.small_hello, Toy.small_flight, Toy.small_failed⟩

/-- A client never asks for a maximum fragment length. -/
theorem C39_silent {config : Config} {hostname ocsp algs random} {c : Conn}
    (h : Conn.new config hostname ocsp algs random = .ok c) (hside : config.side = .client)
    (ops : List Op) {r sid : Bytes} {suites : List Nat} {exts : List Ext}
    (ht : .sent (.handshake (.clientHello r sid suites exts)) ∈ (runOps E ops c).tr)
    (code : Nat) : .maxFragmentLength code ∉ exts := by
  obtain ⟨post, pre, ht⟩ := List.append_of_mem ht
  have := (CliInv.run (E := E) h hside ops).trace _ pre (by rw [ht]; exact List.suffix_append _ _)
  obtain ⟨-, -, k, grp, cookie, ho, -⟩ := this
  exact ho.plain code

/-- What is true: a connected server uses the length asked for in the hello it answered with its
Finished, and 16384 if that asked for none. -/
theorem C39_server_partial (hE : E.Shares) {config : Config} {hostname ocsp algs random} {c : Conn}
    (h : Conn.new config hostname ocsp algs random = .ok c) (hside : config.side = .server)
    (hcheck : config.check = .ok ()) (ops : List Op) (hst : (runOps E ops c).state = .connected) :
    ∃ nc post mac pre r sid suites exts, (runOps E ops c).nconfig = some nc ∧
      (runOps E ops c).tr = post ++ .sent (.handshake (.finished mac)) :: pre ∧
      heard pre = some (.handshake (.clientHello r sid suites exts)) ∧
      (((∀ code, .maxFragmentLength code ∉ exts) ∧ nc.maxFragmentLength = some 16384) ∨
        ∃ code, .maxFragmentLength code ∈ exts ∧
          ∀ n, fragmentOf code = some n → nc.maxFragmentLength = some n) := by
  obtain ⟨r, sid, suites, exts, enc, nc, ⟨post, mac, pre, h1, h0⟩, h2, h3⟩ :=
    (NegInv.run hE h hside hcheck ops).done (by rw [hst]; rfl)
  obtain ⟨e1, e2, e3, e4, e5, -, -, -, hm, -, -⟩ := h3.parts
  refine ⟨nc, post, mac, pre, r, sid, suites, exts, h2, h1, by rw [heard_eq]; exact h0, ?_⟩
  rcases hm with ⟨h4, h5, -⟩ | ⟨code, h4, h5, -⟩
  · exact .inl ⟨fun code hc => findExt_none h4 hc rfl, by rw [h5, check_mfl hside hcheck]⟩
  · exact .inr ⟨code, findExt_mem h4, fun n hn => by rw [h5, fragmentOf_eq hn]⟩

/-- A server echoes what the client asked for. -/
theorem C39_server_echo (hE : E.Shares) {config : Config} {hostname ocsp algs random} {c : Conn}
    (h : Conn.new config hostname ocsp algs random = .ok c) (hside : config.side = .server)
    (hcheck : config.check = .ok ()) (ops : List Op) {post pre : List Ev} {exts : List Ext}
    (ht : (runOps E ops c).tr = post ++ .sent (.handshake (.encryptedExtensions exts)) :: pre) :
    ∃ r sid suites chExts, heard pre = some (.handshake (.clientHello r sid suites chExts)) ∧
      (((∀ code, .maxFragmentLength code ∉ chExts) ∧ ∀ q, .maxFragmentLength q ∉ exts) ∨
        ∃ code, .maxFragmentLength code ∈ chExts ∧ ∀ q, .maxFragmentLength q ∈ exts ↔ q = code) := by
  have := (NegInv.run hE h hside hcheck ops).trace _ pre (by rw [ht]; exact List.suffix_append _ _)
  obtain ⟨r, sid, suites, chExts, nc, enc, h1, h2, h3⟩ := this
  refine ⟨r, sid, suites, chExts, by rw [heard_eq]; exact h1, ?_⟩
  rw [h2.dict] at h3
  subst h3
  rcases h2.mfl_cases with ⟨h4, h5⟩ | ⟨code, h4, h5⟩
  · exact .inl ⟨fun l hl => findExt_none h4 hl rfl, h5⟩
  · exact .inr ⟨code, findExt_mem h4, h5⟩

/-- A connected client uses the length that the server announced, which is its own, and 16384 if the
server announced none. -/
theorem C39_client_partial {config : Config} {hostname ocsp algs random} {c : Conn}
    (h : Conn.new config hostname ocsp algs random = .ok c) (hside : config.side = .client)
    (ops : List Op) (hst : (runOps E ops c).state = .connected) :
    ∃ nc exts, (runOps E ops c).nconfig = some nc ∧
      .recv (.handshake (.encryptedExtensions exts)) ∈ (runOps E ops c).tr ∧
      (((∀ code, .maxFragmentLength code ∉ exts) ∧ nc.maxFragmentLength = some 16384) ∨
        ∃ code, .maxFragmentLength code ∈ exts ∧
          nc.maxFragmentLength = some config.maxFragmentLength ∧
          ∀ n, fragmentOf code = some n → nc.maxFragmentLength = some n) := by
  obtain ⟨exts, nc, h1, h2, h3⟩ := (CliInv.run (E := E) h hside ops).settled (by rw [hst]; rfl)
  refine ⟨nc, exts, h2, h1, ?_⟩
  rcases h3.mfl with ⟨h4, h5⟩ | ⟨code, h4, h5, h6⟩
  · exact .inl ⟨fun code hc => findExt_none h4 hc rfl, h5⟩
  · exact .inr ⟨code, findExt_mem h4, h6, fun n hn => by rw [h6, ← h5, fragmentOf_eq hn]⟩

/-! ## C40 -/

/-- A ServerHello has the session id of the ClientHello it answers. -/
theorem C40_hello (hE : E.Shares) {config : Config} {hostname ocsp algs random} {c : Conn}
    (h : Conn.new config hostname ocsp algs random = .ok c) (hside : config.side = .server)
    (hcheck : config.check = .ok ()) (ops : List Op) {post pre : List Ev} {rnd sid : Bytes}
    {suite : Nat} {exts : List Ext} (ht : (runOps E ops c).tr =
      post ++ .sent (.handshake (.serverHello rnd sid suite exts)) :: pre) :
    ∃ r suites chExts, heard pre = some (.handshake (.clientHello r sid suites chExts)) := by
  obtain ⟨-, r, suites, chExts, h1, -⟩ := C36_hello hE h hside hcheck ops ht
  exact ⟨r, suites, chExts, h1⟩

/-- So has a HelloRetryRequest. -/
theorem C40_retry (hE : E.Shares) {config : Config} {hostname ocsp algs random} {c : Conn}
    (h : Conn.new config hostname ocsp algs random = .ok c) (hside : config.side = .server)
    (hcheck : config.check = .ok ()) (ops : List Op) {post pre : List Ev} {rnd sid : Bytes}
    {suite : Nat} {exts : List Ext} (ht : (runOps E ops c).tr =
      post ++ .sent (.handshake (.helloRetryRequest rnd sid suite exts)) :: pre) :
    ∃ r suites chExts, heard pre = some (.handshake (.clientHello r sid suites chExts)) := by
  obtain ⟨-, r, suites, chExts, h1, -⟩ := C36_retry hE h hside hcheck ops ht
  exact ⟨r, suites, chExts, h1⟩

/-- False of a client: the session id of a ServerHello (or HelloRetryRequest) makes no difference. -/
theorem C40_ignored (f : Bool) (ks : List (Nat × Bytes)) (hh r sid sid' : Bytes) (suite : Nat)
    (exts : List Ext) (c : Conn) :
    clientWaitSH E f ks hh (.handshake (.serverHello r sid suite exts)) c =
      clientWaitSH E f ks hh (.handshake (.serverHello r sid' suite exts)) c ∧
    clientWaitSH E f ks hh (.handshake (.helloRetryRequest r sid suite exts)) c =
      clientWaitSH E f ks hh (.handshake (.helloRetryRequest r sid' suite exts)) c :=
  ⟨rfl, rfl⟩

/-- The full claim is false: a client whose ClientHello had an empty session id goes on after a
ServerHello with the session id 1, 2, 3. -/
theorem C40_false : ∃ (E : Env) (config : Config) (hostname : Option PyStr) (algs : List HashAlg)
    (random : Bytes) (c : Conn) (d : Bytes), E.Sized ∧ config.side = .client ∧
    Conn.new config hostname false algs random = .ok c ∧
    (∃ r suites exts, offered (runOps E [.initiate, .receive d] c).tr =
      some (.clientHello r [] suites exts)) ∧
    (∃ rnd suite exts, heard (runOps E [.initiate, .receive d] c).tr =
      some (.handshake (.serverHello rnd [1, 2, 3] suite exts))) ∧
    (runOps E [.initiate, .receive d] c).state = .clientWaitEE := by
  have key : (match offered (runOps Toy.env [.initiate, .receive Toy.answerSid] Toy.client0).tr with
        | some (.clientHello _ sid _ _) => sid == []
        | _ => false) = true ∧
      (match heard (runOps Toy.env [.initiate, .receive Toy.answerSid] Toy.client0).tr with
        | some (.handshake (.serverHello _ sid _ _)) => sid == [1, 2, 3]
        | _ => false) = true ∧
      (runOps Toy.env [.initiate, .receive Toy.answerSid] Toy.client0).state = .clientWaitEE := by
    set_option maxRecDepth 1000000 in decide +kernel
  obtain ⟨h1, h2, h3⟩ := key
  refine ⟨Toy.env, Toy.clientConfig, _, _, _, Toy.client0, Toy.answerSid, Toy.sized, rfl,
    Toy.client0_new, ?_, ?_, h3⟩
  · split at h1
    · rename_i h
      rw [h, eq_of_beq h1]
      exact ⟨_, _, _, rfl⟩
    · cases h1
  · split at h2
    · rename_i h
      rw [h, eq_of_beq h2]
      exact ⟨_, _, _, rfl⟩
    · cases h2

end Siotls
