import Verif.Proofs.NegInv
import Verif.Proofs.OrderInv
import Verif.Proofs.RunClient
import Verif.Proofs.Handshakes
/-!
# What a client offers and what it accepts
-/

namespace Siotls

variable {E : Env} {G : Conn → Prop}

/-- the newest ClientHello sent -/
def lastHello : List Ev → Option (Bytes × Bytes × List Nat × List Ext)
  | [] => none
  | .sent (.handshake (.clientHello r sid suites exts)) :: _ => some (r, sid, suites, exts)
  | _ :: l => lastHello l

theorem lastHello_append {l tr : List Ev} (h : ∀ e ∈ l, ∀ x, e ≠ .sent x) :
    lastHello (l ++ tr) = lastHello tr := by
  induction l with
  | nil => rfl
  | cons e l ih =>
    have h1 := h e (.head _)
    have ih := ih fun e he => h e (.tail _ he)
    cases e with
    | sent x => exact absurd rfl (h1 x)
    | _ => exact ih

theorem lastHello_other {x : Content} {tr : List Ev}
    (h : ∀ r sid suites exts, x ≠ .handshake (.clientHello r sid suites exts)) :
    lastHello (.sent x :: tr) = lastHello tr := by
  cases x with
  | handshake m =>
    cases m with
    | clientHello r sid suites exts => exact absurd rfl (h r sid suites exts)
    | _ => rfl
  | _ => rfl

/-- the configuration after a HelloRetryRequest -/
def retried (g : Config) (s grp : Nat) : Config :=
  { g with cipherSuites := [s], keyExchanges := [grp] }

/-- the configuration was narrowed to a suite and a group -/
structure Narrow (g : Config) (s grp : Nat) (c : Conn) : Prop where
  config : c.config = retried g s grp
  suite : s ∈ g.cipherSuites
  group : grp ∈ g.keyExchanges
  nconfig : ∃ nc, c.nconfig = some nc ∧ nc.cipherSuite = some s
  heard : ∃ a b s e, Ev.recv (.handshake (.helloRetryRequest a b s e)) ∈ c.tr

/-- a ClientHello offering a share of one group -/
def Shares (exts : List Ext) (grp : Nat) : Prop :=
  ∃ share, findExt exts Iana.extKeyShare = some (.keyShareReq [(grp, share)])

/-- what a client offers -/
structure OfferOk (E : Env) (g : Config) (hostname : Option PyStr) (k : Config) (suites : List Nat)
    (exts : List Ext) (grp : Nat) (cookie : Option Bytes) : Prop where
  suites : suites = k.cipherSuites
  group : ∃ gs, k.keyExchanges = grp :: gs
  exts : ∃ (c₁ : Conn) (share : Bytes), c₁.config = k ∧
    c₁.hostname = hostname ∧ exts = clientExtensions E c₁ cookie ++ [.keyShareReq [(grp, share)]]
  config : k = g ∨ ∃ s grp, k = retried g s grp ∧ s ∈ g.cipherSuites ∧ grp ∈ g.keyExchanges

/-- what is known when a ClientHello is sent, `pre` being what happened before -/
def OfferedOk (E : Env) (g : Config) (hostname : Option PyStr) (rnd : Bytes) :
    Ev → List Ev → Prop
  | .sent (.handshake (.clientHello r sid suites exts)), pre =>
    r = rnd ∧ sid = [] ∧ ∃ k grp cookie, OfferOk E g hostname k suites exts grp cookie ∧
      ((∀ a b s e, Ev.recv (.handshake (.helloRetryRequest a b s e)) ∉ pre) →
        k = g ∧ cookie = none) ∧
      ∀ a b s e, lastRecv pre = some (.handshake (.helloRetryRequest a b s e)) →
        suites = [s] ∧ k = retried g s grp ∧ cookieOf e = .ok cookie ∧
        findExt e Iana.extKeyShare = some (.keyShareRetry grp)
  | _, _ => True

/-- states of a client that has the handshake keys -/
def St.answered : St → Bool
  | .clientWaitEE | .clientWaitCertCr | .clientWaitCert _ | .clientWaitCV .. | .clientWaitFin ..
  | .connected => true
  | _ => false

/-- states of a client that processed EncryptedExtensions -/
def St.agreed : St → Bool
  | .clientWaitCertCr | .clientWaitCert _ | .clientWaitCV .. | .clientWaitFin .. | .connected => true
  | _ => false

structure CliInv (E : Env) (g : Config) (hostname : Option PyStr) (rnd : Bytes) (c : Conn) :
    Prop where
  random : c.clientUnique = some rnd
  cfg : c.config = g ∨ ∃ s grp, Narrow g s grp c
  suite : ∀ nc, c.nconfig = some nc → ∃ s ∈ c.config.cipherSuites, nc.cipherSuite = some s
  again : (∃ k, c.state = .clientStart k) ∧ c.nconfig ≠ none ∨
    (∃ ks h, c.state = .clientWaitSH false ks h) → ∃ s grp, Narrow g s grp c
  said : ∀ cookie r sid suites exts, c.state = .clientStart cookie →
    c.tr.head? = some (.sent (.handshake (.clientHello r sid suites exts))) →
    suites = c.config.cipherSuites ∧
    ∃ grp gs, c.config.keyExchanges = grp :: gs ∧ Shares exts grp
  wait : ∀ f ks h, c.state = .clientWaitSH f ks h → ∃ r sid suites exts grp priv,
    lastHello c.tr = some (r, sid, suites, exts) ∧ c.config.cipherSuites ⊆ suites ∧
    ks = [(grp, priv)] ∧ Shares exts grp
  retry : ∀ cookie a b s e, c.state = .clientStart cookie → c.transcript.orderI ≤ 2 →
    lastRecv c.tr = some (.handshake (.helloRetryRequest a b s e)) →
    cookieOf e = .ok cookie ∧ ∃ grp, c.config = retried g s grp ∧
      findExt e Iana.extKeyShare = some (.keyShareRetry grp)
  answer : c.state.answered = true → ∃ r sid suites exts r' sid' suite exts' grp share nc,
    lastHello c.tr = some (r, sid, suites, exts) ∧
    Ev.recv (.handshake (.serverHello r' sid' suite exts')) ∈ c.tr ∧ c.nconfig = some nc ∧
    nc.cipherSuite = some suite ∧ suite ∈ suites ∧
    findExt exts' Iana.extSupportedVersions = some (.supportedVersionsResp Iana.tls13) ∧
    findExt exts' Iana.extKeyShare = some (.keyShareResp grp share) ∧
    nc.keyExchanges = some grp ∧ Shares exts grp
  settled : c.state.agreed = true → ∃ exts nc,
    Ev.recv (.handshake (.encryptedExtensions exts)) ∈ c.tr ∧ c.nconfig = some nc ∧
    ExtsOk g exts nc
  trace : Trace (OfferedOk E g hostname rnd) c.tr
  first : ∀ cookie, c.state = .clientStart (some cookie) →
    ∃ a b s e, Ev.recv (.handshake (.helloRetryRequest a b s e)) ∈ c.tr

theorem Narrow.mute {g : Config} {s grp : Nat} {c c' : Conn} (h : Narrow g s grp c)
    (hcfg : c'.config = c.config) (hnc : c'.nconfig = c.nconfig) (hsuf : c.tr <:+ c'.tr) :
    Narrow g s grp c' := by
  refine ⟨hcfg.trans h.config, h.suite, h.group, by rw [hnc]; exact h.nconfig, ?_⟩
  obtain ⟨a, b, s, e, hm⟩ := h.heard
  exact ⟨a, b, s, e, hsuf.subset hm⟩

theorem Trace.unsaid {g : Config} {hostname rnd} {tr : List Ev}
    (h : Trace (OfferedOk E g hostname rnd) tr) (l : List Ev)
    (hl : ∀ e ∈ l, ∀ x, e ≠ .sent x) : Trace (OfferedOk E g hostname rnd) (l ++ tr) := by
  refine h.append fun l₁ e l₂ he => ?_
  have := hl e (by rw [he]; simp)
  cases e with
  | sent x => exact absurd rfl (this x)
  | _ => trivial

/-- steps that touch neither the state nor the configuration and send nothing -/
theorem CliInv.mute {g : Config} {hostname rnd} {c c' : Conn} (h : CliInv E g hostname rnd c)
    (hcfg : c'.config = c.config) (hst : c'.state = c.state) (hnc : c'.nconfig = c.nconfig)
    (hcu : c'.clientUnique = c.clientUnique)
    (l : List Ev) (htr : c'.tr = l ++ c.tr) (hl : ∀ e ∈ l, ∀ x, e ≠ .sent x)
    (ho : ∀ k, c.state = .clientStart k → c'.transcript.orderI ≤ 2 →
      (∃ a b s e, lastRecv c'.tr = some (.handshake (.helloRetryRequest a b s e))) →
      c.transcript.orderI ≤ 2 ∧ lastRecv c'.tr = lastRecv c.tr) :
    CliInv E g hostname rnd c' := by
  have hsuf : c.tr <:+ c'.tr := by rw [htr]; exact List.suffix_append _ _
  have hlast : lastHello c'.tr = lastHello c.tr := by rw [htr, lastHello_append hl]
  refine ⟨hcu.trans h.random, ?_, ?_, ?_, ?_, ?_, ?_, ?_, ?_, ?_, ?_⟩
  · rw [hcfg]
    exact h.cfg.imp id fun ⟨s, grp, hn⟩ => ⟨s, grp, hn.mute hcfg hnc hsuf⟩
  · rw [hnc, hcfg]; exact h.suite
  · rw [hst, hnc]
    exact fun hx => (h.again hx).imp fun s ⟨grp, hn⟩ => ⟨grp, hn.mute hcfg hnc hsuf⟩
  · rw [hst, hcfg, htr]
    intro cookie r sid suites exts h1 h2
    cases l with
    | nil => exact h.said cookie r sid suites exts h1 h2
    | cons e l =>
      simp only [List.cons_append, List.head?_cons, Option.some.injEq] at h2
      exact absurd h2 (hl e (.head _) _)
  · rw [hst, hcfg, hlast]; exact h.wait
  · rw [hst, hcfg]
    intro cookie a b s e h1 h2 h3
    obtain ⟨h4, h5⟩ := ho cookie h1 h2 ⟨a, b, s, e, h3⟩
    exact h.retry cookie a b s e h1 h4 (by rw [← h5]; exact h3)
  · rw [hst, hnc, hlast]
    intro hx
    obtain ⟨r, sid, suites, exts, r', sid', suite, exts', grp, share, nc, h1, h2, h3⟩ := h.answer hx
    exact ⟨r, sid, suites, exts, r', sid', suite, exts', grp, share, nc, h1, hsuf.subset h2, h3⟩
  · rw [hst, hnc]
    intro hx
    obtain ⟨exts, nc, h1, h2⟩ := h.settled hx
    exact ⟨exts, nc, hsuf.subset h1, h2⟩
  · rw [htr]; exact h.trace.unsaid l hl
  · rw [hst]
    intro cookie hk
    obtain ⟨a, b, s, e, hm⟩ := h.first cookie hk
    exact ⟨a, b, s, e, hsuf.subset hm⟩

theorem offer_nodup (c : Conn) (cookie : Option Bytes) (l : List (Nat × Bytes)) :
    ((clientExtensions E c cookie ++ [Ext.keyShareReq l]).map Ext.type).Nodup := by
  unfold clientExtensions
  have key : ∀ (a b : List Ext) (p q r s : Bool), (a = [] ∨ ∃ x, a = [Ext.serverNameReq x]) →
      (b = [] ∨ ∃ x, b = [Ext.cookie x]) →
      (([Ext.supportedVersionsReq [Iana.tls13],
        .signatureAlgorithms c.config.signatureAlgorithms,
        .supportedGroups c.config.keyExchanges,
        .heartbeat (if c.config.canEchoHeartbeat then Iana.peerAllowedToSend
                    else Iana.peerNotAllowedToSend)] ++ a ++
        (if p then [] else [Ext.alpn c.config.alpn]) ++
        (if q then [Ext.clientCertTypeReq c.config.certificateTypes] else []) ++
        (if r then [] else [Ext.serverCertTypeReq c.config.peerCertificateTypes]) ++
        (if s then [Ext.ocspStatusReq [] []] else []) ++ b ++ [Ext.keyShareReq l]).map Ext.type).Nodup := by
    intro a b p q r s ha hb
    rcases ha with rfl | ⟨x, rfl⟩ <;> rcases hb with rfl | ⟨y, rfl⟩ <;>
    cases p <;> cases q <;> cases r <;> cases s <;> simp [Ext.type] <;> decide
  refine key _ _ _ _ _ _ ?_ ?_
  · split
    · split
      · exact .inl rfl
      · exact .inr ⟨_, rfl⟩
    · exact .inl rfl
  · split
    · split
      · exact .inl rfl
      · exact .inr ⟨_, rfl⟩
    · exact .inl rfl

theorem findExt_of_mem {l : List Ext} {x : Ext} (h : (l.map Ext.type).Nodup) (hx : x ∈ l) :
    findExt l x.type = some x := by
  unfold findExt
  induction l with
  | nil => cases hx
  | cons e l ih =>
    rw [List.map_cons, List.nodup_cons] at h
    rcases List.mem_cons.mp hx with rfl | hx
    · simp
    · rw [List.find?_cons_of_neg]
      · exact ih h.2 hx
      · intro he
        exact h.1 (List.mem_map.mpr ⟨x, hx, by simpa using (of_decide_eq_true he).symm⟩)

theorem offer_shares (c : Conn) (cookie : Option Bytes) (grp : Nat) (share : Bytes) :
    Shares (clientExtensions E c cookie ++ [.keyShareReq [(grp, share)]]) grp :=
  ⟨share, findExt_of_mem (x := .keyShareReq [(grp, share)]) (offer_nodup c cookie _) (by simp)⟩

/-- what a client's hello contains when its sending starts -/
theorem hello_facts {c₀ : Conn} {r sid : Bytes} {suites : List Nat} {exts : List Ext}
    (h : HsGuard E c₀ (.clientHello r sid suites exts)) :
    ∃ cookie, c₀.state = .clientStart cookie ∧ c₀.clientUnique = some r ∧ sid = [] ∧
    suites = c₀.config.cipherSuites ∧ ∃ grp gs share, c₀.config.keyExchanges = grp :: gs ∧
      exts = clientExtensions E c₀ cookie ++ [.keyShareReq [(grp, share)]] := by
  obtain ⟨cookie, grp, gs, random, d, priv, share, h1, h2, h3, -, -, h6⟩ := h
  have := mkClientHello_form h6
  cases this
  refine ⟨cookie, h1, h2, rfl, rfl, grp, gs, share, h3, ?_⟩
  exact dictOfExts_eq_of_nodup _ (offer_nodup _ _ _)

/-- the order table refuses a hello of the client but in its place -/
theorem hello_place {c₀ c : Conn} {r sid : Bytes} {suites : List Nat} {exts : List Ext} {records}
    (hctx : SendCtx E c₀ (.handshake (.clientHello r sid suites exts)) records c)
    (ho : ClientOrder c) (hi : SideInv .client c) {k} (hst : c.state = .clientStart k) :
    c.transcript.orderI ≤ 2 := by
  have hside : c₀.config.side = .client := by
    have := hi.config
    rw [hctx.same] at this; exact this
  obtain ⟨data, _, hu, _⟩ := hctx.data
  obtain ⟨b, hu⟩ := hu _ rfl
  rw [hside] at hu
  have hl := ho.last
  have hv := update_view hu
  generalize c.transcript = t at hv hl ⊢
  cases hv with
  | over h12 => have := hl h12; rw [hst] at this; cases this
  | taken h1 h2 h3 => have := (place_kind h3).1 rfl; subst this; exact le_refl _

theorem NcUpd.agreed {c : Conn} {o n : NConfig} {g : Config} {exts : List Ext}
    (h : NcUpd E c o n) (hf : c.state.agreed = true) (ho : ExtsOk g exts o) :
    ExtsOk g exts n := by
  have h1 : c.state ≠ .clientWaitEE := by rintro h; rw [h] at hf; cases hf
  have h2 : ∀ f, c.state ≠ .serverWaitCH f := by rintro f h; rw [h] at hf; cases hf
  have e1 : n.alpn = o.alpn := by
    rcases h.alpn with h | ⟨h | ⟨f, h⟩, _⟩
    · exact h
    · exact absurd h h1
    · exact absurd h (h2 f)
  have e2 : n.maxFragmentLength = o.maxFragmentLength := by
    rcases h.mfl with h | ⟨h | ⟨f, h⟩, _⟩ | ⟨h, _⟩ | ⟨_, _, _, _, _, f, _, h, _⟩
    · exact h
    · exact absurd h h1
    · exact absurd h (h2 f)
    · exact absurd h h1
    · exact absurd h (h2 f)
  have e3 : n.clientCertificateType = o.clientCertificateType := by
    rcases h.cct with h | ⟨_, _, ⟨h, _⟩ | ⟨f, h, _⟩⟩
    · exact h
    · exact absurd h h1
    · exact absurd h (h2 f)
  have e4 : n.serverCertificateType = o.serverCertificateType := by
    rcases h.sct with h | ⟨_, _, ⟨h, _⟩ | ⟨f, h, _⟩⟩
    · exact h
    · exact absurd h h1
    · exact absurd h (h2 f)
  have e5 : n.canSendHeartbeat = o.canSendHeartbeat ∧ n.canEchoHeartbeat = o.canEchoHeartbeat := by
    rcases h.heartbeat with h | h | ⟨f, h⟩
    · exact h
    · exact absurd h h1
    · exact absurd h (h2 f)
  refine ⟨?_, ?_, ?_, ?_, ?_⟩
  · rw [e2]; exact ho.mfl
  · rw [e1]; exact ho.alpn
  · rw [e3]; exact ho.cct
  · rw [e4]; exact ho.sct
  · rw [e5.1, e5.2]; exact ho.heartbeat

theorem ExtsOk.of {k g : Config} {exts : List Ext} {nc : NConfig} (h : ExtsOk k exts nc)
    (hk : k = g ∨ ∃ s grp, k = retried g s grp) : ExtsOk g exts nc := by
  rcases hk with rfl | ⟨s, grp, rfl⟩
  · exact h
  · exact ⟨h.mfl, h.alpn, h.cct, h.sct, h.heartbeat⟩

/-- narrowing the configuration, once or again -/
theorem CliInv.narrow {g : Config} {hostname rnd} {c : Conn} {k : Config}
    (h : CliInv E g hostname rnd c) (hk : CfgOk c k) :
    ∃ s grp e a b, k = retried g s grp ∧ s ∈ c.config.cipherSuites ∧ s ∈ g.cipherSuites ∧
      grp ∈ g.keyExchanges ∧ (∃ nc, c.nconfig = some nc ∧ nc.cipherSuite = some s) ∧
      lastRecv c.tr = some (.handshake (.helloRetryRequest a b s e)) ∧
      findExt e Iana.extKeyShare = some (.keyShareRetry grp) := by
  cases hk with
  | @client f ks hh grp nc random sid suite exts k hst hl hs he hg hn hf hk hck hq =>
    have hsub : c.config.cipherSuites ⊆ g.cipherSuites ∧ c.config.keyExchanges ⊆ g.keyExchanges := by
      rcases h.cfg with h | ⟨s, grp, hn⟩
      · rw [h]; simp
      · rw [hn.config]
        simp [retried, hn.suite, hn.group]
    have hsuite : nc.cipherSuite = some suite := by
      cases f with
      | true => exact hf rfl
      | false =>
        obtain ⟨s, grp', hn'⟩ := h.again (.inr ⟨_, _, hst⟩)
        obtain ⟨nc', h1, h2⟩ := hn'.nconfig
        rw [hn] at h1; cases h1
        rw [hn'.config] at hs
        have : suite = s := by simpa [retried] using hs
        rw [this, h2]
    refine ⟨suite, grp, exts, random, sid, ?_, hs, hsub.1 hs, hsub.2 hg, ⟨nc, hn, hsuite⟩, hl, he⟩
    rw [hk, hsuite]
    rcases h.cfg with h | ⟨s, grp', hn⟩
    · rw [h]; rfl
    · rw [hn.config]; rfl

theorem CliInv.step {g : Config} {hostname rnd} (hside : g.side = .client) {c c' : Conn}
    (h : CliInv E g hostname rnd c) (hi : SideInv .client c) (ho : ClientOrder c)
    (hc : CfgInv g hostname c) (hs : Step E G c c') : CliInv E g hostname rnd c' := by
  have noS : ∀ {x : St}, x.side? = some .server → c.state ≠ x := by
    intro x hx hst
    have := hi.state .server (by rw [hst]; exact hx)
    cases this
  have sh : ∀ {f ks h k}, c.state = .clientWaitSH f ks h → c.state ≠ .clientStart k := by
    intro f ks h k h1 h2; rw [h1] at h2; cases h2
  have stay : ∀ {i : Nat} {l : List Ev}, (i ≤ 2 → c.transcript.orderI ≤ 2) →
      lastRecv l = lastRecv c.tr → ∀ k, c.state = .clientStart k → i ≤ 2 →
      (∃ a b s e, lastRecv l = some (.handshake (.helloRetryRequest a b s e))) →
      c.transcript.orderI ≤ 2 ∧ lastRecv l = lastRecv c.tr := fun h1 h2 _ _ h3 _ => ⟨h1 h3, h2⟩
  cases hs with
  | input | draw | fragment | signature =>
    exact h.mute rfl rfl rfl rfl [] rfl (by simp) (stay id rfl)
  | badRecord | skipEarly | setup | serverUnique =>
    exact h.mute rfl rfl rfl rfl [] rfl (by simp) (stay id rfl)
  | gotHandshake => exact h.mute rfl rfl rfl rfl [_] rfl (by simp) (stay id rfl)
  | gotOther => exact h.mute rfl rfl rfl rfl [_] rfl (by simp) (stay id rfl)
  | delivered => exact h.mute rfl rfl rfl rfl [_] rfl (by simp) (stay id rfl)
  | opened => exact h.mute rfl rfl rfl rfl [_] rfl (by simp) (stay id rfl)
  | sealed => exact h.mute rfl rfl rfl rfl [_] rfl (by simp) (stay id rfl)
  | handshakeKeys =>
    exact h.mute rfl rfl rfl rfl _ rfl (fun e he => (keyEvents_quiet _ _ _ e he).2)
      (stay id (lastRecv_append fun e he => (keyEvents_quiet _ _ _ e he).1))
  | masterKeys =>
    exact h.mute rfl rfl rfl rfl _ rfl (fun e he => (keyEvents_quiet _ _ _ e he).2)
      (stay id (lastRecv_append fun e he => (keyEvents_quiet _ _ _ e he).1))
  | clientUnique hst | hrrServer hst => exact absurd hst (noS rfl)
  | postInit hc hp =>
    exact h.mute rfl rfl rfl rfl [] rfl (by simp) (stay (by rw [postInit_order hp]; exact id) rfl)
  | hashError hu =>
    exact h.mute rfl rfl rfl rfl [] rfl (by simp) (stay (fun hx => (update_le hu).trans hx) rfl)
  | @hashSent hh data b t hser hgd hcan hu =>
    cases b with
    | false =>
      exact h.mute rfl rfl rfl rfl [] rfl (by simp) (stay (fun hx => (update_le hu).trans hx) rfl)
    | true =>
      exact h.mute rfl rfl rfl rfl [_] rfl (by simp) (stay (fun hx => (update_le hu).trans hx) rfl)
  | hrrClient hst =>
    exact h.mute rfl rfl rfl rfl [] rfl (by simp) fun k hk => absurd hk (sh hst)
  | @received ct d x hgr hgot hd hne =>
    refine h.mute rfl rfl rfl rfl [_] rfl (by simp) ?_
    rintro _ _ _ ⟨a, b, s, e, hx⟩
    cases hx
    exact absurd rfl (hne _)
  | @receivedHs ct d x b t hgr hgot hd hu =>
    have hord : ∀ k, c.state = .clientStart k → t.orderI ≤ 2 →
        (∃ a b s e, Handshake.helloRetryRequest a b s e = x) → False := by
      rintro k hk h2 ⟨a, b', s, e, rfl⟩
      have hcs : c.config.side.other = .server := by rw [hi.config]; rfl
      rw [hcs] at hu
      obtain ⟨n, hp⟩ := ho.place
      have h1 := hp.le.1
      have hv := update_view hu
      cases hv with
      | over h12 => have := ho.last h12; rw [hk] at this; cases this
      | taken i1 i2 i3 =>
        have := (place_kind i3).2.1 rfl
        dsimp only at h2
        omega
    have hq : ∀ l, ∀ k, c.state = .clientStart k → t.orderI ≤ 2 →
        (∃ a b s e, lastRecv (.recv (.handshake x) :: l) =
          some (.handshake (.helloRetryRequest a b s e))) →
        c.transcript.orderI ≤ 2 ∧ lastRecv (.recv (.handshake x) :: l) = lastRecv c.tr := by
      rintro l k hk h2 ⟨a, b, s, e, hx⟩
      cases hx
      exact (hord k hk h2 ⟨a, b, s, e, rfl⟩).elim
    cases b with
    | false => exact h.mute rfl rfl rfl rfl [_] rfl (by simp) (hq _)
    | true => exact h.mute rfl rfl rfl rfl [_, _] rfl (by simp) (hq _)
  | @nc n hn =>
    cases hn with
    | server hst => exact absurd hst (noS rfl)
    | @client ks hh s x hst hl hx hs =>
      have hna : ∀ {s : St} {ks h}, s = .clientWaitSH true ks h → s.answered = false := by
        rintro s ks h rfl; rfl
      have hns : ∀ {s : St} {ks h}, s = .clientWaitSH true ks h → s.agreed = false := by
        rintro s ks h rfl; rfl
      refine ⟨h.random, ?_, ?_, ?_, h.said, h.wait, h.retry, ?_, ?_, h.trace, h.first⟩
      · refine h.cfg.imp id ?_
        rintro ⟨s', grp, hn⟩
        have : s = s' := by rw [hn.config] at hs; simpa [retried] using hs
        subst this
        exact ⟨s, grp, hn.config, hn.suite, hn.group, ⟨_, rfl, rfl⟩, hn.heard⟩
      · intro nc hnc
        cases hnc
        exact ⟨s, hs, rfl⟩
      · rintro (⟨⟨k, hk⟩, _⟩ | ⟨_, _, hk⟩)
        · exact absurd hk (sh hst)
        · dsimp only at hk; rw [hst] at hk; cases hk
      · intro ha; dsimp only at ha; rw [hna hst] at ha; cases ha
      · intro ha; dsimp only at ha; rw [hns hst] at ha; cases ha
    | @upd o _ hno hu =>
      have hsu : n.cipherSuite = o.cipherSuite := by
        rcases hu.suite with h | ⟨_, _, _, _, _, _, h, _⟩
        · exact h
        · exact absurd h (noS rfl)
      have hnar : ∀ {s grp}, Narrow g s grp c → Narrow g s grp { c with nconfig := some n } := by
        intro s grp hn
        obtain ⟨nc, h1, h2⟩ := hn.nconfig
        rw [hno] at h1; cases h1
        exact ⟨hn.config, hn.suite, hn.group, ⟨n, rfl, hsu.trans h2⟩, hn.heard⟩
      refine ⟨h.random, ?_, ?_, ?_, h.said, h.wait, h.retry, ?_, ?_, h.trace, h.first⟩
      · exact h.cfg.imp id fun ⟨s, grp, hn⟩ => ⟨s, grp, hnar hn⟩
      · intro nc hnc
        cases hnc
        rw [hsu]
        exact h.suite o hno
      · intro hx
        have : (∃ k, c.state = .clientStart k) ∧ c.nconfig ≠ none ∨
            (∃ ks h, c.state = .clientWaitSH false ks h) :=
          hx.imp (fun hx => ⟨hx.1, by rw [hno]; simp⟩) id
        exact (h.again this).imp fun s ⟨grp, hn⟩ => ⟨grp, hnar hn⟩
      · intro ha
        obtain ⟨r, sid, suites, exts, r', sid', suite, exts', grp, share, nc, h1, h2, h3, h4, h5, h6,
          h7, h8, h9⟩ := h.answer ha
        rw [hno] at h3; cases h3
        have hk : n.keyExchanges = o.keyExchanges := by
          rcases hu.kexs with h | ⟨_, _, _, _, _, h, _⟩
          · exact h
          · dsimp only at ha; rw [h] at ha; cases ha
        exact ⟨r, sid, suites, exts, r', sid', suite, exts', grp, share, n, h1, h2, rfl,
          hsu.trans h4, h5, h6, h7, hk.trans h8, h9⟩
      · intro ha
        obtain ⟨exts, nc, h1, h2, h3⟩ := h.settled ha
        rw [hno] at h2; cases h2
        exact ⟨exts, n, h1, rfl, hu.agreed ha h3⟩
  | cfg hk =>
    have hst : ∃ f ks hh, c.state = .clientWaitSH f ks hh := by
      cases hk with
      | client hst => exact ⟨_, _, _, hst⟩
    obtain ⟨f, ks, hh, hst⟩ := hst
    obtain ⟨s, grp, e, a, b, rfl, h1, h2, h3, h4, h5, h6⟩ := h.narrow hk
    have hn : Narrow g s grp { c with config := retried g s grp } :=
      ⟨rfl, h2, h3, h4, ⟨a, b, s, e, lastRecv_mem h5⟩⟩
    refine ⟨h.random, .inr ⟨s, grp, hn⟩, ?_, fun _ => ⟨s, grp, hn⟩, ?_, ?_, ?_, h.answer, h.settled,
      h.trace, h.first⟩
    · intro nc hnc
      obtain ⟨nc', h7, h8⟩ := h4
      dsimp only at hnc
      rw [h7] at hnc; cases hnc
      exact ⟨s, .head _, h8⟩
    · intro k _ _ _ _ hk
      exact absurd hk (sh hst)
    · intro f ks hh hx
      obtain ⟨r, sid, suites, exts, grp', priv, k1, k2, k3⟩ := h.wait f ks hh hx
      refine ⟨r, sid, suites, exts, grp', priv, k1, ?_, k3⟩
      intro x hx
      have : x = s := by simpa [retried] using hx
      rw [this]
      exact k2 h1
    · intro k _ _ _ _ hk
      exact absurd hk (sh hst)
  | @retry k f ks hh cookie hst hk ha hcook =>
    obtain ⟨s, grp, e, a, b, rfl, h1, h2, h3, h4, h5, h6⟩ := h.narrow hk
    have hn : Narrow g s grp { c with config := retried g s grp, state := .clientStart cookie } :=
      ⟨rfl, h2, h3, h4, ⟨a, b, s, e, lastRecv_mem h5⟩⟩
    have hq : ∀ m, c.tr.head? ≠ some (.sent (.handshake m)) := by
      cases hk with
      | client _ _ _ _ _ _ _ _ _ hq => exact hq
    obtain ⟨a₁, b₁, s₁, e₁, hc1, hc2⟩ := hcook
    rw [h5] at hc2
    cases hc2
    refine ⟨h.random, .inr ⟨s, grp, hn⟩, ?_, fun _ => ⟨s, grp, hn⟩, ?_, ?_, ?_, ?_, ?_,
      h.trace, fun _ _ => ⟨a, b, s, e, lastRecv_mem h5⟩⟩
    · intro nc hnc
      obtain ⟨nc', h7, h8⟩ := h4
      dsimp only at hnc
      rw [h7] at hnc; cases hnc
      exact ⟨s, .head _, h8⟩
    · intro _ _ _ _ _ _ hx
      exact absurd hx (hq _)
    · intro _ _ _ hx; cases hx
    · intro _ a' b' s' e' _ _ hx
      dsimp only at hx
      rw [h5] at hx
      cases hx
      cases ‹St.clientStart _ = _›
      exact ⟨hc1, grp, rfl, h6⟩
    · intro hx; cases hx
    · intro hx; cases hx
  | @move s hm =>
    have hnar : ∀ {x grp}, Narrow g x grp c → Narrow g x grp { c with state := s } :=
      fun hn => ⟨hn.1, hn.2, hn.3, hn.4, hn.5⟩
    have hstart : ∀ k, s ≠ .clientStart k := by
      rintro k rfl; cases hm
    refine ⟨h.random, h.cfg.imp id fun ⟨x, grp, hn⟩ => ⟨x, grp, hnar hn⟩, h.suite, ?_, ?_, ?_, ?_, ?_,
      ?_, h.trace, fun _ hk => absurd hk (hstart _)⟩
    · rintro (⟨⟨k, hk⟩, _⟩ | ⟨ks, hh, hk⟩)
      · exact absurd hk (hstart k)
      · dsimp only at hk
        cases hm <;> try (cases hk; done)
        rename_i cookie _ _ _ _ _ _ _ h1 h2 h3 h4 h5 h6
        have hnn : c.nconfig ≠ none := by
          intro hx
          rw [hx] at hk
          cases hk
        exact (h.again (.inl ⟨⟨_, h1⟩, hnn⟩)).imp fun s ⟨grp, hn⟩ => ⟨grp, hnar hn⟩
    · intro k _ _ _ _ hk; exact absurd hk (hstart k)
    · intro f ks hh hk
      dsimp only at hk ⊢
      cases hm <;> try (cases hk; done)
      rename_i cookie hello grp gs d priv share dg h1 h2 h3 h4 h5 h6
      cases hk
      cases hello <;> try (cases h3; done)
      rename_i r sid suites exts
      obtain ⟨e1, grp', gs', e2, e3⟩ := h.said _ _ _ _ _ h1 h2
      rw [h4] at e2; cases e2
      refine ⟨r, sid, suites, exts, grp, priv, ?_, by rw [e1]; exact fun _ => id, rfl, e3⟩
      cases htr : c.tr with
      | nil => rw [htr] at h2; cases h2
      | cons e l =>
        rw [htr] at h2
        cases h2
        rfl
    · intro k _ _ _ _ hk; exact absurd hk (hstart k)
    · intro ha
      dsimp only at ha ⊢
      have old : c.state.answered = true → _ := h.answer
      cases hm <;> try (cases ha; done)
      · rename_i f ks ch random sid suite exts k h1 h2 h3 h4 h5 h6
        obtain ⟨k1, k2, grp, share, priv, nc, k3, k4, k5, k6, k7⟩ := h6
        obtain ⟨r, sid0, suites, exts0, grp', priv', w1, w2, rfl, w4⟩ := h.wait _ _ _ h1
        have : grp = grp' := by
          have := List.mem_singleton.mp k4
          exact congrArg Prod.fst this
        subst this
        have hsuite : nc.cipherSuite = some suite := by
          cases f with
          | true => exact k7 rfl
          | false =>
            obtain ⟨s, grp', hn'⟩ := h.again (.inr ⟨_, _, h1⟩)
            obtain ⟨nc', n1, n2⟩ := hn'.nconfig
            rw [k5] at n1; cases n1
            rw [hn'.config] at k1
            have : suite = s := by simpa [retried] using k1
            rw [this, n2]
        exact ⟨r, sid0, suites, exts0, random, sid, suite, exts, grp, share, nc, w1, lastRecv_mem h2,
          k5, hsuite, w2 k1, k2, k3, k6, w4⟩
      all_goals first
        | exact old (by rw [‹c.state = _›]; rfl)
        | exact absurd ‹c.state = .serverWaitFin _› (noS rfl)
    · intro ha
      dsimp only at ha ⊢
      have old : c.state.agreed = true → _ := h.settled
      cases hm <;> try (cases ha; done)
      · rename_i exts nc h1 h2 h3 h4
        refine ⟨exts, nc, lastRecv_mem h2, h3, h4.of ?_⟩
        exact h.cfg.imp id fun ⟨s, grp, hn⟩ => ⟨s, grp, hn.config⟩
      all_goals first
        | exact old (by rw [‹c.state = _›]; rfl)
        | exact absurd ‹c.state = .serverWaitFin _› (noS rfl)
  | @emit c₀ content records hctx hgd =>
    obtain ⟨l, hsd⟩ := hctx.sending
    have hrec : ∀ e ∈ (records.map fun r => Ev.record r.1 r.2.1).reverse,
        (∀ x, e ≠ .recv x) ∧ ∀ x, e ≠ .sent x := by
      intro e he
      simp only [List.mem_reverse, List.mem_map] at he
      obtain ⟨r, _, rfl⟩ := he
      simp
    have hlr : lastRecv (.sent content ::
        ((records.map fun r => Ev.record r.1 r.2.1).reverse ++ c.tr)) = lastRecv c.tr :=
      lastRecv_append fun e he => (hrec e he).1
    have hsuf : c.tr <:+ .sent content ::
        ((records.map fun r => Ev.record r.1 r.2.1).reverse ++ c.tr) :=
      (List.suffix_append _ _).trans (List.suffix_cons _ _)
    have hnar : ∀ {x grp}, Narrow g x grp c → Narrow g x grp { c with
        outputData := c.outputData ++ (records.map (·.2.2)).flatten,
        tr := .sent content :: ((records.map fun r => Ev.record r.1 r.2.1).reverse ++ c.tr) } :=
      fun hn => hn.mute rfl rfl hsuf
    have hstart : ∀ {r sid suites exts}, content = .handshake (.clientHello r sid suites exts) →
        ∃ cookie, c.state = .clientStart cookie := by
      rintro r sid suites exts rfl
      obtain ⟨k, hk, _⟩ := hello_facts hgd
      exact ⟨k, hsd.state.trans hk⟩
    have hlh : (∀ k, c.state ≠ .clientStart k) → lastHello (.sent content ::
        ((records.map fun r => Ev.record r.1 r.2.1).reverse ++ c.tr)) = lastHello c.tr := by
      intro hk
      rw [lastHello_other, lastHello_append fun e he => (hrec e he).2]
      intro r sid suites exts hx
      obtain ⟨k, h'⟩ := hstart hx
      exact hk k h'
    refine ⟨h.random, h.cfg.imp id fun ⟨s, grp, hn⟩ => ⟨s, grp, hnar hn⟩, h.suite,
      fun hx => (h.again hx).imp fun s ⟨grp, hn⟩ => ⟨grp, hnar hn⟩, ?_, ?_, ?_, ?_, ?_, ?_, ?_⟩
    · intro cookie r sid suites exts hst hx
      simp only [List.head?_cons, Option.some.injEq, Ev.sent.injEq] at hx
      subst hx
      obtain ⟨k, _, _, _, h4, grp, gs, share, h5, rfl⟩ := hello_facts hgd
      rw [← hsd.config] at h4 h5
      exact ⟨h4, grp, gs, h5, offer_shares _ _ _ _⟩
    · intro f ks hh hst
      dsimp only at hst ⊢
      rw [hlh fun k hk => sh hst hk]
      exact h.wait f ks hh hst
    · intro cookie a b s e h1 h2 h3
      exact h.retry cookie a b s e h1 h2 (hlr.symm.trans h3)
    · intro ha
      dsimp only at ha ⊢
      rw [hlh fun k hk => by rw [hk] at ha; cases ha]
      obtain ⟨r, sid, suites, exts, r', sid', suite, exts', grp, share, nc, h1, h2, h3⟩ := h.answer ha
      exact ⟨r, sid, suites, exts, r', sid', suite, exts', grp, share, nc, h1, hsuf.subset h2, h3⟩
    · intro ha
      obtain ⟨exts, nc, h1, h2⟩ := h.settled ha
      exact ⟨exts, nc, hsuf.subset h1, h2⟩
    · refine (h.trace.unsaid _ fun e he => (hrec e he).2).cons ?_
      unfold OfferedOk
      split
      · rename_i r sid suites exts hx
        cases hx
        obtain ⟨cookie, h1, h2, h3, h4, grp, gs, share, h5, rfl⟩ := hello_facts hgd
        have hst := hsd.state.trans h1
        have hcu : some rnd = some r := h.random.symm.trans (hsd.random.trans h2)
        cases hcu
        rw [← hsd.config] at h4 h5
        have hhost : c₀.hostname = hostname := by
          rw [← (hc.client hside).2, hctx.same]
        have hlr' := (lastRecv_append (tr := c.tr) fun e he => (hrec e he).1)
        refine ⟨rfl, h3, c.config, grp, cookie,
          ⟨h4, ⟨gs, h5⟩, ⟨c₀, share, hsd.config.symm, hhost, rfl⟩, ?_⟩, ?_, ?_⟩
        · exact h.cfg.imp id fun ⟨s, grp, hn⟩ => ⟨s, grp, hn.config, hn.suite, hn.group⟩
        · intro hno
          rcases h.cfg with h' | ⟨s, grp, hn⟩
          · refine ⟨h', ?_⟩
            cases cookie with
            | none => rfl
            | some v =>
              obtain ⟨a, b, s, e, hm⟩ := h.first v hst
              exact absurd (List.mem_append_right _ hm) (hno a b s e)
          · obtain ⟨a, b, s, e, hm⟩ := hn.heard
            exact absurd (List.mem_append_right _ hm) (hno a b s e)
        · intro a b s e hx
          rw [hlr'] at hx
          obtain ⟨e1, grp', e2, e3⟩ := h.retry cookie a b s e hst (hello_place hctx ho hi hst) hx
          rw [e2] at h5
          cases h5
          exact ⟨h4.trans (by rw [e2]; rfl), e2, e1, e3⟩
      · trivial
    · intro cookie hk
      obtain ⟨a, b, s, e, hm⟩ := h.first cookie hk
      exact ⟨a, b, s, e, hsuf.subset hm⟩

theorem CliInv.api {g : Config} {hostname rnd} (hside : g.side = .client) {c c' : Conn}
    (h : CliInv E g hostname rnd c) (hi : SideInv .client c) (ho : ClientOrder c)
    (hc : CfgInv g hostname c) (hs : Api E G c c') : CliInv E g hostname rnd c' := by
  have closed : ∀ {c' : Conn} {s : St}, c' = { c with state := s } → s.answered = false →
      s.agreed = false → s.early = false → CliInv E g hostname rnd c' := by
    rintro c' s rfl h1 h2 h3
    have e1 : ∀ k, s ≠ .clientStart k := by rintro k rfl; cases h3
    have e2 : ∀ f k h, s ≠ .clientWaitSH f k h := by rintro f k h rfl; cases h3
    refine ⟨h.random, h.cfg.imp id fun ⟨x, grp, hn⟩ => ⟨x, grp, ⟨hn.1, hn.2, hn.3, hn.4, hn.5⟩⟩,
      h.suite, ?_, fun k _ _ _ _ hk => absurd hk (e1 k), fun _ _ _ hk => absurd hk (e2 _ _ _),
      fun k _ _ _ _ hk => absurd hk (e1 k), fun hx => absurd (h1.symm.trans hx) (by simp),
      fun hx => absurd (h2.symm.trans hx) (by simp), h.trace, fun _ hk => absurd hk (e1 _)⟩
    rintro (⟨⟨k, hk⟩, _⟩ | ⟨_, _, hk⟩)
    · exact absurd hk (e1 k)
    · exact absurd hk (e2 _ _ _)
  cases hs with
  | step hs => exact h.step hside hi ho hc hs
  | appended | read | drain =>
    exact h.mute rfl rfl rfl rfl [] rfl (by simp) fun _ _ h3 _ => ⟨h3, rfl⟩
  | closeRecv =>
    unfold closeReceivingEnd
    split <;> exact closed rfl rfl rfl rfl
  | closing => cases hs : c.state <;> exact closed rfl rfl rfl rfl
  | closedSend => exact closed rfl rfl rfl rfl

theorem CliInv.run {config : Config} {hostname ocsp algs random} {c : Conn}
    (h : Conn.new config hostname ocsp algs random = .ok c) (hside : config.side = .client)
    (ops : List Op) : CliInv E config hostname random (runOps E ops c) := by
  have hi := SideInv.fresh h
  rw [hside] at hi
  refine (runOps_inv (I := fun c => (SideInv .client c ∧ ClientOrder c ∧ CfgInv config hostname c) ∧
    CliInv E config hostname random c) (fun c c' h hs => ⟨⟨h.1.1.api hs, h.1.2.1.api h.1.1 hs,
      h.1.2.2.api hs (by rw [hside]; exact h.1.1)⟩,
      h.2.api hside h.1.1 h.1.2.1 h.1.2.2 hs⟩) ⟨⟨hi, .fresh h, .fresh h⟩, ?_⟩ ops).2
  obtain ⟨h0, hn, _, _, _, _, _, _, htr, _, _, _, hs⟩ := Conn.new_fresh h
  obtain ⟨hst, hu⟩ : c.state = .clientStart none ∧ c.clientUnique = some random := by
    rcases hs with ⟨_, h, h', _⟩ | ⟨h, _⟩
    · exact ⟨h, h'⟩
    · rw [hside] at h; cases h
  refine ⟨hu, .inl h0, by rw [hn]; simp, ?_, by rw [htr]; simp, ?_, by rw [htr]; simp [lastRecv], ?_,
    ?_, by rw [htr]; exact .nil, by rw [hst]; intro _ h; cases h⟩
  · rw [hn, hst]
    rintro (⟨_, h⟩ | ⟨_, _, h⟩)
    · exact absurd rfl h
    · cases h
  · rw [hst]; intro _ _ _ h; cases h
  · rw [hst]; intro h; cases h
  · rw [hst]; intro h; cases h

end Siotls
