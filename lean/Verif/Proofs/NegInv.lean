import Verif.Spec.Negotiation
import Verif.Proofs.Mfl
import Verif.Proofs.CertInv
import Verif.Proofs.Traces
import Verif.Proofs.Parsed
/-!
# What a server answers is what its configuration prefers
-/

namespace Siotls

variable {E : Env} {G : Conn → Prop}

theorem KeyShareOk.retry_ext (hE : E.Shares) {exts : List Ext} {g : Nat} {ks : Ext}
    (h : KeyShareOk E exts g ks none) :
    ks = .keyShareRetry g ∧ ∃ l, clientShares exts = .ok l ∧ ∀ x ∈ l, x.1 ≠ g := by
  generalize hn : (none : Option Bytes) = o at h
  cases h with
  | retry h1 h2 => exact ⟨rfl, _, h1, h2⟩
  | @share l theirs d priv mine shared h1 h2 h3 h4 h5 =>
    by_cases he : shared = []
    · subst he; exact absurd h5 (hE _ _ _)
    · rw [if_neg (by simpa using he)] at hn; cases hn

theorem KeyShareOk.share_ext {exts : List Ext} {g : Nat} {ks : Ext} {s : Bytes}
    (h : KeyShareOk E exts g ks (some s)) : ∃ mine l theirs, ks = .keyShareResp g mine ∧
      findExt exts Iana.extKeyShare = some (.keyShareReq l) ∧ (g, theirs) ∈ l := by
  generalize ho : some s = o at h
  cases h with
  | retry => cases ho
  | share h1 h2 => exact ⟨_, _, _, rfl, h1, List.mem_of_find?_eq_some h2⟩

/-- the choices among the offer of a ClientHello -/
structure Pick (E : Env) (g : Config) (suites : List Nat) (exts : List Ext) (s grp sch : Nat) :
    Prop where
  suite : g.cipherSuites.find? suites.contains = some s
  group : GroupOk g exts grp
  scheme : SchemeOk E g exts sch

/-- the extensions of a HelloRetryRequest -/
def retryExts (grp : Nat) : List Ext := [.supportedVersionsResp Iana.tls13, .keyShareRetry grp]

/-- the content each HelloRetryRequest answered -/
def retryHellos : List Ev → List (Option Content)
  | [] => []
  | .sent (.handshake (.helloRetryRequest ..)) :: l => lastRecv l :: retryHellos l
  | _ :: l => retryHellos l

theorem retryHellos_append {l tr : List Ev} (h : ∀ e ∈ l, ∀ x, e ≠ .sent x) :
    retryHellos (l ++ tr) = retryHellos tr := by
  induction l with
  | nil => rfl
  | cons e l ih =>
    have h1 := h e (.head _)
    have ih := ih fun e he => h e (.tail _ he)
    cases e with
    | sent x => exact absurd rfl (h1 x)
    | _ => exact ih

theorem retryHellos_other {x : Content} {tr : List Ev}
    (h : ∀ a b s e, x ≠ .handshake (.helloRetryRequest a b s e)) :
    retryHellos (.sent x :: tr) = retryHellos tr := by
  cases x with
  | handshake m =>
    cases m with
    | helloRetryRequest a b s e => exact absurd rfl (h a b s e)
    | _ => rfl
  | _ => rfl

theorem retryHellos_nil {tr : List Ev}
    (h : ∀ a b s e, Ev.sent (.handshake (.helloRetryRequest a b s e)) ∉ tr) : retryHellos tr = [] := by
  induction tr with
  | nil => rfl
  | cons e l ih =>
    have ih := ih fun a b s e he => h a b s e (.tail _ he)
    cases e with
    | sent x =>
      rw [retryHellos_other]
      · exact ih
      · rintro a b s e rfl
        exact h a b s e (.head _)
    | _ => exact ih

/-- after a HelloRetryRequest: the choices are those made for the hello `r`, `sid`, `suites`,
`exts` -/
structure Bound (E : Env) (g : Config) (r sid : Bytes) (suites : List Nat) (exts : List Ext)
    (s grp sch : Nat) (c : Conn) : Prop where
  pick : Pick E g suites exts s grp sch
  hello : Ev.recv (.handshake (.clientHello r sid suites exts)) ∈ c.tr
  config : c.config = narrowed g s (some grp) sch
  cipher : ∃ k, c.cipher = some k ∧ k.info.id = s
  random : c.clientUnique = some r
  sent : ∀ a b s' e, Ev.sent (.handshake (.helloRetryRequest a b s' e)) ∈ c.tr →
    s' = s ∧ e = retryExts grp
  asked : ∀ x ∈ retryHellos c.tr, x = some (.handshake (.clientHello r sid suites exts))
  fresh : c.transcript.orderI ≤ 1 → c.state = .serverWaitCH false → ∀ r' sid' suites' exts',
    lastRecv c.tr = some (.handshake (.clientHello r' sid' suites' exts')) →
    r' = r ∧ sid' = sid ∧ suites' = suites ∧ exts' = exts
  state : c.state.unretried = false

/-- no HelloRetryRequest -/
structure Plain (g : Config) (c : Conn) : Prop where
  config : c.config = g
  state : c.state ≠ .serverWaitCH false
  sent : ∀ a b s e, Ev.sent (.handshake (.helloRetryRequest a b s e)) ∉ c.tr

inductive NegState (E : Env) (g : Config) (c : Conn) : Prop
  | plain : Plain g c → NegState E g c
  | bound {r sid suites exts s grp sch} : Bound E g r sid suites exts s grp sch c → NegState E g c

/-- what is known when a message is sent, `pre` being what happened before -/
def SentOk (E : Env) (g : Config) : Ev → List Ev → Prop
  | .sent (.handshake (.serverHello _ sid suite exts)), pre =>
    ∃ r suites chExts sid0 suites0 exts0 grp sch share l theirs gs,
      lastRecv pre = some (.handshake (.clientHello r sid suites chExts)) ∧
      Ev.recv (.handshake (.clientHello r sid0 suites0 exts0)) ∈ pre ∧
      Pick E g suites0 exts0 suite grp sch ∧ suite ∈ suites ∧ VersionOk chExts ∧
      findExt chExts Iana.extSupportedGroups = some (.supportedGroups gs) ∧ grp ∈ gs ∧
      exts = [.supportedVersionsResp Iana.tls13, .keyShareResp grp share] ∧
      findExt chExts Iana.extKeyShare = some (.keyShareReq l) ∧ (grp, theirs) ∈ l ∧
      (∀ a b s e, Ev.sent (.handshake (.helloRetryRequest a b s e)) ∈ pre →
        s = suite ∧ e = retryExts grp) ∧
      ∀ x ∈ retryHellos pre, x = some (.handshake (.clientHello r sid0 suites0 exts0))
  | .sent (.handshake (.helloRetryRequest _ sid suite exts)), pre =>
    ∃ r suites chExts grp sch l,
      lastRecv pre = some (.handshake (.clientHello r sid suites chExts)) ∧
      Pick E g suites chExts suite grp sch ∧ VersionOk chExts ∧ exts = retryExts grp ∧
      clientShares chExts = .ok l ∧ ∀ x ∈ l, x.1 ≠ grp
  | .sent (.handshake (.encryptedExtensions exts)), pre =>
    ∃ r sid suites chExts nc enc,
      lastRecv pre = some (.handshake (.clientHello r sid suites chExts)) ∧
      EncOk g chExts nc enc ∧ exts = dictOfExts enc
  | .sent (.handshake (.certificateRequest ctx exts)), pre =>
    g.requirePeerAuth = true ∧ ctx = [] ∧ (exts = [.signatureAlgorithms g.signatureAlgorithms] ∨
      ∃ r sid suites chExts scheme, Ev.recv (.handshake (.clientHello r sid suites chExts)) ∈ pre ∧
        SchemeOk E g chExts scheme ∧ exts = [.signatureAlgorithms [scheme]])
  | .sent (.handshake (.certificateVerify scheme _)), pre =>
    ∃ r sid suites chExts sid0 suites0 exts0 l,
      lastRecv pre = some (.handshake (.clientHello r sid suites chExts)) ∧
      Ev.recv (.handshake (.clientHello r sid0 suites0 exts0)) ∈ pre ∧
      SchemeOk E g exts0 scheme ∧
      findExt chExts Iana.extSignatureAlgorithms = some (.signatureAlgorithms l) ∧ scheme ∈ l ∧
      ∀ x ∈ retryHellos pre, x = some (.handshake (.clientHello r sid0 suites0 exts0))
  | _, _ => True

/-- the server is past its flight -/
def St.flown : St → Bool
  | .serverWaitFin _ | .connected => true
  | _ => false

/-- `x` was the newest content received when the server sent its Finished -/
def Ended (x : Content) (tr : List Ev) : Prop :=
  ∃ post mac pre, tr = post ++ .sent (.handshake (.finished mac)) :: pre ∧ lastRecv pre = some x

theorem Ended.suffix {x : Content} {tr tr' : List Ev} (h : Ended x tr) (hs : tr <:+ tr') :
    Ended x tr' := by
  obtain ⟨post, mac, pre, rfl, h⟩ := h
  obtain ⟨l, rfl⟩ := hs
  exact ⟨l ++ post, mac, pre, by simp, h⟩

structure NegInv (E : Env) (g : Config) (c : Conn) : Prop where
  state : NegState E g c
  trace : Trace (SentOk E g) c.tr
  done : c.state.flown = true → ∃ r sid suites exts enc nc,
    Ended (.handshake (.clientHello r sid suites exts)) c.tr ∧ c.nconfig = some nc ∧
    EncOk g exts nc enc

theorem EncOk.of {k g : Config} {exts enc : List Ext} {nc : NConfig} (h : EncOk k exts nc enc)
    (hk : k = g ∨ ∃ s grp sch, k = narrowed g s grp sch) : EncOk g exts nc enc := by
  rcases hk with rfl | ⟨s, grp, sch, rfl⟩
  · exact h
  · exact ⟨h.parts, h.status⟩

theorem NegState.cfg {g : Config} {c : Conn} (h : NegState E g c) :
    c.config = g ∨ ∃ s grp sch, c.config = narrowed g s grp sch := by
  cases h with
  | plain h => exact .inl h.config
  | bound h => exact .inr ⟨_, _, _, h.config⟩

/-! ## steps that change little -/

theorem Bound.mute {g : Config} {r sid : Bytes} {suites : List Nat} {exts : List Ext}
    {s grp sch : Nat} {c c' : Conn} (h : Bound E g r sid suites exts s grp sch c)
    (hcfg : c'.config = c.config) (hst : c'.state = c.state)
    (hcu : c'.clientUnique = c.clientUnique)
    (hk : c'.cipher.map (·.info.id) = c.cipher.map (·.info.id))
    (ho : c'.transcript.orderI ≤ 1 → c.transcript.orderI ≤ 1)
    (l : List Ev) (htr : c'.tr = l ++ c.tr)
    (hl : ∀ e ∈ l, (∀ x, e ≠ .recv x) ∧ ∀ x, e ≠ .sent x) :
    Bound E g r sid suites exts s grp sch c' := by
  refine ⟨h.pick, by rw [htr]; exact List.mem_append_right _ h.hello, hcfg.trans h.config, ?_,
    hcu.trans h.random, ?_, by rw [htr, retryHellos_append fun e he => (hl e he).2]; exact h.asked, ?_,
    by rw [hst]; exact h.state⟩
  · obtain ⟨k, hc, hid⟩ := h.cipher
    rw [hc] at hk
    cases hc' : c'.cipher with
    | none => rw [hc'] at hk; cases hk
    | some k' =>
      rw [hc'] at hk
      refine ⟨k', rfl, ?_⟩
      rw [← hid]
      simpa using hk
  · intro a b s' e hm
    rw [htr] at hm
    rcases List.mem_append.mp hm with hm | hm
    · exact absurd rfl ((hl _ hm).2 _)
    · exact h.sent a b s' e hm
  · rw [htr, lastRecv_append fun e he => (hl e he).1, hst]
    exact fun h1 => h.fresh (ho h1)

theorem NegState.mute {g : Config} {c c' : Conn} (h : NegState E g c)
    (hcfg : c'.config = c.config) (hst : c'.state = c.state)
    (hcu : c.state.unretried = false → c'.clientUnique = c.clientUnique)
    (hk : c.state.unretried = false →
      c'.cipher.map (·.info.id) = c.cipher.map (·.info.id))
    (ho : c.state.unretried = false → c'.transcript.orderI ≤ 1 → c.transcript.orderI ≤ 1)
    (l : List Ev) (htr : c'.tr = l ++ c.tr)
    (hl : ∀ e ∈ l, (∀ x, e ≠ .recv x) ∧ ∀ x, e ≠ .sent x) : NegState E g c' := by
  cases h with
  | plain h =>
    refine .plain ⟨hcfg.trans h.1, by rw [hst]; exact h.2, fun a b s e hm => ?_⟩
    rw [htr] at hm
    rcases List.mem_append.mp hm with hm | hm
    · exact absurd rfl ((hl _ hm).2 _)
    · exact h.sent a b s e hm
  | bound h => exact .bound (h.mute hcfg hst (hcu h.state) (hk h.state) (ho h.state) l htr hl)

theorem Trace.unsent {g : Config} {tr : List Ev} (h : Trace (SentOk E g) tr) (l : List Ev)
    (hl : ∀ e ∈ l, ∀ x, e ≠ .sent x) : Trace (SentOk E g) (l ++ tr) := by
  refine h.append fun l₁ e l₂ he => ?_
  have := hl e (by rw [he]; simp)
  cases e with
  | sent x => exact absurd rfl (this x)
  | _ => trivial

theorem NegInv.mute {g : Config} {c c' : Conn} (h : NegInv E g c)
    (hcfg : c'.config = c.config) (hst : c'.state = c.state) (hnc : c'.nconfig = c.nconfig)
    (hcu : c.state.unretried = false → c'.clientUnique = c.clientUnique)
    (hk : c.state.unretried = false →
      c'.cipher.map (·.info.id) = c.cipher.map (·.info.id))
    (ho : c.state.unretried = false → c'.transcript.orderI ≤ 1 → c.transcript.orderI ≤ 1)
    (l : List Ev) (htr : c'.tr = l ++ c.tr)
    (hl : ∀ e ∈ l, (∀ x, e ≠ .recv x) ∧ ∀ x, e ≠ .sent x) : NegInv E g c' := by
  refine ⟨h.state.mute hcfg hst hcu hk ho l htr hl, ?_, ?_⟩
  · rw [htr]; exact h.trace.unsent l fun e he => (hl e he).2
  · rw [hst, hnc]
    intro hf
    obtain ⟨r, sid, suites, exts, enc, nc, hm, h2⟩ := h.done hf
    exact ⟨r, sid, suites, exts, enc, nc, hm.suffix (by rw [htr]; exact List.suffix_append _ _), h2⟩

/-! ## sending -/

/-- what of the start of a sending is still known at its end -/
structure Sending (c₀ c : Conn) (l : List Ev) : Prop where
  config : c.config = c₀.config
  state : c.state = c₀.state
  nconfig : c.nconfig = c₀.nconfig
  signature : c.signature = c₀.signature
  random : c.clientUnique = c₀.clientUnique
  cipher : c.cipher.map (·.info.id) = c₀.cipher.map (·.info.id)
  tr : c.tr = l ++ c₀.tr
  mute : ∀ e ∈ l, (∀ x, e ≠ .recv x) ∧ ∀ x, e ≠ .sent x

theorem SameKeys.id : ∀ {a b : Option CipherSt}, SameKeys a b →
    b.map (·.info.id) = a.map (·.info.id)
  | some _, some _, ⟨_, rfl⟩ => rfl
  | none, none, _ => rfl
  | none, some _, h => h.elim
  | some _, none, h => h.elim

theorem SendCtx.sending {c₀ c : Conn} {content : Content} {records}
    (h : SendCtx E c₀ content records c) : ∃ l, Sending c₀ c l := by
  obtain ⟨same, keys, -, ⟨data, -, -, seals, hs, htr, hse, -, hhs, -⟩, -⟩ := h
  refine ⟨seals ++ hs, by rw [same], by rw [same], by rw [same], by rw [same], by rw [same], ?_,
    by rw [htr, List.append_assoc], ?_⟩
  · exact keys.id
  · intro e he
    rcases List.mem_append.mp he with he | he
    · obtain ⟨_, _, _, _, _, rfl⟩ := hse e he
      simp
    · rcases hhs with ⟨_, _, rfl⟩ | ⟨rfl, _⟩
      · rw [List.mem_singleton.mp he]; simp
      · cases he

theorem NegState.groups {g : Config} {c : Conn} (h : NegState E g c) {exts : List Ext} {grp : Nat}
    (hg : GroupOk c.config exts grp) : (Plain g c ∧ GroupOk g exts grp) ∨
    ∃ r sid suites exts0 s sch, Bound E g r sid suites exts0 s grp sch c ∧
      ∃ l, findExt exts Iana.extSupportedGroups = some (.supportedGroups l) ∧ grp ∈ l := by
  cases h with
  | plain h1 => rw [h1.config] at hg; exact .inl ⟨h1, hg⟩
  | @bound r sid suites exts0 s grp' sch h =>
    obtain ⟨l, h1, h2⟩ := hg
    rw [h.config] at h2
    have h3 := List.mem_of_find?_eq_some h2
    have h4 := List.find?_some h2
    have : grp = grp' := by simpa [narrowed] using h3
    subst this
    exact .inr ⟨r, sid, suites, exts0, s, sch, h, l, h1, by simpa using h4⟩

theorem NegState.schemes {g : Config} {c : Conn} (h : NegState E g c) {exts : List Ext} {sch : Nat}
    (hg : SchemeOk E c.config exts sch) : (Plain g c ∧ SchemeOk E g exts sch) ∨
    ∃ r sid suites exts0 s grp, Bound E g r sid suites exts0 s grp sch c ∧
      ∃ l, findExt exts Iana.extSignatureAlgorithms = some (.signatureAlgorithms l) ∧ sch ∈ l := by
  cases h with
  | plain h1 => rw [h1.config] at hg; exact .inl ⟨h1, hg⟩
  | @bound r sid suites exts0 s grp sch' h =>
    obtain ⟨l, leaf, rest, fit, h1, _, _, h2⟩ := hg
    rw [h.config] at h2
    have h3 := List.mem_of_find?_eq_some h2
    have h4 := List.find?_some h2
    have : sch = sch' := by simpa [narrowed] using h3
    subst this
    exact .inr ⟨r, sid, suites, exts0, s, grp, h, l, h1, by simp at h4; exact h4.2⟩

theorem Sending.back {c₀ c : Conn} {l : List Ev} (h : Sending c₀ c l) : lastRecv c.tr = lastRecv c₀.tr := by
  rw [h.tr, lastRecv_append fun e he => (h.mute e he).1]

theorem retry_clear (hE : E.Shares) {k : Config} {exts clear enc : List Ext} {c : Conn}
    {nc : NConfig} (h : NegOk E k exts clear enc none c) (hn : c.nconfig = some nc) :
    ∃ grp, nc.keyExchange = some grp ∧ dictOfExts clear = retryExts grp ∧ VersionOk exts ∧
      ∃ l, clientShares exts = .ok l ∧ ∀ x ∈ l, x.1 ≠ grp := by
  obtain ⟨grp, nc', s, ks, -, h2, h3, -, -, h6, h7, -⟩ := h.same
  rw [hn] at h2; cases h2
  obtain ⟨rfl, l, hl⟩ := h6.retry_ext hE
  refine ⟨grp, h3, ?_, h.version, l, hl⟩
  rw [h7]; rfl

/-- a HelloRetryRequest announces what the server is bound to -/
theorem Bound.retry (hE : E.Shares) {g : Config} {r sid : Bytes} {suites : List Nat}
    {exts : List Ext} {s grp sch : Nat} {c₀ c : Conn} {l : List Ev} {a sid' : Bytes} {s' : Nat}
    {e : List Ext} (h : Bound E g r sid suites exts s grp sch c) (hs : Sending c₀ c l)
    (hg : HsGuard E c₀ (.helloRetryRequest a sid' s' e)) :
    s' = s ∧ e = retryExts grp ∧ ∃ r' suites' exts' l',
      lastRecv c.tr = some (.handshake (.clientHello r' sid' suites' exts')) ∧
      VersionOk exts' ∧ clientShares exts' = .ok l' ∧ ∀ x ∈ l', x.1 ≠ grp := by
  obtain ⟨r', suites', exts', clear, k, hst, -, hlast, hk, hid, ⟨c₁, c₂, hneg, -, hn2, nc, scheme,
    hnc, hcfg⟩, he, -⟩ := hg
  obtain ⟨grp', h1, h2, h3, l', h4⟩ := retry_clear hE (serverNegotiate_ok hneg) (hn2.trans hnc)
  have hc := h.config.symm.trans (hs.config.trans hcfg)
  have hs' : s' = s := by
    obtain ⟨k', hk', hid'⟩ := h.cipher
    have := hs.cipher
    rw [hk, hk'] at this
    simp at this
    rw [← hid, ← hid', this]
  have hgrp : grp' = grp := by
    have := congrArg Config.keyExchanges hc
    rw [h1] at this
    simpa [narrowed] using this.symm
  subst hgrp
  exact ⟨hs', he.trans h2, r', suites', exts', l', hs.back.trans hlast, h3, h4⟩

theorem Bound.answers (hE : E.Shares) {g : Config} {r sid : Bytes} {suites : List Nat}
    {exts : List Ext} {s grp sch : Nat} {c₀ c : Conn} {l : List Ev} {a sid' : Bytes} {s' : Nat}
    {e : List Ext} {records} (h : Bound E g r sid suites exts s grp sch c) (hi : SideInv .server c)
    (hs : Sending c₀ c l) (hctx : SendCtx E c₀ (.handshake (.helloRetryRequest a sid' s' e)) records c)
    (hg : HsGuard E c₀ (.helloRetryRequest a sid' s' e)) :
    lastRecv c.tr = some (.handshake (.clientHello r sid suites exts)) := by
  obtain ⟨-, -, r', suites', exts', l', k1, -⟩ := h.retry hE hs hg
  obtain ⟨_, _, _, _, _, hst, _, _, _, _, _, _, ho⟩ := hg
  have hcs : c₀.config.side = .server := by rw [← hs.config]; exact hi.config
  rw [hcs] at ho
  replace ho : c₀.transcript.orderI = 0 := ho
  have ho' : c.transcript.orderI ≤ 1 := by
    obtain ⟨data, _, hu, _⟩ := hctx.data
    obtain ⟨b, hu⟩ := hu _ rfl
    have hv := update_view hu
    generalize c.transcript = t at hv ⊢
    cases hv with
    | over h12 => omega
    | taken h1 h2 => have := no_skip h1 h2 (by omega); dsimp only; omega
  obtain ⟨rfl, rfl, rfl, rfl⟩ := h.fresh ho' (hs.state.trans hst) _ _ _ _ k1
  exact k1

theorem NegInv.sentOk (hE : E.Shares) {g : Config} {c₀ c : Conn} {l recs : List Ev} {m : Handshake}
    {records} (h : NegInv E g c) (hi : SideInv .server c) (hs : Sending c₀ c l)
    (hctx : SendCtx E c₀ (.handshake m) records c)
    (hrec : ∀ e ∈ recs, (∀ x, e ≠ .recv x) ∧ ∀ x, e ≠ .sent x) (hg : HsGuard E c₀ m) :
    SentOk E g (.sent (.handshake m)) (recs ++ c.tr) := by
  have hlast : ∀ {x}, lastRecv c₀.tr = some x → lastRecv (recs ++ c.tr) = some x := by
    intro x hx
    rw [lastRecv_append fun e he => (hrec e he).1, hs.back, hx]
  have hmem : ∀ {x}, lastRecv c₀.tr = some x → Ev.recv x ∈ recs ++ c.tr := fun hx =>
    lastRecv_mem (hlast hx)
  have hretry : ∀ {a b s e}, Ev.sent (.handshake (.helloRetryRequest a b s e)) ∈ recs ++ c.tr →
      Ev.sent (.handshake (.helloRetryRequest a b s e)) ∈ c.tr := by
    intro a b s e hm
    rcases List.mem_append.mp hm with hm | hm
    · exact absurd rfl ((hrec _ hm).2 _)
    · exact hm
  have hasked : retryHellos (recs ++ c.tr) = retryHellos c.tr :=
    retryHellos_append fun e he => (hrec e he).2
  cases m with
  | serverHello random sid suite exts =>
    obtain ⟨f, r, suites, chExts, clear, enc, shared, k, hst, hl, -, hk, hid, ⟨c₁, c₂, hc1, hneg,
      hsig, hnc⟩, rfl, ⟨s, hfind, hf⟩, hcu, -⟩ := hg
    have ok := serverNegotiate_ok hneg
    rw [hc1, ← hs.config] at ok
    obtain ⟨grp, nc, sch, ks, h1, h2, h3, h4, h5, h6, rfl, -⟩ := ok.same
    obtain ⟨mine, shares, theirs, rfl, k1, k2⟩ := h6.share_ext
    rw [← hs.config] at hfind
    have hsuite : ∀ {s}, c.config.cipherSuites.find? suites.contains = some s → s ∈ suites :=
      fun h => by simpa using List.find?_some h
    rcases h.state.groups h1 with ⟨hp, hgrp⟩ | ⟨r0, sid0, suites0, exts0, s0, sch0, hb, gs, e1, e2⟩
    · have hf' : f = true := by
        cases f with
        | true => rfl
        | false => exact absurd (hs.state.trans hst) hp.state
      subst hf'
      have := hf rfl
      subst this
      rw [hp.config] at hfind h4
      obtain ⟨gs, e1, e2⟩ := hgrp
      exact ⟨r, suites, chExts, sid, suites, chExts, grp, sch, mine, shares, theirs, gs, hlast hl,
        hmem hl, ⟨hfind, ⟨gs, e1, e2⟩, h4⟩, by simpa using List.find?_some hfind, ok.version, e1,
        by simpa using List.find?_some e2, rfl, k1, k2,
        fun a b s e hm => absurd (hretry hm) (hp.sent a b s e), by rw [hasked, retryHellos_nil hp.sent]; simp⟩
    · have hr : r0 = r := by
        have := hb.random.symm.trans (hs.random.trans hcu)
        simpa using this
      have hs0 : s0 = suite := by
        obtain ⟨k', hk', hid'⟩ := hb.cipher
        have := hs.cipher
        rw [hk, hk'] at this
        simp at this
        rw [← hid, ← hid', this]
      subst hr hs0
      refine ⟨r0, suites, chExts, sid0, suites0, exts0, grp, sch0, mine, shares, theirs, gs, hlast hl,
        List.mem_append_right _ hb.hello, hb.pick, ?_, ok.version, e1, e2, rfl, k1, k2,
        fun a b s e hm => hb.sent a b s e (hretry hm), by rw [hasked]; exact hb.asked⟩
      rw [hb.config] at hfind
      have h7 := List.mem_of_find?_eq_some hfind
      have h8 := List.find?_some hfind
      have : s = s0 := by simpa [narrowed] using h7
      subst this
      simpa using h8
  | helloRetryRequest a sid suite exts =>
    cases h.state with
    | plain hp =>
      obtain ⟨_, _, _, _, _, hst, _⟩ := hg
      exact absurd (hs.state.trans hst) hp.state
    | bound hb =>
      obtain ⟨rfl, rfl, r', suites', exts', l', k1, k2, k3, k4⟩ := hb.retry hE hs hg
      have k5 := hb.answers hE hi hs hctx hg
      rw [k1] at k5
      cases k5
      exact ⟨_, _, _, _, _, l', by rw [lastRecv_append fun e he => (hrec e he).1]; exact k1, hb.pick,
        k2, rfl, k3, k4⟩
  | encryptedExtensions exts =>
    obtain ⟨f, r, sid, suites, chExts, clear, enc, shared, hst, hl, ⟨c₁, c₂, hc1, hneg, hsig, hnc⟩,
      rfl, -⟩ := hg
    have ok := serverNegotiate_ok hneg
    rw [hc1, ← hs.config] at ok
    obtain ⟨grp, nc, sch, ks, h1, h2, h3, h4, h5, h6, rfl, h7⟩ := ok.same
    exact ⟨r, sid, suites, chExts, nc, enc, hlast hl, (h7 rfl).of h.state.cfg, rfl⟩
  | certificateRequest ctx exts =>
    obtain ⟨f, -, h1, rfl, rfl⟩ := hg
    rw [← hs.config] at h1 ⊢
    cases h.state with
    | plain hp =>
      rw [hp.config] at h1 ⊢
      exact ⟨h1, rfl, .inl rfl⟩
    | bound hb =>
      rw [hb.config] at h1 ⊢
      exact ⟨h1, rfl, .inr ⟨_, _, _, _, _, List.mem_append_right _ hb.hello, hb.pick.scheme, rfl⟩⟩
  | certificateVerify scheme sig =>
    obtain ⟨f, priv, hh, d, hst, hsig', -, -, r, sid, suites, chExts, clear, enc, shared, hl, hcu,
      ⟨c₁, c₂, hc1, hneg, hsig, hnc⟩⟩ := hg
    have ok := serverNegotiate_ok hneg
    rw [hc1, ← hs.config] at ok
    obtain ⟨grp, nc, sch, ks, h1, h2, h3, h4, h5, h6, rfl, h7⟩ := ok.same
    have : sch = scheme := by
      rw [hsig, hsig'] at h5
      simp at h5
      exact h5.1.symm
    subst this
    rcases h.state.schemes h4 with ⟨hp, hsch⟩ | ⟨r0, sid0, suites0, exts0, s0, grp0, hb, gs, e1, e2⟩
    · have hsch' := hsch
      obtain ⟨ss, leaf, rest, fit, e1, _, _, e2⟩ := hsch'
      have e3 := List.find?_some e2
      simp at e3
      exact ⟨r, sid, suites, chExts, sid, suites, chExts, ss, hlast hl, hmem hl, hsch, e1, e3.2,
        by rw [hasked, retryHellos_nil hp.sent]; simp⟩
    · have hr : r0 = r := by
        have := hb.random.symm.trans (hs.random.trans hcu)
        simpa using this
      subst hr
      exact ⟨r0, sid, suites, chExts, sid0, suites0, exts0, gs, hlast hl,
        List.mem_append_right _ hb.hello, hb.pick.scheme, e1, e2, by rw [hasked]; exact hb.asked⟩
  | _ => trivial

theorem update_one {t t' : Transcript} {d : Bytes} {s : Side} {ty : Nat} {r}
    (h : t.update d s ty = (r, t')) (h1 : t'.orderI ≤ 1) : t.orderI ≤ 1 :=
  (update_le h).trans h1

theorem NcUpd.enc {c : Conn} {o n : NConfig} {g : Config} {exts enc : List Ext}
    (h : NcUpd E c o n) (hf : c.state.flown = true) (ho : EncOk g exts o enc) :
    EncOk g exts n enc := by
  have h1 : c.state ≠ .clientWaitEE := by rintro h; rw [h] at hf; cases hf
  have h2 : ∀ f, c.state ≠ .serverWaitCH f := by rintro f h; rw [h] at hf; cases hf
  have e1 : n.alpn = o.alpn := by
    rcases h.alpn with h | ⟨h | ⟨f, h⟩, _⟩
    · exact h
    · exact absurd h h1
    · exact absurd h (h2 f)
  have e2 : n.maxFragmentLength = o.maxFragmentLength := by
    rcases h.mfl with h | ⟨h | ⟨f, h⟩, _⟩ | ⟨h, _⟩ | ⟨_, _, _, _, _, f, _, h, _⟩
    · exact h
    · exact absurd h h1
    · exact absurd h (h2 f)
    · exact absurd h h1
    · exact absurd h (h2 f)
  have e3 : n.clientCertificateType = o.clientCertificateType := by
    rcases h.cct with h | ⟨_, _, ⟨h, _⟩ | ⟨f, h, _⟩⟩
    · exact h
    · exact absurd h h1
    · exact absurd h (h2 f)
  have e4 : n.serverCertificateType = o.serverCertificateType := by
    rcases h.sct with h | ⟨_, _, ⟨h, _⟩ | ⟨f, h, _⟩⟩
    · exact h
    · exact absurd h h1
    · exact absurd h (h2 f)
  have e5 : n.canSendHeartbeat = o.canSendHeartbeat ∧ n.canEchoHeartbeat = o.canEchoHeartbeat := by
    rcases h.heartbeat with h | h | ⟨f, h⟩
    · exact h
    · exact absurd h h1
    · exact absurd h (h2 f)
  have e6 : n.peerWantOcspStapling = o.peerWantOcspStapling := by
    rcases h.status with h | ⟨f, h⟩
    · exact h
    · exact absurd h (h2 f)
  refine ⟨?_, e6.trans ho.status⟩
  rw [e1, e2, e3, e4, e5.1, e5.2]
  exact ho.parts

theorem keyEvents_quiet (l : List PyStr) (k k' : CipherSt) :
    ∀ e ∈ keyEvents l k k', (∀ x, e ≠ .recv x) ∧ ∀ x, e ≠ .sent x := by
  intro e he
  rcases mem_keyEvents he with ⟨_, _, rfl⟩ | ⟨_, _, rfl⟩ | ⟨_, _, rfl⟩ <;> simp

theorem NegInv.step (hE : E.Shares) {g : Config} (hg : g.check = .ok ()) {c c' : Conn}
    (h : NegInv E g c) (hi : SideInv .server c) (hs : Step E G c c') : NegInv E g c' := by
  have noC : ∀ {x : St}, x.side? = some .client → c.state ≠ x := by
    intro x hx hst
    have := hi.state .client (by rw [hst]; exact hx)
    cases this
  have un : ∀ {f}, c.state = .serverWaitCH f → c.state.unretried = false → f = false := by
    intro f hst hu
    cases f with
    | false => rfl
    | true => rw [hst] at hu; cases hu
  cases hs with
  | input | draw | fragment | signature =>
    exact h.mute rfl rfl rfl (fun _ => rfl) (fun _ => rfl) (fun _ => id) [] rfl (by simp)
  | gotHandshake => exact h.mute rfl rfl rfl (fun _ => rfl) (fun _ => rfl) (fun _ => id) [_] rfl (by simp)
  | gotOther => exact h.mute rfl rfl rfl (fun _ => rfl) (fun _ => rfl) (fun _ => id) [_] rfl (by simp)
  | delivered => exact h.mute rfl rfl rfl (fun _ => rfl) (fun _ => rfl) (fun _ => id) [_] rfl (by simp)
  | badRecord hc =>
    exact h.mute rfl rfl rfl (fun _ => rfl) (fun _ => by rw [hc]; rfl) (fun _ => id) [] rfl (by simp)
  | opened hc =>
    exact h.mute rfl rfl rfl (fun _ => rfl) (fun _ => by rw [hc]; rfl) (fun _ => id) [_] rfl (by simp)
  | sealed hc =>
    exact h.mute rfl rfl rfl (fun _ => rfl) (fun _ => by rw [hc]; rfl) (fun _ => id) [_] rfl (by simp)
  | skipEarly hc hk =>
    obtain ⟨_, _, rfl⟩ := skipEarly_view hk
    exact h.mute rfl rfl rfl (fun _ => rfl) (fun _ => by rw [hc]; rfl) (fun _ => id) [] rfl (by simp)
  | handshakeKeys _ hc _ hd =>
    refine h.mute rfl rfl rfl (fun _ => rfl) (fun _ => ?_) (fun _ => id) _ rfl (keyEvents_quiet _ _ _)
    rw [hc]
    cases deriveHandshake_view hd <;> rfl
  | masterKeys _ hc _ hd =>
    refine h.mute rfl rfl rfl (fun _ => rfl) (fun _ => ?_) (fun _ => id) _ rfl (keyEvents_quiet _ _ _)
    rw [hc]
    cases deriveMaster_view hd <;> rfl
  | clientUnique hst =>
    exact h.mute rfl rfl rfl (fun hu => by cases un hst hu) (fun _ => rfl) (fun _ => id) [] rfl (by simp)
  | setup hok =>
    cases hok with
    | client hst => exact absurd hst (noC rfl)
    | server hst =>
      exact h.mute rfl rfl rfl (fun _ => rfl) (fun hu => by cases un hst hu) (fun _ => id) [] rfl (by simp)
  | postInit hc hp =>
    exact h.mute rfl rfl rfl (fun _ => rfl) (fun _ => rfl) (fun _ => by rw [postInit_order hp]; exact id)
      [] rfl (by simp)
  | hashError hu =>
    exact h.mute rfl rfl rfl (fun _ => rfl) (fun _ => rfl) (fun _ => update_one hu) [] rfl (by simp)
  | @hashSent hh data b t hser hgd hcan hu =>
    cases b with
    | false =>
      exact h.mute rfl rfl rfl (fun _ => rfl) (fun _ => rfl) (fun _ => update_one hu) [] rfl (by simp)
    | true =>
      exact h.mute rfl rfl rfl (fun _ => rfl) (fun _ => rfl) (fun _ => update_one hu) [_] rfl (by simp)
  | serverUnique hst | retry hst | hrrClient hst => exact absurd hst (noC rfl)
  | cfg hk =>
    cases hk with
    | client hst => exact absurd hst (noC rfl)
  | @nc n hn =>
    refine ⟨?_, h.trace, fun hf => ?_⟩
    · exact h.state.mute rfl rfl (fun _ => rfl) (fun _ => rfl) (fun _ => id) [] rfl (by simp)
    · dsimp only at hf ⊢
      cases hn with
      | client hst => exact absurd hst (noC rfl)
      | server hst => rw [hst] at hf; cases hf
      | upd ho hu =>
        obtain ⟨r, sid, suites, exts, enc, nc, h1, h2, h3⟩ := h.done hf
        rw [ho] at h2; cases h2
        exact ⟨r, sid, suites, exts, enc, n, h1, rfl, hu.enc hf h3⟩
  | @received ct d x hgr hgot hd hne =>
    refine ⟨?_, h.trace.unsent [_] (by simp), fun hf => ?_⟩
    · cases h.state with
      | plain hp => exact .plain ⟨hp.1, hp.2, fun a b s e hm => hp.sent a b s e (by simpa using hm)⟩
      | bound hb =>
        refine .bound ⟨hb.pick, .tail _ hb.hello, hb.config, hb.cipher, hb.random,
          fun a b s e hm => hb.sent a b s e (by simpa using hm), hb.asked, ?_, hb.state⟩
        intro _ _ _ _ _ _ hl
        cases hl
        exact absurd rfl (hne _)
    · obtain ⟨r, sid, suites, exts, enc, nc, h1, h2⟩ := h.done hf
      exact ⟨r, sid, suites, exts, enc, nc, h1.suffix (List.suffix_cons _ _), h2⟩
  | @receivedHs ct d x b t hgr hgot hd hu =>
    have hsuf : c.tr <:+ (if b then .hashed c.config.side.other x.msgType d :: c.tr else c.tr) := by
      cases b
      · exact List.suffix_refl _
      · exact List.suffix_cons _ _
    have hsent : ∀ {a b' s e}, Ev.sent (.handshake (.helloRetryRequest a b' s e)) ∈
        .recv (.handshake x) ::
          (if b then .hashed c.config.side.other x.msgType d :: c.tr else c.tr) →
        Ev.sent (.handshake (.helloRetryRequest a b' s e)) ∈ c.tr := by
      intro a b' s e hm
      cases b <;> simpa using hm
    refine ⟨?_, ?_, fun hf => ?_⟩
    · cases h.state with
      | plain hp => exact .plain ⟨hp.1, hp.2, fun a b s e hm => hp.sent a b s e (hsent hm)⟩
      | bound hb =>
        refine .bound ⟨hb.pick, .tail _ (hsuf.subset hb.hello), hb.config, hb.cipher, hb.random,
          fun a b s e hm => hb.sent a b s e (hsent hm), by cases b <;> exact hb.asked, ?_, hb.state⟩
        intro h1
        exfalso
        have hcs : c.config.side.other = .client := by rw [hi.config]; rfl
        rw [hcs] at hu
        have hv := update_view hu
        dsimp only at h1
        cases hv with
        | over h12 => omega
        | taken i1 i2 i3 =>
          have := (place_kind i3).2.2.2.2.1 rfl
          dsimp only at h1
          omega
    · cases b
      · exact h.trace.unsent [_] (by simp)
      · exact h.trace.unsent [_, _] (by simp)
    · obtain ⟨r, sid, suites, exts, enc, nc, h1, h2⟩ := h.done hf
      exact ⟨r, sid, suites, exts, enc, nc, h1.suffix (hsuf.trans (List.suffix_cons _ _)), h2⟩
  | @hrrServer random sid suites exts dg t c₁ clear nc scheme ks hst hh hdg halg hd hc1 hneg hcu hk
      hfind hnc hsig hck =>
    have hl : lastRecv c.tr = _ := lastRecv_head hh
    refine ⟨?_, h.trace, fun hf => by cases hf⟩
    cases h.state with
    | bound hb => have := hb.state; rw [hst] at this; cases this
    | plain hp =>
      have ok := serverNegotiate_ok hneg
      rw [hc1, hp.config] at ok
      obtain ⟨grp, nc', sch, ks', h1, h2, h3, h4, h5, -⟩ := ok.same
      rw [hnc] at h2; cases h2
      rw [hsig] at h5; cases h5
      rw [hp.config] at hfind
      refine .bound (r := random) (sid := sid) (suites := suites) (exts := exts) (s := ks.info.id)
        (grp := grp) (sch := sch) ⟨⟨hfind, h1, h4⟩, lastRecv_mem hl, ?_, ⟨ks, hk, rfl⟩, hcu,
        fun a b s e hm => absurd hm (hp.sent a b s e), ?_, ?_, rfl⟩
      · dsimp only
        rw [hp.config, h3]
      · dsimp only
        rw [retryHellos_nil hp.sent]; simp
      · intro _ _ _ _ _ _ hx
        dsimp only at hx
        rw [hl] at hx
        cases hx
        exact ⟨rfl, rfl, rfl, rfl⟩
  | @move s hm =>
    refine ⟨?_, h.trace, fun hf => ?_⟩
    · have hnew : s = .serverWaitCH false → c.config.check ≠ .ok () ∧ c.state = .serverWaitCH true := by
        rintro rfl
        cases hm with
        | serverHrr h1 _ _ h4 => exact ⟨h4, h1⟩
      cases h.state with
      | plain hp =>
        exact .plain ⟨hp.1, fun hx => (hnew hx).1 (by rw [hp.config]; exact hg), hp.3⟩
      | bound hb =>
        have hun : s.unretried = false := by
          cases hx : s.unretried with
          | false => rfl
          | true => have := hm.unretried hx; rw [hb.state] at this; cases this
        refine .bound ⟨hb.1, hb.2, hb.3, hb.4, hb.5, hb.6, hb.7, ?_, hun⟩
        intro _ hx
        have := (hnew hx).2
        have h1 := hb.state
        rw [this] at h1; cases h1
    · dsimp only at hf ⊢
      cases hm with
      | serverFinished hst _ hhd _ _ _ hneg =>
        obtain ⟨r, sid, suites, chExts, clear, enc, shared, hl, c₁, c₂, hc1, hneg, -, hnc⟩ := hneg
        have ok := serverNegotiate_ok hneg
        rw [hc1] at ok
        obtain ⟨grp, nc, sch, ks, -, h2, -, -, -, -, -, h7⟩ := ok.same
        refine ⟨r, sid, suites, chExts, enc, nc, ?_, hnc.symm.trans h2, (h7 rfl).of h.state.cfg⟩
        cases htr : c.tr with
        | nil => rw [htr] at hhd; cases hhd
        | cons e pre =>
          rw [htr] at hhd hl
          cases hhd
          exact ⟨[], _, pre, rfl, hl⟩
      | serverDone hst => exact h.done (by rw [hst]; rfl)
      | clientDone hst => exact absurd hst (noC rfl)
      | _ => cases hf
  | @emit c₀ content records hctx hgd =>
    obtain ⟨l, hsd⟩ := hctx.sending
    have hrec : ∀ e ∈ (records.map fun r => Ev.record r.1 r.2.1).reverse,
        (∀ x, e ≠ .recv x) ∧ ∀ x, e ≠ .sent x := by
      intro e he
      simp only [List.mem_reverse, List.mem_map] at he
      obtain ⟨r, _, rfl⟩ := he
      simp
    have hold : ∀ {a b s e}, Ev.sent (.handshake (.helloRetryRequest a b s e)) ∈ .sent content ::
        ((records.map fun r => Ev.record r.1 r.2.1).reverse ++ c.tr) →
        content = .handshake (.helloRetryRequest a b s e) ∨
        Ev.sent (.handshake (.helloRetryRequest a b s e)) ∈ c.tr := by
      intro a b s e hm
      rcases List.mem_cons.mp hm with hm | hm
      · cases hm; exact .inl rfl
      · rcases List.mem_append.mp hm with hm | hm
        · exact absurd rfl ((hrec _ hm).2 _)
        · exact .inr hm
    refine ⟨?_, ?_, fun hf => ?_⟩
    · cases h.state with
      | plain hp =>
        refine .plain ⟨hp.1, hp.2, fun a b s e hm => ?_⟩
        rcases hold hm with rfl | hm
        · obtain ⟨_, _, _, _, _, hst, _⟩ := hgd
          exact hp.state (hsd.state.trans hst)
        · exact hp.sent a b s e hm
      | bound hb =>
        refine .bound ⟨hb.pick, .tail _ (List.mem_append_right _ hb.hello), hb.config, hb.cipher,
          hb.random, fun a b s e hm => ?_, ?_, ?_, hb.state⟩
        · rcases hold hm with rfl | hm
          · obtain ⟨h1, h2, -⟩ := hb.retry hE hsd hgd
            exact ⟨h1, h2⟩
          · exact hb.sent a b s e hm
        · have happ : retryHellos ((records.map fun r => Ev.record r.1 r.2.1).reverse ++ c.tr) =
              retryHellos c.tr := retryHellos_append fun e he => (hrec e he).2
          by_cases hx : ∃ a b s e, content = .handshake (.helloRetryRequest a b s e)
          · obtain ⟨a, b, s, e, rfl⟩ := hx
            intro x hx
            rw [retryHellos, happ] at hx
            rcases List.mem_cons.mp hx with rfl | hx
            · rw [lastRecv_append fun e he => (hrec e he).1]
              exact hb.answers hE hi hsd hctx hgd
            · exact hb.asked x hx
          · have hother := retryHellos_other (x := content)
              (tr := (records.map fun r => Ev.record r.1 r.2.1).reverse ++ c.tr)
              fun a b s e h => hx ⟨a, b, s, e, h⟩
            intro x hx
            rw [hother, happ] at hx
            exact hb.asked x hx
        · intro h1 h2 r' sid' suites' exts' h3
          refine hb.fresh h1 h2 r' sid' suites' exts' ?_
          rw [← h3]
          exact (lastRecv_append fun e he => (hrec e he).1).symm
    · refine (h.trace.unsent _ fun e he => (hrec e he).2).cons ?_
      cases content with
      | handshake m => exact h.sentOk hE hi hsd hctx hrec hgd
      | _ => trivial
    · obtain ⟨r, sid, suites, exts, enc, nc, h1, h2⟩ := h.done hf
      exact ⟨r, sid, suites, exts, enc, nc,
        h1.suffix ((List.suffix_append _ _).trans (List.suffix_cons _ _)), h2⟩

theorem NegInv.api (hE : E.Shares) {g : Config} (hg : g.check = .ok ()) {c c' : Conn}
    (h : NegInv E g c) (hi : SideInv .server c) (hs : Api E G c c') : NegInv E g c' := by
  have closed : ∀ {c' : Conn} {s : St}, c' = { c with state := s } → s.flown = false →
      s ≠ .serverWaitCH false → s.unretried = false → NegInv E g c' := by
    rintro c' s rfl h1 h2 h3
    refine ⟨?_, h.trace, fun hf => by rw [h1] at hf; cases hf⟩
    cases h.state with
    | plain hp => exact .plain ⟨hp.1, h2, hp.3⟩
    | bound hb => exact .bound ⟨hb.1, hb.2, hb.3, hb.4, hb.5, hb.6, hb.7, fun _ hx => absurd hx h2, h3⟩
  cases hs with
  | step hs => exact h.step hE hg hi hs
  | appended | read | drain =>
    exact h.mute rfl rfl rfl (fun _ => rfl) (fun _ => rfl) (fun _ => id) [] rfl (by simp)
  | closeRecv =>
    unfold closeReceivingEnd
    split <;> exact closed rfl rfl (by simp) rfl
  | closing => cases hs : c.state <;> exact closed rfl rfl (by simp [St.closing]) rfl
  | closedSend => exact closed rfl rfl (by simp) rfl

theorem NegInv.run (hE : E.Shares) {config : Config} {hostname ocsp algs random} {c : Conn}
    (h : Conn.new config hostname ocsp algs random = .ok c) (hside : config.side = .server)
    (hcheck : config.check = .ok ()) (ops : List Op) : NegInv E config (runOps E ops c) := by
  have hi := SideInv.fresh h
  rw [hside] at hi
  refine (runOps_inv (I := fun c => SideInv .server c ∧ NegInv E config c) (fun c c' h hs =>
    ⟨h.1.api hs, h.2.api hE hcheck h.1 hs⟩) ⟨hi, ?_⟩ ops).2
  obtain ⟨h0, _, _, _, _, _, _, _, htr, _, _, _, hs⟩ := Conn.new_fresh h
  have hst : c.state = .serverStart := by
    rcases hs with ⟨h, _⟩ | ⟨_, h, _⟩
    · rw [hside] at h; cases h
    · exact h
  refine ⟨.plain ⟨h0, by rw [hst]; simp, by rw [htr]; simp⟩, by rw [htr]; exact .nil, ?_⟩
  rw [hst]
  intro h; cases h

end Siotls
