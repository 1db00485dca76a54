import Verif.Proofs.AlgInv
import Verif.Proofs.Traces
import Verif.Spec.Auth
/-!
# Evidence gathered during the handshake
-/

namespace Siotls

variable {E : Env} {G : Conn → Prop} {P : Covers}

/-! ## the evidence survives -/

theorem ClientExchange.mono {a tr tr' s th} (h : ClientExchange E P a tr s th) (ht : tr <:+ tr') :
    ClientExchange E P a tr' s th := by
  obtain ⟨t, r, sid, su, ex, g, sh, pr, mi, d, h1, h2⟩ := h
  exact ⟨t, r, sid, su, ex, g, sh, pr, mi, d, h1.trans ht, h2⟩

theorem ServerExchange.mono {a tr tr' s th} (h : ServerExchange E P a tr s th) (ht : tr <:+ tr') :
    ServerExchange E P a tr' s th := by
  obtain ⟨t, r, sid, su, ex, shs, g, sh, pr, mi, d, x, y, z, h1, h2⟩ := h
  exact ⟨t, r, sid, su, ex, shs, g, sh, pr, mi, d, x, y, z, h1.trans ht, h2⟩

theorem Step.ocsp {c c' : Conn} (hs : Step E G c c') : c'.hasOcsp = c.hasOcsp := by
  cases hs <;> rfl

theorem Api.ocsp {c c' : Conn} (hs : Api E G c c') : c'.hasOcsp = c.hasOcsp := by
  cases hs with
  | step hs => exact hs.ocsp
  | closeRecv => obtain ⟨s, hs⟩ := closeReceivingEnd_same c; rw [hs]
  | _ => rfl

theorem Conn.new_ocsp {config : Config} {hostname ocsp algs random} {c : Conn}
    (h : Conn.new config hostname ocsp algs random = .ok c) : c.hasOcsp = ocsp := by
  unfold Conn.new at h
  cases h1 : suiteDigests config.cipherSuites with
  | error e => rw [h1] at h; cases h
  | ok ds =>
  cases h2 : Transcript.new algs with
  | error e => rw [h1, h2] at h; cases h
  | ok t =>
    rw [h1, h2] at h
    cases h3 : config.side with
    | client =>
      rw [h3] at h
      cases h
      rfl
    | server =>
      rw [h3] at h
      replace h : (if hostname.any (!·.isEmpty) then Except.error Exn.valueError else _) = _ := h
      split at h
      · cases h
      · cases h
        rfl

theorem ChainVerified.mono {a config hostname ocsp store tr tr' leaf h}
    (hc : ChainVerified E P a config hostname ocsp store tr leaf h) (ht : tr <:+ tr') :
    ChainVerified E P a config hostname ocsp store tr' leaf h := by
  obtain ⟨t, x, y, z, u, v, h1, h2⟩ := hc
  exact ⟨t, x, y, z, u, v, h1.trans ht, h2⟩

theorem SignatureVerified.mono {a config hostname ocsp store tr tr' leaf h}
    (hc : SignatureVerified E P a config hostname ocsp store tr leaf h) (ht : tr <:+ tr') :
    SignatureVerified E P a config hostname ocsp store tr' leaf h := by
  obtain ⟨t, x, y, z, u, h1, h2⟩ := hc
  exact ⟨t, x, y, z, u, h1.trans ht, h2⟩

theorem ServerAuthenticated.mono {a config hostname ocsp store tr tr'}
    (hc : ServerAuthenticated E P a config hostname ocsp store tr) (ht : tr <:+ tr') :
    ServerAuthenticated E P a config hostname ocsp store tr' := by
  obtain ⟨t, x, y, z, u, v, h1, h2⟩ := hc
  exact ⟨t, x, y, z, u, v, h1.trans ht, h2⟩

theorem ClientFinished.mono {a tr tr'} (hc : ClientFinished E P a tr) (ht : tr <:+ tr') :
    ClientFinished E P a tr' := by
  obtain ⟨t, x, y, z, u, v, w, h1, h2⟩ := hc
  exact ⟨t, x, y, z, u, v, w, h1.trans ht, h2⟩

theorem ServerFinished.mono {a tr tr'} (hc : ServerFinished E P a tr) (ht : tr <:+ tr') :
    ServerFinished E P a tr' := by
  obtain ⟨t, x, y, z, u, v, w, k, h1, h2⟩ := hc
  exact ⟨t, x, y, z, u, v, w, k, h1.trans ht, h2⟩

/-! ## the key exchange -/

/-- by side -/
def Exchange (E : Env) (P : Covers) (s : Side) (a : HashAlg) (tr : List Ev) (shared th : Bytes) : Prop :=
  match s with
  | .client => ClientExchange E P a tr shared th
  | .server => ServerExchange E P a tr shared th

theorem Exchange.mono {s a tr tr' x th} (h : Exchange E P s a tr x th) (ht : tr <:+ tr') :
    Exchange E P s a tr' x th := by
  cases s
  · exact ClientExchange.mono h ht
  · exact ServerExchange.mono h ht

/-- where the keys of the Finished messages come from -/
def Source (E : Env) (P : Covers) (s : Side) (tr : List Ev) (k : CipherSt) : Prop :=
  k.info.usageLimit.isSome = true → ∀ f, k.cFin = .key f ∨ k.sFin = .key f → ∃ shared th,
    k.cFin = .key ((E.spec k.info.digest).finishedKey ((E.spec k.info.digest).cHs shared th)) ∧
    k.sFin = .key ((E.spec k.info.digest).finishedKey ((E.spec k.info.digest).sHs shared th)) ∧
    Exchange E P s k.info.digest tr shared th

structure SrcInv (E : Env) (P : Covers) (s : Side) (c : Conn) : Prop where
  src : ∀ k, c.cipher = some k → Source E P s c.tr k
  shares : ∀ f ks ch, c.state = .clientWaitSH f ks ch →
    ∃ g priv d mine, ks = [(g, priv)] ∧ E.kexInit g d = .ok (priv, mine)

theorem Source.same {s tr tr'} {k k' : CipherSt} (h : Source E P s tr k) (ht : tr <:+ tr')
    (hi : k'.info = k.info) (hc : k'.cFin = k.cFin) (hs : k'.sFin = k.sFin) :
    Source E P s tr' k' := by
  unfold Source
  rw [hi, hc, hs]
  intro hu f hf
  obtain ⟨sh, th, h1, h2, h3⟩ := h hu f hf
  exact ⟨sh, th, h1, h2, h3.mono ht⟩

/-- a client takes a hash: it has the ServerHello, or waits for the Certificate or its signature -/
def Conn.Hashes (c : Conn) : Prop :=
  (∃ f ks ch r sid s e, c.state = .clientWaitSH f ks ch ∧
    lastRecv c.tr = some (.handshake (.serverHello r sid s e))) ∨
  (∃ m, c.state = .clientWaitCert m) ∨ ∃ m h, c.state = .clientWaitCV m h

/-- a hash taken now covers the trace -/
def Hashing (E : Env) (P : Covers) (c : Conn) : Prop :=
  ∀ k h, c.cipher = some k → c.AlgOk →
    (c.config.side = .server → ∃ m, Ev.sent (.handshake m) ∈ c.tr) →
    (c.config.side = .client → c.Hashes) →
    c.transcript.digest E = .ok h → P k.info.digest c.tr h

theorem SrcInv.same {s} {c c' : Conn} (h : SrcInv E P s c) (ht : c.tr <:+ c'.tr)
    (hs : ∀ f ks ch, c'.state = .clientWaitSH f ks ch → c.state = .clientWaitSH f ks ch)
    (hk : ∀ k', c'.cipher = some k' → ∃ k, c.cipher = some k ∧ k'.info = k.info ∧
      k'.cFin = k.cFin ∧ k'.sFin = k.sFin) : SrcInv E P s c' := by
  refine ⟨fun k' hk' => ?_, fun f ks ch hst => h.shares f ks ch (hs _ _ _ hst)⟩
  obtain ⟨k, h1, h2, h3, h4⟩ := hk k' hk'
  exact (h.src k h1).same ht h2 h3 h4

theorem SrcInv.step (hE : E.Sized) {s} {c c' : Conn} (h : SrcInv E P s c) (hs : Step E G c c')
    (hi : SideInv s c) (hk : KeyInv E c) (ha : AlgInv c) (hP : Hashing E P c) : SrcInv E P s c' := by
  have hsuf := hs.suffix
  have hself : ∀ k', c.cipher = some k' → ∃ k, c.cipher = some k ∧ k'.info = k.info ∧
      k'.cFin = k.cFin ∧ k'.sFin = k.sFin := fun k hk => ⟨k, hk, rfl, rfl, rfl⟩
  cases hs with
  | badRecord hc | opened hc | sealed hc =>
    exact h.same hsuf (fun _ _ _ => id) (by rintro _ ⟨⟩; exact ⟨_, hc, rfl, rfl, rfl⟩)
  | skipEarly hc hsk =>
    obtain ⟨_, _, rfl⟩ := skipEarly_view hsk
    exact h.same hsuf (fun _ _ _ => id) (by rintro _ ⟨⟩; exact ⟨_, hc, rfl, rfl, rfl⟩)
  | setup hok =>
    refine ⟨?_, h.shares⟩
    rintro _ ⟨⟩ _ f (hf | hf) <;> cases hf
  | hrrServer | retry =>
    exact h.same hsuf (fun _ _ _ hx => (by cases hx)) hself
  | @masterKeys k sf cf r k' _ hc hok hd =>
    cases deriveMaster_view hd with
    | refused => exact h.same hsuf (fun _ _ _ => id) (by rintro _ ⟨⟩; exact ⟨_, hc, rfl, rfl, rfl⟩)
    | stuck => exact h.same hsuf (fun _ _ _ => id) (by rintro _ ⟨⟩; exact ⟨_, hc, rfl, rfl, rfl⟩)
    | done =>
      refine ⟨?_, h.shares⟩
      rintro _ ⟨⟩ _ f (hf | hf) <;> cases hf
  | @handshakeKeys k shared hash r k' _ hc hok hd =>
    refine ⟨?_, h.shares⟩
    rintro _ ⟨⟩
    have hi' : k'.info = k.info := by cases deriveHandshake_view hd <;> rfl
    by_cases hu : k.info.usageLimit.isSome = true
    swap
    · intro hu'; rw [hi'] at hu'; exact absurd hu' hu
    obtain ⟨hid, hkey⟩ := hk.key k hc
    by_cases hst : k.secrets.stage = 1
    swap
    · cases deriveHandshake_view hd with
      | refused => exact (h.src k hc).same hsuf rfl rfl rfl
      | early h => exact absurd h hst
      | stuck h => exact absurd h hst
      | done h => exact absurd h hst
    have hsec : k.secrets = ⟨1, (E.spec k.info.digest).deriveSecret
        (E.spec k.info.digest).earlySecret "derived" ((E.spec k.info.digest).hash [])⟩ := by
      rcases hkey hu with ⟨hsec | hsec, _⟩ | ⟨sh, hsec, _⟩
      · rw [hsec] at hst; cases hst
      · exact hsec
      · rw [hsec] at hst; cases hst
    rw [handshake_keys hE hid hu k rfl shared hash (hok.length hE) hsec] at hd
    cases hd
    refine fun _ f _ => ⟨shared, hash, rfl, rfl, Exchange.mono (tr := c.tr) ?_ hsuf⟩
    cases hok with
    | @client f ks ch random sid suite exts g share priv hst hl _ _ hks hfind _ hres _ hal hdig =>
      have hs' := hi.state .client (by rw [hst]; rfl)
      subst hs'
      obtain ⟨g', priv', d, mine, hks', hinit⟩ := h.shares _ _ _ hst
      have : g' = g ∧ priv' = priv := by
        rw [hks'] at hfind
        have := List.mem_of_find?_eq_some hfind
        rw [List.mem_singleton] at this
        cases this; exact ⟨rfl, rfl⟩
      obtain ⟨rfl, rfl⟩ := this
      have hok : c.AlgOk := by
        cases f with
        | true => exact hal rfl
        | false => exact ha.settled (by rw [hst]; rfl)
      exact ⟨c.tr, random, sid, suite, exts, g', share, priv', mine, d, List.suffix_refl _,
        lastRecv_mem hl, hks, hinit, hres,
        hP k hash hc hok (fun hx => by rw [hi.config] at hx; cases hx)
          (fun _ => .inl ⟨_, _, _, _, _, _, _, hst, hl⟩) hdig⟩
    | @server f random sid suites exts l g theirs d priv mine sr clear hst hl hks hfind _ hinit hres
        hne hsent hclear hal hdig =>
      have hs' := hi.state .server (by rw [hst]; rfl)
      subst hs'
      have hok : c.AlgOk := by
        cases f with
        | true => exact hal rfl
        | false => exact ha.settled (by rw [hst]; rfl)
      obtain ⟨suite, hsent⟩ := hsent
      refine ⟨c.tr, random, sid, suites, exts, l, g, theirs, priv, mine, d, sr, suite, _,
        List.suffix_refl _, lastRecv_mem hl, hks, List.mem_of_find?_eq_some hfind, hinit, hres, hne,
        hsent, ?_, hP k hash hc hok (fun _ => ⟨_, hsent⟩)
          (fun hx => by rw [hi.config] at hx; cases hx) hdig⟩
      rw [hclear]
      exact .tail _ (.head _)
  | @move st hm =>
    refine ⟨h.src, fun f ks ch hst => ?_⟩
    dsimp only at hst
    subst hst
    cases hm with
    | clientHello _ _ _ _ hinit => exact ⟨_, _, _, _, rfl, hinit⟩
  | _ => exact h.same hsuf (fun _ _ _ => id) hself

theorem SrcInv.api (hE : E.Sized) {s} {c c' : Conn} (h : SrcInv E P s c) (hs : Api E G c c')
    (hi : SideInv s c) (hk : KeyInv E c) (ha : AlgInv c) (hP : Hashing E P c) : SrcInv E P s c' := by
  cases hs with
  | step hs => exact h.step hE hs hi hk ha hP
  | appended | read | drain => exact ⟨h.1, h.2⟩
  | closeRecv =>
    refine ⟨?_, ?_⟩
    · obtain ⟨st, hs⟩ := closeReceivingEnd_same c
      rw [hs]; exact h.src
    · unfold closeReceivingEnd
      split <;> intro _ _ _ hx <;> cases hx
  | closing =>
    refine ⟨h.1, fun f ks ch hx => ?_⟩
    cases hs : c.state <;> rw [hs] at hx <;> cases hx
  | closedSend => exact ⟨h.1, fun f ks ch hx => by cases hx⟩

theorem SrcInv.fresh {s} {config : Config} {hostname ocsp algs random} {c : Conn}
    (h : Conn.new config hostname ocsp algs random = .ok c) : SrcInv E P s c := by
  obtain ⟨h0, _, hc, _, _, _, _, _, htr, _, _, _, hs⟩ := Conn.new_fresh h
  refine ⟨by rw [hc]; simp, ?_⟩
  rcases hs with ⟨_, h, _⟩ | ⟨_, h, _⟩ <;> rw [h] <;> intro _ _ _ h <;> cases h

end Siotls
