import Verif.Proofs.AuthInv
/-!
# Evidence about the peer, by state
-/

namespace Siotls

variable {E : Env} {G : Conn → Prop} {P : Covers}

/-- client states before the server's Certificate -/
def St.beforeCert : St → Bool
  | .clientStart _ | .clientWaitSH .. | .clientWaitEE | .clientWaitCertCr => true
  | _ => false

/-- client states in which the server's Certificate is processed -/
def St.atCert : St → Bool
  | .clientWaitCertCr | .clientWaitCert _ => true
  | _ => false

/-- the first entry is a raw key -/
def RawFirst (entries : List CertEntry) : Prop := ∃ k x es, entries = .rawKey k x :: es

structure CertInv (E : Env) (P : Covers) (config : Config) (hostname : Option PyStr) (ocsp : Bool) (store : Bytes)
    (c : Conn) : Prop where
  before : c.state.beforeCert = true → ∀ nc, c.nconfig = some nc → nc.peerPublicKey = none
  raw : ∀ m nc k, c.state = .clientWaitCert m → c.nconfig = some nc → nc.peerPublicKey = some k →
    6 ≤ c.transcript.orderI ∧ ∀ ctx entries,
      lastRecv c.tr = some (.handshake (.certificate ctx entries)) → RawFirst entries
  at_ : c.state.atCert = true → ∀ ctx entries,
    lastRecv c.tr = some (.handshake (.certificate ctx entries)) → 6 ≤ c.transcript.orderI
  chain : ∀ m h, c.state = .clientWaitCV m h → ∃ k nc leaf, c.cipher = some k ∧
    c.nconfig = some nc ∧ nc.peerCertificate = some leaf ∧ nc.peerPublicKey = none ∧
    ChainVerified E P k.info.digest config hostname ocsp store c.tr leaf h
  signature : ∀ m h, c.state = .clientWaitFin m h → ∃ k leaf, c.cipher = some k ∧
    SignatureVerified E P k.info.digest config hostname ocsp store c.tr leaf h

theorem certsOf_chain {entries : List CertEntry} {certs : List Bytes}
    (h : certsOf entries = .ok certs) : IsChain entries certs := by
  induction entries generalizing certs with
  | nil => cases h; exact .nil
  | cons e es ih =>
    cases e with
    | rawKey k x => cases h
    | x509 x ex =>
      simp only [certsOf, CertEntry.cert, Except.bind_def] at h
      cases hc : certsOf es with
      | error e => rw [hc] at h; cases h
      | ok cs =>
        rw [hc] at h
        cases h
        exact .cons ⟨ex, rfl⟩ (ih hc)

theorem subjectOf_requested (hostname : Option PyStr) : Requested E hostname (subjectOf E hostname) := by
  unfold subjectOf
  split
  · exact .inl rfl
  · rename_i h
    split
    · rename_i he
      simp only [List.isEmpty_iff] at he
      exact .inr (by rw [he])
    · rename_i he
      simp only [List.isEmpty_iff] at he
      split
      · rename_i hi; exact ⟨rfl, he, hi⟩
      · rename_i hi; exact ⟨rfl, he, by simpa using hi⟩

theorem StatusesOk.stapled {ocsp : Bool} {entries : List CertEntry} (h : StatusesOk E ocsp entries) :
    Stapled E entries := by
  intro l
  induction l generalizing entries with
  | nil =>
    rintro cert exts issuer exts' r res rfl hf
    rcases h.1 with ⟨_, _, _, d, h0, h1, h2, h3⟩ | ⟨h0, -⟩
    · cases h1; cases h2
      cases hf.symm.trans h0
      exact ⟨d, h3⟩
    · cases hf.symm.trans h0
  | cons x l ih =>
    rintro cert exts issuer exts' r res rfl hf
    refine ih (entries := l ++ .x509 cert exts :: .x509 issuer exts' :: r) ?_ _ _ _ _ _ _ rfl hf
    cases l with
    | nil => exact h.2
    | cons y l => exact h.2

theorem StatusesOk.lookedUp {ocsp : Bool} {entries : List CertEntry} (h : StatusesOk E ocsp entries) :
    LookedUp E ocsp entries := by
  intro l
  induction l generalizing entries with
  | nil =>
    rintro cert exts issuer exts' r rfl
    rcases h.1 with ⟨res, _, _, d, h0, h1, h2, h3⟩ | ⟨h0, h1⟩
    · cases h1; cases h2
      exact .inl ⟨res, d, List.mem_of_find?_eq_some h0, h3⟩
    · refine .inr ⟨fun e he => by simpa using List.find?_eq_none.mp h0 e he, fun ho => ?_⟩
      obtain ⟨_, url, h2, h3, h4⟩ := h1 ho
      cases h2
      refine ⟨url, h3, ?_⟩
      rcases h4 with h4 | h4 | ⟨_, d, res, d', h5, h6, h7⟩
      · exact .inl h4
      · exact .inr (.inl h4)
      · cases h5
        exact .inr (.inr ⟨d, res, d', h6, h7⟩)
  | cons x l ih =>
    rintro cert exts issuer exts' r rfl
    refine ih (entries := l ++ .x509 cert exts :: .x509 issuer exts' :: r) ?_ _ _ _ _ _ rfl
    cases l with
    | nil => exact h.2
    | cons y l => exact h.2

theorem signedContent_eq (h : Bytes) : certificateVerifyServer ++ h = signedContent h := by
  have : certificateVerifyServer = List.replicate 64 0x20 ++
    Spec.ascii "TLS 1.3, server CertificateVerify" ++ [0] := by decide +kernel
  rw [this]; rfl

/-- nothing that matters changes -/
theorem CertInv.same {config hostname ocsp store} {c c' : Conn} (h : CertInv E P config hostname ocsp store c)
    (ht : c.tr <:+ c'.tr) (hs : c'.state = c.state) (hn : c'.nconfig = c.nconfig)
    (ho : c'.state.atCert = true → c.transcript.orderI ≤ c'.transcript.orderI)
    (hr : c'.state.atCert = true → ∀ ctx entries,
      lastRecv c'.tr = some (.handshake (.certificate ctx entries)) → lastRecv c'.tr = lastRecv c.tr)
    (hk : ∀ k, c.cipher = some k → ∃ k', c'.cipher = some k' ∧ k'.info.digest = k.info.digest) :
    CertInv E P config hostname ocsp store c' := by
  refine ⟨?_, ?_, ?_, ?_, ?_⟩
  · rw [hs, hn]; exact h.before
  · intro m nc k h1 h2 h3
    have hat : c'.state.atCert = true := by rw [h1]; rfl
    obtain ⟨h4, h5⟩ := h.raw m nc k (hs ▸ h1) (hn ▸ h2) h3
    exact ⟨h4.trans (ho hat), fun ctx entries hl => h5 ctx entries (by rw [← hr hat _ _ hl]; exact hl)⟩
  · intro h1 ctx entries hl
    exact (h.at_ (hs ▸ h1) ctx entries (by rw [← hr h1 _ _ hl]; exact hl)).trans (ho h1)
  · intro m hh h1
    obtain ⟨k, nc, leaf, h2, h3, h4, h5, h6⟩ := h.chain m hh (hs ▸ h1)
    obtain ⟨k', h7, h8⟩ := hk k h2
    exact ⟨k', nc, leaf, h7, hn ▸ h3, h4, h5, h8 ▸ h6.mono ht⟩
  · intro m hh h1
    obtain ⟨k, leaf, h2, h3⟩ := h.signature m hh (hs ▸ h1)
    obtain ⟨k', h7, h8⟩ := hk k h2
    exact ⟨k', leaf, h7, h8 ▸ h3.mono ht⟩

/-- prepending events that are not receptions -/
theorem CertInv.quiet {config hostname ocsp store} {c c' : Conn} (h : CertInv E P config hostname ocsp store c)
    (l : List Ev) (ht : c'.tr = l ++ c.tr) (hl : ∀ e ∈ l, ∀ x, e ≠ .recv x)
    (hs : c'.state = c.state) (hn : c'.nconfig = c.nconfig) (ho : c'.transcript = c.transcript)
    (hk : ∀ k, c.cipher = some k → ∃ k', c'.cipher = some k' ∧ k'.info.digest = k.info.digest) :
    CertInv E P config hostname ocsp store c' :=
  h.same (by rw [ht]; exact List.suffix_append _ _) hs hn (fun _ => by rw [ho])
    (fun _ _ _ _ => by rw [ht]; exact lastRecv_append hl) hk

theorem update_le {t t' : Transcript} {d : Bytes} {s : Side} {ty : Nat} {r}
    (h : t.update d s ty = (r, t')) : t.orderI ≤ t'.orderI := by
  cases update_view h with
  | over => exact le_refl _
  | taken h1 => exact Nat.le_succ_of_le h1
  | refused h1 => exact h1

theorem registered_fit {s : Nat} (h : sigRegistered s = true) : ∃ o, Spec.Fit o s := by
  simp only [sigRegistered, List.contains_eq_mem, List.mem_cons, List.not_mem_nil, or_false,
    decide_eq_true_eq] at h
  rcases h with h | h | h | h | h | h | h | h | h | h | h | h | h | h <;> subst h
  exacts [⟨_, .pkcs1_256⟩, ⟨_, .pkcs1_384⟩, ⟨_, .pkcs1_512⟩, ⟨_, .rsae_256⟩, ⟨_, .rsae_384⟩,
    ⟨_, .rsae_512⟩, ⟨_, .pss_256⟩, ⟨_, .pss_384⟩, ⟨_, .pss_512⟩, ⟨_, .p256⟩, ⟨_, .p384⟩, ⟨_, .p521⟩,
    ⟨_, .ed25519⟩, ⟨_, .ed448⟩]

theorem CertInv.step {config hostname ocsp store} (hstore : config.trustStore = some store)
    (hside : config.side = .client) {c c' : Conn}
    (h : CertInv E P config hostname ocsp store c) (hs : Step E G c c') (hcfg : CfgInv config hostname c)
    (hoc : c.hasOcsp = ocsp) (hi : SideInv .client c) (ho : ClientOrder c) (ha : AlgInv c) (hP : Hashing E P c) :
    CertInv E P config hostname ocsp store c' := by
  have hsuf := hs.suffix
  have self : ∀ k, c.cipher = some k → ∃ k', c.cipher = some k' ∧ k'.info.digest = k.info.digest :=
    fun k hk => ⟨k, hk, rfl⟩
  have kd : ∀ {k k' : CipherSt}, c.cipher = some k → k'.info = k.info → ∀ k₁, c.cipher = some k₁ →
      ∃ k₂, some k' = some k₂ ∧ k₂.info.digest = k₁.info.digest := by
    intro k k' hc hi k₁ hk
    rw [hc] at hk; cases hk
    exact ⟨k', rfl, by rw [hi]⟩
  have noS : ∀ {x}, c.state.side? = some x → x = .client := fun h => hi.state _ h
  have hauth : c.config.requirePeerAuth = true := by
    obtain ⟨_, _, _, he⟩ := hcfg.same
    rw [he]
    simp [Config.requirePeerAuth, hstore]
  cases hs with
  | input | draw | fragment | cfg | signature | clientUnique | serverUnique =>
    exact h.quiet [] rfl (by simp) rfl rfl rfl self
  | gotHandshake => exact h.quiet [_] rfl (by simp) rfl rfl rfl self
  | gotOther => exact h.quiet [_] rfl (by simp) rfl rfl rfl self
  | delivered => exact h.quiet [_] rfl (by simp) rfl rfl rfl self
  | badRecord hc => exact h.quiet [] rfl (by simp) rfl rfl rfl (kd hc rfl)
  | opened hc => exact h.quiet [_] rfl (by simp) rfl rfl rfl (kd hc rfl)
  | sealed hc => exact h.quiet [_] rfl (by simp) rfl rfl rfl (kd hc rfl)
  | skipEarly hc hsk =>
    obtain ⟨_, _, rfl⟩ := skipEarly_view hsk
    exact h.quiet [] rfl (by simp) rfl rfl rfl (kd hc rfl)
  | @handshakeKeys k shared hash r k' _ hc _ hd =>
    exact h.quiet _ rfl (fun e he => (keyEvents_mute _ _ _ e he).2) rfl rfl rfl
      (kd hc (by cases deriveHandshake_view hd <;> rfl))
  | @masterKeys k sf cf r k' _ hc _ hd =>
    exact h.quiet _ rfl (fun e he => (keyEvents_mute _ _ _ e he).2) rfl rfl rfl
      (kd hc (by cases deriveMaster_view hd <;> rfl))
  | @emit c₀ content records =>
    refine h.quiet (.sent content :: (records.map fun r => Ev.record r.1 r.2.1).reverse) rfl ?_ rfl
      rfl rfl self
    intro e he
    simp only [List.mem_cons, List.mem_reverse, List.mem_map] at he
    rcases he with rfl | ⟨r, _, rfl⟩ <;> simp
  | @hashSent hh data b t _ _ _ hu =>
    refine h.same hsuf rfl rfl (fun _ => update_le hu) (fun _ _ _ _ => ?_) self
    cases b
    · rfl
    · exact lastRecv_append (l := [_]) (by simp)
  | hashError hu =>
    exact h.same hsuf rfl rfl (fun _ => update_le hu) (fun _ _ _ _ => rfl) self
  | @received ct d x _ _ _ hne =>
    refine h.same hsuf rfl rfl (fun _ => le_refl _) (fun _ ctx entries hl => ?_) self
    cases hl
    exact absurd rfl (hne _)
  | setup hok =>
    cases hok with
    | server hst => cases noS (x := .server) (by rw [hst]; rfl)
    | @client ks ch _ _ _ hst =>
      refine ⟨h.before, ?_, ?_, ?_, ?_⟩ <;> dsimp only <;> rw [hst] <;> intros <;> contradiction
  | postInit hc hp hst =>
    refine h.same hsuf rfl rfl (fun _ => ?_) (fun _ _ _ _ => rfl) self
    rw [postInit_order hp]
  | hrrClient hst _ _ hd =>
    refine ⟨h.before, ?_, ?_, ?_, ?_⟩ <;> dsimp only <;> rw [hst] <;> intros <;> contradiction
  | retry hst =>
    refine ⟨fun _ => h.before (by rw [hst]; rfl), ?_, ?_, ?_, ?_⟩ <;> intros <;> contradiction
  | hrrServer hst => cases noS (x := .server) (by rw [hst]; rfl)
  | @receivedHs ct d x b t hg hgot hd hu =>
    have key : c.state.atCert = true → ∀ ctx entries, x = .certificate ctx entries →
        c.transcript.orderI ≤ 5 ∧ 6 ≤ t.orderI := by
      intro hat ctx entries hx
      subst hx
      rw [hi.config] at hu
      cases update_view hu with
      | over h12 =>
        have := ho.last h12
        cases hs : c.state <;> rw [hs] at hat this <;> first | (cases hat; done) | (cases this; done)
      | taken h1 h2 h3 =>
        have := (place_kind h3).2.2.2.1 rfl
        dsimp only; omega
    refine ⟨h.before, ?_, ?_, ?_, ?_⟩
    · intro m nc k h1 h2 h3
      obtain ⟨h4, h5⟩ := h.raw m nc k h1 h2 h3
      refine ⟨h4.trans (update_le hu), fun ctx entries hl => ?_⟩
      cases hl
      have hst : c.state.atCert = true := by
        have : c.state = _ := h1
        rw [this]; rfl
      have := (key hst _ _ rfl).1
      omega
    · intro hat ctx entries hl
      cases hl
      exact (key hat _ _ rfl).2
    · intro m hh h1
      obtain ⟨k, nc, leaf, h2, h3, h4, h5, h6⟩ := h.chain m hh h1
      exact ⟨k, nc, leaf, h2, h3, h4, h5, h6.mono hsuf⟩
    · intro m hh h1
      obtain ⟨k, leaf, h2, h3⟩ := h.signature m hh h1
      exact ⟨k, leaf, h2, h3.mono hsuf⟩
  | @nc n hn =>
    cases hn with
    | client hst =>
      refine ⟨?_, ?_, ?_, ?_, ?_⟩
      · rintro _ _ ⟨⟩; rfl
      all_goals dsimp only; rw [hst]; intros; contradiction
    | server hst => cases noS (x := .server) (by rw [hst]; rfl)
    | @upd o _ hnc hup =>
      have hkey : ∀ k, n.peerPublicKey = some k → o.peerPublicKey = some k ∨
          ∃ m ctx entries, c.state = .clientWaitCert m ∧
            lastRecv c.tr = some (.handshake (.certificate ctx entries)) ∧ RawFirst entries := by
        intro k hk
        rcases hup.peerKey with h | ⟨x, ex, es, ctx, m, _, h1, h2⟩
        · exact .inl (h ▸ hk)
        · exact .inr ⟨m, ctx, _, h1, h2, _, _, _, rfl⟩
      refine ⟨?_, ?_, h.at_, ?_, h.signature⟩
      · rintro hb _ ⟨⟩
        cases hx : n.peerPublicKey with
        | none => rfl
        | some k =>
          rcases hkey k hx with h1 | ⟨m, _, _, h1, _⟩
          · rw [h.before hb o hnc] at h1; cases h1
          · dsimp only at hb; rw [h1] at hb; cases hb
      · rintro m _ k hst ⟨⟩ hx
        rcases hkey k hx with h1 | ⟨m, ctx, entries, h1, h2, h3⟩
        · exact h.raw m o k hst hnc h1
        · refine ⟨h.at_ (by rw [h1]; rfl) _ _ h2, fun ctx' entries' hl => ?_⟩
          dsimp only at hl
          rw [h2] at hl
          cases hl
          exact h3
      · intro m hh hst
        obtain ⟨k, nc, leaf, h2, h3, h4, h5, h6⟩ := h.chain m hh hst
        rw [hnc] at h3
        cases h3
        refine ⟨k, n, leaf, h2, rfl, ?_, ?_, h6⟩
        · rcases hup.peerCert with h | ⟨_, _, _, _, _, _, h1, _⟩
          · rw [h]; exact h4
          · have : c.state = _ := hst
            rw [h1] at this; cases this
        · rcases hup.peerKey with h | ⟨_, _, _, _, _, _, h1, _⟩
          · rw [h]; exact h5
          · have : c.state = _ := hst
            rw [h1] at this; cases this
  | @move s hm =>
    cases hm with
    | closeNotify | failed | clientDone | serverDone =>
      refine ⟨?_, ?_, ?_, ?_, ?_⟩ <;> intros <;> contradiction
    | serverInit hst | serverHrr hst | serverFinished hst =>
      cases noS (x := .server) (by rw [hst]; rfl)
    | clientHello hst | serverHello hst =>
      refine ⟨fun _ => h.before (by rw [hst]; rfl), ?_, ?_, ?_, ?_⟩ <;> intros <;> contradiction
    | extensions hst hl =>
      refine ⟨fun _ => h.before (by rw [hst]; rfl), ?_, ?_, ?_, ?_⟩
      · intros; contradiction
      · intro _ ctx entries hl'
        dsimp only at hl'
        rw [hl] at hl'; cases hl'
      all_goals intros; contradiction
    | request hst hl =>
      refine ⟨fun hx => (by cases hx), ?_, ?_, ?_, ?_⟩
      · intro m nc k _ hnc hk
        rw [h.before (by rw [hst]; rfl) nc hnc] at hk; cases hk
      · intro _ ctx entries hl'
        dsimp only at hl'
        rw [hl] at hl'; cases hl'
      all_goals intros; contradiction
    | noRequest hst hl =>
      refine ⟨fun hx => (by cases hx), ?_, ?_, ?_, ?_⟩
      · intro m nc k _ hnc hk
        rw [h.before (by rw [hst]; rfl) nc hnc] at hk; cases hk
      · intro _
        exact h.at_ (by rw [hst]; rfl)
      all_goals intros; contradiction
    | @certificate m ctx entries nc hh hst hl hnc hhead hok hstat hdig =>
      refine ⟨fun hx => (by cases hx), fun m nc k hx => (by cases hx), fun hx => (by cases hx), ?_,
        fun m hh hx => (by cases hx)⟩
      rintro _ _ ⟨⟩
      obtain ⟨st, leaf, others, d, h1, h2, h3, h4, h5⟩ := hok hauth
      obtain ⟨s, g, a, he⟩ := hcfg.same
      rw [he] at h1 h3 h5
      dsimp only at h1 h3 h5
      rw [hstore] at h1
      cases h1
      rw [(hcfg.client hside).2] at h3
      have hal := ha.settled (by rw [hst]; rfl)
      obtain ⟨k, _, hk, _⟩ := id hal
      refine ⟨k, nc, leaf, hk, hnc, h4, ?_, c.tr, ctx, entries, others, _, d, List.suffix_refl _,
        hhead, certsOf_chain h2, subjectOf_requested hostname, h3,
        StatusesOk.stapled (hstat hauth), hoc ▸ StatusesOk.lookedUp (hstat hauth), ?_, hP k hh hk hal (fun hx => by rw [hi.config] at hx; cases hx)
          (fun _ => .inr (.inl ⟨_, hst⟩)) hdig⟩
      swap
      · rcases h5 with h5 | h5 <;> rw [h5] <;> rfl
      cases hx : nc.peerPublicKey with
      | none => rfl
      | some x =>
        obtain ⟨_, _, _, hr⟩ := (h.raw m nc x hst hnc hx).2 _ _ hl
        rw [hr] at h2
        cases h2
    | @verify m ch alg sig nc pub hh hst hl hhead hmem hnc hpk hver hdig hreg =>
      refine ⟨fun hx => (by cases hx), fun m nc k hx => (by cases hx), fun hx => (by cases hx),
        fun m hh hx => (by cases hx), ?_⟩
      rintro _ _ ⟨⟩
      obtain ⟨k, nc', leaf, h2, h3, h4, h5, h6⟩ := h.chain _ _ hst
      rw [hnc] at h3
      cases h3
      have hal := ha.settled (by rw [hst]; rfl)
      rw [(hcfg.client hside).1] at hmem
      rw [signedContent_eq] at hver
      refine ⟨k, leaf, h2, c.tr, alg, sig, pub, ch, List.suffix_refl _, h6, hhead, hmem, registered_fit hreg, ?_, hver,
        hP k hh h2 hal (fun hx => by rw [hi.config] at hx; cases hx)
          (fun _ => .inr (.inr ⟨_, _, hst⟩)) hdig⟩
      unfold peerKey at hpk
      rw [h5, h4] at hpk
      exact hpk

theorem CertInv.api {config hostname ocsp store} (hstore : config.trustStore = some store)
    (hside : config.side = .client) {c c' : Conn}
    (h : CertInv E P config hostname ocsp store c) (hs : Api E G c c') (hcfg : CfgInv config hostname c)
    (hoc : c.hasOcsp = ocsp) (hi : SideInv .client c) (ho : ClientOrder c) (ha : AlgInv c) (hP : Hashing E P c) :
    CertInv E P config hostname ocsp store c' := by
  cases hs with
  | step hs => exact h.step hstore hside hs hcfg hoc hi ho ha hP
  | appended | read | drain => exact ⟨h.1, h.2, h.3, h.4, h.5⟩
  | closeRecv =>
    unfold closeReceivingEnd
    split <;> refine ⟨?_, ?_, ?_, ?_, ?_⟩ <;> intros <;> contradiction
  | closing =>
    cases hs : c.state <;> refine ⟨?_, ?_, ?_, ?_, ?_⟩ <;> intros <;> contradiction
  | closedSend =>
    refine ⟨?_, ?_, ?_, ?_, ?_⟩ <;> intros <;> contradiction

theorem CertInv.fresh {config : Config} {hostname ocsp algs random store} {c : Conn}
    (h : Conn.new config hostname ocsp algs random = .ok c) : CertInv E P config hostname ocsp store c := by
  obtain ⟨h0, hn, hc, _, _, _, _, _, htr, _, _, _, hs⟩ := Conn.new_fresh h
  refine ⟨?_, ?_, ?_, ?_, ?_⟩
  · rw [hn]; intro _ _ h; cases h
  · rw [hn]; intro _ _ _ _ h; cases h
  all_goals rcases hs with ⟨_, h, _⟩ | ⟨_, h, _⟩ <;> rw [h] <;> intros <;> contradiction

end Siotls
