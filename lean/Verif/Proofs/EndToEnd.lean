import Verif.Proofs.Meet
import Verif.Proofs.NegSpec
import Verif.Props.Record
import Verif.Spec.EndToEnd
/-!
# From compatible configurations to a session
-/

namespace Siotls
open Spec Serial

variable {E : Env}

/-! ## Application data under the keys of the session -/

theorem app_sends {info : SuiteInfo} {lim r : Nat} {side : Side} {z th : Bytes} (W : Works E info lim) :
    ∀ (payloads : List Bytes) (c : Conn) (w : Nat), c.state = .connected → c.mfl = 16384 →
      c.cipher = some (apCipher E info side z th w r) → (∀ d ∈ payloads, d.length ≤ 16366) →
      w + payloads.length ≤ 11863283 → ∃ c', SendsData E c payloads c' := by
  intro payloads
  induction payloads with
  | nil => exact fun c _ _ _ _ _ _ => ⟨c, .done c⟩
  | cons d ds ih =>
    intro c w hst hm hk hd hw
    have hd0 := hd d List.mem_cons_self
    have hlim := W.lim_ge
    have htag := W.tag
    rw [List.length_cons] at hw
    have h := send_sealed' (x := .applicationData d) (t' := c.transcript) (E := E) (c := c) (n := w)
      W.seals W.suite (fun _ => by rw [hst]; rfl) (by show 23 ≠ 24; decide) (by rw [hst]; rfl) rfl
      (Gives.pure () c) hk rfl W.limit (show w < lim by omega)
      (show d.length + 1 + info.tagLength ≤ c.mfl by omega) (Nat.le_of_eq hm)
    obtain ⟨t, h⟩ := h c.tr
    obtain ⟨c', h'⟩ := ih _ (w + 1) (show Conn.state { c with
        cipher := some { apCipher E info side z th w r with
          wr := ⟨some ((E.spec info.digest).writeKey (bySide side ((E.spec info.digest).cAp z th)
            ((E.spec info.digest).sAp z th)) info.keyLength),
            some ((E.spec info.digest).writeIv (bySide side ((E.spec info.digest).cAp z th)
            ((E.spec info.digest).sAp z th)) 12), some (w + 1)⟩ }
        outputData := _
        tr := t } = .connected from hst) hm rfl (fun d hd' => hd d (List.mem_cons_of_mem _ hd')) (by omega)
    exact ⟨c', .send h h'⟩

/-! ## The offer of the client -/

theorem offer_find {c : Conn} {g : Nat} {share : Bytes} {x : Ext} (h : x ∈ offerOf E c g share) :
    findExt (offerOf E c g share) x.type = some x := findExt_of_mem (offer_nodup ..) h

theorem offer_mem {c : Conn} {g : Nat} {share : Bytes} (x : Ext) :
    x ∈ offerOf E c g share ↔ x = .supportedVersionsReq [Iana.tls13] ∨
      x = .signatureAlgorithms c.config.signatureAlgorithms ∨
      x = .supportedGroups c.config.keyExchanges ∨
      x = .heartbeat (if c.config.canEchoHeartbeat then Iana.peerAllowedToSend
        else Iana.peerNotAllowedToSend) ∨
      (∃ h, c.hostname = some h ∧ h ≠ [] ∧ E.isIp h = false ∧ x = .serverNameReq (some h)) ∨
      (c.config.alpn.isEmpty = false ∧ x = .alpn c.config.alpn) ∨
      (c.config.publicKey.isSome = true ∧ x = .clientCertTypeReq c.config.certificateTypes) ∨
      (c.config.trustedPublicKeys.isEmpty = false ∧
        x = .serverCertTypeReq c.config.peerCertificateTypes) ∨
      (c.config.trustStore.isSome = true ∧ x = .ocspStatusReq [] []) ∨
      x = .keyShareReq [(g, share)] := by
  unfold offerOf clientExtensions
  simp only [List.mem_append, List.mem_cons, List.not_mem_nil, or_false]
  cases c.hostname with
  | none =>
    cases c.config.alpn.isEmpty <;> cases c.config.publicKey.isSome <;>
      cases c.config.trustedPublicKeys.isEmpty <;> cases c.config.trustStore.isSome <;>
      simp [or_assoc]
  | some h =>
    cases h with
    | nil =>
      cases c.config.alpn.isEmpty <;> cases c.config.publicKey.isSome <;>
        cases c.config.trustedPublicKeys.isEmpty <;> cases c.config.trustStore.isSome <;>
        simp [or_assoc]
    | cons a h =>
      cases h2 : E.isIp (a :: h) <;> cases c.config.alpn.isEmpty <;> cases c.config.publicKey.isSome <;>
        cases c.config.trustedPublicKeys.isEmpty <;> cases c.config.trustStore.isSome <;>
        simp [h2, or_assoc]

theorem offer_none {c : Conn} {g t : Nat} {share : Bytes} (h : ∀ x ∈ offerOf E c g share, x.type ≠ t) :
    findExt (offerOf E c g share) t = none := by
  unfold findExt
  rw [List.find?_eq_none]
  intro x hx
  simpa using h x hx

theorem offer_good {c : Conn} {g : Nat} {share rnd : Bytes} {suites : List Nat} (ct : Option (Option Nat))
    (hr : rnd.length = 32) (hs : suites ≠ []) (hpk : c.config.publicKey = none)
    (htk : c.config.trustedPublicKeys = [])
    (hal : ∀ p ∈ c.config.alpn, p.length < 256 ∧ ∀ x ∈ p, ' '.toNat ≤ x.toNat ∧ x.toNat ≤ '~'.toNat)
    (hh : ∀ h, c.hostname = some h → E.isIp h = false →
      ∃ enc, E.idnaEncode h = .ok enc ∧ E.idnaDecode enc = some h ∧ enc.length = h.length) :
    GoodMsg E ct (.clientHello rnd [] suites (offerOf E c g share)) := by
  refine ⟨hr, hs, ?_, ?_⟩
  · exact offer_nodup ..
  intro x hx
  rcases (offer_mem x).mp hx with rfl | rfl | rfl | rfl | ⟨h, h1, h2, h3, rfl⟩ | ⟨_, rfl⟩ | ⟨h, _⟩ |
    ⟨h, _⟩ | ⟨_, rfl⟩ | rfl
  · exact ⟨trivial, by simp [allowedIn], trivial, rfl⟩
  · exact ⟨trivial, by simp [allowedIn], trivial, rfl⟩
  · exact ⟨trivial, by simp [allowedIn], trivial, rfl⟩
  · refine ⟨?_, by simp [allowedIn], trivial, rfl⟩
    split <;> simp [legal, Iana.peerAllowedToSend, Iana.peerNotAllowedToSend]
  · obtain ⟨enc, e1, e2, e3⟩ := hh h h1 h3
    refine ⟨⟨enc, e1, e2⟩, by simp [allowedIn], ?_, rfl⟩
    intro enc' he
    rw [e1] at he
    cases he
    exact e3
  · exact ⟨fun p hp => (hal p hp).2, by simp [allowedIn], trivial, rfl⟩
  · rw [hpk] at h; cases h
  · rw [htk] at h; cases h
  · exact ⟨trivial, by simp [allowedIn], trivial, rfl⟩
  · exact ⟨by simp [legal], by simp [allowedIn], trivial, rfl⟩

theorem fit_suites {o : PubOid} {s : Nat} (h : Fit o s) : ∃ ss, suitesForOid o = .ok ss := by
  cases h <;> exact ⟨_, rfl⟩

theorem fit_known {o : PubOid} {s : Nat} (h : Fit o s) : sigRegistered s = true ∧ s < 65536 := by
  cases h <;> exact ⟨rfl, by decide⟩

theorem pick_scheme {o : PubOid} {scheme : Nat} {l ss before after : List Nat} (hss : suitesForOid o = .ok ss)
    (h1 : Fit o scheme ∧ scheme ∈ l) (h2 : ∀ s ∈ before, ¬ (Fit o s ∧ s ∈ l)) :
    (before ++ scheme :: after).find? (fun s => ss.contains s && l.contains s) = some scheme := by
  rw [List.find?_append, List.find?_eq_none.mpr, List.find?_cons_of_pos]
  · rfl
  · simp [(fit_iff hss scheme).mpr h1.1, h1.2]
  · intro s hs
    have := h2 s hs
    rw [← fit_iff hss] at this
    simpa using this

theorem offer_meets {c : Conn} {gs : Config} {d g scheme : Nat} {leaf share priv mine z : Bytes}
    {rest : List Bytes} (htk : c.config.trustedPublicKeys = [])
    (hgr : gs.keyExchanges.find? c.config.keyExchanges.contains = some g) (hreg : kexRegistered g = true)
    (hchain : gs.certificateChain = some (leaf :: rest))
    (hsch : ∃ before after, gs.signatureAlgorithms = before ++ scheme :: after ∧
      (Fit (E.certOid leaf) scheme ∧ scheme ∈ c.config.signatureAlgorithms) ∧
      ∀ s ∈ before, ¬ (Fit (E.certOid leaf) s ∧ s ∈ c.config.signatureAlgorithms))
    (hki : E.kexInit g d = .ok (priv, mine)) (hkr : E.kexResume g priv share = .ok z) (hz : z ≠ [])
    (hauth : gs.requirePeerAuth = false)
    (hp : c.config.alpn = [] ∨ gs.alpn = [] ∨ ∃ p ∈ gs.alpn, p ∈ c.config.alpn) :
    Offer E gs d (offerOf E c g share) g scheme leaf rest (gs.alpn.find? c.config.alpn.contains) mine z
      (if c.config.canEchoHeartbeat then Iana.peerAllowedToSend else Iana.peerNotAllowedToSend)
      c.config.trustStore.isSome where
  versions := ⟨[Iana.tls13], offer_find ((offer_mem _).mpr (.inl rfl)), by decide⟩
  groups := ⟨_, offer_find (x := .supportedGroups c.config.keyExchanges) ((offer_mem _).mpr (by simp)), hgr⟩
  chain := hchain
  schemes := by
    obtain ⟨before, after, h1, h2, h3⟩ := hsch
    obtain ⟨ss, hss⟩ := fit_suites h2.1
    exact ⟨_, ss, offer_find (x := .signatureAlgorithms c.config.signatureAlgorithms)
      ((offer_mem _).mpr (by simp)), hss, by rw [h1]; exact pick_scheme hss h2 h3⟩
  share := ⟨_, g, share, priv, offer_find (x := .keyShareReq [(g, share)]) ((offer_mem _).mpr (by simp)),
    by simp, hreg, hki, hkr⟩
  shared := hz
  noAuth := hauth
  certType := by
    refine offer_none fun x hx => ?_
    rcases (offer_mem x).mp hx with rfl | rfl | rfl | rfl | ⟨h, _, _, _, rfl⟩ | ⟨_, rfl⟩ | ⟨_, rfl⟩ |
      ⟨h, rfl⟩ | ⟨_, rfl⟩ | rfl
    all_goals first | (rw [htk] at h; cases h; done) | (simp [Ext.type, Iana.extServerCertificateType]; done) | skip
  fragment := by
    refine offer_none fun x hx => ?_
    rcases (offer_mem x).mp hx with rfl | rfl | rfl | rfl | ⟨h, _, _, _, rfl⟩ | ⟨_, rfl⟩ | ⟨_, rfl⟩ |
      ⟨h, rfl⟩ | ⟨_, rfl⟩ | rfl
    all_goals simp [Ext.type, Iana.extMaxFragmentLength]
  alpn := by
    by_cases he : c.config.alpn = []
    · left
      refine ⟨offer_none fun x hx => ?_, by rw [he]; simp⟩
      rcases (offer_mem x).mp hx with rfl | rfl | rfl | rfl | ⟨h, _, _, _, rfl⟩ | ⟨h, rfl⟩ | ⟨_, rfl⟩ |
        ⟨h, rfl⟩ | ⟨_, rfl⟩ | rfl
      all_goals first | (rw [he] at h; cases h; done) | (simp [Ext.type, Iana.extAlpn]; done) | skip
    · right
      refine ⟨_, offer_find (x := .alpn c.config.alpn) ((offer_mem _).mpr (by simp [he])), ?_⟩
      rcases hp with h | h | ⟨p, h1, h2⟩
      · exact absurd h he
      · left; exact ⟨h, by rw [h]; rfl⟩
      · right
        cases hf : gs.alpn.find? c.config.alpn.contains with
        | some b => exact ⟨b, rfl, rfl⟩
        | none =>
          have := List.find?_eq_none.mp hf p h1
          simp [h2] at this
  heartbeat := offer_find (x := .heartbeat _) ((offer_mem _).mpr (by simp))
  status := by
    cases ht : c.config.trustStore.isSome with
    | true => rw [show findExt (offerOf E c g share) Iana.extStatusRequest = _ from
        offer_find (x := .ocspStatusReq [] []) ((offer_mem _).mpr (by simp [ht]))]; rfl
    | false =>
      rw [offer_none]; · rfl
      intro x hx
      rcases (offer_mem x).mp hx with rfl | rfl | rfl | rfl | ⟨h, _, _, _, rfl⟩ | ⟨h, rfl⟩ | ⟨_, rfl⟩ |
        ⟨h, rfl⟩ | ⟨h, rfl⟩ | rfl
      all_goals first | (rw [ht] at h; cases h; done) | (simp [Ext.type, Iana.extStatusRequest]; done) | skip

/-! ## The flight of the server -/

theorem Writes.get {r : Except Exn Bytes} {n : Nat} (h : Writes r n) : ∃ b, r = .ok b ∧ b.length = n := h

theorem flies_exist {info : SuiteInfo} {lim g scheme d : Nat} {ch random z mine key : Bytes}
    {p staple : Option Bytes} {chain : List Bytes} {echo : Bool}
    {sign : Nat → Bytes → Bytes → Nat → Except Exn Bytes} (W : Works E info lim)
    (hr : random.length = 32) (hi : info.id < 65536) (hg : g < 65536) (hsc : scheme < 65536)
    (hm : mine.length ≤ 2048) (hp : ∀ b, p = some b → b.length < 256) (hc : chainSize E chain + stapleSize staple ≤ 15900)
    (hs : ∀ msg, ∃ sig, sign scheme key msg d = .ok sig ∧ sig.length ≤ 15000) :
    ∃ f, Flies E sign echo d f info ch random z g scheme mine key p chain staple := by
  obtain ⟨sh, h1, l1⟩ := (serverHello_writes (E := E) (share := mine) hr hi hg hm).get
  obtain ⟨n, hn, hw⟩ := encryptedExtensions_writes (E := E) (echo := echo) hp
  obtain ⟨ee, h2, l2⟩ := hw.get
  obtain ⟨nc, hnc, hwc⟩ := certificate_writes (E := E) (chain := chain) (staple := staple) (by omega)
  obtain ⟨ct, h3, l3⟩ := hwc.get
  obtain ⟨sig, h4, l4⟩ := hs (certificateVerifyServer ++ E.hash info.digest (ch ++ sh ++ ee ++ ct))
  obtain ⟨cv, h5, l5⟩ := (certificateVerify_writes (E := E) (alg := scheme) (sig := sig) hsc (by omega)).get
  have hz := W.sized.hmac info.digest ((E.spec info.digest).finishedKey
    ((E.spec info.digest).sHs z (E.hash info.digest (ch ++ sh))))
      (E.hash info.digest (ch ++ sh ++ ee ++ ct ++ cv))
  have := info.digest.size_le
  obtain ⟨fin, h6, l6⟩ := (finished_writes (E := E) (mac := E.hmac info.digest ((E.spec info.digest).finishedKey
    ((E.spec info.digest).sHs z (E.hash info.digest (ch ++ sh))))
      (E.hash info.digest (ch ++ sh ++ ee ++ ct ++ cv))) (by omega)).get
  exact ⟨⟨sh, ee, ct, cv, fin⟩, h1, h2, h3, ⟨sig, h4, h5⟩, h6,
    ⟨by show sh.length ≤ _; omega, by show ee.length ≤ _; omega, by show ct.length ≤ _; omega,
      by show cv.length ≤ _; omega, by show fin.length ≤ _; omega⟩,
    by show sh.length ≤ _; omega, by show ee.length ≤ _; omega⟩

/-! ## The same library on another machine -/

section
variable {kex : Nat → Nat → Except Exn (Bytes × Bytes)} {sign : Nat → Bytes → Bytes → Nat → Except Exn Bytes}

theorem Works.elsewhere {info : SuiteInfo} {lim : Nat} (W : Works E info lim) :
    Works (E.elsewhere kex sign) info lim :=
  ⟨⟨W.sized.hash, W.sized.hmac⟩, W.opens, W.seals, W.suite, W.limit⟩

theorem ser_elsewhere (m : Handshake) : serHandshake (E.elsewhere kex sign) m = serHandshake E m := rfl

theorem hsRecord_elsewhere (info : SuiteInfo) (side : Side) (z th : Bytes) (n : Nat) (data : Bytes) :
    hsRecord (E.elsewhere kex sign) info side z th n data = hsRecord E info side z th n data := rfl

theorem hsCipher_elsewhere (info : SuiteInfo) (side : Side) (z th : Bytes) (w r : Nat) :
    hsCipher (E.elsewhere kex sign) info side z th w r = hsCipher E info side z th w r := rfl

theorem apCipher_elsewhere (info : SuiteInfo) (side : Side) (z th : Bytes) (w r : Nat) :
    apCipher (E.elsewhere kex sign) info side z th w r = apCipher E info side z th w r := rfl

theorem bytes_elsewhere (f : Flight) (info : SuiteInfo) (z th : Bytes) :
    f.bytes (E.elsewhere kex sign) info z th = f.bytes E info z th := rfl

theorem offerOf_elsewhere (c : Conn) (g : Nat) (share : Bytes) :
    offerOf (E.elsewhere kex sign) c g share = offerOf E c g share := rfl

theorem makeRecords_elsewhere (b : Bool) (ct : Nat) (fs : List Bytes) :
    makeRecords (E.elsewhere kex sign) b ct fs = makeRecords E b ct fs := by
  induction fs with
  | nil => rfl
  | cons f fs ih =>
    unfold makeRecords
    rw [ih]
    rfl

theorem sendData_elsewhere (d : Bytes) : sendData (E.elsewhere kex sign) d = sendData E d := by
  unfold sendData sendContent
  simp only [makeRecords_elsewhere]
  rfl

theorem Flies.elsewhere {echo : Bool} {d : Nat} {f : Flight} {info : SuiteInfo} {ch random z : Bytes}
    {g scheme : Nat} {mine priv : Bytes} {p staple : Option Bytes} {chain : List Bytes}
    (F : Flies E sign echo d f info ch random z g scheme mine priv p chain staple) :
    Flies (E.elsewhere kex sign) (E.elsewhere kex sign).sign echo d f info ch random z g scheme mine priv p
      chain staple := ⟨F.sh, F.ee, F.ct, F.cv, F.fin, F.small, F.tiny⟩

end

/-! ## Delivering -/

theorem feed_run : ∀ (xs : List Bytes) (c c' : Conn), feed E xs c = (.ok (), c') →
    c' = runOps E (xs.map .receive) c := by
  intro xs
  induction xs with
  | nil => intro c c' h; cases h; rfl
  | cons x xs ih =>
    intro c c' h
    rw [feed] at h
    rcases hx : receiveData E x c with ⟨r, c₁⟩
    rw [hx] at h
    cases r with
    | error e => cases h
    | ok u =>
      have := ih c₁ c' h
      rw [this, List.map_cons, runOps]
      have hrun : ((Op.receive x).run E c).2 = c₁ := by
        show ((receiveData E x >>= fun _ => pure []) c : Except Exn Bytes × Conn).2 = c₁
        simp only [M.bind_def, hx]
        rfl
      rw [hrun]

theorem initiate_of_run {c c' : Conn} {b : Bytes} (h : Op.initiate.run E c = (.ok b, c')) :
    Siotls.initiate E c = (.ok (), c') := by
  have h : (Siotls.initiate E >>= fun _ => pure []) c = (.ok b, c') := h
  rw [M.bind_def] at h
  rcases hx : Siotls.initiate E c with ⟨r, c₁⟩
  rw [hx] at h
  cases r with
  | error e => cases h
  | ok u => cases h; rfl

theorem MflInv.feed {xs : List Bytes} {c c' : Conn} (hm : MflInv E c) (h : Spec.feed E xs c = (.ok (), c')) :
    MflInv E c' := feed_run xs c c' h ▸ hm.run _

theorem suiteDigests_mem : ∀ {ss : List Nat} {ds : List HashAlg}, suiteDigests ss = .ok ds →
    ∀ {s : Nat} {i : SuiteInfo}, s ∈ ss → suiteInfo s = some i → i.digest ∈ ds := by
  intro ss
  induction ss with
  | nil => intro ds _ s i hs; cases hs
  | cons a ss ih =>
    intro ds h s i hs hi
    rw [suiteDigests] at h
    cases ha : suiteInfo a with
    | none => rw [ha] at h; cases h
    | some j =>
      rw [ha] at h
      cases hr : suiteDigests ss with
      | error e => rw [hr] at h; cases h
      | ok rest =>
        rw [hr] at h
        cases h
        rcases List.mem_cons.mp hs with rfl | hs
        · rw [ha] at hi; cases hi; exact List.mem_cons_self
        · exact List.mem_cons_of_mem _ (ih hr hs hi)

theorem new_client {gc : Config} {host : Option PyStr} {ocsp : Bool} {algs : List HashAlg} {random : Bytes}
    {c : Conn} (h : Conn.new gc host ocsp algs random = .ok c) (hs : gc.side = .client) :
    algs ≠ [] ∧ (∃ ds, suiteDigests gc.cipherSuites = .ok ds) ∧
    c = { config := gc, hostname := host, hasOcsp := ocsp, nconfig := none, cipher := none,
          signature := none, transcript := ⟨algs.map (·, []), 1⟩, inputData := [], inputHandshake := [],
          outputData := [], applicationData := [], clientUnique := some random, serverUnique := none,
          state := .clientStart none, draws := 0, tr := [] } := by
  unfold Conn.new at h
  cases h1 : suiteDigests gc.cipherSuites with
  | error e => rw [h1] at h; cases h
  | ok ds =>
    unfold Transcript.new at h
    cases algs with
    | nil => rw [h1] at h; cases h
    | cons a l =>
      rw [h1, hs] at h
      cases h
      exact ⟨by simp, ⟨ds, rfl⟩, rfl⟩

theorem new_server {gs : Config} {ocsp : Bool} {algs : List HashAlg} {random : Bytes}
    {c : Conn} (h : Conn.new gs none ocsp algs random = .ok c) (hs : gs.side = .server) :
    algs ≠ [] ∧ (∃ ds, suiteDigests gs.cipherSuites = .ok ds) ∧
    c = { config := gs, hostname := none, hasOcsp := ocsp, nconfig := none, cipher := none,
          signature := none, transcript := ⟨algs.map (·, []), 1⟩, inputData := [], inputHandshake := [],
          outputData := [], applicationData := [], clientUnique := none, serverUnique := some random,
          state := .serverStart, draws := 0, tr := [] } := by
  unfold Conn.new at h
  cases h1 : suiteDigests gs.cipherSuites with
  | error e => rw [h1] at h; cases h
  | ok ds =>
    unfold Transcript.new at h
    cases algs with
    | nil => rw [h1] at h; cases h
    | cons a l =>
      rw [h1, hs] at h
      cases h
      exact ⟨by simp, ⟨ds, rfl⟩, rfl⟩

theorem kex_small {g : Nat} (h : kexRegistered g = true) : g < 65536 := by
  simp only [kexRegistered, List.contains_eq_mem, List.mem_cons, List.not_mem_nil, or_false,
    decide_eq_true_eq] at h
  omega

theorem suite_works {s : Nat} (h : s ∈ [0x1301, 0x1302, 0x1303]) : ∃ info lim, suiteInfo s = some info ∧
    info.id = s ∧ s < 65536 ∧ info.usageLimit = some lim := by
  simp only [List.mem_cons, List.not_mem_nil, or_false] at h
  rcases h with rfl | rfl | rfl <;> exact ⟨_, _, rfl, rfl, by decide, rfl⟩

theorem identity_subject (host : Option PyStr) : subjectOf E host = identity E host := by
  rcases host with _ | _ | ⟨a, h⟩ <;> rfl

/-! ## The handshake -/

theorem ap_mirror (info : SuiteInfo) (z th : Bytes) :
    (apCipher E info .client z th 0 0).wr = (apCipher E info .server z th 0 0).rd ∧
    (apCipher E info .server z th 0 0).wr = (apCipher E info .client z th 0 0).rd ∧
    (apCipher E info .client z th 0 0).wr.key ≠ none ∧ (apCipher E info .server z th 0 0).wr.key ≠ none ∧
    (apCipher E info .client z th 0 0).wr.iv ≠ none ∧ (apCipher E info .server z th 0 0).wr.iv ≠ none ∧
    (apCipher E info .client z th 0 0).wr.seq = some 0 ∧ (apCipher E info .server z th 0 0).wr.seq = some 0 :=
  ⟨rfl, rfl, by simp [apCipher, dirAt], by simp [apCipher, dirAt], by simp [apCipher, dirAt],
    by simp [apCipher, dirAt], rfl, rfl⟩

theorem SendsData.change {E' : Env} (h : ∀ d c, sendData E' d c = sendData E d c) {c c' : Conn}
    {l : List Bytes} (hs : SendsData E c l c') : SendsData E' c l c' := by
  induction hs with
  | done => exact .done _
  | send h1 _ ih => exact .send ((h _ _).trans h1) ih

theorem talks {E' : Env} {a b : Conn} {info : SuiteInfo} {lim : Nat} {z th : Bytes} {side : Side}
    (W : Works E info lim) (W' : Works E' info lim) (hr : apCipher E' info side.other z th 0 0 =
      apCipher E info side.other z th 0 0) (hsend : ∀ d c, sendData E' d c = sendData E d c) (ha : a.state = .connected) (hb : b.state = .connected)
    (hma : a.mfl = 16384) (hmb : b.mfl = 16384) (hka : a.cipher = some (apCipher E info side z th 0 0))
    (hkb : b.cipher = some (apCipher E info side.other z th 0 0)) (hin : b.inputData = [])
    (hhs : b.inputHandshake = []) (happ : b.applicationData = []) : Talks E a E' b := by
  intro payloads hd hn
  obtain ⟨a', h⟩ := app_sends W payloads a 0 ha hma hka hd (by omega)
  have hg : a.mfl ∈ [512, 1024, 2048, 4096, 16384] := by rw [hma]; simp
  have hmat : Matched a.cipher b.cipher := by
    refine .inr ⟨_, _, hka, hkb, rfl, ?_, by simp [apCipher, dirAt], W.suite⟩
    cases side <;> rfl
  have hf : ∀ d ∈ payloads, SizeOk a b d.length := by
    intro d hd'
    refine ⟨by rw [hma, hmb], fun k hk _ => .inl ?_⟩
    rw [hka] at hk
    cases hk
    have := hd d hd'
    have htag := W.tag
    show d.length + 1 + info.tagLength < a.mfl
    omega
  obtain ⟨is, rs, h1, h2, h3, h4, h5⟩ := sendsData_recs h hg hmat hf
  refine ⟨a', wireOf rs, h, h4, fun ops hp hc => ?_⟩
  have hk : shouldRekey b = .ok false := rekey_ap W' (w := 0) (n := 0) (by omega) (by rw [hr]; exact hkb)
  obtain ⟨g1, _, g3⟩ := C16_partial (q := []) W'.opens (SendsData.change hsend h) hg hmat hf (.inl hb) hhs hin happ hk h4 hp
    (by rw [hc, List.append_nil])
  exact ⟨g1, g3 rfl⟩

end Siotls
