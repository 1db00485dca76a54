import Verif.Proofs.EndToEnd
/-!
# A handshake from both ends
-/

namespace Siotls
open Spec Serial

variable {E : Env}

/-- what the server staples when its OCSP service works -/
theorem Spec.Vouched.staples {ocspC ocspS : Bool} {gc : Config} {chain : List Bytes}
    (V : Vouched E ocspC ocspS gc chain) (hc : chainSize E chain ≤ 15900) (d : Nat) :
    ∃ staple j, Staples E ocspS gc.trustStore.isSome chain d staple j ∧
      chainSize E chain + stapleSize staple ≤ 15900 ∧
      ∀ res, staple = some res → ∀ a b after, chain = a :: b :: after →
        ∀ d, E.ocspValidate b (E.ocspRequest a b) res d = .ok () := by
  by_cases h : ocspS = false ∨ gc.trustStore.isSome = false ∨ chain.length < 2
  · exact ⟨none, 0, .off h, hc, fun res h => absurd h (by simp)⟩
  · simp only [not_or, Bool.not_eq_false] at h
    obtain ⟨ho, hw, hl⟩ := h
    match chain, hl with
    | [], hl => simp at hl
    | [_], hl => simp at hl
    | a :: b :: l, _ =>
      obtain ⟨url, hu, hf⟩ := V.staple ho hw a b l rfl
      obtain ⟨res, hf, hz, hv⟩ := hf d
      rcases hv with hv | hv
      · refine ⟨some res, 2, .on ho hw rfl hu hf (hv _), by rw [Nat.add_assoc] at hz; exact hz, ?_⟩
        intro res' hr a' b' after hab d
        cases hr
        cases hab
        exact hv d
      · exact ⟨none, 2, .bad ho hw rfl hu hf (hv _), hc, fun res h => absurd h (by simp)⟩

/-- the handshake of C56, with what the ends know on the way -/
theorem completion {kex : Nat → Nat → Except Exn (Bytes × Bytes)}
    {sign : Nat → Bytes → Bytes → Nat → Except Exn Bytes} {gc gs : Config} {host : Option PyStr} {k : Choice}
    {ocspC ocspS : Bool} {algsC algsS dsC dsS : List HashAlg} {randomC randomS : Bytes} {c₀ c₁ s₀ : Conn}
    (K : Compatible E gc gs host k) (L : Library E kex sign (gs.privateKey.getD []) k)
    (V : Vouched E ocspC ocspS gc (k.leaf :: k.rest))
    (hdc : suiteDigests gc.cipherSuites = .ok dsC) (hac : IsSetOrder algsC dsC)
    (hds : suiteDigests gs.cipherSuites = .ok dsS) (has : IsSetOrder algsS dsS)
    (hrc : randomC.length = 32) (hrs : randomS.length = 32) (hrr : randomS ≠ hrrRandom)
    (hc₀ : Conn.new gc host ocspC algsC randomC = .ok c₀)
    (hs₀ : Conn.new gs none ocspS algsS randomS = .ok s₀)
    (hc₁ : Op.initiate.run E c₀ = (.ok [], c₁)) :
    ∃ s₁, Op.initiate.run (E.elsewhere kex sign) s₀ = (.ok [], s₁) ∧ s₁.outputData = [] ∧ Waits (E.elsewhere kex sign) c₁.outputData s₁ ∧
    ∀ xs, Cuts xs c₁.outputData →
    ∃ s₂, feed (E.elsewhere kex sign) xs s₁ = (.ok (), s₂) ∧ s₂.outputData ≠ [] ∧
      Waits E s₂.outputData (Op.drain.run E c₁).2 ∧
    ∀ ys, Cuts ys s₂.outputData →
    ∃ c₂, feed E ys (Op.drain.run E c₁).2 = (.ok (), c₂) ∧ c₂.state = .connected ∧ c₂.outputData ≠ [] ∧
      Waits (E.elsewhere kex sign) c₂.outputData (Op.drain.run (E.elsewhere kex sign) s₂).2 ∧
    ∀ zs, Cuts zs c₂.outputData →
    ∃ s₃, feed (E.elsewhere kex sign) zs (Op.drain.run (E.elsewhere kex sign) s₂).2 = (.ok (), s₃) ∧
      s₃.outputData = [] ∧ Established c₂ s₃ gc gs k ∧
      Talks E c₂ (E.elsewhere kex sign) s₃ ∧ Talks (E.elsewhere kex sign) s₃ E c₂ := by
  -- the two connections
  have hstart := initiate_of_run hc₁
  have hmC := (MflInv.fresh (E := E) hc₀ (by rcases K.limits.1 with h | h <;> rw [h] <;> decide)).run [.initiate]
  have hmS := (MflInv.fresh (E := E.elsewhere kex sign) hs₀ (by rw [K.limits.2]; decide)).run [.initiate]
  rw [runOps, hc₁, runOps] at hmC
  obtain ⟨hneC, _, rfl⟩ := new_client hc₀ K.client
  obtain ⟨hneS, _, rfl⟩ := new_server hs₀ K.server
  obtain ⟨info, lim, hinfo, hid, hsl, hlim⟩ := suite_works K.usable
  have W : Works E info lim := ⟨L.sized, L.opens, L.seals, by rw [hid]; exact hinfo, hlim⟩
  have WS : Works (E.elsewhere kex sign) info lim := W.elsewhere
  have hmem : k.suite ∈ gs.cipherSuites ∧ gc.cipherSuites.contains k.suite = true :=
    ⟨List.mem_of_find?_eq_some K.suite, List.find?_some K.suite⟩
  have hdigC : info.digest ∈ algsC := (hac.2 _).mpr (suiteDigests_mem hdc (by simpa using hmem.2) hinfo)
  have hdigS : info.digest ∈ algsS := (has.2 _).mpr (suiteDigests_mem hds hmem.1 hinfo)
  -- the ClientHello
  obtain ⟨g, gl, priv, share, ch, fs, hash, t, hgl, hreg, hki, hser, hcut, rfl⟩ :=
    client_start rfl K.client rfl rfl rfl rfl hneC
      (by rcases K.limits.1 with h | h <;> (show 4 ≤ gc.maxFragmentLength; omega))
      (by rcases K.limits.1 with h | h <;> (show gc.maxFragmentLength ≤ 16384; omega)) hstart
  dsimp only at hgl hki hser hcut
  have hg : g = k.group := by
    have := K.group.1
    rw [hgl] at this
    exact Option.some.inj this
  subst hg
  obtain ⟨b, pb, hkb, hlb⟩ := L.generates 0
  obtain ⟨z, hz, hzc, hzs⟩ := L.agrees _ _ _ _ _ _ hki hkb
  obtain ⟨pub, hpub, hsign⟩ := L.signs
  obtain ⟨hreg', hsmall⟩ := fit_known (by obtain ⟨_, _, _, h, _⟩ := K.scheme; exact h.1)
  have hscheme : gc.signatureAlgorithms.contains k.scheme = true := by
    obtain ⟨_, _, _, h, _⟩ := K.scheme
    simpa using h.2
  have hnoauth : gs.requirePeerAuth = false := by simp [Config.requirePeerAuth, K.anonymous]
  have halpn : ∀ p, gs.alpn.find? gc.alpn.contains = some p → p ∈ gc.alpn := by
    intro p hp
    simpa using List.find?_some hp
  -- the flight of the server
  obtain ⟨staple, j, hS, hsz, hst⟩ := V.staples L.small 1
  obtain ⟨f, F⟩ := flies_exist (E := E) (sign := sign) (echo := gs.canEchoHeartbeat) (d := 1 + j) (staple := staple) (ch := ch) (z := z)
    (p := gs.alpn.find? gc.alpn.contains) (chain := k.leaf :: k.rest) (key := gs.privateKey.getD []) W hrs
    (by rw [hid]; exact hsl) (kex_small hreg) hsmall hlb (fun p hp => (K.names p (halpn p hp)).1) hsz
    (fun msg => by obtain ⟨sig, h1, h2, _⟩ := hsign msg (1 + j); exact ⟨sig, h1, h2⟩)
  have hSS : Staples (E.elsewhere kex sign) ocspS gc.trustStore.isSome (k.leaf :: k.rest) 1 staple j := by
    cases hS with
    | off h => exact .off h
    | on ho hw hc hu hf hv => exact .on ho hw hc hu hf hv
    | bad ho hw hc hu hf hv => exact .bad ho hw hc hu hf hv
  let s₁ : Conn :=
    { config := gs, hostname := none, hasOcsp := ocspS, nconfig := none, cipher := none,
      signature := none, transcript := ⟨algsS.map (·, []), 1⟩, inputData := [], inputHandshake := [],
      outputData := [], applicationData := [], clientUnique := none, serverUnique := some randomS,
      state := .serverWaitCH true, draws := 0, tr := [] }
  have hdS : Digests (E.elsewhere kex sign) (s₁.fed (wireOf (fs.map fun f => (22, f)))) _ :=
    server_digest (r := s₁.fed (wireOf (fs.map fun f => (22, f)))) (f := f) (algs := algsS) (random := randomS)
      (crandom := randomC) (suites := gc.cipherSuites) (leaf := k.leaf) (rest := k.rest)
      (scheme := k.scheme) (z := z) (mine := pb) WS K.server rfl
      (by rw [hid]; exact K.suite) rfl rfl rfl rfl hdigS K.limits.2 rfl hSS hser
      (offer_good (E := E.elsewhere kex sign) _ hrc (by rintro h; rw [h] at hmem; simp at hmem)
        K.noRaw.1 K.noRaw.2 K.names K.ascii) hcut rfl
      (offer_meets (E := E.elsewhere kex sign) K.noRaw.2 K.preferred hreg K.chain K.scheme hkb hzs hz hnoauth
        K.protocols) F.elsewhere
  refine ⟨s₁, rfl, rfl, feed_waits hmS rfl rfl hdS, fun xs hxs => ?_⟩
  obtain ⟨tS, hfS⟩ := feed_digests (r := s₁) hmS rfl hdS hxs.2.1 hxs.2.2 hxs.1
  let s₂ : Conn := { s₁ with
    nconfig := some (serverDeal { NConfig.new with cipherSuite := some info.id } gs k.group
      (gs.alpn.find? gc.alpn.contains)
      (if gc.canEchoHeartbeat then Iana.peerAllowedToSend else Iana.peerNotAllowedToSend)
      gc.trustStore.isSome)
    clientUnique := some randomC
    signature := some (k.scheme, gs.privateKey.getD [])
    cipher := some (hsCipher E info .server z (E.hash info.digest (f.upTo ch 1)) 4 0)
    transcript := ⟨[(info.digest, f.upTo ch 5)], 8⟩
    outputData := f.bytes E info z (E.hash info.digest (f.upTo ch 1))
    draws := 1 + j + 1
    state := .serverWaitFin (E.hash info.digest (f.upTo ch 5))
    tr := tS }
  have hfS : feed (E.elsewhere kex sign) xs s₁ = (.ok (), s₂) := hfS
  have hmS₂ := hmS.feed hfS
  have hflight : s₂.outputData ≠ [] := by
    show recordBytes 22 f.sh ++ _ ≠ []
    simp [recordBytes]
  -- the client digests the flight
  have hfl := finished_writes (E := E) (mac := E.hmac info.digest ((E.spec info.digest).finishedKey
      ((E.spec info.digest).cHs z (E.hash info.digest (f.upTo ch 1)))) (E.hash info.digest (f.upTo ch 5)))
    (by rw [W.sized.hmac]; have := info.digest.size_le; omega)
  obtain ⟨fin, hfin, hfinl⟩ := hfl.get
  rw [W.sized.hmac] at hfinl
  have hfinl : fin.length ≤ 16000 := by have := info.digest.size_le; omega
  let c₁ : Conn :=
    { config := gc, hostname := host, hasOcsp := ocspC, nconfig := none, cipher := none,
      signature := none, transcript := ⟨algsC.map (·, ch), 2⟩, inputData := [], inputHandshake := [],
      outputData := [], applicationData := [], clientUnique := some randomC, serverUnique := none,
      state := .clientWaitSH true [(k.group, priv)] hash, draws := 1, tr := t }
  obtain ⟨i, htrust⟩ : ∃ i, Trusts E c₁ k.leaf k.rest staple i := by
    obtain ⟨i, hi⟩ : ∃ i, gc.trustStore.isSome = true → ∀ x : Conn, x.hasOcsp = ocspC → x.draws = 2 →
        Gives (clientVerifyStatuses E (stapledEntries (k.leaf :: k.rest) staple)) x ()
          { x with draws := x.draws + i } := by
      by_cases hs : gc.trustStore.isSome = true
      · obtain ⟨i, hi⟩ := statuses_stapled (E := E) (c := { c₁ with draws := 2 }) (fun ho => V.lookup ho hs) hst
        exact ⟨i, fun _ => hi⟩
      · exact ⟨0, fun h => absurd h hs⟩
    refine ⟨i, fun ha => ?_⟩
    have ha : gc.requirePeerAuth = true := ha
    have hs : gc.trustStore.isSome = true := by simpa [Config.requirePeerAuth, K.noRaw.2] using ha
    obtain ⟨store, hs⟩ := Option.isSome_iff_exists.mp hs
    exact ⟨(K.trusted store 1 hs).2, ⟨store, hs, by rw [identity_subject]; exact (K.trusted store _ hs).1⟩,
      hi (by rw [hs]; rfl)⟩
  have hdC := client_digest (E := E) (r := c₁.fed (f.bytes E info z (E.hash info.digest (f.upTo ch 1))))
    (f := f) (algs := algsC) (random := randomS) (chHash := hash) W K.client rfl rfl rfl rfl rfl hdigC
    K.limits.1 (by rw [hid]; exact hmem.2) hreg hzc hrs hrr
    (fun p hp => by rw [List.contains_eq_mem]; exact decide_eq_true (halpn p hp)) (fun p hp => (K.names p (halpn p hp)).2) L.loads htrust hscheme hreg'
    hpub (fun sig msg hs => by
      obtain ⟨sig', h1, _, h3⟩ := hsign msg (1 + j)
      rw [h1] at hs
      cases hs
      exact h3) F hfin hfinl rfl
  have hmC₁ : MflInv E c₁ := ⟨hmC.config, hmC.negotiated, hmC.parsed⟩
  refine ⟨s₂, hfS, hflight, feed_waits hmC₁ rfl rfl hdC, fun ys hys => ?_⟩
  obtain ⟨tC, hfC⟩ := feed_digests (r := c₁) hmC₁ rfl hdC hys.2.1 hys.2.2 hys.1
  -- the server digests the Finished of the client
  have hdS' := server_digest_finished (E := E.elsewhere kex sign) (f := f) (ch := ch) (mine := fin) (z := z)
    (th := E.hash info.digest (f.upTo ch 1))
    (r := (Op.drain.run (E.elsewhere kex sign) s₂).2.fed (recordBytes 20 [1] ++
        hsRecord E info .client z (E.hash info.digest (f.upTo ch 1)) 0 fin))
    WS K.server rfl (by simp [serverDeal, K.limits.2]) rfl rfl rfl rfl hfin hfinl rfl
  have hmS₃ : MflInv (E.elsewhere kex sign) (Op.drain.run (E.elsewhere kex sign) s₂).2 :=
    ⟨hmS₂.config, hmS₂.negotiated, hmS₂.parsed⟩
  refine ⟨_, hfC, rfl, (by show recordBytes 20 [1] ++ _ ≠ []; simp [recordBytes]),
    feed_waits hmS₃ rfl rfl hdS', fun zs hzs' => ?_⟩
  obtain ⟨tF, hfF⟩ := feed_digests (r := (Op.drain.run (E.elsewhere kex sign) s₂).2)
    hmS₃ rfl hdS' hzs'.2.1 hzs'.2.2 hzs'.1
  let s₃ : Conn := { s₂ with
    inputData := []
    cipher := some (apCipher E info .server z (E.hash info.digest (f.upTo ch 5)) 0 0)
    transcript := ⟨[(info.digest, f.upTo ch 5 ++ fin)], 12⟩
    outputData := []
    state := .connected
    tr := tF }
  have hfF : feed (E.elsewhere kex sign) zs (Op.drain.run (E.elsewhere kex sign) s₂).2 = (.ok (), s₃) := hfF
  have hlimC : ∀ n : Conn, ∀ m : NConfig, n.nconfig = some m → m.maxFragmentLength = some 16384 →
      n.mfl = 16384 := by
    intro n m h1 h2
    simp [Conn.mfl, h1, h2]
  refine ⟨s₃, hfF, rfl, ?_, ?_, ?_⟩
  · refine ⟨⟨rfl, rfl⟩, ⟨rfl, rfl, rfl, rfl⟩, ⟨rfl, rfl⟩,
      ⟨hlimC _ _ rfl rfl, hlimC _ _ rfl (by simp [serverDeal, K.limits.2])⟩,
      ⟨_, _, rfl, rfl, ?_, ?_, rfl, rfl, rfl, rfl, rfl, rfl, rfl, ?_, rfl, ?_⟩,
      ⟨rfl, rfl, rfl, rfl⟩, rfl, ⟨apCipher E info .client z (E.hash info.digest (f.upTo ch 5)) 0 0,
        apCipher E info .server z (E.hash info.digest (f.upTo ch 5)) 0 0, rfl, rfl, rfl, hid, W.suite,
        ap_mirror ..⟩⟩
    · exact congrArg some hid
    · exact congrArg some hid
    · exact congrArg some K.limits.2.symm
    · show some gc.canEchoHeartbeat = some _
      cases gc.canEchoHeartbeat <;> rfl
  · exact talks (z := z) (th := E.hash info.digest (f.upTo ch 5)) (side := .client) W WS (apCipher_elsewhere ..) (fun d c => by rw [sendData_elsewhere]) rfl rfl (hlimC _ _ rfl rfl) (hlimC _ _ rfl (by simp [serverDeal, K.limits.2])) rfl rfl rfl rfl rfl
  · exact talks (z := z) (th := E.hash info.digest (f.upTo ch 5)) (side := .server) WS W (apCipher_elsewhere ..).symm (fun d c => by rw [sendData_elsewhere]) rfl rfl (hlimC _ _ rfl (by simp [serverDeal, K.limits.2])) (hlimC _ _ rfl rfl)
      (congrArg some (apCipher_elsewhere ..).symm) (congrArg some (apCipher_elsewhere ..).symm) rfl rfl rfl

end Siotls
