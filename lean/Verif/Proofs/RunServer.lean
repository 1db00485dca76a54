import Verif.Proofs.Negotiate
/-!
# The server's methods as sequences of atomic steps
-/

namespace Siotls

variable {E : Env} {G : Conn → Prop}

theorem suiteInfo_id {s : Nat} {info : SuiteInfo} (h : suiteInfo s = some info) : info.id = s := by
  unfold suiteInfo at h
  split at h <;> cases h <;> rfl

/-- facts kept by the checks on a ClientHello -/
structure HelloCtx (c₀ : Conn) (random : Bytes) (suites : List Nat) (f : Bool) (c : Conn) :
    Prop where
  state : c.state = c₀.state
  tr : c.tr = c₀.tr
  config : c.config = c₀.config
  unique : c.clientUnique = some random
  server : c.serverUnique = c₀.serverUnique
  second : ∃ s, c.config.cipherSuites.find? suites.contains = some s ∧
    (f = true → c.cipher.map (·.info.id) = some s)
  clear : c₀.mustEncrypt = false → c.mustEncrypt = false
  hs : c.inputHandshake = c₀.inputHandshake
  order : c.transcript.orderI = c₀.transcript.orderI
  alg : f = true → c.AlgOk

theorem run_serverCheckHello {f : Bool} {random sid : Bytes} {suites : List Nat} {exts : List Ext}
    {c : Conn} (hs : c.state = .serverWaitCH f)
    (hh : c.tr.head? = some (.recv (.handshake (.clientHello random sid suites exts)))) :
    Run E G (serverCheckHello f random suites) c fun _ c' => HelloCtx c random suites f c' := by
  have hl := lastRecv_head hh
  unfold serverCheckHello
  split
  · rename_i hf
    subst hf
    unfold serverSetup
    refine Run.bind' (Run.modify (.nc (.server hs hl)) ?_)
    refine Run.bind' (Run.get ?_)
    refine Run.bind' (Run.lift fun suite hsuite => ?_)
    have hsuite : c.config.cipherSuites.find? suites.contains = some suite := by
      unfold findCommonSuite at hsuite
      split at hsuite
      · rename_i s heq; cases hsuite; exact heq
      · cases hsuite
    refine Run.bind' (Run.setNc (fun o _ => { NcUpd.refl E _ o with
      suite := .inr ⟨suite, random, sid, suites, exts, rfl, hs, hl, hsuite⟩ }) fun o ho => ?_)
    refine Run.bind' (Run.modify (.clientUnique hs hl) ?_)
    try dsimp only
    split
    · exact Run.throw
    rename_i info hinfo
    refine Run.bind' (Run.modify (.setup (.server hs hh hsuite hinfo rfl rfl rfl)) ?_)
    exact Run.transcriptPostInit rfl rfl (.inr hs) fun t ht =>
      ⟨rfl, rfl, rfl, rfl, rfl, ⟨suite, hsuite, fun _ => congrArg some (suiteInfo_id hinfo)⟩,
        fun _ => rfl, rfl, postInit_order ht, fun _ => postInit_alg rfl ht⟩
  · unfold serverCheckSecond
    refine Run.bind' (Run.get ?_)
    refine Run.bind' (Run.lift fun suite hsuite => ?_)
    have hsuite : c.config.cipherSuites.find? suites.contains = some suite := by
      unfold findCommonSuite at hsuite
      split at hsuite
      · rename_i s heq; cases hsuite; exact heq
      · cases hsuite
    split
    · exact Run.throw
    · rename_i hu
      exact Run.pure ⟨rfl, rfl, rfl, (not_not.mp hu).symm, rfl, ⟨_, hsuite, fun h => absurd h ‹_›⟩, fun h => h,
        rfl, rfl, fun h => absurd h ‹_›⟩

/-- `c` differs from `c₀` only by what the negotiation writes -/
def NegSame (c₀ c : Conn) : Prop :=
  ∃ n s d, c = { c₀ with nconfig := n, signature := s, draws := d }

theorem NegSame.rfl' (c : Conn) : NegSame c c := ⟨_, _, _, rfl⟩

theorem Run.setNcNeg {f : NConfig → NConfig} {c₀ c : Conn} {Q : Unit → Conn → Prop}
    (hc : NegSame c₀ c) (hs : ∀ o, c.nconfig = some o → NcUpd E c o (f o))
    (hq : ∀ c', NegSame c₀ c' → Q () c') :
    Run E G (Siotls.setNc f) c Q := by
  obtain ⟨n, s, d, rfl⟩ := hc
  exact Run.setNc hs fun o _ => hq _ ⟨_, _, _, rfl⟩

/-- where the shared secret of a successful negotiation comes from -/
def ShareOk (E : Env) (exts : List Ext) (clear : List Ext) (shared : Bytes) : Prop :=
  ∃ l g theirs d priv mine, findExt exts Iana.extKeyShare = some (.keyShareReq l) ∧
    l.find? (·.1 = g) = some (g, theirs) ∧ kexRegistered g = true ∧
    E.kexInit g d = .ok (priv, mine) ∧ E.kexResume g priv theirs = .ok shared ∧ shared ≠ [] ∧
    clear = [.supportedVersionsResp Iana.tls13, .keyShareResp g mine]

theorem run_serverNegKeyShare {exts : List Ext} {c : Conn} :
    Run E G (serverNegKeyShare E exts) c fun r c' => NegSame c c' ∧
      ∀ s, r.2 = some s → ShareOk E exts [.supportedVersionsResp Iana.tls13, r.1] s := by
  unfold serverNegKeyShare
  refine Run.bind' (Run.getNc fun nc hnc => ?_)
  refine Run.bind' (Run.lift fun shares hshares => ?_)
  try dsimp only
  split
  · exact Run.throw
  rename_i g hg
  split
  · exact Run.pure ⟨.rfl' _, by simp⟩
  rename_i g' theirs hfind
  have hgg : g' = g := by simpa using List.find?_some hfind
  subst hgg
  split
  · exact Run.throw
  rename_i hreg
  refine Run.bind' (Run.nextDraw ?_)
  refine Run.bind' (Run.lift ?_)
  rintro ⟨priv, mine⟩ hki
  refine Run.bind' (Run.lift fun shared hshared => ?_)
  refine Run.pure ⟨⟨_, _, _, rfl⟩, ?_⟩
  intro s hs
  dsimp only at hs
  split at hs
  · cases hs
  · rename_i hne
    cases hs
    refine ⟨shares, g', theirs, _, priv, mine, ?_, hfind, by simpa using hreg,
      mapValueError_ok hki, mapValueError_ok hshared, by simpa using hne, rfl⟩
    unfold clientShares at hshares
    split at hshares
    · cases hshares; simp at hfind
    · rename_i l heq; cases hshares; exact heq
    · cases hshares

theorem run_serverNegotiate {f : Bool} {random sid : Bytes} {suites : List Nat} {exts : List Ext}
    {c : Conn} (hs : c.state = .serverWaitCH f)
    (hl : lastRecv c.tr = some (.handshake (.clientHello random sid suites exts))) :
    Run E G (serverNegotiate E exts) c fun r c' => NegSame c c' ∧
      (r.2.2 = none → r.2.1 = []) ∧
      ∀ s, r.2.2 = some s → ShareOk E exts r.1 s := by
  unfold serverNegotiate
  refine Run.bind (Q := fun v c' => c' = c ∧ v = [.supportedVersionsResp Iana.tls13]) ?_ ?_
  · unfold serverNegVersions
    split
    · exact Run.throw
    · split
      · exact Run.throw
      · exact Run.pure ⟨rfl, rfl⟩
    · exact Run.throw
  rintro v c0 ⟨h0, rfl⟩
  subst h0
  refine Run.bind (Q := fun _ c' => NegSame c0 c') ?_ ?_
  · unfold serverNegGroups
    refine Run.bind' (Run.get ?_)
    try dsimp only
    split
    · exact Run.throw
    · rename_i l hgroups
      split
      · rename_i g hg
        exact Run.setNcNeg (.rfl' _) (fun o _ => { NcUpd.refl E c0 o with
          group := .inr ⟨g, l, random, sid, suites, exts, f, rfl, hs, hl, hgroups, hg⟩ })
          fun _ h => h
      · exact Run.throw
    · exact Run.throw
  rintro _ c1 ⟨n1, s1, d1, rfl⟩
  refine Run.bind (Q := fun _ c' => NegSame c0 c') ?_ ?_
  · unfold serverNegSignature
    refine Run.bind' (Run.get ?_)
    try dsimp only
    split
    · exact Run.throw
    · rename_i l hsig
      split
      · exact Run.throw
      · exact Run.throw
      rename_i leaf rest hchain
      refine Run.bind' (Run.lift fun fit hfit => ?_)
      split
      · rename_i s hfind
        refine Run.modify (.signature ⟨f, random, sid, suites, exts, l, leaf, rest, fit, hs, hl,
          hsig, hchain, hfit, hfind, rfl⟩) ⟨_, _, _, rfl⟩
      · exact Run.throw
    · exact Run.throw
  rintro _ c2 ⟨n2, s2, d2, rfl⟩
  refine Run.bind run_serverNegKeyShare ?_
  rintro ⟨ks, shared⟩ c3 ⟨⟨n3, s3, d3, rfl⟩, hks⟩
  try dsimp only
  split
  · exact Run.pure ⟨⟨_, _, _, rfl⟩, by simp, by simp⟩
  rename_i shared
  refine Run.bind (Q := fun _ c' => NegSame c0 c') ?_ ?_
  · unfold serverNegCct
    refine Run.bind' (Run.get ?_)
    split
    · exact Run.pure ⟨_, _, _, rfl⟩
    dsimp only
    split
    · split
      · exact Run.throw
      · rename_i t ht
        refine Run.bind' (Run.setNcNeg (c₀ := c0) ⟨_, _, _, rfl⟩ (fun o _ => { NcUpd.refl E _ o with
          cct := .inr ⟨t, rfl, .inr ⟨f, hs, List.mem_of_find?_eq_some ht⟩⟩ })
          fun _ h => Run.pure h)
    · split
      · exact Run.throw
      · rename_i t ht
        refine Run.bind' (Run.setNcNeg (c₀ := c0) ⟨_, _, _, rfl⟩ (fun o _ => { NcUpd.refl E _ o with
          cct := .inr ⟨t, rfl, .inr ⟨f, hs, List.mem_of_find?_eq_some ht⟩⟩ })
          fun _ h => Run.pure h)
    · exact Run.throw
  rintro e1 c4 ⟨n4, s4, d4, rfl⟩
  refine Run.bind (Q := fun _ c' => NegSame c0 c') ?_ ?_
  · unfold serverNegSct
    refine Run.bind' (Run.get ?_)
    dsimp only
    split
    · split
      · exact Run.throw
      · rename_i t ht
        refine Run.bind' (Run.setNcNeg (c₀ := c0) ⟨_, _, _, rfl⟩ (fun o _ => { NcUpd.refl E _ o with
          sct := .inr ⟨t, rfl, .inr ⟨f, hs, List.mem_of_find?_eq_some ht⟩⟩ })
          fun _ h => Run.pure h)
    · split
      · exact Run.throw
      · rename_i t ht
        refine Run.bind' (Run.setNcNeg (c₀ := c0) ⟨_, _, _, rfl⟩ (fun o _ => { NcUpd.refl E _ o with
          sct := .inr ⟨t, rfl, .inr ⟨f, hs, List.mem_of_find?_eq_some ht⟩⟩ })
          fun _ h => Run.pure h)
    · exact Run.throw
  rintro e2 c5 ⟨n5, s5, d5, rfl⟩
  refine Run.bind (Q := fun _ c' => NegSame c0 c') ?_ ?_
  · unfold serverNegMfl
    refine Run.bind' (Run.get ?_)
    try dsimp only
    split
    · rename_i code hcode
      refine Run.bind' (Run.setNcNeg (c₀ := c0) ⟨_, _, _, rfl⟩ (fun o _ => { NcUpd.refl E _ o with
        mfl := .inr (.inr (.inr ⟨code, random, sid, suites, exts, f, rfl, hs, hl, hcode⟩)) })
        fun _ h => Run.pure h)
    · refine Run.bind' (Run.setNcNeg (c₀ := c0) ⟨_, _, _, rfl⟩ (fun o _ => { NcUpd.refl E _ o with
        mfl := .inr (.inl ⟨.inr ⟨f, hs⟩, rfl⟩) }) fun _ h => Run.pure h)
    · exact Run.throw
  rintro e3 c6 ⟨n6, s6, d6, rfl⟩
  refine Run.bind (Q := fun _ c' => NegSame c0 c') ?_ ?_
  · unfold serverNegAlpn
    refine Run.bind' (Run.get ?_)
    try dsimp only
    split
    · refine Run.bind' (Run.setNcNeg (c₀ := c0) ⟨_, _, _, rfl⟩ (fun o _ => { NcUpd.refl E _ o with
        alpn := .inr ⟨.inr ⟨f, hs⟩, .inl rfl⟩ }) fun _ h => Run.pure h)
    · split
      · refine Run.bind' (Run.setNcNeg (c₀ := c0) ⟨_, _, _, rfl⟩ (fun o _ => { NcUpd.refl E _ o with
          alpn := .inr ⟨.inr ⟨f, hs⟩, .inl rfl⟩ }) fun _ h => Run.pure h)
      · split
        · rename_i p hp
          refine Run.bind' (Run.setNcNeg (c₀ := c0) ⟨_, _, _, rfl⟩ (fun o _ => { NcUpd.refl E _ o with
            alpn := .inr ⟨.inr ⟨f, hs⟩, .inr ⟨p, rfl, List.mem_of_find?_eq_some hp⟩⟩ }) fun _ h => Run.pure h)
        · exact Run.throw
    · exact Run.throw
  rintro e4 c7 ⟨n7, s7, d7, rfl⟩
  refine Run.bind (Q := fun _ c' => NegSame c0 c') ?_ ?_
  · unfold serverNegHeartbeat
    refine Run.bind' (Run.get ?_)
    try dsimp only
    split
    · refine Run.bind' (Run.setNcNeg (c₀ := c0) ⟨_, _, _, rfl⟩ (fun o _ => { NcUpd.refl E _ o with
        heartbeat := .inr (.inr ⟨f, hs⟩) })
        fun c8 h8 => ?_)
      exact Run.bind' (Run.setNcNeg h8 (fun o _ => { NcUpd.refl E _ o with
        heartbeat := .inr (.inr ⟨f, by obtain ⟨_, _, _, rfl⟩ := h8; exact hs⟩) })
        fun c9 h9 => Run.pure h9)
    · refine Run.bind' (Run.setNcNeg (c₀ := c0) ⟨_, _, _, rfl⟩ (fun o _ => { NcUpd.refl E _ o with
        heartbeat := .inr (.inr ⟨f, hs⟩) })
        fun c8 h8 => ?_)
      exact Run.bind' (Run.setNcNeg h8 (fun o _ => { NcUpd.refl E _ o with
        heartbeat := .inr (.inr ⟨f, by obtain ⟨_, _, _, rfl⟩ := h8; exact hs⟩) })
        fun c9 h9 => Run.pure h9)
    · exact Run.throw
  rintro e5 c8 ⟨n8, s8, d8, rfl⟩
  refine Run.bind (Q := fun _ c' => NegSame c0 c') ?_ ?_
  · unfold serverNegStatus
    split
    · exact Run.setNcNeg (c₀ := c0) ⟨_, _, _, rfl⟩ (fun o _ =>
        { NcUpd.refl E _ o with status := .inr ⟨f, hs⟩ }) fun _ h => h
    · exact Run.setNcNeg (c₀ := c0) ⟨_, _, _, rfl⟩ (fun o _ =>
        { NcUpd.refl E _ o with status := .inr ⟨f, hs⟩ }) fun _ h => h
  rintro _ c9 h9
  refine Run.pure ⟨h9, by simp, ?_⟩
  rintro s hs'
  cases hs'
  exact hks _ rfl

/-- facts kept during the server's flight -/
structure FlightCtx (c₀ c : Conn) : Prop where
  state : c.state = c₀.state
  config : c.config = c₀.config
  nconfig : c.nconfig = c₀.nconfig
  signature : c.signature = c₀.signature
  last : lastRecv c.tr = lastRecv c₀.tr
  clientUnique : c.clientUnique = c₀.clientUnique
  serverUnique : c.serverUnique = c₀.serverUnique
  enc : c₀.mustEncrypt = true → c.mustEncrypt = true
  dec : c₀.mustDecrypt = true → c.mustDecrypt = true
  hs : c.inputHandshake = c₀.inputHandshake
  algs : c.cipher.map (·.info.digest) = c₀.cipher.map (·.info.digest) ∧
    c.transcript.hashes.map Prod.fst = c₀.transcript.hashes.map Prod.fst

theorem FlightCtx.refl (c : Conn) : FlightCtx c c :=
  ⟨rfl, rfl, rfl, rfl, rfl, rfl, rfl, id, id, rfl, rfl, rfl⟩

theorem FlightCtx.trans {a b c : Conn} (h : FlightCtx a b) (h' : FlightCtx b c) : FlightCtx a c :=
  ⟨h'.1.trans h.1, h'.2.trans h.2, h'.3.trans h.3, h'.4.trans h.4, h'.5.trans h.5, h'.6.trans h.6,
   h'.7.trans h.7, h'.8 ∘ h.8, h'.9 ∘ h.9, h'.10.trans h.10, h'.11.1.trans h.11.1,
   h'.11.2.trans h.11.2⟩

theorem SentFacts.flight {c c' : Conn} {x : Content} (f : SentFacts E c x c') : FlightCtx c c' := by
  have h := f.same
  refine ⟨?_, ?_, ?_, ?_, f.last, ?_, ?_, f.keys.enc.1.trans, f.keys.enc.2.trans, ?_,
    f.keys.digest, ?_⟩
  case refine_8 =>
    by_cases hx : ∃ h, x = .handshake h
    · obtain ⟨h, hx⟩ := hx
      obtain ⟨_, _, _, hu⟩ := f.upd h hx
      exact update_algs hu
    · rw [f.transcript fun h he => hx ⟨h, he⟩]
  all_goals rw [h]

theorem lastRecv_keyEvents (l : List PyStr) (k k' : CipherSt) (tr : List Ev) :
    lastRecv (keyEvents l k k' ++ tr) = lastRecv tr := by
  refine lastRecv_append ?_
  intro e he x hex
  subst hex
  rcases mem_keyEvents he with ⟨_, _, he⟩ | ⟨_, _, he⟩ | ⟨_, _, he⟩ <;> cases he

theorem narrowed_check {k : Config} {suite g scheme : Nat} (h : k.check = .ok ()) :
    (narrowed k suite (some g) scheme).check = .ok () := by
  unfold Config.check Config.checkMandatory at h ⊢
  simp only [narrowed, Option.toList, List.isEmpty_cons, Bool.false_eq_true, if_false]
  split at h
  · cases h
  split at h
  · cases h
  split at h
  · cases h
  exact h

theorem run_serverSendHrr {f : Bool} {random sid : Bytes} {suites : List Nat} {exts : List Ext}
    {clear : List Ext} {c₁ c : Conn} (hs : c.state = .serverWaitCH f)
    (hl : c.tr.head? = some (.recv (.handshake (.clientHello random sid suites exts))))
    (hneg : serverNegotiate E exts c₁ = (.ok (clear, [], none), c)) (hc : c₁.config = c.config)
    (hu : c.clientUnique = some random)
    (hsuite : ∃ s, c.config.cipherSuites.find? suites.contains = some s ∧
      (f = true → c.cipher.map (·.info.id) = some s))
    (ha : f = true → c.AlgOk) :
    Run E G (serverSendHrr E f sid clear) c (Keep c) := by
  have hl' := lastRecv_head hl
  cases f with
  | false =>
    exact Run.of_eq (r := .error (.alert Iana.illegalParameter)) (c' := c)
      (by simp [serverSendHrr, M.throw]) .refl (by simp)
  | true =>
  have halg := ha rfl
  obtain ⟨k, dig, hk, hhashes⟩ := halg
  obtain ⟨suite, hsuite, hks⟩ := hsuite
  have hks : k.info.id = suite := by simpa [hk] using hks rfl
  subst hks
  obtain ⟨g, nc, scheme, ks, hg, hnc, hkex, hsch, hsig, hshare, hclear, -⟩ := (serverNegotiate_ok hneg).same
  set cfg : Config := { c.config with
    cipherSuites := [k.info.id], keyExchanges := nc.keyExchange.toList,
    signatureAlgorithms := [scheme] } with hcfg
  have hcfg' : narrowed c.config k.info.id nc.keyExchange scheme = cfg := rfl
  cases hck : cfg.check with
  | error e =>
    refine Run.of_eq (r := .error e) (c' := { c with state := .serverWaitCH false }) (by
      simp only [serverSendHrr, M.bind_def, moveTo, M.modify, getCipher, hk, getNc, hnc, M.get, hsig,
        setConfig, ← hcfg, hck, Bool.true_eq_false, ↓reduceIte])
      (.single (.move (.serverHrr hs hl' (ha rfl) fun hv => ?_))) (by simp)
    rw [← hcfg', hkex, narrowed_check hv] at hck
    cases hck
  | ok u =>
  have hh : c.transcript.digest E = .ok (E.hash k.info.digest dig) := by
    unfold Transcript.digest
    rw [hhashes]
  cases ht : c.transcript.hrrDance c.config.side (E.hash k.info.digest dig) with
  | error e =>
    unfold Transcript.hrrDance at ht
    rw [hhashes] at ht
    cases ht
  | ok t =>
    have heq : serverSendHrr E true sid clear c =
        (do sendContent E (.handshake (.helloRetryRequest hrrRandom sid k.info.id (dictOfExts clear)))
            sendContent E .changeCipherSpec)
        { c with state := .serverWaitCH false, transcript := t, config := cfg } := by
      simp only [serverSendHrr, M.bind_def, moveTo, M.modify, getCipher, hk, getNc, hnc, M.get,
        hsig, setConfig, ← hcfg, hck, Bool.true_eq_false, ↓reduceIte, transcriptDigest, hh,
        transcriptHrr, ht]
    have ho : t.orderI = (match cfg.side with | .client => 1 | .server => 0) := by
      unfold Transcript.hrrDance at ht
      split at ht
      · cases ht
      · cases ht; rfl
    have run : Run E G (do
        sendContent E (.handshake (.helloRetryRequest hrrRandom sid k.info.id (dictOfExts clear)))
        sendContent E .changeCipherSpec)
        { c with state := .serverWaitCH false, transcript := t, config := cfg } (Keep c) := by
      refine Run.bind' (Run.send (fun _ => ⟨random, suites, exts, clear, k, rfl, rfl, hl', hk, rfl,
        ⟨c₁, c, hneg, rfl, rfl, nc, scheme, hnc, by rw [hc]; rfl⟩, rfl, ho⟩) fun c3 f3 => ?_)
      refine Run.send (fun _ => trivial) fun c4 f4 hr _ => ?_
      rw [f4.keys.enc.1, f3.keys.enc.1]
      exact hr (by rw [hs]; rfl)
    unfold Run at run ⊢
    rw [heq]
    exact ⟨(Relation.ReflTransGen.single (.hrrServer hs hl hh (ha rfl) ht hc hneg hu hk hsuite hnc hsig
      hck)).trans run.1, run.2⟩

theorem run_serverSendHello {f : Bool} {random sid : Bytes} {suites : List Nat} {exts : List Ext}
    {clear enc : List Ext} {shared : Bytes} {c : Conn} (hs : c.state = .serverWaitCH f)
    (hl : lastRecv c.tr = some (.handshake (.clientHello random sid suites exts)))
    (hneg : Negotiated E c exts clear enc (some shared)) (hshare : ShareOk E exts clear shared)
    (hsecond : ∃ s, c.config.cipherSuites.find? suites.contains = some s ∧
      (f = true → c.cipher.map (·.info.id) = some s))
    (hu : c.clientUnique = some random) (hi : c.inputHandshake = [])
    (ho : c.transcript.orderI ≠ 0) (ha : f = true → c.AlgOk) :
    Run E G (serverSendHello E f sid clear enc shared) c fun _ c' => FlightCtx c c' ∧
      c'.mustEncrypt = true ∧ c'.mustDecrypt = true := by
  unfold serverSendHello
  refine Run.bind' (Run.cipherSkipEarly fun k k' hk hk' => ?_)
  refine Run.bind' (Run.getCipher fun k2 hk2 => ?_)
  refine Run.bind' (Run.get ?_)
  try dsimp only
  split
  · exact Run.throw
  rename_i sr hsr
  have hsecond : ∃ s, c.config.cipherSuites.find? suites.contains = some s ∧
      (f = true → s = k2.info.id) := by
    obtain ⟨s, h1, h2⟩ := hsecond
    refine ⟨s, h1, fun hf => ?_⟩
    have h2 := h2 hf
    rw [hk] at h2
    cases h2
    obtain ⟨_, _, rfl⟩ := skipEarly_view hk'
    cases hk2
    rfl
  refine Run.bind' (Run.send (fun _ => ⟨f, random, suites, exts, clear, enc, shared, k2, hs, hl, hsr,
    hk2, rfl, hneg, rfl, hsecond, hu, ho⟩) fun c1 f1 => ?_)
  have ctx1 := f1.flight
  have halg : (some k').map (·.info.digest) = c.cipher.map (·.info.digest) := by
    obtain ⟨_, _, rfl⟩ := skipEarly_view hk'
    rw [hk]; rfl
  have ha2 : f = true → c1.AlgOk := fun hf => (ha hf).of (ctx1.algs.1.trans halg) ctx1.algs.2
  have hmem1 : Ev.sent (.handshake (.serverHello sr sid k2.info.id (dictOfExts clear))) ∈ c1.tr := by
    have := f1.head
    cases htr : c1.tr with
    | nil => rw [htr] at this; cases this
    | cons e l => rw [htr] at this; cases this; exact .head _
  refine Run.bind (Q := fun _ c2 => FlightCtx c1 c2 ∧
    Ev.sent (.handshake (.serverHello sr sid k2.info.id (dictOfExts clear))) ∈ c2.tr) ?_ ?_
  · unfold M.guarded
    split
    · refine Run.send (fun _ => trivial) fun c2 f2 => ⟨f2.flight, ?_⟩
      obtain ⟨l, h2⟩ := f2.old
      rw [h2]
      exact List.mem_append_right _ hmem1
    · exact Run.mpure ⟨.refl _, hmem1⟩
  rintro _ c2 ⟨ctx2, hmem2⟩
  refine Run.bind' (Run.transcriptDigest fun h hh => ?_)
  have ctx : FlightCtx c c2 := by
    refine FlightCtx.trans ?_ ctx2
    refine ⟨ctx1.1, ctx1.2, ctx1.3, ctx1.4, ctx1.5, ctx1.6, ctx1.7, fun h => ctx1.8 ?_,
      fun h => ctx1.9 ?_, ctx1.10, ctx1.11.1.trans halg, ctx1.11.2⟩
    · obtain ⟨_, s, rfl⟩ := skipEarly_view hk'
      simpa [Conn.mustEncrypt, hk] using h
    · obtain ⟨_, s, rfl⟩ := skipEarly_view hk'
      simpa [Conn.mustDecrypt, hk] using h
  obtain ⟨l, g, theirs, d, priv, mine, s1, s2, s3, s4, s5, s6, s7⟩ := hshare
  refine Run.bind' (Run.cipherDeriveHandshake (ctx.hs.trans hi) (.server (ctx.state.trans hs) (ctx.last.trans hl)
    s1 s2 s3 s4 s5 s6 ⟨_, hmem2⟩ s7 (fun hf => (ha2 hf).of ctx2.algs.1 ctx2.algs.2) hh) fun k3 k4 hk3 hk4 => ?_)
  have hkeys : k4.wr.key.isSome = true ∧ k4.rd.key.isSome = true := by
    have hv := deriveHandshake_view hk4
    cases hv
    exact ⟨rfl, rfl⟩
  refine Run.send (fun _ => ⟨f, random, sid, suites, exts, clear, enc, shared, ctx.state.trans hs,
    (lastRecv_keyEvents _ _ _ _).trans (ctx.last.trans hl), ?_, rfl, hkeys.1, hkeys.2⟩) fun c3 f3 => ?_
  · obtain ⟨a, b, h1, h2, h3, h4⟩ := hneg
    exact ⟨a, b, h1.trans ctx.config.symm, h2, h3.trans ctx.signature.symm, h4.trans ctx.nconfig.symm⟩
  · refine ⟨ctx.trans (FlightCtx.trans (b := { c2 with cipher := some k4, tr := keyEvents _ k3 k4 ++ c2.tr })
      ?_ f3.flight), f3.flight.enc hkeys.1, f3.flight.dec hkeys.2⟩
    refine ⟨rfl, rfl, rfl, rfl, lastRecv_keyEvents _ _ _ _, rfl, rfl, fun _ => hkeys.1, fun _ => hkeys.2,
      rfl, ?_, rfl⟩
    have hv := deriveHandshake_view hk4
    dsimp only
    rw [hk3]
    cases hv <;> rfl

/-- the OCSP response to staple -/
def StapleOk (E : Env) (c : Conn) (chain : List Bytes) (res : Bytes) : Prop :=
  ∃ leaf issuer rest url d d' nc, chain = leaf :: issuer :: rest ∧ c.nconfig = some nc ∧
    nc.peerWantOcspStapling = some true ∧ c.hasOcsp = true ∧ E.ocspUrl leaf = .ok url ∧
    E.ocspFetch url (E.ocspRequest leaf issuer) d = .ok res ∧
    E.ocspValidate issuer (E.ocspRequest leaf issuer) res d' = .ok ()

theorem run_serverStaple {chain : List Bytes} {c : Conn} :
    Run E G (serverStaple E chain) c fun r c' => DrawSame c c' ∧
      (∀ res, r = some res → StapleOk E c chain res) ∧ (r = none → ∀ nc leaf issuer rest,
        c.nconfig = some nc → chain = leaf :: issuer :: rest → nc.peerWantOcspStapling = some true →
        c.hasOcsp = true → ∃ url res d d', E.ocspUrl leaf = .ok url ∧
          E.ocspFetch url (E.ocspRequest leaf issuer) d = .ok res ∧
          E.ocspValidate issuer (E.ocspRequest leaf issuer) res d' = .error .valueError) := by
  unfold serverStaple
  refine Run.bind' (Run.get ?_)
  refine Run.bind' (Run.getNc fun nc hnc => ?_)
  try dsimp only
  split
  · split
    · rename_i hw
      refine Run.bind' (Run.lift fun url hurl => ?_)
      refine Run.bind' (Run.nextDraw ?_)
      refine Run.bind' (Run.lift fun res hres => ?_)
      refine Run.bind' (Run.nextDraw ?_)
      try dsimp only
      split
      · rename_i hval
        refine Run.pure ⟨⟨_, rfl⟩, fun r hr => ?_, fun hr => by cases hr⟩
        cases hr
        exact ⟨_, _, _, _, _, _, nc, rfl, hnc, hw.1, hw.2, hurl, hres, hval⟩
      · rename_i hval
        refine Run.pure ⟨⟨_, rfl⟩, by simp, ?_⟩
        intro _ nc' leaf issuer rest _ hch _ _
        cases hch
        exact ⟨_, _, _, _, hurl, hres, hval⟩
      · exact Run.throw
    · rename_i hw
      refine Run.pure ⟨⟨_, rfl⟩, by simp, ?_⟩
      intro _ nc' leaf issuer rest hnc' hch h1 h2
      rw [hnc] at hnc'
      cases hnc'
      exact absurd ⟨h1, h2⟩ hw
  · rename_i hch
    refine Run.pure ⟨⟨_, rfl⟩, by simp, ?_⟩
    intro _ nc' leaf issuer rest _ h1
    exact absurd h1 (hch _ _ _)

theorem run_serverCertEntries {c : Conn} :
    Run E G (serverCertEntries E) c fun r c' => DrawSame c c' ∧
      ∃ nc, c.nconfig = some nc ∧ EntriesOk E c nc r := by
  unfold serverCertEntries
  refine Run.bind' (Run.get ?_)
  refine Run.bind' (Run.getNc fun nc hnc => ?_)
  split
  · rename_i hraw
    split
    · rename_i k hk
      exact Run.pure ⟨⟨_, rfl⟩, nc, hnc, .raw hraw hk⟩
    · exact Run.throw
  · rename_i hraw
    split
    · exact Run.throw
    · rename_i chain hchain
      refine Run.bind run_serverStaple ?_
      rintro st c1 ⟨h1, h2, h3⟩
      try dsimp only
      split
      · rename_i leaf rest res
        obtain ⟨leaf', issuer, rest', url, d, d', nc', k1, k2, k3, k4, k5, k6, k7⟩ := h2 res rfl
        cases k1
        rw [hnc] at k2
        cases k2
        exact Run.pure ⟨h1, nc, hnc, .stapled hraw hchain k3 k4 k5 k6 k7⟩
      · rename_i hno
        refine Run.pure ⟨h1, nc, hnc, .plain hraw hchain fun leaf issuer rest hch hw ho => ?_⟩
        subst hch
        cases st with
        | none => exact h3 rfl nc leaf issuer rest hnc rfl hw ho
        | some res => exact (hno leaf (issuer :: rest) res rfl rfl).elim

theorem EntriesOk.draws {c : Conn} {nc : NConfig} {l : List CertEntry} (h : EntriesOk E c nc l) (n : Nat) :
    EntriesOk E { c with draws := n } nc l := by
  cases h with
  | raw h1 h2 => exact .raw h1 h2
  | plain h1 h2 h3 => exact .plain h1 h2 h3
  | stapled h1 h2 h3 h4 h5 h6 h7 => exact .stapled h1 h2 h3 h4 h5 h6 h7

theorem run_serverSendCertificate {f : Bool} {random sid : Bytes} {suites : List Nat}
    {exts clear enc : List Ext} {shared : Bytes} {c : Conn} (hs : c.state = .serverWaitCH f)
    (hl : lastRecv c.tr = some (.handshake (.clientHello random sid suites exts)))
    (hu : c.clientUnique = some random)
    (hneg : Negotiated E c exts clear enc (some shared)) :
    Run E G (serverSendCertificate E) c fun _ c' => FlightCtx c c' := by
  unfold serverSendCertificate
  refine Run.bind run_serverCertEntries ?_
  rintro entries c1 ⟨⟨n, rfl⟩, nc, hnc, hent⟩
  refine Run.bind' (Run.send (fun _ => ⟨f, hs, rfl, random, sid, suites, exts, clear, enc, shared, nc, hl,
    hneg, hnc, hent.draws _⟩) fun c2 f2 => ?_)
  refine Run.bind' (Run.get ?_)
  try dsimp only
  split
  · exact Run.throw
  rename_i scheme priv hsig
  have hs2 : c2.state = .serverWaitCH f := f2.flight.state.trans hs
  refine Run.bind' (Run.transcriptDigest fun h hh => ?_)
  refine Run.bind' (Run.nextDraw ?_)
  refine Run.bind' (Run.lift fun sig hsig' => ?_)
  refine Run.send (fun _ => ⟨f, priv, h, _, hs2, hsig, hh, hsig',
    random, sid, suites, exts, clear, enc, shared, f2.flight.last.trans hl,
    f2.flight.clientUnique.trans hu, ?_⟩) fun c3 f3 => ?_
  · obtain ⟨a, b, h1, h2, h3, h4⟩ := hneg
    exact ⟨a, b, h1.trans f2.flight.config.symm, h2, h3.trans f2.flight.signature.symm,
      h4.trans f2.flight.nconfig.symm⟩
  have a := f2.flight
  have b := f3.flight
  exact ⟨b.1.trans a.1, b.2.trans a.2, b.3.trans a.3, b.4.trans a.4, b.5.trans a.5, b.6.trans a.6,
    b.7.trans a.7, b.8 ∘ a.8, b.9 ∘ a.9, b.10.trans a.10, b.11.1.trans a.11.1,
    b.11.2.trans a.11.2⟩

theorem run_serverFlight {f : Bool} {random sid : Bytes} {suites : List Nat} {exts : List Ext}
    {clear enc : List Ext} {shared : Bytes} {c : Conn} (hs : c.state = .serverWaitCH f)
    (hl : lastRecv c.tr = some (.handshake (.clientHello random sid suites exts)))
    (hneg : Negotiated E c exts clear enc (some shared)) (hshare : ShareOk E exts clear shared)
    (hsecond : ∃ s, c.config.cipherSuites.find? suites.contains = some s ∧
      (f = true → c.cipher.map (·.info.id) = some s))
    (hu : c.clientUnique = some random) (hi : c.inputHandshake = [])
    (ho : c.transcript.orderI ≠ 0) (ha : f = true → c.AlgOk) :
    Run E G (serverFlight E f sid clear enc shared) c (Keep c) := by
  unfold serverFlight
  refine Run.bind (run_serverSendHello hs hl hneg hshare hsecond hu hi ho ha) ?_
  rintro _ c1 ⟨h1, henc, hdec⟩
  have hs1 := h1.state.trans hs
  refine Run.bind' (Run.get ?_)
  refine Run.bind (Q := fun _ c2 => FlightCtx c1 c2) ?_ ?_
  · unfold M.guarded
    split
    · rename_i hreq
      unfold serverRequestCert
      refine Run.bind' (Run.get ?_)
      exact Run.send (fun _ => ⟨f, hs1, hreq, rfl, rfl⟩) fun c2 f2 => f2.flight
    · exact Run.mpure (.refl _)
  rintro _ c2 h2
  have hs2 := h2.state.trans hs1
  refine Run.bind (run_serverSendCertificate hs2 (h2.last.trans (h1.last.trans hl))
    (h2.clientUnique.trans (h1.clientUnique.trans hu)) (by
    obtain ⟨a, b, k1, k2, k3, k4⟩ := hneg
    exact ⟨a, b, k1.trans (h1.config.symm.trans h2.config.symm), k2,
      k3.trans (h1.signature.symm.trans h2.signature.symm),
      k4.trans (h1.nconfig.symm.trans h2.nconfig.symm)⟩)) ?_
  rintro _ c3 h3
  have hs3 := h3.state.trans hs2
  refine Run.bind (Q := fun _ c4 => FlightCtx c3 c4 ∧
    ∃ mac, c4.tr.head? = some (.sent (.handshake (.finished mac)))) ?_ ?_
  · unfold serverSendFinished
    refine Run.bind' (Run.transcriptDigest fun h hh => ?_)
    refine Run.bind' (Run.getCipher fun k hk => ?_)
    refine Run.bind' (Run.lift fun mac hmac => ?_)
    exact Run.send (fun _ => ⟨k, h, hk, hh, hmac, .inl ⟨f, hs3⟩⟩) fun c4 f4 =>
      ⟨f4.flight, mac, f4.head⟩
  rintro _ c4 ⟨h4, mac, hmac⟩
  refine Run.bind' (Run.transcriptDigest fun h hh => ?_)
  split
  · exact Run.throw
  · rename_i hreq
    refine Run.moveTo (.serverFinished (h4.state.trans hs3) ?_ hmac hh
      (h4.enc (h3.enc (h2.enc henc))) (h4.dec (h3.dec (h2.dec hdec)))
      ⟨random, sid, suites, exts, clear, enc, shared,
        h4.last.trans (h3.last.trans (h2.last.trans (h1.last.trans hl))), ?_⟩) fun _ => .of_late rfl
    · rw [h4.config, h3.config, h2.config]
      simpa using hreq
    · obtain ⟨a, b, k1, k2, k3, k4⟩ := hneg
      exact ⟨a, b, k1.trans (h1.config.symm.trans (h2.config.symm.trans
          (h3.config.symm.trans h4.config.symm))), k2,
        k3.trans (h1.signature.symm.trans (h2.signature.symm.trans
          (h3.signature.symm.trans h4.signature.symm))),
        k4.trans (h1.nconfig.symm.trans (h2.nconfig.symm.trans
          (h3.nconfig.symm.trans h4.nconfig.symm)))⟩

theorem run_serverWaitCH {f : Bool} {content : Content} {c : Conn}
    (hs : c.state = .serverWaitCH f) (h : c.tr.head? = some (.recv content))
    (hi : c.inputHandshake = [])
    (ho : ∀ h, content = .handshake h → Landed c.transcript.orderI h.msgType) :
    Run E G (serverWaitCH E f content) c (Keep c) := by
  have hl := lastRecv_head h
  unfold serverWaitCH
  split
  · rename_i random sid suites exts
    refine Run.bind (run_serverCheckHello hs h) ?_
    rintro _ c1 ctx
    have hs1 := ctx.state.trans hs
    have h1 : c1.tr.head? = some (.recv (.handshake (.clientHello random sid suites exts))) := by
      rw [ctx.tr]; exact h
    have hl1 := lastRecv_head h1
    refine Run.bind_eq (run_serverNegotiate hs1 hl1) ?_
    rintro ⟨clear, enc, shared⟩ c2 heq ⟨⟨n, s, d, rfl⟩, hnone, hsome⟩
    try dsimp only
    split
    · have := hnone rfl
      dsimp only at this
      subst this
      exact Run.mono (Q := Keep { c1 with nconfig := n, signature := s, draws := d })
        (run_serverSendHrr (c₁ := c1) hs1 h1 heq rfl ctx.unique ctx.second ctx.alg)
        fun _ _ h hr => h fun _ => ctx.clear (hr (by rw [hs]; rfl))
    · rename_i shared
      exact Run.mono (Q := Keep { c1 with nconfig := n, signature := s, draws := d })
        (run_serverFlight hs1 hl1 ⟨c1, _, rfl, heq, rfl, rfl⟩ (hsome _ rfl) ctx.second
        ctx.unique (ctx.hs.trans hi) (by rw [← ctx.order] at ho; exact (ho _ rfl).1)
        ctx.alg) fun _ _ h hr => h fun _ => ctx.clear (hr (by rw [hs]; rfl))
  · exact run_baseProcess h (by rw [hs]; rfl) (by rw [hs]; simp)

theorem run_serverWaitFin {fh : Bytes} {content : Content} {c : Conn}
    (hs : c.state = .serverWaitFin fh) (h : c.tr.head? = some (.recv content))
    (hi : c.inputHandshake = []) :
    Run E G (serverWaitFin E fh content) c (Keep c) := by
  have hl := lastRecv_head h
  unfold serverWaitFin
  split
  · rename_i vd
    refine Run.bind' (Run.getCipher fun k hk => ?_)
    refine Run.bind' (Run.lift fun _ hv => ?_)
    have hv := mapValueError_ok hv
    refine Run.bind' (Run.transcriptDigest fun cf hcf => ?_)
    refine Run.bind' (Run.cipherDeriveMaster hi (.server hs hk hl hv hcf) fun k2 k3 r hk2 hk3 => ?_)
    have hv := deriveMaster_view hk3
    cases hv
    exact Run.moveTo (.serverDone hs rfl rfl) fun _ => .of_late rfl
  · exact run_baseProcess h (by rw [hs]; rfl) (by rw [hs]; simp)

end Siotls
