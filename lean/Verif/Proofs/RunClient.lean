import Verif.Proofs.RunRecv
import Verif.Proofs.Views
/-!
# The client's methods as sequences of atomic steps
-/

namespace Siotls

variable {E : Env} {G : Conn → Prop}

/-- no claim about the result -/
abbrev Done : α → Conn → Prop := fun _ _ => True

/-- postcondition of the methods of the states -/
abbrev Keep (c : Conn) : α → Conn → Prop := fun _ c' => c.Ready → c'.Ready

theorem Conn.Ready.of_late {c : Conn} (h : c.state.early = false) : c.Ready := by
  intro h'; rw [h] at h'; cases h'

theorem Conn.Ready.of_clear {c : Conn} (h : c.mustEncrypt = false) : c.Ready := fun _ => h

theorem lastRecv_head {tr : List Ev} {x : Content} (h : tr.head? = some (.recv x)) :
    lastRecv tr = some x := by
  cases tr with
  | nil => cases h
  | cons e l => cases h; rfl

theorem run_baseProcess {content : Content} {c : Conn} (h : c.tr.head? = some (.recv content))
    (hr : c.state.canReceive = true) (hf : c.state ≠ .failed) :
    Run E G (baseProcess content) c (Keep c) := by
  unfold baseProcess
  split
  · split
    · rename_i level desc hd
      subst hd
      exact Run.moveTo (.closeNotify h hr hf) fun _ => .of_late rfl
    · split
      · split
        · exact Run.pure fun h => h
        · exact Run.throw
      · split
        · exact Run.throw
        · exact Run.throw
  · exact Run.throw
  · exact Run.throw

theorem mkClientHello_form {random : Bytes} {suites : List Nat} {exts : List Ext} {h : Handshake}
    (hm : mkClientHello random suites exts = .ok h) :
    h = .clientHello random [] suites (dictOfExts exts) := by
  unfold mkClientHello at hm
  dsimp only at hm
  repeat' split at hm
  all_goals first | (cases hm; done) | (cases hm; rfl)

theorem run_clientInitiate {cookie : Option Bytes} {c : Conn} (hs : c.state = .clientStart cookie) :
    Run E G (clientInitiate E cookie) c (Keep c) := by
  unfold clientInitiate
  refine Run.bind' (Run.get ?_)
  try dsimp only
  split
  · exact Run.throw
  · exact Run.throw
  · rename_i g gs random hk hu
    split
    · exact Run.throw
    · rename_i hreg
      have hreg : kexRegistered g = true := by simpa using hreg
      unfold kexInit
      refine Run.bind' (Run.bind' (Run.nextDraw (Run.lift ?_)))
      rintro ⟨priv, share⟩ hki
      try dsimp only
      refine Run.bind' (Run.lift fun hello hh => ?_)
      have hf := mkClientHello_form hh
      subst hf
      refine Run.bind' (Run.send (fun _ => ⟨cookie, g, gs, random, _, priv, share, hs, hu, hk, hreg,
        hki, hh⟩) fun c' f => ?_)
      refine Run.bind' (Run.transcriptDigest fun d hd => ?_)
      refine Run.bind' (Run.get ?_)
      refine Run.moveTo (.clientHello (cookie := cookie) (gs := gs) ?_ f.head rfl ?_ hki hd)
        fun hr _ => f.keys.enc.1.trans (hr (by rw [hs]; rfl))
      · rw [f.same]; exact hs
      · rw [f.same]; exact hk

/-- facts kept while the client handles the server's answer -/
structure AnswerCtx (c₀ : Conn) (f : Bool) (s : Nat) (c : Conn) : Prop where
  state : c.state = c₀.state
  last : lastRecv c.tr = lastRecv c₀.tr
  suite : s ∈ c.config.cipherSuites
  clear : c₀.mustEncrypt = false → c.mustEncrypt = false
  hs : c.inputHandshake = c₀.inputHandshake
  order : c.transcript.orderI = c₀.transcript.orderI
  alg : f = true → c.AlgOk
  nc : f = true → ∃ nc, c.nconfig = some nc ∧ nc.cipherSuite = some s
  quiet : ∀ m, c.tr.head? ≠ some (.sent (.handshake m))

/-- `AlgOk` depends on the algorithms only -/
theorem Conn.AlgOk.of {c c' : Conn} (h : c.AlgOk)
    (hk : c'.cipher.map (·.info.digest) = c.cipher.map (·.info.digest))
    (ht : c'.transcript.hashes.map Prod.fst = c.transcript.hashes.map Prod.fst) : c'.AlgOk := by
  obtain ⟨k, d, h1, h2⟩ := h
  rw [h1] at hk
  rw [h2] at ht
  cases hc : c'.cipher with
  | none => rw [hc] at hk; cases hk
  | some k' =>
    rw [hc] at hk
    simp only [Option.map_some, Option.some.injEq] at hk
    match hh : c'.transcript.hashes with
    | [] => rw [hh] at ht; cases ht
    | [(a, d')] =>
      rw [hh] at ht
      simp only [List.map_cons, List.map_nil, List.cons.injEq, and_true] at ht
      exact ⟨k', d', hc, by rw [hh, hk, ht]⟩
    | _ :: _ :: _ => rw [hh] at ht; simp at ht

theorem SameKeys.digest {a b : Option CipherSt} (h : SameKeys a b) :
    b.map (·.info.digest) = a.map (·.info.digest) := by
  unfold SameKeys at h
  split at h
  · obtain ⟨n, rfl⟩ := h; rfl
  · rfl
  · cases h

theorem update_algs {t t' : Transcript} {d : Bytes} {s : Side} {ty : Nat} {r}
    (h : t.update d s ty = (r, t')) : t'.hashes.map Prod.fst = t.hashes.map Prod.fst := by
  unfold Transcript.update at h
  split at h
  · cases h; rfl
  · dsimp only at h
    split at h
    · cases h; rfl
    · split at h <;> cases h
      · simp [List.map_map, Function.comp_def]
      · rfl

theorem postInit_alg {c : Conn} {t : Transcript} {k : CipherSt} (hc : c.cipher = some k)
    (h : c.transcript.postInit k.info.digest = .ok t) : Conn.AlgOk { c with transcript := t } := by
  unfold Transcript.postInit at h
  split at h
  · rename_i x hx
    cases h
    have : x.1 = k.info.digest := by simpa using List.find?_some hx
    exact ⟨k, x.2, hc, by simp [← this]⟩
  · cases h

theorem postInit_order {t t' : Transcript} {a : HashAlg} (h : t.postInit a = .ok t') :
    t'.orderI = t.orderI := by
  unfold Transcript.postInit at h
  split at h
  · cases h; rfl
  · cases h

theorem run_clientSetup {f : Bool} {ks : List (Nat × Bytes)} {ch : Bytes} {suite : Nat}
    {x : Content} {c : Conn} (hs : c.state = .clientWaitSH f ks ch) (hh : c.tr.head? = some (.recv x))
    (hx : answerSuite x = some suite) :
    Run E G (clientSetup E f suite) c fun _ c' => AnswerCtx c f suite c' := by
  have hl := lastRecv_head hh
  unfold clientSetup
  refine Run.bind' (Run.get ?_)
  split
  · exact Run.throw
  rename_i hsuite
  have hsuite : suite ∈ c.config.cipherSuites := by simpa using hsuite
  split
  · rename_i hf
    subst hf
    refine Run.bind' (Run.modify (.nc (.client hs hl hx hsuite)) ?_)
    try dsimp only
    split
    · exact Run.throw
    rename_i info hinfo
    refine Run.bind' (Run.modify (.setup (.client (ks := ks) (h := ch) hs hh hx hsuite hinfo rfl rfl)) ?_)
    refine Run.bind' (Run.transcriptPostInit rfl rfl (.inl ⟨ks, ch, hs⟩) fun t ht => ?_)
    refine Run.send (fun _ => trivial) fun c' f => ?_
    refine ⟨?_, ?_, ?_, ?_, ?_, ?_, ?_, ?_, fun m => by rw [f.head]; simp⟩
    · rw [f.same]
    · rw [f.last]
    · rw [f.same]; exact hsuite
    · exact fun _ => f.keys.enc.1
    · rw [f.same]
    · rw [f.transcript (by simp)]; exact postInit_order ht
    · exact fun _ => (postInit_alg rfl ht).of f.keys.digest (by rw [f.transcript (by simp)])
    · exact fun _ => ⟨{ NConfig.new with cipherSuite := some suite }, by rw [f.same], rfl⟩
  · rename_i hf
    exact Run.pure ⟨rfl, rfl, hsuite, fun h => h, rfl, rfl, fun h => absurd h hf, fun h => absurd h hf,
      fun m => by rw [hh]; simp⟩

theorem run_clientProcessHrr {f : Bool} {ks : List (Nat × Bytes)} {ch random sid : Bytes}
    {suite : Nat} {exts : List Ext} {c : Conn} (hs : c.state = .clientWaitSH f ks ch)
    (hl : lastRecv c.tr = some (.handshake (.helloRetryRequest random sid suite exts)))
    (hsuite : suite ∈ c.config.cipherSuites) (ho : c.transcript.orderI ≠ 2)
    (ha : f = true → c.AlgOk)
    (hn : f = true → ∃ nc, c.nconfig = some nc ∧ nc.cipherSuite = some suite)
    (hq : ∀ m, c.tr.head? ≠ some (.sent (.handshake m))) :
    Run E G (clientProcessHrr E ch exts) c (Keep c) := by
  unfold clientProcessHrr
  refine Run.bind' (Run.get ?_)
  try dsimp only
  split
  · exact Run.throw
  · rename_i g hg
    split
    · exact Run.throw
    rename_i hmem
    have hmem : g ∈ c.config.keyExchanges := by simpa using hmem
    cases hnc : c.nconfig with
    | none =>
      exact Run.of_eq (r := .error .attributeError) (c' := c)
        (by simp only [M.bind_def, getNc, hnc]) .refl (by simp)
    | some nc =>
    set cfg : Config := { c.config with
      cipherSuites := nc.cipherSuite.toList, keyExchanges := [g] } with hcfg
    cases hck : cfg.check with
    | error e =>
      exact Run.of_eq (r := .error e) (c' := c)
        (by simp only [M.bind_def, getNc, hnc, setConfig, ← hcfg, hck]) .refl (by simp)
    | ok u =>
    have hok : ∀ t : Transcript, CfgOk { c with transcript := t } cfg := fun t =>
      .client (c := { c with transcript := t }) hs hl hsuite hg hmem hnc (fun hf => by
        obtain ⟨n, h1, h2⟩ := hn hf
        rw [hnc] at h1
        cases h1
        exact h2) rfl hck hq
    cases ht : c.transcript.hrrDance c.config.side ch with
    | error e =>
      exact Run.of_eq (r := .error e) (c' := { c with config := cfg })
        (by simp only [M.bind_def, getNc, hnc, setConfig, ← hcfg, hck, transcriptHrr, ht])
        (.single (.cfg (hok c.transcript))) (by simp)
    | ok t =>
    have hdance : Step E G c { c with transcript := t } := .hrrClient hs hl ho ht ha
    cases hcookie : cookieOf exts with
    | error e =>
      exact Run.of_eq (r := .error e) (c' := { c with config := cfg, transcript := t })
        (by simp only [M.bind_def, getNc, hnc, setConfig, ← hcfg, hck, transcriptHrr, ht, M.lift])
        ((Relation.ReflTransGen.single hdance).tail (.cfg (hok t))) (by simp)
    | ok cookie =>
    have hrun : Run E G (clientInitiate E cookie)
        { c with config := cfg, transcript := t, state := .clientStart cookie } (Keep c) :=
      (run_clientInitiate rfl).mono fun _ _ h hr => h fun _ => hr (by rw [hs]; rfl)
    unfold Run at hrun ⊢
    generalize hm : (getNc >>= _ : M Unit) = m
    have heq : m c = clientInitiate E cookie
        { c with config := cfg, transcript := t, state := .clientStart cookie } := by
      rw [← hm]
      simp only [M.bind_def, getNc, hnc, setConfig, ← hcfg, hck, transcriptHrr, ht, M.lift, moveTo,
        M.modify]
    rw [heq]
    refine ⟨((Relation.ReflTransGen.single hdance).tail
      (.retry hs (hok t) (fun hf => (ha hf).of rfl ?_) ⟨_, _, _, _, hcookie, hl⟩)).trans hrun.1, hrun.2⟩
    unfold Transcript.hrrDance at ht
    split at ht
    · cases ht
    · rename_i hhs
      cases ht
      show _ = c.transcript.hashes.map Prod.fst
      rw [hhs]; rfl
  · exact Run.throw

theorem mapValueError_ok {α} {e : Exn} {r : Except Exn α} {a : α}
    (h : mapValueError e r = .ok a) : r = .ok a := by
  unfold mapValueError at h
  split at h
  · cases h
  · exact h

theorem run_clientProcessServerHello {f : Bool} {ks : List (Nat × Bytes)} {ch random sid : Bytes}
    {suite : Nat} {exts : List Ext} {c : Conn} (hs : c.state = .clientWaitSH f ks ch)
    (hl : lastRecv c.tr = some (.handshake (.serverHello random sid suite exts)))
    (hsuite : suite ∈ c.config.cipherSuites) (hi : c.inputHandshake = [])
    (ha : f = true → c.AlgOk)
    (hn : f = true → ∃ nc, c.nconfig = some nc ∧ nc.cipherSuite = some suite) :
    Run E G (clientProcessServerHello E ks random exts) c (Keep c) := by
  unfold clientProcessServerHello
  refine Run.bind' (Run.modify (.serverUnique hs hl) ?_)
  refine Run.bind (Q := fun _ c' => c' = { c with serverUnique := some random } ∧
    findExt exts Iana.extSupportedVersions = some (.supportedVersionsResp Iana.tls13)) ?_ ?_
  · unfold clientNegVersion
    split
    · exact Run.throw
    · split
      · exact Run.throw
      · rename_i v hv hne
        have hv' : v = Iana.tls13 := by simpa using hne
        subst hv'
        exact Run.pure ⟨rfl, hv⟩
    · exact Run.throw
  rintro _ c1 ⟨rfl, hver⟩
  refine Run.bind' ?_
  unfold clientNegKeyShare
  split
  · exact Run.throw
  · rename_i g share hshare
    split
    · exact Run.throw
    rename_i g' priv hfind
    have hgg : g' = g := by
      have := List.find?_some hfind
      simpa using this
    subst hgg
    split
    · exact Run.throw
    rename_i hreg
    refine Run.bind' (Run.lift fun shared hshared => ?_)
    refine Run.bind' (Run.setNc (fun o ho => ?_) fun o ho => ?_)
    · refine { suite := .inl rfl, group := .inl rfl, alpn := .inl rfl, mfl := .inl rfl,
               cct := .inl rfl, sct := .inl rfl, peerCert := .inl rfl, peerKey := .inl rfl,
               sigAlg := .inl rfl, frozen := rfl, heartbeat := .inl ⟨rfl, rfl⟩, status := .inl rfl,
               kexs := .inr ⟨g', f, ks, ch, rfl, hs, ?_⟩ }
      exact List.mem_map.mpr ⟨_, List.mem_of_find?_eq_some hfind, rfl⟩
    refine Run.pure ?_
    refine Run.bind' (Run.cipherSkipEarly fun k k' hk hk' => ?_)
    refine Run.bind' (Run.transcriptDigest fun h hh => ?_)
    refine Run.bind' (Run.cipherDeriveHandshake hi (.client hs hl hsuite hver hshare hfind
      (by simpa using hreg) (mapValueError_ok hshared) rfl (fun hf => (ha hf).of ?_ rfl) hh) fun k2 k3 hk2 hk3 => ?_)
    · obtain ⟨_, _, rfl⟩ := skipEarly_view hk'
      have hk : c.cipher = some k := hk
      dsimp only
      rw [hk]; rfl
    have hv := deriveHandshake_view hk3
    cases hv
    exact Run.moveTo (.serverHello hs (by rw [lastRecv_append (by
      intro e he x
      intro hex; subst hex
      rcases mem_keyEvents he with ⟨_, _, he⟩ | ⟨_, _, he⟩ | ⟨_, _, he⟩ <;> cases he)]; exact hl) rfl rfl rfl
      ⟨hsuite, hver, g', share, priv, _, hshare, List.mem_of_find?_eq_some hfind, rfl, rfl, fun hf => by
        obtain ⟨n, h1, h2⟩ := hn hf
        have ho : c.nconfig = some o := ho
        rw [h1] at ho
        cases ho
        exact h2⟩)
      fun _ => .of_late rfl
  · exact Run.throw

theorem run_clientWaitSH {f : Bool} {ks : List (Nat × Bytes)} {ch : Bytes} {content : Content}
    {c : Conn} (hs : c.state = .clientWaitSH f ks ch) (h : c.tr.head? = some (.recv content))
    (hi : c.inputHandshake = [])
    (ho : ∀ h, content = .handshake h → Landed c.transcript.orderI h.msgType) :
    Run E G (clientWaitSH E f ks ch content) c (Keep c) := by
  have hl := lastRecv_head h
  have hb : Run E G (baseProcess content) c (Keep c) :=
    run_baseProcess h (by rw [hs]; rfl) (by rw [hs]; simp)
  unfold clientWaitSH
  split
  · rename_i random sid suite exts
    refine Run.bind (run_clientSetup hs h rfl) ?_
    rintro _ c' ctx
    exact (run_clientProcessServerHello (ctx.state.trans hs) (ctx.last.trans hl) ctx.suite
      (ctx.hs.trans hi) ctx.alg ctx.nc).mono
      fun _ _ h hr => h fun _ => ctx.clear (hr (by rw [hs]; rfl))
  · refine Run.bind (run_clientSetup hs h rfl) ?_
    rintro _ c' ctx
    exact (run_clientProcessHrr (ctx.state.trans hs) (ctx.last.trans hl) ctx.suite
      (by rw [← ctx.order] at ho; exact (ho _ rfl).2 rfl) ctx.alg ctx.nc ctx.quiet).mono
      fun _ _ h hr => h fun _ => ctx.clear (hr (by rw [hs]; rfl))
  · split
    · exact hb
    · exact Run.throw
  · exact hb

/-! ## EncryptedExtensions -/

theorem bind_ok_iff {α β} {m : M α} {g : α → M β} {c c' : Conn} {b : β} :
    (m >>= g) c = (.ok b, c') ↔ ∃ a c₁, m c = (.ok a, c₁) ∧ g a c₁ = (.ok b, c') := by
  rw [M.bind_def]
  rcases m c with ⟨r, c₁⟩
  cases r with
  | error e => simp
  | ok a =>
    constructor
    · exact fun h => ⟨a, c₁, rfl, h⟩
    · rintro ⟨_, _, h, h'⟩; cases h; exact h'

theorem get_ok {c c' a : Conn} (h : M.get c = (.ok a, c')) : a = c ∧ c' = c := by cases h; exact ⟨rfl, rfl⟩

theorem lift_ok {α} {r : Except Exn α} {c c' : Conn} {a : α} (h : M.lift r c = (.ok a, c')) :
    r = .ok a ∧ c = c' := by cases h; exact ⟨rfl, rfl⟩

theorem pure_ok {α} {c c' : Conn} {a b : α} (h : (pure a : M α) c = (.ok b, c')) : b = a ∧ c' = c := by
  cases h; exact ⟨rfl, rfl⟩

theorem getNc_ok {c c' : Conn} {n : NConfig} (h : getNc c = (.ok n, c')) :
    c.nconfig = some n ∧ c = c' := by
  unfold getNc at h
  split at h <;> cases h
  exact ⟨‹_›, rfl⟩

theorem setNc_ok {f : NConfig → NConfig} {c c' : Conn} {u : Unit} (h : setNc f c = (.ok u, c')) :
    ∃ n, c.nconfig = some n ∧ c' = { c with nconfig := some (f n) } := by
  unfold setNc at h
  split at h
  · split at h <;> cases h
    exact ⟨_, ‹_›, rfl⟩
  · cases h

theorem clientNegMfl_ok {exts : List Ext} {c c' : Conn} {u : Unit}
    (h : clientNegMfl exts c = (.ok u, c')) :
    ∃ n x, c.nconfig = some n ∧ MflAccepted c.config exts x ∧
      c' = { c with nconfig := some { n with maxFragmentLength := x } } := by
  unfold clientNegMfl at h
  obtain ⟨_, _, h0, h⟩ := bind_ok_iff.mp h
  cases h0
  cases hf : findExt exts Iana.extMaxFragmentLength with
  | none =>
    rw [hf] at h
    obtain ⟨n, hn, rfl⟩ := setNc_ok h
    exact ⟨n, _, hn, .inl ⟨hf, rfl⟩, rfl⟩
  | some x =>
    rw [hf] at h
    cases x <;> try (cases h; done)
    rename_i code
    dsimp only at h
    by_cases hm : Iana.mflOctets code ≠ c.config.maxFragmentLength
    · rw [if_pos hm] at h; cases h
    · rw [if_neg hm] at h
      obtain ⟨n, hn, rfl⟩ := setNc_ok h
      exact ⟨n, _, hn, .inr ⟨code, hf, not_not.mp hm, congrArg some (not_not.mp hm)⟩, rfl⟩

theorem clientNegAlpn_ok {exts : List Ext} {c c' : Conn} {u : Unit}
    (h : clientNegAlpn exts c = (.ok u, c')) :
    ∃ n x, c.nconfig = some n ∧ AlpnAccepted c.config exts x ∧
      c' = { c with nconfig := some { n with alpn := x } } := by
  unfold clientNegAlpn at h
  obtain ⟨_, _, h0, h⟩ := bind_ok_iff.mp h
  cases h0
  cases hf : findExt exts Iana.extAlpn with
  | none =>
    rw [hf] at h
    obtain ⟨n, hn, rfl⟩ := setNc_ok h
    exact ⟨n, _, hn, .inl ⟨hf, rfl⟩, rfl⟩
  | some x =>
    rw [hf] at h
    cases x <;> try (cases h; done)
    rename_i l
    rcases l with _ | ⟨p, _ | ⟨q, l⟩⟩
    · cases h
    · dsimp only at h
      by_cases hm : c.config.alpn.contains p = false
      · rw [if_pos hm] at h; cases h
      · rw [if_neg hm] at h
        obtain ⟨n, hn, rfl⟩ := setNc_ok h
        exact ⟨n, _, hn, .inr ⟨p, hf, by simpa using hm, rfl⟩, rfl⟩
    · cases h

theorem clientNegHeartbeat_ok {exts : List Ext} {c c' : Conn} {u : Unit}
    (h : clientNegHeartbeat exts c = (.ok u, c')) :
    ∃ n x y, c.nconfig = some n ∧ HeartbeatAccepted c.config exts x y ∧
      c' = { c with nconfig := some { n with canSendHeartbeat := x, canEchoHeartbeat := y } } := by
  unfold clientNegHeartbeat at h
  obtain ⟨_, _, h0, h⟩ := bind_ok_iff.mp h
  cases h0
  cases hf : findExt exts Iana.extHeartbeat with
  | none =>
    rw [hf] at h
    obtain ⟨_, _, h1, h⟩ := bind_ok_iff.mp h
    obtain ⟨n, hn, rfl⟩ := setNc_ok h1
    obtain ⟨n', hn', rfl⟩ := setNc_ok h
    cases hn'
    exact ⟨n, _, _, hn, .inl ⟨hf, rfl, rfl⟩, rfl⟩
  | some x =>
    rw [hf] at h
    cases x <;> try (cases h; done)
    obtain ⟨_, _, h1, h⟩ := bind_ok_iff.mp h
    obtain ⟨n, hn, rfl⟩ := setNc_ok h1
    obtain ⟨n', hn', rfl⟩ := setNc_ok h
    cases hn'
    exact ⟨n, _, _, hn, .inr ⟨_, hf, rfl, rfl⟩, rfl⟩

theorem clientNegCct_ok {exts : List Ext} {c c' : Conn} {u : Unit}
    (h : clientNegCct exts c = (.ok u, c')) :
    ∃ n x, c.nconfig = some n ∧ CctAccepted c.config exts x ∧
      c' = { c with nconfig := some { n with clientCertificateType := x } } := by
  unfold clientNegCct at h
  obtain ⟨_, _, h0, h⟩ := bind_ok_iff.mp h
  cases h0
  cases hf : findExt exts Iana.extClientCertificateType with
  | none =>
    rw [hf] at h
    obtain ⟨n, hn, rfl⟩ := setNc_ok h
    exact ⟨n, _, hn, .inl ⟨hf, rfl⟩, rfl⟩
  | some x =>
    rw [hf] at h
    cases x <;> try (cases h; done)
    rename_i t
    dsimp only at h
    by_cases hm : c.config.certificateTypes.contains t = false
    · rw [if_pos hm] at h; cases h
    · rw [if_neg hm] at h
      obtain ⟨n, hn, rfl⟩ := setNc_ok h
      exact ⟨n, _, hn, .inr ⟨t, hf, by simpa using hm, rfl⟩, rfl⟩

theorem clientNegSct_ok {exts : List Ext} {c c' : Conn} {u : Unit}
    (h : clientNegSct exts c = (.ok u, c')) :
    ∃ n x, c.nconfig = some n ∧ SctAccepted c.config exts x ∧
      c' = { c with nconfig := some { n with serverCertificateType := x } } := by
  unfold clientNegSct at h
  obtain ⟨_, _, h0, h⟩ := bind_ok_iff.mp h
  cases h0
  cases hf : findExt exts Iana.extServerCertificateType with
  | none =>
    rw [hf] at h
    obtain ⟨n, hn, rfl⟩ := setNc_ok h
    exact ⟨n, _, hn, .inl ⟨hf, rfl⟩, rfl⟩
  | some x =>
    rw [hf] at h
    cases x <;> try (cases h; done)
    rename_i t
    dsimp only at h
    by_cases hm : c.config.peerCertificateTypes.contains t = false
    · rw [if_pos hm] at h; cases h
    · rw [if_neg hm] at h
      obtain ⟨n, hn, rfl⟩ := setNc_ok h
      exact ⟨n, _, hn, .inr ⟨t, hf, by simpa using hm, rfl⟩, rfl⟩

/-- the negotiation functions of `ClientWaitEncryptedExtensions`, one after the other -/
theorem clientNeg_ok {exts : List Ext} {c c1 c2 c3 c4 c5 : Conn} {u1 u2 u3 u4 u5 : Unit}
    (h1 : clientNegMfl exts c = (.ok u1, c1)) (h2 : clientNegAlpn exts c1 = (.ok u2, c2))
    (h3 : clientNegHeartbeat exts c2 = (.ok u3, c3)) (h4 : clientNegCct exts c3 = (.ok u4, c4))
    (h5 : clientNegSct exts c4 = (.ok u5, c5)) :
    ∃ n n', c.nconfig = some n ∧ c5 = { c with nconfig := some n' } ∧ ExtsOk c.config exts n' := by
  obtain ⟨n1, x1, e1, k1, rfl⟩ := clientNegMfl_ok h1
  obtain ⟨n2, x2, e2, k2, rfl⟩ := clientNegAlpn_ok h2
  obtain ⟨n3, x3, y3, e3, k3, rfl⟩ := clientNegHeartbeat_ok h3
  obtain ⟨n4, x4, e4, k4, rfl⟩ := clientNegCct_ok h4
  obtain ⟨n5, x5, e5, k5, rfl⟩ := clientNegSct_ok h5
  cases e2; cases e3; cases e4; cases e5
  exact ⟨n1, _, e1, rfl, k1, k2, k4, k5, k3⟩

/-- `c` differs from `c₀` by the negotiated configuration only -/
def NcSame (c₀ c : Conn) : Prop := ∃ n, c = { c₀ with nconfig := n }

theorem Run.setNcSame {f : NConfig → NConfig} {c₀ c : Conn} (hc : NcSame c₀ c)
    (hs : ∀ o, c.nconfig = some o → NcUpd E c o (f o)) :
    Run E G (Siotls.setNc f) c fun _ c' => NcSame c₀ c' := by
  obtain ⟨n, rfl⟩ := hc
  exact Run.setNc hs fun o _ => ⟨_, rfl⟩

theorem NcUpd.refl (E : Env) (c : Conn) (o : NConfig) : NcUpd E c o o :=
  { suite := .inl rfl, group := .inl rfl, alpn := .inl rfl, mfl := .inl rfl, cct := .inl rfl,
    sct := .inl rfl, peerCert := .inl rfl, peerKey := .inl rfl, sigAlg := .inl rfl,
    kexs := .inl rfl, frozen := rfl, heartbeat := .inl ⟨rfl, rfl⟩, status := .inl rfl }

theorem run_clientWaitEE {content : Content} {c : Conn} (hs : c.state = .clientWaitEE)
    (h : c.tr.head? = some (.recv content)) : Run E G (clientWaitEE content) c (Keep c) := by
  have hl := lastRecv_head h
  have hb : Run E G (baseProcess content) c (Keep c) :=
    run_baseProcess h (by rw [hs]; rfl) (by rw [hs]; simp)
  unfold clientWaitEE
  split
  · rename_i exts
    refine Run.bind_eq (Q := fun _ c' => NcSame c c') ?_ ?_
    · unfold clientNegMfl
      refine Run.bind' (Run.get ?_)
      try dsimp only
      split
      · exact Run.setNcSame ⟨_, rfl⟩ fun o _ =>
          { NcUpd.refl E c o with mfl := .inr (.inr (.inl ⟨hs, rfl⟩)) }
      · split
        · exact Run.throw
        · rename_i hne
          exact Run.setNcSame ⟨_, rfl⟩ fun o _ =>
            { NcUpd.refl E c o with mfl := .inr (.inl ⟨.inl hs, congrArg some (not_not.mp hne)⟩) }
      · exact Run.throw
    rintro _ c1 eq1 hc1
    have hs1 : c1.state = .clientWaitEE := by obtain ⟨n, rfl⟩ := hc1; exact hs
    refine Run.bind_eq (Q := fun _ c' => NcSame c c') ?_ ?_
    · unfold clientNegAlpn
      refine Run.bind' (Run.get ?_)
      try dsimp only
      split
      · exact Run.setNcSame hc1 fun o _ => { NcUpd.refl E c1 o with alpn := .inr ⟨.inl hs1, .inl rfl⟩ }
      · split
        · exact Run.throw
        · rename_i p _ hne
          exact Run.setNcSame hc1 fun o _ =>
            { NcUpd.refl E c1 o with alpn := .inr ⟨.inl hs1, .inr ⟨p, rfl, by simpa using hne⟩⟩ }
      · exact Run.throw
      · exact Run.throw
    rintro _ c2 eq2 hc2
    have hs2 : c2.state = .clientWaitEE := by obtain ⟨n, rfl⟩ := hc2; exact hs
    refine Run.bind_eq (Q := fun _ c' => NcSame c c') ?_ ?_
    · unfold clientNegHeartbeat
      refine Run.bind' (Run.get ?_)
      try dsimp only
      split
      · refine Run.bind (Run.setNcSame hc2 fun o _ =>
          { NcUpd.refl E c2 o with heartbeat := .inr (.inl hs2) }) ?_
        rintro _ c3 hc3
        have hs3 : c3.state = .clientWaitEE := by obtain ⟨n, rfl⟩ := hc3; exact hs
        exact Run.setNcSame hc3 fun o _ => { NcUpd.refl E c3 o with heartbeat := .inr (.inl hs3) }
      · refine Run.bind (Run.setNcSame hc2 fun o _ =>
          { NcUpd.refl E c2 o with heartbeat := .inr (.inl hs2) }) ?_
        rintro _ c3 hc3
        have hs3 : c3.state = .clientWaitEE := by obtain ⟨n, rfl⟩ := hc3; exact hs
        exact Run.setNcSame hc3 fun o _ => { NcUpd.refl E c3 o with heartbeat := .inr (.inl hs3) }
      · exact Run.throw
    rintro _ c3 eq3 hc3
    have hs3 : c3.state = .clientWaitEE := by obtain ⟨n, rfl⟩ := hc3; exact hs
    refine Run.bind_eq (Q := fun _ c' => NcSame c c') ?_ ?_
    · unfold clientNegCct
      refine Run.bind' (Run.get ?_)
      try dsimp only
      split
      · exact Run.setNcSame hc3 fun o _ =>
          { NcUpd.refl E c3 o with cct := .inr ⟨_, rfl, .inl ⟨hs3, .inl rfl⟩⟩ }
      · split
        · exact Run.throw
        · rename_i t _ hne
          exact Run.setNcSame hc3 fun o _ =>
            { NcUpd.refl E c3 o with cct := .inr ⟨_, rfl, .inl ⟨hs3, .inr (by simpa using hne)⟩⟩ }
      · exact Run.throw
    rintro _ c4 eq4 hc4
    have hs4 : c4.state = .clientWaitEE := by obtain ⟨n, rfl⟩ := hc4; exact hs
    refine Run.bind_eq (Q := fun _ c' => NcSame c c') ?_ ?_
    · unfold clientNegSct
      refine Run.bind' (Run.get ?_)
      try dsimp only
      split
      · exact Run.setNcSame hc4 fun o _ =>
          { NcUpd.refl E c4 o with sct := .inr ⟨_, rfl, .inl ⟨hs4, .inl rfl⟩⟩ }
      · split
        · exact Run.throw
        · rename_i t _ hne
          exact Run.setNcSame hc4 fun o _ =>
            { NcUpd.refl E c4 o with sct := .inr ⟨_, rfl, .inl ⟨hs4, .inr (by simpa using hne)⟩⟩ }
      · exact Run.throw
    rintro _ c5 eq5 -
    obtain ⟨n, n', -, rfl, hok⟩ := clientNeg_ok eq1 eq2 eq3 eq4 eq5
    exact Run.moveTo (.extensions hs hl rfl hok) fun _ => .of_late rfl
  · exact hb

/-! ## Certificate -/

/-- the connection after certificate checks: only draws changed -/
def DrawSame (c₀ c : Conn) : Prop := ∃ n, c = { c₀ with draws := n }

theorem run_clientVerifyChain {entries : List CertEntry} {c : Conn} :
    Run E G (clientVerifyChain E entries) c fun _ c' => DrawSame c c' ∧ ∃ store leaf others d,
      c.config.trustStore = some store ∧ certsOf entries = .ok (leaf :: others) ∧
      E.verifyChain store c.config.maxChainDepth (subjectOf E c.hostname) leaf others d = .ok () := by
  unfold clientVerifyChain
  refine Run.bind' (Run.get ?_)
  refine Run.bind' (Run.lift fun certs hcerts => ?_)
  try dsimp only
  split
  · rename_i leaf others store hst
    refine Run.bind' (Run.nextDraw ?_)
    try dsimp only
    split
    · rename_i hv
      exact Run.pure ⟨⟨_, rfl⟩, _, _, _, _, hst, hcerts, hv⟩
    · exact Run.throw
    · exact Run.throw
  · exact Run.throw
  · exact Run.throw

theorem run_clientVerifyRevocation {entries : List CertEntry} {c : Conn} (hne : entries ≠ []) :
    Run E G (clientVerifyRevocation entries) c fun _ c' => c' = c ∧
      (c.config.revocationList = none ∨ c.config.revocationList = some []) := by
  unfold clientVerifyRevocation
  refine Run.bind' (Run.get ?_)
  try dsimp only
  split
  · rename_i h
    exact Run.pure ⟨rfl, .inl h⟩
  · rename_i crl h
    split
    · rename_i hh
      refine Run.pure ⟨rfl, .inr ?_⟩
      rcases hh with hh | hh
      · rw [h]; simp at hh; rw [hh]
      · simp at hh; exact absurd hh hne
    · exact Run.throw

theorem run_clientVerifyStatus {entry issuer : CertEntry} {c : Conn} :
    Run E G (clientVerifyStatus E entry issuer) c fun _ c' => DrawSame c c' ∧
      StatusOk E c.hasOcsp entry issuer := by
  unfold clientVerifyStatus
  refine Run.bind' (Run.get ?_)
  try dsimp only
  split
  · rename_i res hf
    refine Run.bind' (Run.lift fun cert hcert => ?_)
    refine Run.bind' (Run.lift fun iss hiss => ?_)
    refine Run.bind' (Run.nextDraw ?_)
    refine Run.lift fun _ hv => ⟨⟨_, rfl⟩, .inl ⟨res, cert, iss, _, hf, hcert, hiss, mapValueError_ok hv⟩⟩
  · exact Run.throw
  · rename_i hf
    split
    · refine Run.bind' (Run.lift fun cert hcert => ?_)
      refine Run.bind' (Run.lift fun url hurl => ?_)
      try dsimp only
      split
      · exact Run.pure ⟨⟨_, rfl⟩, .inr ⟨hf, fun _ => ⟨cert, _, hcert, hurl, .inl rfl⟩⟩⟩
      · exact Run.pure ⟨⟨_, rfl⟩, .inr ⟨hf, fun _ => ⟨cert, _, hcert, hurl, .inr (.inl rfl)⟩⟩⟩
      · refine Run.bind' (Run.lift fun iss hiss => ?_)
        refine Run.bind' (Run.nextDraw ?_)
        refine Run.bind' (Run.lift fun res hres => ?_)
        refine Run.bind' (Run.nextDraw ?_)
        exact Run.lift fun _ hv => ⟨⟨_, rfl⟩, .inr ⟨hf, fun _ => ⟨cert, _, hcert, hurl, .inr (.inr
          ⟨iss, _, res, _, hiss, hres, mapValueError_ok hv⟩)⟩⟩⟩
    · rename_i ho
      exact Run.pure ⟨⟨_, rfl⟩, .inr ⟨hf, fun h => absurd h ho⟩⟩

theorem run_clientVerifyStatuses {entries : List CertEntry} {c : Conn} :
    Run E G (clientVerifyStatuses E entries) c fun _ c' => DrawSame c c' ∧ StatusesOk E c.hasOcsp entries := by
  induction entries generalizing c with
  | nil => exact Run.pure ⟨⟨_, rfl⟩, trivial⟩
  | cons e es ih =>
    cases es with
    | nil => exact Run.pure ⟨⟨_, rfl⟩, trivial⟩
    | cons i es =>
      rw [clientVerifyStatuses]
      refine Run.bind run_clientVerifyStatus ?_
      rintro _ c1 ⟨⟨n, rfl⟩, hs⟩
      refine ih.mono ?_
      rintro _ c2 ⟨⟨m, rfl⟩, hss⟩
      exact ⟨⟨m, rfl⟩, hs, hss⟩

theorem run_clientProcessEntries {type : Option Nat} {m : Bool} {ctx : Bytes}
    {entries : List CertEntry} {c : Conn} (hs : c.state = .clientWaitCert m)
    (hl : lastRecv c.tr = some (.handshake (.certificate ctx entries))) :
    Run E G (clientProcessEntries E type entries) c fun _ c' => ∃ nc n,
      c' = { c with nconfig := some nc, draws := n } ∧ CertOk E c nc entries ∧
      (c.config.requirePeerAuth = true → StatusesOk E c.hasOcsp entries) := by
  unfold clientProcessEntries
  split
  · unfold clientProcessX509
    refine Run.bind' (Run.get ?_)
    try dsimp only
    split
    · exact Run.throw
    rename_i first rest
    refine Run.bind' (Run.lift fun cert hcert => ?_)
    have hfirst : ∃ ex, first = .x509 cert ex := by
      cases first with
      | x509 c e => cases hcert; exact ⟨e, rfl⟩
      | rawKey => cases hcert
    obtain ⟨ex, rfl⟩ := hfirst
    refine Run.bind' (Run.setNc (fun o _ =>
      { NcUpd.refl E c o with peerCert := .inr ⟨cert, ex, rest, ctx, m, rfl, hs, hl⟩ }) fun o ho => ?_)
    split
    · rename_i hreq
      refine Run.bind run_clientVerifyChain ?_
      rintro _ c1 ⟨⟨n, rfl⟩, store, leaf, others, d, h1, h2, h3⟩
      refine Run.bind (run_clientVerifyRevocation (by simp)) ?_
      rintro _ c2 ⟨rfl, hrev⟩
      refine run_clientVerifyStatuses.mono ?_
      rintro _ c2 ⟨⟨n, rfl⟩, hst⟩
      refine ⟨_, n, rfl, fun _ => ⟨store, leaf, others, d, h1, h2, h3, ?_, hrev⟩, fun _ => hst⟩
      have : leaf = cert := by
        rw [certsOf] at h2
        have hc : (CertEntry.x509 cert ex).cert = .ok cert := rfl
        rw [hc] at h2
        cases hr : certsOf rest with
        | error e => rw [hr] at h2; cases h2
        | ok l => rw [hr] at h2; cases h2; rfl
      rw [this]
    · rename_i hreq
      exact Run.pure ⟨_, _, rfl, fun h => absurd h hreq, fun h => absurd h hreq⟩
  · unfold clientProcessRaw
    refine Run.bind' (Run.get ?_)
    try dsimp only
    split
    · exact Run.throw
    · exact Run.throw
    rename_i key ex rest
    refine Run.bind' (Run.setNc (fun o _ =>
      { NcUpd.refl E c o with peerKey := .inr ⟨key, ex, rest, ctx, m, rfl, hs, hl⟩ }) fun o ho => ?_)
    split
    · exact Run.throw
    · rename_i hreq
      exact Run.pure ⟨_, _, rfl, fun h => absurd h hreq, fun h => absurd h hreq⟩
  · exact Run.throw

theorem run_clientWaitCert {m : Bool} {content : Content} {c : Conn}
    (hs : c.state = .clientWaitCert m) (h : c.tr.head? = some (.recv content)) :
    Run E G (clientWaitCert E m content) c (Keep c) := by
  have hl := lastRecv_head h
  unfold clientWaitCert
  split
  · rename_i ctx entries
    refine Run.bind' (Run.get ?_)
    split
    · exact Run.throw
    refine Run.bind' (Run.getNc fun nc hnc => ?_)
    split
    · exact Run.throw
    refine Run.bind (run_clientProcessEntries hs hl) ?_
    rintro _ c1 ⟨nc', n, rfl, hcert, hst⟩
    refine Run.bind' (Run.transcriptDigest fun d hd => ?_)
    exact Run.moveTo (.certificate (m := m) hs hl rfl h hcert hst hd) fun _ => .of_late rfl
  · exact run_baseProcess h (by rw [hs]; rfl) (by rw [hs]; simp)

theorem run_clientWaitCertCr {content : Content} {c : Conn}
    (hs : c.state = .clientWaitCertCr) (h : c.tr.head? = some (.recv content)) :
    Run E G (clientWaitCertCr E content) c (Keep c) := by
  have hl := lastRecv_head h
  unfold clientWaitCertCr
  split
  · refine Run.bind' (Run.moveTo (.noRequest hs hl) ?_)
    exact (run_clientWaitCert (c := { c with state := .clientWaitCert false }) rfl h).mono
      fun _ _ h _ => h (.of_late rfl)
  · exact Run.moveTo (.request hs hl) fun _ => .of_late rfl
  · exact run_baseProcess h (by rw [hs]; rfl) (by rw [hs]; simp)

theorem run_clientWaitCV {m : Bool} {ch : Bytes} {content : Content} {c : Conn}
    (hs : c.state = .clientWaitCV m ch) (h : c.tr.head? = some (.recv content)) :
    Run E G (clientWaitCV E m ch content) c (Keep c) := by
  have hl := lastRecv_head h
  unfold clientWaitCV
  split
  · rename_i alg sig
    refine Run.bind' (Run.get ?_)
    split
    · exact Run.throw
    rename_i halg
    have halg : alg ∈ c.config.signatureAlgorithms := by simpa using halg
    refine Run.bind' (Run.setNc (fun o _ =>
      { NcUpd.refl E c o with sigAlg := .inr ⟨alg, sig, m, ch, rfl, hs, hl, halg⟩ }) fun o ho => ?_)
    refine Run.bind' (Run.getNc fun nc hnc => ?_)
    refine Run.bind' (Run.lift fun pub hpub => ?_)
    split
    · exact Run.throw
    rename_i hreg
    refine Run.bind' (Run.lift fun _ hv => ?_)
    refine Run.bind' (Run.transcriptDigest fun d hd => ?_)
    exact Run.moveTo (.verify hs hl h halg hnc hpub hv hd (by simpa using hreg)) fun _ => .of_late rfl
  · exact run_baseProcess h (by rw [hs]; rfl) (by rw [hs]; simp)

theorem signFinish_keys {k k' : CipherSt} (h : ∃ n, k' = { k with wr := { k.wr with seq := n } })
    (d : Bytes) : signFinish E k' d = signFinish E k d := by
  obtain ⟨n, rfl⟩ := h; rfl

theorem verifyFinish_keys {k k' : CipherSt} (h : ∃ n, k' = { k with wr := { k.wr with seq := n } })
    (d v : Bytes) : verifyFinish E k' d v = verifyFinish E k d v := by
  obtain ⟨n, rfl⟩ := h; rfl

theorem run_clientWaitFin {m : Bool} {ch : Bytes} {content : Content} {c : Conn}
    (hs : c.state = .clientWaitFin m ch) (h : c.tr.head? = some (.recv content))
    (hi : c.inputHandshake = []) :
    Run E G (clientWaitFin E m ch content) c (Keep c) := by
  have hl := lastRecv_head h
  unfold clientWaitFin
  split
  · rename_i vd
    refine Run.bind' (Run.getCipher fun k hk => ?_)
    refine Run.bind' (Run.lift fun _ hv => ?_)
    have hv := mapValueError_ok hv
    refine Run.bind' (Run.transcriptDigest fun sf hsf => ?_)
    split
    · exact Run.throw
    rename_i hm
    have hm : m = false := by simpa using hm
    subst hm
    refine Run.bind' (Run.lift fun mine hmine => ?_)
    refine Run.bind' (Run.send (fun _ => ⟨k, sf, hk, hsf, hmine, .inr ⟨ch, hs⟩⟩) fun c1 f => ?_)
    refine Run.bind' (Run.transcriptDigest fun cf hcf => ?_)
    obtain ⟨data, b, hser, hupd⟩ := f.upd _ rfl
    have hkeys := f.keys
    have hc1 := f.same
    rw [hk] at hkeys
    cases hk1 : c1.cipher with
    | none => rw [hk1] at hkeys; exact hkeys.elim
    | some k1 =>
      rw [hk1] at hkeys
      have hs1 : c1.state = .clientWaitFin false ch := by rw [hc1]; exact hs
      have hside : c1.config = c.config := by rw [hc1]
      refine Run.bind' (Run.cipherDeriveMaster (by rw [hc1]; exact hi) (.client hs1 hk1 (f.last.trans hl)
        ((verifyFinish_keys hkeys _ _).trans hv) hsf ((signFinish_keys hkeys _).trans hmine) hser
        (by rw [hside]; exact hupd) hcf) fun k2 k3 r hk2 hk3 => ?_)
      have hv := deriveMaster_view hk3
      cases hv
      exact Run.moveTo (.clientDone hs1 rfl rfl) fun _ => .of_late rfl
  · exact run_baseProcess h (by rw [hs]; rfl) (by rw [hs]; simp)

end Siotls
