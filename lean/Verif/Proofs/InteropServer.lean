import Verif.Spec.InteropServer
import Verif.Proofs.Interop
import Verif.Proofs.EndToEnd
import Verif.Proofs.Start
/-!
# A server and a client of another make: helper lemmas
-/

namespace Siotls
open Spec Serial

variable {E : Env}

/-- the answer about heartbeats: none if the client says nothing -/
def hbAnswer (mode : Option Nat) (echo : Bool) : List Ext :=
  match mode with
  | none => []
  | some _ => [.heartbeat (if echo then Iana.peerAllowedToSend else Iana.peerNotAllowedToSend)]

/-- the encrypted extensions of a server -/
def answerExts (p : Option Bytes) (mode : Option Nat) (echo : Bool) : List Ext :=
  alpnAnswer p ++ hbAnswer mode echo

theorem answer_some (p : Option Bytes) (m : Nat) (echo : Bool) :
    answerExts p (some m) echo = encryptedExts p echo := rfl

theorem dict_answer (p : Option Bytes) (mode : Option Nat) (b : Bool) :
    dictOfExts (answerExts p mode b) = answerExts p mode b :=
  dictOfExts_eq_of_nodup _ (by cases p <;> cases mode <;> simp [answerExts, hbAnswer, alpnAnswer, Ext.type])

/-- what a ClientHello of any make offers to this server, and what the server makes of it -/
structure OfferAny (E : Env) (gs : Config) (d : Nat) (exts : List Ext) (g scheme : Nat) (leaf : Bytes)
    (rest : List Bytes) (p : Option Bytes) (mine z : Bytes) (mode : Option Nat) (want : Bool) : Prop where
  versions : ∃ l, findExt exts Iana.extSupportedVersions = some (.supportedVersionsReq l) ∧
    l.contains Iana.tls13 = true
  groups : ∃ l, findExt exts Iana.extSupportedGroups = some (.supportedGroups l) ∧
    gs.keyExchanges.find? l.contains = some g
  chain : gs.certificateChain = some (leaf :: rest)
  schemes : ∃ l ss, findExt exts Iana.extSignatureAlgorithms = some (.signatureAlgorithms l) ∧
    suitesForOid (E.certOid leaf) = .ok ss ∧
    gs.signatureAlgorithms.find? (fun s => ss.contains s && l.contains s) = some scheme
  share : ∃ l g' theirs priv, findExt exts Iana.extKeyShare = some (.keyShareReq l) ∧
    l.find? (·.1 = g) = some (g', theirs) ∧ kexRegistered g = true ∧
    E.kexInit g d = .ok (priv, mine) ∧ E.kexResume g priv theirs = .ok z
  shared : z ≠ []
  noAuth : gs.requirePeerAuth = false
  certType : findExt exts Iana.extServerCertificateType = none
  fragment : findExt exts Iana.extMaxFragmentLength = none
  alpn : (findExt exts Iana.extAlpn = none ∧ p = none) ∨
      ∃ l, findExt exts Iana.extAlpn = some (.alpn l) ∧
        ((gs.alpn = [] ∧ p = none) ∨ ∃ b, gs.alpn.find? l.contains = some b ∧ p = some b)
  heartbeat : findExt exts Iana.extHeartbeat = mode.map .heartbeat
  status : (findExt exts Iana.extStatusRequest).isSome = want

/-- the negotiated configuration of a server after `_negociate` -/
def serverDealAny (n : NConfig) (gs : Config) (g : Nat) (p : Option Bytes) (mode : Option Nat) (want : Bool) :
    NConfig :=
  { n with
    keyExchange := some g
    serverCertificateType := some Iana.x509
    maxFragmentLength := some gs.maxFragmentLength
    alpn := some p
    canSendHeartbeat := some (mode == some Iana.peerAllowedToSend)
    canEchoHeartbeat := some (mode.isSome && gs.canEchoHeartbeat)
    peerWantOcspStapling := some want }

theorem server_negotiate_any {c : Conn} {n : NConfig} {exts : List Ext} {g scheme : Nat} {mode : Option Nat}
    {leaf mine z : Bytes} {rest : List Bytes} {p : Option Bytes} {want : Bool}
    (hn : c.nconfig = some n) (hf : n.frozen = false)
    (o : OfferAny E c.config c.draws exts g scheme leaf rest p mine z mode want) :
    Gives (serverNegotiate E exts) c
      (helloExts g mine, answerExts p mode c.config.canEchoHeartbeat, some z) { c with
        nconfig := some (serverDealAny n c.config g p mode want)
        signature := some (scheme, c.config.privateKey.getD [])
        draws := c.draws + 1 } := by
  unfold serverNegotiate
  -- supported_versions
  obtain ⟨l, hl, hc⟩ := o.versions
  refine .bind (a := [.supportedVersionsResp Iana.tls13]) (c₁ := c) ?_ ?_
  · unfold serverNegVersions
    rw [hl]
    dsimp only
    rw [if_neg (by rw [hc]; decide)]
    exact .pure _ _
  -- supported_groups
  obtain ⟨l, hl, hc⟩ := o.groups
  refine .bind (a := ()) (c₁ := { c with nconfig := some { n with keyExchange := some g } }) ?_ ?_
  · unfold serverNegGroups
    refine .getBind fun t => ?_
    rw [hl]
    dsimp only
    rw [hc]
    exact .setNc hn hf
  -- signature_algorithms
  obtain ⟨l, ss, hl, hss, hc⟩ := o.schemes
  refine .bind (a := ()) (c₁ := { c with
    nconfig := some { n with keyExchange := some g }
    signature := some (scheme, c.config.privateKey.getD []) }) ?_ ?_
  · unfold serverNegSignature
    refine .getBind fun t => ?_
    rw [hl]
    dsimp only
    rw [o.chain]
    dsimp only
    refine .liftBind hss ?_
    rw [hc]
    exact .mod fun _ => rfl
  -- key_share
  obtain ⟨l, g', theirs, priv, hl, hc, hr, hki, hkr⟩ := o.share
  refine .bind (a := (.keyShareResp g mine, some z)) (c₁ := { c with
    nconfig := some { n with keyExchange := some g }
    signature := some (scheme, c.config.privateKey.getD [])
    draws := c.draws + 1 }) ?_ ?_
  · unfold serverNegKeyShare
    refine .bind (.getNc rfl) ?_
    refine .liftBind (a := l) (by rw [clientShares, hl]) ?_
    dsimp only
    rw [hc]
    dsimp only
    rw [if_neg (by rw [hr]; decide)]
    refine .bind .nextDraw ?_
    refine .liftBind (a := (priv, mine)) (by dsimp only; rw [hki]; rfl) ?_
    refine .liftBind (a := z) (by rw [hkr]; rfl) ?_
    have : z.isEmpty = false := by cases z; exact absurd rfl o.shared; rfl
    rw [this]
    exact .pure _ _
  dsimp only
  refine .bind (a := []) (c₁ := { c with
    nconfig := some { n with keyExchange := some g }
    signature := some (scheme, c.config.privateKey.getD [])
    draws := c.draws + 1 }) ?_ ?_
  · unfold serverNegCct
    refine .getBind fun t => ?_
    dsimp only
    rw [if_pos o.noAuth]
    exact .pure _ _
  refine .bind (a := []) (c₁ := { c with
    nconfig := some { n with keyExchange := some g, serverCertificateType := some Iana.x509 }
    signature := some (scheme, c.config.privateKey.getD [])
    draws := c.draws + 1 }) ?_ ?_
  · unfold serverNegSct
    refine .getBind fun t => ?_
    rw [o.certType]
    dsimp only
    have : c.config.certificateTypes.find? [Iana.x509].contains = some Iana.x509 := by
      simp [Config.certificateTypes, Config.hasChain, o.chain]
    rw [this]
    exact .bind (.setNc' rfl hf rfl) (.pure _ _)
  refine .bind (a := []) (c₁ := { c with
    nconfig := some { n with
      keyExchange := some g
      serverCertificateType := some Iana.x509
      maxFragmentLength := some c.config.maxFragmentLength }
    signature := some (scheme, c.config.privateKey.getD [])
    draws := c.draws + 1 }) ?_ ?_
  · unfold serverNegMfl
    refine .getBind fun t => ?_
    rw [o.fragment]
    exact .bind (.setNc' rfl hf rfl) (.pure _ _)
  refine .bind (server_alpn rfl hf o.alpn) ?_
  refine .bind (a := hbAnswer mode c.config.canEchoHeartbeat) (c₁ := { c with
    nconfig := some { n with
      keyExchange := some g
      serverCertificateType := some Iana.x509
      maxFragmentLength := some c.config.maxFragmentLength
      alpn := some p
      canSendHeartbeat := some (mode == some Iana.peerAllowedToSend)
      canEchoHeartbeat := some (mode.isSome && c.config.canEchoHeartbeat) }
    signature := some (scheme, c.config.privateKey.getD [])
    draws := c.draws + 1 }) ?_ ?_
  · unfold serverNegHeartbeat
    refine .getBind fun t => ?_
    rw [o.heartbeat]
    cases mode <;> exact .bind (.setNc' rfl hf rfl) (.bind (.setNc' rfl hf rfl) (.pure _ _))
  refine .bind (server_status rfl hf) ?_
  rw [o.status]
  exact .pure _ _

/-- the flight of a server -/
structure FliesAny (E : Env) (sign : Nat → Bytes → Bytes → Nat → Except Exn Bytes) (sid : Bytes) (ees : List Ext) (d : Nat) (f : Flight) (info : SuiteInfo) (ch random z : Bytes)
    (g scheme : Nat) (mine priv : Bytes) (chain : List Bytes) (staple : Option Bytes) : Prop where
  sh : serHandshake E (.serverHello random sid info.id (helloExts g mine)) = .ok f.sh
  ee : serHandshake E (.encryptedExtensions ees) = .ok f.ee
  ct : serHandshake E (.certificate [] (stapledEntries chain staple)) = .ok f.ct
  cv : ∃ sig, sign scheme priv
      (certificateVerifyServer ++ E.hash info.digest (f.upTo ch 3)) d = .ok sig ∧
    serHandshake E (.certificateVerify scheme sig) = .ok f.cv
  fin : serHandshake E (.finished (E.hmac info.digest ((E.spec info.digest).finishedKey
    ((E.spec info.digest).sHs z (E.hash info.digest (f.upTo ch 1))))
      (E.hash info.digest (f.upTo ch 4)))) = .ok f.fin
  small : f.sh.length ≤ 16000 ∧ f.ee.length ≤ 16000 ∧ f.ct.length ≤ 16000 ∧ f.cv.length ≤ 16000 ∧
    f.fin.length ≤ 16000
  tiny : f.sh.length ≤ 4000 ∧ f.ee.length ≤ 4000

theorem server_flight_any {c : Conn} {n : NConfig} {f : Flight} {info : SuiteInfo} {lim g scheme : Nat}
    {ch random z mine priv : Bytes} {staple : Option Bytes} {sid : Bytes} {ees : List Ext} {chain : List Bytes} {want : Bool} {j : Nat}
    (hees : dictOfExts ees = ees) (W : Works E info lim) (hside : c.config.side = .server) (hst : c.state = .serverWaitCH true)
    (hk : c.cipher = some (CipherSt.new info .server)) (ht : c.transcript = ⟨[(info.digest, ch)], 2⟩)
    (hn : c.nconfig = some n) (hct : n.serverCertificateType = some Iana.x509)
    (hmfl : n.maxFragmentLength = some 16384) (hsu : c.serverUnique = some random)
    (hsig : c.signature = some (scheme, priv)) (hchain : c.config.certificateChain = some chain)
    (hw : n.peerWantOcspStapling = some want)
    (hS : Staples E c.hasOcsp want chain c.draws staple j) (hauth : c.config.requirePeerAuth = false)
    (F : FliesAny E E.sign sid ees (c.draws + j) f info ch random z g scheme mine priv
      chain staple) :
    Gives (serverFlight E true sid (helloExts g mine) ees z) c ()
      { c with
        cipher := some (hsCipher E info .server z (E.hash info.digest (f.upTo ch 1)) 4 0)
        transcript := ⟨[(info.digest, f.upTo ch 5)], 8⟩
        outputData := c.outputData ++ f.bytes E info z (E.hash info.digest (f.upTo ch 1))
        draws := c.draws + j + 1
        state := .serverWaitFin (E.hash info.digest (f.upTo ch 5)) } := by
  obtain ⟨h1, h2, h3, h4, h5⟩ := F.small
  have hm : ∀ x : Conn, x.nconfig = c.nconfig → x.mfl = 16384 := by
    intro x hx
    rw [Conn.mfl, hx, hn]
    simp [hmfl]
  obtain ⟨k, hk1, hki, hkw, hkr, hk2⟩ := fresh_keys W .server z (E.hash info.digest (f.upTo ch 1)) (W.hash_le _)
  rcases c with ⟨config, hostname, hasOcsp, nconfig, cipher, signature, transcript, inputData,
    inputHandshake, outputData, applicationData, clientUnique, serverUnique, state, draws, tr⟩
  dsimp only at hside hst hk ht hn hsu hsig hchain hS hauth hm F ⊢
  subst hst hk ht hn hsu hsig
  let c₀ : Conn := ⟨config, hostname, hasOcsp, some n, some (CipherSt.new info .server),
    some (scheme, priv), ⟨[(info.digest, ch)], 2⟩, inputData, inputHandshake, outputData,
    applicationData, clientUnique, some random, .serverWaitCH true, draws, tr⟩
  unfold serverFlight
  -- ServerHello, change_cipher_spec, EncryptedExtensions
  refine .bind (a := ()) (c₁ := { c₀ with
      cipher := some (hsCipher E info .server z (E.hash info.digest (f.upTo ch 1)) 1 0)
      transcript := ⟨[(info.digest, f.upTo ch 2)], 4⟩
      outputData := outputData ++ recordBytes 22 f.sh ++ recordBytes 20 [1] ++
        hsRecord E info .server z (E.hash info.digest (f.upTo ch 1)) 0 f.ee }) ?_ ?_
  · unfold serverSendHello
    refine .bind (.skipEarly rfl hk1) ?_
    refine .bind (.getCipher rfl) ?_
    refine .getBind fun t => ?_
    dsimp only
    rw [dict_hello, hees, hki]
    refine .bind (a := ()) (c₁ := { c₀ with
      cipher := some k
      transcript := ⟨[(info.digest, f.upTo ch 1)], 3⟩
      outputData := outputData ++ recordBytes 22 f.sh }) ?_ ?_
    · refine send_clear (hs_ctype _).1 (hs_ctype _).2 rfl F.sh
        (hash_handshake (b := true) (t' := ⟨[(info.digest, f.upTo ch 1)], 3⟩) ?_) ?_ ?_ (by omega)
      · show Transcript.update ⟨[(info.digest, ch)], 2⟩ _ config.side _ = _
        rw [hside]; rfl
      · simp [Conn.mustEncrypt, hkw, Dir.empty]
      · rw [hm _ rfl]; omega
    refine .bind (a := ()) (c₁ := { c₀ with
      cipher := some k
      transcript := ⟨[(info.digest, f.upTo ch 1)], 3⟩
      outputData := outputData ++ recordBytes 22 f.sh ++ recordBytes 20 [1] }) ?_ ?_
    · refine send_clear (x := .changeCipherSpec) (by decide) (by decide) rfl rfl
        (.pure _ _) ?_ ?_ (by decide)
      · simp [Conn.mustEncrypt, hkw, Dir.empty]
      · rw [hm _ rfl]; decide
    refine .bind (.digest rfl) ?_
    refine .bind (.deriveHandshake rfl hk2) ?_
    refine send_hs (t' := ⟨[(info.digest, f.upTo ch 2)], 4⟩) W (by decide) rfl
      F.ee ?_ rfl (hm _ rfl) h2
    show Transcript.update _ _ config.side _ = _
    rw [hside]; rfl
  refine .getBind fun t => ?_
  dsimp only
  rw [hauth]
  refine .bind (a := ()) (.pure _ _) ?_
  -- Certificate, CertificateVerify
  refine .bind (a := ()) (c₁ := { c₀ with
      cipher := some (hsCipher E info .server z (E.hash info.digest (f.upTo ch 1)) 3 0)
      transcript := ⟨[(info.digest, f.upTo ch 4)], 7⟩
      draws := draws + j + 1
      outputData := outputData ++ recordBytes 22 f.sh ++ recordBytes 20 [1] ++
        hsRecord E info .server z (E.hash info.digest (f.upTo ch 1)) 0 f.ee ++
        hsRecord E info .server z (E.hash info.digest (f.upTo ch 1)) 1 f.ct ++
        hsRecord E info .server z (E.hash info.digest (f.upTo ch 1)) 2 f.cv }) ?_ ?_
  · unfold serverSendCertificate
    refine .bind (a := stapledEntries chain staple) (c₁ := { c₀ with
      draws := draws + j
      cipher := some (hsCipher E info .server z (E.hash info.digest (f.upTo ch 1)) 1 0)
      transcript := ⟨[(info.digest, f.upTo ch 2)], 4⟩
      outputData := outputData ++ recordBytes 22 f.sh ++ recordBytes 20 [1] ++
        hsRecord E info .server z (E.hash info.digest (f.upTo ch 1)) 0 f.ee }) ?_ ?_
    · unfold serverCertEntries
      refine .getBind fun t => .bind (.getNc rfl) ?_
      dsimp only
      rw [hct, if_neg (by decide), hchain]
      dsimp only
      refine .bind (server_staple rfl hw hS) ?_
      cases chain with
      | nil => exact .pure _ _
      | cons leaf rest => cases staple <;> exact .pure _ _
    refine .bind (send_hs (t' := ⟨[(info.digest, f.upTo ch 3)], 6⟩) W (by decide)
      rfl F.ct ?_ rfl (hm _ rfl) h3) ?_
    · show Transcript.update _ _ config.side _ = _
      rw [hside]; rfl
    refine .getBind fun t => ?_
    dsimp only
    obtain ⟨sig, hs1, hs2⟩ := F.cv
    refine .bind (.digest rfl) (.bind .nextDraw (.liftBind hs1 ?_))
    refine send_hs (t' := ⟨[(info.digest, f.upTo ch 4)], 7⟩) W (by decide)
      rfl hs2 ?_ rfl (hm _ rfl) h4
    show Transcript.update _ _ config.side _ = _
    rw [hside]; rfl
  refine .bind (a := ()) (c₁ := { c₀ with
      cipher := some (hsCipher E info .server z (E.hash info.digest (f.upTo ch 1)) 4 0)
      transcript := ⟨[(info.digest, f.upTo ch 5)], 8⟩
      draws := draws + j + 1
      outputData := outputData ++ f.bytes E info z (E.hash info.digest (f.upTo ch 1)) }) ?_ ?_
  · unfold serverSendFinished
    refine .bind (.digest rfl) (.bind (.getCipher rfl) ?_)
    refine .liftBind (a := E.hmac info.digest ((E.spec info.digest).finishedKey
      ((E.spec info.digest).sHs z (E.hash info.digest (f.upTo ch 1))))
        (E.hash info.digest (f.upTo ch 4))) rfl ?_
    have := send_hs (E := E) (c := { c₀ with
      cipher := some (hsCipher E info .server z (E.hash info.digest (f.upTo ch 1)) 3 0)
      transcript := ⟨[(info.digest, f.upTo ch 4)], 7⟩
      draws := draws + j + 1
      outputData := outputData ++ recordBytes 22 f.sh ++ recordBytes 20 [1] ++
        hsRecord E info .server z (E.hash info.digest (f.upTo ch 1)) 0 f.ee ++
        hsRecord E info .server z (E.hash info.digest (f.upTo ch 1)) 1 f.ct ++
        hsRecord E info .server z (E.hash info.digest (f.upTo ch 1)) 2 f.cv })
      (t' := ⟨[(info.digest, f.upTo ch 5)], 8⟩) W (by decide : 3 < 4096)
      rfl F.fin (by
        show Transcript.update _ _ config.side _ = _
        rw [hside]; rfl) rfl (hm _ rfl) h5
    rw [Flight.bytes]
    simp only [List.append_assoc] at this ⊢
    exact this
  refine .bind (.digest rfl) ?_
  exact .moveTo _

/-- a server with a first hello it can answer -/
theorem server_hello_any {c : Conn} {f : Flight} {info : SuiteInfo} {lim g scheme : Nat} {mode : Option Nat}
    {ch crandom random z mine leaf : Bytes} {rest : List Bytes} {sid : Bytes} {p staple : Option Bytes} {suites : List Nat}
    {exts : List Ext} {want : Bool} {j : Nat}
    (W : Works E info lim) (hside : c.config.side = .server) (hst : c.state = .serverWaitCH true)
    (hs : c.config.cipherSuites.find? suites.contains = some info.id)
    (ht : c.transcript.postInit info.digest = .ok ⟨[(info.digest, ch)], 2⟩)
    (hmfl : c.config.maxFragmentLength = 16384) (hsu : c.serverUnique = some random)
    (hS : Staples E c.hasOcsp want (leaf :: rest) (c.draws + 1) staple j)
    (o : OfferAny E c.config c.draws exts g scheme leaf rest p mine z mode want)
    (F : FliesAny E E.sign sid (answerExts p mode c.config.canEchoHeartbeat) (c.draws + 1 + j) f info ch random z g scheme mine
      (c.config.privateKey.getD []) (leaf :: rest) staple) :
    Gives (process E (.handshake (.clientHello crandom sid suites exts))) c () { c with
      nconfig := some (serverDealAny { NConfig.new with cipherSuite := some info.id } c.config g p mode want)
      clientUnique := some crandom
      signature := some (scheme, c.config.privateKey.getD [])
      cipher := some (hsCipher E info .server z (E.hash info.digest (f.upTo ch 1)) 4 0)
      transcript := ⟨[(info.digest, f.upTo ch 5)], 8⟩
      outputData := c.outputData ++ f.bytes E info z (E.hash info.digest (f.upTo ch 1))
      draws := c.draws + 1 + j + 1
      state := .serverWaitFin (E.hash info.digest (f.upTo ch 5)) } := by
  refine .of_eq (m := serverWaitCH E true (.handshake (.clientHello crandom sid suites exts))) ?_ fun t => by
    simp only [process, hst]
  unfold serverWaitCH
  refine .bind (server_setup hs W.suite ht) ?_
  refine .bind (server_negotiate_any rfl rfl o) ?_
  dsimp only
  exact server_flight_any (dict_answer _ _ _) W hside hst rfl rfl rfl rfl (by simp [serverDealAny, hmfl]) hsu rfl o.chain rfl hS
    o.noAuth F

/-- reading a record of a client under the handshake keys, however padded -/
theorem read_from_client {r : Conn} {info : SuiteInfo} {lim w n pad : Nat} {z th data rest : Bytes}
    (W : Works E info lim) (hn : n < 4096) (hd : HonestMsg data) (hhs : r.inputHandshake = [])
    (hk : r.cipher = some (hsCipher E info .server z th w n))
    (hl : data.length + 1 + pad + info.tagLength ≤ r.mfl + 256) (hmfl : r.mfl ≤ 16384)
    (hi : r.inputData = sealedUnder E info ((E.spec info.digest).cHs z th) n 22 data pad ++ rest) :
    Gives (readNextContent E) r (some (22, data)) { r with
      inputData := rest, cipher := some (hsCipher E info .server z th w (n + 1)) } := by
  intro t
  have hlim := W.lim_ge
  unfold sealedUnder at hi
  dsimp only at hi
  have hil : (data ++ [UInt8.ofNat 22] ++ List.replicate pad 0).length = data.length + 1 + pad := by
    simp; omega
  generalize hin : data ++ [UInt8.ofNat 22] ++ List.replicate pad 0 = inner at hi hil
  have hstrip : stripPadding inner = some (22, data) := by rw [← hin]; exact stripPadding_any (by omega) (by omega)
  generalize hkk : hsCipher E info .server z th w n = k at hk
  have hinfo : k.info = info := by rw [← hkk]; rfl
  obtain ⟨key, hkey⟩ : ∃ key, key = (E.spec info.digest).writeKey ((E.spec info.digest).cHs z th) info.keyLength := ⟨_, rfl⟩
  obtain ⟨iv, hiv⟩ : ∃ iv, iv = (E.spec info.digest).writeIv ((E.spec info.digest).cHs z th) 12 := ⟨_, rfl⟩
  rw [← hkey, ← hiv] at hi
  have hrd : k.rd = ⟨some key, some iv, some n⟩ := by rw [← hkk, hkey, hiv]; rfl
  have hnext : { k with rd := ⟨some key, some iv, some (n + 1)⟩ } = hsCipher E info .server z th w (n + 1) := by
    rw [← hkk, hkey, hiv]; rfl
  subst hinfo
  have hbl := W.seals k.info.id k.info key (xorBytes iv (beEnc k.info.nonceLength n))
    ([23, 3, 3] ++ be16 (inner.length + k.info.tagLength)) inner W.suite
  have hmd : r.mustDecrypt = true := by simp [Conn.mustDecrypt, hk, hrd]
  rw [← hnext]
  refine ⟨.got 22 data :: .opened k.info.id key (xorBytes iv (beEnc k.info.nonceLength n))
            ([23, 3, 3] ++ be16 (inner.length + k.info.tagLength)) inner :: t, ?_⟩
  have h1 : readNextRecord E { r with tr := t } =
        (.ok (some (22, data)), { r with
          inputData := rest
          cipher := some { k with rd := ⟨some key, some iv, some (n + 1)⟩ }
          tr := .opened k.info.id key (xorBytes iv (beEnc k.info.nonceLength n))
            ([23, 3, 3] ++ be16 (inner.length + k.info.tagLength)) inner :: t }) := by
    rw [readNextRecord_whole (c := { r with tr := t }) (rest := rest) (by omega) (by omega)
        (by rw [hbl]; omega) (by
          unfold Conn.recordLimit
          rw [show Conn.mustDecrypt { r with tr := t } = true from hmd, if_pos rfl, hbl]
          show _ ≤ r.mfl + 256
          omega) hi]
    unfold useRecord
    rw [show Conn.mustDecrypt { r with inputData := rest, tr := t } = true from hmd, if_pos rfl]
    have hopen := W.opens k.info.id k.info key (xorBytes iv (beEnc k.info.nonceLength n))
        ([23, 3, 3] ++ be16 (inner.length + k.info.tagLength)) inner W.suite
    have hkey : k.rd.key = some key := by rw [hrd]
    rw [hbl]
    have hhd : ([UInt8.ofNat 23, 3, 3] : Bytes) = [23, 3, 3] := rfl
    rw [hhd]
    simp only [decryptRecord, hk, hkey, nextNonce_at hrd W.limit (show n < lim by omega), hopen, hstrip]
    rfl
  refine (content_of_record (r := { r with tr := t }) hd hhs h1).trans ?_
  cases r
  cases hhs
  rfl

/-- reading a message under the handshake keys -/
theorem from_client_step {r r₂ : Conn} {info : SuiteInfo} {lim w n pad : Nat} {z th data rest : Bytes}
    {m : Handshake} {t' : Transcript} (W : Works E info lim) (hn : n < 4096)
    (hhs : r.inputHandshake = []) (hk : r.cipher = some (hsCipher E info .server z th w n))
    (hl : data.length + 1 + pad + info.tagLength ≤ r.mfl + 256) (hmfl : r.mfl ≤ 16384)
    (hi : r.inputData = sealedUnder E info ((E.spec info.digest).cHs z th) n 22 data pad ++ rest)
    (hmsg : Rfc.Message E m data) (hgood : Rfc.PeerMessage E r.certType m)
    (hu : r.transcript.update data r.config.side.other m.msgType = (.ok true, t'))
    (h2 : Gives (process E (.handshake m)) { r with
      inputData := rest
      cipher := some (hsCipher E info .server z th w (n + 1))
      transcript := t' } () r₂) : Gives (receiveStep E) r true r₂ :=
  receive_step (read_from_client W hn hmsg.honest hhs hk hl hmfl hi)
    (decodeContent_of_parses (Parses.bind_pure (readMessage hgood hmsg) rfl)) hu h2

/-- the server gets the ClientHello and answers -/
theorem server_digest_any {r : Conn} {f : Flight} {info : SuiteInfo} {lim g scheme : Nat} {mode : Option Nat}
    {ch crandom random z mine leaf : Bytes} {fs rest : List Bytes} {sid : Bytes} {p staple : Option Bytes} {suites : List Nat}
    {exts : List Ext} {want : Bool} {j : Nat} {algs : List HashAlg}
    (W : Works E info lim) (hside : r.config.side = .server) (hst : r.state = .serverWaitCH true)
    (hs : r.config.cipherSuites.find? suites.contains = some info.id)
    (hn : r.nconfig = none) (hk : r.cipher = none) (hhs : r.inputHandshake = [])
    (ht : r.transcript = ⟨algs.map (·, []), 1⟩) (ha : info.digest ∈ algs)
    (hmfl : r.config.maxFragmentLength = 16384) (hsu : r.serverUnique = some random)
    (hS : Staples E r.hasOcsp want (leaf :: rest) (r.draws + 1) staple j)
    (hser : Rfc.Message E (.clientHello crandom sid suites exts) ch)
    (hgood : Rfc.PeerMessage E r.certType (.clientHello crandom sid suites exts)) (hcut : Cut ch fs)
    (hi : r.inputData = wireOf (fs.map fun f => (22, f)))
    (o : OfferAny E r.config r.draws exts g scheme leaf rest p mine z mode want)
    (F : FliesAny E E.sign sid (answerExts p mode r.config.canEchoHeartbeat) (r.draws + 1 + j) f info ch random z g scheme mine
      (r.config.privateKey.getD []) (leaf :: rest) staple) :
    Digests E r { r with
      inputData := []
      nconfig := some (serverDealAny { NConfig.new with cipherSuite := some info.id } r.config g p mode want)
      clientUnique := some crandom
      signature := some (scheme, r.config.privateKey.getD [])
      cipher := some (hsCipher E info .server z (E.hash info.digest (f.upTo ch 1)) 4 0)
      transcript := ⟨[(info.digest, f.upTo ch 5)], 8⟩
      outputData := r.outputData ++ f.bytes E info z (E.hash info.digest (f.upTo ch 1))
      draws := r.draws + 1 + j + 1
      state := .serverWaitFin (E.hash info.digest (f.upTo ch 5)) } := by
  have hm : r.mfl = 16384 := by unfold Conn.mfl; rw [hn]; exact hmfl
  refine .step (receive_step (read_hello W.opens hcut hser.honest hk hhs hm hi)
    (decodeContent_of_parses (Parses.bind_pure (readMessage hgood hser) rfl)) (b := true) (t' := ⟨algs.map (·, ch), 2⟩) ?_ ?_)
    (rekey_none hk) (by rw [hst]; rfl) (.done rfl (rekey_hs W (by omega) rfl))
  · show Transcript.update r.transcript _ r.config.side.other _ = _
    rw [hside, ht]
    exact hello_hashed _ _
  · exact server_hello_any (c := { r with inputData := [], transcript := ⟨algs.map (·, ch), 2⟩ }) W hside hst hs
      (postInit_algs ch 2 ha) hmfl hsu hS o F

/-- the server gets the Finished of the client -/
theorem server_digest_finished_any {r : Conn} {f : Flight} {info : SuiteInfo} {lim pad : Nat} {ccs : Bool}
    {ch mine z th : Bytes} {n : NConfig} (W : Works E info lim) (hside : r.config.side = .server)
    (hn : r.nconfig = some n) (hm : n.maxFragmentLength = some 16384)
    (hst : r.state = .serverWaitFin (E.hash info.digest (f.upTo ch 5)))
    (hk : r.cipher = some (hsCipher E info .server z th 4 0)) (hhs : r.inputHandshake = [])
    (ht : r.transcript = ⟨[(info.digest, f.upTo ch 5)], 8⟩)
    (hmine : Rfc.Message E (.finished (E.hmac info.digest ((E.spec info.digest).finishedKey
      ((E.spec info.digest).cHs z th)) (E.hash info.digest (f.upTo ch 5)))) mine)
    (hl : mine.length + 1 + pad + info.tagLength ≤ 16384 + 256)
    (hi : r.inputData = (if ccs then recordBytes 20 [1] else []) ++
      sealedUnder E info ((E.spec info.digest).cHs z th) 0 22 mine pad) :
    Digests E r { r with
      inputData := []
      cipher := some (apCipher E info .server z (E.hash info.digest (f.upTo ch 5)) 0 0)
      transcript := ⟨[(info.digest, f.upTo ch 5 ++ mine)], 12⟩
      state := .connected } := by
  have hm : r.mfl = 16384 := by unfold Conn.mfl; rw [hn]; dsimp only [Option.bind]; rw [hm]
  refine .step (r₁ := { r with
      inputData := []
      cipher := some (apCipher E info .server z (E.hash info.digest (f.upTo ch 5)) 0 0)
      transcript := ⟨[(info.digest, f.upTo ch 5 ++ mine)], 12⟩
      state := .connected }) ?_
    (rekey_hs W (by omega) hk) (by rw [hst]; rfl) (.done rfl (rekey_ap W (by omega) rfl))
  have hstep : Gives (receiveStep E) { r with
      inputData := sealedUnder E info ((E.spec info.digest).cHs z th) 0 22 mine pad } true { r with
      inputData := []
      cipher := some (apCipher E info .server z (E.hash info.digest (f.upTo ch 5)) 0 0)
      transcript := ⟨[(info.digest, f.upTo ch 5 ++ mine)], 12⟩
      state := .connected } := by
    refine from_client_step (r := { r with inputData := sealedUnder E info ((E.spec info.digest).cHs z th) 0 22 mine pad })
      (t' := ⟨[(info.digest, f.upTo ch 5 ++ mine)], 12⟩) (rest := []) W (by omega) hhs hk
      (by show _ ≤ r.mfl + 256; rw [hm]; exact hl) (Nat.le_of_eq hm)
      (by rw [List.append_nil]) hmine trivial ?_ ?_
    · show Transcript.update r.transcript _ r.config.side.other _ = _
      rw [hside, ht]
      rfl
    · exact server_finished (c := { r with
        inputData := []
        cipher := some (hsCipher E info .server z th 4 1)
        transcript := ⟨[(info.digest, f.upTo ch 5 ++ mine)], 12⟩ }) W hst rfl rfl rfl
  cases ccs with
  | true => exact of_ccs hi hstep
  | false =>
    have : r = { r with inputData := sealedUnder E info ((E.spec info.digest).cHs z th) 0 22 mine pad } := by
      cases r; simp only [Bool.false_eq_true, if_false, List.nil_append] at hi; subst hi; rfl
    rw [← this] at hstep
    exact hstep

theorem serverHello_writes_any {sid random share : Bytes} {suite g : Nat} (hr : random.length = 32)
    (hs : suite < 65536) (hg : g < 65536) (hsid : sid.length < 256) (hsh : share.length ≤ 2048) :
    Writes (serHandshake E (.serverHello random sid suite (helloExts g share))) (share.length + sid.length + 58) := by
  have h1 : Writes (serExt E (.supportedVersionsResp Iana.tls13)) 6 :=
    .ext (n := 2) (.toBytes (by decide)) (by decide) (by decide)
  have h2 : Writes (serExt E (.keyShareResp g share)) (share.length + 8) := by
    refine .ext (n := share.length + 4) ?_ (by show 51 < 65536; decide) (by omega)
    refine .bind (.toBytes (by simpa using hg)) fun a ha => ?_
    refine .bind (.writeVar (by omega)) fun b hb => .pure ?_
    rw [List.length_append, ha, hb]; omega
  have h3 : Writes (serExtList E (helloExts g share)) (share.length + 16) := by
    have : ∀ e ∈ helloExts g share, Writes (serExt E e)
        (match e with | .keyShareResp .. => share.length + 8 | _ => 6) := by
      intro e he
      simp only [helloExts, List.mem_cons, List.not_mem_nil, or_false] at he
      rcases he with rfl | rfl
      · exact h1
      · exact h2
    have h := Writes.exts this (by simp [helloExts]; omega)
    simp only [helloExts, List.map_cons, List.map_nil, List.sum_cons, List.sum_nil] at h
    rw [show share.length + 16 = 2 + (6 + (share.length + 8 + 0)) by omega]
    exact h
  refine .message (n := share.length + sid.length + 54) ?_ (by omega)
  refine .bind h3 fun e he => .bind (.writeVar (b := sid) (by omega)) fun s hs' => ?_
  refine .bind (.toBytes (by simpa using hs)) fun c hc => .pure ?_
  simp only [List.length_append, length_beEnc, hr, hs', hc, he]
  omega

theorem answer_writes {p : Option Bytes} {mode : Option Nat} {echo : Bool}
    (hp : ∀ b, p = some b → b.length < 256) :
    ∃ n ≤ 300, Writes (serHandshake E (.encryptedExtensions (answerExts p mode echo))) n := by
  cases mode with
  | some m => exact encryptedExtensions_writes hp
  | none =>
    cases p with
    | none =>
      have := Writes.exts (E := E) (l := answerExts none none echo) (g := fun _ => 5) (by
        intro e he
        simp [answerExts, hbAnswer, alpnAnswer] at he) (by simp [answerExts, hbAnswer, alpnAnswer])
      exact ⟨_, by simp [answerExts, hbAnswer, alpnAnswer], .message this (by simp [answerExts, hbAnswer, alpnAnswer])⟩
    | some b =>
      have hb := hp b rfl
      have h2 : Writes (serExt E (.alpn [b])) (b.length + 7) := by
        refine .ext (n := b.length + 3) ?_ (by show 16 < 65536; decide) (by omega)
        have hc : Writes (concatMapM (Serial.writeVar 1) [b]) (1 + b.length) := by
          have := Writes.concat (f := Serial.writeVar 1) (l := [b]) (g := fun b => 1 + b.length) (by
            intro a ha
            rw [List.mem_singleton.mp ha]
            exact .writeVar hb)
          simpa using this
        refine .bind hc fun x hx => ?_
        rw [show b.length + 3 = 2 + x.length by omega]
        exact .writeVar (by omega)
      have := Writes.exts (E := E) (l := answerExts (some b) none echo) (g := fun _ => b.length + 7) (by
        intro e he
        simp only [answerExts, hbAnswer, alpnAnswer, List.append_nil, List.mem_singleton] at he
        subst he
        exact h2) (by simp [answerExts, hbAnswer, alpnAnswer]; omega)
      refine ⟨_, ?_, .message this ?_⟩ <;>
      · simp only [answerExts, hbAnswer, alpnAnswer, List.append_nil, List.map_cons, List.map_nil, List.sum_cons,
          List.sum_nil]
        omega

theorem flies_exist_any {info : SuiteInfo} {lim g scheme d : Nat} {ch random z mine key : Bytes}
    {mode : Option Nat} {sid : Bytes} {p staple : Option Bytes} {chain : List Bytes} {echo : Bool}
    {sign : Nat → Bytes → Bytes → Nat → Except Exn Bytes} (W : Works E info lim)
    (hr : random.length = 32) (hi : info.id < 65536) (hg : g < 65536) (hsc : scheme < 65536)
    (hsid : sid.length < 256) (hm : mine.length ≤ 2048) (hp : ∀ b, p = some b → b.length < 256) (hc : chainSize E chain + stapleSize staple ≤ 15900)
    (hs : ∀ msg, ∃ sig, sign scheme key msg d = .ok sig ∧ sig.length ≤ 15000) :
    ∃ f, FliesAny E sign sid (answerExts p mode echo) d f info ch random z g scheme mine key chain staple := by
  obtain ⟨sh, h1, l1⟩ := (serverHello_writes_any (E := E) (share := mine) hr hi hg hsid hm).get
  obtain ⟨n, hn, hw⟩ := answer_writes (E := E) (mode := mode) (echo := echo) hp
  obtain ⟨ee, h2, l2⟩ := hw.get
  obtain ⟨nc, hnc, hwc⟩ := certificate_writes (E := E) (chain := chain) (staple := staple) (by omega)
  obtain ⟨ct, h3, l3⟩ := hwc.get
  obtain ⟨sig, h4, l4⟩ := hs (certificateVerifyServer ++ E.hash info.digest (ch ++ sh ++ ee ++ ct))
  obtain ⟨cv, h5, l5⟩ := (certificateVerify_writes (E := E) (alg := scheme) (sig := sig) hsc (by omega)).get
  have hz := W.sized.hmac info.digest ((E.spec info.digest).finishedKey
    ((E.spec info.digest).sHs z (E.hash info.digest (ch ++ sh))))
      (E.hash info.digest (ch ++ sh ++ ee ++ ct ++ cv))
  have := info.digest.size_le
  obtain ⟨fin, h6, l6⟩ := (finished_writes (E := E) (mac := E.hmac info.digest ((E.spec info.digest).finishedKey
    ((E.spec info.digest).sHs z (E.hash info.digest (ch ++ sh))))
      (E.hash info.digest (ch ++ sh ++ ee ++ ct ++ cv))) (by omega)).get
  exact ⟨⟨sh, ee, ct, cv, fin⟩, h1, h2, h3, ⟨sig, h4, h5⟩, h6,
    ⟨by show sh.length ≤ _; omega, by show ee.length ≤ _; omega, by show ct.length ≤ _; omega,
      by show cv.length ≤ _; omega, by show fin.length ≤ _; omega⟩,
    by show sh.length ≤ _; omega, by show ee.length ≤ _; omega⟩

/-- the records of a server under the handshake keys -/
theorem hsRecord_server (info : SuiteInfo) (z th data : Bytes) (n : Nat) :
    hsRecord E info .server z th n data = sealedUnder E info ((E.spec info.digest).sHs z th) n 22 data
      (padLength 16384 data.length info.tagLength) := by
  have hin : data ++ [UInt8.ofNat 22] ++ List.replicate (padLength 16384 data.length info.tagLength) 0 =
      innerText 16384 info.tagLength 22 data := by
    rw [innerText, beEnc_one, zeros, List.append_assoc]
  unfold hsRecord sealedRecord sealedUnder
  dsimp only [bySide]
  rw [hin, sealedHeader, beEnc_two]

theorem find_preferred {α : Type} {mine : List α} {ok : α → Prop} {f : α → Bool} {x : α}
    (h : Preferred mine ok x) (hf : ∀ y, f y = true ↔ ok y) : mine.find? f = some x := by
  obtain ⟨l₁, l₂, rfl, h1, h2⟩ := h
  rw [List.find?_append, List.find?_eq_none.mpr, List.find?_cons_of_pos]
  · rfl
  · exact (hf x).mpr h1
  · intro y hy hy'
    exact h2 y hy ((hf y).mp hy')

theorem find_share {g : Nat} {share : Bytes} : ∀ {l : List (Nat × Bytes)}, (l.map Prod.fst).Nodup →
    (g, share) ∈ l → l.find? (·.1 = g) = some (g, share) := by
  intro l
  induction l with
  | nil => intro _ h; cases h
  | cons a l ih =>
    intro hn h
    rw [List.map_cons, List.nodup_cons] at hn
    rcases List.mem_cons.mp h with rfl | h
    · simp
    · have : a.1 ≠ g := by
        rintro rfl
        exact hn.1 (List.mem_map.mpr ⟨_, h, rfl⟩)
      rw [List.find?_cons_of_neg (by simpa using this)]
      exact ih hn.2 h

/-- the heartbeat mode in the ClientHello of a peer -/
theorem heartbeat_found {k : HsKind} {l : List Ext} (hp : Rfc.PeerExts E k l) :
    ∃ mode : Option Nat, findExt l Iana.extHeartbeat = mode.map .heartbeat ∧
      (∀ m, mode = some m ↔ .heartbeat m ∈ l) := by
  have hnd : (l.map Ext.type).Nodup := by
    rw [show Ext.type = Rfc.extensionCode from funext type_code]
    exact hp.1
  cases hf : findExt l Iana.extHeartbeat with
  | none =>
    refine ⟨none, rfl, fun q => ⟨by simp, fun h => ?_⟩⟩
    exact absurd rfl (findExt_none hf h)
  | some e =>
    have hm := findExt_mem hf
    have ht : e.type = Iana.extHeartbeat := by simpa using List.find?_some hf
    obtain ⟨m, rfl⟩ : ∃ m, e = .heartbeat m := by
      have hl := (hp.2 e hm).1
      cases e <;> first | exact ⟨_, rfl⟩ | (exfalso; revert ht; simp [Ext.type, Iana.extHeartbeat]; done) | skip
      case unknown t b =>
        exfalso
        have : t = 15 := ht
        subst this
        simp [legal] at hl
    refine ⟨some m, rfl, fun q => ⟨?_, fun h => ?_⟩⟩
    · rintro ⟨⟩
      exact hm
    · have := findExt_of_mem hnd h
      rw [show (Ext.heartbeat q).type = Iana.extHeartbeat from rfl, hf] at this
      simpa using this

/-- the protocol that the server makes of the ClientHello of a peer -/
theorem protocol_found {gs : Config} {k : HsKind} {l : List Ext} (hp : Rfc.PeerExts E k l)
    (ha : ∀ ps, .alpn ps ∈ l → gs.alpn = [] ∨ ∃ p ∈ gs.alpn, p ∈ ps) :
    ∃ p : Option Bytes, ((findExt l Iana.extAlpn = none ∧ p = none) ∨
      ∃ ps, findExt l Iana.extAlpn = some (.alpn ps) ∧
        ((gs.alpn = [] ∧ p = none) ∨ ∃ b, gs.alpn.find? ps.contains = some b ∧ p = some b)) ∧
      ∀ b, p = some b → ∃ ps, .alpn ps ∈ l ∧ gs.alpn.find? ps.contains = some b := by
  cases hf : findExt l Iana.extAlpn with
  | none => exact ⟨none, .inl ⟨rfl, rfl⟩, by simp⟩
  | some e =>
    have hm := findExt_mem hf
    have ht : e.type = Iana.extAlpn := by simpa using List.find?_some hf
    obtain ⟨ps, rfl⟩ : ∃ ps, e = .alpn ps := by
      have hl := (hp.2 e hm).1
      cases e <;> first | exact ⟨_, rfl⟩ | (exfalso; revert ht; simp [Ext.type, Iana.extAlpn]; done) | skip
      case unknown t b =>
        exfalso
        have : t = 16 := ht
        subst this
        simp [legal] at hl
    rcases ha ps hm with he | ⟨q, h1, h2⟩
    · exact ⟨none, .inr ⟨ps, rfl, .inl ⟨he, rfl⟩⟩, by simp⟩
    · cases hq : gs.alpn.find? ps.contains with
      | none =>
        have := List.find?_eq_none.mp hq q h1
        simp [h2] at this
      | some b => exact ⟨some b, .inr ⟨ps, rfl, .inr ⟨b, hq, rfl⟩⟩, fun b' hb' => by
          cases hb'; exact ⟨ps, hm, hq⟩⟩

/-- what a conforming ClientHello amounts to -/
theorem proposes_offer {gs : Config} {k : Choice} {h : Opening} {priv share z : Bytes} (hA : Admits E gs k priv share)
    (hP : Proposes E gs k h) (hz : E.kexResume k.group priv h.share = .ok z) (hz' : z ≠ [])
    {p : Option Bytes} {mode : Option Nat} (hp : ((findExt h.exts Iana.extAlpn = none ∧ p = none) ∨
      ∃ ps, findExt h.exts Iana.extAlpn = some (.alpn ps) ∧
        ((gs.alpn = [] ∧ p = none) ∨ ∃ b, gs.alpn.find? ps.contains = some b ∧ p = some b)))
    (hm : findExt h.exts Iana.extHeartbeat = mode.map .heartbeat) :
    OfferAny E gs 0 h.exts k.group k.scheme k.leaf k.rest p share z mode
      (findExt h.exts Iana.extStatusRequest).isSome := by
  have hx := hP.clientHello.2.2.1
  have hnd : (h.exts.map Ext.type).Nodup := by
    rw [show Ext.type = Rfc.extensionCode from funext type_code]
    exact hx.1
  have hno : ∀ t ∈ [1, 20], findExt h.exts t = none := by
    intro t ht
    refine List.find?_eq_none.mpr fun e he => ?_
    have := hP.plain e he
    rw [← type_code] at this
    simp only [decide_eq_true_eq]
    rintro rfl
    exact this ht
  refine {
    versions := ?_
    groups := ?_
    chain := hA.chain
    schemes := ?_
    share := ?_
    shared := hz'
    noAuth := by simp [Config.requirePeerAuth, hA.anonymous]
    certType := hno 20 (by decide)
    fragment := hno 1 (by decide)
    alpn := hp
    heartbeat := hm
    status := rfl }
  · obtain ⟨l, h1, h2⟩ := hP.version
    exact ⟨l, findExt_of_mem hnd h1, by simpa using h2⟩
  · obtain ⟨l, h1, h2⟩ := hP.group
    exact ⟨l, findExt_of_mem hnd h1, find_preferred h2 fun y => by simp⟩
  · obtain ⟨l, h1, l₁, l₂, h2, h3, h4⟩ := hP.scheme
    obtain ⟨ss, hss⟩ := fit_suites h3.1
    exact ⟨l, ss, findExt_of_mem hnd h1, hss, by rw [h2]; exact pick_scheme hss h3 h4⟩
  · obtain ⟨l, h1, h2⟩ := hP.share
    exact ⟨l, k.group, h.share, priv, findExt_of_mem hnd h1, find_share (hx.2 _ h1).1 h2,
      group_registered hA.group, hA.generates.1, hz⟩

end Siotls
