import Verif.Proofs.Flight
/-!
# What the states do with the messages of an honest peer
-/

namespace Siotls
open Spec Serial

variable {E : Env}

theorem Gives.mod {f : Conn → Conn} {c : Conn} (h : ∀ t, f { c with tr := t } = { f c with tr := t }) :
    Gives (M.modify f) c () (f c) := fun t => ⟨t, by rw [M.modify, h]⟩

theorem Gives.setNc' {c c' : Conn} {n : NConfig} {f : NConfig → NConfig} (h : c.nconfig = some n)
    (hf : n.frozen = false) (hc : { c with nconfig := some (f n) } = c') :
    Gives (Siotls.setNc f) c () c' := hc ▸ .setNc h hf

/-! ## Server, first ClientHello -/

theorem server_setup {c : Conn} {random : Bytes} {suites : List Nat} {s : Nat} {info : SuiteInfo}
    {t' : Transcript} (hs : c.config.cipherSuites.find? suites.contains = some s)
    (hi : suiteInfo s = some info) (ht : c.transcript.postInit info.digest = .ok t') :
    Gives (serverSetup random suites) c () { c with
      nconfig := some { NConfig.new with cipherSuite := some s }
      clientUnique := some random
      cipher := some (CipherSt.new info .server)
      transcript := t' } := by
  unfold serverSetup
  refine .bind (.mod fun _ => rfl) ?_
  refine .getBind fun t => ?_
  refine .liftBind (a := s) (by simp only [findCommonSuite, hs]) ?_
  refine .bind (.setNc (n := NConfig.new) rfl rfl) ?_
  refine .bind (.mod fun _ => rfl) ?_
  rw [hi]
  dsimp only
  refine .bind (.mod fun _ => rfl) ?_
  exact Gives.postInit ht

theorem server_alpn {c : Conn} {n : NConfig} {exts : List Ext} {p : Option Bytes}
    (hn : c.nconfig = some n) (hf : n.frozen = false)
    (h : (findExt exts Iana.extAlpn = none ∧ p = none) ∨
      ∃ l, findExt exts Iana.extAlpn = some (.alpn l) ∧
        ((c.config.alpn = [] ∧ p = none) ∨ ∃ b, c.config.alpn.find? l.contains = some b ∧ p = some b)) :
    Gives (serverNegAlpn exts) c (alpnAnswer p)
      { c with nconfig := some { n with alpn := some p } } := by
  unfold serverNegAlpn
  refine .getBind fun t => ?_
  rcases h with ⟨h, rfl⟩ | ⟨l, h, ⟨he, rfl⟩ | ⟨b, hb, rfl⟩⟩
  · rw [h]
    exact .bind (.setNc hn hf) (.pure _ _)
  · rw [h]
    dsimp only
    rw [he]
    exact .bind (.setNc hn hf) (.pure _ _)
  · rw [h]
    dsimp only
    rw [if_neg (by intro h; rw [List.isEmpty_iff.mp h] at hb; cases hb), hb]
    exact .bind (.setNc hn hf) (.pure _ _)

/-- what an honest ClientHello offers to this server, and what the server makes of it -/
structure Offer (E : Env) (gs : Config) (d : Nat) (exts : List Ext) (g scheme : Nat) (leaf : Bytes)
    (rest : List Bytes) (p : Option Bytes) (mine z : Bytes) (mode : Nat) (want : Bool) : Prop where
  versions : ∃ l, findExt exts Iana.extSupportedVersions = some (.supportedVersionsReq l) ∧
    l.contains Iana.tls13 = true
  groups : ∃ l, findExt exts Iana.extSupportedGroups = some (.supportedGroups l) ∧
    gs.keyExchanges.find? l.contains = some g
  chain : gs.certificateChain = some (leaf :: rest)
  schemes : ∃ l ss, findExt exts Iana.extSignatureAlgorithms = some (.signatureAlgorithms l) ∧
    suitesForOid (E.certOid leaf) = .ok ss ∧
    gs.signatureAlgorithms.find? (fun s => ss.contains s && l.contains s) = some scheme
  share : ∃ l g' theirs priv, findExt exts Iana.extKeyShare = some (.keyShareReq l) ∧
    l.find? (·.1 = g) = some (g', theirs) ∧ kexRegistered g = true ∧
    E.kexInit g d = .ok (priv, mine) ∧ E.kexResume g priv theirs = .ok z
  shared : z ≠ []
  noAuth : gs.requirePeerAuth = false
  certType : findExt exts Iana.extServerCertificateType = none
  fragment : findExt exts Iana.extMaxFragmentLength = none
  alpn : (findExt exts Iana.extAlpn = none ∧ p = none) ∨
      ∃ l, findExt exts Iana.extAlpn = some (.alpn l) ∧
        ((gs.alpn = [] ∧ p = none) ∨ ∃ b, gs.alpn.find? l.contains = some b ∧ p = some b)
  heartbeat : findExt exts Iana.extHeartbeat = some (.heartbeat mode)
  status : (findExt exts Iana.extStatusRequest).isSome = want

/-- the negotiated configuration of a server after `_negociate` -/
def serverDeal (n : NConfig) (gs : Config) (g : Nat) (p : Option Bytes) (mode : Nat) (want : Bool) :
    NConfig :=
  { n with
    keyExchange := some g
    serverCertificateType := some Iana.x509
    maxFragmentLength := some gs.maxFragmentLength
    alpn := some p
    canSendHeartbeat := some (mode == Iana.peerAllowedToSend)
    canEchoHeartbeat := some gs.canEchoHeartbeat
    peerWantOcspStapling := some want }

theorem server_status {c : Conn} {n : NConfig} {exts : List Ext} (hn : c.nconfig = some n)
    (hf : n.frozen = false) : Gives (serverNegStatus exts) c () { c with
      nconfig := some { n with
        peerWantOcspStapling := some (findExt exts Iana.extStatusRequest).isSome } } := by
  unfold serverNegStatus
  cases findExt exts Iana.extStatusRequest <;> exact .setNc hn hf

theorem server_negotiate {c : Conn} {n : NConfig} {exts : List Ext} {g scheme mode : Nat}
    {leaf mine z : Bytes} {rest : List Bytes} {p : Option Bytes} {want : Bool}
    (hn : c.nconfig = some n) (hf : n.frozen = false)
    (o : Offer E c.config c.draws exts g scheme leaf rest p mine z mode want) :
    Gives (serverNegotiate E exts) c
      (helloExts g mine, encryptedExts p c.config.canEchoHeartbeat, some z) { c with
        nconfig := some (serverDeal n c.config g p mode want)
        signature := some (scheme, c.config.privateKey.getD [])
        draws := c.draws + 1 } := by
  unfold serverNegotiate
  -- supported_versions
  obtain ⟨l, hl, hc⟩ := o.versions
  refine .bind (a := [.supportedVersionsResp Iana.tls13]) (c₁ := c) ?_ ?_
  · unfold serverNegVersions
    rw [hl]
    dsimp only
    rw [if_neg (by rw [hc]; decide)]
    exact .pure _ _
  -- supported_groups
  obtain ⟨l, hl, hc⟩ := o.groups
  refine .bind (a := ()) (c₁ := { c with nconfig := some { n with keyExchange := some g } }) ?_ ?_
  · unfold serverNegGroups
    refine .getBind fun t => ?_
    rw [hl]
    dsimp only
    rw [hc]
    exact .setNc hn hf
  -- signature_algorithms
  obtain ⟨l, ss, hl, hss, hc⟩ := o.schemes
  refine .bind (a := ()) (c₁ := { c with
    nconfig := some { n with keyExchange := some g }
    signature := some (scheme, c.config.privateKey.getD []) }) ?_ ?_
  · unfold serverNegSignature
    refine .getBind fun t => ?_
    rw [hl]
    dsimp only
    rw [o.chain]
    dsimp only
    refine .liftBind hss ?_
    rw [hc]
    exact .mod fun _ => rfl
  -- key_share
  obtain ⟨l, g', theirs, priv, hl, hc, hr, hki, hkr⟩ := o.share
  refine .bind (a := (.keyShareResp g mine, some z)) (c₁ := { c with
    nconfig := some { n with keyExchange := some g }
    signature := some (scheme, c.config.privateKey.getD [])
    draws := c.draws + 1 }) ?_ ?_
  · unfold serverNegKeyShare
    refine .bind (.getNc rfl) ?_
    refine .liftBind (a := l) (by rw [clientShares, hl]) ?_
    dsimp only
    rw [hc]
    dsimp only
    rw [if_neg (by rw [hr]; decide)]
    refine .bind .nextDraw ?_
    refine .liftBind (a := (priv, mine)) (by dsimp only; rw [hki]; rfl) ?_
    refine .liftBind (a := z) (by rw [hkr]; rfl) ?_
    have : z.isEmpty = false := by cases z; exact absurd rfl o.shared; rfl
    rw [this]
    exact .pure _ _
  dsimp only
  refine .bind (a := []) (c₁ := { c with
    nconfig := some { n with keyExchange := some g }
    signature := some (scheme, c.config.privateKey.getD [])
    draws := c.draws + 1 }) ?_ ?_
  · unfold serverNegCct
    refine .getBind fun t => ?_
    dsimp only
    rw [if_pos o.noAuth]
    exact .pure _ _
  refine .bind (a := []) (c₁ := { c with
    nconfig := some { n with keyExchange := some g, serverCertificateType := some Iana.x509 }
    signature := some (scheme, c.config.privateKey.getD [])
    draws := c.draws + 1 }) ?_ ?_
  · unfold serverNegSct
    refine .getBind fun t => ?_
    rw [o.certType]
    dsimp only
    have : c.config.certificateTypes.find? [Iana.x509].contains = some Iana.x509 := by
      simp [Config.certificateTypes, Config.hasChain, o.chain]
    rw [this]
    exact .bind (.setNc' rfl hf rfl) (.pure _ _)
  refine .bind (a := []) (c₁ := { c with
    nconfig := some { n with
      keyExchange := some g
      serverCertificateType := some Iana.x509
      maxFragmentLength := some c.config.maxFragmentLength }
    signature := some (scheme, c.config.privateKey.getD [])
    draws := c.draws + 1 }) ?_ ?_
  · unfold serverNegMfl
    refine .getBind fun t => ?_
    rw [o.fragment]
    exact .bind (.setNc' rfl hf rfl) (.pure _ _)
  refine .bind (server_alpn rfl hf o.alpn) ?_
  refine .bind (a := [.heartbeat (if c.config.canEchoHeartbeat then Iana.peerAllowedToSend
      else Iana.peerNotAllowedToSend)]) (c₁ := { c with
    nconfig := some { n with
      keyExchange := some g
      serverCertificateType := some Iana.x509
      maxFragmentLength := some c.config.maxFragmentLength
      alpn := some p
      canSendHeartbeat := some (mode == Iana.peerAllowedToSend)
      canEchoHeartbeat := some c.config.canEchoHeartbeat }
    signature := some (scheme, c.config.privateKey.getD [])
    draws := c.draws + 1 }) ?_ ?_
  · unfold serverNegHeartbeat
    refine .getBind fun t => ?_
    rw [o.heartbeat]
    exact .bind (.setNc' rfl hf rfl) (.bind (.setNc' rfl hf rfl) (.pure _ _))
  refine .bind (server_status rfl hf) ?_
  rw [o.status]
  exact .pure _ _

/-! ## The protected part of the handshake -/

/-- a direction keyed with a traffic secret, after `n` records -/
def dirAt (H : Spec.Hash) (secret : Bytes) (keyLength n : Nat) : Dir :=
  ⟨some (H.writeKey secret keyLength), some (H.writeIv secret 12), some n⟩

/-- the cipher of one side under the handshake keys, after `w` records sent and `r` received -/
def hsCipher (E : Env) (info : SuiteInfo) (side : Side) (z th : Bytes) (w r : Nat) : CipherSt where
  info := info
  side := side
  secrets := ⟨2, (E.spec info.digest).deriveSecret
    ((E.spec info.digest).handshakeSecret z) "derived" ((E.spec info.digest).hash [])⟩
  rd := dirAt (E.spec info.digest) (bySide side ((E.spec info.digest).sHs z th)
    ((E.spec info.digest).cHs z th)) info.keyLength r
  wr := dirAt (E.spec info.digest) (bySide side ((E.spec info.digest).cHs z th)
    ((E.spec info.digest).sHs z th)) info.keyLength w
  cFin := .key ((E.spec info.digest).finishedKey ((E.spec info.digest).cHs z th))
  sFin := .key ((E.spec info.digest).finishedKey ((E.spec info.digest).sHs z th))

/-- the cipher of one side under the application keys -/
def apCipher (E : Env) (info : SuiteInfo) (side : Side) (z th : Bytes) (w r : Nat) : CipherSt where
  info := info
  side := side
  secrets := ⟨2, (E.spec info.digest).deriveSecret
    ((E.spec info.digest).handshakeSecret z) "derived" ((E.spec info.digest).hash [])⟩
  rd := dirAt (E.spec info.digest) (bySide side ((E.spec info.digest).sAp z th)
    ((E.spec info.digest).cAp z th)) info.keyLength r
  wr := dirAt (E.spec info.digest) (bySide side ((E.spec info.digest).cAp z th)
    ((E.spec info.digest).sAp z th)) info.keyLength w
  cFin := .none
  sFin := .none

/-- a record of `from'` under the handshake keys -/
def hsRecord (E : Env) (info : SuiteInfo) (side : Side) (z th : Bytes) (n : Nat) (data : Bytes) : Bytes :=
  sealedRecord E info 16384
    ((E.spec info.digest).writeKey (bySide side ((E.spec info.digest).cHs z th)
      ((E.spec info.digest).sHs z th)) info.keyLength)
    ((E.spec info.digest).writeIv (bySide side ((E.spec info.digest).cHs z th)
      ((E.spec info.digest).sHs z th)) 12) n 22 data

/-- the suite of the session and what is assumed of the cryptography -/
structure Works (E : Env) (info : SuiteInfo) (lim : Nat) : Prop where
  sized : E.Sized
  opens : E.Opens
  seals : E.Seals
  suite : suiteInfo info.id = some info
  limit : info.usageLimit = some lim

theorem Works.hash_le {info : SuiteInfo} {lim : Nat} (W : Works E info lim) (d : Bytes) :
    (E.hash info.digest d).length ≤ 255 := by
  rw [W.sized.hash]
  have := info.digest.size_le
  omega

theorem Works.lim_ge {info : SuiteInfo} {lim : Nat} (W : Works E info lim) : 11863283 ≤ lim := by
  have h := W.suite
  have hl := W.limit
  unfold suiteInfo at h
  split at h <;> first | (cases h; done) | skip
  all_goals
    injection h with h
    rw [← h] at hl
    first | (cases hl; done) | (injection hl with hl; omega)

theorem Works.tag {info : SuiteInfo} {lim : Nat} (W : Works E info lim) : info.tagLength ≤ 16 := by
  have h := W.suite
  unfold suiteInfo at h
  split at h <;> first | (cases h; done) | skip
  all_goals
    injection h with h
    rw [← h]
    try decide

/-- skip_early_secrets then derive_handshake_secrets on a fresh cipher -/
theorem fresh_keys {info : SuiteInfo} {lim : Nat} (W : Works E info lim) (side : Side) (z th : Bytes)
    (hth : th.length ≤ 255) : ∃ k, skipEarly E (CipherSt.new info side) = .ok k ∧ k.info = info ∧
      k.wr = .empty ∧ k.rd = .empty ∧
      deriveHandshake E k z th = (.ok (), hsCipher E info side z th 0 0) :=
  ⟨_, skipEarly_ok W.sized _ rfl rfl, rfl, rfl, rfl,
    handshake_keys W.sized W.suite (by rw [W.limit]; rfl) _ rfl z th hth rfl⟩

theorem app_keys {info : SuiteInfo} {lim : Nat} (W : Works E info lim) (side : Side) (z th th2 th3 : Bytes)
    (w r : Nat) (h2 : th2.length ≤ 255) (h3 : th3.length ≤ 255) :
    ∃ x, deriveMaster E (hsCipher E info side z th w r) th2 th3 = (.ok x, apCipher E info side z th2 0 0) :=
  ⟨_, master_keys W.sized W.suite (by rw [W.limit]; rfl) _ rfl z th2 th3 h2 h3 rfl⟩

theorem hs_ctype (m : Handshake) : (Content.handshake m).ctype ≠ 23 ∧ (Content.handshake m).ctype ≠ 24 := by
  constructor
  · show 22 ≠ 23; decide
  · show 22 ≠ 24; decide

theorem send_hs {c : Conn} {m : Handshake} {data z th : Bytes} {info : SuiteInfo} {side : Side}
    {w r lim : Nat} {t' : Transcript} (W : Works E info lim) (hw : w < 4096)
    (hcan : c.state.canSend = true) (hser : serHandshake E m = .ok data)
    (hu : c.transcript.update data c.config.side m.msgType = (.ok true, t'))
    (hk : c.cipher = some (hsCipher E info side z th w r)) (hm : c.mfl = 16384)
    (hl : data.length ≤ 16000) :
    Gives (sendContent E (.handshake m)) c () { c with
      transcript := t'
      cipher := some (hsCipher E info side z th (w + 1) r)
      outputData := c.outputData ++ hsRecord E info side z th w data } := by
  have := W.tag
  have := W.lim_ge
  have h := send_sealed (x := .handshake m) W.seals W.suite (hs_ctype _).1 (hs_ctype _).2 hcan hser
    (hash_handshake hu) hk rfl W.limit (show w < lim by omega)
    (show data.length + 1 + info.tagLength ≤ c.mfl by omega) (Nat.le_of_eq hm)
  rw [hm] at h
  exact h

/-- the server's protected flight -/
structure Flight where
  sh : Bytes
  ee : Bytes
  ct : Bytes
  cv : Bytes
  fin : Bytes

/-- what the server hashes up to and including the n-th message of its flight -/
def Flight.upTo (f : Flight) (ch : Bytes) : Nat → Bytes
  | 0 => ch
  | 1 => ch ++ f.sh
  | 2 => ch ++ f.sh ++ f.ee
  | 3 => ch ++ f.sh ++ f.ee ++ f.ct
  | 4 => ch ++ f.sh ++ f.ee ++ f.ct ++ f.cv
  | _ => ch ++ f.sh ++ f.ee ++ f.ct ++ f.cv ++ f.fin

/-- the records of the flight -/
def Flight.bytes (f : Flight) (E : Env) (info : SuiteInfo) (z th : Bytes) : Bytes :=
  recordBytes 22 f.sh ++ (recordBytes 20 [1] ++ (hsRecord E info .server z th 0 f.ee ++
    (hsRecord E info .server z th 1 f.ct ++ (hsRecord E info .server z th 2 f.cv ++
      hsRecord E info .server z th 3 f.fin))))

/-- the flight of a server -/
structure Flies (E : Env) (sign : Nat → Bytes → Bytes → Nat → Except Exn Bytes) (echo : Bool) (d : Nat) (f : Flight) (info : SuiteInfo) (ch random z : Bytes)
    (g scheme : Nat) (mine priv : Bytes) (p : Option Bytes) (chain : List Bytes) (staple : Option Bytes) : Prop where
  sh : serHandshake E (.serverHello random [] info.id (helloExts g mine)) = .ok f.sh
  ee : serHandshake E (.encryptedExtensions (encryptedExts p echo)) = .ok f.ee
  ct : serHandshake E (.certificate [] (stapledEntries chain staple)) = .ok f.ct
  cv : ∃ sig, sign scheme priv
      (certificateVerifyServer ++ E.hash info.digest (f.upTo ch 3)) d = .ok sig ∧
    serHandshake E (.certificateVerify scheme sig) = .ok f.cv
  fin : serHandshake E (.finished (E.hmac info.digest ((E.spec info.digest).finishedKey
    ((E.spec info.digest).sHs z (E.hash info.digest (f.upTo ch 1))))
      (E.hash info.digest (f.upTo ch 4)))) = .ok f.fin
  small : f.sh.length ≤ 16000 ∧ f.ee.length ≤ 16000 ∧ f.ct.length ≤ 16000 ∧ f.cv.length ≤ 16000 ∧
    f.fin.length ≤ 16000
  tiny : f.sh.length ≤ 4000 ∧ f.ee.length ≤ 4000

theorem dict_hello (g : Nat) (share : Bytes) : dictOfExts (helloExts g share) = helloExts g share :=
  dictOfExts_eq_of_nodup _ (by simp [helloExts, Ext.type])

theorem dict_encrypted (p : Option Bytes) (b : Bool) :
    dictOfExts (encryptedExts p b) = encryptedExts p b :=
  dictOfExts_eq_of_nodup _ (by cases p <;> simp [encryptedExts, alpnAnswer, Ext.type])

/-- what the server staples, and how many draws it takes -/
inductive Staples (E : Env) (ocsp want : Bool) (chain : List Bytes) (d : Nat) : Option Bytes → Nat → Prop
  | off (h : ocsp = false ∨ want = false ∨ chain.length < 2) : Staples E ocsp want chain d none 0
  | on {subject issuer : Bytes} {rest : List Bytes} {url : Option Bytes} {res : Bytes} (ho : ocsp = true)
    (hw : want = true) (hc : chain = subject :: issuer :: rest) (hu : E.ocspUrl subject = .ok url)
    (hf : E.ocspFetch url (E.ocspRequest subject issuer) d = .ok res)
    (hv : E.ocspValidate issuer (E.ocspRequest subject issuer) res (d + 1) = .ok ()) :
    Staples E ocsp want chain d (some res) 2
  | bad {subject issuer : Bytes} {rest : List Bytes} {url : Option Bytes} {res : Bytes} (ho : ocsp = true)
    (hw : want = true) (hc : chain = subject :: issuer :: rest) (hu : E.ocspUrl subject = .ok url)
    (hf : E.ocspFetch url (E.ocspRequest subject issuer) d = .ok res)
    (hv : E.ocspValidate issuer (E.ocspRequest subject issuer) res (d + 1) = .error .valueError) :
    Staples E ocsp want chain d none 2

theorem server_staple {c : Conn} {n : NConfig} {want : Bool} {chain : List Bytes} {staple : Option Bytes}
    {j : Nat} (hn : c.nconfig = some n) (hw : n.peerWantOcspStapling = some want)
    (hS : Staples E c.hasOcsp want chain c.draws staple j) :
    Gives (serverStaple E chain) c staple { c with draws := c.draws + j } := by
  unfold serverStaple
  refine .getBind fun t => .bind (.getNc hn) ?_
  cases hS with
  | off h =>
    split
    · dsimp only
      rw [if_neg (by
        rw [hw]
        rcases h with h | h | h
        · simp [h]
        · simp [h]
        · simp only [List.length_cons] at h; omega)]
      exact .pure _ _
    · exact .pure _ _
  | on ho hw' hc hu hf hv =>
    subst hc
    dsimp only
    rw [if_pos ⟨by rw [hw, hw'], ho⟩]
    refine .liftBind hu (.bind .nextDraw (.liftBind hf (.bind .nextDraw ?_)))
    dsimp only
    rw [hv]
    exact .pure _ _
  | bad ho hw' hc hu hf hv =>
    subst hc
    dsimp only
    rw [if_pos ⟨by rw [hw, hw'], ho⟩]
    refine .liftBind hu (.bind .nextDraw (.liftBind hf (.bind .nextDraw ?_)))
    dsimp only
    rw [hv]
    exact .pure _ _

theorem server_flight {c : Conn} {n : NConfig} {f : Flight} {info : SuiteInfo} {lim g scheme : Nat}
    {ch random z mine priv : Bytes} {p staple : Option Bytes} {chain : List Bytes} {want : Bool} {j : Nat}
    (W : Works E info lim) (hside : c.config.side = .server) (hst : c.state = .serverWaitCH true)
    (hk : c.cipher = some (CipherSt.new info .server)) (ht : c.transcript = ⟨[(info.digest, ch)], 2⟩)
    (hn : c.nconfig = some n) (hct : n.serverCertificateType = some Iana.x509)
    (hmfl : n.maxFragmentLength = some 16384) (hsu : c.serverUnique = some random)
    (hsig : c.signature = some (scheme, priv)) (hchain : c.config.certificateChain = some chain)
    (hw : n.peerWantOcspStapling = some want)
    (hS : Staples E c.hasOcsp want chain c.draws staple j) (hauth : c.config.requirePeerAuth = false)
    (F : Flies E E.sign c.config.canEchoHeartbeat (c.draws + j) f info ch random z g scheme mine priv p
      chain staple) :
    Gives (serverFlight E true [] (helloExts g mine) (encryptedExts p c.config.canEchoHeartbeat) z) c ()
      { c with
        cipher := some (hsCipher E info .server z (E.hash info.digest (f.upTo ch 1)) 4 0)
        transcript := ⟨[(info.digest, f.upTo ch 5)], 8⟩
        outputData := c.outputData ++ f.bytes E info z (E.hash info.digest (f.upTo ch 1))
        draws := c.draws + j + 1
        state := .serverWaitFin (E.hash info.digest (f.upTo ch 5)) } := by
  obtain ⟨h1, h2, h3, h4, h5⟩ := F.small
  have hm : ∀ x : Conn, x.nconfig = c.nconfig → x.mfl = 16384 := by
    intro x hx
    rw [Conn.mfl, hx, hn]
    simp [hmfl]
  obtain ⟨k, hk1, hki, hkw, hkr, hk2⟩ := fresh_keys W .server z (E.hash info.digest (f.upTo ch 1)) (W.hash_le _)
  rcases c with ⟨config, hostname, hasOcsp, nconfig, cipher, signature, transcript, inputData,
    inputHandshake, outputData, applicationData, clientUnique, serverUnique, state, draws, tr⟩
  dsimp only at hside hst hk ht hn hsu hsig hchain hS hauth hm F ⊢
  subst hst hk ht hn hsu hsig
  let c₀ : Conn := ⟨config, hostname, hasOcsp, some n, some (CipherSt.new info .server),
    some (scheme, priv), ⟨[(info.digest, ch)], 2⟩, inputData, inputHandshake, outputData,
    applicationData, clientUnique, some random, .serverWaitCH true, draws, tr⟩
  unfold serverFlight
  -- ServerHello, change_cipher_spec, EncryptedExtensions
  refine .bind (a := ()) (c₁ := { c₀ with
      cipher := some (hsCipher E info .server z (E.hash info.digest (f.upTo ch 1)) 1 0)
      transcript := ⟨[(info.digest, f.upTo ch 2)], 4⟩
      outputData := outputData ++ recordBytes 22 f.sh ++ recordBytes 20 [1] ++
        hsRecord E info .server z (E.hash info.digest (f.upTo ch 1)) 0 f.ee }) ?_ ?_
  · unfold serverSendHello
    refine .bind (.skipEarly rfl hk1) ?_
    refine .bind (.getCipher rfl) ?_
    refine .getBind fun t => ?_
    dsimp only
    rw [dict_hello, dict_encrypted, hki]
    refine .bind (a := ()) (c₁ := { c₀ with
      cipher := some k
      transcript := ⟨[(info.digest, f.upTo ch 1)], 3⟩
      outputData := outputData ++ recordBytes 22 f.sh }) ?_ ?_
    · refine send_clear (hs_ctype _).1 (hs_ctype _).2 rfl F.sh
        (hash_handshake (b := true) (t' := ⟨[(info.digest, f.upTo ch 1)], 3⟩) ?_) ?_ ?_ (by omega)
      · show Transcript.update ⟨[(info.digest, ch)], 2⟩ _ config.side _ = _
        rw [hside]; rfl
      · simp [Conn.mustEncrypt, hkw, Dir.empty]
      · rw [hm _ rfl]; omega
    refine .bind (a := ()) (c₁ := { c₀ with
      cipher := some k
      transcript := ⟨[(info.digest, f.upTo ch 1)], 3⟩
      outputData := outputData ++ recordBytes 22 f.sh ++ recordBytes 20 [1] }) ?_ ?_
    · refine send_clear (x := .changeCipherSpec) (by decide) (by decide) rfl rfl
        (.pure _ _) ?_ ?_ (by decide)
      · simp [Conn.mustEncrypt, hkw, Dir.empty]
      · rw [hm _ rfl]; decide
    refine .bind (.digest rfl) ?_
    refine .bind (.deriveHandshake rfl hk2) ?_
    refine send_hs (t' := ⟨[(info.digest, f.upTo ch 2)], 4⟩) W (by decide) rfl
      F.ee ?_ rfl (hm _ rfl) h2
    show Transcript.update _ _ config.side _ = _
    rw [hside]; rfl
  refine .getBind fun t => ?_
  dsimp only
  rw [hauth]
  refine .bind (a := ()) (.pure _ _) ?_
  -- Certificate, CertificateVerify
  refine .bind (a := ()) (c₁ := { c₀ with
      cipher := some (hsCipher E info .server z (E.hash info.digest (f.upTo ch 1)) 3 0)
      transcript := ⟨[(info.digest, f.upTo ch 4)], 7⟩
      draws := draws + j + 1
      outputData := outputData ++ recordBytes 22 f.sh ++ recordBytes 20 [1] ++
        hsRecord E info .server z (E.hash info.digest (f.upTo ch 1)) 0 f.ee ++
        hsRecord E info .server z (E.hash info.digest (f.upTo ch 1)) 1 f.ct ++
        hsRecord E info .server z (E.hash info.digest (f.upTo ch 1)) 2 f.cv }) ?_ ?_
  · unfold serverSendCertificate
    refine .bind (a := stapledEntries chain staple) (c₁ := { c₀ with
      draws := draws + j
      cipher := some (hsCipher E info .server z (E.hash info.digest (f.upTo ch 1)) 1 0)
      transcript := ⟨[(info.digest, f.upTo ch 2)], 4⟩
      outputData := outputData ++ recordBytes 22 f.sh ++ recordBytes 20 [1] ++
        hsRecord E info .server z (E.hash info.digest (f.upTo ch 1)) 0 f.ee }) ?_ ?_
    · unfold serverCertEntries
      refine .getBind fun t => .bind (.getNc rfl) ?_
      dsimp only
      rw [hct, if_neg (by decide), hchain]
      dsimp only
      refine .bind (server_staple rfl hw hS) ?_
      cases chain with
      | nil => exact .pure _ _
      | cons leaf rest => cases staple <;> exact .pure _ _
    refine .bind (send_hs (t' := ⟨[(info.digest, f.upTo ch 3)], 6⟩) W (by decide)
      rfl F.ct ?_ rfl (hm _ rfl) h3) ?_
    · show Transcript.update _ _ config.side _ = _
      rw [hside]; rfl
    refine .getBind fun t => ?_
    dsimp only
    obtain ⟨sig, hs1, hs2⟩ := F.cv
    refine .bind (.digest rfl) (.bind .nextDraw (.liftBind hs1 ?_))
    refine send_hs (t' := ⟨[(info.digest, f.upTo ch 4)], 7⟩) W (by decide)
      rfl hs2 ?_ rfl (hm _ rfl) h4
    show Transcript.update _ _ config.side _ = _
    rw [hside]; rfl
  refine .bind (a := ()) (c₁ := { c₀ with
      cipher := some (hsCipher E info .server z (E.hash info.digest (f.upTo ch 1)) 4 0)
      transcript := ⟨[(info.digest, f.upTo ch 5)], 8⟩
      draws := draws + j + 1
      outputData := outputData ++ f.bytes E info z (E.hash info.digest (f.upTo ch 1)) }) ?_ ?_
  · unfold serverSendFinished
    refine .bind (.digest rfl) (.bind (.getCipher rfl) ?_)
    refine .liftBind (a := E.hmac info.digest ((E.spec info.digest).finishedKey
      ((E.spec info.digest).sHs z (E.hash info.digest (f.upTo ch 1))))
        (E.hash info.digest (f.upTo ch 4))) rfl ?_
    have := send_hs (E := E) (c := { c₀ with
      cipher := some (hsCipher E info .server z (E.hash info.digest (f.upTo ch 1)) 3 0)
      transcript := ⟨[(info.digest, f.upTo ch 4)], 7⟩
      draws := draws + j + 1
      outputData := outputData ++ recordBytes 22 f.sh ++ recordBytes 20 [1] ++
        hsRecord E info .server z (E.hash info.digest (f.upTo ch 1)) 0 f.ee ++
        hsRecord E info .server z (E.hash info.digest (f.upTo ch 1)) 1 f.ct ++
        hsRecord E info .server z (E.hash info.digest (f.upTo ch 1)) 2 f.cv })
      (t' := ⟨[(info.digest, f.upTo ch 5)], 8⟩) W (by decide : 3 < 4096)
      rfl F.fin (by
        show Transcript.update _ _ config.side _ = _
        rw [hside]; rfl) rfl (hm _ rfl) h5
    rw [Flight.bytes]
    simp only [List.append_assoc] at this ⊢
    exact this
  refine .bind (.digest rfl) ?_
  exact .moveTo _

/-- a server with a first hello it can answer -/
theorem server_hello {c : Conn} {f : Flight} {info : SuiteInfo} {lim g scheme mode : Nat}
    {ch crandom random z mine leaf : Bytes} {rest : List Bytes} {p staple : Option Bytes} {suites : List Nat}
    {exts : List Ext} {want : Bool} {j : Nat}
    (W : Works E info lim) (hside : c.config.side = .server) (hst : c.state = .serverWaitCH true)
    (hs : c.config.cipherSuites.find? suites.contains = some info.id)
    (ht : c.transcript.postInit info.digest = .ok ⟨[(info.digest, ch)], 2⟩)
    (hmfl : c.config.maxFragmentLength = 16384) (hsu : c.serverUnique = some random)
    (hS : Staples E c.hasOcsp want (leaf :: rest) (c.draws + 1) staple j)
    (o : Offer E c.config c.draws exts g scheme leaf rest p mine z mode want)
    (F : Flies E E.sign c.config.canEchoHeartbeat (c.draws + 1 + j) f info ch random z g scheme mine
      (c.config.privateKey.getD []) p (leaf :: rest) staple) :
    Gives (process E (.handshake (.clientHello crandom [] suites exts))) c () { c with
      nconfig := some (serverDeal { NConfig.new with cipherSuite := some info.id } c.config g p mode want)
      clientUnique := some crandom
      signature := some (scheme, c.config.privateKey.getD [])
      cipher := some (hsCipher E info .server z (E.hash info.digest (f.upTo ch 1)) 4 0)
      transcript := ⟨[(info.digest, f.upTo ch 5)], 8⟩
      outputData := c.outputData ++ f.bytes E info z (E.hash info.digest (f.upTo ch 1))
      draws := c.draws + 1 + j + 1
      state := .serverWaitFin (E.hash info.digest (f.upTo ch 5)) } := by
  refine .of_eq (m := serverWaitCH E true (.handshake (.clientHello crandom [] suites exts))) ?_ fun t => by
    simp only [process, hst]
  unfold serverWaitCH
  refine .bind (server_setup hs W.suite ht) ?_
  refine .bind (server_negotiate rfl rfl o) ?_
  dsimp only
  exact server_flight W hside hst rfl rfl rfl rfl (by simp [serverDeal, hmfl]) hsu rfl o.chain rfl hS
    o.noAuth F

/-- a server that gets the right Finished -/
theorem server_finished {c : Conn} {f : Flight} {info : SuiteInfo} {lim : Nat} {ch mac z th d2 : Bytes}
    {w r : Nat} (W : Works E info lim) (hst : c.state = .serverWaitFin (E.hash info.digest (f.upTo ch 5)))
    (hk : c.cipher = some (hsCipher E info .server z th w r)) (ht : c.transcript = ⟨[(info.digest, d2)], 12⟩)
    (hmac : mac = E.hmac info.digest ((E.spec info.digest).finishedKey ((E.spec info.digest).cHs z th))
      (E.hash info.digest (f.upTo ch 5))) :
    Gives (process E (.handshake (.finished mac))) c () { c with
      cipher := some (apCipher E info .server z (E.hash info.digest (f.upTo ch 5)) 0 0)
      state := .connected } := by
  refine .of_eq (m := serverWaitFin E (E.hash info.digest (f.upTo ch 5)) (.handshake (.finished mac))) ?_
    fun t => by simp only [process, hst]
  unfold serverWaitFin
  refine .bind (.getCipher hk) ?_
  refine .liftBind (a := ()) ?_ ?_
  · simp [verifyFinish, hsCipher, finMac, hmac, Except.bind_def, mapValueError, pure, Except.pure]
  refine .bind (.digest (h := E.hash info.digest d2) (by rw [ht]; rfl)) ?_
  obtain ⟨x, hx⟩ := app_keys W .server z th (E.hash info.digest (f.upTo ch 5)) (E.hash info.digest d2) w r
    (W.hash_le _) (W.hash_le _)
  refine .bind (.deriveMaster hk hx) ?_
  exact .moveTo _

/-! ## Client -/

theorem client_hello {c : Conn} {f : Flight} {info : SuiteInfo} {lim g : Nat}
    {ch random z mine priv chHash : Bytes} (W : Works E info lim)
    (hst : c.state = .clientWaitSH true [(g, priv)] chHash)
    (hs : c.config.cipherSuites.contains info.id = true) (hcs : 1 ≤ c.config.maxFragmentLength)
    (ht : c.transcript.postInit info.digest = .ok ⟨[(info.digest, f.upTo ch 1)], 3⟩)
    (hg : kexRegistered g = true) (hz : E.kexResume g priv mine = .ok z) :
    Gives (process E (.handshake (.serverHello random [] info.id (helloExts g mine)))) c () { c with
      nconfig := some { NConfig.new with cipherSuite := some info.id, keyExchanges := some g }
      serverUnique := some random
      cipher := some (hsCipher E info .client z (E.hash info.digest (f.upTo ch 1)) 0 0)
      transcript := ⟨[(info.digest, f.upTo ch 1)], 3⟩
      outputData := c.outputData ++ recordBytes 20 [1]
      state := .clientWaitEE } := by
  obtain ⟨k, hk1, hki, hkw, hkr, hk2⟩ := fresh_keys W .client z (E.hash info.digest (f.upTo ch 1)) (W.hash_le _)
  refine .of_eq (m := clientWaitSH E true [(g, priv)] chHash
    (.handshake (.serverHello random [] info.id (helloExts g mine)))) ?_ fun t => by
      simp only [process, hst]
  unfold clientWaitSH
  refine .bind (a := ()) (c₁ := { c with
    nconfig := some { NConfig.new with cipherSuite := some info.id }
    cipher := some (CipherSt.new info .client)
    transcript := ⟨[(info.digest, f.upTo ch 1)], 3⟩
    outputData := c.outputData ++ recordBytes 20 [1] }) ?_ ?_
  · unfold clientSetup
    refine .getBind fun t => ?_
    dsimp only
    rw [if_neg (by rw [hs]; decide), if_pos rfl]
    refine .bind (.mod fun _ => rfl) ?_
    rw [W.suite]
    dsimp only
    refine .bind (.mod fun _ => rfl) ?_
    refine .bind (.postInit ht) ?_
    refine send_clear (x := .changeCipherSpec) (by decide) (by decide) (by simp [hst, St.canSend]) rfl
      (.pure _ _) rfl ?_ (by decide)
    exact hcs
  unfold clientProcessServerHello
  refine .bind (.mod fun _ => rfl) ?_
  refine .bind (a := ()) (.pure _ _) ?_
  refine .bind (a := z) (c₁ := { c with
    nconfig := some { NConfig.new with cipherSuite := some info.id, keyExchanges := some g }
    cipher := some (CipherSt.new info .client)
    serverUnique := some random
    transcript := ⟨[(info.digest, f.upTo ch 1)], 3⟩
    outputData := c.outputData ++ recordBytes 20 [1] }) ?_ ?_
  · unfold clientNegKeyShare
    have : findExt (helloExts g mine) Iana.extKeyShare = some (.keyShareResp g mine) := rfl
    rw [this]
    simp only [List.find?_cons, decide_true]
    rw [if_neg (by rw [hg]; decide)]
    refine .liftBind (by rw [hz]; rfl) ?_
    exact .bind (.setNc rfl rfl) (.pure _ _)
  refine .bind (.skipEarly rfl hk1) ?_
  refine .bind (.digest rfl) ?_
  refine .bind (.deriveHandshake rfl hk2) ?_
  exact .moveTo _

/-- the negotiated configuration of a client after EncryptedExtensions -/
def clientDeal (gc : Config) (n : NConfig) (p : Option Bytes) (echo : Bool) : NConfig :=
  { n with
    maxFragmentLength := some 16384
    alpn := some p
    canSendHeartbeat := some echo
    canEchoHeartbeat := some gc.canEchoHeartbeat
    clientCertificateType := some Iana.x509
    serverCertificateType := some Iana.x509 }

theorem client_extensions {c : Conn} {n : NConfig} {p : Option Bytes} {echo : Bool}
    (hst : c.state = .clientWaitEE) (hn : c.nconfig = some n) (hf : n.frozen = false)
    (hp : ∀ b, p = some b → c.config.alpn.contains b = true) :
    Gives (process E (.handshake (.encryptedExtensions (encryptedExts p echo)))) c () { c with
      nconfig := some (clientDeal c.config n p echo)
      state := .clientWaitCertCr } := by
  refine .of_eq (m := clientWaitEE (.handshake (.encryptedExtensions (encryptedExts p echo)))) ?_
    fun t => by simp only [process, hst]
  unfold clientWaitEE
  have hb : findExt (encryptedExts p echo) Iana.extHeartbeat =
      some (.heartbeat (if echo then Iana.peerAllowedToSend else Iana.peerNotAllowedToSend)) := by
    cases p <;> rfl
  have he : ((if echo then Iana.peerAllowedToSend else Iana.peerNotAllowedToSend) ==
    Iana.peerAllowedToSend) = echo := by cases echo <;> rfl
  refine .bind (a := ()) (c₁ := { c with nconfig := some { n with maxFragmentLength := some 16384 } }) ?_ ?_
  · unfold clientNegMfl
    refine .getBind fun t => ?_
    have : findExt (encryptedExts p echo) Iana.extMaxFragmentLength = none := by cases p <;> rfl
    rw [this]
    exact .setNc hn hf
  refine .bind (a := ()) (c₁ := { c with nconfig := some { n with
    maxFragmentLength := some 16384, alpn := some p } }) ?_ ?_
  · unfold clientNegAlpn
    refine .getBind fun t => ?_
    cases p with
    | none =>
      have : findExt (encryptedExts none echo) Iana.extAlpn = none := rfl
      rw [this]
      exact .setNc' rfl hf rfl
    | some b =>
      have : findExt (encryptedExts (some b) echo) Iana.extAlpn = some (.alpn [b]) := rfl
      rw [this]
      dsimp only
      rw [if_neg (by rw [hp b rfl]; decide)]
      exact .setNc' rfl hf rfl
  refine .bind (a := ()) (c₁ := { c with nconfig := some { n with
    maxFragmentLength := some 16384, alpn := some p, canSendHeartbeat := some echo
    canEchoHeartbeat := some c.config.canEchoHeartbeat } }) ?_ ?_
  · unfold clientNegHeartbeat
    refine .getBind fun t => ?_
    rw [hb]
    dsimp only
    rw [he]
    exact .bind (.setNc' rfl hf rfl) (.setNc' rfl hf rfl)
  refine .bind (a := ()) (c₁ := { c with nconfig := some { n with
    maxFragmentLength := some 16384, alpn := some p, canSendHeartbeat := some echo
    canEchoHeartbeat := some c.config.canEchoHeartbeat
    clientCertificateType := some Iana.x509 } }) ?_ ?_
  · unfold clientNegCct
    refine .getBind fun t => ?_
    have : findExt (encryptedExts p echo) Iana.extClientCertificateType = none := by cases p <;> rfl
    rw [this]
    exact .setNc' rfl hf rfl
  refine .bind (a := ()) (c₁ := { c with nconfig := some (clientDeal c.config n p echo) }) ?_ ?_
  · unfold clientNegSct
    refine .getBind fun t => ?_
    have : findExt (encryptedExts p echo) Iana.extServerCertificateType = none := by cases p <;> rfl
    rw [this]
    exact .setNc' rfl hf rfl
  exact .moveTo _

/-- the certificates are good enough for this client -/
def Trusts (E : Env) (c : Conn) (leaf : Bytes) (rest : List Bytes) (staple : Option Bytes) (j : Nat) : Prop :=
  c.config.requirePeerAuth = true →
    (c.config.revocationList = none ∨ c.config.revocationList = some []) ∧
    (∃ store, c.config.trustStore = some store ∧
      E.verifyChain store c.config.maxChainDepth (subjectOf E c.hostname) leaf rest c.draws = .ok ()) ∧
    ∀ x : Conn, x.hasOcsp = c.hasOcsp → x.draws = c.draws + 1 →
      Gives (clientVerifyStatuses E (stapledEntries (leaf :: rest) staple)) x () { x with draws := x.draws + j }

theorem certs_plain (chain : List Bytes) : certsOf (plainEntries chain) = .ok chain := by
  induction chain with
  | nil => rfl
  | cons a l ih =>
    show (do let c ← Except.ok a; let cs ← certsOf (plainEntries l); return c :: cs) = _
    rw [ih]; rfl

theorem certs_stapled (chain : List Bytes) (staple : Option Bytes) :
    certsOf (stapledEntries chain staple) = .ok chain := by
  cases chain with
  | nil => rfl
  | cons leaf rest =>
    cases staple with
    | none => exact certs_plain _
    | some res =>
      show (do let c ← Except.ok leaf; let cs ← certsOf (plainEntries rest); return c :: cs) = _
      rw [certs_plain]; rfl

theorem stapled_cons (leaf : Bytes) (rest : List Bytes) (staple : Option Bytes) :
    ∃ exts, stapledEntries (leaf :: rest) staple = .x509 leaf exts :: plainEntries rest := by
  cases staple <;> exact ⟨_, rfl⟩

/-- one certificate whose status is looked up, or not -/
theorem status_plain {c : Conn} {a b : Bytes}
    (h : c.hasOcsp = true → ∃ url, E.ocspUrl a = .ok url ∧ (url = none ∨ url = some [] ∨ ∀ d, ∃ res,
      E.ocspFetch url (E.ocspRequest a b) d = .ok res ∧
      ∀ d', E.ocspValidate b (E.ocspRequest a b) res d' = .ok ())) :
    ∃ j, ∀ x : Conn, x.hasOcsp = c.hasOcsp → x.draws = c.draws →
      Gives (clientVerifyStatus E (.x509 a []) (.x509 b [])) x () { x with draws := x.draws + j } := by
  have skip : ∀ x : Conn, Gives (pure () : M Unit) x () { x with draws := x.draws + 0 } := fun x => .pure _ _
  cases ho : c.hasOcsp with
  | false =>
    refine ⟨0, fun x hx _ => ?_⟩
    unfold clientVerifyStatus
    refine .getBind fun t => ?_
    dsimp only [CertEntry.exts]
    rw [show findExt [] Iana.extStatusRequest = none from rfl]
    dsimp only
    rw [if_neg (by rw [hx]; simp)]
    exact skip x
  | true =>
    obtain ⟨url, hu, h⟩ := h ho
    have hgo : ∀ (x : Conn) (j : Nat), x.hasOcsp = true →
        Gives (match url with
          | none => pure ()
          | some [] => pure ()
          | some url => do
            let iss ← M.lift (CertEntry.cert (.x509 b []))
            let d ← nextDraw
            let res ← M.lift (E.ocspFetch (some url) (E.ocspRequest a iss) d)
            let d ← nextDraw
            M.lift (mapValueError (.alert Iana.badCertificate)
              (E.ocspValidate iss (E.ocspRequest a iss) res d))) x () { x with draws := x.draws + j } →
        Gives (clientVerifyStatus E (.x509 a []) (.x509 b [])) x () { x with draws := x.draws + j } := by
      intro x j hx hg
      unfold clientVerifyStatus
      refine .getBind fun t => ?_
      dsimp only [CertEntry.exts]
      rw [show findExt [] Iana.extStatusRequest = none from rfl]
      dsimp only
      rw [if_pos hx]
      exact .liftBind (a := a) rfl (.liftBind hu hg)
    match url, hu, h, hgo with
    | none, hu, h, hgo => exact ⟨0, fun x hx _ => hgo x 0 hx (skip x)⟩
    | some [], hu, h, hgo => exact ⟨0, fun x hx _ => hgo x 0 hx (skip x)⟩
    | some (u :: us), hu, h, hgo =>
      obtain ⟨res, hf, hv⟩ := (h.resolve_left (by simp)).resolve_left (by simp) c.draws
      refine ⟨2, fun x hx hd => hgo x 2 hx ?_⟩
      refine .liftBind (a := b) rfl (.bind .nextDraw (.liftBind (by rw [hd]; exact hf) (.bind .nextDraw ?_)))
      dsimp only
      rw [hv]
      exact .pure _ _

theorem statuses_plain (chain : List Bytes) : ∀ {c : Conn}
    (_ : c.hasOcsp = true → ∀ before a b after, chain = before ++ a :: b :: after →
      ∃ url, E.ocspUrl a = .ok url ∧ (url = none ∨ url = some [] ∨ ∀ d, ∃ res,
        E.ocspFetch url (E.ocspRequest a b) d = .ok res ∧
        ∀ d', E.ocspValidate b (E.ocspRequest a b) res d' = .ok ())),
    ∃ j, ∀ x : Conn, x.hasOcsp = c.hasOcsp → x.draws = c.draws →
      Gives (clientVerifyStatuses E (plainEntries chain)) x () { x with draws := x.draws + j } := by
  induction chain with
  | nil => exact fun _ => ⟨0, fun x _ _ => .pure _ _⟩
  | cons a l ih =>
    cases l with
    | nil => exact fun _ => ⟨0, fun x _ _ => .pure _ _⟩
    | cons b l =>
      intro c h
      obtain ⟨j, hj⟩ := status_plain (E := E) (c := c) (a := a) (b := b) fun ho => h ho [] a b l rfl
      obtain ⟨i, hi⟩ := ih (c := { c with draws := c.draws + j }) fun ho before a' b' after hb =>
        h ho (a :: before) a' b' after (by rw [hb]; rfl)
      refine ⟨j + i, fun x hx hd => ?_⟩
      rw [← Nat.add_assoc]
      exact .bind (hj x hx hd) (hi { x with draws := x.draws + j } hx (by show _ + j = _ + j; rw [hd]))

/-- the statuses of a chain, the first one stapled or not -/
theorem statuses_stapled {chain : List Bytes} {staple : Option Bytes} {c : Conn}
    (h : c.hasOcsp = true → ∀ before a b after, chain = before ++ a :: b :: after →
      ∃ url, E.ocspUrl a = .ok url ∧ (url = none ∨ url = some [] ∨ ∀ d, ∃ res,
        E.ocspFetch url (E.ocspRequest a b) d = .ok res ∧
        ∀ d', E.ocspValidate b (E.ocspRequest a b) res d' = .ok ()))
    (hs : ∀ res, staple = some res → ∀ a b after, chain = a :: b :: after →
      ∀ d, E.ocspValidate b (E.ocspRequest a b) res d = .ok ()) :
    ∃ j, ∀ x : Conn, x.hasOcsp = c.hasOcsp → x.draws = c.draws →
      Gives (clientVerifyStatuses E (stapledEntries chain staple)) x () { x with draws := x.draws + j } := by
  match chain, staple, h, hs with
  | [], _, h, _ => exact statuses_plain [] h
  | a :: l, none, h, _ => exact statuses_plain (a :: l) h
  | [a], some res, _, _ => exact ⟨0, fun x _ _ => .pure _ _⟩
  | a :: b :: l, some res, h, hs =>
    obtain ⟨i, hi⟩ := statuses_plain (E := E) (b :: l) (c := { c with draws := c.draws + 1 })
      fun ho before a' b' after hb => h ho (a :: before) a' b' after (by rw [hb]; rfl)
    refine ⟨1 + i, fun x hx hd => ?_⟩
    rw [← Nat.add_assoc]
    refine .bind (a := ()) (c₁ := { x with draws := x.draws + 1 }) ?_ (hi _ hx (by show _ + 1 = _ + 1; rw [hd]))
    show Gives (clientVerifyStatus E (.x509 a [.ocspStatus res]) (.x509 b [])) x () _
    unfold clientVerifyStatus
    refine .getBind fun t => ?_
    dsimp only [CertEntry.exts]
    rw [show findExt [.ocspStatus res] Iana.extStatusRequest = some (.ocspStatus res) from rfl]
    dsimp only
    refine .liftBind (a := a) rfl (.liftBind (a := b) rfl (.bind .nextDraw ?_))
    rw [hs res rfl a b l rfl]
    exact .pure _ _

theorem client_certificate {c : Conn} {n : NConfig} {leaf d : Bytes} {i : Nat} {a : HashAlg}
    {rest : List Bytes} {staple : Option Bytes} {j : Nat} (hst : c.state = .clientWaitCertCr) (hn : c.nconfig = some n)
    (hf : n.frozen = false) (hct : n.serverCertificateType = some Iana.x509)
    (ht : c.transcript = ⟨[(a, d)], i⟩) (hv : Trusts E c leaf rest staple j) :
    Gives (process E (.handshake (.certificate [] (stapledEntries (leaf :: rest) staple)))) c () { c with
      nconfig := some { n with peerCertificate := some leaf }
      draws := if c.config.requirePeerAuth then c.draws + 1 + j else c.draws
      state := .clientWaitCV false (E.hash a d) } := by
  obtain ⟨exts, hent⟩ := stapled_cons leaf rest staple
  refine .of_eq (m := clientWaitCertCr E (.handshake (.certificate [] (stapledEntries (leaf :: rest) staple)))) ?_
    fun t => by simp only [process, hst]
  unfold clientWaitCertCr
  refine .bind (.moveTo _) ?_
  unfold clientWaitCert
  refine .getBind fun t => ?_
  dsimp only
  rw [if_neg (by simp [hent])]
  refine .bind (.getNc hn) ?_
  rw [if_neg (by simp [hent, plainEntries, CertEntry.ctype, hct])]
  refine .bind (a := ()) (c₁ := { c with
      nconfig := some { n with peerCertificate := some leaf }
      draws := if c.config.requirePeerAuth then c.draws + 1 + j else c.draws
      state := .clientWaitCert false }) ?_ ?_
  · rw [show clientProcessEntries E n.serverCertificateType (stapledEntries (leaf :: rest) staple) =
      clientProcessX509 E (stapledEntries (leaf :: rest) staple) by rw [hct]; rfl]
    unfold clientProcessX509
    refine .getBind fun t => ?_
    rw [hent]
    dsimp only
    rw [← hent]
    refine .liftBind (a := leaf) rfl ?_
    refine .bind (.setNc hn hf) ?_
    dsimp only
    by_cases ha : c.config.requirePeerAuth = true
    · rw [if_pos ha, if_pos ha]
      obtain ⟨hrev, ⟨store, hstore, hver⟩, hstat⟩ := hv ha
      refine .bind (a := ()) (c₁ := { c with
        nconfig := some { n with peerCertificate := some leaf }
        draws := c.draws + 1
        state := .clientWaitCert false }) ?_ ?_
      · unfold clientVerifyChain
        refine .getBind fun t => ?_
        refine .liftBind (certs_stapled _ _) ?_
        dsimp only
        rw [hstore]
        dsimp only
        refine .bind .nextDraw ?_
        dsimp only
        rw [hver]
        exact .pure _ _
      refine .bind (a := ()) (c₁ := { c with
        nconfig := some { n with peerCertificate := some leaf }
        draws := c.draws + 1
        state := .clientWaitCert false }) ?_ (hstat _ rfl rfl)
      unfold clientVerifyRevocation
      refine .getBind fun t => ?_
      dsimp only
      rcases hrev with hrev | hrev <;> rw [hrev] <;> exact .pure _ _
    · simp only [ha, Bool.false_eq_true, if_false]
      exact .pure _ _
  refine .bind (.digest (h := E.hash a d) (by rw [ht]; rfl)) ?_
  exact .moveTo _

theorem client_verify {c : Conn} {n : NConfig} {leaf pub sig ch d : Bytes} {i scheme : Nat} {a : HashAlg}
    (hst : c.state = .clientWaitCV false ch) (hn : c.nconfig = some n) (hf : n.frozen = false)
    (hpk : n.peerPublicKey = none) (hpc : n.peerCertificate = some leaf)
    (hs : c.config.signatureAlgorithms.contains scheme = true) (hreg : sigRegistered scheme = true)
    (hpub : E.certPub leaf = .ok pub)
    (hv : E.verify scheme pub sig (certificateVerifyServer ++ ch) = .ok ())
    (ht : c.transcript = ⟨[(a, d)], i⟩) :
    Gives (process E (.handshake (.certificateVerify scheme sig))) c () { c with
      nconfig := some { n with signatureAlgorithm := some scheme }
      state := .clientWaitFin false (E.hash a d) } := by
  refine .of_eq (m := clientWaitCV E false ch (.handshake (.certificateVerify scheme sig))) ?_
    fun t => by simp only [process, hst]
  unfold clientWaitCV
  refine .getBind fun t => ?_
  dsimp only
  rw [if_neg (by rw [hs]; decide)]
  refine .bind (.setNc hn hf) ?_
  refine .bind (.getNc rfl) ?_
  refine .liftBind (a := pub) (by simp only [peerKey, hpk, hpc, hpub]) ?_
  rw [if_neg (by rw [hreg]; decide)]
  refine .liftBind (a := ()) hv ?_
  refine .bind (.digest (h := E.hash a d) (by rw [ht]; rfl)) ?_
  exact .moveTo _

theorem client_finished {c : Conn} {info : SuiteInfo} {lim : Nat} {mac mine z th d cvHash : Bytes}
    {r : Nat} (W : Works E info lim) (hside : c.config.side = .client)
    (hst : c.state = .clientWaitFin false cvHash)
    (hk : c.cipher = some (hsCipher E info .client z th 0 r)) (ht : c.transcript = ⟨[(info.digest, d)], 8⟩)
    (hm : c.mfl = 16384)
    (hmac : mac = E.hmac info.digest ((E.spec info.digest).finishedKey ((E.spec info.digest).sHs z th)) cvHash)
    (hmine : serHandshake E (.finished (E.hmac info.digest ((E.spec info.digest).finishedKey
      ((E.spec info.digest).cHs z th)) (E.hash info.digest d))) = .ok mine) (hl : mine.length ≤ 16000) :
    Gives (process E (.handshake (.finished mac))) c () { c with
      cipher := some (apCipher E info .client z (E.hash info.digest d) 0 0)
      transcript := ⟨[(info.digest, d ++ mine)], 12⟩
      outputData := c.outputData ++ hsRecord E info .client z th 0 mine
      state := .connected } := by
  refine .of_eq (m := clientWaitFin E false cvHash (.handshake (.finished mac))) ?_
    fun t => by simp only [process, hst]
  unfold clientWaitFin
  refine .bind (.getCipher hk) ?_
  refine .liftBind (a := ()) ?_ ?_
  · simp [verifyFinish, hsCipher, finMac, hmac, Except.bind_def, mapValueError, pure, Except.pure]
  refine .bind (.digest (h := E.hash info.digest d) (by rw [ht]; rfl)) ?_
  rw [if_neg (by decide)]
  refine .liftBind (a := E.hmac info.digest ((E.spec info.digest).finishedKey
      ((E.spec info.digest).cHs z th)) (E.hash info.digest d)) rfl ?_
  refine .bind (send_hs (t' := ⟨[(info.digest, d ++ mine)], 12⟩) W (by decide)
    (by simp [hst, St.canSend]) hmine (by rw [ht, hside]; rfl) hk hm hl) ?_
  refine .bind (.digest rfl) ?_
  obtain ⟨x, hx⟩ := app_keys W .client z th (E.hash info.digest d) (E.hash info.digest (d ++ mine)) 1 r
    (W.hash_le _) (W.hash_le _)
  refine .bind (.deriveMaster rfl hx) ?_
  exact .moveTo _

end Siotls
