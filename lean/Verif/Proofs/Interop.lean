import Verif.Spec.Interop
import Verif.Proofs.Completion
import Verif.Proofs.Encoding
import Verif.Proofs.CertInv
/-!
# A client and a server of another make: helper lemmas
-/

namespace Siotls
open Spec Serial

variable {E : Env}

theorem Spec.Rfc.Message.honest {h : Handshake} {b : Bytes} (hm : Rfc.Message E h b) : HonestMsg b := by
  obtain ⟨body, -, x, y, ⟨hx, -⟩, ⟨len, hl, rfl⟩, rfl⟩ := hm
  obtain ⟨hlt, rfl⟩ := toBytes_ok.mp (num_ok.mpr hl)
  match x, hx with
  | [t], _ =>
    refine ⟨by simp, ?_⟩
    unfold handshakeLength
    have h1 : (([t] ++ (beEnc 3 body.length ++ body)).drop 1).take 3 = beEnc 3 body.length := by
      rw [List.singleton_append, List.drop_one, List.tail_cons]
      exact List.take_left' (by simp)
    rw [h1, beDec_beEnc hlt]
    simp

/-- stripping any padding -/
theorem stripPadding_any {ct pad : Nat} {f : Bytes} (h : 0 < ct) (h' : ct < 256) :
    stripPadding (f ++ [UInt8.ofNat ct] ++ List.replicate pad 0) = some (ct, f) := by
  unfold stripPadding
  have hz : ∀ n (l : Bytes), (List.replicate n 0 ++ l).dropWhile (· = 0) = l.dropWhile (· = 0) := by
    intro n l
    induction n with
    | zero => rfl
    | succ n ih =>
      show ((0 : UInt8) :: (List.replicate n 0 ++ l)).dropWhile _ = _
      rw [List.dropWhile_cons_of_pos (by simp)]
      exact ih
  have hne : UInt8.ofNat ct ≠ 0 := by
    intro h0
    have := congrArg UInt8.toNat h0
    rw [UInt8.toNat_ofNat', show (0 : UInt8).toNat = 0 from rfl] at this
    omega
  rw [List.reverse_append, List.reverse_replicate, hz, List.reverse_append]
  simp only [List.reverse_singleton, List.singleton_append]
  rw [List.dropWhile_cons_of_neg (by simpa using hne)]
  simp only [List.reverse_reverse, UInt8.toNat_ofNat']
  rw [Nat.mod_eq_of_lt h']

/-- reading a record of the server under the handshake keys, however padded -/
theorem read_under {r : Conn} {info : SuiteInfo} {lim w n pad : Nat} {z th data rest : Bytes}
    (W : Works E info lim) (hn : n < 4096) (hd : HonestMsg data) (hhs : r.inputHandshake = [])
    (hk : r.cipher = some (hsCipher E info .client z th w n))
    (hl : data.length + 1 + pad + info.tagLength ≤ r.mfl + 256) (hmfl : r.mfl ≤ 16384)
    (hi : r.inputData = sealedUnder E info ((E.spec info.digest).sHs z th) n 22 data pad ++ rest) :
    Gives (readNextContent E) r (some (22, data)) { r with
      inputData := rest, cipher := some (hsCipher E info .client z th w (n + 1)) } := by
  intro t
  have hlim := W.lim_ge
  unfold sealedUnder at hi
  dsimp only at hi
  have hil : (data ++ [UInt8.ofNat 22] ++ List.replicate pad 0).length = data.length + 1 + pad := by
    simp; omega
  generalize hin : data ++ [UInt8.ofNat 22] ++ List.replicate pad 0 = inner at hi hil
  have hstrip : stripPadding inner = some (22, data) := by rw [← hin]; exact stripPadding_any (by omega) (by omega)
  generalize hkk : hsCipher E info .client z th w n = k at hk
  have hinfo : k.info = info := by rw [← hkk]; rfl
  obtain ⟨key, hkey⟩ : ∃ key, key = (E.spec info.digest).writeKey ((E.spec info.digest).sHs z th) info.keyLength := ⟨_, rfl⟩
  obtain ⟨iv, hiv⟩ : ∃ iv, iv = (E.spec info.digest).writeIv ((E.spec info.digest).sHs z th) 12 := ⟨_, rfl⟩
  rw [← hkey, ← hiv] at hi
  have hrd : k.rd = ⟨some key, some iv, some n⟩ := by rw [← hkk, hkey, hiv]; rfl
  have hnext : { k with rd := ⟨some key, some iv, some (n + 1)⟩ } = hsCipher E info .client z th w (n + 1) := by
    rw [← hkk, hkey, hiv]; rfl
  subst hinfo
  have hbl := W.seals k.info.id k.info key (xorBytes iv (beEnc k.info.nonceLength n))
    ([23, 3, 3] ++ be16 (inner.length + k.info.tagLength)) inner W.suite
  have hmd : r.mustDecrypt = true := by simp [Conn.mustDecrypt, hk, hrd]
  rw [← hnext]
  refine ⟨.got 22 data :: .opened k.info.id key (xorBytes iv (beEnc k.info.nonceLength n))
            ([23, 3, 3] ++ be16 (inner.length + k.info.tagLength)) inner :: t, ?_⟩
  have h1 : readNextRecord E { r with tr := t } =
        (.ok (some (22, data)), { r with
          inputData := rest
          cipher := some { k with rd := ⟨some key, some iv, some (n + 1)⟩ }
          tr := .opened k.info.id key (xorBytes iv (beEnc k.info.nonceLength n))
            ([23, 3, 3] ++ be16 (inner.length + k.info.tagLength)) inner :: t }) := by
    rw [readNextRecord_whole (c := { r with tr := t }) (rest := rest) (by omega) (by omega)
        (by rw [hbl]; omega) (by
          unfold Conn.recordLimit
          rw [show Conn.mustDecrypt { r with tr := t } = true from hmd, if_pos rfl, hbl]
          show _ ≤ r.mfl + 256
          omega) hi]
    unfold useRecord
    rw [show Conn.mustDecrypt { r with inputData := rest, tr := t } = true from hmd, if_pos rfl]
    have hopen := W.opens k.info.id k.info key (xorBytes iv (beEnc k.info.nonceLength n))
        ([23, 3, 3] ++ be16 (inner.length + k.info.tagLength)) inner W.suite
    have hkey : k.rd.key = some key := by rw [hrd]
    rw [hbl]
    have hhd : ([UInt8.ofNat 23, 3, 3] : Bytes) = [23, 3, 3] := rfl
    rw [hhd]
    simp only [decryptRecord, hk, hkey, nextNonce_at hrd W.limit (show n < lim by omega), hopen, hstrip]
    rfl
  refine (content_of_record (r := { r with tr := t }) hd hhs h1).trans ?_
  cases r
  cases hhs
  rfl

/-- reading a message under the handshake keys -/
theorem under_step {r r₂ : Conn} {info : SuiteInfo} {lim w n pad : Nat} {z th data rest : Bytes}
    {m : Handshake} {t' : Transcript} (W : Works E info lim) (hn : n < 4096)
    (hhs : r.inputHandshake = []) (hk : r.cipher = some (hsCipher E info .client z th w n))
    (hl : data.length + 1 + pad + info.tagLength ≤ r.mfl + 256) (hmfl : r.mfl ≤ 16384)
    (hi : r.inputData = sealedUnder E info ((E.spec info.digest).sHs z th) n 22 data pad ++ rest)
    (hmsg : Rfc.Message E m data) (hgood : Rfc.PeerMessage E r.certType m)
    (hu : r.transcript.update data r.config.side.other m.msgType = (.ok true, t'))
    (h2 : Gives (process E (.handshake m)) { r with
      inputData := rest
      cipher := some (hsCipher E info .client z th w (n + 1))
      transcript := t' } () r₂) : Gives (receiveStep E) r true r₂ :=
  receive_step (read_under W hn hmsg.honest hhs hk hl hmfl hi)
    (decodeContent_of_parses (Parses.bind_pure (readMessage hgood hmsg) rfl)) hu h2

theorem client_hello_any {c : Conn} {f : Flight} {info : SuiteInfo} {lim g : Nat}
    {ch random z mine priv chHash : Bytes} {exts : List Ext} (W : Works E info lim)
    (hst : c.state = .clientWaitSH true [(g, priv)] chHash)
    (hs : c.config.cipherSuites.contains info.id = true) (hcs : 1 ≤ c.config.maxFragmentLength)
    (ht : c.transcript.postInit info.digest = .ok ⟨[(info.digest, f.upTo ch 1)], 3⟩)
    (hvs : findExt exts Iana.extSupportedVersions = some (.supportedVersionsResp 0x0304))
    (hks : findExt exts Iana.extKeyShare = some (.keyShareResp g mine)) (hg : kexRegistered g = true) (hz : E.kexResume g priv mine = .ok z) :
    Gives (process E (.handshake (.serverHello random [] info.id (exts)))) c () { c with
      nconfig := some { NConfig.new with cipherSuite := some info.id, keyExchanges := some g }
      serverUnique := some random
      cipher := some (hsCipher E info .client z (E.hash info.digest (f.upTo ch 1)) 0 0)
      transcript := ⟨[(info.digest, f.upTo ch 1)], 3⟩
      outputData := c.outputData ++ recordBytes 20 [1]
      state := .clientWaitEE } := by
  obtain ⟨k, hk1, hki, hkw, hkr, hk2⟩ := fresh_keys W .client z (E.hash info.digest (f.upTo ch 1)) (W.hash_le _)
  refine .of_eq (m := clientWaitSH E true [(g, priv)] chHash
    (.handshake (.serverHello random [] info.id (exts)))) ?_ fun t => by
      simp only [process, hst]
  unfold clientWaitSH
  refine .bind (a := ()) (c₁ := { c with
    nconfig := some { NConfig.new with cipherSuite := some info.id }
    cipher := some (CipherSt.new info .client)
    transcript := ⟨[(info.digest, f.upTo ch 1)], 3⟩
    outputData := c.outputData ++ recordBytes 20 [1] }) ?_ ?_
  · unfold clientSetup
    refine .getBind fun t => ?_
    dsimp only
    rw [if_neg (by rw [hs]; decide), if_pos rfl]
    refine .bind (.mod fun _ => rfl) ?_
    rw [W.suite]
    dsimp only
    refine .bind (.mod fun _ => rfl) ?_
    refine .bind (.postInit ht) ?_
    refine send_clear (x := .changeCipherSpec) (by decide) (by decide) (by simp [hst, St.canSend]) rfl
      (.pure _ _) rfl ?_ (by decide)
    exact hcs
  unfold clientProcessServerHello
  refine .bind (.mod fun _ => rfl) ?_
  refine .bind (a := ()) (by unfold clientNegVersion; rw [hvs]; exact .pure _ _) ?_
  refine .bind (a := z) (c₁ := { c with
    nconfig := some { NConfig.new with cipherSuite := some info.id, keyExchanges := some g }
    cipher := some (CipherSt.new info .client)
    serverUnique := some random
    transcript := ⟨[(info.digest, f.upTo ch 1)], 3⟩
    outputData := c.outputData ++ recordBytes 20 [1] }) ?_ ?_
  · unfold clientNegKeyShare
    rw [hks]
    simp only [List.find?_cons, decide_true]
    rw [if_neg (by rw [hg]; decide)]
    refine .liftBind (by rw [hz]; rfl) ?_
    exact .bind (.setNc rfl rfl) (.pure _ _)
  refine .bind (.skipEarly rfl hk1) ?_
  refine .bind (.digest rfl) ?_
  refine .bind (.deriveHandshake rfl hk2) ?_
  exact .moveTo _

/-- the negotiated configuration of a client after the EncryptedExtensions of any server: the
protocol, if any, and the heartbeat mode, if any -/
def dealWith (gc : Config) (n : NConfig) (p : Option Bytes) (mode : Option Nat) : NConfig :=
  { n with
    maxFragmentLength := some 16384
    alpn := some p
    canSendHeartbeat := some (mode == some Iana.peerAllowedToSend)
    canEchoHeartbeat := some (mode.isSome && gc.canEchoHeartbeat)
    clientCertificateType := some Iana.x509
    serverCertificateType := some Iana.x509 }

theorem client_extensions_any {c : Conn} {n : NConfig} {exts : List Ext} {p : Option Bytes} {mode : Option Nat}
    (hst : c.state = .clientWaitEE) (hn : c.nconfig = some n) (hf : n.frozen = false)
    (h1 : findExt exts Iana.extMaxFragmentLength = none)
    (h2 : findExt exts Iana.extAlpn = p.map fun b => .alpn [b])
    (h3 : findExt exts Iana.extHeartbeat = mode.map .heartbeat)
    (h4 : findExt exts Iana.extClientCertificateType = none)
    (h5 : findExt exts Iana.extServerCertificateType = none)
    (hp : ∀ b, p = some b → c.config.alpn.contains b = true) :
    Gives (process E (.handshake (.encryptedExtensions exts))) c () { c with
      nconfig := some (dealWith c.config n p mode)
      state := .clientWaitCertCr } := by
  refine .of_eq (m := clientWaitEE (.handshake (.encryptedExtensions exts))) ?_
    fun t => by simp only [process, hst]
  unfold clientWaitEE
  refine .bind (a := ()) (c₁ := { c with nconfig := some { n with maxFragmentLength := some 16384 } }) ?_ ?_
  · unfold clientNegMfl
    refine .getBind fun t => ?_
    rw [h1]
    exact .setNc hn hf
  refine .bind (a := ()) (c₁ := { c with nconfig := some { n with
    maxFragmentLength := some 16384, alpn := some p } }) ?_ ?_
  · unfold clientNegAlpn
    refine .getBind fun t => ?_
    rw [h2]
    cases p with
    | none => exact .setNc' rfl hf rfl
    | some b =>
      dsimp only [Option.map]
      rw [if_neg (by rw [hp b rfl]; decide)]
      exact .setNc' rfl hf rfl
  refine .bind (a := ()) (c₁ := { c with nconfig := some { n with
    maxFragmentLength := some 16384, alpn := some p
    canSendHeartbeat := some (mode == some Iana.peerAllowedToSend)
    canEchoHeartbeat := some (mode.isSome && c.config.canEchoHeartbeat) } }) ?_ ?_
  · unfold clientNegHeartbeat
    refine .getBind fun t => ?_
    rw [h3]
    cases mode with
    | none => exact .bind (.setNc' rfl hf rfl) (.setNc' rfl hf rfl)
    | some m =>
      dsimp only [Option.map]
      exact .bind (.setNc' rfl hf rfl) (.setNc' rfl hf rfl)
  refine .bind (a := ()) (c₁ := { c with nconfig := some { n with
    maxFragmentLength := some 16384, alpn := some p
    canSendHeartbeat := some (mode == some Iana.peerAllowedToSend)
    canEchoHeartbeat := some (mode.isSome && c.config.canEchoHeartbeat)
    clientCertificateType := some Iana.x509 } }) ?_ ?_
  · unfold clientNegCct
    refine .getBind fun t => ?_
    rw [h4]
    exact .setNc' rfl hf rfl
  refine .bind (a := ()) (c₁ := { c with nconfig := some (dealWith c.config n p mode) }) ?_ ?_
  · unfold clientNegSct
    refine .getBind fun t => ?_
    rw [h5]
    exact .setNc' rfl hf rfl
  exact .moveTo _

/-- the client gets the reply of a server and sends its Finished -/
theorem client_reply {r : Conn} {y : Reply} {info : SuiteInfo} {lim g : Nat}
    {ch chHash z priv fin pub : Bytes} {algs : List HashAlg} {j : Nat} {p : Option Bytes} {mode : Option Nat}
    (W : Works E info lim) (hside : r.config.side = .client)
    (hst : r.state = .clientWaitSH true [(g, priv)] chHash)
    (hn : r.nconfig = none) (hk : r.cipher = none) (hhs : r.inputHandshake = [])
    (ht : r.transcript = ⟨algs.map (·, ch), 2⟩) (ha : info.digest ∈ algs) (hid : info.id = y.suite)
    (hm0 : 1 ≤ r.config.maxFragmentLength) (hm1 : r.config.maxFragmentLength ≤ 16384)
    (C : Conforms E r.config info g ch z y)
    (hg : kexRegistered g = true) (hz : E.kexResume g priv y.share = .ok z)
    (h2 : findExt y.encrypted Iana.extAlpn = p.map fun b => .alpn [b])
    (h3 : findExt y.encrypted Iana.extHeartbeat = mode.map .heartbeat)
    (hp : ∀ b, p = some b → r.config.alpn.contains b = true)
    (hv : Trusts E r y.leaf y.rest none j) (hreg : sigRegistered y.scheme = true)
    (hpub : E.certPub y.leaf = .ok pub)
    (hsig : E.verify y.scheme pub y.sig (signedContent (E.hash info.digest (ch ++ y.sh ++ y.ee ++ y.ct))) = .ok ())
    (hfin : serHandshake E (.finished (E.hmac info.digest ((E.spec info.digest).finishedKey
      ((E.spec info.digest).cHs z (E.hash info.digest (ch ++ y.sh))))
        (E.hash info.digest (ch ++ y.sh ++ y.ee ++ y.ct ++ y.cv ++ y.fin)))) = .ok fin) (hl : fin.length ≤ 16000)
    (hi : r.inputData = y.bytes E info ch z) :
    Digests E r { r with
      inputData := []
      nconfig := some { dealWith r.config { NConfig.new with
          cipherSuite := some info.id, keyExchanges := some g } p mode with
        peerCertificate := some y.leaf, signatureAlgorithm := some y.scheme }
      serverUnique := some y.random
      cipher := some (apCipher E info .client z
        (E.hash info.digest (ch ++ y.sh ++ y.ee ++ y.ct ++ y.cv ++ y.fin)) 0 0)
      transcript := ⟨[(info.digest, ch ++ y.sh ++ y.ee ++ y.ct ++ y.cv ++ y.fin ++ fin)], 12⟩
      outputData := r.outputData ++ recordBytes 20 [1] ++
        hsRecord E info .client z (E.hash info.digest (ch ++ y.sh)) 0 fin
      draws := if r.config.requirePeerAuth then r.draws + 1 + j else r.draws
      state := .connected } := by
  obtain ⟨l1, l2, l3, l4, l5⟩ := C.fits
  have hs : r.config.cipherSuites.contains info.id = true := by rw [hid]; simpa using C.suite
  have hsch : r.config.signatureAlgorithms.contains y.scheme = true := by simpa using C.scheme.1
  have hnd : ∀ {k l}, Rfc.PeerExts E k l → (l.map Ext.type).Nodup := by
    intro k l h
    rw [show Ext.type = Rfc.extensionCode from funext type_code]
    exact h.1
  have hvs : findExt y.hello Iana.extSupportedVersions = some (.supportedVersionsResp 0x0304) :=
    findExt_of_mem (hnd C.serverHello.2.2) C.version
  have hks : findExt y.hello Iana.extKeyShare = some (.keyShareResp g y.share) :=
    findExt_of_mem (hnd C.serverHello.2.2) C.share
  have hno : ∀ t ∈ [1, 19, 20], findExt y.encrypted t = none := by
    intro t ht
    refine List.find?_eq_none.mpr fun e he => ?_
    have := C.unasked e he
    rw [← type_code] at this
    simp only [decide_eq_true_eq]
    rintro rfl
    exact this ht
  have hsecret : y.secret E info ch z = (E.spec info.digest).sHs z (E.hash info.digest (ch ++ y.sh)) := rfl
  have hF := C.finished
  have hm : r.mfl = r.config.maxFragmentLength := by unfold Conn.mfl; rw [hn]; rfl
  unfold Reply.bytes at hi
  rw [hsecret] at hi hF
  let f : Flight := ⟨y.sh, y.ee, y.ct, y.cv, y.fin⟩
  generalize hth : E.hash info.digest (ch ++ y.sh) = th at hi hF ⊢ hfin
  obtain ⟨config, hostname, hasOcsp, nconfig, cipher, signature, transcript, inputData, inputHandshake,
    outputData, applicationData, clientUnique, serverUnique, state, draws, tr⟩ := r
  dsimp only at hside hst hn hk hhs ht hm0 hm1 hs hp hsch hi l1 l2 ⊢
  subst hst hn hk hhs ht hi
  let r₀ : Conn := ⟨config, hostname, hasOcsp, none, none, signature, ⟨algs.map (·, ch), 2⟩, [], [],
    outputData, applicationData, clientUnique, serverUnique, .clientWaitSH true [(g, priv)] chHash, draws, tr⟩
  let hs' := (E.spec info.digest).sHs z th
  let w₄ := sealedUnder E info hs' 3 22 y.fin (y.pad 3)
  let w₃ := sealedUnder E info hs' 2 22 y.cv (y.pad 2) ++ w₄
  let w₂ := sealedUnder E info hs' 1 22 y.ct (y.pad 1) ++ w₃
  let w₁ := sealedUnder E info hs' 0 22 y.ee (y.pad 0) ++ w₂
  let w₀ := (if y.ccs then recordBytes 20 [1] else []) ++ w₁
  -- ServerHello
  refine .step (r₁ := { r₀ with
      inputData := w₀
      nconfig := some { NConfig.new with cipherSuite := some info.id, keyExchanges := some g }
      serverUnique := some y.random
      cipher := some (hsCipher E info .client z th 0 0)
      transcript := ⟨[(info.digest, ch ++ y.sh)], 3⟩
      outputData := outputData ++ recordBytes 20 [1]
      state := .clientWaitEE }) ?_ rfl rfl ?_
  · refine receive_step (m := .serverHello y.random [] y.suite y.hello) (b := true)
      (t' := ⟨algs.map (·, ch ++ y.sh), 3⟩)
      (read_clear C.serverHello.1.honest rfl rfl (by rw [hm]; exact l1) (by omega) rfl)
      (decodeContent_of_parses (Parses.bind_pure (readMessage C.serverHello.2 C.serverHello.1) rfl)) ?_ ?_
    · show Transcript.update _ _ config.side.other _ = _
      rw [hside]
      exact hello_answered _ _ _
    · have := client_hello_any (f := f) (ch := ch) (c := { r₀ with
        inputData := w₀
        transcript := ⟨algs.map (·, ch ++ y.sh), 3⟩ }) (random := y.random) (exts := y.hello) W rfl hs hm0
        (postInit_algs _ _ ha) hvs hks hg hz
      rw [show f.upTo ch 1 = ch ++ y.sh from rfl, hth, hid] at this
      rw [hid]
      exact this
  -- EncryptedExtensions
  refine .step (r₁ := { r₀ with
      inputData := w₂
      nconfig := some (dealWith config { NConfig.new with
          cipherSuite := some info.id, keyExchanges := some g } p mode)
      serverUnique := some y.random
      cipher := some (hsCipher E info .client z th 0 1)
      transcript := ⟨[(info.digest, ch ++ y.sh ++ y.ee)], 4⟩
      outputData := outputData ++ recordBytes 20 [1]
      state := .clientWaitCertCr }) ?_ (rekey_hs W (by omega) rfl) rfl ?_
  · have hstep : ∀ w, w = w₁ → Gives (receiveStep E) { r₀ with
        inputData := w
        nconfig := some { NConfig.new with cipherSuite := some info.id, keyExchanges := some g }
        serverUnique := some y.random
        cipher := some (hsCipher E info .client z th 0 0)
        transcript := ⟨[(info.digest, ch ++ y.sh)], 3⟩
        outputData := outputData ++ recordBytes 20 [1]
        state := .clientWaitEE } true _ := fun w hw =>
      under_step (t' := ⟨[(info.digest, ch ++ y.sh ++ y.ee)], 4⟩) W (by omega) rfl rfl l2 hm1 hw
        C.encryptedExtensions.1 C.encryptedExtensions.2
        (by show Transcript.update _ _ config.side.other _ = _
            rw [hside]; rfl)
        (client_extensions_any rfl rfl rfl (hno 1 (by decide)) h2 h3 (hno 19 (by decide)) (hno 20 (by decide)) hp)
    cases hc : y.ccs with
    | false =>
      have : w₀ = w₁ := by show (if y.ccs then _ else _) ++ w₁ = w₁; rw [hc]; rfl
      exact hstep _ this
    | true =>
      have : w₀ = recordBytes 20 [1] ++ w₁ := by show (if y.ccs then _ else _) ++ w₁ = _; rw [hc]; rfl
      exact of_ccs this (hstep _ rfl)
  -- Certificate
  refine .step (r₁ := { r₀ with
      inputData := w₃
      nconfig := some { dealWith config { NConfig.new with
          cipherSuite := some info.id, keyExchanges := some g } p mode with peerCertificate := some y.leaf }
      serverUnique := some y.random
      cipher := some (hsCipher E info .client z th 0 2)
      transcript := ⟨[(info.digest, ch ++ y.sh ++ y.ee ++ y.ct)], 6⟩
      outputData := outputData ++ recordBytes 20 [1]
      draws := if config.requirePeerAuth then draws + 1 + j else draws
      state := .clientWaitCV false (E.hash info.digest (ch ++ y.sh ++ y.ee ++ y.ct)) }) ?_
        (rekey_hs W (by omega) rfl) rfl ?_
  · refine under_step (t' := ⟨[(info.digest, ch ++ y.sh ++ y.ee ++ y.ct)], 6⟩) W (by omega) rfl rfl l3
      (Nat.le_refl _) rfl C.certificate ?_ ?_ (client_certificate (staple := none) rfl rfl rfl rfl rfl hv)
    · show Rfc.PeerMessage E (some (match config.side with | .client => _ | .server => _)) _
      rw [hside]
      refine .inl ⟨rfl, fun x hx => ?_⟩
      obtain ⟨c, hc, rfl⟩ := List.mem_map.mp hx
      exact ⟨c, [], rfl, C.loads c hc, by simp, by simp⟩
    · show Transcript.update _ _ config.side.other _ = _
      rw [hside]; rfl
  -- CertificateVerify
  refine .step (r₁ := { r₀ with
      inputData := w₄
      nconfig := some { dealWith config { NConfig.new with
          cipherSuite := some info.id, keyExchanges := some g } p mode with
        peerCertificate := some y.leaf, signatureAlgorithm := some y.scheme }
      serverUnique := some y.random
      cipher := some (hsCipher E info .client z th 0 3)
      transcript := ⟨[(info.digest, ch ++ y.sh ++ y.ee ++ y.ct ++ y.cv)], 7⟩
      outputData := outputData ++ recordBytes 20 [1]
      draws := if config.requirePeerAuth then draws + 1 + j else draws
      state := .clientWaitFin false (E.hash info.digest (ch ++ y.sh ++ y.ee ++ y.ct ++ y.cv)) }) ?_
        (rekey_hs W (by omega) rfl) rfl ?_
  · refine under_step (t' := ⟨[(info.digest, ch ++ y.sh ++ y.ee ++ y.ct ++ y.cv)], 7⟩) W (by omega) rfl rfl l4
      (Nat.le_refl _) rfl C.certificateVerify trivial ?_ ?_
    · show Transcript.update _ _ config.side.other _ = _
      rw [hside]; rfl
    · exact client_verify (n := { dealWith config { NConfig.new with
          cipherSuite := some info.id, keyExchanges := some g } p mode with peerCertificate := some y.leaf })
        rfl rfl rfl rfl rfl hsch hreg hpub (by rw [signedContent_eq]; exact hsig) rfl
  -- Finished
  refine .step ?_ (rekey_hs W (by omega) rfl) rfl (.done rfl (rekey_ap W (by omega) rfl))
  refine under_step (t' := ⟨[(info.digest, ch ++ y.sh ++ y.ee ++ y.ct ++ y.cv ++ y.fin)], 8⟩) (rest := []) W
      (by omega) rfl rfl l5 (Nat.le_refl _) (by rw [List.append_nil]) hF trivial ?_ ?_
  · show Transcript.update _ _ config.side.other _ = _
    rw [hside]; rfl
  · exact client_finished (c := { r₀ with
      inputData := []
      nconfig := some { dealWith config { NConfig.new with
          cipherSuite := some info.id, keyExchanges := some g } p mode with
        peerCertificate := some y.leaf, signatureAlgorithm := some y.scheme }
      serverUnique := some y.random
      cipher := some (hsCipher E info .client z th 0 4)
      transcript := ⟨[(info.digest, ch ++ y.sh ++ y.ee ++ y.ct ++ y.cv ++ y.fin)], 8⟩
      outputData := outputData ++ recordBytes 20 [1]
      draws := if config.requirePeerAuth then draws + 1 + j else draws
      state := .clientWaitFin false (E.hash info.digest (ch ++ y.sh ++ y.ee ++ y.ct ++ y.cv)) })
      W hside rfl rfl rfl rfl rfl hfin hl

theorem hsRecord_under (info : SuiteInfo) (z th data : Bytes) (n : Nat) :
    ∃ pad, hsRecord E info .client z th n data =
      sealedUnder E info ((E.spec info.digest).cHs z th) n 22 data pad := by
  refine ⟨padLength 16384 data.length info.tagLength, ?_⟩
  have hin : data ++ [UInt8.ofNat 22] ++ List.replicate (padLength 16384 data.length info.tagLength) 0 =
      innerText 16384 info.tagLength 22 data := by
    rw [innerText, beEnc_one, zeros, List.append_assoc]
  unfold hsRecord sealedRecord sealedUnder
  dsimp only [bySide]
  rw [hin, sealedHeader, beEnc_two]

/-- the protocol and the heartbeat mode in the EncryptedExtensions of a peer -/
theorem encrypted_found {gc : Config} {l : List Ext} (hp : Rfc.PeerExts E .encryptedExtensions l)
    (ha : ∀ ps, .alpn ps ∈ l → ∃ p ∈ gc.alpn, ps = [p]) :
    ∃ (p : Option Bytes) (mode : Option Nat), findExt l Iana.extAlpn = p.map (fun b => .alpn [b]) ∧
      findExt l Iana.extHeartbeat = mode.map .heartbeat ∧
      (∀ b, p = some b → gc.alpn.contains b = true) ∧
      (∀ q, p = some q ↔ .alpn [q] ∈ l) ∧ (∀ m, mode = some m ↔ .heartbeat m ∈ l) := by
  have hnd : (l.map Ext.type).Nodup := by
    rw [show Ext.type = Rfc.extensionCode from funext type_code]
    exact hp.1
  have hA : ∃ p : Option Bytes, findExt l Iana.extAlpn = p.map (fun b => .alpn [b]) ∧
      (∀ b, p = some b → gc.alpn.contains b = true) ∧ (∀ q, p = some q ↔ .alpn [q] ∈ l) := by
    cases hf : findExt l Iana.extAlpn with
    | none =>
      refine ⟨none, rfl, by simp, fun q => ⟨by simp, fun h => ?_⟩⟩
      exact absurd rfl (findExt_none hf h)
    | some e =>
      have hm := findExt_mem hf
      have ht : e.type = Iana.extAlpn := by simpa using List.find?_some hf
      obtain ⟨ps, rfl⟩ : ∃ ps, e = .alpn ps := by
        have hl := (hp.2 e hm).1
        cases e <;> first | exact ⟨_, rfl⟩ | (exfalso; revert ht; simp [Ext.type, Iana.extAlpn]; done) | skip
        case unknown t b =>
          exfalso
          have : t = 16 := ht
          subst this
          simp [legal] at hl
      obtain ⟨p, h1, rfl⟩ := ha ps hm
      refine ⟨some p, rfl, ?_, fun q => ⟨?_, fun h => ?_⟩⟩
      · rintro b ⟨⟩
        simpa using h1
      · rintro ⟨⟩
        exact hm
      · have := findExt_of_mem hnd h
        rw [show (Ext.alpn [q]).type = Iana.extAlpn from rfl, hf] at this
        simpa using this
  have hH : ∃ mode : Option Nat, findExt l Iana.extHeartbeat = mode.map .heartbeat ∧
      (∀ m, mode = some m ↔ .heartbeat m ∈ l) := by
    cases hf : findExt l Iana.extHeartbeat with
    | none =>
      refine ⟨none, rfl, fun q => ⟨by simp, fun h => ?_⟩⟩
      exact absurd rfl (findExt_none hf h)
    | some e =>
      have hm := findExt_mem hf
      have ht : e.type = Iana.extHeartbeat := by simpa using List.find?_some hf
      obtain ⟨m, rfl⟩ : ∃ m, e = .heartbeat m := by
        have hl := (hp.2 e hm).1
        cases e <;> first | exact ⟨_, rfl⟩ | (exfalso; revert ht; simp [Ext.type, Iana.extHeartbeat]; done) | skip
        case unknown t b =>
          exfalso
          have : t = 15 := ht
          subst this
          simp [legal] at hl
      refine ⟨some m, rfl, fun q => ⟨?_, fun h => ?_⟩⟩
      · rintro ⟨⟩
        exact hm
      · have := findExt_of_mem hnd h
        rw [show (Ext.heartbeat q).type = Iana.extHeartbeat from rfl, hf] at this
        simpa using this
  obtain ⟨p, a1, a2, a3⟩ := hA
  obtain ⟨m, b1, b2⟩ := hH
  exact ⟨p, m, a1, b1, a2, a3, b2⟩

end Siotls
