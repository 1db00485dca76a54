import Verif.Proofs.Smooth
import Verif.Proofs.NegClient
/-!
# An honest client and an honest server, flight by flight
-/

namespace Siotls
open Spec Serial

variable {E : Env}

/-! ## The first flight of a client -/

theorem makeRecords_plain {ct : Nat} : ∀ (fs : List Bytes) (c : Conn), (∀ f ∈ fs, f.length < 65536) →
    makeRecords E false ct fs c = (.ok (fs.map fun f => (ct, f, recordBytes ct f)), c) := by
  intro fs
  induction fs with
  | nil => intro c _; rfl
  | cons f fs ih =>
    intro c hf
    have hh : recordHeader ct f.length = .ok _ := recordHeader_ok (hf f List.mem_cons_self)
    have hb := recordHeader_bytes hh
    have ih := ih c fun f hf' => hf f (List.mem_cons_of_mem _ hf')
    simp only [makeRecords, protect, M.bind_def, M.pure, M.lift, Bool.false_eq_true, if_false]
    rw [hh]
    dsimp only
    rw [ih, List.map_cons, ← hb]
    rfl

theorem send_plain {x : Content} {data : Bytes} {fs : List Bytes} {c : Conn} {t' : Transcript}
    (h23 : x.ctype ≠ 23) (h24 : x.ctype ≠ 24) (hcan : c.state.canSend = true)
    (hser : serContent E x = .ok data)
    (hh : Gives (hashContent data c.config.side x) c () { c with transcript := t' })
    (hm : c.mustEncrypt = false) (hfr : splitFragments c.mfl x.canFragment data = .ok fs)
    (hlen : ∀ f ∈ fs, f.length < 65536) :
    Gives (sendContent E x) c () { c with
      transcript := t', outputData := c.outputData ++ wireOf (fs.map fun f => (x.ctype, f)) } := by
  unfold sendContent
  refine Gives.getBind fun t => ?_
  dsimp only
  rw [if_neg (fun h => h23 h.1), if_neg (by simp [hcan]), if_neg h24]
  refine Gives.liftBind hser (Gives.bind hh ?_)
  have hm' : ∀ t, Conn.mustEncrypt { c with tr := t } = false := fun _ => hm
  rw [hm' t]
  simp only [Bool.false_eq_true, if_false]
  refine Gives.liftBind hfr ?_
  refine Gives.bind (c₁ := { c with transcript := t' }) (fun t => ⟨t, makeRecords_plain fs _ hlen⟩) ?_
  intro t
  refine ⟨.sent x :: (((fs.map fun f => (x.ctype, f, recordBytes x.ctype f)).map
    fun r => Ev.record r.1 r.2.1).reverse ++ t), ?_⟩
  simp only [emitRecords, M.modify, List.map_map, wireOf]
  rfl

/-- the extensions of a first ClientHello -/
def offerOf (E : Env) (c : Conn) (g : Nat) (share : Bytes) : List Ext :=
  clientExtensions E c none ++ [.keyShareReq [(g, share)]]

theorem dict_offer (c : Conn) (g : Nat) (share : Bytes) : dictOfExts (offerOf E c g share) = offerOf E c g share :=
  dictOfExts_eq_of_nodup _ (offer_nodup c none _)

/-- the pieces of the ClientHello: the first one holds its header, none is empty -/
structure Cut (ch : Bytes) (fs : List Bytes) : Prop where
  flat : fs.flatten = ch
  first : ∃ f fs', fs = f :: fs' ∧ 4 ≤ f.length ∧ ∀ g ∈ fs', g ≠ []
  small : ∀ f ∈ fs, f.length ≤ 16384

theorem cut_of_split {ch : Bytes} {fs : List Bytes} {cf : Bool} {m : Nat} (hm₁ : 4 ≤ m) (hm₂ : m ≤ 16384)
    (hh : HonestMsg ch) (h : splitFragments (m : Int) cf ch = .ok fs) : Cut ch fs := by
  obtain ⟨hflat, hle, hone⟩ := splitFragments_ok (by omega) h
  refine ⟨hflat, ?_, fun f hf => by have := hle f hf; omega⟩
  rcases hone with ⟨_, rfl⟩ | ⟨hbig, hcf, rest, hr⟩
  · exact ⟨ch, [], rfl, hh.1, by simp⟩
  · refine ⟨_, rest, hr, by simp; omega, ?_⟩
    unfold splitFragments at h
    rw [if_neg (by omega), if_pos hcf, if_neg (by omega), if_neg (by omega)] at h
    cases h
    intro g hg
    exact ((chunksOf_facts (n := ((m : Int)).toNat) (by omega) ch.length ch
      (Nat.le_refl _)).2.1 g (by rw [hr]; exact List.mem_cons_of_mem _ hg)).2

theorem hello_hashed (algs : List HashAlg) (ch : Bytes) :
    Transcript.update ⟨algs.map (·, []), 1⟩ ch .client 1 = (.ok true, ⟨algs.map (·, ch), 2⟩) := by
  have : Transcript.update ⟨algs.map (·, []), 1⟩ ch .client 1 =
      (.ok true, ⟨(algs.map fun a => (a, ([] : Bytes))).map fun h => (h.1, h.2 ++ ch), 2⟩) := rfl
  rw [this, List.map_map]
  rfl

/-- what a client that started has done -/
theorem client_start {c c' : Conn} {algs : List HashAlg} {rnd : Bytes}
    (hst : c.state = .clientStart none) (hside : c.config.side = .client) (hn : c.nconfig = none)
    (hk : c.cipher = none) (hu : c.clientUnique = some rnd)
    (ht : c.transcript = ⟨algs.map (·, []), 1⟩) (hne : algs ≠ [])
    (hm₁ : 4 ≤ c.config.maxFragmentLength) (hm₂ : c.config.maxFragmentLength ≤ 16384)
    (h : Siotls.initiate E c = (.ok (), c')) :
    ∃ g gs priv share ch fs hash t, c.config.keyExchanges = g :: gs ∧ kexRegistered g = true ∧
      E.kexInit g c.draws = .ok (priv, share) ∧
      serHandshake E (.clientHello rnd [] c.config.cipherSuites (offerOf E c g share)) = .ok ch ∧
      Cut ch fs ∧ c' = { c with
        draws := c.draws + 1
        transcript := ⟨algs.map (·, ch), 2⟩
        outputData := c.outputData ++ wireOf (fs.map fun f => (22, f))
        state := .clientWaitSH true [(g, priv)] hash
        tr := t } := by
  rw [Siotls.initiate, hst] at h
  dsimp only at h
  have hfull := h
  unfold clientInitiate at h
  obtain ⟨_, _, h0, h⟩ := M.bind_ok.mp h
  cases h0
  rw [hu] at h
  cases hg : c.config.keyExchanges with
  | nil => rw [hg] at h; cases h
  | cons g gs =>
  rw [hg] at h
  dsimp only at h
  cases hreg : kexRegistered g with
  | false => rw [hreg] at h; cases h
  | true =>
  rw [hreg, if_neg (by simp)] at h
  obtain ⟨⟨priv, share⟩, c₁, h1, h⟩ := M.bind_ok.mp h
  have hkx : E.kexInit g c.draws = .ok (priv, share) ∧ c₁ = { c with draws := c.draws + 1 } := by
    unfold kexInit at h1
    obtain ⟨d, c₂, h2, h1⟩ := M.bind_ok.mp h1
    cases h2
    simp only [M.lift, Prod.mk.injEq] at h1
    exact ⟨h1.1, h1.2.symm⟩
  obtain ⟨hkx, rfl⟩ := hkx
  dsimp only at h
  obtain ⟨hello, c₂, h2, h⟩ := M.bind_ok.mp h
  simp only [M.lift, Prod.mk.injEq] at h2
  obtain ⟨h2, rfl⟩ := h2
  have hform := mkClientHello_form h2
  rw [show clientExtensions E c none ++ [Ext.keyShareReq [(g, share)]] = offerOf E c g share from rfl,
    dict_offer] at hform
  obtain ⟨_, c₃, h3, h⟩ := M.bind_ok.mp h
  obtain ⟨ch, fs, rs, hw⟩ := sendContent_wrote h3
  have hser : serHandshake E (.clientHello rnd [] c.config.cipherSuites (offerOf E c g share)) = .ok ch := by
    have := hw.ser
    rw [hform] at this
    exact this
  have hfr := hw.frag
  have hmfl : Conn.mfl { c with draws := c.draws + 1 } = c.config.maxFragmentLength := by
    unfold Conn.mfl; dsimp only; rw [hn]; rfl
  have hme : Conn.mustEncrypt { c with draws := c.draws + 1 } = false := by
    simp [Conn.mustEncrypt, hk]
  have hfl : Conn.fragLen { c with draws := c.draws + 1 } = (c.config.maxFragmentLength : Int) := by
    unfold Conn.fragLen
    rw [hme, hmfl]
    rfl
  rw [hfl] at hfr
  have hcut := cut_of_split hm₁ hm₂ (serHandshake_honest hser) hfr
  obtain ⟨a, as, rfl⟩ := List.exists_cons_of_ne_nil hne
  have hg' : Gives (clientInitiate E none) c () { c with
        draws := c.draws + 1
        transcript := ⟨(a :: as).map (·, ch), 2⟩
        outputData := c.outputData ++ wireOf (fs.map fun f => (22, f))
        state := .clientWaitSH true [(g, priv)] (E.hash a ch) } := by
    unfold clientInitiate
    refine .getBind fun t => ?_
    dsimp only
    split
    · next e1 => rw [hg] at e1; cases e1
    · next e1 _ => rw [hu] at e1; cases e1
    next e1 e2 =>
    rw [hg] at e1
    rw [hu] at e2
    cases e1
    cases e2
    rw [hreg, if_neg (by simp)]
    refine .bind (a := (priv, share)) (c₁ := { c with draws := c.draws + 1 }) ?_ ?_
    · unfold kexInit
      exact .bind .nextDraw (.lift hkx _)
    refine .liftBind (a := .clientHello rnd [] c.config.cipherSuites (offerOf E c g share))
      (h2.trans (by rw [hform])) ?_
    refine .bind (send_plain (c := { c with draws := c.draws + 1 }) (fs := fs)
      (t' := ⟨(a :: as).map (·, ch), 2⟩) (hs_ctype _).1 (hs_ctype _).2 ?_ hser
      (hash_handshake (b := true) ?_) hme ?_ (fun f hf => by have := hcut.small f hf; omega)) ?_
    · dsimp only; rw [hst]; rfl
    · dsimp only
      rw [ht, hside]
      exact hello_hashed _ _
    · rw [hmfl, ← hfr, hform]
    refine .bind (.digest rfl) ?_
    refine .getBind fun t => ?_
    dsimp only
    rw [show c.nconfig.isNone = true by rw [hn]; rfl]
    exact .moveTo _
  obtain ⟨t, hfin⟩ := hg'.final
  rw [hfull] at hfin
  cases hfin
  exact ⟨g, gs, priv, share, ch, fs, _, t, rfl, hreg, hkx, hser, hcut, rfl⟩

/-! ## Reading -/

theorem Gives.of_eq' {α} {m : M α} {c c' c₀ : Conn} {a : α} (h : Gives m c a c')
    (he : ∀ t, m { c₀ with tr := t } = m { c with tr := t }) : Gives m c₀ a c' := by
  intro t
  rw [he]
  exact h t

theorem recs_plain (mfl : Nat) : ∀ fs : List Bytes, (∀ f ∈ fs, f.length < 65536) →
    Recs E mfl none (fs.map fun f => (22, f)) (fs.map fun f => (22, f)) none
  | [], _ => .nil _
  | f :: fs, h => .plain (by intro k hk; cases hk) (h f List.mem_cons_self)
      (recs_plain mfl fs fun f hf => h f (List.mem_cons_of_mem _ hf))

theorem read_hello {r : Conn} {ch : Bytes} {fs : List Bytes} (hO : E.Opens) (hcut : Cut ch fs)
    (hh : HonestMsg ch) (hk : r.cipher = none) (hhs : r.inputHandshake = []) (hm : r.mfl = 16384)
    (hi : r.inputData = wireOf (fs.map fun f => (22, f))) :
    Gives (readNextContent E) r (some (22, ch)) { r with inputData := [] } := by
  intro t
  obtain ⟨f, fs', rfl, h4, hne⟩ := hcut.first
  have hrec := recs_plain (E := E) 16384 (f :: fs') fun f hf => by have := hcut.small f hf; omega
  obtain ⟨r', h1, h2, h3⟩ := reads_handshake (r := { r with tr := t }) (rest := []) hO hrec
    (.inl ⟨by simp, by simp [hk]⟩) h4 (by rw [hcut.flat]; exact hh) hne hhs
    (by
      intro x hx
      obtain ⟨f, hf, rfl⟩ := List.mem_map.mp hx
      have h1 : f.length ≤ 16384 := hcut.small f hf
      have h2 : 16384 ≤ Conn.recordLimit { r with tr := t } := by
        unfold Conn.recordLimit
        rw [show Conn.mfl { r with tr := t } = 16384 from hm]
        exact Nat.le_add_right _ _
      exact Nat.le_trans h1 h2) (by rw [List.append_nil]; exact hi)
  have hc : r'.cipher = r.cipher := by
    have := h2.wr
    dsimp only at this
    rw [hk] at this ⊢
    cases hr : r'.cipher with
    | none => rfl
    | some k => rw [hr] at this; cases this
  refine ⟨r'.tr, ?_⟩
  rw [hcut.flat] at h1
  cases h1 with
  | next h1 h1' =>
    cases h1'
    rw [h1]
    have := h2.same
    rw [hc] at this
    rw [this]
    simp

theorem hs_peer (E : Env) (info : SuiteInfo) (side : Side) (z th data : Bytes) (w n : Nat) :
    ∃ key iv, (hsCipher E info side z th w n).rd = ⟨some key, some iv, some n⟩ ∧
      hsRecord E info side.other z th n data = sealedRecord E info 16384 key iv n 22 data ∧
      { hsCipher E info side z th w n with rd := ⟨some key, some iv, some (n + 1)⟩ } =
        hsCipher E info side z th w (n + 1) := by
  refine ⟨_, _, rfl, ?_, rfl⟩
  cases side <;> simp only [hsRecord, Side.other, bySide]

theorem read_hs {r : Conn} {info : SuiteInfo} {lim w n : Nat} {side : Side} {z th data rest : Bytes}
    (W : Works E info lim) (hn : n < 4096) (hd : HonestMsg data) (hhs : r.inputHandshake = [])
    (hk : r.cipher = some (hsCipher E info side z th w n))
    (hm : r.mfl = 16384 ∨ r.mfl = 4096 ∧ data.length ≤ 4000)
    (hl : data.length ≤ 16000) (hi : r.inputData = hsRecord E info side.other z th n data ++ rest) :
    Gives (readNextContent E) r (some (22, data)) { r with
      inputData := rest, cipher := some (hsCipher E info side z th w (n + 1)) } := by
  have hlim := W.lim_ge
  have htag := W.tag
  have hp := padded_small (mfl := 16384) (tag := info.tagLength) (n := data.length)
    (by simp [GoodMfl]) (by omega)
  rw [← innerText_padded (by omega) 22] at hp
  have hp' : (innerText 16384 info.tagLength 22 data).length + info.tagLength ≤ r.mfl + 256 := by
    rcases hm with hm | ⟨hm, hs⟩
    · rw [hm]; omega
    · rw [hm, innerText_padded (by omega) 22, paddedLength, min16384]
      omega
  have hm' : r.mfl ≤ 16384 := by omega
  have hn' : n < lim := by omega
  obtain ⟨key, iv, h1, h2, h3⟩ := hs_peer E info side z th data w n
  rw [h2] at hi
  have := read_sealed (k := hsCipher E info side z th w n) (mfl := 16384) W.opens W.seals W.suite hd hhs
      hk h1 W.limit hn' hp' hm' hi
  rw [h3] at this
  exact this

theorem rekey_hs {c : Conn} {info : SuiteInfo} {lim w n : Nat} {side : Side} {z th : Bytes}
    (W : Works E info lim) (hw : w < 4096) (hk : c.cipher = some (hsCipher E info side z th w n)) :
    shouldRekey c = .ok false := by
  have hlim := W.lim_ge
  unfold shouldRekey
  rw [hk]
  dsimp only [hsCipher, dirAt]
  rw [W.limit]
  dsimp only
  rw [if_pos (by omega)]
  simp [rekeyThreshold]
  omega

theorem rekey_ap {c : Conn} {info : SuiteInfo} {lim w n : Nat} {side : Side} {z th : Bytes}
    (W : Works E info lim) (hw : w < 11862259) (hk : c.cipher = some (apCipher E info side z th w n)) :
    shouldRekey c = .ok false := by
  have hlim := W.lim_ge
  unfold shouldRekey
  rw [hk]
  dsimp only [apCipher, dirAt]
  rw [W.limit]
  dsimp only
  rw [if_pos (by omega)]
  simp [rekeyThreshold]
  omega

theorem rekey_none {c : Conn} (hk : c.cipher = none) : shouldRekey c = .ok false := by
  unfold shouldRekey; rw [hk]

theorem postInit_algs {algs : List HashAlg} {a : HashAlg} (d : Bytes) (i : Nat) (h : a ∈ algs) :
    Transcript.postInit ⟨algs.map (·, d), i⟩ a = .ok ⟨[(a, d)], i⟩ := by
  have : (algs.map fun b => (b, d)).find? (·.1 = a) = some (a, d) := by
    induction algs with
    | nil => cases h
    | cons b bs ih =>
      rw [List.map_cons, List.find?_cons]
      by_cases hb : b = a
      · simp [hb]
      · rcases List.mem_cons.mp h with rfl | h
        · exact absurd rfl hb
        · simp only [hb, decide_false]
          exact ih h
  unfold Transcript.postInit
  dsimp only
  rw [this]

/-- reading a message under the handshake keys -/
theorem hs_step {r r₂ : Conn} {info : SuiteInfo} {lim w n : Nat} {side : Side} {z th data rest : Bytes}
    {m : Handshake} {t' : Transcript} (W : Works E info lim) (hn : n < 4096)
    (hhs : r.inputHandshake = []) (hk : r.cipher = some (hsCipher E info side z th w n))
    (hm : r.mfl = 16384 ∨ r.mfl = 4096 ∧ data.length ≤ 4000) (hl : data.length ≤ 16000)
    (hi : r.inputData = hsRecord E info side.other z th n data ++ rest)
    (hser : serHandshake E m = .ok data) (hgood : GoodMsg E r.certType m)
    (hu : r.transcript.update data r.config.side.other m.msgType = (.ok true, t'))
    (h2 : Gives (process E (.handshake m)) { r with
      inputData := rest
      cipher := some (hsCipher E info side z th w (n + 1))
      transcript := t' } () r₂) : Gives (receiveStep E) r true r₂ :=
  receive_step (read_hs W hn (serHandshake_honest hser) hhs hk hm hl hi) (decode_serHandshake hgood hser)
    hu h2

/-- a change_cipher_spec record in front changes nothing -/
theorem of_ccs {r r' : Conn} {w : Bytes} {b : Bool} (hi : r.inputData = recordBytes 20 [1] ++ w)
    (h : Gives (receiveStep E) { r with inputData := w } b r') : Gives (receiveStep E) r b r' := by
  refine h.of_eq' fun t => ?_
  rw [receiveStep_eq, receiveStep_eq]
  have : readNextContent E { r with tr := t } = readNextContent E { r with inputData := w, tr := t } := by
    unfold readNextContent readNextRecord
    dsimp only
    rw [hi, skipCcs_ccs]
  rw [this]

/-! ## The three flights -/

/-- the server gets the ClientHello and answers -/
theorem server_digest {r : Conn} {f : Flight} {info : SuiteInfo} {lim g scheme mode : Nat}
    {ch crandom random z mine leaf : Bytes} {fs rest : List Bytes} {p staple : Option Bytes} {suites : List Nat}
    {exts : List Ext} {want : Bool} {j : Nat} {algs : List HashAlg}
    (W : Works E info lim) (hside : r.config.side = .server) (hst : r.state = .serverWaitCH true)
    (hs : r.config.cipherSuites.find? suites.contains = some info.id)
    (hn : r.nconfig = none) (hk : r.cipher = none) (hhs : r.inputHandshake = [])
    (ht : r.transcript = ⟨algs.map (·, []), 1⟩) (ha : info.digest ∈ algs)
    (hmfl : r.config.maxFragmentLength = 16384) (hsu : r.serverUnique = some random)
    (hS : Staples E r.hasOcsp want (leaf :: rest) (r.draws + 1) staple j)
    (hser : serHandshake E (.clientHello crandom [] suites exts) = .ok ch)
    (hgood : GoodMsg E r.certType (.clientHello crandom [] suites exts)) (hcut : Cut ch fs)
    (hi : r.inputData = wireOf (fs.map fun f => (22, f)))
    (o : Offer E r.config r.draws exts g scheme leaf rest p mine z mode want)
    (F : Flies E E.sign r.config.canEchoHeartbeat (r.draws + 1 + j) f info ch random z g scheme mine
      (r.config.privateKey.getD []) p (leaf :: rest) staple) :
    Digests E r { r with
      inputData := []
      nconfig := some (serverDeal { NConfig.new with cipherSuite := some info.id } r.config g p mode want)
      clientUnique := some crandom
      signature := some (scheme, r.config.privateKey.getD [])
      cipher := some (hsCipher E info .server z (E.hash info.digest (f.upTo ch 1)) 4 0)
      transcript := ⟨[(info.digest, f.upTo ch 5)], 8⟩
      outputData := r.outputData ++ f.bytes E info z (E.hash info.digest (f.upTo ch 1))
      draws := r.draws + 1 + j + 1
      state := .serverWaitFin (E.hash info.digest (f.upTo ch 5)) } := by
  have hm : r.mfl = 16384 := by unfold Conn.mfl; rw [hn]; exact hmfl
  refine .step (receive_step (read_hello W.opens hcut (serHandshake_honest hser) hk hhs hm hi)
    (decode_serHandshake hgood hser) (b := true) (t' := ⟨algs.map (·, ch), 2⟩) ?_ ?_)
    (rekey_none hk) (by rw [hst]; rfl) (.done rfl (rekey_hs W (by omega) rfl))
  · show Transcript.update r.transcript _ r.config.side.other _ = _
    rw [hside, ht]
    exact hello_hashed _ _
  · exact server_hello (c := { r with inputData := [], transcript := ⟨algs.map (·, ch), 2⟩ }) W hside hst hs
      (postInit_algs ch 2 ha) hmfl hsu hS o F

/-- the server gets the Finished of the client -/
theorem server_digest_finished {r : Conn} {f : Flight} {info : SuiteInfo} {lim : Nat}
    {ch mine z th : Bytes} {n : NConfig} (W : Works E info lim) (hside : r.config.side = .server)
    (hn : r.nconfig = some n) (hm : n.maxFragmentLength = some 16384)
    (hst : r.state = .serverWaitFin (E.hash info.digest (f.upTo ch 5)))
    (hk : r.cipher = some (hsCipher E info .server z th 4 0)) (hhs : r.inputHandshake = [])
    (ht : r.transcript = ⟨[(info.digest, f.upTo ch 5)], 8⟩)
    (hmine : serHandshake E (.finished (E.hmac info.digest ((E.spec info.digest).finishedKey
      ((E.spec info.digest).cHs z th)) (E.hash info.digest (f.upTo ch 5)))) = .ok mine)
    (hl : mine.length ≤ 16000)
    (hi : r.inputData = recordBytes 20 [1] ++ hsRecord E info .client z th 0 mine) :
    Digests E r { r with
      inputData := []
      cipher := some (apCipher E info .server z (E.hash info.digest (f.upTo ch 5)) 0 0)
      transcript := ⟨[(info.digest, f.upTo ch 5 ++ mine)], 12⟩
      state := .connected } := by
  have hm : r.mfl = 16384 := by unfold Conn.mfl; rw [hn]; dsimp only [Option.bind]; rw [hm]
  refine .step (of_ccs hi (hs_step (r := { r with inputData := hsRecord E info .client z th 0 mine })
    (t' := ⟨[(info.digest, f.upTo ch 5 ++ mine)], 12⟩) (rest := []) W (by omega) hhs hk (.inl hm) hl
    (by rw [List.append_nil]; rfl) hmine trivial ?_ ?_))
    (rekey_hs W (by omega) hk) (by rw [hst]; rfl) (.done rfl (rekey_ap W (by omega) rfl))
  · show Transcript.update r.transcript _ r.config.side.other _ = _
    rw [hside, ht]
    rfl
  · exact server_finished (c := { r with
      inputData := []
      cipher := some (hsCipher E info .server z th 4 1)
      transcript := ⟨[(info.digest, f.upTo ch 5 ++ mine)], 12⟩ }) W hst rfl rfl rfl

theorem hello_answered (algs : List HashAlg) (ch sh : Bytes) :
    Transcript.update ⟨algs.map (·, ch), 2⟩ sh .server 2 = (.ok true, ⟨algs.map (·, ch ++ sh), 3⟩) := by
  have : Transcript.update ⟨algs.map (·, ch), 2⟩ sh .server 2 =
      (.ok true, ⟨(algs.map fun a => (a, ch)).map fun h => (h.1, h.2 ++ sh), 3⟩) := rfl
  rw [this, List.map_map]
  rfl

/-- the client gets the flight of the server and sends its Finished -/
theorem client_digest {r : Conn} {f : Flight} {info : SuiteInfo} {lim g scheme d : Nat}
    {ch chHash random z mine priv leaf pub fin key : Bytes} {rest : List Bytes} {p staple : Option Bytes}
    {algs : List HashAlg} {echo : Bool} {j : Nat}
    {sign : Nat → Bytes → Bytes → Nat → Except Exn Bytes}
    (W : Works E info lim) (hside : r.config.side = .client)
    (hst : r.state = .clientWaitSH true [(g, priv)] chHash)
    (hn : r.nconfig = none) (hk : r.cipher = none) (hhs : r.inputHandshake = [])
    (ht : r.transcript = ⟨algs.map (·, ch), 2⟩) (ha : info.digest ∈ algs)
    (hmfl : r.config.maxFragmentLength = 4096 ∨ r.config.maxFragmentLength = 16384)
    (hs : r.config.cipherSuites.contains info.id = true)
    (hg : kexRegistered g = true) (hz : E.kexResume g priv mine = .ok z)
    (hrnd : random.length = 32) (hrnd' : random ≠ hrrRandom)
    (hp : ∀ b, p = some b → r.config.alpn.contains b = true)
    (hp' : ∀ b, p = some b → ∀ c ∈ b, ' '.toNat ≤ c.toNat ∧ c.toNat ≤ '~'.toNat)
    (hcert : ∀ c ∈ leaf :: rest, E.certLoad (E.certDer c) = .ok c)
    (hv : Trusts E r leaf rest staple j) (hsch : r.config.signatureAlgorithms.contains scheme = true)
    (hreg : sigRegistered scheme = true) (hpub : E.certPub leaf = .ok pub)
    (hsig : ∀ sig msg, sign scheme key msg d = .ok sig → E.verify scheme pub sig msg = .ok ())
    (F : Flies E sign echo d f info ch random z g scheme mine key p (leaf :: rest) staple)
    (hfin : serHandshake E (.finished (E.hmac info.digest ((E.spec info.digest).finishedKey
      ((E.spec info.digest).cHs z (E.hash info.digest (f.upTo ch 1))))
        (E.hash info.digest (f.upTo ch 5)))) = .ok fin) (hl : fin.length ≤ 16000)
    (hi : r.inputData = f.bytes E info z (E.hash info.digest (f.upTo ch 1))) :
    Digests E r { r with
      inputData := []
      nconfig := some { clientDeal r.config { NConfig.new with
          cipherSuite := some info.id, keyExchanges := some g } p echo with
        peerCertificate := some leaf, signatureAlgorithm := some scheme }
      serverUnique := some random
      cipher := some (apCipher E info .client z (E.hash info.digest (f.upTo ch 5)) 0 0)
      transcript := ⟨[(info.digest, f.upTo ch 5 ++ fin)], 12⟩
      outputData := r.outputData ++ recordBytes 20 [1] ++
        hsRecord E info .client z (E.hash info.digest (f.upTo ch 1)) 0 fin
      draws := if r.config.requirePeerAuth then r.draws + 1 + j else r.draws
      state := .connected } := by
  obtain ⟨l1, l2, l3, l4, l5⟩ := F.small
  obtain ⟨sig, hsg, hcv⟩ := F.cv
  obtain ⟨l6, l7⟩ := F.tiny
  have hm : r.mfl = r.config.maxFragmentLength := by unfold Conn.mfl; rw [hn]; rfl
  unfold Flight.bytes at hi
  generalize hth : E.hash info.digest (f.upTo ch 1) = th at hi ⊢ hfin
  have hF := F.fin
  rw [hth] at hF
  obtain ⟨config, hostname, hasOcsp, nconfig, cipher, signature, transcript, inputData, inputHandshake,
    outputData, applicationData, clientUnique, serverUnique, state, draws, tr⟩ := r
  dsimp only at hside hst hn hk hhs ht hmfl hs hp hsch hi ⊢
  subst hst hn hk hhs ht hi
  let r₀ : Conn := ⟨config, hostname, hasOcsp, none, none, signature, ⟨algs.map (·, ch), 2⟩, [], [],
    outputData, applicationData, clientUnique, serverUnique, .clientWaitSH true [(g, priv)] chHash, draws, tr⟩
  -- ServerHello
  refine .step (r₁ := { r₀ with
      inputData := recordBytes 20 [1] ++ (hsRecord E info .server z th 0 f.ee ++
        (hsRecord E info .server z th 1 f.ct ++ (hsRecord E info .server z th 2 f.cv ++
          hsRecord E info .server z th 3 f.fin)))
      nconfig := some { NConfig.new with cipherSuite := some info.id, keyExchanges := some g }
      serverUnique := some random
      cipher := some (hsCipher E info .client z th 0 0)
      transcript := ⟨[(info.digest, f.upTo ch 1)], 3⟩
      outputData := outputData ++ recordBytes 20 [1]
      state := .clientWaitEE }) ?_ rfl rfl ?_
  · refine receive_step (m := .serverHello random [] info.id (helloExts g mine)) (b := true)
      (t' := ⟨algs.map (·, ch ++ f.sh), 3⟩)
      (read_clear (serHandshake_honest F.sh) rfl rfl (by rw [hm]; show f.sh.length ≤ config.maxFragmentLength; omega)
        (by omega) rfl)
      (decode_serHandshake (serverHello_good hrnd hrnd' _) F.sh) ?_ ?_
    · show Transcript.update _ _ config.side.other _ = _
      rw [hside]
      exact hello_answered _ _ _
    · have := client_hello (f := f) (ch := ch) (c := { r₀ with
        inputData := recordBytes 20 [1] ++ (hsRecord E info .server z th 0 f.ee ++
          (hsRecord E info .server z th 1 f.ct ++ (hsRecord E info .server z th 2 f.cv ++
            hsRecord E info .server z th 3 f.fin)))
        transcript := ⟨algs.map (·, ch ++ f.sh), 3⟩ }) (random := random) W rfl hs (by show 1 ≤ config.maxFragmentLength; omega)
        (postInit_algs _ _ ha) hg hz
      rw [hth] at this
      exact this
  -- EncryptedExtensions
  refine .step (r₁ := { r₀ with
      inputData := hsRecord E info .server z th 1 f.ct ++ (hsRecord E info .server z th 2 f.cv ++
          hsRecord E info .server z th 3 f.fin)
      nconfig := some (clientDeal config { NConfig.new with
          cipherSuite := some info.id, keyExchanges := some g } p echo)
      serverUnique := some random
      cipher := some (hsCipher E info .client z th 0 1)
      transcript := ⟨[(info.digest, f.upTo ch 2)], 4⟩
      outputData := outputData ++ recordBytes 20 [1]
      state := .clientWaitCertCr }) ?_ (rekey_hs W (by omega) rfl) rfl ?_
  · refine of_ccs rfl (hs_step (t' := ⟨[(info.digest, f.upTo ch 2)], 4⟩) W (by omega) rfl rfl
      (hmfl.elim (fun h => .inr ⟨h, l7⟩) .inl) l2 rfl
      F.ee (encryptedExtensions_good _ hp') ?_ (client_extensions rfl rfl rfl hp))
    show Transcript.update _ _ config.side.other _ = _
    rw [hside]; rfl
  -- Certificate
  refine .step (r₁ := { r₀ with
      inputData := hsRecord E info .server z th 2 f.cv ++ hsRecord E info .server z th 3 f.fin
      nconfig := some { clientDeal config { NConfig.new with
          cipherSuite := some info.id, keyExchanges := some g } p echo with peerCertificate := some leaf }
      serverUnique := some random
      cipher := some (hsCipher E info .client z th 0 2)
      transcript := ⟨[(info.digest, f.upTo ch 3)], 6⟩
      outputData := outputData ++ recordBytes 20 [1]
      draws := if config.requirePeerAuth then draws + 1 + j else draws
      state := .clientWaitCV false (E.hash info.digest (f.upTo ch 3)) }) ?_ (rekey_hs W (by omega) rfl) rfl ?_
  · refine hs_step (t' := ⟨[(info.digest, f.upTo ch 3)], 6⟩) W (by omega) rfl rfl (.inl rfl) l3 rfl
      F.ct ?_ ?_ (client_certificate rfl rfl rfl rfl rfl hv)
    · show GoodMsg E (some (match config.side with | .client => _ | .server => _)) _
      rw [hside]
      exact certificate_good hcert
    · show Transcript.update _ _ config.side.other _ = _
      rw [hside]; rfl
  -- CertificateVerify
  refine .step (r₁ := { r₀ with
      inputData := hsRecord E info .server z th 3 f.fin
      nconfig := some { clientDeal config { NConfig.new with
          cipherSuite := some info.id, keyExchanges := some g } p echo with
        peerCertificate := some leaf, signatureAlgorithm := some scheme }
      serverUnique := some random
      cipher := some (hsCipher E info .client z th 0 3)
      transcript := ⟨[(info.digest, f.upTo ch 4)], 7⟩
      outputData := outputData ++ recordBytes 20 [1]
      draws := if config.requirePeerAuth then draws + 1 + j else draws
      state := .clientWaitFin false (E.hash info.digest (f.upTo ch 4)) }) ?_ (rekey_hs W (by omega) rfl) rfl ?_
  · refine hs_step (t' := ⟨[(info.digest, f.upTo ch 4)], 7⟩) W (by omega) rfl rfl (.inl rfl) l4 rfl
      hcv trivial ?_ ?_
    · show Transcript.update _ _ config.side.other _ = _
      rw [hside]; rfl
    · exact client_verify (n := { clientDeal config { NConfig.new with
          cipherSuite := some info.id, keyExchanges := some g } p echo with peerCertificate := some leaf })
        rfl rfl rfl rfl rfl hsch hreg hpub (hsig _ _ hsg) rfl
  -- Finished
  refine .step ?_ (rekey_hs W (by omega) rfl) rfl (.done rfl (rekey_ap W (by omega) rfl))
  refine hs_step (t' := ⟨[(info.digest, f.upTo ch 5)], 8⟩) (rest := []) W (by omega) rfl rfl (.inl rfl) l5
      (by rw [List.append_nil]; rfl) hF trivial ?_ ?_
  · show Transcript.update _ _ config.side.other _ = _
    rw [hside]; rfl
  · exact client_finished (c := { r₀ with
      inputData := []
      nconfig := some { clientDeal config { NConfig.new with
          cipherSuite := some info.id, keyExchanges := some g } p echo with
        peerCertificate := some leaf, signatureAlgorithm := some scheme }
      serverUnique := some random
      cipher := some (hsCipher E info .client z th 0 4)
      transcript := ⟨[(info.digest, f.upTo ch 5)], 8⟩
      outputData := outputData ++ recordBytes 20 [1]
      draws := if config.requirePeerAuth then draws + 1 + j else draws
      state := .clientWaitFin false (E.hash info.digest (f.upTo ch 4)) }) W hside rfl rfl rfl rfl rfl hfin hl

end Siotls
