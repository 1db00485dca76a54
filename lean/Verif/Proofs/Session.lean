import Verif.Proofs.Carry
import Verif.Proofs.Schedule
import Verif.Spec.Lifecycle
/-!
# Evaluating the methods symbolically, up to the ghost events
-/

namespace Siotls
open Spec Serial

variable {E : Env}

/-- from `c`, whatever the ghost events, `m` returns `a` and leaves `c'` -/
def Gives {α} (m : M α) (c : Conn) (a : α) (c' : Conn) : Prop :=
  ∀ t, ∃ t', m { c with tr := t } = (.ok a, { c' with tr := t' })

namespace Gives
variable {α β : Type} {c c' c₁ : Conn} {a : α} {b : β}

theorem bind {m : M α} {f : α → M β} (h : Gives m c a c₁) (h' : Gives (f a) c₁ b c') :
    Gives (m >>= f) c b c' := by
  intro t
  obtain ⟨t₁, h1⟩ := h t
  obtain ⟨t₂, h2⟩ := h' t₁
  exact ⟨t₂, by rw [M.bind_def, h1]; exact h2⟩

theorem pure (a : α) (c : Conn) : Gives (Pure.pure a) c a c := fun t => ⟨t, rfl⟩

theorem getBind {f : Conn → M β} (h : ∀ t, Gives (f { c with tr := t }) c b c') :
    Gives (M.get >>= f) c b c' := by
  intro t
  obtain ⟨t', h'⟩ := h t t
  exact ⟨t', h'⟩

theorem lift {r : Except Exn α} (h : r = .ok a) (c : Conn) : Gives (M.lift r) c a c :=
  fun t => ⟨t, by rw [M.lift, h]⟩

theorem liftBind {r : Except Exn α} {f : α → M β} (h : r = .ok a) (h' : Gives (f a) c b c') :
    Gives (M.lift r >>= f) c b c' := bind (lift h c) h'

theorem setNc {n : NConfig} {f : NConfig → NConfig} (h : c.nconfig = some n) (hf : n.frozen = false) :
    Gives (setNc f) c () { c with nconfig := some (f n) } := by
  intro t
  refine ⟨t, ?_⟩
  simp [Siotls.setNc, h, hf]

theorem getNc {n : NConfig} (h : c.nconfig = some n) : Gives getNc c n c := by
  intro t
  exact ⟨t, by simp [Siotls.getNc, h]⟩

theorem getCipher {k : CipherSt} (h : c.cipher = some k) : Gives getCipher c k c := by
  intro t
  exact ⟨t, by simp [Siotls.getCipher, h]⟩

theorem moveTo (s : St) : Gives (moveTo s) c () { c with state := s } := fun t => ⟨t, rfl⟩

theorem ghost (e : Ev) : Gives (ghost e) c () c := fun t => ⟨e :: t, rfl⟩

theorem nextDraw : Gives nextDraw c c.draws { c with draws := c.draws + 1 } := fun t => ⟨t, rfl⟩

theorem modify {f : Conn → Conn} (h : ∀ t, ∃ t', f { c with tr := t } = { c' with tr := t' }) :
    Gives (M.modify f) c () c' := by
  intro t
  obtain ⟨t', h⟩ := h t
  exact ⟨t', by rw [M.modify, h]⟩

theorem digest {h : Bytes} (hd : c.transcript.digest E = .ok h) : Gives (transcriptDigest E) c h c :=
  fun t => ⟨t, by rw [transcriptDigest, hd]⟩

theorem update {data : Bytes} {side : Side} {type : Nat} {b : Bool} {t' : Transcript}
    (h : c.transcript.update data side type = (.ok b, t')) :
    Gives (transcriptUpdate data side type) c () { c with transcript := t' } :=
  fun t => ⟨_, by simp only [transcriptUpdate, h]; rfl⟩

theorem postInit {a : HashAlg} {t' : Transcript} (h : c.transcript.postInit a = .ok t') :
    Gives (transcriptPostInit a) c () { c with transcript := t' } :=
  fun t => ⟨t, by simp only [transcriptPostInit, h]⟩

theorem skipEarly {k k' : CipherSt} (h : c.cipher = some k) (hs : Siotls.skipEarly E k = .ok k') :
    Gives (cipherSkipEarly E) c () { c with cipher := some k' } :=
  fun t => ⟨t, by simp only [cipherSkipEarly, h, hs]⟩

theorem deriveHandshake {k k' : CipherSt} {shared hash : Bytes} (h : c.cipher = some k)
    (hs : Siotls.deriveHandshake E k shared hash = (.ok (), k')) :
    Gives (cipherDeriveHandshake E shared hash) c () { c with cipher := some k' } :=
  fun t => ⟨_, by simp only [cipherDeriveHandshake, h, hs]; rfl⟩

theorem deriveMaster {k k' : CipherSt} {h1 h2 : Bytes} {r : Bytes × Bytes} (h : c.cipher = some k)
    (hs : Siotls.deriveMaster E k h1 h2 = (.ok r, k')) :
    Gives (cipherDeriveMaster E h1 h2) c r { c with cipher := some k' } :=
  fun t => ⟨_, by simp only [cipherDeriveMaster, h, hs]; rfl⟩

/-- an equation that holds whatever the ghost events -/
theorem of_eq {m m' : M α} (h : Gives m c a c') (he : ∀ t, m' { c with tr := t } = m { c with tr := t }) :
    Gives m' c a c' := by
  intro t
  rw [he]
  exact h t

end Gives

/-! ## Sending one record -/

/-- the record that carries `data` under this key -/
def sealedRecord (E : Env) (info : SuiteInfo) (mfl : Nat) (key iv : Bytes) (n ct : Nat)
    (data : Bytes) : Bytes :=
  recordBytes 23 (E.aeadSeal info.id key (xorBytes iv (beEnc info.nonceLength n))
    (sealedHeader ((innerText mfl info.tagLength ct data).length + info.tagLength))
    (innerText mfl info.tagLength ct data))

theorem splitFragments_one {n : Int} {cf : Bool} {data : Bytes} (h : (data.length : Int) ≤ n) :
    splitFragments n cf data = .ok [data] := by rw [splitFragments, if_pos h]

theorem makeRecords_clear {ct : Nat} {data : Bytes} {c : Conn} (hlen : data.length < 65536) :
    makeRecords E false ct [data] c = (.ok [(ct, data, recordBytes ct data)], c) := by
  have hh : recordHeader ct data.length = .ok _ := recordHeader_ok hlen
  have hb := recordHeader_bytes hh
  simp only [makeRecords, protect, M.bind_def, M.pure, M.lift, Bool.false_eq_true, if_false]
  rw [hh]
  dsimp only
  rw [← hb]
  rfl

theorem hash_handshake {c : Conn} {data : Bytes} {side : Side} {h : Handshake} {b : Bool}
    {t' : Transcript} (hu : c.transcript.update data side h.msgType = (.ok b, t')) :
    Gives (hashContent data side (.handshake h)) c () { c with transcript := t' } :=
  Gives.update hu

theorem emit_one {x : Content} {o : Nat} {b w : Bytes} {c : Conn} :
    Gives (emitRecords x [(o, b, w)]) c () { c with outputData := c.outputData ++ w } := by
  intro t
  refine ⟨.sent x :: .record o b :: t, ?_⟩
  simp [emitRecords, M.modify]

theorem send_clear {x : Content} {data : Bytes} {c : Conn} {t' : Transcript} (h23 : x.ctype ≠ 23)
    (h24 : x.ctype ≠ 24) (hcan : c.state.canSend = true) (hser : serContent E x = .ok data)
    (hh : Gives (hashContent data c.config.side x) c () { c with transcript := t' })
    (hm : c.mustEncrypt = false) (hl : data.length ≤ c.mfl) (hlen : data.length < 65536) :
    Gives (sendContent E x) c () { c with
      transcript := t', outputData := c.outputData ++ recordBytes x.ctype data } := by
  unfold sendContent
  refine Gives.getBind fun t => ?_
  dsimp only
  rw [if_neg (fun h => h23 h.1), if_neg (by simp [hcan]), if_neg h24]
  refine Gives.liftBind hser (Gives.bind hh ?_)
  have hm' : ∀ t, Conn.mustEncrypt { c with tr := t } = false := fun _ => hm
  rw [hm' t]
  simp only [Bool.false_eq_true, if_false]
  refine Gives.liftBind (splitFragments_one (by exact_mod_cast hl)) ?_
  refine Gives.bind (a := [(x.ctype, data, recordBytes x.ctype data)])
    (c₁ := { c with transcript := t' }) (fun t => ⟨t, ?_⟩) ?_
  · exact makeRecords_clear hlen
  · exact emit_one

theorem nextNonce_at {info : SuiteInfo} {d : Dir} {key iv : Bytes} {n lim : Nat}
    (hd : d = ⟨some key, some iv, some n⟩) (hlim : info.usageLimit = some lim) (hn : n < lim) :
    nextNonce info d = .ok (xorBytes iv (beEnc info.nonceLength n), ⟨some key, some iv, some (n + 1)⟩) := by
  subst hd
  simp [nextNonce, hlim, hn]

theorem encrypt_at {ct : Nat} {data : Bytes} {c : Conn} {k : CipherSt} {key nonce : Bytes} {wr : Dir}
    (hS : E.Seals) (hid : suiteInfo k.info.id = some k.info) (hk : c.cipher = some k)
    (hkey : k.wr.key = some key) (hn : nextNonce k.info k.wr = .ok (nonce, wr))
    {inner : Bytes} (hin : inner = innerText c.mfl k.info.tagLength ct data)
    (hlen : inner.length + k.info.tagLength < 65536) :
    makeRecords E true ct [data] c =
      (.ok [(23, E.aeadSeal k.info.id key nonce (sealedHeader (inner.length + k.info.tagLength)) inner,
        recordBytes 23
          (E.aeadSeal k.info.id key nonce (sealedHeader (inner.length + k.info.tagLength)) inner))],
      { c with
        cipher := some { k with wr := wr }
        tr := .sealed k.info.id key nonce (sealedHeader (inner.length + k.info.tagLength)) inner :: c.tr }) := by
  have hh : recordHeader Iana.ctApplicationData (inner.length + k.info.tagLength) =
    .ok (sealedHeader (inner.length + k.info.tagLength)) := recordHeader_ok hlen
  have hbl := hS k.info.id k.info key nonce (sealedHeader (inner.length + k.info.tagLength)) inner hid
  generalize hbody : E.aeadSeal k.info.id key nonce
    (sealedHeader (inner.length + k.info.tagLength)) inner = body at hbl ⊢
  have henc : encryptFragment E ct data c = (.ok body, { c with
        cipher := some { k with wr := wr }
        tr := .sealed k.info.id key nonce (sealedHeader (inner.length + k.info.tagLength)) inner ::
          c.tr }) := by
    unfold encryptFragment
    simp only [M.bind_def, M.get, getCipher, hk, M.lift]
    rw [← hin, hh]
    dsimp only
    simp only [cipherEncrypt, hk, hkey, hn, hbody]
    rw [if_pos hbl]
    rfl
  have hh2 : recordHeader Iana.ctApplicationData body.length = .ok _ :=
    recordHeader_ok (by rw [hbl]; exact hlen)
  have hb := recordHeader_bytes hh2
  simp only [makeRecords, protect, if_true]
  rw [M.bind_def, henc]
  dsimp only
  rw [M.bind_def]
  simp only [M.lift]
  rw [hh2]
  dsimp only
  have hb' : beEnc 1 Iana.ctApplicationData ++ (beEnc 2 Iana.tls12 ++ beEnc 2 body.length) ++ body =
    recordBytes 23 body := hb
  rw [← hb']
  rfl

theorem encrypt_one {ct : Nat} {data : Bytes} {c : Conn} {k : CipherSt} {key iv : Bytes} {n lim : Nat}
    (hS : E.Seals) (hid : suiteInfo k.info.id = some k.info) (hk : c.cipher = some k)
    (hwr : k.wr = ⟨some key, some iv, some n⟩) (hlim : k.info.usageLimit = some lim) (hn : n < lim)
    (hlen : (innerText c.mfl k.info.tagLength ct data).length + k.info.tagLength < 65536) :
    Gives (makeRecords E true ct [data]) c
      [(23, E.aeadSeal k.info.id key (xorBytes iv (beEnc k.info.nonceLength n))
        (sealedHeader ((innerText c.mfl k.info.tagLength ct data).length + k.info.tagLength))
        (innerText c.mfl k.info.tagLength ct data), sealedRecord E k.info c.mfl key iv n ct data)]
      { c with cipher := some { k with wr := ⟨some key, some iv, some (n + 1)⟩ } } := by
  intro t
  exact ⟨_, encrypt_at (c := { c with tr := t }) hS hid hk (by rw [hwr]) (nextNonce_at hwr hlim hn) rfl hlen⟩

theorem send_sealed' {x : Content} {data : Bytes} {c : Conn} {k : CipherSt} {key iv : Bytes} {n lim : Nat}
    {t' : Transcript} (hS : E.Seals) (hid : suiteInfo k.info.id = some k.info) (h23 : x.ctype = 23 → c.state.canSendApp = true)
    (h24 : x.ctype ≠ 24) (hcan : c.state.canSend = true) (hser : serContent E x = .ok data)
    (hh : Gives (hashContent data c.config.side x) c () { c with transcript := t' })
    (hk : c.cipher = some k)
    (hwr : k.wr = ⟨some key, some iv, some n⟩) (hlim : k.info.usageLimit = some lim) (hn : n < lim)
    (hl : data.length + 1 + k.info.tagLength ≤ c.mfl) (hmfl : c.mfl ≤ 16384) :
    Gives (sendContent E x) c () { c with
      transcript := t'
      cipher := some { k with wr := ⟨some key, some iv, some (n + 1)⟩ }
      outputData := c.outputData ++ sealedRecord E k.info c.mfl key iv n x.ctype data } := by
  unfold sendContent
  refine Gives.getBind fun t => ?_
  dsimp only
  rw [if_neg (fun h => by rw [show c.state.canSendApp = true from h23 h.1] at h; cases h.2), if_neg (by simp [hcan]), if_neg h24]
  refine Gives.liftBind hser (Gives.bind hh ?_)
  have hm : Conn.mustEncrypt { c with tr := t } = true := by simp [Conn.mustEncrypt, hk, hwr]
  rw [hm]
  simp only [if_true]
  refine Gives.liftBind (a := [data]) ?_ ?_
  · rw [hk]
    refine splitFragments_one ?_
    show (data.length : Int) ≤ (c.mfl : Int) - ((1 + k.info.tagLength : Nat) : Int)
    push_cast
    omega
  have hlen : (innerText c.mfl k.info.tagLength x.ctype data).length + k.info.tagLength < 65536 := by
    rw [length_innerText]
    have := padLength_le c.mfl data.length k.info.tagLength
    omega
  refine Gives.bind (encrypt_one (c := { c with transcript := t' }) hS hid hk hwr hlim hn hlen) ?_
  exact emit_one

theorem send_sealed {x : Content} {data : Bytes} {c : Conn} {k : CipherSt} {key iv : Bytes} {n lim : Nat}
    {t' : Transcript} (hS : E.Seals) (hid : suiteInfo k.info.id = some k.info) (h23 : x.ctype ≠ 23)
    (h24 : x.ctype ≠ 24) (hcan : c.state.canSend = true) (hser : serContent E x = .ok data)
    (hh : Gives (hashContent data c.config.side x) c () { c with transcript := t' })
    (hk : c.cipher = some k)
    (hwr : k.wr = ⟨some key, some iv, some n⟩) (hlim : k.info.usageLimit = some lim) (hn : n < lim)
    (hl : data.length + 1 + k.info.tagLength ≤ c.mfl) (hmfl : c.mfl ≤ 16384) :
    Gives (sendContent E x) c () { c with
      transcript := t'
      cipher := some { k with wr := ⟨some key, some iv, some (n + 1)⟩ }
      outputData := c.outputData ++ sealedRecord E k.info c.mfl key iv n x.ctype data } :=
  send_sealed' hS hid (fun h => absurd h h23) h24 hcan hser hh hk hwr hlim hn hl hmfl

/-! ## Receiving -/

theorem finish_message {c : Conn} {data : Bytes} (hd : HonestMsg data) (hs : c.inputHandshake = data) :
    complete E c = (.ok (some (22, data)),
      { c with inputHandshake := [], tr := .got 22 data :: c.tr }) := by
  have hnl : ¬ c.lacks := by
    unfold Conn.lacks
    rw [hs, hd.2]; omega
  rw [complete_done hnl, finishHandshake, if_neg (by rw [hs, hd.2]; omega), hs]

theorem content_of_record {r r' : Conn} {data : Bytes} (hd : HonestMsg data)
    (hhs : r.inputHandshake = []) (h : readNextRecord E r = (.ok (some (22, data)), r')) :
    readNextContent E r = (.ok (some (22, data)),
      { r' with inputHandshake := [], tr := .got 22 data :: r'.tr }) := by
  have hr' : r'.inputHandshake = [] := by
    have := readNextRecord_hs (E := E) r
    rw [h] at this
    exact this.trans hhs
  rw [readNextContent, h]
  dsimp only
  rw [if_neg (by simp [Iana.ctHandshake]), if_neg (by simp [Iana.ctHandshake]), hr', List.nil_append,
    if_neg (by have := hd.1; omega)]
  exact finish_message hd rfl

theorem read_clear {r : Conn} {data rest : Bytes} (hd : HonestMsg data) (hhs : r.inputHandshake = [])
    (hm : r.mustDecrypt = false) (hl : data.length ≤ r.mfl) (hlen : data.length < 65536)
    (hi : r.inputData = recordBytes 22 data ++ rest) :
    Gives (readNextContent E) r (some (22, data)) { r with inputData := rest } := by
  intro t
  refine ⟨.got 22 data :: t, ?_⟩
  have h1 : readNextRecord E { r with tr := t } =
      (.ok (some (22, data)), { r with inputData := rest, tr := t }) := by
    rw [readNextRecord_whole (c := { r with tr := t }) (b := data) (rest := rest) (by omega) (by omega)
      hlen (by unfold Conn.recordLimit; exact Nat.le_add_right_of_le hl) hi]
    unfold useRecord
    rw [show Conn.mustDecrypt { r with inputData := rest, tr := t } = false from hm]
    rfl
  refine (content_of_record (r := { r with tr := t }) hd hhs h1).trans ?_
  cases r
  cases hhs
  rfl

theorem read_sealed {r : Conn} {k : CipherSt} {key iv data rest : Bytes} {n lim mfl : Nat}
    (hO : E.Opens) (hS : E.Seals) (hid : suiteInfo k.info.id = some k.info) (hd : HonestMsg data)
    (hhs : r.inputHandshake = []) (hk : r.cipher = some k)
    (hrd : k.rd = ⟨some key, some iv, some n⟩) (hlim : k.info.usageLimit = some lim) (hn : n < lim)
    (hl : (innerText mfl k.info.tagLength 22 data).length + k.info.tagLength ≤ r.mfl + 256)
    (hmfl : r.mfl ≤ 16384)
    (hi : r.inputData = sealedRecord E k.info mfl key iv n 22 data ++ rest) :
    Gives (readNextContent E) r (some (22, data)) { r with
      inputData := rest, cipher := some { k with rd := ⟨some key, some iv, some (n + 1)⟩ } } := by
  intro t
  have hbl := hS k.info.id k.info key (xorBytes iv (beEnc k.info.nonceLength n))
    (sealedHeader ((innerText mfl k.info.tagLength 22 data).length + k.info.tagLength))
    (innerText mfl k.info.tagLength 22 data) hid
  have hmd : r.mustDecrypt = true := by simp [Conn.mustDecrypt, hk, hrd]
  refine ⟨.got 22 data :: .opened k.info.id key (xorBytes iv (beEnc k.info.nonceLength n))
            (sealedHeader ((innerText mfl k.info.tagLength 22 data).length + k.info.tagLength))
            (innerText mfl k.info.tagLength 22 data) :: t, ?_⟩
  · have h1 : readNextRecord E { r with tr := t } =
        (.ok (some (22, data)), { r with
          inputData := rest
          cipher := some { k with rd := ⟨some key, some iv, some (n + 1)⟩ }
          tr := .opened k.info.id key (xorBytes iv (beEnc k.info.nonceLength n))
            (sealedHeader ((innerText mfl k.info.tagLength 22 data).length + k.info.tagLength))
            (innerText mfl k.info.tagLength 22 data) :: t }) := by
      unfold sealedRecord at hi
      rw [readNextRecord_whole (c := { r with tr := t }) (rest := rest) (by omega) (by omega)
        (by rw [hbl]; omega) (by
          unfold Conn.recordLimit
          rw [show Conn.mustDecrypt { r with tr := t } = true from hmd, if_pos rfl, hbl]
          exact hl) hi]
      unfold useRecord
      rw [show Conn.mustDecrypt { r with inputData := rest, tr := t } = true from hmd, if_pos rfl]
      have hhd : ∀ m, ([UInt8.ofNat 23, 3, 3] ++ be16 m : Bytes) = sealedHeader m := by
        intro m
        rw [sealedHeader, beEnc_two]; rfl
      have hopen := hO k.info.id k.info key (xorBytes iv (beEnc k.info.nonceLength n))
        (sealedHeader ((innerText mfl k.info.tagLength 22 data).length + k.info.tagLength))
        (innerText mfl k.info.tagLength 22 data) hid
      have hkey : k.rd.key = some key := by rw [hrd]
      rw [hhd, hbl]
      simp only [decryptRecord, hk, hkey, nextNonce_at hrd hlim hn, hopen,
        stripPadding_padded (show 0 < 22 by omega) (show 22 < 256 by omega)]
      rfl
    refine (content_of_record (r := { r with tr := t }) hd hhs h1).trans ?_
    cases r
    cases hhs
    rfl

theorem skipCcs_ccs (w : Bytes) : skipCcs (recordBytes 20 [1] ++ w) = skipCcs w := by
  rw [recordBytes_eq]
  show skipCcs (20 :: 3 :: 3 :: 0 :: 1 :: 1 :: w) = _
  rw [skipCcs, if_pos (by decide)]

/-- a change_cipher_spec record in clear is skipped -/
theorem read_ccs {r : Conn} {w : Bytes} {x : Option (Nat × Bytes)} {r' : Conn}
    (hi : r.inputData = recordBytes 20 [1] ++ w)
    (h : Gives (readNextContent E) { r with inputData := w } x r') :
    Gives (readNextContent E) r x r' := by
  intro t
  obtain ⟨t', h⟩ := h t
  refine ⟨t', ?_⟩
  rw [← h]
  unfold readNextContent readNextRecord
  dsimp only
  rw [hi, skipCcs_ccs]

theorem receive_step {r r₁ r₂ : Conn} {data : Bytes} {m : Handshake} {b : Bool} {t' : Transcript}
    (h1 : Gives (readNextContent E) r (some (22, data)) r₁)
    (hdec : decodeContent E r₁.certType 22 data = .ok (.handshake m))
    (hu : r₁.transcript.update data r₁.config.side.other m.msgType = (.ok b, t'))
    (h2 : Gives (process E (.handshake m)) { r₁ with transcript := t' } () r₂) :
    Gives (receiveStep E) r true r₂ := by
  unfold receiveStep
  refine Gives.bind h1 ?_
  dsimp only
  refine Gives.getBind fun t => ?_
  refine Gives.liftBind hdec ?_
  refine Gives.bind (hash_handshake hu) ?_
  refine Gives.bind (Gives.ghost _) (Gives.bind h2 (Gives.pure _ _))

theorem loop_step {r r₁ r₂ : Conn} (h : Gives (receiveStep E) r true r₁) (h' : Gives (loop E) r₁ () r₂) :
    Gives (loop E) r () r₂ := by
  intro t
  obtain ⟨t₁, h1⟩ := h t
  obtain ⟨t₂, h2⟩ := h' t₁
  exact ⟨t₂, by rw [loop_eq, h1]; exact h2⟩

theorem loop_done {r : Conn} (h : r.inputData = []) : Gives (loop E) r () r := by
  intro t
  refine ⟨t, ?_⟩
  have hn : readNextRecord E { r with tr := t } = (.ok none, { r with tr := t }) := by
    rw [readNextRecord_short (by show (skipCcs r.inputData).length < 5; rw [h]; exact Nat.zero_lt_succ _)]
    show (_, { r with inputData := skipCcs r.inputData, tr := t }) = _
    rw [h]
    cases r
    cases h
    rfl
  rw [loop_eq, receiveStep_eq, readNextContent, hn]

theorem receive_gives {r r' : Conn} {d : Bytes} (hd : d ≠ []) (hc : r.state.canReceive = true)
    (h : Gives (loop E) (r.fed d) () r') (hk : shouldRekey r' = .ok false) :
    Gives (receiveData E d) r () r' := by
  intro t
  obtain ⟨t', h⟩ := h t
  refine ⟨t', ?_⟩
  rw [receiveData_eq (c := { r with tr := t }) hd hc, show Conn.fed { r with tr := t } d = { r.fed d with tr := t } from rfl, h]
  dsimp only [finishReceive]
  rw [show shouldRekey { r' with tr := t' } = shouldRekey r' from rfl, hk]

theorem op_receive {r r' : Conn} {d : Bytes} (h : Gives (receiveData E d) r () r') :
    Gives ((Op.receive d).run E) r [] r' := Gives.bind h (Gives.pure _ _)

theorem Gives.final {α} {m : M α} {c c' : Conn} {a : α} (h : Gives m c a c') :
    ∃ t, m c = (.ok a, { c' with tr := t }) := h c.tr

end Siotls
