import Verif.Proofs.Completion
import Verif.Proofs.Life
/-!
# Refusing a record by its header, however the stream is cut
-/

namespace Siotls
open Spec Serial

variable {E : Env}

/-- a key to write with has a nonce left -/
def Supplied (c : Conn) : Prop := ∀ k key, c.cipher = some k → k.wr.key = some key →
  suiteInfo k.info.id = some k.info ∧ ∃ p, nextNonce k.info k.wr = .ok p

/-- reporting an error to the peer ends the connection -/
theorem failWith_failed {c : Conn} {d : Nat} (hS : E.Seals) (hd : d < 256) (hw : Supplied c)
    (hm : MflInv E c) (hc : c.state.canSend = true) :
    ∃ c', failWith E d c = (.ok (), c') ∧ c'.state = .failed := by
  have hb := fragmentSizes_bounds hm.mfl
  have hser : serContent E (.alert Iana.fatal d) = .ok [2, UInt8.ofNat d] := by
    rw [serContent_alert (by show 2 * 256 + d < 65536; omega)]
    exact congrArg _ (beEnc_alert hd)
  have happ : (Content.alert Iana.fatal d).ctype = Iana.ctApplicationData → c.state.canSendApp = true := by
    intro h; cases h
  unfold failWith
  rw [M.bind_def]
  cases hen : c.mustEncrypt with
  | false =>
    rw [sendContent_plain rfl happ hc hser hen (by simp; omega) (by omega) (by simp)]
    exact ⟨_, rfl, rfl⟩
  | true =>
    have : ∃ k key, c.cipher = some k ∧ k.wr.key = some key := by
      unfold Conn.mustEncrypt at hen
      split at hen
      · next k hk =>
        obtain ⟨key, hkey⟩ := Option.isSome_iff_exists.mp hen
        exact ⟨k, key, hk, hkey⟩
      · cases hen
    obtain ⟨k, key, hk, hkey⟩ := this
    obtain ⟨hid, ⟨nonce, wr⟩, hn⟩ := hw k key hk hkey
    have htag := suite_tag hid
    rw [sendContent_sealed hS hid rfl happ hc hser hk hkey hn (by simp; omega) (by omega)
      (sealedInner_bound hid (by simp))]
    exact ⟨_, rfl, rfl⟩

theorem step_refused {c : Conn} {t v1 v2 l1 l2 : UInt8} {rest : Bytes}
    (h : skipCcs c.inputData = t :: v1 :: v2 :: l1 :: l2 :: rest) (hl : c.recordLimit < beDec [l1, l2]) :
    receiveStep E c = (.error .attributeError, { c with inputData := skipCcs c.inputData }) := by
  rw [receiveStep_eq, readNextContent_eq, readNextRecord_cons h, if_pos hl]

theorem step_none {c : Conn} (h : (skipCcs c.inputData).length < 5 ∨
    skipCcs c.inputData = [20, 3, 3, 0, 1]) (hm : 0 < c.mfl) :
    receiveStep E c = (.ok false, { c with inputData := skipCcs c.inputData }) := by
  rw [receiveStep_eq, readNextContent_eq]
  rcases h with h | h
  · rw [readNextRecord_short h]
  · have h1 : beDec [0, 1] = 1 := rfl
    rw [readNextRecord_cons h, h1, if_neg (by unfold Conn.recordLimit; omega), if_pos (by simp)]

/-- what can be in the buffer while the header of the record is not there -/
theorem before_header {t a b : UInt8} {rest : Bytes} (ht : t ≠ 20) {p q : Bytes}
    (h : p ++ q = t :: 3 :: 3 :: a :: b :: rest ∨
      p ++ q = recordBytes 20 [1] ++ (t :: 3 :: 3 :: a :: b :: rest)) :
    (((skipCcs p).length < 5 ∨ skipCcs p = [20, 3, 3, 0, 1]) ∧
      (skipCcs p ++ q = t :: 3 :: 3 :: a :: b :: rest ∨
        skipCcs p ++ q = recordBytes 20 [1] ++ (t :: 3 :: 3 :: a :: b :: rest))) ∨
    ∃ rest', skipCcs p = t :: 3 :: 3 :: a :: b :: rest' := by
  have key : ∀ p : Bytes, p ++ q = t :: 3 :: 3 :: a :: b :: rest →
      (((skipCcs p).length < 5) ∧ skipCcs p ++ q = t :: 3 :: 3 :: a :: b :: rest) ∨
      ∃ rest', skipCcs p = t :: 3 :: 3 :: a :: b :: rest' := by
    intro p h
    have hs : skipCcs p = p := by
      refine skipCcs_other fun hh => ?_
      rcases p with _ | ⟨x, p⟩
      · cases hh
      · cases hh
        exact ht (List.cons.inj h).1.symm
    rw [hs]
    by_cases hl : p.length < 5
    · exact .inl ⟨hl, h⟩
    · right
      rcases p with _ | ⟨p1, _ | ⟨p2, _ | ⟨p3, _ | ⟨p4, _ | ⟨p5, p⟩⟩⟩⟩⟩
      all_goals first | (exfalso; simp at hl; done) | skip
      simp only [List.cons_append, List.cons.injEq] at h
      obtain ⟨rfl, rfl, rfl, rfl, rfl, -⟩ := h
      exact ⟨p, rfl⟩
  rcases h with h | h
  · rcases key p h with ⟨h1, h2⟩ | h1
    · exact .inl ⟨.inl h1, .inl h2⟩
    · exact .inr h1
  · have hr : recordBytes 20 [1] = [20, 3, 3, 0, 1, 1] := rfl
    rw [hr] at h ⊢
    rcases p with _ | ⟨p1, _ | ⟨p2, _ | ⟨p3, _ | ⟨p4, _ | ⟨p5, _ | ⟨p6, p⟩⟩⟩⟩⟩⟩
    case nil => exact .inl ⟨.inl (by simp [skipCcs]), .inr h⟩
    case cons.nil => exact .inl ⟨.inl (by simp [skipCcs]), .inr h⟩
    case cons.cons.nil => exact .inl ⟨.inl (by simp [skipCcs]), .inr h⟩
    case cons.cons.cons.nil => exact .inl ⟨.inl (by simp [skipCcs]), .inr h⟩
    case cons.cons.cons.cons.nil => exact .inl ⟨.inl (by simp [skipCcs]), .inr h⟩
    case cons.cons.cons.cons.cons.nil =>
      have hh := h
      simp only [List.cons_append, List.nil_append, List.cons.injEq] at h
      obtain ⟨rfl, rfl, rfl, rfl, rfl, -⟩ := h
      exact .inl ⟨.inr rfl, .inr hh⟩
    case cons.cons.cons.cons.cons.cons =>
      simp only [List.cons_append, List.nil_append, List.cons.injEq] at h
      obtain ⟨rfl, rfl, rfl, rfl, rfl, rfl, h⟩ := h
      have hs : skipCcs (20 :: 3 :: 3 :: 0 :: 1 :: 1 :: p) = skipCcs p := skipCcs_ccs p
      rw [hs]
      rcases key p h with ⟨h1, h2⟩ | h1
      · exact .inl ⟨.inl h1, .inl h2⟩
      · exact .inr h1

/-- a record whose header announces too much is refused, however the stream is cut -/
theorem feed_refused {r : Conn} {t a b : UInt8} {rest : Bytes} (hS : E.Seals) (hw : Supplied r)
    (hm : MflInv E r) (hs : r.state.canSend = true) (hc : r.state.canReceive = true)
    (hk : shouldRekey r = .ok false) (ht : t ≠ 20) (hl : r.recordLimit < beDec [a, b]) :
    ∀ (ys : List Bytes) (i : Bytes), (∀ y ∈ ys, y ≠ []) → (i.length < 5 ∨ i = [20, 3, 3, 0, 1]) →
      (i ++ ys.flatten = t :: 3 :: 3 :: a :: b :: rest ∨
        i ++ ys.flatten = recordBytes 20 [1] ++ (t :: 3 :: 3 :: a :: b :: rest)) →
      ∃ c', feed E ys { r with inputData := i } = (.error .attributeError, c') ∧ c'.state = .failed := by
  have hb := fragmentSizes_bounds hm.mfl
  intro ys
  induction ys with
  | nil =>
    intro i _ hi h
    exfalso
    rw [List.flatten_nil, List.append_nil] at h
    rcases h with h | h
    · rcases hi with hi | hi
      · rw [h] at hi; simp only [List.length_cons] at hi; omega
      · rw [hi] at h; exact ht (List.cons.inj h).1.symm
    · have := congrArg List.length h
      rw [List.length_append, length_recordBytes] at this
      simp only [List.length_cons] at this
      rcases hi with hi | hi
      · omega
      · rw [hi] at this; simp only [List.length_cons, List.length_nil] at this; omega
  | cons y ys ih =>
    intro i hy hi h
    have hy0 : y ≠ [] := hy y List.mem_cons_self
    rw [List.flatten_cons, ← List.append_assoc] at h
    have hf : ({ r with inputData := i } : Conn).fed y = { r with inputData := i ++ y } := rfl
    rw [feed, receiveData_eq (E := E) (c := { r with inputData := i }) hy0 hc, hf, loop_eq]
    rcases before_header ht h with ⟨h1, h2⟩ | ⟨rest', h1⟩
    · rw [step_none (c := { r with inputData := i ++ y }) h1 (by show 0 < r.mfl; omega)]
      dsimp only [finishReceive]
      rw [show shouldRekey { r with inputData := skipCcs (i ++ y) } = .ok false from hk]
      exact ih _ (fun x hx => hy x (List.mem_cons_of_mem _ hx)) h1 h2
    · rw [step_refused (c := { r with inputData := i ++ y }) h1 hl]
      obtain ⟨c', h3, h4⟩ := failWith_failed (c := { r with inputData := skipCcs (i ++ y) })
        (d := alertFor .attributeError) hS (by decide) hw ⟨hm.config, hm.negotiated, hm.parsed⟩ hs
      dsimp only
      rw [h3]
      exact ⟨c', rfl, h4⟩

/-- where a cut stream passes from its first part to its second -/
theorem cut_at : ∀ (ys : List Bytes) (d₁ d₂ : Bytes), d₁ ≠ [] → ys.flatten = d₁ ++ d₂ →
    ∃ a y₁ y₂ b, ys = a ++ (y₁ ++ y₂) :: b ∧ a.flatten ++ y₁ = d₁ ∧ y₁ ≠ [] ∧ y₂ ++ b.flatten = d₂ := by
  intro ys
  induction ys with
  | nil =>
    intro d₁ d₂ h1 h
    exact absurd (List.append_eq_nil_iff.mp h.symm).1 h1
  | cons y ys ih =>
    intro d₁ d₂ h1 h
    rw [List.flatten_cons] at h
    rcases List.append_eq_append_iff.mp h with ⟨a', h2, h3⟩ | ⟨c', h2, h3⟩
    · by_cases ha : a' = []
      · subst ha
        rw [List.append_nil] at h2
        subst h2
        exact ⟨[], d₁, [], ys, by simp, rfl, h1, by simpa using h3⟩
      · obtain ⟨a, y₁, y₂, b, g1, g2, g3, g4⟩ := ih a' d₂ ha h3
        exact ⟨y :: a, y₁, y₂, b, by rw [g1]; rfl, by rw [List.flatten_cons, List.append_assoc, g2, h2], g3, g4⟩
    · exact ⟨[], d₁, c', ys, by simp [h2], rfl, h1, h3.symm⟩

/-- once the first part of a stream is digested, the rest goes on from there, however the stream was cut -/
theorem feed_then {r r₁ : Conn} {d₁ d₂ : Bytes} (hm : MflInv E r) (hc : r.state.canReceive = true)
    (h : Digests E (r.fed d₁) r₁) (hd : d₁ ≠ []) {ys : List Bytes} (hy : ∀ y ∈ ys, y ≠ [])
    (hf : ys.flatten = d₁ ++ d₂) : ∃ t ys', feed E ys r = feed E ys' { r₁ with tr := t } ∧
      ys'.flatten = d₂ ∧ (∀ y ∈ ys', y ≠ []) ∧ MflInv E { r₁ with tr := t } := by
  obtain ⟨a, y₁, y₂, b, rfl, h1, h2, h3⟩ := cut_at ys d₁ d₂ hd hf
  have hya : ∀ y ∈ a, y ≠ [] := fun y h => hy y (List.mem_append_left _ h)
  have hyb : ∀ y ∈ b, y ≠ [] := fun y h => hy y (by simp [h])
  obtain ⟨⟨t, g1⟩, g2⟩ := h r.tr
  obtain ⟨c₁, g3, g4, -⟩ := feed_smooth hm hc g2 g1 (a ++ [y₁]) (by simp)
    (by intro y hy'; rcases List.mem_append.mp hy' with h | h; exacts [hya y h, by rw [List.mem_singleton.mp h]; exact h2])
    [] (by simpa using h1)
  have g4 := g4 rfl
  subst g4
  refine ⟨t, if y₂ = [] then b else y₂ :: b, ?_, ?_, ?_, hm.feed g3⟩
  · by_cases hy2 : y₂ = []
    · rw [if_pos hy2]
      subst hy2
      rw [List.append_nil, show a ++ y₁ :: b = (a ++ [y₁]) ++ b by simp, feed_append, g3]
    · rw [if_neg hy2, feed, feed_append]
      have hn : NoShort E (r.fed (a ++ [y₁]).flatten) := by
        rw [show (a ++ [y₁]).flatten = d₁ by simpa using h1]
        exact g2.noShort
      have g5 := receive_split hy2 (feed_ok _ (by simp) g3 hn) hn
      by_cases ha : a = []
      · subst ha
        rw [feed]
        dsimp only
        rw [feed, show y₁ ++ y₂ = ([] ++ [y₁]).flatten ++ y₂ by simp, g5]
      · obtain ⟨c₂, g6, -⟩ := feed_smooth hm hc g2 g1 a ha hya y₁ h1
        rw [g6]
        dsimp only
        have hn' : NoShort E (r.fed a.flatten) := by
          refine noShort_prefix (i := y₁) ?_
          rw [← fed_fed, h1]
          exact g2.noShort
        have g7 := receive_split (b := y₁ ++ y₂) (by simp [h2]) (feed_ok _ ha g6 hn') hn'
        rw [feed, ← g7, ← List.append_assoc, show a.flatten ++ y₁ = (a ++ [y₁]).flatten by simp, g5]
  · by_cases hy2 : y₂ = []
    · rw [if_pos hy2, ← h3, hy2]; rfl
    · rw [if_neg hy2, ← h3]; rfl
  · by_cases hy2 : y₂ = []
    · rw [if_pos hy2]; exact hyb
    · rw [if_neg hy2]
      intro y hy'
      rcases List.mem_cons.mp hy' with rfl | h
      exacts [hy2, hyb y h]

/-- the client gets a flight padded beyond its limit -/
theorem client_refuses {r : Conn} {f : Flight} {info : SuiteInfo} {lim g scheme d n : Nat}
    {ch chHash random z mine priv key : Bytes} {chain : List Bytes} {p staple : Option Bytes}
    {algs : List HashAlg} {echo : Bool} {sign : Nat → Bytes → Bytes → Nat → Except Exn Bytes}
    (W : Works E info lim) (hside : r.config.side = .client)
    (hst : r.state = .clientWaitSH true [(g, priv)] chHash)
    (hn : r.nconfig = none) (hk : r.cipher = none) (hhs : r.inputHandshake = []) (hi : r.inputData = [])
    (ht : r.transcript = ⟨algs.map (·, ch), 2⟩) (ha : info.digest ∈ algs)
    (hm : MflInv E r) (hmfl : r.config.maxFragmentLength = n) (hn1 : 1 ≤ n) (hn2 : n ≤ 2048)
    (hs : r.config.cipherSuites.contains info.id = true)
    (hg : kexRegistered g = true) (hz : E.kexResume g priv mine = .ok z)
    (hrnd : random.length = 32) (hrnd' : random ≠ hrrRandom)
    (F : Flies E sign echo d f info ch random z g scheme mine key p chain staple)
    {ys : List Bytes} (hy : ∀ y ∈ ys, y ≠ [])
    (hf : ys.flatten = f.bytes E info z (E.hash info.digest (f.upTo ch 1))) :
    ∃ c', feed E ys r = (.error .attributeError, c') ∧ c'.state = .failed := by
  obtain ⟨l1, l2, l3, l4, l5⟩ := F.small
  have hml : r.mfl = n := by unfold Conn.mfl; rw [hn]; exact hmfl
  unfold Flight.bytes at hf
  generalize hth : E.hash info.digest (f.upTo ch 1) = th at hf
  obtain ⟨config, hostname, hasOcsp, nconfig, cipher, signature, transcript, inputData, inputHandshake,
    outputData, applicationData, clientUnique, serverUnique, state, draws, tr⟩ := r
  dsimp only at hside hst hn hk hhs ht hmfl hs hi
  subst hst hn hk hhs ht hi
  have hlim : ∀ (i : Bytes), (⟨config, hostname, hasOcsp, none, none, signature, ⟨algs.map (·, ch), 2⟩, i, [],
      outputData, applicationData, clientUnique, serverUnique, .clientWaitSH true [(g, priv)] chHash,
      draws, tr⟩ : Conn).recordLimit = n := fun i => by
    show config.maxFragmentLength + 0 = n
    rw [hmfl]; rfl
  by_cases hl : f.sh.length ≤ n
  · let r₁ : Conn := ⟨config, hostname, hasOcsp,
      some { NConfig.new with cipherSuite := some info.id, keyExchanges := some g },
      some (hsCipher E info .client z th 0 0), signature, ⟨[(info.digest, f.upTo ch 1)], 3⟩, [], [],
      outputData ++ recordBytes 20 [1], applicationData, clientUnique, some random, .clientWaitEE, draws, tr⟩
    have hk₁ : shouldRekey r₁ = .ok false := rekey_hs W (by omega) rfl
    have hd : Digests E ((⟨config, hostname, hasOcsp, none, none, signature, ⟨algs.map (·, ch), 2⟩, [], [],
        outputData, applicationData, clientUnique, serverUnique, .clientWaitSH true [(g, priv)] chHash,
        draws, tr⟩ : Conn).fed (recordBytes 22 f.sh)) r₁ := by
      refine .step (r₁ := r₁) ?_ rfl rfl (.done rfl hk₁)
      refine receive_step (m := .serverHello random [] info.id (helloExts g mine)) (b := true)
        (t' := ⟨algs.map (·, ch ++ f.sh), 3⟩)
        (read_clear (rest := []) (serHandshake_honest F.sh) rfl rfl (by show f.sh.length ≤ config.maxFragmentLength; omega)
          (by omega) (by simp [Conn.fed]))
        (decode_serHandshake (serverHello_good hrnd hrnd' _) F.sh) ?_ ?_
      · show Transcript.update _ _ config.side.other _ = _
        rw [hside]
        exact hello_answered _ _ _
      · have := client_hello (f := f) (ch := ch) (c := ⟨config, hostname, hasOcsp, none, none, signature,
          ⟨algs.map (·, ch ++ f.sh), 3⟩, [], [], outputData, applicationData, clientUnique, serverUnique,
          .clientWaitSH true [(g, priv)] chHash, draws, tr⟩) (random := random) W rfl hs
          (by show 1 ≤ config.maxFragmentLength; omega) (postInit_algs _ _ ha) hg hz
        rw [hth] at this
        exact this
    obtain ⟨t, ys', h1, h2, h3, hm₁⟩ := feed_then hm rfl hd (by simp [recordBytes]) hy hf
    rw [h1]
    have hlen : ∀ key iv, (E.aeadSeal info.id key iv
        (sealedHeader ((innerText 16384 info.tagLength 22 f.ee).length + info.tagLength))
        (innerText 16384 info.tagLength 22 f.ee)).length = paddedLength 16384 info.tagLength f.ee.length := by
      intro key iv
      rw [W.seals _ _ _ _ _ _ W.suite, innerText_padded (by omega)]
    have htag := W.tag
    have hp := padded_small (mfl := 16384) (tag := info.tagLength) (n := f.ee.length)
      (by simp [GoodMfl]) (by omega)
    have hp' : 4096 ≤ paddedLength 16384 info.tagLength f.ee.length := by
      rw [paddedLength, min16384]; omega
    unfold hsRecord sealedRecord at h2
    rw [recordBytes_eq 23] at h2
    refine feed_refused (r := { r₁ with tr := t }) W.seals ?_ hm₁ rfl rfl hk₁ (t := UInt8.ofNat 23) (by decide) ?_
      ys' [] h3 (.inl (by simp)) (.inr h2)
    · intro k key hk hkey
      cases hk
      exact ⟨W.suite, _, nextNonce_at (n := 0) rfl W.limit (by have := W.lim_ge; omega)⟩
    · rw [be16_dec (by rw [hlen]; omega), hlen]
      show config.maxFragmentLength + 256 < _
      omega
  · rw [recordBytes_eq] at hf
    refine feed_refused (r := ⟨config, hostname, hasOcsp, none, none, signature, ⟨algs.map (·, ch), 2⟩, [], [],
      outputData, applicationData, clientUnique, serverUnique, .clientWaitSH true [(g, priv)] chHash,
      draws, tr⟩) W.seals (fun k key h => by cases h) hm rfl rfl rfl
      (t := UInt8.ofNat 22) (by decide) ?_ ys [] hy (.inl (by simp)) (.inl hf)
    rw [hlim, be16_dec (by omega)]
    omega

/-- lowering the limit of the client of C56 -/
theorem narrow {kex : Nat → Nat → Except Exn (Bytes × Bytes)}
    {sign : Nat → Bytes → Bytes → Nat → Except Exn Bytes} {gc gs : Config} {host : Option PyStr} {k : Choice}
    {ocspC ocspS : Bool} {algsC algsS dsC dsS : List HashAlg} {randomC randomS : Bytes} {c₀ c₁ s₀ : Conn}
    {n : Nat} (hn : n = 512 ∨ n = 1024 ∨ n = 2048)
    (K : Compatible E gc gs host k) (L : Library E kex sign (gs.privateKey.getD []) k)
    (V : Vouched E ocspC ocspS gc (k.leaf :: k.rest))
    (hdc : suiteDigests gc.cipherSuites = .ok dsC) (hac : IsSetOrder algsC dsC)
    (hds : suiteDigests gs.cipherSuites = .ok dsS) (has : IsSetOrder algsS dsS)
    (hrc : randomC.length = 32) (hrs : randomS.length = 32) (hrr : randomS ≠ hrrRandom)
    (hc₀ : Conn.new { gc with maxFragmentLength := n } host ocspC algsC randomC = .ok c₀)
    (hs₀ : Conn.new gs none ocspS algsS randomS = .ok s₀)
    (hc₁ : Op.initiate.run E c₀ = (.ok [], c₁)) :
    ∃ s₁, Op.initiate.run (E.elsewhere kex sign) s₀ = (.ok [], s₁) ∧
    ∀ xs, Cuts xs c₁.outputData →
    ∃ s₂, feed (E.elsewhere kex sign) xs s₁ = (.ok (), s₂) ∧ s₂.outputData ≠ [] ∧
    ∀ ys, Cuts ys s₂.outputData →
    ∃ c₂, feed E ys (Op.drain.run E c₁).2 = (.error .attributeError, c₂) ∧ c₂.state = .failed := by
  -- the two connections
  have hstart := initiate_of_run hc₁
  have hmC := (MflInv.fresh (E := E) hc₀ (by show n ∈ fragmentSizes; rcases hn with rfl | rfl | rfl <;> decide)).run [.initiate]
  have hmS := (MflInv.fresh (E := E.elsewhere kex sign) hs₀ (by rw [K.limits.2]; decide)).run [.initiate]
  rw [runOps, hc₁, runOps] at hmC
  obtain ⟨hneC, _, rfl⟩ := new_client hc₀ K.client
  obtain ⟨hneS, _, rfl⟩ := new_server hs₀ K.server
  obtain ⟨info, lim, hinfo, hid, hsl, hlim⟩ := suite_works K.usable
  have W : Works E info lim := ⟨L.sized, L.opens, L.seals, by rw [hid]; exact hinfo, hlim⟩
  have WS : Works (E.elsewhere kex sign) info lim := W.elsewhere
  have hmem : k.suite ∈ gs.cipherSuites ∧ gc.cipherSuites.contains k.suite = true :=
    ⟨List.mem_of_find?_eq_some K.suite, List.find?_some K.suite⟩
  have hdigC : info.digest ∈ algsC := (hac.2 _).mpr (suiteDigests_mem hdc (by simpa using hmem.2) hinfo)
  have hdigS : info.digest ∈ algsS := (has.2 _).mpr (suiteDigests_mem hds hmem.1 hinfo)
  -- the ClientHello
  obtain ⟨g, gl, priv, share, ch, fs, hash, t, hgl, hreg, hki, hser, hcut, rfl⟩ :=
    client_start rfl K.client rfl rfl rfl rfl hneC
      (by show 4 ≤ n; omega)
      (by show n ≤ 16384; omega) hstart
  dsimp only at hgl hki hser hcut
  have hg : g = k.group := by
    have := K.group.1
    rw [hgl] at this
    exact Option.some.inj this
  subst hg
  obtain ⟨b, pb, hkb, hlb⟩ := L.generates 0
  obtain ⟨z, hz, hzc, hzs⟩ := L.agrees _ _ _ _ _ _ hki hkb
  obtain ⟨pub, hpub, hsign⟩ := L.signs
  obtain ⟨hreg', hsmall⟩ := fit_known (by obtain ⟨_, _, _, h, _⟩ := K.scheme; exact h.1)
  have hscheme : gc.signatureAlgorithms.contains k.scheme = true := by
    obtain ⟨_, _, _, h, _⟩ := K.scheme
    simpa using h.2
  have hnoauth : gs.requirePeerAuth = false := by simp [Config.requirePeerAuth, K.anonymous]
  have halpn : ∀ p, gs.alpn.find? gc.alpn.contains = some p → p ∈ gc.alpn := by
    intro p hp
    simpa using List.find?_some hp
  -- the flight of the server
  obtain ⟨staple, j, hS, hsz, hst⟩ := V.staples L.small 1
  obtain ⟨f, F⟩ := flies_exist (E := E) (sign := sign) (echo := gs.canEchoHeartbeat) (d := 1 + j) (staple := staple) (ch := ch) (z := z)
    (p := gs.alpn.find? gc.alpn.contains) (chain := k.leaf :: k.rest) (key := gs.privateKey.getD []) W hrs
    (by rw [hid]; exact hsl) (kex_small hreg) hsmall hlb (fun p hp => (K.names p (halpn p hp)).1) hsz
    (fun msg => by obtain ⟨sig, h1, h2, _⟩ := hsign msg (1 + j); exact ⟨sig, h1, h2⟩)
  have hSS : Staples (E.elsewhere kex sign) ocspS gc.trustStore.isSome (k.leaf :: k.rest) 1 staple j := by
    cases hS with
    | off h => exact .off h
    | on ho hw hc hu hf hv => exact .on ho hw hc hu hf hv
    | bad ho hw hc hu hf hv => exact .bad ho hw hc hu hf hv
  let s₁ : Conn :=
    { config := gs, hostname := none, hasOcsp := ocspS, nconfig := none, cipher := none,
      signature := none, transcript := ⟨algsS.map (·, []), 1⟩, inputData := [], inputHandshake := [],
      outputData := [], applicationData := [], clientUnique := none, serverUnique := some randomS,
      state := .serverWaitCH true, draws := 0, tr := [] }
  have hdS : Digests (E.elsewhere kex sign) (s₁.fed (wireOf (fs.map fun f => (22, f)))) _ :=
    server_digest (r := s₁.fed (wireOf (fs.map fun f => (22, f)))) (f := f) (algs := algsS) (random := randomS)
      (crandom := randomC) (suites := gc.cipherSuites) (leaf := k.leaf) (rest := k.rest)
      (scheme := k.scheme) (z := z) (mine := pb) WS K.server rfl
      (by rw [hid]; exact K.suite) rfl rfl rfl rfl hdigS K.limits.2 rfl hSS hser
      (offer_good (E := E.elsewhere kex sign) _ hrc (by rintro h; rw [h] at hmem; simp at hmem)
        K.noRaw.1 K.noRaw.2 K.names K.ascii) hcut rfl
      (offer_meets (E := E.elsewhere kex sign) K.noRaw.2 K.preferred hreg K.chain K.scheme hkb hzs hz hnoauth
        K.protocols) F.elsewhere
  refine ⟨s₁, rfl, fun xs hxs => ?_⟩
  obtain ⟨tS, hfS⟩ := feed_digests (r := s₁) hmS rfl hdS hxs.2.1 hxs.2.2 hxs.1
  let s₂ : Conn := { s₁ with
    nconfig := some (serverDeal { NConfig.new with cipherSuite := some info.id } gs k.group
      (gs.alpn.find? gc.alpn.contains)
      (if gc.canEchoHeartbeat then Iana.peerAllowedToSend else Iana.peerNotAllowedToSend)
      gc.trustStore.isSome)
    clientUnique := some randomC
    signature := some (k.scheme, gs.privateKey.getD [])
    cipher := some (hsCipher E info .server z (E.hash info.digest (f.upTo ch 1)) 4 0)
    transcript := ⟨[(info.digest, f.upTo ch 5)], 8⟩
    outputData := f.bytes E info z (E.hash info.digest (f.upTo ch 1))
    draws := 1 + j + 1
    state := .serverWaitFin (E.hash info.digest (f.upTo ch 5))
    tr := tS }
  have hfS : feed (E.elsewhere kex sign) xs s₁ = (.ok (), s₂) := hfS
  have hmS₂ := hmS.feed hfS
  have hflight : s₂.outputData ≠ [] := by
    show recordBytes 22 f.sh ++ _ ≠ []
    simp [recordBytes]
  refine ⟨s₂, hfS, hflight, fun ys hys => ?_⟩
  let c₁ : Conn :=
    { config := { gc with maxFragmentLength := n }, hostname := host, hasOcsp := ocspC, nconfig := none,
      cipher := none, signature := none, transcript := ⟨algsC.map (·, ch), 2⟩, inputData := [],
      inputHandshake := [], outputData := [], applicationData := [], clientUnique := some randomC,
      serverUnique := none, state := .clientWaitSH true [(k.group, priv)] hash, draws := 1, tr := t }
  have hmC₁ : MflInv E c₁ := ⟨hmC.config, hmC.negotiated, hmC.parsed⟩
  exact client_refuses (E := E) (r := c₁) (f := f) (algs := algsC) (random := randomS) (chHash := hash)
    (n := n) W K.client rfl rfl rfl rfl rfl rfl hdigC hmC₁ rfl (by omega) (by omega)
    (by rw [hid]; exact hmem.2) hreg hzc hrs hrr F hys.2.2 hys.1

end Siotls
