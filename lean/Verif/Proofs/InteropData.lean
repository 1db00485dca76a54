import Verif.Spec.InteropData
import Verif.Proofs.Interop
/-!
# Application data of a peer of any make: helper lemmas
-/

namespace Siotls
open Spec Serial

variable {E : Env}

theorem dataRecords_append (info : SuiteInfo) (secret : Bytes) (i j : List (Bytes × Nat)) : ∀ n,
    dataRecords E info secret n (i ++ j) =
      dataRecords E info secret n i ++ dataRecords E info secret (n + i.length) j := by
  induction i with
  | nil => intro n; rfl
  | cons x i ih =>
    intro n
    obtain ⟨d, pad⟩ := x
    rw [List.cons_append, dataRecords, dataRecords, ih, List.append_assoc, List.length_cons,
      show n + 1 + i.length = n + (i.length + 1) by omega]

/-- the body of a record -/
theorem sealedUnder_body {info : SuiteInfo} {lim n pad : Nat} {secret data : Bytes} (W : Works E info lim) :
    ∃ b, sealedUnder E info secret n 23 data pad = recordBytes 23 b ∧
      b.length = data.length + 1 + pad + info.tagLength := by
  refine ⟨_, rfl, ?_⟩
  rw [W.seals info.id info _ _ _ _ W.suite]
  simp
  omega

theorem recordLimit_decrypts {r : Conn} (h : r.mustDecrypt = true) : r.recordLimit = r.mfl + 256 := by
  unfold Conn.recordLimit
  rw [h, if_pos rfl]

theorem trafficKeys_decrypts {r : Conn} {info : SuiteInfo} {k : CipherSt} {secret : Bytes} {n : Nat}
    (hk : r.cipher = some { k with rd := trafficKeys E info secret n }) : r.mustDecrypt = true := by
  simp [Conn.mustDecrypt, hk, trafficKeys]

/-- reading one record, however padded -/
theorem data_record {r : Conn} {info : SuiteInfo} {k : CipherSt} {lim n pad : Nat} {secret data rest : Bytes}
    (W : Works E info lim) (hn : n < lim) (hinfo : k.info = info)
    (hk : r.cipher = some { k with rd := trafficKeys E info secret n })
    (hl : data.length + 1 + pad + info.tagLength ≤ r.mfl + 256) (hmfl : r.mfl ≤ 16384)
    (hi : r.inputData = sealedUnder E info secret n 23 data pad ++ rest) :
    ∃ t, readNextRecord E r = (.ok (some (23, data)), { r with
      inputData := rest
      cipher := some { k with rd := trafficKeys E info secret (n + 1) }
      tr := t }) := by
  subst hinfo
  have hmd := trafficKeys_decrypts hk
  unfold sealedUnder at hi
  dsimp only at hi
  have hil : (data ++ [UInt8.ofNat 23] ++ List.replicate pad 0).length = data.length + 1 + pad := by
    simp; omega
  generalize hin : data ++ [UInt8.ofNat 23] ++ List.replicate pad 0 = inner at hi hil
  have hstrip : stripPadding inner = some (23, data) := by rw [← hin]; exact stripPadding_any (by omega) (by omega)
  obtain ⟨key, hkey⟩ : ∃ key, key = (E.spec k.info.digest).writeKey secret k.info.keyLength := ⟨_, rfl⟩
  obtain ⟨iv, hiv⟩ : ∃ iv, iv = (E.spec k.info.digest).writeIv secret 12 := ⟨_, rfl⟩
  rw [← hkey, ← hiv] at hi
  have hrd : trafficKeys E k.info secret n = ⟨some key, some iv, some n⟩ := by rw [hkey, hiv]; rfl
  have hrd' : trafficKeys E k.info secret (n + 1) = ⟨some key, some iv, some (n + 1)⟩ := by rw [hkey, hiv]; rfl
  rw [hrd] at hk
  rw [hrd']
  have hbl := W.seals k.info.id k.info key (xorBytes iv (beEnc k.info.nonceLength n))
    ([23, 3, 3] ++ be16 (inner.length + k.info.tagLength)) inner W.suite
  refine ⟨.opened k.info.id key (xorBytes iv (beEnc k.info.nonceLength n))
            ([23, 3, 3] ++ be16 (inner.length + k.info.tagLength)) inner :: r.tr, ?_⟩
  rw [readNextRecord_whole (c := r) (rest := rest) (by omega) (by omega)
    (by rw [hbl]; omega) (by rw [recordLimit_decrypts hmd, hbl]; omega) hi]
  unfold useRecord
  rw [show Conn.mustDecrypt { r with inputData := rest } = true from hmd, if_pos rfl]
  have hopen := W.opens k.info.id k.info key (xorBytes iv (beEnc k.info.nonceLength n))
      ([23, 3, 3] ++ be16 (inner.length + k.info.tagLength)) inner W.suite
  rw [hbl]
  have hhd : ([UInt8.ofNat 23, 3, 3] : Bytes) = [23, 3, 3] := rfl
  rw [hhd]
  simp only [decryptRecord, hk, nextNonce_at (d := ⟨some key, some iv, some n⟩) rfl W.limit hn, hopen, hstrip]
  rfl

/-- one record of application data -/
theorem data_step {r : Conn} {info : SuiteInfo} {k : CipherSt} {lim n pad : Nat} {secret data rest : Bytes}
    (W : Works E info lim) (hn : n < lim) (hr : Listening r) (hinfo : k.info = info)
    (hk : r.cipher = some { k with rd := trafficKeys E info secret n })
    (hl : data.length + 1 + pad + info.tagLength ≤ r.mfl + 256) (hmfl : r.mfl ≤ 16384)
    (hi : r.inputData = sealedUnder E info secret n 23 data pad ++ rest) :
    ∃ t, receiveStep E r = (.ok true, { r with
      inputData := rest
      cipher := some { k with rd := trafficKeys E info secret (n + 1) }
      applicationData := r.applicationData ++ data
      tr := t }) := by
  obtain ⟨t, hread⟩ := data_record W hn hinfo hk hl hmfl hi
  obtain ⟨hst, hhs⟩ := hr
  refine ⟨.delivered data :: .recv (.applicationData data) :: .got 23 data :: t, ?_⟩
  rw [receiveStep_eq, readNextContent, hread]
  dsimp only
  rw [if_pos ⟨by simp [hhs], by decide⟩]
  dsimp only
  unfold useContent
  simp only [M.bind_def, M.get, M.lift, decode_app, hashContent, ghost, M.modify]
  dsimp only [pure, M.pure]
  have hp : ∀ c : Conn, c.state = r.state → process E (.applicationData data) c =
      (.ok (), { c with applicationData := c.applicationData ++ data, tr := .delivered data :: c.tr }) := by
    intro c hc
    have : process E (.applicationData data) c = connectedProcess (.applicationData data) c := by
      unfold process
      rcases hst with h | ⟨s, h⟩ <;> rw [h] at hc <;> rw [hc] <;> rfl
    rw [this]
    rfl
  rw [hp _ (by rfl)]

/-- nothing to do until the record is whole -/
theorem data_wait {r : Conn} {info : SuiteInfo} {k : CipherSt} {lim n pad : Nat} {secret data q : Bytes}
    (W : Works E info lim)
    (hk : r.cipher = some { k with rd := trafficKeys E info secret n })
    (hl : data.length + 1 + pad + info.tagLength ≤ r.mfl + 256) (hmfl : r.mfl ≤ 16384) (hq : q ≠ [])
    (hi : r.inputData ++ q = sealedUnder E info secret n 23 data pad) : loop E r = (.ok (), r) := by
  obtain ⟨b, hb, hbl⟩ := sealedUnder_body (n := n) (pad := pad) (secret := secret) (data := data) W
  rw [hb] at hi
  have hn : readNextRecord E r = (.ok none, r) :=
    readNextRecord_part (by omega) (by omega) (by omega)
      (by rw [recordLimit_decrypts (trafficKeys_decrypts hk)]; omega) hq hi
  rw [loop_eq, receiveStep_eq, readNextContent, hn]

theorem empty_wait {r : Conn} (hi : r.inputData = []) : loop E r = (.ok (), r) := by
  have hn : readNextRecord E r = (.ok none, r) := by
    rw [readNextRecord_short (by rw [hi]; exact Nat.zero_lt_succ _), hi]
    cases r
    cases hi
    rfl
  rw [loop_eq, receiveStep_eq, readNextContent, hn]

/-- what a connection that gets data keeps -/
theorem Spec.Hears.trans {info : SuiteInfo} {secret x y z rest : Bytes} {n : Nat} {k : CipherSt} {c c₁ c₂ : Conn}
    {items j i i' : List (Bytes × Nat)} (hsplit : items = i ++ j)
    (hx : x = dataRecords E info secret n i ++ y)
    (h : c₁ = { c with
      inputData := rest
      cipher := some { k with rd := trafficKeys E info secret (n + i.length) }
      applicationData := c.applicationData ++ (i.map (·.1)).flatten
      tr := c₁.tr })
    (h' : Hears E info secret (n + i.length) j c₁ { k with rd := trafficKeys E info secret (n + i.length) } y c₂ i' z) :
    Hears E info secret n items c k x c₂ (i ++ i') z := by
  obtain ⟨⟨j', hj, hy, hz⟩, hs⟩ := h'
  refine ⟨⟨j', by rw [hsplit, hj, List.append_assoc], ?_, ?_⟩, ?_⟩
  · rw [hx, hy, dataRecords_append, List.append_assoc]
  · intro d pad j'' hj''
    have := hz d pad j'' hj''
    rwa [List.length_append, ← Nat.add_assoc]
  · generalize c₂.tr = t at hs ⊢
    rw [hs, h]
    simp [Nat.add_assoc]

/-- the loop handles the whole records of the input -/
theorem data_loop {info : SuiteInfo} {lim : Nat} {secret q : Bytes} (W : Works E info lim)
    (items : List (Bytes × Nat)) : ∀ {r : Conn} {k : CipherSt} {n : Nat}, n + items.length ≤ lim →
    Listening r → k.info = info → r.cipher = some { k with rd := trafficKeys E info secret n } →
    (∀ x ∈ items, x.1.length + 1 + x.2 + info.tagLength ≤ r.mfl + 256) → r.mfl ≤ 16384 →
    r.inputData ++ q = dataRecords E info secret n items →
    ∃ r' i rest, loop E r = (.ok (), r') ∧ Hears E info secret n items r k r.inputData r' i rest := by
  induction items with
  | nil =>
    intro r k n _ _ _ hk _ _ hi
    have hin := (List.append_eq_nil_iff.mp hi).1
    refine ⟨r, [], [], empty_wait hin, ⟨[], rfl, by rw [hin]; rfl, by simp⟩, ?_⟩
    cases r
    cases hin
    cases hk
    simp
  | cons x items ih =>
    intro r k n hn hr hinfo hk hl hmfl hi
    obtain ⟨data, pad⟩ := x
    rw [List.length_cons] at hn
    have hl0 := hl _ List.mem_cons_self
    rw [dataRecords] at hi
    have whole : ∀ rest, r.inputData = sealedUnder E info secret n 23 data pad ++ rest →
        rest ++ q = dataRecords E info secret (n + 1) items →
        ∃ r' i rest', loop E r = (.ok (), r') ∧
          Hears E info secret n ((data, pad) :: items) r k r.inputData r' i rest' := by
      intro rest h1 h2
      obtain ⟨t, hs⟩ := data_step W (by omega) hr hinfo hk hl0 hmfl h1
      obtain ⟨r', i, rest', hloop, hh⟩ := ih (r := { r with
          inputData := rest
          cipher := some { k with rd := trafficKeys E info secret (n + 1) }
          applicationData := r.applicationData ++ data
          tr := t }) (k := { k with rd := trafficKeys E info secret (n + 1) }) (n := n + 1)
        (by omega) hr hinfo rfl (fun y hy => hl y (List.mem_cons_of_mem _ hy)) hmfl h2
      refine ⟨r', [(data, pad)] ++ i, rest', ?_, ?_⟩
      · rw [loop_eq, hs]
        exact hloop
      · exact Hears.trans (i := [(data, pad)]) (j := items) (rest := rest) rfl
          (by rw [h1]; simp [dataRecords]) (by simp) hh
    rcases List.append_eq_append_iff.mp hi with ⟨x, hx, hq⟩ | ⟨rest, hx, hq⟩
    · by_cases hxe : x = []
      · subst hxe
        rw [List.append_nil] at hx
        exact whole [] (by rw [List.append_nil]; exact hx.symm) (by simpa using hq)
      · refine ⟨r, [], r.inputData, data_wait W hk hl0 hmfl hxe hx.symm, ⟨_, rfl, rfl, ?_⟩, ?_⟩
        · intro d p j' he
          cases he
          have := congrArg List.length hx
          rw [List.length_append] at this
          have := List.length_pos_iff.mpr hxe
          rw [List.length_nil, Nat.add_zero]
          omega
        · cases r
          cases hk
          simp
    · exact whole rest hx hq.symm


theorem data_feed {info : SuiteInfo} {lim : Nat} {secret q : Bytes} (W : Works E info lim)
    (ys : List Bytes) : ∀ {items : List (Bytes × Nat)} {r : Conn} {k : CipherSt} {n : Nat},
    n + items.length ≤ lim → Listening r → k.info = info → shouldRekey r = .ok false →
    r.cipher = some { k with rd := trafficKeys E info secret n } →
    (∀ x ∈ items, x.1.length + 1 + x.2 + info.tagLength ≤ r.mfl + 256) → r.mfl ≤ 16384 →
    (∀ y ∈ ys, y ≠ []) → r.inputData ++ (ys.flatten ++ q) = dataRecords E info secret n items →
    (∀ d pad j, items = (d, pad) :: j →
      r.inputData.length < (sealedUnder E info secret n 23 d pad).length) →
    ∃ r' i rest, feed E ys r = (.ok (), r') ∧
      Hears E info secret n items r k (r.inputData ++ ys.flatten) r' i rest := by
  induction ys with
  | nil =>
    intro items r k n _ _ _ _ hk _ _ _ _ hshort
    refine ⟨r, [], r.inputData, rfl, ⟨items, rfl, by simp [dataRecords], fun d pad j h => by
      simpa using hshort d pad j h⟩, ?_⟩
    cases r
    cases hk
    simp
  | cons y ys ih =>
    intro items r k n hn hr hinfo hsr hk hl hmfl hy hi hshort
    obtain ⟨r₁, i, rest, hloop, hh⟩ := data_loop (q := ys.flatten ++ q) W items (r := r.fed y) (n := n) hn hr hinfo hk hl hmfl
      (by rw [Conn.fed]; simpa using hi)
    have hrec : receiveData E y r = (.ok (), r₁) := by
      rw [receiveData_eq (hy y List.mem_cons_self) hr.canReceive, hloop]
      dsimp only [finishReceive]
      have : shouldRekey r₁ = shouldRekey r := by
        unfold shouldRekey
        rw [hh.same, hk]
      rw [this, hsr]
    have hs := hh.same
    obtain ⟨j, hj, hgot, hz⟩ := hh.taken
    have hrk : shouldRekey r₁ = .ok false := by
      rw [← hsr]
      unfold shouldRekey
      rw [hs, hk]
    have hmfl₁ : r₁.mfl = r.mfl := by rw [hs]; rfl
    obtain ⟨r₂, i', rest', hf, hh'⟩ := ih (items := j) (r := r₁)
      (k := { k with rd := trafficKeys E info secret (n + i.length) }) (n := n + i.length)
      (by rw [hj, List.length_append] at hn; omega) (by rw [hs]; exact hr) hinfo hrk (by rw [hs])
      (fun x hx => by rw [hmfl₁]; exact hl x (by rw [hj]; exact List.mem_append_right _ hx)) (by rw [hmfl₁]; exact hmfl)
      (fun x hx => hy x (List.mem_cons_of_mem _ hx))
      (by
        rw [hj, dataRecords_append] at hi
        have hri : r₁.inputData = rest := by rw [hs]
        rw [hri]
        have hfed : (r.fed y).inputData = r.inputData ++ y := rfl
        rw [hfed] at hgot
        rw [List.flatten_cons, List.append_assoc, ← List.append_assoc, hgot, List.append_assoc] at hi
        exact List.append_cancel_left hi)
      (by
        have hri : r₁.inputData = rest := by rw [hs]
        rw [hri]
        exact hz)
    refine ⟨r₂, i ++ i', rest', by rw [feed, hrec]; exact hf, ?_⟩
    have hri : r₁.inputData = rest := by rw [hs]
    rw [hri] at hh'
    refine Hears.trans (j := j) (rest := rest) hj ?_ hs hh'
    have hfed : (r.fed y).inputData = r.inputData ++ y := rfl
    rw [hfed] at hgot
    rw [List.flatten_cons, ← List.append_assoc, hgot, List.append_assoc]

end Siotls
