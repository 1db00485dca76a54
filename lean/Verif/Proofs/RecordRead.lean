import Verif.Proofs.Record
import Verif.Proofs.Handshakes
/-!
# Reading back the records
-/

namespace Siotls
open Spec Serial

variable {E : Env}

theorem be16_dec {n : Nat} (h : n < 65536) :
    beDec [UInt8.ofNat (n / 256), UInt8.ofNat (n % 256)] = n := by
  have := beDec_beEnc (n := 2) (i := n) (by simpa using h)
  rwa [beEnc_two] at this

theorem recordBytes_eq (o : Nat) (b : Bytes) : recordBytes o b =
    UInt8.ofNat o :: 3 :: 3 :: UInt8.ofNat (b.length / 256) :: UInt8.ofNat (b.length % 256) :: b := rfl

theorem length_recordBytes (o : Nat) (b : Bytes) : (recordBytes o b).length = 5 + b.length := by
  rw [recordBytes_eq]; simp; omega

theorem skipCcs_other {d : Bytes} (h : d.head? ≠ some 20) : skipCcs d = d := by
  rw [skipCcs.eq_def]
  split
  · split
    · rename_i hc
      obtain ⟨rfl, _⟩ := hc
      exact absurd rfl h
    · rfl
  · rfl

theorem ofNat_ne_20 {o : Nat} (h : o < 256) (h2 : o ≠ 20) : UInt8.ofNat o ≠ 20 := by
  intro h'
  have := congrArg UInt8.toNat h'
  rw [UInt8.toNat_ofNat'] at this
  have h3 : (20 : UInt8).toNat = 20 := rfl
  rw [h3] at this
  omega

/-- a whole record at the head of the input -/
theorem readNextRecord_whole {c : Conn} {o : Nat} {b rest : Bytes} (ho : o < 256) (ho' : o ≠ 20)
    (hb : b.length < 65536) (hl : b.length ≤ c.recordLimit)
    (h : c.inputData = recordBytes o b ++ rest) :
    readNextRecord E c = useRecord E o ([UInt8.ofNat o, 3, 3] ++ be16 b.length) b
      { c with inputData := rest } := by
  have hs : skipCcs c.inputData = UInt8.ofNat o :: 3 :: 3 :: UInt8.ofNat (b.length / 256) ::
      UInt8.ofNat (b.length % 256) :: (b ++ rest) := by
    rw [skipCcs_other, h, recordBytes_eq]
    · rfl
    · rw [h, recordBytes_eq]
      simpa using ofNat_ne_20 ho ho'
  rw [readNextRecord_cons hs, be16_dec hb, if_neg (by omega), if_neg (by simp)]
  rw [List.take_left, List.drop_left, UInt8.toNat_ofNat', Nat.mod_eq_of_lt ho]
  rfl

/-- not yet a whole record -/
theorem readNextRecord_part {c : Conn} {o : Nat} {b q : Bytes} (ho : o < 256) (ho' : o ≠ 20)
    (hb : b.length < 65536) (hl : b.length ≤ c.recordLimit) (hq : q ≠ [])
    (h : c.inputData ++ q = recordBytes o b) : readNextRecord E c = (.ok none, c) := by
  have hs : skipCcs c.inputData = c.inputData := by
    refine skipCcs_other fun hh => ?_
    rcases hc : c.inputData with _ | ⟨x, xs⟩
    · rw [hc] at hh; cases hh
    · rw [hc] at hh h
      cases hh
      rw [recordBytes_eq] at h
      exact ofNat_ne_20 ho ho' (List.cons.inj h).1.symm
  have hc : ∀ d, d = c.inputData → { c with inputData := d } = c := by rintro d rfl; rfl
  by_cases h5 : c.inputData.length < 5
  · rw [readNextRecord_short (by rw [hs]; exact h5), hc _ hs]
  · obtain ⟨t, v1, v2, l1, l2, rest, hd⟩ := five_le (Nat.le_of_not_lt h5)
    rw [readNextRecord_cons (hs.trans hd)]
    rw [hd, recordBytes_eq] at h
    simp only [List.cons_append, List.cons.injEq] at h
    obtain ⟨rfl, rfl, rfl, rfl, rfl, h⟩ := h
    have hlen := congrArg List.length h
    rw [List.length_append] at hlen
    have := List.length_pos_iff.mpr hq
    rw [be16_dec hb, if_neg (by omega), if_pos (by omega), hc _ hs]

theorem stripPadding_padded {mfl tag ct : Nat} {f : Bytes} (h : 0 < ct) (h' : ct < 256) :
    stripPadding (innerText mfl tag ct f) = some (ct, f) := by
  unfold stripPadding innerText
  rw [beEnc_one]
  have hz : ∀ n (l : Bytes), (zeros n ++ l).dropWhile (· = 0) = l.dropWhile (· = 0) := by
    intro n l
    induction n with
    | zero => rfl
    | succ n ih =>
      show ((0 : UInt8) :: (zeros n ++ l)).dropWhile _ = _
      rw [List.dropWhile_cons_of_pos (by simp)]
      exact ih
  have hr : ∀ n, (zeros n).reverse = zeros n := fun n => by simp [zeros]
  rw [List.reverse_append, List.reverse_append, hr, List.append_assoc, hz]
  have hne : UInt8.ofNat ct ≠ 0 := by
    intro h0
    have := congrArg UInt8.toNat h0
    rw [UInt8.toNat_ofNat', show (0 : UInt8).toNat = 0 from rfl] at this
    omega
  simp only [List.reverse_singleton, List.singleton_append]
  rw [List.dropWhile_cons_of_neg (by simpa using hne)]
  simp only [List.reverse_reverse, UInt8.toNat_ofNat']
  rw [Nat.mod_eq_of_lt h']

/-- the cipher without its reading half -/
def CipherSt.writing (k : CipherSt) : CipherSt := { k with rd := .empty }

/-- what reading one record changes -/
structure ReadOn (r : Conn) (rest : Bytes) (r' : Conn) : Prop where
  same : r' = { r with inputData := rest, cipher := r'.cipher, tr := r'.tr }
  wr : r'.cipher.map CipherSt.writing = r.cipher.map CipherSt.writing
  dec : r'.mustDecrypt = r.mustDecrypt
  tr : ∃ new, r'.tr = new ++ r.tr ∧ ∀ e ∈ new, ∃ a b c d i, e = .opened a b c d i

theorem ReadOn.limit {r r' : Conn} {rest : Bytes} (h : ReadOn r rest r') :
    r'.recordLimit = r.recordLimit := by
  unfold Conn.recordLimit
  rw [h.dec]
  have : r'.mfl = r.mfl := by rw [h.same]; rfl
  rw [this]

/-- types a record may have here: not padding, not change_cipher_spec -/
def GoodType (ct : Nat) : Prop := 0 < ct ∧ ct < 256 ∧ ct ≠ 20

theorem read_rec {mfl ct o : Nat} {f b rest : Bytes} {ks ks' : Option CipherSt}
    {is rs : List (Nat × Bytes)} {r : Conn} (hO : E.Opens)
    (h : Recs E mfl ks ((ct, f) :: is) ((o, b) :: rs) ks') (hm : Matched ks r.cipher)
    (hct : GoodType ct) (hl : b.length ≤ r.recordLimit)
    (hi : r.inputData = recordBytes o b ++ rest) :
    ∃ ks₁ r', readNextRecord E r = (.ok (some (ct, f)), r') ∧ ReadOn r rest r' ∧
      Recs E mfl ks₁ is rs ks' ∧ Matched ks₁ r'.cipher := by
  obtain ⟨hct0, hct1, hct2⟩ := hct
  cases h with
  | plain hp hlen hrest =>
    rw [readNextRecord_whole hct1 hct2 hlen hl hi]
    have hdec : r.mustDecrypt = false := by
      rcases hm with ⟨_, h2⟩ | ⟨s, k, h1, _, _, _, h5, _⟩
      · unfold Conn.mustDecrypt
        cases hk : r.cipher with
        | none => rfl
        | some k => simp [h2 k hk]
      · exact absurd (hp s h1) h5
    refine ⟨ks, { r with inputData := rest }, ?_, ⟨rfl, rfl, rfl, [], rfl, by simp⟩, hrest, hm⟩
    unfold useRecord
    rw [show Conn.mustDecrypt { r with inputData := rest } = false from hdec]
    simp only [Bool.false_eq_true, if_false]
    rw [if_neg (show ¬ ct = Iana.ctChangeCipherSpec from hct2)]
  | @«sealed» k _ _ key nonce wr _ _ _ _ hkey hn hb hbl hlen hrest =>
    rw [readNextRecord_whole (by omega) (by omega) hlen hl hi]
    rcases hm with ⟨h1, _⟩ | ⟨s, kr, h1, h2, h3, h4, h5, h6⟩
    · rw [h1 _ rfl] at hkey; cases hkey
    cases h1
    have hkr : kr.rd.key = some key := by rw [← h4]; exact hkey
    have hn' : nextNonce kr.info kr.rd = .ok (nonce, wr) := by rw [← h3, ← h4]; exact hn
    obtain ⟨_, _, _, _, hd, _⟩ := nextNonce_shape hn
    refine ⟨some { k with wr := wr }, { r with
        inputData := rest
        cipher := some { kr with rd := wr }
        tr := .opened kr.info.id key nonce (sealedHeader b.length)
          (innerText mfl k.info.tagLength ct f) :: r.tr }, ?_, ⟨rfl, ?_, ?_, ?_⟩, hrest, ?_⟩
    · unfold useRecord
      have hmd : Conn.mustDecrypt { r with inputData := rest } = true := by
        simp [Conn.mustDecrypt, h2, hkr]
      rw [hmd, if_pos rfl]
      have hopen : E.aeadOpen kr.info.id key nonce (sealedHeader b.length) b =
          some (innerText mfl k.info.tagLength ct f) := by
        conv_lhs => rw [hbl, hb]
        rw [← h3]
        exact hO _ _ _ _ _ _ h6
      have hhd : ([UInt8.ofNat 23, 3, 3] ++ be16 b.length : Bytes) = sealedHeader b.length := by
        rw [sealedHeader, beEnc_two]; rfl
      rw [hhd]
      simp only [decryptRecord, h2, hkr, hn', hopen, stripPadding_padded hct0 hct1]
      rw [if_neg (show ¬ ct = Iana.ctChangeCipherSpec from hct2)]
    · rw [h2]; rfl
    · simp [Conn.mustDecrypt, h2, hd, hkr, h4]
    · exact ⟨[_], rfl, by simp⟩
    · exact .inr ⟨_, _, rfl, rfl, h3, rfl, by rw [hd]; simp [hkey], h6⟩

/-! ## Application data -/

theorem decode_app (ct : Option (Option Nat)) (d : Bytes) :
    decodeContent E ct 23 d = .ok (.applicationData d) := by
  have h : readAll (Stream.new d) = .ok (d, ⟨[], d.length, []⟩) := by
    simp [readAll, rawRead, Stream.new]
  have h2 : parseApplicationData (Stream.new d) =
      .ok (.applicationData d, ⟨[], d.length, []⟩) := by
    unfold parseApplicationData
    rw [P.bind_def, h]
    rfl
  unfold decodeContent
  rw [show parseContent E ct 23 = parseApplicationData from rfl, P.bind_def, h2]
  rfl

/-- a connection that hands over application data -/
def Listening (r : Conn) : Prop :=
  (r.state = .connected ∨ ∃ s, r.state = .closed true s) ∧ r.inputHandshake = []

/-- what receiving some application data changes -/
structure RecvOn (r : Conn) (rest data : Bytes) (r' : Conn) : Prop where
  same : r' = { r with inputData := rest, cipher := r'.cipher, tr := r'.tr,
                       applicationData := r.applicationData ++ data }
  wr : r'.cipher.map CipherSt.writing = r.cipher.map CipherSt.writing
  dec : r'.mustDecrypt = r.mustDecrypt

theorem RecvOn.limit {r r' : Conn} {rest d : Bytes} (h : RecvOn r rest d r') :
    r'.recordLimit = r.recordLimit := by
  unfold Conn.recordLimit
  rw [h.dec]
  have : r'.mfl = r.mfl := by rw [h.same]; rfl
  rw [this]

theorem RecvOn.listening {r r' : Conn} {rest d : Bytes} (h : RecvOn r rest d r')
    (hl : Listening r) : Listening r' := by rw [h.same]; exact hl

theorem RecvOn.input {r r' : Conn} {rest d : Bytes} (h : RecvOn r rest d r') :
    r'.inputData = rest := by rw [h.same]

theorem RecvOn.app {r r' : Conn} {rest d : Bytes} (h : RecvOn r rest d r') :
    r'.applicationData = r.applicationData ++ d := by rw [h.same]

theorem RecvOn.refl (r : Conn) : RecvOn r r.inputData [] r :=
  ⟨by rw [List.append_nil], rfl, rfl⟩

theorem RecvOn.trans {r r₁ r₂ : Conn} {x y d e : Bytes} (h : RecvOn r x d r₁)
    (h' : RecvOn r₁ y e r₂) : RecvOn r y (d ++ e) r₂ := by
  refine ⟨?_, h'.wr.trans h.wr, h'.dec.trans h.dec⟩
  have h1 := h.same
  have h2 := h'.same
  cases r; cases r₁; cases r₂
  simp only [Conn.mk.injEq] at h1 h2 ⊢
  simp_all

theorem RecvOn.rekey {r r' : Conn} {x d : Bytes} (h : RecvOn r x d r') :
    shouldRekey r' = shouldRekey r := by
  have := h.wr
  unfold shouldRekey
  cases h1 : r.cipher with
  | none =>
    rw [h1] at this
    cases h2 : r'.cipher with
    | none => rfl
    | some k => rw [h2] at this; cases this
  | some k =>
    rw [h1] at this
    cases h2 : r'.cipher with
    | none => rw [h2] at this; cases this
    | some k' =>
      rw [h2] at this
      simp only [Option.map_some, Option.some.injEq, CipherSt.writing, CipherSt.mk.injEq] at this
      dsimp only
      rw [this.1, this.2.2.2.2.1]

theorem step_app {mfl o : Nat} {f b rest : Bytes} {ks ks' : Option CipherSt}
    {is rs : List (Nat × Bytes)} {r : Conn} (hO : E.Opens) (hr : Listening r)
    (h : Recs E mfl ks ((23, f) :: is) ((o, b) :: rs) ks') (hm : Matched ks r.cipher)
    (hl : b.length ≤ r.recordLimit) (hi : r.inputData = recordBytes o b ++ rest) :
    ∃ ks₁ r', receiveStep E r = (.ok true, r') ∧ RecvOn r rest f r' ∧
      Recs E mfl ks₁ is rs ks' ∧ Matched ks₁ r'.cipher := by
  obtain ⟨ks₁, r₁, hread, hon, hrec, hmat⟩ := read_rec hO h hm ⟨by omega, by omega, by omega⟩ hl hi
  obtain ⟨hst, hhs⟩ := hr
  have hhs₁ : r₁.inputHandshake = [] := by rw [hon.same]; exact hhs
  have hst₁ : r₁.state = r.state := by rw [hon.same]
  refine ⟨ks₁, { r₁ with
    applicationData := r₁.applicationData ++ f
    tr := .delivered f :: .recv (.applicationData f) :: .got 23 f :: r₁.tr }, ?_, ?_, hrec, hmat⟩
  · rw [receiveStep_eq, readNextContent, hread]
    dsimp only
    rw [if_pos ⟨by simp [hhs₁], by decide⟩]
    dsimp only
    unfold useContent
    simp only [M.bind_def, M.get, M.lift, decode_app, hashContent, ghost, M.modify]
    dsimp only [pure, M.pure]
    have hp : ∀ c : Conn, c.state = r.state → process E (.applicationData f) c =
        (.ok (), { c with applicationData := c.applicationData ++ f, tr := .delivered f :: c.tr }) := by
      intro c hc
      have : process E (.applicationData f) c = connectedProcess (.applicationData f) c := by
        unfold process
        rcases hst with h | ⟨s, h⟩ <;> rw [h] at hc <;> rw [hc] <;> rfl
      rw [this]
      rfl
    rw [hp _ (by exact hst₁)]
  · refine ⟨?_, hon.wr, hon.dec⟩
    have := hon.same
    cases r; cases r₁
    simp only [Conn.mk.injEq] at this ⊢
    simp_all

/-- all of the whole records of the input are handled -/
theorem loop_app {mfl : Nat} {ks ks' : Option CipherSt} {is rs : List (Nat × Bytes)} {r : Conn}
    {q : Bytes} (hO : E.Opens) (h : Recs E mfl ks is rs ks') (hr : Listening r)
    (hm : Matched ks r.cipher) (happ : ∀ i ∈ is, i.1 = 23)
    (hl : ∀ x ∈ rs, x.2.length ≤ r.recordLimit) (hi : r.inputData ++ q = wireOf rs) :
    ∃ i₁ i₂ s₂ ks₁ r', is = i₁ ++ i₂ ∧ loop E r = (.ok (), r') ∧
      RecvOn r r'.inputData (i₁.map (·.2)).flatten r' ∧ Recs E mfl ks₁ i₂ s₂ ks' ∧
      Matched ks₁ r'.cipher ∧ r'.inputData ++ q = wireOf s₂ ∧ (∀ x ∈ s₂, x ∈ rs) ∧
      (q = [] → i₂ = []) := by
  induction rs generalizing ks is r with
  | nil =>
    cases h
    obtain ⟨hin, rfl⟩ := List.append_eq_nil_iff.mp hi
    refine ⟨[], [], [], _, r, rfl, ?_, .refl r, .nil _, hm, by rw [hin]; rfl, by simp, fun _ => rfl⟩
    have hn : readNextRecord E r = (.ok none, r) := by
      rw [readNextRecord_short (by rw [hin]; exact Nat.zero_lt_succ _), hin]
      cases r
      cases hin
      rfl
    rw [loop_eq, receiveStep_eq, readNextContent, hn]
  | cons x rs ih =>
    obtain ⟨o, b⟩ := x
    have hsplit : wireOf ((o, b) :: rs) = recordBytes o b ++ wireOf rs := by simp [wireOf]
    rw [hsplit] at hi
    have hlb := hl (o, b) List.mem_cons_self
    have hshape : ∃ f is', is = (23, f) :: is' ∧ o = 23 ∧ b.length < 65536 := by
      cases h with
      | plain _ hlt _ =>
        have := happ _ List.mem_cons_self
        dsimp only at this
        subst this
        exact ⟨_, _, rfl, rfl, hlt⟩
      | «sealed» _ _ _ _ hlt _ =>
        have := happ _ List.mem_cons_self
        dsimp only at this
        subst this
        exact ⟨_, _, rfl, rfl, hlt⟩
    obtain ⟨f, is', rfl, rfl, hlt⟩ := hshape
    rcases List.append_eq_append_iff.mp hi with ⟨x, hx, hq⟩ | ⟨rest, hx, hq⟩
    · -- the input ends before or at the end of the first record
      by_cases hxe : x = []
      · subst hxe
        rw [List.append_nil] at hx
        obtain ⟨ks₁, r₁, h1, h2, h3, h4⟩ := step_app hO hr h hm hlb (rest := [])
          (by rw [List.append_nil]; exact hx.symm)
        have hlim := h2.limit
        obtain ⟨i₁, i₂, s₂, ks₂, r₂, g1, g2, g3, g4, g5, g6, g7, g8⟩ := ih h3 (h2.listening hr) h4
          (fun i hi => happ i (List.mem_cons_of_mem _ hi))
          (fun y hy => by rw [hlim]; exact hl y (List.mem_cons_of_mem _ hy))
          (by rw [h2.input]; simpa using hq)
        refine ⟨(23, f) :: i₁, i₂, s₂, ks₂, r₂, by rw [g1]; rfl, ?_, h2.trans g3, g4, g5, g6,
          fun y hy => List.mem_cons_of_mem _ (g7 y hy), g8⟩
        rw [loop_eq, h1]
        exact g2
      · refine ⟨[], _, (23, b) :: rs, ks, r, rfl, ?_, .refl r, h, hm, by rw [hsplit]; exact hi,
          fun y hy => hy, ?_⟩
        · have hn : readNextRecord E r = (.ok none, r) :=
            readNextRecord_part (by omega) (by omega) hlt hlb hxe hx.symm
          rw [loop_eq, receiveStep_eq, readNextContent, hn]
        · rintro rfl
          exact absurd (List.append_eq_nil_iff.mp hq.symm).1 hxe
    · obtain ⟨ks₁, r₁, h1, h2, h3, h4⟩ := step_app hO hr h hm hlb hx
      have hlim := h2.limit
      obtain ⟨i₁, i₂, s₂, ks₂, r₂, g1, g2, g3, g4, g5, g6, g7, g8⟩ := ih h3 (h2.listening hr) h4
        (fun i hi => happ i (List.mem_cons_of_mem _ hi))
        (fun y hy => by rw [hlim]; exact hl y (List.mem_cons_of_mem _ hy))
        (by rw [h2.input]; exact hq.symm)
      refine ⟨(23, f) :: i₁, i₂, s₂, ks₂, r₂, by rw [g1]; rfl, ?_, h2.trans g3, g4, g5, g6,
        fun y hy => List.mem_cons_of_mem _ (g7 y hy), g8⟩
      rw [loop_eq, h1]
      exact g2

theorem Listening.canReceive {r : Conn} (h : Listening r) : r.state.canReceive = true := by
  rcases h.1 with h | ⟨s, h⟩ <;> rw [h] <;> rfl

theorem receive_app {mfl : Nat} {ks ks' : Option CipherSt} {is rs : List (Nat × Bytes)} {r : Conn}
    {d q : Bytes} (hO : E.Opens) (h : Recs E mfl ks is rs ks') (hr : Listening r)
    (hm : Matched ks r.cipher) (happ : ∀ i ∈ is, i.1 = 23) (hd : d ≠ [])
    (hk : shouldRekey r = .ok false)
    (hl : ∀ x ∈ rs, x.2.length ≤ r.recordLimit) (hi : r.inputData ++ (d ++ q) = wireOf rs) :
    ∃ i₁ i₂ s₂ ks₁ r', is = i₁ ++ i₂ ∧ receiveData E d r = (.ok (), r') ∧
      RecvOn r r'.inputData (i₁.map (·.2)).flatten r' ∧ Recs E mfl ks₁ i₂ s₂ ks' ∧
      Matched ks₁ r'.cipher ∧ r'.inputData ++ q = wireOf s₂ ∧ (∀ x ∈ s₂, x ∈ rs) ∧
      (q = [] → i₂ = []) := by
  obtain ⟨i₁, i₂, s₂, ks₁, r', h1, h2, h3, h4⟩ := loop_app (r := r.fed d) hO h hr hm happ hl
    (by rw [Conn.fed, List.append_assoc]; exact hi)
  refine ⟨i₁, i₂, s₂, ks₁, r', h1, ?_, ?_, h4⟩
  · rw [receiveData_eq hd hr.canReceive, h2]
    dsimp only [finishReceive]
    rw [h3.rekey, show shouldRekey (r.fed d) = shouldRekey r from rfl, hk]
  · exact ⟨h3.same, h3.wr, h3.dec⟩

end Siotls
