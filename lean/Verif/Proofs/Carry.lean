import Verif.Proofs.RecordRead
/-!
# A content sent is a content received
-/

namespace Siotls
open Spec Serial

variable {E : Env}

theorem ReadOn.recvOn {r r' : Conn} {rest : Bytes} (h : ReadOn r rest r') : RecvOn r rest [] r' :=
  ⟨by rw [List.append_nil]; exact h.same, h.wr, h.dec⟩

theorem Recs.nil_inv {mfl : Nat} {ks ks' : Option CipherSt} {rs : List (Nat × Bytes)}
    (h : Recs E mfl ks [] rs ks') : rs = [] ∧ ks' = ks := by cases h; exact ⟨rfl, rfl⟩

theorem Recs.cons_inv {mfl : Nat} {ks ks' : Option CipherSt} {i : Nat × Bytes}
    {is rs : List (Nat × Bytes)} (h : Recs E mfl ks (i :: is) rs ks') :
    ∃ o b rs', rs = (o, b) :: rs' := by cases h <;> exact ⟨_, _, _, rfl⟩

theorem wireOf_cons (o : Nat) (b : Bytes) (rs : List (Nat × Bytes)) :
    wireOf ((o, b) :: rs) = recordBytes o b ++ wireOf rs := by simp [wireOf]

/-- contents other than handshake messages: one per record -/
theorem reads_other {mfl ct : Nat} {ks ks' : Option CipherSt} {fs : List Bytes}
    {rs : List (Nat × Bytes)} {r : Conn} {rest : Bytes} (hO : E.Opens)
    (h : Recs E mfl ks (fs.map fun f => (ct, f)) rs ks') (hm : Matched ks r.cipher)
    (hct : GoodType ct) (hne : ct ≠ 22) (hhs : r.inputHandshake = [])
    (hl : ∀ x ∈ rs, x.2.length ≤ r.recordLimit) (hi : r.inputData = wireOf rs ++ rest) :
    ∃ r', Reads E r (fs.map fun f => (ct, f)) r' ∧ RecvOn r rest [] r' ∧ Matched ks' r'.cipher := by
  induction fs generalizing ks rs r with
  | nil =>
    obtain ⟨rfl, rfl⟩ := h.nil_inv
    refine ⟨r, .done r, ?_, hm⟩
    have := RecvOn.refl r
    rwa [hi] at this
  | cons f fs ih =>
    obtain ⟨o, b, rs, rfl⟩ := h.cons_inv
    rw [wireOf_cons, List.append_assoc] at hi
    obtain ⟨ks₁, r₁, h1, h2, h3, h4⟩ := read_rec hO h hm hct (hl (o, b) List.mem_cons_self) hi
    have hhs₁ : r₁.inputHandshake = [] := by rw [h2.same]; exact hhs
    have hone : readNextContent E r =
        (.ok (some (ct, f)), { r₁ with tr := .got ct f :: r₁.tr }) := by
      rw [readNextContent, h1]
      dsimp only
      rw [if_pos ⟨by simp [hhs₁], hne⟩]
    have hon : RecvOn r (wireOf rs ++ rest) [] { r₁ with tr := .got ct f :: r₁.tr } := by
      have := h2.recvOn
      refine ⟨?_, this.wr, this.dec⟩
      have hs := this.same
      cases r; cases r₁
      simp only [Conn.mk.injEq] at hs ⊢
      simp_all
    obtain ⟨r', g1, g2, g3⟩ := ih (r := { r₁ with tr := .got ct f :: r₁.tr }) h3 h4 hhs₁
      (fun x hx => by rw [hon.limit]; exact hl x (List.mem_cons_of_mem _ hx)) hon.input
    exact ⟨r', .next hone g1, hon.trans g2, g3⟩

/-- an honest handshake message: its header announces its length -/
def HonestMsg (data : Bytes) : Prop := 4 ≤ data.length ∧ handshakeLength data = data.length - 4

theorem handshakeLength_prefix {a b : Bytes} (h : 4 ≤ a.length) :
    handshakeLength (a ++ b) = handshakeLength a := by
  match a, h with
  | x :: y :: z :: w :: a, _ => rfl

/-- the rest of a handshake message is read from its records -/
theorem complete_recs {mfl : Nat} {ks ks' : Option CipherSt} {fs : List Bytes}
    {rs : List (Nat × Bytes)} {r : Conn} {rest data : Bytes} (hO : E.Opens)
    (h : Recs E mfl ks (fs.map fun f => (22, f)) rs ks') (hm : Matched ks r.cipher)
    (h4 : 4 ≤ r.inputHandshake.length) (hdata : r.inputHandshake ++ fs.flatten = data)
    (hgood : HonestMsg data) (hne : ∀ f ∈ fs, f ≠ [])
    (hl : ∀ x ∈ rs, x.2.length ≤ r.recordLimit) (hi : r.inputData = wireOf rs ++ rest) :
    ∃ r', complete E r = (.ok (some (22, data)), r') ∧
      RecvOn { r with inputHandshake := [] } rest [] r' ∧ Matched ks' r'.cipher := by
  induction fs generalizing ks rs r with
  | nil =>
    obtain ⟨rfl, rfl⟩ := h.nil_inv
    rw [List.flatten_nil, List.append_nil] at hdata
    have hnl : ¬ r.lacks := by
      unfold Conn.lacks
      rw [hdata, hgood.2]; omega
    refine ⟨{ r with inputHandshake := [], tr := .got 22 r.inputHandshake :: r.tr }, ?_, ?_, hm⟩
    · rw [complete_done hnl, finishHandshake, if_neg (by rw [hdata, hgood.2]; omega), hdata]
    · refine ⟨?_, rfl, rfl⟩
      rw [List.append_nil]
      show _ = { r with
        inputData := rest
        tr := .got 22 r.inputHandshake :: r.tr
        inputHandshake := [] }
      cases r
      cases hi
      rfl
  | cons f fs ih =>
    have hlk : r.lacks := by
      unfold Conn.lacks
      have hf := List.length_pos_iff.mpr (hne f List.mem_cons_self)
      have hlen := congrArg List.length hdata
      simp only [List.length_append, List.flatten_cons] at hlen
      rw [← handshakeLength_prefix (b := (f :: fs).flatten) h4, hdata, hgood.2]
      omega
    obtain ⟨o, b, rs, rfl⟩ := h.cons_inv
    rw [wireOf_cons, List.append_assoc] at hi
    obtain ⟨ks₁, r₁, h1, h2, h3, h4'⟩ := read_rec hO h hm ⟨by omega, by omega, by omega⟩
      (hl (o, b) List.mem_cons_self) hi
    have hhs : r₁.inputHandshake = r.inputHandshake := by rw [h2.same]
    have hin : r₁.inputData = wireOf rs ++ rest := h2.recvOn.input
    obtain ⟨r', g1, g2, g3⟩ := ih
      (r := { r₁ with inputHandshake := r₁.inputHandshake ++ f }) h3 h4'
      (by rw [hhs, List.length_append]; omega)
      (by rw [hhs, List.append_assoc]; exact hdata)
      (fun f hf => hne f (List.mem_cons_of_mem _ hf))
      (fun x hx => by
        show x.2.length ≤ r₁.recordLimit
        rw [h2.limit]; exact hl x (List.mem_cons_of_mem _ hx)) hin
    refine ⟨r', ?_, ?_, g3⟩
    · rw [complete_more hlk, h1]
      dsimp only
      rw [if_neg (by simp [Iana.ctHandshake])]
      exact g1
    · refine ⟨?_, g2.wr.trans h2.wr, g2.dec.trans h2.dec⟩
      have hs := g2.same
      have hs' := h2.same
      cases r; cases r₁; cases r'
      simp only [Conn.mk.injEq] at hs hs' ⊢
      simp_all

theorem reads_handshake {mfl : Nat} {ks ks' : Option CipherSt} {f : Bytes} {fs : List Bytes}
    {rs : List (Nat × Bytes)} {r : Conn} {rest : Bytes} (hO : E.Opens)
    (h : Recs E mfl ks ((f :: fs).map fun f => (22, f)) rs ks') (hm : Matched ks r.cipher)
    (h4 : 4 ≤ f.length) (hgood : HonestMsg (f :: fs).flatten) (hne : ∀ f ∈ fs, f ≠ [])
    (hhs : r.inputHandshake = [])
    (hl : ∀ x ∈ rs, x.2.length ≤ r.recordLimit) (hi : r.inputData = wireOf rs ++ rest) :
    ∃ r', Reads E r [(22, (f :: fs).flatten)] r' ∧ RecvOn r rest [] r' ∧ Matched ks' r'.cipher := by
  obtain ⟨o, b, rs, rfl⟩ := h.cons_inv
  rw [wireOf_cons, List.append_assoc] at hi
  obtain ⟨ks₁, r₁, h1, h2, h3, h4'⟩ := read_rec hO h hm ⟨by omega, by omega, by omega⟩
    (hl (o, b) List.mem_cons_self) hi
  have hhs₁ : r₁.inputHandshake = [] := by rw [h2.same]; exact hhs
  have hin : r₁.inputData = wireOf rs ++ rest := h2.recvOn.input
  obtain ⟨r', g1, g2, g3⟩ := complete_recs (r := { r₁ with inputHandshake := f }) (rest := rest) hO h3
    h4' h4 rfl hgood hne (fun x hx => by
        show x.2.length ≤ r₁.recordLimit
        rw [h2.limit]; exact hl x (List.mem_cons_of_mem _ hx)) hin
  refine ⟨r', .next ?_ (.done _), ?_, g3⟩
  · rw [readNextContent, h1]
    dsimp only
    rw [if_neg (by simp [Iana.ctHandshake]), if_neg (by simp [Iana.ctHandshake]), hhs₁, List.nil_append,
      if_neg (by omega)]
    exact g1
  · refine ⟨?_, g2.wr.trans h2.wr, g2.dec.trans h2.dec⟩
    have hs := g2.same
    have hs' := h2.same
    cases r; cases r₁; cases r'
    simp only [Conn.mk.injEq] at hs hs' ⊢
    simp_all

theorem serHandshake_honest {h : Handshake} {data : Bytes} (hs : serHandshake E h = .ok data) :
    HonestMsg data := by
  unfold serHandshake at hs
  obtain ⟨body, h1, hs⟩ := Except.bind_eq_ok.mp hs
  obtain ⟨b, h2, hs⟩ := Except.bind_eq_ok.mp hs
  cases Except.pure_eq_ok.mp hs
  unfold writeVar at h2
  obtain ⟨l, h3, h4⟩ := Except.bind_eq_ok.mp h2
  cases Except.pure_eq_ok.mp h4
  obtain ⟨hlt, rfl⟩ := toBytes_ok.mp h3
  rw [beEnc_one]
  refine ⟨by simp, ?_⟩
  unfold handshakeLength
  have : (([UInt8.ofNat h.msgType] ++ (beEnc 3 body.length ++ body)).drop 1).take 3 =
      beEnc 3 body.length := by
    rw [List.singleton_append, List.drop_one, List.tail_cons]
    exact List.take_left' (by simp)
  rw [this, beDec_beEnc hlt]
  simp

theorem Recs.keep {mfl : Nat} {k k' : Option CipherSt} {is rs : List (Nat × Bytes)}
    (h : Recs E mfl k is rs k') :
    k'.map (fun k => (k.info, k.rd)) = k.map (fun k => (k.info, k.rd)) ∧
    k'.map (fun k => k.wr.key) = k.map (fun k => k.wr.key) := by
  induction h with
  | nil => exact ⟨rfl, rfl⟩
  | plain _ _ _ ih => exact ih
  | «sealed» hk hn _ _ _ _ ih =>
    obtain ⟨_, _, _, _, hd, _⟩ := nextNonce_shape hn
    refine ⟨ih.1, ih.2.trans ?_⟩
    rw [hd]; rfl

/-! ## Sizes -/

/-- the five lengths of RFC 8449 that siotls uses -/
def GoodMfl (n : Nat) : Prop := n ∈ [512, 1024, 2048, 4096, 16384]

theorem min512 : min 512 4096 = 512 := rfl
theorem min1024 : min 1024 4096 = 1024 := rfl
theorem min2048 : min 2048 4096 = 2048 := rfl
theorem min4096 : min 4096 4096 = 4096 := rfl
theorem min16384 : min 16384 4096 = 4096 := rfl

theorem padded_small {mfl tag n : Nat} (hm : GoodMfl mfl) (h : n + 1 + tag < mfl) :
    paddedLength mfl tag n ≤ mfl := by
  unfold paddedLength
  simp only [GoodMfl, List.mem_cons, List.not_mem_nil, or_false] at hm
  rcases hm with rfl | rfl | rfl | rfl | rfl <;> simp only [min512, min1024, min2048, min4096, min16384] <;> omega

theorem padded_full {mfl tag n : Nat} (hm : GoodMfl mfl) (h : n + 1 + tag ≤ mfl) :
    paddedLength mfl tag n ≤ mfl + min mfl 4096 := by
  unfold paddedLength
  simp only [GoodMfl, List.mem_cons, List.not_mem_nil, or_false] at hm
  rcases hm with rfl | rfl | rfl | rfl | rfl <;> simp only [min512, min1024, min2048, min4096, min16384] <;> omega

/-- a full fragment gets a whole block of padding -/
theorem padded_over {mfl tag n : Nat} (hm : GoodMfl mfl) (h : n + 1 + tag = mfl) :
    paddedLength mfl tag n = mfl + min mfl 4096 := by
  unfold paddedLength
  simp only [GoodMfl, List.mem_cons, List.not_mem_nil, or_false] at hm
  rw [h]
  rcases hm with rfl | rfl | rfl | rfl | rfl <;> simp only [min512, min1024, min2048, min4096, min16384] <;> omega

theorem GoodMfl.ge {n : Nat} (h : GoodMfl n) : 512 ≤ n := by
  simp only [GoodMfl, List.mem_cons, List.not_mem_nil, or_false] at h
  omega

theorem fragLen_plain {c : Conn} (h : ∀ k, c.cipher = some k → k.wr.key = none) :
    c.fragLen = c.mfl := by
  unfold Conn.fragLen Conn.mustEncrypt
  cases hk : c.cipher with
  | none => rfl
  | some k => simp [h k hk]

theorem fragLen_sealed {c : Conn} {k : CipherSt} (h : c.cipher = some k) (hk : k.wr.key ≠ none) :
    c.fragLen = (c.mfl : Int) - (1 + k.info.tagLength : Nat) := by
  have : k.wr.key.isSome = true := by
    cases h : k.wr.key with
    | none => exact absurd h hk
    | some _ => rfl
  simp [Conn.fragLen, Conn.mustEncrypt, h, this]

theorem fragLen_ge {s : Conn} {kr : Option CipherSt} (hg : GoodMfl s.mfl) (hm : Matched s.cipher kr) :
    4 ≤ s.fragLen := by
  have := hg.ge
  rcases hm with ⟨h1, _⟩ | ⟨k, kr, h1, _, _, _, h5, h6⟩
  · rw [fragLen_plain h1]; omega
  · rw [fragLen_sealed h1 h5]
    have := suite_tag h6
    omega

/-- the records written pass the size check of the reader -/
theorem Wrote.limit {x : Content} {s s' r : Conn} {data : Bytes} {fs : List Bytes}
    {rs : List (Nat × Bytes)} (h : Wrote E x s data fs rs s') (hg : GoodMfl s.mfl)
    (hm : Matched s.cipher r.cipher) (hf : SizeOk s r data.length) :
    ∀ y ∈ rs, y.2.length ≤ r.recordLimit := by
  have h4 := fragLen_ge hg hm
  obtain ⟨_, hle, hone⟩ := splitFragments_ok (by omega) h.frag
  have hge := hg.ge
  rcases hm with ⟨h1, _⟩ | ⟨k, kr, h1, h2, h3, h4', h5, h6⟩
  · obtain ⟨_, hrs⟩ := h.recs.plain_lengths h1
    rw [fragLen_plain h1] at hle
    intro y hy
    rw [hrs] at hy
    obtain ⟨f, hf', rfl⟩ := List.mem_map.mp hy
    have := hle f hf'
    have := hf.1
    unfold Conn.recordLimit
    dsimp only
    omega
  · have hl := h.recs.sealed_lengths (by omega) h1 h5
    have hlim : r.recordLimit = r.mfl + 256 := by
      have : r.mustDecrypt = true := by
        unfold Conn.mustDecrypt
        rw [h2]
        dsimp only
        rw [← h4']
        cases h : k.wr.key with
        | none => exact absurd h h5
        | some _ => rfl
      simp [Conn.recordLimit, this]
    rw [fragLen_sealed h1 h5] at hle hone
    intro y hy
    have hy' : (y.1, y.2.length) ∈ (rs.map fun r => (r.1, r.2.length)) :=
      List.mem_map.mpr ⟨y, hy, rfl⟩
    rw [hl, List.map_map] at hy'
    obtain ⟨f, hf', he⟩ := List.mem_map.mp hy'
    have he2 : paddedLength s.mfl k.info.tagLength f.length = y.2.length := congrArg Prod.snd he
    rw [← he2, hlim]
    have := hle f hf'
    have hmm := hf.1
    rcases hf.2 k h1 h5 with hd | hd
    · rcases hone with ⟨_, rfl⟩ | ⟨hbig, _⟩
      · cases List.mem_singleton.mp hf'
        have := padded_small hg hd
        omega
      · omega
    · have := padded_full (tag := k.info.tagLength) (n := f.length) hg (by omega)
      omega

theorem Wrote.mfl {x : Content} {s s' : Conn} {data : Bytes} {fs : List Bytes}
    {rs : List (Nat × Bytes)} (h : Wrote E x s data fs rs s') : s'.mfl = s.mfl := by
  rw [h.same]; rfl

theorem Wrote.fits {x : Content} {s s' r r' : Conn} {data : Bytes} {fs : List Bytes}
    {rs : List (Nat × Bytes)} {n : Nat} (h : Wrote E x s data fs rs s') (hr : r'.mfl = r.mfl)
    (hf : SizeOk s r n) : SizeOk s' r' n := by
  refine ⟨by rw [h.mfl, hr]; exact hf.1, fun k hk hkey => ?_⟩
  rw [h.mfl, hr]
  obtain ⟨h1, h2⟩ := h.recs.keep
  rw [hk] at h1 h2
  cases hs : s.cipher with
  | none => rw [hs] at h1; cases h1
  | some k₀ =>
    rw [hs] at h1 h2
    simp only [Option.map_some, Option.some.injEq, Prod.mk.injEq] at h1 h2
    rw [h1.1]
    exact hf.2 k₀ hs (by rw [← h2]; exact hkey)

theorem Wrote.read {x : Content} {s s' r : Conn} {data : Bytes} {fs : List Bytes}
    {rs : List (Nat × Bytes)} {rest : Bytes} (hO : E.Opens) (h : Wrote E x s data fs rs s')
    (hx : x ≠ .changeCipherSpec) (hg : GoodMfl s.mfl) (hm : Matched s.cipher r.cipher)
    (hf : SizeOk s r data.length) (hhs : r.inputHandshake = [])
    (hi : r.inputData = wireOf rs ++ rest) :
    ∃ got r', Reads E r got r' ∧ RecvOn r rest [] r' ∧ Matched s'.cipher r'.cipher ∧
      ∀ sent later, Carried sent later → Carried ((x.ctype, data) :: sent) (got ++ later) := by
  have hlim := h.limit hg hm hf
  have h4 := fragLen_ge hg hm
  obtain ⟨hflat, hle, hone⟩ := splitFragments_ok (by omega) h.frag
  have hrec := h.recs
  have one : ∀ ct, x.ctype = ct → GoodType ct → ct ≠ 22 → x.canFragment = false →
      ∃ got r', Reads E r got r' ∧ RecvOn r rest [] r' ∧ Matched s'.cipher r'.cipher ∧
      ∀ sent later, Carried sent later → Carried ((x.ctype, data) :: sent) (got ++ later) := by
    intro ct hct hgood hne hcf
    rcases hone with ⟨_, rfl⟩ | ⟨_, h, _⟩
    · rw [hct] at hrec
      obtain ⟨r', h1, h2, h3⟩ := reads_other hO hrec hm hgood hne hhs hlim hi
      exact ⟨_, r', h1, h2, h3, fun sent later hc => by rw [hct]; exact .same hc⟩
    · rw [hcf] at h; cases h
  cases x with
  | changeCipherSpec => exact absurd rfl hx
  | alert l d => exact one 21 rfl ⟨by omega, by omega, by omega⟩ (by omega) rfl
  | heartbeat a b c => exact one 24 rfl ⟨by omega, by omega, by omega⟩ (by omega) rfl
  | unparsed => cases h.ser
  | applicationData d =>
    obtain ⟨r', h1, h2, h3⟩ := reads_other (ct := 23) hO hrec hm ⟨by omega, by omega, by omega⟩
      (by omega) hhs hlim hi
    refine ⟨_, r', h1, h2, h3, fun sent later hc => ?_⟩
    have := Carried.cut (pieces := fs) hc
    rw [hflat] at this
    exact this
  | handshake m =>
    have hgood := serHandshake_honest h.ser
    rw [← hflat] at hgood
    have hfs : ∃ f fs', fs = f :: fs' ∧ 4 ≤ f.length ∧ ∀ g ∈ fs', g ≠ [] := by
      have hd := (serHandshake_honest h.ser).1
      rcases hone with ⟨_, rfl⟩ | ⟨hbig, _, rest, hr⟩
      · exact ⟨data, [], rfl, hd, by simp⟩
      · refine ⟨_, rest, hr, by simp; omega, ?_⟩
        have := h.frag
        unfold splitFragments at this
        rw [if_neg (by omega), if_pos (show (Content.handshake m).canFragment = true from rfl),
          if_neg (by omega), if_neg (by omega)] at this
        cases this
        intro g hg
        exact ((chunksOf_facts (n := s.fragLen.toNat) (by omega) data.length data
          (Nat.le_refl _)).2.1 g (by rw [hr]; exact List.mem_cons_of_mem _ hg)).2
    obtain ⟨f, fs', rfl, hf4, hne⟩ := hfs
    obtain ⟨r', h1, h2, h3⟩ := reads_handshake hO hrec hm hf4 hgood hne hhs hlim hi
    refine ⟨_, r', h1, h2, h3, fun sent later hc => ?_⟩
    rw [hflat]
    exact .same hc

theorem _root_.Siotls.Spec.Reads.append {r r₁ r₂ : Conn} {a b : List (Nat × Bytes)} (h : Reads E r a r₁)
    (h' : Reads E r₁ b r₂) : Reads E r (a ++ b) r₂ := by
  induction h with
  | done => exact h'
  | next h _ ih => exact .next h (ih h')

theorem sends_out {s s' : Conn} {xs : List Content} (h : Sends E s xs s') :
    ∃ w, s'.outputData = s.outputData ++ w := by
  induction h with
  | done => exact ⟨[], by simp⟩
  | send h _ ih =>
    obtain ⟨_, _, rs', hwr'⟩ := sendContent_wrote h
    obtain ⟨w', h'⟩ := ih
    exact ⟨wireOf rs' ++ w', by rw [h', hwr'.out, List.append_assoc]⟩

theorem sends_read {s s' r : Conn} {xs : List Content} {w rest : Bytes} (hO : E.Opens)
    (h : Sends E s xs s') (hx : ∀ x ∈ xs, x ≠ .changeCipherSpec) (hg : GoodMfl s.mfl)
    (hm : Matched s.cipher r.cipher)
    (hf : ∀ x ∈ xs, ∀ data, serContent E x = .ok data → SizeOk s r data.length)
    (hhs : r.inputHandshake = []) (hw : s'.outputData = s.outputData ++ w)
    (hi : r.inputData = w ++ rest) :
    ∃ sent got r', List.Forall₂ (fun x y => y.1 = x.ctype ∧ serContent E x = .ok y.2) xs sent ∧
      Reads E r got r' ∧ Carried sent got ∧ r'.inputData = rest ∧ r'.inputHandshake = [] ∧
      Matched s'.cipher r'.cipher := by
  induction h generalizing r w with
  | done s =>
    have : w = [] := by simpa using hw
    subst this
    exact ⟨[], [], r, .nil, .done r, .nil, hi, hhs, hm⟩
  | @send s x s₁ xs s' h1 h2 ih =>
    obtain ⟨data, fs, rs, hwr⟩ := sendContent_wrote h1
    obtain ⟨w', hw'⟩ := sends_out h2
    have hw'' := hw'
    rw [hwr.out, List.append_assoc] at hw'
    rw [hw'] at hw
    have hww := List.append_cancel_left hw
    subst hww
    rw [List.append_assoc] at hi
    obtain ⟨got, r₁, g1, g2, g3, g4⟩ := hwr.read hO (hx x List.mem_cons_self) hg hm
      (hf x List.mem_cons_self data hwr.ser) hhs hi
    have hhs₁ : r₁.inputHandshake = [] := by rw [g2.same]; exact hhs
    have hmfl : r₁.mfl = r.mfl := by rw [g2.same]; rfl
    obtain ⟨sent, got', r', k1, k2, k3, k4⟩ := ih (r := r₁) (w := w')
      (fun y hy => hx y (List.mem_cons_of_mem _ hy)) (by rw [hwr.mfl]; exact hg) g3
      (fun y hy d hd => hwr.fits hmfl (hf y (List.mem_cons_of_mem _ hy) d hd)) hhs₁
      hw'' g2.input
    exact ⟨(x.ctype, data) :: sent, got ++ got', r', .cons ⟨rfl, hwr.ser⟩ k1, g1.append k2,
      g4 _ _ k3, k4⟩

/-! ## Programs -/

theorem Recs.append {mfl : Nat} {k k' k'' : Option CipherSt} {is rs is' rs' : List (Nat × Bytes)}
    (h : Recs E mfl k is rs k') (h' : Recs E mfl k' is' rs' k'') :
    Recs E mfl k (is ++ is') (rs ++ rs') k'' := by
  induction h with
  | nil => exact h'
  | plain a b _ ih => exact .plain a b (ih h')
  | «sealed» a b c d e _ ih => exact .sealed a b c d e (ih h')

theorem wireOf_append (a b : List (Nat × Bytes)) : wireOf (a ++ b) = wireOf a ++ wireOf b := by
  simp [wireOf]

theorem wireOf_nil {rs : List (Nat × Bytes)} (h : wireOf rs = []) : rs = [] := by
  cases rs with
  | nil => rfl
  | cons x rs =>
    rw [wireOf_cons] at h
    have := congrArg List.length h
    rw [List.length_append, length_recordBytes, List.length_nil] at this
    omega

theorem matched_step {s s' r : Conn} {x : Content} {data : Bytes} {fs : List Bytes}
    {rs : List (Nat × Bytes)} (h : Wrote E x s data fs rs s') (hm : Matched s.cipher r.cipher) :
    ∃ kr, Matched s'.cipher kr := by
  obtain ⟨h1, h2⟩ := h.recs.keep
  rcases hm with ⟨g1, g2⟩ | ⟨k, kr, g1, g2, g3, g4, g5, g6⟩
  · refine ⟨none, .inl ⟨fun k hk => ?_, by simp⟩⟩
    rw [hk] at h2
    cases hs : s.cipher with
    | none => rw [hs] at h2; cases h2
    | some k₀ =>
      rw [hs] at h2
      simp only [Option.map_some, Option.some.injEq] at h2
      rw [h2]; exact g1 k₀ hs
  · rw [g1] at h1 h2
    cases hs : s'.cipher with
    | none => rw [hs] at h1; cases h1
    | some k' =>
      rw [hs] at h1 h2
      simp only [Option.map_some, Option.some.injEq, Prod.mk.injEq] at h1 h2
      exact ⟨some { k' with rd := k'.wr }, .inr ⟨k', _, rfl, rfl, rfl, rfl, by rw [h2]; exact g5,
        by rw [h1.1]; exact g6⟩⟩

theorem mustDecrypt_none {c : Conn} (h : ∀ k, c.cipher = some k → k.rd.key = none) :
    c.mustDecrypt = false := by
  unfold Conn.mustDecrypt
  cases hc : c.cipher with
  | none => rfl
  | some k => simp [h k hc]

/-- the records of several `send_data` -/
theorem sendsData_recs {s s' : Conn} {ds : List Bytes} (h : SendsData E s ds s')
    (hg : GoodMfl s.mfl) {r : Conn} (hm : Matched s.cipher r.cipher)
    (hf : ∀ d ∈ ds, SizeOk s r d.length) :
    ∃ is rs, Recs E s.mfl s.cipher is rs s'.cipher ∧ (∀ i ∈ is, i.1 = 23) ∧
      (is.map (·.2)).flatten = ds.flatten ∧ s'.outputData = s.outputData ++ wireOf rs ∧
      ∀ y ∈ rs, y.2.length ≤ r.recordLimit := by
  induction h generalizing r with
  | done => exact ⟨[], [], .nil _, by simp, rfl, by simp [wireOf], by simp⟩
  | @send s d s₁ ds s' h1 h2 ih =>
    obtain ⟨data, fs, rs, hwr⟩ := sendContent_wrote h1
    have hdata : data = d := by have := hwr.ser; cases this; rfl
    subst hdata
    obtain ⟨hflat, hle, hone⟩ := splitFragments_ok (by have := fragLen_ge hg hm; omega) hwr.frag
    have hlim := hwr.limit hg hm (hf data List.mem_cons_self)
    obtain ⟨kr, hm'⟩ := matched_step hwr hm
    -- a reader that went as far as the writer
    have hdec : (Conn.mustDecrypt { r with cipher := kr }) = r.mustDecrypt := by
      obtain ⟨k1, k2⟩ := hwr.recs.keep
      unfold Conn.mustDecrypt
      rcases hm with ⟨g1, g2⟩ | ⟨k, kr₀, g1, g2, g3, g4, g5, g6⟩
      · rcases hm' with ⟨_, g2'⟩ | ⟨k', kr', g1', g2', _, g4', g5', _⟩
        · have a := mustDecrypt_none (c := { r with cipher := kr }) g2'
          have b := mustDecrypt_none g2
          unfold Conn.mustDecrypt at a b
          rw [a, b]
        · exfalso
          rw [g1'] at k2
          cases hs : s.cipher with
          | none => rw [hs] at k2; cases k2
          | some k₀ =>
            rw [hs] at k2
            simp only [Option.map_some, Option.some.injEq] at k2
            exact g5' (by rw [k2]; exact g1 k₀ hs)
      · rcases hm' with ⟨g1', _⟩ | ⟨k', kr', g1', g2', _, g4', g5', _⟩
        · exfalso
          rw [g1] at k2
          cases hs : s₁.cipher with
          | none => rw [hs] at k2; cases k2
          | some k₀ =>
            rw [hs] at k2
            simp only [Option.map_some, Option.some.injEq] at k2
            exact g5 (by rw [← k2]; exact g1' k₀ hs)
        · rw [g2, g2']
          dsimp only
          rw [← g4, ← g4']
          have b : ∀ o : Option Bytes, o ≠ none → o.isSome = true := by
            intro o ho; cases o with
            | none => exact absurd rfl ho
            | some _ => rfl
          rw [b _ g5, b _ g5']
    obtain ⟨is, rs', k1, k2, k3, k4, k5⟩ := ih (r := { r with cipher := kr })
      (by rw [hwr.mfl]; exact hg) hm'
      (fun d hd => hwr.fits (by rfl) (hf d (List.mem_cons_of_mem _ hd)))
    rw [hwr.mfl] at k1
    refine ⟨fs.map (fun f => (23, f)) ++ is, rs ++ rs', hwr.recs.append k1, ?_, ?_, ?_, ?_⟩
    · intro i hi
      rcases List.mem_append.mp hi with hi | hi
      · obtain ⟨f, _, rfl⟩ := List.mem_map.mp hi; rfl
      · exact k2 i hi
    · simp only [List.map_append, List.map_map, List.flatten_append, k3, List.flatten_cons]
      congr 1
      simpa [Function.comp_def] using hflat
    · rw [k4, hwr.out, wireOf_append, List.append_assoc]
    · intro y hy
      rcases List.mem_append.mp hy with hy | hy
      · exact hlim y hy
      · have := k5 y hy
        unfold Conn.recordLimit at this ⊢
        rw [hdec] at this
        exact this

/-- A program that receives what was written hands over what was sent. -/
theorem passive_app (hO : E.Opens) {mfl : Nat} {ks ks' : Option CipherSt} (ops : List Op) :
    ∀ {is rs : List (Nat × Bytes)} {r : Conn} {q : Bytes} {ks : Option CipherSt},
    Recs E mfl ks is rs ks' → Listening r → Matched ks r.cipher → (∀ i ∈ is, i.1 = 23) →
    Passive ops → shouldRekey r = .ok false → (∀ x ∈ rs, x.2.length ≤ r.recordLimit) →
    r.inputData ++ ((chunks ops).flatten ++ q) = wireOf rs →
    (r.inputData = wireOf rs → rs = []) →
    ∃ i₁ i₂, is = i₁ ++ i₂ ∧ collected E .read ops r ++ (runOps E ops r).applicationData =
      r.applicationData ++ (i₁.map (·.2)).flatten ∧ (q = [] → i₂ = []) ∧
      ∀ o ∈ outcomes E ops r, raised o = false := by
  induction ops with
  | nil =>
    intro is rs r q ks h hr hm happ hp hk hl hi hinc
    refine ⟨[], is, rfl, by simp [collected, runOps], ?_, by simp [outcomes]⟩
    rintro rfl
    have := hinc (by simpa [chunks] using hi)
    subst this
    cases h
    rfl
  | cons o ops ih =>
    intro is rs r q ks h hr hm happ hp hk hl hi hinc
    have hp' : Passive ops := fun o ho => hp o (List.mem_cons_of_mem _ ho)
    rcases hp o List.mem_cons_self with rfl | rfl | ⟨d, hd, rfl⟩
    · obtain ⟨i₁, i₂, h1, h2, h3, h4⟩ := ih (r := { r with applicationData := [] }) h hr hm happ hp' hk
        hl hi hinc
      refine ⟨i₁, i₂, h1, ?_, h3, h4⟩
      show (r.applicationData ++ collected E .read ops { r with applicationData := [] }) ++
        (runOps E ops { r with applicationData := [] }).applicationData = _
      rw [List.append_assoc, h2]
      rfl
    · obtain ⟨i₁, i₂, h1, h2, h3, h4⟩ := ih (r := { r with outputData := [] }) h hr hm happ hp' hk
        hl hi hinc
      exact ⟨i₁, i₂, h1, h2, h3, h4⟩
    · obtain ⟨j₁, j₂, s₂, ks₁, r', g1, g2, g3, g4, g5, g6, g7, g8⟩ := receive_app (d := d)
        (q := (chunks ops).flatten ++ q) hO h hr hm happ hd hk hl
        (by simpa [chunks] using hi)
      have happ' : ∀ i ∈ j₂, i.1 = 23 := fun i hi => happ i (by rw [g1]; exact List.mem_append_right _ hi)
      obtain ⟨i₁, i₂, h1, h2, h3, h4⟩ := ih (r := r') (q := q) g4 (g3.listening hr) g5 happ' hp'
        (by rw [g3.rekey]; exact hk) (fun x hx => by rw [g3.limit]; exact hl x (g7 x hx)) g6
        (by
          intro heq
          rw [← g6] at heq
          have hq : (chunks ops).flatten ++ q = [] := by simpa using heq
          have := g8 hq
          subst this
          exact g4.nil_inv.1)
      have hrun : (Op.receive d).run E r = (.ok [], r') := by
        show (receiveData E d >>= fun _ => pure []) r = _
        rw [M.bind_def, g2]
        rfl
      refine ⟨j₁ ++ i₁, i₂, by rw [g1, h1, List.append_assoc], ?_, h3, ?_⟩
      · simp only [collected, runOps, hrun]
        rw [if_neg (by simp), List.nil_append, h2, g3.app]
        simp
      · simp only [outcomes, hrun]
        intro o ho
        rcases List.mem_append.mp ho with ho | ho
        · rw [if_neg (by simp [buffering])] at ho
          cases List.mem_singleton.mp ho
          rfl
        · exact h4 o ho

end Siotls
