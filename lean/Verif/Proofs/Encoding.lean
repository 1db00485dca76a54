import Verif.Proofs.Handshakes
import Verif.Spec.Encoding
/-!
# The codecs against the layouts of the RFCs
-/

namespace Siotls
open Serial Spec.Rfc

theorem num_ok {n i : Nat} {b : Bytes} : toBytes n i = .ok b ↔ Num n i b := by
  have hb : ∀ b : Bytes, Spec.bigEndian b = beDec b := by
    intro b
    induction b with
    | nil => rfl
    | cons x xs ih => rw [beDec_cons, Spec.bigEndian, ih]
  rw [toBytes_ok, Num, hb]
  constructor
  · rintro ⟨h, rfl⟩
    exact ⟨length_beEnc n i, beDec_beEnc h⟩
  · rintro ⟨rfl, rfl⟩
    exact ⟨beDec_lt b, beEnc_beDec b⟩

theorem vec_ok {n : Nat} {body b : Bytes} : writeVar n body = .ok b ↔ Vec n body b := by
  unfold writeVar Vec
  rw [Except.bind_eq_ok]
  simp only [num_ok, Except.pure_eq_ok]
  exact exists_congr fun _ => and_congr_right fun _ => eq_comm

theorem seq_ok {α : Type} {f : α → Except Exn Bytes} {R : α → Bytes → Prop} {l : List α} {b : Bytes}
    (h : ∀ a ∈ l, ∀ x, f a = .ok x ↔ R a x) : concatMapM f l = .ok b ↔ Spec.Rfc.Seq R l b := by
  induction l generalizing b with
  | nil => simp [concatMapM, Spec.Rfc.Seq, eq_comm]
  | cons a as ih =>
    rw [concatMapM_cons_ok, Spec.Rfc.Seq]
    refine exists_congr fun x => exists_congr fun y => ?_
    rw [h a (by simp), ih fun a ha => h a (by simp [ha]), eq_comm (a := b)]

theorem vecOf_ok {α : Type} {n : Nat} {f : α → Except Exn Bytes} {R : α → Bytes → Prop} {l : List α}
    {b : Bytes} (h : ∀ a ∈ l, ∀ x, f a = .ok x ↔ R a x) :
    (concatMapM f l >>= fun body => writeVar n body) = .ok b ↔ VecOf n R l b := by
  rw [Except.bind_eq_ok, VecOf]
  simp only [seq_ok h, vec_ok]

theorem listInt_ok {n m : Nat} {l : List Nat} {b : Bytes} :
    writeListInt n m l = .ok b ↔ VecOf n (Num m) l b := by
  rw [← vecOf_ok (f := toBytes m) fun a _ x => num_ok, writeListInt_ok, Except.bind_eq_ok]
  refine exists_congr fun body => ?_
  rw [writeVar_ok]
  constructor
  · rintro ⟨h1, h2, h3⟩
    rw [← concatMapM_toBytes_length h2] at h1 h3
    exact ⟨h2, h1, h3⟩
  · rintro ⟨h2, h1, h3⟩
    rw [concatMapM_toBytes_length h2] at h1 h3
    exact ⟨h1, h2, h3⟩

theorem listVar_ok {n m : Nat} {l : List Bytes} {b : Bytes} :
    writeListVar n m l = .ok b ↔ VecOf n (Vec m) l b :=
  vecOf_ok fun _ _ _ => vec_ok

theorem pair_ok {f g : Except Exn Bytes} {R S : Bytes → Prop} {b : Bytes}
    (hf : ∀ x, f = .ok x ↔ R x) (hg : ∀ x, g = .ok x ↔ S x) :
    (f >>= fun x => g >>= fun y => pure (x ++ y)) = .ok b ↔ Pair R S b := by
  rw [Except.bind_eq_ok, Pair]
  refine exists_congr fun x => ?_
  rw [Except.bind_eq_ok, hf]
  simp only [Except.pure_eq_ok, hg]
  constructor
  · rintro ⟨h, y, h1, h2⟩; exact ⟨y, h, h1, h2.symm⟩
  · rintro ⟨y, h, h1, h2⟩; exact ⟨h, y, h1, h2.symm⟩

/-- a number known beforehand -/
theorem const_ok {n i : Nat} (hi : i < 256 ^ n) (x : Bytes) :
    (Except.ok (beEnc n i) : Except Exn Bytes) = .ok x ↔ Num n i x := by
  rw [← num_ok, toBytes, if_pos hi]

theorem type_code (e : Ext) : e.type = extensionCode e := by cases e <;> rfl

theorem extBody_ok {E : Env} {e : Ext} {b : Bytes} (hidn : Spec.asciiLike E e)
    (hb : Spec.knownBroken e = false) : serExtBody E e = .ok b ↔ ExtensionData E e b := by
  have one : ∀ {g : Except Exn Bytes} {S : Bytes → Prop} {i : Nat} {b : Bytes}, i < 256 →
      (∀ x, g = .ok x ↔ S x) →
      ((g >>= fun y => pure (beEnc 1 i ++ y)) = .ok b ↔ Pair (Num 1 i) S b) := by
    intro g S i b hi hg
    rw [← pair_ok (f := .ok (beEnc 1 i)) (const_ok (by simpa using hi)) hg]
    rfl
  cases e
  case serverNameReq o =>
    cases o with
    | none =>
      show Except.ok (beEnc 2 0) = Except.ok b ↔ Vec 2 [] b
      rw [← vec_ok, writeVar_ok]
      simp
    | some h =>
      unfold ExtensionData
      dsimp only [serExtBody]
      rw [Except.bind_eq_ok]
      constructor
      · rintro ⟨len, h1, h2⟩
        obtain ⟨enc, h2, h3⟩ := Except.bind_eq_ok.mp h2
        have hl : enc.length = h.length := hidn enc h2
        refine ⟨enc, h2, _, ⟨_, [], ⟨beEnc 1 0, len ++ enc, (const_ok (by decide) _).mp rfl,
          ⟨len, num_ok.mp (hl ▸ h1), rfl⟩, rfl⟩, rfl, rfl⟩, ?_⟩
        rw [← vec_ok]
        simpa using h3
      · rintro ⟨enc, h2, body, ⟨_, _, ⟨x, y, hx, ⟨len, hl, rfl⟩, rfl⟩, rfl, rfl⟩, h3⟩
        refine ⟨len, ?_, Except.bind_eq_ok.mpr ⟨enc, h2, ?_⟩⟩
        · rw [num_ok, ← hidn enc h2]; exact hl
        · rw [← const_ok (by decide)] at hx
          cases hx
          rw [vec_ok]
          simpa using h3
  case maxFragmentLength => exact num_ok
  case ocspStatusReq ids exts =>
    have := one (g := writeListVar 2 2 ids >>= fun l => writeVar 2 exts >>= fun e => pure (l ++ e))
      (i := 1) (b := b) (by decide) fun x => pair_ok (fun x => listVar_ok) fun x => vec_ok
    rw [ExtensionData, ← this]
    simp [serExtBody]
  case ocspStatus r => exact one (by decide) fun x => vec_ok
  case supportedGroups => exact listInt_ok
  case signatureAlgorithms => exact listInt_ok
  case signatureAlgorithmsCert => exact listInt_ok
  case heartbeat => exact num_ok
  case alpn => exact listVar_ok
  case clientCertTypeReq => simp [Spec.knownBroken] at hb
  case clientCertTypeResp => simp [Spec.knownBroken] at hb
  case serverCertTypeReq => simp [Spec.knownBroken] at hb
  case serverCertTypeResp => simp [Spec.knownBroken] at hb
  case pskReq => simp [Spec.knownBroken] at hb
  case pskResp => exact num_ok
  case newSessionEarlyData => exact num_ok
  case supportedVersionsReq => exact listInt_ok
  case supportedVersionsResp => exact num_ok
  case cookie => exact vec_ok
  case pskModes => exact listInt_ok
  case oidFilters l => exact vecOf_ok fun a _ x => pair_ok (fun x => vec_ok) fun x => vec_ok
  case keyShareReq l => exact vecOf_ok fun a _ x => pair_ok (fun x => num_ok) fun x => vec_ok
  case keyShareRetry => exact num_ok
  case keyShareResp => exact pair_ok (fun x => num_ok) fun x => vec_ok
  all_goals
    simp [serExtBody, ExtensionData, zeros, eq_comm]

theorem ext_ok {E : Env} {e : Ext} {b : Bytes} (hidn : Spec.asciiLike E e)
    (hb : Spec.knownBroken e = false) : serExt E e = .ok b ↔ Extension E e b := by
  unfold serExt Extension
  rw [Except.bind_eq_ok]
  refine exists_congr fun data => ?_
  rw [extBody_ok hidn hb, ← type_code]
  exact and_congr_right fun _ => pair_ok (fun x => num_ok) fun x => vec_ok

theorem exts_ok {E : Env} {l : List Ext} {b : Bytes}
    (h : ∀ e ∈ l, Spec.asciiLike E e ∧ Spec.knownBroken e = false) :
    serExtList E l = .ok b ↔ VecOf 2 (Extension E) l b :=
  vecOf_ok fun e he _ => ext_ok (h e he).1 (h e he).2

/-- the values of a message that the code's writers can write -/
theorem body_ok {E : Env} {h : Handshake} {b : Bytes} (hr : RightRandom h)
    (he : ∀ e ∈ extensionsOf h, Spec.asciiLike E e ∧ Spec.knownBroken e = false) :
    serHsBody E h = .ok b ↔ MessageBody E h b := by
  have hv : ∀ x : Bytes, x = [0x03, 0x03] ↔ Num 2 0x0303 x := by
    intro x; rw [← const_ok (by decide)]; simp [beEnc, eq_comm]
  have h0 : ∀ x : Bytes, x = [0] ↔ Num 1 0 x := by
    intro x; rw [← const_ok (by decide)]; simp [beEnc, eq_comm]
  have hc : ∀ x : Bytes, x = [1, 0] ↔ Vec 1 [0] x := by
    intro x; rw [← vec_ok, writeVar_ok]; simp [beEnc, eq_comm]
  have e1 : beEnc 2 Iana.tls12 = [3, 3] := rfl
  have e2 : beEnc 1 1 ++ [0] = [1, 0] := rfl
  have e3 : beEnc 1 0 = [0] := rfl
  cases h with
  | clientHello random sid suites exts =>
    simp only [serHsBody, MessageBody, Pair, Except.bind_eq_ok, Except.pure_eq_ok, vec_ok, listInt_ok,
      exts_ok (l := exts) he, e1, e2, ← hv, ← hc]
    constructor
    · rintro ⟨e, h1, s, h2, c, h3, rfl⟩
      exact ⟨_, _, rfl, ⟨_, _, ⟨rfl, hr⟩, ⟨_, _, h2, ⟨_, _, h3, ⟨_, _, rfl, h1, rfl⟩, rfl⟩, rfl⟩, rfl⟩, rfl⟩
    · rintro ⟨_, _, rfl, ⟨_, _, ⟨rfl, -⟩, ⟨_, _, h2, ⟨_, _, h3, ⟨_, _, rfl, h1, rfl⟩, rfl⟩, rfl⟩, rfl⟩, rfl⟩
      exact ⟨_, h1, _, h2, _, h3, rfl⟩
  | serverHello random sid suite exts =>
    simp only [serHsBody, MessageBody, Pair, Except.bind_eq_ok, Except.pure_eq_ok, vec_ok, num_ok,
      exts_ok (l := exts) he, e1, e3, ← hv, ← h0]
    constructor
    · rintro ⟨e, h1, s, h2, c, h3, rfl⟩
      exact ⟨_, _, rfl, ⟨_, _, ⟨rfl, hr⟩, ⟨_, _, h2, ⟨_, _, h3, ⟨_, _, rfl, h1, rfl⟩, rfl⟩, rfl⟩, rfl⟩, rfl⟩
    · rintro ⟨_, _, rfl, ⟨_, _, ⟨rfl, -⟩, ⟨_, _, h2, ⟨_, _, h3, ⟨_, _, rfl, h1, rfl⟩, rfl⟩, rfl⟩, rfl⟩, rfl⟩
      exact ⟨_, h1, _, h2, _, h3, rfl⟩
  | helloRetryRequest random sid suite exts =>
    simp only [serHsBody, MessageBody, Pair, Except.bind_eq_ok, Except.pure_eq_ok, vec_ok, num_ok,
      exts_ok (l := exts) he, e1, e3, ← hv, ← h0]
    constructor
    · rintro ⟨e, h1, s, h2, c, h3, rfl⟩
      exact ⟨_, _, rfl, ⟨_, _, ⟨rfl, hr⟩, ⟨_, _, h2, ⟨_, _, h3, ⟨_, _, rfl, h1, rfl⟩, rfl⟩, rfl⟩, rfl⟩, rfl⟩
    · rintro ⟨_, _, rfl, ⟨_, _, ⟨rfl, -⟩, ⟨_, _, h2, ⟨_, _, h3, ⟨_, _, rfl, h1, rfl⟩, rfl⟩, rfl⟩, rfl⟩, rfl⟩
      exact ⟨_, h1, _, h2, _, h3, rfl⟩
  | encryptedExtensions exts => exact exts_ok he
  | certificateRequest ctx exts =>
    simp only [serHsBody, MessageBody, Pair, Except.bind_eq_ok, Except.pure_eq_ok, vec_ok, exts_ok (l := exts) he]
    constructor
    · rintro ⟨e, h1, s, h2, rfl⟩; exact ⟨_, _, h2, h1, rfl⟩
    · rintro ⟨_, _, h2, h1, rfl⟩; exact ⟨_, h1, _, h2, rfl⟩
  | certificate ctx entries =>
    have hent : ∀ x ∈ entries, ∀ y, serCertEntry E x = .ok y ↔ CertificateEntry E x y := by
      intro x hx y
      have hin : ∀ e, (∃ c exts, x = .x509 c exts ∧ e ∈ exts ∨ x = .rawKey c exts ∧ e ∈ exts) →
          e ∈ extensionsOf (.certificate ctx entries) := by
        rintro e ⟨c, exts, ⟨rfl, h⟩ | ⟨rfl, h⟩⟩ <;>
        · rw [extensionsOf, List.mem_flatMap]
          exact ⟨_, hx, h⟩
      cases x with
      | x509 c exts =>
        simp only [serCertEntry, CertificateEntry, Pair, Except.bind_eq_ok, Except.pure_eq_ok, vec_ok,
          exts_ok fun e h => he e (hin e ⟨c, exts, .inl ⟨rfl, h⟩⟩)]
        constructor
        · rintro ⟨e, h1, s, h2, rfl⟩; exact ⟨_, _, h2, h1, rfl⟩
        · rintro ⟨_, _, h2, h1, rfl⟩; exact ⟨_, h1, _, h2, rfl⟩
      | rawKey c exts =>
        simp only [serCertEntry, CertificateEntry, Pair, Except.bind_eq_ok, Except.pure_eq_ok, vec_ok,
          exts_ok fun e h => he e (hin e ⟨c, exts, .inr ⟨rfl, h⟩⟩)]
        constructor
        · rintro ⟨e, h1, s, h2, rfl⟩; exact ⟨_, _, h2, h1, rfl⟩
        · rintro ⟨_, _, h2, h1, rfl⟩; exact ⟨_, h1, _, h2, rfl⟩
    simp only [serHsBody, MessageBody, Pair, VecOf, Except.bind_eq_ok, Except.pure_eq_ok, vec_ok,
      seq_ok hent]
    constructor
    · rintro ⟨e, h1, c, h2, l, h3, rfl⟩; exact ⟨_, _, h2, ⟨_, h1, h3⟩, rfl⟩
    · rintro ⟨_, _, h2, ⟨_, h1, h3⟩, rfl⟩; exact ⟨_, h1, _, h2, _, h3, rfl⟩
  | certificateVerify alg sig => exact pair_ok (fun x => num_ok) fun x => vec_ok
  | finished d => simp [serHsBody, MessageBody, eq_comm]

theorem msgType_code (h : Handshake) : h.msgType = handshakeCode h := by cases h <;> rfl

theorem message_ok {E : Env} {h : Handshake} {b : Bytes} (hr : RightRandom h)
    (he : ∀ e ∈ extensionsOf h, Spec.asciiLike E e ∧ Spec.knownBroken e = false) :
    serHandshake E h = .ok b ↔ Message E h b := by
  unfold serHandshake Message
  rw [Except.bind_eq_ok]
  refine exists_congr fun body => ?_
  rw [body_ok hr he, ← msgType_code]
  refine and_congr_right fun _ => ?_
  exact pair_ok (f := .ok (beEnc 1 h.msgType))
    (fun x => const_ok (by cases h <;> simp [Handshake.msgType]) x) fun x => vec_ok

/-! ## reading what a peer wrote -/

theorem Parses.num {n i : Nat} {b : Bytes} (hn : n ≠ 0) (h : Num n i b) : Parses (readInt n) b i :=
  parses_toBytes hn (num_ok.mpr h)

theorem Parses.vec {n : Nat} {body b : Bytes} (hn : n ≠ 0) (h : Vec n body b) :
    Parses (readVar n) b body := parses_writeVar hn (vec_ok.mpr h)

theorem vec_ne {n : Nat} {body b : Bytes} (hn : n ≠ 0) (h : Vec n body b) : b ≠ [] := by
  obtain ⟨len, ⟨hl, _⟩, rfl⟩ := h
  intro h
  have := congrArg List.length h
  rw [List.length_append, hl, List.length_nil] at this
  omega

theorem Parses.pair {α β} {p : P α} {f : α → P β} {R S : Bytes → Prop} {b : Bytes} {v₁ : α} {v₂ : β}
    (h : Pair R S b) (h₁ : ∀ x, R x → Parses p x v₁) (h₂ : ∀ y, S y → Parses (f v₁) y v₂) :
    Parses (p >>= f) b v₂ := by
  obtain ⟨x, y, hx, hy, rfl⟩ := h
  exact .bind (h₁ x hx) (h₂ y hy)

theorem parseMany_seq {α : Type} {p : P α} {R : α → Bytes → Prop} {l : List α} {b : Bytes}
    (hp : ∀ a ∈ l, ∀ x, R a x → x ≠ [] ∧ Parses p x a) (h : Spec.Rfc.Seq R l b) :
    parseMany p b = .ok l := by
  have hlen : l.length ≤ b.length := by
    induction l generalizing b with
    | nil => simp
    | cons a as ih =>
      obtain ⟨x, y, hx, hy, rfl⟩ := h
      have := ih (fun a ha => hp a (by simp [ha])) hy
      have := List.length_pos_iff.mpr (hp a (by simp) x hx).1
      simp; omega
  suffices H : ∀ (l : List α) (b : Bytes) (k pos : Nat),
      (∀ a ∈ l, ∀ x, R a x → x ≠ [] ∧ Parses p x a) → Spec.Rfc.Seq R l b → l.length ≤ k →
      untilEof p k ⟨b, pos, []⟩ = .ok l from H l b _ 0 hp h hlen
  intro l
  induction l with
  | nil => intro b k pos _ h _; cases h; unfold untilEof; simp
  | cons a as ih =>
    intro b k pos hp h hk
    obtain ⟨x, y, hx, hy, rfl⟩ := h
    obtain ⟨hne, hpx⟩ := hp a (by simp) x hx
    cases k with
    | zero => simp at hk
    | succ k =>
      unfold untilEof
      have : (x ++ y).isEmpty = false := by
        cases x <;> simp_all
      simp only [this, Bool.false_eq_true, if_false]
      rw [hpx.run y pos]
      simp only []
      rw [ih y k _ (fun a ha => hp a (by simp [ha])) hy (by simp at hk; omega)]

theorem plain {E : Env} {e : Ext} {b : Bytes} (hl : Spec.legal E e) (hi : Spec.asciiLike E e)
    (hb : Spec.knownBroken e = false) (h : ExtensionData E e b) :
    ParsesAll (parseExtBody E e.type e.cls) b e :=
  parsesAll_extBody hl hi hb ((extBody_ok hi hb).mpr h)

theorem readExtBody {E : Env} {e : Ext} {b : Bytes} (hl : Spec.legal E e)
    (h : ExtensionData E e b) : ParsesAll (parseExtBody E e.type e.cls) b e := by
  have enum : ∀ {vals : List Nat} {i : Nat} {b : Bytes}, Num 1 i b → vals.contains i = true →
      Parses (readEnum 1 vals) b i := fun h hv => parses_readEnum (by decide) (num_ok.mpr h) hv
  cases e
  case serverNameReq o =>
    cases o with
    | none => exact plain hl trivial rfl h
    | some host =>
      obtain ⟨enc, henc, body, hs, hb⟩ := h
      obtain ⟨enc', henc', hdec⟩ := hl
      rw [henc] at henc'
      cases henc'
      have hm : parseMany (parseServerName E) body = .ok [some host] := by
        obtain ⟨x, y, hx, rfl, rfl⟩ := hs
        refine parseMany_seq (R := fun _ => Pair (Num 1 0) (Vec 2 enc)) ?_ ⟨x, [], hx, rfl, rfl⟩
        intro a ha x hx
        rw [List.mem_singleton] at ha
        subst ha
        refine ⟨?_, Parses.pair hx (fun _ h => .num (by decide) h) fun y hy => ?_⟩
        · obtain ⟨u, v, ⟨hu, _⟩, _, rfl⟩ := hx
          intro h0
          have := congrArg List.length h0
          simp [hu] at this
        · simp only [if_true]
          exact .bind_pure (.vec (by decide) hy) (by rw [hdec])
      refine (Parses.bind_pure (f := fun b => P.lift (parseMany (parseServerName E) b) >>=
        fun names => P.lift (mkServerNameReq (names.filterMap id))) (.vec (by decide) hb) ?_).all
      rw [hm]
      rfl
  case clientCertTypeReq l =>
    refine (Parses.bind_pure (parses_writeListInt (by decide) (by decide) (listInt_ok.mpr h)) ?_).all
    cases l with
    | nil => exact absurd rfl hl
    | cons => rfl
  case serverCertTypeReq l =>
    refine (Parses.bind_pure (parses_writeListInt (by decide) (by decide) (listInt_ok.mpr h)) ?_).all
    cases l with
    | nil => exact absurd rfl hl
    | cons => rfl
  case clientCertTypeResp t =>
    refine (Parses.bind_pure (f := fun x => pure (Ext.clientCertTypeResp x))
      (enum (vals := Iana.certificateTypes) h ?_) rfl).all
    simpa [Iana.certificateTypes, Spec.legal] using hl
  case serverCertTypeResp t =>
    refine (Parses.bind_pure (f := fun x => pure (Ext.serverCertTypeResp x))
      (enum (vals := Iana.certificateTypes) h ?_) rfl).all
    simpa [Iana.certificateTypes, Spec.legal] using hl
  case pskReq ids binders =>
    obtain ⟨u, v, ⟨body, hs, hu⟩, hv, rfl⟩ := h
    have hm : parseMany parsePskIdentity body = .ok ids := by
      refine parseMany_seq ?_ hs
      intro a _ x hx
      refine ⟨?_, Parses.pair hx (fun _ h => .vec (by decide) h) fun y hy => ?_⟩
      · obtain ⟨u, v, hu, _, rfl⟩ := hx
        intro h0
        exact vec_ne (by decide) hu (List.append_eq_nil_iff.mp h0).1
      · exact .bind_pure (.num (by decide) hy) rfl
    refine (Parses.bind (.vec (by decide) hu) (Parses.lift_bind hm ?_)).all
    exact .bind_pure (f := fun x => pure (Ext.pskReq ids x))
      (parses_writeListVar (by decide) (by decide) (listVar_ok.mpr hv)) rfl
  all_goals exact plain hl trivial rfl h

theorem readExt {E : Env} {k : HsKind} {e : Ext} {b : Bytes} (hl : Spec.legal E e)
    (hk : k ∈ Spec.allowedIn e) (h : Extension E e b) : Parses (parseExt E k) b e := by
  obtain ⟨data, hd, x, y, hx, ⟨len, hlen, rfl⟩, rfl⟩ := h
  rw [← type_code] at hx
  refine .bind (.num (by decide) hx) (.lift_bind (extClass_of_allowed hl hk) ?_)
  exact .bind (.num (by decide) hlen) (parses_limit rfl (readExtBody hl hd))

theorem ext_ne {E : Env} {e : Ext} {b : Bytes} (h : Extension E e b) : b ≠ [] := by
  obtain ⟨data, hd, x, y, ⟨hx, _⟩, _, rfl⟩ := h
  intro h0
  have := congrArg List.length h0
  simp [hx] at this

theorem readExts {E : Env} {k : HsKind} {l : List Ext} {b : Bytes} (hg : PeerExts E k l)
    (h : VecOf 2 (Extension E) l b) : Parses (parseExtList E k) b l := by
  obtain ⟨body, hs, hb⟩ := h
  refine Parses.bind_pure (f := fun b => P.lift (parseMany (parseExt E k) b))
    (.vec (by decide) hb) ?_
  rw [parseMany_seq (fun a ha x hx => ⟨ext_ne hx, readExt (hg.2 a ha).1 (hg.2 a ha).2 hx⟩) hs]
  rfl

theorem peer_dict {E : Env} {k : HsKind} {l : List Ext} (hg : PeerExts E k l) : dictOfExts l = l := by
  refine dictOfExts_eq_of_nodup l ?_
  have : Ext.type = extensionCode := funext type_code
  rw [this]
  exact hg.1

theorem peer_clientHello {E : Env} {random : Bytes} {suites : List Nat} {exts : List Ext}
    (hr : random.length = 32) (hs : suites ≠ []) (hg : PeerExts E .clientHello exts)
    (hp : ∀ e ∈ exts, extensionCode e = 41 → (exts.map extensionCode).getLast? = some 41 ∧
      45 ∈ exts.map extensionCode) :
    mkClientHello random suites exts = .ok (.clientHello random [] suites exts) := by
  have ht : extensionCode = Ext.type := funext fun e => (type_code e).symm
  rw [ht] at hp
  by_cases h41 : ∀ e ∈ exts, e.type ≠ 41
  · exact conflictingDup_irrel hr hs (by rw [← ht]; exact hg.1) h41
  · push Not at h41
    obtain ⟨e, he, h41⟩ := h41
    obtain ⟨hlast, h45⟩ := hp e he h41
    unfold mkClientHello
    rw [peer_dict hg]
    dsimp only
    rw [if_neg (by simp [hr]), if_neg (by simp [hs]), if_neg (by simp)]
    have h1 : (findExt exts Iana.extPreSharedKey).isSome = true := by
      unfold findExt
      rw [List.find?_isSome]
      exact ⟨e, he, by simp [h41]⟩
    have h2 : (findExt exts Iana.extPskKeyExchangeModes).isNone = false := by
      obtain ⟨f, hf, hf'⟩ := List.mem_map.mp h45
      have : (findExt exts Iana.extPskKeyExchangeModes).isSome = true := by
        unfold findExt
        rw [List.find?_isSome]
        exact ⟨f, hf, by simp [hf']⟩
      cases hq : findExt exts Iana.extPskKeyExchangeModes
      · rw [hq] at this; cases this
      · rfl
    rw [if_pos h1, if_neg (by rw [← List.getLast?_map, hlast]; simp), h2]
    rfl

theorem entry_ne {E : Env} {x : CertEntry} {b : Bytes} (h : CertificateEntry E x b) : b ≠ [] := by
  cases x <;>
  · obtain ⟨u, v, hu, _, rfl⟩ := h
    intro h0
    exact vec_ne (by decide) hu (List.append_eq_nil_iff.mp h0).1

theorem untilPos_seq {α : Type} {p : P α} {R : α → Bytes → Prop} {l : List α} {out : Bytes}
    (hp : ∀ a ∈ l, ∀ x, R a x → x ≠ [] ∧ Parses p x a)
    (h : Spec.Rfc.Seq R l out) (k : Nat) (rest : Bytes) (pos : Nat) (lims : List Nat)
    (hk : out.length ≤ k) :
    untilPos p (pos + out.length) k ⟨out ++ rest, pos, (pos + out.length) :: lims⟩ =
      .ok (l, ⟨rest, pos + out.length, (pos + out.length) :: lims⟩) := by
  suffices H : ∀ (lim : Nat), pos + out.length = lim →
      untilPos p lim k ⟨out ++ rest, pos, lim :: lims⟩ = .ok (l, ⟨rest, lim, lim :: lims⟩) from
    H _ rfl
  intro lim hlim
  induction l generalizing out k pos with
  | nil =>
    cases h
    unfold untilPos
    simp at hlim
    simp [hlim]
  | cons a as ih =>
    obtain ⟨x, y, hx, hy, rfl⟩ := h
    obtain ⟨hne, hpa⟩ := hp a (by simp) x hx
    have hxl : 0 < x.length := List.length_pos_iff.mpr hne
    simp only [List.length_append] at hlim hk
    cases k with
    | zero => omega
    | succ k =>
      unfold untilPos
      rw [if_pos (by simp; omega)]
      have := hpa (y ++ rest) pos (lim :: lims) (by simp; omega)
      rw [List.append_assoc]
      simp only [this]
      rw [ih (fun b hb => hp b (by simp [hb])) hy k (pos + x.length) (by omega) (by omega)]

theorem readEntry_x509 {E : Env} {c : Bytes} {exts : List Ext} {b : Bytes}
    (hc : E.certLoad (E.certDer c) = .ok c) (hg : PeerExts E .certificate exts)
    (h : CertificateEntry E (.x509 c exts) b) :
    Parses (parseCertEntry E false) b (.x509 c exts) := by
  refine Parses.pair h (fun _ h => .vec (by decide) h) fun y hy => ?_
  refine Parses.lift_bind (v₁ := c) (by simpa using hc) ?_
  refine Parses.bind_pure (readExts hg hy) ?_
  rw [peer_dict hg]
  rfl

theorem readEntry_rawKey {E : Env} {c : Bytes} {exts : List Ext} {b : Bytes}
    (hc : E.pkLoad (E.pkDer c) = .ok c) (hg : PeerExts E .certificate exts)
    (h : CertificateEntry E (.rawKey c exts) b) :
    Parses (parseCertEntry E true) b (.rawKey c exts) := by
  refine Parses.pair h (fun _ h => .vec (by decide) h) fun y hy => ?_
  refine Parses.lift_bind (v₁ := c) (by simpa using hc) ?_
  refine Parses.bind_pure (readExts hg hy) ?_
  rw [peer_dict hg]
  rfl

theorem readCertificate {E : Env} {ctx : Bytes} {entries : List CertEntry} {raw : Bool} {b : Bytes}
    (hall : ∀ x ∈ entries, ∀ y, CertificateEntry E x y → Parses (parseCertEntry E raw) y x)
    (h : MessageBody E (.certificate ctx entries) b) :
    Parses (do
        let ctx ← readVar 1
        let len ← readInt 3
        let entries ← limit len (fun s =>
          untilPos (parseCertEntry E raw) (s.pos + len) (s.rest.length + 1) s)
        return .certificate ctx entries) b (Handshake.certificate ctx entries) := by
  refine Parses.pair h (fun _ h => .vec (by decide) h) fun y hy => ?_
  obtain ⟨body, hs, len, hlen, rfl⟩ := hy
  refine Parses.bind (.num (by decide) hlen) ?_
  refine Parses.bind_pure (f := fun entries => pure (Handshake.certificate ctx entries))
    (parses_limit rfl ?_) rfl
  intro rest pos lims
  exact untilPos_seq (fun a ha x hx => ⟨entry_ne hx, hall a ha x hx⟩) hs _ rest pos lims
    (by simp; omega)

theorem readBody {E : Env} {ct : Option (Option Nat)} {h : Handshake} {b : Bytes}
    (hg : PeerMessage E ct h) (hb : MessageBody E h b) :
    ParsesAll (parseHsBody E ct h.msgType) b (some h) := by
  cases h with
  | clientHello random sid suites exts =>
    obtain ⟨hs, hg, hp⟩ := hg
    refine ParsesAll.map some (Parses.all ?_)
    refine Parses.pair hb (fun _ h => .num (by decide) h) fun _ hb => ?_
    rw [if_neg (by simp)]
    obtain ⟨r, _, ⟨rfl, hr⟩, hb, rfl⟩ := hb
    refine Parses.bind (parses_readExactly' hr) ?_
    refine Parses.pair hb (fun _ h => .vec (by decide) h) fun _ hb => ?_
    refine Parses.pair hb (fun _ h => parses_writeListInt (by decide) (by decide)
      (listInt_ok.mpr h)) fun _ hb => ?_
    refine Parses.pair hb (fun _ h => .vec (by decide) h) fun _ hb => ?_
    rw [if_neg (by simp)]
    refine Parses.bind_pure (f := fun exts => P.lift (mapValueError (.alert Iana.illegalParameter)
      (mkClientHello r suites exts)) >>= fun self => match self with
        | .clientHello r _ s d => pure (.clientHello r sid s d)
        | h => pure h) (readExts hg hb) ?_
    rw [peer_clientHello hr hs hg hp]
    rfl
  | serverHello random sid suite exts =>
    obtain ⟨hs, hg⟩ := hg
    refine ParsesAll.map some (Parses.all ?_)
    refine Parses.pair hb (fun _ h => .num (by decide) h) fun _ hb => ?_
    rw [if_neg (by simp)]
    obtain ⟨r, _, ⟨rfl, hr⟩, hb, rfl⟩ := hb
    refine Parses.bind (parses_readExactly' hr) ?_
    refine Parses.pair hb (fun _ h => .vec (by decide) h) fun _ hb => ?_
    refine Parses.pair hb (fun _ h => .num (by decide) h) fun _ hb => ?_
    refine Parses.pair hb (fun _ h => .num (by decide) h) fun _ hb => ?_
    rw [if_neg (by simp), if_neg (show ¬ r = hrrRandom from hs)]
    refine Parses.bind_pure (f := fun exts => pure (Handshake.serverHello r sid suite
      (dictOfExts exts))) (readExts hg hb) ?_
    rw [peer_dict hg]
  | helloRetryRequest random sid suite exts =>
    refine ParsesAll.map some (Parses.all ?_)
    refine Parses.pair hb (fun _ h => .num (by decide) h) fun _ hb => ?_
    rw [if_neg (by simp)]
    obtain ⟨r, _, ⟨rfl, hr⟩, hb, rfl⟩ := hb
    refine Parses.bind (parses_readExactly' (by rw [hr]; rfl)) ?_
    refine Parses.pair hb (fun _ h => .vec (by decide) h) fun _ hb => ?_
    refine Parses.pair hb (fun _ h => .num (by decide) h) fun _ hb => ?_
    refine Parses.pair hb (fun _ h => .num (by decide) h) fun _ hb => ?_
    rw [if_neg (by simp), if_pos (show r = hrrRandom from hr)]
    refine Parses.bind_pure (f := fun exts => pure (Handshake.helloRetryRequest r sid suite
      (dictOfExts exts))) (readExts hg hb) ?_
    rw [peer_dict hg]
  | encryptedExtensions exts =>
    refine ParsesAll.map some ?_
    refine (Parses.bind_pure (f := fun exts => pure (Handshake.encryptedExtensions
      (dictOfExts exts))) (readExts hg hb) ?_).all
    rw [peer_dict hg]
  | certificateRequest ctx exts =>
    obtain ⟨h13, hg⟩ := hg
    refine ParsesAll.map some (Parses.all ?_)
    refine Parses.pair hb (fun _ h => .vec (by decide) h) fun _ hb => ?_
    refine Parses.bind_pure (readExts hg hb) ?_
    rw [peer_dict hg]
    have : (findExt exts Iana.extSignatureAlgorithms).isNone = false := by
      obtain ⟨f, hf, hf'⟩ := List.mem_map.mp h13
      rw [← type_code] at hf'
      have : (findExt exts Iana.extSignatureAlgorithms).isSome = true := by
        unfold findExt
        rw [List.find?_isSome]
        exact ⟨f, hf, by simp [hf']⟩
      cases hq : findExt exts Iana.extSignatureAlgorithms
      · rw [hq] at this; cases this
      · rfl
    simp only [this, Bool.false_eq_true, if_false]
  | certificate ctx entries =>
    refine ParsesAll.map some (Parses.all ?_)
    rcases hg with ⟨rfl, he⟩ | ⟨rfl, he⟩
    · refine readCertificate (raw := false) (fun x hx y hy => ?_) hb
      obtain ⟨c, exts, rfl, hc, hg⟩ := he x hx
      exact readEntry_x509 hc hg hy
    · refine readCertificate (raw := true) (fun x hx y hy => ?_) hb
      obtain ⟨c, exts, rfl, hc, hg⟩ := he x hx
      exact readEntry_rawKey hc hg hy
  | certificateVerify alg sig =>
    refine ParsesAll.map some (Parses.all ?_)
    exact Parses.pair hb (fun _ h => .num (by decide) h) fun _ hb =>
      .bind_pure (f := fun x => pure (Handshake.certificateVerify alg x)) (.vec (by decide) hb) rfl
  | finished d =>
    cases hb
    exact ParsesAll.map some (ParsesAll.of_bind (f := fun x => pure (Handshake.finished x))
      (parsesAll_readAll _) rfl)

theorem readMessage {E : Env} {ct : Option (Option Nat)} {h : Handshake} {b : Bytes}
    (hg : PeerMessage E ct h) (hm : Message E h b) : Parses (parseHandshake E ct) b (some h) := by
  obtain ⟨body, hb, x, y, hx, ⟨len, hlen, rfl⟩, rfl⟩ := hm
  rw [← msgType_code] at hx
  refine Parses.bind (.num (by decide) hx) ?_
  refine Parses.bind (.num (by decide) hlen) ?_
  exact Parses.lift_bind (hsRegistry_msgType h) (parses_limit rfl (readBody hg hb))

end Siotls
