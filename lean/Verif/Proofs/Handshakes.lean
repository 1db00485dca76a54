import Verif.Proofs.Extensions
import Verif.Spec.Handshakes
/-!
# Round trip of the handshake messages
-/

namespace Siotls
open Serial

theorem dictOfExts_eq_of_nodup (l : List Ext) (h : (l.map Ext.type).Nodup) : dictOfExts l = l := by
  suffices H : ∀ (l acc : List Ext), ((acc ++ l).map Ext.type).Nodup →
      l.foldl (fun d e =>
        if d.any (·.type = e.type) then d.map (fun x => if x.type = e.type then e else x)
        else d ++ [e]) acc = acc ++ l by
    have := H l [] (by simpa using h)
    simpa [dictOfExts] using this
  intro l
  induction l with
  | nil => intro acc _; simp
  | cons e es ih =>
    intro acc h
    have hne : acc.any (·.type = e.type) = false := by
      rw [List.any_eq_false]
      intro x hx
      simp only [decide_eq_true_eq]
      intro heq
      rw [List.map_append, List.nodup_append] at h
      exact h.2.2 x.type (List.mem_map_of_mem hx) e.type (by simp) heq
    rw [List.foldl_cons, hne]
    simp only [Bool.false_eq_true, if_false]
    rw [ih (acc ++ [e]) (by simpa using h)]
    simp

theorem ParsesAll.map' {α β} {p : P α} {b : Bytes} {v : α} (f : α → β) (h : ParsesAll p b v) :
    ParsesAll (f <$> p) b (f v) := ParsesAll.map f h

theorem conflictingDup_irrel {random : Bytes} {suites : List Nat} {exts : List Ext}
    (hr : random.length = 32) (hs : suites ≠ []) (hn : (exts.map Ext.type).Nodup)
    (hpsk : ∀ e ∈ exts, e.type ≠ 41) :
    mkClientHello random suites exts = .ok (.clientHello random [] suites exts) := by
  unfold mkClientHello
  rw [dictOfExts_eq_of_nodup exts hn]
  have hs' : suites.isEmpty = false := by
    cases suites with
    | nil => exact absurd rfl hs
    | cons => rfl
  have hf : findExt exts Iana.extPreSharedKey = none := by
    unfold findExt
    rw [List.find?_eq_none]
    intro e he
    simpa using hpsk e he
  simp [hr, hs', hf]

theorem parsesAll_clientHello {E : Env} {random sid : Bytes} {suites : List Nat} {exts : List Ext}
    {body : Bytes} {ct : Option (Option Nat)}
    (hg : Spec.GoodMsg E ct (.clientHello random sid suites exts))
    (h : serHsBody E (.clientHello random sid suites exts) = .ok body) :
    ParsesAll (parseClientHello E) body (.clientHello random sid suites exts) := by
  obtain ⟨hr, hs, hd, he⟩ := hg
  obtain ⟨e, h1, h⟩ := Except.bind_eq_ok.mp h
  obtain ⟨s, h2, h⟩ := Except.bind_eq_ok.mp h
  obtain ⟨c, h3, h⟩ := Except.bind_eq_ok.mp h
  cases Except.pure_eq_ok.mp h
  refine Parses.all ?_
  refine Parses.bind (parses_readInt (by decide) (by decide)) ?_
  rw [if_neg (by simp)]
  refine Parses.bind (parses_readExactly' hr) ?_
  refine Parses.bind (parses_writeVar (by decide) h2) ?_
  refine Parses.bind (parses_writeListInt (by decide) (by decide) h3) ?_
  have hc : Parses (readVar 1) (beEnc 1 1 ++ [0]) [0] :=
    parses_readVar (n := 1) (b := [0]) (by decide) (by decide)
  refine Parses.bind hc ?_
  rw [if_neg (by simp)]
  refine Parses.bind_pure (f := fun exts => P.lift (mapValueError (.alert Iana.illegalParameter)
    (mkClientHello random suites exts)) >>= fun self => match self with
      | .clientHello r _ s d => pure (.clientHello r sid s d)
      | h => pure h) (parses_serExtList he h1) ?_
  have hpsk : ∀ x ∈ exts, x.type ≠ 41 := by
    intro x hx
    have hw := (he x hx).works
    have hl := (he x hx).legal
    have ha := (he x hx).allowed
    cases x <;> simp_all [Spec.knownBroken, Ext.type, Spec.allowedIn, Spec.legal]
  rw [conflictingDup_irrel hr hs hd hpsk]
  rfl

theorem parsesAll_serverHello {E : Env} {random sid : Bytes} {suite : Nat} {exts : List Ext}
    {body : Bytes} {ct : Option (Option Nat)}
    (hg : Spec.GoodMsg E ct (.serverHello random sid suite exts))
    (h : serHsBody E (.serverHello random sid suite exts) = .ok body) :
    ParsesAll (parseServerHello E) body (.serverHello random sid suite exts) := by
  obtain ⟨hr, hs, hd, he⟩ := hg
  obtain ⟨e, h1, h⟩ := Except.bind_eq_ok.mp h
  obtain ⟨s, h2, h⟩ := Except.bind_eq_ok.mp h
  obtain ⟨c, h3, h⟩ := Except.bind_eq_ok.mp h
  cases Except.pure_eq_ok.mp h
  refine Parses.all ?_
  refine Parses.bind (parses_readInt (by decide) (by decide)) ?_
  rw [if_neg (by simp)]
  refine Parses.bind (parses_readExactly' hr) ?_
  refine Parses.bind (parses_writeVar (by decide) h2) ?_
  refine Parses.bind (parses_toBytes (by decide) h3) ?_
  refine Parses.bind (parses_readInt (by decide) (by decide)) ?_
  rw [if_neg (by simp), if_neg hs]
  refine Parses.bind_pure (f := fun exts => pure (Handshake.serverHello random sid suite
    (dictOfExts exts))) (parses_serExtList he h1) ?_
  rw [dictOfExts_eq_of_nodup exts hd]

theorem parsesAll_helloRetryRequest {E : Env} {random sid : Bytes} {suite : Nat} {exts : List Ext}
    {body : Bytes} {ct : Option (Option Nat)}
    (hg : Spec.GoodMsg E ct (.helloRetryRequest random sid suite exts))
    (h : serHsBody E (.helloRetryRequest random sid suite exts) = .ok body) :
    ParsesAll (parseServerHello E) body (.helloRetryRequest random sid suite exts) := by
  obtain ⟨hs, hd, he⟩ := hg
  obtain ⟨e, h1, h⟩ := Except.bind_eq_ok.mp h
  obtain ⟨s, h2, h⟩ := Except.bind_eq_ok.mp h
  obtain ⟨c, h3, h⟩ := Except.bind_eq_ok.mp h
  cases Except.pure_eq_ok.mp h
  refine Parses.all ?_
  refine Parses.bind (parses_readInt (by decide) (by decide)) ?_
  rw [if_neg (by simp)]
  refine Parses.bind (parses_readExactly' (by rw [hs]; rfl)) ?_
  refine Parses.bind (parses_writeVar (by decide) h2) ?_
  refine Parses.bind (parses_toBytes (by decide) h3) ?_
  refine Parses.bind (parses_readInt (by decide) (by decide)) ?_
  rw [if_neg (by simp), if_pos hs]
  refine Parses.bind_pure (f := fun exts => pure (Handshake.helloRetryRequest random sid suite
    (dictOfExts exts))) (parses_serExtList he h1) ?_
  rw [dictOfExts_eq_of_nodup exts hd]

theorem parses_certEntry {E : Env} {raw : Bool} {e : CertEntry} {out : Bytes}
    (hg : Spec.GoodEntry E raw e) (h : serCertEntry E e = .ok out) :
    Parses (parseCertEntry E raw) out e := by
  cases e with
  | x509 c exts =>
    obtain ⟨rfl, hload, hd, he⟩ := hg
    obtain ⟨x, h1, h⟩ := Except.bind_eq_ok.mp h
    obtain ⟨s, h2, h⟩ := Except.bind_eq_ok.mp h
    cases Except.pure_eq_ok.mp h
    refine Parses.bind (parses_writeVar (by decide) h2) ?_
    refine Parses.lift_bind (v₁ := c) (by simpa using hload) ?_
    refine Parses.bind_pure (parses_serExtList he h1) ?_
    rw [dictOfExts_eq_of_nodup exts hd]
    rfl
  | rawKey k exts =>
    obtain ⟨rfl, hload, hd, he⟩ := hg
    obtain ⟨x, h1, h⟩ := Except.bind_eq_ok.mp h
    obtain ⟨s, h2, h⟩ := Except.bind_eq_ok.mp h
    cases Except.pure_eq_ok.mp h
    refine Parses.bind (parses_writeVar (by decide) h2) ?_
    refine Parses.lift_bind (v₁ := k) (by simpa using hload) ?_
    refine Parses.bind_pure (parses_serExtList he h1) ?_
    rw [dictOfExts_eq_of_nodup exts hd]
    rfl

theorem serCertEntry_ne_nil {E : Env} {e : CertEntry} {out : Bytes}
    (h : serCertEntry E e = .ok out) : out ≠ [] := by
  cases e <;>
  · obtain ⟨x, h1, h⟩ := Except.bind_eq_ok.mp h
    obtain ⟨s, h2, h⟩ := Except.bind_eq_ok.mp h
    cases Except.pure_eq_ok.mp h
    obtain ⟨_, rfl⟩ := writeVar_ok.mp h2
    simp [beEnc]

theorem untilPos_concat {α} {p : P α} {f : α → Except Exn Bytes} {l : List α} {out : Bytes}
    (hp : ∀ a ∈ l, ∀ x, f a = .ok x → x ≠ [] ∧ Parses p x a)
    (h : concatMapM f l = .ok out) (k : Nat) (rest : Bytes) (pos : Nat) (lims : List Nat)
    (hk : l.length ≤ k) :
    untilPos p (pos + out.length) k ⟨out ++ rest, pos, (pos + out.length) :: lims⟩ =
      .ok (l, ⟨rest, pos + out.length, (pos + out.length) :: lims⟩) := by
  suffices H : ∀ (lim : Nat), pos + out.length = lim →
      untilPos p lim k ⟨out ++ rest, pos, lim :: lims⟩ = .ok (l, ⟨rest, lim, lim :: lims⟩) from
    H _ rfl
  intro lim hlim
  induction l generalizing out k pos with
  | nil =>
    simp [concatMapM] at h
    subst h
    unfold untilPos
    simp at hlim
    simp [hlim]
  | cons a as ih =>
    obtain ⟨x, y, hx, hy, rfl⟩ := concatMapM_cons_ok.mp h
    obtain ⟨hne, hpa⟩ := hp a (by simp) x hx
    have hxl : 0 < x.length := List.length_pos_iff.mpr hne
    cases k with
    | zero => simp at hk
    | succ k =>
      unfold untilPos
      simp only [List.length_append] at hlim
      rw [if_pos (by simp; omega)]
      have := hpa (y ++ rest) pos (lim :: lims) (by simp; omega)
      rw [List.append_assoc]
      simp only [this]
      rw [ih (fun b hb => hp b (by simp [hb])) hy k (pos + x.length) (by simpa using hk) (by omega)]

theorem parsesAll_certificate {E : Env} {ctx : Bytes} {entries : List CertEntry}
    {body : Bytes} {ct : Option (Option Nat)}
    (hg : Spec.GoodMsg E ct (.certificate ctx entries))
    (h : serHsBody E (.certificate ctx entries) = .ok body) :
    ParsesAll (parseCertificate E ct) body (.certificate ctx entries) := by
  obtain ⟨e, h1, h⟩ := Except.bind_eq_ok.mp h
  obtain ⟨c, h2, h⟩ := Except.bind_eq_ok.mp h
  obtain ⟨l, h3, h⟩ := Except.bind_eq_ok.mp h
  cases Except.pure_eq_ok.mp h
  obtain ⟨hlt, rfl⟩ := writeVar_ok.mp h3
  have main : ∀ raw, (∀ x ∈ entries, Spec.GoodEntry E raw x) →
      Parses (do
        let ctx ← readVar 1
        let len ← readInt 3
        let entries ← limit len (fun s =>
          untilPos (parseCertEntry E raw) (s.pos + len) (s.rest.length + 1) s)
        return .certificate ctx entries) (c ++ (beEnc 3 e.length ++ e))
        (Handshake.certificate ctx entries) := by
    intro raw hraw
    refine Parses.bind (parses_writeVar (by decide) h2) ?_
    refine Parses.bind (parses_readInt (by decide) hlt) ?_
    refine Parses.bind_pure (f := fun entries => pure (Handshake.certificate ctx entries))
      (parses_limit rfl ?_) rfl
    intro rest pos lims
    have hall : ∀ a ∈ entries, ∀ x, serCertEntry E a = .ok x → x ≠ [] ∧
        Parses (parseCertEntry E raw) x a :=
      fun a ha x hx => ⟨serCertEntry_ne_nil hx, parses_certEntry (hraw a ha) hx⟩
    have hlen := concatMapM_length_le (fun a ha x hx => (hall a ha x hx).1) h1
    exact untilPos_concat hall h1 _ rest pos lims (by simp; omega)
  rcases hg with ⟨rfl, he⟩ | ⟨rfl, he⟩
  · exact (main false he).all
  · exact (main true he).all

theorem parsesAll_certificateRequest {E : Env} {ctx : Bytes} {exts : List Ext}
    {body : Bytes} {ct : Option (Option Nat)}
    (hg : Spec.GoodMsg E ct (.certificateRequest ctx exts))
    (h : serHsBody E (.certificateRequest ctx exts) = .ok body) :
    ParsesAll (parseCertificateRequest E) body (.certificateRequest ctx exts) := by
  obtain ⟨⟨s, hs, hst⟩, hd, he⟩ := hg
  obtain ⟨e, h1, h⟩ := Except.bind_eq_ok.mp h
  obtain ⟨c, h2, h⟩ := Except.bind_eq_ok.mp h
  cases Except.pure_eq_ok.mp h
  refine Parses.all ?_
  refine Parses.bind (parses_writeVar (by decide) h2) ?_
  refine Parses.bind_pure (parses_serExtList he h1) ?_
  rw [dictOfExts_eq_of_nodup exts hd]
  have : (findExt exts Iana.extSignatureAlgorithms).isNone = false := by
    unfold findExt
    cases hf : exts.find? (·.type = Iana.extSignatureAlgorithms) with
    | some => rfl
    | none =>
      rw [List.find?_eq_none] at hf
      exact absurd hst (by simpa using hf s hs)
  simp only [this, Bool.false_eq_true, if_false]

theorem parsesAll_body {E : Env} {ct : Option (Option Nat)} {h : Handshake} {body : Bytes}
    (hg : Spec.GoodMsg E ct h) (hs : serHsBody E h = .ok body) :
    ParsesAll (parseHsBody E ct h.msgType) body (some h) := by
  cases h with
  | clientHello => exact (parsesAll_clientHello hg hs).map some
  | serverHello => exact (parsesAll_serverHello hg hs).map some
  | helloRetryRequest => exact (parsesAll_helloRetryRequest hg hs).map some
  | encryptedExtensions exts =>
    refine ParsesAll.map some ?_
    refine (Parses.bind_pure (f := fun exts => pure (Handshake.encryptedExtensions
      (dictOfExts exts))) (parses_serExtList hg.2 hs) ?_).all
    rw [dictOfExts_eq_of_nodup exts hg.1]
  | certificateRequest => exact (parsesAll_certificateRequest hg hs).map some
  | certificate => exact (parsesAll_certificate hg hs).map some
  | certificateVerify alg sig =>
    refine ParsesAll.map some ?_
    obtain ⟨a, h1, hs⟩ := Except.bind_eq_ok.mp hs
    obtain ⟨s, h2, hs⟩ := Except.bind_eq_ok.mp hs
    cases Except.pure_eq_ok.mp hs
    exact (Parses.bind (parses_toBytes (by decide) h1)
      (Parses.bind_pure (f := fun x => pure (Handshake.certificateVerify alg x))
        (parses_writeVar (by decide) h2) rfl)).all
  | finished d =>
    cases hs
    exact ParsesAll.map some (ParsesAll.of_bind (f := fun x => pure (Handshake.finished x))
      (parsesAll_readAll _) rfl)

theorem hsRegistry_msgType (h : Handshake) : hsRegistry h.msgType = .ok () := by
  cases h <;> rfl

theorem parses_serHandshake {E : Env} {ct : Option (Option Nat)} {h : Handshake} {out : Bytes}
    (hg : Spec.GoodMsg E ct h) (hs : serHandshake E h = .ok out) :
    Parses (parseHandshake E ct) out (some h) := by
  obtain ⟨body, h1, hs⟩ := Except.bind_eq_ok.mp hs
  obtain ⟨b, h2, hs⟩ := Except.bind_eq_ok.mp hs
  cases Except.pure_eq_ok.mp hs
  obtain ⟨hlt, rfl⟩ := writeVar_ok.mp h2
  refine Parses.bind (parses_readInt (by decide) (by cases h <;> simp [Handshake.msgType])) ?_
  refine Parses.bind (parses_readInt (by decide) hlt) ?_
  refine Parses.lift_bind (hsRegistry_msgType h) ?_
  exact parses_limit rfl (parsesAll_body hg h1)

theorem decodeContent_of_parses {E : Env} {ct : Option (Option Nat)} {t : Nat} {out : Bytes}
    {c : Content} (h : Parses (parseContent E ct t) out c) : decodeContent E ct t out = .ok c := by
  have := h.run [] 0
  rw [List.append_nil] at this
  unfold decodeContent
  simp only [Stream.new, P.bind_def, this]
  rfl

theorem decode_serHandshake {E : Env} {ct : Option (Option Nat)} {h : Handshake} {out : Bytes}
    (hg : Spec.GoodMsg E ct h) (hs : serHandshake E h = .ok out) :
    decodeContent E ct 22 out = .ok (.handshake h) := by
  refine decodeContent_of_parses ?_
  exact Parses.bind_pure (parses_serHandshake hg hs) rfl

end Siotls
