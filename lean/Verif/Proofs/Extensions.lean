import Verif.Proofs.Serial
import Verif.Spec.Extensions
import Verif.Model.Handshakes
/-!
# Round trip of the extensions
-/

namespace Siotls
open Serial

def Ext.cls : Ext → ExtClass
  | .serverNameReq _ => .serverNameReq
  | .serverNameResp => .serverNameResp
  | .maxFragmentLength _ => .maxFragmentLength
  | .ocspStatusReq .. => .statusRequest
  | .ocspStatus _ => .certStatus
  | .supportedGroups _ => .supportedGroups
  | .signatureAlgorithms _ => .signatureAlgorithms
  | .signatureAlgorithmsCert _ => .signatureAlgorithmsCert
  | .heartbeat _ => .heartbeat
  | .alpn _ => .alpn
  | .sct => .sct
  | .clientCertTypeReq _ => .clientCertTypeReq
  | .clientCertTypeResp _ => .clientCertTypeResp
  | .serverCertTypeReq _ => .serverCertTypeReq
  | .serverCertTypeResp _ => .serverCertTypeResp
  | .padding _ => .padding
  | .pskReq .. => .pskReq
  | .pskResp _ => .pskResp
  | .earlyData => .earlyData
  | .newSessionEarlyData _ => .newSessionEarlyData
  | .supportedVersionsReq _ => .supportedVersionsReq
  | .supportedVersionsResp _ => .supportedVersionsResp
  | .cookie _ => .cookie
  | .pskModes _ => .pskModes
  | .oidFilters _ => .oidFilters
  | .postHandshakeAuth => .postHandshakeAuth
  | .keyShareReq _ => .keyShareReq
  | .keyShareRetry _ => .keyShareRetry
  | .keyShareResp .. => .keyShareResp
  | .unknown .. => .unknown

theorem extClass_of_allowed {E : Env} {e : Ext} {k : HsKind} (hl : Spec.legal E e)
    (hk : k ∈ Spec.allowedIn e) : extClass e.type k = .ok e.cls := by
  cases e
  case unknown t d =>
    unfold extClass
    have : Iana.extensionTypes.contains t = false := by
      simpa [Spec.legal, Iana.extensionTypes] using hl
    simp only [Ext.type, this, Ext.cls, Bool.false_eq_true, if_false]
  all_goals
    simp only [Spec.allowedIn, List.mem_cons, List.not_mem_nil, or_false] at hk
    first
      | (subst hk; rfl)
      | (rcases hk with rfl | rfl <;> rfl)
      | (rcases hk with rfl | rfl | rfl <;> rfl)

theorem parses_readEnum {n i : Nat} {vals : List Nat} {b : Bytes} (hn : n ≠ 0)
    (h : toBytes n i = .ok b) (hv : vals.contains i = true) : Parses (readEnum n vals) b i := by
  refine Parses.bind_pure (parses_toBytes hn h) ?_
  simp only [hv, if_true]

theorem ParsesAll.of_bind {α β} {p : P α} {f : α → P β} {b₁ : Bytes} {v₁ : α} {v₂ : β}
    (h₁ : ParsesAll p b₁ v₁) (h₂ : f v₁ = pure v₂) : ParsesAll (p >>= f) b₁ v₂ := by
  intro rest pos lims
  rw [P.bind_def, h₁ rest pos lims]
  simp only [h₂, P.pure_def]

theorem parseShares_concat (l : List (Nat × Bytes)) (out : Bytes) (seen : List Nat)
    (hnd : (l.map Prod.fst).Nodup) (hseen : ∀ g ∈ l.map Prod.fst, g ∉ seen)
    (h : concatMapM (fun gk : Nat × Bytes => do
      let g ← toBytes 2 gk.1
      let k ← writeVar 2 gk.2
      return g ++ k) l = .ok out) (k pos : Nat) (hk : l.length ≤ k) :
    parseShares k seen ⟨out, pos, []⟩ = .ok l := by
  induction l generalizing out k pos seen with
  | nil => simp [concatMapM] at h; subst h; unfold parseShares; simp
  | cons a as ih =>
    obtain ⟨x, y, hx, hy, rfl⟩ := concatMapM_cons_ok.mp h
    obtain ⟨g, hg, hx⟩ := Except.bind_eq_ok.mp hx
    obtain ⟨v, hv, hx⟩ := Except.bind_eq_ok.mp hx
    have hx := Except.pure_eq_ok.mp hx
    subst hx
    have hp : Parses parseShare (g ++ v) a := by
      refine Parses.bind (parses_toBytes (by decide) hg) ?_
      exact Parses.bind_pure (parses_writeVar (by decide) hv) rfl
    cases k with
    | zero => simp at hk
    | succ k =>
      unfold parseShares
      have hne : (g ++ v ++ y).isEmpty = false := by
        obtain ⟨_, rfl⟩ := toBytes_ok.mp hg
        cases hh : beEnc 2 a.1 with
        | nil => exact absurd hh (beEnc_ne_nil (by decide))
        | cons => rfl
      simp only [hne, Bool.false_eq_true, if_false, hp.run y pos]
      have h1 : seen.contains a.1 = false := by
        have := hseen a.1 (by simp)
        simpa using this
      simp only [h1, Bool.false_eq_true, if_false]
      rw [ih y (a.1 :: seen) (by simp at hnd; simpa using hnd.2) ?_ hy k _ (by simpa using hk)]
      intro g' hg' hmem
      simp only [List.mem_cons] at hmem
      rcases hmem with rfl | hmem
      · simp only [List.map_cons, List.nodup_cons] at hnd
        exact hnd.1 hg'
      · exact hseen g' (by simp only [List.map_cons, List.mem_cons]; exact .inr hg') hmem

theorem zeros_length (n : Nat) : (zeros n).length = n := by simp [zeros]

theorem parsesAll_extBody {E : Env} {e : Ext} {body : Bytes} (hl : Spec.legal E e)
    (hidn : Spec.asciiLike E e) (hb : Spec.knownBroken e = false) (h : serExtBody E e = .ok body) :
    ParsesAll (parseExtBody E e.type e.cls) body e := by
  cases e
  case serverNameReq o =>
    cases o with
    | none =>
      simp only [serExtBody, Except.ok.injEq] at h
      subst h
      have hv : Parses (readVar 2) (beEnc 2 0) [] := by
        have := parses_readVar (n := 2) (b := []) (by decide) (by decide)
        simpa using this
      refine (Parses.bind_pure (f := fun b => P.lift (parseMany (parseServerName E) b) >>=
        fun names => P.lift (mkServerNameReq (names.filterMap id))) hv ?_).all
      rfl
    | some hn =>
      obtain ⟨len, hlen, h⟩ := Except.bind_eq_ok.mp h
      obtain ⟨enc, henc, h⟩ := Except.bind_eq_ok.mp h
      obtain ⟨enc', henc', hdec⟩ := hl
      rw [henc] at henc'
      cases henc'
      have heq : enc.length = hn.length := hidn enc henc
      obtain ⟨hlt, rfl⟩ := toBytes_ok.mp hlen
      have hp : Parses (parseServerName E) (beEnc 1 0 ++ beEnc 2 hn.length ++ enc) (some hn) := by
        rw [List.append_assoc]
        refine Parses.bind (parses_readInt (by decide) (by decide)) ?_
        simp only [if_true]
        rw [← heq] at hlt ⊢
        exact Parses.bind_pure (parses_readVar (by decide) hlt) (by rw [hdec])
      have hm : parseMany (parseServerName E) (beEnc 1 0 ++ beEnc 2 hn.length ++ enc)
          = .ok [some hn] := by
        refine parseMany_concat (f := fun _ => .ok (beEnc 1 0 ++ beEnc 2 hn.length ++ enc)) ?_ ?_
        · intro a ha x hx
          simp only [List.mem_singleton] at ha
          subst ha
          cases hx
          exact ⟨by simp [beEnc], hp⟩
        · show (Except.ok _ >>= fun x => Except.ok [] >>= fun y => pure (x ++ y)) = _
          simp [Except.bind_def]; rfl
      refine (Parses.bind_pure (f := fun b => P.lift (parseMany (parseServerName E) b) >>=
        fun names => P.lift (mkServerNameReq (names.filterMap id)))
        (parses_writeVar (by decide) h) ?_).all
      rw [hm]
      rfl
  case serverNameResp => cases h; exact (Parses.pure _).all
  case maxFragmentLength c =>
    refine (Parses.bind_pure (f := fun x => pure (Ext.maxFragmentLength x)) (parses_readEnum (by decide) h ?_) rfl).all
    simpa [Iana.mflCodes, Spec.legal] using hl
  case ocspStatusReq ids exts =>
    obtain ⟨l, h1, h⟩ := Except.bind_eq_ok.mp h
    obtain ⟨x, h2, h⟩ := Except.bind_eq_ok.mp h
    cases Except.pure_eq_ok.mp h
    refine (Parses.bind (parses_readInt (by decide) (by decide)) ?_).all
    simp only [if_true]
    exact Parses.bind (parses_writeListVar (by decide) (by decide) h1)
      (Parses.bind_pure (parses_writeVar (by decide) h2) rfl)
  case ocspStatus r =>
    obtain ⟨l, h1, h⟩ := Except.bind_eq_ok.mp h
    cases Except.pure_eq_ok.mp h
    refine (Parses.bind (parses_readInt (by decide) (by decide)) ?_).all
    simp only [if_true]
    exact Parses.bind_pure (parses_writeVar (by decide) h1) rfl
  case supportedGroups l =>
    exact (Parses.bind_pure (f := fun x => pure (Ext.supportedGroups x)) (parses_writeListInt (by decide) (by decide) h) rfl).all
  case signatureAlgorithms l =>
    exact (Parses.bind_pure (f := fun x => pure (Ext.signatureAlgorithms x)) (parses_writeListInt (by decide) (by decide) h) rfl).all
  case signatureAlgorithmsCert l =>
    exact (Parses.bind_pure (f := fun x => pure (Ext.signatureAlgorithmsCert x)) (parses_writeListInt (by decide) (by decide) h) rfl).all
  case heartbeat m =>
    refine (Parses.bind_pure (f := fun x => pure (Ext.heartbeat x)) (parses_readEnum (by decide) h ?_) rfl).all
    simpa [Iana.heartbeatModes, Spec.legal] using hl
  case alpn l =>
    refine (Parses.bind_pure (parses_writeListVar (by decide) (by decide) h) ?_).all
    have : l.filter isPrintable = l := by
      rw [List.filter_eq_self]
      intro p hp
      simp only [isPrintable, List.all_eq_true]
      intro c hc
      have := hl p hp c hc
      simp only [Bool.and_eq_true, decide_eq_true_eq]
      exact ⟨UInt8.le_iff_toNat_le.mpr this.1, UInt8.le_iff_toNat_le.mpr this.2⟩
    rw [this]
  case sct => cases h; exact (Parses.pure _).all
  case clientCertTypeReq => simp [Spec.knownBroken] at hb
  case clientCertTypeResp => simp [Spec.knownBroken] at hb
  case serverCertTypeReq => simp [Spec.knownBroken] at hb
  case serverCertTypeResp => simp [Spec.knownBroken] at hb
  case padding n =>
    cases h
    refine ParsesAll.of_bind (parsesAll_readAll _) ?_
    rw [zeros_length]
  case pskReq => simp [Spec.knownBroken] at hb
  case pskResp i =>
    exact (Parses.bind_pure (f := fun x => pure (Ext.pskResp x)) (parses_toBytes (by decide) h) rfl).all
  case earlyData => cases h; exact (Parses.pure _).all
  case newSessionEarlyData i =>
    exact (Parses.bind_pure (f := fun x => pure (Ext.newSessionEarlyData x)) (parses_toBytes (by decide) h) rfl).all
  case supportedVersionsReq l =>
    exact (Parses.bind_pure (f := fun x => pure (Ext.supportedVersionsReq x)) (parses_writeListInt (by decide) (by decide) h) rfl).all
  case supportedVersionsResp v =>
    have hv : v = 0x0304 := hl
    subst hv
    exact (Parses.bind_pure (f := fun v => if v < Iana.tls13 then P.throw .valueError
      else pure (Ext.supportedVersionsResp v))
      (parses_readEnum (vals := Iana.tlsVersions) (by decide) h (by decide)) rfl).all
  case cookie c => exact (Parses.bind_pure (f := fun x => pure (Ext.cookie x)) (parses_writeVar (by decide) h) rfl).all
  case pskModes l =>
    exact (Parses.bind_pure (f := fun x => pure (Ext.pskModes x)) (parses_writeListInt (by decide) (by decide) h) rfl).all
  case oidFilters l =>
    obtain ⟨b, h1, h⟩ := Except.bind_eq_ok.mp h
    have hm : parseMany parseOidFilter b = .ok l := by
      refine parseMany_concat ?_ h1
      intro a _ x hx
      obtain ⟨o, ho, hx⟩ := Except.bind_eq_ok.mp hx
      obtain ⟨v, hv, hx⟩ := Except.bind_eq_ok.mp hx
      cases Except.pure_eq_ok.mp hx
      refine ⟨?_, Parses.bind (parses_writeVar (by decide) ho)
        (Parses.bind_pure (parses_writeVar (by decide) hv) rfl)⟩
      obtain ⟨_, rfl⟩ := writeVar_ok.mp ho
      simp [beEnc]
    refine (Parses.bind_pure (f := fun b => P.lift (parseMany parseOidFilter b) >>=
        fun l => pure (Ext.oidFilters l))
        (parses_writeVar (by decide) h) ?_).all
    rw [hm]; rfl
  case postHandshakeAuth => cases h; exact (Parses.pure _).all
  case keyShareReq l =>
    obtain ⟨b, h1, h⟩ := Except.bind_eq_ok.mp h
    have hm : parseShares b.length [] (Stream.new b) = .ok l := by
      refine parseShares_concat l b [] hl (by simp) h1 _ _ ?_
      refine concatMapM_length_le ?_ h1
      intro a _ x hx
      obtain ⟨o, ho, hx⟩ := Except.bind_eq_ok.mp hx
      obtain ⟨v, hv, hx⟩ := Except.bind_eq_ok.mp hx
      cases Except.pure_eq_ok.mp hx
      obtain ⟨_, rfl⟩ := toBytes_ok.mp ho
      simp [beEnc]
    refine (Parses.bind_pure (f := fun b => P.lift (parseShares b.length [] (Stream.new b)) >>=
        fun l => pure (Ext.keyShareReq l))
        (parses_writeVar (by decide) h) ?_).all
    rw [hm]; rfl
  case keyShareRetry g =>
    refine (Parses.bind_pure (f := fun x => pure (Ext.keyShareRetry x)) (parses_readEnum (by decide) h ?_) rfl).all
    simpa [Iana.namedGroups, Spec.legal] using hl
  case keyShareResp g k =>
    obtain ⟨a, h1, h⟩ := Except.bind_eq_ok.mp h
    obtain ⟨b, h2, h⟩ := Except.bind_eq_ok.mp h
    cases Except.pure_eq_ok.mp h
    exact (Parses.bind (parses_toBytes (by decide) h1)
      (Parses.bind_pure (f := fun x => pure (Ext.keyShareResp g x)) (parses_writeVar (by decide) h2) rfl)).all
  case unknown t d =>
    cases h
    exact ParsesAll.of_bind (parsesAll_readAll _) rfl

theorem parses_serExt {E : Env} {k : HsKind} {e : Ext} {out : Bytes} (hg : Spec.RoundTrips E k e)
    (h : serExt E e = .ok out) : Parses (parseExt E k) out e := by
  obtain ⟨body, h1, h⟩ := Except.bind_eq_ok.mp h
  obtain ⟨t, h2, h⟩ := Except.bind_eq_ok.mp h
  obtain ⟨b, h3, h⟩ := Except.bind_eq_ok.mp h
  cases Except.pure_eq_ok.mp h
  obtain ⟨hlt, rfl⟩ := writeVar_ok.mp h3
  refine Parses.bind (parses_toBytes (by decide) h2) ?_
  refine Parses.lift_bind (extClass_of_allowed hg.legal hg.allowed) ?_
  refine Parses.bind (parses_readInt (by decide) hlt) ?_
  exact parses_limit rfl (parsesAll_extBody hg.legal hg.ascii hg.works h1)

theorem serExt_ne_nil {E : Env} {e : Ext} {out : Bytes} (h : serExt E e = .ok out) : out ≠ [] := by
  obtain ⟨body, h1, h⟩ := Except.bind_eq_ok.mp h
  obtain ⟨t, h2, h⟩ := Except.bind_eq_ok.mp h
  obtain ⟨b, h3, h⟩ := Except.bind_eq_ok.mp h
  cases Except.pure_eq_ok.mp h
  obtain ⟨_, rfl⟩ := toBytes_ok.mp h2
  simp [beEnc]

theorem parses_serExtList {E : Env} {k : HsKind} {l : List Ext} {out : Bytes}
    (hg : ∀ e ∈ l, Spec.RoundTrips E k e) (h : serExtList E l = .ok out) : Parses (parseExtList E k) out l := by
  obtain ⟨b, h1, h⟩ := Except.bind_eq_ok.mp h
  refine Parses.bind_pure (f := fun b => P.lift (parseMany (parseExt E k) b))
    (parses_writeVar (by decide) h) ?_
  rw [parseMany_concat (l := l) (fun a ha x hx => ⟨serExt_ne_nil hx, parses_serExt (hg a ha) hx⟩) h1]
  rfl

/-- the only reason a working serializer refuses a value is that it does not fit -/
theorem serExt_total {E : Env} {e : Ext} (hl : Spec.legal E e) (hb : Spec.knownBroken e = false) :
    (∃ out, serExt E e = .ok out) ∨ serExt E e = .error .overflow := by
  have ht : ∀ n i, (∃ b, toBytes n i = .ok b) ∨ toBytes n i = .error .overflow := by
    intro n i; unfold toBytes; split <;> simp
  have hv : ∀ n b, (∃ o, writeVar n b = .ok o) ∨ writeVar n b = .error .overflow := by
    intro n b
    unfold writeVar
    rcases ht n b.length with ⟨x, hx⟩ | hx <;> simp [hx, Except.bind_def]
    exact .inl ⟨_, rfl⟩
  have hbind : ∀ {α : Type} (x : Except Exn α) (f : α → Except Exn Bytes),
      ((∃ a, x = .ok a) ∨ x = .error .overflow) →
      (∀ a, (∃ o, f a = .ok o) ∨ f a = .error .overflow) →
      (∃ o, (x >>= f) = .ok o) ∨ (x >>= f) = .error .overflow := by
    intro α x f hx hf
    rcases hx with ⟨a, rfl⟩ | rfl
    · exact hf a
    · exact .inr rfl
  have hc : ∀ {α : Type} (f : α → Except Exn Bytes) (l : List α),
      (∀ a, (∃ o, f a = .ok o) ∨ f a = .error .overflow) →
      (∃ o, concatMapM f l = .ok o) ∨ concatMapM f l = .error .overflow := by
    intro α f l hf
    induction l with
    | nil => exact .inl ⟨[], rfl⟩
    | cons a as ih => exact hbind _ _ (hf a) fun x => hbind _ _ ih fun y => .inl ⟨_, rfl⟩
  have hli : ∀ n m l, (∃ o, writeListInt n m l = .ok o) ∨ writeListInt n m l = .error .overflow :=
    fun n m l => hbind _ _ (ht _ _) fun _ => hbind _ _ (hc _ _ (ht m)) fun _ => .inl ⟨_, rfl⟩
  have hlv : ∀ n m l, (∃ o, writeListVar n m l = .ok o) ∨ writeListVar n m l = .error .overflow :=
    fun n m l => hbind _ _ (hc _ _ (hv m)) fun _ => hv _ _
  refine hbind _ _ ?_ fun _ => hbind _ _ (ht _ _) fun _ => hbind _ _ (hv _ _) fun _ => .inl ⟨_, rfl⟩
  cases e
  case serverNameReq o =>
    cases o with
    | none => exact .inl ⟨_, rfl⟩
    | some h =>
      obtain ⟨enc, henc, _⟩ := hl
      exact hbind _ _ (ht _ _) fun _ => hbind _ _ (.inl ⟨enc, henc⟩) fun _ => hv _ _
  case clientCertTypeReq => simp [Spec.knownBroken] at hb
  case clientCertTypeResp => simp [Spec.knownBroken] at hb
  case serverCertTypeReq => simp [Spec.knownBroken] at hb
  case serverCertTypeResp => simp [Spec.knownBroken] at hb
  case pskReq => simp [Spec.knownBroken] at hb
  case oidFilters =>
    exact hbind _ _ (hc _ _ fun _ => hbind _ _ (hv _ _) fun _ => hbind _ _ (hv _ _) fun _ =>
      .inl ⟨_, rfl⟩) fun _ => hv _ _
  case keyShareReq =>
    exact hbind _ _ (hc _ _ fun _ => hbind _ _ (ht _ _) fun _ => hbind _ _ (hv _ _) fun _ =>
      .inl ⟨_, rfl⟩) fun _ => hv _ _
  case ocspStatusReq =>
    exact hbind _ _ (hlv _ _ _) fun _ => hbind _ _ (hv _ _) fun _ => .inl ⟨_, rfl⟩
  case ocspStatus => exact hbind _ _ (hv _ _) fun _ => .inl ⟨_, rfl⟩
  case keyShareResp =>
    exact hbind _ _ (ht _ _) fun _ => hbind _ _ (hv _ _) fun _ => .inl ⟨_, rfl⟩
  all_goals
    first
      | exact .inl ⟨_, rfl⟩
      | exact ht _ _
      | exact hv _ _
      | exact hli _ _ _
      | exact hlv _ _ _

end Siotls
