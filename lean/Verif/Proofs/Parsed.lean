import Verif.Proofs.Canon
import Verif.Model.Contents
import Verif.Spec.Layout
/-!
# What accepted messages look like on the wire
-/

namespace Siotls
open Serial

/-- `p` advances the stream by what it consumed and returns a value that satisfies `Q`. -/
def Consumes {α} (p : P α) (Q : α → Prop) : Prop :=
  ∀ s v s', p s = .ok (v, s') → Q v ∧ ∃ used, s.rest = used ++ s'.rest ∧
    s'.pos = s.pos + used.length ∧ s'.lims = s.lims

theorem Consumes.bind {α β} {p : P α} {f : α → P β} {Q : α → Prop} {R : β → Prop}
    (h : Consumes p Q) (hf : ∀ a, Q a → Consumes (f a) R) : Consumes (p >>= f) R := by
  intro s v s' hr
  rw [P.bind_def] at hr
  split at hr
  · next a s₁ ha =>
    obtain ⟨hq, u, h1, h2, h3⟩ := h _ _ _ ha
    obtain ⟨hq', u', h1', h2', h3'⟩ := hf a hq _ _ _ hr
    exact ⟨hq', u ++ u', by rw [h1, h1']; simp, by rw [h2', h2]; simp; omega, by rw [h3', h3]⟩
  · cases hr

theorem Consumes.mono {α} {p : P α} {Q R : α → Prop} (h : Consumes p Q) (hq : ∀ a, Q a → R a) :
    Consumes p R := fun s v s' hr => ⟨hq _ (h s v s' hr).1, (h s v s' hr).2⟩

theorem Consumes.pure {α} {a : α} {Q : α → Prop} (h : Q a) : Consumes (Pure.pure a : P α) Q := by
  rintro s v s' ⟨⟩; exact ⟨h, [], by simp⟩

theorem Consumes.throw {α} {e : Exn} {Q : α → Prop} : Consumes (P.throw e : P α) Q := by
  rintro s v s' ⟨⟩

theorem Consumes.lift {α} {r : Except Exn α} {Q : α → Prop} (h : ∀ a, r = .ok a → Q a) :
    Consumes (P.lift r) Q := by
  intro s v s' hr
  unfold P.lift at hr
  cases r with
  | error e => cases hr
  | ok a => cases hr; exact ⟨h _ rfl, [], by simp⟩

theorem Canonical.consumes {α} {p : P α} {f : α → Except Exn Bytes} (h : Canonical p f) :
    Consumes p fun _ => True := by
  intro s v s' hr
  obtain ⟨o, _, h⟩ := h _ _ _ hr
  exact ⟨trivial, o, h⟩

theorem consumes_readExactly (n : Nat) : Consumes (readExactly n) fun b => b.length = n := by
  intro s v s' hr
  obtain ⟨h, h'⟩ := readExactly_ok hr
  exact ⟨h, _, h'⟩

theorem consumes_readAll : Consumes readAll fun _ => True := by
  intro s v s' hr
  unfold readAll at hr
  split at hr <;> exact ⟨trivial, _, rawRead_ok hr⟩

theorem consumes_readInt (n : Nat) : Consumes (readInt n) fun _ => True :=
  canonical_readInt.consumes
theorem consumes_readVar (n : Nat) : Consumes (readVar n) fun _ => True :=
  canonical_readVar.consumes
theorem consumes_readListVar (n m : Nat) : Consumes (readListVar n m) fun _ => True :=
  canonical_readListVar.consumes
theorem consumes_readListInt (n : Nat) {m : Nat} (h : m ≠ 0) :
    Consumes (readListInt n m) fun _ => True := (canonical_readListInt h).consumes

theorem consumes_readEnum (n : Nat) (l : List Nat) : Consumes (readEnum n l) (· ∈ l) := by
  unfold readEnum
  refine Consumes.bind (consumes_readInt n) fun i _ => ?_
  split
  · next h => exact Consumes.pure (by simpa using h)
  · exact Consumes.throw

/-- restrictions on the fields of a parsed extension -/
def Ext.ParsedOk : Ext → Prop
  | .maxFragmentLength c => c ∈ Iana.mflCodes
  | .supportedVersionsResp v => v = Iana.tls13
  | _ => True

/-- the extension type of a class -/
def ExtClass.type (unknown : Nat) : ExtClass → Nat
  | .serverNameReq | .serverNameResp => 0
  | .maxFragmentLength => 1
  | .statusRequest | .certStatus => 5
  | .supportedGroups => 10
  | .signatureAlgorithms => 13
  | .useSrtp => 14
  | .heartbeat => 15
  | .alpn => 16
  | .sct => 18
  | .clientCertTypeReq | .clientCertTypeResp => 19
  | .serverCertTypeReq | .serverCertTypeResp => 20
  | .padding => 21
  | .pskReq | .pskResp => 41
  | .earlyData | .newSessionEarlyData => 42
  | .supportedVersionsReq | .supportedVersionsResp => 43
  | .cookie => 44
  | .pskModes => 45
  | .certificateAuthorities => 47
  | .oidFilters => 48
  | .postHandshakeAuth => 49
  | .signatureAlgorithmsCert => 50
  | .keyShareReq | .keyShareRetry | .keyShareResp => 51
  | .unknown => unknown

theorem extRegistry_type {type : Nat} {kind : HsKind} {cls : ExtClass}
    (h : extRegistry type kind = some cls) : cls.type type = type := by
  unfold extRegistry at h
  split at h <;> cases h <;> rfl

theorem extClass_type {type : Nat} {kind : HsKind} {cls : ExtClass}
    (h : extClass type kind = .ok cls) : cls.type type = type := by
  unfold extClass at h
  split at h
  · split at h
    · next hr => cases h; exact extRegistry_type hr
    · cases h
  · cases h; rfl

theorem mkServerNameReq_type {l : List PyStr} {e : Ext} (h : mkServerNameReq l = .ok e) :
    e.type = 0 ∧ e.ParsedOk := by
  unfold mkServerNameReq at h
  split at h
  · cases h; exact ⟨rfl, trivial⟩
  · split at h
    · cases h; exact ⟨rfl, trivial⟩
    · cases h

macro "consumes1" : tactic => `(tactic| with_reducible first
  | exact Consumes.throw
  | refine Consumes.bind (consumes_readVar _) (fun _ _ => ?_)
  | refine Consumes.bind (consumes_readInt _) (fun _ _ => ?_)
  | refine Consumes.bind (consumes_readListVar _ _) (fun _ _ => ?_)
  | refine Consumes.bind (consumes_readListInt _ (by decide)) (fun _ _ => ?_)
  | refine Consumes.bind (consumes_readEnum _ _) (fun _ _ => ?_)
  | refine Consumes.bind consumes_readAll (fun _ _ => ?_)
  | refine Consumes.bind (Consumes.lift (Q := fun _ => True) (fun _ _ => trivial)) (fun _ _ => ?_)
  | refine Consumes.pure ?_
  | split)

theorem consumes_extBody (E : Env) (type : Nat) (cls : ExtClass) :
    Consumes (parseExtBody E type cls) fun e => e.type = cls.type type ∧ e.ParsedOk := by
  cases cls
  case serverNameReq =>
    unfold parseExtBody
    consumes1; consumes1
    exact Consumes.lift fun a ha => mkServerNameReq_type ha
  case supportedVersionsResp =>
    unfold parseExtBody
    refine Consumes.bind (consumes_readEnum _ _) fun v hv => ?_
    split
    · exact Consumes.throw
    · next h =>
      refine Consumes.pure ⟨rfl, ?_⟩
      have hv' : v ∈ ([0x0301, 0x0302, 0x0303, 0x0304] : List Nat) := hv
      have : ¬ v < 0x0304 := h
      show v = 0x0304
      simp at hv'
      omega
  case maxFragmentLength =>
    unfold parseExtBody
    refine Consumes.bind (consumes_readEnum _ _) fun v hv => ?_
    exact Consumes.pure ⟨rfl, hv⟩
  all_goals
    unfold parseExtBody
    repeat' consumes1
    all_goals exact ⟨rfl, trivial⟩

theorem limit_ok {α} {n : Nat} {p : P α} {s s' : Stream} {v : α} (h : limit n p s = .ok (v, s')) :
    ∃ s₁, p { s with lims := (s.pos + n) :: s.lims } = .ok (v, s₁) ∧ s₁.pos = s.pos + n ∧
      s' = { s₁ with lims := s₁.lims.tail } := by
  have key : (match p { s with lims := (s.pos + n) :: s.lims } with
      | .error e => .error e
      | .ok (a, s') =>
        if s.pos + n ≠ s'.pos then .error .bufTooMuch
        else .ok (a, { s' with lims := s'.lims.tail })) = Except.ok (v, s') := by
    unfold limit at h
    dsimp only at h
    split at h
    · split at h
      · cases h
      · exact h
    · split at h
      · cases h
      · exact h
  rcases hp : p { s with lims := (s.pos + n) :: s.lims } with e | ⟨v', s₁⟩
  · rw [hp] at key; cases key
  · rw [hp] at key
    dsimp only at key
    by_cases hn : s.pos + n ≠ s₁.pos
    · rw [if_pos hn] at key; cases key
    · rw [if_neg hn] at key; cases key; exact ⟨s₁, rfl, (not_not.mp hn).symm, rfl⟩

/-- leaving a limited region: exactly `n` bytes were consumed -/
theorem limit_consumes {α} {n : Nat} {p : P α} {Q : α → Prop} (hp : Consumes p Q) {s s' : Stream}
    {v : α} (h : limit n p s = .ok (v, s')) :
    Q v ∧ ∃ used, used.length = n ∧ s.rest = used ++ s'.rest ∧ s'.pos = s.pos + n ∧
      s'.lims = s.lims := by
  obtain ⟨s₁, h1, h2, rfl⟩ := limit_ok h
  obtain ⟨hq, u, e1, e2, e3⟩ := hp _ _ _ h1
  refine ⟨hq, u, ?_, e1, h2, by rw [e3]; rfl⟩
  dsimp only at e2
  omega

theorem beEnc_one (i : Nat) : beEnc 1 i = [UInt8.ofNat i] := by simp [beEnc]
theorem beEnc_two (i : Nat) : beEnc 2 i = Spec.be16 i := by
  simp only [beEnc, Spec.be16, pow_one, pow_zero, Nat.div_one]
  congr 2
  apply UInt8.toNat_inj.mp
  simp

theorem beEnc_three {i : Nat} (body : Bytes) (h : i = body.length) (t : Nat) (hi : i < 2 ^ 24) :
    beEnc 1 t ++ (beEnc 3 i ++ body) = Spec.message (UInt8.ofNat t) body := by
  subst h
  simp only [beEnc_one, Spec.message, List.cons_append, List.nil_append]
  rw [← beEnc_two]
  simp only [beEnc, List.cons_append, List.nil_append, List.append_assoc]
  refine congrArg _ (congrArg₂ _ ?_ (congrArg₂ _ ?_ (congrArg₂ _ ?_ rfl)))
  all_goals
    apply UInt8.toNat_inj.mp
    simp
    try omega

theorem writeVar_two {b out : Bytes} (h : writeVar 2 b = .ok out) :
    out = Spec.vec16 b ∧ b.length < 65536 := by
  obtain ⟨h1, rfl⟩ := writeVar_ok.mp h
  exact ⟨by rw [beEnc_two]; rfl, h1⟩

theorem writeVar_one {b out : Bytes} (h : writeVar 1 b = .ok out) :
    out = Spec.vec8 b ∧ b.length < 256 := by
  obtain ⟨h1, rfl⟩ := writeVar_ok.mp h
  exact ⟨by rw [beEnc_one]; rfl, h1⟩

/-- one extension: type, length, data -/
theorem parseExt_layout {E : Env} {kind : HsKind} {s s' : Stream} {e : Ext}
    (h : parseExt E kind s = .ok (e, s')) :
    e.ParsedOk ∧ e.type < 65536 ∧ ∃ data, data.length < 65536 ∧
      s.rest = (Spec.be16 e.type ++ Spec.vec16 data) ++ s'.rest := by
  unfold parseExt at h
  rw [P.bind_def] at h
  cases h1 : readInt 2 s with
  | error e => rw [h1] at h; cases h
  | ok r =>
  obtain ⟨t, s₁⟩ := r
  rw [h1] at h
  dsimp only at h
  rw [P.bind_def] at h
  cases h2 : extClass t kind with
  | error e => rw [h2] at h; cases h
  | ok cls =>
  rw [h2] at h
  simp only [P.lift] at h
  rw [P.bind_def] at h
  cases h3 : readInt 2 s₁ with
  | error e => rw [h3] at h; cases h
  | ok r =>
  obtain ⟨n, s₂⟩ := r
  rw [h3] at h
  dsimp only at h
  obtain ⟨⟨hq, hok⟩, data, hn, hd, _⟩ := limit_consumes (consumes_extBody E t cls) h
  rw [extClass_type h2] at hq
  obtain ⟨o1, w1, e1, _⟩ := canonical_readInt _ _ _ h1
  obtain ⟨o3, w3, e3, _⟩ := canonical_readInt _ _ _ h3
  obtain ⟨l1, rfl⟩ := toBytes_ok.mp w1
  obtain ⟨l3, rfl⟩ := toBytes_ok.mp w3
  refine ⟨hok, by rw [hq]; exact l1, data, by rw [hn]; exact l3, ?_⟩
  rw [e1, e3, hd, hq, ← beEnc_two, Spec.vec16, hn, ← beEnc_two]
  simp

/-- the types of the parsed extensions are those on the wire -/
def ExtsAre (exts : List Ext) (items : List (Nat × Bytes)) : Prop :=
  exts.map Ext.type = items.map Prod.fst ∧ (∀ x ∈ items, x.1 < 65536 ∧ x.2.length < 65536) ∧
    ∀ e ∈ exts, e.ParsedOk

theorem untilEof_layout {E : Env} {kind : HsKind} : ∀ (k : Nat) (s : Stream) (l : List Ext),
    untilEof (parseExt E kind) k s = .ok l → ∃ items, ExtsAre l items ∧
      s.rest = items.flatMap fun x => Spec.be16 x.1 ++ Spec.vec16 x.2 := by
  intro k
  induction k with
  | zero =>
    intro s l h
    unfold untilEof at h
    split at h
    · next he =>
      cases h
      simp only [List.isEmpty_iff] at he
      exact ⟨[], ⟨rfl, by simp, by simp⟩, by rw [he]; rfl⟩
    · cases h
  | succ k ih =>
    intro s l h
    unfold untilEof at h
    split at h
    · next he =>
      cases h
      simp only [List.isEmpty_iff] at he
      exact ⟨[], ⟨rfl, by simp, by simp⟩, by rw [he]; rfl⟩
    · cases ha : parseExt E kind s with
      | error e => rw [ha] at h; cases h
      | ok r =>
        obtain ⟨a, s₁⟩ := r
        rw [ha] at h
        dsimp only at h
        cases has : untilEof (parseExt E kind) k s₁ with
        | error e => rw [has] at h; cases h
        | ok as =>
          rw [has] at h
          cases h
          obtain ⟨hok, ht, data, hd, hr⟩ := parseExt_layout ha
          obtain ⟨items, ⟨i1, i2, i3⟩, hi⟩ := ih _ _ has
          refine ⟨(a.type, data) :: items, ⟨by simp [i1], ?_, ?_⟩, ?_⟩
          · intro x hx
            rcases List.mem_cons.mp hx with rfl | hx
            · exact ⟨ht, hd⟩
            · exact i2 _ hx
          · intro x hx
            rcases List.mem_cons.mp hx with rfl | hx
            · exact hok
            · exact i3 _ hx
          · rw [hr, hi]; rfl

theorem parseExtList_layout {E : Env} {kind : HsKind} {s s' : Stream} {l : List Ext}
    (h : parseExtList E kind s = .ok (l, s')) :
    ∃ items, ExtsAre l items ∧ s.rest = Spec.extensions items ++ s'.rest ∧
      s'.pos = s.pos + (Spec.extensions items).length ∧ s'.lims = s.lims := by
  unfold parseExtList at h
  rw [P.bind_def] at h
  cases h1 : readVar 2 s with
  | error e => rw [h1] at h; cases h
  | ok r =>
  obtain ⟨b, s₁⟩ := r
  rw [h1] at h
  dsimp only at h
  cases h2 : parseMany (parseExt E kind) b with
  | error e => rw [h2] at h; cases h
  | ok l' =>
  rw [h2] at h
  cases h
  obtain ⟨items, hi, hb⟩ := untilEof_layout _ _ _ h2
  obtain ⟨o, w, e, p, q⟩ := canonical_readVar _ _ _ h1
  obtain ⟨rfl, _⟩ := writeVar_two w
  have hb : b = _ := hb
  subst hb
  exact ⟨items, hi, e, p, q⟩

/-- dict insertion keeps the set of types -/
theorem dictOfExts_spec (l : List Ext) : ((dictOfExts l).map Ext.type).Nodup ∧
    (∀ t, t ∈ (dictOfExts l).map Ext.type ↔ t ∈ l.map Ext.type) ∧
    ∀ e ∈ dictOfExts l, e ∈ l := by
  have key : ∀ (l d : List Ext), (d.map Ext.type).Nodup →
      let r := l.foldl (fun d e =>
        if d.any (·.type = e.type) then d.map (fun x => if x.type = e.type then e else x)
        else d ++ [e]) d
      (r.map Ext.type).Nodup ∧ (∀ t, t ∈ r.map Ext.type ↔ t ∈ d.map Ext.type ∨ t ∈ l.map Ext.type) ∧
        ∀ e ∈ r, e ∈ d ∨ e ∈ l := by
    intro l
    induction l with
    | nil => intro d hd; exact ⟨hd, by simp, fun e h => .inl h⟩
    | cons a l ih =>
      intro d hd
      rw [List.foldl_cons]
      by_cases ha : d.any (·.type = a.type) = true
      · rw [if_pos ha]
        have hm : (d.map (fun x => if x.type = a.type then a else x)).map Ext.type =
            d.map Ext.type := by
          rw [List.map_map]
          apply List.map_congr_left
          intro x _
          simp only [Function.comp]
          split <;> simp_all
        obtain ⟨r1, r2, r3⟩ := ih _ (by rw [hm]; exact hd)
        refine ⟨r1, fun t => ?_, fun e he => ?_⟩
        · rw [r2, hm]
          obtain ⟨x, hx, hxa⟩ := List.any_eq_true.mp ha
          have hxa : x.type = a.type := by simpa using hxa
          constructor
          · rintro (h | h)
            · exact .inl h
            · exact .inr (List.mem_cons_of_mem _ h)
          · rintro (h | h)
            · exact .inl h
            · rcases List.mem_cons.mp h with rfl | h
              · exact .inl (List.mem_map.mpr ⟨x, hx, hxa⟩)
              · exact .inr h
        · rcases r3 e he with h | h
          · obtain ⟨x, hx, rfl⟩ := List.mem_map.mp h
            split
            · exact .inr List.mem_cons_self
            · exact .inl hx
          · exact .inr (List.mem_cons_of_mem _ h)
      · rw [if_neg ha]
        have hna : a.type ∉ d.map Ext.type := by
          intro hc
          obtain ⟨x, hx, hxa⟩ := List.mem_map.mp hc
          exact ha (List.any_eq_true.mpr ⟨x, hx, by simpa using hxa⟩)
        obtain ⟨r1, r2, r3⟩ := ih (d ++ [a]) (by
          rw [List.map_append, List.nodup_append]
          refine ⟨hd, by simp, ?_⟩
          rintro x hx y hy rfl
          simp only [List.map_cons, List.map_nil, List.mem_singleton] at hy
          exact hna (hy ▸ hx))
        refine ⟨r1, fun t => ?_, fun e he => ?_⟩
        · rw [r2]; simp only [List.map_append, List.mem_append, List.map_cons, List.mem_cons,
            List.map_nil, List.not_mem_nil]; tauto
        · rcases r3 e he with h | h
          · rcases List.mem_append.mp h with h | h
            · exact .inl h
            · rw [List.mem_singleton.mp h]; exact .inr List.mem_cons_self
          · exact .inr (List.mem_cons_of_mem _ h)
  obtain ⟨h1, h2, h3⟩ := key l [] (by simp)
  exact ⟨h1, fun t => (h2 t).trans (by simp), fun e he => by
    simpa using h3 e he⟩

theorem mkClientHello_ok {random : Bytes} {suites : List Nat} {exts : List Ext} {h : Handshake}
    (hm : mkClientHello random suites exts = .ok h) :
    h = .clientHello random [] suites (dictOfExts exts) ∧ random.length = 32 ∧ suites ≠ [] ∧
      (41 ∈ exts.map Ext.type → (exts.map Ext.type).getLast? = some 41 ∧
        45 ∈ exts.map Ext.type) := by
  have hfind : ∀ t, (findExt (dictOfExts exts) t).isSome = true ↔ t ∈ exts.map Ext.type := by
    intro t
    rw [← (dictOfExts_spec exts).2.1 t]
    unfold findExt
    rw [List.find?_isSome]
    simp
  unfold mkClientHello at hm
  dsimp only at hm
  split at hm
  · cases hm
  next hr =>
  split at hm
  · cases hm
  next hs =>
  split at hm
  · cases hm
  have hs' : suites ≠ [] := by simpa using hs
  split at hm
  · next hp =>
    split at hm
    · cases hm
    next hl =>
    split at hm
    · cases hm
    next hk =>
    cases hm
    refine ⟨rfl, not_not.mp hr, hs', fun _ => ⟨?_, ?_⟩⟩
    · rw [List.getLast?_map]; exact not_not.mp hl
    · exact (hfind 45).mp (by
        cases hf : findExt (dictOfExts exts) 45 with
        | none => exact absurd (by rw [show Iana.extPskKeyExchangeModes = 45 from rfl, hf]; rfl) hk
        | some _ => rfl)
  · next hp =>
    cases hm
    exact ⟨rfl, not_not.mp hr, hs', fun h => absurd ((hfind 41).mpr h) hp⟩

theorem P.bind_ok {α β} {p : P α} {f : α → P β} {s s' : Stream} {v : β}
    (h : (p >>= f) s = .ok (v, s')) : ∃ a s₁, p s = .ok (a, s₁) ∧ f a s₁ = .ok (v, s') := by
  rw [P.bind_def] at h
  split at h
  · next a s₁ ha => exact ⟨a, s₁, ha, h⟩
  · cases h

theorem P.lift_ok {α} {r : Except Exn α} {s s' : Stream} {v : α}
    (h : P.lift r s = .ok (v, s')) : r = .ok v ∧ s' = s := by
  unfold P.lift at h
  cases r with
  | error e => cases h
  | ok a => cases h; exact ⟨rfl, rfl⟩

theorem writeListInt_two {l : List Nat} {out : Bytes} (h : writeListInt 2 2 l = .ok out) :
    out = Spec.vec16 (l.flatMap Spec.be16) ∧ (∀ i ∈ l, i < 65536) ∧ 2 * l.length < 65536 := by
  obtain ⟨b, hlen, h1, rfl⟩ := writeListInt_ok.mp h
  have key : ∀ (l : List Nat) (b : Bytes), concatMapM (toBytes 2) l = .ok b →
      b = l.flatMap Spec.be16 ∧ ∀ i ∈ l, i < 65536 := by
    intro l
    induction l with
    | nil => intro b h; cases h; exact ⟨rfl, by simp⟩
    | cons a l ih =>
      intro b h
      obtain ⟨o, o', h1, h2, rfl⟩ := concatMapM_cons_ok.mp h
      obtain ⟨hl, rfl⟩ := toBytes_ok.mp h1
      obtain ⟨rfl, hl'⟩ := ih _ h2
      refine ⟨by rw [beEnc_two]; rfl, ?_⟩
      intro i hi
      rcases List.mem_cons.mp hi with rfl | hi
      · exact hl
      · exact hl' _ hi
  obtain ⟨rfl, hl⟩ := key _ _ h1
  have hl2 : ∀ l : List Nat, (l.flatMap Spec.be16).length = l.length * 2 := by
    intro l
    induction l with
    | nil => rfl
    | cons a l ih => rw [List.flatMap_cons, List.length_append, ih]; simp [Spec.be16]; omega
  refine ⟨by rw [beEnc_two, Spec.vec16, hl2], hl, by omega⟩

/-- `p` consumes `out` -/
def Took (s : Stream) (out : Bytes) (s' : Stream) : Prop :=
  s.rest = out ++ s'.rest ∧ s'.pos = s.pos + out.length ∧ s'.lims = s.lims

theorem Took.trans {s₁ s₂ s₃ : Stream} {a b : Bytes} (h : Took s₁ a s₂) (h' : Took s₂ b s₃) :
    Took s₁ (a ++ b) s₃ :=
  ⟨by rw [h.1, h'.1]; simp, by rw [h'.2.1, h.2.1]; simp; omega, by rw [h'.2.2, h.2.2]⟩

theorem took_int2 {s s' : Stream} {i : Nat} (h : readInt 2 s = .ok (i, s')) :
    Took s (Spec.be16 i) s' ∧ i < 65536 := by
  obtain ⟨o, w, t⟩ := canonical_readInt _ _ _ h
  obtain ⟨l, rfl⟩ := toBytes_ok.mp w
  exact ⟨by rw [← beEnc_two]; exact t, l⟩

theorem took_int1 {s s' : Stream} {i : Nat} (h : readInt 1 s = .ok (i, s')) :
    Took s [UInt8.ofNat i] s' ∧ i < 256 := by
  obtain ⟨o, w, t⟩ := canonical_readInt _ _ _ h
  obtain ⟨l, rfl⟩ := toBytes_ok.mp w
  exact ⟨by rw [← beEnc_one]; exact t, l⟩

theorem took_var1 {s s' : Stream} {b : Bytes} (h : readVar 1 s = .ok (b, s')) :
    Took s (Spec.vec8 b) s' ∧ b.length < 256 := by
  obtain ⟨o, w, t⟩ := canonical_readVar _ _ _ h
  obtain ⟨rfl, l⟩ := writeVar_one w
  exact ⟨t, l⟩

theorem parseClientHello_layout {E : Env} {s s' : Stream} {h : Handshake}
    (hp : parseClientHello E s = .ok (h, s')) :
    ∃ r sid suites exts items, h = .clientHello r sid suites (dictOfExts exts) ∧
      ExtsAre exts items ∧ r.length = 32 ∧ sid.length < 256 ∧ suites ≠ [] ∧
      (∀ i ∈ suites, i < 65536) ∧ 2 * suites.length < 65536 ∧
      (41 ∈ exts.map Ext.type → (exts.map Ext.type).getLast? = some 41 ∧
        45 ∈ exts.map Ext.type) ∧
      Took s ([3, 3] ++ r ++ Spec.vec8 sid ++ Spec.vec16 (suites.flatMap Spec.be16) ++
        Spec.vec8 [0] ++ Spec.extensions items) s' := by
  unfold parseClientHello at hp
  obtain ⟨v, s₁, h1, hp⟩ := P.bind_ok hp
  split at hp
  · cases hp
  next hv =>
  obtain ⟨r, s₂, h2, hp⟩ := P.bind_ok hp
  obtain ⟨sid, s₃, h3, hp⟩ := P.bind_ok hp
  obtain ⟨suites, s₄, h4, hp⟩ := P.bind_ok hp
  obtain ⟨comp, s₅, h5, hp⟩ := P.bind_ok hp
  split at hp
  · cases hp
  next hc =>
  obtain ⟨exts, s₆, h6, hp⟩ := P.bind_ok hp
  obtain ⟨self, s₇, h7, hp⟩ := P.bind_ok hp
  obtain ⟨h7, rfl⟩ := P.lift_ok h7
  have hm : mkClientHello r suites exts = .ok self := by
    cases hm : mkClientHello r suites exts with
    | ok x => rw [hm] at h7; cases h7; rfl
    | error e => 
      rw [hm] at h7
      unfold mapValueError at h7
      split at h7
      · cases h7
      · next hx => cases h7
  obtain ⟨rfl, hr, hs, hpsk⟩ := mkClientHello_ok hm
  cases hp
  cases not_not.mp hv
  cases not_not.mp hc
  obtain ⟨items, hi, t6⟩ := parseExtList_layout h6
  obtain ⟨o4, w4, t4⟩ := canonical_readListInt (by decide) _ _ _ h4
  obtain ⟨rfl, l4, l4'⟩ := writeListInt_two w4
  refine ⟨r, sid, suites, exts, items, rfl, hi, hr, (took_var1 h3).2, hs, l4, l4', hpsk, ?_⟩
  have t1 := (took_int2 h1).1
  have t2 : Took s₁ r s₂ := (readExactly_ok h2).2
  exact ((((t1.trans t2).trans (took_var1 h3).1).trans t4).trans (took_var1 h5).1).trans t6

theorem parseServerHello_layout {E : Env} {s s' : Stream} {h : Handshake}
    (hp : parseServerHello E s = .ok (h, s')) :
    ∃ r sid suite exts items, h = (if r = hrrRandom then
        .helloRetryRequest r sid suite (dictOfExts exts)
        else .serverHello r sid suite (dictOfExts exts)) ∧
      ExtsAre exts items ∧ r.length = 32 ∧ sid.length < 256 ∧ suite < 65536 ∧
      Took s ([3, 3] ++ r ++ Spec.vec8 sid ++ Spec.be16 suite ++ [0] ++
        Spec.extensions items) s' := by
  unfold parseServerHello at hp
  obtain ⟨v, s₁, h1, hp⟩ := P.bind_ok hp
  split at hp
  · cases hp
  next hv =>
  obtain ⟨r, s₂, h2, hp⟩ := P.bind_ok hp
  obtain ⟨sid, s₃, h3, hp⟩ := P.bind_ok hp
  obtain ⟨suite, s₄, h4, hp⟩ := P.bind_ok hp
  obtain ⟨comp, s₅, h5, hp⟩ := P.bind_ok hp
  split at hp
  · cases hp
  next hc =>
  cases not_not.mp hv
  cases not_not.mp hc
  have t1 := (took_int2 h1).1
  have t2 : Took s₁ r s₂ := (readExactly_ok h2).2
  have t5 := ((((t1.trans t2).trans (took_var1 h3).1).trans (took_int2 h4).1).trans
    (took_int1 h5).1)
  split at hp
  · next hr =>
    obtain ⟨exts, s₆, h6, hp⟩ := P.bind_ok hp
    cases hp
    obtain ⟨items, hi, t6⟩ := parseExtList_layout h6
    exact ⟨r, sid, suite, exts, items, by rw [if_pos hr], hi, (readExactly_ok h2).1,
      (took_var1 h3).2, (took_int2 h4).2, t5.trans t6⟩
  · next hr =>
    obtain ⟨exts, s₆, h6, hp⟩ := P.bind_ok hp
    cases hp
    obtain ⟨items, hi, t6⟩ := parseExtList_layout h6
    exact ⟨r, sid, suite, exts, items, by rw [if_neg hr], hi, (readExactly_ok h2).1,
      (took_var1 h3).2, (took_int2 h4).2, t5.trans t6⟩

/-- an accepted handshake message: its type, its length, and its body read to the end -/
theorem decodeHandshake_ok {E : Env} {ct : Option (Option Nat)} {data : Bytes} {h : Handshake}
    (hd : decodeContent E ct 22 data = .ok (.handshake h)) :
    ∃ t len s₁ s₂, t < 256 ∧ len < 2 ^ 24 ∧ data = beEnc 1 t ++ (beEnc 3 len ++ s₁.rest) ∧
      parseHsBody E ct t s₁ = .ok (some h, s₂) ∧ s₂.pos = s₁.pos + len ∧ s₂.rest = [] := by
  unfold decodeContent at hd
  dsimp only at hd
  split at hd
  · next c s' hr =>
    cases hd
    obtain ⟨c, s₁, h1, hr⟩ := P.bind_ok hr
    obtain ⟨u, s₂, h2, hr⟩ := P.bind_ok hr
    cases hr
    unfold assertEof at h2
    split at h2
    case isFalse => cases h2
    next he =>
    cases h2
    simp only [parseContent] at h1
    obtain ⟨o, s₃, h3, h1⟩ := P.bind_ok h1
    cases o with
    | none => cases h1
    | some h' =>
      cases h1
      unfold parseHandshake at h3
      obtain ⟨t, s₄, h4, h3a⟩ := P.bind_ok h3
      obtain ⟨len, s₅, h5, h3b⟩ := P.bind_ok h3a
      obtain ⟨u, s₆, h6, h3c⟩ := P.bind_ok h3b
      obtain ⟨_, rfl⟩ := P.lift_ok h6
      obtain ⟨s₇, h7, hpos, rfl⟩ := limit_ok h3c
      obtain ⟨o4, w4, e4, _⟩ := canonical_readInt _ _ _ h4
      obtain ⟨o5, w5, e5, _⟩ := canonical_readInt _ _ _ h5
      obtain ⟨l4, rfl⟩ := toBytes_ok.mp w4
      obtain ⟨l5, rfl⟩ := toBytes_ok.mp w5
      refine ⟨t, len, _, s₇, l4, l5, ?_, h7, hpos, by simpa using he⟩
      have e4 : data = _ := e4
      rw [e4, e5]
  · split at hd <;> cases hd

/-- every value that `p` returns satisfies `Q` -/
def Returns {α} (p : P α) (Q : α → Prop) : Prop := ∀ s v s', p s = .ok (v, s') → Q v

theorem Returns.bind {α β} {p : P α} {f : α → P β} {Q : β → Prop}
    (h : ∀ a, Returns (f a) Q) : Returns (p >>= f) Q := by
  intro s v s' hr
  obtain ⟨a, s₁, _, hr⟩ := P.bind_ok hr
  exact h a _ _ _ hr

theorem Returns.pure {α} {a : α} {Q : α → Prop} (h : Q a) : Returns (Pure.pure a : P α) Q := by
  rintro s v s' ⟨⟩; exact h

theorem Returns.throw {α} {e : Exn} {Q : α → Prop} : Returns (P.throw e : P α) Q := by
  rintro s v s' ⟨⟩

theorem Returns.map {α β} {p : P α} {f : α → β} {Q : β → Prop} (h : Returns p fun a => Q (f a)) :
    Returns (f <$> p) Q := by
  intro s v s' hr
  change (p >>= fun a => Pure.pure (f a)) s = _ at hr
  obtain ⟨a, s₁, h1, hr⟩ := P.bind_ok hr
  cases hr
  exact h _ _ _ h1

macro "returns" : tactic => `(tactic| with_reducible first
  | exact Returns.throw
  | refine Returns.bind (fun _ => ?_)
  | exact Returns.pure rfl
  | split)

theorem returns_hsBody {E : Env} {ct : Option (Option Nat)} {t : Nat} :
    Returns (parseHsBody E ct t) fun o => ∀ h, o = some h → h.msgType = t := by
  unfold parseHsBody
  split
  · refine Returns.map ?_
    intro s v s' hp h hh
    cases hh
    obtain ⟨_, _, _, _, _, rfl, _⟩ := parseClientHello_layout hp
    rfl
  · refine Returns.map ?_
    intro s v s' hp h hh
    cases hh
    obtain ⟨_, _, _, _, _, rfl, _⟩ := parseServerHello_layout hp
    split <;> rfl
  all_goals
    first
    | (refine Returns.map ?_
       have : ∀ {p : P Handshake} {n : Nat}, Returns p (fun h => h.msgType = n) →
           Returns p fun a => ∀ h, some a = some h → h.msgType = n :=
         fun hp s v s' hr h hh => by cases hh; exact hp _ _ _ hr
       apply this
       first
       | unfold parseEncryptedExtensions
       | unfold parseCertificate
       | unfold parseCertificateRequest
       | unfold parseCertificateVerify
       | unfold parseFinished
       repeat' (first | returns | (dsimp only; returns)))
    | (refine Returns.pure ?_; intro h hh; cases hh)

theorem clientHello_layout {E : Env} {ct : Option (Option Nat)} {data r sid : Bytes}
    {suites : List Nat} {d : List Ext}
    (h : decodeContent E ct 22 data = .ok (.handshake (.clientHello r sid suites d))) :
    ∃ exts items, d = dictOfExts exts ∧ ExtsAre exts items ∧ r.length = 32 ∧ sid.length < 256 ∧
      suites ≠ [] ∧ (∀ i ∈ suites, i < 65536) ∧ 2 * suites.length < 65536 ∧
      (41 ∈ exts.map Ext.type → (exts.map Ext.type).getLast? = some 41 ∧
        45 ∈ exts.map Ext.type) ∧
      data = Spec.clientHello r sid suites items := by
  obtain ⟨t, len, s₁, s₂, ht, hl, hd, hp, hpos, hend⟩ := decodeHandshake_ok h
  cases returns_hsBody _ _ _ hp _ rfl
  change (parseClientHello E >>= fun a => Pure.pure (some a)) s₁ = _ at hp
  obtain ⟨a, s₃, h1, hp⟩ := P.bind_ok hp
  cases hp
  obtain ⟨_, _, _, exts, items, hh, hi, hr, hs, hn, h16, hl2, hpsk, tk⟩ :=
    parseClientHello_layout h1
  cases hh
  refine ⟨exts, items, rfl, hi, hr, hs, hn, h16, hl2, hpsk, ?_⟩
  have hlen := tk.2.1
  rw [hpos] at hlen
  rw [hd, tk.1, hend, List.append_nil]
  exact beEnc_three _ (by omega) 1 hl

theorem serverHello_layout {E : Env} {ct : Option (Option Nat)} {data : Bytes} {h : Handshake}
    (hd : decodeContent E ct 22 data = .ok (.handshake h)) (h2 : h.msgType = 2) :
    ∃ r sid suite exts items, h = (if r = hrrRandom then
        .helloRetryRequest r sid suite (dictOfExts exts)
        else .serverHello r sid suite (dictOfExts exts)) ∧
      ExtsAre exts items ∧ r.length = 32 ∧ sid.length < 256 ∧ suite < 65536 ∧
      data = Spec.serverHello r sid suite items := by
  obtain ⟨t, len, s₁, s₂, ht, hl, hd, hp, hpos, hend⟩ := decodeHandshake_ok hd
  cases h2.symm.trans (returns_hsBody _ _ _ hp _ rfl)
  change (parseServerHello E >>= fun a => Pure.pure (some a)) s₁ = _ at hp
  obtain ⟨a, s₃, h1, hp⟩ := P.bind_ok hp
  cases hp
  obtain ⟨r, sid, suite, exts, items, hh, hi, hr, hs, hn, tk⟩ := parseServerHello_layout h1
  refine ⟨r, sid, suite, exts, items, hh, hi, hr, hs, hn, ?_⟩
  have hlen := tk.2.1
  rw [hpos] at hlen
  rw [hd, tk.1, hend, List.append_nil]
  exact beEnc_three _ (by omega) 2 hl

/-- the max_fragment_length codes of accepted messages are those of RFC 6066 -/
theorem clientHello_mfl {E : Env} {ct : Option (Option Nat)} {data r sid : Bytes}
    {suites : List Nat} {d : List Ext} {code : Nat}
    (h : decodeContent E ct 22 data = .ok (.handshake (.clientHello r sid suites d)))
    (hm : .maxFragmentLength code ∈ d) : code ∈ Iana.mflCodes := by
  obtain ⟨exts, items, rfl, hi, _⟩ := clientHello_layout h
  exact hi.2.2 _ ((dictOfExts_spec exts).2.2 _ hm)

end Siotls
