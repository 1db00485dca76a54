import Verif.Proofs.NegClient
import Verif.Proofs.Refuse
/-!
# The invariants of the negotiation, in the words of the specification
-/

namespace Siotls
open Spec

variable {E : Env}

theorem heard_eq (tr : List Ev) : heard tr = lastRecv tr := by
  induction tr with
  | nil => rfl
  | cons e l ih => cases e <;> first | rfl | exact ih

theorem heard_mem {tr : List Ev} {x : Content} (h : heard tr = some x) : .recv x ∈ tr := by
  induction tr with
  | nil => cases h
  | cons e l ih =>
    cases e with
    | recv y => cases h; exact .head _
    | _ => exact .tail _ (ih h)

theorem offered_of {tr : List Ev} {r sid suites exts} (h : lastHello tr = some (r, sid, suites, exts)) :
    offered tr = some (.clientHello r sid suites exts) := by
  induction tr with
  | nil => cases h
  | cons e l ih =>
    cases e with
    | sent x =>
      cases x with
      | handshake m =>
        cases m with
        | clientHello r sid suites exts => cases h; rfl
        | _ => exact ih h
      | _ => exact ih h
    | _ => exact ih h

theorem offered_skip {post pre : List Ev} {r sid suites exts} (h : offered post = none) :
    offered (post ++ .sent (.handshake (.clientHello r sid suites exts)) :: pre) =
      some (.clientHello r sid suites exts) := by
  induction post with
  | nil => rfl
  | cons e l ih =>
    cases e with
    | sent x =>
      cases x with
      | handshake m =>
        cases m with
        | clientHello => cases h
        | _ => exact ih h
      | _ => exact ih h
    | _ => exact ih h

theorem preferred_find {α : Type} {mine : List α} {p : α → Bool} {ok : α → Prop} {x : α}
    (h : mine.find? p = some x) (hp : ∀ y, p y = true ↔ ok y) : Preferred mine ok x := by
  obtain ⟨h1, l₁, l₂, h2, h3⟩ := List.find?_eq_some_iff_append.mp h
  refine ⟨l₁, l₂, h2, (hp x).mp h1, fun y hy h => ?_⟩
  have := h3 y hy
  rw [(hp y).mpr h] at this
  cases this

theorem findExt_none {exts : List Ext} {t : Nat} (h : findExt exts t = none) {e : Ext}
    (he : e ∈ exts) : e.type ≠ t := by
  simpa using List.find?_eq_none.mp h e he

theorem fit_iff {o : PubOid} {fit : List Nat} (h : suitesForOid o = .ok fit) (s : Nat) :
    s ∈ fit ↔ Fit o s := by
  cases o <;> simp only [suitesForOid, Except.ok.injEq, reduceCtorEq] at h <;> subst h <;>
    constructor
  all_goals first
    | (intro hs
       simp only [List.mem_cons, List.not_mem_nil, or_false] at hs
       rcases hs with rfl | rfl | rfl | rfl | rfl | rfl <;> constructor)
    | (intro hs
       simp only [List.mem_cons, List.not_mem_nil, or_false] at hs
       rcases hs with rfl | rfl | rfl <;> constructor)
    | (intro hs
       simp only [List.mem_cons, List.not_mem_nil, or_false] at hs
       subst hs; constructor)
    | (intro hs; cases hs <;> simp)

theorem VersionOk.offers {exts : List Ext} (h : VersionOk exts) : OffersTls13 exts := by
  obtain ⟨l, h1, h2⟩ := h
  exact ⟨l, findExt_mem h1, h2⟩

theorem EncOk.dict {k : Config} {exts enc : List Ext} {nc : NConfig} (h : EncOk k exts nc enc) :
    dictOfExts enc = enc := by
  obtain ⟨e1, e2, e3, e4, e5, rfl, h1, h2, h3, h4, h5⟩ := h.parts
  have h5 := h5.shape
  apply dictOfExts_eq_of_nodup
  have h1 : e1 = [] ∨ ∃ t, e1 = [.clientCertTypeResp t] := by
    rcases h1 with ⟨_, h⟩ | ⟨_, _, _, _, _, h⟩ | ⟨_, _, t, _, _, _, h⟩
    · exact .inl h
    · exact .inl h
    · exact .inr ⟨t, h⟩
  have h2 : e2 = [] ∨ ∃ t, e2 = [.serverCertTypeResp t] := by
    rcases h2 with ⟨_, _, _, _, h⟩ | ⟨_, t, _, _, _, h⟩
    · exact .inl h
    · exact .inr ⟨t, h⟩
  have h3 : e3 = [] ∨ ∃ t, e3 = [.maxFragmentLength t] := by
    rcases h3 with ⟨_, _, h⟩ | ⟨t, _, _, h⟩
    · exact .inl h
    · exact .inr ⟨t, h⟩
  have h4 : e4 = [] ∨ ∃ t, e4 = [.alpn t] := by
    rcases h4 with ⟨_, _, h⟩ | ⟨_, t, _, _, _, h⟩
    · exact .inl h
    · exact .inr ⟨[t], h⟩
  rcases h1 with rfl | ⟨_, rfl⟩ <;> rcases h2 with rfl | ⟨_, rfl⟩ <;> rcases h3 with rfl | ⟨_, rfl⟩ <;>
    rcases h4 with rfl | ⟨_, rfl⟩ <;> rcases h5 with rfl | ⟨_, rfl⟩ <;> simp [Ext.type] <;> decide

theorem EncOk.alpn_cases {k : Config} {exts enc : List Ext} {nc : NConfig}
    (h : EncOk k exts nc enc) :
    ((findExt exts Iana.extAlpn = none ∨ k.alpn = []) ∧ ∀ q, Ext.alpn q ∉ enc) ∨
    ∃ l p, findExt exts Iana.extAlpn = some (.alpn l) ∧ k.alpn.find? l.contains = some p ∧
      ∀ q, Ext.alpn q ∈ enc ↔ q = [p] := by
  obtain ⟨e1, e2, e3, e4, e5, rfl, h1, h2, h3, h4, h5⟩ := h.parts
  have h5 := h5.shape
  have h1 : ∀ q, Ext.alpn q ∉ e1 := by
    rcases h1 with ⟨_, h⟩ | ⟨_, _, _, _, _, h⟩ | ⟨_, _, t, _, _, _, h⟩ <;> simp [h]
  have h2 : ∀ q, Ext.alpn q ∉ e2 := by
    rcases h2 with ⟨_, _, _, _, h⟩ | ⟨_, t, _, _, _, h⟩ <;> simp [h]
  have h3 : ∀ q, Ext.alpn q ∉ e3 := by
    rcases h3 with ⟨_, _, h⟩ | ⟨t, _, _, h⟩ <;> simp [h]
  have h5 : ∀ q, Ext.alpn q ∉ e5 := by
    rcases h5 with rfl | ⟨_, rfl⟩ <;> simp
  rcases h4 with ⟨h4, _, rfl⟩ | ⟨l, p, h4, h6, _, rfl⟩
  · exact .inl ⟨h4, fun q => by simp [h1, h2, h3, h5]⟩
  · exact .inr ⟨l, p, h4, h6, fun q => by simp [h1, h2, h3, h5]⟩

theorem EncOk.mfl_cases {k : Config} {exts enc : List Ext} {nc : NConfig}
    (h : EncOk k exts nc enc) :
    (findExt exts Iana.extMaxFragmentLength = none ∧ ∀ q, Ext.maxFragmentLength q ∉ enc) ∨
    ∃ code, findExt exts Iana.extMaxFragmentLength = some (.maxFragmentLength code) ∧
      ∀ q, Ext.maxFragmentLength q ∈ enc ↔ q = code := by
  obtain ⟨e1, e2, e3, e4, e5, rfl, h1, h2, h3, h4, h5⟩ := h.parts
  have h5 := h5.shape
  have h1 : ∀ q, Ext.maxFragmentLength q ∉ e1 := by
    rcases h1 with ⟨_, h⟩ | ⟨_, _, _, _, _, h⟩ | ⟨_, _, t, _, _, _, h⟩ <;> simp [h]
  have h2 : ∀ q, Ext.maxFragmentLength q ∉ e2 := by
    rcases h2 with ⟨_, _, _, _, h⟩ | ⟨_, t, _, _, _, h⟩ <;> simp [h]
  have h4 : ∀ q, Ext.maxFragmentLength q ∉ e4 := by
    rcases h4 with ⟨_, _, h⟩ | ⟨_, t, _, _, _, h⟩ <;> simp [h]
  have h5 : ∀ q, Ext.maxFragmentLength q ∉ e5 := by
    rcases h5 with rfl | ⟨_, rfl⟩ <;> simp
  rcases h3 with ⟨h3, _, rfl⟩ | ⟨code, h3, _, rfl⟩
  · exact .inl ⟨h3, fun q => by simp [h1, h2, h4, h5]⟩
  · exact .inr ⟨code, h3, fun q => by simp [h1, h2, h4, h5]⟩

/-- configuration.py:124-137: a server cannot ask for a length -/
theorem check_mfl {k : Config} (hs : k.side = .server) (h : k.check = .ok ()) :
    k.maxFragmentLength = 16384 := by
  unfold Config.check at h
  cases hm : k.checkMandatory with
  | error e => rw [hm] at h; cases h
  | ok u =>
    rw [hm, hs] at h
    have h : k.checkServer = .ok () := h
    unfold Config.checkServer at h
    by_cases hx : k.maxFragmentLength = 16384
    · exact hx
    · rw [if_pos hx] at h; cases h

theorem fragmentOf_eq {code n : Nat} (h : fragmentOf code = some n) : Iana.mflOctets code = n := by
  unfold fragmentOf at h
  split at h <;> first | (cases h; rfl) | cases h

theorem retryHellos_mem (mid : List Ev) (a b : Bytes) (s : Nat) (e : List Ext) (pre : List Ev) :
    heard pre ∈ retryHellos (mid ++ .sent (.handshake (.helloRetryRequest a b s e)) :: pre) := by
  induction mid with
  | nil => rw [heard_eq]; exact .head _
  | cons x l ih =>
    cases x with
    | sent y =>
      cases y with
      | handshake m =>
        cases m with
        | helloRetryRequest => exact .tail _ ih
        | _ => exact ih
      | _ => exact ih
    | _ => exact ih

theorem offer_alpn (c : Conn) (cookie : Option Bytes) (l : List (Nat × Bytes)) (q : List Bytes) :
    Ext.alpn q ∈ clientExtensions E c cookie ++ [Ext.keyShareReq l] ↔
      c.config.alpn ≠ [] ∧ q = c.config.alpn := by
  unfold clientExtensions
  have key : ∀ (a b : List Ext) (q' r s : Bool), (∀ x, Ext.alpn x ∉ a) → (∀ x, Ext.alpn x ∉ b) →
      (Ext.alpn q ∈ ([Ext.supportedVersionsReq [Iana.tls13],
        .signatureAlgorithms c.config.signatureAlgorithms,
        .supportedGroups c.config.keyExchanges,
        .heartbeat (if c.config.canEchoHeartbeat then Iana.peerAllowedToSend
                    else Iana.peerNotAllowedToSend)] ++ a ++
        (if c.config.alpn.isEmpty then [] else [Ext.alpn c.config.alpn]) ++
        (if q' then [Ext.clientCertTypeReq c.config.certificateTypes] else []) ++
        (if r then [] else [Ext.serverCertTypeReq c.config.peerCertificateTypes]) ++
        (if s then [Ext.ocspStatusReq [] []] else []) ++ b ++ [Ext.keyShareReq l]) ↔
      c.config.alpn ≠ [] ∧ q = c.config.alpn) := by
    intro a b q' r s ha hb
    by_cases h : c.config.alpn = [] <;> cases q' <;> cases r <;> cases s <;> simp [ha q, hb q, h]
  refine key _ _ _ _ _ ?_ ?_
  · intro x
    split
    · split <;> simp
    · simp
  · intro x
    split
    · split <;> simp
    · simp

theorem offer_plain (c : Conn) (cookie : Option Bytes) (l : List (Nat × Bytes)) (q : Nat) :
    Ext.maxFragmentLength q ∉ clientExtensions E c cookie ++ [Ext.keyShareReq l] := by
  unfold clientExtensions
  have key : ∀ (a b : List Ext) (p q' r s : Bool), Ext.maxFragmentLength q ∉ a →
      Ext.maxFragmentLength q ∉ b →
      (Ext.maxFragmentLength q ∉ ([Ext.supportedVersionsReq [Iana.tls13],
        .signatureAlgorithms c.config.signatureAlgorithms,
        .supportedGroups c.config.keyExchanges,
        .heartbeat (if c.config.canEchoHeartbeat then Iana.peerAllowedToSend
                    else Iana.peerNotAllowedToSend)] ++ a ++
        (if p then [] else [Ext.alpn c.config.alpn]) ++
        (if q' then [Ext.clientCertTypeReq c.config.certificateTypes] else []) ++
        (if r then [] else [Ext.serverCertTypeReq c.config.peerCertificateTypes]) ++
        (if s then [Ext.ocspStatusReq [] []] else []) ++ b ++ [Ext.keyShareReq l])) := by
    intro a b p q' r s ha hb
    cases p <;> cases q' <;> cases r <;> cases s <;> simp [ha, hb]
  refine key _ _ _ _ _ _ ?_ ?_
  · split
    · split <;> simp
    · simp
  · split
    · split <;> simp
    · simp

theorem OfferOk.alpn {g k : Config} {hostname suites exts grp cookie}
    (h : OfferOk E g hostname k suites exts grp cookie) (q : List Bytes) :
    Ext.alpn q ∈ exts ↔ g.alpn ≠ [] ∧ q = g.alpn := by
  obtain ⟨c₁, share, rfl, -, rfl⟩ := h.exts
  have : c₁.config.alpn = g.alpn := by
    rcases h.config with h | ⟨_, _, h, _⟩ <;> rw [h]
    rfl
  rw [offer_alpn, this]

theorem OfferOk.plain {g k : Config} {hostname suites exts grp cookie}
    (h : OfferOk E g hostname k suites exts grp cookie) (q : Nat) :
    Ext.maxFragmentLength q ∉ exts := by
  obtain ⟨c₁, share, rfl, -, rfl⟩ := h.exts
  exact offer_plain _ _ _ _

/-- the newest hello is one of the trace -/
theorem lastHello_split {tr : List Ev} {r sid suites exts}
    (h : lastHello tr = some (r, sid, suites, exts)) :
    ∃ pre, .sent (.handshake (.clientHello r sid suites exts)) :: pre <:+ tr := by
  induction tr with
  | nil => cases h
  | cons e l ih =>
    have up : (∃ pre, Ev.sent (.handshake (.clientHello r sid suites exts)) :: pre <:+ l) →
        ∃ pre, Ev.sent (.handshake (.clientHello r sid suites exts)) :: pre <:+ e :: l :=
      fun ⟨pre, hp⟩ => ⟨pre, hp.trans (List.suffix_cons _ _)⟩
    cases e with
    | sent x =>
      cases x with
      | handshake m =>
        cases m with
        | clientHello r' sid' suites' exts' =>
          cases h
          exact ⟨l, List.suffix_refl _⟩
        | _ => exact up (ih h)
      | _ => exact up (ih h)
    | _ => exact up (ih h)

/-! ## Nothing freezes the negotiated configuration -/

def Thawed (c : Conn) : Prop := ∀ nc, c.nconfig = some nc → nc.frozen = false

theorem Thawed.step {G : Conn → Prop} {c c' : Conn} (h : Thawed c) (hs : Step E G c c') :
    Thawed c' := by
  cases hs with
  | @nc n hn =>
    intro nc hx
    cases hx
    cases hn with
    | client => rfl
    | server => rfl
    | upd ho hu => rw [hu.frozen]; exact h _ ho
  | _ => exact h

theorem Thawed.api {G : Conn → Prop} {c c' : Conn} (h : Thawed c) (hs : Api E G c c') :
    Thawed c' := by
  cases hs with
  | step hs => exact h.step hs
  | closeRecv =>
    unfold closeReceivingEnd
    split <;> exact h
  | _ => exact h

theorem Thawed.run {config : Config} {hostname ocsp algs random} {c : Conn}
    (h : Conn.new config hostname ocsp algs random = .ok c) (ops : List Op) :
    Thawed (runOps E ops c) := by
  refine runOps_inv (I := Thawed) (fun c c' h hs => h.api hs) ?_ ops
  intro nc hx
  rw [(Conn.new_fresh h).2.1] at hx
  cases hx

/-! ## Refusals -/

theorem bind_error {α β} {m : M α} {f : α → M β} {c c' : Conn} {e : Exn} (h : m c = (.error e, c')) :
    (m >>= f) c = (.error e, c') := by
  rw [M.bind_def, h]

/-- no suite in common -/
theorem serverWaitCH_suites {f : Bool} {c : Conn} {r sid : Bytes} {suites : List Nat}
    {exts : List Ext} (h : ∀ s ∈ c.config.cipherSuites, s ∉ suites) :
    (serverWaitCH E f (.handshake (.clientHello r sid suites exts)) c).1 = .error (.alert 40) := by
  have hfind : findCommonSuite c.config.cipherSuites suites = .error (.alert 40) := by
    unfold findCommonSuite
    have : c.config.cipherSuites.find? suites.contains = none := by
      rw [List.find?_eq_none]
      intro s hs
      simpa using h s hs
    rw [this]
  have hc : ∃ c', serverCheckHello f r suites c = (.error (.alert 40), c') := by
    unfold serverCheckHello
    cases f with
    | true =>
      rw [if_pos rfl]
      unfold serverSetup
      rw [M.bind_def]
      simp only [M.modify]
      rw [M.bind_def]
      simp only [M.get]
      rw [M.bind_def]
      dsimp only [M.lift]
      rw [hfind]
      exact ⟨_, rfl⟩
    | false =>
      rw [if_neg (by simp)]
      unfold serverCheckSecond
      rw [M.bind_def]
      simp only [M.get]
      rw [M.bind_def]
      dsimp only [M.lift]
      rw [hfind]
      exact ⟨_, rfl⟩
  obtain ⟨c', hc⟩ := hc
  unfold serverWaitCH
  dsimp only
  rw [bind_error hc]

theorem raises_of {α} {m : M α} {c : Conn} (h : ∀ a c', m c ≠ (.ok a, c')) :
    ∃ e, (m c).1 = .error e := by
  rcases hm : m c with ⟨r, c'⟩
  cases r with
  | ok a => exact absurd hm (h a c')
  | error e => exact ⟨e, rfl⟩

/-- what a hello that is not refused offers -/
theorem serverWaitCH_ok {f : Bool} {c c' : Conn} {r sid : Bytes} {suites : List Nat}
    {exts : List Ext} {u : Unit}
    (h : serverWaitCH E f (.handshake (.clientHello r sid suites exts)) c = (.ok u, c')) :
    ∃ c₁ c₂ clear enc shared, serverCheckHello f r suites c = (.ok (), c₁) ∧
      serverNegotiate E exts c₁ = (.ok (clear, enc, shared), c₂) ∧ VersionOk exts := by
  unfold serverWaitCH at h
  obtain ⟨_, c₁, h1, h⟩ := bind_ok_iff.mp h
  obtain ⟨⟨clear, enc, shared⟩, c₂, h2, h⟩ := bind_ok_iff.mp h
  exact ⟨c₁, c₂, clear, enc, shared, h1, h2, (serverNegotiate_ok h2).version⟩

theorem serverCheckSecond_random {c : Conn} {r : Bytes} {suites : List Nat}
    (h : some r ≠ c.clientUnique) :
    ∃ c' d, serverCheckSecond r suites c = (.error (.alert d), c') ∧ (d = 40 ∨ d = 47) := by
  unfold serverCheckSecond
  rw [M.bind_def]
  simp only [M.get]
  rw [M.bind_def]
  dsimp only [M.lift]
  cases hf : findCommonSuite c.config.cipherSuites suites with
  | error e =>
    unfold findCommonSuite at hf
    split at hf
    · cases hf
    · cases hf; exact ⟨_, 40, rfl, .inl rfl⟩
  | ok s =>
    dsimp only
    rw [if_pos h]
    exact ⟨_, 47, rfl, .inr rfl⟩

/-- another random than the first hello's -/
theorem serverWaitCH_random {c : Conn} {r sid : Bytes} {suites : List Nat} {exts : List Ext}
    (h : some r ≠ c.clientUnique) :
    ∃ d, (serverWaitCH E false (.handshake (.clientHello r sid suites exts)) c).1 =
      .error (.alert d) ∧ (d = 40 ∨ d = 47) := by
  obtain ⟨c', d, h1, h2⟩ := serverCheckSecond_random (suites := suites) h
  refine ⟨d, ?_, h2⟩
  unfold serverWaitCH
  dsimp only
  rw [bind_error (c' := c') (e := .alert d) (show serverCheckHello false r suites c = _ from h1)]

/-! ## Refusals of a client -/

theorem clientWaitSH_suite {f : Bool} {ks : List (Nat × Bytes)} {h : Bytes} {c : Conn}
    {r sid : Bytes} {suite : Nat} {exts : List Ext} (hs : suite ∉ c.config.cipherSuites) :
    (clientWaitSH E f ks h (.handshake (.serverHello r sid suite exts)) c).1 = .error (.alert 47) ∧
    (clientWaitSH E f ks h (.handshake (.helloRetryRequest r sid suite exts)) c).1 =
      .error (.alert 47) := by
  have hc : clientSetup E f suite c = (.error (.alert 47), c) := by
    unfold clientSetup
    rw [M.bind_def]
    simp only [M.get]
    rw [if_pos (by simpa using hs)]
    rfl
  constructor
  · unfold clientWaitSH
    dsimp only
    rw [bind_error hc]
  · unfold clientWaitSH
    dsimp only
    rw [bind_error hc]

theorem clientNegVersion_ok {exts : List Ext} {c c' : Conn} {u : Unit}
    (h : clientNegVersion exts c = (.ok u, c')) :
    findExt exts Iana.extSupportedVersions = some (.supportedVersionsResp Iana.tls13) ∧ c' = c := by
  unfold clientNegVersion at h
  cases hf : findExt exts Iana.extSupportedVersions with
  | none => rw [hf] at h; cases h
  | some e =>
  rw [hf] at h
  cases e <;> try (cases h; done)
  rename_i v
  dsimp only at h
  by_cases hv : v = Iana.tls13
  · subst hv
    rw [if_neg (by simp)] at h
    cases h
    exact ⟨rfl, rfl⟩
  · rw [if_pos hv] at h; cases h

theorem clientNegKeyShare_ok {exts : List Ext} {ks : List (Nat × Bytes)} {c c' : Conn} {s : Bytes}
    (h : clientNegKeyShare E exts ks c = (.ok s, c')) :
    ∃ g share, findExt exts Iana.extKeyShare = some (.keyShareResp g share) ∧ ∃ x ∈ ks, x.1 = g := by
  unfold clientNegKeyShare at h
  cases hf : findExt exts Iana.extKeyShare with
  | none => rw [hf] at h; cases h
  | some e =>
  rw [hf] at h
  cases e <;> try (cases h; done)
  rename_i g share
  dsimp only at h
  cases hx : ks.find? (·.1 = g) with
  | none => rw [hx] at h; cases h
  | some x => exact ⟨g, share, rfl, x, List.mem_of_find?_eq_some hx, by simpa using List.find?_some hx⟩

theorem clientWaitSH_ok {f : Bool} {ks : List (Nat × Bytes)} {hh : Bytes} {c c' : Conn}
    {r sid : Bytes} {suite : Nat} {exts : List Ext} {u : Unit}
    (h : clientWaitSH E f ks hh (.handshake (.serverHello r sid suite exts)) c = (.ok u, c')) :
    findExt exts Iana.extSupportedVersions = some (.supportedVersionsResp Iana.tls13) ∧
    ∃ g share, findExt exts Iana.extKeyShare = some (.keyShareResp g share) ∧ ∃ x ∈ ks, x.1 = g := by
  unfold clientWaitSH at h
  obtain ⟨_, c₁, h1, h⟩ := bind_ok_iff.mp h
  unfold clientProcessServerHello at h
  obtain ⟨_, _, _, h⟩ := bind_ok_iff.mp h
  obtain ⟨_, _, h3, h⟩ := bind_ok_iff.mp h
  obtain ⟨_, _, h4, h⟩ := bind_ok_iff.mp h
  exact ⟨(clientNegVersion_ok h3).1, clientNegKeyShare_ok h4⟩

/-- the hello without its ALPN extension -/
def withoutAlpn (exts : List Ext) : List Ext := exts.filter (fun e => e.type ≠ 16)

theorem findExt_without {exts : List Ext} {t : Nat} (h : t ≠ 16) :
    findExt (withoutAlpn exts) t = findExt exts t := by
  unfold findExt withoutAlpn
  induction exts with
  | nil => rfl
  | cons e l ih =>
    by_cases he : e.type = 16
    · rw [List.filter_cons_of_neg (by simpa using he), ih, List.find?_cons_of_neg]
      simpa [he] using fun h' => h h'.symm
    · rw [List.filter_cons_of_pos (by simpa using he)]
      by_cases ht : e.type = t
      · rw [List.find?_cons_of_pos (by simpa using ht), List.find?_cons_of_pos (by simpa using ht)]
      · rw [List.find?_cons_of_neg (by simpa using ht), List.find?_cons_of_neg (by simpa using ht), ih]

theorem serverNegAlpn_none {exts : List Ext} {c : Conn} {l : List Bytes}
    (hf : findExt exts Iana.extAlpn = some (.alpn l)) (hne : c.config.alpn ≠ [])
    (h : ∀ p ∈ c.config.alpn, p ∉ l) : serverNegAlpn exts c = (.error (.alert 120), c) := by
  unfold serverNegAlpn
  rw [M.bind_def]
  simp only [M.get]
  rw [hf]
  dsimp only
  rw [if_neg (by simpa using hne)]
  have : c.config.alpn.find? l.contains = none := by
    rw [List.find?_eq_none]
    intro s hs
    simpa using h s hs
  rw [this]
  rfl

theorem bind_step {α β} {m : M α} {f : α → M β} {c c' : Conn} {a : α} (h : m c = (.ok a, c')) :
    (m >>= f) c = f a c' := by
  rw [M.bind_def, h]

theorem setNc_config {f : NConfig → NConfig} {c c' : Conn} {u : Unit}
    (h : setNc f c = (.ok u, c')) : c'.config = c.config := by
  obtain ⟨n, _, rfl⟩ := setNc_ok h
  rfl

/-- the negotiation fails for the sake of ALPN alone -/
theorem serverNegotiate_alpn {exts clear enc : List Ext} {shared : Bytes} {c c' : Conn} {l : List Bytes}
    (hf : findExt exts Iana.extAlpn = some (.alpn l)) (hne : c.config.alpn ≠ [])
    (h : ∀ p ∈ c.config.alpn, p ∉ l)
    (hok : serverNegotiate E (withoutAlpn exts) c = (.ok (clear, enc, some shared), c')) :
    (serverNegotiate E exts c).1 = .error (.alert 120) := by
  have v1 : serverNegVersions (withoutAlpn exts) = serverNegVersions exts := by
    unfold serverNegVersions; rw [findExt_without (by decide)]
  have v2 : serverNegGroups (withoutAlpn exts) = serverNegGroups exts := by
    unfold serverNegGroups; rw [findExt_without (by decide)]
  have v3 : serverNegSignature E (withoutAlpn exts) = serverNegSignature E exts := by
    unfold serverNegSignature; rw [findExt_without (by decide)]
  have v4 : serverNegKeyShare E (withoutAlpn exts) = serverNegKeyShare E exts := by
    unfold serverNegKeyShare clientShares; rw [findExt_without (by decide)]
  have v5 : serverNegCct (withoutAlpn exts) = serverNegCct exts := by
    unfold serverNegCct; rw [findExt_without (by decide)]
  have v6 : serverNegSct (withoutAlpn exts) = serverNegSct exts := by
    unfold serverNegSct; rw [findExt_without (by decide)]
  have v7 : serverNegMfl (withoutAlpn exts) = serverNegMfl exts := by
    unfold serverNegMfl; rw [findExt_without (by decide)]
  unfold serverNegotiate at hok ⊢
  rw [v1, v2, v3, v4, v5, v6, v7] at hok
  obtain ⟨v, c₁, h0, hok⟩ := bind_ok_iff.mp hok
  obtain ⟨_, rfl, rfl⟩ := serverNegVersions_ok h0
  rw [bind_step h0]
  obtain ⟨_, c₂, h1, hok⟩ := bind_ok_iff.mp hok
  rw [bind_step h1]
  obtain ⟨g, n, -, -, rfl⟩ := serverNegGroups_ok h1
  obtain ⟨_, c₃, h2, hok⟩ := bind_ok_iff.mp hok
  rw [bind_step h2]
  obtain ⟨s, -, rfl⟩ := serverNegSignature_ok h2
  obtain ⟨⟨ks, sh⟩, c₄, h3, hok⟩ := bind_ok_iff.mp hok
  rw [bind_step h3]
  obtain ⟨n', g', d, -, -, -, rfl⟩ := serverNegKeyShare_ok h3
  dsimp only at hok ⊢
  cases sh with
  | none => cases hok
  | some sh =>
    dsimp only at hok ⊢
    obtain ⟨e1, c1, k1, hok⟩ := bind_ok_iff.mp hok
    rw [bind_step k1]
    have hc1 : c1.config = c.config := by
      rcases serverNegCct_ok k1 with ⟨rfl, -⟩ | ⟨_, _, -, -, rfl⟩ <;> rfl
    obtain ⟨e2, c2, k2, hok⟩ := bind_ok_iff.mp hok
    rw [bind_step k2]
    have hc2 : c2.config = c.config := by
      obtain ⟨_, _, -, -, rfl⟩ := serverNegSct_ok k2; exact hc1
    obtain ⟨e3, c3, k3, hok⟩ := bind_ok_iff.mp hok
    rw [bind_step k3]
    have hc3 : c3.config = c.config := by
      obtain ⟨_, _, -, -, rfl⟩ := serverNegMfl_ok k3; exact hc2
    rw [bind_error (serverNegAlpn_none hf (by rw [hc3]; exact hne) (by rw [hc3]; exact h))]

/-- a client refuses protocols it did not offer -/
theorem clientWaitEE_alpn {c : Conn} {exts : List Ext} {l : List Bytes} {nc : NConfig}
    (hn : c.nconfig = some nc) (hfr : nc.frozen = false)
    (hm : ∀ e, findExt exts Iana.extMaxFragmentLength = some e → ∃ code, e = .maxFragmentLength code)
    (hf : findExt exts Iana.extAlpn = some (.alpn l)) (h : ∀ p ∈ c.config.alpn, l ≠ [p]) :
    (clientWaitEE (.handshake (.encryptedExtensions exts)) c).1 = .error (.alert 47) := by
  unfold clientWaitEE
  dsimp only
  have hmfl : clientNegMfl exts c = (.error (.alert 47), c) ∨
      ∃ c', clientNegMfl exts c = (.ok (), c') ∧ c'.config = c.config := by
    have hset : ∀ f, setNc f c = (.ok (), { c with nconfig := some (f nc) }) := by
      intro f; unfold setNc; rw [hn]; simp [hfr]
    unfold clientNegMfl
    rw [M.bind_def]
    simp only [M.get]
    cases hx : findExt exts Iana.extMaxFragmentLength with
    | none =>
      dsimp only
      rw [hset]
      exact .inr ⟨_, rfl, rfl⟩
    | some e =>
      obtain ⟨code, rfl⟩ := hm e hx
      dsimp only
      split
      · exact .inl rfl
      · rw [hset]
        exact .inr ⟨_, rfl, rfl⟩
  rcases hmfl with hm | ⟨c', hm, hc⟩
  · rw [bind_error hm]
  · rw [bind_step hm]
    have : clientNegAlpn exts c' = (.error (.alert 47), c') := by
      unfold clientNegAlpn
      rw [M.bind_def]
      simp only [M.get]
      rw [hf]
      rcases l with _ | ⟨p, _ | ⟨q, l⟩⟩
      · rfl
      · dsimp only
        have hp : p ∉ c'.config.alpn := fun hp => h p (hc ▸ hp) rfl
        rw [if_pos (by simpa using hp)]
        rfl
      · rfl
    rw [bind_error this]

end Siotls
