import Verif.Proofs.RunClient
/-!
# What a successful negotiation of the server means
-/

namespace Siotls

variable {E : Env}

/-- server/wait_client_hello.py:235-242 -/
def VersionOk (exts : List Ext) : Prop :=
  ∃ l, findExt exts Iana.extSupportedVersions = some (.supportedVersionsReq l) ∧ Iana.tls13 ∈ l

/-- server/wait_client_hello.py:244-252 -/
def GroupOk (k : Config) (exts : List Ext) (g : Nat) : Prop :=
  ∃ l, findExt exts Iana.extSupportedGroups = some (.supportedGroups l) ∧
    k.keyExchanges.find? l.contains = some g

/-- server/wait_client_hello.py:278-288 -/
def SchemeOk (E : Env) (k : Config) (exts : List Ext) (s : Nat) : Prop :=
  ∃ l leaf rest fit, findExt exts Iana.extSignatureAlgorithms = some (.signatureAlgorithms l) ∧
    k.certificateChain = some (leaf :: rest) ∧ suitesForOid (E.certOid leaf) = .ok fit ∧
    k.signatureAlgorithms.find? (fun s => fit.contains s && l.contains s) = some s

/-- server/wait_client_hello.py:290-307 -/
inductive KeyShareOk (E : Env) (exts : List Ext) (g : Nat) : Ext → Option Bytes → Prop
  | retry {l} : clientShares exts = .ok l → (∀ x ∈ l, x.1 ≠ g) →
      KeyShareOk E exts g (.keyShareRetry g) none
  | share {l theirs d priv mine shared} : findExt exts Iana.extKeyShare = some (.keyShareReq l) →
      l.find? (·.1 = g) = some (g, theirs) → kexRegistered g = true →
      E.kexInit g d = .ok (priv, mine) → E.kexResume g priv theirs = .ok shared →
      KeyShareOk E exts g (.keyShareResp g mine) (if shared.isEmpty then none else some shared)

/-- server/wait_client_hello.py:309-315 -/
def MflOk (k : Config) (exts : List Ext) (n : Option Nat) (e : List Ext) : Prop :=
  (findExt exts Iana.extMaxFragmentLength = none ∧ n = some k.maxFragmentLength ∧ e = []) ∨
  ∃ code, findExt exts Iana.extMaxFragmentLength = some (.maxFragmentLength code) ∧
    n = some (Iana.mflOctets code) ∧ e = [.maxFragmentLength code]

/-- server/wait_client_hello.py:317-326 -/
def AlpnOk (k : Config) (exts : List Ext) (n : Option (Option Bytes)) (e : List Ext) : Prop :=
  ((findExt exts Iana.extAlpn = none ∨ k.alpn = []) ∧ n = some none ∧ e = []) ∨
  ∃ l p, findExt exts Iana.extAlpn = some (.alpn l) ∧ k.alpn.find? l.contains = some p ∧
    n = some (some p) ∧ e = [.alpn [p]]

/-- server/wait_client_hello.py:267-276 -/
def SctOk (k : Config) (exts : List Ext) (n : Option Nat) (e : List Ext) : Prop :=
  (findExt exts Iana.extServerCertificateType = none ∧
    ∃ t, k.certificateTypes.find? [Iana.x509].contains = some t ∧ n = some t ∧ e = []) ∨
  ∃ l t, findExt exts Iana.extServerCertificateType = some (.serverCertTypeReq l) ∧
    k.certificateTypes.find? l.contains = some t ∧ n = some t ∧ e = [.serverCertTypeResp t]

/-- server/wait_client_hello.py:254-265 -/
def CctOk (k : Config) (exts : List Ext) (n : Option Nat) (e : List Ext) : Prop :=
  (k.requirePeerAuth = false ∧ e = []) ∨
  (k.requirePeerAuth = true ∧ findExt exts Iana.extClientCertificateType = none ∧
    ∃ t, k.peerCertificateTypes.find? [Iana.x509].contains = some t ∧ n = some t ∧ e = []) ∨
  (k.requirePeerAuth = true ∧
    ∃ l t, findExt exts Iana.extClientCertificateType = some (.clientCertTypeReq l) ∧
      k.peerCertificateTypes.find? l.contains = some t ∧ n = some t ∧ e = [.clientCertTypeResp t])

/-- server/wait_client_hello.py:329-344 -/
def HeartbeatOk (k : Config) (exts : List Ext) (send echo : Option Bool) (e : List Ext) : Prop :=
  (findExt exts Iana.extHeartbeat = none ∧ send = some false ∧ echo = some false ∧ e = []) ∨
  ∃ m, findExt exts Iana.extHeartbeat = some (.heartbeat m) ∧
    send = some (m == Iana.peerAllowedToSend) ∧ echo = some k.canEchoHeartbeat ∧
    e = [.heartbeat (if k.canEchoHeartbeat then Iana.peerAllowedToSend else Iana.peerNotAllowedToSend)]

theorem HeartbeatOk.shape {k : Config} {exts e : List Ext} {x y : Option Bool}
    (h : HeartbeatOk k exts x y e) : e = [] ∨ ∃ m, e = [.heartbeat m] := by
  rcases h with ⟨_, _, _, h⟩ | ⟨_, _, _, _, h⟩
  · exact .inl h
  · exact .inr ⟨_, h⟩

/-- the part of the answer that is encrypted -/
structure EncOk (k : Config) (exts : List Ext) (nc : NConfig) (enc : List Ext) : Prop where
  parts : ∃ e1 e2 e3 e4 e5, enc = e1 ++ (e2 ++ (e3 ++ (e4 ++ e5))) ∧
    CctOk k exts nc.clientCertificateType e1 ∧ SctOk k exts nc.serverCertificateType e2 ∧
    MflOk k exts nc.maxFragmentLength e3 ∧ AlpnOk k exts nc.alpn e4 ∧
    HeartbeatOk k exts nc.canSendHeartbeat nc.canEchoHeartbeat e5
  status : nc.peerWantOcspStapling = some (findExt exts Iana.extStatusRequest).isSome

/-- the outcome of the negotiation -/
structure NegOk (E : Env) (k : Config) (exts clear enc : List Ext) (shared : Option Bytes)
    (c : Conn) : Prop where
  version : VersionOk exts
  same : ∃ g nc s ks, GroupOk k exts g ∧ c.nconfig = some nc ∧ nc.keyExchange = some g ∧
    SchemeOk E k exts s ∧ c.signature = some (s, k.privateKey.getD []) ∧
    KeyShareOk E exts g ks shared ∧ clear = [.supportedVersionsResp Iana.tls13, ks] ∧
    (shared.isSome = true → EncOk k exts nc enc)

theorem serverNegVersions_ok {exts v : List Ext} {c c' : Conn}
    (h : serverNegVersions exts c = (.ok v, c')) :
    VersionOk exts ∧ v = [.supportedVersionsResp Iana.tls13] ∧ c = c' := by
  unfold serverNegVersions at h
  cases hf : findExt exts Iana.extSupportedVersions with
  | none => rw [hf] at h; cases h
  | some e =>
  rw [hf] at h
  cases e <;> try (cases h; done)
  rename_i l
  dsimp only at h
  by_cases hl : l.contains Iana.tls13 = false
  · rw [if_pos hl] at h; cases h
  · rw [if_neg hl] at h
    cases h
    exact ⟨⟨l, hf, by simpa using hl⟩, rfl, rfl⟩

theorem serverNegGroups_ok {exts : List Ext} {c c' : Conn} {u : Unit}
    (h : serverNegGroups exts c = (.ok u, c')) :
    ∃ g n, GroupOk c.config exts g ∧ c.nconfig = some n ∧
      c' = { c with nconfig := some { n with keyExchange := some g } } := by
  unfold serverNegGroups at h
  obtain ⟨_, _, h0, h⟩ := bind_ok_iff.mp h
  cases h0
  cases hf : findExt exts Iana.extSupportedGroups with
  | none => rw [hf] at h; cases h
  | some e =>
  rw [hf] at h
  cases e <;> try (cases h; done)
  rename_i l
  dsimp only at h
  cases hg : c.config.keyExchanges.find? l.contains with
  | none => rw [hg] at h; cases h
  | some g =>
    rw [hg] at h
    obtain ⟨n, hn, hc⟩ := setNc_ok h
    exact ⟨g, n, ⟨l, hf, hg⟩, hn, hc⟩

theorem serverNegSignature_ok {exts : List Ext} {c c' : Conn} {u : Unit}
    (h : serverNegSignature E exts c = (.ok u, c')) :
    ∃ s, SchemeOk E c.config exts s ∧
      c' = { c with signature := some (s, c.config.privateKey.getD []) } := by
  unfold serverNegSignature at h
  obtain ⟨_, _, h0, h⟩ := bind_ok_iff.mp h
  cases h0
  cases hf : findExt exts Iana.extSignatureAlgorithms with
  | none => rw [hf] at h; cases h
  | some e =>
  rw [hf] at h
  cases e <;> try (cases h; done)
  rename_i l
  dsimp only at h
  rcases hch : c.config.certificateChain with _ | _ | ⟨leaf, rest⟩
  · rw [hch] at h; cases h
  · rw [hch] at h; cases h
  · rw [hch] at h
    obtain ⟨fit, _, h1, h⟩ := bind_ok_iff.mp h
    obtain ⟨k1, rfl⟩ := lift_ok h1
    cases hs : c.config.signatureAlgorithms.find? (fun s => fit.contains s && l.contains s) with
    | none => rw [hs] at h; cases h
    | some s =>
      rw [hs] at h
      cases h
      exact ⟨s, ⟨l, leaf, rest, fit, hf, hch, k1, hs⟩, rfl⟩

theorem serverNegKeyShare_ok {exts : List Ext} {c c' : Conn} {ks : Ext} {shared : Option Bytes}
    (h : serverNegKeyShare E exts c = (.ok (ks, shared), c')) :
    ∃ n g d, c.nconfig = some n ∧ n.keyExchange = some g ∧ KeyShareOk E exts g ks shared ∧
      c' = { c with draws := d } := by
  unfold serverNegKeyShare at h
  obtain ⟨nc, _, h0, h⟩ := bind_ok_iff.mp h
  obtain ⟨hn, rfl⟩ := getNc_ok h0
  obtain ⟨l, _, h1, h⟩ := bind_ok_iff.mp h
  obtain ⟨k1, rfl⟩ := lift_ok h1
  cases hg : nc.keyExchange with
  | none => rw [hg] at h; cases h
  | some g =>
  rw [hg] at h
  dsimp only at h
  rcases hf : l.find? (·.1 = g) with _ | ⟨g', theirs⟩
  · rw [hf] at h
    cases h
    refine ⟨nc, g, _, hn, hg, .retry k1 ?_, rfl⟩
    intro x hx
    simpa using List.find?_eq_none.mp hf x hx
  · have hgg : g' = g := by simpa using List.find?_some hf
    subst hgg
    rw [hf] at h
    dsimp only at h
    by_cases hreg : kexRegistered g' = false
    · rw [if_pos hreg] at h; cases h
    rw [if_neg hreg] at h
    obtain ⟨d, _, h2, h⟩ := bind_ok_iff.mp h
    cases h2
    obtain ⟨⟨priv, mine⟩, _, h3, h⟩ := bind_ok_iff.mp h
    obtain ⟨k3, rfl⟩ := lift_ok h3
    obtain ⟨sh, _, h4, h⟩ := bind_ok_iff.mp h
    obtain ⟨k4, rfl⟩ := lift_ok h4
    cases h
    refine ⟨nc, g', _, hn, hg, .share ?_ hf (by simpa using hreg) (mapValueError_ok k3)
      (mapValueError_ok k4), rfl⟩
    unfold clientShares at k1
    split at k1
    · cases k1; simp at hf
    · rename_i l heq; cases k1; exact heq
    · cases k1

theorem serverNegCct_ok {exts e : List Ext} {c c' : Conn}
    (h : serverNegCct exts c = (.ok e, c')) :
    (c' = c ∧ CctOk c.config exts none e) ∨
    ∃ n t, c.nconfig = some n ∧ CctOk c.config exts (some t) e ∧
      c' = { c with nconfig := some { n with clientCertificateType := some t } } := by
  unfold serverNegCct at h
  obtain ⟨_, _, h0, h⟩ := bind_ok_iff.mp h
  cases h0
  by_cases hr : c.config.requirePeerAuth = false
  · rw [if_pos hr] at h
    cases h
    exact .inl ⟨rfl, .inl ⟨hr, rfl⟩⟩
  rw [if_neg hr] at h
  have hr := Bool.eq_true_of_not_eq_false hr
  dsimp only at h
  cases hf : findExt exts Iana.extClientCertificateType with
  | none =>
    rw [hf] at h
    dsimp only at h
    cases ht : c.config.peerCertificateTypes.find? [Iana.x509].contains with
    | none => rw [ht] at h; cases h
    | some t =>
      rw [ht] at h
      obtain ⟨_, _, h1, h⟩ := bind_ok_iff.mp h
      obtain ⟨n, hn, rfl⟩ := setNc_ok h1
      cases h
      exact .inr ⟨n, t, hn, .inr (.inl ⟨hr, hf, t, ht, rfl, rfl⟩), rfl⟩
  | some x =>
    rw [hf] at h
    cases x <;> try (cases h; done)
    rename_i l
    dsimp only at h
    cases ht : c.config.peerCertificateTypes.find? l.contains with
    | none => rw [ht] at h; cases h
    | some t =>
      rw [ht] at h
      obtain ⟨_, _, h1, h⟩ := bind_ok_iff.mp h
      obtain ⟨n, hn, rfl⟩ := setNc_ok h1
      cases h
      exact .inr ⟨n, t, hn, .inr (.inr ⟨hr, l, t, hf, ht, rfl, rfl⟩), rfl⟩

theorem serverNegSct_ok {exts e : List Ext} {c c' : Conn}
    (h : serverNegSct exts c = (.ok e, c')) :
    ∃ n t, c.nconfig = some n ∧ SctOk c.config exts (some t) e ∧
      c' = { c with nconfig := some { n with serverCertificateType := some t } } := by
  unfold serverNegSct at h
  obtain ⟨_, _, h0, h⟩ := bind_ok_iff.mp h
  cases h0
  dsimp only at h
  cases hf : findExt exts Iana.extServerCertificateType with
  | none =>
    rw [hf] at h
    dsimp only at h
    cases ht : c.config.certificateTypes.find? [Iana.x509].contains with
    | none => rw [ht] at h; cases h
    | some t =>
      rw [ht] at h
      obtain ⟨_, _, h1, h⟩ := bind_ok_iff.mp h
      obtain ⟨n, hn, rfl⟩ := setNc_ok h1
      cases h
      exact ⟨n, t, hn, .inl ⟨hf, t, ht, rfl, rfl⟩, rfl⟩
  | some x =>
    rw [hf] at h
    cases x <;> try (cases h; done)
    rename_i l
    dsimp only at h
    cases ht : c.config.certificateTypes.find? l.contains with
    | none => rw [ht] at h; cases h
    | some t =>
      rw [ht] at h
      obtain ⟨_, _, h1, h⟩ := bind_ok_iff.mp h
      obtain ⟨n, hn, rfl⟩ := setNc_ok h1
      cases h
      exact ⟨n, t, hn, .inr ⟨l, t, hf, ht, rfl, rfl⟩, rfl⟩

theorem serverNegMfl_ok {exts e : List Ext} {c c' : Conn}
    (h : serverNegMfl exts c = (.ok e, c')) :
    ∃ n x, c.nconfig = some n ∧ MflOk c.config exts x e ∧
      c' = { c with nconfig := some { n with maxFragmentLength := x } } := by
  unfold serverNegMfl at h
  obtain ⟨_, _, h0, h⟩ := bind_ok_iff.mp h
  cases h0
  cases hf : findExt exts Iana.extMaxFragmentLength with
  | none =>
    rw [hf] at h
    obtain ⟨_, _, h1, h⟩ := bind_ok_iff.mp h
    obtain ⟨n, hn, rfl⟩ := setNc_ok h1
    cases h
    exact ⟨n, _, hn, .inl ⟨hf, rfl, rfl⟩, rfl⟩
  | some x =>
    rw [hf] at h
    cases x <;> try (cases h; done)
    rename_i code
    obtain ⟨_, _, h1, h⟩ := bind_ok_iff.mp h
    obtain ⟨n, hn, rfl⟩ := setNc_ok h1
    cases h
    exact ⟨n, _, hn, .inr ⟨code, hf, rfl, rfl⟩, rfl⟩

theorem serverNegAlpn_ok {exts e : List Ext} {c c' : Conn}
    (h : serverNegAlpn exts c = (.ok e, c')) :
    ∃ n x, c.nconfig = some n ∧ AlpnOk c.config exts x e ∧
      c' = { c with nconfig := some { n with alpn := x } } := by
  unfold serverNegAlpn at h
  obtain ⟨_, _, h0, h⟩ := bind_ok_iff.mp h
  cases h0
  cases hf : findExt exts Iana.extAlpn with
  | none =>
    rw [hf] at h
    obtain ⟨_, _, h1, h⟩ := bind_ok_iff.mp h
    obtain ⟨n, hn, rfl⟩ := setNc_ok h1
    cases h
    exact ⟨n, _, hn, .inl ⟨.inl hf, rfl, rfl⟩, rfl⟩
  | some x =>
    rw [hf] at h
    cases x <;> try (cases h; done)
    rename_i l
    dsimp only at h
    by_cases he : c.config.alpn.isEmpty = true
    · rw [if_pos he] at h
      obtain ⟨_, _, h1, h⟩ := bind_ok_iff.mp h
      obtain ⟨n, hn, rfl⟩ := setNc_ok h1
      cases h
      exact ⟨n, _, hn, .inl ⟨.inr (by simpa using he), rfl, rfl⟩, rfl⟩
    · rw [if_neg he] at h
      cases hp : c.config.alpn.find? l.contains with
      | none => rw [hp] at h; cases h
      | some p =>
        rw [hp] at h
        obtain ⟨_, _, h1, h⟩ := bind_ok_iff.mp h
        obtain ⟨n, hn, rfl⟩ := setNc_ok h1
        cases h
        exact ⟨n, _, hn, .inr ⟨l, p, hf, hp, rfl, rfl⟩, rfl⟩

theorem serverNegHeartbeat_ok {exts e : List Ext} {c c' : Conn}
    (h : serverNegHeartbeat exts c = (.ok e, c')) :
    ∃ n x y, c.nconfig = some n ∧ HeartbeatOk c.config exts x y e ∧
      c' = { c with nconfig := some { n with canSendHeartbeat := x, canEchoHeartbeat := y } } := by
  unfold serverNegHeartbeat at h
  obtain ⟨_, _, h0, h⟩ := bind_ok_iff.mp h
  cases h0
  cases hf : findExt exts Iana.extHeartbeat with
  | none =>
    rw [hf] at h
    obtain ⟨_, _, h1, h⟩ := bind_ok_iff.mp h
    obtain ⟨n, hn, rfl⟩ := setNc_ok h1
    obtain ⟨_, _, h1, h⟩ := bind_ok_iff.mp h
    obtain ⟨n', hn', rfl⟩ := setNc_ok h1
    cases hn'
    cases h
    exact ⟨n, _, _, hn, .inl ⟨hf, rfl, rfl, rfl⟩, rfl⟩
  | some x =>
    rw [hf] at h
    cases x <;> try (cases h; done)
    obtain ⟨_, _, h1, h⟩ := bind_ok_iff.mp h
    obtain ⟨n, hn, rfl⟩ := setNc_ok h1
    obtain ⟨_, _, h1, h⟩ := bind_ok_iff.mp h
    obtain ⟨n', hn', rfl⟩ := setNc_ok h1
    cases hn'
    cases h
    exact ⟨n, _, _, hn, .inr ⟨_, hf, rfl, rfl, rfl⟩, rfl⟩

theorem serverNegStatus_ok {exts : List Ext} {c c' : Conn} {u : Unit}
    (h : serverNegStatus exts c = (.ok u, c')) :
    ∃ n, c.nconfig = some n ∧ c' = { c with nconfig := some { n with
      peerWantOcspStapling := some (findExt exts Iana.extStatusRequest).isSome } } := by
  unfold serverNegStatus at h
  cases hf : findExt exts Iana.extStatusRequest with
  | none => rw [hf] at h; obtain ⟨n, hn, rfl⟩ := setNc_ok h; exact ⟨n, hn, rfl⟩
  | some _ => rw [hf] at h; obtain ⟨n, hn, rfl⟩ := setNc_ok h; exact ⟨n, hn, rfl⟩

theorem CctOk.any {k : Config} {exts e : List Ext} {n n' : Option Nat}
    (h : CctOk k exts none e) : CctOk k exts n' e := by
  rcases h with h | ⟨_, _, t, _, h, _⟩ | ⟨_, _, t, _, _, h, _⟩
  · exact .inl h
  · cases h
  · cases h

theorem serverNegotiate_ok {exts clear enc : List Ext} {shared : Option Bytes} {c c' : Conn}
    (h : serverNegotiate E exts c = (.ok (clear, enc, shared), c')) :
    NegOk E c.config exts clear enc shared c' := by
  unfold serverNegotiate at h
  obtain ⟨v, _, h0, h⟩ := bind_ok_iff.mp h
  obtain ⟨hv, rfl, rfl⟩ := serverNegVersions_ok h0
  obtain ⟨_, _, h1, h⟩ := bind_ok_iff.mp h
  obtain ⟨g, n, hg, hn, rfl⟩ := serverNegGroups_ok h1
  obtain ⟨_, _, h2, h⟩ := bind_ok_iff.mp h
  obtain ⟨s, hs, rfl⟩ := serverNegSignature_ok h2
  obtain ⟨⟨ks, sh⟩, _, h3, h⟩ := bind_ok_iff.mp h
  obtain ⟨n', g', d, hn', hg', hks, rfl⟩ := serverNegKeyShare_ok h3
  cases hn'
  cases hg'
  dsimp only at h
  cases sh with
  | none =>
    cases h
    exact ⟨hv, g, _, s, ks, hg, rfl, rfl, hs, rfl, hks, rfl, by simp⟩
  | some sh =>
    obtain ⟨e1, c1, k1, h⟩ := bind_ok_iff.mp h
    obtain ⟨e2, c2, k2, h⟩ := bind_ok_iff.mp h
    obtain ⟨e3, c3, k3, h⟩ := bind_ok_iff.mp h
    obtain ⟨e4, c4, k4, h⟩ := bind_ok_iff.mp h
    obtain ⟨e5, c5, k5, h⟩ := bind_ok_iff.mp h
    obtain ⟨_, c6, k6, h⟩ := bind_ok_iff.mp h
    cases h
    have h1 := serverNegCct_ok k1
    obtain ⟨n1, t1, hn1, ha1, hc1⟩ : ∃ (n1 : NConfig) (t1 : Option Nat), n1.keyExchange = some g ∧
        CctOk c.config exts t1 e1 ∧ c1 = { c with
          nconfig := some { n1 with clientCertificateType := t1 },
          signature := some (s, c.config.privateKey.getD []), draws := d } := by
      rcases h1 with ⟨rfl, h1⟩ | ⟨n1, t, hn1, h1, rfl⟩
      · exact ⟨{ n with keyExchange := some g }, n.clientCertificateType, rfl, h1.any (n := none), rfl⟩
      · cases hn1
        exact ⟨{ n with keyExchange := some g }, some t, rfl, h1, rfl⟩
    subst hc1
    obtain ⟨n2, t2, hn2, ha2, rfl⟩ := serverNegSct_ok k2
    cases hn2
    obtain ⟨n3, t3, hn3, ha3, rfl⟩ := serverNegMfl_ok k3
    cases hn3
    obtain ⟨n4, t4, hn4, ha4, rfl⟩ := serverNegAlpn_ok k4
    cases hn4
    obtain ⟨n5, t5, t5', hn5, ha5, rfl⟩ := serverNegHeartbeat_ok k5
    cases hn5
    obtain ⟨n6, hn6, rfl⟩ := serverNegStatus_ok k6
    cases hn6
    exact ⟨hv, g, _, s, ks, hg, rfl, hn1, hs, rfl, hks, rfl, fun _ =>
      ⟨⟨e1, e2, e3, e4, e5, rfl, ha1, ha2, ha3, ha4, ha5⟩, rfl⟩⟩

end Siotls
