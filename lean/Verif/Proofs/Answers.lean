import Verif.Spec.Answers
import Verif.Proofs.Guarded
import Verif.Proofs.NegSpec
/-!
# The extensions of the model meet their specification
-/

namespace Siotls
open Spec

variable {E : Env}

theorem ownKinds_eq (config : Config) : ownKinds config = config.certificateTypes := by
  unfold ownKinds Config.certificateTypes Config.hasChain
  rcases config.certificateChain with _ | _ | ⟨_, _⟩ <;> cases config.publicKey <;> rfl

theorem peerKinds_eq (config : Config) : peerKinds config = config.peerCertificateTypes := by
  unfold peerKinds Config.peerCertificateTypes
  cases config.trustStore <;> cases config.trustedPublicKeys <;> rfl

theorem authenticates_iff (config : Config) :
    Authenticates config ↔ config.requirePeerAuth = true := by
  unfold Authenticates Config.requirePeerAuth
  cases config.trustStore <;> cases config.trustedPublicKeys <;> simp

theorem asks_iff {config : Config} {hostname : Option PyStr} {c : Conn} {s g : List Nat}
    (hc : c.config = { config with cipherSuites := s, keyExchanges := g })
    (hh : c.hostname = hostname) (cookie : Option Bytes) (e : Ext) :
    e ∈ clientExtensions E c cookie ↔ Asks E config hostname g (cookie.getD []) e := by
  have e1 : c.config.certificateTypes = ownKinds config := by rw [hc, ownKinds_eq]; rfl
  have e2 : c.config.peerCertificateTypes = peerKinds config := by rw [hc, peerKinds_eq]; rfl
  unfold clientExtensions
  rw [e1, e2, hc, hh]
  simp only [List.mem_append]
  constructor
  · rintro ((((((h | h) | h) | h) | h) | h) | h)
    · simp only [List.mem_cons, List.not_mem_nil, or_false] at h
      rcases h with rfl | rfl | rfl | rfl
      · exact .versions
      · exact .schemes
      · exact .groups
      · exact .heartbeat
    · split at h
      · split at h
        · cases h
        · rename_i h1 h2
          rw [List.mem_singleton.mp h]
          simp only [Bool.or_eq_true, not_or, Bool.not_eq_true] at h2
          exact .name rfl (by simpa using h2.1) h2.2
      · cases h
    · split at h
      · cases h
      · rename_i h1
        rw [List.mem_singleton.mp h]
        exact .alpn (by simpa using h1)
    · split at h
      · rename_i h1
        rw [List.mem_singleton.mp h]
        obtain ⟨k, hk⟩ := Option.isSome_iff_exists.mp h1
        exact .ownKind hk
      · cases h
    · split at h
      · cases h
      · rename_i h1
        rw [List.mem_singleton.mp h]
        exact .peerKind (by simpa using h1)
    · split at h
      · rename_i h1
        rw [List.mem_singleton.mp h]
        obtain ⟨k, hk⟩ := Option.isSome_iff_exists.mp h1
        exact .status hk
      · cases h
    · split at h
      · split at h
        · cases h
        · rename_i h1
          rw [List.mem_singleton.mp h]
          exact .cookie (by simpa using h1)
      · cases h
  · intro h
    cases h with
    | versions => simp [Iana.tls13]
    | schemes => simp
    | groups => simp
    | heartbeat => simp [heartbeatMode, Iana.peerAllowedToSend, Iana.peerNotAllowedToSend]
    | name h1 h2 h3 =>
      refine .inl (.inl (.inl (.inl (.inl (.inr ?_)))))
      rw [h1]
      simp [h2, h3]
    | alpn h1 =>
      refine .inl (.inl (.inl (.inl (.inr ?_))))
      simp [h1]
    | ownKind h1 =>
      refine .inl (.inl (.inl (.inr ?_)))
      simp [h1]
    | peerKind h1 =>
      refine .inl (.inl (.inr ?_))
      simp [h1]
    | status h1 =>
      refine .inl (.inr ?_)
      simp [h1]
    | cookie h1 =>
      refine .inr ?_
      cases cookie with
      | none => simp at h1
      | some k => simp only [Option.getD_some] at h1 ⊢; simp [h1]

theorem cookieOf_spec {exts : List Ext} {cookie : Option Bytes} (h : cookieOf exts = .ok cookie) :
    CookieOf exts (cookie.getD []) := by
  unfold cookieOf at h
  split at h
  · rename_i hf
    cases h
    exact .inr ⟨rfl, fun k hk => findExt_none hf hk rfl⟩
  · rename_i hf
    cases h
    exact .inl (findExt_mem hf)
  · cases h

theorem EncOk.answers {config : Config} {hello enc : List Ext} {nc : NConfig}
    (h : EncOk config hello nc enc) : (∀ e ∈ enc, Answers config hello e) ∧
      ∀ t, t ∈ enc.map Ext.type ↔ t ∈ hello.map Ext.type ∧ Answerable config t := by
  obtain ⟨e1, e2, e3, e4, e5, rfl, h1, h2, h3, h4, h5⟩ := h.parts
  have none_iff : ∀ {t}, findExt hello t = none → t ∉ hello.map Ext.type := by
    intro t hf hm
    obtain ⟨x, hx, hy⟩ := List.mem_map.mp hm
    exact findExt_none hf hx hy
  have some_iff : ∀ {t x}, findExt hello t = some x → x.type = t → t ∈ hello.map Ext.type :=
    fun hf hx => List.mem_map.mpr ⟨_, findExt_mem hf, hx⟩
  have k1 : (∀ e ∈ e1, Answers config hello e) ∧ ∀ t, t ∈ e1.map Ext.type ↔
      t = 19 ∧ t ∈ hello.map Ext.type ∧ Authenticates config := by
    rcases h1 with ⟨hr, rfl⟩ | ⟨hr, hf, t, ht, hn, rfl⟩ | ⟨hr, l, t, hf, ht, hn, rfl⟩
    · simp [authenticates_iff, hr]
    · refine ⟨by simp, fun t => ⟨by simp, ?_⟩⟩
      rintro ⟨rfl, hm, -⟩
      exact absurd hm (none_iff hf)
    · refine ⟨?_, fun t' => ⟨?_, ?_⟩⟩
      · intro e he
        rw [List.mem_singleton.mp he]
        refine .clientKind ((authenticates_iff _).mpr hr) (findExt_mem hf) ?_
        rw [peerKinds_eq]
        exact preferred_find ht fun y => by simp
      · intro he
        rw [List.mem_singleton.mp he]
        exact ⟨rfl, some_iff hf rfl, (authenticates_iff _).mpr hr⟩
      · rintro ⟨rfl, -⟩
        exact .head _
  have k2 : (∀ e ∈ e2, Answers config hello e) ∧ ∀ t, t ∈ e2.map Ext.type ↔
      t = 20 ∧ t ∈ hello.map Ext.type := by
    rcases h2 with ⟨hf, t, ht, hn, rfl⟩ | ⟨l, t, hf, ht, hn, rfl⟩
    · refine ⟨by simp, fun t => ⟨by simp, ?_⟩⟩
      rintro ⟨rfl, hm⟩
      exact absurd hm (none_iff hf)
    · refine ⟨?_, fun t' => ⟨?_, ?_⟩⟩
      · intro e he
        rw [List.mem_singleton.mp he]
        refine .serverKind (findExt_mem hf) ?_
        rw [ownKinds_eq]
        exact preferred_find ht fun y => by simp
      · intro he
        rw [List.mem_singleton.mp he]
        exact ⟨rfl, some_iff hf rfl⟩
      · rintro ⟨rfl, -⟩
        exact .head _
  have k3 : (∀ e ∈ e3, Answers config hello e) ∧ ∀ t, t ∈ e3.map Ext.type ↔
      t = 1 ∧ t ∈ hello.map Ext.type := by
    rcases h3 with ⟨hf, hn, rfl⟩ | ⟨code, hf, hn, rfl⟩
    · refine ⟨by simp, fun t => ⟨by simp, ?_⟩⟩
      rintro ⟨rfl, hm⟩
      exact absurd hm (none_iff hf)
    · refine ⟨?_, fun t' => ⟨?_, ?_⟩⟩
      · intro e he
        rw [List.mem_singleton.mp he]
        exact .fragment (findExt_mem hf)
      · intro he
        rw [List.mem_singleton.mp he]
        exact ⟨rfl, some_iff hf rfl⟩
      · rintro ⟨rfl, -⟩
        exact .head _
  have k4 : (∀ e ∈ e4, Answers config hello e) ∧ ∀ t, t ∈ e4.map Ext.type ↔
      t = 16 ∧ t ∈ hello.map Ext.type ∧ config.alpn ≠ [] := by
    rcases h4 with ⟨hf, hn, rfl⟩ | ⟨l, p, hf, hp, hn, rfl⟩
    · refine ⟨by simp, fun t => ⟨by simp, ?_⟩⟩
      rintro ⟨rfl, hm, hne⟩
      rcases hf with hf | hf
      · exact absurd hm (none_iff hf)
      · exact absurd hf hne
    · refine ⟨?_, fun t' => ⟨?_, ?_⟩⟩
      · intro e he
        rw [List.mem_singleton.mp he]
        exact .alpn (findExt_mem hf) (preferred_find hp fun y => by simp)
      · intro he
        rw [List.mem_singleton.mp he]
        refine ⟨rfl, some_iff hf rfl, fun hx => ?_⟩
        rw [hx] at hp
        cases hp
      · rintro ⟨rfl, -⟩
        exact .head _
  have k5 : (∀ e ∈ e5, Answers config hello e) ∧ ∀ t, t ∈ e5.map Ext.type ↔
      t = 15 ∧ t ∈ hello.map Ext.type := by
    rcases h5 with ⟨hf, _, _, rfl⟩ | ⟨m, hf, _, _, rfl⟩
    · refine ⟨by simp, fun t => ⟨by simp, ?_⟩⟩
      rintro ⟨rfl, hm⟩
      exact absurd hm (none_iff hf)
    · refine ⟨?_, fun t' => ⟨?_, ?_⟩⟩
      · intro e he
        rw [List.mem_singleton.mp he]
        exact .heartbeat (findExt_mem hf)
      · intro he
        rw [List.mem_singleton.mp he]
        exact ⟨rfl, some_iff hf rfl⟩
      · rintro ⟨rfl, -⟩
        exact .head _
  constructor
  · intro e he
    simp only [List.mem_append] at he
    rcases he with he | he | he | he | he
    · exact k1.1 e he
    · exact k2.1 e he
    · exact k3.1 e he
    · exact k4.1 e he
    · exact k5.1 e he
  · intro t
    simp only [List.map_append, List.mem_append, k1.2, k2.2, k3.2, k4.2, k5.2, Answerable]
    constructor
    · rintro (⟨a, b, c⟩ | ⟨a, b⟩ | ⟨a, b⟩ | ⟨a, b, c⟩ | ⟨a, b⟩)
      · exact ⟨b, .inr (.inr (.inr (.inl ⟨a, c⟩)))⟩
      · exact ⟨b, .inr (.inr (.inr (.inr a)))⟩
      · exact ⟨b, .inl a⟩
      · exact ⟨b, .inr (.inr (.inl ⟨a, c⟩))⟩
      · exact ⟨b, .inr (.inl a)⟩
    · rintro ⟨b, a | a | ⟨a, c⟩ | ⟨a, c⟩ | a⟩
      · exact .inr (.inr (.inl ⟨a, b⟩))
      · exact .inr (.inr (.inr (.inr ⟨a, b⟩)))
      · exact .inr (.inr (.inr (.inl ⟨a, b, c⟩)))
      · exact .inl ⟨a, b, c⟩
      · exact .inr (.inl ⟨a, b⟩)

theorem EncOk.heartbeats {config : Config} {hello enc : List Ext} {nc : NConfig}
    (h : EncOk config hello nc enc) : Heartbeats config hello nc := by
  obtain ⟨e1, e2, e3, e4, e5, -, -, -, -, -, h5⟩ := h.parts
  rcases h5 with ⟨hf, h1, h2, -⟩ | ⟨m, hf, h1, h2, -⟩
  · exact .inr ⟨fun m hm => findExt_none hf hm rfl, h1, h2⟩
  · exact .inl ⟨m, findExt_mem hf, h1, h2⟩

theorem ExtsOk.heartbeats {config : Config} {exts : List Ext} {nc : NConfig}
    (h : ExtsOk config exts nc) : Heartbeats config exts nc := by
  rcases h.heartbeat with ⟨hf, h1, h2⟩ | ⟨m, hf, h1, h2⟩
  · exact .inr ⟨fun m hm => findExt_none hf hm rfl, h1, h2⟩
  · exact .inl ⟨m, findExt_mem hf, h1, h2⟩

theorem kinds_mem {config : Config} {t : Nat} (h : t ∈ ownKinds config) :
    (t = 0 ∧ ∃ leaf rest, config.certificateChain = some (leaf :: rest)) ∨
    (t = 2 ∧ ∃ k, config.publicKey = some k) := by
  unfold ownKinds at h
  rcases List.mem_append.mp h with h | h
  · split at h
    · exact .inl ⟨List.mem_singleton.mp h, _, _, ‹_›⟩
    · cases h
  · split at h
    · exact .inr ⟨List.mem_singleton.mp h, _, ‹_›⟩
    · cases h

theorem SctOk.presents {config : Config} {hello e : List Ext} {n : Option Nat}
    (h : SctOk config hello n e) : ∃ t, n = some t ∧ Presents config hello t ∧
      t ∈ ownKinds config := by
  rcases h with ⟨hf, t, ht, hn, -⟩ | ⟨l, t, hf, ht, hn, -⟩
  · have h0 : t = 0 := by simpa [Iana.x509] using List.find?_some ht
    have hm := List.mem_of_find?_eq_some ht
    rw [← ownKinds_eq] at hm
    subst h0
    exact ⟨0, hn, .inr ⟨fun l hl => findExt_none hf hl rfl, rfl, hm⟩, hm⟩
  · have hm := List.mem_of_find?_eq_some ht
    rw [← ownKinds_eq] at hm ht
    exact ⟨t, hn, .inl ⟨l, findExt_mem hf, preferred_find ht fun y => by simp⟩, hm⟩

theorem EntriesOk.certifies {config : Config} {hello enc : List Ext} {nc : NConfig} {c : Conn}
    {entries : List CertEntry} (h : EncOk config hello nc enc)
    (hc : c.config.certificateChain = config.certificateChain)
    (hp : c.config.publicKey = config.publicKey) (he : EntriesOk E c nc entries) :
    ∃ t, Presents config hello t ∧ Certifies E config c.hasOcsp hello t entries := by
  obtain ⟨e1, e2, e3, e4, e5, -, -, h2, -⟩ := h.parts
  obtain ⟨t, hn, hpr, hk⟩ := h2.presents
  have hstat := h.status
  refine ⟨t, hpr, ?_⟩
  cases he with
  | raw h1 h3 =>
    rw [hn] at h1
    cases h1
    exact .rawKey (hp ▸ h3)
  | @plain chain h1 h3 h4 =>
    rw [hn] at h1
    rw [hc] at h3
    rcases kinds_mem hk with ⟨rfl, leaf, rest, h5⟩ | ⟨rfl, _⟩
    · rw [h3] at h5
      cases h5
      refine .chain h3 ?_
      cases rest with
      | nil => exact .alone
      | cons issuer rest =>
        by_cases ho : c.hasOcsp = true
        · cases hf : findExt hello Iana.extStatusRequest with
          | none => exact .unasked fun e he => findExt_none hf he
          | some x =>
            rw [hf] at hstat
            obtain ⟨url, res, d, d', k1, k2, k3⟩ := h4 leaf issuer rest rfl hstat ho
            exact .invalid ⟨url, d, d', k1, k2, k3⟩
        · exact .off (Bool.eq_false_of_not_eq_true ho)
    · exact absurd rfl h1
  | @stapled leaf issuer rest url res d d' h1 h3 h4 h5 h6 h7 h8 =>
    rw [hn] at h1
    rw [hc] at h3
    rcases kinds_mem hk with ⟨rfl, _⟩ | ⟨rfl, _⟩
    · refine .chain (leaf := leaf) (rest := issuer :: rest) h3 ?_
      cases hf : findExt hello Iana.extStatusRequest with
      | none => rw [hf, h4] at hstat; cases hstat
      | some x =>
        have : x.type = 5 := by simpa [findExt, Iana.extStatusRequest] using List.find?_some hf
        exact .valid (findExt_mem hf) this h5 ⟨url, d, d', h6, h7, h8⟩
    · exact absurd rfl h1

end Siotls
