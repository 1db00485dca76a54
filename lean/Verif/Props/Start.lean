import Verif.Proofs.Start
import Verif.Proofs.KeyLog
import Verif.Props.EndToEnd
/-!
# Clients that can start, and the default configuration: C77
-/

namespace Siotls

open Spec

variable {E : Env}

theorem wire_ne_nil {fs : List Bytes} (h : 4 ≤ fs.flatten.length) :
    wireOf (fs.map fun f => (22, f)) ≠ [] := by
  cases fs with
  | nil => simp at h
  | cons f fs =>
    intro h'
    have := congrArg List.length h'
    simp [wireOf, recordBytes] at this

/-- C77. `initiate_connection` of a new client succeeds for every presentable configuration: the client
has sent a ClientHello with its random, and there are bytes for the peer. -/
theorem C77_start {config : Config} {hostname : Option PyStr} {ocsp : Bool} {algs : List HashAlg}
    {random : Bytes} {c : Conn} (P : Presentable E config hostname)
    (h : Conn.new config hostname ocsp algs random = .ok c) (hr : random.length = 32) :
    ∃ c' sid suites exts, Op.initiate.run E c = (.ok [], c') ∧ c'.outputData ≠ [] ∧
      .sent (.handshake (.clientHello random sid suites exts)) ∈ c'.tr := by
  obtain ⟨c', g, priv, hash, fs, hello, h1, h2, h3, rfl, h4⟩ := client_starts P h hr
  have hi := CliInv.run (E := E) h P.client [.initiate]
  rw [runOps, h1, runOps] at hi
  obtain ⟨r, hu, -, sid, suites, exts, hm⟩ := hi.hello hr _ _ _ h2
  rw [hi.random] at hu
  cases hu
  exact ⟨c', sid, suites, exts, h1, by rw [h3]; exact wire_ne_nil h4, hm⟩

/-- C77. So compatible configurations make a handshake without further assumption: the client starts,
and whatever the network does to the bytes in each flight both get connected (see `C56_partial`). -/
theorem C77_handshake {kex : Nat → Nat → Except Exn (Bytes × Bytes)}
    {sign : Nat → Bytes → Bytes → Nat → Except Exn Bytes} {gc gs : Config} {host : Option PyStr} {k : Choice}
    {ocspC ocspS : Bool} {algsC algsS dsC dsS : List HashAlg} {randomC randomS : Bytes} {c₀ s₀ : Conn}
    (P : Presentable E gc host) (K : Compatible E gc gs host k)
    (L : Library E kex sign (gs.privateKey.getD []) k)
    (V : Vouched E ocspC ocspS gc (k.leaf :: k.rest))
    (hdc : suiteDigests gc.cipherSuites = .ok dsC) (hac : IsSetOrder algsC dsC)
    (hds : suiteDigests gs.cipherSuites = .ok dsS) (has : IsSetOrder algsS dsS)
    (hrc : randomC.length = 32) (hrs : randomS.length = 32) (hrr : randomS ≠ hrrRandom)
    (hc₀ : Conn.new gc host ocspC algsC randomC = .ok c₀)
    (hs₀ : Conn.new gs none ocspS algsS randomS = .ok s₀) :
    ∃ c₁ s₁, Op.initiate.run E c₀ = (.ok [], c₁) ∧
      Op.initiate.run (E.elsewhere kex sign) s₀ = (.ok [], s₁) ∧
      Completes E (E.elsewhere kex sign) c₁ s₁ gc gs k := by
  obtain ⟨c₁, _, _, _, h1, hne, -⟩ := C77_start P hc₀ hrc
  obtain ⟨s₁, h2, -, h3⟩ := C56_partial K L V hdc hac hds has hrc hrs hrr hc₀ hs₀ h1
  exact ⟨c₁, s₁, h1, h2, hne, h3⟩

/-- the default signature scheme for a kind of key -/
theorem default_scheme {o : PubOid} (ho : o ≠ .other) : ∃ before after,
    ({ side := .server } : Config).signatureAlgorithms = before ++ firstFit o :: after ∧
    (Fit o (firstFit o) ∧ firstFit o ∈ ({ side := .client } : Config).signatureAlgorithms) ∧
    ∀ s ∈ before, ¬ (Fit o s ∧ s ∈ ({ side := .client } : Config).signatureAlgorithms) := by
  cases o with
  | rsaes =>
    refine ⟨[0x0807, 0x0808, 0x0403, 0x0503, 0x0603, 0x0809, 0x080a, 0x080b], _, rfl, ⟨by constructor, by decide⟩, ?_⟩
    simp only [List.mem_cons, List.not_mem_nil, or_false]
    rintro s (rfl | rfl | rfl | rfl | rfl | rfl | rfl | rfl) ⟨⟨⟩, -⟩
  | rsassaPss =>
    refine ⟨[0x0807, 0x0808, 0x0403, 0x0503, 0x0603], _, rfl, ⟨by constructor, by decide⟩, ?_⟩
    simp only [List.mem_cons, List.not_mem_nil, or_false]
    rintro s (rfl | rfl | rfl | rfl | rfl) ⟨⟨⟩, -⟩
  | ec =>
    refine ⟨[0x0807, 0x0808], _, rfl, ⟨by constructor, by decide⟩, ?_⟩
    simp only [List.mem_cons, List.not_mem_nil, or_false]
    rintro s (rfl | rfl) ⟨⟨⟩, -⟩
  | ed25519 => exact ⟨[], _, rfl, ⟨by constructor, by decide⟩, by simp⟩
  | ed448 =>
    refine ⟨[0x0807], _, rfl, ⟨by constructor, by decide⟩, ?_⟩
    simp only [List.mem_cons, List.not_mem_nil, or_false]
    rintro s rfl ⟨⟨⟩, -⟩
  | other => exact absurd rfl ho

/-- C77. The default configurations work together: a client to which nothing but a trust store is given
(and maybe a host name), a server to which nothing but a key and a chain are given that the trust store
vouches for, any kind of key, any random values, any library that works. The constructors succeed,
the client starts, and both get connected and talk. -/
theorem C77_defaults {kex : Nat → Nat → Except Exn (Bytes × Bytes)}
    {sign : Nat → Bytes → Bytes → Nat → Except Exn Bytes} {store key leaf : Bytes} {rest : List Bytes}
    {host : Option PyStr} {ocspC ocspS : Bool} {algsC algsS : List HashAlg} {randomC randomS : Bytes}
    (hkind : E.certOid leaf ≠ .other)
    (L : Library E kex sign key ⟨0x1303, 0x1d, firstFit (E.certOid leaf), leaf, rest⟩)
    (hgen : ∀ draw, ∃ priv share, E.kexInit 0x1d draw = .ok (priv, share) ∧ share.length ≤ 2048)
    (htrust : ∀ draw, E.verifyChain store 5 (identity E host) leaf rest draw = .ok ())
    (V : Vouched E ocspC ocspS { side := .client, trustStore := some store } (leaf :: rest))
    (hhost : ∀ h, host = some h → E.isIp h = false → h.length ≤ 2000 ∧
      ∃ enc, E.idnaEncode h = .ok enc ∧ E.idnaDecode enc = some h ∧ enc.length = h.length)
    (hac : IsSetOrder algsC [.sha256, .sha384]) (has : IsSetOrder algsS [.sha256, .sha384])
    (hrc : randomC.length = 32) (hrs : randomS.length = 32) (hrr : randomS ≠ hrrRandom) :
    ∃ gc gs c₀ s₀ c₁ s₁,
      gc = { side := .client, trustStore := some store } ∧
      gs = { side := .server, privateKey := some key, certificateChain := some (leaf :: rest) } ∧
      gc.check = .ok () ∧ gs.check = .ok () ∧
      Conn.new gc host ocspC algsC randomC = .ok c₀ ∧ Conn.new gs none ocspS algsS randomS = .ok s₀ ∧
      Op.initiate.run E c₀ = (.ok [], c₁) ∧
      Op.initiate.run (E.elsewhere kex sign) s₀ = (.ok [], s₁) ∧
      Completes E (E.elsewhere kex sign) c₁ s₁ gc gs
        ⟨0x1303, 0x1d, firstFit (E.certOid leaf), leaf, rest⟩ := by
  have hne : ∀ {algs : List HashAlg}, IsSetOrder algs [.sha256, .sha384] → algs.isEmpty = false := by
    rintro (_ | _) h
    · have := (h.2 .sha256).mpr (by simp); cases this
    · rfl
  have hset : ∀ {algs : List HashAlg}, IsSetOrder algs [.sha256, .sha384] →
      IsSetOrder algs [.sha256, .sha384, .sha256] := fun h => ⟨h.1, fun a => by
    rw [h.2 a]; cases a <;> decide⟩
  have P : Presentable E { side := .client, trustStore := some store } host := by
    refine ⟨rfl, ⟨0x1d, rfl, .x25519, hgen⟩, by simp, by simp, by simp, by simp, ⟨rfl, rfl⟩, ?_, by simp⟩
    intro h h1 h2
    obtain ⟨h3, enc, h4, -, h5⟩ := hhost h h1 h2
    exact ⟨h3, enc, h4, by omega⟩
  have K : Compatible E { side := .client, trustStore := some store }
      { side := .server, privateKey := some key, certificateChain := some (leaf :: rest) } host
      ⟨0x1303, 0x1d, firstFit (E.certOid leaf), leaf, rest⟩ := by
    refine ⟨⟨rfl, rfl, by rfl, ⟨rfl, by simp⟩, rfl, default_scheme hkind, ⟨rfl, rfl⟩, .inl rfl, ?_⟩,
      ⟨.inr rfl, rfl⟩, by simp, by rfl, ⟨rfl, rfl⟩, by simp, ?_⟩
    · intro s d hs
      cases hs
      exact ⟨htrust d, .inl rfl⟩
    · intro h h1 h2
      exact (hhost h h1 h2).2
  have hc : ∃ c, Conn.new { side := .client, trustStore := some store } host ocspC algsC randomC = .ok c := by
    unfold Conn.new Transcript.new
    rw [hne hac]
    exact ⟨_, rfl⟩
  have hs : ∃ c, Conn.new
      { side := .server, privateKey := some key, certificateChain := some (leaf :: rest) }
      none ocspS algsS randomS = .ok c := by
    unfold Conn.new Transcript.new
    rw [hne has]
    exact ⟨_, rfl⟩
  obtain ⟨c₀, hc⟩ := hc
  obtain ⟨s₀, hs⟩ := hs
  obtain ⟨c₁, s₁, h1, h2, h3⟩ := C77_handshake P K L V rfl (hset hac) rfl (hset has) hrc hrs hrr hc hs
  exact ⟨_, _, c₀, s₀, c₁, s₁, rfl, rfl, rfl, rfl, hc, hs, h1, h2, h3⟩

namespace Toy

/-- the toy key generation works for every group -/
theorem generates (g : Nat) : ∀ draw, ∃ priv share, env.kexInit g draw = .ok (priv, share) ∧
    share.length ≤ 2048 := fun _ => ⟨_, _, rfl, by simp⟩

/-- the toy client configuration is presentable -/
theorem presentable : Presentable env clientConfig (some ['a']) := by
  refine ⟨rfl, ⟨0x1d, rfl, .x25519, generates _⟩, by decide, by decide, by decide, ?_, ⟨rfl, rfl⟩, ?_, by decide⟩
  · exact ⟨fun p hp => (by cases hp), by decide⟩
  · intro h h1 _
    cases h1
    exact ⟨by decide, _, rfl, by decide⟩

/-- what the default configurations agree on, with the toy certificate -/
def defaultChoice : Choice := ⟨0x1303, 0x1d, firstFit (env.certOid [1, 2, 3]), [1, 2, 3], []⟩

theorem defaultLibrary : Library env otherKex env.sign (serverConfig.privateKey.getD []) defaultChoice :=
  have L := library otherKex (.inl rfl)
  ⟨L.sized, L.opens, L.seals, L.agrees, L.generates, L.signs, L.loads, L.small⟩

end Toy

/-- The hypotheses of `C77_start` and `C77_handshake` are met. -/
example : Presentable Toy.env Toy.clientConfig (some ['a']) ∧
    Conn.new Toy.clientConfig (some ['a']) false [.sha256, .sha384] (List.replicate 32 5) = .ok Toy.client0 ∧
    Compatible Toy.env Toy.clientConfig Toy.serverConfig (some ['a']) Toy.choice := by
  refine ⟨Toy.presentable, rfl, ⟨Toy.partners 16384, ⟨.inr rfl, rfl⟩, by decide, by decide, ⟨rfl, rfl⟩, ?_, ?_⟩⟩
  · intro p hp; cases hp
  · intro h hh _
    cases hh
    exact ⟨_, rfl, by decide, rfl⟩

/-- The hypotheses of `C77_defaults` are met by the toy library. -/
example : Toy.env.certOid [1, 2, 3] ≠ .other ∧
    Library Toy.env Toy.otherKex Toy.env.sign (Toy.serverConfig.privateKey.getD [])
      ⟨0x1303, 0x1d, firstFit (Toy.env.certOid [1, 2, 3]), [1, 2, 3], []⟩ ∧
    (∀ draw, ∃ priv share, Toy.env.kexInit 0x1d draw = .ok (priv, share) ∧ share.length ≤ 2048) ∧
    (∀ draw, Toy.env.verifyChain [1, 2, 3] 5 (identity Toy.env (some ['a'])) [1, 2, 3] [] draw = .ok ()) ∧
    (∀ h, some ['a'] = some h → Toy.env.isIp h = false → h.length ≤ 2000 ∧
      ∃ enc, Toy.env.idnaEncode h = .ok enc ∧ Toy.env.idnaDecode enc = some h ∧ enc.length = h.length) ∧
    IsSetOrder [.sha256, .sha384] [.sha256, .sha384] := by
  refine ⟨by decide, Toy.defaultLibrary, Toy.generates _, fun _ => rfl, ?_, ⟨by decide, fun a => Iff.rfl⟩⟩
  intro h hh _
  cases hh
  exact ⟨by decide, _, rfl, by decide, rfl⟩

end Siotls
