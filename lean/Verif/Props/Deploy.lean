import Verif.Props.Examples
import Verif.Props.Outage
/-!
# C93: the example client gets the page of the example server
-/

namespace Siotls
open Spec Serial

variable {E : Env}

theorem example_alpn : ∀ p ∈ exampleAlpn, p.length < 256 ∧ ∀ c ∈ p, ' '.toNat ≤ c.toNat ∧ c.toNat ≤ '~'.toNat := by
  decide

/-- `http/1.1`, RFC 7301 section 6 -/
def Spec.http11 : Bytes := [0x68, 0x74, 0x74, 0x70, 0x2f, 0x31, 0x2e, 0x31]

/-- C93. The two example programs, from their configurations to the page: `check_certificate` or not, any
kind of key, any chain, any random values, OCSP services at both ends whose responders answer, any library
that works. The configurations and connections are made, both handshakes return however the system cuts the
bytes, both ends settled on `http/1.1`, and then, whatever the network does: no call raises, a client that
ends got the page, the server ends well, and nobody waits for ever. -/
theorem C93_deployed {kex : Nat → Nat → Except Exn (Bytes × Bytes)}
    {sign : Nat → Bytes → Bytes → Nat → Except Exn Bytes} {store : Option Bytes} {key leaf : Bytes}
    {rest : List Bytes} {host : PyStr} {algsC algsS : List HashAlg} {randomC randomS : Bytes}
    (hkind : E.certOid leaf ≠ .other)
    (L : Library E kex sign key ⟨0x1303, 0x1d, firstFit (E.certOid leaf), leaf, rest⟩)
    (hgen : ∀ draw, ∃ priv share, E.kexInit 0x1d draw = .ok (priv, share) ∧ share.length ≤ 2048)
    (htrust : ∀ s draw, store = some s → E.verifyChain s 5 (identity E (some host)) leaf rest draw = .ok ())
    (V : Vouched E true true (exampleClient store) (leaf :: rest))
    (hhost : E.isIp host = false → host.length ≤ 2000 ∧
      ∃ enc, E.idnaEncode host = .ok enc ∧ E.idnaDecode enc = some host ∧ enc.length = host.length)
    (hac : IsSetOrder algsC [.sha256, .sha384]) (has : IsSetOrder algsS [.sha256, .sha384])
    (hrc : randomC.length = 32) (hrs : randomS.length = 32) (hrr : randomS ≠ hrrRandom)
    (version date : PyStr) (phrase : Nat → PyStr) (hq : (simpleRequest version host).length ≤ 16366)
    (hr : (page version date phrase (simpleRequest version host)).length ≤ 16366) :
    (exampleClient store).check = .ok () ∧ (exampleServer key (leaf :: rest)).check = .ok () ∧
    ∃ c₀ s₀, Conn.new (exampleClient store) (some host) true algsC randomC = .ok c₀ ∧
      Conn.new (exampleServer key (leaf :: rest)) none true algsS randomS = .ok s₀ ∧
    ∃ H, H ≠ [] ∧ ∀ xs, Cuts xs H → ∃ F, F ≠ [] ∧ ∀ ys, Cuts ys F → ∃ Z, Z ≠ [] ∧ ∀ zs, Cuts zs Z →
    ∀ Sc Ss, Carries Sc 0 ys → Carries Ss 0 (xs ++ zs) → ∃ wc ws nc ns,
      doHandshake E Sc ys.length (.new c₀) = (.ok (), wc) ∧
      doHandshake (E.elsewhere kex sign) Ss (xs ++ zs).length (.new s₀) = (.ok (), ws) ∧
      wc.accepted = (xs ++ zs).flatten ∧ ws.accepted = ys.flatten ∧
      wc.conn.nconfig = some nc ∧ ws.conn.nconfig = some ns ∧
      nc.alpn = some (some http11) ∧ ns.alpn = some (some http11) ∧
    ∀ ts, ∃ p q, perform E (E.elsewhere kex sign) ts ⟨client (simpleRequest version host), ⟨wc, [], [], []⟩⟩
        ⟨server version date phrase, ⟨ws, [], [], []⟩⟩ = .ok (p, q) ∧
      (Prog.Over p.prog → p.prog = .stop ∧ p.seat.got = pyEncode (makeHttp11Response version 200 (phrase 200) date
        "Hello from siotls\n".toList)) ∧
      (Prog.Over q.prog → q.prog = .stop) ∧
      (Prog.Waits p.prog → Prog.Waits q.prog → p.seat.wire = [] → q.seat.wire = [] →
        Prog.Over p.prog ∧ Prog.Over q.prog) := by
  have hne : ∀ {algs : List HashAlg}, IsSetOrder algs [.sha256, .sha384] → algs.isEmpty = false := by
    rintro (_ | _) h
    · have := (h.2 .sha256).mpr (by simp); cases this
    · rfl
  have hset : ∀ {algs : List HashAlg}, IsSetOrder algs [.sha256, .sha384] →
      IsSetOrder algs [.sha256, .sha384, .sha256] := fun h => ⟨h.1, fun a => by
    rw [h.2 a]; cases a <;> decide⟩
  have P : Presentable E (exampleClient store) (some host) := by
    refine ⟨rfl, ⟨0x1d, rfl, .x25519, hgen⟩, ?_, ?_, ?_, ?_, ⟨rfl, rfl⟩, ?_, ?_⟩
    · simp [exampleClient]
    · simp [exampleClient]
    · simp [exampleClient]
    · exact ⟨fun p hp => (example_alpn p hp).1, show (exampleAlpn.map (fun p => 1 + p.length)).sum ≤ 4000 by decide⟩
    · intro h h1 h2
      cases h1
      obtain ⟨h3, enc, h4, -, h5⟩ := hhost h2
      exact ⟨h3, enc, h4, by omega⟩
    · simp [exampleClient]
  have K : Compatible E (exampleClient store) (exampleServer key (leaf :: rest)) (some host)
      ⟨0x1303, 0x1d, firstFit (E.certOid leaf), leaf, rest⟩ := by
    refine ⟨⟨rfl, rfl, by rfl, ⟨rfl, by simp [exampleServer]⟩, rfl, default_scheme hkind, ⟨rfl, rfl⟩,
      .inr (.inr ⟨_, List.mem_cons_self, List.mem_cons_self⟩), ?_⟩, ⟨.inr rfl, rfl⟩, by simp, by rfl, ⟨rfl, rfl⟩,
      example_alpn, ?_⟩
    · intro s d hs
      exact ⟨htrust s d hs, .inl rfl⟩
    · intro h h1 h2
      cases h1
      exact (hhost h2).2
  have hc : ∃ c, Conn.new (exampleClient store) (some host) true algsC randomC = .ok c := by
    unfold Conn.new Transcript.new
    rw [hne hac]
    exact ⟨_, rfl⟩
  have hs : ∃ c, Conn.new (exampleServer key (leaf :: rest)) none true algsS randomS = .ok c := by
    unfold Conn.new Transcript.new
    rw [hne has]
    exact ⟨_, rfl⟩
  obtain ⟨c₀, hc⟩ := hc
  obtain ⟨s₀, hs⟩ := hs
  refine ⟨?_, ?_, c₀, s₀, hc, hs, ?_⟩
  · cases store <;> rfl
  · rfl
  obtain ⟨H, n1, h1⟩ := C83_handshake P K L V rfl (hset hac) rfl (hset has) hrc hrs hrr hc hs
  refine ⟨H, n1, fun xs hxs => ?_⟩
  obtain ⟨F, n2, h2⟩ := h1 xs hxs
  refine ⟨F, n2, fun ys hys => ?_⟩
  obtain ⟨Z, n3, h3⟩ := h2 ys hys
  refine ⟨Z, n3, fun zs hzs Sc Ss hSc hSs => ?_⟩
  obtain ⟨-, -, -, -, wc, ws, h4, h5, h6, h7, -, -, h8, h9, h10⟩ := h3 zs hzs Sc Ss hSc hSs
  obtain ⟨nc, ns, g1, g2, -, -, -, -, -, -, -, g3, g4, -⟩ := h10.agreed
  have g5 : nc.alpn = some (some http11) := g4.trans (by rfl)
  refine ⟨wc, ws, nc, ns, h4 _ (Nat.le_refl _), h5 _ (Nat.le_refl _), ?_, ?_, g1, g2, g5, by rw [← g3, g5],
    fun ts => C88_hello L K.usable h10 h8 h9 version host date phrase hq hr ts⟩
  · rw [h6, List.flatten_append, hxs.1, hzs.1]
  · rw [h7, hys.1]

namespace Toy

/-- the toy library with a responder that vouches for every certificate -/
def responder : Env := { stapleEnv with ocspUrl := fun _ => .ok (some [1]) }

/-- what the example programs agree on with it -/
def deployed : Choice := ⟨0x1303, 0x1d, firstFit (responder.certOid [1, 2, 3]), [1, 2, 3], [[9]]⟩

theorem deployedLibrary :
    Library responder env.kexInit responder.sign (stapler.privateKey.getD []) deployed :=
  have L := library env.kexInit (.inr rfl)
  ⟨⟨L.sized.hash, L.sized.hmac⟩, L.opens, L.seals, L.agrees, L.generates, L.signs, fun _ _ => rfl, by decide⟩

end Toy

/-- The hypotheses of `C93_deployed` are met, with a checked chain of two certificates. -/
example : Toy.responder.certOid [1, 2, 3] ≠ .other ∧
    Library Toy.responder Toy.env.kexInit Toy.responder.sign (Toy.stapler.privateKey.getD [])
      ⟨0x1303, 0x1d, firstFit (Toy.responder.certOid [1, 2, 3]), [1, 2, 3], [[9]]⟩ ∧
    (∀ draw, ∃ priv share, Toy.responder.kexInit 0x1d draw = .ok (priv, share) ∧ share.length ≤ 2048) ∧
    (∀ (s : Bytes) draw, some [1, 2, 3] = some s →
      Toy.responder.verifyChain s 5 (identity Toy.responder (some ['a'])) [1, 2, 3] [[9]] draw = .ok ()) ∧
    Vouched Toy.responder true true (exampleClient (some [1, 2, 3])) [[1, 2, 3], [9]] ∧
    (Toy.responder.isIp ['a'] = false → ['a'].length ≤ 2000 ∧ ∃ enc, Toy.responder.idnaEncode ['a'] = .ok enc ∧
      Toy.responder.idnaDecode enc = some ['a'] ∧ enc.length = ['a'].length) ∧
    Toy.responder.isIp ['a'] = false ∧
    IsSetOrder [.sha256, .sha384] [.sha256, .sha384] ∧
    (simpleRequest ['0'] ['a']).length ≤ 16366 ∧
    (page ['0'] ['n', 'o', 'w'] (fun _ => ['O', 'K']) (simpleRequest ['0'] ['a'])).length ≤ 16366 := by
  refine ⟨by decide, Toy.deployedLibrary, Toy.generates 0x1d, ?_, ⟨?_, ?_⟩, ?_, rfl, ⟨by decide, fun a => Iff.rfl⟩,
    by decide +kernel, ?_⟩
  · intro s d h
    cases h
    rfl
  · intro _ _ a b l h
    cases h
    exact ⟨_, rfl, fun _ => ⟨[7], rfl, by decide, .inl fun _ => rfl⟩⟩
  · intro _ _ before a b l h
    exact ⟨_, rfl, .inr (.inr fun _ => ⟨[7], rfl, fun _ => rfl⟩)⟩
  · intro _
    exact ⟨by decide, _, rfl, by decide, rfl⟩
  · rw [page, respond_simple]
    decide +kernel

end Siotls
