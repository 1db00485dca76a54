import Verif.Proofs.Talkers
import Verif.Props.Farewell
import Verif.Props.Sockets
/-!
# C84: two wrapped sockets carry a conversation
-/

namespace Siotls
open Spec Serial

variable {E : Env}

/-- C84. Wrapped sockets whose connections are established. However the two programs call `write`, `read`
and `close`, whatever the delays and the cuts: `write` and `close` return, a `read` returns some bytes or
waits, and each end reads what the other wrote, in order and complete. -/
theorem C84_correspond {kex : Nat → Nat → Except Exn (Bytes × Bytes)}
    {sign : Nat → Bytes → Bytes → Nat → Except Exn Bytes} {key : Bytes} {gc gs : Config} {k : Choice}
    {a b : Wrapped} (L : Library E kex sign key k) (hu : k.suite ∈ [0x1301, 0x1302, 0x1303])
    (h : Established a.conn b.conn gc gs k) (ha : a.conn.outputData = []) (hb : b.conn.outputData = []) :
    Correspond E a (E.elsewhere kex sign) b :=
  corresponds (C81_farewell L hu h ha hb) h.app.1 h.app.2 ha hb

/-- C84, from the constructors: the handshake, then the conversation. -/
theorem C84_session {kex : Nat → Nat → Except Exn (Bytes × Bytes)}
    {sign : Nat → Bytes → Bytes → Nat → Except Exn Bytes} {gc gs : Config} {host : Option PyStr} {k : Choice}
    {ocspC ocspS : Bool} {algsC algsS dsC dsS : List HashAlg} {randomC randomS : Bytes} {c₀ s₀ : Conn}
    (P : Presentable E gc host) (K : Compatible E gc gs host k)
    (L : Library E kex sign (gs.privateKey.getD []) k)
    (V : Vouched E ocspC ocspS gc (k.leaf :: k.rest))
    (hdc : suiteDigests gc.cipherSuites = .ok dsC) (hac : IsSetOrder algsC dsC)
    (hds : suiteDigests gs.cipherSuites = .ok dsS) (has : IsSetOrder algsS dsS)
    (hrc : randomC.length = 32) (hrs : randomS.length = 32) (hrr : randomS ≠ hrrRandom)
    (hc₀ : Conn.new gc host ocspC algsC randomC = .ok c₀)
    (hs₀ : Conn.new gs none ocspS algsS randomS = .ok s₀) :
    ∃ H, H ≠ [] ∧ ∀ xs, Cuts xs H → ∃ F, F ≠ [] ∧ ∀ ys, Cuts ys F → ∃ Z, Z ≠ [] ∧ ∀ zs, Cuts zs Z →
    ∀ Sc Ss, Carries Sc 0 ys → Carries Ss 0 (xs ++ zs) → ∃ wc ws,
      doHandshake E Sc ys.length (.new c₀) = (.ok (), wc) ∧
      doHandshake (E.elsewhere kex sign) Ss (xs ++ zs).length (.new s₀) = (.ok (), ws) ∧
      wc.accepted = (xs ++ zs).flatten ∧ ws.accepted = ys.flatten ∧
      Correspond E wc (E.elsewhere kex sign) ws := by
  obtain ⟨H, n1, h1⟩ := C83_handshake P K L V hdc hac hds has hrc hrs hrr hc₀ hs₀
  refine ⟨H, n1, fun xs hxs => ?_⟩
  obtain ⟨F, n2, h2⟩ := h1 xs hxs
  refine ⟨F, n2, fun ys hys => ?_⟩
  obtain ⟨Z, n3, h3⟩ := h2 ys hys
  refine ⟨Z, n3, fun zs hzs Sc Ss hSc hSs => ?_⟩
  obtain ⟨-, -, -, -, wc, ws, h4, h5, h6, h7, -, -, h8, h9, h10⟩ := h3 zs hzs Sc Ss hSc hSs
  refine ⟨wc, ws, h4 _ (Nat.le_refl _), h5 _ (Nat.le_refl _), ?_, ?_, C84_correspond L K.usable h10 h8 h9⟩
  · rw [h6, List.flatten_append, hxs.1, hzs.1]
  · rw [h7, hys.1]

namespace Toy

/-- a conversation of two wrapped sockets -/
def letters : List (Bool × Act) :=
  [(true, .write [1, 2, 3]), (false, .read 7), (false, .write [4]), (false, .read 10000), (true, .read 10000),
   (true, .write [5]), (true, .close), (false, .read 10000), (false, .write [6, 7]), (true, .read 10000),
   (false, .close)]

end Toy

/-- The hypotheses of `C84_correspond` are met by the two toys, and there is a proper conversation. -/
example : (∃ a b : Wrapped, Library Toy.env Toy.otherKex Toy.env.sign (Toy.serverConfig.privateKey.getD []) Toy.choice ∧
      Established a.conn b.conn Toy.clientConfig Toy.serverConfig Toy.choice ∧ a.conn.outputData = [] ∧
      b.conn.outputData = []) ∧
    Sober Toy.letters := by
  refine ⟨?_, ?_, fun side => by cases side <;> simp [Toy.letters], fun side => ?_⟩
  · obtain ⟨H, n1, h1⟩ := C83_handshake Toy.presentable Toy.compatible
      (Toy.library _ (.inl rfl)) Vouched.off rfl (algsC := [.sha256, .sha384]) (algsS := [.sha256])
      (randomC := List.replicate 32 5) (randomS := List.replicate 32 6)
      ⟨by decide, fun a => by cases a <;> decide⟩ rfl ⟨by decide, fun a => by cases a <;> decide⟩ rfl rfl
      (by decide) Toy.client0_new Toy.server0_new
    obtain ⟨F, n2, h2⟩ := h1 [H] (Toy.cuts n1)
    obtain ⟨Z, n3, h3⟩ := h2 [F] (Toy.cuts n2)
    obtain ⟨-, -, -, -, wc, ws, -, -, -, -, -, -, h4, h5, h6⟩ := h3 [Z] (Toy.cuts n3) _ _ (Toy.reel_carries [F])
      (Toy.reel_carries [H, Z])
    exact ⟨wc, ws, Toy.library _ (.inl rfl), h6, h4, h5⟩
  · intro side d h
    simp only [Toy.letters, List.mem_cons, Prod.mk.injEq, List.not_mem_nil, or_false, reduceCtorEq, and_false,
      false_or, Act.write.injEq] at h
    rcases h with ⟨-, rfl⟩ | ⟨-, rfl⟩ | ⟨-, rfl⟩ | ⟨-, rfl⟩ <;> decide
  · cases side <;> simp [Toy.letters, Mannered]

end Siotls
