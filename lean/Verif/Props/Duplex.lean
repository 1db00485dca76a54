import Verif.Proofs.Duplex
import Verif.Props.Start
/-!
# C80: a conversation in both directions at once
-/

namespace Siotls
open Spec

variable {E : Env}

/-- C80. A client and a server that completed the handshake: however their programs go on sending,
reading and handing over bytes, at the same time and in any order, no call raises, both ends stay
connected, and each end reads what the other sent, in order, without loss. -/
theorem C80_duplex {kex : Nat → Nat → Except Exn (Bytes × Bytes)}
    {sign : Nat → Bytes → Bytes → Nat → Except Exn Bytes} {key : Bytes} {gc gs : Config} {k : Choice}
    {c s : Conn} (L : Library E kex sign key k) (hu : k.suite ∈ [0x1301, 0x1302, 0x1303])
    (h : Established c s gc gs k) (hc : c.outputData = []) (hs : s.outputData = []) :
    Duplex E c (E.elsewhere kex sign) s := by
  obtain ⟨info, lim, hinfo, hid, _, hlim⟩ := suite_works hu
  have W : Works E info lim := ⟨L.sized, L.opens, L.seals, by rw [hid]; exact hinfo, hlim⟩
  exact duplex W W.elsewhere rfl hid h hc hs

/-- C80. The whole life of two compatible connections: the constructors gave the two connections, both
start, the three flights arrive cut in any way, then both programs do what they want. -/
theorem C80_session {kex : Nat → Nat → Except Exn (Bytes × Bytes)}
    {sign : Nat → Bytes → Bytes → Nat → Except Exn Bytes} {gc gs : Config} {host : Option PyStr} {k : Choice}
    {ocspC ocspS : Bool} {algsC algsS dsC dsS : List HashAlg} {randomC randomS : Bytes} {c₀ s₀ : Conn}
    (P : Presentable E gc host)
    (K : Compatible E gc gs host k) (L : Library E kex sign (gs.privateKey.getD []) k)
    (V : Vouched E ocspC ocspS gc (k.leaf :: k.rest))
    (hdc : suiteDigests gc.cipherSuites = .ok dsC) (hac : IsSetOrder algsC dsC)
    (hds : suiteDigests gs.cipherSuites = .ok dsS) (has : IsSetOrder algsS dsS)
    (hrc : randomC.length = 32) (hrs : randomS.length = 32) (hrr : randomS ≠ hrrRandom)
    (hc₀ : Conn.new gc host ocspC algsC randomC = .ok c₀)
    (hs₀ : Conn.new gs none ocspS algsS randomS = .ok s₀) :
    ∃ c₁ s₁, Op.initiate.run E c₀ = (.ok [], c₁) ∧
      Op.initiate.run (E.elsewhere kex sign) s₀ = (.ok [], s₁) ∧ c₁.outputData ≠ [] ∧
    ∀ xs, Cuts xs c₁.outputData →
    ∃ s₂, feed (E.elsewhere kex sign) xs s₁ = (.ok (), s₂) ∧ s₂.outputData ≠ [] ∧
    ∀ ys, Cuts ys s₂.outputData →
    ∃ c₂, feed E ys (Op.drain.run E c₁).2 = (.ok (), c₂) ∧ c₂.outputData ≠ [] ∧
    ∀ zs, Cuts zs c₂.outputData →
    ∃ s₃, feed (E.elsewhere kex sign) zs (Op.drain.run (E.elsewhere kex sign) s₂).2 = (.ok (), s₃) ∧
      Duplex E (Op.drain.run E c₂).2 (E.elsewhere kex sign) s₃ := by
  obtain ⟨c₁, s₁, h1, h2, n1, h3⟩ := C77_handshake P K L V hdc hac hds has hrc hrs hrr hc₀ hs₀
  refine ⟨c₁, s₁, h1, h2, n1, fun xs hxs => ?_⟩
  obtain ⟨s₂, h4, n2, h5⟩ := h3 xs hxs
  refine ⟨s₂, h4, n2, fun ys hys => ?_⟩
  obtain ⟨c₂, h6, -, n3, h7⟩ := h5 ys hys
  refine ⟨c₂, h6, n3, fun zs hzs => ?_⟩
  obtain ⟨s₃, h8, h9, h10, -⟩ := h7 zs hzs
  refine ⟨s₃, h8, C80_duplex (gc := gc) (gs := gs) L K.usable (c := (Op.drain.run E c₂).2) ?_ rfl h9⟩
  exact ⟨h10.states, h10.inputs, h10.app, h10.limits, h10.agreed, h10.randoms, h10.transcripts, h10.keys⟩

namespace Toy

theorem cuts {d : Bytes} (h : d ≠ []) : Cuts [d] d := by
  refine ⟨by simp, by simp, fun x hx => ?_⟩
  simp only [List.mem_singleton] at hx
  rintro rfl
  exact h hx.symm

theorem compatible : Compatible env clientConfig serverConfig (some ['a']) choice := by
  refine ⟨partners 16384, ⟨.inr rfl, rfl⟩, by decide, by decide, ⟨rfl, rfl⟩, ?_, ?_⟩
  · intro p hp; cases hp
  · intro h hh _
    cases hh
    exact ⟨_, rfl, by decide, rfl⟩

/-- a conversation in which both send and nothing is delivered in order of sending -/
def chat : List (Bool × Move) :=
  [(true, .send [1, 2, 3]), (false, .send [4]), (true, .drain), (false, .deliver 7), (true, .send [5, 6]),
   (false, .drain), (true, .deliver 10000), (false, .deliver 10000), (true, .read), (true, .drain),
   (false, .deliver 10000), (false, .read)]

end Toy

/-- The hypotheses of `C80_session` are met. -/
example : Presentable Toy.env Toy.clientConfig (some ['a']) ∧
    Compatible Toy.env Toy.clientConfig Toy.serverConfig (some ['a']) Toy.choice ∧
    Library Toy.env Toy.otherKex Toy.env.sign (Toy.serverConfig.privateKey.getD []) Toy.choice ∧
    IsSetOrder [.sha256, .sha384] [.sha256, .sha384, .sha256] ∧ IsSetOrder [.sha256] [.sha256, .sha256] ∧
    Conn.new Toy.clientConfig (some ['a']) false [.sha256, .sha384] (List.replicate 32 5) = .ok Toy.client0 ∧
    Conn.new Toy.serverConfig none false [.sha256] (List.replicate 32 6) = .ok Toy.server0 :=
  ⟨Toy.presentable, Toy.compatible, Toy.library _ (.inl rfl), ⟨by decide, fun a => by cases a <;> decide⟩,
    ⟨by decide, fun a => by cases a <;> decide⟩, rfl, rfl⟩

/-- The hypotheses of `C80_duplex` are met by the two toys, and the moves of a conversation may be
mixed. -/
example : (∃ c s, Library Toy.env Toy.otherKex Toy.env.sign (Toy.serverConfig.privateKey.getD []) Toy.choice ∧
      Established c s Toy.clientConfig Toy.serverConfig Toy.choice ∧ c.outputData = [] ∧ s.outputData = []) ∧
    Moderate Toy.chat := by
  constructor
  · obtain ⟨c₁, s₁, -, -, n1, h3⟩ := C77_handshake Toy.presentable Toy.compatible
      (Toy.library _ (.inl rfl)) Vouched.off rfl (algsC := [.sha256, .sha384]) (algsS := [.sha256])
      (randomC := List.replicate 32 5) (randomS := List.replicate 32 6)
      ⟨by decide, fun a => by cases a <;> decide⟩ rfl ⟨by decide, fun a => by cases a <;> decide⟩ rfl rfl
      (by decide) Toy.client0_new Toy.server0_new
    obtain ⟨s₂, -, n2, h5⟩ := h3 _ (Toy.cuts n1)
    obtain ⟨c₂, -, -, n3, h7⟩ := h5 _ (Toy.cuts n2)
    obtain ⟨s₃, -, h9, h, -⟩ := h7 _ (Toy.cuts n3)
    exact ⟨(Op.drain.run Toy.env c₂).2, s₃, Toy.library _ (.inl rfl),
      ⟨h.states, h.inputs, h.app, h.limits, h.agreed, h.randoms, h.transcripts, h.keys⟩, rfl, h9⟩
  · refine ⟨?_, fun side => by cases side <;> simp [Toy.chat]⟩
    intro side d h
    simp only [Toy.chat, List.mem_cons, Prod.mk.injEq, List.not_mem_nil, or_false, reduceCtorEq, and_false,
      false_or, or_false, Move.send.injEq] at h
    rcases h with ⟨-, rfl⟩ | ⟨-, rfl⟩ | ⟨-, rfl⟩ <;> decide

end Siotls
