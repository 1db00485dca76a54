import Verif.Proofs.Sockets
import Verif.Props.Farewell
/-!
# C83: the handshake of two wrapped sockets
-/

namespace Siotls
open Spec Serial

variable {E : Env}

/-- C83. Two `WrappedSocket`s over sockets that take everything they are given, with compatible
configurations: `do_handhskake` returns at both ends, however the system cuts the bytes, and at neither
end before the last byte of the peer came. -/
theorem C83_handshake {kex : Nat → Nat → Except Exn (Bytes × Bytes)}
    {sign : Nat → Bytes → Bytes → Nat → Except Exn Bytes} {gc gs : Config} {host : Option PyStr} {k : Choice}
    {ocspC ocspS : Bool} {algsC algsS dsC dsS : List HashAlg} {randomC randomS : Bytes} {c₀ s₀ : Conn}
    (P : Presentable E gc host) (K : Compatible E gc gs host k)
    (L : Library E kex sign (gs.privateKey.getD []) k)
    (V : Vouched E ocspC ocspS gc (k.leaf :: k.rest))
    (hdc : suiteDigests gc.cipherSuites = .ok dsC) (hac : IsSetOrder algsC dsC)
    (hds : suiteDigests gs.cipherSuites = .ok dsS) (has : IsSetOrder algsS dsS)
    (hrc : randomC.length = 32) (hrs : randomS.length = 32) (hrr : randomS ≠ hrrRandom)
    (hc₀ : Conn.new gc host ocspC algsC randomC = .ok c₀)
    (hs₀ : Conn.new gs none ocspS algsS randomS = .ok s₀) :
    Greets E (E.elsewhere kex sign) c₀ s₀ gc gs k := by
  obtain ⟨c₁, _, _, _, h1, n1, -⟩ := C77_start P hc₀ hrc
  obtain ⟨s₁, h2, ho₁, W₁, h3⟩ := completion K L V hdc hac hds has hrc hrs hrr hc₀ hs₀ h1
  have hsideC : c₁.config.side = .client := by
    have := (reach_hashes (E := E) hc₀ (c := c₁) ⟨[.initiate], by rw [runOps, h1]; rfl⟩).2.config
    rw [this, K.client]
  have hsideS : s₁.config.side = .server := by
    have := (reach_hashes (E := E.elsewhere kex sign) hs₀ (c := s₁) ⟨[.initiate], by rw [runOps, h2]; rfl⟩).2.config
    rw [this, K.server]
  refine ⟨c₁.outputData, n1, fun xs hxs => ?_⟩
  obtain ⟨s₂, h4, n2, W₂, h5⟩ := h3 xs hxs
  refine ⟨s₂.outputData, n2, fun ys hys => ?_⟩
  obtain ⟨c₂, h6, hconn, n3, W₃, h7⟩ := h5 ys hys
  refine ⟨c₂.outputData, n3, fun zs hzs Sc Ss hSc hSs => ?_⟩
  obtain ⟨s₃, h8, ho₃, h9, -⟩ := h7 zs hzs
  -- the client
  let w₀ : Wrapped := ⟨(Op.drain.run E c₁).2, 0, 1, c₁.outputData⟩
  have hd : ∀ j, doHandshake E Sc j (.new c₀) = handshakeLoop E Sc j w₀ :=
    fun j => doHandshake_client hSc.greedy h1 hsideC j
  have hm₀ : Mirrors w₀ [] (Op.drain.run E c₁).2 := mirrors_drain (E := E) w₀ (Op.drain.run E c₁).2 rfl
  have hwC := waits_cut W₂ hys
  -- the server
  let v₀ : Wrapped := ⟨s₁, 0, 0, []⟩
  have hdS : ∀ j, doHandshake (E.elsewhere kex sign) Ss j (.new s₀) =
      handshakeLoop (E.elsewhere kex sign) Ss j v₀ := fun j => doHandshake_server h2 hsideS j
  have hv₀ : Mirrors v₀ [] s₁ := by
    have := mirrors_drain (E := E) v₀ s₁ (by
      show s₁ = { s₁ with outputData := [] }
      rw [← ho₁])
    rwa [ho₁] at this
  have hwS := waits_cut W₁ hxs
  have hSs₁ : Carries Ss 0 xs := ⟨hSs.greedy, fun i x h m => hSs.pieces i x (by
    rw [List.getElem?_append_left (List.getElem?_eq_some_iff.mp h).1]; exact h) m⟩
  have hSs₂ : Carries Ss xs.length zs := by simpa using hSs.drop
  obtain ⟨v₁, p, g1, g2, g3, g4⟩ := handshakeLoop_feed (S := Ss) xs hv₀ hxs.2.2 hSs₁ h4 hwS
  have g4 : v₁.nrecv = xs.length := by rw [g4]; exact Nat.zero_add _
  have g3 : v₁.accepted = s₂.outputData := by
    rw [g3, g2.output]
  have hv₁ : Mirrors v₁ [] (Op.drain.run (E.elsewhere kex sign) s₂).2 :=
    mirrors_drain (E := E.elsewhere kex sign) v₁ (Op.drain.run (E.elsewhere kex sign) s₂).2 (g2.drained (E := E.elsewhere kex sign))
  have hwS' := waits_cut W₃ hzs
  rw [← g4] at hSs₂
  obtain ⟨v₂, q, f1, f2, f3, f4⟩ := handshakeLoop_feed (S := Ss) zs hv₁ hzs.2.2 hSs₂ h8 hwS'
  obtain ⟨w₁, r, e1, e2, e3, e4⟩ := handshakeLoop_feed (S := Sc) ys hm₀ hys.2.2 hSc h6 hwC
  have hq : q = [] := by
    have := f2.output
    rw [ho₃] at this
    simpa using this.symm
  have hpc : w₁.conn.state.isPostHandshake = true := by rw [e2.state, hconn]; rfl
  have hps : v₂.conn.state.isPostHandshake = true := by rw [f2.state, h9.states.2]; rfl
  have stop : ∀ {E : Env} {S : Sock} {xs : List Bytes} {w w' : Wrapped} {j : Nat},
      (∀ k, handshakeLoop E S (xs.length + k) w = handshakeLoop E S k w') → xs.length ≤ j →
      w'.conn.state.isPostHandshake = true → handshakeLoop E S j w = (.ok (), w') := by
    intro E S xs w w' j h hj hp
    rw [show j = xs.length + (j - xs.length) by omega, h, handshakeLoop_stop _ hp]
  refine ⟨?_, ?_, fun j hj => ?_, fun j hj => ?_, w₁, v₂, fun j hj => ?_, fun j hj => ?_, ?_, ?_, ?_, ?_,
    e2.flushed, f2.flushed, ?_⟩
  · rw [hd, handshakeLoop_block (hwC [] ys _ rfl hys.2.1 rfl)]
  · rw [hdS, show xs.length = xs.length + 0 from rfl, g1 0,
      handshakeLoop_block (by rw [hv₁.state]; exact hwS' [] zs _ rfl hzs.2.1 rfl)]
    exact g3
  · rw [hd]
    exact handshakeLoop_waits hm₀ hys.2.2 hSc h6 hwC hj
  · rw [hdS]
    by_cases hx : j < xs.length
    · exact handshakeLoop_waits hv₀ hxs.2.2 hSs₁ h4 hwS hx
    · rw [List.length_append] at hj
      rw [show j = xs.length + (j - xs.length) by omega, g1]
      exact handshakeLoop_waits hv₁ hzs.2.2 hSs₂ h8 hwS' (by omega)
  · rw [hd]
    exact stop e1 hj hpc
  · rw [hdS]
    rw [List.length_append] at hj
    rw [show j = xs.length + (j - xs.length) by omega, g1]
    exact stop f1 (by omega) hps
  · rw [e3, e2.output]
    rfl
  · rw [f3, hq, g3, List.append_nil]
  · rw [e4]; exact Nat.zero_add _
  · rw [f4, g4, List.length_append]
  · have e : w₁.conn = { c₂ with outputData := [] } := e2.drained (E := E)
    have f : v₂.conn = { s₃ with outputData := [] } := f2.drained (E := E)
    rw [e, f]
    exact ⟨h9.states, h9.inputs, h9.app, h9.limits, h9.agreed, h9.randoms, h9.transcripts, h9.keys⟩

namespace Toy

/-- a socket that answers with these pieces -/
def reel (xs : List Bytes) : Sock := ⟨fun i _ => .ok (xs.getD i []), fun _ b => .ok b.length⟩

theorem reel_carries (xs : List Bytes) : Carries (reel xs) 0 xs :=
  ⟨fun _ _ => rfl, fun i x h m => by simp [reel, h]⟩

end Toy

/-- The hypotheses of `C83_handshake` are met by the two toys, and there are sockets that carry any
pieces. -/
example : Presentable Toy.env Toy.clientConfig (some ['a']) ∧
    Compatible Toy.env Toy.clientConfig Toy.serverConfig (some ['a']) Toy.choice ∧
    Library Toy.env Toy.otherKex Toy.env.sign (Toy.serverConfig.privateKey.getD []) Toy.choice ∧
    IsSetOrder [.sha256, .sha384] [.sha256, .sha384, .sha256] ∧ IsSetOrder [.sha256] [.sha256, .sha256] ∧
    Conn.new Toy.clientConfig (some ['a']) false [.sha256, .sha384] (List.replicate 32 5) = .ok Toy.client0 ∧
    Conn.new Toy.serverConfig none false [.sha256] (List.replicate 32 6) = .ok Toy.server0 ∧
    ∀ xs, Carries (Toy.reel xs) 0 xs :=
  ⟨Toy.presentable, Toy.compatible, Toy.library _ (.inl rfl), ⟨by decide, fun a => by cases a <;> decide⟩,
    ⟨by decide, fun a => by cases a <;> decide⟩, rfl, rfl, Toy.reel_carries⟩

/-- The two toys connect through such sockets, whole flights at a time. -/
example : ∃ H F Z wc ws, doHandshake Toy.env (Toy.reel [F]) 1 (.new Toy.client0) = (.ok (), wc) ∧
    doHandshake (Toy.env.elsewhere Toy.otherKex Toy.env.sign) (Toy.reel [H, Z]) 2 (.new Toy.server0) = (.ok (), ws) ∧
    wc.conn.state = .connected ∧ ws.conn.state = .connected := by
  obtain ⟨H, n1, h1⟩ := C83_handshake Toy.presentable Toy.compatible
    (Toy.library _ (.inl rfl)) Vouched.off rfl (algsC := [.sha256, .sha384]) (algsS := [.sha256])
    (randomC := List.replicate 32 5) (randomS := List.replicate 32 6)
    ⟨by decide, fun a => by cases a <;> decide⟩ rfl ⟨by decide, fun a => by cases a <;> decide⟩ rfl rfl
    (by decide) Toy.client0_new Toy.server0_new
  obtain ⟨F, n2, h2⟩ := h1 [H] (Toy.cuts n1)
  obtain ⟨Z, n3, h3⟩ := h2 [F] (Toy.cuts n2)
  obtain ⟨-, -, -, -, wc, ws, h4, h5, -, -, -, -, -, -, h6⟩ := h3 [Z] (Toy.cuts n3) _ _ (Toy.reel_carries [F])
    (Toy.reel_carries [H, Z])
  exact ⟨H, F, Z, wc, ws, h4 1 (by simp), h5 2 (by simp), h6.states.1, h6.states.2⟩

end Siotls
