import Verif.Proofs.Truncation
import Verif.Props.Farewell
/-!
# C82: truncation
-/

namespace Siotls
open Spec

variable {E : Env}

/-- C82, full statement: in a session that was established, a program whose peer stops sending can tell
whether the peer closed (RFC 8446 section 6.1: close_notify is there against truncation attacks). -/
def C82_statement : Prop :=
  ∀ {E : Env} {kex : Nat → Nat → Except Exn (Bytes × Bytes)} {sign : Nat → Bytes → Bytes → Nat → Except Exn Bytes}
    {key : Bytes} {gc gs : Config} {k : Choice} {c s : Conn}, Library E kex sign key k →
    k.suite ∈ [0x1301, 0x1302, 0x1303] → Established c s gc gs k → c.outputData = [] → s.outputData = [] →
    Detects E c (E.elsewhere kex sign) s

/-- C82, what holds instead: no program can. After any conversation in which everything was delivered,
closing a sending end and delivering the close_notify changes nothing that the program of the other end
can see, whatever it calls, except by receiving more bytes. -/
theorem C82_undetected {kex : Nat → Nat → Except Exn (Bytes × Bytes)}
    {sign : Nat → Bytes → Bytes → Nat → Except Exn Bytes} {key : Bytes} {gc gs : Config} {k : Choice}
    {c s : Conn} (L : Library E kex sign key k) (hu : k.suite ∈ [0x1301, 0x1302, 0x1303])
    (h : Established c s gc gs k) (hc : c.outputData = []) (hs : s.outputData = []) :
    Undetected E c (E.elsewhere kex sign) s :=
  undetected (C81_farewell L hu h hc hs)

/-- C82. Whatever a connected connection and one whose peer closed go through, bytes received included,
they return, raise and report the same. -/
theorem C82_alike {c : Conn} (h : c.state = .connected) (ops : List Op) :
    watch E ops { c with state := .closed true true } = watch E ops c :=
  watch_shut ops (by simp [Conn.shut, h, St.shut])

/-- C82. A `receive_data` that returns without new data for the program leaves no trace that the
program could find by other calls, whatever the peer sent. -/
theorem C82_silent {c c' : Conn} {d : Bytes} (hs : c.state = .connected)
    (h : (Op.receive d).run E c = (.ok [], c')) (ha : c'.applicationData = c.applicationData) :
    ∀ ops, Offline ops → watch E ops c' = watch E ops c := by
  intro ops ho
  refine (watch_blur ops ho (receive_blur ?_ h ha).symm (by rw [hs]; rfl)).symm
  unfold Conn.Opened
  rw [hs]
  rfl

namespace Toy

/-- the two toys after their handshake -/
theorem established : ∃ c s, Library env otherKex env.sign (serverConfig.privateKey.getD []) choice ∧
      Established c s clientConfig serverConfig choice ∧ c.outputData = [] ∧ s.outputData = [] := by
  obtain ⟨c₁, s₁, -, -, n1, h3⟩ := C77_handshake presentable compatible
    (library _ (.inl rfl)) Vouched.off rfl (algsC := [.sha256, .sha384]) (algsS := [.sha256])
    (randomC := List.replicate 32 5) (randomS := List.replicate 32 6)
    ⟨by decide, fun a => by cases a <;> decide⟩ rfl ⟨by decide, fun a => by cases a <;> decide⟩ rfl rfl
    (by decide) client0_new server0_new
  obtain ⟨s₂, -, n2, h5⟩ := h3 _ (cuts n1)
  obtain ⟨c₂, -, -, n3, h7⟩ := h5 _ (cuts n2)
  obtain ⟨s₃, -, h9, h, -⟩ := h7 _ (cuts n3)
  exact ⟨(Op.drain.run env c₂).2, s₃, library _ (.inl rfl),
    ⟨h.states, h.inputs, h.app, h.limits, h.agreed, h.randoms, h.transcripts, h.keys⟩, rfl, h9⟩

theorem silent : Civil [] := ⟨by simp, by simp, fun _ => trivial⟩

end Toy

/-- C82. The full statement is false. -/
theorem C82_false : ¬ C82_statement := by
  intro H
  obtain ⟨c, s, L, h, hc, hs⟩ := Toy.established
  obtain ⟨n, o, k, hk⟩ := closing_of (E := Toy.env) (E' := Toy.env.elsewhere Toy.otherKex Toy.env.sign)
    (a := c) (b := s) true Toy.silent (by simp) ⟨hc, rfl⟩
  obtain ⟨ops, h1, h2⟩ := H L (by decide) h hc hs true [] n o k hk
  exact h2 ((C82_undetected L (by decide) h hc hs true [] n o k hk).2 ops h1)

/-- The hypotheses of `C82_undetected` and of `Undetected` are met: by the client closing and by the
server closing. -/
example : ∃ c s, Library Toy.env Toy.otherKex Toy.env.sign (Toy.serverConfig.privateKey.getD []) Toy.choice ∧
    Established c s Toy.clientConfig Toy.serverConfig Toy.choice ∧ c.outputData = [] ∧ s.outputData = [] ∧
    ∀ side, ∃ n o k, Closing Toy.env c (Toy.env.elsewhere Toy.otherKex Toy.env.sign) s side [] n o k := by
  obtain ⟨c, s, L, h, hc, hs⟩ := Toy.established
  refine ⟨c, s, L, h, hc, hs, fun side => closing_of side Toy.silent (by simp) ?_⟩
  cases side
  · exact ⟨hs, rfl⟩
  · exact ⟨hc, rfl⟩

/-- The hypotheses of `C82_silent` and `C82_alike` are met: by a connection that receives a
close_notify. -/
example : ∃ c c', c.state = .connected ∧ (Op.receive [21, 3, 3, 0, 2, 1, 0]).run Toy.env c = (.ok [], c') ∧
    c'.applicationData = c.applicationData ∧ c'.state = .closed true true ∧
    Offline [.closeRecv, .send [1], .drain] :=
  ⟨{ Toy.client0 with state := .connected },
    ((Op.receive [21, 3, 3, 0, 2, 1, 0]).run Toy.env { Toy.client0 with state := .connected }).2,
    rfl, Prod.ext (by decide +kernel) rfl, by decide +kernel, by decide +kernel, by simp [Offline]⟩

end Siotls
