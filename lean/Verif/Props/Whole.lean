import Verif.Proofs.Whole
import Verif.Props.Talkers
/-!
# C87: a message that fits in one record arrives whole
-/

namespace Siotls
open Spec

variable {E : Env}

/-- C87. Two connections that completed the handshake. However the programs send messages of at most
16366 bytes, read, hand over bytes in pieces of any size and close: what an end has got and could read
now is made of whole messages of the other, from the first one on. -/
theorem C87_unbroken {kex : Nat → Nat → Except Exn (Bytes × Bytes)}
    {sign : Nat → Bytes → Bytes → Nat → Except Exn Bytes} {key : Bytes} {gc gs : Config} {k : Choice}
    {c s : Conn} (L : Library E kex sign key k) (hu : k.suite ∈ [0x1301, 0x1302, 0x1303])
    (h : Established c s gc gs k) (hc : c.outputData = []) (hs : s.outputData = []) :
    Unbroken E c (E.elsewhere kex sign) s := by
  obtain ⟨info, lim, hinfo, hid, _, hlim⟩ := suite_works hu
  have W : Works E info lim := ⟨L.sized, L.opens, L.seals, by rw [hid]; exact hinfo, hlim⟩
  intro ms hms
  obtain ⟨-, n, n', ha, hb, M⟩ := met W (W.elsewhere (kex := kex) (sign := sign)) rfl hid h hc hs ms hms
  rw [messagesBy_eq, messagesBy_eq] at M
  exact ⟨M.there.begins, M.back.begins⟩

/-- C87. Two wrapped sockets whose connections are established: every `read` that returns gives some
messages the peer wrote, none of them in part, that follow those given before. -/
theorem C87_undivided {kex : Nat → Nat → Except Exn (Bytes × Bytes)}
    {sign : Nat → Bytes → Bytes → Nat → Except Exn Bytes} {key : Bytes} {gc gs : Config} {k : Choice}
    {a b : Wrapped} (L : Library E kex sign key k) (hu : k.suite ∈ [0x1301, 0x1302, 0x1303])
    (h : Established a.conn b.conn gc gs k) (ha : a.conn.outputData = []) (hb : b.conn.outputData = []) :
    Undivided E a (E.elsewhere kex sign) b :=
  undivided (C81_farewell L hu h ha hb) (C87_unbroken L hu h ha hb) h.app.1 h.app.2 ha hb

/-- The hypotheses of `C87_unbroken` and `C87_undivided` are met by the two toys, and there are
conversations with messages of both ends. -/
example : (∃ a b : Wrapped, Library Toy.env Toy.otherKex Toy.env.sign (Toy.serverConfig.privateKey.getD []) Toy.choice ∧
      Established a.conn b.conn Toy.clientConfig Toy.serverConfig Toy.choice ∧ a.conn.outputData = [] ∧
      b.conn.outputData = []) ∧
    writtenBy true Toy.letters = [[1, 2, 3], [5]] ∧ writtenBy false Toy.letters = [[4], [6, 7]] ∧
    sentBy false Toy.partings = [[4], [5, 6]] := by
  refine ⟨?_, rfl, rfl, rfl⟩
  obtain ⟨H, n1, h1⟩ := C83_handshake Toy.presentable Toy.compatible
    (Toy.library _ (.inl rfl)) Vouched.off rfl (algsC := [.sha256, .sha384]) (algsS := [.sha256])
    (randomC := List.replicate 32 5) (randomS := List.replicate 32 6)
    ⟨by decide, fun a => by cases a <;> decide⟩ rfl ⟨by decide, fun a => by cases a <;> decide⟩ rfl rfl
    (by decide) Toy.client0_new Toy.server0_new
  obtain ⟨F, n2, h2⟩ := h1 [H] (Toy.cuts n1)
  obtain ⟨Z, n3, h3⟩ := h2 [F] (Toy.cuts n2)
  obtain ⟨-, -, -, -, wc, ws, -, -, -, -, -, -, h4, h5, h6⟩ := h3 [Z] (Toy.cuts n3) _ _ (Toy.reel_carries [F])
    (Toy.reel_carries [H, Z])
  exact ⟨wc, ws, Toy.library _ (.inl rfl), h6, h4, h5⟩

/-- What `Among` excludes: a part of a message. -/
example : Among [4, 5] 1 [[1, 2], [4, 5], [6]] ∧ ¬ Among [4] 1 [[1, 2], [4, 5], [6]] := by
  refine ⟨⟨1, rfl⟩, fun ⟨j, h⟩ => ?_⟩
  rcases j with _ | _ | j <;> simp at h

end Siotls
