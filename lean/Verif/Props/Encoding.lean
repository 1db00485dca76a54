import Verif.Proofs.Sent
import Verif.Props.Messages
import Verif.Props.Answers
/-!
# Property C103: messages are laid out as RFC 8446 says

The layouts are those of `Spec/Encoding.lean`. Properties C04 and C05 only say that the library
understands itself; here what it writes is what the RFCs prescribe, and whatever a conforming
peer writes is read as meant, also where the library cannot write such a message itself.
-/

namespace Siotls
open Serial Spec.Rfc

/-- C103, the full statement about writing, false of the code: the only reason not to write an
extension with a legal value is that it does not fit, and what is written is the RFC's layout. -/
def C103_statement (E : Env) : Prop := ∀ (e : Ext), Spec.legal E e →
  (serExt E e = .error .overflow ∧ ∀ out, ¬ Extension E e out) ∨
  ∃ out, serExt E e = .ok out ∧ Extension E e out

/-- C103, extensions written: the bytes of an extension are the RFC's, and an extension that has
an encoding is written. Missing: certificate types and pre-shared keys (`knownBroken`, see
`C04_false_cert_type` and `C04_false_psk`) and server names whose IDNA encoding is not as long as
the name (see `C58_exact`). -/
theorem C103_extension_partial (E : Env) (e : Ext) (hi : Spec.asciiLike E e)
    (hb : Spec.knownBroken e = false) (out : Bytes) : serExt E e = .ok out ↔ Extension E e out :=
  ext_ok hi hb

/-- C103, messages written: the bytes of a message are the RFC's, and a message that has an
encoding is written. Missing: messages with the extensions above. -/
theorem C103_message_partial (E : Env) (h : Handshake) (hr : RightRandom h)
    (he : ∀ e ∈ extensionsOf h, Spec.asciiLike E e ∧ Spec.knownBroken e = false) (out : Bytes) :
    serContent E (.handshake h) = .ok out ↔ Message E h out :=
  message_ok hr he

/-- C103, messages sent: whatever the configuration, the library and the history of a connection,
each handshake message that it sent was written as RFC 8446 says. The server's random is drawn as
32 bytes (connection.py:64); the name of the server is one that has an IDNA encoding as long as
itself, such as any ASCII name (`C58_exact` is about the others). -/
theorem C103_sent_partial {E : Env} {config : Config} {hostname ocsp algs random} {c : Conn}
    (h : Conn.new config hostname ocsp algs random = .ok c) (hr : random.length = 32)
    (hn : ∀ n enc, hostname = some n → E.idnaEncode n = .ok enc → enc.length = n.length)
    (ops : List Op) (m : Handshake) (hm : Ev.sent (.handshake m) ∈ (runOps E ops c).tr) :
    ∃ out, serContent E (.handshake m) = .ok out ∧ Message E m out := by
  obtain ⟨post, pre, ht⟩ := List.append_of_mem hm
  obtain ⟨c₀, hg, hc, -⟩ := GuardInv.at h ops ht
  obtain ⟨⟨out, ho⟩, hu, hcl⟩ := (WroteInv.run (E := E) h ops).trace (.sent (.handshake m)) pre
    (by rw [ht]; exact List.suffix_append _ _)
  refine ⟨out, ho, (message_ok (hg.random fun r sid s e he => ?_) fun e he => ?_).mp ho⟩
  · rw [hu r sid s e he]; exact hr
  · obtain ⟨b, hb⟩ := serContent_mem ho e he
    have hw := hg.ours (fun r sid s x hx => (hc.client (hcl r sid s x hx)).2) e he
    exact ⟨hw.ascii hn, hw.works hb⟩

/-- the hypotheses are met: a server that sent a CertificateRequest -/
example : ∃ ctx exts out, Ev.sent (.handshake (.certificateRequest ctx exts)) ∈
    (runOps Toy.env [.initiate, .receive Toy.hello] Toy.asker0).tr ∧
    Message Toy.env (.certificateRequest ctx exts) out := by
  obtain ⟨post, ctx, pre, h⟩ := Toy.split_ask Toy.ask_facts
  have hm : Ev.sent (.handshake (.certificateRequest ctx [.signatureAlgorithms [1027, 2055]])) ∈
    (runOps Toy.env [.initiate, .receive Toy.hello] Toy.asker0).tr := by rw [h]; simp
  obtain ⟨out, _, ho⟩ := C103_sent_partial Toy.asker0_new rfl (by intro n enc h; cases h) _ _ hm
  exact ⟨ctx, _, out, hm, ho⟩

/-- C103, extensions read: an extension that a conforming peer wrote is read as meant, whatever
follows it. No extension is left out: not certificate types, pre-shared keys or international
server names. -/
theorem C103_extension_read (E : Env) (k : HsKind) (e : Ext) (hl : Spec.legal E e)
    (hk : k ∈ Spec.allowedIn e) (out : Bytes) (h : Extension E e out) (trailing : Bytes) (pos : Nat) :
    parseExt E k ⟨out ++ trailing, pos, []⟩ = .ok (e, ⟨trailing, pos + out.length, []⟩) :=
  (readExt hl hk h).run trailing pos

/-- C103, messages read: a message that a conforming peer wrote is read as meant. -/
theorem C103_message_read (E : Env) (ct : Option (Option Nat)) (h : Handshake)
    (hg : PeerMessage E ct h) (out : Bytes) (hm : Message E h out) :
    decodeContent E ct 22 out = .ok (.handshake h) :=
  decodeContent_of_parses (Parses.bind_pure (readMessage hg hm) rfl)

/-- C103: an encoding stands for one extension only, where the library may read it. -/
theorem C103_unambiguous (E : Env) (k : HsKind) (e e' : Ext) (hl : Spec.legal E e)
    (hl' : Spec.legal E e') (hk : k ∈ Spec.allowedIn e) (hk' : k ∈ Spec.allowedIn e') (out : Bytes)
    (h : Extension E e out) (h' : Extension E e' out) : e = e' := by
  have h1 := C103_extension_read E k e hl hk out h [] 0
  rw [C103_extension_read E k e' hl' hk' out h' [] 0] at h1
  cases h1
  rfl

/-- one byte -/
theorem num1 (x : UInt8) : Num 1 x.toNat [x] := ⟨rfl, by simp [Spec.bigEndian]⟩

/-- the certificate types that RFC 7250 lets a client offer: X.509 and raw public keys -/
theorem certTypes_layout (E : Env) :
    Extension E (.serverCertTypeReq [0, 2]) [0, 20, 0, 3, 2, 0, 2] := by
  refine ⟨[2, 0, 2], ⟨[0, 2], ⟨[0], [2], num1 0, ⟨[2], [], num1 2, rfl, rfl⟩, rfl⟩, [2], num1 2, rfl⟩, ?_⟩
  exact ⟨[0, 20], _, ⟨rfl, rfl⟩, ⟨[0, 3], ⟨rfl, rfl⟩, rfl⟩, rfl⟩

/-- C103 is false: RFC 7250's extension has an encoding that the library reads, but does not
write. -/
theorem C103_false (E : Env) : ¬ C103_statement E := by
  intro h
  rcases h (.serverCertTypeReq [0, 2]) (by simp [Spec.legal]) with ⟨h, _⟩ | ⟨out, h, _⟩ <;>
  · rw [(C04_false_cert_type E [0, 2] 0).2.1] at h
    cases h

example : parseExt Toy.env .clientHello ⟨[0, 20, 0, 3, 2, 0, 2] ++ [9], 5, []⟩ =
    .ok (.serverCertTypeReq [0, 2], ⟨[9], 12, []⟩) :=
  C103_extension_read _ _ _ (by simp [Spec.legal]) (by decide) _ (certTypes_layout _) _ _

/-- a pre-shared key, which the library cannot write either -/
example : parseExt Toy.env .clientHello
    ⟨[0, 41, 0, 15, 0, 7, 0, 1, 7, 0, 0, 0, 5, 0, 4, 3, 9, 9, 9], 0, []⟩ =
    .ok (.pskReq [([7], 5)] [[9, 9, 9]], ⟨[], 19, []⟩) := by
  refine C103_extension_read Toy.env .clientHello (.pskReq [([7], 5)] [[9, 9, 9]]) trivial (by decide)
    [0, 41, 0, 15, 0, 7, 0, 1, 7, 0, 0, 0, 5, 0, 4, 3, 9, 9, 9] ?_ [] 0
  refine ⟨[0, 7, 0, 1, 7, 0, 0, 0, 5, 0, 4, 3, 9, 9, 9], ?_, [0, 41], _, ⟨rfl, rfl⟩,
    ⟨[0, 15], ⟨rfl, rfl⟩, rfl⟩, rfl⟩
  refine ⟨[0, 7, 0, 1, 7, 0, 0, 0, 5], [0, 4, 3, 9, 9, 9], ?_, ?_, rfl⟩
  · exact ⟨[0, 1, 7, 0, 0, 0, 5], ⟨_, [], ⟨[0, 1, 7], [0, 0, 0, 5], ⟨[0, 1], ⟨rfl, rfl⟩, rfl⟩,
      ⟨rfl, rfl⟩, rfl⟩, rfl, rfl⟩, [0, 7], ⟨rfl, rfl⟩, rfl⟩
  · exact ⟨[3, 9, 9, 9], ⟨_, [], ⟨[3], ⟨rfl, rfl⟩, rfl⟩, rfl, rfl⟩, [0, 4], ⟨rfl, rfl⟩, rfl⟩

/-- an international server name of a conforming client (`C58_false` is about those of the
library) -/
example : parseExt idnEnv .clientHello
    ⟨[0, 0, 0, 10, 0, 8, 0, 0, 5, 120, 110, 45, 45, 57], 0, []⟩ =
    .ok (.serverNameReq (some ['é']), ⟨[], 14, []⟩) := by
  refine C103_extension_read idnEnv .clientHello (.serverNameReq (some ['é']))
    ⟨[120, 110, 45, 45, 57], by decide, by decide⟩ (by decide)
    [0, 0, 0, 10, 0, 8, 0, 0, 5, 120, 110, 45, 45, 57] ?_ [] 0
  refine ⟨[0, 8, 0, 0, 5, 120, 110, 45, 45, 57], ?_, [0, 0], _, ⟨rfl, rfl⟩,
    ⟨[0, 10], ⟨rfl, rfl⟩, rfl⟩, rfl⟩
  exact ⟨[120, 110, 45, 45, 57], by decide, [0, 0, 5, 120, 110, 45, 45, 57],
    ⟨_, [], ⟨[0], [0, 5, 120, 110, 45, 45, 57], ⟨rfl, rfl⟩, ⟨[0, 5], ⟨rfl, rfl⟩, rfl⟩, rfl⟩, rfl, rfl⟩,
    [0, 8], ⟨rfl, rfl⟩, rfl⟩

/-- the ClientHello of `demoHello` is laid out as the RFC says, and is one that a peer may send -/
theorem demoHello_layout : ∃ out, serContent Toy.env (.handshake demoHello) = .ok out ∧
    Message Toy.env demoHello out ∧ PeerMessage Toy.env none demoHello := by
  obtain ⟨hr, hs, hd, he⟩ := demoHello_good
  refine ⟨_, rfl, (C103_message_partial Toy.env demoHello hr
    (fun e h => ⟨(he e h).ascii, (he e h).works⟩) _).mp rfl, hs, ⟨?_, fun e h => ⟨(he e h).legal,
      (he e h).allowed⟩⟩, ?_⟩
  · decide
  · decide

example : ∃ out, Message Toy.env demoHello out ∧
    decodeContent Toy.env none 22 out = .ok (.handshake demoHello) := by
  obtain ⟨out, _, h, hp⟩ := demoHello_layout
  exact ⟨out, h, C103_message_read _ _ _ hp _ h⟩

end Siotls
