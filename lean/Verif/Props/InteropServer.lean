import Verif.Proofs.InteropServer
import Verif.Props.Interop
/-!
# Property C113: a server completes the handshake with conforming clients of any make
-/

namespace Siotls
open Spec Serial

variable {E : Env}

/-- C113. Let a server wait. Whatever client sends its ClientHello, if it follows RFC 8446 and has what
the server prefers, the server digests the bytes however they are cut and replies as the RFC asks. When
the client then sends the RFC's Finished, with or without change_cipher_spec and with any padding, the
server digests it however it is cut, waits for the last byte, and is connected with the RFC's keys. -/
theorem C113_server {gs : Config} {k : Choice} {algs ds : List HashAlg} {random priv share z : Bytes}
    {s₀ : Conn} {h : Opening} (hs : E.Sized) (ho : E.Opens) (hS : E.Seals) (hA : Admits E gs k priv share)
    (hds : suiteDigests gs.cipherSuites = .ok ds) (has : IsSetOrder algs ds) (hr : random.length = 32)
    (hs₀ : Conn.new gs none false algs random = .ok s₀) (hP : Proposes E gs k h)
    (hz : E.kexResume k.group priv h.share = .ok z) (hz' : z ≠ []) :
    ∃ (info : SuiteInfo) (s₁ : Conn) (y : Reply), suiteInfo k.suite = some info ∧
      Op.initiate.run E s₀ = (.ok [], s₁) ∧ y.random = random ∧ Responds E gs info k h share z y ∧
      Waits E h.bytes s₁ ∧
      ∀ xs, Cuts xs h.bytes → ∃ s₂, feed E xs s₁ = (.ok (), s₂) ∧
        s₂.outputData = y.bytes E info h.msg z ∧
        ∀ (fin : Bytes) (pad : Nat) (ccs : Bool), Finishes E info h y z fin →
          fin.length + 1 + pad + info.tagLength ≤ 16384 + 256 →
          Waits E ((if ccs then recordBytes 20 [1] else []) ++
            sealedUnder E info (y.theirSecret E info h z) 0 22 fin pad) (Op.drain.run E s₂).2 ∧
          ∀ ws, Cuts ws ((if ccs then recordBytes 20 [1] else []) ++
              sealedUnder E info (y.theirSecret E info h z) 0 22 fin pad) →
            ∃ s₃, feed E ws (Op.drain.run E s₂).2 = (.ok (), s₃) ∧ Admitted E info k h y z s₃ := by
  have hmS := (MflInv.fresh (E := E) hs₀ (by rw [hA.limit]; decide)).run [.initiate]
  obtain ⟨hne, _, rfl⟩ := new_server hs₀ hA.side
  obtain ⟨info, lim, hinfo, hid, hsl, hlim⟩ := suite_works hA.usable
  have W : Works E info lim := ⟨hs, ho, hS, by rw [hid]; exact hinfo, hlim⟩
  have hsuite : gs.cipherSuites.find? h.suites.contains = some k.suite :=
    find_preferred hP.suite fun y => by simp
  have hdig : info.digest ∈ algs :=
    (has.2 _).mpr (suiteDigests_mem hds (List.mem_of_find?_eq_some hsuite) hinfo)
  obtain ⟨hreg', hsmall⟩ := fit_known (by obtain ⟨_, _, _, _, _, h, _⟩ := hP.scheme; exact h.1)
  have hx := hP.clientHello.2.2.1
  obtain ⟨mode, m1, m2⟩ := heartbeat_found hx
  obtain ⟨p, p1, p2⟩ := protocol_found hx hP.protocol
  have hreg := group_registered hA.group
  have hp : ∀ b, p = some b → b.length < 256 := by
    intro b hb
    obtain ⟨ps, -, h2⟩ := p2 b hb
    exact hA.names b (List.mem_of_find?_eq_some h2)
  obtain ⟨f, F⟩ := flies_exist_any (E := E) (sign := E.sign) (echo := gs.canEchoHeartbeat) (mode := mode)
    (d := 1) (staple := none) (ch := h.msg) (z := z) (p := p) (chain := k.leaf :: k.rest) (sid := h.sid)
    (key := gs.privateKey.getD []) W hr (by rw [hid]; exact hsl) (kex_small hreg) hsmall
    (by have := hP.sid; omega) hA.generates.2 hp (by exact hA.small) hA.signs
  obtain ⟨sig, hsig, hcv⟩ := F.cv
  have hcut : Cut h.msg h.pieces := by
    obtain ⟨h1, h2, first, rest, h3, h4⟩ := hP.cut
    exact ⟨h1, ⟨first, rest, h3, h4, fun g hg => (h2 g (by rw [h3]; exact List.mem_cons_of_mem _ hg)).1⟩,
      fun g hg => (h2 g hg).2⟩
  have hwire : h.bytes = wireOf (h.pieces.map fun f => (22, f)) := by
    simp [Opening.bytes, wireOf, Function.comp_def]
  let s₁ : Conn :=
    { config := gs, hostname := none, hasOcsp := false, nconfig := none, cipher := none,
      signature := none, transcript := ⟨algs.map (·, []), 1⟩, inputData := [], inputHandshake := [],
      outputData := [], applicationData := [], clientUnique := none, serverUnique := some random,
      state := .serverWaitCH true, draws := 0, tr := [] }
  have hdS : Digests E (s₁.fed h.bytes) _ :=
    server_digest_any (r := s₁.fed h.bytes) (f := f) (algs := algs) (random := random)
      (crandom := h.random) (suites := h.suites) (leaf := k.leaf) (rest := k.rest) (sid := h.sid)
      (scheme := k.scheme) (z := z) (mine := share) (staple := none) (j := 0) W hA.side rfl
      (by rw [hid]; exact hsuite) rfl rfl rfl rfl hdig hA.limit rfl (.off (.inl rfl)) hP.clientHello.1
      hP.clientHello.2 hcut hwire (proposes_offer hA hP hz hz' p1 m1) F
  let y : Reply :=
    { random := random, suite := k.suite, hello := helloExts k.group share, share := share
      encrypted := answerExts p mode gs.canEchoHeartbeat, leaf := k.leaf, rest := k.rest
      scheme := k.scheme, sig := sig, sh := f.sh, ee := f.ee, ct := f.ct, cv := f.cv, fin := f.fin
      ccs := true
      pad := fun n => padLength 16384 (match n with
        | 0 => f.ee | 1 => f.ct | 2 => f.cv | _ => f.fin).length info.tagLength }
  have hbytes : f.bytes E info z (E.hash info.digest (f.upTo h.msg 1)) = y.bytes E info h.msg z := by
    unfold Flight.bytes Reply.bytes
    rw [hsRecord_server, hsRecord_server, hsRecord_server, hsRecord_server]
    rfl
  have halpn : ∀ q, p = some q ↔ .alpn [q] ∈ y.encrypted := by
    intro q
    show _ ↔ _ ∈ answerExts p mode gs.canEchoHeartbeat
    cases p <;> cases mode <;> simp [answerExts, alpnAnswer, hbAnswer] <;> exact ⟨Eq.symm, Eq.symm⟩
  have hasked : ∀ e ∈ y.encrypted, Rfc.extensionCode e ∈ h.exts.map Rfc.extensionCode := by
    intro e he
    rcases List.mem_append.mp (show e ∈ alpnAnswer p ++ hbAnswer mode gs.canEchoHeartbeat from he) with he | he
    · cases p with
      | none => cases he
      | some b =>
        obtain ⟨ps, h1, -⟩ := p2 b rfl
        rw [List.mem_singleton.mp he]
        exact List.mem_map.mpr ⟨_, h1, rfl⟩
    · cases mode with
      | none => cases he
      | some m =>
        rw [List.mem_singleton.mp he]
        exact List.mem_map.mpr ⟨_, (m2 m).mp rfl, rfl⟩
  have hproto : ∀ ps, .alpn ps ∈ y.encrypted →
      ∃ p l, ps = [p] ∧ .alpn l ∈ h.exts ∧ Preferred gs.alpn (· ∈ l) p := by
    intro ps he
    rcases List.mem_append.mp (show _ ∈ alpnAnswer p ++ hbAnswer mode gs.canEchoHeartbeat from he) with he | he
    · cases p with
      | none => cases he
      | some b =>
        obtain ⟨l, h1, h2⟩ := p2 b rfl
        cases List.mem_singleton.mp he
        exact ⟨b, l, rfl, h1, preferred_find h2 fun y => by simp⟩
    · cases mode with
      | none => cases he
      | some m => cases List.mem_singleton.mp he
  have hbroken : ∀ e ∈ y.encrypted, asciiLike E e ∧ knownBroken e = false := by
    intro e he
    rcases List.mem_append.mp (show e ∈ alpnAnswer p ++ hbAnswer mode gs.canEchoHeartbeat from he) with he | he
    · cases p with
      | none => cases he
      | some b => rw [List.mem_singleton.mp he]; exact ⟨trivial, rfl⟩
    · cases mode with
      | none => cases he
      | some m => rw [List.mem_singleton.mp he]; exact ⟨trivial, rfl⟩
  have hsh : serHandshake E (.serverHello random h.sid k.suite (helloExts k.group share)) = .ok f.sh := by
    rw [← hid]; exact F.sh
  have hresp : Responds E gs info k h share z y := {
    serverHello := (message_ok (by simpa [Rfc.RightRandom] using hr)
      (by simp [Rfc.extensionsOf, y, helloExts, asciiLike, knownBroken])).mp hsh
    version := by simp [y, helloExts, Iana.tls13]
    share := by simp [y, helloExts]
    twoExtensions := rfl
    encryptedExtensions := (message_ok (h := .encryptedExtensions y.encrypted) trivial hbroken).mp F.ee
    asked := hasked
    protocol := hproto
    certificate := (message_ok (by simp [Rfc.RightRandom]) (by simp [Rfc.extensionsOf])).mp F.ct
    certificateVerify := (message_ok (by simp [Rfc.RightRandom]) (by simp [Rfc.extensionsOf])).mp hcv
    signature := by
      have := hsig
      rw [signedContent_eq] at this
      exact this
    finished := (message_ok (h := .finished _) trivial (by simp [Rfc.extensionsOf])).mp F.fin }
  refine ⟨info, s₁, y, hinfo, rfl, rfl, hresp, feed_waits hmS rfl rfl hdS, fun xs hxs => ?_⟩
  obtain ⟨tS, hfS⟩ := feed_digests (r := s₁) hmS rfl hdS hxs.2.1 hxs.2.2 hxs.1
  let s₂ : Conn := { s₁ with
    nconfig := some (serverDealAny { NConfig.new with cipherSuite := some info.id } gs k.group p mode
      (findExt h.exts Iana.extStatusRequest).isSome)
    clientUnique := some h.random
    signature := some (k.scheme, gs.privateKey.getD [])
    cipher := some (hsCipher E info .server z (E.hash info.digest (f.upTo h.msg 1)) 4 0)
    transcript := ⟨[(info.digest, f.upTo h.msg 5)], 8⟩
    outputData := f.bytes E info z (E.hash info.digest (f.upTo h.msg 1))
    draws := 2
    state := .serverWaitFin (E.hash info.digest (f.upTo h.msg 5))
    tr := tS }
  have hfS : feed E xs s₁ = (.ok (), s₂) := hfS
  have hmS₂ := hmS.feed hfS
  refine ⟨s₂, hfS, hbytes, fun fin pad ccs hfin hl => ?_⟩
  let s₂' : Conn := { s₂ with outputData := [] }
  have hdr : (Op.drain.run E s₂).2 = s₂' := rfl
  have hmS₂' : MflInv E s₂' := ⟨hmS₂.config, hmS₂.negotiated, hmS₂.parsed⟩
  have hd : Digests E (s₂'.fed ((if ccs then recordBytes 20 [1] else []) ++
      sealedUnder E info (y.theirSecret E info h z) 0 22 fin pad)) _ :=
    server_digest_finished_any (r := s₂'.fed _) (f := f) (ch := h.msg) (pad := pad) (ccs := ccs) W hA.side rfl
      (by simp [serverDealAny, hA.limit]) rfl rfl rfl rfl hfin hl rfl
  rw [hdr]
  refine ⟨feed_waits hmS₂' rfl rfl hd, fun ws hws => ?_⟩
  obtain ⟨t', hf⟩ := feed_digests (r := s₂') hmS₂' rfl hd hws.2.1 hws.2.2 hws.1
  refine ⟨_, hf, rfl, ⟨rfl, rfl, rfl, rfl⟩,
    ⟨_, rfl, congrArg some hid, rfl, ⟨p, rfl, halpn⟩, _, rfl, ?_⟩, ⟨_, rfl, rfl, rfl, rfl⟩⟩
  rw [← m2]
  simp [Iana.peerAllowedToSend]

namespace Toy

/-- A client unlike the library: a session id, no word on heartbeats, several versions and shares, an
unknown extension and unknown suites, in an order of its own. -/
def otherExts : List Ext :=
  [.unknown 2570 [], .keyShareReq [(2570, [0]), (0x1d, [9])], .signatureAlgorithms [0x0403, 0x0807],
    .supportedVersionsReq [0x7a7a, 0x0304, 0x0303], .alpn [[104, 50]], .supportedGroups [2570, 0x1d, 0x17]]

def otherHello (msg : Bytes) : Opening where
  random := List.replicate 32 8
  sid := [1, 2, 3, 4]
  suites := [0x0a0a, 0x1303, 0x1301]
  exts := otherExts
  share := [9]
  msg := msg
  pieces := [msg.take 5, msg.drop 5]

theorem other_proposes : ∃ msg, Proposes env serverConfig choice (otherHello msg) := by
  obtain ⟨msg, hser, h5, hl⟩ : ∃ msg, serHandshake env (.clientHello (List.replicate 32 8) [1, 2, 3, 4]
      [0x0a0a, 0x1303, 0x1301] otherExts) = .ok msg ∧ 5 < msg.length ∧ msg.length ≤ 300 :=
    ⟨_, rfl, by decide, by decide⟩
  refine ⟨msg, {
    clientHello := ⟨(message_ok (by simp [Rfc.RightRandom, otherHello])
      (by simp [Rfc.extensionsOf, otherHello, otherExts, asciiLike, knownBroken])).mp hser, ?_⟩
    sid := by simp [otherHello]
    suite := ⟨[], [0x1303], rfl, by simp [otherHello, choice], by simp⟩
    version := ⟨_, by simp [otherHello, otherExts]; rfl, by simp⟩
    group := ⟨[2570, 0x1d, 0x17], by simp [otherHello, otherExts], [], [], rfl, by simp [choice], by simp⟩
    share := ⟨[(2570, [0]), (0x1d, [9])], by simp [otherHello, otherExts], by simp [otherHello, choice]⟩
    scheme := ⟨[0x0403, 0x0807], by simp [otherHello, otherExts], [], [], rfl,
      ⟨.ed25519, by simp [choice]⟩, by simp⟩
    protocol := fun _ _ => .inl rfl
    plain := by simp [otherHello, otherExts, Rfc.extensionCode]
    cut := ⟨by simp [otherHello], ?_, _, _, rfl, by simp; omega⟩ }⟩
  · exact ⟨by simp [otherHello], ⟨by simp [otherHello, otherExts, Rfc.extensionCode], by
      simp [otherHello, otherExts, legal, allowedIn]⟩, by simp [otherHello, otherExts, Rfc.extensionCode]⟩
  · have h1 : (msg.take 5).length = 5 := by simp; omega
    have h2 : (msg.drop 5).length = msg.length - 5 := by simp
    intro p hp
    rcases List.mem_cons.mp hp with rfl | hp
    · exact ⟨(by intro h; rw [h] at h1; simp at h1), by omega⟩
    · rw [List.mem_singleton.mp hp]
      exact ⟨(by intro h; rw [h] at h2; simp at h2; omega), by omega⟩

theorem admits : Admits env serverConfig choice [1] [1] where
  side := rfl
  chain := rfl
  anonymous := ⟨rfl, rfl⟩
  limit := rfl
  usable := by simp [choice]
  group := .x25519
  names := by simp [serverConfig]
  small := by decide
  generates := ⟨rfl, by decide⟩
  signs := fun msg => ⟨_, rfl, by simp [serverConfig, length_beEnc]⟩

end Toy

/-- The hypotheses are met by a client unlike the library, and its Finished gets it in. -/
example : ∃ (d w : Bytes) (s₁ s₂ s₃ : Conn), Op.initiate.run Toy.env Toy.server0 = (.ok [], s₁) ∧
    feed Toy.env [d] s₁ = (.ok (), s₂) ∧
    feed Toy.env [w] (Op.drain.run Toy.env s₂).2 = (.ok (), s₃) ∧ s₃.state = .connected := by
  obtain ⟨msg, hP⟩ := Toy.other_proposes
  obtain ⟨info, s₁, y, hi, h1, -, -, -, h⟩ := C113_server (E := Toy.env) (gs := Toy.serverConfig)
    (k := Toy.choice) (algs := [.sha256]) (ds := [.sha256, .sha256]) (random := List.replicate 32 6)
    (s₀ := Toy.server0) (h := Toy.otherHello msg) Toy.sized Toy.opens Toy.seals Toy.admits rfl
    ⟨by decide, fun a => by cases a <;> decide⟩ (by decide) rfl hP (z := xorBytes [1] [9] ++ [1]) rfl (by simp)
  cases hi
  obtain ⟨s₂, h2, -, h⟩ := h [(Toy.otherHello msg).bytes] ⟨by simp, by simp, by
    simp [Opening.bytes, Toy.otherHello, recordBytes]⟩
  obtain ⟨fin, hfin, lfin⟩ := (finished_writes (E := Toy.env) (mac := Toy.env.hmac .sha256
    ((Toy.env.spec .sha256).finishedKey ((Toy.env.spec .sha256).cHs (xorBytes [1] [9] ++ [1])
      (Toy.env.hash .sha256 ((Toy.otherHello msg).msg ++ y.sh))))
      (Toy.env.hash .sha256 (y.upToFinished (Toy.otherHello msg)))) (by rw [Toy.sized.hmac]; decide)).get
  rw [Toy.sized.hmac] at lfin
  obtain ⟨-, h⟩ := h fin 77 false ((message_ok (h := .finished _) trivial (by simp [Rfc.extensionsOf])).mp hfin)
    (by have : HashAlg.size .sha256 = 32 := rfl
        show fin.length + 1 + 77 + 16 ≤ 16384 + 256
        omega)
  obtain ⟨s₃, h3, h4⟩ := h [_] ⟨by rw [List.flatten_singleton], by simp, by simp [sealedUnder, recordBytes]⟩
  exact ⟨_, _, s₁, s₂, s₃, h1, h2, h3, h4.state⟩

end Siotls
