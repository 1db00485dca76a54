import Verif.Proofs.Interop
import Verif.Props.EndToEnd
/-!
# Property C112: a client completes the handshake with conforming servers of any make
-/

namespace Siotls
open Spec Serial

variable {E : Env}

/-- C112. Let a client start. Whatever server replies to its ClientHello, if it follows RFC 8446 and
presents a chain that the client believes in, the client digests the reply however its bytes are cut,
waits for the last byte, is connected, and comes out with the parameters the server chose, the RFC's
keys and the RFC's Finished message. -/
theorem C112_client {gc : Config} {host : Option PyStr} {ocsp : Bool} {algs ds : List HashAlg}
    {random : Bytes} {c₀ c₁ : Conn} (hs : E.Sized) (ho : E.Opens) (hS : E.Seals)
    (hside : gc.side = .client) (hmfl : gc.maxFragmentLength ∈ [512, 1024, 2048, 4096, 16384])
    (hds : suiteDigests gc.cipherSuites = .ok ds) (has : IsSetOrder algs ds)
    (hc₀ : Conn.new gc host ocsp algs random = .ok c₀)
    (hc₁ : Op.initiate.run E c₀ = (.ok [], c₁)) :
    ∃ (g : Nat) (priv share ch : Bytes) (fs : List Bytes), gc.keyExchanges.head? = some g ∧
      E.kexInit g 0 = .ok (priv, share) ∧
      c₁.outputData = (fs.map (recordBytes 22)).flatten ∧ fs.flatten = ch ∧
      ∀ (info : SuiteInfo) (y : Reply) (z : Bytes), y.suite ∈ [0x1301, 0x1302, 0x1303] →
        suiteInfo y.suite = some info → E.kexResume g priv y.share = .ok z →
        Conforms E gc info g ch z y → Believes E gc host ocsp y.leaf y.rest →
        Waits E (y.bytes E info ch z) (Op.drain.run E c₁).2 ∧
        ∀ ys, Cuts ys (y.bytes E info ch z) →
          ∃ c₂, feed E ys (Op.drain.run E c₁).2 = (.ok (), c₂) ∧ Agreed E info g ch z y c₂ := by
  have hstart := initiate_of_run hc₁
  have hmC := (MflInv.fresh (E := E) hc₀ hmfl).run [.initiate]
  rw [runOps, hc₁, runOps] at hmC
  have hm0 : 4 ≤ gc.maxFragmentLength ∧ gc.maxFragmentLength ≤ 16384 := by
    simp only [List.mem_cons, List.not_mem_nil, or_false] at hmfl
    omega
  obtain ⟨hne, _, rfl⟩ := new_client hc₀ hside
  obtain ⟨g, gl, priv, share, ch, fs, hash, t, hgl, hreg, hki, hser, hcut, rfl⟩ :=
    client_start rfl hside rfl rfl rfl rfl hne hm0.1 hm0.2 hstart
  dsimp only at hgl hki hser hcut
  refine ⟨g, priv, share, ch, fs, by rw [hgl]; rfl, hki, ?_, hcut.1, ?_⟩
  · show [] ++ wireOf (fs.map fun f => (22, f)) = _
    simp [wireOf, Function.comp_def]
  intro info y z hsu hinfo hz C B
  obtain ⟨info', lim, hinfo', hid, hsl, hlim⟩ := suite_works hsu
  rw [hinfo] at hinfo'
  cases hinfo'
  have W : Works E info lim := ⟨hs, ho, hS, by rw [hid]; exact hinfo, hlim⟩
  have hdig : info.digest ∈ algs := (has.2 _).mpr (suiteDigests_mem hds C.suite hinfo)
  obtain ⟨pub, hpub, hsig⟩ := C.signature
  obtain ⟨hreg', -⟩ := fit_known C.scheme.2
  obtain ⟨p, mode, e1, e2, e3, e4, e5⟩ := encrypted_found C.encryptedExtensions.2 C.protocol
  have hfl := finished_writes (E := E) (mac := E.hmac info.digest ((E.spec info.digest).finishedKey
      ((E.spec info.digest).cHs z (E.hash info.digest (ch ++ y.sh))))
        (E.hash info.digest (ch ++ y.sh ++ y.ee ++ y.ct ++ y.cv ++ y.fin)))
    (by rw [W.sized.hmac]; have := info.digest.size_le; omega)
  obtain ⟨fin, hfin, hfinl⟩ := hfl.get
  rw [W.sized.hmac] at hfinl
  have hfinl : fin.length ≤ 16000 := by have := info.digest.size_le; omega
  let c₁ : Conn :=
    { config := gc, hostname := host, hasOcsp := ocsp, nconfig := none, cipher := none,
      signature := none, transcript := ⟨algs.map (·, ch), 2⟩, inputData := [], inputHandshake := [],
      outputData := [], applicationData := [], clientUnique := some random, serverUnique := none,
      state := .clientWaitSH true [(g, priv)] hash, draws := 1, tr := t }
  obtain ⟨i, htrust⟩ : ∃ i, Trusts E c₁ y.leaf y.rest none i := by
    obtain ⟨i, hi⟩ : ∃ i, gc.trustStore.isSome = true → ∀ x : Conn, x.hasOcsp = ocsp → x.draws = 2 →
        Gives (clientVerifyStatuses E (stapledEntries (y.leaf :: y.rest) none)) x ()
          { x with draws := x.draws + i } := by
      by_cases hs : gc.trustStore.isSome = true
      · obtain ⟨i, hi⟩ := statuses_stapled (E := E) (staple := none) (c := { c₁ with draws := 2 })
          (fun ho => B.vouched.lookup ho hs) (by simp)
        exact ⟨i, fun _ => hi⟩
      · exact ⟨0, fun h => absurd h hs⟩
    refine ⟨i, fun ha => ?_⟩
    have ha : gc.requirePeerAuth = true := ha
    have hs : gc.trustStore.isSome = true := by simpa [Config.requirePeerAuth, B.noRaw] using ha
    obtain ⟨store, hs⟩ := Option.isSome_iff_exists.mp hs
    exact ⟨(B.trusted store 1 hs).2, ⟨store, hs, by rw [identity_subject]; exact (B.trusted store _ hs).1⟩,
      hi (by rw [hs]; rfl)⟩
  have hd := client_reply (E := E) (r := c₁.fed (y.bytes E info ch z)) (y := y) (algs := algs) (chHash := hash)
    W hside rfl rfl rfl rfl rfl hdig hid (by show 1 ≤ gc.maxFragmentLength; omega) hm0.2 C hreg hz e1 e2 e3 htrust hreg' hpub hsig
    hfin hfinl rfl
  have hmC₁ : MflInv E c₁ := ⟨hmC.config, hmC.negotiated, hmC.parsed⟩
  refine ⟨feed_waits hmC₁ rfl rfl hd, fun ys hys => ?_⟩
  obtain ⟨t', hf⟩ := feed_digests (r := c₁) hmC₁ rfl hd hys.2.1 hys.2.2 hys.1
  obtain ⟨pad, hpad⟩ := hsRecord_under (E := E) info z (E.hash info.digest (ch ++ y.sh)) fin 0
  refine ⟨_, hf, rfl, ⟨rfl, rfl, rfl⟩, ⟨fin, pad, (message_ok (h := .finished _) trivial (by simp [Rfc.extensionsOf])).mp hfin, ?_⟩,
    ⟨_, rfl, congrArg some hid, rfl, rfl, rfl, ⟨p, rfl, e4⟩, _, rfl, ?_⟩, ⟨_, rfl, rfl, rfl, rfl⟩⟩
  · show [] ++ recordBytes 20 [1] ++ hsRecord E info .client z (E.hash info.digest (ch ++ y.sh)) 0 fin = _
    rw [hpad]
    rfl
  · rw [← e5]
    simp [Iana.peerAllowedToSend]

namespace Toy

/-- A server unlike the library: it writes the share before the version, answers with extensions the
library does not know to send, leaves out change_cipher_spec and pads as it pleases. -/
def otherReply (ee sh ct cv fin sig : Bytes) : Reply where
  random := List.replicate 32 6
  suite := 0x1302
  hello := [.keyShareResp 0x1d [7], .supportedVersionsResp 0x0304]
  share := [7]
  encrypted := [.serverNameResp, .supportedGroups [0x1d, 0x17], .unknown 2570 [1]]
  leaf := [1, 2, 3]
  rest := []
  scheme := 0x0807
  sig := sig
  sh := sh
  ee := ee
  ct := ct
  cv := cv
  fin := fin
  ccs := false
  pad := fun n => 3 * n

theorem other_conforms (info : SuiteInfo) (hi : suiteInfo 0x1302 = some info) (ch z : Bytes) :
    ∃ ee sh ct cv fin sig, Conforms env smallConfig info 0x1d ch z (otherReply ee sh ct cv fin sig) := by
  cases hi
  obtain ⟨sh, hsh, lsh⟩ : ∃ sh, serHandshake env (.serverHello (List.replicate 32 6) [] 0x1302
      [.keyShareResp 0x1d [7], .supportedVersionsResp 0x0304]) = .ok sh ∧ sh.length ≤ 100 :=
    ⟨_, rfl, by decide⟩
  obtain ⟨ee, hee, lee⟩ : ∃ ee, serHandshake env (.encryptedExtensions
      [.serverNameResp, .supportedGroups [0x1d, 0x17], .unknown 2570 [1]]) = .ok ee ∧ ee.length ≤ 100 :=
    ⟨_, rfl, by decide⟩
  obtain ⟨ct, hct, lct⟩ : ∃ ct, serHandshake env (.certificate [] [.x509 [1, 2, 3] []]) = .ok ct ∧
      ct.length ≤ 100 := ⟨_, rfl, by decide⟩
  obtain ⟨sig, hsig⟩ : ∃ sig, sig = beEnc 2 0x0807 ++ [1, 2, 3] ++ beEnc 4 (sum (signedContent
    (env.hash .sha384 (ch ++ sh ++ ee ++ ct)))) := ⟨_, rfl⟩
  have hsl : sig.length = 9 := by rw [hsig]; simp
  obtain ⟨cv, hcv, lcv⟩ := (certificateVerify_writes (E := env) (alg := 0x0807) (sig := sig)
    (by decide) (by omega)).get
  obtain ⟨fin, hfin, lfin⟩ := (finished_writes (E := env) (mac := env.hmac .sha384
    ((env.spec .sha384).finishedKey ((env.spec .sha384).sHs z (env.hash .sha384 (ch ++ sh))))
      (env.hash .sha384 (ch ++ sh ++ ee ++ ct ++ cv))) (by rw [sized.hmac]; decide)).get
  rw [sized.hmac] at lfin
  refine ⟨ee, sh, ct, cv, fin, sig, ?_⟩
  have hhello : Rfc.PeerMessage env none (.serverHello (List.replicate 32 6) [] 0x1302
      [.keyShareResp 0x1d [7], .supportedVersionsResp 0x0304]) :=
    ⟨by decide, by decide, by simp [legal, allowedIn]⟩
  have hexts : Rfc.PeerMessage env none (.encryptedExtensions
      [.serverNameResp, .supportedGroups [0x1d, 0x17], .unknown 2570 [1]]) :=
    ⟨by decide, by simp [legal, allowedIn]⟩
  refine {
    serverHello := ⟨(message_ok (by simp [Rfc.RightRandom, otherReply])
      (by simp [Rfc.extensionsOf, otherReply, asciiLike, knownBroken])).mp hsh, hhello⟩
    suite := by simp [otherReply, smallConfig, clientConfig]
    version := by simp [otherReply]
    share := by simp [otherReply]
    encryptedExtensions := ⟨(message_ok (by simp [Rfc.RightRandom])
      (by simp [Rfc.extensionsOf, otherReply, asciiLike, knownBroken])).mp hee, hexts⟩
    unasked := by simp [otherReply, Rfc.extensionCode]
    protocol := by simp [otherReply]
    certificate := (message_ok (by simp [Rfc.RightRandom]) (by simp [Rfc.extensionsOf, otherReply])).mp hct
    loads := fun _ _ => rfl
    certificateVerify := (message_ok (by simp [Rfc.RightRandom]) (by simp [Rfc.extensionsOf])).mp hcv
    scheme := ⟨by simp [otherReply, smallConfig, clientConfig], .ed25519⟩
    signature := ⟨[1, 2, 3], rfl, if_pos hsig⟩
    finished := (message_ok (h := .finished _) trivial (by simp [Rfc.extensionsOf])).mp hfin
    fits := ?_ }
  have : HashAlg.size .sha384 = 48 := rfl
  refine ⟨?_, ?_, ?_, ?_, ?_⟩
  · show sh.length ≤ 512; omega
  · show ee.length + 1 + 0 + 16 ≤ 512 + 256; omega
  · show ct.length + 1 + 3 + 16 ≤ 16384 + 256; omega
  · show cv.length + 1 + 6 + 16 ≤ 16384 + 256; omega
  · show fin.length + 1 + 9 + 16 ≤ 16384 + 256; omega

end Toy

/-- The hypotheses are met, by a client with small buffers, which the library's own server fails
(`C56_false`), and a server unlike the library. -/
example : ∃ d c, feed Toy.env [d] (Op.drain.run Toy.env Toy.small1).2 = (.ok (), c) ∧
    c.state = .connected := by
  have f1 := Toy.small_refuses.1
  have h1 : Op.initiate.run Toy.env Toy.small0 = (.ok [], Toy.small1) := by
    rw [Toy.small1]
    generalize Op.initiate.run Toy.env Toy.small0 = x at f1
    rcases x with ⟨_ | _ | _, c⟩ <;> first | rfl | cases f1
  obtain ⟨g, priv, share, ch, fs, hg, hk, -, -, h⟩ := C112_client (E := Toy.env) (gc := Toy.smallConfig)
    (host := some ['a']) (ocsp := false) (algs := [.sha256, .sha384]) (ds := [.sha256, .sha384, .sha256])
    (random := List.replicate 32 5) Toy.sized Toy.opens Toy.seals rfl (by decide) rfl
    ⟨by decide, fun a => by cases a <;> decide⟩ rfl h1
  cases hg
  obtain ⟨info, hi⟩ : ∃ info, suiteInfo 0x1302 = some info := ⟨_, rfl⟩
  obtain ⟨ee, sh, ct, cv, fin, sig, hc⟩ := Toy.other_conforms info hi ch (xorBytes priv [7] ++ [1])
  obtain ⟨-, h⟩ := h info (Toy.otherReply ee sh ct cv fin sig) (xorBytes priv [7] ++ [1]) (by simp [Toy.otherReply]) hi rfl hc ⟨rfl, fun store draw hs => by
    cases hs; exact ⟨rfl, .inl rfl⟩, .off⟩
  generalize hd : (Toy.otherReply ee sh ct cv fin sig).bytes Toy.env info ch (xorBytes priv [7] ++ [1]) = d at h
  have hne : d ≠ [] := by
    rw [← hd]
    simp [Reply.bytes, recordBytes]
  obtain ⟨c, h2, h3⟩ := h [d] ⟨by simp, by simp, by simpa using hne⟩
  exact ⟨d, c, h2, h3.state⟩

end Siotls
