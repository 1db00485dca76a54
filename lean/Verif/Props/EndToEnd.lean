import Verif.Proofs.Completion
/-!
# C56: two compatible endpoints complete the handshake and can exchange data
-/

namespace Siotls
open Spec Serial

variable {E : Env}

/-- Take any two compatible configurations, any library that works, any random values, and let the
client start. However the bytes of each flight are cut on the way: the server digests the ClientHello
and answers; the client digests the answer, is connected, and has a last flight to send; the server
digests it and is connected too. Both agree on everything negotiated, hold mirrored keys, and data
sent by either is read by the other. -/
theorem C56_partial {kex : Nat → Nat → Except Exn (Bytes × Bytes)}
    {sign : Nat → Bytes → Bytes → Nat → Except Exn Bytes} {gc gs : Config} {host : Option PyStr} {k : Choice}
    {ocspC ocspS : Bool} {algsC algsS dsC dsS : List HashAlg} {randomC randomS : Bytes} {c₀ c₁ s₀ : Conn}
    (K : Compatible E gc gs host k) (L : Library E kex sign (gs.privateKey.getD []) k)
    (V : Vouched E ocspC ocspS gc (k.leaf :: k.rest))
    (hdc : suiteDigests gc.cipherSuites = .ok dsC) (hac : IsSetOrder algsC dsC)
    (hds : suiteDigests gs.cipherSuites = .ok dsS) (has : IsSetOrder algsS dsS)
    (hrc : randomC.length = 32) (hrs : randomS.length = 32) (hrr : randomS ≠ hrrRandom)
    (hc₀ : Conn.new gc host ocspC algsC randomC = .ok c₀)
    (hs₀ : Conn.new gs none ocspS algsS randomS = .ok s₀)
    (hc₁ : Op.initiate.run E c₀ = (.ok [], c₁)) :
    ∃ s₁, Op.initiate.run (E.elsewhere kex sign) s₀ = (.ok [], s₁) ∧ s₁.outputData = [] ∧
    ∀ xs, Cuts xs c₁.outputData →
    ∃ s₂, feed (E.elsewhere kex sign) xs s₁ = (.ok (), s₂) ∧ s₂.outputData ≠ [] ∧
    ∀ ys, Cuts ys s₂.outputData →
    ∃ c₂, feed E ys (Op.drain.run E c₁).2 = (.ok (), c₂) ∧ c₂.state = .connected ∧ c₂.outputData ≠ [] ∧
    ∀ zs, Cuts zs c₂.outputData →
    ∃ s₃, feed (E.elsewhere kex sign) zs (Op.drain.run (E.elsewhere kex sign) s₂).2 = (.ok (), s₃) ∧
      s₃.outputData = [] ∧ Established c₂ s₃ gc gs k ∧
      Talks E c₂ (E.elsewhere kex sign) s₃ ∧ Talks (E.elsewhere kex sign) s₃ E c₂ := by
  obtain ⟨s₁, h1, h2, -, h3⟩ := completion K L V hdc hac hds has hrc hrs hrr hc₀ hs₀ hc₁
  refine ⟨s₁, h1, h2, fun xs hxs => ?_⟩
  obtain ⟨s₂, h4, h5, -, h6⟩ := h3 xs hxs
  refine ⟨s₂, h4, h5, fun ys hys => ?_⟩
  obtain ⟨c₂, h7, h8, h9, -, h10⟩ := h6 ys hys
  exact ⟨c₂, h7, h8, h9, h10⟩

/-- C56, full statement: sharing a suite, the client's first group and a scheme is enough (here with
the bytes of each flight delivered at once). False of the code: `C56_false`. -/
def C56_statement : Prop :=
  ∀ (E : Env) (kex : Nat → Nat → Except Exn (Bytes × Bytes))
    (sign : Nat → Bytes → Bytes → Nat → Except Exn Bytes) (gc gs : Config) (host : Option PyStr) (k : Choice)
    (algsC algsS dsC dsS : List HashAlg) (randomC randomS : Bytes) (c₀ c₁ s₀ s₁ : Conn),
    Partners E gc gs host k → Library E kex sign (gs.privateKey.getD []) k →
    gc.check = .ok () → gs.check = .ok () →
    suiteDigests gc.cipherSuites = .ok dsC → IsSetOrder algsC dsC →
    suiteDigests gs.cipherSuites = .ok dsS → IsSetOrder algsS dsS →
    randomC.length = 32 → randomS.length = 32 → randomS ≠ hrrRandom →
    Conn.new gc host false algsC randomC = .ok c₀ → Conn.new gs none false algsS randomS = .ok s₀ →
    Op.initiate.run E c₀ = (.ok [], c₁) → Op.initiate.run (E.elsewhere kex sign) s₀ = (.ok [], s₁) →
    ∃ s₂ c₂ s₃, (Op.receive c₁.outputData).run (E.elsewhere kex sign) s₁ = (.ok [], s₂) ∧
      (Op.receive s₂.outputData).run E (Op.drain.run E c₁).2 = (.ok [], c₂) ∧
      (Op.receive c₂.outputData).run (E.elsewhere kex sign) (Op.drain.run (E.elsewhere kex sign) s₂).2 =
        (.ok [], s₃) ∧ c₂.state = .connected ∧ s₃.state = .connected

namespace Toy

/-- a client with smaller buffers -/
def smallConfig : Config := { clientConfig with maxFragmentLength := 512 }
def small0 : Conn := fresh smallConfig (some ['a']) [.sha256, .sha384] (List.replicate 32 5)
def small1 : Conn := (Op.initiate.run env small0).2
def toSmall : Conn := ((Op.receive small1.outputData).run env server1).2

/-- what the two toys agree on -/
def choice : Choice := ⟨0x1301, 0x1d, 0x0807, [1, 2, 3], []⟩

/-- the draws of another machine -/
def otherKex (_ : Nat) (d : Nat) : Except Exn (Bytes × Bytes) :=
  .ok ([UInt8.ofNat (d + 100)], [UInt8.ofNat (d + 100)])

theorem library (kex : Nat → Nat → Except Exn (Bytes × Bytes)) (hk : kex = otherKex ∨ kex = env.kexInit) :
    Library env kex env.sign (serverConfig.privateKey.getD []) choice where
  sized := sized
  opens := opens
  seals := seals
  agrees := by
    intro d d' a pa b pb h1 h2
    cases h1
    rcases hk with rfl | rfl <;>
    · cases h2
      refine ⟨_, ?_, rfl, ?_⟩
      · simp
      · show Except.ok (xorBytes _ _ ++ _) = Except.ok (xorBytes _ _ ++ _)
        simp [xorBytes, UInt8.xor_comm]
  generates := by
    intro d
    rcases hk with rfl | rfl <;> exact ⟨_, _, rfl, by simp⟩
  signs := by
    refine ⟨[1, 2, 3], rfl, fun msg d => ⟨_, rfl, ?_, ?_⟩⟩
    · simp [serverConfig, length_beEnc]
    · exact if_pos rfl
  loads := fun _ _ => rfl
  small := by decide

theorem partners (n : Nat) : Partners env { clientConfig with maxFragmentLength := n } serverConfig (some ['a'])
    choice where
  client := rfl
  server := rfl
  suite := rfl
  group := ⟨rfl, by simp [serverConfig, choice]⟩
  chain := rfl
  scheme := ⟨[], [], rfl, ⟨.ed25519, by simp [clientConfig, choice]⟩, by simp⟩
  anonymous := ⟨rfl, rfl⟩
  protocols := .inl rfl
  trusted := by
    intro store draw h
    cases h
    exact ⟨rfl, .inl rfl⟩

theorem client_starts :
    (match (Op.initiate.run env client0).1 with | .ok [] => true | _ => false) = true := by
  decide +kernel

theorem small_refuses :
    (match (Op.initiate.run env small0).1 with | .ok [] => true | _ => false) = true ∧
    raised ((Op.receive toSmall.outputData).run env (Op.drain.run env small1).2).1 = true := by
  decide +kernel

end Toy

/-- C56, what is wrong: a client configured for fragments of 512 bytes does not say so to the server
(it never sends the extension) and refuses the answer of the server, padded to 4096 bytes. -/
theorem C56_false : ¬ C56_statement := by
  intro h
  obtain ⟨f1, f2⟩ := Toy.small_refuses
  have h1 : Op.initiate.run Toy.env Toy.small0 = (.ok [], Toy.small1) := by
    rw [Toy.small1]
    generalize Op.initiate.run Toy.env Toy.small0 = x at f1
    rcases x with ⟨_ | _ | _, c⟩ <;> first | rfl | cases f1
  obtain ⟨s₂, c₂, s₃, g1, g2, _⟩ := h Toy.env Toy.env.kexInit Toy.env.sign Toy.smallConfig Toy.serverConfig
    (some ['a']) Toy.choice [.sha256, .sha384] [.sha256] [.sha256, .sha384, .sha256] [.sha256, .sha256]
    (List.replicate 32 5) (List.replicate 32 6) Toy.small0 Toy.small1 Toy.server0 Toy.server1
    (Toy.partners 512) (Toy.library _ (.inr rfl)) (by decide) (by decide) rfl ⟨by decide, fun a => by cases a <;> decide⟩ rfl
    ⟨by decide, fun a => by cases a <;> decide⟩ rfl rfl (by decide) rfl rfl h1 rfl
  have h2 : s₂ = Toy.toSmall := (congrArg Prod.snd g1).symm
  have h3 := congrArg (fun x => raised x.1) g2
  rw [h2] at h3
  cases f2.symm.trans h3

/-- The hypotheses of `C56_partial` are met by the toy configurations, the server drawing other random
values than the client. -/
example : Compatible Toy.env Toy.clientConfig Toy.serverConfig (some ['a']) Toy.choice ∧
    Library Toy.env Toy.otherKex Toy.env.sign (Toy.serverConfig.privateKey.getD []) Toy.choice ∧
    suiteDigests Toy.clientConfig.cipherSuites = .ok [.sha256, .sha384, .sha256] ∧
    IsSetOrder [.sha256, .sha384] [.sha256, .sha384, .sha256] ∧
    suiteDigests Toy.serverConfig.cipherSuites = .ok [.sha256, .sha256] ∧
    IsSetOrder [.sha256] [.sha256, .sha256] ∧
    Conn.new Toy.clientConfig (some ['a']) false [.sha256, .sha384] (List.replicate 32 5) = .ok Toy.client0 ∧
    Conn.new Toy.serverConfig none false [.sha256] (List.replicate 32 6) = .ok Toy.server0 ∧
    (∃ c₁, Op.initiate.run Toy.env Toy.client0 = (.ok [], c₁)) ∧ List.replicate 32 6 ≠ hrrRandom := by
  refine ⟨⟨Toy.partners 16384, ⟨.inr rfl, rfl⟩, by decide, by decide, ⟨rfl, rfl⟩, ?_, ?_⟩,
    Toy.library _ (.inl rfl), rfl, ⟨by decide, fun a => by cases a <;> decide⟩, rfl, ⟨by decide, fun a => by cases a <;> decide⟩, rfl, rfl, ?_, by decide⟩
  · intro p hp; cases hp
  · intro h hh _
    cases hh
    exact ⟨_, rfl, by decide, rfl⟩
  · refine ⟨Toy.client1, ?_⟩
    have f1 := Toy.client_starts
    rw [Toy.client1]
    generalize Op.initiate.run Toy.env Toy.client0 = x at f1
    rcases x with ⟨_ | _ | _, c⟩ <;> first | rfl | cases f1

/-- A client that takes no more than 4096 bytes in a record meets them too. -/
example : Compatible Toy.env { Toy.clientConfig with maxFragmentLength := 4096 } Toy.serverConfig
    (some ['a']) Toy.choice := by
  refine ⟨Toy.partners 4096, ⟨.inl rfl, rfl⟩, by decide, by decide, ⟨rfl, rfl⟩, ?_, ?_⟩
  · intro p hp; cases hp
  · intro h hh _
    cases hh
    exact ⟨_, rfl, by decide, rfl⟩

end Siotls
