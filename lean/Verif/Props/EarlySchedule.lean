import Verif.Proofs.EarlySchedule
import Verif.Props.Schedule
/-!
# C104: the key schedule with a pre-shared key

Assumptions as in C41: `E.Sized`, and the CCM suites apart.
-/

namespace Siotls
open Serial

/-- The word the library uses for the provenance of a pre-shared key. -/
def Spec.Psk.word : Spec.Psk → PyStr
  | .external => "external".toList
  | .resumption => "resume".toList

/-- C104. For every pre-shared key of both provenances, every hash and HMAC of the right sizes,
every suite (but the CCM ones), side, shared secret and transcript hashes, the binder key, the early
exporter secret and the early traffic keys are those of RFC 8446; only the client's writing and the
server's reading are keyed with the latter; the key log gets the early traffic secret when there is
one. After that the handshake and master derivations, at any later time, are those of RFC 8446 with
that pre-shared key. -/
theorem C104_schedule {E : Env} (hE : E.Sized) {id : Nat} {info : SuiteInfo}
    (hi : suiteInfo id = some info) (hu : info.usageLimit.isSome) (side : Side) (uid : PyStr)
    (psk : Bytes) (p : Spec.Psk) (shared th0 th1 th2 th3 : Bytes) (h0 : th0.length ≤ 255)
    (h1 : th1.length ≤ 255) (h2 : th2.length ≤ 255) (h3 : th3.length ≤ 255) {kl : Nat}
    (hkl : Spec.suiteKeyLength id = some kl) :
    let H : Spec.Hash := ⟨info.digest.size, E.hash info.digest, E.hmac info.digest⟩
    let cHs := H.deriveSecret (H.handshakeWith psk shared) "c hs traffic" th1
    let sHs := H.deriveSecret (H.handshakeWith psk shared) "s hs traffic" th1
    let cAp := H.deriveSecret (H.masterWith psk shared) "c ap traffic" th2
    let sAp := H.deriveSecret (H.masterWith psk shared) "s ap traffic" th2
    ∃ c1, deriveEarly E uid (CipherSt.new info side) psk p.word th0 =
        (.ok (H.binderKey psk p, H.earlyExporter psk th0), c1,
         if uid = [] then [] else
           [logLine "CLIENT_EARLY_TRAFFIC_SECRET" uid (H.cEarly psk th0)]) ∧
      c1.wr = Spec.bySide side (Spec.keyed H (H.cEarly psk th0) kl) .empty ∧
      c1.rd = Spec.bySide side .empty (Spec.keyed H (H.cEarly psk th0) kl) ∧
      ∀ c1', c1'.secrets = c1.secrets → c1'.info = c1.info → c1'.side = c1.side →
        ∃ c2, deriveHandshake E c1' shared th1 = (.ok (), c2) ∧
          c2.wr = Spec.keyed H (Spec.bySide side cHs sHs) kl ∧
          c2.rd = Spec.keyed H (Spec.bySide side sHs cHs) kl ∧
          (∀ m, signFinish E c2 m = .ok (H.hmac (H.finishedKey (Spec.bySide side cHs sHs)) m)) ∧
          (∀ m v, verifyFinish E c2 m v = .ok () ↔
            v = H.hmac (H.finishedKey (Spec.bySide side sHs cHs)) m) ∧
          ∀ c2', c2'.secrets = c2.secrets → c2'.info = c2.info → c2'.side = c2.side →
            ∃ c3, deriveMaster E c2' th2 th3 =
                (.ok (H.deriveSecret (H.masterWith psk shared) "exp master" th2,
                  H.deriveSecret (H.masterWith psk shared) "res master" th3), c3) ∧
              c3.wr = Spec.keyed H (Spec.bySide side cAp sAp) kl ∧
              c3.rd = Spec.keyed H (Spec.bySide side sAp cAp) kl := by
  intro H cHs sHs cAp sAp
  obtain ⟨-, -, -, hk, hh⟩ := suite_facts hi
  rw [hk] at hkl
  cases hkl
  refine ⟨_, early_keys hE hi hu (CipherSt.new info side) rfl uid psk th0 h0 (p := p)
    (by cases p <;> rfl) rfl, rfl, rfl, ?_⟩
  intro c1' hs hinf hside
  refine ⟨_, handshake_keys_with hE hi hu c1' hinf psk shared th1 h1 hs, ?_, ?_, ?_, ?_, ?_⟩
  · simp only [hside]; rfl
  · simp only [hside]; rfl
  · intro m
    cases side <;> simp only [signFinish, hside, CipherSt.new, hinf, finMac] <;> rfl
  · intro m v
    cases side <;>
      simp only [verifyFinish, hside, CipherSt.new, hinf, finMac, Except.bind_def] <;>
      (split
       · rename_i h
         exact ⟨fun _ => h.symm, fun _ => rfl⟩
       · rename_i h
         exact ⟨fun h' => (by cases h'), fun h' => absurd h'.symm h⟩)
  · intro c2' hs2 hinf2 hside2
    refine ⟨_, master_keys_with hE hi hu c2' (hinf2.trans hinf) psk shared th2 th3 h2 h3 hs2,
      ?_, ?_⟩ <;> simp only [hside2, hside] <;> rfl

example : ∃ i, suiteInfo 0x1302 = some i ∧ i.usageLimit.isSome ∧
    Spec.suiteKeyLength 0x1302 = some 32 ∧ (Toy.env.hash i.digest [1]).length ≤ 255 :=
  ⟨_, rfl, rfl, rfl, by decide⟩

/-- C104. Without a pre-shared key the schedule is the one with HashLen zeros: `skip_early_secrets`
leaves the secrets that `derive_early_secrets` leaves for that key, and installs no key. -/
theorem C104_skip {E : Env} (hE : E.Sized) {id : Nat} {info : SuiteInfo}
    (hi : suiteInfo id = some info) (hu : info.usageLimit.isSome) (side : Side) (uid : PyStr)
    (p : Spec.Psk) (th : Bytes) (hth : th.length ≤ 255) :
    ∃ c, skipEarly E (CipherSt.new info side) = .ok c ∧ c.wr = .empty ∧ c.rd = .empty ∧
      c.secrets = (deriveEarly E uid (CipherSt.new info side)
        (List.replicate info.digest.size 0) p.word th).2.1.secrets := by
  refine ⟨_, skipEarly_ok hE (CipherSt.new info side) rfl rfl, rfl, rfl, ?_⟩
  rw [early_keys hE hi hu (CipherSt.new info side) rfl uid _ th hth (p := p)
    (by cases p <;> rfl) rfl]
  rfl

/-- C104. A client and a server with the same pre-shared key agree: what the client writes early the
server reads, they have the same binder key and exporter, nothing goes the other way yet, and the
handshake keys that follow mirror each other. -/
theorem C104_mirrored {E : Env} (hE : E.Sized) {id : Nat} {info : SuiteInfo}
    (hi : suiteInfo id = some info) (hu : info.usageLimit.isSome) (u v : PyStr) (psk : Bytes)
    (p : Spec.Psk) (shared th0 th1 : Bytes) (h0 : th0.length ≤ 255) (h1 : th1.length ≤ 255) :
    ∃ x a b la lb a' b',
      deriveEarly E u (CipherSt.new info .client) psk p.word th0 = (.ok x, a, la) ∧
      deriveEarly E v (CipherSt.new info .server) psk p.word th0 = (.ok x, b, lb) ∧
      a.wr = b.rd ∧ a.rd = .empty ∧ b.wr = .empty ∧ a.wr.seq = some 0 ∧
      deriveHandshake E a shared th1 = (.ok (), a') ∧
      deriveHandshake E b shared th1 = (.ok (), b') ∧ a'.wr = b'.rd ∧ a'.rd = b'.wr := by
  obtain ⟨-, -, -, hk, -⟩ := suite_facts hi
  obtain ⟨a, e1, e2, e3, e4⟩ := C104_schedule hE hi hu .client u psk p shared th0 th1 [] [] h0 h1
    (by simp) (by simp) hk
  obtain ⟨b, f1, f2, f3, f4⟩ := C104_schedule hE hi hu .server v psk p shared th0 th1 [] [] h0 h1
    (by simp) (by simp) hk
  obtain ⟨a', g1, g2, g3, -⟩ := e4 a rfl rfl rfl
  obtain ⟨b', i1, i2, i3, -⟩ := f4 b rfl rfl rfl
  refine ⟨_, a, b, _, _, a', b', e1, f1, ?_, ?_, ?_, ?_, g1, i1, ?_, ?_⟩
  · simp only [e2, f3, Spec.bySide]
  · simp only [e3, Spec.bySide]
  · simp only [f2, Spec.bySide]
  · simp only [e2, Spec.bySide, Spec.keyed]
  · simp only [g2, i3, Spec.bySide]
  · simp only [g3, i2, Spec.bySide]

/-- C104. The secrets of the early stage and the salt of the next are told apart by their labels:
the HMAC inputs that make any two of them differ, whatever the transcript hashes; in particular a
binder of one provenance does not pass for the other. -/
theorem C104_labels {E : Env} (hE : E.Sized) (a : HashAlg) (s₁ s₂ th₁ th₂ : Bytes) (n : Nat)
    (i j : Fin 5) (hij : i ≠ j) {x y : Bytes}
    (hx : hkdfLabel [pskLabel Spec.Psk.external.word, pskLabel Spec.Psk.resumption.word, lblEExp,
      lblCE, lblDerived][i] th₁ n = .ok x)
    (hy : hkdfLabel [pskLabel Spec.Psk.external.word, pskLabel Spec.Psk.resumption.word, lblEExp,
      lblCE, lblDerived][j] th₂ n = .ok y) (k l : Nat) (hk : k < 255) (hl : l < 255) :
    let H : Spec.Hash := ⟨a.size, E.hash a, E.hmac a⟩
    H.T s₁ x k ++ x ++ [UInt8.ofNat (k + 1)] ≠ H.T s₂ y l ++ y ++ [UInt8.ofNat (l + 1)] := by
  refine C43_separated hE a s₁ s₂ hx hy ?_ k l hk hl
  intro h
  have hl := (Prod.mk.inj h).1
  revert hij hl
  clear hx hy h
  revert i j
  decide

example : ∃ x, hkdfLabel [pskLabel Spec.Psk.external.word, pskLabel Spec.Psk.resumption.word,
    lblEExp, lblCE, lblDerived][(1 : Fin 5)] [7] 32 = .ok x := ⟨_, rfl⟩

/-- C104. Any other word than the two is refused and changes nothing. -/
theorem C104_mode {E : Env} (uid : PyStr) (c : CipherSt) (psk th : Bytes) {mode : PyStr}
    (h : ∀ p : Spec.Psk, mode ≠ p.word) :
    deriveEarly E uid c psk mode th = (.error .assertion, c, []) :=
  deriveEarly_mode (h .external) (h .resumption) uid psk th

example : ∀ p : Spec.Psk, "resumption".toList ≠ p.word := by
  intro p; cases p <;> decide

/-! ## The order of the calls, with `derive_early_secrets` among them -/

/-- A call on a cipher suite object: those of C44, or `derive_early_secrets`. -/
inductive KeyCall where
  | psk (uid : PyStr) (psk : Bytes) (mode : PyStr) (th : Bytes)
  | other (k : SuiteCall)

def KeyCall.run (E : Env) (c : CipherSt) : KeyCall → Option Exn × CipherSt
  | .psk u key mode th => match deriveEarly E u c key mode th with
    | (.ok _, c', _) => (none, c')
    | (.error e, c', _) => (some e, c')
  | .other k => k.run E c

/-- The object after a history of calls. -/
def KeyCall.runAll (E : Env) (c : CipherSt) (ks : List KeyCall) : CipherSt :=
  ks.foldl (fun c k => (k.run E c).2) c

/-- The order in which derivations are allowed: `derive_early_secrets`, for one of the two
provenances, in the place of `skip_early_secrets`. -/
def Spec.Phase.nextKey : Spec.Phase → KeyCall → Option Spec.Phase
  | .fresh, .psk _ _ mode _ =>
    if mode = Spec.Psk.external.word ∨ mode = Spec.Psk.resumption.word then some .early else none
  | _, .psk .. => none
  | ph, .other k => ph.next k

def Spec.keyPhase (ks : List KeyCall) : Spec.Phase :=
  ks.foldl (fun ph k => (ph.nextKey k).getD ph) .fresh

def KeyCall.Digests : KeyCall → Prop
  | .psk _ _ _ th => th.length ≤ 255
  | .other k => k.Digests

/-- As `Spec.PhaseInv`, for whatever pre-shared key the early secret was made of. -/
def Spec.KeyInv (E : Env) (info : SuiteInfo) (c : CipherSt) (ph : Spec.Phase) : Prop :=
  let H := E.spec info.digest
  c.info = info ∧ match ph with
  | .fresh => c.secrets = ⟨0, zeros info.digest.size⟩ ∧ c.cFin = .unset ∧ c.sFin = .unset
  | .early => (∃ psk, c.secrets = ⟨1, H.deriveSecret (H.earlyWith psk) "derived" (H.hash [])⟩) ∧
      c.cFin = .unset ∧ c.sFin = .unset
  | .handshake => (∃ psk shared, c.secrets =
        ⟨2, H.deriveSecret (H.handshakeWith psk shared) "derived" (H.hash [])⟩) ∧
      (∃ a b, c.cFin = .key a ∧ c.sFin = .key b)
  | .master => (∃ psk shared, c.secrets =
        ⟨2, H.deriveSecret (H.handshakeWith psk shared) "derived" (H.hash [])⟩) ∧
      c.cFin = .none ∧ c.sFin = .none

theorem key_step {E : Env} (hE : E.Sized) {id : Nat} {info : SuiteInfo}
    (hi : suiteInfo id = some info) (hu : info.usageLimit.isSome) (c : CipherSt)
    (ph : Spec.Phase) (hinv : Spec.KeyInv E info c ph) (k : KeyCall) (hk : k.Digests) :
    Spec.KeyInv E info (k.run E c).2 ((ph.nextKey k).getD ph) ∧
    ((k.run E c).1 = none →
      (ph.nextKey k).isSome ∨ (ph = .master ∧ ∃ a b, k = .other (.master a b))) ∧
    ((ph.nextKey k).isSome → (k.run E c).1 = none ∨ ∃ th d, k = .other (.verify th d)) ∧
    ((k.run E c).1 ≠ none → (k.run E c).2 = c) := by
  have hI := hinv
  obtain ⟨hci, hinv⟩ := hinv
  have fin : ∀ a b x, c.cFin = a → c.sFin = b → signFinish E c x =
      finMac E info.digest (match c.side with | .client => a | .server => b) x := by
    rintro a b x rfl rfl; rw [signFinish, hci]; cases c.side <;> rfl
  have ver : ∀ a b x d, c.cFin = a → c.sFin = b → verifyFinish E c x d = (do
      let mac ← finMac E info.digest (match c.side with | .client => b | .server => a) x
      if mac = d then return () else .error .valueError) := by
    rintro a b x d rfl rfl; rw [verifyFinish, hci]; cases c.side <;> rfl
  cases ph <;> simp only at hinv
  · obtain ⟨hs, hc, hsf⟩ := hinv
    have f := fun x => fin _ _ x hc hsf
    have v := fun x d => ver _ _ x d hc hsf
    rcases k with ⟨u, key, mode, th⟩ | k
    · simp only [KeyCall.run, Spec.Phase.nextKey]
      by_cases hm : mode = Spec.Psk.external.word ∨ mode = Spec.Psk.resumption.word
      · rw [if_pos hm]
        obtain ⟨p, hp⟩ : ∃ p : Spec.Psk, mode =
            match p with | .external => modeExternal | .resumption => modeResume :=
          hm.elim (fun h => ⟨.external, h⟩) (fun h => ⟨.resumption, h⟩)
        rw [early_keys hE hi hu c hci u key th hk hp hs]
        exact ⟨⟨hci, ⟨_, rfl⟩, hc, hsf⟩, by simp⟩
      · rw [if_neg hm]
        rw [not_or] at hm
        rw [deriveEarly_mode hm.1 hm.2]
        simp [hI]
    · cases k <;> simp only [KeyCall.run, SuiteCall.run, Spec.Phase.nextKey, Spec.Phase.next]
      · rw [skipEarly_ok hE c (by rw [hs]) (by rw [hs, hci])]
        refine ⟨⟨hci, ⟨List.replicate info.digest.size 0, ?_⟩, hc, hsf⟩, by simp⟩
        subst hci
        rfl
      · rw [deriveHandshake_refused (by simp [hs])]
        simp [hI]
      · rw [deriveMaster_refused (by simp [hs])]
        simp [hI]
      · rw [f]; cases c.side <;> simp [finMac, hI]
      · rw [v]; cases c.side <;> simp [finMac, hI, Except.bind_def]
  · obtain ⟨⟨psk, hs⟩, hc, hsf⟩ := hinv
    have f := fun x => fin _ _ x hc hsf
    have v := fun x d => ver _ _ x d hc hsf
    rcases k with ⟨u, key, mode, th⟩ | k
    · simp only [KeyCall.run, Spec.Phase.nextKey]
      rw [deriveEarly_refused (by simp [hs])]
      simp [hI]
    · cases k <;> simp only [KeyCall.run, SuiteCall.run, Spec.Phase.nextKey, Spec.Phase.next]
      · rw [skipEarly_refused (by simp [hs])]
        simp [hI]
      · rw [handshake_keys_with hE hi hu c hci _ _ _ hk hs]
        exact ⟨⟨hci, ⟨_, _, rfl⟩, _, _, rfl, rfl⟩, by simp⟩
      · rw [deriveMaster_refused (by simp [hs])]
        simp [hI]
      · rw [f]; cases c.side <;> simp [finMac, hI]
      · rw [v]; cases c.side <;> simp [finMac, hI, Except.bind_def]
  · obtain ⟨⟨psk, sh, hs⟩, a, b, hc, hsf⟩ := hinv
    have f := fun x => fin _ _ x hc hsf
    have v := fun x d => ver _ _ x d hc hsf
    rcases k with ⟨u, key, mode, th⟩ | k
    · simp only [KeyCall.run, Spec.Phase.nextKey]
      rw [deriveEarly_refused (by simp [hs])]
      simp [hI]
    · cases k <;> simp only [KeyCall.run, SuiteCall.run, Spec.Phase.nextKey, Spec.Phase.next]
      · rw [skipEarly_refused (by simp [hs])]
        simp [hI]
      · rw [deriveHandshake_refused (by simp [hs])]
        simp [hI]
      · rw [master_keys_with hE hi hu c hci _ _ _ _ hk.1 hk.2 hs]
        exact ⟨⟨hci, ⟨_, _, hs⟩, rfl, rfl⟩, by simp⟩
      · rw [f]; cases c.side <;> simp [finMac, hI]
      · rw [v]; cases c.side <;> simp only [finMac, Except.bind_def] <;> split <;>
          simp [hI]
  · obtain ⟨⟨psk, sh, hs⟩, hc, hsf⟩ := hinv
    have f := fun x => fin _ _ x hc hsf
    have v := fun x d => ver _ _ x d hc hsf
    rcases k with ⟨u, key, mode, th⟩ | k
    · simp only [KeyCall.run, Spec.Phase.nextKey]
      rw [deriveEarly_refused (by simp [hs])]
      simp [hI]
    · cases k <;> simp only [KeyCall.run, SuiteCall.run, Spec.Phase.nextKey, Spec.Phase.next]
      · rw [skipEarly_refused (by simp [hs])]
        simp [hI]
      · rw [deriveHandshake_refused (by simp [hs])]
        simp [hI]
      · rw [master_keys_with hE hi hu c hci _ _ _ _ hk.1 hk.2 hs]
        exact ⟨⟨hci, ⟨_, _, hs⟩, rfl, rfl⟩, by simp⟩
      · rw [f]; cases c.side <;> simp [finMac, hI]
      · rw [v]; cases c.side <;> simp [finMac, hI, Except.bind_def]

theorem key_inv {E : Env} (hE : E.Sized) {id : Nat} {info : SuiteInfo}
    (hi : suiteInfo id = some info) (hu : info.usageLimit.isSome) (ks : List KeyCall)
    (hk : ∀ k ∈ ks, k.Digests) (c : CipherSt) (ph : Spec.Phase)
    (hinv : Spec.KeyInv E info c ph) :
    Spec.KeyInv E info (KeyCall.runAll E c ks)
      (ks.foldl (fun ph k => (ph.nextKey k).getD ph) ph) := by
  induction ks generalizing c ph with
  | nil => exact hinv
  | cons k ks ih =>
    exact ih (fun k' h => hk k' (List.mem_cons_of_mem _ h)) _ _
      (key_step hE hi hu c ph hinv k (hk k List.mem_cons_self)).1

/-- Full statement: as `C44_statement`, with `derive_early_secrets` among the calls. False for the
reason C44 is: see `C104_false_once`. -/
def C104_statement : Prop :=
  ∀ (E : Env), E.Sized → ∀ (id : Nat) (info : SuiteInfo), suiteInfo id = some info →
    info.usageLimit.isSome → ∀ (side : Side) (ks : List KeyCall) (k : KeyCall),
    (∀ k' ∈ k :: ks, k'.Digests) →
      let c := KeyCall.runAll E (CipherSt.new info side) ks
      let ph := Spec.keyPhase ks
      ((k.run E c).1 = none → (ph.nextKey k).isSome) ∧
      ((ph.nextKey k).isSome → (k.run E c).1 = none ∨ ∃ th d, k = .other (.verify th d)) ∧
      ((k.run E c).1 ≠ none → (k.run E c).2 = c)

/-- C104, partial. After any history of calls the early secrets are derived or skipped exactly once
and first, then the handshake's, then the master secrets; a refused call changes nothing. Missing
from `C104_statement`: the master secrets can be derived again, see `C104_false_once`. -/
theorem C104_order_partial {E : Env} (hE : E.Sized) {id : Nat} {info : SuiteInfo}
    (hi : suiteInfo id = some info) (hu : info.usageLimit.isSome) (side : Side)
    (ks : List KeyCall) (k : KeyCall) (hk : ∀ k' ∈ k :: ks, k'.Digests) :
    let c := KeyCall.runAll E (CipherSt.new info side) ks
    let ph := Spec.keyPhase ks
    ((k.run E c).1 = none →
      (ph.nextKey k).isSome ∨ (ph = .master ∧ ∃ a b, k = .other (.master a b))) ∧
    ((ph.nextKey k).isSome → (k.run E c).1 = none ∨ ∃ th d, k = .other (.verify th d)) ∧
    ((k.run E c).1 ≠ none → (k.run E c).2 = c) := by
  intro c ph
  exact (key_step hE hi hu c ph (key_inv hE hi hu ks
    (fun k' h => hk k' (List.mem_cons_of_mem _ h)) _ _ ⟨rfl, rfl, rfl, rfl⟩) k
    (hk k List.mem_cons_self)).2

example : ∀ k' ∈ [KeyCall.psk [] [1] Spec.Psk.external.word [2], .other (.handshake [1] [2]),
    .psk [] [1] [] [2], .other (.sign [3]), .other (.master [4] [5])], k'.Digests := by
  simp [KeyCall.Digests, SuiteCall.Digests]

/-- C104 is false of the code as stated, for the reason C44 is: the master secrets can be derived
again. -/
theorem C104_false_once : ¬ C104_statement := by
  intro h
  have := (h Toy.env Toy.sized 0x1301 _ rfl rfl .client
    [.psk [] [9] Spec.Psk.external.word [8], .other (.handshake [1] [2]), .other (.master [3] [4])]
    (.other (.master [3] [4]))
    (by simp [KeyCall.Digests, SuiteCall.Digests])).1 (by decide +kernel)
  revert this
  decide

/-- C104. The CCM suites cannot derive early secrets: TypeError, and the direction is left with a
key and no sequence. -/
theorem C104_ccm {E : Env} (hE : E.Sized) {id : Nat} {info : SuiteInfo}
    (hi : suiteInfo id = some info) (hu : info.usageLimit = none) (side : Side) (uid : PyStr)
    (psk : Bytes) (p : Spec.Psk) (th : Bytes) (hth : th.length ≤ 255) :
    ∃ c, deriveEarly E uid (CipherSt.new info side) psk p.word th = (.error .typeError, c, []) ∧
      c.secrets.stage = 1 ∧ (Spec.bySide side c.wr c.rd).key.isSome ∧
      (Spec.bySide side c.wr c.rd).seq = none := by
  obtain ⟨-, hn, hk, -, -⟩ := suite_facts hi
  have sz := info.digest.size_le
  have sp := info.digest.size_pos
  have hne : (zeros info.digest.size).isEmpty = false := not_isEmpty_of_length (length_zeros _)
  have hm : p.word = match p with | .external => modeExternal | .resumption => modeResume := by
    cases p <;> rfl
  have d1 := fun s => deriveSecret_ok hE info.digest s (hash := E.hash info.digest [])
    lblDerived "derived" (by decide) (by decide) (by rw [hE.hash]; omega)
  have d2 := fun s => deriveSecret_ok hE info.digest s (hash := E.hash info.digest [])
    (pskLabel p.word) p.binder (pskLabel_ok hm).1 (pskLabel_ok hm).2 (by rw [hE.hash]; omega)
  have d3 := fun s => deriveSecret_ok hE info.digest s lblEExp "e exp master" (by decide)
    (by decide) hth
  have d4 := fun s => deriveSecret_ok hE info.digest s lblCE "c e traffic" (by decide)
    (by decide) hth
  have k1 := fun s => hkdfExpandLabel_ok hE info.digest s (label := lblKey) (context := [])
    (L := info.keyLength) (by decide) (by decide) (by omega)
  have k2 := fun s => hkdfExpandLabel_ok hE info.digest s (label := lblIv) (context := [])
    (L := info.nonceLength) (by decide) (by decide) (by omega)
  have hmode : ¬ (p.word ≠ modeExternal ∧ p.word ≠ modeResume) := by
    cases p <;> decide
  simp only [deriveEarly, CipherSt.new, if_neg hmode, extractNext, hkdfExtract, hne, d1, d2, d3,
    d4, earlySecrets, Except.bind_def, ne_eq, not_true, if_false, pure, Except.pure, deriveKeyIv,
    k1, k2, installEarly, installDir, hu]
  cases side <;> exact ⟨_, rfl, rfl, rfl, rfl⟩

example : ∃ i, suiteInfo 0x1304 = some i ∧ i.usageLimit = none := ⟨_, rfl, rfl⟩

end Siotls
