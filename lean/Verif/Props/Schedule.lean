import Verif.Proofs.Schedule
import Verif.Model.Toy
/-!
# Key schedule properties: C41, C42, C43, C44

Assumptions on the environment, explicit in every theorem: `E.Sized` (digests and HMACs have
their nominal size). CCM suites are excluded by `info.usageLimit.isSome` (see C47).
-/

namespace Siotls
open Serial

theorem Toy.sized : Toy.env.Sized :=
  ⟨fun _ _ => by simp [Toy.env], fun _ _ _ => by simp [Toy.env]⟩

/-- C41. For every hash and HMAC of the right sizes, every registered suite (but the CCM ones),
side, shared secret and transcript hashes: the handshake and application directions hold exactly
the RFC 8446 keys and IVs for their sender with sequence number 0, the Finished MACs use the
RFC's finished keys, and the exporter and resumption secrets are the RFC's. `c2'` is the cipher
after any number of records have been protected with the handshake keys. -/
theorem C41_schedule {E : Env} (hE : E.Sized) {id : Nat} {info : SuiteInfo}
    (hi : suiteInfo id = some info) (hu : info.usageLimit.isSome) (side : Side)
    (shared th1 th2 th3 : Bytes) (h1 : th1.length ≤ 255) (h2 : th2.length ≤ 255)
    (h3 : th3.length ≤ 255) {kl : Nat} (hkl : Spec.suiteKeyLength id = some kl) :
    let H : Spec.Hash := ⟨info.digest.size, E.hash info.digest, E.hmac info.digest⟩
    some H.len = Spec.suiteHashLen id ∧
    ∃ c1 c2, skipEarly E (CipherSt.new info side) = .ok c1 ∧
      deriveHandshake E c1 shared th1 = (.ok (), c2) ∧
      c2.wr = Spec.keyed H (Spec.bySide side (H.cHs shared th1) (H.sHs shared th1)) kl ∧
      c2.rd = Spec.keyed H (Spec.bySide side (H.sHs shared th1) (H.cHs shared th1)) kl ∧
      (∀ m, signFinish E c2 m = .ok (H.hmac (H.finishedKey
        (Spec.bySide side (H.cHs shared th1) (H.sHs shared th1))) m)) ∧
      (∀ m v, verifyFinish E c2 m v = .ok () ↔ v = H.hmac (H.finishedKey
        (Spec.bySide side (H.sHs shared th1) (H.cHs shared th1))) m) ∧
      ∀ c2', c2'.secrets = c2.secrets → c2'.info = c2.info → c2'.side = c2.side →
        ∃ c3, deriveMaster E c2' th2 th3 =
            (.ok (H.exporter shared th2, H.resumption shared th3), c3) ∧
          c3.wr = Spec.keyed H (Spec.bySide side (H.cAp shared th2) (H.sAp shared th2)) kl ∧
          c3.rd = Spec.keyed H (Spec.bySide side (H.sAp shared th2) (H.cAp shared th2)) kl := by
  intro H
  obtain ⟨-, -, -, hk, hh⟩ := suite_facts hi
  rw [hk] at hkl
  cases hkl
  refine ⟨hh.symm, _, _, skipEarly_ok hE (CipherSt.new info side) rfl rfl,
    handshake_keys hE hi hu _ rfl shared th1 h1 rfl, rfl, rfl, ?_, ?_, ?_⟩
  · intro m
    cases side <;> simp only [Spec.bySide] <;> rfl
  · intro m v
    cases side <;> simp [verifyFinish, finMac, CipherSt.new, Except.bind_def, Spec.bySide] <;>
      (split <;> simp_all [pure, Except.pure, H, Env.spec] <;> exact fun h => absurd h.symm ‹_›)
  · intro c2' hs hinf hside
    refine ⟨_, master_keys hE hi hu c2' hinf shared th2 th3 h2 h3 hs, ?_, ?_⟩ <;>
      simp only [hside] <;> rfl

/-- The hypotheses of `C41_schedule` are satisfiable: the toy environment and the default suite. -/
example : Toy.env.Sized ∧ (∃ i, suiteInfo 0x1302 = some i ∧ i.usageLimit.isSome ∧
    Spec.suiteKeyLength 0x1302 = some 32 ∧ (Toy.env.hash i.digest [1]).length ≤ 255) := by
  refine ⟨⟨?_, ?_⟩, _, rfl, rfl, rfl, by decide⟩
  · intro a m; simp [Toy.env]
  · intro a k m; simp [Toy.env]

/-- C42. Whatever the (possibly different) environments' key exchange gives, a client and a
server of the same suite fed the same shared secret and transcript hashes hold mirrored keys, at
the handshake and at the application stage, and accept each other's Finished MAC. -/
theorem C42_mirrored {E : Env} (hE : E.Sized) {id : Nat} {info : SuiteInfo}
    (hi : suiteInfo id = some info) (hu : info.usageLimit.isSome)
    (shared th1 th2 th3 : Bytes) (h1 : th1.length ≤ 255) (h2 : th2.length ≤ 255)
    (h3 : th3.length ≤ 255) :
    ∃ a b a' b' x a'' b'',
      skipEarly E (CipherSt.new info .client) = .ok a ∧
      skipEarly E (CipherSt.new info .server) = .ok b ∧
      deriveHandshake E a shared th1 = (.ok (), a') ∧
      deriveHandshake E b shared th1 = (.ok (), b') ∧
      a'.wr = b'.rd ∧ a'.rd = b'.wr ∧
      (∀ m, ∃ t, signFinish E a' m = .ok t ∧ verifyFinish E b' m t = .ok ()) ∧
      (∀ m, ∃ t, signFinish E b' m = .ok t ∧ verifyFinish E a' m t = .ok ()) ∧
      deriveMaster E a' th2 th3 = (.ok x, a'') ∧
      deriveMaster E b' th2 th3 = (.ok x, b'') ∧
      a''.wr = b''.rd ∧ a''.rd = b''.wr := by
  obtain ⟨-, -, -, hk, -⟩ := suite_facts hi
  obtain ⟨-, a, a', e1, e2, e3, e4, e5, e6, e7⟩ :=
    C41_schedule hE hi hu .client shared th1 th2 th3 h1 h2 h3 hk
  obtain ⟨-, b, b', f1, f2, f3, f4, f5, f6, f7⟩ :=
    C41_schedule hE hi hu .server shared th1 th2 th3 h1 h2 h3 hk
  obtain ⟨a'', g1, g2, g3⟩ := e7 a' rfl rfl rfl
  obtain ⟨b'', i1, i2, i3⟩ := f7 b' rfl rfl rfl
  refine ⟨a, b, a', b', _, a'', b'', e1, f1, e2, f2, by simp only [e3, f4, Spec.bySide],
    by simp only [e4, f3, Spec.bySide],
    fun m => ⟨_, e5 m, ?_⟩, fun m => ⟨_, f5 m, ?_⟩, g1, i1, by simp only [g2, i3, Spec.bySide],
    by simp only [g3, i2, Spec.bySide]⟩
  · simp only [f6, Spec.bySide]
  · simp only [e6, Spec.bySide]


/-- C43, length: `hkdf_expand_label` succeeds exactly when the label and context fit their length
bytes and at most 255 blocks are requested; it then returns the RFC's bytes, exactly `L` of them.
Otherwise it raises OverflowError. This covers the single-block shortcut `L = digest_size`. -/
theorem C43_length {E : Env} (hE : E.Sized) (a : HashAlg) (secret label context : Bytes) (L : Nat) :
    let H : Spec.Hash := ⟨a.size, E.hash a, E.hmac a⟩
    if label.length ≤ 249 ∧ context.length ≤ 255 ∧ L ≤ 255 * a.size then
      ∃ out, hkdfExpandLabel E a secret label context L = .ok out ∧ out.length = L ∧
        out = H.expandLabel secret label context L
    else hkdfExpandLabel E a secret label context L = .error .overflow := by
  intro H
  split
  · rename_i h
    exact ⟨_, hkdfExpandLabel_ok hE a secret h.1 h.2.1 h.2.2, length_expand hE a _ _ h.2.2, rfl⟩
  · rename_i h
    exact hkdfExpandLabel_overflow a secret label context L h

example : ∃ out, hkdfExpandLabel Toy.env .sha256 [1, 2] lblKey [] 100 = .ok out ∧
    out.length = 100 := by
  obtain ⟨o, h1, h2, -⟩ := C43_length (E := Toy.env)
    Toy.sized .sha256 [1, 2] lblKey [] 100
  exact ⟨o, h1, h2⟩

/-- C43, the shortcut taken for one block agrees with the general loop. -/
theorem C43_shortcut {E : Env} (hE : E.Sized) (a : HashAlg) (prk info : Bytes) :
    hkdfExpand E a prk info a.size =
      (hkdfRounds E a prk info 1 1 []).map (List.take a.size) := by
  have := hE.hmac a prk (info ++ [1])
  simp [hkdfExpand, hkdfRounds, toBytes, beEnc, Except.bind_def, pure, Except.pure, Except.map,
    ← this]

/-- C43, domain separation: the `HkdfLabel`s of two calls that differ by label, context or
length differ. -/
theorem C43_label_injective {l₁ l₂ c₁ c₂ : Bytes} {n₁ n₂ : Nat} {x : Bytes}
    (h₁ : hkdfLabel l₁ c₁ n₁ = .ok x) (h₂ : hkdfLabel l₂ c₂ n₂ = .ok x) :
    l₁ = l₂ ∧ c₁ = c₂ ∧ n₁ = n₂ := hkdfLabel_inj h₁ h₂

/-- C43, domain separation: no HMAC input of a call (any block `i`) is an HMAC input of a call
that differs by label, context or length (any block `j`), even with different secrets. -/
theorem C43_separated {E : Env} (hE : E.Sized) (a : HashAlg) (s₁ s₂ : Bytes) {l₁ l₂ c₁ c₂ : Bytes}
    {n₁ n₂ : Nat} {x y : Bytes} (h₁ : hkdfLabel l₁ c₁ n₁ = .ok x) (h₂ : hkdfLabel l₂ c₂ n₂ = .ok y)
    (hne : (l₁, c₁, n₁) ≠ (l₂, c₂, n₂)) (i j : Nat) (hi : i < 255) (hj : j < 255) :
    let H : Spec.Hash := ⟨a.size, E.hash a, E.hmac a⟩
    H.T s₁ x i ++ x ++ [UInt8.ofNat (i + 1)] ≠ H.T s₂ y j ++ y ++ [UInt8.ofNat (j + 1)] := by
  intro H h
  have hxy : x ≠ y := by
    rintro rfl
    obtain ⟨rfl, rfl, rfl⟩ := hkdfLabel_inj h₁ h₂
    exact hne rfl
  obtain ⟨h, hij⟩ := List.append_inj' h rfl
  have hij : i = j := by
    simp only [List.cons.injEq, and_true] at hij
    have := congrArg UInt8.toNat hij
    simp at this
    omega
  subst hij
  have hlen : (H.T s₁ x i).length = (H.T s₂ y i).length := by
    cases i with
    | zero => rfl
    | succ i => exact (length_T hE a s₁ x i).trans (length_T hE a s₂ y i).symm
  exact hxy (List.append_inj h hlen).2

example : ∃ x y, hkdfLabel lblKey [] 16 = .ok x ∧ hkdfLabel lblIv [] 12 = .ok y := ⟨_, _, rfl, rfl⟩

/-- C42, separation: the four traffic secrets use four different labels, hence (by
`C43_separated`) disjoint HMAC inputs whatever the transcript hashes. -/
theorem C42_labels (th₁ th₂ : Bytes) (n : Nat) (i j : Fin 4) (x y : Bytes)
    (hx : hkdfLabel [lblCHs, lblSHs, lblCAp, lblSAp][i] th₁ n = .ok x)
    (hy : hkdfLabel [lblCHs, lblSHs, lblCAp, lblSAp][j] th₂ n = .ok y) (hij : i ≠ j) : x ≠ y := by
  rintro rfl
  have := (hkdfLabel_inj hx hy).1
  revert hij this
  clear hx hy
  revert i j
  decide

/-! ## C44 -/

/-- A call on a cipher suite object. -/
inductive SuiteCall where
  | early
  | handshake (shared th : Bytes)
  | master (th2 th3 : Bytes)
  | sign (th : Bytes)
  | verify (th data : Bytes)

/-- The object after a call, and the error raised if any. -/
def SuiteCall.run (E : Env) (c : CipherSt) : SuiteCall → Option Exn × CipherSt
  | .early => match skipEarly E c with
    | .ok c' => (none, c')
    | .error e => (some e, c)
  | .handshake s th => match deriveHandshake E c s th with
    | (.ok _, c') => (none, c')
    | (.error e, c') => (some e, c')
  | .master a b => match deriveMaster E c a b with
    | (.ok _, c') => (none, c')
    | (.error e, c') => (some e, c')
  | .sign th => match signFinish E c th with
    | .ok _ => (none, c)
    | .error e => (some e, c)
  | .verify th d => match verifyFinish E c th d with
    | .ok _ => (none, c)
    | .error e => (some e, c)

/-- What a caller remembers of the calls that succeeded. -/
inductive Spec.Phase where
  | fresh | early | handshake | master
  deriving DecidableEq

/-- The order in which derivations are allowed: early, then handshake, then master. -/
def Spec.Phase.next : Spec.Phase → SuiteCall → Option Spec.Phase
  | .fresh, .early => some .early
  | .early, .handshake .. => some .handshake
  | .handshake, .master .. => some .master
  | .handshake, .sign _ => some .handshake
  | .handshake, .verify .. => some .handshake
  | _, _ => none

/-- The arguments are digests. -/
def SuiteCall.Digests : SuiteCall → Prop
  | .handshake _ th => th.length ≤ 255
  | .master a b => a.length ≤ 255 ∧ b.length ≤ 255
  | _ => True

/-- Run calls, recording each error. -/
def SuiteCall.runAll (E : Env) (c : CipherSt) : List SuiteCall → List (Option Exn) × CipherSt
  | [] => ([], c)
  | k :: ks =>
    let (r, c) := k.run E c
    let (rs, c) := runAll E c ks
    (r :: rs, c)

/-- The phase reached after a history of calls: calls out of order do not count. -/
def Spec.phaseAfter (ks : List SuiteCall) : Spec.Phase :=
  ks.foldl (fun ph k => (ph.next k).getD ph) .fresh

/-- Full statement of C44: whatever the history, a call is accepted only when it is the next one
in order, is accepted then (but a wrong Finished MAC is refused), and a refused call changes
nothing. False: see `C44_false_once`. -/
def C44_statement : Prop :=
  ∀ (E : Env), E.Sized → ∀ (id : Nat) (info : SuiteInfo), suiteInfo id = some info →
    info.usageLimit.isSome → ∀ (side : Side) (ks : List SuiteCall) (k : SuiteCall),
    (∀ k' ∈ k :: ks, k'.Digests) →
      let c := (SuiteCall.runAll E (CipherSt.new info side) ks).2
      let ph := Spec.phaseAfter ks
      ((k.run E c).1 = none → (ph.next k).isSome) ∧
      ((ph.next k).isSome → (k.run E c).1 = none ∨ ∃ th d, k = .verify th d) ∧
      ((k.run E c).1 ≠ none → (k.run E c).2 = c)

def Spec.PhaseInv (E : Env) (info : SuiteInfo) (c : CipherSt) (ph : Spec.Phase) : Prop :=
  let H := E.spec info.digest
  c.info = info ∧ match ph with
  | .fresh => c.secrets = ⟨0, zeros info.digest.size⟩ ∧ c.cFin = .unset ∧ c.sFin = .unset
  | .early => c.secrets = ⟨1, H.deriveSecret H.earlySecret "derived" (H.hash [])⟩ ∧
      c.cFin = .unset ∧ c.sFin = .unset
  | .handshake => (∃ shared, c.secrets =
        ⟨2, H.deriveSecret (H.handshakeSecret shared) "derived" (H.hash [])⟩) ∧
      (∃ a b, c.cFin = .key a ∧ c.sFin = .key b)
  | .master => (∃ shared, c.secrets =
        ⟨2, H.deriveSecret (H.handshakeSecret shared) "derived" (H.hash [])⟩) ∧
      c.cFin = .none ∧ c.sFin = .none

theorem deriveHandshake_refused {E : Env} {c : CipherSt} (h : c.secrets.stage ≠ 1) (s th : Bytes) :
    deriveHandshake E c s th = (.error .assertion, c) := by
  simp [deriveHandshake, handshakeSecrets, h]

theorem deriveMaster_refused {E : Env} {c : CipherSt} (h : c.secrets.stage ≠ 2) (a b : Bytes) :
    deriveMaster E c a b = (.error .assertion, c) := by
  simp [deriveMaster, masterSecrets, h]

theorem skipEarly_refused {E : Env} {c : CipherSt} (h : c.secrets.stage ≠ 0) :
    skipEarly E c = .error .assertion := by
  simp [skipEarly, h]

theorem phase_step {E : Env} (hE : E.Sized) {id : Nat} {info : SuiteInfo}
    (hi : suiteInfo id = some info) (hu : info.usageLimit.isSome) (c : CipherSt)
    (ph : Spec.Phase) (hinv : Spec.PhaseInv E info c ph) (k : SuiteCall) (hk : k.Digests) :
    Spec.PhaseInv E info (k.run E c).2 ((ph.next k).getD ph) ∧
    ((k.run E c).1 = none → (ph.next k).isSome ∨ (ph = .master ∧ ∃ a b, k = .master a b)) ∧
    ((ph.next k).isSome → (k.run E c).1 = none ∨ ∃ th d, k = .verify th d) ∧
    ((k.run E c).1 ≠ none → (k.run E c).2 = c) := by
  obtain ⟨hci, hinv⟩ := hinv
  have fin : ∀ a b x, c.cFin = a → c.sFin = b → signFinish E c x =
      finMac E info.digest (match c.side with | .client => a | .server => b) x := by
    rintro a b x rfl rfl; rw [signFinish, hci]; cases c.side <;> rfl
  have ver : ∀ a b x d, c.cFin = a → c.sFin = b → verifyFinish E c x d = (do
      let mac ← finMac E info.digest (match c.side with | .client => b | .server => a) x
      if mac = d then return () else .error .valueError) := by
    rintro a b x d rfl rfl; rw [verifyFinish, hci]; cases c.side <;> rfl
  cases ph <;> simp only at hinv
  · obtain ⟨hs, hc, hsf⟩ := hinv
    have f := fun x => fin _ _ x hc hsf
    have v := fun x d => ver _ _ x d hc hsf
    cases k <;> simp only [SuiteCall.run, Spec.Phase.next]
    · rw [skipEarly_ok hE c (by rw [hs]) (by rw [hs, hci])]
      subst hci
      simp [Spec.PhaseInv, hc, hsf]
    · rw [deriveHandshake_refused (by simp [hs])]
      simp [Spec.PhaseInv, *]
    · rw [deriveMaster_refused (by simp [hs])]
      simp [Spec.PhaseInv, *]
    · rw [f]; cases c.side <;> simp [finMac, Spec.PhaseInv, *]
    · rw [v]; cases c.side <;> simp [finMac, Spec.PhaseInv, Except.bind_def, *]
  · obtain ⟨hs, hc, hsf⟩ := hinv
    have f := fun x => fin _ _ x hc hsf
    have v := fun x d => ver _ _ x d hc hsf
    cases k <;> simp only [SuiteCall.run, Spec.Phase.next]
    · rw [skipEarly_refused (by simp [hs])]
      simp [Spec.PhaseInv, *]
    · rw [handshake_keys hE hi hu c hci _ _ hk hs]
      exact ⟨⟨hci, ⟨_, rfl⟩, _, _, rfl, rfl⟩, by simp⟩
    · rw [deriveMaster_refused (by simp [hs])]
      simp [Spec.PhaseInv, *]
    · rw [f]; cases c.side <;> simp [finMac, Spec.PhaseInv, *]
    · rw [v]; cases c.side <;> simp [finMac, Spec.PhaseInv, Except.bind_def, *]
  · have hI : Spec.PhaseInv E info c .handshake := ⟨hci, hinv⟩
    obtain ⟨⟨sh, hs⟩, a, b, hc, hsf⟩ := hinv
    have f := fun x => fin _ _ x hc hsf
    have v := fun x d => ver _ _ x d hc hsf
    cases k <;> simp only [SuiteCall.run, Spec.Phase.next]
    · rw [skipEarly_refused (by simp [hs])]
      simp [hI]
    · rw [deriveHandshake_refused (by simp [hs])]
      simp [hI]
    · rw [master_keys hE hi hu c hci _ _ _ hk.1 hk.2 hs]
      exact ⟨⟨hci, ⟨_, hs⟩, rfl, rfl⟩, by simp⟩
    · rw [f]; cases c.side <;> simp [finMac, hI]
    · rw [v]; cases c.side <;> simp only [finMac, Except.bind_def] <;> split <;>
        simp [hI]
  · have hI : Spec.PhaseInv E info c .master := ⟨hci, hinv⟩
    obtain ⟨⟨sh, hs⟩, hc, hsf⟩ := hinv
    have f := fun x => fin _ _ x hc hsf
    have v := fun x d => ver _ _ x d hc hsf
    cases k <;> simp only [SuiteCall.run, Spec.Phase.next]
    · rw [skipEarly_refused (by simp [hs])]
      simp [hI]
    · rw [deriveHandshake_refused (by simp [hs])]
      simp [hI]
    · rw [master_keys hE hi hu c hci _ _ _ hk.1 hk.2 hs]
      exact ⟨⟨hci, ⟨_, hs⟩, rfl, rfl⟩, by simp⟩
    · rw [f]; cases c.side <;> simp [finMac, hI]
    · rw [v]; cases c.side <;> simp [finMac, hI, Except.bind_def]

theorem phase_inv {E : Env} (hE : E.Sized) {id : Nat} {info : SuiteInfo}
    (hi : suiteInfo id = some info) (hu : info.usageLimit.isSome) (ks : List SuiteCall)
    (hk : ∀ k ∈ ks, k.Digests) (c : CipherSt) (ph : Spec.Phase)
    (hinv : Spec.PhaseInv E info c ph) :
    Spec.PhaseInv E info (SuiteCall.runAll E c ks).2
      (ks.foldl (fun ph k => (ph.next k).getD ph) ph) := by
  induction ks generalizing c ph with
  | nil => exact hinv
  | cons k ks ih =>
    exact ih (fun k' h => hk k' (List.mem_cons_of_mem _ h)) _ _
      (phase_step hE hi hu c ph hinv k (hk k List.mem_cons_self)).1

/-- C44. After any history of calls: the derivations are accepted exactly in the order early,
handshake, master; Finished MACs are computed and checked only between the handshake and master
derivations; a refused call changes nothing. Missing from `C44_statement`: the master secrets can
be derived again (last disjunct), see `C44_false_once`. -/
theorem C44_order_partial {E : Env} (hE : E.Sized) {id : Nat} {info : SuiteInfo}
    (hi : suiteInfo id = some info) (hu : info.usageLimit.isSome) (side : Side)
    (ks : List SuiteCall) (k : SuiteCall) (hk : ∀ k' ∈ k :: ks, k'.Digests) :
    let c := (SuiteCall.runAll E (CipherSt.new info side) ks).2
    let ph := Spec.phaseAfter ks
    ((k.run E c).1 = none → (ph.next k).isSome ∨ (ph = .master ∧ ∃ a b, k = .master a b)) ∧
    ((ph.next k).isSome → (k.run E c).1 = none ∨ ∃ th d, k = .verify th d) ∧
    ((k.run E c).1 ≠ none → (k.run E c).2 = c) := by
  intro c ph
  exact (phase_step hE hi hu c ph (phase_inv hE hi hu ks
    (fun k' h => hk k' (List.mem_cons_of_mem _ h)) _ _ ⟨rfl, rfl, rfl, rfl⟩) k
    (hk k List.mem_cons_self)).2

example : ∀ k' ∈ [SuiteCall.early, .handshake [1] [2], .sign [3], .master [4] [5]],
    k'.Digests := by
  simp [SuiteCall.Digests]

/-- C44 is false of the code as stated: `derive_master_secrets` does not advance the state
(`update_salt=False`, ciphers.py:87-88), so it can be executed twice; the second call reinstalls
the same keys with sequence numbers restarted at 0. -/
theorem C44_false_once : ¬ C44_statement := by
  intro h
  have := (h Toy.env Toy.sized 0x1301 _ rfl rfl .client
    [.early, .handshake [1] [2], .master [3] [4]] (.master [3] [4])
    (by simp [SuiteCall.Digests])).1 (by decide +kernel)
  revert this
  decide

end Siotls
