import Verif.Proofs.Epoch
import Verif.Props.Schedule
import Verif.Model.ToyFacts
/-!
# Keys and records: C14, C15, C18, C45

`Conn.new … = .ok c` is a fresh connection, `runOps E ops c` the connection after any program `ops`
(any calls, in any order, with any received bytes, going on after any exception). The trace `tr`
records what the connection did, newest event first; see Spec/History.lean for its observers.

Assumption on the environment: `E.Sized` (digests and HMACs have their nominal size).
-/

namespace Siotls

variable {E : Env}

/-! ## C14 -/

/-- C14. At any moment of any history, the nonces used since the newest write key was installed
are pairwise distinct, and were used with that key. -/
theorem C14_epoch (hE : E.Sized) {config hostname ocsp algs random} {c : Conn}
    (h : Conn.new config hostname ocsp algs random = .ok c) (ops : List Op)
    (past : List Ev) (hp : past <:+ (runOps E ops c).tr) :
    (encryptions (sinceW past)).Nodup ∧
    ∀ k n, (k, n) ∈ encryptions (sinceW past) → ∃ s, (writeKeys past).head? = some (s, k) := by
  have := write_epoch (SeqInv.run hE h ops) hp
  refine ⟨this.1, fun k n hm => ?_⟩
  obtain ⟨s, k', _, _, h1, h2, -⟩ := this.2 (List.ne_nil_of_mem hm)
  exact ⟨s, by rw [h1, ← h2 _ hm]⟩

/-- C14. In any history whose write keys are pairwise distinct, no (key, nonce) is used twice. -/
theorem C14_nonces (hE : E.Sized) {config hostname ocsp algs random} {c : Conn}
    (h : Conn.new config hostname ocsp algs random = .ok c) (ops : List Op)
    (hk : ((writeKeys (runOps E ops c).tr).map Prod.snd).Nodup) :
    (encryptions (runOps E ops c).tr).Nodup := by
  have := (SeqInv.run hE h ops).epochs.1.nodup
  rw [encryptions_eq] at this
  exact this (by rw [← writeKeys_eq] at hk; exact hk)

/-- C14. A program that does not insist after `receive_data` raised has at most two write keys and
two read keys installed in the lifetime of the connection: keys cannot be reinstalled to reset
the sequence number. (With `C14_nonces`: nonces are unique as soon as the handshake traffic key
and the application traffic key differ.) -/
theorem C14_installs {config hostname ocsp algs random} {c : Conn}
    (h : Conn.new config hostname ocsp algs random = .ok c) (ops : List Op) (hc : Careful E ops c) :
    (writeKeys (runOps E ops c).tr).length ≤ 2 ∧ (readKeys (runOps E ops c).tr).length ≤ 2 := by
  have hp := (Guarded.run h ops hc).phase
  cases hk : (runOps E ops c).cipher with
  | none =>
    have h1 := hp.clearW (by rw [hk]; rfl)
    have h2 := hp.clearR (by rw [hk]; rfl)
    rw [← writeKeys_eq, ← readKeys_eq, h1, h2]; simp
  | some k =>
    have h1 := hp.countW k hk
    have h2 := hp.countR k hk
    have := budget_le_two k
    rw [← writeKeys_eq, ← readKeys_eq]; omega

/-- A complete handshake meets the hypotheses: two distinct write keys, four encryptions. -/
example : Toy.env.Sized ∧ (∃ c, Conn.new Toy.serverConfig none false [.sha256]
      (List.replicate 32 6) = .ok c ∧ Careful Toy.env Toy.serverOps c ∧
    ((writeKeys (runOps Toy.env Toy.serverOps c).tr).map Prod.snd).Nodup ∧
    (writeKeys (runOps Toy.env Toy.serverOps c).tr).length = 2 ∧
    (encryptions (runOps Toy.env Toy.serverOps c).tr).length = 4) :=
  ⟨Toy.sized, Toy.server0, Toy.server0_new, Toy.server_facts.1.2, Toy.server_facts.2.2.1,
    Toy.server_facts.2.2.2.1, Toy.server_facts.2.2.2.2.2.1⟩

/-! ## C15 -/

/-- the published limits: RFC 8446 section 5.5 (2^24.5 / 2 rounded for AES-GCM in the code:
11863283), 2^64 sequence numbers for ChaCha20-Poly1305 -/
def Spec.usageLimit : Nat → Nat
  | 0x1301 => 11863283
  | 0x1302 => 11863283
  | 0x1303 => 2 ^ 64
  | _ => 0

theorem limit_spec {s : Nat} {info : SuiteInfo} {lim : Nat} (h : suiteInfo s = some info)
    (hl : info.usageLimit = some lim) : lim = Spec.usageLimit s := by
  unfold suiteInfo at h
  split at h <;> cases h <;> cases hl <;> rfl

/-- C15. At any moment of any history, the number of records encrypted since the newest write key
was installed is at most the usage limit of its suite (none at all for CCM suites). -/
theorem C15_sent (hE : E.Sized) {config hostname ocsp algs random} {c : Conn}
    (h : Conn.new config hostname ocsp algs random = .ok c) (ops : List Op)
    (past : List Ev) (hp : past <:+ (runOps E ops c).tr) {s : Nat} {k : Bytes}
    (hk : (writeKeys past).head? = some (s, k)) :
    (encryptions (sinceW past)).length ≤ Spec.usageLimit s := by
  have := write_epoch (SeqInv.run hE h ops) hp
  by_cases hne : encryptions (sinceW past) = []
  · rw [hne]; exact Nat.zero_le _
  · obtain ⟨s', k', info, lim, h1, -, h3, h4, h5⟩ := this.2 hne
    rw [hk] at h1
    cases h1
    rw [← limit_spec h3 h4]; exact h5

/-- C15. Likewise for the records accepted under a read key. -/
theorem C15_accepted (hE : E.Sized) {config hostname ocsp algs random} {c : Conn}
    (h : Conn.new config hostname ocsp algs random = .ok c) (ops : List Op)
    (past : List Ev) (hp : past <:+ (runOps E ops c).tr) {s : Nat} {k : Bytes}
    (hk : (readKeys past).head? = some (s, k)) :
    (decryptions (sinceR past)).length ≤ Spec.usageLimit s := by
  have := read_epoch (SeqInv.run hE h ops) hp
  by_cases hne : decryptions (sinceR past) = []
  · rw [hne]; exact Nat.zero_le _
  · obtain ⟨s', k', info, lim, h1, -, h3, h4, h5⟩ := this.2 hne
    rw [hk] at h1
    cases h1
    rw [← limit_spec h3 h4]; exact h5

/-- C15. No record is encrypted, nor accepted, without a key. -/
theorem C15_keyless (hE : E.Sized) {config hostname ocsp algs random} {c : Conn}
    (h : Conn.new config hostname ocsp algs random = .ok c) (ops : List Op)
    (past : List Ev) (hp : past <:+ (runOps E ops c).tr) :
    (writeKeys past = [] → encryptions past = []) ∧ (readKeys past = [] → decryptions past = []) := by
  have hs := (SeqInv.run hE h ops).epochs
  have h1 := uses_key (hs.1.suffix (hp.filterMap _))
  have h2 := uses_key (hs.2.suffix (hp.filterMap _))
  rw [encryptions_eq] at h1
  rw [decryptions_eq] at h2
  constructor
  · intro hk
    refine List.eq_nil_iff_forall_not_mem.mpr fun p hm => ?_
    obtain ⟨s, hs⟩ := h1 p hm
    rw [← writeKeys_eq] at hk
    change _ ∈ wkeys past at hs
    rw [hk] at hs; cases hs
  · intro hk
    refine List.eq_nil_iff_forall_not_mem.mpr fun p hm => ?_
    obtain ⟨s, hs⟩ := h2 p hm
    rw [← readKeys_eq] at hk
    change _ ∈ rkeys past at hs
    rw [hk] at hs; cases hs

/-- the write key of `c` has protected all the records it may -/
def Exhausted (c : Conn) : Prop := ∃ k key iv n, c.cipher = some k ∧ k.wr.key = some key ∧
  k.wr.iv = some iv ∧ k.wr.seq = some n ∧ k.info.usageLimit = some n

theorem encrypt_exhausted {c : Conn} (h : Exhausted c) (d hd : Bytes) :
    cipherEncrypt E d hd c = (.error .runtimeError, c) := by
  obtain ⟨k, key, iv, n, h1, h2, h3, h4, h5⟩ := h
  simp [cipherEncrypt, h1, h2, nextNonce, h3, h4, h5]

theorem encryptFragment_exhausted {c : Conn} (h : Exhausted c) (ct : Nat) (f : Bytes) :
    ∃ e, encryptFragment E ct f c = (.error e, c) := by
  obtain ⟨k, hk⟩ : ∃ k, c.cipher = some k := by
    obtain ⟨k, _, _, _, h1, _⟩ := h; exact ⟨k, h1⟩
  unfold encryptFragment
  simp only [M.bind_def, M.get, getCipher, hk, M.lift]
  cases recordHeader Iana.ctApplicationData
    ((innerText c.mfl k.info.tagLength ct f).length + k.info.tagLength) with
  | error e => exact ⟨e, rfl⟩
  | ok hdr =>
    refine ⟨.runtimeError, ?_⟩
    dsimp only
    rw [encrypt_exhausted h]

/-- C15. With an exhausted key `send_data` raises, leaving the connection exactly as it was:
nothing is emitted, no counter wraps. (`17 < mfl`: fragments are not all of negative length, see
C10.) -/
theorem C15_refused {c : Conn} (h : Exhausted c) (hm : 17 < c.mfl)
    (ht : ∀ k, c.cipher = some k → k.info.tagLength ≤ 16) (d : Bytes) :
    ∃ e, (Op.send d).run E c = (.error e, c) := by
  have henc : c.mustEncrypt = true := by
    obtain ⟨k, key, _, _, h1, h2, _⟩ := h
    simp [Conn.mustEncrypt, h1, h2]
  have key : ∃ e, sendContent E (.applicationData d) c = (.error e, c) := by
    unfold sendContent
    simp only [M.bind_def, M.get]
    split
    · exact ⟨_, rfl⟩
    split
    · exact ⟨_, rfl⟩
    split
    · exact ⟨_, rfl⟩
    obtain ⟨k, hk⟩ : ∃ k, c.cipher = some k := by
      obtain ⟨k, _, _, _, h1, _⟩ := h; exact ⟨k, h1⟩
    have ht := ht k hk
    simp only [M.bind_def, M.lift, serContent, hashContent, hk, henc, Content.canFragment]
    have hpos : 0 < (c.mfl : Int) - (1 + k.info.tagLength : Nat) := by omega
    have hne : ∃ f fs, splitFragments ((c.mfl : Int) - (1 + k.info.tagLength : Nat)) true d =
        .ok (f :: fs) := by
      unfold splitFragments
      split
      · exact ⟨_, _, rfl⟩
      · rename_i hlt
        rw [if_pos rfl, if_neg (by omega), if_neg (by omega)]
        cases d with
        | nil => simp at hlt; omega
        | cons x xs => exact ⟨_, _, rfl⟩
    obtain ⟨f, fs, hf⟩ := hne
    simp only [Content.ctype]
    rw [show (pure () : M Unit) c = (.ok (), c) from rfl]
    dsimp only
    rw [hf]
    dsimp only
    unfold makeRecords
    simp only [M.bind_def, protect, if_true]
    obtain ⟨e, he⟩ := encryptFragment_exhausted (E := E) h Iana.ctApplicationData f
    exact ⟨e, by rw [he]⟩
  obtain ⟨e, he⟩ := key
  exact ⟨e, by simp [Op.run, sendData, M.bind_def, he]⟩

/-- A connected client whose key is exhausted. -/
def Toy.exhausted : Conn :=
  { Toy.clientDone with cipher := Toy.clientDone.cipher.map fun k =>
      { k with wr := { k.wr with seq := k.info.usageLimit } } }

set_option maxRecDepth 1000000 in
example : (match Toy.exhausted.cipher with
      | some k => k.wr.key.isSome && k.wr.iv.isSome && k.wr.seq == k.info.usageLimit &&
          k.info.usageLimit.isSome && k.info.tagLength ≤ 16
      | none => false) = true ∧ 17 < Toy.exhausted.mfl ∧ Toy.exhausted.state.canSendApp = true := by
  decide +kernel

/-! ## C18 -/

/-- C18, reading. In the history of a careful program, every content handed to the state machine
after a read key was installed is the decoding of fragments that all came out of a successful AEAD
decryption with the newest read key. -/
theorem C18_reading {config hostname ocsp algs random} {c : Conn}
    (h : Conn.new config hostname ocsp algs random = .ok c) (ops : List Op) (hc : Careful E ops c)
    {x : Content} {past : List Ev} (hp : (.recv x :: past) <:+ (runOps E ops c).tr)
    (hk : readKeys past ≠ []) :
    ∃ s k, (readKeys past).head? = some (s, k) ∧ ∃ certType ctype frs,
      decodeContent E certType ctype (List.flatten frs) = .ok x ∧
      ∀ f ∈ frs, Decrypted past s k ctype f := by
  have g := (Guarded.run h ops hc).events
  obtain ⟨t, ct, d, past', hs, hd, rfl, hhs⟩ := g _ _ hp
  have hr : readKeys (hs ++ .got ct d :: past') = readKeys past' := by
    rcases hhs with rfl | ⟨_, _, rfl⟩ <;> rfl
  rw [hr] at hk ⊢
  have hp' : (.got ct d :: past') <:+ (runOps E ops c).tr :=
    ((List.suffix_append _ _).trans (List.suffix_cons _ _)).trans hp
  obtain ⟨frs, rfl, hfr⟩ := g _ _ hp' hk
  cases hl : readKeys past' with
  | nil => exact absurd hl hk
  | cons sk rest =>
    obtain ⟨s, k⟩ := sk
    refine ⟨s, k, rfl, t, ct, frs, hd, fun f hf => ?_⟩
    obtain ⟨s', k', n, a, inner, hm, hin⟩ := mem_fragments (hfr f hf)
    obtain ⟨l', hsuf, hkeys⟩ := since_suffixR hm
    have := g _ _ (hsuf.trans ((List.suffix_cons _ _).trans hp'))
    change (readKeys l').head? = _ at this
    rw [hkeys, hl] at this
    cases this
    exact ⟨n, a, inner, List.mem_append_right _ (.tail _ (hsuf.subset (.head _))), hin⟩

/-- C18, delivering. Application data is delivered only right after having been received, hence,
once a read key is installed, decrypted. -/
theorem C18_delivering {config hostname ocsp algs random} {c : Conn}
    (h : Conn.new config hostname ocsp algs random = .ok c) (ops : List Op) (hc : Careful E ops c)
    {d : Bytes} {past : List Ev} (hp : (.delivered d :: past) <:+ (runOps E ops c).tr) :
    ∃ past', past = .recv (.applicationData d) :: past' := by
  have := (Guarded.run h ops hc).events _ _ hp
  change past.head? = _ at this
  cases past with
  | nil => cases this
  | cons e l => cases this; exact ⟨l, rfl⟩

/-- C18, writing. In the history of a careful program, every record emitted after a write key was
installed has the outer type application_data and is the output of the AEAD with the newest write
key. (The dummy ChangeCipherSpec is emitted before.) -/
theorem C18_writing {config hostname ocsp algs random} {c : Conn}
    (h : Conn.new config hostname ocsp algs random = .ok c) (ops : List Op) (hc : Careful E ops c)
    {outer : Nat} {body : Bytes} {past : List Ev}
    (hp : (.record outer body :: past) <:+ (runOps E ops c).tr) (hk : writeKeys past ≠ []) :
    outer = 23 ∧ ∃ s k, (writeKeys past).head? = some (s, k) ∧ ∃ nonce aad inner,
      Ev.sealed s k nonce aad inner ∈ past ∧ body = E.aeadSeal s k nonce aad inner := by
  have g := (Guarded.run h ops hc).events
  obtain ⟨ho, s, k, n, a, p, hm, hb⟩ := g _ _ hp hk
  obtain ⟨l', hsuf, hkeys⟩ := since_suffixW hm
  have := g _ _ (hsuf.trans ((List.suffix_cons _ _).trans hp))
  change (writeKeys l').head? = _ at this
  rw [hkeys] at this
  exact ⟨ho, s, k, this, n, a, p, hsuf.subset (.head _), hb⟩

/-- C18, keys are never uninstalled: once a key was installed, records are (de|en)crypted. -/
theorem C18_kept {config hostname ocsp algs random} {c : Conn}
    (h : Conn.new config hostname ocsp algs random = .ok c) (ops : List Op) (hc : Careful E ops c) :
    (writeKeys (runOps E ops c).tr ≠ [] → (runOps E ops c).mustEncrypt = true) ∧
    (readKeys (runOps E ops c).tr ≠ [] → (runOps E ops c).mustDecrypt = true) := by
  have hp := (Guarded.run h ops hc).phase
  rw [encOf_eq, decOf_eq, ← writeKeys_eq, ← readKeys_eq]
  constructor
  · intro hk
    cases hx : encOf (runOps E ops c).cipher with
    | true => rfl
    | false => exact absurd (hp.clearW hx) hk
  · intro hk
    cases hx : decOf (runOps E ops c).cipher with
    | true => rfl
    | false => exact absurd (hp.clearR hx) hk

/-- A complete handshake meets the hypotheses: it received contents after its read key was
installed and emitted records after its write key was installed. -/
def Toy.busy : List Ev → Bool
  | .recv _ :: l => !(readKeys l).isEmpty || Toy.busy l
  | _ :: l => Toy.busy l
  | [] => false

def Toy.busyW : List Ev → Bool
  | .record _ _ :: l => !(writeKeys l).isEmpty || Toy.busyW l
  | _ :: l => Toy.busyW l
  | [] => false

set_option maxRecDepth 1000000 in
example : Careful Toy.env Toy.clientOps Toy.client0 ∧ Toy.busy Toy.clientDone.tr = true ∧
    Toy.busyW Toy.clientDone.tr = true := by decide +kernel

/-! ## C45 -/

/-- C45, partial. Once a connection has been connected, whatever the program does then, every
record that `send_data` encrypts is encrypted with the application traffic key that RFC 8446
derives for this side (for some shared secret and some hash of the handshake).

Missing from the full statement: a server sends application data before the client's Finished
arrived (0.5-RTT), with its handshake key, see `C45_false`; and an endpoint that received
close_notify during the handshake may send data with the keys it had. -/
theorem C45_partial (hE : E.Sized) {config hostname ocsp algs random} {c : Conn}
    (h : Conn.new config hostname ocsp algs random = .ok c) (ops₁ ops₂ : List Op)
    (hs : (runOps E ops₁ c).state = .connected) (d : Bytes) :
    let c' := runOps E (ops₁ ++ ops₂) c
    ∃ new, ((Op.send d).run E c').2.tr = new ++ c'.tr ∧
      ∀ s key n a p, Ev.sealed s key n a p ∈ new → ∃ info shared th,
        c'.cipher.map (·.info) = some info ∧
        let H := E.spec info.digest
        key = H.writeKey (Spec.bySide config.side (H.cAp shared th) (H.sAp shared th))
          info.keyLength := by
  intro c'
  obtain ⟨hk, hside⟩ := KeyInv.run hE h (ops₁ ++ ops₂)
  have hseq := SeqInv.run hE h (ops₁ ++ ops₂)
  have hset : Settled c' := by
    show Settled (runOps E (ops₁ ++ ops₂) c)
    rw [runOps_append]
    exact runOps_inv (fun _ _ h hs => h.api hs) (Settled.of (KeyInv.run hE h ops₁).1 hs) ops₂
  have hrun : ((Op.send d).run E c').2 = (sendContent E (.applicationData d) c').2 := by
    simp only [Op.run, sendData, M.bind_def]
    rcases sendContent E (.applicationData d) c' with ⟨r, c''⟩
    cases r <;> rfl
  rw [hrun]
  obtain ⟨-, new, h1, h2⟩ := sealsWith_send (E := E) (.applicationData d) c'
  refine ⟨new, h1, fun s key n a p hm => ?_⟩
  obtain ⟨info, hw, hu⟩ := h2 _ _ _ _ _ hm
  unfold wrKey at hw
  cases hc : c'.cipher with
  | none => rw [hc] at hw; cases hw
  | some k =>
    rw [hc] at hw
    cases hkey : k.wr.key with
    | none => rw [Option.bind_some, hkey] at hw; cases hw
    | some x =>
      rw [Option.bind_some, hkey] at hw
      cases hw
      obtain ⟨shared, th, hx⟩ := hset.key hk hside hc hu hkey
      exact ⟨_, shared, th, rfl, hx⟩

/-- what `send_data` does on a server that waits for the client's Finished -/
def Toy.halfSends (c : Conn) : Bool :=
  match c.cipher, (Op.send [1, 2, 3]).run Toy.env c with
  | some k, (.ok _, c) => match c.tr with
    | .sent _ :: .record _ _ :: .sealed _ key _ _ p :: _ =>
      k.wr.key == some key && p == [1, 2, 3, 23] ++ zeros (p.length - 4) &&
      k.cFin != .none && k.cFin != .unset && k.info.usageLimit.isSome
    | _ => false
  | _, _ => false

set_option maxRecDepth 1000000 in
theorem Toy.halfSends_true : Toy.halfSends Toy.serverHalf = true := by decide +kernel

theorem Toy.halfSends_sound {c : Conn} (hk : KeyInv Toy.env c ∧ SideInv .server c)
    (hf : Toy.halfSends c = true) : ∃ (k : CipherSt) (shared th : Bytes) (key : Bytes),
    c.cipher = some k ∧
    (let H := Toy.env.spec k.info.digest
     key = H.writeKey (H.sHs shared th) k.info.keyLength) ∧
    raised ((Op.send [1, 2, 3]).run Toy.env c).1 = false ∧
    ∃ s n a p, IsInner p 23 [1, 2, 3] ∧
      Ev.sealed s key n a p ∈ ((Op.send [1, 2, 3]).run Toy.env c).2.tr := by
  unfold Toy.halfSends at hf
  split at hf
  · rename_i k r c' hc hr
    split at hf
    · rename_i x o b s key n a p l htr
      simp only [Bool.and_eq_true, beq_iff_eq, bne_iff_ne, ne_eq] at hf
      obtain ⟨⟨⟨⟨h1, h2⟩, h3⟩, h4⟩, h5⟩ := hf
      have hside := hk.2.cipher k hc
      rcases (hk.1.key k hc).2 h5 with ⟨-, hu, -⟩ | ⟨shared, -, ⟨th, -, -, hw, -⟩ | ⟨hn, -⟩⟩
      · exact absurd hu h4
      · rw [h1, hside] at hw
        exact ⟨k, shared, th, key, hc, Option.some.inj hw, by rw [hr]; rfl, s, n, a, p,
          ⟨23, p.length - 4, by decide, rfl, h2⟩, by rw [hr]; simp [htr]⟩
      · exact absurd hn h3
    · cases hf
  · cases hf

/-- C45 is false: `send_data` on a server that waits for the client's Finished is accepted and
protects the data with the server *handshake* traffic key. -/
theorem C45_false : ∃ (k : CipherSt) (shared th : Bytes) (key : Bytes),
    Toy.serverHalf.cipher = some k ∧
    (let H := Toy.env.spec k.info.digest
     key = H.writeKey (H.sHs shared th) k.info.keyLength) ∧
    raised ((Op.send [1, 2, 3]).run Toy.env Toy.serverHalf).1 = false ∧
    ∃ s n a p, IsInner p 23 [1, 2, 3] ∧
      Ev.sealed s key n a p ∈ ((Op.send [1, 2, 3]).run Toy.env Toy.serverHalf).2.tr :=
  Toy.halfSends_sound
    (KeyInv.run Toy.sized Toy.server0_new [.initiate, .receive Toy.hello512]) Toy.halfSends_true

/-- The hypotheses of `C45_partial` are met: the toy client gets connected. -/
example : (runOps Toy.env Toy.clientOps Toy.client0).state = .connected := Toy.client_facts.1.1

end Siotls
