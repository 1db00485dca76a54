import Verif.Proofs.Session
/-!
# The messages of a handshake without client authentication: they can be written and read
-/

namespace Siotls
open Spec Serial

variable {E : Env}

/-- this serialization works and gives `n` bytes -/
def Writes (r : Except Exn Bytes) (n : Nat) : Prop := ∃ b, r = .ok b ∧ b.length = n

theorem Writes.ok {b : Bytes} {n : Nat} (h : b.length = n) : Writes (.ok b) n := ⟨b, rfl, h⟩

theorem Writes.pure {b : Bytes} {n : Nat} (h : b.length = n) : Writes (Pure.pure b) n := ⟨b, rfl, h⟩

theorem Writes.bind {x : Except Exn Bytes} {f : Bytes → Except Exn Bytes} {n m : Nat} (h : Writes x n)
    (h' : ∀ b, b.length = n → Writes (f b) m) : Writes (x >>= f) m := by
  obtain ⟨b, rfl, hb⟩ := h
  exact h' b hb

theorem Writes.toBytes {k i : Nat} (h : i < 256 ^ k) : Writes (toBytes k i) k :=
  ⟨_, toBytes_ok.mpr ⟨h, rfl⟩, length_beEnc ..⟩

theorem Writes.writeVar {k : Nat} {b : Bytes} (h : b.length < 256 ^ k) :
    Writes (writeVar k b) (k + b.length) :=
  ⟨_, writeVar_ok.mpr ⟨h, rfl⟩, by simp⟩

theorem Writes.concat {α} {f : α → Except Exn Bytes} {g : α → Nat} {l : List α}
    (h : ∀ a ∈ l, Writes (f a) (g a)) : Writes (concatMapM f l) (l.map g).sum := by
  induction l with
  | nil => exact .ok rfl
  | cons a l ih =>
    refine .bind (h a List.mem_cons_self) fun b hb => ?_
    refine .bind (ih fun a ha => h a (List.mem_cons_of_mem _ ha)) fun b' hb' => ?_
    exact .pure (by rw [List.length_append, hb, hb']; rfl)

theorem Writes.ext {e : Ext} {n : Nat} (h : Writes (serExtBody E e) n) (ht : e.type < 65536)
    (hn : n < 65536) : Writes (serExt E e) (n + 4) := by
  refine .bind h fun b hb => .bind (.toBytes ht) fun t ht => ?_
  refine .bind (.writeVar (by rw [hb]; exact hn)) fun w hw => .pure ?_
  rw [List.length_append, ht, hw, hb]; omega

theorem Writes.exts {l : List Ext} {g : Ext → Nat} (h : ∀ e ∈ l, Writes (serExt E e) (g e))
    (hn : (l.map g).sum < 65536) : Writes (serExtList E l) (2 + (l.map g).sum) := by
  refine .bind (.concat h) fun b hb => ?_
  rw [← hb]
  exact .writeVar (by rw [hb]; exact hn)

theorem Writes.message {m : Handshake} {n : Nat} (h : Writes (serHsBody E m) n) (hn : n < 16777216) :
    Writes (serHandshake E m) (n + 4) := by
  refine .bind h fun b hb => .bind (.writeVar (by rw [hb]; exact hn)) fun w hw => .pure ?_
  rw [List.length_append, hw, hb, length_beEnc]; omega

/-! ## ServerHello -/

/-- the extensions of the ServerHello -/
def helloExts (g : Nat) (share : Bytes) : List Ext :=
  [.supportedVersionsResp Iana.tls13, .keyShareResp g share]

theorem serverHello_writes {random share : Bytes} {suite g : Nat} (hr : random.length = 32)
    (hs : suite < 65536) (hg : g < 65536) (hsh : share.length ≤ 2048) :
    Writes (serHandshake E (.serverHello random [] suite (helloExts g share))) (share.length + 58) := by
  have h1 : Writes (serExt E (.supportedVersionsResp Iana.tls13)) 6 :=
    .ext (n := 2) (.toBytes (by decide)) (by decide) (by decide)
  have h2 : Writes (serExt E (.keyShareResp g share)) (share.length + 8) := by
    refine .ext (n := share.length + 4) ?_ (by show 51 < 65536; decide) (by omega)
    refine .bind (.toBytes (by simpa using hg)) fun a ha => ?_
    refine .bind (.writeVar (by omega)) fun b hb => .pure ?_
    rw [List.length_append, ha, hb]; omega
  have h3 : Writes (serExtList E (helloExts g share)) (share.length + 16) := by
    have : ∀ e ∈ helloExts g share, Writes (serExt E e)
        (match e with | .keyShareResp .. => share.length + 8 | _ => 6) := by
      intro e he
      simp only [helloExts, List.mem_cons, List.not_mem_nil, or_false] at he
      rcases he with rfl | rfl
      · exact h1
      · exact h2
    have h := Writes.exts this (by simp [helloExts]; omega)
    simp only [helloExts, List.map_cons, List.map_nil, List.sum_cons, List.sum_nil] at h
    rw [show share.length + 16 = 2 + (6 + (share.length + 8 + 0)) by omega]
    exact h
  refine .message (n := share.length + 54) ?_ (by omega)
  refine .bind h3 fun e he => .bind (.writeVar (b := []) (by simp)) fun s hs' => ?_
  refine .bind (.toBytes (by simpa using hs)) fun c hc => .pure ?_
  simp only [List.length_append, length_beEnc, hr, hs', hc, he, List.length_nil]
  omega

theorem serverHello_good {random share : Bytes} {suite g : Nat} (hr : random.length = 32)
    (hh : random ≠ hrrRandom) (ct : Option (Option Nat)) :
    GoodMsg E ct (.serverHello random [] suite (helloExts g share)) := by
  refine ⟨hr, hh, ?_, ?_⟩
  · simp [DistinctTypes, helloExts, Ext.type]
  · intro e he
    simp only [helloExts, List.mem_cons, List.not_mem_nil, or_false] at he
    rcases he with rfl | rfl
    · exact ⟨rfl, by simp [allowedIn], trivial, rfl⟩
    · exact ⟨trivial, by simp [allowedIn], trivial, rfl⟩

/-! ## EncryptedExtensions -/

/-- the answer about application protocols -/
def alpnAnswer : Option Bytes → List Ext
  | some p => [.alpn [p]]
  | none => []

/-- the encrypted extensions: the protocol chosen, if any, and the answer about heartbeats -/
def encryptedExts (p : Option Bytes) (echo : Bool) : List Ext :=
  alpnAnswer p ++
  [.heartbeat (if echo then Iana.peerAllowedToSend else Iana.peerNotAllowedToSend)]

theorem encryptedExtensions_writes {p : Option Bytes} {echo : Bool} (hp : ∀ b, p = some b → b.length < 256) :
    ∃ n ≤ 300, Writes (serHandshake E (.encryptedExtensions (encryptedExts p echo))) n := by
  have h1 : Writes (serExt E (.heartbeat
      (if echo then Iana.peerAllowedToSend else Iana.peerNotAllowedToSend))) 5 :=
    .ext (n := 1) (.toBytes (by cases echo <;> decide)) (by show 15 < 65536; decide) (by decide)
  cases p with
  | none =>
    have := Writes.exts (E := E) (l := encryptedExts none echo) (g := fun _ => 5) (by
      intro e he
      simp only [encryptedExts, alpnAnswer, List.nil_append, List.mem_singleton] at he
      subst he
      exact h1) (by simp [encryptedExts, alpnAnswer])
    exact ⟨_, by simp [encryptedExts, alpnAnswer], .message this (by simp [encryptedExts, alpnAnswer])⟩
  | some b =>
    have hb := hp b rfl
    have h2 : Writes (serExt E (.alpn [b])) (b.length + 7) := by
      refine .ext (n := b.length + 3) ?_ (by show 16 < 65536; decide) (by omega)
      have hc : Writes (concatMapM (Serial.writeVar 1) [b]) (1 + b.length) := by
        have := Writes.concat (f := Serial.writeVar 1) (l := [b]) (g := fun b => 1 + b.length) (by
          intro a ha
          rw [List.mem_singleton.mp ha]
          exact .writeVar hb)
        simpa using this
      refine .bind hc fun x hx => ?_
      rw [show b.length + 3 = 2 + x.length by omega]
      exact .writeVar (by omega)
    have := Writes.exts (E := E) (l := encryptedExts (some b) echo)
      (g := fun e => match e with | .alpn _ => b.length + 7 | _ => 5) (by
      intro e he
      simp only [encryptedExts, alpnAnswer, List.singleton_append, List.mem_cons, List.not_mem_nil, or_false] at he
      rcases he with rfl | rfl
      · exact h2
      · exact h1) (by simp [encryptedExts, alpnAnswer]; omega)
    refine ⟨_, ?_, .message this ?_⟩ <;>
    · simp only [encryptedExts, alpnAnswer, List.singleton_append, List.map_cons, List.map_nil, List.sum_cons,
        List.sum_nil]
      omega

theorem encryptedExtensions_good {p : Option Bytes} {echo : Bool} (ct : Option (Option Nat))
    (hp : ∀ b, p = some b → ∀ c ∈ b, ' '.toNat ≤ c.toNat ∧ c.toNat ≤ '~'.toNat) :
    GoodMsg E ct (.encryptedExtensions (encryptedExts p echo)) := by
  refine ⟨?_, ?_⟩
  · cases p <;> simp [DistinctTypes, encryptedExts, alpnAnswer, Ext.type]
  · intro e he
    have hb : RoundTrips E .encryptedExtensions (.heartbeat
        (if echo then Iana.peerAllowedToSend else Iana.peerNotAllowedToSend)) :=
      ⟨by cases echo <;> simp [legal, Iana.peerAllowedToSend, Iana.peerNotAllowedToSend],
        by simp [allowedIn], trivial, rfl⟩
    cases p with
    | none =>
      simp only [encryptedExts, alpnAnswer, List.nil_append, List.mem_singleton] at he
      rw [he]
      exact hb
    | some b =>
      simp only [encryptedExts, alpnAnswer, List.singleton_append, List.mem_cons, List.not_mem_nil, or_false] at he
      rcases he with rfl | rfl
      · refine ⟨?_, by simp [allowedIn], trivial, rfl⟩
        intro q hq
        rw [List.mem_singleton.mp hq]
        exact hp b rfl
      · exact hb

/-! ## Certificate, CertificateVerify, Finished -/

/-- the entries of a chain of certificates without staple -/
def plainEntries (chain : List Bytes) : List CertEntry := chain.map (.x509 · [])

/-- the entries of a chain of certificates, the first one with the OCSP response that is stapled -/
def stapledEntries : List Bytes → Option Bytes → List CertEntry
  | leaf :: rest, some res => .x509 leaf [.ocspStatus res] :: plainEntries rest
  | chain, _ => plainEntries chain

/-- bytes that a stapled OCSP response takes in a Certificate message -/
def stapleSize : Option Bytes → Nat
  | some res => res.length + 8
  | none => 0

/-- bytes that a chain takes in a Certificate message -/
def chainSize (E : Env) (chain : List Bytes) : Nat := (chain.map fun c => (E.certDer c).length + 5).sum

theorem chainSize_mem {chain : List Bytes} {c : Bytes} (h : c ∈ chain) :
    (E.certDer c).length + 5 ≤ chainSize E chain := by
  induction chain with
  | nil => exact absurd h List.not_mem_nil
  | cons a l ih =>
    have : chainSize E (a :: l) = (E.certDer a).length + 5 + chainSize E l := rfl
    rcases List.mem_cons.mp h with rfl | h
    · omega
    · have := ih h
      omega

theorem plain_writes {chain : List Bytes} (h : chainSize E chain < 16384) :
    Writes (concatMapM (serCertEntry E) (plainEntries chain)) (chainSize E chain) := by
  have := Writes.concat (f := serCertEntry E) (l := plainEntries chain)
    (g := fun e => match e with | .x509 c _ => (E.certDer c).length + 5 | .rawKey .. => 0) (by
      intro e he
      obtain ⟨c, hc, rfl⟩ := List.mem_map.mp he
      have hle := chainSize_mem (E := E) hc
      refine .bind (n := 2) ⟨_, rfl, rfl⟩ fun x hx => ?_
      refine .bind (.writeVar (by omega)) fun y hy => .pure ?_
      show _ = (E.certDer c).length + 5
      rw [List.length_append, hx, hy]; omega)
  rw [plainEntries, List.map_map] at this
  exact this

theorem stapled_writes {chain : List Bytes} {staple : Option Bytes}
    (h : chainSize E chain + stapleSize staple < 16384) :
    ∃ n, n ≤ chainSize E chain + stapleSize staple ∧
      Writes (concatMapM (serCertEntry E) (stapledEntries chain staple)) n := by
  cases chain with
  | nil => exact ⟨0, by omega, plain_writes (chain := []) (by show 0 < 16384; omega)⟩
  | cons leaf rest =>
    cases staple with
    | none => exact ⟨_, Nat.le_refl _, plain_writes (by exact h)⟩
    | some res =>
      have hs : chainSize E (leaf :: rest) = (E.certDer leaf).length + 5 + chainSize E rest := rfl
      have hz : stapleSize (some res) = res.length + 8 := rfl
      refine ⟨_, Nat.le_refl _, ?_⟩
      have hx : Writes (serExtList E [.ocspStatus res]) (2 + (res.length + 8)) :=
        .exts (g := fun _ => res.length + 8) (l := [.ocspStatus res]) (fun e he => by
          rw [List.mem_singleton.mp he]
          refine .ext (n := res.length + 4) ?_ (show 5 < 65536 by decide) (by omega)
          refine .bind (.writeVar (by omega)) fun b hb => .pure ?_
          rw [List.length_append, length_beEnc, hb]; omega) (by
            show res.length + 8 + 0 < 65536; omega)
      have he : Writes (serCertEntry E (.x509 leaf [.ocspStatus res]))
          ((E.certDer leaf).length + 5 + (res.length + 8)) :=
        .bind hx fun x hx => .bind (.writeVar (by omega)) fun y hy => .pure (by
          rw [List.length_append, hx, hy]; omega)
      show Writes (concatMapM (serCertEntry E) (.x509 leaf [.ocspStatus res] :: plainEntries rest)) _
      refine .bind he fun x hx => .bind (plain_writes (by omega)) fun y hy => .pure ?_
      rw [List.length_append, hx, hy, hs, hz]; omega

theorem certificate_writes {chain : List Bytes} {staple : Option Bytes}
    (h : chainSize E chain + stapleSize staple < 16300) :
    ∃ n, n ≤ chainSize E chain + stapleSize staple + 8 ∧
      Writes (serHandshake E (.certificate [] (stapledEntries chain staple))) n := by
  obtain ⟨n, hn, h1⟩ := stapled_writes (E := E) (chain := chain) (staple := staple) (by omega)
  refine ⟨n + 8, by omega, .message (n := n + 4) ?_ (by omega)⟩
  refine .bind h1 fun e he => .bind (.writeVar (b := []) (by decide)) fun c hc => ?_
  refine .bind (.writeVar (by omega)) fun l hl => .pure ?_
  rw [List.length_append, hl, hc, he, List.length_nil]; omega

theorem certificate_good {chain : List Bytes} {staple : Option Bytes}
    (h : ∀ c ∈ chain, E.certLoad (E.certDer c) = .ok c) :
    GoodMsg E (some (some 0)) (.certificate [] (stapledEntries chain staple)) := by
  have hp : ∀ l : List Bytes, (∀ c ∈ l, c ∈ chain) → GoodMsg E (some (some 0)) (.certificate [] (plainEntries l)) := by
    intro l hl
    refine .inl ⟨rfl, fun e he => ?_⟩
    obtain ⟨c, hc, rfl⟩ := List.mem_map.mp he
    exact ⟨rfl, h c (hl c hc), by simp [DistinctTypes], by simp⟩
  cases chain with
  | nil => exact hp [] (fun _ h => h)
  | cons leaf rest =>
    cases staple with
    | none => exact hp (leaf :: rest) (fun _ h => h)
    | some res =>
      refine .inl ⟨rfl, fun e he => ?_⟩
      rcases List.mem_cons.mp he with rfl | he
      · refine ⟨rfl, h leaf List.mem_cons_self, by simp [DistinctTypes], fun x hx => ?_⟩
        rw [List.mem_singleton.mp hx]
        exact ⟨trivial, by simp [allowedIn], trivial, rfl⟩
      · obtain ⟨c, hc, rfl⟩ := List.mem_map.mp he
        exact ⟨rfl, h c (List.mem_cons_of_mem _ hc), by simp [DistinctTypes], by simp⟩

theorem certificateVerify_writes {alg : Nat} {sig : Bytes} (ha : alg < 65536) (hs : sig.length < 16384) :
    Writes (serHandshake E (.certificateVerify alg sig)) (sig.length + 8) := by
  refine .message (n := sig.length + 4) ?_ (by omega)
  refine .bind (.toBytes (by simpa using ha)) fun a ha => ?_
  refine .bind (.writeVar (by omega)) fun b hb => .pure ?_
  rw [List.length_append, ha, hb]; omega

theorem finished_writes {mac : Bytes} (h : mac.length < 16384) :
    Writes (serHandshake E (.finished mac)) (mac.length + 4) :=
  .message (.ok rfl) (by omega)

end Siotls
