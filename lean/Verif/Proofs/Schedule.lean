import Verif.Model.Ciphers
import Verif.Spec.KeySchedule
import Verif.Proofs.Serial
/-! Helper lemmas: the model's HKDF and key schedule against `Spec/KeySchedule.lean`. -/

namespace Siotls
open Serial

theorem HashAlg.size_pos (a : HashAlg) : 0 < a.size := by cases a <;> decide
theorem HashAlg.size_le (a : HashAlg) : a.size ≤ 48 := by cases a <;> decide

theorem length_T {E : Env} (hE : E.Sized) (a : HashAlg) (prk info : Bytes) (i : Nat) :
    ((E.spec a).T prk info (i + 1)).length = a.size := by
  simp [Spec.Hash.T, Env.spec, hE.hmac]

/-- `T (i+1) ++ … ++ T (i+k)` -/
def tBlocks (H : Spec.Hash) (prk info : Bytes) (i k : Nat) : Bytes :=
  (List.range' i k).flatMap fun j => H.T prk info (j + 1)

theorem length_tBlocks {E : Env} (hE : E.Sized) (a : HashAlg) (prk info : Bytes) (i k : Nat) :
    (tBlocks (E.spec a) prk info i k).length = k * a.size := by
  induction k generalizing i with
  | zero => simp [tBlocks]
  | succ k ih =>
    have := ih (i + 1)
    simp only [tBlocks] at this ⊢
    rw [List.range'_succ, List.flatMap_cons, List.length_append, length_T hE, this]
    rw [Nat.succ_mul]; omega

theorem hkdfRounds_ok {E : Env} (a : HashAlg) (prk info : Bytes) (k i : Nat) (h : i + k ≤ 255) :
    hkdfRounds E a prk info k (i + 1) ((E.spec a).T prk info i) =
      .ok (tBlocks (E.spec a) prk info i k) := by
  induction k generalizing i with
  | zero => simp [hkdfRounds, tBlocks]
  | succ k ih =>
    have hb : toBytes 1 (i + 1) = .ok [UInt8.ofNat (i + 1)] := by
      rw [toBytes_ok]; refine ⟨by omega, ?_⟩
      simp [beEnc]
    have := ih (i + 1) (by omega)
    simp only [Spec.Hash.T] at this
    simp only [hkdfRounds, hb, Except.bind_def]
    simp only [Env.spec] at this ⊢
    rw [this]
    simp [tBlocks, List.range'_succ, Spec.Hash.T, pure, Except.pure]

theorem hkdfRounds_overflow {E : Env} (a : HashAlg) (prk info : Bytes) (k i : Nat) (prev : Bytes)
    (h : 257 ≤ i + k) (hi : i ≤ 256) (hk : 0 < k) :
    hkdfRounds E a prk info k i prev = .error .overflow := by
  induction k generalizing i prev with
  | zero => omega
  | succ k ih =>
    unfold hkdfRounds
    by_cases h6 : i = 256
    · subst h6; rfl
    · have hb : toBytes 1 i = .ok (beEnc 1 i) := by rw [toBytes_ok]; exact ⟨by omega, rfl⟩
      simp only [hb, Except.bind_def]
      by_cases hk0 : k = 0
      · omega
      · rw [ih (i + 1) _ (by omega) (by omega) (by omega)]

theorem tBlocks_append (H : Spec.Hash) (prk info : Bytes) (i k l : Nat) :
    tBlocks H prk info i (k + l) = tBlocks H prk info i k ++ tBlocks H prk info (i + k) l := by
  simp only [tBlocks, ← List.flatMap_append]
  congr 1
  simp

theorem expand_eq {E : Env} (hE : E.Sized) (a : HashAlg) (prk info : Bytes) {n L : Nat}
    (hn : n ≤ 255) (hL : L ≤ n * a.size) :
    (E.spec a).expand prk info L = (tBlocks (E.spec a) prk info 0 n).take L := by
  have : (List.range 255).flatMap (fun i => (E.spec a).T prk info (i + 1)) =
      tBlocks (E.spec a) prk info 0 (n + (255 - n)) := by
    rw [show n + (255 - n) = 255 by omega, tBlocks, List.range_eq_range']
  rw [Spec.Hash.expand, this, tBlocks_append, List.take_append_of_le_length]
  rw [length_tBlocks hE]; exact hL

theorem ceilDiv_le {L s m : Nat} (hs : 0 < s) (h : L ≤ m * s) : (L + s - 1) / s ≤ m := by
  rw [Nat.div_le_iff_le_mul_add_pred hs, Nat.mul_comm]; omega

theorem le_ceilDiv_mul {L s : Nat} (hs : 0 < s) : L ≤ (L + s - 1) / s * s := by
  have := Nat.div_add_mod (L + s - 1) s
  have h2 := Nat.mod_lt (L + s - 1) hs
  rw [Nat.mul_comm]; omega

theorem hkdfExpand_ok {E : Env} (hE : E.Sized) (a : HashAlg) (prk info : Bytes) {L : Nat}
    (hL : L ≤ 255 * a.size) :
    hkdfExpand E a prk info L = .ok ((E.spec a).expand prk info L) := by
  unfold hkdfExpand
  split
  · rename_i h
    subst h
    rw [expand_eq hE a prk info (n := 1) (by omega) (by omega), List.take_of_length_le]
    · simp [tBlocks, Spec.Hash.T, Env.spec]
    · rw [length_tBlocks hE]; omega
  · have h1 := ceilDiv_le a.size_pos hL
    have := hkdfRounds_ok (E := E) a prk info ((L + a.size - 1) / a.size) 0 (by omega)
    simp only [Spec.Hash.T, Nat.zero_add] at this
    simp only [this, Except.bind_def]
    rw [expand_eq hE a prk info h1 (le_ceilDiv_mul a.size_pos)]
    rfl

theorem hkdfExpand_overflow {E : Env} (a : HashAlg) (prk info : Bytes) {L : Nat}
    (hL : 255 * a.size < L) : hkdfExpand E a prk info L = .error .overflow := by
  unfold hkdfExpand
  have hs := a.size_pos
  rw [if_neg (by omega)]
  have : 256 ≤ (L + a.size - 1) / a.size := by
    rw [Nat.le_div_iff_mul_le hs]; omega
  simp only [hkdfRounds_overflow (E := E) a prk info ((L + a.size - 1) / a.size) 1 [] (by omega)
    (by omega) (by omega), Except.bind_def]

theorem length_expand {E : Env} (hE : E.Sized) (a : HashAlg) (prk info : Bytes) {L : Nat}
    (hL : L ≤ 255 * a.size) : ((E.spec a).expand prk info L).length = L := by
  rw [expand_eq hE a prk info (Nat.le_refl 255) hL, List.length_take, length_tBlocks hE]
  omega

theorem hkdfLabel_ok {label context : Bytes} {L : Nat} (h1 : label.length ≤ 249)
    (h2 : context.length ≤ 255) (h3 : L < 65536) :
    hkdfLabel label context L = .ok (Spec.hkdfLabel L label context) := by
  have a1 : toBytes 2 L = .ok (beEnc 2 L) := by rw [toBytes_ok]; exact ⟨by omega, rfl⟩
  have hl : (lblTls13 ++ label).length = 6 + label.length := by
    rw [List.length_append]; rfl
  have a2 : writeVar 1 (lblTls13 ++ label) =
      .ok (beEnc 1 (6 + label.length) ++ (lblTls13 ++ label)) := by
    rw [writeVar_ok, hl]; exact ⟨by omega, rfl⟩
  have a3 : writeVar 1 context = .ok (beEnc 1 context.length ++ context) := by
    rw [writeVar_ok]; exact ⟨by omega, rfl⟩
  have hm : UInt8.ofNat L = UInt8.ofNat (L % 256) := by
    apply UInt8.toNat_inj.mp; simp
  have ht : Spec.ascii "tls13 " = lblTls13 := by decide
  simp only [hkdfLabel, a1, a2, a3, Except.bind_def, pure, Except.pure, Spec.hkdfLabel, beEnc, ht]
  simp [hm]

theorem hkdfExpandLabel_ok {E : Env} (hE : E.Sized) (a : HashAlg) (secret : Bytes)
    {label context : Bytes} {L : Nat} (h1 : label.length ≤ 249) (h2 : context.length ≤ 255)
    (h3 : L ≤ 255 * a.size) :
    hkdfExpandLabel E a secret label context L =
      .ok ((E.spec a).expandLabel secret label context L) := by
  have := a.size_le
  rw [hkdfExpandLabel, hkdfLabel_ok h1 h2 (by omega)]
  simp only [Except.bind_def]
  rw [hkdfExpand_ok hE a secret _ h3]; rfl

theorem deriveSecret_ok {E : Env} (hE : E.Sized) (a : HashAlg) (secret : Bytes) {hash : Bytes}
    (label : Bytes) (s : String) (hs : Spec.ascii s = label) (hl : label.length ≤ 249)
    (hh : hash.length ≤ 255) :
    deriveSecret E a secret label hash = .ok ((E.spec a).deriveSecret secret s hash) := by
  rw [deriveSecret, hkdfExpandLabel_ok hE a secret hl hh (by have := a.size_pos; omega),
    Spec.Hash.deriveSecret, hs]
  rfl

/-- The traffic secret of the sender `s`. -/
def Spec.bySide {α} (s : Side) (client server : α) : α :=
  match s with
  | .client => client
  | .server => server

/-- A direction keyed with the RFC 8446 section 7.3 key and IV of a traffic secret, no record
protected yet. -/
def Spec.keyed (H : Spec.Hash) (secret : Bytes) (keyLength : Nat) : Dir :=
  ⟨some (H.writeKey secret keyLength), some (H.writeIv secret 12), some 0⟩

theorem length_specDerive {E : Env} (hE : E.Sized) (a : HashAlg) (s : Bytes) (l : String)
    (h : Bytes) : ((E.spec a).deriveSecret s l h).length = a.size :=
  length_expand hE a _ _ (by have := a.size_pos; simp [Env.spec]; omega)

theorem not_isEmpty_of_length {b : Bytes} {a : HashAlg} (h : b.length = a.size) :
    b.isEmpty = false := by
  have := a.size_pos
  cases b <;> simp_all

theorem suite_facts {id : Nat} {info : SuiteInfo} (hi : suiteInfo id = some info) :
    info.id = id ∧ info.nonceLength = 12 ∧ info.keyLength ≤ 32 ∧
    Spec.suiteKeyLength id = some info.keyLength ∧
    Spec.suiteHashLen id = some info.digest.size := by
  unfold suiteInfo at hi
  split at hi <;> first | (cases hi; exact ⟨rfl, rfl, by decide, rfl, rfl⟩) | cases hi

theorem skipEarly_ok {E : Env} (hE : E.Sized) (c : CipherSt) (h0 : c.secrets.stage = 0)
    (hs : c.secrets.salt = zeros c.info.digest.size) :
    skipEarly E c = .ok { c with secrets :=
      ⟨1, (E.spec c.info.digest).deriveSecret (E.spec c.info.digest).earlySecret "derived"
        ((E.spec c.info.digest).hash [])⟩ } := by
  have hne : (zeros c.info.digest.size).isEmpty = false :=
    not_isEmpty_of_length (length_zeros _)
  have hd := deriveSecret_ok hE c.info.digest
    (E.hmac c.info.digest (zeros c.info.digest.size) (zeros c.info.digest.size))
    (hash := E.hash c.info.digest []) lblDerived "derived" (by decide) (by decide)
    (by rw [hE.hash]; have := c.info.digest.size_le; omega)
  simp [skipEarly, h0, extractNext, hkdfExtract, hs, hne, Except.bind_def, hd, pure, Except.pure]
  simp [Spec.Hash.earlySecret, Spec.Hash.extract, Spec.Hash.zero, zeros, Env.spec]

theorem handshake_keys {E : Env} (hE : E.Sized) {id : Nat} {info : SuiteInfo}
    (hi : suiteInfo id = some info) (hu : info.usageLimit.isSome) (c : CipherSt)
    (hci : c.info = info) (shared th : Bytes) (hth : th.length ≤ 255)
    (hs : c.secrets = ⟨1, (E.spec info.digest).deriveSecret (E.spec info.digest).earlySecret
      "derived" ((E.spec info.digest).hash [])⟩) :
    deriveHandshake E c shared th = (.ok (), { c with
      secrets := ⟨2, (E.spec info.digest).deriveSecret
        ((E.spec info.digest).handshakeSecret shared) "derived" ((E.spec info.digest).hash [])⟩,
      wr := Spec.keyed (E.spec info.digest) (Spec.bySide c.side
        ((E.spec info.digest).cHs shared th) ((E.spec info.digest).sHs shared th)) info.keyLength,
      rd := Spec.keyed (E.spec info.digest) (Spec.bySide c.side
        ((E.spec info.digest).sHs shared th) ((E.spec info.digest).cHs shared th)) info.keyLength,
      cFin := .key ((E.spec info.digest).finishedKey ((E.spec info.digest).cHs shared th)),
      sFin := .key ((E.spec info.digest).finishedKey ((E.spec info.digest).sHs shared th)) }) := by
  subst hci
  obtain ⟨-, hn, hk, -, -⟩ := suite_facts hi
  have sz := c.info.digest.size_le
  have sp := c.info.digest.size_pos
  have hne : c.secrets.salt.isEmpty = false := by
    rw [hs]; exact not_isEmpty_of_length (length_specDerive hE ..)
  have d1 := fun s => deriveSecret_ok hE c.info.digest s (hash := E.hash c.info.digest [])
    lblDerived "derived" (by decide) (by decide) (by rw [hE.hash]; omega)
  have d2 := fun s => deriveSecret_ok hE c.info.digest s lblCHs "c hs traffic" (by decide)
    (by decide) hth
  have d3 := fun s => deriveSecret_ok hE c.info.digest s lblSHs "s hs traffic" (by decide)
    (by decide) hth
  have d4 := fun s => deriveSecret_ok hE c.info.digest s (hash := []) lblFinished "finished"
    (by decide) (by decide) (by decide)
  have k1 := fun s => hkdfExpandLabel_ok hE c.info.digest s (label := lblKey) (context := [])
    (L := c.info.keyLength) (by decide) (by decide) (by omega)
  have k2 := fun s => hkdfExpandLabel_ok hE c.info.digest s (label := lblIv) (context := [])
    (L := c.info.nonceLength) (by decide) (by decide) (by omega)
  obtain ⟨lim, hlim⟩ := Option.isSome_iff_exists.mp hu
  have aK : Spec.ascii "key" = lblKey := by decide
  have aI : Spec.ascii "iv" = lblIv := by decide
  have hst : c.secrets.stage = 1 := by rw [hs]
  have hsalt : c.secrets.salt = (E.spec c.info.digest).deriveSecret
      (E.spec c.info.digest).earlySecret "derived" ((E.spec c.info.digest).hash []) := by rw [hs]
  simp only [deriveHandshake, handshakeSecrets, hst, extractNext, hkdfExtract, hne, d1, d2, d3,
    Except.bind_def, ne_eq, not_true, if_false, pure, Except.pure, d4, deriveKeyIv, k1, k2,
    installKeys, installDir, hlim]
  cases hside : c.side <;>
    simp [Spec.keyed, Spec.bySide, Spec.Hash.writeKey, Spec.Hash.writeIv, aK, aI, hn,
      Spec.Hash.finishedKey, Spec.Hash.deriveSecret, Spec.Hash.cHs, Spec.Hash.sHs,
      Spec.Hash.handshakeSecret, Spec.Hash.extract, hsalt, Env.spec]

theorem master_keys {E : Env} (hE : E.Sized) {id : Nat} {info : SuiteInfo}
    (hi : suiteInfo id = some info) (hu : info.usageLimit.isSome) (c : CipherSt)
    (hci : c.info = info) (shared th2 th3 : Bytes) (h2 : th2.length ≤ 255) (h3 : th3.length ≤ 255)
    (hs : c.secrets = ⟨2, (E.spec info.digest).deriveSecret
        ((E.spec info.digest).handshakeSecret shared) "derived" ((E.spec info.digest).hash [])⟩) :
    deriveMaster E c th2 th3 = (.ok ((E.spec info.digest).exporter shared th2,
      (E.spec info.digest).resumption shared th3), { c with
      wr := Spec.keyed (E.spec info.digest) (Spec.bySide c.side
        ((E.spec info.digest).cAp shared th2) ((E.spec info.digest).sAp shared th2)) info.keyLength,
      rd := Spec.keyed (E.spec info.digest) (Spec.bySide c.side
        ((E.spec info.digest).sAp shared th2) ((E.spec info.digest).cAp shared th2)) info.keyLength,
      cFin := .none, sFin := .none }) := by
  subst hci
  obtain ⟨-, hn, hk, -, -⟩ := suite_facts hi
  have sz := c.info.digest.size_le
  have sp := c.info.digest.size_pos
  have hne : c.secrets.salt.isEmpty = false := by
    rw [hs]; exact not_isEmpty_of_length (length_specDerive hE ..)
  have d2 := fun s => deriveSecret_ok hE c.info.digest s lblCAp "c ap traffic" (by decide)
    (by decide) h2
  have d3 := fun s => deriveSecret_ok hE c.info.digest s lblSAp "s ap traffic" (by decide)
    (by decide) h2
  have d4 := fun s => deriveSecret_ok hE c.info.digest s lblExp "exp master" (by decide)
    (by decide) h2
  have d5 := fun s => deriveSecret_ok hE c.info.digest s lblRes "res master" (by decide)
    (by decide) h3
  have k1 := fun s => hkdfExpandLabel_ok hE c.info.digest s (label := lblKey) (context := [])
    (L := c.info.keyLength) (by decide) (by decide) (by omega)
  have k2 := fun s => hkdfExpandLabel_ok hE c.info.digest s (label := lblIv) (context := [])
    (L := c.info.nonceLength) (by decide) (by decide) (by omega)
  obtain ⟨lim, hlim⟩ := Option.isSome_iff_exists.mp hu
  have aK : Spec.ascii "key" = lblKey := by decide
  have aI : Spec.ascii "iv" = lblIv := by decide
  have hst : c.secrets.stage = 2 := by rw [hs]
  have hsalt : c.secrets.salt = (E.spec c.info.digest).deriveSecret
        ((E.spec c.info.digest).handshakeSecret shared) "derived"
        ((E.spec c.info.digest).hash []) := by rw [hs]
  simp only [deriveMaster, masterSecrets, hst, hkdfExtract, hne, d2, d3,
    Except.bind_def, ne_eq, not_true, if_false, pure, Except.pure, d4, d5, deriveKeyIv, k1, k2,
    installKeys, installDir, hlim]
  cases hside : c.side <;>
    simp [Spec.keyed, Spec.bySide, Spec.Hash.writeKey, Spec.Hash.writeIv, aK, aI, hn,
      Spec.Hash.exporter, Spec.Hash.resumption, Spec.Hash.cAp, Spec.Hash.sAp,
      Spec.Hash.masterSecret, Spec.Hash.extract, hsalt, Env.spec, Spec.Hash.zero, zeros]

theorem writeVar_error {n : Nat} {b : Bytes} (h : 256 ^ n ≤ b.length) :
    writeVar n b = .error .overflow := by
  simp [writeVar, toBytes, Nat.not_lt.mpr h, Except.bind_def]

theorem hkdfExpandLabel_overflow {E : Env} (a : HashAlg) (secret label context : Bytes) (L : Nat)
    (h : ¬(label.length ≤ 249 ∧ context.length ≤ 255 ∧ L ≤ 255 * a.size)) :
    hkdfExpandLabel E a secret label context L = .error .overflow := by
  have hl : (lblTls13 ++ label).length = 6 + label.length := by
    rw [List.length_append]; rfl
  by_cases h0 : L < 65536
  · have a1 : toBytes 2 L = .ok (beEnc 2 L) := by rw [toBytes_ok]; exact ⟨by omega, rfl⟩
    by_cases h1 : label.length ≤ 249
    · by_cases h2 : context.length ≤ 255
      · rw [hkdfExpandLabel, hkdfLabel_ok h1 h2 h0]
        simp only [Except.bind_def]
        exact hkdfExpand_overflow a secret _ (by omega)
      · have a2 : writeVar 1 (lblTls13 ++ label) =
            .ok (beEnc 1 (6 + label.length) ++ (lblTls13 ++ label)) := by
          rw [writeVar_ok, hl]; exact ⟨by omega, rfl⟩
        simp [hkdfExpandLabel, hkdfLabel, a1, a2, Except.bind_def,
          writeVar_error (n := 1) (b := context) (by omega)]
    · simp [hkdfExpandLabel, hkdfLabel, a1, Except.bind_def,
          writeVar_error (n := 1) (b := lblTls13 ++ label) (by omega)]
  · simp [hkdfExpandLabel, hkdfLabel, toBytes, h0, Except.bind_def]

theorem hkdfLabel_inj {l₁ l₂ c₁ c₂ : Bytes} {n₁ n₂ : Nat} {x : Bytes}
    (h₁ : hkdfLabel l₁ c₁ n₁ = .ok x) (h₂ : hkdfLabel l₂ c₂ n₂ = .ok x) :
    l₁ = l₂ ∧ c₁ = c₂ ∧ n₁ = n₂ := by
  simp only [hkdfLabel, Except.bind_eq_ok, Except.pure_eq_ok, toBytes_ok, writeVar_ok] at h₁ h₂
  obtain ⟨_, ⟨b1, rfl⟩, _, ⟨b2, rfl⟩, _, ⟨b3, rfl⟩, hx⟩ := h₁
  obtain ⟨_, ⟨d1, rfl⟩, _, ⟨d2, rfl⟩, _, ⟨d3, rfl⟩, hy⟩ := h₂
  have h := hx.trans hy.symm
  generalize hp : lblTls13 ++ l₁ = p at h b2
  generalize hq : lblTls13 ++ l₂ = q at h d2
  obtain ⟨hn, h⟩ := List.append_inj h (by simp)
  have hn := beEnc_inj b1 d1 hn
  rw [List.append_assoc, List.append_assoc] at h
  obtain ⟨hl, h⟩ := List.append_inj h (by simp)
  have hl := beEnc_inj b2 d2 hl
  obtain ⟨hll, h⟩ := List.append_inj h hl
  have hll := List.append_cancel_left (hp.trans (hll.trans hq.symm))
  obtain ⟨hc, h⟩ := List.append_inj h (by simp)
  exact ⟨hll, h, hn⟩

end Siotls
