import Verif.Model.EarlySecrets
import Verif.Spec.EarlySchedule
import Verif.Proofs.Schedule
/-! Helper lemmas: the key schedule with a pre-shared key against `Spec/EarlySchedule.lean`. -/

namespace Siotls
open Serial

theorem pskLabel_ok {mode : PyStr} {p : Spec.Psk}
    (hm : mode = match p with | .external => modeExternal | .resumption => modeResume) :
    Spec.ascii p.binder = pskLabel mode ∧ (pskLabel mode).length ≤ 249 := by
  subst hm
  cases p <;> exact ⟨by decide, by decide⟩

theorem early_keys {E : Env} (hE : E.Sized) {id : Nat} {info : SuiteInfo}
    (hi : suiteInfo id = some info) (hu : info.usageLimit.isSome) (c : CipherSt)
    (hci : c.info = info) (uid : PyStr) (psk th : Bytes) (hth : th.length ≤ 255)
    {mode : PyStr} {p : Spec.Psk}
    (hm : mode = match p with | .external => modeExternal | .resumption => modeResume)
    (hs : c.secrets = ⟨0, zeros info.digest.size⟩) :
    deriveEarly E uid c psk mode th =
      (.ok ((E.spec info.digest).binderKey psk p, (E.spec info.digest).earlyExporter psk th),
       { c with
          secrets := ⟨1, (E.spec info.digest).deriveSecret ((E.spec info.digest).earlyWith psk)
            "derived" ((E.spec info.digest).hash [])⟩
          wr := Spec.bySide c.side (Spec.keyed (E.spec info.digest)
            ((E.spec info.digest).cEarly psk th) info.keyLength) c.wr
          rd := Spec.bySide c.side c.rd (Spec.keyed (E.spec info.digest)
            ((E.spec info.digest).cEarly psk th) info.keyLength) },
       if uid = [] then [] else
         [logLine "CLIENT_EARLY_TRAFFIC_SECRET" uid ((E.spec info.digest).cEarly psk th)]) := by
  subst hci
  obtain ⟨-, hn, hk, -, -⟩ := suite_facts hi
  have sz := c.info.digest.size_le
  have sp := c.info.digest.size_pos
  have hne : (zeros c.info.digest.size).isEmpty = false :=
    not_isEmpty_of_length (length_zeros _)
  have d1 := fun s => deriveSecret_ok hE c.info.digest s (hash := E.hash c.info.digest [])
    lblDerived "derived" (by decide) (by decide) (by rw [hE.hash]; omega)
  have d2 := fun s => deriveSecret_ok hE c.info.digest s (hash := E.hash c.info.digest [])
    (pskLabel mode) p.binder (pskLabel_ok hm).1 (pskLabel_ok hm).2 (by rw [hE.hash]; omega)
  have d3 := fun s => deriveSecret_ok hE c.info.digest s lblEExp "e exp master" (by decide)
    (by decide) hth
  have d4 := fun s => deriveSecret_ok hE c.info.digest s lblCE "c e traffic" (by decide)
    (by decide) hth
  have k1 := fun s => hkdfExpandLabel_ok hE c.info.digest s (label := lblKey) (context := [])
    (L := c.info.keyLength) (by decide) (by decide) (by omega)
  have k2 := fun s => hkdfExpandLabel_ok hE c.info.digest s (label := lblIv) (context := [])
    (L := c.info.nonceLength) (by decide) (by decide) (by omega)
  obtain ⟨lim, hlim⟩ := Option.isSome_iff_exists.mp hu
  have aK : Spec.ascii "key" = lblKey := by decide
  have aI : Spec.ascii "iv" = lblIv := by decide
  have hst : c.secrets.stage = 0 := by rw [hs]
  have hsalt : c.secrets.salt = zeros c.info.digest.size := by rw [hs]
  have hmode : ¬ (mode ≠ modeExternal ∧ mode ≠ modeResume) := by
    subst hm
    cases p <;> simp
  simp only [deriveEarly, hst, hsalt, if_neg hmode, extractNext, hkdfExtract, hne, d1, d2, d3, d4,
    earlySecrets, Except.bind_def, ne_eq, not_true, if_false, pure, Except.pure, deriveKeyIv, k1,
    k2, installEarly, installDir, hlim]
  cases hside : c.side <;>
    simp [Spec.keyed, Spec.bySide, Spec.Hash.writeKey, Spec.Hash.writeIv, aK, aI, hn,
      Spec.Hash.binderKey, Spec.Hash.earlyExporter, Spec.Hash.cEarly, Spec.Hash.earlyWith,
      Spec.Hash.deriveSecret, Spec.Hash.extract, Env.spec, Spec.Hash.zero, zeros]

theorem deriveEarly_refused {E : Env} {c : CipherSt} (h : c.secrets.stage ≠ 0) (uid : PyStr)
    (psk : Bytes) (mode : PyStr) (th : Bytes) :
    deriveEarly E uid c psk mode th = (.error .assertion, c, []) := by
  simp [deriveEarly, h]

theorem deriveEarly_mode {E : Env} {c : CipherSt} {mode : PyStr} (h₁ : mode ≠ modeExternal)
    (h₂ : mode ≠ modeResume) (uid : PyStr) (psk th : Bytes) :
    deriveEarly E uid c psk mode th = (.error .assertion, c, []) := by
  simp [deriveEarly, h₁, h₂]

theorem handshake_keys_with {E : Env} (hE : E.Sized) {id : Nat} {info : SuiteInfo}
    (hi : suiteInfo id = some info) (hu : info.usageLimit.isSome) (c : CipherSt)
    (hci : c.info = info) (psk shared th : Bytes) (hth : th.length ≤ 255)
    (hs : c.secrets = ⟨1, (E.spec info.digest).deriveSecret ((E.spec info.digest).earlyWith psk)
      "derived" ((E.spec info.digest).hash [])⟩) :
    deriveHandshake E c shared th = (.ok (), { c with
      secrets := ⟨2, (E.spec info.digest).deriveSecret
        ((E.spec info.digest).handshakeWith psk shared) "derived" ((E.spec info.digest).hash [])⟩,
      wr := Spec.keyed (E.spec info.digest) (Spec.bySide c.side
          ((E.spec info.digest).deriveSecret ((E.spec info.digest).handshakeWith psk shared) "c hs traffic" th)
          ((E.spec info.digest).deriveSecret ((E.spec info.digest).handshakeWith psk shared) "s hs traffic" th)) info.keyLength,
      rd := Spec.keyed (E.spec info.digest) (Spec.bySide c.side
          ((E.spec info.digest).deriveSecret ((E.spec info.digest).handshakeWith psk shared) "s hs traffic" th)
          ((E.spec info.digest).deriveSecret ((E.spec info.digest).handshakeWith psk shared) "c hs traffic" th)) info.keyLength,
      cFin := .key ((E.spec info.digest).finishedKey
        ((E.spec info.digest).deriveSecret ((E.spec info.digest).handshakeWith psk shared) "c hs traffic" th)),
      sFin := .key ((E.spec info.digest).finishedKey
        ((E.spec info.digest).deriveSecret ((E.spec info.digest).handshakeWith psk shared) "s hs traffic" th)) }) := by
  subst hci
  obtain ⟨-, hn, hk, -, -⟩ := suite_facts hi
  have sz := c.info.digest.size_le
  have sp := c.info.digest.size_pos
  have hne : c.secrets.salt.isEmpty = false := by
    rw [hs]; exact not_isEmpty_of_length (length_specDerive hE ..)
  have d1 := fun s => deriveSecret_ok hE c.info.digest s (hash := E.hash c.info.digest [])
    lblDerived "derived" (by decide) (by decide) (by rw [hE.hash]; omega)
  have d2 := fun s => deriveSecret_ok hE c.info.digest s lblCHs "c hs traffic" (by decide)
    (by decide) hth
  have d3 := fun s => deriveSecret_ok hE c.info.digest s lblSHs "s hs traffic" (by decide)
    (by decide) hth
  have d4 := fun s => deriveSecret_ok hE c.info.digest s (hash := []) lblFinished "finished"
    (by decide) (by decide) (by decide)
  have k1 := fun s => hkdfExpandLabel_ok hE c.info.digest s (label := lblKey) (context := [])
    (L := c.info.keyLength) (by decide) (by decide) (by omega)
  have k2 := fun s => hkdfExpandLabel_ok hE c.info.digest s (label := lblIv) (context := [])
    (L := c.info.nonceLength) (by decide) (by decide) (by omega)
  obtain ⟨lim, hlim⟩ := Option.isSome_iff_exists.mp hu
  have aK : Spec.ascii "key" = lblKey := by decide
  have aI : Spec.ascii "iv" = lblIv := by decide
  have hst : c.secrets.stage = 1 := by rw [hs]
  have hsalt : c.secrets.salt = (E.spec c.info.digest).deriveSecret
      ((E.spec c.info.digest).earlyWith psk) "derived" ((E.spec c.info.digest).hash []) := by rw [hs]
  simp only [deriveHandshake, handshakeSecrets, hst, extractNext, hkdfExtract, hne, d1, d2, d3,
    Except.bind_def, ne_eq, not_true, if_false, pure, Except.pure, d4, deriveKeyIv, k1, k2,
    installKeys, installDir, hlim]
  cases hside : c.side <;>
    simp [Spec.keyed, Spec.bySide, Spec.Hash.writeKey, Spec.Hash.writeIv, aK, aI, hn,
      Spec.Hash.finishedKey, Spec.Hash.deriveSecret, Spec.Hash.handshakeWith, Spec.Hash.extract, hsalt, Env.spec]

theorem master_keys_with {E : Env} (hE : E.Sized) {id : Nat} {info : SuiteInfo}
    (hi : suiteInfo id = some info) (hu : info.usageLimit.isSome) (c : CipherSt)
    (hci : c.info = info) (psk shared th2 th3 : Bytes) (h2 : th2.length ≤ 255) (h3 : th3.length ≤ 255)
    (hs : c.secrets = ⟨2, (E.spec info.digest).deriveSecret
        ((E.spec info.digest).handshakeWith psk shared) "derived" ((E.spec info.digest).hash [])⟩) :
    deriveMaster E c th2 th3 = (.ok
      ((E.spec info.digest).deriveSecret ((E.spec info.digest).masterWith psk shared) "exp master" th2,
      (E.spec info.digest).deriveSecret ((E.spec info.digest).masterWith psk shared) "res master" th3), { c with
      wr := Spec.keyed (E.spec info.digest) (Spec.bySide c.side
          ((E.spec info.digest).deriveSecret ((E.spec info.digest).masterWith psk shared) "c ap traffic" th2)
          ((E.spec info.digest).deriveSecret ((E.spec info.digest).masterWith psk shared) "s ap traffic" th2)) info.keyLength,
      rd := Spec.keyed (E.spec info.digest) (Spec.bySide c.side
          ((E.spec info.digest).deriveSecret ((E.spec info.digest).masterWith psk shared) "s ap traffic" th2)
          ((E.spec info.digest).deriveSecret ((E.spec info.digest).masterWith psk shared) "c ap traffic" th2)) info.keyLength,
      cFin := .none, sFin := .none }) := by
  subst hci
  obtain ⟨-, hn, hk, -, -⟩ := suite_facts hi
  have sz := c.info.digest.size_le
  have sp := c.info.digest.size_pos
  have hne : c.secrets.salt.isEmpty = false := by
    rw [hs]; exact not_isEmpty_of_length (length_specDerive hE ..)
  have d2 := fun s => deriveSecret_ok hE c.info.digest s lblCAp "c ap traffic" (by decide)
    (by decide) h2
  have d3 := fun s => deriveSecret_ok hE c.info.digest s lblSAp "s ap traffic" (by decide)
    (by decide) h2
  have d4 := fun s => deriveSecret_ok hE c.info.digest s lblExp "exp master" (by decide)
    (by decide) h2
  have d5 := fun s => deriveSecret_ok hE c.info.digest s lblRes "res master" (by decide)
    (by decide) h3
  have k1 := fun s => hkdfExpandLabel_ok hE c.info.digest s (label := lblKey) (context := [])
    (L := c.info.keyLength) (by decide) (by decide) (by omega)
  have k2 := fun s => hkdfExpandLabel_ok hE c.info.digest s (label := lblIv) (context := [])
    (L := c.info.nonceLength) (by decide) (by decide) (by omega)
  obtain ⟨lim, hlim⟩ := Option.isSome_iff_exists.mp hu
  have aK : Spec.ascii "key" = lblKey := by decide
  have aI : Spec.ascii "iv" = lblIv := by decide
  have hst : c.secrets.stage = 2 := by rw [hs]
  have hsalt : c.secrets.salt = (E.spec c.info.digest).deriveSecret
        ((E.spec c.info.digest).handshakeWith psk shared) "derived"
        ((E.spec c.info.digest).hash []) := by rw [hs]
  simp only [deriveMaster, masterSecrets, hst, hkdfExtract, hne, d2, d3,
    Except.bind_def, ne_eq, not_true, if_false, pure, Except.pure, d4, d5, deriveKeyIv, k1, k2,
    installKeys, installDir, hlim]
  cases hside : c.side <;>
    simp [Spec.keyed, Spec.bySide, Spec.Hash.writeKey, Spec.Hash.writeIv, aK, aI, hn,
      Spec.Hash.deriveSecret, Spec.Hash.masterWith, Spec.Hash.extract, hsalt, Env.spec, Spec.Hash.zero, zeros]

end Siotls
