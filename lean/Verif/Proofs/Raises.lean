import Verif.Proofs.Loop
import Verif.Spec.Lifecycle
/-!
# The alerts that the code can raise
-/

namespace Siotls
open Serial

variable {E : Env}

/-! ## Pure computations -/

def CodedE {α} (r : Except Exn α) : Prop := ∀ e, r = .error e → e.Coded

theorem CodedE.ok {α} (a : α) : CodedE (.ok a : Except Exn α) := by intro e h; cases h
theorem CodedE.pure {α} (a : α) : CodedE (pure a : Except Exn α) := by intro e h; cases h
theorem CodedE.err {α} {e : Exn} (h : e.Coded) : CodedE (.error e : Except Exn α) := by
  intro e' h'; cases h'; exact h
theorem CodedE.bind {α β} {r : Except Exn α} {f : α → Except Exn β} (h : CodedE r)
    (hf : ∀ a, CodedE (f a)) : CodedE (r >>= f) := by
  intro e he
  cases r with
  | error e' => cases he; exact h _ rfl
  | ok a => exact hf a e he
theorem CodedE.mapValue {α} {r : Except Exn α} {e : Exn} (he : e.Coded) (h : CodedE r) :
    CodedE (mapValueError e r) := by
  intro e' h'
  unfold mapValueError at h'
  split at h'
  · cases h'; exact he
  · exact h e' h'

/-! ## Parsers -/

def CodedP {α} (p : P α) : Prop := ∀ s, CodedE (p s)

theorem CodedP.pure {α} (a : α) : CodedP (pure a : P α) := fun _ => CodedE.ok _
theorem CodedP.throw {α} {e : Exn} (h : e.Coded) : CodedP (P.throw e : P α) := fun _ => CodedE.err h
theorem CodedP.lift {α} {r : Except Exn α} (h : CodedE r) : CodedP (P.lift r) := by
  intro s e he
  unfold P.lift at he
  split at he
  · cases he
  · cases he; exact h _ rfl
theorem CodedP.bind {α β} {p : P α} {f : α → P β} (h : CodedP p) (hf : ∀ a, CodedP (f a)) :
    CodedP (p >>= f) := by
  intro s
  exact CodedE.bind (h s) fun a => hf a.1 a.2
theorem CodedP.map {α β} {p : P α} {f : α → β} (h : CodedP p) : CodedP (f <$> p) := by
  intro s
  exact CodedE.bind (h s) fun a => CodedE.ok _

theorem codedP_rawRead (n : Nat) : CodedP (rawRead n) := fun _ => CodedE.ok _
theorem codedP_readAll : CodedP readAll := by
  intro s; unfold readAll; split <;> exact codedP_rawRead _ _
theorem codedP_read (n : Nat) : CodedP (read n) := by
  intro s
  unfold Serial.read
  split
  · exact codedP_rawRead _ _
  split
  · exact CodedE.err (by decide)
  · exact codedP_rawRead _ _
theorem codedP_readExactly (n : Nat) : CodedP (readExactly n) := by
  intro s
  unfold readExactly
  split
  · exact CodedE.ok _
  split
  · rename_i h; exact CodedE.err (codedP_read _ _ _ h)
  split
  · exact CodedE.ok _
  · exact CodedE.err (by decide)
theorem codedP_readInt (n : Nat) : CodedP (readInt n) := by
  unfold readInt
  split
  · exact CodedP.throw (by decide)
  · exact CodedP.bind (codedP_readExactly _) fun _ => CodedP.pure _
theorem codedP_readVar (n : Nat) : CodedP (readVar n) :=
  CodedP.bind (codedP_readInt _) fun _ => codedP_readExactly _
theorem codedP_readListInt (n m : Nat) : CodedP (readListInt n m) := by
  unfold readListInt
  refine CodedP.bind (codedP_readInt _) fun _ => ?_
  split
  · exact CodedP.throw (by decide)
  · exact CodedP.bind (codedP_readExactly _) fun _ => CodedP.pure _
theorem codedE_untilEof {α} {p : P α} (h : CodedP p) : ∀ k s, CodedE (untilEof p k s) := by
  intro k
  induction k with
  | zero =>
    intro s
    unfold untilEof
    split
    · exact CodedE.ok _
    · exact CodedE.err (by decide)
  | succ k ih =>
    intro s
    unfold untilEof
    split
    · exact CodedE.ok _
    dsimp only
    split
    · rename_i he; exact CodedE.err (h _ _ he)
    split
    · rename_i he; exact CodedE.err (ih _ _ he)
    · exact CodedE.ok _
theorem codedE_parseMany {α} {p : P α} (h : CodedP p) (b : Bytes) : CodedE (parseMany p b) :=
  codedE_untilEof h _ _
theorem codedP_readListVar (n m : Nat) : CodedP (readListVar n m) :=
  CodedP.bind (codedP_readVar _) fun _ => CodedP.lift (codedE_parseMany (codedP_readVar _) _)
theorem codedP_limit {α} (n : Nat) {p : P α} (h : CodedP p) : CodedP (limit n p) := by
  intro s
  unfold limit
  dsimp only
  repeat' first
    | exact CodedE.ok _
    | exact CodedE.err (e := .valueError) (by decide)
    | exact CodedE.err (e := .bufTooMuch) (by decide)
    | (rename_i he; exact CodedE.err (h _ _ he))
    | split
theorem codedP_assertEof : CodedP assertEof := by
  intro s
  unfold assertEof
  split
  · exact CodedE.ok _
  · exact CodedE.err (by decide)

theorem codedE_toBytes (n i : Nat) : CodedE (toBytes n i) := by
  unfold toBytes
  split
  · exact CodedE.ok _
  · exact CodedE.err (by decide)
theorem codedE_writeVar (n : Nat) (b : Bytes) : CodedE (writeVar n b) :=
  CodedE.bind (codedE_toBytes _ _) fun _ => CodedE.ok _
theorem codedE_concatMapM {α} {f : α → Except Exn Bytes} (h : ∀ a, CodedE (f a)) (l : List α) :
    CodedE (concatMapM f l) := by
  induction l with
  | nil => exact CodedE.ok _
  | cons a l ih =>
    unfold concatMapM
    exact CodedE.bind (h a) fun _ => CodedE.bind ih fun _ => CodedE.ok _
theorem codedE_writeListInt (n m : Nat) (l : List Nat) : CodedE (writeListInt n m l) :=
  CodedE.bind (codedE_toBytes _ _) fun _ =>
    CodedE.bind (codedE_concatMapM (fun _ => codedE_toBytes _ _) _) fun _ => CodedE.ok _
theorem codedE_writeListVar (n m : Nat) (l : List Bytes) : CodedE (writeListVar n m l) :=
  CodedE.bind (codedE_concatMapM (fun _ => codedE_writeVar _ _) _) fun _ => codedE_writeVar _ _

/-- one structural step, pure computations -/
macro "codedE1" : tactic => `(tactic| first
  | with_reducible first
    | exact CodedE.ok _ | exact CodedE.pure _ | exact codedE_toBytes _ _ | exact codedE_writeVar _ _
    | exact codedE_writeListInt _ _ _ | exact codedE_writeListVar _ _ _
    | assumption
  | (with_reducible refine CodedE.err ?_); decide
  | (with_reducible refine CodedE.mapValue ?_ ?_); decide
  | with_reducible refine CodedE.bind ?_ (fun _ => ?_)
  | with_reducible refine codedE_concatMapM (fun _ => ?_) _
  | split)

/-- one structural step, parsers -/
macro "codedP1" : tactic => `(tactic| first
  | with_reducible first
    | exact CodedP.pure _ | exact codedP_readAll | exact codedP_readExactly _ | exact codedP_readInt _
    | exact codedP_readVar _ | exact codedP_readListInt _ _ | exact codedP_readListVar _ _
    | exact codedP_assertEof
    | assumption
  | (with_reducible refine CodedP.throw ?_); decide
  | with_reducible refine CodedP.map ?_
  | with_reducible refine CodedP.bind ?_ (fun _ => ?_)
  | with_reducible refine codedP_limit _ ?_
  | (with_reducible refine CodedP.lift ?_)
  | with_reducible refine codedE_parseMany ?_ _
  | codedE1)

theorem codedP_readEnum (n : Nat) (l : List Nat) : CodedP (readEnum n l) := by
  unfold readEnum; repeat' codedP1
theorem codedP_parseServerName : CodedP (parseServerName E) := by
  unfold parseServerName; repeat' codedP1
theorem codedE_mkServerNameReq (l : List PyStr) : CodedE (mkServerNameReq l) := by
  unfold mkServerNameReq; repeat' codedE1
theorem codedP_parsePskIdentity : CodedP parsePskIdentity := by
  unfold parsePskIdentity; repeat' codedP1
theorem codedP_parseOidFilter : CodedP parseOidFilter := by
  unfold parseOidFilter; repeat' codedP1
theorem codedP_parseShare : CodedP parseShare := by
  unfold parseShare; repeat' codedP1
theorem codedE_parseShares : ∀ k seen s, CodedE (parseShares k seen s) := by
  intro k
  induction k with
  | zero =>
    intro seen s
    unfold parseShares
    repeat' codedE1
  | succ k ih =>
    intro seen s
    unfold parseShares
    split
    · exact CodedE.ok _
    dsimp only
    split
    · rename_i he; exact CodedE.err (codedP_parseShare _ _ he)
    split
    · exact CodedE.err (by decide)
    split
    · rename_i he; exact CodedE.err (ih _ _ _ he)
    · exact CodedE.ok _

theorem codedP_parseExtBody (t : Nat) (x : ExtClass) : CodedP (parseExtBody E t x) := by
  cases x <;> unfold parseExtBody <;> repeat' first
    | with_reducible exact codedP_readEnum _ _ | with_reducible exact codedP_parseServerName
    | with_reducible exact codedE_mkServerNameReq _ | with_reducible exact codedP_parsePskIdentity
    | with_reducible exact codedP_parseOidFilter | with_reducible exact codedE_parseShares _ _ _
    | codedP1

theorem codedP_parseExt (k : HsKind) : CodedP (parseExt E k) := by
  unfold parseExt extClass
  repeat' first | with_reducible exact codedP_parseExtBody _ _ | codedP1

theorem codedP_parseExtList (k : HsKind) : CodedP (parseExtList E k) := by
  unfold parseExtList
  repeat' first | with_reducible exact codedP_parseExt _ | codedP1

theorem codedE_mkClientHello (r : Bytes) (s : List Nat) (x : List Ext) :
    CodedE (mkClientHello r s x) := by
  unfold mkClientHello
  dsimp only
  repeat' codedE1

theorem codedP_untilPos {α} {p : P α} (h : CodedP p) (lim : Nat) : ∀ k, CodedP (untilPos p lim k) := by
  intro k
  induction k with
  | zero =>
    intro s
    unfold untilPos
    repeat' codedE1
  | succ k ih =>
    intro s
    unfold untilPos
    split
    · dsimp only
      split
      · rename_i he; exact CodedE.err (h _ _ he)
      split
      · rename_i he; exact CodedE.err (ih _ _ he)
      · exact CodedE.ok _
    · exact CodedE.ok _

theorem codedP_parseCertEntry (hE : E.Outside) (raw : Bool) : CodedP (parseCertEntry E raw) := by
  unfold parseCertEntry
  refine CodedP.bind (codedP_readVar _) fun b => CodedP.bind (CodedP.lift ?_) fun _ =>
    CodedP.bind (codedP_parseExtList _) fun _ => ?_
  · split
    · exact hE.pkLoad _
    · exact hE.certLoad _
  · split <;> exact CodedP.pure _

theorem codedP_parseHandshake (hE : E.Outside) (t : Option (Option Nat)) :
    CodedP (parseHandshake E t) := by
  unfold parseHandshake
  refine CodedP.bind (codedP_readInt _) fun ty => CodedP.bind (codedP_readInt _) fun len =>
    CodedP.bind (CodedP.lift ?_) fun _ => codedP_limit _ ?_
  · unfold hsRegistry; repeat' codedE1
  · unfold parseHsBody parseClientHello parseServerHello parseEncryptedExtensions
      parseCertificateRequest parseCertificateVerify parseFinished
    have hc : CodedP (parseCertificate E t) := by
      unfold parseCertificate
      dsimp only
      split
      · rename_i he
        refine CodedP.throw ?_
        split at he <;> cases he <;> decide
      · refine CodedP.bind (codedP_readVar _) fun _ => CodedP.bind (codedP_readInt _) fun _ =>
          CodedP.bind (codedP_limit _ ?_) fun _ => CodedP.pure _
        intro s
        exact codedP_untilPos (codedP_parseCertEntry hE _) _ _ _
    dsimp only
    repeat' first
      | with_reducible exact codedP_parseExtList _ | with_reducible exact codedE_mkClientHello _ _ _
      | codedP1

theorem codedE_decodeContent (hE : E.Outside) (t : Option (Option Nat)) (ct : Nat) (d : Bytes) :
    CodedE (decodeContent E t ct d) := by
  have hp : CodedP (parseContent E t ct) := by
    have h1 := codedP_parseHandshake hE t
    unfold parseContent parseChangeCipherSpec parseAlert parseApplicationData parseHeartbeat
    repeat' first | with_reducible exact codedP_readEnum _ _ | codedP1
  unfold decodeContent
  dsimp only
  split
  · exact CodedE.ok _
  · rename_i e he
    have : e.Coded := (CodedP.bind hp fun _ => CodedP.bind codedP_assertEof fun _ =>
      CodedP.pure _) _ _ he
    split
    · exact CodedE.err (by decide)
    · exact CodedE.err this

/-! ## Serializers and cryptography -/

theorem codedE_serContent (hE : E.Outside) (x : Content) : CodedE (serContent E x) := by
  have hi : ∀ h, CodedE (E.idnaEncode h) := fun h => hE.idnaEncode h
  have hx : ∀ l, CodedE (serExtList E l) := by
    intro l
    unfold serExtList
    refine CodedE.bind (codedE_concatMapM (fun x => ?_) _) fun _ => codedE_writeVar _ _
    unfold serExt
    refine CodedE.bind ?_ fun _ => CodedE.bind (codedE_toBytes _ _) fun _ =>
      CodedE.bind (codedE_writeVar _ _) fun _ => CodedE.pure _
    cases x <;> unfold serExtBody <;> repeat' first | with_reducible exact hi _ | codedE1
  have hc : ∀ x, CodedE (serCertEntry E x) := by
    intro x
    unfold serCertEntry
    repeat' first | with_reducible exact hx _ | codedE1
  have hh : ∀ h, CodedE (serHandshake E h) := by
    intro h
    unfold serHandshake
    refine CodedE.bind ?_ fun _ => CodedE.bind (codedE_writeVar _ _) fun _ => CodedE.pure _
    unfold serHsBody
    repeat' first | with_reducible exact hx _ | with_reducible exact hc _ | codedE1
  unfold serContent
  repeat' first | with_reducible exact hh _ | codedE1

theorem codedE_rounds (a : HashAlg) (prk info : Bytes) : ∀ k i prev,
    CodedE (hkdfRounds E a prk info k i prev) := by
  intro k
  induction k with
  | zero => intro i prev; exact CodedE.ok _
  | succ k ih =>
    intro i prev
    unfold hkdfRounds
    exact CodedE.bind (codedE_toBytes _ _) fun _ => CodedE.bind (ih _ _) fun _ => CodedE.pure _

theorem codedE_expandLabel (a : HashAlg) (s l x : Bytes) (n : Nat) :
    CodedE (hkdfExpandLabel E a s l x n) := by
  unfold hkdfExpandLabel hkdfLabel hkdfExpand
  dsimp only
  repeat' first | with_reducible exact codedE_rounds _ _ _ _ _ _ | codedE1

theorem codedE_deriveSecret (a : HashAlg) (s l h : Bytes) : CodedE (deriveSecret E a s l h) :=
  codedE_expandLabel _ _ _ _ _

theorem codedE_extractNext (a : HashAlg) (s k : Bytes) : CodedE (extractNext E a s k) := by
  unfold extractNext
  repeat' first | with_reducible exact codedE_deriveSecret _ _ _ _ | codedE1

theorem codedE_deriveKeyIv (i : SuiteInfo) (s : Bytes) : CodedE (deriveKeyIv E i s) := by
  unfold deriveKeyIv
  repeat' first | with_reducible exact codedE_expandLabel _ _ _ _ _ | codedE1

theorem codedE_skipEarly (k : CipherSt) : CodedE (skipEarly E k) := by
  unfold skipEarly
  repeat' first | with_reducible exact codedE_extractNext _ _ _ | codedE1

theorem codedE_installKeys (k : CipherSt) (a b c d : Bytes) : CodedE (installKeys k a b c d).1 := by
  unfold installKeys installDir
  dsimp only
  cases k.info.usageLimit with
  | none => exact CodedE.err (by decide)
  | some n => exact CodedE.ok _

theorem codedE_deriveHandshake (k : CipherSt) (s h : Bytes) : CodedE (deriveHandshake E k s h).1 := by
  unfold deriveHandshake
  split
  · rename_i he
    refine CodedE.err ((?_ : CodedE (handshakeSecrets E k s h)) _ he)
    unfold handshakeSecrets
    repeat' first
      | with_reducible exact codedE_extractNext _ _ _ | with_reducible exact codedE_deriveSecret _ _ _ _
      | codedE1
  · dsimp only
    split
    · rename_i he
      refine CodedE.err ((?_ : CodedE _) _ he)
      repeat' first
        | with_reducible exact codedE_deriveKeyIv _ _ | with_reducible exact codedE_deriveSecret _ _ _ _
        | codedE1
    · exact codedE_installKeys _ _ _ _ _

theorem codedE_deriveMaster (k : CipherSt) (s h : Bytes) : CodedE (deriveMaster E k s h).1 := by
  unfold deriveMaster
  split
  · rename_i he
    refine CodedE.err ((?_ : CodedE (masterSecrets E k s h)) _ he)
    unfold masterSecrets
    repeat' first
      | with_reducible exact codedE_deriveSecret _ _ _ _
      | codedE1
  · dsimp only
    split
    · rename_i he
      refine CodedE.err ((?_ : CodedE _) _ he)
      repeat' first
        | with_reducible exact codedE_deriveKeyIv _ _
        | codedE1
    · split
      · rename_i he
        exact CodedE.err (codedE_installKeys _ _ _ _ _ _ (congrArg Prod.fst he))
      · exact CodedE.ok _

theorem codedE_nextNonce (i : SuiteInfo) (d : Dir) : CodedE (nextNonce i d) := by
  unfold nextNonce
  repeat' codedE1

theorem codedE_finMac (a : HashAlg) (k : FinKey) (h : Bytes) : CodedE (finMac E a k h) := by
  unfold finMac; repeat' codedE1

theorem codedE_check (k : Config) : CodedE k.check := by
  unfold Config.check Config.checkMandatory Config.checkServer Config.checkClient
  repeat' codedE1

/-! ## Methods -/

def CodedM {α} (m : M α) : Prop := ∀ c, CodedE (m c).1

theorem CodedM.pure {α} (a : α) : CodedM (pure a : M α) := fun _ => CodedE.ok _
theorem CodedM.throw {α} {e : Exn} (h : e.Coded) : CodedM (M.throw e : M α) := fun _ => CodedE.err h
theorem CodedM.lift {α} {r : Except Exn α} (h : CodedE r) : CodedM (M.lift r) := fun _ => h
theorem CodedM.get : CodedM M.get := fun _ => CodedE.ok _
theorem CodedM.modify (f : Conn → Conn) : CodedM (M.modify f) := fun _ => CodedE.ok _
theorem CodedM.bind {α β} {m : M α} {g : α → M β} (h : CodedM m) (hg : ∀ a, CodedM (g a)) :
    CodedM (m >>= g) := by
  intro c
  rw [M.bind_def]
  have := h c
  rcases hm : m c with ⟨r, c'⟩
  rw [hm] at this
  cases r with
  | error e => exact CodedE.err (this e rfl)
  | ok a => exact hg a c'
theorem CodedM.guarded {b : Bool} {m : M Unit} (h : CodedM m) : CodedM (M.guarded b m) := by
  unfold M.guarded
  split
  · exact h
  · exact CodedM.pure ()
theorem codedM_nextDraw : CodedM nextDraw := fun _ => CodedE.ok _
theorem codedM_getNc : CodedM getNc := by
  intro c; unfold getNc; split
  · exact CodedE.ok _
  · exact CodedE.err (by decide)
theorem codedM_setNc (f : NConfig → NConfig) : CodedM (setNc f) := by
  intro c; unfold setNc; split
  · split
    · exact CodedE.err (by decide)
    · exact CodedE.ok _
  · exact CodedE.err (by decide)
theorem codedM_getCipher : CodedM getCipher := by
  intro c; unfold getCipher; split
  · exact CodedE.ok _
  · exact CodedE.err (by decide)
theorem codedM_digest : CodedM (transcriptDigest E) := by
  intro c
  show CodedE (c.transcript.digest E)
  unfold Transcript.digest
  repeat' codedE1
theorem codedM_update (d : Bytes) (s : Side) (t : Nat) : CodedM (transcriptUpdate d s t) := by
  intro c
  unfold transcriptUpdate
  split
  · exact CodedE.ok _
  · rename_i he
    refine CodedE.err ((?_ : CodedE (c.transcript.update d s t).1) _ (by rw [he]))
    unfold Transcript.update
    dsimp only
    split
    · exact CodedE.ok _
    split
    · exact CodedE.err (by decide)
    split
    · exact CodedE.ok _
    · exact CodedE.err (by decide)
theorem codedM_postInit (a : HashAlg) : CodedM (transcriptPostInit a) := by
  intro c
  unfold transcriptPostInit
  split
  · exact CodedE.ok _
  · rename_i he
    unfold Transcript.postInit at he
    split at he <;> cases he
    exact CodedE.err (by decide)
theorem codedM_hrr (s : Side) (h : Bytes) : CodedM (transcriptHrr s h) := by
  intro c
  unfold transcriptHrr
  split
  · exact CodedE.ok _
  · rename_i he
    unfold Transcript.hrrDance at he
    split at he <;> cases he
    exact CodedE.err (by decide)
theorem codedM_setConfig (f : Config → Config) : CodedM (setConfig f) := by
  intro c
  unfold setConfig
  split
  · exact CodedE.ok _
  · rename_i he
    exact CodedE.err (codedE_check _ _ he)
theorem codedM_skipEarly : CodedM (cipherSkipEarly E) := by
  intro c
  unfold cipherSkipEarly
  split
  · exact CodedE.err (by decide)
  split
  · exact CodedE.ok _
  · rename_i he; exact CodedE.err (codedE_skipEarly _ _ he)
theorem codedM_deriveHandshake (s h : Bytes) : CodedM (cipherDeriveHandshake E s h) := by
  intro c
  unfold cipherDeriveHandshake
  split
  · exact CodedE.err (by decide)
  · exact codedE_deriveHandshake _ _ _
theorem codedM_deriveMaster (s h : Bytes) : CodedM (cipherDeriveMaster E s h) := by
  intro c
  unfold cipherDeriveMaster
  split
  · exact CodedE.err (by decide)
  · exact codedE_deriveMaster _ _ _
theorem codedM_hashContent (d : Bytes) (s : Side) (x : Content) : CodedM (hashContent d s x) := by
  unfold hashContent
  split
  · exact codedM_update _ _ _
  · exact CodedM.throw (by decide)
  · exact CodedM.pure _

theorem codedE_recordHeader (o l : Nat) : CodedE (recordHeader o l) := by
  unfold recordHeader; repeat' codedE1

theorem codedM_encrypt (t : Nat) (f : Bytes) : CodedM (encryptFragment E t f) := by
  unfold encryptFragment
  refine CodedM.bind CodedM.get fun _ => CodedM.bind codedM_getCipher fun _ =>
    CodedM.bind (CodedM.lift (codedE_recordHeader _ _)) fun _ => CodedM.bind ?_ fun _ => ?_
  · intro c
    unfold cipherEncrypt
    split
    · exact CodedE.err (by decide)
    split
    · exact CodedE.err (by decide)
    split
    · exact CodedE.err (by decide)
    · rename_i he; exact CodedE.err (codedE_nextNonce _ _ _ he)
    · exact CodedE.ok _
  · split
    · exact CodedM.pure _
    · exact CodedM.throw (by decide)

theorem codedM_makeRecords (b : Bool) (t : Nat) (fs : List Bytes) :
    CodedM (makeRecords E b t fs) := by
  induction fs with
  | nil => exact CodedM.pure _
  | cons f fs ih =>
    unfold makeRecords
    refine CodedM.bind ?_ fun _ => CodedM.bind (CodedM.lift (codedE_recordHeader _ _)) fun _ =>
      CodedM.bind ih fun _ => CodedM.pure _
    unfold protect
    split
    · exact codedM_encrypt _ _
    · exact CodedM.pure _

theorem codedM_send (hE : E.Outside) (x : Content) : CodedM (sendContent E x) := by
  unfold sendContent
  refine CodedM.bind CodedM.get fun _ => ?_
  split
  · exact CodedM.throw (by decide)
  split
  · exact CodedM.throw (by decide)
  split
  · exact CodedM.throw (by decide)
  refine CodedM.bind (CodedM.lift (codedE_serContent hE _)) fun _ =>
    CodedM.bind (codedM_hashContent _ _ _) fun _ => CodedM.bind (CodedM.lift ?_) fun _ =>
    CodedM.bind (codedM_makeRecords _ _ _) fun _ => CodedM.modify _
  unfold splitFragments
  repeat' codedE1

/-- one structural step, methods -/
macro "codedM1" : tactic => `(tactic| first
  | with_reducible first
    | exact CodedM.pure _ | exact CodedM.get | exact CodedM.modify _ | exact codedM_nextDraw
    | exact codedM_getNc | exact codedM_setNc _ | exact codedM_getCipher | exact codedM_digest
    | exact codedM_postInit _ | exact codedM_hrr _ _ | exact codedM_setConfig _
    | exact codedM_skipEarly | exact codedM_deriveHandshake _ _ | exact codedM_deriveMaster _ _
    | exact codedM_send ‹_› _ | exact codedE_finMac _ _ _
    | assumption
    | apply CodedM.guarded
  | (with_reducible refine CodedM.throw ?_); decide
  | with_reducible refine CodedM.lift ?_
  | with_reducible refine CodedM.bind ?_ (fun _ => ?_)
  | codedE1)

theorem coded_alert {d : Nat} (h : Iana.alertDescriptions.contains d = true) : (Exn.alert d).Coded := by
  have : ∀ d ∈ Iana.alertDescriptions, d < 256 := by decide
  exact this d (by simpa using h)

theorem codedM_base (x : Content) : CodedM (baseProcess x) := by
  unfold baseProcess moveTo
  split
  · repeat' first
      | (rename_i h; exact CodedM.throw (coded_alert h.1)) | codedM1
  · codedM1
  · codedM1

theorem codedM_clientInitiate (hE : E.Outside) (k : Option Bytes) : CodedM (clientInitiate E k) := by
  unfold clientInitiate kexInit moveTo
  refine CodedM.bind CodedM.get fun c => ?_
  split
  · codedM1
  · codedM1
  · split
    · codedM1
    · refine CodedM.bind (CodedM.bind codedM_nextDraw fun _ => CodedM.lift (hE.kexInit _ _))
        fun p => ?_
      repeat' first | with_reducible exact codedE_mkClientHello _ _ _ | codedM1

theorem codedM_clientWaitSH (hE : E.Outside) (f : Bool) (ks : List (Nat × Bytes)) (h : Bytes)
    (x : Content) : CodedM (clientWaitSH E f ks h x) := by
  have hk : ∀ g a b, CodedE (E.kexResume g a b) := fun g a b => hE.kexResume g a b
  unfold clientWaitSH clientSetup clientProcessServerHello clientProcessHrr clientNegVersion
    clientNegKeyShare cookieOf moveTo
  repeat' first
    | with_reducible exact codedM_base _ | with_reducible exact codedM_clientInitiate hE _
    | with_reducible exact hk _ _ _ | codedM1

theorem codedM_clientWaitEE (x : Content) : CodedM (clientWaitEE x) := by
  unfold clientWaitEE clientNegMfl clientNegAlpn clientNegHeartbeat clientNegCct clientNegSct moveTo
  repeat' first | with_reducible exact codedM_base _ | codedM1

theorem codedE_cert (x : CertEntry) : CodedE x.cert := by
  unfold CertEntry.cert; repeat' codedE1

theorem codedE_certsOf (l : List CertEntry) : CodedE (certsOf l) := by
  induction l with
  | nil => exact CodedE.ok _
  | cons x l ih =>
    unfold certsOf
    exact CodedE.bind (codedE_cert _) fun _ => CodedE.bind ih fun _ => CodedE.pure _

theorem codedM_clientVerifyStatuses (hE : E.Outside) : ∀ es : List CertEntry,
    CodedM (clientVerifyStatuses E es)
  | [] => CodedM.pure ()
  | [_] => CodedM.pure ()
  | e :: i :: rest => by
    unfold clientVerifyStatuses
    refine CodedM.bind ?_ fun _ => codedM_clientVerifyStatuses hE (i :: rest)
    have h1 : ∀ a b c d, CodedE (E.ocspValidate a b c d) := fun a b c d => hE.ocspValidate a b c d
    have h2 : ∀ a, CodedE (E.ocspUrl a) := fun a => hE.ocspUrl a
    have h3 : ∀ a b c, CodedE (E.ocspFetch a b c) := fun a b c => hE.ocspFetch a b c
    unfold clientVerifyStatus
    repeat' first
      | with_reducible exact h1 _ _ _ _ | with_reducible exact h2 _ | with_reducible exact h3 _ _ _
      | with_reducible exact codedE_cert _ | codedM1

theorem codedM_clientWaitCert (hE : E.Outside) (m : Bool) (x : Content) :
    CodedM (clientWaitCert E m x) := by
  have hv : ∀ es, CodedM (clientVerifyChain E es) := by
    intro es
    unfold clientVerifyChain
    refine CodedM.bind CodedM.get fun _ => CodedM.bind (CodedM.lift (codedE_certsOf _)) fun _ => ?_
    split
    · refine CodedM.bind codedM_nextDraw fun _ => ?_
      split
      · codedM1
      · codedM1
      · rename_i he; exact CodedM.throw (hE.verifyChain _ _ _ _ _ _ _ he)
    · codedM1
    · codedM1
  unfold clientWaitCert clientProcessEntries clientProcessX509 clientProcessRaw
    clientVerifyRevocation moveTo
  repeat' first
    | with_reducible exact hv _ | with_reducible exact codedM_clientVerifyStatuses hE _
    | with_reducible exact codedE_cert _ | with_reducible exact codedM_base _ | codedM1

theorem codedM_clientWaitCV (hE : E.Outside) (m : Bool) (h : Bytes) (x : Content) :
    CodedM (clientWaitCV E m h x) := by
  have h1 : ∀ a b c d, CodedE (E.verify a b c d) := fun a b c d => hE.verify a b c d
  have h2 : ∀ nc, CodedE (peerKey E nc) := by
    intro nc
    unfold peerKey
    split
    · exact CodedE.ok _
    · split
      · exact hE.certPub _
      · exact CodedE.err (by decide)
  unfold clientWaitCV moveTo
  repeat' first
    | with_reducible exact h1 _ _ _ _ | with_reducible exact h2 _ | with_reducible exact codedM_base _
    | codedM1

theorem codedE_verifyFinish (k : CipherSt) (h d : Bytes) : CodedE (verifyFinish E k h d) := by
  unfold verifyFinish
  repeat' first | with_reducible exact codedE_finMac _ _ _ | codedE1

theorem codedE_signFinish (k : CipherSt) (h : Bytes) : CodedE (signFinish E k h) :=
  codedE_finMac _ _ _

theorem codedM_clientWaitFin (hE : E.Outside) (m : Bool) (h : Bytes) (x : Content) :
    CodedM (clientWaitFin E m h x) := by
  unfold clientWaitFin moveTo
  repeat' first
    | with_reducible exact codedE_verifyFinish _ _ _ | with_reducible exact codedE_signFinish _ _
    | with_reducible exact codedM_base _ | codedM1

theorem codedM_serverWaitFin (h : Bytes) (x : Content) : CodedM (serverWaitFin E h x) := by
  unfold serverWaitFin moveTo
  repeat' first
    | with_reducible exact codedE_verifyFinish _ _ _
    | with_reducible exact codedM_base _ | codedM1

theorem codedM_serverWaitCH (hE : E.Outside) (f : Bool) (x : Content) :
    CodedM (serverWaitCH E f x) := by
  have hf : ∀ a b, CodedE (findCommonSuite a b) := by
    intro a b; unfold findCommonSuite; repeat' codedE1
  have h0 : ∀ a b, CodedM (serverCheckHello f a b) := by
    intro a b
    unfold serverCheckHello serverSetup serverCheckSecond
    repeat' first | with_reducible exact hf _ _ | codedM1
  have h1 : ∀ x, CodedM (serverNegotiate E x) := by
    intro x
    have k1 : ∀ g a b, CodedE (E.kexResume g a b) := fun g a b => hE.kexResume g a b
    have k2 : ∀ g d, CodedE (E.kexInit g d) := fun g d => hE.kexInit g d
    unfold serverNegotiate serverNegVersions serverNegGroups serverNegSignature serverNegKeyShare
      serverNegCct serverNegSct serverNegMfl serverNegAlpn serverNegHeartbeat serverNegStatus
      suitesForOid clientShares
    dsimp only
    repeat' first | with_reducible exact k1 _ _ _ | with_reducible exact k2 _ _ | codedM1
  have h2 : ∀ sid cl, CodedM (serverSendHrr E f sid cl) := by
    intro sid cl
    unfold serverSendHrr moveTo
    repeat' codedM1
  have h3 : ∀ sid cl enc sh, CodedM (serverFlight E f sid cl enc sh) := by
    intro sid cl enc sh
    have o1 : ∀ a b c d, CodedE (E.sign a b c d) := fun a b c d => hE.sign a b c d
    have hs : ∀ ch, CodedM (serverStaple E ch) := by
      intro ch
      have h2 : ∀ a, CodedE (E.ocspUrl a) := fun a => hE.ocspUrl a
      have h3 : ∀ a b c, CodedE (E.ocspFetch a b c) := fun a b c => hE.ocspFetch a b c
      unfold serverStaple
      repeat' first
        | with_reducible exact h2 _ | with_reducible exact h3 _ _ _
        | (rename_i he; exact CodedM.throw (hE.ocspValidate _ _ _ _ _ he))
        | codedM1
    unfold serverFlight serverSendHello serverRequestCert serverSendCertificate serverCertEntries
      serverSendFinished moveTo
    repeat' first
      | with_reducible exact o1 _ _ _ _ | with_reducible exact hs _
      | with_reducible exact codedE_signFinish _ _ | codedM1
  unfold serverWaitCH
  repeat' first
    | with_reducible exact h0 _ _ | with_reducible exact h1 _ | with_reducible exact h2 _ _
    | with_reducible exact h3 _ _ _ _ | with_reducible exact codedM_base _ | codedM1

theorem codedM_process (hE : E.Outside) (x : Content) : CodedM (process E x) := by
  intro c
  have hcon : CodedM (connectedProcess x) := by
    unfold connectedProcess
    repeat' first | with_reducible exact codedM_base _ | codedM1
  unfold process
  split
  · exact codedM_base _ _
  · exact codedM_clientWaitSH hE _ _ _ _ _
  · exact codedM_clientWaitEE _ _
  · unfold clientWaitCertCr moveTo
    exact (by
      repeat' first
        | with_reducible exact codedM_clientWaitCert hE _ _ | with_reducible exact codedM_base _
        | codedM1 : CodedM _) c
  · exact codedM_clientWaitCert hE _ _ _
  · exact codedM_clientWaitCV hE _ _ _ _
  · exact codedM_clientWaitFin hE _ _ _ _
  · exact codedM_base _ _
  · exact codedM_serverWaitCH hE _ _ _
  · exact codedM_serverWaitFin _ _ _
  · exact hcon _
  · split
    · exact hcon _
    · exact CodedE.err (by decide)
  · exact CodedE.ok _

/-! ## Reading -/

theorem codedM_decrypt (h f : Bytes) : CodedM (decryptRecord E h f) := by
  intro c
  unfold decryptRecord
  split
  · exact CodedE.err (by decide)
  split
  · exact CodedE.err (by decide)
  split
  · rename_i he; exact CodedE.err (codedE_nextNonce _ _ _ he)
  · dsimp only
    split
    · exact CodedE.err (by decide)
    · split
      · exact CodedE.err (by decide)
      · exact CodedE.ok _

theorem codedM_readNextRecord : CodedM (readNextRecord E) := by
  intro c
  have hu : ∀ o h f, CodedM (useRecord E o h f) := by
    intro o h f c
    unfold useRecord
    by_cases hm : c.mustDecrypt = true
    · rw [if_pos hm]
      split
      · rename_i he; exact CodedE.err (codedM_decrypt _ _ _ _ (congrArg Prod.fst he))
      · split
        · exact CodedE.err (e := .alert Iana.unexpectedMessage) (by decide)
        · exact CodedE.ok _
    · rw [if_neg hm]
      dsimp only
      split
      · exact CodedE.err (e := .alert Iana.unexpectedMessage) (by decide)
      · exact CodedE.ok _
  rcases nextRecord (E := E) c with ⟨_, h⟩ | ⟨_, h⟩ | ⟨o, hd, f, r, _, _, h⟩
  · rw [h]; exact CodedE.ok _
  · rw [h]; exact CodedE.err (by decide)
  · rw [h]; exact hu _ _ _ _

theorem codedM_finish : CodedM finishHandshake := by
  intro c
  unfold finishHandshake
  split
  · exact CodedE.err (by decide)
  · exact CodedE.ok _

theorem codedM_complete : ∀ n, CodedM (completeHandshake E n) := by
  intro n
  induction n with
  | zero =>
    intro c
    unfold completeHandshake
    split
    · exact CodedE.err (by decide)
    · exact codedM_finish _
  | succ n ih =>
    intro c
    unfold completeHandshake
    split
    · split
      · rename_i he; exact CodedE.err (codedM_readNextRecord _ _ (congrArg Prod.fst he))
      · exact CodedE.ok _
      · split
        · exact CodedE.err (by decide)
        · exact ih _
    · exact codedM_finish _

theorem codedM_readNextContent : CodedM (readNextContent E) := by
  intro c
  unfold readNextContent
  split
  · rename_i he; exact CodedE.err (codedM_readNextRecord _ _ (congrArg Prod.fst he))
  · exact CodedE.ok _
  · split
    · exact CodedE.ok _
    split
    · exact CodedE.err (by decide)
    · dsimp only
      split
      · exact CodedE.ok _
      · exact codedM_complete _ _

theorem codedM_receiveStep (hE : E.Outside) : CodedM (receiveStep E) := by
  unfold receiveStep
  refine CodedM.bind codedM_readNextContent fun n => ?_
  split
  · exact CodedM.pure _
  · exact CodedM.bind CodedM.get fun _ => CodedM.bind (CodedM.lift (codedE_decodeContent hE _ _ _))
      fun _ => CodedM.bind (codedM_hashContent _ _ _) fun _ => CodedM.bind (CodedM.modify _) fun _ =>
      CodedM.bind (codedM_process hE _) fun _ => CodedM.pure _

end Siotls
