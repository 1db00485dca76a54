import Verif.Spec.KeyLog
import Verif.Proofs.NegClient
import Verif.Proofs.Suites
import Verif.Proofs.Utils
import Verif.Proofs.Alerts
/-!
# The key log
-/

namespace Siotls

open Spec

variable {E : Env} {G : Conn → Prop}

/-! ## Lines -/

theorem hexDigit_reads : ∀ n : Fin 16, hexValue (hexDigit n.val) = some n.val ∧ hexDigit n.val ≠ ' ' := by
  decide

theorem readHex_hexBytes (b : Bytes) : readHex (hexBytes b) = some b := by
  induction b with
  | nil => rfl
  | cons x xs ih =>
    have hx := x.toNat_lt
    have h1 := (hexDigit_reads ⟨x.toNat / 16, by omega⟩).1
    have h2 := (hexDigit_reads ⟨x.toNat % 16, by omega⟩).1
    dsimp only at h1 h2
    change readHex (_ :: _ :: hexBytes xs) = _
    simp only [readHex, h1, h2, ih]
    congr 2
    rw [Nat.div_add_mod]
    exact UInt8.ofNat_toNat

theorem hexBytes_solid (b : Bytes) : ∀ c ∈ hexBytes b, c ≠ ' ' := by
  intro c hc
  obtain ⟨x, _, hc⟩ := List.mem_flatMap.mp hc
  have hx := x.toNat_lt
  rcases List.mem_cons.mp hc with rfl | hc
  · exact (hexDigit_reads ⟨x.toNat / 16, by omega⟩).2
  · rw [List.mem_singleton.mp hc]
    exact (hexDigit_reads ⟨x.toNat % 16, by omega⟩).2

theorem solid_split {l r : List Char} (h : ∀ c ∈ l, c ≠ ' ') :
    (l ++ ' ' :: r).takeWhile (· ≠ ' ') = l ∧ (l ++ ' ' :: r).dropWhile (· ≠ ' ') = ' ' :: r := by
  induction l with
  | nil => exact ⟨rfl, rfl⟩
  | cons c l ih =>
    have hc := h c (.head _)
    obtain ⟨h1, h2⟩ := ih fun x hx => h x (.tail _ hx)
    constructor
    · rw [List.cons_append, List.takeWhile_cons_of_pos (by simpa using hc), h1]
    · rw [List.cons_append, List.dropWhile_cons_of_pos (by simpa using hc), h2]

theorem readKeyLine_logLine {label : String} (h : ∀ c ∈ label.toList, c ≠ ' ') (r secret : Bytes) :
    readKeyLine (logLine label (hexBytes r) secret) = some (label, r, secret) := by
  unfold readKeyLine logLine
  rw [(solid_split h).1, (solid_split h).2]
  dsimp only
  rw [(solid_split (hexBytes_solid r)).1, (solid_split (hexBytes_solid r)).2]
  dsimp only
  rw [readHex_hexBytes, readHex_hexBytes, String.ofList_toList]

/-! ## The random of the ClientHello -/

structure UniqInv (s : Side) (c : Conn) : Prop where
  lens : ∀ r sid su ex, Ev.recv (.handshake (.clientHello r sid su ex)) ∈ c.tr → r.length = 32
  known : ∀ k, c.cipher = some k → ∃ r, c.clientUnique = some r ∧ HelloRandom s c.tr r

theorem Spec.HelloRandom.mono {s : Side} {tr tr' : List Ev} {r : Bytes} (h : HelloRandom s tr r)
    (ht : ∀ e ∈ tr, e ∈ tr') : HelloRandom s tr' r := by
  obtain ⟨hl, sid, su, ex, h⟩ := h
  refine ⟨hl, sid, su, ex, ?_⟩
  cases s <;> exact ht _ h

theorem UniqInv.same {s : Side} {c c' : Conn} (h : UniqInv s c) (new : List Ev)
    (ht : c'.tr = new ++ c.tr) (hn : ∀ e ∈ new, ∀ r sid su ex, e = Ev.recv (.handshake (.clientHello r sid su ex)) →
      r.length = 32) (hc : ∀ k, c'.cipher = some k → ∃ k, c.cipher = some k)
    (hu : c'.clientUnique = c.clientUnique) : UniqInv s c' := by
  refine ⟨fun r sid su ex hm => ?_, fun k hk => ?_⟩
  · rw [ht] at hm
    rcases List.mem_append.mp hm with hm | hm
    · exact hn _ hm _ _ _ _ rfl
    · exact h.lens _ _ _ _ hm
  · obtain ⟨k, hk⟩ := hc k hk
    obtain ⟨r, h1, h2⟩ := h.known k hk
    exact ⟨r, hu.trans h1, h2.mono (fun e he => by rw [ht]; exact List.mem_append_right _ he)⟩

theorem UniqInv.step {s : Side} {c c' : Conn} (h : UniqInv s c) (hi : SideInv s c)
    (hw : ∀ f ks hh, c.state = .clientWaitSH f ks hh → ∃ r, c.clientUnique = some r ∧ HelloRandom s c.tr r)
    (hs : Step E G c c') : UniqInv s c' := by
  cases hs with
  | input | draw | fragment | hashError | signature | serverUnique | postInit | hrrClient | nc | cfg | retry
  | hrrServer | move =>
    exact h.same [] rfl (by simp) (fun k hk => ⟨k, hk⟩) rfl
  | badRecord hc => exact h.same [] rfl (by simp) (fun _ _ => ⟨_, hc⟩) rfl
  | skipEarly hc => exact h.same [] rfl (by simp) (fun _ _ => ⟨_, hc⟩) rfl
  | opened hc => exact h.same [_] rfl (by simp) (fun _ _ => ⟨_, hc⟩) rfl
  | sealed hc => exact h.same [_] rfl (by simp) (fun _ _ => ⟨_, hc⟩) rfl
  | gotHandshake | gotOther | delivered => exact h.same [_] rfl (by simp) (fun k hk => ⟨k, hk⟩) rfl
  | received _ _ _ hx =>
    refine h.same [_] rfl ?_ (fun k hk => ⟨k, hk⟩) rfl
    intro e he r sid su ex hee
    rw [List.mem_singleton.mp he] at hee
    cases hee
    exact absurd rfl (hx _)
  | @receivedHs ty data m b t _ _ hd _ =>
    refine h.same (.recv (.handshake m) :: (if b then [.hashed c.config.side.other m.msgType data] else []))
      (by cases b <;> rfl) ?_ (fun k hk => ⟨k, hk⟩) rfl
    intro e he r sid su ex hee
    subst hee
    rcases List.mem_cons.mp he with he | he
    · cases he
      cases decode_handshake_ctype hd
      obtain ⟨_, _, _, _, h32, _⟩ := clientHello_layout hd
      exact h32
    · cases b <;> simp at he
  | @hashSent m data b =>
    refine h.same (if b then [.hashed c.config.side m.msgType data] else []) (by cases b <;> rfl) ?_
      (fun k hk => ⟨k, hk⟩) rfl
    intro e he r sid su ex hee
    subst hee
    cases b <;> simp at he
  | @emit c₀ content records =>
    refine h.same (.sent content :: (records.map fun r => Ev.record r.1 r.2.1).reverse) (by simp) ?_
      (fun k hk => ⟨k, hk⟩) rfl
    intro e he r sid su ex hee
    subst hee
    simp at he
  | handshakeKeys _ hc | masterKeys _ hc =>
    refine h.same _ rfl ?_ (fun _ _ => ⟨_, hc⟩) rfl
    intro e he r sid su ex hee
    subst hee
    rcases mem_keyEvents he with ⟨_, _, he⟩ | ⟨_, _, he⟩ | ⟨_, _, he⟩ <;> cases he
  | clientUnique hst hl =>
    refine ⟨h.lens, fun k _ => ⟨_, rfl, ?_⟩⟩
    have hm := lastRecv_mem hl
    cases hi.state .server (by rw [hst]; rfl)
    exact ⟨h.lens _ _ _ _ hm, _, _, _, hm⟩
  | setup hok =>
    refine ⟨h.lens, fun k _ => ?_⟩
    cases hok with
    | client hst => exact hw _ _ _ hst
    | server hst hh _ _ _ _ hu =>
      cases hi.state .server (by rw [hst]; rfl)
      have hm := List.mem_of_mem_head? hh
      exact ⟨_, hu, h.lens _ _ _ _ hm, _, _, _, hm⟩

theorem UniqInv.api {s : Side} {c c' : Conn} (h : UniqInv s c) (hi : SideInv s c)
    (hw : ∀ f ks hh, c.state = .clientWaitSH f ks hh → ∃ r, c.clientUnique = some r ∧ HelloRandom s c.tr r)
    (hs : Api E G c c') : UniqInv s c' := by
  cases hs with
  | step hs => exact h.step hi hw hs
  | appended | read | drain | closing | closedSend => exact ⟨h.lens, h.known⟩
  | closeRecv =>
    unfold closeReceivingEnd
    split <;> exact ⟨h.lens, h.known⟩

theorem lastHello_mem {tr : List Ev} {r sid : Bytes} {su : List Nat} {ex : List Ext}
    (h : lastHello tr = some (r, sid, su, ex)) :
    ∃ l, (Ev.sent (.handshake (.clientHello r sid su ex)) :: l) <:+ tr := by
  induction tr with
  | nil => cases h
  | cons e tr ih =>
    unfold lastHello at h
    split at h
    · rename_i heq; cases heq
    · rename_i heq
      cases heq
      cases h
      exact ⟨_, List.suffix_refl _⟩
    · rename_i heq
      cases heq
      obtain ⟨l, hl⟩ := ih h
      exact ⟨l, hl.trans (List.suffix_cons _ _)⟩

/-- a waiting client sent its ClientHello -/
theorem CliInv.hello {g : Config} {hostname rnd} {c : Conn} (h : CliInv E g hostname rnd c)
    (hr : rnd.length = 32) (f ks hh) (hs : c.state = .clientWaitSH f ks hh) :
    ∃ r, c.clientUnique = some r ∧ HelloRandom .client c.tr r := by
  obtain ⟨r, sid, su, ex, _, _, hl, _⟩ := h.wait f ks hh hs
  obtain ⟨l, hl⟩ := lastHello_mem hl
  have := h.trace _ _ hl
  obtain ⟨rfl, -⟩ := this
  exact ⟨_, h.random, hr, _, _, _, hl.subset (.head _)⟩

/-! ## Lines and keys -/

theorem handshake_secrets (hE : E.Sized) (k : CipherSt) (shared th : Bytes) (hth : th.length ≤ 255)
    (hs : k.secrets = ⟨1, (E.spec k.info.digest).deriveSecret (E.spec k.info.digest).earlySecret
      "derived" ((E.spec k.info.digest).hash [])⟩) :
    ∃ salt, handshakeSecrets E k shared th =
      .ok (salt, (E.spec k.info.digest).cHs shared th, (E.spec k.info.digest).sHs shared th) := by
  have sz := k.info.digest.size_le
  have sp := k.info.digest.size_pos
  have hne : k.secrets.salt.isEmpty = false := by
    rw [hs]; exact not_isEmpty_of_length (length_specDerive hE ..)
  have d1 := fun s => deriveSecret_ok hE k.info.digest s (hash := E.hash k.info.digest [])
    lblDerived "derived" (by decide) (by decide) (by rw [hE.hash]; omega)
  have d2 := fun s => deriveSecret_ok hE k.info.digest s lblCHs "c hs traffic" (by decide)
    (by decide) hth
  have d3 := fun s => deriveSecret_ok hE k.info.digest s lblSHs "s hs traffic" (by decide)
    (by decide) hth
  have hst : k.secrets.stage = 1 := by rw [hs]
  have hsalt : k.secrets.salt = (E.spec k.info.digest).deriveSecret
      (E.spec k.info.digest).earlySecret "derived" ((E.spec k.info.digest).hash []) := by rw [hs]
  simp only [handshakeSecrets, hst, extractNext, hkdfExtract, hne, d1, d2, d3,
    Except.bind_def, ne_eq, not_true, if_false, pure, Except.pure]
  exact ⟨_, by simp [Spec.Hash.cHs, Spec.Hash.sHs, Spec.Hash.handshakeSecret, Spec.Hash.extract, hsalt,
    Env.spec]; rfl⟩

theorem master_secrets (hE : E.Sized) (k : CipherSt) (shared th2 th3 : Bytes) (h2 : th2.length ≤ 255)
    (h3 : th3.length ≤ 255)
    (hs : k.secrets = ⟨2, (E.spec k.info.digest).deriveSecret
        ((E.spec k.info.digest).handshakeSecret shared) "derived" ((E.spec k.info.digest).hash [])⟩) :
    ∃ rs, masterSecrets E k th2 th3 =
      .ok ((E.spec k.info.digest).cAp shared th2, (E.spec k.info.digest).sAp shared th2,
        (E.spec k.info.digest).exporter shared th2, rs) := by
  have sz := k.info.digest.size_le
  have sp := k.info.digest.size_pos
  have hne : k.secrets.salt.isEmpty = false := by
    rw [hs]; exact not_isEmpty_of_length (length_specDerive hE ..)
  have d2 := fun s => deriveSecret_ok hE k.info.digest s lblCAp "c ap traffic" (by decide)
    (by decide) h2
  have d3 := fun s => deriveSecret_ok hE k.info.digest s lblSAp "s ap traffic" (by decide)
    (by decide) h2
  have d4 := fun s => deriveSecret_ok hE k.info.digest s lblExp "exp master" (by decide)
    (by decide) h2
  have d5 := fun s => deriveSecret_ok hE k.info.digest s lblRes "res master" (by decide)
    (by decide) h3
  have hst : k.secrets.stage = 2 := by rw [hs]
  have hsalt : k.secrets.salt = (E.spec k.info.digest).deriveSecret
        ((E.spec k.info.digest).handshakeSecret shared) "derived"
        ((E.spec k.info.digest).hash []) := by rw [hs]
  simp only [masterSecrets, hst, hkdfExtract, hne, d2, d3,
    Except.bind_def, ne_eq, not_true, if_false, pure, Except.pure, d4, d5]
  exact ⟨_, by simp [Spec.Hash.exporter, Spec.Hash.cAp, Spec.Hash.sAp,
      Spec.Hash.masterSecret, Spec.Hash.extract, hsalt, Env.spec, Spec.Hash.zero, zeros]; rfl⟩

theorem KeyOf.early {k : CipherSt} (h : KeyOf E k) (hu : k.info.usageLimit.isSome = true)
    (hst : k.secrets.stage = 1) :
    k.secrets = ⟨1, (E.spec k.info.digest).deriveSecret
      (E.spec k.info.digest).earlySecret "derived" ((E.spec k.info.digest).hash [])⟩ := by
  rcases h.2 hu with ⟨hsec | hsec, _⟩ | ⟨sh, hsec, _⟩
  · rw [hsec] at hst; cases hst
  · exact hsec
  · rw [hsec] at hst; cases hst

theorem KeyOf.mid {k : CipherSt} (h : KeyOf E k) (hu : k.info.usageLimit.isSome = true)
    (hst : k.secrets.stage = 2) :
    ∃ sh, k.secrets = ⟨2, (E.spec k.info.digest).deriveSecret
        ((E.spec k.info.digest).handshakeSecret sh) "derived" ((E.spec k.info.digest).hash [])⟩ := by
  rcases h.2 hu with ⟨hsec | hsec, _⟩ | ⟨sh, hsec, _⟩
  · rw [hsec] at hst; cases hst
  · rw [hsec] at hst; cases hst
  · exact ⟨sh, hsec⟩

/-- the lines in `tr` give key and IV of this direction -/
def DirLogged (E : Env) (side sender : Side) (tr : List Ev) (info : SuiteInfo) (d : Dir) : Prop :=
  ∀ key, d.key = some key → ∃ line label r secret, Ev.logged line ∈ tr ∧
    readKeyLine line = some (label, r, secret) ∧ HelloRandom side tr r ∧ label ∈ trafficLabels sender ∧
    key = (E.spec info.digest).writeKey secret info.keyLength ∧
    d.iv = some ((E.spec info.digest).writeIv secret 12)

theorem DirLogged.mono {side sender : Side} {tr tr' : List Ev} {info : SuiteInfo} {d : Dir}
    (h : DirLogged E side sender tr info d) (ht : ∀ e ∈ tr, e ∈ tr') :
    DirLogged E side sender tr' info d := by
  intro key hk
  obtain ⟨line, label, r, secret, h1, h2, h3, h4⟩ := h key hk
  exact ⟨line, label, r, secret, ht _ h1, h2, h3.mono ht, h4⟩

theorem DirLogged.next {side sender : Side} {tr : List Ev} {info : SuiteInfo} {d d' : Dir} {n : Bytes}
    (h : DirLogged E side sender tr info d) (hn : nextNonce info d = .ok (n, d')) :
    DirLogged E side sender tr info d' := by
  unfold nextNonce at hn
  split at hn
  · split at hn
    · cases hn
      rename_i hiv _ _ _
      intro key hk
      exact h key hk
    · cases hn
  · cases hn

theorem xorBytes_zip (a b : Bytes) : xorBytes a b = List.zipWith (· ^^^ ·) a b := by
  induction a generalizing b with
  | nil => cases b <;> rfl
  | cons x a ih =>
    cases b with
    | nil => rfl
    | cons y b => rw [xorBytes, ih]; rfl

theorem suite_keyLength {s : Nat} {info : SuiteInfo} (h : suiteInfo s = some info) :
    suiteKeyLength s = some info.keyLength ∧ info.nonceLength = 12 := by
  unfold suiteInfo at h
  split at h <;> cases h <;> exact ⟨rfl, rfl⟩

theorem DirLogged.revealed {side sender : Side} {tr : List Ev} {info : SuiteInfo} {d d' : Dir} {n key : Bytes}
    (h : DirLogged E side sender tr info d) (hi : suiteInfo info.id = some info) (hk : d.key = some key)
    (hn : nextNonce info d = .ok (n, d')) : Revealed E side sender tr info.id key n := by
  obtain ⟨line, label, r, secret, h1, h2, h3, h4, h5, h6⟩ := h key hk
  obtain ⟨hl, h12⟩ := suite_keyLength hi
  unfold nextNonce at hn
  rw [h6] at hn
  split at hn
  · split at hn
    · cases hn
      rename_i hiv _ _ _
      cases hiv
      rw [h12, xorBytes_zip]
      exact ⟨line, label, r, secret, info, _, _, h1, h2, h3, h4, hi, hl, h5, rfl⟩
    · cases hn
  · cases hn

/-- what an event owes to the key log -/
def LogOk (E : Env) (g : Config) (s : Side) : Ev → List Ev → Prop
  | .logged line, past => g.logKeys = true ∧ GoodLine E g.cipherSuites s past line
  | .sealed suite key nonce _ _, past => g.logKeys = true → Revealed E s s past suite key nonce
  | .opened suite key nonce _ _, past => g.logKeys = true → Revealed E s s.other past suite key nonce
  | _, _ => True

/-- there is a line with this label -/
def Labelled (tr : List Ev) (label : String) : Prop :=
  ∃ line r secret, Ev.logged line ∈ tr ∧ readKeyLine line = some (label, r, secret)

theorem Labelled.mono {tr tr' : List Ev} {l : String} (h : Labelled tr l) (ht : ∀ e ∈ tr, e ∈ tr') :
    Labelled tr' l := by
  obtain ⟨line, r, secret, h1, h2⟩ := h
  exact ⟨line, r, secret, ht _ h1, h2⟩

def hsLabels : List String := ["CLIENT_HANDSHAKE_TRAFFIC_SECRET", "SERVER_HANDSHAKE_TRAFFIC_SECRET"]
def apLabels : List String := ["CLIENT_TRAFFIC_SECRET_0", "SERVER_TRAFFIC_SECRET_0", "EXPORTER_SECRET"]

structure LogInv (E : Env) (g : Config) (s : Side) (c : Conn) : Prop where
  dirs : g.logKeys = true → ∀ k, c.cipher = some k → k.info.usageLimit.isSome = true →
    DirLogged E s s c.tr k.info k.wr ∧ DirLogged E s s.other c.tr k.info k.rd
  trace : Trace (LogOk E g s) c.tr
  said : g.logKeys = true → ∀ k, c.cipher = some k → k.info.usageLimit.isSome = true →
    (k.cFin ≠ .unset → ∀ l ∈ hsLabels, Labelled c.tr l) ∧ (k.cFin = .none → ∀ l ∈ apLabels, Labelled c.tr l)

theorem LogInv.same {g : Config} {s : Side} {c c' : Conn} (h : LogInv E g s c) (new : List Ev)
    (ht : c'.tr = new ++ c.tr)
    (hn : ∀ e ∈ new, ∀ past, LogOk E g s e past) (hc : c'.cipher = c.cipher) : LogInv E g s c' := by
  refine ⟨fun hg k hk hu => ?_, ?_, fun hg k hk hu => ?_⟩
  · rw [hc] at hk
    obtain ⟨h1, h2⟩ := h.dirs hg k hk hu
    have hm : ∀ e ∈ c.tr, e ∈ c'.tr := fun e he => by rw [ht]; exact List.mem_append_right _ he
    exact ⟨h1.mono hm, h2.mono hm⟩
  · rw [ht]
    exact h.trace.append fun l₁ e l₂ he => hn e (by rw [he]; simp) _
  · rw [hc] at hk
    have hm : ∀ e ∈ c.tr, e ∈ c'.tr := fun e he => by rw [ht]; exact List.mem_append_right _ he
    exact ⟨fun hx l hl => ((h.said hg k hk hu).1 hx l hl).mono hm,
      fun hx l hl => ((h.said hg k hk hu).2 hx l hl).mono hm⟩

theorem keyEvents_logged {log : List PyStr} {k k' : CipherSt} {l : PyStr} (h : l ∈ log) (tr : List Ev) :
    Ev.logged l ∈ keyEvents log k k' ++ tr := by
  unfold keyEvents
  simp [h]

/-- an installation of keys whose lines were logged -/
theorem LogInv.install {g : Config} {s : Side} {c : Conn} {k k' : CipherSt} {log : List PyStr} {r : Bytes}
    (h : LogInv E g s c) (hi : k'.info = k.info) (hmem : k.info.id ∈ g.cipherSuites)
    (hinfo : suiteInfo k.info.id = some k.info) (hg : log ≠ [] → g.logKeys = true)
    (hr : HelloRandom s c.tr r) (cl sl : String) (shared th : Bytes) (cs ss : Bytes) (more : List PyStr)
    (hlog : g.logKeys = true → log = logLine cl (hexBytes r) cs :: logLine sl (hexBytes r) ss :: more)
    (hcl : cl ∈ trafficLabels .client) (hsl : sl ∈ trafficLabels .server)
    (hwr : k'.wr = Spec.keyed (E.spec k.info.digest) (Spec.bySide s cs ss) k.info.keyLength)
    (hrd : k'.rd = Spec.keyed (E.spec k.info.digest) (Spec.bySide s ss cs) k.info.keyLength)
    (hlines : ∀ l ∈ log, ∃ label secret, (∀ c ∈ label.toList, c ≠ ' ') ∧ l = logLine label (hexBytes r) secret ∧
      labelledSecret (E.spec k.info.digest) shared th label = some secret)
    (hsaid : g.logKeys = true → (k'.cFin ≠ .unset → ∀ l ∈ hsLabels, Labelled (keyEvents log k k' ++ c.tr) l) ∧
      (k'.cFin = .none → ∀ l ∈ apLabels, Labelled (keyEvents log k k' ++ c.tr) l)) :
    LogInv E g s { c with cipher := some k', tr := keyEvents log k k' ++ c.tr } := by
  have solid : ∀ side, ∀ l ∈ trafficLabels side, ∀ c ∈ l.toList, c ≠ ' ' := by
    rintro (_ | _) <;> decide
  refine ⟨?_, ?_, by rintro hgk _ ⟨⟩ -; exact hsaid hgk⟩
  · rintro hgk _ ⟨⟩ -
    dsimp only
    have hl := hlog hgk
    have hcm : Ev.logged (logLine cl (hexBytes r) cs) ∈ keyEvents log k k' ++ c.tr :=
      keyEvents_logged (by rw [hl]; simp) _
    have hsm : Ev.logged (logLine sl (hexBytes r) ss) ∈ keyEvents log k k' ++ c.tr :=
      keyEvents_logged (by rw [hl]; simp) _
    have hr' := hr.mono (tr' := keyEvents log k k' ++ c.tr) fun e he => List.mem_append_right _ he
    have hc1 := readKeyLine_logLine (solid _ _ hcl) r cs
    have hs1 := readKeyLine_logLine (solid _ _ hsl) r ss
    rw [hwr, hrd, hi]
    constructor
    · rintro _ ⟨⟩
      cases s
      · exact ⟨_, _, _, _, hcm, hc1, hr', hcl, rfl, rfl⟩
      · exact ⟨_, _, _, _, hsm, hs1, hr', hsl, rfl, rfl⟩
    · rintro _ ⟨⟩
      cases s
      · exact ⟨_, _, _, _, hsm, hs1, hr', hsl, rfl, rfl⟩
      · exact ⟨_, _, _, _, hcm, hc1, hr', hcl, rfl, rfl⟩
  · refine h.trace.append fun l₁ e l₂ he => ?_
    have hm : e ∈ keyEvents log k k' := by rw [he]; simp
    rcases mem_keyEvents hm with ⟨l, hl, rfl⟩ | ⟨_, _, rfl⟩ | ⟨_, _, rfl⟩
    · obtain ⟨label, secret, h1, rfl, h2⟩ := hlines l hl
      exact ⟨hg (List.ne_nil_of_mem hl), label, r, secret, _, _, shared, th, readKeyLine_logLine h1 _ _,
        hr.mono (fun e he => List.mem_append_right _ he), hmem, hinfo, h2⟩
    · trivial
    · trivial

/-- a derivation that logged nothing and installed nothing that works -/
theorem LogInv.idle {g : Config} {s : Side} {c : Conn} {k k' : CipherSt} (h : LogInv E g s c)
    (hc : c.cipher = some k) (hi : k'.info = k.info)
    (hd : k.info.usageLimit.isSome = true → k'.wr = k.wr ∧ k'.rd = k.rd ∧ k'.cFin = k.cFin) :
    LogInv E g s { c with cipher := some k', tr := keyEvents [] k k' ++ c.tr } := by
  refine ⟨?_, ?_, ?_⟩
  · rintro hgk _ ⟨⟩ hu
    rw [hi] at hu ⊢
    obtain ⟨h1, h2⟩ := h.dirs hgk k hc hu
    obtain ⟨h3, h4, -⟩ := hd hu
    rw [h3, h4]
    exact ⟨h1.mono fun e he => List.mem_append_right _ he, h2.mono fun e he => List.mem_append_right _ he⟩
  · refine h.trace.append fun l₁ e l₂ he => ?_
    have hm : e ∈ keyEvents [] k k' := by rw [he]; simp
    rcases mem_keyEvents hm with ⟨l, hl, rfl⟩ | ⟨_, _, rfl⟩ | ⟨_, _, rfl⟩
    · cases hl
    · trivial
    · trivial
  · rintro hgk _ ⟨⟩ hu
    rw [hi] at hu
    rw [(hd hu).2.2]
    obtain ⟨h1, h2⟩ := h.said hgk k hc hu
    exact ⟨fun hx l hl => (h1 hx l hl).mono fun e he => List.mem_append_right _ he,
      fun hx l hl => (h2 hx l hl).mono fun e he => List.mem_append_right _ he⟩

theorem hexBytes_ne {r : Bytes} (h : r.length = 32) : hexBytes r ≠ [] := by
  cases r with
  | nil => cases h
  | cons x xs => simp [hexBytes]

theorem LogInv.step (hE : E.Sized) {g : Config} {hostname} {s : Side} {c c' : Conn} (h : LogInv E g s c)
    (hi : SideInv s c) (hk : KeyInv E c) (hu : UniqInv s c) (hcfg : CfgInv g hostname c)
    (hsu : SuiteInv g c) (hs : Step E G c c') : LogInv E g s c' := by
  have member : ∀ {k : CipherSt}, c.cipher = some k → k.info.id ∈ g.cipherSuites := by
    intro k hc
    obtain ⟨x, h1, h2⟩ := hsu.cipher k hc
    rw [suiteInfo_id h2]; exact h1
  have logId : ∀ {r : Bytes}, c.clientUnique = some r → c.logId = if g.logKeys then hexBytes r else [] := by
    intro r hr
    obtain ⟨a, b, d, he⟩ := hcfg.same
    unfold Conn.logId
    rw [he, hr]
    rfl
  cases hs with
  | input | draw | fragment | hashError | signature | clientUnique | serverUnique | postInit | hrrClient | nc
  | cfg | retry | hrrServer | move => exact h.same [] rfl (by simp) rfl
  | gotHandshake | gotOther | delivered => exact h.same [_] rfl (by simp [LogOk]) rfl
  | received => exact h.same [_] rfl (by simp [LogOk]) rfl
  | @receivedHs ty data m b t =>
    exact h.same (.recv (.handshake m) :: (if b then [.hashed c.config.side.other m.msgType data] else []))
      (by cases b <;> rfl) (by cases b <;> simp [LogOk]) rfl
  | @hashSent m data b =>
    exact h.same (if b then [.hashed c.config.side m.msgType data] else []) (by cases b <;> rfl)
      (by cases b <;> simp [LogOk]) rfl
  | @emit c₀ content records =>
    refine h.same (.sent content :: (records.map fun r => Ev.record r.1 r.2.1).reverse) (by simp) ?_ rfl
    intro e he past
    rcases List.mem_cons.mp he with rfl | he
    · trivial
    · rw [List.mem_reverse, List.mem_map] at he
      obtain ⟨_, _, rfl⟩ := he
      trivial
  | setup =>
    refine ⟨?_, h.trace, ?_⟩
    · rintro hg _ ⟨⟩ -
      exact ⟨fun _ hx => (by cases hx), fun _ hx => (by cases hx)⟩
    · rintro hg _ ⟨⟩ -
      exact ⟨fun hx => absurd rfl hx, fun hx => by cases hx⟩
  | badRecord hc _ hn =>
    refine ⟨?_, h.trace, ?_⟩
    · rintro hg _ ⟨⟩ hl
      obtain ⟨h1, h2⟩ := h.dirs hg _ hc hl
      exact ⟨h1, h2.next hn⟩
    · rintro hg _ ⟨⟩ hl
      (have := h.said hg _ hc hl; exact this)
  | opened hc hkey hn =>
    have tail : ∀ {e : Ev}, ∀ x ∈ c.tr, x ∈ e :: c.tr := fun x hx => .tail _ hx
    refine ⟨?_, h.trace.cons fun hg => ?_, by
      rintro hg _ ⟨⟩ hl
      have := h.said hg _ hc hl
      exact ⟨fun hx l hl => (this.1 hx l hl).mono tail, fun hx l hl => (this.2 hx l hl).mono tail⟩⟩
    · rintro hg _ ⟨⟩ hl
      obtain ⟨h1, h2⟩ := h.dirs hg _ hc hl
      exact ⟨h1.mono tail, (h2.next hn).mono tail⟩
    · obtain ⟨lim, hlim⟩ := nextNonce_limit hn
      exact (h.dirs hg _ hc (by rw [hlim]; rfl)).2.revealed (hk.key _ hc).1 hkey hn
  | sealed hc hkey hn =>
    have tail : ∀ {e : Ev}, ∀ x ∈ c.tr, x ∈ e :: c.tr := fun x hx => .tail _ hx
    refine ⟨?_, h.trace.cons fun hg => ?_, by
      rintro hg _ ⟨⟩ hl
      have := h.said hg _ hc hl
      exact ⟨fun hx l hl => (this.1 hx l hl).mono tail, fun hx l hl => (this.2 hx l hl).mono tail⟩⟩
    · rintro hg _ ⟨⟩ hl
      obtain ⟨h1, h2⟩ := h.dirs hg _ hc hl
      exact ⟨(h1.next hn).mono tail, h2.mono tail⟩
    · obtain ⟨lim, hlim⟩ := nextNonce_limit hn
      exact (h.dirs hg _ hc (by rw [hlim]; rfl)).1.revealed (hk.key _ hc).1 hkey hn
  | skipEarly hc hsk =>
    obtain ⟨_, _, rfl⟩ := skipEarly_view hsk
    refine ⟨?_, h.trace, ?_⟩
    · rintro hg _ ⟨⟩ hl
      (have := h.dirs hg _ hc hl; exact this)
    · rintro hg _ ⟨⟩ hl
      (have := h.said hg _ hc hl; exact this)
  | @handshakeKeys k shared hash r k' _ hc hok hd =>
    have hside := hi.cipher k hc
    cases hv : deriveHandshake_view hd with
    | refused => rw [handshakeLog_error hd]; exact h.idle hc rfl fun _ => ⟨rfl, rfl, rfl⟩
    | early => rw [handshakeLog_error hd]; exact h.idle hc rfl fun _ => ⟨rfl, rfl, rfl⟩
    | stuck _ hl =>
      rw [handshakeLog_error hd]
      exact h.idle hc rfl fun hx => by rw [hl] at hx; cases hx
    | done h1 hl =>
      have hko := hk.key k hc
      have hsec := hko.early hl h1
      obtain ⟨salt, hss⟩ := handshake_secrets hE k shared hash (hok.length hE) hsec
      obtain ⟨rnd, hrnd, hello⟩ := hu.known k hc
      have heq := hd
      rw [handshake_keys hE hko.1 hl k rfl shared hash (hok.length hE) hsec] at heq
      have hk' := (Prod.mk.inj heq).2
      have hlog : handshakeLog E c.logId k shared hash = if g.logKeys then
          [logLine "CLIENT_HANDSHAKE_TRAFFIC_SECRET" (hexBytes rnd) ((E.spec k.info.digest).cHs shared hash),
           logLine "SERVER_HANDSHAKE_TRAFFIC_SECRET" (hexBytes rnd) ((E.spec k.info.digest).sHs shared hash)]
          else [] := by
        unfold handshakeLog
        rw [logId hrnd, hd, hss]
        cases g.logKeys
        · rfl
        · simp [hexBytes_ne hello.1]
      refine h.install (r := rnd) rfl (member hc) hko.1 ?_ hello "CLIENT_HANDSHAKE_TRAFFIC_SECRET"
        "SERVER_HANDSHAKE_TRAFFIC_SECRET" shared hash _ _ [] ?_ (.head _) (.head _)
        (by rw [← hk', ← hside]) (by rw [← hk', ← hside]) ?_ ?_
      · rw [hlog]; intro hx; by_contra hg; simp [hg] at hx
      · intro hg; rw [hlog, if_pos hg]
      · rw [hlog]
        intro l hl
        split at hl
        · rcases List.mem_cons.mp hl with rfl | hl
          · exact ⟨_, _, by decide, rfl, rfl⟩
          · rw [List.mem_singleton.mp hl]
            exact ⟨_, _, by decide, rfl, rfl⟩
        · cases hl
      · intro hg
        rw [hlog, if_pos hg]
        refine ⟨fun _ l hl => ?_, fun hx => by rw [← hk'] at hx; cases hx⟩
        rcases List.mem_cons.mp hl with rfl | hl
        · exact ⟨_, _, _, keyEvents_logged (.head _) _, readKeyLine_logLine (by decide) _ _⟩
        · rw [List.mem_singleton.mp hl]
          exact ⟨_, _, _, keyEvents_logged (.tail _ (.head _)) _, readKeyLine_logLine (by decide) _ _⟩
  | @masterKeys k sf cf r k' _ hc hok hd =>
    have hside := hi.cipher k hc
    have hlen : sf.length ≤ 255 ∧ cf.length ≤ 255 := by
      cases hok with
      | client _ _ _ _ h1 _ _ _ h2 => exact ⟨digest_length hE h1, digest_length hE h2⟩
      | server hs _ _ _ h1 => exact ⟨hk.hash _ hs, digest_length hE h1⟩
    cases hv : deriveMaster_view hd with
    | refused => rw [masterLog_error hd]; exact h.idle hc rfl fun _ => ⟨rfl, rfl, rfl⟩
    | stuck _ hl =>
      rw [masterLog_error hd]
      exact h.idle hc rfl fun hx => by rw [hl] at hx; cases hx
    | done h1 hl =>
      have hko := hk.key k hc
      obtain ⟨shared, hsec⟩ := hko.mid hl h1
      have hfin : k.cFin ≠ .unset := by
        rcases hko.2 hl with ⟨hsec | hsec, _⟩ | ⟨sh, _, ⟨_, hx, _⟩ | ⟨hx, _⟩⟩
        · rw [hsec] at h1; cases h1
        · rw [hsec] at h1; cases h1
        · rw [hx]; simp
        · rw [hx]; simp
      obtain ⟨rs, hss⟩ := master_secrets hE k shared sf cf hlen.1 hlen.2 hsec
      obtain ⟨rnd, hrnd, hello⟩ := hu.known k hc
      have heq := hd
      rw [master_keys hE hko.1 hl k rfl shared sf cf hlen.1 hlen.2 hsec] at heq
      have hk' := (Prod.mk.inj heq).2
      have hlog : masterLog E c.logId k sf cf = if g.logKeys then
          [logLine "CLIENT_TRAFFIC_SECRET_0" (hexBytes rnd) ((E.spec k.info.digest).cAp shared sf),
           logLine "SERVER_TRAFFIC_SECRET_0" (hexBytes rnd) ((E.spec k.info.digest).sAp shared sf),
           logLine "EXPORTER_SECRET" (hexBytes rnd) ((E.spec k.info.digest).exporter shared sf)]
          else [] := by
        unfold masterLog
        rw [logId hrnd, hd, hss]
        cases g.logKeys
        · rfl
        · simp [hexBytes_ne hello.1]
      refine h.install (r := rnd) rfl (member hc) hko.1 ?_ hello "CLIENT_TRAFFIC_SECRET_0"
        "SERVER_TRAFFIC_SECRET_0" shared sf _ _
        [logLine "EXPORTER_SECRET" (hexBytes rnd) ((E.spec k.info.digest).exporter shared sf)] ?_ (.tail _ (.head _)) (.tail _ (.head _))
        (by rw [← hk', ← hside]) (by rw [← hk', ← hside]) ?_ ?_
      · rw [hlog]; intro hx; by_contra hg; simp [hg] at hx
      · intro hg; rw [hlog, if_pos hg]
      · rw [hlog]
        intro l hl
        split at hl
        · rcases List.mem_cons.mp hl with rfl | hl
          · exact ⟨_, _, by decide, rfl, rfl⟩
          rcases List.mem_cons.mp hl with rfl | hl
          · exact ⟨_, _, by decide, rfl, rfl⟩
          · rw [List.mem_singleton.mp hl]
            exact ⟨_, _, by decide, rfl, rfl⟩
        · cases hl
      · intro hg
        rw [hlog, if_pos hg]
        refine ⟨fun _ l hl => ?_, fun hx l hl => ?_⟩
        · exact ((h.said hg k hc ‹_›).1 hfin l hl).mono fun e he => List.mem_append_right _ he
        · rcases List.mem_cons.mp hl with rfl | hl
          · exact ⟨_, _, _, keyEvents_logged (.head _) _, readKeyLine_logLine (by decide) _ _⟩
          rcases List.mem_cons.mp hl with rfl | hl
          · exact ⟨_, _, _, keyEvents_logged (.tail _ (.head _)) _, readKeyLine_logLine (by decide) _ _⟩
          · rw [List.mem_singleton.mp hl]
            exact ⟨_, _, _, keyEvents_logged (.tail _ (.tail _ (.head _))) _,
              readKeyLine_logLine (by decide) _ _⟩

theorem LogInv.api (hE : E.Sized) {g : Config} {hostname} {s : Side} {c c' : Conn} (h : LogInv E g s c)
    (hi : SideInv s c) (hk : KeyInv E c) (hu : UniqInv s c) (hcfg : CfgInv g hostname c)
    (hsu : SuiteInv g c) (hs : Api E G c c') : LogInv E g s c' := by
  cases hs with
  | step hs => exact h.step hE hi hk hu hcfg hsu hs
  | appended | read | drain | closing | closedSend => exact ⟨h.dirs, h.trace, h.said⟩
  | closeRecv =>
    unfold closeReceivingEnd
    split <;> exact ⟨h.dirs, h.trace, h.said⟩

theorem LogInv.run (hE : E.Sized) {config : Config} {hostname ocsp algs random} {c : Conn}
    (h : Conn.new config hostname ocsp algs random = .ok c) (hr : random.length = 32)
    (ops : List Op) : LogInv E config config.side (runOps E ops c) := by
  have fresh := Conn.new_fresh h
  have hcipher : c.cipher = none := fresh.2.2.1
  have htr : c.tr = [] := fresh.2.2.2.2.2.2.2.2.1
  have hu : UniqInv config.side c :=
    ⟨fun _ _ _ _ hm => (by rw [htr] at hm; cases hm), fun _ hk => (by rw [hcipher] at hk; cases hk)⟩
  have hl : LogInv E config config.side c :=
    ⟨fun _ _ hk => (by rw [hcipher] at hk; cases hk), by rw [htr]; exact .nil,
      fun _ _ hk => (by rw [hcipher] at hk; cases hk)⟩
  by_cases hside : config.side = .client
  · have hi := SideInv.fresh h
    rw [hside] at hi hu hl ⊢
    have hcli : CliInv E config hostname random c := CliInv.run h hside []
    have hsu : SuiteInv config c := SuiteInv.run (E := E) h []
    exact (runOps_inv (I := fun c => (SideInv .client c ∧ ClientOrder c ∧ CfgInv config hostname c) ∧
      (CliInv E config hostname random c ∧ KeyInv E c ∧ SuiteInv config c) ∧ UniqInv .client c ∧
        LogInv E config .client c)
      (fun c c' h hs => ⟨⟨h.1.1.api hs, h.1.2.1.api h.1.1 hs, h.1.2.2.api hs (by rw [hside]; exact h.1.1)⟩,
        ⟨h.2.1.1.api hside h.1.1 h.1.2.1 h.1.2.2 hs, h.2.1.2.1.api hE hs, h.2.1.2.2.api hs⟩,
        h.2.2.1.api h.1.1 (fun f ks hh hst => h.2.1.1.hello hr f ks hh hst) hs,
        h.2.2.2.api hE h.1.1 h.2.1.2.1 h.2.2.1 h.1.2.2 h.2.1.2.2 hs⟩)
      ⟨⟨hi, .fresh h, .fresh h⟩, ⟨hcli, .fresh h, hsu⟩, hu, hl⟩ ops).2.2.2
  · have hi := SideInv.fresh h
    have hsu : SuiteInv config c := SuiteInv.run (E := E) h []
    exact (runOps_inv (I := fun c => (SideInv config.side c ∧ CfgInv config hostname c) ∧
      (KeyInv E c ∧ SuiteInv config c) ∧ UniqInv config.side c ∧ LogInv E config config.side c)
      (fun c c' h hs => ⟨⟨h.1.1.api hs, h.1.2.api hs h.1.1⟩, ⟨h.2.1.1.api hE hs, h.2.1.2.api hs⟩,
        h.2.2.1.api h.1.1 (fun f ks hh hst => absurd (h.1.1.state .client (by rw [hst]; rfl)).symm hside) hs,
        h.2.2.2.api hE h.1.1 h.2.1.1 h.2.2.1 h.1.2 h.2.1.2 hs⟩)
      ⟨⟨hi, .fresh h⟩, ⟨.fresh h, hsu⟩, hu, hl⟩ ops).2.2.2

/-! ## No key log -/

def SilentInv (g : Config) (hostname : Option PyStr) (c : Conn) : Prop :=
  (SideInv g.side c ∧ CfgInv g hostname c) ∧ ∀ l, Ev.logged l ∉ c.tr

theorem silent_append {new tr : List Ev} (h : ∀ l, Ev.logged l ∉ tr) (hn : ∀ l, Ev.logged l ∉ new) :
    ∀ l, Ev.logged l ∉ new ++ tr := by
  intro l hm
  rcases List.mem_append.mp hm with hm | hm
  · exact hn l hm
  · exact h l hm

theorem SilentInv.step {g : Config} {hostname} (hoff : g.logKeys = false) {c c' : Conn}
    (h : SilentInv g hostname c) (hs : Step E G c c') : ∀ l, Ev.logged l ∉ c'.tr := by
  have hid : c.logId = [] := by
    obtain ⟨a, b, d, he⟩ := h.1.2.same
    unfold Conn.logId
    rw [he]
    simp [hoff]
  have h := h.2
  cases hs with
  | input | draw | fragment | hashError | signature | clientUnique | serverUnique | postInit | hrrClient | nc
  | cfg | retry | hrrServer | move | badRecord | skipEarly | setup => exact h
  | gotHandshake | gotOther | delivered | received | opened | sealed =>
    exact silent_append (new := [_]) h (by simp)
  | receivedHs =>
    intro l hm
    rcases List.mem_cons.mp hm with hm | hm
    · cases hm
    split at hm
    · exact silent_append (new := [_]) h (by simp) l hm
    · exact h l hm
  | hashSent =>
    dsimp only
    split
    · exact silent_append (new := [_]) h (by simp)
    · exact h
  | emit =>
    exact silent_append (new := [_]) (silent_append h (by simp)) (by simp)
  | handshakeKeys =>
    refine silent_append h fun l hm => ?_
    rcases mem_keyEvents hm with ⟨l, hl, _⟩ | ⟨_, _, hm⟩ | ⟨_, _, hm⟩
    · unfold handshakeLog at hl
      rw [hid, if_pos rfl] at hl
      cases hl
    · cases hm
    · cases hm
  | masterKeys =>
    refine silent_append h fun l hm => ?_
    rcases mem_keyEvents hm with ⟨l, hl, _⟩ | ⟨_, _, hm⟩ | ⟨_, _, hm⟩
    · unfold masterLog at hl
      rw [hid, if_pos rfl] at hl
      cases hl
    · cases hm
    · cases hm

theorem SilentInv.run {config : Config} {hostname ocsp algs random} {c : Conn}
    (h : Conn.new config hostname ocsp algs random = .ok c) (hoff : config.logKeys = false)
    (ops : List Op) : SilentInv config hostname (runOps E ops c) := by
  refine runOps_inv (I := SilentInv config hostname) (fun c c' h hs => ⟨⟨h.1.1.api hs, h.1.2.api hs h.1.1⟩, ?_⟩)
    ⟨⟨.fresh h, .fresh h⟩, ?_⟩ ops
  · cases hs with
    | step hs => exact h.step hoff hs
    | appended | read | drain | closing | closedSend => exact h.2
    | closeRecv => unfold closeReceivingEnd; split <;> exact h.2
  · rw [(Conn.new_fresh h).2.2.2.2.2.2.2.2.1]
    simp

end Siotls
