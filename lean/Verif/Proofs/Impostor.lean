import Verif.Spec.Impostor
import Verif.Proofs.Sockets
import Verif.Proofs.Farewell
import Verif.Proofs.Wrapper
/-!
# Lemmas for C108: a conversation with nobody
-/

namespace Siotls
open Spec

variable {E : Env} {S : Sock}

/-- a connection that was told goodbye before it had any key -/
structure Duped (limit : Nat) (c : Conn) : Prop where
  state : c.state = .closed true true
  cipher : c.cipher = none
  nconfig : c.nconfig = none
  limit : c.config.maxFragmentLength = limit
  input : c.inputData = []
  hs : c.inputHandshake = []
  app : c.applicationData = []
  out : c.outputData = []

theorem mfl_of_none {c : Conn} (h : c.nconfig = none) : c.mfl = c.config.maxFragmentLength := by
  unfold Conn.mfl
  rw [h]
  rfl

/-- one clear record that is all there is to read -/
theorem receive_clear {c c' : Conn} {o : Nat} {b : Bytes} {x : Content} (ho : o < 256) (h20 : o ≠ 20)
    (h22 : o ≠ 22) (hb : b.length < 65536) (hl : b.length ≤ c.mfl) (hr : c.state.canReceive = true)
    (hk : c.cipher = none) (hi : c.inputData = []) (hh : c.inputHandshake = [])
    (hd : ∀ ct, decodeContent E ct o b = .ok x) (hx : ∀ h, x ≠ .handshake h) (hu : x ≠ .unparsed)
    (hp : process E x { c with tr := .recv x :: .got o b :: c.tr } = (.ok (), c'))
    (hk' : c'.cipher = none) (hi' : c'.inputData = []) :
    receiveData E (recordBytes o b) c = (.ok (), c') := by
  rw [receiveData_eq (by unfold recordBytes; simp) hr]
  have hm : ∀ d, Conn.mustDecrypt (c.fed d) = false := fun d => by
    simp [Conn.mustDecrypt, Conn.fed, hk]
  have hread : readNextRecord E (c.fed (recordBytes o b)) = (.ok (some (o, b)), c) := by
    rw [readNextRecord_whole (c := c.fed (recordBytes o b)) (b := b) (rest := []) ho h20 hb
      (by unfold Conn.recordLimit; exact Nat.le_add_right_of_le hl) (by simp [Conn.fed, hi])]
    have e : ({ c.fed (recordBytes o b) with inputData := [] } : Conn) = c := by
      cases c
      cases hi
      rfl
    rw [e]
    unfold useRecord
    rw [show c.mustDecrypt = false by simp [Conn.mustDecrypt, hk]]
    simp only [Bool.false_eq_true, if_false]
    rw [if_neg h20]
  have hstep : receiveStep E (c.fed (recordBytes o b)) = (.ok true, c') := by
    rw [receiveStep_eq, readNextContent_eq, hread]
    dsimp only
    rw [if_pos ⟨by simp [hh], h22⟩]
    dsimp only
    unfold useContent
    simp only [M.bind_def, M.get, M.lift, hd]
    have hhash : ∀ c₁ : Conn, hashContent b c.config.side.other x c₁ = (.ok (), c₁) := by
      intro c₁
      unfold hashContent
      cases x with
      | handshake h => exact absurd rfl (hx h)
      | unparsed => exact absurd rfl hu
      | _ => rfl
    rw [hhash]
    simp only [ghost, M.modify]
    rw [hp]
    rfl
  have hend : loop E c' = (.ok (), c') := by
    have hn : readNextRecord E c' = (.ok none, c') := by
      rw [readNextRecord_short (by rw [hi']; exact Nat.zero_lt_succ _), hi']
      cases c'
      cases hi'
      rfl
    rw [loop_eq, receiveStep_eq, readNextContent, hn]
  rw [loop_eq, hstep]
  dsimp only
  rw [hend]
  dsimp only
  unfold finishReceive shouldRekey
  rw [hk']

/-- the close_notify -/
theorem receive_farewell {c : Conn} (hst : (∃ f ks h, c.state = .clientWaitSH f ks h) ∨
      ∃ f, c.state = .serverWaitCH f) (hl : 2 ≤ c.mfl)
    (hk : c.cipher = none) (hi : c.inputData = []) (hh : c.inputHandshake = []) :
    ∃ t, receiveData E closeNotice c = (.ok (), { c with state := .closed true true, tr := t }) := by
  have hr : c.state.canReceive = true := by
    rcases hst with ⟨f, ks, h, e⟩ | ⟨f, e⟩ <;> rw [e] <;> rfl
  refine ⟨_, receive_clear (o := 21) (b := [1, 0]) (x := .alert 1 0) (by omega) (by omega) (by omega)
    (by simp) hl hr hk hi hh decode_alert (by intro h; simp) (by simp)
    (c' := { c with state := .closed true true, tr := .recv (.alert 1 0) :: .got 21 [1, 0] :: c.tr })
    ?_ hk hi⟩
  unfold process
  rcases hst with ⟨f, ks, h, e⟩ | ⟨f, e⟩ <;> dsimp only <;> rw [e] <;> rfl

/-- the words -/
theorem receive_word {c : Conn} {limit : Nat} (h : Duped limit c) {d : Bytes} (hd : d.length ≤ limit)
    (hlim : limit ≤ 16384) :
    ∃ t, receiveData E (recordBytes 23 d) c = (.ok (), { c with applicationData := d, tr := t }) := by
  refine ⟨_, receive_clear (o := 23) (b := d) (x := .applicationData d) (by omega) (by omega) (by omega)
    (by omega) (by rw [mfl_of_none h.nconfig, h.limit]; exact hd) (by rw [h.state]; rfl) h.cipher h.input
    h.hs (fun ct => decode_app ct d) (by intro h; simp) (by simp)
    (c' := { c with
      applicationData := d
      tr := .delivered d :: .recv (.applicationData d) :: .got 23 d :: c.tr })
    ?_ h.cipher h.input⟩
  unfold process
  dsimp only
  rw [h.state]
  dsimp only
  rw [if_pos rfl]
  show (_, _) = (_, _)
  rw [h.app]
  rfl

theorem call_receive {w : Wrapped} {x : Bytes} {c' : Conn} (h : receiveData E x w.conn = (.ok (), c')) :
    W.call E (.receive x) w = (.ok [], { w with conn := c' }) := by
  unfold W.call
  have : (Op.receive x).run E w.conn = (.ok [], c') := by
    show (receiveData E x >>= fun _ => pure []) w.conn = _
    rw [M.bind_def, h]
    rfl
  rw [this]

/-- reading one piece that makes the connection say nothing -/
theorem takeIn_silent {w : Wrapped} {x : Bytes} {c' : Conn} (h : receiveData E x w.conn = (.ok (), c'))
    (ho : c'.outputData = []) : takeIn E S x w = (.ok [], { w with conn := c' }) := by
  unfold takeIn W.finally_
  rw [call_receive h]
  dsimp only
  have : flush E S { w with conn := c' } = (.ok (), { w with conn := c' }) := by
    rw [flush_eq]
    rw [if_pos (by rw [List.isEmpty_iff]; exact ho)]
    show (_, _) = (_, _)
    cases c'
    cases ho
    rfl
  rw [this]

theorem call_read {w : Wrapped} : W.call E .read w =
    (.ok w.conn.applicationData, { w with conn := { w.conn with applicationData := [] } }) := rfl

/-- `read` returns the next word -/
theorem read_word {w : Wrapped} {limit n : Nat} (h : Duped limit w.conn) (hn : 0 < n) {d : Bytes}
    (hne : d ≠ []) (hd : d.length ≤ limit) (hlim : limit ≤ 16384)
    (hS : ∀ m, S.recv w.nrecv m = .ok (recordBytes 23 d)) :
    ∃ w', wrapRead E S n w = (.ok d, w') ∧ Duped limit w'.conn ∧ w'.nrecv = w.nrecv + 1 ∧
      w'.accepted = w.accepted ∧ w'.conn.config = w.conn.config := by
  obtain ⟨k, rfl⟩ : ∃ k, n = k + 1 := ⟨n - 1, by omega⟩
  obtain ⟨t, ht⟩ := receive_word (E := E) h hd hlim
  have h0 : ({ w.conn with applicationData := [] } : Conn) = w.conn := by
    obtain ⟨c, _, _, _⟩ := w
    have := h.app
    cases c
    cases this
    rfl
  have e1 : wrapRead E S (k + 1) w = readLoop E S (k + 1) [] w := by
    unfold wrapRead
    rw [W.bind_def, call_read, h.app]
    dsimp only
    rw [h0]
  have hcon : w.conn.state.isConnected = true := by rw [h.state]; rfl
  have e2 : readLoop E S (k + 1) [] w = (do
      let data ← W.recv S
      if data.isEmpty then do
        let _ ← W.call E .closeRecv
        readLoop E S k []
      else do
        let _ ← takeIn E S data
        let more ← W.call E .read
        readLoop E S k ([] ++ more)) w := by
    rw [readLoop]
    dsimp only
    rw [if_neg (by simp [hcon])]
  have hempty : (recordBytes 23 d).isEmpty = false := by unfold recordBytes; rfl
  have h3 : takeIn E S (recordBytes 23 d) { w with nrecv := w.nrecv + 1 } =
      (.ok [], { w with nrecv := w.nrecv + 1, conn := { w.conn with applicationData := d, tr := t } }) :=
    takeIn_silent (w := { w with nrecv := w.nrecv + 1 }) ht h.out
  have e3 : readLoop E S (k + 1) [] w = readLoop E S k d { w with
      nrecv := w.nrecv + 1
      conn := { w.conn with applicationData := [], tr := t } } := by
    rw [e2, W.bind_def]
    unfold W.recv
    rw [hS]
    dsimp only
    rw [hempty]
    simp only [Bool.false_eq_true, if_false]
    rw [W.bind_def, h3]
    dsimp only
    rw [W.bind_def, call_read]
    rfl
  have hde : d.isEmpty = false := by simpa using hne
  refine ⟨{ w with nrecv := w.nrecv + 1, conn := { w.conn with applicationData := [], tr := t } }, ?_,
    ⟨h.state, h.cipher, h.nconfig, h.limit, h.input, h.hs, rfl, h.out⟩, rfl, rfl, rfl⟩
  rw [e1, e3]
  cases k with
  | zero => rw [readLoop]; simp [hde]
  | succ k => rw [readLoop]; simp [hde]

/-- `write` says it in the clear -/
theorem write_clear (hG : Greedy S) {w : Wrapped} {limit : Nat} (h : Duped limit w.conn) {x : Bytes}
    (hx : x.length ≤ limit) (hlim : limit ≤ 16384) :
    ∃ w', wrapWrite E S x w = (.ok (), w') ∧ Duped limit w'.conn ∧ w'.nrecv = w.nrecv ∧
      w'.accepted = w.accepted ++ recordBytes 23 x := by
  have hme : w.conn.mustEncrypt = false := by simp [Conn.mustEncrypt, h.cipher]
  have hsend : sendData E x w.conn = (.ok (), { w.conn with
      outputData := recordBytes 23 x
      tr := .sent (.applicationData x) :: .record 23 x :: w.conn.tr }) := by
    unfold sendData sendContent
    rw [M.bind_def]
    simp only [M.get]
    rw [if_neg (by rw [h.state]; simp [St.canSendApp]), if_neg (by rw [h.state]; simp [St.canSend]),
      if_neg (by simp [Content.ctype, Iana.ctHeartbeat]), M.bind_def]
    simp only [M.lift, serContent]
    rw [M.bind_def]
    simp only [hashContent, hme]
    dsimp only [pure, M.pure]
    rw [M.bind_def]
    simp only [M.lift, Bool.false_eq_true, if_false]
    rw [splitFragments_one (by rw [mfl_of_none h.nconfig, h.limit]; exact_mod_cast hx)]
    dsimp only
    rw [M.bind_def]
    rw [show (Content.applicationData x).ctype = 23 from rfl, makeRecords_clear (by omega)]
    dsimp only
    unfold emitRecords M.modify
    simp [h.out]
  have hcall : W.call E (.send x) w = (.ok [], { w with conn := { w.conn with
      outputData := recordBytes 23 x
      tr := .sent (.applicationData x) :: .record 23 x :: w.conn.tr } }) := by
    unfold W.call
    have : (Op.send x).run E w.conn = (.ok [], { w.conn with
        outputData := recordBytes 23 x
        tr := .sent (.applicationData x) :: .record 23 x :: w.conn.tr }) := by
      show (sendData E x >>= fun _ => pure []) w.conn = _
      rw [M.bind_def, hsend]
      rfl
    rw [this]
  refine ⟨{ w with
    conn := { w.conn with outputData := [], tr := .sent (.applicationData x) :: .record 23 x :: w.conn.tr }
    nsend := w.nsend + 1
    accepted := w.accepted ++ recordBytes 23 x }, ?_,
    ⟨h.state, h.cipher, h.nconfig, h.limit, h.input, h.hs, h.app, rfl⟩, rfl, rfl⟩
  unfold wrapWrite
  rw [W.bind_def, hcall]
  dsimp only
  rw [W.bind_def]
  show W.send S (recordBytes 23 x) { w with conn := { w.conn with
    outputData := [], tr := .sent (.applicationData x) :: .record 23 x :: w.conn.tr } } = _
  unfold W.send
  rw [hG]
  simp

/-- the whole conversation -/
theorem duped_converses {limit : Nat} (hlim : limit ≤ 16384) : ∀ (calls : List Call) (words : List Bytes)
    (w : Wrapped), Duped limit w.conn → Carries S w.nrecv (words.map (recordBytes 23)) →
    (∀ d ∈ words, d ≠ [] ∧ d.length ≤ limit) → Converses limit calls words →
    answers E S calls w = takenIn calls words ∧
    (runCalls E S calls w).accepted = w.accepted ++ leaked calls ∧
    Duped limit (runCalls E S calls w).conn := by
  intro calls
  induction calls with
  | nil =>
    intro words w h _ _ _
    refine ⟨by simp [answers, takenIn], by simp [runCalls, leaked], h⟩
  | cons x xs ih =>
    intro words w h hS hw hc
    cases x with
    | read n =>
      cases words with
      | nil => exact absurd hc (by simp [Converses])
      | cons d ds =>
        obtain ⟨hn, hc⟩ := hc
        obtain ⟨hne, hd⟩ := hw d (by simp)
        obtain ⟨w', h1, h2, h3, h4, _⟩ := read_word (E := E) h hn hne hd hlim
          (fun m => Spec.Carries.head (by simpa using hS) m)
        have hrun : (Call.read n).run E S w = (.ok d, w') := h1
        obtain ⟨i1, i2, i3⟩ := ih ds w' h2 (by rw [h3]; exact Spec.Carries.tail (by simpa using hS))
          (fun e he => hw e (by simp [he])) hc
        refine ⟨?_, ?_, ?_⟩
        · rw [answers, hrun, takenIn, i1]
        · rw [runCalls, hrun, i2, h4, show leaked (Call.read n :: xs) = leaked xs from rfl]
        · rw [runCalls, hrun]
          exact i3
    | write b =>
      have hc : b.length ≤ limit ∧ Converses limit xs words := by
        cases words <;> exact hc
      obtain ⟨hb, hc⟩ := hc
      obtain ⟨w', h1, h2, h3, h4⟩ := write_clear (E := E) hS.greedy h hb hlim
      have hrun : (Call.write b).run E S w = (.ok [], w') := by
        show (wrapWrite E S b >>= fun _ => pure []) w = _
        rw [W.bind_def, h1]
        rfl
      obtain ⟨i1, i2, i3⟩ := ih words w' h2 (by rw [h3]; exact hS) hw hc
      refine ⟨?_, ?_, ?_⟩
      · rw [answers, hrun, i1]
        cases words <;> rfl
      · rw [runCalls, hrun, i2, h4, leaked, List.append_assoc]
      · rw [runCalls, hrun]
        exact i3
    | handshake n => cases words <;> exact absurd hc (by simp [Converses])
    | close => cases words <;> exact absurd hc (by simp [Converses])

/-- what `initiate_connection` leaves -/
theorem initiated {config : Config} {hostname ocsp algs random} {c c₁ : Conn}
    (hm₁ : 4 ≤ config.maxFragmentLength) (hm₂ : config.maxFragmentLength ≤ 16384)
    (hc : Conn.new config hostname ocsp algs random = .ok c)
    (hside : config.side = .client ∨ config.side = .server ∧ hostname = none)
    (hi : Op.initiate.run E c = (.ok [], c₁)) :
    ((∃ f ks h, c₁.state = .clientWaitSH f ks h) ∨ ∃ f, c₁.state = .serverWaitCH f) ∧
      c₁.config = config ∧ c₁.nconfig = none ∧ c₁.cipher = none ∧ c₁.inputData = [] ∧
      c₁.inputHandshake = [] ∧ c₁.applicationData = [] ∧ (config.side = .server → c₁.outputData = []) := by
  have h := initiate_of_run hi
  rcases hside with hs | ⟨hs, rfl⟩
  · obtain ⟨hne, -, rfl⟩ := new_client hc hs
    obtain ⟨g, gs, priv, share, ch, fs, hash, t, -, -, -, -, -, rfl⟩ :=
      client_start rfl hs rfl rfl rfl rfl hne hm₁ hm₂ h
    exact ⟨.inl ⟨_, _, _, rfl⟩, rfl, rfl, rfl, rfl, rfl, rfl, fun h => by rw [hs] at h; cases h⟩
  · obtain ⟨hne, -, rfl⟩ := new_server hc hs
    cases h
    exact ⟨.inr ⟨_, rfl⟩, rfl, rfl, rfl, rfl, rfl, rfl, fun _ => rfl⟩

/-- `do_handhskake` returns on the close_notify -/
theorem duped_handshake {config : Config} {hostname ocsp algs random} {c c₁ : Conn} {words : List Bytes}
    (hm₁ : 4 ≤ config.maxFragmentLength) (hm₂ : config.maxFragmentLength ≤ 16384)
    (hc : Conn.new config hostname ocsp algs random = .ok c)
    (hside : config.side = .client ∨ config.side = .server ∧ hostname = none)
    (hi : Op.initiate.run E c = (.ok [], c₁)) (hS : Carries S 0 (lies words)) :
    ∃ w, (∀ j, 0 < j → doHandshake E S j (.new c) = (.ok (), w)) ∧
      Duped config.maxFragmentLength w.conn ∧ w.nrecv = 1 ∧ w.accepted = c₁.outputData := by
  obtain ⟨hst, hcfg, hn, hk, h1, h2, h3, ho⟩ := initiated hm₁ hm₂ hc hside hi
  obtain ⟨n, hd⟩ : ∃ n, ∀ j, doHandshake E S j (.new c) =
      handshakeLoop E S j ⟨{ c₁ with outputData := [] }, 0, n, c₁.outputData⟩ := by
    rcases hside with hs | ⟨hs, -⟩
    · exact ⟨1, fun j => doHandshake_client hS.greedy hi (by rw [hcfg, hs]) j⟩
    · refine ⟨0, fun j => ?_⟩
      rw [doHandshake_server hi (by rw [hcfg, hs]) j, ho hs]
      have := ho hs
      cases c₁
      cases this
      rfl
  obtain ⟨t, ht⟩ := receive_farewell (E := E) (c := { c₁ with outputData := [] }) hst
    (by rw [mfl_of_none (c := { c₁ with outputData := [] }) hn]; dsimp only; rw [hcfg]; omega) hk h1 h2
  refine ⟨⟨{ c₁ with outputData := [], state := .closed true true, tr := t }, 1, n, c₁.outputData⟩,
    fun j hj => ?_, ⟨rfl, hk, hn, by rw [← hcfg], h1, h2, h3, rfl⟩, rfl, rfl⟩
  obtain ⟨k, rfl⟩ : ∃ k, j = k + 1 := ⟨j - 1, by omega⟩
  have hp : c₁.state.isPostHandshake = false := by
    rcases hst with ⟨f, ks, h, e⟩ | ⟨f, e⟩ <;> rw [e] <;> rfl
  rw [hd, handshakeLoop]
  dsimp only
  rw [hp, if_neg (by simp), W.bind_def]
  unfold W.recv
  dsimp only
  rw [Spec.Carries.head hS]
  dsimp only
  rw [if_neg (by simp [closeNotice, recordBytes]), W.bind_def, takeIn_silent (c' := { c₁ with
    outputData := [], state := .closed true true, tr := t }) ht rfl]
  dsimp only
  rw [handshakeLoop_stop k rfl]

/-! ## Programs that do not close -/

/-- the connection of the wrapper came from a program that did not close `c₀` -/
def Unclosed (E : Env) (c₀ : Conn) (w : Wrapped) : Prop :=
  ∃ ops : List Op, ops.all (!Op.isClose ·) = true ∧ w.conn = runOps E ops c₀

theorem unclosed_op {c₀ : Conn} {o : Op} (ho : Op.isClose o = false) : Keeps (Unclosed E c₀) (W.call E o) := by
  rintro w ⟨ops, h1, h2⟩
  refine ⟨ops ++ [o], by simp [List.all_append, h1, ho], ?_⟩
  rw [runOps_append, ← h2]
  rfl

theorem unclosed_send {c₀ : Conn} (b : Bytes) : Keeps (Unclosed E c₀) (W.send S b) := by
  intro w h
  unfold W.send
  split <;> exact h

theorem unclosed_drain {c₀ : Conn} : Keeps (Unclosed E c₀) (W.call E .drain >>= fun out => W.send S out) :=
  Keeps.bind (unclosed_op rfl) fun _ => unclosed_send _

theorem unclosed_flush {c₀ : Conn} : Keeps (Unclosed E c₀) (flush E S) := by
  unfold flush
  refine Keeps.bind (unclosed_op rfl) fun out => ?_
  split
  · exact fun _ h => h
  · exact unclosed_send _

theorem unclosed_takeIn {c₀ : Conn} (d : Bytes) : Keeps (Unclosed E c₀) (takeIn E S d) := by
  intro w h
  have := unclosed_flush (S := S) _ (unclosed_op (o := .receive d) rfl w h)
  unfold takeIn W.finally_
  rcases hx : flush E S (W.call E (.receive d) w).2 with ⟨r, w'⟩
  rw [hx] at this
  cases r <;> exact this

theorem unclosed_handshakeLoop (hS : Endless S) {c₀ : Conn} (n : Nat) :
    Keeps (Unclosed E c₀) (handshakeLoop E S n) := by
  induction n with
  | zero => intro w h; rw [handshakeLoop]; dsimp only; split <;> exact h
  | succ n ih =>
    intro w h
    rw [handshakeLoop]
    dsimp only
    split
    · exact h
    · rw [W.bind_def]
      unfold W.recv
      cases hr : S.recv w.nrecv w.conn.mfl with
      | error e => exact h
      | ok d =>
        dsimp only
        have hd : d.isEmpty = false := by
          cases d with
          | nil => exact absurd hr (hS _ _)
          | cons => rfl
        rw [hd]
        exact Keeps.bind (unclosed_takeIn d) (fun _ => ih) _ h

theorem unclosed_readLoop (hS : Endless S) {c₀ : Conn} (n : Nat) (app : Bytes) :
    Keeps (Unclosed E c₀) (readLoop E S n app) := by
  induction n generalizing app with
  | zero => intro w h; rw [readLoop]; dsimp only; split <;> exact h
  | succ n ih =>
    intro w h
    rw [readLoop]
    dsimp only
    split
    · exact h
    · rw [W.bind_def]
      unfold W.recv
      cases hr : S.recv w.nrecv w.conn.mfl with
      | error e => exact h
      | ok d =>
        dsimp only
        have hd : d.isEmpty = false := by
          cases d with
          | nil => exact absurd hr (hS _ _)
          | cons => rfl
        rw [hd]
        exact Keeps.bind (unclosed_takeIn d) (fun _ => Keeps.bind (unclosed_op rfl) fun _ => ih _) _ h

theorem unclosed_sendHello {c₀ : Conn} : Keeps (Unclosed E c₀) (sendHello E S) := by
  intro w h
  unfold sendHello
  split
  · exact unclosed_drain _ h
  · exact h

theorem unclosed_call (hS : Endless S) {c₀ : Conn} {x : Call} (hx : stays x = true) :
    Keeps (Unclosed E c₀) (x.run E S) := by
  cases x with
  | handshake n =>
    exact Keeps.bind (Keeps.bind (unclosed_op rfl) fun _ => Keeps.bind unclosed_sendHello fun _ =>
      unclosed_handshakeLoop hS n) fun _ _ h => h
  | read n => exact Keeps.bind (unclosed_op rfl) fun _ => unclosed_readLoop hS n _
  | write d =>
    exact Keeps.bind (Keeps.bind (unclosed_op rfl) fun _ => unclosed_drain) fun _ _ h => h
  | close => cases hx

theorem unclosed_calls (hS : Endless S) {c₀ : Conn} : ∀ (xs : List Call) (w : Wrapped),
    xs.all stays = true → Unclosed E c₀ w → Unclosed E c₀ (runCalls E S xs w) := by
  intro xs
  induction xs with
  | nil => exact fun w _ h => h
  | cons x xs ih =>
    intro w hx h
    rw [List.all_cons, Bool.and_eq_true] at hx
    exact ih _ hx.2 (unclosed_call hS hx.1 w h)

/-! ## Programs that stop when something raises -/

/-- no `receive_data` raised -/
def Steady (E : Env) : List Op → Conn → Prop
  | [], _ => True
  | o :: os, c => (o.isReceive = true → raised (o.run E c).1 = false) ∧ Steady E os (o.run E c).2

theorem Steady.then : ∀ {os rest : List Op} {c : Conn}, Steady E os c → Careful E rest (runOps E os c) →
    Careful E (os ++ rest) c
  | [], _, _, _, h => h
  | o :: os, rest, c, h, h' => by
    refine ⟨fun h1 h2 => ?_, Steady.then h.2 h'⟩
    rw [h.1 h1] at h2
    cases h2

theorem Steady.snoc : ∀ {os : List Op} {o : Op} {c : Conn}, Steady E os c →
    (o.isReceive = true → raised (o.run E (runOps E os c)).1 = false) → Steady E (os ++ [o]) c
  | [], _, _, _, h => ⟨h, trivial⟩
  | _ :: _, _, _, h, h' => ⟨h.1, Steady.snoc h.2 h'⟩

theorem careful_snoc : ∀ {os : List Op} {o : Op} {c : Conn}, Careful E os c → o.isReceive = false →
    Careful E (os ++ [o]) c
  | [], o, c, _, h => ⟨fun h' => (by rw [h] at h'; cases h'), trivial⟩
  | _ :: os, o, c, hc, h =>
    ⟨fun h1 h2 h3 => by simp [List.all_append, hc.1 h1 h2 h3, h], careful_snoc hc.2 h⟩

/-- the connection came from a program that did not close it, and nothing it received raised -/
def Going (E : Env) (c₀ : Conn) (w : Wrapped) : Prop :=
  ∃ ops : List Op, ops.all (!Op.isClose ·) = true ∧ Steady E ops c₀ ∧ w.conn = runOps E ops c₀

/-- the same, but what it received last may have raised -/
def Gone (E : Env) (c₀ : Conn) (w : Wrapped) : Prop :=
  ∃ ops : List Op, ops.all (!Op.isClose ·) = true ∧ Careful E ops c₀ ∧ w.conn = runOps E ops c₀

theorem Going.gone {c₀ : Conn} {w : Wrapped} (h : Going E c₀ w) : Gone E c₀ w := by
  obtain ⟨ops, h1, h2, h3⟩ := h
  refine ⟨ops, h1, ?_, h3⟩
  have := Steady.then (rest := []) h2 trivial
  rwa [List.append_nil] at this

/-- it goes on, or raises and is gone -/
def Goes {α} (E : Env) (c₀ : Conn) (m : W α) : Prop := ∀ w, Going E c₀ w →
  match m w with
  | (.ok _, w') => Going E c₀ w'
  | (.error _, w') => Gone E c₀ w'

theorem Goes.bind {α β} {c₀ : Conn} {m : W α} {f : α → W β} (hm : Goes E c₀ m) (hf : ∀ a, Goes E c₀ (f a)) :
    Goes E c₀ (m >>= f) := by
  intro w hw
  rw [W.bind_def]
  have := hm w hw
  rcases h : m w with ⟨r, w'⟩
  rw [h] at this
  cases r with
  | ok a => exact hf a w' this
  | error e => exact this

theorem Goes.pure {α} {c₀ : Conn} (a : α) : Goes E c₀ (pure a : W α) := fun _ h => h

theorem goes_op {c₀ : Conn} {o : Op} (ho : Op.isClose o = false) : Goes E c₀ (W.call E o) := by
  rintro w ⟨ops, h1, h2, h3⟩
  have ha : (ops ++ [o]).all (!Op.isClose ·) = true := by simp [List.all_append, h1, ho]
  have hr : (o.run E w.conn).2 = runOps E (ops ++ [o]) c₀ := by
    rw [runOps_append, ← h3]
    rfl
  unfold W.call
  rcases hx : o.run E w.conn with ⟨r, c'⟩
  rw [hx] at hr
  cases r with
  | ok a =>
    refine ⟨ops ++ [o], ha, h2.snoc fun _ => ?_, hr⟩
    rw [← h3, hx]
    rfl
  | error e => exact ⟨ops ++ [o], ha, h2.then ⟨fun _ _ _ => rfl, trivial⟩, hr⟩

theorem goes_send {c₀ : Conn} (b : Bytes) : Goes E c₀ (W.send S b) := by
  intro w h
  unfold W.send
  cases S.send w.nsend b with
  | ok n => exact h
  | error e => exact Going.gone (w := { w with nsend := w.nsend + 1 }) h

theorem goes_flush {c₀ : Conn} : Goes E c₀ (flush E S) := by
  unfold flush
  refine Goes.bind (goes_op rfl) fun out => ?_
  split
  · exact Goes.pure _
  · exact goes_send _

theorem gone_flush {c₀ : Conn} : Keeps (Gone E c₀) (flush E S) := by
  unfold flush
  refine Keeps.bind ?_ fun out => ?_
  · rintro w ⟨ops, h1, h2, h3⟩
    refine ⟨ops ++ [.drain], by rw [List.all_append, h1]; rfl, careful_snoc h2 rfl, ?_⟩
    rw [runOps_append, ← h3]
    rfl
  · split
    · exact fun _ h => h
    · intro w h
      unfold W.send
      split <;> exact h

theorem goes_takeIn {c₀ : Conn} (d : Bytes) : Goes E c₀ (takeIn E S d) := by
  intro w h
  have h1 := goes_op (E := E) (c₀ := c₀) (o := .receive d) rfl w h
  unfold takeIn W.finally_
  rcases hx : W.call E (.receive d) w with ⟨r, w₁⟩
  rw [hx] at h1
  cases r with
  | ok a =>
    have h2 := goes_flush (S := S) w₁ h1
    dsimp only
    rcases hy : flush E S w₁ with ⟨r', w₂⟩
    rw [hy] at h2
    cases r' <;> exact h2
  | error e =>
    have h2 := gone_flush (S := S) w₁ h1
    dsimp only
    rcases hy : flush E S w₁ with ⟨r', w₂⟩
    rw [hy] at h2
    cases r' <;> exact h2

theorem goes_handshakeLoop (hS : Endless S) {c₀ : Conn} (n : Nat) : Goes E c₀ (handshakeLoop E S n) := by
  induction n with
  | zero =>
    intro w h
    rw [handshakeLoop]
    by_cases hp : w.conn.state.isPostHandshake = true
    · simp only [hp, if_true]; exact h
    · simp only [hp]; exact h.gone
  | succ n ih =>
    intro w h
    rw [handshakeLoop]
    by_cases hp : w.conn.state.isPostHandshake = true
    · simp only [hp, if_true]; exact h
    · simp only [hp]
      rw [if_neg (by simp), W.bind_def]
      unfold W.recv
      cases hr : S.recv w.nrecv w.conn.mfl with
      | error e => exact Going.gone (w := { w with nrecv := w.nrecv + 1 }) h
      | ok d =>
        dsimp only
        have hd : d.isEmpty = false := by
          cases d with
          | nil => exact absurd hr (hS _ _)
          | cons => rfl
        rw [hd]
        exact Goes.bind (goes_takeIn d) (fun _ => ih) { w with nrecv := w.nrecv + 1 } h

theorem goes_readLoop (hS : Endless S) {c₀ : Conn} (n : Nat) (app : Bytes) :
    Goes E c₀ (readLoop E S n app) := by
  induction n generalizing app with
  | zero =>
    intro w h
    rw [readLoop]
    by_cases hp : (w.conn.state.isConnected && app.isEmpty) = true
    · simp only [hp, if_true]; exact h.gone
    · simp only [hp]; exact h
  | succ n ih =>
    intro w h
    rw [readLoop]
    by_cases hp : (w.conn.state.isConnected && app.isEmpty) = false
    · simp only [hp, if_true]; exact h
    · simp only [hp]
      rw [if_neg (by simp), W.bind_def]
      unfold W.recv
      cases hr : S.recv w.nrecv w.conn.mfl with
      | error e => exact Going.gone (w := { w with nrecv := w.nrecv + 1 }) h
      | ok d =>
        dsimp only
        have hd : d.isEmpty = false := by
          cases d with
          | nil => exact absurd hr (hS _ _)
          | cons => rfl
        rw [hd]
        exact Goes.bind (goes_takeIn d) (fun _ => Goes.bind (goes_op rfl) fun _ => ih _)
          { w with nrecv := w.nrecv + 1 } h

theorem goes_sendHello {c₀ : Conn} : Goes E c₀ (sendHello E S) := by
  intro w h
  unfold sendHello
  cases w.conn.config.side with
  | client => exact Goes.bind (goes_op rfl) (fun _ => goes_send _) w h
  | server => exact h

theorem goes_call (hS : Endless S) {c₀ : Conn} {x : Call} (hx : stays x = true) : Goes E c₀ (x.run E S) := by
  cases x with
  | handshake n =>
    exact Goes.bind (Goes.bind (goes_op rfl) fun _ => Goes.bind goes_sendHello fun _ =>
      goes_handshakeLoop hS n) fun _ => Goes.pure _
  | read n => exact Goes.bind (goes_op rfl) fun _ => goes_readLoop hS n _
  | write d =>
    exact Goes.bind (Goes.bind (goes_op rfl) fun _ => Goes.bind (goes_op rfl) fun _ => goes_send _) fun _ =>
      Goes.pure _
  | close => cases hx

theorem goes_calls (hS : Endless S) {c₀ : Conn} : ∀ (xs : List Call) (w : Wrapped),
    xs.all stays = true → Stops E S xs w → Going E c₀ w → Gone E c₀ (runCalls E S xs w) := by
  intro xs
  induction xs with
  | nil => exact fun w _ _ h => h.gone
  | cons x xs ih =>
    intro w hx hs h
    rw [List.all_cons, Bool.and_eq_true] at hx
    have h1 := goes_call (E := E) hS hx.1 w h
    obtain ⟨h2, h3⟩ := hs
    rw [runCalls]
    rcases hr : x.run E S w with ⟨r, w'⟩
    rw [hr] at h1 h2 h3
    cases r with
    | ok a => exact ih _ hx.2 h3 h1
    | error e =>
      rw [h2 rfl]
      exact h1

end Siotls
