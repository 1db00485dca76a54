import Verif.Proofs.Farewell
import Verif.Proofs.Veil
import Verif.Proofs.Hear
import Verif.Spec.Truncation
/-!
# What a closed peer changes

`Conn.shut` hides whether the peer closed; `Conn.blur` also hides what only `receive_data` uses. A method
is `Unaware` of what a function hides when hiding it changes neither its result nor what else it does.
-/

namespace Siotls
open Spec

variable {E E' : Env} {v : Conn → Conn}

/-- `connected` and `closed` by the peer -/
def St.shut : St → St
  | .connected => .closed true true
  | s => s

theorem St.shut_idem (s : St) : s.shut.shut = s.shut := by cases s <;> rfl
theorem St.shut_canSend (s : St) : s.shut.canSend = s.canSend := by cases s <;> rfl
theorem St.shut_canReceive (s : St) : s.shut.canReceive = s.canReceive := by cases s <;> rfl
theorem St.shut_canSendApp (s : St) : s.shut.canSendApp = s.canSendApp := by cases s <;> rfl
theorem St.shut_isConnected (s : St) : s.shut.isConnected = s.isConnected := by cases s <;> rfl
theorem St.shut_isPost (s : St) : s.shut.isPostHandshake = s.isPostHandshake := by cases s <;> rfl
theorem St.shut_closing (s : St) : s.shut.closing.shut = s.closing.shut := by cases s <;> rfl

def Conn.shut (c : Conn) : Conn := { c with state := c.state.shut }

def CipherSt.blur (k : CipherSt) : CipherSt := { k with rd := .empty }

def Conn.blur (c : Conn) : Conn :=
  { c with state := c.state.shut, cipher := c.cipher.map CipherSt.blur, transcript := ⟨[], 0⟩,
           inputData := [], inputHandshake := [], tr := [] }

theorem Conn.shut_idem (c : Conn) : c.shut.shut = c.shut := by simp [Conn.shut, St.shut_idem]

theorem Conn.blur_idem (c : Conn) : c.blur.blur = c.blur := by
  unfold Conn.blur
  cases c.cipher <;> simp [St.shut_idem, CipherSt.blur]

def Unaware {α} (v : Conn → Conn) (m : M α) : Prop :=
  ∀ c, (m (v c)).1 = (m c).1 ∧ v (m (v c)).2 = v (m c).2

theorem Unaware.congr {α} {m : M α} (h : Unaware v m) {c d : Conn} (e : v c = v d) :
    (m c).1 = (m d).1 ∧ v (m c).2 = v (m d).2 := by
  have h1 := h c
  have h2 := h d
  rw [e] at h1
  exact ⟨h1.1.symm.trans h2.1, h1.2.symm.trans h2.2⟩

/-- what is hidden stays hidden -/
class Hides (v : Conn → Conn) : Prop where
  idem : ∀ c, v (v c) = v c

instance : Hides Conn.shut := ⟨Conn.shut_idem⟩
instance : Hides Conn.blur := ⟨Conn.blur_idem⟩

variable [Hides v]

theorem Unaware.pure {α} (a : α) : Unaware v (Pure.pure a : M α) := fun c => ⟨rfl, Hides.idem c⟩
theorem Unaware.pure' {α} (a : α) : Unaware v (M.pure a : M α) := fun c => ⟨rfl, Hides.idem c⟩
theorem Unaware.throw {α} (e : Exn) : Unaware v (M.throw e : M α) := fun c => ⟨rfl, Hides.idem c⟩
theorem Unaware.lift {α} (r : Except Exn α) : Unaware v (M.lift r) := fun c => ⟨rfl, Hides.idem c⟩

omit [Hides v] in
theorem Unaware.bind {α β} {m : M α} {g : α → M β} (h : Unaware v m) (hg : ∀ a, Unaware v (g a)) :
    Unaware v (m >>= g) := by
  intro c
  have h1 := h c
  show (M.bind m g (v c)).1 = (M.bind m g c).1 ∧ v (M.bind m g (v c)).2 = v (M.bind m g c).2
  unfold M.bind
  rcases hm : m c with ⟨r, d⟩
  rcases hm' : m (v c) with ⟨r', d'⟩
  rw [hm, hm'] at h1
  obtain ⟨rfl, h2⟩ := h1
  cases r' with
  | error e => exact ⟨rfl, h2⟩
  | ok a => exact (hg a).congr h2

omit [Hides v] in
theorem Unaware.get {β} {g : Conn → M β} (h : ∀ c, Unaware v (g c)) (hg : ∀ c, g (v c) = g c) :
    Unaware v (M.get >>= g) := by
  intro c
  show (g (v c) (v c)).1 = (g c c).1 ∧ v (g (v c) (v c)).2 = v (g c c).2
  rw [hg c]
  exact h c c

omit [Hides v] in
theorem Unaware.ite {α} {p : Prop} [Decidable p] {m₁ m₂ : M α} (h₁ : Unaware v m₁) (h₂ : Unaware v m₂) :
    Unaware v (if p then m₁ else m₂) := by
  split
  · exact h₁
  · exact h₂

/-- a method that treats such connections as others, and hides with them -/
theorem Unaware.of {α} {m : M α} (h : ∀ c, m (v c) = ((m c).1, v (m c).2)) : Unaware v m := fun c =>
  ⟨by rw [h c], by rw [h c]; exact Hides.idem _⟩

omit [Hides v] in
theorem Unaware.modify {f : Conn → Conn} (h : ∀ c, v (f (v c)) = v (f c)) : Unaware v (M.modify f) :=
  fun c => ⟨rfl, h c⟩

/-! ## The whole API does not tell `connected` from closed by the peer -/

/-- only connected connections are at stake -/
theorem Unaware.shut_of {α} {m : M α}
    (h : ∀ c : Conn, c.state = .connected → (m c.shut).1 = (m c).1 ∧ (m c.shut).2.shut = (m c).2.shut) :
    Unaware Conn.shut m := fun c => by
  by_cases hc : c.state = .connected
  · exact h c hc
  · have : c.shut = c := by
      unfold Conn.shut
      have : c.state.shut = c.state := by cases hs : c.state <;> simp_all [St.shut]
      rw [this]
    rw [this]
    exact ⟨rfl, rfl⟩

/-- a method that neither reads nor changes the state -/
def Stateless {α} (m : M α) : Prop := ∀ c, m c.shut = ((m c).1, (m c).2.shut)

theorem stateless_update (d : Bytes) (s : Side) (t : Nat) : Stateless (transcriptUpdate d s t) := fun c => by
  unfold transcriptUpdate
  have h : c.shut.transcript = c.transcript := rfl
  rw [h]
  rcases c.transcript.update d s t with ⟨r | b, t'⟩
  · rfl
  · cases b <;> rfl

theorem shut_hash (d : Bytes) (s : Side) (x : Content) : Unaware Conn.shut (hashContent d s x) := by
  unfold hashContent
  split
  · exact .of (stateless_update _ _ _)
  · exact .throw _
  · exact .pure _

theorem stateless_encrypt (d h : Bytes) : Stateless (cipherEncrypt E d h) := fun c => by
  unfold cipherEncrypt
  have h1 : c.shut.cipher = c.cipher := rfl
  rw [h1]
  cases c.cipher with
  | none => rfl
  | some k =>
    dsimp only
    cases k.wr.key with
    | none => rfl
    | some key =>
      dsimp only
      rcases nextNonce k.info k.wr with e | ⟨n, w⟩
      · cases e <;> rfl
      · rfl

theorem shut_getCipher : Unaware Conn.shut getCipher := .of fun c => by
  rcases c with ⟨g, h, o, n, k⟩
  unfold Siotls.getCipher Conn.shut
  cases k <;> rfl

theorem shut_fragment (t : Nat) (f : Bytes) : Unaware Conn.shut (encryptFragment E t f) := by
  unfold encryptFragment
  refine .get (fun c => .bind shut_getCipher fun k => .bind (.lift _) fun h => .bind (.of (stateless_encrypt _ _))
    fun e => ?_) (fun c => rfl)
  split
  · exact .pure _
  · exact .throw _

theorem shut_records (e : Bool) (t : Nat) : ∀ fs, Unaware Conn.shut (makeRecords E e t fs)
  | [] => .pure _
  | f :: fs => by
    unfold makeRecords protect
    refine .bind ?_ fun b => .bind (.lift _) fun h => .bind (shut_records e t fs) fun r => .pure _
    split
    · exact shut_fragment _ _
    · exact .pure' _

theorem shut_emit (x : Content) (r : List (Nat × Bytes × Bytes)) : Unaware Conn.shut (emitRecords x r) :=
  .of fun _ => rfl

theorem shut_send (x : Content) : Unaware Conn.shut (sendContent E x) := by
  unfold sendContent
  refine .get (fun c => ?_) (fun c => ?_)
  · refine .ite (.throw _) (.ite (.throw _) (.ite (.throw _) ?_))
    exact .bind (.lift _) fun d => .bind (shut_hash _ _ _) fun _ => .bind (.lift _) fun fs =>
      .bind (shut_records _ _ _) fun r => shut_emit _ _
  · have h1 : c.shut.state.canSendApp = c.state.canSendApp := St.shut_canSendApp _
    have h2 : c.shut.state.canSend = c.state.canSend := St.shut_canSend _
    rw [h1, h2]
    rfl

theorem shut_moveTo (s : St) : Unaware Conn.shut (moveTo s) := .modify fun _ => rfl

theorem shut_base (x : Content) : Unaware Conn.shut (baseProcess x) := by
  unfold baseProcess
  split
  · exact .ite (shut_moveTo _) (.ite (.ite (.pure _) (.throw _)) (.ite (.throw _) (.throw _)))
  · exact .throw _
  · exact .throw _

theorem shut_connected (x : Content) : Unaware Conn.shut (connectedProcess x) := by
  unfold connectedProcess
  split
  · exact .of fun _ => rfl
  · exact shut_base _

theorem shut_process (x : Content) : Unaware Conn.shut (process E x) := .shut_of fun c hc => by
  have h1 : process E x c = connectedProcess x c := by unfold process; rw [hc]
  have h2 : process E x c.shut = connectedProcess x c.shut := by
    unfold process
    rw [show c.shut.state = .closed true true by simp [Conn.shut, hc, St.shut]]
    rfl
  rw [h1, h2]
  exact shut_connected x c

theorem stateless_decrypt (h f : Bytes) : Stateless (decryptRecord E h f) := fun c => by
  unfold decryptRecord
  have h1 : c.shut.cipher = c.cipher := rfl
  rw [h1]
  cases c.cipher with
  | none => rfl
  | some k =>
    dsimp only
    cases k.rd.key with
    | none => rfl
    | some key =>
      dsimp only
      rcases nextNonce k.info k.rd with e | ⟨n, w⟩
      · rfl
      · dsimp only
        cases E.aeadOpen k.info.id key n h f with
        | none => rfl
        | some inner => dsimp only; cases stripPadding inner <;> rfl

theorem stateless_record : Stateless (readNextRecord E) := fun c => by
  unfold readNextRecord
  have h1 : ({ c.shut with inputData := skipCcs c.shut.inputData } : Conn) =
      Conn.shut { c with inputData := skipCcs c.inputData } := rfl
  rw [h1]
  generalize ({ c with inputData := skipCcs c.inputData } : Conn) = c
  dsimp only
  have h2 : c.shut.inputData = c.inputData := rfl
  have h3 : c.shut.mfl = c.mfl := rfl
  have h4 : c.shut.mustDecrypt = c.mustDecrypt := rfl
  rw [h2, h3, h4]
  split
  · rename_i t v1 v2 l1 l2 rest _
    by_cases ha : beDec [l1, l2] > c.mfl + (if c.mustDecrypt then 256 else 0)
    · simp only [if_pos ha]
    simp only [if_neg ha]
    by_cases hb : rest.length < beDec [l1, l2]
    · simp only [if_pos hb]
    simp only [if_neg hb]
    have h5 : ({ c.shut with inputData := rest.drop (beDec [l1, l2]) } : Conn) =
      Conn.shut { c with inputData := rest.drop (beDec [l1, l2]) } := rfl
    rw [h5]
    have h6 : (Conn.shut { c with inputData := rest.drop (beDec [l1, l2]) }).mustDecrypt = c.mustDecrypt := rfl
    have h7 : (Conn.mustDecrypt { c with inputData := rest.drop (beDec [l1, l2]) }) = c.mustDecrypt := rfl
    rw [h6, h7]
    cases c.mustDecrypt with
    | true =>
      simp only [if_true]
      rw [stateless_decrypt]
      rcases decryptRecord E [t, v1, v2, l1, l2] (rest.take (beDec [l1, l2]))
        { c with inputData := rest.drop (beDec [l1, l2]) } with ⟨e | ⟨x, y⟩, d⟩
      · rfl
      · dsimp only; split <;> rfl
    | false =>
      simp only [Bool.false_eq_true, if_false]
      split <;> rfl
  · rfl

theorem stateless_finish : Stateless finishHandshake := fun c => by
  unfold finishHandshake
  have h : c.shut.inputHandshake = c.inputHandshake := rfl
  rw [h]
  split <;> rfl

theorem stateless_complete : ∀ n, Stateless (completeHandshake E n)
  | 0 => fun c => by
    unfold completeHandshake
    have h : c.shut.inputHandshake = c.inputHandshake := rfl
    rw [h]
    split
    · rfl
    · exact stateless_finish c
  | n + 1 => fun c => by
    unfold completeHandshake
    have h : c.shut.inputHandshake = c.inputHandshake := rfl
    rw [h]
    split
    · rw [stateless_record]
      rcases readNextRecord E c with ⟨e | _ | ⟨t, f⟩, d⟩
      · rfl
      · rfl
      · dsimp only
        split
        · rfl
        · exact stateless_complete n { d with inputHandshake := d.inputHandshake ++ f }
    · exact stateless_finish c

theorem stateless_content : Stateless (readNextContent E) := fun c => by
  unfold readNextContent
  rw [stateless_record]
  rcases readNextRecord E c with ⟨e | _ | ⟨t, f⟩, d⟩
  · rfl
  · rfl
  · dsimp only
    have h : d.shut.inputHandshake = d.inputHandshake := rfl
    rw [h]
    split
    · rfl
    split
    · rfl
    split
    · rfl
    · exact stateless_complete _ { d with inputHandshake := d.inputHandshake ++ f }

theorem shut_step : Unaware Conn.shut (receiveStep E) := by
  unfold receiveStep
  refine .bind (.of stateless_content) fun next => ?_
  split
  · exact .pure _
  · refine .get (fun c => ?_) (fun c => rfl)
    exact .bind (.lift _) fun x => .bind (shut_hash _ _ _) fun _ => .bind (.of fun _ => rfl) fun _ =>
      .bind (shut_process _) fun _ => .pure _

theorem shut_fail (d : Nat) : Unaware Conn.shut (failWith E d) := by
  unfold failWith
  exact .bind (shut_send _) fun _ => shut_moveTo _

theorem shut_loop : ∀ n, Unaware Conn.shut (receiveLoop E n)
  | 0 => .throw _
  | n + 1 => fun c => by
    have h := shut_step (E := E) c
    unfold receiveLoop
    generalize receiveStep E c = x at h ⊢
    generalize receiveStep E c.shut = x' at h ⊢
    rcases x with ⟨r, d⟩
    rcases x' with ⟨r', d'⟩
    obtain ⟨rfl, h⟩ := h
    dsimp only at h
    rcases r' with e | _ | _
    · dsimp only
      have h' := (shut_fail (E := E) (alertFor e)).congr h
      generalize failWith E (alertFor e) d = y at h' ⊢
      generalize failWith E (alertFor e) d' = y' at h' ⊢
      rcases y with ⟨r, x⟩
      rcases y' with ⟨r', x'⟩
      obtain ⟨rfl, h'⟩ := h'
      cases r' <;> exact ⟨rfl, h'⟩
    · exact ⟨rfl, h⟩
    · exact (shut_loop n).congr h

theorem shut_rekey : Unaware Conn.shut rekey := .of fun c => by
  unfold rekey
  have h : c.shut.state.canSend = c.state.canSend := St.shut_canSend _
  rw [h]
  split <;> rfl

theorem shut_tail : Unaware Conn.shut recvTail := fun c => by
  have h : shouldRekey c.shut = shouldRekey c := rfl
  unfold recvTail
  rw [h]
  rcases shouldRekey c with e | _ | _
  · exact ⟨rfl, c.shut_idem⟩
  · exact ⟨rfl, c.shut_idem⟩
  · exact shut_rekey c

theorem shut_receive (x : Bytes) : Unaware Conn.shut (receiveData E x) := fun c => by
  cases h1 : x.isEmpty with
  | true =>
    unfold receiveData
    rw [if_pos h1, if_pos h1]
    exact ⟨rfl, c.shut_idem⟩
  | false =>
    have h0 : c.shut.state.canReceive = c.state.canReceive := St.shut_canReceive _
    by_cases h2 : c.state.canReceive = false
    · have h3 : c.shut.state.canReceive = false := h0.trans h2
      simp only [receiveData, h1, h2, h3, Bool.false_eq_true, if_false, if_true]
      exact ⟨trivial, c.shut_idem⟩
    · have h3 : c.shut.state.canReceive ≠ false := h0 ▸ h2
      rw [receiveData_tail h1 h2, receiveData_tail h1 h3]
      exact ((shut_loop _).bind fun _ => shut_tail).congr (Conn.shut_idem { c with inputData := c.inputData ++ x })

theorem shut_closeRecv : Unaware Conn.shut closeReceivingEnd := .shut_of fun c hc => by
  unfold closeReceivingEnd
  rw [show c.shut.state = .closed true true by simp [Conn.shut, hc, St.shut], hc]
  exact ⟨rfl, rfl⟩

theorem shut_closeSend : Unaware Conn.shut (closeSendingEnd E) := .shut_of fun c hc => by
  have h : closeSendingEnd E c.shut = closeSendingEnd E c := by
    have h1 : ({ c.shut with state := c.shut.state.closing } : Conn) = { c with state := c.state.closing } := by
      simp [Conn.shut, hc, St.shut, St.closing]
    unfold closeSendingEnd
    show M.bind (M.modify _) _ c.shut = M.bind (M.modify _) _ c
    unfold M.bind M.modify
    dsimp only
    rw [h1]
  rw [h]
  exact ⟨rfl, rfl⟩

theorem shut_initiate : Unaware Conn.shut (initiate E) := .shut_of fun c hc => by
  unfold initiate
  rw [show c.shut.state = .closed true true by simp [Conn.shut, hc, St.shut], hc]
  exact ⟨rfl, c.shut_idem⟩

/-- Every method of the API is unaware of it. -/
theorem shut_run : ∀ o : Op, Unaware Conn.shut (o.run E)
  | .initiate => .bind shut_initiate fun _ => .pure _
  | .receive d => .bind (shut_receive d) fun _ => .pure _
  | .send d => .bind (shut_send _) fun _ => .pure _
  | .read => .of fun _ => rfl
  | .drain => .of fun _ => rfl
  | .closeRecv => .bind shut_closeRecv fun _ => .pure _
  | .closeSend => .bind shut_closeSend fun _ => .pure _
  | .rekey => .bind shut_rekey fun _ => .pure _

theorem look_shut {c d : Conn} (h : c.shut = d.shut) : look c = look d := by
  have h1 : c.state.shut = d.state.shut := congrArg Conn.state h
  unfold look
  rw [← St.shut_isConnected c.state, ← St.shut_isPost c.state, h1, St.shut_isConnected, St.shut_isPost]

theorem watch_shut : ∀ (ops : List Op) {c d : Conn}, c.shut = d.shut → watch E ops c = watch E ops d
  | [], _, _, h => by rw [watch, watch, look_shut h]
  | o :: os, _, _, h => by
    obtain ⟨h1, h2⟩ := (shut_run (E := E) o).congr h
    show (_, _ :: _) = (_, _ :: _)
    rw [look_shut h, h1, watch_shut os h2]

/-! ## Without `receive_data`, what it alone uses has no influence either -/

theorem blur_getCipher {β} {g : CipherSt → M β} (h : ∀ k, Unaware Conn.blur (g k))
    (hg : ∀ k : CipherSt, g k.blur = g k) : Unaware Conn.blur (getCipher >>= g) := fun c => by
  rw [M.bind_def, M.bind_def]
  unfold getCipher
  have h1 : c.blur.cipher = c.cipher.map CipherSt.blur := rfl
  rw [h1]
  cases c.cipher with
  | none => exact ⟨rfl, c.blur_idem⟩
  | some k =>
    show (g k.blur c.blur).1 = _ ∧ (g k.blur c.blur).2.blur = _
    rw [hg]
    exact h k c

theorem blur_encrypt (d h : Bytes) : Unaware Conn.blur (cipherEncrypt E d h) := fun c => by
  unfold cipherEncrypt
  have h1 : c.blur.cipher = c.cipher.map CipherSt.blur := rfl
  rw [h1]
  cases hc : c.cipher with
  | none => exact ⟨rfl, c.blur_idem⟩
  | some k =>
    have h2 : k.blur.wr = k.wr := rfl
    have h3 : k.blur.info = k.info := rfl
    dsimp only [Option.map_some]
    rw [h2, h3]
    cases k.wr.key with
    | none => exact ⟨rfl, c.blur_idem⟩
    | some key =>
      dsimp only
      rcases nextNonce k.info k.wr with e | ⟨n, w⟩
      · cases e <;> exact ⟨rfl, c.blur_idem⟩
      · refine ⟨rfl, ?_⟩
        simp [Conn.blur, CipherSt.blur, St.shut_idem]

theorem blur_mfl (c : Conn) : c.blur.mfl = c.mfl := rfl

theorem blur_mustEncrypt (c : Conn) : c.blur.mustEncrypt = c.mustEncrypt := by
  unfold Conn.mustEncrypt Conn.blur
  cases c.cipher <;> rfl

theorem blur_fragment (t : Nat) (f : Bytes) : Unaware Conn.blur (encryptFragment E t f) := by
  unfold encryptFragment
  refine .get (fun c => blur_getCipher (fun k => .bind (.lift _) fun h => .bind (blur_encrypt _ _)
    fun e => ?_) fun k => rfl) (fun c => rfl)
  split
  · exact .pure _
  · exact .throw _

theorem blur_records (e : Bool) (t : Nat) : ∀ fs, Unaware Conn.blur (makeRecords E e t fs)
  | [] => .pure _
  | f :: fs => by
    unfold makeRecords protect
    refine .bind ?_ fun b => .bind (.lift _) fun h => .bind (blur_records e t fs) fun r => .pure _
    split
    · exact blur_fragment _ _
    · exact .pure' _

theorem blur_emit (x : Content) (r : List (Nat × Bytes × Bytes)) : Unaware Conn.blur (emitRecords x r) :=
  .modify fun c => by
    unfold Conn.blur
    cases c.cipher <;> simp [St.shut_idem, CipherSt.blur]

theorem blur_send {x : Content} (hx : ∀ d s, hashContent d s x = pure ()) :
    Unaware Conn.blur (sendContent E x) := by
  unfold sendContent
  simp only [hx]
  refine .get (fun c => ?_) (fun c => ?_)
  · refine .ite (.throw _) (.ite (.throw _) (.ite (.throw _) ?_))
    exact .bind (.lift _) fun d => .bind (.pure _) fun _ => .bind (.lift _) fun fs =>
      .bind (blur_records _ _ _) fun r => blur_emit _ _
  · have h1 : c.blur.state.canSendApp = c.state.canSendApp := St.shut_canSendApp _
    have h2 : c.blur.state.canSend = c.state.canSend := St.shut_canSend _
    have h3 : c.blur.cipher = c.cipher.map CipherSt.blur := rfl
    rw [h1, h2, blur_mustEncrypt, blur_mfl, h3]
    cases c.cipher <;> rfl

theorem blur_rekey : Unaware Conn.blur rekey := .of fun c => by
  unfold rekey
  have h : c.blur.state.canSend = c.state.canSend := St.shut_canSend _
  rw [h]
  split <;> rfl

theorem blur_closeRecv : Unaware Conn.blur closeReceivingEnd := fun c => by
  have h : ∀ s : St, s.shut = s → ({ c.blur with state := s } : Conn).blur = ({ c with state := s } : Conn).blur := by
    intro s hs
    unfold Conn.blur
    cases c.cipher <;> simp [hs, CipherSt.blur]
  unfold closeReceivingEnd
  rw [show c.blur.state = c.state.shut from rfl]
  cases c.state <;> exact ⟨rfl, h _ rfl⟩

/-- the end of `close_sending_end`, with the state in which it is called -/
theorem closeSend_eq (c : Conn) : closeSendingEnd E c =
    if c.state.closing.canSend then
      match sendContent E (.alert Iana.warning Iana.closeNotify) { c with state := c.state.closing } with
      | (.ok _, d) => (.ok (), { d with state := match c.state.closing with
          | .closed r _ => .closed r false
          | s => s })
      | (.error e, d) => (.error e, d)
    else (.ok (), { c with state := c.state.closing }) := by
  rw [closeSendingEnd_eq]
  split
  · have h := sendContent_state (E := E) (.alert Iana.warning Iana.closeNotify) { c with state := c.state.closing }
    rcases hm : sendContent E (.alert Iana.warning Iana.closeNotify) { c with state := c.state.closing } with ⟨e | u, d⟩
    · rfl
    · rw [hm] at h
      dsimp only at h
      unfold closeTail
      dsimp only
      rw [h]
      cases c.state.closing <;> rfl
  · rfl

theorem blur_closing (c : Conn) : ({ c.blur with state := c.blur.state.closing } : Conn).blur =
    ({ c with state := c.state.closing } : Conn).blur ∧ c.blur.state.closing = c.state.closing := by
  have h : c.blur.state.closing = c.state.closing := by
    show c.state.shut.closing = _
    cases c.state <;> rfl
  rw [h]
  refine ⟨?_, rfl⟩
  unfold Conn.blur
  cases c.cipher <;> simp [CipherSt.blur]

theorem blur_closeSend : Unaware Conn.blur (closeSendingEnd E) := fun c => by
  obtain ⟨h1, h2⟩ := blur_closing c
  rw [closeSend_eq, closeSend_eq]
  generalize ({ c.blur with state := c.blur.state.closing } : Conn) = x at h1 ⊢
  generalize ({ c with state := c.state.closing } : Conn) = y at h1 ⊢
  rw [h2]
  split
  · have h := (blur_send (E := E) (x := .alert Iana.warning Iana.closeNotify) fun _ _ => rfl).congr h1
    generalize sendContent E (.alert Iana.warning Iana.closeNotify) x = p at h ⊢
    generalize sendContent E (.alert Iana.warning Iana.closeNotify) y = q at h ⊢
    rcases p with ⟨r, x⟩
    rcases q with ⟨r', y⟩
    obtain ⟨rfl, h⟩ := h
    dsimp only at h
    cases r with
    | error e => exact ⟨rfl, h⟩
    | ok u =>
      refine ⟨rfl, ?_⟩
      simp only [Conn.blur, Conn.mk.injEq, true_and, and_true] at h ⊢
      simp [h]
  · exact ⟨rfl, h1⟩

theorem blur_run {o : Op} (ho : o.isReceive = false) {c d : Conn} (h : c.blur = d.blur)
    (hp : c.state.isPostHandshake = true) :
    (o.run E c).1 = (o.run E d).1 ∧ (o.run E c).2.blur = (o.run E d).2.blur ∧
      (o.run E c).2.state.isPostHandshake = true := by
  refine and_assoc.mp ⟨?_, (still_op o ho c hp).post hp⟩
  have hs : c.state.shut = d.state.shut := congrArg Conn.state h
  cases o with
  | receive d => cases ho
  | initiate =>
    have hp' : d.state.isPostHandshake = true := by
      rw [← St.shut_isPost, ← hs, St.shut_isPost]; exact hp
    have key : ∀ c : Conn, c.state.isPostHandshake = true → Op.initiate.run E c = (.error .notImplemented, c) := by
      intro c hc
      have : Siotls.initiate E c = (.error .notImplemented, c) := by
        unfold Siotls.initiate
        cases hs : c.state <;> first | rfl | (rw [hs] at hc; cases hc)
      rw [Op.run, M.bind_def, this]
    rw [key c hp, key d hp']
    exact ⟨rfl, h⟩
  | send x => exact (Unaware.bind (blur_send fun _ _ => rfl) fun _ => .pure _).congr h
  | read => exact ⟨congrArg Except.ok (congrArg Conn.applicationData h : c.blur.applicationData = d.blur.applicationData), congrArg (fun c : Conn => { c with applicationData := [] }) h⟩
  | drain => exact ⟨congrArg Except.ok (congrArg Conn.outputData h : c.blur.outputData = d.blur.outputData), congrArg (fun c : Conn => { c with outputData := [] }) h⟩
  | closeRecv => exact (Unaware.bind blur_closeRecv fun _ => .pure _).congr h
  | closeSend => exact (Unaware.bind blur_closeSend fun _ => .pure _).congr h
  | rekey => exact (Unaware.bind blur_rekey fun _ => .pure _).congr h

theorem look_blur {c d : Conn} (h : c.blur = d.blur) : look c = look d := by
  have h1 : c.state.shut = d.state.shut := congrArg Conn.state h
  unfold look
  rw [← St.shut_isConnected c.state, ← St.shut_isPost c.state, h1, St.shut_isConnected, St.shut_isPost]

theorem watch_blur : ∀ (ops : List Op), Offline ops → ∀ {c d : Conn}, c.blur = d.blur →
    c.state.isPostHandshake = true → watch E ops c = watch E ops d
  | [], _, _, _, h, _ => by rw [watch, watch, look_blur h]
  | o :: os, ho, _, _, h, hp => by
    have : o.isReceive = false := by
      cases o with
      | receive d => exact absurd List.mem_cons_self (ho d)
      | _ => rfl
    obtain ⟨h1, h2, h3⟩ := blur_run (E := E) this h hp
    show (_, _ :: _) = (_, _ :: _)
    rw [look_blur h, h1, watch_blur os (fun d hd => ho d (List.mem_cons_of_mem _ hd)) h2 h3]

/-! ## What `receive_data` changes when it delivers nothing -/

theorem useRecord_blur (outer : Nat) (header frag : Bytes) (c : Conn) :
    (useRecord E outer header frag c).2.blur = c.blur := by
  have hd : (decryptRecord E header frag c).2.blur = c.blur := by
    unfold decryptRecord
    cases hk : c.cipher with
    | none => rfl
    | some k =>
      dsimp only
      cases k.rd.key with
      | none => rfl
      | some key =>
        dsimp only
        cases nextNonce k.info k.rd with
        | error e => rfl
        | ok x =>
          have hs : ∀ t, Conn.blur { c with cipher := some { k with rd := x.2 }, tr := t } = c.blur := by
            intro t
            unfold Conn.blur
            rw [hk]
            rfl
          dsimp only
          repeat' (first | exact hs _ | split)
  unfold useRecord
  cases hm : c.mustDecrypt with
  | false => simp only [Bool.false_eq_true, if_false]; split <;> rfl
  | true =>
    simp only [if_true]
    rcases h : decryptRecord E header frag c with ⟨r, c'⟩
    rw [h] at hd
    cases r with
    | error e => exact hd
    | ok x => obtain ⟨a, b⟩ := x; dsimp only; split <;> exact hd

theorem readNextRecord_blur (c : Conn) : (readNextRecord E c).2.blur = c.blur := by
  cases nextRecord (E := E) c with
  | none _ h => rw [h]; rfl
  | overflow _ h => rw [h]; rfl
  | record outer header frag rest _ _ h => rw [h, useRecord_blur]; rfl

theorem completeHandshake_blur (n : Nat) : ∀ c : Conn, (completeHandshake E n c).2.blur = c.blur := by
  have hf : ∀ c : Conn, (finishHandshake c).2.blur = c.blur := by
    intro c; unfold finishHandshake; split <;> rfl
  induction n with
  | zero => intro c; unfold completeHandshake; split; exacts [rfl, hf c]
  | succ n ih =>
    intro c
    unfold completeHandshake
    split
    · have h1 := readNextRecord_blur (E := E) c
      rcases h : readNextRecord E c with ⟨r, c'⟩
      rw [h] at h1
      cases r with
      | error e => exact h1
      | ok r =>
        cases r with
        | none => exact h1
        | some r =>
          obtain ⟨ct, fr⟩ := r
          dsimp only
          split
          · exact h1
          · exact (ih _).trans h1
    · exact hf c

theorem readNextContent_blur (c : Conn) : (readNextContent E c).2.blur = c.blur := by
  have h1 := readNextRecord_blur (E := E) c
  rw [readNextContent_eq]
  rcases h : readNextRecord E c with ⟨r, c'⟩
  rw [h] at h1
  cases r with
  | error e => exact h1
  | ok r =>
    cases r with
    | none => exact h1
    | some r =>
      obtain ⟨ct, fr⟩ := r
      dsimp only
      split
      · exact h1
      · split
        · exact h1
        · split
          · exact h1
          · exact (completeHandshake_blur _ _).trans h1

/-- also without the data for the program -/
def Conn.fade (c : Conn) : Conn := { c.blur with applicationData := [] }

theorem Conn.fade_of {c d : Conn} (h : c.blur = d.blur) : c.fade = d.fade :=
  congrArg (fun c : Conn => { c with applicationData := [] }) h

/-- states in which data is received that the peer's closure may follow -/
def Conn.Opened (c : Conn) : Prop := c.state.shut = .closed true true

theorem process_fade {c c' : Conn} {x : Content} (hc : c.Opened) (h : process E x c = (.ok (), c')) :
    c'.fade = c.fade := by
  have h1 : process E x c = connectedProcess x c := by
    unfold process
    unfold Conn.Opened at hc
    cases hs : c.state <;> rw [hs] at hc <;> first | rfl | (cases hc; rfl) | cases hc
  rw [h1] at h
  unfold connectedProcess at h
  split at h
  · cases h; rfl
  · unfold baseProcess at h
    split at h
    · split at h
      · cases h
        unfold Conn.Opened at hc
        simp only [Conn.fade, Conn.blur, hc]
        rfl
      · split at h
        · split at h
          · cases h; rfl
          · cases h
        · split at h <;> cases h
    · cases h
    · cases h

theorem hash_blur (d : Bytes) (s : Side) (x : Content) (c : Conn) : (hashContent d s x c).2.blur = c.blur := by
  unfold hashContent
  split
  · unfold transcriptUpdate
    rcases c.transcript.update d s _ with ⟨r | b, t'⟩
    · rfl
    · cases b <;> rfl
  · rfl
  · rfl

theorem Conn.Opened.of {c d : Conn} (h : c.Opened) (e : d.fade = c.fade) : d.Opened :=
  (congrArg Conn.state e).trans h

theorem step_fade {c c' : Conn} {b : Bool} (hc : c.Opened) (h : receiveStep E c = (.ok b, c')) :
    c'.fade = c.fade := by
  unfold receiveStep at h
  rw [M.bind_def] at h
  have h1 := readNextContent_blur (E := E) c
  rcases hr : readNextContent E c with ⟨e | _ | ⟨t, data⟩, c₁⟩
  · rw [hr] at h; cases h
  · rw [hr] at h h1; cases h; exact Conn.fade_of h1
  · rw [hr] at h h1
    dsimp only at h h1
    change ((M.lift (decodeContent E c₁.certType t data) >>= _) c₁) = _ at h
    rw [M.bind_def] at h
    cases hd : decodeContent E c₁.certType t data with
    | error e => rw [hd] at h; cases h
    | ok x =>
      rw [hd] at h
      change ((hashContent data c₁.config.side.other x >>= _) c₁) = _ at h
      rw [M.bind_def] at h
      have h2 := hash_blur data c₁.config.side.other x c₁
      rcases hh : hashContent data c₁.config.side.other x c₁ with ⟨e | u, c₂⟩
      · rw [hh] at h; cases h
      · rw [hh] at h h2
        change (process E x >>= fun _ => pure true) { c₂ with tr := .recv x :: c₂.tr } = _ at h
        rw [M.bind_def] at h
        have h3 : ({ c₂ with tr := .recv x :: c₂.tr } : Conn).fade = c.fade :=
          Conn.fade_of (h2.trans h1)
        rcases hp : process E x { c₂ with tr := .recv x :: c₂.tr } with ⟨e | u, c₃⟩
        · rw [hp] at h; cases h
        · rw [hp] at h
          cases h
          exact (process_fade (hc.of h3) hp).trans h3

theorem loop_fade : ∀ (n : Nat) {c c' : Conn}, c.Opened → receiveLoop E n c = (.ok (), c') → c'.fade = c.fade
  | 0, _, _, _, h => by cases h
  | n + 1, c, c', hc, h => by
    unfold receiveLoop at h
    rcases hs : receiveStep E c with ⟨e | _ | _, d⟩
    · rw [hs] at h
      dsimp only at h
      rcases hf : failWith E (alertFor e) d with ⟨_ | _, d'⟩ <;> rw [hf] at h <;> cases h
    · rw [hs] at h; cases h; exact step_fade hc hs
    · rw [hs] at h
      have h1 := step_fade hc hs
      exact (loop_fade n (hc.of h1) h).trans h1

theorem receive_fade {d : Bytes} {c c' : Conn} (hc : c.Opened) (h : (Op.receive d).run E c = (.ok [], c')) :
    c'.fade = c.fade := by
  have h1 : receiveData E d c = (.ok (), c') := by
    rw [Op.run, M.bind_def] at h
    rcases hr : receiveData E d c with ⟨e | u, x⟩ <;> rw [hr] at h <;> cases h
    rfl
  obtain ⟨_, _, h3, _⟩ := receiveData_ok h1
  exact (loop_fade (c := c.fed d) _ hc h3).trans rfl

theorem receive_blur {d : Bytes} {c c' : Conn} (hc : c.Opened) (h : (Op.receive d).run E c = (.ok [], c'))
    (ha : c'.applicationData = c.applicationData) : c'.blur = c.blur := by
  have := receive_fade hc h
  have e : ∀ x : Conn, x.blur = { x.fade with applicationData := x.applicationData } := fun _ => rfl
  rw [e c', e c, this, ha]

/-! ## The end of a session -/

theorem encounter_append : ∀ (ms ks : List (Bool × Deed)) (a b : Party), encounter E E' (ms ++ ks) a b =
    ((encounter E E' ms a b).1 ++ (encounter E E' ks (encounter E E' ms a b).2.1 (encounter E E' ms a b).2.2).1,
      (encounter E E' ks (encounter E E' ms a b).2.1 (encounter E E' ms a b).2.2).2)
  | [], _, _, _ => rfl
  | (true, m) :: ms, ks, a, b => by
    rw [List.cons_append, encounter, encounter]
    dsimp only
    rw [encounter_append ms ks]
    rfl
  | (false, m) :: ms, ks, a, b => by
    rw [List.cons_append, encounter, encounter]
    dsimp only
    rw [encounter_append ms ks]
    rfl

/-- a program that closes at the end is as civil as before -/
theorem Spec.Civil.ending {ms : List (Bool × Deed)} (h : Civil ms) (hn : ∀ s, (s, .close) ∉ ms) (side : Bool)
    (n : Nat) : Civil (ms ++ ending side n) := by
  refine ⟨fun s d hm => ?_, fun s => ?_, fun s => ?_⟩
  · rcases List.mem_append.mp hm with hm | hm
    · exact h.sizes s d hm
    · simp [Spec.ending] at hm
  · have : saysBy s ms < 10000000 := h.count s
    have e : saysBy s (ms ++ Spec.ending side n) = saysBy s ms := by
      unfold saysBy
      rw [List.filter_append, List.length_append]
      simp [Spec.ending]
    show saysBy s (ms ++ Spec.ending side n) < 10000000
    rw [e]
    exact this
  · induction ms with
    | nil => cases s <;> cases side <;> simp [Spec.ending, Polite]
    | cons m ms ih =>
      obtain ⟨x, d⟩ := m
      cases d with
      | close => exact absurd List.mem_cons_self (hn x)
      | talk m =>
        have h' : Civil ms := by
          refine ⟨fun s d hm => h.sizes s d (List.mem_cons_of_mem _ hm), fun s => ?_, fun s => h.polite s⟩
          refine Nat.lt_of_le_of_lt ?_ (h.count s)
          exact ((List.sublist_cons_self _ _).filter _).length_le
        exact ih h' fun s hs => hn s (List.mem_cons_of_mem _ hs)

theorem play_deliver {q x : Party} {n : Nat} (hr : raised ((Move.deliver n).play E q x).1 = false)
    (hq : q.conn.Opened) :
    ((Move.deliver n).play E q x).2.1.got = q.got ∧
    (((Move.deliver n).play E q x).2.1.conn.applicationData = q.conn.applicationData →
      ((Move.deliver n).play E q x).2.1.conn.blur = q.conn.blur) := by
  unfold Move.play at hr ⊢
  dsimp only at hr ⊢
  split at hr
  · rename_i h
    rw [if_pos h]
    exact ⟨rfl, fun _ => rfl⟩
  · rename_i h
    rw [if_neg h]
    refine ⟨rfl, fun ha => ?_⟩
    rcases hm : (Op.receive (x.wire.take n)).run E q.conn with ⟨e | v, c'⟩
    · rw [hm] at hr; cases hr
    · have hv : v = [] := by
        rw [Op.run, M.bind_def] at hm
        rcases hr : receiveData E (x.wire.take n) q.conn with ⟨e | u, y⟩ <;> rw [hr] at hm <;> cases hm
        rfl
      subst hv
      rw [hm] at ha
      exact receive_blur hq hm ha

theorem play_peer (q x : Party) (n : Nat) : ((Move.deliver n).play E q x).2.2.conn = x.conn ∧
    ((Move.deliver n).play E q x).2.2.sent = x.sent := by
  unfold Move.play
  dsimp only
  split <;> exact ⟨rfl, rfl⟩

/-- what the end of the other side makes of the last message -/
theorem last_words {p q x : Party} {n : Nat} {X Y : Prop} (hr : raised ((Move.deliver n).play E q x).1 = false)
    (d : Delivers p q) (i : Informed p q False False) (hd : p.conn.outputData = [] ∧ p.wire = [])
    (hx : x.conn.outputData = []) (hs : x.sent = p.sent)
    (hw : ((Move.deliver n).play E q x).2.2.wire = [])
    (d' : Delivers ((Move.deliver n).play E q x).2.2 ((Move.deliver n).play E q x).2.1)
    (i' : Informed ((Move.deliver n).play E q x).2.2 ((Move.deliver n).play E q x).2.1 X Y) (hX : X) :
    q.conn.state ≠ ((Move.deliver n).play E q x).2.1.conn.state ∧
    ∀ ops, Offline ops → watch E ops q.conn = watch E ops ((Move.deliver n).play E q x).2.1.conn := by
  have hst : q.conn.state = .connected := by
    rcases i.sound with h | h | h
    · exact h
    · exact h.elim
    · exact h.1.elim
  have hq : q.conn.Opened := by unfold Conn.Opened; rw [hst]; rfl
  obtain ⟨h1, h2⟩ := play_peer (E := E) q x n
  obtain ⟨h3, h4⟩ := play_deliver hr hq
  have ha : ((Move.deliver n).play E q x).2.1.conn.applicationData = q.conn.applicationData := by
    have e1 := d.everything hd.1 hd.2
    have e2 := d'.everything (by rw [h1]; exact hx) hw
    rw [h2, hs, ← e1, h3] at e2
    exact List.append_cancel_left e2
  refine ⟨?_, fun ops ho => watch_blur ops ho (h4 ha).symm (by rw [hst]; rfl)⟩
  rw [hst]
  exact (i'.complete hX (by rw [h1]; exact hx) hw).symm

theorem undetected {a b : Conn} (h : Farewell E a E' b) : Undetected E a E' b := by
  intro side ms n o k H
  obtain ⟨-, -, -, d1, d2, i1, i2⟩ := h ms H.civil
  obtain ⟨r', -, -, d1', d2', i1', i2'⟩ := h _ (H.civil.ending H.nobody side n)
  have hdel := H.delivered
  have hnot := H.notified
  obtain rfl := H.first
  obtain rfl := H.second
  have hn : ∀ s, ((s, .close) ∈ ms) = False := fun s => eq_false (H.nobody s)
  rw [hn, hn] at i1 i2
  rw [encounter_append] at r' d1' d2' i1' i2' hnot ⊢
  generalize encounter E E' ms ⟨a, [], [], []⟩ ⟨b, [], [], []⟩ = t at *
  obtain ⟨rs, p, q⟩ := t
  dsimp only at *
  have hm : ((side, .close) : Bool × Deed) ∈ ms ++ ending side n := by simp [Spec.ending]
  cases side with
  | true => 
    refine last_words ?_ d1 i1 hdel rfl rfl hnot d1' i1' hm
    exact r' _ (List.mem_append_right _ (List.mem_cons_of_mem _ (List.mem_cons_of_mem _ List.mem_cons_self)))
  | false => 
    refine last_words ?_ d2 i2 hdel rfl rfl hnot d2' i2' hm
    exact r' _ (List.mem_append_right _ (List.mem_cons_of_mem _ (List.mem_cons_of_mem _ List.mem_cons_self)))

/-- whenever everything was delivered, a program may close and the network may deliver that too -/
theorem closing_of {a b : Conn} {ms : List (Bool × Deed)} (side : Bool) (hc : Civil ms) (hn : ∀ s, (s, .close) ∉ ms)
    (hd : (pick side (encounter E E' ms ⟨a, [], [], []⟩ ⟨b, [], [], []⟩).2).conn.outputData = [] ∧
      (pick side (encounter E E' ms ⟨a, [], [], []⟩ ⟨b, [], [], []⟩).2).wire = []) :
    ∃ n o k, Closing E a E' b side ms n o k := by
  have key : ∀ (E : Env) (q x : Party), ((Move.deliver x.wire.length).play E q x).2.2.wire = [] := by
    intro E q x
    unfold Move.play
    dsimp only
    split
    · rename_i h; rwa [List.take_length] at h
    · exact List.drop_length
  refine ⟨(pick side (encounter E E' (ms ++ [(side, .close), (side, .talk .drain)]) ⟨a, [], [], []⟩
    ⟨b, [], [], []⟩).2).wire.length, _, _, hc, hn, hd, ?_, rfl, rfl⟩
  rw [encounter_append, encounter_append]
  generalize encounter E E' ms ⟨a, [], [], []⟩ ⟨b, [], [], []⟩ = t
  cases side
  · exact key _ _ _
  · exact key _ _ _

end Siotls
