import Verif.Proofs.Raises
import Verif.Proofs.Split
import Verif.Proofs.AlgInv
import Verif.Proofs.SendOne
import Verif.Proofs.Alive
/-!
# Failures and closures
-/

namespace Siotls
open Spec

variable {E : Env} {G : Conn → Prop}

/-! ## Nothing is said any more -/

theorem keyEvents_silent (l : List PyStr) (k k' : CipherSt) :
    ∀ e ∈ keyEvents l k k', audible e = false := by
  intro e he
  rcases mem_keyEvents he with ⟨_, _, rfl⟩ | ⟨_, _, rfl⟩ | ⟨_, _, rfl⟩ <;> rfl

/-- the new events of a step: only sending and delivering are audible -/
theorem Step.news {c c' : Conn} (h : Step E G c c') : ∃ new, c'.tr = new ++ c.tr ∧
    ((∀ e ∈ new, audible e = false) ∨
     (c.state.canSend = true ∧ ∀ e ∈ new, ∀ d, e ≠ .delivered d) ∨
     ((c.state = .connected ∨ ∃ s, c.state = .closed true s) ∧ ∃ d, new = [.delivered d])) := by
  have same : ∀ c' : Conn, c'.tr = c.tr → ∃ new, c'.tr = new ++ c.tr ∧
    ((∀ e ∈ new, audible e = false) ∨ (c.state.canSend = true ∧ ∀ e ∈ new, ∀ d, e ≠ .delivered d) ∨
     ((c.state = .connected ∨ ∃ s, c.state = .closed true s) ∧ ∃ d, new = [.delivered d])) :=
    fun c' h => ⟨[], h, .inl (by simp)⟩
  have one : ∀ (c' : Conn) (new : List Ev), c'.tr = new ++ c.tr → (∀ e ∈ new, audible e = false) →
    ∃ new, c'.tr = new ++ c.tr ∧
    ((∀ e ∈ new, audible e = false) ∨ (c.state.canSend = true ∧ ∀ e ∈ new, ∀ d, e ≠ .delivered d) ∨
     ((c.state = .connected ∨ ∃ s, c.state = .closed true s) ∧ ∃ d, new = [.delivered d])) :=
    fun c' new h hn => ⟨new, h, .inl hn⟩
  cases h with
  | gotHandshake => exact one _ [_] rfl (by simp [audible])
  | gotOther => exact one _ [_] rfl (by simp [audible])
  | opened => exact one _ [_] rfl (by simp [audible])
  | sealed => exact one _ [_] rfl (by simp [audible])
  | received => exact one _ [_] rfl (by simp [audible])
  | receivedHs =>
    rename_i b _ _ _ _ _
    cases b
    · exact one _ [_] rfl (by simp [audible])
    · exact one _ [_, _] rfl (by simp [audible])
  | hashSent =>
    rename_i b _ _ _ _ _
    cases b
    · exact same _ rfl
    · exact one _ [_] rfl (by simp [audible])
  | emit hs _ =>
    rename_i c₀ x rs _
    refine ⟨.sent _ :: (rs.map fun r => Ev.record r.1 r.2.1).reverse, rfl, .inr (.inl ⟨?_, ?_⟩)⟩
    · rw [hs.same]; exact hs.canSend
    · intro e he d hd
      rcases List.mem_cons.mp he with rfl | he
      · cases hd
      · subst hd
        simp at he
  | delivered hr hs => exact ⟨[_], rfl, .inr (.inr ⟨hs, _, rfl⟩)⟩
  | handshakeKeys => exact one _ _ rfl (keyEvents_silent _ _ _)
  | masterKeys => exact one _ _ rfl (keyEvents_silent _ _ _)
  | _ => exact same _ rfl

/-- the new part of the trace is silent -/
def Silent (c c' : Conn) : Prop := ∃ new, c'.tr = new ++ c.tr ∧ ∀ e ∈ new, audible e = false

theorem Silent.refl (c : Conn) : Silent c c := ⟨[], rfl, by simp⟩

theorem Silent.trans {a b c : Conn} (h : Silent a b) (h' : Silent b c) : Silent a c := by
  obtain ⟨n, h1, h2⟩ := h
  obtain ⟨m, h3, h4⟩ := h'
  refine ⟨m ++ n, by rw [h3, h1, List.append_assoc], fun e he => ?_⟩
  rcases List.mem_append.mp he with he | he
  · exact h4 e he
  · exact h2 e he

theorem silent_wire {l : List Ev} (h : ∀ e ∈ l, audible e = false) :
    wire l = [] ∧ deliveredData l = [] := by
  induction l with
  | nil => exact ⟨rfl, rfl⟩
  | cons e l ih =>
    have he := h e List.mem_cons_self
    have hl := ih fun e he => h e (List.mem_cons_of_mem _ he)
    cases e <;> first | exact hl | cases he

/-! ## Transitions after the handshake -/

theorem MoveOk.late {c : Conn} {s : St} (h : MoveOk E c s) (hp : c.state.isPostHandshake = true) :
    (s = .closed true true ∧ c.state.canReceive = true ∧ c.state ≠ .failed ∧
      ∃ level, c.tr.head? = some (.recv (.alert level Iana.closeNotify))) ∨
    (s = .failed ∧ c.state.canSend = true ∧ ∃ d, c.tr.head? = some (.sent (.alert Iana.fatal d))) := by
  have no : ∀ {t : St}, c.state = t → t.isPostHandshake = false → False := by
    rintro t rfl h; rw [hp] at h; cases h
  cases h with
  | closeNotify h1 h2 h3 => exact .inl ⟨rfl, h2, h3, _, h1⟩
  | failed h1 h2 => exact .inr ⟨rfl, h2, _, h1⟩
  | clientHello h => exact (no h rfl).elim
  | serverHello h => exact (no h rfl).elim
  | extensions h => exact (no h rfl).elim
  | request h => exact (no h rfl).elim
  | noRequest h => exact (no h rfl).elim
  | certificate h => exact (no h rfl).elim
  | verify h => exact (no h rfl).elim
  | clientDone h => exact (no h rfl).elim
  | serverInit h => exact (no h rfl).elim
  | serverHrr h => exact (no h rfl).elim
  | serverFinished h => exact (no h rfl).elim
  | serverDone h => exact (no h rfl).elim

theorem Step.late {c c' : Conn} (h : Step E G c c') (hp : c.state.isPostHandshake = true) :
    c'.state = c.state ∨ (c'.tr = c.tr ∧
    ((c'.state = .closed true true ∧ c.state.canReceive = true ∧ c.state ≠ .failed ∧
      ∃ level, c.tr.head? = some (.recv (.alert level Iana.closeNotify))) ∨
    (c'.state = .failed ∧ c.state.canSend = true ∧
      ∃ d, c.tr.head? = some (.sent (.alert Iana.fatal d))))) := by
  cases h with
  | move hm => exact .inr ⟨rfl, hm.late hp⟩
  | hrrServer h | retry h => rw [h] at hp; cases hp
  | _ => exact .inl rfl

/-! ## After a failure -/

theorem Step.failed {c c' : Conn} (h : Step E G c c') (hf : c.state = .failed) :
    c'.state = .failed ∧ Silent c c' := by
  constructor
  · rcases h.late (by rw [hf]; rfl) with h | ⟨_, ⟨_, _, h, _⟩ | ⟨h, _⟩⟩
    · rw [h, hf]
    · exact absurd hf h
    · exact h
  · obtain ⟨new, h1, h2 | h2 | h2⟩ := h.news
    · exact ⟨new, h1, h2⟩
    · rw [hf] at h2; exact absurd h2.1 (by decide)
    · rw [hf] at h2
      rcases h2.1 with h | ⟨s, h⟩ <;> cases h

theorem Steps.failed {c c' : Conn} (h : Steps E G c c') (hf : c.state = .failed) :
    c'.state = .failed ∧ Silent c c' := by
  induction h with
  | refl => exact ⟨hf, .refl c⟩
  | tail _ hs ih => exact ⟨(hs.failed ih.1).1, ih.2.trans (hs.failed ih.1).2⟩

theorem Op.failed (o : Op) (ho : o ≠ .closeRecv) {c : Conn} (hf : c.state = .failed) :
    (o.run E c).2.state = .failed ∧ Silent c (o.run E c).2 := by
  cases o with
  | read => exact ⟨hf, [], rfl, by simp⟩
  | drain => exact ⟨hf, [], rfl, by simp⟩
  | initiate =>
    rw [Op.run, wrap_snd]
    exact (initiate_steps (E := E) (G := fun _ => True) c).failed hf
  | receive d =>
    rw [Op.run, wrap_snd]
    rcases receiveData_steps (E := E) (G := fun _ => True) d c (.inl fun _ => trivial) with h | ⟨_, h⟩
    · rw [h]; exact ⟨hf, .refl c⟩
    · exact h.failed hf
  | send d =>
    rw [Op.run, wrap_snd]
    exact (sendData_steps (E := E) (G := fun _ => True) d c).failed hf
  | closeRecv => exact absurd rfl ho
  | closeSend =>
    rw [Op.run, wrap_snd, closeSendingEnd_eq, hf]
    exact ⟨rfl, [], rfl, by simp⟩
  | rekey =>
    rw [Op.run, wrap_snd]
    unfold Siotls.rekey
    split <;> exact ⟨hf, .refl c⟩

theorem runOps_failed (ops : List Op) (ho : .closeRecv ∉ ops) {c : Conn} (hf : c.state = .failed) :
    (runOps E ops c).state = .failed ∧ Silent c (runOps E ops c) := by
  induction ops generalizing c with
  | nil => exact ⟨hf, .refl c⟩
  | cons o os ih =>
    obtain ⟨h1, h2⟩ := o.failed (E := E) (fun h => ho (h ▸ List.mem_cons_self)) hf
    obtain ⟨h3, h4⟩ := ih (fun h => ho (List.mem_cons_of_mem _ h)) h1
    exact ⟨h3, h2.trans h4⟩

/-! ## After the receiving end was closed -/

/-- no content is handed to the application in these states -/
def St.deaf : St → Bool
  | .failed => true
  | .closed r _ => !r
  | _ => false

theorem Step.deaf {c c' : Conn} (h : Step E G c c') (hd : c.state.deaf = true) :
    c'.state.deaf = true ∧ deliveredData c'.tr = deliveredData c.tr := by
  have hp : c.state.isPostHandshake = true := by
    cases hs : c.state <;> rw [hs] at hd <;> first | rfl | cases hd
  constructor
  · rcases h.late hp with h | ⟨_, ⟨_, h1, h2, _⟩ | ⟨h, _⟩⟩
    · rw [h]; exact hd
    · cases hs : c.state <;> rw [hs] at hd h1 h2 <;> first | exact absurd rfl h2 | cases hd | skip
      rename_i r _
      cases r
      · cases h1
      · cases hd
    · rw [h]; rfl
  · obtain ⟨new, h1, h2 | h2 | h2⟩ := h.news
    · rw [h1, deliveredData_append, (silent_wire h2).2, List.append_nil]
    · rw [h1, deliveredData_append]
      have : ∀ l : List Ev, (∀ e ∈ l, ∀ d, e ≠ .delivered d) → deliveredData l = [] := by
        intro l hl
        induction l with
        | nil => rfl
        | cons e l ih =>
          have he := hl e List.mem_cons_self
          have := ih fun e he => hl e (List.mem_cons_of_mem _ he)
          cases e <;> first | exact this | exact absurd rfl (he _)
      rw [this new h2.2, List.append_nil]
    · rcases h2.1 with h | ⟨s, h⟩ <;> rw [h] at hd <;> cases hd

theorem Api.deaf {c c' : Conn} (h : Api E G c c') (hd : c.state.deaf = true) :
    c'.state.deaf = true ∧ deliveredData c'.tr = deliveredData c.tr := by
  cases h with
  | step h => exact h.deaf hd
  | appended => exact ⟨hd, rfl⟩
  | read => exact ⟨hd, rfl⟩
  | drain => exact ⟨hd, rfl⟩
  | closeRecv =>
    unfold closeReceivingEnd
    cases hs : c.state <;> rw [hs] at hd <;> first | cases hd; done | exact ⟨rfl, rfl⟩
  | closing =>
    cases hs : c.state <;> rw [hs] at hd <;> first | cases hd; done | exact ⟨hd, rfl⟩
  | closedSend hs =>
    rw [hs] at hd
    exact ⟨hd, rfl⟩

theorem closeReceivingEnd_deaf (c : Conn) : (closeReceivingEnd c).2.state.deaf = true := by
  unfold closeReceivingEnd
  cases c.state <;> rfl

theorem runOps_deaf (ops : List Op) {c : Conn} (hd : c.state.deaf = true) :
    (runOps E ops c).state.deaf = true ∧
      deliveredData (runOps E ops c).tr = deliveredData c.tr :=
  runOps_inv (I := fun c' => c'.state.deaf = true ∧ deliveredData c'.tr = deliveredData c.tr)
    (fun _ _ hi ha => ⟨(ha.deaf hi.1).1, (ha.deaf hi.1).2.trans hi.2⟩) ⟨hd, rfl⟩ ops

/-! ## After the sending end was closed -/

/-- nothing was sent, unless the peer closed -/
def Hushed (c c' : Conn) : Prop := ∃ new, c'.tr = new ++ c.tr ∧
  (((∃ r, c'.state = .closed r false) ∧ wire new = [] ∧ sentContents new = []) ∨ closeNotified new)

theorem sentContents_append (l m : List Ev) :
    sentContents (l ++ m) = sentContents l ++ sentContents m := by
  induction l with
  | nil => rfl
  | cons e l ih => cases e <;> simp [sentContents, ih]

theorem silent_sent {l : List Ev} (h : ∀ e ∈ l, audible e = false) : sentContents l = [] := by
  induction l with
  | nil => rfl
  | cons e l ih =>
    have he := h e List.mem_cons_self
    have hl := ih fun e he => h e (List.mem_cons_of_mem _ he)
    cases e <;> first | exact hl | cases he

theorem Api.suffix' {c c' : Conn} (h : Api E G c c') : ∃ new, c'.tr = new ++ c.tr := by
  obtain ⟨n, hn⟩ := h.suffix
  exact ⟨n, hn.symm⟩

theorem closeNotified_append {l m : List Ev} (h : closeNotified m) : closeNotified (l ++ m) := by
  obtain ⟨x, h⟩ := h
  exact ⟨x, List.mem_append_right _ h⟩

theorem Hushed.api {c₀ c c' : Conn} {x : Content} (h₀ : c₀.tr.head? = some (.sent x))
    (h : Hushed c₀ c) (hs : Api E G c c') : Hushed c₀ c' := by
  obtain ⟨new, h1, ⟨⟨r, hr⟩, hw, hn⟩ | hc⟩ := h
  · have keep : ∀ c' : Conn, c'.tr = c.tr → (∃ r, c'.state = .closed r false) → Hushed c₀ c' :=
      fun c' ht hs => ⟨new, by rw [ht, h1], .inl ⟨hs, hw, hn⟩⟩
    cases hs with
    | step hs =>
      obtain ⟨n, e, g⟩ := hs.news
      rcases hs.late (by rw [hr]; rfl) with hst | ⟨ht, ⟨hst, _, _, level, hh⟩ | ⟨_, h, _⟩⟩
      · rcases g with g | ⟨g, _⟩ | ⟨g, d, rfl⟩
        · refine ⟨n ++ new, by rw [e, h1, List.append_assoc], .inl ⟨⟨r, by rw [hst, hr]⟩, ?_, ?_⟩⟩
          · rw [wire_append, hw, (silent_wire g).1]; rfl
          · rw [sentContents_append, hn, silent_sent g]; rfl
        · rw [hr] at g; cases g
        · refine ⟨_ :: new, by rw [e, h1]; rfl, .inl ⟨⟨r, by rw [hst, hr]⟩, ?_, ?_⟩⟩
          · rw [wire]; exact hw; all_goals simp
          · rw [sentContents]; exact hn; all_goals simp
      · refine ⟨new, by rw [ht, h1], .inr ⟨level, ?_⟩⟩
        rw [h1] at hh
        cases new with
        | nil => rw [List.nil_append, h₀] at hh; cases hh
        | cons e l =>
          rw [List.cons_append, List.head?_cons] at hh
          cases hh
          exact List.mem_cons_self
      · rw [hr] at h; cases h
    | appended => exact keep _ rfl ⟨r, hr⟩
    | read => exact keep _ rfl ⟨r, hr⟩
    | drain => exact keep _ rfl ⟨r, hr⟩
    | closeRecv =>
      unfold closeReceivingEnd
      rw [hr]
      exact keep _ rfl ⟨_, rfl⟩
    | closing => exact keep _ rfl ⟨r, by rw [hr]; rfl⟩
    | closedSend => exact keep _ rfl ⟨_, rfl⟩
  · obtain ⟨n, e⟩ := hs.suffix'
    exact ⟨n ++ new, by rw [e, h1, List.append_assoc], .inr (closeNotified_append hc)⟩

theorem runOps_hushed {c₀ : Conn} {x : Content} {r : Bool} (h₀ : c₀.tr.head? = some (.sent x))
    (hs : c₀.state = .closed r false) (ops : List Op) : Hushed c₀ (runOps E ops c₀) :=
  runOps_inv (I := Hushed c₀) (fun _ _ hi ha => hi.api h₀ ha) ⟨[], rfl, .inl ⟨⟨r, hs⟩, rfl, rfl⟩⟩ ops

theorem sendAlert_news {c c' : Conn} {l d : Nat} {u : Unit}
    (h : sendContent E (.alert l d) c = (.ok u, c')) : c.state.canSend = true ∧
    ∃ new, c'.tr = .sent (.alert l d) :: (new ++ c.tr) ∧
      sentContents new = [] ∧ deliveredData new = [] := by
  have hs := (run_sendContent (E := E) (G := fun _ => True) (c := c) (content := .alert l d)
    fun _ => trivial).2 u (by rw [h])
  rw [h] at hs
  obtain ⟨c₁, rs, ctx, hc⟩ := hs
  dsimp only at hc
  obtain ⟨data, _, _, seals, hs, htr, hseal, _, hhs, _⟩ := ctx.data
  have : hs = [] := by
    rcases hhs with ⟨_, h, _⟩ | h
    · cases h
    · exact h.1
  subst this
  refine ⟨ctx.canSend, (rs.map fun r => Ev.record r.1 r.2.1).reverse ++ seals, ?_, ?_, ?_⟩
  · rw [hc]
    simp only [emitRecords, M.modify, htr, List.nil_append, List.append_assoc]
  · rw [sentContents_append]
    have h1 : ∀ l : List Ev, (∀ e ∈ l, ∀ x, e ≠ .sent x) → sentContents l = [] := by
      intro l hl
      induction l with
      | nil => rfl
      | cons e l ih =>
        have he := hl e List.mem_cons_self
        have := ih fun e he => hl e (List.mem_cons_of_mem _ he)
        cases e <;> first | exact this | exact absurd rfl (he _)
    rw [h1 _ fun e he x hx => by subst hx; simp at he,
      h1 _ fun e he x hx => by subst hx; obtain ⟨_, _, _, _, _, h⟩ := hseal _ he; cases h]
    rfl
  · rw [deliveredData_append, deliveredData_records]
    have h1 : ∀ l : List Ev, (∀ e ∈ l, ∀ x, e ≠ .delivered x) → deliveredData l = [] := by
      intro l hl
      induction l with
      | nil => rfl
      | cons e l ih =>
        have he := hl e List.mem_cons_self
        have := ih fun e he => hl e (List.mem_cons_of_mem _ he)
        cases e <;> first | exact this | exact absurd rfl (he _)
    rw [h1 _ fun e he x hx => by subst hx; obtain ⟨_, _, _, _, _, h⟩ := hseal _ he; cases h]
    rfl

/-- `close_sending_end` that returns: one close_notify and nothing else -/
theorem closeSendingEnd_ok {c c' : Conn} (hc : c.state.canSend = true)
    (h : closeSendingEnd E c = (.ok (), c')) :
    (∃ r, c'.state = .closed r false) ∧
    ∃ new, c'.tr = .sent (.alert Iana.warning Iana.closeNotify) :: (new ++ c.tr) ∧
      sentContents new = [] ∧ deliveredData new = [] := by
  have hcan : c.state.closing.canSend = true := by
    cases hs : c.state <;> rw [hs] at hc <;> first | rfl | exact hc
  have hcl : ∃ r, c.state.closing = .closed r true := by
    cases hs : c.state <;> rw [hs] at hc <;> first | exact ⟨_, rfl⟩ | (cases hc; exact ⟨_, rfl⟩) | cases hc
  rw [closeSendingEnd_eq, if_pos hcan] at h
  rcases hm : sendContent E (.alert Iana.warning Iana.closeNotify) { c with state := c.state.closing }
    with ⟨r, c₂⟩
  rw [hm] at h
  cases r with
  | error e => cases h
  | ok u =>
  cases h
  have hst := sendContent_state (E := E) (.alert Iana.warning Iana.closeNotify)
    { c with state := c.state.closing }
  rw [hm] at hst
  obtain ⟨r, hcl⟩ := hcl
  refine ⟨⟨r, ?_⟩, ?_⟩
  · dsimp only at hst
    simp only [closeTail, hst, hcl]
  · exact (sendAlert_news hm).2

/-! ## What one turn of the loop adds to the trace -/

/-- events of reading -/
def Ev.read : Ev → Bool
  | .got .. | .opened .. => true
  | _ => false

/-- what reading touches, however it ends -/
structure Reading (c c' : Conn) : Prop where
  same : c' = { c with cipher := c'.cipher, tr := c'.tr, inputData := c'.inputData,
                       inputHandshake := c'.inputHandshake }
  wr : c'.cipher.map (fun k => (k.info, k.wr, k.side, k.cFin, k.sFin)) =
    c.cipher.map (fun k => (k.info, k.wr, k.side, k.cFin, k.sFin))
  news : ∃ new, c'.tr = new ++ c.tr ∧ ∀ e ∈ new, e.read = true

theorem Reading.refl (c : Conn) : Reading c c := ⟨rfl, rfl, [], rfl, by simp⟩

theorem Reading.state {c c' : Conn} (h : Reading c c') : c'.state = c.state := by rw [h.same]

theorem Reading.trans {a b c : Conn} (h : Reading a b) (h' : Reading b c) : Reading a c := by
  obtain ⟨n, h1, h2⟩ := h.news
  obtain ⟨m, h3, h4⟩ := h'.news
  refine ⟨by rw [h'.same]; rw [h.same], h'.wr.trans h.wr, m ++ n, by rw [h3, h1, List.append_assoc], ?_⟩
  intro e he
  rcases List.mem_append.mp he with he | he
  · exact h4 e he
  · exact h2 e he

theorem reading_useRecord (outer : Nat) (header frag : Bytes) (c : Conn) :
    Reading c (useRecord E outer header frag c).2 := by
  have hd : Reading c (decryptRecord E header frag c).2 := by
    unfold decryptRecord
    split
    · exact .refl c
    · next k hk =>
      split
      · exact .refl c
      · split
        · exact .refl c
        · dsimp only
          split
          · exact ⟨rfl, by simp [hk], [], rfl, by simp⟩
          · split <;> exact ⟨rfl, by simp [hk], [_], rfl, by simp [Ev.read]⟩
  unfold useRecord
  cases hm : c.mustDecrypt with
  | false =>
    simp only [Bool.false_eq_true, if_false]
    split <;> exact .refl c
  | true =>
    simp only [if_true]
    rcases hr : decryptRecord E header frag c with ⟨r, c'⟩
    rw [hr] at hd
    cases r with
    | error e => exact hd
    | ok x => obtain ⟨ct, f⟩ := x; dsimp only; split <;> exact hd

theorem reading_record (c : Conn) : Reading c (readNextRecord E c).2 := by
  cases nextRecord (E := E) c with
  | none _ h => rw [h]; exact ⟨rfl, rfl, [], rfl, by simp⟩
  | overflow _ h => rw [h]; exact ⟨rfl, rfl, [], rfl, by simp⟩
  | record outer header frag rest _ _ h =>
    rw [h]
    exact Reading.trans (b := { c with inputData := rest }) ⟨rfl, rfl, [], rfl, by simp⟩
      (reading_useRecord ..)

theorem reading_finish (c : Conn) : Reading c (finishHandshake c).2 := by
  unfold finishHandshake
  split
  · exact .refl c
  · exact ⟨rfl, rfl, [_], rfl, by simp [Ev.read]⟩

theorem reading_complete (fuel : Nat) (c : Conn) : Reading c (completeHandshake E fuel c).2 := by
  induction fuel generalizing c with
  | zero =>
    unfold completeHandshake
    split
    · exact .refl c
    · exact reading_finish c
  | succ n ih =>
    rw [completeHandshake]
    dsimp only
    split
    · have := reading_record (E := E) c
      rcases hm : readNextRecord E c with ⟨r, c'⟩
      rw [hm] at this
      cases r with
      | error e => exact this
      | ok r =>
        cases r with
        | none => exact this
        | some r =>
          obtain ⟨ct, fr⟩ := r
          dsimp only
          split
          · exact this
          · refine this.trans (Reading.trans ?_ (ih _))
            exact ⟨rfl, rfl, [], rfl, by simp⟩
    · exact reading_finish c

theorem reading_content (c : Conn) : Reading c (readNextContent E c).2 := by
  unfold readNextContent
  have := reading_record (E := E) c
  rcases hm : readNextRecord E c with ⟨r, c'⟩
  rw [hm] at this
  cases r with
  | error e => exact this
  | ok r =>
    cases r with
    | none => exact this
    | some r =>
      obtain ⟨ct, fr⟩ := r
      dsimp only
      split
      · exact this.trans ⟨rfl, rfl, [_], rfl, by simp [Ev.read]⟩
      split
      · exact this
      split
      · exact this.trans ⟨rfl, rfl, [], rfl, by simp⟩
      · refine this.trans (Reading.trans ?_ (reading_complete _ _))
        exact ⟨rfl, rfl, [], rfl, by simp⟩

/-- a program that never leaves a state that can send for one that cannot, nor enters `failed` -/
def Lively {α} (m : M α) : Prop := ∀ c, (m c).2.state = c.state ∨ (m c).2.state.canSend = true

theorem Lively.bind {α β} {m : M α} {g : α → M β} (h : Lively m) (hg : ∀ a, Lively (g a)) :
    Lively (m >>= g) := by
  intro c
  rw [M.bind_def]
  have hm := h c
  rcases hr : m c with ⟨r, c'⟩
  rw [hr] at hm
  cases r with
  | error e => exact hm
  | ok a =>
    rcases hg a c' with h1 | h1
    · rcases hm with hm | hm
      · exact .inl (h1.trans hm)
      · exact .inr (by rw [h1]; exact hm)
    · exact .inr h1

theorem Pres.lively {α} {m : M α} (h : Pres Conn.state m) : Lively m := fun c => .inl (h c)

theorem Built.lively {α} {m : M α} (h : Built E m) : Lively m := by
  induction h with
  | pure a => exact (Pres.pure _).lively
  | throw e => exact (Pres.throw _).lively
  | lift r => exact (Pres.lift _).lively
  | bind _ _ h1 h2 => exact Lively.bind h1 h2
  | get _ hl h => exact Lively.bind Pres.get.lively h
  | nextDraw => intro c; exact .inl rfl
  | getNc => intro c; unfold Siotls.getNc; split <;> exact .inl rfl
  | setNc f =>
    intro c
    unfold Siotls.setNc
    split
    · split <;> exact .inl rfl
    · exact .inl rfl
  | getCipher => intro c; unfold Siotls.getCipher; split <;> exact .inl rfl
  | digest => intro c; exact .inl rfl
  | postInit x => intro c; unfold transcriptPostInit; split <;> exact .inl rfl
  | hrr s x => intro c; unfold transcriptHrr; split <;> exact .inl rfl
  | setConfig f => intro c; unfold Siotls.setConfig; split <;> exact .inl rfl
  | skipEarly =>
    intro c
    unfold cipherSkipEarly
    split
    · exact .inl rfl
    · split <;> exact .inl rfl
  | deriveHandshake s x =>
    intro c
    unfold cipherDeriveHandshake
    split <;> exact .inl rfl
  | deriveMaster s x =>
    intro c
    unfold cipherDeriveMaster
    split <;> exact .inl rfl
  | moveTo hs => intro c; exact .inr hs
  | modify n k s cu su hl => intro c; exact .inl rfl
  | send hx => intro c; exact .inl (sendContent_state _ _)

theorem lively_process (x : Content) : Lively (process E x) := by
  intro c
  have hc : (connectedProcess x c).2.state = c.state ∨
      (connectedProcess x c).2.state.canSend = true := by
    unfold connectedProcess
    split
    · exact .inl rfl
    · exact (built_baseProcess (E := E) _).lively _
  unfold process
  split
  · exact (built_baseProcess (E := E) _).lively _
  · exact (built_clientWaitSH _ _ _ _).lively _
  · exact (built_clientWaitEE (E := E) _).lively _
  · exact (built_clientWaitCertCr _).lively _
  · exact (built_clientWaitCert _ _).lively _
  · exact (built_clientWaitCV _ _ _).lively _
  · exact (built_clientWaitFin _ _ _).lively _
  · exact (built_baseProcess (E := E) _).lively _
  · exact (built_serverWaitCH _ _).lively _
  · exact (built_serverWaitFin _ _).lively _
  · exact hc
  · split
    · exact hc
    · exact .inl rfl
  · exact .inl rfl

/-- events of one turn in which `x` was received: nothing but `x` is received or delivered, and
nothing but handshake messages is sent -/
def Ev.turn (x : Option Content) : Ev → Prop
  | .recv y => x = some y
  | .sent y => y.plain = true
  | .delivered d => x = some (.applicationData d)
  | _ => True

/-- the result of a turn -/
structure Turned (x : Option Content) (c c' : Conn) : Prop where
  news : ∃ new, c'.tr = new ++ c.tr ∧ ∀ e ∈ new, Ev.turn x e
  state : c'.state = c.state ∨ c'.state.canSend = true

theorem Reading.turned {c c' : Conn} (h : Reading c c') : Turned none c c' := by
  obtain ⟨n, h1, h2⟩ := h.news
  refine ⟨⟨n, h1, fun e he => ?_⟩, .inl (by rw [h.same])⟩
  have := h2 e he
  cases e <;> first | trivial | cases this

theorem Effect.turned {x : Option Content} {c c' : Conn} (h : Effect Ev.own c c') :
    ∃ new, c'.tr = new ++ c.tr ∧ ∀ e ∈ new, Ev.turn x e := by
  obtain ⟨n, h1, h2, _⟩ := h.tr
  refine ⟨n, h1, fun e he => ?_⟩
  have := h2 e he
  cases e <;> first | trivial | exact this | cases this

theorem news_trans {P : Ev → Prop} {a b c : Conn} (h : ∃ new, b.tr = new ++ a.tr ∧ ∀ e ∈ new, P e)
    (h' : ∃ new, c.tr = new ++ b.tr ∧ ∀ e ∈ new, P e) : ∃ new, c.tr = new ++ a.tr ∧ ∀ e ∈ new, P e := by
  obtain ⟨n, h1, h2⟩ := h
  obtain ⟨m, h3, h4⟩ := h'
  refine ⟨m ++ n, by rw [h3, h1, List.append_assoc], ?_⟩
  intro e he
  rcases List.mem_append.mp he with he | he
  · exact h4 e he
  · exact h2 e he

theorem Turned.trans {x : Option Content} {a b c : Conn} (h : Turned none a b) (h' : Turned x b c) :
    Turned x a c := by
  refine ⟨news_trans ?_ h'.news, ?_⟩
  · obtain ⟨n, h1, h2⟩ := h.news
    refine ⟨n, h1, fun e he => ?_⟩
    have := h2 e he
    cases e <;> first | trivial | exact this | cases this
  · rcases h'.state with h1 | h1
    · rcases h.state with h2 | h2
      · exact .inl (h1.trans h2)
      · exact .inr (by rw [h1]; exact h2)
    · exact .inr h1

/-- the content handed to the state, if the turn went that far, and what the state did with it -/
theorem useContent_turned (ctype : Nat) (data : Bytes) (c : Conn) :
    (Turned none c (useContent E ctype data c).2 ∧ ∃ e, (useContent E ctype data c).1 = .error e) ∨
    ∃ x c₁, c₁.state = c.state ∧ Turned (some x) c (useContent E ctype data c).2 ∧
      decodeContent E c.certType ctype data = .ok x ∧
      process E x c₁ = (((useContent E ctype data c).1.map fun _ => ()), (useContent E ctype data c).2) := by
  unfold useContent
  rw [M.bind_def]
  simp only [M.get]
  rw [M.bind_def]
  cases hd : decodeContent E c.certType ctype data with
  | error e => exact .inl ⟨⟨⟨[], rfl, by simp⟩, .inl rfl⟩, e, rfl⟩
  | ok x =>
  simp only [M.lift]
  rw [M.bind_def]
  have hh := has_hash (P := fun e => ∃ s t d, e = .hashed s t d) (fun s t d => ⟨s, t, d, rfl⟩) data
    c.config.side.other x c
  have hst : (hashContent data c.config.side.other x c).2.state = c.state :=
    pres_hashContent aside_state _ _ _ _
  rcases h1 : hashContent data c.config.side.other x c with ⟨r, c₁⟩
  rw [h1] at hh hst
  obtain ⟨n, hn, hn', _⟩ := hh.tr
  have hnt : ∀ x, ∀ e ∈ n, Ev.turn x e := by
    intro x e he
    obtain ⟨_, _, _, rfl⟩ := hn' e he
    trivial
  cases r with
  | error e => exact .inl ⟨⟨⟨n, hn, hnt _⟩, .inl hst⟩, e, rfl⟩
  | ok _ =>
  dsimp only
  rw [M.bind_def]
  simp only [ghost, M.modify]
  rw [M.bind_def]
  have hp := process_effect (E := E) x { c₁ with tr := .recv x :: c₁.tr }
  have hl := lively_process (E := E) x { c₁ with tr := .recv x :: c₁.tr }
  rcases h2 : process E x { c₁ with tr := .recv x :: c₁.tr } with ⟨r, c₂⟩
  rw [h2] at hp hl
  refine .inr ⟨x, { c₁ with tr := .recv x :: c₁.tr }, hst, ?_, rfl, ?_⟩
  · have hnews : ∃ new, c₂.tr = new ++ c.tr ∧ ∀ e ∈ new, Ev.turn (some x) e := by
      refine news_trans (b := c₁) ⟨n, hn, hnt _⟩ (news_trans (b := { c₁ with tr := .recv x :: c₁.tr })
        ⟨[_], rfl, by simp [Ev.turn]⟩ ?_)
      rcases hp with hp | ⟨d, hx, _, _, he⟩
      · exact hp.turned
      · cases he
        exact ⟨[_], rfl, by simp [Ev.turn, hx]⟩
    have hs : c₂.state = c.state ∨ c₂.state.canSend = true := by
      rcases hl with h | h
      · exact .inl (h.trans hst)
      · exact .inr h
    cases r <;> exact ⟨hnews, hs⟩
  · rw [h2]
    cases r <;> rfl

/-- one turn of the loop -/
theorem receiveStep_turned (c : Conn) :
    (Turned none c (receiveStep E c).2 ∧ (receiveStep E c).1 ≠ .ok true) ∨
    ∃ x c₁, c₁.state = c.state ∧ Turned (some x) c (receiveStep E c).2 ∧
      process E x c₁ = (((receiveStep E c).1.map fun _ => ()), (receiveStep E c).2) := by
  rw [receiveStep_eq]
  have hr := reading_content (E := E) c
  rcases hm : readNextContent E c with ⟨r, c'⟩
  rw [hm] at hr
  cases r with
  | error e => exact .inl ⟨hr.turned, by simp⟩
  | ok r =>
    cases r with
    | none => exact .inl ⟨hr.turned, by simp⟩
    | some r =>
      obtain ⟨ct, d⟩ := r
      dsimp only
      rcases useContent_turned (E := E) ct d c' with ⟨h, e, he⟩ | ⟨x, c₁, h1, h2, _, h3⟩
      · exact .inl ⟨hr.turned.trans h, by rw [he]; simp⟩
      · exact .inr ⟨x, c₁, h1.trans hr.state, hr.turned.trans h2, h3⟩

/-! ## Fatal alerts of the peer -/

theorem process_fatal {c : Conn} {d : Nat} (hd : d ≠ 0) (hs : c.state ≠ .failed) :
    ∃ e c', process E (.alert 2 d) c = (.error e, c') := by
  have hb : ∃ e, baseProcess (.alert 2 d) c = (.error e, c) := by
    unfold baseProcess
    dsimp only
    rw [if_neg (show ¬ d = Iana.closeNotify from hd), if_neg (by decide)]
    split <;> exact ⟨_, rfl⟩
  obtain ⟨e, hb⟩ := hb
  unfold process
  split
  all_goals first
    | exact ⟨_, _, hb⟩
    | exact absurd ‹_› hs
    | skip
  · split
    · exact ⟨_, _, hb⟩
    · exact ⟨_, _, rfl⟩

theorem receiveStep_ok {b : Bool} {c c' : Conn} (h : receiveStep E c = (.ok b, c'))
    (hs : c.state ≠ .failed) :
    c'.state ≠ .failed ∧ ∃ new, c'.tr = new ++ c.tr ∧ ¬ fatalAlerted new := by
  have ne : ∀ {c' : Conn}, c'.state = c.state ∨ c'.state.canSend = true → c'.state ≠ .failed := by
    rintro c' (h | h) hf
    · exact hs (h ▸ hf)
    · rw [hf] at h; cases h
  rcases receiveStep_turned (E := E) c with ⟨ht, _⟩ | ⟨x, c₁, h1, ht, hp⟩ <;> rw [h] at ht
  · obtain ⟨n, hn, hn'⟩ := ht.news
    refine ⟨ne ht.state, n, hn, ?_⟩
    rintro ⟨d, _, hd⟩
    have := hn' _ hd
    cases this
  · rw [h] at hp
    obtain ⟨n, hn, hn'⟩ := ht.news
    refine ⟨ne ht.state, n, hn, ?_⟩
    rintro ⟨d, hd0, hd⟩
    have hx := hn' _ hd
    cases hx
    obtain ⟨e, c₂, he⟩ := process_fatal (E := E) hd0 (h1 ▸ hs : c₁.state ≠ .failed)
    rw [he] at hp
    cases hp

theorem while_ok {n : Nat} {c c' : Conn} {r : Except Exn Unit} (h : While E n c r c')
    (hr : r = .ok ()) (hs : c.state ≠ .failed) : ∃ new, c'.tr = new ++ c.tr ∧ ¬ fatalAlerted new := by
  induction h with
  | stop h => exact (receiveStep_ok h hs).2
  | failed => cases hr
  | unreported => cases hr
  | turn h _ ih =>
    obtain ⟨h1, n, h2, h3⟩ := receiveStep_ok h hs
    obtain ⟨m, h4, h5⟩ := ih hr h1
    refine ⟨m ++ n, by rw [h4, h2, List.append_assoc], ?_⟩
    rintro ⟨d, h0, hd⟩
    rcases List.mem_append.mp hd with hd | hd
    · exact h5 ⟨d, h0, hd⟩
    · exact h3 ⟨d, h0, hd⟩

theorem receive_fatal {d : Bytes} {c : Conn} {new : List Ev} (hs : c.state ≠ .failed)
    (hn : (receiveData E d c).2.tr = new ++ c.tr) (hf : fatalAlerted new) :
    ∃ e, (receiveData E d c).1 = .error e := by
  rcases hr : receiveData E d c with ⟨r, c'⟩
  cases r with
  | error e => exact ⟨e, rfl⟩
  | ok u =>
    obtain ⟨_, _, hl, _⟩ := receiveData_ok hr
    obtain ⟨k, _, hw⟩ := while_loop (E := E) _ (c.fed d) (Nat.le_refl _)
    rw [hl] at hw
    obtain ⟨m, h1, h2⟩ := while_ok hw rfl hs
    rw [hr] at hn
    have : m = new := List.append_cancel_right (h1.symm.trans hn)
    exact absurd (this ▸ hf) h2

/-! ## Reporting an error to the peer -/

theorem turn_alerts {x : Option Content} {l : List Ev} (h : ∀ e ∈ l, Ev.turn x e) :
    sentAlerts l = [] := by
  induction l with
  | nil => rfl
  | cons e l ih =>
    have he := h e List.mem_cons_self
    have := ih fun e he => h e (List.mem_cons_of_mem _ he)
    cases e with
    | sent y => cases y <;> first | exact this | cases he
    | _ => exact this

theorem sentAlerts_append (l m : List Ev) : sentAlerts (l ++ m) = sentAlerts l ++ sentAlerts m := by
  induction l with
  | nil => rfl
  | cons e l ih =>
    cases e with
    | sent y => cases y <;> simp [sentAlerts, ih]
    | _ => simp [sentAlerts, ih]

/-- the write key is worn out -/
def Worn (c : Conn) : Prop := ∃ k key n lim, c.cipher = some k ∧ k.wr.key = some key ∧
  k.wr.seq = some n ∧ k.info.usageLimit = some lim ∧ lim ≤ n

theorem Worn.rekey {c : Conn} (h : Worn c) : shouldRekey c = .error .stopIteration := by
  obtain ⟨k, key, n, lim, h1, h2, h3, h4, h5⟩ := h
  unfold shouldRekey
  rw [h1]
  dsimp only
  rw [h3, h4]
  dsimp only
  rw [if_neg (by omega)]

theorem beEnc_alert {d : Nat} (h : d < 256) : beEnc 2 (2 * 256 + d) = [2, UInt8.ofNat d] := by
  rw [beEnc_two, be16]
  have h1 : (2 * 256 + d) / 256 = 2 := by omega
  have h2 : (2 * 256 + d) % 256 = d := by omega
  rw [h1, h2]
  rfl

theorem failWith_cases {c : Conn} {d : Nat} (hS : E.Seals) (hd : d < 256) (ha : AliveInv c)
    (hm : MflInv E c) (hc : c.state.canSend = true) :
    (∃ c' new, failWith E d c = (.ok (), c') ∧ c'.state = .failed ∧ c'.tr = new ++ c.tr ∧
      AlertOut E d new ∧ c'.outputData = c.outputData ++ wire new ∧
      c'.applicationData = c.applicationData) ∨
    ∃ c' e, failWith E d c = (.error e, c') ∧ Worn c' := by
  have hb := fragmentSizes_bounds hm.mfl
  have hser : serContent E (.alert Iana.fatal d) = .ok [2, UInt8.ofNat d] := by
    rw [serContent_alert (by show 2 * 256 + d < 65536; omega)]
    exact congrArg _ (beEnc_alert hd)
  have happ : (Content.alert Iana.fatal d).ctype = Iana.ctApplicationData → c.state.canSendApp = true := by
    intro h; cases h
  unfold failWith
  rw [M.bind_def]
  cases hen : c.mustEncrypt with
  | false =>
    rw [sendContent_plain rfl happ hc hser hen (by simp; omega) (by omega) (by simp)]
    exact .inl ⟨_, [_, _], rfl, rfl, rfl, .inl rfl, by simp [wire, Conn.afterPlain, Content.ctype], rfl⟩
  | true =>
    have : ∃ k key, c.cipher = some k ∧ k.wr.key = some key := by
      unfold Conn.mustEncrypt at hen
      split at hen
      · next k hk =>
        obtain ⟨key, hkey⟩ := Option.isSome_iff_exists.mp hen
        exact ⟨k, key, hk, hkey⟩
      · cases hen
    obtain ⟨k, key, hk, hkey⟩ := this
    obtain ⟨hid, _, _, _⟩ := ha.cipher k hk
    obtain ⟨iv, n, lim, h1, h2, h3, h4⟩ := ha.nonce hk hkey
    have htag := suite_tag hid
    by_cases hlt : n < lim
    · rw [sendContent_sealed hS hid rfl happ hc hser hk hkey (h4 hlt) (by simp; omega) (by omega)
        (sealedInner_bound hid (by simp))]
      refine .inl ⟨_, [_, _, _], rfl, rfl, rfl, .inr ⟨k.info.id, key,
        xorBytes iv (beEnc k.info.nonceLength n),
        sealedAad c k (Content.alert Iana.fatal d) [2, UInt8.ofNat d],
        padLength c.mfl 2 k.info.tagLength, ?_⟩, by simp [wire, Conn.afterSealed], rfl⟩
      simp only [sealedBody, sealedInner, innerText, Content.ctype, beEnc_one, zeros]
      rfl
    · right
      rw [sendContent_one rfl happ hc hser (by simp only [Conn.room, hen, hk, if_true]; simp; omega)
        (by simp only [Conn.room, hen, hk, if_true]; omega), hen]
      have hn : nextNonce k.info k.wr = .error .stopIteration := by
        simp [nextNonce, h1, h2, h3, hlt]
      have : makeRecords E true (Content.alert Iana.fatal d).ctype [[2, UInt8.ofNat d]] c =
          (.error .runtimeError, c) := by
        have hh : recordHeader Iana.ctApplicationData ((innerText c.mfl k.info.tagLength
          (Content.alert Iana.fatal d).ctype [2, UInt8.ofNat d]).length + k.info.tagLength) = .ok _ :=
          recordHeader_ok (sealedInner_bound (c := c) (x := .alert Iana.fatal d) hid (by simp))
        simp only [makeRecords, protect, if_true]
        rw [M.bind_def]
        unfold encryptFragment
        simp only [M.bind_def, M.get, getCipher, hk, M.lift]
        rw [hh]
        simp only [cipherEncrypt, hk, hkey, hn]
      rw [this]
      exact ⟨c, _, rfl, k, key, n, lim, hk, hkey, h2, h3, by omega⟩

theorem receiveStep_keep {c c₁ : Conn} {r : Except Exn Bool} (h : receiveStep E c = (r, c₁))
    (ha : AliveInv c) (hm : MflInv E c) (hc : c.state.canSend = true) : AliveInv c₁ ∧ MflInv E c₁ ∧
      c₁.state.canSend = true ∧ ∃ new, c₁.tr = new ++ c.tr ∧ sentAlerts new = [] := by
  have hrun := run_receiveStep (E := E) (G := fun _ => True) (c := c) (fun _ _ => trivial)
  unfold Run at hrun
  rw [h] at hrun
  have : ∃ x, Turned x c c₁ := by
    rcases receiveStep_turned (E := E) c with ⟨ht, _⟩ | ⟨x, _, _, ht, _⟩ <;> rw [h] at ht
    · exact ⟨_, ht⟩
    · exact ⟨_, ht⟩
  obtain ⟨x, ht⟩ := this
  obtain ⟨n, hn, hn'⟩ := ht.news
  refine ⟨Steps.inv (fun _ _ hi hs => hi.step hs) hrun.1 ha,
    Steps.inv (fun _ _ hi hs => hi.step hs) hrun.1 hm, ?_, n, hn, turn_alerts hn'⟩
  rcases ht.state with h | h
  · rw [h]; exact hc
  · exact h

theorem while_error {n : Nat} {c c' : Conn} {r : Except Exn Unit} {e : Exn} (hS : E.Seals)
    (hO : E.Outside) (h : While E n c r c') (hr : r = .error e) (ha : AliveInv c) (hm : MflInv E c)
    (hc : c.state.canSend = true) (hk : shouldRekey c' = .ok false) :
    c'.state = .failed ∧ ∃ out new, c'.tr = out ++ (new ++ c.tr) ∧ AlertOut E (alertFor e) out ∧
      sentAlerts new = [] := by
  induction h with
  | stop => cases hr
  | failed h hf =>
    obtain ⟨k1, k2, k3, n, k4, k5⟩ := receiveStep_keep h ha hm hc
    cases hr
    have hd : alertFor e < 256 := by
      exact codedM_receiveStep hO _ e (congrArg Prod.fst h)
    rcases failWith_cases hS hd k1 k2 k3 with ⟨c₂, out, h1, h2, h3, h4, _⟩ | ⟨c₂, e', h1, _⟩
    · rw [hf] at h1
      cases h1
      exact ⟨h2, out, n, by rw [h3, k4], h4, k5⟩
    · rw [hf] at h1; cases h1
  | unreported h hf =>
    obtain ⟨k1, k2, k3, n, k4, k5⟩ := receiveStep_keep h ha hm hc
    rename_i c₁ c₂ e₁ e₂
    have hd : alertFor e₁ < 256 := by
      exact codedM_receiveStep hO _ e₁ (congrArg Prod.fst h)
    rcases failWith_cases hS hd k1 k2 k3 with ⟨c₂, out, h1, _⟩ | ⟨c₃, e', h1, h2⟩
    · rw [hf] at h1; cases h1
    · rw [hf] at h1
      cases h1
      rw [h2.rekey] at hk
      cases hk
  | turn h _ ih =>
    obtain ⟨k1, k2, k3, n, k4, k5⟩ := receiveStep_keep h ha hm hc
    obtain ⟨h1, out, m, h2, h3, h4⟩ := ih hr k1 k2 k3 hk
    exact ⟨h1, out, m ++ n, by rw [h2, k4, List.append_assoc], h3, by
      rw [sentAlerts_append, h4, k5]; rfl⟩

/-! ## Parsers that only raise alerts, once TLSBufferError is turned into one -/

open Serial

def CleanE {α} (r : Except Exn α) : Prop :=
  ∀ e, r = .error e → e.isBuffer = true ∨ ∃ d, e = .alert d

def CleanP {α} (p : P α) : Prop := ∀ s, CleanE (p s)

theorem CleanE.ok {α} (a : α) : CleanE (.ok a : Except Exn α) := by intro e h; cases h
theorem CleanE.alert {α} (d : Nat) : CleanE (.error (.alert d) : Except Exn α) := by
  intro e h; cases h; exact .inr ⟨d, rfl⟩
theorem CleanP.pure {α} (a : α) : CleanP (pure a : P α) := fun _ => CleanE.ok _
theorem CleanP.alert {α} (d : Nat) : CleanP (P.throw (.alert d) : P α) := fun _ => CleanE.alert d
theorem CleanP.bind {α β} {p : P α} {f : α → P β} (h : CleanP p) (hf : ∀ a, CleanP (f a)) :
    CleanP (p >>= f) := by
  intro s
  rw [P.bind_def]
  cases hp : p s with
  | error e => intro e' he; cases he; exact h s e hp
  | ok a => exact hf a.1 a.2

theorem cleanP_read (n : Nat) : CleanP (Serial.read n) := by
  intro s
  unfold Serial.read
  split
  · exact CleanE.ok _
  split
  · intro e h; cases h; exact .inl rfl
  · exact CleanE.ok _

theorem cleanP_readExactly (n : Nat) : CleanP (readExactly n) := by
  intro s
  unfold readExactly
  split
  · exact CleanE.ok _
  split
  · rename_i h; intro e he; cases he; exact cleanP_read _ _ _ h
  split
  · exact CleanE.ok _
  · intro e h; cases h; exact .inl rfl

theorem cleanP_readInt {n : Nat} (hn : n ≠ 0) : CleanP (readInt n) := by
  unfold readInt
  rw [if_neg hn]
  exact CleanP.bind (cleanP_readExactly _) fun _ => CleanP.pure _

theorem cleanP_readAll : CleanP readAll := by
  intro s; unfold readAll; split <;> exact CleanE.ok _

theorem cleanP_assertEof : CleanP assertEof := by
  intro s
  unfold assertEof
  split
  · exact CleanE.ok _
  · intro e h; cases h; exact .inl rfl

theorem cleanP_content {certType : Option (Option Nat)} {ctype : Nat}
    (hc : ctype ≠ 0 ∧ ctype ≠ 22 ∧ ctype ≠ 24) : CleanP (parseContent E certType ctype) := by
  unfold parseContent
  split
  · unfold parseChangeCipherSpec
    refine CleanP.bind (cleanP_readExactly _) fun b => ?_
    split
    · exact CleanP.alert _
    · exact CleanP.pure _
  · unfold parseAlert
    refine CleanP.bind (cleanP_readInt (by decide)) fun l => ?_
    split
    · exact CleanP.bind (cleanP_readInt (by decide)) fun _ => CleanP.pure _
    · exact CleanP.alert _
  · exact absurd rfl hc.2.1
  · unfold parseApplicationData
    exact CleanP.bind cleanP_readAll fun _ => CleanP.pure _
  · exact absurd rfl hc.2.2
  · exact absurd rfl hc.1
  · exact CleanP.alert _

theorem decodeContent_clean {certType : Option (Option Nat)} {ctype : Nat} {data : Bytes} {e : Exn}
    (hc : ctype ≠ 0 ∧ ctype ≠ 22 ∧ ctype ≠ 24) (h : decodeContent E certType ctype data = .error e) :
    ∃ d, e = .alert d := by
  unfold decodeContent at h
  dsimp only at h
  split at h
  · cases h
  · rename_i e' he
    split at h
    · cases h; exact ⟨_, rfl⟩
    · cases h
      have : CleanP (parseContent E certType ctype >>= fun c => assertEof >>= fun _ => pure c) :=
        CleanP.bind (cleanP_content hc) fun c => CleanP.bind cleanP_assertEof fun _ => CleanP.pure _
      rcases this _ _ he with h | h
      · exact absurd h ‹_›
      · exact h

/-- contents that only raise alerts -/
theorem process_clean {c c' : Conn} {x : Content} {e : Exn}
    (hs : c.state = .connected ∨ ∃ s, c.state = .closed true s)
    (hx : ∀ t p q, x ≠ .heartbeat t p q)
    (ha : ∀ l d, x = .alert l d → d = 90 ∨ d ∉ Iana.alertDescriptions → False)
    (h : process E x c = (.error e, c')) : ∃ d, e = .alert d := by
  have hp : process E x c = connectedProcess x c := by
    unfold process
    rcases hs with h | ⟨s, h⟩ <;> rw [h]
    rfl
  rw [hp] at h
  unfold connectedProcess at h
  split at h
  · cases h
  · unfold baseProcess at h
    split at h
    · rename_i l d _
      have hd : Iana.alertDescriptions.contains d = true := by
        by_cases hm : d ∈ Iana.alertDescriptions
        · simpa using hm
        · exact (ha _ _ rfl (.inr hm)).elim
      by_cases h0 : d = Iana.closeNotify
      · rw [if_pos h0] at h; cases h
      rw [if_neg h0] at h
      by_cases hl : l = Iana.warning
      · rw [if_pos hl, if_pos hd] at h; cases h
      have hw : ¬ Iana.warningAlerts.contains d = true := by
        intro hw
        have : d ∈ Iana.warningAlerts := by simpa using hw
        simp only [Iana.warningAlerts, List.mem_cons, List.not_mem_nil, or_false] at this
        rcases this with h | h
        · exact h0 h
        · exact ha _ _ rfl (.inl h)
      rw [if_neg hl, if_pos ⟨hd, hw⟩] at h
      cases h
      exact ⟨_, rfl⟩
    · exact absurd rfl (hx _ _ _)
    · cases h; exact ⟨_, rfl⟩

theorem decode_light {certType : Option (Option Nat)} {ctype : Nat} {data : Bytes} {x : Content}
    (hc : ctype ≠ 0 ∧ ctype ≠ 22 ∧ ctype ≠ 24) (hd : decodeContent E certType ctype data = .ok x) :
    (∃ l d, x = .alert l d) ∨ (∃ d, x = .applicationData d) ∨ x = .changeCipherSpec := by
  have key : Returns (parseContent E certType ctype) fun x =>
      (∃ l d, x = .alert l d) ∨ (∃ d, x = .applicationData d) ∨ x = .changeCipherSpec := by
    unfold parseContent
    split
    · unfold parseChangeCipherSpec
      refine Returns.bind fun b => ?_
      split
      · exact Returns.throw
      · exact Returns.pure (.inr (.inr rfl))
    · unfold parseAlert
      refine Returns.bind fun l => ?_
      split
      · exact Returns.bind fun d => Returns.pure (.inl ⟨_, _, rfl⟩)
      · exact Returns.throw
    · exact absurd rfl hc.2.1
    · unfold parseApplicationData
      exact Returns.bind fun b => Returns.pure (.inr (.inl ⟨_, rfl⟩))
    · exact absurd rfl hc.2.2
    · exact absurd rfl hc.1
    · exact Returns.throw
  unfold decodeContent at hd
  dsimp only at hd
  split at hd
  · next c s' hr =>
    cases hd
    obtain ⟨c, s₁, h1, hr⟩ := P.bind_ok hr
    obtain ⟨u, s₂, h2, hr⟩ := P.bind_ok hr
    cases hr
    exact key _ _ _ h1
  · split at hd <;> cases hd

/-- reading a content that is no handshake message -/
theorem useContent_clean {c c' : Conn} {ctype : Nat} {data : Bytes} {e : Exn}
    (hs : c.state = .connected ∨ ∃ s, c.state = .closed true s)
    (hc : ctype ≠ 0 ∧ ctype ≠ 22 ∧ ctype ≠ 24)
    (ha : ∀ l d, decodeContent E c.certType ctype data = .ok (.alert l d) →
      d = 90 ∨ d ∉ Iana.alertDescriptions → False)
    (h : useContent E ctype data c = (.error e, c')) : ∃ d, e = .alert d := by
  unfold useContent at h
  rw [M.bind_def] at h
  simp only [M.get] at h
  rw [M.bind_def] at h
  cases hd : decodeContent E c.certType ctype data with
  | error e' =>
    rw [hd] at h
    cases h
    exact decodeContent_clean hc hd
  | ok x =>
    rw [hd] at h
    have hl := decode_light hc hd
    have hhash : hashContent data c.config.side.other x c = (.ok (), c) := by
      rcases hl with ⟨l, d, rfl⟩ | ⟨d, rfl⟩ | rfl <;> rfl
    simp only [M.lift] at h
    rw [M.bind_def, hhash] at h
    dsimp only at h
    rw [M.bind_def] at h
    simp only [ghost, M.modify] at h
    rw [M.bind_def] at h
    rcases hp : process E x { c with tr := .recv x :: c.tr } with ⟨r, c₂⟩
    rw [hp] at h
    cases r with
    | ok u => cases h
    | error e' =>
      cases h
      refine process_clean (c := { c with tr := .recv x :: c.tr }) hs ?_ ?_ hp
      · rcases hl with ⟨l, d, rfl⟩ | ⟨d, rfl⟩ | rfl <;> simp
      · rintro l d rfl
        exact ha l d hd

end Siotls
