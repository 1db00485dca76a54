import Verif.Spec.Wrapper
import Verif.Proofs.Flow
import Verif.Proofs.AlgInv
import Verif.Proofs.Epoch
/-!
# What the socket wrapper does with the output of the connection
-/

namespace Siotls
open Spec

variable {E : Env} {S : Sock}

theorem W.bind_def {α β} (m : W α) (f : α → W β) (w : Wrapped) :
    (m >>= f) w = match m w with
      | (.ok a, w') => f a w'
      | (.error e, w') => (.error e, w') := rfl

/-- an invariant of a program -/
def Keeps {α} (I : Wrapped → Prop) (m : W α) : Prop := ∀ w, I w → I (m w).2

theorem Keeps.bind {α β} {I : Wrapped → Prop} {m : W α} {f : α → W β} (hm : Keeps I m)
    (hf : ∀ a, Keeps I (f a)) : Keeps I (m >>= f) := by
  intro w hw
  rw [W.bind_def]
  have := hm w hw
  rcases h : m w with ⟨r, w'⟩
  rw [h] at this
  cases r with
  | ok a => exact hf a w' this
  | error e => exact this

theorem Keeps.pure {α} {I : Wrapped → Prop} (a : α) : Keeps I (pure a : W α) := fun _ h => h

/-- what the methods of the wrapper are made of -/
structure Pieces (E : Env) (S : Sock) (I : Wrapped → Prop) : Prop where
  recv : Keeps I (W.recv S)
  takeIn : ∀ d, Keeps I (takeIn E S d)
  closeRecv : Keeps I (W.call E .closeRecv)
  read : Keeps I (W.call E .read)
  start : ∀ w, I w → I ((do let _ ← W.call E .initiate; sendHello E S) w).2
  write : ∀ d, Keeps I (wrapWrite E S d)
  close : Keeps I (wrapClose E S)

theorem Pieces.handshakeLoop {I : Wrapped → Prop} (h : Pieces E S I) (n : Nat) :
    Keeps I (handshakeLoop E S n) := by
  induction n with
  | zero => intro w hw; unfold Siotls.handshakeLoop; split <;> exact hw
  | succ n ih =>
    intro w hw
    unfold Siotls.handshakeLoop
    split
    · exact hw
    refine Keeps.bind h.recv (fun d => ?_) w hw
    dsimp only
    split
    · exact Keeps.bind h.closeRecv fun _ => ih
    · exact Keeps.bind (h.takeIn d) fun _ => ih

theorem Pieces.readLoop {I : Wrapped → Prop} (h : Pieces E S I) (n : Nat) (app : Bytes) :
    Keeps I (readLoop E S n app) := by
  induction n generalizing app with
  | zero => intro w hw; unfold Siotls.readLoop; split <;> exact hw
  | succ n ih =>
    intro w hw
    unfold Siotls.readLoop
    split
    · exact hw
    refine Keeps.bind h.recv (fun d => ?_) w hw
    split
    · exact Keeps.bind h.closeRecv fun _ => ih _
    · exact Keeps.bind (h.takeIn d) fun _ => Keeps.bind h.read fun _ => ih _

theorem Pieces.run {I : Wrapped → Prop} (h : Pieces E S I) (x : Call) : Keeps I (x.run E S) := by
  cases x with
  | handshake n =>
    refine Keeps.bind ?_ fun _ => Keeps.pure _
    have : doHandshake E S n =
        ((do let _ ← W.call E .initiate; sendHello E S) >>= fun _ => Siotls.handshakeLoop E S n) := by
      funext w
      unfold doHandshake
      simp only [W.bind_def]
      rcases W.call E .initiate w with ⟨r, w'⟩
      cases r <;> rfl
    rw [this]
    exact Keeps.bind h.start fun _ => h.handshakeLoop n
  | read n => exact Keeps.bind h.read fun _ => h.readLoop n _
  | write d => exact Keeps.bind (h.write d) fun _ => Keeps.pure _
  | close => exact Keeps.bind h.close fun _ => Keeps.pure _

theorem Pieces.runCalls {I : Wrapped → Prop} (h : Pieces E S I) (xs : List Call) {w : Wrapped}
    (hw : I w) : I (runCalls E S xs w) := by
  induction xs generalizing w with
  | nil => exact hw
  | cons x xs ih => exact ih (h.run x w hw)

/-! ## Output that went through the socket -/

/-- `R`: how what the socket accepted and what is pending relate to what was produced -/
structure Tally (S : Sock) (R : Bytes → Bytes → Prop) : Prop where
  grow : ∀ a b x, R a b → R (a ++ x) (b ++ x)
  sent : ∀ i o a b n, S.send i o = .ok n → R (a ++ o) b → R (a ++ o.take n) b
  lost : ∀ i o a b e, S.send i o = .error e → R (a ++ o) b → R a b

def Balance (R : Bytes → Bytes → Prop) (w : Wrapped) : Prop :=
  R (w.accepted ++ w.conn.outputData) (wire w.conn.tr)

theorem keeps_call {R : Bytes → Bytes → Prop} (hR : Tally S R) {o : Op} (ho : buffering o = false) :
    Keeps (Balance R) (W.call E o) := by
  intro w hw
  obtain ⟨new, h1, h2, _⟩ := o.flow (E := E) ho w.conn
  show R (w.accepted ++ (o.run E w.conn).2.outputData) (wire (o.run E w.conn).2.tr)
  rw [h1, h2, wire_append, ← List.append_assoc]
  exact hR.grow _ _ _ hw

/-- `data_to_send` followed by `send` -/
theorem keeps_drain {R : Bytes → Bytes → Prop} (hR : Tally S R) :
    Keeps (Balance R) (W.call E .drain >>= fun out => W.send S out) := by
  intro w hw
  rw [W.bind_def]
  show Balance R (W.send S w.conn.outputData { w with conn := { w.conn with outputData := [] } }).2
  unfold W.send
  cases h : S.send w.nsend w.conn.outputData with
  | ok n =>
    show R ((w.accepted ++ w.conn.outputData.take n) ++ []) (wire w.conn.tr)
    rw [List.append_nil]
    exact hR.sent _ _ _ _ _ h hw
  | error e =>
    show R (w.accepted ++ []) (wire w.conn.tr)
    rw [List.append_nil]
    exact hR.lost _ _ _ _ _ h hw

theorem flush_eq (w : Wrapped) : flush E S w =
    if w.conn.outputData.isEmpty then (.ok (), { w with conn := { w.conn with outputData := [] } })
    else (W.call E .drain >>= fun out => W.send S out) w := by
  unfold flush
  rw [W.bind_def, W.bind_def]
  show (if w.conn.outputData.isEmpty then (Pure.pure () : W Unit) else W.send S w.conn.outputData) _ = _
  split <;> rfl

theorem keeps_flush {R : Bytes → Bytes → Prop} (hR : Tally S R) :
    Keeps (Balance R) (flush E S) := by
  intro w hw
  rw [flush_eq]
  split
  · show R (w.accepted ++ []) _
    rw [← List.isEmpty_iff.mp ‹_›]
    exact hw
  · exact keeps_drain hR w hw

theorem keeps_finally {I : Wrapped → Prop} {α} {m : W α} {f : W Unit} (hm : Keeps I m)
    (hf : Keeps I f) : Keeps I (W.finally_ m f) := by
  intro w hw
  have := hf _ (hm w hw)
  unfold W.finally_
  rcases h : f (m w).2 with ⟨r, w'⟩
  rw [h] at this
  cases r <;> exact this

theorem pieces_balance {R : Bytes → Bytes → Prop} (hR : Tally S R) : Pieces E S (Balance R) where
  recv := fun _ h => h
  takeIn := fun _ => keeps_finally (keeps_call hR rfl) (keeps_flush hR)
  closeRecv := keeps_call hR rfl
  read := fun _ h => h
  start := Keeps.bind (keeps_call hR rfl) fun _ w hw => by
    unfold sendHello
    split
    · exact keeps_drain hR w hw
    · exact hw
  write := fun _ => Keeps.bind (keeps_call hR rfl) fun _ => keeps_drain hR
  close := Keeps.bind (keeps_call hR rfl) fun _ => keeps_flush hR

/-! ## Nothing is left pending -/

/-- an invariant of a program of the connection -/
def Holds {α} (I : Conn → Prop) (m : M α) : Prop := ∀ c, I c → I (m c).2
/-- same, when the program raises -/
def HoldsErr {α} (I : Conn → Prop) (m : M α) : Prop := ∀ c e, I c → (m c).1 = .error e → I (m c).2

section
variable {I : Conn → Prop}

theorem Holds.bind {α β} {m : M α} {f : α → M β} (hm : Holds I m) (hf : ∀ a, Holds I (f a)) :
    Holds I (m >>= f) := by
  intro c hc
  rw [M.bind_def]
  have := hm c hc
  rcases h : m c with ⟨r, c'⟩
  rw [h] at this
  cases r with
  | ok a => exact hf a c' this
  | error e => exact this

theorem HoldsErr.bind {α β} {m : M α} {f : α → M β} (hm : Holds I m) (hf : ∀ a, HoldsErr I (f a)) :
    HoldsErr I (m >>= f) := by
  intro c e hc
  rw [M.bind_def]
  have := hm c hc
  rcases h : m c with ⟨r, c'⟩
  rw [h] at this
  cases r with
  | ok a => exact fun h => hf a c' e this h
  | error e => exact fun _ => this

theorem HoldsErr.bind' {α β} {m : M α} {f : α → M β} (hm : HoldsErr I m)
    (hf : ∀ a c e, (f a c).1 ≠ .error e) : HoldsErr I (m >>= f) := by
  intro c e hc
  rw [M.bind_def]
  have := hm c
  rcases h : m c with ⟨r, c'⟩
  rw [h] at this
  cases r with
  | ok a => exact fun h => absurd h (hf a c' e)
  | error e => exact fun _ => this e hc rfl

theorem Holds.err {α} {m : M α} (hm : Holds I m) : HoldsErr I m := fun c _ hc _ => hm c hc

theorem Holds.lift {α} (r : Except Exn α) : Holds I (M.lift r) := fun _ h => h
theorem Holds.pure {α} (a : α) : Holds I (pure a : M α) := fun _ h => h
theorem Holds.throw {α} (e : Exn) : Holds I (M.throw e : M α) := fun _ h => h
theorem Holds.get : Holds I M.get := fun _ h => h

/-- invariants that only depend on parts of the connection that building records leaves alone -/
structure Blind (I : Conn → Prop) : Prop where
  keys : ∀ c k t, I c → I { c with cipher := k, tr := t }
  hash : ∀ c d s n t, I c → I { c with transcript := (c.transcript.update d s n).2, tr := t }
  draw : ∀ c n, I c → I { c with draws := n }

theorem holds_hash (hI : Blind I) (d : Bytes) (s : Side) (x : Content) :
    Holds I (hashContent d s x) := by
  unfold hashContent
  split
  · rename_i h
    intro c hc
    have := fun t => hI.hash c d s h.msgType t hc
    unfold transcriptUpdate
    split
    · rename_i h; rw [h] at this; exact this _
    · rename_i h; rw [h] at this; exact this _
  · exact Holds.throw _
  · exact Holds.pure _

theorem holds_getCipher : Holds I getCipher := by
  intro c hc; unfold getCipher; split <;> exact hc

theorem holds_encrypt (hI : Blind I) (d h : Bytes) : Holds I (cipherEncrypt E d h) := by
  intro c hc
  unfold cipherEncrypt
  repeat' (first | exact hc | exact hI.keys _ _ _ hc | split)

theorem holds_protect (hI : Blind I) (b : Bool) (t : Nat) (f : Bytes) :
    Holds I (protect E b t f) := by
  unfold protect
  split
  · refine Holds.bind Holds.get fun c => Holds.bind holds_getCipher fun k =>
      Holds.bind (Holds.lift _) fun h => Holds.bind (holds_encrypt hI _ _) fun enc => ?_
    split
    · exact Holds.pure _
    · exact Holds.throw _
  · exact fun _ h => h

theorem holds_makeRecords (hI : Blind I) (b : Bool) (t : Nat) (fs : List Bytes) :
    Holds I (makeRecords E b t fs) := by
  induction fs with
  | nil => exact Holds.pure _
  | cons f fs ih =>
    exact Holds.bind (holds_protect hI _ _ _) fun _ => Holds.bind (Holds.lift _) fun _ =>
      Holds.bind ih fun _ => Holds.pure _

/-- a content that cannot be sent leaves no byte behind -/
theorem holdsErr_send (hI : Blind I) (x : Content) : HoldsErr I (sendContent E x) := by
  unfold sendContent
  refine HoldsErr.bind Holds.get fun c => ?_
  split
  · exact (Holds.throw _).err
  split
  · exact (Holds.throw _).err
  split
  · exact (Holds.throw _).err
  refine HoldsErr.bind (Holds.lift _) fun d => HoldsErr.bind (holds_hash hI _ _ _) fun _ =>
    HoldsErr.bind (Holds.lift _) fun fr => HoldsErr.bind (holds_makeRecords hI _ _ _) fun rs => ?_
  intro c e _ h
  cases h

theorem holds_send (hI : Blind I) (ho : ∀ c o t, I c → I { c with outputData := o, tr := t })
    (x : Content) : Holds I (sendContent E x) := by
  unfold sendContent
  refine Holds.bind Holds.get fun c => ?_
  split
  · exact Holds.throw _
  split
  · exact Holds.throw _
  split
  · exact Holds.throw _
  exact Holds.bind (Holds.lift _) fun d => Holds.bind (holds_hash hI _ _ _) fun _ =>
    Holds.bind (Holds.lift _) fun fr => Holds.bind (holds_makeRecords hI _ _ _) fun rs =>
    fun c hc => ho _ _ _ hc

theorem wrap_err {m : M Unit} (h : HoldsErr I m) : HoldsErr I (do m; pure [] : M Bytes) :=
  HoldsErr.bind' h fun _ _ _ h => by cases h

theorem holds_kexInit (hI : Blind I) (g : Nat) : Holds I (kexInit E g) :=
  Holds.bind (fun _ h => hI.draw _ _ h) fun _ => Holds.lift _

end

theorem blind_out (o : Bytes) : Blind (fun c => c.outputData = o) :=
  ⟨fun _ _ _ h => h, fun _ _ _ _ _ h => h, fun _ _ h => h⟩

/-- some hash function runs -/
def Hashes (c : Conn) : Prop := c.transcript.hashes ≠ []

theorem update_hashes {t : Transcript} {d : Bytes} {s : Side} {n : Nat} (h : t.hashes ≠ []) :
    (t.update d s n).2.hashes ≠ [] := by
  unfold Transcript.update
  split
  · exact h
  dsimp only
  split
  · exact h
  · split
    · simpa using h
    · exact h

theorem update_hashes' {t t' : Transcript} {d : Bytes} {s : Side} {n : Nat} {r : Except Exn Bool}
    (h : t.hashes ≠ []) (hu : t.update d s n = (r, t')) : t'.hashes ≠ [] := by
  have := update_hashes (d := d) (s := s) (n := n) h
  rwa [hu] at this

theorem Hashes.step {G : Conn → Prop} {c c' : Conn} (h : Hashes c) (hs : Step E G c c') :
    Hashes c' := by
  cases hs with
  | hashSent _ _ _ hu => exact update_hashes' h hu
  | hashError hu => exact update_hashes' h hu
  | receivedHs _ _ _ hu => exact update_hashes' h hu
  | postInit _ hp =>
    unfold Transcript.postInit at hp
    split at hp
    · cases hp; simp [Hashes]
    · cases hp
  | hrrClient _ _ _ hd =>
    unfold Transcript.hrrDance at hd
    split at hd
    · cases hd
    · cases hd; simp [Hashes]
  | hrrServer _ _ _ _ hd =>
    unfold Transcript.hrrDance at hd
    split at hd
    · cases hd
    · cases hd; simp [Hashes]
  | _ => exact h

theorem Hashes.api {G : Conn → Prop} {c c' : Conn} (h : Hashes c) (hs : Api E G c c') :
    Hashes c' := by
  cases hs with
  | step hs => exact h.step hs
  | closeRecv =>
    unfold closeReceivingEnd
    split <;> exact h
  | _ => exact h

/-- the connection of the wrapper came from a program using `c₀`, and has nothing to send -/
def Flushed (E : Env) (c₀ : Conn) (w : Wrapped) : Prop :=
  (∃ ops, w.conn = runOps E ops c₀) ∧ w.conn.outputData = []

theorem reach_op {c₀ c : Conn} (o : Op) (h : ∃ ops, c = runOps E ops c₀) :
    ∃ ops, (o.run E c).2 = runOps E ops c₀ := by
  obtain ⟨ops, rfl⟩ := h
  exact ⟨ops ++ [o], by rw [runOps_append]; rfl⟩

theorem drain_settled {c₀ : Conn} {w : Wrapped} (h : ∃ ops, w.conn = runOps E ops c₀) :
    Flushed E c₀ ((W.call E .drain >>= fun out => W.send S out) w).2 := by
  rw [W.bind_def]
  show Flushed E c₀ (W.send S w.conn.outputData { w with conn := { w.conn with outputData := [] } }).2
  have := reach_op .drain h
  unfold W.send
  split <;> exact ⟨this, rfl⟩

theorem flush_settled {c₀ : Conn} {w : Wrapped} (h : ∃ ops, w.conn = runOps E ops c₀) :
    Flushed E c₀ (flush E S w).2 := by
  rw [flush_eq]
  split
  · exact ⟨reach_op .drain h, rfl⟩
  · exact drain_settled h

theorem closeSend_err (o : Bytes) : HoldsErr (fun c => c.outputData = o) (closeSendingEnd E) := by
  refine HoldsErr.bind (fun c h => h) fun _ => HoldsErr.bind Holds.get fun c => ?_
  split
  · exact HoldsErr.bind' (holdsErr_send (blind_out o) _) fun _ _ _ h => by cases h
  · exact (Holds.pure _).err

theorem blind_hashes : Blind Hashes :=
  ⟨fun _ _ _ h => h, fun _ _ _ _ _ h => update_hashes h, fun _ _ h => h⟩

theorem clientInitiate_err (cookie : Option Bytes) (o : Bytes) :
    HoldsErr (fun c => c.outputData = o ∧ Hashes c) (clientInitiate E cookie) := by
  have hb : Blind (fun c => c.outputData = o ∧ Hashes c) :=
    ⟨fun _ _ _ h => h, fun _ _ _ _ _ h => ⟨h.1, update_hashes h.2⟩, fun _ _ h => h⟩
  unfold clientInitiate
  refine HoldsErr.bind Holds.get fun c => ?_
  split
  · exact (Holds.throw _).err
  · exact (Holds.throw _).err
  split
  · exact (Holds.throw _).err
  refine HoldsErr.bind (holds_kexInit hb _) fun _ => HoldsErr.bind (Holds.lift _) fun hello => ?_
  intro c e hc
  rw [M.bind_def]
  have h1 := holdsErr_send (E := E) hb (.handshake hello) c
  have h2 := holds_send (E := E) blind_hashes (fun _ _ _ h => h) (.handshake hello) c hc.2
  rcases h : sendContent E (.handshake hello) c with ⟨r, c'⟩
  rw [h] at h1 h2
  cases r with
  | error e' => exact fun _ => h1 e' hc rfl
  | ok a =>
    intro hx
    exfalso
    dsimp only at hx
    rw [M.bind_def] at hx
    unfold transcriptDigest Transcript.digest at hx
    cases hh : c'.transcript.hashes with
    | nil => exact h2 hh
    | cons x l =>
      rw [hh] at hx
      cases hx

/-- `initiate_connection` produces nothing when it raises, and nothing on the server side -/
theorem initiate_out {c : Conn} (hh : Hashes c) {s : Side} (hi : SideInv s c) :
    (∀ e, (initiate E c).1 = .error e → (initiate E c).2.outputData = c.outputData) ∧
    (c.config.side = .server → (initiate E c).2.outputData = c.outputData) := by
  unfold initiate
  cases hs : c.state with
  | clientStart cookie =>
    refine ⟨fun e h => (clientInitiate_err cookie c.outputData c e ⟨rfl, hh⟩ h).1, fun hx => ?_⟩
    have := hi.state .client (by rw [hs]; rfl)
    rw [hi.config, ← this] at hx
    cases hx
  | serverStart => exact ⟨fun e h => (by cases h), fun _ => rfl⟩
  | _ => exact ⟨fun _ _ => rfl, fun _ => rfl⟩

theorem reach_hashes {config : Config} {hostname ocsp algs random} {c₀ c : Conn}
    (h : Conn.new config hostname ocsp algs random = .ok c₀) (hc : ∃ ops, c = runOps E ops c₀) :
    Hashes c ∧ SideInv config.side c := by
  obtain ⟨ops, rfl⟩ := hc
  have hf := Conn.new_fresh h
  constructor
  · refine runOps_inv (I := Hashes) (fun c c' h hs => h.api hs) ?_ ops
    rw [Hashes, hf.2.2.2.2.2.2.2.2.2.2.1]
    simpa using hf.2.2.2.2.2.2.2.2.2.2.2.1
  · exact runOps_inv (I := SideInv config.side) (fun c c' h hs => h.api hs) (SideInv.fresh h) ops

theorem pieces_flushed {config : Config} {hostname ocsp algs random} {c₀ : Conn}
    (h : Conn.new config hostname ocsp algs random = .ok c₀) : Pieces E S (Flushed E c₀) where
  recv := fun _ h => h
  takeIn := fun d w hw => by
    have := flush_settled (E := E) (S := S) (w := (W.call E (.receive d) w).2)
      (reach_op (.receive d) hw.1)
    unfold takeIn W.finally_
    rcases h : flush E S (W.call E (.receive d) w).2 with ⟨r, w'⟩
    rw [h] at this
    cases r <;> exact this
  closeRecv := fun w hw => by
    refine ⟨reach_op .closeRecv hw.1, ?_⟩
    show (Op.run E .closeRecv w.conn).2.outputData = _
    rw [Op.run, wrap_snd]
    unfold closeReceivingEnd
    split <;> exact hw.2
  read := fun w hw => ⟨reach_op .read hw.1, hw.2⟩
  start := fun w hw => by
    obtain ⟨h1, h2⟩ := reach_hashes h hw.1
    obtain ⟨h3, h4⟩ := initiate_out (E := E) h1 h2
    have h5 := reach_op (E := E) .initiate hw.1
    have h6 := (reach_hashes h h5).2
    have h7 : (Op.run E .initiate w.conn).2 = (initiate E w.conn).2 := by rw [Op.run, wrap_snd]
    rw [W.bind_def]
    rcases hr : W.call E .initiate w with ⟨r, w'⟩
    have h8 : w'.conn = (Op.run E .initiate w.conn).2 := (congrArg (fun x => x.2.conn) hr).symm
    cases r with
    | error e =>
      refine ⟨h8 ▸ h5, ?_⟩
      show w'.conn.outputData = []
      rw [h8, h7, h3 e, hw.2]
      have : (Op.run E .initiate w.conn).1 = .error e := congrArg Prod.fst hr
      rw [Op.run, M.bind_def] at this
      rcases hx : Siotls.initiate E w.conn with ⟨r, c'⟩
      rw [hx] at this
      cases r <;> cases this
      rfl
    | ok a =>
      dsimp only
      unfold sendHello
      split
      · exact drain_settled (h8 ▸ h5)
      · rename_i hs
        refine ⟨h8 ▸ h5, ?_⟩
        show w'.conn.outputData = []
        rw [h8, h7, h4 ?_, hw.2]
        rw [h2.config, ← h6.config, ← h8]
        exact hs
  write := fun d w hw => by
    unfold wrapWrite
    rw [W.bind_def]
    have h5 := reach_op (E := E) (.send d) hw.1
    have h6 := wrap_err (holdsErr_send (E := E) (blind_out []) (.applicationData d)) w.conn
    rcases hr : W.call E (.send d) w with ⟨r, w'⟩
    unfold W.call at hr
    cases hr' : (Op.run E (.send d) w.conn).1 with
    | error e =>
      rw [hr'] at hr; cases hr
      exact ⟨h5, h6 e hw.2 hr'⟩
    | ok a =>
      rw [hr'] at hr; cases hr
      exact drain_settled h5
  close := fun w hw => by
    unfold wrapClose
    rw [W.bind_def]
    have h5 := reach_op (E := E) .closeSend hw.1
    have h6 := wrap_err (closeSend_err (E := E) []) w.conn
    rcases hr : W.call E .closeSend w with ⟨r, w'⟩
    unfold W.call at hr
    cases hr' : (Op.run E .closeSend w.conn).1 with
    | error e =>
      rw [hr'] at hr; cases hr
      exact ⟨h5, h6 e hw.2 hr'⟩
    | ok a =>
      rw [hr'] at hr; cases hr
      exact flush_settled h5

/-! ## What the application reads -/

/-- `R` was read, the rest of what was delivered is pending -/
def Pending (R : Bytes) (w : Wrapped) : Prop :=
  R ++ w.conn.applicationData = deliveredData w.conn.tr

theorem pending_call {R : Bytes} {o : Op} (ho : buffering o = false) :
    Keeps (Pending R) (W.call E o) := by
  intro w hw
  obtain ⟨new, h1, _, h2⟩ := o.flow (E := E) ho w.conn
  show R ++ (o.run E w.conn).2.applicationData = deliveredData (o.run E w.conn).2.tr
  rw [h1, h2, deliveredData_append, ← List.append_assoc, hw]

theorem pending_send {R : Bytes} (b : Bytes) : Keeps (Pending R) (W.send S b) := by
  intro w hw
  unfold W.send
  split <;> exact hw

theorem pending_drain {R : Bytes} : Keeps (Pending R) (W.call E .drain) := fun _ h => h

theorem pending_flush {R : Bytes} : Keeps (Pending R) (flush E S) := by
  refine Keeps.bind pending_drain fun out => ?_
  split
  · exact Keeps.pure _
  · exact pending_send _

theorem pending_takeIn {R : Bytes} (d : Bytes) : Keeps (Pending R) (takeIn E S d) :=
  keeps_finally (pending_call rfl) pending_flush

theorem pending_handshakeLoop {R : Bytes} (n : Nat) : Keeps (Pending R) (handshakeLoop E S n) := by
  induction n with
  | zero => intro w hw; unfold Siotls.handshakeLoop; split <;> exact hw
  | succ n ih =>
    intro w hw
    unfold Siotls.handshakeLoop
    split
    · exact hw
    refine Keeps.bind (fun _ h => h) (fun d => ?_) w hw
    dsimp only
    split
    · exact Keeps.bind (pending_call rfl) fun _ => ih
    · exact Keeps.bind (pending_takeIn d) fun _ => ih

theorem readLoop_pending {R : Bytes} (n : Nat) (app : Bytes) (w : Wrapped)
    (h : Pending (R ++ app) w) :
    Pending (R ++ returned (readLoop E S n app w).1) (readLoop E S n app w).2 := by
  induction n generalizing app w with
  | zero =>
    unfold readLoop
    split
    · have : app = [] := by rename_i h; simp at h; exact h.2
      rw [this] at h; exact h
    · exact h
  | succ n ih =>
    unfold readLoop
    split
    · exact h
    have happ : app = [] := by rename_i h; simp at h; exact h.2
    subst happ
    rw [W.bind_def]
    unfold W.recv
    cases S.recv w.nrecv w.conn.mfl with
    | error e => exact h
    | ok d =>
      dsimp only
      have h' : Pending (R ++ []) { w with nrecv := w.nrecv + 1 } := h
      split
      · rw [W.bind_def]
        have := pending_call (E := E) (o := .closeRecv) rfl _ h'
        rcases hr : W.call E .closeRecv { w with nrecv := w.nrecv + 1 } with ⟨r, w'⟩
        rw [hr] at this
        cases r with
        | error e => exact this
        | ok a => exact ih _ _ this
      · rw [W.bind_def]
        have := pending_takeIn (E := E) (S := S) d _ h'
        rcases hr : takeIn E S d { w with nrecv := w.nrecv + 1 } with ⟨r, w'⟩
        rw [hr] at this
        cases r with
        | error e => exact this
        | ok a =>
          dsimp only
          rw [W.bind_def]
          refine ih _ _ ?_
          show R ++ ([] ++ w'.conn.applicationData) ++ [] = _
          rw [List.append_nil, ← List.append_assoc]
          exact this

theorem call_pending {R : Bytes} (x : Call) (w : Wrapped) (h : Pending R w) :
    Pending (R ++ if reading x then returned (x.run E S w).1 else []) (x.run E S w).2 := by
  have plain : ∀ {α} {m : W α} {I : Wrapped → Prop}, Keeps I m → I w →
      I ((do let _ ← m; pure [] : W Bytes) w).2 := fun hm hw => Keeps.bind hm (fun _ => Keeps.pure _) w hw
  cases x with
  | read n =>
    rw [if_pos (by rfl)]
    refine readLoop_pending n _ _ ?_
    show (R ++ w.conn.applicationData) ++ [] = _
    rw [List.append_nil]
    exact h
  | handshake n =>
    rw [if_neg (by exact Bool.false_ne_true), List.append_nil]
    refine plain (Keeps.bind (pending_call rfl) fun _ => Keeps.bind ?_ fun _ =>
      pending_handshakeLoop n) h
    intro w hw
    unfold sendHello
    split
    · exact Keeps.bind pending_drain (fun _ => pending_send _) w hw
    · exact hw
  | write d =>
    rw [if_neg (by exact Bool.false_ne_true), List.append_nil]
    exact plain (Keeps.bind (pending_call rfl) fun _ => Keeps.bind pending_drain fun _ =>
      pending_send _) h
  | close =>
    rw [if_neg (by exact Bool.false_ne_true), List.append_nil]
    exact plain (Keeps.bind (pending_call rfl) fun _ => pending_flush) h

/-! ## End of file -/

theorem handshakeLoop_post (n : Nat) (w w' : Wrapped) (h : handshakeLoop E S n w = (.ok (), w')) :
    w'.conn.state.isPostHandshake = true := by
  induction n generalizing w with
  | zero =>
    unfold handshakeLoop at h
    split at h
    · cases h; assumption
    · cases h
  | succ n ih =>
    unfold handshakeLoop at h
    split at h
    · cases h; assumption
    rw [W.bind_def] at h
    rcases hr : W.recv S w with ⟨r, w1⟩
    rw [hr] at h
    cases r with
    | error e => cases h
    | ok d =>
      dsimp only at h
      split at h
      · rw [W.bind_def] at h
        rcases hr : W.call E .closeRecv w1 with ⟨r, w2⟩
        rw [hr] at h
        cases r with
        | error e => cases h
        | ok a => exact ih _ h
      · rw [W.bind_def] at h
        rcases hr : takeIn E S d w1 with ⟨r, w2⟩
        rw [hr] at h
        cases r with
        | error e => cases h
        | ok a => exact ih _ h

theorem closeRecv_post (c : Conn) : (closeReceivingEnd c).2.state.isPostHandshake = true ∧
    (closeReceivingEnd c).2.state.isConnected = false := by
  unfold closeReceivingEnd
  split <;> exact ⟨rfl, rfl⟩

theorem closeRecv_ok (c : Conn) : (Op.run E .closeRecv c).1 = .ok [] := by
  have : ∃ c', closeReceivingEnd c = (.ok (), c') := by
    unfold closeReceivingEnd
    split <;> exact ⟨_, rfl⟩
  obtain ⟨c', h⟩ := this
  rw [Op.run, M.bind_def, h]
  rfl

theorem flush_nrecv (w : Wrapped) : (flush E S w).2.nrecv = w.nrecv := by
  rw [flush_eq]
  split
  · rfl
  · rw [W.bind_def]
    show (W.send S _ _).2.nrecv = _
    unfold W.send
    split <;> rfl

theorem takeIn_nrecv (d : Bytes) (w : Wrapped) : (takeIn E S d w).2.nrecv = w.nrecv := by
  unfold takeIn W.finally_
  have := flush_nrecv (E := E) (S := S) (W.call E (.receive d) w).2
  rcases h : flush E S (W.call E (.receive d) w).2 with ⟨r, w'⟩
  rw [h] at this
  cases r <;> exact this

theorem handshakeLoop_eof {i : Nat} (he : ∀ m, S.recv i m = .ok []) (n : Nat) (w : Wrapped)
    (hw : w.nrecv ≤ i) : (handshakeLoop E S n w).2.nrecv ≤ i + 1 := by
  induction n generalizing w with
  | zero => unfold handshakeLoop; split <;> exact Nat.le_succ_of_le hw
  | succ n ih =>
    unfold handshakeLoop
    split
    · exact Nat.le_succ_of_le hw
    rw [W.bind_def]
    unfold W.recv
    rcases Nat.lt_or_eq_of_le hw with hlt | rfl
    · cases S.recv w.nrecv w.conn.mfl with
      | error e => exact Nat.le_succ_of_le hlt
      | ok d =>
        dsimp only
        split
        · rw [W.bind_def]
          unfold W.call
          rw [closeRecv_ok]
          exact ih _ hlt
        · rw [W.bind_def]
          have := takeIn_nrecv (E := E) (S := S) d { w with nrecv := w.nrecv + 1 }
          rcases hr : takeIn E S d { w with nrecv := w.nrecv + 1 } with ⟨r, w'⟩
          rw [hr] at this
          cases r with
          | error e => exact Nat.le_succ_of_le (this ▸ hlt)
          | ok a => exact ih _ (this ▸ hlt)
    · rw [he]
      dsimp only
      rw [if_pos List.isEmpty_nil, W.bind_def]
      unfold W.call
      rw [closeRecv_ok]
      have hp := (closeRecv_post w.conn).1
      have hs : (Op.run E .closeRecv w.conn).2 = (closeReceivingEnd w.conn).2 := by
        rw [Op.run, wrap_snd]
      dsimp only
      rw [hs]
      cases n with
      | zero => unfold handshakeLoop; split <;> exact Nat.le_refl _
      | succ n => unfold handshakeLoop; rw [if_pos hp]

theorem readLoop_eof {i : Nat} (he : ∀ m, S.recv i m = .ok []) (n : Nat) (app : Bytes) (w : Wrapped)
    (hw : w.nrecv ≤ i) : (readLoop E S n app w).2.nrecv ≤ i + 1 := by
  induction n generalizing app w with
  | zero => unfold readLoop; split <;> exact Nat.le_succ_of_le hw
  | succ n ih =>
    unfold readLoop
    split
    · exact Nat.le_succ_of_le hw
    rw [W.bind_def]
    unfold W.recv
    rcases Nat.lt_or_eq_of_le hw with hlt | rfl
    · cases S.recv w.nrecv w.conn.mfl with
      | error e => exact Nat.le_succ_of_le hlt
      | ok d =>
        dsimp only
        split
        · rw [W.bind_def]
          unfold W.call
          rw [closeRecv_ok]
          exact ih _ _ hlt
        · rw [W.bind_def]
          have := takeIn_nrecv (E := E) (S := S) d { w with nrecv := w.nrecv + 1 }
          rcases hr : takeIn E S d { w with nrecv := w.nrecv + 1 } with ⟨r, w'⟩
          rw [hr] at this
          cases r with
          | error e => exact Nat.le_succ_of_le (this ▸ hlt)
          | ok a => exact ih _ _ (this ▸ hlt)
    · rw [he]
      dsimp only
      rw [if_pos List.isEmpty_nil, W.bind_def]
      unfold W.call
      rw [closeRecv_ok]
      have hp := (closeRecv_post w.conn).2
      have hs : (Op.run E .closeRecv w.conn).2 = (closeReceivingEnd w.conn).2 := by
        rw [Op.run, wrap_snd]
      dsimp only
      rw [hs]
      cases n with
      | zero => unfold readLoop; split <;> exact Nat.le_refl _
      | succ n => unfold readLoop; rw [if_pos (by dsimp only; rw [hp]; rfl)]

end Siotls
