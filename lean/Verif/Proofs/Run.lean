import Verif.Proofs.Lts
/-!
# Running methods as sequences of atomic steps
-/

namespace Siotls

/-- From `c`, the method makes atomic steps, and if it returns `a` then `Q a` holds of the
connection. -/
def Run (E : Env) (G : Conn → Prop) {α} (m : M α) (c : Conn) (Q : α → Conn → Prop) : Prop :=
  Steps E G c (m c).2 ∧ ∀ a, (m c).1 = .ok a → Q a (m c).2

variable {E : Env} {G : Conn → Prop} {α β : Type}

theorem M.bind_def (m : M α) (f : α → M β) (c : Conn) :
    (m >>= f) c = match m c with
      | (.ok a, c') => f a c'
      | (.error e, c') => (.error e, c') := rfl

theorem M.pure_def (a : α) (c : Conn) : (pure a : M α) c = (.ok a, c) := rfl

theorem M.map_def (f : α → β) (m : M α) (c : Conn) :
    (f <$> m) c = match m c with
      | (.ok a, c') => (.ok (f a), c')
      | (.error e, c') => (.error e, c') := rfl

theorem Run.mono {m : M α} {c : Conn} {Q Q' : α → Conn → Prop} (h : Run E G m c Q)
    (hq : ∀ a c', Q a c' → Q' a c') : Run E G m c Q' :=
  ⟨h.1, fun a ha => hq a _ (h.2 a ha)⟩

theorem Run.bind {m : M α} {f : α → M β} {c : Conn} {Q : α → Conn → Prop} {R : β → Conn → Prop}
    (h : Run E G m c Q) (hf : ∀ a c', Q a c' → Run E G (f a) c' R) : Run E G (m >>= f) c R := by
  obtain ⟨hs, hq⟩ := h
  rw [Run, M.bind_def]
  rcases hm : m c with ⟨r, c'⟩
  rw [hm] at hs hq
  cases r with
  | error e => exact ⟨hs, by simp⟩
  | ok a =>
    have := hf a c' (hq a rfl)
    exact ⟨hs.trans this.1, this.2⟩

theorem Run.bind' {m : M α} {f : α → M β} {c : Conn} {R : β → Conn → Prop}
    (h : Run E G m c fun a c' => Run E G (f a) c' R) : Run E G (m >>= f) c R :=
  Run.bind h fun _ _ h => h

theorem Run.pure {a : α} {c : Conn} {Q : α → Conn → Prop} (h : Q a c) :
    Run E G (pure a : M α) c Q :=
  ⟨.refl, by rintro b hb; cases hb; exact h⟩

theorem Run.mpure {a : α} {c : Conn} {Q : α → Conn → Prop} (h : Q a c) :
    Run E G (M.pure a) c Q := Run.pure h

theorem Run.throw {e : Exn} {c : Conn} {Q : α → Conn → Prop} : Run E G (M.throw e : M α) c Q :=
  ⟨.refl, by rintro b hb; cases hb⟩

theorem Run.lift {r : Except Exn α} {c : Conn} {Q : α → Conn → Prop}
    (h : ∀ a, r = .ok a → Q a c) : Run E G (M.lift r) c Q :=
  ⟨.refl, h⟩

theorem Run.bind_eq {α β} {m : M α} {f : α → M β} {c : Conn} {Q : α → Conn → Prop}
    {R : β → Conn → Prop} (h : Run E G m c Q)
    (hf : ∀ a c', m c = (.ok a, c') → Q a c' → Run E G (f a) c' R) : Run E G (m >>= f) c R := by
  obtain ⟨hs, hq⟩ := h
  rw [Run, M.bind_def]
  rcases hm : m c with ⟨r, c'⟩
  rw [hm] at hs hq
  cases r with
  | error e => exact ⟨hs, by simp⟩
  | ok a =>
    have := hf a c' hm (hq a rfl)
    exact ⟨hs.trans this.1, this.2⟩

theorem Run.get {c : Conn} {Q : Conn → Conn → Prop} (h : Q c c) : Run E G M.get c Q :=
  ⟨.refl, by rintro b hb; cases hb; exact h⟩

theorem Run.modify {f : Conn → Conn} {c : Conn} {Q : Unit → Conn → Prop}
    (hs : Step E G c (f c)) (h : Q () (f c)) : Run E G (M.modify f) c Q :=
  ⟨.single hs, by rintro b hb; exact h⟩

theorem Run.moveTo {s : St} {c : Conn} {Q : Unit → Conn → Prop}
    (hs : MoveOk E c s) (h : Q () { c with state := s }) : Run E G (moveTo s) c Q :=
  Run.modify (.move hs) h

theorem Run.nextDraw {c : Conn} {Q : Nat → Conn → Prop}
    (h : Q c.draws { c with draws := c.draws + 1 }) : Run E G nextDraw c Q :=
  ⟨.single (.draw _), by rintro b hb; cases hb; exact h⟩

theorem Run.getNc {c : Conn} {Q : NConfig → Conn → Prop}
    (h : ∀ n, c.nconfig = some n → Q n c) : Run E G getNc c Q := by
  unfold Run Siotls.getNc
  cases hn : c.nconfig with
  | none => exact ⟨.refl, by simp⟩
  | some n => exact ⟨.refl, by rintro b hb; cases hb; exact h _ hn⟩

theorem Run.getCipher {c : Conn} {Q : CipherSt → Conn → Prop}
    (h : ∀ n, c.cipher = some n → Q n c) : Run E G getCipher c Q := by
  unfold Run Siotls.getCipher
  cases hn : c.cipher with
  | none => exact ⟨.refl, by simp⟩
  | some n => exact ⟨.refl, by rintro b hb; cases hb; exact h _ hn⟩

theorem Run.setNc {f : NConfig → NConfig} {c : Conn} {Q : Unit → Conn → Prop}
    (hs : ∀ o, c.nconfig = some o → NcUpd E c o (f o))
    (h : ∀ o, c.nconfig = some o → Q () { c with nconfig := some (f o) }) :
    Run E G (setNc f) c Q := by
  unfold Run Siotls.setNc
  cases hn : c.nconfig with
  | none => exact ⟨.refl, by simp⟩
  | some n =>
    dsimp only
    split
    · exact ⟨.refl, by simp⟩
    · exact ⟨.single (.nc (.upd hn (hs n hn))), fun _ _ => h n hn⟩

theorem Run.transcriptDigest {c : Conn} {Q : Bytes → Conn → Prop}
    (h : ∀ d, c.transcript.digest E = .ok d → Q d c) : Run E G (transcriptDigest E) c Q :=
  ⟨.refl, h⟩

theorem Run.transcriptPostInit {a : HashAlg} {c : Conn} {k : CipherSt} {Q : Unit → Conn → Prop}
    (hk : c.cipher = some k) (ha : k.info.digest = a)
    (hst : (∃ ks h, c.state = .clientWaitSH true ks h) ∨ c.state = .serverWaitCH true)
    (h : ∀ t, c.transcript.postInit a = .ok t → Q () { c with transcript := t }) :
    Run E G (transcriptPostInit a) c Q := by
  unfold Run Siotls.transcriptPostInit
  cases hn : c.transcript.postInit a with
  | error e => exact ⟨.refl, by simp⟩
  | ok t => exact ⟨.single (.postInit hk (ha ▸ hn) hst), fun _ _ => h t hn⟩

theorem Run.cipherSkipEarly {c : Conn} {Q : Unit → Conn → Prop}
    (h : ∀ k k', c.cipher = some k → skipEarly E k = .ok k' → Q () { c with cipher := some k' }) :
    Run E G (cipherSkipEarly E) c Q := by
  unfold Run Siotls.cipherSkipEarly
  cases hc : c.cipher with
  | none => exact ⟨.refl, by simp⟩
  | some k =>
    dsimp only
    cases hk : skipEarly E k with
    | error e => exact ⟨.refl, by simp⟩
    | ok k' => exact ⟨.single (.skipEarly hc hk), fun _ _ => h k k' hc hk⟩

theorem Run.cipherDeriveHandshake {shared hash : Bytes} {c : Conn} {Q : Unit → Conn → Prop}
    (hi : c.inputHandshake = []) (hs : HsOk E c shared hash)
    (h : ∀ k k', c.cipher = some k → deriveHandshake E k shared hash = (.ok (), k') →
      Q () { c with cipher := some k', tr := keyEvents (handshakeLog E c.logId k shared hash) k k' ++ c.tr }) :
    Run E G (cipherDeriveHandshake E shared hash) c Q := by
  unfold Run Siotls.cipherDeriveHandshake
  cases hc : c.cipher with
  | none => exact ⟨.refl, by simp⟩
  | some k =>
    dsimp only
    rcases hd : deriveHandshake E k shared hash with ⟨r, k'⟩
    refine ⟨.single (.handshakeKeys hi hc hs hd), fun _ hr => h k k' hc ?_⟩
    dsimp only at hr
    rw [hd, hr]

theorem Run.cipherDeriveMaster {sf cf : Bytes} {c : Conn} {Q : Bytes × Bytes → Conn → Prop}
    (hi : c.inputHandshake = []) (hs : MsOk E c sf cf)
    (h : ∀ k k' r, c.cipher = some k → deriveMaster E k sf cf = (.ok r, k') →
      Q r { c with cipher := some k', tr := keyEvents (masterLog E c.logId k sf cf) k k' ++ c.tr }) :
    Run E G (cipherDeriveMaster E sf cf) c Q := by
  unfold Run Siotls.cipherDeriveMaster
  cases hc : c.cipher with
  | none => exact ⟨.refl, by simp⟩
  | some k =>
    dsimp only
    rcases hd : deriveMaster E k sf cf with ⟨r, k'⟩
    refine ⟨.single (.masterKeys hi hc hs hd), fun a hr => h k k' a hc ?_⟩
    dsimp only at hr
    rw [hd, hr]

/-- the part of the state that only changes in particular places -/
theorem Run.of_eq {m : M α} {c : Conn} {Q : α → Conn → Prop} {r : Except Exn α} {c' : Conn}
    (hm : m c = (r, c')) (hs : Steps E G c c') (hq : ∀ a, r = .ok a → Q a c') : Run E G m c Q := by
  rw [Run, hm]; exact ⟨hs, hq⟩

end Siotls
