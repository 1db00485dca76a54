import Verif.Proofs.Life
import Verif.Proofs.Limit
import Verif.Proofs.Encoding
import Verif.Proofs.Session
import Verif.Proofs.AlgInv
import Verif.Spec.PostHandshake
/-!
# What a connected endpoint does with handshake messages (C106)
-/

namespace Siotls
open Spec Spec.Rfc Serial

variable {E : Env}

/-! ## Reading -/

/-- what was read is what is returned -/
def ReadOut (c : Conn) (r : Except Exn (Option (Nat × Bytes))) (c' : Conn) : Prop :=
  ∃ new, c'.tr = new ++ c.tr ∧ ∀ t d, Ev.got t d ∈ new → r = .ok (some (t, d))

theorem ReadOut.same {c c' : Conn} {r} (h : c'.tr = c.tr) : ReadOut c r c' := ⟨[], h, by simp⟩

theorem ReadOut.after {a b c : Conn} {r} (h : ∃ new, b.tr = new ++ a.tr ∧ ∀ t d, Ev.got t d ∉ new)
    (h' : ReadOut b r c) : ReadOut a r c := by
  obtain ⟨n, h1, h2⟩ := h
  obtain ⟨m, h3, h4⟩ := h'
  refine ⟨m ++ n, by rw [h3, h1, List.append_assoc], fun t d hd => ?_⟩
  rcases List.mem_append.mp hd with hd | hd
  · exact h4 t d hd
  · exact absurd hd (h2 t d)

theorem untold_record (c : Conn) :
    ∃ new, (readNextRecord E c).2.tr = new ++ c.tr ∧ ∀ t d, Ev.got t d ∉ new := by
  have hd : ∀ (header frag : Bytes) (c : Conn), ∃ new,
      (decryptRecord E header frag c).2.tr = new ++ c.tr ∧ ∀ t d, Ev.got t d ∉ new := by
    intro header frag c
    unfold decryptRecord
    split
    · exact ⟨[], rfl, by simp⟩
    · split
      · exact ⟨[], rfl, by simp⟩
      · split
        · exact ⟨[], rfl, by simp⟩
        · dsimp only
          split
          · exact ⟨[], rfl, by simp⟩
          · split <;> exact ⟨[_], rfl, by simp⟩
  have hu : ∀ (outer : Nat) (header frag : Bytes) (c : Conn), ∃ new,
      (useRecord E outer header frag c).2.tr = new ++ c.tr ∧ ∀ t d, Ev.got t d ∉ new := by
    intro outer header frag c
    unfold useRecord
    cases hm : c.mustDecrypt with
    | false =>
      simp only [Bool.false_eq_true, if_false]
      split <;> exact ⟨[], rfl, by simp⟩
    | true =>
      simp only [if_true]
      have := hd header frag c
      rcases hr : decryptRecord E header frag c with ⟨r, c'⟩
      rw [hr] at this
      cases r with
      | error e => exact this
      | ok x => obtain ⟨ct, f⟩ := x; dsimp only; split <;> exact this
  cases nextRecord (E := E) c with
  | none _ h => rw [h]; exact ⟨[], rfl, by simp⟩
  | overflow _ h => rw [h]; exact ⟨[], rfl, by simp⟩
  | record outer header frag rest _ _ h => rw [h]; exact hu outer header frag { c with inputData := rest }

theorem readOut_finish (c : Conn) : ReadOut c (finishHandshake c).1 (finishHandshake c).2 := by
  unfold finishHandshake
  split
  · exact .same rfl
  · refine ⟨[_], rfl, fun t d h => ?_⟩
    cases List.mem_singleton.mp h
    rfl

theorem readOut_complete (fuel : Nat) (c : Conn) :
    ReadOut c (completeHandshake E fuel c).1 (completeHandshake E fuel c).2 := by
  induction fuel generalizing c with
  | zero =>
    unfold completeHandshake
    split
    · exact .same rfl
    · exact readOut_finish c
  | succ n ih =>
    rw [completeHandshake]
    dsimp only
    split
    · have := untold_record (E := E) c
      rcases hm : readNextRecord E c with ⟨r, c'⟩
      rw [hm] at this
      cases r with
      | error e => exact ReadOut.after this (.same rfl)
      | ok r =>
        cases r with
        | none => exact ReadOut.after this (.same rfl)
        | some r =>
          obtain ⟨ct, fr⟩ := r
          dsimp only
          split
          · exact ReadOut.after this (.same rfl)
          · exact ReadOut.after (b := { c' with inputHandshake := c'.inputHandshake ++ fr }) this (ih _)
    · exact readOut_finish c

theorem readOut_content (c : Conn) : ReadOut c (readNextContent E c).1 (readNextContent E c).2 := by
  rw [readNextContent_eq]
  have := untold_record (E := E) c
  rcases hm : readNextRecord E c with ⟨r, c'⟩
  rw [hm] at this
  cases r with
  | error e => exact ReadOut.after this (.same rfl)
  | ok r =>
    cases r with
    | none => exact ReadOut.after this (.same rfl)
    | some r =>
      obtain ⟨ct, fr⟩ := r
      dsimp only
      split
      · refine ReadOut.after this ⟨[_], rfl, fun t d h => ?_⟩
        cases List.mem_singleton.mp h
        rfl
      · split
        · exact ReadOut.after this (.same rfl)
        · split
          · exact ReadOut.after this (.same rfl)
          · exact ReadOut.after (b := { c' with inputHandshake := c'.inputHandshake ++ fr }) this
              (readOut_complete _ _)

/-! ## Using a content once the handshake is over -/

/-- the handshake is over, and did not fail -/
def Over (s : St) : Prop := s = .connected ∨ ∃ r w, s = .closed r w

theorem decode_handshake {ct : Option (Option Nat)} {d : Bytes} {x : Content}
    (h : decodeContent E ct 22 d = .ok x) : x = .unparsed ∨ ∃ m, x = .handshake m := by
  unfold decodeContent at h
  dsimp only at h
  split at h
  · next y s hy =>
    cases h
    rw [P.bind_def] at hy
    split at hy
    · next z s' hz =>
      have : z = .unparsed ∨ ∃ m, z = .handshake m := by
        replace hz : (parseHandshake E ct >>= fun h => match h with
          | some h => (pure (.handshake h) : P Content)
          | none => pure .unparsed) (Stream.new d) = .ok (z, s') := hz
        rw [P.bind_def] at hz
        split at hz
        · next o s'' ho =>
          cases o with
          | none => cases hz; exact .inl rfl
          | some m => cases hz; exact .inr ⟨m, rfl⟩
        · cases hz
      rw [P.bind_def] at hy
      split at hy
      · cases hy; exact this
      · cases hy
    · cases hy
  · split at h <;> cases h

theorem process_over {x : Content} {c c' : Conn} {r : Except Exn Unit} (ho : Over c.state)
    (h : process E x c = (r, c')) :
    (∃ new, c'.tr = new ++ c.tr ∧ ∀ t d, Ev.got t d ∉ new) ∧
    (∀ u, r = .ok u → Over c'.state ∧ x ≠ .unparsed ∧ ∀ m, x ≠ .handshake m) := by
  have hb : ∀ {r c'}, baseProcess x c = (r, c') →
      c'.tr = c.tr ∧ (∀ u, r = .ok u → Over c'.state ∧ x ≠ .unparsed ∧ ∀ m, x ≠ .handshake m) := by
    intro r c' h
    cases x with
    | alert l d =>
      unfold baseProcess at h
      dsimp only at h
      split at h
      · cases h; exact ⟨rfl, fun _ _ => ⟨.inr ⟨_, _, rfl⟩, by simp, by simp⟩⟩
      · split at h
        · split at h <;> cases h
          · exact ⟨rfl, fun _ _ => ⟨ho, by simp, by simp⟩⟩
          · exact ⟨rfl, fun _ h => by cases h⟩
        · split at h <;> cases h <;> exact ⟨rfl, fun _ h => by cases h⟩
    | _ => cases h; exact ⟨rfl, fun _ h => by cases h⟩
  have hc : connectedProcess x c = (r, c') → _ := fun h => show
      (∃ new, c'.tr = new ++ c.tr ∧ ∀ t d, Ev.got t d ∉ new) ∧
      (∀ u, r = .ok u → Over c'.state ∧ x ≠ .unparsed ∧ ∀ m, x ≠ .handshake m) by
    cases x with
    | applicationData d =>
      cases h
      exact ⟨⟨[_], rfl, by simp⟩, fun _ _ => ⟨ho, by simp, by simp⟩⟩
    | _ => exact ⟨⟨[], (hb h).1, by simp⟩, (hb h).2⟩
  unfold process at h
  rcases ho with hs | ⟨a, b, hs⟩
  · rw [hs] at h
    exact hc h
  · rw [hs] at h
    dsimp only at h
    split at h
    · exact hc h
    · cases h
      exact ⟨⟨[], rfl, by simp⟩, fun _ h => by cases h⟩

theorem use_over {t : Nat} {d : Bytes} {c c' : Conn} {r : Except Exn Bool} (ho : Over c.state)
    (h : useContent E t d c = (r, c')) :
    (∃ new, c'.tr = new ++ c.tr ∧ ∀ t d, Ev.got t d ∉ new) ∧
    (∀ b, r = .ok b → Over c'.state ∧ t ≠ 22) := by
  unfold useContent at h
  rw [M.bind_def] at h
  simp only [M.get] at h
  rw [M.bind_def] at h
  cases hd : decodeContent E c.certType t d with
  | error e =>
    rw [hd] at h
    cases h
    exact ⟨⟨[], rfl, by simp⟩, fun _ h => by cases h⟩
  | ok x =>
  rw [hd] at h
  simp only [M.lift] at h
  rw [M.bind_def] at h
  rcases hh : hashContent d c.config.side.other x c with ⟨r₁, c₁⟩
  rw [hh] at h
  have h1 : (∃ new, c₁.tr = new ++ c.tr ∧ ∀ t d, Ev.got t d ∉ new) ∧ c₁.state = c.state := by
    unfold hashContent at hh
    split at hh
    · unfold transcriptUpdate at hh
      split at hh <;> cases hh
      · split
        · exact ⟨⟨[_], rfl, by simp⟩, rfl⟩
        · exact ⟨⟨[], rfl, by simp⟩, rfl⟩
      · exact ⟨⟨[], rfl, by simp⟩, rfl⟩
    · cases hh; exact ⟨⟨[], rfl, by simp⟩, rfl⟩
    · cases hh; exact ⟨⟨[], rfl, by simp⟩, rfl⟩
  obtain ⟨⟨n, h1, h2⟩, h3⟩ := h1
  cases r₁ with
  | error e =>
    cases h
    exact ⟨⟨n, h1, h2⟩, fun _ h => by cases h⟩
  | ok u =>
  dsimp only at h
  rw [M.bind_def] at h
  simp only [ghost, M.modify] at h
  rw [M.bind_def] at h
  rcases hp : process E x { c₁ with tr := .recv x :: c₁.tr } with ⟨r₂, c₂⟩
  rw [hp] at h
  obtain ⟨⟨m, h4, h5⟩, h6⟩ := process_over (c := { c₁ with tr := .recv x :: c₁.tr })
    (show Over c₁.state by rw [h3]; exact ho) hp
  have hn : ∃ new, c₂.tr = new ++ c.tr ∧ ∀ t d, Ev.got t d ∉ new := by
    refine ⟨m ++ (.recv x :: n), ?_, fun t d => ?_⟩
    · rw [h4]; show m ++ (.recv x :: c₁.tr) = _; rw [h1]; simp
    · simp [h5, h2]
  cases r₂ with
  | error e =>
    cases h
    exact ⟨hn, fun _ h => by cases h⟩
  | ok u =>
    cases h
    obtain ⟨k1, k2, k3⟩ := h6 _ rfl
    refine ⟨hn, fun _ _ => ⟨k1, ?_⟩⟩
    rintro rfl
    rcases decode_handshake hd with h | ⟨m, h⟩
    · exact k2 h
    · exact k3 m h

/-- a handshake message, read once the handshake is over, is what the turn raises for -/
def Blamed (E : Env) (c : Conn) (r : Except Exn Bool) (c' : Conn) : Prop :=
  ∃ new, c'.tr = new ++ c.tr ∧ ∀ m, Ev.got 22 m ∈ new →
    ∃ e c₁, Over c₁.state ∧ r = .error e ∧ useContent E 22 m c₁ = (.error e, c')

theorem step_over {c c' : Conn} {r : Except Exn Bool} (ho : Over c.state)
    (h : receiveStep E c = (r, c')) : Blamed E c r c' ∧ (∀ b, r = .ok b → Over c'.state) := by
  rw [receiveStep_eq] at h
  obtain ⟨n, h1, h2⟩ := readOut_content (E := E) c
  have h3 := (reading_content (E := E) c).state
  rcases hm : readNextContent E c with ⟨q, c₁⟩
  rw [hm] at h h1 h2 h3
  cases q with
  | error e =>
    cases h
    exact ⟨⟨n, h1, fun m hm => by cases h2 _ _ hm⟩, fun _ h => by cases h⟩
  | ok q =>
  cases q with
  | none =>
    cases h
    exact ⟨⟨n, h1, fun m hm => by cases h2 _ _ hm⟩, fun _ _ => by rw [h3]; exact ho⟩
  | some q =>
    obtain ⟨t, d⟩ := q
    dsimp only at h h1 h2 h3
    have ho₁ : Over c₁.state := by rw [h3]; exact ho
    obtain ⟨⟨m, h4, h5⟩, h6⟩ := use_over ho₁ h
    refine ⟨⟨m ++ n, by rw [h4, h1, List.append_assoc], fun x hx => ?_⟩, fun b hb => (h6 b hb).1⟩
    rcases List.mem_append.mp hx with hx | hx
    · exact absurd hx (h5 _ _)
    · cases h2 _ _ hx
      cases r with
      | ok b => exact absurd rfl (h6 b rfl).2
      | error e => exact ⟨e, c₁, ho₁, rfl, h⟩

/-! ## The loop -/

theorem while_over_ok {n : Nat} {c c' : Conn} {r : Except Exn Unit} (h : While E n c r c')
    (hr : r = .ok ()) (ho : Over c.state) : ∃ new, c'.tr = new ++ c.tr ∧ ∀ m, Ev.got 22 m ∉ new := by
  induction h with
  | stop h =>
    obtain ⟨⟨n, h1, h2⟩, _⟩ := step_over ho h
    refine ⟨n, h1, fun m hm => ?_⟩
    obtain ⟨_, _, _, h, _⟩ := h2 m hm
    cases h
  | failed => cases hr
  | unreported => cases hr
  | turn h _ ih =>
    obtain ⟨⟨n, h1, h2⟩, h3⟩ := step_over ho h
    obtain ⟨k, h4, h5⟩ := ih hr (h3 _ rfl)
    refine ⟨k ++ n, by rw [h4, h1, List.append_assoc], fun m hm => ?_⟩
    rcases List.mem_append.mp hm with hm | hm
    · exact h5 m hm
    · obtain ⟨_, _, _, h, _⟩ := h2 m hm
      cases h

theorem while_over_error {n : Nat} {c c' : Conn} {r : Except Exn Unit} {e : Exn} (hS : E.Seals)
    (hO : E.Outside) (h : While E n c r c') (hr : r = .error e) (ha : AliveInv c) (hm : MflInv E c)
    (hc : c.state.canSend = true) (ho : Over c.state) (hk : shouldRekey c' = .ok false) :
    ∃ new, c'.tr = new ++ c.tr ∧ ∀ m, Ev.got 22 m ∈ new →
      ∃ c₁ c₂, Over c₁.state ∧ useContent E 22 m c₁ = (.error e, c₂) := by
  induction h with
  | stop => cases hr
  | failed h hf =>
    obtain ⟨k1, k2, k3, _⟩ := receiveStep_keep h ha hm hc
    cases hr
    have hd : alertFor e < 256 := codedM_receiveStep hO _ e (congrArg Prod.fst h)
    obtain ⟨⟨n, h1, h2⟩, _⟩ := step_over ho h
    rcases failWith_cases hS hd k1 k2 k3 with ⟨c₂, out, g1, _, g3, g4, _⟩ | ⟨c₂, e', g1, _⟩
    · rw [hf] at g1
      cases g1
      refine ⟨out ++ n, by rw [g3, h1, List.append_assoc], fun m hm => ?_⟩
      rcases List.mem_append.mp hm with hm | hm
      · rcases g4 with rfl | ⟨_, _, _, _, _, rfl⟩ <;> simp at hm
      · obtain ⟨_, c₁, q1, q2, q3⟩ := h2 m hm
        cases q2
        exact ⟨c₁, _, q1, q3⟩
    · rw [hf] at g1; cases g1
  | unreported h hf =>
    obtain ⟨k1, k2, k3, _⟩ := receiveStep_keep h ha hm hc
    have hd := codedM_receiveStep hO _ _ (congrArg Prod.fst h)
    rcases failWith_cases hS hd k1 k2 k3 with ⟨c₂, out, h1, _⟩ | ⟨c₃, e', h1, h2⟩
    · rw [hf] at h1; cases h1
    · rw [hf] at h1
      cases h1
      rw [h2.rekey] at hk
      cases hk
  | turn h _ ih =>
    obtain ⟨k1, k2, k3, _⟩ := receiveStep_keep h ha hm hc
    obtain ⟨⟨n, h1, h2⟩, h3⟩ := step_over ho h
    obtain ⟨k, h4, h5⟩ := ih hr k1 k2 k3 (h3 _ rfl) hk
    refine ⟨k ++ n, by rw [h4, h1, List.append_assoc], fun m hm => ?_⟩
    rcases List.mem_append.mp hm with hm | hm
    · exact h5 m hm
    · obtain ⟨_, _, _, h, _⟩ := h2 m hm
      cases h

/-! ## Messages without parser -/

/-- a message whose class does not override `parse_body` cannot have a body -/
theorem decode_bodyless (ct : Option (Option Nat)) {t : UInt8} (ht : t = 4 ∨ t = 5 ∨ t = 24)
    {body : Bytes} (hb : body ≠ []) (hl : body.length < 2 ^ 24) :
    decodeContent E ct 22 (t :: (beEnc 3 body.length ++ body)) = .error (.alert 50) := by
  have h1 : Parses (readInt 1) [t] t.toNat := by
    have := parses_readInt (n := 1) (i := t.toNat) (by decide) (by simpa using t.toNat_lt)
    rwa [beEnc_one, UInt8.ofNat_toNat] at this
  have h2 := parses_readInt (n := 3) (i := body.length) (by decide) (by simpa using hl)
  have hr : hsRegistry t.toNat = .ok () := by rcases ht with rfl | rfl | rfl <;> rfl
  have hp : parseHsBody E ct t.toNat = (pure none : P (Option Handshake)) := by
    rcases ht with rfl | rfl | rfl <;> rfl
  have hlen : body.length ≠ 0 := fun h => hb (List.eq_nil_of_length_eq_zero h)
  have : parseHandshake E ct ⟨t :: (beEnc 3 body.length ++ body), 0, []⟩ = .error .bufTooMuch := by
    unfold parseHandshake
    rw [P.bind_def, show t :: (beEnc 3 body.length ++ body) = [t] ++ (beEnc 3 body.length ++ body)
      from rfl, h1.run]
    dsimp only
    rw [P.bind_def, h2.run]
    dsimp only
    rw [P.bind_def, hr]
    simp only [P.lift]
    rw [hp, limit_ok_eq _ _ _ _ _ (by simp)]
    show (if _ ≠ _ then _ else _) = _
    rw [if_pos (by simp; omega)]
  unfold decodeContent
  dsimp only
  rw [P.bind_def, parseContent, P.bind_def, show Stream.new _ = (⟨_, 0, []⟩ : Stream) from rfl, this]
  rfl

theorem posthandshake_bodyless {side : Side} {m : Bytes} (h : Posthandshake side m) :
    ∃ t body, (t = 4 ∨ t = 5 ∨ t = 24) ∧ body ≠ [] ∧ body.length < 2 ^ 24 ∧
      m = t :: (beEnc 3 body.length ++ body) := by
  have key : ∀ {i : Nat} {body m : Bytes}, i < 256 → Pair (Num 1 i) (Vec 3 body) m →
      body.length < 2 ^ 24 ∧ m = UInt8.ofNat i :: (beEnc 3 body.length ++ body) := by
    rintro i body m hi ⟨x, y, h1, ⟨len, h2, rfl⟩, rfl⟩
    rw [← num_ok] at h1 h2
    unfold Serial.toBytes at h1 h2
    split at h1
    · split at h2
      · next hl =>
        cases h1
        cases h2
        exact ⟨by simpa using hl, by rw [beEnc_one]; rfl⟩
      · cases h2
    · next h => exact absurd (by simpa using hi) h
  rcases h with ⟨-, life, add, nonce, ticket, exts, body, -, hb, hm⟩ | ⟨q, body, -, hb, hm⟩
  · obtain ⟨h1, h2⟩ := key (by decide) hm
    refine ⟨4, body, .inl rfl, ?_, h1, h2⟩
    rintro rfl
    obtain ⟨x, y, ⟨hx, -⟩, -, hxy⟩ := hb
    have := congrArg List.length hxy
    rw [List.length_append, hx] at this
    cases Nat.eq_zero_of_add_eq_zero_right this.symm
  · obtain ⟨h1, h2⟩ := key (by decide) hm
    refine ⟨24, body, .inr (.inr rfl), ?_, h1, h2⟩
    rintro rfl
    cases hb.1

/-! ## A message in a record of its own -/

theorem stripPadding_bare (m : Bytes) : stripPadding (m ++ [22]) = some (22, m) := by
  unfold stripPadding
  simp

theorem bodyless_honest {t : UInt8} {body : Bytes} (hl : body.length < 2 ^ 24) :
    HonestMsg (t :: (beEnc 3 body.length ++ body)) := by
  refine ⟨by simp, ?_⟩
  unfold handshakeLength
  rw [List.drop_one, List.tail_cons, List.take_left' (by simp), beDec_beEnc (by simpa using hl)]
  simp

theorem reads_delivered {c : Conn} {d m : Bytes} {side : Side} (hi : c.inputData = d)
    (hh : c.inputHandshake = []) (h : Delivers E c d m) (hp : Posthandshake side m) :
    ∃ c₁ e, readNextContent E c = (.ok (some (22, m)), c₁) ∧ c₁.tr = .got 22 m :: e :: c.tr := by
  obtain ⟨k, key, nonce, rd, body, h1, h2, h3, rfl, h4, h5, h6⟩ := h
  have hdec : c.mustDecrypt = true := by unfold Conn.mustDecrypt; rw [h1]; simp [h2]
  have hrec := readNextRecord_whole (E := E) (c := c) (o := 23) (b := body) (rest := []) (by decide)
    (by decide) h4 (by unfold Conn.recordLimit; rw [hdec]; exact h5)
    (by rw [hi]; simp [recordBytes, vec16])
  obtain ⟨t, b, ht, hb, hlen, rfl⟩ := posthandshake_bodyless hp
  have hopen : readNextRecord E c = (.ok (some (22, t :: (beEnc 3 b.length ++ b))),
      { c with inputData := [], cipher := some { k with rd := rd },
               tr := .opened k.info.id key nonce ([23, 3, 3] ++ be16 body.length)
                 (t :: (beEnc 3 b.length ++ b) ++ [22]) :: c.tr }) := by
    rw [hrec]
    unfold useRecord
    rw [show Conn.mustDecrypt { c with inputData := [] } = true from hdec]
    simp only [if_true]
    have h6' : E.aeadOpen k.info.id key nonce ([UInt8.ofNat 23, 3, 3] ++ be16 body.length) body =
      some (t :: (beEnc 3 b.length ++ b) ++ [22]) := h6
    unfold decryptRecord
    simp only [h1, h2, h3, h6', stripPadding_bare]
    rw [if_neg (by decide)]
    rfl
  exact ⟨_, _, content_of_record (bodyless_honest hlen) hh hopen, rfl⟩

theorem receive_delivered {c : Conn} {d m : Bytes} {side : Side} (hs : c.state = .connected)
    (hi : c.inputData = []) (hh : c.inputHandshake = []) (h : Delivers E c d m)
    (hp : Posthandshake side m) :
    ∃ new, (receiveData E d c).2.tr = new ++ c.tr ∧ Ev.got 22 m ∈ new := by
  have hd : d ≠ [] := by
    obtain ⟨_, _, _, _, _, _, _, _, rfl, _⟩ := h
    simp
  obtain ⟨c₁, x, h1, h2⟩ := reads_delivered (c := c.fed d) (by unfold Conn.fed; rw [hi]; rfl) hh h hp
  have hstep : receiveStep E (c.fed d) = (.error (.alert 50), c₁) := by
    rw [receiveStep_eq, h1]
    obtain ⟨t, body, ht, hb, hlen, rfl⟩ := posthandshake_bodyless hp
    dsimp only
    unfold useContent
    rw [M.bind_def]
    simp only [M.get]
    rw [M.bind_def, decode_bodyless _ ht hb hlen]
    rfl
  have hsuf : c₁.tr <:+ (failWith E 50 c₁).2.tr :=
    Steps.inv (I := fun c => c₁.tr <:+ c.tr) (fun _ _ hi hs => hi.trans hs.suffix)
      (run_failWith (G := fun _ => True) 50 c₁).1 (List.suffix_refl _)
  have hend : (receiveData E d c).2 = (failWith E 50 c₁).2 := by
    rw [receiveData_eq hd (by rw [hs]; rfl), loop_eq, hstep]
    dsimp only [alertFor]
    rcases failWith E 50 c₁ with ⟨r, c₂⟩
    cases r <;> rfl
  obtain ⟨n, hn⟩ := hsuf
  refine ⟨n ++ [.got 22 m, x], ?_, by simp⟩
  rw [hend, ← hn, h2]
  simp [Conn.fed]

end Siotls
