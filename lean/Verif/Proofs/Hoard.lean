import Verif.Spec.Hoard
import Verif.Proofs.Split
import Verif.Proofs.Flow
import Verif.Proofs.Mfl
import Verif.Proofs.RecordRead
/-!
# Lemmas for C102
-/

namespace Siotls
open Spec

variable {E : Env}

/-! ## What is left of the input -/

theorem none_rest {c c' : Conn} (h : readNextRecord E c = (.ok none, c')) :
    LessThanRecord c'.inputData ∧ c'.inputData.length < 5 + c'.recordLimit := by
  obtain ⟨he, -, hn⟩ := readNextRecord_none h
  have hsk : skipCcs c'.inputData = c'.inputData := by rw [he]; exact skipCcs_idem _
  by_cases hl : c'.inputData.length < 5
  · refine ⟨fun t v1 v2 l1 l2 rest e => ?_, by omega⟩
    rw [e] at hl
    simp only [List.length_cons] at hl
    omega
  · obtain ⟨t, v1, v2, l1, l2, rest, hd⟩ := five_le (Nat.le_of_not_lt hl)
    rw [readNextRecord_cons (hsk.trans hd)] at hn
    by_cases h1 : beDec [l1, l2] > c'.recordLimit
    · rw [if_pos h1] at hn; cases hn
    rw [if_neg h1] at hn
    by_cases h2 : rest.length < beDec [l1, l2]
    · have hb : beDec [l1, l2] = 256 * l1.toNat + l2.toNat := by simp [beDec]; omega
      refine ⟨fun t' v1' v2' l1' l2' rest' e => ?_, ?_⟩
      · rw [hd] at e
        cases e
        omega
      · rw [hd]
        simp only [List.length_cons]
        omega
    · rw [if_neg h2] at hn
      have hu := (useRecord_input (E := E) (outer := t.toNat) (header := [t, v1, v2, l1, l2])
        (frag := rest.take (beDec [l1, l2])) { c' with inputData := rest.drop (beDec [l1, l2]) }).2.2
      rw [hn] at hu
      exact absurd rfl (hu _ rfl)

theorem step_rest {c c' : Conn} (hs : ¬ ShortHeader E c) (h : receiveStep E c = (.ok false, c')) :
    LessThanRecord c'.inputData ∧ c'.inputData.length < 5 + c'.recordLimit := by
  obtain ⟨-, hn, -⟩ := readNextContent_none hs (receiveStep_false h)
  rw [readNextContent_eq] at hn
  rcases hr : readNextRecord E c' with ⟨x, c₁⟩
  rw [hr] at hn
  cases x with
  | error e => cases hn
  | ok x =>
  cases x with
  | none => cases hn; exact none_rest hr
  | some x =>
  exfalso
  obtain ⟨ct, fr⟩ := x
  have h5 := (readNextRecord_some hr).1
  dsimp only at hn
  by_cases h1 : c₁.inputHandshake.isEmpty ∧ ct ≠ Iana.ctHandshake
  · rw [if_pos h1] at hn; cases hn
  rw [if_neg h1] at hn
  by_cases h2 : ct ≠ Iana.ctHandshake
  · rw [if_pos h2] at hn; cases hn
  rw [if_neg h2] at hn
  by_cases h3 : (c₁.inputHandshake ++ fr).length < 4
  · rw [if_pos h3] at hn
    have h6 : c₁.inputData = c'.inputData := congrArg (fun x => x.2.inputData) hn
    rw [h6] at h5
    omega
  · rw [if_neg h3] at hn
    have h6 : c'.inputData.length ≤ c₁.inputData.length :=
      (complete_none _ _ _ (Nat.le_refl _) (Nat.le_of_not_lt h3) hn).1
    omega

theorem loop_rest : ∀ (n : Nat) (c c' : Conn), c.inputData.length ≤ n → NoShort E c → loop E c = (.ok (), c') →
    LessThanRecord c'.inputData ∧ c'.inputData.length < 5 + c'.recordLimit := by
  intro n
  induction n using Nat.strong_induction_on with
  | _ n ih =>
  intro c c' hn hs h
  rw [loop_eq] at h
  rcases hr : receiveStep E c with ⟨r, c₁⟩
  rw [hr] at h
  cases r with
  | error e =>
    dsimp only at h
    split at h <;> cases h
  | ok b =>
    cases b with
    | false => cases h; exact step_rest (hs c (.refl c)) hr
    | true =>
      dsimp only at h
      have h5 := (receiveStep_true hr).1
      exact ih (n - 1) (by omega) c₁ c' (by omega) (fun c₀ ht => hs c₀ (.turn hr ht)) h

/-! ## The handshake buffer -/

/-- the longest handshake message, and its header -/
def HsBound (c : Conn) : Prop := c.inputHandshake.length < 4 + 2 ^ 24

theorem handshakeLength_lt (b : Bytes) : handshakeLength b < 2 ^ 24 := by
  unfold handshakeLength
  have h := beDec_lt ((b.drop 1).take 3)
  have h3 : ((b.drop 1).take 3).length ≤ 3 := List.length_take_le _ _
  exact Nat.lt_of_lt_of_le h (by
    calc 256 ^ ((b.drop 1).take 3).length ≤ 256 ^ 3 := Nat.pow_le_pow_right (by decide) h3
      _ = 2 ^ 24 := by decide)

theorem content_bound {c c' : Conn} (hb : HsBound c) (h : readNextContent E c = (.ok none, c')) : HsBound c' := by
  rw [readNextContent_eq] at h
  have hh := readNextRecord_hs (E := E) c
  rcases hr : readNextRecord E c with ⟨x, c₁⟩
  rw [hr] at h hh
  cases x with
  | error e => cases h
  | ok x =>
  cases x with
  | none =>
    cases h
    show c'.inputHandshake.length < _
    rw [hh]
    exact hb
  | some x =>
  obtain ⟨ct, fr⟩ := x
  dsimp only at h
  by_cases h1 : c₁.inputHandshake.isEmpty ∧ ct ≠ Iana.ctHandshake
  · rw [if_pos h1] at h; cases h
  rw [if_neg h1] at h
  by_cases h2 : ct ≠ Iana.ctHandshake
  · rw [if_pos h2] at h; cases h
  rw [if_neg h2] at h
  by_cases h3 : (c₁.inputHandshake ++ fr).length < 4
  · rw [if_pos h3] at h
    cases h
    show (c₁.inputHandshake ++ fr).length < _
    omega
  · rw [if_neg h3] at h
    obtain ⟨-, -, h6, -⟩ := complete_none _ _ _ (Nat.le_refl _) (Nat.le_of_not_lt h3) h
    have h7 : c'.inputHandshake.length - 4 < handshakeLength c'.inputHandshake := h6
    have := handshakeLength_lt c'.inputHandshake
    show c'.inputHandshake.length < _
    omega

theorem loop_bound : ∀ (n : Nat) (c c' : Conn), c.inputData.length ≤ n → HsBound c → loop E c = (.ok (), c') →
    HsBound c' := by
  intro n
  induction n using Nat.strong_induction_on with
  | _ n ih =>
  intro c c' hn hb h
  rw [loop_eq] at h
  rcases hr : receiveStep E c with ⟨r, c₁⟩
  rw [hr] at h
  cases r with
  | error e =>
    dsimp only at h
    split at h <;> cases h
  | ok b =>
    cases b with
    | false => cases h; exact content_bound hb (receiveStep_false hr)
    | true =>
      dsimp only at h
      obtain ⟨h5, h6, -⟩ := receiveStep_true hr
      exact ih (n - 1) (by omega) c₁ c' (by omega) (by show c₁.inputHandshake.length < _; rw [h6]; decide) h

theorem op_bound {o : Op} {c : Conn} (hb : HsBound c)
    (ho : (∃ d, o = .receive d) → ∃ out, (o.run E c).1 = .ok out) : HsBound (o.run E c).2 := by
  have same : ∀ {c' : Conn}, c'.inputHandshake = c.inputHandshake → HsBound c' := fun h => by
    show _ < _
    rw [h]; exact hb
  cases o with
  | read => exact hb
  | drain => exact hb
  | initiate =>
    rw [Op.run, wrap_snd]
    refine same ?_
    unfold Siotls.initiate
    split
    · exact ((built_clientInitiate _).has c).hs
    · rfl
    · rfl
  | send d =>
    rw [Op.run, wrap_snd]
    exact same (has_send (E := E) (.applicationData d) c).hs
  | closeRecv =>
    rw [Op.run, wrap_snd]
    obtain ⟨s, hs⟩ := closeReceivingEnd_same c
    rw [hs]; exact hb
  | closeSend =>
    rw [Op.run, wrap_snd, closeSendingEnd_eq]
    split
    · have h := has_send (E := E) (.alert Iana.warning Iana.closeNotify) { c with state := c.state.closing }
      rcases hm : sendContent E (.alert Iana.warning Iana.closeNotify)
        { c with state := c.state.closing } with ⟨r, c'⟩
      rw [hm] at h
      cases r <;> exact same h.hs
    · exact hb
  | rekey =>
    rw [Op.run, wrap_snd]
    unfold Siotls.rekey
    split <;> exact hb
  | receive d =>
    obtain ⟨out, h⟩ := ho ⟨d, rfl⟩
    rw [Op.run, M.bind_def] at h
    rw [Op.run, wrap_snd]
    rcases hr : receiveData E d c with ⟨r, c'⟩
    rw [hr] at h
    cases r with
    | error e => cases h
    | ok u =>
      obtain ⟨-, -, h3, -⟩ := receiveData_ok hr
      exact loop_bound _ (c.fed d) _ (Nat.le_refl _) hb h3

theorem received_bound (ops : List Op) : ∀ {c : Conn}, HsBound c → Received E ops c → HsBound (runOps E ops c) := by
  induction ops with
  | nil => intro c h _; exact h
  | cons o ops ih => intro c h hr; exact ih (op_bound h hr.1) hr.2

/-! ## Empty records -/

theorem empties_length (n : Nat) : (List.replicate n emptyRecord).flatten.length = 5 * n := by
  induction n with
  | zero => rfl
  | succ n ih =>
    rw [List.replicate_succ, List.flatten_cons, List.length_append, ih]
    show 5 + 5 * n = _
    omega

theorem empties_skip (n : Nat) : skipCcs (emptyRecord ++ (List.replicate n emptyRecord).flatten) =
    emptyRecord ++ (List.replicate n emptyRecord).flatten := skipCcs_other (by simp [emptyRecord])

/-- while no keys are installed, of a chunk of empty records only the first one is taken -/
theorem empties_wait {c : Conn} (hi : c.inputData = []) (hh : c.inputHandshake = []) (hc : c.cipher = none)
    (hr : c.state.canReceive = true) (n : Nat) :
    receiveData E (List.replicate (n + 1) emptyRecord).flatten c =
      (.ok (), { c with inputData := (List.replicate n emptyRecord).flatten }) := by
  have hd : (List.replicate (n + 1) emptyRecord).flatten =
      emptyRecord ++ (List.replicate n emptyRecord).flatten := by
    rw [List.replicate_succ, List.flatten_cons]
  have hm : c.mustDecrypt = false := by unfold Conn.mustDecrypt; rw [hc]
  have hrec : readNextRecord E (c.fed (List.replicate (n + 1) emptyRecord).flatten) =
      (.ok (some (Iana.ctHandshake, [])), { c with inputData := (List.replicate n emptyRecord).flatten }) := by
    have h0 : skipCcs (c.fed (List.replicate (n + 1) emptyRecord).flatten).inputData =
        22 :: 3 :: 3 :: 0 :: 0 :: (List.replicate n emptyRecord).flatten := by
      show skipCcs (c.inputData ++ _) = _
      rw [hi, List.nil_append, hd, empties_skip]
      rfl
    rw [readNextRecord_cons h0, if_neg (by simp [beDec]), if_neg (by simp [beDec])]
    unfold useRecord
    have hm' : Conn.mustDecrypt { c.fed (List.replicate (n + 1) emptyRecord).flatten with
      inputData := (List.replicate n emptyRecord).flatten.drop (beDec [0, 0]) } = false := hm
    simp only [hm']
    rfl
  rw [receiveData_eq (by rw [hd]; simp [emptyRecord]) hr, loop_eq, receiveStep_eq, readNextContent_eq, hrec]
  dsimp only
  rw [if_neg (by simp), if_neg (by simp), if_pos (by simp [hh])]
  have hk : shouldRekey { c with inputData := (List.replicate n emptyRecord).flatten } = .ok false := by
    unfold shouldRekey
    dsimp only
    rw [hc]
  simp only [hh, List.append_nil, finishReceive]
  cases c
  dsimp only at hh hk ⊢
  subst hh
  rw [hk]

end Siotls
