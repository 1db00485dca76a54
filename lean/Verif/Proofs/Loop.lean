import Verif.Proofs.Effect
import Verif.Proofs.Mfl
/-!
# The loops of `receive_data`: they end, and do not depend on how the input was cut
-/

namespace Siotls
open Spec

variable {E : Env}

/-! ## `_read_next_content` -/

/-- the buffered handshake message is not complete -/
def Conn.lacks (c : Conn) : Prop :=
  c.inputHandshake.length - 4 < handshakeLength c.inputHandshake

instance (c : Conn) : Decidable c.lacks := inferInstanceAs (Decidable (_ < _))

theorem complete_fuel : ∀ (n : Nat) (c : Conn) (f g : Nat), c.inputData.length ≤ n → n < f → n < g →
    completeHandshake E f c = completeHandshake E g c := by
  intro n
  induction n with
  | zero =>
    intro c f g hn hf hg
    obtain ⟨f, rfl⟩ : ∃ f', f = f' + 1 := ⟨f - 1, by omega⟩
    obtain ⟨g, rfl⟩ : ∃ g', g = g' + 1 := ⟨g - 1, by omega⟩
    unfold completeHandshake
    split
    · rcases h : readNextRecord E c with ⟨r, c'⟩
      cases r with
      | error e => rfl
      | ok r =>
        cases r with
        | none => rfl
        | some r => have := (readNextRecord_some h).1; omega
    · rfl
  | succ n ih =>
    intro c f g hn hf hg
    obtain ⟨f, rfl⟩ : ∃ f', f = f' + 1 := ⟨f - 1, by omega⟩
    obtain ⟨g, rfl⟩ : ∃ g', g = g' + 1 := ⟨g - 1, by omega⟩
    unfold completeHandshake
    split
    · rcases h : readNextRecord E c with ⟨r, c'⟩
      cases r with
      | error e => rfl
      | ok r =>
        cases r with
        | none => rfl
        | some r =>
          obtain ⟨ct, fr⟩ := r
          dsimp only
          have := (readNextRecord_some h).1
          split
          · rfl
          · exact ih _ _ _ (by show c'.inputData.length ≤ n; omega) (by omega) (by omega)
    · rfl

/-- `completeHandshake` with enough fuel -/
def complete (E : Env) (c : Conn) : Except Exn (Option (Nat × Bytes)) × Conn :=
  completeHandshake E (c.inputData.length + 1) c

theorem complete_done {c : Conn} (h : ¬ c.lacks) : complete E c = finishHandshake c := by
  unfold complete completeHandshake
  exact if_neg h

theorem complete_more {c : Conn} (h : c.lacks) : complete E c =
    match readNextRecord E c with
    | (.error e, c) => (.error e, c)
    | (.ok none, c) => (.ok none, c)
    | (.ok (some (ctype, fragment)), c) =>
      if ctype ≠ Iana.ctHandshake then (.error (.alert Iana.unexpectedMessage), c)
      else complete E { c with inputHandshake := c.inputHandshake ++ fragment } := by
  unfold complete
  rw [completeHandshake]
  refine (if_pos h).trans ?_
  rcases hr : readNextRecord E c with ⟨r, c'⟩
  cases r with
  | error e => rfl
  | ok r =>
    cases r with
    | none => rfl
    | some r =>
      obtain ⟨ct, fr⟩ := r
      dsimp only
      have := (readNextRecord_some hr).1
      split
      · rfl
      · exact complete_fuel c'.inputData.length _ _ _ (Nat.le_refl _) (by omega) (by simp)

theorem lacks_frame (c : Conn) (i o a t) : (c.frame i o a t).lacks ↔ c.lacks := Iff.rfl

theorem finish_frame (c : Conn) (i o a t) : finishHandshake (c.frame i o a t) =
    ((finishHandshake c).1, (finishHandshake c).2.frame i o a t) := by
  unfold finishHandshake
  show (if c.inputHandshake.length - 4 > handshakeLength c.inputHandshake then _ else _) = _
  split <;> rfl

theorem useRecord_mfl {outer : Nat} {header frag : Bytes} (c : Conn) :
    (useRecord E outer header frag c).2.mfl = c.mfl := by
  have hd : (decryptRecord E header frag c).2.mfl = c.mfl := by
    unfold decryptRecord
    repeat' (first | rfl | split | dsimp only)
  unfold useRecord
  cases hm : c.mustDecrypt with
  | false => simp only [Bool.false_eq_true, if_false]; split <;> rfl
  | true =>
    simp only [if_true]
    rcases h : decryptRecord E header frag c with ⟨r, c'⟩
    rw [h] at hd
    cases r with
    | error e => exact hd
    | ok x => obtain ⟨a, b⟩ := x; dsimp only; split <;> exact hd

theorem readNextRecord_mfl (c : Conn) : (readNextRecord E c).2.mfl = c.mfl := by
  cases nextRecord (E := E) c with
  | none _ h => rw [h]; rfl
  | overflow _ h => rw [h]; rfl
  | record outer header frag rest _ _ h => rw [h, useRecord_mfl]; rfl

theorem readNextRecord_hs (c : Conn) : (readNextRecord E c).2.inputHandshake = c.inputHandshake := by
  cases nextRecord (E := E) c with
  | none _ h => rw [h]
  | overflow _ h => rw [h]
  | record outer header frag rest _ _ h => rw [h, (useRecord_input _).2.1]

theorem frame_hs (c : Conn) (i o a t h) :
    { c.frame i o a t with inputHandshake := h } = { c with inputHandshake := h }.frame i o a t := rfl

/-- a complete content -/
theorem complete_some : ∀ (n : Nat) (c c' : Conn) (r : Nat × Bytes), c.inputData.length ≤ n →
    complete E c = (.ok (some r), c') →
      c'.inputData.length ≤ c.inputData.length ∧ c'.inputHandshake = [] ∧
      ∀ i o a t, complete E (c.frame i o a t) = (.ok (some r), c'.frame i o a t) := by
  intro n
  induction n using Nat.strong_induction_on with
  | _ n ih =>
  intro c c' r hn h
  by_cases hl : c.lacks
  · rw [complete_more hl] at h
    rcases hr : readNextRecord E c with ⟨x, c₁⟩
    rw [hr] at h
    cases x with
    | error e => cases h
    | ok x =>
    cases x with
    | none => cases h
    | some x =>
    obtain ⟨ct, fr⟩ := x
    dsimp only at h
    obtain ⟨h5, _, hf⟩ := readNextRecord_some hr
    by_cases hct : ct ≠ Iana.ctHandshake
    · rw [if_pos hct] at h; cases h
    rw [if_neg hct] at h
    obtain ⟨i1, i2, i3⟩ := ih (n - 1) (by omega) _ _ _ (by show c₁.inputData.length ≤ n - 1; omega) h
    refine ⟨by have : c'.inputData.length ≤ c₁.inputData.length := i1; omega, i2, fun i o a t => ?_⟩
    rw [complete_more ((lacks_frame c i o a t).mpr hl), hf]
    dsimp only
    rw [if_neg hct, ← i3]
    rfl
  · rw [complete_done hl] at h
    have hf := fun i o a t => (complete_done (E := E) (c := c.frame i o a t) hl).trans
      (finish_frame c i o a t)
    refine ⟨?_, ?_, fun i o a t => by rw [hf, h]⟩
    all_goals
      unfold finishHandshake at h
      split at h
      · cases h
      · cases h; first | rfl | exact Nat.le_refl _

/-- an error -/
theorem complete_error : ∀ (n : Nat) (c c' : Conn) (e : Exn), c.inputData.length ≤ n →
    0 < c.mfl → complete E c = (.error e, c') →
      ∀ i o a t, complete E (c.frame i o a t) = (.error e, c'.frame i o a t) := by
  intro n
  induction n using Nat.strong_induction_on with
  | _ n ih =>
  intro c c' e hn hm h i o a t
  by_cases hl : c.lacks
  · rw [complete_more ((lacks_frame c i o a t).mpr hl)]
    rw [complete_more hl] at h
    rcases hr : readNextRecord E c with ⟨x, c₁⟩
    rw [hr] at h
    cases x with
    | error e => cases h; rw [readNextRecord_error hm hr]
    | ok x =>
    cases x with
    | none => cases h
    | some x =>
    obtain ⟨ct, fr⟩ := x
    dsimp only at h
    obtain ⟨h5, _, hf⟩ := readNextRecord_some hr
    rw [hf]
    dsimp only
    by_cases hct : ct ≠ Iana.ctHandshake
    · rw [if_pos hct] at h ⊢; cases h; rfl
    rw [if_neg hct] at h ⊢
    have hm₁ : c₁.mfl = c.mfl := by rw [← readNextRecord_mfl (E := E) c, hr]
    exact ih (n - 1) (by omega) _ _ _ (by show c₁.inputData.length ≤ n - 1; omega)
      (by show 0 < c₁.mfl; omega) h i o a t
  · rw [complete_done hl] at h
    rw [complete_done (c := c.frame i o a t) hl, finish_frame, h]

/-- not enough input -/
theorem complete_none : ∀ (n : Nat) (c c' : Conn), c.inputData.length ≤ n →
    4 ≤ c.inputHandshake.length → complete E c = (.ok none, c') →
      c'.inputData.length ≤ c.inputData.length ∧ 4 ≤ c'.inputHandshake.length ∧ c'.lacks ∧
      complete E c' = (.ok none, c') ∧
      ∀ i o a t, complete E (c.frame i o a t) = complete E (c'.frame i o a t) := by
  intro n
  induction n using Nat.strong_induction_on with
  | _ n ih =>
  intro c c' hn h4 h
  by_cases hl : c.lacks
  · rw [complete_more hl] at h
    rcases hr : readNextRecord E c with ⟨x, c₁⟩
    rw [hr] at h
    cases x with
    | error e => cases h
    | ok x =>
    cases x with
    | none =>
      cases h
      obtain ⟨e, hf, hi⟩ := readNextRecord_none hr
      have hl' : c'.lacks := by rw [e]; exact hl
      refine ⟨by rw [e]; exact skipCcs_length_le _, by rw [e]; exact h4, hl', ?_,
        fun i o a t => ?_⟩
      · rw [complete_more hl', hi]
      · rw [complete_more ((lacks_frame c i o a t).mpr hl),
          complete_more ((lacks_frame c' i o a t).mpr hl'), hf]
    | some x =>
    obtain ⟨ct, fr⟩ := x
    dsimp only at h
    obtain ⟨h5, hh, hf⟩ := readNextRecord_some hr
    by_cases hct : ct ≠ Iana.ctHandshake
    · rw [if_pos hct] at h; cases h
    rw [if_neg hct] at h
    obtain ⟨i1, i2, i3, i4, i5⟩ := ih (n - 1) (by omega) _ _
      (by show c₁.inputData.length ≤ n - 1; omega)
      (by show 4 ≤ (c₁.inputHandshake ++ fr).length; rw [hh]; simp; omega) h
    refine ⟨by have : c'.inputData.length ≤ c₁.inputData.length := i1; omega, i2, i3, i4,
      fun i o a t => ?_⟩
    rw [complete_more ((lacks_frame c i o a t).mpr hl), hf]
    dsimp only
    rw [if_neg hct, ← i5]
    rfl
  · rw [complete_done hl] at h
    unfold finishHandshake at h
    split at h <;> cases h

theorem readNextContent_eq (c : Conn) : readNextContent E c =
    match readNextRecord E c with
    | (.error e, c) => (.error e, c)
    | (.ok none, c) => (.ok none, c)
    | (.ok (some (ctype, fragment)), c) =>
      if c.inputHandshake.isEmpty ∧ ctype ≠ Iana.ctHandshake then
        (.ok (some (ctype, fragment)), { c with tr := .got ctype fragment :: c.tr })
      else if ctype ≠ Iana.ctHandshake then (.error (.alert Iana.unexpectedMessage), c)
      else if (c.inputHandshake ++ fragment).length < 4 then
        (.ok none, { c with inputHandshake := c.inputHandshake ++ fragment })
      else complete E { c with inputHandshake := c.inputHandshake ++ fragment } := rfl

theorem readNextContent_some {c c' : Conn} {r : Nat × Bytes}
    (h : readNextContent E c = (.ok (some r), c')) :
    c'.inputData.length + 5 ≤ c.inputData.length ∧ c'.inputHandshake = [] ∧
    ∀ i o a t, readNextContent E (c.frame i o a t) = (.ok (some r), c'.frame i o a t) := by
  rw [readNextContent_eq] at h
  rcases hr : readNextRecord E c with ⟨x, c₁⟩
  rw [hr] at h
  cases x with
  | error e => cases h
  | ok x =>
  cases x with
  | none => cases h
  | some x =>
  obtain ⟨ct, fr⟩ := x
  dsimp only at h
  obtain ⟨h5, hh, hf⟩ := readNextRecord_some hr
  have hf' : ∀ i o a t, _ := fun i o a t => readNextContent_eq (E := E) (c.frame i o a t)
  simp only [hf] at hf'
  by_cases h1 : c₁.inputHandshake.isEmpty ∧ ct ≠ Iana.ctHandshake
  · rw [if_pos h1] at h
    cases h
    refine ⟨h5, by simpa using h1.1, fun i o a t => ?_⟩
    rw [hf' i o a t]
    exact if_pos h1
  rw [if_neg h1] at h
  by_cases h2 : ct ≠ Iana.ctHandshake
  · rw [if_pos h2] at h; cases h
  rw [if_neg h2] at h
  by_cases h3 : (c₁.inputHandshake ++ fr).length < 4
  · rw [if_pos h3] at h; cases h
  rw [if_neg h3] at h
  obtain ⟨i1, i2, i3⟩ := complete_some _ _ _ _ (Nat.le_refl _) h
  refine ⟨by have : c'.inputData.length ≤ c₁.inputData.length := i1; omega, i2, fun i o a t => ?_⟩
  rw [hf' i o a t]
  refine (if_neg h1).trans ((if_neg h2).trans ((if_neg h3).trans ?_))
  rw [← i3]
  rfl

theorem readNextContent_error {c c' : Conn} {e : Exn} (hm : 0 < c.mfl)
    (h : readNextContent E c = (.error e, c')) :
    ∀ i o a t, readNextContent E (c.frame i o a t) = (.error e, c'.frame i o a t) := by
  intro i o a t
  rw [readNextContent_eq] at h ⊢
  rcases hr : readNextRecord E c with ⟨x, c₁⟩
  rw [hr] at h
  cases x with
  | error e => cases h; rw [readNextRecord_error hm hr]
  | ok x =>
  cases x with
  | none => cases h
  | some x =>
  obtain ⟨ct, fr⟩ := x
  dsimp only at h
  obtain ⟨h5, hh, hf⟩ := readNextRecord_some hr
  rw [hf]
  dsimp only
  by_cases h1 : c₁.inputHandshake.isEmpty ∧ ct ≠ Iana.ctHandshake
  · rw [if_pos h1] at h; cases h
  rw [if_neg h1] at h
  refine (if_neg h1).trans ?_
  by_cases h2 : ct ≠ Iana.ctHandshake
  · rw [if_pos h2] at h; cases h; exact if_pos h2
  rw [if_neg h2] at h
  refine (if_neg h2).trans ?_
  by_cases h3 : (c₁.inputHandshake ++ fr).length < 4
  · rw [if_pos h3] at h; cases h
  rw [if_neg h3] at h
  refine (if_neg h3).trans ?_
  have hm₁ : c₁.mfl = c.mfl := by rw [← readNextRecord_mfl (E := E) c, hr]
  exact complete_error _ _ _ _ (Nat.le_refl _) (by show 0 < c₁.mfl; omega) h i o a t

/-- where a handshake message is under way, the next content is its completion -/
theorem readNextContent_resume {c : Conn} (h4 : 4 ≤ c.inputHandshake.length) (hl : c.lacks) :
    readNextContent E c = complete E c := by
  rw [readNextContent_eq, complete_more hl]
  rcases hr : readNextRecord E c with ⟨x, c₁⟩
  cases x with
  | error e => rfl
  | ok x =>
  cases x with
  | none => rfl
  | some x =>
  obtain ⟨ct, fr⟩ := x
  obtain ⟨h5, hh, hf⟩ := readNextRecord_some hr
  dsimp only
  have he : ¬ (c₁.inputHandshake.isEmpty ∧ ct ≠ Iana.ctHandshake) := by
    rintro ⟨h, _⟩
    rw [hh] at h
    simp only [List.isEmpty_iff] at h
    rw [h] at h4; simp at h4
  rw [if_neg he]
  split
  · rfl
  · exact if_neg (by rw [hh]; simp; omega)

theorem readNextContent_none {c c' : Conn} (hs : ¬ ShortHeader E c)
    (h : readNextContent E c = (.ok none, c')) :
    c'.inputData.length ≤ c.inputData.length ∧ readNextContent E c' = (.ok none, c') ∧
    ∀ i o a t, readNextContent E (c.frame i o a t) = readNextContent E (c'.frame i o a t) := by
  rw [readNextContent_eq] at h
  rcases hr : readNextRecord E c with ⟨x, c₁⟩
  rw [hr] at h
  cases x with
  | error e => cases h
  | ok x =>
  cases x with
  | none =>
    cases h
    obtain ⟨e, hf, hi⟩ := readNextRecord_none hr
    refine ⟨by rw [e]; exact skipCcs_length_le _, by rw [readNextContent_eq, hi],
      fun i o a t => by rw [readNextContent_eq, readNextContent_eq, hf]⟩
  | some x =>
  obtain ⟨ct, fr⟩ := x
  dsimp only at h
  obtain ⟨h5, hh, hf⟩ := readNextRecord_some hr
  have hf' : ∀ i o a t, _ := fun i o a t => readNextContent_eq (E := E) (c.frame i o a t)
  simp only [hf] at hf'
  by_cases h1 : c₁.inputHandshake.isEmpty ∧ ct ≠ Iana.ctHandshake
  · rw [if_pos h1] at h; cases h
  rw [if_neg h1] at h
  by_cases h2 : ct ≠ Iana.ctHandshake
  · rw [if_pos h2] at h; cases h
  rw [if_neg h2] at h
  by_cases h3 : (c₁.inputHandshake ++ fr).length < 4
  · exact absurd ⟨fr, c₁, by rw [← not_not.mp h2]; exact hr, by
      rw [hh] at h3; simpa using h3⟩ hs
  rw [if_neg h3] at h
  obtain ⟨i1, i2, i3, i4, i5⟩ := complete_none _ _ _ (Nat.le_refl _) (Nat.le_of_not_lt h3) h
  refine ⟨by have : c'.inputData.length ≤ c₁.inputData.length := i1; omega,
    by rw [readNextContent_resume i2 i3, i4], fun i o a t => ?_⟩
  rw [hf' i o a t, readNextContent_resume (c := c'.frame i o a t) i2 i3, ← i5]
  exact (if_neg h1).trans ((if_neg h2).trans (if_neg h3))

/-! ## One turn -/

/-- connection.py:108-122: what is done with a content -/
def useContent (E : Env) (ctype : Nat) (data : Bytes) : M Bool := do
  let c ← M.get
  let content ← M.lift (decodeContent E c.certType ctype data)
  hashContent data c.config.side.other content
  ghost (.recv content)
  process E content
  return true

theorem receiveStep_eq (c : Conn) : receiveStep E c =
    match readNextContent E c with
    | (.error e, c) => (.error e, c)
    | (.ok none, c) => (.ok false, c)
    | (.ok (some (ctype, data)), c) => useContent E ctype data c := by
  unfold receiveStep
  rw [M.bind_def]
  rcases readNextContent E c with ⟨r, c'⟩
  cases r with
  | error e => rfl
  | ok r =>
    cases r with
    | none => rfl
    | some r => rfl

theorem framed_useContent (ctype : Nat) (data : Bytes) : Framed (useContent E ctype data) := by
  unfold useContent
  refine Framed.get (fun c => ?_) (fun _ _ _ _ _ => rfl)
  refine Framed.bind (Framed.lift _) fun x => Framed.bind (framed_hashContent _ _ _) fun _ =>
    Framed.bind ?_ fun _ => Framed.bind (framed_process _) fun _ => Framed.pure _
  intro i o a t c
  rfl

theorem useContent_input (ctype : Nat) (data : Bytes) (c : Conn) :
    (useContent E ctype data c).2.inputData = c.inputData ∧
    (useContent E ctype data c).2.inputHandshake = c.inputHandshake ∧
    (useContent E ctype data c).1 ≠ .ok false := by
  have hp : Pres (fun c : Conn => (c.inputData, c.inputHandshake)) (useContent E ctype data) := by
    unfold useContent
    refine Pres.bind Pres.get fun c => Pres.bind (Pres.lift _) fun x => Pres.bind ?_ fun _ =>
      Pres.bind (fun _ => rfl) fun _ => Pres.bind ?_ fun _ => Pres.pure _
    · intro c'
      have := has_hash (P := fun _ => True) (fun _ _ _ => trivial) data c.config.side.other x c'
      exact Prod.ext this.input this.hs
    · intro c'
      exact Prod.ext (process_input (E := E) x c').1 (process_input (E := E) x c').2
  refine ⟨congrArg Prod.fst (hp c), congrArg Prod.snd (hp c), ?_⟩
  unfold useContent
  intro h
  have key : ∀ {α} (m : M α) (c : Conn), ((m >>= fun _ => (pure true : M Bool)) c).1 ≠ .ok false := by
    intro α m c h
    rw [M.bind_def] at h
    rcases hm : m c with ⟨r, c'⟩
    rw [hm] at h
    cases r with
    | error e => cases h
    | ok a => cases h
  rw [M.bind_def] at h
  simp only [M.get] at h
  rw [M.bind_def] at h
  cases hd : decodeContent E c.certType ctype data with
  | error e => rw [hd] at h; cases h
  | ok x =>
  rw [hd] at h
  simp only [M.lift] at h
  rw [M.bind_def] at h
  rcases h1 : hashContent data c.config.side.other x c with ⟨r, c₁⟩
  rw [h1] at h
  cases r with
  | error e => cases h
  | ok _ =>
  dsimp only at h
  rw [M.bind_def] at h
  exact key _ _ h

theorem receiveStep_true {c c' : Conn} (h : receiveStep E c = (.ok true, c')) :
    c'.inputData.length + 5 ≤ c.inputData.length ∧ c'.inputHandshake = [] ∧
    ∀ i o a t, receiveStep E (c.frame i o a t) = (.ok true, c'.frame i o a t) := by
  rw [receiveStep_eq] at h
  rcases hr : readNextContent E c with ⟨x, c₁⟩
  rw [hr] at h
  cases x with
  | error e => cases h
  | ok x =>
  cases x with
  | none => cases h
  | some x =>
  obtain ⟨ct, data⟩ := x
  dsimp only at h
  obtain ⟨h5, hh, hf⟩ := readNextContent_some hr
  have hi := useContent_input (E := E) ct data c₁
  rw [h] at hi
  refine ⟨by have : c'.inputData = _ := hi.1; rw [this]; exact h5, hi.2.1.trans hh,
    fun i o a t => ?_⟩
  rw [receiveStep_eq, hf]
  dsimp only
  rw [framed_useContent, h]

theorem receiveStep_false {c c' : Conn} (h : receiveStep E c = (.ok false, c')) :
    readNextContent E c = (.ok none, c') := by
  rw [receiveStep_eq] at h
  rcases hr : readNextContent E c with ⟨x, c₁⟩
  rw [hr] at h
  cases x with
  | error e => cases h
  | ok x =>
  cases x with
  | none => cases h; rfl
  | some x =>
  obtain ⟨ct, data⟩ := x
  dsimp only at h
  exact absurd (by rw [h]) (useContent_input (E := E) ct data c₁).2.2

theorem receiveStep_error {c c' : Conn} {e : Exn} (hm : 0 < c.mfl)
    (h : receiveStep E c = (.error e, c')) :
    ∀ i o a t, receiveStep E (c.frame i o a t) = (.error e, c'.frame i o a t) := by
  intro i o a t
  rw [receiveStep_eq] at h ⊢
  rcases hr : readNextContent E c with ⟨x, c₁⟩
  rw [hr] at h
  cases x with
  | error e => cases h; rw [readNextContent_error hm hr]
  | ok x =>
  cases x with
  | none => cases h
  | some x =>
  obtain ⟨ct, data⟩ := x
  dsimp only at h
  rw [(readNextContent_some hr).2.2]
  dsimp only
  rw [framed_useContent, h]

theorem receiveStep_resume {c c' : Conn} (hs : ¬ ShortHeader E c)
    (h : receiveStep E c = (.ok false, c')) :
    c'.inputData.length ≤ c.inputData.length ∧ receiveStep E c' = (.ok false, c') ∧
    ∀ i o a t, receiveStep E (c.frame i o a t) = receiveStep E (c'.frame i o a t) := by
  obtain ⟨h1, h2, h3⟩ := readNextContent_none hs (receiveStep_false h)
  exact ⟨h1, by rw [receiveStep_eq, h2], fun i o a t => by rw [receiveStep_eq, receiveStep_eq, h3]⟩

/-! ## The loop -/

theorem loop_fuel : ∀ (n : Nat) (c : Conn) (f g : Nat), c.inputData.length ≤ n → n < f → n < g →
    receiveLoop E f c = receiveLoop E g c := by
  intro n
  induction n using Nat.strong_induction_on with
  | _ n ih =>
  intro c f g hn hf hg
  obtain ⟨f, rfl⟩ : ∃ f', f = f' + 1 := ⟨f - 1, by omega⟩
  obtain ⟨g, rfl⟩ : ∃ g', g = g' + 1 := ⟨g - 1, by omega⟩
  unfold receiveLoop
  rcases h : receiveStep E c with ⟨r, c'⟩
  cases r with
  | error e => rfl
  | ok b =>
    cases b with
    | false => rfl
    | true =>
      have := (receiveStep_true h).1
      exact ih (n - 1) (by omega) c' f g (by omega) (by omega) (by omega)

/-- the loop with enough fuel -/
def loop (E : Env) (c : Conn) : Except Exn Unit × Conn := receiveLoop E (c.inputData.length + 1) c

theorem loop_eq (c : Conn) : loop E c =
    match receiveStep E c with
    | (.ok false, c) => (.ok (), c)
    | (.ok true, c) => loop E c
    | (.error e, c) =>
      match failWith E (alertFor e) c with
      | (.ok _, c) => (.error e, c)
      | (.error e', c) => (.error e', c) := by
  unfold loop
  rw [receiveLoop]
  dsimp only
  rcases h : receiveStep E c with ⟨r, c'⟩
  cases r with
  | error e =>
    dsimp only
    rcases failWith E (alertFor e) c' with ⟨x, c₂⟩
    cases x <;> rfl
  | ok b =>
    cases b with
    | false => rfl
    | true =>
      have := (receiveStep_true h).1
      exact loop_fuel c'.inputData.length _ _ _ (Nat.le_refl _) (by omega) (by omega)

theorem loop_ok : ∀ (n : Nat) (c c' : Conn), c.inputData.length ≤ n → NoShort E c →
    loop E c = (.ok (), c') →
    (∀ i o a t, loop E (c.frame i o a t) = loop E (c'.frame i o a t)) ∧
    loop E c' = (.ok (), c') := by
  intro n
  induction n using Nat.strong_induction_on with
  | _ n ih =>
  intro c c' hn hs h
  rw [loop_eq] at h
  rcases hr : receiveStep E c with ⟨r, c₁⟩
  rw [hr] at h
  cases r with
  | error e =>
    dsimp only at h
    split at h <;> cases h
  | ok b =>
    cases b with
    | false =>
      cases h
      obtain ⟨_, h2, h3⟩ := receiveStep_resume (hs c (.refl c)) hr
      exact ⟨fun i o a t => by rw [loop_eq, loop_eq, h3], by rw [loop_eq, h2]⟩
    | true =>
      dsimp only at h
      obtain ⟨h5, _, hf⟩ := receiveStep_true hr
      obtain ⟨i1, i2⟩ := ih (n - 1) (by omega) c₁ c' (by omega)
        (fun c₀ ht => hs c₀ (.turn hr ht)) h
      exact ⟨fun i o a t => by rw [loop_eq, hf]; exact i1 i o a t, i2⟩

theorem loop_error : ∀ (n : Nat) (c c' : Conn) (e : Exn), c.inputData.length ≤ n →
    (∀ c₀, Turns E c c₀ → 0 < c₀.mfl) → loop E c = (.error e, c') →
    ∀ i o a t, loop E (c.frame i o a t) = (.error e, c'.frame i o a t) := by
  intro n
  induction n using Nat.strong_induction_on with
  | _ n ih =>
  intro c c' e hn hm h i o a t
  rw [loop_eq] at h ⊢
  rcases hr : receiveStep E c with ⟨r, c₁⟩
  rw [hr] at h
  cases r with
  | error e₁ =>
    dsimp only at h
    rw [receiveStep_error (hm c (.refl c)) hr]
    dsimp only
    rw [framed_failWith]
    rcases hfw : failWith E (alertFor e₁) c₁ with ⟨x, c₂⟩
    rw [hfw] at h
    cases x <;> (cases h; rfl)
  | ok b =>
    cases b with
    | false => cases h
    | true =>
      dsimp only at h
      obtain ⟨h5, _, hf⟩ := receiveStep_true hr
      rw [hf]
      exact ih (n - 1) (by omega) c₁ c' e (by omega) (fun c₀ ht => hm c₀ (.turn hr ht)) h i o a t

theorem Turns.mfl {c c' : Conn} (h : MflInv E c) (ht : Turns E c c') : MflInv E c' :=
  (ht.inv (G := fun _ => True) (fun _ _ hi hs => hi.step hs) (.inl fun _ => trivial) h).1

end Siotls
