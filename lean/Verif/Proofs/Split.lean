import Mathlib.Data.List.Induction
import Verif.Proofs.Flow
/-!
# `receive_data` in terms of the loop
-/

namespace Siotls
open Spec

variable {E : Env} {G : Conn → Prop}

def Conn.fed (c : Conn) (d : Bytes) : Conn := { c with inputData := c.inputData ++ d }

/-- connection.py:130-131 -/
def finishReceive (c : Conn) : Except Exn Unit × Conn :=
  match shouldRekey c with
  | .error e => (.error e, c)
  | .ok true => Siotls.rekey c
  | .ok false => (.ok (), c)

theorem receiveData_eq {d : Bytes} {c : Conn} (hd : d ≠ []) (hc : c.state.canReceive = true) :
    receiveData E d c =
      match loop E (c.fed d) with
      | (.error e, c) => (.error e, c)
      | (.ok _, c) => finishReceive c := by
  unfold receiveData
  rw [if_neg (by simpa using hd), if_neg (by simp [hc])]
  rfl

theorem receiveData_ok {d : Bytes} {c c' : Conn} (h : receiveData E d c = (.ok (), c')) :
    d ≠ [] ∧ c.state.canReceive = true ∧ loop E (c.fed d) = (.ok (), c') ∧
      shouldRekey c' = .ok false := by
  have hd : d ≠ [] := by rintro rfl; cases h
  have hc : c.state.canReceive = true := by
    cases hc : c.state.canReceive with
    | true => rfl
    | false =>
      unfold receiveData at h
      rw [if_neg (by simpa using hd), if_pos hc] at h
      cases h
  refine ⟨hd, hc, ?_⟩
  rw [receiveData_eq hd hc] at h
  rcases hl : loop E (c.fed d) with ⟨r, c₁⟩
  rw [hl] at h
  cases r with
  | error e => cases h
  | ok u =>
    dsimp only [finishReceive] at h
    cases hs : shouldRekey c₁ with
    | error e => rw [hs] at h; cases h
    | ok b =>
      rw [hs] at h
      cases b with
      | false => cases h; exact ⟨rfl, hs⟩
      | true =>
        unfold Siotls.rekey at h
        dsimp only at h
        split at h <;> cases h

theorem receiveData_raised {d : Bytes} {c c' : Conn} {e : Exn} (hd : d ≠ [])
    (hc : c.state.canReceive = true) (h : receiveData E d c = (.error e, c'))
    (hs : shouldRekey c' = .ok false) : loop E (c.fed d) = (.error e, c') := by
  rw [receiveData_eq hd hc] at h
  rcases hl : loop E (c.fed d) with ⟨r, c₁⟩
  rw [hl] at h
  cases r with
  | error e => exact h
  | ok u =>
    dsimp only [finishReceive] at h
    cases hs' : shouldRekey c₁ with
    | error e => rw [hs'] at h; cases h; rw [hs'] at hs; cases hs
    | ok b =>
      rw [hs'] at h
      cases b with
      | false => cases h
      | true =>
        unfold Siotls.rekey at h
        dsimp only at h
        split at h <;> (cases h; rw [hs'] at hs; cases hs)

theorem fed_fed (c : Conn) (a b : Bytes) : c.fed (a ++ b) = (c.fed a).frame b [] [] [] := by
  simp [Conn.fed, Conn.frame]

theorem fed_frame (c : Conn) (b : Bytes) : c.fed b = c.frame b [] [] [] := by
  simp [Conn.fed, Conn.frame]

theorem Step.canReceive {c c' : Conn} (h : Step E G c c') (hc : c.state.canReceive = true) :
    c'.state.canReceive = true := by
  cases h with
  | move hm => cases hm <;> rfl
  | hrrServer | retry => rfl
  | _ => exact hc

/-- receiving never closes the receiving end -/
theorem receiveData_canReceive {d : Bytes} {c : Conn} (hc : c.state.canReceive = true) :
    (receiveData E d c).2.state.canReceive = true := by
  rcases receiveData_steps (E := E) (G := fun _ => True) d c (.inl fun _ => trivial) with h | ⟨_, h⟩
  · rw [h]; exact hc
  · exact h.inv (I := fun c => c.state.canReceive = true) (fun _ _ hi hs => hs.canReceive hi) hc

theorem Turns.frame {c c₀ : Conn} (h : Turns E c c₀) (i : Bytes) :
    Turns E (c.frame i [] [] []) (c₀.frame i [] [] []) := by
  induction h with
  | refl => exact .refl _
  | turn h _ ih => exact .turn ((receiveStep_true h).2.2 i [] [] []) ih

theorem noShort_prefix {c : Conn} {i : Bytes} (h : NoShort E (c.frame i [] [] [])) : NoShort E c := by
  rintro c₀ ht ⟨frag, c', hr, hl⟩
  exact h _ (ht.frame i) ⟨frag, _, (readNextRecord_some hr).2.2 i [] [] [], hl⟩

theorem receive_split {c c₁ : Conn} {a b : Bytes} (hb : b ≠ [])
    (ha : receiveData E a c = (.ok (), c₁)) (hs : NoShort E (c.fed a)) :
    receiveData E (a ++ b) c = receiveData E b c₁ := by
  obtain ⟨h1, h2, h3, _⟩ := receiveData_ok ha
  have hc₁ : c₁.state.canReceive = true := by
    have := receiveData_canReceive (E := E) (d := a) h2
    rw [ha] at this; exact this
  rw [receiveData_eq (by simp [h1]) h2, receiveData_eq hb hc₁, fed_fed, fed_frame c₁]
  rw [(loop_ok _ _ _ (Nat.le_refl _) hs h3).1]

theorem receive_split_raised {c c₁ : Conn} {a b : Bytes} {e : Exn} (hm : MflInv E c) (ha : a ≠ [])
    (hc : c.state.canReceive = true) (h : receiveData E a c = (.error e, c₁))
    (hs : shouldRekey c₁ = .ok false) :
    receiveData E (a ++ b) c = (.error e, c₁.fed b) := by
  have hm' : MflInv E (c.fed a) := hm.api (G := fun _ => True) (.appended a hc)
  rw [receiveData_eq (by simp [ha]) hc, fed_fed, fed_frame c₁,
    loop_error _ _ _ _ (Nat.le_refl _) (fun c₀ ht => (ht.mfl hm').pos)
      (receiveData_raised ha hc h hs)]

theorem feed_append (xs ys : List Bytes) (c : Conn) : feed E (xs ++ ys) c =
    match feed E xs c with
    | (.ok _, c) => feed E ys c
    | (.error e, c) => (.error e, c) := by
  induction xs generalizing c with
  | nil => rfl
  | cons x xs ih =>
    rw [List.cons_append, feed, feed]
    rcases receiveData E x c with ⟨r, c'⟩
    cases r with
    | error e => rfl
    | ok u => exact ih c'

theorem feed_ok (xs : List Bytes) : ∀ {c c' : Conn}, xs ≠ [] → feed E xs c = (.ok (), c') →
    NoShort E (c.fed xs.flatten) → receiveData E xs.flatten c = (.ok (), c') := by
  induction xs using List.reverseRecOn with
  | nil => intro c c' h; exact absurd rfl h
  | append_singleton xs x ih =>
    intro c c' _ h hs
    rw [feed_append] at h
    rcases hf : feed E xs c with ⟨r, c₁⟩
    rw [hf] at h
    cases r with
    | error e => cases h
    | ok u =>
    dsimp only [feed] at h
    have hx : receiveData E x c₁ = (.ok (), c') := by
      rcases hr : receiveData E x c₁ with ⟨r, c₂⟩
      rw [hr] at h
      cases r with
      | error e => cases h
      | ok u => cases h; rfl
    rw [List.flatten_append, List.flatten_singleton] at hs ⊢
    by_cases hn : xs = []
    · subst hn; cases hf; exact hx
    · have hp : NoShort E (c.fed xs.flatten) := by rw [fed_fed] at hs; exact noShort_prefix hs
      rw [receive_split (receiveData_ok hx).1 (ih hn hf hp) hp, hx]

/-! ## ChangeCipherSpec -/

theorem readNextRecord_skip {c : Conn} {x y : Bytes} (h : skipCcs x = skipCcs y) :
    readNextRecord E { c with inputData := x } = readNextRecord E { c with inputData := y } := by
  unfold readNextRecord
  dsimp only
  rw [h]

theorem loop_skip {c : Conn} {x y : Bytes} (h : skipCcs x = skipCcs y) :
    loop E { c with inputData := x } = loop E { c with inputData := y } := by
  have hs : receiveStep E { c with inputData := x } = receiveStep E { c with inputData := y } := by
    rw [receiveStep_eq, receiveStep_eq, readNextContent, readNextContent, readNextRecord_skip h]
  rw [loop_eq, loop_eq, hs]

theorem skipCcs_dummies (vs : List (UInt8 × UInt8)) (d : Bytes) :
    skipCcs ((vs.map dummyCcs).flatten ++ d) = skipCcs d := by
  induction vs with
  | nil => rfl
  | cons v vs ih =>
    show skipCcs (20 :: v.1 :: v.2 :: 0 :: 1 :: 1 :: ((vs.map dummyCcs).flatten ++ d)) = _
    rw [skipCcs, if_pos ⟨rfl, rfl, rfl, rfl⟩, ih]

/-! ## Termination -/

theorem while_loop : ∀ (n : Nat) (c : Conn), c.inputData.length ≤ n →
    ∃ k, 5 * k ≤ c.inputData.length ∧ While E k c (loop E c).1 (loop E c).2 := by
  intro n
  induction n using Nat.strong_induction_on with
  | _ n ih =>
  intro c hn
  rw [loop_eq]
  rcases hr : receiveStep E c with ⟨r, c₁⟩
  cases r with
  | error e =>
    dsimp only
    rcases hf : failWith E (alertFor e) c₁ with ⟨x, c₂⟩
    cases x with
    | ok u => exact ⟨0, by omega, .failed hr hf⟩
    | error e' => exact ⟨0, by omega, .unreported hr hf⟩
  | ok b =>
    cases b with
    | false => exact ⟨0, by omega, .stop hr⟩
    | true =>
      have := (receiveStep_true hr).1
      obtain ⟨k, h1, h2⟩ := ih (n - 1) (by omega) c₁ (by omega)
      exact ⟨k + 1, by omega, .turn hr h2⟩

theorem while_det {n : Nat} {c c' : Conn} {r : Except Exn Unit} (h : While E n c r c') :
    loop E c = (r, c') := by
  induction h with
  | stop h => rw [loop_eq, h]
  | failed h h' => rw [loop_eq, h]; dsimp only; rw [h']
  | unreported h h' => rw [loop_eq, h]; dsimp only; rw [h']
  | turn h _ ih => rw [loop_eq, h]; exact ih

end Siotls
