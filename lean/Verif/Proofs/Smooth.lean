import Verif.Proofs.Handlers
import Verif.Proofs.Split
/-!
# Receiving an honest stream, however it is cut
-/

namespace Siotls
open Spec Serial

variable {E : Env}

/-- on the way through its input the connection is never stopped by a short header, never wants new
keys, and does not take itself for connected before the end -/
def Smooth (E : Env) (c : Conn) : Prop :=
  ∀ c₀, Turns E c c₀ → ¬ ShortHeader E c₀ ∧ shouldRekey c₀ = .ok false ∧
    (c₀.inputData ≠ [] → c₀.state.isPostHandshake = false)

theorem Smooth.noShort {c : Conn} (h : Smooth E c) : NoShort E c := fun c₀ ht => (h c₀ ht).1

theorem not_short_of_content {c c' : Conn} {x : Nat × Bytes}
    (h : readNextContent E c = (.ok (some x), c')) : ¬ ShortHeader E c := by
  rintro ⟨frag, c₁, h1, h2⟩
  have hs : c₁.inputHandshake = c.inputHandshake := by
    have := readNextRecord_hs (E := E) c
    rw [h1] at this
    exact this
  rw [readNextContent, h1] at h
  dsimp only at h
  rw [if_neg (by simp), if_neg (by simp), if_pos (by rw [hs, List.length_append]; exact h2)] at h
  cases h

theorem not_short_of_step {c c' : Conn} (h : receiveStep E c = (.ok true, c')) : ¬ ShortHeader E c := by
  rcases hr : readNextContent E c with ⟨r, c₁⟩
  have hb : receiveStep E c = (readNextContent E >>= _) c := rfl
  rw [hb, M.bind_def, hr] at h
  cases r with
  | error e => cases h
  | ok x =>
    cases x with
    | none => cases h
    | some x => exact not_short_of_content hr

theorem Smooth.step {c c' : Conn} (hs : receiveStep E c = (.ok true, c')) (hk : shouldRekey c = .ok false)
    (hp : c.state.isPostHandshake = false) (h : Smooth E c') : Smooth E c := by
  intro c₀ ht
  cases ht with
  | refl => exact ⟨not_short_of_step hs, hk, fun _ => hp⟩
  | turn h1 h2 =>
    rw [hs] at h1
    cases h1
    exact h c₀ h2

/-- receiving what is in the input buffer ends quietly in `r'` -/
def Digests (E : Env) (r r' : Conn) : Prop :=
  ∀ t, (∃ t', loop E { r with tr := t } = (.ok (), { r' with tr := t' })) ∧ Smooth E { r with tr := t }

theorem Digests.step {r r₁ r₂ : Conn} (h : Gives (receiveStep E) r true r₁) (hk : shouldRekey r = .ok false)
    (hp : r.state.isPostHandshake = false) (h' : Digests E r₁ r₂) : Digests E r r₂ := by
  intro t
  obtain ⟨t₁, h1⟩ := h t
  obtain ⟨⟨t₂, h2⟩, h3⟩ := h' t₁
  exact ⟨⟨t₂, by rw [loop_eq, h1]; exact h2⟩, .step h1 hk hp h3⟩

theorem Digests.done {r : Conn} (h : r.inputData = []) (hk : shouldRekey r = .ok false) :
    Digests E r r := by
  intro t
  refine ⟨loop_done h t, ?_⟩
  have hn : readNextRecord E { r with tr := t } = (.ok none, { r with tr := t }) := by
    rw [readNextRecord_short (by show (skipCcs r.inputData).length < 5; rw [h]; exact Nat.zero_lt_succ _)]
    show (_, { r with inputData := skipCcs r.inputData, tr := t }) = _
    rw [h]
    cases r
    cases h
    rfl
  intro c₀ ht
  cases ht with
  | refl =>
    refine ⟨?_, hk, fun hn => absurd h hn⟩
    rintro ⟨frag, c', h1, _⟩
    rw [hn] at h1
    cases h1
  | turn h1 _ =>
    rw [receiveStep_eq, readNextContent, hn] at h1
    cases h1

theorem useRecord_rekey {outer : Nat} {header frag : Bytes} (c : Conn) :
    shouldRekey (useRecord E outer header frag c).2 = shouldRekey c := by
  have hd : shouldRekey (decryptRecord E header frag c).2 = shouldRekey c := by
    unfold decryptRecord
    cases hk : c.cipher with
    | none => rfl
    | some k =>
      dsimp only
      cases k.rd.key with
      | none => rfl
      | some key =>
        dsimp only
        cases nextNonce k.info k.rd with
        | error e => rfl
        | ok x =>
          have hs : ∀ t, shouldRekey { c with cipher := some { k with rd := x.2 }, tr := t } =
              shouldRekey c := by
            intro t
            unfold shouldRekey
            rw [hk]
          dsimp only
          repeat' (first | exact hs _ | split)
  unfold useRecord
  cases hm : c.mustDecrypt with
  | false => simp only [Bool.false_eq_true, if_false]; split <;> rfl
  | true =>
    simp only [if_true]
    rcases h : decryptRecord E header frag c with ⟨r, c'⟩
    rw [h] at hd
    cases r with
    | error e => exact hd
    | ok x => obtain ⟨a, b⟩ := x; dsimp only; split <;> exact hd

theorem readNextRecord_rekey (c : Conn) :
    shouldRekey (readNextRecord E c).2 = shouldRekey c := by
  cases nextRecord (E := E) c with
  | none _ h => rw [h]; rfl
  | overflow _ h => rw [h]; rfl
  | record outer header frag rest _ _ h => rw [h, useRecord_rekey]; rfl

theorem completeHandshake_rekey (n : Nat) : ∀ c : Conn,
    shouldRekey (completeHandshake E n c).2 = shouldRekey c := by
  have hf : ∀ c : Conn, shouldRekey (finishHandshake c).2 = shouldRekey c := by
    intro c; unfold finishHandshake; split <;> rfl
  induction n with
  | zero => intro c; unfold completeHandshake; split; exacts [rfl, hf c]
  | succ n ih =>
    intro c
    unfold completeHandshake
    split
    · have h1 := readNextRecord_rekey (E := E) c
      rcases h : readNextRecord E c with ⟨r, c'⟩
      rw [h] at h1
      cases r with
      | error e => exact h1
      | ok r =>
        cases r with
        | none => exact h1
        | some r =>
          obtain ⟨ct, fr⟩ := r
          dsimp only
          split
          · exact h1
          · exact (ih _).trans h1
    · exact hf c

/-- reading changes no write key -/
theorem readNextContent_rekey (c : Conn) :
    shouldRekey (readNextContent E c).2 = shouldRekey c := by
  have h1 := readNextRecord_rekey (E := E) c
  rw [readNextContent_eq]
  rcases h : readNextRecord E c with ⟨r, c'⟩
  rw [h] at h1
  cases r with
  | error e => exact h1
  | ok r =>
    cases r with
    | none => exact h1
    | some r =>
      obtain ⟨ct, fr⟩ := r
      dsimp only
      split
      · exact h1
      · split
        · exact h1
        · split
          · exact h1
          · exact (completeHandshake_rekey _ _).trans h1

theorem step_false_rekey {c c' : Conn} (h : receiveStep E c = (.ok false, c')) :
    shouldRekey c' = shouldRekey c := by
  have := readNextContent_rekey (E := E) c
  rw [receiveStep_false h] at this
  exact this

/-- a loop that ends stops after some turns -/
theorem loop_turns : ∀ (n : Nat) (c c' : Conn), c.inputData.length ≤ n → loop E c = (.ok (), c') →
    ∃ c₀, Turns E c c₀ ∧ receiveStep E c₀ = (.ok false, c') := by
  intro n
  induction n using Nat.strong_induction_on with
  | _ n ih =>
  intro c c' hn h
  rw [loop_eq] at h
  rcases hr : receiveStep E c with ⟨r, c₁⟩
  rw [hr] at h
  cases r with
  | error e =>
    dsimp only at h
    split at h <;> cases h
  | ok b =>
    cases b with
    | false => cases h; exact ⟨c, .refl c, hr⟩
    | true =>
      dsimp only at h
      obtain ⟨h5, _, _⟩ := receiveStep_true hr
      obtain ⟨c₀, h1, h2⟩ := ih (n - 1) (by omega) c₁ c' (by omega) h
      exact ⟨c₀, .turn hr h1, h2⟩

theorem step_false_state {c c' : Conn} (h : receiveStep E c = (.ok false, c')) : c'.state = c.state := by
  have := ((run_readNextContent (E := E) (G := fun _ => True) c).2 none
    (by rw [receiveStep_false h])).1.same
  rw [receiveStep_false h] at this
  rw [show c' = _ from this]

/-- any part of an honest stream is received -/
theorem receive_prefix {c c' : Conn} {a b : Bytes} (hm : MflInv E c) (ha : a ≠ [])
    (hc : c.state.canReceive = true) (hs : Smooth E (c.fed (a ++ b)))
    (h : loop E (c.fed (a ++ b)) = (.ok (), c')) : ∃ c₁, receiveData E a c = (.ok (), c₁) ∧
      (b ≠ [] → c₁.state.isPostHandshake = false) := by
  have hm' : MflInv E (c.fed a) := ⟨hm.config, hm.negotiated, hm.parsed⟩
  rw [fed_fed] at hs h
  rcases hl : loop E (c.fed a) with ⟨r, c₁⟩
  cases r with
  | error e =>
    rw [loop_error _ _ _ _ (Nat.le_refl _) (fun c₀ ht => (ht.mfl hm').pos) hl] at h
    cases h
  | ok u =>
    obtain ⟨c₀, h1, h2⟩ := loop_turns _ _ _ (Nat.le_refl _) hl
    obtain ⟨-, h3, h4⟩ := hs _ (h1.frame b)
    refine ⟨c₁, ?_, fun hb => ?_⟩
    · rw [receiveData_eq ha hc, hl]
      dsimp only [finishReceive]
      rw [step_false_rekey h2, show shouldRekey c₀ = .ok false from h3]
    · rw [step_false_state h2]
      exact h4 (by simp [Conn.frame, hb])

/-- an honest stream may be cut anywhere -/
theorem feed_smooth {c c' : Conn} (hm : MflInv E c) (hc : c.state.canReceive = true) {d : Bytes}
    (hs : Smooth E (c.fed d)) (h : loop E (c.fed d) = (.ok (), c')) :
    ∀ xs : List Bytes, xs ≠ [] → (∀ x ∈ xs, x ≠ []) → ∀ b, xs.flatten ++ b = d →
      ∃ c₁, feed E xs c = (.ok (), c₁) ∧ (b = [] → c₁ = c') ∧
        (b ≠ [] → c₁.state.isPostHandshake = false) := by
  intro xs
  induction xs using List.reverseRecOn with
  | nil => intro h; exact absurd rfl h
  | append_singleton xs x ih =>
    intro _ hx b hb
    have hx' : x ≠ [] := hx x (by simp)
    obtain ⟨c₁, h1, hp⟩ : ∃ c₁, feed E (xs ++ [x]) c = (.ok (), c₁) ∧
        (b ≠ [] → c₁.state.isPostHandshake = false) := by
      rw [feed_append]
      by_cases hxs : xs = []
      · subst hxs
        obtain ⟨c₁, h1, hp⟩ := receive_prefix (a := x) (b := b) hm hx' hc
          (by rw [show x ++ b = d by simpa using hb]; exact hs)
          (by rw [show x ++ b = d by simpa using hb]; exact h)
        exact ⟨c₁, by dsimp only [feed]; rw [h1], hp⟩
      · obtain ⟨c₂, h2, _⟩ := ih hxs (fun y hy => hx y (List.mem_append_left _ hy)) (x ++ b)
          (by simpa using hb)
        rw [h2]
        have hn : NoShort E (c.fed xs.flatten) := by
          refine noShort_prefix (i := x ++ b) ?_
          rw [← fed_fed, show xs.flatten ++ (x ++ b) = d by simpa using hb]
          exact hs.noShort
        have h3 := feed_ok xs hxs h2 hn
        obtain ⟨c₁, h1, hp⟩ := receive_prefix (a := xs.flatten ++ x) (b := b) hm (by simp [hx']) hc
          (by rw [show (xs.flatten ++ x) ++ b = d by simpa using hb]; exact hs)
          (by rw [show (xs.flatten ++ x) ++ b = d by simpa using hb]; exact h)
        rw [receive_split hx' h3 hn] at h1
        exact ⟨c₁, by dsimp only [feed]; rw [h1], hp⟩
    refine ⟨c₁, h1, fun hb0 => ?_, hp⟩
    subst hb0
    rw [List.append_nil] at hb
    have hn : NoShort E (c.fed (xs ++ [x]).flatten) := by rw [hb]; exact hs.noShort
    obtain ⟨_, _, h4, _⟩ := receiveData_ok (feed_ok _ (by simp) h1 hn)
    rw [hb, h] at h4
    cases h4
    rfl

/-- what a digested stream does when it comes in pieces -/
theorem feed_digests {r r' : Conn} {d : Bytes} (hm : MflInv E r) (hc : r.state.canReceive = true)
    (h : Digests E (r.fed d) r') {xs : List Bytes} (hxs : xs ≠ []) (hx : ∀ x ∈ xs, x ≠ [])
    (hd : xs.flatten = d) : ∃ t, feed E xs r = (.ok (), { r' with tr := t }) := by
  obtain ⟨⟨t, h1⟩, h2⟩ := h r.tr
  obtain ⟨c₁, h3, h4, -⟩ := feed_smooth hm hc h2 h1 xs hxs hx [] (by simpa using hd)
  exact ⟨t, by rw [h3, h4 rfl]⟩

/-- before the last byte came, the connection knows that it is not connected -/
theorem feed_waits {r r' : Conn} {d : Bytes} (hm : MflInv E r) (hc : r.state.canReceive = true)
    (hp : r.state.isPostHandshake = false) (h : Digests E (r.fed d) r') : Waits E d r := by
  intro xs b hx hb hd
  by_cases hxs : xs = []
  · subst hxs
    exact ⟨r, rfl, hp⟩
  obtain ⟨⟨t, h1⟩, h2⟩ := h r.tr
  obtain ⟨c₁, h3, -, h4⟩ := feed_smooth hm hc h2 h1 xs hxs hx b hd
  exact ⟨c₁, h3, h4 hb⟩

end Siotls
