import Verif.Proofs.Frame
/-!
# Reading: what was read does not depend on what follows, and the loops end
-/

namespace Siotls

variable {E : Env}

/-! ## change_cipher_spec -/

theorem skipCcs_append (d i : Bytes) : skipCcs (d ++ i) = skipCcs (skipCcs d ++ i) := by
  induction d using skipCcs.induct with
  | case1 t v1 v2 l1 l2 b rest h ih =>
    rw [List.cons_append, List.cons_append, List.cons_append, List.cons_append, List.cons_append,
      List.cons_append, skipCcs, if_pos h, ih, skipCcs, if_pos h]
  | case2 t v1 v2 l1 l2 b rest h => rw [show skipCcs (t :: v1 :: v2 :: l1 :: l2 :: b :: rest) = _ by
      rw [skipCcs, if_neg h]]
  | case3 d h =>
    rw [show skipCcs d = d by
      unfold skipCcs; split
      · exact absurd rfl (h _ _ _ _ _ _ _)
      · rfl]

theorem skipCcs_length_le (d : Bytes) : (skipCcs d).length ≤ d.length := by
  induction d using skipCcs.induct with
  | case1 t v1 v2 l1 l2 b rest h ih => rw [skipCcs, if_pos h]; simp; omega
  | case2 t v1 v2 l1 l2 b rest h => rw [skipCcs, if_neg h]
  | case3 d h =>
    rw [show skipCcs d = d by
      unfold skipCcs; split
      · exact absurd rfl (h _ _ _ _ _ _ _)
      · rfl]

theorem skipCcs_idem (d : Bytes) : skipCcs (skipCcs d) = skipCcs d := by
  simpa using (skipCcs_append d []).symm

theorem skipCcs_full {d i rest : Bytes} {t v1 v2 l1 l2 : UInt8}
    (h : skipCcs d = t :: v1 :: v2 :: l1 :: l2 :: rest) (hr : rest ≠ [] ∨ beDec [l1, l2] ≠ 1) :
    skipCcs (d ++ i) = t :: v1 :: v2 :: l1 :: l2 :: (rest ++ i) := by
  rw [skipCcs_append, h]
  have hi := skipCcs_idem d
  rw [h] at hi
  cases rest with
  | nil =>
    cases i with
    | nil => rfl
    | cons b i =>
      show skipCcs (t :: v1 :: v2 :: l1 :: l2 :: b :: i) = _
      rw [skipCcs, if_neg]
      · rfl
      · rintro ⟨_, rfl, rfl, _⟩
        rcases hr with hr | hr
        · exact hr rfl
        · exact hr (by decide)
  | cons b rest =>
    show skipCcs (t :: v1 :: v2 :: l1 :: l2 :: b :: (rest ++ i)) = _
    rw [skipCcs, if_neg]
    · rfl
    · intro hc
      rw [skipCcs, if_pos hc] at hi
      have h1 := skipCcs_length_le rest
      rw [hi] at h1
      simp at h1
      omega

/-! ## Records -/

theorem framed_useRecord (outer : Nat) (header frag : Bytes) :
    Framed (useRecord E outer header frag) := by
  have hd : Framed (decryptRecord E header frag) := by
    intro i o a t c
    obtain ⟨config, hostname, hasOcsp, nconfig, cipher, signature, transcript, inputData, inputHandshake,
      outputData, applicationData, clientUnique, serverUnique, state, draws, tr⟩ := c
    unfold decryptRecord Conn.frame
    dsimp only
    cases cipher with
    | none => rfl
    | some k =>
      dsimp only
      cases k.rd.key with
      | none => rfl
      | some key =>
        dsimp only
        rcases nextNonce k.info k.rd with e | ⟨n, w⟩
        · rfl
        · dsimp only
          cases E.aeadOpen k.info.id key n header frag with
          | none => rfl
          | some inner =>
            dsimp only
            cases stripPadding inner <;> rfl
  intro i o a t c
  unfold useRecord
  rw [show (c.frame i o a t).mustDecrypt = c.mustDecrypt from rfl]
  cases hm : c.mustDecrypt with
  | false => simp only [Bool.false_eq_true, if_false]; split <;> rfl
  | true =>
    simp only [if_true]
    rw [hd]
    rcases decryptRecord E header frag c with ⟨r, c'⟩
    cases r with
    | error e => rfl
    | ok x => obtain ⟨ct, f⟩ := x; dsimp only; split <;> rfl

theorem useRecord_input {outer : Nat} {header frag : Bytes} (c : Conn) :
    (useRecord E outer header frag c).2.inputData = c.inputData ∧
    (useRecord E outer header frag c).2.inputHandshake = c.inputHandshake ∧
    ∀ r, (useRecord E outer header frag c).1 = .ok r → r ≠ none := by
  unfold useRecord
  cases hm : c.mustDecrypt with
  | false =>
    simp only [Bool.false_eq_true, if_false]
    split <;> exact ⟨rfl, rfl, by rintro r ⟨⟩ <;> simp⟩
  | true =>
    simp only [if_true]
    have : (decryptRecord E header frag c).2.inputData = c.inputData ∧
        (decryptRecord E header frag c).2.inputHandshake = c.inputHandshake := by
      unfold decryptRecord
      repeat' (first | exact ⟨rfl, rfl⟩ | split | dsimp only)
    rcases hd : decryptRecord E header frag c with ⟨r, c'⟩
    rw [hd] at this
    cases r with
    | error e => exact ⟨this.1, this.2, by rintro r ⟨⟩⟩
    | ok x =>
      obtain ⟨ct, f⟩ := x
      dsimp only
      split <;> exact ⟨this.1, this.2, by rintro r ⟨⟩ <;> simp⟩

theorem mfl_frame (c : Conn) (i o a t) : (c.frame i o a t).mfl = c.mfl := rfl
theorem limit_frame (c : Conn) (i o a t) : (c.frame i o a t).recordLimit = c.recordLimit := rfl

/-- the three outcomes of reading a record -/
inductive NextRecord (E : Env) (c : Conn) : Prop
  | none : (∀ i o a t, readNextRecord E (c.frame i o a t) =
        readNextRecord E ({ c with inputData := skipCcs c.inputData }.frame i o a t)) →
      (readNextRecord E c = (.ok none, { c with inputData := skipCcs c.inputData })) →
      NextRecord E c
  | overflow : (0 < c.mfl → ∀ i o a t, readNextRecord E (c.frame i o a t) =
        ((.error .attributeError), { c with inputData := skipCcs c.inputData }.frame i o a t)) →
      readNextRecord E c = (.error .attributeError, { c with inputData := skipCcs c.inputData }) →
      NextRecord E c
  | record (outer : Nat) (header frag rest : Bytes) : rest.length + 5 ≤ c.inputData.length →
      (∀ i o a t, readNextRecord E (c.frame i o a t) =
        useRecord E outer header frag ({ c with inputData := rest }.frame i o a t)) →
      readNextRecord E c = useRecord E outer header frag { c with inputData := rest } →
      NextRecord E c

theorem nextRecord (c : Conn) : NextRecord E c := by
  have hnone : ∀ i o a t, (5 ≤ (skipCcs c.inputData).length → ∃ t' v1 v2 l1 l2 rest,
      skipCcs c.inputData = t' :: v1 :: v2 :: l1 :: l2 :: rest ∧ ¬ beDec [l1, l2] > c.recordLimit ∧
      rest.length < beDec [l1, l2]) →
      readNextRecord E (c.frame i o a t) =
        readNextRecord E ({ c with inputData := skipCcs c.inputData }.frame i o a t) := by
    intro i o a t _
    have e : skipCcs (c.frame i o a t).inputData =
        skipCcs ({ c with inputData := skipCcs c.inputData }.frame i o a t).inputData :=
      skipCcs_append c.inputData i
    unfold readNextRecord
    rw [e]
    rfl
  by_cases hl : (skipCcs c.inputData).length < 5
  · exact .none (fun i o a t => hnone i o a t fun h => absurd h (by omega)) (readNextRecord_short hl)
  · obtain ⟨t', v1, v2, l1, l2, rest, hd⟩ := five_le (Nat.le_of_not_lt hl)
    have hc := readNextRecord_cons (E := E) hd
    have hlen := skipCcs_length_le c.inputData
    rw [hd] at hlen
    simp only [List.length_cons] at hlen
    split at hc
    · next hov =>
      refine .overflow (fun hm i o a t => ?_) hc
      have h1 : beDec [l1, l2] ≠ 1 := by
        have : c.mfl ≤ c.recordLimit := Nat.le_add_right _ _
        omega
      have hd' : skipCcs (c.frame i o a t).inputData = t' :: v1 :: v2 :: l1 :: l2 :: (rest ++ i) :=
        skipCcs_full hd (.inr h1)
      rw [readNextRecord_cons hd', limit_frame, if_pos hov]
      have : skipCcs (c.frame i o a t).inputData = skipCcs c.inputData ++ i := by
        rw [hd', hd]; rfl
      rw [this]; rfl
    split at hc
    · next hov hsh =>
      exact .none (fun i o a t => hnone i o a t fun _ => ⟨t', v1, v2, l1, l2, rest, hd, hov, hsh⟩) hc
    · next hov hsh =>
      refine .record t'.toNat [t', v1, v2, l1, l2] (rest.take (beDec [l1, l2]))
        (rest.drop (beDec [l1, l2])) (by simp; omega) (fun i o a t => ?_) hc
      have hd' : skipCcs (c.frame i o a t).inputData = t' :: v1 :: v2 :: l1 :: l2 :: (rest ++ i) := by
        refine skipCcs_full hd ?_
        by_cases hr : rest = []
        · right
          rw [hr] at hsh
          simp only [List.length_nil, Nat.not_lt, Nat.le_zero_eq] at hsh
          omega
        · exact .inl hr
      have hle : beDec [l1, l2] ≤ rest.length := by omega
      rw [readNextRecord_cons hd', limit_frame, if_neg hov, if_neg (by simp; omega),
        List.take_append_of_le_length hle, List.drop_append_of_le_length hle]
      rfl

/-- reading does not look at the other buffers -/
theorem readNextRecord_frame0 (c : Conn) (o a t) :
    readNextRecord E (c.frame [] o a t) =
      ((readNextRecord E c).1, (readNextRecord E c).2.frame [] o a t) := by
  have hi : (c.frame [] o a t).inputData = c.inputData := by simp [Conn.frame]
  by_cases hl : (skipCcs c.inputData).length < 5
  · rw [readNextRecord_short hl, readNextRecord_short (by rw [hi]; exact hl), hi]
    simp [Conn.frame]
  · obtain ⟨t', v1, v2, l1, l2, rest, hd⟩ := five_le (Nat.le_of_not_lt hl)
    rw [readNextRecord_cons hd, readNextRecord_cons (by rw [hi]; exact hd), hi, limit_frame]
    split
    · simp [Conn.frame]
    split
    · simp [Conn.frame]
    · have := framed_useRecord (E := E) t'.toNat [t', v1, v2, l1, l2] (rest.take (beDec [l1, l2]))
        [] o a t { c with inputData := rest.drop (beDec [l1, l2]) }
      rw [← this]
      simp [Conn.frame]

theorem readNextRecord_some {c c' : Conn} {r : Nat × Bytes}
    (h : readNextRecord E c = (.ok (some r), c')) :
    c'.inputData.length + 5 ≤ c.inputData.length ∧ c'.inputHandshake = c.inputHandshake ∧
    ∀ i o a t, readNextRecord E (c.frame i o a t) = (.ok (some r), c'.frame i o a t) := by
  cases nextRecord (E := E) c with
  | none _ h2 => rw [h2] at h; cases h
  | overflow _ h2 => rw [h2] at h; cases h
  | record outer header frag rest hl h1 h2 =>
    have hu := useRecord_input (E := E) (outer := outer) (header := header) (frag := frag)
      { c with inputData := rest }
    rw [h2] at h
    rw [h] at hu
    refine ⟨by rw [hu.1]; exact hl, hu.2.1, fun i o a t => ?_⟩
    rw [h1, framed_useRecord, h]

theorem readNextRecord_none {c c' : Conn} (h : readNextRecord E c = (.ok none, c')) :
    c' = { c with inputData := skipCcs c.inputData } ∧
    (∀ i o a t, readNextRecord E (c.frame i o a t) = readNextRecord E (c'.frame i o a t)) ∧
    readNextRecord E c' = (.ok none, c') := by
  cases nextRecord (E := E) c with
  | none h1 h2 =>
    rw [h2] at h; cases h
    refine ⟨rfl, h1, ?_⟩
    have := h1 [] [] [] []
    have e : ∀ c : Conn, c.frame [] [] [] [] = c := by intro c; simp [Conn.frame]
    rw [e, e, h2] at this
    exact this.symm
  | overflow _ h2 => rw [h2] at h; cases h
  | record outer header frag rest hl h1 h2 =>
    have hu := useRecord_input (E := E) (outer := outer) (header := header) (frag := frag)
      { c with inputData := rest }
    rw [h2] at h; rw [h] at hu
    exact absurd rfl (hu.2.2 _ rfl)

theorem readNextRecord_error {c c' : Conn} {e : Exn} (hm : 0 < c.mfl)
    (h : readNextRecord E c = (.error e, c')) :
    ∀ i o a t, readNextRecord E (c.frame i o a t) = (.error e, c'.frame i o a t) := by
  cases nextRecord (E := E) c with
  | none h1 h2 => rw [h2] at h; cases h
  | overflow h1 h2 =>
    rw [h2] at h; cases h
    exact h1 hm
  | record outer header frag rest hl h1 h2 =>
    rw [h2] at h
    intro i o a t
    rw [h1, framed_useRecord, h]

end Siotls
