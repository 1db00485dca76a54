import Verif.Proofs.RunSend
/-!
# Reading records and contents as sequences of atomic steps
-/

namespace Siotls

variable {E : Env} {G : Conn → Prop}

theorem nextNonce_key {info : SuiteInfo} {d d' : Dir} {n : Bytes}
    (h : nextNonce info d = .ok (n, d')) : d'.key = d.key := by
  unfold nextNonce at h
  split at h
  · split at h
    · simp only [Except.ok.injEq, Prod.mk.injEq] at h; rw [← h.2]
    · cases h
  · cases h

theorem run_decryptRecord (header fragment : Bytes) (c : Conn) :
    Run E G (decryptRecord E header fragment) c fun r c' =>
      c' = { c with cipher := c'.cipher, tr := c'.tr } ∧
      c'.cipher.map (·.wr) = c.cipher.map (·.wr) ∧ openedAs c'.tr.head? r.1 r.2 := by
  cases hc : c.cipher with
  | none => exact Run.of_eq (r := .error .attributeError) (c' := c) (by simp [decryptRecord, hc]) .refl (by simp)
  | some k =>
  cases hk : k.rd.key with
  | none => exact Run.of_eq (r := .error .attributeError) (c' := c) (by simp [decryptRecord, hc, hk]) .refl (by simp)
  | some key =>
  cases hn : nextNonce k.info k.rd with
  | error e =>
    exact Run.of_eq (r := .error e) (c' := c) (by simp [decryptRecord, hc, hk, hn]) .refl (by simp)
  | ok p =>
  obtain ⟨nonce, rd⟩ := p
  cases ho : E.aeadOpen k.info.id key nonce header fragment with
  | none =>
    exact Run.of_eq (r := .error (.alert Iana.decryptError))
      (c' := { c with cipher := some { k with rd := rd } })
      (by simp [decryptRecord, hc, hk, hn, ho]) (.single (.badRecord hc hk hn)) (by simp)
  | some inner =>
  cases hs : stripPadding inner with
  | none =>
    exact Run.of_eq (r := .error (.alert Iana.unexpectedMessage))
      (c' := { c with cipher := some { k with rd := rd },
                      tr := .opened k.info.id key nonce header inner :: c.tr })
      (by simp [decryptRecord, hc, hk, hn, ho, hs]) (.single (.opened hc hk hn ho)) (by simp)
  | some r =>
    refine Run.of_eq (r := .ok r)
      (c' := { c with cipher := some { k with rd := rd },
                      tr := .opened k.info.id key nonce header inner :: c.tr })
      (by simp [decryptRecord, hc, hk, hn, ho, hs]) (.single (.opened hc hk hn ho)) ?_
    rintro a ha
    cases ha
    exact ⟨rfl, rfl, _, _, _, _, inner, rfl, hs⟩

/-- what reading leaves unchanged -/
structure ReadSame (c c' : Conn) : Prop where
  same : c' = { c with cipher := c'.cipher, tr := c'.tr, inputData := c'.inputData,
                       inputHandshake := c'.inputHandshake }
  wr : c'.cipher.map (·.wr) = c.cipher.map (·.wr)

theorem ReadSame.refl (c : Conn) : ReadSame c c := ⟨rfl, rfl⟩

theorem ReadSame.trans {a b c : Conn} (h : ReadSame a b) (h' : ReadSame b c) : ReadSame a c :=
  ⟨by rw [h'.same]; rw [h.same], h'.wr.trans h.wr⟩

theorem ReadSame.mustEncrypt {c c' : Conn} (h : ReadSame c c') :
    c'.mustEncrypt = c.mustEncrypt := by
  have := h.wr
  unfold Conn.mustEncrypt
  cases h1 : c'.cipher <;> cases h2 : c.cipher <;> rw [h1, h2] at this <;> simp_all

/-- a record that may be used -/
def RecordOk (c' : Conn) (r : Option (Nat × Bytes)) : Prop :=
  ∀ x, r = some x → x.1 ≠ Iana.ctChangeCipherSpec ∧
    (c'.mustDecrypt = true → openedAs c'.tr.head? x.1 x.2)

/-- the part of `_read_next_record` after the record was cut from the input -/
def useRecord (E : Env) (outer : Nat) (header fragment : Bytes) : M (Option (Nat × Bytes)) := fun c =>
  match (if c.mustDecrypt then decryptRecord E header fragment c else (.ok (outer, fragment), c)) with
  | (.error e, c) => (.error e, c)
  | (.ok (ctype, fragment), c) =>
    if ctype = Iana.ctChangeCipherSpec then (.error (.alert Iana.unexpectedMessage), c)
    else (.ok (some (ctype, fragment)), c)

/-- the largest record length accepted, connection.py:211 -/
def Conn.recordLimit (c : Conn) : Nat := c.mfl + (if c.mustDecrypt then 256 else 0)

theorem readNextRecord_short {c : Conn} (h : (skipCcs c.inputData).length < 5) :
    readNextRecord E c = (.ok none, { c with inputData := skipCcs c.inputData }) := by
  simp only [readNextRecord]
  split
  · rename_i heq; rw [heq] at h; simp only [List.length_cons] at h; omega
  · rfl

theorem readNextRecord_cons {c : Conn} {t v1 v2 l1 l2 : UInt8} {rest : Bytes}
    (h : skipCcs c.inputData = t :: v1 :: v2 :: l1 :: l2 :: rest) :
    readNextRecord E c =
      if beDec [l1, l2] > c.recordLimit then
        (.error .attributeError, { c with inputData := skipCcs c.inputData })
      else if rest.length < beDec [l1, l2] then
        (.ok none, { c with inputData := skipCcs c.inputData })
      else useRecord E t.toNat [t, v1, v2, l1, l2] (rest.take (beDec [l1, l2]))
        { c with inputData := rest.drop (beDec [l1, l2]) } := by
  simp only [readNextRecord, h]
  rfl

theorem five_le {d : Bytes} (h : 5 ≤ d.length) :
    ∃ t v1 v2 l1 l2 rest, d = t :: v1 :: v2 :: l1 :: l2 :: rest := by
  match d, h with
  | t :: v1 :: v2 :: l1 :: l2 :: rest, _ => exact ⟨t, v1, v2, l1, l2, rest, rfl⟩

theorem run_useRecord (outer : Nat) (header fragment : Bytes) (c : Conn) :
    Run E G (useRecord E outer header fragment) c fun r c' =>
      ReadSame c c' ∧ c'.inputHandshake = c.inputHandshake ∧ RecordOk c' r := by
  unfold Run useRecord
  by_cases hm : c.mustDecrypt = true
  · have h := run_decryptRecord (E := E) (G := G) header fragment c
    unfold Run at h
    simp only [hm, ↓reduceIte]
    rcases hd : decryptRecord E header fragment c with ⟨r, c3⟩
    rw [hd] at h
    cases r with
    | error e => exact ⟨h.1, by simp⟩
    | ok x =>
      obtain ⟨ctype, frag⟩ := x
      obtain ⟨he, hw, ho⟩ := h.2 _ rfl
      dsimp only
      split
      · exact ⟨h.1, by simp⟩
      · rename_i hne
        refine ⟨h.1, fun a ha => ?_⟩
        cases ha
        refine ⟨⟨by rw [he], hw⟩, by rw [he], ?_⟩
        rintro x hx
        cases hx
        exact ⟨hne, fun _ => ho⟩
  · simp only [hm, Bool.false_eq_true, ↓reduceIte]
    split
    · exact ⟨.refl, by simp⟩
    · rename_i hne
      refine ⟨.refl, fun a ha => ?_⟩
      cases ha
      refine ⟨⟨rfl, rfl⟩, rfl, ?_⟩
      rintro x hx
      cases hx
      exact ⟨hne, fun h => absurd h hm⟩

theorem run_readNextRecord (c : Conn) :
    Run E G (readNextRecord E) c fun r c' =>
      ReadSame c c' ∧ c'.inputHandshake = c.inputHandshake ∧ RecordOk c' r := by
  have none_ok : ∀ c' : Conn, RecordOk c' none := by simp [RecordOk]
  by_cases hl : (skipCcs c.inputData).length < 5
  · refine Run.of_eq (readNextRecord_short hl) (.single (.input _)) fun a ha => ?_
    cases ha; exact ⟨⟨rfl, rfl⟩, rfl, none_ok _⟩
  · obtain ⟨t, v1, v2, l1, l2, rest, hd⟩ := five_le (Nat.le_of_not_lt hl)
    have := readNextRecord_cons (E := E) hd
    split at this
    · exact Run.of_eq this (.single (.input _)) (by simp)
    split at this
    · refine Run.of_eq this (.single (.input _)) fun a ha => ?_
      cases ha; exact ⟨⟨rfl, rfl⟩, rfl, none_ok _⟩
    · have hu := run_useRecord (E := E) (G := G) t.toNat [t, v1, v2, l1, l2] (rest.take (beDec [l1, l2]))
        { c with inputData := rest.drop (beDec [l1, l2]) }
      unfold Run at hu ⊢
      rw [this]
      refine ⟨(Relation.ReflTransGen.single (.input _)).trans hu.1, fun a ha => ?_⟩
      obtain ⟨g1, g2, g3⟩ := hu.2 a ha
      exact ⟨ReadSame.trans (b := { c with inputData := rest.drop (beDec [l1, l2]) }) ⟨rfl, rfl⟩ g1, g2, g3⟩

/-- a content that may be used -/
def ContentOk (c' : Conn) (r : Option (Nat × Bytes)) : Prop :=
  ∀ x, r = some x → c'.tr.head? = some (.got x.1 x.2) ∧ c'.inputHandshake = []

theorem run_finishHandshake (c : Conn) :
    Run E G finishHandshake c fun r c' => ReadSame c c' ∧ ContentOk c' r := by
  unfold Run finishHandshake
  split
  · exact ⟨.refl, by simp⟩
  · refine ⟨.single .gotHandshake, fun a ha => ?_⟩
    cases ha
    refine ⟨⟨rfl, rfl⟩, ?_⟩
    rintro x hx
    cases hx
    exact ⟨rfl, rfl⟩

theorem run_completeHandshake (fuel : Nat) (c : Conn) :
    Run E G (completeHandshake E fuel) c fun r c' => ReadSame c c' ∧ ContentOk c' r := by
  induction fuel generalizing c with
  | zero =>
    unfold completeHandshake
    by_cases hl : c.inputHandshake.length - 4 < handshakeLength c.inputHandshake
    · exact Run.of_eq (r := .error .fuel) (c' := c) (by simp [hl]) .refl (by simp)
    · have := run_finishHandshake (E := E) (G := G) c
      unfold Run at this ⊢
      simpa only [hl, ↓reduceIte] using this
  | succ fuel ih =>
    unfold completeHandshake
    by_cases hl : c.inputHandshake.length - 4 < handshakeLength c.inputHandshake
    · have hr := run_readNextRecord (E := E) (G := G) c
      unfold Run at hr ⊢
      simp only [hl, ↓reduceIte]
      split
      · rename_i heq; rw [heq] at hr; exact ⟨hr.1, by simp⟩
      · rename_i c' heq
        rw [heq] at hr
        refine ⟨hr.1, fun a ha => ?_⟩
        cases ha
        exact ⟨(hr.2 _ rfl).1, by simp [ContentOk]⟩
      · rename_i ctype frag c' heq
        rw [heq] at hr
        obtain ⟨hs, hq⟩ := hr
        obtain ⟨h1, h2, h3⟩ := hq _ rfl
        split
        · exact ⟨hs, by simp⟩
        · rename_i hct
          have hct : ctype = Iana.ctHandshake := by simpa using hct
          have hi := ih { c' with inputHandshake := c'.inputHandshake ++ frag }
          have st : Step E G c' { c' with inputHandshake := c'.inputHandshake ++ frag } :=
            .fragment frag (fun hm => by
              have := (h3 _ rfl).2 hm
              rw [hct] at this
              exact this)
          refine ⟨(hs.tail st).trans hi.1, fun a ha => ?_⟩
          obtain ⟨g1, g2⟩ := hi.2 a ha
          refine ⟨h1.trans (ReadSame.trans (b := { c' with inputHandshake := c'.inputHandshake ++ frag }) ⟨rfl, rfl⟩ g1), g2⟩
    · have := run_finishHandshake (E := E) (G := G) c
      unfold Run at this ⊢
      simpa only [hl, ↓reduceIte] using this

theorem run_readNextContent (c : Conn) :
    Run E G (readNextContent E) c fun r c' => ReadSame c c' ∧ ContentOk c' r := by
  unfold readNextContent
  have hr := run_readNextRecord (E := E) (G := G) c
  unfold Run at hr ⊢
  dsimp only
  split
  · rename_i heq; rw [heq] at hr; exact ⟨hr.1, by simp⟩
  · rename_i c' heq
    rw [heq] at hr
    refine ⟨hr.1, fun a ha => ?_⟩
    cases ha
    exact ⟨(hr.2 _ rfl).1, by simp [ContentOk]⟩
  · rename_i ctype frag c' heq
    rw [heq] at hr
    obtain ⟨hs, hq⟩ := hr
    obtain ⟨h1, h2, h3⟩ := hq _ rfl
    split
    · rename_i hx
      have st : Step E G c' { c' with tr := .got ctype frag :: c'.tr } :=
        .gotOther ctype frag hx.2 (h3 _ rfl).1 (by simpa using hx.1) (h3 _ rfl).2
      refine ⟨hs.tail st, fun a ha => ?_⟩
      cases ha
      refine ⟨h1.trans ⟨rfl, rfl⟩, ?_⟩
      rintro y hy
      cases hy
      exact ⟨rfl, by simpa using hx.1⟩
    split
    · exact ⟨hs, by simp⟩
    rename_i hct
    have hct : ctype = Iana.ctHandshake := by simpa using hct
    have st : Step E G c' { c' with inputHandshake := c'.inputHandshake ++ frag } :=
      .fragment frag (fun hm => by
        have := (h3 _ rfl).2 hm
        rw [hct] at this
        exact this)
    have h12 : ReadSame c { c' with inputHandshake := c'.inputHandshake ++ frag } := h1.trans ⟨rfl, rfl⟩
    split
    · refine ⟨hs.tail st, fun a ha => ?_⟩
      cases ha
      exact ⟨h12, by simp [ContentOk]⟩
    · have hi := run_completeHandshake (E := E) (G := G) (c'.inputData.length + 1)
        { c' with inputHandshake := c'.inputHandshake ++ frag }
      refine ⟨(hs.tail st).trans hi.1, fun a ha => ?_⟩
      obtain ⟨g1, g2⟩ := hi.2 a ha
      exact ⟨h12.trans g1, g2⟩

end Siotls
