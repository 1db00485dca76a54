import Verif.Proofs.Flow
import Verif.Proofs.Epoch
import Verif.Proofs.Record
import Verif.Proofs.Traces
import Verif.Proofs.AlgInv
import Verif.Proofs.Mfl
import Verif.Spec.Secret
import Verif.Spec.History
/-!
# Two programs that send different contents
-/

namespace Siotls

open Spec

variable {E : Env}

/-- a connection of this fragment length and tag length -/
def Shaped (mfl tag : Nat) (c : Conn) : Prop :=
  c.mfl = mfl ∧ ∃ k, c.cipher = some k ∧ k.info.tagLength = tag

/-- two outcomes that agree but for the value and the trace -/
def Pairs {α β} (mfl tag : Nat) (R : α → β → Prop) (p : Except Exn α × Conn)
    (q : Except Exn β × Conn) : Prop :=
  Shaped mfl tag p.2 ∧ (∃ t, q.2 = { p.2 with tr := t }) ∧
  ((∃ e, p.1 = .error e ∧ q.1 = .error e) ∨ ∃ a b, p.1 = .ok a ∧ q.1 = .ok b ∧ R a b)

theorem M.get_bind {β} (g : Conn → M β) (c : Conn) : (M.get >>= g) c = g c c := rfl

theorem Pairs.bind {α β α' β'} {mfl tag : Nat} {R : α → β → Prop} {S : α' → β' → Prop}
    {m : M α} {m' : M β} {g : α → M α'} {g' : β → M β'} {c d : Conn}
    (h : Pairs mfl tag R (m c) (m' d))
    (hg : ∀ a b, R a b → ∀ c t, Shaped mfl tag c → Pairs mfl tag S (g a c) (g' b { c with tr := t })) :
    Pairs mfl tag S ((m >>= g) c) ((m' >>= g') d) := by
  rw [M.bind_def, M.bind_def]
  revert h
  rcases m c with ⟨r, c₁⟩
  rcases m' d with ⟨r', d₁⟩
  intro h
  obtain ⟨h1, ⟨t, h2⟩, ⟨e, h3, h4⟩ | ⟨a, b, h3, h4, h5⟩⟩ := h
  · dsimp only at h1 h2 h3 h4
    subst h2 h3 h4
    exact ⟨h1, ⟨t, rfl⟩, .inl ⟨e, rfl, rfl⟩⟩
  · dsimp only at h1 h2 h3 h4
    subst h2 h3 h4
    exact hg a b h5 c₁ t h1

theorem Pairs.lift {α} {mfl tag : Nat} (r : Except Exn α) {c : Conn} {t : List Ev}
    (h : Shaped mfl tag c) : Pairs mfl tag Eq (M.lift r c) (M.lift r { c with tr := t }) := by
  refine ⟨h, ⟨t, rfl⟩, ?_⟩
  cases r with
  | error e => exact .inl ⟨e, rfl, rfl⟩
  | ok a => exact .inr ⟨a, a, rfl, rfl, rfl⟩

/-- a relation between bytes of the same length, by concatenation -/
structure Cover (E : Env) (O : Bytes → Bytes → Prop) : Prop where
  refl : ∀ b, O b b
  trans : ∀ {a b c}, O a b → O b c → O a c
  length : ∀ {b b'}, O b b' → b.length = b'.length
  append : ∀ {a a' b b'}, O a a' → O b b' → O (a ++ b) (a' ++ b')
  seals : ∀ s k n a p p', p.length = p'.length → O (E.aeadSeal s k n a p) (E.aeadSeal s k n a p')

theorem Cover.blind (h : E.Blind) : Cover E Eq where
  refl _ := rfl
  trans := by rintro _ _ _ rfl rfl; rfl
  length := by rintro _ _ rfl; rfl
  append := by rintro _ _ _ _ rfl rfl; rfl
  seals := h

theorem Cover.even (h : E.Even) : Cover E (fun b b' => b.length = b'.length) where
  refl _ := rfl
  trans h h' := h.trans h'
  length h := h
  append h h' := by rw [List.length_append, List.length_append, h, h']
  seals := h

theorem pairs_encrypt {O : Bytes → Bytes → Prop} (hO : Cover E O) {mfl tag ct : Nat} {f f' : Bytes}
    (hl : (innerText mfl tag ct f).length = (innerText mfl tag ct f').length) {c : Conn} {t : List Ev}
    (h : Shaped mfl tag c) :
    Pairs mfl tag O (encryptFragment E ct f c) (encryptFragment E ct f' { c with tr := t }) := by
  unfold encryptFragment
  rw [M.get_bind, M.get_bind]
  rw [show ({ c with tr := t } : Conn).mfl = c.mfl from rfl, h.1]
  refine Pairs.bind (R := fun k k' => k = k' ∧ k.info.tagLength = tag) ?_ ?_
  · obtain ⟨hm, k, hk, ht⟩ := h
    cases c
    dsimp only at hk
    subst hk
    exact ⟨⟨hm, k, rfl, ht⟩, ⟨t, rfl⟩, .inr ⟨k, k, rfl, rfl, rfl, ht⟩⟩
  rintro k _ ⟨rfl, ht⟩ c₀ t₀ h₀
  rw [ht]
  refine Pairs.bind (R := Eq) ?_ ?_
  · rw [hl]; exact Pairs.lift _ h₀
  rintro hd _ rfl c₁ t₁ h₁
  refine Pairs.bind (R := O) ?_ ?_
  · obtain ⟨hm, k₁, hk₁, ht⟩ := h₁
    cases c₁
    dsimp only at hk₁
    subst hk₁
    unfold cipherEncrypt
    dsimp only
    cases hkey : k₁.wr.key with
    | none => exact ⟨⟨hm, k₁, rfl, ht⟩, ⟨t₁, rfl⟩, .inl ⟨_, rfl, rfl⟩⟩
    | some key =>
      dsimp only
      rcases hn : nextNonce k₁.info k₁.wr with e | ⟨nonce, wr⟩
      · cases e <;> exact ⟨⟨hm, k₁, rfl, ht⟩, ⟨t₁, rfl⟩, .inl ⟨_, rfl, rfl⟩⟩
      · exact ⟨⟨hm, _, rfl, ht⟩, ⟨_, rfl⟩, .inr ⟨_, _, rfl, rfl, hO.seals _ _ _ _ _ _ hl⟩⟩
  · intro a b hab c₂ t₂ h₂
    rw [← hO.length hab, ← hl]
    split
    · exact ⟨h₂, ⟨t₂, rfl⟩, .inr ⟨a, b, rfl, rfl, hab⟩⟩
    · exact ⟨h₂, ⟨t₂, rfl⟩, .inl ⟨_, rfl, rfl⟩⟩

/-- records of the same lengths -/
def SameRecords (O : Bytes → Bytes → Prop) (rs rs' : List (Nat × Bytes × Bytes)) : Prop :=
  O (rs.map (·.2.2)).flatten (rs'.map (·.2.2)).flatten

theorem pairs_records {O : Bytes → Bytes → Prop} (hO : Cover E O) {mfl tag ct : Nat} (hm : 0 < mfl) :
    ∀ (fs fs' : List Bytes),
      (fs.map fun f => paddedLength mfl tag f.length) = fs'.map (fun f => paddedLength mfl tag f.length) →
    ∀ (c : Conn) (t : List Ev), Shaped mfl tag c →
    Pairs mfl tag (SameRecords O) (makeRecords E true ct fs c)
      (makeRecords E true ct fs' { c with tr := t })
  | [], [], _, c, t, h => ⟨h, ⟨t, rfl⟩, .inr ⟨[], [], rfl, rfl, hO.refl _⟩⟩
  | [], _ :: _, hl, _, _, _ => by simp at hl
  | _ :: _, [], hl, _, _, _ => by simp at hl
  | f :: fs, f' :: fs', hl, c, t, h => by
    rw [List.map_cons, List.map_cons, List.cons.injEq] at hl
    obtain ⟨h1, h2⟩ := hl
    have hi : (innerText mfl tag ct f).length = (innerText mfl tag ct f').length := by
      have a := innerText_padded (tag := tag) hm ct f
      have b := innerText_padded (tag := tag) hm ct f'
      omega
    unfold makeRecords
    refine Pairs.bind (R := O) (pairs_encrypt hO hi h) fun a b hab c₁ t₁ h₁ => ?_
    simp only [if_true]
    rw [← hO.length hab]
    refine Pairs.bind (R := Eq) (Pairs.lift _ h₁) ?_
    rintro hd _ rfl c₂ t₂ h₂
    refine Pairs.bind (R := SameRecords O) (pairs_records hO hm fs fs' h2 c₂ t₂ h₂)
      fun rs rs' hrs c₃ t₃ h₃ => ?_
    refine ⟨h₃, ⟨t₃, rfl⟩, .inr ⟨_, _, rfl, rfl, ?_⟩⟩
    show O _ _
    simp only [List.map_cons, List.flatten_cons]
    exact hO.append (hO.append (hO.refl _) hab) hrs

theorem chunksOf_lengths {n : Nat} (hn : 0 < n) : ∀ (k : Nat) (d : Bytes), d.length ≤ k →
    (chunksOf n k d).map List.length =
      List.replicate (d.length / n) n ++ if d.length % n = 0 then [] else [d.length % n] := by
  intro k
  induction k with
  | zero =>
    intro d hd
    have : d.length = 0 := by omega
    simp [chunksOf, this]
  | succ k ih =>
    intro d hd
    rw [chunksOf]
    split
    · rename_i he
      have : d = [] := by simpa using he
      subst this
      simp
    · rename_i he
      have hne : d ≠ [] := by simpa using he
      have hpos : 0 < d.length := List.length_pos_iff.mpr hne
      rw [List.map_cons, ih (d.drop n) (by simp; omega), List.length_take, List.length_drop]
      by_cases hle : n ≤ d.length
      · have h1 : d.length / n = (d.length - n) / n + 1 := Nat.div_eq_sub_div hn hle
        have h2 : (d.length - n) % n = d.length % n := (Nat.mod_eq_sub_mod hle).symm
        rw [h2, h1, List.replicate_succ, Nat.min_eq_left hle]
        rfl
      · have h1 : d.length - n = 0 := by omega
        have h2 : d.length / n = 0 := Nat.div_eq_of_lt (by omega)
        have h3 : d.length % n = d.length := Nat.mod_eq_of_lt (by omega)
        have h4 : d.length ≠ 0 := by omega
        rw [h1, h2, h3, Nat.min_eq_right (by omega), if_neg h4]
        simp

theorem splitFragments_sizes {mfl tag : Nat} (hm : 1 + tag < mfl) (d : Bytes) :
    ∃ fs, splitFragments ((mfl : Int) - (1 + tag : Nat)) true d = .ok fs ∧
      (fs.map fun f => paddedLength mfl tag f.length) = recordSizes mfl tag d.length := by
  unfold splitFragments recordSizes
  by_cases h : d.length ≤ mfl - (1 + tag)
  · rw [if_pos (by omega), if_pos h]
    exact ⟨_, rfl, rfl⟩
  · rw [if_neg (by omega), if_neg h, if_pos rfl, if_neg (by omega), if_neg (by omega)]
    refine ⟨_, rfl, ?_⟩
    rw [show ((mfl : Int) - (1 + tag : Nat)).toNat = mfl - (1 + tag) by omega]
    have := chunksOf_lengths (n := mfl - (1 + tag)) (by omega) d.length d (Nat.le_refl _)
    rw [show (fun f : Bytes => paddedLength mfl tag f.length) = padded mfl tag ∘ List.length from rfl,
      ← List.map_map, this, List.map_append, List.map_replicate]
    congr 1
    split <;> rfl

/-- without the output and the trace -/
def Conn.dull (c : Conn) : Conn := { c with outputData := [], tr := [] }

theorem Conn.dull_frame (c : Conn) : c.dull.frame [] c.outputData [] c.tr = c := by
  simp [Conn.dull, Conn.frame]

theorem Conn.frame_dull (c : Conn) (o : Bytes) (t : List Ev) : (c.frame [] o [] t).dull = c.dull := by
  simp [Conn.dull, Conn.frame]

/-- two connections that agree but for the trace and, up to `O`, the output -/
def Similar (O : Bytes → Bytes → Prop) (c d : Conn) : Prop :=
  c.dull = d.dull ∧ O c.outputData d.outputData

theorem sendApp_cases {c : Conn} {k : CipherSt} (hk : c.cipher = some k) (he : c.mustEncrypt = true)
    (hm : 1 + k.info.tagLength < c.mfl) :
    (∀ d, sendContent E (.applicationData d) c = (.error .tlsError, c)) ∨
    ∀ d, ∃ fs : List Bytes,
      (fs.map fun f => paddedLength c.mfl k.info.tagLength f.length) =
        recordSizes c.mfl k.info.tagLength d.length ∧
      sendContent E (.applicationData d) c =
        (makeRecords E true Iana.ctApplicationData fs >>= emitRecords (.applicationData d)) c := by
  by_cases h1 : c.state.canSendApp = false
  · refine .inl fun d => ?_
    unfold sendContent
    rw [M.get_bind, if_pos ⟨rfl, h1⟩]; rfl
  by_cases h2 : c.state.canSend = false
  · refine .inl fun d => ?_
    unfold sendContent
    rw [M.get_bind, if_neg (fun h => h1 h.2), if_pos h2]; rfl
  refine .inr fun d => ?_
  obtain ⟨fs, hf, hfs⟩ := splitFragments_sizes hm d
  refine ⟨fs, hfs, ?_⟩
  unfold sendContent
  rw [M.get_bind, if_neg (fun h => h1 h.2), if_neg h2, if_neg (by simp [Content.ctype, Iana.ctHeartbeat])]
  rw [M.bind_def]
  simp only [serContent, M.lift]
  rw [M.bind_def]
  simp only [hashContent]
  show ((M.lift (splitFragments _ true d)) >>= _) c = _
  rw [hk, he, if_pos rfl, hf]
  rfl

theorem similar_send {O : Bytes → Bytes → Prop} (hO : Cover E O) {c : Conn} {k : CipherSt}
    {d d' : Bytes} (hk : c.cipher = some k) (he : c.mustEncrypt = true)
    (hm : 1 + k.info.tagLength < c.mfl)
    (hs : recordSizes c.mfl k.info.tagLength d.length = recordSizes c.mfl k.info.tagLength d'.length) :
    (sendContent E (.applicationData d) c).1 = (sendContent E (.applicationData d') c).1 ∧
      Similar O (sendContent E (.applicationData d) c).2 (sendContent E (.applicationData d') c).2 := by
  have refl : ∀ {r : Except Exn Unit} {x : Conn}, r = r ∧ Similar O x x := ⟨rfl, rfl, hO.refl _⟩
  rcases sendApp_cases (E := E) hk he hm with h | h
  · rw [h d, h d']; exact refl
  obtain ⟨fs, hfs, hf⟩ := h d
  obtain ⟨fs', hfs', hf'⟩ := h d'
  rw [hf, hf', M.bind_def, M.bind_def]
  have := pairs_records hO (ct := Iana.ctApplicationData) (by omega) fs fs'
    ((hfs.trans hs).trans hfs'.symm) c c.tr ⟨rfl, k, hk, rfl⟩
  rw [show ({ c with tr := c.tr } : Conn) = c from rfl] at this
  revert this
  rcases makeRecords E true Iana.ctApplicationData fs c with ⟨r, x⟩
  rcases makeRecords E true Iana.ctApplicationData fs' c with ⟨r', x'⟩
  rintro ⟨-, ⟨t, ht⟩, ⟨e, h3, h4⟩ | ⟨a, b, h3, h4, h5⟩⟩
  · dsimp only at ht h3 h4
    subst ht h3 h4
    exact ⟨rfl, rfl, hO.refl _⟩
  · dsimp only at ht h3 h4
    subst ht h3 h4
    exact ⟨rfl, rfl, hO.append (hO.refl _) h5⟩

/-- the same result, up to `O` for the bytes of `data_to_send()` -/
def SameUpTo (O : Bytes → Bytes → Prop) : Op → Except Exn Bytes → Except Exn Bytes → Prop
  | .drain, r, r' => ∃ b b', r = .ok b ∧ r' = .ok b' ∧ O b b'
  | _, r, r' => r = r'

theorem Similar.run {O : Bytes → Bytes → Prop} (hO : Cover E O) {c d : Conn} (h : Similar O c d)
    (o : Op) : SameUpTo O o (o.run E c).1 (o.run E d).1 ∧ Similar O (o.run E c).2 (o.run E d).2 := by
  obtain ⟨h1, h2⟩ := h
  by_cases hb : buffering o = false
  · have hf := Op.framed0 (E := E) o hb
    have e1 := hf c.outputData [] c.tr c.dull
    have e2 := hf d.outputData [] d.tr d.dull
    rw [Conn.dull_frame] at e1 e2
    rw [← h1] at e2
    rw [e1, e2]
    refine ⟨?_, ?_, ?_⟩
    · cases o <;> first | rfl | cases hb
    · rw [Conn.frame_dull, Conn.frame_dull]
    · exact hO.append h2 (hO.refl _)
  · cases o with
    | drain => exact ⟨⟨_, _, rfl, rfl, h2⟩, congrArg (fun c => { c with outputData := [] }) h1, hO.refl _⟩
    | read =>
      have ha : c.dull.applicationData = d.dull.applicationData := by rw [h1]
      refine ⟨congrArg (Except.ok (ε := Exn)) ha,
        congrArg (fun c : Conn => { c with applicationData := [] }) h1, h2⟩
    | _ => exact absurd rfl hb

theorem Similar.trans {O : Bytes → Bytes → Prop} (hO : Cover E O) {c d e : Conn} (h : Similar O c d)
    (h' : Similar O d e) : Similar O c e := ⟨h.1.trans h'.1, hO.trans h.2 h'.2⟩

/-- a connection that encrypts, with room for data in its records -/
def Fit (c : Conn) : Prop :=
  c.mustEncrypt = true ∧ ∃ k, c.cipher = some k ∧ 1 + k.info.tagLength < c.mfl

/-- call by call -/
def AllUpTo (O : Bytes → Bytes → Prop) : List Op → List (Except Exn Bytes) →
    List (Except Exn Bytes) → Prop
  | [], [], [] => True
  | o :: os, r :: rs, r' :: rs' => SameUpTo O o r r' ∧ AllUpTo O os rs rs'
  | _, _, _ => False

theorem similar_step {O : Bytes → Bytes → Prop} (hO : Cover E O) {o o' : Op} {c d : Conn}
    (h : Similar O c d) (hf : Fit c)
    (ho : o = o' ∨ ∃ d d', o = .send d ∧ o' = .send d' ∧ ∀ k, c.cipher = some k →
      recordSizes c.mfl k.info.tagLength d.length = recordSizes c.mfl k.info.tagLength d'.length) :
    SameUpTo O o (o.run E c).1 (o'.run E d).1 ∧ Similar O (o.run E c).2 (o'.run E d).2 := by
  rcases ho with rfl | ⟨x, y, rfl, rfl, hs⟩
  · exact h.run hO o
  · obtain ⟨he, k, hk, hm⟩ := hf
    obtain ⟨e1, e2⟩ := h.run hO (.send y)
    obtain ⟨g1, g2⟩ := similar_send hO hk he hm (hs k hk)
    have key : ((Op.send x).run E c).1 = ((Op.send y).run E c).1 ∧
        Similar O ((Op.send x).run E c).2 ((Op.send y).run E c).2 := by
      simp only [Op.run, sendData, M.bind_def]
      revert g1 g2
      rcases sendContent E (.applicationData x) c with ⟨r, a⟩
      rcases sendContent E (.applicationData y) c with ⟨r', b⟩
      rintro g1 g2
      obtain rfl : r = r' := g1
      cases r <;> exact ⟨rfl, g2⟩
    exact ⟨key.1.trans e1, key.2.trans hO e2⟩

theorem similar_runs {O : Bytes → Bytes → Prop} (hO : Cover E O) :
    ∀ (p p' : List Op) (c d : Conn), Similar O c d → Disguised E p p' c →
      (∀ q r, p = q ++ r → Fit (runOps E q c)) →
      AllUpTo O p (results E p c) (results E p' d) ∧ Similar O (runOps E p c) (runOps E p' d)
  | [], [], _, _, h, _, _ => ⟨trivial, h⟩
  | [], _ :: _, _, _, _, h, _ => h.elim
  | _ :: _, [], _, _, _, h, _ => h.elim
  | o :: os, o' :: os', c, d, h, ⟨ho, hd⟩, hf => by
    have step := similar_step hO h (hf [] _ rfl) ho
    obtain ⟨i1, i2⟩ := similar_runs hO os os' _ _ step.2 hd fun q r hq =>
      hf (o :: q) r (by rw [hq]; rfl)
    exact ⟨⟨step.1, i1⟩, i2⟩

/-- The games with two sequences of data are two programs that only differ by the data. -/
theorem game_lengths (hB : E.Blind) (who : List (Except Exn Bytes) → Option Op) {data data' : Nat → Bytes}
    (hl : ∀ i, (data i).length = (data' i).length) :
    ∀ (n : Nat) (seen : List (Except Exn Bytes)) (c d : Conn), Similar Eq c d →
      (∀ q r, game E who data n seen c = q ++ r → Fit (runOps E q c)) →
      SameLengths (game E who data n seen c) (game E who data' n seen d)
  | 0, _, _, _, _, _ => trivial
  | n + 1, seen, c, d, h, hf => by
    have ho : (turnOf who data seen) = (turnOf who data' seen) ∨ ∃ x x',
        turnOf who data seen = .send x ∧ turnOf who data' seen = .send x' ∧ x.length = x'.length := by
      unfold turnOf
      cases who seen with
      | some o => exact .inl rfl
      | none => exact .inr ⟨_, _, rfl, rfl, hl _⟩
    have step := similar_step (Cover.blind hB) h (hf [] _ rfl)
      (ho.imp_right fun ⟨x, x', h1, h2, h3⟩ => ⟨x, x', h1, h2, fun _ _ => by rw [h3]⟩)
    have hr : ((turnOf who data seen).run E c).1 = ((turnOf who data' seen).run E d).1 := by
      obtain ⟨h1, -⟩ := step
      revert h1
      generalize turnOf who data seen = o
      intro h1
      cases o <;> first | exact h1 | (obtain ⟨b, b', e1, e2, e3⟩ := h1; rw [e1, e2, e3])
    refine ⟨ho, ?_⟩
    rw [← hr]
    exact game_lengths hB who hl n _ _ _ step.2 fun q r hq =>
      hf (turnOf who data seen :: q) r (by
        show turnOf who data seen :: game E who data n _ _ = _
        rw [hq]; rfl)

theorem allUpTo_eq : ∀ (p : List Op) (rs rs' : List (Except Exn Bytes)), AllUpTo Eq p rs rs' → rs = rs'
  | [], [], [], _ => rfl
  | [], _ :: _, _, h => h.elim
  | [], [], _ :: _, h => h.elim
  | _ :: _, [], _, h => by cases h
  | _ :: _, _ :: _, [], h => by cases h
  | o :: os, r :: rs, r' :: rs', ⟨h1, h2⟩ => by
    have : r = r' := by
      cases o <;> first | exact h1 | (obtain ⟨b, b', e1, e2, e3⟩ := h1; rw [e1, e2, e3])
    rw [this, allUpTo_eq os rs rs' h2]

theorem allUpTo_sizes : ∀ (p : List Op) (rs rs' : List (Except Exn Bytes)),
    AllUpTo (fun b b' => b.length = b'.length) p rs rs' → SameSizes p rs rs'
  | [], [], [], _ => trivial
  | [], _ :: _, _, h => h.elim
  | [], [], _ :: _, h => h.elim
  | _ :: _, [], _, h => by cases h
  | _ :: _, _ :: _, [], h => by cases h
  | o :: os, r :: rs, r' :: rs', ⟨h1, h2⟩ => by
    refine ⟨?_, allUpTo_sizes os rs rs' h2⟩
    cases o <;> exact h1

theorem sameLengths_disguised : ∀ (p p' : List Op) (c : Conn), SameLengths p p' → Disguised E p p' c
  | [], [], _, _ => trivial
  | [], _ :: _, _, h => h.elim
  | _ :: _, [], _, h => h.elim
  | o :: os, o' :: os', c, ⟨h1, h2⟩ => by
    refine ⟨?_, sameLengths_disguised os os' _ h2⟩
    rcases h1 with h1 | ⟨x, y, hx, hy, hl⟩
    · exact .inl h1
    · exact .inr ⟨x, y, hx, hy, fun _ _ => by rw [hl]⟩

theorem wkeys_append_ne {l tr : List Ev} (h : wkeys tr ≠ []) : wkeys (l ++ tr) ≠ [] := by
  induction l with
  | nil => exact h
  | cons e l ih => cases e <;> first | exact ih | (intro h; cases h)

/-- the connection is fit as soon as a write key was installed -/
theorem fit_after (hE : E.Sized) {config hostname ocsp algs random} {c : Conn}
    (h : Conn.new config hostname ocsp algs random = .ok c)
    (hm : config.maxFragmentLength ∈ [512, 1024, 2048, 4096, 16384]) {ops p : List Op}
    (hc : Careful E (ops ++ p) c) (hw : writeKeys (runOps E ops c).tr ≠ []) (q r : List Op)
    (hq : p = q ++ r) : Fit (runOps E q (runOps E ops c)) := by
  subst hq
  rw [← runOps_append]
  rw [← List.append_assoc] at hc
  have hp := (Guarded.run h (ops ++ q) hc.left).phase
  have hs := SeqInv.run hE h (ops ++ q)
  have hmfl := ((MflInv.fresh (E := E) h hm).run (ops ++ q)).mfl
  have hsuf : (runOps E ops c).tr <:+ (runOps E (ops ++ q) c).tr := by
    rw [runOps_append]
    exact runOps_inv (I := fun x => (runOps E ops c).tr <:+ x.tr)
      (fun _ _ hi ha => hi.trans ha.suffix) (List.suffix_refl _) q
  have hw' : wkeys (runOps E (ops ++ q) c).tr ≠ [] := by
    rw [← writeKeys_eq] at hw
    obtain ⟨new, hn⟩ := hsuf
    rw [← hn]
    exact wkeys_append_ne hw
  have he : (runOps E (ops ++ q) c).mustEncrypt = true := by
    rw [encOf_eq]
    cases hx : encOf (runOps E (ops ++ q) c).cipher with
    | true => rfl
    | false => exact absurd (hp.clearW hx) hw'
  refine ⟨he, ?_⟩
  cases hk : (runOps E (ops ++ q) c).cipher with
  | none => rw [encOf_eq, hk] at he; cases he
  | some k =>
    unfold SeqInv at hs
    rw [hk] at hs
    refine ⟨k, rfl, ?_⟩
    have := suite_tag hs.1
    have := (fragmentSizes_bounds hmfl).1
    omega

end Siotls
