import Verif.Proofs.Traces
/-!
# One key at a time: lemmas behind C14, C15 and C45
-/

namespace Siotls

variable {E : Env} {G : Conn → Prop}

theorem Epochs.tail {e : DEv} {l : List DEv} (h : Epochs (e :: l)) : Epochs l := by
  generalize hl : e :: l = l' at h
  cases h with
  | nil => cases hl
  | stuck h => cases hl; exact h
  | @cons old cur s k iv n info lim h h1 h2 h3 h4 h5 =>
    cases cur with
    | nil => cases hl; exact h
    | cons x cur =>
      cases hl
      exact .cons h h1 h2 h3 h4 ((List.sublist_cons_self _ _).trans h5)

theorem Epochs.suffix {l l' : List DEv} (h : Epochs l) (hs : l' <:+ l) : Epochs l' := by
  obtain ⟨p, rfl⟩ := hs
  induction p with
  | nil => exact h
  | cons x p ih => exact ih h.tail

/-- the uses since the newest key -/
def DEv.newest : List DEv → List DEv
  | .use s k n :: l => .use s k n :: newest l
  | _ => []

theorem newest_append {cur : List DEv} {s k old} (h : DEv.keys cur = []) :
    DEv.newest (cur ++ .key s k :: old) = cur := by
  induction cur with
  | nil => rfl
  | cons e l ih =>
    cases e with
    | key => cases h
    | use => exact congrArg _ (ih h)

theorem DEv.keys_append (a b : List DEv) : DEv.keys (a ++ b) = DEv.keys a ++ DEv.keys b :=
  List.filterMap_append

theorem Epochs.epoch {l : List DEv} (h : Epochs l) :
    (DEv.uses (DEv.newest l)).Nodup ∧
    (DEv.newest l ≠ [] → ∃ s k info lim, (DEv.keys l).head? = some (s, k) ∧
      (∀ p ∈ DEv.uses (DEv.newest l), p.1 = k) ∧ suiteInfo s = some info ∧
      info.usageLimit = some lim ∧ (DEv.uses (DEv.newest l)).length ≤ lim) := by
  cases h with
  | nil => exact ⟨.nil, fun h => absurd rfl h⟩
  | stuck _ => exact ⟨.nil, fun h => absurd rfl h⟩
  | @cons old cur s k iv n info lim hold hi hl hn hiv hsub =>
    rw [newest_append (keys_of_uses hsub), DEv.keys_append, keys_of_uses hsub]
    refine ⟨(nodup_usesUpTo hiv (le_trans hn (limit_le hi hl))).sublist (hsub.filterMap _),
      fun _ => ⟨s, k, info, lim, rfl, ?_, hi, hl, ?_⟩⟩
    · intro p hp
      obtain ⟨e, he, hpe⟩ := List.mem_filterMap.mp hp
      obtain ⟨i, _, rfl⟩ := mem_usesUpTo (hsub.subset he)
      cases hpe; rfl
    · have h1 : (DEv.uses cur).length ≤ cur.length := List.length_filterMap_le _ _
      have h2 := hsub.length_le
      simp only [usesUpTo, List.length_map, List.length_reverse, List.length_range] at h2
      omega

theorem newest_write (l : List Ev) :
    DEv.newest (l.filterMap DEv.ofWrite) = (sinceW l).filterMap DEv.ofWrite := by
  induction l with
  | nil => rfl
  | cons e l ih => cases e <;> first | rfl | exact ih | exact congrArg _ ih

theorem newest_read (l : List Ev) :
    DEv.newest (l.filterMap DEv.ofRead) = (sinceR l).filterMap DEv.ofRead := by
  induction l with
  | nil => rfl
  | cons e l ih => cases e <;> first | rfl | exact ih | exact congrArg _ ih

theorem uses_nil_of {l : List DEv} (h : l = []) : DEv.uses l = [] := by rw [h]; rfl

/-- one epoch of the write direction -/
theorem write_epoch {c : Conn} (h : SeqInv c) {t : List Ev} (ht : t <:+ c.tr) :
    (encryptions (sinceW t)).Nodup ∧
    (encryptions (sinceW t) ≠ [] → ∃ s k info lim, (writeKeys t).head? = some (s, k) ∧
      (∀ p ∈ encryptions (sinceW t), p.1 = k) ∧ suiteInfo s = some info ∧
      info.usageLimit = some lim ∧ (encryptions (sinceW t)).length ≤ lim) := by
  have := (h.epochs.1.suffix (ht.filterMap _)).epoch
  rw [newest_write, encryptions_eq] at this
  refine ⟨this.1, fun hne => ?_⟩
  obtain ⟨s, k, i, lim, h1, h2⟩ := this.2 (fun h => hne (by rw [← encryptions_eq, h]; rfl))
  exact ⟨s, k, i, lim, by rw [← writeKeys_eq]; exact h1, h2⟩

theorem read_epoch {c : Conn} (h : SeqInv c) {t : List Ev} (ht : t <:+ c.tr) :
    (decryptions (sinceR t)).Nodup ∧
    (decryptions (sinceR t) ≠ [] → ∃ s k info lim, (readKeys t).head? = some (s, k) ∧
      (∀ p ∈ decryptions (sinceR t), p.1 = k) ∧ suiteInfo s = some info ∧
      info.usageLimit = some lim ∧ (decryptions (sinceR t)).length ≤ lim) := by
  have := (h.epochs.2.suffix (ht.filterMap _)).epoch
  rw [newest_read, decryptions_eq] at this
  refine ⟨this.1, fun hne => ?_⟩
  obtain ⟨s, k, i, lim, h1, h2⟩ := this.2 (fun h => hne (by rw [← decryptions_eq, h]; rfl))
  exact ⟨s, k, i, lim, by rw [← readKeys_eq]; exact h1, h2⟩

/-! ## Sending under one key -/

def wrKey (c : Conn) : Option (SuiteInfo × Bytes) :=
  c.cipher.bind fun k => k.wr.key.map (k.info, ·)

/-- a method whose encryptions all use the write key in place -/
def SealsWith {α} (m : M α) : Prop := ∀ c, wrKey (m c).2 = wrKey c ∧
  ∃ new, (m c).2.tr = new ++ c.tr ∧ ∀ s k n a p, Ev.sealed s k n a p ∈ new →
    ∃ info, wrKey c = some (info, k) ∧ info.usageLimit.isSome = true

theorem SealsWith.bind {α β} {m : M α} {g : α → M β} (h : SealsWith m) (hg : ∀ a, SealsWith (g a)) :
    SealsWith (m >>= g) := by
  intro c
  rw [M.bind_def]
  have h := h c
  rcases hm : m c with ⟨r, c'⟩
  rw [hm] at h
  cases r with
  | error e => exact h
  | ok a =>
    obtain ⟨h1, n1, h2, h3⟩ := h
    obtain ⟨g1, n2, g2, g3⟩ := hg a c'
    refine ⟨g1.trans h1, n2 ++ n1, by rw [List.append_assoc, ← h2]; exact g2, ?_⟩
    intro s k n a p hm
    rcases List.mem_append.mp hm with hm | hm
    · rw [← h1]; exact g3 _ _ _ _ _ hm
    · exact h3 _ _ _ _ _ hm

theorem SealsWith.same {α} {m : M α} (h : ∀ c, (m c).2.cipher = c.cipher ∧
    ∃ new, (m c).2.tr = new ++ c.tr ∧ ∀ s k n a p, Ev.sealed s k n a p ∉ new) : SealsWith m := by
  intro c
  obtain ⟨h1, new, h2, h3⟩ := h c
  exact ⟨by unfold wrKey; rw [h1], new, h2, fun s k n a p hm => absurd hm (h3 _ _ _ _ _)⟩

theorem SealsWith.none {α} {m : M α} (h : ∀ c, (m c).2.cipher = c.cipher ∧ (m c).2.tr = c.tr) :
    SealsWith m :=
  .same fun c => ⟨(h c).1, [], (h c).2, fun _ _ _ _ _ => by simp⟩

theorem SealsWith.pure {α} (a : α) : SealsWith (pure a : M α) := .none fun _ => ⟨rfl, rfl⟩
theorem SealsWith.throw {α} (e : Exn) : SealsWith (M.throw e : M α) := .none fun _ => ⟨rfl, rfl⟩
theorem SealsWith.lift {α} (r : Except Exn α) : SealsWith (M.lift r) := .none fun _ => ⟨rfl, rfl⟩
theorem SealsWith.get : SealsWith M.get := .none fun _ => ⟨rfl, rfl⟩

theorem sealsWith_encrypt (d h : Bytes) : SealsWith (cipherEncrypt E d h) := by
  intro c
  unfold cipherEncrypt
  split
  · exact ⟨rfl, [], rfl, fun _ _ _ _ _ h => by cases h⟩
  · rename_i k hk
    split
    · exact ⟨rfl, [], rfl, fun _ _ _ _ _ h => by cases h⟩
    · rename_i key hkey
      split
      · exact ⟨rfl, [], rfl, fun _ _ _ _ _ h => by cases h⟩
      · exact ⟨rfl, [], rfl, fun _ _ _ _ _ h => by cases h⟩
      · rename_i nonce wr hn
        have hw : wrKey c = some (k.info, key) := by simp [wrKey, hk, hkey]
        refine ⟨?_, [_], rfl, ?_⟩
        · rw [hw]
          simp [wrKey, nextNonce_key hn, hkey]
        · intro s k n a p hm
          rw [List.mem_singleton] at hm
          cases hm
          refine ⟨_, hw, ?_⟩
          unfold nextNonce at hn
          split at hn
          · rename_i hl; rw [hl]; rfl
          · cases hn

theorem sealsWith_send (content : Content) : SealsWith (sendContent E content) := by
  unfold sendContent
  refine .bind .get fun c => ?_
  split
  · exact .throw _
  split
  · exact .throw _
  split
  · exact .throw _
  refine .bind (.lift _) fun d => .bind ?_ fun _ => .bind (.lift _) fun frags => .bind ?_ fun _ => ?_
  · cases content with
    | handshake h =>
      refine .same fun c => ?_
      simp only [hashContent, transcriptUpdate]
      split
      · rename_i s _ _
        cases s
        · exact ⟨rfl, [], rfl, fun _ _ _ _ _ => by simp⟩
        · exact ⟨rfl, [_], rfl, fun _ _ _ _ _ => by simp⟩
      · exact ⟨rfl, [], rfl, fun _ _ _ _ _ => by simp⟩
    | unparsed => exact .throw _
    | _ => exact .pure _
  · induction frags with
    | nil => exact .pure _
    | cons x xs ih =>
      unfold makeRecords
      refine .bind ?_ fun _ => .bind (.lift _) fun _ => .bind ih fun _ => .pure _
      unfold protect
      split
      · unfold encryptFragment
        refine .bind .get fun c => .bind ?_ fun k => .bind (.lift _) fun _ =>
          .bind (sealsWith_encrypt _ _) fun _ => ?_
        · refine .none fun c => ?_
          unfold getCipher; split <;> exact ⟨rfl, rfl⟩
        · split
          · exact .pure _
          · exact .throw _
      · exact .pure _
  · refine .same fun c => ⟨rfl, _ :: _, rfl, ?_⟩
    intro s k n a p hm
    simp at hm

/-! ## Once connected -/

/-- the handshake is over and its keys are gone -/
structure Settled (c : Conn) : Prop where
  post : c.state.isPostHandshake = true
  fin : ∀ k, c.cipher = some k → k.cFin = .none

theorem Settled.step {c c' : Conn} (h : Settled c) (hs : Step E G c c') : Settled c' := by
  have no : ∀ {s}, c.state = s → s.isPostHandshake = true := by rintro _ rfl; exact h.post
  cases hs with
  | badRecord hc => exact ⟨h.post, by rintro _ ⟨⟩; (have := h.fin _ hc; exact this)⟩
  | opened hc => exact ⟨h.post, by rintro _ ⟨⟩; (have := h.fin _ hc; exact this)⟩
  | sealed hc => exact ⟨h.post, by rintro _ ⟨⟩; (have := h.fin _ hc; exact this)⟩
  | setup hok =>
    exfalso
    cases hok with
    | client hs => cases no hs
    | server hs => cases no hs
  | skipEarly hc hsk =>
    refine ⟨h.post, ?_⟩
    rintro _ ⟨⟩
    obtain ⟨_, _, rfl⟩ := skipEarly_view hsk
    (have := h.fin _ hc; exact this)
  | handshakeKeys _ hc hok hd =>
    exfalso
    cases hok with
    | client hs => cases no hs
    | server hs => cases no hs
  | masterKeys _ hc _ hd =>
    refine ⟨h.post, ?_⟩
    rintro _ ⟨⟩
    cases deriveMaster_view hd <;> first
      | rfl
      | (have := h.fin _ hc; exact this)
  | move hm =>
    refine ⟨?_, h.fin⟩
    cases hm <;> first
      | rfl
      | (cases no ‹c.state = _›; done)
  | hrrServer hs | retry hs => cases no hs
  | _ => exact ⟨h.post, h.fin⟩

theorem Settled.api {c c' : Conn} (h : Settled c) (hs : Api E G c c') : Settled c' := by
  cases hs with
  | step hs => exact h.step hs
  | appended | read | drain => exact ⟨h.post, h.fin⟩
  | closeRecv =>
    have := h.post
    unfold closeReceivingEnd
    split <;> first
      | exact ⟨rfl, h.fin⟩
      | (refine ⟨?_, h.fin⟩
         cases hs : c.state <;> rw [hs] at this <;> first | (cases this; done) | (simp_all; done) | rfl)
  | closing =>
    have := h.post
    refine ⟨?_, h.fin⟩
    dsimp only
    cases hs : c.state <;> rw [hs] at this <;> first | (cases this; done) | rfl
  | closedSend => exact ⟨rfl, h.fin⟩

theorem Settled.of {c : Conn} (h : KeyInv E c) (hs : c.state = .connected) : Settled c :=
  ⟨by rw [hs]; rfl, fun k hk => h.done k hk hs⟩

theorem runOps_append (E : Env) (a b : List Op) (c : Conn) :
    runOps E (a ++ b) c = runOps E b (runOps E a c) := by
  induction a generalizing c with
  | nil => rfl
  | cons o a ih => exact ih _

/-- the key in place once the handshake is over is the application traffic key -/
theorem Settled.key {c : Conn} {side : Side} (h : Settled c) (hk : KeyInv E c) (hs : SideInv side c)
    {k : CipherSt} (hc : c.cipher = some k) (hu : k.info.usageLimit.isSome = true) {key : Bytes}
    (hw : k.wr.key = some key) :
    ∃ shared th, key = (E.spec k.info.digest).writeKey
      (Spec.bySide side ((E.spec k.info.digest).cAp shared th) ((E.spec k.info.digest).sAp shared th))
      k.info.keyLength := by
  have hside := hs.cipher k hc
  rcases (hk.key k hc).2 hu with ⟨-, hf, -⟩ | ⟨shared, -, ⟨th, hf, -⟩ | ⟨-, -, th, h1, -⟩⟩
  · rw [h.fin k hc] at hf; cases hf
  · rw [h.fin k hc] at hf; cases hf
  · rw [hw, hside] at h1
    exact ⟨shared, th, Option.some.inj h1⟩

end Siotls
