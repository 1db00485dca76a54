import Verif.Proofs.KeyInv
/-!
# What every event of a trace comes with
-/

namespace Siotls

variable {E : Env}

/-- `P` holds of every event and of what preceded it -/
def Trace (P : Ev → List Ev → Prop) (tr : List Ev) : Prop := ∀ e l, (e :: l) <:+ tr → P e l

theorem Trace.nil {P} : Trace P [] := by
  intro e l h
  have := List.IsSuffix.length_le h
  simp at this

theorem Trace.cons {P e tr} (h : Trace P tr) (he : P e tr) : Trace P (e :: tr) := by
  intro e' l hs
  rcases List.suffix_cons_iff.mp hs with heq | hs
  · cases heq; exact he
  · exact h _ _ hs

theorem Trace.append {P l tr} (h : Trace P tr)
    (hl : ∀ l₁ e l₂, l = l₁ ++ e :: l₂ → P e (l₂ ++ tr)) : Trace P (l ++ tr) := by
  induction l with
  | nil => exact h
  | cons e l ih =>
    refine Trace.cons (ih fun l₁ e' l₂ he => hl (e :: l₁) e' l₂ (by rw [he]; rfl)) (hl [] e l rfl)

theorem Trace.ite {P e tr} {b : Bool} (h : Trace P tr) (he : P e tr) :
    Trace P (if b then e :: tr else tr) := by
  cases b
  · exact h
  · exact h.cons he

theorem writeKeys_eq (l : List Ev) : wkeys l = writeKeys l := by
  induction l with
  | nil => rfl
  | cons e l ih =>
    cases e <;> first | exact ih | exact congrArg _ ih

theorem readKeys_eq (l : List Ev) : rkeys l = readKeys l := by
  induction l with
  | nil => rfl
  | cons e l ih =>
    cases e <;> first | exact ih | exact congrArg _ ih

theorem encryptions_eq (l : List Ev) : DEv.uses (l.filterMap DEv.ofWrite) = encryptions l := by
  induction l with
  | nil => rfl
  | cons e l ih =>
    cases e <;> first | exact ih | exact congrArg _ ih

theorem decryptions_eq (l : List Ev) : DEv.uses (l.filterMap DEv.ofRead) = decryptions l := by
  induction l with
  | nil => rfl
  | cons e l ih =>
    cases e <;> first | exact ih | exact congrArg _ ih

theorem stripPadding_inner {inner f : Bytes} {ct : Nat} (h : stripPadding inner = some (ct, f)) :
    IsInner inner ct f := by
  unfold stripPadding at h
  have hsplit := List.takeWhile_append_dropWhile (p := (· = (0 : UInt8))) (l := inner.reverse)
  cases hd : inner.reverse.dropWhile (· = 0) with
  | nil => rw [hd] at h; cases h
  | cons t rest =>
    rw [hd] at h hsplit
    cases h
    refine ⟨t, (inner.reverse.takeWhile (· = 0)).length, ?_, rfl, ?_⟩
    · have := List.head_dropWhile_not (p := (· = (0 : UInt8))) (l := inner.reverse) (by rw [hd]; simp)
      simpa [hd] using this
    · have hz : inner.reverse.takeWhile (· = 0) =
          List.replicate (inner.reverse.takeWhile (· = 0)).length 0 := by
        rw [List.eq_replicate_iff]
        refine ⟨rfl, fun b hb => ?_⟩
        have := List.all_eq_true.mp (List.all_takeWhile (p := (· = (0 : UInt8))) (l := inner.reverse)) b hb
        simpa using this
      have := congrArg List.reverse hsplit
      rw [List.reverse_reverse, List.reverse_append, List.reverse_cons, hz, List.reverse_replicate]
        at this
      simpa only [List.append_assoc, List.singleton_append] using this.symm

theorem mem_fragments {ct : Nat} {f : Bytes} {l : List Ev} (h : f ∈ fragments ct l) :
    ∃ s k n a inner, Ev.opened s k n a inner ∈ l ∧ IsInner inner ct f := by
  induction l with
  | nil => cases h
  | cons e l ih =>
    have lift : (∃ s k n a inner, Ev.opened s k n a inner ∈ l ∧ IsInner inner ct f) →
        ∃ s k n a inner, Ev.opened s k n a inner ∈ e :: l ∧ IsInner inner ct f :=
      fun ⟨s, k, n, a, i, h1, h2⟩ => ⟨s, k, n, a, i, .tail _ h1, h2⟩
    cases e with
    | opened s k n a inner =>
      simp only [fragments, List.mem_append] at h
      rcases h with h | h
      · exact lift (ih h)
      · cases hst : stripPadding inner with
        | none => rw [hst] at h; cases h
        | some x =>
          obtain ⟨t, d⟩ := x
          rw [hst] at h
          dsimp only at h
          split at h
          · rename_i ht
            subst ht
            rw [List.mem_singleton] at h
            subst h
            exact ⟨s, k, n, a, inner, .head _, stripPadding_inner hst⟩
          · cases h
    | _ => exact lift (ih h)

theorem since_suffixW {e : Ev} {l : List Ev} (h : e ∈ sinceW l) :
    ∃ l', (e :: l') <:+ l ∧ writeKeys l' = writeKeys l := by
  induction l with
  | nil => cases h
  | cons x l ih =>
    have lift : e ∈ sinceW l → writeKeys (x :: l) = writeKeys l →
        ∃ l', (e :: l') <:+ x :: l ∧ writeKeys l' = writeKeys (x :: l) := fun hm hk => by
      obtain ⟨l', h1, h2⟩ := ih hm
      exact ⟨l', h1.trans (List.suffix_cons _ _), by rw [h2, hk]⟩
    cases x <;> simp only [sinceW] at h <;> first
      | (rcases List.mem_cons.mp h with rfl | h
         · exact ⟨l, List.suffix_refl _, rfl⟩
         · exact lift h rfl)
      | (cases h; done)

theorem since_suffixR {e : Ev} {l : List Ev} (h : e ∈ sinceR l) :
    ∃ l', (e :: l') <:+ l ∧ readKeys l' = readKeys l := by
  induction l with
  | nil => cases h
  | cons x l ih =>
    have lift : e ∈ sinceR l → readKeys (x :: l) = readKeys l →
        ∃ l', (e :: l') <:+ x :: l ∧ readKeys l' = readKeys (x :: l) := fun hm hk => by
      obtain ⟨l', h1, h2⟩ := ih hm
      exact ⟨l', h1.trans (List.suffix_cons _ _), by rw [h2, hk]⟩
    cases x <;> simp only [sinceR] at h <;> first
      | (rcases List.mem_cons.mp h with rfl | h
         · exact ⟨l, List.suffix_refl _, rfl⟩
         · exact lift h rfl)
      | (cases h; done)

theorem mem_sinceW {l tr : List Ev} (hl : ∀ e ∈ l, ∀ s k, e ≠ .wkey s k) :
    sinceW (l ++ tr) = l ++ sinceW tr := by
  induction l with
  | nil => rfl
  | cons e l ih =>
    have := hl e (.head _)
    have ih := ih fun e he => hl e (.tail _ he)
    cases e <;> first | exact congrArg _ ih | exact absurd rfl (this _ _)

/-- what is known of each event -/
def EvOk (E : Env) : Ev → List Ev → Prop
  | .record o b, l => writeKeys l ≠ [] → o = Iana.ctApplicationData ∧
      ∃ s k n a p, Ev.sealed s k n a p ∈ sinceW l ∧ b = E.aeadSeal s k n a p
  | .got ct d, l => readKeys l ≠ [] → ∃ frs : List Bytes, d = frs.flatten ∧
      ∀ f ∈ frs, f ∈ fragments ct (sinceR l)
  | .recv x, l => ∃ t ct d l' hs, decodeContent E t ct d = .ok x ∧ l = hs ++ .got ct d :: l' ∧
      (hs = [] ∨ ∃ s ty, hs = [.hashed s ty d])
  | .delivered d, l => l.head? = some (.recv (.applicationData d))
  | .sealed s k _ _ _, l => (writeKeys l).head? = some (s, k)
  | .opened s k _ _ _, l => (readKeys l).head? = some (s, k)
  | _, _ => True

theorem evOk_keyEvents {l : List PyStr} {k k' : CipherSt} {tr : List Ev} (h : Trace (EvOk E) tr) :
    Trace (EvOk E) (keyEvents l k k' ++ tr) := by
  refine h.append ?_
  intro l₁ e l₂ he
  have : e ∈ keyEvents l k k' := by rw [he]; simp
  rcases mem_keyEvents this with ⟨_, _, rfl⟩ | ⟨_, _, rfl⟩ | ⟨_, _, rfl⟩ <;> trivial

structure Guarded (E : Env) (c : Conn) : Prop where
  phase : Phase c
  events : Trace (EvOk E) c.tr

theorem Guarded.step {c c' : Conn} (h : Guarded E c) (hs : Step E Conn.Ready c c') :
    Guarded E c' := by
  refine ⟨h.phase.step hs, ?_⟩
  have hp := h.phase
  have h := h.events
  cases hs with
  | gotHandshake =>
    refine h.cons fun hr => ?_
    rw [← readKeys_eq] at hr
    exact hp.pending hr
  | gotOther ct d _ _ _ hop =>
    refine h.cons fun hr => ?_
    rw [← readKeys_eq] at hr
    refine ⟨[d], by simp, fun f hf => ?_⟩
    rw [List.mem_singleton.mp hf]
    exact fragments_head (hop (hp.dec hr))
  | @received ct d x _ hh hd =>
    refine h.cons ?_
    cases htr : c.tr with
    | nil => rw [htr] at hh; cases hh
    | cons e l =>
      rw [htr] at hh; cases hh
      exact ⟨_, _, _, l, [], hd, rfl, .inl rfl⟩
  | @receivedHs ct d x b t _ hh hd =>
    refine Trace.cons (h.ite trivial) ?_
    cases htr : c.tr with
    | nil => rw [htr] at hh; cases hh
    | cons e l =>
      rw [htr] at hh; cases hh
      cases b
      · exact ⟨_, _, _, l, [], hd, rfl, .inl rfl⟩
      · exact ⟨_, _, _, l, [_], hd, rfl, .inr ⟨_, _, rfl⟩⟩
  | delivered hh => exact h.cons hh
  | @emit c₀ content records hctx hg =>
    refine Trace.cons (h.append ?_) trivial
    intro l₁ e l₂ he
    have hmem : e ∈ (records.map fun r => Ev.record r.1 r.2.1).reverse := by rw [he]; simp
    obtain ⟨r, hr, rfl⟩ : ∃ r ∈ records, e = Ev.record r.1 r.2.1 := by
      simp only [List.mem_reverse, List.mem_map] at hmem
      obtain ⟨r, h1, h2⟩ := hmem
      exact ⟨r, h1, h2.symm⟩
    have hl2 : ∀ e ∈ l₂, ∃ r : Nat × Bytes × Bytes, e = Ev.record r.1 r.2.1 := by
      intro e' he'
      have : e' ∈ (records.map fun r => Ev.record r.1 r.2.1).reverse := by rw [he]; simp [he']
      simp only [List.mem_reverse, List.mem_map] at this
      obtain ⟨r, h1, h2⟩ := this
      exact ⟨r, h2.symm⟩
    obtain ⟨data, -, -, seals, hs, htr, hseals, -, -, hrec⟩ := hctx.data
    obtain ⟨-, -, hclear, hsealed⟩ := hrec r hr
    have hm : c.mustEncrypt = c₀.mustEncrypt := hctx.keys.enc.1
    intro hw
    rw [← writeKeys_eq, wkeys_quiet (by
      intro e' he'; obtain ⟨r, rfl⟩ := hl2 e' he'; trivial)] at hw
    have henc : c₀.mustEncrypt = true := by
      rw [← hm, encOf_eq]
      cases hx : encOf c.cipher with
      | true => rfl
      | false => exact absurd (hp.clearW hx) hw
    obtain ⟨h1, s, k, n, a, p, hmem, hb⟩ := hsealed henc
    refine ⟨h1, s, k, n, a, p, ?_, hb⟩
    rw [mem_sinceW (by intro e' he'; obtain ⟨r, rfl⟩ := hl2 e' he'; simp), htr,
      mem_sinceW (by intro e' he'; obtain ⟨_, _, _, _, _, rfl⟩ := hseals e' he'; simp)]
    exact List.mem_append_right _ (List.mem_append_left _ hmem)
  | hashSent => exact h.ite trivial
  | opened hc hk =>
    refine h.cons ?_
    show (readKeys c.tr).head? = _
    rw [← readKeys_eq]
    exact hp.headR _ _ hc hk
  | sealed hc hk =>
    refine h.cons ?_
    show (writeKeys c.tr).head? = _
    rw [← writeKeys_eq]
    exact hp.headW _ _ hc hk
  | handshakeKeys => exact evOk_keyEvents h
  | masterKeys => exact evOk_keyEvents h
  | _ => exact h

theorem Guarded.api {c c' : Conn} (h : Guarded E c) (hs : Api E Conn.Ready c c') :
    Guarded E c' := by
  refine ⟨h.phase.api hs, ?_⟩
  cases hs with
  | step hs => exact (h.step hs).events
  | closeRecv =>
    obtain ⟨s, hs⟩ := closeReceivingEnd_same c
    rw [hs]
    exact h.events
  | _ => exact h.events

theorem Guarded.fresh {config : Config} {hostname ocsp algs random} {c : Conn}
    (h : Conn.new config hostname ocsp algs random = .ok c) : Guarded E c := by
  refine ⟨.fresh h, ?_⟩
  rw [(Conn.new_fresh h).2.2.2.2.2.2.2.2.1]
  exact .nil

theorem ready_fresh {config : Config} {hostname ocsp algs random} {c : Conn}
    (h : Conn.new config hostname ocsp algs random = .ok c) : c.Ready := by
  intro _
  unfold Conn.mustEncrypt
  rw [(Conn.new_fresh h).2.2.1]

theorem Guarded.run {config : Config} {hostname ocsp algs random} {c : Conn}
    (h : Conn.new config hostname ocsp algs random = .ok c) (ops : List Op)
    (hc : Careful E ops c) : Guarded E (runOps E ops c) :=
  runOps_inv_careful (fun _ _ h hs => h.api hs) (.fresh h) (ready_fresh h) ops hc

theorem SeqInv.run (hE : E.Sized) {config : Config} {hostname ocsp algs random} {c : Conn}
    (h : Conn.new config hostname ocsp algs random = .ok c) (ops : List Op) :
    SeqInv (runOps E ops c) :=
  runOps_inv (fun _ _ h hs => h.api hE hs) (.fresh h) ops

theorem KeyInv.run (hE : E.Sized) {config : Config} {hostname ocsp algs random} {c : Conn}
    (h : Conn.new config hostname ocsp algs random = .ok c) (ops : List Op) :
    KeyInv E (runOps E ops c) ∧ SideInv config.side (runOps E ops c) :=
  runOps_inv (I := fun c => KeyInv E c ∧ SideInv config.side c)
    (fun _ _ h hs => ⟨h.1.api hE hs, h.2.api hs⟩) ⟨.fresh h, .fresh h⟩ ops

end Siotls
