import Verif.Proofs.Life
import Verif.Spec.Negotiation
/-!
# What `receive_data` does with a content that the state refuses
-/

namespace Siotls
open Spec

variable {E : Env}

/-- everything but what reading a content touches -/
structure Kept (c c₁ : Conn) : Prop where
  same : c₁ = { c with cipher := c₁.cipher, tr := c₁.tr, inputData := c₁.inputData,
                       inputHandshake := c₁.inputHandshake, transcript := c₁.transcript }
  keys : c₁.cipher.map (fun k => (k.info, k.wr, k.side, k.cFin, k.sFin)) =
    c.cipher.map (fun k => (k.info, k.wr, k.side, k.cFin, k.sFin))

theorem Kept.refl (c : Conn) : Kept c c := ⟨rfl, rfl⟩

theorem Reading.kept {c c' : Conn} (h : Reading c c') : Kept c c' := by
  have := h.same
  refine ⟨?_, h.wr⟩
  rw [this]

theorem Kept.trans {a b c : Conn} (h : Kept a b) (h' : Kept b c) : Kept a c := by
  refine ⟨?_, h'.keys.trans h.keys⟩
  rw [h'.same, h.same]

/-- the content handed to the state, if the turn went that far -/
theorem receiveStep_first (c : Conn) :
    ((∃ new, (receiveStep E c).2.tr = new ++ c.tr ∧ ∀ e ∈ new, Ev.turn none e) ∧
      (receiveStep E c).1 ≠ .ok true) ∨
    ∃ x c₁ new, Kept c c₁ ∧ (receiveStep E c).2.tr = new ++ c.tr ∧ .recv x ∈ new ∧
      (∀ e ∈ new, Ev.turn (some x) e) ∧
      process E x c₁ = (((receiveStep E c).1.map fun _ => ()), (receiveStep E c).2) := by
  rw [receiveStep_eq]
  have hr := reading_content (E := E) c
  rcases hm : readNextContent E c with ⟨r, c'⟩
  rw [hm] at hr
  cases r with
  | error e => exact .inl ⟨hr.turned.news, by simp⟩
  | ok r =>
  cases r with
  | none => exact .inl ⟨hr.turned.news, by simp⟩
  | some r =>
  obtain ⟨ct, d⟩ := r
  dsimp only
  have hnone : ∀ {y : Option Content} {e : Ev}, Ev.turn none e → Ev.turn y e := by
    intro y e he
    cases e <;> first | trivial | exact he | cases he
  unfold useContent
  rw [M.bind_def]
  simp only [M.get]
  rw [M.bind_def]
  cases hd : decodeContent E c'.certType ct d with
  | error e => exact .inl ⟨hr.turned.news, by simp [M.lift]⟩
  | ok x =>
  simp only [M.lift]
  rw [M.bind_def]
  have hh := has_hash (P := fun e => ∃ s t d, e = .hashed s t d) (fun s t d => ⟨s, t, d, rfl⟩) d
    c'.config.side.other x c'
  have hkept : Kept c' (hashContent d c'.config.side.other x c').2 := by
    cases x with
    | handshake h =>
      simp only [hashContent, transcriptUpdate]
      split <;> exact ⟨rfl, rfl⟩
    | _ => exact ⟨rfl, rfl⟩
  rcases h1 : hashContent d c'.config.side.other x c' with ⟨r, c₁⟩
  rw [h1] at hh hkept
  obtain ⟨n, hn, hn', _⟩ := hh.tr
  have hnt : ∀ x, ∀ e ∈ n, Ev.turn x e := by
    intro x e he
    obtain ⟨_, _, _, rfl⟩ := hn' e he
    trivial
  cases r with
  | error e => exact .inl ⟨news_trans hr.turned.news ⟨n, hn, hnt _⟩, by simp⟩
  | ok _ =>
  dsimp only
  rw [M.bind_def]
  simp only [ghost, M.modify]
  rw [M.bind_def]
  have hp := process_effect (E := E) x { c₁ with tr := .recv x :: c₁.tr }
  rcases h2 : process E x { c₁ with tr := .recv x :: c₁.tr } with ⟨r, c₂⟩
  rw [h2] at hp
  have hb : ∃ new, c₁.tr = new ++ c.tr ∧ ∀ e ∈ new, Ev.turn (some x) e := by
    refine news_trans ?_ ⟨n, hn, hnt _⟩
    obtain ⟨m, k1, k2⟩ := hr.turned.news
    exact ⟨m, k1, fun e he => hnone (k2 e he)⟩
  have ha : ∃ new, c₂.tr = new ++ .recv x :: c₁.tr ∧ ∀ e ∈ new, Ev.turn (some x) e := by
    rcases hp with hp | ⟨d, hx, _, _, he⟩
    · exact hp.turned
    · cases he
      exact ⟨[_], rfl, by simp [Ev.turn, hx]⟩
  obtain ⟨n₁, k1, k2⟩ := hb
  obtain ⟨n₂, k3, k4⟩ := ha
  refine .inr ⟨x, { c₁ with tr := .recv x :: c₁.tr }, n₂ ++ .recv x :: n₁,
    hr.kept.trans (hkept.trans ⟨rfl, rfl⟩), ?_, by simp, ?_, ?_⟩
  · have : c₂.tr = (n₂ ++ .recv x :: n₁) ++ c.tr := by rw [k3, k1]; simp
    cases r <;> exact this
  · intro e he
    rcases List.mem_append.mp he with he | he
    · exact k4 e he
    · rcases List.mem_cons.mp he with rfl | he
      · rfl
      · exact k2 e he
  · rw [h2]
    cases r <;> rfl

/-- the first content received among the events of a call, newest event first -/
theorem firstHeard_append {l l' : List Ev} : firstHeard (l ++ l') =
    (firstHeard l').or (firstHeard l) := by
  induction l with
  | nil => simp [firstHeard]
  | cons e l ih =>
    cases e <;> simp only [List.cons_append, firstHeard, ih]
    cases firstHeard l' <;> simp

theorem firstHeard_none {l : List Ev} (h : ∀ e ∈ l, Ev.turn none e) : firstHeard l = none := by
  induction l with
  | nil => rfl
  | cons e l ih =>
    have := h e List.mem_cons_self
    cases e with
    | recv y => cases this
    | _ => exact ih fun e he => h e (List.mem_cons_of_mem _ he)

theorem firstHeard_turn {x : Content} {l : List Ev} (h : ∀ e ∈ l, Ev.turn (some x) e)
    (hx : .recv x ∈ l) : firstHeard l = some x := by
  have key : ∀ l : List Ev, (∀ e ∈ l, Ev.turn (some x) e) →
      firstHeard l = none ∧ Ev.recv x ∉ l ∨ firstHeard l = some x := by
    intro l
    induction l with
    | nil => intro _; exact .inl ⟨rfl, by simp⟩
    | cons e l ih =>
      intro h
      have he := h e List.mem_cons_self
      have := ih fun e he => h e (List.mem_cons_of_mem _ he)
      cases e with
      | recv y =>
        cases he
        right
        rcases this with ⟨h1, _⟩ | h1 <;> simp [firstHeard, h1]
      | _ =>
        rcases this with ⟨h1, h2⟩ | h1
        · exact .inl ⟨h1, by simp [h2]⟩
        · exact .inr h1
  rcases key l h with ⟨_, h2⟩ | h2
  · exact absurd hx h2
  · exact h2

theorem unheard {P : Ev → Prop} {c c' : Conn} (h : Effect P c c') (hP : ∀ x, ¬ P (.recv x)) :
    ∃ new, c'.tr = new ++ c.tr ∧ firstHeard new = none := by
  obtain ⟨n, h1, h2, h3⟩ := h.tr
  refine ⟨n, h1, ?_⟩
  clear h1 h3
  induction n with
  | nil => rfl
  | cons e l ih =>
    have := h2 e List.mem_cons_self
    have ih := ih fun e he => h2 e (List.mem_cons_of_mem _ he)
    cases e with
    | recv y => exact absurd this (hP y)
    | _ => exact ih

theorem failWith_unheard (d : Nat) (c : Conn) :
    ∃ new, (failWith E d c).2.tr = new ++ c.tr ∧ firstHeard new = none := by
  unfold failWith
  rw [M.bind_def]
  have h := unheard (has_send (E := E) (.alert Iana.fatal d) c) (fun x h => h)
  rcases hm : sendContent E (.alert Iana.fatal d) c with ⟨r, c₁⟩
  rw [hm] at h
  cases r <;> exact h

/-- the first content received by one turn and the report of its failure -/
theorem step_heard {c c₁ c' : Conn} {r : Except Exn Bool} {d : Nat} {new : List Ev} {x : Content}
    {r' : Except Exn Unit} (h : receiveStep E c = (r, c₁)) (hf : failWith E d c₁ = (r', c'))
    (hn : c'.tr = new ++ c.tr) (hx : firstHeard new = some x) :
    ∃ c₂, Kept c c₂ ∧ process E x c₂ = (r.map fun _ => (), c₁) := by
  obtain ⟨n, h1, h2⟩ := failWith_unheard (E := E) d c₁
  rw [hf] at h1
  dsimp only at h1
  rcases receiveStep_first (E := E) c with ⟨⟨m, h3, h4⟩, _⟩ | ⟨y, c₂, m, hk, h3, h4, h5, h6⟩ <;>
    rw [h] at h3 <;> dsimp only at h3
  · have : new = n ++ m := List.append_cancel_right (hn.symm.trans (by rw [h1, h3, List.append_assoc]))
    rw [this, firstHeard_append, h2, firstHeard_none h4] at hx
    cases hx
  · have : new = n ++ m := List.append_cancel_right (hn.symm.trans (by rw [h1, h3, List.append_assoc]))
    rw [this, firstHeard_append, h2, firstHeard_turn h5 h4] at hx
    cases hx
    rw [h] at h6
    exact ⟨c₂, hk, h6⟩

theorem while_news {n : Nat} {c c' : Conn} {r : Except Exn Unit} (h : While E n c r c') :
    ∃ new, c'.tr = new ++ c.tr := by
  have step : ∀ {c c₁ : Conn} {r : Except Exn Bool}, receiveStep E c = (r, c₁) →
      ∃ new, c₁.tr = new ++ c.tr := by
    intro c c₁ r h
    rcases receiveStep_first (E := E) c with ⟨⟨m, h3, _⟩, _⟩ | ⟨_, _, m, _, h3, _⟩ <;> rw [h] at h3
    · exact ⟨m, h3⟩
    · exact ⟨m, h3⟩
  have fail : ∀ {d : Nat} {c c₁ : Conn} {r : Except Exn Unit}, failWith E d c = (r, c₁) →
      ∃ new, c₁.tr = new ++ c.tr := by
    intro d c c₁ r h
    obtain ⟨n, h1, _⟩ := failWith_unheard (E := E) d c
    rw [h] at h1
    exact ⟨n, h1⟩
  have trans : ∀ {a b c : Conn}, (∃ new, b.tr = new ++ a.tr) → (∃ new, c.tr = new ++ b.tr) →
      ∃ new, c.tr = new ++ a.tr := by
    rintro a b c ⟨n, h1⟩ ⟨m, h2⟩
    exact ⟨m ++ n, by rw [h2, h1, List.append_assoc]⟩
  induction h with
  | stop h => exact step h
  | failed h hf => exact trans (step h) (fail hf)
  | unreported h hf => exact trans (step h) (fail hf)
  | turn h _ ih => exact trans (step h) ih

/-- A content that the state refuses with an exception of `P` ends the call. -/
theorem while_refused {n : Nat} {c c' : Conn} {r : Except Exn Unit} {x : Content} {new : List Ev}
    {P : Exn → Prop} (h : While E n c r c') (hn : c'.tr = new ++ c.tr) (hx : firstHeard new = some x)
    (hp : ∀ c₁, Kept c c₁ → ∃ e, (process E x c₁).1 = .error e ∧ P e) :
    ∃ e c₁, P e ∧ receiveStep E c = (.error e, c₁) ∧
      ((∃ u, failWith E (alertFor e) c₁ = (.ok u, c') ∧ r = .error e) ∨
       ∃ e', failWith E (alertFor e) c₁ = (.error e', c')) := by
  cases h with
  | stop h =>
    rcases receiveStep_first (E := E) c with ⟨⟨m, h3, h4⟩, _⟩ | ⟨y, c₂, m, hk, h3, h4, h5, h6⟩ <;>
      rw [h] at h3 <;> dsimp only at h3
    · have := List.append_cancel_right (hn.symm.trans h3)
      rw [this, firstHeard_none h4] at hx
      cases hx
    · have := List.append_cancel_right (hn.symm.trans h3)
      rw [this, firstHeard_turn h5 h4] at hx
      cases hx
      obtain ⟨e, he, _⟩ := hp c₂ hk
      rw [h6, h] at he
      cases he
  | failed h hf =>
    obtain ⟨c₂, hk, h6⟩ := step_heard h hf hn hx
    obtain ⟨e, he, hP⟩ := hp c₂ hk
    rw [h6] at he
    cases he
    exact ⟨_, _, hP, h, .inl ⟨_, hf, rfl⟩⟩
  | unreported h hf =>
    obtain ⟨c₂, hk, h6⟩ := step_heard h hf hn hx
    obtain ⟨e, he, hP⟩ := hp c₂ hk
    rw [h6] at he
    cases he
    exact ⟨_, _, hP, h, .inr ⟨_, hf⟩⟩
  | turn h hw =>
    exfalso
    rename_i n c₁
    obtain ⟨m', hm'⟩ := while_news hw
    rcases receiveStep_first (E := E) c with ⟨_, h3⟩ | ⟨y, c₂, m, hk, h3, h4, h5, h6⟩
    · rw [h] at h3; exact h3 rfl
    · rw [h] at h3 h6
      dsimp only at h3
      have : new = m' ++ m :=
        List.append_cancel_right (hn.symm.trans (by rw [hm', h3, List.append_assoc]))
      rw [this, firstHeard_append, firstHeard_turn h5 h4] at hx
      cases hx
      obtain ⟨e, he, _⟩ := hp c₂ hk
      rw [h6] at he
      cases he

/-- `receive_data` when the first content it reads is one that the state refuses. -/
theorem receive_refused (hS : E.Seals) (hO : E.Outside) {config : Config} {hostname ocsp algs random}
    {c₀ c' : Conn} {r : Except Exn Unit} (hc : Conn.new config hostname ocsp algs random = .ok c₀)
    (hm : config.maxFragmentLength ∈ [512, 1024, 2048, 4096, 16384])
    (hl : ∀ s ∈ config.cipherSuites, Limited s) (ops : List Op) {d : Bytes} {x : Content}
    {new : List Ev} {P : Exn → Prop}
    (hr : (runOps E ops c₀).state.canReceive = true) (hs : (runOps E ops c₀).state.canSend = true)
    (h : receiveData E d (runOps E ops c₀) = (r, c')) (hk : shouldRekey c' = .ok false)
    (hn : c'.tr = new ++ (runOps E ops c₀).tr) (hx : firstHeard new = some x)
    (hp : ∀ c₁, Kept ((runOps E ops c₀).fed d) c₁ → ∃ e, (process E x c₁).1 = .error e ∧ P e) :
    ∃ e, P e ∧ r = .error e ∧ c'.state = .failed ∧ ∃ out pre, c'.tr = out ++ (pre ++ (runOps E ops c₀).tr) ∧
      AlertOut E (alertFor e) out ∧ sentAlerts pre = [] := by
  have hd : d ≠ [] := by
    rintro rfl
    have : c' = runOps E ops c₀ := by
      have := congrArg Prod.snd h
      exact this.symm
    rw [this] at hn
    have : new = [] := by simpa using hn
    rw [this] at hx
    cases hx
  obtain ⟨k, _, hw⟩ := while_loop (E := E) _ ((runOps E ops c₀).fed d) (Nat.le_refl _)
  have hloop : loop E ((runOps E ops c₀).fed d) = (r, c') := by
    cases r with
    | ok u => exact (receiveData_ok h).2.2.1
    | error e => exact receiveData_raised hd hr h hk
  rw [hloop] at hw
  have ha := (AliveInv.fresh hc hl).run (E := E) ops
  have hmf := (MflInv.fresh (E := E) hc hm).run ops
  obtain ⟨e, c₁, hP, h1, h2⟩ := while_refused hw hn hx hp
  have hre : r = .error e := by
    rcases h2 with ⟨_, _, h3⟩ | ⟨e', h3⟩
    · exact h3
    · exfalso
      obtain ⟨k1, k2, k3, n, k4, k5⟩ := receiveStep_keep h1 (c := (runOps E ops c₀).fed d)
        ⟨ha.config, ha.nc, ha.cipher⟩ (hmf.api (G := fun _ => True) (.appended d hr)) hs
      have hd : alertFor e < 256 := codedM_receiveStep hO _ e (congrArg Prod.fst h1)
      rcases failWith_cases hS hd k1 k2 k3 with ⟨c₂, out, h4, _⟩ | ⟨c₃, e'', h4, h5⟩
      · rw [h3] at h4; cases h4
      · rw [h3] at h4
        cases h4
        rw [h5.rekey] at hk
        cases hk
  subst hre
  exact ⟨e, hP, rfl, while_error hS hO hw rfl (c := (runOps E ops c₀).fed d)
    ⟨ha.config, ha.nc, ha.cipher⟩ (hmf.api (G := fun _ => True) (.appended d hr)) hs hk⟩

end Siotls
