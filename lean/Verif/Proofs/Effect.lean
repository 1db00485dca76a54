import Verif.Proofs.Read
import Verif.Proofs.Parsed
import Verif.Spec.Stream
/-!
# What the state methods leave alone, and what they append to the output and to the trace
-/

namespace Siotls
open Spec

variable {E : Env}

theorem wire_append (l m : List Ev) : wire (l ++ m) = wire m ++ wire l := by
  induction l with
  | nil => simp [wire]
  | cons e l ih => cases e <;> simp [wire, ih]

theorem deliveredData_append (l m : List Ev) :
    deliveredData (l ++ m) = deliveredData m ++ deliveredData l := by
  induction l with
  | nil => simp [deliveredData]
  | cons e l ih => cases e <;> simp [deliveredData, ih]

/-- the input and the application data are left alone; what is appended to the output is the
records in the new part of the trace, whose events satisfy `P` -/
structure Effect (P : Ev → Prop) (c c' : Conn) : Prop where
  input : c'.inputData = c.inputData
  hs : c'.inputHandshake = c.inputHandshake
  app : c'.applicationData = c.applicationData
  tr : ∃ new, c'.tr = new ++ c.tr ∧ (∀ e ∈ new, P e) ∧ c'.outputData = c.outputData ++ wire new

theorem Effect.refl {P : Ev → Prop} (c : Conn) : Effect P c c :=
  ⟨rfl, rfl, rfl, [], rfl, by simp, by simp [wire]⟩

theorem Effect.trans {P : Ev → Prop} {a b c : Conn} (h : Effect P a b) (h' : Effect P b c) :
    Effect P a c := by
  obtain ⟨n, e, p, o⟩ := h.tr
  obtain ⟨n', e', p', o'⟩ := h'.tr
  refine ⟨h'.input.trans h.input, h'.hs.trans h.hs, h'.app.trans h.app, n' ++ n, ?_, ?_, ?_⟩
  · rw [e', e, List.append_assoc]
  · intro x hx
    rcases List.mem_append.mp hx with hx | hx
    · exact p' _ hx
    · exact p _ hx
  · rw [o', o, wire_append, List.append_assoc]

theorem Effect.mono {P Q : Ev → Prop} (h : ∀ e, P e → Q e) {c c' : Conn} (he : Effect P c c') :
    Effect Q c c' := by
  obtain ⟨n, e, p, o⟩ := he.tr
  exact ⟨he.input, he.hs, he.app, n, e, fun x hx => h x (p x hx), o⟩

/-- `m` only has such effects, however it ends -/
def Has {α} (P : Ev → Prop) (m : M α) : Prop := ∀ c, Effect P c (m c).2

variable {P : Ev → Prop}

theorem Has.bind {α β} {m : M α} {g : α → M β} (h : Has P m) (hg : ∀ a, Has P (g a)) :
    Has P (m >>= g) := by
  intro c
  rw [M.bind_def]
  have hm := h c
  rcases hr : m c with ⟨r, c'⟩
  rw [hr] at hm
  cases r with
  | error e => exact hm
  | ok a => exact hm.trans (hg a c')

/-- only other fields change -/
macro "quiet" : tactic => `(tactic| first
  | exact Effect.refl _
  | exact ⟨rfl, rfl, rfl, [], rfl, by simp, by simp [wire]⟩)

theorem Has.pure {α} (a : α) : Has P (pure a : M α) := fun c => .refl c
theorem Has.throw {α} (e : Exn) : Has P (M.throw e : M α) := fun c => .refl c
theorem Has.lift {α} (r : Except Exn α) : Has P (M.lift r) := fun c => .refl c
theorem Has.get : Has P M.get := fun c => .refl c

/-- events of one sending -/
def Ev.sending (x : Content) : Ev → Prop
  | .sent y => y = x
  | .record .. | .sealed .. => True
  | .hashed .. => True
  | _ => False

theorem has_encrypt (hs : ∀ a b c d e, P (.sealed a b c d e)) (ctype : Nat) (frag : Bytes) :
    Has P (encryptFragment E ctype frag) := by
  unfold encryptFragment
  refine Has.bind Has.get fun c => Has.bind ?_ fun k => Has.bind (Has.lift _) fun _ =>
    Has.bind ?_ fun _ => ?_
  · intro c; unfold getCipher; split <;> exact .refl _
  · intro c
    unfold cipherEncrypt
    split
    · exact .refl _
    split
    · exact .refl _
    split
    · exact .refl _
    · exact .refl _
    · exact ⟨rfl, rfl, rfl, [_], rfl, by simp [hs], by simp [wire]⟩
  · split
    · exact Has.pure _
    · exact Has.throw _

theorem has_makeRecords (hs : ∀ a b c d e, P (.sealed a b c d e)) (e : Bool) (ctype : Nat)
    (fs : List Bytes) : Has P (makeRecords E e ctype fs) := by
  induction fs with
  | nil => exact Has.pure _
  | cons f fs ih =>
    unfold makeRecords
    refine Has.bind ?_ fun _ => Has.bind (Has.lift _) fun _ => Has.bind ih fun _ => Has.pure _
    unfold protect
    split
    · exact has_encrypt hs _ _
    · exact Has.pure _

theorem recordHeader_bytes {outer : Nat} {body header : Bytes}
    (h : recordHeader outer body.length = .ok header) : header ++ body = recordBytes outer body := by
  obtain ⟨l, h1, h2⟩ := Except.bind_eq_ok.mp h
  cases Except.pure_eq_ok.mp h2
  obtain ⟨_, rfl⟩ := toBytes_ok.mp h1
  rw [beEnc_one, beEnc_two, beEnc_two]
  rfl

/-- the bytes of a record follow from its type and body -/
theorem makeRecords_bytes {e : Bool} {ctype : Nat} {fs : List Bytes} {c c' : Conn}
    {rs : List (Nat × Bytes × Bytes)} (h : makeRecords E e ctype fs c = (.ok rs, c')) :
    ∀ r ∈ rs, r.2.2 = recordBytes r.1 r.2.1 := by
  induction fs generalizing c c' rs with
  | nil => cases h; simp
  | cons f fs ih =>
    unfold makeRecords at h
    rw [M.bind_def] at h
    rcases h1 : protect E e ctype f c with ⟨r, c₁⟩
    rw [h1] at h
    cases r with
    | error e => cases h
    | ok body =>
    dsimp only at h
    rw [M.bind_def] at h
    cases h2 : recordHeader (if e = true then Iana.ctApplicationData else ctype) body.length with
    | error e => rw [h2] at h; cases h
    | ok header =>
    rw [h2] at h
    simp only [M.lift] at h
    rw [M.bind_def] at h
    rcases h3 : makeRecords E e ctype fs c₁ with ⟨r, c₂⟩
    rw [h3] at h
    cases r with
    | error e => cases h
    | ok rest =>
    cases h
    intro r hr
    rcases List.mem_cons.mp hr with rfl | hr
    · exact recordHeader_bytes h2
    · exact ih h3 r hr

theorem wire_records (rs : List (Nat × Bytes × Bytes)) (h : ∀ r ∈ rs, r.2.2 = recordBytes r.1 r.2.1) :
    wire (rs.map fun r => Ev.record r.1 r.2.1).reverse = (rs.map (·.2.2)).flatten := by
  induction rs with
  | nil => rfl
  | cons r rs ih =>
    rw [List.map_cons, List.reverse_cons, wire_append, ih fun r hr => h r (List.mem_cons_of_mem _ hr)]
    simp [wire, h r List.mem_cons_self]

theorem has_hash (hh : ∀ s t d, P (.hashed s t d)) (d : Bytes) (s : Side) (x : Content) :
    Has P (hashContent d s x) := by
  unfold hashContent
  split
  · intro c
    unfold transcriptUpdate
    split
    · dsimp only
      split
      · exact ⟨rfl, rfl, rfl, [_], rfl, by simp [hh], by simp [wire]⟩
      · quiet
    · quiet
  · exact Has.throw _
  · exact Has.pure _

theorem has_send (x : Content) : Has (Ev.sending x) (sendContent E x) := by
  unfold sendContent
  refine Has.bind Has.get fun c => ?_
  split
  · exact Has.throw _
  split
  · exact Has.throw _
  split
  · exact Has.throw _
  refine Has.bind (Has.lift _) fun d => Has.bind (has_hash (fun _ _ _ => trivial) _ _ _) fun _ =>
    Has.bind (Has.lift _) fun fr => ?_
  intro c'
  rw [M.bind_def]
  have hm := has_makeRecords (E := E) (P := Ev.sending x) (fun _ _ _ _ _ => trivial) c.mustEncrypt
    x.ctype fr c'
  rcases h : makeRecords E c.mustEncrypt x.ctype fr c' with ⟨r, c₁⟩
  rw [h] at hm
  cases r with
  | error e => exact hm
  | ok rs =>
    refine hm.trans ⟨rfl, rfl, rfl, .sent x :: (rs.map fun r => Ev.record r.1 r.2.1).reverse, rfl,
      ?_, ?_⟩
    · intro e he
      rcases List.mem_cons.mp he with rfl | he
      · rfl
      · simp only [List.mem_reverse, List.mem_map] at he
        obtain ⟨r, _, rfl⟩ := he
        trivial
    · show _ = _ ++ wire (rs.map fun r => Ev.record r.1 r.2.1).reverse
      rw [wire_records rs (makeRecords_bytes h)]
      rfl

/-- events of the state methods -/
def Ev.own : Ev → Prop
  | .sent y => y.plain = true
  | .record .. | .sealed .. | .hashed .. | .wkey .. | .rkey .. | .logged .. => True
  | _ => False

theorem Ev.sending.own {x : Content} (hx : x.plain = true) (e : Ev) (h : Ev.sending x e) : e.own := by
  cases e <;> first | trivial | exact h | skip
  exact h ▸ hx

theorem own_keyEvents (l : List PyStr) (k k' : CipherSt) : ∀ e ∈ keyEvents l k k', e.own := by
  intro e he
  rcases mem_keyEvents he with ⟨_, _, rfl⟩ | ⟨_, _, rfl⟩ | ⟨_, _, rfl⟩ <;> trivial

theorem wire_keyEvents (l : List PyStr) (k k' : CipherSt) : wire (keyEvents l k k') = [] := by
  have key : ∀ l : List Ev, (∀ e ∈ l, ∀ o b, e ≠ .record o b) → wire l = [] := by
    intro l
    induction l with
    | nil => intro; rfl
    | cons e l ih =>
      intro h
      have ih := ih fun e he => h e (.tail _ he)
      cases e <;> first | exact ih | exact absurd rfl (h _ (.head _) _ _)
  refine key _ fun e he o b => ?_
  rcases mem_keyEvents he with ⟨_, _, rfl⟩ | ⟨_, _, rfl⟩ | ⟨_, _, rfl⟩ <;> simp

theorem Built.has {α} {m : M α} (h : Built E m) : Has Ev.own m := by
  induction h with
  | pure a => exact Has.pure _
  | throw e => exact Has.throw _
  | lift r => exact Has.lift _
  | bind _ _ h1 h2 => exact Has.bind h1 h2
  | get _ hl h => exact Has.bind Has.get h
  | nextDraw => intro c; exact ⟨rfl, rfl, rfl, [], rfl, by simp, by simp [wire, Siotls.nextDraw]⟩
  | getNc => intro c; unfold Siotls.getNc; split <;> quiet
  | setNc f =>
    intro c
    unfold Siotls.setNc
    split
    · split <;> quiet
    · quiet
  | getCipher => intro c; unfold Siotls.getCipher; split <;> quiet
  | digest => intro c; unfold transcriptDigest; quiet
  | postInit x => intro c; unfold transcriptPostInit; split <;> quiet
  | hrr s x => intro c; unfold transcriptHrr; split <;> quiet
  | setConfig f => intro c; unfold Siotls.setConfig; split <;> quiet
  | skipEarly =>
    intro c
    unfold cipherSkipEarly
    split
    · quiet
    · split <;> quiet
  | deriveHandshake s x =>
    intro c
    unfold cipherDeriveHandshake
    split
    · quiet
    · exact ⟨rfl, rfl, rfl, _, rfl, own_keyEvents _ _ _, by simp [wire_keyEvents]⟩
  | deriveMaster s x =>
    intro c
    unfold cipherDeriveMaster
    split
    · quiet
    · exact ⟨rfl, rfl, rfl, _, rfl, own_keyEvents _ _ _, by simp [wire_keyEvents]⟩
  | moveTo s => intro c; exact ⟨rfl, rfl, rfl, [], rfl, by simp, by simp [wire, Siotls.moveTo, M.modify]⟩
  | modify n k s cu su hl =>
    intro c; exact ⟨rfl, rfl, rfl, [], rfl, by simp, by simp [wire, M.modify]⟩
  | send hx => exact fun c => (has_send _ c).mono (Ev.sending.own hx)

/-- events of `process` -/
def Ev.processed (x : Content) : Ev → Prop
  | .delivered d => x = .applicationData d
  | e => e.own

/-- `process` touches the buffer of application data only to append the content it was given,
and the event says so. -/
theorem process_effect (x : Content) (c : Conn) :
    Effect Ev.own c (process E x c).2 ∨
    ∃ d, x = .applicationData d ∧ c.state.canReceive = true ∧
      (c.state = .connected ∨ ∃ s, c.state = .closed true s) ∧
      process E x c = (.ok (), { c with applicationData := c.applicationData ++ d,
                                        tr := .delivered d :: c.tr }) := by
  have hc : Effect Ev.own c (connectedProcess x c).2 ∨ ∃ d, x = .applicationData d ∧
      connectedProcess x c = (.ok (), { c with applicationData := c.applicationData ++ d,
                                               tr := .delivered d :: c.tr }) := by
    unfold connectedProcess
    split
    · exact .inr ⟨_, rfl, rfl⟩
    · exact .inl ((built_baseProcess (E := E) _).has _)
  unfold process
  split
  · exact .inl ((built_baseProcess (E := E) _).has _)
  · exact .inl ((built_clientWaitSH _ _ _ _).has _)
  · exact .inl ((built_clientWaitEE (E := E) _).has _)
  · exact .inl ((built_clientWaitCertCr _).has _)
  · exact .inl ((built_clientWaitCert _ _).has _)
  · exact .inl ((built_clientWaitCV _ _ _).has _)
  · exact .inl ((built_clientWaitFin _ _ _).has _)
  · exact .inl ((built_baseProcess (E := E) _).has _)
  · exact .inl ((built_serverWaitCH _ _).has _)
  · exact .inl ((built_serverWaitFin _ _).has _)
  · next hs =>
    rcases hc with hc | ⟨d, h1, h2⟩
    · exact .inl hc
    · exact .inr ⟨d, h1, by rw [hs]; rfl, .inl hs, h2⟩
  · next r s hs =>
    cases r with
    | false => exact .inl (.refl _)
    | true =>
      rcases hc with hc | ⟨d, h1, h2⟩
      · exact .inl hc
      · exact .inr ⟨d, h1, by rw [hs]; rfl, .inr ⟨s, hs⟩, h2⟩
  · exact .inl (.refl _)

theorem process_input (x : Content) (c : Conn) :
    (process E x c).2.inputData = c.inputData ∧
    (process E x c).2.inputHandshake = c.inputHandshake := by
  rcases process_effect (E := E) x c with h | ⟨d, _, _, _, h⟩
  · exact ⟨h.input, h.hs⟩
  · rw [h]; exact ⟨rfl, rfl⟩

theorem failWith_effect (d : Nat) (c : Conn) :
    Effect (Ev.sending (.alert Iana.fatal d)) c (failWith E d c).2 := by
  unfold failWith
  exact Has.bind (has_send _) (fun _ c => by exact ⟨rfl, rfl, rfl, [], rfl, by simp, by simp [wire, moveTo, M.modify]⟩) c

end Siotls
