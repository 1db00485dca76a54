import Verif.Proofs.DoneInv
/-!
# Order of the messages, number of HelloRetryRequests

Behind C28, C29 and C30.
-/

namespace Siotls

variable {E : Env} {G : Conn → Prop}

/-! ## places and beginnings of the handshake -/

theorem words_end {i : Nat} (h : 12 < i) : words i = [] := by
  match i with
  | i + 2 =>
    have : order[i + 1]? = none := List.getElem?_eq_none (by
      have : order.length = 12 := rfl
      omega)
    simp only [words, this]

theorem word_prefix {i : Nat} {w} (h : w ∈ words i) :
    ∃ request early cert verify, w <+: Spec.handshake 0 request early cert verify := by
  have key : ∀ i : Fin 13, ∀ w ∈ words i.val, ∃ request early cert verify,
      w <+: Spec.handshake 0 request early cert verify := by decide +kernel
  rcases Nat.lt_or_ge 12 i with hi | hi
  · rw [words_end hi] at h; cases h
  · exact key ⟨i, by omega⟩ w h

theorem word_last {w} (h : w ∈ words 12) : (Side.client, 20) ∈ w := by
  have key : ∀ w ∈ words 12, (Side.client, 20) ∈ w := by decide +kernel
  exact key w h

theorem handshake_rounds (n : Nat) (a b d e : Bool) :
    Spec.handshake n a b d e = rounds n ++ Spec.handshake 0 a b d e := by
  unfold Spec.handshake rounds
  simp

theorem At.inOrder {n i : Nat} {l} (h : At (rounds n) i l) : Spec.InOrder n l := by
  obtain ⟨w, hw, rfl⟩ := h
  obtain ⟨a, b, d, e, t, ht⟩ := word_prefix hw
  refine ⟨n, b, d, e, a, le_refl _, t, ?_⟩
  rw [handshake_rounds, List.append_assoc, ht]

theorem Spec.InOrder.mono {n m : Nat} {l} (h : Spec.InOrder n l) (hm : n ≤ m) : Spec.InOrder m l := by
  obtain ⟨r, a, b, d, e, hr, h⟩ := h
  exact ⟨r, a, b, d, e, hr.trans hm, h⟩

theorem At.last {b l} (h : At b 12 l) : (Side.client, 20) ∈ l := by
  obtain ⟨w, hw, rfl⟩ := h
  exact List.mem_append_right _ (word_last hw)

/-- what is common to both sides -/
def Placed (c : Conn) : Prop :=
  c.transcript.orderI = 0 ∨ ∃ n, At (rounds n) c.transcript.orderI (kinds c.tr)

theorem Placed.last {c : Conn} (h : Placed c) (h12 : c.transcript.orderI = 12) :
    (Side.client, 20) ∈ kinds c.tr := by
  rcases h with h | ⟨n, h⟩
  · omega
  · rw [h12] at h; exact h.last

theorem Placed.le {c : Conn} (h : Placed c) : c.transcript.orderI ≤ 12 := by
  rcases h with h | ⟨n, h⟩
  · omega
  · exact h.le.2

theorem ServerOrder.placed {c : Conn} (h : ServerOrder E c) : Placed c := by
  rcases h.main with ⟨h, _⟩ | ⟨_, ⟨h, _⟩ | ⟨h, _⟩⟩
  · exact .inr ⟨0, h⟩
  · exact .inl h
  · exact .inr ⟨1, h⟩

theorem Main.inOrder {s : St} {t : Transcript} {tr : List Ev} (h : Main E s t tr) :
    Spec.InOrder 1 (kinds tr) := by
  rcases h with ⟨h, _⟩ | ⟨_, ⟨_, ch, a, he, _⟩ | ⟨h, _⟩⟩
  · exact (At.inOrder (n := 0) h).mono (by omega)
  · unfold kinds
    rw [he]
    exact ⟨0, true, true, true, true, by omega, _, rfl⟩
  · exact h.inOrder

/-- a message that is not taken into account is refused with the right alert -/
theorem update_refused {t t' : Transcript} {d : Bytes} {s : Side} {ty : Nat} {e : Exn}
    (h : t.update d s ty = (.error e, t')) (hle : t.orderI ≤ 12) :
    e = .alert Iana.unexpectedMessage := by
  have hlast : ∀ m, t.orderI ≤ m → m < 12 + 1 → True := fun _ _ _ => trivial
  unfold Transcript.update at h
  split at h
  · cases h
  · rename_i h12
    have h12 : t.orderI ≠ 12 := h12
    dsimp only at h
    obtain ⟨h1, h2⟩ := skipLoop_spec s ty _ t.orderI rfl
    split at h
    · rename_i hn
      exfalso
      rw [List.getElem?_eq_none_iff] at hn
      have hn : 12 ≤ skipLoop s ty (List.drop t.orderI order) t.orderI := hn
      obtain ⟨s', t', h⟩ := h2 11 (by omega) (by omega)
      cases h
    · split at h
      · cases h
      · cases h; rfl

/-! ## every accepted message was taken into account -/

/-- the newest message of a past: taken into account, or the handshake is over -/
def Counted (E : Env) (side : Side) (m : Handshake) (past : List Ev) : Prop :=
  (∃ d ct l, past = .hashed side m.msgType d :: .got ct d :: l ∧
    ∃ ty, decodeContent E ty ct d = .ok (.handshake m)) ∨
  (Side.client, 20) ∈ (exchanged past).map Msg.kind

def AcceptedInv (E : Env) (side : Side) (tr : List Ev) : Prop :=
  ∀ m past, (Ev.recv (.handshake m) :: past) <:+ tr → Counted E side.other m past

theorem AcceptedInv.append {side : Side} {tr : List Ev} (h : AcceptedInv E side tr) (l : List Ev)
    (hl : ∀ e ∈ l, ∀ m, e ≠ .recv (.handshake m)) : AcceptedInv E side (l ++ tr) := by
  intro m past hp
  refine h m past ?_
  induction l with
  | nil => exact hp
  | cons e l ih =>
    rw [List.cons_append, List.suffix_cons_iff] at hp
    rcases hp with hp | hp
    · cases hp
      exact absurd rfl (hl _ (.head _) m)
    · exact ih (fun e he => hl e (.tail _ he)) hp

theorem AcceptedInv.step {side : Side} {c c' : Conn} (h : AcceptedInv E side c.tr)
    (hpl : Placed c) (hi : SideInv side c) (hs : Step E G c c') : AcceptedInv E side c'.tr := by
  cases hs with
  | @emit c₀ content records =>
    refine h.append (.sent content :: (records.map fun r => Ev.record r.1 r.2.1).reverse) ?_
    intro e he m
    simp only [List.mem_cons, List.mem_reverse, List.mem_map] at he
    rcases he with rfl | ⟨r, _, rfl⟩ <;> simp
  | handshakeKeys | masterKeys =>
    exact h.append _ fun e he m => (keyEvents_mute _ _ _ e he).2 _
  | @hashSent _ _ b =>
    cases b
    · exact h
    · exact h.append [_] (by simp)
  | @receivedHs ct d m b t hg hgot hdec hu =>
    intro m' past hp
    rw [List.suffix_cons_iff] at hp
    rcases hp with hp | hp
    · cases hp
      cases b with
      | false =>
        refine .inr ?_
        cases update_view hu with
        | over h12 => exact hpl.last h12
      | true =>
        obtain ⟨l, hl⟩ : ∃ l, c.tr = .got ct d :: l := by
          cases htr : c.tr with
          | nil => rw [htr] at hgot; cases hgot
          | cons e l => rw [htr] at hgot; cases hgot; exact ⟨l, rfl⟩
        refine .inl ⟨d, ct, l, ?_, _, hdec⟩
        rw [if_pos rfl, hl, hi.config]
    · cases b
      · exact h m' past hp
      · exact h.append [_] (by simp) m' past hp
  | @received ct d x _ _ _ hne =>
    exact h.append [_] (by simpa using fun m hm => hne m hm)
  | _ => first | exact h | exact h.append [_] (by simp)

theorem AcceptedInv.api {side : Side} {c c' : Conn} (h : AcceptedInv E side c.tr)
    (hpl : Placed c) (hi : SideInv side c) (hs : Api E G c c') : AcceptedInv E side c'.tr := by
  cases hs with
  | step hs => exact h.step hpl hi hs
  | closeRecv =>
    obtain ⟨s, hs⟩ := closeReceivingEnd_same c
    rw [hs]; exact h
  | _ => exact h

/-! ## at most one HelloRetryRequest is sent -/

structure RetryInv (tr : List Ev) : Prop where
  two : ∀ r s k e past, (Ev.sent (.handshake (.helloRetryRequest r s k e)) :: past) <:+ tr →
    2 ≤ (exchanged past).length
  one : retriesSent tr ≤ 1

theorem retriesSent_append {l tr : List Ev}
    (hl : ∀ e ∈ l, ∀ r s k x, e ≠ .sent (.handshake (.helloRetryRequest r s k x))) :
    retriesSent (l ++ tr) = retriesSent tr := by
  induction l with
  | nil => rfl
  | cons e l ih =>
    have ih := ih fun e he => hl e (.tail _ he)
    have he := hl e (.head _)
    rw [List.cons_append, ← ih, retriesSent.eq_def (e :: _)]
    split
    · rename_i heq; cases heq
    · rename_i heq; cases heq; exact absurd rfl (he _ _ _ _)
    · rename_i heq; cases heq; rfl

theorem retriesSent_none {tr : List Ev}
    (h : ∀ r s k x, Ev.sent (.handshake (.helloRetryRequest r s k x)) ∉ tr) : retriesSent tr = 0 := by
  have := retriesSent_append (l := tr) (tr := []) (by
    rintro e he r s k x rfl
    exact h _ _ _ _ he)
  rw [List.append_nil] at this
  exact this

theorem RetryInv.append {tr : List Ev} (h : RetryInv tr) (l : List Ev)
    (hl : ∀ e ∈ l, ∀ r s k x, e ≠ .sent (.handshake (.helloRetryRequest r s k x))) :
    RetryInv (l ++ tr) := by
  refine ⟨fun r s k x past hp => ?_, by rw [retriesSent_append hl]; exact h.2⟩
  refine h.1 r s k x past ?_
  induction l with
  | nil => exact hp
  | cons e l ih =>
    rw [List.cons_append, List.suffix_cons_iff] at hp
    rcases hp with hp | hp
    · cases hp
      exact absurd rfl (hl _ (.head _) _ _ _ _)
    · exact ih (fun e he => hl e (.tail _ he)) hp

theorem exchanged_suffix {t tr : List Ev} (h : t <:+ tr) :
    (exchanged t).length ≤ (exchanged tr).length := by
  obtain ⟨l, rfl⟩ := h
  induction l with
  | nil => exact le_refl _
  | cons e l ih =>
    cases e <;> simp only [List.cons_append, exchanged, List.length_append] <;> omega

theorem RetryInv.step {c c' : Conn} (h : RetryInv c.tr) (ho : ServerOrder E c)
    (hi : SideInv .server c) (hs : Step E G c c') : RetryInv c'.tr := by
  cases hs with
  | @emit c₀ content records hctx hg =>
    have hrec : RetryInv ((records.map fun r => Ev.record r.1 r.2.1).reverse ++ c.tr) := by
      refine h.append _ ?_
      intro e he r s k x
      simp only [List.mem_reverse, List.mem_map] at he
      rcases he with ⟨r, _, rfl⟩; simp
    by_cases hc : ∃ r s k x, content = .handshake (.helloRetryRequest r s k x)
    · obtain ⟨r, s, k, x, rfl⟩ := hc
      obtain ⟨_, _, _, _, _, _, _, _, _, _, _, _, hoi⟩ := hg
      have hside : c₀.config.side = .server := by
        have := hctx.same
        rw [← hi.config, this]
      rw [hside] at hoi
      have hoi : c₀.transcript.orderI = 0 := hoi
      obtain ⟨data, _, hup, seals, hs, htr, hse, _, hhs, _⟩ := hctx.data
      obtain ⟨b, hup⟩ := hup _ rfl
      have h1 : c.transcript.orderI = 1 := by
        generalize c.transcript = tc at hup
        cases update_view hup with
        | over h => omega
        | taken g1 g2 g3 g4 =>
          have := no_skip g1 g2 (by omega)
          dsimp only; omega
      have hmain : Retried E c.transcript c.tr ∨ exchanged c.tr = [] := by
        rcases ho.main with ⟨hat, _⟩ | ⟨_, ⟨h0, _⟩ | h⟩
        · rw [h1] at hat
          have := hat.one
          unfold kinds at this
          exact .inr (List.map_eq_nil_iff.mp this)
        · omega
        · exact .inl h
      rcases hhs with ⟨hm, hmm, rfl⟩ | ⟨_, hh⟩
      · have hex : exchanged c.tr = exchanged c₀.tr ++ [(c₀.config.side, hm.msgType, data)] := by
          rw [htr, exchanged_mute (fun e he => by
            obtain ⟨_, _, _, _, _, rfl⟩ := hse e he; trivial)]
          rfl
        have hlen : (exchanged c.tr).length = 2 := by
          rcases hmain with ⟨hat, _⟩ | hn
          · rw [h1] at hat
            have := congrArg List.length hat.one
            simpa [kinds, rounds] using this
          · rw [hn] at hex; simp at hex
        have hlen0 : (exchanged c₀.tr).length = 1 := by
          rw [hex] at hlen; simpa using hlen
        have hno : ∀ r s k x, Ev.sent (.handshake (.helloRetryRequest r s k x)) ∉ c.tr := by
          intro r s k x hmem
          obtain ⟨l1, l2, hl⟩ := List.append_of_mem hmem
          have hsuf : (Ev.sent (.handshake (.helloRetryRequest r s k x)) :: l2) <:+ c.tr := ⟨l1, hl.symm⟩
          have h2 := h.1 _ _ _ _ _ hsuf
          have : l2 <:+ c₀.tr := by
            rw [htr] at hsuf
            have hs1 : (Ev.sent (.handshake (.helloRetryRequest r s k x)) :: l2) <:+ c₀.tr := by
              clear hl
              have gen : ∀ l : List Ev, (∀ e ∈ l, ∀ r s k x,
                  e ≠ Ev.sent (.handshake (.helloRetryRequest r s k x))) →
                  (Ev.sent (.handshake (.helloRetryRequest r s k x)) :: l2) <:+ l ++ c₀.tr →
                  (Ev.sent (.handshake (.helloRetryRequest r s k x)) :: l2) <:+ c₀.tr := by
                intro l
                induction l with
                | nil => exact fun _ h => h
                | cons e l ih =>
                  intro hl hp
                  rw [List.cons_append, List.suffix_cons_iff] at hp
                  rcases hp with hp | hp
                  · cases hp; exact absurd rfl (hl _ (.head _) _ _ _ _)
                  · exact ih (fun e he => hl e (.tail _ he)) hp
              refine gen (seals ++ [.hashed c₀.config.side hm.msgType data]) ?_ (by
                rw [List.append_assoc]; exact hsuf)
              intro e he r s k x
              rw [List.mem_append, List.mem_singleton] at he
              rcases he with he | rfl
              · obtain ⟨_, _, _, _, _, rfl⟩ := hse e he; simp
              · simp
            exact (List.suffix_cons _ _).trans hs1
          have := exchanged_suffix this
          omega
        refine ⟨fun r s k x past hp => ?_, ?_⟩
        · rw [List.suffix_cons_iff] at hp
          rcases hp with hp | hp
          · cases hp
            have := exchanged_suffix (List.suffix_append
              (records.map fun r => Ev.record r.1 r.2.1).reverse c.tr)
            omega
          · exact hrec.1 _ _ _ _ _ hp
        · have : retriesSent ((records.map fun r => Ev.record r.1 r.2.1).reverse ++ c.tr) = 0 := by
            apply retriesSent_none
            intro r s k x hmem
            rw [List.mem_append] at hmem
            rcases hmem with hmem | hmem
            · simp at hmem
            · exact hno _ _ _ _ hmem
          rw [retriesSent.eq_def]
          dsimp only
          omega
      · have := hh ⟨_, rfl⟩
        omega
    · exact hrec.append [.sent content] (by
        intro e he r s k x hx
        rw [List.mem_singleton] at he
        subst he
        cases hx
        exact hc ⟨_, _, _, _, rfl⟩)
  | handshakeKeys | masterKeys =>
    refine h.append _ fun e he r s k x hx => ?_
    subst hx
    rcases mem_keyEvents he with ⟨_, _, he⟩ | ⟨_, _, he⟩ | ⟨_, _, he⟩ <;> cases he
  | @hashSent _ _ b =>
    cases b
    · exact h
    · exact h.append [_] (by simp)
  | @receivedHs ct d m b =>
    cases b
    · exact h.append [_] (by simp)
    · exact h.append [_, _] (by simp)
  | _ => first | exact h | exact h.append [_] (by simp)

theorem RetryInv.api {c c' : Conn} (h : RetryInv c.tr) (ho : ServerOrder E c)
    (hi : SideInv .server c) (hs : Api E G c c') : RetryInv c'.tr := by
  cases hs with
  | step hs => exact h.step ho hi hs
  | closeRecv =>
    obtain ⟨s, hs⟩ := closeReceivingEnd_same c
    rw [hs]; exact h
  | _ => exact h

end Siotls
