import Verif.Proofs.OrderInv
import Verif.Spec.Auth
/-!
# What the transcript of a client contains after a HelloRetryRequest
-/

namespace Siotls

variable {E : Env} {G : Conn → Prop}

theorem sinceRetry_eq {tr : List Ev} (h : NoRetry tr) : sinceRetry tr = exchanged tr := by
  induction tr with
  | nil => rfl
  | cons e l ih =>
    have ih := ih fun a b c d hm => h a b c d (.tail _ hm)
    cases e with
    | recv x =>
      cases x with
      | handshake m =>
        cases m with
        | helloRetryRequest a b c d => exact absurd (.head _) (h a b c d)
        | _ => exact ih
      | _ => exact ih
    | hashed s t d => simp [sinceRetry, exchanged, ih]
    | _ => exact ih

theorem sinceRetry_mute {l tr : List Ev} (h : ∀ e ∈ l, Mute e ∧ ∀ x, e ≠ .recv x) :
    sinceRetry (l ++ tr) = sinceRetry tr := by
  induction l with
  | nil => rfl
  | cons e l ih =>
    have := h e (.head _)
    have ih := ih fun e he => h e (.tail _ he)
    cases e with
    | recv x => exact absurd rfl (this.2 x)
    | hashed => exact absurd this.1 id
    | _ => exact ih

def isRetryMsg : Option Content → Bool
  | some (.handshake (.helloRetryRequest ..)) => true
  | _ => false

structure SinceInv (c : Conn) : Prop where
  hashes : ∀ y ∈ c.transcript.hashes, ∃ x, y.2 = x ++ Spec.concat (sinceRetry c.tr) ∧
    (NoRetry c.tr → x = [])
  retry : isRetryMsg (lastRecv c.tr) = true → c.state.early = true → c.transcript.orderI ≠ 2 →
    sinceRetry c.tr = []

theorem NoRetry.sub {tr tr' : List Ev} (h : NoRetry tr') (hs : tr <:+ tr') : NoRetry tr :=
  fun a b c d hm => h a b c d (hs.subset hm)

theorem SinceInv.mute {c c' : Conn} (h : SinceInv c) (l : List Ev) (htr : c'.tr = l ++ c.tr)
    (hl : ∀ e ∈ l, Mute e ∧ ∀ x, e ≠ .recv x) (ht : c'.transcript = c.transcript)
    (hs : c'.state = c.state) : SinceInv c' := by
  have he : sinceRetry c'.tr = sinceRetry c.tr := by rw [htr]; exact sinceRetry_mute hl
  have hr : lastRecv c'.tr = lastRecv c.tr := by
    rw [htr]; exact lastRecv_append fun e h => (hl e h).2
  refine ⟨fun y hy => ?_, ?_⟩
  · rw [ht] at hy
    obtain ⟨x, h1, h2⟩ := h.hashes y hy
    exact ⟨x, by rw [he]; exact h1, fun hn => h2 (hn.sub (by rw [htr]; exact List.suffix_append _ _))⟩
  · rw [ht, hs, hr, he]; exact h.retry

theorem SinceInv.step {c c' : Conn} (h : SinceInv c) (ho : ClientOrder c) (hi : SideInv .client c)
    (hs : Step E G c c') : SinceInv c' := by
  have hcs := hi.config
  cases hs with
  | input | draw | fragment | nc | cfg | signature | clientUnique | serverUnique
  | setup | skipEarly | badRecord => exact ⟨h.1, h.2⟩
  | gotHandshake => exact h.mute [_] rfl (by simp [Mute]) rfl rfl
  | gotOther => exact h.mute [_] rfl (by simp [Mute]) rfl rfl
  | opened => exact h.mute [_] rfl (by simp [Mute]) rfl rfl
  | sealed => exact h.mute [_] rfl (by simp [Mute]) rfl rfl
  | delivered => exact h.mute [_] rfl (by simp [Mute]) rfl rfl
  | handshakeKeys => exact h.mute _ rfl (keyEvents_mute _ _ _) rfl rfl
  | masterKeys => exact h.mute _ rfl (keyEvents_mute _ _ _) rfl rfl
  | @emit c₀ content records =>
    refine h.mute (.sent content :: (records.map fun r => Ev.record r.1 r.2.1).reverse) rfl ?_ rfl rfl
    intro e he
    simp only [List.mem_cons, List.mem_reverse, List.mem_map] at he
    rcases he with rfl | ⟨r, _, rfl⟩ <;> exact ⟨trivial, by simp⟩
  | @received ct d x hg hgot hd hne =>
    have hx : sinceRetry (.recv x :: c.tr) = sinceRetry c.tr := by
      cases x with
      | handshake y => exact absurd rfl (hne y)
      | _ => rfl
    refine ⟨fun y hy => ?_, fun hr => ?_⟩
    · obtain ⟨z, h1, h2⟩ := h.hashes y hy
      exact ⟨z, by rw [hx]; exact h1, fun hn => h2 (hn.sub (List.suffix_cons _ _))⟩
    · cases x with
      | handshake y => exact absurd rfl (hne y)
      | _ => cases hr
  | @hashError data side type e t hu =>
    cases update_view hu with
    | @refused j e h1 h2 h3 =>
      refine ⟨h.1, fun hr he hne => ?_⟩
      have h3' : c.transcript.orderI ≤ 3 := by
        refine ho.hello ?_ he
        cases hl : lastRecv c.tr with
        | none => rw [hl] at hr; cases hr
        | some m =>
          rw [hl] at hr
          unfold isRetryMsg at hr
          split at hr
          · rename_i hm; cases hm; rfl
          · cases hr
      have hj := no_skip h1 h2 (by omega)
      refine h.retry hr he ?_
      dsimp only at hne
      omega
  | @hashSent hh data b t hser hg hcan hu =>
    cases update_view hu with
    | over => exact ⟨h.1, h.2⟩
    | @taken j k h1 h2 h3 h12 =>
      refine ⟨?_, ?_⟩
      · intro y hy
        simp only [List.mem_map] at hy
        obtain ⟨z, hz, rfl⟩ := hy
        obtain ⟨x, hx, hn⟩ := h.hashes z hz
        refine ⟨x, ?_, fun hnr => hn (hnr.sub (List.suffix_cons _ _))⟩
        dsimp only
        rw [hx]
        simp [sinceRetry, Spec.concat]
      · intro _ he hne
        exfalso
        rcases hg.client hi with ht | ⟨ht, vh, hst⟩
        · rw [hcs, ht] at h3
          have hj := (place_kind h3).1 rfl
          dsimp only at hne
          omega
        · dsimp only at he
          rw [hst] at he; cases he
  | @receivedHs ct d x b t hg hgot hd hu =>
    cases update_view hu with
    | over h12 =>
      refine ⟨fun y hy => ?_, fun hr _ _ => ?_⟩
      · obtain ⟨z, h1, h2⟩ := h.hashes y hy
        cases x with
        | helloRetryRequest a b s e =>
          exact ⟨y.2, by simp [sinceRetry, Spec.concat], fun hn => absurd (.head _) (hn a b s e)⟩
        | _ => exact ⟨z, h1, fun hn => h2 (hn.sub (List.suffix_cons _ _))⟩
      · cases x with
        | helloRetryRequest a b s e => rfl
        | _ => cases hr
    | @taken j k h1 h2 h3 h12 =>
      refine ⟨fun y hy => ?_, fun hr _ _ => ?_⟩
      · simp only [List.mem_map] at hy
        obtain ⟨z, hz, rfl⟩ := hy
        obtain ⟨w, hw, hn⟩ := h.hashes z hz
        have key : ∀ (tr : List Ev), sinceRetry tr = sinceRetry (.hashed c.config.side.other x.msgType d :: c.tr) →
            z.2 ++ d = w ++ Spec.concat (sinceRetry tr) := by
          intro tr he
          rw [he, hw]; simp [sinceRetry, Spec.concat]
        cases x with
        | helloRetryRequest a b s e =>
          exact ⟨z.2 ++ d, by simp [sinceRetry, Spec.concat], fun hn => absurd (.head _) (hn a b s e)⟩
        | _ =>
          exact ⟨w, key _ rfl, fun hnr => hn (hnr.sub ((List.suffix_cons _ _).trans (List.suffix_cons _ _)))⟩
      · cases x with
        | helloRetryRequest a b s e => rfl
        | _ => cases hr
  | @postInit k t hc hp hst =>
    refine ⟨?_, ?_⟩
    · intro x hx
      unfold Transcript.postInit at hp
      split at hp
      · rename_i y hy
        cases hp
        rw [List.mem_singleton.mp hx]
        exact h.hashes _ (List.mem_of_find?_eq_some hy)
      · cases hp
    · dsimp only; rw [postInit_order hp]; exact h.2
  | @hrrClient f ks ch random sid suite exts t hst hl h2 hd =>
    have hs : sinceRetry c.tr = [] := h.retry (by rw [hl]; rfl) (by rw [hst]; rfl) h2
    refine ⟨fun y hy => ⟨y.2, ?_, fun hn => absurd (lastRecv_mem hl) (hn _ _ _ _)⟩, fun _ _ _ => hs⟩
    rw [hs]; simp [Spec.concat]
  | retry hst =>
    exact ⟨h.1, fun hx _ hne => h.2 hx (by rw [hst]; rfl) hne⟩
  | hrrServer hst =>
    have := hi.state .server (by rw [hst]; rfl)
    cases this
  | @move s hm =>
    exact ⟨h.1, fun hx he hne => h.2 hx (hm.early he) hne⟩

theorem SinceInv.api {c c' : Conn} (h : SinceInv c) (ho : ClientOrder c) (hi : SideInv .client c)
    (hs : Api E G c c') : SinceInv c' := by
  cases hs with
  | step hs => exact h.step ho hi hs
  | appended | read | drain => exact ⟨h.1, h.2⟩
  | closeRecv =>
    unfold closeReceivingEnd
    split <;> exact ⟨h.1, fun _ he => (by cases he)⟩
  | closing =>
    refine ⟨h.1, fun _ he => ?_⟩
    dsimp only at he
    rw [St.closing_early] at he
    cases he
  | closedSend => exact ⟨h.1, fun _ he => (by cases he)⟩

theorem SinceInv.fresh {config : Config} {hostname ocsp algs random} {c : Conn}
    (h : Conn.new config hostname ocsp algs random = .ok c) : SinceInv c := by
  obtain ⟨-, -, -, -, -, -, -, -, htr, ho, hh, -, -⟩ := Conn.new_fresh h
  refine ⟨?_, ?_⟩
  · rw [hh, htr]
    intro x hx
    simp only [List.mem_map] at hx
    obtain ⟨a, _, rfl⟩ := hx
    exact ⟨[], rfl, fun _ => rfl⟩
  · rw [htr]; intro h; cases h

end Siotls
