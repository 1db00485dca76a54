import Verif.Model.KeyExchange
import Verif.Model.Ocsp
import Verif.Model.Config
import Verif.Model.Frozen
import Verif.Model.Toy
import Verif.Proofs.Serial
import Verif.Props.Wire
/-!
# C46 (FFDHE), C48 (OCSP validation), C49 (OCSP cache), C50 (configuration), C51 (freezing)
-/

namespace Siotls

/-! ## C46 -/
namespace Ffdhe

/-- The parameters of every group: safe-prime shape, generator 2, and `pLength` is the byte
length of `p`. -/
theorem C46_params : ∀ G ∈ groups, G.p = 2 * G.q + 1 ∧ G.g = 2 ∧
    256 ^ (G.pLength - 1) ≤ G.p ∧ G.p < 256 ^ G.pLength ∧ 0 < G.minKeyLength ∧
    G.minKeyLength ≤ G.pLength := by
  decide +kernel

theorem p_lt {G : Group} (h : G ∈ groups) : G.p < 256 ^ G.pLength := (C46_params G h).2.2.2.1

theorem p_pos {G : Group} (h : G ∈ groups) : 0 < G.p := by
  have := (C46_params G h).1; omega

/-- The number sent in a key share is `g^x mod p`, on the byte length of `p`. -/
theorem C46_share {G : Group} (h : G ∈ groups) (x : Nat) :
    (init G x).length = G.pLength ∧ Spec.bigEndian (init G x) = G.g ^ x % G.p := by
  refine ⟨length_beEnc _ _, ?_⟩
  rw [bigEndian_eq_beDec, init, powMod,
    beDec_beEnc (Nat.lt_trans (Nat.mod_lt _ (p_pos h)) (p_lt h))]

/-- A share is accepted only if `1 < y < p-1`, whatever the library's own checks; the secret is
then `y^x mod p` on the byte length of `p`. -/
theorem C46_accepted {G : Group} (h : G ∈ groups) {libOk : Nat → Bool} {x : Nat}
    {share secret : Bytes} (hr : resume G libOk x share = .ok secret) :
    1 < Spec.bigEndian share ∧ Spec.bigEndian share < G.p - 1 ∧ secret.length = G.pLength ∧
    Spec.bigEndian secret = Spec.bigEndian share ^ x % G.p := by
  unfold resume at hr
  split at hr
  · cases hr
  · dsimp only at hr
    split at hr
    · cases hr
    · rename_i hy
      split at hr
      · cases hr
      · cases hr
        simp only [Decidable.not_not] at hy
        rw [bigEndian_eq_beDec, bigEndian_eq_beDec, powMod,
          beDec_beEnc (Nat.lt_trans (Nat.mod_lt _ (p_pos h)) (p_lt h))]
        exact ⟨hy.1, hy.2, length_beEnc _ _, rfl⟩

/-- The trivial values 0, 1, p-1 and anything from p-1 on are refused. -/
theorem C46_refused (G : Group) (libOk : Nat → Bool) (x : Nat) (share : Bytes)
    (h : Spec.bigEndian share ≤ 1 ∨ G.p - 1 ≤ Spec.bigEndian share) :
    ∃ e, resume G libOk x share = .error e := by
  rw [bigEndian_eq_beDec] at h
  unfold resume
  split
  · exact ⟨_, rfl⟩
  · dsimp only
    rw [if_pos (by omega)]
    exact ⟨_, rfl⟩

/-- Agreement: when both parties accept the other's share they hold the same secret. -/
theorem C46_agreement {G : Group} (h : G ∈ groups) {okA okB : Nat → Bool} {a b : Nat}
    {sA sB : Bytes} (hA : resume G okA a (init G b) = .ok sA)
    (hB : resume G okB b (init G a) = .ok sB) : sA = sB := by
  obtain ⟨-, -, lA, eA⟩ := C46_accepted h hA
  obtain ⟨-, -, lB, eB⟩ := C46_accepted h hB
  rw [(C46_share h b).2] at eA
  rw [(C46_share h a).2] at eB
  have key : (G.g ^ b % G.p) ^ a % G.p = (G.g ^ a % G.p) ^ b % G.p := by
    rw [← Nat.pow_mod, ← Nat.pow_mod, ← Nat.pow_mul, ← Nat.pow_mul, Nat.mul_comm]
  rw [key, ← eB, bigEndian_eq_beDec, bigEndian_eq_beDec] at eA
  have := congrArg (beEnc G.pLength) eA
  rwa [← lA, beEnc_beDec, lA, ← lB, beEnc_beDec] at this

/-- A share as long as it can be is accepted by a library without further checks. -/
example : ∃ s, resume ffdhe2048 (fun _ => true) 1 (0x7f :: List.replicate 255 0xff) = .ok s := by
  refine ⟨_, if_neg (by decide +kernel) |>.trans (if_neg (by decide +kernel) |>.trans
    (if_neg (by simp)))⟩

end Ffdhe

/-! ## C48 -/
namespace Ocsp

/-- What makes a response trustworthy for a request, an issuer and a time span. -/
structure Spec.Vouches (L : Lib) (issuer : Issuer) (req : Req) (res : Res) (now₁ now₂ until_ : Int) :
    Prop where
  successful : res.successful = true
  good : res.good = true
  sameName : res.nameHash = req.nameHash
  sameKey : res.keyHash = req.keyHash
  sameSerial : res.serial = req.serial
  started : res.thisUpdate ≤ now₁
  next : res.nextUpdate = some until_
  notExpired : now₂ ≤ until_
  sameAlg : res.sigOid = issuer.sigOid
  sameHash : L.hashEq res.sigHash issuer.sigHash = true
  signed : ∃ scheme, L.fromOid res.sigOid = some scheme ∧
    L.verify scheme issuer.pub res.signature res.tbs = .ok ()

/-- C48. `validate_ocsp` returns a date exactly when the response vouches for the certificate of
the request at the current time; the date is the response's next update. In every other case an
exception is raised (`validate` has no other outcome). -/
theorem C48_validate (L : Lib) (issuer : Issuer) (reqDer resDer : Bytes) (now₁ now₂ : Int)
    (next : Int) :
    validate L issuer reqDer resDer now₁ now₂ = .ok next ↔
      ∃ req res, L.loadReq reqDer = .ok req ∧ L.loadRes resDer = .ok res ∧
        Spec.Vouches L issuer req res now₁ now₂ next := by
  constructor
  · intro h
    simp only [validate, Except.bind_eq_ok] at h
    obtain ⟨req, hreq, res, hres, h⟩ := h
    refine ⟨req, res, hreq, hres, ?_⟩
    split at h
    · cases h
    rename_i h1
    split at h
    · cases h
    rename_i h2
    split at h
    · cases h
    rename_i h3
    split at h
    · cases h
    rename_i h4
    split at h
    · cases h
    rename_i h5
    split at h
    · cases h
    rename_i h6
    split at h
    · cases h
    rename_i nx h7
    split at h
    · cases h
    rename_i h8
    split at h
    · cases h
    rename_i h9
    split at h
    · cases h
    rename_i h10
    split at h
    · cases h
    rename_i sc h11
    split at h
    · cases h
    · cases h
    · rename_i u h12
      cases h
      exact ⟨by simpa using h1, by simpa using h2, by simpa using h3, by simpa using h4,
        by simpa using h5, by simpa using h6, h7, by simpa using h8, by simpa using h9,
        by simpa using h10, sc, h11, h12⟩
  · rintro ⟨req, res, hreq, hres, hv⟩
    obtain ⟨sc, h11, h12⟩ := hv.signed
    have h6 : ¬ res.thisUpdate > now₁ := by have := hv.started; omega
    have h8 : ¬ next < now₂ := by have := hv.notExpired; omega
    simp [validate, Except.bind_def, hreq, hres, hv.successful, hv.good, hv.sameName, hv.sameKey,
      hv.sameSerial, h6, hv.next, h8, hv.sameAlg, hv.sameHash, hv.sameAlg ▸ h11, h12]

/-- A library and a response that satisfy the conditions. -/
example : ∃ L issuer req res, Spec.Vouches L issuer req res 10 11 20 :=
  ⟨⟨fun _ => .ok ⟨[], [], 0⟩, fun _ => .error .external, fun _ => some 1, fun a b => a == b,
    fun _ _ _ _ => .ok ()⟩, ⟨[1], 256, [7]⟩, ⟨[2], [3], 4⟩,
    ⟨true, true, [2], [3], 4, 5, some 20, [1], 256, [8], [9]⟩,
    rfl, rfl, rfl, rfl, rfl, by decide, rfl, by decide, rfl, rfl, 1, rfl, rfl⟩

/-! ## C49 -/

/-- A call on the cache module. -/
inductive Op where
  | cache (until_ : Int) (req res : Bytes)
  | uncache (req : Bytes)
  | request (now : Int) (scheme netloc : PyStr) (req : Bytes) (http : Except Exn Http)

def Op.run (c : Cache) : Op → Cache
  | .cache u q r => c.cache u q r
  | .uncache q => c.uncache q
  | .request now s n q h => (c.request now s n q h).2

/-- The module state after a history of calls. -/
def after (ops : List Op) : Cache := ops.foldl Op.run .empty

/-- In the history, `res` was cached for `req` until `u` and not uncached since. -/
def Spec.Live (ops : List Op) (req res : Bytes) (u : Int) : Prop :=
  ∃ before_ later, ops = before_ ++ .cache u req res :: later ∧ ∀ o ∈ later, o ≠ .uncache req

/-- Every entry comes from the history, keys are distinct, and every entry has a limit. -/
structure CacheInv (ops : List Op) (c : Cache) : Prop where
  live : ∀ q r u, (q, (r, u)) ∈ c.entries → Spec.Live ops q r u
  nodup : (c.entries.map Prod.fst).Nodup
  limited : ∀ e ∈ c.entries, (e.2.2, e.1) ∈ c.limits
  bound : c.limits.length ≤ cacheEntries

theorem Live.snoc {ops : List Op} {q r : Bytes} {u : Int} (h : Spec.Live ops q r u) {o : Op}
    (ho : o ≠ .uncache q) : Spec.Live (ops ++ [o]) q r u := by
  obtain ⟨b, l, rfl, hl⟩ := h
  refine ⟨b, l ++ [o], by simp, ?_⟩
  intro o' ho'
  rcases List.mem_append.mp ho' with h | h
  · exact hl o' h
  · simp at h; subst h; exact ho

theorem heapMin_mem (m : Int × Bytes) (l : List (Int × Bytes)) : heapMin m l ∈ m :: l := by
  induction l generalizing m with
  | nil => simp [heapMin]
  | cons x xs ih =>
    rw [heapMin]
    have := ih (if limitLt x m then x else m)
    generalize heapMin (if limitLt x m then x else m) xs = r at this ⊢
    simp only [List.mem_cons] at this ⊢
    split at this <;> tauto

/-- Removing entries and keeping at least the limits of those that stay preserves the
invariant's core. -/
structure CacheCore (ops : List Op) (c : Cache) : Prop where
  live : ∀ q r u, (q, (r, u)) ∈ c.entries → Spec.Live ops q r u
  nodup : (c.entries.map Prod.fst).Nodup
  limited : ∀ e ∈ c.entries, (e.2.2, e.1) ∈ c.limits

theorem CacheCore.pop {ops : List Op} {c : Cache} (h : CacheCore ops c) (m : Int × Bytes) :
    CacheCore ops (({ c with limits := c.limits.erase m }).uncache m.2) := by
  refine ⟨fun q r u he => h.live q r u (List.mem_filter.mp he).1, ?_, fun e he => ?_⟩
  · exact (List.Sublist.map _ List.filter_sublist).nodup h.nodup
  · obtain ⟨h1, h2⟩ := List.mem_filter.mp he
    have h2 : e.1 ≠ m.2 := by simpa using h2
    have := h.limited e h1
    refine (List.mem_erase_of_ne ?_).mpr this
    rintro rfl
    exact h2 rfl

theorem CacheCore.evict {ops : List Op} {c : Cache} (h : CacheCore ops c) (n : Nat) :
    CacheCore ops (c.evict n) := by
  induction n generalizing c with
  | zero => exact h
  | succ n ih =>
    rw [Cache.evict]
    split
    · split
      · exact h
      · exact ih (h.pop _)
    · exact h

theorem evict_length (c : Cache) (n : Nat) (hn : c.limits.length ≤ n) :
    (c.evict n).limits.length < cacheEntries := by
  induction n generalizing c with
  | zero => rw [Cache.evict]; simp only [cacheEntries]; omega
  | succ n ih =>
    rw [Cache.evict]
    split
    · split
      · rename_i h; rw [h]; decide
      · rename_i x xs hl
        apply ih
        have hm : heapMin x xs ∈ c.limits := by rw [hl]; exact heapMin_mem x xs
        simp only [Cache.uncache, List.length_erase_of_mem hm]
        omega
    · omega

theorem mem_of_get {c : Cache} {q r : Bytes} {u : Int} (h : c.get q = some (r, u)) :
    (q, (r, u)) ∈ c.entries := by
  rw [Cache.get] at h
  obtain ⟨l₁, l₂, h', -⟩ := List.lookup_eq_some_iff.mp h
  simp [h']

theorem CacheInv.step {ops : List Op} {c : Cache} (h : CacheInv ops c) (o : Op) :
    CacheInv (ops ++ [o]) (o.run c) := by
  have keep : ∀ q, (∀ q', o = .uncache q' → q' ≠ q) → ∀ r u, Spec.Live ops q r u →
      Spec.Live (ops ++ [o]) q r u := by
    intro q hq r u hl
    exact Live.snoc hl (fun h => hq q h rfl)
  cases o with
  | cache u q r =>
    simp only [Op.run, Cache.cache]
    split
    · exact ⟨fun q' r' u' he => keep q' (by simp) r' u' (h.live _ _ _ he), h.nodup, h.limited, h.bound⟩
    · rename_i hget
      have core := CacheCore.evict (ops := ops) (c := c) ⟨h.live, h.nodup, h.limited⟩ c.limits.length
      have hlen := evict_length c c.limits.length (Nat.le_refl _)
      refine ⟨fun q' r' u' he => ?_, ?_, fun e he => ?_, by simp only [List.length_cons]; omega⟩
      · rcases List.mem_append.mp he with he | he
        · exact keep q' (by simp) r' u' (core.live _ _ _ he)
        · simp at he
          obtain ⟨rfl, rfl, rfl⟩ := he
          exact ⟨ops, [], rfl, by simp⟩
      · rw [List.map_append, List.nodup_append]
        refine ⟨core.nodup, by simp, ?_⟩
        rintro a ha b hb rfl
        simp at hb
        subst hb
        have sub : ∀ (n : Nat) (c : Cache) e, e ∈ (c.evict n).entries → e ∈ c.entries := by
          intro n
          induction n with
          | zero => intro c e he; exact he
          | succ n ih =>
            intro c e he
            rw [Cache.evict] at he
            split at he
            · split at he
              · exact he
              · exact (List.mem_filter.mp (ih _ _ he)).1
            · exact he
        obtain ⟨e, he, hea⟩ := List.mem_map.mp ha
        have he := sub _ _ _ he
        apply hget
        rw [Cache.get]
        cases hl : c.entries.lookup a with
        | some v => rfl
        | none =>
          have := List.lookup_eq_none_iff.mp hl e he
          simp [hea] at this
      · rcases List.mem_append.mp he with he | he
        · exact List.mem_cons_of_mem _ (core.limited e he)
        · simp at he; subst he; simp
  | uncache q =>
    refine ⟨fun q' r' u' he => ?_, (List.Sublist.map _ List.filter_sublist).nodup h.nodup,
      fun e he => h.limited e (List.mem_filter.mp he).1, h.bound⟩
    obtain ⟨h1, h2⟩ := List.mem_filter.mp he
    have h2 : q' ≠ q := by simpa using h2
    exact keep q' (by rintro q'' h; cases h; exact fun h => h2 h.symm) r' u' (h.live _ _ _ h1)
  | request now s n q http =>
    have same : CacheInv (ops ++ [.request now s n q http]) c :=
      ⟨fun q' r' u' he => keep q' (by simp) r' u' (h.live _ _ _ he), h.nodup, h.limited, h.bound⟩
    have less : CacheInv (ops ++ [.request now s n q http]) (c.uncache q) :=
      ⟨fun q' r' u' he => same.live _ _ _ (List.mem_filter.mp he).1,
        (List.Sublist.map _ List.filter_sublist).nodup h.nodup,
        fun e he => h.limited e (List.mem_filter.mp he).1, h.bound⟩
    simp only [Op.run, Cache.request]
    split
    · split
      · split <;> exact same
      · split
        · exact same
        · split <;> exact less
    · split <;> exact same

theorem cacheInv_after (ops : List Op) : CacheInv ops (after ops) := by
  have key : ∀ (l : List Op) (pre : List Op) (c : Cache), CacheInv pre c →
      CacheInv (pre ++ l) (l.foldl Op.run c) := by
    intro l
    induction l with
    | nil => intro pre c h; simpa using h
    | cons o l ih =>
      intro pre c h
      have := ih (pre ++ [o]) _ (h.step o)
      simpa using this
  exact key ops [] .empty ⟨by simp [Cache.empty], by simp [Cache.empty],
    by simp [Cache.empty], by simp [Cache.empty]⟩

/-- C49. After any history of calls with any clock values, a response served from the cache was
cached for that very request, was not removed since, and has not expired. -/
theorem C49_fresh (ops : List Op) (now : Int) (scheme netloc : PyStr) (req res : Bytes)
    (http : Except Exn Http)
    (h : ((after ops).request now scheme netloc req http).1 = .ok (.hit res)) :
    ∃ u, now < u ∧ Spec.Live ops req res u := by
  have inv := cacheInv_after ops
  simp only [Cache.request] at h
  split at h
  · rename_i r u hget
    split at h
    · split at h <;> simp at h
    · split at h
      · rename_i hlt
        simp at h
        subst h
        exact ⟨u, hlt, inv.live _ _ _ (mem_of_get hget)⟩
      · split at h <;> simp at h
  · split at h <;> simp at h

/-- C49. After any history of calls the cache holds at most 64 responses. -/
theorem C49_bounded (ops : List Op) :
    (after ops).entries.length ≤ 64 ∧ (after ops).limits.length ≤ 64 := by
  have inv := cacheInv_after ops
  refine ⟨?_, inv.bound⟩
  have h1 : ((after ops).entries.map Prod.fst).length ≤
      ((after ops).limits.map Prod.snd).length := by
    apply List.Nodup.length_le_of_subset inv.nodup
    intro a ha
    obtain ⟨e, he, rfl⟩ := List.mem_map.mp ha
    exact List.mem_map.mpr ⟨_, inv.limited e he, rfl⟩
  simp only [List.length_map] at h1
  exact Nat.le_trans h1 inv.bound

theorem limitLt_le {a b : Int × Bytes} (h : limitLt a b = true) : a.1 ≤ b.1 := by
  simp only [limitLt, Bool.or_eq_true, Bool.and_eq_true, decide_eq_true_eq, beq_iff_eq] at h
  omega

theorem limitLt_ge {a b : Int × Bytes} (h : limitLt a b = false) : b.1 ≤ a.1 := by
  simp only [limitLt, Bool.or_eq_false_iff, decide_eq_false_iff_not] at h
  omega

theorem heapMin_le (m : Int × Bytes) (xs : List (Int × Bytes)) :
    (heapMin m xs).1 ≤ m.1 ∧ ∀ x ∈ xs, (heapMin m xs).1 ≤ x.1 := by
  induction xs generalizing m with
  | nil => exact ⟨Int.le_refl _, by simp⟩
  | cons x xs ih =>
    rw [heapMin]
    obtain ⟨h1, h2⟩ := ih (if limitLt x m then x else m)
    cases h : limitLt x m with
    | true =>
      rw [h, if_pos rfl] at h1 h2
      rw [if_pos rfl]
      exact ⟨Int.le_trans h1 (limitLt_le h), fun y hy => by
        rcases List.mem_cons.mp hy with rfl | hy
        exacts [h1, h2 y hy]⟩
    | false =>
      rw [h, if_neg (by simp)] at h1 h2
      rw [if_neg (by simp)]
      exact ⟨h1, fun y hy => by
        rcases List.mem_cons.mp hy with rfl | hy
        exacts [Int.le_trans h1 (limitLt_ge h), h2 y hy]⟩

theorem evict_limits (n : Nat) : ∀ (c : Cache) l, l ∈ (c.evict n).limits → l ∈ c.limits := by
  induction n with
  | zero => intro c l h; exact h
  | succ n ih =>
    intro c l h
    rw [Cache.evict] at h
    split at h
    · split at h
      · exact h
      · exact List.mem_of_mem_erase (ih _ _ h)
    · exact h

theorem limits_step {pre : List Op} {c : Cache}
    (h : ∀ x ∈ c.limits, ∃ r, Op.cache x.1 x.2 r ∈ pre) (o : Op) :
    ∀ x ∈ (o.run c).limits, ∃ r, Op.cache x.1 x.2 r ∈ pre ++ [o] := by
  intro l hl
  have old : ∀ l ∈ c.limits, ∃ r, Op.cache l.1 l.2 r ∈ pre ++ [o] := fun l hl => by
    obtain ⟨r, hr⟩ := h l hl
    exact ⟨r, List.mem_append_left _ hr⟩
  cases o with
  | cache u q r =>
    simp only [Op.run, Cache.cache] at hl
    split at hl
    · exact old l hl
    · rcases List.mem_cons.mp hl with rfl | hl
      · exact ⟨r, by simp⟩
      · exact old l (evict_limits _ _ _ hl)
  | uncache q => exact old l hl
  | request now s n q http =>
    simp only [Op.run, Cache.request] at hl
    repeat' split at hl
    all_goals exact old l hl

theorem uncache_keeps {c : Cache} {q m : Bytes} {r : Bytes} {u : Int} (hq : q ≠ m)
    (h : c.get q = some (r, u)) : (c.uncache m).get q ≠ none := by
  intro h'
  rw [Cache.get, Cache.uncache, List.lookup_eq_none_iff] at h'
  have := h' (q, (r, u)) (List.mem_filter.mpr ⟨mem_of_get h, by simpa using hq⟩)
  simp at this

/-- a date in the heap was given with a response to that request -/
theorem limits_cached (ops : List Op) : ∀ l ∈ (after ops).limits, ∃ r, Op.cache l.1 l.2 r ∈ ops := by
  have key : ∀ (l : List Op) (pre : List Op) (c : Cache),
      (∀ x ∈ c.limits, ∃ r, Op.cache x.1 x.2 r ∈ pre) →
      ∀ x ∈ (l.foldl Op.run c).limits, ∃ r, Op.cache x.1 x.2 r ∈ pre ++ l := by
    intro l
    induction l with
    | nil => intro pre c h; simpa using h
    | cons o l ih =>
      intro pre c h
      have := ih (pre ++ [o]) (o.run c) (limits_step h o)
      simpa using this
  exact key ops [] .empty (by simp [Cache.empty])

/-- C49. After any history of calls, caching a response makes the cache lose another one only if that
one, or an earlier response to the same request, was to expire no later than anything that is held. -/
theorem C49_earliest (ops : List Op) (until_ : Int) (req res q r : Bytes) (u : Int)
    (h : (after ops).get q = some (r, u)) (hl : ((after ops).cache until_ req res).get q = none) :
    ∃ d r₀, Op.cache d q r₀ ∈ ops ∧ ∀ q' r' u', (after ops).get q' = some (r', u') → d ≤ u' := by
  have inv := cacheInv_after ops
  generalize hc : after ops = c at h hl inv
  have hcached : ∀ l ∈ c.limits, ∃ r, Op.cache l.1 l.2 r ∈ ops := hc ▸ limits_cached ops
  rw [Cache.cache] at hl
  split at hl
  · rw [h] at hl; cases hl
  · have hne : q ≠ req := by rintro rfl; rename_i hn; rw [h] at hn; exact hn rfl
    have hg : (c.evict c.limits.length).get q = none := by
      rw [Cache.get, List.lookup_append] at hl
      cases hx : List.lookup q (c.evict c.limits.length).entries with
      | none => exact hx
      | some v => rw [hx] at hl; cases hl
    cases hn : c.limits with
    | nil => rw [hn] at hg; rw [List.length_nil, Cache.evict, h] at hg; cases hg
    | cons x xs =>
      have hb := inv.bound
      rw [hn, List.length_cons, Cache.evict] at hg
      by_cases hfull : cacheEntries ≤ c.limits.length
      · rw [if_pos hfull, hn] at hg
        dsimp only at hg
        have hmem : heapMin x xs ∈ c.limits := by rw [hn]; exact heapMin_mem x xs
        have hstop : ∀ n, Cache.evict ((({ c with limits := (x :: xs).erase (heapMin x xs) }) : Cache).uncache
            (heapMin x xs).2) n = (({ c with limits := (x :: xs).erase (heapMin x xs) }) : Cache).uncache
            (heapMin x xs).2 := by
          intro n
          cases n with
          | zero => rfl
          | succ n =>
            rw [Cache.evict, if_neg]
            rw [← hn]
            simp only [Cache.uncache, List.length_erase_of_mem hmem]
            simp only [cacheEntries] at hfull hb ⊢
            omega
        rw [hstop] at hg
        by_cases hq : q = (heapMin x xs).2
        · obtain ⟨r₀, hr₀⟩ := hcached _ hmem
          refine ⟨(heapMin x xs).1, r₀, hq ▸ hr₀, fun q' r' u' hg' => ?_⟩
          have := inv.limited _ (mem_of_get hg')
          rw [hn] at this
          obtain ⟨h1, h2⟩ := heapMin_le x xs
          rcases List.mem_cons.mp this with h3 | h3
          · rw [← h3] at h1; rw [← h3]; exact h1
          · exact h2 _ h3
        · exfalso
          exact uncache_keeps (c := { c with limits := (x :: xs).erase (heapMin x xs) }) hq h hg
      · rw [if_neg hfull, h] at hg; cases hg

set_option maxRecDepth 1000000 in
/-- the hypotheses of C49_earliest are met: of 64 responses the one that expires first makes room. -/
example : let full := (List.range 64).map fun i : Nat => Op.cache (100 - Int.ofNat i) [UInt8.ofNat i] [1]
    (after full).get [63] = some ([1], 37) ∧ ((after full).cache 200 [64] [2]).get [63] = none := by decide +kernel

/-- A hit, then a miss after the expiry, then a miss after uncaching. -/
example :
    ((after [.cache 10 [1] [2]]).request 9 [] [] [1] (.error .external)).1 = .ok (.hit [2]) ∧
    ((after [.cache 10 [1] [2]]).request 10 [] [] [1] (.error .external)).1 = .error .valueError ∧
    ((after [.cache 10 [1] [2], .uncache [1]]).request 9 [] [] [1] (.error .external)).1 =
      .error .valueError := by decide

end Ocsp

/-! ## C50 -/

/-- What a usable configuration is. -/
structure Spec.Usable (c : Config) : Prop where
  suites : c.cipherSuites ≠ []
  groups : c.keyExchanges ≠ []
  schemes : c.signatureAlgorithms ≠ []
  server : c.side = .server → c.maxFragmentLength = 16384 ∧ (∃ k, c.privateKey = some k) ∧
    ((∃ x xs, c.certificateChain = some (x :: xs)) ∨ ∃ k, c.publicKey = some k)
  client : c.side = .client → c.serverHostnames = []

/-- C50. A configuration can be constructed exactly when it is usable; otherwise the constructor
raises ValueError. -/
theorem C50_valid (c : Config) :
    (c.check = .ok () ↔ Spec.Usable c) ∧ (c.check ≠ .ok () → c.check = .error .valueError) := by
  have chain : c.hasChain = true ↔ ∃ x xs, c.certificateChain = some (x :: xs) := by
    unfold Config.hasChain
    split
    · rename_i h; simp [h]
    · rename_i l h
      cases l <;> simp [h]
  have key : c.check = .ok () ∨ c.check = .error .valueError := by
    unfold Config.check Config.checkMandatory Config.checkServer Config.checkClient
    cases c.cipherSuites.isEmpty <;> cases c.keyExchanges.isEmpty <;>
      cases c.signatureAlgorithms.isEmpty <;> cases c.side <;>
      simp [Except.bind_def] <;> (repeat' split) <;> (try simp_all) <;> tauto
  refine ⟨⟨fun h => ?_, fun h => ?_⟩, fun h => key.resolve_left h⟩
  · unfold Config.check Config.checkMandatory at h
    simp only [Except.bind_def] at h
    have h1 : c.cipherSuites ≠ [] := by intro h'; simp [h'] at h
    have h2 : c.keyExchanges ≠ [] := by intro h'; simp [h', h1] at h
    have h3 : c.signatureAlgorithms ≠ [] := by intro h'; simp [h', h1, h2] at h
    simp [h1, h2, h3] at h
    refine ⟨h1, h2, h3, fun hs => ?_, fun hc => ?_⟩
    · simp only [hs, Config.checkServer] at h
      split at h
      · cases h
      split at h
      · cases h
      split at h
      · cases h
      rename_i a b d
      refine ⟨by simpa using a, ?_, ?_⟩
      · cases hk : c.privateKey with
        | none => simp [hk] at b
        | some k => exact ⟨k, rfl⟩
      · simp only [Bool.not_eq_true, Bool.not_eq_eq_eq_not, Bool.not_false, Bool.or_eq_true,
          Bool.not_true, Bool.not_eq_false] at d
        rcases d with d | d
        · exact .inl (chain.mp d)
        · exact .inr (Option.isSome_iff_exists.mp d)
    · simp only [hc, Config.checkClient] at h
      split at h
      · rename_i h'; simpa using h'
      · cases h
  · unfold Config.check Config.checkMandatory
    simp only [Except.bind_def, List.isEmpty_iff, h.suites, h.groups, h.schemes]
    cases hs : c.side with
    | client => simp [Config.checkClient, h.client hs]
    | server =>
      obtain ⟨a, ⟨k, hk⟩, d⟩ := h.server hs
      have d' : (c.hasChain || c.publicKey.isSome) = true := by
        rcases d with d | ⟨k, hk⟩
        · simp [chain.mpr d]
        · simp [hk]
      simp [Config.checkServer, a, hk, d']

/-- Both sides have usable configurations, and forgetting the private key makes one unusable. -/
example : Toy.clientConfig.check = .ok () ∧ Toy.serverConfig.check = .ok () ∧
    ({ Toy.serverConfig with privateKey := none } : Config).check = .error .valueError := by
  decide +kernel

/-! ## C51 -/
namespace Frozen

theorem frozen_step {a : Attrs} (h : isFrozen a = .ok true) (o : Op) :
    o.exec a = (some .typeError, a) := by
  cases o <;> simp [Op.exec, Op.run, setattr, delattr, h, Except.bind_def]

/-- C51, first half: from the moment `freeze()` succeeded, whatever happened before, every
assignment, deletion or freeze raises TypeError and changes nothing, forever. -/
theorem C51_frozen (past future : List Op) (o : Op)
    (h : (Op.freeze.exec (execAll fresh past)).1 = none) :
    let a := (Op.freeze.exec (execAll fresh past)).2
    execAll a future = a ∧ o.exec (execAll a future) = (some .typeError, a) := by
  intro a
  have hf : isFrozen a = .ok true := by
    simp only [a, Op.exec, Op.run, setattr, Except.bind_def] at h ⊢
    cases hi : isFrozen (execAll fresh past) with
    | error e => simp [hi] at h
    | ok b =>
      cases b with
      | true => simp [hi] at h
      | false => simp [isFrozen, assign, Val.truthy]
  have hall : ∀ l : List Op, execAll a l = a := by
    intro l
    induction l with
    | nil => rfl
    | cons o l ih =>
      rw [execAll, List.foldl_cons, frozen_step hf o]
      exact ih
  rw [hall]
  exact ⟨rfl, frozen_step hf o⟩

example : (Op.freeze.exec (execAll fresh [.set "alpn".toList (.other 3)])).1 = none := by decide

/-- Before freezing, assignments take effect. -/
example : (execAll fresh [.set "alpn".toList (.other 3)]).lookup "alpn".toList =
    some (.other 3) := by decide

end Frozen
end Siotls
