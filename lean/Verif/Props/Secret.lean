import Verif.Proofs.Secret
import Verif.Model.ToyFacts
/-!
# The wire tells nothing of the contents but the number of blocks: C91
-/

namespace Siotls

open Spec

variable {E : Env}

theorem Env.blindfold_blind (E : Env) : E.blindfold.Blind := by
  intro s k n a p p' h
  show E.aeadSeal s k n a _ = E.aeadSeal s k n a _
  rw [h]

theorem similar_tr {c d : Conn} (h : Similar Eq c d) : ∃ t, d = { c with tr := t } := by
  obtain ⟨h1, h2⟩ := h
  refine ⟨d.tr, ?_⟩
  rw [← c.dull_frame, ← d.dull_frame, h1, h2]
  simp [Conn.dull, Conn.frame]

/-- C91. Once a write key is installed, when ciphertexts tell nothing but the length of the plaintext: two
programs that make the same calls but send different data, that takes records of the same lengths, get the
same results from every call, among which all the bytes sent; and nothing of the connection differs in the
end, but for the (ghost) trace. -/
theorem C91_blind (hE : E.Sized) (hB : E.Blind) {config hostname ocsp algs random} {c : Conn}
    (h : Conn.new config hostname ocsp algs random = .ok c)
    (hm : config.maxFragmentLength ∈ [512, 1024, 2048, 4096, 16384]) {ops p p' : List Op}
    (hc : Careful E (ops ++ p) c) (hw : writeKeys (runOps E ops c).tr ≠ [])
    (hp : Disguised E p p' (runOps E ops c)) :
    results E p (runOps E ops c) = results E p' (runOps E ops c) ∧
      ∃ t, runOps E p' (runOps E ops c) = { runOps E p (runOps E ops c) with tr := t } := by
  obtain ⟨h1, h2⟩ := similar_runs (Cover.blind hB) p p' _ _ ⟨rfl, rfl⟩ hp (fit_after hE h hm hc hw)
  exact ⟨allUpTo_eq _ _ _ h1, similar_tr h2⟩

/-- C91 against those who also choose what the connection receives and which method is called next, from
all they saw: they do not learn which of two sequences of data, equally long one by one, is sent. -/
theorem C91_game (hE : E.Sized) (hB : E.Blind) {config hostname ocsp algs random} {c : Conn}
    (h : Conn.new config hostname ocsp algs random = .ok c)
    (hm : config.maxFragmentLength ∈ [512, 1024, 2048, 4096, 16384]) {ops : List Op}
    (hw : writeKeys (runOps E ops c).tr ≠ []) (who : List (Except Exn Bytes) → Option Op)
    {data data' : Nat → Bytes} (hl : ∀ i, (data i).length = (data' i).length) (n : Nat)
    (hc : Careful E (ops ++ game E who data n [] (runOps E ops c)) c) :
    results E (game E who data n [] (runOps E ops c)) (runOps E ops c) =
      results E (game E who data' n [] (runOps E ops c)) (runOps E ops c) :=
  (C91_blind hE hB h hm hc hw (sameLengths_disguised _ _ _
    (game_lengths hB who hl n _ _ _ ⟨rfl, rfl⟩ (fit_after hE h hm hc hw)))).1

/-- C91 whatever the cipher (as long as the length of the ciphertext is a function of that of the
plaintext): what is different between the two programs is the bytes of `data_to_send`, not their number;
every other call has the same result, and nothing else of the connection differs. -/
theorem C91_lengths (hE : E.Sized) (hB : E.Even) {config hostname ocsp algs random} {c : Conn}
    (h : Conn.new config hostname ocsp algs random = .ok c)
    (hm : config.maxFragmentLength ∈ [512, 1024, 2048, 4096, 16384]) {ops p p' : List Op}
    (hc : Careful E (ops ++ p) c) (hw : writeKeys (runOps E ops c).tr ≠ [])
    (hp : Disguised E p p' (runOps E ops c)) :
    SameSizes p (results E p (runOps E ops c)) (results E p' (runOps E ops c)) ∧
      ∃ t o, o.length = (runOps E p (runOps E ops c)).outputData.length ∧
        runOps E p' (runOps E ops c) =
          { runOps E p (runOps E ops c) with tr := t, outputData := o } := by
  obtain ⟨h1, h2, h3⟩ := similar_runs (Cover.even hB) p p' _ _ ⟨rfl, rfl⟩ hp (fit_after hE h hm hc hw)
  refine ⟨allUpTo_sizes _ _ _ h1, (runOps E p' (runOps E ops c)).tr,
    (runOps E p' (runOps E ops c)).outputData, h3.symm, ?_⟩
  generalize runOps E p (runOps E ops c) = x at *
  generalize runOps E p' (runOps E ops c) = y at *
  conv => lhs; rw [← y.dull_frame]
  conv => rhs; rw [← x.dull_frame, h2]
  simp [Conn.dull, Conn.frame]

/-- Data of the same length takes records of the same lengths, whatever was negotiated. -/
theorem C91_same_lengths {p p' : List Op} (h : SameLengths p p') (c : Conn) : Disguised E p p' c :=
  sameLengths_disguised p p' c h

/-- Data that fits in one record takes a record of the same length when it is in the same block: with the
fragment length 2^14 and a tag of 16 bytes, any two lengths below 4079, for example. -/
theorem C91_block {mfl tag n n' : Nat} (h : n + 1 + tag ≤ mfl) (h' : n' + 1 + tag ≤ mfl)
    (hb : (n + 1 + tag) / min mfl 4096 = (n' + 1 + tag) / min mfl 4096) :
    recordSizes mfl tag n = recordSizes mfl tag n' := by
  unfold recordSizes padded
  rw [if_pos (by omega), if_pos (by omega), hb]

namespace Toy

/-- the toy libraries that seal zeros -/
def blindEnv : Env := env.blindfold

theorem blind_sized : blindEnv.Sized :=
  ⟨fun a b => by simp [blindEnv, Env.blindfold, env], fun a k m => by simp [blindEnv, Env.blindfold, env]⟩

/-- two programs that send a yes and a no, answer, and close -/
def yes : List Op := [.send [121, 101, 115], .drain, .receive [1], .read, .send [1, 2], .drain, .closeSend, .drain]
def no : List Op := [.send [110, 111], .drain, .receive [1], .read, .send [3, 4], .drain, .closeSend, .drain]

/-- an attacker that reads everything and sends back what it got -/
def echo : List (Except Exn Bytes) → Option Op := fun seen =>
  match seen.length % 4 with
  | 0 => none
  | 1 => some .drain
  | 2 => match seen.getLast? with
    | some (.ok b) => some (.receive b)
    | _ => some .read
  | _ => some .read

set_option maxRecDepth 1000000 in
theorem blind_facts : Careful blindEnv (clientOps ++ yes) client0 ∧
    writeKeys (runOps blindEnv clientOps client0).tr ≠ [] ∧
    (runOps blindEnv clientOps client0).mfl = 16384 ∧
    ((runOps blindEnv clientOps client0).cipher.map (·.info.tagLength)) = some 16 ∧
    (results blindEnv yes (runOps blindEnv clientOps client0)).all (fun r => !raised r) = true ∧
    Careful blindEnv (clientOps ++ game blindEnv echo (fun _ => [1]) 4 []
      (runOps blindEnv clientOps client0)) client0 := by
  decide +kernel

end Toy

/-- The hypotheses of `C91_blind` and `C91_block` are met by the toy client, once connected, that says
"yes" or "no"; all calls return. -/
example : Toy.blindEnv.Sized ∧ Toy.blindEnv.Blind ∧
    Conn.new Toy.clientConfig (some ['a']) false [.sha256, .sha384] (List.replicate 32 5) =
      .ok Toy.client0 ∧
    Toy.clientConfig.maxFragmentLength ∈ [512, 1024, 2048, 4096, 16384] ∧
    Careful Toy.blindEnv (Toy.clientOps ++ Toy.yes) Toy.client0 ∧
    writeKeys (runOps Toy.blindEnv Toy.clientOps Toy.client0).tr ≠ [] ∧
    Disguised Toy.blindEnv Toy.yes Toy.no (runOps Toy.blindEnv Toy.clientOps Toy.client0) ∧
    (results Toy.blindEnv Toy.yes (runOps Toy.blindEnv Toy.clientOps Toy.client0)).all
      (fun r => !raised r) = true := by
  obtain ⟨h1, h2, h3, h4, h5, -⟩ := Toy.blind_facts
  refine ⟨Toy.blind_sized, Env.blindfold_blind _, Toy.client0_new, by decide, h1, h2, ⟨?_, ?_⟩, h5⟩
  · refine .inr ⟨_, _, rfl, rfl, fun k hk => ?_⟩
    rw [hk] at h4
    have ht : k.info.tagLength = 16 := Option.some.inj h4
    rw [h3, ht]
    exact C91_block (by decide) (by decide) (by decide)
  · exact C91_same_lengths (p := Toy.yes.tail) (p' := Toy.no.tail)
      ⟨.inl rfl, .inl rfl, .inl rfl, .inr ⟨_, _, rfl, rfl, rfl⟩, .inl rfl, .inl rfl, .inl rfl, trivial⟩ _

/-- Those of `C91_game` are met by an attacker that sends everything back. -/
example : Toy.blindEnv.Sized ∧ Toy.blindEnv.Blind ∧
    Conn.new Toy.clientConfig (some ['a']) false [.sha256, .sha384] (List.replicate 32 5) =
      .ok Toy.client0 ∧
    writeKeys (runOps Toy.blindEnv Toy.clientOps Toy.client0).tr ≠ [] ∧
    (∀ _i : Nat, ([1] : Bytes).length = ([0] : Bytes).length) ∧
    Careful Toy.blindEnv (Toy.clientOps ++ game Toy.blindEnv Toy.echo (fun _ => [1]) 4 []
      (runOps Toy.blindEnv Toy.clientOps Toy.client0)) Toy.client0 :=
  ⟨Toy.blind_sized, Env.blindfold_blind _, Toy.client0_new, Toy.blind_facts.2.1, fun _ => rfl,
    Toy.blind_facts.2.2.2.2.2⟩

/-- Those of `C91_lengths` are met by the toy cipher, which does not hide anything. -/
example : Toy.env.Sized ∧ Toy.env.Even ∧ ¬ Toy.env.Blind ∧
    Careful Toy.env (Toy.clientOps ++ [.send [1], .drain]) Toy.client0 ∧
    writeKeys (runOps Toy.env Toy.clientOps Toy.client0).tr ≠ [] ∧
    Disguised Toy.env [.send [1], .drain] [.send [2], .drain]
      (runOps Toy.env Toy.clientOps Toy.client0) :=
  ⟨⟨fun a b => by simp [Toy.env], fun a k m => by simp [Toy.env]⟩, fun _ _ _ _ _ _ h => by simp [Toy.env, Toy.sealToy, h],
    fun h => absurd (h 0 [] [] [] [0] [1] rfl) (by decide), by decide +kernel, by decide +kernel,
    C91_same_lengths (p := [.send [1], .drain]) (p' := [.send [2], .drain])
      ⟨.inr ⟨_, _, rfl, rfl, rfl⟩, .inl rfl, trivial⟩ _⟩

end Siotls
