import Verif.Basic.Oracle
import Verif.Forward

/-!
# C91 (AuCPace): a recorded session in the random oracle model

An attacker has recorded a session of the CPace substep and later learns everything but the private scalars: the password, the
verifier, the password-related string. It asks for hash values (`Asker`). The values that belong to the session are drawn at
random. The theorems bound the number of draws for which it finds the session key, or tells it from an independent one, by those
for which it asks for the input that contains the Diffie-Hellman element of the two public keys.
-/

set_option linter.unusedSectionVars false

namespace Verif.Aucpace
open Spec

section
variable {G : Type} [AddCommGroup G] [Module Scalar G] [DecidableEq G] (R : Ristretto G) (D : Digest) {σs σc : Type}
  (rngS : Rng σs) (rngC : Rng σc)

/-- What is recorded of a session: the two public keys and the two authenticators. -/
structure Recorded (G : Type) where
  ya : G
  yb : G
  ta : Bytes
  tb : Bytes

/-- The CPace substep with explicit authentication, with the messages (`Run.explicit` returns the keys only); client's key first.
aucpace/tests/test_key_agreement.rs:72-101 and `test_core`. -/
def recorded (cli : Client.CPaceSubstep) (srv : Server.CPaceSubstep σs) (ci : Bytes) (c : σc) :
    Res Error (Recorded G × Bytes × Bytes) := do
  let ((cli, cm), _) := Client.generatePublicKey R D rngC cli ci c
  let (srv, sm) := Server.generatePublicKey R D rngS srv ci
  match cm, sm with
  | .publicKey yb, .publicKey ya => do
    let (cli, cm) ← Client.receiveServerPubkey R D cli ya
    let srv ← Server.receiveClientPubkey R D srv yb
    match cm with
    | .authenticator tb => do
      let (skS, sm) ← Server.receiveClientAuthenticator (G := G) D srv tb
      match sm with
      | .authenticator ta => do
        let skC ← Client.receiveServerAuthenticator D cli ta
        .ok (⟨ya, yb, ta, tb⟩, skC, skS)
      | _ => .panic
    | _ => .panic
  | _, _ => .panic

/-- The session's inputs of the hash function that contain the first session key. -/
def laterInputs (ssid : Bytes) (j : Fin 3) (s : D.Out) : Bytes :=
  inp (match j with | 0 => 3 | 1 => 4 | 2 => 5) (ssid ++ s.1)

/-- The hash function with the session's values drawn: `s` is the first session key, `v` the two authenticators and the session
key; `K` is the shared element. -/
def drawn (ssid : Bytes) (K : G) (s : D.Out) (v : Fin 3 → D.Out) : Digest :=
  D.program (Oracle.table (inp 2 (ssid ++ R.compress K)) (laterInputs D ssid) s v)

theorem laterInputs_separate (ssid : Bytes) : Oracle.Separate (laterInputs D ssid) := by
  intro j j' s s' h
  simp only [laterInputs, inp_inj] at h
  refine ⟨?_, Subtype.ext (List.append_cancel_left h.2)⟩
  have hj : ∀ i i' : Fin 3, (match i with | 0 => (3 : UInt8) | 1 => 4 | 2 => 5) = (match i' with | 0 => 3 | 1 => 4 | 2 => 5) →
      i = i' := by decide
  exact hj j j' h.1

variable {ssid prs ci : Bytes} {K : G} (s : D.Out) (v : Fin 3 → D.Out)

theorem drawn_other (n : UInt8) (hn : n ≠ 2 ∧ n ≠ 3 ∧ n ≠ 4 ∧ n ≠ 5) (x : Bytes) :
    Hn (drawn R D ssid K s v) n x = Hn D n x := by
  refine Oracle.hash_other ?_ ?_
  · rw [ne_eq, inp_inj]; exact fun h => hn.1 h.1
  · intro j h
    replace h := (inp_inj.1 h).1
    fin_cases j
    · exact hn.2.1 h
    · exact hn.2.2.1 h
    · exact hn.2.2.2 h

theorem drawn_gen : gen R (drawn R D ssid K s v) ssid prs ci = gen R D ssid prs ci := by
  rw [gen, gen, drawn_other R D s v 1 (by decide)]

theorem drawn_sk1 : Spec.sk1 R (drawn R D ssid K s v) ssid K = s.1 := Oracle.hash_first s v

theorem drawn_later (j : Fin 3) : (drawn R D ssid K s v).hash (laterInputs D ssid j s) = (v j).1 := by
  refine Oracle.hash_later (laterInputs_separate D ssid) s v j ?_
  intro h
  replace h := (inp_inj.1 h).1
  fin_cases j <;> exact absurd h (by decide)

theorem drawn_ta : ta (drawn R D ssid K s v) ssid s.1 = (v 0).1 := drawn_later R D s v 0
theorem drawn_tb : tb (drawn R D ssid K s v) ssid s.1 = (v 1).1 := drawn_later R D s v 1
theorem drawn_sk : sk (drawn R D ssid K s v) ssid s.1 = (v 2).1 := drawn_later R D s v 2

/-- **C91 (drawn values).** In a session with the drawn values the public keys are those of the session, the authenticators and
the keys of both sides are the drawn strings, and with implicit authentication the keys are the same. -/
theorem C91_drawn (h64 : D.outLen = 64) (c : σc) (sv : σs) {ya yb : Scalar} (hya : draw (rngS.fill sv 64).1 = ya)
    (hyb : draw (rngC.fill c 64).1 = yb) (ha : ya • gen R D ssid prs ci ≠ 0) (hb : yb • gen R D ssid prs ci ≠ 0) :
    let D' := drawn R D ssid ((ya * yb) • gen R D ssid prs ci) s v
    recorded R D' rngS rngC ⟨ssid, prs⟩ ⟨ssid, prs, sv⟩ ci c =
      .ok (⟨ya • gen R D ssid prs ci, yb • gen R D ssid prs ci, (v 0).1, (v 1).1⟩, (v 2).1, (v 2).1) ∧
    Run.implicit R D' rngC rngS ⟨ssid, prs⟩ ⟨ssid, prs, sv⟩ ci ci c = .ok ((v 2).1, (v 2).1) := by
  intro D'
  have hD : D'.outLen = 64 := h64
  have e1 : yb • ya • gen R D ssid prs ci = (ya * yb) • gen R D ssid prs ci := by rw [smul_smul, mul_comm]
  have e2 : ya • yb • gen R D ssid prs ci = (ya * yb) • gen R D ssid prs ci := by rw [smul_smul]
  constructor
  · simp only [recorded, client_generatePublicKey_eq, server_generatePublicKey_eq, receiveServerPubkey_eq R D' hD,
      receiveClientPubkey_eq, hya, hyb, D', drawn_gen, if_neg ha, if_neg hb, Res.bind_ok, e1, e2, drawn_sk1]
    rw [receiveClientAuthenticator_eq (drawn R D ssid ((ya * yb) • gen R D ssid prs ci) s v) h64]
    simp only [if_true, Res.bind_ok, receiveServerAuthenticator_eq, drawn_ta, drawn_tb, drawn_sk]
  · rw [implicit_eq]
    simp only [hya, hyb, D', drawn_gen, e1, e2, drawn_sk1, drawn_sk, ha, hb, or_self, if_false]

/-- The candidates for an encoded Diffie-Hellman element: the last 32 bytes of everything that is asked for. -/
def candidates {α : Type} (A : Asker α) : List Bytes := (A.asked D).map Spake2.last32

theorem mem_candidates {α : Type} {A : Asker α} (h : inp 2 (ssid ++ R.compress K) ∈ A.asked D) :
    R.compress K ∈ candidates D A :=
  List.mem_map.2 ⟨_, h, Spake2.last32_append (2 :: 0 :: 0 :: 0 :: ssid) _ (R.compress_length K)⟩

/-- **C91 (finding the key).** An attacker who asks at most `q` times and gets the recorded messages of a session finds the
session key for at most `(q + 1) * 2^1536` of the `2^2048` draws, and those for which the encoded Diffie-Hellman element of the
two public keys is among the candidates that it asks for, when it is run with random strings as authenticators and a hash
function that has nothing to do with the session. -/
theorem C91_find (h64 : D.outLen = 64) (c : σc) (sv : σs) {ya yb : Scalar} (hya : draw (rngS.fill sv 64).1 = ya)
    (hyb : draw (rngC.fill c 64).1 = yb) (ha : ya • gen R D ssid prs ci ≠ 0) (hb : yb • gen R D ssid prs ci ≠ 0)
    (A : Recorded G → Asker Bytes) (q : Nat) (hq : ∀ t, ((A t).asked D).length ≤ q) :
    {w : D.Out × (Fin 3 → D.Out) |
        let D' := drawn R D ssid ((ya * yb) • gen R D ssid prs ci) w.1 w.2
        ∃ t k, recorded R D' rngS rngC ⟨ssid, prs⟩ ⟨ssid, prs, sv⟩ ci c = .ok (t, k, k) ∧ (A t).run D' = k}.ncard ≤
      (q + 1) * 2 ^ 1536 +
      {w : D.Out × (Fin 3 → D.Out) | R.compress ((ya * yb) • gen R D ssid prs ci) ∈ candidates D
        (A ⟨ya • gen R D ssid prs ci, yb • gen R D ssid prs ci, (w.2 0).1, (w.2 1).1⟩)}.ncard := by
  have h := Oracle.find_le (first := inp 2 (ssid ++ R.compress ((ya * yb) • gen R D ssid prs ci)))
    (laterInputs_separate D ssid)
    (fun v => A ⟨ya • gen R D ssid prs ci, yb • gen R D ssid prs ci, (v 0).1, (v 1).1⟩) 2 (fun v y => rfl) q (fun v => hq _)
  rw [show (256 ^ D.outLen) ^ 3 = 2 ^ 1536 by rw [h64, show (256 : Nat) = 2 ^ 8 from rfl, ← pow_mul, ← pow_mul]] at h
  refine le_trans (le_of_eq ?_) (h.trans (Nat.add_le_add_left (Set.ncard_le_ncard (fun w hw => mem_candidates R D hw)
    (Set.toFinite _)) _))
  congr 1
  ext w
  simp only [Set.mem_ofPred_eq, (C91_drawn R D rngS rngC w.1 w.2 h64 c sv hya hyb ha hb).1, Res.ok.injEq, Prod.mk.injEq]
  constructor
  · rintro ⟨t, k, ⟨rfl, rfl, -⟩, h⟩
    exact h
  · intro h
    exact ⟨_, _, ⟨rfl, rfl, rfl⟩, h⟩

/-- **C91 (real or random).** An attacker who asks at most `q` times and gets the recorded messages and a string answers yes for
about as many draws if the string is the session key as if it is an independent one: the numbers differ by at most
`2 * q * 2^3072`, out of `2^3584`, and twice the number of draws for which the Diffie-Hellman element is among the candidates. -/
theorem C91_distinguish (h64 : D.outLen = 64) (c : σc) (sv : σs) {ya yb : Scalar} (hya : draw (rngS.fill sv 64).1 = ya)
    (hyb : draw (rngC.fill c 64).1 = yb) (ha : ya • gen R D ssid prs ci ≠ 0) (hb : yb • gen R D ssid prs ci ≠ 0)
    (A : Recorded G → Bytes → Asker Bool) (q : Nat) (hq : ∀ t k, ((A t k).asked D).length ≤ q) :
    let D' := fun w : D.Out × (Fin 3 → D.Out) × (Fin 3 → D.Out) =>
      drawn R D ssid ((ya * yb) • gen R D ssid prs ci) w.1 w.2.1
    let real := {w : D.Out × (Fin 3 → D.Out) × (Fin 3 → D.Out) |
      ∃ t k, recorded R (D' w) rngS rngC ⟨ssid, prs⟩ ⟨ssid, prs, sv⟩ ci c = .ok (t, k, k) ∧ (A t k).run (D' w) = true}
    let random := {w : D.Out × (Fin 3 → D.Out) × (Fin 3 → D.Out) |
      ∃ t k, recorded R (D' w) rngS rngC ⟨ssid, prs⟩ ⟨ssid, prs, sv⟩ ci c = .ok (t, k, k) ∧
        (A t (w.2.2 2).1).run (D' w) = true}
    let err := 2 * (q * 2 ^ 3072 + {w : D.Out × (Fin 3 → D.Out) × (Fin 3 → D.Out) |
      R.compress ((ya * yb) • gen R D ssid prs ci) ∈ candidates D (A ⟨ya • gen R D ssid prs ci, yb • gen R D ssid prs ci,
        (w.2.1 0).1, (w.2.1 1).1⟩ (w.2.1 2).1)}.ncard)
    real.ncard ≤ random.ncard + err ∧ random.ncard ≤ real.ncard + err := by
  intro D' real random err
  have h := Oracle.distinguish (first := inp 2 (ssid ++ R.compress ((ya * yb) • gen R D ssid prs ci)))
    (laterInputs_separate D ssid)
    (fun v => A ⟨ya • gen R D ssid prs ci, yb • gen R D ssid prs ci, (v 0).1, (v 1).1⟩ (v 2).1) q (fun v => hq _ _)
    (fun j => j == 2) {true}
  rw [show (256 ^ D.outLen) ^ (2 * 3) = 2 ^ 3072 by rw [h64, show (256 : Nat) = 2 ^ 8 from rfl, ← pow_mul, ← pow_mul]] at h
  have hle := Set.ncard_le_ncard (s := {w : D.Out × (Fin 3 → D.Out) × (Fin 3 → D.Out) |
      inp 2 (ssid ++ R.compress ((ya * yb) • gen R D ssid prs ci)) ∈ (A ⟨ya • gen R D ssid prs ci, yb • gen R D ssid prs ci,
        (w.2.1 0).1, (w.2.1 1).1⟩ (w.2.1 2).1).asked D}) (fun w hw => mem_candidates R D hw) (Set.toFinite _)
  have e1 : real = {w : D.Out × (Fin 3 → D.Out) × (Fin 3 → D.Out) | (A ⟨ya • gen R D ssid prs ci, yb • gen R D ssid prs ci,
      (w.2.1 0).1, (w.2.1 1).1⟩ (w.2.1 2).1).run (D' w) ∈ ({true} : Set Bool)} := by
    ext w
    simp only [real, D', Set.mem_ofPred_eq, (C91_drawn R D rngS rngC w.1 w.2.1 h64 c sv hya hyb ha hb).1, Res.ok.injEq,
      Prod.mk.injEq, Set.mem_singleton_iff]
    constructor
    · rintro ⟨t, k, ⟨rfl, rfl, -⟩, h⟩
      exact h
    · intro h
      exact ⟨_, _, ⟨rfl, rfl, rfl⟩, h⟩
  have e2 : random = {w : D.Out × (Fin 3 → D.Out) × (Fin 3 → D.Out) | (A ⟨ya • gen R D ssid prs ci, yb • gen R D ssid prs ci,
      (w.2.1 0).1, (w.2.1 1).1⟩ (w.2.2 2).1).run (D' w) ∈ ({true} : Set Bool)} := by
    ext w
    simp only [random, D', Set.mem_ofPred_eq, (C91_drawn R D rngS rngC w.1 w.2.1 h64 c sv hya hyb ha hb).1, Res.ok.injEq,
      Prod.mk.injEq, Set.mem_singleton_iff]
    constructor
    · rintro ⟨t, k, ⟨rfl, rfl, -⟩, h⟩
      exact h
    · intro h
      exact ⟨_, _, ⟨rfl, rfl, rfl⟩, h⟩
  have h' : real.ncard ≤ random.ncard + 2 * (q * 2 ^ 3072 + {w : D.Out × (Fin 3 → D.Out) × (Fin 3 → D.Out) |
      inp 2 (ssid ++ R.compress ((ya * yb) • gen R D ssid prs ci)) ∈ (A ⟨ya • gen R D ssid prs ci, yb • gen R D ssid prs ci,
        (w.2.1 0).1, (w.2.1 1).1⟩ (w.2.1 2).1).asked D}.ncard) ∧
    random.ncard ≤ real.ncard + 2 * (q * 2 ^ 3072 + {w : D.Out × (Fin 3 → D.Out) × (Fin 3 → D.Out) |
      inp 2 (ssid ++ R.compress ((ya * yb) • gen R D ssid prs ci)) ∈ (A ⟨ya • gen R D ssid prs ci, yb • gen R D ssid prs ci,
        (w.2.1 0).1, (w.2.1 1).1⟩ (w.2.1 2).1).asked D}.ncard) := by
    rw [e1, e2]; exact h
  exact ⟨h'.1.trans (Nat.add_le_add_left (Nat.mul_le_mul_left _ (Nat.add_le_add_left hle _)) _),
    h'.2.trans (Nat.add_le_add_left (Nat.mul_le_mul_left _ (Nat.add_le_add_left hle _)) _)⟩

/-- **C91 (attained).** Who finds the Diffie-Hellman element finds the key for every draw, with two questions. -/
theorem C91_attained (h64 : D.outLen = 64) (c : σc) (sv : σs) {ya yb : Scalar} (hya : draw (rngS.fill sv 64).1 = ya)
    (hyb : draw (rngC.fill c 64).1 = yb) (ha : ya • gen R D ssid prs ci ≠ 0) (hb : yb • gen R D ssid prs ci ≠ 0)
    (F : G → G → Bytes) (hF : F (ya • gen R D ssid prs ci) (yb • gen R D ssid prs ci) =
      R.compress ((ya * yb) • gen R D ssid prs ci)) :
    let A : Recorded G → Asker Bytes := fun t =>
      .ask (inp 2 (ssid ++ F t.ya t.yb)) fun s => .ask (inp 5 (ssid ++ s)) fun k => .done k
    (∀ t, ((A t).asked D).length = 2) ∧ ∀ w : D.Out × (Fin 3 → D.Out),
      let D' := drawn R D ssid ((ya * yb) • gen R D ssid prs ci) w.1 w.2
      ∃ t k, recorded R D' rngS rngC ⟨ssid, prs⟩ ⟨ssid, prs, sv⟩ ci c = .ok (t, k, k) ∧ (A t).run D' = k := by
  intro A
  refine ⟨fun t => rfl, fun w => ?_⟩
  refine ⟨_, _, (C91_drawn R D rngS rngC w.1 w.2 h64 c sv hya hyb ha hb).1, ?_⟩
  simp only [A, Asker.run, hF]
  have h1 : (drawn R D ssid ((ya * yb) • gen R D ssid prs ci) w.1 w.2).hash
      (inp 2 (ssid ++ R.compress ((ya * yb) • gen R D ssid prs ci))) = w.1.1 := drawn_sk1 R D w.1 w.2
  rw [h1]
  exact drawn_sk R D w.1 w.2

end

/-- The hypotheses can be met over the scalars with SHA-512. -/
example : sha512.outLen = 64 ∧
    draw (Rng.replay.fill (World.bytes 3 64) 64).1 • gen Ristretto.toy sha512 (World.bytes 1 64) (World.bytes 2 32) [] ≠ 0 ∧
    draw (Rng.replay.fill (World.bytes 4 64) 64).1 • gen Ristretto.toy sha512 (World.bytes 1 64) (World.bytes 2 32) [] ≠ 0 := by
  refine ⟨rfl, ?_, ?_⟩ <;> decide +kernel

end Verif.Aucpace
