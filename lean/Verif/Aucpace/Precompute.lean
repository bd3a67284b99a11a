import Verif.Basic.Prepare
import Verif.Aucpace.RunLemmas
import Verif.Aucpace.World

/-!
# C86: preparing a dictionary before the database is stolen

`/repo/aucpace/README.md:44-45` says that the strong variant resists pre-computation. In the plain variants the server tells
everybody the salt, so that after one session an attacker can compute the verifiers of all candidate passwords in advance. In
the strong variants the salt of a candidate is `q` times the point of the candidate, and the server multiplies whatever it is
sent by `q`: one session prepares one candidate, and an attacker that computes with group elements by adding multiples does
not get more.
-/

set_option linter.unusedSectionVars false

namespace Verif.Aucpace
open Spec Run Prepare

section
variable {G : Type} [AddCommGroup G] [Module Scalar G] [DecidableEq G] (R : Ristretto G) (D : Digest)
  {Params σr σs : Type} (Hs : PwHasher Params) (rngR : Rng σr) (rngS : Rng σs)

/-- The blinded salt in the server's answer to a blinded point; the neutral element when there is no answer. -/
def saltAnswer (db : StrongDatabase G) (kdb : Option (PartialAugDatabase G)) (user : Bytes) (s : Server.AugLayer × σs)
    (U : G) : G :=
  match serverInfoStrong R D rngS db kdb s.1 user U s.2 with
  | .ok (_, .strongAugmentationInfo _ _ V _) => V
  | _ => 0

theorem saltAnswer_eq {db : StrongDatabase G} {kdb : Option (PartialAugDatabase G)} {user : Bytes} {W : G} {q : Scalar}
    {ps : Bytes} (hdb : db.lookupVerifierStrong user = some (W, q, ps))
    (hk : ∀ k, kdb = some k → ∃ x, k.lookupLongTermKeypair user = some (x, x • R.base)) (s : Server.AugLayer × σs) (U : G) :
    saltAnswer R D rngS db kdb user s U = q • U := by
  rw [saltAnswer, server_info_strong_eq R D rngS db kdb s.1 user U s.2 W q ps hdb hk]
  by_cases h : q • U = 0
  · rw [if_pos h, h]
  · rw [if_neg h]

/-- **C86 (plain).** After a registration any session with the server, whoever runs it, reveals the salt and the parameters
with which the verifier of every candidate password can be computed in advance: for the right one it is the stored verifier. -/
theorem C86_plain (buf : Buf) (s s' : σr) (user pass : Bytes) (params : Params) {u salt ps : Bytes} {W : G}
    (hreg : Run.register R Hs rngR buf s user pass params = .ok (.registration u salt ps W, s'))
    (db : Database G) (hdb : db.lookupVerifier u = some (W, salt, ps)) (kdb : Option (PartialAugDatabase G))
    (hk : ∀ k, kdb = some k → ∃ x, k.lookupLongTermKeypair u = some (x, x • R.base)) (srv : Server.AugLayer) (sr : σs) :
    ∃ st grp X told w, serverInfo R D rngS db kdb srv u sr = .ok (st, .augmentationInfo grp X told ps) ∧
      pwScalar Hs user pass told params = .ok w ∧ W = w • R.base := by
  rw [register_eq] at hreg
  split at hreg
  case isFalse => cases hreg
  cases hw : pwScalar Hs user pass (Base64.encode (rngR.fill s 16).1) params with
  | err => simp [hw] at hreg
  | panic => simp [hw] at hreg
  | ok w =>
    rw [hw, Res.bind_ok] at hreg
    cases hp : mapPh (Hs.toParamsString params) with
    | err => simp [hp] at hreg
    | panic => simp [hp] at hreg
    | ok p =>
      rw [hp, Res.bind_ok] at hreg
      simp only [Res.ok.injEq, Prod.mk.injEq, ClientMessage.registration.injEq] at hreg
      obtain ⟨⟨rfl, rfl, rfl, rfl⟩, -⟩ := hreg
      exact ⟨_, _, _, _, w, server_info_eq R D rngS db kdb srv user sr _ _ _ hdb hk, hw, rfl⟩

/-- **C86 (strong, one session for one candidate).** After a strong registration, a session in which the point of a candidate
is sent as it is reveals what is needed to compute the verifier of that candidate: for the right one it is the stored verifier. -/
theorem C86_strong_one (buf : Buf) (s s' : σr) (user pass : Bytes) (params : Params) {u ps : Bytes} {q : Scalar} {W : G}
    (hreg : Run.registerStrong R D Hs rngR buf s user pass params = .ok (.strongRegistration u q ps W, s'))
    (db : StrongDatabase G) (hdb : db.lookupVerifierStrong u = some (W, q, ps)) (kdb : Option (PartialAugDatabase G))
    (hk : ∀ k, kdb = some k → ∃ x, k.lookupLongTermKeypair u = some (x, x • R.base)) (sess : Server.AugLayer × σs) :
    ∃ w, pwScalar Hs user pass (Base64.encode (R.compress
        (saltAnswer R D rngS db kdb u sess (strongPoint R D user pass)))) params = .ok w ∧ W = w • R.base := by
  rw [registerStrong_eq] at hreg
  split at hreg
  case isFalse => cases hreg
  simp only [] at hreg
  cases hw : pwScalar Hs user pass (Base64.encode (R.compress (draw (rngR.fill s 64).1 • strongPoint R D user pass))) params with
  | err => simp [hw] at hreg
  | panic => simp [hw] at hreg
  | ok w =>
    rw [hw, Res.bind_ok] at hreg
    cases hp : mapPh (Hs.toParamsString params) with
    | err => simp [hp] at hreg
    | panic => simp [hp] at hreg
    | ok p =>
      rw [hp, Res.bind_ok] at hreg
      simp only [Res.ok.injEq, Prod.mk.injEq, ClientMessage.strongRegistration.injEq] at hreg
      obtain ⟨⟨rfl, rfl, rfl, rfl⟩, -⟩ := hreg
      exact ⟨w, by rw [saltAnswer_eq R D rngS hdb hk, hw], rfl⟩

/-- **C86 (strong).** There are `m` candidates whose points have the discrete logarithms `h`. An attacker holds the base point
and these points, runs sessions in which it sends sums of multiples of what it holds, and finally forms, for each candidate,
such a sum. For at most `m * (n + 2) * ell^m` of the `ell^(m+1)` pairs of a `q` and logarithms `h` do `n` sessions yield the
salt points of more than `n` candidates. -/
theorem C86_strong (m : Nat) (user : Bytes) (db : Scalar → (Fin m → Scalar) → StrongDatabase G)
    (hdb : ∀ q h, ∃ W ps, (db q h).lookupVerifierStrong user = some (W, q, ps)) (kdb : Option (PartialAugDatabase G))
    (hk : ∀ k, kdb = some k → ∃ x, k.lookupLongTermKeypair user = some (x, x • R.base))
    (queries : List ((Server.AugLayer × σs) × (Nat → Scalar))) (out : Fin m → Nat → Scalar) :
    {w : Scalar × (Fin m → Scalar) | queries.length < {j : Fin m |
        lin (out j) (known (saltAnswer R D rngS (db w.1 w.2) kdb user) (R.base :: List.ofFn fun i => w.2 i • R.base) queries) =
          w.1 • w.2 j • R.base}.ncard}.ncard ≤ m * ((queries.length + 2) * ell ^ m) := by
  have hcard : Fintype.card Scalar = ell := ZMod.card ell
  have h := ncard_prepared (F := Scalar) R.base_ne_zero (fun q h => saltAnswer R D rngS (db q h) kdb user) (fun q h s U => by
    obtain ⟨W, ps, hW⟩ := hdb q h
    exact saltAnswer_eq R D rngS hW hk s U) queries out
  rwa [hcard] at h

/-- **C86 (strong, attained).** There is an attacker that prepares `n` of the candidates in `n` sessions, whatever `q` and the
points are. -/
theorem C86_strong_attained (m n : Nat) (hn : n ≤ m) (sess : Fin n → Server.AugLayer × σs) :
    ∃ (queries : List ((Server.AugLayer × σs) × (Nat → Scalar))) (out : Fin m → Nat → Scalar),
      queries.map Prod.fst = List.ofFn sess ∧
      ∀ (user : Bytes) (db : StrongDatabase G) (W : G) (q : Scalar) (ps : Bytes) (kdb : Option (PartialAugDatabase G))
        (Z : Fin m → G), db.lookupVerifierStrong user = some (W, q, ps) →
        (∀ k, kdb = some k → ∃ x, k.lookupLongTermKeypair user = some (x, x • R.base)) →
        ∀ j : Fin m, j.1 < n →
          lin (out j) (known (saltAnswer R D rngS db kdb user) (R.base :: List.ofFn Z) queries) = q • Z j := by
  refine ⟨(List.ofFn fun i => (sess i, i.1 + 1)).map fun q => (q.1, pick Scalar q.2), fun j => pick Scalar (1 + m + j), ?_, ?_⟩
  · simp [List.map_ofFn, Function.comp_def]
  · intro user db W q ps kdb Z hdb hk j hj
    have h := known_pick (F := Scalar) (saltAnswer R D rngS db kdb user) (R.base :: List.ofFn Z) []
      (List.ofFn fun i => (sess i, i.1 + 1)) (by
        intro x hx
        obtain ⟨i, rfl⟩ := List.mem_ofFn.1 hx
        simp only [List.length_cons, List.length_ofFn]
        omega)
    rw [List.append_nil] at h
    rw [h, lin_pick, List.getElem?_append_right (by simp; omega)]
    simp only [List.length_cons, List.length_ofFn, List.map_ofFn, Function.comp_def, List.getElem?_cons_succ]
    rw [show 1 + m + j.1 - (m + 1) = j.1 by omega, List.getElem?_ofFn, dif_pos hj, Option.getD_some,
      saltAnswer_eq R D rngS hdb hk, List.getElem?_ofFn, dif_pos (by omega)]
    rfl

end

/-- The hypotheses of `C86_plain` and `C86_strong_one` are met by the registrations of the toy world. -/
example : (∃ u salt ps W s', World.reg = .ok (.registration u salt ps W, s') ∧
      World.db.lookupVerifier u = some (W, salt, ps)) ∧
    ∃ u q ps W s', World.regStrong = .ok (.strongRegistration u q ps W, s') ∧
      World.dbStrong.lookupVerifierStrong u = some (W, q, ps) := by
  have h1 : (match World.reg with
      | .ok (.registration u salt ps W, _) => decide (World.db.lookupVerifier u = some (W, salt, ps))
      | _ => false) = true := by decide +kernel
  have h2 : (match World.regStrong with
      | .ok (.strongRegistration u q ps W, _) => decide (World.dbStrong.lookupVerifierStrong u = some (W, q, ps))
      | _ => false) = true := by decide +kernel
  constructor
  · split at h1
    · exact ⟨_, _, _, _, _, by assumption, of_decide_eq_true h1⟩
    · cases h1
  · split at h2
    · exact ⟨_, _, _, _, _, by assumption, of_decide_eq_true h2⟩
    · cases h2

/-- With up to ten million candidates and a thousand sessions the bound of `C86_strong` is a fraction below `2^-218`. -/
example (m : Nat) (hm : m ≤ 10000000) : m * ((1000 + 2) * ell ^ m) * 2 ^ 218 < ell ^ (m + 1) := by
  have h : 10000000 * (1000 + 2) * 2 ^ 218 < ell := by decide +kernel
  have h0 : 0 < ell ^ m := pow_pos (by decide) m
  calc m * ((1000 + 2) * ell ^ m) * 2 ^ 218 = m * ((1000 + 2) * 2 ^ 218) * ell ^ m := by ring
    _ ≤ 10000000 * ((1000 + 2) * 2 ^ 218) * ell ^ m := Nat.mul_le_mul_right _ (Nat.mul_le_mul_right _ hm)
    _ = 10000000 * (1000 + 2) * 2 ^ 218 * ell ^ m := by ring
    _ < ell * ell ^ m := Nat.mul_lt_mul_of_pos_right h h0
    _ = ell ^ (m + 1) := by rw [pow_succ, Nat.mul_comm]

end Verif.Aucpace
