import Verif.Ristretto.PropsCount
import Verif.Basic.Tape
import Verif.Srp.Tests
import Verif.Aucpace.Uniform

/-!
# C101: how often an honest login with the right password fails

Random values can be degenerate: then an AuCPace party refuses a neutral point and an SRP client refuses `B = 0`. Here all strings that
the generators can deliver are counted, and in AuCPace all answers of the hash to the query for the CPace generator as well (`Digest.answer`,
see C68). SPAKE2 logins of peers with the same password never fail (C16, C17).
-/

set_option linter.unusedSectionVars false

namespace Verif.Failure
open Ristretto (RPoint ristretto255)
open Aucpace (Scalar Database StrongDatabase PartialAugDatabase PwHasher C32_agreement C33_agreement ssidOf startOk)
open Aucpace.Spec (inp Hn gen strongPoint draw)
open Aucpace.Run (Buf Start serverX)

/-- Few strings of 64 bytes are drawn as a given scalar. -/
theorem draw_count (v : Scalar) : {b : Bytes | b.length = 64 ∧ draw b = v}.ncard ≤ 2 ^ 261 := by
  have hp : (256 : ℕ) ^ 64 / ell + 1 ≤ 2 ^ 261 := by decide +kernel
  refine le_trans (le_of_eq (ncard_residue 64 ell v)) (le_trans ?_ hp)
  split <;> omega

theorem draw_segment {o L : Nat} (h : o + 64 ≤ L) (v : Scalar) :
    {T : Bytes | T.length = L ∧ draw ((T.drop o).take 64) = v}.ncard ≤ 2 ^ 261 * 256 ^ (L - 64) :=
  ncard_segment_le h (fun _ b => draw b = v) fun _ _ => draw_count v

theorem map_segment {o L : Nat} (h : o + 64 ≤ L) (g : RPoint) :
    {T : Bytes | T.length = L ∧ ristretto255.fromUniform ((T.drop o).take 64) = g}.ncard ≤ 2 ^ 263 * 256 ^ (L - 64) :=
  ncard_segment_le h (fun _ b => ristretto255.fromUniform b = g) fun _ _ => (Ristretto.C68_map g).2

theorem fill_take {T : Bytes} (h : 64 ≤ T.length) : Rng.replay.fill T 64 = (T.take 64, T.drop 64) := by
  show ((T ++ List.replicate 64 0).take 64, T.drop 64) = _
  rw [List.take_append_of_le_length h]

/-- Strings in which one of the scalars or the generator is degenerate. -/
theorem four_count {p : Bytes → Prop}
    (h : ∀ T, T.length = 256 → p T → draw (T.take 64) = 0 ∨ draw ((T.drop 64).take 64) = 0 ∨ draw ((T.drop 128).take 64) = 0 ∨
      ristretto255.fromUniform (T.drop 192) = 0) :
    {T : Bytes | T.length = 256 ∧ p T}.ncard * 2 ^ 248 ≤ 256 ^ 256 := by
  have hsub : {T : Bytes | T.length = 256 ∧ p T} ⊆
      ({T : Bytes | T.length = 256 ∧ draw ((T.drop 0).take 64) = 0} ∪ {T : Bytes | T.length = 256 ∧ draw ((T.drop 64).take 64) = 0}) ∪
      ({T : Bytes | T.length = 256 ∧ draw ((T.drop 128).take 64) = 0} ∪
        {T : Bytes | T.length = 256 ∧ ristretto255.fromUniform ((T.drop 192).take 64) = 0}) := by
    rintro T ⟨hT, hp⟩
    have hl : (T.drop 192).take 64 = T.drop 192 := List.take_of_length_le (by rw [List.length_drop]; omega)
    simp only [Set.mem_union, Set.mem_ofPred_eq, hT, true_and, List.drop_zero, hl]
    rcases h T hT hp with h | h | h | h
    · exact .inl (.inl h)
    · exact .inl (.inr h)
    · exact .inr (.inl h)
    · exact .inr (.inr h)
  have hfin : ∀ p : Bytes → Prop, {T : Bytes | T.length = 256 ∧ p T}.Finite := fun p => (finite_bytes 256).subset fun T hT => hT.1
  have hle := Set.ncard_le_ncard hsub (((hfin _).union (hfin _)).union ((hfin _).union (hfin _)))
  have u := hle.trans ((Set.ncard_union_le _ _).trans (Nat.add_le_add (Set.ncard_union_le _ _) (Set.ncard_union_le _ _)))
  have d1 := draw_segment (o := 0) (L := 256) (by norm_num) 0
  have d2 := draw_segment (o := 64) (L := 256) (by norm_num) 0
  have d3 := draw_segment (o := 128) (L := 256) (by norm_num) 0
  have d4 := map_segment (o := 192) (L := 256) (by norm_num) 0
  have hnum : (3 * 2 ^ 261 + 2 ^ 263) * 256 ^ (256 - 64) * 2 ^ 248 ≤ 256 ^ 256 := by decide +kernel
  have hadd : (3 * 2 ^ 261 + 2 ^ 263) * 256 ^ (256 - 64) =
    (2 ^ 261 * 256 ^ (256 - 64) + 2 ^ 261 * 256 ^ (256 - 64)) + (2 ^ 261 * 256 ^ (256 - 64) + 2 ^ 263 * 256 ^ (256 - 64)) := by
    decide +kernel
  rw [hadd] at hnum
  exact le_trans (Nat.mul_le_mul_right _ (u.trans (Nat.add_le_add (Nat.add_le_add d1 d2) (Nat.add_le_add d3 d4)))) hnum

/-- The same without the first scalar. -/
theorem three_count {p : Bytes → Prop}
    (h : ∀ T, T.length = 192 → p T → draw (T.take 64) = 0 ∨ draw ((T.drop 64).take 64) = 0 ∨
      ristretto255.fromUniform (T.drop 128) = 0) :
    {T : Bytes | T.length = 192 ∧ p T}.ncard * 2 ^ 248 ≤ 256 ^ 192 := by
  have hsub : {T : Bytes | T.length = 192 ∧ p T} ⊆
      ({T : Bytes | T.length = 192 ∧ draw ((T.drop 0).take 64) = 0} ∪ {T : Bytes | T.length = 192 ∧ draw ((T.drop 64).take 64) = 0}) ∪
        {T : Bytes | T.length = 192 ∧ ristretto255.fromUniform ((T.drop 128).take 64) = 0} := by
    rintro T ⟨hT, hp⟩
    have hl : (T.drop 128).take 64 = T.drop 128 := List.take_of_length_le (by rw [List.length_drop]; omega)
    simp only [Set.mem_union, Set.mem_ofPred_eq, hT, true_and, List.drop_zero, hl]
    rcases h T hT hp with h | h | h
    · exact .inl (.inl h)
    · exact .inl (.inr h)
    · exact .inr h
  have hfin : ∀ p : Bytes → Prop, {T : Bytes | T.length = 192 ∧ p T}.Finite := fun p => (finite_bytes 192).subset fun T hT => hT.1
  have hle := Set.ncard_le_ncard hsub (((hfin _).union (hfin _)).union (hfin _))
  have u := hle.trans ((Set.ncard_union_le _ _).trans (Nat.add_le_add_right (Set.ncard_union_le _ _) _))
  have d1 := draw_segment (o := 0) (L := 192) (by norm_num) 0
  have d2 := draw_segment (o := 64) (L := 192) (by norm_num) 0
  have d3 := map_segment (o := 128) (L := 192) (by norm_num) 0
  have hnum : ((2 ^ 261 * 256 ^ (192 - 64) + 2 ^ 261 * 256 ^ (192 - 64)) + 2 ^ 263 * 256 ^ (192 - 64)) * 2 ^ 248 ≤ 256 ^ 192 := by
    decide +kernel
  exact le_trans (Nat.mul_le_mul_right _ (u.trans (Nat.add_le_add (Nat.add_le_add d1 d2) d3))) hnum

theorem serverX_none {user T : Bytes} (hT : 128 ≤ T.length) :
    serverX (G := RPoint) Rng.replay none user (T.take 128) = (draw (T.take 64), (T.drop 64).take 64) := by
  simp only [serverX, fill_take (T := T.take 128) (by rw [List.length_take]; omega), List.take_take, List.drop_take]
  rfl

theorem fill_segment {T : Bytes} {o : Nat} (hT : o + 64 ≤ T.length) :
    (Rng.replay.fill ((T.drop o).take 64) 64).1 = (T.drop o).take 64 :=
  Aucpace.replay_fill (by rw [List.length_take, List.length_drop]; omega)

theorem ne_of_not_prefix {u s p c : Bytes} (h : ¬ s <+: u) : u ≠ s ++ p ++ c := by
  rintro rfl
  exact h ⟨p ++ c, by rw [List.append_assoc]⟩

section
variable (D : Digest) (h64 : D.outLen = 64) {Params : Type} (Hs : PwHasher Params) {σr : Type} (rngR : Rng σr)
include h64

/-- **C101 (AuCPace).** After any registration, whatever the nonces or the established SSID: `T` are the 128 bytes from which the server
draws `x` and its CPace key, the 64 bytes from which the client draws its CPace key, and the 64 bytes that the hash answers to the query
for the generator. For at most one in `2^248` of these strings the login does not end with the same key on both sides. -/
theorem C101_aucpace (bufR buf : Buf) (s s' : σr) (user pass salt ps : Bytes) (params : Params) (W : RPoint)
    (hreg : Aucpace.Run.register ristretto255 Hs rngR bufR s user pass params = .ok (.registration user salt ps W, s'))
    (db : Database RPoint) (hdb : db.lookupVerifier user = some (W, salt, ps))
    (fromPs : Bytes → Params) (hps : fromPs ps = params) (hbuf : buf.fits user pass)
    (start : Start) (hstart : startOk start) (ci c : Bytes) (sv : Aucpace.Server.State Bytes) :
    {T : Bytes | T.length = 256 ∧ ¬ ∃ k,
      let D' := D.answer (inp 1 (ssidOf D Rng.replay Rng.replay start c sv ++
        ristretto255.compress (draw (T.take 64) • W) ++ ci)) (T.drop 192)
      Aucpace.Run.login ristretto255 D' Hs Rng.replay Rng.replay (Aucpace.Run.explicit ristretto255 D' Rng.replay Rng.replay) fromPs
        buf db none start user pass ci c sv (T.take 128) ((T.drop 128).take 64) = .ok (k, k)}.ncard * 2 ^ 248 ≤ 256 ^ 256 := by
  refine four_count fun T hT hno => ?_
  by_contra hcon
  simp only [not_or] at hcon
  obtain ⟨hx, hya, hyb, hg⟩ := hcon
  apply hno
  have hl : (T.drop 192).length = 64 := by rw [List.length_drop]; omega
  obtain ⟨w, hw, -, hrun⟩ := C32_agreement ristretto255 (D.answer (inp 1 (ssidOf D Rng.replay Rng.replay start c sv ++
      ristretto255.compress (draw (T.take 64) • W) ++ ci)) (T.drop 192)) Hs Rng.replay Rng.replay rngR h64 bufR buf s s' user pass
      salt ps params W hreg db hdb none (by simp) fromPs hps hbuf start hstart ci c ((T.drop 128).take 64) sv (T.take 128)
  refine ⟨_, hrun.trans (if_neg ?_)⟩
  rw [serverX_none (by omega), fill_segment (by omega), fill_segment (by omega), Ristretto.ssidOf_answer, mul_comm w, ← smul_smul,
    ← hw, gen, Hn, Digest.answer_self (hl.trans h64.symm), not_or, not_or, smul_eq_zero, smul_eq_zero]
  exact ⟨hx, not_or.2 ⟨hya, hg⟩, not_or.2 ⟨hyb, hg⟩⟩

/-- **C101 (AuCPace with a stored key pair).** The same with partial augmentation, when the stored exponent is not zero: `T` are the bytes
for the server's CPace key, for the client's, and the answer. -/
theorem C101_aucpace_stored (bufR buf : Buf) (s s' : σr) (user pass salt ps : Bytes) (params : Params) (W : RPoint)
    (hreg : Aucpace.Run.register ristretto255 Hs rngR bufR s user pass params = .ok (.registration user salt ps W, s'))
    (db : Database RPoint) (hdb : db.lookupVerifier user = some (W, salt, ps)) (kdb : PartialAugDatabase RPoint) (x : Scalar)
    (hk : kdb.lookupLongTermKeypair user = some (x, x • ristretto255.base)) (hx : x ≠ 0)
    (fromPs : Bytes → Params) (hps : fromPs ps = params) (hbuf : buf.fits user pass)
    (start : Start) (hstart : startOk start) (ci c : Bytes) (sv : Aucpace.Server.State Bytes) :
    {T : Bytes | T.length = 192 ∧ ¬ ∃ k,
      let D' := D.answer (inp 1 (ssidOf D Rng.replay Rng.replay start c sv ++ ristretto255.compress (x • W) ++ ci)) (T.drop 128)
      Aucpace.Run.login ristretto255 D' Hs Rng.replay Rng.replay (Aucpace.Run.explicit ristretto255 D' Rng.replay Rng.replay) fromPs
        buf db (some kdb) start user pass ci c sv (T.take 64) ((T.drop 64).take 64) = .ok (k, k)}.ncard * 2 ^ 248 ≤ 256 ^ 192 := by
  refine three_count fun T hT hno => ?_
  by_contra hcon
  simp only [not_or] at hcon
  obtain ⟨hya, hyb, hg⟩ := hcon
  apply hno
  have hl : (T.drop 128).length = 64 := by rw [List.length_drop]; omega
  obtain ⟨w, hw, -, hrun⟩ := C32_agreement ristretto255 (D.answer (inp 1 (ssidOf D Rng.replay Rng.replay start c sv ++
      ristretto255.compress (x • W) ++ ci)) (T.drop 128)) Hs Rng.replay Rng.replay rngR h64 bufR buf s s' user pass
      salt ps params W hreg db hdb (some kdb) (by rintro _ ⟨rfl⟩; exact ⟨x, hk⟩) fromPs hps hbuf start hstart ci c
      ((T.drop 64).take 64) sv (T.take 64)
  have hX : serverX Rng.replay (some kdb) user (T.take 64) = (x, T.take 64) := by simp [serverX, hk]
  refine ⟨_, hrun.trans (if_neg ?_)⟩
  rw [hX, Aucpace.replay_fill (b := T.take 64) (by rw [List.length_take]; omega), fill_segment (by omega), Ristretto.ssidOf_answer, mul_comm w, ← smul_smul,
    ← hw, gen, Hn, Digest.answer_self (hl.trans h64.symm), not_or, not_or, smul_eq_zero, smul_eq_zero]
  exact ⟨hx, not_or.2 ⟨hya, hg⟩, not_or.2 ⟨hyb, hg⟩⟩

/-- Programming the query for the generator does not change a strong registration. -/
theorem registerStrong_answer {bufR : Buf} {s : σr} {user pass : Bytes} {params : Params} {x h : Bytes} (hne : user ++ pass ≠ x) :
    strongPoint ristretto255 (D.answer (inp 1 x) h) user pass = strongPoint ristretto255 D user pass ∧
    Aucpace.Run.registerStrong ristretto255 (D.answer (inp 1 x) h) Hs rngR bufR s user pass params =
      Aucpace.Run.registerStrong ristretto255 D Hs rngR bufR s user pass params := by
  have hsp : strongPoint ristretto255 (D.answer (inp 1 x) h) user pass = strongPoint ristretto255 D user pass := by
    rw [strongPoint, strongPoint, Hn, Hn, Digest.answer_ne]
    exact fun h => hne (Aucpace.inp_inj.1 h).2
  exact ⟨hsp, by rw [Aucpace.registerStrong_eq, Aucpace.registerStrong_eq, hsp]⟩

/-- **C101 (strong AuCPace).** The same for an account whose salt was not drawn as zero and whose credentials are not mapped to the neutral
element. (User name and password, hashed in the same way as the session, must not begin with the SSID.) -/
theorem C101_aucpace_strong (bufR buf : Buf) (s s' : σr) (user pass ps : Bytes) (params : Params) (W : RPoint) (q : Scalar)
    (hreg : Aucpace.Run.registerStrong ristretto255 D Hs rngR bufR s user pass params = .ok (.strongRegistration user q ps W, s'))
    (hQ : q • strongPoint ristretto255 D user pass ≠ 0)
    (db : StrongDatabase RPoint) (hdb : db.lookupVerifierStrong user = some (W, q, ps))
    (fromPs : Bytes → Params) (hps : fromPs ps = params) (hbuf : buf.fits user pass)
    (start : Start) (hstart : startOk start) (ci c : Bytes) (sv : Aucpace.Server.State Bytes) (r : Scalar) (hr : r ≠ 0)
    (hne : ¬ ssidOf D Rng.replay Rng.replay start c sv <+: user ++ pass) :
    {T : Bytes | T.length = 256 ∧ ¬ ∃ k,
      let D' := D.answer (inp 1 (ssidOf D Rng.replay Rng.replay start c sv ++
        ristretto255.compress (draw (T.take 64) • W) ++ ci)) (T.drop 192)
      Aucpace.Run.loginStrong ristretto255 D' Hs Rng.replay Rng.replay (Aucpace.Run.explicit ristretto255 D' Rng.replay Rng.replay)
        fromPs buf db none start user pass ci r c sv (T.take 128) ((T.drop 128).take 64) = .ok (k, k)}.ncard * 2 ^ 248 ≤ 256 ^ 256 := by
  refine four_count fun T hT hno => ?_
  by_contra hcon
  simp only [not_or] at hcon
  obtain ⟨hx, hya, hyb, hg⟩ := hcon
  apply hno
  have hl : (T.drop 192).length = 64 := by rw [List.length_drop]; omega
  obtain ⟨hsp, hre⟩ := registerStrong_answer D h64 Hs rngR (bufR := bufR) (s := s) (params := params) (h := T.drop 192)
    (ne_of_not_prefix (p := ristretto255.compress (draw (T.take 64) • W)) (c := ci) hne)
  obtain ⟨w, hw, -, hrun⟩ := C33_agreement ristretto255 (D.answer (inp 1 (ssidOf D Rng.replay Rng.replay start c sv ++
      ristretto255.compress (draw (T.take 64) • W) ++ ci)) (T.drop 192)) Hs Rng.replay Rng.replay rngR h64 bufR buf s s' user pass
      ps params W q (hre.trans hreg) db hdb none (by simp) fromPs hps hbuf start hstart ci r hr c ((T.drop 128).take 64) sv (T.take 128)
  refine ⟨_, hrun.trans (if_neg ?_)⟩
  rw [hsp, serverX_none (by omega), fill_segment (by omega), fill_segment (by omega), Ristretto.ssidOf_answer, mul_comm w, ← smul_smul,
    ← hw, gen, Hn, Digest.answer_self (hl.trans h64.symm), not_or, not_or, not_or,
    smul_eq_zero (r := draw ((T.drop 64).take 64)), smul_eq_zero (r := draw ((T.drop 128).take 64))]
  exact ⟨hQ, hx, not_or.2 ⟨hya, hg⟩, not_or.2 ⟨hyb, hg⟩⟩

/-- **C101 (strong AuCPace with a stored key pair).** -/
theorem C101_aucpace_strong_stored (bufR buf : Buf) (s s' : σr) (user pass ps : Bytes) (params : Params) (W : RPoint) (q : Scalar)
    (hreg : Aucpace.Run.registerStrong ristretto255 D Hs rngR bufR s user pass params = .ok (.strongRegistration user q ps W, s'))
    (hQ : q • strongPoint ristretto255 D user pass ≠ 0)
    (db : StrongDatabase RPoint) (hdb : db.lookupVerifierStrong user = some (W, q, ps)) (kdb : PartialAugDatabase RPoint) (x : Scalar)
    (hk : kdb.lookupLongTermKeypair user = some (x, x • ristretto255.base)) (hx : x ≠ 0)
    (fromPs : Bytes → Params) (hps : fromPs ps = params) (hbuf : buf.fits user pass)
    (start : Start) (hstart : startOk start) (ci c : Bytes) (sv : Aucpace.Server.State Bytes) (r : Scalar) (hr : r ≠ 0)
    (hne : ¬ ssidOf D Rng.replay Rng.replay start c sv <+: user ++ pass) :
    {T : Bytes | T.length = 192 ∧ ¬ ∃ k,
      let D' := D.answer (inp 1 (ssidOf D Rng.replay Rng.replay start c sv ++ ristretto255.compress (x • W) ++ ci)) (T.drop 128)
      Aucpace.Run.loginStrong ristretto255 D' Hs Rng.replay Rng.replay (Aucpace.Run.explicit ristretto255 D' Rng.replay Rng.replay)
        fromPs buf db (some kdb) start user pass ci r c sv (T.take 64) ((T.drop 64).take 64) = .ok (k, k)}.ncard * 2 ^ 248 ≤
      256 ^ 192 := by
  refine three_count fun T hT hno => ?_
  by_contra hcon
  simp only [not_or] at hcon
  obtain ⟨hya, hyb, hg⟩ := hcon
  apply hno
  have hl : (T.drop 128).length = 64 := by rw [List.length_drop]; omega
  obtain ⟨hsp, hre⟩ := registerStrong_answer D h64 Hs rngR (bufR := bufR) (s := s) (params := params) (h := T.drop 128)
    (ne_of_not_prefix (p := ristretto255.compress (x • W)) (c := ci) hne)
  obtain ⟨w, hw, -, hrun⟩ := C33_agreement ristretto255 (D.answer (inp 1 (ssidOf D Rng.replay Rng.replay start c sv ++
      ristretto255.compress (x • W) ++ ci)) (T.drop 128)) Hs Rng.replay Rng.replay rngR h64 bufR buf s s' user pass
      ps params W q (hre.trans hreg) db hdb (some kdb) (by rintro _ ⟨rfl⟩; exact ⟨x, hk⟩) fromPs hps hbuf start hstart ci r hr c
      ((T.drop 64).take 64) sv (T.take 64)
  have hX : serverX Rng.replay (some kdb) user (T.take 64) = (x, T.take 64) := by simp [serverX, hk]
  refine ⟨_, hrun.trans (if_neg ?_)⟩
  rw [hsp, hX, Aucpace.replay_fill (b := T.take 64) (by rw [List.length_take]; omega), fill_segment (by omega),
    Ristretto.ssidOf_answer, mul_comm w, ← smul_smul, ← hw, gen, Hn, Digest.answer_self (hl.trans h64.symm), not_or, not_or, not_or,
    smul_eq_zero (r := draw (T.take 64)), smul_eq_zero (r := draw ((T.drop 64).take 64))]
  exact ⟨hQ, hx, not_or.2 ⟨hya, hg⟩, not_or.2 ⟨hyb, hg⟩⟩

/-- **C101 (accounts that can never be used).** If the product of a strong account's salt and the point of its credentials is neutral, every
login is refused; for credentials with a non-neutral point, at most one in `2^251` of the strings from which the salt is drawn does that. -/
theorem C101_unusable (bufR : Buf) (user pass : Bytes) (params : Params) :
    (∀ buf s s' ps W q, Aucpace.Run.registerStrong ristretto255 D Hs rngR bufR s user pass params =
        .ok (.strongRegistration user q ps W, s') → q • strongPoint ristretto255 D user pass = 0 →
      ∀ (db : StrongDatabase RPoint), db.lookupVerifierStrong user = some (W, q, ps) →
      ∀ (fromPs : Bytes → Params), fromPs ps = params → buf.fits user pass →
      ∀ start, startOk start → ∀ (ci c c' : Bytes) (r : Scalar) (sv : Aucpace.Server.State Bytes) (sr : Bytes), r ≠ 0 →
        Aucpace.Run.loginStrong ristretto255 D Hs Rng.replay Rng.replay (Aucpace.Run.explicit ristretto255 D Rng.replay Rng.replay)
          fromPs buf db none start user pass ci r c sv sr c' = .err .illegalPointError) ∧
    (strongPoint ristretto255 D user pass ≠ 0 →
      {b : Bytes | b.length = 64 ∧ ∃ q ps W s', Aucpace.Run.registerStrong ristretto255 D Hs Rng.replay bufR b user pass params =
        .ok (.strongRegistration user q ps W, s') ∧ q • strongPoint ristretto255 D user pass = 0}.ncard * 2 ^ 251 ≤ 256 ^ 64) := by
  refine ⟨fun buf s s' ps W q hreg hQ db hdb fromPs hps hbuf start hstart ci c c' r sv sr hr => ?_, fun hP => ?_⟩
  · obtain ⟨w, hw, -, hrun⟩ := C33_agreement ristretto255 D Hs Rng.replay Rng.replay rngR h64 bufR buf s s' user pass
      ps params W q hreg db hdb none (by simp) fromPs hps hbuf start hstart ci r hr c c' sv sr
    exact hrun.trans (if_pos (Or.inl hQ))
  · have hnum : 2 ^ 261 * 2 ^ 251 ≤ 256 ^ 64 := by decide +kernel
    refine le_trans (Nat.mul_le_mul_right _ (le_trans (Set.ncard_le_ncard ?_ ?_) (draw_count 0))) hnum
    · rintro b ⟨hb, q, ps, W, s', hreg, hQ⟩
      refine ⟨hb, ?_⟩
      rw [Aucpace.registerStrong_eq] at hreg
      split at hreg
      · obtain ⟨w, hw, hreg⟩ := Res.bind_eq_ok.1 hreg
        obtain ⟨ps', _, hreg⟩ := Res.bind_eq_ok.1 hreg
        simp only [Res.ok.injEq, Prod.mk.injEq, Aucpace.ClientMessage.strongRegistration.injEq] at hreg
        obtain ⟨⟨-, rfl, rfl, rfl⟩, -⟩ := hreg
        rw [Aucpace.replay_fill hb, smul_eq_zero, or_iff_left hP] at hQ
        exact hQ
      · cases hreg
    · exact (finite_bytes 64).subset fun b hb => hb.1

end

/-- **C101 (key pairs that can never be used).** At most one in `2^251` of the strings from which `generate_long_term_keypair` draws makes
a pair with exponent zero, and with such a pair every login is refused. -/
theorem C101_unusable_keypair (secret : Nat) :
    {b : Bytes | b.length = 64 ∧
      (Aucpace.Server.generateLongTermKeypair ristretto255 Rng.replay ⟨b, secret⟩).1 = (0, 0)}.ncard * 2 ^ 251 ≤ 256 ^ 64 ∧
    ∀ (D : Digest) (_ : D.outLen = 64) {Params : Type} (Hs : PwHasher Params) {σr : Type} (rngR : Rng σr) (bufR buf : Buf) (s s' : σr)
      (user pass salt ps : Bytes) (params : Params) (W : RPoint),
      Aucpace.Run.register ristretto255 Hs rngR bufR s user pass params = .ok (.registration user salt ps W, s') →
      ∀ (db : Database RPoint), db.lookupVerifier user = some (W, salt, ps) →
      ∀ (kdb : PartialAugDatabase RPoint), kdb.lookupLongTermKeypair user = some (0, 0) →
      ∀ (fromPs : Bytes → Params), fromPs ps = params → buf.fits user pass →
      ∀ start, startOk start → ∀ (ci c c' : Bytes) (sv : Aucpace.Server.State Bytes) (sr : Bytes),
        Aucpace.Run.login ristretto255 D Hs Rng.replay Rng.replay (Aucpace.Run.explicit ristretto255 D Rng.replay Rng.replay)
          fromPs buf db (some kdb) start user pass ci c sv sr c' = .err .illegalPointError := by
  refine ⟨?_, ?_⟩
  · have hnum : 2 ^ 261 * 2 ^ 251 ≤ 256 ^ 64 := by decide +kernel
    refine le_trans (Nat.mul_le_mul_right _ (le_trans (Set.ncard_le_ncard ?_ ?_) (draw_count 0))) hnum
    · rintro b ⟨hb, h⟩
      simp only [Aucpace.Server.generateLongTermKeypair, Aucpace.generateServerKeypair_eq, Aucpace.replay_fill hb, Prod.mk.injEq] at h
      exact ⟨hb, h.1⟩
    · exact (finite_bytes 64).subset fun b hb => hb.1
  · intro D h64 Params Hs σr rngR bufR buf s s' user pass salt ps params W hreg db hdb kdb hk fromPs hps hbuf start hstart ci c c' sv sr
    obtain ⟨w, hw, -, hrun⟩ := C32_agreement ristretto255 D Hs Rng.replay Rng.replay rngR h64 bufR buf s s' user pass
      salt ps params W hreg db hdb (some kdb) (by rintro _ ⟨rfl⟩; exact ⟨0, hk.trans (congrArg (fun z => some ((0 : Scalar), z)) (zero_smul Scalar ristretto255.base).symm)⟩) fromPs hps hbuf start hstart ci c
      c' sv sr
    exact hrun.trans (if_pos (Or.inl (by simp [serverX, hk])))

/-- **C101 (SRP).** In a group of a safe prime with a generator, of the `256^L` strings of `L` bytes for the server's private value at most
`256^L / (N - 1) + 1` make a login with the right password fail, whatever the client draws. -/
theorem C101_srp (D : Digest) {p : Srp.SrpGroup} (h : Srp.SafeGroup p) (hs : Srp.Spec.Sane p.n p.g) (L : Nat)
    (username pwd salt a : Bytes) :
    {b : Bytes | b.length = L ∧ Srp.authTest D p username pwd pwd salt b a ≠ .ok ()}.ncard ≤ 256 ^ L / (p.n - 1) + 1 := by
  have hn : 1 < p.n := h.1.one_lt
  have hc : Nat.Coprime p.g p.n := by
    have := Fact.mk h.1
    rw [← ZMod.isUnit_iff_coprime]
    exact isUnit_iff_ne_zero.2 (Srp.SafePrime.g_ne h)
  have key : ∀ b, Srp.authTest D p username pwd pwd salt b a ≠ .ok () →
      (p.g : ZMod p.n) ^ beToNat b = - ((Srp.Spec.k D p.n p.g : ZMod p.n) * Srp.Spec.v D p.n p.g username pwd salt) := by
    intro b hb
    rw [Srp.C93_srp_good D p hs hn hc] at hb
    split at hb
    · exact absurd rfl hb
    · rename_i h
      rw [not_not, Srp.Spec.B, add_comm] at h
      exact eq_neg_of_add_eq_zero_left h
  rw [← Finset.card_range (256 ^ L / (p.n - 1) + 1), ← Set.ncard_coe_finset]
  refine Set.ncard_le_ncard_of_injOn (fun b => beToNat b / (p.n - 1)) ?_ ?_ (Finset.finite_toSet _)
  · rintro b ⟨hb, -⟩
    have := beToNat_lt b
    rw [hb] at this
    rw [Finset.mem_coe, Finset.mem_range]
    exact Nat.lt_succ_of_le (Nat.div_le_div_right this.le)
  · rintro b ⟨hb, hf⟩ b' ⟨hb', hf'⟩ he
    refine beToNat_inj (hb.trans hb'.symm) ?_
    have hm : beToNat b % (p.n - 1) = beToNat b' % (p.n - 1) :=
      (Srp.SafePrime.pow_eq_iff h _ _).1 ((key b hf).trans (key b' hf').symm)
    rw [← Nat.div_add_mod (beToNat b) (p.n - 1), ← Nat.div_add_mod (beToNat b') (p.n - 1), hm,
      show beToNat b / (p.n - 1) = beToNat b' / (p.n - 1) from he]

/-! ## The hypotheses can be met -/

/-- The registration of `RealRun` meets the hypotheses of `C101_aucpace`; so some string of random bytes makes its logins succeed. -/
example : ∃ T : Bytes, T.length = 256 ∧ ∃ k,
    let D' := sha512.answer (inp 1 (ssidOf sha512 Rng.replay Rng.replay (.nonces 16) (Aucpace.World.bytes 2 100) Aucpace.World.server ++
        ristretto255.compress (draw (T.take 64) • ((Ristretto.RealRun.w : Scalar) • ristretto255.base)) ++ ascii "ci")) (T.drop 192)
    Aucpace.Run.login ristretto255 D' Aucpace.World.hasher Rng.replay Rng.replay
      (Aucpace.Run.explicit ristretto255 D' Rng.replay Rng.replay) (fun _ => ()) (.fixed 12) Ristretto.RealRun.db none (.nonces 16)
      Aucpace.World.user Aucpace.World.pass (ascii "ci") (Aucpace.World.bytes 2 100) Aucpace.World.server (T.take 128)
      ((T.drop 128).take 64) = .ok (k, k) := by
  by_contra hcon
  have h := C101_aucpace sha512 rfl Aucpace.World.hasher Rng.replay .alloc (.fixed 12) _ _ Aucpace.World.user Aucpace.World.pass _ _ _ _
    Ristretto.RealRun.registered Ristretto.RealRun.db (by rw [Ristretto.RealRun.db]; simp) (fun _ => ()) rfl (by decide)
    (.nonces 16) trivial (ascii "ci") (Aucpace.World.bytes 2 100) Aucpace.World.server
  have he : ∀ p : Bytes → Prop, (∀ T, T.length = 256 → p T) → {T : Bytes | T.length = 256 ∧ p T}.ncard = 256 ^ 256 := by
    intro p hp
    rw [← ncard_bytes]
    congr 1
    ext T
    exact ⟨fun h => h.1, fun h => ⟨h, hp T h⟩⟩
  rw [he _ fun T hT hk => hcon ⟨T, hT, hk⟩] at h
  exact absurd h (by decide +kernel)

/-- The hypotheses of `C101_aucpace_strong` can be met. -/
example : ∃ (q : Scalar) (W : RPoint) (s' : Bytes),
    Aucpace.Run.registerStrong ristretto255 Ristretto.constant Aucpace.World.hasher Rng.replay .alloc (Aucpace.World.bytes 7 64)
      Aucpace.World.user Aucpace.World.pass () = .ok (.strongRegistration Aucpace.World.user q (ascii "ln=1") W, s') ∧
    q • strongPoint ristretto255 Ristretto.constant Aucpace.World.user Aucpace.World.pass ≠ 0 ∧
    ¬ ssidOf Ristretto.constant Rng.replay Rng.replay (.nonces 16) (Aucpace.World.bytes 2 100) Aucpace.World.server <+:
      Aucpace.World.user ++ Aucpace.World.pass := by
  obtain ⟨w, hw⟩ : ∃ w, Aucpace.Spec.pwScalar Aucpace.World.hasher Aucpace.World.user Aucpace.World.pass
      (Base64.encode (ristretto255.compress (draw (Rng.replay.fill (Aucpace.World.bytes 7 64) 64).1 •
        strongPoint ristretto255 Ristretto.constant Aucpace.World.user Aucpace.World.pass))) () = .ok w := by
    simp only [Aucpace.Spec.pwScalar, Aucpace.World.hasher]
    have hl : sha512.outLen = 64 := rfl
    rw [if_pos (Or.inr ((Digest.hash_length sha512 _).trans hl))]
    exact ⟨_, rfl⟩
  refine ⟨draw (Rng.replay.fill (Aucpace.World.bytes 7 64) 64).1, w • ristretto255.base, (Rng.replay.fill (Aucpace.World.bytes 7 64) 64).2,
    ?_, ?_, fun h => ?_⟩
  · rw [Aucpace.registerStrong_eq, if_pos (by trivial)]
    simp only [hw, Res.bind_ok]
    rfl
  · rw [Ne, smul_eq_zero]
    exact not_or.2 ⟨by decide +kernel, Ristretto.RealRun.mapped_ne_zero⟩
  · have := h.length_le
    simp only [List.length_append, ssidOf, Aucpace.Spec.ssid, Hn, Digest.hash_length] at this
    have h1 : Aucpace.World.user.length + Aucpace.World.pass.length = 11 := by decide +kernel
    have h2 : Ristretto.constant.outLen = 64 := rfl
    omega

/-- In the smallest built-in group, with private values of 128 bytes, at most two of them fail. -/
example (username pwd salt a : Bytes) :
    {b : Bytes | b.length = 128 ∧ Srp.authTest sha256 Srp.Groups.G_1024 username pwd pwd salt b a ≠ .ok ()}.ncard ≤ 2 := by
  obtain ⟨h, hs, -⟩ := Srp.C62_builtin Srp.Groups.G_1024 (by simp)
  refine (C101_srp sha256 h hs 128 username pwd salt a).trans ?_
  decide +kernel

end Verif.Failure
