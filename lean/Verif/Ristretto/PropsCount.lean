import Verif.Ristretto.Count
import Verif.Ristretto.Run

/-!
# C68: how often the protocol meets the neutral element or a common generator

The map from hash outputs to ristretto255 hits every element rarely. "The hash answers `h` to one query" is the digest
`D.answer q h`, which differs from `D` at most at the input `q`; a bound on the number of answers is a bound on the
probability over a hash that is uniform at that input.
-/

set_option linter.unusedSectionVars false

namespace Verif

/-- The hash function that answers `h` to the query `q` and otherwise answers as `D`. -/
def Digest.answer (D : Digest) (q h : Bytes) : Digest where
  hash x := if x = q ∧ h.length = D.outLen then h else D.hash x
  outLen := D.outLen
  hash_length x := by
    split
    · rename_i h; exact h.2
    · exact D.hash_length x

theorem Digest.answer_self {D : Digest} {q h : Bytes} (hl : h.length = D.outLen) : (D.answer q h).hash q = h := by
  simp [Digest.answer, hl]

theorem Digest.answer_ne {D : Digest} {q h x : Bytes} (hx : x ≠ q) : (D.answer q h).hash x = D.hash x := by
  simp [Digest.answer, hx]

namespace Ristretto
open Ed25519 (Fe)
open Aucpace (Scalar Database StrongDatabase PartialAugDatabase PwHasher C32_agreement C33_agreement ssidOf startOk)
open Aucpace.Spec (inp Hn gen strongPoint MapCollision draw)
open Aucpace.Run (Buf Start serverX)

/-- A finite cover bounds the number of strings. -/
private theorem ncard_le_of_cover {p : Bytes → Prop} {n : Nat} (h : ∃ S : Finset Bytes, S.card ≤ n ∧ ∀ b, p b → b ∈ S) :
    {b | p b}.ncard ≤ n := by
  obtain ⟨S, hS, hm⟩ := h
  refine (Set.ncard_le_ncard (t := (S : Set Bytes)) (fun b hb => hm b hb) S.finite_toSet).trans ?_
  rwa [Set.ncard_coe_finset]

private theorem cover (g : RPoint) :
    ∃ S : Finset Bytes, S.card ≤ 2 ^ 263 ∧ ∀ b : Bytes, b.length = 64 → fromUniform b = g → b ∈ S := by
  obtain ⟨S, hS, hm⟩ := uniform_count g
  have h : 128 * 2 ^ 256 = 2 ^ 263 := by decide +kernel
  rw [h] at hS
  exact ⟨S, hS, hm⟩

/-- **C68 (map).** Every element of ristretto255 is the image of at most 32 field elements, and of at most `2^263` of
the `2^512` strings of 64 bytes. -/
theorem C68_map (g : RPoint) :
    {t : Fe | map t = g}.ncard ≤ 32 ∧
    {b : Bytes | b.length = 64 ∧ ristretto255.fromUniform b = g}.ncard ≤ 2 ^ 263 := by
  refine ⟨?_, ?_⟩
  · obtain ⟨S, hS, hm⟩ := map_count g
    refine (Set.ncard_le_ncard (t := (S : Set Fe)) (fun b hb => hm b hb) S.finite_toSet).trans ?_
    rwa [Set.ncard_coe_finset]
  · obtain ⟨S, hS, hm⟩ := cover g
    exact ncard_le_of_cover ⟨S, hS, fun b hb => hm b hb.1 hb.2⟩

/-- **C68 (image).** The map from strings reaches at least `2^249` elements. -/
theorem C68_image : 2 ^ 249 ≤ {g : RPoint | ∃ b : Bytes, b.length = 64 ∧ ristretto255.fromUniform b = g}.ncard := by
  classical
  have hlen : ∀ b ∈ strings 64, b.length = 64 := fun b hb => by
    obtain ⟨n, -, rfl⟩ := Finset.mem_image.1 hb
    exact leFixed_length 64 n
  have hcard := card_strings 64
  have hp : (256 : ℕ) ^ 64 = 2 ^ 263 * 2 ^ 249 := by decide +kernel
  rw [hp] at hcard
  have hpos : 0 < (2 : ℕ) ^ 263 := by decide +kernel
  have hmem := fun b : Bytes => mem_strings (n := 64) (b := b)
  have hcov := cover
  generalize (2 : ℕ) ^ 263 = K at hcard hpos hcov
  generalize (2 : ℕ) ^ 249 = L at hcard ⊢
  generalize strings 64 = A at hlen hcard hmem
  have h := Finset.card_le_mul_card_image (f := fromUniform) A K (fun g _ => by
    obtain ⟨S, hS, hm⟩ := hcov g
    refine (Finset.card_le_card fun b hb => ?_).trans hS
    rw [Finset.mem_filter] at hb
    exact hm b (hlen b hb.1) hb.2)
  rw [hcard] at h
  refine (Nat.le_of_mul_le_mul_left h hpos).trans ?_
  rw [← Set.ncard_coe_finset]
  refine Set.ncard_le_ncard (fun g hg => ?_) ?_
  · obtain ⟨b, hb, rfl⟩ := Finset.mem_image.1 hg
    exact ⟨b, hlen b hb, rfl⟩
  · refine (A.image fromUniform).finite_toSet.subset ?_
    rintro g ⟨b, hb, rfl⟩
    exact Finset.mem_image.2 ⟨b, hmem b hb, rfl⟩

/-- The SSID does not depend on answers to queries with index 1. -/
theorem ssidOf_answer {σc σs : Type} (rngC : Rng σc) (rngS : Rng σs) (D : Digest) (x h : Bytes)
    (start : Start) (c : σc) (sv : Aucpace.Server.State σs) :
    ssidOf (D.answer (inp 1 x) h) rngC rngS start c sv = ssidOf D rngC rngS start c sv := by
  have hne : ∀ y, inp 0 y ≠ inp 1 x := fun y h => absurd (Aucpace.inp_inj.1 h).1 (by decide)
  unfold ssidOf
  cases start with
  | nonces k =>
    simp only [Aucpace.Spec.ssid, Hn]
    exact Digest.answer_ne (hne _)
  | prestablished s =>
    simp only [Hn]
    exact Digest.answer_ne (hne _)

section
variable (D : Digest) (h64 : D.outLen = 64)
include h64

/-- **C68 (generator).** Whatever the session, of the `2^512` answers of the hash to the query for the CPace generator at
most `2^263` give a particular generator, for instance the neutral element. -/
theorem C68_generator (ssid prs ci : Bytes) (g : RPoint) :
    {h : Bytes | h.length = 64 ∧
      gen ristretto255 (D.answer (inp 1 (ssid ++ prs ++ ci)) h) ssid prs ci = g}.ncard ≤ 2 ^ 263 := by
  obtain ⟨S, hS, hm⟩ := cover g
  refine ncard_le_of_cover ⟨S, hS, fun h hh => hm h hh.1 ?_⟩
  have := hh.2
  rwa [gen, Hn, Digest.answer_self (hh.1.trans h64.symm)] at this

/-- **C68 (strong point).** The same for the point that a strong client blinds. -/
theorem C68_strong_point (user pass : Bytes) (g : RPoint) :
    {h : Bytes | h.length = 64 ∧
      strongPoint ristretto255 (D.answer (inp 1 (user ++ pass)) h) user pass = g}.ncard ≤ 2 ^ 263 := by
  obtain ⟨S, hS, hm⟩ := cover g
  refine ncard_le_of_cover ⟨S, hS, fun h hh => hm h hh.1 ?_⟩
  have := hh.2
  rwa [strongPoint, Hn, Digest.answer_self (hh.1.trans h64.symm)] at this

/-- **C68 (collisions of the map).** The exception named in C36-C38: two given inputs are mapped to the same generator
for at most `2^263` of the answers to the query for the first. -/
theorem C68_map_collision (x y : Bytes) :
    {h : Bytes | h.length = 64 ∧ MapCollision ristretto255 (D.answer (inp 1 x) h) x y}.ncard ≤ 2 ^ 263 := by
  obtain ⟨S, hS, hm⟩ := cover (ristretto255.fromUniform (Hn D 1 y))
  refine ncard_le_of_cover ⟨S, hS, fun h hh => hm h hh.1 ?_⟩
  obtain ⟨hne, he⟩ := hh.2
  rw [Hn, Digest.answer_self (hh.1.trans h64.symm), Hn, Digest.answer_ne] at he
  · exact he
  · exact fun h => hne ((Aucpace.inp_inj.1 h).2.symm)

section
variable {Params : Type} (Hs : PwHasher Params) {σc σs σr : Type} (rngC : Rng σc) (rngS : Rng σs) (rngR : Rng σr)

/-- **C68 (login).** An honest login after registration in which no random scalar is zero ends with the same key on both
sides, for all but at most `2^263` of the `2^512` answers of the hash to the query for the generator. -/
theorem C68_login
    (bufR buf : Buf) (s s' : σr) (user pass salt ps : Bytes) (params : Params) (W : RPoint)
    (hreg : Aucpace.Run.register ristretto255 Hs rngR bufR s user pass params = .ok (.registration user salt ps W, s'))
    (db : Database RPoint) (hdb : db.lookupVerifier user = some (W, salt, ps))
    (kdb : Option (PartialAugDatabase RPoint))
    (hk : ∀ k, kdb = some k → ∃ x, k.lookupLongTermKeypair user = some (x, x • ristretto255.base))
    (fromPs : Bytes → Params) (hps : fromPs ps = params) (hbuf : buf.fits user pass)
    (start : Start) (hstart : startOk start) (ci : Bytes)
    (c c' : σc) (sv : Aucpace.Server.State σs) (sr : σs)
    (hx : (serverX rngS kdb user sr).1 ≠ 0)
    (hya : draw (rngS.fill (serverX rngS kdb user sr).2 64).1 ≠ 0) (hyb : draw (rngC.fill c' 64).1 ≠ 0) :
    {h : Bytes | h.length = 64 ∧ ¬ ∃ k,
      let D' := D.answer (inp 1 (ssidOf D rngC rngS start c sv ++
        ristretto255.compress ((serverX rngS kdb user sr).1 • W) ++ ci)) h
      Aucpace.Run.login ristretto255 D' Hs rngC rngS (Aucpace.Run.explicit ristretto255 D' rngC rngS) fromPs buf db kdb
        start user pass ci c sv sr c' = .ok (k, k)}.ncard ≤ 2 ^ 263 := by
  obtain ⟨S, hS, hm⟩ := cover 0
  refine ncard_le_of_cover ⟨S, hS, fun h hh => hm h hh.1 ?_⟩
  obtain ⟨hl, hno⟩ := hh
  by_contra hg
  apply hno
  obtain ⟨w, hw, -, hrun⟩ := C32_agreement ristretto255
    (D.answer (inp 1 (ssidOf D rngC rngS start c sv ++
        ristretto255.compress ((serverX rngS kdb user sr).1 • W) ++ ci)) h) Hs rngC rngS rngR h64 bufR buf s s' user
      pass salt ps params W hreg db hdb kdb hk fromPs hps hbuf start hstart ci c c' sv sr
  refine ⟨_, hrun.trans (if_neg ?_)⟩
  rw [ssidOf_answer, mul_comm w, ← smul_smul, ← hw, gen, Hn, Digest.answer_self (hl.trans h64.symm),
    not_or, not_or, smul_eq_zero, smul_eq_zero]
  exact ⟨hx, not_or.2 ⟨hya, hg⟩, not_or.2 ⟨hyb, hg⟩⟩

/-- **C68 (strong login).** The same for the strong protocol, when the point of the credentials and the salt are not
zero and the credentials are not themselves the query for the generator. -/
theorem C68_strong_login
    (bufR buf : Buf) (s s' : σr) (user pass ps : Bytes) (params : Params) (W : RPoint) (q : Scalar)
    (hreg : Aucpace.Run.registerStrong ristretto255 D Hs rngR bufR s user pass params =
      .ok (.strongRegistration user q ps W, s'))
    (db : StrongDatabase RPoint) (hdb : db.lookupVerifierStrong user = some (W, q, ps))
    (kdb : Option (PartialAugDatabase RPoint))
    (hk : ∀ k, kdb = some k → ∃ x, k.lookupLongTermKeypair user = some (x, x • ristretto255.base))
    (fromPs : Bytes → Params) (hps : fromPs ps = params) (hbuf : buf.fits user pass)
    (start : Start) (hstart : startOk start) (ci : Bytes) (r : Scalar) (hr : r ≠ 0)
    (c c' : σc) (sv : Aucpace.Server.State σs) (sr : σs)
    (hq : q ≠ 0) (hz : strongPoint ristretto255 D user pass ≠ 0)
    (hne : user ++ pass ≠ ssidOf D rngC rngS start c sv ++
        ristretto255.compress ((serverX rngS kdb user sr).1 • W) ++ ci)
    (hx : (serverX rngS kdb user sr).1 ≠ 0)
    (hya : draw (rngS.fill (serverX rngS kdb user sr).2 64).1 ≠ 0) (hyb : draw (rngC.fill c' 64).1 ≠ 0) :
    {h : Bytes | h.length = 64 ∧ ¬ ∃ k,
      let D' := D.answer (inp 1 (ssidOf D rngC rngS start c sv ++
        ristretto255.compress ((serverX rngS kdb user sr).1 • W) ++ ci)) h
      Aucpace.Run.loginStrong ristretto255 D' Hs rngC rngS (Aucpace.Run.explicit ristretto255 D' rngC rngS) fromPs buf
        db kdb start user pass ci r c sv sr c' = .ok (k, k)}.ncard ≤ 2 ^ 263 := by
  obtain ⟨S, hS, hm⟩ := cover 0
  refine ncard_le_of_cover ⟨S, hS, fun h hh => hm h hh.1 ?_⟩
  obtain ⟨hl, hno⟩ := hh
  by_contra hg
  apply hno
  have hsp : strongPoint ristretto255 (D.answer (inp 1 (ssidOf D rngC rngS start c sv ++
        ristretto255.compress ((serverX rngS kdb user sr).1 • W) ++ ci)) h) user pass =
      strongPoint ristretto255 D user pass := by
    rw [strongPoint, strongPoint, Hn, Hn, Digest.answer_ne]
    exact fun h => hne (Aucpace.inp_inj.1 h).2
  have hreg' : Aucpace.Run.registerStrong ristretto255 (D.answer (inp 1 (ssidOf D rngC rngS start c sv ++
        ristretto255.compress ((serverX rngS kdb user sr).1 • W) ++ ci)) h) Hs rngR bufR s user pass params =
      .ok (.strongRegistration user q ps W, s') := by
    rw [← hreg, Aucpace.registerStrong_eq, Aucpace.registerStrong_eq, hsp]
  obtain ⟨w, hw, -, hrun⟩ := C33_agreement ristretto255
    (D.answer (inp 1 (ssidOf D rngC rngS start c sv ++
        ristretto255.compress ((serverX rngS kdb user sr).1 • W) ++ ci)) h) Hs rngC rngS rngR h64 bufR buf s s' user
      pass ps params W q hreg' db hdb kdb hk fromPs hps hbuf start hstart ci r hr c c' sv sr
  refine ⟨_, hrun.trans (if_neg ?_)⟩
  rw [ssidOf_answer, hsp, mul_comm w, ← smul_smul, ← hw, gen, Hn, Digest.answer_self (hl.trans h64.symm),
    not_or, not_or, not_or, smul_eq_zero, smul_eq_zero, smul_eq_zero]
  exact ⟨not_or.2 ⟨hq, hz⟩, hx, not_or.2 ⟨hya, hg⟩, not_or.2 ⟨hyb, hg⟩⟩

end

end

/-- The hypotheses of `C68_login` are met by the login of `RealRun`, which is one of those that succeed. -/
example :
    {h : Bytes | h.length = 64 ∧ ¬ ∃ k,
      let D' := sha512.answer (inp 1 (ssidOf sha512 Rng.replay Rng.replay (.nonces 16) (Aucpace.World.bytes 2 100) Aucpace.World.server ++
        ristretto255.compress ((serverX (G := RPoint) Rng.replay none Aucpace.World.user (Aucpace.World.bytes 3 200)).1 •
          ((RealRun.w : Scalar) • ristretto255.base)) ++ ascii "ci")) h
      Aucpace.Run.login ristretto255 D' Aucpace.World.hasher Rng.replay Rng.replay
        (Aucpace.Run.explicit ristretto255 D' Rng.replay Rng.replay) (fun _ => ()) (.fixed 12) RealRun.db none
        (.nonces 16) Aucpace.World.user Aucpace.World.pass (ascii "ci") (Aucpace.World.bytes 2 100) Aucpace.World.server (Aucpace.World.bytes 3 200)
        (Aucpace.World.bytes 4 100) = .ok (k, k)}.ncard ≤ 2 ^ 263 :=
  C68_login sha512 rfl Aucpace.World.hasher Rng.replay Rng.replay Rng.replay .alloc (.fixed 12) _ _ Aucpace.World.user Aucpace.World.pass _ _ _ _
    RealRun.registered RealRun.db (by rw [RealRun.db]; simp) none (by simp) (fun _ => ()) rfl (by decide)
    (.nonces 16) trivial (ascii "ci") (Aucpace.World.bytes 2 100) (Aucpace.World.bytes 4 100) Aucpace.World.server (Aucpace.World.bytes 3 200)
    (by rw [serverX]; decide +kernel) (by rw [serverX]; decide +kernel) (by decide +kernel)

/-- A digest with one value, for the next example. -/
def constant : Digest where
  hash _ := RealRun.seed
  outLen := 64
  hash_length _ := by decide +kernel

/-- The hypotheses of `C68_strong_login` can be met. -/
example : ∃ (q : Scalar) (W : RPoint) (s' : Bytes),
    Aucpace.Run.registerStrong ristretto255 constant Aucpace.World.hasher Rng.replay .alloc (Aucpace.World.bytes 7 64) Aucpace.World.user
      Aucpace.World.pass () = .ok (.strongRegistration Aucpace.World.user q (ascii "ln=1") W, s') ∧
    q ≠ 0 ∧ strongPoint ristretto255 constant Aucpace.World.user Aucpace.World.pass ≠ 0 ∧
    Aucpace.World.user ++ Aucpace.World.pass ≠
      ssidOf constant Rng.replay Rng.replay (.nonces 16) (Aucpace.World.bytes 2 100) Aucpace.World.server ++
        ristretto255.compress ((serverX (G := RPoint) Rng.replay none Aucpace.World.user (Aucpace.World.bytes 3 200)).1 • W) ++
          ascii "ci" := by
  obtain ⟨w, hw⟩ : ∃ w, Aucpace.Spec.pwScalar Aucpace.World.hasher Aucpace.World.user Aucpace.World.pass
      (Base64.encode (ristretto255.compress (draw (Rng.replay.fill (Aucpace.World.bytes 7 64) 64).1 •
        strongPoint ristretto255 constant Aucpace.World.user Aucpace.World.pass))) () = .ok w := by
    simp only [Aucpace.Spec.pwScalar, Aucpace.World.hasher]
    have hl : sha512.outLen = 64 := rfl
    rw [if_pos (Or.inr ((Digest.hash_length sha512 _).trans hl))]
    exact ⟨_, rfl⟩
  refine ⟨draw (Rng.replay.fill (Aucpace.World.bytes 7 64) 64).1, w • ristretto255.base, (Rng.replay.fill (Aucpace.World.bytes 7 64) 64).2, ?_, by decide +kernel,
    RealRun.mapped_ne_zero, fun h => ?_⟩
  · rw [Aucpace.registerStrong_eq, if_pos (by trivial)]
    simp only [hw, Res.bind_ok]
    rfl
  · have := congrArg List.length h
    simp only [List.length_append, ssidOf, Aucpace.Spec.ssid, Hn, Digest.hash_length] at this
    have h1 : Aucpace.World.user.length + Aucpace.World.pass.length = 11 := by decide +kernel
    have h2 : constant.outLen = 64 := rfl
    omega

/-- The bounds are about strings that exist: the string `seed` of the login of `RealRun` is among those counted. -/
example : RealRun.seed ∈ {b : Bytes | b.length = 64 ∧ ristretto255.fromUniform b = ristretto255.fromUniform RealRun.seed} ∧
    ristretto255.fromUniform RealRun.seed ≠ 0 :=
  ⟨⟨by decide +kernel, rfl⟩, RealRun.mapped_ne_zero⟩

end Ristretto

end Verif
