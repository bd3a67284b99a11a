import Verif.Basic.Confirm
import Mathlib.Algebra.MvPolynomial.CommRing
import Verif.Aucpace.RunLemmas
import Verif.Aucpace.World

/-!
# C94: how many candidates one session of AuCPace confirms

After a session an attacker can test as often as it likes whether an element that it has computed gives the authenticator or the key
of the other side. C84 bounds the attackers that name one key in a session. Here the attacker may go on computing and testing, with
all it has seen in all sessions, but computes in the group by adding multiples only. A session confirms at most one candidate.
-/

set_option linter.unusedSectionVars false

namespace Verif.Aucpace
open Spec Confirm

section
variable {G : Type} [AddCommGroup G] [Module Scalar G] [DecidableEq G] (R : Ristretto G) (D : Digest)

/-- Who the attacker talks to, and whether the sides authenticate each other explicitly. -/
inductive Victim where
  | client
  | clientImplicit
  | server
  | serverImplicit
  deriving DecidableEq

/-- The element `E` gives the authenticator or the key of a side that holds the private key `x` and is sent the public key `Y`:
the client sends an authenticator, the server accepts one, and with implicit authentication the key is used. -/
def Confirms (k : Victim) (ssid : Bytes) (x : Scalar) (Y E : G) : Prop :=
  match k with
  | .client => ∃ st, Client.receiveServerPubkey R D ⟨ssid, x⟩ Y = .ok (st, .authenticator (tb D ssid (Spec.sk1 R D ssid E)))
  | .clientImplicit => Client.implicitAuth R D ⟨ssid, x⟩ Y = .ok (sk D ssid (Spec.sk1 R D ssid E))
  | .server => ∃ st out, Server.receiveClientPubkey R D ⟨ssid, x⟩ Y = .ok st ∧
      (Server.receiveClientAuthenticator D st (tb D ssid (Spec.sk1 R D ssid E)) : Res Error (Bytes × ServerMessage G)) = .ok out
  | .serverImplicit => Server.implicitAuth R D ⟨ssid, x⟩ Y = .ok (sk D ssid (Spec.sk1 R D ssid E))

/-- The hash does not tell the keys of two elements apart. -/
def ElementCollision (ssid : Bytes) (K E : G) : Prop :=
  D.Collision (inp 2 (ssid ++ R.compress K)) (inp 2 (ssid ++ R.compress E)) ∨
  D.Collision (inp 4 (ssid ++ Spec.sk1 R D ssid K)) (inp 4 (ssid ++ Spec.sk1 R D ssid E)) ∨
  D.Collision (inp 5 (ssid ++ Spec.sk1 R D ssid K)) (inp 5 (ssid ++ Spec.sk1 R D ssid E))

theorem sk1_inj {ssid : Bytes} {K E : G} (h : Spec.sk1 R D ssid K = Spec.sk1 R D ssid E) : K = E ∨ ElementCollision R D ssid K E := by
  rcases D.eq_or_collision h with e | e
  · rw [inp_inj] at e
    exact Or.inl (R.compress_injective (List.append_cancel_left e.2))
  · exact Or.inr (Or.inl e)

theorem tb_inj {ssid : Bytes} {K E : G} (h : tb D ssid (Spec.sk1 R D ssid K) = tb D ssid (Spec.sk1 R D ssid E)) :
    K = E ∨ ElementCollision R D ssid K E := by
  rcases D.eq_or_collision h with e | e
  · rw [inp_inj] at e
    exact sk1_inj R D (List.append_cancel_left e.2)
  · exact Or.inr (Or.inr (Or.inl e))

theorem sk_inj {ssid : Bytes} {K E : G} (h : sk D ssid (Spec.sk1 R D ssid K) = sk D ssid (Spec.sk1 R D ssid E)) :
    K = E ∨ ElementCollision R D ssid K E := by
  rcases D.eq_or_collision h with e | e
  · rw [inp_inj] at e
    exact sk1_inj R D (List.append_cancel_left e.2)
  · exact Or.inr (Or.inr (Or.inr e))

theorem confirms (h64 : D.outLen = 64) {k : Victim} {ssid : Bytes} {x : Scalar} {Y E : G} (h : Confirms R D k ssid x Y E) :
    Y ≠ 0 ∧ (x • Y = E ∨ ElementCollision R D ssid (x • Y) E) := by
  cases k with
  | client =>
    obtain ⟨st, h⟩ := h
    rw [receiveServerPubkey_eq R D h64] at h
    split at h
    · cases h
    · rename_i hY
      simp only [Res.ok.injEq, Prod.mk.injEq, ClientMessage.authenticator.injEq] at h
      exact ⟨hY, tb_inj R D h.2⟩
  | clientImplicit =>
    have h : Client.implicitAuth R D ⟨ssid, x⟩ Y = _ := h
    rw [client_implicitAuth_eq] at h
    split at h
    · cases h
    · rename_i hY
      exact ⟨hY, sk_inj R D (Res.ok.inj h)⟩
  | server =>
    obtain ⟨st, out, h, h'⟩ := h
    rw [receiveClientPubkey_eq] at h
    split at h
    · cases h
    · rename_i hY
      cases Res.ok.inj h
      rw [receiveClientAuthenticator_eq D h64] at h'
      split at h'
      · rename_i e
        exact ⟨hY, tb_inj R D e⟩
      · cases h'
  | serverImplicit =>
    have h : Server.implicitAuth R D ⟨ssid, x⟩ Y = _ := h
    rw [server_implicitAuth_eq] at h
    split at h
    · cases h
    · rename_i hY
      exact ⟨hY, sk_inj R D (Res.ok.inj h)⟩

theorem confirms_self (h64 : D.outLen = 64) (k : Victim) (ssid : Bytes) (x : Scalar) {Y : G} (hY : Y ≠ 0) :
    Confirms R D k ssid x Y (x • Y) := by
  cases k with
  | client => exact ⟨_, by rw [receiveServerPubkey_eq R D h64, if_neg hY]⟩
  | clientImplicit => exact (client_implicitAuth_eq R D _ _).trans (if_neg hY)
  | server =>
    exact ⟨_, _, (receiveClientPubkey_eq R D _ _).trans (if_neg hY), (receiveClientAuthenticator_eq D h64 _ _).trans (if_pos rfl)⟩
  | serverImplicit => exact (server_implicitAuth_eq R D _ _).trans (if_neg hY)

/-- What is not known to the attacker of `n` sessions: the logarithms of the generators that belong to the candidates in each
session, the private keys of the other sides, and which candidate is right. -/
structure Unknown (n : Nat) (ι : Type) where
  gens : Fin n → ι → Scalar
  priv : Fin n → Scalar
  right : ι

/-- The elements known to the attacker besides the base point: the generators of all candidates and the public keys of the other
sides, which are multiples of the generator of the right candidate. -/
def logs {n : Nat} {ι : Type} (w : Unknown n ι) : (Fin n × ι) ⊕ Fin n → Scalar
  | .inl (s, j) => w.gens s j
  | .inr s => w.priv s * w.gens s w.right

/-- A test of the attacker: the element with the factors `c` against session `s`, to which the element with the factors `a` was sent. -/
def hits {n : Nat} {ι : Type} [Fintype ι] (kind : Fin n → Victim) (ssid : Fin n → Bytes) (w : Unknown n ι) (s : Fin n)
    (a c : Coef ((Fin n × ι) ⊕ Fin n) Scalar) : Prop :=
  Confirms R D (kind s) (ssid s) (w.priv s) (comb R.base (logs w) a) (comb R.base (logs w) c)

/-- The outcomes of the attacker's moves and what it has sent after `k` moves. -/
noncomputable def after {n : Nat} {ι : Type} [Fintype ι] (kind : Fin n → Victim) (ssid : Fin n → Bytes) (w : Unknown n ι)
    (A : List Bool → Move n ((Fin n × ι) ⊕ Fin n) Scalar) (k : Nat) : Confirm.State n ((Fin n × ι) ⊕ Fin n) Scalar :=
  run (real (hits R D kind ssid w) (logs w)) A k

/-- One of the attacker's first `T` tests meets a collision of the hash. -/
def MeetsCollision {n : Nat} {ι : Type} [Fintype ι] (kind : Fin n → Victim) (ssid : Fin n → Bytes) (w : Unknown n ι)
    (A : List Bool → Move n ((Fin n × ι) ⊕ Fin n) Scalar) (T : Nat) : Prop :=
  ∃ k < T, ∃ s c a, A (after R D kind ssid w A k).outcomes = .test s c ∧ (after R D kind ssid w A k).sent s = some a ∧
    ElementCollision R D (ssid s) (w.priv s • comb R.base (logs w) a) (comb R.base (logs w) c)

end

section
variable {G : Type} [AddCommGroup G] [Module Scalar G] [DecidableEq G] (R : Ristretto G) (D : Digest)

open MvPolynomial in
/-- `h E - y Y` is the zero polynomial only if `Y` is a multiple of `h`. -/
theorem cross_ne_zero {F τ : Type} [Field F] [Fintype τ] {a c : Coef τ F} {h y : τ} (hy : y ≠ h)
    (hz : (X h : MvPolynomial τ F) * form c - X y * form a = 0) : ∀ o ≠ some h, a o = 0 := by
  classical
  intro o ho
  let f : MvPolynomial τ F →ₐ[F] MvPolynomial τ F := aeval fun i => if i = h then 0 else X i
  have h0 := congrArg f hz
  have hX : f (X h) = 0 := by simp [f]
  have hY : f (X y) = X y := by simp [f, hy]
  rw [map_sub, map_mul, map_mul, hX, hY, zero_mul, zero_sub, map_zero, neg_eq_zero] at h0
  have hf : f (form a) = 0 := (mul_eq_zero.1 h0).resolve_left (X_ne_zero y)
  have hform : f (form a) = form (Function.update a (some h) 0) := by
    simp only [form, map_add, map_sum, map_mul]
    congr 1
    · simp [f]
    · refine Finset.sum_congr rfl fun i _ => ?_
      by_cases e : i = h
      · subst e; simp [f]
      · rw [Function.update_of_ne (by simpa using e)]
        simp [f, e]
  rw [hform] at hf
  have := form_eq_zero hf
  have := congrFun this o
  rwa [Function.update_of_ne ho] at this

/-- **C94 (AuCPace).** The attacker runs `n` sessions with clients and servers, whose session ids it may have chosen, and knows the
generators of all candidates for the shared secret and the public keys of the other sides. It computes with these elements by adding
multiples, compares results, sends one of them to each session and tests results against what the sessions have given away, `T` moves
in all, in an order that depends on all outcomes so far. Of the `|ι| * ell^(n * |ι| + n)` values of what it does not know, a test
succeeds for at most the share `n / |ι| + 2 T / ell`, apart from collisions of the hash and generators that are the neutral element. -/
theorem C94_aucpace (h64 : D.outLen = 64) {n : Nat} {ι : Type} [Fintype ι] (kind : Fin n → Victim) (ssid : Fin n → Bytes)
    (A : List Bool → Move n ((Fin n × ι) ⊕ Fin n) Scalar) (T : Nat) :
    ell * {w : Unknown n ι | (∀ s, w.gens s w.right ≠ 0) ∧ ¬ MeetsCollision R D kind ssid w A T ∧
        ∃ k < T, ∃ s c a, A (after R D kind ssid w A k).outcomes = .test s c ∧ (after R D kind ssid w A k).sent s = some a ∧
          Confirms R D (kind s) (ssid s) (w.priv s) (comb R.base (logs w) a) (comb R.base (logs w) c)}.ncard ≤
      (n * ell + 2 * T * Fintype.card ι) * ell ^ (n * Fintype.card ι + n) := by
  classical
  let back : (((Fin n × ι) ⊕ Fin n → Scalar) × ι) → Unknown n ι := fun u =>
    ⟨fun s j => u.1 (.inl (s, j)), fun s => u.1 (.inr s) * (u.1 (.inl (s, u.2)))⁻¹, u.2⟩
  have hlogs : ∀ u : ((Fin n × ι) ⊕ Fin n → Scalar) × ι, (∀ s, u.1 (.inl (s, u.2)) ≠ 0) → logs (back u) = u.1 := by
    intro u hu
    funext i
    rcases i with ⟨s, j⟩ | s
    · rfl
    · show u.1 (.inr s) * (u.1 (.inl (s, u.2)))⁻¹ * u.1 (.inl (s, u.2)) = _
      rw [mul_assoc, inv_mul_cancel₀ (hu s), mul_one]
  let hit : ((Fin n × ι) ⊕ Fin n → Scalar) → ι → Fin n → Coef ((Fin n × ι) ⊕ Fin n) Scalar →
      Coef ((Fin n × ι) ⊕ Fin n) Scalar → Prop := fun v j s a c =>
    Confirms R D (kind s) (ssid s) (v (.inr s) * (v (.inl (s, j)))⁻¹) (comb R.base v a) (comb R.base v c)
  let P : ι → Fin n → Coef ((Fin n × ι) ⊕ Fin n) Scalar → Coef ((Fin n × ι) ⊕ Fin n) Scalar →
      MvPolynomial ((Fin n × ι) ⊕ Fin n) Scalar := fun j s a c =>
    MvPolynomial.X (.inl (s, j)) * form c - MvPolynomial.X (.inr s) * form a
  let triv : Fin n → Coef ((Fin n × ι) ⊕ Fin n) Scalar → Set ι := fun s a =>
    {j | a (some (.inl (s, j))) ≠ 0 ∧ ∀ o ≠ some (.inl (s, j)), a o = 0}
  let S : Set (Unknown n ι) := {w : Unknown n ι | (∀ s, w.gens s w.right ≠ 0) ∧ ¬ MeetsCollision R D kind ssid w A T ∧
        ∃ k < T, ∃ s c a, A (after R D kind ssid w A k).outcomes = .test s c ∧ (after R D kind ssid w A k).sent s = some a ∧
          Confirms R D (kind s) (ssid s) (w.priv s) (comb R.base (logs w) a) (comb R.base (logs w) c)}
  let W : Set (((Fin n × ι) ⊕ Fin n → Scalar) × ι) :=
    {u | (∀ s, u.1 (.inl (s, u.2)) ≠ 0) ∧ ¬ MeetsCollision R D kind ssid (back u) A T}
  have hafter : ∀ u : ((Fin n × ι) ⊕ Fin n → Scalar) × ι, (∀ s, u.1 (.inl (s, u.2)) ≠ 0) → ∀ k,
      run (real (hit u.1 u.2) u.1) A k = after R D kind ssid (back u) A k := by
    intro u hu k
    rw [after, hlogs u hu]
    have : hits R D kind ssid (back u) = hit u.1 u.2 := by
      funext s a c
      simp only [hits, hlogs u hu, hit, back]
    rw [this]
  have hkey := card_succeeds (F := Scalar) hit P ?_ triv ?_ A T W ?_
  · have hcard : Fintype.card Scalar = ell := ZMod.card ell
    have hτ : Fintype.card ((Fin n × ι) ⊕ Fin n) = n * Fintype.card ι + n := by simp
    rw [hcard, hτ] at hkey
    refine le_trans (Nat.mul_le_mul_left _ ?_) hkey
    show S.ncard ≤ _
    have himg : S ⊆ back '' {u | u ∈ W ∧ Succeeds (real (hit u.1 u.2) u.1) A T} := by
      rintro ⟨g, x, j⟩ ⟨hg, hno, k, hk, s, c, a, h1, h2, h3⟩
      have hg : ∀ s, g s j ≠ 0 := hg
      let u : ((Fin n × ι) ⊕ Fin n → Scalar) × ι := (logs ⟨g, x, j⟩, j)
      have hu : ∀ s, u.1 (.inl (s, u.2)) ≠ 0 := hg
      have hb : back u = ⟨g, x, j⟩ := by
        have hx : (fun s => x s * g s j * (g s j)⁻¹) = x := by
          funext s
          rw [mul_assoc, mul_inv_cancel₀ (hg s), mul_one]
        exact congrArg (fun y => Unknown.mk g y j) hx
      refine ⟨u, ⟨⟨hu, by rw [hb]; exact hno⟩, k, hk, s, c, ?_, ?_⟩, hb⟩
      · rw [hafter u hu, hb, h1]
      · simp only [real, decide_eq_true_eq]
        refine ⟨a, by rw [hafter u hu, hb, h2], ?_⟩
        have hx : u.1 (.inr s) * (u.1 (.inl (s, u.2)))⁻¹ = x s := congrFun (congrArg Unknown.priv hb) s
        show Confirms R D _ _ (u.1 (.inr s) * (u.1 (.inl (s, u.2)))⁻¹) _ _
        rw [hx]
        exact h3
    exact (Set.ncard_le_ncard himg (Set.toFinite _)).trans (Set.ncard_image_le (Set.toFinite _))
  · intro j s a c
    refine (MvPolynomial.totalDegree_sub _ _).trans (max_le ?_ ?_) <;>
    · refine (MvPolynomial.totalDegree_mul _ _).trans ?_
      rw [MvPolynomial.totalDegree_X]
      have := form_degree a
      have := form_degree c
      omega
  · rintro s a i ⟨hi, hi'⟩ j ⟨hj, hj'⟩
    by_contra hne
    exact hi (hj' _ (by simpa using hne))
  · rintro ⟨v, j⟩ ⟨hu, hno⟩ k hk s c a h1 h2 h3
    rw [hafter (v, j) hu] at h1 h2
    obtain ⟨hY, h⟩ := confirms R D h64 h3
    have hl : logs (back (v, j)) = v := hlogs (v, j) hu
    rcases h with h | h
    swap
    · exact absurd ⟨k, hk, s, c, a, h1, h2, by rw [hl]; exact h⟩ hno
    have hh : v (.inl (s, j)) ≠ 0 := hu s
    rw [comb_eq] at hY
    have ha : val a v ≠ 0 := fun e => hY (by rw [e, zero_smul])
    rw [comb_eq, comb_eq, ← mul_smul] at h
    have hE := smul_left_injective Scalar R.base_ne_zero h
    have hE : v (.inr s) * (v (.inl (s, j)))⁻¹ * val a v = val c v := hE
    by_cases hP : P j s a c = 0
    · left
      have hz := cross_ne_zero (by simp) hP
      refine ⟨fun h0 => ?_, hz⟩
      apply ha
      have hall : a = 0 := by
        funext o
        by_cases e : o = some (.inl (s, j))
        · rw [e]; exact h0
        · exact hz o e
      simp [hall, val]
    · right
      refine ⟨hP, ?_⟩
      simp only [P, map_sub, map_mul, MvPolynomial.eval_X, eval_form]
      rw [← hE, sub_eq_zero]
      field_simp

/-- The factors of a single element. -/
def pick {τ : Type} [DecidableEq τ] (i : τ) : Coef τ Scalar := fun o => if o = some i then 1 else 0

theorem comb_pick {τ : Type} [DecidableEq τ] [Fintype τ] (v : τ → Scalar) (i : τ) : comb R.base v (pick i) = v i • R.base := by
  simp [comb, pick]

/-- **C94 (AuCPace, attained).** An attacker that sends the generator of a candidate `g s` to session `s`, and then tests the public
key of the other side, needs `2 n` moves to confirm any of `n` candidates, for all values of what it does not know. -/
theorem C94_aucpace_attained (h64 : D.outLen = 64) {n : Nat} [NeZero n] {ι : Type} [Fintype ι] [DecidableEq ι]
    (kind : Fin n → Victim) (ssid : Fin n → Bytes) (g : Fin n → ι) :
    ∃ A : List Bool → Move n ((Fin n × ι) ⊕ Fin n) Scalar, ∀ w : Unknown n ι, (∀ s, w.gens s w.right ≠ 0) →
      w.right ∈ Set.range g →
        ∃ k < 2 * n, ∃ s c a, A (after R D kind ssid w A k).outcomes = .test s c ∧ (after R D kind ssid w A k).sent s = some a ∧
          Confirms R D (kind s) (ssid s) (w.priv s) (comb R.base (logs w) a) (comb R.base (logs w) c) := by
  refine ⟨trial (fun s => pick (.inl (s, g s))) (fun s => pick (.inr s)), fun w hw hr => ?_⟩
  obtain ⟨s, hs⟩ := hr
  refine ⟨n + s.val, by omega, s, _, _, trial_test _ _ _ s, trial_sent _ _ _ _ s (by omega), ?_⟩
  rw [comb_pick, comb_pick]
  have e : logs w (.inl (s, g s)) = w.gens s w.right := by rw [← hs]; rfl
  have e' : logs w (.inr s) • R.base = w.priv s • w.gens s w.right • R.base := mul_smul _ _ _
  rw [e, e']
  refine confirms_self R D h64 _ _ _ ?_
  rw [smul_ne_zero_iff]
  exact ⟨hw s, R.base_ne_zero⟩

/-- **C94 (AuCPace, the elements).** What `C94_aucpace` calls the public key of the other side of session `s` is what the client and
the server send, if the generators `gens s j • base` are those of the candidates `prs j`; the private key is the one they keep. -/
theorem C94_aucpace_elements {σc σs : Type} (rngC : Rng σc) (rngS : Rng σs) {n : Nat} {ι : Type} (w : Unknown n ι) (s : Fin n)
    (ssid : Fin n → Bytes) (prs : ι → Bytes) (ci : Bytes) (hgen : gen R D (ssid s) (prs w.right) ci = w.gens s w.right • R.base)
    (c : σc) (t : σs) :
    (draw (rngC.fill c 64).1 = w.priv s → (Client.generatePublicKey R D rngC ⟨ssid s, prs w.right⟩ ci c).1 =
      (⟨ssid s, w.priv s⟩, .publicKey (logs w (.inr s) • R.base))) ∧
    (draw (rngS.fill t 64).1 = w.priv s → Server.generatePublicKey R D rngS ⟨ssid s, prs w.right, t⟩ ci =
      (⟨ssid s, w.priv s⟩, .publicKey (logs w (.inr s) • R.base))) := by
  have e : logs w (.inr s) • R.base = w.priv s • w.gens s w.right • R.base := mul_smul _ _ _
  constructor
  · intro h
    rw [client_generatePublicKey_eq, h, hgen, e]
  · intro h
    rw [server_generatePublicKey_eq]
    simp only [h, hgen, e]

/-- With two sessions and four candidates there are values of what is not known for which `C94_aucpace_attained` succeeds. -/
example : ∃ w : Unknown 2 (Fin 4), (∀ s, w.gens s w.right ≠ 0) ∧ w.right ∈ Set.range ![(1 : Fin 4), 3] :=
  ⟨⟨fun _ _ => 1, fun _ => 2, 3⟩, fun _ => one_ne_zero, 1, rfl⟩

end

end Verif.Aucpace
