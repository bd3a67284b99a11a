import Verif.Basic.Confirm
import Mathlib.Algebra.MvPolynomial.CommRing
import Mathlib.Algebra.MvPolynomial.NoZeroDivisors
import Verif.Spake2.Generic

/-!
# C94: how many candidates one session of SPAKE2 confirms

The SPAKE2 part of `Aucpace.Confirm`. The crate's constants `M`, `N`, `S` are three points of whose logarithms nothing is known; here
the logarithms are among what the attacker does not know, and the group is the crate's with these constants.
-/

namespace Verif.Spake2
open Ed25519 (Point base)
open Confirm

/-- The crate's group with other constants. -/
def edWith (M N S : Point) : GroupOps Scalar Point := { ed25519 with constM := .ok M, constN := .ok N, constS := .ok S }

/-- The point with the logarithm `k`. -/
def toPt (k : Scalar) : Point := k.val • base

theorem nsmul_base (n : Nat) : n • base = toPt (n : Scalar) := by
  rw [toPt, Ed25519.smul_base_eq_iff, ZMod.val_natCast, Nat.mod_mod]

theorem toPt_add (a b : Scalar) : toPt (a + b) = toPt a + toPt b := by
  have h : toPt a + toPt b = (a.val + b.val) • base := (add_nsmul _ _ _).symm
  rw [h, nsmul_base, Nat.cast_add, ZMod.natCast_zmod_val, ZMod.natCast_zmod_val]

theorem smul_toPt (n : Nat) (b : Scalar) : n • toPt b = toPt (n * b) := by
  have h : n • toPt b = (n * b.val) • base := (mul_nsmul' _ _ _).symm
  rw [h, nsmul_base, Nat.cast_mul, ZMod.natCast_zmod_val]

theorem val_smul_toPt (a b : Scalar) : a.val • toPt b = toPt (a * b) := by rw [smul_toPt, ZMod.natCast_zmod_val]

theorem toPt_inj {a b : Scalar} (h : toPt a = toPt b) : a = b := by
  rw [toPt, toPt, Ed25519.smul_base_eq_iff, Nat.mod_eq_of_lt (ZMod.val_lt a), Nat.mod_eq_of_lt (ZMod.val_lt b)] at h
  exact ZMod.val_injective _ h

theorem ell_toPt (a : Scalar) : ell • toPt a = 0 := by
  rw [smul_toPt, ZMod.natCast_self, zero_mul, toPt, ZMod.val_zero, zero_nsmul]

/-- The sum of multiples with the factors `c`. -/
def combPt {τ : Type} [Fintype τ] (v : τ → Scalar) (c : Coef τ Scalar) : Point :=
  (c none).val • base + ∑ i, (c (some i)).val • toPt (v i)

theorem combPt_eq {τ : Type} [Fintype τ] (v : τ → Scalar) (c : Coef τ Scalar) : combPt v c = toPt (val c v) := by
  have hsum : ∀ s : Finset τ, ∑ i ∈ s, (c (some i)).val • toPt (v i) = toPt (∑ i ∈ s, c (some i) * v i) := by
    classical
    intro s
    induction s using Finset.induction with
    | empty => rw [Finset.sum_empty, Finset.sum_empty, toPt, ZMod.val_zero, zero_nsmul]
    | insert a s ha ih => rw [Finset.sum_insert ha, Finset.sum_insert ha, ih, toPt_add, val_smul_toPt]
  rw [combPt, hsum, val, toPt_add]
  rfl

/-- The laws hold with other constants of the prime-order group. -/
def edWithLawful (μ ν σ : Scalar) : Lawful (edWith (toPt μ) (toPt ν) (toPt σ)) where
  base := base
  M := toPt μ
  N := toPt ν
  Sym := toPt σ
  rep := ZMod.val
  order := ell
  constM_eq := rfl
  constN_eq := rfl
  constS_eq := rfl
  order_M := ell_toPt μ
  order_N := ell_toPt ν
  order_S := ell_toPt σ
  hash_ok := fun pw => ⟨_, hashToScalar_eq pw⟩
  neg_eq := fun s => by
    rw [← CharP.cast_eq_zero_iff Scalar ell, Nat.cast_add, ZMod.natCast_zmod_val, ZMod.natCast_zmod_val]
    exact neg_add_cancel s
  basepointMult_eq := fun _ => rfl
  scalarmult_eq := fun _ _ => rfl
  add_eq := fun _ _ => rfl
  encode_length := Ed25519.compress_length
  decode_encode := fun P => by
    have h : (edWith (toPt μ) (toPt ν) (toPt σ)).bytesToElement ((edWith (toPt μ) (toPt ν) (toPt σ)).elementToBytes P) =
        ed25519BytesToElement (Ed25519.compress P) := by rw [edWith, ed25519]
    rw [h, ed25519BytesToElement, if_neg (not_not.2 (Ed25519.compress_length P)), Ed25519.decompress_compress]

/-- The password as a scalar. -/
def pwLog (pw : Bytes) : Scalar := (beToNat (Spec.hkdf48 pw) : Nat)

/-- Which constant a side adds, -/
def mineIx : Side → Fin 3
  | .A _ _ => 0
  | .B _ _ => 1
  | .symmetric _ => 2

/-- and which one it removes. -/
def peersIx : Side → Fin 3
  | .A _ _ => 1
  | .B _ _ => 0
  | .symmetric _ => 2

/-- What is not known to the attacker of `n` sessions: the logarithms of the three constants, the scalars of the sessions, and which
candidate is right. -/
structure Unknown (n : Nat) (ι : Type) where
  consts : Fin 3 → Scalar
  priv : Fin n → Scalar
  right : ι

/-- The group with the constants of `w`. -/
def groupOf {n : Nat} {ι : Type} (w : Unknown n ι) : GroupOps Scalar Point :=
  edWith (toPt (w.consts 0)) (toPt (w.consts 1)) (toPt (w.consts 2))

/-- The points known to the attacker besides the base point: the constants and what the sessions send. -/
def logs {n : Nat} {ι : Type} (side : Fin n → Side) (pw : ι → Bytes) (w : Unknown n ι) : Fin 3 ⊕ Fin n → Scalar
  | .inl i => w.consts i
  | .inr s => w.priv s + pwLog (pw w.right) * w.consts (mineIx (side s))

/-- The key of a session of `side` with the password `pw` and the scalar `x`, which is sent the point `Y`, is the hash of a transcript
with the point `E`, for some password. -/
def Confirms (G : GroupOps Scalar Point) (side : Side) (pw : Bytes) (x : Scalar) (Y E : Point) : Prop :=
  ∃ s m key pw', startInternal G side pw x = .ok (s, m) ∧ finish G s (Spec.accepts side :: Ed25519.compress Y) = .ok key ∧
    key = sha256.hash (Spec.transcript side pw' (m.drop 1) (Ed25519.compress Y) E)

theorem transcript_K {side : Side} {pw pw' own peer : Bytes} {K K' : Point}
    (h : Spec.transcript side pw own peer K = Spec.transcript side pw' own peer K') : K = K' := by
  refine Ed25519.compress_injective ?_
  have hl : (Ed25519.compress K).length = (Ed25519.compress K').length := by rw [Ed25519.compress_length, Ed25519.compress_length]
  cases side <;> exact (List.append_inj' h hl).2

/-- The element a session shares with the sender of `Y`. -/
def sharedWith {n : Nat} {ι : Type} (pw : ι → Bytes) (w : Unknown n ι) (s : Fin n) (side : Side) (Y : Point) : Point :=
  (w.priv s).val • (Y + toPt (-pwLog (pw w.right) * w.consts (peersIx side)))

theorem confirms_eq {n : Nat} {ι : Type} (pw : ι → Bytes) (w : Unknown n ι) (s : Fin n) (side : Side) (Y E : Point) :
    Confirms (groupOf w) side (pw w.right) (w.priv s) Y E ↔
      ∃ pw', sha256.hash (Spec.transcript side (pw w.right)
        (Ed25519.compress (toPt (w.priv s + pwLog (pw w.right) * w.consts (mineIx side)))) (Ed25519.compress Y)
          (sharedWith pw w s side Y)) =
        sha256.hash (Spec.transcript side pw'
          (Ed25519.compress (toPt (w.priv s + pwLog (pw w.right) * w.consts (mineIx side)))) (Ed25519.compress Y) E) := by
  let L := edWithLawful (w.consts 0) (w.consts 1) (w.consts 2)
  have hw : (groupOf w).hashToScalar (pw w.right) = .ok (pwLog (pw w.right)) := hashToScalar_eq _
  have hmine : L.mine side = toPt (w.consts (mineIx side)) := by cases side <;> rfl
  have hpeers : L.peers side = toPt (w.consts (peersIx side)) := by cases side <;> rfl
  have hown : L.rep (w.priv s) • L.base + L.rep (pwLog (pw w.right)) • L.mine side =
      toPt (w.priv s + pwLog (pw w.right) * w.consts (mineIx side)) := by
    rw [hmine, toPt_add, ← val_smul_toPt]
    rfl
  have hstart := L.start_eq side hw (w.priv s)
  have hfin := L.finish_eq (L.state side (pw w.right) (pwLog (pw w.right)) (w.priv s)) (c := Spec.accepts side)
    (L.encode_length Y) rfl (L.decode_encode Y)
  have hK : L.rep (w.priv s) • (Y + L.rep ((groupOf w).scalarNeg (pwLog (pw w.right))) • L.peers side) =
      sharedWith pw w s side Y := by
    rw [hpeers]
    show (w.priv s).val • (Y + (-pwLog (pw w.right)).val • _) = _
    rw [val_smul_toPt]
    rfl
  have hfin' : finish (groupOf w) (L.state side (pw w.right) (pwLog (pw w.right)) (w.priv s))
      (Spec.accepts side :: Ed25519.compress Y) = .ok (sha256.hash (Spec.transcript side (pw w.right)
        (Ed25519.compress (toPt (w.priv s + pwLog (pw w.right) * w.consts (mineIx side)))) (Ed25519.compress Y)
          (sharedWith pw w s side Y))) := by
    refine hfin.trans ?_
    rw [← hown, ← hK]
    exact deriveKey_eq side _ _ _ _ (Ed25519.compress_length _) (Ed25519.compress_length _)
  have hm : (Spec.letter side :: (groupOf w).elementToBytes (L.rep (w.priv s) • L.base + L.rep (pwLog (pw w.right)) • L.mine side)).drop 1 =
      Ed25519.compress (toPt (w.priv s + pwLog (pw w.right) * w.consts (mineIx side))) := by
    rw [hown]
    rfl
  constructor
  · rintro ⟨st, m, key, pw', h1, h2, h3⟩
    have h1' := hstart.symm.trans h1
    simp only [Res.ok.injEq, Prod.mk.injEq] at h1'
    obtain ⟨rfl, rfl⟩ := h1'
    have h2' := Res.ok.inj (hfin'.symm.trans h2)
    refine ⟨pw', ?_⟩
    rw [h2', h3]
    exact congrArg (fun o => sha256.hash (Spec.transcript side pw' o _ E)) hm
  · rintro ⟨pw', h⟩
    refine ⟨_, _, _, pw', hstart, hfin', ?_⟩
    rw [h]
    exact congrArg (fun o => sha256.hash (Spec.transcript side pw' o _ E)) hm.symm

/-- A test of the attacker: the point with the factors `c` against session `s`, to which the point with the factors `a` was sent. Points of
small order may be added to both. -/
def hits {n : Nat} {ι : Type} (side : Fin n → Side) (pw : ι → Bytes) (w : Unknown n ι) (s : Fin n)
    (a c : Coef (Fin 3 ⊕ Fin n) Scalar) : Prop :=
  ∃ t t' : Point, 8 • t = 0 ∧ 8 • t' = 0 ∧ Confirms (groupOf w) (side s) (pw w.right) (w.priv s)
    (combPt (logs side pw w) a + t) (combPt (logs side pw w) c + t')

/-- The outcomes of the attacker's moves and what it has sent after `k` moves. -/
noncomputable def after {n : Nat} {ι : Type} (side : Fin n → Side) (pw : ι → Bytes) (w : Unknown n ι)
    (A : List Bool → Move n (Fin 3 ⊕ Fin n) Scalar) (k : Nat) : Confirm.State n (Fin 3 ⊕ Fin n) Scalar :=
  run (real (hits side pw w) (logs side pw w)) A k

/-- One of the attacker's first `T` tests meets a collision of SHA-256 between the transcript of the session and another one. -/
def MeetsCollision {n : Nat} {ι : Type} (side : Fin n → Side) (pw : ι → Bytes) (w : Unknown n ι)
    (A : List Bool → Move n (Fin 3 ⊕ Fin n) Scalar) (T : Nat) : Prop :=
  ∃ k < T, ∃ s c a, A (after side pw w A k).outcomes = .test s c ∧ (after side pw w A k).sent s = some a ∧
    ∃ t t' pw', 8 • t = 0 ∧ 8 • t' = 0 ∧ sha256.Collision
      (Spec.transcript (side s) (pw w.right) (Ed25519.compress (toPt (logs side pw w (.inr s))))
        (Ed25519.compress (combPt (logs side pw w) a + t)) (sharedWith pw w s (side s) (combPt (logs side pw w) a + t)))
      (Spec.transcript (side s) pw' (Ed25519.compress (toPt (logs side pw w (.inr s))))
        (Ed25519.compress (combPt (logs side pw w) a + t)) (combPt (logs side pw w) c + t'))

open MvPolynomial in
/-- A product of two sums is a sum only if one of them is constant. -/
theorem product_const {F τ : Type} [Field F] [Fintype τ] {a b c : Coef τ F} {i : τ} (hb : b (some i) ≠ 0)
    (hz : form c = form b * form a) : ∀ k, a (some k) = 0 := by
  classical
  intro k
  by_cases ha : form a = 0
  · rw [form_eq_zero ha]; rfl
  have hconst : ∀ d : Coef τ F, (form d).totalDegree = 0 → ∀ k, d (some k) = 0 := by
    intro d hd k
    rw [totalDegree_eq_zero_iff_eq_C] at hd
    have h : form (d - fun o => if o = none then coeff 0 (form d) else 0) = 0 := by
      have : form (d - fun o => if o = none then coeff 0 (form d) else 0) = form d - C (coeff 0 (form d)) := by
        simp only [form, Pi.sub_apply, if_true, reduceCtorEq, if_false, sub_zero, map_sub]
        ring
      rw [this, ← hd, sub_self]
    simpa using congrFun (form_eq_zero h) (some k)
  have hb0 : form b ≠ 0 := fun h => hb (by rw [form_eq_zero h]; rfl)
  have hb1 : 1 ≤ (form b).totalDegree := by
    by_contra h
    exact hb (hconst b (by omega) i)
  have hd := totalDegree_mul_of_isDomain hb0 ha
  rw [← hz] at hd
  have hc := form_degree c
  exact hconst a (by omega) k

theorem eight_ne_zero : (8 : Scalar) ≠ 0 := by
  have : ((8 : Nat) : Scalar) ≠ 0 := by
    rw [Ne, ZMod.natCast_eq_zero_iff]
    intro h
    have h8 := Nat.le_of_dvd (by norm_num) h
    exact absurd h8 (by decide +kernel)
  exact_mod_cast this

/-- The parts of small order do not matter. -/
theorem eight_parts {x A B C : Scalar} {t t' : Point} (ht : 8 • t = 0) (ht' : 8 • t' = 0)
    (h : x.val • (toPt A + t + toPt B) = toPt C + t') : x * (A + B) = C := by
  have h8 := congrArg (fun P : Point => 8 • P) h
  have e1 : 8 • (x.val • (toPt A + t + toPt B)) = toPt ((8 : Nat) * (x * (A + B))) := by
    rw [smul_comm, add_right_comm, ← toPt_add, nsmul_add, ht, add_zero, smul_comm, val_smul_toPt, smul_toPt]
  have e2 : 8 • (toPt C + t') = toPt ((8 : Nat) * C) := by rw [nsmul_add, ht', add_zero, smul_toPt]
  have h9 := toPt_inj (e1.symm.trans (h8.trans e2))
  exact mul_left_cancel₀ (by exact_mod_cast eight_ne_zero) h9

/-- **C94 (SPAKE2).** The attacker runs `n` sessions, of sides and identities of its choice, and knows the constants and what the sessions
send. It computes with these points by adding multiples, compares results, sends one of them to each session, possibly with a point of small
order added, and tests results against the keys of the sessions, `T` moves in all, in an order that depends on all outcomes so far. The
scalars of the candidate passwords differ. Of the `|ι| * ell^(n + 3)` values of what it does not know, a test succeeds for at most the
share `n / |ι| + 2 T / ell`, apart from collisions of SHA-256. -/
theorem C94_spake2 {n : Nat} {ι : Type} [Fintype ι] (side : Fin n → Side) (pw : ι → Bytes)
    (hpw : Function.Injective fun j => pwLog (pw j)) (A : List Bool → Move n (Fin 3 ⊕ Fin n) Scalar) (T : Nat) :
    ell * {w : Unknown n ι | ¬ MeetsCollision side pw w A T ∧
        ∃ k < T, ∃ s c a, A (after side pw w A k).outcomes = .test s c ∧ (after side pw w A k).sent s = some a ∧
          ∃ t t' : Point, 8 • t = 0 ∧ 8 • t' = 0 ∧ Confirms (groupOf w) (side s) (pw w.right) (w.priv s)
            (combPt (logs side pw w) a + t) (combPt (logs side pw w) c + t')}.ncard ≤
      (n * ell + 2 * T * Fintype.card ι) * ell ^ (n + 3) := by
  classical
  let q : ι → Scalar := fun j => pwLog (pw j)
  let back : ((Fin 3 ⊕ Fin n → Scalar) × ι) → Unknown n ι := fun u =>
    ⟨fun i => u.1 (.inl i), fun s => u.1 (.inr s) - q u.2 * u.1 (.inl (mineIx (side s))), u.2⟩
  have hlogs : ∀ u, logs side pw (back u) = u.1 := by
    intro u
    funext i
    rcases i with i | s
    · rfl
    · exact sub_add_cancel _ _
  let fwd : Unknown n ι → (Fin 3 ⊕ Fin n → Scalar) × ι := fun w => (logs side pw w, w.right)
  have hback : ∀ w, back (fwd w) = w := by
    rintro ⟨g, x, j⟩
    have hx : (fun s => x s + q j * g (mineIx (side s)) - q j * g (mineIx (side s))) = x := by
      funext s
      exact add_sub_cancel_right _ _
    exact congrArg (fun y => Unknown.mk g y j) hx
  let hit : (Fin 3 ⊕ Fin n → Scalar) → ι → Fin n → Coef (Fin 3 ⊕ Fin n) Scalar → Coef (Fin 3 ⊕ Fin n) Scalar → Prop :=
    fun v j => hits side pw (back (v, j))
  let b : ι → Fin n → Coef (Fin 3 ⊕ Fin n) Scalar := fun j s o =>
    (if o = some (.inr s) then 1 else 0) - q j * if o = some (.inl (mineIx (side s))) then 1 else 0
  let d : ι → Fin n → Coef (Fin 3 ⊕ Fin n) Scalar → Coef (Fin 3 ⊕ Fin n) Scalar := fun j s a o =>
    a o - q j * if o = some (.inl (peersIx (side s))) then 1 else 0
  have hbval : ∀ j s v, val (b j s) v = v (.inr s) - q j * v (.inl (mineIx (side s))) := by
    intro j s v
    simp [val, b, sub_mul, Finset.sum_sub_distrib]
  have hdval : ∀ j s a v, val (d j s a) v = val a v - q j * v (.inl (peersIx (side s))) := by
    intro j s a v
    simp [val, d, sub_mul, Finset.sum_sub_distrib, add_sub_assoc]
  let P : ι → Fin n → Coef (Fin 3 ⊕ Fin n) Scalar → Coef (Fin 3 ⊕ Fin n) Scalar → MvPolynomial (Fin 3 ⊕ Fin n) Scalar :=
    fun j s a c => form c - form (b j s) * form (d j s a)
  let triv : Fin n → Coef (Fin 3 ⊕ Fin n) Scalar → Set ι := fun s a => {j | a (some (.inl (peersIx (side s)))) = q j}
  have hafter : ∀ u : (Fin 3 ⊕ Fin n → Scalar) × ι, ∀ k, run (real (hit u.1 u.2) u.1) A k = after side pw (back u) A k := by
    intro u k
    rw [after, hlogs u]
  let W : Set ((Fin 3 ⊕ Fin n → Scalar) × ι) := {u | ¬ MeetsCollision side pw (back u) A T}
  have hkey := card_succeeds (F := Scalar) hit P ?_ triv ?_ A T W ?_
  · have hcard : Fintype.card Scalar = ell := ZMod.card ell
    have hτ : Fintype.card (Fin 3 ⊕ Fin n) = n + 3 := by simp [add_comm]
    rw [hcard, hτ] at hkey
    refine le_trans (Nat.mul_le_mul_left _ ?_) hkey
    have hinj : Function.Injective fwd := fun w w' h => by rw [← hback w, ← hback w', h]
    rw [← Set.ncard_image_of_injective _ hinj]
    refine Set.ncard_le_ncard ?_ (Set.toFinite _)
    rintro - ⟨w, ⟨hno, k, hk, s, c, a, h1, h2, h3⟩, rfl⟩
    refine ⟨?_, k, hk, s, c, ?_, ?_⟩
    · show ¬ MeetsCollision side pw (back (fwd w)) A T
      rw [hback]; exact hno
    · rw [hafter, hback, h1]
    · simp only [real, decide_eq_true_eq]
      refine ⟨a, by rw [hafter, hback, h2], ?_⟩
      show hits side pw (back (fwd w)) s a c
      rw [hback]
      exact h3
  · intro j s a c
    refine (MvPolynomial.totalDegree_sub _ _).trans (max_le ((form_degree c).trans (by norm_num)) ?_)
    refine (MvPolynomial.totalDegree_mul _ _).trans ?_
    have := form_degree (b j s)
    have := form_degree (d j s a)
    omega
  · intro s a i hi j hj
    exact hpw (hi.symm.trans hj : q i = q j)
  · rintro ⟨v, j⟩ hno k hk s c a h1 h2 ⟨t, t', ht, ht', h3⟩
    rw [hafter] at h1 h2
    have hl : logs side pw (back (v, j)) = v := hlogs (v, j)
    obtain ⟨pw', h⟩ := (confirms_eq pw (back (v, j)) s (side s) _ _).1 h3
    rcases sha256.eq_or_collision h with e | e
    swap
    · exact absurd ⟨k, hk, s, c, a, h1, h2, t, t', pw', ht, ht', e⟩ hno
    have hK := transcript_K e
    rw [hl, combPt_eq, combPt_eq] at hK
    have hval : val (b j s) v * val (d j s a) v = val c v := by
      have h8 := eight_parts ht ht' hK
      rw [hbval, hdval]
      rw [← h8]
      show _ = (v (.inr s) - q j * v (.inl (mineIx (side s)))) * (val a v + -q j * v (.inl (peersIx (side s))))
      ring
    by_cases hP : P j s a c = 0
    · left
      have hz := product_const (i := .inr s) (by simp [b]) (sub_eq_zero.1 hP)
      have := hz (.inl (peersIx (side s)))
      simp only [d, if_true, mul_one] at this
      exact sub_eq_zero.1 this
    · right
      refine ⟨hP, ?_⟩
      simp only [P, map_sub, map_mul, eval_form]
      rw [hval, sub_self]

/-- **C94 (SPAKE2, attained).** An attacker that answers session `s` as an honest peer with the password of a candidate `g s` and the
scalar `1`, and then tests the point which that candidate would share, needs `2 n` moves to confirm any of `n` candidates, for all values of
what it does not know. -/
theorem C94_spake2_attained {n : Nat} [NeZero n] {ι : Type} (side : Fin n → Side) (pw : ι → Bytes) (g : Fin n → ι) :
    ∃ A : List Bool → Move n (Fin 3 ⊕ Fin n) Scalar, ∀ w : Unknown n ι, w.right ∈ Set.range g →
      ∃ k < 2 * n, ∃ s c a, A (after side pw w A k).outcomes = .test s c ∧ (after side pw w A k).sent s = some a ∧
        Confirms (groupOf w) (side s) (pw w.right) (w.priv s) (combPt (logs side pw w) a) (combPt (logs side pw w) c) := by
  classical
  let a : Fin n → Coef (Fin 3 ⊕ Fin n) Scalar := fun s o => match o with
    | none => 1
    | some i => if i = .inl (peersIx (side s)) then pwLog (pw (g s)) else 0
  let c : Fin n → Coef (Fin 3 ⊕ Fin n) Scalar := fun s o => match o with
    | none => 0
    | some i => (if i = .inr s then 1 else 0) - if i = .inl (mineIx (side s)) then pwLog (pw (g s)) else 0
  refine ⟨trial a c, fun w hr => ?_⟩
  obtain ⟨s, hs⟩ := hr
  refine ⟨n + s.val, by omega, s, c s, a s, trial_test _ _ _ s, trial_sent _ _ _ _ s (by omega), ?_⟩
  rw [confirms_eq]
  refine ⟨pw w.right, ?_⟩
  have ha : val (a s) (logs side pw w) = 1 + pwLog (pw w.right) * w.consts (peersIx (side s)) := by
    simp [val, a, hs, logs]
  have hc : val (c s) (logs side pw w) = w.priv s := by
    simp [val, c, hs, logs, sub_mul, Finset.sum_sub_distrib]
  have : sharedWith pw w s (side s) (combPt (logs side pw w) (a s)) = combPt (logs side pw w) (c s) := by
    rw [sharedWith, combPt_eq, combPt_eq, ← toPt_add, val_smul_toPt, ha, hc]
    congr 1
    ring
  rw [this]

/-- **C94 (SPAKE2, the crate).** The crate's group is the one of some values of what the attacker does not know. -/
theorem C94_spake2_crate : ∃ consts : Fin 3 → Scalar, ∀ (n : Nat) (ι : Type) (priv : Fin n → Scalar) (right : ι),
    groupOf ⟨consts, priv, right⟩ = ed25519 := by
  obtain ⟨m, -, hm⟩ := Ed25519.exists_base ell_M
  obtain ⟨k, -, hk⟩ := Ed25519.exists_base ell_N
  obtain ⟨l, -, hl⟩ := Ed25519.exists_base ell_S
  refine ⟨![(m : Scalar), (k : Scalar), (l : Scalar)], fun n ι priv right => ?_⟩
  show edWith (toPt m) (toPt k) (toPt l) = ed25519
  rw [← nsmul_base, ← nsmul_base, ← nsmul_base, ← hm, ← hk, ← hl]
  simp only [edWith, ← constM_eq, ← constN_eq, ← constS_eq]

/-- The scalars of two passwords differ. -/
example : Function.Injective fun j : Bool => pwLog (cond j (ascii "other") (ascii "secret")) := by
  have h : pwLog (ascii "other") ≠ pwLog (ascii "secret") := by
    have h : Spec.pwNum (ascii "other") ≠ Spec.pwNum (ascii "secret") := by decide +kernel
    exact fun e => h ((ZMod.natCast_eq_natCast_iff' _ _ _).1 e)
  intro i j hij
  cases i <;> cases j
  · rfl
  · exact absurd hij.symm h
  · exact absurd hij h
  · rfl

end Verif.Spake2
