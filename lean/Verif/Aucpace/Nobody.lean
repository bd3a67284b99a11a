import Verif.Aucpace.Unbounded
import Verif.Ristretto.PropsCount
import Mathlib.Data.Nat.Choose.Bounds

/-!
# C102: nobody logs in to an account that does not exist

For a user that the database does not know the server draws the password-related string at random (aucpace/src/server.rs:437-515). Here it is
counted how often the attacker of C100, which has no computational bound, is accepted as such a user: it sees the public keys of `n` sessions,
asks for hash values and sends each session one public key with an authenticator, or with what it takes for the session key.
-/

set_option linter.unusedSectionVars false

namespace Verif.Aucpace.Nobody
open Spec Run Guess Touch Attack Unbounded

/-- A password-related string that the server draws (`[u8; 32]`, aucpace/src/server.rs:447-451, 489-493). -/
abbrev Prs := {b : Bytes // b.length = 32}

instance : Finite Prs := finite_bytes 32

noncomputable instance : Fintype Prs := Fintype.ofFinite _

instance : Nonempty Prs := ⟨⟨List.replicate 32 0, by simp⟩⟩

theorem card_prs : Nat.card Prs = 2 ^ 256 := by
  have e : (Nat.card Prs) = {b : Bytes | b.length = 32}.ncard := Nat.card_coe_set_eq _
  rw [e, ncard_bytes]
  decide +kernel

variable {G : Type} [AddCommGroup G] [Module Scalar G] [DecidableEq G] {R : Ristretto G} {D : Digest} {n : Nat}

/-! ## What the server does for an unknown user -/

/-- The number of bytes that the server draws before the password-related string: 64 for its own key pair, or for a point in place of the public
key if there is no long-term key pair for this user (aucpace/src/server.rs:245-273). -/
def skip (kdb : Option (PartialAugDatabase G)) (user : Bytes) : Nat :=
  match kdb with
  | none => 64
  | some k => if (k.lookupLongTermKeypair user).isSome then 0 else 64

theorem fill_append {p r : Bytes} {k : Nat} (h : p.length = k) : Rng.replay.fill (p ++ r) k = (p, r) := by
  show ((p ++ r ++ List.replicate k 0).take k, (p ++ r).drop k) = _
  rw [List.append_assoc, ← h, List.take_left, List.drop_left]

theorem start_unknown {D : Digest} (h64 : D.outLen = 64) {db : Database G} {kdb : Option (PartialAugDatabase G)} {secret : Nat}
    {user ssid ci pre : Bytes} (hdb : db.lookupVerifier user = none) (hpre : pre.length = skip kdb user) (p : Prs) {b : Bytes}
    (hb : b.length = 64) :
    start R D db kdb secret user ssid ci (pre ++ p.1) b = some (⟨ssid, draw b⟩, draw b • gen R D ssid p.1 ci) := by
  have key : ∃ m, serverInfo R D Rng.replay db kdb ⟨secret, ssid⟩ user (pre ++ p.1 ++ b) = .ok (⟨ssid, p.1, b⟩, m) := by
    rw [List.append_assoc]
    cases kdb with
    | none =>
      have h : pre.length = 64 := hpre
      refine ⟨.augmentationInfo groupName (draw pre • R.base) (fakeSalt D secret user) [], ?_⟩
      simp only [serverInfo, Server.generateClientInfo, generateServerKeypair_eq, Server.generatePrs, hdb, lookupFailed_eq D Rng.replay h64,
        Res.bind_ok, fill_append h, fill_append p.2]
    | some k =>
      cases hk : k.lookupLongTermKeypair user with
      | some x =>
        have h : pre = [] := List.length_eq_zero_iff.1 (by simp [hpre, skip, hk])
        refine ⟨.augmentationInfo groupName x.2 (fakeSalt D secret user) [], ?_⟩
        subst h
        simp only [serverInfo, Server.generateClientInfoPartialAug, hk, Server.generatePrs, hdb, lookupFailed_eq D Rng.replay h64,
          Res.bind_ok, List.nil_append, fill_append p.2]
      | none =>
        have h : pre.length = 64 := by simp [hpre, skip, hk]
        refine ⟨.augmentationInfo groupName (R.fromUniform pre) (fakeSalt D secret user) [], ?_⟩
        simp only [serverInfo, Server.generateClientInfoPartialAug, hk, randomPoint, lookupFailed_eq D Rng.replay h64,
          Res.bind_ok, fill_append h, fill_append p.2]
  obtain ⟨m, hm⟩ := key
  rw [start, hm]
  exact opened_eq D ci ssid p.1 hb

theorem startStrong_unknown {D : Digest} {db : StrongDatabase G} {kdb : Option (PartialAugDatabase G)} {secret : Nat}
    {user ssid ci pre : Bytes} {U : G} (hdb : db.lookupVerifierStrong user = none) (hpre : pre.length = skip kdb user) (p : Prs) {b : Bytes}
    (hb : b.length = 64) {r : Server.RecvClientKey × G}
    (hr : startStrong R D db kdb secret user ssid ci (pre ++ p.1) U b = some r) :
    r = (⟨ssid, draw b⟩, draw b • gen R D ssid p.1 ci) := by
  have low : ∀ X y, Server.lookupFailedStrong D Rng.replay ⟨secret, ssid⟩ user U X (p.1 ++ b) = .ok y → y.1.1 = p.1 ∧ y.2 = b := by
    intro X y h
    simp only [Server.lookupFailedStrong, fill_append p.2] at h
    split at h
    · cases h
    · rw [← Res.ok.inj h]
      exact ⟨rfl, rfl⟩
  have key : ∀ y, serverInfoStrong R D Rng.replay db kdb ⟨secret, ssid⟩ user U (pre ++ p.1 ++ b) = .ok y → y.1 = ⟨ssid, p.1, b⟩ := by
    intro y hy
    rw [List.append_assoc] at hy
    cases kdb with
    | none =>
      have h : pre.length = 64 := hpre
      simp only [serverInfoStrong, Server.generateClientInfoStrong, generateServerKeypair_eq, Server.generatePrsStrong, hdb,
        fill_append h] at hy
      obtain ⟨⟨⟨q, m⟩, s⟩, h1, h2⟩ := Res.bind_eq_ok.1 hy
      obtain ⟨e1, e2⟩ := low _ _ h1
      simp only at e1 e2 h2
      rw [← Res.ok.inj h2, e1, e2]
    | some k =>
      cases hk : k.lookupLongTermKeypair user with
      | some x =>
        have h : pre = [] := List.length_eq_zero_iff.1 (by simp [hpre, skip, hk])
        subst h
        simp only [serverInfoStrong, Server.generateClientInfoPartialStrong, hk, Server.generatePrsStrong, hdb, List.nil_append] at hy
        obtain ⟨⟨⟨q, m⟩, s⟩, h1, h2⟩ := Res.bind_eq_ok.1 hy
        obtain ⟨e1, e2⟩ := low _ _ h1
        simp only at e1 e2 h2
        rw [← Res.ok.inj h2, e1, e2]
      | none =>
        have h : pre.length = 64 := by simp [hpre, skip, hk]
        simp only [serverInfoStrong, Server.generateClientInfoPartialStrong, hk, randomPoint, fill_append h] at hy
        obtain ⟨⟨⟨q, m⟩, s⟩, h1, h2⟩ := Res.bind_eq_ok.1 hy
        obtain ⟨e1, e2⟩ := low _ _ h1
        simp only at e1 e2 h2
        rw [← Res.ok.inj h2, e1, e2]
  rw [startStrong] at hr
  split at hr
  · rename_i srv m hs
    have := key _ hs
    simp only at this
    rw [this, opened_eq D ci ssid p.1 hb, Option.some.injEq] at hr
    exact hr.symm
  · cases hr

/-! ## Counting -/

section
variable {K : Type} [Fintype K] [Nonempty K] {L : Nat} {explicit : Bool} {A : Attack.Attacker n G (G × Bytes)} {ssid : Fin n → Bytes}
  {e : Fin n → K → G} {N : Nat}

/-- The sessions have secrets of their own: `e i k` is the generator of session `i` with secret `k`. -/
abbrev own (e : Fin n → K → G) (i : Fin n) (j : Fin n → K) : G := e i (j i)

theorem share_right_own (hL : ∀ i, (ssid i).length + 68 ≤ L) (h64 : D.outLen = 64) (hN : ∀ i x, {k | e i k = x}.ncard ≤ N) (T : Nat)
    (i : Fin n) :
    share {w : ((Fin n → K) × (Fin n → Seed)) × (Inputs (Drawn L) → D.Out) |
        (Right R D L explicit A ssid (own e) T i w ∧ ¬ Exc R D L explicit A ssid (own e) T w) ∧ ∀ k, e k (w.1.1 k) ≠ 0} ≤
      N * ((2 ^ 512 + ell) / 2 ^ 512 : ℚ) ^ n / Fintype.card K := by
  classical
  obtain ⟨hfin, hcG⟩ := group_finite R
  have := Fintype.ofFinite G
  have := Fintype.ofFinite Seed
  set S : Set (((Fin n → K) × (Fin n → Seed)) × (Inputs (Drawn L) → D.Out)) := {w |
        (Right R D L explicit A ssid (own e) T i w ∧ ¬ Exc R D L explicit A ssid (own e) T w) ∧ ∀ k, e k (w.1.1 k) ≠ 0} with hS
  let Φ : ((Fin n → K) × (Fin n → Seed)) × (Inputs (Drawn L) → D.Out) →
      ((Fin n → G × Fin (2 ^ 512 / ell + 1)) × (Inputs (Drawn L) → D.Out)) × ({k // k ≠ i} → K) :=
    fun w => ((fun k => (pubs (own e) w.1.1 w.1.2 k, ⟨leToNat (w.1.2 k).1 / ell, seed_quot ell _⟩), w.2), fun k => w.1.1 k.1)
  have hle : S.ncard ≤ N * Nat.card (((Fin n → G × Fin (2 ^ 512 / ell + 1)) × (Inputs (Drawn L) → D.Out)) × ({k // k ≠ i} → K)) := by
    rw [Set.ncard_eq_toFinset_card', Nat.card_eq_fintype_card]
    refine (Finset.card_le_mul_card_image (f := Φ) _ N ?_).trans (Nat.mul_le_mul_left _ (Finset.card_le_univ _))
    intro σ hσ
    obtain ⟨⟨⟨j₀, b₀⟩, f₀⟩, h0, rfl⟩ := Finset.mem_image.1 hσ
    rw [Set.mem_toFinset] at h0
    refine le_trans ?_ (hN i (e i (j₀ i)))
    rw [← Set.ncard_coe_finset]
    have hY : ∀ {j : Fin n → K} {b : Fin n → Seed} {f : Inputs (Drawn L) → D.Out}, Φ ((j, b), f) = Φ ((j₀, b₀), f₀) →
        pubs (own e) j b = pubs (own e) j₀ b₀ ∧ (∀ k, leToNat (b k).1 / ell = leToNat (b₀ k).1 / ell) ∧ f = f₀ ∧ ∀ k, k ≠ i → j k = j₀ k := by
      intro j b f h
      simp only [Φ, Prod.mk.injEq] at h
      refine ⟨funext fun k => congrArg Prod.fst (congrFun h.1.1 k), fun k => ?_, h.1.2, fun k hk => congrFun h.2 ⟨k, hk⟩⟩
      exact congrArg (fun z : G × Fin (2 ^ 512 / ell + 1) => z.2.1) (congrFun h.1.1 k)
    refine Set.ncard_le_ncard_of_injOn (fun w => w.1.1 i) ?_ ?_ (Set.toFinite _)
    · rintro ⟨⟨j, b⟩, f⟩ hw
      simp only [Finset.coe_filter, Set.mem_toFinset, Set.mem_ofPred_eq] at hw
      obtain ⟨h1, -, rfl, -⟩ := hY hw.2
      exact right_priv (g := own e) R hL h64 h1 hw.1.1.1 h0.1.1 hw.1.1.2 h0.1.2
    · rintro ⟨⟨j, b⟩, f⟩ hw ⟨⟨j', b'⟩, f'⟩ hw' he
      simp only [Finset.coe_filter, Set.mem_toFinset, Set.mem_ofPred_eq] at hw hw' he
      obtain ⟨h1, h2, rfl, h3⟩ := hY hw.2
      obtain ⟨h1', h2', h4, h3'⟩ := hY hw'.2
      subst h4
      have hj : j = j' := funext fun k => by
        by_cases hk : k = i
        · rw [hk, he]
        · rw [h3 k hk, h3' k hk]
      subst hj
      have hb : b = b' := funext fun k => by
        have h5 := congrFun (h1.trans h1'.symm) k
        simp only [pubs, own] at h5
        exact seed_ext ((ZMod.natCast_eq_natCast_iff _ _ _).1 (smul_right_cancel_ne (hw.1.2 k) h5)) ((h2 k).trans (h2' k).symm)
      rw [hb]
  have hK : (0 : ℚ) < Fintype.card K := by exact_mod_cast Fintype.card_pos
  have hF : (0 : ℚ) < Nat.card (Inputs (Drawn L) → D.Out) := by exact_mod_cast Nat.card_pos
  have hcN : Nat.card (Fin n → G × Fin (2 ^ 512 / ell + 1)) ≤ (2 ^ 512 + ell) ^ n := by
    rw [Nat.card_fun, Nat.card_prod, Nat.card_eq_fintype_card (α := Fin _), Nat.card_eq_fintype_card (α := Fin _), Fintype.card_fin,
      Fintype.card_fin]
    refine Nat.pow_le_pow_left ((Nat.mul_le_mul_right _ hcG).trans ?_) n
    rw [Nat.mul_add, mul_one]
    exact Nat.add_le_add_right (Nat.mul_div_le _ _) _
  have hcb : Nat.card (Fin n → Seed) = (2 ^ 512) ^ n := by
    rw [Nat.card_fun, card_seed, Nat.card_eq_fintype_card, Fintype.card_fin]
  have hcj : Nat.card (Fin n → K) = Fintype.card K * Nat.card ({k // k ≠ i} → K) := by
    rw [Nat.card_congr (Equiv.funSplitAt i K), Nat.card_prod, Nat.card_eq_fintype_card (α := K)]
  have hR : (0 : ℚ) < Nat.card ({k // k ≠ i} → K) := by exact_mod_cast Nat.card_pos
  rw [Nat.card_prod, Nat.card_prod] at hle
  replace hle := hle.trans (Nat.mul_le_mul_left _ (Nat.mul_le_mul_right _ (Nat.mul_le_mul_right _ hcN)))
  rw [share, Nat.card_prod, Nat.card_prod, hcb, hcj, div_pow, ← mul_div_assoc, div_div]
  rw [div_le_div_iff₀ (by push_cast; positivity) (by positivity)]
  have hle : (_ : ℚ) ≤ _ := Nat.cast_le.2 hle
  push_cast at hle ⊢
  calc _ ≤ (N * (((2 : ℚ) ^ 512 + ell) ^ n * Nat.card (Inputs (Drawn L) → D.Out) * Nat.card ({k // k ≠ i} → K))) *
        (((2 : ℚ) ^ 512) ^ n * Fintype.card K) := mul_le_mul_of_nonneg_right hle (by positivity)
    _ = _ := by ring

theorem share_neutral (hN : ∀ i x, {k | e i k = x}.ncard ≤ N) :
    share {j : Fin n → K | ∃ i, e i (j i) = 0} ≤ n * (N / Fintype.card K) := by
  have h1 := share_exists (Ω := Fin n → K) (κ := Fin n) (fun i j => e i (j i) = 0) (N / Fintype.card K) fun i => by
    rw [share_coord (K := K) i fun k => e i k = 0, share, Nat.card_eq_fintype_card]
    exact div_le_div_of_nonneg_right (by exact_mod_cast hN i 0) (Nat.cast_nonneg _)
  rwa [Fintype.card_fin] at h1

/-- The bound for sessions with secrets of their own, if no element is the generator for more than `N` of the secrets. -/
theorem bound_own (hL : ∀ i, (ssid i).length + 68 ≤ L) (h64 : D.outLen = 64) (hN : ∀ i x, {k | e i k = x}.ncard ≤ N)
    (st : (Fin n → K) → Digest → Fin n → Bytes → Option (Server.RecvClientKey × G))
    (hst : ∀ j (f : Inputs (Drawn L) → D.Out) i b, b.length = 64 → ∀ r, st j (drawn D (Drawn L) f) i b = some r →
      r = (⟨ssid i, draw b⟩, draw b • e i (j i)))
    (T : Nat) :
    share {w : ((Fin n → K) × (Fin n → Seed)) × (Inputs (Drawn L) → D.Out) | Wins R D explicit A T (st w.1.1) w.1.2 w.2} ≤
      n * N * (((2 ^ 512 + ell) / 2 ^ 512 : ℚ) ^ n + 1) / Fintype.card K + n * (1 / ell + 1 / 2 ^ 512) + T * (2 * T + 1) / 256 ^ 64 := by
  classical
  refine bound_add (g := own e) R h64 st hst T ?_
  have r1 := share_exists _ _ (share_right_own (R := R) (L := L) (explicit := explicit) (A := A) (e := e) hL h64 hN T)
  have r2 : share {w : ((Fin n → K) × (Fin n → Seed)) × (Inputs (Drawn L) → D.Out) | ∃ i, e i (w.1.1 i) = 0} ≤ n * (N / Fintype.card K) := by
    have a1 := share_fst (Ω' := Inputs (Drawn L) → D.Out) {c : (Fin n → K) × (Fin n → Seed) | ∃ i, e i (c.1 i) = 0}
    have a2 := share_fst (Ω' := Fin n → Seed) {j : Fin n → K | ∃ i, e i (j i) = 0}
    exact (a1.trans a2).le.trans (share_neutral hN)
  have hsub : {w : ((Fin n → K) × (Fin n → Seed)) × (Inputs (Drawn L) → D.Out) |
      ∃ i, Right R D L explicit A ssid (own e) T i w ∧ ¬ Exc R D L explicit A ssid (own e) T w} ⊆
      {w | ∃ i, (Right R D L explicit A ssid (own e) T i w ∧ ¬ Exc R D L explicit A ssid (own e) T w) ∧ ∀ k, e k (w.1.1 k) ≠ 0} ∪
        {w | ∃ i, e i (w.1.1 i) = 0} := by
    rintro w ⟨i, hi⟩
    by_cases h : ∃ i, e i (w.1.1 i) = 0
    · exact Or.inr h
    · exact Or.inl ⟨i, hi, fun k hk => h ⟨k, hk⟩⟩
  rw [Fintype.card_fin] at r1
  refine (share_mono hsub).trans ((share_union _ _).trans ((add_le_add r1 r2).trans (le_of_eq ?_)))
  ring
end

/-! ## How many strings give the same generator -/

/-- Values in a set at several points. -/
theorem share_all {X Y : Type} [Fintype X] [Finite Y] [Nonempty Y] (t : Finset X) (B : Set Y) :
    share {h : X → Y | ∀ x ∈ t, h x ∈ B} = share B ^ t.card := by
  classical
  have := Fintype.ofFinite Y
  have hY : (Nat.card Y : ℚ) ≠ 0 := by exact_mod_cast Nat.card_pos.ne'
  have e : {h : X → Y | ∀ x ∈ t, h x ∈ B} = (Fintype.piFinset fun x => if x ∈ t then B.toFinset else Finset.univ : Finset (X → Y)) := by
    ext h
    simp only [Set.mem_ofPred_eq, Finset.mem_coe, Fintype.mem_piFinset]
    refine forall_congr' fun x => ?_
    by_cases hx : x ∈ t <;> simp [hx]
  rw [share, e, Set.ncard_coe_finset, Fintype.card_piFinset, Nat.card_fun, ← Finset.prod_mul_prod_compl t, Nat.card_eq_fintype_card (α := X)]
  have e1 : ∏ x ∈ t, (if x ∈ t then B.toFinset else Finset.univ).card = B.ncard ^ t.card := by
    rw [Finset.prod_congr rfl fun x hx => by rw [if_pos hx], Finset.prod_const, Set.ncard_eq_toFinset_card']
  have e2 : ∏ x ∈ tᶜ, (if x ∈ t then B.toFinset else Finset.univ).card = Nat.card Y ^ tᶜ.card := by
    rw [Finset.prod_congr rfl fun x hx => by rw [if_neg (Finset.mem_compl.1 hx)], Finset.prod_const, Finset.card_univ,
      Nat.card_eq_fintype_card]
  rw [e1, e2, share, div_pow, ← Finset.card_add_card_compl t, pow_add]
  push_cast
  rw [mul_div_mul_right _ _ (pow_ne_zero _ hY)]

/-- The hash inputs for the generators of sessions with a password-related string of 32 bytes. -/
def GenIn (ssid ci : Fin n → Bytes) (x : Bytes) : Prop := ∃ i, ∃ p : Prs, x = inp 1 (ssid i ++ p.1 ++ ci i)

instance (ssid ci : Fin n → Bytes) : Finite (Inputs (GenIn ssid ci)) := by
  refine (Set.finite_range fun a : Fin n × Prs => inp 1 (ssid a.1 ++ a.2.1 ++ ci a.1)).subset ?_
  rintro x ⟨i, p, rfl⟩
  exact ⟨(i, p), rfl⟩

noncomputable instance (ssid ci : Fin n → Bytes) : Fintype (Inputs (GenIn ssid ci)) := Fintype.ofFinite _

/-- The input for one of them. -/
def genIn (ssid ci : Fin n → Bytes) (i : Fin n) (p : Prs) : Inputs (GenIn ssid ci) := ⟨_, i, p, rfl⟩

theorem genIn_inj (ssid ci : Fin n → Bytes) (i : Fin n) : Function.Injective (genIn ssid ci i) := by
  intro p q h
  have h := congrArg Subtype.val h
  simp only [genIn, inp_inj, true_and] at h
  exact Subtype.ext (List.append_cancel_left (List.append_cancel_right h))

open _root_.Verif.Ristretto (RPoint ristretto255)

/-- **C102 (generators).** If the hash function is drawn at random for the inputs for generators, then apart from one in `2^1000` cases for each
session no element of ristretto255 is the generator for more than 1023 of the `2^256` password-related strings. -/
theorem C102_generators (h64 : D.outLen = 64) (ssid ci : Fin n → Bytes) :
    share {h : Inputs (GenIn ssid ci) → D.Out | ∃ i x,
      1023 < {p : Prs | gen ristretto255 (drawn D (GenIn ssid ci) h) (ssid i) p.1 (ci i) = x}.ncard} ≤ n / 2 ^ 1000 := by
  classical
  obtain ⟨hfin, hcG⟩ := group_finite ristretto255
  have := Fintype.ofFinite RPoint
  let κ := Fin n × (RPoint × {t : Finset Prs // t ∈ Finset.powersetCard 1024 Finset.univ})
  have hsub : {h : Inputs (GenIn ssid ci) → D.Out | ∃ i x,
      1023 < {p : Prs | gen ristretto255 (drawn D (GenIn ssid ci) h) (ssid i) p.1 (ci i) = x}.ncard} ⊆
      {h | ∃ k : κ, ∀ y ∈ k.2.2.1.image (genIn ssid ci k.1), h y ∈ {o : D.Out | ristretto255.fromUniform o.1 = k.2.1}} := by
    rintro h ⟨i, x, hx⟩
    rw [Set.ncard_eq_toFinset_card'] at hx
    obtain ⟨t, ht, htc⟩ := Finset.exists_subset_card_eq (Nat.succ_le_of_lt hx)
    refine ⟨(i, x, ⟨t, Finset.mem_powersetCard.2 ⟨Finset.subset_univ _, htc⟩⟩), fun y hy => ?_⟩
    obtain ⟨p, hp, rfl⟩ := Finset.mem_image.1 hy
    have h1 := Set.mem_toFinset.1 (ht hp)
    simp only [Set.mem_ofPred_eq, gen, Hn] at h1 ⊢
    rw [← h1]
    exact congrArg _ (drawn_in h (genIn ssid ci i p)).symm
  have h1 := share_exists (Ω := Inputs (GenIn ssid ci) → D.Out) (κ := κ)
    (fun k h => ∀ y ∈ k.2.2.1.image (genIn ssid ci k.1), h y ∈ {o : D.Out | ristretto255.fromUniform o.1 = k.2.1}) ((1 / 2 ^ 249) ^ 1024)
    fun k => by
      rw [share_all, Finset.card_image_of_injective _ (genIn_inj ssid ci k.1), (Finset.mem_powersetCard.1 k.2.2.2).2]
      refine pow_le_pow_left₀ (by rw [share]; positivity) ?_ _
      have hle : {o : D.Out | ristretto255.fromUniform o.1 = k.2.1}.ncard ≤ 2 ^ 263 := by
        refine le_trans (Set.ncard_le_ncard_of_injOn Subtype.val ?_ (fun _ _ _ _ h => Subtype.ext h) ?_) (_root_.Verif.Ristretto.C68_map k.2.1).2
        · exact fun o ho => ⟨o.2.trans h64, ho⟩
        · exact (finite_bytes 64).subset fun b hb => hb.1
      have hcard : Nat.card D.Out = 256 ^ 64 := by rw [Nat.card_eq_fintype_card, Oracle.card_out, h64]
      rw [share, hcard, div_le_div_iff₀ (by positivity) (by positivity), one_mul]
      have hp : (2 : ℕ) ^ 263 * 2 ^ 249 = 256 ^ 64 := by decide +kernel
      exact_mod_cast (Nat.mul_le_mul_right _ hle).trans hp.le
  have hκ : Fintype.card κ ≤ n * (ell * (2 ^ 256).choose 1024) := by
    simp only [κ, Fintype.card_prod, Fintype.card_fin, Fintype.card_coe, Finset.card_powersetCard, Finset.card_univ]
    rw [← Nat.card_eq_fintype_card (α := Prs), card_prs, ← Nat.card_eq_fintype_card (α := RPoint)]
    exact Nat.mul_le_mul_left _ (Nat.mul_le_mul_right _ hcG)
  have hch : Nat.factorial 1024 * (2 ^ 256).choose 1024 ≤ (2 ^ 256) ^ 1024 := by
    rw [← Nat.descFactorial_eq_factorial_mul_choose]
    exact Nat.descFactorial_le_pow _ _
  have hf : 2 ^ 7168 * (ell * 2 ^ 1000) ≤ Nat.factorial 1024 := by decide +kernel
  have hp : (2 ^ 256) ^ 1024 = 2 ^ 7168 * (2 ^ 249) ^ 1024 := by decide +kernel
  have arith : ∀ {a c l t F P Q k : ℕ}, a * (l * t) ≤ F → F * c ≤ Q → Q = a * P → 0 < a → k ≤ n * (l * c) → k * t ≤ n * P := by
    intro a c l t F P Q k h1 h2 h3 h4 h5
    have h6 : l * t * c ≤ P := by
      refine Nat.le_of_mul_le_mul_left (?_ : a * _ ≤ a * _) h4
      rw [← h3, ← mul_assoc]
      exact (Nat.mul_le_mul_right _ h1).trans h2
    calc k * t ≤ n * (l * c) * t := Nat.mul_le_mul_right _ h5
      _ = n * (l * t * c) := by ring
      _ ≤ n * P := Nat.mul_le_mul_left _ h6
  refine (share_mono hsub).trans (h1.trans ?_)
  rw [div_pow, one_pow, mul_one_div, div_le_div_iff₀ (by positivity) (by positivity)]
  have h2 : Fintype.card κ * 2 ^ 1000 ≤ n * (2 ^ 249) ^ 1024 := arith hf hch hp (Nat.pow_pos (by norm_num)) hκ
  exact_mod_cast h2

/-! ## The bounds -/

section
variable {L N : Nat} {kdb : Option (PartialAugDatabase G)} {user ssid ci pre : Fin n → Bytes}

/-- **C102 (any hash function for the generators).** The users of `n` sessions are unknown to the server. If no element is the generator of a session
for more than `N` of the password-related strings, then the server accepts the attacker, or has a session key named by it, for a share of about
`2 n N / 2^256` of the strings drawn, the generator outputs for the CPace keys and the values of the hash function elsewhere. -/
theorem C102_server (h64 : D.outLen = 64) (explicit : Bool) (db : Database G) (secret : Nat) (hdb : ∀ i, db.lookupVerifier (user i) = none)
    (hpre : ∀ i, (pre i).length = skip kdb (user i)) (hL : ∀ i, (ssid i).length + 68 ≤ L)
    (hN : ∀ i x, {p : Prs | gen R D (ssid i) p.1 (ci i) = x}.ncard ≤ N) (A : Attack.Attacker n G (G × Bytes)) (T : Nat) :
    share {w : ((Fin n → Prs) × (Fin n → Seed)) × (Inputs (Drawn L) → D.Out) | Wins R D explicit A T
        (fun D' i b => start R D' db kdb secret (user i) (ssid i) (ci i) (pre i ++ (w.1.1 i).1) b) w.1.2 w.2} ≤
      n * N * (((2 ^ 512 + ell) / 2 ^ 512 : ℚ) ^ n + 1) / 2 ^ 256 + n * (1 / ell + 1 / 2 ^ 512) + T * (2 * T + 1) / 256 ^ 64 := by
  have h := bound_own (R := R) (L := L) (explicit := explicit) (A := A) (e := fun i (p : Prs) => gen R D (ssid i) p.1 (ci i)) hL h64 hN
    (fun p D' i b => start R D' db kdb secret (user i) (ssid i) (ci i) (pre i ++ (p i).1) b) (fun p f i b hb r hr => by
      rw [start_unknown (D := drawn D (Drawn L) f) h64 (hdb i) (hpre i) (p i) hb, Option.some.injEq, gen_drawn] at hr
      exact hr.symm) T
  rw [← Nat.card_eq_fintype_card, card_prs] at h
  exact_mod_cast h

/-- **C102 (any hash function for the generators, strong variants).** The same if none of the sessions is refused because of its blinded point. -/
theorem C102_server_strong (h64 : D.outLen = 64) (explicit : Bool) (db : StrongDatabase G) (secret : Nat)
    (hdb : ∀ i, db.lookupVerifierStrong (user i) = none) (hpre : ∀ i, (pre i).length = skip kdb (user i)) (U : Fin n → G)
    (hL : ∀ i, (ssid i).length + 68 ≤ L) (hN : ∀ i x, {p : Prs | gen R D (ssid i) p.1 (ci i) = x}.ncard ≤ N)
    (A : Attack.Attacker n G (G × Bytes)) (T : Nat) :
    share {w : ((Fin n → Prs) × (Fin n → Seed)) × (Inputs (Drawn L) → D.Out) | Wins R D explicit A T
        (fun D' i b => startStrong R D' db kdb secret (user i) (ssid i) (ci i) (pre i ++ (w.1.1 i).1) (U i) b) w.1.2 w.2} ≤
      n * N * (((2 ^ 512 + ell) / 2 ^ 512 : ℚ) ^ n + 1) / 2 ^ 256 + n * (1 / ell + 1 / 2 ^ 512) + T * (2 * T + 1) / 256 ^ 64 := by
  have h := bound_own (R := R) (L := L) (explicit := explicit) (A := A) (e := fun i (p : Prs) => gen R D (ssid i) p.1 (ci i)) hL h64 hN
    (fun p D' i b => startStrong R D' db kdb secret (user i) (ssid i) (ci i) (pre i ++ (p i).1) (U i) b) (fun p f i b hb r hr => by
      have := startStrong_unknown (hdb i) (hpre i) (p i) hb hr
      rwa [gen_drawn] at this) T
  rw [← Nat.card_eq_fintype_card, card_prs] at h
  exact_mod_cast h

/-- **C102 (attained).** Guessing is possible: an attacker with a guess for the string of each session, none with the neutral element as generator,
is accepted within `3 n` moves whenever one of its guesses is right, whatever the random bytes and the hash function. -/
theorem C102_attained (h64 : D.outLen = 64) (explicit : Bool) (db : Database G) (secret : Nat) (hdb : ∀ i, db.lookupVerifier (user i) = none)
    (hpre : ∀ i, (pre i).length = skip kdb (user i)) (guess : Fin n → Prs) (h0 : ∀ i, gen R D (ssid i) (guess i).1 (ci i) ≠ 0) :
    ∃ A : Attack.Attacker n G (G × Bytes), ∀ i, ∀ p : Fin n → Prs, p i = guess i → ∀ b, ∀ f : Inputs (Drawn L) → D.Out,
      Wins R D explicit A (3 * n) (fun D' i' b => start R D' db kdb secret (user i') (ssid i') (ci i') (pre i' ++ (p i').1) b) b f :=
  ⟨tryOut R explicit ssid fun i => gen R D (ssid i) (guess i).1 (ci i), fun i p hp b f => tryOut_wins h64 explicit
    (g := fun i => gen R D (ssid i) (p i).1 (ci i)) (fun i' => by
      rw [start_unknown (D := drawn D (Drawn L) f) h64 (hdb i') (hpre i') (p i') (b i').2, gen_drawn]) (by simp only [hp]) (h0 i)⟩
end

/-- A bound that holds but for a part of the first draws. -/
theorem share_but {W F : Type} [Finite W] [Nonempty W] [Finite F] [Nonempty F] (P : W → F → Prop) (B : Set W) (c d : ℚ) (hc : 0 ≤ c)
    (hB : share B ≤ d) (h : ∀ w, w ∉ B → share {f | P w f} ≤ c) : share {x : W × F | P x.1 x.2} ≤ c + d := by
  have h1 := share_slice (fun w f => w ∉ B ∧ P w f) c fun w => by
    by_cases hw : w ∈ B
    · simp only [hw, not_true_eq_false, false_and]
      have : {f : F | False} = ∅ := by ext; simp
      rw [this, share, Set.ncard_empty, Nat.cast_zero, zero_div]
      exact hc
    · simpa only [hw, not_false_eq_true, true_and] using h w hw
  have h2 := share_fst (Ω' := F) B
  refine (share_mono (S' := {x : W × F | x.1 ∉ B ∧ P x.1 x.2} ∪ {x | x.1 ∈ B}) fun x hx => ?_).trans
    ((share_union _ _).trans (add_le_add h1 (h2.le.trans hB)))
  by_cases hx' : x.1 ∈ B
  · exact Or.inr hx'
  · exact Or.inl ⟨hx', hx⟩

section
variable {L : Nat} {kdb : Option (PartialAugDatabase RPoint)} {user ssid ci pre : Fin n → Bytes}

/-- **C102 (ristretto255).** The hash function for the generators is drawn as well, and the attacker knows all its values: nobody is accepted as a
user that the server does not know, for a share of more than about `n / 2^245`. -/
theorem C102_ristretto (h64 : D.outLen = 64) (explicit : Bool) (db : Database RPoint) (secret : Nat)
    (hdb : ∀ i, db.lookupVerifier (user i) = none) (hpre : ∀ i, (pre i).length = skip kdb (user i)) (hL : ∀ i, (ssid i).length + 68 ≤ L)
    (A : (Inputs (GenIn ssid ci) → D.Out) → Attack.Attacker n RPoint (RPoint × Bytes)) (T : Nat) :
    share {w : (Inputs (GenIn ssid ci) → D.Out) × (((Fin n → Prs) × (Fin n → Seed)) × (Inputs (Drawn L) → D.Out)) |
        Wins ristretto255 (drawn D (GenIn ssid ci) w.1) explicit (A w.1) T
          (fun D' i b => start ristretto255 D' db kdb secret (user i) (ssid i) (ci i) (pre i ++ (w.2.1.1 i).1) b) w.2.1.2 w.2.2} ≤
      n * 1023 * (((2 ^ 512 + ell) / 2 ^ 512 : ℚ) ^ n + 1) / 2 ^ 256 + n * (1 / ell + 1 / 2 ^ 512) + T * (2 * T + 1) / 256 ^ 64 +
        n / 2 ^ 1000 :=
  share_but (fun h (v : ((Fin n → Prs) × (Fin n → Seed)) × (Inputs (Drawn L) → D.Out)) =>
      Wins ristretto255 (drawn D (GenIn ssid ci) h) explicit (A h) T
        (fun D' i b => start ristretto255 D' db kdb secret (user i) (ssid i) (ci i) (pre i ++ (v.1.1 i).1) b) v.1.2 v.2) _ _ _
    (by positivity) (C102_generators h64 ssid ci) fun h hh => by
      simp only [Set.mem_ofPred_eq, not_exists, not_lt] at hh
      exact_mod_cast C102_server (D := drawn D (GenIn ssid ci) h) h64 explicit db secret hdb hpre hL hh (A h) T

/-- **C102 (ristretto255, strong variants).** -/
theorem C102_ristretto_strong (h64 : D.outLen = 64) (explicit : Bool) (db : StrongDatabase RPoint) (secret : Nat)
    (hdb : ∀ i, db.lookupVerifierStrong (user i) = none) (hpre : ∀ i, (pre i).length = skip kdb (user i)) (U : Fin n → RPoint)
    (hL : ∀ i, (ssid i).length + 68 ≤ L)
    (A : (Inputs (GenIn ssid ci) → D.Out) → Attack.Attacker n RPoint (RPoint × Bytes)) (T : Nat) :
    share {w : (Inputs (GenIn ssid ci) → D.Out) × (((Fin n → Prs) × (Fin n → Seed)) × (Inputs (Drawn L) → D.Out)) |
        Wins ristretto255 (drawn D (GenIn ssid ci) w.1) explicit (A w.1) T
          (fun D' i b => startStrong ristretto255 D' db kdb secret (user i) (ssid i) (ci i) (pre i ++ (w.2.1.1 i).1) (U i) b)
          w.2.1.2 w.2.2} ≤
      n * 1023 * (((2 ^ 512 + ell) / 2 ^ 512 : ℚ) ^ n + 1) / 2 ^ 256 + n * (1 / ell + 1 / 2 ^ 512) + T * (2 * T + 1) / 256 ^ 64 +
        n / 2 ^ 1000 :=
  share_but (fun h (v : ((Fin n → Prs) × (Fin n → Seed)) × (Inputs (Drawn L) → D.Out)) =>
      Wins ristretto255 (drawn D (GenIn ssid ci) h) explicit (A h) T
        (fun D' i b => startStrong ristretto255 D' db kdb secret (user i) (ssid i) (ci i) (pre i ++ (v.1.1 i).1) (U i) b) v.1.2 v.2) _ _ _
    (by positivity) (C102_generators h64 ssid ci) fun h hh => by
      simp only [Set.mem_ofPred_eq, not_exists, not_lt] at hh
      exact_mod_cast C102_server_strong (D := drawn D (GenIn ssid ci) h) h64 explicit db secret hdb hpre U hL hh (A h) T
end

/-! ## The hypotheses can be met -/

set_option exponentiation.threshold 1100 in
/-- One session of a user that the empty database does not know; an attacker that makes a million moves is accepted for a share of less than
`2^-244` of the cases. -/
example (explicit : Bool) (A : (Inputs (GenIn (n := 1) (fun _ => World.bytes 0 64) fun _ => ascii "ci") → sha512.Out) →
      Attack.Attacker 1 RPoint (RPoint × Bytes)) :
    share {w : (Inputs (GenIn (n := 1) (fun _ => World.bytes 0 64) fun _ => ascii "ci") → sha512.Out) ×
        (((Fin 1 → Prs) × (Fin 1 → Seed)) × (Inputs (Drawn 132) → sha512.Out)) |
        Wins ristretto255 (drawn sha512 (GenIn (fun _ => World.bytes 0 64) fun _ => ascii "ci") w.1) explicit (A w.1) 1000000
          (fun D' i b => start ristretto255 D' ⟨fun _ => none⟩ none 1 World.user (World.bytes 0 64) (ascii "ci")
            (World.bytes 3 64 ++ (w.2.1.1 i).1) b) w.2.1.2 w.2.2} ≤ 1 / 2 ^ 244 := by
  refine le_trans (C102_ristretto (D := sha512) (kdb := none) (user := fun _ => World.user) (pre := fun _ => World.bytes 3 64) rfl explicit
    ⟨fun _ => none⟩ 1 (fun _ => rfl) (fun _ => by decide +kernel) (fun _ => by decide +kernel) A 1000000) ?_
  have h : (ell : ℚ) = 2 ^ 252 + 27742317777372353535851937790883648493 := by exact_mod_cast (by decide +kernel : ell = _)
  rw [h]
  norm_num

end Verif.Aucpace.Nobody
