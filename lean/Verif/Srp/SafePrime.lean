import Verif.Srp.GroupsPrime
import Verif.Srp.Props
import Verif.Basic.Uniform

/-!
# C62: ephemeral values and secrets in a group with a safe prime modulus

In such a group (`C60` shows that the built-in groups are such groups) there are no small subgroups besides `{1, -1}`:
private exponents, public values and secrets correspond to each other almost one to one.
-/

namespace Verif.Srp

/-- A group as the library documentation asks for: `N` and `(N - 1) / 2` prime, `g` generates all nonzero residues. -/
def SafeGroup (p : SrpGroup) : Prop :=
  p.n.Prime ∧ ((p.n - 1) / 2).Prime ∧ ∀ z : ZMod p.n, z ≠ 0 → ∃ i, z = (p.g : ZMod p.n) ^ i

namespace SafePrime

variable {p : SrpGroup}

theorem odd (h : SafeGroup p) : p.n - 1 = 2 * ((p.n - 1) / 2) ∧ 4 < p.n := by
  have h2 := h.2.1.two_le
  have ho := h.1.eq_two_or_odd
  omega

theorem g_ne (h : SafeGroup p) : (p.g : ZMod p.n) ≠ 0 := by
  have : Fact p.n.Prime := ⟨h.1⟩
  intro h0
  obtain ⟨i, hi⟩ := h.2.2 (-1) (neg_ne_zero.2 one_ne_zero)
  rw [h0] at hi
  rcases Nat.eq_zero_or_pos i with rfl | hpos
  · rw [pow_zero] at hi
    have h2 : ((2 : ℕ) : ZMod p.n) = 0 := by
      have : (1 : ZMod p.n) + 1 = 0 := by nth_rewrite 1 [← hi]; ring
      push_cast; rw [← this]; ring
    rw [ZMod.natCast_eq_zero_iff] at h2
    have := Nat.le_of_dvd (by norm_num) h2
    have := (odd h).2
    omega
  · rw [zero_pow hpos.ne'] at hi
    exact neg_ne_zero.2 one_ne_zero hi

theorem orderOf_g (h : SafeGroup p) : orderOf (p.g : ZMod p.n) = p.n - 1 := by
  have : Fact p.n.Prime := ⟨h.1⟩
  have hcard : Nat.card (ZMod p.n)ˣ = p.n - 1 := by
    rw [Nat.card_eq_fintype_card, ZMod.card_units]
  have h1 : orderOf (Units.mk0 (p.g : ZMod p.n) (g_ne h)) = p.n - 1 := by
    rw [← hcard]
    refine orderOf_eq_card_of_forall_mem_powers fun w => ?_
    obtain ⟨i, hi⟩ := h.2.2 (w : ZMod p.n) w.ne_zero
    exact ⟨i, by ext; simpa using hi.symm⟩
  rw [← h1, ← orderOf_units]
  rfl

theorem pow_eq_iff (h : SafeGroup p) (i j : Nat) :
    (p.g : ZMod p.n) ^ i = (p.g : ZMod p.n) ^ j ↔ i ≡ j [MOD p.n - 1] := by
  have : Fact p.n.Prime := ⟨h.1⟩
  have hu : (p.g : ZMod p.n) = (Units.mk0 (p.g : ZMod p.n) (g_ne h) : ZMod p.n) := rfl
  have ho : orderOf (Units.mk0 (p.g : ZMod p.n) (g_ne h)) = p.n - 1 := by
    rw [← orderOf_g h, ← orderOf_units]; rfl
  rw [hu, ← Units.val_pow_eq_pow_val, ← Units.val_pow_eq_pow_val, Units.val_inj, pow_eq_pow_iff_modEq, ho]

/-- Discrete logarithms: the only exponent below `N - 1`. -/
theorem log_unique (h : SafeGroup p) (z : ZMod p.n) (hz : z ≠ 0) :
    ∃ i < p.n - 1, ∀ j < p.n - 1, (p.g : ZMod p.n) ^ j = z ↔ j = i := by
  obtain ⟨i, rfl⟩ := h.2.2 z hz
  have hpos : 0 < p.n - 1 := by have := (odd h).2; omega
  refine ⟨i % (p.n - 1), Nat.mod_lt _ hpos, fun j hj => ?_⟩
  rw [pow_eq_iff h, Nat.ModEq, Nat.mod_eq_of_lt hj]

theorem sq_eq_one (h : SafeGroup p) (z : ZMod p.n) : z ^ 2 = 1 ↔ z = 1 ∨ z = -1 := by
  have : Fact p.n.Prime := ⟨h.1⟩
  rw [← sub_eq_zero, show z ^ 2 - 1 = (z - 1) * (z + 1) by ring, mul_eq_zero, sub_eq_zero, add_eq_zero_iff_eq_neg]

theorem order_cases (h : SafeGroup p) {z : ZMod p.n} (hz : z ≠ 0) :
    orderOf z = 1 ∨ orderOf z = 2 ∨ orderOf z = (p.n - 1) / 2 ∨ orderOf z = p.n - 1 := by
  have : Fact p.n.Prime := ⟨h.1⟩
  have hd : orderOf z ∣ 2 * ((p.n - 1) / 2) := by
    rw [← (odd h).1]
    exact orderOf_dvd_of_pow_eq_one (ZMod.pow_card_sub_one_eq_one hz)
  obtain ⟨a, b, ha, hb, hab⟩ := (Nat.dvd_mul.1 hd)
  rw [← hab, (odd h).1]
  rcases (Nat.dvd_prime Nat.prime_two).1 ha with rfl | rfl <;>
    rcases (Nat.dvd_prime h.2.1).1 hb with rfl | rfl
  · left; rfl
  · right; right; left
    have := (odd h).1
    omega
  · right; left; rfl
  · right; right; right; rfl

/-- Exponents of an element other than `1`, `-1` are determined modulo `(N - 1) / 2`. -/
theorem pow_inj (h : SafeGroup p) {z : ZMod p.n} (hz : z ≠ 0) (h1 : z ≠ 1) (h2 : z ≠ -1) {i j : Nat}
    (he : z ^ i = z ^ j) : i ≡ j [MOD (p.n - 1) / 2] := by
  have : Fact p.n.Prime := ⟨h.1⟩
  have hsq : z ^ 2 ≠ 1 := fun hs => ((sq_eq_one h z).1 hs).elim h1 h2
  have hu : orderOf (Units.mk0 z hz) = orderOf z := by rw [← orderOf_units]; rfl
  have hm : i ≡ j [MOD orderOf z] := by
    rw [← hu, ← pow_eq_pow_iff_modEq]
    ext
    simpa using he
  rcases order_cases h hz with ho | ho | ho | ho
  · exact absurd (orderOf_eq_one_iff.1 ho) h1
  · exact absurd (by rw [← ho]; exact pow_orderOf_eq_one z) hsq
  · rwa [ho] at hm
  · rw [ho] at hm
    exact hm.of_dvd ⟨2, by have := (odd h).1; omega⟩

end SafePrime

open SafePrime

variable (D : Digest) {p : SrpGroup}

/-- **C62 (no small subgroups).** Every nonzero residue has order `1`, `2`, `(N-1)/2` or `N-1`, and only `1` and `-1` have
order at most `2`. -/
theorem C62_orders (h : SafeGroup p) (z : ZMod p.n) (hz : z ≠ 0) :
    (orderOf z = 1 ∨ orderOf z = 2 ∨ orderOf z = (p.n - 1) / 2 ∨ orderOf z = p.n - 1) ∧
    (orderOf z ≤ 2 → z = 1 ∨ z = -1) := by
  have : Fact p.n.Prime := ⟨h.1⟩
  refine ⟨order_cases h hz, fun hle => (sq_eq_one h z).1 ?_⟩
  have hpos : 0 < orderOf z :=
    orderOf_pos_iff.2 (isOfFinOrder_iff_pow_eq_one.2 ⟨p.n - 1, by have := (odd h).2; omega,
      ZMod.pow_card_sub_one_eq_one hz⟩)
  have : orderOf z ∣ 2 := by
    rcases (show orderOf z = 1 ∨ orderOf z = 2 by omega) with e | e <;> simp [e]
  exact orderOf_dvd_iff_pow_eq_one.1 this

theorem enc_eq_iff {N : ℕ} [NeZero N] (z w : ZMod N) : Spec.enc z = Spec.enc w ↔ z = w := by
  refine ⟨fun he => ?_, fun he => by rw [he]⟩
  have := congrArg beToNat he
  simp only [Spec.enc, beToNat_toBytesBE] at this
  exact ZMod.val_injective N this

/-- **C62 (client's public value).** Two private values give the same public value exactly if they agree modulo `N-1`;
every public value in `1..N-1` has exactly one private value below `N-1`. -/
theorem C62_client_ephemeral (h : SafeGroup p) :
    (∀ a a' : Bytes, (Client.computePublicEphemeral p a : Res SrpAuthError Bytes) = Client.computePublicEphemeral p a' ↔
      beToNat a ≡ beToNat a' [MOD p.n - 1]) ∧
    (∀ r, 0 < r → r < p.n → ∃ i < p.n - 1, ∀ a < p.n - 1,
      (Client.computeAPub p a : Res SrpAuthError Nat) = .ok r ↔ a = i) := by
  have hn : 0 < p.n := h.1.pos
  have : NeZero p.n := ⟨hn.ne'⟩
  refine ⟨fun a a' => ?_, fun r h0 hr => ?_⟩
  · rw [client_ephemeral_eq p hn, client_ephemeral_eq p hn, Res.ok.injEq, enc_eq_iff, Spec.A, Spec.A, pow_eq_iff h]
  · have hz : (r : ZMod p.n) ≠ 0 := by
      rw [Ne, ZMod.natCast_eq_zero_iff]
      exact fun hd => absurd (Nat.le_of_dvd h0 hd) (by omega)
    obtain ⟨i, hi, hu⟩ := log_unique h _ hz
    refine ⟨i, hi, fun a ha => ?_⟩
    rw [← hu a ha, Client.computeAPub, modpow_eq_val _ _ _ hn, Res.ok.injEq]
    refine ⟨fun e => ?_, fun e => ?_⟩
    · rw [← e, ZMod.natCast_val, ZMod.cast_id]
    · rw [e, ZMod.val_natCast, Nat.mod_eq_of_lt hr]

/-- **C62 (server's public value).** Whatever the verifier `v`, every residue except `k * v` is the public value for
exactly one private value below `N-1`, and `k * v` for none. -/
theorem C62_server_ephemeral (h : SafeGroup p) (hs : Spec.Sane p.n p.g) (v r : Nat) (hr : r < p.n) :
    ∃ k, (computeK D p : Res SrpAuthError Nat) = .ok k ∧
    (k * v ≡ r [MOD p.n] → ∀ b, (Server.computeBPub p b k v : Res SrpAuthError Nat) ≠ .ok r) ∧
    (¬ k * v ≡ r [MOD p.n] → ∃ i < p.n - 1, ∀ b < p.n - 1,
      (Server.computeBPub p b k v : Res SrpAuthError Nat) = .ok r ↔ b = i) := by
  have hn : 0 < p.n := h.1.pos
  have : NeZero p.n := ⟨hn.ne'⟩
  have : Fact p.n.Prime := ⟨h.1⟩
  have hB : ∀ b, (Server.computeBPub p b (Spec.k D p.n p.g) v : Res SrpAuthError Nat) = .ok r ↔
      (p.g : ZMod p.n) ^ b = (r : ZMod p.n) - Spec.k D p.n p.g * v := by
    intro b
    rw [server_bPub_eq D p hn, Res.ok.injEq, eq_sub_iff_add_eq', Spec.B]
    refine ⟨fun e => ?_, fun e => ?_⟩
    · rw [← e, ZMod.natCast_val, ZMod.cast_id]
    · rw [e, ZMod.val_natCast, Nat.mod_eq_of_lt hr]
  refine ⟨Spec.k D p.n p.g, computeK_eq D p hs.2, fun hk b hb => ?_, fun hk => ?_⟩
  · rw [← ZMod.natCast_eq_natCast_iff] at hk
    push_cast at hk
    rw [hB, hk, sub_self] at hb
    exact pow_ne_zero _ (g_ne h) hb
  · have hz : (r : ZMod p.n) - Spec.k D p.n p.g * v ≠ 0 := by
      intro e
      rw [sub_eq_zero] at e
      refine hk ((ZMod.natCast_eq_natCast_iff _ _ _).1 ?_)
      push_cast
      exact e.symm
    obtain ⟨i, hi, hu⟩ := log_unique h _ hz
    exact ⟨i, hi, fun b hb => (hB b).trans (hu b hb)⟩

/-- **C62 (password hiding).** For every set `T` of public values and any two verifiers, the numbers of private values
below `N-1` for which the server's public value falls into `T` differ by at most one. -/
theorem C62_server_hiding (h : SafeGroup p) (hs : Spec.Sane p.n p.g) (v v' : Bytes) (T : Set Bytes) :
    {b | b < p.n - 1 ∧ ∃ B ∈ T, (Server.computePublicEphemeral D p (toBytesBE b) v : Res SrpAuthError Bytes) = .ok B}.ncard ≤
      {b | b < p.n - 1 ∧
        ∃ B ∈ T, (Server.computePublicEphemeral D p (toBytesBE b) v' : Res SrpAuthError Bytes) = .ok B}.ncard + 1 := by
  have hn : 0 < p.n := h.1.pos
  have : NeZero p.n := ⟨hn.ne'⟩
  have : Fact p.n.Prime := ⟨h.1⟩
  set S : Set (ZMod p.n) := {z | Spec.enc z ∈ T} with hS
  have hcard : ∀ v : Bytes, {b | b < p.n - 1 ∧ ∃ B ∈ T,
      (Server.computePublicEphemeral D p (toBytesBE b) v : Res SrpAuthError Bytes) = .ok B}.ncard =
      (S \ {(Spec.k D p.n p.g * beToNat v : ZMod p.n)}).ncard := by
    intro v
    refine Set.ncard_congr (fun b _ => Spec.B D p.n p.g (beToNat v : ZMod p.n) b) ?_ ?_ ?_
    · rintro b ⟨-, B, hB, e⟩
      rw [server_ephemeral_eq D p hs, Res.ok.injEq, beToNat_toBytesBE] at e
      refine ⟨by rw [hS, Set.mem_ofPred_eq, e]; exact hB, ?_⟩
      rw [Set.mem_singleton_iff, Spec.B, add_eq_left]
      exact pow_ne_zero _ (g_ne h)
    · rintro b b' ⟨hb, -⟩ ⟨hb', -⟩ e
      simp only [Spec.B, add_right_inj] at e
      rw [pow_eq_iff h, Nat.ModEq, Nat.mod_eq_of_lt hb, Nat.mod_eq_of_lt hb'] at e
      exact e
    · rintro z ⟨hz, hne⟩
      rw [Set.mem_singleton_iff] at hne
      obtain ⟨i, hi, hu⟩ := log_unique h _ (sub_ne_zero.2 hne)
      have hB : Spec.B D p.n p.g (beToNat v : ZMod p.n) i = z := by
        rw [Spec.B, (hu i hi).2 rfl, add_sub_cancel]
      refine ⟨i, ⟨hi, _, hz, ?_⟩, hB⟩
      rw [server_ephemeral_eq D p hs, beToNat_toBytesBE, hB]
  rw [hcard, hcard]
  have hfin : S.Finite := Set.toFinite S
  have h1 := Set.ncard_sdiff_singleton_le S (Spec.k D p.n p.g * beToNat v : ZMod p.n)
  have h2 := Set.pred_ncard_le_ncard_sdiff_singleton S (Spec.k D p.n p.g * beToNat v' : ZMod p.n)
  omega

/-- **C62 (server's secret).** For a public value and verifier whose combination is not `0`, `1` or `-1` the secret
determines the private value modulo `(N-1)/2`. -/
theorem C62_server_secret (h : SafeGroup p) (A v u b b' : Nat) (h0 : ¬ A * v ^ u ≡ 0 [MOD p.n])
    (h1 : ¬ A * v ^ u ≡ 1 [MOD p.n]) (h2 : ¬ A * v ^ u + 1 ≡ 0 [MOD p.n])
    (he : (Server.computePremasterSecret p A v u b : Res SrpAuthError Nat) = Server.computePremasterSecret p A v u b') :
    b ≡ b' [MOD (p.n - 1) / 2] := by
  have hn : 0 < p.n := h.1.pos
  have : NeZero p.n := ⟨hn.ne'⟩
  rw [server_premaster_eq p hn, server_premaster_eq p hn, Res.ok.injEq, (ZMod.val_injective p.n).eq_iff] at he
  rw [← ZMod.natCast_eq_natCast_iff] at h0 h1 h2
  push_cast at h0 h1 h2
  exact pow_inj h h0 h1 (fun e => h2 (by rw [e]; ring)) he

/-- **C62 (client's secret).** Likewise for the client, if `B - k * g^x` is not `0`, `1` or `-1`. -/
theorem C62_client_secret (h : SafeGroup p) (hs : Spec.Sane p.n p.g) (B x a a' u k : Nat)
    (hk : (computeK D p : Res SrpAuthError Nat) = .ok k)
    (h0 : ¬ B ≡ k * p.g ^ x [MOD p.n]) (h1 : ¬ B ≡ k * p.g ^ x + 1 [MOD p.n]) (h2 : ¬ B + 1 ≡ k * p.g ^ x [MOD p.n])
    (he : (Client.computePremasterSecret p B k x a u : Res SrpAuthError Nat) = Client.computePremasterSecret p B k x a' u) :
    a ≡ a' [MOD (p.n - 1) / 2] := by
  have hn : 0 < p.n := h.1.pos
  have : NeZero p.n := ⟨hn.ne'⟩
  rw [computeK_eq D p hs.2, Res.ok.injEq] at hk
  subst hk
  rw [client_premaster_eq D p hn, client_premaster_eq D p hn, Res.ok.injEq, (ZMod.val_injective p.n).eq_iff] at he
  rw [← ZMod.natCast_eq_natCast_iff] at h0 h1 h2
  push_cast at h0 h1 h2
  refine Nat.ModEq.add_right_cancel' (u * x) (pow_inj h (z := (B : ZMod p.n) - Spec.k D p.n p.g * (p.g : ZMod p.n) ^ x)
    (sub_ne_zero.2 h0) (fun e => h1 (by rw [← e]; ring)) (fun e => h2 ?_) he)
  rw [← sub_eq_zero, show (B : ZMod p.n) + 1 - Spec.k D p.n p.g * (p.g : ZMod p.n) ^ x =
    ((B : ZMod p.n) - Spec.k D p.n p.g * (p.g : ZMod p.n) ^ x) + 1 by ring, e]
  ring

/-- **C62 (zero secret of the client).** An accepted public value of the server gives the client the secret zero exactly
if it equals `k * g^x`, that is, if the server guessed the client's verifier; the client's private value must not be
zero. -/
theorem C62_client_zero (h : SafeGroup p) (hs : Spec.Sane p.n p.g) (a I P s B : Bytes) (ha : beToNat a ≠ 0) (k : Nat)
    (v : Bytes) (hk : (computeK D p : Res SrpAuthError Nat) = .ok k)
    (hv : (Client.computeVerifier D p I P s : Res SrpAuthError Bytes) = .ok v) (cv : SrpClientVerifier)
    (hc : Client.processReply D p a I P s B = .ok cv) :
    beToNat cv.key = 0 ↔ beToNat B ≡ k * beToNat v [MOD p.n] := by
  have hn : 0 < p.n := h.1.pos
  have : NeZero p.n := ⟨hn.ne'⟩
  have : Fact p.n.Prime := ⟨h.1⟩
  rw [computeK_eq D p hs.2, Res.ok.injEq] at hk
  subst hk
  rw [client_verifier_eq D p hn, Res.ok.injEq] at hv
  subst hv
  rw [client_process_eq D p hs] at hc
  split at hc
  · cases hc
  obtain rfl := Res.ok.inj hc
  simp only [clientResult, Spec.enc, beToNat_toBytesBE, ZMod.val_eq_zero, Spec.clientS]
  rw [← ZMod.natCast_eq_natCast_iff]
  push_cast
  rw [ZMod.natCast_val, ZMod.cast_id, Spec.v, pow_eq_zero_iff (by omega), sub_eq_zero]

/-- **C62 (built-in groups).** The built-in groups are such groups, and private values of
up to 64 bytes, as the documentation recommends, never collide in them: neither in the public value nor (outside the
exceptional cases) in the secret. -/
theorem C62_builtin (p : SrpGroup)
    (hp : p ∈ [Groups.G_1024, Groups.G_1536, Groups.G_2048, Groups.G_3072, Groups.G_4096, Groups.G_6144,
      Groups.G_8192]) :
    SafeGroup p ∧ Spec.Sane p.n p.g ∧
    (∀ a a' : Bytes, a.length ≤ 64 → a'.length ≤ 64 →
      (Client.computePublicEphemeral p a : Res SrpAuthError Bytes) = Client.computePublicEphemeral p a' →
      beToNat a = beToNat a') ∧
    (∀ A v u (b b' : Bytes), b.length ≤ 64 → b'.length ≤ 64 → ¬ A * v ^ u ≡ 0 [MOD p.n] →
      ¬ A * v ^ u ≡ 1 [MOD p.n] → ¬ A * v ^ u + 1 ≡ 0 [MOD p.n] →
      (Server.computePremasterSecret p A v u (beToNat b) : Res SrpAuthError Nat) =
        Server.computePremasterSecret p A v u (beToNat b') → beToNat b = beToNat b') := by
  have hsafe : SafeGroup p := Groups.C60_safe_primes p hp
  have hbig : 256 ^ 64 ≤ (p.n - 1) / 2 ∧ Spec.Sane p.n p.g := by
    simp only [List.mem_cons, List.not_mem_nil, or_false] at hp
    rcases hp with rfl | rfl | rfl | rfl | rfl | rfl | rfl
    · exact ⟨by decide +kernel, Groups.C06_builtin_sane (1024, Groups.G_1024) (by simp [Groups.builtin])⟩
    · exact ⟨by decide +kernel, Groups.C06_builtin_sane (1536, Groups.G_1536) (by simp [Groups.builtin])⟩
    · exact ⟨by decide +kernel, Groups.C06_builtin_sane (2048, Groups.G_2048) (by simp [Groups.builtin])⟩
    · exact ⟨by decide +kernel, Groups.C06_builtin_sane (3072, Groups.G_3072) (by simp [Groups.builtin])⟩
    · exact ⟨by decide +kernel, Groups.C06_builtin_sane (4096, Groups.G_4096) (by simp [Groups.builtin])⟩
    · exact ⟨by decide +kernel, Groups.C06_builtin_sane (6144, Groups.G_6144) (by simp [Groups.builtin])⟩
    · exact ⟨by decide +kernel, Groups.C06_builtin_sane (8192, Groups.G_8192) (by simp [Groups.builtin])⟩
  have hlt : ∀ a : Bytes, a.length ≤ 64 → beToNat a < (p.n - 1) / 2 := fun a ha =>
    (lt_of_lt_of_le (beToNat_lt a) (Nat.pow_le_pow_right (by norm_num) ha)).trans_le hbig.1
  refine ⟨hsafe, hbig.2, fun a a' ha ha' he => ?_, fun A v u b b' hb hb' h0 h1 h2 he => ?_⟩
  · have := ((C62_client_ephemeral hsafe).1 a a').1 he
    have h1 := hlt a ha
    have h2 := hlt a' ha'
    rwa [Nat.ModEq, Nat.mod_eq_of_lt (by omega), Nat.mod_eq_of_lt (by omega)] at this
  · have := C62_server_secret hsafe A v u _ _ h0 h1 h2 he
    rwa [Nat.ModEq, Nat.mod_eq_of_lt (hlt b hb), Nat.mod_eq_of_lt (hlt b' hb')] at this

/-- The hypotheses about values are met: in the group modulo 47 with `g = 5`, `A = 2`, `v = 3`, `u = 1`. -/
example : SafeGroup ⟨47, 5⟩ ∧ Spec.Sane 47 5 ∧ ¬ 2 * 3 ^ 1 ≡ 0 [MOD 47] ∧ ¬ 2 * 3 ^ 1 ≡ 1 [MOD 47] ∧
    ¬ 2 * 3 ^ 1 + 1 ≡ 0 [MOD 47] := by
  refine ⟨⟨by norm_num, by norm_num, (Groups.C11_safe_prime_generator 47 5 (by decide) (by decide) (by decide) (by decide)
    (by norm_num)).2⟩, by decide +kernel, by decide, by decide, by decide⟩

end Verif.Srp
