import Verif.Basic.Bytes
import Mathlib.Data.Int.CardIntervalMod
import Mathlib.Data.Set.Card
import Mathlib.Data.ZMod.Basic

/-!
# Counting generator outputs

How many byte strings of a fixed length reduce to a given residue.
-/

namespace Verif

theorem ncard_residue (k m : Nat) [NeZero m] (c : ZMod m) :
    {b : Bytes | b.length = k ∧ (leToNat b : ZMod m) = c}.ncard =
      256 ^ k / m + if c.val < 256 ^ k % m then 1 else 0 := by
  have hm : 0 < m := Nat.pos_of_ne_zero (NeZero.ne m)
  have himg : {b : Bytes | b.length = k ∧ (leToNat b : ZMod m) = c} =
      leFixed k '' ((Finset.range (256 ^ k)).filter (· ≡ c.val [MOD m]) : Finset Nat) := by
    ext b
    simp only [Set.mem_ofPred_eq, Set.mem_image, Finset.coe_filter, Finset.mem_range]
    constructor
    · rintro ⟨hl, hc⟩
      refine ⟨leToNat b, ⟨?_, ?_⟩, ?_⟩
      · rw [← hl]; exact leToNat_lt b
      · rw [← ZMod.natCast_eq_natCast_iff, hc, ZMod.natCast_zmod_val]
      · rw [← hl]; exact leFixed_leToNat b
    · rintro ⟨n, ⟨hn, hc⟩, rfl⟩
      refine ⟨leFixed_length k n, ?_⟩
      rw [leToNat_leFixed, Nat.mod_eq_of_lt hn]
      rw [← ZMod.natCast_eq_natCast_iff, ZMod.natCast_zmod_val] at hc
      exact hc
  rw [himg, Set.InjOn.ncard_image, Set.ncard_coe_finset, ← Nat.count_eq_card_filter_range,
    Nat.count_modEq_card _ hm, Nat.mod_eq_of_lt (ZMod.val_lt c)]
  intro a ha b hb hab
  simp only [Finset.coe_filter, Finset.mem_range, Set.mem_ofPred_eq] at ha hb
  have := congrArg leToNat hab
  rwa [leToNat_leFixed, leToNat_leFixed, Nat.mod_eq_of_lt ha.1, Nat.mod_eq_of_lt hb.1] at this

/-- Strings of `k` bytes whose residue satisfies a condition: their number is that of the residues times the quotient,
with an error of at most one for each residue. -/
theorem ncard_residues (k m : Nat) [NeZero m] (T : ZMod m → Prop) :
    256 ^ k / m * {c | T c}.ncard ≤ {b : Bytes | b.length = k ∧ T (leToNat b : ZMod m)}.ncard ∧
    {b : Bytes | b.length = k ∧ T (leToNat b : ZMod m)}.ncard ≤ (256 ^ k / m + 1) * {c | T c}.ncard := by
  classical
  have hfin (c : ZMod m) : {b : Bytes | b.length = k ∧ (leToNat b : ZMod m) = c}.Finite := by
    refine Set.Finite.subset (Set.Finite.image (leFixed k) (Finset.range (256 ^ k)).finite_toSet) ?_
    rintro b ⟨hl, -⟩
    refine ⟨leToNat b, ?_, ?_⟩
    · rw [Finset.mem_coe, Finset.mem_range, ← hl]; exact leToNat_lt b
    · rw [← hl]; exact leFixed_leToNat b
  have hu : {b : Bytes | b.length = k ∧ T (leToNat b : ZMod m)} =
      (Finset.univ.filter T).biUnion (fun c => (hfin c).toFinset) := by
    ext b
    simp only [Set.mem_ofPred_eq, Finset.coe_biUnion, Finset.coe_filter, Finset.mem_univ, true_and,
      Set.Finite.coe_toFinset, Set.mem_iUnion, exists_prop]
    constructor
    · rintro ⟨hl, ht⟩
      exact ⟨_, ht, hl, rfl⟩
    · rintro ⟨c, ht, hl, rfl⟩
      exact ⟨hl, ht⟩
  have hn : {c | T c}.ncard = (Finset.univ.filter T).card := by
    rw [← Set.ncard_coe_finset, Finset.coe_filter]
    simp
  have hcard (c : ZMod m) : (hfin c).toFinset.card = 256 ^ k / m + if c.val < 256 ^ k % m then 1 else 0 := by
    rw [← Set.ncard_eq_toFinset_card _ (hfin c), ncard_residue]
  rw [hu, Set.ncard_coe_finset, hn, Finset.card_biUnion]
  · constructor
    · rw [mul_comm, ← smul_eq_mul]
      refine Finset.card_nsmul_le_sum _ _ _ fun c _ => ?_
      rw [hcard]
      exact Nat.le_add_right _ _
    · rw [mul_comm, ← smul_eq_mul]
      refine Finset.sum_le_card_nsmul _ _ _ fun c _ => ?_
      rw [hcard]
      split <;> omega
  · intro c _ c' _ hne
    refine Finset.disjoint_left.2 fun b hb hb' => hne ?_
    rw [Set.Finite.mem_toFinset] at hb hb'
    exact hb.2.symm.trans hb'.2

theorem finite_residue (k m : Nat) (c : ZMod m) : {b : Bytes | b.length = k ∧ (leToNat b : ZMod m) = c}.Finite := by
  refine Set.Finite.subset (Set.Finite.image (leFixed k) (Finset.range (256 ^ k)).finite_toSet) ?_
  rintro b ⟨hl, -⟩
  refine ⟨leToNat b, ?_, ?_⟩
  · rw [Finset.mem_coe, Finset.mem_range, ← hl]; exact leToNat_lt b
  · rw [← hl]; exact leFixed_leToNat b

/-- The same for `n` strings at once. -/
theorem ncard_residues_pi (n k m : Nat) [NeZero m] (T : (Fin n → ZMod m) → Prop) :
    (256 ^ k / m) ^ n * {c | T c}.ncard ≤
      {b : Fin n → Bytes | (∀ i, (b i).length = k) ∧ T (fun i => (leToNat (b i) : ZMod m))}.ncard ∧
    {b : Fin n → Bytes | (∀ i, (b i).length = k) ∧ T (fun i => (leToNat (b i) : ZMod m))}.ncard ≤
      (256 ^ k / m + 1) ^ n * {c | T c}.ncard := by
  classical
  have hu : {b : Fin n → Bytes | (∀ i, (b i).length = k) ∧ T (fun i => (leToNat (b i) : ZMod m))} =
      (Finset.univ.filter T).biUnion
        (fun c => Fintype.piFinset fun i => (finite_residue k m (c i)).toFinset) := by
    ext b
    simp only [Set.mem_ofPred_eq, Finset.coe_biUnion, Finset.coe_filter, Finset.mem_univ, true_and,
      Set.mem_iUnion, exists_prop, Finset.mem_coe, Fintype.mem_piFinset, Set.Finite.mem_toFinset]
    constructor
    · rintro ⟨hl, ht⟩
      exact ⟨_, ht, fun i => ⟨hl i, rfl⟩⟩
    · rintro ⟨c, ht, h⟩
      refine ⟨fun i => (h i).1, ?_⟩
      have : (fun i => (leToNat (b i) : ZMod m)) = c := funext fun i => (h i).2
      rwa [this]
  have hn : {c | T c}.ncard = (Finset.univ.filter T).card := by
    rw [← Set.ncard_coe_finset, Finset.coe_filter]
    simp
  have hcard (c : Fin n → ZMod m) (i : Fin n) : (finite_residue k m (c i)).toFinset.card =
      256 ^ k / m + if (c i).val < 256 ^ k % m then 1 else 0 := by
    rw [← Set.ncard_eq_toFinset_card _ (finite_residue k m (c i)), ncard_residue]
  rw [hu, Set.ncard_coe_finset, hn, Finset.card_biUnion]
  · constructor
    · rw [mul_comm, ← smul_eq_mul]
      refine Finset.card_nsmul_le_sum _ _ _ fun c _ => ?_
      rw [Fintype.card_piFinset]
      have := Finset.prod_le_prod' (s := Finset.univ) (f := fun _ : Fin n => 256 ^ k / m)
        (g := fun i => (finite_residue k m (c i)).toFinset.card) fun i _ => by
          rw [hcard]
          exact Nat.le_add_right _ _
      rwa [Finset.prod_const, Finset.card_univ, Fintype.card_fin] at this
    · rw [mul_comm, ← smul_eq_mul]
      refine Finset.sum_le_card_nsmul _ _ _ fun c _ => ?_
      rw [Fintype.card_piFinset]
      have := Finset.prod_le_prod' (s := Finset.univ) (g := fun _ : Fin n => 256 ^ k / m + 1)
        (f := fun i => (finite_residue k m (c i)).toFinset.card) fun i _ => by
          rw [hcard]
          split <;> omega
      rwa [Finset.prod_const, Finset.card_univ, Fintype.card_fin] at this
  · intro c _ c' _ hne
    refine Finset.disjoint_left.2 fun b hb hb' => hne (funext fun i => ?_)
    simp only [Fintype.mem_piFinset, Set.Finite.mem_toFinset] at hb hb'
    exact (hb i).2.symm.trans (hb' i).2

/-- Conditions met by equally many tuples of residues are met by almost equally many tuples of strings. -/
theorem ncard_close_pi (n k m : Nat) [NeZero m] {T T' : (Fin n → ZMod m) → Prop}
    (h : {x | T x}.ncard = {x | T' x}.ncard) :
    {b : Fin n → Bytes | (∀ i, (b i).length = k) ∧ T fun i => (leToNat (b i) : ZMod m)}.ncard ≤
      {b : Fin n → Bytes | (∀ i, (b i).length = k) ∧ T' fun i => (leToNat (b i) : ZMod m)}.ncard +
        ((256 ^ k / m + 1) ^ n - (256 ^ k / m) ^ n) * m ^ n := by
  have h1 := ncard_residues_pi n k m T
  have h2 := ncard_residues_pi n k m T'
  rw [← h] at h2
  have hle : {x : Fin n → ZMod m | T x}.ncard ≤ m ^ n := by
    have := Set.ncard_le_card {x : Fin n → ZMod m | T x}
    rwa [Nat.card_fun, Nat.card_zmod, Nat.card_eq_fintype_card, Fintype.card_fin] at this
  refine h1.2.trans (le_trans ?_ (Nat.add_le_add_right h2.1 _))
  generalize (256 : ℕ) ^ k / m = q
  have hq : q ^ n ≤ (q + 1) ^ n := Nat.pow_le_pow_left (Nat.le_succ q) n
  have : (q + 1) ^ n = q ^ n + ((q + 1) ^ n - q ^ n) := by omega
  conv_lhs => rw [this]
  rw [add_mul]
  exact Nat.add_le_add_left (Nat.mul_le_mul_left _ hle) _

end Verif
