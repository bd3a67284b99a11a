import Verif.Basic.Uniform
import Mathlib.Algebra.BigOperators.Ring.Finset
import Mathlib.Data.Set.Card

/-!
# Counting generator outputs by segments

A generator output is a byte string that the program reads from the front. These lemmas count the outputs for
which one segment meets a condition that may depend on what was read before.
-/

namespace Verif

theorem ncard_bytes (k : Nat) : {b : Bytes | b.length = k}.ncard = 256 ^ k := by
  have h := ncard_residue k 1 0
  have he : {b : Bytes | b.length = k ∧ (leToNat b : ZMod 1) = 0} = {b : Bytes | b.length = k} := by
    ext b
    simp only [Set.mem_ofPred_eq, and_iff_left_iff_imp]
    exact fun _ => Subsingleton.elim _ _
  rw [he] at h
  rw [h, Nat.div_one, Nat.mod_one, if_neg (Nat.not_lt_zero _), add_zero]

theorem finite_bytes (k : Nat) : {b : Bytes | b.length = k}.Finite := by
  apply Set.finite_of_ncard_ne_zero
  rw [ncard_bytes]
  positivity

/-- If after every prefix `c` values of the segment meet the condition, then `c * 256^(L - k)` strings of length
`L` do. -/
theorem ncard_segment {o k L : Nat} (h : o + k ≤ L) {c : Nat} (P : Bytes → Bytes → Prop)
    (hc : ∀ a, a.length = o → {b : Bytes | b.length = k ∧ P a b}.ncard = c) :
    {T : Bytes | T.length = L ∧ P (T.take o) ((T.drop o).take k)}.ncard = c * 256 ^ (L - k) := by
  classical
  have hfin : {T : Bytes | T.length = L ∧ P (T.take o) ((T.drop o).take k)}.Finite :=
    (finite_bytes L).subset fun T hT => hT.1
  have hA := finite_bytes o
  have hB := finite_bytes (L - o - k)
  rw [Set.ncard_eq_toFinset_card _ hfin,
    Finset.card_eq_sum_card_fiberwise (f := fun T => (T.take o, T.drop (o + k)))
      (t := hA.toFinset ×ˢ hB.toFinset)]
  · have hfib : ∀ y ∈ hA.toFinset ×ˢ hB.toFinset,
        (hfin.toFinset.filter fun T => (T.take o, T.drop (o + k)) = y).card = c := by
      rintro ⟨a, d⟩ hy
      simp only [Finset.mem_product, Set.Finite.mem_toFinset, Set.mem_ofPred_eq] at hy
      obtain ⟨ha, hd⟩ := hy
      rw [← hc a ha, ← Set.ncard_coe_finset]
      refine Set.ncard_congr (fun T _ => (T.drop o).take k) ?_ ?_ ?_
      · intro T hT
        simp only [Finset.coe_filter, Set.Finite.mem_toFinset, Set.mem_ofPred_eq, Prod.mk.injEq] at hT
        obtain ⟨⟨hl, hP⟩, h1, -⟩ := hT
        simp only [Set.mem_ofPred_eq]
        refine ⟨?_, h1 ▸ hP⟩
        rw [List.length_take, List.length_drop]
        omega
      · intro T T' hT hT' he
        simp only [Finset.coe_filter, Set.Finite.mem_toFinset, Set.mem_ofPred_eq, Prod.mk.injEq] at hT hT'
        obtain ⟨-, h1, h2⟩ := hT
        obtain ⟨-, h1', h2'⟩ := hT'
        have e : ∀ T : Bytes, T = T.take o ++ ((T.drop o).take k ++ T.drop (o + k)) := by
          intro T
          conv_lhs => rw [← List.take_append_drop o T, ← List.take_append_drop k (T.drop o), List.drop_drop]
        rw [e T, e T', h1, h1', h2, h2', he]
      · intro b hb
        simp only [Set.mem_ofPred_eq] at hb
        obtain ⟨hl, hP⟩ := hb
        have t1 : (a ++ (b ++ d)).take o = a := by rw [← ha, List.take_left]
        have t2 : (a ++ (b ++ d)).drop o = b ++ d := by rw [← ha, List.drop_left]
        have t3 : (b ++ d).take k = b := by rw [← hl, List.take_left]
        have t4 : (a ++ (b ++ d)).drop (o + k) = d := by
          rw [← List.drop_drop, t2, ← hl, List.drop_left]
        refine ⟨a ++ (b ++ d), ?_, ?_⟩
        · simp only [Finset.coe_filter, Set.Finite.mem_toFinset, Set.mem_ofPred_eq, Prod.mk.injEq]
          refine ⟨⟨?_, ?_⟩, t1, t4⟩
          · simp only [List.length_append]; omega
          · rw [t1, t2, t3]; exact hP
        · rw [t2, t3]
    rw [Finset.sum_congr rfl hfib, Finset.sum_const, Finset.card_product,
      ← Set.ncard_eq_toFinset_card _ hA, ← Set.ncard_eq_toFinset_card _ hB, ncard_bytes, ncard_bytes, ← pow_add,
      smul_eq_mul, mul_comm]
    congr 2
    omega
  · intro T hT
    simp only [Set.Finite.coe_toFinset, Set.mem_ofPred_eq] at hT
    simp only [Finset.coe_product, Set.Finite.coe_toFinset, Set.mem_prod, Set.mem_ofPred_eq, List.length_take,
      List.length_drop]
    omega

/-- The same with an upper bound. -/
theorem ncard_segment_le {o k L : Nat} (h : o + k ≤ L) {c : Nat} (P : Bytes → Bytes → Prop)
    (hc : ∀ a, a.length = o → {b : Bytes | b.length = k ∧ P a b}.ncard ≤ c) :
    {T : Bytes | T.length = L ∧ P (T.take o) ((T.drop o).take k)}.ncard ≤ c * 256 ^ (L - k) := by
  classical
  by_cases hck : c ≤ 256 ^ k
  · -- enlarge each set of segments to exactly `c` elements
    have hex : ∀ a : Bytes, ∃ Q : Set Bytes, a.length = o → {b : Bytes | b.length = k ∧ P a b} ⊆ Q ∧
        Q ⊆ {b : Bytes | b.length = k} ∧ Q.ncard = c := by
      intro a
      by_cases ha : a.length = o
      · obtain ⟨Q, h1, h2, h3⟩ := Set.exists_subsuperset_card_eq (s := {b : Bytes | b.length = k ∧ P a b})
          (t := {b : Bytes | b.length = k}) (fun b hb => hb.1) (hc a ha) (by rw [ncard_bytes]; exact hck)
        exact ⟨Q, fun _ => ⟨h1, h2, h3⟩⟩
      · exact ⟨∅, fun h => absurd h ha⟩
    choose Q hQ using hex
    have hq := ncard_segment h (fun a b => b ∈ Q a) (c := c) (fun a ha => by
      rw [← (hQ a ha).2.2]
      congr 1
      ext b
      simp only [Set.mem_ofPred_eq, and_iff_right_iff_imp]
      exact fun hb => (hQ a ha).2.1 hb)
    rw [← hq]
    refine Set.ncard_le_ncard ?_ ((finite_bytes L).subset fun T hT => hT.1)
    rintro T ⟨hT, hP⟩
    refine ⟨hT, (hQ _ ?_).1 ⟨?_, hP⟩⟩
    · rw [List.length_take]; omega
    · rw [List.length_take, List.length_drop]; omega
  · refine (Set.ncard_le_ncard (fun T hT => hT.1) (finite_bytes L)).trans ?_
    rw [ncard_bytes, show L = k + (L - k) by omega, pow_add, show k + (L - k) - k = L - k by omega]
    exact Nat.mul_le_mul_right _ (by omega)

end Verif
