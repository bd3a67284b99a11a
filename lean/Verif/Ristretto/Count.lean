import Verif.Ristretto.Elligator
import Verif.Basic.Uniform

/-!
# How often the map from uniform bytes takes a value

Lemmas for C68. For a given value of `s²` there are at most four values of `r = i t²` and so at most eight field
elements `t`; a class has at most four values of `y`; a field element has at most four encodings in 32 bytes.
-/

namespace Verif.Ristretto
open Ed25519 (Fe Point edD sqrtM1 sqrtRatio sqrtRatio_spec feOfBytes)

/-- A polynomial of degree at most two that is not zero has at most two roots. -/
theorem quad (a b c : Fe) (h : a ≠ 0 ∨ b ≠ 0 ∨ c ≠ 0) : ∃ u v : Fe, ∀ r, a * r ^ 2 + b * r + c = 0 → r = u ∨ r = v := by
  by_cases ha : a = 0
  · by_cases hb : b = 0
    · refine ⟨0, 0, fun r hr => ?_⟩
      rw [ha, hb] at hr
      have hc : c = 0 := by linear_combination hr
      rcases h with h | h | h
      · exact absurd ha h
      · exact absurd hb h
      · exact absurd hc h
    · refine ⟨-c / b, 0, fun r hr => Or.inl ?_⟩
      rw [ha] at hr
      rw [eq_div_iff hb]
      linear_combination hr
  · by_cases hs : ∃ u, a * u ^ 2 + b * u + c = 0
    · obtain ⟨u, hu⟩ := hs
      refine ⟨u, -b / a - u, fun r hr => ?_⟩
      by_cases hru : r = u
      · exact Or.inl hru
      · right
        have h2 : (r - u) * (a * (r + u) + b) = 0 := by linear_combination hr - hu
        rcases mul_eq_zero.1 h2 with h3 | h3
        · exact absurd (sub_eq_zero.1 h3) hru
        · rw [eq_sub_iff_add_eq, eq_div_iff ha]
          linear_combination h3
    · exact ⟨0, 0, fun r hr => absurd ⟨r, hr⟩ hs⟩

theorem one_sub_edD_sq_ne_zero : 1 - edD ^ 2 ≠ 0 := by
  have : 1 - edD ^ 2 = -(edD - 1) * (edD + 1) := by ring
  rw [this]
  exact mul_ne_zero (neg_ne_zero.2 edD_ne_one) edD_ne_neg_one

/-- What the map computes as `s²`, in terms of `r`. -/
theorem mapS_sq (t : Fe) :
    (mapD (mapR t) = 0 ∧ mapS t = 0) ∨
    mapD (mapR t) * mapS t ^ 2 = mapN (mapR t) ∨
    mapD (mapR t) * mapS t ^ 2 = mapR t * mapN (mapR t) := by
  by_cases hD : mapD (mapR t) = 0
  · left
    rcases map_relations t with ⟨h, -⟩ | ⟨h, -⟩
    · exact absurd hD h
    · exact ⟨hD, h⟩
  · right
    have hspec := sqrtRatio_spec (mapN (mapR t)) (mapD (mapR t)) hD
    have hns := sqrtRatio_nonsquare (mapN (mapR t)) (mapD (mapR t)) hD
    rw [mapS, mapQ]
    obtain ⟨q, hq⟩ : ∃ q, q = sqrtRatio (mapN (mapR t)) (mapD (mapR t)) := ⟨_, rfl⟩
    rw [← hq] at hspec hns ⊢
    obtain ⟨D, hDe⟩ := named (mapD (mapR t))
    obtain ⟨N, hNe⟩ := named (mapN (mapR t))
    rw [← hDe, ← hNe] at hspec hns ⊢
    obtain ⟨b, s⟩ := q
    cases b
    · right
      have hs := hns rfl
      simp only at hs
      simp only [Bool.false_eq_true, if_false]
      rw [neg_sq, absFe_sq, mapR]
      linear_combination t ^ 2 * hs
    · left
      have hs := (hspec.2 rfl).1
      simp only at hs
      simp only [if_true]
      linear_combination hs

/-- A value of `s²` has at most four values of `r`. -/
theorem r_count (σ : Fe) : ∃ S : Finset Fe, S.card ≤ 4 ∧ ∀ t, mapS t ^ 2 = σ → mapR t ∈ S := by
  classical
  have hd := Ed25519.edD_ne_zero
  have h1 := one_sub_edD_sq_ne_zero
  by_cases hσ : σ = 0
  · obtain ⟨u, v, huv⟩ := quad edD (1 + edD ^ 2) edD (Or.inl hd)
    refine ⟨{u, v, 0, -1}, Finset.card_le_four, fun t ht => ?_⟩
    simp only [Finset.mem_insert, Finset.mem_singleton]
    rw [hσ] at ht
    rcases mapS_sq t with ⟨hD, -⟩ | h | h
    · rw [mapD] at hD
      rcases huv (mapR t) (by linear_combination -hD) with h | h
      · exact Or.inl h
      · exact Or.inr (Or.inl h)
    · rw [ht, mul_zero, mapN, oneMinusDSq_eq] at h
      rcases mul_eq_zero.1 h.symm with h | h
      · right; right; right; linear_combination h
      · exact absurd h h1
    · rw [ht, mul_zero, mapN, oneMinusDSq_eq] at h
      rcases mul_eq_zero.1 h.symm with h | h
      · right; right; left; exact h
      · rcases mul_eq_zero.1 h with h | h
        · right; right; right; linear_combination h
        · exact absurd h h1
  · obtain ⟨u, v, huv⟩ := quad (edD * σ) ((1 + edD ^ 2) * σ + (1 - edD ^ 2)) (edD * σ + (1 - edD ^ 2))
      (Or.inl (mul_ne_zero hd hσ))
    obtain ⟨w, z, hwz⟩ := quad (edD * σ + (1 - edD ^ 2)) ((1 + edD ^ 2) * σ + (1 - edD ^ 2)) (edD * σ)
      (Or.inr (Or.inr (mul_ne_zero hd hσ)))
    refine ⟨{u, v, w, z}, Finset.card_le_four, fun t ht => ?_⟩
    simp only [Finset.mem_insert, Finset.mem_singleton]
    rcases mapS_sq t with ⟨-, h⟩ | h | h
    · rw [h] at ht
      exact absurd (by linear_combination -ht) hσ
    · rw [ht, mapN, oneMinusDSq_eq, mapD] at h
      rcases huv (mapR t) (by linear_combination -h) with h | h
      · exact Or.inl h
      · exact Or.inr (Or.inl h)
    · rw [ht, mapN, oneMinusDSq_eq, mapD] at h
      rcases hwz (mapR t) (by linear_combination -h) with h | h
      · exact Or.inr (Or.inr (Or.inl h))
      · exact Or.inr (Or.inr (Or.inr h))

/-- Each value of `r` comes from at most two field elements. -/
theorem t_count (r : Fe) : ∃ S : Finset Fe, S.card ≤ 2 ∧ ∀ t, mapR t = r → t ∈ S := by
  classical
  obtain ⟨u, v, h⟩ := quad sqrtM1 0 (-r) (Or.inl sqrtM1_ne_zero)
  refine ⟨{u, v}, Finset.card_le_two, fun t ht => ?_⟩
  simp only [Finset.mem_insert, Finset.mem_singleton]
  rw [mapR] at ht
  exact h t (by linear_combination ht)

/-- At most eight field elements are sent to points with a given `y`. -/
theorem y_count (y : Fe) : ∃ S : Finset Fe, S.card ≤ 8 ∧ ∀ t, (mapXY t).2 = y → t ∈ S := by
  classical
  obtain ⟨S, hS, hm⟩ := r_count ((1 - y) / (1 + y))
  choose f hf hg using t_count
  refine ⟨S.biUnion f, ?_, fun t ht => ?_⟩
  · exact (Finset.card_biUnion_le_card_mul S f 2 fun r _ => hf r).trans (Nat.mul_le_mul_right 2 hS)
  · have hw := map_denom_ne_zero t
    rw [mapXY_snd, div_eq_iff hw] at ht
    have hy : 1 + y ≠ 0 := by
      intro h
      have hy' : y = -1 := by linear_combination h
      rw [hy'] at ht
      exact Ed25519.two_ne_zero' (by linear_combination ht)
    refine Finset.mem_biUnion.2 ⟨mapR t, hm t ?_, hg _ t rfl⟩
    rw [eq_div_iff hy]
    linear_combination -ht

/-- At most 32 field elements are sent to a given element of the group. -/
theorem map_count (g : RPoint) : ∃ S : Finset Fe, S.card ≤ 32 ∧ ∀ t, map t = g → t ∈ S := by
  classical
  obtain ⟨P, hP, rfl⟩ := exists_mk g
  choose f hf hg using y_count
  refine ⟨({P.y, -P.y, P.x * sqrtM1, -(P.x * sqrtM1)} : Finset Fe).biUnion f, ?_, fun t ht => ?_⟩
  · exact (Finset.card_biUnion_le_card_mul _ f 8 fun y _ => hf y).trans
      (Nat.mul_le_mul_right 8 Finset.card_le_four)
  · refine Finset.mem_biUnion.2 ⟨(mapXY t).2, ?_, hg _ t rfl⟩
    simp only [Finset.mem_insert, Finset.mem_singleton]
    rcases coset hP (map_even t) ht.symm with h | h | h | h
    · exact Or.inl h.2
    · exact Or.inr (Or.inl h.2)
    · exact Or.inr (Or.inr (Or.inl h.2))
    · exact Or.inr (Or.inr (Or.inr h.2))

/-- A field element has at most four encodings in 32 bytes. -/
theorem bytes_count (t : Fe) : ∃ S : Finset Bytes, S.card ≤ 4 ∧ ∀ b : Bytes, b.length = 32 → feOfBytes b = t → b ∈ S := by
  classical
  refine ⟨({t.val, t.val + p25519, t.val + 2 ^ 255, t.val + p25519 + 2 ^ 255} : Finset Nat).image (leFixed 32),
    Finset.card_image_le.trans Finset.card_le_four, fun b hb ht => ?_⟩
  refine Finset.mem_image.2 ⟨leToNat b, ?_, by rw [← hb]; exact leFixed_leToNat b⟩
  have hlt : leToNat b < 2 ^ 256 := by
    have := leToNat_lt b
    rw [hb] at this
    exact this.trans_eq (by decide +kernel)
  rw [feOfBytes] at ht
  have hv : t.val = leToNat b % 2 ^ 255 % p25519 := by rw [← ht, ZMod.val_natCast]
  simp only [Finset.mem_insert, Finset.mem_singleton]
  rw [hv]
  obtain ⟨n, hn⟩ : ∃ n, n = leToNat b := ⟨_, rfl⟩
  rw [← hn] at hlt ⊢
  have h2 : (2 : Nat) ^ 256 = 2 * 2 ^ 255 := by decide +kernel
  have h3 : (2 : Nat) ^ 255 = p25519 + 19 := by decide +kernel
  have h4 : 19 < p25519 := by decide +kernel
  clear hv ht
  generalize p25519 = p at h3 h4 ⊢
  rw [h2, h3] at hlt
  rw [h3]
  have e1 : n % (p + 19) = n ∨ n % (p + 19) + (p + 19) = n := by
    by_cases h : n < p + 19
    · exact Or.inl (Nat.mod_eq_of_lt h)
    · right
      rw [Nat.mod_eq_sub_mod (by omega), Nat.mod_eq_of_lt (by omega)]
      omega
  have e0 : n % (p + 19) < p + 19 := Nat.mod_lt _ (by omega)
  generalize n % (p + 19) = m at *
  have e2 : m % p = m ∨ m % p + p = m := by
    by_cases h : m < p
    · exact Or.inl (Nat.mod_eq_of_lt h)
    · right
      rw [Nat.mod_eq_sub_mod (by omega), Nat.mod_eq_of_lt (by omega)]
      omega
  omega

/-- At most 128 strings of 32 bytes are sent to a given element of the group. -/
theorem half_count (g : RPoint) :
    ∃ S : Finset Bytes, S.card ≤ 128 ∧ ∀ b : Bytes, b.length = 32 → map (feOfBytes b) = g → b ∈ S := by
  classical
  obtain ⟨S, hS, hm⟩ := map_count g
  choose f hf hg using bytes_count
  refine ⟨S.biUnion f, ?_, fun b hb h => Finset.mem_biUnion.2 ⟨_, hm _ h, hg _ b hb rfl⟩⟩
  exact (Finset.card_biUnion_le_card_mul S f 4 fun t _ => hf t).trans (Nat.mul_le_mul_right 4 hS)

/-- All byte strings of a length. -/
def strings (n : Nat) : Finset Bytes := (Finset.range (256 ^ n)).image (leFixed n)

theorem mem_strings {n : Nat} {b : Bytes} (h : b.length = n) : b ∈ strings n := by
  refine Finset.mem_image.2 ⟨leToNat b, Finset.mem_range.2 ?_, ?_⟩
  · rw [← h]; exact leToNat_lt b
  · rw [← h]; exact leFixed_leToNat b

theorem card_strings (n : Nat) : (strings n).card = 256 ^ n := by
  rw [strings, Finset.card_image_of_injOn, Finset.card_range]
  intro a ha b hb hab
  rw [Finset.mem_coe, Finset.mem_range] at ha hb
  have := congrArg leToNat hab
  rwa [leToNat_leFixed, leToNat_leFixed, Nat.mod_eq_of_lt ha, Nat.mod_eq_of_lt hb] at this

theorem card_strings_le (n : Nat) : (strings n).card ≤ 256 ^ n :=
  Finset.card_image_le.trans (Finset.card_range _).le

theorem card_strings_32 : (strings 32).card ≤ 2 ^ 256 := by
  have h : (256 : Nat) ^ 32 = 2 ^ 256 := by decide +kernel
  rw [← h]
  exact card_strings_le 32

/-- At most `128 * 2^256` strings of 64 bytes are sent to a given element of the group. -/
theorem uniform_count (g : RPoint) :
    ∃ S : Finset Bytes, S.card ≤ 128 * 2 ^ 256 ∧ ∀ b : Bytes, b.length = 64 → fromUniform b = g → b ∈ S := by
  classical
  choose f hf hg using half_count
  have hk := card_strings_32
  have hmem := fun b : Bytes => mem_strings (n := 32) (b := b)
  generalize (2 : Nat) ^ 256 = K at hk ⊢
  generalize strings 32 = A at hk hmem
  refine ⟨A.biUnion fun a => (f (g - map (feOfBytes a))).image (a ++ ·), ?_, fun b hb h => ?_⟩
  · refine (Finset.card_biUnion_le_card_mul _ _ 128 fun a _ => Finset.card_image_le.trans (hf _)).trans ?_
    generalize A.card = c at hk ⊢
    omega
  · have h1 : (b.take 32).length = 32 := by rw [List.length_take, hb]; rfl
    have h2 : (b.drop 32).length = 32 := by rw [List.length_drop, hb]
    have h3 : (b.drop 32).take 32 = b.drop 32 := List.take_of_length_le h2.le
    rw [fromUniform, h3] at h
    refine Finset.mem_biUnion.2 ⟨b.take 32, hmem _ h1, Finset.mem_image.2 ⟨b.drop 32, hg _ _ h2 ?_, ?_⟩⟩
    · rw [← h, add_sub_cancel_left]
    · exact List.take_append_drop 32 b

end Verif.Ristretto
