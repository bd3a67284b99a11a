import Mathlib.Algebra.MvPolynomial.SchwartzZippel
import Mathlib.Algebra.MvPolynomial.Rename
import Mathlib.Data.Set.Card
import Mathlib.Algebra.Module.BigOperators

/-!
# Algebraic attackers that confirm guesses

Group elements whose discrete logarithms `v` are unknown to the attacker are public. The attacker computes with them by adding
multiples, compares the results, sends one element to each session, and tests whether an element that it has computed is the secret
of a session. It adapts to the outcomes. The secret of a session depends on the logarithms, on what the attacker has sent and on which
of several candidates is the right one. The lemma bounds the number of logarithms and candidates for which a test ever succeeds, if
the secret is, for all candidates but one, not a sum of known multiples by a polynomial identity.
-/

namespace Verif.Confirm
open MvPolynomial

variable {F τ ι : Type} [Field F] [Fintype τ] {n : Nat}

/-- Factors of the base point (`none`) and of the public elements. -/
abbrev Coef (τ F : Type) := Option τ → F

/-- The logarithm of a sum of multiples. -/
def val (c : Coef τ F) (v : τ → F) : F := c none + ∑ i, c (some i) * v i

/-- The sum of multiples itself: the public elements are `v i` times the base point. -/
def comb {G : Type} [AddCommGroup G] [Module F G] (base : G) (v : τ → F) (c : Coef τ F) : G :=
  c none • base + ∑ i, c (some i) • v i • base

theorem comb_eq {G : Type} [AddCommGroup G] [Module F G] (base : G) (v : τ → F) (c : Coef τ F) :
    comb base v c = val c v • base := by
  simp only [comb, val, add_smul, Finset.sum_smul, mul_smul]

/-- A step of the attacker: it sends an element to a session (the first one counts), compares an element with the neutral one,
or tests whether an element is the secret of a session. -/
inductive Move (n : Nat) (τ F : Type) where
  | send (s : Fin n) (c : Coef τ F)
  | compare (c : Coef τ F)
  | test (s : Fin n) (c : Coef τ F)

/-- The outcomes so far and what was sent. -/
structure State (n : Nat) (τ F : Type) where
  outcomes : List Bool
  sent : Fin n → Option (Coef τ F)

/-- What decides about the outcome of a move. -/
abbrev Judge (n : Nat) (τ F : Type) := (Fin n → Option (Coef τ F)) → Move n τ F → Bool

/-- One move of the attacker `A`, which knows the outcomes so far. -/
def step (J : Judge n τ F) (A : List Bool → Move n τ F) (st : State n τ F) : State n τ F where
  outcomes := st.outcomes ++ [J st.sent (A st.outcomes)]
  sent := match A st.outcomes with
    | .send s c => if (st.sent s).isNone then Function.update st.sent s (some c) else st.sent
    | _ => st.sent

def run (J : Judge n τ F) (A : List Bool → Move n τ F) : Nat → State n τ F
  | 0 => ⟨[], fun _ => none⟩
  | k + 1 => step J A (run J A k)

/-- The real judge, for a relation that says whether an element is the secret. -/
noncomputable def real [DecidableEq F] (hit : Fin n → Coef τ F → Coef τ F → Prop) (v : τ → F) : Judge n τ F := fun sent m =>
  open Classical in
  match m with
  | .send _ _ => false
  | .compare c => decide (val c v = 0)
  | .test s c => decide (∃ a, sent s = some a ∧ hit s a c)

/-- A test succeeds within `T` moves. -/
def Succeeds (J : Judge n τ F) (A : List Bool → Move n τ F) (T : Nat) : Prop :=
  ∃ k < T, ∃ s c, A (run J A k).outcomes = .test s c ∧ J (run J A k).sent (.test s c) = true

/-- The polynomial of a sum of multiples. -/
noncomputable def form (c : Coef τ F) : MvPolynomial τ F := C (c none) + ∑ i, C (c (some i)) * X i

theorem eval_form (c : Coef τ F) (v : τ → F) : eval v (form c) = val c v := by simp [form, val]

theorem form_degree (c : Coef τ F) : (form c).totalDegree ≤ 1 := by
  unfold form
  refine (totalDegree_add _ _).trans (max_le (by simp) ?_)
  refine (totalDegree_finsetSum _ _).trans (Finset.sup_le fun i _ => ?_)
  refine (totalDegree_mul _ _).trans ?_
  simp

theorem form_eq_zero {c : Coef τ F} (h : form c = 0) : c = 0 := by
  classical
  have h0 : c none = 0 := by
    have := eval_form c 0
    rw [h] at this
    simpa [val] using this.symm
  funext o
  cases o with
  | none => exact h0
  | some i =>
    have := eval_form c (Pi.single i 1)
    rw [h] at this
    simpa [val, h0, Pi.single_apply] using this.symm

/-- Schwartz-Zippel for any finite set of variables. -/
theorem card_zeros [Fintype F] (p : MvPolynomial τ F) (hp : p ≠ 0) :
    Fintype.card F * {v : τ → F | eval v p = 0}.ncard ≤ p.totalDegree * Fintype.card F ^ Fintype.card τ := by
  classical
  let e := Fintype.equivFin τ
  have hq : rename e p ≠ 0 := fun h => hp (rename_injective e e.injective (by rw [h, map_zero]))
  have hz := schwartz_zippel_totalDegree hq (Finset.univ : Finset F)
  have hcard : {v : τ → F | eval v p = 0}.ncard =
      (Finset.filter (fun f : Fin (Fintype.card τ) → F => eval f (rename e p) = 0) (Fintype.piFinset fun _ => Finset.univ)).card := by
    rw [← Set.ncard_coe_finset]
    refine Set.ncard_congr (fun v _ => v ∘ e.symm) ?_ ?_ ?_
    · intro v hv
      have : (v ∘ e.symm) ∘ e = v := by funext i; simp
      simpa [eval_rename, this] using hv
    · intro v w _ _ h
      funext i
      simpa using congrFun h (e i)
    · intro f hf
      refine ⟨f ∘ e, ?_, by funext i; simp⟩
      simpa [eval_rename] using hf
  rw [hcard]
  have hF : (0 : ℚ≥0) < Fintype.card F := by exact_mod_cast Fintype.card_pos
  rw [Finset.card_univ, div_le_div_iff₀ (by positivity) hF] at hz
  have ht : (rename e p).totalDegree ≤ p.totalDegree := totalDegree_rename_le _ _
  have : (Finset.filter (fun f : Fin (Fintype.card τ) → F => eval f (rename e p) = 0)
      (Fintype.piFinset fun _ => Finset.univ)).card * Fintype.card F ≤
        (rename e p).totalDegree * Fintype.card F ^ Fintype.card τ := by exact_mod_cast hz
  calc _ = _ := mul_comm _ _
    _ ≤ _ := this
    _ ≤ _ := Nat.mul_le_mul_right _ ht

/-- The judge of polynomial identities: no test succeeds, and only sums that are neutral for all logarithms are neutral. -/
noncomputable def ideal : Judge n τ F := fun _ m =>
  open Classical in
  match m with
  | .compare c => decide (form c = 0)
  | _ => false

omit [Field F] [Fintype τ] in
/-- As long as the two judges agree along the run of one, the runs are the same. -/
theorem run_eq {J J' : Judge n τ F} {A : List Bool → Move n τ F} {k : Nat}
    (h : ∀ i < k, J (run J' A i).sent (A (run J' A i).outcomes) = J' (run J' A i).sent (A (run J' A i).outcomes)) :
    run J A k = run J' A k := by
  induction k with
  | zero => rfl
  | succ k ih =>
    rw [run, run, ih fun i hi => h i (by omega), step, step, h k (by omega)]

omit [Field F] [Fintype τ] in
@[simp] theorem run_length (J : Judge n τ F) (A : List Bool → Move n τ F) (k : Nat) : (run J A k).outcomes.length = k := by
  induction k with
  | zero => rfl
  | succ k ih => simp [run, step, ih]

/-- The attacker that first sends `a s` to session `s`, for all sessions, and then tests `c s`. -/
def trial [NeZero n] (a c : Fin n → Coef τ F) : List Bool → Move n τ F := fun outs =>
  if outs.length < n then .send (Fin.ofNat n outs.length) (a (Fin.ofNat n outs.length))
  else .test (Fin.ofNat n (outs.length - n)) (c (Fin.ofNat n (outs.length - n)))

omit [Field F] [Fintype τ] in
theorem trial_sent [NeZero n] (a c : Fin n → Coef τ F) (J : Judge n τ F) (k : Nat) (s : Fin n) (hs : s.val < k) :
    (run J (trial a c) k).sent s = some (a s) := by
  have hfresh : ∀ i ≤ n, ∀ s : Fin n, i ≤ s.val → (run J (trial a c) i).sent s = none := by
    intro i
    induction i with
    | zero => intros; rfl
    | succ i ih =>
      intro hi s hs
      have hA : trial a c (run J (trial a c) i).outcomes = .send (Fin.ofNat n i) (a (Fin.ofNat n i)) := by
        simp [trial, show i < n by omega]
      have hne : s ≠ Fin.ofNat n i := by
        intro e
        have := congrArg Fin.val e
        rw [Fin.val_ofNat, Nat.mod_eq_of_lt (by omega)] at this
        omega
      simp only [run, step, hA]
      split
      · rw [Function.update_of_ne hne]; exact ih (by omega) s (by omega)
      · exact ih (by omega) s (by omega)
  induction k with
  | zero => omega
  | succ k ih =>
    by_cases hk : k < n
    · have hA : trial a c (run J (trial a c) k).outcomes = .send (Fin.ofNat n k) (a (Fin.ofNat n k)) := by simp [trial, hk]
      have hv : (Fin.ofNat n k).val = k := by rw [Fin.val_ofNat, Nat.mod_eq_of_lt hk]
      have hnone := hfresh k hk.le (Fin.ofNat n k) hv.ge
      simp only [run, step, hA, hnone, Option.isNone_none, if_true]
      by_cases e : s = Fin.ofNat n k
      · rw [e, Function.update_self]
      · rw [Function.update_of_ne e]
        refine ih ?_
        rcases Nat.lt_or_ge s.val k with h | h
        · exact h
        · exact absurd (Fin.ext (by omega)) e
    · have hA : trial a c (run J (trial a c) k).outcomes = .test (Fin.ofNat n (k - n)) (c (Fin.ofNat n (k - n))) := by
        simp [trial, hk]
      simp only [run, step, hA]
      exact ih (by omega)

omit [Field F] [Fintype τ] in
theorem trial_test [NeZero n] (a c : Fin n → Coef τ F) (J : Judge n τ F) (s : Fin n) :
    trial a c (run J (trial a c) (n + s.val)).outcomes = .test s (c s) := by
  simp [trial]

/-- If a test succeeds, the judge differs from the ideal one at a first move; up to there the runs are the same. -/
theorem differs {J : Judge n τ F} {A : List Bool → Move n τ F} {T : Nat} (h : Succeeds J A T) :
    ∃ k < T, run J A k = run ideal A k ∧
      J (run ideal A k).sent (A (run ideal A k).outcomes) ≠ ideal (run ideal A k).sent (A (run ideal A k).outcomes) := by
  classical
  have hex : ∃ k, k < T ∧
      J (run ideal A k).sent (A (run ideal A k).outcomes) ≠ ideal (run ideal A k).sent (A (run ideal A k).outcomes) := by
    by_contra hno
    obtain ⟨k, hk, s, c, h1, h2⟩ := h
    have hagree : ∀ i < T, J (run ideal A i).sent (A (run ideal A i).outcomes) =
        ideal (run ideal A i).sent (A (run ideal A i).outcomes) := by
      intro i hi
      by_contra hd
      exact hno ⟨i, hi, hd⟩
    have hr : run J A k = run ideal A k := run_eq fun i hi => hagree i (by omega)
    have := hagree k hk
    rw [← hr, h1, h2] at this
    simp [ideal] at this
  refine ⟨Nat.find hex, (Nat.find_spec hex).1, run_eq fun i hi => ?_, (Nat.find_spec hex).2⟩
  by_contra hd
  exact Nat.find_min hex hi ⟨hi.trans (Nat.find_spec hex).1, hd⟩

/-- The polynomial that belongs to a move. -/
noncomputable def movePoly (P : Fin n → Coef τ F → Coef τ F → MvPolynomial τ F) (sent : Fin n → Option (Coef τ F)) :
    Move n τ F → MvPolynomial τ F
  | .send _ _ => 0
  | .compare c => form c
  | .test s c => match sent s with
    | some a => P s a c
    | none => 0

theorem ncard_biUnion_le {α β : Type} (s : Finset α) (f : α → Set β) : (⋃ i ∈ s, f i).ncard ≤ ∑ i ∈ s, (f i).ncard := by
  classical
  induction s using Finset.induction with
  | empty => simp
  | insert a s ha ih =>
    rw [Finset.set_biUnion_insert, Finset.sum_insert ha]
    exact (Set.ncard_union_le _ _).trans (Nat.add_le_add_left ih _)

/-- **The bound.** For each session and each element sent there is at most one candidate (`triv`) for which tests can succeed by an
identity; for the others the logarithms are a zero of a polynomial of degree at most two. Then the share of the pairs of logarithms and
candidates for which a test succeeds is at most `n / |candidates| + 2 T / |F|`. -/
theorem card_succeeds [Fintype F] [DecidableEq F] [Fintype ι] (hit : (τ → F) → ι → Fin n → Coef τ F → Coef τ F → Prop)
    (P : ι → Fin n → Coef τ F → Coef τ F → MvPolynomial τ F) (hP : ∀ j s a c, (P j s a c).totalDegree ≤ 2)
    (triv : Fin n → Coef τ F → Set ι) (htriv : ∀ s a, (triv s a).Subsingleton) (A : List Bool → Move n τ F) (T : Nat)
    (W : Set ((τ → F) × ι))
    (hW : ∀ w ∈ W, ∀ k < T, ∀ s c a, A (run (real (hit w.1 w.2) w.1) A k).outcomes = .test s c →
      (run (real (hit w.1 w.2) w.1) A k).sent s = some a → hit w.1 w.2 s a c →
        w.2 ∈ triv s a ∨ (P w.2 s a c ≠ 0 ∧ eval w.1 (P w.2 s a c) = 0)) :
    Fintype.card F * {w | w ∈ W ∧ Succeeds (real (hit w.1 w.2) w.1) A T}.ncard ≤
      (n * Fintype.card F + 2 * T * Fintype.card ι) * Fintype.card F ^ Fintype.card τ := by
  classical
  let q : Nat → ι → MvPolynomial τ F := fun k j => movePoly (P j) (run ideal A k).sent (A (run ideal A k).outcomes)
  have hq : ∀ k j, (q k j).totalDegree ≤ 2 := by
    intro k j
    show (movePoly _ _ _).totalDegree ≤ 2
    generalize A (run ideal A k).outcomes = m
    cases m with
    | send s c => simp [movePoly]
    | compare c => exact (form_degree c).trans (by norm_num)
    | test s c =>
      cases hs : (run ideal A k).sent s with
      | none => simp [movePoly, hs]
      | some a => simp only [movePoly, hs]; exact hP _ _ _ _
  let Z : Nat → ι → Set (τ → F) := fun k j => if q k j = 0 then ∅ else {v | eval v (q k j) = 0}
  have hZ : ∀ k j, Fintype.card F * (Z k j).ncard ≤ 2 * Fintype.card F ^ Fintype.card τ := by
    intro k j
    by_cases h0 : q k j = 0
    · simp [Z, h0]
    · simp only [Z, h0, if_false]
      exact (card_zeros _ h0).trans (Nat.mul_le_mul_right _ (hq k j))
  let E : Set ((τ → F) × ι) := {w | ∃ s a, (∃ k < T, (run ideal A k).sent s = some a) ∧ w.2 ∈ triv s a}
  have hsub : {w | w ∈ W ∧ Succeeds (real (hit w.1 w.2) w.1) A T} ⊆
      E ∪ ⋃ k ∈ Finset.range T, ⋃ j ∈ (Finset.univ : Finset ι), (fun v => (v, j)) '' Z k j := by
    rintro ⟨v, j⟩ ⟨hw, hs⟩
    obtain ⟨k, hk, hr, hd⟩ := differs hs
    have hzero : ∀ p : MvPolynomial τ F, p = q k j → p ≠ 0 → eval v p = 0 →
        (v, j) ∈ ⋃ k ∈ Finset.range T, ⋃ j ∈ (Finset.univ : Finset ι), (fun v => (v, j)) '' Z k j := by
      rintro p rfl h0 hz
      simp only [Set.mem_iUnion]
      exact ⟨k, Finset.mem_range.2 hk, j, Finset.mem_univ _, v, by simp only [Z, h0, if_false]; exact hz, rfl⟩
    have hW' := hW (v, j) hw k hk
    rw [hr] at hW'
    simp only [q] at hzero
    cases hm : A (run ideal A k).outcomes with
    | send s c => rw [hm] at hd; exact absurd rfl hd
    | compare c =>
      rw [hm] at hd hzero
      right
      refine hzero _ rfl ?_ ?_
      · rintro (h0 : form c = 0)
        apply hd
        have : val c v = 0 := by rw [← eval_form, h0, map_zero]
        simp [real, ideal, this, h0]
      · show eval v (form c) = 0
        rw [eval_form]
        by_contra hv
        apply hd
        have : form c ≠ 0 := fun h0 => hv (by rw [← eval_form, h0, map_zero])
        simp [real, ideal, this, hv]
    | test s c =>
      rw [hm] at hd hzero
      have hhit : ∃ a, (run ideal A k).sent s = some a ∧ hit v j s a c := by
        by_contra hno
        apply hd
        simp only [real, ideal, hno, decide_false]
      obtain ⟨a, ha, hhit⟩ := hhit
      rcases hW' s c a hm ha hhit with h | ⟨h0, h1⟩
      · exact Or.inl ⟨s, a, ⟨k, hk, ha⟩, h⟩
      · exact Or.inr (hzero (P j s a c) (by simp only [movePoly, ha]) h0 h1)
  have hE : E.ncard ≤ n * Fintype.card F ^ Fintype.card τ := by
    -- what was sent never changes
    have hmono : ∀ s a k i, (run (ideal (n := n) (τ := τ) (F := F)) A k).sent s = some a →
        (run (ideal (n := n) (τ := τ) (F := F)) A (k + i)).sent s = some a := by
      intro s a k i h
      induction i with
      | zero => exact h
      | succ i ih =>
        show (step ideal A (run ideal A (k + i))).sent s = some a
        cases hm : A (run ideal A (k + i)).outcomes with
        | send s' c =>
          simp only [step, hm]
          split
          · rename_i hnone
            by_cases e : s = s'
            · subst e; rw [ih] at hnone; simp at hnone
            · rw [Function.update_of_ne e]; exact ih
          · exact ih
        | compare c => simp only [step, hm]; exact ih
        | test s' c => simp only [step, hm]; exact ih
    let f : Fin n → Set ι := fun s => {j | ∃ a, (run (ideal (n := n) (τ := τ) (F := F)) A T).sent s = some a ∧ j ∈ triv s a}
    have hf : ∀ s, (f s).ncard ≤ 1 := by
      intro s
      rw [Set.ncard_le_one_iff]
      rintro i j ⟨a, ha, hi⟩ ⟨b, hb, hj⟩
      rw [ha, Option.some.injEq] at hb
      subst hb
      exact htriv s a hi hj
    have hE' : E ⊆ (Set.univ : Set (τ → F)) ×ˢ ⋃ s ∈ (Finset.univ : Finset (Fin n)), f s := by
      rintro ⟨v, j⟩ ⟨s, a, ⟨k, hk, ha⟩, hj⟩
      refine ⟨trivial, ?_⟩
      simp only [Set.mem_iUnion]
      refine ⟨s, Finset.mem_univ _, a, ?_, hj⟩
      have := hmono s a k (T - k) ha
      rwa [show k + (T - k) = T by omega] at this
    calc E.ncard ≤ _ := Set.ncard_le_ncard hE'
      _ = Fintype.card F ^ Fintype.card τ * (⋃ s ∈ (Finset.univ : Finset (Fin n)), f s).ncard := by
        rw [Set.ncard_prod, Set.ncard_univ, Nat.card_eq_fintype_card, Fintype.card_fun]
      _ ≤ Fintype.card F ^ Fintype.card τ * n := by
        refine Nat.mul_le_mul_left _ ((ncard_biUnion_le _ _).trans ?_)
        refine (Finset.sum_le_sum fun s _ => hf s).trans ?_
        simp
      _ = _ := mul_comm _ _
  calc _ ≤ Fintype.card F * (E ∪ ⋃ k ∈ Finset.range T, ⋃ j ∈ (Finset.univ : Finset ι), (fun v => (v, j)) '' Z k j).ncard :=
        Nat.mul_le_mul_left _ (Set.ncard_le_ncard hsub)
    _ ≤ Fintype.card F * (E.ncard + ∑ k ∈ Finset.range T, ∑ j : ι, (Z k j).ncard) := by
        refine Nat.mul_le_mul_left _ ((Set.ncard_union_le _ _).trans (Nat.add_le_add_left ?_ _))
        refine (ncard_biUnion_le _ _).trans (Finset.sum_le_sum fun k _ => ?_)
        refine (ncard_biUnion_le _ _).trans (Finset.sum_le_sum fun j _ => ?_)
        exact Set.ncard_image_le
    _ ≤ _ := by
        rw [Nat.mul_add, Finset.mul_sum, Nat.add_mul]
        refine Nat.add_le_add ?_ ?_
        · calc _ ≤ Fintype.card F * (n * Fintype.card F ^ Fintype.card τ) := Nat.mul_le_mul_left _ hE
            _ = _ := by ring
        · calc _ ≤ ∑ k ∈ Finset.range T, ∑ j : ι, 2 * Fintype.card F ^ Fintype.card τ := by
                refine Finset.sum_le_sum fun k _ => ?_
                rw [Finset.mul_sum]
                exact Finset.sum_le_sum fun j _ => hZ k j
            _ = _ := by simp; ring

end Verif.Confirm
