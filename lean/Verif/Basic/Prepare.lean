import Mathlib.Algebra.Polynomial.Roots
import Mathlib.LinearAlgebra.StdBasis
import Mathlib.LinearAlgebra.Dimension.StrongRankCondition
import Mathlib.Data.Fintype.BigOperators
import Mathlib.Data.Set.Card

/-!
# Algebraic attackers on a server that multiplies by a secret

An attacker holds a base point and `m` points of which it knows nothing. It sends sums of multiples of elements it holds to a
server that answers with `q` times what it got. The lemmas bound the number of secrets and points for which such an attacker
ends up with `q` times more of the points than it sent queries.
-/

namespace Verif.Prepare
open Polynomial

section
variable {F V V' Q : Type} [Field F] [AddCommGroup V] [Module F V] [AddCommGroup V'] [Module F V']

/-- The sum of multiples of the elements of a list. -/
def lin (c : Nat → F) : List V → V
  | [] => 0
  | v :: l => c 0 • v + lin (fun i => c (i + 1)) l

/-- What an attacker holds in the end: it starts with a list of elements and sends queries, each a sum of multiples of what it
holds by then; the answers are appended. `Q` is whatever else a query depends on. -/
def known (ans : Q → V → V) : List V → List (Q × (Nat → F)) → List V
  | l, [] => l
  | l, (s, c) :: qs => known ans (l ++ [ans s (lin c l)]) qs

theorem lin_map (φ : V →ₗ[F] V') (c : Nat → F) (l : List V) : lin c (l.map φ) = φ (lin c l) := by
  induction l generalizing c with
  | nil => simp [lin]
  | cons v l ih => simp [lin, ih]

theorem lin_mem (p : Submodule F V) (c : Nat → F) (l : List V) (h : ∀ v ∈ l, v ∈ p) : lin c l ∈ p := by
  induction l generalizing c with
  | nil => exact p.zero_mem
  | cons v l ih =>
    exact p.add_mem (p.smul_mem _ (h v (by simp))) (ih _ fun x hx => h x (by simp [hx]))

/-- A linear map that respects the answers respects what is known. -/
theorem known_map (φ : V →ₗ[F] V') (ans : Q → V → V) (ans' : Q → V' → V') (h : ∀ s v, φ (ans s v) = ans' s (φ v))
    (l : List V) (qs : List (Q × (Nat → F))) : (known ans l qs).map φ = known ans' (l.map φ) qs := by
  induction qs generalizing l with
  | nil => rfl
  | cons q qs ih => rw [known, ih, List.map_append, List.map_singleton, h, ← lin_map]; rfl

/-- The answers, one for each query, follow the start. -/
theorem known_append (ans : Q → V → V) (l : List V) (qs : List (Q × (Nat → F))) :
    ∃ as : List V, known ans l qs = l ++ as ∧ as.length = qs.length := by
  induction qs generalizing l with
  | nil => exact ⟨[], by simp [known], rfl⟩
  | cons q qs ih =>
    obtain ⟨as, h1, h2⟩ := ih (l ++ [ans q.1 (lin q.2 l)])
    exact ⟨ans q.1 (lin q.2 l) :: as, by rw [known, h1]; simp, by simp [h2]⟩

/-- The factors that pick out one element. -/
def pick (F : Type) [Field F] (k : Nat) : Nat → F := fun i => if i = k then 1 else 0

theorem lin_zero (l : List V) : lin (fun _ => (0 : F)) l = 0 := by
  induction l with
  | nil => rfl
  | cons v l ih => rw [lin, ih, zero_smul, zero_add]

theorem lin_pick (k : Nat) (l : List V) : lin (pick F k) l = l[k]?.getD 0 := by
  induction l generalizing k with
  | nil => simp [lin]
  | cons v l ih =>
    cases k with
    | zero =>
      have : (fun i => pick F 0 (i + 1)) = fun _ => 0 := by funext i; simp [pick]
      rw [lin, this, lin_zero]
      simp [pick]
    | succ k =>
      have : (fun i => pick F (k + 1) (i + 1)) = pick F k := by funext i; simp [pick]
      rw [lin, this, ih]
      simp [pick]

/-- Queries that pick out elements of the start. -/
theorem known_pick (ans : Q → V → V) (l l' : List V) (qs : List (Q × Nat)) (h : ∀ q ∈ qs, q.2 < l.length) :
    known ans (l ++ l') (qs.map fun q => (q.1, pick F q.2)) = l ++ l' ++ qs.map fun q => ans q.1 (l[q.2]?.getD 0) := by
  induction qs generalizing l' with
  | nil => simp [known]
  | cons q qs ih =>
    rw [List.map_cons, known, lin_pick, List.append_assoc, ih _ (fun x hx => h x (by simp [hx])),
      List.getElem?_append_left (h q (by simp))]
    simp

end

variable {F : Type} [Field F] {m : Nat}

/-- Elements as the attacker can write them: a multiple of the base point and of each of the `m` points, where the factors
are polynomials in the unknown secret. -/
abbrev Form (F : Type) [Field F] (m : Nat) := Option (Fin m) → F[X]

/-- The base point and the `m` points. -/
noncomputable def start (F : Type) [Field F] (m : Nat) : List (Form F m) :=
  (Pi.single none 1 : Form F m) :: List.ofFn fun j : Fin m => (Pi.single (some j) 1 : Form F m)

/-- The value for the secret `q` and points with discrete logarithms `h`. -/
noncomputable def ev (q : F) (h : Fin m → F) : Form F m →ₗ[F] F where
  toFun f := (f none).eval q + ∑ j, (f (some j)).eval q * h j
  map_add' f g := by
    simp only [Pi.add_apply, eval_add, add_mul, Finset.sum_add_distrib]
    ring
  map_smul' c f := by
    simp only [Pi.smul_apply, Polynomial.smul_eq_C_mul, eval_mul, eval_C, smul_eq_mul, RingHom.id_apply, mul_add, Finset.mul_sum, mul_assoc]

theorem ev_X (q : F) (h : Fin m → F) (f : Form F m) : ev q h (fun i => X * f i) = q * ev q h f := by
  simp only [ev, LinearMap.coe_mk, AddHom.coe_mk, eval_mul, eval_X, mul_add, Finset.mul_sum, mul_assoc]

theorem ev_start (q : F) (h : Fin m → F) : (start F m).map (ev q h) = 1 :: List.ofFn h := by
  rw [start, List.map_cons, List.map_ofFn]
  congr 1
  · simp [ev]
  · congr 1
    funext j
    simp only [Function.comp, ev, LinearMap.coe_mk, AddHom.coe_mk]
    rw [Pi.single_eq_of_ne (by simp), eval_zero, zero_add, Finset.sum_eq_single j]
    · simp
    · intro b _ hb
      rw [Pi.single_eq_of_ne (by simpa using hb), eval_zero, zero_mul]
    · simp

/-- The formal answer. -/
noncomputable def formal {Q : Type} (_ : Q) (f : Form F m) : Form F m := fun i => X * f i

/-- Forms of bounded degree. -/
def bounded (F : Type) [Field F] (m d : Nat) : Submodule F (Form F m) where
  carrier := {f | ∀ i, (f i).natDegree ≤ d}
  zero_mem' i := by simp
  add_mem' hf hg i := (natDegree_add_le _ _).trans (max_le (hf i) (hg i))
  smul_mem' c f hf i := (natDegree_smul_le c (f i)).trans (hf i)

theorem known_bounded {Q : Type} (l : List (Form F m)) (d : Nat) (hl : ∀ f ∈ l, f ∈ bounded F m d)
    (qs : List (Q × (Nat → F))) : ∀ f ∈ known formal l qs, f ∈ bounded F m (d + qs.length) := by
  induction qs generalizing l d with
  | nil => exact hl
  | cons q qs ih =>
    rw [List.length_cons, ← Nat.add_assoc, Nat.add_right_comm]
    refine ih _ (d + 1) ?_
    intro f hf
    rw [List.mem_append, List.mem_singleton] at hf
    rcases hf with hf | rfl
    · exact fun i => (hl f hf i).trans (Nat.le_succ d)
    · intro i
      refine (natDegree_mul_le).trans ?_
      rw [natDegree_X, Nat.add_comm]
      exact Nat.add_le_add_right (lin_mem (bounded F m d) q.2 l hl i) 1

theorem start_bounded : ∀ f ∈ start F m, f ∈ bounded F m 0 := by
  have h1 : ∀ k : Option (Fin m), (Pi.single k 1 : Form F m) ∈ bounded F m 0 := by
    intro k i
    by_cases h : i = k
    · subst h; simp
    · rw [Pi.single_eq_of_ne h]; simp
  intro f hf
  rw [start, List.mem_cons, List.mem_ofFn] at hf
  rcases hf with rfl | ⟨j, rfl⟩
  · exact h1 _
  · exact h1 _

/-- The factors of `q` in the coefficients of the points. -/
def linear (F : Type) [Field F] (m : Nat) : Form F m →ₗ[F] (Fin m → F) where
  toFun f j := (f (some j)).coeff 1
  map_add' f g := by funext j; simp
  map_smul' c f := by funext j; simp

/-- Formally, `n` queries give `q` times at most `n` of the points. -/
theorem card_formal {Q : Type} (qs : List (Q × (Nat → F))) (out : Fin m → Nat → F) [DecidablePred fun j : Fin m =>
      lin (out j) (known formal (start F m) qs) = Pi.single (some j) X] :
    (Finset.univ.filter fun j : Fin m => lin (out j) (known formal (start F m) qs) = Pi.single (some j) X).card ≤
      qs.length := by
  classical
  set J := Finset.univ.filter fun j : Fin m => lin (out j) (known formal (start F m) qs) = Pi.single (some j) X
  obtain ⟨as, h1, h2⟩ := known_append (F := F) formal (start F m) qs
  set w := (as.map (linear F m)).toFinset
  have hv : LinearIndependent F (fun j : J => (Pi.single j.1 1 : Fin m → F)) :=
    (Pi.linearIndependent_single_one (Fin m) F).comp _ Subtype.val_injective
  have hs : Set.range (fun j : J => (Pi.single j.1 1 : Fin m → F)) ≤ Submodule.span F (w : Set (Fin m → F)) := by
    rintro _ ⟨⟨j, hj⟩, rfl⟩
    have hj : lin (out j) (known formal (start F m) qs) = Pi.single (some j) X := (Finset.mem_filter.1 hj).2
    have : (Pi.single j 1 : Fin m → F) = linear F m (Pi.single (some j) X) := by
      funext i
      by_cases h : i = j
      · subst h; simp [linear]
      · rw [Pi.single_eq_of_ne h]
        simp only [linear, LinearMap.coe_mk, AddHom.coe_mk]
        rw [Pi.single_eq_of_ne (by simpa using h)]
        simp
    rw [SetLike.mem_coe]
    simp only []
    rw [this, ← hj, ← lin_map, h1, List.map_append]
    refine lin_mem _ _ _ ?_
    intro v hv
    rw [List.mem_append] at hv
    rcases hv with hv | hv
    · obtain ⟨f, hf, rfl⟩ := List.mem_map.1 hv
      have : linear F m f = 0 := by
        funext j
        exact coeff_eq_zero_of_natDegree_lt (Nat.lt_succ_of_le (start_bounded f hf (some j)))
      rw [this]
      exact Submodule.zero_mem _
    · exact Submodule.subset_span (by simpa [w] using hv)
  have := linearIndependent_le_span_aux' _ hv (w : Set (Fin m → F)) hs
  rw [Fintype.card_coe] at this
  simp only [Finset.coe_sort_coe, Fintype.card_coe] at this
  refine this.trans ((List.toFinset_card_le _).trans ?_)
  rw [List.length_map, h2]

/-- A form other than zero vanishes for few secrets and points. -/
theorem card_zeros [Fintype F] [DecidableEq F] {d : Nat} {f : Form F m} (hd : f ∈ bounded F m d) (hf : f ≠ 0) :
    (Finset.univ.filter fun w : F × (Fin m → F) => ev w.1 w.2 f = 0).card ≤ (d + 1) * Fintype.card F ^ m := by
  have hroot : ∀ i, f i ≠ 0 →
      (Finset.univ.filter fun w : F × (Fin m → F) => (f i).eval w.1 = 0).card ≤ d * Fintype.card F ^ m := by
    intro i hi
    have : (Finset.univ.filter fun w : F × (Fin m → F) => (f i).eval w.1 = 0) ⊆
        (f i).roots.toFinset ×ˢ (Finset.univ : Finset (Fin m → F)) := by
      intro w hw
      simp only [Finset.mem_filter, Finset.mem_univ, true_and] at hw
      simp [hi, hw]
    refine (Finset.card_le_card this).trans ?_
    rw [Finset.card_product, Finset.card_univ, Fintype.card_fun, Fintype.card_fin]
    exact Nat.mul_le_mul_right _ ((Multiset.toFinset_card_le _).trans ((card_roots' _).trans (hd i)))
  by_cases hs : ∃ j, f (some j) ≠ 0
  · obtain ⟨j, hj⟩ := hs
    have hsub : (Finset.univ.filter fun w : F × (Fin m → F) => ev w.1 w.2 f = 0) ⊆
        (Finset.univ.filter fun w : F × (Fin m → F) => (f (some j)).eval w.1 = 0) ∪
        (Finset.univ.filter fun w : F × (Fin m → F) => ev w.1 w.2 f = 0 ∧ (f (some j)).eval w.1 ≠ 0) := by
      intro w hw
      simp only [Finset.mem_filter, Finset.mem_univ, true_and, Finset.mem_union] at hw ⊢
      tauto
    refine (Finset.card_le_card hsub).trans ((Finset.card_union_le _ _).trans ?_)
    rw [Nat.add_mul, Nat.one_mul]
    refine Nat.add_le_add (hroot _ hj) ?_
    have : (Finset.univ : Finset (Fin m → F)).card = Fintype.card F ^ m := by
      rw [Finset.card_univ, Fintype.card_fun, Fintype.card_fin]
    rw [← this]
    refine Finset.card_le_card_of_injOn (fun w => Function.update w.2 j w.1) (fun _ _ => Finset.mem_univ _) ?_
    rintro ⟨q, h⟩ hw ⟨q', h'⟩ hw' he
    simp only [Finset.coe_filter, Finset.mem_univ, true_and, Set.mem_ofPred_eq] at hw hw'
    have hq : q = q' := by simpa using congrFun he j
    subst hq
    have hne : ∀ i, i ≠ j → h i = h' i := by
      intro i hi
      simpa [Function.update_of_ne hi] using congrFun he i
    have hh : h j = h' j := by
      have e := hw.1.trans hw'.1.symm
      simp only [ev, LinearMap.coe_mk, AddHom.coe_mk, add_right_inj] at e
      rw [← Finset.add_sum_erase _ _ (Finset.mem_univ j), ← Finset.add_sum_erase _ (fun i => _ * h' i) (Finset.mem_univ j),
        Finset.sum_congr rfl (g := fun i => (f (some i)).eval q * h' i)
          (fun i hi => by rw [hne i (Finset.ne_of_mem_erase hi)])] at e
      exact mul_left_cancel₀ hw.2 (add_right_cancel e)
    refine Prod.ext rfl (funext fun i => ?_)
    by_cases hi : i = j
    · subst hi; exact hh
    · exact hne i hi
  · have hs : ∀ j, f (some j) = 0 := fun j => by_contra fun h => hs ⟨j, h⟩
    have hn : f none ≠ 0 := by
      intro h
      apply hf
      funext i
      cases i with
      | none => exact h
      | some j => exact hs j
    have : (Finset.univ.filter fun w : F × (Fin m → F) => ev w.1 w.2 f = 0) =
        (Finset.univ.filter fun w : F × (Fin m → F) => (f none).eval w.1 = 0) := by
      congr 1
      funext w
      simp [ev, hs]
    rw [this]
    exact (hroot _ hn).trans (Nat.mul_le_mul_right _ (Nat.le_succ d))

/-- The number of secrets and points for which `n` queries give `q` times more than `n` of the points. -/
theorem card_prepared [Fintype F] [DecidableEq F] {Q : Type} (qs : List (Q × (Nat → F))) (out : Fin m → Nat → F) :
    (Finset.univ.filter fun w : F × (Fin m → F) => qs.length <
      (Finset.univ.filter fun j : Fin m =>
        lin (out j) (known (fun _ x => w.1 * x) (1 :: List.ofFn w.2) qs) = w.1 * w.2 j).card).card ≤
      m * ((qs.length + 2) * Fintype.card F ^ m) := by
  classical
  let g : Fin m → Form F m := fun j => lin (out j) (known formal (start F m) qs) - Pi.single (some j) X
  have hev : ∀ (w : F × (Fin m → F)) j, ev w.1 w.2 (g j) =
      lin (out j) (known (fun _ x => w.1 * x) (1 :: List.ofFn w.2) qs) - w.1 * w.2 j := by
    intro w j
    rw [map_sub, ← lin_map, known_map (ev w.1 w.2) formal (fun _ x => w.1 * x) (fun _ f => ev_X _ _ f), ev_start]
    congr 1
    simp only [ev, LinearMap.coe_mk, AddHom.coe_mk]
    rw [Pi.single_eq_of_ne (by simp), eval_zero, zero_add, Finset.sum_eq_single j]
    · simp
    · intro b _ hb
      rw [Pi.single_eq_of_ne (by simpa using hb), eval_zero, zero_mul]
    · simp
  have hb : ∀ j, g j ∈ bounded F m (qs.length + 1) := by
    intro j
    refine Submodule.sub_mem _ (lin_mem _ _ _ fun f hf => ?_) ?_
    · have := known_bounded (start F m) 0 start_bounded qs f hf
      rw [Nat.zero_add] at this
      exact fun i => (this i).trans (Nat.le_succ _)
    · intro i
      by_cases h : i = some j
      · subst h
        rw [Pi.single_eq_same]
        exact natDegree_X_le.trans (by omega)
      · rw [Pi.single_eq_of_ne h, natDegree_zero]
        omega
  have hsub : (Finset.univ.filter fun w : F × (Fin m → F) => qs.length <
      (Finset.univ.filter fun j : Fin m =>
        lin (out j) (known (fun _ x => w.1 * x) (1 :: List.ofFn w.2) qs) = w.1 * w.2 j).card) ⊆
      (Finset.univ.filter fun j => g j ≠ 0).biUnion fun j =>
        Finset.univ.filter fun w : F × (Fin m → F) => ev w.1 w.2 (g j) = 0 := by
    intro w hw
    simp only [Finset.mem_filter, Finset.mem_univ, true_and] at hw
    have hlt := (card_formal qs out).trans_lt hw
    obtain ⟨j, hj, hj'⟩ := Finset.exists_mem_notMem_of_card_lt_card hlt
    simp only [Finset.mem_filter, Finset.mem_univ, true_and] at hj hj'
    simp only [Finset.mem_biUnion, Finset.mem_filter, Finset.mem_univ, true_and]
    exact ⟨j, fun h => hj' (sub_eq_zero.1 h), by rw [hev, hj, sub_self]⟩
  refine (Finset.card_le_card hsub).trans (Finset.card_biUnion_le.trans ?_)
  refine (Finset.sum_le_card_nsmul _ _ ((qs.length + 2) * Fintype.card F ^ m) fun j hj => ?_).trans ?_
  · exact card_zeros (hb j) (Finset.mem_filter.1 hj).2
  · rw [smul_eq_mul]
    refine Nat.mul_le_mul_right _ ((Finset.card_filter_le _ _).trans ?_)
    rw [Finset.card_univ, Fintype.card_fin]

/-- The same in a module over the field, for any server that multiplies by `q`. -/
theorem ncard_prepared [Fintype F] {Q G : Type} [AddCommGroup G] [Module F G] {base : G} (hbase : base ≠ 0)
    (ans : F → (Fin m → F) → Q → G → G) (hans : ∀ q h s U, ans q h s U = q • U) (qs : List (Q × (Nat → F)))
    (out : Fin m → Nat → F) :
    {w : F × (Fin m → F) | qs.length < {j : Fin m |
        lin (out j) (known (ans w.1 w.2) (base :: List.ofFn fun i => w.2 i • base) qs) = w.1 • w.2 j • base}.ncard}.ncard ≤
      m * ((qs.length + 2) * Fintype.card F ^ m) := by
  classical
  refine le_trans (le_of_eq ?_) (card_prepared qs out)
  rw [Set.ncard_eq_toFinset_card']
  congr 1
  ext w
  simp only [Set.mem_toFinset, Set.mem_ofPred_eq, Finset.mem_filter, Finset.mem_univ, true_and]
  have hmap : known (ans w.1 w.2) (base :: List.ofFn fun i => w.2 i • base) qs =
      (known (fun _ x => w.1 * x) (1 :: List.ofFn w.2) qs).map (LinearMap.toSpanSingleton F G base) := by
    rw [known_map (LinearMap.toSpanSingleton F G base) _ (ans w.1 w.2)]
    · simp [List.map_ofFn, Function.comp_def]
    · intro s x
      rw [hans, LinearMap.toSpanSingleton_apply, LinearMap.toSpanSingleton_apply, smul_smul]
  rw [Set.ncard_eq_toFinset_card']
  have : ({j : Fin m | lin (out j) (known (ans w.1 w.2) (base :: List.ofFn fun i => w.2 i • base) qs) =
      w.1 • w.2 j • base} : Set (Fin m)).toFinset =
      Finset.univ.filter fun j : Fin m => lin (out j) (known (fun _ x => w.1 * x) (1 :: List.ofFn w.2) qs) =
        w.1 * w.2 j := by
    ext j
    simp only [Set.mem_toFinset, Set.mem_ofPred_eq, Finset.mem_filter, Finset.mem_univ, true_and]
    rw [hmap, lin_map, LinearMap.toSpanSingleton_apply, smul_smul]
    exact ⟨fun h => smul_left_injective F hbase h, fun h => by rw [h]⟩
  rw [this]

end Verif.Prepare
