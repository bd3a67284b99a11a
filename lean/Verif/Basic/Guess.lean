import Mathlib.Tactic.FieldSimp
import Verif.Basic.Confirm

/-!
# Algebraic attackers that ask a random hash function

An attacker computes with group elements by adding multiples, sends one element to each session, and asks a hash function for the
value at an element. Each session answers with the hash value at its secret. The hash functions of the sessions are drawn at random.
The lemma bounds the number of hash functions, logarithms and candidates for which the attacker finally names the right candidate.
-/

namespace Verif

/-- A computation that asks for the values of a function. -/
inductive Tree (X L α : Type) where
  | leaf (a : α)
  | node (x : X) (next : L → Tree X L α)

namespace Tree
variable {X L α : Type}

/-- The result with the function `ρ`. -/
def eval (ρ : X → L) : Tree X L α → α
  | leaf a => a
  | node x next => eval ρ (next (ρ x))

/-- At most `k` values are asked for. -/
def AtMost : Nat → Tree X L α → Prop
  | _, leaf _ => True
  | 0, node _ _ => False
  | k + 1, node _ next => ∀ l, AtMost k (next l)

/-- The result if values are drawn when they are asked for, one after the other from `r`, and remembered. -/
def lazy [DecidableEq X] (mem : X → Option L) (r : Nat → L) : Tree X L α → α
  | leaf a => a
  | node x next => match mem x with
    | some l => lazy mem (fun i => r (i + 1)) (next l)
    | none => lazy (Function.update mem x (some (r 0))) (fun i => r (i + 1)) (next (r 0))

/-- A finite sequence, continued somehow. -/
def extend [Inhabited L] {T : Nat} (r : Fin T → L) (i : Nat) : L := if h : i < T then r ⟨i, h⟩ else default

theorem extend_zero [Inhabited L] {T : Nat} (l : L) (r : Fin T → L) : extend (Fin.cons l r : Fin (T + 1) → L) 0 = l := by
  simp [extend]

theorem extend_succ [Inhabited L] {T : Nat} (l : L) (r : Fin T → L) :
    (fun i => extend (Fin.cons l r : Fin (T + 1) → L) (i + 1)) = extend r := by
  funext i
  by_cases h : i < T
  · simp only [extend, h, dif_pos, Nat.add_lt_add_iff_right]
    exact Fin.cons_succ (α := fun _ => L) l r ⟨i, h⟩
  · simp [extend, h]

/-- The functions with the remembered values. -/
def Extends (mem : X → Option L) (ρ : X → L) : Prop := ∀ x l, mem x = some l → ρ x = l

theorem extends_update [DecidableEq X] {mem : X → Option L} {x : X} (hx : mem x = none) (l : L) (ρ : X → L) :
    Extends (Function.update mem x (some l)) ρ ↔ Extends mem ρ ∧ ρ x = l := by
  constructor
  · intro h
    refine ⟨fun y m hy => h y m ?_, h x l (by simp)⟩
    have : y ≠ x := by rintro rfl; rw [hx] at hy; cases hy
    rw [Function.update_of_ne this, hy]
  · rintro ⟨h, hl⟩ y m hy
    by_cases e : y = x
    · subst e
      rw [Function.update_self, Option.some.injEq] at hy
      rw [hl, hy]
    · rw [Function.update_of_ne e] at hy
      exact h y m hy

open Classical in
theorem card_cons [Fintype L] {T : Nat} (Q : (Fin (T + 1) → L) → Prop) :
    (Finset.univ.filter Q).card = ∑ l : L, (Finset.univ.filter fun r : Fin T → L => Q (Fin.cons l r)).card := by
  rw [← Finset.card_sigma]
  refine Finset.card_bij (fun r _ => ⟨r 0, Fin.tail r⟩) ?_ ?_ ?_
  · intro r hr
    simpa [Fin.cons_self_tail] using hr
  · intro r _ r' _ h
    simp only [Sigma.mk.injEq, heq_eq_eq] at h
    rw [← Fin.cons_self_tail r, ← Fin.cons_self_tail r', h.1, h.2]
  · rintro ⟨l, r⟩ h
    refine ⟨Fin.cons l r, ?_, by simp⟩
    simpa using h

open Classical in
theorem card_extends_update [DecidableEq X] [Fintype X] [Fintype L] {mem : X → Option L} {x : X} (hx : mem x = none) (l : L) :
    Fintype.card L * (Finset.univ.filter (Extends (Function.update mem x (some l)))).card = (Finset.univ.filter (Extends mem)).card := by
  rw [← Finset.card_univ, ← Finset.card_product]
  symm
  refine Finset.card_bij (fun ρ _ => (ρ x, Function.update ρ x l)) ?_ ?_ ?_
  · intro ρ hρ
    simp only [Finset.mem_product, Finset.mem_univ, Finset.mem_filter, true_and, extends_update hx] at hρ ⊢
    refine ⟨fun y m hy => ?_, by simp⟩
    have : y ≠ x := by rintro rfl; rw [hx] at hy; cases hy
    rw [Function.update_of_ne this]
    exact hρ y m hy
  · intro ρ _ ρ' _ h
    simp only [Prod.mk.injEq] at h
    funext y
    by_cases e : y = x
    · rw [e]; exact h.1
    · have := congrFun h.2 y
      rwa [Function.update_of_ne e, Function.update_of_ne e] at this
  · rintro ⟨m, ρ⟩ h
    simp only [Finset.mem_product, Finset.mem_univ, Finset.mem_filter, true_and, extends_update hx] at h
    refine ⟨Function.update ρ x m, ?_, ?_⟩
    · simp only [Finset.mem_filter, Finset.mem_univ, true_and]
      intro y k hy
      have : y ≠ x := by rintro rfl; rw [hx] at hy; cases hy
      rw [Function.update_of_ne this]
      exact h.1 y k hy
    · simp [← h.2]

open Classical in
/-- Drawing the function in advance and drawing values when they are asked for is the same. -/
theorem card_lazy [DecidableEq X] [Fintype X] [Fintype L] [Inhabited L] (P : α → Prop) (T : Nat) (mem : X → Option L) (t : Tree X L α)
    (ht : t.AtMost T) :
    Fintype.card L ^ T * (Finset.univ.filter fun ρ : X → L => Extends mem ρ ∧ P (t.eval ρ)).card =
      (Finset.univ.filter (Extends mem)).card * (Finset.univ.filter fun r : Fin T → L => P (t.lazy mem (extend r))).card := by
  induction T generalizing mem t with
  | zero =>
    cases t with
    | leaf a =>
      by_cases hP : P a <;> simp [eval, lazy, hP]
    | node x next => exact ht.elim
  | succ T ih =>
    cases t with
    | leaf a =>
      by_cases hP : P a
      · simp [eval, lazy, hP, mul_comm]
      · simp [eval, lazy, hP]
    | node x next =>
      rw [card_cons]
      cases hx : mem x with
      | some l =>
        have h1 : (Finset.univ.filter fun ρ : X → L => Extends mem ρ ∧ P ((node x next).eval ρ)) =
            Finset.univ.filter fun ρ : X → L => Extends mem ρ ∧ P ((next l).eval ρ) := by
          refine Finset.filter_congr fun ρ _ => and_congr_right fun h => ?_
          rw [eval, h x l hx]
        have h2 : ∀ (m : L) (r : Fin T → L), (node x next).lazy mem (extend (Fin.cons m r : Fin (T + 1) → L)) =
            (next l).lazy mem (extend r) := by
          intro m r
          simp only [lazy, hx, extend_succ]
        simp only [h1, h2, Finset.sum_const, Finset.card_univ, smul_eq_mul]
        have := ih mem (next l) (ht l)
        rw [pow_succ, mul_assoc, mul_left_comm (Finset.card _), mul_comm (_ ^ T), mul_assoc,
          mul_comm _ (Fintype.card L ^ T), this]
      | none =>
        have h1 : (Finset.univ.filter fun ρ : X → L => Extends mem ρ ∧ P ((node x next).eval ρ)).card =
            ∑ l : L, (Finset.univ.filter fun ρ : X → L =>
              Extends (Function.update mem x (some l)) ρ ∧ P ((next l).eval ρ)).card := by
          rw [← Finset.card_sigma]
          refine Finset.card_bij (fun ρ _ => ⟨ρ x, ρ⟩) ?_ ?_ ?_
          · intro ρ h
            have h := (Finset.mem_filter.1 h).2
            simp only [Finset.mem_sigma, Finset.mem_univ, Finset.mem_filter, true_and, extends_update hx, and_true]
            exact h
          · intro ρ _ ρ' _ h
            simp only [Sigma.mk.injEq, heq_eq_eq] at h
            exact h.2
          · rintro ⟨l, ρ⟩ h
            simp only [Finset.mem_sigma, Finset.mem_univ, Finset.mem_filter, true_and, extends_update hx] at h
            obtain ⟨⟨h, rfl⟩, hP⟩ := h
            exact ⟨ρ, Finset.mem_filter.2 ⟨Finset.mem_univ _, h, hP⟩, rfl⟩
        have h2 : ∀ (m : L) (r : Fin T → L), (node x next).lazy mem (extend (Fin.cons m r : Fin (T + 1) → L)) =
            (next m).lazy (Function.update mem x (some m)) (extend r) := by
          intro m r
          simp only [lazy, hx, extend_succ, extend_zero]
        simp only [h1, h2]
        rw [Finset.mul_sum, Finset.mul_sum]
        refine Finset.sum_congr rfl fun l _ => ?_
        rw [pow_succ, mul_comm (_ ^ T), mul_assoc, ih _ (next l) (ht l), ← card_extends_update hx l, mul_assoc]

end Tree

namespace Guess
open Confirm MvPolynomial

/-- A step of the attacker: it sends something to a session (only the first counts), asks the hash function, or compares an element
with the neutral one. -/
inductive Act (n : Nat) (τ F Q M : Type) where
  | send (s : Fin n) (a : M)
  | ask (q : Q)
  | compare (c : Coef τ F)

/-- What it learns: nothing, whether the element is neutral, or a hash value. -/
inductive Reply (L : Type) where
  | refused
  | equal (b : Bool)
  | value (l : L)

/-- What the steps stand for: the point at which the hash function is asked, the point of a session's secret, and whether the element
is neutral. -/
structure Interp (n : Nat) (τ F Q M X : Type) where
  pt : Q → X
  sec : Fin n → M → Option X
  zero : Coef τ F → Bool

variable {F τ ι Q M κ : Type} {n : Nat} {L Ans X : Type}

/-- `k` steps of the attacker `A`. What it sees of a reply is given by `render`. -/
def play (I : Interp n τ F Q M X) (A : List Ans → Act n τ F Q M) (render : Act n τ F Q M → Reply L → Ans) :
    Nat → (Fin n → Option M) → List Ans → Tree X L (List Ans)
  | 0, _, hist => .leaf hist
  | k + 1, sent, hist => match A hist with
    | .ask q => .node (I.pt q) fun l => play I A render k sent (hist ++ [render (.ask q) (.value l)])
    | .compare c => play I A render k sent (hist ++ [render (.compare c) (.equal (I.zero c))])
    | .send s a =>
      if (sent s).isSome then play I A render k sent (hist ++ [render (.send s a) .refused])
      else match I.sec s a with
        | none => play I A render k (Function.update sent s (some a)) (hist ++ [render (.send s a) .refused])
        | some x => .node x fun l =>
          play I A render k (Function.update sent s (some a)) (hist ++ [render (.send s a) (.value l)])

theorem atMost_succ {α : Type} {k : Nat} {t : Tree X L α} (h : t.AtMost k) : t.AtMost (k + 1) := by
  induction k generalizing t with
  | zero => cases t with
    | leaf => trivial
    | node => exact h.elim
  | succ k ih => cases t with
    | leaf => trivial
    | node x next => exact fun l => ih (h l)

theorem atMost_play (I : Interp n τ F Q M X) (A : List Ans → Act n τ F Q M) (render : Act n τ F Q M → Reply L → Ans) (k : Nat)
    (sent : Fin n → Option M) (hist : List Ans) : (play I A render k sent hist).AtMost k := by
  induction k generalizing sent hist with
  | zero => trivial
  | succ k ih =>
    cases hA : A hist with
    | ask q => simp only [play, hA]; exact fun l => ih _ _
    | compare c => simp only [play, hA]; exact atMost_succ (ih _ _)
    | send s a =>
      simp only [play, hA]
      split
      · exact atMost_succ (ih _ _)
      · split
        · exact atMost_succ (ih _ _)
        · exact fun l => ih _ _

variable [Field F] [Fintype τ]

set_option linter.unusedSectionVars false

open Classical in
/-- The real meaning, for the logarithms and the candidate `w`. -/
noncomputable def realI (pt : (τ → F) × ι → Q → X) (sec : (τ → F) × ι → Fin n → M → Option X) (w : (τ → F) × ι) :
    Interp n τ F Q M X where
  pt q := pt w q
  sec s a := sec w s a
  zero c := decide (val c w.1 = 0)

open Classical in
/-- The formal meaning: all questions are different; secrets are those of `cls`, the same as a question or as another secret only where
`cls` says so. -/
noncomputable def idealI (cls : Fin n → M → Q ⊕ κ) (ref : Fin n → M → Prop) : Interp n τ F Q M (Q ⊕ κ) where
  pt q := .inl q
  sec s a := if ref s a then none else some (cls s a)
  zero c := decide (c = 0)

open Classical in
/-- The real point of a formal one. -/
noncomputable def point (pt : (τ → F) × ι → Q → X) (sec : (τ → F) × ι → Fin n → M → Option X) (cls : Fin n → M → Q ⊕ κ)
    (w : (τ → F) × ι) : Q ⊕ κ → Option X
  | .inl q => some (pt w q)
  | .inr c => if h : ∃ p : Fin n × M, cls p.1 p.2 = .inr c then sec w h.choose.1 h.choose.2 else none

theorem point_cls {pt : (τ → F) × ι → Q → X} {sec : (τ → F) × ι → Fin n → M → Option X} {cls : Fin n → M → Q ⊕ κ}
    {w : (τ → F) × ι} (h : ∀ s a s' a', cls s a = cls s' a' → sec w s a = sec w s' a')
    (ho : ∀ s a q, cls s a = .inl q → sec w s a = some (pt w q)) (s : Fin n) (a : M) :
    point pt sec cls w (cls s a) = sec w s a := by
  cases hc : cls s a with
  | inl q => exact (ho s a q hc).symm
  | inr c =>
    have he : ∃ p : Fin n × M, cls p.1 p.2 = .inr c := ⟨(s, a), hc⟩
    rw [point, dif_pos he]
    exact h _ _ _ _ (he.choose_spec.trans hc.symm)

section
variable (pt : (τ → F) × ι → Q → X) (sec : (τ → F) × ι → Fin n → M → Option X) (cls : Fin n → M → Q ⊕ κ) (ref : Fin n → M → Prop)
  (triv : Fin n → M → Set ι) (A : List Ans → Act n τ F Q M) (render : Act n τ F Q M → Reply L → Ans)

open Classical in
/-- Along the formal run, different formal points are different real points, and the candidate is not one of those for which what was
sent helps by an identity. -/
noncomputable def Agree (w : (τ → F) × ι) : Nat → (Fin n → Option M) → List Ans → (Q ⊕ κ → Option L) → (Nat → L) → Prop
  | 0, _, _, _, _ => True
  | k + 1, sent, hist, mem, r => match A hist with
    | .ask q => (∀ ξ, mem ξ ≠ none → ξ ≠ .inl q → point pt sec cls w ξ ≠ some (pt w q)) ∧
      match mem (.inl q) with
      | some l => Agree w k sent (hist ++ [render (.ask q) (.value l)]) mem (fun i => r (i + 1))
      | none => Agree w k sent (hist ++ [render (.ask q) (.value (r 0))])
          (Function.update mem (.inl q) (some (r 0))) (fun i => r (i + 1))
    | .compare c => (val c w.1 = 0 ↔ c = 0) ∧ Agree w k sent (hist ++ [render (.compare c) (.equal (decide (c = 0)))]) mem r
    | .send s a =>
      if (sent s).isSome then Agree w k sent (hist ++ [render (.send s a) .refused]) mem r
      else w.2 ∉ triv s a ∧ (sec w s a = none ↔ ref s a) ∧
        (∀ ξ, mem ξ ≠ none → ξ ≠ cls s a → ∀ x, sec w s a = some x → point pt sec cls w ξ ≠ some x) ∧
        if ref s a then
          Agree w k (Function.update sent s (some a)) (hist ++ [render (.send s a) .refused]) mem r
        else match mem (cls s a) with
          | some l => Agree w k (Function.update sent s (some a)) (hist ++ [render (.send s a) (.value l)]) mem (fun i => r (i + 1))
          | none => Agree w k (Function.update sent s (some a)) (hist ++ [render (.send s a) (.value (r 0))])
              (Function.update mem (cls s a) (some (r 0))) (fun i => r (i + 1))

/-- What is remembered in the real and in the formal run corresponds. -/
structure Inv (w : (τ → F) × ι) (m : X → Option L) (mem : Q ⊕ κ → Option L) : Prop where
  fwd : ∀ ξ l, mem ξ = some l → ∃ x, point pt sec cls w ξ = some x ∧ m x = some l
  bwd : ∀ x, m x ≠ none → ∃ ξ, mem ξ ≠ none ∧ point pt sec cls w ξ = some x

open Classical in
theorem Inv.update {w : (τ → F) × ι} {m : X → Option L} {mem : Q ⊕ κ → Option L}
    (h : Inv pt sec cls w m mem) {ξ : Q ⊕ κ} {x : X} (hx : point pt sec cls w ξ = some x) (hm : m x = none) (l : L) :
    Inv pt sec cls w (Function.update m x (some l)) (Function.update mem ξ (some l)) where
  fwd := by
    intro ξ' l' h'
    by_cases e : ξ' = ξ
    · subst e
      rw [Function.update_self] at h'
      exact ⟨x, hx, by rw [Function.update_self, h']⟩
    · rw [Function.update_of_ne e] at h'
      obtain ⟨x', hx', hm'⟩ := h.fwd ξ' l' h'
      have : x' ≠ x := by rintro rfl; rw [hm] at hm'; cases hm'
      exact ⟨x', hx', by rw [Function.update_of_ne this, hm']⟩
  bwd := by
    intro x' h'
    by_cases e : x' = x
    · subst e
      exact ⟨ξ, by rw [Function.update_self]; simp, hx⟩
    · rw [Function.update_of_ne e] at h'
      obtain ⟨ξ', hξ', hp⟩ := h.bwd x' h'
      refine ⟨ξ', ?_, hp⟩
      by_cases e' : ξ' = ξ
      · rw [e', Function.update_self]; simp
      · rw [Function.update_of_ne e']; exact hξ'

open Classical in
/-- If the points agree, so do the runs. -/
theorem lazy_eq {w : (τ → F) × ι} (hsame : ∀ s a s' a', cls s a = cls s' a' → sec w s a = sec w s' a')
    (hopen : ∀ s a q, cls s a = .inl q → sec w s a = some (pt w q)) (k : Nat)
    (sent : Fin n → Option M) (hist : List Ans) (m : X → Option L) (mem : Q ⊕ κ → Option L)
    (r : Nat → L) (hinv : Inv pt sec cls w m mem) (h : Agree pt sec cls ref triv A render w k sent hist mem r) :
    (play (realI pt sec w) A render k sent hist).lazy m r = (play (idealI cls ref) A render k sent hist).lazy mem r := by
  induction k generalizing sent hist m mem r with
  | zero => rfl
  | succ k ih =>
    cases hA : A hist with
    | ask q =>
      simp only [Agree, hA] at h
      obtain ⟨h1, h2⟩ := h
      simp only [play, hA, Tree.lazy, realI, idealI]
      cases hc : mem (.inl q) with
      | some l =>
        simp only [hc] at h2
        obtain ⟨x, hx, hm⟩ := hinv.fwd _ _ hc
        simp only [point, Option.some.injEq] at hx
        subst hx
        simp only [hm]
        exact ih _ _ _ _ _ hinv h2
      | none =>
        simp only [hc] at h2
        have hm : m (pt w q) = none := by
          by_contra hne
          obtain ⟨ξ, hξ, hp⟩ := hinv.bwd _ hne
          refine h1 ξ hξ ?_ hp
          rintro rfl
          exact hξ hc
        simp only [hm]
        exact ih _ _ _ _ _ (hinv.update (ξ := .inl q) pt sec cls rfl hm (r 0)) h2
    | compare c =>
      simp only [Agree, hA] at h
      simp only [play, hA, realI, idealI]
      have : decide (val c w.1 = 0) = decide (c = 0) := by simp only [h.1]
      rw [this]
      exact ih _ _ _ _ _ hinv h.2
    | send s a =>
      simp only [Agree, hA] at h
      simp only [play, hA, realI, idealI]
      by_cases hs : (sent s).isSome
      · simp only [hs, if_true] at h ⊢
        exact ih _ _ _ _ _ hinv h
      · simp only [hs, if_false, Bool.false_eq_true] at h ⊢
        obtain ⟨-, h2, h3, h4⟩ := h
        by_cases hz : ref s a
        · have hsec : sec w s a = none := h2.2 hz
          simp only [if_pos hz] at h4
          simp only [hsec, if_pos hz]
          exact ih _ _ _ _ _ hinv h4
        · obtain ⟨x, hsec⟩ : ∃ x, sec w s a = some x := by
            rw [← Option.ne_none_iff_exists']
            exact fun hn => hz (h2.1 hn)
          have hpt : point pt sec cls w (cls s a) = some x := (point_cls hsame hopen s a).trans hsec
          simp only [hz, if_false] at h4
          simp only [hsec, hz, if_false, Tree.lazy]
          cases hc : mem (cls s a) with
          | some l =>
            simp only [hc] at h4
            obtain ⟨x', hx', hm⟩ := hinv.fwd _ _ hc
            rw [hpt, Option.some.injEq] at hx'
            subst hx'
            simp only [hm]
            exact ih _ _ _ _ _ hinv h4
          | none =>
            simp only [hc] at h4
            have hm : m x = none := by
              by_contra hne
              obtain ⟨ξ, hξ, hp⟩ := hinv.bwd _ hne
              refine h3 ξ hξ ?_ x hsec hp
              rintro rfl
              exact hξ hc
            simp only [hm]
            exact ih _ _ _ _ _ (hinv.update (ξ := cls s a) pt sec cls hpt hm (r 0)) h4

theorem val_sub (c c' : Coef τ F) (v : τ → F) : val (c - c') v = val c v - val c' v := by
  simp only [val, Pi.sub_apply, sub_mul, Finset.sum_sub_distrib]
  ring

/-- Zeros of polynomials of degree at most two, one for each candidate. -/
def zeros (p : ι → MvPolynomial τ F) : Set ((τ → F) × ι) := {w | p w.2 ≠ 0 ∧ eval w.1 (p w.2) = 0}

theorem card_zeros_pairs [Fintype F] [Fintype ι] (p : ι → MvPolynomial τ F) (hp : ∀ j, (p j).totalDegree ≤ 2) :
    Fintype.card F * (zeros p).ncard ≤ 2 * Fintype.card ι * Fintype.card F ^ Fintype.card τ := by
  classical
  have hsub : zeros p ⊆ ⋃ j ∈ (Finset.univ : Finset ι), (fun v => (v, j)) '' {v : τ → F | p j ≠ 0 ∧ eval v (p j) = 0} := by
    rintro ⟨v, j⟩ h
    simp only [Set.mem_iUnion]
    exact ⟨j, Finset.mem_univ _, v, h, rfl⟩
  have hone : ∀ j, Fintype.card F * {v : τ → F | p j ≠ 0 ∧ eval v (p j) = 0}.ncard ≤ 2 * Fintype.card F ^ Fintype.card τ := by
    intro j
    by_cases h0 : p j = 0
    · simp [h0]
    · simp only [ne_eq, h0, not_false_eq_true, true_and]
      exact (card_zeros _ h0).trans (Nat.mul_le_mul_right _ (hp j))
  calc _ ≤ Fintype.card F * ∑ j : ι, {v : τ → F | p j ≠ 0 ∧ eval v (p j) = 0}.ncard := by
        refine Nat.mul_le_mul_left _ ((Set.ncard_le_ncard hsub (Set.toFinite _)).trans ?_)
        refine (ncard_biUnion_le _ _).trans (Finset.sum_le_sum fun j _ => ?_)
        exact Set.ncard_image_le (Set.toFinite _)
    _ ≤ ∑ j : ι, 2 * Fintype.card F ^ Fintype.card τ := by
        rw [Finset.mul_sum]
        exact Finset.sum_le_sum fun j _ => hone j
    _ = _ := by simp; ring

/-- Why points can be the same for the logarithms and candidates in `W`: `cls` says so, the candidate is `triv`, of which there are at most
`t`, or the logarithms are zeros of a polynomial of degree at most two. -/
structure Laws (t : Nat) (W : Set ((τ → F) × ι)) where
  qq : Q → Q → MvPolynomial τ F
  qs : ι → Fin n → M → Q → MvPolynomial τ F
  ss : ι → Fin n → M → Fin n → M → MvPolynomial τ F
  zz : ι → Fin n → M → MvPolynomial τ F
  deg_qq : ∀ q q', (qq q q').totalDegree ≤ 2
  deg_qs : ∀ j s a q, (qs j s a q).totalDegree ≤ 2
  deg_ss : ∀ j s a s' a', (ss j s a s' a').totalDegree ≤ 2
  deg_zz : ∀ j s a, (zz j s a).totalDegree ≤ 2
  triv_card : ∀ s a, (triv s a).ncard ≤ t
  ask_ask : ∀ w ∈ W, ∀ q q', q ≠ q' → pt w q = pt w q' → w ∈ zeros fun _ => qq q q'
  ask_send : ∀ w ∈ W, ∀ s a q, cls s a ≠ .inl q → sec w s a = some (pt w q) → w.2 ∈ triv s a ∨ w ∈ zeros fun j => qs j s a q
  send_send : ∀ w ∈ W, ∀ s a s' a' x, cls s a ≠ cls s' a' → sec w s a = some x → sec w s' a' = some x →
    w ∈ zeros fun j => ss j s a s' a'
  same : ∀ w ∈ W, ∀ s a s' a', cls s a = cls s' a' → sec w s a = sec w s' a'
  opened : ∀ w ∈ W, ∀ s a q, cls s a = .inl q → sec w s a = some (pt w q)
  refuse : ∀ w ∈ W, ∀ s a, (sec w s a = none ↔ ref s a) ∨ w ∈ zeros fun j => zz j s a

open Classical in
/-- For how many logarithms and candidates the points do not agree. -/
theorem card_disagree [Fintype F] [Fintype ι] {t : Nat} (W : Set ((τ → F) × ι)) (hL : Laws pt sec cls ref triv t W)
    (k : Nat) (sent : Fin n → Option M) (hist : List Ans) (mem : Q ⊕ κ → Option L) (r : Nat → L)
    (U : Finset (Q ⊕ κ)) (hU : ∀ ξ, mem ξ ≠ none → ξ ∈ U) (hun : ∀ c, mem (.inr c) ≠ none → ∃ p : Fin n × M, sent p.1 = some p.2 ∧ cls p.1 p.2 = .inr c)
    (μ : Nat) (hμ : U.card ≤ μ) :
    Fintype.card F * {w | w ∈ W ∧ (∀ s a, sent s = some a → w.2 ∉ triv s a) ∧
        ¬ Agree pt sec cls ref triv A render w k sent hist mem r}.ncard ≤
      (t * (Finset.univ.filter fun s => sent s = none).card * Fintype.card F +
        (∑ i ∈ Finset.range k, 2 * (μ + i + 1)) * Fintype.card ι) * Fintype.card F ^ Fintype.card τ := by
  induction k generalizing sent hist mem r U μ with
  | zero => simp [Agree]
  | succ k ih =>
    -- one step: a bad event, or disagreement later
    have hstep : ∀ (B : Set ((τ → F) × ι)) (sent' : Fin n → Option M) (hist' : List Ans)
        (mem' : Q ⊕ κ → Option L) (r' : Nat → L) (U' : Finset (Q ⊕ κ)) (δ : Nat),
        (∀ ξ, mem' ξ ≠ none → ξ ∈ U') → (∀ c, mem' (.inr c) ≠ none → ∃ p : Fin n × M, sent' p.1 = some p.2 ∧ cls p.1 p.2 = .inr c) → U'.card ≤ μ + 1 →
        δ + (Finset.univ.filter fun s => sent' s = none).card ≤ (Finset.univ.filter fun s => sent s = none).card →
        Fintype.card F * B.ncard ≤ (t * δ * Fintype.card F + 2 * (μ + 1) * Fintype.card ι) * Fintype.card F ^ Fintype.card τ →
        (∀ w ∈ W, (∀ s a, sent s = some a → w.2 ∉ triv s a) → w ∉ B → (∀ s a, sent' s = some a → w.2 ∉ triv s a) ∧
          (Agree pt sec cls ref triv A render w k sent' hist' mem' r' → Agree pt sec cls ref triv A render w (k + 1) sent hist mem r)) →
        Fintype.card F * {w | w ∈ W ∧ (∀ s a, sent s = some a → w.2 ∉ triv s a) ∧
            ¬ Agree pt sec cls ref triv A render w (k + 1) sent hist mem r}.ncard ≤
          (t * (Finset.univ.filter fun s => sent s = none).card * Fintype.card F +
            (∑ i ∈ Finset.range (k + 1), 2 * (μ + i + 1)) * Fintype.card ι) * Fintype.card F ^ Fintype.card τ := by
      intro B sent' hist' mem' r' U' δ hU' hun' hμ' hδ hB hw
      have hnext := ih sent' hist' mem' r' U' hU' hun' (μ + 1) hμ'
      have hsub : {w | w ∈ W ∧ (∀ s a, sent s = some a → w.2 ∉ triv s a) ∧
            ¬ Agree pt sec cls ref triv A render w (k + 1) sent hist mem r} ⊆
          B ∪ {w | w ∈ W ∧ (∀ s a, sent' s = some a → w.2 ∉ triv s a) ∧
            ¬ Agree pt sec cls ref triv A render w k sent' hist' mem' r'} := by
        rintro w ⟨h1, h2, h3⟩
        by_cases hwB : w ∈ B
        · exact Or.inl hwB
        · have := hw w h1 h2 hwB
          exact Or.inr ⟨h1, this.1, fun h => h3 (this.2 h)⟩
      have hsum : ∑ i ∈ Finset.range (k + 1), 2 * (μ + i + 1) =
          2 * (μ + 1) + ∑ i ∈ Finset.range k, 2 * (μ + 1 + i + 1) := by
        rw [Finset.sum_range_succ', add_comm]
        congr 1
        exact Finset.sum_congr rfl fun i _ => by ring
      calc _ ≤ Fintype.card F * (B.ncard + {w | w ∈ W ∧ (∀ s a, sent' s = some a → w.2 ∉ triv s a) ∧
            ¬ Agree pt sec cls ref triv A render w k sent' hist' mem' r'}.ncard) :=
            Nat.mul_le_mul_left _ ((Set.ncard_le_ncard hsub (Set.toFinite _)).trans (Set.ncard_union_le _ _))
        _ ≤ (t * δ * Fintype.card F + 2 * (μ + 1) * Fintype.card ι) * Fintype.card F ^ Fintype.card τ +
            (t * (Finset.univ.filter fun s => sent' s = none).card * Fintype.card F +
              (∑ i ∈ Finset.range k, 2 * (μ + 1 + i + 1)) * Fintype.card ι) * Fintype.card F ^ Fintype.card τ := by
            rw [Nat.mul_add]
            exact Nat.add_le_add hB hnext
        _ = (t * (δ + (Finset.univ.filter fun s => sent' s = none).card) * Fintype.card F +
              (2 * (μ + 1) + ∑ i ∈ Finset.range k, 2 * (μ + 1 + i + 1)) * Fintype.card ι) * Fintype.card F ^ Fintype.card τ := by
            ring
        _ ≤ _ := by
            rw [hsum]
            exact Nat.mul_le_mul_right _ (Nat.add_le_add_right (Nat.mul_le_mul_right _ (Nat.mul_le_mul_left _ hδ)) _)
    -- unions of zeros
    have hunion : ∀ (q : Q ⊕ κ → ι → MvPolynomial τ F), (∀ ξ j, (q ξ j).totalDegree ≤ 2) →
        Fintype.card F * (⋃ ξ ∈ U, zeros (q ξ)).ncard ≤ 2 * μ * Fintype.card ι * Fintype.card F ^ Fintype.card τ := by
      intro q hq
      calc _ ≤ Fintype.card F * ∑ ξ ∈ U, (zeros (q ξ)).ncard := Nat.mul_le_mul_left _ (ncard_biUnion_le _ _)
        _ ≤ ∑ ξ ∈ U, 2 * Fintype.card ι * Fintype.card F ^ Fintype.card τ := by
            rw [Finset.mul_sum]
            exact Finset.sum_le_sum fun ξ _ => card_zeros_pairs _ (hq ξ)
        _ = U.card * (2 * Fintype.card ι * Fintype.card F ^ Fintype.card τ) := by rw [Finset.sum_const, smul_eq_mul]
        _ ≤ μ * (2 * Fintype.card ι * Fintype.card F ^ Fintype.card τ) := Nat.mul_le_mul_right _ hμ
        _ = _ := by ring
    cases hA : A hist with
    | ask q =>
      let p : Q ⊕ κ → ι → MvPolynomial τ F := fun ξ j => match ξ with
        | .inl q' => hL.qq q' q
        | .inr c => if h : ∃ p : Fin n × M, sent p.1 = some p.2 ∧ cls p.1 p.2 = .inr c then
            hL.qs j h.choose.1 h.choose.2 q
          else 0
      have hp : ∀ ξ j, (p ξ j).totalDegree ≤ 2 := by
        rintro (q' | c) j
        · exact hL.deg_qq _ _
        · simp only [p]
          split
          · exact hL.deg_qs _ _ _ _
          · simp
      have hB : Fintype.card F * (⋃ ξ ∈ U, zeros (p ξ)).ncard ≤
          (t * 0 * Fintype.card F + 2 * (μ + 1) * Fintype.card ι) * Fintype.card F ^ Fintype.card τ := by
        refine (hunion p hp).trans (Nat.mul_le_mul_right _ ?_)
        rw [Nat.mul_zero, Nat.zero_mul, Nat.zero_add]
        exact Nat.mul_le_mul_right _ (by omega)
      have hgood : ∀ w ∈ W, (∀ s a, sent s = some a → w.2 ∉ triv s a) → w ∉ ⋃ ξ ∈ U, zeros (p ξ) →
          ∀ ξ, mem ξ ≠ none → ξ ≠ .inl q → point pt sec cls w ξ ≠ some (pt w q) := by
        intro w hw hns hwB ξ hξ hne hpt
        apply hwB
        simp only [Set.mem_iUnion]
        refine ⟨ξ, hU _ hξ, ?_⟩
        cases ξ with
        | inl q' =>
          simp only [point, Option.some.injEq] at hpt
          exact hL.ask_ask w hw q' q (fun e => hne (by rw [e])) hpt
        | inr c =>
          have he := hun c hξ
          obtain ⟨ha, hc⟩ := he.choose_spec
          have hpt' := (point_cls (hL.same w hw) (hL.opened w hw) he.choose.1 he.choose.2).symm
          rw [hc, hpt] at hpt'
          rcases hL.ask_send w hw _ _ q (by rw [hc]; exact Sum.inr_ne_inl) hpt' with h | h
          · exact absurd h (hns _ _ ha)
          · simp only [zeros, Set.mem_ofPred_eq, p, dif_pos he]
            exact h
      cases hc : mem (.inl q) with
      | some l =>
        refine hstep _ sent (hist ++ [render (.ask q) (.value l)]) mem (fun i => r (i + 1)) U 0 hU hun (by omega) (by omega) hB ?_
        intro w hw hns hwB
        refine ⟨hns, fun h => ?_⟩
        simp only [Agree, hA, hc]
        exact ⟨hgood w hw hns hwB, h⟩
      | none =>
        refine hstep _ sent (hist ++ [render (.ask q) (.value (r 0))]) (Function.update mem (.inl q) (some (r 0)))
          (fun i => r (i + 1)) (insert (.inl q) U) 0 ?_ ?_ ((Finset.card_insert_le _ _).trans (by omega)) (by omega) hB ?_
        · intro ξ hξ
          by_cases e : ξ = .inl q
          · rw [e]; exact Finset.mem_insert_self _ _
          · rw [Function.update_of_ne e] at hξ
            exact Finset.mem_insert_of_mem (hU ξ hξ)
        · intro c hc'
          rw [Function.update_of_ne (by simp)] at hc'
          exact hun c hc'
        · intro w hw hns hwB
          refine ⟨hns, fun h => ?_⟩
          simp only [Agree, hA, hc]
          exact ⟨hgood w hw hns hwB, h⟩
    | compare c =>
      refine hstep (zeros fun _ => form c) sent (hist ++ [render (.compare c) (.equal (decide (c = 0)))]) mem r U 0 hU hun
        (by omega) (by omega) ?_ ?_
      · refine (card_zeros_pairs _ fun _ => (form_degree c).trans (by norm_num)).trans (Nat.mul_le_mul_right _ ?_)
        rw [Nat.mul_zero, Nat.zero_mul, Nat.zero_add]
        exact Nat.mul_le_mul_right _ (by omega)
      · intro w hw hns hwB
        refine ⟨hns, fun h => ?_⟩
        simp only [Agree, hA]
        refine ⟨⟨fun h0 => ?_, fun h0 => by simp [h0, val]⟩, h⟩
        by_contra hne
        exact hwB ⟨fun hf => hne (form_eq_zero hf), by rw [eval_form, h0]⟩
    | send s a =>
      by_cases hs : (sent s).isSome
      · refine hstep ∅ sent (hist ++ [render (.send s a) .refused]) mem r U 0 hU hun (by omega) (by omega) (by simp) ?_
        intro w hw hns hwB
        refine ⟨hns, fun h => ?_⟩
        simp only [Agree, hA, hs, if_true]
        exact h
      · have hs' : sent s = none := by simpa using hs
        let p : Q ⊕ κ → ι → MvPolynomial τ F := fun ξ j => match ξ with
          | .inl q => hL.qs j s a q
          | .inr c => if h : ∃ p : Fin n × M, sent p.1 = some p.2 ∧ cls p.1 p.2 = .inr c then
              hL.ss j h.choose.1 h.choose.2 s a
            else 0
        have hp : ∀ ξ j, (p ξ j).totalDegree ≤ 2 := by
          rintro (q | c) j
          · exact hL.deg_qs _ _ _ _
          · simp only [p]
            split
            · exact hL.deg_ss _ _ _ _ _
            · simp
        let B : Set ((τ → F) × ι) := {w | w.2 ∈ triv s a} ∪ (zeros (fun j => hL.zz j s a) ∪ ⋃ ξ ∈ U, zeros (p ξ))
        have hB : Fintype.card F * B.ncard ≤
            (t * 1 * Fintype.card F + 2 * (μ + 1) * Fintype.card ι) * Fintype.card F ^ Fintype.card τ := by
          have h1 : {w : (τ → F) × ι | w.2 ∈ triv s a}.ncard ≤ Fintype.card F ^ Fintype.card τ * t := by
            have : {w : (τ → F) × ι | w.2 ∈ triv s a} = (Set.univ : Set (τ → F)) ×ˢ triv s a := by
              ext w; simp
            rw [this, Set.ncard_prod, Set.ncard_univ, Nat.card_eq_fintype_card, Fintype.card_fun]
            exact Nat.mul_le_mul_left _ (hL.triv_card s a)
          have h2 := card_zeros_pairs (fun j => hL.zz j s a) fun j => hL.deg_zz j s a
          have h3 := hunion p hp
          calc _ ≤ Fintype.card F * ({w : (τ → F) × ι | w.2 ∈ triv s a}.ncard + ((zeros fun j => hL.zz j s a).ncard +
                (⋃ ξ ∈ U, zeros (p ξ)).ncard)) := by
                refine Nat.mul_le_mul_left _ ((Set.ncard_union_le _ _).trans (Nat.add_le_add_left ?_ _))
                exact Set.ncard_union_le _ _
            _ ≤ Fintype.card F * (Fintype.card F ^ Fintype.card τ * t) + (2 * Fintype.card ι * Fintype.card F ^ Fintype.card τ +
                2 * μ * Fintype.card ι * Fintype.card F ^ Fintype.card τ) := by
                rw [Nat.mul_add, Nat.mul_add]
                exact Nat.add_le_add (Nat.mul_le_mul_left _ h1) (Nat.add_le_add h2 h3)
            _ = _ := by ring
        have hcard : 1 + (Finset.univ.filter fun s' => Function.update sent s (some a) s' = none).card ≤
            (Finset.univ.filter fun s => sent s = none).card := by
          have : (Finset.univ.filter fun s' => Function.update sent s (some a) s' = none) =
              (Finset.univ.filter fun s => sent s = none).erase s := by
            ext s'
            simp only [Finset.mem_filter, Finset.mem_univ, true_and, Finset.mem_erase]
            by_cases e : s' = s
            · simp [e]
            · simp [e]
          rw [this, Finset.card_erase_of_mem (by simpa using hs')]
          have : 0 < (Finset.univ.filter fun s => sent s = none).card := Finset.card_pos.2 ⟨s, by simpa using hs'⟩
          omega
        have hgood : ∀ w ∈ W, (∀ s a, sent s = some a → w.2 ∉ triv s a) → w ∉ B →
            (∀ s' a', Function.update sent s (some a) s' = some a' → w.2 ∉ triv s' a') ∧ w.2 ∉ triv s a ∧
              (sec w s a = none ↔ ref s a) ∧
              (∀ ξ, mem ξ ≠ none → ξ ≠ cls s a → ∀ x, sec w s a = some x → point pt sec cls w ξ ≠ some x) := by
          intro w hw hns hwB
          have ht : w.2 ∉ triv s a := fun h => hwB (Or.inl h)
          refine ⟨?_, ht, ?_, ?_⟩
          · intro s' a' h'
            by_cases e : s' = s
            · subst e
              rw [Function.update_self, Option.some.injEq] at h'
              rw [← h']; exact ht
            · rw [Function.update_of_ne e] at h'
              exact hns s' a' h'
          · exact (hL.refuse w hw s a).resolve_right fun h => hwB (Or.inr (Or.inl h))
          · intro ξ hξ hne x hx hpt
            refine hwB (Or.inr (Or.inr ?_))
            simp only [Set.mem_iUnion]
            refine ⟨ξ, hU _ hξ, ?_⟩
            cases ξ with
            | inl q =>
              simp only [point, Option.some.injEq] at hpt
              exact (hL.ask_send w hw s a q (fun e => hne e.symm) (by rw [hx, hpt])).resolve_left ht
            | inr c =>
              have he := hun c hξ
              obtain ⟨-, hc⟩ := he.choose_spec
              have hpt' := (point_cls (hL.same w hw) (hL.opened w hw) he.choose.1 he.choose.2).symm
              rw [hc, hpt] at hpt'
              have := hL.send_send w hw _ _ s a x (fun e => hne (by rw [← e, hc])) hpt' hx
              simp only [zeros, Set.mem_ofPred_eq, p, dif_pos he]
              exact this
        have hun' : ∀ c, mem (.inr c) ≠ none →
            ∃ p : Fin n × M, Function.update sent s (some a) p.1 = some p.2 ∧ cls p.1 p.2 = .inr c := by
          intro c hc
          obtain ⟨⟨s', a'⟩, h1, h2⟩ := hun c hc
          refine ⟨(s', a'), ?_, h2⟩
          have : s' ≠ s := by
            rintro rfl
            rw [hs'] at h1
            cases h1
          rw [Function.update_of_ne this]
          exact h1
        by_cases hz : ref s a
        · refine hstep B (Function.update sent s (some a)) (hist ++ [render (.send s a) .refused]) mem r U 1 hU hun' (by omega)
            hcard hB ?_
          intro w hw hns hwB
          obtain ⟨g1, g2, g3, g4⟩ := hgood w hw hns hwB
          refine ⟨g1, fun h => ?_⟩
          simp only [Agree, hA, hs, if_false, Bool.false_eq_true, if_pos hz]
          exact ⟨g2, g3, g4, h⟩
        · cases hc : mem (cls s a) with
          | some l =>
            refine hstep B (Function.update sent s (some a)) (hist ++ [render (.send s a) (.value l)]) mem (fun i => r (i + 1)) U 1
              hU hun' (by omega) hcard hB ?_
            intro w hw hns hwB
            obtain ⟨g1, g2, g3, g4⟩ := hgood w hw hns hwB
            refine ⟨g1, fun h => ?_⟩
            simp only [Agree, hA, hs, if_false, Bool.false_eq_true, if_neg hz, hc]
            exact ⟨g2, g3, g4, h⟩
          | none =>
            refine hstep B (Function.update sent s (some a)) (hist ++ [render (.send s a) (.value (r 0))])
              (Function.update mem (cls s a) (some (r 0))) (fun i => r (i + 1)) (insert (cls s a) U) 1 ?_ ?_
              ((Finset.card_insert_le _ _).trans (by omega)) hcard hB ?_
            · intro ξ hξ
              by_cases e : ξ = cls s a
              · rw [e]; exact Finset.mem_insert_self _ _
              · rw [Function.update_of_ne e] at hξ
                exact Finset.mem_insert_of_mem (hU ξ hξ)
            · intro c hc'
              by_cases e : .inr c = cls s a
              · exact ⟨(s, a), Function.update_self _ _ _, e.symm⟩
              · rw [Function.update_of_ne e] at hc'
                exact hun' c hc'
            · intro w hw hns hwB
              obtain ⟨g1, g2, g3, g4⟩ := hgood w hw hns hwB
              refine ⟨g1, fun h => ?_⟩
              simp only [Agree, hA, hs, if_false, Bool.false_eq_true, if_neg hz, hc]
              exact ⟨g2, g3, g4, h⟩

theorem sum_steps (T : Nat) : ∑ i ∈ Finset.range T, 2 * (0 + i + 1) = T * (T + 1) := by
  induction T with
  | zero => rfl
  | succ T ih => rw [Finset.sum_range_succ, ih]; ring

open Classical in
/-- For fixed draws: for how many logarithms and candidates the guess is right. -/
theorem card_guess_lazy [Fintype F] [Fintype ι] (W : Set ((τ → F) × ι)) (hL : Laws pt sec cls ref triv 1 W)
    (guess : List Ans → ι) (T : Nat) (r : Nat → L) :
    Fintype.card F * {w | w ∈ W ∧
        guess ((play (realI pt sec w) A render T (fun _ => none) []).lazy (fun _ => none) r) = w.2}.ncard ≤
      ((n + 1) * Fintype.card F + T * (T + 1) * Fintype.card ι) * Fintype.card F ^ Fintype.card τ := by
  let g : ι := guess ((play (idealI (F := F) (τ := τ) (Q := Q) cls ref) A render T (fun _ => none) []).lazy (fun _ => none) r)
  have hdis := card_disagree pt sec cls ref triv A render W hL T (fun _ => none) [] (fun _ => none) r ∅
    (by simp) (by simp) 0 (by simp)
  have hsub : {w | w ∈ W ∧ guess ((play (realI pt sec w) A render T (fun _ => none) []).lazy (fun _ => none) r) = w.2} ⊆
      {w | w.2 = g} ∪ {w | w ∈ W ∧ (∀ (s : Fin n) (a : M), (none : Option M) = some a → w.2 ∉ triv s a) ∧
        ¬ Agree pt sec cls ref triv A render w T (fun _ => none) [] (fun _ => none) r} := by
    rintro w ⟨hw, hg⟩
    by_cases ha : Agree pt sec cls ref triv A render w T (fun _ => none) [] (fun _ => none) r
    · left
      rw [lazy_eq pt sec cls ref triv A render (hL.same w hw) (hL.opened w hw) T _ _ _ _ r ⟨by simp, by simp⟩ ha] at hg
      exact hg.symm
    · exact Or.inr ⟨hw, by simp, ha⟩
  have hg : {w : (τ → F) × ι | w.2 = g}.ncard = Fintype.card F ^ Fintype.card τ := by
    have : {w : (τ → F) × ι | w.2 = g} = (Set.univ : Set (τ → F)) ×ˢ {g} := by
      ext w; simp
    rw [this, Set.ncard_prod, Set.ncard_univ, Nat.card_eq_fintype_card, Fintype.card_fun, Set.ncard_singleton, Nat.mul_one]
  rw [sum_steps] at hdis
  have hn : (Finset.univ.filter fun _ : Fin n => (none : Option M) = none).card = n := by simp
  rw [hn, Nat.one_mul] at hdis
  calc _ ≤ Fintype.card F * ({w : (τ → F) × ι | w.2 = g}.ncard + _) :=
        Nat.mul_le_mul_left _ ((Set.ncard_le_ncard hsub (Set.toFinite _)).trans (Set.ncard_union_le _ _))
    _ ≤ Fintype.card F * Fintype.card F ^ Fintype.card τ +
        (n * Fintype.card F + T * (T + 1) * Fintype.card ι) * Fintype.card F ^ Fintype.card τ := by
        rw [Nat.mul_add, hg]
        exact Nat.add_le_add_left hdis _
    _ = _ := by ring

open Classical in
/-- Instead of a hash function one can draw the values one after the other. -/
theorem card_lazy_pairs [Fintype F] [Fintype ι] [Fintype L] [Inhabited L] [Fintype X] (W : Set ((τ → F) × ι))
    (P : (τ → F) × ι → List Ans → Prop) (T : Nat) :
    Fintype.card L ^ T * {w : ((τ → F) × ι) × (X → L) | w.1 ∈ W ∧
        P w.1 ((play (realI pt sec w.1) A render T (fun _ => none) []).eval w.2)}.ncard =
      Fintype.card L ^ Fintype.card X * ∑ r : Fin T → L, {w | w ∈ W ∧
        P w ((play (realI pt sec w) A render T (fun _ => none) []).lazy (fun _ => none) (Tree.extend r))}.ncard := by
  have hN : {w : ((τ → F) × ι) × (X → L) | w.1 ∈ W ∧
        P w.1 ((play (realI pt sec w.1) A render T (fun _ => none) []).eval w.2)}.ncard =
      ∑ w : (τ → F) × ι, if w ∈ W then (Finset.univ.filter fun ρ : X → L => Tree.Extends (fun _ => none) ρ ∧
        P w ((play (realI pt sec w) A render T (fun _ => none) []).eval ρ)).card else 0 := by
    rw [Set.ncard_eq_toFinset_card', Set.toFinset_ofPred, Finset.card_filter, Fintype.sum_prod_type]
    refine Finset.sum_congr rfl fun w _ => ?_
    by_cases hw : w ∈ W
    · simp only [hw, true_and, if_true, Finset.card_filter]
      refine Finset.sum_congr rfl fun ρ _ => ?_
      simp [Tree.Extends]
    · simp [hw]
  have hext : (Finset.univ.filter (Tree.Extends (fun _ : X => (none : Option L)))).card =
      Fintype.card L ^ Fintype.card X := by
    rw [Finset.filter_true_of_mem (by simp [Tree.Extends]), Finset.card_univ, Fintype.card_fun]
  have hlazy : ∀ w : (τ → F) × ι, Fintype.card L ^ T * (Finset.univ.filter fun ρ : X → L =>
      Tree.Extends (fun _ => none) ρ ∧ P w ((play (realI pt sec w) A render T (fun _ => none) []).eval ρ)).card =
      Fintype.card L ^ Fintype.card X * (Finset.univ.filter fun r : Fin T → L =>
        P w ((play (realI pt sec w) A render T (fun _ => none) []).lazy (fun _ => none) (Tree.extend r))).card := by
    intro w
    rw [← hext]
    exact Tree.card_lazy (P w) T (fun _ => none) _ (atMost_play _ _ _ _ _ _)
  have h1 : ∀ r : Fin T → L, {w | w ∈ W ∧
      P w ((play (realI pt sec w) A render T (fun _ => none) []).lazy (fun _ => none) (Tree.extend r))}.ncard =
      ∑ w : (τ → F) × ι, if w ∈ W ∧
        P w ((play (realI pt sec w) A render T (fun _ => none) []).lazy (fun _ => none) (Tree.extend r)) then 1 else 0 := by
    intro r
    rw [Set.ncard_eq_toFinset_card', Set.toFinset_ofPred, Finset.card_filter]
  simp only [h1]
  rw [hN, Finset.sum_comm, Finset.mul_sum, Finset.mul_sum]
  refine Finset.sum_congr rfl fun w _ => ?_
  by_cases hw : w ∈ W
  · simp only [hw, if_true, true_and, ← Finset.card_filter]
    exact hlazy w
  · simp [hw]

open Classical in
/-- **The bound.** The share of the hash functions, logarithms and candidates for which the guess is right is at most
`(n + 1) / |candidates| + T (T + 1) / |F|`. -/
theorem card_guess [Fintype F] [Fintype ι] [Fintype L] [Inhabited L] [Fintype X]
    (W : Set ((τ → F) × ι)) (hL : Laws pt sec cls ref triv 1 W)
    (guess : List Ans → ι) (T : Nat) :
    Fintype.card F * {w : ((τ → F) × ι) × (X → L) | w.1 ∈ W ∧
        guess ((play (realI pt sec w.1) A render T (fun _ => none) []).eval w.2) = w.1.2}.ncard ≤
      ((n + 1) * Fintype.card F + T * (T + 1) * Fintype.card ι) * Fintype.card F ^ Fintype.card τ *
        Fintype.card L ^ Fintype.card X := by
  have hL0 : 0 < Fintype.card L := Fintype.card_pos
  refine Nat.le_of_mul_le_mul_left ?_ (Nat.pow_pos hL0 : 0 < Fintype.card L ^ T)
  rw [mul_left_comm, card_lazy_pairs pt sec A render W (fun w h => guess h = w.2), mul_left_comm, Finset.mul_sum]
  calc _ ≤ Fintype.card L ^ Fintype.card X * ∑ r : Fin T → L,
        ((n + 1) * Fintype.card F + T * (T + 1) * Fintype.card ι) * Fintype.card F ^ Fintype.card τ :=
        Nat.mul_le_mul_left _ (Finset.sum_le_sum fun r _ =>
          card_guess_lazy pt sec cls ref triv A render W hL guess T (Tree.extend r))
    _ = _ := by
        rw [Finset.sum_const, Finset.card_univ, Fintype.card_fun, Fintype.card_fin, smul_eq_mul]
        ring

open Classical in
/-- For fixed draws: an event happens for about as many logarithms in the real as in the formal run. -/
theorem card_formal_lazy [Fintype F] [Fintype ι] {t : Nat} (W : Set ((τ → F) × ι)) (hL : Laws pt sec cls ref triv t W)
    (P : List Ans → Prop) (T : Nat) (r : Nat → L) :
    Fintype.card F * {w | w ∈ W ∧ P ((play (realI pt sec w) A render T (fun _ => none) []).lazy (fun _ => none) r)}.ncard ≤
        Fintype.card F * {w | w ∈ W ∧ P ((play (idealI (F := F) (τ := τ) (Q := Q) cls ref) A render T (fun _ => none) []).lazy
          (fun _ => none) r)}.ncard +
        (t * n * Fintype.card F + T * (T + 1) * Fintype.card ι) * Fintype.card F ^ Fintype.card τ ∧
    Fintype.card F * {w | w ∈ W ∧ P ((play (idealI (F := F) (τ := τ) (Q := Q) cls ref) A render T (fun _ => none) []).lazy
          (fun _ => none) r)}.ncard ≤
      Fintype.card F * {w | w ∈ W ∧ P ((play (realI pt sec w) A render T (fun _ => none) []).lazy (fun _ => none) r)}.ncard +
        (t * n * Fintype.card F + T * (T + 1) * Fintype.card ι) * Fintype.card F ^ Fintype.card τ := by
  have hdis := card_disagree pt sec cls ref triv A render W hL T (fun _ => none) [] (fun _ => none) r ∅
    (by simp) (by simp) 0 (by simp)
  have hn : (Finset.univ.filter fun _ : Fin n => (none : Option M) = none).card = n := by simp
  rw [sum_steps, hn] at hdis
  have heq : ∀ w ∈ W, Agree pt sec cls ref triv A render w T (fun _ => none) [] (fun _ => none) r →
      (play (realI pt sec w) A render T (fun _ => none) []).lazy (fun _ => none) r =
        (play (idealI (F := F) (τ := τ) (Q := Q) cls ref) A render T (fun _ => none) []).lazy (fun _ => none) r :=
    fun w hw ha => lazy_eq pt sec cls ref triv A render (hL.same w hw) (hL.opened w hw) T _ _ _ _ r ⟨by simp, by simp⟩ ha
  constructor
  · refine le_trans (Nat.mul_le_mul_left _ ((Set.ncard_le_ncard ?_ (Set.toFinite _)).trans (Set.ncard_union_le _ _)))
      ((Nat.mul_add _ _ _).trans_le (Nat.add_le_add_left hdis _))
    rintro w ⟨hw, hP⟩
    by_cases ha : Agree pt sec cls ref triv A render w T (fun _ => none) [] (fun _ => none) r
    · exact Or.inl ⟨hw, heq w hw ha ▸ hP⟩
    · exact Or.inr ⟨hw, by simp, ha⟩
  · refine le_trans (Nat.mul_le_mul_left _ ((Set.ncard_le_ncard ?_ (Set.toFinite _)).trans (Set.ncard_union_le _ _)))
      ((Nat.mul_add _ _ _).trans_le (Nat.add_le_add_left hdis _))
    rintro w ⟨hw, hP⟩
    by_cases ha : Agree pt sec cls ref triv A render w T (fun _ => none) [] (fun _ => none) r
    · exact Or.inl ⟨hw, (heq w hw ha).symm ▸ hP⟩
    · exact Or.inr ⟨hw, by simp, ha⟩

open Classical in
/-- Two meanings of the questions and secrets with the same formal meaning: an event happens for about the same share of the hash
functions and logarithms. -/
theorem card_compare [Fintype F] [Fintype ι] [Fintype L] [Inhabited L] [Fintype X] {Y : Type} [Fintype Y]
    (pt' : (τ → F) × ι → Q → Y) (sec' : (τ → F) × ι → Fin n → M → Option Y) {t : Nat} (W : Set ((τ → F) × ι))
    (hL : Laws pt sec cls ref triv t W) (hL' : Laws pt' sec' cls ref triv t W) (P : List Ans → Prop) (T : Nat) :
    Fintype.card F * ({w : ((τ → F) × ι) × (X → L) | w.1 ∈ W ∧
        P ((play (realI pt sec w.1) A render T (fun _ => none) []).eval w.2)}.ncard * Fintype.card L ^ Fintype.card Y) ≤
      Fintype.card F * ({w : ((τ → F) × ι) × (Y → L) | w.1 ∈ W ∧
        P ((play (realI pt' sec' w.1) A render T (fun _ => none) []).eval w.2)}.ncard * Fintype.card L ^ Fintype.card X) +
      2 * (t * n * Fintype.card F + T * (T + 1) * Fintype.card ι) * Fintype.card F ^ Fintype.card τ *
        (Fintype.card L ^ Fintype.card X * Fintype.card L ^ Fintype.card Y) := by
  have hL0 : 0 < Fintype.card L := Fintype.card_pos
  refine Nat.le_of_mul_le_mul_left ?_ (Nat.pow_pos hL0 : 0 < Fintype.card L ^ T)
  have e1 := card_lazy_pairs (L := L) pt sec A render W (fun _ h => P h) T
  have e2 := card_lazy_pairs (L := L) pt' sec' A render W (fun _ h => P h) T
  have hr : ∀ r : Fin T → L,
      Fintype.card F * {w | w ∈ W ∧ P ((play (realI pt sec w) A render T (fun _ => none) []).lazy (fun _ => none) (Tree.extend r))}.ncard ≤
      Fintype.card F * {w | w ∈ W ∧ P ((play (realI pt' sec' w) A render T (fun _ => none) []).lazy (fun _ => none) (Tree.extend r))}.ncard +
        2 * (t * n * Fintype.card F + T * (T + 1) * Fintype.card ι) * Fintype.card F ^ Fintype.card τ := by
    intro r
    have h1 := (card_formal_lazy pt sec cls ref triv A render W hL P T (Tree.extend r)).1
    have h2 := (card_formal_lazy pt' sec' cls ref triv A render W hL' P T (Tree.extend r)).2
    linarith
  have hs := Finset.sum_le_sum (s := Finset.univ) fun r _ => hr r
  rw [← Finset.mul_sum, Finset.sum_add_distrib, ← Finset.mul_sum, Finset.sum_const, Finset.card_univ, Fintype.card_fun,
    Fintype.card_fin, smul_eq_mul] at hs
  generalize {w : ((τ → F) × ι) × (X → L) | w.1 ∈ W ∧
        P ((play (realI pt sec w.1) A render T (fun _ => none) []).eval w.2)}.ncard = N₁ at e1 ⊢
  generalize {w : ((τ → F) × ι) × (Y → L) | w.1 ∈ W ∧
        P ((play (realI pt' sec' w.1) A render T (fun _ => none) []).eval w.2)}.ncard = N₂ at e2 ⊢
  generalize (∑ r : Fin T → L, {w | w ∈ W ∧
    P ((play (realI pt sec w) A render T (fun _ => none) []).lazy (fun _ => none) (Tree.extend r))}.ncard) = S₁ at e1 hs
  generalize (∑ r : Fin T → L, {w | w ∈ W ∧
    P ((play (realI pt' sec' w) A render T (fun _ => none) []).lazy (fun _ => none) (Tree.extend r))}.ncard) = S₂ at e2 hs
  calc _ = Fintype.card F * (Fintype.card L ^ T * N₁) * Fintype.card L ^ Fintype.card Y := by ring
    _ = Fintype.card L ^ Fintype.card X * Fintype.card L ^ Fintype.card Y * (Fintype.card F * S₁) := by rw [e1]; ring
    _ ≤ Fintype.card L ^ Fintype.card X * Fintype.card L ^ Fintype.card Y * _ := Nat.mul_le_mul_left _ hs
    _ = Fintype.card F * (Fintype.card L ^ Fintype.card Y * S₂) * Fintype.card L ^ Fintype.card X + Fintype.card L ^ T *
        (2 * (t * n * Fintype.card F + T * (T + 1) * Fintype.card ι) * Fintype.card F ^ Fintype.card τ *
        (Fintype.card L ^ Fintype.card X * Fintype.card L ^ Fintype.card Y)) := by ring
    _ = _ := by rw [← e2]; ring

/-- The share of the outcomes in `S`. -/
noncomputable def share {Ω : Type*} (S : Set Ω) : ℚ := S.ncard / Nat.card Ω

theorem share_equiv {Ω Ω' : Type*} (e : Ω ≃ Ω') (S : Set Ω') : share {w | e w ∈ S} = share S := by
  have h : {w | e w ∈ S}.ncard = S.ncard := by
    have : e.symm '' S = {w | e w ∈ S} := by rw [Equiv.image_symm_eq_preimage]; rfl
    rw [← this, Set.ncard_image_of_injective _ e.symm.injective]
  rw [share, share, h, Nat.card_congr e]

/-- `card_compare` with shares. -/
theorem share_compare [Fintype F] [Fintype ι] [Nonempty ι] [Fintype L] [Inhabited L] [Fintype X] {Y : Type} [Fintype Y]
    (pt' : (τ → F) × ι → Q → Y) (sec' : (τ → F) × ι → Fin n → M → Option Y) {t : Nat}
    (W : Set ((τ → F) × ι)) (hL : Laws pt sec cls ref triv t W) (hL' : Laws pt' sec' cls ref triv t W) (P : List Ans → Prop) (T : Nat) :
    |share {w : ((τ → F) × ι) × (X → L) | w.1 ∈ W ∧ P ((play (realI pt sec w.1) A render T (fun _ => none) []).eval w.2)} -
      share {w : ((τ → F) × ι) × (Y → L) | w.1 ∈ W ∧ P ((play (realI pt' sec' w.1) A render T (fun _ => none) []).eval w.2)}| ≤
      2 * (t * n / Fintype.card ι + T * (T + 1) / Fintype.card F) := by
  classical
  have h1 := card_compare (L := L) pt sec cls ref triv A render pt' sec' W hL hL' P T
  have h2 := card_compare (L := L) pt' sec' cls ref triv A render pt sec W hL' hL P T
  simp only [share, Nat.card_eq_fintype_card, Fintype.card_prod, Fintype.card_fun]
  generalize {w : ((τ → F) × ι) × (X → L) | w.1 ∈ W ∧ P ((play (realI pt sec w.1) A render T (fun _ => none) []).eval w.2)}.ncard = N₁ at *
  generalize {w : ((τ → F) × ι) × (Y → L) | w.1 ∈ W ∧ P ((play (realI pt' sec' w.1) A render T (fun _ => none) []).eval w.2)}.ncard = N₂ at *
  have hF : (0 : ℚ) < Fintype.card F := by exact_mod_cast Fintype.card_pos
  have hι : (0 : ℚ) < Fintype.card ι := by exact_mod_cast Fintype.card_pos
  have hL0 : (0 : ℚ) < Fintype.card L := by exact_mod_cast Fintype.card_pos
  have hτ : (0 : ℚ) < Fintype.card F ^ Fintype.card τ := by positivity
  have hX : (0 : ℚ) < Fintype.card L ^ Fintype.card X := by positivity
  have hY : (0 : ℚ) < Fintype.card L ^ Fintype.card Y := by positivity
  have h1 : (_ : ℚ) ≤ _ := Nat.cast_le.2 h1
  have h2 : (_ : ℚ) ≤ _ := Nat.cast_le.2 h2
  push_cast at h1 h2 ⊢
  generalize (Fintype.card F : ℚ) ^ Fintype.card τ = a at *
  generalize (Fintype.card L : ℚ) ^ Fintype.card X = x at *
  generalize (Fintype.card L : ℚ) ^ Fintype.card Y = y at *
  generalize (Fintype.card F : ℚ) = f at *
  generalize (Fintype.card ι : ℚ) = i at *
  rw [abs_le]
  have e : 2 * ((t : ℚ) * n / i + T * (T + 1) / f) = 2 * (t * n * f + T * (T + 1) * i) * a * (x * y) / (f * (a * i * x * y)) := by
    field_simp
  have e1 : (N₁ : ℚ) / (a * i * x) = f * (N₁ * y) / (f * (a * i * x * y)) := by field_simp
  have e2 : (N₂ : ℚ) / (a * i * y) = f * (N₂ * x) / (f * (a * i * x * y)) := by field_simp
  have hp : 0 < f * (a * i * x * y) := by positivity
  rw [e, e1, e2, ← sub_div, neg_le, ← neg_div, div_le_div_iff_of_pos_right hp, div_le_div_iff_of_pos_right hp]
  constructor <;> linarith

/-- Events differ by no more than they do where `W` holds, and the share of the rest. -/
theorem share_restrict {Ω Ω' : Type} [Finite Ω] [Nonempty Ω] [Finite Ω'] [Nonempty Ω'] (S W : Set Ω) (S' W' : Set Ω')
    (h : share Wᶜ = share W'ᶜ) : |share S - share S'| ≤ |share (S ∩ W) - share (S' ∩ W')| + share Wᶜ := by
  have key : ∀ {Ω : Type} [Finite Ω] [Nonempty Ω] (S W : Set Ω), share (S ∩ W) ≤ share S ∧ share S ≤ share (S ∩ W) + share Wᶜ := by
    intro Ω _ _ S W
    have hc : (0 : ℚ) < Nat.card Ω := by exact_mod_cast Nat.card_pos
    simp only [share, ← add_div, div_le_div_iff_of_pos_right hc]
    constructor
    · exact_mod_cast Set.ncard_le_ncard Set.inter_subset_left (Set.toFinite _)
    · have : S ⊆ (S ∩ W) ∪ Wᶜ := fun x hx => (em (x ∈ W)).imp (fun hw => ⟨hx, hw⟩) id
      exact_mod_cast (Set.ncard_le_ncard this (Set.toFinite _)).trans (Set.ncard_union_le _ _)
  have h1 := key S W
  have h2 := key S' W'
  have := abs_le.1 (le_refl |share (S ∩ W) - share (S' ∩ W')|)
  rw [abs_le]
  constructor <;> linarith

/-- Parts that an event does not look at do not matter. -/
theorem share_fst {Ω Ω' : Type*} [Finite Ω'] [Nonempty Ω'] (S : Set Ω) : share {w : Ω × Ω' | w.1 ∈ S} = share S := by
  have : {w : Ω × Ω' | w.1 ∈ S} = S ×ˢ Set.univ := by ext; simp
  have hc : (Nat.card Ω' : ℚ) ≠ 0 := by exact_mod_cast Nat.card_pos.ne'
  rw [this, share, share, Set.ncard_prod, Set.ncard_univ, Nat.card_prod, Nat.cast_mul, Nat.cast_mul, mul_div_mul_right _ _ hc]

end

end Guess

end Verif
