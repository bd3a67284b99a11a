import Verif.Basic.Guess

/-!
# Values of a random function at points chosen one after the other

A process looks at values of a function `ρ` at points that it chooses from the values seen so far. If `ρ` is drawn at random, the value at
a point not looked at before is in a given small set for a small part of the functions only.
-/

namespace Verif.Touch
open Guess

variable {X L : Type} (Q : List (Option (X × L)) → Option X) (ρ : X → L)

/-- The points looked at in the first `t` steps, with their values; `Q` chooses the next point, or none. -/
def trace : Nat → List (Option (X × L))
  | 0 => []
  | t + 1 => trace t ++ [(Q (trace t)).map fun x => (x, ρ x)]

/-- The point `x` has been looked at. -/
def Touched (l : List (Option (X × L))) (x : X) : Prop := ∃ y, some (x, y) ∈ l

variable {Q ρ}

theorem mem_trace {t : Nat} {x : X} {y : L} (h : some (x, y) ∈ trace Q ρ t) : y = ρ x ∧ ∃ s < t, Q (trace Q ρ s) = some x := by
  induction t with
  | zero => simp [trace] at h
  | succ t ih =>
    rw [trace, List.mem_append, List.mem_singleton] at h
    rcases h with h | h
    · obtain ⟨h1, s, hs, h2⟩ := ih h
      exact ⟨h1, s, by omega, h2⟩
    · obtain ⟨z, hz, he⟩ := Option.map_eq_some_iff.1 h.symm
      rw [Prod.mk.injEq] at he
      obtain ⟨rfl, rfl⟩ := he
      exact ⟨rfl, t, by omega, hz⟩

theorem touched_of {s t : Nat} (hs : s < t) {x : X} (h : Q (trace Q ρ s) = some x) : some (x, ρ x) ∈ trace Q ρ t := by
  induction t with
  | zero => omega
  | succ t ih =>
    rw [trace, List.mem_append, List.mem_singleton]
    rcases Nat.lt_succ_iff_lt_or_eq.1 hs with h' | rfl
    · exact Or.inl (ih h')
    · exact Or.inr (by rw [h]; rfl)

/-- Whatever has been looked at has been looked at for the first time. -/
theorem first {t : Nat} {x : X} (h : Touched (trace Q ρ t) x) :
    ∃ s < t, Q (trace Q ρ s) = some x ∧ ¬ Touched (trace Q ρ s) x := by
  induction t with
  | zero => obtain ⟨y, hy⟩ := h; simp [trace] at hy
  | succ t ih =>
    by_cases h' : Touched (trace Q ρ t) x
    · obtain ⟨s, hs, h1⟩ := ih h'
      exact ⟨s, by omega, h1⟩
    · obtain ⟨y, hy⟩ := h
      obtain ⟨-, s, hs, h1⟩ := mem_trace hy
      rcases Nat.lt_succ_iff_lt_or_eq.1 hs with h2 | rfl
      · exact absurd ⟨_, touched_of h2 h1⟩ h'
      · exact ⟨s, hs, h1, h'⟩

/-- If two points with the same value have been looked at, one of them gave a value seen before. -/
theorem collide {t : Nat} {x x' : X} (h : Touched (trace Q ρ t) x) (h' : Touched (trace Q ρ t) x') (hne : x ≠ x') (he : ρ x = ρ x') :
    ∃ s < t, ∃ z, Q (trace Q ρ s) = some z ∧ ¬ Touched (trace Q ρ s) z ∧ ∃ z', some (z', ρ z) ∈ trace Q ρ s := by
  obtain ⟨s, hs, h1, h2⟩ := first h
  obtain ⟨s', hs', h1', h2'⟩ := first h'
  rcases Nat.lt_trichotomy s s' with hlt | rfl | hlt
  · exact ⟨s', hs', x', h1', h2', x, he ▸ touched_of hlt h1⟩
  · rw [h1, Option.some.injEq] at h1'; exact absurd h1' hne
  · exact ⟨s, hs, x, h1, h2, x', he ▸ touched_of hlt h1'⟩

theorem length_trace (t : Nat) : (trace Q ρ t).length = t := by
  induction t with
  | zero => rfl
  | succ t ih => rw [trace, List.length_append, ih]; rfl

open Classical in
/-- The first steps do not depend on the value at a point that they do not look at. -/
theorem trace_update {t : Nat} {x : X} (h : ¬ Touched (trace Q ρ t) x) (l : L) :
    trace Q (Function.update ρ x l) t = trace Q ρ t := by
  induction t with
  | zero => rfl
  | succ t ih =>
    have h' : ¬ Touched (trace Q ρ t) x := fun ⟨y, hy⟩ => h ⟨y, by rw [trace]; exact List.mem_append_left _ hy⟩
    rw [trace, trace, ih h']
    congr 2
    refine Option.map_congr fun z hz => ?_
    have : z ≠ x := fun e => h ⟨ρ x, touched_of (Nat.lt_succ_self t) (e ▸ hz)⟩
    rw [Function.update_of_ne this]

variable [Fintype X] [Fintype L] (Q)

/-- Few functions have a value in a small set at a point not looked at before. -/
theorem card_fresh (t : Nat) (z : List (Option (X × L)) → Option X) (Bad : List (Option (X × L)) → X → Set L) (β : Nat)
    (hβ : ∀ h x, (Bad h x).ncard ≤ β) :
    {ρ : X → L | ∃ x, z (trace Q ρ t) = some x ∧ ¬ Touched (trace Q ρ t) x ∧ ρ x ∈ Bad (trace Q ρ t) x}.ncard * Nat.card L ≤
      β * Nat.card (X → L) := by
  classical
  set E : Set (X → L) := {ρ | ∃ x, z (trace Q ρ t) = some x ∧ ¬ Touched (trace Q ρ t) x ∧ ρ x ∈ Bad (trace Q ρ t) x} with hE
  let Φ : (X → L) × L → X → L := fun w => match z (trace Q w.1 t) with
    | some x => Function.update w.1 x w.2
    | none => w.1
  have e1 : E.ncard * Nat.card L = (E ×ˢ (Set.univ : Set L)).ncard := by rw [Set.ncard_prod, Set.ncard_univ]
  rw [e1, Set.ncard_eq_toFinset_card']
  refine (Finset.card_le_mul_card_image (f := Φ) _ β ?_).trans (Nat.mul_le_mul_left _ ?_)
  · intro σ hσ
    obtain ⟨⟨ρ₀, l₀⟩, h0, rfl⟩ := Finset.mem_image.1 hσ
    rw [Set.mem_toFinset, Set.mem_prod] at h0
    obtain ⟨x, hz, hf, hb⟩ := h0.1
    simp only at hz hf hb
    have hΦ : Φ (ρ₀, l₀) = Function.update ρ₀ x l₀ := by simp only [Φ, hz]
    rw [hΦ]
    refine le_trans ?_ (hβ (trace Q ρ₀ t) x)
    rw [← Set.ncard_coe_finset]
    refine Set.ncard_le_ncard_of_injOn (fun w => w.1 x) ?_ ?_ (Set.toFinite _)
    · rintro ⟨ρ, l⟩ hw
      simp only [Finset.coe_filter, Set.mem_toFinset, Set.mem_ofPred_eq] at hw
      obtain ⟨x', hz', hf', hb'⟩ := hw.1.1
      have e : Φ (ρ, l) = Function.update ρ x' l := by simp only at hz'; simp only [Φ, hz']
      have ht : trace Q ρ t = trace Q ρ₀ t := by
        rw [← trace_update hf' l, ← trace_update hf l₀]
        exact congrArg (fun f => trace Q f t) (e.symm.trans hw.2)
      simp only [ht] at hz' hb'
      rw [hz, Option.some.injEq] at hz'
      subst hz'
      exact hb'
    · rintro ⟨ρ, l⟩ hw ⟨ρ', l'⟩ hw' he
      simp only [Finset.coe_filter, Set.mem_toFinset, Set.mem_ofPred_eq] at hw hw' he
      have key : ∀ {ρ : X → L} {l : L}, ((ρ, l) ∈ E ×ˢ (Set.univ : Set L) ∧ Φ (ρ, l) = Function.update ρ₀ x l₀) →
          Function.update ρ x l = Function.update ρ₀ x l₀ := by
        intro ρ l hw
        obtain ⟨x', hz', hf', hb'⟩ := hw.1.1
        have e : Φ (ρ, l) = Function.update ρ x' l := by simp only at hz'; simp only [Φ, hz']
        have ht : trace Q ρ t = trace Q ρ₀ t := by
          rw [← trace_update hf' l, ← trace_update hf l₀]
          exact congrArg (fun f => trace Q f t) (e.symm.trans hw.2)
        simp only [ht] at hz'
        rw [hz, Option.some.injEq] at hz'
        rw [hz', ← e, hw.2, hz']
      have k1 := (key hw).trans (key hw').symm
      refine Prod.ext (funext fun y => ?_) (by simpa using congrFun k1 x)
      by_cases hy : y = x
      · rw [hy]; exact he
      · simpa [Function.update_of_ne hy] using congrFun k1 y
  · rw [Nat.card_eq_fintype_card]
    exact Finset.card_le_univ _

theorem share_mono {Ω : Type*} [Finite Ω] {S S' : Set Ω} (h : S ⊆ S') : share S ≤ share S' := by
  rw [share, share]
  exact div_le_div_of_nonneg_right (by exact_mod_cast Set.ncard_le_ncard h (Set.toFinite _)) (Nat.cast_nonneg _)

theorem share_union {Ω : Type*} (S S' : Set Ω) : share (S ∪ S') ≤ share S + share S' := by
  rw [share, share, share, ← add_div]
  exact div_le_div_of_nonneg_right (by exact_mod_cast Set.ncard_union_le _ _) (Nat.cast_nonneg _)

/-- A bound that holds whatever the first draw. -/
theorem share_slice {W F : Type*} [Finite W] [Nonempty W] [Finite F] [Nonempty F] (P : W → F → Prop) (c : ℚ)
    (h : ∀ w, share {f | P w f} ≤ c) : share {x : W × F | P x.1 x.2} ≤ c := by
  classical
  have := Fintype.ofFinite W
  have := Fintype.ofFinite F
  have hF : (0 : ℚ) < Nat.card F := by exact_mod_cast Nat.card_pos
  have hW : (0 : ℚ) < Nat.card W := by exact_mod_cast Nat.card_pos
  have e : ({x : W × F | P x.1 x.2}.ncard : ℚ) = ∑ w, ({f | P w f}.ncard : ℚ) := by
    have e' : {x : W × F | P x.1 x.2} = ((Finset.univ : Finset W).sigma fun w => Finset.univ.filter (P w)).map
        (Equiv.sigmaEquivProd W F).toEmbedding := by
      ext ⟨w, f⟩
      simp
    rw [e', Set.ncard_coe_finset, Finset.card_map, Finset.card_sigma]
    push_cast
    refine Finset.sum_congr rfl fun w _ => ?_
    rw [← Set.ncard_coe_finset]
    congr 2
    ext f; simp
  rw [share, div_le_iff₀ (by rw [Nat.card_prod]; push_cast; positivity), e]
  refine (Finset.sum_le_sum (fun w _ => ((div_le_iff₀ hF).1 (h w) : _ ≤ c * Nat.card F))).trans (le_of_eq ?_)
  rw [Finset.sum_const, Finset.card_univ, Nat.card_prod, ← Nat.card_eq_fintype_card, nsmul_eq_mul]
  push_cast; ring

theorem share_exists {Ω : Type*} [Finite Ω] {κ : Type*} [Fintype κ] (P : κ → Ω → Prop) (c : ℚ) (h : ∀ k, share {w | P k w} ≤ c) :
    share {w | ∃ k, P k w} ≤ Fintype.card κ * c := by
  classical
  have hgen : ∀ s : Finset κ, share {w | ∃ k ∈ s, P k w} ≤ s.card * c := by
    intro s
    induction s using Finset.induction_on with
    | empty => simp [share]
    | insert a s ha ih =>
      have : {w | ∃ k ∈ insert a s, P k w} = {w | P a w} ∪ {w | ∃ k ∈ s, P k w} := by ext; simp
      rw [this, Finset.card_insert_of_notMem ha]
      have := share_union {w | P a w} {w | ∃ k ∈ s, P k w}
      have := h a
      push_cast
      linarith
  simpa using hgen Finset.univ

/-- Few functions have, in one of the first `T` steps, a value in a small set at a point not looked at before. -/
theorem share_fresh [Nonempty L] (T : Nat) (z : Nat → List (Option (X × L)) → Option X)
    (Bad : List (Option (X × L)) → X → Set L) (β : Nat) (hβ : ∀ h x, h.length ≤ T → (Bad h x).ncard ≤ β) (s : Nat → Nat)
    (hs : ∀ t < T, s t ≤ T) :
    share {ρ : X → L | ∃ t < T, ∃ x, z t (trace Q ρ (s t)) = some x ∧ ¬ Touched (trace Q ρ (s t)) x ∧
      ρ x ∈ Bad (trace Q ρ (s t)) x} ≤ T * β / Nat.card L := by
  classical
  have hL : (0 : ℚ) < Nat.card L := by exact_mod_cast Nat.card_pos
  have h1 := share_exists (Ω := X → L) (κ := Fin T) (fun t ρ => ∃ x, z t (trace Q ρ (s t)) = some x ∧
    ¬ Touched (trace Q ρ (s t)) x ∧ ρ x ∈ Bad (trace Q ρ (s t)) x) (β / Nat.card L) fun t => by
      have := card_fresh Q (s t) (z t) (fun h x => if h.length ≤ T then Bad h x else ∅) β fun h x => by
        split
        · rename_i hh; exact hβ h x hh
        · simp
      have hc : (0 : ℚ) < Nat.card (X → L) := by exact_mod_cast Nat.card_pos
      rw [share, div_le_div_iff₀ hc hL]
      have h2 : ∀ ρ : X → L, (trace Q ρ (s t)).length ≤ T := fun ρ => by rw [length_trace]; exact hs t t.2
      simp only [h2, if_true] at this
      exact_mod_cast this
  rw [Fintype.card_fin] at h1
  refine le_trans (share_mono ?_) (h1.trans (le_of_eq (by ring)))
  rintro ρ ⟨t, ht, x, hx⟩
  exact ⟨⟨t, ht⟩, x, hx⟩

end Verif.Touch
