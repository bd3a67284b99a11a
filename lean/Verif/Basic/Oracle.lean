import Verif.Basic.Digest
import Verif.Basic.Tape
import Mathlib.Data.Fintype.BigOperators

/-!
# Attackers that ask a hash function

The random oracle model: an attacker computes with the hash function only by asking for values. Nothing is assumed of the hash
function `D`; instead the values at the inputs that belong to one session are drawn anew (`Digest.program`), and the lemmas count
the draws for which an attacker succeeds. Since they hold for every `D`, they hold on average over all functions.
-/

namespace Verif

/-- The possible hash values. -/
abbrev Digest.Out (D : Digest) := {y : Bytes // y.length = D.outLen}

/-- The hash function with the values at some inputs replaced. -/
def Digest.program (D : Digest) (t : Bytes → Option D.Out) : Digest where
  hash x := match t x with
    | some y => y.1
    | none => D.hash x
  outLen := D.outLen
  hash_length x := by
    split
    · rename_i y _; exact y.2
    · exact D.hash_length x

/-- A computation that asks for hash values, as often and adaptively as it likes. -/
inductive Asker (α : Type) where
  | done (a : α)
  | ask (x : Bytes) (next : Bytes → Asker α)

namespace Asker
variable {α : Type}

/-- The result with the hash function `D`. -/
def run (D : Digest) : Asker α → α
  | done a => a
  | ask x next => run D (next (D.hash x))

/-- The inputs that are asked for with the hash function `D`. -/
def asked (D : Digest) : Asker α → List Bytes
  | done _ => []
  | ask x next => x :: asked D (next (D.hash x))

/-- Values at inputs that are not asked for have no influence. -/
theorem run_program {D : Digest} {t : Bytes → Option D.Out} (A : Asker α) (h : ∀ x ∈ A.asked D, t x = none) :
    A.run (D.program t) = A.run D := by
  induction A with
  | done a => rfl
  | ask x next ih =>
    have hx : (D.program t).hash x = D.hash x := by
      simp only [Digest.program]
      rw [h x (by simp [asked])]
    rw [run, run, hx]
    exact ih _ fun y hy => h y (by simp [asked, hy])

end Asker

namespace Oracle
variable {D : Digest} {m : Nat}

/-- The values of one session: `s` at the input `first`, and `v j` at inputs that contain `s`. -/
def table (first : Bytes) (later : Fin m → D.Out → Bytes) (s : D.Out) (v : Fin m → D.Out) (x : Bytes) : Option D.Out :=
  if x = first then some s else ((List.finRange m).find? fun j => x == later j s).map v

variable {first : Bytes} {later : Fin m → D.Out → Bytes}

/-- No two of the later inputs are the same. -/
def Separate (later : Fin m → D.Out → Bytes) : Prop :=
  ∀ j j' s s', later j s = later j' s' → j = j' ∧ s = s'

theorem hash_first (s : D.Out) (v : Fin m → D.Out) : (D.program (table first later s v)).hash first = s.1 := by
  simp [Digest.program, table]

theorem hash_later (hsep : Separate later) (s : D.Out) (v : Fin m → D.Out) (j : Fin m) (hj : later j s ≠ first) :
    (D.program (table first later s v)).hash (later j s) = (v j).1 := by
  have : (List.finRange m).find? (fun j' => later j s == later j' s) = some j := by
    cases hf : (List.finRange m).find? (fun j' => later j s == later j' s) with
    | none =>
      rw [List.find?_eq_none] at hf
      exact absurd (hf j (List.mem_finRange j)) (by simp)
    | some j' =>
      have := List.find?_some hf
      rw [(hsep j j' s s (by simpa using this)).1]
  simp [Digest.program, table, hj, this]

theorem table_eq_none {s : D.Out} {v : Fin m → D.Out} {x : Bytes} (h : x ≠ first) (h' : ∀ j, x ≠ later j s) :
    table first later s v x = none := by
  rw [table, if_neg h, Option.map_eq_none_iff, List.find?_eq_none]
  intro j _
  simpa using h' j

theorem hash_other {s : D.Out} {v : Fin m → D.Out} {x : Bytes} (h : x ≠ first) (h' : ∀ j, x ≠ later j s) :
    (D.program (table first later s v)).hash x = D.hash x := by
  simp only [Digest.program]
  rw [table_eq_none h h']

instance (D : Digest) : Finite D.Out := (finite_bytes D.outLen).to_subtype

noncomputable instance (D : Digest) : Fintype D.Out := Fintype.ofFinite _

theorem card_out (D : Digest) : Fintype.card D.Out = 256 ^ D.outLen := by
  rw [← Nat.card_eq_fintype_card]
  exact (Nat.card_coe_set_eq _).trans (ncard_bytes D.outLen)

/-- If for each value of the rest at most `q` values of one draw meet a condition. -/
theorem ncard_draw_le {Y β : Type} [Fintype Y] [Fintype β] (P : Y → β → Prop) (q : Nat) (h : ∀ b, {y | P y b}.ncard ≤ q) :
    {w : Y × β | P w.1 w.2}.ncard ≤ q * Fintype.card β := by
  classical
  have e : {w : Y × β | P w.1 w.2} = ((Finset.univ : Finset (Y × β)).filter fun w => P w.1 w.2 : Finset (Y × β)) := by
    ext w; simp
  rw [e, Set.ncard_coe_finset, Finset.card_eq_sum_card_fiberwise (f := Prod.snd) (t := Finset.univ) (fun _ _ => by simp)]
  refine (Finset.sum_le_card_nsmul _ _ q fun b _ => ?_).trans (by rw [Finset.card_univ, smul_eq_mul, mul_comm])
  refine le_trans ?_ (h b)
  have e' : {y | P y b} = ((Finset.univ : Finset Y).filter fun y => P y b : Finset Y) := by ext y; simp
  rw [e', Set.ncard_coe_finset]
  refine Finset.card_le_card_of_injOn Prod.fst ?_ ?_
  · rintro ⟨y, b'⟩ hw
    simp only [Finset.coe_filter, Finset.mem_filter, Finset.mem_univ, true_and, Set.mem_ofPred_eq] at hw ⊢
    obtain ⟨h1, rfl⟩ := hw
    exact h1
  · rintro ⟨y, b1⟩ h1 ⟨y', b2⟩ h2 hy
    simp only [Finset.coe_filter, Finset.mem_filter, Finset.mem_univ, true_and, Set.mem_ofPred_eq] at h1 h2 hy
    rw [h1.2, h2.2, hy]

/-- At most as many first values as inputs asked for make one of these a later input. -/
theorem ncard_guess_le (hsep : Separate later) (l : List Bytes) : {s : D.Out | ∃ j, later j s ∈ l}.ncard ≤ l.length := by
  classical
  have hex : ∀ x : Bytes, ∃ s : Option D.Out, ∀ j s', later j s' = x → s = some s' := by
    intro x
    by_cases h : ∃ j s', later j s' = x
    · obtain ⟨j, s', hs⟩ := h
      exact ⟨some s', fun j' s'' h' => by rw [(hsep j j' s' s'' (hs.trans h'.symm)).2]⟩
    · exact ⟨none, fun j s' h' => absurd ⟨j, s', h'⟩ h⟩
  choose f hf using hex
  have hsub : {s : D.Out | ∃ j, later j s ∈ l} ⊆ ((l.filterMap f).toFinset : Set D.Out) := by
    rintro s ⟨j, hj⟩
    rw [List.coe_toFinset]
    exact List.mem_filterMap.2 ⟨_, hj, hf _ j s rfl⟩
  refine (Set.ncard_le_ncard hsub (Finset.finite_toSet _)).trans ?_
  rw [Set.ncard_coe_finset]
  exact (List.toFinset_card_le _).trans (List.length_filterMap_le _ _)

/-- The attacker, run with the unchanged hash function, asks for an input of the session. -/
def Bad (first : Bytes) (later : Fin m → D.Out → Bytes) (l : List Bytes) (s : D.Out) : Prop :=
  first ∈ l ∨ ∃ j, later j s ∈ l

theorem run_of_not_bad {α : Type} {A : Asker α} {s : D.Out} (v : Fin m → D.Out) (h : ¬ Bad first later (A.asked D) s) :
    A.run (D.program (table first later s v)) = A.run D :=
  A.run_program fun _ hx => table_eq_none (fun e => h (Or.inl (e ▸ hx))) fun j e => h (Or.inr ⟨j, e ▸ hx⟩)

section
variable {α : Type}

/-- An attacker who is shown all values but `v j₀` finds `v j₀` for few draws, unless it asks for the first input. -/
theorem find_le (hsep : Separate later) (A : (Fin m → D.Out) → Asker Bytes) (j₀ : Fin m)
    (hA : ∀ v y, A (Function.update v j₀ y) = A v) (q : Nat) (hq : ∀ v, ((A v).asked D).length ≤ q) :
    {w : D.Out × (Fin m → D.Out) | (A w.2).run (D.program (table first later w.1 w.2)) = (w.2 j₀).1}.ncard ≤
      (q + 1) * (256 ^ D.outLen) ^ m + {w : D.Out × (Fin m → D.Out) | first ∈ (A w.2).asked D}.ncard := by
  classical
  have hsub : {w : D.Out × (Fin m → D.Out) | (A w.2).run (D.program (table first later w.1 w.2)) = (w.2 j₀).1} ⊆
      ({w : D.Out × (Fin m → D.Out) | ∃ j, later j w.1 ∈ (A w.2).asked D} ∪
        {w : D.Out × (Fin m → D.Out) | (A w.2).run D = (w.2 j₀).1}) ∪
        {w : D.Out × (Fin m → D.Out) | first ∈ (A w.2).asked D} := by
    intro w hw
    by_cases hb : Bad first later ((A w.2).asked D) w.1
    · rcases hb with hb | hb
      · exact Or.inr hb
      · exact Or.inl (Or.inl hb)
    · refine Or.inl (Or.inr ?_)
      rw [Set.mem_ofPred_eq, run_of_not_bad _ hb] at hw
      exact hw
  refine (Set.ncard_le_ncard hsub (Set.toFinite _)).trans ((Set.ncard_union_le _ _).trans ?_)
  refine Nat.add_le_add_right ((Set.ncard_union_le _ _).trans ?_) _
  rw [add_mul]
  refine Nat.add_le_add ?_ ?_
  · refine (ncard_draw_le (fun s v => ∃ j, later j s ∈ (A v).asked D) q
      fun v => (ncard_guess_le hsep _).trans (hq v)).trans ?_
    rw [Fintype.card_fun, card_out, Fintype.card_fin]
  · have hc : {w : D.Out × (Fin m → D.Out) | (A w.2).run D = (w.2 j₀).1}.ncard ≤
        Fintype.card (Fin m → D.Out) := by
      rw [← Nat.card_eq_fintype_card, ← Set.ncard_univ]
      refine Set.ncard_le_ncard_of_injOn (fun w => Function.update w.2 j₀ w.1) (fun _ _ => Set.mem_univ _) ?_ (Set.toFinite _)
      rintro ⟨s, v⟩ h1 ⟨s', v'⟩ h2 h
      simp only [Set.mem_ofPred_eq] at h1 h2 h
      have hs : s = s' := by simpa using congrFun h j₀
      have hAv : A v = A v' := by rw [← hA v s, ← hA v' s', h]
      have hj : v j₀ = v' j₀ := Subtype.ext (by rw [← h1, ← h2, hAv])
      refine Prod.ext hs (funext fun j => ?_)
      by_cases e : j = j₀
      · rw [e]; exact hj
      · simpa [Function.update_of_ne e] using congrFun h j
    rw [one_mul]
    exact hc.trans (by rw [Fintype.card_fun, card_out, Fintype.card_fin])

/-- Replace the values with index in `S`. -/
def mix (S : Fin m → Bool) (v k : Fin m → D.Out) : Fin m → D.Out := fun j => if S j then k j else v j

/-- Exchange the values with index in `S`. -/
def swap (S : Fin m → Bool) : D.Out × (Fin m → D.Out) × (Fin m → D.Out) ≃ D.Out × (Fin m → D.Out) × (Fin m → D.Out) where
  toFun w := (w.1, mix S w.2.1 w.2.2, mix S w.2.2 w.2.1)
  invFun w := (w.1, mix S w.2.1 w.2.2, mix S w.2.2 w.2.1)
  left_inv w := by
    refine Prod.ext rfl (Prod.ext ?_ ?_) <;> funext j <;> simp only [mix] <;> split <;> rfl
  right_inv w := by
    refine Prod.ext rfl (Prod.ext ?_ ?_) <;> funext j <;> simp only [mix] <;> split <;> rfl

theorem ncard_swap (S : Fin m → Bool) (P : D.Out → (Fin m → D.Out) → Prop) :
    {w : D.Out × (Fin m → D.Out) × (Fin m → D.Out) | P w.1 (mix S w.2.1 w.2.2)}.ncard =
      {w : D.Out × (Fin m → D.Out) × (Fin m → D.Out) | P w.1 w.2.1}.ncard := by
  refine Set.ncard_congr (fun w _ => swap S w) (fun w hw => hw) (fun w w' _ _ h => (swap S).injective h) fun w hw => ?_
  refine ⟨(swap S).symm w, ?_, (swap S).apply_symm_apply w⟩
  have := congrArg Prod.fst (congrArg Prod.snd ((swap S).apply_symm_apply w))
  simp only [swap, Equiv.coe_fn_mk, Equiv.coe_fn_symm_mk] at this
  simp only [Set.mem_ofPred_eq, swap, Equiv.coe_fn_symm_mk]
  rw [this]
  exact hw

theorem ncard_bad_le (hsep : Separate later) (A : (Fin m → D.Out) → Asker α) (q : Nat)
    (hq : ∀ v, ((A v).asked D).length ≤ q) :
    {w : D.Out × (Fin m → D.Out) × (Fin m → D.Out) | Bad first later ((A w.2.1).asked D) w.1}.ncard ≤
      q * (256 ^ D.outLen) ^ (2 * m) +
      {w : D.Out × (Fin m → D.Out) × (Fin m → D.Out) | first ∈ (A w.2.1).asked D}.ncard := by
  have hsub : {w : D.Out × (Fin m → D.Out) × (Fin m → D.Out) | Bad first later ((A w.2.1).asked D) w.1} ⊆
      {w : D.Out × (Fin m → D.Out) × (Fin m → D.Out) | ∃ j, later j w.1 ∈ (A w.2.1).asked D} ∪
      {w : D.Out × (Fin m → D.Out) × (Fin m → D.Out) | first ∈ (A w.2.1).asked D} := by
    rintro w (h | h)
    · exact Or.inr h
    · exact Or.inl h
  refine (Set.ncard_le_ncard hsub (Set.toFinite _)).trans ((Set.ncard_union_le _ _).trans (Nat.add_le_add_right ?_ _))
  refine (ncard_draw_le (fun s (b : (Fin m → D.Out) × (Fin m → D.Out)) => ∃ j, later j s ∈ (A b.1).asked D) q
    fun b => (ncard_guess_le hsep _).trans (hq b.1)).trans ?_
  rw [Fintype.card_prod, Fintype.card_fun, card_out, Fintype.card_fin, two_mul, pow_add]

/-- An attacker who is shown the values of the session, or others in place of some of them, notices the difference for few
draws, unless it asks for the first input. -/
theorem distinguish (hsep : Separate later) (A : (Fin m → D.Out) → Asker α) (q : Nat)
    (hq : ∀ v, ((A v).asked D).length ≤ q) (S : Fin m → Bool) (T : Set α) :
    let real := {w : D.Out × (Fin m → D.Out) × (Fin m → D.Out) |
      (A w.2.1).run (D.program (table first later w.1 w.2.1)) ∈ T}
    let other := {w : D.Out × (Fin m → D.Out) × (Fin m → D.Out) |
      (A (mix S w.2.1 w.2.2)).run (D.program (table first later w.1 w.2.1)) ∈ T}
    let err := 2 * (q * (256 ^ D.outLen) ^ (2 * m) +
      {w : D.Out × (Fin m → D.Out) × (Fin m → D.Out) | first ∈ (A w.2.1).asked D}.ncard)
    real.ncard ≤ other.ncard + err ∧ other.ncard ≤ real.ncard + err := by
  intro real other err
  have hbad := ncard_bad_le (first := first) hsep A q hq
  have hbad' : {w : D.Out × (Fin m → D.Out) × (Fin m → D.Out) |
      Bad first later ((A (mix S w.2.1 w.2.2)).asked D) w.1}.ncard ≤ _ :=
    (ncard_swap S fun s u => Bad first later ((A u).asked D) s).le.trans hbad
  have hsim := ncard_swap (D := D) S fun _ u => (A u).run D ∈ T
  have key : ∀ (X Y B : Set (D.Out × (Fin m → D.Out) × (Fin m → D.Out))), (∀ w, w ∉ B → (w ∈ X ↔ w ∈ Y)) →
      X.ncard ≤ Y.ncard + B.ncard := fun X Y B h => by
    refine (Set.ncard_le_ncard (t := Y ∪ B) (fun w hw => ?_) (Set.toFinite _)).trans (Set.ncard_union_le _ _)
    by_cases hB : w ∈ B
    · exact Or.inr hB
    · exact Or.inl ((h w hB).1 hw)
  have h1 : ∀ w ∉ {w : D.Out × (Fin m → D.Out) × (Fin m → D.Out) | Bad first later ((A w.2.1).asked D) w.1},
      (w ∈ real ↔ w ∈ {w : D.Out × (Fin m → D.Out) × (Fin m → D.Out) | (A w.2.1).run D ∈ T}) := fun w hw => by
    simp only [real, Set.mem_ofPred_eq] at hw ⊢
    rw [run_of_not_bad _ hw]
  have h2 : ∀ w ∉ {w : D.Out × (Fin m → D.Out) × (Fin m → D.Out) | Bad first later ((A (mix S w.2.1 w.2.2)).asked D) w.1},
      (w ∈ other ↔ w ∈ {w : D.Out × (Fin m → D.Out) × (Fin m → D.Out) | (A (mix S w.2.1 w.2.2)).run D ∈ T}) :=
    fun w hw => by
      simp only [other, Set.mem_ofPred_eq] at hw ⊢
      rw [run_of_not_bad _ hw]
  have a1 := key _ _ _ h1
  have a2 := key _ _ _ (fun w hw => (h1 w hw).symm)
  have a3 := key _ _ _ h2
  have a4 := key _ _ _ (fun w hw => (h2 w hw).symm)
  constructor <;> omega

end
end Oracle
end Verif
