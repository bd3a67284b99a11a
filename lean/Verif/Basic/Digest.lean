import Verif.Basic.Bytes

/-!
# Hash functions

`digest::Digest` (digest 0.10.7): `new`, `update`, `finalize`. The only law assumed of an abstract
digest is that the output has the size fixed by the type.
-/

namespace Verif

/-- A hash function with fixed output length (`D: Digest`). -/
structure Digest where
  /-- one-shot hash of the complete input -/
  hash : Bytes → Bytes
  /-- `D::OutputSize` -/
  outLen : Nat
  hash_length : ∀ x, (hash x).length = outLen

namespace Digest

attribute [simp] hash_length

/-- The state of a streaming hasher is the input absorbed so far (`D::new()`). -/
def new : Bytes := []

/-- `d.update(data)`. -/
def update (st data : Bytes) : Bytes := st ++ data

/-- `d.finalize()`. -/
def finalize (D : Digest) (st : Bytes) : Bytes := D.hash st

/-- Two explicitly given different inputs with the same hash. -/
def Collision (D : Digest) (x y : Bytes) : Prop := x ≠ y ∧ D.hash x = D.hash y

/-- Equal hashes: equal inputs, or the two inputs are a collision. -/
theorem eq_or_collision (D : Digest) {x y : Bytes} (h : D.hash x = D.hash y) :
    x = y ∨ D.Collision x y := by
  by_cases hxy : x = y
  · exact Or.inl hxy
  · exact Or.inr ⟨hxy, h⟩

/-- A toy digest used only to show that hypotheses can be met: the last `n` bytes of the
zero-extended input. -/
def toy (n : Nat) : Digest where
  hash x := ((List.replicate n 0 ++ x).reverse.take n).reverse
  outLen := n
  hash_length x := by simp

end Digest

/-- `a.ct_eq(b)` on slices (subtle 2.6.1): false for different lengths, otherwise bytewise
comparison. -/
def ctEq (a b : Bytes) : Bool :=
  if a.length ≠ b.length then false
  else (a.zip b).foldl (fun acc p => acc && (p.1 == p.2)) true

theorem ctEq_iff (a b : Bytes) : ctEq a b = true ↔ a = b := by
  have foldl_and : ∀ (l : List (UInt8 × UInt8)) (acc : Bool),
      l.foldl (fun acc p => acc && (p.1 == p.2)) acc = (acc && l.all fun p => p.1 == p.2) := by
    intro l
    induction l with
    | nil => simp
    | cons p l ih => intro acc; simp [ih, Bool.and_assoc]
  unfold ctEq
  split
  · rename_i h
    simp only [Bool.false_eq_true, false_iff]
    rintro rfl; exact h rfl
  · rename_i h
    replace h := not_not.1 h
    rw [foldl_and, Bool.true_and]
    induction a generalizing b with
    | nil => cases b <;> simp_all
    | cons x xs ih =>
      cases b with
      | nil => simp at h
      | cons y ys =>
        simp only [List.zip_cons_cons, List.all_cons, Bool.and_eq_true, beq_iff_eq, List.cons.injEq]
        have hl : xs.length = ys.length := by simpa using h
        exact and_congr_right fun _ => ih ys hl

@[simp] theorem ctEq_eq_decide (a b : Bytes) : ctEq a b = decide (a = b) := by
  by_cases h : a = b
  · simp [h, (ctEq_iff b b).2 rfl]
  · have : ctEq a b ≠ true := fun h' => h ((ctEq_iff a b).1 h')
    simp [h, this]

end Verif
