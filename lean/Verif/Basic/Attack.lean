import Verif.Basic.Touch
import Verif.Basic.Oracle

/-!
# An attacker that asks for hash values and sends each session one reply

The attacker has no computational bound. It sees the public values of `n` sessions, asks for hash values and sends replies; a session
answers one reply. The hash function is drawn at random for some inputs. Until the first reply is accepted, what the attacker sees is a
function of the public values and the hash values at the inputs it has looked at.
-/

namespace Verif.Attack
open Touch Guess

/-- What an attacker does next: ask for a hash value, or send a session a reply. -/
inductive Move (n : Nat) (M : Type) where
  | ask (x : Bytes)
  | reply (i : Fin n) (m : M)

/-- An attacker knows the public values of the sessions and the answers to what it did before. -/
abbrev Attacker (n : Nat) (P M : Type) := (Fin n → P) → List (Option Bytes) → Move n M

variable {n : Nat} {P M : Type}

section
variable (D : Digest) (A : Attacker n P M) (Bs : Fin n → P) (V : Fin n → M → Option Bytes)

/-- One move: what the attacker has seen, and the sessions that have got a reply. A session answers one reply. -/
def step (s : List (Option Bytes) × List (Fin n)) : List (Option Bytes) × List (Fin n) :=
  match A Bs s.1 with
  | .ask x => (s.1 ++ [some (D.hash x)], s.2)
  | .reply i m => (s.1 ++ [if i ∈ s.2 then none else V i m], i :: s.2)

/-- The state after `t` moves. -/
def run : Nat → List (Option Bytes) × List (Fin n)
  | 0 => ([], [])
  | t + 1 => step D A Bs V (run t)

/-- One of the first `T` moves is a reply that is accepted. -/
def Accepted (T : Nat) : Prop :=
  ∃ t < T, ∃ i m, A Bs (run D A Bs V t).1 = .reply i m ∧ i ∉ (run D A Bs V t).2 ∧ V i m ≠ none

/-- The state after `t` moves if all replies are refused. -/
abbrev refused (t : Nat) : List (Option Bytes) × List (Fin n) := run D A Bs (fun _ _ => none) t

theorem length_run (t : Nat) : (run D A Bs V t).1.length = t := by
  induction t with
  | zero => rfl
  | succ t ih =>
    rw [run, step]
    split <;> simp [ih]

variable {D A Bs V}

/-- Until the first reply is accepted, the attacker sees what it sees if all replies are refused. -/
theorem run_refused {t : Nat} (h : ∀ s < t, ∀ i m, A Bs (run D A Bs V s).1 = .reply i m → i ∉ (run D A Bs V s).2 → V i m = none) :
    run D A Bs V t = refused D A Bs t := by
  induction t with
  | zero => rfl
  | succ t ih =>
    have ih := ih fun s hs => h s (by omega)
    rw [refused, run, run, ← refused, ← ih, step, step]
    have h' := h t (by omega)
    cases hm : A Bs (run D A Bs V t).1 with
    | ask x => rfl
    | reply i m =>
      simp only [ite_self]
      split
      · rfl
      · rename_i hi; rw [h' i m hm hi]

theorem accepted_refused {T : Nat} (h : Accepted D A Bs V T) :
    ∃ t < T, ∃ i m, A Bs (refused D A Bs t).1 = .reply i m ∧ i ∉ (refused D A Bs t).2 ∧ V i m ≠ none := by
  classical
  have hex : ∃ t, t < T ∧ ∃ i m, A Bs (run D A Bs V t).1 = .reply i m ∧ i ∉ (run D A Bs V t).2 ∧ V i m ≠ none := h
  obtain ⟨ht, i, m, h1, h2, h3⟩ := Nat.find_spec hex
  have e := run_refused (D := D) (A := A) (Bs := Bs) (V := V) (t := Nat.find hex) fun s hs i m hm hi => by
    by_contra hV
    exact Nat.find_min hex hs ⟨by omega, i, m, hm, hi, hV⟩
  exact ⟨Nat.find hex, ht, i, m, e ▸ h1, e ▸ h2, h3⟩

/-- The sessions that have got a reply are those that the attacker has sent one. -/
theorem mem_used {t : Nat} {i : Fin n} : i ∈ (run D A Bs V t).2 ↔ ∃ s < t, ∃ m, A Bs (run D A Bs V s).1 = .reply i m := by
  induction t with
  | zero => simp [run]
  | succ t ih =>
    have hstep : i ∈ (run D A Bs V (t + 1)).2 ↔ i ∈ (run D A Bs V t).2 ∨ ∃ m, A Bs (run D A Bs V t).1 = .reply i m := by
      rw [run, step]
      cases hm : A Bs (run D A Bs V t).1 with
      | ask x => simp
      | reply i' m =>
        simp only [List.mem_cons, Move.reply.injEq]
        constructor
        · rintro (rfl | h)
          · exact Or.inr ⟨m, rfl, rfl⟩
          · exact Or.inl h
        · rintro (h | ⟨_, h, -⟩)
          · exact Or.inr h
          · exact Or.inl h.symm
    rw [hstep, ih]
    constructor
    · rintro (⟨s, hs, h⟩ | h)
      · exact ⟨s, by omega, h⟩
      · exact ⟨t, by omega, h⟩
    · rintro ⟨s, hs, h⟩
      rcases Nat.lt_succ_iff_lt_or_eq.1 hs with h' | rfl
      · exact Or.inl ⟨s, h', h⟩
      · exact Or.inr h

/-- There is one first reply to a session. -/
theorem first_reply {t t' : Nat} {i : Fin n} {m m' : M} (h : A Bs (run D A Bs V t).1 = .reply i m) (hu : i ∉ (run D A Bs V t).2)
    (h' : A Bs (run D A Bs V t').1 = .reply i m') (hu' : i ∉ (run D A Bs V t').2) : t = t' ∧ m = m' := by
  have htt : t = t' := by
    rw [mem_used] at hu hu'
    rcases Nat.lt_trichotomy t t' with hlt | rfl | hlt
    · exact absurd ⟨t, hlt, m, h⟩ hu'
    · rfl
    · exact absurd ⟨t', hlt, m', h'⟩ hu
  subst htt
  rw [h, Move.reply.injEq] at h'
  exact ⟨rfl, h'.2⟩
end

/-! ## The hash function drawn for some inputs -/

section
variable (D : Digest) (S : Bytes → Prop)

/-- The inputs for which the hash function is drawn. -/
abbrev Inputs := {x : Bytes // S x}

theorem finite_inputs {L : Nat} (h : ∀ x, S x → x.length ≤ L) : Finite (Inputs S) := by
  have hf : (⋃ k ∈ Finset.range (L + 1), {x : Bytes | x.length = k}).Finite :=
    (Finset.finite_toSet _).biUnion fun k _ => finite_bytes k
  refine (hf.subset fun x (hx : S x) => ?_).to_subtype
  exact Set.mem_biUnion (x := x.length) (by simpa using Nat.lt_succ_of_le (h x hx)) rfl

instance : Nonempty D.Out := ⟨⟨D.hash [], D.hash_length []⟩⟩

open Classical in
/-- The hash function with the values `f`. -/
noncomputable def drawn (f : Inputs S → D.Out) : Digest := D.program fun x => if h : S x then some (f ⟨x, h⟩) else none

variable {D S}

theorem drawn_in (f : Inputs S → D.Out) (x : Inputs S) : (drawn D S f).hash x.1 = (f x).1 := by
  simp only [drawn, Digest.program, dif_pos x.2]

theorem drawn_out (f : Inputs S → D.Out) {x : Bytes} (h : ¬ S x) : (drawn D S f).hash x = D.hash x := by
  simp only [drawn, Digest.program, dif_neg h]

variable (D S) (A : Attacker n P M) (Bs : Fin n → P) (pt : Fin n → M → Option Bytes)

/-- The hash input that a move is about: what is asked for, or what `pt` says for a reply. -/
def point : Move n M → Option Bytes
  | .ask x => some x
  | .reply i m => pt i m

open Classical in
/-- An input if it is one of those drawn. -/
noncomputable def input (x : Bytes) : Option (Inputs S) := if h : S x then some ⟨x, h⟩ else none

/-- What the attacker sees if all replies are refused, from the hash values at the inputs that its moves are about. -/
def view (tr : List (Option (Inputs S × D.Out))) : List (Option Bytes) :=
  tr.foldl (fun h e => h ++ [match A Bs h with
    | .ask x => some (match e with
      | some y => y.2.1
      | none => D.hash x)
    | .reply _ _ => none]) []

/-- The next input looked at. -/
noncomputable def look (tr : List (Option (Inputs S × D.Out))) : Option (Inputs S) := (point pt (A Bs (view D S A Bs tr))).bind (input S)

variable {D S A Bs}

theorem input_some {x : Inputs S} {y : Bytes} (h : x.1 = y) : input S y = some x := by
  subst h
  simp only [input, dif_pos x.2]

theorem view_trace (f : Inputs S → D.Out) (t : Nat) :
    view D S A Bs (trace (look D S A Bs pt) f t) = (refused (drawn D S f) A Bs t).1 := by
  induction t with
  | zero => rfl
  | succ t ih =>
    have e : view D S A Bs (trace (look D S A Bs pt) f (t + 1)) = view D S A Bs (trace (look D S A Bs pt) f t) ++
        [match A Bs (view D S A Bs (trace (look D S A Bs pt) f t)) with
          | .ask x => some (match (look D S A Bs pt (trace (look D S A Bs pt) f t)).map fun x => (x, f x) with
            | some y => y.2.1
            | none => D.hash x)
          | .reply _ _ => none] := by
      rw [trace, view, List.foldl_append]; rfl
    have er : refused (drawn D S f) A Bs (t + 1) = step (drawn D S f) A Bs (fun _ _ => none) (refused (drawn D S f) A Bs t) := rfl
    rw [e, look, ih, er, step]
    cases hm : A Bs (refused (drawn D S f) A Bs t).1 with
    | ask x =>
      simp only [point, Option.bind_some]
      by_cases hx : S x
      · have := drawn_in f ⟨x, hx⟩
        simp only at this
        rw [input, dif_pos hx, this]; rfl
      · rw [input, dif_neg hx, drawn_out f hx]; rfl
    | reply i m => simp

/-- At most one hash value was seen at each move. -/
theorem ncard_seen (tr : List (Option (Inputs S × D.Out))) : {o : D.Out | ∃ z, some (z, o) ∈ tr}.ncard ≤ tr.length := by
  classical
  have hsub : {o : D.Out | ∃ z, some (z, o) ∈ tr} ⊆
      ((tr.filterMap fun e : Option (Inputs S × D.Out) => e.map Prod.snd).toFinset : Set D.Out) := by
    rintro o ⟨z, hz⟩
    rw [List.coe_toFinset]
    exact List.mem_filterMap.2 ⟨_, hz, rfl⟩
  refine (Set.ncard_le_ncard hsub (Finset.finite_toSet _)).trans ?_
  rw [Set.ncard_coe_finset]
  exact (List.toFinset_card_le _).trans (List.length_filterMap_le _ _)
end

/-! ## Random bytes for a scalar -/

/-- What the generator of random bytes gives for a scalar. -/
abbrev Seed := {b : Bytes // b.length = 64}

instance : Finite Seed := finite_bytes 64

instance : Nonempty Seed := ⟨⟨List.replicate 64 0, by simp⟩⟩

theorem card_seed : Nat.card Seed = 2 ^ 512 := by
  have e : (Nat.card Seed) = {b : Bytes | b.length = 64}.ncard := Nat.card_coe_set_eq _
  rw [e, ncard_bytes]
  decide +kernel

theorem seed_ext {q : Nat} {b b' : Seed} (h1 : leToNat b.1 ≡ leToNat b'.1 [MOD q]) (h2 : leToNat b.1 / q = leToNat b'.1 / q) : b = b' := by
  refine Subtype.ext (leToNat_inj (b.2.trans b'.2.symm) ?_)
  rw [← Nat.div_add_mod (leToNat b.1) q, ← Nat.div_add_mod (leToNat b'.1) q, h1, h2]

theorem seed_quot (q : Nat) (b : Seed) : leToNat b.1 / q < 2 ^ 512 / q + 1 := by
  have := leToNat_lt b.1
  rw [b.2] at this
  have hp : (256 : ℕ) ^ 64 = 2 ^ 512 := by decide +kernel
  rw [hp] at this
  exact Nat.lt_add_one_of_le (Nat.div_le_div_right this.le)

/-- A condition on one of several draws. -/
theorem share_coord {K : Type} [Finite K] [Nonempty K] (i : Fin n) (P : K → Prop) : share {b : Fin n → K | P (b i)} = share {c | P c} := by
  have h1 := share_equiv (Equiv.funSplitAt i K) {w : K × ({j // j ≠ i} → K) | w.1 ∈ {c | P c}}
  rw [share_fst] at h1
  rw [← h1]
  rfl

end Verif.Attack
