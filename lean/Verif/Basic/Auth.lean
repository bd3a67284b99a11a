import Verif.Basic.Guess
import Verif.Basic.Oracle
import Mathlib.Logic.Equiv.Fin.Basic

/-!
# Algebraic attackers that try to be accepted

The sessions of `Guess` keep the hash value at their secret to themselves. They show values of a second random function at it, the tags,
and accept who knows another tag. The lemma bounds the number of hash functions, tag functions, logarithms and candidates for which a
session accepts although no other session has the same secret.
-/

set_option linter.unusedSectionVars false

namespace Verif.Auth
open Guess Confirm

variable {n : Nat} {τ F Q M κ K L V V' I : Type}

/-- Further steps of the attacker: it asks for the tag of some kind that belongs to a value, or sends a tag to a session. -/
abbrev Extra (n : Nat) (K L : Type) : Type := (K × L) ⊕ (Fin n × L)

/-- A step of the attacker. -/
abbrev Move (n : Nat) (τ F Q M K L : Type) : Type := Act n τ F (Q ⊕ Extra n K L) M

/-- What sessions do with their tags: one that was sent an element shows the tag `shown`, accepts the tag `expect` and then shows the
tags `reveal`. -/
structure Roles (n : Nat) (K : Type) where
  shown : Fin n → Option K
  expect : Fin n → K
  reveal : Fin n → List K

/-- What the attacker sees. -/
inductive Seen (L : Type) where
  | hash (l : L)
  | equal (b : Bool)
  | refused
  | opened (t : Option L)
  | rejected
  | accepted (ts : List L)

open Classical in
/-- How a step changes the state of a session: nothing has been sent, or the session has a secret value and has been sent a tag or not. -/
noncomputable def advance (s : Fin n) (st : Option (V × Bool)) (e : Move n τ F Q M K L × Reply V) : Option (V × Bool) :=
  match e, st with
  | (.send s' _, .value v), none => if s' = s then some (v, false) else none
  | (.ask (.inr (.inr (s', _))), _), some (v, false) => if s' = s then some (v, true) else some (v, false)
  | _, st => st

/-- The state of a session after some steps. -/
noncomputable def status (h : List (Move n τ F Q M K L × Reply V)) (s : Fin n) : Option (V × Bool) := h.foldl (advance s) none

/-- How what is seen depends on the values: `val` gives hash values, `ask` tags that are asked for, `tag` those of a session, which
accepts nothing if `mute`. -/
structure View (n : Nat) (V K L : Type) where
  val : V → L
  ask : K × L → L
  tag : Fin n → V → K → L
  mute : V → Prop

/-- The view in which all tags are values of `f`. -/
def View.of (val : V → L) (f : K × L → L) : View n V K L := ⟨val, f, fun _ v c => f (c, val v), fun _ => False⟩

open Classical in
/-- What the attacker sees of a step after the steps `h`. -/
noncomputable def vis (ro : Roles n K) (w : View n V K L) (h : List (Move n τ F Q M K L × Reply V)) :
    Move n τ F Q M K L × Reply V → Seen L
  | (.ask (.inl _), .value v) => .hash (w.val v)
  | (.ask (.inr (.inl x)), _) => .hash (w.ask x)
  | (.ask (.inr (.inr (s, t))), _) => match status h s with
    | some (v, false) =>
      if w.mute v then .rejected
      else if t = w.tag s v (ro.expect s) then .accepted ((ro.reveal s).map (w.tag s v)) else .rejected
    | _ => .refused
  | (.compare _, .equal b) => .equal b
  | (.send s _, .value v) => .opened ((ro.shown s).map (w.tag s v))
  | _ => .refused

/-- `see`, from the steps `p` on. -/
noncomputable def seeFrom (ro : Roles n K) (w : View n V K L) (p : List (Move n τ F Q M K L × Reply V)) :
    List (Move n τ F Q M K L × Reply V) → List (Seen L)
  | [] => []
  | e :: es => vis ro w p e :: seeFrom ro w (p ++ [e]) es

/-- What the attacker sees of a number of steps. -/
noncomputable def see (ro : Roles n K) (w : View n V K L) (h : List (Move n τ F Q M K L × Reply V)) : List (Seen L) := seeFrom ro w [] h

theorem seeFrom_append (ro : Roles n K) (w : View n V K L) (p h h' : List (Move n τ F Q M K L × Reply V)) :
    seeFrom ro w p (h ++ h') = seeFrom ro w p h ++ seeFrom ro w (p ++ h) h' := by
  induction h generalizing p with
  | nil => simp [seeFrom]
  | cons e es ih => simp [seeFrom, ih]

theorem see_snoc (ro : Roles n K) (w : View n V K L) (h : List (Move n τ F Q M K L × Reply V)) (e : Move n τ F Q M K L × Reply V) :
    see ro w (h ++ [e]) = see ro w h ++ [vis ro w h e] := by
  simp [see, seeFrom_append, seeFrom]

theorem see_congr (ro : Roles n K) (w w' : View n V K L) (h : List (Move n τ F Q M K L × Reply V))
    (heq : ∀ p e rest, h = p ++ e :: rest → vis ro w p e = vis ro w' p e) : see ro w h = see ro w' h := by
  induction h using List.reverseRecOn with
  | nil => rfl
  | append_singleton h e ih =>
    rw [see_snoc, see_snoc, heq h e [] rfl, ih fun p e' rest hp => heq p e' (rest ++ [e]) (by rw [hp]; simp)]

theorem status_snoc (h : List (Move n τ F Q M K L × Reply V)) (e : Move n τ F Q M K L × Reply V) (s : Fin n) :
    status (h ++ [e]) s = advance s (status h s) e := by
  simp [status]

/-- A session keeps its value. -/
theorem status_keep {h : List (Move n τ F Q M K L × Reply V)} {s : Fin n} {v : V} {b : Bool} (hs : status h s = some (v, b))
    (h' : List (Move n τ F Q M K L × Reply V)) : ∃ b', status (h ++ h') s = some (v, b') ∧ (b = true → b' = true) := by
  induction h' using List.reverseRecOn with
  | nil => exact ⟨b, by simpa using hs, id⟩
  | append_singleton h' e ih =>
    obtain ⟨b', hb, hm⟩ := ih
    rw [← List.append_assoc, status_snoc, hb]
    obtain ⟨m, o⟩ := e
    cases b' with
    | true => exact ⟨true, by cases m <;> cases o <;> simp [advance], fun _ => rfl⟩
    | false =>
      by_cases hc : ∃ t, m = .ask (.inr (.inr (s, t)))
      · obtain ⟨t, rfl⟩ := hc
        exact ⟨true, by simp [advance], fun _ => rfl⟩
      · refine ⟨false, ?_, hm⟩
        cases m with
        | ask q =>
          rcases q with q | x | ⟨s', t⟩
          · rfl
          · rfl
          · have : s' ≠ s := by
              rintro rfl
              exact hc ⟨t, rfl⟩
            simp [advance, this]
        | compare c => rfl
        | send s' a => cases o <;> rfl

/-- The value of a session comes from what it was sent. -/
theorem status_mem {h : List (Move n τ F Q M K L × Reply V)} {s : Fin n} {v : V} {b : Bool} (hs : status h s = some (v, b)) :
    ∃ a, (Act.send s a, Reply.value v) ∈ h := by
  induction h using List.reverseRecOn generalizing b with
  | nil => cases hs
  | append_singleton h e ih =>
    rw [status_snoc] at hs
    cases hst : status h s with
    | some p =>
      obtain ⟨v', b'⟩ := p
      obtain ⟨b'', hk, -⟩ := status_keep hst [e]
      rw [status_snoc, hs] at hk
      have : v = v' := by
        simp only [Option.some.injEq, Prod.mk.injEq] at hk
        exact hk.1
      subst this
      obtain ⟨a, ha⟩ := ih hst
      exact ⟨a, List.mem_append_left _ ha⟩
    | none =>
      rw [hst] at hs
      obtain ⟨m, o⟩ := e
      cases m with
      | ask q => rcases q with q | x | ⟨s', t⟩ <;> cases hs
      | compare c => cases hs
      | send s' a =>
        cases o with
        | value v' =>
          simp only [advance] at hs
          split at hs
          · rename_i e
            simp only [Option.some.injEq, Prod.mk.injEq] at hs
            refine ⟨a, ?_⟩
            rw [← e, hs.1]
            simp
          · cases hs
        | refused => cases hs
        | equal b => cases hs

/-- Session `s` accepts, and no session of the same `id` that expects another tag has the same value. -/
def Win (ro : Roles n K) (id : Fin n → I) (val : V → L) (f : K × L → L) (h : List (Move n τ F Q M K L × Reply V)) (s : Fin n) : Prop :=
  ∃ p t o rest v, h = p ++ (.ask (.inr (.inr (s, t))), o) :: rest ∧ status p s = some (v, false) ∧ t = f (ro.expect s, val v) ∧
    ∀ s', id s' = id s → ro.expect s' ≠ ro.expect s → ∀ v' b, status p s' = some (v', b) → val v' ≠ val v

/-! ## The formal run, with the number of the draw instead of the value -/

section
variable (cls : Fin n → M → (Q ⊕ Extra n K L) ⊕ κ) (ref : Fin n → M → Prop)

/-- The formal point of a step. -/
def classOf : Move n τ F Q M K L → Option ((Q ⊕ Extra n K L) ⊕ κ)
  | .ask q => some (.inl q)
  | .send s a => some (cls s a)
  | .compare _ => none

open Classical in
/-- The number of the draw for a formal point. -/
noncomputable def look (h : List (Move n τ F Q M K L × Reply Nat)) (ξ : (Q ⊕ Extra n K L) ⊕ κ) : Option Nat :=
  h.findSome? fun e => match e.2 with
    | .value i => if classOf cls e.1 = some ξ then some i else none
    | _ => none

/-- How often something was drawn. -/
def cnt (h : List (Move n τ F Q M K L × Reply V)) : Nat :=
  (h.filter fun e => match e.2 with
    | .value _ => true
    | _ => false).length

open Classical in
/-- Something has been sent to the session. -/
noncomputable def wasSent (h : List (Move n τ F Q M K L × Reply V)) (s : Fin n) : Bool :=
  h.any fun e => match e.1 with
    | .send s' _ => decide (s' = s)
    | _ => false

open Classical in
/-- The formal outcome of a step. -/
noncomputable def out [Zero F] (h : List (Move n τ F Q M K L × Reply Nat)) : Move n τ F Q M K L → Reply Nat
  | .ask q => .value ((look cls h (.inl q)).getD (cnt h))
  | .compare c => .equal (decide (c = 0))
  | .send s a => if wasSent h s then .refused else if ref s a then .refused else .value ((look cls h (cls s a)).getD (cnt h))

/-- The formal run of the attacker `B`. -/
noncomputable def sym [Zero F] (B : List (Move n τ F Q M K L × Reply Nat) → Move n τ F Q M K L) :
    Nat → List (Move n τ F Q M K L × Reply Nat)
  | 0 => []
  | j + 1 => sym B j ++ [(B (sym B j), out cls ref (sym B j) (B (sym B j)))]

variable [Zero F] {cls ref} {B B' : List (Move n τ F Q M K L × Reply Nat) → Move n τ F Q M K L}

theorem sym_length (j : Nat) : (sym cls ref B j).length = j := by
  induction j with
  | zero => rfl
  | succ j ih => simp [sym, ih]

theorem sym_prefix {j k : Nat} (h : j ≤ k) : ∃ rest, sym cls ref B k = sym cls ref B j ++ rest := by
  induction k with
  | zero =>
    obtain rfl : j = 0 := by omega
    exact ⟨[], by simp⟩
  | succ k ih =>
    by_cases e : j = k + 1
    · exact ⟨[], by simp [e]⟩
    · obtain ⟨rest, hr⟩ := ih (by omega)
      exact ⟨rest ++ [(B (sym cls ref B k), out cls ref (sym cls ref B k) (B (sym cls ref B k)))], by rw [sym, hr]; simp⟩

/-- The steps before a step of the run, and the step. -/
theorem sym_split {k : Nat} {p rest : List (Move n τ F Q M K L × Reply Nat)} {e : Move n τ F Q M K L × Reply Nat}
    (h : sym cls ref B k = p ++ e :: rest) :
    p.length < k ∧ p = sym cls ref B p.length ∧ e = (B p, out cls ref p (B p)) := by
  have hl := congrArg List.length h
  rw [sym_length] at hl
  simp only [List.length_append, List.length_cons] at hl
  have hlt : p.length < k := by omega
  obtain ⟨r1, h1⟩ := sym_prefix (cls := cls) (ref := ref) (B := B) (j := p.length + 1) (k := k) (by omega)
  rw [h, sym, List.append_assoc] at h1
  obtain ⟨h2, h3⟩ := List.append_inj h1 (by rw [sym_length])
  refine ⟨hlt, h2, ?_⟩
  simp only [List.singleton_append, List.cons.injEq] at h3
  rw [h3.1, ← h2]

/-- Attackers that do the same on a run have this run. -/
theorem sym_congr {k : Nat} (h : ∀ j < k, B (sym cls ref B' j) = B' (sym cls ref B' j)) : sym cls ref B k = sym cls ref B' k := by
  induction k with
  | zero => rfl
  | succ k ih => rw [sym, sym, ih fun j hj => h j (by omega), h k (by omega)]

theorem look_some {h : List (Move n τ F Q M K L × Reply Nat)} {ξ : (Q ⊕ Extra n K L) ⊕ κ} {i : Nat} (hl : look cls h ξ = some i) :
    ∃ m, (m, Reply.value i) ∈ h ∧ classOf cls m = some ξ := by
  rw [look, List.findSome?_eq_some_iff] at hl
  obtain ⟨l₁, ⟨m, o⟩, l₂, rfl, he, -⟩ := hl
  cases o with
  | value i' =>
    simp only at he
    split at he
    · rename_i hc
      rw [Option.some.injEq] at he
      subst he
      exact ⟨m, by simp, hc⟩
    · cases he
  | refused => cases he
  | equal b => cases he

theorem cnt_snoc (h : List (Move n τ F Q M K L × Reply V)) (m : Move n τ F Q M K L) (o : Reply V) :
    cnt (h ++ [(m, o)]) = cnt h + match o with
      | .value _ => 1
      | _ => 0 := by
  cases o <;> simp [cnt, List.filter_append]

theorem out_value {h : List (Move n τ F Q M K L × Reply Nat)} {m : Move n τ F Q M K L} {i : Nat} (ho : out cls ref h m = .value i) :
    ∃ ξ, classOf cls m = some ξ ∧ i = (look cls h ξ).getD (cnt h) := by
  cases m with
  | ask q => exact ⟨_, rfl, by simpa [out] using ho.symm⟩
  | compare c => cases ho
  | send s a =>
    simp only [out] at ho
    split at ho
    · cases ho
    · split at ho
      · cases ho
      · exact ⟨_, rfl, by simpa using ho.symm⟩

/-- Numbers of draws are below the count, and steps with the same number have the same formal point. -/
theorem sym_index (k : Nat) :
    (∀ m i, (m, Reply.value i) ∈ sym cls ref B k → i < cnt (sym cls ref B k)) ∧
      ∀ m m' i, (m, Reply.value i) ∈ sym cls ref B k → (m', Reply.value i) ∈ sym cls ref B k → classOf cls m = classOf cls m' := by
  induction k with
  | zero => simp [sym]
  | succ k ih =>
    obtain ⟨ih1, ih2⟩ := ih
    set h := sym cls ref B k
    set m₀ := B h
    have hnew : ∀ i, out cls ref h m₀ = .value i → ∃ ξ, classOf cls m₀ = some ξ ∧
        ((look cls h ξ = none ∧ i = cnt h) ∨ ∃ m, (m, Reply.value i) ∈ h ∧ classOf cls m = some ξ) := by
      intro i hi
      obtain ⟨ξ, hξ, hi⟩ := out_value hi
      refine ⟨ξ, hξ, ?_⟩
      cases hl : look cls h ξ with
      | none => exact Or.inl ⟨rfl, by rw [hi, hl]; rfl⟩
      | some j =>
        rw [hl] at hi
        rw [hi]
        exact Or.inr (look_some hl)
    have hsucc : sym cls ref B (k + 1) = h ++ [(m₀, out cls ref h m₀)] := rfl
    rw [hsucc, cnt_snoc]
    have hmem : ∀ m i, (m, Reply.value i) ∈ h ++ [(m₀, out cls ref h m₀)] →
        (m, Reply.value i) ∈ h ∨ (m = m₀ ∧ out cls ref h m₀ = .value i) := by
      intro m i hm
      simp only [List.mem_append, List.mem_singleton, Prod.mk.injEq] at hm
      rcases hm with hm | ⟨h1, h2⟩
      · exact Or.inl hm
      · exact Or.inr ⟨h1, h2.symm⟩
    constructor
    · intro m i hm
      rcases hmem m i hm with hm | ⟨rfl, ho⟩
      · exact (ih1 m i hm).trans_le (Nat.le_add_right _ _)
      · rw [ho]
        obtain ⟨ξ, -, ⟨-, rfl⟩ | ⟨m', hm', -⟩⟩ := hnew i ho
        · simp
        · exact (ih1 m' i hm').trans_le (Nat.le_add_right _ _)
    · have key : ∀ m i, (m, Reply.value i) ∈ h → out cls ref h m₀ = .value i → classOf cls m = classOf cls m₀ := by
        intro m i hm ho
        obtain ⟨ξ, hξ, ⟨-, rfl⟩ | ⟨m', hm', hc⟩⟩ := hnew i ho
        · exact absurd (ih1 m _ hm) (lt_irrefl _)
        · rw [ih2 m m' i hm hm', hc, hξ]
      intro m m' i hm hm'
      rcases hmem m i hm with hm | ⟨rfl, ho⟩
      · rcases hmem m' i hm' with hm' | ⟨rfl, ho⟩
        · exact ih2 m m' i hm hm'
        · exact key m i hm ho
      · rcases hmem m' i hm' with hm' | ⟨rfl, ho'⟩
        · exact (key m' i hm' ho).symm
        · rfl

theorem cnt_le (h : List (Move n τ F Q M K L × Reply V)) : cnt h ≤ h.length := List.length_filter_le _ _

theorem status_wasSent {h : List (Move n τ F Q M K L × Reply V)} {s : Fin n} {p : V × Bool} (hs : status h s = some p) :
    wasSent h s = true := by
  obtain ⟨a, ha⟩ := status_mem (b := p.2) hs
  simp only [wasSent, List.any_eq_true]
  exact ⟨_, ha, by simp⟩

/-- A session gets its value once. -/
theorem sym_opens {k : Nat} {p rest : List (Move n τ F Q M K L × Reply Nat)} {s : Fin n} {a : M} {i : Nat}
    (h : sym cls ref B k = p ++ (.send s a, .value i) :: rest) : status p s = none ∧ status (p ++ [(.send s a, .value i)]) s = some (i, false) := by
  obtain ⟨-, -, he⟩ := sym_split h
  have hn : status p s = none := by
    cases hs : status p s with
    | none => rfl
    | some q =>
      have hw := status_wasSent hs
      have h1 := congrArg Prod.fst he
      have h2 := congrArg Prod.snd he
      simp only at h1 h2
      rw [← h1] at h2
      simp [out, hw] at h2
  refine ⟨hn, ?_⟩
  rw [status_snoc, hn]
  simp [advance]

end

/-! ## Draws, tags and further tags -/

/-- What fits together: the tags of a session belong to its `id`, it does not show or reveal the one it expects, and secrets are the same
only for sessions of the same `id`. -/
structure Fits (ro : Roles n K) (id : Fin n → I) (idOf : K → I) (cls : Fin n → M → (Q ⊕ Extra n K L) ⊕ κ) : Prop where
  expect : ∀ s, idOf (ro.expect s) = id s
  shown : ∀ s, ∀ c ∈ ro.shown s, idOf c = id s ∧ c ≠ ro.expect s
  reveal : ∀ s, ∀ c ∈ ro.reveal s, idOf c = id s ∧ c ≠ ro.expect s
  same : ∀ s a s' a', cls s a = cls s' a' → id s = id s'
  secret : ∀ s a q, cls s a ≠ .inl q

section
variable {T : Nat} [Inhabited L] [Zero F] (ro : Roles n K) (id : Fin n → I) (idOf : K → I)
  (cls : Fin n → M → (Q ⊕ Extra n K L) ⊕ κ) (ref : Fin n → M → Prop) (A : List (Seen L) → Move n τ F Q M K L)

/-- The draws, the tags, and another value for each kind of tags. -/
abbrev Draw (T : Nat) (K L : Type) : Type := Fin T ⊕ ((K × L) ⊕ K) → L

/-- The draws. -/
def Draw.r (ω : Draw T K L) : Nat → L := Tree.extend fun i => ω (.inl i)

/-- The tags. -/
def Draw.f (ω : Draw T K L) : K × L → L := fun x => ω (.inr (.inl x))

open Classical in
/-- Exchanges the tags of the draw `k` with the other values. -/
noncomputable def exchange (i₀ : I) (k : Fin T) (ω : Draw T K L) : Draw T K L
  | .inl i => ω (.inl i)
  | .inr (.inl x) => if idOf x.1 = i₀ ∧ x.2 = ω (.inl k) then ω (.inr (.inr x.1)) else ω (.inr (.inl x))
  | .inr (.inr c) => if idOf c = i₀ then ω (.inr (.inl (c, ω (.inl k)))) else ω (.inr (.inr c))

theorem exchange_exchange (i₀ : I) (k : Fin T) (ω : Draw T K L) : exchange idOf i₀ k (exchange idOf i₀ k ω) = ω := by
  funext x
  rcases x with i | ⟨c, l⟩ | c
  · rfl
  · by_cases h : idOf c = i₀ ∧ l = ω (.inl k)
    · simp [exchange, h.1, h.2]
    · rw [not_and] at h
      by_cases h1 : idOf c = i₀
      · simp [exchange, h1, h h1]
      · simp [exchange, h1]
  · by_cases h : idOf c = i₀ <;> simp [exchange, h]

/-- The formal run. -/
noncomputable def formal (r : Nat → L) (f : K × L → L) : Nat → List (Move n τ F Q M K L × Reply Nat) :=
  sym cls ref (fun h => A (see ro (View.of r f) h))

open Classical in
/-- The view without the draw `k`: its sessions take their tags from the other values and accept nothing. -/
noncomputable def blind (s₀ : Fin n) (k : Fin T) (ω : Draw T K L) : View n Nat K L where
  val i := if i = k then default else ω.r i
  ask := ω.f
  tag _ i c := if i = k then (if c ≠ ro.expect s₀ then ω (.inr (.inr c)) else default) else ω.f (c, ω.r i)
  mute i := i = k

/-- The formal run with this view. -/
noncomputable def blindRun (s₀ : Fin n) (k : Fin T) (ω : Draw T K L) : Nat → List (Move n τ F Q M K L × Reply Nat) :=
  sym cls ref (fun h => A (see ro (blind ro s₀ k ω) h))

/-- The run with the view asks for a tag of the draw `k`. -/
def Asks (s₀ : Fin n) (k : Fin T) (ω : Draw T K L) : Prop :=
  ∃ c o, (Act.ask (.inr (.inl (c, ω (.inl k)))), o) ∈ blindRun ro cls ref A s₀ k ω T

/-- The run with the view finds the value that replaces the tag `s₀` expects. -/
def Finds (s₀ : Fin n) (k : Fin T) (ω : Draw T K L) : Prop :=
  ∃ o, (Act.ask (.inr (.inr (s₀, ω (.inr (.inr (ro.expect s₀)))))), o) ∈ blindRun ro cls ref A s₀ k ω T

/-- Another draw has the same value as the draw `k`. -/
def Collides (k : Fin T) (ω : Draw T K L) : Prop := ∃ i ≠ k, ω (.inl i) = ω (.inl k)

variable {ro id idOf cls ref A}

theorem draw_r (ω : Draw T K L) (k : Fin T) : ω.r k = ω (.inl k) := by
  simp [Draw.r, Tree.extend]

theorem exchange_r (i₀ : I) (k : Fin T) (ω : Draw T K L) : (exchange idOf i₀ k ω).r = ω.r := rfl

theorem exchange_f_of_ne (i₀ : I) (k : Fin T) (ω : Draw T K L) {c : K} {l : L} (h : idOf c ≠ i₀ ∨ l ≠ ω.r k) :
    (exchange idOf i₀ k ω).f (c, l) = ω.f (c, l) := by
  rw [draw_r] at h
  simp only [Draw.f, exchange]
  rw [if_neg (by tauto)]

theorem exchange_f_of_eq (i₀ : I) (k : Fin T) (ω : Draw T K L) {c : K} (h : idOf c = i₀) :
    (exchange idOf i₀ k ω).f (c, ω.r k) = ω (.inr (.inr c)) := by
  rw [draw_r]
  simp [Draw.f, exchange, h]

/-- **The reduction.** If `s₀` with the draw `k` is the first to accept after the exchange, then the run with the view asks for a tag of this
draw or finds the value, or there is another draw of the same value. -/
theorem win_exchange (hf : Fits ro id idOf cls) (s₀ : Fin n) (k : Fin T) (ω : Draw T K L)
    {p rest : List (Move n τ F Q M K L × Reply Nat)} {t : L} {o : Reply Nat}
    (hrun : formal ro cls ref A ω.r (exchange idOf (id s₀) k ω).f T = p ++ (.ask (.inr (.inr (s₀, t))), o) :: rest)
    (hst : status p s₀ = some (k.val, false)) (ht : t = (exchange idOf (id s₀) k ω).f (ro.expect s₀, ω.r k))
    (halone : ∀ s', id s' = id s₀ → ro.expect s' ≠ ro.expect s₀ → ∀ v b, status p s' = some (v, b) → ω.r v ≠ ω.r k)
    (hfirst : ∀ q s t' o' rest', p = q ++ (.ask (.inr (.inr (s, t'))), o') :: rest' → ro.expect s = ro.expect s₀ →
      status q s = some (k.val, false) → t' ≠ (exchange idOf (id s₀) k ω).f (ro.expect s₀, ω.r k)) :
    Asks ro cls ref A s₀ k ω ∨ Finds ro cls ref A s₀ k ω ∨ Collides k ω := by
  by_contra hno
  rw [not_or, not_or] at hno
  obtain ⟨hna, hnf, hnc⟩ := hno
  obtain ⟨hlen, hp, hlast⟩ := sym_split hrun
  set f' := (exchange idOf (id s₀) k ω).f
  set B : List (Move n τ F Q M K L × Reply Nat) → Move n τ F Q M K L := fun h => A (see ro (View.of ω.r f') h)
  set B' : List (Move n τ F Q M K L × Reply Nat) → Move n τ F Q M K L := fun h => A (see ro (blind ro s₀ k ω) h)
  -- sessions without the draw
  have hother : ∀ s v b, status p s = some (v, b) → v ≠ k.val → ∀ c, idOf c = id s → f' (c, ω.r v) = ω.f (c, ω.r v) := by
    intro s v b hv hvk c hc
    by_cases hid : id s = id s₀
    · refine exchange_f_of_ne _ _ _ (Or.inr ?_)
      by_cases hex : ro.expect s = ro.expect s₀
      · intro hr
        obtain ⟨a, ha⟩ := status_mem hv
        have hT : v < T := by
          rw [hp] at ha
          have h1 := (sym_index (cls := cls) (ref := ref) (B := B) p.length).1 _ _ ha
          have h2 := cnt_le (sym cls ref B p.length)
          rw [sym_length] at h2
          omega
        have e : ω.r v = ω (.inl ⟨v, hT⟩) := draw_r ω ⟨v, hT⟩
        rw [e, draw_r] at hr
        exact hnc ⟨⟨v, hT⟩, fun h => hvk (congrArg Fin.val h), hr⟩
      · exact halone s hid hex v b hv
    · exact exchange_f_of_ne _ _ _ (Or.inl (by rw [hc]; exact hid))
  -- those with it
  have hwith : ∀ s b, status p s = some (k.val, b) → id s = id s₀ ∧ ro.expect s = ro.expect s₀ := by
    intro s b hv
    obtain ⟨a, ha⟩ := status_mem hv
    obtain ⟨a₀, ha₀⟩ := status_mem hst
    rw [hp] at ha ha₀
    have := (sym_index p.length).2 _ _ _ ha ha₀
    simp only [classOf, Option.some.injEq] at this
    have hid := hf.same _ _ _ _ this
    refine ⟨hid, ?_⟩
    by_contra hex
    exact halone s hid hex _ b hv rfl
  -- the runs are the same up to here
  have hview : ∀ j ≤ p.length, (∀ c o', (Act.ask (.inr (.inl (c, ω (.inl k)))), o') ∉ sym cls ref B j) →
      B' (sym cls ref B j) = B (sym cls ref B j) := by
    intro j hj hask
    show A _ = A _
    congr 1
    refine see_congr ro _ _ _ fun q e rest' hq => ?_
    obtain ⟨pr, hpr⟩ := sym_prefix (cls := cls) (ref := ref) (B := B) hj
    rw [← hp] at hpr
    have hpq : p = q ++ e :: (rest' ++ pr) := by rw [hpr, hq]; simp
    have hlift : ∀ s v b, status q s = some (v, b) → ∃ b', status p s = some (v, b') ∧ (b = true → b' = true) := by
      intro s v b hv
      rw [hpq]
      exact status_keep hv _
    have hlift' : ∀ s v b, status (q ++ [e]) s = some (v, b) → ∃ b', status p s = some (v, b') ∧ (b = true → b' = true) := by
      intro s v b hv
      have : p = (q ++ [e]) ++ (rest' ++ pr) := by rw [hpq]; simp
      rw [this]
      exact status_keep hv _
    obtain ⟨m, o'⟩ := e
    cases m with
    | compare c => cases o' <;> rfl
    | ask x =>
      rcases x with x | ⟨c, l⟩ | ⟨s, t'⟩
      · cases o' with
        | value i =>
          have hi : i ≠ k.val := by
            rintro rfl
            obtain ⟨a₀, ha₀⟩ := status_mem hst
            have hx : (Act.ask (.inl x), Reply.value k.val) ∈ p := by rw [hpq]; simp
            rw [hp] at ha₀ hx
            have := (sym_index p.length).2 _ _ _ ha₀ hx
            simp only [classOf, Option.some.injEq] at this
            exact hf.secret _ _ _ this
          simp [vis, blind, View.of, hi]
        | refused => rfl
        | equal b => rfl
      · have hl : l ≠ ω.r k := by
          rintro rfl
          rw [draw_r] at hq
          exact hask c o' (by rw [hq]; simp)
        simp only [vis, blind, View.of, Seen.hash.injEq]
        exact (exchange_f_of_ne _ _ _ (Or.inr hl)).symm
      · cases hs : status q s with
        | none => simp [vis, hs]
        | some vb =>
          obtain ⟨v, b⟩ := vb
          cases b with
          | true => simp [vis, hs]
          | false =>
            obtain ⟨b', hb', -⟩ := hlift s v false hs
            by_cases hv : v = k.val
            · subst hv
              obtain ⟨-, hex⟩ := hwith s b' hb'
              have h5 := hfirst q s t' o' _ hpq hex hs
              simp only [vis, hs]
              rw [if_pos (show (blind ro s₀ k ω).mute k from rfl),
                if_neg (show ¬ (View.of (n := n) ω.r f').mute k.val from fun h => h)]
              rw [if_neg]
              simp only [View.of, hex]
              exact h5
            · have hfs := hother s v b' hb' hv
              have h1 : ∀ c, idOf c = id s → (blind ro s₀ k ω).tag s v c = (View.of (n := n) ω.r f').tag s v c := by
                intro c hc
                simp only [blind, View.of, hv, if_false]
                exact (hfs c hc).symm
              have h2 : (ro.reveal s).map ((blind ro s₀ k ω).tag s v) = (ro.reveal s).map ((View.of (n := n) ω.r f').tag s v) :=
                List.map_congr_left fun c hc => h1 c (hf.reveal s c hc).1
              have h3 : ¬ (blind ro s₀ k ω).mute v := hv
              have h4 := h1 _ (hf.expect s)
              simp only [vis, hs, h2, if_neg h3]
              rw [if_neg (show ¬ (View.of (n := n) ω.r f').mute v from fun h => h)]
              by_cases h5 : t' = (View.of (n := n) ω.r f').tag s v (ro.expect s)
              · rw [if_pos h5, if_pos (h5.trans h4.symm)]
              · rw [if_neg h5, if_neg fun h => h5 (h.trans h4)]
    | send s a =>
      cases o' with
      | refused => rfl
      | equal b => rfl
      | value v =>
        have hop := sym_opens hq
        obtain ⟨b', hb', -⟩ := hlift' s v false hop.2
        simp only [vis, blind, View.of, Seen.opened.injEq]
        cases hsh : ro.shown s with
        | none => rfl
        | some c =>
          obtain ⟨h1, h2⟩ := hf.shown s c hsh
          simp only [Option.map_some, Option.some.injEq]
          by_cases hv : v = k.val
          · subst hv
            obtain ⟨hid, hex⟩ := hwith s b' hb'
            rw [hex] at h2
            simp only [if_true, h2, ne_eq, not_false_eq_true]
            exact (exchange_f_of_eq _ _ _ (h1.trans hid)).symm
          · rw [if_neg hv, hother s v b' hb' hv c h1]
  have hask : ∀ j ≤ T, ∀ c o', (Act.ask (.inr (.inl (c, ω (.inl k)))), o') ∉ sym cls ref B' j := by
    intro j hj c o' hm
    obtain ⟨pr, hpr⟩ := sym_prefix (cls := cls) (ref := ref) (B := B') hj
    exact hna ⟨c, o', by rw [blindRun, hpr]; exact List.mem_append_left _ hm⟩
  have hsame : ∀ j ≤ p.length, sym cls ref B' j = sym cls ref B j := by
    intro j
    induction j with
    | zero => exact fun _ => rfl
    | succ j ih =>
      intro hj
      have h1 := ih (by omega)
      rw [sym, sym, h1, hview j (by omega) (by rw [← h1]; exact hask j (by omega))]
  have h1 := hsame p.length le_rfl
  have h2 := hview p.length le_rfl (by rw [← h1]; exact hask _ hlen.le)
  refine hnf ⟨out cls ref p (B p), ?_⟩
  obtain ⟨pr, hpr⟩ := sym_prefix (cls := cls) (ref := ref) (B := B') (j := p.length + 1) (k := T) (by omega)
  rw [blindRun, hpr, sym, h1, h2, ← hp]
  refine List.mem_append_left _ (List.mem_append_right _ ?_)
  rw [List.mem_singleton, Prod.mk.injEq]
  refine ⟨?_, rfl⟩
  have h3 : Act.ask (.inr (.inr (s₀, t))) = B p := congrArg Prod.fst hlast
  rw [← h3, ht, show f' (ro.expect s₀, ω.r k) = _ from exchange_f_of_eq _ _ _ (hf.expect s₀)]

/-- Coordinates that the view does not use. -/
theorem blind_update [DecidableEq (Fin T ⊕ ((K × L) ⊕ K))] (s₀ : Fin n) (k : Fin T) (ω : Draw T K L) (z : L) :
    blind ro s₀ k (Function.update ω (.inl k) z) = blind ro s₀ k ω ∧
      blind ro s₀ k (Function.update ω (.inr (.inr (ro.expect s₀))) z) = blind ro s₀ k ω := by
  have hr : ∀ i ≠ k.val, Draw.r (T := T) (K := K) (Function.update ω (.inl k) z) i = ω.r i := by
    intro i hi
    simp only [Draw.r, Tree.extend]
    split
    · rw [Function.update_of_ne]
      intro h
      rw [Sum.inl.injEq] at h
      exact hi (congrArg Fin.val h)
    · rfl
  have hf : Draw.f (T := T) (K := K) (Function.update ω (.inl k) z) = ω.f := by
    funext x
    simp [Draw.f]
  have hf' : Draw.f (T := T) (K := K) (Function.update ω (.inr (.inr (ro.expect s₀))) z) = ω.f := by
    funext x
    simp [Draw.f]
  have hr' : Draw.r (T := T) (K := K) (Function.update ω (.inr (.inr (ro.expect s₀))) z) = ω.r := by
    funext i
    simp [Draw.r]
  constructor
  · simp only [blind, hf, View.mk.injEq, true_and, and_true]
    constructor
    · funext i
      by_cases hi : i = k.val
      · simp [hi]
      · simp [hi, hr i hi]
    · funext s i c
      by_cases hi : i = k.val
      · simp [hi]
      · simp [hi, hr i hi]
  · simp only [blind, hf', hr', View.mk.injEq, true_and, and_true]
    funext s i c
    by_cases hc : c ≠ ro.expect s₀
    · simp [hc]
    · simp [hc]

/-- If for all other coordinates an event needs one of `q` values at `i`, it happens for few functions. -/
theorem card_update {α : Type} [DecidableEq α] [Fintype α] [Fintype L] (P : (α → L) → Prop) (i : α) (q : Nat)
    (h : ∀ ω, {z | P (Function.update ω i z)}.ncard ≤ q) :
    Fintype.card L * {ω | P ω}.ncard ≤ q * Fintype.card L ^ Fintype.card α := by
  let e := Equiv.funSplitAt i L
  have h1 : {ω | P ω}.ncard = {w : L × ({j // j ≠ i} → L) | P (e.symm w)}.ncard := by
    have : {ω | P ω} = e.symm '' {w | P (e.symm w)} := by
      rw [Equiv.image_symm_eq_preimage]
      ext ω
      simp
    rw [this, Set.ncard_image_of_injective _ e.symm.injective]
  have h2 := Oracle.ncard_draw_le (fun z b => P (e.symm (z, b))) q fun b => by
    have hu : ∀ z, e.symm (z, b) = Function.update (e.symm (default, b)) i z := by
      intro z
      funext j
      by_cases hj : j = i
      · subst hj
        simp [e, Equiv.funSplitAt, Equiv.piSplitAt]
      · simp [e, Equiv.funSplitAt, Equiv.piSplitAt, hj]
    have hset : {z | P (e.symm (z, b))} = {z | P (Function.update (e.symm (default, b)) i z)} := by
      ext z
      show P _ ↔ P _
      rw [hu z]
    rw [hset]
    exact h _
  have h3 : Fintype.card L * Fintype.card ({j // j ≠ i} → L) = Fintype.card L ^ Fintype.card α := by
    rw [← Fintype.card_prod, ← Fintype.card_congr e, Fintype.card_fun]
  rw [h1, ← h3]
  calc _ ≤ Fintype.card L * (q * Fintype.card ({j // j ≠ i} → L)) := Nat.mul_le_mul_left _ h2
    _ = _ := by ring

/-- Few values are asked for. -/
theorem ncard_asked (h : List (Move n τ F Q M K L × Reply Nat)) (g : L → Move n τ F Q M K L → Prop)
    (hg : ∀ l l' m, g l m → g l' m → l = l') : {l | ∃ m o, g l m ∧ (m, o) ∈ h}.ncard ≤ h.length := by
  classical
  let d : Move n τ F Q M K L × Reply Nat → L := fun e => if hx : ∃ l, g l e.1 then hx.choose else default
  refine (Set.ncard_le_ncard (t := ((h.map d).toFinset : Set L)) ?_ (Finset.finite_toSet _)).trans ?_
  · rintro l ⟨m, o, hl, hm⟩
    refine Finset.mem_coe.2 (List.mem_toFinset.2 (List.mem_map.2 ⟨_, hm, ?_⟩))
    have hx : ∃ l, g l m := ⟨l, hl⟩
    show (if hx : ∃ l, g l m then hx.choose else default) = l
    rw [dif_pos hx]
    exact hg _ _ _ hx.choose_spec hl
  · rw [Set.ncard_coe_finset]
    exact (List.toFinset_card_le _).trans (by simp)

/-- Session `s` with the draw `k` accepts, no session of the same `id` that expects another tag has the same value, and no session that
expects the same tag and has the same draw has accepted before. -/
def WinAt (ro : Roles n K) (id : Fin n → I) (r : Nat → L) (f : K × L → L) (h : List (Move n τ F Q M K L × Reply Nat)) (s : Fin n)
    (k : Nat) : Prop :=
  ∃ p t o rest, h = p ++ (.ask (.inr (.inr (s, t))), o) :: rest ∧ status p s = some (k, false) ∧ t = f (ro.expect s, r k) ∧
    (∀ s', id s' = id s → ro.expect s' ≠ ro.expect s → ∀ v' b, status p s' = some (v', b) → r v' ≠ r k) ∧
    ∀ q s' t' o' rest', p = q ++ (.ask (.inr (.inr (s', t'))), o') :: rest' → ro.expect s' = ro.expect s →
      status q s' = some (k, false) → t' ≠ f (ro.expect s, r k)

open Classical in
theorem winAt_of_win (hf : Fits ro id idOf cls) {r : Nat → L} {f : K × L → L}
    (h : ∃ s, Win ro id r f (formal ro cls ref A r f T) s) :
    ∃ (s : Fin n) (k : Fin T), WinAt ro id r f (formal ro cls ref A r f T) s k := by
  have hex : ∃ N s p t o rest v, p.length = N ∧ formal ro cls ref A r f T = p ++ (.ask (.inr (.inr (s, t))), o) :: rest ∧
      status p s = some (v, false) ∧ t = f (ro.expect s, r v) ∧
      ∀ s', id s' = id s → ro.expect s' ≠ ro.expect s → ∀ v' b, status p s' = some (v', b) → r v' ≠ r v := by
    obtain ⟨s, p, t, o, rest, v, h⟩ := h
    exact ⟨_, s, p, t, o, rest, v, rfl, h⟩
  obtain ⟨s, p, t, o, rest, v, hN, hrun, hst, ht, halone⟩ := Nat.find_spec hex
  obtain ⟨a, ha⟩ := status_mem hst
  have hm : (Act.send s a, Reply.value v) ∈ formal ro cls ref A r f T := by
    rw [hrun]
    exact List.mem_append_left _ ha
  have hv : v < T := by
    have h1 := (sym_index (cls := cls) (ref := ref) (B := fun h => A (see ro (View.of r f) h)) T).1 _ _ hm
    have h2 := cnt_le (sym cls ref (fun h => A (see ro (View.of r f) h)) T)
    rw [sym_length] at h2
    omega
  refine ⟨s, ⟨v, hv⟩, p, t, o, rest, hrun, hst, ht, halone, fun q s' t' o' rest' hq hexp hs' ht' => ?_⟩
  refine Nat.find_min hex (m := q.length) (by rw [← hN, hq]; simp)
    ⟨s', q, t', o', rest' ++ (.ask (.inr (.inr (s, t))), o) :: rest, v, rfl, ?_, hs', by rw [hexp]; exact ht',
      fun s'' hid hne v' b hv' => ?_⟩
  · rw [hrun, hq]
    simp
  · have hid' : id s' = id s := by rw [← hf.expect, ← hf.expect, hexp]
    obtain ⟨b', hb', -⟩ := status_keep hv' ((.ask (.inr (.inr (s', t'))), o') :: rest')
    rw [← hq] at hb'
    exact halone s'' (hid.trans hid') (by rw [← hexp]; exact hne) v' b' hb'

open Classical in
/-- **The formal game.** For few draws and tags a session accepts in the formal run while no other session has the same value. -/
theorem card_win_formal [Fintype K] [Fintype L] (hf : Fits ro id idOf cls) :
    Fintype.card L * {w : (Fin T → L) × (K × L → L) |
        ∃ s, Win ro id (Tree.extend w.1) w.2 (formal ro cls ref A (Tree.extend w.1) w.2 T) s}.ncard ≤
      3 * n * T ^ 2 * (Fintype.card L ^ T * Fintype.card L ^ (Fintype.card K * Fintype.card L)) := by
  set S : Set ((Fin T → L) × (K × L → L)) := {w | ∃ s, Win ro id (Tree.extend w.1) w.2 (formal ro cls ref A (Tree.extend w.1) w.2 T) s}
  have hL0 : 0 < Fintype.card L := Fintype.card_pos
  -- with the other values
  let e : Draw T K L ≃ ((Fin T → L) × (K × L → L)) × (K → L) :=
    (Equiv.sumArrowEquivProdArrow _ _ _).trans
      (((Equiv.refl _).prodCongr (Equiv.sumArrowEquivProdArrow _ _ _)).trans (Equiv.prodAssoc _ _ _).symm)
  have hlift : {ω : Draw T K L | (e ω).1 ∈ S}.ncard = S.ncard * Fintype.card L ^ Fintype.card K := by
    have h1 : {ω : Draw T K L | (e ω).1 ∈ S} = e.symm '' (S ×ˢ Set.univ) := by
      rw [Equiv.image_symm_eq_preimage]
      ext ω
      simp
    rw [h1, Set.ncard_image_of_injective _ e.symm.injective, Set.ncard_prod, Set.ncard_univ, Nat.card_eq_fintype_card, Fintype.card_fun]
  have hα : Fintype.card L ^ Fintype.card (Fin T ⊕ ((K × L) ⊕ K)) =
      Fintype.card L ^ T * Fintype.card L ^ (Fintype.card K * Fintype.card L) * Fintype.card L ^ Fintype.card K := by
    simp only [Fintype.card_sum, Fintype.card_fin, Fintype.card_prod]
    ring
  -- one session and one draw
  have hone : ∀ (s : Fin n) (k : Fin T),
      Fintype.card L * {ω : Draw T K L | WinAt ro id ω.r ω.f (formal ro cls ref A ω.r ω.f T) s k}.ncard ≤
        3 * T * Fintype.card L ^ Fintype.card (Fin T ⊕ ((K × L) ⊕ K)) := by
    intro s k
    have hex : {ω : Draw T K L | WinAt ro id ω.r ω.f (formal ro cls ref A ω.r ω.f T) s k}.ncard =
        {ω : Draw T K L | WinAt ro id ω.r (exchange idOf (id s) k ω).f (formal ro cls ref A ω.r (exchange idOf (id s) k ω).f T) s k}.ncard := by
      have hinj : Function.Injective (exchange idOf (id s) k : Draw T K L → Draw T K L) :=
        Function.LeftInverse.injective (exchange_exchange idOf (id s) k)
      rw [← Set.ncard_image_of_injective _ hinj]
      congr 1
      ext ω
      constructor
      · rintro ⟨ω', h, rfl⟩
        show WinAt ro id _ (exchange idOf (id s) k (exchange idOf (id s) k ω')).f
          (formal ro cls ref A _ (exchange idOf (id s) k (exchange idOf (id s) k ω')).f T) s k
        rw [exchange_exchange]
        exact h
      · intro h
        exact ⟨exchange idOf (id s) k ω, h, exchange_exchange _ _ _ _⟩
    have hsub : {ω : Draw T K L | WinAt ro id ω.r (exchange idOf (id s) k ω).f
        (formal ro cls ref A ω.r (exchange idOf (id s) k ω).f T) s k} ⊆
        {ω | Asks ro cls ref A s k ω} ∪ ({ω | Finds ro cls ref A s k ω} ∪ {ω | Collides k ω}) := by
      rintro ω ⟨p, t, o, rest, hrun, hst, ht, halone, hfirst⟩
      exact win_exchange hf s k ω hrun hst ht halone hfirst
    have hA := card_update (fun ω : Draw T K L => Asks ro cls ref A s k ω) (.inl k) T fun ω => by
      have h1 := ncard_asked (blindRun ro cls ref A s k ω T) (fun l m => ∃ c, m = .ask (.inr (.inl (c, l)))) (by
        rintro l l' m ⟨c, rfl⟩ ⟨c', h⟩
        simp only [Act.ask.injEq, Sum.inr.injEq, Sum.inl.injEq, Prod.mk.injEq] at h
        exact h.2)
      rw [blindRun, sym_length] at h1
      refine (Set.ncard_le_ncard ?_ (Set.toFinite _)).trans h1
      rintro z ⟨c, o, hz⟩
      rw [blindRun, (blind_update s k ω z).1, Function.update_self] at hz
      exact ⟨_, o, ⟨c, rfl⟩, hz⟩
    have hB := card_update (fun ω : Draw T K L => Finds ro cls ref A s k ω) (.inr (.inr (ro.expect s))) T fun ω => by
      have h1 := ncard_asked (blindRun ro cls ref A s k ω T) (fun l m => m = .ask (.inr (.inr (s, l)))) (by
        rintro l l' m rfl h
        simp only [Act.ask.injEq, Sum.inr.injEq, Prod.mk.injEq] at h
        exact h.2)
      rw [blindRun, sym_length] at h1
      refine (Set.ncard_le_ncard ?_ (Set.toFinite _)).trans h1
      rintro z ⟨o, hz⟩
      rw [blindRun, (blind_update s k ω z).2, Function.update_self] at hz
      exact ⟨_, o, rfl, hz⟩
    have hC := card_update (fun ω : Draw T K L => Collides k ω) (.inl k) T fun ω => by
      refine (Set.ncard_le_ncard (t := Set.range fun i : Fin T => ω (.inl i)) ?_ (Set.toFinite _)).trans ?_
      · rintro z ⟨i, hi, hz⟩
        rw [Function.update_self, Function.update_of_ne (by simpa using hi)] at hz
        exact ⟨i, hz⟩
      · rw [← Set.image_univ]
        refine (Set.ncard_image_le (Set.toFinite _)).trans ?_
        rw [Set.ncard_univ, Nat.card_eq_fintype_card, Fintype.card_fin]
    rw [hex]
    calc _ ≤ Fintype.card L * ({ω | Asks ro cls ref A s k ω}.ncard + ({ω | Finds ro cls ref A s k ω}.ncard +
            {ω : Draw T K L | Collides k ω}.ncard)) :=
          Nat.mul_le_mul_left _ ((Set.ncard_le_ncard hsub (Set.toFinite _)).trans ((Set.ncard_union_le _ _).trans
            (Nat.add_le_add_left (Set.ncard_union_le _ _) _)))
      _ ≤ _ := by rw [Nat.mul_add, Nat.mul_add]; linarith
  refine Nat.le_of_mul_le_mul_right ?_ (Nat.pow_pos hL0 : 0 < Fintype.card L ^ Fintype.card K)
  calc _ = Fintype.card L * {ω : Draw T K L | (e ω).1 ∈ S}.ncard := by rw [hlift]; ring
    _ ≤ Fintype.card L * (⋃ x ∈ (Finset.univ : Finset (Fin n × Fin T)),
          {ω : Draw T K L | WinAt ro id ω.r ω.f (formal ro cls ref A ω.r ω.f T) x.1 x.2}).ncard := by
        refine Nat.mul_le_mul_left _ (Set.ncard_le_ncard ?_ (Set.toFinite _))
        intro ω hω
        obtain ⟨s, k, hk⟩ := winAt_of_win hf hω
        simp only [Finset.mem_univ, Set.iUnion_true, Set.mem_iUnion]
        exact ⟨(s, k), hk⟩
    _ ≤ Fintype.card L * ∑ x : Fin n × Fin T,
          {ω : Draw T K L | WinAt ro id ω.r ω.f (formal ro cls ref A ω.r ω.f T) x.1 x.2}.ncard :=
        Nat.mul_le_mul_left _ (ncard_biUnion_le _ _)
    _ = ∑ x : Fin n × Fin T, Fintype.card L *
          {ω : Draw T K L | WinAt ro id ω.r ω.f (formal ro cls ref A ω.r ω.f T) x.1 x.2}.ncard := Finset.mul_sum _ _ _
    _ ≤ ∑ _x : Fin n × Fin T, 3 * T * Fintype.card L ^ Fintype.card (Fin T ⊕ ((K × L) ⊕ K)) :=
        Finset.sum_le_sum fun x _ => hone x.1 x.2
    _ = _ := by
        rw [Finset.sum_const, Finset.card_univ, Fintype.card_prod, Fintype.card_fin, Fintype.card_fin, smul_eq_mul, hα]
        ring

end

/-! ## The run with values -/

/-- A step with the value instead of the number. -/
def subst (r : V → V') : Move n τ F Q M K L × Reply V → Move n τ F Q M K L × Reply V'
  | (m, .value v) => (m, .value (r v))
  | (m, .refused) => (m, .refused)
  | (m, .equal b) => (m, .equal b)

theorem status_subst (r : V → V') (h : List (Move n τ F Q M K L × Reply V)) (s : Fin n) :
    status (h.map (subst r)) s = (status h s).map fun p => (r p.1, p.2) := by
  induction h using List.reverseRecOn with
  | nil => rfl
  | append_singleton h e ih =>
    rw [List.map_append, List.map_singleton, status_snoc, status_snoc, ih]
    obtain ⟨m, o⟩ := e
    cases hs : status h s with
    | none =>
      cases m with
      | ask q => rcases q with q | x | ⟨s', t⟩ <;> cases o <;> rfl
      | compare c => cases o <;> rfl
      | send s' a =>
        cases o with
        | value v => by_cases hc : s' = s <;> simp [subst, advance, hc]
        | refused => rfl
        | equal b => rfl
    | some p =>
      obtain ⟨v, b⟩ := p
      cases m with
      | ask q =>
        rcases q with q | x | ⟨s', t⟩
        · cases o <;> cases b <;> rfl
        · cases o <;> cases b <;> rfl
        · cases b
          · by_cases hc : s' = s <;> cases o <;> simp [subst, advance, hc]
          · cases o <;> rfl
      | compare c => cases o <;> cases b <;> rfl
      | send s' a => cases o <;> cases b <;> rfl

theorem vis_subst (ro : Roles n K) (r : V → L) (f : K × L → L) (h : List (Move n τ F Q M K L × Reply V))
    (e : Move n τ F Q M K L × Reply V) :
    vis ro (View.of id f) (h.map (subst r)) (subst r e) = vis ro (View.of r f) h e := by
  obtain ⟨m, o⟩ := e
  cases m with
  | ask q =>
    rcases q with q | x | ⟨s, t⟩
    · cases o <;> rfl
    · cases o <;> rfl
    · have key : ∀ o', vis ro (View.of id f) (h.map (subst r)) (.ask (.inr (.inr (s, t))), o') =
          vis ro (View.of r f) h (.ask (.inr (.inr (s, t))), o) := by
        intro o'
        simp only [vis, status_subst]
        cases hs : status h s with
        | none => rfl
        | some p =>
          obtain ⟨v, b⟩ := p
          cases b <;> rfl
      cases o <;> exact key _
  | compare c => cases o <;> rfl
  | send s a => cases o <;> rfl

theorem see_subst (ro : Roles n K) (r : V → L) (f : K × L → L) (h : List (Move n τ F Q M K L × Reply V)) :
    see ro (View.of id f) (h.map (subst r)) = see ro (View.of r f) h := by
  induction h using List.reverseRecOn with
  | nil => rfl
  | append_singleton h e ih => rw [List.map_append, List.map_singleton, see_snoc, see_snoc, ih, vis_subst]

theorem win_subst {ro : Roles n K} {ids : Fin n → I} {r : V → L} {f : K × L → L} {h : List (Move n τ F Q M K L × Reply V)} {s : Fin n}
    (hw : Win ro ids id f (h.map (subst r)) s) : Win ro ids r f h s := by
  obtain ⟨p', t, o', rest', v', hrun, hst, ht, halone⟩ := hw
  rw [List.map_eq_append_iff] at hrun
  obtain ⟨p, l₂, rfl, rfl, h2⟩ := hrun
  rw [List.map_eq_cons_iff] at h2
  obtain ⟨⟨m, o⟩, rest, rfl, he, rfl⟩ := h2
  rw [status_subst, Option.map_eq_some_iff] at hst
  obtain ⟨⟨v, b⟩, hv, he'⟩ := hst
  simp only [Prod.mk.injEq] at he'
  obtain ⟨rfl, rfl⟩ := he'
  have hm : m = .ask (.inr (.inr (s, t))) := by
    have : (subst r (m, o)).1 = m := by cases o <;> rfl
    rw [← this, he]
  subst hm
  refine ⟨p, t, o, rest, v, rfl, hv, ht, fun s' hid hs' w b hw => ?_⟩
  refine halone s' hid hs' (r w) b ?_
  rw [status_subst, hw]
  rfl

section
variable [Field F] [Fintype τ] (cls : Fin n → M → (Q ⊕ Extra n K L) ⊕ κ) (ref : Fin n → M → Prop)

theorem look_snoc (h : List (Move n τ F Q M K L × Reply Nat)) (e : Move n τ F Q M K L × Reply Nat) (ξ : (Q ⊕ Extra n K L) ⊕ κ) :
    look cls (h ++ [e]) ξ = (look cls h ξ).or (look cls [e] ξ) := by
  simp [look, List.findSome?_append]

theorem wasSent_snoc (h : List (Move n τ F Q M K L × Reply V)) (e : Move n τ F Q M K L × Reply V) (s : Fin n) :
    wasSent (h ++ [e]) s = (wasSent h s || wasSent [e] s) := by
  simp [wasSent, List.any_append]

open Classical in
/-- The formal run of `Guess` is the one with numbers. -/
theorem lazy_sym [DecidableEq ((Q ⊕ Extra n K L) ⊕ κ)] (A : List (Move n τ F Q M K L × Reply L) → Move n τ F Q M K L) (r : Nat → L) (k j : Nat) (sent : Fin n → Option M)
    (mem : (Q ⊕ Extra n K L) ⊕ κ → Option L)
    (hsent : ∀ s, (sent s).isSome = wasSent (sym cls ref (fun h => A (h.map (subst r))) j) s)
    (hmem : ∀ ξ, mem ξ = (look cls (sym cls ref (fun h => A (h.map (subst r))) j) ξ).map r) :
    (play (idealI (F := F) (τ := τ) cls ref) A Prod.mk k sent ((sym cls ref (fun h => A (h.map (subst r))) j).map (subst r))).lazy mem
        (fun i => r (cnt (sym cls ref (fun h => A (h.map (subst r))) j) + i)) =
      (sym cls ref (fun h => A (h.map (subst r))) (j + k)).map (subst r) := by
  induction k generalizing j sent mem with
  | zero => rfl
  | succ k ih =>
    set B : List (Move n τ F Q M K L × Reply Nat) → Move n τ F Q M K L := fun h => A (h.map (subst r))
    set h := sym cls ref B j with hh
    have hsucc : sym cls ref B (j + 1) = h ++ [(B h, out cls ref h (B h))] := rfl
    rw [show j + (k + 1) = j + 1 + k by omega]
    have hA : A (h.map (subst r)) = B h := rfl
    -- a draw
    have hdraw : ∀ (m : Move n τ F Q M K L) (ξ : (Q ⊕ Extra n K L) ⊕ κ) (sent' : Fin n → Option M), B h = m → classOf cls m = some ξ →
        out cls ref h m = .value ((look cls h ξ).getD (cnt h)) → (∀ s, (sent' s).isSome = wasSent (h ++ [(m, out cls ref h m)]) s) →
        (Tree.node ξ fun l => play (idealI (F := F) (τ := τ) cls ref) A Prod.mk k sent' (h.map (subst r) ++ [(m, .value l)])).lazy mem
          (fun i => r (cnt h + i)) = (sym cls ref B (j + 1 + k)).map (subst r) := by
      intro m ξ sent' hm hc ho hs
      have hcnt : cnt (sym cls ref B (j + 1)) = cnt h + 1 := by rw [hsucc, hm, ho, cnt_snoc]
      have hlook1 : ∀ i ξ', look cls [(m, Reply.value i)] ξ' = if ξ' = ξ then some i else none := by
        intro i ξ'
        by_cases hξ : ξ' = ξ
        · subst hξ
          simp [look, hc]
        · have : ξ ≠ ξ' := fun h => hξ h.symm
          simp [look, hc, hξ, this]
      have hstep := ih (j + 1) sent'
      rw [hcnt] at hstep
      have hr : (fun i => r (cnt h + 1 + i)) = fun i => r (cnt h + (i + 1)) := by
        funext i
        congr 1
        omega
      rw [hr] at hstep
      cases hl : look cls h ξ with
      | some i =>
        rw [hl] at ho
        simp only [Tree.lazy, hmem, hl, Option.map_some]
        rw [← hstep mem (by rw [hsucc, hm]; exact hs) ?_]
        · rw [hsucc, hm, ho]
          simp [subst]
        · intro ξ'
          rw [hsucc, hm, ho, look_snoc, hlook1, hmem]
          by_cases hξ : ξ' = ξ
          · simp [hξ, hl]
          · simp [hξ]
      | none =>
        rw [hl] at ho
        simp only [Tree.lazy, hmem, hl, Option.map_none]
        rw [← hstep (Function.update mem ξ (some (r (cnt h + 0)))) (by rw [hsucc, hm]; exact hs) ?_]
        · rw [hsucc, hm, ho]
          simp [subst]
        · intro ξ'
          rw [hsucc, hm, ho, look_snoc, hlook1]
          by_cases hξ : ξ' = ξ
          · simp [hξ, hl]
          · simp [hξ, hmem]
    -- no draw
    have hnone : ∀ (m : Move n τ F Q M K L) (sent' : Fin n → Option M) (o : Reply Nat), B h = m → out cls ref h m = o → (∀ i, o ≠ .value i) →
        (∀ s, (sent' s).isSome = wasSent (h ++ [(m, o)]) s) →
        (play (idealI (F := F) (τ := τ) cls ref) A Prod.mk k sent' (h.map (subst r) ++ [subst r (m, o)])).lazy mem
          (fun i => r (cnt h + i)) = (sym cls ref B (j + 1 + k)).map (subst r) := by
      intro m sent' o hm ho hv hs
      have hcnt : cnt (sym cls ref B (j + 1)) = cnt h := by
        rw [hsucc, hm, ho, cnt_snoc]
        cases o with
        | value i => exact absurd rfl (hv i)
        | refused => rfl
        | equal b => rfl
      have hstep := ih (j + 1) sent' mem (by rw [hsucc, hm, ho]; exact hs) (by
        intro ξ'
        have hl1 : look cls [(m, o)] ξ' = none := by
          cases o with
          | value i => exact absurd rfl (hv i)
          | refused => rfl
          | equal b => rfl
        rw [hsucc, hm, ho, look_snoc, hl1, hmem]
        simp)
      rw [hcnt] at hstep
      rw [← hstep, hsucc, hm, ho]
      simp
    cases hB : B h with
    | ask q =>
      simp only [play, hA, hB]
      refine hdraw (.ask q) (.inl q) sent hB rfl rfl fun s => ?_
      rw [wasSent_snoc, hsent]
      simp [wasSent]
    | compare c =>
      simp only [play, hA, hB]
      refine hnone (.compare c) sent (.equal (decide (c = 0))) hB (by simp only [out]; congr) (by simp) fun s => ?_
      rw [wasSent_snoc, hsent]
      simp [wasSent]
    | send s a =>
      have hws : ∀ (s' : Fin n) (o : Reply Nat), (Function.update sent s (some a) s').isSome = wasSent (h ++ [(.send s a, o)]) s' := by
        intro s' o
        rw [wasSent_snoc]
        by_cases hs' : s' = s
        · subst hs'
          simp [wasSent]
        · have : s ≠ s' := fun h => hs' h.symm
          rw [Function.update_of_ne hs', hsent]
          simp [wasSent, this]
      simp only [play, hA, hB]
      by_cases h1 : (sent s).isSome = true
      · have h1' : wasSent h s = true := by rw [← hsent, h1]
        rw [if_pos h1]
        refine hnone (.send s a) sent .refused hB (by simp [out, h1']) (by simp) fun s' => ?_
        rw [wasSent_snoc, hsent]
        by_cases hs' : s = s'
        · subst hs'
          rw [h1']
          rfl
        · simp [wasSent, hs']
      · have h1' : wasSent h s = false := by
          rw [← hsent]
          simpa using h1
        rw [if_neg h1]
        by_cases h2 : ref s a
        · simp only [idealI, h2, if_true]
          exact hnone (.send s a) (Function.update sent s (some a)) .refused hB (by simp [out, h1', h2]) (by simp) fun s' => hws s' _
        · simp only [idealI, h2, if_false]
          exact hdraw (.send s a) (cls s a) (Function.update sent s (some a)) hB rfl (by simp [out, h1', h2]) fun s' => hws s' _

end

section
variable {ι X : Type} [Field F] [Fintype τ]

/-- The points with those of the further steps. -/
def ptE (n : Nat) (K L : Type) (pt : (τ → F) × ι → Q → X) (w : (τ → F) × ι) : Q ⊕ Extra n K L → X ⊕ Extra n K L := Sum.map (pt w) id

/-- The secrets among them. -/
def secE (K L : Type) (sec : (τ → F) × ι → Fin n → M → Option X) (w : (τ → F) × ι) (s : Fin n) (a : M) : Option (X ⊕ Extra n K L) :=
  (sec w s a).map .inl

/-- Their formal points. -/
def clsE (K L : Type) (cls : Fin n → M → Q ⊕ κ) (s : Fin n) (a : M) : (Q ⊕ Extra n K L) ⊕ κ := (cls s a).map .inl id

theorem clsE_inj {K L : Type} {cls : Fin n → M → Q ⊕ κ} {s s' : Fin n} {a a' : M} :
    clsE K L cls s a = clsE K L cls s' a' ↔ cls s a = cls s' a' := by
  have : Function.Injective (Sum.map Sum.inl id : Q ⊕ κ → (Q ⊕ Extra n K L) ⊕ κ) :=
    Function.Injective.sumMap Sum.inl_injective Function.injective_id
  exact this.eq_iff

variable {pt : (τ → F) × ι → Q → X} {sec : (τ → F) × ι → Fin n → M → Option X} {cls : Fin n → M → Q ⊕ κ} {ref : Fin n → M → Prop}
  {triv : Fin n → M → Set ι} {t : Nat} {W : Set ((τ → F) × ι)}

/-- The laws hold with the further steps. -/
noncomputable def lawsE (K L : Type) (hL : Laws pt sec cls ref triv t W) :
    Laws (ptE n K L pt) (secE K L sec) (clsE K L cls) ref triv t W where
  qq q q' := match q, q' with
    | .inl q, .inl q' => hL.qq q q'
    | _, _ => 0
  qs j s a q := match q with
    | .inl q => hL.qs j s a q
    | .inr _ => 0
  ss := hL.ss
  zz := hL.zz
  deg_qq q q' := by
    rcases q with q | q <;> rcases q' with q' | q'
    · exact hL.deg_qq q q'
    all_goals simp
  deg_qs j s a q := by
    rcases q with q | q
    · exact hL.deg_qs j s a q
    · simp
  deg_ss := hL.deg_ss
  deg_zz := hL.deg_zz
  triv_card := hL.triv_card
  ask_ask w hw q q' hne h := by
    rcases q with q | q <;> rcases q' with q' | q'
    · exact hL.ask_ask w hw q q' (fun e => hne (by rw [e])) (by simpa [ptE] using h)
    · simp [ptE] at h
    · simp [ptE] at h
    · simp only [ptE, Sum.map_inr, id_eq, Sum.inr.injEq] at h
      exact absurd (by rw [h]) hne
  ask_send w hw s a q hne h := by
    rcases q with q | q
    · refine hL.ask_send w hw s a q (fun e => hne (by rw [clsE, e]; rfl)) ?_
      simp only [secE, ptE, Sum.map_inl, Option.map_eq_some_iff] at h
      obtain ⟨x, hx, he⟩ := h
      rw [hx, Sum.inl_injective he]
    · simp [secE, ptE] at h
  send_send w hw s a s' a' x hne h h' := by
    simp only [secE, Option.map_eq_some_iff] at h h'
    obtain ⟨y, hy, rfl⟩ := h
    obtain ⟨y', hy', he⟩ := h'
    exact hL.send_send w hw s a s' a' y (fun e => hne (clsE_inj.2 e)) hy (by rw [hy', Sum.inl_injective he])
  same w hw s a s' a' h := by
    rw [secE, secE, hL.same w hw s a s' a' (clsE_inj.1 h)]
  opened w hw s a q h := by
    rcases q with q | q
    · rw [secE, hL.opened w hw s a q ?_]
      · rfl
      · rw [clsE] at h
        cases hc : cls s a with
        | inl q' =>
          rw [hc] at h
          simp only [Sum.map_inl, Sum.inl.injEq] at h
          rw [h]
        | inr c =>
          rw [hc] at h
          simp at h
    · rw [clsE] at h
      cases hc : cls s a <;> rw [hc] at h <;> simp at h
  refuse w hw s a := by
    refine (hL.refuse w hw s a).imp_left fun h => ?_
    rw [← h, secE, Option.map_eq_none_iff]

variable [Fintype F] [Fintype ι] [Nonempty ι] [Fintype L] [Inhabited L] [Fintype X] [Fintype K]

/-- The run of the attacker `A` with the hash function `ρ` and the tags `f`. -/
noncomputable def realRun (pt : (τ → F) × ι → Q → X) (sec : (τ → F) × ι → Fin n → M → Option X) (ro : Roles n K)
    (A : List (Seen L) → Move n τ F Q M K L) (T : Nat) (w : (τ → F) × ι) (ρ : X ⊕ Extra n K L → L) (f : K × L → L) :
    List (Move n τ F Q M K L × Reply L) :=
  (play (realI (ptE n K L pt) (secE K L sec) w) (fun h => A (see ro (View.of id f) h)) Prod.mk T (fun _ => none) []).eval ρ

open Classical in
/-- For fixed tags and draws, an event in the run with values. -/
theorem card_fixed (hL : Laws pt sec cls ref triv t W) (ro : Roles n K) (A : List (Seen L) → Move n τ F Q M K L) (T : Nat)
    (f : K × L → L) (r : Fin T → L) (P : List (Move n τ F Q M K L × Reply L) → Prop) (b : Prop)
    (hb : P ((formal ro (clsE K L cls) ref A (Tree.extend r) f T).map (subst (Tree.extend r))) → b) :
    Fintype.card F * {w | w ∈ W ∧ P (@Tree.lazy _ _ _ (fun a b => Classical.propDecidable (a = b)) (fun _ => none) (Tree.extend r)
        (play (realI (ptE n K L pt) (secE K L sec) w) (fun h => A (see ro (View.of id f) h)) Prod.mk T (fun _ => none) []))}.ncard ≤
      (if b then Fintype.card F * (Fintype.card F ^ Fintype.card τ * Fintype.card ι) else 0) +
      (t * n * Fintype.card F + T * (T + 1) * Fintype.card ι) * Fintype.card F ^ Fintype.card τ := by
  have hlazy : ∀ inst : DecidableEq ((Q ⊕ Extra n K L) ⊕ κ), @Tree.lazy _ _ _ inst (fun _ => none) (Tree.extend r)
        (play (idealI (F := F) (τ := τ) (clsE K L cls) ref) (fun h => A (see ro (View.of id f) h)) Prod.mk T (fun _ => none) []) = (formal ro (clsE K L cls) ref A (Tree.extend r) f T).map (subst (Tree.extend r)) := by
    intro _
    have h := lazy_sym (F := F) (clsE K L cls) ref (fun h => A (see ro (View.of id f) h)) (Tree.extend r) T 0 (fun _ => none) (fun _ => none)
      (by simp [sym, wasSent]) (by simp [sym, look])
    simp only [see_subst, sym, List.map_nil, Nat.zero_add, cnt, List.filter_nil, List.length_nil] at h
    exact h
  have h := (card_formal_lazy (ptE n K L pt) (secE K L sec) (clsE K L cls) ref triv (fun h => A (see ro (View.of id f) h)) Prod.mk W
    (lawsE K L hL) P T (Tree.extend r)).1
  refine h.trans (Nat.add_le_add_right ?_ _)
  rw [hlazy]
  by_cases hr : b
  · rw [if_pos hr]
    refine Nat.mul_le_mul_left _ ((Set.ncard_le_ncard (Set.subset_univ _) (Set.toFinite _)).trans ?_)
    rw [Set.ncard_univ, Nat.card_eq_fintype_card, Fintype.card_prod, Fintype.card_fun]
  · rw [if_neg hr]
    have : {w | w ∈ W ∧ P ((formal ro (clsE K L cls) ref A (Tree.extend r) f T).map (subst (Tree.extend r)))} = ∅ := by
      ext w
      simp only [Set.mem_ofPred_eq, Set.mem_empty_iff_false, iff_false, not_and]
      exact fun _ hs => hr (hb hs)
    rw [this]
    simp

open Classical in
/-- The same for all draws. -/
theorem card_tags (hL : Laws pt sec cls ref triv t W) (ro : Roles n K) (A : List (Seen L) → Move n τ F Q M K L) (T : Nat)
    (f : K × L → L) (P : List (Move n τ F Q M K L × Reply L) → Prop) (b : (Fin T → L) → Prop)
    (hb : ∀ r, P ((formal ro (clsE K L cls) ref A (Tree.extend r) f T).map (subst (Tree.extend r))) → b r) :
    Fintype.card L ^ T * (Fintype.card F *
        {w : ((τ → F) × ι) × (X ⊕ Extra n K L → L) | w.1 ∈ W ∧ P (realRun pt sec ro A T w.1 w.2 f)}.ncard) ≤
      Fintype.card L ^ Fintype.card (X ⊕ Extra n K L) *
      (Fintype.card F * (Fintype.card F ^ Fintype.card τ * Fintype.card ι) * (∑ r : Fin T → L, if b r then 1 else 0) +
        Fintype.card L ^ T * ((t * n * Fintype.card F + T * (T + 1) * Fintype.card ι) * Fintype.card F ^ Fintype.card τ)) := by
  have h1 := card_lazy_pairs (L := L) (ptE n K L pt) (secE K L sec) (fun h => A (see ro (View.of id f) h)) Prod.mk W (fun _ h => P h) T
  have h2 := Finset.sum_le_sum (s := Finset.univ) fun r (_ : r ∈ Finset.univ) => card_fixed hL ro A T f r P (b r) (hb r)
  rw [Finset.sum_add_distrib, Finset.sum_const, Finset.card_univ, Fintype.card_fun, Fintype.card_fin, smul_eq_mul, ← Finset.mul_sum] at h2
  have h3 : (∑ r : Fin T → L, if b r then Fintype.card F * (Fintype.card F ^ Fintype.card τ * Fintype.card ι) else 0) =
      Fintype.card F * (Fintype.card F ^ Fintype.card τ * Fintype.card ι) * ∑ r : Fin T → L, if b r then 1 else 0 := by
    rw [Finset.mul_sum]
    exact Finset.sum_congr rfl fun r _ => by split <;> simp
  rw [h3] at h2
  rw [mul_left_comm]
  refine (Nat.mul_le_mul_left _ (le_of_eq h1)).trans ?_
  rw [mul_left_comm]
  exact Nat.mul_le_mul_left _ h2

open Classical in
/-- **The bound.** A session accepts while no session of the same `id` that expects another tag has the same secret value for at most
`t n / |candidates| + T (T + 1) / |F| + 3 n T² / |L|` of the hash functions, tags, logarithms and candidates. -/
theorem share_win (hL : Laws pt sec cls ref triv t W) {ro : Roles n K} {ids : Fin n → I} {idOf : K → I}
    (hexpect : ∀ s, idOf (ro.expect s) = ids s) (hshown : ∀ s, ∀ c ∈ ro.shown s, idOf c = ids s ∧ c ≠ ro.expect s)
    (hreveal : ∀ s, ∀ c ∈ ro.reveal s, idOf c = ids s ∧ c ≠ ro.expect s) (hsame : ∀ s a s' a', cls s a = cls s' a' → ids s = ids s')
    (hsecret : ∀ s a q, cls s a ≠ .inl q) (A : List (Seen L) → Move n τ F Q M K L) (T : Nat) :
    share {w : (((τ → F) × ι) × (X ⊕ Extra n K L → L)) × (K × L → L) | w.1.1 ∈ W ∧
        ∃ s, Win ro ids id w.2 (realRun pt sec ro A T w.1.1 w.1.2 w.2) s} ≤
      t * n / Fintype.card ι + T * (T + 1) / Fintype.card F + 3 * n * T ^ 2 / Fintype.card L := by
  have hf : Fits (κ := κ) (Q := Q) (L := L) ro ids idOf (clsE K L cls) := by
    refine ⟨hexpect, hshown, hreveal, fun s a s' a' h => hsame s a s' a' (clsE_inj.1 h), fun s a q h => ?_⟩
    rw [clsE] at h
    cases hc : cls s a with
    | inl q' => exact hsecret s a q' hc
    | inr c =>
      rw [hc] at h
      simp at h
  have hL0 : 0 < Fintype.card L := Fintype.card_pos
  set S : Set ((Fin T → L) × (K × L → L)) := {w | ∃ s, Win ro ids (Tree.extend w.1) w.2 (formal ro (clsE K L cls) ref A (Tree.extend w.1) w.2 T) s}
  have hS := card_win_formal (T := T) (A := A) (ref := ref) hf
  let N : (K × L → L) → Nat := fun f => {w : ((τ → F) × ι) × (X ⊕ Extra n K L → L) | w.1 ∈ W ∧
    ∃ s, Win ro ids id f (realRun pt sec ro A T w.1 w.2 f) s}.ncard
  have hN : ∀ f, Fintype.card L ^ T * (Fintype.card F * N f) ≤ _ :=
    fun f => card_tags hL ro A T f (fun h => ∃ s, Win ro ids id f h s) (fun r => (r, f) ∈ S) fun r ⟨s, hs⟩ => ⟨s, win_subst hs⟩
  -- all tags
  have htot : {w : (((τ → F) × ι) × (X ⊕ Extra n K L → L)) × (K × L → L) | w.1.1 ∈ W ∧
      ∃ s, Win ro ids id w.2 (realRun pt sec ro A T w.1.1 w.1.2 w.2) s}.ncard = ∑ f, N f := by
    rw [Set.ncard_eq_toFinset_card', Set.toFinset_ofPred, Finset.card_filter, Fintype.sum_prod_type_right]
    refine Finset.sum_congr rfl fun f _ => ?_
    rw [← Finset.card_filter]
    simp only [N]
    rw [Set.ncard_eq_toFinset_card', Set.toFinset_ofPred]
  have hScard : S.ncard = ∑ f : K × L → L, ∑ r : Fin T → L, @ite ℕ ((r, f) ∈ S) (Classical.propDecidable _) 1 0 := by
    have h0 := @Finset.card_filter _ (fun x => x ∈ S) (fun x => Classical.propDecidable _) Finset.univ
    rw [← Fintype.sum_prod_type_right (fun x : (Fin T → L) × (K × L → L) => @ite ℕ (x ∈ S) (Classical.propDecidable _) 1 0), ← h0,
      ← Set.ncard_coe_finset]
    congr 1
    ext x
    simp
  have hsum := Finset.sum_le_sum (s := Finset.univ) fun f _ => hN f
  rw [← Finset.mul_sum, ← Finset.mul_sum, ← Finset.mul_sum, Finset.sum_add_distrib, ← Finset.mul_sum, ← hScard, Finset.sum_const,
    Finset.card_univ, Fintype.card_fun, Fintype.card_prod, smul_eq_mul, ← htot] at hsum
  rw [share, Nat.card_eq_fintype_card]
  simp only [Fintype.card_prod, Fintype.card_fun]
  generalize {w : (((τ → F) × ι) × (X ⊕ Extra n K L → L)) × (K × L → L) | w.1.1 ∈ W ∧
      ∃ s, Win ro ids id w.2 (realRun pt sec ro A T w.1.1 w.1.2 w.2) s}.ncard = N₀ at *
  have hS' : Fintype.card L * S.ncard ≤ _ := hS
  generalize S.ncard = s₀ at *
  generalize Fintype.card (X ⊕ Extra n K L) = x at *
  clear hScard htot hN
  have hF : (0 : ℚ) < Fintype.card F := by exact_mod_cast Fintype.card_pos
  have hι : (0 : ℚ) < Fintype.card ι := by exact_mod_cast Fintype.card_pos
  have hL1 : (0 : ℚ) < Fintype.card L := by exact_mod_cast hL0
  have h1 : (_ : ℚ) ≤ _ := Nat.cast_le.2 hsum
  have h2 : (_ : ℚ) ≤ _ := Nat.cast_le.2 hS'
  push_cast at h1 h2 ⊢
  have ha : (0 : ℚ) < Fintype.card F ^ Fintype.card τ := by positivity
  have hx : (0 : ℚ) < (Fintype.card L : ℚ) ^ x := by positivity
  have hy : (0 : ℚ) < (Fintype.card L : ℚ) ^ (Fintype.card K * Fintype.card L) := by positivity
  have hz : (0 : ℚ) < (Fintype.card L : ℚ) ^ T := by positivity
  generalize (Fintype.card F : ℚ) ^ Fintype.card τ = a at *
  generalize (Fintype.card L : ℚ) ^ x = x' at *
  generalize (Fintype.card L : ℚ) ^ (Fintype.card K * Fintype.card L) = y at *
  generalize (Fintype.card L : ℚ) ^ T = z at *
  generalize (Fintype.card F : ℚ) = q at *
  generalize (Fintype.card ι : ℚ) = i at *
  generalize (Fintype.card L : ℚ) = l at *
  have e : (t : ℚ) * n / i + T * (T + 1) / q + 3 * n * T ^ 2 / l =
      (x' * (q * (a * i) * (3 * n * T ^ 2 * (z * y)) + l * (y * (z * ((t * n * q + T * (T + 1) * i) * a))))) / (l * z * q * (a * i * x' * y)) := by
    field_simp
    ring
  have e1 : (N₀ : ℚ) / (a * i * x' * y) = l * (z * (q * N₀)) / (l * z * q * (a * i * x' * y)) := by field_simp
  have hp : 0 < l * z * q * (a * i * x' * y) := by positivity
  rw [e, e1, div_le_div_iff_of_pos_right hp]
  calc l * (z * (q * N₀)) ≤ l * (x' * (q * (a * i) * s₀ + y * (z * ((t * n * q + T * (T + 1) * i) * a)))) :=
        mul_le_mul_of_nonneg_left h1 hL1.le
    _ = x' * (q * (a * i) * (l * s₀) + l * (y * (z * ((t * n * q + T * (T + 1) * i) * a)))) := by ring
    _ ≤ _ := by
        refine mul_le_mul_of_nonneg_left (add_le_add_left (mul_le_mul_of_nonneg_left h2 (by positivity)) _) hx.le

end

end Verif.Auth
