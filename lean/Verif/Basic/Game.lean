import Verif.Basic.Uniform
import Mathlib.Data.Fintype.BigOperators
import Mathlib.Data.List.OfFn

/-!
# Counting the guesses of an active attacker

A secret `w` is fixed for `n` sessions. In each session a side draws a residue, sends a message that depends on the
residue, the secret and what went before, and accepts or not. The lemma bounds the number of secrets and generator outputs
for which some session accepts, when a message determines the residue for each secret and at most one secret accepts.
-/

namespace Verif.Game

variable {ι M : Type} {m : Nat}

/-- What an attacker saw: the message of each session and whether the session accepted. -/
abbrev Hist (M : Type) := List (M × Bool)

/-- The history of sessions run one after the other; `out h c` is the session after the history `h` with the draw `c`. -/
def hist {C : Type} (out : Hist M → C → M × Bool) (cs : List C) : Hist M := cs.foldl (fun h c => h ++ [out h c]) []

theorem hist_snoc {C : Type} (out : Hist M → C → M × Bool) (cs : List C) (c : C) :
    hist out (cs ++ [c]) = hist out cs ++ [out (hist out cs) c] := by
  simp [hist]

/-- The history before session `i`. -/
def before {C : Type} {n : Nat} (out : Hist M → C → M × Bool) (cs : Fin n → C) (i : Nat) : Hist M :=
  hist out ((List.ofFn cs).take i)

theorem before_succ {C : Type} {n : Nat} (out : Hist M → C → M × Bool) (cs : Fin n → C) (i : Fin n) :
    before out cs (i + 1) = before out cs i ++ [out (before out cs i) (cs i)] := by
  have h : (List.ofFn cs).take (i + 1) = (List.ofFn cs).take i ++ [cs i] := by
    rw [List.take_succ_eq_append_getElem (by simp)]
    simp
  rw [before, h, hist_snoc, before]

/-- Each session adds one entry. -/
theorem length_before {C : Type} {n : Nat} (out : Hist M → C → M × Bool) (cs : Fin n → C) :
    ∀ i : Nat, i ≤ n → (before out cs i).length = i := by
  intro i
  induction i with
  | zero => intro _; simp [before, hist]
  | succ i ih =>
    intro hi
    have := before_succ out cs ⟨i, hi⟩
    simp only at this
    rw [this, List.length_append, ih (by omega)]
    rfl

/-- Session `i` accepts. -/
def accepts {C : Type} {n : Nat} (out : Hist M → C → M × Bool) (cs : Fin n → C) (i : Fin n) : Prop :=
  (out (before out cs i) (cs i)).2 = true

theorem card_fibres [NeZero m] (n k : Nat) (S : Finset ι) (T : ι → (Fin n → ZMod m) → Prop) :
    {p : ι × (Fin n → Bytes) | p.1 ∈ S ∧ (∀ i, (p.2 i).length = k) ∧ T p.1 fun i => (leToNat (p.2 i) : ZMod m)}.ncard ≤
      (256 ^ k / m + 1) ^ n * {p : ι × (Fin n → ZMod m) | p.1 ∈ S ∧ T p.1 p.2}.ncard := by
  classical
  have hfin1 : {b : Fin n → Bytes | ∀ i, (b i).length = k}.Finite := by
    have : {b : Bytes | b.length = k}.Finite := by
      refine Set.Finite.subset (Set.Finite.image (leFixed k) (Finset.range (256 ^ k)).finite_toSet) ?_
      rintro b hl
      refine ⟨leToNat b, ?_, ?_⟩
      · rw [Finset.mem_coe, Finset.mem_range, ← hl]; exact leToNat_lt b
      · rw [← hl]; exact leFixed_leToNat b
    refine (Set.Finite.pi' fun _ : Fin n => this).subset fun b hb i => hb i
  have hfin : {p : ι × (Fin n → Bytes) | p.1 ∈ S ∧ (∀ i, (p.2 i).length = k) ∧
      T p.1 fun i => (leToNat (p.2 i) : ZMod m)}.Finite :=
    (S.finite_toSet.prod hfin1).subset fun p hp => ⟨hp.1, hp.2.1⟩
  have hfin2 : {p : ι × (Fin n → ZMod m) | p.1 ∈ S ∧ T p.1 p.2}.Finite :=
    (S.finite_toSet.prod Set.finite_univ).subset fun p hp => ⟨hp.1, trivial⟩
  rw [Set.ncard_eq_toFinset_card _ hfin, Set.ncard_eq_toFinset_card _ hfin2]
  let f : ι × (Fin n → Bytes) → ι × (Fin n → ZMod m) := fun p => (p.1, fun i => (leToNat (p.2 i) : ZMod m))
  refine (Finset.card_le_mul_card_image (f := f) _ ((256 ^ k / m + 1) ^ n) ?_).trans
    (Nat.mul_le_mul_left _ (Finset.card_le_card ?_))
  · rintro ⟨w, c⟩ -
    have h1 := (ncard_residues_pi n k m (· = c)).2
    have h2 : {x : Fin n → ZMod m | x = c}.ncard = 1 := by
      rw [Set.ncard_eq_one]; exact ⟨c, by ext; simp⟩
    rw [h2, mul_one] at h1
    refine le_trans ?_ h1
    rw [← Set.ncard_coe_finset]
    refine Set.ncard_le_ncard_of_injOn Prod.snd ?_ ?_ (hfin1.subset fun b hb => hb.1)
    · rintro ⟨w', b⟩ hb
      simp only [Finset.coe_filter, Set.Finite.mem_toFinset, Set.mem_ofPred_eq, f, Prod.mk.injEq] at hb
      exact ⟨hb.1.2.1, hb.2.2⟩
    · rintro ⟨w', b⟩ hb ⟨w'', b'⟩ hb' h
      simp only [Finset.coe_filter, Set.Finite.mem_toFinset, Set.mem_ofPred_eq, f, Prod.mk.injEq] at hb hb'
      rw [hb.2.1, hb'.2.1]
      exact Prod.ext rfl h
  · intro p hp
    obtain ⟨q, hq, rfl⟩ := Finset.mem_image.1 hp
    rw [Set.Finite.mem_toFinset] at hq ⊢
    exact ⟨hq.1, hq.2.2⟩

/-- Worlds without exception in which session `i` is the first that accepts. -/
theorem card_first [NeZero m] {n : Nat} (S : Finset ι) (out : ι → Hist M → ZMod m → M × Bool)
    (E : ι → Hist M → ZMod m → Prop) (Ms : Set M) (hfin : Ms.Finite) (hcard : Ms.ncard ≤ m)
    (hMs : ∀ w ∈ S, ∀ h c, (out w h c).1 ∈ Ms)
    (hinj : ∀ w ∈ S, ∀ h c c', ¬ E w h c → ¬ E w h c' → (out w h c).1 = (out w h c').1 → c = c')
    (hone : ∀ w ∈ S, ∀ w' ∈ S, ∀ h c c', ¬ E w h c → ¬ E w' h c' → (out w h c).1 = (out w' h c').1 →
      (out w h c).2 = true → (out w' h c').2 = true → w = w') (i : Fin n) :
    {p : ι × (Fin n → ZMod m) | p.1 ∈ S ∧ (accepts (out p.1) p.2 i ∧ (∀ j < i, ¬ accepts (out p.1) p.2 j) ∧
      ∀ j : Fin n, ¬ E p.1 (before (out p.1) p.2 j) (p.2 j))}.ncard ≤ m ^ n := by
  classical
  have hc : {f : Fin n → M | ∀ j, f j ∈ Ms}.ncard ≤ m ^ n := by
    have : {f : Fin n → M | ∀ j, f j ∈ Ms} = (Fintype.piFinset fun _ : Fin n => hfin.toFinset : Finset (Fin n → M)) := by
      ext f; simp
    rw [this, Set.ncard_coe_finset, Fintype.card_piFinset, Finset.prod_const, Finset.card_univ, Fintype.card_fin,
      ← Set.ncard_eq_toFinset_card _ hfin]
    exact Nat.pow_le_pow_left hcard n
  refine le_trans (Set.ncard_le_ncard_of_injOn
    (fun p (j : Fin n) => (out p.1 (before (out p.1) p.2 j) (p.2 j)).1) ?_ ?_ ?_) hc
  · rintro p ⟨hS, -⟩ j
    exact hMs _ hS _ _
  · rintro ⟨w, c⟩ ⟨hS, ha, hn, he⟩ ⟨w', c'⟩ ⟨hS', ha', hn', he'⟩ heq
    simp only at hS ha hn he hS' ha' hn' he'
    have hk : ∀ j : Fin n, (out w (before (out w) c j) (c j)).1 = (out w' (before (out w') c' j) (c' j)).1 :=
      fun j => congrFun heq j
    have hb : ∀ j : Nat, j ≤ i → before (out w) c j = before (out w') c' j := by
      intro j
      induction j with
      | zero => intro _; simp [before, hist]
      | succ j ih =>
        intro hj
        have hjn : j < n := lt_of_lt_of_le hj i.2.le
        have h1 := before_succ (out w) c ⟨j, hjn⟩
        have h2 := before_succ (out w') c' ⟨j, hjn⟩
        simp only at h1 h2
        have e := ih (by omega)
        rw [h1, h2, e]
        congr 2
        refine Prod.ext ?_ ?_
        · rw [← e]; rw [e]; have := hk ⟨j, hjn⟩; simp only at this; rw [← this, e]
        · have n1 := hn ⟨j, hjn⟩ (by rw [Fin.lt_def]; exact hj)
          have n2 := hn' ⟨j, hjn⟩ (by rw [Fin.lt_def]; exact hj)
          simp only [accepts, Bool.not_eq_true] at n1 n2
          rw [← e, n1, e, n2]
    have hww : w = w' := by
      have e := hb i le_rfl
      have a := he i
      have b := hk i
      rw [accepts] at ha ha'
      rw [e] at a b ha
      exact hone w hS w' hS' _ _ _ a (he' i) b ha ha'
    subst hww
    have hall : ∀ j : Nat, j ≤ n → before (out w) c j = before (out w) c' j := by
      intro j
      induction j with
      | zero => intro _; simp [before, hist]
      | succ j ih =>
        intro hj
        have h1 := before_succ (out w) c ⟨j, hj⟩
        have h2 := before_succ (out w) c' ⟨j, hj⟩
        simp only at h1 h2
        have e := ih (by omega)
        have a := he ⟨j, hj⟩
        have b := hk ⟨j, hj⟩
        simp only at a b
        rw [e] at a b
        rw [h1, h2, e, hinj w hS _ _ _ a (he' ⟨j, hj⟩) b]
    refine Prod.ext rfl (funext fun j => ?_)
    have e := hall j j.2.le
    have a := he j
    have b := hk j
    rw [e] at a b
    exact hinj w hS _ _ _ a (he' j) b
  · exact (Set.Finite.pi' fun _ : Fin n => hfin).subset fun f hf j => hf j

/-- The bound: at most `n` times one world for each tuple of messages, and the exceptional worlds. -/
theorem card_wins [NeZero m] {n k : Nat} (S : Finset ι) (out : ι → Hist M → Bytes → M × Bool)
    (outR : ι → Hist M → ZMod m → M × Bool)
    (hout : ∀ w ∈ S, ∀ h b, b.length = k → out w h b = outR w h (leToNat b : ZMod m))
    (E : ι → Hist M → ZMod m → Prop) (Ms : Set M) (hfin : Ms.Finite) (hcard : Ms.ncard ≤ m)
    (hMs : ∀ w ∈ S, ∀ h c, (outR w h c).1 ∈ Ms)
    (hinj : ∀ w ∈ S, ∀ h c c', ¬ E w h c → ¬ E w h c' → (outR w h c).1 = (outR w h c').1 → c = c')
    (hone : ∀ w ∈ S, ∀ w' ∈ S, ∀ h c c', ¬ E w h c → ¬ E w' h c' → (outR w h c).1 = (outR w' h c').1 →
      (outR w h c).2 = true → (outR w' h c').2 = true → w = w') :
    {p : ι × (Fin n → Bytes) | p.1 ∈ S ∧ (∀ i, (p.2 i).length = k) ∧ ∃ i, accepts (out p.1) p.2 i}.ncard ≤
      n * (256 ^ k + m) ^ n +
      {p : ι × (Fin n → Bytes) | p.1 ∈ S ∧ (∀ i, (p.2 i).length = k) ∧
        ∃ i : Fin n, E p.1 (before (out p.1) p.2 i) (leToNat (p.2 i) : ZMod m)}.ncard := by
  classical
  have hbef : ∀ p : ι × (Fin n → Bytes), p.1 ∈ S → (∀ i, (p.2 i).length = k) → ∀ i : Nat, i ≤ n →
      before (out p.1) p.2 i = before (outR p.1) (fun j => (leToNat (p.2 j) : ZMod m)) i := by
    intro p hS hl i
    induction i with
    | zero => intro _; simp [before, hist]
    | succ i ih =>
      intro hi
      have h1 := before_succ (out p.1) p.2 ⟨i, hi⟩
      have h2 := before_succ (outR p.1) (fun j => (leToNat (p.2 j) : ZMod m)) ⟨i, hi⟩
      simp only at h1 h2
      rw [h1, h2, ih (by omega), hout _ hS _ _ (hl _)]
  have hacc : ∀ p : ι × (Fin n → Bytes), p.1 ∈ S → (∀ i, (p.2 i).length = k) → ∀ i,
      (accepts (out p.1) p.2 i ↔ accepts (outR p.1) (fun j => (leToNat (p.2 j) : ZMod m)) i) := by
    intro p hS hl i
    rw [accepts, accepts, hbef p hS hl i i.2.le, hout _ hS _ _ (hl _)]
  let T : Fin n → ι → (Fin n → ZMod m) → Prop := fun i w c =>
    accepts (outR w) c i ∧ (∀ j < i, ¬ accepts (outR w) c j) ∧ ∀ j : Fin n, ¬ E w (before (outR w) c j) (c j)
  let A : Fin n → Set (ι × (Fin n → Bytes)) := fun i =>
    {p | p.1 ∈ S ∧ (∀ i, (p.2 i).length = k) ∧ T i p.1 fun i => (leToNat (p.2 i) : ZMod m)}
  have hfin1 : {b : Fin n → Bytes | ∀ i, (b i).length = k}.Finite := by
    have : {b : Bytes | b.length = k}.Finite := by
      refine Set.Finite.subset (Set.Finite.image (leFixed k) (Finset.range (256 ^ k)).finite_toSet) ?_
      rintro b hl
      refine ⟨leToNat b, ?_, ?_⟩
      · rw [Finset.mem_coe, Finset.mem_range, ← hl]; exact leToNat_lt b
      · rw [← hl]; exact leFixed_leToNat b
    refine (Set.Finite.pi' fun _ : Fin n => this).subset fun b hb i => hb i
  have hF : {p : ι × (Fin n → Bytes) | p.1 ∈ S ∧ ∀ i, (p.2 i).length = k}.Finite :=
    (S.finite_toSet.prod hfin1).subset fun p hp => ⟨hp.1, hp.2⟩
  have hA : ∀ i, (A i).ncard ≤ (256 ^ k + m) ^ n := by
    intro i
    refine (card_fibres n k S (T i)).trans ((Nat.mul_le_mul_left _
      (card_first S outR E Ms hfin hcard hMs hinj hone i)).trans ?_)
    rw [← mul_pow]
    refine Nat.pow_le_pow_left ?_ n
    rw [add_mul, one_mul]
    exact Nat.add_le_add_right (Nat.div_mul_le_self _ _) _
  have hAf : ∀ i, (A i).Finite := fun i => hF.subset fun p hp => ⟨hp.1, hp.2.1⟩
  refine (Set.ncard_le_ncard (t := (⋃ i, A i) ∪ {p : ι × (Fin n → Bytes) | p.1 ∈ S ∧ (∀ i, (p.2 i).length = k) ∧
    ∃ i : Fin n, E p.1 (before (out p.1) p.2 i) (leToNat (p.2 i) : ZMod m)}) ?_ ?_).trans
    ((Set.ncard_union_le _ _).trans (Nat.add_le_add_right ?_ _))
  · rintro p ⟨hS, hl, i, hi⟩
    by_cases hE : ∃ i : Fin n, E p.1 (before (out p.1) p.2 i) (leToNat (p.2 i) : ZMod m)
    · exact Or.inr ⟨hS, hl, hE⟩
    refine Or.inl (Set.mem_iUnion.2 ?_)
    have hex : ∃ j : Nat, ∃ h : j < n, accepts (out p.1) p.2 ⟨j, h⟩ := ⟨i, i.2, hi⟩
    obtain ⟨hlt, hfirst⟩ := Nat.find_spec hex
    refine ⟨⟨Nat.find hex, hlt⟩, hS, hl, (hacc p hS hl _).1 hfirst, ?_, ?_⟩
    · intro j hj ha
      exact Nat.find_min hex (Fin.lt_def.1 hj) ⟨j.2, (hacc p hS hl _).2 ha⟩
    · intro j hj
      rw [← hbef p hS hl j j.2.le] at hj
      exact hE ⟨j, hj⟩
  · exact ((Set.finite_iUnion hAf).union (hF.subset fun p hp => ⟨hp.1, hp.2.1⟩))
  · have : (⋃ i, A i) = ↑(Finset.univ.biUnion fun i => (hAf i).toFinset) := by
      ext p; simp
    rw [this, Set.ncard_coe_finset]
    refine Finset.card_biUnion_le.trans ?_
    refine (Finset.sum_le_card_nsmul _ _ ((256 ^ k + m) ^ n) fun i _ => ?_).trans ?_
    · rw [← Set.ncard_eq_toFinset_card _ (hAf i)]
      exact hA i
    · rw [Finset.card_univ, Fintype.card_fin, smul_eq_mul]

/-- Tuples of residues with a zero. -/
theorem ncard_some_zero [NeZero m] (n : Nat) : {c : Fin n → ZMod m | ∃ i, c i = 0}.ncard ≤ n * m ^ (n - 1) := by
  classical
  have hu : {c : Fin n → ZMod m | ∃ i, c i = 0} = ↑(Finset.univ.biUnion fun i : Fin n =>
      Fintype.piFinset fun j => if j = i then {(0 : ZMod m)} else Finset.univ) := by
    ext c
    simp only [Set.mem_ofPred_eq, Finset.coe_biUnion, Finset.mem_coe, Set.iUnion_true,
      Set.mem_iUnion, Fintype.mem_piFinset, Finset.coe_univ, Set.mem_univ]
    refine exists_congr fun i => ⟨fun h j => ?_, fun h => ?_⟩
    · by_cases hj : j = i
      · subst hj; simp [h]
      · simp [hj]
    · have := h i
      simpa using this
  rw [hu, Set.ncard_coe_finset]
  refine Finset.card_biUnion_le.trans ((Finset.sum_le_card_nsmul _ _ (m ^ (n - 1)) fun i _ => ?_).trans ?_)
  · rw [Fintype.card_piFinset]
    have : ∀ j : Fin n, (if j = i then {(0 : ZMod m)} else Finset.univ).card = if j = i then 1 else m := by
      intro j
      split_ifs
      · rfl
      · rw [Finset.card_univ, ZMod.card]
    simp only [this]
    rw [Finset.prod_ite, Finset.prod_const_one, one_mul, Finset.prod_const, Finset.filter_ne' Finset.univ i,
      Finset.card_erase_of_mem (Finset.mem_univ i), Finset.card_univ, Fintype.card_fin]
  · rw [Finset.card_univ, Fintype.card_fin, smul_eq_mul]

/-- Worlds in which some draw is zero. -/
theorem card_zero [NeZero m] (n k : Nat) (S : Finset ι) :
    {p : ι × (Fin n → Bytes) | p.1 ∈ S ∧ (∀ i, (p.2 i).length = k) ∧ ∃ i, (leToNat (p.2 i) : ZMod m) = 0}.ncard ≤
      (256 ^ k / m + 1) ^ n * (S.card * (n * m ^ (n - 1))) := by
  classical
  refine (card_fibres n k S fun _ c => ∃ i, c i = 0).trans (Nat.mul_le_mul_left _ ?_)
  have : {p : ι × (Fin n → ZMod m) | p.1 ∈ S ∧ ∃ i, p.2 i = 0} = (S : Set ι) ×ˢ {c : Fin n → ZMod m | ∃ i, c i = 0} := by
    ext p; simp
  rw [this, Set.ncard_prod, Set.ncard_coe_finset]
  exact Nat.mul_le_mul_left _ (ncard_some_zero n)

/-- The number of generator outputs. -/
theorem ncard_outputs (n k : Nat) : {b : Fin n → Bytes | ∀ i, (b i).length = k}.ncard = (256 ^ k) ^ n := by
  classical
  have hu : {b : Fin n → Bytes | ∀ i, (b i).length = k} =
      (fun (f : Fin n → Fin (256 ^ k)) i => leFixed k (f i)) '' Set.univ := by
    ext b
    simp only [Set.mem_ofPred_eq, Set.image_univ, Set.mem_range]
    constructor
    · intro h
      refine ⟨fun i => ⟨leToNat (b i), by rw [← h i]; exact leToNat_lt _⟩, funext fun i => ?_⟩
      simp only
      rw [← h i]
      exact leFixed_leToNat _
    · rintro ⟨f, rfl⟩ i
      exact leFixed_length _ _
  rw [hu, Set.InjOn.ncard_image, Set.ncard_univ, Nat.card_eq_fintype_card, Fintype.card_fun, Fintype.card_fin,
    Fintype.card_fin]
  intro f _ f' _ h
  funext i
  have := congrArg leToNat (congrFun h i)
  simp only [leToNat_leFixed, Nat.mod_eq_of_lt (f i).2, Nat.mod_eq_of_lt (f' i).2] at this
  exact Fin.ext this

end Verif.Game
