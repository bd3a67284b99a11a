import Verif.Basic.Touch
import Verif.Srp.Oracle
import Verif.Srp.SafePrime
import Mathlib.Data.Set.Card.Arithmetic

/-!
# C99: what it takes to be accepted by an SRP server

An attacker without any computational bound talks to servers that hold the verifier of one of several candidate passwords. The hash function is
drawn at random for all inputs up to some length, except the one that gives `k`. Then one session lets the attacker try one candidate.
-/

set_option linter.unusedSectionVars false

namespace Verif.Srp.Guessing
open Guess SafePrime Touch

/-- What an attacker does next: ask for a hash value, or send a server an `A` and a proof. -/
inductive Move (n : Nat) where
  | ask (x : Bytes)
  | reply (i : Fin n) (A m : Bytes)

/-- An attacker knows the public values of the servers and the answers to what it did before. -/
abbrev Attacker (n : Nat) := (Fin n → Bytes) → List (Option Bytes) → Move n

/-- The answer of a server to a public value and a proof: its own proof if it accepts (srp/src/server.rs:129-164, 175-187). -/
def answer (D : Digest) (p : SrpGroup) (b v A m : Bytes) : Option Bytes :=
  match Server.processReply D p b v A with
  | .ok sv => match sv.verifyClient m with
    | .ok () => some sv.proof
    | _ => none
  | _ => none

variable {n : Nat} (D : Digest) (p : SrpGroup)

section
variable (A : Attacker n) (Bs : Fin n → Bytes) (V : Fin n → Bytes → Bytes → Option Bytes)

/-- One move: what the attacker has seen, and the sessions that have got a reply. A session answers one reply. -/
def step (s : List (Option Bytes) × List (Fin n)) : List (Option Bytes) × List (Fin n) :=
  match A Bs s.1 with
  | .ask x => (s.1 ++ [some (D.hash x)], s.2)
  | .reply i a m => (s.1 ++ [if i ∈ s.2 then none else V i a m], i :: s.2)

/-- The state after `t` moves. -/
def run : Nat → List (Option Bytes) × List (Fin n)
  | 0 => ([], [])
  | t + 1 => step D A Bs V (run t)

/-- One of the first `T` moves is a reply that is accepted. -/
def Accepted (T : Nat) : Prop :=
  ∃ t < T, ∃ i a m, A Bs (run D A Bs V t).1 = .reply i a m ∧ i ∉ (run D A Bs V t).2 ∧ V i a m ≠ none

variable {D A Bs V}

/-- Until the first reply is accepted, the attacker sees what it sees if all replies are refused. -/
theorem run_refused {t : Nat} (h : ∀ s < t, ∀ i a m, A Bs (run D A Bs V s).1 = .reply i a m → i ∉ (run D A Bs V s).2 → V i a m = none) :
    run D A Bs V t = run D A Bs (fun _ _ _ => none) t := by
  induction t with
  | zero => rfl
  | succ t ih =>
    have ih := ih fun s hs => h s (by omega)
    rw [run, run, ← ih, step, step]
    have h' := h t (by omega)
    cases hm : A Bs (run D A Bs V t).1 with
    | ask x => rfl
    | reply i a m =>
      simp only [ite_self]
      split
      · rfl
      · rename_i hi; rw [h' i a m hm hi]

theorem accepted_refused {T : Nat} (h : Accepted D A Bs V T) :
    ∃ t < T, ∃ i a m, A Bs (run D A Bs (fun _ _ _ => none) t).1 = .reply i a m ∧
      i ∉ (run D A Bs (fun _ _ _ => none) t).2 ∧ V i a m ≠ none := by
  classical
  have hex : ∃ t, t < T ∧ ∃ i a m, A Bs (run D A Bs V t).1 = .reply i a m ∧ i ∉ (run D A Bs V t).2 ∧ V i a m ≠ none := h
  obtain ⟨ht, i, a, m, h1, h2, h3⟩ := Nat.find_spec hex
  have e := run_refused (D := D) (A := A) (Bs := Bs) (V := V) (t := Nat.find hex) fun s hs i a m hm hi => by
    by_contra hV
    exact Nat.find_min hex hs ⟨by omega, i, a, m, hm, hi, hV⟩
  exact ⟨Nat.find hex, ht, i, a, m, e ▸ h1, e ▸ h2, h3⟩

/-- The sessions that have got a reply are those that the attacker has sent one. -/
theorem mem_used {t : Nat} {i : Fin n} : i ∈ (run D A Bs V t).2 ↔ ∃ s < t, ∃ a m, A Bs (run D A Bs V s).1 = .reply i a m := by
  induction t with
  | zero => simp [run]
  | succ t ih =>
    have hstep : i ∈ (run D A Bs V (t + 1)).2 ↔ i ∈ (run D A Bs V t).2 ∨ ∃ a m, A Bs (run D A Bs V t).1 = .reply i a m := by
      rw [run, step]
      cases hm : A Bs (run D A Bs V t).1 with
      | ask x => simp
      | reply i' a m => simp only [List.mem_cons, Move.reply.injEq]; constructor
                        · rintro (rfl | h)
                          · exact Or.inr ⟨a, m, rfl, rfl, rfl⟩
                          · exact Or.inl h
                        · rintro (h | ⟨_, _, h, -⟩)
                          · exact Or.inr h
                          · exact Or.inl h.symm
    rw [hstep, ih]
    constructor
    · rintro (⟨s, hs, h⟩ | h)
      · exact ⟨s, by omega, h⟩
      · exact ⟨t, by omega, h⟩
    · rintro ⟨s, hs, h⟩
      rcases Nat.lt_succ_iff_lt_or_eq.1 hs with h' | rfl
      · exact Or.inl ⟨s, h', h⟩
      · exact Or.inr h
end

/-- The input of the hash for `k` (srp/src/utils.rs:17-28). -/
def kIn : Bytes := toBytesBE p.n ++ Spec.PAD (toBytesBE p.n).length (toBytesBE p.g)

/-- The inputs for which the hash function is drawn. -/
abbrev Inputs (L : Nat) := {x : Bytes // x.length ≤ L ∧ x ≠ kIn p}

instance (L : Nat) : Finite (Inputs p L) := by
  have h : (⋃ k ∈ Finset.range (L + 1), {x : Bytes | x.length = k}).Finite :=
    (Finset.finite_toSet _).biUnion fun k _ => finite_bytes k
  refine (h.subset fun x (hx : x.length ≤ L ∧ _) => ?_).to_subtype
  exact Set.mem_biUnion (x := x.length) (by simpa using Nat.lt_succ_of_le hx.1) rfl

noncomputable instance (L : Nat) : Fintype (Inputs p L) := Fintype.ofFinite _

instance : Nonempty D.Out := ⟨⟨D.hash [], D.hash_length []⟩⟩

/-- The hash function with the values `f`. -/
def drawn {L : Nat} (f : Inputs p L → D.Out) : Digest :=
  D.program fun x => if h : x.length ≤ L ∧ x ≠ kIn p then some (f ⟨x, h⟩) else none

variable {D p}

theorem drawn_in {L : Nat} (f : Inputs p L → D.Out) (x : Inputs p L) : (drawn D p f).hash x.1 = (f x).1 := by
  simp only [drawn, Digest.program, dif_pos x.2]

theorem drawn_out {L : Nat} (f : Inputs p L → D.Out) {x : Bytes} (h : ¬ (x.length ≤ L ∧ x ≠ kIn p)) :
    (drawn D p f).hash x = D.hash x := by
  simp only [drawn, Digest.program, dif_neg h]

theorem drawn_k {L : Nat} (f : Inputs p L → D.Out) : Spec.k (drawn D p f) p.n p.g = Spec.k D p.n p.g := by
  rw [Spec.k, Spec.k, Spec.Hint, Spec.Hint]
  congr 1
  exact drawn_out f fun h => h.2 rfl

/-- The input of the hash that gives `u` for the number sent as `A` and a `B`. -/
def uIn (a B : Bytes) : Bytes := toBytesBE (beToNat a) ++ B

variable (p)

/-- A reply that the bound is about: `A` is not `1` or `-1` (these the server does not refuse), the hash inputs that follow are not too long
and none can be the one for `k`. -/
def Counts (L : Nat) (B a : Bytes) : Prop :=
  ¬ beToNat a ≡ 1 [MOD p.n] ∧ ¬ p.n ∣ beToNat a + 1 ∧ (uIn a B).length + (toBytesBE p.n).length ≤ L ∧ ¬ uIn a B <+: kIn p

variable {p}

/-! ## Coincidences -/

theorem coincide (h : SafeGroup p) (h5 : p.n ≠ 5) {a v v' : ZMod p.n} (ha : a ≠ 0) (ha1 : a ≠ 1) (ha2 : a ≠ -1) (hv : v ≠ 0) (hv' : v' ≠ 0)
    {b b' : Nat} (hb : (p.g : ZMod p.n) ^ b ≠ (p.g : ZMod p.n) ^ b') (hb' : (p.g : ZMod p.n) ^ b ≠ -(p.g : ZMod p.n) ^ b') {u u' : Nat}
    (hu : Spec.serverS a v u b = Spec.serverS a v' u b') (hu' : Spec.serverS a v u' b = Spec.serverS a v' u' b') :
    u ≡ u' [MOD (p.n - 1) / 2] := by
  have : Fact p.n.Prime := ⟨h.1⟩
  have key : ∀ u, Spec.serverS a v u b = Spec.serverS a v' u b' → (v ^ b / v' ^ b') ^ u = a ^ b' / a ^ b := by
    intro u hu
    rw [Spec.serverS, Spec.serverS] at hu
    have e1 : a ^ b ≠ 0 := pow_ne_zero _ ha
    have e2 : (v' ^ b') ^ u ≠ 0 := pow_ne_zero _ (pow_ne_zero _ hv')
    rw [div_pow, div_eq_div_iff e2 e1]
    calc (v ^ b) ^ u * a ^ b = (a * v ^ u) ^ b := by rw [mul_pow]; ring
      _ = (a * v' ^ u) ^ b' := hu
      _ = _ := by rw [mul_pow]; ring
  have hW0 : v ^ b / v' ^ b' ≠ 0 := div_ne_zero (pow_ne_zero _ hv) (pow_ne_zero _ hv')
  have k1 := key u hu
  have k2 := key u' hu'
  by_cases hW : (v ^ b / v' ^ b') ^ 2 = 1
  · exfalso
    have e1 : (a ^ b' / a ^ b) ^ 2 = 1 := by rw [← k1, ← pow_mul, mul_comm, pow_mul, hW, one_pow]
    have e2 : a ^ (2 * b') = a ^ (2 * b) := by
      have e0 : a ^ b ≠ 0 := pow_ne_zero _ ha
      rw [div_pow, div_eq_one_iff_eq (pow_ne_zero _ e0)] at e1
      rw [mul_comm 2 b', mul_comm 2 b, pow_mul, pow_mul, e1]
    have e3 := pow_inj h ha ha1 ha2 e2
    have hodd := (odd h)
    have hq := h.2.1
    have e4 : b' ≡ b [MOD (p.n - 1) / 2] := by
      refine Nat.ModEq.cancel_left_of_coprime (c := 2) ?_ e3
      have hne : (p.n - 1) / 2 ≠ 2 := by omega
      exact (Nat.coprime_primes hq Nat.prime_two).2 hne
    have e5 : (p.g : ZMod p.n) ^ (2 * b') = (p.g : ZMod p.n) ^ (2 * b) := by
      rw [pow_eq_iff h, hodd.1]
      exact Nat.ModEq.mul_left' 2 e4
    rw [mul_comm 2 b', mul_comm 2 b, pow_mul, pow_mul, sq_eq_sq_iff_eq_or_eq_neg] at e5
    rcases e5 with e5 | e5
    · exact hb e5.symm
    · exact hb' (by rw [e5, neg_neg])
  · have hn1 : v ^ b / v' ^ b' ≠ 1 := fun e => hW (by rw [e, one_pow])
    have hn2 : v ^ b / v' ^ b' ≠ -1 := fun e => hW (by rw [e]; ring)
    exact pow_inj h hW0 hn1 hn2 (k1.trans k2.symm)

/-- Among the hash values there are few with the same residue. -/
theorem ncard_residue (D : Digest) (S : Set D.Out) (q : Nat) (h : ∀ o ∈ S, ∀ o' ∈ S, beToNat o.1 ≡ beToNat o'.1 [MOD q]) :
    S.ncard ≤ 256 ^ D.outLen / q + 1 := by
  rw [← Finset.card_range (256 ^ D.outLen / q + 1), ← Set.ncard_coe_finset]
  refine Set.ncard_le_ncard_of_injOn (fun o => beToNat o.1 / q) ?_ ?_ (Set.toFinite _)
  · intro o _
    have := beToNat_lt o.1
    rw [o.2] at this
    rw [Finset.mem_coe, Finset.mem_range]
    exact Nat.lt_succ_of_le (Nat.div_le_div_right this.le)
  · intro o ho o' ho' he
    refine Subtype.ext (beToNat_inj (o.2.trans o'.2.symm) ?_)
    rw [← Nat.div_add_mod (beToNat o.1) q, ← Nat.div_add_mod (beToNat o'.1) q, show beToNat o.1 / q = beToNat o'.1 / q from he, h o ho o' ho']

/-! ## The attack with all replies refused -/

section
variable (D p) {L : Nat} (A : Attacker n) (Bs : Fin n → Bytes)

/-- The hash input that a move is about: what is asked for, or the one for `u`. -/
def point : Move n → Bytes
  | .ask x => x
  | .reply i a _ => uIn a (Bs i)

/-- An input if it is one of those drawn. -/
def input (L : Nat) (x : Bytes) : Option (Inputs p L) := if h : x.length ≤ L ∧ x ≠ kIn p then some ⟨x, h⟩ else none

/-- What the attacker sees if all replies are refused, from the hash values at the inputs that its moves are about. -/
def view (tr : List (Option (Inputs p L × D.Out))) : List (Option Bytes) :=
  tr.foldl (fun h e => h ++ [match A Bs h with
    | .ask x => some (match e with
      | some y => y.2.1
      | none => D.hash x)
    | .reply _ _ _ => none]) []

/-- The next input looked at. -/
def look (tr : List (Option (Inputs p L × D.Out))) : Option (Inputs p L) := input p L (point Bs (A Bs (view D p A Bs tr)))

variable {D p A Bs}

theorem input_some {x : Inputs p L} {y : Bytes} (h : x.1 = y) : input p L y = some x := by
  subst h
  simp only [input, dif_pos x.2]

theorem view_trace (f : Inputs p L → D.Out) (t : Nat) :
    view D p A Bs (trace (look D p A Bs) f t) = (run (drawn D p f) A Bs (fun _ _ _ => none) t).1 := by
  induction t with
  | zero => rfl
  | succ t ih =>
    have e : view D p A Bs (trace (look D p A Bs) f (t + 1)) = view D p A Bs (trace (look D p A Bs) f t) ++
        [match A Bs (view D p A Bs (trace (look D p A Bs) f t)) with
          | .ask x => some (match (look D p A Bs (trace (look D p A Bs) f t)).map fun x => (x, f x) with
            | some y => y.2.1
            | none => D.hash x)
          | .reply _ _ _ => none] := by
      rw [trace, view, List.foldl_append]; rfl
    rw [e, look, ih, run, step]
    cases hm : A Bs (run (drawn D p f) A Bs (fun _ _ _ => none) t).1 with
    | ask x =>
      simp only [point]
      by_cases hx : x.length ≤ L ∧ x ≠ kIn p
      · have := drawn_in f ⟨x, hx⟩
        simp only at this
        rw [input, dif_pos hx, this]; rfl
      · rw [input, dif_neg hx, drawn_out f hx]; rfl
    | reply i a m => simp
end

/-! ## Worlds -/

section
variable (D p) {ι : Type} (v : ι → Bytes) {L : Nat} (A : Attacker n)

/-- The verifier of a candidate as a residue. -/
def vz (j : ι) : ZMod p.n := (beToNat (v j) : ZMod p.n)

/-- The public value of a server. -/
def pub (j : ι) (b : Nat) : Bytes := Spec.enc (Spec.B D p.n p.g (vz p v j) b)

/-- The secret of a server for the number `a` and the hash value `o`. -/
def key (j : ι) (b : Nat) (a : Bytes) (o : Bytes) : ZMod p.n := Spec.serverS (beToNat a : ZMod p.n) (vz p v j) (beToNat o) b

/-- The attack succeeds: the servers hold the verifier of candidate `j` and the private values `b`, the hash function has the values `f`. -/
def Wins (T : Nat) (j : ι) (b : Fin n → Fin (p.n - 1)) (f : Inputs p L → D.Out) : Prop :=
  ∃ Bs, (∀ i, (Server.computePublicEphemeral (drawn D p f) p (toBytesBE (b i)) (v j) : Res SrpAuthError Bytes) = .ok (Bs i)) ∧
    Accepted (drawn D p f) A Bs (fun i => answer (drawn D p f) p (toBytesBE (b i)) (v j)) T

variable {D p v}

theorem pub_eq (hs : Spec.Sane p.n p.g) (j : ι) (b : Nat) (f : Inputs p L → D.Out) :
    (Server.computePublicEphemeral (drawn D p f) p (toBytesBE b) (v j) : Res SrpAuthError Bytes) = .ok (pub D p v j b) := by
  rw [server_ephemeral_eq _ p hs, pub, beToNat_toBytesBE, Spec.B, Spec.B, drawn_k]
  rfl

theorem answer_ne_none (hs : Spec.Sane p.n p.g) (j : ι) (b : Nat) (f : Inputs p L → D.Out) (a m : Bytes) :
    answer (drawn D p f) p (toBytesBE b) (v j) a m ≠ none ↔ (beToNat a : ZMod p.n) ≠ 0 ∧
      m = (drawn D p f).hash (uIn a (pub D p v j b) ++ Spec.enc (key p v j b a ((drawn D p f).hash (uIn a (pub D p v j b))))) := by
  rw [answer, server_process_eq _ p hs, ne_eq (beToNat a : ZMod p.n), ZMod.natCast_eq_zero_iff, Nat.dvd_iff_mod_eq_zero]
  by_cases h0 : beToNat a % p.n = 0
  · simp [h0]
  · have e : (serverResult (drawn D p f) p.n p.g (beToNat (toBytesBE b)) (beToNat (v j)) (beToNat a)).m1 =
        (drawn D p f).hash (uIn a (pub D p v j b) ++ Spec.enc (key p v j b a ((drawn D p f).hash (uIn a (pub D p v j b))))) := by
      simp only [serverResult, Spec.M1, beToNat_toBytesBE, Spec.B, drawn_k, Spec.u, Spec.Hint]
      rfl
    rw [if_neg h0]
    simp only [SrpServerVerifier.verifyClient, e, ctEq_eq_decide, decide_eq_true_eq]
    constructor
    · intro h
      refine ⟨h0, ?_⟩
      by_contra hm
      rw [if_neg (Ne.symm hm)] at h
      exact h rfl
    · rintro ⟨-, rfl⟩
      simp

/-- The hash values for which a candidate other than `j` leads to the same secret. -/
def Coin (j : ι) (b : Fin n → Fin (p.n - 1)) (x : Inputs p L) : Set D.Out :=
  {o | ∃ (i : Fin n) (j' : ι), ∃ a b', x.1 = uIn a (pub D p v j (b i)) ∧ (beToNat a : ZMod p.n) ≠ 0 ∧ (beToNat a : ZMod p.n) ≠ 1 ∧
    (beToNat a : ZMod p.n) ≠ -1 ∧ (p.g : ZMod p.n) ^ (b i : Nat) ≠ (p.g : ZMod p.n) ^ b' ∧
    (p.g : ZMod p.n) ^ (b i : Nat) ≠ -(p.g : ZMod p.n) ^ b' ∧
    Spec.B D p.n p.g (vz p v j') b' = Spec.B D p.n p.g (vz p v j) (b i) ∧ key p v j (b i) a o.1 = key p v j' b' a o.1}

theorem serverS_congr (h : SafeGroup p) {a v : ZMod p.n} (ha : a ≠ 0) (hv : v ≠ 0) (u : Nat) {b b' : Nat}
    (hb : (p.g : ZMod p.n) ^ b = (p.g : ZMod p.n) ^ b') : Spec.serverS a v u b = Spec.serverS a v u b' := by
  have : Fact p.n.Prime := ⟨h.1⟩
  obtain ⟨c, hc⟩ := h.2.2 (a * v ^ u) (mul_ne_zero ha (pow_ne_zero _ hv))
  rw [Spec.serverS, Spec.serverS, hc, ← pow_mul, ← pow_mul, mul_comm, pow_mul, hb, ← pow_mul, mul_comm, pow_mul]

theorem ncard_coin [Fintype ι] (h : SafeGroup p) (h5 : p.n ≠ 5) (hv : ∀ j, vz p v j ≠ 0) (j : ι) (b : Fin n → Fin (p.n - 1))
    (x : Inputs p L) : (Coin (D := D) (v := v) j b x).ncard ≤ n * Fintype.card ι * (256 ^ D.outLen / ((p.n - 1) / 2) + 1) := by
  classical
  have : NeZero p.n := ⟨h.1.ne_zero⟩
  let S : Fin n × ι → Set D.Out := fun c => {o | ∃ a b', x.1 = uIn a (pub D p v j (b c.1)) ∧ (beToNat a : ZMod p.n) ≠ 0 ∧
    (beToNat a : ZMod p.n) ≠ 1 ∧ (beToNat a : ZMod p.n) ≠ -1 ∧ (p.g : ZMod p.n) ^ (b c.1 : Nat) ≠ (p.g : ZMod p.n) ^ b' ∧
    (p.g : ZMod p.n) ^ (b c.1 : Nat) ≠ -(p.g : ZMod p.n) ^ b' ∧
    Spec.B D p.n p.g (vz p v c.2) b' = Spec.B D p.n p.g (vz p v j) (b c.1) ∧ key p v j (b c.1) a o.1 = key p v c.2 b' a o.1}
  have hS : ∀ c, (S c).ncard ≤ 256 ^ D.outLen / ((p.n - 1) / 2) + 1 := by
    intro c
    refine ncard_residue D _ _ ?_
    rintro o ⟨a, b', hx, h0, h1, h2, h3, h4, hB, hk⟩ o' ⟨a', b'', hx', -, -, -, -, -, hB', hk'⟩
    have ha : beToNat a' = beToNat a := by
      have := List.append_cancel_right (hx'.symm.trans hx)
      simpa using congrArg beToNat this
    have hb : (p.g : ZMod p.n) ^ b'' = (p.g : ZMod p.n) ^ b' := by
      have := hB'.trans hB.symm
      rw [Spec.B, Spec.B] at this
      exact add_left_cancel this
    have hk'' : key p v j (b c.1) a o'.1 = key p v c.2 b' a o'.1 := by
      rw [key, key, ha] at hk'
      rw [key, key, hk', serverS_congr h h0 (hv _) _ hb]
    exact coincide h h5 h0 h1 h2 (hv j) (hv c.2) h3 h4 hk hk''
  have hsub : Coin (D := D) (v := v) j b x ⊆ ⋃ c ∈ (Finset.univ : Finset (Fin n × ι)), S c := by
    rintro o ⟨i, j', hr⟩
    exact Set.mem_biUnion (Finset.mem_univ (i, j')) hr
  refine (Set.ncard_le_ncard hsub (Set.toFinite _)).trans ?_
  refine (Finset.set_ncard_biUnion_le _ _).trans ((Finset.sum_le_sum fun c _ => hS c).trans (le_of_eq ?_))
  rw [Finset.sum_const, Finset.card_univ, Fintype.card_prod, Fintype.card_fin, smul_eq_mul]

/-! ## Exceptions -/

/-- Two candidates whose values `g^b` for the same public value are opposite. -/
def Opposite (D : Digest) (v : ι → Bytes) (j : ι) (b : Fin n → Fin (p.n - 1)) : Prop :=
  ∃ (i : Fin n) (j' : ι), ∃ b', Spec.B D p.n p.g (vz p v j') b' = Spec.B D p.n p.g (vz p v j) (b i) ∧
    (p.g : ZMod p.n) ^ (b i : Nat) = -(p.g : ZMod p.n) ^ b'

theorem share_coord {K : Type} [Finite K] [Nonempty K] (i : Fin n) (P : K → Prop) : share {b : Fin n → K | P (b i)} = share {c | P c} := by
  have h1 := share_equiv (Equiv.funSplitAt i K) {w : K × ({j // j ≠ i} → K) | w.1 ∈ {c | P c}}
  rw [share_fst] at h1
  rw [← h1]
  rfl

theorem share_opposite [Fintype ι] [Nonempty ι] (h : SafeGroup p) (D : Digest) (v : ι → Bytes) :
    share {w : ι × (Fin n → Fin (p.n - 1)) | Opposite D v w.1 w.2} ≤ n * Fintype.card ι / (p.n - 1 : ℕ) := by
  have : Fact p.n.Prime := ⟨h.1⟩
  have hodd := odd h
  have hne : Nonempty (Fin (p.n - 1)) := ⟨⟨0, by omega⟩⟩
  refine share_slice (fun j b => Opposite D v j b) _ fun j => ?_
  have h1 := share_exists (Ω := Fin n → Fin (p.n - 1)) (κ := Fin n × ι) (fun c b => ∃ b',
    Spec.B D p.n p.g (vz p v c.2) b' = Spec.B D p.n p.g (vz p v j) (b c.1) ∧
    (p.g : ZMod p.n) ^ (b c.1 : Nat) = -(p.g : ZMod p.n) ^ b') (1 / (p.n - 1 : ℕ)) fun c => by
      rw [share_coord (K := Fin (p.n - 1)) c.1 fun b => ∃ b', Spec.B D p.n p.g (vz p v c.2) b' = Spec.B D p.n p.g (vz p v j) b ∧
        (p.g : ZMod p.n) ^ (b : Nat) = -(p.g : ZMod p.n) ^ b']
      rw [share, Nat.card_eq_fintype_card, Fintype.card_fin]
      refine div_le_div_of_nonneg_right ?_ (Nat.cast_nonneg _)
      have hle : {b : Fin (p.n - 1) | ∃ b', Spec.B D p.n p.g (vz p v c.2) b' = Spec.B D p.n p.g (vz p v j) b ∧
        (p.g : ZMod p.n) ^ (b : Nat) = -(p.g : ZMod p.n) ^ b'}.ncard ≤ 1 := by
        rw [Set.ncard_le_one (Set.toFinite _)]
        rintro x ⟨b1, hb1, h1⟩ y ⟨b2, hb2, h2⟩
        rw [Spec.B, Spec.B] at hb1 hb2
        have e1 : 2 * (p.g : ZMod p.n) ^ (x : Nat) = 2 * (p.g : ZMod p.n) ^ (y : Nat) := by
          have f1 : (p.g : ZMod p.n) ^ b1 = -(p.g : ZMod p.n) ^ (x : Nat) := by rw [h1, neg_neg]
          have f2 : (p.g : ZMod p.n) ^ b2 = -(p.g : ZMod p.n) ^ (y : Nat) := by rw [h2, neg_neg]
          rw [f1] at hb1
          rw [f2] at hb2
          linear_combination hb2 - hb1
        have h20 : (2 : ZMod p.n) ≠ 0 := by
          intro h0
          have : ((2 : ℕ) : ZMod p.n) = 0 := by exact_mod_cast h0
          rw [ZMod.natCast_eq_zero_iff] at this
          have := Nat.le_of_dvd (by norm_num) this
          omega
        have e2 := (pow_eq_iff h _ _).1 (mul_left_cancel₀ h20 e1)
        rw [Nat.ModEq, Nat.mod_eq_of_lt x.2, Nat.mod_eq_of_lt y.2] at e2
        exact Fin.ext e2
      exact_mod_cast hle
  refine le_trans (share_mono ?_) (h1.trans (le_of_eq ?_))
  · rintro b ⟨i, j', hb⟩
    exact ⟨(i, j'), hb⟩
  · rw [Fintype.card_prod, Fintype.card_fin]; push_cast; ring

variable (D p v)

/-- The public values of all servers. -/
def pubs (j : ι) (b : Fin n → Fin (p.n - 1)) (i : Fin n) : Bytes := pub D p v j (b i)

/-- The hash values that a look at an input should not give: one with a coincidence, or one seen before. -/
def Unwanted (j : ι) (b : Fin n → Fin (p.n - 1)) (tr : List (Option (Inputs p L × D.Out))) (x : Inputs p L) : Set D.Out :=
  Coin (v := v) j b x ∪ {o | ∃ z, some (z, o) ∈ tr}

/-- The input of the hash for the proof that a server expects after the last move, from the values seen. -/
def expected (j : ι) (b : Fin n → Fin (p.n - 1)) (tr : List (Option (Inputs p L × D.Out))) : Option (Inputs p L) :=
  match A (pubs D p v j b) (view D p A (pubs D p v j b) tr.dropLast), tr.getLast? with
  | .reply i a _, some (some y) => input p L (uIn a (pubs D p v j b i) ++ Spec.enc (key p v j (b i) a y.2.1))
  | _, _ => none

/-- The proof sent in the last move. -/
def sent (j : ι) (b : Fin n → Fin (p.n - 1)) (tr : List (Option (Inputs p L × D.Out))) : Set D.Out :=
  {o | ∃ i a m, A (pubs D p v j b) (view D p A (pubs D p v j b) tr.dropLast) = .reply i a m ∧ o.1 = m}

/-- A look gives an unwanted value. -/
def Unlucky (T : Nat) (j : ι) (b : Fin n → Fin (p.n - 1)) (f : Inputs p L → D.Out) : Prop :=
  ∃ t < T, ∃ x, look D p A (pubs D p v j b) (trace (look D p A (pubs D p v j b)) f t) = some x ∧
    ¬ Touched (trace (look D p A (pubs D p v j b)) f t) x ∧
    f x ∈ Unwanted D p v j b (trace (look D p A (pubs D p v j b)) f t) x

/-- A proof is right though nobody has asked for it. -/
def Hit (T : Nat) (j : ι) (b : Fin n → Fin (p.n - 1)) (f : Inputs p L → D.Out) : Prop :=
  ∃ t < T, ∃ x, expected D p v A j b (trace (look D p A (pubs D p v j b)) f (t + 1)) = some x ∧
    ¬ Touched (trace (look D p A (pubs D p v j b)) f (t + 1)) x ∧
    f x ∈ sent D p v A j b (trace (look D p A (pubs D p v j b)) f (t + 1))

variable {D p v}

theorem share_unlucky [Fintype ι] (h : SafeGroup p) (h5 : p.n ≠ 5) (hv : ∀ j, vz p v j ≠ 0) (T : Nat) (j : ι) (b : Fin n → Fin (p.n - 1)) :
    share {f : Inputs p L → D.Out | Unlucky D p v A T j b f} ≤
      T * (n * Fintype.card ι * (256 ^ D.outLen / ((p.n - 1) / 2) + 1 : ℕ) + T) / 256 ^ D.outLen := by
  classical
  have h1 := share_fresh (look (L := L) D p A (pubs D p v j b)) T (fun _ => look D p A (pubs D p v j b))
    (Unwanted D p v j b) (n * Fintype.card ι * (256 ^ D.outLen / ((p.n - 1) / 2) + 1) + T) (fun tr x htr => by
      refine (Set.ncard_union_le _ _).trans (Nat.add_le_add (ncard_coin h h5 hv j b x) ?_)
      have hsub : {o : D.Out | ∃ z, some (z, o) ∈ tr} ⊆ ((tr.filterMap fun e : Option (Inputs p L × D.Out) => e.map Prod.snd).toFinset : Set D.Out) := by
        rintro o ⟨z, hz⟩
        rw [List.coe_toFinset]
        exact List.mem_filterMap.2 ⟨_, hz, rfl⟩
      refine (Set.ncard_le_ncard hsub (Finset.finite_toSet _)).trans ?_
      rw [Set.ncard_coe_finset]
      exact (List.toFinset_card_le _).trans ((List.length_filterMap_le _ _).trans htr)) id (fun t ht => ht.le)
  rw [Nat.card_eq_fintype_card, Oracle.card_out] at h1
  push_cast at h1 ⊢
  exact h1

theorem share_hit (T : Nat) (j : ι) (b : Fin n → Fin (p.n - 1)) :
    share {f : Inputs p L → D.Out | Hit D p v A T j b f} ≤ T / 256 ^ D.outLen := by
  classical
  have h1 := share_fresh (look (L := L) D p A (pubs D p v j b)) T (fun _ => expected D p v A j b)
    (fun tr _ => sent D p v A j b tr) 1 (fun tr x _ => by
      rw [Set.ncard_le_one (Set.toFinite _)]
      rintro o ⟨i, a, m, hm, ho⟩ o' ⟨i', a', m', hm', ho'⟩
      rw [hm, Move.reply.injEq] at hm'
      exact Subtype.ext (ho.trans (hm'.2.2.trans ho'.symm))) (fun t => t + 1) (fun t ht => ht)
  rw [Nat.card_eq_fintype_card, Oracle.card_out] at h1
  push_cast at h1 ⊢
  rw [mul_one] at h1
  exact h1

/-- With all replies refused, the first reply to session `i` is right for candidate `j`. -/
def Right (T : Nat) (i : Fin n) (w : (ι × (Fin n → Fin (p.n - 1))) × (Inputs p L → D.Out)) : Prop :=
  ∃ t < T, ∃ a m, A (pubs D p v w.1.1 w.1.2) (run (drawn D p w.2) A (pubs D p v w.1.1 w.1.2) (fun _ _ _ => none) t).1 = .reply i a m ∧
    i ∉ (run (drawn D p w.2) A (pubs D p v w.1.1 w.1.2) (fun _ _ _ => none) t).2 ∧
    answer (drawn D p w.2) p (toBytesBE (w.1.2 i)) (v w.1.1) a m ≠ none

theorem wins_right (hs : Spec.Sane p.n p.g) {T : Nat} {w : (ι × (Fin n → Fin (p.n - 1))) × (Inputs p L → D.Out)}
    (h : Wins D p v A T w.1.1 w.1.2 w.2) : ∃ i, Right (v := v) A T i w := by
  obtain ⟨Bs, hB, hacc⟩ := h
  have e : Bs = pubs D p v w.1.1 w.1.2 := funext fun i => by
    have := (hB i).symm.trans (pub_eq hs w.1.1 (w.1.2 i) w.2)
    rw [Res.ok.injEq] at this
    exact this
  subst e
  obtain ⟨t, ht, i, a, m, h1, h2, h3⟩ := accepted_refused hacc
  exact ⟨i, t, ht, a, m, h1, h2, h3⟩

/-- The exceptions together. -/
def Exc (T : Nat) (w : (ι × (Fin n → Fin (p.n - 1))) × (Inputs p L → D.Out)) : Prop :=
  Opposite D v w.1.1 w.1.2 ∨ Unlucky D p v A T w.1.1 w.1.2 w.2 ∨ Hit D p v A T w.1.1 w.1.2 w.2

theorem counts_input {B a K : Bytes} (hc : Counts p L B a) (hK : K.length ≤ (toBytesBE p.n).length) :
    (uIn a B ++ K).length ≤ L ∧ uIn a B ++ K ≠ kIn p := by
  refine ⟨?_, fun e => hc.2.2.2 ⟨K, e⟩⟩
  rw [List.length_append]
  exact le_trans (by omega) hc.2.2.1

theorem length_enc (hn : p.n ≠ 0) (z : ZMod p.n) : (Spec.enc z).length ≤ (toBytesBE p.n).length := by
  have : NeZero p.n := ⟨hn⟩
  rw [Spec.enc, toBytesBE_length, toBytesBE_length]
  exact byteLen_mono (ZMod.val_lt z).le

/-- The proof of a reply that is right and no exception has been asked for, and the secret is one of candidate `j` only. -/
theorem right_touched (hs : Spec.Sane p.n p.g) (hA : ∀ Bs h i a m, A Bs h = .reply i a m → Counts p L (Bs i) a)
    {T t : Nat} (ht : t < T) {j : ι} {b : Fin n → Fin (p.n - 1)} {f : Inputs p L → D.Out} {i : Fin n} {a m : Bytes}
    (hm : A (pubs D p v j b) (run (drawn D p f) A (pubs D p v j b) (fun _ _ _ => none) t).1 = .reply i a m)
    (hr : answer (drawn D p f) p (toBytesBE (b i)) (v j) a m ≠ none) (hh : ¬ Hit D p v A T j b f)
    (y : Inputs p L) (hy : y.1 = uIn a (pubs D p v j b i)) :
    ∃ x : Inputs p L, x.1 = uIn a (pubs D p v j b i) ++ Spec.enc (key p v j (b i) a (f y).1) ∧ (f x).1 = m ∧
      Touched (trace (look D p A (pubs D p v j b)) f (t + 1)) x := by
  have hc := hA _ _ _ _ _ hm
  have hx := counts_input hc (length_enc hs.1.ne' (key p v j (b i) a (f y).1))
  refine ⟨⟨_, hx⟩, rfl, ?_, ?_⟩
  · have h2 := ((answer_ne_none hs j (b i) f a m).1 hr).2
    rw [show uIn a (pub D p v j (b i)) = y.1 from hy.symm, drawn_in f y, hy] at h2
    rw [h2, ← drawn_in f ⟨_, hx⟩]
  · by_contra hnt
    refine hh ⟨t, ht, ⟨_, hx⟩, ?_, hnt, ?_⟩
    · have e1 : look D p A (pubs D p v j b) (trace (look D p A (pubs D p v j b)) f t) = some y := by
        rw [look, view_trace, hm]
        exact input_some hy
      rw [expected, trace, List.dropLast_concat, List.getLast?_concat, view_trace, hm, e1]
      exact input_some rfl
    · refine ⟨i, a, m, ?_, ?_⟩
      · rw [trace, List.dropLast_concat, view_trace, hm]
      · have h2 := ((answer_ne_none hs j (b i) f a m).1 hr).2
        rw [show uIn a (pub D p v j (b i)) = y.1 from hy.symm, drawn_in f y, hy] at h2
        rw [h2, ← drawn_in f ⟨_, hx⟩]

/-- Without an exception, the public values, the hash function and the session determine the candidate. -/
theorem right_unique (h : SafeGroup p) (hs : Spec.Sane p.n p.g) (hk : (Spec.k D p.n p.g : ZMod p.n) ≠ 0)
    (hinj : Function.Injective (vz p v)) (hA : ∀ Bs h i a m, A Bs h = .reply i a m → Counts p L (Bs i) a) {T : Nat} {i : Fin n}
    {j j' : ι} {b b' : Fin n → Fin (p.n - 1)} {f : Inputs p L → D.Out} (hB : pubs D p v j b = pubs D p v j' b')
    (h1 : Right (v := v) A T i ((j, b), f)) (h2 : Right (v := v) A T i ((j', b'), f))
    (he1 : ¬ Exc (v := v) A T ((j, b), f)) (he2 : ¬ Exc (v := v) A T ((j', b'), f)) : j = j' := by
  have : Fact p.n.Prime := ⟨h.1⟩
  have : NeZero p.n := ⟨h.1.ne_zero⟩
  by_contra hj
  obtain ⟨t, ht, a, m, hm, hu, hr⟩ := h1
  obtain ⟨t', ht', a', m', hm', hu', hr'⟩ := h2
  simp only at hm hu hr hm' hu' hr'
  rw [← hB] at hm' hu'
  have htt : t = t' := by
    rw [mem_used] at hu hu'
    rcases Nat.lt_trichotomy t t' with hlt | rfl | hlt
    · exact absurd ⟨t, hlt, a, m, hm⟩ hu'
    · rfl
    · exact absurd ⟨t', hlt, a', m', hm'⟩ hu
  subst htt
  rw [hm, Move.reply.injEq] at hm'
  obtain ⟨-, rfl, rfl⟩ := hm'
  simp only [Exc, not_or] at he1 he2
  have hc := hA _ _ _ _ _ hm
  have hy0 := counts_input hc (K := []) (Nat.zero_le _)
  rw [List.append_nil] at hy0
  obtain ⟨x, hx, hfx, htx⟩ := right_touched A hs hA ht hm hr he1.2.2 ⟨_, hy0⟩ rfl
  obtain ⟨x', hx', hfx', htx'⟩ := right_touched A hs hA ht (hB ▸ hm) hr' he2.2.2 ⟨_, hy0⟩ (by simp only [hB])
  rw [← hB] at htx' hx'
  -- the two secrets differ
  have hBi : Spec.B D p.n p.g (vz p v j') (b' i) = Spec.B D p.n p.g (vz p v j) (b i) := enc_injective (congrFun hB i).symm
  have hgb : (p.g : ZMod p.n) ^ (b i : Nat) ≠ (p.g : ZMod p.n) ^ (b' i : Nat) := by
    intro e
    rw [Spec.B, Spec.B, e] at hBi
    exact hj (hinj (mul_left_cancel₀ hk (add_right_cancel hBi))).symm
  have hgb' : (p.g : ZMod p.n) ^ (b i : Nat) ≠ -(p.g : ZMod p.n) ^ (b' i : Nat) := fun e => he1.1 ⟨i, j', b' i, hBi, e⟩
  have ha0 := ((answer_ne_none hs j (b i) f a m).1 hr).1
  have ha1 : (beToNat a : ZMod p.n) ≠ 1 := fun e => hc.1 ((ZMod.natCast_eq_natCast_iff _ _ _).1 (by rw [e]; simp))
  have ha2 : (beToNat a : ZMod p.n) ≠ -1 := fun e => hc.2.1 ((ZMod.natCast_eq_zero_iff _ _).1 (by push_cast; rw [e]; ring))
  have hlook : look D p A (pubs D p v j b) (trace (look D p A (pubs D p v j b)) f t) = some ⟨_, hy0⟩ := by
    rw [look, view_trace, hm]
    exact input_some rfl
  have hne : x ≠ x' := by
    intro e
    have e' := congrArg Subtype.val e
    rw [hx, hx'] at e'
    have hkey := enc_injective (List.append_cancel_left e')
    obtain ⟨s, hs', h3, h4⟩ := first ⟨_, touched_of (Nat.lt_succ_self t) hlook⟩
    exact he1.2.1 ⟨s, by omega, _, h3, h4, Or.inl ⟨i, j', a, b' i, rfl, ha0, ha1, ha2, hgb, hgb', hBi, hkey⟩⟩
  obtain ⟨s, hs', z, h3, h4, z', h5⟩ := collide htx htx' hne (Subtype.ext (hfx.trans hfx'.symm))
  exact he1.2.1 ⟨s, by omega, z, h3, h4, Or.inr ⟨z', h5⟩⟩

theorem share_right [Fintype ι] [Nonempty ι] (h : SafeGroup p) (hs : Spec.Sane p.n p.g) (hk : (Spec.k D p.n p.g : ZMod p.n) ≠ 0)
    (hinj : Function.Injective (vz p v)) (hA : ∀ Bs h i a m, A Bs h = .reply i a m → Counts p L (Bs i) a) (T : Nat) (i : Fin n) :
    share {w : (ι × (Fin n → Fin (p.n - 1))) × (Inputs p L → D.Out) | Right (v := v) A T i w ∧ ¬ Exc (v := v) A T w} ≤
      (p.n / (p.n - 1 : ℕ) : ℚ) ^ n / Fintype.card ι := by
  classical
  have : Fact p.n.Prime := ⟨h.1⟩
  have : NeZero p.n := ⟨h.1.ne_zero⟩
  have hodd := odd h
  have hle : {w : (ι × (Fin n → Fin (p.n - 1))) × (Inputs p L → D.Out) | Right (v := v) A T i w ∧ ¬ Exc (v := v) A T w}.ncard ≤
      Nat.card ((Fin n → ZMod p.n) × (Inputs p L → D.Out)) := by
    rw [← Set.ncard_univ]
    refine Set.ncard_le_ncard_of_injOn (fun w => (fun i => Spec.B D p.n p.g (vz p v w.1.1) (w.1.2 i), w.2)) (fun _ _ => Set.mem_univ _) ?_
      (Set.toFinite _)
    rintro ⟨⟨j, b⟩, f⟩ ⟨h1, he1⟩ ⟨⟨j', b'⟩, f'⟩ ⟨h2, he2⟩ he
    simp only [Prod.mk.injEq] at he
    obtain ⟨hB, rfl⟩ := he
    have hj : j = j' := right_unique A h hs hk hinj hA (funext fun i => congrArg Spec.enc (congrFun hB i)) h1 h2 he1 he2
    subst hj
    have hb : b = b' := funext fun i => by
      have := congrFun hB i
      rw [Spec.B, Spec.B] at this
      have := (pow_eq_iff h _ _).1 (add_left_cancel this)
      rw [Nat.ModEq, Nat.mod_eq_of_lt (b i).2, Nat.mod_eq_of_lt (b' i).2] at this
      exact Fin.ext this
    rw [hb]
  have hι : (0 : ℚ) < Fintype.card ι := by exact_mod_cast Fintype.card_pos
  have hN : (0 : ℚ) < (p.n - 1 : ℕ) := by exact_mod_cast (by omega : 0 < p.n - 1)
  have hF : (0 : ℚ) < Nat.card (Inputs p L → D.Out) := by exact_mod_cast Nat.card_pos
  have hcN : Nat.card (Fin n → ZMod p.n) = p.n ^ n := by
    rw [Nat.card_eq_fintype_card, Fintype.card_fun, ZMod.card, Fintype.card_fin]
  have hcb : Nat.card (Fin n → Fin (p.n - 1)) = (p.n - 1) ^ n := by
    rw [Nat.card_eq_fintype_card, Fintype.card_fun, Fintype.card_fin, Fintype.card_fin]
  rw [Nat.card_prod, hcN] at hle
  rw [share, Nat.card_prod, Nat.card_prod, hcb, Nat.card_eq_fintype_card (α := ι), div_pow, div_div]
  rw [div_le_div_iff₀ (by push_cast; positivity) (by positivity)]
  have hle : (_ : ℚ) ≤ _ := Nat.cast_le.2 hle
  push_cast at hle ⊢
  calc _ ≤ ((p.n : ℚ) ^ n * Nat.card (Inputs p L → D.Out)) * (((p.n - 1 : ℕ) : ℚ) ^ n * Fintype.card ι) :=
        mul_le_mul_of_nonneg_right hle (by positivity)
    _ = _ := by ring

/-- **C99 (SRP server).** The servers of `n` sessions hold the verifier of one of several candidates, with different residues that are not
`0`. An attacker without computational bound knows all these verifiers and the public values of the servers. In `T` moves it asks for hash
values and sends each server at most one `A` and proof; it gets the server's proof if it is accepted. Of the candidates, private
values below `N - 1` and hash functions, a server accepts for a share of about `n` divided by the number of candidates: one try per session. -/
theorem C99_srp_server [Fintype ι] [Nonempty ι] (h : SafeGroup p) (hs : Spec.Sane p.n p.g) (h5 : p.n ≠ 5)
    (hk : ¬ p.n ∣ Spec.k D p.n p.g) (h0 : ∀ j, ¬ p.n ∣ beToNat (v j)) (hinj : ∀ j j', beToNat (v j) ≡ beToNat (v j') [MOD p.n] → j = j')
    (hA : ∀ Bs h i a m, A Bs h = .reply i a m → Counts p L (Bs i) a) (T : Nat) :
    share {w : (ι × (Fin n → Fin (p.n - 1))) × (Inputs p L → D.Out) | Wins D p v A T w.1.1 w.1.2 w.2} ≤
      n * (p.n / (p.n - 1 : ℕ) : ℚ) ^ n / Fintype.card ι + n * Fintype.card ι / (p.n - 1 : ℕ) +
        T * (n * Fintype.card ι * (256 ^ D.outLen / ((p.n - 1) / 2) + 1 : ℕ) + T + 1) / 256 ^ D.outLen := by
  classical
  have hodd := odd h
  have hne : Nonempty (Fin (p.n - 1)) := ⟨⟨0, by omega⟩⟩
  have hk' : (Spec.k D p.n p.g : ZMod p.n) ≠ 0 := fun e => hk ((ZMod.natCast_eq_zero_iff _ _).1 e)
  have hv' : ∀ j, vz p v j ≠ 0 := fun j e => h0 j ((ZMod.natCast_eq_zero_iff _ _).1 e)
  have hinj' : Function.Injective (vz p v) := fun j j' e => hinj j j' ((ZMod.natCast_eq_natCast_iff _ _ _).1 e)
  have hsub : {w : (ι × (Fin n → Fin (p.n - 1))) × (Inputs p L → D.Out) | Wins D p v A T w.1.1 w.1.2 w.2} ⊆
      {w | ∃ i, Right (v := v) A T i w ∧ ¬ Exc (v := v) A T w} ∪ ({w | w.1 ∈ {c | Opposite D v c.1 c.2}} ∪
        ({w | Unlucky D p v A T w.1.1 w.1.2 w.2} ∪ {w | Hit D p v A T w.1.1 w.1.2 w.2})) := by
    intro w hw
    obtain ⟨i, hi⟩ := wins_right A hs hw
    by_cases he : Exc (v := v) A T w
    · exact Or.inr he
    · exact Or.inl ⟨i, hi, he⟩
  have s1 := share_mono hsub
  have s2 := share_union {w : (ι × (Fin n → Fin (p.n - 1))) × (Inputs p L → D.Out) | ∃ i, Right (v := v) A T i w ∧ ¬ Exc (v := v) A T w}
    ({w | w.1 ∈ {c | Opposite D v c.1 c.2}} ∪ ({w | Unlucky D p v A T w.1.1 w.1.2 w.2} ∪ {w | Hit D p v A T w.1.1 w.1.2 w.2}))
  have s3 := share_union {w : (ι × (Fin n → Fin (p.n - 1))) × (Inputs p L → D.Out) | w.1 ∈ {c | Opposite D v c.1 c.2}}
    ({w | Unlucky D p v A T w.1.1 w.1.2 w.2} ∪ {w | Hit D p v A T w.1.1 w.1.2 w.2})
  have s4 := share_union {w : (ι × (Fin n → Fin (p.n - 1))) × (Inputs p L → D.Out) | Unlucky D p v A T w.1.1 w.1.2 w.2}
    {w | Hit D p v A T w.1.1 w.1.2 w.2}
  have r1 := share_exists _ _ (share_right (D := D) (v := v) (L := L) A h hs hk' hinj' hA T)
  have r2 := (share_fst (Ω' := Inputs p L → D.Out) {c : ι × (Fin n → Fin (p.n - 1)) | Opposite D v c.1 c.2}).le.trans
    (share_opposite (n := n) h D v)
  have r3 := share_slice (fun (c : ι × (Fin n → Fin (p.n - 1))) f => Unlucky D p v A T c.1 c.2 f) _
    fun c => share_unlucky (D := D) (v := v) (L := L) A h h5 hv' T c.1 c.2
  have r4 := share_slice (fun (c : ι × (Fin n → Fin (p.n - 1))) f => Hit D p v A T c.1 c.2 f) _
    fun c => share_hit (D := D) (v := v) (L := L) A T c.1 c.2
  rw [Fintype.card_fin] at r1
  have e1 : (n : ℚ) * ((p.n / (p.n - 1 : ℕ) : ℚ) ^ n / Fintype.card ι) = n * (p.n / (p.n - 1 : ℕ) : ℚ) ^ n / Fintype.card ι := by ring
  have e2 : (T : ℚ) * (n * Fintype.card ι * (256 ^ D.outLen / ((p.n - 1) / 2) + 1 : ℕ) + T + 1) / 256 ^ D.outLen =
      T * (n * Fintype.card ι * (256 ^ D.outLen / ((p.n - 1) / 2) + 1 : ℕ) + T) / 256 ^ D.outLen + T / 256 ^ D.outLen := by ring
  rw [e2]
  rw [e1] at r1
  linarith


/-- **C99 (built-in groups).** With a hash function of up to 64 bytes no two values of `u` agree modulo `(N - 1) / 2`. -/
theorem C99_srp_builtin [Fintype ι] [Nonempty ι]
    (hp : p ∈ [Groups.G_1024, Groups.G_1536, Groups.G_2048, Groups.G_3072, Groups.G_4096, Groups.G_6144,
      Groups.G_8192]) (hD : D.outLen ≤ 64)
    (hk : beToNat (D.hash (kIn p)) ≠ 0) (h0 : ∀ j, ¬ p.n ∣ beToNat (v j))
    (hinj : ∀ j j', beToNat (v j) ≡ beToNat (v j') [MOD p.n] → j = j')
    (hA : ∀ Bs h i a m, A Bs h = .reply i a m → Counts p L (Bs i) a) (T : Nat) :
    share {w : (ι × (Fin n → Fin (p.n - 1))) × (Inputs p L → D.Out) | Wins D p v A T w.1.1 w.1.2 w.2} ≤
      n * (p.n / (p.n - 1 : ℕ) : ℚ) ^ n / Fintype.card ι + n * Fintype.card ι / (p.n - 1 : ℕ) +
        T * (n * Fintype.card ι + T + 1) / 256 ^ D.outLen := by
  obtain ⟨h, hs, -⟩ := C62_builtin p hp
  have hbig : 256 ^ 64 < (p.n - 1) / 2 := by
    simp only [List.mem_cons, List.not_mem_nil, or_false] at hp
    rcases hp with rfl | rfl | rfl | rfl | rfl | rfl | rfl <;> decide +kernel
  have hU : 256 ^ D.outLen ≤ 256 ^ 64 := Nat.pow_le_pow_right (by norm_num) hD
  have hlt : Spec.k D p.n p.g < p.n := by
    have := beToNat_lt (D.hash (kIn p))
    rw [D.hash_length] at this
    rw [Spec.k, Spec.Hint]
    exact lt_of_lt_of_le this (by omega)
  have := C99_srp_server (D := D) (v := v) A h hs (by omega)
    (fun hd => hk (Nat.eq_zero_of_dvd_of_lt hd hlt)) h0 hinj hA T
  rwa [Nat.div_eq_of_lt (lt_of_le_of_lt hU hbig), zero_add, Nat.cast_one, mul_one] at this

/-! ## The bound is attained up to the small terms -/

open Classical in
/-- An attacker that tries the candidate with `v = g^(x i)` in session `i`: it asks for `u`, then for the proof, and sends the latter. -/
noncomputable def tryOut (D : Digest) (p : SrpGroup) (L : Nat) (x : Fin n → Nat) (α : Nat) : Attacker n := fun Bs h =>
  if hi : h.length / 3 < n then
    let B := Bs ⟨h.length / 3, hi⟩
    let a := Spec.enc (Spec.A p.n p.g α)
    if Counts p L B a then
      match h.length % 3, h.getLast? with
      | 0, _ => .ask (uIn a B)
      | 1, some (some u) => .ask (uIn a B ++ Spec.enc (Spec.clientS D p.n p.g (beToNat B : ZMod p.n) (x ⟨h.length / 3, hi⟩) α (beToNat u)))
      | 2, some (some m) => .reply ⟨h.length / 3, hi⟩ a m
      | _, _ => .ask []
    else .ask []
  else .ask []

theorem length_run (D : Digest) (A : Attacker n) (Bs : Fin n → Bytes) (V : Fin n → Bytes → Bytes → Option Bytes) (t : Nat) :
    (run D A Bs V t).1.length = t := by
  induction t with
  | zero => rfl
  | succ t ih =>
    rw [run, step]
    split <;> simp [ih]

/-- **C99 (attained).** There is an attacker that sends only replies that count and is accepted within `3 n` moves whenever one of `n`
candidates, for which it knows the passwords, is the right one. -/
theorem C99_srp_attained (hs : Spec.Sane p.n p.g) (c : Fin n → ι) (x : Fin n → Nat)
    (hx : ∀ i, beToNat (v (c i)) ≡ p.g ^ x i [MOD p.n]) (α : Nat) (hα : ¬ p.n ∣ p.g ^ α) :
    ∃ A : Attacker n, (∀ Bs h i a m, A Bs h = .reply i a m → Counts p L (Bs i) a) ∧
      ∀ i b, (∀ B, (Server.computePublicEphemeral D p (toBytesBE (b i)) (v (c i)) : Res SrpAuthError Bytes) = .ok B →
          Counts p L B (Spec.enc (Spec.A p.n p.g α))) →
        ∀ f : Inputs p L → D.Out, Wins D p v A (3 * n) (c i) b f := by
  classical
  have : NeZero p.n := ⟨hs.1.ne'⟩
  refine ⟨tryOut D p L x α, ?_, ?_⟩
  · intro Bs h i a m hm
    rw [tryOut] at hm
    split at hm
    · simp only at hm
      split at hm
      · rename_i hc
        split at hm
        · simp at hm
        · simp at hm
        · rw [Move.reply.injEq] at hm
          obtain ⟨rfl, rfl, -⟩ := hm
          exact hc
        · simp at hm
      · simp at hm
    · simp at hm
  · intro i b hc f
    have hB : ∀ i', (Server.computePublicEphemeral (drawn D p f) p (toBytesBE (b i')) (v (c i)) : Res SrpAuthError Bytes) =
      .ok (pubs D p v (c i) b i') := fun i' => pub_eq hs (c i) (b i') f
    refine ⟨pubs D p v (c i) b, hB, ?_⟩
    have hc' : Counts p L (pubs D p v (c i) b i) (Spec.enc (Spec.A p.n p.g α)) := by
      refine hc _ ?_
      rw [server_ephemeral_eq _ p hs, beToNat_toBytesBE]; rfl
    set Bs := pubs D p v (c i) b with hBs
    set V := fun i' => answer (drawn D p f) p (toBytesBE (b i')) (v (c i)) with hV
    set A := tryOut D p L x α with hA
    set a := Spec.enc (Spec.A p.n p.g α) with ha
    have hi := i.2
    -- the three moves
    have h3 : ∀ (k : Nat) (h : List (Option Bytes)), h.length = 3 * i + k → k < 3 → ∃ e : h.length / 3 < n,
        (⟨h.length / 3, e⟩ : Fin n) = i ∧ h.length % 3 = k := by
      intro k h hl hk
      exact ⟨by omega, Fin.ext (by simp only; omega), by omega⟩
    have m0 : A Bs (run (drawn D p f) A Bs V (3 * i)).1 = .ask (uIn a (Bs i)) := by
      obtain ⟨e, e1, e2⟩ := h3 0 _ (length_run (drawn D p f) A Bs V (3 * i)) (by norm_num)
      rw [hA, tryOut, dif_pos (by rw [← hA]; exact e)]
      simp only [← hA, e1, e2]
      rw [if_pos hc']
    have r1 : (run (drawn D p f) A Bs V (3 * i + 1)).1 = (run (drawn D p f) A Bs V (3 * i)).1 ++
        [some ((drawn D p f).hash (uIn a (Bs i)))] := by rw [run, step, m0]
    have m1 : A Bs (run (drawn D p f) A Bs V (3 * i + 1)).1 = .ask (uIn a (Bs i) ++ Spec.enc (Spec.clientS D p.n p.g
        (beToNat (Bs i) : ZMod p.n) (x i) α (beToNat ((drawn D p f).hash (uIn a (Bs i)))))) := by
      obtain ⟨e, e1, e2⟩ := h3 1 _ (length_run (drawn D p f) A Bs V (3 * i + 1)) (by norm_num)
      have e3 : (run (drawn D p f) A Bs V (3 * i + 1)).1.getLast? = some (some ((drawn D p f).hash (uIn a (Bs i)))) := by
        rw [r1, List.getLast?_concat]
      rw [hA, tryOut, dif_pos (by rw [← hA]; exact e)]
      simp only [← hA, e1, e2, e3]
      rw [if_pos hc']
    have r2 : (run (drawn D p f) A Bs V (3 * i + 2)).1 = (run (drawn D p f) A Bs V (3 * i + 1)).1 ++ [some ((drawn D p f).hash
        (uIn a (Bs i) ++ Spec.enc (Spec.clientS D p.n p.g (beToNat (Bs i) : ZMod p.n) (x i) α
          (beToNat ((drawn D p f).hash (uIn a (Bs i)))))))] := by rw [run, step, m1]
    have m2 : A Bs (run (drawn D p f) A Bs V (3 * i + 2)).1 = .reply i a ((drawn D p f).hash
        (uIn a (Bs i) ++ Spec.enc (Spec.clientS D p.n p.g (beToNat (Bs i) : ZMod p.n) (x i) α
          (beToNat ((drawn D p f).hash (uIn a (Bs i))))))) := by
      obtain ⟨e, e1, e2⟩ := h3 2 _ (length_run (drawn D p f) A Bs V (3 * i + 2)) (by norm_num)
      have e3 := congrArg List.getLast? r2
      rw [List.getLast?_concat] at e3
      rw [hA, tryOut, dif_pos (by rw [← hA]; exact e)]
      simp only [← hA, e1, e2, e3]
      rw [if_pos hc']
    refine ⟨3 * i + 2, by omega, i, a, _, m2, ?_, ?_⟩
    · rw [mem_used]
      rintro ⟨s, hs', a', m', hm⟩
      have hl := length_run (drawn D p f) A Bs V s
      rw [hA, tryOut] at hm
      rw [← hA] at hm
      split at hm
      · simp only at hm
        split at hm
        · split at hm
          · simp at hm
          · simp at hm
          · rename_i e2 _
            rw [Move.reply.injEq] at hm
            have := congrArg Fin.val hm.1
            simp only [hl] at this e2
            omega
          · simp at hm
        · simp at hm
      · simp at hm
    · have hAz : (beToNat a : ZMod p.n) = Spec.A p.n p.g α := by rw [ha, enc_cast]
      refine (answer_ne_none hs (c i) (b i) f a _).2 ⟨?_, ?_⟩
      · rw [hAz, Spec.A]
        intro e
        exact hα ((ZMod.natCast_eq_zero_iff _ _).1 (by push_cast; exact e))
      · have hvx : vz p v (c i) = (p.g : ZMod p.n) ^ x i := by
          have := (ZMod.natCast_eq_natCast_iff _ _ _).2 (hx i)
          push_cast at this
          exact this
        have hBz : (beToNat (Bs i) : ZMod p.n) = Spec.B D p.n p.g ((p.g : ZMod p.n) ^ x i) (b i) := by
          rw [hBs, pubs, pub, enc_cast, hvx]
        rw [hBz, premaster_identity, key, hvx, hAz]
        rfl

/-- The hypotheses are met: in the group modulo 47 with `g = 5` and SHA-256, for three candidates and the replies of `C99_srp_attained`. -/
example : SafeGroup ⟨47, 5⟩ ∧ Spec.Sane 47 5 ∧ ¬ 47 ∣ Spec.k sha256 47 5 ∧ (∀ j : Fin 3, ¬ 47 ∣ beToNat (![[5], [25], [31]] j)) ∧
    (∀ j j' : Fin 3, beToNat (![[5], [25], [31]] j) ≡ beToNat (![[5], [25], [31]] j') [MOD 47] → j = j') ∧
    (∀ j : Fin 3, beToNat (![[5], [25], [31]] j) ≡ 5 ^ (j + 1 : ℕ) [MOD 47]) ∧ ¬ 47 ∣ 5 ^ 2 ∧
    ∀ B : Bytes, B.length = 1 → Counts ⟨47, 5⟩ 3 B (Spec.enc (Spec.A 47 5 2)) := by
  refine ⟨⟨by norm_num, by norm_num, (Groups.C11_safe_prime_generator 47 5 (by decide) (by decide) (by decide) (by decide)
    (by norm_num)).2⟩, by decide +kernel, by decide +kernel, by decide, by decide, by decide, by decide, fun B hB => ?_⟩
  have e : Spec.enc (Spec.A 47 5 2) = [25] := by decide +kernel
  rw [e]
  refine ⟨by decide, by decide, ?_, ?_⟩
  · have : toBytesBE (beToNat [25]) = [25] := by decide +kernel
    have h2 : (toBytesBE 47).length = 1 := by decide +kernel
    simp only [uIn, this, h2, List.length_append, hB]; decide
  · have : toBytesBE (beToNat [25]) = [25] := by decide +kernel
    have h3 : kIn ⟨47, 5⟩ = [47, 5] := by decide +kernel
    rw [uIn, this, h3]
    intro h
    rw [List.singleton_append, List.cons_prefix_cons] at h
    exact absurd h.1 (by decide)

end

end Verif.Srp.Guessing
