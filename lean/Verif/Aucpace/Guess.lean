import Verif.Basic.Guess
import Verif.Basic.Oracle
import Verif.Aucpace.Confirm

/-!
# C95: how often an attacker of AuCPace finds the right candidate

C94 counts the runs in which a session confirms a candidate. Here the attacker also sees the values of the hash function, is given the
whole state of each session after the public key was received, and in the end names the candidate it thinks is right. The hash that
turns a shared element into the first session key is drawn at random for the session ids of the sessions.
-/

set_option linter.unusedSectionVars false

namespace Verif.Aucpace
open Spec Confirm Guess

section
variable {G : Type} [AddCommGroup G] [Module Scalar G] [DecidableEq G] (R : Ristretto G) (D : Digest)

open Classical in
/-- The hash function `D` with the first session keys of the sessions replaced: that of session `s` for the element `k • base` is
`ρ (s, k)`. -/
noncomputable def drawnKeys {n : Nat} (ssid : Fin n → Bytes) (ρ : Fin n × Scalar → D.Out) : Digest :=
  D.program fun x =>
    if h : ∃ p : Fin n × Scalar, x = inp 2 (ssid p.1 ++ R.compress (p.2 • R.base)) then some (ρ h.choose) else none

/-- A step of the attacker: it asks for the first session key that belongs to a session id and an element, sends an element to a session,
or compares an element with the neutral one. -/
abbrev Step (n : Nat) (ι : Type) : Type :=
  Act n ((Fin n × ι) ⊕ Fin n) Scalar (Fin n × Coef ((Fin n × ι) ⊕ Fin n) Scalar) (Coef ((Fin n × ι) ⊕ Fin n) Scalar)

/-- What the attacker gets: the value of the hash, the answer to a comparison, or what the session returned for the element sent to
it, with the new state. -/
inductive Answer (G : Type) where
  | hash (b : Bytes)
  | equal (b : Bool)
  | client (st : Client.ExpMutAuth) (m : ClientMessage G)
  | server (st : Server.ExpMutAuth)
  | key (b : Bytes)
  | refused (e : Error)
  | panicked

/-- What a side with the private key `x` returns for the public key `Y` (aucpace/src/client.rs:783-871, aucpace/src/server.rs:552-630). -/
def returned (D : Digest) (k : Victim) (ssid : Bytes) (x : Scalar) (Y : G) : Answer G :=
  match k with
  | .client => match Client.receiveServerPubkey R D ⟨ssid, x⟩ Y with
    | .ok (st, m) => .client st m
    | .err e => .refused e
    | .panic => .panicked
  | .clientImplicit => match Client.implicitAuth R D ⟨ssid, x⟩ Y with
    | .ok b => .key b
    | .err e => .refused e
    | .panic => .panicked
  | .server => match Server.receiveClientPubkey R D ⟨ssid, x⟩ Y with
    | .ok st => .server st
    | .err e => .refused e
    | .panic => .panicked
  | .serverImplicit => match Server.implicitAuth R D ⟨ssid, x⟩ Y with
    | .ok b => .key b
    | .err e => .refused e
    | .panic => .panicked

/-- `k` steps of the attacker. A session takes one element; it is gone afterwards. -/
def historyKeys {n : Nat} {ι : Type} [Fintype ι] (D : Digest) (kind : Fin n → Victim) (ssid : Fin n → Bytes) (w : Unknown n ι)
    (A : List (Answer G) → Step n ι) : Nat → (Fin n → Bool) → List (Answer G) → List (Answer G)
  | 0, _, hist => hist
  | k + 1, gone, hist => match A hist with
    | .ask (s, c) => historyKeys D kind ssid w A k gone
        (hist ++ [.hash (D.hash (inp 2 (ssid s ++ R.compress (comb R.base (logs w) c))))])
    | .compare c => historyKeys D kind ssid w A k gone (hist ++ [.equal (decide (comb R.base (logs w) c = 0))])
    | .send s a =>
      if gone s then historyKeys D kind ssid w A k gone (hist ++ [.refused .illegalPointError])
      else historyKeys D kind ssid w A k (Function.update gone s true)
        (hist ++ [returned R D (kind s) (ssid s) (w.priv s) (comb R.base (logs w) a)])

variable {n : Nat} {ι : Type} [Fintype ι]

theorem hash_drawnKeys {ssid : Fin n → Bytes} (h1 : Function.Injective ssid) (h2 : ∀ s, (ssid s).length = 64)
    (ρ : Fin n × Scalar → D.Out) (s : Fin n) (k : Scalar) :
    (drawnKeys R D ssid ρ).hash (inp 2 (ssid s ++ R.compress (k • R.base))) = (ρ (s, k)).1 := by
  have h : ∃ p : Fin n × Scalar, inp 2 (ssid s ++ R.compress (k • R.base)) = inp 2 (ssid p.1 ++ R.compress (p.2 • R.base)) :=
    ⟨(s, k), rfl⟩
  have e : h.choose = (s, k) := by
    have := h.choose_spec
    rw [inp_inj] at this
    obtain ⟨e1, e2⟩ := List.append_inj this.2 (by rw [h2, h2])
    have e3 := smul_left_injective Scalar R.base_ne_zero (R.compress_injective e2)
    exact Prod.ext (h1 e1).symm e3.symm
  simp only [drawnKeys, Digest.program, dif_pos h]
  rw [e]

theorem hash_drawnKeys_other {ssid : Fin n → Bytes} (ρ : Fin n × Scalar → D.Out) {m : UInt8} {x : Bytes}
    (h : m ≠ 2) : (drawnKeys R D ssid ρ).hash (inp m x) = D.hash (inp m x) := by
  have h : ¬ ∃ p : Fin n × Scalar, inp m x = inp 2 (ssid p.1 ++ R.compress (p.2 • R.base)) := by
    rintro ⟨p, e⟩
    rw [inp_inj] at e
    exact h e.1
  simp only [drawnKeys, Digest.program, dif_neg h]

/-- How the answers follow from the first session key. -/
def shown (kind : Fin n → Victim) (ssid : Fin n → Bytes) : Step n ι → Reply D.Out → Answer G
  | .ask _, .value l => .hash l.1
  | .compare _, .equal b => .equal b
  | .send s _, .value l => match kind s with
    | .client => .client ⟨ssid s, l.1, ta D (ssid s) l.1⟩ (.authenticator (tb D (ssid s) l.1))
    | .clientImplicit => .key (sk D (ssid s) l.1)
    | .server => .server ⟨ssid s, l.1⟩
    | .serverImplicit => .key (sk D (ssid s) l.1)
  | _, _ => .refused .illegalPointError

theorem ta_drawn {ssid : Fin n → Bytes} (ρ : Fin n × Scalar → D.Out) (i b : Bytes) : ta (drawnKeys R D ssid ρ) i b = ta D i b :=
  hash_drawnKeys_other R D ρ (by decide)

theorem tb_drawn {ssid : Fin n → Bytes} (ρ : Fin n × Scalar → D.Out) (i b : Bytes) : tb (drawnKeys R D ssid ρ) i b = tb D i b :=
  hash_drawnKeys_other R D ρ (by decide)

theorem sk_drawn {ssid : Fin n → Bytes} (ρ : Fin n × Scalar → D.Out) (i b : Bytes) : sk (drawnKeys R D ssid ρ) i b = sk D i b :=
  hash_drawnKeys_other R D ρ (by decide)

/-- The point at which the hash function is asked: a session and a logarithm. -/
noncomputable def asked (w : ((Fin n × ι) ⊕ Fin n → Scalar) × ι) (q : Fin n × Coef ((Fin n × ι) ⊕ Fin n) Scalar) : Fin n × Scalar :=
  (q.1, val q.2 w.1)

/-- The logarithm of the shared element. -/
noncomputable def secret (w : ((Fin n × ι) ⊕ Fin n → Scalar) × ι) (s : Fin n) (a : Coef ((Fin n × ι) ⊕ Fin n) Scalar) :
    Option (Fin n × Scalar) :=
  if val a w.1 = 0 then none else some (s, w.1 (.inr s) * (w.1 (.inl (s, w.2)))⁻¹ * val a w.1)

theorem returned_eq (h64 : D.outLen = 64) {ssid : Fin n → Bytes} (h1 : Function.Injective ssid) (h2 : ∀ s, (ssid s).length = 64)
    (kind : Fin n → Victim) (ρ : Fin n × Scalar → D.Out) (w : Unknown n ι) (s : Fin n) (a : Coef ((Fin n × ι) ⊕ Fin n) Scalar) :
    returned R (drawnKeys R D ssid ρ) (kind s) (ssid s) (w.priv s) (comb R.base (logs w) a) =
      if val a (logs w) = 0 then .refused .illegalPointError
      else shown D kind ssid (.send s a) (.value (ρ (s, w.priv s * val a (logs w)))) := by
  have h0 : comb R.base (logs w) a = 0 ↔ val a (logs w) = 0 := by
    rw [comb_eq, smul_eq_zero]
    simp [R.base_ne_zero]
  have hk : Spec.sk1 R (drawnKeys R D ssid ρ) (ssid s) (w.priv s • comb R.base (logs w) a) = (ρ (s, w.priv s * val a (logs w))).1 := by
    rw [comb_eq, ← mul_smul]
    exact hash_drawnKeys R D h1 h2 ρ s _
  have h64' : (drawnKeys R D ssid ρ).outLen = 64 := h64
  by_cases ha : val a (logs w) = 0
  · rw [if_pos ha]
    have ha := h0.2 ha
    cases hs : kind s <;> simp only [returned]
    · rw [receiveServerPubkey_eq R _ h64', if_pos ha]
    · rw [client_implicitAuth_eq, if_pos ha]
    · rw [receiveClientPubkey_eq, if_pos ha]
    · rw [server_implicitAuth_eq, if_pos ha]
  · rw [if_neg ha]
    have ha := fun e => ha (h0.1 e)
    cases hs : kind s <;> simp only [returned, shown, hs]
    · rw [receiveServerPubkey_eq R _ h64', if_neg ha]
      simp only [hk, ta_drawn, tb_drawn]
    · rw [client_implicitAuth_eq, if_neg ha]
      simp only [hk, sk_drawn]
    · rw [receiveClientPubkey_eq, if_neg ha]
      simp only [hk]
    · rw [server_implicitAuth_eq, if_neg ha]
      simp only [hk, sk_drawn]

theorem historyKeys_eq (h64 : D.outLen = 64) {ssid : Fin n → Bytes} (h1 : Function.Injective ssid) (h2 : ∀ s, (ssid s).length = 64)
    (kind : Fin n → Victim) (ρ : Fin n × Scalar → D.Out) (w : Unknown n ι) (hw : ∀ s, w.gens s w.right ≠ 0)
    (A : List (Answer G) → Step n ι) (k : Nat) (gone : Fin n → Bool)
    (sent : Fin n → Option (Coef ((Fin n × ι) ⊕ Fin n) Scalar)) (hist : List (Answer G)) (hs : ∀ s, gone s = (sent s).isSome) :
    historyKeys R (drawnKeys R D ssid ρ) kind ssid w A k gone hist =
      (play (realI asked secret (logs w, w.right)) A (shown D kind ssid) k sent hist).eval ρ := by
  induction k generalizing gone sent hist with
  | zero => rfl
  | succ k ih =>
    cases hA : A hist with
    | ask q =>
      simp only [historyKeys, play, hA, Tree.eval, realI, asked]
      rw [comb_eq, hash_drawnKeys R D h1 h2]
      exact ih _ _ _ hs
    | compare c =>
      simp only [historyKeys, play, hA]
      have h0 : comb R.base (logs w) c = 0 ↔ val c (logs w) = 0 := by
        rw [comb_eq, smul_eq_zero]
        simp [R.base_ne_zero]
      have hd : decide (comb R.base (logs w) c = 0) = (realI asked secret (logs w, w.right) : Interp n _ _ _ _ _).zero c := by
        simp only [realI, decide_eq_decide]
        exact h0
      rw [ih _ _ _ hs, hd]
      rfl
    | send s a =>
      simp only [historyKeys, play, hA, hs s]
      by_cases hg : (sent s).isSome = true
      · rw [if_pos hg, if_pos hg]
        exact ih _ _ _ hs
      · rw [if_neg hg, if_neg hg, returned_eq R D h64 h1 h2]
        have hs' : ∀ s', Function.update gone s true s' = (Function.update sent s (some a) s').isSome := by
          intro s'
          by_cases e : s' = s
          · subst e; simp
          · rw [Function.update_of_ne e, Function.update_of_ne e, hs]
        by_cases ha : val a (logs w) = 0
        · simp only [realI, secret, ha, if_true]
          exact ih _ _ _ hs'
        · have e : logs w (.inr s) * (logs w (.inl (s, w.right)))⁻¹ = w.priv s := by
            show w.priv s * w.gens s w.right * (w.gens s w.right)⁻¹ = _
            rw [mul_assoc, mul_inv_cancel₀ (hw s), mul_one]
          simp only [realI, secret, ha, if_false, Tree.eval, e]
          exact ih _ _ _ hs'

open MvPolynomial in
theorem secret_hit {v : (Fin n × ι) ⊕ Fin n → Scalar} {j : ι} (hv : ∀ s, v (.inl (s, j)) ≠ 0) {s : Fin n}
    {a c : Coef ((Fin n × ι) ⊕ Fin n) Scalar} {s' : Fin n} (h : secret (v, j) s a = some (asked (v, j) (s', c))) :
    (a (some (.inl (s, j))) ≠ 0 ∧ ∀ o ≠ some (.inl (s, j)), a o = 0) ∨
      ((X (.inl (s, j)) * form c - X (.inr s) * form a : MvPolynomial ((Fin n × ι) ⊕ Fin n) Scalar) ≠ 0 ∧
        eval v (X (.inl (s, j)) * form c - X (.inr s) * form a) = 0) := by
  classical
  rw [secret] at h
  split at h
  · cases h
  rename_i ha
  have hE := (Prod.mk.inj (Option.some.inj h)).2
  simp only at hE ha
  by_cases hP : (X (.inl (s, j)) * form c - X (.inr s) * form a : MvPolynomial ((Fin n × ι) ⊕ Fin n) Scalar) = 0
  · left
    have hz := cross_ne_zero (by simp) hP
    refine ⟨fun h0 => ?_, hz⟩
    apply ha
    have hall : a = 0 := by
      funext o
      by_cases e : o = some (.inl (s, j))
      · rw [e]; exact h0
      · exact hz o e
    simp [hall, val]
  · right
    refine ⟨hP, ?_⟩
    have := hv s
    simp only [map_sub, map_mul, MvPolynomial.eval_X, eval_form]
    rw [← hE, sub_eq_zero]
    field_simp

open MvPolynomial in
/-- Points are the same only by an identity or where a polynomial vanishes. -/
noncomputable def laws : Laws (n := n) (ι := ι) asked secret (fun s a => .inr (s, a)) (fun _ a => a = 0)
    (fun s a => {j | a (some (.inl (s, j))) ≠ 0 ∧ ∀ o ≠ some (.inl (s, j)), a o = 0}) 1
    {u : ((Fin n × ι) ⊕ Fin n → Scalar) × ι | ∀ s, u.1 (.inl (s, u.2)) ≠ 0} where
  qq q q' := form (q.2 - q'.2)
  qs j s a q := X (.inl (s, j)) * form q.2 - X (.inr s) * form a
  ss _ s a _ a' := X (.inr s) * form (a - a')
  zz _ _ a := form a
  deg_qq _ _ := (form_degree _).trans (by norm_num)
  deg_qs j s a q := by
    refine (totalDegree_sub _ _).trans (max_le ?_ ?_) <;>
    · refine (totalDegree_mul _ _).trans ?_
      rw [totalDegree_X]
      have := form_degree a
      have := form_degree q.2
      omega
  deg_ss _ _ a _ a' := by
    refine (totalDegree_mul _ _).trans ?_
    rw [totalDegree_X]
    have := form_degree (a - a')
    omega
  deg_zz _ _ _ := (form_degree _).trans (by norm_num)
  triv_card := by
    intro s a
    rw [Set.ncard_le_one_iff]
    rintro i j ⟨hi, hi'⟩ ⟨hj, hj'⟩
    by_contra hne
    exact hi (hj' _ (by simpa using hne))
  ask_ask := by
    rintro ⟨v, j⟩ hw ⟨s, c⟩ ⟨s', c'⟩ hne h
    simp only [asked, Prod.mk.injEq] at h
    obtain ⟨rfl, h⟩ := h
    refine ⟨fun h0 => hne ?_, ?_⟩
    · have := form_eq_zero h0
      rw [sub_eq_zero] at this
      rw [show c = c' from this]
    · rw [eval_form, val_sub, h, sub_self]
  ask_send := by
    rintro ⟨v, j⟩ hv s a ⟨s', c⟩ - h
    exact secret_hit hv h
  send_send := by
    rintro ⟨v, j⟩ hv s a s' a' x hne h h'
    simp only [secret] at h h'
    split at h
    · cases h
    split at h'
    · cases h'
    rw [← h', Option.some.injEq, Prod.mk.injEq] at h
    obtain ⟨rfl, h⟩ := h
    refine ⟨?_, ?_⟩
    · refine mul_ne_zero (X_ne_zero _) fun h0 => hne ?_
      have := form_eq_zero h0
      rw [sub_eq_zero] at this
      rw [show a = a' from this]
    · have hh : v (.inl (s, j)) ≠ 0 := hv s
      simp only [map_mul, eval_X, eval_form, val_sub]
      have h := congrArg (fun z => z * v (.inl (s, j))) h
      simp only [mul_right_comm _ (v (.inl (s, j)))⁻¹, mul_inv_cancel_right₀ hh] at h
      rw [mul_sub, h, sub_self]
  same := by
    rintro w hw s a s' a' h
    rw [Sum.inr.injEq, Prod.mk.injEq] at h
    rw [h.1, h.2]
  opened := fun _ _ _ _ _ h => by cases h
  refuse := by
    rintro ⟨v, j⟩ hv s a
    by_cases h0 : a = 0
    · left
      simp [secret, h0, val]
    · by_cases h : val a v = 0
      · right
        exact ⟨fun hf => h0 (form_eq_zero hf), by rw [eval_form, h]⟩
      · left
        simp [secret, h0, h]

/-- **C95 (AuCPace).** The attacker runs `n` sessions with clients and servers under different session ids and knows the generators of
all candidates for the shared secret and the public keys of the other sides. It computes by adding multiples; it may compare results,
ask for the first session key that belongs to a result, and send one result to each session, which hands out everything: the state
with the first session key, the authenticators, the session key. After `T` steps it names a candidate. Of the logarithms of the
generators, the private keys, the candidates and the hash values it does not know, it is right for at most the share
`(n + 1) / |ι| + T (T + 1) / ell`. Where the generator of the right candidate is the neutral element, it is not counted as right. -/
theorem C95_aucpace (h64 : D.outLen = 64) (kind : Fin n → Victim) {ssid : Fin n → Bytes} (h1 : Function.Injective ssid)
    (h2 : ∀ s, (ssid s).length = 64) (A : List (Answer G) → Step n ι) (guess : List (Answer G) → ι)
    (T : Nat) :
    ell * {w : Unknown n ι × (Fin n × Scalar → D.Out) | (∀ s, w.1.gens s w.1.right ≠ 0) ∧
        guess (historyKeys R (drawnKeys R D ssid w.2) kind ssid w.1 A T (fun _ => false) []) = w.1.right}.ncard ≤
      ((n + 1) * ell + T * (T + 1) * Fintype.card ι) * ell ^ (n * Fintype.card ι + n) * (256 ^ 64) ^ (n * ell) := by
  classical
  have : Inhabited D.Out := ⟨⟨D.hash [], D.hash_length _⟩⟩
  have hL : Laws (n := n) asked secret (fun s a => .inr (s, a)) (fun _ a => a = 0)
      (fun s a => {j | a (some (.inl (s, j))) ≠ 0 ∧ ∀ o ≠ some (.inl (s, j)), a o = 0}) 1
      {u : ((Fin n × ι) ⊕ Fin n → Scalar) × ι | ∀ s, u.1 (.inl (s, u.2)) ≠ 0} := laws
  have hkey := card_guess (L := D.Out) asked secret _ _ _ A (shown D kind ssid) _ hL guess T
  have hcard : Fintype.card Scalar = ell := ZMod.card ell
  have hτ : Fintype.card ((Fin n × ι) ⊕ Fin n) = n * Fintype.card ι + n := by simp
  rw [hcard, hτ, Oracle.card_out, h64, Fintype.card_prod, Fintype.card_fin, hcard] at hkey
  refine le_trans (Nat.mul_le_mul_left _ ?_) hkey
  refine Set.ncard_le_ncard_of_injOn (fun w => ((logs w.1, w.1.right), w.2)) ?_ ?_ (Set.toFinite _)
  · rintro ⟨w, ρ⟩ ⟨hw, hg⟩
    refine ⟨hw, ?_⟩
    have e := historyKeys_eq R D h64 h1 h2 kind ρ w hw A T (fun _ => false) (fun _ => none) [] (fun _ => rfl)
    convert (congrArg guess e).symm.trans hg
  · rintro ⟨⟨g, x, j⟩, ρ⟩ ⟨hw, _⟩ ⟨⟨g', x', j'⟩, ρ'⟩ ⟨hw', _⟩ e
    simp only [Prod.mk.injEq] at e
    obtain ⟨⟨e, rfl⟩, rfl⟩ := e
    have hg : g = g' := by
      funext s i
      exact congrFun e (.inl (s, i))
    subst hg
    have hx : x = x' := by
      funext s
      have := congrFun e (.inr s)
      exact mul_right_cancel₀ (hw s) this
    rw [hx]

/-- An attacker that sends the generator of a candidate `g` to a client and then asks for the first session key of the public key of the
client is told twice the same if `g` is the right one. -/
theorem C95_aucpace_told (h64 : D.outLen = 64) [DecidableEq ι] (kind : Fin n → Victim) {ssid : Fin n → Bytes}
    (h1 : Function.Injective ssid) (h2 : ∀ s, (ssid s).length = 64) (s : Fin n) (hk : kind s = .client) (g : ι) (w : Unknown n ι)
    (hw : ∀ s, w.gens s w.right ≠ 0) (hg : w.right = g) (ρ : Fin n × Scalar → D.Out) :
    ∃ st m, historyKeys R (drawnKeys R D ssid ρ) kind ssid w
        (fun h => if h.length = 0 then .send s (pick (.inl (s, g))) else .ask (s, pick (.inr s))) 2 (fun _ => false) [] =
      [.client st m, .hash st.sk1] := by
  have e0 : val (pick (.inl (s, g))) (logs w) = w.gens s w.right := by
    have := comb_pick R (logs w) (.inl (s, g))
    rw [comb_eq] at this
    rw [smul_left_injective Scalar R.base_ne_zero this, hg]
    rfl
  have e1 := returned_eq R D h64 h1 h2 kind ρ w s (pick (.inl (s, g)))
  rw [e0, if_neg (hw s)] at e1
  simp only [shown, hk] at e1
  generalize hl : ρ (s, w.priv s * w.gens s w.right) = l at e1
  refine ⟨⟨ssid s, l.1, ta D (ssid s) l.1⟩, .authenticator (tb D (ssid s) l.1), ?_⟩
  simp only [historyKeys, List.length_nil, if_true, Bool.false_eq_true, if_false, hk, e1, List.nil_append, List.length_singleton,
    one_ne_zero, List.singleton_append]
  rw [comb_pick, hash_drawnKeys R D h1 h2]
  have : logs w (.inr s) = w.priv s * w.gens s w.right := rfl
  rw [this, hl]

/-- Two session ids as `C95_aucpace` wants them. -/
example : Function.Injective ![List.replicate 64 (0 : UInt8), List.replicate 64 1] ∧
    ∀ s, (![List.replicate 64 (0 : UInt8), List.replicate 64 1] s).length = 64 := by
  constructor
  · intro i j
    fin_cases i <;> fin_cases j <;> simp
  · intro s
    fin_cases s <;> simp

end
end Verif.Aucpace
