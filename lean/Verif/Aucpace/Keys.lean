import Verif.Aucpace.Guess

/-!
# C97: AuCPace keys look random, even to those who know the passwords

The AuCPace part of `Spake2.Keys`. Clients and servers may run under the same session id, so that the attacker can pass on their messages.
It is given the generators of all sessions, as somebody who knows the passwords is. The keys are compared with those of sessions that use a
hash function of their own, except for the sessions to which the attacker has sent a multiple of the generator. C96 shows that keys do
not depend on the public keys otherwise than by the shared element; so here the ideal keys are a function of this element.
-/

set_option linter.unusedSectionVars false

namespace Verif.Aucpace.Keys
open Spec Confirm Guess MvPolynomial

variable {G : Type} [AddCommGroup G] [Module Scalar G] [DecidableEq G] (R : Ristretto G) (D : Digest) {m n : Nat}

/-- A step of the attacker: it asks for the first session key that belongs to a session id and an element, sends an element to a session,
or compares an element with the neutral one. The elements are made from the generators and the public keys of the sessions. -/
abbrev Step (m n : Nat) : Type :=
  Act n (Fin m ⊕ Fin n) Scalar (Fin m × Coef (Fin m ⊕ Fin n) Scalar) (Coef (Fin m ⊕ Fin n) Scalar)

/-- What is not known to the attacker: the logarithms of the generators that belong to the session ids, and the private keys of the
sessions. -/
structure World (m n : Nat) where
  gens : Fin m → Scalar
  priv : Fin n → Scalar

/-- The logarithms of the generators and of the public keys; session `s` has the session id `id s`. -/
def logs (id : Fin n → Fin m) (w : World m n) : Fin m ⊕ Fin n → Scalar
  | .inl i => w.gens i
  | .inr s => w.priv s * w.gens (id s)

/-- `k` steps of the attacker, with the hash function `hash` and the answers `reply` of the sessions. A session takes one element; it is
gone afterwards. -/
def history (ssid : Fin m → Bytes) (v : Fin m ⊕ Fin n → Scalar) (hash : Bytes → Bytes)
    (reply : Fin n → Coef (Fin m ⊕ Fin n) Scalar → Answer G) (A : List (Answer G) → Step m n) :
    Nat → (Fin n → Bool) → List (Answer G) → List (Answer G)
  | 0, _, hist => hist
  | k + 1, gone, hist => match A hist with
    | .ask (i, c) => history ssid v hash reply A k gone (hist ++ [.hash (hash (inp 2 (ssid i ++ R.compress (comb R.base v c))))])
    | .compare c => history ssid v hash reply A k gone (hist ++ [.equal (decide (comb R.base v c = 0))])
    | .send s a =>
      if gone s then history ssid v hash reply A k gone (hist ++ [.refused .illegalPointError])
      else history ssid v hash reply A k (Function.update gone s true) (hist ++ [reply s a])

/-- The real answers: what the session returns (`returned`). -/
def realReply (D : Digest) (kind : Fin n → Victim) (id : Fin n → Fin m) (ssid : Fin m → Bytes) (w : World m n) (s : Fin n)
    (a : Coef (Fin m ⊕ Fin n) Scalar) : Answer G :=
  returned R D (kind s) (ssid (id s)) (w.priv s) (comb R.base (logs id w) a)

/-- The element is a multiple of the generator of the session, by a known factor. -/
def Made (id : Fin n → Fin m) (s : Fin n) (a : Coef (Fin m ⊕ Fin n) Scalar) : Prop := ∀ o ≠ some (.inl (id s)), a o = 0

open Classical in
/-- The ideal answers: the session uses the hash values `κ` and the attacker others, `ρ`, unless the session was sent a multiple of its
generator. -/
noncomputable def idealReply (kind : Fin n → Victim) (id : Fin n → Fin m) (ssid : Fin m → Bytes) (w : World m n)
    (ρ κ : Fin m × Scalar → D.Out) (s : Fin n) (a : Coef (Fin m ⊕ Fin n) Scalar) : Answer G :=
  if Made id s a then realReply R (drawnKeys R D ssid ρ) kind id ssid w s a
  else realReply R (drawnKeys R D ssid κ) kind id ssid w s a

/-- What a session gives away, by its first session key. -/
def told (k : Victim) (ssid : Bytes) (l : Bytes) : Answer G :=
  match k with
  | .client => .client ⟨ssid, l, ta D ssid l⟩ (.authenticator (tb D ssid l))
  | .clientImplicit => .key (sk D ssid l)
  | .server => .server ⟨ssid, l⟩
  | .serverImplicit => .key (sk D ssid l)

variable {D} in
theorem returned_told (h64 : D.outLen = 64) {ssid : Fin m → Bytes} (h1 : Function.Injective ssid) (h2 : ∀ i, (ssid i).length = 64)
    (k : Victim) (ρ : Fin m × Scalar → D.Out) (i : Fin m) (x : Scalar) (v : Fin m ⊕ Fin n → Scalar)
    (a : Coef (Fin m ⊕ Fin n) Scalar) :
    returned R (drawnKeys R D ssid ρ) k (ssid i) x (comb R.base v a) =
      if val a v = 0 then .refused .illegalPointError else told D k (ssid i) (ρ (i, x * val a v)).1 := by
  have h0 : comb R.base v a = 0 ↔ val a v = 0 := by
    rw [comb_eq, smul_eq_zero]
    simp [R.base_ne_zero]
  have hk : Spec.sk1 R (drawnKeys R D ssid ρ) (ssid i) (x • comb R.base v a) = (ρ (i, x * val a v)).1 := by
    rw [comb_eq, ← mul_smul]
    exact hash_drawnKeys R D h1 h2 ρ i _
  have h64' : (drawnKeys R D ssid ρ).outLen = 64 := h64
  by_cases ha : val a v = 0
  · rw [if_pos ha]
    have ha := h0.2 ha
    cases k <;> simp only [returned]
    · rw [receiveServerPubkey_eq R _ h64', if_pos ha]
    · rw [client_implicitAuth_eq, if_pos ha]
    · rw [receiveClientPubkey_eq, if_pos ha]
    · rw [server_implicitAuth_eq, if_pos ha]
  · rw [if_neg ha]
    have ha := fun e => ha (h0.1 e)
    cases k <;> simp only [returned, told]
    · rw [receiveServerPubkey_eq R _ h64', if_neg ha]
      simp only [hk, ta_drawn, tb_drawn]
    · rw [client_implicitAuth_eq, if_neg ha]
      simp only [hk, sk_drawn]
    · rw [receiveClientPubkey_eq, if_neg ha]
      simp only [hk]
    · rw [server_implicitAuth_eq, if_neg ha]
      simp only [hk, sk_drawn]

section
variable (id : Fin n → Fin m)

/-- The point at which the hash function is asked. -/
noncomputable def asked (w : (Fin m ⊕ Fin n → Scalar) × Unit) (q : Fin m × Coef (Fin m ⊕ Fin n) Scalar) : Fin m × Scalar :=
  (q.1, val q.2 w.1)

/-- The logarithm of the shared element. -/
noncomputable def secret (w : (Fin m ⊕ Fin n → Scalar) × Unit) (s : Fin n) (a : Coef (Fin m ⊕ Fin n) Scalar) :
    Option (Fin m × Scalar) :=
  if val a w.1 = 0 then none else some (id s, w.1 (.inr s) * (w.1 (.inl (id s)))⁻¹ * val a w.1)

open Classical in
/-- The same in the ideal game. -/
noncomputable def secretIdeal (w : (Fin m ⊕ Fin n → Scalar) × Unit) (s : Fin n) (a : Coef (Fin m ⊕ Fin n) Scalar) :
    Option (Fin m × Scalar ⊕ Fin m × Scalar) :=
  (secret id w s a).map fun x => if Made id s a then .inl x else .inr x

/-- The shared element of a session that was sent a multiple of its generator: a multiple of its public key. -/
def computed (s : Fin n) (a : Coef (Fin m ⊕ Fin n) Scalar) : Coef (Fin m ⊕ Fin n) Scalar := fun o =>
  if o = some (.inr s) then a (some (.inl (id s))) else 0

open Classical in
/-- Which secrets are the same in any case. -/
noncomputable def cls (s : Fin n) (a : Coef (Fin m ⊕ Fin n) Scalar) :
    (Fin m × Coef (Fin m ⊕ Fin n) Scalar) ⊕ Option (Fin m × MvPolynomial (Fin m ⊕ Fin n) Scalar) :=
  if a = 0 then .inr none
  else if Made id s a then .inl (id s, computed id s a) else .inr (some (id s, X (.inr s) * form a))

theorem val_computed (s : Fin n) (a : Coef (Fin m ⊕ Fin n) Scalar) (v : Fin m ⊕ Fin n → Scalar) :
    val (computed id s a) v = a (some (.inl (id s))) * v (.inr s) := by
  simp [val, computed]

theorem val_made {s : Fin n} {a : Coef (Fin m ⊕ Fin n) Scalar} (h : Made id s a) (v : Fin m ⊕ Fin n → Scalar) :
    val a v = a (some (.inl (id s))) * v (.inl (id s)) := by
  rw [val, h none (by simp), zero_add]
  refine Finset.sum_eq_single (Sum.inl (id s)) (fun i _ hi => ?_) (by simp)
  rw [h (some i) (by simpa using hi), zero_mul]

theorem form_made {s : Fin n} {a : Coef (Fin m ⊕ Fin n) Scalar} (h : Made id s a) :
    form a = C (a (some (.inl (id s)))) * X (.inl (id s)) := by
  rw [form, h none (by simp), map_zero, zero_add]
  refine Finset.sum_eq_single (Sum.inl (id s)) (fun i _ hi => ?_) (by simp)
  rw [h (some i) (by simpa using hi), map_zero, zero_mul]

theorem form_computed (s : Fin n) (a : Coef (Fin m ⊕ Fin n) Scalar) :
    form (computed id s a) = C (a (some (.inl (id s)))) * X (.inr s) := by
  rw [form, computed, if_neg (by simp), map_zero, zero_add]
  refine (Finset.sum_eq_single (Sum.inr s) (fun i _ hi => ?_) (by simp)).trans ?_
  · rw [computed, if_neg (by simpa using hi), map_zero, zero_mul]
  · rw [computed, if_pos rfl]

theorem form_diff (c c' : Coef (Fin m ⊕ Fin n) Scalar) : form (c - c') = form c - form c' := by
  simp only [form, Pi.sub_apply, map_sub, sub_mul, Finset.sum_sub_distrib]
  ring

theorem made_ne {s : Fin n} {a : Coef (Fin m ⊕ Fin n) Scalar} (h : Made id s a) (h0 : a ≠ 0) : a (some (.inl (id s))) ≠ 0 := by
  intro he
  apply h0
  funext o
  by_cases e : o = some (.inl (id s))
  · rw [e]; exact he
  · exact h o e

/-- A polynomial for a question and what a session is sent, -/
noncomputable def sendDif (s : Fin n) (a : Coef (Fin m ⊕ Fin n) Scalar) (q : Fin m × Coef (Fin m ⊕ Fin n) Scalar) :
    MvPolynomial (Fin m ⊕ Fin n) Scalar :=
  X (.inl (id s)) * form q.2 - X (.inr s) * form a

open Classical in
/-- and for what two sessions are sent. -/
noncomputable def pairDif (s : Fin n) (a : Coef (Fin m ⊕ Fin n) Scalar) (s' : Fin n) (a' : Coef (Fin m ⊕ Fin n) Scalar) :
    MvPolynomial (Fin m ⊕ Fin n) Scalar :=
  if Made id s a then sendDif id s' a' (id s, computed id s a)
  else if Made id s' a' then sendDif id s a (id s', computed id s' a')
  else X (.inr s) * form a - X (.inr s') * form a'

theorem mul_degree (i : Fin m ⊕ Fin n) (a : Coef (Fin m ⊕ Fin n) Scalar) :
    (X i * form a : MvPolynomial (Fin m ⊕ Fin n) Scalar).totalDegree ≤ 2 := by
  refine (totalDegree_mul _ _).trans ?_
  rw [totalDegree_X]
  have := form_degree a
  omega

theorem sendDif_degree (s : Fin n) (a : Coef (Fin m ⊕ Fin n) Scalar) (q : Fin m × Coef (Fin m ⊕ Fin n) Scalar) :
    (sendDif id s a q).totalDegree ≤ 2 :=
  (totalDegree_sub _ _).trans (max_le (mul_degree _ _) (mul_degree _ _))

theorem pairDif_degree (s : Fin n) (a : Coef (Fin m ⊕ Fin n) Scalar) (s' : Fin n) (a' : Coef (Fin m ⊕ Fin n) Scalar) :
    (pairDif id s a s' a').totalDegree ≤ 2 := by
  unfold pairDif
  split
  · exact sendDif_degree _ _ _ _
  · split
    · exact sendDif_degree _ _ _ _
    · exact (totalDegree_sub _ _).trans (max_le (mul_degree _ _) (mul_degree _ _))

variable {id}

/-- The elements with the logarithms `v` are not neutral. -/
def Proper (w : (Fin m ⊕ Fin n → Scalar) × Unit) : Prop := ∀ i, w.1 i ≠ 0

theorem secret_some {w : (Fin m ⊕ Fin n → Scalar) × Unit} {s : Fin n} {a : Coef (Fin m ⊕ Fin n) Scalar} {x : Fin m × Scalar}
    (h : secret id w s a = some x) : a ≠ 0 ∧ val a w.1 ≠ 0 ∧ x = (id s, w.1 (.inr s) * (w.1 (.inl (id s)))⁻¹ * val a w.1) := by
  unfold secret at h
  split at h
  · cases h
  · rename_i h0
    refine ⟨?_, h0, (Option.some.inj h).symm⟩
    rintro rfl
    exact h0 (by simp [val])

theorem opened {w : (Fin m ⊕ Fin n → Scalar) × Unit} (hw : Proper w) {s : Fin n} {a : Coef (Fin m ⊕ Fin n) Scalar}
    (h : Made id s a) (h0 : a ≠ 0) : secret id w s a = some (asked w (id s, computed id s a)) := by
  have hv : val a w.1 ≠ 0 := by
    rw [val_made id h]
    exact mul_ne_zero (made_ne id h h0) (hw _)
  rw [secret, if_neg hv, asked, val_computed, val_made id h]
  have := hw (.inl (id s))
  congr 2
  field_simp

theorem sendDif_hit {w : (Fin m ⊕ Fin n → Scalar) × Unit} (hw : Proper w) {s : Fin n} {a : Coef (Fin m ⊕ Fin n) Scalar}
    {q : Fin m × Coef (Fin m ⊕ Fin n) Scalar} (hne : cls id s a ≠ .inl q) (h : secret id w s a = some (asked w q)) :
    sendDif id s a q ≠ 0 ∧ eval w.1 (sendDif id s a q) = 0 := by
  obtain ⟨h0, hv, hx⟩ := secret_some h
  obtain ⟨i, c⟩ := q
  simp only [asked, Prod.mk.injEq] at hx
  obtain ⟨rfl, hx⟩ := hx
  constructor
  · intro hz
    have hm : Made id s a := cross_ne_zero (by simp) hz
    rw [cls, if_neg h0, if_pos hm] at hne
    apply hne
    have hf : (X (.inl (id s)) * form (c - computed id s a) : MvPolynomial (Fin m ⊕ Fin n) Scalar) = 0 := by
      rw [sendDif, form_made id hm] at hz
      rw [form_diff, mul_sub, form_computed, ← hz]
      ring
    have hc := form_eq_zero ((mul_eq_zero.1 hf).resolve_left (X_ne_zero _))
    rw [sub_eq_zero.1 hc]
  · have := hw (.inl (id s))
    simp only [sendDif, map_sub, map_mul, eval_X, eval_form]
    rw [hx, ← mul_assoc, mul_left_comm, mul_inv_cancel₀ this, mul_one, sub_self]

theorem pairDif_hit {w : (Fin m ⊕ Fin n → Scalar) × Unit} (hw : Proper w) {s s' : Fin n} {a a' : Coef (Fin m ⊕ Fin n) Scalar}
    {x : Fin m × Scalar} (hne : cls id s a ≠ cls id s' a') (h : secret id w s a = some x) (h' : secret id w s' a' = some x) :
    pairDif id s a s' a' ≠ 0 ∧ eval w.1 (pairDif id s a s' a') = 0 := by
  obtain ⟨h0, hv, hx⟩ := secret_some h
  obtain ⟨h0', hv', hx'⟩ := secret_some h'
  unfold pairDif
  by_cases hm : Made id s a
  · rw [if_pos hm]
    rw [opened hw hm h0] at h
    rw [cls, if_neg h0, if_pos hm] at hne
    exact sendDif_hit hw hne.symm (h'.trans h.symm)
  · rw [if_neg hm]
    by_cases hm' : Made id s' a'
    · rw [if_pos hm']
      rw [opened hw hm' h0'] at h'
      rw [cls, cls, if_neg h0', if_pos hm', ← cls] at hne
      exact sendDif_hit hw hne (h.trans h'.symm)
    · rw [if_neg hm']
      rw [cls, cls, if_neg h0, if_neg hm, if_neg h0', if_neg hm'] at hne
      rw [hx, Prod.mk.injEq] at hx'
      obtain ⟨hi, hx'⟩ := hx'
      refine ⟨fun hz => hne ?_, ?_⟩
      · rw [hi, sub_eq_zero.1 hz]
      · rw [hi] at hx'
        have := hw (.inl (id s'))
        simp only [map_sub, map_mul, eval_X, eval_form]
        field_simp at hx'
        rw [hx', sub_self]

theorem same {w : (Fin m ⊕ Fin n → Scalar) × Unit} (hw : Proper w) {s s' : Fin n} {a a' : Coef (Fin m ⊕ Fin n) Scalar}
    (h : cls id s a = cls id s' a') : secret id w s a = secret id w s' a' ∧ (a ≠ 0 → a' ≠ 0 → (Made id s a ↔ Made id s' a')) := by
  by_cases h0 : a = 0
  · by_cases h0' : a' = 0
    · subst h0
      subst h0'
      simp [secret, val]
    · rw [cls, cls, if_pos h0, if_neg h0'] at h
      split at h <;> cases h
  · by_cases h0' : a' = 0
    · rw [cls, cls, if_neg h0, if_pos h0'] at h
      split at h <;> cases h
    · rw [cls, cls, if_neg h0, if_neg h0'] at h
      by_cases hm : Made id s a
      · by_cases hm' : Made id s' a'
        · rw [if_pos hm, if_pos hm', Sum.inl.injEq] at h
          exact ⟨by rw [opened hw hm h0, opened hw hm' h0', h], fun _ _ => iff_of_true hm hm'⟩
        · rw [if_pos hm, if_neg hm'] at h
          cases h
      · by_cases hm' : Made id s' a'
        · rw [if_neg hm, if_pos hm'] at h
          cases h
        · rw [if_neg hm, if_neg hm', Sum.inr.injEq, Option.some.injEq, Prod.mk.injEq] at h
          refine ⟨?_, fun _ _ => iff_of_false hm hm'⟩
          obtain ⟨hi, hp⟩ := h
          have he := congrArg (eval w.1) hp
          simp only [map_mul, eval_X, eval_form] at he
          have hz : val a w.1 = 0 ↔ val a' w.1 = 0 := by
            constructor
            · intro hz
              rw [hz, mul_zero] at he
              exact (mul_eq_zero.1 he.symm).resolve_left (hw _)
            · intro hz
              rw [hz, mul_zero] at he
              exact (mul_eq_zero.1 he).resolve_left (hw _)
          unfold secret
          simp only [hz, hi]
          split
          · rfl
          · rw [mul_right_comm, he, mul_right_comm]

variable (id)

theorem refused (w : (Fin m ⊕ Fin n → Scalar) × Unit) (s : Fin n) (a : Coef (Fin m ⊕ Fin n) Scalar) :
    (secret id w s a = none ↔ a = 0) ∨ (form a ≠ 0 ∧ eval w.1 (form a) = 0) := by
  by_cases h0 : a = 0
  · left
    simp [secret, h0, val]
  · by_cases h : val a w.1 = 0
    · right
      exact ⟨fun hf => h0 (form_eq_zero hf), by rw [eval_form, h]⟩
    · left
      simp [secret, h0, h]

theorem ask_ask {w : (Fin m ⊕ Fin n → Scalar) × Unit} {q q' : Fin m × Coef (Fin m ⊕ Fin n) Scalar} (hne : q ≠ q')
    (h : asked w q = asked w q') : form (q.2 - q'.2) ≠ 0 ∧ eval w.1 (form (q.2 - q'.2)) = 0 := by
  obtain ⟨i, c⟩ := q
  obtain ⟨i', c'⟩ := q'
  simp only [asked, Prod.mk.injEq] at h
  obtain ⟨rfl, h⟩ := h
  refine ⟨fun h0 => hne ?_, ?_⟩
  · have := form_eq_zero h0
    rw [sub_eq_zero] at this
    rw [show c = c' from this]
  · rw [eval_form, val_sub, h, sub_self]

theorem cls_inl {s : Fin n} {a : Coef (Fin m ⊕ Fin n) Scalar} {q : Fin m × Coef (Fin m ⊕ Fin n) Scalar} (h : cls id s a = .inl q) :
    a ≠ 0 ∧ Made id s a ∧ q = (id s, computed id s a) := by
  unfold cls at h
  split at h
  · cases h
  · split at h
    · rename_i h0 hm
      exact ⟨h0, hm, (Sum.inl.inj h).symm⟩
    · cases h

/-- Points of the real game are the same only by an identity or where a polynomial vanishes, -/
noncomputable def laws : Laws asked (secret id) (cls id) (fun _ a => a = 0) (fun _ _ => ∅) 0 {w | Proper w} where
  qq q q' := form (q.2 - q'.2)
  qs _ := sendDif id
  ss _ := pairDif id
  zz _ _ a := form a
  deg_qq _ _ := (form_degree _).trans (by norm_num)
  deg_qs _ := sendDif_degree id
  deg_ss _ := pairDif_degree id
  deg_zz _ _ _ := (form_degree _).trans (by norm_num)
  triv_card := by simp
  ask_ask w _ q q' hne h := ask_ask hne h
  ask_send w hw s a q hne h := Or.inr (sendDif_hit hw hne h)
  send_send w hw s a s' a' x hne h h' := pairDif_hit hw hne h h'
  same w hw s a s' a' h := (same hw h).1
  opened := by
    intro w hw s a q h
    obtain ⟨h0, hm, rfl⟩ := cls_inl id h
    exact opened hw hm h0
  refuse w _ s a := refused id w s a

theorem secretIdeal_inl {w : (Fin m ⊕ Fin n → Scalar) × Unit} {s : Fin n} {a : Coef (Fin m ⊕ Fin n) Scalar} {x : Fin m × Scalar}
    (h : secretIdeal id w s a = some (.inl x)) : secret id w s a = some x := by
  simp only [secretIdeal, Option.map_eq_some_iff] at h
  obtain ⟨y, hy, h⟩ := h
  split at h
  · rw [hy, Sum.inl.inj h]
  · cases h

theorem secretIdeal_inr {w : (Fin m ⊕ Fin n → Scalar) × Unit} {s : Fin n} {a : Coef (Fin m ⊕ Fin n) Scalar} {x : Fin m × Scalar}
    (h : secretIdeal id w s a = some (.inr x)) : secret id w s a = some x := by
  simp only [secretIdeal, Option.map_eq_some_iff] at h
  obtain ⟨y, hy, h⟩ := h
  split at h
  · cases h
  · rw [hy, Sum.inr.inj h]

/-- and so are points of the ideal game. -/
noncomputable def lawsIdeal : Laws (fun w q => Sum.inl (asked w q)) (secretIdeal id) (cls id) (fun _ a => a = 0) (fun _ _ => ∅) 0
    {w | Proper w} where
  qq q q' := form (q.2 - q'.2)
  qs _ := sendDif id
  ss _ := pairDif id
  zz _ _ a := form a
  deg_qq _ _ := (form_degree _).trans (by norm_num)
  deg_qs _ := sendDif_degree id
  deg_ss _ := pairDif_degree id
  deg_zz _ _ _ := (form_degree _).trans (by norm_num)
  triv_card := by simp
  ask_ask w _ q q' hne h := ask_ask hne (Sum.inl.inj h)
  ask_send w hw s a q hne h := Or.inr (sendDif_hit hw hne (secretIdeal_inl id h))
  send_send := by
    rintro w hw s a s' a' (x | x) hne h h'
    · exact pairDif_hit hw hne (secretIdeal_inl id h) (secretIdeal_inl id h')
    · exact pairDif_hit hw hne (secretIdeal_inr id h) (secretIdeal_inr id h')
  same := by
    intro w hw s a s' a' h
    obtain ⟨h1, h2⟩ := same hw h
    unfold secretIdeal
    rw [h1]
    cases hs : secret id w s' a' with
    | none => rfl
    | some x =>
      have e := h2 (secret_some (h1.trans hs)).1 (secret_some hs).1
      by_cases hm : Made id s a
      · simp only [Option.map_some, if_pos hm, if_pos (e.1 hm)]
      · simp only [Option.map_some, if_neg hm, if_neg fun h => hm (e.2 h)]
  opened := by
    intro w hw s a q h
    obtain ⟨h0, hm, rfl⟩ := cls_inl id h
    simp only [secretIdeal, opened hw hm h0, Option.map_some, if_pos hm]
  refuse w _ s a := by
    have h : secretIdeal id w s a = none ↔ secret id w s a = none := by simp only [secretIdeal, Option.map_eq_none_iff]
    exact (refused id w s a).imp_left h.trans

/-- How the answers follow from the first session key. -/
def shown (kind : Fin n → Victim) (ssid : Fin m → Bytes) : Step m n → Reply D.Out → Answer G
  | .ask _, .value l => .hash l.1
  | .compare _, .equal b => .equal b
  | .send s _, .value l => told D (kind s) (ssid (id s)) l.1
  | _, _ => .refused .illegalPointError

variable {D}

theorem history_eq {Y : Type} {pt : (Fin m ⊕ Fin n → Scalar) × Unit → Fin m × Coef (Fin m ⊕ Fin n) Scalar → Y}
    {sec : (Fin m ⊕ Fin n → Scalar) × Unit → Fin n → Coef (Fin m ⊕ Fin n) Scalar → Option Y}
    {ρ : Y → D.Out} {v : Fin m ⊕ Fin n → Scalar} {hash : Bytes → Bytes} {kind : Fin n → Victim} {ssid : Fin m → Bytes}
    {reply : Fin n → Coef (Fin m ⊕ Fin n) Scalar → Answer G}
    (hh : ∀ i c, hash (inp 2 (ssid i ++ R.compress (comb R.base v c))) = (ρ (pt (v, ()) (i, c))).1)
    (hr : ∀ s a, reply s a = match sec (v, ()) s a with
      | some x => told D (kind s) (ssid (id s)) (ρ x).1
      | none => .refused .illegalPointError)
    (A : List (Answer G) → Step m n) (k : Nat) (gone : Fin n → Bool) (sent : Fin n → Option (Coef (Fin m ⊕ Fin n) Scalar))
    (hist : List (Answer G)) (hs : ∀ s, gone s = (sent s).isSome) :
    history R ssid v hash reply A k gone hist = (play (realI pt sec (v, ())) A (shown D id kind ssid) k sent hist).eval ρ := by
  induction k generalizing gone sent hist with
  | zero => rfl
  | succ k ih =>
    cases hc : A hist with
    | ask q =>
      simp only [history, play, hc, Tree.eval, realI]
      rw [hh]
      exact ih _ _ _ hs
    | compare c =>
      simp only [history, play, hc]
      have h0 : comb R.base v c = 0 ↔ val c v = 0 := by
        rw [comb_eq, smul_eq_zero]
        simp [R.base_ne_zero]
      have hd : decide (comb R.base v c = 0) = (realI pt sec (v, ()) : Interp n _ _ _ _ _).zero c := by
        simp only [realI, decide_eq_decide]
        exact h0
      rw [ih _ _ _ hs, hd]
      rfl
    | send s a =>
      simp only [history, play, hc, hs s]
      by_cases hg : (sent s).isSome = true
      · rw [if_pos hg, if_pos hg]
        exact ih _ _ _ hs
      · have hs' : ∀ s', Function.update gone s true s' = (Function.update sent s (some a) s').isSome := by
          intro s'
          by_cases he : s' = s
          · subst he; simp
          · rw [Function.update_of_ne he, Function.update_of_ne he, hs]
        rw [if_neg hg, if_neg hg, hr]
        cases hx : sec (v, ()) s a with
        | none =>
          simp only [realI, hx]
          exact ih _ _ _ hs'
        | some x =>
          simp only [realI, hx, Tree.eval]
          exact ih _ _ _ hs'

variable {R id}

theorem realReply_eq (h64 : D.outLen = 64) {ssid : Fin m → Bytes} (h1 : Function.Injective ssid) (h2 : ∀ i, (ssid i).length = 64)
    (kind : Fin n → Victim) (w : World m n) (hw : ∀ i, w.gens i ≠ 0) (ρ : Fin m × Scalar → D.Out) (s : Fin n)
    (a : Coef (Fin m ⊕ Fin n) Scalar) :
    realReply R (drawnKeys R D ssid ρ) kind id ssid w s a = match secret id (logs id w, ()) s a with
      | some x => told D (kind s) (ssid (id s)) (ρ x).1
      | none => .refused .illegalPointError := by
  have e : logs id w (.inr s) * (logs id w (.inl (id s)))⁻¹ = w.priv s := by
    show w.priv s * w.gens (id s) * (w.gens (id s))⁻¹ = _
    rw [mul_assoc, mul_inv_cancel₀ (hw _), mul_one]
  rw [realReply, returned_told R h64 h1 h2]
  unfold secret
  by_cases h0 : val a (logs id w) = 0
  · simp only [h0, if_true]
  · simp only [h0, if_false, e]

theorem idealReply_eq (h64 : D.outLen = 64) {ssid : Fin m → Bytes} (h1 : Function.Injective ssid) (h2 : ∀ i, (ssid i).length = 64)
    (kind : Fin n → Victim) (w : World m n) (hw : ∀ i, w.gens i ≠ 0) (ρ κ : Fin m × Scalar → D.Out) (s : Fin n)
    (a : Coef (Fin m ⊕ Fin n) Scalar) :
    idealReply R D kind id ssid w ρ κ s a = match secretIdeal id (logs id w, ()) s a with
      | some x => told D (kind s) (ssid (id s)) (Sum.elim ρ κ x).1
      | none => .refused .illegalPointError := by
  unfold idealReply secretIdeal
  split
  · rename_i hm
    rw [realReply_eq h64 h1 h2 kind w hw]
    cases secret id (logs id w, ()) s a <;> simp
  · rename_i hm
    rw [realReply_eq h64 h1 h2 kind w hw]
    cases secret id (logs id w, ()) s a <;> simp

/-- `x`, but 1 in place of 0. -/
def unzero (x : Scalar) : Scalar := if x = 0 then 1 else x

theorem unzero_ne (x : Scalar) : unzero x ≠ 0 := by
  unfold unzero
  split
  · exact one_ne_zero
  · assumption

/-- What the attacker does not know, by the logarithms of what it knows, where these are not zero. -/
noncomputable def logsEquiv (id : Fin n → Fin m) : World m n ≃ (Fin m ⊕ Fin n → Scalar) × Unit where
  toFun w := (Sum.elim w.gens fun s => w.priv s * unzero (w.gens (id s)), ())
  invFun v := ⟨fun i => v.1 (.inl i), fun s => v.1 (.inr s) * (unzero (v.1 (.inl (id s))))⁻¹⟩
  left_inv w := by
    obtain ⟨g, x⟩ := w
    simp [mul_assoc, mul_inv_cancel₀ (unzero_ne _)]
  right_inv v := by
    refine Prod.ext ?_ rfl
    funext i
    cases i with
    | inl i => rfl
    | inr s => simp [mul_assoc, inv_mul_cancel₀ (unzero_ne _)]

theorem logsEquiv_eq (w : World m n) (hw : ∀ i, w.gens i ≠ 0) : logsEquiv id w = (logs id w, ()) := by
  refine Prod.ext ?_ rfl
  funext i
  cases i with
  | inl i => rfl
  | inr s => simp [logsEquiv, logs, unzero, hw]

theorem share_improper : share {w : (Fin m ⊕ Fin n → Scalar) × Unit | Proper w}ᶜ ≤ (m + n) / ell := by
  classical
  have hcard : Fintype.card Scalar = ell := ZMod.card ell
  have hsub : {v : Fin m ⊕ Fin n → Scalar | ∀ i, v i ≠ 0}ᶜ ⊆
      ⋃ i ∈ (Finset.univ : Finset (Fin m ⊕ Fin n)), {v | eval v (X i : MvPolynomial (Fin m ⊕ Fin n) Scalar) = 0} := by
    intro v hv
    simp only [Set.mem_compl_iff, Set.mem_ofPred_eq, not_forall, not_not] at hv
    obtain ⟨i, hi⟩ := hv
    simp only [Set.mem_iUnion]
    exact ⟨i, Finset.mem_univ _, by simpa using hi⟩
  have hle : ell * {v : Fin m ⊕ Fin n → Scalar | ∀ i, v i ≠ 0}ᶜ.ncard ≤ (m + n) * ell ^ (m + n) := by
    calc _ ≤ ell * ∑ i : Fin m ⊕ Fin n, {v : Fin m ⊕ Fin n → Scalar |
            eval v (X i : MvPolynomial (Fin m ⊕ Fin n) Scalar) = 0}.ncard :=
          Nat.mul_le_mul_left _ ((Set.ncard_le_ncard hsub (Set.toFinite _)).trans (ncard_biUnion_le _ _))
      _ ≤ ∑ _i : Fin m ⊕ Fin n, ell ^ (m + n) := by
          rw [Finset.mul_sum]
          refine Finset.sum_le_sum fun i _ => ?_
          have := Confirm.card_zeros (X i : MvPolynomial (Fin m ⊕ Fin n) Scalar) (X_ne_zero i)
          rw [totalDegree_X, hcard, one_mul, Fintype.card_sum, Fintype.card_fin, Fintype.card_fin] at this
          exact this
      _ = _ := by simp
  have h := share_fst (Ω' := Unit) {v : Fin m ⊕ Fin n → Scalar | ∀ i, v i ≠ 0}ᶜ
  have e : {w : (Fin m ⊕ Fin n → Scalar) × Unit | w.1 ∈ {v : Fin m ⊕ Fin n → Scalar | ∀ i, v i ≠ 0}ᶜ} =
      {w : (Fin m ⊕ Fin n → Scalar) × Unit | Proper w}ᶜ := rfl
  rw [e] at h
  have hN : Nat.card (Fin m ⊕ Fin n → Scalar) = ell ^ (m + n) := by
    rw [Nat.card_eq_fintype_card, Fintype.card_fun, hcard, Fintype.card_sum, Fintype.card_fin, Fintype.card_fin]
  have h0 : 0 < ell := hcard ▸ Fintype.card_pos
  rw [h, share, hN]
  generalize {v : Fin m ⊕ Fin n → Scalar | ∀ i, v i ≠ 0}ᶜ.ncard = N at hle ⊢
  clear hN e h hsub hcard
  generalize ell = l at hle h0 ⊢
  have h0 : (0 : ℚ) < l := by exact_mod_cast h0
  have hle : (_ : ℚ) ≤ _ := Nat.cast_le.2 hle
  push_cast at hle ⊢
  rw [div_le_div_iff₀ (by positivity) h0, mul_comm]
  exact hle

variable (id)

/-- **C97 (AuCPace).** The attacker runs `n` clients and servers, with or without explicit authentication, under `m` session ids. It knows the
generators of the session ids and the public keys; it computes by adding multiples, may compare results, ask for the first session key
that belongs to a session id and a result, and send one result to each session, and gets what the session returns, including its first
session key. In the ideal game the sessions use a hash function of their own, unless they were sent a multiple of their generator. No set
of histories of `T` steps tells the games apart better than by `2 T (T + 1) / ell + (m + n) / ell`. -/
theorem C97_aucpace (h64 : D.outLen = 64) {ssid : Fin m → Bytes} (h1 : Function.Injective ssid) (h2 : ∀ i, (ssid i).length = 64)
    (kind : Fin n → Victim) (A : List (Answer G) → Step m n) (T : Nat) (P : Set (List (Answer G))) :
    |share {w : World m n × (Fin m × Scalar → D.Out) |
        history R ssid (logs id w.1) (drawnKeys R D ssid w.2).hash (realReply R (drawnKeys R D ssid w.2) kind id ssid w.1) A T
          (fun _ => false) [] ∈ P} -
      share {w : World m n × (Fin m × Scalar → D.Out) × (Fin m × Scalar → D.Out) |
        history R ssid (logs id w.1) (drawnKeys R D ssid w.2.1).hash (idealReply R D kind id ssid w.1 w.2.1 w.2.2) A T
          (fun _ => false) [] ∈ P}| ≤
      2 * T * (T + 1) / ell + (m + n) / ell := by
  classical
  have : Inhabited D.Out := ⟨⟨D.hash [], D.hash_length _⟩⟩
  have : Finite (World m n) := Finite.of_equiv _ (logsEquiv id).symm
  have : Nonempty (World m n) := ⟨⟨fun _ => 0, fun _ => 0⟩⟩
  have hkey := share_compare (L := D.Out) asked (secret id) (cls id) _ _ A (shown D id kind ssid) _ (secretIdeal id)
    {w | Proper w} (laws id) (lawsIdeal id) (· ∈ P) T
  have hcard : Fintype.card Scalar = ell := ZMod.card ell
  rw [hcard] at hkey
  have e1 := share_equiv ((logsEquiv id).prodCongr (Equiv.refl (Fin m × Scalar → D.Out)))
    {w | w.1 ∈ {w : (Fin m ⊕ Fin n → Scalar) × Unit | Proper w} ∧
      (play (realI asked (secret id) w.1) A (shown D id kind ssid) T (fun _ => none) []).eval w.2 ∈ P}
  have e2 := share_equiv ((logsEquiv id).prodCongr (Equiv.sumArrowEquivProdArrow (Fin m × Scalar) (Fin m × Scalar) D.Out).symm)
    {w | w.1 ∈ {w : (Fin m ⊕ Fin n → Scalar) × Unit | Proper w} ∧
      (play (realI (fun w q => Sum.inl (asked w q)) (secretIdeal id) w.1) A (shown D id kind ssid) T (fun _ => none) []).eval w.2 ∈ P}
  rw [← e1, ← e2] at hkey
  have hgens : ∀ w : World m n, Proper (logsEquiv id w) → ∀ i, w.gens i ≠ 0 := fun w h i => h (.inl i)
  have s1 : {w : World m n × (Fin m × Scalar → D.Out) |
        history R ssid (logs id w.1) (drawnKeys R D ssid w.2).hash (realReply R (drawnKeys R D ssid w.2) kind id ssid w.1) A T
          (fun _ => false) [] ∈ P} ∩ {w | Proper (logsEquiv id w.1)} =
      {w | (logsEquiv id).prodCongr (Equiv.refl (Fin m × Scalar → D.Out)) w ∈
        {w | w.1 ∈ {w : (Fin m ⊕ Fin n → Scalar) × Unit | Proper w} ∧
          (play (realI asked (secret id) w.1) A (shown D id kind ssid) T (fun _ => none) []).eval w.2 ∈ P}} := by
    ext ⟨w, ρ⟩
    simp only [Set.mem_inter_iff, Set.mem_ofPred_eq, Equiv.prodCongr_apply, Prod.map_apply, Equiv.refl_apply]
    rw [and_comm]
    refine and_congr_right fun hp => ?_
    have hw := hgens w hp
    rw [logsEquiv_eq w hw]
    rw [history_eq R id (ρ := ρ) (kind := kind) (pt := asked) (sec := secret id) (v := logs id w)
      (fun i c => by rw [comb_eq, hash_drawnKeys R D h1 h2]; rfl) (fun s a => (realReply_eq h64 h1 h2 kind w hw ρ s a).trans (by cases secret id (logs id w, ()) s a <;> rfl)) A T
      (fun _ => false)
      (fun _ => none) [] fun _ => rfl]
  have s2 : {w : World m n × (Fin m × Scalar → D.Out) × (Fin m × Scalar → D.Out) |
        history R ssid (logs id w.1) (drawnKeys R D ssid w.2.1).hash (idealReply R D kind id ssid w.1 w.2.1 w.2.2) A T
          (fun _ => false) [] ∈ P} ∩ {w | Proper (logsEquiv id w.1)} =
      {w | (logsEquiv id).prodCongr (Equiv.sumArrowEquivProdArrow (Fin m × Scalar) (Fin m × Scalar) D.Out).symm w ∈
        {w | w.1 ∈ {w : (Fin m ⊕ Fin n → Scalar) × Unit | Proper w} ∧
          (play (realI (fun w q => Sum.inl (asked w q)) (secretIdeal id) w.1) A (shown D id kind ssid) T
            (fun _ => none) []).eval w.2 ∈ P}} := by
    ext ⟨w, ρ, κ⟩
    simp only [Set.mem_inter_iff, Set.mem_ofPred_eq, Equiv.prodCongr_apply, Prod.map_apply]
    rw [and_comm]
    refine and_congr_right fun hp => ?_
    have hw := hgens w hp
    rw [logsEquiv_eq w hw]
    rw [history_eq R id (ρ := Sum.elim ρ κ) (kind := kind) (pt := fun w q => Sum.inl (asked w q)) (sec := secretIdeal id) (v := logs id w)
      (fun i c => by rw [comb_eq, hash_drawnKeys R D h1 h2]; rfl) (fun s a => (idealReply_eq h64 h1 h2 kind w hw ρ κ s a).trans (by cases secretIdeal id (logs id w, ()) s a <;> rfl)) A T
      (fun _ => false)
      (fun _ => none) [] fun _ => rfl]
    rfl
  rw [← s1, ← s2] at hkey
  have c1 : share {w : World m n × (Fin m × Scalar → D.Out) | Proper (logsEquiv id w.1)}ᶜ =
      share {w : World m n | Proper (logsEquiv id w)}ᶜ := share_fst {w : World m n | Proper (logsEquiv id w)}ᶜ
  have c2 : share {w : World m n × (Fin m × Scalar → D.Out) × (Fin m × Scalar → D.Out) | Proper (logsEquiv id w.1)}ᶜ =
      share {w : World m n | Proper (logsEquiv id w)}ᶜ := share_fst {w : World m n | Proper (logsEquiv id w)}ᶜ
  have c3 : share {w : World m n | Proper (logsEquiv id w)}ᶜ ≤ (m + n) / ell :=
    (share_equiv (logsEquiv id) {w | Proper w}ᶜ).trans_le share_improper
  refine (share_restrict _ _ _ _ (c1.trans c2.symm)).trans (add_le_add (hkey.trans (le_of_eq ?_)) (c1.trans_le c3))
  simp only [Nat.cast_zero, zero_mul, zero_div, zero_add]
  ring

/-- **C97 (AuCPace, messages passed on).** The public key of a session is not a multiple of the generator by a known factor, so a session that
is sent it uses a hash function of its own in the ideal game; and two sessions of the same id without explicit authentication whose
public keys are passed on get the same key. -/
theorem C97_aucpace_passive (h64 : D.outLen = 64) {ssid : Fin m → Bytes} (h1 : Function.Injective ssid)
    (h2 : ∀ i, (ssid i).length = 64) (kind : Fin n → Victim) (w : World m n) (ρ κ : Fin m × Scalar → D.Out) (s s' : Fin n)
    (hw : w.gens (id s) ≠ 0 ∧ w.priv s ≠ 0 ∧ w.priv s' ≠ 0) (hs : id s = id s') :
    idealReply R D kind id ssid w ρ κ s (pick (.inr s')) =
        told D (kind s) (ssid (id s)) (κ (id s, w.priv s * (w.priv s' * w.gens (id s)))).1 ∧
      (kind s = .clientImplicit → kind s' = .serverImplicit →
        idealReply R D kind id ssid w ρ κ s (pick (.inr s')) = idealReply R D kind id ssid w ρ κ s' (pick (.inr s))) := by
  have hval : ∀ s : Fin n, val (pick (.inr s)) (logs id w) = w.priv s * w.gens (id s) := by
    intro s
    have := comb_pick R (logs id w) (.inr s)
    rw [comb_eq] at this
    exact smul_left_injective Scalar R.base_ne_zero this
  have hm : ∀ s s' : Fin n, ¬ Made id s (pick (.inr s')) := by
    intro s s' h
    have := h (some (.inr s')) (by simp)
    simp [pick] at this
  have key : ∀ s s' : Fin n, w.gens (id s') ≠ 0 → w.priv s' ≠ 0 → idealReply R D kind id ssid w ρ κ s (pick (.inr s')) =
      told D (kind s) (ssid (id s)) (κ (id s, w.priv s * (w.priv s' * w.gens (id s')))).1 := by
    intro s s' hg hp
    rw [idealReply, if_neg (hm s s'), realReply, returned_told R h64 h1 h2, hval, if_neg (mul_ne_zero hp hg)]
  have hg' : w.gens (id s') ≠ 0 := hs ▸ hw.1
  refine ⟨by rw [key s s' hg' hw.2.2, hs], fun hk hk' => ?_⟩
  rw [key s s' hg' hw.2.2, key s' s hw.1 hw.2.1, hk, hk', hs, mul_left_comm]
  rfl

/-- **C97 (AuCPace, the exception).** The first session key of a session that was sent a multiple of its generator the attacker can compute:
what the session returns follows from the answer to a question. -/
theorem C97_aucpace_made (h64 : D.outLen = 64) {ssid : Fin m → Bytes} (h1 : Function.Injective ssid)
    (h2 : ∀ i, (ssid i).length = 64) (kind : Fin n → Victim) (s : Fin n) (a : Coef (Fin m ⊕ Fin n) Scalar) (hm : Made id s a)
    (h0 : a ≠ 0) :
    ∃ A : List (Answer G) → Step m n, ∀ (w : World m n) (ρ : Fin m × Scalar → D.Out), w.gens (id s) ≠ 0 → ∃ l,
      history R ssid (logs id w) (drawnKeys R D ssid ρ).hash (realReply R (drawnKeys R D ssid ρ) kind id ssid w) A 2
        (fun _ => false) [] = [.hash l, told D (kind s) (ssid (id s)) l] := by
  refine ⟨fun h => if h.length = 0 then .ask (id s, computed id s a) else .send s a, fun w ρ hg => ?_⟩
  refine ⟨(ρ (id s, w.priv s * val a (logs id w))).1, ?_⟩
  have hv := val_made id hm (logs id w)
  have hne : val a (logs id w) ≠ 0 := by
    rw [hv]
    exact mul_ne_zero (made_ne id hm h0) hg
  have hc : val (computed id s a) (logs id w) = w.priv s * val a (logs id w) := by
    rw [val_computed, hv]
    simp only [logs]
    ring
  simp only [history, List.length_nil, if_true, Bool.false_eq_true, if_false, List.nil_append, List.length_singleton,
    one_ne_zero, List.singleton_append]
  rw [realReply, returned_told R h64 h1 h2, if_neg hne, comb_eq, hash_drawnKeys R D h1 h2, hc]

/-- **C97 (AuCPace, the elements).** What `C97_aucpace` calls the public key of session `s` is what the client and the server send, if the
generator of session id `i` is `gens i • base`, also with the hash function drawn. -/
theorem C97_aucpace_elements {σc σs : Type} (rngC : Rng σc) (rngS : Rng σs) (w : World m n) (s : Fin n) (ssid : Fin m → Bytes)
    (ρ : Fin m × Scalar → D.Out) (prs ci : Bytes) (hgen : gen R D (ssid (id s)) prs ci = w.gens (id s) • R.base) (c : σc) (t : σs) :
    (draw (rngC.fill c 64).1 = w.priv s →
      (Client.generatePublicKey R (drawnKeys R D ssid ρ) rngC ⟨ssid (id s), prs⟩ ci c).1 =
        (⟨ssid (id s), w.priv s⟩, .publicKey (logs id w (.inr s) • R.base))) ∧
    (draw (rngS.fill t 64).1 = w.priv s →
      Server.generatePublicKey R (drawnKeys R D ssid ρ) rngS ⟨ssid (id s), prs, t⟩ ci =
        (⟨ssid (id s), w.priv s⟩, .publicKey (logs id w (.inr s) • R.base))) := by
  have e : logs id w (.inr s) • R.base = w.priv s • w.gens (id s) • R.base := mul_smul _ _ _
  have e' : gen R (drawnKeys R D ssid ρ) (ssid (id s)) prs ci = gen R D (ssid (id s)) prs ci :=
    congrArg R.fromUniform (hash_drawnKeys_other R D ρ (by decide))
  constructor
  · intro h
    rw [client_generatePublicKey_eq, e', h, hgen, e]
  · intro h
    rw [server_generatePublicKey_eq, e']
    simp only [h, hgen, e]

/-- The hypotheses of these theorems hold for SHA-512, a client and a server of one session, and the message of one of them or a multiple of
the generator. -/
example : ∃ ssid : Fin 1 → Bytes, Function.Injective ssid ∧ (∀ i, (ssid i).length = 64) ∧ sha512.outLen = 64 ∧
    Made (fun _ : Fin 2 => (0 : Fin 1)) 0 (pick (.inl 0)) ∧ (pick (.inl 0) : Coef (Fin 1 ⊕ Fin 2) Scalar) ≠ 0 ∧
    ¬ Made (fun _ : Fin 2 => (0 : Fin 1)) 0 (pick (.inr 1)) := by
  refine ⟨fun _ => List.replicate 64 7, fun i j _ => Subsingleton.elim _ _, fun _ => by simp, rfl, ?_, ?_, ?_⟩
  · intro o ho
    simp [pick, ho]
  · intro h
    have := congrFun h (some (.inl 0))
    simp [pick] at this
  · intro h
    have := h (some (.inr 1)) (by simp)
    simp [pick] at this

end

end Verif.Aucpace.Keys
