import Verif.Basic.Auth
import Verif.Aucpace.Keys

/-!
# C98: who does not know the password is not accepted

Clients and servers with explicit mutual authentication, several under each session id if the attacker likes. The attacker of C95 does not
get the states of the sessions here, only what they send; in return it can send authenticators. The hash that turns a shared element into
the first session key, the two hashes that give the authenticators and the one that gives the session key are drawn at random.
-/

set_option linter.unusedSectionVars false

namespace Verif.Aucpace.Impostor
open Spec Confirm Guess MvPolynomial Auth

variable {G : Type} [AddCommGroup G] [Module Scalar G] [DecidableEq G] (R : Ristretto G) (D : Digest) {m n : Nat} {ι : Type} [Fintype ι]

/-- The numbers of the hashes for `Ta`, `Tb` and the session key (aucpace/src/utils.rs:14-36, 104-130). -/
def tagByte : Fin 3 → UInt8 := ![3, 4, 5]

open Classical in
/-- The hash function `D` with the authenticators and session keys replaced: that of the kind `c` for the session id `i` and the first
session key `l` is `f ((i, c), l)`. -/
noncomputable def drawnTags (ssid : Fin m → Bytes) (f : (Fin m × Fin 3) × D.Out → D.Out) : Digest :=
  D.program fun x =>
    if h : ∃ p : (Fin m × Fin 3) × D.Out, x = inp (tagByte p.1.2) (ssid p.1.1 ++ p.2.1) then some (f h.choose) else none

/-- The same with the first session keys replaced by `ρ`. -/
noncomputable def drawn (ssid : Fin m → Bytes) (ρ : Fin m × Scalar → D.Out) (f : (Fin m × Fin 3) × D.Out → D.Out) : Digest :=
  drawnKeys R (drawnTags D ssid f) ssid ρ

/-- What is not known to the attacker: the logarithms of the generators of the candidates, one for each session id, the private keys of the
sessions and which candidate is right. -/
structure World (m n : Nat) (ι : Type) where
  gens : Fin m → ι → Scalar
  priv : Fin n → Scalar
  right : ι

/-- The elements known to the attacker besides the base point: the generators and the public keys of the sessions. -/
abbrev Known (m n : Nat) (ι : Type) : Type := (Fin m × ι) ⊕ Fin n

/-- Their logarithms; session `s` has the session id `id s` and uses the generator of the right candidate. -/
def logs (id : Fin n → Fin m) (w : World m n ι) : Known m n ι → Scalar
  | .inl (i, j) => w.gens i j
  | .inr s => w.priv s * w.gens (id s) w.right

/-- A step of the attacker: it asks for the first session key that belongs to a session id and an element, for a value of a further hash
that belongs to a session id and a first session key, compares an element with the neutral one, sends an element to a session, or sends an
authenticator to a session. -/
abbrev Step (D : Digest) (m n : Nat) (ι : Type) : Type :=
  Move n (Known m n ι) Scalar (Fin m × Coef (Known m n ι) Scalar) (Coef (Known m n ι) Scalar) (Fin m × Fin 3) D.Out

/-- What the attacker gets: the value of a hash, the answer to a comparison, the message of a client, nothing from a server, the session key
of a client that has accepted, or that of a server with its message, or an error. -/
inductive Ans (G : Type) where
  | hash (b : Bytes)
  | equal (b : Bool)
  | client (m : ClientMessage G)
  | server
  | key (b : Bytes)
  | keys (b : Bytes) (m : ServerMessage G)
  | error (e : Error)
  | panicked

/-- A session: it waits for a public key, then for an authenticator, and is over then. It is dead if the public key was refused. -/
inductive Sess where
  | waiting
  | client (st : Client.ExpMutAuth)
  | server (st : Server.ExpMutAuth)
  | over (sk1 : Bytes)
  | dead

/-- The first session key of a session. -/
def Sess.firstKey : Sess → Option Bytes
  | .client st => some st.sk1
  | .server st => some st.sk1
  | .over b => some b
  | _ => none

/-- No session on the other side with the same session id has the same first session key. -/
def Alone (client : Fin n → Bool) (id : Fin n → Fin m) (σ : Fin n → Sess) (s : Fin n) : Prop :=
  ∀ s', id s' = id s → client s' ≠ client s → (σ s').firstKey = none ∨ (σ s').firstKey ≠ (σ s).firstKey

/-- A session gets a public key (aucpace/src/client.rs:833-856, aucpace/src/server.rs:599-614). -/
def sendKey (D : Digest) (client : Bool) (ssid : Bytes) (x : Scalar) (Y : G) : Sess × Ans G :=
  if client then
    match Client.receiveServerPubkey R D ⟨ssid, x⟩ Y with
    | .ok (st, m) => (.client st, .client m)
    | .err e => (.dead, .error e)
    | .panic => (.dead, .panicked)
  else
    match Server.receiveClientPubkey R D ⟨ssid, x⟩ Y with
    | .ok st => (.server st, .server)
    | .err e => (.dead, .error e)
    | .panic => (.dead, .panicked)

/-- A session gets an authenticator (aucpace/src/client.rs:906-916, aucpace/src/server.rs:664-680): what it is afterwards, what it returns,
and whether it accepts. -/
def sendTag (D : Digest) (st : Sess) (t : Bytes) : Sess × Ans G × Bool :=
  match st with
  | .client st => match Client.receiveServerAuthenticator D st t with
    | .ok b => (.over st.sk1, .key b, true)
    | .err e => (.over st.sk1, .error e, false)
    | .panic => (.over st.sk1, .panicked, false)
  | .server st => match (Server.receiveClientAuthenticator D st t : Res Error (Bytes × ServerMessage G)) with
    | .ok (b, m) => (.over st.sk1, .keys b m, true)
    | .err e => (.over st.sk1, .error e, false)
    | .panic => (.over st.sk1, .panicked, false)
  | st => (st, .error .illegalPointError, false)

/-- In `k` steps of the attacker some session accepts, and no session on the other side with the same session id has the same first session
key. -/
def Accepted (D D' : Digest) (client : Fin n → Bool) (id : Fin n → Fin m) (ssid : Fin m → Bytes) (w : World m n ι)
    (A : List (Ans G) → Step D m n ι) : Nat → (Fin n → Sess) → List (Ans G) → Prop
  | 0, _, _ => False
  | k + 1, σ, hist => match A hist with
    | .ask (.inl (i, c)) => Accepted D D' client id ssid w A k σ
        (hist ++ [.hash (D'.hash (inp 2 (ssid i ++ R.compress (comb R.base (logs id w) c))))])
    | .ask (.inr (.inl ((i, c), l))) => Accepted D D' client id ssid w A k σ (hist ++ [.hash (D'.hash (inp (tagByte c) (ssid i ++ l.1)))])
    | .compare c => Accepted D D' client id ssid w A k σ (hist ++ [.equal (decide (comb R.base (logs id w) c = 0))])
    | .send s a => match σ s with
      | .waiting => Accepted D D' client id ssid w A k
          (Function.update σ s (sendKey R D' (client s) (ssid (id s)) (w.priv s) (comb R.base (logs id w) a)).1)
          (hist ++ [(sendKey R D' (client s) (ssid (id s)) (w.priv s) (comb R.base (logs id w) a)).2])
      | _ => Accepted D D' client id ssid w A k σ (hist ++ [.error .illegalPointError])
    | .ask (.inr (.inr (s, t))) =>
      (sendTag (G := G) D' (σ s) t.1).2.2 = true ∧ Alone client id σ s ∨
        Accepted D D' client id ssid w A k (Function.update σ s (sendTag (G := G) D' (σ s) t.1).1)
          (hist ++ [(sendTag (G := G) D' (σ s) t.1).2.1])

/-! ## The laws -/

section
variable (id : Fin n → Fin m)

/-- The point at which the hash function is asked. -/
noncomputable def asked (w : (Known m n ι → Scalar) × ι) (q : Fin m × Coef (Known m n ι) Scalar) : Fin m × Scalar :=
  (q.1, val q.2 w.1)

/-- The logarithm of the shared element. -/
noncomputable def secret (w : (Known m n ι → Scalar) × ι) (s : Fin n) (a : Coef (Known m n ι) Scalar) : Option (Fin m × Scalar) :=
  if val a w.1 = 0 then none else some (id s, w.1 (.inr s) * (w.1 (.inl (id s, w.2)))⁻¹ * val a w.1)

/-- Which secrets are the same in any case. -/
noncomputable def cls (s : Fin n) (a : Coef (Known m n ι) Scalar) :
    (Fin m × Coef (Known m n ι) Scalar) ⊕ (Fin m × MvPolynomial (Known m n ι) Scalar) :=
  .inr (id s, X (.inr s) * form a)

theorem mul_degree (i : Known m n ι) (a : Coef (Known m n ι) Scalar) :
    (X i * form a : MvPolynomial (Known m n ι) Scalar).totalDegree ≤ 2 := by
  refine (totalDegree_mul _ _).trans ?_
  rw [totalDegree_X]
  have := form_degree a
  omega

/-- The generators of the right candidate and the public keys are not neutral. -/
def Proper (w : (Known m n ι → Scalar) × ι) : Prop := (∀ i, w.1 (.inl (i, w.2)) ≠ 0) ∧ ∀ s, w.1 (.inr s) ≠ 0

/-- Points are the same only by an identity, because the attacker has chosen the right candidate, or where a polynomial vanishes. -/
noncomputable def laws : Laws asked (secret (ι := ι) id) (cls id) (fun _ a => a = 0)
    (fun s a => {j | a (some (.inl (id s, j))) ≠ 0 ∧ ∀ o ≠ some (.inl (id s, j)), a o = 0}) 1 {w | Proper w} where
  qq q q' := form (q.2 - q'.2)
  qs j s a q := X (.inl (id s, j)) * form q.2 - X (.inr s) * form a
  ss _ s a s' a' := X (.inr s) * form a - X (.inr s') * form a'
  zz _ _ a := form a
  deg_qq _ _ := (form_degree _).trans (by norm_num)
  deg_qs _ _ _ _ := (totalDegree_sub _ _).trans (max_le (mul_degree _ _) (mul_degree _ _))
  deg_ss _ _ _ _ _ := (totalDegree_sub _ _).trans (max_le (mul_degree _ _) (mul_degree _ _))
  deg_zz _ _ _ := (form_degree _).trans (by norm_num)
  triv_card := by
    intro s a
    rw [Set.ncard_le_one_iff]
    rintro i j ⟨hi, hi'⟩ ⟨hj, hj'⟩
    by_contra hne
    exact hi (hj' _ (by simpa using hne))
  ask_ask := by
    rintro ⟨v, j⟩ hw ⟨s, c⟩ ⟨s', c'⟩ hne h
    simp only [asked, Prod.mk.injEq] at h
    obtain ⟨rfl, h⟩ := h
    refine ⟨fun h0 => hne ?_, ?_⟩
    · have := form_eq_zero h0
      rw [sub_eq_zero] at this
      rw [show c = c' from this]
    · rw [eval_form, val_sub, h, sub_self]
  ask_send := by
    rintro ⟨v, j⟩ hv s a ⟨i, c⟩ - h
    rw [secret] at h
    split at h
    · cases h
    rename_i ha
    have hE := (Prod.mk.inj (Option.some.inj h)).2
    simp only at hE ha
    by_cases hP : (X (.inl (id s, j)) * form c - X (.inr s) * form a : MvPolynomial (Known m n ι) Scalar) = 0
    · left
      have hz := cross_ne_zero (by simp) hP
      refine ⟨fun h0 => ha ?_, hz⟩
      have hall : a = 0 := by
        funext o
        by_cases e : o = some (.inl (id s, j))
        · rw [e]; exact h0
        · exact hz o e
      simp [hall, val]
    · right
      refine ⟨hP, ?_⟩
      have := hv.1 (id s)
      simp only at this
      simp only [map_sub, map_mul, eval_X, eval_form]
      rw [← hE, sub_eq_zero]
      field_simp
  send_send := by
    rintro ⟨v, j⟩ hv s a s' a' x hne h h'
    simp only [secret] at h h'
    split at h
    · cases h
    split at h'
    · cases h'
    rw [← h', Option.some.injEq, Prod.mk.injEq] at h
    obtain ⟨hi, h⟩ := h
    refine ⟨fun h0 => hne ?_, ?_⟩
    · rw [cls, cls, hi, sub_eq_zero.1 h0]
    · have hh : v (.inl (id s', j)) ≠ 0 := hv.1 (id s')
      rw [hi] at h
      simp only [map_sub, map_mul, eval_X, eval_form]
      field_simp at h
      rw [h, sub_self]
  same := by
    rintro ⟨v, j⟩ hv s a s' a' h
    rw [cls, cls, Sum.inr.injEq, Prod.mk.injEq] at h
    obtain ⟨hi, hp⟩ := h
    have he := congrArg (eval v) hp
    simp only [map_mul, eval_X, eval_form] at he
    have hz : val a v = 0 ↔ val a' v = 0 := by
      constructor
      · intro hz
        rw [hz, mul_zero] at he
        exact (mul_eq_zero.1 he.symm).resolve_left (hv.2 _)
      · intro hz
        rw [hz, mul_zero] at he
        exact (mul_eq_zero.1 he).resolve_left (hv.2 _)
    unfold secret
    simp only [hz, hi]
    split
    · rfl
    · rw [mul_right_comm, he, mul_right_comm]
  opened := fun _ _ _ _ _ h => by cases h
  refuse := by
    rintro ⟨v, j⟩ hv s a
    by_cases h0 : a = 0
    · left
      simp [secret, h0, val]
    · by_cases h : val a v = 0
      · right
        exact ⟨fun hf => h0 (form_eq_zero hf), by rw [eval_form, h]⟩
      · left
        simp [secret, h0, h]

end

/-! ## What the sessions do, with the hashes drawn -/

section
variable {ssid : Fin m → Bytes}

theorem tagByte_injective : Function.Injective tagByte := by decide

theorem hash_drawnTags (h1 : Function.Injective ssid) (h2 : ∀ s, (ssid s).length = 64) (f : (Fin m × Fin 3) × D.Out → D.Out) (i : Fin m)
    (c : Fin 3) (l : D.Out) : (drawnTags D ssid f).hash (inp (tagByte c) (ssid i ++ l.1)) = (f ((i, c), l)).1 := by
  have h : ∃ p : (Fin m × Fin 3) × D.Out, inp (tagByte c) (ssid i ++ l.1) = inp (tagByte p.1.2) (ssid p.1.1 ++ p.2.1) :=
    ⟨((i, c), l), rfl⟩
  have e : h.choose = ((i, c), l) := by
    have := h.choose_spec
    rw [inp_inj] at this
    obtain ⟨e1, e2⟩ := List.append_inj this.2 (by rw [h2, h2])
    exact Prod.ext (Prod.ext (h1 e1).symm (tagByte_injective this.1).symm) (Subtype.ext e2.symm)
  simp only [drawnTags, Digest.program, dif_pos h]
  rw [e]

theorem hash_drawn (h1 : Function.Injective ssid) (h2 : ∀ s, (ssid s).length = 64) (ρ : Fin m × Scalar → D.Out)
    (f : (Fin m × Fin 3) × D.Out → D.Out) (i : Fin m) (c : Fin 3) (l : D.Out) :
    (drawn R D ssid ρ f).hash (inp (tagByte c) (ssid i ++ l.1)) = (f ((i, c), l)).1 := by
  rw [drawn, hash_drawnKeys_other R (drawnTags D ssid f) ρ (by revert c; decide)]
  exact hash_drawnTags D h1 h2 f i c l

theorem sk1_drawn (h1 : Function.Injective ssid) (h2 : ∀ s, (ssid s).length = 64) (ρ : Fin m × Scalar → D.Out)
    (f : (Fin m × Fin 3) × D.Out → D.Out) (i : Fin m) (k : Scalar) :
    (drawn R D ssid ρ f).hash (inp 2 (ssid i ++ R.compress (k • R.base))) = (ρ (i, k)).1 :=
  hash_drawnKeys R (drawnTags D ssid f) h1 h2 ρ i k

/-- Which authenticators a session shows and takes. -/
def roles (client : Fin n → Bool) (id : Fin n → Fin m) : Roles n (Fin m × Fin 3) where
  shown s := if client s then some (id s, 1) else none
  expect s := if client s then (id s, 0) else (id s, 1)
  reveal s := if client s then [(id s, 2)] else [(id s, 2), (id s, 0)]

/-- What the attacker of `Accepted` gets for what that of `Auth` sees. -/
def conv : Seen D.Out → Ans G
  | .hash l => .hash l.1
  | .equal b => .equal b
  | .refused => .error .illegalPointError
  | .opened (some t) => .client (.authenticator t.1)
  | .opened none => .server
  | .rejected => .error .mutualAuthFail
  | .accepted [k] => .key k.1
  | .accepted [k, t] => .keys k.1 (.authenticator t.1)
  | .accepted _ => .panicked

/-- The session that belongs to a state of `Auth`. -/
def sessOf (client : Fin n → Bool) (id : Fin n → Fin m) (ssid : Fin m → Bytes) (f : (Fin m × Fin 3) × D.Out → D.Out) (s : Fin n) :
    Option (D.Out × Bool) → Bool → Sess
  | none, false => .waiting
  | none, true => .dead
  | some (l, false), _ => if client s then .client ⟨ssid (id s), l.1, (f ((id s, 0), l)).1⟩ else .server ⟨ssid (id s), l.1⟩
  | some (l, true), _ => .over l.1

theorem firstKey_sessOf (client : Fin n → Bool) (id : Fin n → Fin m) (f : (Fin m × Fin 3) × D.Out → D.Out) (s : Fin n)
    (l : D.Out) (b b' : Bool) : (sessOf D client id ssid f s (some (l, b)) b').firstKey = some l.1 := by
  cases b
  · simp only [sessOf]
    split <;> rfl
  · rfl

theorem sendKey_eq (h64 : D.outLen = 64) (h1 : Function.Injective ssid) (h2 : ∀ s, (ssid s).length = 64) (client : Fin n → Bool)
    (id : Fin n → Fin m) (ρ : Fin m × Scalar → D.Out) (f : (Fin m × Fin 3) × D.Out → D.Out) (w : World m n ι) (s : Fin n)
    (a : Coef (Known m n ι) Scalar) :
    sendKey R (drawn R D ssid ρ f) (client s) (ssid (id s)) (w.priv s) (comb R.base (logs id w) a) =
      if val a (logs id w) = 0 then (.dead, .error .illegalPointError)
      else (sessOf D client id ssid f s (some (ρ (id s, w.priv s * val a (logs id w)), false)) true,
        conv D (.opened (((roles client id).shown s).map fun c => f (c, ρ (id s, w.priv s * val a (logs id w)))))) := by
  have h0 : comb R.base (logs id w) a = 0 ↔ val a (logs id w) = 0 := by
    rw [comb_eq, smul_eq_zero]
    simp [R.base_ne_zero]
  have hk : Spec.sk1 R (drawn R D ssid ρ f) (ssid (id s)) (w.priv s • comb R.base (logs id w) a) =
      (ρ (id s, w.priv s * val a (logs id w))).1 := by
    rw [comb_eq, ← mul_smul]
    exact sk1_drawn R D h1 h2 ρ f (id s) _
  have h64' : (drawn R D ssid ρ f).outLen = 64 := h64
  have hta : ∀ l : D.Out, ta (drawn R D ssid ρ f) (ssid (id s)) l.1 = (f ((id s, 0), l)).1 := hash_drawn R D h1 h2 ρ f (id s) 0
  have htb : ∀ l : D.Out, tb (drawn R D ssid ρ f) (ssid (id s)) l.1 = (f ((id s, 1), l)).1 := hash_drawn R D h1 h2 ρ f (id s) 1
  by_cases ha : val a (logs id w) = 0
  · rw [if_pos ha]
    have ha := h0.2 ha
    cases hs : client s <;> simp only [sendKey, Bool.false_eq_true, if_true, if_false]
    · rw [receiveClientPubkey_eq, if_pos ha]
    · rw [receiveServerPubkey_eq R _ h64', if_pos ha]
  · rw [if_neg ha]
    have ha := fun e => ha (h0.1 e)
    cases hs : client s <;> simp only [sendKey, Bool.false_eq_true, if_true, if_false, sessOf, roles, hs]
    · rw [receiveClientPubkey_eq, if_neg ha]
      simp only [hk, Option.map_none, conv]
    · rw [receiveServerPubkey_eq R _ h64', if_neg ha]
      simp only [hk, hta, htb, Option.map_some, conv]

open Classical in
theorem sendTag_eq (h64 : D.outLen = 64) (h1 : Function.Injective ssid) (h2 : ∀ s, (ssid s).length = 64) (client : Fin n → Bool)
    (id : Fin n → Fin m) (ρ : Fin m × Scalar → D.Out) (f : (Fin m × Fin 3) × D.Out → D.Out) (s : Fin n) (l t : D.Out) (b : Bool) :
    sendTag (G := G) (drawn R D ssid ρ f) (sessOf D client id ssid f s (some (l, false)) b) t.1 =
      if t = f ((roles client id).expect s, l) then
        (.over l.1, conv D (.accepted (((roles client id).reveal s).map fun c => f (c, l))), true)
      else (.over l.1, .error .mutualAuthFail, false) := by
  have h64' : (drawn R D ssid ρ f).outLen = 64 := h64
  have hta : ta (drawn R D ssid ρ f) (ssid (id s)) l.1 = (f ((id s, 0), l)).1 := hash_drawn R D h1 h2 ρ f (id s) 0 l
  have htb : tb (drawn R D ssid ρ f) (ssid (id s)) l.1 = (f ((id s, 1), l)).1 := hash_drawn R D h1 h2 ρ f (id s) 1 l
  have hsk : sk (drawn R D ssid ρ f) (ssid (id s)) l.1 = (f ((id s, 2), l)).1 := hash_drawn R D h1 h2 ρ f (id s) 2 l
  cases hs : client s <;> simp only [sendTag, Bool.false_eq_true, if_true, if_false, sessOf, roles, hs]
  · rw [receiveClientAuthenticator_eq _ h64', htb]
    by_cases ht : t = f ((id s, 1), l)
    · rw [if_pos ht, if_pos (by rw [ht])]
      simp only [hta, hsk, List.map_cons, List.map_nil, conv]
    · rw [if_neg ht, if_neg fun e => ht (Subtype.ext e.symm)]
  · rw [receiveServerAuthenticator_eq]
    by_cases ht : t = f ((id s, 0), l)
    · rw [if_pos ht, if_pos (by rw [ht])]
      simp only [hsk, List.map_cons, List.map_nil, conv]
    · rw [if_neg ht, if_neg fun e => ht (Subtype.ext e.symm)]

theorem advance_tag_ne {V τ F Q M K L : Type} {s s' : Fin n} (h : s ≠ s') (st : Option (V × Bool)) (t : L) (o : Reply V) :
    advance s' st ((.ask (.inr (.inr (s, t))), o) : Auth.Move n τ F Q M K L × Reply V) = st := by
  rcases st with _ | ⟨v, b⟩
  · rfl
  · cases b
    · simp [advance, h]
    · rfl

theorem advance_send_ne {V τ F Q M K L : Type} {s s' : Fin n} (h : s ≠ s') (st : Option (V × Bool)) (a : M) (o : Reply V) :
    advance s' st ((.send s a, o) : Auth.Move n τ F Q M K L × Reply V) = st := by
  rcases st with _ | ⟨v, b⟩
  · cases o <;> simp [advance, h]
  · cases o <;> rfl

open Classical in
theorem vis_tag {τ F Q M K L : Type} {ro : Roles n K} {f : K × L → L} {h : List (Auth.Move n τ F Q M K L × Reply L)} {s : Fin n} {l t : L}
    {o : Reply L} (hs : status h s = some (l, false)) :
    vis ro (View.of _root_.id f) h (.ask (.inr (.inr (s, t))), o) =
      if t = f (ro.expect s, l) then .accepted ((ro.reveal s).map fun c => f (c, l)) else .rejected := by
  simp only [vis, hs]
  exact if_neg not_false

/-- Runs go on. -/
theorem play_extends {X L τ F Q M : Type} (I : Interp n τ F Q M X) (A : List (Act n τ F Q M × Reply L) → Act n τ F Q M) (k : Nat)
    (sent : Fin n → Option M) (h : List (Act n τ F Q M × Reply L)) (ρ : X → L) :
    ∃ rest, (play I A Prod.mk k sent h).eval ρ = h ++ rest := by
  induction k generalizing sent h with
  | zero => exact ⟨[], by simp [play, Tree.eval]⟩
  | succ k ih =>
    have ih' : ∀ sent e, ∃ rest, (play I A Prod.mk k sent (h ++ [e])).eval ρ = h ++ rest := by
      intro sent e
      obtain ⟨r, hr⟩ := ih sent (h ++ [e])
      exact ⟨e :: r, by rw [hr]; simp⟩
    cases hA : A h with
    | ask q =>
      simp only [play, hA, Tree.eval]
      exact ih' _ _
    | compare c =>
      simp only [play, hA]
      exact ih' _ _
    | send s a =>
      simp only [play, hA]
      split
      · exact ih' _ _
      · split
        · exact ih' _ _
        · simp only [Tree.eval]
          exact ih' _ _

variable {D} {R}

/-- A session that accepts while none on the other side has the same key does so in `Auth` as well. -/
theorem win_of_accepted (h64 : D.outLen = 64) (h1 : Function.Injective ssid) (h2 : ∀ s, (ssid s).length = 64) (client : Fin n → Bool)
    (id : Fin n → Fin m) (ρ : Fin m × Scalar → D.Out) (ρ' : (Fin m × Scalar) ⊕ Extra n (Fin m × Fin 3) D.Out → D.Out)
    (hρ : ∀ x, ρ' (.inl x) = ρ x) (f : (Fin m × Fin 3) × D.Out → D.Out) (w : World m n ι) (hw : ∀ i, w.gens i w.right ≠ 0)
    (A : List (Ans G) → Step D m n ι) (k : Nat) (sent : Fin n → Option (Coef (Known m n ι) Scalar))
    (h : List (Step D m n ι × Reply D.Out)) (hsent : ∀ s, status h s ≠ none → (sent s).isSome = true)
    (ha : Accepted R D (drawn R D ssid ρ f) client id ssid w A k
      (fun s => sessOf D client id ssid f s (status h s) (sent s).isSome)
      ((see (roles client id) (View.of _root_.id f) h).map (conv D))) :
    ∃ s, Win (roles client id) id _root_.id f
      ((play (realI (ptE n (Fin m × Fin 3) D.Out asked) (secE (Fin m × Fin 3) D.Out (secret id)) (logs id w, w.right))
        (fun h => A ((see (roles client id) (View.of _root_.id f) h).map (conv D))) Prod.mk k sent h).eval ρ') s := by
  classical
  induction k generalizing sent h with
  | zero => exact ha.elim
  | succ k ih =>
    have next : ∀ (sent' : Fin n → Option (Coef (Known m n ι) Scalar)) (e : Step D m n ι × Reply D.Out) (σ : Fin n → Sess) (x : Ans G),
        Accepted R D (drawn R D ssid ρ f) client id ssid w A k σ
          ((see (roles client id) (View.of _root_.id f) h).map (conv D) ++ [x]) →
        (∀ s, status (h ++ [e]) s ≠ none → (sent' s).isSome = true) →
        (∀ s, σ s = sessOf D client id ssid f s (status (h ++ [e]) s) (sent' s).isSome) →
        x = conv D (vis (roles client id) (View.of _root_.id f) h e) →
        ∃ s, Win (roles client id) id _root_.id f
          ((play (realI (ptE n (Fin m × Fin 3) D.Out asked) (secE (Fin m × Fin 3) D.Out (secret id)) (logs id w, w.right))
            (fun h => A ((see (roles client id) (View.of _root_.id f) h).map (conv D))) Prod.mk k sent' (h ++ [e])).eval ρ') s := by
      intro sent' e σ x hacc hs hσ hx
      refine ih sent' (h ++ [e]) hs ?_
      rw [see_snoc, List.map_append, List.map_singleton, ← hx]
      rwa [show (fun s => sessOf D client id ssid f s (status (h ++ [e]) s) (sent' s).isSome) = σ from (funext hσ).symm]
    have idle : ∀ (e : Step D m n ι × Reply D.Out) (x : Ans G), (∀ s, status (h ++ [e]) s = status h s) →
        Accepted R D (drawn R D ssid ρ f) client id ssid w A k
          (fun s => sessOf D client id ssid f s (status h s) (sent s).isSome)
          ((see (roles client id) (View.of _root_.id f) h).map (conv D) ++ [x]) →
        x = conv D (vis (roles client id) (View.of _root_.id f) h e) →
        ∃ s, Win (roles client id) id _root_.id f
          ((play (realI (ptE n (Fin m × Fin 3) D.Out asked) (secE (Fin m × Fin 3) D.Out (secret id)) (logs id w, w.right))
            (fun h => A ((see (roles client id) (View.of _root_.id f) h).map (conv D))) Prod.mk k sent (h ++ [e])).eval ρ') s := by
      intro e x hst hacc hx
      exact next sent e _ x hacc (fun s => by rw [hst]; exact hsent s) (fun s => by rw [hst]) hx
    cases hA : A ((see (roles client id) (View.of _root_.id f) h).map (conv D)) with
    | ask q =>
      rcases q with ⟨i, c⟩ | ⟨⟨i, c⟩, l⟩ | ⟨s, t⟩
      · simp only [Accepted, hA] at ha
        simp only [play, hA, Tree.eval]
        refine idle _ _ (fun s => by rw [status_snoc]; rfl) ha ?_
        simp only [realI, ptE, Sum.map_inl, hρ, vis, View.of, conv, asked, _root_.id]
        rw [comb_eq, sk1_drawn R D h1 h2]
      · simp only [Accepted, hA] at ha
        simp only [play, hA, Tree.eval]
        refine idle _ _ (fun s => by rw [status_snoc]; rfl) ha ?_
        simp only [vis, View.of, conv]
        rw [hash_drawn R D h1 h2]
      · simp only [Accepted, hA] at ha
        simp only [play, hA, Tree.eval]
        rcases ha with ⟨hok, halone⟩ | ha
        · cases hs : status h s with
          | none =>
            rw [hs] at hok
            cases hb : (sent s).isSome <;> rw [hb] at hok <;> simp [sessOf, sendTag] at hok
          | some p =>
            obtain ⟨l, b⟩ := p
            cases b with
            | true =>
              rw [hs] at hok
              simp [sessOf, sendTag] at hok
            | false =>
              rw [hs, sendTag_eq R D h64 h1 h2] at hok
              split at hok
              · rename_i ht
                refine ⟨s, ?_⟩
                obtain ⟨rest, hrest⟩ := play_extends
                  (realI (ptE n (Fin m × Fin 3) D.Out asked) (secE (Fin m × Fin 3) D.Out (secret id)) (logs id w, w.right))
                  (fun h => A ((see (roles client id) (View.of _root_.id f) h).map (conv D))) k sent
                  (h ++ [((.ask (.inr (.inr (s, t))) : Step D m n ι), (.value (ρ' (.inr (.inr (s, t)))) : Reply D.Out))]) ρ'
                refine ⟨h, t, .value (ρ' (.inr (.inr (s, t)))), rest, l, ?_, hs, ht, ?_⟩
                · rw [List.append_assoc] at hrest
                  exact hrest
                · intro s' hid hne v' b hs' he
                  have := halone s' hid fun hc => hne (by simp only [roles, hc, hid])
                  simp only [hs, hs', firstKey_sessOf] at this
                  rcases this with h | h
                  · cases h
                  · exact h (by rw [show v' = l from he])
              · simp at hok
        · cases hs : status h s with
          | none =>
            have e : sendTag (G := G) (drawn R D ssid ρ f) (sessOf D client id ssid f s (status h s) (sent s).isSome) t.1 =
                (sessOf D client id ssid f s (status h s) (sent s).isSome, .error .illegalPointError, false) := by
              rw [hs]
              cases (sent s).isSome <;> rfl
            rw [e, Function.update_eq_self] at ha
            refine idle _ _ (fun s' => ?_) ha ?_
            · rw [status_snoc]
              by_cases he : s' = s
              · rw [he, hs]; rfl
              · exact advance_tag_ne (Ne.symm he) _ _ _
            · simp only [vis, hs, conv]
          | some p =>
            obtain ⟨l, b⟩ := p
            cases b with
            | true =>
              have e : sendTag (G := G) (drawn R D ssid ρ f) (sessOf D client id ssid f s (status h s) (sent s).isSome) t.1 =
                  (sessOf D client id ssid f s (status h s) (sent s).isSome, .error .illegalPointError, false) := by
                rw [hs]
                rfl
              rw [e, Function.update_eq_self] at ha
              refine idle _ _ (fun s' => ?_) ha ?_
              · rw [status_snoc]
                by_cases he : s' = s
                · rw [he, hs]; rfl
                · exact advance_tag_ne (Ne.symm he) _ _ _
              · simp only [vis, hs, conv]
            | false =>
              rw [hs, sendTag_eq R D h64 h1 h2] at ha
              refine next sent _ _ _ ha (fun s' => ?_) (fun s' => ?_) ?_
              · rw [status_snoc]
                intro hne
                by_cases he : s' = s
                · rw [he]
                  exact hsent s (by rw [hs]; simp)
                · refine hsent s' fun hn => hne ?_
                  rw [hn]
                  rfl
              · rw [status_snoc]
                by_cases he : s' = s
                · subst he
                  rw [Function.update_self, hs]
                  simp only [advance, if_true, sessOf]
                  split <;> rfl
                · rw [Function.update_of_ne he]
                  rw [advance_tag_ne (Ne.symm he)]
              · rw [vis_tag hs]
                by_cases ht : t = f ((roles client id).expect s, l)
                · rw [if_pos ht, if_pos ht]
                · rw [if_neg ht, if_neg ht]
                  rfl
    | compare c =>
      simp only [Accepted, hA] at ha
      simp only [play, hA]
      refine idle _ _ (fun s => by rw [status_snoc]; rfl) ha ?_
      simp only [vis, conv, realI, Ans.equal.injEq, decide_eq_decide]
      rw [comb_eq, smul_eq_zero]
      simp [R.base_ne_zero]
    | send s a =>
      simp only [Accepted, hA] at ha
      simp only [play, hA]
      by_cases hg : (sent s).isSome = true
      · rw [if_pos hg]
        have hne : ∀ σ : Sess, σ = sessOf D client id ssid f s (status h s) (sent s).isSome → σ ≠ .waiting := by
          rintro σ rfl
          rw [hg]
          cases hs : status h s with
          | none => simp [sessOf]
          | some p =>
            obtain ⟨l, b⟩ := p
            cases b
            · simp only [sessOf]; split <;> simp
            · simp [sessOf]
        split at ha
        · rename_i hwait
          exact (hne _ rfl hwait).elim
        · refine idle _ _ (fun s' => by rw [status_snoc]; rfl) ha rfl
      · rw [if_neg hg]
        have hs : status h s = none := by
          by_contra hs
          exact hg (hsent s hs)
        have hf : (sent s).isSome = false := by simpa using hg
        simp only [hs, hf, sessOf] at ha
        rw [sendKey_eq R D h64 h1 h2] at ha
        have e : logs id w (.inr s) * (logs id w (.inl (id s, w.right)))⁻¹ = w.priv s := by
          show w.priv s * w.gens (id s) w.right * (w.gens (id s) w.right)⁻¹ = _
          rw [mul_assoc, mul_inv_cancel₀ (hw _), mul_one]
        by_cases hv : val a (logs id w) = 0
        · rw [if_pos hv] at ha
          have hI : (realI (ptE n (Fin m × Fin 3) D.Out asked) (secE (Fin m × Fin 3) D.Out (secret id)) (logs id w, w.right)).sec s a = none := by
            simp only [realI, secE, secret, hv, if_true, Option.map_none]
          simp only [hI]
          refine next _ _ _ _ ha (fun s' => ?_) (fun s' => ?_) rfl
          · rw [status_snoc]
            by_cases he : s' = s
            · simp [he]
            · rw [Function.update_of_ne he]
              exact hsent s'
          · rw [status_snoc]
            by_cases he : s' = s
            · subst he
              rw [Function.update_self, Function.update_self, hs]
              rfl
            · rw [Function.update_of_ne he, Function.update_of_ne he]
              rfl
        · rw [if_neg hv] at ha
          have hI : (realI (ptE n (Fin m × Fin 3) D.Out asked) (secE (Fin m × Fin 3) D.Out (secret id)) (logs id w, w.right)).sec s a =
              some (.inl (id s, w.priv s * val a (logs id w))) := by
            simp only [realI, secE, secret, hv, if_false, Option.map_some, e]
          simp only [hI, Tree.eval, hρ]
          refine next _ _ _ _ ha (fun s' => ?_) (fun s' => ?_) rfl
          · rw [status_snoc]
            by_cases he : s' = s
            · simp [he]
            · rw [Function.update_of_ne he]
              intro hne
              refine hsent s' fun hn => hne ?_
              rw [hn]
              simp [advance, Ne.symm he]
          · rw [status_snoc]
            by_cases he : s' = s
            · subst he
              rw [Function.update_self, Function.update_self, hs]
              simp [advance]
            · rw [Function.update_of_ne he, Function.update_of_ne he, advance_send_ne (Ne.symm he)]
              rfl

end

/-! ## The bound -/

section
variable (id : Fin n → Fin m)

/-- What the attacker does not know, by the logarithms of what it knows, where these are not zero. -/
noncomputable def logsEquiv : World m n ι ≃ (Known m n ι → Scalar) × ι where
  toFun w := (Sum.elim (fun p => w.gens p.1 p.2) fun s => w.priv s * Keys.unzero (w.gens (id s) w.right), w.right)
  invFun v := ⟨fun i j => v.1 (.inl (i, j)), fun s => v.1 (.inr s) * (Keys.unzero (v.1 (.inl (id s, v.2))))⁻¹, v.2⟩
  left_inv w := by
    obtain ⟨g, x, j⟩ := w
    simp [mul_assoc, mul_inv_cancel₀ (Keys.unzero_ne _)]
  right_inv v := by
    refine Prod.ext ?_ rfl
    funext i
    cases i with
    | inl i => rfl
    | inr s => simp [mul_assoc, inv_mul_cancel₀ (Keys.unzero_ne _)]

theorem logsEquiv_eq (w : World m n ι) (hw : ∀ i, w.gens i w.right ≠ 0) : logsEquiv id w = (logs id w, w.right) := by
  refine Prod.ext ?_ rfl
  funext i
  cases i with
  | inl i => rfl
  | inr s => simp [logsEquiv, logs, Keys.unzero, hw]

theorem card_vanish (g : ι → Known m n ι) :
    ell * {w : (Known m n ι → Scalar) × ι | w.1 (g w.2) = 0}.ncard ≤ Fintype.card ι * ell ^ Fintype.card (Known m n ι) := by
  classical
  have hcard : Fintype.card Scalar = ell := ZMod.card ell
  have hsub : {w : (Known m n ι → Scalar) × ι | w.1 (g w.2) = 0} ⊆ ⋃ j ∈ (Finset.univ : Finset ι),
      (fun v => (v, j)) '' {v : Known m n ι → Scalar | eval v (X (g j) : MvPolynomial (Known m n ι) Scalar) = 0} := by
    rintro ⟨v, j⟩ hv
    simp only [Set.mem_iUnion]
    exact ⟨j, Finset.mem_univ _, v, by simpa using hv, rfl⟩
  calc _ ≤ ell * ∑ j : ι, {v : Known m n ι → Scalar | eval v (X (g j) : MvPolynomial (Known m n ι) Scalar) = 0}.ncard := by
        refine Nat.mul_le_mul_left _ ((Set.ncard_le_ncard hsub (Set.toFinite _)).trans ((ncard_biUnion_le _ _).trans ?_))
        exact Finset.sum_le_sum fun j _ => Set.ncard_image_le (Set.toFinite _)
    _ ≤ ∑ _j : ι, ell ^ Fintype.card (Known m n ι) := by
        rw [Finset.mul_sum]
        refine Finset.sum_le_sum fun j _ => ?_
        have := Confirm.card_zeros (X (g j) : MvPolynomial (Known m n ι) Scalar) (X_ne_zero _)
        rw [totalDegree_X, hcard, one_mul] at this
        exact this
    _ = _ := by simp

theorem share_improper [Nonempty ι] : share {w : (Known m n ι → Scalar) × ι | Proper w}ᶜ ≤ (m + n) / ell := by
  classical
  have hcard : Fintype.card Scalar = ell := ZMod.card ell
  let g : Fin m ⊕ Fin n → ι → Known m n ι := fun x j => x.elim (fun i => .inl (i, j)) .inr
  have hsub : {w : (Known m n ι → Scalar) × ι | Proper w}ᶜ ⊆
      ⋃ x ∈ (Finset.univ : Finset (Fin m ⊕ Fin n)), {w | w.1 (g x w.2) = 0} := by
    intro w hw
    simp only [Set.mem_compl_iff, Set.mem_ofPred_eq, Proper, not_and_or, not_forall, not_not] at hw
    simp only [Set.mem_iUnion]
    rcases hw with ⟨i, hi⟩ | ⟨s, hs⟩
    · exact ⟨.inl i, Finset.mem_univ _, hi⟩
    · exact ⟨.inr s, Finset.mem_univ _, hs⟩
  have hle : ell * {w : (Known m n ι → Scalar) × ι | Proper w}ᶜ.ncard ≤
      (m + n) * (Fintype.card ι * ell ^ Fintype.card (Known m n ι)) := by
    calc _ ≤ ell * ∑ x : Fin m ⊕ Fin n, {w : (Known m n ι → Scalar) × ι | w.1 (g x w.2) = 0}.ncard :=
          Nat.mul_le_mul_left _ ((Set.ncard_le_ncard hsub (Set.toFinite _)).trans (ncard_biUnion_le _ _))
      _ ≤ ∑ _x : Fin m ⊕ Fin n, Fintype.card ι * ell ^ Fintype.card (Known m n ι) := by
          rw [Finset.mul_sum]
          exact Finset.sum_le_sum fun x _ => card_vanish (g x)
      _ = _ := by simp
  have hN : Nat.card ((Known m n ι → Scalar) × ι) = ell ^ Fintype.card (Known m n ι) * Fintype.card ι := by
    rw [Nat.card_eq_fintype_card, Fintype.card_prod, Fintype.card_fun, hcard]
  have h0 : 0 < ell := hcard ▸ Fintype.card_pos
  have hι : 0 < Fintype.card ι := Fintype.card_pos
  rw [share, hN]
  generalize {w : (Known m n ι → Scalar) × ι | Proper w}ᶜ.ncard = N at hle ⊢
  clear hN hsub hcard g
  generalize Fintype.card (Known m n ι) = c at hle ⊢
  generalize ell = l at hle h0 ⊢
  have h0 : (0 : ℚ) < l := by exact_mod_cast h0
  have hι : (0 : ℚ) < Fintype.card ι := by exact_mod_cast hι
  have hle : (_ : ℚ) ≤ _ := Nat.cast_le.2 hle
  push_cast at hle ⊢
  rw [div_le_div_iff₀ (by positivity) h0]
  linarith

theorem share_mono {Ω : Type*} [Finite Ω] {S S' : Set Ω} (h : S ⊆ S') : share S ≤ share S' := by
  rw [share, share]
  exact div_le_div_of_nonneg_right (by exact_mod_cast Set.ncard_le_ncard h (Set.toFinite _)) (Nat.cast_nonneg _)

theorem share_union {Ω : Type*} (S S' : Set Ω) : share (S ∪ S') ≤ share S + share S' := by
  rw [share, share, share, ← add_div]
  exact div_le_div_of_nonneg_right (by exact_mod_cast Set.ncard_union_le _ _) (Nat.cast_nonneg _)

/-- **C98.** The attacker runs `n` clients and servers with explicit mutual authentication under `m` session ids. It knows the generators of
all candidates for the shared secret and the public keys of the sessions, computes by adding multiples, may compare results, ask for the
first session key that belongs to a result and for the authenticators and session keys that belong to a first session key, and send
each session one result and one authenticator. It gets the messages of the sessions and the session keys of those that accept. Of
the logarithms, private keys, candidates and hash values it does not know, some session accepts, with no session on the other
side and of the same session id having the same first session key, for at most the share
`n / |ι| + T (T + 1) / ell + 3 n T² / 256^64 + (m + n) / ell`. -/
theorem C98_aucpace [Nonempty ι] (h64 : D.outLen = 64) (client : Fin n → Bool) {ssid : Fin m → Bytes} (h1 : Function.Injective ssid)
    (h2 : ∀ s, (ssid s).length = 64) (A : List (Ans G) → Step D m n ι) (T : Nat) :
    share {w : (World m n ι × (Fin m × Scalar → D.Out)) × ((Fin m × Fin 3) × D.Out → D.Out) |
        Accepted R D (drawn R D ssid w.1.2 w.2) client id ssid w.1.1 A T (fun _ => .waiting) []} ≤
      n / Fintype.card ι + T * (T + 1) / ell + 3 * n * T ^ 2 / 256 ^ 64 + (m + n) / ell := by
  classical
  have : Inhabited D.Out := ⟨⟨D.hash [], D.hash_length _⟩⟩
  have : Finite (World m n ι) := Finite.of_equiv _ (logsEquiv id).symm
  have : Nonempty (World m n ι) := ⟨⟨fun _ _ => 0, fun _ => 0, Classical.arbitrary _⟩⟩
  have hcard : Fintype.card Scalar = ell := ZMod.card ell
  have hout : Fintype.card D.Out = 256 ^ 64 := by rw [Oracle.card_out, h64]
  have hkey := share_win (L := D.Out) (laws (ι := ι) id) (ro := roles client id) (ids := id) (idOf := Prod.fst)
    (fun s => by simp only [roles]; split <;> rfl)
    (fun s c hc => by
      simp only [roles] at hc ⊢
      split at hc
      · rename_i h
        simp only [Option.mem_def, Option.some.injEq] at hc
        rw [← hc, if_pos h]
        exact ⟨rfl, by simp⟩
      · simp at hc)
    (fun s c hc => by
      simp only [roles] at hc
      split at hc
      · rename_i h
        simp only [List.mem_singleton] at hc
        rw [hc]
        exact ⟨rfl, by simp [roles, h]⟩
      · rename_i h
        simp only [List.mem_cons, List.not_mem_nil, or_false] at hc
        rcases hc with rfl | rfl <;> exact ⟨rfl, by simp [roles, h]⟩)
    (fun s a s' a' h => by
      rw [cls, cls, Sum.inr.injEq, Prod.mk.injEq] at h
      exact h.1)
    (fun s a q h => by cases h) (fun l => A (l.map (conv D))) T
  rw [hcard, hout] at hkey
  -- the parts of the hash function that `Auth` draws and that are not used
  let E : ((World m n ι × (Fin m × Scalar → D.Out)) × ((Fin m × Fin 3) × D.Out → D.Out)) × (Extra n (Fin m × Fin 3) D.Out → D.Out) ≃
      (((Known m n ι → Scalar) × ι) × ((Fin m × Scalar) ⊕ Extra n (Fin m × Fin 3) D.Out → D.Out)) ×
        ((Fin m × Fin 3) × D.Out → D.Out) :=
    { toFun := fun w => ((logsEquiv id w.1.1.1, Sum.elim w.1.1.2 w.2), w.1.2)
      invFun := fun w => ((((logsEquiv id).symm w.1.1, fun x => w.1.2 (.inl x)), w.2), fun x => w.1.2 (.inr x))
      left_inv := fun w => by simp
      right_inv := fun w => by
        refine Prod.ext (Prod.ext (by simp) ?_) rfl
        funext x
        cases x <;> rfl }
  rw [← share_equiv E] at hkey
  have himp : share {w : (World m n ι × (Fin m × Scalar → D.Out)) × ((Fin m × Fin 3) × D.Out → D.Out) |
      ¬ Proper (logsEquiv id w.1.1)} ≤ (m + n) / ell := by
    have e1 := share_fst (Ω' := (Fin m × Fin 3) × D.Out → D.Out)
      {w : World m n ι × (Fin m × Scalar → D.Out) | ¬ Proper (logsEquiv id w.1)}
    have e2 := share_fst (Ω' := Fin m × Scalar → D.Out) {w : World m n ι | ¬ Proper (logsEquiv id w)}
    have e3 := share_equiv (logsEquiv id) {w : (Known m n ι → Scalar) × ι | Proper w}ᶜ
    exact (e1.trans (e2.trans e3)).trans_le share_improper
  have hsplit : {w : (World m n ι × (Fin m × Scalar → D.Out)) × ((Fin m × Fin 3) × D.Out → D.Out) |
      Accepted R D (drawn R D ssid w.1.2 w.2) client id ssid w.1.1 A T (fun _ => .waiting) []} ⊆
      {w | Proper (logsEquiv id w.1.1) ∧ Accepted R D (drawn R D ssid w.1.2 w.2) client id ssid w.1.1 A T (fun _ => .waiting) []} ∪
      {w | ¬ Proper (logsEquiv id w.1.1)} := by
    intro w hw
    by_cases h : Proper (logsEquiv id w.1.1)
    · exact Or.inl ⟨h, hw⟩
    · exact Or.inr h
  have hproper : share {w : (World m n ι × (Fin m × Scalar → D.Out)) × ((Fin m × Fin 3) × D.Out → D.Out) |
      Proper (logsEquiv id w.1.1) ∧ Accepted R D (drawn R D ssid w.1.2 w.2) client id ssid w.1.1 A T (fun _ => .waiting) []} ≤
      n / Fintype.card ι + T * (T + 1) / ell + 3 * n * T ^ 2 / 256 ^ 64 := by
    rw [← share_fst (Ω' := Extra n (Fin m × Fin 3) D.Out → D.Out)]
    rw [Nat.cast_one, one_mul, Nat.cast_pow, Nat.cast_ofNat] at hkey
    refine le_trans (share_mono ?_) hkey
    rintro ⟨⟨⟨w, ρ⟩, f⟩, d⟩ ⟨hp, ha⟩
    have hw : ∀ i, w.gens i w.right ≠ 0 := fun i => hp.1 i
    refine ⟨hp, ?_⟩
    have := win_of_accepted h64 h1 h2 client id ρ (Sum.elim ρ d) (fun _ => rfl) f w hw A T (fun _ => none) []
      (fun s h => (h rfl).elim) ha
    simp only [E, Equiv.coe_fn_mk, realRun, logsEquiv_eq id w hw]
    exact this
  have h1 := share_mono hsplit
  have h2 := share_union {w : (World m n ι × (Fin m × Scalar → D.Out)) × ((Fin m × Fin 3) × D.Out → D.Out) |
      Proper (logsEquiv id w.1.1) ∧ Accepted R D (drawn R D ssid w.1.2 w.2) client id ssid w.1.1 A T (fun _ => .waiting) []}
      {w | ¬ Proper (logsEquiv id w.1.1)}
  linarith

/-- A value of the hash function from its bytes. -/
def outOf (b : Bytes) : D.Out := if h : b.length = D.outLen then ⟨b, h⟩ else ⟨D.hash [], D.hash_length _⟩

theorem outOf_eq (l : D.Out) : outOf D l.1 = l := by
  rw [outOf, dif_pos l.2]

/-- **C98 (the guess).** Who names the right candidate is accepted: an attacker sends its generator to the session, asks for the first session
key that belongs to the public key of the session and for the authenticator that belongs to it, and sends that. -/
theorem C98_aucpace_guess (h64 : D.outLen = 64) (client : Fin n → Bool) {ssid : Fin m → Bytes} (h1 : Function.Injective ssid)
    (h2 : ∀ s, (ssid s).length = 64) (s : Fin n) (g : ι) :
    ∃ A : List (Ans G) → Step D m n ι, ∀ (w : World m n ι) (ρ : Fin m × Scalar → D.Out) (f : (Fin m × Fin 3) × D.Out → D.Out),
      w.right = g → w.gens (id s) g ≠ 0 →
        Accepted R D (drawn R D ssid ρ f) client id ssid w A 4 (fun _ => .waiting) [] := by
  classical
  refine ⟨fun h => match h with
    | [] => .send s (pick (.inl (id s, g)))
    | [_] => .ask (.inl (id s, pick (.inr s)))
    | [_, .hash b] => .ask (.inr (.inl ((roles client id).expect s, outOf D b)))
    | [_, _, .hash b] => .ask (.inr (.inr (s, outOf D b)))
    | _ => .compare 0, fun w ρ f hg h0 => ?_⟩
  have hv1 : val (pick (.inl (id s, g))) (logs id w) = w.gens (id s) g := by
    have := comb_pick R (logs id w) (.inl (id s, g))
    rw [comb_eq] at this
    exact smul_left_injective Scalar R.base_ne_zero this
  have hv2 : val (pick (.inr s)) (logs id w) = w.priv s * w.gens (id s) g := by
    have := comb_pick R (logs id w) (.inr s)
    rw [comb_eq] at this
    rw [← hg]
    exact smul_left_injective Scalar R.base_ne_zero this
  have ht : ∀ (c : Fin m × Fin 3) (l : D.Out), (drawn R D ssid ρ f).hash (inp (tagByte c.2) (ssid c.1 ++ l.1)) = (f (c, l)).1 :=
    fun c l => hash_drawn R D h1 h2 ρ f c.1 c.2 l
  simp only [Accepted]
  rw [sendKey_eq R D h64 h1 h2, hv1, if_neg h0]
  simp only [List.nil_append, List.cons_append]
  rw [comb_eq, hv2, sk1_drawn R D h1 h2, outOf_eq]
  obtain ⟨c, hc⟩ : ∃ c, (roles client id).expect s = c := ⟨_, rfl⟩
  simp only [hc]
  rw [ht, outOf_eq]
  left
  rw [Function.update_self]
  refine ⟨by rw [sendTag_eq R D h64 h1 h2, hc, if_pos rfl], fun s' _ hne => Or.inl ?_⟩
  rw [Function.update_of_ne (fun e => hne (by rw [e]))]
  rfl

/-- The hash to the generators is not replaced. -/
theorem gen_drawn (ssid : Fin m → Bytes) (ρ : Fin m × Scalar → D.Out) (f : (Fin m × Fin 3) × D.Out → D.Out) (i prs ci : Bytes) :
    gen R (drawn R D ssid ρ f) i prs ci = gen R D i prs ci := by
  have h : ¬ ∃ p : (Fin m × Fin 3) × D.Out, inp 1 (i ++ prs ++ ci) = inp (tagByte p.1.2) (ssid p.1.1 ++ p.2.1) := by
    rintro ⟨⟨⟨j, c⟩, l⟩, e⟩
    rw [inp_inj] at e
    have h1 : ∀ c : Fin 3, (1 : UInt8) ≠ tagByte c := by decide
    exact h1 c e.1
  unfold gen
  congr 1
  refine (hash_drawnKeys_other R (drawnTags D ssid f) ρ (m := 1) (by decide)).trans ?_
  simp only [drawnTags, Digest.program, dif_neg h]
  rfl

/-- **C98 (the elements).** What `C98_aucpace` calls the public key of session `s` is what the client and the server send, if the generators
`gens i j • base` are those of the candidates `prs j`; the state in which `C98_aucpace` starts the session is the one they keep. -/
theorem C98_aucpace_elements {σc σs : Type} (rngC : Rng σc) (rngS : Rng σs) (w : World m n ι) (s : Fin n) (ssid : Fin m → Bytes)
    (ρ : Fin m × Scalar → D.Out) (f : (Fin m × Fin 3) × D.Out → D.Out) (prs : ι → Bytes) (ci : Bytes)
    (hgen : gen R D (ssid (id s)) (prs w.right) ci = w.gens (id s) w.right • R.base) (c : σc) (t : σs) :
    (draw (rngC.fill c 64).1 = w.priv s →
      (Client.generatePublicKey R (drawn R D ssid ρ f) rngC ⟨ssid (id s), prs w.right⟩ ci c).1 =
        (⟨ssid (id s), w.priv s⟩, .publicKey (logs id w (.inr s) • R.base))) ∧
    (draw (rngS.fill t 64).1 = w.priv s →
      Server.generatePublicKey R (drawn R D ssid ρ f) rngS ⟨ssid (id s), prs w.right, t⟩ ci =
        (⟨ssid (id s), w.priv s⟩, .publicKey (logs id w (.inr s) • R.base))) := by
  have e : logs id w (.inr s) • R.base = w.priv s • w.gens (id s) w.right • R.base := mul_smul _ _ _
  constructor
  · intro h
    rw [client_generatePublicKey_eq, gen_drawn, h, hgen, e]
  · intro h
    rw [server_generatePublicKey_eq, gen_drawn]
    simp only [h, hgen, e]

/-- The hypotheses of these theorems hold for SHA-512, a client and a server of one session id, and two candidates. -/
example : ∃ (ssid : Fin 1 → Bytes) (w : World 1 2 Bool), Function.Injective ssid ∧ (∀ i, (ssid i).length = 64) ∧ sha512.outLen = 64 ∧
    w.right = true ∧ w.gens 0 true ≠ 0 := by
  refine ⟨fun _ => List.replicate 64 7, ⟨fun _ _ => 1, fun _ => 2, true⟩, fun i j _ => Subsingleton.elim _ _, fun _ => by simp, rfl, rfl,
    one_ne_zero⟩

/-- For 10000 candidates, one session and 2^64 steps the bound is less than 1/9999. -/
example : (1 : ℚ) / 10000 + 2 ^ 64 * (2 ^ 64 + 1) / ell + 3 * 1 * (2 ^ 64) ^ 2 / 256 ^ 64 + (1 + 1) / ell < 1 / 9999 := by
  norm_num [ell]

end

end Verif.Aucpace.Impostor
