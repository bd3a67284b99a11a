import Verif.Spake2.Guess

/-!
# C97: SPAKE2 keys look random, even to those who know the passwords

In C95 the attacker looks for the password. Here it knows the passwords of all sessions from the start and wants to know something about
the keys. The keys are compared with keys drawn at random, one for each pair of messages, except for the sessions to which the attacker has
answered with a point made from its own scalar and the password: these keys it can compute. The comparison includes the sessions whose
messages the attacker only passes on; so keys stay secret though the password becomes known.
-/

set_option linter.unusedSectionVars false

namespace Verif.Spake2.Keys
open Ed25519 (Point base)
open Confirm Guess MvPolynomial

variable (D : Digest) {n : Nat}

/-- The transcript without the shared point, as the attacker can write it down: hash values and two elements, for symmetric sides in the
order of their encodings. -/
inductive Head (n : Nat) where
  | ab (pre : {p : Bytes // p.length = 96}) (p : Elt n × Elt n)
  | sym (pre : {p : Bytes // p.length = 64}) (p : Sym2 (Elt n))

/-- The encodings of two points in the order of a symmetric transcript. -/
def sortedPt (P Q : Point) : Bytes := Spec.sorted (Ed25519.compress P) (Ed25519.compress Q)

theorem sortedPt_comm (P Q : Point) : sortedPt P Q = sortedPt Q P :=
  sorted_comm _ _ ((Ed25519.compress_length P).trans (Ed25519.compress_length Q).symm)

/-- The same for two elements. -/
def sortedEl (v : Fin 3 ⊕ Fin n → Scalar) (a b : Elt n) : Bytes := sortedPt (a.at v) (b.at v)

theorem sortedEl_comm (v : Fin 3 ⊕ Fin n → Scalar) (a b : Elt n) : sortedEl v a b = sortedEl v b a :=
  sortedPt_comm _ _

/-- The same for an unordered pair. -/
def sortedAt (v : Fin 3 ⊕ Fin n → Scalar) (p : Sym2 (Elt n)) : Bytes := Sym2.lift ⟨sortedEl v, sortedEl_comm v⟩ p

/-- The string. -/
def Head.bytes (v : Fin 3 ⊕ Fin n → Scalar) : Head n → Bytes
  | .ab pre p => pre.1 ++ Ed25519.compress (p.1.at v) ++ Ed25519.compress (p.2.at v)
  | .sym pre p => pre.1 ++ sortedAt v p

/-- A step of the attacker: it asks for the hash value of a transcript, sends a point to a session, or compares a point with the
neutral one. -/
abbrev Step (n : Nat) : Type := Act n (Fin 3 ⊕ Fin n) Scalar (Head n × Elt n) (Elt n)

/-- The points known to the attacker besides the base point: the constants and what the sessions send, which have different
passwords. -/
def logs (side : Fin n → Side) (pw : Fin n → Bytes) (w : Unknown n Unit) : Fin 3 ⊕ Fin n → Scalar
  | .inl i => w.consts i
  | .inr s => w.priv s + pwLog (pw s) * w.consts (mineIx (side s))

/-- `k` steps of the attacker, with the hash function `hash` and the answers `reply` of the sessions. A session takes one point; it is gone
afterwards. -/
def history (v : Fin 3 ⊕ Fin n → Scalar) (hash : Bytes → Bytes) (reply : Fin n → Elt n → Answer) (A : List Answer → Step n) :
    Nat → (Fin n → Bool) → List Answer → List Answer
  | 0, _, hist => hist
  | k + 1, gone, hist => match A hist with
    | .ask q => history v hash reply A k gone (hist ++ [.hash (hash (q.1.bytes v ++ Ed25519.compress (q.2.at v)))])
    | .compare c => history v hash reply A k gone (hist ++ [.equal (decide (combPt v c = 0))])
    | .send s e =>
      if gone s then history v hash reply A k gone (hist ++ [.gone])
      else history v hash reply A k (Function.update gone s true) (hist ++ [reply s e])

/-- The real answers: what `finish` returns. -/
def realReply (D : Digest) (side : Fin n → Side) (pw : Fin n → Bytes) (w : Unknown n Unit) (s : Fin n) (e : Elt n) : Answer :=
  returned D (groupOf w) (side s) (pw s) (w.priv s) (e.at (logs side pw w))

/-- The point is made from a known scalar and the password, as an honest peer does. -/
def Made (side : Fin n → Side) (pw : Fin n → Bytes) (s : Fin n) (c : Coef (Fin 3 ⊕ Fin n) Scalar) : Prop :=
  ∀ i, c (some i) = if i = .inl (peersIx (side s)) then pwLog (pw s) else 0

/-- What anybody can see of the transcript of a session (spake2/src/ed25519.rs:132-217): all but the shared point. -/
def publicPart (side : Side) (pw own peer : Bytes) : Bytes :=
  match side with
  | .A idA idB => D.hash pw ++ D.hash idA ++ D.hash idB ++ own ++ peer
  | .B idA idB => D.hash pw ++ D.hash idA ++ D.hash idB ++ peer ++ own
  | .symmetric idS => D.hash pw ++ D.hash idS ++ Spec.sorted own peer

/-- Strings as long as the public part. -/
def Pub : Type := {x : Bytes // x.length = 160 ∨ x.length = 128}

instance : Finite Pub :=
  ((finite_bytes 160).union (finite_bytes 128)).to_subtype

noncomputable instance : Fintype Pub := Fintype.ofFinite _

theorem sorted_length {a b : Bytes} (ha : a.length = 32) (hb : b.length = 32) : (Spec.sorted a b).length = 64 := by
  unfold Spec.sorted
  split <;> simp [ha, hb]

variable {D} in
theorem publicPart_length (h32 : D.outLen = 32) (side : Side) (pw : Bytes) {own peer : Bytes} (ho : own.length = 32)
    (hp : peer.length = 32) : (publicPart D side pw own peer).length = 160 ∨ (publicPart D side pw own peer).length = 128 := by
  have hh : ∀ x, (D.hash x).length = 32 := fun x => (D.hash_length x).trans h32
  cases side with
  | A a b => left; simp [publicPart, hh, ho, hp]
  | B a b => left; simp [publicPart, hh, ho, hp]
  | symmetric i => right; simp [publicPart, hh, sorted_length ho hp]

variable {D} in
open Classical in
/-- The ideal answers: the key is the value of a random function `κ` at the public part of the transcript, unless the point was made by the
attacker from a known scalar. -/
noncomputable def idealReply (h32 : D.outLen = 32) (side : Fin n → Side) (pw : Fin n → Bytes) (w : Unknown n Unit)
    (ρ : Long → D.Out) (κ : Pub → D.Out) (s : Fin n) (e : Elt n) : Answer :=
  if Made side pw s e.1 then realReply (drawnLong D ρ) side pw w s e
  else .key (κ ⟨publicPart D (side s) (pw s) (Ed25519.compress ((own s).at (logs side pw w)))
    (Ed25519.compress (e.at (logs side pw w))), publicPart_length h32 _ _ (Ed25519.compress_length _) (Ed25519.compress_length _)⟩).1

theorem sortedAt_mk (v : Fin 3 ⊕ Fin n → Scalar) (a b : Elt n) :
    sortedAt v s(a, b) = Spec.sorted (Ed25519.compress (a.at v)) (Ed25519.compress (b.at v)) := rfl

theorem Head.length (v : Fin 3 ⊕ Fin n → Scalar) (c : Head n) : (c.bytes v).length = 160 ∨ (c.bytes v).length = 128 := by
  cases c with
  | ab pre p =>
    left
    simp [Head.bytes, pre.2, Ed25519.compress_length]
  | sym pre p =>
    right
    induction p using Sym2.ind with
    | _ a b => simp [Head.bytes, sortedAt_mk, pre.2, sorted_length (Ed25519.compress_length _) (Ed25519.compress_length _)]

/-- The string of a question. -/
def asked (w : (Fin 3 ⊕ Fin n → Scalar) × Unit) (q : Head n × Elt n) : Long :=
  ⟨q.1.bytes w.1 ++ Ed25519.compress (q.2.at w.1), by
    rw [List.length_append, Ed25519.compress_length]
    have := q.1.length w.1
    omega⟩

section
variable {D} (h32 : D.outLen = 32) (side : Fin n → Side) (pw : Fin n → Bytes)
include h32

/-- The transcript without the shared point of a session that is sent `e`. -/
def head (s : Fin n) (e : Elt n) : Head n :=
  have hh : ∀ x, (D.hash x).length = 32 := fun x => (D.hash_length x).trans h32
  match side s with
  | .A a b => .ab ⟨D.hash (pw s) ++ D.hash a ++ D.hash b, by simp [hh]⟩ (own s, e)
  | .B a b => .ab ⟨D.hash (pw s) ++ D.hash a ++ D.hash b, by simp [hh]⟩ (e, own s)
  | .symmetric i => .sym ⟨D.hash (pw s) ++ D.hash i, by simp [hh]⟩ s(own s, e)

theorem head_bytes (v : Fin 3 ⊕ Fin n → Scalar) (s : Fin n) (e : Elt n) :
    (head h32 side pw s e).bytes v =
      publicPart D (side s) (pw s) (Ed25519.compress ((own s).at v)) (Ed25519.compress (e.at v)) := by
  unfold head
  cases hs : side s <;> rfl

theorem transcript_eq (v : Fin 3 ⊕ Fin n → Scalar) (s : Fin n) (e : Elt n) (K : Point) :
    transcriptWith D (side s) (pw s) (Ed25519.compress ((own s).at v)) (Ed25519.compress (e.at v)) K =
      (head h32 side pw s e).bytes v ++ Ed25519.compress K := by
  rw [head_bytes]
  cases side s <;> rfl

end

section
variable (side : Fin n → Side) (pw : Fin n → Bytes)

/-- The factors of the scalar of a session, and of what is left of the sent point when the password is taken out. -/
def own1 (s : Fin n) : Coef (Fin 3 ⊕ Fin n) Scalar := scalarCoef side (fun _ : Unit => pw s) () s
def rest1 (s : Fin n) (c : Coef (Fin 3 ⊕ Fin n) Scalar) : Coef (Fin 3 ⊕ Fin n) Scalar := restCoef side (fun _ : Unit => pw s) () s c

/-- The point a session shares with the sender of `e`. -/
def shared (v : Fin 3 ⊕ Fin n → Scalar) (s : Fin n) (e : Elt n) : Point :=
  (val (own1 side pw s) v).val • (e.at v + toPt (-pwLog (pw s) * v (.inl (peersIx (side s)))))

theorem val_own1 (s : Fin n) (v : Fin 3 ⊕ Fin n → Scalar) :
    val (own1 side pw s) v = v (.inr s) - pwLog (pw s) * v (.inl (mineIx (side s))) :=
  val_scalarCoef side (fun _ : Unit => pw s) () s v

theorem val_rest1 (s : Fin n) (c : Coef (Fin 3 ⊕ Fin n) Scalar) (v : Fin 3 ⊕ Fin n → Scalar) :
    val (rest1 side pw s c) v = val c v + -pwLog (pw s) * v (.inl (peersIx (side s))) :=
  val_restCoef side (fun _ : Unit => pw s) () s c v

theorem rest1_made {s : Fin n} {c : Coef (Fin 3 ⊕ Fin n) Scalar} : Made side pw s c ↔ ∀ i, rest1 side pw s c (some i) = 0 := by
  refine forall_congr' fun i => ?_
  simp only [rest1, restCoef, sub_eq_zero, Option.some.injEq]
  split <;> simp

/-- The shared point of a session that was sent a point made from a known scalar. -/
def computed (s : Fin n) (e : Elt n) : Elt n := (fun o => e.1 none * own1 side pw s o, ⟨0, smul_zero _⟩)

theorem val_computed (s : Fin n) (e : Elt n) (v : Fin 3 ⊕ Fin n → Scalar) :
    val (computed side pw s e).1 v = e.1 none * val (own1 side pw s) v := by
  simp only [val, computed, mul_add, Finset.mul_sum, mul_assoc]

theorem shared_computed {s : Fin n} {e : Elt n} (h : Made side pw s e.1) (h2 : e.2.1 = 0) (v : Fin 3 ⊕ Fin n → Scalar) :
    shared side pw v s e = (computed side pw s e).at v := by
  have hr : val e.1 v + -pwLog (pw s) * v (.inl (peersIx (side s))) = e.1 none := by
    rw [← val_rest1]
    have hz := (rest1_made side pw).1 h
    simp only [val, hz, zero_mul, Finset.sum_const_zero, add_zero]
    simp [rest1, restCoef]
  rw [shared, Elt.at, Elt.at, h2, combPt_eq, combPt_eq, add_zero, ← toPt_add, hr, val_smul_toPt, val_computed, mul_comm]
  exact (add_zero _).symm

/-- The shared point of two sessions whose messages are passed on. -/
theorem shared_own (v : Fin 3 ⊕ Fin n → Scalar) {s s' : Fin n} (h : peersIx (side s) = mineIx (side s')) (hp : pw s = pw s') :
    shared side pw v s (own s') = toPt (val (own1 side pw s) v * val (own1 side pw s') v) := by
  rw [shared, own_at, ← toPt_add, val_smul_toPt, h, hp]
  refine congrArg toPt (congrArg _ ?_)
  rw [val_own1]
  ring

end

section
variable {D}

theorem pre96 (h32 : D.outLen = 32) {a b c a' b' c' : Bytes} (h : D.hash a ++ D.hash b ++ D.hash c = D.hash a' ++ D.hash b' ++ D.hash c') :
    D.hash a = D.hash a' := by
  have hh : ∀ x, (D.hash x).length = 32 := fun x => (D.hash_length x).trans h32
  rw [List.append_assoc, List.append_assoc] at h
  exact (List.append_inj h (by rw [hh, hh])).1

theorem pre64 (h32 : D.outLen = 32) {a b a' b' : Bytes} (h : D.hash a ++ D.hash b = D.hash a' ++ D.hash b') :
    D.hash a = D.hash a' := by
  have hh : ∀ x, (D.hash x).length = 32 := fun x => (D.hash_length x).trans h32
  exact (List.append_inj h (by rw [hh, hh])).1

/-- Sessions with the same public part share the same point. -/
theorem shared_same (h32 : D.outLen = 32) (side : Fin n → Side) (pw : Fin n → Bytes)
    (hpw : ∀ s s', D.hash (pw s) = D.hash (pw s') → pw s = pw s') (v : Fin 3 ⊕ Fin n → Scalar) {s s' : Fin n} {e e' : Elt n}
    (h : head h32 side pw s e = head h32 side pw s' e') : shared side pw v s e = shared side pw v s' e' := by
  have key : ∀ {s s' : Fin n} {e e' : Elt n}, peersIx (side s) = mineIx (side s') → peersIx (side s') = mineIx (side s) →
      pw s = pw s' → own s = e' → e = own s' → shared side pw v s e = shared side pw v s' e' := by
    intro s s' e e' h1 h2 hp h3 h4
    rw [h4, ← h3, shared_own side pw v h1 hp, shared_own side pw v h2 hp.symm, mul_comm]
  unfold head at h
  cases hs : side s with
  | A a b =>
    cases hs' : side s' with
    | A a' b' =>
      simp only [hs, hs', Head.ab.injEq, Subtype.mk.injEq, Prod.mk.injEq] at h
      obtain ⟨-, h1, rfl⟩ := h
      cases own_inj h1
      rfl
    | B a' b' =>
      simp only [hs, hs', Head.ab.injEq, Subtype.mk.injEq, Prod.mk.injEq] at h
      exact key (by rw [hs, hs']; rfl) (by rw [hs, hs']; rfl) (hpw _ _ (pre96 h32 h.1)) h.2.1 h.2.2
    | symmetric i' => simp [hs, hs'] at h
  | B a b =>
    cases hs' : side s' with
    | A a' b' =>
      simp only [hs, hs', Head.ab.injEq, Subtype.mk.injEq, Prod.mk.injEq] at h
      exact key (by rw [hs, hs']; rfl) (by rw [hs, hs']; rfl) (hpw _ _ (pre96 h32 h.1)) h.2.2 h.2.1
    | B a' b' =>
      simp only [hs, hs', Head.ab.injEq, Subtype.mk.injEq, Prod.mk.injEq] at h
      obtain ⟨-, rfl, h1⟩ := h
      cases own_inj h1
      rfl
    | symmetric i' => simp [hs, hs'] at h
  | symmetric i =>
    cases hs' : side s' with
    | A a' b' => simp [hs, hs'] at h
    | B a' b' => simp [hs, hs'] at h
    | symmetric i' =>
      simp only [hs, hs', Head.sym.injEq, Subtype.mk.injEq, Sym2.eq_iff] at h
      obtain ⟨hp, ⟨h1, rfl⟩ | ⟨h1, h2⟩⟩ := h
      · cases own_inj h1
        rfl
      · exact key (by rw [hs, hs']; rfl) (by rw [hs, hs']; rfl) (hpw _ _ (pre64 h32 hp)) h1 h2

end

open Classical in
/-- A polynomial that is not zero if two public parts differ, but vanishes where they are the same string. -/
noncomputable def headDif : Head n → Head n → MvPolynomial (Fin 3 ⊕ Fin n) Scalar
  | .ab pre p, .ab pre' p' => if pre = pre' then dif2 p p' else 1
  | .sym pre p, .sym pre' p' => if pre = pre' then dif2 (Quot.out p) (Quot.out p') * dif2 (Quot.out p) (Quot.out p').swap else 1
  | _, _ => 1

theorem headDif_degree (c c' : Head n) : (headDif c c').totalDegree ≤ 2 := by
  unfold headDif
  split
  · split
    · exact (dif2_degree _ _).trans (by norm_num)
    · simp
  · split
    · refine (totalDegree_mul _ _).trans ?_
      rename_i p _ p' _
      have := dif2_degree (Quot.out p) (Quot.out p')
      have := dif2_degree (Quot.out p) (Quot.out p').swap
      omega
    · simp
  · simp

theorem out_mk (p : Sym2 (Elt n)) : s((Quot.out p).1, (Quot.out p).2) = p := Quot.out_eq p

theorem headDif_hit {v : Fin 3 ⊕ Fin n → Scalar} {c c' : Head n} (hne : c ≠ c') (h : c.bytes v = c'.bytes v) :
    headDif c c' ≠ 0 ∧ eval v (headDif c c') = 0 := by
  have hl := Ed25519.compress_length
  have hs : ∀ p : Sym2 (Elt n), (sortedAt v p).length = 64 := by
    intro p
    induction p using Sym2.ind with
    | _ a b => rw [sortedAt_mk]; exact sorted_length (hl _) (hl _)
  cases c with
  | ab pre p =>
    cases c' with
    | ab pre' p' =>
      simp only [Head.bytes] at h
      obtain ⟨h, h2⟩ := append32 h (hl _) (hl _)
      obtain ⟨h, h1⟩ := append32 h (hl _) (hl _)
      cases Subtype.ext h
      simp only [headDif, if_true]
      exact ⟨dif2_ne_zero fun e => hne (by rw [e]), dif2_eval (Ed25519.compress_injective h1) (Ed25519.compress_injective h2)⟩
    | sym pre' p' =>
      have := congrArg List.length h
      simp [Head.bytes, hl, hs, pre.2, pre'.2] at this
  | sym pre p =>
    cases c' with
    | ab pre' p' =>
      have := congrArg List.length h
      simp [Head.bytes, hl, hs, pre.2, pre'.2] at this
    | sym pre' p' =>
      simp only [Head.bytes] at h
      obtain ⟨h, h1⟩ := List.append_inj h (by rw [pre.2, pre'.2])
      cases Subtype.ext h
      have hp : p ≠ p' := fun e => hne (by rw [e])
      rw [← out_mk p, ← out_mk p', sortedAt_mk, sortedAt_mk] at h1
      rw [← out_mk p, ← out_mk p', Ne, Sym2.eq_iff, not_or] at hp
      simp only [headDif, if_true]
      refine ⟨mul_ne_zero (dif2_ne_zero fun e => hp.1 ⟨congrArg Prod.fst e, congrArg Prod.snd e⟩)
        (dif2_ne_zero fun e => hp.2 ⟨congrArg Prod.fst e, congrArg Prod.snd e⟩), ?_⟩
      rw [map_mul]
      rcases sorted_inj (hl _) (hl _) (hl _) (hl _) h1 with ⟨h1, h2⟩ | ⟨h1, h2⟩
      · have h1 : (Quot.out p).1.at v = (Quot.out p').1.at v := Ed25519.compress_injective h1
        have h2 : (Quot.out p).2.at v = (Quot.out p').2.at v := Ed25519.compress_injective h2
        rw [dif2_eval h1 h2, zero_mul]
      · have h1 : (Quot.out p).1.at v = (Quot.out p').swap.1.at v := Ed25519.compress_injective h1
        have h2 : (Quot.out p).2.at v = (Quot.out p').swap.2.at v := Ed25519.compress_injective h2
        rw [dif2_eval h1 h2, mul_zero]

open Classical in
/-- The same for questions. -/
noncomputable def askDif (q q' : Head n × Elt n) : MvPolynomial (Fin 3 ⊕ Fin n) Scalar :=
  if q.1 = q'.1 then dif q.2 q'.2 else headDif q.1 q'.1

theorem askDif_degree (q q' : Head n × Elt n) : (askDif q q').totalDegree ≤ 2 := by
  unfold askDif
  split
  · exact (dif_degree _ _).trans (by norm_num)
  · exact headDif_degree _ _

theorem askDif_hit {w : (Fin 3 ⊕ Fin n → Scalar) × Unit} {q q' : Head n × Elt n} (hne : q ≠ q') (h : asked w q = asked w q') :
    askDif q q' ≠ 0 ∧ eval w.1 (askDif q q') = 0 := by
  have h := congrArg Subtype.val h
  simp only [asked] at h
  obtain ⟨h1, h2⟩ := append32 h (Ed25519.compress_length _) (Ed25519.compress_length _)
  unfold askDif
  split
  · rename_i he
    exact ⟨dif_ne_zero fun e => hne (Prod.ext he e), dif_eval (Ed25519.compress_injective h2)⟩
  · rename_i he
    exact headDif_hit he h1

/-- The same for a question and the secret of a session. -/
noncomputable def prodDif (side : Fin n → Side) (pw : Fin n → Bytes) (s : Fin n) (e c : Elt n) : MvPolynomial (Fin 3 ⊕ Fin n) Scalar :=
  form c.1 - form (own1 side pw s) * form (rest1 side pw s e.1)

theorem prodDif_degree (side : Fin n → Side) (pw : Fin n → Bytes) (s : Fin n) (e c : Elt n) : (prodDif side pw s e c).totalDegree ≤ 2 := by
  refine (totalDegree_sub _ _).trans (max_le ((form_degree _).trans (by norm_num)) ?_)
  refine (totalDegree_mul _ _).trans ?_
  have := form_degree (own1 side pw s)
  have := form_degree (rest1 side pw s e.1)
  omega

theorem prodDif_hit {side : Fin n → Side} {pw : Fin n → Bytes} {v : Fin 3 ⊕ Fin n → Scalar} {s : Fin n} {e c : Elt n}
    (hm : ¬ Made side pw s e.1) (h : shared side pw v s e = c.at v) :
    prodDif side pw s e c ≠ 0 ∧ eval v (prodDif side pw s e c) = 0 := by
  refine ⟨fun h0 => hm ?_, ?_⟩
  · rw [rest1_made]
    exact product_const (i := .inr s) (by simp [own1, scalarCoef]) (sub_eq_zero.1 h0)
  · rw [shared, Elt.at, Elt.at, combPt_eq, combPt_eq] at h
    have h8 := eight_parts e.2.2 c.2.2 h
    simp only [prodDif, map_sub, map_mul, eval_form, val_rest1]
    rw [h8, sub_self]

section
variable {D} (h32 : D.outLen = 32) (side : Fin n → Side) (pw : Fin n → Bytes)

open Classical in
/-- What a session that is sent `e` hashes. Points of small order added to a point made from a known scalar are left out. -/
noncomputable def secret (w : (Fin 3 ⊕ Fin n → Scalar) × Unit) (s : Fin n) (e : Elt n) : Option Long :=
  if Made side pw s e.1 ∧ e.2.1 ≠ 0 then none
  else some ⟨(head h32 side pw s e).bytes w.1 ++ Ed25519.compress (shared side pw w.1 s e), by
    rw [List.length_append, Ed25519.compress_length]
    have := (head h32 side pw s e).length w.1
    omega⟩

open Classical in
/-- The same in the ideal game. -/
noncomputable def secretIdeal (w : (Fin 3 ⊕ Fin n → Scalar) × Unit) (s : Fin n) (e : Elt n) : Option (Long ⊕ Pub) :=
  if Made side pw s e.1 then (secret h32 side pw w s e).map .inl
  else some (.inr ⟨(head h32 side pw s e).bytes w.1, (head h32 side pw s e).length w.1⟩)

open Classical in
/-- Which secrets are the same in any case. -/
noncomputable def cls (s : Fin n) (e : Elt n) : (Head n × Elt n) ⊕ (Head n ⊕ Fin n × Elt n) :=
  if Made side pw s e.1 then
    if e.2.1 = 0 then .inl (head h32 side pw s e, computed side pw s e) else .inr (.inr (s, e))
  else .inr (.inl (head h32 side pw s e))

theorem cls_open {s : Fin n} {e : Elt n} (h : Made side pw s e.1) (h2 : e.2.1 = 0) :
    cls h32 side pw s e = .inl (head h32 side pw s e, computed side pw s e) := by
  rw [cls, if_pos h, if_pos h2]

theorem cls_fresh {s : Fin n} {e : Elt n} (h : ¬ Made side pw s e.1) :
    cls h32 side pw s e = .inr (.inl (head h32 side pw s e)) := by
  rw [cls, if_neg h]

theorem secret_open {s : Fin n} {e : Elt n} (h : Made side pw s e.1) (h2 : e.2.1 = 0) (w : (Fin 3 ⊕ Fin n → Scalar) × Unit) :
    secret h32 side pw w s e = some (asked w (head h32 side pw s e, computed side pw s e)) := by
  have : ¬ (Made side pw s e.1 ∧ e.2.1 ≠ 0) := fun h' => h'.2 h2
  rw [secret, if_neg this]
  refine congrArg some (Subtype.ext ?_)
  simp only [asked, shared_computed side pw h h2]

theorem secret_none {s : Fin n} {e : Elt n} (h : Made side pw s e.1) (h2 : e.2.1 ≠ 0) (w : (Fin 3 ⊕ Fin n → Scalar) × Unit) :
    secret h32 side pw w s e = none := by
  rw [secret, if_pos ⟨h, h2⟩]

theorem secret_fresh {s : Fin n} {e : Elt n} (h : ¬ Made side pw s e.1) (w : (Fin 3 ⊕ Fin n → Scalar) × Unit) :
    ∃ x, secret h32 side pw w s e = some x ∧
      x.1 = (head h32 side pw s e).bytes w.1 ++ Ed25519.compress (shared side pw w.1 s e) := by
  have : ¬ (Made side pw s e.1 ∧ e.2.1 ≠ 0) := fun h' => h h'.1
  rw [secret, if_neg this]
  exact ⟨_, rfl, rfl⟩

open Classical in
/-- A polynomial for a question and what a session is sent, -/
noncomputable def sendDif (s : Fin n) (e : Elt n) (q : Head n × Elt n) : MvPolynomial (Fin 3 ⊕ Fin n) Scalar :=
  if Made side pw s e.1 then askDif (head h32 side pw s e, computed side pw s e) q else prodDif side pw s e q.2

open Classical in
/-- and for what two sessions are sent. -/
noncomputable def pairDif (s : Fin n) (e : Elt n) (s' : Fin n) (e' : Elt n) : MvPolynomial (Fin 3 ⊕ Fin n) Scalar :=
  if Made side pw s e.1 then sendDif h32 side pw s' e' (head h32 side pw s e, computed side pw s e)
  else if Made side pw s' e'.1 then sendDif h32 side pw s e (head h32 side pw s' e', computed side pw s' e')
  else headDif (head h32 side pw s e) (head h32 side pw s' e')

theorem sendDif_degree (s : Fin n) (e : Elt n) (q : Head n × Elt n) : (sendDif h32 side pw s e q).totalDegree ≤ 2 := by
  unfold sendDif
  split
  · exact askDif_degree _ _
  · exact prodDif_degree _ _ _ _ _

theorem pairDif_degree (s : Fin n) (e : Elt n) (s' : Fin n) (e' : Elt n) : (pairDif h32 side pw s e s' e').totalDegree ≤ 2 := by
  unfold pairDif
  split
  · exact sendDif_degree _ _ _ _ _ _
  · split
    · exact sendDif_degree _ _ _ _ _ _
    · exact headDif_degree _ _

variable {h32 side pw}

theorem made_zero {s : Fin n} {e : Elt n} {w : (Fin 3 ⊕ Fin n → Scalar) × Unit} {x : Long} (hm : Made side pw s e.1)
    (h : secret h32 side pw w s e = some x) : e.2.1 = 0 := by
  by_contra h2
  rw [secret_none h32 side pw hm h2] at h
  cases h

theorem sendDif_hit {s : Fin n} {e : Elt n} {q : Head n × Elt n} {w : (Fin 3 ⊕ Fin n → Scalar) × Unit}
    (hne : cls h32 side pw s e ≠ .inl q) (h : secret h32 side pw w s e = some (asked w q)) :
    sendDif h32 side pw s e q ≠ 0 ∧ eval w.1 (sendDif h32 side pw s e q) = 0 := by
  by_cases hm : Made side pw s e.1
  · have h2 := made_zero hm h
    rw [secret_open h32 side pw hm h2, Option.some.injEq] at h
    rw [cls_open h32 side pw hm h2] at hne
    rw [sendDif, if_pos hm]
    exact askDif_hit (fun e => hne (by rw [e])) h
  · obtain ⟨x, hx, hb⟩ := secret_fresh h32 side pw hm w
    rw [hx, Option.some.injEq] at h
    rw [h] at hb
    simp only [asked] at hb
    obtain ⟨-, hK⟩ := append32 hb (Ed25519.compress_length _) (Ed25519.compress_length _)
    rw [sendDif, if_neg hm]
    exact prodDif_hit hm (Ed25519.compress_injective hK).symm

theorem pairDif_hit {s s' : Fin n} {e e' : Elt n} {x : Long} {w : (Fin 3 ⊕ Fin n → Scalar) × Unit}
    (hne : cls h32 side pw s e ≠ cls h32 side pw s' e') (h : secret h32 side pw w s e = some x)
    (h' : secret h32 side pw w s' e' = some x) :
    pairDif h32 side pw s e s' e' ≠ 0 ∧ eval w.1 (pairDif h32 side pw s e s' e') = 0 := by
  unfold pairDif
  by_cases hm : Made side pw s e.1
  · have h2 := made_zero hm h
    rw [secret_open h32 side pw hm h2] at h
    rw [cls_open h32 side pw hm h2] at hne
    rw [if_pos hm]
    exact sendDif_hit hne.symm (h'.trans h.symm)
  · rw [if_neg hm]
    by_cases hm' : Made side pw s' e'.1
    · have h2 := made_zero hm' h'
      rw [secret_open h32 side pw hm' h2] at h'
      rw [cls_open h32 side pw hm' h2] at hne
      rw [if_pos hm']
      exact sendDif_hit hne (h.trans h'.symm)
    · rw [if_neg hm']
      rw [cls_fresh h32 side pw hm, cls_fresh h32 side pw hm'] at hne
      obtain ⟨y, hy, hb⟩ := secret_fresh h32 side pw hm w
      obtain ⟨y', hy', hb'⟩ := secret_fresh h32 side pw hm' w
      rw [hy, Option.some.injEq] at h
      rw [hy', Option.some.injEq] at h'
      subst h
      subst h'
      rw [hb] at hb'
      exact headDif_hit (fun e => hne (by rw [e])) (append32 hb' (Ed25519.compress_length _) (Ed25519.compress_length _)).1

theorem cls_eq {s s' : Fin n} {e e' : Elt n} (h : cls h32 side pw s e = cls h32 side pw s' e') :
    (s = s' ∧ e = e') ∨ (∃ q, cls h32 side pw s e = .inl q) ∨
      (¬ Made side pw s e.1 ∧ ¬ Made side pw s' e'.1 ∧ head h32 side pw s e = head h32 side pw s' e') := by
  unfold cls at h ⊢
  by_cases hm : Made side pw s e.1
  · by_cases h2 : e.2.1 = 0
    · exact Or.inr (Or.inl ⟨_, by rw [if_pos hm, if_pos h2]⟩)
    · left
      rw [if_pos hm, if_neg h2] at h
      by_cases hm' : Made side pw s' e'.1
      · by_cases h2' : e'.2.1 = 0
        · rw [if_pos hm', if_pos h2'] at h
          cases h
        · rw [if_pos hm', if_neg h2', Sum.inr.injEq, Sum.inr.injEq, Prod.mk.injEq] at h
          exact h
      · rw [if_neg hm'] at h
        cases h
  · rw [if_neg hm] at h ⊢
    by_cases hm' : Made side pw s' e'.1
    · by_cases h2' : e'.2.1 = 0
      · rw [if_pos hm', if_pos h2'] at h
        cases h
      · rw [if_pos hm', if_neg h2'] at h
        cases h
    · rw [if_neg hm', Sum.inr.injEq, Sum.inl.injEq] at h
      exact Or.inr (Or.inr ⟨hm, hm', h⟩)

theorem cls_inl {s : Fin n} {e : Elt n} {q : Head n × Elt n} (h : cls h32 side pw s e = .inl q) :
    Made side pw s e.1 ∧ e.2.1 = 0 ∧ q = (head h32 side pw s e, computed side pw s e) := by
  unfold cls at h
  by_cases hm : Made side pw s e.1
  · by_cases h2 : e.2.1 = 0
    · rw [if_pos hm, if_pos h2, Sum.inl.injEq] at h
      exact ⟨hm, h2, h.symm⟩
    · rw [if_pos hm, if_neg h2] at h
      cases h
  · rw [if_neg hm] at h
    cases h

theorem opened (w : (Fin 3 ⊕ Fin n → Scalar) × Unit) {s : Fin n} {e : Elt n} {q : Head n × Elt n}
    (h : cls h32 side pw s e = .inl q) : secret h32 side pw w s e = some (asked w q) := by
  obtain ⟨hm, h2, rfl⟩ := cls_inl h
  exact secret_open h32 side pw hm h2 w

variable (h32 side pw)

/-- Points of the real game are the same only by an identity or where a polynomial vanishes, -/
noncomputable def laws (hpw : ∀ s s', D.hash (pw s) = D.hash (pw s') → pw s = pw s') :
    Laws asked (secret h32 side pw) (cls h32 side pw) (fun s e => Made side pw s e.1 ∧ e.2.1 ≠ 0) (fun _ _ => ∅) 0 Set.univ where
  qq := askDif
  qs _ := sendDif h32 side pw
  ss _ := pairDif h32 side pw
  zz _ _ _ := 0
  deg_qq := askDif_degree
  deg_qs _ := sendDif_degree h32 side pw
  deg_ss _ := pairDif_degree h32 side pw
  deg_zz _ _ _ := by simp
  triv_card := by simp
  ask_ask w _ q q' hne h := askDif_hit hne h
  ask_send w _ s e q hne h := Or.inr (sendDif_hit hne h)
  send_send w _ s e s' e' x hne h h' := pairDif_hit hne h h'
  same := by
    rintro w - s e s' e' h
    rcases cls_eq h with ⟨rfl, rfl⟩ | ⟨q, hq⟩ | ⟨hm, hm', hh⟩
    · rfl
    · rw [opened w hq, opened w (h.symm.trans hq)]
    · obtain ⟨x, hx, hb⟩ := secret_fresh h32 side pw hm w
      obtain ⟨x', hx', hb'⟩ := secret_fresh h32 side pw hm' w
      rw [hx, hx']
      refine congrArg some (Subtype.ext ?_)
      rw [hb, hb', hh, shared_same h32 side pw hpw w.1 hh]
  opened w _ s e q h := opened w h
  refuse w _ s e := by
    left
    unfold secret
    split <;> simp_all

theorem secretIdeal_fresh {s : Fin n} {e : Elt n} (h : ¬ Made side pw s e.1) (w : (Fin 3 ⊕ Fin n → Scalar) × Unit) :
    secretIdeal h32 side pw w s e = some (.inr ⟨(head h32 side pw s e).bytes w.1, (head h32 side pw s e).length w.1⟩) := by
  rw [secretIdeal, if_neg h]

theorem secretIdeal_made {s : Fin n} {e : Elt n} (h : Made side pw s e.1) (w : (Fin 3 ⊕ Fin n → Scalar) × Unit) :
    secretIdeal h32 side pw w s e = (secret h32 side pw w s e).map .inl := by
  rw [secretIdeal, if_pos h]

theorem secretIdeal_inl {s : Fin n} {e : Elt n} {w : (Fin 3 ⊕ Fin n → Scalar) × Unit} {x : Long}
    (h : secretIdeal h32 side pw w s e = some (.inl x)) : Made side pw s e.1 ∧ secret h32 side pw w s e = some x := by
  by_cases hm : Made side pw s e.1
  · rw [secretIdeal_made h32 side pw hm] at h
    simpa [hm] using h
  · rw [secretIdeal_fresh h32 side pw hm] at h
    cases h

theorem secretIdeal_inr {s : Fin n} {e : Elt n} {w : (Fin 3 ⊕ Fin n → Scalar) × Unit} {x : Pub}
    (h : secretIdeal h32 side pw w s e = some (.inr x)) : ¬ Made side pw s e.1 ∧ x.1 = (head h32 side pw s e).bytes w.1 := by
  by_cases hm : Made side pw s e.1
  · rw [secretIdeal_made h32 side pw hm] at h
    simp at h
  · rw [secretIdeal_fresh h32 side pw hm] at h
    exact ⟨hm, (congrArg Subtype.val (Sum.inr.inj (Option.some.inj h))).symm⟩

/-- and so are points of the ideal game. -/
noncomputable def lawsIdeal :
    Laws (fun w q => Sum.inl (asked w q)) (secretIdeal h32 side pw) (cls h32 side pw)
      (fun s e => Made side pw s e.1 ∧ e.2.1 ≠ 0) (fun _ _ => ∅) 0 Set.univ where
  qq := askDif
  qs _ := sendDif h32 side pw
  ss _ := pairDif h32 side pw
  zz _ _ _ := 0
  deg_qq := askDif_degree
  deg_qs _ := sendDif_degree h32 side pw
  deg_ss _ := pairDif_degree h32 side pw
  deg_zz _ _ _ := by simp
  triv_card := by simp
  ask_ask w _ q q' hne h := askDif_hit hne (Sum.inl.inj h)
  ask_send w _ s e q hne h := Or.inr (sendDif_hit hne (secretIdeal_inl h32 side pw h).2)
  send_send := by
    rintro w - s e s' e' (x | x) hne h h'
    · exact pairDif_hit hne (secretIdeal_inl h32 side pw h).2 (secretIdeal_inl h32 side pw h').2
    · obtain ⟨hm, hx⟩ := secretIdeal_inr h32 side pw h
      obtain ⟨hm', hx'⟩ := secretIdeal_inr h32 side pw h'
      rw [cls_fresh h32 side pw hm, cls_fresh h32 side pw hm'] at hne
      have := headDif_hit (v := w.1) (fun e => hne (by rw [e])) (hx.symm.trans hx')
      simp only [zeros, Set.mem_ofPred_eq, pairDif, if_neg hm, if_neg hm']
      exact this
  same := by
    rintro w - s e s' e' h
    rcases cls_eq h with ⟨rfl, rfl⟩ | ⟨q, hq⟩ | ⟨hm, hm', hh⟩
    · rfl
    · have hq' := h.symm.trans hq
      rw [secretIdeal_made h32 side pw (cls_inl hq).1, secretIdeal_made h32 side pw (cls_inl hq').1, opened w hq, opened w hq']
    · rw [secretIdeal_fresh h32 side pw hm, secretIdeal_fresh h32 side pw hm']
      simp only [hh]
  opened w _ s e q h := by
    rw [secretIdeal_made h32 side pw (cls_inl h).1, opened w h]
    rfl
  refuse w _ s e := by
    left
    by_cases hm : Made side pw s e.1
    · rw [secretIdeal_made h32 side pw hm, Option.map_eq_none_iff]
      unfold secret
      split <;> simp_all
    · rw [secretIdeal_fresh h32 side pw hm]
      simp [hm]

end

/-- How the answers follow from the hash value. -/
def shown : Step n → Reply D.Out → Answer
  | .ask _, .value l => .hash l.1
  | .compare _, .equal b => .equal b
  | .send _ _, .value l => .key l.1
  | _, _ => .gone

theorem history_eq {Y : Type} {side : Fin n → Side} {pw : Fin n → Bytes}
    {pt : (Fin 3 ⊕ Fin n → Scalar) × Unit → Head n × Elt n → Y} {sec : (Fin 3 ⊕ Fin n → Scalar) × Unit → Fin n → Elt n → Option Y}
    {ρ : Y → D.Out} {v : Fin 3 ⊕ Fin n → Scalar} {hash : Bytes → Bytes} {reply : Fin n → Elt n → Answer}
    (hh : ∀ q, hash (q.1.bytes v ++ Ed25519.compress (q.2.at v)) = (ρ (pt (v, ()) q)).1)
    (hr : ∀ s e, (Made side pw s e.1 → e.2.1 = 0) → ∃ x, sec (v, ()) s e = some x ∧ reply s e = .key (ρ x).1)
    {A : List Answer → Step n} (hA : ∀ hist s e, A hist = .send s e → Made side pw s e.1 → e.2.1 = 0)
    (k : Nat) (gone : Fin n → Bool) (sent : Fin n → Option (Elt n)) (hist : List Answer) (hs : ∀ s, gone s = (sent s).isSome) :
    history v hash reply A k gone hist = (play (realI pt sec (v, ())) A (shown D) k sent hist).eval ρ := by
  induction k generalizing gone sent hist with
  | zero => rfl
  | succ k ih =>
    cases hc : A hist with
    | ask q =>
      simp only [history, play, hc, Tree.eval, realI]
      rw [hh]
      exact ih _ _ _ hs
    | compare c =>
      simp only [history, play, hc]
      have hd : decide (combPt v c = 0) = (realI pt sec (v, ()) : Interp n _ _ _ _ _).zero c := by
        simp only [realI, decide_eq_decide]
        rw [combPt_eq]
        constructor
        · intro h
          exact toPt_inj (h.trans toPt_zero.symm)
        · intro h
          rw [h, toPt_zero]
      rw [ih _ _ _ hs, hd]
      rfl
    | send s e =>
      simp only [history, play, hc, hs s]
      by_cases hg : (sent s).isSome = true
      · rw [if_pos hg, if_pos hg]
        exact ih _ _ _ hs
      · have hs' : ∀ s', Function.update gone s true s' = (Function.update sent s (some e) s').isSome := by
          intro s'
          by_cases he : s' = s
          · subst he; simp
          · rw [Function.update_of_ne he, Function.update_of_ne he, hs]
        obtain ⟨x, hx, hk⟩ := hr s e (hA hist s e hc)
        rw [if_neg hg, if_neg hg, hk]
        simp only [realI, hx, Tree.eval]
        exact ih _ _ _ hs'

section
variable {D} (h32 : D.outLen = 32) {side : Fin n → Side} {pw : Fin n → Bytes}

/-- The key of a session is the hash of its secret. -/
theorem realReply_eq (hshort : ∀ s, Short (side s) (pw s)) (w : Unknown n Unit) (ρ : Long → D.Out) (s : Fin n) (e : Elt n)
    (he : Made side pw s e.1 → e.2.1 = 0) :
    ∃ x, secret h32 side pw (logs side pw w, ()) s e = some x ∧ realReply (drawnLong D ρ) side pw w s e = .key (ρ x).1 := by
  have hbad : ¬ (Made side pw s e.1 ∧ e.2.1 ≠ 0) := fun h => h.2 (he h.1)
  refine ⟨_, if_neg hbad, ?_⟩
  have hx : val (own1 side pw s) (logs side pw w) = w.priv s := by
    rw [val_own1]
    exact add_sub_cancel_right _ _
  have hK : sharedWith (fun _ => pw s) w s (side s) (e.at (logs side pw w)) = shared side pw (logs side pw w) s e := by
    rw [sharedWith, shared, hx]
    rfl
  have hown : toPt (w.priv s + pwLog (pw s) * w.consts (mineIx (side s))) = (own s).at (logs side pw w) := by
    rw [own_at]
    rfl
  have h := returned_eq (D := drawnLong D ρ) h32 (fun _ => pw s) w s (side s) (e.at (logs side pw w))
  rw [transcriptWith_drawnLong D ρ (hshort s), hK, hown, transcript_eq h32] at h
  rw [realReply, h]
  refine congrArg Answer.key ?_
  exact drawnLong_long D ρ ⟨_, _⟩

/-- The key in the ideal game. -/
theorem idealReply_eq (hshort : ∀ s, Short (side s) (pw s)) (w : Unknown n Unit) (ρ : Long → D.Out) (κ : Pub → D.Out) (s : Fin n)
    (e : Elt n) (he : Made side pw s e.1 → e.2.1 = 0) :
    ∃ x, secretIdeal h32 side pw (logs side pw w, ()) s e = some x ∧
      idealReply h32 side pw w ρ κ s e = .key (Sum.elim ρ κ x).1 := by
  by_cases hm : Made side pw s e.1
  · obtain ⟨x, hx, hk⟩ := realReply_eq h32 hshort w ρ s e he
    refine ⟨.inl x, by rw [secretIdeal_made h32 side pw hm, hx]; rfl, ?_⟩
    rw [idealReply, if_pos hm, hk]
    rfl
  · refine ⟨_, secretIdeal_fresh h32 side pw hm _, ?_⟩
    rw [idealReply, if_neg hm]
    simp only [head_bytes]
    rfl

/-- What the attacker does not know, by the logarithms of what it knows. -/
def logsEquiv (side : Fin n → Side) (pw : Fin n → Bytes) : Unknown n Unit ≃ (Fin 3 ⊕ Fin n → Scalar) × Unit where
  toFun w := (logs side pw w, ())
  invFun v := ⟨fun i => v.1 (.inl i), fun s => v.1 (.inr s) - pwLog (pw s) * v.1 (.inl (mineIx (side s))), ()⟩
  left_inv w := by
    obtain ⟨c, x, u⟩ := w
    simp [logs]
  right_inv v := by
    refine Prod.ext ?_ rfl
    funext i
    cases i <;> simp [logs]

/-- **C97 (SPAKE2).** The attacker runs `n` sessions of sides and identities of its choice, whose passwords it knows, and knows the constants
and what the sessions send. It computes by adding multiples; it may compare results, ask for the hash value of transcripts with results in
them, and send one result to each session, possibly with a point of small order added, and gets the session's key. In the ideal game a
session gets, instead of its key, the value of a random function at what is public of its transcript, unless it was sent a point made from
a known scalar and the password. No set of histories of `T` steps tells the games apart better than by `2 T (T + 1) / ell`. -/
theorem C97_spake2 (side : Fin n → Side) (pw : Fin n → Bytes) (hpw : ∀ s s', D.hash (pw s) = D.hash (pw s') → pw s = pw s')
    (hshort : ∀ s, Short (side s) (pw s)) (A : List Answer → Step n)
    (hA : ∀ hist s e, A hist = .send s e → Made side pw s e.1 → e.2.1 = 0) (T : Nat) (P : Set (List Answer)) :
    |share {w : Unknown n Unit × (Long → D.Out) |
        history (logs side pw w.1) (drawnLong D w.2).hash (realReply (drawnLong D w.2) side pw w.1) A T (fun _ => false) [] ∈ P} -
      share {w : Unknown n Unit × (Long → D.Out) × (Pub → D.Out) |
        history (logs side pw w.1) (drawnLong D w.2.1).hash (idealReply h32 side pw w.1 w.2.1 w.2.2) A T (fun _ => false) [] ∈ P}| ≤
      2 * T * (T + 1) / ell := by
  classical
  have : Inhabited D.Out := ⟨⟨D.hash [], D.hash_length _⟩⟩
  have hkey := share_compare (L := D.Out) asked (secret h32 side pw) (cls h32 side pw) _ _ A (shown D) _ (secretIdeal h32 side pw)
    Set.univ (laws h32 side pw hpw) (lawsIdeal h32 side pw) (· ∈ P) T
  simp only [Set.mem_univ, true_and] at hkey
  have hcard : Fintype.card Scalar = ell := ZMod.card ell
  rw [hcard] at hkey
  have e1 := share_equiv ((logsEquiv side pw).prodCongr (Equiv.refl (Long → D.Out)))
    {w | (play (realI asked (secret h32 side pw) w.1) A (shown D) T (fun _ => none) []).eval w.2 ∈ P}
  have e2 := share_equiv ((logsEquiv side pw).prodCongr (Equiv.sumArrowEquivProdArrow Long Pub D.Out).symm)
    {w | (play (realI (fun w q => Sum.inl (asked w q)) (secretIdeal h32 side pw) w.1) A (shown D) T (fun _ => none) []).eval w.2 ∈ P}
  rw [← e1, ← e2] at hkey
  have s1 : {w : Unknown n Unit × (Long → D.Out) |
        history (logs side pw w.1) (drawnLong D w.2).hash (realReply (drawnLong D w.2) side pw w.1) A T (fun _ => false) [] ∈ P} =
      {w | (logsEquiv side pw).prodCongr (Equiv.refl (Long → D.Out)) w ∈
        {w | (play (realI asked (secret h32 side pw) w.1) A (shown D) T (fun _ => none) []).eval w.2 ∈ P}} := by
    ext ⟨w, ρ⟩
    have h := history_eq D (ρ := ρ) (pt := asked) (sec := secret h32 side pw) (v := logs side pw w)
      (fun q => drawnLong_long D ρ (asked (logs side pw w, ()) q)) (realReply_eq h32 hshort w ρ) hA T (fun _ => false)
      (fun _ => none) [] fun _ => rfl
    rw [Set.mem_ofPred_eq, h]
    rfl
  have s2 : {w : Unknown n Unit × (Long → D.Out) × (Pub → D.Out) |
        history (logs side pw w.1) (drawnLong D w.2.1).hash (idealReply h32 side pw w.1 w.2.1 w.2.2) A T (fun _ => false) [] ∈ P} =
      {w | (logsEquiv side pw).prodCongr (Equiv.sumArrowEquivProdArrow Long Pub D.Out).symm w ∈
        {w | (play (realI (fun w q => Sum.inl (asked w q)) (secretIdeal h32 side pw) w.1) A (shown D) T (fun _ => none) []).eval w.2 ∈
          P}} := by
    ext ⟨w, ρ, κ⟩
    have h := history_eq D (ρ := Sum.elim ρ κ) (pt := fun w q => Sum.inl (asked w q)) (sec := secretIdeal h32 side pw)
      (v := logs side pw w) (fun q => drawnLong_long D ρ (asked (logs side pw w, ()) q)) (idealReply_eq h32 hshort w ρ κ) hA T
      (fun _ => false) (fun _ => none) [] fun _ => rfl
    rw [Set.mem_ofPred_eq, h]
    rfl
  rw [s1, s2]
  refine hkey.trans (le_of_eq ?_)
  push_cast
  ring

/-- **C97 (SPAKE2, messages passed on).** What a session sends is not made from a known scalar, so for a session that is sent the message of
another one the ideal game uses a random key; and two sides with the same password and identities whose messages are passed on get the
same. -/
theorem C97_spake2_passive (w : Unknown n Unit) (ρ : Long → D.Out) (κ : Pub → D.Out) (s s' : Fin n) :
    (∃ x : Pub, x.1 = publicPart D (side s) (pw s) (Ed25519.compress ((own s).at (logs side pw w)))
        (Ed25519.compress ((own s').at (logs side pw w))) ∧ idealReply h32 side pw w ρ κ s (own s') = .key (κ x).1) ∧
      (∀ a b, side s = .A a b → side s' = .B a b → pw s = pw s' →
        idealReply h32 side pw w ρ κ s (own s') = idealReply h32 side pw w ρ κ s' (own s)) := by
  have hm : ∀ s s' : Fin n, ¬ Made side pw s (own s').1 := by
    intro s s' h
    have := h (.inr s')
    simp [own] at this
  refine ⟨⟨_, rfl, if_neg (hm s s')⟩, ?_⟩
  intro a b hs hs' hp
  rw [idealReply, idealReply, if_neg (hm s s'), if_neg (hm s' s)]
  have e : publicPart D (side s) (pw s) (Ed25519.compress ((own s).at (logs side pw w))) (Ed25519.compress ((own s').at (logs side pw w))) =
      publicPart D (side s') (pw s') (Ed25519.compress ((own s').at (logs side pw w))) (Ed25519.compress ((own s).at (logs side pw w))) := by
    simp only [hs, hs', hp, publicPart]
  simp only [e]

include h32 in
/-- **C97 (SPAKE2, the exception).** The key of a session that was sent a point made from a known scalar the attacker can compute: it asks for
a hash value and is told the key. -/
theorem C97_spake2_made (hshort : ∀ s, Short (side s) (pw s)) (s : Fin n) (e : Elt n) (hm : Made side pw s e.1) (h2 : e.2.1 = 0) :
    ∃ A : List Answer → Step n, ∀ (w : Unknown n Unit) (ρ : Long → D.Out), ∃ k,
      history (logs side pw w) (drawnLong D ρ).hash (realReply (drawnLong D ρ) side pw w) A 2 (fun _ => false) [] = [.key k, .hash k] := by
  refine ⟨fun h => if h.length = 0 then .send s e else .ask (head h32 side pw s e, computed side pw s e), fun w ρ => ?_⟩
  obtain ⟨x, hx, hk⟩ := realReply_eq h32 hshort w ρ s e fun _ => h2
  rw [secret_open h32 side pw hm h2, Option.some.injEq] at hx
  refine ⟨(ρ x).1, ?_⟩
  simp only [history, List.length_nil, if_true, Bool.false_eq_true, if_false, hk, List.nil_append, List.length_singleton,
    one_ne_zero, List.singleton_append]
  rw [← hx, ← drawnLong_long D ρ]
  rfl

end

/-- The hypotheses of `C97_spake2` hold for SHA-256 and an attacker that passes on the messages of two sessions and then asks for the hash
value of a transcript without knowing the shared point. -/
example : ∃ (side : Fin 2 → Side) (pw : Fin 2 → Bytes) (A : List Answer → Step 2),
    (∀ s s', sha256.hash (pw s) = sha256.hash (pw s') → pw s = pw s') ∧ (∀ s, Short (side s) (pw s)) ∧
      (∀ hist s e, A hist = .send s e → Made side pw s e.1 → e.2.1 = 0) ∧ A [] = .send 0 (own 1) := by
  let side : Fin 2 → Side := ![.A (ascii "a") (ascii "b"), .B (ascii "a") (ascii "b")]
  refine ⟨side, fun _ => ascii "secret",
    fun h => if h.length = 0 then .send 0 (own 1) else if h.length = 1 then .send 1 (own 0)
      else .ask (head (D := sha256) rfl side (fun _ => ascii "secret") 0 (own 1), own 0), fun _ _ _ => rfl, ?_, ?_, rfl⟩
  · intro s x hx
    have : x = ascii "secret" ∨ x = ascii "a" ∨ x = ascii "b" := by
      fin_cases s <;> simp [side, ownHashed] at hx <;> tauto
    rcases this with rfl | rfl | rfl <;> decide
  · intro hist s e h _
    simp only at h
    split at h
    · simp only [Act.send.injEq] at h
      rw [← h.2]
      rfl
    · split at h
      · simp only [Act.send.injEq] at h
        rw [← h.2]
        rfl
      · cases h

end Verif.Spake2.Keys
