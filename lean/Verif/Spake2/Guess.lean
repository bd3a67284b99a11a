import Verif.Basic.Guess
import Verif.Spake2.Oracle
import Verif.Spake2.Confirm

/-!
# C95: how often an attacker of SPAKE2 finds the right candidate

The SPAKE2 part of `Aucpace.Guess`. The hash function is drawn at random on the strings that are as long as a transcript; the attacker
is given the key of each session. If it passes on the messages of two sessions, they get the same key; this is the case that AuCPace's
different session ids exclude.
-/

set_option linter.unusedSectionVars false

namespace Verif.Spake2
open Ed25519 (Point base)
open Confirm Guess

variable (D : Digest)

/-- Strings as long as a transcript: six or five strings of 32 bytes. -/
def Long : Type := {x : Bytes // x.length = 192 ∨ x.length = 160}

instance : Finite Long :=
  ((finite_bytes 192).union (finite_bytes 160)).to_subtype

noncomputable instance : Fintype Long := Fintype.ofFinite _

/-- The hash function `D` with other values `ρ` at the long strings. -/
def drawnLong (ρ : Long → D.Out) : Digest :=
  D.program fun x => if h : x.length = 192 ∨ x.length = 160 then some (ρ ⟨x, h⟩) else none

/-- The strings that a session hashes besides the transcript do not have the length of a transcript. -/
def Short (side : Side) (pw : Bytes) : Prop := ∀ x ∈ ownHashed side pw, x.length ≠ 192 ∧ x.length ≠ 160

/-- A sum of multiples, and a point of small order. -/
abbrev Elt (n : Nat) : Type := Coef (Fin 3 ⊕ Fin n) Scalar × {t : Point // 8 • t = 0}

/-- The point for an element with the logarithms `v`. -/
def Elt.at {n : Nat} (v : Fin 3 ⊕ Fin n → Scalar) (e : Elt n) : Point := combPt v e.1 + e.2.1

/-- A question to the hash function: a string that begins with hash values and ends with three points. -/
structure Question (n : Nat) where
  pre : {p : Bytes // p.length = 96 ∨ p.length = 64}
  e1 : Elt n
  e2 : Elt n
  e3 : Elt n

/-- The string. -/
def Question.bytes {n : Nat} (v : Fin 3 ⊕ Fin n → Scalar) (q : Question n) : Bytes :=
  q.pre.1 ++ Ed25519.compress (q.e1.at v) ++ Ed25519.compress (q.e2.at v) ++ Ed25519.compress (q.e3.at v)

/-- A step of the attacker: it asks the hash function, sends a point to a session, or compares a point with the neutral one. -/
abbrev Step (n : Nat) : Type := Act n (Fin 3 ⊕ Fin n) Scalar (Question n) (Elt n)

/-- What the attacker gets: the value of the hash, the answer to a comparison, or what `finish` returned for the point sent. -/
inductive Answer where
  | hash (b : Bytes)
  | equal (b : Bool)
  | key (b : Bytes)
  | refused (e : Error)
  | panicked
  | gone

/-- What a session returns for the point `Y` (`start_internal`, spake2/src/lib.rs:445-483 and `finish`, spake2/src/lib.rs:372-443). -/
def returned (D : Digest) (G : GroupOps Scalar Point) (side : Side) (pw : Bytes) (x : Scalar) (Y : Point) : Answer :=
  match startInternal G side pw x with
  | .ok (st, _) => match finishWith D G st (Spec.accepts side :: Ed25519.compress Y) with
    | .ok k => .key k
    | .err e => .refused e
    | .panic => .panicked
  | .err e => .refused e
  | .panic => .panicked

/-- `k` steps of the attacker. A session takes one point; it is gone afterwards. -/
def history {n : Nat} {ι : Type} (D : Digest) (side : Fin n → Side) (pw : ι → Bytes) (w : Unknown n ι)
    (A : List Answer → Step n) : Nat → (Fin n → Bool) → List Answer → List Answer
  | 0, _, hist => hist
  | k + 1, gone, hist => match A hist with
    | .ask q => history D side pw w A k gone (hist ++ [.hash (D.hash (q.bytes (logs side pw w)))])
    | .compare c => history D side pw w A k gone (hist ++ [.equal (decide (combPt (logs side pw w) c = 0))])
    | .send s a =>
      if gone s then history D side pw w A k gone (hist ++ [.gone])
      else history D side pw w A k (Function.update gone s true)
        (hist ++ [returned D (groupOf w) (side s) (pw w.right) (w.priv s) (a.at (logs side pw w))])

theorem drawnLong_long (ρ : Long → D.Out) (x : Long) : (drawnLong D ρ).hash x.1 = (ρ x).1 := by
  simp only [drawnLong, Digest.program, dif_pos x.2]
  rfl

theorem drawnLong_short (ρ : Long → D.Out) {x : Bytes} (h : x.length ≠ 192 ∧ x.length ≠ 160) :
    (drawnLong D ρ).hash x = D.hash x := by
  have : ¬ (x.length = 192 ∨ x.length = 160) := by tauto
  simp only [drawnLong, Digest.program, dif_neg this]

theorem transcriptWith_drawnLong (ρ : Long → D.Out) {side : Side} {pw : Bytes} (h : Short side pw) (own peer : Bytes) (K : Point) :
    transcriptWith (drawnLong D ρ) side pw own peer K = transcriptWith D side pw own peer K := by
  have : ∀ x ∈ ownHashed side pw, (drawnLong D ρ).hash x = D.hash x := fun x hx => drawnLong_short D ρ (h x hx)
  cases side <;> simp only [ownHashed, List.mem_cons, List.not_mem_nil, or_false, forall_eq_or_imp, forall_eq] at this <;>
    simp [transcriptWith, this]

variable {D} in
theorem transcriptWith_length (h32 : D.outLen = 32) (side : Side) (pw : Bytes) {own peer : Bytes} (ho : own.length = 32)
    (hp : peer.length = 32) (K : Point) :
    (transcriptWith D side pw own peer K).length = 192 ∨ (transcriptWith D side pw own peer K).length = 160 := by
  have hh : ∀ x, (D.hash x).length = 32 := fun x => (D.hash_length x).trans h32
  cases side with
  | A a b => left; simp [transcriptWith, hh, ho, hp, Ed25519.compress_length]
  | B a b => left; simp [transcriptWith, hh, ho, hp, Ed25519.compress_length]
  | symmetric i =>
    right
    have : (Spec.sorted own peer).length = 64 := by
      unfold Spec.sorted
      split <;> simp [ho, hp]
    simp [transcriptWith, hh, this, Ed25519.compress_length]

theorem Lawful.finishWith_eq {G : GroupOps Scalar Point} (L : Lawful G) (s : State Scalar) {c : UInt8} {body : Bytes}
    (hb : body.length = G.elementLength) {P : Point} (hc : c = Spec.accepts s.side) (hP : G.bytesToElement body = some P) :
    finishWith D G s (c :: body) = deriveKeyWith D s.side s.passwordVec s.msg1 body (G.elementToBytes
      (L.rep s.xyScalar • (P + L.rep (G.scalarNeg s.passwordScalar) • L.peers s.side))) := by
  have hlen : (c :: body).length = 1 + G.elementLength := by simp [hb, add_comm]
  have hs : slice (c :: body) 1 (c :: body).length = some body := by
    simp [slice]
  simp only [finishWith, hlen, ne_eq, not_true_eq_false, if_false]
  rw [← hlen, hs]
  simp only [List.getElem?_cons_zero, Res.unwrap, Res.bind_ok, checkSide_eq, hc, hP, Res.okOr,
    L.unblinding_eq, L.scalarmult_eq, L.add_eq, if_true]

variable {D} in
theorem returned_eq {n : Nat} {ι : Type} (h32 : D.outLen = 32) (pw : ι → Bytes) (w : Unknown n ι) (s : Fin n) (side : Side)
    (Y : Point) :
    returned D (groupOf w) side (pw w.right) (w.priv s) Y =
      .key (D.hash (transcriptWith D side (pw w.right)
        (Ed25519.compress (toPt (w.priv s + pwLog (pw w.right) * w.consts (mineIx side)))) (Ed25519.compress Y)
          (sharedWith pw w s side Y))) := by
  let L := edWithLawful (w.consts 0) (w.consts 1) (w.consts 2)
  have hw : (groupOf w).hashToScalar (pw w.right) = .ok (pwLog (pw w.right)) := hashToScalar_eq _
  have hmine : L.mine side = toPt (w.consts (mineIx side)) := by cases side <;> rfl
  have hpeers : L.peers side = toPt (w.consts (peersIx side)) := by cases side <;> rfl
  have hown : L.rep (w.priv s) • L.base + L.rep (pwLog (pw w.right)) • L.mine side =
      toPt (w.priv s + pwLog (pw w.right) * w.consts (mineIx side)) := by
    rw [hmine, toPt_add, ← val_smul_toPt]
    rfl
  have hstart := L.start_eq side hw (w.priv s)
  have hfin := L.finishWith_eq D (L.state side (pw w.right) (pwLog (pw w.right)) (w.priv s)) (c := Spec.accepts side)
    (L.encode_length Y) rfl (L.decode_encode Y)
  have hK : L.rep (w.priv s) • (Y + L.rep ((groupOf w).scalarNeg (pwLog (pw w.right))) • L.peers side) =
      sharedWith pw w s side Y := by
    rw [hpeers]
    show (w.priv s).val • (Y + (-pwLog (pw w.right)).val • _) = _
    rw [val_smul_toPt]
    rfl
  have hfin' : finishWith D (groupOf w) (L.state side (pw w.right) (pwLog (pw w.right)) (w.priv s))
      (Spec.accepts side :: Ed25519.compress Y) = .ok (D.hash (transcriptWith D side (pw w.right)
        (Ed25519.compress (toPt (w.priv s + pwLog (pw w.right) * w.consts (mineIx side)))) (Ed25519.compress Y)
          (sharedWith pw w s side Y))) := by
    refine hfin.trans ?_
    rw [← hown, ← hK]
    exact deriveKeyWith_eq h32 side _ _ _ _ (Ed25519.compress_length _) (Ed25519.compress_length _)
  have hstart' : startInternal (groupOf w) side (pw w.right) (w.priv s) = _ := hstart
  simp only [returned, hstart', hfin']

/-- The scalar of a session. -/
def scalarOf {n : Nat} {ι : Type} (side : Fin n → Side) (pw : ι → Bytes) (w : (Fin 3 ⊕ Fin n → Scalar) × ι) (s : Fin n) : Scalar :=
  w.1 (.inr s) - pwLog (pw w.2) * w.1 (.inl (mineIx (side s)))

/-- The point a session shares with the sender of `e`. -/
def sharedPt {n : Nat} {ι : Type} (side : Fin n → Side) (pw : ι → Bytes) (w : (Fin 3 ⊕ Fin n → Scalar) × ι) (s : Fin n)
    (e : Elt n) : Point :=
  (scalarOf side pw w s).val • (e.at w.1 + toPt (-pwLog (pw w.2) * w.1 (.inl (peersIx (side s)))))

variable {D} in
/-- The transcript of a session that is sent `e`. -/
def secret {n : Nat} {ι : Type} (h32 : D.outLen = 32) (side : Fin n → Side) (pw : ι → Bytes)
    (w : (Fin 3 ⊕ Fin n → Scalar) × ι) (s : Fin n) (e : Elt n) : Option Long :=
  some ⟨transcriptWith D (side s) (pw w.2) (Ed25519.compress (toPt (w.1 (.inr s)))) (Ed25519.compress (e.at w.1))
    (sharedPt side pw w s e), transcriptWith_length h32 _ _ (Ed25519.compress_length _) (Ed25519.compress_length _) _⟩

/-- The string of a question. -/
def asked {n : Nat} {ι : Type} (w : (Fin 3 ⊕ Fin n → Scalar) × ι) (q : Question n) : Long :=
  ⟨q.bytes w.1, by
    obtain ⟨⟨p, hp⟩, e1, e2, e3⟩ := q
    simp only [Question.bytes, List.length_append, Ed25519.compress_length]
    omega⟩

/-- How the answers follow from the hash value. -/
def shown {n : Nat} : Step n → Reply D.Out → Answer
  | .ask _, .value l => .hash l.1
  | .compare _, .equal b => .equal b
  | .send _ _, .value l => .key l.1
  | _, _ => .gone

theorem toPt_zero : toPt 0 = 0 := by rw [toPt, ZMod.val_zero, zero_nsmul]

theorem history_eq {n : Nat} {ι : Type} (h32 : D.outLen = 32) {side : Fin n → Side} {pw : ι → Bytes}
    (hshort : ∀ s j, Short (side s) (pw j)) (ρ : Long → D.Out) (w : Unknown n ι)
    (A : List Answer → Step n) (k : Nat) (gone : Fin n → Bool)
    (sent : Fin n → Option (Elt n)) (hist : List Answer) (hs : ∀ s, gone s = (sent s).isSome) :
    history (drawnLong D ρ) side pw w A k gone hist =
      (play (realI asked (secret h32 side pw) (logs side pw w, w.right)) A (shown D) k sent hist).eval ρ := by
  induction k generalizing gone sent hist with
  | zero => rfl
  | succ k ih =>
    cases hA : A hist with
    | ask q =>
      simp only [history, play, hA, Tree.eval, realI]
      have e := drawnLong_long D ρ (asked (logs side pw w, w.right) q)
      have e' : (drawnLong D ρ).hash (q.bytes (logs side pw w)) = _ := e
      rw [e']
      exact ih _ _ _ hs
    | compare c =>
      simp only [history, play, hA]
      have hd : decide (combPt (logs side pw w) c = 0) =
          (realI asked (secret h32 side pw) (logs side pw w, w.right) : Interp n _ _ _ _ _).zero c := by
        simp only [realI, decide_eq_decide]
        rw [combPt_eq]
        constructor
        · intro h
          exact toPt_inj (h.trans toPt_zero.symm)
        · intro h
          rw [h, toPt_zero]
      rw [ih _ _ _ hs, hd]
      rfl
    | send s a =>
      simp only [history, play, hA, hs s]
      by_cases hg : (sent s).isSome = true
      · rw [if_pos hg, if_pos hg]
        exact ih _ _ _ hs
      · rw [if_neg hg, if_neg hg, returned_eq (D := drawnLong D ρ) h32, transcriptWith_drawnLong D ρ (hshort s _)]
        have hs' : ∀ s', Function.update gone s true s' = (Function.update sent s (some a) s').isSome := by
          intro s'
          by_cases e : s' = s
          · subst e; simp
          · rw [Function.update_of_ne e, Function.update_of_ne e, hs]
        have hx : scalarOf side pw (logs side pw w, w.right) s = w.priv s := add_sub_cancel_right _ _
        have hsec : (secret h32 side pw (logs side pw w, w.right) s a) = some ⟨transcriptWith D (side s) (pw w.right)
            (Ed25519.compress (toPt (w.priv s + pwLog (pw w.right) * w.consts (mineIx (side s)))))
            (Ed25519.compress (a.at (logs side pw w))) (sharedWith pw w s (side s) (a.at (logs side pw w))),
            transcriptWith_length h32 _ _ (Ed25519.compress_length _) (Ed25519.compress_length _) _⟩ := by
          simp only [secret, sharedPt, hx]
          rfl
        simp only [realI, hsec, Tree.eval]
        rw [ih _ _ _ hs']
        have e := drawnLong_long D ρ ⟨transcriptWith D (side s) (pw w.right)
            (Ed25519.compress (toPt (w.priv s + pwLog (pw w.right) * w.consts (mineIx (side s)))))
            (Ed25519.compress (a.at (logs side pw w))) (sharedWith pw w s (side s) (a.at (logs side pw w))),
            transcriptWith_length h32 _ _ (Ed25519.compress_length _) (Ed25519.compress_length _) _⟩
        simp only at e
        rw [e]
        rfl

theorem at_inj {n : Nat} {v : Fin 3 ⊕ Fin n → Scalar} {e e' : Elt n} (h : e.at v = e'.at v) :
    val e.1 v = val e'.1 v ∧ e.2 = e'.2 := by
  obtain ⟨c, t, ht⟩ := e
  obtain ⟨c', t', ht'⟩ := e'
  have h : combPt v c + t = combPt v c' + t' := h
  rw [combPt_eq, combPt_eq] at h
  have h8 := congrArg (fun P : Point => 8 • P) h
  simp only [nsmul_add, ht, ht', add_zero, smul_toPt] at h8
  have hv := mul_left_cancel₀ (by exact_mod_cast eight_ne_zero) (toPt_inj h8)
  refine ⟨hv, Subtype.ext ?_⟩
  rw [hv] at h
  exact add_left_cancel h

section
open MvPolynomial
variable {n : Nat}

open Classical in
/-- A polynomial that is not zero if the elements differ, but vanishes where they stand for the same point. -/
noncomputable def dif (e e' : Elt n) : MvPolynomial (Fin 3 ⊕ Fin n) Scalar :=
  if e.1 = e'.1 then if e.2 = e'.2 then 0 else 1 else form (e.1 - e'.1)

theorem dif_degree (e e' : Elt n) : (dif e e').totalDegree ≤ 1 := by
  unfold dif
  split
  · split <;> simp
  · exact form_degree _

theorem dif_ne_zero {e e' : Elt n} (h : e ≠ e') : dif e e' ≠ 0 := by
  unfold dif
  split
  · rename_i h1
    split
    · rename_i h2
      exact absurd (Prod.ext h1 h2) h
    · exact one_ne_zero
  · rename_i h1
    intro h0
    exact h1 (sub_eq_zero.1 (form_eq_zero h0))

theorem dif_eval {v : Fin 3 ⊕ Fin n → Scalar} {e e' : Elt n} (h : e.at v = e'.at v) : eval v (dif e e') = 0 := by
  obtain ⟨h1, h2⟩ := at_inj h
  unfold dif
  rw [if_pos h2]
  split
  · rw [map_zero]
  · rw [eval_form, val_sub, h1, sub_self]

open Classical in
/-- The same for pairs. -/
noncomputable def dif2 (p p' : Elt n × Elt n) : MvPolynomial (Fin 3 ⊕ Fin n) Scalar :=
  if p.1 = p'.1 then dif p.2 p'.2 else dif p.1 p'.1

theorem dif2_degree (p p' : Elt n × Elt n) : (dif2 p p').totalDegree ≤ 1 := by
  unfold dif2
  split <;> exact dif_degree _ _

theorem dif2_ne_zero {p p' : Elt n × Elt n} (h : p ≠ p') : dif2 p p' ≠ 0 := by
  unfold dif2
  split
  · rename_i h1
    exact dif_ne_zero fun h2 => h (Prod.ext h1 h2)
  · rename_i h1
    exact dif_ne_zero h1

theorem dif2_eval {v : Fin 3 ⊕ Fin n → Scalar} {p p' : Elt n × Elt n} (h1 : p.1.at v = p'.1.at v) (h2 : p.2.at v = p'.2.at v) :
    eval v (dif2 p p') = 0 := by
  unfold dif2
  split
  · exact dif_eval h2
  · exact dif_eval h1

/-- What a session sends, as an element. -/
def own (s : Fin n) : Elt n := (fun o => if o = some (.inr s) then 1 else 0, ⟨0, smul_zero _⟩)

theorem val_own (v : Fin 3 ⊕ Fin n → Scalar) (s : Fin n) : val (own s).1 v = v (.inr s) := by simp [val, own]

theorem own_at (v : Fin 3 ⊕ Fin n → Scalar) (s : Fin n) : (own s).at v = toPt (v (.inr s)) := by
  rw [Elt.at, combPt_eq, val_own]
  exact add_zero _

theorem own_inj {s s' : Fin n} (h : own s = own s') : s = s' := by
  have h := congrFun (congrArg Prod.fst h) (some (.inr s))
  simp only [own, if_true, Option.some.injEq, Sum.inr.injEq] at h
  by_contra hne
  rw [if_neg hne] at h
  exact one_ne_zero h

/-- Which secrets are the same in any case: those with the same messages in the transcript. -/
inductive Class (n : Nat) where
  | ab (pre : Bytes) (p : Elt n × Elt n)
  | sym (pre : Bytes) (p : Sym2 (Elt n))

/-- The transcript's messages, in its order; for a symmetric side in any order. -/
def pair (side : Fin n → Side) (s : Fin n) (e : Elt n) : Elt n × Elt n :=
  match side s with
  | .A _ _ => (own s, e)
  | .B _ _ => (e, own s)
  | .symmetric _ => (own s, e)

/-- The class of the secret of a session that is sent `e`. -/
def cls (side : Fin n → Side) (s : Fin n) (e : Elt n) : Class n :=
  match side s with
  | .A a b => .ab (D.hash a ++ D.hash b) (own s, e)
  | .B a b => .ab (D.hash a ++ D.hash b) (e, own s)
  | .symmetric i => .sym (D.hash i) s(own s, e)

variable {ι : Type}

/-- The shared point of two sessions whose messages are passed on. -/
theorem sharedPt_own (side : Fin n → Side) (pw : ι → Bytes) (w : (Fin 3 ⊕ Fin n → Scalar) × ι) {s s' : Fin n}
    (h : peersIx (side s) = mineIx (side s')) :
    sharedPt side pw w s (own s') = toPt (scalarOf side pw w s * scalarOf side pw w s') := by
  rw [sharedPt, own_at, ← toPt_add, val_smul_toPt, h]
  congr 1
  simp only [scalarOf]
  ring

theorem secret_same (h32 : D.outLen = 32) (side : Fin n → Side) (pw : ι → Bytes) (w : (Fin 3 ⊕ Fin n → Scalar) × ι)
    (s : Fin n) (e : Elt n) (s' : Fin n) (e' : Elt n) (h : cls D side s e = cls D side s' e') :
    secret h32 side pw w s e = secret h32 side pw w s' e' := by
  have key : ∀ {s s' : Fin n} {e e' : Elt n} {a b a' b' : Bytes}, side s = .A a b → side s' = .B a' b' →
      D.hash a ++ D.hash b = D.hash a' ++ D.hash b' → own s = e' → e = own s' →
      secret h32 side pw w s e = secret h32 side pw w s' e' := by
    intro s s' e e' a b a' b' hs hs' hp h1 h2
    have k1 : sharedPt side pw w s e = toPt (scalarOf side pw w s * scalarOf side pw w s') := by
      rw [h2]
      exact sharedPt_own side pw w (by rw [hs, hs']; rfl)
    have k2 : sharedPt side pw w s' e' = toPt (scalarOf side pw w s * scalarOf side pw w s') := by
      rw [← h1, mul_comm]
      exact sharedPt_own side pw w (by rw [hs, hs']; rfl)
    unfold secret
    refine congrArg some (Subtype.ext ?_)
    simp only [k1, k2, hs, hs', transcriptWith]
    rw [h2, ← h1, own_at, own_at, List.append_assoc (D.hash (pw w.2)), hp, ← List.append_assoc]
  unfold cls at h
  cases hs : side s with
  | A a b =>
    cases hs' : side s' with
    | A a' b' =>
      simp only [hs, hs', Class.ab.injEq, Prod.mk.injEq] at h
      obtain ⟨-, h1, rfl⟩ := h
      cases own_inj h1
      rfl
    | B a' b' =>
      simp only [hs, hs', Class.ab.injEq, Prod.mk.injEq] at h
      exact key hs hs' h.1 h.2.1 h.2.2
    | symmetric i' => simp [hs, hs'] at h
  | B a b =>
    cases hs' : side s' with
    | A a' b' =>
      simp only [hs, hs', Class.ab.injEq, Prod.mk.injEq] at h
      exact (key hs' hs h.1.symm h.2.1.symm h.2.2.symm).symm
    | B a' b' =>
      simp only [hs, hs', Class.ab.injEq, Prod.mk.injEq] at h
      obtain ⟨-, rfl, h1⟩ := h
      cases own_inj h1
      rfl
    | symmetric i' => simp [hs, hs'] at h
  | symmetric i =>
    cases hs' : side s' with
    | A a' b' => simp [hs, hs'] at h
    | B a' b' => simp [hs, hs'] at h
    | symmetric i' =>
      simp only [hs, hs', Class.sym.injEq, Sym2.eq_iff] at h
      obtain ⟨hp, ⟨h1, rfl⟩ | ⟨h1, h2⟩⟩ := h
      · cases own_inj h1
        rfl
      · have k1 : sharedPt side pw w s e = toPt (scalarOf side pw w s * scalarOf side pw w s') := by
          rw [h2]
          exact sharedPt_own side pw w (by rw [hs, hs']; rfl)
        have k2 : sharedPt side pw w s' e' = toPt (scalarOf side pw w s * scalarOf side pw w s') := by
          rw [← h1, mul_comm]
          exact sharedPt_own side pw w (by rw [hs, hs']; rfl)
        unfold secret
        refine congrArg some (Subtype.ext ?_)
        simp only [k1, k2, hs, hs', transcriptWith]
        rw [h2, ← h1, own_at, own_at, hp, sorted_comm _ _ (by rw [Ed25519.compress_length, Ed25519.compress_length])]

theorem append32 {x y x' y' : Bytes} (h : x ++ y = x' ++ y') (hy : y.length = 32) (hy' : y'.length = 32) : x = x' ∧ y = y' :=
  List.append_inj' h (by rw [hy, hy'])

theorem asked_inj {w : (Fin 3 ⊕ Fin n → Scalar) × ι} {q q' : Question n} (h : asked w q = asked w q') :
    q.pre = q'.pre ∧ q.e1.at w.1 = q'.e1.at w.1 ∧ q.e2.at w.1 = q'.e2.at w.1 ∧ q.e3.at w.1 = q'.e3.at w.1 := by
  have h := congrArg Subtype.val h
  simp only [asked, Question.bytes] at h
  obtain ⟨h, h3⟩ := append32 h (Ed25519.compress_length _) (Ed25519.compress_length _)
  obtain ⟨h, h2⟩ := append32 h (Ed25519.compress_length _) (Ed25519.compress_length _)
  obtain ⟨h, h1⟩ := append32 h (Ed25519.compress_length _) (Ed25519.compress_length _)
  exact ⟨Subtype.ext h, Ed25519.compress_injective h1, Ed25519.compress_injective h2, Ed25519.compress_injective h3⟩

/-- The factors of the scalar of a session, -/
def scalarCoef (side : Fin n → Side) (pw : ι → Bytes) (j : ι) (s : Fin n) : Coef (Fin 3 ⊕ Fin n) Scalar := fun o =>
  (if o = some (.inr s) then 1 else 0) - pwLog (pw j) * if o = some (.inl (mineIx (side s))) then 1 else 0

/-- and of what is left of the sent point when the password is taken out. -/
def restCoef (side : Fin n → Side) (pw : ι → Bytes) (j : ι) (s : Fin n) (a : Coef (Fin 3 ⊕ Fin n) Scalar) :
    Coef (Fin 3 ⊕ Fin n) Scalar := fun o =>
  a o - pwLog (pw j) * if o = some (.inl (peersIx (side s))) then 1 else 0

theorem val_scalarCoef (side : Fin n → Side) (pw : ι → Bytes) (j : ι) (s : Fin n) (v : Fin 3 ⊕ Fin n → Scalar) :
    val (scalarCoef side pw j s) v = scalarOf side pw (v, j) s := by
  simp [val, scalarCoef, scalarOf, sub_mul, Finset.sum_sub_distrib]

theorem val_restCoef (side : Fin n → Side) (pw : ι → Bytes) (j : ι) (s : Fin n) (a : Coef (Fin 3 ⊕ Fin n) Scalar)
    (v : Fin 3 ⊕ Fin n → Scalar) : val (restCoef side pw j s a) v = val a v + -pwLog (pw j) * v (.inl (peersIx (side s))) := by
  rw [neg_mul, ← sub_eq_add_neg]
  simp [val, restCoef, sub_mul, Finset.sum_sub_distrib, add_sub_assoc]

theorem secret_hit (h32 : D.outLen = 32) (side : Fin n → Side) (pw : ι → Bytes) {v : Fin 3 ⊕ Fin n → Scalar} {j : ι} {s : Fin n}
    {e : Elt n} {q : Question n} (h : secret h32 side pw (v, j) s e = some (asked (v, j) q)) :
    e.1 (some (.inl (peersIx (side s)))) = pwLog (pw j) ∨
      (form q.e3.1 - form (scalarCoef side pw j s) * form (restCoef side pw j s e.1) ≠ 0 ∧
        eval v (form q.e3.1 - form (scalarCoef side pw j s) * form (restCoef side pw j s e.1)) = 0) := by
  have hlast : ∀ side' : Side, ∀ pw' own' peer' : Bytes, ∀ K : Point, ∃ l, transcriptWith D side' pw' own' peer' K =
      l ++ Ed25519.compress K := by
    intro side' pw' own' peer' K
    cases side' <;> exact ⟨_, rfl⟩
  have h := congrArg Subtype.val (Option.some.inj h)
  simp only [asked, Question.bytes] at h
  obtain ⟨l, hl⟩ := hlast (side s) (pw j) (Ed25519.compress (toPt (v (.inr s)))) (Ed25519.compress (e.at v)) (sharedPt side pw (v, j) s e)
  rw [hl] at h
  have hK := Ed25519.compress_injective (append32 h (Ed25519.compress_length _) (Ed25519.compress_length _)).2
  have hval : val (scalarCoef side pw j s) v * val (restCoef side pw j s e.1) v = val q.e3.1 v := by
    rw [sharedPt, Elt.at, Elt.at, combPt_eq, combPt_eq] at hK
    have h8 := eight_parts e.2.2 q.e3.2.2 hK
    rw [val_scalarCoef, val_restCoef]
    exact h8
  by_cases hP : form q.e3.1 - form (scalarCoef side pw j s) * form (restCoef side pw j s e.1) = 0
  · left
    have hz := product_const (i := .inr s) (by simp [scalarCoef]) (sub_eq_zero.1 hP)
    have := hz (.inl (peersIx (side s)))
    simp only [restCoef, if_true, mul_one] at this
    exact sub_eq_zero.1 this
  · right
    refine ⟨hP, ?_⟩
    simp only [map_sub, map_mul, eval_form]
    rw [hval, sub_self]

/-- The transcript, by messages in the order of `pair`. -/
theorem secret_ab (h32 : D.outLen = 32) (side : Fin n → Side) (pw : ι → Bytes) (w : (Fin 3 ⊕ Fin n → Scalar) × ι) {s : Fin n}
    {e : Elt n} {pre : Bytes} {p : Elt n × Elt n} (h : cls D side s e = .ab pre p) :
    pair side s e = p ∧ ∃ x K, secret h32 side pw w s e = some x ∧ x.1 = D.hash (pw w.2) ++ pre ++
      Ed25519.compress (p.1.at w.1) ++ Ed25519.compress (p.2.at w.1) ++ Ed25519.compress K := by
  unfold cls at h
  unfold pair
  cases hs : side s with
  | A a b =>
    simp only [hs, Class.ab.injEq] at h
    obtain ⟨rfl, rfl⟩ := h
    refine ⟨rfl, _, sharedPt side pw w s e, rfl, ?_⟩
    simp only [hs, transcriptWith, own_at]
    rw [List.append_assoc (D.hash (pw w.2))]
  | B a b =>
    simp only [hs, Class.ab.injEq] at h
    obtain ⟨rfl, rfl⟩ := h
    refine ⟨rfl, _, sharedPt side pw w s e, rfl, ?_⟩
    simp only [hs, transcriptWith, own_at]
    rw [List.append_assoc (D.hash (pw w.2))]
  | symmetric i => simp [hs] at h

theorem secret_sym (h32 : D.outLen = 32) (side : Fin n → Side) (pw : ι → Bytes) (w : (Fin 3 ⊕ Fin n → Scalar) × ι) {s : Fin n}
    {e : Elt n} {pre : Bytes} {p : Sym2 (Elt n)} (h : cls D side s e = .sym pre p) :
    p = s(own s, e) ∧ pre.length = 32 ∧ ∃ x K, secret h32 side pw w s e = some x ∧ x.1 = D.hash (pw w.2) ++ pre ++
      Spec.sorted (Ed25519.compress ((own s).at w.1)) (Ed25519.compress (e.at w.1)) ++ Ed25519.compress K := by
  unfold cls at h
  cases hs : side s with
  | A a b => simp [hs] at h
  | B a b => simp [hs] at h
  | symmetric i =>
    simp only [hs, Class.sym.injEq] at h
    obtain ⟨rfl, rfl⟩ := h
    refine ⟨rfl, (D.hash_length _).trans h32, _, sharedPt side pw w s e, rfl, ?_⟩
    simp only [hs, transcriptWith, own_at]

theorem cls_pre (h32 : D.outLen = 32) (side : Fin n → Side) {s : Fin n} {e : Elt n} {pre : Bytes} {p : Elt n × Elt n}
    (h : cls D side s e = .ab pre p) : pre.length = 64 := by
  have hh : ∀ x, (D.hash x).length = 32 := fun x => (D.hash_length x).trans h32
  unfold cls at h
  cases hs : side s <;> simp only [hs, Class.ab.injEq, reduceCtorEq] at h
  · rw [← h.1, List.length_append, hh, hh]
  · rw [← h.1, List.length_append, hh, hh]

/-- A polynomial that is not zero if the classes of two secrets differ, but vanishes where the transcripts are the same. -/
noncomputable def clsDif (side : Fin n → Side) (s : Fin n) (e : Elt n) (s' : Fin n) (e' : Elt n) : MvPolynomial (Fin 3 ⊕ Fin n) Scalar :=
  match side s, side s' with
  | .symmetric _, .symmetric _ => dif2 (own s, e) (own s', e') * dif2 (own s, e) (e', own s')
  | _, _ => dif2 (pair side s e) (pair side s' e')

theorem clsDif_degree (side : Fin n → Side) (s : Fin n) (e : Elt n) (s' : Fin n) (e' : Elt n) :
    (clsDif side s e s' e').totalDegree ≤ 2 := by
  unfold clsDif
  split
  · refine (totalDegree_mul _ _).trans ?_
    have := dif2_degree (own s, e) (own s', e')
    have := dif2_degree (own s, e) (e', own s')
    omega
  · exact (dif2_degree _ _).trans (by norm_num)

variable {D} in
theorem secret_differ_ab (h32 : D.outLen = 32) (side : Fin n → Side) (pw : ι → Bytes) (w : (Fin 3 ⊕ Fin n → Scalar) × ι)
    {s s' : Fin n} {e e' : Elt n} {x : Long} {pre pre' : Bytes} {p p' : Elt n × Elt n} (hc : cls D side s e = .ab pre p)
    (hc' : cls D side s' e' = .ab pre' p') (hne : cls D side s e ≠ cls D side s' e') (h : secret h32 side pw w s e = some x)
    (h' : secret h32 side pw w s' e' = some x) :
    dif2 (pair side s e) (pair side s' e') ≠ 0 ∧ eval w.1 (dif2 (pair side s e) (pair side s' e')) = 0 := by
  obtain ⟨rfl, y, K, hy, hb⟩ := secret_ab D h32 side pw w hc
  obtain ⟨rfl, y', K', hy', hb'⟩ := secret_ab D h32 side pw w hc'
  rw [hy, Option.some.injEq] at h
  rw [hy', Option.some.injEq] at h'
  subst h
  subst h'
  rw [hb] at hb'
  obtain ⟨hb', -⟩ := append32 hb' (Ed25519.compress_length _) (Ed25519.compress_length _)
  obtain ⟨hb', h2⟩ := append32 hb' (Ed25519.compress_length _) (Ed25519.compress_length _)
  obtain ⟨hb', h1⟩ := append32 hb' (Ed25519.compress_length _) (Ed25519.compress_length _)
  have hpre := List.append_cancel_left hb'
  have hp : pair side s e ≠ pair side s' e' := by
    intro hp
    rw [hc, hc', hpre, hp] at hne
    exact hne rfl
  exact ⟨dif2_ne_zero hp, dif2_eval (Ed25519.compress_injective h1) (Ed25519.compress_injective h2)⟩

variable {D} in
theorem secret_mixed (h32 : D.outLen = 32) (side : Fin n → Side) (pw : ι → Bytes) (w : (Fin 3 ⊕ Fin n → Scalar) × ι)
    {s s' : Fin n} {e e' : Elt n} {x : Long} {pre pre' : Bytes} {p : Elt n × Elt n} {p' : Sym2 (Elt n)}
    (hc : cls D side s e = .ab pre p) (hc' : cls D side s' e' = .sym pre' p') (h : secret h32 side pw w s e = some x)
    (h' : secret h32 side pw w s' e' = some x) : False := by
  have hh : ∀ x, (D.hash x).length = 32 := fun x => (D.hash_length x).trans h32
  have hl := cls_pre D h32 side hc
  obtain ⟨-, y, K, hy, hb⟩ := secret_ab D h32 side pw w hc
  obtain ⟨-, hl', y', K', hy', hb'⟩ := secret_sym D h32 side pw w hc'
  rw [hy, Option.some.injEq] at h
  rw [hy', Option.some.injEq] at h'
  subst h
  subst h'
  rw [hb] at hb'
  have := congrArg List.length hb'
  have hs : ∀ a b : Bytes, a.length = 32 → b.length = 32 → (Spec.sorted a b).length = 64 := by
    intro a b ha hb
    unfold Spec.sorted
    split <;> simp [ha, hb]
  simp only [List.length_append, hh, hl, hl', Ed25519.compress_length, hs _ _ (Ed25519.compress_length _) (Ed25519.compress_length _)] at this
  omega

theorem secret_differ (h32 : D.outLen = 32) (side : Fin n → Side) (pw : ι → Bytes) (w : (Fin 3 ⊕ Fin n → Scalar) × ι)
    {s s' : Fin n} {e e' : Elt n} {x : Long} (hne : cls D side s e ≠ cls D side s' e') (h : secret h32 side pw w s e = some x)
    (h' : secret h32 side pw w s' e' = some x) :
    clsDif side s e s' e' ≠ 0 ∧ eval w.1 (clsDif side s e s' e') = 0 := by
  have hA : ∀ {s : Fin n} {e : Elt n} {a b : Bytes}, side s = .A a b → ∃ pre p, cls D side s e = .ab pre p :=
    fun hs => ⟨_, _, by unfold cls; rw [hs]⟩
  have hB : ∀ {s : Fin n} {e : Elt n} {a b : Bytes}, side s = .B a b → ∃ pre p, cls D side s e = .ab pre p :=
    fun hs => ⟨_, _, by unfold cls; rw [hs]⟩
  have hS : ∀ {s : Fin n} {e : Elt n} {i : Bytes}, side s = .symmetric i → ∃ pre p, cls D side s e = .sym pre p :=
    fun hs => ⟨_, _, by unfold cls; rw [hs]⟩
  have hab : (∃ pre p, cls D side s e = .ab pre p) → (∃ pre p, cls D side s' e' = .ab pre p) →
      dif2 (pair side s e) (pair side s' e') ≠ 0 ∧ eval w.1 (dif2 (pair side s e) (pair side s' e')) = 0 := by
    rintro ⟨_, _, hc⟩ ⟨_, _, hc'⟩
    exact secret_differ_ab h32 side pw w hc hc' hne h h'
  have hmix : (∃ pre p, cls D side s e = .ab pre p) → (∃ pre p, cls D side s' e' = .sym pre p) → False := by
    rintro ⟨_, _, hc⟩ ⟨_, _, hc'⟩
    exact secret_mixed h32 side pw w hc hc' h h'
  have hmix' : (∃ pre p, cls D side s e = .sym pre p) → (∃ pre p, cls D side s' e' = .ab pre p) → False := by
    rintro ⟨_, _, hc⟩ ⟨_, _, hc'⟩
    exact secret_mixed h32 side pw w hc' hc h' h
  unfold clsDif
  cases hs : side s with
  | A a b => cases hs' : side s' with
    | A a' b' => exact hab (hA hs) (hA hs')
    | B a' b' => exact hab (hA hs) (hB hs')
    | symmetric i' => exact (hmix (hA hs) (hS hs')).elim
  | B a b => cases hs' : side s' with
    | A a' b' => exact hab (hB hs) (hA hs')
    | B a' b' => exact hab (hB hs) (hB hs')
    | symmetric i' => exact (hmix (hB hs) (hS hs')).elim
  | symmetric i => cases hs' : side s' with
    | A a' b' => exact (hmix' (hS hs) (hA hs')).elim
    | B a' b' => exact (hmix' (hS hs) (hB hs')).elim
    | symmetric i' =>
      obtain ⟨pre, p, hc⟩ := hS (e := e) hs
      obtain ⟨pre', p', hc'⟩ := hS (e := e') hs'
      obtain ⟨rfl, hl, y, K, hy, hb⟩ := secret_sym D h32 side pw w hc
      obtain ⟨rfl, hl', y', K', hy', hb'⟩ := secret_sym D h32 side pw w hc'
      rw [hy, Option.some.injEq] at h
      rw [hy', Option.some.injEq] at h'
      subst h
      subst h'
      rw [hb] at hb'
      obtain ⟨hb', -⟩ := append32 hb' (Ed25519.compress_length _) (Ed25519.compress_length _)
      rw [List.append_assoc, List.append_assoc] at hb'
      obtain ⟨hpre, hsort⟩ := List.append_inj (List.append_cancel_left hb') (by rw [hl, hl'])
      have hcases := sorted_inj (Ed25519.compress_length _) (Ed25519.compress_length _) (Ed25519.compress_length _)
        (Ed25519.compress_length _) hsort
      have hp : ¬ (s(own s, e) = s(own s', e')) := by
        intro hp
        rw [hc, hc', hpre, hp] at hne
        exact hne rfl
      rw [Sym2.eq_iff, not_or] at hp
      refine ⟨mul_ne_zero (dif2_ne_zero fun h => hp.1 (Prod.mk.inj h)) (dif2_ne_zero fun h => hp.2 (Prod.mk.inj h)), ?_⟩
      simp only [map_mul]
      rcases hcases with ⟨h1, h2⟩ | ⟨h1, h2⟩
      · have h1 : (own s).at w.1 = (own s').at w.1 := Ed25519.compress_injective h1
        have h2 : e.at w.1 = e'.at w.1 := Ed25519.compress_injective h2
        have h0 : eval w.1 (dif2 (own s, e) (own s', e')) = 0 := dif2_eval h1 h2
        rw [h0, zero_mul]
      · have h1 : (own s).at w.1 = e'.at w.1 := Ed25519.compress_injective h1
        have h2 : e.at w.1 = (own s').at w.1 := Ed25519.compress_injective h2
        have h0 : eval w.1 (dif2 (own s, e) (e', own s')) = 0 := dif2_eval h1 h2
        rw [h0, mul_zero]

/-- The questions differ in one of the three elements. -/
noncomputable def qDif (q q' : Question n) : MvPolynomial (Fin 3 ⊕ Fin n) Scalar :=
  open Classical in
  if q.e1 = q'.e1 then dif2 (q.e2, q.e3) (q'.e2, q'.e3) else dif q.e1 q'.e1

/-- Points are the same only by an identity or where a polynomial vanishes. -/
noncomputable def laws (h32 : D.outLen = 32) (side : Fin n → Side) (pw : ι → Bytes)
    (hpw : Function.Injective fun j => pwLog (pw j)) :
    Laws asked (secret h32 side pw) (fun s e => .inr (cls D side s e)) (fun _ _ => False)
      (fun s e => {j | e.1 (some (.inl (peersIx (side s)))) = pwLog (pw j)}) 1 Set.univ where
  qq := qDif
  qs j s e q := form q.e3.1 - form (scalarCoef side pw j s) * form (restCoef side pw j s e.1)
  ss _ s e s' e' := clsDif side s e s' e'
  zz _ _ _ := 0
  deg_qq q q' := by
    unfold qDif
    split
    · exact (dif2_degree _ _).trans (by norm_num)
    · exact (dif_degree _ _).trans (by norm_num)
  deg_qs j s e q := by
    refine (totalDegree_sub _ _).trans (max_le ((form_degree _).trans (by norm_num)) ?_)
    refine (totalDegree_mul _ _).trans ?_
    have := form_degree (scalarCoef side pw j s)
    have := form_degree (restCoef side pw j s e.1)
    omega
  deg_ss _ s e s' e' := clsDif_degree side s e s' e'
  deg_zz _ _ _ := by simp
  triv_card := by
    intro s e
    have h : {j | e.1 (some (.inl (peersIx (side s)))) = pwLog (pw j)}.Subsingleton :=
      fun i hi j hj => hpw (Eq.trans (Eq.symm hi) hj)
    exact (Set.ncard_le_one_iff h.finite).2 fun hi hj => h hi hj
  ask_ask := by
    rintro w - q q' hne h
    obtain ⟨hpre, h1, h2, h3⟩ := asked_inj h
    obtain ⟨pre, e1, e2, e3⟩ := q
    obtain ⟨pre', e1', e2', e3'⟩ := q'
    simp only at hpre h1 h2 h3
    subst hpre
    unfold qDif
    by_cases he : e1 = e1'
    · subst he
      refine ⟨?_, ?_⟩
      · simp only [if_true]
        refine dif2_ne_zero fun h => hne ?_
        obtain ⟨rfl, rfl⟩ := Prod.mk.inj h
        rfl
      · simp only [if_true]
        exact dif2_eval h2 h3
    · refine ⟨?_, ?_⟩
      · simp only [he, if_false]
        exact dif_ne_zero he
      · simp only [he, if_false]
        exact dif_eval h1
  ask_send := by
    rintro ⟨v, j⟩ - s e q - h
    exact secret_hit D h32 side pw h
  send_send := by
    rintro w - s e s' e' x hne h h'
    exact secret_differ D h32 side pw w (fun e => hne (by rw [e])) h h'
  same := fun w _ s e s' e' h => secret_same D h32 side pw w s e s' e' (Sum.inr.inj h)
  opened := fun _ _ _ _ _ h => by cases h
  refuse := fun w _ s e => Or.inl (by simp [secret])

/-- **C95 (SPAKE2).** The attacker runs `n` sessions of sides and identities of its choice and knows the constants and what the sessions
send. It computes by adding multiples; it may compare results, ask for the hash value of strings with results in them, and send one result to
each session, possibly with a point of small order added, and gets the session's key. It may pass on the messages of two sessions. After `T`
steps it names a candidate password. The scalars of the candidates differ. Of the logarithms of the constants, the scalars of the sessions,
the candidates and the hash functions it does not know, it is right for at most the share `(n + 1) / |ι| + T (T + 1) / ell`. -/
theorem C95_spake2 [Fintype ι] (h32 : D.outLen = 32) (side : Fin n → Side) (pw : ι → Bytes)
    (hpw : Function.Injective fun j => pwLog (pw j)) (hshort : ∀ s j, Short (side s) (pw j))
    (A : List Answer → Step n) (guess : List Answer → ι) (T : Nat) :
    ell * {w : Unknown n ι × (Long → D.Out) |
        guess (history (drawnLong D w.2) side pw w.1 A T (fun _ => false) []) = w.1.right}.ncard ≤
      ((n + 1) * ell + T * (T + 1) * Fintype.card ι) * ell ^ (n + 3) * Nat.card (Long → D.Out) := by
  classical
  have : Inhabited D.Out := ⟨⟨D.hash [], D.hash_length _⟩⟩
  have hkey := card_guess (L := D.Out) asked (secret h32 side pw) _ _ _ A (shown D) _ (laws D h32 side pw hpw) guess T
  have hcard : Fintype.card Scalar = ell := ZMod.card ell
  have hτ : Fintype.card (Fin 3 ⊕ Fin n) = n + 3 := by simp [add_comm]
  have hN : Fintype.card D.Out ^ Fintype.card Long = Nat.card (Long → D.Out) := by
    rw [Nat.card_eq_fintype_card, Fintype.card_fun]
  rw [hcard, hτ, hN] at hkey
  refine le_trans (Nat.mul_le_mul_left _ ?_) hkey
  refine Set.ncard_le_ncard_of_injOn (fun w => ((logs side pw w.1, w.1.right), w.2)) ?_ ?_ (Set.toFinite _)
  · rintro ⟨w, ρ⟩ hg
    refine ⟨trivial, ?_⟩
    have e := history_eq D h32 hshort ρ w A T (fun _ => false) (fun _ => none) [] (fun _ => rfl)
    exact (congrArg guess e).symm.trans hg
  · rintro ⟨⟨g, x, j⟩, ρ⟩ - ⟨⟨g', x', j'⟩, ρ'⟩ - e
    simp only [Prod.mk.injEq] at e
    obtain ⟨⟨e, rfl⟩, rfl⟩ := e
    have hg : g = g' := by
      funext i
      exact congrFun e (.inl i)
    subst hg
    have hx : x = x' := by
      funext s
      exact add_right_cancel (congrFun e (.inr s))
    rw [hx]

variable {D} in
/-- **C95 (SPAKE2, told).** An attacker that answers a session as an honest peer with the password of a candidate and the scalar `1`, and
then asks for the hash of the transcript of that peer, is told twice the same if the candidate is the right one. -/
theorem C95_spake2_told (h32 : D.outLen = 32) (side : Fin n → Side) (pw : ι → Bytes) (s : Fin n) {idA idB : Bytes}
    (hs : side s = .A idA idB) (g : ι) :
    ∃ A : List Answer → Step n, ∀ w : Unknown n ι, w.right = g →
      ∃ k, history D side pw w A 2 (fun _ => false) [] = [.key k, .hash k] := by
  classical
  let a : Elt n := (fun o => match o with
    | none => 1
    | some i => if i = .inl (peersIx (side s)) then pwLog (pw g) else 0, ⟨0, smul_zero _⟩)
  let c : Elt n := (fun o => match o with
    | none => 0
    | some i => (if i = .inr s then 1 else 0) - if i = .inl (mineIx (side s)) then pwLog (pw g) else 0, ⟨0, smul_zero _⟩)
  have hh : ∀ x, (D.hash x).length = 32 := fun x => (D.hash_length x).trans h32
  let q : Question n := ⟨⟨D.hash (pw g) ++ D.hash idA ++ D.hash idB, by simp [hh]⟩, own s, a, c⟩
  refine ⟨fun h => if h.length = 0 then .send s a else .ask q, ?_⟩
  rintro w rfl
  have ha : val a.1 (logs side pw w) = 1 + pwLog (pw w.right) * w.consts (peersIx (side s)) := by
    simp [val, a, logs]
  have hc : val c.1 (logs side pw w) = w.priv s := by
    simp [val, c, logs, sub_mul, Finset.sum_sub_distrib]
  have ea : a.at (logs side pw w) = toPt (val a.1 (logs side pw w)) := by
    rw [Elt.at, combPt_eq]
    exact add_zero _
  have ec : c.at (logs side pw w) = toPt (val c.1 (logs side pw w)) := by
    rw [Elt.at, combPt_eq]
    exact add_zero _
  have e : sharedWith pw w s (side s) (a.at (logs side pw w)) = c.at (logs side pw w) := by
    rw [sharedWith, ea, ec, ← toPt_add, val_smul_toPt, ha, hc]
    congr 1
    ring
  have e1 := returned_eq h32 pw w s (side s) (a.at (logs side pw w))
  rw [e] at e1
  refine ⟨D.hash (q.bytes (logs side pw w)), ?_⟩
  simp only [history, List.length_nil, if_true, Bool.false_eq_true, if_false, e1, List.nil_append, List.length_singleton,
    one_ne_zero, List.singleton_append]
  have eq : transcriptWith D (side s) (pw w.right)
      (Ed25519.compress (toPt (w.priv s + pwLog (pw w.right) * w.consts (mineIx (side s))))) (Ed25519.compress (a.at (logs side pw w)))
        (c.at (logs side pw w)) = q.bytes (logs side pw w) := by
    simp only [hs, transcriptWith, Question.bytes, q, own_at]
    rw [← hs]
    rfl
  rw [eq]

/-- The hypotheses of `C95_spake2` hold for SHA-256, two candidates and two sessions whose messages may be passed on. -/
example : sha256.outLen = 32 ∧ ∀ s j, Short (![Side.A (ascii "a") (ascii "b"), .B (ascii "a") (ascii "b")] s)
    (cond j (ascii "other") (ascii "secret")) := by
  refine ⟨rfl, fun s j x hx => ?_⟩
  have : x = ascii "other" ∨ x = ascii "secret" ∨ x = ascii "a" ∨ x = ascii "b" := by
    fin_cases s <;> cases j <;> simp [ownHashed] at hx <;> tauto
  rcases this with rfl | rfl | rfl | rfl <;> decide

end

end Verif.Spake2
