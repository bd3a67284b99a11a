import Verif.Basic.Attack
import Verif.Spake2.Guess
import Verif.Spake2.Guessing
import Mathlib.Data.Set.Card.Arithmetic

/-!
# C100 (SPAKE2): one candidate per session, for an attacker without any bound

The SPAKE2 part of `Aucpace.Unbounded`. The hash function is drawn on the strings that are as long as a transcript. The attacker answers the
messages of the sessions and names their keys.
-/

set_option linter.unusedSectionVars false

namespace Verif.Spake2.Unbounded
open Ed25519 (Point)
open Guess Touch Attack

/-- The hash inputs for which the function is drawn: those as long as a transcript (spake2/src/ed25519.rs:132-219). -/
def Drawn (x : Bytes) : Prop := x.length = 192 ∨ x.length = 160

instance : Finite (Inputs Drawn) := finite_inputs (L := 192) _ fun _ h => by rcases h with h | h <;> omega

noncomputable instance : Fintype (Inputs Drawn) := Fintype.ofFinite _

variable {D : Digest} {n : Nat} {ι : Type}

/-- A session gets a message and what the attacker takes for the key: the key if it is right (spake2/src/lib.rs:373-443). -/
def answer (D : Digest) (s : State Scalar) (m : Bytes × Bytes) : Option Bytes :=
  match finishWith D ed25519 s m.1 with
  | .ok k => if k = m.2 then some k else none
  | _ => none

/-- The attack succeeds: the sessions have the password `pw` and draw their scalars from `b`; the hash function has the values `f`. -/
def Wins (D : Digest) (A : Attack.Attacker n Bytes (Bytes × Bytes)) (T : Nat) (side : Fin n → Side) (pw : Bytes) (b : Fin n → Seed)
    (f : Inputs Drawn → D.Out) : Prop :=
  ∃ (s : Fin n → State Scalar) (m : Fin n → Bytes), (∀ i, openWith (side i) pw (b i).1 = .ok (s i, m i)) ∧
    Accepted (drawn D Drawn f) A m (fun i => answer (drawn D Drawn f) (s i)) T

/-! ## The transcript -/

theorem finishWith_inv (h32 : D.outLen = 32) {side : Side} {pw : Bytes} {x : Scalar} {m k : Bytes}
    (h : finishWith D ed25519 (started side pw x) m = .ok k) : ∃ P, m.length = 33 ∧ Ed25519.decompress (m.drop 1) = some P ∧
      k = D.hash (transcriptWith D side pw (Ed25519.compress (Spec.sent side pw x.val)) (m.drop 1) (Spec.shared side pw x.val P)) := by
  have hel : ed25519.elementLength = 32 := rfl
  by_cases hl : m.length = 33
  swap
  · rw [finishWith, if_pos (by rw [hel]; omega)] at h
    cases h
  cases m with
  | nil => simp at hl
  | cons c body =>
    have hb : body.length = 32 := by simpa using hl
    rw [List.drop_succ_cons, List.drop_zero]
    by_cases hc : c = Spec.accepts side
    swap
    · rw [finishWith, if_neg (by rw [hel, hl]; simp)] at h
      simp only [List.getElem?_cons_zero, Res.unwrap, Res.bind_ok, checkSide_eq, started, if_neg hc] at h
      cases h
    subst hc
    cases hP : Ed25519.decompress body with
    | none =>
      exfalso
      have hs : slice (Spec.accepts side :: body) 1 (Spec.accepts side :: body).length = some body := by simp [slice]
      have hbe : ed25519.bytesToElement body = none := by
        show ed25519BytesToElement body = none
        rw [ed25519BytesToElement, if_neg (by simp [hb]), hP]
      rw [finishWith, if_neg (by rw [hel, hl]; simp), hs] at h
      simp only [List.getElem?_cons_zero, Res.unwrap, Res.bind_ok, checkSide_eq, started, if_true, hbe, Res.okOr] at h
      cases h
    | some P =>
      rw [finishWith_cons h32 side pw x body P hb hP, Res.ok.injEq] at h
      exact ⟨P, hl, rfl, h.symm⟩

theorem transcript_drawn (f : Inputs Drawn → D.Out) {side : Side} {pw : Bytes} (h : Short side pw) (own peer : Bytes) (K : Point) :
    transcriptWith (drawn D Drawn f) side pw own peer K = transcriptWith D side pw own peer K := by
  have : ∀ x ∈ ownHashed side pw, (drawn D Drawn f).hash x = D.hash x := fun x hx =>
    drawn_out f (by have := h x hx; rw [Drawn]; tauto)
  cases side <;> simp only [ownHashed, List.mem_cons, List.not_mem_nil, or_false, forall_eq_or_imp, forall_eq] at this <;>
    simp [transcriptWith, this]

/-- The transcript begins with the hash of the password. -/
theorem transcript_pw {side : Side} {pw pw' own own' peer peer' : Bytes} {K K' : Point}
    (h : transcriptWith D side pw own peer K = transcriptWith D side pw' own' peer' K') : D.hash pw = D.hash pw' := by
  have hl : (D.hash pw).length = (D.hash pw').length := by rw [D.hash_length, D.hash_length]
  cases side <;> simp only [transcriptWith, List.append_assoc] at h <;> exact (List.append_inj h hl).1

/-! ## Exceptions -/

section
variable (D) (A : Attack.Attacker n Bytes (Bytes × Bytes)) (side : Fin n → Side)

/-- The next input looked at: what the attacker asks for. -/
noncomputable abbrev asks (M : Fin n → Bytes) : List (Option (Inputs Drawn × D.Out)) → Option (Inputs Drawn) :=
  look D Drawn A M fun _ _ => none

open Classical in
/-- The transcript, if the attacker sends a message; the sessions have the password `pw` and the scalars `x`. -/
noncomputable def keyIn (pw : Bytes) (x : Fin n → Scalar) (M : Fin n → Bytes) (tr : List (Option (Inputs Drawn × D.Out))) :
    Option (Inputs Drawn) :=
  match A M (view D Drawn A M tr) with
  | .reply i m => (Ed25519.decompress (m.1.drop 1)).bind fun P => input Drawn (transcriptWith D (side i) pw
      (Ed25519.compress (Spec.sent (side i) pw (x i).val)) (m.1.drop 1) (Spec.shared (side i) pw (x i).val P))
  | .ask _ => none

/-- The key named. -/
def named (M : Fin n → Bytes) (tr : List (Option (Inputs Drawn × D.Out))) : Set D.Out :=
  {o | ∃ i m, A M (view D Drawn A M tr) = .reply i m ∧ o.1 = m.2}

/-- The attacker asks for a value and gets one seen before. -/
def Collides (T : Nat) (M : Fin n → Bytes) (f : Inputs Drawn → D.Out) : Prop :=
  ∃ t < T, ∃ x, asks D A M (trace (asks D A M) f t) = some x ∧ ¬ Touched (trace (asks D A M) f t) x ∧
    f x ∈ {o : D.Out | ∃ z, some (z, o) ∈ trace (asks D A M) f t}

/-- A key is right though nobody has asked for it. -/
def Hit (T : Nat) (pw : Bytes) (x : Fin n → Scalar) (M : Fin n → Bytes) (f : Inputs Drawn → D.Out) : Prop :=
  ∃ t < T, ∃ z, keyIn D A side pw x M (trace (asks D A M) f t) = some z ∧ ¬ Touched (trace (asks D A M) f t) z ∧
    f z ∈ named D A M (trace (asks D A M) f t)

variable {D A side}

theorem share_collides (T : Nat) (M : Fin n → Bytes) : share {f : Inputs Drawn → D.Out | Collides D A T M f} ≤ T * T / 256 ^ D.outLen := by
  have h1 := share_fresh (asks D A M) T (fun _ => asks D A M) (fun tr _ => {o : D.Out | ∃ z, some (z, o) ∈ tr}) T
    (fun tr x htr => (ncard_seen tr).trans htr) id (fun t ht => ht.le)
  rw [Nat.card_eq_fintype_card, Oracle.card_out] at h1
  push_cast at h1 ⊢
  exact h1

theorem share_hit (T : Nat) (pw : Bytes) (x : Fin n → Scalar) (M : Fin n → Bytes) :
    share {f : Inputs Drawn → D.Out | Hit D A side T pw x M f} ≤ T / 256 ^ D.outLen := by
  have h1 := share_fresh (asks D A M) T (fun _ => keyIn D A side pw x M) (fun tr _ => named D A M tr) 1 (fun tr x _ => by
      rw [Set.ncard_le_one (Set.toFinite _)]
      rintro o ⟨i, m, hm, ho⟩ o' ⟨i', m', hm', ho'⟩
      rw [hm, Move.reply.injEq] at hm'
      exact Subtype.ext (ho.trans (hm'.2 ▸ ho'.symm))) id (fun t ht => ht.le)
  rw [Nat.card_eq_fintype_card, Oracle.card_out] at h1
  push_cast at h1 ⊢
  rw [mul_one] at h1
  exact h1

/-- If a key is right and no exception, it has been asked for. -/
theorem right_touched (h32 : D.outLen = 32) {pw : Bytes} (hs : ∀ i, Short (side i) pw) {T t : Nat} (ht : t < T) {x : Fin n → Scalar}
    {M : Fin n → Bytes} {f : Inputs Drawn → D.Out} {i : Fin n} {m : Bytes × Bytes}
    (hm : A M (refused (drawn D Drawn f) A M t).1 = .reply i m)
    (hr : answer (drawn D Drawn f) (started (side i) pw (x i)) m ≠ none) (hh : ¬ Hit D A side T pw x M f) :
    ∃ (z : Inputs Drawn) (own : Bytes) (K : Point), z.1 = transcriptWith D (side i) pw own (m.1.drop 1) K ∧ (f z).1 = m.2 ∧
      Touched (trace (asks D A M) f t) z := by
  have hk : finishWith (drawn D Drawn f) ed25519 (started (side i) pw (x i)) m.1 = .ok m.2 := by
    rw [answer] at hr
    split at hr
    · rename_i k hk
      split at hr
      · rename_i e; rw [hk, e]
      · exact absurd rfl hr
    · exact absurd rfl hr
  obtain ⟨P, hl, hP, hk⟩ := finishWith_inv (D := drawn D Drawn f) h32 hk
  rw [transcript_drawn f (hs i)] at hk
  have hz : Drawn (transcriptWith D (side i) pw (Ed25519.compress (Spec.sent (side i) pw (x i).val)) (m.1.drop 1)
      (Spec.shared (side i) pw (x i).val P)) :=
    transcriptWith_length h32 _ _ (Ed25519.compress_length _) (by rw [List.length_drop, hl]) _
  have e1 := drawn_in f ⟨_, hz⟩
  simp only at e1
  rw [e1] at hk
  refine ⟨⟨_, hz⟩, _, _, rfl, hk.symm, ?_⟩
  by_contra hnt
  refine hh ⟨t, ht, ⟨_, hz⟩, ?_, hnt, i, m, ?_, hk.symm⟩
  · rw [keyIn, view_trace, hm]
    simp only [hP, Option.bind_some]
    exact input_some rfl
  · rw [view_trace, hm]

/-! ## Counting -/

variable (D A side) (pw : ι → Bytes)

/-- The messages of the sessions. -/
def msgs (j : ι) (b : Fin n → Seed) (i : Fin n) : Bytes :=
  Spec.letter (side i) :: Ed25519.compress (Spec.sent (side i) (pw j) (leToNat (b i).1 : Scalar).val)

/-- The scalars. -/
def privs (b : Fin n → Seed) (i : Fin n) : Scalar := (leToNat (b i).1 : Scalar)

/-- With all replies refused, the first reply to session `i` is right. -/
def Right (T : Nat) (i : Fin n) (w : (ι × (Fin n → Seed)) × (Inputs Drawn → D.Out)) : Prop :=
  ∃ t < T, ∃ m, A (msgs side pw w.1.1 w.1.2) (refused (drawn D Drawn w.2) A (msgs side pw w.1.1 w.1.2) t).1 = .reply i m ∧
    i ∉ (refused (drawn D Drawn w.2) A (msgs side pw w.1.1 w.1.2) t).2 ∧
    answer (drawn D Drawn w.2) (started (side i) (pw w.1.1) (privs w.1.2 i)) m ≠ none

/-- The exceptions together. -/
def Exc (T : Nat) (w : (ι × (Fin n → Seed)) × (Inputs Drawn → D.Out)) : Prop :=
  Collides D A T (msgs side pw w.1.1 w.1.2) w.2 ∨ Hit D A side T (pw w.1.1) (privs w.1.2) (msgs side pw w.1.1 w.1.2) w.2

variable {D A side pw}

/-- Without an exception, the messages, the hash function and the session determine the candidate. -/
theorem right_unique (h32 : D.outLen = 32) (hs : ∀ i j, Short (side i) (pw j)) (hpw : ∀ j j', D.hash (pw j) = D.hash (pw j') → j = j')
    {T : Nat} {i : Fin n} {j j' : ι} {b b' : Fin n → Seed} {f : Inputs Drawn → D.Out} (hM : msgs side pw j b = msgs side pw j' b')
    (h1 : Right D A side pw T i ((j, b), f)) (h2 : Right D A side pw T i ((j', b'), f))
    (he1 : ¬ Exc D A side pw T ((j, b), f)) (he2 : ¬ Exc D A side pw T ((j', b'), f)) : j = j' := by
  obtain ⟨t, ht, m, hm, hu, hr⟩ := h1
  obtain ⟨t', ht', m', hm', hu', hr'⟩ := h2
  simp only [Exc, not_or] at hm hu hr hm' hu' hr' he1 he2
  rw [← hM] at hm' hu' he2
  obtain ⟨rfl, rfl⟩ := first_reply hm hu hm' hu'
  obtain ⟨z, own, K, hz, hfz, htz⟩ := right_touched h32 (fun i => hs i j) ht hm hr he1.2
  obtain ⟨z', own', K', hz', hfz', htz'⟩ := right_touched h32 (fun i => hs i j') ht hm hr' he2.2
  have ezz : z = z' := by
    by_contra hne
    obtain ⟨s, hs, u, h3, h4, h5⟩ := collide htz htz' hne (Subtype.ext (hfz.trans hfz'.symm))
    exact he1.1 ⟨s, by omega, u, h3, h4, h5⟩
  subst ezz
  exact hpw j j' (transcript_pw (hz.symm.trans hz'))

theorem sent_log (side : Side) (pw : Bytes) (x : Nat) : ∃ k : Scalar, Spec.sent side pw x = k.val • Ed25519.base := by
  have hP : ell • Spec.sent side pw x = 0 := by
    rw [Spec.sent, nsmul_add, ← mul_nsmul', mul_comm, mul_nsmul', Ed25519.ell_base, nsmul_zero, zero_add,
      ← mul_nsmul', mul_comm, mul_nsmul', ell_mine, nsmul_zero]
  obtain ⟨k, hk, hPk⟩ := Ed25519.exists_base hP
  exact ⟨(k : Scalar), by rw [ZMod.val_natCast, Nat.mod_eq_of_lt hk, hPk]⟩

theorem sent_inj (side : Side) (pw : Bytes) {x y : Scalar} (h : Spec.sent side pw x.val = Spec.sent side pw y.val) : x = y := by
  have hu := C26_two_passwords side pw pw x (start_eq side pw x)
  exact hu.unique ⟨_, start_eq _ _ _⟩ ⟨started side pw y, by rw [start_eq, h]⟩

theorem share_right [Fintype ι] [Nonempty ι] (h32 : D.outLen = 32) (hs : ∀ i j, Short (side i) (pw j))
    (hpw : ∀ j j', D.hash (pw j) = D.hash (pw j') → j = j') (T : Nat) (i : Fin n) :
    share {w : (ι × (Fin n → Seed)) × (Inputs Drawn → D.Out) | Right D A side pw T i w ∧ ¬ Exc D A side pw T w} ≤
      ((2 ^ 512 + ell) / 2 ^ 512 : ℚ) ^ n / Fintype.card ι := by
  classical
  have hle : {w : (ι × (Fin n → Seed)) × (Inputs Drawn → D.Out) | Right D A side pw T i w ∧ ¬ Exc D A side pw T w}.ncard ≤
      Nat.card ((Fin n → Scalar × Fin (2 ^ 512 / ell + 1)) × (Inputs Drawn → D.Out)) := by
    rw [← Set.ncard_univ]
    refine Set.ncard_le_ncard_of_injOn (fun w => (fun i => ((sent_log (side i) (pw w.1.1) (leToNat (w.1.2 i).1 : Scalar).val).choose,
      ⟨leToNat (w.1.2 i).1 / ell, seed_quot ell _⟩), w.2)) (fun _ _ => Set.mem_univ _) ?_ (Set.toFinite _)
    rintro ⟨⟨j, b⟩, f⟩ ⟨h1, he1⟩ ⟨⟨j', b'⟩, f'⟩ ⟨h2, he2⟩ he
    simp only [Prod.mk.injEq] at he
    obtain ⟨hB, rfl⟩ := he
    have hS : ∀ i, Spec.sent (side i) (pw j) (leToNat (b i).1 : Scalar).val = Spec.sent (side i) (pw j') (leToNat (b' i).1 : Scalar).val :=
      fun i => by
        have h3 := congrArg Prod.fst (congrFun hB i)
        simp only at h3
        rw [(sent_log (side i) (pw j) (leToNat (b i).1 : Scalar).val).choose_spec,
          (sent_log (side i) (pw j') (leToNat (b' i).1 : Scalar).val).choose_spec, h3]
    have hj : j = j' := right_unique h32 hs hpw (funext fun i => by rw [msgs, msgs, hS i]) h1 h2 he1 he2
    subst hj
    have hb : b = b' := funext fun i => by
      have h3 := congrArg Prod.snd (congrFun hB i)
      simp only [Fin.mk.injEq] at h3
      exact seed_ext ((ZMod.natCast_eq_natCast_iff _ _ _).1 (sent_inj _ _ (hS i))) h3
    rw [hb]
  have hι : (0 : ℚ) < Fintype.card ι := by exact_mod_cast Fintype.card_pos
  have hF : (0 : ℚ) < Nat.card (Inputs Drawn → D.Out) := by exact_mod_cast Nat.card_pos
  have hcN : Nat.card (Fin n → Scalar × Fin (2 ^ 512 / ell + 1)) ≤ (2 ^ 512 + ell) ^ n := by
    rw [Nat.card_fun, Nat.card_prod, Nat.card_eq_fintype_card (α := Fin _), Nat.card_eq_fintype_card (α := Fin _), Fintype.card_fin,
      Fintype.card_fin, Nat.card_zmod]
    refine Nat.pow_le_pow_left ?_ n
    rw [Nat.mul_add, mul_one]
    exact Nat.add_le_add_right (Nat.mul_div_le _ _) _
  have hcb : Nat.card (Fin n → Seed) = (2 ^ 512) ^ n := by
    rw [Nat.card_fun, card_seed, Nat.card_eq_fintype_card, Fintype.card_fin]
  rw [Nat.card_prod] at hle
  replace hle := hle.trans (Nat.mul_le_mul_right _ hcN)
  rw [share, Nat.card_prod, Nat.card_prod, hcb, Nat.card_eq_fintype_card (α := ι), div_pow, div_div]
  rw [div_le_div_iff₀ (by push_cast; positivity) (by positivity)]
  have hle : (_ : ℚ) ≤ _ := Nat.cast_le.2 hle
  push_cast at hle ⊢
  calc _ ≤ (((2 : ℚ) ^ 512 + ell) ^ n * Nat.card (Inputs Drawn → D.Out)) * (((2 : ℚ) ^ 512) ^ n * Fintype.card ι) :=
        mul_le_mul_of_nonneg_right hle (by positivity)
    _ = _ := by ring

theorem opens (side : Side) (pw : Bytes) (b : Seed) : openWith side pw b.1 = .ok (started side pw (leToNat b.1 : Scalar),
    Spec.letter side :: Ed25519.compress (Spec.sent side pw (leToNat b.1 : Scalar).val)) := by
  rw [openWith_eq _ _ b.2, start_eq]

/-- **C100 (SPAKE2).** The sessions, of any sides and identities, have one of several candidates as password; the hash function tells the
candidates apart, and neither candidates nor identities are as long as a transcript. An attacker without computational bound sees the messages
of all sessions. In `T` moves it asks for hash values and sends each session at most one message with what it takes for the key. Of the
candidates, generator outputs for the scalars and hash functions, the key of a session is named for a share of about `n` divided by the number
of candidates: one try per session. No case is excepted. -/
theorem C100_spake2 [Fintype ι] [Nonempty ι] (h32 : D.outLen = 32) (hs : ∀ i j, Short (side i) (pw j))
    (hpw : ∀ j j', D.hash (pw j) = D.hash (pw j') → j = j') (A : Attack.Attacker n Bytes (Bytes × Bytes)) (T : Nat) :
    share {w : (ι × (Fin n → Seed)) × (Inputs Drawn → D.Out) | Wins D A T side (pw w.1.1) w.1.2 w.2} ≤
      n * ((2 ^ 512 + ell) / 2 ^ 512 : ℚ) ^ n / Fintype.card ι + T * (T + 1) / 256 ^ 32 := by
  classical
  have hsub : {w : (ι × (Fin n → Seed)) × (Inputs Drawn → D.Out) | Wins D A T side (pw w.1.1) w.1.2 w.2} ⊆
      {w | ∃ i, Right D A side pw T i w ∧ ¬ Exc D A side pw T w} ∪ ({w | Collides D A T (msgs side pw w.1.1 w.1.2) w.2} ∪
        {w | Hit D A side T (pw w.1.1) (privs w.1.2) (msgs side pw w.1.1 w.1.2) w.2}) := by
    intro w hw
    by_cases he : Exc D A side pw T w
    · exact Or.inr he
    · left
      obtain ⟨s, m, hsm, hacc⟩ := hw
      have e : ∀ i, s i = started (side i) (pw w.1.1) (privs w.1.2 i) ∧ m i = msgs side pw w.1.1 w.1.2 i := fun i => by
        have := (hsm i).symm.trans (opens _ _ _)
        rw [Res.ok.injEq, Prod.mk.injEq] at this
        exact this
      obtain rfl : m = msgs side pw w.1.1 w.1.2 := funext fun i => (e i).2
      obtain ⟨t, ht, i, m, h1, h2, h3⟩ := accepted_refused hacc
      rw [(e i).1] at h3
      exact ⟨i, ⟨t, ht, m, h1, h2, h3⟩, he⟩
  have s1 := share_mono hsub
  have s2 := share_union {w : (ι × (Fin n → Seed)) × (Inputs Drawn → D.Out) | ∃ i, Right D A side pw T i w ∧ ¬ Exc D A side pw T w}
    ({w | Collides D A T (msgs side pw w.1.1 w.1.2) w.2} ∪ {w | Hit D A side T (pw w.1.1) (privs w.1.2) (msgs side pw w.1.1 w.1.2) w.2})
  have s3 := share_union {w : (ι × (Fin n → Seed)) × (Inputs Drawn → D.Out) | Collides D A T (msgs side pw w.1.1 w.1.2) w.2}
    {w | Hit D A side T (pw w.1.1) (privs w.1.2) (msgs side pw w.1.1 w.1.2) w.2}
  have r1 := share_exists _ _ (share_right (A := A) h32 hs hpw T)
  have r2 := share_slice (fun (c : ι × (Fin n → Seed)) f => Collides D A T (msgs side pw c.1 c.2) f) _
    fun c => share_collides (D := D) (A := A) T (msgs side pw c.1 c.2)
  have r3 := share_slice (fun (c : ι × (Fin n → Seed)) f => Hit D A side T (pw c.1) (privs c.2) (msgs side pw c.1 c.2) f) _
    fun c => share_hit (D := D) (A := A) T (pw c.1) (privs c.2) (msgs side pw c.1 c.2)
  rw [Fintype.card_fin] at r1
  rw [h32] at r2 r3
  have e1 : (n : ℚ) * (((2 ^ 512 + ell) / 2 ^ 512 : ℚ) ^ n / Fintype.card ι) = n * ((2 ^ 512 + ell) / 2 ^ 512 : ℚ) ^ n / Fintype.card ι := by
    ring
  have e2 : (T : ℚ) * (T + 1) / 256 ^ 32 = T * T / 256 ^ 32 + T / 256 ^ 32 := by ring
  rw [e2]
  rw [e1] at r1
  linarith

/-! ## The bound is attained up to the small terms -/

/-- An attacker that tries the password `pw i` in session `i` as an honest peer with the scalar `1`: it asks for the key and names it. -/
def tryOut (D : Digest) (side : Fin n → Side) (pw : Fin n → Bytes) : Attack.Attacker n Bytes (Bytes × Bytes) := fun M h =>
  if hi : h.length / 2 < n then
    let i : Fin n := ⟨h.length / 2, hi⟩
    let own := (M i).drop 1
    let peer := Ed25519.compress (Ed25519.base + Spec.pwNum (pw i) • Spec.peers (side i))
    let K := ((Ed25519.decompress own).getD 0) - Spec.pwNum (pw i) • Spec.mine (side i)
    match h.length % 2, h.getLast? with
    | 0, _ => .ask (transcriptWith D (side i) (pw i) own peer K)
    | 1, some (some k) => .reply i (Spec.accepts (side i) :: peer, k)
    | _, _ => .ask []
  else .ask []

/-- **C100 (SPAKE2, attained).** There is an attacker that names a key within `2 n` moves whenever one of `n` candidates is the right one,
whatever the random bytes and the hash function. -/
theorem C100_spake2_attained (h32 : D.outLen = 32) (hs : ∀ i j, Short (side i) (pw j)) (c : Fin n → ι) :
    ∃ A : Attack.Attacker n Bytes (Bytes × Bytes), ∀ i b, ∀ f : Inputs Drawn → D.Out, Wins D A (2 * n) side (pw (c i)) b f := by
  refine ⟨tryOut D side fun i => pw (c i), fun i b f => ⟨_, _, fun i' => opens _ _ _, ?_⟩⟩
  set M : Fin n → Bytes := fun i' => Spec.letter (side i') ::
    Ed25519.compress (Spec.sent (side i') (pw (c i)) (leToNat (b i').1 : Scalar).val) with hM
  set D' := drawn D Drawn f with hD'
  set W : Fin n → Bytes × Bytes → Option Bytes := fun i' => answer D' (started (side i') (pw (c i)) (leToNat (b i').1 : Scalar)) with hW
  set A := tryOut D side (fun i => pw (c i)) with hA
  have hi := i.2
  set x : Scalar := (leToNat (b i).1 : Scalar) with hx
  have hown : (M i).drop 1 = Ed25519.compress (Spec.sent (side i) (pw (c i)) x.val) := rfl
  set peer := Ed25519.compress (Ed25519.base + Spec.pwNum (pw (c i)) • Spec.peers (side i)) with hpeer
  set K := Spec.sent (side i) (pw (c i)) x.val - Spec.pwNum (pw (c i)) • Spec.mine (side i) with hK
  have h3 : ∀ (k : Nat) (h : List (Option Bytes)), h.length = 2 * i + k → k < 2 → ∃ e : h.length / 2 < n,
      (⟨h.length / 2, e⟩ : Fin n) = i ∧ h.length % 2 = k := by
    intro k h hl hk
    exact ⟨by omega, Fin.ext (by simp only; omega), by omega⟩
  have m0 : A M (run D' A M W (2 * i)).1 = .ask (transcriptWith D (side i) (pw (c i)) ((M i).drop 1) peer K) := by
    obtain ⟨e, e1, e2⟩ := h3 0 _ (length_run D' A M W (2 * i)) (by norm_num)
    rw [hA, tryOut, dif_pos (by rw [← hA]; exact e)]
    simp only [← hA, e1, e2]
    rw [hown, Ed25519.decompress_compress, Option.getD_some]
  have r1 : (run D' A M W (2 * i + 1)).1 = (run D' A M W (2 * i)).1 ++
      [some (D'.hash (transcriptWith D (side i) (pw (c i)) ((M i).drop 1) peer K))] := by rw [run, step, m0]
  have m1 : A M (run D' A M W (2 * i + 1)).1 = .reply i (Spec.accepts (side i) :: peer,
      D'.hash (transcriptWith D (side i) (pw (c i)) ((M i).drop 1) peer K)) := by
    obtain ⟨e, e1, e2⟩ := h3 1 _ (length_run D' A M W (2 * i + 1)) (by norm_num)
    have e3 := congrArg List.getLast? r1
    rw [List.getLast?_concat] at e3
    rw [hA, tryOut, dif_pos (by rw [← hA]; exact e)]
    simp only [← hA, e1, e2, e3]
    rfl
  refine ⟨2 * i + 1, by omega, i, _, m1, ?_, ?_⟩
  · rw [mem_used]
    rintro ⟨s, hs', m', hm⟩
    have hl := length_run D' A M W s
    rw [hA, tryOut] at hm
    rw [← hA] at hm
    split at hm
    · simp only at hm
      split at hm
      · simp at hm
      · rename_i e2 _
        rw [Move.reply.injEq] at hm
        have := congrArg Fin.val hm.1
        simp only [hl] at this e2
        omega
      · simp at hm
    · simp at hm
  · have hf := finishWith_cons (D := D') h32 (side i) (pw (c i)) x peer _ (Ed25519.compress_length _) (Ed25519.decompress_compress _)
    have hK' : Spec.shared (side i) (pw (c i)) x.val (Ed25519.base + Spec.pwNum (pw (c i)) • Spec.peers (side i)) = K := by
      rw [hK, Spec.shared, Spec.sent, add_sub_cancel_right, add_sub_cancel_right]
    rw [hK', hD', transcript_drawn f (hs i (c i)), ← hD', ← hown] at hf
    rw [hW]
    simp only [answer]
    rw [← hx, hf]
    simp
end

/-- The hypotheses are met: SHA-256, three candidates and a session of each kind. -/
example : sha256.outLen = 32 ∧ (∀ (i j : Fin 3), Short (![.A (ascii "alice") (ascii "bob"), .B (ascii "alice") (ascii "bob"),
      .symmetric (ascii "carol")] i) (![ascii "password", ascii "123456", ascii "qwerty"] j)) ∧
    ∀ j j' : Fin 3, sha256.hash (![ascii "password", ascii "123456", ascii "qwerty"] j) =
      sha256.hash (![ascii "password", ascii "123456", ascii "qwerty"] j') → j = j' := by
  refine ⟨rfl, ?_, by decide +kernel⟩
  unfold Short
  decide +kernel

end Verif.Spake2.Unbounded
