import Verif.Basic.Attack
import Verif.Aucpace.Guessing
import Mathlib.Data.Set.Card.Arithmetic
import Mathlib.Data.Nat.Cast.Order.Field

/-!
# C100: one candidate per session, for an attacker without any bound

The attacker of C84, without the exceptions for hash collisions: an attacker without computational bound can find those. Instead the hash
function is drawn at random, for all inputs up to some length except those of the hash that gives the generators. The attacker sees the public
keys of all sessions, asks for hash values and sends each server one public key and one authenticator (or, with implicit authentication, what
it takes for the session key).
-/

set_option linter.unusedSectionVars false

namespace Verif.Aucpace.Unbounded
open Spec Run Guess Touch Attack

/-- The hash inputs for which the function is drawn: up to some length, and not for a generator (aucpace/src/utils.rs:14-36, 60-75). -/
def Drawn (L : Nat) (x : Bytes) : Prop := x.length ≤ L ∧ ∀ y, x ≠ inp 1 y

instance (L : Nat) : Finite (Inputs (Drawn L)) := finite_inputs _ fun _ h => h.1

noncomputable instance (L : Nat) : Fintype (Inputs (Drawn L)) := Fintype.ofFinite _

variable {G : Type} [AddCommGroup G] [Module Scalar G] [DecidableEq G] (R : Ristretto G) (D : Digest) {n : Nat} {ι : Type}

/-- A server gets a public key and an authenticator (`explicit`), or a public key and what the attacker takes for the session key: its own
authenticator, or the key, if it accepts (aucpace/src/server.rs:599-632, 664-680). -/
def answer (D : Digest) (explicit : Bool) (st : Server.RecvClientKey) (m : G × Bytes) : Option Bytes :=
  if explicit then
    match Server.receiveClientPubkey R D st m.1 with
    | .ok au => match (Server.receiveClientAuthenticator D au m.2 : Res Error (Bytes × ServerMessage G)) with
      | .ok (_, .authenticator t) => some t
      | _ => none
    | _ => none
  else
    match Server.implicitAuth R D st m.1 with
    | .ok k => if k = m.2 then some k else none
    | _ => none

/-- The state of a server and its public key from its CPace substep (aucpace/src/server.rs:549-572). -/
def opened (D : Digest) (ci : Bytes) (srv : Server.CPaceSubstep Bytes) : Option (Server.RecvClientKey × G) :=
  match Server.generatePublicKey R D Rng.replay srv ci with
  | (st, .publicKey Y) => some (st, Y)
  | _ => none

/-- A server of the plain (`kdb = none`) or partially augmented protocol up to its public key: `generate_client_info`,
`generate_public_key`. -/
def start (D : Digest) (db : Database G) (kdb : Option (PartialAugDatabase G)) (secret : Nat) (user ssid ci pre b : Bytes) :
    Option (Server.RecvClientKey × G) :=
  match serverInfo R D Rng.replay db kdb ⟨secret, ssid⟩ user (pre ++ b) with
  | .ok (srv, _) => opened R D ci srv
  | _ => none

/-- The same for the strong variants, with the blinded point `U`. -/
def startStrong (D : Digest) (db : StrongDatabase G) (kdb : Option (PartialAugDatabase G)) (secret : Nat) (user ssid ci pre : Bytes) (U : G)
    (b : Bytes) : Option (Server.RecvClientKey × G) :=
  match serverInfoStrong R D Rng.replay db kdb ⟨secret, ssid⟩ user U (pre ++ b) with
  | .ok (srv, _) => opened R D ci srv
  | _ => none

/-- The attack succeeds: `st` are the servers from their random bytes up to their public keys, with the hash function of the values `f`. -/
def Wins {L : Nat} (explicit : Bool) (A : Attack.Attacker n G (G × Bytes)) (T : Nat)
    (st : Digest → Fin n → Bytes → Option (Server.RecvClientKey × G)) (b : Fin n → Seed) (f : Inputs (Drawn L) → D.Out) : Prop :=
  ∃ (s : Fin n → Server.RecvClientKey) (Y : Fin n → G), (∀ i, st (drawn D (Drawn L) f) i (b i).1 = some (s i, Y i)) ∧
    Accepted (drawn D (Drawn L) f) A Y (fun i => answer R (drawn D (Drawn L) f) explicit (s i)) T

/-! ## The hash inputs of a session -/

/-- The number of the hash for the authenticator of the client, or for the session key (aucpace/src/utils.rs:104-130). -/
def tag (explicit : Bool) : UInt8 := if explicit then 4 else 5

variable {D} {L : Nat}

theorem drawn_tag {c : UInt8} (hc : c ≠ 1) {x : Bytes} (hx : x.length + 4 ≤ L) : Drawn L (inp c x) := by
  refine ⟨by simp only [inp, List.length_cons]; omega, fun y h => ?_⟩
  rw [inp_inj] at h
  exact hc h.1

theorem gen_drawn (f : Inputs (Drawn L) → D.Out) (ssid prs ci : Bytes) :
    gen R (drawn D (Drawn L) f) ssid prs ci = gen R D ssid prs ci := by
  rw [gen, gen, Hn, Hn, drawn_out f fun h => h.2 _ rfl]

theorem answer_ne_none (D : Digest) (h64 : D.outLen = 64) (explicit : Bool) (ssid : Bytes) (y : Scalar) (m : G × Bytes) :
    answer R D explicit ⟨ssid, y⟩ m ≠ none ↔ m.1 ≠ 0 ∧ m.2 = D.hash (inp (tag explicit) (ssid ++ D.hash (inp 2 (ssid ++ R.compress (y • m.1))))) := by
  rw [answer, receiveClientPubkey_eq, server_implicitAuth_eq]
  cases explicit
  · simp only [Bool.false_eq_true, if_false, tag]
    by_cases h0 : m.1 = 0
    · simp [h0]
    · simp only [if_neg h0, sk, Spec.sk1, Hn]
      split_ifs with h1
      · simp [h0, h1]
      · simp [Ne.symm h1]
  · simp only [if_true, tag]
    by_cases h0 : m.1 = 0
    · simp [h0]
    · simp only [if_neg h0, receiveClientAuthenticator_eq D h64]
      by_cases h1 : tb D ssid (Spec.sk1 R D ssid (y • m.1)) = m.2
      · rw [if_pos h1]
        rw [tb, Spec.sk1, Hn, Hn] at h1
        simp [h0, h1]
      · rw [if_neg h1]
        rw [tb, Spec.sk1, Hn, Hn] at h1
        simp [Ne.symm h1]

/-! ## Exceptions -/

section
variable (D L) (explicit : Bool) (A : Attack.Attacker n G (G × Bytes)) (ssid : Fin n → Bytes)

/-- The next input looked at: what the attacker asks for. -/
noncomputable abbrev asks (Y : Fin n → G) : List (Option (Inputs (Drawn L) × D.Out)) → Option (Inputs (Drawn L)) :=
  look D (Drawn L) A Y fun _ _ => none

/-- The input of the hash for the first session key, if the attacker sends a reply; the private keys are `y`. -/
noncomputable def keyIn (Y : Fin n → G) (y : Fin n → Scalar) (tr : List (Option (Inputs (Drawn L) × D.Out))) : Option (Inputs (Drawn L)) :=
  match A Y (view D (Drawn L) A Y tr) with
  | .reply i m => input (Drawn L) (inp 2 (ssid i ++ R.compress (y i • m.1)))
  | .ask _ => none

/-- The attacker asks for a value and gets one seen before. -/
def Collides (T : Nat) (Y : Fin n → G) (f : Inputs (Drawn L) → D.Out) : Prop :=
  ∃ t < T, ∃ x, asks D L A Y (trace (asks D L A Y) f t) = some x ∧ ¬ Touched (trace (asks D L A Y) f t) x ∧
    f x ∈ {o : D.Out | ∃ z, some (z, o) ∈ trace (asks D L A Y) f t}

/-- The hash values for which the attacker has asked for the authenticator already. -/
def Ahead (Y : Fin n → G) (tr : List (Option (Inputs (Drawn L) × D.Out))) : Set D.Out :=
  {o | ∃ i m x, A Y (view D (Drawn L) A Y tr) = .reply i m ∧ x.1 = inp (tag explicit) (ssid i ++ o.1) ∧ Touched tr x}

/-- The first session key was not asked for, but the authenticator that follows from it was. -/
def Early (T : Nat) (Y : Fin n → G) (y : Fin n → Scalar) (f : Inputs (Drawn L) → D.Out) : Prop :=
  ∃ t < T, ∃ x, keyIn R D L A ssid Y y (trace (asks D L A Y) f t) = some x ∧ ¬ Touched (trace (asks D L A Y) f t) x ∧
    f x ∈ Ahead D L explicit A ssid Y (trace (asks D L A Y) f t)

/-- The looks up to time `t` and then at the first session key. -/
noncomputable def asksKey (t : Nat) (Y : Fin n → G) (y : Fin n → Scalar) (tr : List (Option (Inputs (Drawn L) × D.Out))) :
    Option (Inputs (Drawn L)) :=
  if tr.length = t then keyIn R D L A ssid Y y tr else asks D L A Y tr

/-- The input of the hash for the authenticator, from the looks including that at the first session key. -/
noncomputable def tagIn (Y : Fin n → G) (tr : List (Option (Inputs (Drawn L) × D.Out))) : Option (Inputs (Drawn L)) :=
  match A Y (view D (Drawn L) A Y tr.dropLast), tr.getLast? with
  | .reply i _, some (some e) => input (Drawn L) (inp (tag explicit) (ssid i ++ e.2.1))
  | _, _ => none

/-- The authenticator sent. -/
def sent (Y : Fin n → G) (tr : List (Option (Inputs (Drawn L) × D.Out))) : Set D.Out :=
  {o | ∃ i m, A Y (view D (Drawn L) A Y tr.dropLast) = .reply i m ∧ o.1 = m.2}

/-- An authenticator is right though nobody has asked for it. -/
def Hit (T : Nat) (Y : Fin n → G) (y : Fin n → Scalar) (f : Inputs (Drawn L) → D.Out) : Prop :=
  ∃ t < T, ∃ x, tagIn D L explicit A ssid Y (trace (asksKey R D L A ssid t Y y) f (t + 1)) = some x ∧
    ¬ Touched (trace (asksKey R D L A ssid t Y y) f (t + 1)) x ∧ f x ∈ sent D L A Y (trace (asksKey R D L A ssid t Y y) f (t + 1))

variable {D L explicit A ssid}

theorem share_collides (T : Nat) (Y : Fin n → G) :
    share {f : Inputs (Drawn L) → D.Out | Collides D L A T Y f} ≤ T * T / 256 ^ D.outLen := by
  have h1 := share_fresh (asks D L A Y) T (fun _ => asks D L A Y) (fun tr _ => {o : D.Out | ∃ z, some (z, o) ∈ tr}) T
    (fun tr x htr => (ncard_seen tr).trans htr) id (fun t ht => ht.le)
  rw [Nat.card_eq_fintype_card, Oracle.card_out] at h1
  push_cast at h1 ⊢
  exact h1

theorem ncard_ahead (Y : Fin n → G) (tr : List (Option (Inputs (Drawn L) × D.Out))) : (Ahead D L explicit A ssid Y tr).ncard ≤ tr.length := by
  classical
  have hf : ((tr.filterMap fun e : Option (Inputs (Drawn L) × D.Out) => e.map fun z => z.1.1).toFinset : Set Bytes).ncard ≤ tr.length := by
    rw [Set.ncard_coe_finset]
    exact (List.toFinset_card_le _).trans (List.length_filterMap_le _ _)
  cases hm : A Y (view D (Drawn L) A Y tr) with
  | ask x =>
    have : Ahead D L explicit A ssid Y tr = ∅ := by
      ext o
      simp [Ahead, hm]
    rw [this, Set.ncard_empty]
    exact Nat.zero_le _
  | reply i m =>
    refine le_trans (Set.ncard_le_ncard_of_injOn (fun o : D.Out => inp (tag explicit) (ssid i ++ o.1)) ?_ ?_ (Finset.finite_toSet _)) hf
    · rintro o ⟨i', m', x, h, hx, y, hy⟩
      rw [hm, Move.reply.injEq] at h
      rw [List.coe_toFinset]
      refine List.mem_filterMap.2 ⟨_, hy, ?_⟩
      rw [Option.map_some, hx, h.1]
    · intro o _ o' _ h
      simp only [inp_inj, true_and] at h
      exact Subtype.ext (List.append_cancel_left h)

theorem share_early (T : Nat) (Y : Fin n → G) (y : Fin n → Scalar) :
    share {f : Inputs (Drawn L) → D.Out | Early R D L explicit A ssid T Y y f} ≤ T * T / 256 ^ D.outLen := by
  have h1 := share_fresh (asks D L A Y) T (fun _ => keyIn R D L A ssid Y y) (fun tr _ => Ahead D L explicit A ssid Y tr) T
    (fun tr x htr => (ncard_ahead Y tr).trans htr) id (fun t ht => ht.le)
  rw [Nat.card_eq_fintype_card, Oracle.card_out] at h1
  push_cast at h1 ⊢
  exact h1

theorem share_hit (T : Nat) (Y : Fin n → G) (y : Fin n → Scalar) :
    share {f : Inputs (Drawn L) → D.Out | Hit R D L explicit A ssid T Y y f} ≤ T / 256 ^ D.outLen := by
  have h1 := share_exists (Ω := Inputs (Drawn L) → D.Out) (κ := Fin T) (fun t f => ∃ x,
    tagIn D L explicit A ssid Y (trace (asksKey R D L A ssid t Y y) f (t + 1)) = some x ∧
    ¬ Touched (trace (asksKey R D L A ssid t Y y) f (t + 1)) x ∧ f x ∈ sent D L A Y (trace (asksKey R D L A ssid t Y y) f (t + 1)))
    (1 / 256 ^ D.outLen) fun t => by
      have := card_fresh (asksKey R D L A ssid t Y y) (t + 1) (tagIn D L explicit A ssid Y) (fun tr _ => sent D L A Y tr) 1 fun tr x => by
        rw [Set.ncard_le_one (Set.toFinite _)]
        rintro o ⟨i, m, hm, ho⟩ o' ⟨i', m', hm', ho'⟩
        rw [hm, Move.reply.injEq] at hm'
        exact Subtype.ext (ho.trans (hm'.2 ▸ ho'.symm))
      have hc : (0 : ℚ) < Nat.card (Inputs (Drawn L) → D.Out) := by exact_mod_cast Nat.card_pos
      rw [Nat.card_eq_fintype_card (α := D.Out), Oracle.card_out] at this
      rw [share, div_le_div_iff₀ hc (by positivity)]
      exact_mod_cast this
  rw [Fintype.card_fin] at h1
  refine le_trans (share_mono ?_) (h1.trans (le_of_eq (by ring)))
  rintro f ⟨t, ht, hx⟩
  exact ⟨⟨t, ht⟩, hx⟩

theorem trace_asksKey (t : Nat) (Y : Fin n → G) (y : Fin n → Scalar) (f : Inputs (Drawn L) → D.Out) {s : Nat} (hs : s ≤ t) :
    trace (asksKey R D L A ssid t Y y) f s = trace (asks D L A Y) f s := by
  induction s with
  | zero => rfl
  | succ s ih =>
    rw [trace, trace, ih (by omega), asksKey, length_trace, if_neg (by omega)]

/-- If an authenticator is right and no exception, both hash values have been asked for. -/
theorem right_touched (hL : ∀ i, (ssid i).length + 68 ≤ L) (h64 : D.outLen = 64) {T t : Nat} (ht : t < T) {Y : Fin n → G} {y : Fin n → Scalar}
    {f : Inputs (Drawn L) → D.Out} {i : Fin n} {m : G × Bytes} (hm : A Y (refused (drawn D (Drawn L) f) A Y t).1 = .reply i m)
    (hr : m.2 = (drawn D (Drawn L) f).hash (inp (tag explicit) (ssid i ++ (drawn D (Drawn L) f).hash (inp 2 (ssid i ++ R.compress (y i • m.1))))))
    (he : ¬ Early R D L explicit A ssid T Y y f) (hh : ¬ Hit R D L explicit A ssid T Y y f) :
    ∃ z x : Inputs (Drawn L), z.1 = inp 2 (ssid i ++ R.compress (y i • m.1)) ∧ x.1 = inp (tag explicit) (ssid i ++ (f z).1) ∧ (f x).1 = m.2 ∧
      Touched (trace (asks D L A Y) f t) z ∧ Touched (trace (asks D L A Y) f t) x := by
  have hc : tag explicit ≠ 1 ∧ tag explicit ≠ 2 := by cases explicit <;> decide
  have hz : Drawn L (inp 2 (ssid i ++ R.compress (y i • m.1))) := by
    refine drawn_tag (by decide) ?_
    have := hL i
    rw [List.length_append, R.compress_length]; omega
  have hx : ∀ o : D.Out, Drawn L (inp (tag explicit) (ssid i ++ o.1)) := fun o => by
    refine drawn_tag hc.1 ?_
    have := hL i
    rw [List.length_append, o.2, h64]; omega
  have e1 : (drawn D (Drawn L) f).hash (inp 2 (ssid i ++ R.compress (y i • m.1))) = (f ⟨_, hz⟩).1 := drawn_in f ⟨_, hz⟩
  have e2 : (drawn D (Drawn L) f).hash (inp (tag explicit) (ssid i ++ (f ⟨_, hz⟩).1)) = (f ⟨_, hx _⟩).1 := drawn_in f ⟨_, hx (f ⟨_, hz⟩)⟩
  rw [e1, e2] at hr
  have hkey : keyIn R D L A ssid Y y (trace (asks D L A Y) f t) = some ⟨_, hz⟩ := by
    rw [keyIn, view_trace, hm]
    exact input_some rfl
  have ht1 : trace (asksKey R D L A ssid t Y y) f (t + 1) = trace (asks D L A Y) f t ++ [some (⟨_, hz⟩, f ⟨_, hz⟩)] := by
    rw [trace, trace_asksKey R t Y y f le_rfl, asksKey, length_trace, if_pos rfl, hkey]
    rfl
  have hxt : Touched (trace (asks D L A Y) f t) ⟨_, hx (f ⟨_, hz⟩)⟩ := by
    by_contra hnt
    refine hh ⟨t, ht, ⟨_, hx (f ⟨_, hz⟩)⟩, ?_, ?_, ?_⟩
    · rw [ht1, tagIn, List.dropLast_concat, List.getLast?_concat, view_trace, hm]
      exact input_some rfl
    · rw [ht1]
      rintro ⟨o, ho⟩
      rw [List.mem_append, List.mem_singleton] at ho
      rcases ho with ho | ho
      · exact hnt ⟨o, ho⟩
      · rw [Option.some.injEq, Prod.mk.injEq, Subtype.mk.injEq, inp_inj] at ho
        exact hc.2 ho.1.1
    · rw [ht1]
      refine ⟨i, m, ?_, hr.symm⟩
      rw [List.dropLast_concat, view_trace, hm]
  refine ⟨⟨_, hz⟩, ⟨_, hx _⟩, rfl, rfl, hr.symm, ?_, hxt⟩
  by_contra hnt
  refine he ⟨t, ht, ⟨_, hz⟩, hkey, hnt, i, m, ⟨_, hx _⟩, ?_, rfl, hxt⟩
  rw [view_trace, hm]

/-! ## Counting -/

variable (D L explicit A ssid) (g : Fin n → ι → G)

/-- The public keys of the servers: `g i j` is the generator of candidate `j` in session `i`. -/
def pubs (j : ι) (b : Fin n → Seed) (i : Fin n) : G := draw (b i).1 • g i j

/-- The private keys. -/
def privs (b : Fin n → Seed) (i : Fin n) : Scalar := draw (b i).1

/-- With all replies refused, the first reply to session `i` is right. -/
def Right (T : Nat) (i : Fin n) (w : (ι × (Fin n → Seed)) × (Inputs (Drawn L) → D.Out)) : Prop :=
  ∃ t < T, ∃ m, A (pubs g w.1.1 w.1.2) (refused (drawn D (Drawn L) w.2) A (pubs g w.1.1 w.1.2) t).1 = .reply i m ∧
    i ∉ (refused (drawn D (Drawn L) w.2) A (pubs g w.1.1 w.1.2) t).2 ∧
    answer R (drawn D (Drawn L) w.2) explicit ⟨ssid i, privs w.1.2 i⟩ m ≠ none

/-- The exceptions together. -/
def Exc (T : Nat) (w : (ι × (Fin n → Seed)) × (Inputs (Drawn L) → D.Out)) : Prop :=
  (∃ i, draw (w.1.2 i).1 = 0) ∨ Collides D L A T (pubs g w.1.1 w.1.2) w.2 ∨
    Early R D L explicit A ssid T (pubs g w.1.1 w.1.2) (privs w.1.2) w.2 ∨ Hit R D L explicit A ssid T (pubs g w.1.1 w.1.2) (privs w.1.2) w.2

variable {D L explicit A ssid g}

/-- Without an exception, the public keys and the hash function determine the private key of a session and with it the generator. -/
theorem right_priv (hL : ∀ i, (ssid i).length + 68 ≤ L) (h64 : D.outLen = 64) {T : Nat} {i : Fin n}
    {j j' : ι} {b b' : Fin n → Seed} {f : Inputs (Drawn L) → D.Out} (hY : pubs g j b = pubs g j' b')
    (h1 : Right R D L explicit A ssid g T i ((j, b), f)) (h2 : Right R D L explicit A ssid g T i ((j', b'), f))
    (he1 : ¬ Exc R D L explicit A ssid g T ((j, b), f)) (he2 : ¬ Exc R D L explicit A ssid g T ((j', b'), f)) : g i j = g i j' := by
  obtain ⟨t, ht, m, hm, hu, hr⟩ := h1
  obtain ⟨t', ht', m', hm', hu', hr'⟩ := h2
  simp only [Exc, not_or] at hm hu hr hm' hu' hr' he1 he2
  rw [← hY] at hm' hu' he2
  obtain ⟨rfl, rfl⟩ := first_reply hm hu hm' hu'
  rw [answer_ne_none R (drawn D (Drawn L) f) h64] at hr hr'
  obtain ⟨z, x, hz, hx, hfx, htz, htx⟩ := right_touched R hL h64 ht hm hr.2 he1.2.2.1 he1.2.2.2
  obtain ⟨z', x', hz', hx', hfx', htz', htx'⟩ := right_touched R hL h64 ht hm hr'.2 he2.2.2.1 he2.2.2.2
  have key : ∀ {x x' : Inputs (Drawn L)}, Touched (trace (asks D L A (pubs g j b)) f t) x → Touched (trace (asks D L A (pubs g j b)) f t) x' →
      f x = f x' → x = x' := by
    intro x x' h h' e
    by_contra hne
    obtain ⟨s, hs, u, h3, h4, h5⟩ := collide h h' hne e
    exact he1.2.1 ⟨s, by omega, u, h3, h4, h5⟩
  have exx := congrArg Subtype.val (key htx htx' (Subtype.ext (hfx.trans hfx'.symm)))
  rw [hx, hx', inp_inj] at exx
  have ezz := congrArg Subtype.val (key htz htz' (Subtype.ext (List.append_cancel_left exx.2)))
  rw [hz, hz', inp_inj] at ezz
  have ey := smul_right_cancel_ne hr.1 (R.compress_inj.1 (List.append_cancel_left ezz.2))
  have hYi := congrFun hY i
  simp only [pubs, privs] at hYi ey
  rw [← ey] at hYi
  exact smul_left_cancel_ne (fun e => he1.1 ⟨i, e⟩) hYi

theorem share_right [Fintype ι] [Nonempty ι] (hL : ∀ i, (ssid i).length + 68 ≤ L) (h64 : D.outLen = 64) (h0 : ∀ i j, g i j ≠ 0)
    (hg : ∀ i j j', g i j = g i j' → j = j') (T : Nat) (i : Fin n) :
    share {w : (ι × (Fin n → Seed)) × (Inputs (Drawn L) → D.Out) | Right R D L explicit A ssid g T i w ∧ ¬ Exc R D L explicit A ssid g T w} ≤
      ((2 ^ 512 + ell) / 2 ^ 512 : ℚ) ^ n / Fintype.card ι := by
  classical
  obtain ⟨hfin, hcG⟩ := group_finite R
  have hle : {w : (ι × (Fin n → Seed)) × (Inputs (Drawn L) → D.Out) |
      Right R D L explicit A ssid g T i w ∧ ¬ Exc R D L explicit A ssid g T w}.ncard ≤
      Nat.card ((Fin n → G × Fin (2 ^ 512 / ell + 1)) × (Inputs (Drawn L) → D.Out)) := by
    rw [← Set.ncard_univ]
    refine Set.ncard_le_ncard_of_injOn (fun w => (fun i => (pubs g w.1.1 w.1.2 i, ⟨leToNat (w.1.2 i).1 / ell, seed_quot ell _⟩), w.2))
      (fun _ _ => Set.mem_univ _) ?_ (Set.toFinite _)
    rintro ⟨⟨j, b⟩, f⟩ ⟨h1, he1⟩ ⟨⟨j', b'⟩, f'⟩ ⟨h2, he2⟩ he
    simp only [Prod.mk.injEq] at he
    obtain ⟨hB, rfl⟩ := he
    have hj : j = j' := hg i j j' (right_priv R hL h64 (funext fun i => congrArg Prod.fst (congrFun hB i)) h1 h2 he1 he2)
    subst hj
    have hb : b = b' := funext fun i => by
      have h3 := congrFun hB i
      simp only [Prod.mk.injEq, pubs, Fin.mk.injEq] at h3
      exact seed_ext ((ZMod.natCast_eq_natCast_iff _ _ _).1 (smul_right_cancel_ne (h0 i j) h3.1)) h3.2
    rw [hb]
  have hι : (0 : ℚ) < Fintype.card ι := by exact_mod_cast Fintype.card_pos
  have hF : (0 : ℚ) < Nat.card (Inputs (Drawn L) → D.Out) := by exact_mod_cast Nat.card_pos
  have hcN : Nat.card (Fin n → G × Fin (2 ^ 512 / ell + 1)) ≤ (2 ^ 512 + ell) ^ n := by
    rw [Nat.card_fun, Nat.card_prod, Nat.card_eq_fintype_card (α := Fin _), Nat.card_eq_fintype_card (α := Fin _), Fintype.card_fin,
      Fintype.card_fin]
    refine Nat.pow_le_pow_left ((Nat.mul_le_mul_right _ hcG).trans ?_) n
    rw [Nat.mul_add, mul_one]
    exact Nat.add_le_add_right (Nat.mul_div_le _ _) _
  have hcb : Nat.card (Fin n → Seed) = (2 ^ 512) ^ n := by
    rw [Nat.card_fun, card_seed, Nat.card_eq_fintype_card, Fintype.card_fin]
  rw [Nat.card_prod] at hle
  replace hle := hle.trans (Nat.mul_le_mul_right _ hcN)
  rw [share, Nat.card_prod, Nat.card_prod, hcb, Nat.card_eq_fintype_card (α := ι), div_pow, div_div]
  rw [div_le_div_iff₀ (by push_cast; positivity) (by positivity)]
  have hle : (_ : ℚ) ≤ _ := Nat.cast_le.2 hle
  push_cast at hle ⊢
  calc _ ≤ (((2 : ℚ) ^ 512 + ell) ^ n * Nat.card (Inputs (Drawn L) → D.Out)) * (((2 : ℚ) ^ 512) ^ n * Fintype.card ι) :=
        mul_le_mul_of_nonneg_right hle (by positivity)
    _ = _ := by ring

theorem share_zero : share {b : Fin n → Seed | ∃ i, draw (b i).1 = 0} ≤ n * (1 / ell + 1 / 2 ^ 512) := by
  have h1 := share_exists (Ω := Fin n → Seed) (κ := Fin n) (fun i b => draw (b i).1 = 0) (1 / ell + 1 / 2 ^ 512) fun i => by
    rw [share_coord (K := Seed) i fun b => draw b.1 = 0, share, card_seed]
    have hle : {b : Seed | draw b.1 = 0}.ncard ≤ 2 ^ 512 / ell + 1 := by
      rw [← Finset.card_range (2 ^ 512 / ell + 1), ← Set.ncard_coe_finset]
      refine Set.ncard_le_ncard_of_injOn (fun b => leToNat b.1 / ell) (fun b _ => ?_) (fun b hb b' hb' h => ?_) (Finset.finite_toSet _)
      · rw [Finset.mem_coe, Finset.mem_range]
        exact seed_quot ell b
      · exact seed_ext ((ZMod.natCast_eq_natCast_iff _ _ _).1 (hb.trans hb'.symm)) h
    have hle' : ({b : Seed | draw b.1 = 0}.ncard : ℚ) ≤ 2 ^ 512 / ell + 1 := by
      refine (Nat.cast_le.2 hle).trans ?_
      push_cast
      have := Nat.cast_div_le (α := ℚ) (m := 2 ^ 512) (n := ell)
      push_cast at this
      linarith
    have hpos : (0 : ℚ) < ell := by exact_mod_cast (by decide +kernel : 0 < ell)
    push_cast
    rw [div_le_iff₀ (by positivity)]
    refine hle'.trans (le_of_eq ?_)
    rw [add_mul, one_div_mul_cancel (by positivity)]
    ring
  rwa [Fintype.card_fin] at h1

/-- A bound for servers whose public keys and states are as stated, from one for the cases without exception. -/
theorem bound_add [Fintype ι] [Nonempty ι] (h64 : D.outLen = 64)
    (st : ι → Digest → Fin n → Bytes → Option (Server.RecvClientKey × G))
    (hst : ∀ j (f : Inputs (Drawn L) → D.Out) i b, b.length = 64 → ∀ r, st j (drawn D (Drawn L) f) i b = some r →
      r = (⟨ssid i, draw b⟩, draw b • g i j))
    (T : Nat) {c : ℚ} (r1 : share {w : (ι × (Fin n → Seed)) × (Inputs (Drawn L) → D.Out) |
      ∃ i, Right R D L explicit A ssid g T i w ∧ ¬ Exc R D L explicit A ssid g T w} ≤ c) :
    share {w : (ι × (Fin n → Seed)) × (Inputs (Drawn L) → D.Out) | Wins R D explicit A T (st w.1.1) w.1.2 w.2} ≤
      c + n * (1 / ell + 1 / 2 ^ 512) + T * (2 * T + 1) / 256 ^ 64 := by
  classical
  have hsub : {w : (ι × (Fin n → Seed)) × (Inputs (Drawn L) → D.Out) | Wins R D explicit A T (st w.1.1) w.1.2 w.2} ⊆
      {w | ∃ i, Right R D L explicit A ssid g T i w ∧ ¬ Exc R D L explicit A ssid g T w} ∪
        ({w | ∃ i, draw (w.1.2 i).1 = 0} ∪ ({w | Collides D L A T (pubs g w.1.1 w.1.2) w.2} ∪
        ({w | Early R D L explicit A ssid T (pubs g w.1.1 w.1.2) (privs w.1.2) w.2} ∪
          {w | Hit R D L explicit A ssid T (pubs g w.1.1 w.1.2) (privs w.1.2) w.2}))) := by
    intro w hw
    by_cases he : Exc R D L explicit A ssid g T w
    · exact Or.inr he
    · left
      obtain ⟨s, Y, hs, hacc⟩ := hw
      have e : ∀ i, s i = ⟨ssid i, privs w.1.2 i⟩ ∧ Y i = pubs g w.1.1 w.1.2 i := fun i => by
        have := hst w.1.1 w.2 i (w.1.2 i).1 (w.1.2 i).2 _ (hs i)
        rwa [Prod.mk.injEq] at this
      obtain rfl : Y = pubs g w.1.1 w.1.2 := funext fun i => (e i).2
      obtain ⟨t, ht, i, m, h1, h2, h3⟩ := accepted_refused hacc
      rw [(e i).1] at h3
      exact ⟨i, ⟨t, ht, m, h1, h2, h3⟩, he⟩
  have s1 := share_mono hsub
  have s2 := share_union {w : (ι × (Fin n → Seed)) × (Inputs (Drawn L) → D.Out) |
      ∃ i, Right R D L explicit A ssid g T i w ∧ ¬ Exc R D L explicit A ssid g T w}
    ({w | ∃ i, draw (w.1.2 i).1 = 0} ∪ ({w | Collides D L A T (pubs g w.1.1 w.1.2) w.2} ∪
        ({w | Early R D L explicit A ssid T (pubs g w.1.1 w.1.2) (privs w.1.2) w.2} ∪
          {w | Hit R D L explicit A ssid T (pubs g w.1.1 w.1.2) (privs w.1.2) w.2})))
  have s3 := share_union {w : (ι × (Fin n → Seed)) × (Inputs (Drawn L) → D.Out) | ∃ i, draw (w.1.2 i).1 = 0}
    ({w | Collides D L A T (pubs g w.1.1 w.1.2) w.2} ∪ ({w | Early R D L explicit A ssid T (pubs g w.1.1 w.1.2) (privs w.1.2) w.2} ∪
          {w | Hit R D L explicit A ssid T (pubs g w.1.1 w.1.2) (privs w.1.2) w.2}))
  have s4 := share_union {w : (ι × (Fin n → Seed)) × (Inputs (Drawn L) → D.Out) | Collides D L A T (pubs g w.1.1 w.1.2) w.2}
    ({w | Early R D L explicit A ssid T (pubs g w.1.1 w.1.2) (privs w.1.2) w.2} ∪
          {w | Hit R D L explicit A ssid T (pubs g w.1.1 w.1.2) (privs w.1.2) w.2})
  have s5 := share_union {w : (ι × (Fin n → Seed)) × (Inputs (Drawn L) → D.Out) |
      Early R D L explicit A ssid T (pubs g w.1.1 w.1.2) (privs w.1.2) w.2}
    {w | Hit R D L explicit A ssid T (pubs g w.1.1 w.1.2) (privs w.1.2) w.2}
  have r2 : share {w : (ι × (Fin n → Seed)) × (Inputs (Drawn L) → D.Out) | ∃ i, draw (w.1.2 i).1 = 0} ≤ n * (1 / ell + 1 / 2 ^ 512) :=
    (share_fst (Ω' := Inputs (Drawn L) → D.Out) {c : ι × (Fin n → Seed) | ∃ i, draw (c.2 i).1 = 0}).le.trans
      (share_slice (fun (_ : ι) (b : Fin n → Seed) => ∃ i, draw (b i).1 = 0) _ fun _ => share_zero)
  have r3 := share_slice (fun (c : ι × (Fin n → Seed)) f => Collides D L A T (pubs g c.1 c.2) f) _
    fun c => share_collides (D := D) (L := L) (A := A) T (pubs g c.1 c.2)
  have r4 := share_slice (fun (c : ι × (Fin n → Seed)) f => Early R D L explicit A ssid T (pubs g c.1 c.2) (privs c.2) f) _
    fun c => share_early (D := D) (L := L) (A := A) R T (pubs g c.1 c.2) (privs c.2)
  have r5 := share_slice (fun (c : ι × (Fin n → Seed)) f => Hit R D L explicit A ssid T (pubs g c.1 c.2) (privs c.2) f) _
    fun c => share_hit (D := D) (L := L) (A := A) R T (pubs g c.1 c.2) (privs c.2)
  rw [h64] at r3 r4 r5
  have e2 : (T : ℚ) * (2 * T + 1) / 256 ^ 64 = T * T / 256 ^ 64 + T * T / 256 ^ 64 + T / 256 ^ 64 := by ring
  rw [e2]
  linarith

/-- The bound, for servers whose public keys and states are as stated. -/
theorem bound [Fintype ι] [Nonempty ι] (hL : ∀ i, (ssid i).length + 68 ≤ L) (h64 : D.outLen = 64) (h0 : ∀ i j, g i j ≠ 0)
    (hg : ∀ i j j', g i j = g i j' → j = j') (st : ι → Digest → Fin n → Bytes → Option (Server.RecvClientKey × G))
    (hst : ∀ j (f : Inputs (Drawn L) → D.Out) i b, b.length = 64 → st j (drawn D (Drawn L) f) i b = some (⟨ssid i, draw b⟩, draw b • g i j))
    (T : Nat) :
    share {w : (ι × (Fin n → Seed)) × (Inputs (Drawn L) → D.Out) | Wins R D explicit A T (st w.1.1) w.1.2 w.2} ≤
      n * ((2 ^ 512 + ell) / 2 ^ 512 : ℚ) ^ n / Fintype.card ι + n * (1 / ell + 1 / 2 ^ 512) + T * (2 * T + 1) / 256 ^ 64 := by
  refine bound_add R h64 st (fun j f i b hb r h => (Option.some.inj ((hst j f i b hb).symm.trans h)).symm) T ?_
  have r1 := share_exists _ _ (share_right (L := L) (explicit := explicit) (A := A) R hL h64 h0 hg T)
  rwa [Fintype.card_fin, ← mul_div_assoc] at r1
end

/-! ## The servers -/

section
variable {R} {kdb : Option (PartialAugDatabase G)} {user : Bytes} {ssid ci pre : Fin n → Bytes}

/-- The generator of the candidate with the verifier `V` in session `i`. -/
def gens (R : Ristretto G) (D : Digest) (kdb : Option (PartialAugDatabase G)) (user : Bytes) (ssid ci pre : Fin n → Bytes) (V : ι → G)
    (i : Fin n) (j : ι) : G :=
  gen R D (ssid i) (R.compress ((serverX Rng.replay kdb user (pre i)).1 • V j)) (ci i)

theorem opened_eq (D : Digest) (ci ssid prs : Bytes) {b : Bytes} (hb : b.length = 64) :
    opened R D ci ⟨ssid, prs, b⟩ = some (⟨ssid, draw b⟩, draw b • gen R D ssid prs ci) := by
  rw [opened, server_generatePublicKey_eq]
  simp only [replay_fill hb]

theorem start_eq (V : ι → G) (db : ι → Database G) (secret : Nat) (salt ps : Bytes)
    (hdb : ∀ j, (db j).lookupVerifier user = some (V j, salt, ps))
    (hk : ∀ k, kdb = some k → ∃ x, k.lookupLongTermKeypair user = some (x, x • R.base)) (hpre : ∀ i, (pre i).length = preLen kdb)
    (j : ι) (f : Inputs (Drawn L) → D.Out) (i : Fin n) (b : Bytes) (hb : b.length = 64) :
    start R (drawn D (Drawn L) f) (db j) kdb secret user (ssid i) (ci i) (pre i) b =
      some (⟨ssid i, draw b⟩, draw b • gens R D kdb user ssid ci pre V i j) := by
  rw [start, server_info_eq R _ Rng.replay (db j) kdb _ user _ (V j) salt ps (hdb j) hk, serverX_replay kdb user (hpre i)]
  simp only
  rw [opened_eq _ _ _ _ hb, gen_drawn]
  rfl

theorem startStrong_eq (V : ι → G) (db : ι → StrongDatabase G) (secret : Nat) (ps : Bytes) (q : Scalar) (hq : q ≠ 0)
    (hdb : ∀ j, (db j).lookupVerifierStrong user = some (V j, q, ps))
    (hk : ∀ k, kdb = some k → ∃ x, k.lookupLongTermKeypair user = some (x, x • R.base)) (hpre : ∀ i, (pre i).length = preLen kdb)
    (U : Fin n → G) (hU : ∀ i, U i ≠ 0) (j : ι) (f : Inputs (Drawn L) → D.Out) (i : Fin n) (b : Bytes) (hb : b.length = 64) :
    startStrong R (drawn D (Drawn L) f) (db j) kdb secret user (ssid i) (ci i) (pre i) (U i) b =
      some (⟨ssid i, draw b⟩, draw b • gens R D kdb user ssid ci pre V i j) := by
  rw [startStrong, server_info_strong_eq R _ Rng.replay (db j) kdb _ user _ _ (V j) q ps (hdb j) hk, serverX_replay kdb user (hpre i),
    if_neg (smul_ne_zero hq (hU i))]
  simp only
  rw [opened_eq _ _ _ _ hb, gen_drawn]
  rfl

/-- **C100 (AuCPace server).** The servers of `n` sessions hold the verifier of one of several candidates, whose generators are different and
not neutral in each session. An attacker without computational bound sees the public keys of all sessions. In `T` moves it asks for hash values
and sends each server at most one public key with an authenticator (`explicit`), or with what it takes for the session key. Of the candidates,
generator outputs for the CPace keys and hash functions, a server accepts the authenticator, or has the session key named, for a share of about
`n` divided by the number of candidates: one try per session. No case is excepted. -/
theorem C100_aucpace_server [Fintype ι] [Nonempty ι] (h64 : D.outLen = 64) (explicit : Bool) (V : ι → G) (db : ι → Database G) (secret : Nat)
    (salt ps : Bytes) (hdb : ∀ j, (db j).lookupVerifier user = some (V j, salt, ps))
    (hk : ∀ k, kdb = some k → ∃ x, k.lookupLongTermKeypair user = some (x, x • R.base)) (hpre : ∀ i, (pre i).length = preLen kdb)
    (hL : ∀ i, (ssid i).length + 68 ≤ L) (h0 : ∀ i j, gens R D kdb user ssid ci pre V i j ≠ 0)
    (hg : ∀ i j j', gens R D kdb user ssid ci pre V i j = gens R D kdb user ssid ci pre V i j' → j = j')
    (A : Attack.Attacker n G (G × Bytes)) (T : Nat) :
    share {w : (ι × (Fin n → Seed)) × (Inputs (Drawn L) → D.Out) | Wins R D explicit A T
        (fun D' i b => start R D' (db w.1.1) kdb secret user (ssid i) (ci i) (pre i) b) w.1.2 w.2} ≤
      n * ((2 ^ 512 + ell) / 2 ^ 512 : ℚ) ^ n / Fintype.card ι + n * (1 / ell + 1 / 2 ^ 512) + T * (2 * T + 1) / 256 ^ 64 :=
  bound R hL h64 h0 hg (fun j D' i b => start R D' (db j) kdb secret user (ssid i) (ci i) (pre i) b)
    (start_eq V db secret salt ps hdb hk hpre) T

/-- **C100 (AuCPace server, strong variants).** The same with the secret exponent `q` and blinded points that are not neutral. -/
theorem C100_aucpace_server_strong [Fintype ι] [Nonempty ι] (h64 : D.outLen = 64) (explicit : Bool) (V : ι → G) (db : ι → StrongDatabase G)
    (secret : Nat) (ps : Bytes) (q : Scalar) (hq : q ≠ 0) (hdb : ∀ j, (db j).lookupVerifierStrong user = some (V j, q, ps))
    (hk : ∀ k, kdb = some k → ∃ x, k.lookupLongTermKeypair user = some (x, x • R.base)) (hpre : ∀ i, (pre i).length = preLen kdb)
    (U : Fin n → G) (hU : ∀ i, U i ≠ 0) (hL : ∀ i, (ssid i).length + 68 ≤ L) (h0 : ∀ i j, gens R D kdb user ssid ci pre V i j ≠ 0)
    (hg : ∀ i j j', gens R D kdb user ssid ci pre V i j = gens R D kdb user ssid ci pre V i j' → j = j')
    (A : Attack.Attacker n G (G × Bytes)) (T : Nat) :
    share {w : (ι × (Fin n → Seed)) × (Inputs (Drawn L) → D.Out) | Wins R D explicit A T
        (fun D' i b => startStrong R D' (db w.1.1) kdb secret user (ssid i) (ci i) (pre i) (U i) b) w.1.2 w.2} ≤
      n * ((2 ^ 512 + ell) / 2 ^ 512 : ℚ) ^ n / Fintype.card ι + n * (1 / ell + 1 / 2 ^ 512) + T * (2 * T + 1) / 256 ^ 64 :=
  bound R hL h64 h0 hg (fun j D' i b => startStrong R D' (db j) kdb secret user (ssid i) (ci i) (pre i) (U i) b)
    (startStrong_eq V db secret ps q hq hdb hk hpre U hU) T

/-! ## The bound is attained up to the small terms -/

/-- An attacker that tries the generator `G₀ i` in session `i`: it sends it as its public key, so that the shared element is the public key of
the server; it asks for the first session key, then for the authenticator, and sends the latter. -/
def tryOut (R : Ristretto G) (explicit : Bool) (ssid : Fin n → Bytes) (G₀ : Fin n → G) : Attack.Attacker n G (G × Bytes) := fun Y h =>
  if hi : h.length / 3 < n then
    match h.length % 3, h.getLast? with
    | 0, _ => .ask (inp 2 (ssid ⟨h.length / 3, hi⟩ ++ R.compress (Y ⟨h.length / 3, hi⟩)))
    | 1, some (some k) => .ask (inp (tag explicit) (ssid ⟨h.length / 3, hi⟩ ++ k))
    | 2, some (some m) => .reply ⟨h.length / 3, hi⟩ (G₀ ⟨h.length / 3, hi⟩, m)
    | _, _ => .ask []
  else .ask []

/-- It is accepted if one of the generators it tries is the right one, whatever the random bytes and the hash function. -/
theorem tryOut_wins (h64 : D.outLen = 64) (explicit : Bool) {st : Digest → Fin n → Bytes → Option (Server.RecvClientKey × G)} {g G₀ : Fin n → G}
    {b : Fin n → Seed} {f : Inputs (Drawn L) → D.Out}
    (hst : ∀ i, st (drawn D (Drawn L) f) i (b i).1 = some (⟨ssid i, draw (b i).1⟩, draw (b i).1 • g i)) {i : Fin n} (hg : g i = G₀ i)
    (h0 : G₀ i ≠ 0) : Wins R D explicit (tryOut R explicit ssid G₀) (3 * n) st b f := by
  refine ⟨fun i' => ⟨ssid i', draw (b i').1⟩, fun i' => draw (b i').1 • g i', hst, ?_⟩
  set Y : Fin n → G := fun i' => draw (b i').1 • g i' with hY
  set D' := drawn D (Drawn L) f with hD'
  set W : Fin n → G × Bytes → Option Bytes := fun i' => answer R D' explicit ⟨ssid i', draw (b i').1⟩ with hW
  set A := tryOut R explicit ssid G₀ with hA
  have hi := i.2
  have h3 : ∀ (k : Nat) (h : List (Option Bytes)), h.length = 3 * i + k → k < 3 → ∃ e : h.length / 3 < n,
      (⟨h.length / 3, e⟩ : Fin n) = i ∧ h.length % 3 = k := by
    intro k h hl hk
    exact ⟨by omega, Fin.ext (by simp only; omega), by omega⟩
  have m0 : A Y (run D' A Y W (3 * i)).1 = .ask (inp 2 (ssid i ++ R.compress (Y i))) := by
    obtain ⟨e, e1, e2⟩ := h3 0 _ (length_run D' A Y W (3 * i)) (by norm_num)
    rw [hA, tryOut, dif_pos (by rw [← hA]; exact e)]
    simp only [← hA, e1, e2]
  have r1 : (run D' A Y W (3 * i + 1)).1 = (run D' A Y W (3 * i)).1 ++ [some (D'.hash (inp 2 (ssid i ++ R.compress (Y i))))] := by
    rw [run, step, m0]
  have m1 : A Y (run D' A Y W (3 * i + 1)).1 = .ask (inp (tag explicit) (ssid i ++ D'.hash (inp 2 (ssid i ++ R.compress (Y i))))) := by
    obtain ⟨e, e1, e2⟩ := h3 1 _ (length_run D' A Y W (3 * i + 1)) (by norm_num)
    have e3 := congrArg List.getLast? r1
    rw [List.getLast?_concat] at e3
    rw [hA, tryOut, dif_pos (by rw [← hA]; exact e)]
    simp only [← hA, e1, e2, e3]
  have r2 : (run D' A Y W (3 * i + 2)).1 = (run D' A Y W (3 * i + 1)).1 ++
      [some (D'.hash (inp (tag explicit) (ssid i ++ D'.hash (inp 2 (ssid i ++ R.compress (Y i))))))] := by rw [run, step, m1]
  have m2 : A Y (run D' A Y W (3 * i + 2)).1 =
      .reply i (G₀ i, D'.hash (inp (tag explicit) (ssid i ++ D'.hash (inp 2 (ssid i ++ R.compress (Y i)))))) := by
    obtain ⟨e, e1, e2⟩ := h3 2 _ (length_run D' A Y W (3 * i + 2)) (by norm_num)
    have e3 := congrArg List.getLast? r2
    rw [List.getLast?_concat] at e3
    rw [hA, tryOut, dif_pos (by rw [← hA]; exact e)]
    simp only [← hA, e1, e2, e3]
  refine ⟨3 * i + 2, by omega, i, _, m2, ?_, ?_⟩
  · rw [mem_used]
    rintro ⟨s, hs', m', hm⟩
    have hl := length_run D' A Y W s
    rw [hA, tryOut] at hm
    rw [← hA] at hm
    split at hm
    · split at hm
      · simp at hm
      · simp at hm
      · rename_i e2 _
        rw [Move.reply.injEq] at hm
        have := congrArg Fin.val hm.1
        simp only [hl] at this e2
        omega
      · simp at hm
    · simp at hm
  · exact (answer_ne_none R D' h64 explicit (ssid i) (draw (b i).1) _).2 ⟨h0, by simp only [hY, hg]⟩

/-- **C100 (AuCPace, attained).** There is an attacker that is accepted within `3 n` moves whenever one of `n` candidates is the right one,
whatever the random bytes and the hash function. -/
theorem C100_aucpace_attained (h64 : D.outLen = 64) (explicit : Bool) (V : ι → G) (db : ι → Database G) (secret : Nat)
    (salt ps : Bytes) (hdb : ∀ j, (db j).lookupVerifier user = some (V j, salt, ps))
    (hk : ∀ k, kdb = some k → ∃ x, k.lookupLongTermKeypair user = some (x, x • R.base)) (hpre : ∀ i, (pre i).length = preLen kdb)
    (c : Fin n → ι) (h0 : ∀ i, gens R D kdb user ssid ci pre V i (c i) ≠ 0) :
    ∃ A : Attack.Attacker n G (G × Bytes), ∀ i b, ∀ f : Inputs (Drawn L) → D.Out, Wins R D explicit A (3 * n)
      (fun D' i' b => start R D' (db (c i)) kdb secret user (ssid i') (ci i') (pre i') b) b f :=
  ⟨tryOut R explicit ssid fun i => gens R D kdb user ssid ci pre V i (c i), fun i b f => tryOut_wins h64 explicit
    (fun i' => start_eq V db secret salt ps hdb hk hpre (c i) f i' _ (b i').2) rfl (h0 i)⟩

end

/-- The hypotheses are met: the scalars as group, SHA-512, three candidates with the verifiers `1`, `2`, `3`, two sessions. -/
example : ∃ (V : Fin 3 → Scalar) (db : Fin 3 → Database Scalar) (user salt ps : Bytes) (ssid ci pre : Fin 2 → Bytes),
    sha512.outLen = 64 ∧ (∀ j, (db j).lookupVerifier user = some (V j, salt, ps)) ∧
    (∀ i, (pre i).length = preLen (none : Option (PartialAugDatabase Scalar))) ∧ (∀ i, (ssid i).length + 68 ≤ 132) ∧
    (∀ i j, gens Ristretto.toy sha512 none user ssid ci pre V i j ≠ 0) ∧
    (∀ i j j', gens Ristretto.toy sha512 none user ssid ci pre V i j = gens Ristretto.toy sha512 none user ssid ci pre V i j' → j = j') :=
  ⟨![1, 2, 3], fun j => ⟨fun _ => some (![1, 2, 3] j, [], [])⟩, World.user, [], [], ![World.bytes 0 64, World.bytes 1 64],
    fun _ => ascii "ci", ![World.bytes 3 64, World.bytes 4 64], rfl, fun _ => rfl, by decide +kernel, by decide +kernel,
    by decide +kernel, by decide +kernel⟩

end Verif.Aucpace.Unbounded
