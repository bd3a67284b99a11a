import Verif.Aucpace.PropsMisc
import Mathlib.Data.Set.Card

/-!
# C92 (AuCPace): the secret behind the answers for unknown users

`lookup_failed` and `lookup_failed_strong` derive the salt of a user without verifier from a 64-bit value that `AuCPaceServer::new`
draws once (aucpace/src/server.rs:34-40, 63-70, 438-515) and that is not stored. These theorems say what the value is worth: what a
restart of the server shows, how many different substitute tables there are, and what finding the value by search from one
answer gives.
-/

set_option linter.unusedSectionVars false

namespace Verif.Aucpace
open Spec Run

section
variable {G : Type} [AddCommGroup G] [Module Scalar G] [DecidableEq G] (R : Ristretto G) (D : Digest)
  {σs : Type} (rngS : Rng σs)

/-- The input hashed for the substitute salt, aucpace/src/server.rs:459-462 and 497-499. -/
def secretInput (secret : Nat) (user : Bytes) : Bytes := leFixed 8 secret ++ user

/-- Two strings whose hash values have the same first 48 bytes. -/
def TruncatedCollision (x y : Bytes) : Prop := x ≠ y ∧ (D.hash x).take 48 = (D.hash y).take 48

theorem secretInput_inj {a b : Nat} (ha : a < 2 ^ 64) (hb : b < 2 ^ 64) {u v : Bytes}
    (h : secretInput a u = secretInput b v) : a = b ∧ u = v := by
  obtain ⟨h1, h2⟩ := append_inj_of_length (by simp) h
  refine ⟨?_, h2⟩
  have := congrArg leToNat h1
  rw [leToNat_leFixed, leToNat_leFixed] at this
  norm_num at this
  omega

theorem fakeSalt_eq_iff {a b : Nat} {u v : Bytes} :
    fakeSalt D a u = fakeSalt D b v ↔
      (D.hash (secretInput a u)).take 48 = (D.hash (secretInput b v)).take 48 :=
  ⟨fun h => Base64.encode_injective h, fun h => congrArg Base64.encode h⟩

/-- The salt and the parameters that a plain or partially augmented answer carries. -/
def answered : ServerMessage G → Option (Bytes × Bytes)
  | .augmentationInfo _ _ salt ps => some (salt, ps)
  | _ => none

theorem answered_unknown (h64 : D.outLen = 64) (db : Database G) (kdb : Option (PartialAugDatabase G))
    (srv : Server.AugLayer) (user : Bytes) (s : σs) (hu : db.lookupVerifier user = none)
    {st : Server.CPaceSubstep σs} {m : ServerMessage G} (h : Run.serverInfo R D rngS db kdb srv user s = .ok (st, m)) :
    answered m = some (Base64.encode ((D.hash (secretInput srv.secret user)).take 48), []) := by
  cases kdb with
  | none =>
    obtain ⟨X, h'⟩ := (C44_answer R D rngS h64 srv user db ⟨fun _ => none⟩ s hu).1
    simp only [Run.serverInfo, h', Res.ok.injEq, Prod.mk.injEq] at h
    rw [← h.2]; rfl
  | some k =>
    obtain ⟨X, s', h'⟩ := (C44_answer R D rngS h64 srv user db k s hu).2
    simp only [Run.serverInfo, h', Res.ok.injEq, Prod.mk.injEq] at h
    rw [← h.2]; rfl

theorem answered_known (db : Database G) (kdb : Option (PartialAugDatabase G)) (srv : Server.AugLayer) (user : Bytes) (s : σs)
    {W : G} {salt ps : Bytes} (hv : db.lookupVerifier user = some (W, salt, ps))
    (hk : ∀ k, kdb = some k → k.lookupLongTermKeypair user ≠ none)
    {st : Server.CPaceSubstep σs} {m : ServerMessage G} (h : Run.serverInfo R D rngS db kdb srv user s = .ok (st, m)) :
    answered m = some (salt, ps) := by
  cases kdb with
  | none =>
    simp only [Run.serverInfo, Server.generateClientInfo, generateServerKeypair_eq, Server.generatePrs, hv, Res.bind_ok,
      Res.ok.injEq, Prod.mk.injEq] at h
    rw [← h.2]; rfl
  | some k =>
    have hk' := hk k rfl
    simp only [Run.serverInfo, Server.generateClientInfoPartialAug] at h
    split at h
    · simp only [Server.generatePrs, hv, Res.bind_ok, Res.ok.injEq, Prod.mk.injEq] at h
      rw [← h.2]; rfl
    · rename_i hn
      exact absurd hn hk'

/-- **C92 (restart).** The same user is asked for before and after a restart, that is at two servers over the same database with
different secrets, in any two sessions of the plain or partially augmented variant. The salt stays the same for a registered user;
for another it changes, or the two named strings are a collision of the truncated hash. So one restart tells who is registered,
even if the salts had the same length (compare C45). -/
theorem C92_restart (h64 : D.outLen = 64) (db : Database G) (kdb : Option (PartialAugDatabase G)) (user : Bytes)
    (hk : ∀ k, kdb = some k → db.lookupVerifier user ≠ none → k.lookupLongTermKeypair user ≠ none)
    (srv srv' : Server.AugLayer) (hs : srv.secret < 2 ^ 64) (hs' : srv'.secret < 2 ^ 64) (hne : srv.secret ≠ srv'.secret)
    (s s' : σs) {st st' : Server.CPaceSubstep σs} {m m' : ServerMessage G}
    (h : Run.serverInfo R D rngS db kdb srv user s = .ok (st, m))
    (h' : Run.serverInfo R D rngS db kdb srv' user s' = .ok (st', m')) :
    (db.lookupVerifier user ≠ none → answered m = answered m') ∧
    (db.lookupVerifier user = none → answered m ≠ answered m' ∨
      TruncatedCollision D (secretInput srv.secret user) (secretInput srv'.secret user)) := by
  constructor
  · intro hv
    obtain ⟨⟨W, salt, ps⟩, hv'⟩ := Option.ne_none_iff_exists'.1 hv
    rw [answered_known R D rngS db kdb srv user s hv' (fun k e => hk k e hv) h,
      answered_known R D rngS db kdb srv' user s' hv' (fun k e => hk k e hv) h']
  · intro hu
    rw [answered_unknown R D rngS h64 db kdb srv user s hu h, answered_unknown R D rngS h64 db kdb srv' user s' hu h']
    by_cases he : (D.hash (secretInput srv.secret user)).take 48 = (D.hash (secretInput srv'.secret user)).take 48
    · exact .inr ⟨fun e => hne (secretInput_inj hs hs' e).1, he⟩
    · refine .inl fun e => he ?_
      simp only [Option.some.injEq, Prod.mk.injEq, and_true] at e
      exact Base64.encode_injective e

/-- **C92 (how many tables).** Over all generators and all their states the servers made by `new` have at most 2^64 different tables
of substitute salts between them, however large the digest and the salt are. -/
theorem C92_tables :
    let tables := {T : Bytes → Bytes | ∃ (σ : Type) (rng : Rng σ) (s : σ),
      ∀ user, T user = Base64.encode ((D.hash (secretInput (Server.new rng s).secret user)).take 48)}
    tables.Finite ∧ tables.ncard ≤ 2 ^ 64 := by
  intro tables
  have hsub : tables ⊆ (fun (n : Nat) user => Base64.encode ((D.hash (secretInput n user)).take 48)) '' (Finset.range (2 ^ 64) : Set Nat) := by
    rintro T ⟨σ, rng, s, hT⟩
    exact ⟨(Server.new rng s).secret, Finset.mem_coe.2 (Finset.mem_range.2 (rng.nextU64_lt s)), funext fun u => (hT u).symm⟩
  have hfin : ((fun (n : Nat) user => Base64.encode ((D.hash (secretInput n user)).take 48)) ''
      (Finset.range (2 ^ 64) : Set Nat)).Finite := (Finset.finite_toSet _).image _
  refine ⟨hfin.subset hsub, (Set.ncard_le_ncard hsub hfin).trans ((Set.ncard_image_le (Finset.finite_toSet _)).trans ?_)⟩
  rw [Set.ncard_coe_finset, Finset.card_range]

/-- Every 64-bit value is the secret of some server: the bound counts no value that cannot occur. -/
theorem C92_every_secret (n : Nat) (h : n < 2 ^ 64) : ∃ s, (Server.new Rng.replay s).secret = n := by
  refine ⟨leFixed 8 n, ?_⟩
  have hl : (leFixed 8 n).length = 8 := leFixed_length 8 n
  have ht : (leFixed 8 n ++ List.replicate 8 0).take 8 = leFixed 8 n := List.take_left' hl
  simp only [Server.new, Rng.replay, ht]
  rw [leToNat_leFixed]
  norm_num
  omega

theorem find_range (B : Nat) (p : Nat → Bool) (k : Nat) (hk : k < B) (hp : p k = true) :
    ∃ n, (List.range B).find? p = some n ∧ n < B ∧ p n = true := by
  have hsome : ((List.range B).find? p).isSome := by
    rw [List.find?_isSome]
    exact ⟨k, List.mem_range.2 hk, hp⟩
  obtain ⟨n, hn⟩ := Option.isSome_iff_exists.1 hsome
  exact ⟨n, hn, List.mem_range.1 (List.mem_of_find?_eq_some hn), List.find?_some hn⟩

/-- The search: the first 64-bit value that gives the observed salt. -/
def searchSecret (user salt : Bytes) : Option Nat :=
  (List.range (2 ^ 64)).find? fun n => Base64.encode ((D.hash (secretInput n user)).take 48) == salt

/-- **C92 (search).** Someone who has one answer for a user that is not registered, and tries the 64-bit values in turn, finds a
value. It is the server's secret, or the two named strings are a collision of the truncated hash. -/
theorem C92_search (h64 : D.outLen = 64) (db : Database G) (kdb : Option (PartialAugDatabase G)) (user : Bytes)
    (hu : db.lookupVerifier user = none) (srv : Server.AugLayer) (hs : srv.secret < 2 ^ 64) (s : σs)
    {st : Server.CPaceSubstep σs} {m : ServerMessage G} (h : Run.serverInfo R D rngS db kdb srv user s = .ok (st, m)) :
    ∃ salt ps n, answered m = some (salt, ps) ∧ searchSecret D user salt = some n ∧ n < 2 ^ 64 ∧
      (n = srv.secret ∨ TruncatedCollision D (secretInput n user) (secretInput srv.secret user)) := by
  obtain ⟨n, hn, hlt, heq⟩ := find_range (2 ^ 64)
    (fun n => Base64.encode ((D.hash (secretInput n user)).take 48) ==
      Base64.encode ((D.hash (secretInput srv.secret user)).take 48)) srv.secret hs (by simp)
  simp only [beq_iff_eq] at heq
  refine ⟨_, _, n, answered_unknown R D rngS h64 db kdb srv user s hu h, hn, hlt, ?_⟩
  by_cases he : n = srv.secret
  · exact .inl he
  · exact .inr ⟨fun e => he (secretInput_inj hlt hs e).1, Base64.encode_injective heq⟩

/-- **C92 (what the value is for).** Who knows the secret tells for every user, from one answer in any session of the server, whether
they are registered: the answer has the salt computed from the secret and no parameters exactly if they are not, unless that very
string is the stored salt, and the parameters stored with it are empty. -/
theorem C92_tells (h64 : D.outLen = 64) (db : Database G) (kdb : Option (PartialAugDatabase G)) (user : Bytes)
    (hk : ∀ k, kdb = some k → db.lookupVerifier user ≠ none → k.lookupLongTermKeypair user ≠ none)
    (srv : Server.AugLayer) (s : σs)
    {st : Server.CPaceSubstep σs} {m : ServerMessage G} (h : Run.serverInfo R D rngS db kdb srv user s = .ok (st, m)) :
    answered m = some (Base64.encode ((D.hash (secretInput srv.secret user)).take 48), []) ↔
      (db.lookupVerifier user = none ∨
        ∃ W, db.lookupVerifier user = some (W, Base64.encode ((D.hash (secretInput srv.secret user)).take 48), [])) := by
  cases hv : db.lookupVerifier user with
  | none =>
    simp only [true_or, iff_true]
    exact answered_unknown R D rngS h64 db kdb srv user s hv h
  | some v =>
    obtain ⟨W, salt, ps⟩ := v
    rw [answered_known R D rngS db kdb srv user s hv (fun k e => hk k e (by simp [hv])) h]
    simp [eq_comm]

/-- **C92 (strong variant).** A value explains the answer that a strong server gave for a point that is not neutral exactly if its
hash for that user is the same modulo the group order as the server's; then it explains every other answer for that user too. -/
theorem C92_strong (db : StrongDatabase G) (kdb : Option (PartialAugDatabase G)) (user : Bytes)
    (hu : db.lookupVerifierStrong user = none) (srv : Server.AugLayer) (s : σs) (U : G) (hU : U ≠ 0) (n : Nat)
    {st : Server.CPaceSubstep σs} {m : ServerMessage G} (h : Run.serverInfoStrong R D rngS db kdb srv user U s = .ok (st, m)) :
    ∃ g X V ps, m = .strongAugmentationInfo g X V ps ∧
      (V = (leToNat (D.hash (secretInput n user)) : Scalar) • U ↔
        (leToNat (D.hash (secretInput n user)) : Scalar) = (leToNat (D.hash (secretInput srv.secret user)) : Scalar)) ∧
      (V = (leToNat (D.hash (secretInput n user)) : Scalar) • U →
        ∀ (U' : G) (s' : σs) (srv' : Server.AugLayer) (st' : Server.CPaceSubstep σs) (m' : ServerMessage G),
          srv'.secret = srv.secret → Run.serverInfoStrong R D rngS db kdb srv' user U' s' = .ok (st', m') →
          ∃ g' X', m' = .strongAugmentationInfo g' X' ((leToNat (D.hash (secretInput n user)) : Scalar) • U') []) := by
  obtain ⟨-, X, rfl⟩ := C44_answer_strong R D rngS srv user U db kdb s hu st m h
  have hiff : ((leToNat (D.hash (leFixed 8 srv.secret ++ user)) : Scalar) • U =
      (leToNat (D.hash (secretInput n user)) : Scalar) • U ↔
        (leToNat (D.hash (secretInput n user)) : Scalar) = (leToNat (D.hash (secretInput srv.secret user)) : Scalar)) := by
    rw [eq_comm (a := (leToNat (D.hash (secretInput n user)) : Scalar))]
    exact (smul_left_injective Scalar hU).eq_iff
  refine ⟨_, _, _, _, rfl, hiff, fun hV U' s' srv' st' m' hse h' => ?_⟩
  obtain ⟨-, X', rfl⟩ := C44_answer_strong R D rngS srv' user U' db kdb s' hu st' m' h'
  refine ⟨groupName, X', ?_⟩
  rw [hiff.1 hV, hse]
  rfl

/-- **C92 (overlap).** The string hashed for the substitute is also one that the protocol hashes under number `n`, for some
username, exactly if the secret's low 32 bits are `n`. The protocol's own inputs carry a number (C54), this one does not. -/
theorem C92_overlap (n : UInt8) (secret : Nat) (hs : secret < 2 ^ 64) :
    (∃ user x, secretInput secret user = inp n x) ↔ secret % 2 ^ 32 = n.toNat := by
  have hsplit : leFixed 8 secret = leFixed 4 (secret % 2 ^ 32) ++ leFixed 4 (secret / 2 ^ 32) := by
    apply leToNat_inj (by simp)
    rw [leToNat_append, leToNat_leFixed, leToNat_leFixed, leToNat_leFixed, leFixed_length]
    norm_num
    omega
  have hn4 : leFixed 4 n.toNat = [n, 0, 0, 0] := by
    apply leToNat_inj (by simp)
    rw [leToNat_leFixed]
    simp [leToNat]
  constructor
  · rintro ⟨user, x, h⟩
    rw [secretInput, hsplit, List.append_assoc, show inp n x = [n, 0, 0, 0] ++ x from rfl, ← hn4] at h
    have h1 := congrArg leToNat (append_inj_of_length (by simp) h).1
    rw [leToNat_leFixed, leToNat_leFixed] at h1
    have := n.toNat_lt
    norm_num at h1
    omega
  · intro h
    refine ⟨[], leFixed 4 (secret / 2 ^ 32), ?_⟩
    rw [secretInput, hsplit, h, hn4]
    simp [inp]

/-- **C92 (how many overlap).** Of the 2^64 secrets exactly `6 * 2^32` have the overlap with one of the six numbers in use. -/
theorem C92_overlap_count :
    {secret : Nat | secret < 2 ^ 64 ∧ ∃ n : UInt8, n < 6 ∧ ∃ user x, secretInput secret user = inp n x}.ncard = 6 * 2 ^ 32 := by
  have he : {secret : Nat | secret < 2 ^ 64 ∧ ∃ n : UInt8, n < 6 ∧ ∃ user x, secretInput secret user = inp n x} =
      (fun p : Nat × Nat => p.1 + 2 ^ 32 * p.2) '' ((Finset.range 6 ×ˢ Finset.range (2 ^ 32) : Finset (Nat × Nat)) : Set (Nat × Nat)) := by
    ext secret
    simp only [Set.mem_ofPred_eq, Set.mem_image, Finset.mem_coe, Finset.mem_product, Finset.mem_range, Prod.exists]
    constructor
    · rintro ⟨hs, n, hn, h⟩
      have h1 := (C92_overlap n secret hs).1 h
      have h2 : n.toNat < 6 := by simpa using (UInt8.lt_iff_toNat_lt.1 hn)
      exact ⟨secret % 2 ^ 32, secret / 2 ^ 32, ⟨by omega, by omega⟩, by omega⟩
    · rintro ⟨a, b, ⟨ha, hb⟩, rfl⟩
      have hs : a + 2 ^ 32 * b < 2 ^ 64 := by omega
      have hto : (UInt8.ofNat a).toNat = a := by rw [UInt8.toNat_ofNat']; omega
      refine ⟨hs, UInt8.ofNat a, ?_, (C92_overlap _ _ hs).2 ?_⟩
      · rw [UInt8.lt_iff_toNat_lt, hto]; exact ha
      · rw [hto]; omega
  rw [he, Set.InjOn.ncard_image, Set.ncard_coe_finset, Finset.card_product, Finset.card_range, Finset.card_range]
  rintro ⟨a, b⟩ h ⟨a', b'⟩ h' e
  simp only [Finset.mem_coe, Finset.mem_product, Finset.mem_range] at h h'
  simp only at e
  ext <;> simp only <;> omega

end

/-! ### Cases -/

/-- `C92_restart` and `C92_search` with SHA-512: an unknown and a known user before and after a restart. -/
example : World.db.lookupVerifier (ascii "bob") = none ∧ World.db.lookupVerifier World.user ≠ none ∧
    (Run.serverInfo Ristretto.toy sha512 Rng.replay World.db none ⟨1, []⟩ (ascii "bob") []).isOk = true ∧
    (Run.serverInfo Ristretto.toy sha512 Rng.replay World.db none ⟨2, []⟩ (ascii "bob") []).isOk = true ∧
    (sha512.hash (secretInput 1 (ascii "bob"))).take 48 ≠ (sha512.hash (secretInput 2 (ascii "bob"))).take 48 := by
  decide +kernel

/-- `C92_strong`: an answer for an unknown user. -/
example : (Run.serverInfoStrong Ristretto.toy sha512 Rng.replay ⟨fun _ => none⟩ none ⟨1, []⟩ (ascii "bob") (1 : Scalar) []).isOk = true := by
  decide +kernel

/-- `C92_overlap`: the secret `5 + 7 * 2^32`. -/
example : secretInput (5 + 7 * 2 ^ 32) (ascii "bob") = inp 5 ([7, 0, 0, 0] ++ ascii "bob") := by decide +kernel

end Verif.Aucpace
