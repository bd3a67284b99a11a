import Verif.Aucpace.Uniform
import Verif.Basic.Tape

/-!
# C61: fresh randomness in AuCPace

The server reads its generator strictly from front to back: whatever sequence of sessions is begun and key pairs are
made, no byte is used twice. Repeated nonces or key pairs are therefore as rare as for independent draws, which is
stated by counting generator outputs.
-/

set_option linter.unusedSectionVars false

namespace Verif.Aucpace
open Spec Run

namespace Fresh

/-- Calls on an `AuCPaceServer` that use its generator: `begin` (aucpace/src/server.rs:79-88) and
`generate_long_term_keypair` (lines 127-129). -/
inductive Op where
  | begin
  | keypair
  deriving DecidableEq

/-- Bytes a call reads. -/
def Op.size (k1 : Nat) : Op → Nat
  | .begin => k1
  | .keypair => 64

/-- What the calls give out: the message of `begin` or the key pair. -/
inductive Out (G : Type) where
  | message (m : ServerMessage G)
  | pair (x : Scalar) (X : G)

/-- Bytes read by a sequence of calls. -/
def total (k1 : Nat) (ops : List Op) : Nat := (ops.map (Op.size k1)).sum

section
variable {G : Type} [AddCommGroup G] [Module Scalar G] [DecidableEq G] (R : Ristretto G) (D : Digest)

/-- A sequence of calls on one server. -/
def serve {σ : Type} (rng : Rng σ) (k1 : Nat) : List Op → Server.State σ → List (Out G) × Server.State σ
  | [], sv => ([], sv)
  | .begin :: ops, sv =>
    let r := Server.begin (G := G) rng k1 sv
    let t := serve rng k1 ops r.2
    (.message r.1.2 :: t.1, t.2)
  | .keypair :: ops, sv =>
    let r := Server.generateLongTermKeypair R rng sv
    let t := serve rng k1 ops r.2
    (.pair r.1.1 r.1.2 :: t.1, t.2)

/-- The output of a call that reads the bytes `b`. -/
def value (b : Bytes) : Op → Out G
  | .begin => .message (.nonce b)
  | .keypair => .pair (draw b) (draw b • R.base)

theorem replay_take {T : Bytes} {n : Nat} (h : n ≤ T.length) : (Rng.replay.fill T n).1 = T.take n := by
  show (T ++ List.replicate n 0).take n = T.take n
  exact List.take_append_of_le_length h

theorem begin_replay {k1 : Nat} {T : Bytes} (h : k1 ≤ T.length) (secret : Nat) :
    Server.begin (G := G) Rng.replay k1 ⟨T, secret⟩ =
      ((⟨secret, T.take k1⟩, .nonce (T.take k1)), ⟨T.drop k1, secret⟩) := by
  rw [← replay_take h]
  rfl

theorem serverKeypair_replay {T : Bytes} (h : 64 ≤ T.length) :
    generateServerKeypair R Rng.replay T = ((draw (T.take 64), draw (T.take 64) • R.base), T.drop 64) := by
  rw [← replay_take h, generateServerKeypair_eq]
  rfl

theorem longTerm_replay {T : Bytes} (h : 64 ≤ T.length) (secret : Nat) :
    Server.generateLongTermKeypair R Rng.replay ⟨T, secret⟩ =
      ((draw (T.take 64), draw (T.take 64) • R.base), ⟨T.drop 64, secret⟩) := by
  rw [Server.generateLongTermKeypair, serverKeypair_replay R h]

end
end Fresh

open Fresh

section
variable {G : Type} [AddCommGroup G] [Module Scalar G] [DecidableEq G] (R : Ristretto G) (D : Digest)

/-- **C61 (consecutive reads).** Whatever calls are made on a server, the `i`-th reads exactly the bytes following those
read by the calls before it, all calls keep the server secret, and the generator is left behind the last byte read. -/
theorem C61_consecutive (k1 : Nat) (ops : List Op) (T : Bytes) (secret : Nat) (h : total k1 ops ≤ T.length) :
    (serve R Rng.replay k1 ops ⟨T, secret⟩).2 = ⟨T.drop (total k1 ops), secret⟩ ∧
    (serve R Rng.replay k1 ops ⟨T, secret⟩).1.length = ops.length ∧
    ∀ i op, ops[i]? = some op → (serve R Rng.replay k1 ops ⟨T, secret⟩).1[i]? =
      some (value R ((T.drop (total k1 (ops.take i))).take (op.size k1)) op) := by
  induction ops generalizing T with
  | nil => exact ⟨rfl, rfl, fun i op hi => by simp at hi⟩
  | cons o ops ih =>
    have hs : total k1 (o :: ops) = o.size k1 + total k1 ops := by simp [total]
    have hlen : o.size k1 ≤ T.length := by omega
    obtain ⟨i1, i2, i3⟩ := ih (T.drop (o.size k1)) (by rw [List.length_drop]; omega)
    have hstep : serve R Rng.replay k1 (o :: ops) ⟨T, secret⟩ =
        (value R (T.take (o.size k1)) o :: (serve R Rng.replay k1 ops ⟨T.drop (o.size k1), secret⟩).1,
          (serve R Rng.replay k1 ops ⟨T.drop (o.size k1), secret⟩).2) := by
      cases o with
      | begin => rw [serve, begin_replay (k1 := k1) hlen]; rfl
      | keypair => rw [serve, longTerm_replay R hlen]; rfl
    rw [hstep]
    refine ⟨?_, ?_, ?_⟩
    · rw [i1, hs, List.drop_drop]
    · simp only [List.length_cons, i2]
    · intro i op hi
      cases i with
      | zero =>
        simp only [List.getElem?_cons_zero, Option.some.injEq] at hi
        subst hi
        simp [total]
      | succ i =>
        rw [List.getElem?_cons_succ] at hi ⊢
        rw [i3 i op hi, List.take_succ_cons]
        have : total k1 (o :: ops.take i) = o.size k1 + total k1 (ops.take i) := by simp [total]
        rw [this, List.drop_drop]

/-- Positions of two calls, the earlier one before the later one and both inside the bytes read. -/
theorem offsets {k1 i j : Nat} {ops : List Op} {o o' : Op} (hij : i < j) (hi : ops[i]? = some o)
    (hj : ops[j]? = some o') : total k1 (ops.take i) + o.size k1 ≤ total k1 (ops.take j) ∧
      total k1 (ops.take j) + o'.size k1 ≤ total k1 ops := by
  have succ : ∀ n p, ops[n]? = some p → total k1 (ops.take (n + 1)) = total k1 (ops.take n) + p.size k1 := by
    intro n p hn
    rw [List.take_add_one, hn]
    simp [total]
  have mono : ∀ n m, n ≤ m → total k1 (ops.take n) ≤ total k1 (ops.take m) := by
    intro n m hnm
    have : ops.take m = ops.take n ++ (ops.drop n).take (m - n) := by
      rw [← List.take_add, show n + (m - n) = m by omega]
    rw [this]
    simp [total]
  have full : total k1 (ops.take (j + 1)) ≤ total k1 ops := by
    have : ops = ops.take (j + 1) ++ ops.drop (j + 1) := (List.take_append_drop _ _).symm
    have h : total k1 ops = total k1 (ops.take (j + 1)) + total k1 (ops.drop (j + 1)) := by
      conv_lhs => rw [this]
      simp only [total, List.map_append, List.sum_append]
    omega
  rw [← succ i o hi, ← succ j o' hj]
  exact ⟨mono _ _ (by omega), full⟩

theorem earlier_segment {T : Bytes} {o k o' : Nat} (h : o + k ≤ o') :
    ((T.take o').drop o).take k = (T.drop o).take k := by
  rw [List.drop_take, List.take_take, min_eq_left (by omega)]

/-- **C61 (nonces).** Whatever calls are made, the nonces of two different sessions of a server agree for exactly one in
`256^k1` of the generator outputs (`k1 = 16` bytes in the aliases of the crate). -/
theorem C61_nonces (k1 : Nat) (ops : List Op) (secret i j : Nat) (hij : i < j) (hi : ops[i]? = some .begin)
    (hj : ops[j]? = some .begin) :
    {T : Bytes | T.length = total k1 ops ∧ (serve R Rng.replay k1 ops ⟨T, secret⟩).1[i]? =
      (serve R Rng.replay k1 ops ⟨T, secret⟩).1[j]?}.ncard * 256 ^ k1 = 256 ^ total k1 ops := by
  obtain ⟨h1, h2⟩ := offsets (k1 := k1) hij hi hj
  have hcount := ncard_segment (L := total k1 ops) h2
    (fun a b => (a.drop (total k1 (ops.take i))).take k1 = b) (c := 1) (fun a ha => by
      rw [Set.ncard_eq_one]
      refine ⟨(a.drop (total k1 (ops.take i))).take k1, ?_⟩
      ext b
      simp only [Set.mem_ofPred_eq, Set.mem_singleton_iff]
      refine ⟨fun h => h.2.symm, fun h => ⟨?_, h.symm⟩⟩
      rw [h, List.length_take, List.length_drop, ha]
      have : Op.begin.size k1 = k1 := rfl
      omega)
  have he : {T : Bytes | T.length = total k1 ops ∧ (serve R Rng.replay k1 ops ⟨T, secret⟩).1[i]? =
      (serve R Rng.replay k1 ops ⟨T, secret⟩).1[j]?} =
      {T : Bytes | T.length = total k1 ops ∧ ((T.take (total k1 (ops.take j))).drop (total k1 (ops.take i))).take k1 =
        (T.drop (total k1 (ops.take j))).take k1} := by
    ext T
    simp only [Set.mem_ofPred_eq]
    refine and_congr_right fun hT => ?_
    obtain ⟨-, -, h⟩ := C61_consecutive R k1 ops T secret hT.ge
    rw [h i _ hi, h j _ hj, earlier_segment (k := k1) h1]
    simp only [value, Op.size, Option.some.injEq, Out.message.injEq, ServerMessage.nonce.injEq]
  rw [he]
  have : Op.begin.size k1 = k1 := rfl
  rw [this] at hcount h2
  rw [hcount, one_mul, ← pow_add]
  congr 1
  omega

/-- **C61 (key pairs).** Two long-term key pairs made by a server agree for at most `⌊2^512/ell⌋ + 1` in `2^512` of the
generator outputs, that is with probability close to `1/ell`. -/
theorem C61_keypairs (k1 : Nat) (ops : List Op) (secret i j : Nat) (hij : i < j) (hi : ops[i]? = some .keypair)
    (hj : ops[j]? = some .keypair) :
    {T : Bytes | T.length = total k1 ops ∧ (serve R Rng.replay k1 ops ⟨T, secret⟩).1[i]? =
      (serve R Rng.replay k1 ops ⟨T, secret⟩).1[j]?}.ncard * 2 ^ 512 ≤ (2 ^ 512 / ell + 1) * 256 ^ total k1 ops := by
  obtain ⟨h1, h2⟩ := offsets (k1 := k1) hij hi hj
  have hp : (256 : ℕ) ^ 64 = 2 ^ 512 := by decide +kernel
  have hcount := ncard_segment_le (L := total k1 ops) h2
    (fun a b => draw b = draw ((a.drop (total k1 (ops.take i))).take 64)) (c := 2 ^ 512 / ell + 1) (fun a _ => by
      have := ncard_residue 64 ell (draw ((a.drop (total k1 (ops.take i))).take 64))
      rw [hp] at this
      refine this.le.trans (Nat.add_le_add_left ?_ _)
      split <;> omega)
  have hsub : {T : Bytes | T.length = total k1 ops ∧ (serve R Rng.replay k1 ops ⟨T, secret⟩).1[i]? =
      (serve R Rng.replay k1 ops ⟨T, secret⟩).1[j]?} ⊆
      {T : Bytes | T.length = total k1 ops ∧ draw ((T.drop (total k1 (ops.take j))).take (Op.keypair.size k1)) =
        draw (((T.take (total k1 (ops.take j))).drop (total k1 (ops.take i))).take 64)} := by
    rintro T ⟨hT, hs⟩
    obtain ⟨-, -, h⟩ := C61_consecutive R k1 ops T secret hT.ge
    rw [h i _ hi, h j _ hj] at hs
    simp only [value, Op.size, Option.some.injEq, Out.pair.injEq] at hs
    refine ⟨hT, ?_⟩
    rw [earlier_segment (k := 64) h1]
    exact hs.1.symm
  have hle := (Set.ncard_le_ncard hsub ((finite_bytes _).subset fun T hT => hT.1)).trans hcount
  have hsz : Op.keypair.size k1 = 64 := rfl
  rw [hsz] at hle h2
  refine (Nat.mul_le_mul_right _ hle).trans (le_of_eq ?_)
  rw [mul_assoc, ← hp, ← pow_add]
  congr 2
  omega

/-- **C61 (server secret).** The secret that hides unknown users takes every 64-bit value for exactly one value of the
first eight generator bytes. -/
theorem C61_secret (v : Nat) (hv : v < 2 ^ 64) :
    {b : Bytes | b.length = 8 ∧ (Server.new Rng.replay b).secret = v}.ncard = 1 ∧
    ∀ b c : Bytes, b.length = 8 → Server.new Rng.replay (b ++ c) = ⟨c, (Server.new Rng.replay b).secret⟩ := by
  have hnew : ∀ b : Bytes, b.length = 8 → (Server.new Rng.replay b).secret = leToNat b := by
    intro b hb
    show leToNat ((b ++ List.replicate 8 0).take 8) = leToNat b
    rw [← hb, List.take_left]
  refine ⟨?_, ?_⟩
  · rw [Set.ncard_eq_one]
    refine ⟨leFixed 8 v, ?_⟩
    ext b
    simp only [Set.mem_ofPred_eq, Set.mem_singleton_iff]
    constructor
    · rintro ⟨hl, hs⟩
      rw [hnew b hl] at hs
      rw [← hs, ← hl, leFixed_leToNat]
    · rintro rfl
      refine ⟨leFixed_length _ _, ?_⟩
      rw [hnew _ (leFixed_length _ _), leToNat_leFixed, Nat.mod_eq_of_lt (lt_of_lt_of_eq hv (by norm_num))]
  · intro b c hb
    rw [hnew b hb]
    show (⟨(b ++ c).drop 8, leToNat ((b ++ c ++ List.replicate 8 0).take 8)⟩ : Server.State Bytes) = _
    rw [List.append_assoc, ← hb, List.take_left, List.drop_left]

theorem replay_append {a b : Bytes} {n : Nat} (h : a.length = n) : Rng.replay.fill (a ++ b) n = (a, b) := by
  show ((a ++ b ++ List.replicate n 0).take n, (a ++ b).drop n) = (a, b)
  rw [← h, List.append_assoc, List.take_left, List.drop_left]

theorem replay_exact {b : Bytes} {n : Nat} (h : b.length = n) : Rng.replay.fill b n = (b, []) := by
  have := replay_append (a := b) (b := []) h
  rwa [List.append_nil] at this

theorem serverKeypair_append {a b : Bytes} (h : a.length = 64) :
    generateServerKeypair R Rng.replay (a ++ b) = ((draw a, draw a • R.base), b) := by
  rw [generateServerKeypair_eq, replay_append h]

theorem serverKey_exact (ssid prs ci : Bytes) {b : Bytes} (h : b.length = 64) :
    Server.generatePublicKey R D Rng.replay ⟨ssid, prs, b⟩ ci =
      (⟨ssid, draw b⟩, .publicKey (draw b • gen R D ssid prs ci)) := by
  rw [Server.generatePublicKey, generateKeypair_eq, replay_exact h]

theorem lookupFailedStrong_append (self : Server.AugLayer) (user : Bytes) (X : G) {U : G} {p b : Bytes} (hp : p.length = 32)
    {q : Scalar} (hq : q = leToNat (D.hash (leFixed 8 self.secret ++ user))) (h0 : q • U ≠ 0) :
    Server.lookupFailedStrong D Rng.replay self user U X (p ++ b) =
      .ok ((p, .strongAugmentationInfo groupName X (q • U) []), b) := by
  have e : scalarFromHasher D (Digest.update (Digest.update Digest.new (leFixed 8 self.secret)) user) = q := hq.symm
  simp only [Server.lookupFailedStrong, replay_append hp, e, mul_one, if_neg h0]

theorem lookupFailed_append {ε : Type} (hD : D.outLen = 64) (self : Server.AugLayer) (user : Bytes) (X : G)
    {p b : Bytes} (hp : p.length = 32) :
    ∃ salt, Server.lookupFailed (ε := ε) D Rng.replay self user X (p ++ b) =
      .ok ((p, .augmentationInfo groupName X salt []), b) := by
  simp only [Server.lookupFailed, replay_append hp]
  obtain ⟨first, h1, hl⟩ : ∃ first, slice (D.finalize (Digest.update (Digest.update Digest.new
      (leFixed 8 self.secret)) user)) 0 48 = some first ∧ first.length = 48 := by
    refine ⟨(D.hash (leFixed 8 self.secret ++ user)).take 48, ?_, ?_⟩
    · show slice (D.hash (leFixed 8 self.secret ++ user)) 0 48 = _
      rw [slice, if_pos ⟨by omega, by rw [D.hash_length, hD]; omega⟩]
      rfl
    · rw [List.length_take, D.hash_length, hD]; rfl
  rw [h1]
  obtain ⟨salt, hs⟩ : ∃ salt, Base64.saltEncode first = some salt := ⟨_, saltEncode_le hl.le⟩
  rw [Res.unwrap, Res.bind_ok, hs]
  exact ⟨salt, rfl⟩

/-- **C61 (basic session).** In the basic protocol the server makes the augmentation key from the first 64 generator
bytes of the session and its CPace key from 64 bytes that it has not used otherwise: the next ones for a registered
user, and those behind the 32 bytes that replace the password-related string for an unknown one. -/
theorem C61_session (hD : D.outLen = 64) (self : Server.AugLayer) (user ci : Bytes) (db : Database G)
    (a p b : Bytes) (ha : a.length = 64) (hp : p.length = 32) (hb : b.length = 64) :
    (∀ W salt sg, db.lookupVerifier user = some (W, salt, sg) →
      ∃ st, Server.generateClientInfo (ε := Error) R D Rng.replay self user db (a ++ b) =
          .ok (st, .augmentationInfo groupName (draw a • R.base) salt sg) ∧
        Server.generatePublicKey R D Rng.replay st ci = (⟨self.ssid, draw b⟩,
          .publicKey (draw b • gen R D self.ssid (R.compress (draw a • W)) ci))) ∧
    (db.lookupVerifier user = none →
      ∃ st salt, Server.generateClientInfo (ε := Error) R D Rng.replay self user db (a ++ (p ++ b)) =
          .ok (st, .augmentationInfo groupName (draw a • R.base) salt []) ∧
        Server.generatePublicKey R D Rng.replay st ci = (⟨self.ssid, draw b⟩,
          .publicKey (draw b • gen R D self.ssid p ci))) := by
  refine ⟨fun W salt sg h => ?_, fun h => ?_⟩
  · refine ⟨⟨self.ssid, R.compress (draw a • W), b⟩, ?_, serverKey_exact R D _ _ _ hb⟩
    simp only [Server.generateClientInfo, serverKeypair_append R ha, Server.generatePrs, h, Res.bind_ok, one_smul]
  · obtain ⟨salt, hs⟩ := lookupFailed_append (ε := Error) D hD self user (draw a • R.base) hp (b := b)
    refine ⟨⟨self.ssid, p, b⟩, salt, ?_, serverKey_exact R D _ _ _ hb⟩
    simp only [Server.generateClientInfo, serverKeypair_append R ha, Server.generatePrs, h, hs, Res.bind_ok]

/-- **C61 (basic session with a stored key pair).** With partial augmentation the first bytes make the CPace key of a
known user. An unknown one is answered with a random point, a random password-related string and a CPace key, each from
its own bytes; one with a key pair but no verifier with the stored point, and the other two from their own bytes. -/
theorem C61_session_partial_aug (hD : D.outLen = 64) (self : Server.AugLayer) (user ci : Bytes) (db : Database G)
    (kdb : PartialAugDatabase G) (a p b : Bytes) (ha : a.length = 64) (hp : p.length = 32) (hb : b.length = 64) :
    (∀ W salt sg x X, db.lookupVerifier user = some (W, salt, sg) → kdb.lookupLongTermKeypair user = some (x, X) →
      ∃ st, Server.generateClientInfoPartialAug (ε := Error) R D Rng.replay self user db kdb b =
          .ok (st, .augmentationInfo groupName X salt sg) ∧
        Server.generatePublicKey R D Rng.replay st ci = (⟨self.ssid, draw b⟩,
          .publicKey (draw b • gen R D self.ssid (R.compress (x • W)) ci))) ∧
    (kdb.lookupLongTermKeypair user = none →
      ∃ st salt, Server.generateClientInfoPartialAug (ε := Error) R D Rng.replay self user db kdb (a ++ (p ++ b)) =
          .ok (st, .augmentationInfo groupName (R.fromUniform a) salt []) ∧
        Server.generatePublicKey R D Rng.replay st ci = (⟨self.ssid, draw b⟩,
          .publicKey (draw b • gen R D self.ssid p ci))) ∧
    (∀ x X, kdb.lookupLongTermKeypair user = some (x, X) → db.lookupVerifier user = none →
      ∃ st salt, Server.generateClientInfoPartialAug (ε := Error) R D Rng.replay self user db kdb (p ++ b) =
          .ok (st, .augmentationInfo groupName X salt []) ∧
        Server.generatePublicKey R D Rng.replay st ci = (⟨self.ssid, draw b⟩,
          .publicKey (draw b • gen R D self.ssid p ci))) := by
  refine ⟨fun W salt sg x X h hk => ?_, fun hk => ?_, fun x X hk h => ?_⟩
  · refine ⟨⟨self.ssid, R.compress (x • W), b⟩, ?_, serverKey_exact R D _ _ _ hb⟩
    simp only [Server.generateClientInfoPartialAug, hk, Server.generatePrs, h, Res.bind_ok, one_smul]
  · obtain ⟨salt, hs⟩ := lookupFailed_append (ε := Error) D hD self user (R.fromUniform a) hp (b := b)
    refine ⟨⟨self.ssid, p, b⟩, salt, ?_, serverKey_exact R D _ _ _ hb⟩
    simp only [Server.generateClientInfoPartialAug, hk, randomPoint, replay_append ha, hs, Res.bind_ok]
  · obtain ⟨salt, hs⟩ := lookupFailed_append (ε := Error) D hD self user X hp (b := b)
    refine ⟨⟨self.ssid, p, b⟩, salt, ?_, serverKey_exact R D _ _ _ hb⟩
    simp only [Server.generateClientInfoPartialAug, hk, Server.generatePrs, h, hs, Res.bind_ok]

/-- **C61 (strong session).** The same in the strong protocol, whenever the blinded salt is not neutral. For an unknown
user the salt is derived from the server's secret and the name, with no generator bytes. -/
theorem C61_session_strong (self : Server.AugLayer) (user ci : Bytes) (U : G) (db : StrongDatabase G)
    (a p b : Bytes) (ha : a.length = 64) (hp : p.length = 32) (hb : b.length = 64) :
    (∀ W q sg, db.lookupVerifierStrong user = some (W, q, sg) → q • U ≠ 0 →
      ∃ st, Server.generateClientInfoStrong R D Rng.replay self user U db (a ++ b) =
          .ok (st, .strongAugmentationInfo groupName (draw a • R.base) (q • U) sg) ∧
        Server.generatePublicKey R D Rng.replay st ci = (⟨self.ssid, draw b⟩,
          .publicKey (draw b • gen R D self.ssid (R.compress (draw a • W)) ci))) ∧
    (∀ q : Scalar, q = leToNat (D.hash (leFixed 8 self.secret ++ user)) →
      db.lookupVerifierStrong user = none → q • U ≠ 0 →
      ∃ st, Server.generateClientInfoStrong R D Rng.replay self user U db (a ++ (p ++ b)) =
          .ok (st, .strongAugmentationInfo groupName (draw a • R.base) (q • U) []) ∧
        Server.generatePublicKey R D Rng.replay st ci = (⟨self.ssid, draw b⟩,
          .publicKey (draw b • gen R D self.ssid p ci))) := by
  refine ⟨fun W q sg h h0 => ?_, fun q hq h h0 => ?_⟩
  · refine ⟨⟨self.ssid, R.compress (draw a • W), b⟩, ?_, serverKey_exact R D _ _ _ hb⟩
    simp only [Server.generateClientInfoStrong, serverKeypair_append R ha, Server.generatePrsStrong, h, mul_one,
      if_neg h0, Res.bind_ok]
  · refine ⟨⟨self.ssid, p, b⟩, ?_, serverKey_exact R D _ _ _ hb⟩
    simp only [Server.generateClientInfoStrong, serverKeypair_append R ha, Server.generatePrsStrong, h,
      lookupFailedStrong_append D self user (draw a • R.base) hp hq h0, Res.bind_ok]

/-- **C61 (strong session with a stored key pair).** -/
theorem C61_session_partial_strong (self : Server.AugLayer) (user ci : Bytes) (U : G) (db : StrongDatabase G)
    (kdb : PartialAugDatabase G) (a p b : Bytes) (ha : a.length = 64) (hp : p.length = 32) (hb : b.length = 64) :
    (∀ W q sg x X, db.lookupVerifierStrong user = some (W, q, sg) → kdb.lookupLongTermKeypair user = some (x, X) →
      q • U ≠ 0 →
      ∃ st, Server.generateClientInfoPartialStrong R D Rng.replay self user U db kdb b =
          .ok (st, .strongAugmentationInfo groupName X (q • U) sg) ∧
        Server.generatePublicKey R D Rng.replay st ci = (⟨self.ssid, draw b⟩,
          .publicKey (draw b • gen R D self.ssid (R.compress (x • W)) ci))) ∧
    (∀ q : Scalar, q = leToNat (D.hash (leFixed 8 self.secret ++ user)) → q • U ≠ 0 →
      (kdb.lookupLongTermKeypair user = none →
        ∃ st, Server.generateClientInfoPartialStrong R D Rng.replay self user U db kdb (a ++ (p ++ b)) =
            .ok (st, .strongAugmentationInfo groupName (R.fromUniform a) (q • U) []) ∧
          Server.generatePublicKey R D Rng.replay st ci = (⟨self.ssid, draw b⟩,
            .publicKey (draw b • gen R D self.ssid p ci))) ∧
      ∀ x X, kdb.lookupLongTermKeypair user = some (x, X) → db.lookupVerifierStrong user = none →
        ∃ st, Server.generateClientInfoPartialStrong R D Rng.replay self user U db kdb (p ++ b) =
            .ok (st, .strongAugmentationInfo groupName X (q • U) []) ∧
          Server.generatePublicKey R D Rng.replay st ci = (⟨self.ssid, draw b⟩,
            .publicKey (draw b • gen R D self.ssid p ci))) := by
  refine ⟨fun W q sg x X h hk h0 => ?_, fun q hq h0 => ⟨fun hk => ?_, fun x X hk h => ?_⟩⟩
  · refine ⟨⟨self.ssid, R.compress (x • W), b⟩, ?_, serverKey_exact R D _ _ _ hb⟩
    simp only [Server.generateClientInfoPartialStrong, hk, Server.generatePrsStrong, h, mul_one, if_neg h0, Res.bind_ok]
  · refine ⟨⟨self.ssid, p, b⟩, ?_, serverKey_exact R D _ _ _ hb⟩
    simp only [Server.generateClientInfoPartialStrong, hk, randomPoint, replay_append ha,
      lookupFailedStrong_append D self user (R.fromUniform a) hp hq h0, Res.bind_ok]
  · refine ⟨⟨self.ssid, p, b⟩, ?_, serverKey_exact R D _ _ _ hb⟩
    simp only [Server.generateClientInfoPartialStrong, hk, Server.generatePrsStrong, h,
      lookupFailedStrong_append D self user X hp hq h0, Res.bind_ok]

/-- **C61 (client).** The client's nonce and its CPace key come from consecutive generator bytes, and in the strong
protocol the blinding value from bytes between them. -/
theorem C61_client (k1 : Nat) (st : Client.CPaceSubstep) (self : Client.PreAug) (user pass ci n u y : Bytes)
    (hn : n.length = k1) (hu : u.length = 64) (hy : y.length = 64) (h0 : draw u ≠ 0) :
    Client.begin (G := G) Rng.replay k1 (n ++ (u ++ y)) = ((⟨n⟩, .nonce n), u ++ y) ∧
    Client.startAugmentationStrong R D Rng.replay 1 self user pass (u ++ y) =
      some ((⟨self.ssid, user, pass, draw u⟩, .strongUsername user (draw u • strongPoint R D user pass)), y) ∧
    Client.generatePublicKey R D Rng.replay st ci y =
      ((⟨st.ssid, draw y⟩, .publicKey (draw y • gen R D st.ssid st.prs ci)), []) := by
  refine ⟨?_, ?_, ?_⟩
  · simp only [Client.begin, generateNonce, replay_append hn]
  · have hd : scalarOfBytes u = draw u := rfl
    simp only [Client.startAugmentationStrong, Client.drawBlinding, randomScalar, replay_append hu, hd, ne_eq, h0,
      not_false_eq_true, if_true, Option.bind_eq_bind, Option.bind_some, Client.startAugmentationStrongWith,
      strongPoint_eq, mul_one]
  · rw [Client.generatePublicKey, generateKeypair_eq, replay_exact hy]

end

/-- Two sessions and a long-term key pair of one server. -/
example : (serve Ristretto.toy Rng.replay 16 [.begin, .keypair, .begin] ⟨World.bytes 1 16 ++ World.bytes 2 64 ++
      World.bytes 3 20, 9⟩).2.rng = World.bytes 3 4 ∧
    [Op.begin, .keypair, .begin][0]? = some .begin ∧ [Op.begin, .keypair, .begin][2]? = some .begin := by
  decide +kernel

/-- A registered user, an unknown one, and blinded salts that are not neutral. -/
example : (World.db.lookupVerifier World.user).isSome ∧ World.db.lookupVerifier [] = none ∧
    (World.dbStrong.lookupVerifierStrong World.user).isSome ∧ World.dbStrong.lookupVerifierStrong [] = none ∧
    (World.kdb.lookupLongTermKeypair World.user).isSome ∧ World.kdb.lookupLongTermKeypair [] = none ∧
    draw (World.bytes 2 64) ≠ 0 ∧
    (leToNat (sha512.hash (leFixed 8 9 ++ ascii "bob")) : Scalar) • (5 : Scalar) ≠ 0 := by
  decide +kernel

end Verif.Aucpace
