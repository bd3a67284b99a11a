import Verif.Spake2.Spec

/-!
# Closed forms of the `spake2` functions
-/

namespace Verif.Spake2
open Ed25519 (Point)

/-! ## Transcript buffers -/

/-- Writing the next field of a zero-filled buffer. -/
theorem copyInto_next (pre src : Bytes) (i j n : Nat) (hi : i = pre.length) (hj : j = i + src.length)
    (hn : src.length ≤ n) :
    copyInto (pre ++ List.replicate n 0) i j src =
      some ((pre ++ src) ++ List.replicate (n - src.length) 0) := by
  unfold copyInto
  have hcond : i ≤ j ∧ j ≤ (pre ++ List.replicate n (0 : UInt8)).length ∧ src.length = j - i := by
    simp only [List.length_append, List.length_replicate]; omega
  rw [if_pos hcond]
  congr 1
  have h1 : (pre ++ List.replicate n (0 : UInt8)).take i = pre := by rw [hi, List.take_left']; rfl
  have h2 : (pre ++ List.replicate n (0 : UInt8)).drop j = List.replicate (n - src.length) 0 := by
    rw [hj, hi, List.drop_append, List.drop_of_length_le (by omega), List.nil_append,
      List.drop_replicate]
    congr 1; omega
  rw [h1, h2]

theorem copyInto_bad (dst src : Bytes) (i j : Nat) (h : src.length ≠ j - i) :
    copyInto dst i j src = none := by
  unfold copyInto
  rw [if_neg]
  rintro ⟨-, -, h'⟩; exact h h'

theorem hashAb_eq (pw idA idB X Y K : Bytes) :
    hashAb pw idA idB X Y K =
      if X.length = 32 ∧ Y.length = 32 ∧ K.length = 32 then
        .ok (sha256.hash (sha256.hash pw ++ sha256.hash idA ++ sha256.hash idB ++ X ++ Y ++ K))
      else .panic := by
  have hh : ∀ x, (sha256.hash x).length = 32 := sha256.hash_length
  unfold hashAb
  simp only [Res.assert, Digest.update, Digest.new, List.nil_append, Digest.finalize]
  by_cases hX : X.length = 32
  swap
  · simp [hX]
  by_cases hY : Y.length = 32
  swap
  · simp [hX, hY]
  rw [if_pos hX, if_pos hY, Res.bind_ok, Res.bind_ok,
    show (List.replicate (6 * 32) (0 : UInt8)) = [] ++ List.replicate 192 0 from rfl,
    copyInto_next [] _ 0 32 _ rfl (by rw [hh]) (by rw [hh]; omega)]
  simp only [Res.unwrap, Res.bind_ok]
  rw [copyInto_next _ _ _ _ _ (by simp [hh]) (by simp [hh]) (by simp [hh])]
  simp only [Res.bind_ok]
  rw [copyInto_next _ _ _ _ _ (by simp [hh]) (by simp [hh]) (by simp [hh])]
  simp only [Res.bind_ok]
  rw [copyInto_next _ _ _ _ _ (by simp [hh]) (by simp [hX]) (by simp [hh, hX])]
  simp only [Res.bind_ok]
  rw [copyInto_next _ _ _ _ _ (by simp [hh, hX]) (by simp [hY]) (by simp [hh, hX, hY])]
  simp only [Res.bind_ok]
  by_cases hK : K.length = 32
  · rw [copyInto_next _ _ _ _ _ (by simp [hh, hX, hY]) (by simp [hK]) (by simp [hh, hX, hY, hK]),
      if_pos ⟨hX, hY, hK⟩]
    simp [hh, hX, hY, hK]
  · rw [copyInto_bad _ _ _ _ (by omega), if_neg (by tauto)]
    simp

theorem hashSymmetric_eq (pw idS X Y K : Bytes) :
    hashSymmetric pw idS X Y K =
      if X.length = 32 ∧ Y.length = 32 ∧ K.length = 32 then
        .ok (sha256.hash (sha256.hash pw ++ sha256.hash idS ++
          (if ltBytes X Y then X ++ Y else Y ++ X) ++ K))
      else .panic := by
  have hh : ∀ x, (sha256.hash x).length = 32 := sha256.hash_length
  unfold hashSymmetric
  simp only [Res.assert, Digest.update, Digest.new, List.nil_append, Digest.finalize]
  by_cases hX : X.length = 32
  swap
  · simp [hX]
  by_cases hY : Y.length = 32
  swap
  · simp [hX, hY]
  obtain ⟨f, hf⟩ : ∃ f, f = if ltBytes X Y then X else Y := ⟨_, rfl⟩
  obtain ⟨g, hg⟩ : ∃ g, g = if ltBytes X Y then Y else X := ⟨_, rfl⟩
  have hfg : (if ltBytes X Y then X ++ Y else Y ++ X) = f ++ g := by rw [hf, hg]; split <;> rfl
  have hfl : f.length = 32 := by rw [hf]; split <;> assumption
  have hgl : g.length = 32 := by rw [hg]; split <;> assumption
  rw [← hf, ← hg, hfg]
  rw [if_pos hX, if_pos hY, Res.bind_ok, Res.bind_ok,
    show (List.replicate (5 * 32) (0 : UInt8)) = [] ++ List.replicate 160 0 from rfl,
    copyInto_next [] _ 0 32 _ rfl (by rw [hh]) (by rw [hh]; omega)]
  simp only [Res.unwrap, Res.bind_ok]
  rw [copyInto_next _ _ _ _ _ (by simp [hh]) (by simp [hh]) (by simp [hh])]
  simp only [Res.bind_ok]
  rw [copyInto_next _ _ _ _ _ (by simp [hh]) (by simp [hfl]) (by simp [hh, hfl])]
  simp only [Res.bind_ok]
  rw [copyInto_next _ _ _ _ _ (by simp [hh, hfl]) (by simp [hgl]) (by simp [hh, hfl, hgl])]
  simp only [Res.bind_ok]
  by_cases hK : K.length = 32
  · rw [copyInto_next _ _ _ _ _ (by simp [hh, hfl, hgl]) (by simp [hK]) (by simp [hh, hfl, hgl, hK]),
      if_pos ⟨hX, hY, hK⟩]
    simp [hh, hfl, hgl, hK]
  · rw [copyInto_bad _ _ _ _ (by omega), if_neg (by tauto)]
    simp

/-! ## Lexicographic order -/

/-- On strings of equal length, lexicographic order is the order of big-endian values. -/
theorem ltBytes_iff (X Y : Bytes) (h : X.length = Y.length) :
    ltBytes X Y = true ↔ beToNat X < beToNat Y := by
  induction X generalizing Y with
  | nil =>
    cases Y with
    | nil => simp [ltBytes]
    | cons y ys => simp at h
  | cons x xs ih =>
    cases Y with
    | nil => simp at h
    | cons y ys =>
      have hl : xs.length = ys.length := by simpa using h
      have h1 := beToNat_lt xs
      have h2 := beToNat_lt ys
      rw [← hl] at h2
      rw [ltBytes, beToNat_cons, beToNat_cons, ← hl]
      obtain ⟨c, hc⟩ : ∃ c, c = 256 ^ xs.length := ⟨_, rfl⟩
      rw [← hc] at h1 h2 ⊢
      by_cases hxy : x < y
      · have : x.toNat + 1 ≤ y.toNat := UInt8.lt_iff_toNat_lt.1 hxy
        have := Nat.mul_le_mul_right c this
        rw [Nat.add_mul] at this
        simp only [if_pos hxy, true_iff]
        omega
      · by_cases hyx : y < x
        · have : y.toNat + 1 ≤ x.toNat := UInt8.lt_iff_toNat_lt.1 hyx
          have := Nat.mul_le_mul_right c this
          rw [Nat.add_mul] at this
          simp only [if_neg hxy, if_pos hyx, Bool.false_eq_true, false_iff]
          omega
        · have : x = y := by
            have a := Nat.le_of_not_lt fun h => hxy (UInt8.lt_iff_toNat_lt.2 h)
            have b := Nat.le_of_not_lt fun h => hyx (UInt8.lt_iff_toNat_lt.2 h)
            exact UInt8.toNat_inj.1 (Nat.le_antisymm b a)
          subst this
          simp only [if_neg hxy, ih ys hl]
          omega

theorem sorted_eq (X Y : Bytes) (h : X.length = Y.length) :
    (if ltBytes X Y then X ++ Y else Y ++ X) = Spec.sorted X Y := by
  unfold Spec.sorted
  by_cases hlt : ltBytes X Y = true
  · rw [if_pos hlt, if_pos ((ltBytes_iff X Y h).1 hlt).le]
  · rw [if_neg hlt]
    have hn : ¬ beToNat X < beToNat Y := fun h' => hlt ((ltBytes_iff X Y h).2 h')
    split
    · have : X = Y := beToNat_inj h (by omega)
      rw [this]
    · rfl

theorem sorted_comm (X Y : Bytes) (h : X.length = Y.length) : Spec.sorted X Y = Spec.sorted Y X := by
  unfold Spec.sorted
  by_cases h1 : beToNat X ≤ beToNat Y <;> by_cases h2 : beToNat Y ≤ beToNat X
  · have : X = Y := beToNat_inj h (by omega)
    rw [this]
  · rw [if_pos h1, if_neg h2]
  · rw [if_neg h1, if_pos h2]
  · omega

@[simp] theorem sorted_length (X Y : Bytes) : (Spec.sorted X Y).length = X.length + Y.length := by
  unfold Spec.sorted
  split <;> simp [Nat.add_comm]

/-- Sorting loses the order only. -/
theorem sorted_inj {X Y X' Y' : Bytes} (hX : X.length = 32) (hY : Y.length = 32) (hX' : X'.length = 32)
    (hY' : Y'.length = 32) (h : Spec.sorted X Y = Spec.sorted X' Y') :
    (X = X' ∧ Y = Y') ∨ (X = Y' ∧ Y = X') := by
  unfold Spec.sorted at h
  split at h <;> split at h <;>
    obtain ⟨h1, h2⟩ := append_inj_of_length (by omega) h <;> subst h1 <;> subst h2 <;> tauto

/-! ## The password scalar -/

theorem reverseInto_eq (xs : Bytes) (i : Nat) (done : Bytes) (hd : done.length = i)
    (hl : i + xs.length = 48) :
    reverseInto i xs (List.replicate (48 - i) 0 ++ done ++ List.replicate 16 0) =
      .ok (xs.reverse ++ done ++ List.replicate 16 0) := by
  induction xs generalizing i done with
  | nil =>
    have : i = 48 := by simpa using hl
    subst this
    simp [reverseInto]
  | cons x xs ih =>
    have hi : i < 48 := by simp at hl; omega
    rw [reverseInto, if_pos (by simp; omega)]
    have : (List.replicate (48 - i) (0 : UInt8) ++ done ++ List.replicate 16 0).set (32 + 16 - 1 - i) x =
        List.replicate (48 - (i + 1)) 0 ++ (x :: done) ++ List.replicate 16 0 := by
      rw [show 48 - i = (48 - (i + 1)) + 1 by omega, List.replicate_succ', List.append_assoc,
        List.append_assoc, List.set_append_right _ _ (by simp)]
      simp only [List.length_replicate]
      rw [show 32 + 16 - 1 - i - (48 - (i + 1)) = 0 by omega]
      simp
    rw [this, ih (i + 1) (x :: done) (by simp [hd]) (by simp at hl; omega)]
    simp

theorem hkdf_eq (pw : Bytes) :
    hkdfExpand sha256 64 (hkdfExtract sha256 64 [] pw) (ascii "SPAKE2 pw") (32 + 16) =
      some (Spec.hkdf48 pw) := by
  unfold hkdfExpand hkdfExtract
  have ho : sha256.outLen = 32 := rfl
  rw [if_neg (by rw [ho]; omega), ho]
  have hh : ∀ k m, (hmac sha256 64 k m).length = 32 := fun k m => hmac_length _ _ _ _
  simp only [hkdfBlocks, Spec.hkdf48]
  rw [List.append_nil, List.take_append, List.take_of_length_le (by rw [hh]; omega), hh]
  rfl

theorem hkdf48_length (pw : Bytes) : (Spec.hkdf48 pw).length = 48 := by
  have hh : ∀ k m, (hmac sha256 64 k m).length = 32 := fun k m => hmac_length _ _ _ _
  simp [Spec.hkdf48, hh]

theorem hashToScalar_eq (pw : Bytes) :
    ed25519HashToScalar pw = .ok ((beToNat (Spec.hkdf48 pw) : ℕ) : Scalar) := by
  unfold ed25519HashToScalar
  dsimp only
  rw [hkdf_eq]
  simp only [Res.unwrap, Res.bind_ok]
  have h := reverseInto_eq (Spec.hkdf48 pw) 0 [] rfl (by rw [hkdf48_length])
  rw [show List.replicate (48 - 0) (0 : UInt8) ++ [] ++ List.replicate 16 0 = List.replicate 64 0 from rfl] at h
  rw [List.take_of_length_le (by rw [hkdf48_length]), h]
  simp only [Res.bind_ok, Res.pure_eq, List.append_nil]
  rw [leToNat_append, leToNat_replicate_zero, Nat.mul_zero, Nat.add_zero, ← beToNat_eq_leToNat]

/-- The scalar of a password. -/
def pwScalar (pw : Bytes) : Scalar := ((beToNat (Spec.hkdf48 pw) : ℕ) : Scalar)

theorem pwScalar_val (pw : Bytes) : (pwScalar pw).val = Spec.pwNum pw := by
  rw [pwScalar, ZMod.val_natCast, Spec.pwNum]

/-! ## The constants -/

theorem decompress_M : Ed25519.decompress bytesM = some Spec.ptM :=
  Ed25519.decompress_ofNats _ _ _ _ (by decide +kernel) (by decide +kernel) (by decide +kernel)

theorem decompress_N : Ed25519.decompress bytesN = some Spec.ptN :=
  Ed25519.decompress_ofNats _ _ _ _ (by decide +kernel) (by decide +kernel) (by decide +kernel)

theorem decompress_S : Ed25519.decompress bytesS = some Spec.ptS :=
  Ed25519.decompress_ofNats _ _ _ _ (by decide +kernel) (by decide +kernel) (by decide +kernel)

theorem ell_M : ell • Spec.ptM = 0 :=
  Ed25519.smul_eq_of (Ed25519.rep_ofNats _ _ _) Ed25519.rep_zero (by decide +kernel)

theorem ell_N : ell • Spec.ptN = 0 :=
  Ed25519.smul_eq_of (Ed25519.rep_ofNats _ _ _) Ed25519.rep_zero (by decide +kernel)

theorem ell_S : ell • Spec.ptS = 0 :=
  Ed25519.smul_eq_of (Ed25519.rep_ofNats _ _ _) Ed25519.rep_zero (by decide +kernel)

theorem ell_mine (side : Side) : ell • Spec.mine side = 0 := by
  cases side
  · exact ell_M
  · exact ell_N
  · exact ell_S

theorem ell_peers (side : Side) : ell • Spec.peers side = 0 := by
  cases side
  · exact ell_N
  · exact ell_M
  · exact ell_S

theorem constM_eq : ed25519.constM = .ok Spec.ptM := by
  have h1 : ed25519.constM = Res.unwrap (Ed25519.decompress bytesM) := by rw [ed25519]
  have h2 : Res.unwrap (ε := Error) (Ed25519.decompress bytesM) = .ok Spec.ptM := by
    rw [decompress_M]; simp only [Res.unwrap]
  exact h1.trans h2

theorem constN_eq : ed25519.constN = .ok Spec.ptN := by
  have h1 : ed25519.constN = Res.unwrap (Ed25519.decompress bytesN) := by rw [ed25519]
  have h2 : Res.unwrap (ε := Error) (Ed25519.decompress bytesN) = .ok Spec.ptN := by
    rw [decompress_N]; simp only [Res.unwrap]
  exact h1.trans h2

theorem constS_eq : ed25519.constS = .ok Spec.ptS := by
  have h1 : ed25519.constS = Res.unwrap (Ed25519.decompress bytesS) := by rw [ed25519]
  have h2 : Res.unwrap (ε := Error) (Ed25519.decompress bytesS) = .ok Spec.ptS := by
    rw [decompress_S]; simp only [Res.unwrap]
  exact h1.trans h2

theorem blinding_eq (side : Side) : blinding ed25519 side = .ok (Spec.mine side) := by
  cases side
  · rw [blinding, Spec.mine]; exact constM_eq
  · rw [blinding, Spec.mine]; exact constN_eq
  · rw [blinding, Spec.mine]; exact constS_eq

theorem unblinding_eq (side : Side) : unblinding ed25519 side = .ok (Spec.peers side) := by
  cases side
  · rw [unblinding, Spec.peers]; exact constN_eq
  · rw [unblinding, Spec.peers]; exact constM_eq
  · rw [unblinding, Spec.peers]; exact constS_eq

/-! ## Scalars acting on points of order dividing `ell` -/

section Smul
variable {A : Type} [AddCommGroup A] {P : A} (h : ell • P = 0)
include h

theorem smul_mod (n : Nat) : (n % ell) • P = n • P := by
  conv_rhs => rw [← Nat.div_add_mod n ell, add_nsmul, mul_comm, mul_nsmul', h, nsmul_zero, zero_add]

theorem val_add_smul (s t : Scalar) : (s + t).val • P = s.val • P + t.val • P := by
  rw [ZMod.val_add, smul_mod h, add_nsmul]

theorem val_mul_smul (s t : Scalar) : (s * t).val • P = s.val • t.val • P := by
  rw [ZMod.val_mul, smul_mod h, mul_nsmul']

theorem val_neg_smul (s : Scalar) : (-s).val • P = -(s.val • P) := by
  rw [eq_neg_iff_add_eq_zero, ← val_add_smul h, neg_add_cancel, ZMod.val_zero, zero_nsmul]

end Smul

/-! ## Closed forms of `start_internal` and `finish` -/

/-- The state after `start_internal`. -/
def started (side : Side) (pw : Bytes) (x : Scalar) : State Scalar where
  side := side
  xyScalar := x
  passwordVec := pw
  msg1 := Ed25519.compress (Spec.sent side pw x.val)
  passwordScalar := pwScalar pw

theorem sideByte_eq (side : Side) : sideByte side = Spec.letter side := by cases side <;> rfl

theorem start_eq (side : Side) (pw : Bytes) (x : Scalar) :
    startInternal ed25519 side pw x =
      .ok (started side pw x, Spec.letter side :: Ed25519.compress (Spec.sent side pw x.val)) := by
  unfold startInternal
  rw [show ed25519.hashToScalar pw = ed25519HashToScalar pw from rfl, hashToScalar_eq, Res.bind_ok,
    blinding_eq, Res.bind_ok, sideByte_eq, ← pwScalar]
  have : ed25519.add (ed25519.basepointMult x) (ed25519.scalarmult (Spec.mine side) (pwScalar pw)) =
      Spec.sent side pw x.val := by
    show x.val • Ed25519.base + (pwScalar pw).val • Spec.mine side = _
    rw [pwScalar_val, Spec.sent]
  rw [this]
  rfl

theorem deriveKey_eq (side : Side) (pw own body : Bytes) (K : Point) (ho : own.length = 32)
    (hb : body.length = 32) :
    deriveKey side pw own body (Ed25519.compress K) =
      .ok (sha256.hash (Spec.transcript side pw own body K)) := by
  have hK : (Ed25519.compress K).length = 32 := Ed25519.compress_length K
  cases side with
  | A idA idB => rw [deriveKey, hashAb_eq, if_pos ⟨ho, hb, hK⟩, Spec.transcript, Spec.transcriptAB]
  | B idA idB => rw [deriveKey, hashAb_eq, if_pos ⟨hb, ho, hK⟩, Spec.transcript, Spec.transcriptAB]
  | symmetric idS =>
    rw [deriveKey, hashSymmetric_eq, if_pos ⟨ho, hb, hK⟩, sorted_eq _ _ (by omega), Spec.transcript,
      Spec.transcriptSym]

theorem checkSide_eq (side : Side) (c : UInt8) :
    checkSide side c = if c = Spec.accepts side then .ok () else .err .badSide := by
  cases side <;> rfl

theorem finish_cons (side : Side) (pw : Bytes) (x : Scalar) (c : UInt8) (body : Bytes)
    (hl : body.length = 32) :
    finish ed25519 (started side pw x) (c :: body) =
      if c = Spec.accepts side then
        match Ed25519.decompress body with
        | none => .err .corruptMessage
        | some P => .ok (sha256.hash (Spec.transcript side pw
            (Ed25519.compress (Spec.sent side pw x.val)) body (Spec.shared side pw x.val P)))
      else .err .badSide := by
  unfold finish
  have hlen : ¬ (c :: body).length ≠ 1 + ed25519.elementLength := by
    rw [List.length_cons, hl]
    exact fun h => h rfl
  rw [if_neg hlen]
  have hslice : slice (c :: body) 1 (c :: body).length = some body := by
    unfold slice
    rw [if_pos (by simp)]
    simp
  simp only [List.getElem?_cons_zero, Res.unwrap, Res.bind_ok, hslice]
  rw [show (started side pw x).side = side from rfl, checkSide_eq]
  by_cases hc : c = Spec.accepts side
  · rw [if_pos hc, if_pos hc, Res.bind_ok]
    have hbe : ed25519.bytesToElement body = Ed25519.decompress body := by
      show ed25519BytesToElement body = _
      unfold ed25519BytesToElement
      rw [if_neg (not_not.2 hl)]
    rw [hbe]
    cases hd : Ed25519.decompress body with
    | none => rfl
    | some P =>
      simp only [Res.okOr, Res.bind_ok]
      rw [unblinding_eq, Res.bind_ok]
      have hK : ed25519.scalarmult (ed25519.add P (ed25519.scalarmult (Spec.peers side)
          (ed25519.scalarNeg (started side pw x).passwordScalar))) (started side pw x).xyScalar =
          Spec.shared side pw x.val P := by
        show x.val • (P + (-(pwScalar pw)).val • Spec.peers side) = _
        rw [val_neg_smul (ell_peers side), pwScalar_val, ← sub_eq_add_neg, Spec.shared]
      rw [hK]
      exact deriveKey_eq side pw _ body _ (Ed25519.compress_length _) hl
  · rw [if_neg hc, if_neg hc, Res.bind_err]

theorem finish_length (s : State Scalar) (m : Bytes) (h : m.length ≠ 33) :
    finish ed25519 s m = .err .wrongLength := by
  unfold finish
  rw [if_pos]
  exact h

end Verif.Spake2
