import Verif.Srp.Model
import Verif.Srp.Spec
import Mathlib.Data.ZMod.Basic
import Mathlib.Tactic.Ring

/-!
# Helper lemmas: the `srp` model in closed form
-/

namespace Verif.Srp

variable {ε : Type} (D : Digest)

theorem modpow_eq_val (b e n : Nat) (hn : 0 < n) :
    (modpow b e n : Res ε Nat) = .ok ((b : ZMod n) ^ e).val := by
  have : NeZero n := ⟨hn.ne'⟩
  have h : ((b : ZMod n) ^ e).val = b ^ e % n := by
    rw [← Nat.cast_pow, ZMod.val_natCast]
  simp [modpow, hn.ne', powMod_eq _ _ _ hn, h]

theorem rem_eq_val (a n : Nat) (hn : 0 < n) : (rem a n : Res ε Nat) = .ok (a : ZMod n).val := by
  have : NeZero n := ⟨hn.ne'⟩
  simp [rem, hn.ne', ZMod.val_natCast]

theorem computeK_eq (p : SrpGroup) (h : (toBytesBE p.g).length ≤ (toBytesBE p.n).length) :
    (computeK D p : Res ε Nat) = .ok (Spec.k D p.n p.g) := by
  have h' : ¬ (toBytesBE p.n).length < (toBytesBE p.g).length := by omega
  have e1 : (toBytesBE p.n).length - ((toBytesBE p.n).length - (toBytesBE p.g).length)
      = (toBytesBE p.g).length := by omega
  simp only [computeK, if_neg h', copyInto, List.length_replicate, e1]
  rw [if_pos ⟨by omega, le_refl _, trivial⟩]
  simp only [Digest.update, Digest.new, Digest.finalize, List.nil_append, Spec.k, Spec.Hint,
    Spec.PAD, List.take_replicate, List.drop_replicate]
  have e2 : (toBytesBE p.n).length - (toBytesBE p.n).length = 0 := by omega
  rw [e2, min_eq_left (by omega)]
  simp

theorem computeK_panic (p : SrpGroup) (h : (toBytesBE p.n).length < (toBytesBE p.g).length) :
    (computeK D p : Res ε Nat) = .panic := by
  simp only [computeK, if_pos h]

theorem computeU_eq (A B : Nat) : computeU D (toBytesBE A) (toBytesBE B) = Spec.u D A B := by
  simp [computeU, Spec.u, Spec.Hint, Digest.update, Digest.new, Digest.finalize]

theorem computeM1_eq (A B K : Bytes) : computeM1 D A B K = Spec.M1 D A B K := by
  simp [computeM1, Spec.M1, Digest.update, Digest.new, Digest.finalize]

theorem computeM2_eq (A B K : Bytes) : computeM2 D A B K = Spec.M2 D A B K := by
  simp [computeM2, Spec.M2, Digest.update, Digest.new, Digest.finalize]

theorem ascii_colon : ascii ":" = [58] := by decide

theorem computeX_eq (I P s : Bytes) :
    Client.computeX D (Client.computeIdentityHash D I P) s = Spec.x D I P s := by
  simp [Client.computeX, Client.computeIdentityHash, Spec.x, Spec.Hint, Digest.update, Digest.new,
    Digest.finalize, ascii_colon]

theorem client_premaster_eq (p : SrpGroup) (hn : 0 < p.n) (B x a u : Nat) :
    (Client.computePremasterSecret p B (Spec.k D p.n p.g) x a u : Res ε Nat)
      = .ok (Spec.clientS D p.n p.g (B : ZMod p.n) x a u).val := by
  have : NeZero p.n := ⟨hn.ne'⟩
  have hlt := ZMod.val_lt ((Spec.k D p.n p.g * ((p.g : ZMod p.n) ^ x).val : ℕ) : ZMod p.n)
  have hnlt : ¬ p.n + B < ((Spec.k D p.n p.g * ((p.g : ZMod p.n) ^ x).val : ℕ) : ZMod p.n).val := by
    omega
  simp only [Client.computePremasterSecret, modpow_eq_val _ _ _ hn, rem_eq_val _ _ hn,
    Res.bind_ok, sub, if_neg hnlt]
  congr 2
  rw [ZMod.natCast_val, ZMod.cast_id, Nat.cast_sub (by omega)]
  push_cast
  rw [ZMod.natCast_val, ZMod.cast_id, ZMod.natCast_val, ZMod.cast_id, ZMod.natCast_self, zero_add,
    Spec.clientS, add_comm a]

theorem server_premaster_eq (p : SrpGroup) (hn : 0 < p.n) (A v u b : Nat) :
    (Server.computePremasterSecret p A v u b : Res ε Nat)
      = .ok (Spec.serverS (A : ZMod p.n) (v : ZMod p.n) u b).val := by
  have : NeZero p.n := ⟨hn.ne'⟩
  simp only [Server.computePremasterSecret, modpow_eq_val _ _ _ hn, rem_eq_val _ _ hn,
    Res.bind_ok]
  congr 2
  rw [ZMod.natCast_val, ZMod.cast_id]
  push_cast
  rw [ZMod.natCast_val, ZMod.cast_id, Spec.serverS]

theorem server_bPub_eq (p : SrpGroup) (hn : 0 < p.n) (v b : Nat) :
    (Server.computeBPub p b (Spec.k D p.n p.g) v : Res ε Nat)
      = .ok (Spec.B D p.n p.g (v : ZMod p.n) b).val := by
  have : NeZero p.n := ⟨hn.ne'⟩
  simp only [Server.computeBPub, modpow_eq_val _ _ _ hn, rem_eq_val _ _ hn, Res.bind_ok]
  congr 2
  push_cast
  rw [ZMod.natCast_val, ZMod.cast_id, ZMod.natCast_val, ZMod.cast_id, Spec.B]

theorem client_ephemeral_eq (p : SrpGroup) (hn : 0 < p.n) (a : Bytes) :
    (Client.computePublicEphemeral p a : Res ε Bytes)
      = .ok (Spec.enc (Spec.A p.n p.g (beToNat a))) := by
  simp [Client.computePublicEphemeral, Client.computeAPub, modpow_eq_val _ _ _ hn, Spec.enc, Spec.A]

theorem client_verifier_eq (p : SrpGroup) (hn : 0 < p.n) (I P s : Bytes) :
    (Client.computeVerifier D p I P s : Res ε Bytes) = .ok (Spec.enc (Spec.v D p.n p.g I P s)) := by
  simp [Client.computeVerifier, Client.computeV, modpow_eq_val _ _ _ hn, Spec.enc, Spec.v,
    computeX_eq]

theorem server_ephemeral_eq (p : SrpGroup) (hs : Spec.Sane p.n p.g) (b v : Bytes) :
    (Server.computePublicEphemeral D p b v : Res ε Bytes)
      = .ok (Spec.enc (Spec.B D p.n p.g (beToNat v : ZMod p.n) (beToNat b))) := by
  simp [Server.computePublicEphemeral, computeK_eq D p hs.2, server_bPub_eq D p hs.1, Spec.enc]

/-- The client's result in closed form. -/
def clientResult (N g : Nat) (a : Nat) (I P s : Bytes) (B : Nat) : SrpClientVerifier :=
  let A := Spec.A N g a
  let x := Spec.x D I P s
  let S := Spec.clientS D N g (B : ZMod N) x a (Spec.u D A.val B)
  let m1 := Spec.M1 D (Spec.enc A) (toBytesBE B) (Spec.enc S)
  { m1 := m1, m2 := Spec.M2 D (Spec.enc A) m1 (Spec.enc S), key := Spec.enc S }

/-- The server's result in closed form. -/
def serverResult (N g : Nat) (b v A : Nat) : SrpServerVerifier :=
  let B := Spec.B D N g (v : ZMod N) b
  let S := Spec.serverS (A : ZMod N) (v : ZMod N) (Spec.u D A B.val) b
  let m1 := Spec.M1 D (toBytesBE A) (Spec.enc B) (Spec.enc S)
  { m1 := m1, m2 := Spec.M2 D (toBytesBE A) m1 (Spec.enc S), key := Spec.enc S }

theorem client_process_eq (p : SrpGroup) (hs : Spec.Sane p.n p.g) (a I P s B : Bytes) :
    Client.processReply D p a I P s B =
      if beToNat B % p.n = 0 then .err (.illegalParameter "b_pub")
      else .ok (clientResult D p.n p.g (beToNat a) I P s (beToNat B)) := by
  have hn := hs.1
  simp only [Client.processReply, Client.computeAPub, modpow_eq_val _ _ _ hn, Res.bind_ok]
  have hr : (rem (beToNat B) p.n : Res SrpAuthError Nat) = .ok (beToNat B % p.n) := by
    simp [rem, hn.ne']
  rw [hr, Res.bind_ok]
  split
  · rfl
  · simp only [computeK_eq D p hs.2, Res.bind_ok, computeX_eq, client_premaster_eq D p hn,
      computeU_eq, computeM1_eq, computeM2_eq, Res.pure_eq, clientResult, Spec.enc, Spec.A]

theorem server_process_eq (p : SrpGroup) (hs : Spec.Sane p.n p.g) (b v A : Bytes) :
    Server.processReply D p b v A =
      if beToNat A % p.n = 0 then .err (.illegalParameter "a_pub")
      else .ok (serverResult D p.n p.g (beToNat b) (beToNat v) (beToNat A)) := by
  have hn := hs.1
  simp only [Server.processReply, computeK_eq D p hs.2, Res.bind_ok, server_bPub_eq D p hn]
  have hr : (rem (beToNat A) p.n : Res SrpAuthError Nat) = .ok (beToNat A % p.n) := by
    simp [rem, hn.ne']
  rw [hr, Res.bind_ok]
  split
  · rfl
  · simp only [Res.bind_ok, server_premaster_eq p hn,
      computeU_eq, computeM1_eq, computeM2_eq, Res.pure_eq, serverResult, Spec.enc]

theorem client_process_ok (p : SrpGroup) (hs : Spec.Sane p.n p.g) (a I P s B : Bytes)
    (h : beToNat B % p.n ≠ 0) :
    Client.processReply D p a I P s B
      = .ok (clientResult D p.n p.g (beToNat a) I P s (beToNat B)) := by
  rw [client_process_eq D p hs, if_neg h]

theorem server_process_ok (p : SrpGroup) (hs : Spec.Sane p.n p.g) (b v A : Bytes)
    (h : beToNat A % p.n ≠ 0) :
    Server.processReply D p b v A
      = .ok (serverResult D p.n p.g (beToNat b) (beToNat v) (beToNat A)) := by
  rw [server_process_eq D p hs, if_neg h]

/-- The SRP identity: both sides compute the same secret. -/
theorem premaster_identity (N g x a b u : Nat) :
    Spec.clientS D N g (Spec.B D N g ((g : ZMod N) ^ x) b) x a u
      = Spec.serverS (Spec.A N g a) ((g : ZMod N) ^ x) u b := by
  simp only [Spec.clientS, Spec.serverS, Spec.B, Spec.A]
  rw [add_sub_cancel_left]
  ring

theorem enc_cast {N : Nat} [NeZero N] (z : ZMod N) : ((beToNat (Spec.enc z) : ℕ) : ZMod N) = z := by
  simp [Spec.enc, ZMod.natCast_val, ZMod.cast_id]

theorem enc_injective {N : Nat} [NeZero N] : Function.Injective (Spec.enc (N := N)) := by
  intro a b h
  rw [← enc_cast a, h, enc_cast]

theorem unit_pow_val_mod_ne {N g : Nat} (hN : 1 < N) (hc : Nat.Coprime g N) (a : Nat) :
    ((g : ZMod N) ^ a).val % N ≠ 0 := by
  have : NeZero N := ⟨by omega⟩
  have : Fact (1 < N) := ⟨hN⟩
  rw [Nat.mod_eq_of_lt (ZMod.val_lt _)]
  intro h
  have h0 : ((g : ZMod N) ^ a) = 0 := (ZMod.val_eq_zero _).1 h
  have hu : IsUnit ((g : ZMod N) ^ a) := ((ZMod.isUnit_iff_coprime g N).2 hc).pow a
  rw [h0] at hu
  exact not_isUnit_zero hu

theorem PAD_length {len : Nat} {x : Bytes} (h : x.length ≤ len) : (Spec.PAD len x).length = len := by
  simp [Spec.PAD]; omega

theorem split_at_colon {I P I' P' : Bytes} (h1 : (58 : UInt8) ∉ I) (h2 : (58 : UInt8) ∉ I')
    (h : I ++ [58] ++ P = I' ++ [58] ++ P') : I = I' ∧ P = P' := by
  induction I generalizing I' with
  | nil =>
    cases I' with
    | nil => simpa using h
    | cons x xs =>
      simp only [List.nil_append, List.cons_append, List.cons.injEq] at h
      exact absurd (h.1 ▸ List.mem_cons_self) h2
  | cons y ys ih =>
    cases I' with
    | nil =>
      simp only [List.nil_append, List.cons_append, List.cons.injEq] at h
      exact absurd (h.1 ▸ List.mem_cons_self) h1
    | cons x xs =>
      simp only [List.cons_append, List.cons.injEq] at h
      obtain ⟨rfl, h⟩ := h
      obtain ⟨rfl, rfl⟩ := ih (fun h => h1 (List.mem_cons_of_mem _ h))
        (fun h => h2 (List.mem_cons_of_mem _ h)) h
      exact ⟨rfl, rfl⟩

end Verif.Srp
