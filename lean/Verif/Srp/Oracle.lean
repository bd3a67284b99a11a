import Verif.Basic.Oracle
import Verif.Forward

/-!
# C91 (SRP): the proofs of a recorded session in the random oracle model

An attacker has recorded the public values and the proofs of a session and later learns the password and the verifier. The key
of this library is the premaster secret itself (C14), so it is not like a random string; what can be said is that the proofs are,
for who does not ask for an input that ends with the secret. The inputs of the hash function are not separated by a label, so the
session's proofs must not be hashes of strings that the session hashes for another purpose (`ownInputs`).
-/

set_option linter.unusedSectionVars false

namespace Verif.Srp

variable (D : Digest) {p : SrpGroup}

/-- The inputs of the hash function in a session other than those of the proofs: for `k`, `u`, and twice for `x`. -/
def ownInputs (p : SrpGroup) (I P salt A B : Bytes) : List Bytes :=
  [toBytesBE p.n ++ Spec.PAD (toBytesBE p.n).length (toBytesBE p.g), A ++ B, I ++ [58] ++ P, salt ++ D.hash (I ++ [58] ++ P)]

/-- The hash function with the proofs drawn. -/
def drawnProofs (A B S : Bytes) (m : D.Out × D.Out) : Digest :=
  D.program (Oracle.table (A ++ B ++ S) (fun (_ : Fin 1) s => A ++ s.1 ++ S) m.1 fun _ => m.2)

/-- The second proof is not a hash of a string that the session hashes for another purpose. -/
def Apart (p : SrpGroup) (I P salt A B S : Bytes) (m1 : Bytes) : Prop :=
  A ++ m1 ++ S ∉ ownInputs D p I P salt A B ∧ A ++ m1 ++ S ≠ A ++ B ++ S

theorem drawnProofs_own {I P salt A B S x : Bytes} {m : D.Out × D.Out} (hfirst : A ++ B ++ S ∉ ownInputs D p I P salt A B)
    (hm : Apart D p I P salt A B S m.1.1) (hx : x ∈ ownInputs D p I P salt A B) :
    (drawnProofs D A B S m).hash x = D.hash x :=
  Oracle.hash_other (fun e => hfirst (e ▸ hx)) fun _ e => hm.1 (e ▸ hx)

theorem drawnProofs_first (A B S : Bytes) (m : D.Out × D.Out) : (drawnProofs D A B S m).hash (A ++ B ++ S) = m.1.1 :=
  Oracle.hash_first _ _

theorem separate_proofs (A S : Bytes) : Oracle.Separate (D := D) fun (_ : Fin 1) s => A ++ s.1 ++ S := fun _ _ _ _ h =>
  ⟨Subsingleton.elim _ _, Subtype.ext (List.append_cancel_left (List.append_cancel_right h))⟩

theorem drawnProofs_later {A B S : Bytes} {m : D.Out × D.Out} (h : A ++ m.1.1 ++ S ≠ A ++ B ++ S) :
    (drawnProofs D A B S m).hash (A ++ m.1.1 ++ S) = m.2.1 :=
  Oracle.hash_later (separate_proofs D A S) m.1 (fun _ => m.2) 0 h

variable {I P salt v a b A B : Bytes} {c : SrpClientVerifier} {sv : SrpServerVerifier}

/-- **C91 (SRP, drawn proofs).** If the proofs of an honest session are drawn, the session runs as before, and both sides hold the
drawn strings as proofs. -/
theorem C91_srp_drawn (hs : Spec.Sane p.n p.g)
    (hv : (Client.computeVerifier D p I P salt : Res SrpAuthError Bytes) = .ok v)
    (hA : (Client.computePublicEphemeral p a : Res SrpAuthError Bytes) = .ok A)
    (hB : (Server.computePublicEphemeral D p b v : Res SrpAuthError Bytes) = .ok B)
    (hc : Client.processReply D p a I P salt B = .ok c) (hsv : Server.processReply D p b v A = .ok sv)
    (hfirst : A ++ B ++ c.key ∉ ownInputs D p I P salt A B) (m : D.Out × D.Out)
    (hm : Apart D p I P salt A B c.key m.1.1) :
    let D' := drawnProofs D A B c.key m
    (Client.computeVerifier D' p I P salt : Res SrpAuthError Bytes) = .ok v ∧
    (Server.computePublicEphemeral D' p b v : Res SrpAuthError Bytes) = .ok B ∧
    Client.processReply D' p a I P salt B = .ok ⟨m.1.1, m.2.1, c.key⟩ ∧
    Server.processReply D' p b v A = .ok ⟨m.1.1, m.2.1, c.key⟩ := by
  have hN : NeZero p.n := ⟨hs.1.ne'⟩
  rw [client_verifier_eq D p hs.1] at hv
  rw [client_ephemeral_eq p hs.1] at hA
  rw [server_ephemeral_eq D p hs] at hB
  rw [client_process_eq D p hs] at hc
  rw [server_process_eq D p hs] at hsv
  split at hc
  · simp at hc
  rename_i hB0
  split at hsv
  · simp at hsv
  rename_i hA0
  simp only [Res.ok.injEq] at hv hA hB hc hsv
  intro D'
  have hown : ∀ x ∈ ownInputs D p I P salt A B, D'.hash x = D.hash x := fun x hx => drawnProofs_own D hfirst hm hx
  have hval : ∀ z : ZMod p.n, beToNat (Spec.enc z) = z.val := fun z => by rw [Spec.enc, beToNat_toBytesBE]
  have hcast : ∀ z : ZMod p.n, ((z.val : ℕ) : ZMod p.n) = z := fun z => by rw [ZMod.natCast_val, ZMod.cast_id]
  have hx : Spec.x D' I P salt = Spec.x D I P salt := by
    simp only [Spec.x, Spec.Hint]
    rw [hown (I ++ [58] ++ P) (by simp [ownInputs]), hown _ (by simp [ownInputs])]
  have hk : Spec.k D' p.n p.g = Spec.k D p.n p.g := by
    simp only [Spec.k, Spec.Hint]
    rw [hown _ (by simp [ownInputs])]
  have hv' : Spec.v D' p.n p.g I P salt = Spec.v D p.n p.g I P salt := by rw [Spec.v, Spec.v, hx]
  have hB' : ∀ z, Spec.B D' p.n p.g z (beToNat b) = Spec.B D p.n p.g z (beToNat b) := fun z => by rw [Spec.B, Spec.B, hk]
  subst hv
  have hvz : ((beToNat (Spec.enc (Spec.v D p.n p.g I P salt)) : ℕ) : ZMod p.n) = Spec.v D p.n p.g I P salt := enc_cast _
  rw [hvz] at hB
  have hu : Spec.u D' (beToNat A) (beToNat B) = Spec.u D (beToNat A) (beToNat B) := by
    simp only [Spec.u, Spec.Hint]
    have e1 : toBytesBE (beToNat A) = A := by rw [← hA, hval]; rfl
    have e2 : toBytesBE (beToNat B) = B := by rw [← hB, hval]; rfl
    rw [e1, e2, hown _ (by simp [ownInputs])]
  have hAv : (Spec.A p.n p.g (beToNat a)).val = beToNat A := by rw [← hA, hval]
  have hBv : (Spec.B D p.n p.g (Spec.v D p.n p.g I P salt) (beToNat b)).val = beToNat B := by rw [← hB, hval]
  have hAe : toBytesBE (beToNat A) = A := by rw [← hA, hval]; rfl
  have hBe : toBytesBE (beToNat B) = B := by rw [← hB, hval]; rfl
  have hckey : c.key = Spec.enc (Spec.clientS D p.n p.g (beToNat B : ZMod p.n) (Spec.x D I P salt) (beToNat a)
      (Spec.u D (beToNat A) (beToNat B))) := by rw [← hc, clientResult, hAv]
  have hskey : Spec.enc (Spec.serverS (beToNat A : ZMod p.n) (Spec.v D p.n p.g I P salt) (Spec.u D (beToNat A) (beToNat B))
      (beToNat b)) = c.key := by
    rw [hckey]
    congr 1
    have e1 : (beToNat A : ZMod p.n) = Spec.A p.n p.g (beToNat a) := by rw [← hAv, hcast]
    have e2 : (beToNat B : ZMod p.n) = Spec.B D p.n p.g ((p.g : ZMod p.n) ^ Spec.x D I P salt) (beToNat b) := by
      rw [← hBv, hcast]; rfl
    rw [e1, e2]
    exact (premaster_identity D p.n p.g (Spec.x D I P salt) (beToNat a) (beToNat b) _).symm
  refine ⟨?_, ?_, ?_, ?_⟩
  · rw [client_verifier_eq D' p hs.1, hv']
  · rw [server_ephemeral_eq D' p hs, hvz, hB', hB]
  · rw [client_process_ok D' p hs _ _ _ _ _ hB0, clientResult]
    have hS : Spec.clientS D' p.n p.g (beToNat B : ZMod p.n) (Spec.x D' I P salt) (beToNat a)
        (Spec.u D' (Spec.A p.n p.g (beToNat a)).val (beToNat B)) = Spec.clientS D p.n p.g (beToNat B : ZMod p.n)
          (Spec.x D I P salt) (beToNat a) (Spec.u D (beToNat A) (beToNat B)) := by
      rw [Spec.clientS, Spec.clientS, hx, hk, hAv, hu]
    simp only [hS, ← hckey, hA, hBe, Spec.M1, Spec.M2]
    rw [drawnProofs_first D A B c.key m, drawnProofs_later D hm.2]
  · rw [server_process_ok D' p hs _ _ _ hA0, serverResult]
    simp only [hvz, hB', hBv, hu, hskey, hAe, hB, Spec.M1, Spec.M2]
    rw [drawnProofs_first D A B c.key m, drawnProofs_later D hm.2]

theorem ncard_not_apart (p : SrpGroup) (I P salt A B S : Bytes) :
    {w : (D.Out × D.Out) × (D.Out × D.Out) | ¬ Apart D p I P salt A B S w.1.1.1}.ncard ≤ 5 * (256 ^ D.outLen) ^ 3 := by
  have h1 : ∀ u : D.Out × D.Out × D.Out, {s : D.Out | ¬ Apart D p I P salt A B S s.1}.ncard ≤ 5 := fun _ => by
    have := Oracle.ncard_guess_le (separate_proofs D A S) ((A ++ B ++ S) :: ownInputs D p I P salt A B)
    refine (Set.ncard_le_ncard (fun s hs => ?_) (Set.toFinite _)).trans this
    rw [Set.mem_ofPred_eq, Apart, not_and_or, not_not, not_ne_iff] at hs
    exact ⟨0, hs.elim (List.mem_cons_of_mem _) fun h => h ▸ List.mem_cons_self⟩
  have h2 := Oracle.ncard_draw_le (fun (s : D.Out) (_ : D.Out × D.Out × D.Out) => ¬ Apart D p I P salt A B S s.1) 5 h1
  rw [Fintype.card_prod, Fintype.card_prod, Oracle.card_out] at h2
  refine le_trans (Set.ncard_le_ncard_of_injOn (fun w => (w.1.1, w.1.2, w.2)) (fun w hw => hw) ?_ (Set.toFinite _))
    (h2.trans (le_of_eq (by ring)))
  rintro ⟨⟨_, _⟩, _, _⟩ - ⟨⟨_, _⟩, _, _⟩ - h
  simpa [and_assoc] using h

/-- The attacker asks for an input that ends with the secret. -/
def Asks (A S : Bytes) (l : List Bytes) : Prop := ∃ x ∈ l, ∃ y, x = A ++ y ++ S

theorem run_drawnProofs {α : Type} {Att : Asker α} {S : Bytes} (m : D.Out × D.Out) (h : ¬ Asks A S (Att.asked D)) :
    Att.run (drawnProofs D A B S m) = Att.run D :=
  Att.run_program fun x hx => Oracle.table_eq_none (fun e => h ⟨x, hx, B, e⟩) fun _ e => h ⟨x, hx, _, e⟩

/-- **C91 (SRP).** An attacker who gets the public values of an honest session and two strings answers yes for about as many draws
if the strings are the proofs of the session as if they are independent ones: the numbers differ by at most `5 * 256^(3*L)`, out of
`256^(4*L)` where `L` is the output length, and twice the number of draws for which the attacker, run with random strings and a
hash function that has nothing to do with the proofs, asks for an input that ends with the secret. -/
theorem C91_srp (hs : Spec.Sane p.n p.g)
    (hv : (Client.computeVerifier D p I P salt : Res SrpAuthError Bytes) = .ok v)
    (hA : (Client.computePublicEphemeral p a : Res SrpAuthError Bytes) = .ok A)
    (hB : (Server.computePublicEphemeral D p b v : Res SrpAuthError Bytes) = .ok B)
    (hc : Client.processReply D p a I P salt B = .ok c) (hsv : Server.processReply D p b v A = .ok sv)
    (hfirst : A ++ B ++ c.key ∉ ownInputs D p I P salt A B) (Att : Bytes → Bytes → Bytes → Bytes → Asker Bool) :
    let D' := fun w : (D.Out × D.Out) × (D.Out × D.Out) => drawnProofs D A B c.key w.1
    let real := {w : (D.Out × D.Out) × (D.Out × D.Out) | ∃ c' sv', Client.processReply (D' w) p a I P salt B = .ok c' ∧
      Server.processReply (D' w) p b v A = .ok sv' ∧ (Att A B c'.proof sv'.proof).run (D' w) = true}
    let random := {w : (D.Out × D.Out) × (D.Out × D.Out) | (Att A B w.2.1.1 w.2.2.1).run (D' w) = true}
    let err := 5 * (256 ^ D.outLen) ^ 3 + 2 * {w : (D.Out × D.Out) × (D.Out × D.Out) |
      Asks A c.key ((Att A B w.1.1.1 w.1.2.1).asked D)}.ncard
    real.ncard ≤ random.ncard + err ∧ random.ncard ≤ real.ncard + err := by
  intro D' real random err
  have key : ∀ (X Y Z : Set ((D.Out × D.Out) × (D.Out × D.Out))), (∀ w, w ∉ Z → (w ∈ X ↔ w ∈ Y)) →
      X.ncard ≤ Y.ncard + Z.ncard := fun X Y Z h => by
    refine (Set.ncard_le_ncard (t := Y ∪ Z) (fun w hw => ?_) (Set.toFinite _)).trans (Set.ncard_union_le _ _)
    by_cases hZ : w ∈ Z
    · exact Or.inr hZ
    · exact Or.inl ((h w hZ).1 hw)
  have hswap : ∀ Q : D.Out × D.Out → Prop, {w : (D.Out × D.Out) × (D.Out × D.Out) | Q w.2}.ncard =
      {w : (D.Out × D.Out) × (D.Out × D.Out) | Q w.1}.ncard := fun Q =>
    Set.ncard_congr (fun w _ => w.swap) (fun w hw => hw) (fun w w' _ _ h => Prod.swap_injective h)
      fun w hw => ⟨w.swap, hw, rfl⟩
  have h1 : ∀ w ∉ ({w | ¬ Apart D p I P salt A B c.key w.1.1.1} ∪ {w | Asks A c.key ((Att A B w.1.1.1 w.1.2.1).asked D)} :
      Set ((D.Out × D.Out) × (D.Out × D.Out))),
      (w ∈ real ↔ w ∈ {w : (D.Out × D.Out) × (D.Out × D.Out) | (Att A B w.1.1.1 w.1.2.1).run D = true}) := fun w hw => by
    simp only [Set.mem_union, Set.mem_ofPred_eq, not_or, not_not] at hw
    obtain ⟨-, -, e1, e2⟩ := C91_srp_drawn D hs hv hA hB hc hsv hfirst w.1 hw.1
    simp only [real, D', Set.mem_ofPred_eq, e1, e2, Res.ok.injEq]
    constructor
    · rintro ⟨_, _, rfl, rfl, h⟩
      rwa [SrpClientVerifier.proof, SrpServerVerifier.proof, run_drawnProofs D w.1 hw.2] at h
    · intro h
      refine ⟨_, _, rfl, rfl, ?_⟩
      rwa [SrpClientVerifier.proof, SrpServerVerifier.proof, run_drawnProofs D w.1 hw.2]
  have h2 : ∀ w ∉ ({w | Asks A c.key ((Att A B w.2.1.1 w.2.2.1).asked D)} : Set ((D.Out × D.Out) × (D.Out × D.Out))),
      (w ∈ random ↔ w ∈ {w : (D.Out × D.Out) × (D.Out × D.Out) | (Att A B w.2.1.1 w.2.2.1).run D = true}) := fun w hw => by
    simp only [random, D', Set.mem_ofPred_eq] at hw ⊢
    rw [run_drawnProofs D w.1 hw]
  have a1 := key _ _ _ h1
  have a2 := key _ _ _ (fun w hw => (h1 w hw).symm)
  have a3 := key _ _ _ h2
  have a4 := key _ _ _ (fun w hw => (h2 w hw).symm)
  have b1 := Set.ncard_union_le ({w | ¬ Apart D p I P salt A B c.key w.1.1.1} : Set ((D.Out × D.Out) × (D.Out × D.Out)))
    {w | Asks A c.key ((Att A B w.1.1.1 w.1.2.1).asked D)}
  have b2 := ncard_not_apart D p I P salt A B c.key
  have b3 := hswap fun m => (Att A B m.1.1 m.2.1).run D = true
  have b4 := hswap fun m => Asks A c.key ((Att A B m.1.1 m.2.1).asked D)
  constructor <;> omega

/-- The hypotheses can be met: a session in the smallest built-in group. -/
example : Spec.Sane Groups.G_1024.n Groups.G_1024.g ∧
    (match (Client.computeVerifier sha256 Groups.G_1024 [1] [2] [3] : Res SrpAuthError Bytes) with
    | .ok v =>
      match (Client.computePublicEphemeral Groups.G_1024 [9] : Res SrpAuthError Bytes),
        (Server.computePublicEphemeral sha256 Groups.G_1024 [7] v : Res SrpAuthError Bytes) with
      | .ok A, .ok B =>
        match Client.processReply sha256 Groups.G_1024 [9] [1] [2] [3] B with
        | .ok c => (Server.processReply sha256 Groups.G_1024 [7] v A).isOk &&
          !((ownInputs sha256 Groups.G_1024 [1] [2] [3] A B).contains (A ++ B ++ c.key))
        | _ => false
      | _, _ => false
    | _ => false) = true :=
  ⟨by decide +kernel, by decide +kernel⟩

end Verif.Srp
