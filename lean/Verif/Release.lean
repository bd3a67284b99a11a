import Verif.Replay
import Verif.Srp.Stolen

/-!
# C79: when a value is released that confirms a password guess

Who impersonates a client and gets the server's proof can test guesses offline. The AuCPace server gives it out only
after the client has proved itself; the SRP types leave that to the caller.
-/

set_option linter.unusedSectionVars false

namespace Verif.Aucpace
open Spec Run

section
variable {G : Type} [AddCommGroup G] [Module Scalar G] [DecidableEq G] (R : Ristretto G) (D : Digest)
  {σ : Type} (rng : Rng σ)

/-- The first answers of a server are no authenticators. -/
theorem info_not_authenticator (db : Database G) (kdb : Option (PartialAugDatabase G)) (self : Server.AugLayer) (user : Bytes)
    (s : σ) {st : Server.CPaceSubstep σ} {m : ServerMessage G}
    (h : Run.serverInfo R D rng db kdb self user s = .ok (st, m)) (t : Bytes) : m ≠ .authenticator t := by
  rintro rfl
  cases kdb with
  | none =>
    simp only [Run.serverInfo, Server.generateClientInfo, Server.generatePrs, Server.lookupFailed] at h
    repeat' split at h
    all_goals simp_all [Res.bind_eq_ok]
  | some k =>
    simp only [Run.serverInfo, Server.generateClientInfoPartialAug, Server.generatePrs, Server.lookupFailed] at h
    repeat' split at h
    all_goals simp_all [Res.bind_eq_ok]

/-- The same of the strong variants. -/
theorem infoStrong_not_authenticator (db : StrongDatabase G) (kdb : Option (PartialAugDatabase G)) (self : Server.AugLayer)
    (user : Bytes) (U : G) (s : σ) {st : Server.CPaceSubstep σ} {m : ServerMessage G}
    (h : Run.serverInfoStrong R D rng db kdb self user U s = .ok (st, m)) (t : Bytes) : m ≠ .authenticator t := by
  rintro rfl
  cases kdb with
  | none =>
    simp only [Run.serverInfoStrong, Server.generateClientInfoStrong, Server.generatePrsStrong, Server.lookupFailedStrong] at h
    repeat' split at h
    all_goals simp_all
  | some k =>
    simp only [Run.serverInfoStrong, Server.generateClientInfoPartialStrong, Server.generatePrsStrong,
      Server.lookupFailedStrong] at h
    repeat' split at h
    all_goals simp_all

/-- The only call that outputs an authenticator. -/
theorem callSession_authenticator (h64 : D.outLen = 64) {st st' : Session σ} {c : Call G σ} {o : List (Out G)}
    (h : callSession R D rng st c = some (st', o)) {t : Bytes} (ht : Out.message (.authenticator t) ∈ o) :
    ∃ s1, st = .auth s1 ∧ c = .authenticator (tb D s1.ssid s1.sk1) ∧ st' = .finished ∧
      o = [.key (sk D s1.ssid s1.sk1), .message (.authenticator (ta D s1.ssid s1.sk1))] := by
  cases st <;> cases c <;> simp only [callSession] at h <;> try (simp at h; done)
  · simp only [Option.some.injEq, Prod.mk.injEq] at h
    simp [← h.2] at ht
  · split at h
    · rename_i hi
      simp only [Option.some.injEq, Prod.mk.injEq] at h
      rw [← h.2] at ht
      simp only [List.mem_singleton, Out.message.injEq] at ht
      exact absurd ht.symm (info_not_authenticator R D rng _ _ _ _ _ hi t)
    all_goals
      simp only [Option.some.injEq, Prod.mk.injEq] at h
      simp [← h.2] at ht
  · split at h
    · rename_i hi
      simp only [Option.some.injEq, Prod.mk.injEq] at h
      rw [← h.2] at ht
      simp only [List.mem_singleton, Out.message.injEq] at ht
      exact absurd ht.symm (infoStrong_not_authenticator R D rng _ _ _ _ _ _ hi t)
    all_goals
      simp only [Option.some.injEq, Prod.mk.injEq] at h
      simp [← h.2] at ht
  · simp only [Option.some.injEq, Prod.mk.injEq, Server.generatePublicKey] at h
    simp [← h.2] at ht
  · split at h <;> simp only [Option.some.injEq, Prod.mk.injEq] at h <;> simp [← h.2] at ht
  · split at h <;> simp only [Option.some.injEq, Prod.mk.injEq] at h <;> simp [← h.2] at ht
  · rename_i s1 t'
    rw [receiveClientAuthenticator_eq D h64] at h
    by_cases ht' : tb D s1.ssid s1.sk1 = t'
    · rw [if_pos ht'] at h
      simp only [Option.some.injEq, Prod.mk.injEq] at h
      exact ⟨s1, rfl, by rw [ht'], h.1.symm, h.2.symm⟩
    · rw [if_neg ht'] at h
      simp only [Option.some.injEq, Prod.mk.injEq] at h
      simp [← h.2] at ht

/-- **C79 (AuCPace).** A server session, whatever calls are made on it, outputs an authenticator only in its last call, and
only if that call delivered the client authenticator the server expects: until then nothing it has sent has been
computed from the shared key, and a refused client gets nothing more. -/
theorem C79_aucpace (h64 : D.outLen = 64) (st st' : Session σ) (cs : List (Call G σ)) (o : List (Out G))
    (hr : runSession R D rng st cs = some (st', o)) (t : Bytes) (ht : Out.message (.authenticator t) ∈ o) :
    ∃ cs0 o0 s1, runSession R D rng st cs0 = some (.auth s1, o0) ∧
      cs = cs0 ++ [.authenticator (tb D s1.ssid s1.sk1)] ∧ st' = .finished ∧
      (∀ t', Out.message (.authenticator t') ∉ o0) ∧ t = ta D s1.ssid s1.sk1 ∧
      o = o0 ++ [.key (sk D s1.ssid s1.sk1), .message (.authenticator t)] := by
  induction cs generalizing st o with
  | nil =>
    simp only [runSession, Option.some.injEq, Prod.mk.injEq] at hr
    rw [← hr.2] at ht; simp at ht
  | cons c cs ih =>
    obtain ⟨s1, o1, o2, h1, h2, rfl⟩ := (runSession_cons R D rng).1 hr
    by_cases h : ∃ t', Out.message (.authenticator t') ∈ o1
    · obtain ⟨t', h⟩ := h
      obtain ⟨s2, rfl, rfl, rfl, rfl⟩ := callSession_authenticator R D rng h64 h1 h
      obtain ⟨rfl, rfl, rfl⟩ := C50_ended R D rng _ (Or.inl rfl) _ _ _ h2
      have : t = ta D s2.ssid s2.sk1 := by simpa using ht
      subst this
      exact ⟨[], [], s2, rfl, rfl, rfl, by simp, rfl, rfl⟩
    · have h : ∀ t', Out.message (.authenticator t') ∉ o1 := fun t' h' => h ⟨t', h'⟩
      obtain ⟨cs0, o0, s2, hr0, rfl, hf, hno, hta, rfl⟩ :=
        ih s1 o2 h2 ((List.mem_append.1 ht).resolve_left (h t))
      refine ⟨c :: cs0, o1 ++ o0, s2, (runSession_cons R D rng).2 ⟨s1, o1, o0, h1, hr0, rfl⟩, rfl, hf, ?_, hta, by simp⟩
      intro t' h'
      rcases List.mem_append.1 h' with h' | h'
      · exact h t' h'
      · exact hno t' h'

/-- **C79 (AuCPace, refused clients).** A session that got a wrong authenticator has output no key and no authenticator. -/
theorem C79_aucpace_refused (h64 : D.outLen = 64) (st : Session σ) (cs0 : List (Call G σ)) (s1 : Server.ExpMutAuth)
    (o0 : List (Out G)) (hr : runSession R D rng st cs0 = some (.auth s1, o0)) (t : Bytes)
    (ht : t ≠ tb D s1.ssid s1.sk1) :
    runSession R D rng st (cs0 ++ [.authenticator t]) = some (.failed, o0 ++ [.error .mutualAuthFail]) ∧
      (∀ t', Out.message (.authenticator t') ∉ o0) ∧ ∀ k, Out.key k ∉ o0 := by
  have happ : ∀ (st : Session σ) (cs0 : List (Call G σ)) (o0 : List (Out G)),
      runSession R D rng st cs0 = some (.auth s1, o0) →
      runSession R D rng st (cs0 ++ [.authenticator t]) = some (.failed, o0 ++ [.error .mutualAuthFail]) := by
    intro st cs0
    induction cs0 generalizing st with
    | nil =>
      intro o0 h
      simp only [runSession, Option.some.injEq, Prod.mk.injEq] at h
      obtain ⟨rfl, rfl⟩ := h
      simp only [List.nil_append, runSession, callSession, receiveClientAuthenticator_eq D h64, if_neg (Ne.symm ht)]
      rfl
    | cons c cs ih =>
      intro o0 h
      obtain ⟨s2, o1, o2, h1, h2, rfl⟩ := (runSession_cons R D rng).1 h
      rw [List.cons_append]
      exact (runSession_cons R D rng).2 ⟨s2, o1, _, h1, ih s2 o2 h2, by simp⟩
  refine ⟨happ _ _ _ hr, fun t' h' => ?_, fun k h' => ?_⟩
  · obtain ⟨_, _, _, _, _, h, _⟩ := C79_aucpace R D rng h64 _ _ _ _ hr t' h'
    simp at h
  · have := (C50_one_key R D rng st cs0 _ _ hr).2.1
      (by rw [ne_eq, List.countP_eq_zero]; exact fun h => h _ h' rfl)
    simp at this

end

/-- Concretely: an honest client is refused nothing (`World.relay` above), one that sends zeros ends the session with an error. -/
example :
    (match runSession Ristretto.toy sha512 Rng.replay (.ssid ⟨5, World.bytes 1 16⟩)
      (World.netServer 9 ++ [.authenticator (List.replicate 64 0)]) with
    | some (.failed, [.message (.augmentationInfo ..), .message (.publicKey _), .error .mutualAuthFail]) => true
    | _ => false) = true := by
  decide +kernel

end Verif.Aucpace

namespace Verif.Srp

variable (D : Digest) {p : SrpGroup}

/-- **C79 (SRP).** `SrpServerVerifier` hands out the server's proof (and key) whether or not the client was accepted. Who sent
some `A = g^a`, was refused, and yet gets the proof can test passwords without the server: the client's own calls, made with the
`a`, salt and `B` of that session, accept the proof for the user's password, and for any other guess only if it gives the
server's key or a collision of the two named strings. -/
theorem C79_srp (hs : Spec.Sane p.n p.g) (hn : 1 < p.n) (hc : Nat.Coprime p.g p.n) (I P s a b : Bytes) :
    ∃ v A B : Bytes, ∃ sv : SrpServerVerifier,
      (Client.computeVerifier D p I P s : Res SrpAuthError Bytes) = .ok v ∧
      (Client.computePublicEphemeral p a : Res SrpAuthError Bytes) = .ok A ∧
      (Server.computePublicEphemeral D p b v : Res SrpAuthError Bytes) = .ok B ∧
      Server.processReply D p b v A = .ok sv ∧
      (∀ bad, bad ≠ sv.m1 → sv.verifyClient bad = .err (.badRecordMac "client")) ∧
      (¬ p.n ∣ beToNat B → ∃ c, Client.processReply D p a I P s B = .ok c ∧ c.verifyServer sv.proof = .ok ()) ∧
      ∀ P' c, Client.processReply D p a I P' s B = .ok c → c.verifyServer sv.proof = .ok () →
        c.key = sv.key ∨ D.Collision (A ++ c.proof ++ c.key) (A ++ sv.m1 ++ sv.key) ∨
          D.Collision (A ++ B ++ c.key) (A ++ B ++ sv.key) := by
  obtain ⟨v, A, B, hv, hA, hB, -, sv, hsv, hok⟩ := C01_srp_agreement D p hs hn hc I P s a b
  refine ⟨v, A, B, sv, hv, hA, hB, hsv, fun bad hbad => ?_, fun h => ?_, fun P' c hcl hacc => ?_⟩
  · simpa [SrpServerVerifier.verifyClient, ctEq_eq_decide] using fun e : sv.m1 = bad => hbad e.symm
  · obtain ⟨c, h1, -, -, h2⟩ := hok h
    exact ⟨c, h1, h2⟩
  · rcases C04_client_accept_implies_same_key D p hs a I P' s B b v A c sv A hA B hB rfl hcl hsv hacc with h | h | h
    · exact Or.inl h.1
    · exact Or.inr (Or.inl h)
    · refine Or.inr (Or.inr ?_)
      have hB' := hB
      rw [server_ephemeral_eq D p hs, Res.ok.injEq] at hB'
      have hE : toBytesBE (beToNat B) = B := by rw [← hB', Spec.enc, beToNat_toBytesBE]
      rwa [hE] at h

/-- Concretely, in the group of 47 elements: a session whose client is refused, and the guesses "b" (right) and "a", "c" (wrong)
told apart with the proof. -/
example :
    (match (Client.computeVerifier sha256 ⟨47, 5⟩ [1] [98] [2] : Res SrpAuthError Bytes) with
    | .ok v => match (Server.computePublicEphemeral sha256 ⟨47, 5⟩ [7] v : Res SrpAuthError Bytes),
        Server.processReply sha256 ⟨47, 5⟩ [7] v (toBytesBE (powMod 5 9 47)) with
      | .ok B, .ok sv =>
        decide (sv.verifyClient [0] = .err (.badRecordMac "client")) &&
        [97, 98, 99].map (fun x => match Client.processReply sha256 ⟨47, 5⟩ [9] [1] [x] [2] B with
          | .ok c => (c.verifyServer sv.proof).isOk
          | _ => false) == [false, true, false]
      | _, _ => false
    | _ => false) = true := by
  decide +kernel

end Verif.Srp
