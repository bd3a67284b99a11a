import Verif.Aucpace.Examples
import Verif.Aucpace.PropsAgree
import Verif.Aucpace.PropsMisc

/-!
# Lemmas about the example programs
-/

set_option linter.unusedSectionVars false

namespace Verif.Aucpace.Examples
open Verif.Stream Wire

/-! ## Exchanges with four messages in each direction -/

/-- An undisturbed exchange in which the client sends after each of its first three receives and the server sends two
messages after its second receive and one after its fourth. -/
structure Trace {A B : Type} (KA : Codec A) (KB : Codec B) (C : Proc B A) (S : Proc A B) where
  (c0 c1 c2 c3 c4 : C.St)
  (s0 s1 s2 s3 s4 : S.St)
  (a0 a1 a2 a3 : A)
  (b0 b1 b2 b3 : B)
  (kc ks : Bytes)
  cinit : C.init = c0
  sinit : S.init = s0
  cfirst : C.first = [a0]
  sfirst : S.first = [b0]
  cr0 : C.recv c0 b0 = some (c1, [a1])
  cr1 : C.recv c1 b1 = some (c2, [a2])
  cr2 : C.recv c2 b2 = some (c3, [a3])
  cr3 : C.recv c3 b3 = some (c4, [])
  sr0 : S.recv s0 a0 = some (s1, [])
  sr1 : S.recv s1 a1 = some (s2, [b1, b2])
  sr2 : S.recv s2 a2 = some (s3, [])
  sr3 : S.recv s3 a3 = some (s4, [b3])
  cskip : C.recv c0 b1 = none ∧ C.recv c0 b2 = none ∧ C.recv c0 b3 = none ∧ C.recv c1 b2 = none ∧
    C.recv c1 b3 = none ∧ C.recv c2 b3 = none
  sskip : S.recv s0 a1 = none ∧ S.recv s0 a2 = none ∧ S.recv s0 a3 = none ∧ S.recv s1 a2 = none ∧
    S.recv s1 a3 = none ∧ S.recv s2 a3 = none
  cwait : C.result c0 = none ∧ C.result c1 = none ∧ C.result c2 = none ∧ C.result c3 = none
  swait : S.result s0 = none ∧ S.result s1 = none ∧ S.result s2 = none ∧ S.result s3 = none
  cdone : C.result c4 = some kc
  sdone : S.result s4 = some ks
  cvalid : ∀ m ∈ [a0, a1, a2, a3], KA.valid m
  svalid : ∀ m ∈ [b0, b1, b2, b3], KB.valid m

namespace Trace
variable {A B : Type} {KA : Codec A} {KB : Codec B} {C : Proc B A} {S : Proc A B} (T : Trace KA KB C S)

/-- As a script. -/
def script : Script KA KB C S where
  cst | 0 => T.c0 | 1 => T.c1 | 2 => T.c2 | 3 => T.c3 | _ => T.c4
  sst | 0 => T.s0 | 1 => T.s1 | 2 => T.s2 | 3 => T.s3 | _ => T.s4
  cms := [T.a0, T.a1, T.a2, T.a3]
  sms := [T.b0, T.b1, T.b2, T.b3]
  csent | 0 => 1 | 1 => 2 | 2 => 3 | _ => 4
  ssent | 0 => 1 | 1 => 1 | 2 => 3 | 3 => 3 | _ => 4
  ckey := T.kc
  skey := T.ks
  cinit := T.cinit.symm
  sinit := T.sinit.symm
  cfirst := T.cfirst
  sfirst := T.sfirst
  cstep i m h := by
    match i, h with
    | 0, h => cases h; exact ⟨_, T.cr0, rfl⟩
    | 1, h => cases h; exact ⟨_, T.cr1, rfl⟩
    | 2, h => cases h; exact ⟨_, T.cr2, rfl⟩
    | 3, h => cases h; exact ⟨_, T.cr3, rfl⟩
    | _ + 4, h => cases h
  sstep i m h := by
    match i, h with
    | 0, h => cases h; exact ⟨_, T.sr0, rfl⟩
    | 1, h => cases h; exact ⟨_, T.sr1, rfl⟩
    | 2, h => cases h; exact ⟨_, T.sr2, rfl⟩
    | 3, h => cases h; exact ⟨_, T.sr3, rfl⟩
    | _ + 4, h => cases h
  cskip i j m hij h := by
    obtain ⟨h01, h02, h03, h12, h13, h23⟩ := T.cskip
    match j, h with
    | 0, _ => omega
    | 1, h => cases h; match i with | 0 => exact h01 | _ + 1 => omega
    | 2, h => cases h; match i with | 0 => exact h02 | 1 => exact h12 | _ + 2 => omega
    | 3, h => cases h; match i with | 0 => exact h03 | 1 => exact h13 | 2 => exact h23 | _ + 3 => omega
    | _ + 4, h => cases h
  sskip i j m hij h := by
    obtain ⟨h01, h02, h03, h12, h13, h23⟩ := T.sskip
    match j, h with
    | 0, _ => omega
    | 1, h => cases h; match i with | 0 => exact h01 | _ + 1 => omega
    | 2, h => cases h; match i with | 0 => exact h02 | 1 => exact h12 | _ + 2 => omega
    | 3, h => cases h; match i with | 0 => exact h03 | 1 => exact h13 | 2 => exact h23 | _ + 3 => omega
    | _ + 4, h => cases h
  cwait i h := by
    obtain ⟨h0, h1, h2, h3⟩ := T.cwait
    match i, h with
    | 0, _ => exact h0
    | 1, _ => exact h1
    | 2, _ => exact h2
    | 3, _ => exact h3
    | _ + 4, h => simp only [List.length_cons, List.length_nil] at h; omega
  swait i h := by
    obtain ⟨h0, h1, h2, h3⟩ := T.swait
    match i, h with
    | 0, _ => exact h0
    | 1, _ => exact h1
    | 2, _ => exact h2
    | 3, _ => exact h3
    | _ + 4, h => simp only [List.length_cons, List.length_nil] at h; omega
  cdone := T.cdone
  sdone := T.sdone
  cle i := by
    match i with
    | 0 | 1 | 2 | _ + 3 => simp
  sle i := by
    match i with
    | 0 | 1 | 2 | 3 | _ + 4 => simp
  cvalid := T.cvalid
  svalid := T.svalid
  progress i hi j hj h1 h2 := by
    simp only [List.length_cons, List.length_nil] at hi hj ⊢
    interval_cases i <;> interval_cases j <;> simp_all

/-- Both programs run and wait, nothing is on its way, and nothing more can happen. -/
def Stuck (buf : Nat) (okC okS : Bytes → Prop) (x : Config C S) : Prop :=
  (∃ cl sv, x.client = some cl ∧ x.server = some sv ∧ C.result cl = none ∧ S.result sv = none) ∧
    ∀ y, ¬ Step KA KB C S buf okC okS x y

theorem stuck_of_empty (buf : Nat) (okC okS : Bytes → Prop) (cl : C.St) (sv : S.St) (hc : C.result cl = none)
    (hs : S.result sv = none) : Stuck (KA := KA) (KB := KB) buf okC okS ⟨some cl, some sv, [], []⟩ := by
  refine ⟨⟨cl, sv, rfl, rfl, hc, hs⟩, fun y h => ?_⟩
  generalize hx : (⟨some cl, some sv, [], []⟩ : Config C S) = x at h
  cases h with
  | client st sv out chunk rest hr hne hb hok =>
    injection hx with h1 h2 h3 h4
    exact hne (List.append_eq_nil_iff.1 h4.symm).1
  | server cl st out chunk rest hr hne hb hok =>
    injection hx with h1 h2 h3 h4
    exact hne (List.append_eq_nil_iff.1 h3.symm).1
  | clientEof st sv out hr he =>
    injection hx with h1 h2 h3 h4
    have := he _ h2.symm
    rw [hs] at this
    cases this
  | serverEof cl st out hr he =>
    injection hx with h1 h2 h3 h4
    have := he _ h1.symm
    rw [hc] at this
    cases this

/-- The client reads the server's nonce and sends its second message; then the server's first read returns both messages
of the client. -/
theorem deadlock_server (buf : Nat) (hb0 : (KB.enc T.b0).length ≤ buf)
    (hb : (KA.enc T.a0).length + (KA.enc T.a1).length ≤ buf) :
    ∃ x, Reach KA KB C S buf anything anything 2 x ∧ Stuck (KA := KA) (KB := KB) buf anything anything x := by
  have h0 : start KA KB C S = ⟨some T.c0, some T.s0, KA.enc T.a0, KB.enc T.b0 ++ []⟩ := by
    simp only [start, T.cinit, T.sinit, T.cfirst, T.sfirst, Codec.encs, List.flatMap_cons, List.flatMap_nil,
      List.append_nil]
  have hB := KB.dec_enc T.b0 [] (T.svalid _ (by simp))
  have hA := KA.dec_enc T.a0 (KA.enc T.a1) (T.cvalid _ (by simp))
  rw [List.append_nil] at hB
  have hr1 : react KB KA C T.c0 (KB.enc T.b0) = (some T.c1, KA.enc T.a1) := by
    simp only [react, hB, T.cr0, Codec.encs, List.flatMap_cons, List.flatMap_nil, List.append_nil]
  have hr2 : react KA KB S T.s0 (KA.enc T.a0 ++ KA.enc T.a1) = (some T.s1, []) := by
    simp only [react, hA, T.sr0, Codec.encs, List.flatMap_nil]
  have s1 : Step KA KB C S buf anything anything (start KA KB C S)
      ⟨some T.c1, some T.s0, (KA.enc T.a0 ++ KA.enc T.a1) ++ [], []⟩ := by
    have := Step.client (KA := KA) (KB := KB) (C := C) (S := S) (buf := buf) (okC := anything) (okS := anything)
      T.c0 (some T.s0) (KA.enc T.a0) (KB.enc T.b0) [] T.cwait.1 (KB.enc_ne _) hb0 trivial
    rw [hr1] at this
    rw [h0, List.append_nil (KA.enc T.a0 ++ KA.enc T.a1)]
    exact this
  have s2 := Step.server (KA := KA) (KB := KB) (C := C) (S := S) (buf := buf) (okC := anything) (okS := anything)
    (some T.c1) T.s0 [] (KA.enc T.a0 ++ KA.enc T.a1) [] T.swait.1
    (fun h => KA.enc_ne _ (List.append_eq_nil_iff.1 h).1) (by rw [List.length_append]; exact hb) trivial
  rw [hr2] at s2
  refine ⟨_, Reach.step (Reach.step Reach.start s1) s2, ?_⟩
  exact stuck_of_empty buf _ _ _ _ T.cwait.2.1 T.swait.2.1

end Trace

/-! ## Decoding part of a message -/

section
variable {G : Type} [AddCommGroup G] [Module Scalar G] [DecidableEq G] (R : Ristretto G) (D : Digest)
  {Params : Type} (Hs : PwHasher Params) {σc σs : Type} (rngC : Rng σc) (rngS : Rng σs)

/-- The beginning of an encoded message does not decode. -/
theorem client_part (strong : Bool) (paramsOk : Bytes → Bool) (m : ClientMessage G) (chunk rest : Bytes)
    (hv : (clientCodec R strong paramsOk).valid m) (hr : rest ≠ [])
    (h : chunk ++ rest = (clientCodec R strong paramsOk).enc m) : (clientCodec R strong paramsOk).dec chunk = none := by
  cases hd : (clientCodec R strong paramsOk).dec chunk with
  | none => rfl
  | some p =>
    obtain ⟨m', r⟩ := p
    have h' := (C51_client_exact bincode R strong 16 paramsOk bincode_canonical chunk r m').1 hd
    have h1 := (clientCodec R strong paramsOk).dec_enc m [] hv
    have h2 := (clientCodec R strong paramsOk).dec_enc m' (r ++ rest) ⟨h'.1, h'.2.1⟩
    rw [List.append_nil, ← h] at h1
    have : (clientCodec R strong paramsOk).enc m' ++ (r ++ rest) = chunk ++ rest := by
      rw [← List.append_assoc]; congr 1; exact h'.2.2.symm
    rw [this, h1, Option.some.injEq, Prod.mk.injEq] at h2
    exact absurd (List.append_eq_nil_iff.1 h2.2.symm).2 hr

theorem server_part (strong : Bool) (paramsOk : Bytes → Bool) (m : ServerMessage G) (chunk rest : Bytes)
    (hv : (serverCodec R strong paramsOk).valid m) (hr : rest ≠ [])
    (h : chunk ++ rest = (serverCodec R strong paramsOk).enc m) : (serverCodec R strong paramsOk).dec chunk = none := by
  cases hd : (serverCodec R strong paramsOk).dec chunk with
  | none => rfl
  | some p =>
    obtain ⟨m', r⟩ := p
    have h' := (C51_server_exact bincode R strong 16 paramsOk bincode_canonical chunk r m').1 hd
    have h1 := (serverCodec R strong paramsOk).dec_enc m [] hv
    have h2 := (serverCodec R strong paramsOk).dec_enc m' (r ++ rest) ⟨h'.1, h'.2.1⟩
    rw [List.append_nil, ← h] at h1
    have : (serverCodec R strong paramsOk).enc m' ++ (r ++ rest) = chunk ++ rest := by
      rw [← List.append_assoc]; congr 1; exact h'.2.2.symm
    rw [this, h1, Option.some.injEq, Prod.mk.injEq] at h2
    exact absurd (List.append_eq_nil_iff.1 h2.2.symm).2 hr

/-! ## A login is such an exchange -/

/-- The messages of a CPace exchange with explicit authentication. -/
theorem explicit_steps {cli : Client.CPaceSubstep} {srv : Server.CPaceSubstep σs} {ciC ciS : Bytes} {c : σc}
    {kc ks : Bytes} (h : Run.explicit R D rngC rngS cli srv ciC ciS c = .ok (kc, ks)) :
    ∃ yb ya ctb cta c3 s3, ∃ c2 : Client.RecvServerKey, ∃ s2 : Server.RecvClientKey,
      (Client.generatePublicKey R D rngC cli ciC c).1 = (c2, .publicKey yb) ∧
      Server.generatePublicKey R D rngS srv ciS = (s2, .publicKey ya) ∧
      Client.receiveServerPubkey R D c2 ya = .ok (c3, .authenticator ctb) ∧
      Server.receiveClientPubkey R D s2 yb = .ok s3 ∧
      (Server.receiveClientAuthenticator D s3 ctb : Res Error (Bytes × ServerMessage G)) =
        .ok (ks, .authenticator cta) ∧
      Client.receiveServerAuthenticator D c3 cta = .ok kc ∧ ctb.length = 64 ∧ cta.length = 64 := by
  simp only [Run.explicit, Client.generatePublicKey, Server.generatePublicKey] at h
  obtain ⟨⟨c3, m3⟩, h1, h⟩ := Res.bind_eq_ok.1 h
  obtain ⟨s3, h2, h⟩ := Res.bind_eq_ok.1 h
  have hm3 : ∃ t, m3 = .authenticator t ∧ t.length = 64 := by
    simp only [Client.receiveServerPubkey] at h1
    split at h1
    · cases h1
    · obtain ⟨t, ht, h1⟩ := Res.bind_eq_ok.1 h1
      simp only [Res.ok.injEq, Prod.mk.injEq] at h1
      refine ⟨t, h1.2.symm, ?_⟩
      simp only [toArray] at ht
      split at ht
      · rename_i hl; cases ht; exact hl
      · cases ht
  obtain ⟨t, rfl, ht⟩ := hm3
  simp only at h
  obtain ⟨⟨ks', m4⟩, h3, h⟩ := Res.bind_eq_ok.1 h
  have hm4 : ∃ t, m4 = .authenticator t ∧ t.length = 64 := by
    simp only [Server.receiveClientAuthenticator] at h3
    split at h3
    · obtain ⟨t, ht, h3⟩ := Res.bind_eq_ok.1 h3
      simp only [Res.ok.injEq, Prod.mk.injEq] at h3
      refine ⟨t, h3.2.symm, ?_⟩
      simp only [toArray] at ht
      split at ht
      · rename_i hl; cases ht; exact hl
      · cases ht
    · cases h3
  obtain ⟨t', rfl, ht'⟩ := hm4
  simp only at h
  obtain ⟨kc', h4, h⟩ := Res.bind_eq_ok.1 h
  simp only [Res.ok.injEq, Prod.mk.injEq] at h
  obtain ⟨rfl, rfl⟩ := h
  exact ⟨_, _, t, t', c3, s3, _, _, rfl, rfl, h1, h2, h3, h4, ht, ht'⟩

theorem groupName_str : Str groupName := ⟨by unfold Slice; decide, by decide +kernel⟩

/-- A successful login of the plain or partially augmented protocol is such an exchange. -/
theorem trace_plain (strong : Bool) (paramsOk : Bytes → Bool) (fromPs : Bytes → Option Params) (params : Params) (db : Database G)
    (kdb : Option (PartialAugDatabase G)) (user pass ci : Bytes) (c : σc) (sv : Server.State σs) (sr : σs) (c' : σc)
    (W : G) (salt ps kc ks : Bytes) (hdb : db.lookupVerifier user = some (W, salt, ps))
    (hk : ∀ k, kdb = some k → ∃ x, k.lookupLongTermKeypair user = some (x, x • R.base))
    (hu : Slice user) (hsalt : SaltStr salt) (hps : ParamsStr paramsOk ps) (hfp : fromPs ps = some params)
    (h : Run.login R D Hs rngC rngS (Run.explicit R D rngC rngS) (fun _ => params) .alloc db kdb (.nonces 16) user pass ci
      c sv sr c' = .ok (kc, ks)) :
    ∃ T : Trace (clientCodec R strong paramsOk) (serverCodec R strong paramsOk)
        (client R D Hs rngC fromPs none user pass ci c c') (server R D rngS (.plain db kdb) ci sv sr),
      T.kc = kc ∧ T.ks = ks ∧ T.a0 = .nonce (rngC.fill c 16).1 ∧ T.a1 = .username user ∧
      T.b0 = .nonce (rngS.fill sv.rng 16).1 ∧ (∃ X, T.b1 = .augmentationInfo groupName X salt ps) ∧
      (∃ Y, T.a2 = .publicKey Y) ∧ (∃ Y, T.b2 = .publicKey Y) ∧
      (∃ t, T.a3 = .authenticator t ∧ t.length = 64) ∧ (∃ t, T.b3 = .authenticator t ∧ t.length = 64) := by
  have hn1 : (rngC.fill c 16).1.length = 16 := rngC.fill_length _ _
  have hn2 : (rngS.fill sv.rng 16).1.length = 16 := rngS.fill_length _ _
  simp only [Run.login, Run.ssidStage, Run.ssidByNonces, Client.begin, Server.begin, generateNonce, Res.bind_ok,
    Run.augment, Client.startAugmentation, server_info_eq R D rngS db kdb _ user sr W salt ps hdb hk,
    Run.clientCpace] at h
  obtain ⟨⟨cl2, sv2⟩, h1, h⟩ := Res.bind_eq_ok.1 h
  obtain ⟨cl2', hcp, h1'⟩ := Res.bind_eq_ok.1 h1
  simp only [Res.ok.injEq, Prod.mk.injEq] at h1'
  obtain ⟨rfl, rfl⟩ := h1'
  obtain ⟨yb, ya, tb, ta, c3, s3, c2, s2, g1, g2, g3, g4, g5, g6, hl, hl'⟩ := explicit_steps R D rngC rngS h
  refine ⟨{
    c0 := .waitNonce ⟨(rngC.fill c 16).1⟩
    c1 := .waitInfo ⟨computeSsid D (rngS.fill sv.rng 16).1 (rngC.fill c 16).1, user, pass⟩
    c2 := .waitKey c2, c3 := .waitAuth c3, c4 := .done kc
    s0 := .waitNonce ⟨sv.secret, (rngS.fill sv.rng 16).1⟩
    s1 := .waitUser ⟨sv.secret, computeSsid D (rngS.fill sv.rng 16).1 (rngC.fill c 16).1⟩
    s2 := .waitKey s2, s3 := .waitAuth s3, s4 := .done ks
    a0 := .nonce (rngC.fill c 16).1, a1 := .username user, a2 := .publicKey yb, a3 := .authenticator tb
    b0 := .nonce (rngS.fill sv.rng 16).1
    b1 := .augmentationInfo groupName ((Run.serverX rngS kdb user sr).1 • R.base) salt ps
    b2 := .publicKey ya, b3 := .authenticator ta
    kc := kc, ks := ks
    cinit := rfl, sinit := rfl, cfirst := rfl, sfirst := rfl
    cr0 := rfl
    cr1 := ?_, cr2 := ?_, cr3 := ?_
    sr0 := rfl, sr1 := ?_, sr2 := ?_, sr3 := ?_
    cskip := ⟨rfl, rfl, rfl, rfl, rfl, rfl⟩
    sskip := ⟨rfl, rfl, rfl, rfl, rfl, rfl⟩
    cwait := ⟨rfl, rfl, rfl, rfl⟩
    swait := ⟨rfl, rfl, rfl, rfl⟩
    cdone := rfl, sdone := rfl
    cvalid := ?_, svalid := ?_ }, rfl, rfl, rfl, rfl, rfl, ⟨_, rfl⟩, ⟨_, rfl⟩, ⟨_, rfl⟩, ⟨_, rfl, hl⟩, ⟨_, rfl, hl'⟩⟩
  · simp only [client, clientRecv, hfp]
    simp only [Client.agreeSsid] at hcp
    rw [hcp]
    simp only [clientSendKey]
    rw [show Client.generatePublicKey R D rngC cl2' ci c' =
      ((c2, .publicKey yb), (Client.generatePublicKey (G := G) R D rngC cl2' ci c').2) from Prod.ext g1 rfl]
  · simp only [client, clientRecv, g3]
  · simp only [client, clientRecv, g6]
  · simp only [server, serverRecv, server_info_eq R D rngS db kdb _ user sr W salt ps hdb hk, serverSendInfo]
    simp only [Server.agreeSsid] at g2
    rw [g2]
  · simp only [server, serverRecv, g4]
  · simp only [server, serverRecv, g5]
  · intro m hm
    simp only [List.mem_cons, List.not_mem_nil, or_false] at hm
    rcases hm with rfl | rfl | rfl | rfl
    · exact ⟨by cases strong <;> simp [clientTag, clientVariants], hn1, by unfold Slice; omega⟩
    · exact ⟨by cases strong <;> simp [clientTag, clientVariants], hu⟩
    · exact ⟨by cases strong <;> simp [clientTag, clientVariants], trivial⟩
    · exact ⟨by cases strong <;> simp [clientTag, clientVariants], hl⟩
  · intro m hm
    simp only [List.mem_cons, List.not_mem_nil, or_false] at hm
    rcases hm with rfl | rfl | rfl | rfl
    · exact ⟨by cases strong <;> simp [serverTag, serverVariants], hn2, by unfold Slice; omega⟩
    · exact ⟨by cases strong <;> simp [serverTag, serverVariants], groupName_str, hsalt, hps⟩
    · exact ⟨by cases strong <;> simp [serverTag, serverVariants], trivial⟩
    · exact ⟨by cases strong <;> simp [serverTag, serverVariants], hl'⟩

/-- The same for the strong variants; the build has the feature `strong_aucpace`. -/
theorem trace_strong (paramsOk : Bytes → Bool) (fromPs : Bytes → Option Params) (params : Params) (db : StrongDatabase G)
    (kdb : Option (PartialAugDatabase G)) (user pass ci : Bytes) (r : Scalar) (c : σc) (sv : Server.State σs) (sr : σs)
    (c' : σc) (W : G) (q : Scalar) (ps kc ks : Bytes) (hdb : db.lookupVerifierStrong user = some (W, q, ps))
    (hk : ∀ k, kdb = some k → ∃ x, k.lookupLongTermKeypair user = some (x, x • R.base))
    (hu : Slice user) (hps : ParamsStr paramsOk ps) (hfp : fromPs ps = some params)
    (h : Run.loginStrong R D Hs rngC rngS (Run.explicit R D rngC rngS) (fun _ => params) .alloc db kdb (.nonces 16) user pass ci
      r c sv sr c' = .ok (kc, ks)) :
    ∃ T : Trace (clientCodec R true paramsOk) (serverCodec R true paramsOk)
        (client R D Hs rngC fromPs (some r) user pass ci c c') (server R D rngS (.strong db kdb) ci sv sr),
      T.kc = kc ∧ T.ks = ks ∧ T.a0 = .nonce (rngC.fill c 16).1 ∧ (∃ U, T.a1 = .strongUsername user U) ∧
      T.b0 = .nonce (rngS.fill sv.rng 16).1 ∧ (∃ X Z, T.b1 = .strongAugmentationInfo groupName X Z ps) ∧
      (∃ Y, T.a2 = .publicKey Y) ∧ (∃ Y, T.b2 = .publicKey Y) ∧
      (∃ t, T.a3 = .authenticator t ∧ t.length = 64) ∧ (∃ t, T.b3 = .authenticator t ∧ t.length = 64) := by
  have hn1 : (rngC.fill c 16).1.length = 16 := rngC.fill_length _ _
  have hn2 : (rngS.fill sv.rng 16).1.length = 16 := rngS.fill_length _ _
  simp only [Run.loginStrong, Run.ssidStage, Run.ssidByNonces, Client.begin, Server.begin, generateNonce, Res.bind_ok,
    Run.augmentStrong, Client.startAugmentationStrongWith, Run.clientCpaceStrong] at h
  obtain ⟨⟨cl2, sv2⟩, h1, h⟩ := Res.bind_eq_ok.1 h
  obtain ⟨⟨sv2', m⟩, h0, h1⟩ := Res.bind_eq_ok.1 h1
  have h0' := h0
  rw [server_info_strong_eq R D rngS db kdb _ user _ sr W q ps hdb hk] at h0'
  split at h0'
  · cases h0'
  simp only [Res.ok.injEq, Prod.mk.injEq] at h0'
  obtain ⟨rfl, rfl⟩ := h0'
  simp only at h1
  obtain ⟨cl2', hcp, h1'⟩ := Res.bind_eq_ok.1 h1
  simp only [Res.ok.injEq, Prod.mk.injEq] at h1'
  obtain ⟨rfl, rfl⟩ := h1'
  obtain ⟨yb, ya, tb, ta, c3, s3, c2, s2, g1, g2, g3, g4, g5, g6, hl, hl'⟩ := explicit_steps R D rngC rngS h
  refine ⟨{
    c0 := .waitNonce ⟨(rngC.fill c 16).1⟩
    c1 := .waitStrongInfo ⟨computeSsid D (rngS.fill sv.rng 16).1 (rngC.fill c 16).1, user, pass, r⟩
    c2 := .waitKey c2, c3 := .waitAuth c3, c4 := .done kc
    s0 := .waitNonce ⟨sv.secret, (rngS.fill sv.rng 16).1⟩
    s1 := .waitUser ⟨sv.secret, computeSsid D (rngS.fill sv.rng 16).1 (rngC.fill c 16).1⟩
    s2 := .waitKey s2, s3 := .waitAuth s3, s4 := .done ks
    a0 := .nonce (rngC.fill c 16).1, a1 := .strongUsername user ((r * 1) • pointFromHash R D (Digest.update (Digest.update (H 1) user) pass))
    a2 := .publicKey yb, a3 := .authenticator tb
    b0 := .nonce (rngS.fill sv.rng 16).1
    b1 := .strongAugmentationInfo groupName ((Run.serverX rngS kdb user sr).1 • R.base)
      (q • (r * 1) • pointFromHash R D (Digest.update (Digest.update (H 1) user) pass)) ps
    b2 := .publicKey ya, b3 := .authenticator ta
    kc := kc, ks := ks
    cinit := rfl, sinit := rfl, cfirst := rfl, sfirst := rfl
    cr0 := rfl
    cr1 := ?_, cr2 := ?_, cr3 := ?_
    sr0 := rfl, sr1 := ?_, sr2 := ?_, sr3 := ?_
    cskip := ⟨rfl, rfl, rfl, rfl, rfl, rfl⟩
    sskip := ⟨rfl, rfl, rfl, rfl, rfl, rfl⟩
    cwait := ⟨rfl, rfl, rfl, rfl⟩
    swait := ⟨rfl, rfl, rfl, rfl⟩
    cdone := rfl, sdone := rfl
    cvalid := ?_, svalid := ?_ }, rfl, rfl, rfl, ⟨_, rfl⟩, rfl, ⟨_, _, rfl⟩, ⟨_, rfl⟩, ⟨_, rfl⟩, ⟨_, rfl, hl⟩,
    ⟨_, rfl, hl'⟩⟩
  · simp only [client, clientRecv, hfp]
    simp only [Client.agreeSsid] at hcp
    rw [hcp]
    simp only [clientSendKey]
    rw [show Client.generatePublicKey R D rngC cl2' ci c' =
      ((c2, .publicKey yb), (Client.generatePublicKey (G := G) R D rngC cl2' ci c').2) from Prod.ext g1 rfl]
  · simp only [client, clientRecv, g3]
  · simp only [client, clientRecv, g6]
  · simp only [server, serverRecv]
    simp only [Server.agreeSsid] at g2 h0
    rw [h0]
    simp only [serverSendInfo]
    rw [g2]
  · simp only [server, serverRecv, g4]
  · simp only [server, serverRecv, g5]
  · intro m hm
    simp only [List.mem_cons, List.not_mem_nil, or_false] at hm
    rcases hm with rfl | rfl | rfl | rfl
    · exact ⟨by simp [clientTag, clientVariants], hn1, by unfold Slice; omega⟩
    · exact ⟨by simp [clientTag, clientVariants], hu⟩
    · exact ⟨by simp [clientTag, clientVariants], trivial⟩
    · exact ⟨by simp [clientTag, clientVariants], hl⟩
  · intro m hm
    simp only [List.mem_cons, List.not_mem_nil, or_false] at hm
    rcases hm with rfl | rfl | rfl | rfl
    · exact ⟨by simp [serverTag, serverVariants], hn2, by unfold Slice; omega⟩
    · exact ⟨by simp [serverTag, serverVariants], groupName_str, hps⟩
    · exact ⟨by simp [serverTag, serverVariants], trivial⟩
    · exact ⟨by simp [serverTag, serverVariants], hl'⟩

end
end Verif.Aucpace.Examples
