import Verif.Aucpace.World
import Verif.Aucpace.RunLemmas
import Verif.Srp.SafePrime

/-!
# C104: who can take discrete logarithms and knows a list of passwords is accepted as the server

In SRP and in AuCPace with explicit authentication the client shows its proof first (srp/src/client.rs:45-57, aucpace/src/client.rs:833-850).
Who plays the server can test passwords on it before they have to answer, once the secret exponent of the client is known. `dl` is an oracle
for discrete logarithms. A server that plays against such an attacker gives one guess for each session, no more (C99, C100).
-/

namespace Verif.First

theorem search {α β : Type} {f : α → Option β} {l : List α} {a : α} {b : β} (ha : a ∈ l) (h : f a = some b) :
    ∃ a' ∈ l, ∃ b', f a' = some b' ∧ l.findSome? f = some b' := by
  have hs : (l.findSome? f).isSome := List.findSome?_isSome_iff.2 ⟨a, ha, by rw [h]; rfl⟩
  obtain ⟨b', hb⟩ := Option.isSome_iff_exists.1 hs
  obtain ⟨a', ha', hf⟩ := List.exists_of_findSome?_eq_some hb
  exact ⟨a', ha', b', hf, hb⟩

namespace Srp
open _root_.Verif.Srp

variable (D : Digest) (p : SrpGroup)

/-- The false server of SRP. They have sent the salt `s` and the key `B`, and have got `A` and the proof `m1`. They run the client's program
(srp/src/client.rs:189-226) with the discrete logarithm of `A` for each password of the list, and keep the first run that gives `m1`. -/
def impostor (dl : Bytes → Bytes) (list : List Bytes) (I s B A m1 : Bytes) : Option SrpClientVerifier :=
  list.findSome? fun P =>
    match Client.processReply D p (dl A) I P s B with
    | .ok w => if w.proof = m1 then some w else none
    | _ => none

/-- The client's result depends on the secret exponent only through the public key. -/
theorem clientResult_congr (hsafe : SafeGroup p) {a a' : Nat} (ha : 0 < a) (ha' : 0 < a') (h : Spec.A p.n p.g a = Spec.A p.n p.g a')
    (I P s : Bytes) (B : Nat) : clientResult D p.n p.g a I P s B = clientResult D p.n p.g a' I P s B := by
  have : Fact p.n.Prime := ⟨hsafe.1⟩
  have hm : a ≡ a' [MOD p.n - 1] := (SafePrime.pow_eq_iff hsafe a a').1 h
  have key : ∀ (z : ZMod p.n) (t : Nat), z ^ (a + t) = z ^ (a' + t) := by
    intro z t
    rcases eq_or_ne z 0 with rfl | hz
    · rw [zero_pow (by omega), zero_pow (by omega)]
    · have ho : orderOf (Units.mk0 z hz) ∣ p.n - 1 :=
        orderOf_dvd_of_pow_eq_one (by ext; simpa using ZMod.pow_card_sub_one_eq_one hz)
      simpa using congrArg Units.val ((pow_eq_pow_iff_modEq (x := Units.mk0 z hz)).2 ((hm.add_right t).of_dvd ho))
  simp only [clientResult, h, Spec.clientS, key]

/-- **C104** (SRP). Whatever user name, salt and key `B` the false server sends: if the client's password is in the list, the search ends with
a reply that the client accepts, and with the client's session key, or the two inputs of `M1` that are named here collide. -/
theorem C104_srp (hsafe : SafeGroup p) (hs : Verif.Srp.Spec.Sane p.n p.g) {dl : Bytes → Bytes}
    (hdl : ∀ a A : Bytes, 0 < beToNat a → (Client.computePublicEphemeral p a : Res SrpAuthError Bytes) = .ok A →
      0 < beToNat (dl A) ∧ (Client.computePublicEphemeral p (dl A) : Res SrpAuthError Bytes) = .ok A)
    {list : List Bytes} {a I P s A B : Bytes} {v : SrpClientVerifier} (hP : P ∈ list) (ha : 0 < beToNat a)
    (hA : (Client.computePublicEphemeral p a : Res SrpAuthError Bytes) = .ok A)
    (hv : Client.processReply D p a I P s B = .ok v) :
    ∃ w, impostor D p dl list I s B A v.proof = some w ∧
      (v.verifyServer w.m2 = .ok () ∧ w.key = v.key ∨
        D.Collision (A ++ toBytesBE (beToNat B) ++ v.key) (A ++ toBytesBE (beToNat B) ++ w.key)) := by
  obtain ⟨ha', hA'⟩ := hdl a A ha hA
  rw [client_ephemeral_eq p hs.1, Res.ok.injEq] at hA hA'
  have hN : NeZero p.n := ⟨hs.1.ne'⟩
  have hAA : Spec.A p.n p.g (beToNat a) = Spec.A p.n p.g (beToNat (dl A)) := by
    have h := hA.trans hA'.symm
    rw [← enc_cast (Spec.A p.n p.g (beToNat a)), h, enc_cast]
  have hB : beToNat B % p.n ≠ 0 := by
    intro h0
    rw [client_process_eq D p hs, if_pos h0] at hv
    cases hv
  have hrun : ∀ Q, Client.processReply D p (dl A) I Q s B = Client.processReply D p a I Q s B := by
    intro Q
    rw [client_process_ok D p hs _ _ _ _ _ hB, client_process_ok D p hs _ _ _ _ _ hB,
      clientResult_congr D p hsafe ha ha' hAA]
  obtain ⟨Q, -, w, hw, hfind⟩ := search (f := fun Q => match Client.processReply D p (dl A) I Q s B with
    | .ok w => if w.proof = v.proof then some w else none | _ => none) hP (b := v) (by simp only [hrun, hv, if_true])
  refine ⟨w, hfind, ?_⟩
  simp only [hrun, client_process_ok D p hs _ _ _ _ _ hB] at hw
  rw [client_process_ok D p hs _ _ _ _ _ hB, Res.ok.injEq] at hv
  split at hw
  · rename_i hm
    obtain rfl := Option.some.inj hw
    subst hv
    have hm' : D.hash (A ++ toBytesBE (beToNat B) ++ (clientResult D p.n p.g (beToNat a) I P s (beToNat B)).key) =
        D.hash (A ++ toBytesBE (beToNat B) ++ (clientResult D p.n p.g (beToNat a) I Q s (beToNat B)).key) := by
      rw [← hA]; exact hm.symm
    rcases D.eq_or_collision hm' with he | hc
    · have hk := List.append_cancel_left he
      have h2 : (clientResult D p.n p.g (beToNat a) I P s (beToNat B)).m2 = (clientResult D p.n p.g (beToNat a) I Q s (beToNat B)).m2 := by
        show Spec.M2 D _ (clientResult D p.n p.g (beToNat a) I P s (beToNat B)).proof (clientResult D p.n p.g (beToNat a) I P s (beToNat B)).key = 
          Spec.M2 D _ (clientResult D p.n p.g (beToNat a) I Q s (beToNat B)).proof (clientResult D p.n p.g (beToNat a) I Q s (beToNat B)).key
        rw [hk, hm]
      exact Or.inl ⟨by simp [SrpClientVerifier.verifyServer, h2], hk.symm⟩
    · exact Or.inr hc
  · cases hw

/-- **C104** (SRP, built-in groups). The same in each of the seven groups of the crate. -/
theorem C104_srp_builtin (hp : p ∈ [Groups.G_1024, Groups.G_1536, Groups.G_2048, Groups.G_3072, Groups.G_4096, Groups.G_6144, Groups.G_8192])
    {dl : Bytes → Bytes}
    (hdl : ∀ a A : Bytes, 0 < beToNat a → (Client.computePublicEphemeral p a : Res SrpAuthError Bytes) = .ok A →
      0 < beToNat (dl A) ∧ (Client.computePublicEphemeral p (dl A) : Res SrpAuthError Bytes) = .ok A)
    {list : List Bytes} {a I P s A B : Bytes} {v : SrpClientVerifier} (hP : P ∈ list) (ha : 0 < beToNat a)
    (hA : (Client.computePublicEphemeral p a : Res SrpAuthError Bytes) = .ok A)
    (hv : Client.processReply D p a I P s B = .ok v) :
    ∃ w, impostor D p dl list I s B A v.proof = some w ∧
      (v.verifyServer w.m2 = .ok () ∧ w.key = v.key ∨
        D.Collision (A ++ toBytesBE (beToNat B) ++ v.key) (A ++ toBytesBE (beToNat B) ++ w.key)) :=
  C104_srp D p (C62_builtin p hp).1 (C62_builtin p hp).2.1 hdl hP ha hA hv

/-- Such an oracle exists for every group. -/
example : ∃ dl : Bytes → Bytes, ∀ a A : Bytes, 0 < beToNat a → (Client.computePublicEphemeral p a : Res SrpAuthError Bytes) = .ok A →
    0 < beToNat (dl A) ∧ (Client.computePublicEphemeral p (dl A) : Res SrpAuthError Bytes) = .ok A := by
  classical
  refine ⟨fun A => if h : ∃ a : Bytes, 0 < beToNat a ∧ (Client.computePublicEphemeral p a : Res SrpAuthError Bytes) = .ok A then h.choose
    else [], fun a A h0 h => ?_⟩
  have hex : ∃ a : Bytes, 0 < beToNat a ∧ (Client.computePublicEphemeral p a : Res SrpAuthError Bytes) = .ok A := ⟨a, h0, h⟩
  simp only [dif_pos hex]
  exact hex.choose_spec

/-- Discrete logarithms to the base 5 modulo 47, by search. -/
def log47 (A : Bytes) : Bytes :=
  [(((List.range 46).find? fun i => Verif.Srp.Spec.enc (Verif.Srp.Spec.A 47 5 (i + 1)) = A).getD 0 + 1).toUInt8]

/-- The hypotheses are met in the group modulo 47 with SHA-256: `log47` is such an oracle, and the false server, who sends the salt 9 and
`B = 3`, finds the password "b" of a client with the exponent 77 and is accepted. -/
example : SafeGroup ⟨47, 5⟩ ∧ Verif.Srp.Spec.Sane 47 5 ∧
    (∀ a A : Bytes, 0 < beToNat a → (Client.computePublicEphemeral ⟨47, 5⟩ a : Res SrpAuthError Bytes) = .ok A →
      0 < beToNat (log47 A) ∧ (Client.computePublicEphemeral ⟨47, 5⟩ (log47 A) : Res SrpAuthError Bytes) = .ok A) ∧
    (match (Client.computePublicEphemeral ⟨47, 5⟩ [77] : Res SrpAuthError Bytes),
        Client.processReply sha256 ⟨47, 5⟩ [77] (ascii "alice") (ascii "b") [9] [3] with
      | .ok A, .ok v =>
        match impostor sha256 ⟨47, 5⟩ log47 [ascii "a", ascii "b", ascii "c"] (ascii "alice") [9] [3] A v.proof with
        | some w => decide (v.verifyServer w.m2 = .ok () ∧ w.key = v.key)
        | none => false
      | _, _ => false) = true := by
  have hsafe : SafeGroup ⟨47, 5⟩ := ⟨by norm_num, by norm_num,
    (Groups.C11_safe_prime_generator 47 5 (by decide) (by decide) (by decide) (by decide) (by norm_num)).2⟩
  refine ⟨hsafe, by decide +kernel, fun a A _ h => ?_, by decide +kernel⟩
  rw [client_ephemeral_eq _ (by decide), Res.ok.injEq] at h ⊢
  have hmod : Spec.A 47 5 (beToNat a) = Spec.A 47 5 (beToNat a % 46) :=
    (SafePrime.pow_eq_iff hsafe _ _).2 (Nat.mod_modEq _ _).symm
  have htab : ∀ i : Fin 46, 0 < beToNat (log47 (Spec.enc (Spec.A 47 5 i))) ∧
      Spec.enc (Spec.A 47 5 (beToNat (log47 (Spec.enc (Spec.A 47 5 i))))) = Spec.enc (Spec.A 47 5 i) := by decide +kernel
  have := htab ⟨beToNat a % 46, Nat.mod_lt _ (by decide)⟩
  simp only [← hmod] at this
  rw [← h]
  exact this

end Srp

namespace Aucpace
open _root_.Verif.Aucpace _root_.Verif.Aucpace.Spec _root_.Verif.Aucpace.Run

variable {G Params σc : Type} [AddCommGroup G] [Module Scalar G] [DecidableEq G]
variable (R : Ristretto G) (D : Digest) (Hs : PwHasher Params) (rngC : Rng σc)

/-- Runs the client's last step (aucpace/src/client.rs:833-850) with the discrete logarithm of its key `Yb`, and compares the authenticator. -/
def test (dl : G → G → Scalar) (ci : Bytes) (Yb Ya : G) (tb : Bytes) (sub : Client.CPaceSubstep) : Option Client.ExpMutAuth :=
  match Client.receiveServerPubkey R D ⟨sub.ssid, dl (gen R D sub.ssid sub.prs ci) Yb⟩ Ya with
  | .ok (st, .authenticator t) => if t = tb then some st else none
  | _ => none

/-- The false server of AuCPace, with or without long-term key pairs. They have sent `X`, the salt, the parameters and their key `Ya`, and
have got `Yb` and the authenticator `tb`. -/
def impostor (buf : Buf) (dl : G → G → Scalar) (list : List Bytes) (ssid user : Bytes) (X : G) (salt : Bytes) (params : Params)
    (ci : Bytes) (Yb Ya : G) (tb : Bytes) : Option Client.ExpMutAuth :=
  list.findSome? fun pw =>
    match clientCpace R Hs buf ⟨ssid, user, pw⟩ X salt params with
    | .ok sub => test R D dl ci Yb Ya tb sub
    | _ => none

/-- The false server of strong AuCPace. They have answered the blinded point `U` with `q • U`; they put themselves in the client's place with
the blinding value 1. -/
def impostorStrong (buf : Buf) (dl : G → G → Scalar) (list : List Bytes) (ssid user : Bytes) (X : G) (q : Scalar) (params : Params)
    (ci : Bytes) (Yb Ya : G) (tb : Bytes) : Option Client.ExpMutAuth :=
  list.findSome? fun pw =>
    match Client.startAugmentationStrongWith R D ⟨ssid⟩ user pw 1 with
    | (cli, .strongUsername _ U) =>
      match clientCpaceStrong R Hs buf cli X (q • U) params with
      | .ok sub => test R D dl ci Yb Ya tb sub
      | _ => none
    | _ => none

theorem test_ok {dl : G → G → Scalar} (hdl : ∀ (g : G) (y : Scalar), dl g (y • g) • g = y • g) (ci : Bytes) (c : σc)
    {sub : Client.CPaceSubstep} {cli : Client.RecvServerKey} {Yb Ya : G} {st : Client.ExpMutAuth} {tb : Bytes}
    (hgen : (Client.generatePublicKey R D rngC sub ci c).1 = (cli, .publicKey Yb)) (hY : Yb ≠ 0)
    (hrecv : Client.receiveServerPubkey R D cli Ya = .ok (st, .authenticator tb)) : test R D dl ci Yb Ya tb sub = some st := by
  rw [client_generatePublicKey_eq] at hgen
  simp only [Prod.mk.injEq, ClientMessage.publicKey.injEq] at hgen
  obtain ⟨rfl, rfl⟩ := hgen
  set g := gen R D sub.ssid sub.prs ci with hg
  have hg0 : g ≠ 0 := fun h => hY (by rw [h, smul_zero])
  have hlog : dl g (draw (rngC.fill c 64).1 • g) = draw (rngC.fill c 64).1 := smul_left_injective Scalar hg0 (hdl g _)
  simp only [test, ← hg, hlog, hrecv, if_true]

theorem test_accepted (h64 : D.outLen = 64) {dl : G → G → Scalar} {ci : Bytes} {Yb Ya : G} {cli : Client.RecvServerKey}
    {st w : Client.ExpMutAuth} {tb : Bytes} {sub : Client.CPaceSubstep} (hssid : sub.ssid = cli.ssid)
    (hrecv : Client.receiveServerPubkey R D cli Ya = .ok (st, .authenticator tb)) (hw : test R D dl ci Yb Ya tb sub = some w) :
    Client.receiveServerAuthenticator D st w.serverAuthenticator = .ok (computeSessionKey D w.ssid w.sk1) ∨
      D.Collision (inp 4 (st.ssid ++ st.sk1)) (inp 4 (st.ssid ++ w.sk1)) := by
  rw [receiveServerPubkey_eq R D h64] at hrecv
  rw [test, receiveServerPubkey_eq R D h64] at hw
  split at hrecv
  · cases hrecv
  · rename_i h0
    rw [if_neg h0] at hw
    simp only [Res.ok.injEq, Prod.mk.injEq, ClientMessage.authenticator.injEq] at hrecv
    obtain ⟨rfl, rfl⟩ := hrecv
    simp only [hssid] at hw
    split at hw
    · rename_i ht
      obtain rfl := Option.some.inj hw
      rcases D.eq_or_collision ht.symm with he | hc
      · have hk := List.append_cancel_left (List.cons_injective (List.cons_injective (List.cons_injective (List.cons_injective he))))
        left
        simp [Client.receiveServerAuthenticator, hk]
      · exact Or.inr hc
    · cases hw

/-- **C104** (AuCPace). Whatever `X`, salt, parameters and key the false server sends: if the client's password is in the list, the search ends
with an authenticator that the client accepts, and with its session key, or the two inputs of `H4` that are named here collide. -/
theorem C104_aucpace (h64 : D.outLen = 64) (buf : Buf) {dl : G → G → Scalar} (hdl : ∀ (g : G) (y : Scalar), dl g (y • g) • g = y • g)
    {list : List Bytes} {ssid user pw salt ci tb : Bytes} {X Yb Ya : G} {params : Params} {c : σc} {sub : Client.CPaceSubstep}
    {cli : Client.RecvServerKey} {st : Client.ExpMutAuth} (hpw : pw ∈ list)
    (hsub : clientCpace R Hs buf ⟨ssid, user, pw⟩ X salt params = .ok sub)
    (hgen : (Client.generatePublicKey R D rngC sub ci c).1 = (cli, .publicKey Yb)) (hY : Yb ≠ 0)
    (hrecv : Client.receiveServerPubkey R D cli Ya = .ok (st, .authenticator tb)) :
    ∃ w, impostor R D Hs buf dl list ssid user X salt params ci Yb Ya tb = some w ∧
      (Client.receiveServerAuthenticator D st w.serverAuthenticator = .ok (computeSessionKey D w.ssid w.sk1) ∨
        D.Collision (inp 4 (st.ssid ++ st.sk1)) (inp 4 (st.ssid ++ w.sk1))) := by
  have hss : ∀ {pw' sub'}, clientCpace R Hs buf ⟨ssid, user, pw'⟩ X salt params = .ok sub' → sub'.ssid = ssid := by
    intro pw' sub' h
    rw [clientCpace_eq] at h
    split at h
    · cases h
    · split at h
      · obtain ⟨_, _, h⟩ := Res.bind_eq_ok.1 h
        obtain rfl := Res.ok.inj h
        rfl
      · cases h
  have hcli : cli.ssid = sub.ssid := by
    rw [client_generatePublicKey_eq] at hgen
    rw [← (Prod.mk.inj hgen).1]
  obtain ⟨pw', -, w, hw, hfind⟩ := search (f := fun pw => match clientCpace R Hs buf ⟨ssid, user, pw⟩ X salt params with
    | .ok sub => test R D dl ci Yb Ya tb sub | _ => none) hpw (b := st)
    (by simp only [hsub]; exact test_ok R D rngC hdl ci c hgen hY hrecv)
  refine ⟨w, hfind, ?_⟩
  split at hw
  · rename_i sub' hsub'
    exact test_accepted R D h64 ((hss hsub').trans ((hss hsub).symm.trans hcli.symm)) hrecv hw
  · cases hw

/-- **C104** (strong AuCPace). The same, when the false server answers the blinded point with `q` times that point. -/
theorem C104_strong (h64 : D.outLen = 64) (buf : Buf) {dl : G → G → Scalar} (hdl : ∀ (g : G) (y : Scalar), dl g (y • g) • g = y • g)
    {list : List Bytes} {ssid user pw ci tb : Bytes} {X Yb Ya U : G} {q r : Scalar} (hr : r ≠ 0) {params : Params} {c : σc}
    {sub : Client.CPaceSubstep} {aug : Client.StrongAugLayer} {cli : Client.RecvServerKey} {st : Client.ExpMutAuth} (hpw : pw ∈ list)
    (hstart : Client.startAugmentationStrongWith R D ⟨ssid⟩ user pw r = (aug, .strongUsername user U))
    (hsub : clientCpaceStrong R Hs buf aug X (q • U) params = .ok sub)
    (hgen : (Client.generatePublicKey R D rngC sub ci c).1 = (cli, .publicKey Yb)) (hY : Yb ≠ 0)
    (hrecv : Client.receiveServerPubkey R D cli Ya = .ok (st, .authenticator tb)) :
    ∃ w, impostorStrong R D Hs buf dl list ssid user X q params ci Yb Ya tb = some w ∧
      (Client.receiveServerAuthenticator D st w.serverAuthenticator = .ok (computeSessionKey D w.ssid w.sk1) ∨
        D.Collision (inp 4 (st.ssid ++ st.sk1)) (inp 4 (st.ssid ++ w.sk1))) := by
  have hblind : ∀ pw', clientCpaceStrong R Hs buf ⟨ssid, user, pw', 1⟩ X (q • strongPoint R D user pw') params =
      clientCpaceStrong R Hs buf ⟨ssid, user, pw', r⟩ X (q • r • strongPoint R D user pw') params := by
    intro pw'
    have e : r⁻¹ • q • r • strongPoint R D user pw' = q • strongPoint R D user pw' := by
      rw [smul_comm q r, inv_smul_smul₀ hr]
    cases buf with
    | alloc => simp only [clientCpaceStrong, clientCpaceStrong_alloc_eq, inv_one, one_smul, e]
    | fixed n => simp only [clientCpaceStrong, clientCpaceStrong_fixed_eq, inv_one, one_smul, e]
  have hss : ∀ {pw' sub'}, clientCpaceStrong R Hs buf ⟨ssid, user, pw', 1⟩ X (q • strongPoint R D user pw') params = .ok sub' →
      sub'.ssid = ssid := by
    intro pw' sub' h
    cases buf with
    | alloc =>
      rw [clientCpaceStrong, clientCpaceStrong_alloc_eq] at h
      split at h
      · cases h
      · obtain ⟨_, _, h⟩ := Res.bind_eq_ok.1 h
        obtain rfl := Res.ok.inj h
        rfl
    | fixed n =>
      rw [clientCpaceStrong, clientCpaceStrong_fixed_eq] at h
      split at h
      · cases h
      · split at h
        · obtain ⟨_, _, h⟩ := Res.bind_eq_ok.1 h
          obtain rfl := Res.ok.inj h
          rfl
        · cases h
  have hcli : cli.ssid = sub.ssid := by
    rw [client_generatePublicKey_eq] at hgen
    rw [← (Prod.mk.inj hgen).1]
  have hst : ∀ (r' : Scalar) (pw' : Bytes), Client.startAugmentationStrongWith R D ⟨ssid⟩ user pw' r' =
      (⟨ssid, user, pw', r'⟩, .strongUsername user (r' • strongPoint R D user pw')) := by
    intro r' pw'
    simp only [Client.startAugmentationStrongWith, strongPoint_eq, mul_one]
  rw [hst] at hstart
  simp only [Prod.mk.injEq, ClientMessage.strongUsername.injEq, true_and] at hstart
  obtain ⟨rfl, rfl⟩ := hstart
  rw [← hblind] at hsub
  simp only [impostorStrong, hst, one_smul]
  obtain ⟨pw', -, w, hw, hfind⟩ := search
    (f := fun pw => match clientCpaceStrong R Hs buf ⟨ssid, user, pw, 1⟩ X (q • strongPoint R D user pw) params with
      | .ok sub => test R D dl ci Yb Ya tb sub | _ => none) hpw (b := st)
    (by simp only [hsub]; exact test_ok R D rngC hdl ci c hgen hY hrecv)
  refine ⟨w, hfind, ?_⟩
  split at hw
  · rename_i sub' hsub'
    exact test_accepted R D h64 ((hss hsub').trans ((hss hsub).symm.trans hcli.symm)) hrecv hw
  · cases hw

/-- **C104** (recorded session of strong AuCPace). Who has only listened takes `q` from the blinded point and the blinded salt `V` of the server,
and has the session key. (In the other variants the listener runs the same search as the false server.) -/
theorem C104_strong_recorded (h64 : D.outLen = 64) (buf : Buf) {dl : G → G → Scalar}
    (hdl : ∀ (g : G) (y : Scalar), dl g (y • g) • g = y • g)
    {list : List Bytes} {ssid user pw ci tb : Bytes} {X Yb Ya U V : G} {q r : Scalar} (hr : r ≠ 0) {params : Params} {c : σc}
    {sub : Client.CPaceSubstep} {aug : Client.StrongAugLayer} {cli : Client.RecvServerKey} {st : Client.ExpMutAuth} (hpw : pw ∈ list)
    (hstart : Client.startAugmentationStrongWith R D ⟨ssid⟩ user pw r = (aug, .strongUsername user U)) (hU : U ≠ 0) (hV : V = q • U)
    (hsub : clientCpaceStrong R Hs buf aug X V params = .ok sub)
    (hgen : (Client.generatePublicKey R D rngC sub ci c).1 = (cli, .publicKey Yb)) (hY : Yb ≠ 0)
    (hrecv : Client.receiveServerPubkey R D cli Ya = .ok (st, .authenticator tb)) {key : Bytes}
    (hkey : Client.receiveServerAuthenticator D st st.serverAuthenticator = .ok key) :
    ∃ w, impostorStrong R D Hs buf dl list ssid user X (dl U V) params ci Yb Ya tb = some w ∧
      (computeSessionKey D w.ssid w.sk1 = key ∨ D.Collision (inp 4 (st.ssid ++ st.sk1)) (inp 4 (st.ssid ++ w.sk1))) := by
  have hq : dl U V = q := by
    rw [hV]
    exact smul_left_injective Scalar hU (hdl U q)
  rw [hV] at hsub
  obtain ⟨w, hw, h⟩ := C104_strong R D Hs rngC h64 buf hdl hr hpw hstart hsub hgen hY hrecv
  refine ⟨w, by rw [hq]; exact hw, h.imp_left fun ha => ?_⟩
  simp only [Client.receiveServerAuthenticator] at ha hkey
  split at ha
  · split at hkey
    · exact (Res.ok.inj ha).symm.trans (Res.ok.inj hkey)
    · cases hkey
  · cases ha

/-- The hypotheses are met: in the example group discrete logarithms are quotients, and the false servers of both variants find the password
and are accepted. -/
example : sha512.outLen = 64 ∧ (∀ g y : Scalar, (y • g * g⁻¹) • g = y • g) ∧ (11 : Scalar) ≠ 0 ∧
    (let dl : Scalar → Scalar → Scalar := fun g Y => Y * g⁻¹
    let list := [ascii "wrong", World.pass, ascii "other"]
    (match clientCpace Ristretto.toy World.hasher .alloc ⟨World.bytes 2 64, World.user, World.pass⟩ 5 (World.bytes 7 16) () with
      | .ok sub =>
        match Client.generatePublicKey Ristretto.toy sha512 Rng.replay sub (ascii "ci") (World.bytes 4 64) with
        | ((cli, .publicKey Yb), _) =>
          match Client.receiveServerPubkey Ristretto.toy sha512 cli 3 with
          | .ok (st, .authenticator tb) =>
            match impostor Ristretto.toy sha512 World.hasher .alloc dl list (World.bytes 2 64) World.user 5 (World.bytes 7 16) ()
              (ascii "ci") Yb 3 tb with
            | some w => decide (Yb ≠ 0 ∧
              Client.receiveServerAuthenticator sha512 st w.serverAuthenticator = .ok (computeSessionKey sha512 w.ssid w.sk1))
            | none => false
          | _ => false
        | _ => false
      | _ => false) = true ∧
    (match Client.startAugmentationStrongWith Ristretto.toy sha512 ⟨World.bytes 2 64⟩ World.user World.pass 11 with
      | (aug, .strongUsername _ U) =>
        match clientCpaceStrong Ristretto.toy World.hasher .alloc aug 5 ((6 : Scalar) • U) () with
        | .ok sub =>
          match Client.generatePublicKey Ristretto.toy sha512 Rng.replay sub (ascii "ci") (World.bytes 4 64) with
          | ((cli, .publicKey Yb), _) =>
            match Client.receiveServerPubkey Ristretto.toy sha512 cli 3 with
            | .ok (st, .authenticator tb) =>
              match impostorStrong Ristretto.toy sha512 World.hasher .alloc dl list (World.bytes 2 64) World.user 5 6 ()
                (ascii "ci") Yb 3 tb with
              | some w => decide (Yb ≠ 0 ∧
                Client.receiveServerAuthenticator sha512 st w.serverAuthenticator = .ok (computeSessionKey sha512 w.ssid w.sk1))
              | none => false
            | _ => false
          | _ => false
        | _ => false
      | _ => false) = true) := by
  refine ⟨rfl, fun g y => ?_, by decide +kernel, by decide +kernel⟩
  rcases eq_or_ne g 0 with rfl | hg
  · simp
  · rw [smul_eq_mul, smul_eq_mul, mul_assoc, inv_mul_cancel₀ hg, mul_one]

end Aucpace

end Verif.First
