import Verif.Aucpace.ExamplesLemmas
import Verif.Aucpace.World

/-!
# Properties of the example programs (C63-C66)
-/

set_option linter.unusedSectionVars false

namespace Verif.Aucpace.Examples
open Verif.Stream Wire Run

section
variable {G : Type} [AddCommGroup G] [Module Scalar G] [DecidableEq G] (R : Ristretto G) (D : Digest)
  {Params : Type} (Hs : PwHasher Params) {σc σs σr : Type} (rngC : Rng σc) (rngS : Rng σs) (rngR : Rng σr)

/-! ## Sizes of messages -/

theorem enc_client_length (strong : Bool) (paramsOk : Bytes → Bool) :
    (∀ n : Bytes, n.length = 16 → ((clientCodec R strong paramsOk).enc (.nonce n : ClientMessage G)).length = 28) ∧
    (∀ u, ((clientCodec R strong paramsOk).enc (.username u : ClientMessage G)).length = 12 + u.length) ∧
    (∀ u U, ((clientCodec R strong paramsOk).enc (.strongUsername u U)).length = 44 + u.length) ∧
    (∀ Y, ((clientCodec R strong paramsOk).enc (.publicKey Y)).length = 36) ∧
    (∀ t : Bytes, t.length = 64 → ((clientCodec R strong paramsOk).enc (.authenticator t : ClientMessage G)).length = 76) := by
  refine ⟨fun n h => ?_, fun u => ?_, fun u U => ?_, fun Y => ?_, fun t h => ?_⟩ <;>
    simp only [clientCodec, encClient, clientBody, encBytes, bincode, List.length_append, leFixed_length,
      R.compress_length] <;> omega

theorem enc_server_length (strong : Bool) (paramsOk : Bytes → Bool) :
    (∀ n : Bytes, n.length = 16 → ((serverCodec R strong paramsOk).enc (.nonce n : ServerMessage G)).length = 28) ∧
    (∀ X salt ps, ((serverCodec R strong paramsOk).enc (.augmentationInfo groupName X salt ps)).length =
      72 + salt.length + ps.length) ∧
    (∀ X Z ps, ((serverCodec R strong paramsOk).enc (.strongAugmentationInfo groupName X Z ps)).length =
      96 + ps.length) ∧
    (∀ Y, ((serverCodec R strong paramsOk).enc (.publicKey Y)).length = 36) ∧
    (∀ t : Bytes, t.length = 64 → ((serverCodec R strong paramsOk).enc (.authenticator t : ServerMessage G)).length = 76) := by
  have hg : groupName.length = 12 := by decide
  refine ⟨fun n h => ?_, fun X salt ps => ?_, fun X Z ps => ?_, fun Y => ?_, fun t h => ?_⟩ <;>
    simp only [serverCodec, encServer, serverBody, encBytes, bincode, List.length_append, leFixed_length,
      R.compress_length, hg] <;> omega

/-- The client reads the server's nonce; the server's first two reads return `chunk₁` and `chunk₂`, together what the
client has written. -/
theorem two_reads (strong : Bool) (paramsOk : Bytes → Bool) (okC okS : Bytes → Prop) (fromPs : Bytes → Option Params)
    (db : ServerDb G) (w v pass ci : Bytes) (c c' : σc) (sv : Server.State σs) (sr : σs) (chunk₁ chunk₂ r₁ r₂ : Bytes)
    (hcat : chunk₁ ++ chunk₂ = (clientCodec R strong paramsOk).enc (.nonce (rngC.fill c 16).1) ++
      (clientCodec R strong paramsOk).enc (.username w))
    (h1 : (clientCodec R strong paramsOk).dec chunk₁ = some (.nonce (rngC.fill c 16).1, r₁))
    (h2 : (clientCodec R strong paramsOk).dec chunk₂ = some (.username v, r₂))
    (hne1 : chunk₁ ≠ []) (hne2 : chunk₂ ≠ []) (hl1 : chunk₁.length ≤ 1024) (hl2 : chunk₂.length ≤ 1024)
    (hok1 : okS chunk₁) (hok2 : okS chunk₂)
    (hokC : okC ((serverCodec R strong paramsOk).enc (.nonce (rngS.fill sv.rng 16).1))) :
    ∃ x, Reach (clientCodec R strong paramsOk) (serverCodec R strong paramsOk)
        (client R D Hs rngC fromPs none w pass ci c c') (server R D rngS db ci sv sr) 1024 okC okS 3 x ∧
      x.toServer = [] ∧
      x.server = ((serverRecv R D rngS db ci sr
        (.waitUser ⟨sv.secret, computeSsid D (rngS.fill sv.rng 16).1 (rngC.fill c 16).1⟩) (.username v)).map Prod.fst) ∧
      x.toClient = (serverCodec R strong paramsOk).encs (((serverRecv R D rngS db ci sr
        (.waitUser ⟨sv.secret, computeSsid D (rngS.fill sv.rng 16).1 (rngC.fill c 16).1⟩) (.username v)).map
          Prod.snd).getD []) := by
  have hn2 : (rngS.fill sv.rng 16).1.length = 16 := rngS.fill_length _ _
  have hB := (serverCodec R strong paramsOk).dec_enc (.nonce (rngS.fill sv.rng 16).1) []
    ⟨by cases strong <;> simp [serverTag, serverVariants], hn2, by unfold Slice; omega⟩
  rw [List.append_nil] at hB
  have hst : start (clientCodec R strong paramsOk) (serverCodec R strong paramsOk)
      (client R D Hs rngC fromPs none w pass ci c c') (server R D rngS db ci sv sr) =
      ⟨some (.waitNonce ⟨(rngC.fill c 16).1⟩), some (.waitNonce ⟨sv.secret, (rngS.fill sv.rng 16).1⟩),
        (clientCodec R strong paramsOk).enc (.nonce (rngC.fill c 16).1),
        (serverCodec R strong paramsOk).enc (.nonce (rngS.fill sv.rng 16).1) ++ []⟩ := by
    simp only [start, client, server, Client.begin, Server.begin, generateNonce, Codec.encs, List.flatMap_cons,
      List.flatMap_nil, List.append_nil]
  have s1 := Step.client (KA := clientCodec R strong paramsOk) (KB := serverCodec R strong paramsOk)
    (C := client R D Hs rngC fromPs none w pass ci c c') (S := server R D rngS db ci sv sr) (buf := 1024) (okC := okC)
    (okS := okS) (.waitNonce ⟨(rngC.fill c 16).1⟩) (some (.waitNonce ⟨sv.secret, (rngS.fill sv.rng 16).1⟩))
    ((clientCodec R strong paramsOk).enc (.nonce (rngC.fill c 16).1))
    ((serverCodec R strong paramsOk).enc (.nonce (rngS.fill sv.rng 16).1)) [] rfl (Codec.enc_ne _ _)
    (by rw [(enc_server_length R strong paramsOk).1 _ hn2]; omega) hokC
  have r1 : react (serverCodec R strong paramsOk) (clientCodec R strong paramsOk)
      (client R D Hs rngC fromPs none w pass ci c c') (.waitNonce ⟨(rngC.fill c 16).1⟩)
      ((serverCodec R strong paramsOk).enc (.nonce (rngS.fill sv.rng 16).1)) =
      (some (.waitInfo ⟨computeSsid D (rngS.fill sv.rng 16).1 (rngC.fill c 16).1, w, pass⟩),
        (clientCodec R strong paramsOk).enc (.username w)) := by
    simp only [react, hB, client, clientRecv, Client.agreeSsid, Client.startAugmentation, Codec.encs,
      List.flatMap_cons, List.flatMap_nil, List.append_nil]
  rw [r1, ← hst] at s1
  simp only [← hcat] at s1
  have s2 := Step.server (KA := clientCodec R strong paramsOk) (KB := serverCodec R strong paramsOk)
    (C := client R D Hs rngC fromPs none w pass ci c c') (S := server R D rngS db ci sv sr) (buf := 1024) (okC := okC)
    (okS := okS) (some (.waitInfo ⟨computeSsid D (rngS.fill sv.rng 16).1 (rngC.fill c 16).1, w, pass⟩))
    (.waitNonce ⟨sv.secret, (rngS.fill sv.rng 16).1⟩) [] chunk₁ chunk₂ rfl hne1 hl1 hok1
  have r2 : react (clientCodec R strong paramsOk) (serverCodec R strong paramsOk)
      (server R D rngS db ci sv sr) (.waitNonce ⟨sv.secret, (rngS.fill sv.rng 16).1⟩) chunk₁ =
      (some (.waitUser ⟨sv.secret, computeSsid D (rngS.fill sv.rng 16).1 (rngC.fill c 16).1⟩), []) := by
    simp only [react, h1, server, serverRecv, Server.agreeSsid, Codec.encs, List.flatMap_nil]
  rw [r2] at s2
  have s3 := Step.server (KA := clientCodec R strong paramsOk) (KB := serverCodec R strong paramsOk)
    (C := client R D Hs rngC fromPs none w pass ci c c') (S := server R D rngS db ci sv sr) (buf := 1024) (okC := okC)
    (okS := okS) (some (.waitInfo ⟨computeSsid D (rngS.fill sv.rng 16).1 (rngC.fill c 16).1, w, pass⟩))
    (.waitUser ⟨sv.secret, computeSsid D (rngS.fill sv.rng 16).1 (rngC.fill c 16).1⟩) ([] ++ []) chunk₂ [] rfl hne2 hl2 hok2
  rw [List.append_nil] at s3
  refine ⟨_, .step (.step (.step .start s1) s2) s3, rfl, ?_, ?_⟩
  · simp only [react, h2, server]
    cases serverRecv R D rngS db ci sr
      (.waitUser ⟨sv.secret, computeSsid D (rngS.fill sv.rng 16).1 (rngC.fill c 16).1⟩) (.username v) <;> rfl
  · simp only [react, h2, server]
    cases serverRecv R D rngS db ci sr
      (.waitUser ⟨sv.secret, computeSsid D (rngS.fill sv.rng 16).1 (rngC.fill c 16).1⟩) (.username v) <;> rfl

/-! ## C63: the TCP programs -/

/-- Every way of carrying on ends after at most eight reads, with both programs holding `k`. -/
def Completes {A B : Type} (KA : Codec A) (KB : Codec B) (C : Proc B A) (S : Proc A B) (buf : Nat) (k : Bytes) : Prop :=
  ∀ n x, Reach KA KB C S buf (single KB) (single KA) n x →
    n ≤ 8 ∧ ((∃ y, Step KA KB C S buf (single KB) (single KA) x y) ∨
      ∃ cl sv, x.client = some cl ∧ x.server = some sv ∧ C.result cl = some k ∧ S.result sv = some k)

/-- Whoever finishes holds `k`, if no read returns the end of one message together with the beginning of another
(several whole messages, or part of a message, are allowed). -/
def Safe {A B : Type} (KA : Codec A) (KB : Codec B) (C : Proc B A) (S : Proc A B) (buf : Nat) (k : Bytes) : Prop :=
  ∀ n x, Reach KA KB C S buf (wholeOrPart KB) (wholeOrPart KA) n x →
    (∀ st k', x.client = some st → C.result st = some k' → k' = k) ∧
    (∀ st k', x.server = some st → S.result st = some k' → k' = k)

/-- Some way of carrying on, with reads of at most `buf` bytes, ends with both programs waiting for ever. -/
def Deadlocks {A B : Type} (KA : Codec A) (KB : Codec B) (C : Proc B A) (S : Proc A B) (buf : Nat) : Prop :=
  ∃ n x, Reach KA KB C S buf anything anything n x ∧
    (∃ cl sv, x.client = some cl ∧ x.server = some sv ∧ C.result cl = none ∧ S.result sv = none) ∧
    ∀ y, ¬ Step KA KB C S buf anything anything x y

theorem completes_of_trace {A B : Type} {KA : Codec A} {KB : Codec B} {C : Proc B A} {S : Proc A B}
    (T : Trace KA KB C S) {buf : Nat} {k : Bytes} (hc : T.kc = k) (hs : T.ks = k)
    (hA : ∀ m ∈ [T.a0, T.a1, T.a2, T.a3], (KA.enc m).length ≤ buf)
    (hB : ∀ m ∈ [T.b0, T.b1, T.b2, T.b3], (KB.enc m).length ≤ buf) : Completes KA KB C S buf k := by
  intro n x h
  obtain ⟨h1, h2⟩ := T.script.single_complete hB hA h
  refine ⟨h1, h2.imp id ?_⟩
  rintro ⟨-, cl, sv, g1, g2, g3, g4⟩
  exact ⟨cl, sv, g1, g2, g3.trans (congrArg some hc), g4.trans (congrArg some hs)⟩

theorem safe_of_trace {strong : Bool} {paramsOk : Bytes → Bool} {C : Proc (ServerMessage G) (ClientMessage G)}
    {S : Proc (ClientMessage G) (ServerMessage G)}
    (T : Trace (clientCodec R strong paramsOk) (serverCodec R strong paramsOk) C S) {buf : Nat} {k : Bytes}
    (hc : T.kc = k) (hs : T.ks = k) :
    Safe (clientCodec R strong paramsOk) (serverCodec R strong paramsOk) C S buf k := by
  intro n x h
  have h' := T.script.aligned_safe (h.mono (okC' := aligned _) (okS' := aligned _)
    (by
      rintro c (hc | ⟨m, rest, hv, hr, he⟩)
      · exact Or.inl hc
      · exact Or.inr (server_part R strong paramsOk m c rest hv hr he))
    (by
      rintro c (hc | ⟨m, rest, hv, hr, he⟩)
      · exact Or.inl hc
      · exact Or.inr (client_part R strong paramsOk m c rest hv hr he)))
  exact ⟨fun st k' h1 h2 => (h'.1 st k' h1 h2).trans hc, fun st k' h1 h2 => (h'.2 st k' h1 h2).trans hs⟩

/-- The salt of a registration is a `SaltString`. -/
theorem register_salt {buf : Buf} {s s' : σr} {user pass salt ps : Bytes} {params : Params} {W : G}
    (hreg : Run.register R Hs rngR buf s user pass params = .ok (.registration user salt ps W, s')) : SaltStr salt := by
  rw [register_eq] at hreg
  split at hreg
  · obtain ⟨w, -, h⟩ := Res.bind_eq_ok.1 hreg
    obtain ⟨ps', -, h⟩ := Res.bind_eq_ok.1 h
    simp only [Res.ok.injEq, Prod.mk.injEq, ClientMessage.registration.injEq] at h
    rw [← h.1.2.1]
    have hl : (rngR.fill s 16).1.length = 16 := rngR.fill_length _ _
    refine ⟨?_, ?_, fun c hc => (Base64.isSaltChar_iff c).1 (Base64.encode_chars _ c hc)⟩
    · rw [Base64.encode_length]; omega
    · rw [Base64.encode_length]; omega
  · cases hreg

/-- **C63 (plain and partially augmented).** After a registration, with the entry in the database and draws that are not
degenerate (`hok`), both programs hold the same key when every read returns exactly one message; and when reads return
several messages or parts of messages, a program that finishes holds that key. Missing: reads that return the end of one
message and the beginning of another; and completion fails as soon as messages are joined (`C63_negation`). -/
theorem C63_partial (h64 : D.outLen = 64) (strong : Bool) (paramsOk : Bytes → Bool)
    (bufR : Buf) (s s' : σr) (user pass salt ps : Bytes) (params : Params) (W : G)
    (hreg : Run.register R Hs rngR bufR s user pass params = .ok (.registration user salt ps W, s'))
    (hparams : ParamsStr paramsOk ps) (hlen : ps.length ≤ 127) (huser : user.length ≤ 1012)
    (db : Database G) (hdb : db.lookupVerifier user = some (W, salt, ps)) (kdb : Option (PartialAugDatabase G))
    (hk : ∀ k, kdb = some k → ∃ x, k.lookupLongTermKeypair user = some (x, x • R.base))
    (fromPs : Bytes → Option Params) (hps : fromPs ps = some params) (ci : Bytes) (c c' : σc) (sv : Server.State σs) (sr : σs)
    (hok : Run.login R D Hs rngC rngS (Run.explicit R D rngC rngS) (fun _ => params) .alloc db kdb (.nonces 16) user pass ci
      c sv sr c' ≠ .err .illegalPointError) :
    ∃ k : Bytes, k.length = 64 ∧
      Completes (clientCodec R strong paramsOk) (serverCodec R strong paramsOk)
        (client R D Hs rngC fromPs none user pass ci c c') (server R D rngS (.plain db kdb) ci sv sr) 1024 k ∧
      Safe (clientCodec R strong paramsOk) (serverCodec R strong paramsOk)
        (client R D Hs rngC fromPs none user pass ci c c') (server R D rngS (.plain db kdb) ci sv sr) 1024 k := by
  obtain ⟨k, hkl, hlog⟩ := (C32_same_key R D Hs rngC rngS rngR h64 bufR .alloc s s' user pass salt ps params W hreg db
    hdb kdb hk (fun _ => params) rfl trivial (.nonces 16) trivial ci c c' sv sr).resolve_right hok
  have hsalt := register_salt R Hs rngR hreg
  obtain ⟨T, hkc, hks, ha0, ha1, hb0, ⟨X, hb1⟩, ⟨Y, ha2⟩, ⟨Y', hb2⟩, ⟨t, ha3, hl3⟩, ⟨t', hb3, hl3'⟩⟩ :=
    trace_plain R D Hs rngC rngS strong paramsOk fromPs params db kdb user pass ci c sv sr c' W salt ps k k hdb hk
      (by unfold Slice; omega) hsalt hparams hps hlog
  refine ⟨k, hkl, completes_of_trace T hkc hks ?_ ?_, safe_of_trace R T hkc hks⟩
  · obtain ⟨e1, e2, e3, e4, e5⟩ := enc_client_length R strong paramsOk
    intro m hm
    simp only [List.mem_cons, List.not_mem_nil, or_false, ha0, ha1, ha2, ha3] at hm
    rcases hm with rfl | rfl | rfl | rfl
    · rw [e1 _ (rngC.fill_length _ _)]; omega
    · rw [e2]; omega
    · rw [e4]; omega
    · rw [e5 _ hl3]; omega
  · obtain ⟨e1, e2, e3, e4, e5⟩ := enc_server_length R strong paramsOk
    have := hsalt.2.1
    intro m hm
    simp only [List.mem_cons, List.not_mem_nil, or_false, hb0, hb1, hb2, hb3] at hm
    rcases hm with rfl | rfl | rfl | rfl
    · rw [e1 _ (rngS.fill_length _ _)]; omega
    · rw [e2]; omega
    · rw [e4]; omega
    · rw [e5 _ hl3']; omega

/-- **C63 (negation).** Every such run can also end with both programs waiting for ever: the client's nonce and username
arrive in one read of the server, which drops the username. -/
theorem C63_negation (h64 : D.outLen = 64) (strong : Bool) (paramsOk : Bytes → Bool)
    (bufR : Buf) (s s' : σr) (user pass salt ps : Bytes) (params : Params) (W : G)
    (hreg : Run.register R Hs rngR bufR s user pass params = .ok (.registration user salt ps W, s'))
    (hparams : ParamsStr paramsOk ps) (huser : user.length ≤ 984)
    (db : Database G) (hdb : db.lookupVerifier user = some (W, salt, ps)) (kdb : Option (PartialAugDatabase G))
    (hk : ∀ k, kdb = some k → ∃ x, k.lookupLongTermKeypair user = some (x, x • R.base))
    (fromPs : Bytes → Option Params) (hps : fromPs ps = some params) (ci : Bytes) (c c' : σc) (sv : Server.State σs) (sr : σs)
    (hok : Run.login R D Hs rngC rngS (Run.explicit R D rngC rngS) (fun _ => params) .alloc db kdb (.nonces 16) user pass ci
      c sv sr c' ≠ .err .illegalPointError) :
    Deadlocks (clientCodec R strong paramsOk) (serverCodec R strong paramsOk)
      (client R D Hs rngC fromPs none user pass ci c c') (server R D rngS (.plain db kdb) ci sv sr) 1024 := by
  obtain ⟨k, hkl, hlog⟩ := (C32_same_key R D Hs rngC rngS rngR h64 bufR .alloc s s' user pass salt ps params W hreg db
    hdb kdb hk (fun _ => params) rfl trivial (.nonces 16) trivial ci c c' sv sr).resolve_right hok
  obtain ⟨T, -, -, ha0, ha1, hb0, -⟩ :=
    trace_plain R D Hs rngC rngS strong paramsOk fromPs params db kdb user pass ci c sv sr c' W salt ps k k hdb hk
      (by unfold Slice; omega) (register_salt R Hs rngR hreg) hparams hps hlog
  obtain ⟨e1, e2, -⟩ := enc_client_length R strong paramsOk
  obtain ⟨x, hx, hs⟩ := T.deadlock_server 1024
    (by rw [hb0, (enc_server_length R strong paramsOk).1 _ (rngS.fill_length _ _)]; omega)
    (by rw [ha0, ha1, e1 _ (rngC.fill_length _ _), e2]; omega)
  exact ⟨2, x, hx, hs⟩

/-- **C63 (message boundaries).** Why arbitrary reads are missing from `C63_partial`: the server does not notice where one
message ends and the next begins. For every username `v` there is another username `u`, the bytes of the message that
announces `v`, with which an unmodified client can drive the server to the place where a client of `v` drives it: the
server's first read returns the client's nonce and the first twelve bytes of the next message, the second read the rest.
The server has then looked up `v` and answers as it answers `v`. -/
theorem C63_confusion (strong : Bool) (paramsOk : Bytes → Bool) (fromPs : Bytes → Option Params) (v pass pass' ci : Bytes)
    (hv : v.length ≤ 1012) (db : Database G) (W : G) (salt ps : Bytes) (hdb : db.lookupVerifier v = some (W, salt, ps))
    (kdb : Option (PartialAugDatabase G))
    (hk : ∀ k, kdb = some k → ∃ x, k.lookupLongTermKeypair v = some (x, x • R.base))
    (c c' : σc) (sv : Server.State σs) (sr : σs) :
    ∃ u, u ≠ v ∧ ∃ x y,
      Reach (clientCodec R strong paramsOk) (serverCodec R strong paramsOk)
        (client R D Hs rngC fromPs none u pass' ci c c') (server R D rngS (.plain db kdb) ci sv sr) 1024
        anything anything 3 x ∧
      Reach (clientCodec R strong paramsOk) (serverCodec R strong paramsOk)
        (client R D Hs rngC fromPs none v pass ci c c') (server R D rngS (.plain db kdb) ci sv sr) 1024
        (single (serverCodec R strong paramsOk)) (single (clientCodec R strong paramsOk)) 3 y ∧
      x.toServer = [] ∧ x.server = y.server ∧ x.toClient = y.toClient ∧
      (∃ st, x.server = some (.waitKey st)) ∧
      ∃ X Y, x.toClient = (serverCodec R strong paramsOk).encs [.augmentationInfo groupName X salt ps, .publicKey Y] := by
  have hn : (rngC.fill c 16).1.length = 16 := rngC.fill_length _ _
  have hn2 : (rngS.fill sv.rng 16).1.length = 16 := rngS.fill_length _ _
  obtain ⟨e1, e2, -⟩ := enc_client_length R strong paramsOk
  have hvN : (clientCodec R strong paramsOk).valid (.nonce (rngC.fill c 16).1 : ClientMessage G) :=
    ⟨by cases strong <;> simp [clientTag, clientVariants], hn, by unfold Slice; omega⟩
  have hvS : (serverCodec R strong paramsOk).valid (.nonce (rngS.fill sv.rng 16).1 : ServerMessage G) :=
    ⟨by cases strong <;> simp [serverTag, serverVariants], hn2, by unfold Slice; omega⟩
  have hvU : (clientCodec R strong paramsOk).valid (.username v : ClientMessage G) :=
    ⟨by cases strong <;> simp [clientTag, clientVariants], by change Slice v; unfold Slice; omega⟩
  have hdN := (clientCodec R strong paramsOk).dec_enc _ [] hvN
  have hdU := (clientCodec R strong paramsOk).dec_enc _ [] hvU
  rw [List.append_nil] at hdN hdU
  have huv : (clientCodec R strong paramsOk).enc (.username v : ClientMessage G) ≠ v := by
    intro h
    have := congrArg List.length h
    rw [e2] at this
    omega
  refine ⟨(clientCodec R strong paramsOk).enc (.username v : ClientMessage G), huv, ?_⟩
  generalize hu : (clientCodec R strong paramsOk).enc (.username v : ClientMessage G) = u at *
  have hlu : u.length = 12 + v.length := by rw [← hu, e2]
  obtain ⟨hdr, hhdr, hh⟩ : ∃ hdr : Bytes, hdr.length = 12 ∧
      (clientCodec R strong paramsOk).enc (.username u : ClientMessage G) = hdr ++ u := by
    refine ⟨bincode.encIdx ((clientVariants strong).idxOf .username) ++ bincode.encLen u.length, ?_, ?_⟩
    · simp only [bincode, List.length_append, leFixed_length]
    · simp only [clientCodec, encClient, clientTag, clientBody, encBytes, List.append_assoc]
  obtain ⟨x, hx, hx1, hx2, hx3⟩ := two_reads R D Hs rngC rngS strong paramsOk anything anything fromPs (.plain db kdb) u v
    pass' ci c c' sv sr ((clientCodec R strong paramsOk).enc (.nonce (rngC.fill c 16).1) ++ hdr) u _ []
    (by rw [hh, List.append_assoc]) ((clientCodec R strong paramsOk).dec_enc _ _ hvN) hdU
    (fun h => Codec.enc_ne _ _ (List.append_eq_nil_iff.1 h).1) (by rintro rfl; rw [List.length_nil] at hlu; omega)
    (by rw [List.length_append, e1 _ hn]; omega) (by omega) trivial trivial trivial
  obtain ⟨y, hy, hy1, hy2, hy3⟩ := two_reads R D Hs rngC rngS strong paramsOk (single (serverCodec R strong paramsOk))
    (single (clientCodec R strong paramsOk)) fromPs (.plain db kdb) v v
    pass ci c c' sv sr ((clientCodec R strong paramsOk).enc (.nonce (rngC.fill c 16).1)) u [] []
    (by rw [hu]) hdN hdU (Codec.enc_ne _ _) (by rintro rfl; rw [List.length_nil] at hlu; omega)
    (by rw [e1 _ hn]; omega) (by omega) ⟨_, hvN, rfl⟩ ⟨_, hvU, hu.symm⟩ ⟨_, hvS, rfl⟩
  refine ⟨x, y, hx, hy, hx1, hx2.trans hy2.symm, hx3.trans hy3.symm, ?_, ?_⟩
  · rw [hx2]
    simp only [serverRecv, server_info_eq R D rngS db kdb _ v sr W salt ps hdb hk, serverSendInfo]
    exact ⟨_, rfl⟩
  · rw [hx3]
    simp only [serverRecv, server_info_eq R D rngS db kdb _ v sr W salt ps hdb hk, serverSendInfo, Server.generatePublicKey]
    exact ⟨_, _, rfl⟩

/-- Its hypotheses can be met. -/
example : ∃ u, u ≠ World.user ∧ ∃ st X Y x,
    Reach (clientCodec Ristretto.toy false fun _ => true) (serverCodec Ristretto.toy false fun _ => true)
      (client Ristretto.toy sha512 World.hasher Rng.replay (fun _ => some ()) none u World.pass (ascii "ci")
        (World.bytes 2 100) (World.bytes 4 100))
      (server Ristretto.toy sha512 Rng.replay (.plain ⟨fun u => if u = World.user then some (5, ascii "salt", []) else none⟩
        none) (ascii "ci") World.server (World.bytes 3 200)) 1024 anything anything 3 x ∧
    x.server = some (.waitKey st) ∧
    x.toClient = (serverCodec Ristretto.toy false fun _ => true).encs
      [.augmentationInfo groupName X (ascii "salt") [], .publicKey Y] := by
  obtain ⟨u, hu, x, y, hx, -, -, -, -, ⟨st, hst⟩, X, Y, hc⟩ := C63_confusion Ristretto.toy sha512 World.hasher Rng.replay
    Rng.replay false (fun _ => true) (fun _ => some ()) World.user World.pass World.pass (ascii "ci") (by decide)
    ⟨fun u => if u = World.user then some (5, ascii "salt", []) else none⟩ 5 (ascii "salt") [] (by simp) none
    (fun _ h => nomatch h) (World.bytes 2 100) (World.bytes 4 100) World.server (World.bytes 3 200)
  exact ⟨u, hu, st, X, Y, x, hx, hst, hc⟩

/-- **C63 (strong variants).** As `C63_partial`, with the same part missing. -/
theorem C63_strong_partial (h64 : D.outLen = 64) (paramsOk : Bytes → Bool)
    (bufR : Buf) (s s' : σr) (user pass ps : Bytes) (params : Params) (W : G) (q : Scalar)
    (hreg : Run.registerStrong R D Hs rngR bufR s user pass params = .ok (.strongRegistration user q ps W, s'))
    (hparams : ParamsStr paramsOk ps) (hlen : ps.length ≤ 127) (huser : user.length ≤ 980)
    (db : StrongDatabase G) (hdb : db.lookupVerifierStrong user = some (W, q, ps))
    (kdb : Option (PartialAugDatabase G))
    (hk : ∀ k, kdb = some k → ∃ x, k.lookupLongTermKeypair user = some (x, x • R.base))
    (fromPs : Bytes → Option Params) (hps : fromPs ps = some params) (ci : Bytes) (r : Scalar) (hr : r ≠ 0)
    (c c' : σc) (sv : Server.State σs) (sr : σs)
    (hok : Run.loginStrong R D Hs rngC rngS (Run.explicit R D rngC rngS) (fun _ => params) .alloc db kdb (.nonces 16) user pass ci
      r c sv sr c' ≠ .err .illegalPointError) :
    ∃ k : Bytes, k.length = 64 ∧
      Completes (clientCodec R true paramsOk) (serverCodec R true paramsOk)
        (client R D Hs rngC fromPs (some r) user pass ci c c') (server R D rngS (.strong db kdb) ci sv sr) 1024 k ∧
      Safe (clientCodec R true paramsOk) (serverCodec R true paramsOk)
        (client R D Hs rngC fromPs (some r) user pass ci c c') (server R D rngS (.strong db kdb) ci sv sr) 1024 k := by
  obtain ⟨k, hkl, hlog⟩ := (C33_same_key R D Hs rngC rngS rngR h64 bufR .alloc s s' user pass ps params W q hreg db
    hdb kdb hk (fun _ => params) rfl trivial (.nonces 16) trivial ci r hr c c' sv sr).resolve_right hok
  obtain ⟨T, hkc, hks, ha0, ⟨U, ha1⟩, hb0, ⟨X, Z, hb1⟩, ⟨Y, ha2⟩, ⟨Y', hb2⟩, ⟨t, ha3, hl3⟩, ⟨t', hb3, hl3'⟩⟩ :=
    trace_strong R D Hs rngC rngS paramsOk fromPs params db kdb user pass ci r c sv sr c' W q ps k k hdb hk
      (by unfold Slice; omega) hparams hps hlog
  refine ⟨k, hkl, completes_of_trace T hkc hks ?_ ?_, safe_of_trace R T hkc hks⟩
  · obtain ⟨e1, e2, e3, e4, e5⟩ := enc_client_length R true paramsOk
    intro m hm
    simp only [List.mem_cons, List.not_mem_nil, or_false, ha0, ha1, ha2, ha3] at hm
    rcases hm with rfl | rfl | rfl | rfl
    · rw [e1 _ (rngC.fill_length _ _)]; omega
    · rw [e3]; omega
    · rw [e4]; omega
    · rw [e5 _ hl3]; omega
  · obtain ⟨e1, e2, e3, e4, e5⟩ := enc_server_length R true paramsOk
    intro m hm
    simp only [List.mem_cons, List.not_mem_nil, or_false, hb0, hb1, hb2, hb3] at hm
    rcases hm with rfl | rfl | rfl | rfl
    · rw [e1 _ (rngS.fill_length _ _)]; omega
    · rw [e3]; omega
    · rw [e4]; omega
    · rw [e5 _ hl3']; omega

/-- **C63 (negation, strong variants).** -/
theorem C63_strong_negation (h64 : D.outLen = 64) (paramsOk : Bytes → Bool)
    (bufR : Buf) (s s' : σr) (user pass ps : Bytes) (params : Params) (W : G) (q : Scalar)
    (hreg : Run.registerStrong R D Hs rngR bufR s user pass params = .ok (.strongRegistration user q ps W, s'))
    (hparams : ParamsStr paramsOk ps) (huser : user.length ≤ 952)
    (db : StrongDatabase G) (hdb : db.lookupVerifierStrong user = some (W, q, ps))
    (kdb : Option (PartialAugDatabase G))
    (hk : ∀ k, kdb = some k → ∃ x, k.lookupLongTermKeypair user = some (x, x • R.base))
    (fromPs : Bytes → Option Params) (hps : fromPs ps = some params) (ci : Bytes) (r : Scalar) (hr : r ≠ 0)
    (c c' : σc) (sv : Server.State σs) (sr : σs)
    (hok : Run.loginStrong R D Hs rngC rngS (Run.explicit R D rngC rngS) (fun _ => params) .alloc db kdb (.nonces 16) user pass ci
      r c sv sr c' ≠ .err .illegalPointError) :
    Deadlocks (clientCodec R true paramsOk) (serverCodec R true paramsOk)
      (client R D Hs rngC fromPs (some r) user pass ci c c') (server R D rngS (.strong db kdb) ci sv sr) 1024 := by
  obtain ⟨k, hkl, hlog⟩ := (C33_same_key R D Hs rngC rngS rngR h64 bufR .alloc s s' user pass ps params W q hreg db
    hdb kdb hk (fun _ => params) rfl trivial (.nonces 16) trivial ci r hr c c' sv sr).resolve_right hok
  obtain ⟨T, -, -, ha0, ⟨U, ha1⟩, hb0, -⟩ :=
    trace_strong R D Hs rngC rngS paramsOk fromPs params db kdb user pass ci r c sv sr c' W q ps k k hdb hk
      (by unfold Slice; omega) hparams hps hlog
  obtain ⟨e1, -, e3, -⟩ := enc_client_length R true paramsOk
  obtain ⟨x, hx, hs⟩ := T.deadlock_server 1024
    (by rw [hb0, (enc_server_length R true paramsOk).1 _ (rngS.fill_length _ _)]; omega)
    (by rw [ha0, ha1, e1 _ (rngC.fill_length _ _), e3]; omega)
  exact ⟨2, x, hx, hs⟩

/-- The hypotheses of `C63_partial` and `C63_negation` can be met. -/
example : ∃ salt ps W s',
    World.reg = .ok (.registration World.user salt ps W, s') ∧ ParamsStr (fun _ => true) ps ∧ ps.length ≤ 127 ∧
    World.user.length ≤ 984 ∧ World.db.lookupVerifier World.user = some (W, salt, ps) ∧
    (Run.login Ristretto.toy sha512 World.hasher Rng.replay Rng.replay
      (Run.explicit Ristretto.toy sha512 Rng.replay Rng.replay) (fun _ => ()) .alloc World.db (some World.kdb)
      (.nonces 16) World.user World.pass (ascii "ci") (World.bytes 2 100) World.server (World.bytes 3 200)
      (World.bytes 4 100)).isOk = true := by
  obtain ⟨salt, ps, W, s', h, hp⟩ : ∃ salt ps W s',
      World.reg = .ok (.registration World.user salt ps W, s') ∧ ps = ascii "ln=1" := by
    simp only [World.reg, register_eq, Buf.fits]
    have hw : (Spec.pwScalar World.hasher World.user World.pass (Base64.encode (Rng.replay.fill (World.bytes 7 16) 16).1)
        ()).isOk = true := by decide +kernel
    cases hw' : Spec.pwScalar World.hasher World.user World.pass (Base64.encode (Rng.replay.fill (World.bytes 7 16) 16).1)
        () with
    | ok w => exact ⟨_, _, _, _, rfl, rfl⟩
    | err e => rw [hw'] at hw; cases hw
    | panic => rw [hw'] at hw; cases hw
  subst hp
  refine ⟨salt, _, W, s', h, ⟨⟨by unfold Slice; decide, by decide +kernel⟩, rfl⟩, by decide, by decide, ?_, by decide +kernel⟩
  simp only [World.db, h, if_true]

end

/-! ## C64: channel identifiers of the TCP programs -/

/-- What the Rust types guarantee. -/
def SocketAddr.Ok (a : SocketAddr) : Prop :=
  a.port < 65536 ∧ match a.ip with
    | .v4 o => o.length = 4
    | .v6 o => o.length = 16

/-- The address is an IPv4 address. -/
def SocketAddr.isV4 (a : SocketAddr) : Bool :=
  match a.ip with
  | .v4 _ => true
  | .v6 _ => false

theorem octets_length {a : SocketAddr} (h : a.Ok) : a.ip.octets.length = if a.isV4 then 4 else 16 := by
  obtain ⟨ip, port, fl, sc⟩ := a
  cases ip <;> exact h.2

theorem ip_eq {a b : SocketAddr} (hf : a.isV4 = b.isV4) (h : a.ip.octets = b.ip.octets) : a.ip = b.ip := by
  obtain ⟨ip, port, fl, sc⟩ := a
  obtain ⟨ip', port', fl', sc'⟩ := b
  cases ip <;> cases ip' <;> simp_all [SocketAddr.isV4, IpAddr.octets]

theorem port_eq {a b : SocketAddr} (ha : a.Ok) (hb : b.Ok) (h : beFixed 2 a.port = beFixed 2 b.port) :
    a.port = b.port := by
  have := congrArg beToNat h
  rwa [beToNat_beFixed, beToNat_beFixed, Nat.mod_eq_of_lt (by simpa using ha.1), Nat.mod_eq_of_lt (by simpa using hb.1)]
    at this

theorem tcpChannelIdentifier_eq (src dst : SocketAddr) : tcpChannelIdentifier src dst =
    src.ip.octets ++ (ascii ":" ++ (beFixed 2 src.port ++ (ascii ":" ++ (dst.ip.octets ++ (ascii ":" ++
      beFixed 2 dst.port))))) := by
  simp only [tcpChannelIdentifier, List.nil_append, List.append_assoc]

/-- **C64 (injective).** If the two ends of a connection have addresses of the same family, the identifier determines
address and port of both ends and which of them is the client. -/
theorem C64_injective (a b a' b' : SocketAddr) (ha : a.Ok) (hb : b.Ok) (ha' : a'.Ok) (hb' : b'.Ok)
    (hf : a.isV4 = b.isV4) (hf' : a'.isV4 = b'.isV4) :
    tcpChannelIdentifier a b = tcpChannelIdentifier a' b' ↔
      a.ip = a'.ip ∧ a.port = a'.port ∧ b.ip = b'.ip ∧ b.port = b'.port := by
  constructor
  · intro h
    rw [tcpChannelIdentifier_eq, tcpChannelIdentifier_eq] at h
    have hcol : (ascii ":").length = 1 := by decide
    have hlen := congrArg List.length h
    simp only [List.length_append, beFixed_length, hcol, octets_length ha, octets_length hb, octets_length ha',
      octets_length hb', hf, hf'] at hlen
    have hbb : b.isV4 = b'.isV4 := by
      cases h1 : b.isV4 <;> cases h2 : b'.isV4 <;> simp_all
    have haa : a.isV4 = a'.isV4 := by rw [hf, hf', hbb]
    obtain ⟨h1, h⟩ := List.append_inj h (by rw [octets_length ha, octets_length ha', haa])
    obtain ⟨-, h⟩ := List.append_inj h rfl
    obtain ⟨h2, h⟩ := List.append_inj h (by simp)
    obtain ⟨-, h⟩ := List.append_inj h rfl
    obtain ⟨h3, h⟩ := List.append_inj h (by rw [octets_length hb, octets_length hb', hbb])
    obtain ⟨-, h4⟩ := List.append_inj h rfl
    exact ⟨ip_eq haa h1, port_eq ha ha' h2, ip_eq hbb h3, port_eq hb hb' h4⟩
  · rintro ⟨h1, h2, h3, h4⟩
    simp only [tcpChannelIdentifier, h1, h2, h3, h4]

/-- **C64 (roles).** The identifier of a connection and of the one in the opposite direction differ, unless both ends are
the same. -/
theorem C64_direction (a b : SocketAddr) (ha : a.Ok) (hb : b.Ok) (hf : a.isV4 = b.isV4)
    (h : tcpChannelIdentifier a b = tcpChannelIdentifier b a) : a.ip = b.ip ∧ a.port = b.port := by
  have := (C64_injective a b b a ha hb hb ha hf hf.symm).1 h
  exact ⟨this.1, this.2.1⟩

/-- **C64 (limits).** Without the condition on the families the identifier is ambiguous, and it never depends on the
scope of an IPv6 address. -/
theorem C64_limits :
    (∃ a b a' b' : SocketAddr, a.Ok ∧ b.Ok ∧ a'.Ok ∧ b'.Ok ∧ a.ip ≠ a'.ip ∧ b.ip ≠ b'.ip ∧
      tcpChannelIdentifier a b = tcpChannelIdentifier a' b') ∧
    (∀ (a b : SocketAddr) (f s f' s' : Nat), tcpChannelIdentifier { a with flowinfo := f, scopeId := s }
      { b with flowinfo := f', scopeId := s' } = tcpChannelIdentifier a b) := by
  refine ⟨⟨⟨.v4 (List.replicate 4 58), 14906, 0, 0⟩, ⟨.v6 (List.replicate 16 58), 14906, 0, 0⟩,
    ⟨.v6 (List.replicate 16 58), 14906, 0, 0⟩, ⟨.v4 (List.replicate 4 58), 14906, 0, 0⟩, ?_⟩, fun _ _ _ _ _ _ => rfl⟩
  refine ⟨⟨by decide, rfl⟩, ⟨by decide, rfl⟩, ⟨by decide, rfl⟩, ⟨by decide, rfl⟩, by decide, by decide, by decide +kernel⟩

/-- The addresses of the example program: 127.0.0.1, server port 25519. -/
example : SocketAddr.Ok ⟨.v4 [127, 0, 0, 1], 25519, 0, 0⟩ ∧
    tcpChannelIdentifier ⟨.v4 [127, 0, 0, 1], 40000, 0, 0⟩ ⟨.v4 [127, 0, 0, 1], 25519, 0, 0⟩ =
      [127, 0, 0, 1, 58, 0x9c, 0x40, 58, 127, 0, 0, 1, 58, 0x63, 0xaf] := by
  refine ⟨⟨by decide, rfl⟩, by decide +kernel⟩

/-! ## C65: the databases of the programs -/

section
variable {V K : Type}

/-- **C65 (stored entry).** What was stored last is found again, and nobody else is found. -/
theorem C65_lookup_store (d : SingleUserDb V K) (u u' : Bytes) (v : V) :
    (d.storeVerifier u v).lookupVerifier u' = if u' = u then some v else none := by
  simp only [SingleUserDb.storeVerifier, SingleUserDb.lookupVerifier, eq_comm]

/-- **C65 (one user only).** In contrast to the contract of `Database` (`Storage.lookup_store_other`), storing an entry for
another user loses the first. -/
theorem C65_other_user_negation (u u' : Bytes) (h : u' ≠ u) (v v' : V) :
    ((SingleUserDb.empty : SingleUserDb V K).storeVerifier u v).lookupVerifier u = some v ∧
    (((SingleUserDb.empty : SingleUserDb V K).storeVerifier u v).storeVerifier u' v').lookupVerifier u = none := by
  rw [C65_lookup_store, C65_lookup_store, if_pos rfl, if_neg (Ne.symm h)]
  exact ⟨rfl, rfl⟩

/-- **C65 (key pairs).** A key pair can be stored exactly for the registered user, and is then found for this user only;
the entry is not changed by it. -/
theorem C65_keypair (d : SingleUserDb V K) (u : Bytes) (k : K) :
    (d.user = some u → ∃ d', d.storeKeypair u k = .ok d' ∧ (∀ u', d'.lookupKeypair u' = if u' = u then some k else none) ∧
      ∀ u', d'.lookupVerifier u' = d.lookupVerifier u') ∧
    (d.user ≠ some u → d.storeKeypair u k = .err .userNotRegistered) := by
  constructor
  · intro h
    refine ⟨{ d with keypair := some k }, ?_, fun u' => ?_, fun u' => rfl⟩
    · simp only [SingleUserDb.storeKeypair, h, if_true]
    · simp only [SingleUserDb.lookupKeypair, h, eq_comm]
  · intro h
    unfold SingleUserDb.storeKeypair
    split
    · rename_i stored hs
      rw [if_neg]
      rintro rfl
      exact h hs
    · rfl

/-- **C65 (inherited key pair).** Registering another user afterwards gives that user the key pair of the first one. -/
theorem C65_inherited_keypair_negation (u u' : Bytes) (v v' : V) (k : K) :
    ∃ d', ((SingleUserDb.empty : SingleUserDb V K).storeVerifier u v).storeKeypair u k = .ok d' ∧
      (d'.storeVerifier u' v').lookupKeypair u' = some k := by
  refine ⟨_, by simp only [SingleUserDb.storeKeypair, SingleUserDb.storeVerifier, if_true]; rfl, ?_⟩
  simp only [SingleUserDb.lookupKeypair, SingleUserDb.storeVerifier, if_true]

/-- The states the fixed-size database can be in. -/
def FixedUserDb.Wf (n : Nat) (d : FixedUserDb V) : Prop := ∀ b l, d.user = some (b, l) → b.length = n ∧ l ≤ n

theorem fixed_store (n : Nat) (d : FixedUserDb V) (u : Bytes) (v : V) (h : u.length ≤ n) :
    FixedUserDb.storeVerifier n d u v = .ok ⟨some (u ++ List.replicate (n - u.length) 0, u.length), some v⟩ := by
  have hc : copyInto (List.replicate n 0) 0 u.length u = some (u ++ List.replicate (n - u.length) 0) := by
    unfold copyInto
    rw [if_pos ⟨by omega, by simpa using h, by omega⟩]
    simp
  simp only [FixedUserDb.storeVerifier, if_pos h, hc, Res.unwrap, Res.bind_ok]

/-- **C65 (fixed-size database).** Storing and looking up never panics; a username that fits is found again and nobody
else; one that does not fit is silently not stored. -/
theorem C65_fixed (n : Nat) (d : FixedUserDb V) (hd : d.Wf n) (u u' : Bytes) (v : V) :
    ∃ d', FixedUserDb.storeVerifier n d u v = .ok d' ∧ d'.Wf n ∧ (∃ r, d.lookupVerifier u' = .ok r) ∧
      (u.length ≤ n → d'.lookupVerifier u' = .ok (if u' = u then some v else none)) ∧
      (n < u.length → d' = d ∧ d'.lookupVerifier u = .ok none) := by
  have hslice : ∀ (d : FixedUserDb V), d.Wf n → ∀ b l, d.user = some (b, l) → slice b 0 l = some (b.take l) := by
    intro d hd b l h
    obtain ⟨h1, h2⟩ := hd b l h
    unfold slice
    rw [if_pos ⟨by omega, by omega⟩]
    simp
  have htot : ∃ r, d.lookupVerifier u' = .ok r := by
    unfold FixedUserDb.lookupVerifier
    split
    · rename_i b l h
      rw [hslice d hd b l h]
      simp only [Res.unwrap, Res.bind_ok]
      split <;> exact ⟨_, rfl⟩
    · exact ⟨_, rfl⟩
  by_cases h : u.length ≤ n
  · refine ⟨_, fixed_store n d u v h, ?_, htot, fun _ => ?_, fun h' => by omega⟩
    · intro b l hb
      simp only [Option.some.injEq, Prod.mk.injEq] at hb
      obtain ⟨rfl, rfl⟩ := hb
      exact ⟨by simp; omega, h⟩
    · simp only [FixedUserDb.lookupVerifier]
      have : slice (u ++ List.replicate (n - u.length) 0) 0 u.length = some u := by
        unfold slice
        rw [if_pos ⟨by omega, by simp⟩]
        simp
      simp only [this, Res.unwrap, Res.bind_ok]
      by_cases he : u = u'
      · rw [if_pos he, if_pos he.symm]
      · rw [if_neg he, if_neg (Ne.symm he)]
  · refine ⟨d, by simp only [FixedUserDb.storeVerifier, if_neg h], hd, htot, fun h' => absurd h' h, fun h' => ⟨rfl, ?_⟩⟩
    unfold FixedUserDb.lookupVerifier
    split
    · rename_i b l hb
      rw [hslice d hd b l hb]
      simp only [Res.unwrap, Res.bind_ok]
      rw [if_neg]
      rintro rfl
      obtain ⟨h1, h2⟩ := hd b l hb
      rw [List.length_take] at h'
      omega
    · rfl

example : FixedUserDb.Wf 100 (FixedUserDb.empty : FixedUserDb Nat) := by
  intro b l h; cases h

end

/-! ## C66: the no_std program -/

section
variable {G : Type} [AddCommGroup G] [Module Scalar G] [DecidableEq G] (R : Ristretto G) (D : Digest)
  {Params : Type} (Hs : PwHasher Params) {σc σs σr : Type} (rngC : Rng σc) (rngS : Rng σs) (rngR : Rng σr)

theorem passClient_ok (strong : Bool) (paramsOk : Bytes → Bool) (m : ClientMessage G)
    (ht : clientTag m ∈ clientVariants strong) (hv : ClientOk 16 paramsOk m)
    (hl : (encClient postcard R strong m).length ≤ 1024) : passClient R strong paramsOk m = .ok m := by
  have hc : copyInto (List.replicate 1024 0) 0 (encClient postcard R strong m).length (encClient postcard R strong m) =
      some (encClient postcard R strong m ++ List.replicate (1024 - (encClient postcard R strong m).length) 0) := by
    unfold copyInto
    rw [if_pos ⟨by omega, by rw [List.length_replicate]; omega, by omega⟩]
    simp only [List.take_zero, List.nil_append, List.drop_replicate]
  simp only [passClient, hc, Res.unwrap, Res.bind_ok, C51_client postcard R strong 16 paramsOk m _ ht hv]

theorem passServer_ok (strong : Bool) (paramsOk : Bytes → Bool) (m : ServerMessage G)
    (ht : serverTag m ∈ serverVariants strong) (hv : ServerOk 16 paramsOk m)
    (hl : (encServer postcard R strong m).length ≤ 1024) : passServer R strong paramsOk m = .ok m := by
  have hc : copyInto (List.replicate 1024 0) 0 (encServer postcard R strong m).length (encServer postcard R strong m) =
      some (encServer postcard R strong m ++ List.replicate (1024 - (encServer postcard R strong m).length) 0) := by
    unfold copyInto
    rw [if_pos ⟨by omega, by rw [List.length_replicate]; omega, by omega⟩]
    simp only [List.take_zero, List.nil_append, List.drop_replicate]
  simp only [passServer, hc, Res.unwrap, Res.bind_ok, C51_server postcard R strong 16 paramsOk m _ ht hv]

theorem varint_length (k n : Nat) : (varint k n).length ≤ k := by
  induction k generalizing n with
  | zero => simp [varint]
  | succ k ih =>
    rw [varint]
    split
    · simp
    · rw [List.length_cons]; have := ih (n / 128); omega

theorem postcard_client_length (strong : Bool) :
    (∀ n : Bytes, n.length = 16 → (encClient postcard R strong (.nonce n : ClientMessage G)).length ≤ 31) ∧
    (∀ u, (encClient postcard R strong (.username u : ClientMessage G)).length ≤ 15 + u.length) ∧
    (∀ Y, (encClient postcard R strong (.publicKey Y)).length ≤ 37) ∧
    (∀ t : Bytes, t.length = 64 → (encClient postcard R strong (.authenticator t : ClientMessage G)).length ≤ 79) := by
  refine ⟨fun n h => ?_, fun u => ?_, fun Y => ?_, fun t h => ?_⟩ <;>
    simp only [encClient, clientBody, encBytes, postcard, List.length_append, R.compress_length]
  · have := varint_length 5 ((clientVariants strong).idxOf (clientTag (.nonce n : ClientMessage G)))
    have := varint_length 10 n.length
    omega
  · have := varint_length 5 ((clientVariants strong).idxOf (clientTag (.username u : ClientMessage G)))
    have := varint_length 10 u.length
    omega
  · have := varint_length 5 ((clientVariants strong).idxOf (clientTag (.publicKey Y : ClientMessage G)))
    omega
  · have := varint_length 5 ((clientVariants strong).idxOf (clientTag (.authenticator t : ClientMessage G)))
    have := varint_length 10 t.length
    omega

theorem postcard_server_length (strong : Bool) :
    (∀ n : Bytes, n.length = 16 → (encServer postcard R strong (.nonce n : ServerMessage G)).length ≤ 31) ∧
    (∀ X salt ps, (encServer postcard R strong (.augmentationInfo groupName X salt ps)).length ≤
      79 + salt.length + ps.length) ∧
    (∀ Y, (encServer postcard R strong (.publicKey Y)).length ≤ 37) ∧
    (∀ t : Bytes, t.length = 64 → (encServer postcard R strong (.authenticator t : ServerMessage G)).length ≤ 79) := by
  have hg : groupName.length = 12 := by decide
  refine ⟨fun n h => ?_, fun X salt ps => ?_, fun Y => ?_, fun t h => ?_⟩ <;>
    simp only [encServer, serverBody, encBytes, postcard, List.length_append, R.compress_length, hg]
  · have := varint_length 5 ((serverVariants strong).idxOf (serverTag (.nonce n : ServerMessage G)))
    have := varint_length 10 n.length
    omega
  · have := varint_length 5 ((serverVariants strong).idxOf (serverTag (.augmentationInfo groupName X salt ps)))
    have := varint_length 10 12
    have := varint_length 10 salt.length
    have := varint_length 10 ps.length
    omega
  · have := varint_length 5 ((serverVariants strong).idxOf (serverTag (.publicKey Y : ServerMessage G)))
    omega
  · have := varint_length 5 ((serverVariants strong).idxOf (serverTag (.authenticator t : ServerMessage G)))
    have := varint_length 10 t.length
    omega

/-- What the program makes of a successful login. -/
theorem noStd_of_login (strong : Bool) (paramsOk : Bytes → Bool) (fromPs : Bytes → Option Params) (params : Params) (db : Database G)
    (user pass : Bytes) (c : σc) (sv : Server.State σs) (sr : σs) (c' : σc) (W : G) (salt ps k : Bytes)
    (hdb : db.lookupVerifier user = some (W, salt, ps)) (hu : user.length ≤ 1009) (hsalt : SaltStr salt)
    (hps : ParamsStr paramsOk ps) (hlen : ps.length ≤ 127) (hfp : fromPs ps = some params)
    (h : Run.login R D Hs rngC rngS (Run.explicit R D rngC rngS) (fun _ => params) (.fixed 100) db none (.nonces 16) user pass
      (ascii "channel_identifier") c sv sr c' = .ok (k, k)) :
    noStd R D Hs rngC rngS strong paramsOk fromPs db user pass c sv sr c' = .ok (k, k) := by
  have hn1 : (rngC.fill c 16).1.length = 16 := rngC.fill_length _ _
  have hn2 : (rngS.fill sv.rng 16).1.length = 16 := rngS.fill_length _ _
  obtain ⟨ec1, ec2, ec3, ec4⟩ := postcard_client_length R strong
  obtain ⟨es1, es2, es3, es4⟩ := postcard_server_length R strong
  have hs64 := hsalt.2.1
  have info := server_info_eq R D rngS db none
    ⟨sv.secret, computeSsid D (rngS.fill sv.rng 16).1 (rngC.fill c 16).1⟩ user sr W salt ps hdb (by simp)
  simp only [Run.login, Run.ssidStage, Run.ssidByNonces, Client.begin, Server.begin, generateNonce, Res.bind_ok,
    Run.augment, Client.startAugmentation, Client.agreeSsid, Server.agreeSsid, info, Run.clientCpace] at h
  obtain ⟨⟨cl2, sv2⟩, h1, h⟩ := Res.bind_eq_ok.1 h
  obtain ⟨cl2', hcp, h1'⟩ := Res.bind_eq_ok.1 h1
  simp only [Res.ok.injEq, Prod.mk.injEq] at h1'
  obtain ⟨rfl, rfl⟩ := h1'
  obtain ⟨yb, ya, tb, ta, c3, s3, c2, s2, g1, g2, g3, g4, g5, g6, hl, hl'⟩ := explicit_steps R D rngC rngS h
  simp only [Run.serverInfo] at info
  have p1 := passClient_ok R strong paramsOk (.nonce (rngC.fill c 16).1 : ClientMessage G)
    (by cases strong <;> simp [clientTag, clientVariants]) ⟨hn1, by unfold Slice; omega⟩ (by have := ec1 _ hn1; omega)
  have p2 := passServer_ok R strong paramsOk (.nonce (rngS.fill sv.rng 16).1 : ServerMessage G)
    (by cases strong <;> simp [serverTag, serverVariants]) ⟨hn2, by unfold Slice; omega⟩ (by have := es1 _ hn2; omega)
  have p3 := passClient_ok R strong paramsOk (.username user : ClientMessage G)
    (by cases strong <;> simp [clientTag, clientVariants]) (by change Slice user; unfold Slice; omega)
    (by have := ec2 user; omega)
  have p4 := passServer_ok R strong paramsOk
    (.augmentationInfo groupName ((Run.serverX rngS (none : Option (PartialAugDatabase G)) user sr).1 • R.base) salt ps)
    (by cases strong <;> simp [serverTag, serverVariants]) ⟨groupName_str, hsalt, hps⟩ (by
      have := es2 ((Run.serverX rngS (none : Option (PartialAugDatabase G)) user sr).1 • R.base) salt ps; omega)
  have p5 := passClient_ok R strong paramsOk (.publicKey yb)
    (by cases strong <;> simp [clientTag, clientVariants]) trivial (by have := ec3 yb; omega)
  have p6 := passServer_ok R strong paramsOk (.publicKey ya)
    (by cases strong <;> simp [serverTag, serverVariants]) trivial (by have := es3 ya; omega)
  have p7 := passClient_ok R strong paramsOk (.authenticator tb : ClientMessage G)
    (by cases strong <;> simp [clientTag, clientVariants]) hl (by have := ec4 _ hl; omega)
  have p8 := passServer_ok R strong paramsOk (.authenticator ta : ServerMessage G)
    (by cases strong <;> simp [serverTag, serverVariants]) hl' (by have := es4 _ hl'; omega)
  have g1' : Client.generatePublicKey R D rngC cl2' (ascii "channel_identifier") c' =
      ((c2, .publicKey yb), (Client.generatePublicKey (G := G) R D rngC cl2' (ascii "channel_identifier") c').2) :=
    Prod.ext g1 rfl
  simp only [noStd, Client.begin, Server.begin, generateNonce, p1, Res.bind_ok, p2, Server.agreeSsid, Client.agreeSsid,
    Client.startAugmentation, p3, info, p4, hfp, Res.unwrap, hcp]
  rw [g2, g1']
  simp only [p5, Res.bind_ok, g4, p6, g3, p7, g5, p8, g6, if_true]

/-- What the program makes of a login that stops at a degenerate point. -/
theorem noStd_of_illegal (strong : Bool) (paramsOk : Bytes → Bool) (fromPs : Bytes → Option Params) (params : Params) (db : Database G)
    (user pass : Bytes) (c : σc) (sv : Server.State σs) (sr : σs) (c' : σc) (W : G) (salt ps : Bytes)
    (hdb : db.lookupVerifier user = some (W, salt, ps)) (hu : user.length ≤ 1009) (hsalt : SaltStr salt)
    (hps : ParamsStr paramsOk ps) (hlen : ps.length ≤ 127) (hfp : fromPs ps = some params)
    (h : Run.login R D Hs rngC rngS (Run.explicit R D rngC rngS) (fun _ => params) (.fixed 100) db none (.nonces 16) user pass
      (ascii "channel_identifier") c sv sr c' = .err .illegalPointError) :
    noStd R D Hs rngC rngS strong paramsOk fromPs db user pass c sv sr c' = .err .illegalPointError := by
  have hn1 : (rngC.fill c 16).1.length = 16 := rngC.fill_length _ _
  have hn2 : (rngS.fill sv.rng 16).1.length = 16 := rngS.fill_length _ _
  obtain ⟨ec1, ec2, ec3, ec4⟩ := postcard_client_length R strong
  obtain ⟨es1, es2, es3, es4⟩ := postcard_server_length R strong
  have hs64 := hsalt.2.1
  have info := server_info_eq R D rngS db none
    ⟨sv.secret, computeSsid D (rngS.fill sv.rng 16).1 (rngC.fill c 16).1⟩ user sr W salt ps hdb (by simp)
  simp only [Run.login, Run.ssidStage, Run.ssidByNonces, Client.begin, Server.begin, generateNonce, Res.bind_ok,
    Run.augment, Client.startAugmentation, Client.agreeSsid, Server.agreeSsid, info, Run.clientCpace] at h
  simp only [Run.serverInfo] at info
  have p1 := passClient_ok R strong paramsOk (.nonce (rngC.fill c 16).1 : ClientMessage G)
    (by cases strong <;> simp [clientTag, clientVariants]) ⟨hn1, by unfold Slice; omega⟩ (by have := ec1 _ hn1; omega)
  have p2 := passServer_ok R strong paramsOk (.nonce (rngS.fill sv.rng 16).1 : ServerMessage G)
    (by cases strong <;> simp [serverTag, serverVariants]) ⟨hn2, by unfold Slice; omega⟩ (by have := es1 _ hn2; omega)
  have p3 := passClient_ok R strong paramsOk (.username user : ClientMessage G)
    (by cases strong <;> simp [clientTag, clientVariants]) (by change Slice user; unfold Slice; omega)
    (by have := ec2 user; omega)
  have p4 := passServer_ok R strong paramsOk
    (.augmentationInfo groupName ((Run.serverX rngS (none : Option (PartialAugDatabase G)) user sr).1 • R.base) salt ps)
    (by cases strong <;> simp [serverTag, serverVariants]) ⟨groupName_str, hsalt, hps⟩ (by
      have := es2 ((Run.serverX rngS (none : Option (PartialAugDatabase G)) user sr).1 • R.base) salt ps; omega)
  simp only [noStd, Client.begin, Server.begin, generateNonce, p1, Res.bind_ok, p2, Server.agreeSsid, Client.agreeSsid,
    Client.startAugmentation, p3, info, p4, hfp, Res.unwrap]
  cases hcp : Client.generateCpace R Hs 100
      ⟨computeSsid D (rngS.fill sv.rng 16).1 (rngC.fill c 16).1, user, pass⟩
      ((Run.serverX rngS (none : Option (PartialAugDatabase G)) user sr).1 • R.base) salt params with
  | err e =>
    simp only [hcp, Res.bind_err] at h ⊢
    exact h
  | panic => simp only [hcp, Res.bind_panic] at h; cases h
  | ok cl =>
    simp only [hcp, Res.bind_ok, Run.explicit, Client.generatePublicKey, Server.generatePublicKey] at h ⊢
    have p5 : ∀ Y : G, passClient R strong paramsOk (.publicKey Y) = .ok (.publicKey Y) := fun Y =>
      passClient_ok R strong paramsOk (.publicKey Y)
        (by cases strong <;> simp [clientTag, clientVariants]) trivial (by have := ec3 Y; omega)
    have p6 : ∀ Y : G, passServer R strong paramsOk (.publicKey Y) = .ok (.publicKey Y) := fun Y =>
      passServer_ok R strong paramsOk (.publicKey Y)
        (by cases strong <;> simp [serverTag, serverVariants]) trivial (by have := es3 Y; omega)
    simp only [p5, p6, Res.bind_ok]
    simp only [Server.receiveClientPubkey, Client.receiveServerPubkey] at h ⊢
    split at h
    · rename_i hya
      split
      · rfl
      · rfl
    · rename_i hya
      split
      · rfl
      · rename_i hyb
        exfalso
        rw [if_neg hyb] at h
        simp only [toArray, Server.receiveClientAuthenticator, Client.receiveServerAuthenticator] at h
        split at h
        · simp only [Res.bind_ok] at h
          split at h
          · split at h
            · simp only [Res.bind_ok] at h
              split at h <;> cases h
            · cases h
          · cases h
        · cases h

/-- **C66 (no_std program).** For every username, password and draws, if the parameters the hasher names are
understood on the other side, the program ends with the same key on both sides, or stops with an error of the
library: of the registration (`UsernameOrPasswordTooLong` if they do not fit its buffer of 100 bytes, the errors of the
hasher otherwise), or a degenerate point. In particular no assertion, slice or `unwrap` fails. -/
theorem C66_no_std (h64 : D.outLen = 64) (strong : Bool) (paramsOk : Bytes → Bool) (fromPs : Bytes → Option Params)
    (params : Params)
    (hparams : ∀ ps, Hs.toParamsString params = .ok ps → ParamsStr paramsOk ps ∧ ps.length ≤ 127 ∧ fromPs ps = some params)
    (user pass : Bytes) (s : σr) (c : σc) (sv : Server.State σs) (sr : σs) (c' : σc) :
    (100 ≤ user.length + pass.length →
      noStdMain R D Hs rngC rngS rngR strong paramsOk fromPs params user pass s c sv sr c' =
        .err .usernameOrPasswordTooLong) ∧
    (∀ e, Client.register R Hs rngR 100 s user pass params = .err e →
      noStdMain R D Hs rngC rngS rngR strong paramsOk fromPs params user pass s c sv sr c' = .err e) ∧
    (∀ r, Client.register R Hs rngR 100 s user pass params = .ok r →
      (∃ k : Bytes, k.length = 64 ∧
        noStdMain R D Hs rngC rngS rngR strong paramsOk fromPs params user pass s c sv sr c' = .ok (k, k)) ∨
      noStdMain R D Hs rngC rngS rngR strong paramsOk fromPs params user pass s c sv sr c' = .err .illegalPointError) ∧
    Client.register R Hs rngR 100 s user pass params ≠ .panic := by
  have hr : Client.register R Hs rngR 100 s user pass params = Run.register R Hs rngR (.fixed 100) s user pass params := rfl
  have herr : ∀ e, Client.register R Hs rngR 100 s user pass params = .err e →
      noStdMain R D Hs rngC rngS rngR strong paramsOk fromPs params user pass s c sv sr c' = .err e := by
    intro e h
    simp only [noStdMain, h, Res.bind_err]
  refine ⟨fun h => herr _ ?_, herr, ?_, ?_⟩
  · rw [hr, register_eq, if_neg (by simp only [Buf.fits]; omega)]
  · intro r h
    have hreg := h
    rw [hr, register_eq] at hreg
    split at hreg
    · rename_i hfit
      obtain ⟨w, -, hreg⟩ := Res.bind_eq_ok.1 hreg
      obtain ⟨ps, hps, hreg⟩ := Res.bind_eq_ok.1 hreg
      have hps' : Hs.toParamsString params = .ok ps := by
        revert hps; cases Hs.toParamsString params <;> simp [mapPh]
      obtain ⟨hok, hlen, hfrom⟩ := hparams ps hps'
      simp only [Res.ok.injEq] at hreg
      subst hreg
      have hfit' : user.length + pass.length + 1 ≤ 100 := hfit
      have hstore := fixed_store 100 (FixedUserDb.empty : FixedUserDb (G × Bytes × Bytes)) user
        (w • R.base, Base64.encode (rngR.fill s 16).1, ps) (by omega)
      obtain ⟨d', hd', -, -, hlook, -⟩ := C65_fixed 100 (FixedUserDb.empty : FixedUserDb (G × Bytes × Bytes))
        (by intro b l h; cases h) user user (w • R.base, Base64.encode (rngR.fill s 16).1, ps)
      rw [hstore] at hd'
      simp only [Res.ok.injEq] at hd'
      subst hd'
      have hlook := hlook (by omega)
      simp only [if_true] at hlook
      simp only [noStdMain, h, Res.bind_ok, hstore]
      set db : Database G := ⟨fun u => _⟩ with hdbdef
      have hdb : db.lookupVerifier user = some (w • R.base, Base64.encode (rngR.fill s 16).1, ps) := by
        simp only [hdbdef, hlook]
      have hreg : Run.register R Hs rngR (.fixed 100) s user pass params = .ok (.registration user _ ps _, _) := h
      rcases C32_same_key R D Hs rngC rngS rngR h64 (.fixed 100) (.fixed 100) s _ user pass _ ps params _ hreg db hdb none
        (by simp) (fun _ => params) rfl hfit (.nonces 16) trivial (ascii "channel_identifier") c c' sv sr with ⟨k, hk, hlog⟩ | hlog
      · exact Or.inl ⟨k, hk, noStd_of_login R D Hs rngC rngS strong paramsOk fromPs params db user pass c sv sr c' _ _ ps k hdb
          (by omega) (register_salt R Hs rngR hreg) hok hlen hfrom hlog⟩
      · exact Or.inr (noStd_of_illegal R D Hs rngC rngS strong paramsOk fromPs params db user pass c sv sr c' _ _ ps hdb
          (by omega) (register_salt R Hs rngR hreg) hok hlen hfrom hlog)
    · cases hreg
  · rw [hr, register_eq]
    split
    · intro h
      cases hw : Spec.pwScalar Hs user pass (Base64.encode (rngR.fill s 16).1) params with
      | panic =>
        simp only [Spec.pwScalar] at hw
        split at hw
        · cases hw
        · cases hw
        · split at hw <;> cases hw
      | err e => simp only [hw, Res.bind_err] at h; cases h
      | ok w =>
        simp only [hw, Res.bind_ok] at h
        cases hp : Hs.toParamsString params <;> simp only [hp, mapPh, Res.bind_ok, Res.bind_err] at h <;> cases h
    · exact fun h => by cases h

/-- The hypothesis of `C66_no_std` can be met, and the program ends with a key. -/
example : (∀ ps, World.hasher.toParamsString () = .ok ps →
      ParamsStr (fun _ => true) ps ∧ ps.length ≤ 127 ∧ (fun _ => some ()) ps = some ()) ∧
    (noStdMain Ristretto.toy sha512 World.hasher Rng.replay Rng.replay Rng.replay false (fun _ => true) (fun _ => some ()) ()
      World.user World.pass (World.bytes 7 16) (World.bytes 2 100) World.server (World.bytes 3 200)
      (World.bytes 4 100)).isOk = true := by
  refine ⟨fun ps h => ?_, by decide +kernel⟩
  have : ps = ascii "ln=1" := by cases h; rfl
  subst this
  exact ⟨⟨⟨by unfold Slice; decide, by decide +kernel⟩, rfl⟩, by decide, rfl⟩

end

end Verif.Aucpace.Examples
