import Verif.Basic.Oracle
import Verif.Forward

/-!
# C91 (SPAKE2): the key of a recorded session in the random oracle model

The key is the hash of a transcript that ends with the encoding of the Diffie-Hellman value `x * y` of the session. Here the hash
function of the transcripts (spake2/src/ed25519.rs:132-219) is a parameter; with SHA-256 the definitions are the model's
(`finishWith_sha256`). The hash function inside `hash_to_scalar` stays what it is: the password scalar is the same with every draw.
-/

namespace Verif.Spake2
open Ed25519 (Point)

variable (D : Digest)

/-- spake2/src/ed25519.rs:132-173 `hash_ab`, with any hash function of 32 bytes. -/
def hashAbWith (passwordVec idA idB firstMsg secondMsg keyBytes : Bytes) : Res Error Bytes := do
  Res.assert (firstMsg.length = 32)
  Res.assert (secondMsg.length = 32)
  let transcript : Bytes := List.replicate (6 * 32) 0
  let pwHash := Digest.update Digest.new passwordVec
  let transcript ← Res.unwrap (copyInto transcript 0 32 (D.finalize pwHash))
  let idaHash := Digest.update Digest.new idA
  let transcript ← Res.unwrap (copyInto transcript 32 64 (D.finalize idaHash))
  let idbHash := Digest.update Digest.new idB
  let transcript ← Res.unwrap (copyInto transcript 64 96 (D.finalize idbHash))
  let transcript ← Res.unwrap (copyInto transcript 96 128 firstMsg)
  let transcript ← Res.unwrap (copyInto transcript 128 160 secondMsg)
  let transcript ← Res.unwrap (copyInto transcript 160 192 keyBytes)
  let hash := Digest.update Digest.new transcript
  return D.finalize hash

/-- spake2/src/ed25519.rs:176-219 `hash_symmetric`, with any hash function of 32 bytes. -/
def hashSymmetricWith (passwordVec idS msgU msgV keyBytes : Bytes) : Res Error Bytes := do
  Res.assert (msgU.length = 32)
  Res.assert (msgV.length = 32)
  let transcript : Bytes := List.replicate (5 * 32) 0
  let pwHash := Digest.update Digest.new passwordVec
  let transcript ← Res.unwrap (copyInto transcript 0 32 (D.finalize pwHash))
  let idsHash := Digest.update Digest.new idS
  let transcript ← Res.unwrap (copyInto transcript 32 64 (D.finalize idsHash))
  let first := if ltBytes msgU msgV then msgU else msgV
  let second := if ltBytes msgU msgV then msgV else msgU
  let transcript ← Res.unwrap (copyInto transcript 64 96 first)
  let transcript ← Res.unwrap (copyInto transcript 96 128 second)
  let transcript ← Res.unwrap (copyInto transcript 128 160 keyBytes)
  let hash := Digest.update Digest.new transcript
  return D.finalize hash

/-- spake2/src/lib.rs:418-442: the key, with any hash function of 32 bytes. -/
def deriveKeyWith (side : Side) (passwordVec msg1 body keyBytes : Bytes) : Res Error Bytes :=
  match side with
  | .A idA idB => hashAbWith D passwordVec idA idB msg1 body keyBytes
  | .B idA idB => hashAbWith D passwordVec idA idB body msg1 keyBytes
  | .symmetric idS => hashSymmetricWith D passwordVec idS msg1 body keyBytes

/-- spake2/src/lib.rs:373-443 `finish`, with any hash function of 32 bytes for the transcript. -/
def finishWith {S E : Type} (G : GroupOps S E) (s : State S) (msg2 : Bytes) : Res Error Bytes :=
  if msg2.length ≠ 1 + G.elementLength then .err .wrongLength
  else do
    let msgSide ← Res.unwrap msg2[0]?
    checkSide s.side msgSide
    let body ← Res.unwrap (slice msg2 1 msg2.length)
    let msg2Element ← Res.okOr (G.bytesToElement body) .corruptMessage
    let unblind ← unblinding G s.side
    let tmp1 := G.scalarmult unblind (G.scalarNeg s.passwordScalar)
    let tmp2 := G.add msg2Element tmp1
    let keyElement := G.scalarmult tmp2 s.xyScalar
    let keyBytes := G.elementToBytes keyElement
    deriveKeyWith D s.side s.passwordVec s.msg1 body keyBytes

/-- With SHA-256 this is the function of the library. -/
theorem finishWith_sha256 {S E : Type} (G : GroupOps S E) : finishWith sha256 G = finish G := rfl

/-- The transcript of a session (`Spec.transcript`), with any hash function. -/
def transcriptWith (side : Side) (pw own peer : Bytes) (K : Point) : Bytes :=
  match side with
  | .A idA idB => D.hash pw ++ D.hash idA ++ D.hash idB ++ own ++ peer ++ Ed25519.compress K
  | .B idA idB => D.hash pw ++ D.hash idA ++ D.hash idB ++ peer ++ own ++ Ed25519.compress K
  | .symmetric idS => D.hash pw ++ D.hash idS ++ Spec.sorted own peer ++ Ed25519.compress K

theorem transcriptWith_sha256 : transcriptWith sha256 = Spec.transcript := by
  funext side pw own peer K
  cases side <;> rfl

variable {D}

theorem hashAbWith_eq (h32 : D.outLen = 32) (pw idA idB X Y K : Bytes) :
    hashAbWith D pw idA idB X Y K =
      if X.length = 32 ∧ Y.length = 32 ∧ K.length = 32 then
        .ok (D.hash (D.hash pw ++ D.hash idA ++ D.hash idB ++ X ++ Y ++ K))
      else .panic := by
  have hh : ∀ x, (D.hash x).length = 32 := fun x => (D.hash_length x).trans h32
  unfold hashAbWith
  simp only [Res.assert, Digest.update, Digest.new, List.nil_append, Digest.finalize]
  by_cases hX : X.length = 32
  swap
  · simp [hX]
  by_cases hY : Y.length = 32
  swap
  · simp [hX, hY]
  rw [if_pos hX, if_pos hY, Res.bind_ok, Res.bind_ok,
    show (List.replicate (6 * 32) (0 : UInt8)) = [] ++ List.replicate 192 0 from rfl,
    copyInto_next [] _ 0 32 _ rfl (by rw [hh]) (by rw [hh]; omega)]
  simp only [Res.unwrap, Res.bind_ok]
  rw [copyInto_next _ _ _ _ _ (by simp [hh]) (by simp [hh]) (by simp [hh])]
  simp only [Res.bind_ok]
  rw [copyInto_next _ _ _ _ _ (by simp [hh]) (by simp [hh]) (by simp [hh])]
  simp only [Res.bind_ok]
  rw [copyInto_next _ _ _ _ _ (by simp [hh]) (by simp [hX]) (by simp [hh, hX])]
  simp only [Res.bind_ok]
  rw [copyInto_next _ _ _ _ _ (by simp [hh, hX]) (by simp [hY]) (by simp [hh, hX, hY])]
  simp only [Res.bind_ok]
  by_cases hK : K.length = 32
  · rw [copyInto_next _ _ _ _ _ (by simp [hh, hX, hY]) (by simp [hK]) (by simp [hh, hX, hY, hK]),
      if_pos ⟨hX, hY, hK⟩]
    simp [hh, hX, hY, hK]
  · rw [copyInto_bad _ _ _ _ (by omega), if_neg (by tauto)]
    simp

theorem hashSymmetricWith_eq (h32 : D.outLen = 32) (pw idS X Y K : Bytes) :
    hashSymmetricWith D pw idS X Y K =
      if X.length = 32 ∧ Y.length = 32 ∧ K.length = 32 then
        .ok (D.hash (D.hash pw ++ D.hash idS ++
          (if ltBytes X Y then X ++ Y else Y ++ X) ++ K))
      else .panic := by
  have hh : ∀ x, (D.hash x).length = 32 := fun x => (D.hash_length x).trans h32
  unfold hashSymmetricWith
  simp only [Res.assert, Digest.update, Digest.new, List.nil_append, Digest.finalize]
  by_cases hX : X.length = 32
  swap
  · simp [hX]
  by_cases hY : Y.length = 32
  swap
  · simp [hX, hY]
  obtain ⟨f, hf⟩ : ∃ f, f = if ltBytes X Y then X else Y := ⟨_, rfl⟩
  obtain ⟨g, hg⟩ : ∃ g, g = if ltBytes X Y then Y else X := ⟨_, rfl⟩
  have hfg : (if ltBytes X Y then X ++ Y else Y ++ X) = f ++ g := by rw [hf, hg]; split <;> rfl
  have hfl : f.length = 32 := by rw [hf]; split <;> assumption
  have hgl : g.length = 32 := by rw [hg]; split <;> assumption
  rw [← hf, ← hg, hfg]
  rw [if_pos hX, if_pos hY, Res.bind_ok, Res.bind_ok,
    show (List.replicate (5 * 32) (0 : UInt8)) = [] ++ List.replicate 160 0 from rfl,
    copyInto_next [] _ 0 32 _ rfl (by rw [hh]) (by rw [hh]; omega)]
  simp only [Res.unwrap, Res.bind_ok]
  rw [copyInto_next _ _ _ _ _ (by simp [hh]) (by simp [hh]) (by simp [hh])]
  simp only [Res.bind_ok]
  rw [copyInto_next _ _ _ _ _ (by simp [hh]) (by simp [hfl]) (by simp [hh, hfl])]
  simp only [Res.bind_ok]
  rw [copyInto_next _ _ _ _ _ (by simp [hh, hfl]) (by simp [hgl]) (by simp [hh, hfl, hgl])]
  simp only [Res.bind_ok]
  by_cases hK : K.length = 32
  · rw [copyInto_next _ _ _ _ _ (by simp [hh, hfl, hgl]) (by simp [hK]) (by simp [hh, hfl, hgl, hK]),
      if_pos ⟨hX, hY, hK⟩]
    simp [hh, hfl, hgl, hK]
  · rw [copyInto_bad _ _ _ _ (by omega), if_neg (by tauto)]
    simp

theorem deriveKeyWith_eq (h32 : D.outLen = 32) (side : Side) (pw own body : Bytes) (K : Point) (ho : own.length = 32)
    (hb : body.length = 32) :
    deriveKeyWith D side pw own body (Ed25519.compress K) = .ok (D.hash (transcriptWith D side pw own body K)) := by
  have hK : (Ed25519.compress K).length = 32 := Ed25519.compress_length K
  cases side with
  | A idA idB => rw [deriveKeyWith, hashAbWith_eq h32, if_pos ⟨ho, hb, hK⟩, transcriptWith]
  | B idA idB => rw [deriveKeyWith, hashAbWith_eq h32, if_pos ⟨hb, ho, hK⟩, transcriptWith]
  | symmetric idS =>
    rw [deriveKeyWith, hashSymmetricWith_eq h32, if_pos ⟨ho, hb, hK⟩, sorted_eq _ _ (by omega), transcriptWith]

theorem finishWith_cons (h32 : D.outLen = 32) (side : Side) (pw : Bytes) (x : Scalar) (body : Bytes) (P : Point)
    (hl : body.length = 32) (hd : Ed25519.decompress body = some P) :
    finishWith D ed25519 (started side pw x) (Spec.accepts side :: body) =
      .ok (D.hash (transcriptWith D side pw (Ed25519.compress (Spec.sent side pw x.val)) body
        (Spec.shared side pw x.val P))) := by
  unfold finishWith
  have hlen : ¬ (Spec.accepts side :: body).length ≠ 1 + ed25519.elementLength := by
    rw [List.length_cons, hl]
    exact fun h => h rfl
  rw [if_neg hlen]
  have hslice : slice (Spec.accepts side :: body) 1 (Spec.accepts side :: body).length = some body := by
    unfold slice
    rw [if_pos (by simp)]
    simp
  simp only [List.getElem?_cons_zero, Res.unwrap, Res.bind_ok, hslice]
  rw [show (started side pw x).side = side from rfl, checkSide_eq, if_pos rfl, Res.bind_ok]
  have hbe : ed25519.bytesToElement body = Ed25519.decompress body := by
    show ed25519BytesToElement body = _
    unfold ed25519BytesToElement
    rw [if_neg (not_not.2 hl)]
  rw [hbe, hd]
  simp only [Res.okOr, Res.bind_ok]
  rw [unblinding_eq, Res.bind_ok]
  have hK : ed25519.scalarmult (ed25519.add P (ed25519.scalarmult (Spec.peers side)
      (ed25519.scalarNeg (started side pw x).passwordScalar))) (started side pw x).xyScalar =
      Spec.shared side pw x.val P := by
    show x.val • (P + (-(pwScalar pw)).val • Spec.peers side) = _
    rw [val_neg_smul (ell_peers side), pwScalar_val, ← sub_eq_add_neg, Spec.shared]
  rw [hK]
  exact deriveKeyWith_eq h32 side pw _ body _ (Ed25519.compress_length _) hl

theorem finishWith_ok (h32 : D.outLen = 32) {side side' : Side} (hp : Spec.peers side = Spec.mine side')
    (hl : Spec.accepts side = Spec.letter side') (pw : Bytes) (x y : Scalar) :
    finishWith D ed25519 (started side pw x) (Spec.letter side' :: Ed25519.compress (Spec.sent side' pw y.val)) =
      .ok (D.hash (transcriptWith D side pw (Ed25519.compress (Spec.sent side pw x.val))
        (Ed25519.compress (Spec.sent side' pw y.val)) ((x.val * y.val) • Ed25519.base))) := by
  rw [← hl, finishWith_cons h32 side pw x _ _ (Ed25519.compress_length _) (Ed25519.decompress_compress _),
    shared_eq side side' pw _ _ hp]

variable (D)

/-- The inputs that a session hashes besides the transcript. -/
def ownHashed (side : Side) (pw : Bytes) : List Bytes :=
  match side with
  | .A idA idB => [pw, idA, idB]
  | .B idA idB => [pw, idA, idB]
  | .symmetric idS => [pw, idS]

/-- The hash function with the value at `t` drawn. -/
def drawnAt (t : Bytes) (s : D.Out) : Digest := D.program fun x => if x = t then some s else none

theorem drawnAt_self (t : Bytes) (s : D.Out) : (drawnAt D t s).hash t = s.1 := by simp [drawnAt, Digest.program]

theorem drawnAt_other {t x : Bytes} (s : D.Out) (h : x ≠ t) : (drawnAt D t s).hash x = D.hash x := by
  simp [drawnAt, Digest.program, h]

theorem run_drawnAt {α : Type} {A : Asker α} {t : Bytes} (s : D.Out) (h : t ∉ A.asked D) : A.run (drawnAt D t s) = A.run D :=
  A.run_program fun x hx => if_neg fun e : x = t => h (e ▸ hx)

theorem transcriptWith_drawnAt {side : Side} {pw own peer t : Bytes} {K : Point} (s : D.Out) (h : t ∉ ownHashed side pw) :
    transcriptWith (drawnAt D t s) side pw own peer K = transcriptWith D side pw own peer K := by
  have : ∀ x ∈ ownHashed side pw, (drawnAt D t s).hash x = D.hash x := fun x hx => drawnAt_other D s fun e => h (e ▸ hx)
  cases side <;> simp only [ownHashed, List.mem_cons, List.not_mem_nil, or_false, forall_eq_or_imp, forall_eq] at this <;>
    simp [transcriptWith, this]

/-- What an attacker's inputs say about the Diffie-Hellman value: their last 32 bytes. -/
def dhCandidates (l : List Bytes) : List Bytes := l.map fun x => x.drop (x.length - 32)

theorem mem_dhCandidates {side : Side} {pw own peer : Bytes} {K : Point} {l : List Bytes}
    (h : transcriptWith D side pw own peer K ∈ l) : Ed25519.compress K ∈ dhCandidates l := by
  refine List.mem_map.2 ⟨_, h, ?_⟩
  have hK := Ed25519.compress_length K
  cases side <;> exact last32_append _ _ hK

variable {D} {side side' : Side} {pw : Bytes} {x y : Scalar} {st st' : State Scalar} {m m' : Bytes}

/-- **C91 (SPAKE2, drawn key).** If the hash of the transcript of an honest session is drawn, the side returns the drawn string as
key, unless the transcript is the password or an identity. -/
theorem C91_spake2_drawn (h32 : D.outLen = 32) (hp : Spec.peers side = Spec.mine side')
    (hl : Spec.accepts side = Spec.letter side') (h : startInternal ed25519 side pw x = .ok (st, m))
    (h' : startInternal ed25519 side' pw y = .ok (st', m')) :
    let t := transcriptWith D side pw (m.drop 1) (m'.drop 1) ((x.val * y.val) • Ed25519.base)
    t ∉ ownHashed side pw → ∀ s : D.Out, finishWith (drawnAt D t s) ed25519 st m' = .ok s.1 := by
  intro t ht s
  obtain ⟨rfl, rfl⟩ := start_inv h
  obtain ⟨rfl, rfl⟩ := start_inv h'
  have e := finishWith_ok (D := drawnAt D t s) h32 hp hl pw x y
  rw [transcriptWith_drawnAt D s ht] at e
  have e' : transcriptWith D side pw (Ed25519.compress (Spec.sent side pw x.val))
      (Ed25519.compress (Spec.sent side' pw y.val)) ((x.val * y.val) • Ed25519.base) = t := by
    simp only [t, List.drop_succ_cons, List.drop_zero]
  rw [e', drawnAt_self] at e
  exact e

/-- **C91 (SPAKE2, finding the key).** An attacker who knows the password and the two messages of an honest session finds the key
for at most one of the `256^32` draws of the transcript's hash, unless one of the inputs it asks for ends with the Diffie-Hellman
value of the session's two secrets. -/
theorem C91_spake2_find (h32 : D.outLen = 32) (hp : Spec.peers side = Spec.mine side')
    (hl : Spec.accepts side = Spec.letter side') (h : startInternal ed25519 side pw x = .ok (st, m))
    (h' : startInternal ed25519 side' pw y = .ok (st', m')) (A : Bytes → Bytes → Asker Bytes)
    (hA : Ed25519.compress ((x.val * y.val) • Ed25519.base) ∉ dhCandidates ((A m m').asked D)) :
    let t := transcriptWith D side pw (m.drop 1) (m'.drop 1) ((x.val * y.val) • Ed25519.base)
    t ∉ ownHashed side pw →
    {s : D.Out | finishWith (drawnAt D t s) ed25519 st m' = .ok ((A m m').run (drawnAt D t s))}.ncard ≤ 1 := by
  intro t ht
  have hno : t ∉ (A m m').asked D := fun hm => hA (mem_dhCandidates D hm)
  rw [Set.ncard_le_one_iff]
  intro a b ha hb
  simp only [Set.mem_ofPred_eq] at ha hb
  rw [C91_spake2_drawn h32 hp hl h h' ht, run_drawnAt D _ hno, Res.ok.injEq] at ha hb
  exact Subtype.ext (ha.trans hb.symm)

/-- **C91 (SPAKE2).** An attacker who knows the password, gets the two messages of an honest session and a string, answers yes for
about as many draws if the string is the key of the session as if it is an independent one: the numbers differ by at most twice the
number of draws for which the attacker, run with a random string and a hash function that has nothing to do with the key, asks for
an input that ends with the Diffie-Hellman value of the session's two secrets. -/
theorem C91_spake2 (h32 : D.outLen = 32) (hp : Spec.peers side = Spec.mine side')
    (hl : Spec.accepts side = Spec.letter side') (h : startInternal ed25519 side pw x = .ok (st, m))
    (h' : startInternal ed25519 side' pw y = .ok (st', m')) (A : Bytes → Bytes → Bytes → Asker Bool) :
    let t := transcriptWith D side pw (m.drop 1) (m'.drop 1) ((x.val * y.val) • Ed25519.base)
    let real := {w : D.Out × D.Out | ∃ k, finishWith (drawnAt D t w.1) ed25519 st m' = .ok k ∧
      (A m m' k).run (drawnAt D t w.1) = true}
    let random := {w : D.Out × D.Out | (A m m' w.2.1).run (drawnAt D t w.1) = true}
    let err := 2 * {w : D.Out × D.Out |
      Ed25519.compress ((x.val * y.val) • Ed25519.base) ∈ dhCandidates ((A m m' w.1.1).asked D)}.ncard
    t ∉ ownHashed side pw → real.ncard ≤ random.ncard + err ∧ random.ncard ≤ real.ncard + err := by
  intro t real random err ht
  have key : ∀ (X Y Z : Set (D.Out × D.Out)), (∀ w, w ∉ Z → (w ∈ X ↔ w ∈ Y)) → X.ncard ≤ Y.ncard + Z.ncard := fun X Y Z h => by
    refine (Set.ncard_le_ncard (t := Y ∪ Z) (fun w hw => ?_) (Set.toFinite _)).trans (Set.ncard_union_le _ _)
    by_cases hZ : w ∈ Z
    · exact Or.inr hZ
    · exact Or.inl ((h w hZ).1 hw)
  have hswap : ∀ Q : D.Out → Prop, {w : D.Out × D.Out | Q w.2}.ncard = {w : D.Out × D.Out | Q w.1}.ncard := fun Q =>
    Set.ncard_congr (fun w _ => w.swap) (fun w hw => hw) (fun w w' _ _ h => Prod.swap_injective h)
      fun w hw => ⟨w.swap, hw, rfl⟩
  have h1 : ∀ w ∉ ({w | Ed25519.compress ((x.val * y.val) • Ed25519.base) ∈ dhCandidates ((A m m' w.1.1).asked D)} : Set (D.Out × D.Out)),
      (w ∈ real ↔ w ∈ {w : D.Out × D.Out | (A m m' w.1.1).run D = true}) := fun w hw => by
    have hno : t ∉ (A m m' w.1.1).asked D := fun hm => hw (mem_dhCandidates D hm)
    have hd : finishWith (drawnAt D t w.1) ed25519 st m' = .ok w.1.1 := C91_spake2_drawn h32 hp hl h h' ht w.1
    simp only [real, Set.mem_ofPred_eq, hd, Res.ok.injEq]
    constructor
    · rintro ⟨_, rfl, hr⟩
      rwa [run_drawnAt D _ hno] at hr
    · intro hr
      exact ⟨_, rfl, by rwa [run_drawnAt D _ hno]⟩
  have h2 : ∀ w ∉ ({w | Ed25519.compress ((x.val * y.val) • Ed25519.base) ∈ dhCandidates ((A m m' w.2.1).asked D)} : Set (D.Out × D.Out)),
      (w ∈ random ↔ w ∈ {w : D.Out × D.Out | (A m m' w.2.1).run D = true}) := fun w hw => by
    have hno : t ∉ (A m m' w.2.1).asked D := fun hm => hw (mem_dhCandidates D hm)
    simp only [random, Set.mem_ofPred_eq]
    rw [run_drawnAt D _ hno]
  have a1 := key _ _ _ h1
  have a2 := key _ _ _ (fun w hw => (h1 w hw).symm)
  have a3 := key _ _ _ h2
  have a4 := key _ _ _ (fun w hw => (h2 w hw).symm)
  have b3 := hswap fun k => (A m m' k.1).run D = true
  have b4 := hswap fun k => Ed25519.compress ((x.val * y.val) • Ed25519.base) ∈ dhCandidates ((A m m' k.1).asked D)
  constructor <;> omega

/-- **C91 (SPAKE2, the bound is attained).** Who asks for the transcript has the key, for every draw. -/
theorem C91_spake2_attained (h32 : D.outLen = 32) (hp : Spec.peers side = Spec.mine side')
    (hl : Spec.accepts side = Spec.letter side') (h : startInternal ed25519 side pw x = .ok (st, m))
    (h' : startInternal ed25519 side' pw y = .ok (st', m')) :
    let t := transcriptWith D side pw (m.drop 1) (m'.drop 1) ((x.val * y.val) • Ed25519.base)
    t ∉ ownHashed side pw →
    ∀ s : D.Out, finishWith (drawnAt D t s) ed25519 st m' = .ok ((Asker.ask t .done).run (drawnAt D t s)) := by
  intro t ht s
  rw [C91_spake2_drawn h32 hp hl h h' ht s]
  exact congrArg _ (drawnAt_self D t s).symm

/-- The hypotheses can be met: two sides whose identities and password are shorter than a transcript. -/
example (x y : Scalar) : ∃ st st' m m',
    startInternal ed25519 (.A [1] [2]) [3] x = .ok (st, m) ∧ startInternal ed25519 (.B [1] [2]) [3] y = .ok (st', m') ∧
    Spec.peers (.A [1] [2]) = Spec.mine (.B [1] [2]) ∧ Spec.accepts (.A [1] [2]) = Spec.letter (.B [1] [2]) ∧
    sha256.outLen = 32 ∧
    transcriptWith sha256 (.A [1] [2]) [3] (m.drop 1) (m'.drop 1) ((x.val * y.val) • Ed25519.base) ∉
      ownHashed (.A [1] [2]) [3] := by
  refine ⟨_, _, _, _, start_eq _ _ _, start_eq _ _ _, rfl, rfl, rfl, fun h => ?_⟩
  have hlen : ∀ z ∈ ownHashed (.A [1] [2]) [3], z.length = 1 := fun z hz => by
    simp only [ownHashed, List.mem_cons, List.not_mem_nil, or_false] at hz
    rcases hz with rfl | rfl | rfl <;> rfl
  have := hlen _ h
  rw [transcriptWith] at this
  simp only [List.length_append, Ed25519.compress_length] at this
  omega

end Verif.Spake2
