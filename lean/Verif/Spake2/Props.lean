import Verif.Spake2.Lemmas

/-!
# Properties of the `spake2` crate on Ed25519 (C16 - C19, C21 - C31)

Statements use the modelled API and `Verif/Spake2/Spec.lean`. A session is whatever `start_*` returns: `x` is the
scalar drawn from the generator, so quantifying over `x` covers every generator. `startInternal` with a `Side`
stands for the three constructors at once.
-/

namespace Verif.Spake2
open Ed25519 (Point)

/-! ## Helper: when `finish` accepts -/

theorem start_inv {side : Side} {pw : Bytes} {x : Scalar} {s : State Scalar} {own : Bytes}
    (h : startInternal ed25519 side pw x = .ok (s, own)) :
    s = started side pw x ∧ own = Spec.letter side :: Ed25519.compress (Spec.sent side pw x.val) := by
  rw [start_eq, Res.ok.injEq, Prod.mk.injEq] at h
  exact ⟨h.1.symm, h.2.symm⟩

theorem finish_ok_iff (side : Side) (pw : Bytes) (x : Scalar) (m k : Bytes) :
    finish ed25519 (started side pw x) m = .ok k ↔
      m.length = 33 ∧ m[0]? = some (Spec.accepts side) ∧ ∃ P, Ed25519.decompress (m.drop 1) = some P ∧
        k = sha256.hash (Spec.transcript side pw (Ed25519.compress (Spec.sent side pw x.val)) (m.drop 1)
          (Spec.shared side pw x.val P)) := by
  by_cases hl : m.length = 33
  · cases m with
    | nil => simp at hl
    | cons c body =>
      have hb : body.length = 32 := by simpa using hl
      rw [finish_cons side pw x c body hb]
      simp only [hl, List.getElem?_cons_zero, Option.some.injEq, List.drop_succ_cons, List.drop_zero,
        true_and]
      by_cases hc : c = Spec.accepts side
      · rw [if_pos hc]
        simp only [hc, true_and]
        cases hd : Ed25519.decompress body with
        | none => simp
        | some P =>
          simp only [Res.ok.injEq, Option.some.injEq]
          constructor
          · rintro rfl; exact ⟨P, rfl, rfl⟩
          · rintro ⟨P', rfl, rfl⟩; rfl
      · rw [if_neg hc]
        simp [hc]
  · rw [finish_length _ _ hl]
    simp [hl]

theorem decodable_iff (b : Bytes) (hl : b.length = 32) :
    Spec.Decodable b ↔ ∃ P, Ed25519.decompress b = some P := by
  constructor
  · rintro ⟨x, y, hy, hon⟩
    have hon' : y ^ 2 - x ^ 2 = 1 + Ed25519.edD * x ^ 2 * y ^ 2 := by rw [← hon]; ring
    by_cases hx : Ed25519.isNegative x = Ed25519.signBit b
    · exact ⟨⟨x, y, hon'⟩, (Ed25519.decompress_eq_some_iff b _).2 ⟨hl, hy, Or.inl hx⟩⟩
    · by_cases h0 : x = 0
      · exact ⟨⟨x, y, hon'⟩, (Ed25519.decompress_eq_some_iff b _).2 ⟨hl, hy, Or.inr h0⟩⟩
      · refine ⟨⟨-x, y, by rw [neg_sq]; exact hon'⟩,
          (Ed25519.decompress_eq_some_iff b _).2 ⟨hl, hy, Or.inl ?_⟩⟩
        have h1 := Ed25519.isNegative_neg h0
        revert h1 hx
        show _ → Ed25519.isNegative (-x) = !Ed25519.isNegative x → Ed25519.isNegative (-x) = _
        generalize Ed25519.isNegative (-x) = u
        generalize Ed25519.isNegative x = v
        generalize Ed25519.signBit b = w
        cases u <;> cases v <;> cases w <;> simp
  · rintro ⟨P, hP⟩
    obtain ⟨-, hy, -⟩ := (Ed25519.decompress_eq_some_iff b P).1 hP
    refine ⟨P.x, P.y, hy, ?_⟩
    rw [← P.on]; ring

/-- The two shared elements of an unmodified exchange coincide. -/
theorem shared_sent (x y w : Nat) (B N : Point) :
    x • (y • B + w • N - w • N) = (x * y) • B := by
  rw [add_sub_cancel_right, mul_comm, mul_nsmul]

theorem shared_eq (side side' : Side) (pw : Bytes) (x y : Nat) (h : Spec.peers side = Spec.mine side') :
    Spec.shared side pw x (Spec.sent side' pw y) = (x * y) • Ed25519.base := by
  rw [Spec.shared, Spec.sent, h, shared_sent]

/-! ## C16, C17: agreement -/

/-- **C16.** Same password, same identities, messages delivered unmodified: both sides return the same
32-byte key. -/
theorem C16_agreement (pw idA idB : Bytes) (x y : Scalar) :
    ∃ sA mA sB mB key,
      startAInternal ed25519 pw idA idB x = .ok (sA, mA) ∧
      startBInternal ed25519 pw idA idB y = .ok (sB, mB) ∧
      finish ed25519 sA mB = .ok key ∧ finish ed25519 sB mA = .ok key ∧ key.length = 32 := by
  refine ⟨_, _, _, _, sha256.hash (Spec.transcriptAB pw idA idB
    (Ed25519.compress (Spec.sent (.A idA idB) pw x.val))
    (Ed25519.compress (Spec.sent (.B idA idB) pw y.val)) ((x.val * y.val) • Ed25519.base)),
    start_eq _ _ _, start_eq _ _ _, ?_, ?_, sha256.hash_length _⟩
  · rw [finish_ok_iff]
    refine ⟨by simp [Ed25519.compress_length], rfl, _, Ed25519.decompress_compress _, ?_⟩
    rw [shared_eq (.A idA idB) (.B idA idB) pw _ _ rfl]; rfl
  · rw [finish_ok_iff]
    refine ⟨by simp [Ed25519.compress_length], rfl, _, Ed25519.decompress_compress _, ?_⟩
    rw [shared_eq (.B idA idB) (.A idA idB) pw _ _ rfl, mul_comm]; rfl

/-- **C16**, through the public constructors, for any generators. -/
theorem C16_agreement_rng {σ τ : Type} (R : Rng σ) (R' : Rng τ) (rng : σ) (rng' : τ) (pw idA idB : Bytes) :
    ∃ sA mA sB mB key,
      startAWithRng ed25519 R pw idA idB rng = .ok (sA, mA) ∧
      startBWithRng ed25519 R' pw idA idB rng' = .ok (sB, mB) ∧
      finish ed25519 sA mB = .ok key ∧ finish ed25519 sB mA = .ok key ∧ key.length = 32 :=
  C16_agreement pw idA idB _ _

/-- **C17.** Two symmetric sides agree, in whatever order their messages sort. -/
theorem C17_agreement (pw idS : Bytes) (x y : Scalar) :
    ∃ s m s' m' key,
      startSymmetricInternal ed25519 pw idS x = .ok (s, m) ∧
      startSymmetricInternal ed25519 pw idS y = .ok (s', m') ∧
      finish ed25519 s m' = .ok key ∧ finish ed25519 s' m = .ok key ∧ key.length = 32 := by
  refine ⟨_, _, _, _, sha256.hash (Spec.transcriptSym pw idS
    (Ed25519.compress (Spec.sent (.symmetric idS) pw x.val))
    (Ed25519.compress (Spec.sent (.symmetric idS) pw y.val)) ((x.val * y.val) • Ed25519.base)),
    start_eq _ _ _, start_eq _ _ _, ?_, ?_, sha256.hash_length _⟩
  · rw [finish_ok_iff]
    refine ⟨by simp [Ed25519.compress_length], rfl, _, Ed25519.decompress_compress _, ?_⟩
    rw [shared_eq (.symmetric idS) (.symmetric idS) pw _ _ rfl]; rfl
  · rw [finish_ok_iff]
    refine ⟨by simp [Ed25519.compress_length], rfl, _, Ed25519.decompress_compress _, ?_⟩
    rw [shared_eq (.symmetric idS) (.symmetric idS) pw _ _ rfl, mul_comm, Spec.transcriptSym, sorted_comm]
    · rfl
    · rw [Ed25519.compress_length, Ed25519.compress_length]

/-- **C17**, through the public constructor, for any generators. -/
theorem C17_agreement_rng {σ τ : Type} (R : Rng σ) (R' : Rng τ) (rng : σ) (rng' : τ) (pw idS : Bytes) :
    ∃ s m s' m' key,
      startSymmetricWithRng ed25519 R pw idS rng = .ok (s, m) ∧
      startSymmetricWithRng ed25519 R' pw idS rng' = .ok (s', m') ∧
      finish ed25519 s m' = .ok key ∧ finish ed25519 s' m = .ok key ∧ key.length = 32 :=
  C17_agreement pw idS _ _

/-! ## C18, C19: classification, no panic -/

/-- **C18.** The outcome of `finish` on every byte string. -/
theorem C18_classification {side : Side} {pw : Bytes} {x : Scalar} {s : State Scalar} {own : Bytes}
    (h : startInternal ed25519 side pw x = .ok (s, own)) (m : Bytes) :
    (finish ed25519 s m = .err .wrongLength ↔ m.length ≠ 33) ∧
    (finish ed25519 s m = .err .badSide ↔ m.length = 33 ∧ m[0]? ≠ some (Spec.accepts side)) ∧
    (finish ed25519 s m = .err .corruptMessage ↔
      m.length = 33 ∧ m[0]? = some (Spec.accepts side) ∧ ¬ Spec.Decodable (m.drop 1)) ∧
    ((∃ key, finish ed25519 s m = .ok key ∧ key.length = 32) ↔
      m.length = 33 ∧ m[0]? = some (Spec.accepts side) ∧ Spec.Decodable (m.drop 1)) := by
  obtain ⟨rfl, -⟩ := start_inv h
  by_cases hl : m.length = 33
  · cases m with
    | nil => simp at hl
    | cons c body =>
      have hb : body.length = 32 := by simpa using hl
      simp only [hl, List.getElem?_cons_zero, Option.some.injEq, List.drop_succ_cons, List.drop_zero,
        true_and, decodable_iff body hb, finish_cons side pw x c body hb]
      by_cases hc : c = Spec.accepts side
      · rw [if_pos hc]
        cases hd : Ed25519.decompress body with
        | none => simp [hc]
        | some P =>
          have := sha256.hash_length (Spec.transcript side pw
            (Ed25519.compress (Spec.sent side pw x.val)) body (Spec.shared side pw x.val P))
          simp [hc]
          exact this
      · rw [if_neg hc]
        simp [hc]
  · rw [finish_length _ _ hl]
    simp [hl]

/-- **C19 (start).** The constructors never panic (nor fail). -/
theorem C19_start (side : Side) (pw : Bytes) (x : Scalar) :
    ∃ s own, startInternal ed25519 side pw x = .ok (s, own) := ⟨_, _, start_eq side pw x⟩

/-- **C19 (finish).** `finish` never panics, whatever arrives. -/
theorem C19_finish {side : Side} {pw : Bytes} {x : Scalar} {s : State Scalar} {own : Bytes}
    (h : startInternal ed25519 side pw x = .ok (s, own)) (m : Bytes) :
    finish ed25519 s m ≠ .panic := by
  obtain ⟨rfl, -⟩ := start_inv h
  by_cases hl : m.length = 33
  · cases m with
    | nil => simp at hl
    | cons c body =>
      have hb : body.length = 32 := by simpa using hl
      rw [finish_cons side pw x c body hb]
      split
      · split <;> simp
      · simp
  · rw [finish_length _ _ hl]; simp

/-- `hash_ab` and `hash_symmetric` are public: outside the protocol they panic exactly on inputs whose
messages or key are not 32 bytes long. -/
theorem C19_hash_ab (pw idA idB X Y K : Bytes) :
    hashAb pw idA idB X Y K = .panic ↔ ¬ (X.length = 32 ∧ Y.length = 32 ∧ K.length = 32) := by
  rw [hashAb_eq]; split <;> simp [*]

theorem C19_hash_symmetric (pw idS X Y K : Bytes) :
    hashSymmetric pw idS X Y K = .panic ↔ ¬ (X.length = 32 ∧ Y.length = 32 ∧ K.length = 32) := by
  rw [hashSymmetric_eq]; split <;> simp [*]

/-! ## C21 - C23: the key binds everything -/

/-- Helper: two strings of six hash-sized fields. -/
theorem fields6 {a b c d e f a' b' c' d' e' f' : Bytes}
    (ha : a.length = a'.length) (hb : b.length = b'.length) (hc : c.length = c'.length)
    (hd : d.length = d'.length) (he : e.length = e'.length)
    (h : a ++ b ++ c ++ d ++ e ++ f = a' ++ b' ++ c' ++ d' ++ e' ++ f') :
    a = a' ∧ b = b' ∧ c = c' ∧ d = d' ∧ e = e' ∧ f = f' := by
  obtain ⟨h5, e6⟩ := append_inj_of_length (by simp [ha, hb, hc, hd, he]) h
  obtain ⟨h4, e5⟩ := append_inj_of_length (by simp [ha, hb, hc, hd]) h5
  obtain ⟨h3, e4⟩ := append_inj_of_length (by simp [ha, hb, hc]) h4
  obtain ⟨h2, e3⟩ := append_inj_of_length (by simp [ha, hb]) h3
  obtain ⟨e1, e2⟩ := append_inj_of_length ha h2
  exact ⟨e1, e2, e3, e4, e5, e6⟩

/-- What `transcriptAB` determines. -/
theorem transcriptAB_inj {pw idA idB X Y pw' idA' idB' X' Y' : Bytes} {K K' : Point}
    (hX : X.length = 32) (hY : Y.length = 32) (hX' : X'.length = 32) (hY' : Y'.length = 32)
    (h : sha256.hash (Spec.transcriptAB pw idA idB X Y K) =
      sha256.hash (Spec.transcriptAB pw' idA' idB' X' Y' K')) :
    (pw = pw' ∧ idA = idA' ∧ idB = idB' ∧ X = X' ∧ Y = Y' ∧ K = K') ∨
    sha256.Collision pw pw' ∨ sha256.Collision idA idA' ∨ sha256.Collision idB idB' ∨
    sha256.Collision (Spec.transcriptAB pw idA idB X Y K) (Spec.transcriptAB pw' idA' idB' X' Y' K') := by
  rcases sha256.eq_or_collision h with heq | hcol
  · unfold Spec.transcriptAB at heq
    obtain ⟨h1, h2, h3, h4, h5, h6⟩ := fields6 (by simp) (by simp) (by simp) (by rw [hX, hX'])
      (by rw [hY, hY']) heq
    rcases sha256.eq_or_collision h1 with e1 | c
    swap
    · exact Or.inr (Or.inl c)
    rcases sha256.eq_or_collision h2 with e2 | c
    swap
    · exact Or.inr (Or.inr (Or.inl c))
    rcases sha256.eq_or_collision h3 with e3 | c
    swap
    · exact Or.inr (Or.inr (Or.inr (Or.inl c)))
    exact Or.inl ⟨e1, e2, e3, h4, h5, Ed25519.compress_injective h6⟩
  · exact Or.inr (Or.inr (Or.inr (Or.inr hcol)))

/-- What `transcriptSym` determines. -/
theorem transcriptSym_inj {pw idS X Y pw' idS' X' Y' : Bytes} {K K' : Point}
    (hX : X.length = 32) (hY : Y.length = 32) (hX' : X'.length = 32) (hY' : Y'.length = 32)
    (h : sha256.hash (Spec.transcriptSym pw idS X Y K) =
      sha256.hash (Spec.transcriptSym pw' idS' X' Y' K')) :
    (pw = pw' ∧ idS = idS' ∧ ((X = X' ∧ Y = Y') ∨ (X = Y' ∧ Y = X')) ∧ K = K') ∨
    sha256.Collision pw pw' ∨ sha256.Collision idS idS' ∨
    sha256.Collision (Spec.transcriptSym pw idS X Y K) (Spec.transcriptSym pw' idS' X' Y' K') := by
  rcases sha256.eq_or_collision h with heq | hcol
  · unfold Spec.transcriptSym at heq
    obtain ⟨heq, h4⟩ := append_inj_of_length (by simp [hX, hY, hX', hY']) heq
    obtain ⟨heq, h3⟩ := append_inj_of_length (by simp) heq
    obtain ⟨h1, h2⟩ := append_inj_of_length (by simp) heq
    rcases sha256.eq_or_collision h1 with e1 | c
    swap
    · exact Or.inr (Or.inl c)
    rcases sha256.eq_or_collision h2 with e2 | c
    swap
    · exact Or.inr (Or.inr (Or.inl c))
    exact Or.inl ⟨e1, e2, sorted_inj hX hY hX' hY' h3, Ed25519.compress_injective h4⟩
  · exact Or.inr (Or.inr (Or.inr hcol))

/-- The role of an asymmetric session; `toSide` gives the model's `Side`. -/
inductive Role where
  | a
  | b

def Role.toSide : Role → Bytes → Bytes → Side
  | .a => .A
  | .b => .B

/-- The message of the A side, given the own and the peer's message, without the letter. -/
def Role.aMsg : Role → Bytes → Bytes → Bytes
  | .a, own, _ => own.drop 1
  | .b, _, peer => peer.drop 1

/-- The message of the B side. -/
def Role.bMsg : Role → Bytes → Bytes → Bytes
  | .a, _, peer => peer.drop 1
  | .b, own, _ => own.drop 1

theorem Role.aMsg_length (r : Role) {own peer : Bytes} (h : (own.drop 1).length = 32)
    (h' : (peer.drop 1).length = 32) : (r.aMsg own peer).length = 32 := by
  cases r
  · exact h
  · exact h'

theorem Role.bMsg_length (r : Role) {own peer : Bytes} (h : (own.drop 1).length = 32)
    (h' : (peer.drop 1).length = 32) : (r.bMsg own peer).length = 32 := by
  cases r
  · exact h'
  · exact h

theorem transcript_role (r : Role) (idA idB pw own peer : Bytes) (K : Point) :
    Spec.transcript (r.toSide idA idB) pw (own.drop 1) (peer.drop 1) K =
      Spec.transcriptAB pw idA idB (r.aMsg own peer) (r.bMsg own peer) K := by
  cases r <;> rfl

/-- **C21.** Two asymmetric sessions with the same key used the same password, identities, messages and
shared element, or an explicit pair collides under SHA-256. -/
theorem C21_binding {r r' : Role} {pw idA idB pw' idA' idB' : Bytes} {x x' : Scalar}
    {s s' : State Scalar} {own own' m m' key : Bytes}
    (h : startInternal ed25519 (r.toSide idA idB) pw x = .ok (s, own))
    (h' : startInternal ed25519 (r'.toSide idA' idB') pw' x' = .ok (s', own'))
    (hk : finish ed25519 s m = .ok key) (hk' : finish ed25519 s' m' = .ok key) :
    ∃ P P' : Point, Ed25519.decompress (m.drop 1) = some P ∧ Ed25519.decompress (m'.drop 1) = some P' ∧
      let K := Spec.shared (r.toSide idA idB) pw x.val P
      let K' := Spec.shared (r'.toSide idA' idB') pw' x'.val P'
      (pw = pw' ∧ idA = idA' ∧ idB = idB' ∧ r.aMsg own m = r'.aMsg own' m' ∧
        r.bMsg own m = r'.bMsg own' m' ∧ K = K') ∨
      sha256.Collision pw pw' ∨ sha256.Collision idA idA' ∨ sha256.Collision idB idB' ∨
      sha256.Collision (Spec.transcriptAB pw idA idB (r.aMsg own m) (r.bMsg own m) K)
        (Spec.transcriptAB pw' idA' idB' (r'.aMsg own' m') (r'.bMsg own' m') K') := by
  obtain ⟨rfl, ho⟩ := start_inv h
  obtain ⟨rfl, ho'⟩ := start_inv h'
  obtain ⟨hl, -, P, hP, hkey⟩ := (finish_ok_iff _ _ _ _ _).1 hk
  obtain ⟨hl', -, P', hP', hkey'⟩ := (finish_ok_iff _ _ _ _ _).1 hk'
  refine ⟨P, P', hP, hP', ?_⟩
  have e1 : Ed25519.compress (Spec.sent (r.toSide idA idB) pw x.val) = own.drop 1 := by
    rw [ho, List.drop_succ_cons, List.drop_zero]
  have e2 : Ed25519.compress (Spec.sent (r'.toSide idA' idB') pw' x'.val) = own'.drop 1 := by
    rw [ho', List.drop_succ_cons, List.drop_zero]
  have d1 : (own.drop 1).length = 32 := by rw [← e1, Ed25519.compress_length]
  have d2 : (own'.drop 1).length = 32 := by rw [← e2, Ed25519.compress_length]
  have d3 : (m.drop 1).length = 32 := by rw [List.length_drop, hl]
  have d4 : (m'.drop 1).length = 32 := by rw [List.length_drop, hl']
  rw [e1, transcript_role] at hkey
  rw [e2, transcript_role] at hkey'
  exact transcriptAB_inj (r.aMsg_length d1 d3) (r.bMsg_length d1 d3)
    (r'.aMsg_length d2 d4) (r'.bMsg_length d2 d4) (hkey.symm.trans hkey')

/-- The hypotheses of C18–C22, C24, C25 and C29 are met: sessions start, and sides A and B, and two symmetric sides, finish
with one key. C21_mismatch, C22_cross_mode and C23 have the further hypothesis that different sessions give one key; that
is what they are about, and they conclude that SHA-256 collides. -/
example : ∃ sA mA sB mB key s m s' m' key',
    startInternal ed25519 (Role.a.toSide (ascii "a") (ascii "b")) (ascii "password") 5 = .ok (sA, mA) ∧
    startInternal ed25519 (Role.b.toSide (ascii "a") (ascii "b")) (ascii "password") 7 = .ok (sB, mB) ∧
    finish ed25519 sA mB = .ok key ∧ finish ed25519 sB mA = .ok key ∧
    startInternal ed25519 (.symmetric (ascii "s")) (ascii "password") 5 = .ok (s, m) ∧
    startInternal ed25519 (.symmetric (ascii "s")) (ascii "password") 7 = .ok (s', m') ∧
    finish ed25519 s m' = .ok key' ∧ finish ed25519 s' m = .ok key' := by
  obtain ⟨sA, mA, sB, mB, key, h1, h2, h3, h4, -⟩ := C16_agreement (ascii "password") (ascii "a") (ascii "b") 5 7
  obtain ⟨s, m, s', m', key', h5, h6, h7, h8, -⟩ := C17_agreement (ascii "password") (ascii "s") 5 7
  exact ⟨sA, mA, sB, mB, key, s, m, s', m', key', h1, h2, h3, h4, h5, h6, h7, h8⟩

/-- **C21**, in particular: different passwords, identities or messages never give the same key unless one of the
named pairs collides. -/
theorem C21_mismatch {r r' : Role} {pw idA idB pw' idA' idB' : Bytes} {x x' : Scalar}
    {s s' : State Scalar} {own own' m m' key : Bytes}
    (h : startInternal ed25519 (r.toSide idA idB) pw x = .ok (s, own))
    (h' : startInternal ed25519 (r'.toSide idA' idB') pw' x' = .ok (s', own'))
    (hk : finish ed25519 s m = .ok key) (hk' : finish ed25519 s' m' = .ok key)
    (hne : pw ≠ pw' ∨ idA ≠ idA' ∨ idB ≠ idB' ∨ r.aMsg own m ≠ r'.aMsg own' m' ∨
      r.bMsg own m ≠ r'.bMsg own' m') :
    ∃ P P' : Point, Ed25519.decompress (m.drop 1) = some P ∧ Ed25519.decompress (m'.drop 1) = some P' ∧
      (sha256.Collision pw pw' ∨ sha256.Collision idA idA' ∨ sha256.Collision idB idB' ∨
      sha256.Collision (Spec.transcriptAB pw idA idB (r.aMsg own m) (r.bMsg own m)
          (Spec.shared (r.toSide idA idB) pw x.val P))
        (Spec.transcriptAB pw' idA' idB' (r'.aMsg own' m') (r'.bMsg own' m')
          (Spec.shared (r'.toSide idA' idB') pw' x'.val P'))) := by
  obtain ⟨P, P', hP, hP', h⟩ := C21_binding h h' hk hk'
  refine ⟨P, P', hP, hP', ?_⟩
  rcases h with ⟨h1, h2, h3, h4, h5, -⟩ | h
  · rcases hne with hn | hn | hn | hn | hn
    · exact absurd h1 hn
    · exact absurd h2 hn
    · exact absurd h3 hn
    · exact absurd h4 hn
    · exact absurd h5 hn
  · exact h

/-- **C22.** Two symmetric sessions with the same key. -/
theorem C22_binding {pw idS pw' idS' : Bytes} {x x' : Scalar}
    {s s' : State Scalar} {own own' m m' key : Bytes}
    (h : startInternal ed25519 (.symmetric idS) pw x = .ok (s, own))
    (h' : startInternal ed25519 (.symmetric idS') pw' x' = .ok (s', own'))
    (hk : finish ed25519 s m = .ok key) (hk' : finish ed25519 s' m' = .ok key) :
    ∃ P P' : Point, Ed25519.decompress (m.drop 1) = some P ∧ Ed25519.decompress (m'.drop 1) = some P' ∧
      let K := Spec.shared (.symmetric idS) pw x.val P
      let K' := Spec.shared (.symmetric idS') pw' x'.val P'
      (pw = pw' ∧ idS = idS' ∧ ((own = own' ∧ m = m') ∨ (own = m' ∧ m = own')) ∧ K = K') ∨
      sha256.Collision pw pw' ∨ sha256.Collision idS idS' ∨
      sha256.Collision (Spec.transcriptSym pw idS (own.drop 1) (m.drop 1) K)
        (Spec.transcriptSym pw' idS' (own'.drop 1) (m'.drop 1) K') := by
  obtain ⟨rfl, ho⟩ := start_inv h
  obtain ⟨rfl, ho'⟩ := start_inv h'
  obtain ⟨hl, hc, P, hP, hkey⟩ := (finish_ok_iff _ _ _ _ _).1 hk
  obtain ⟨hl', hc', P', hP', hkey'⟩ := (finish_ok_iff _ _ _ _ _).1 hk'
  refine ⟨P, P', hP, hP', ?_⟩
  have e1 : Ed25519.compress (Spec.sent (.symmetric idS) pw x.val) = own.drop 1 := by
    rw [ho, List.drop_succ_cons, List.drop_zero]
  have e2 : Ed25519.compress (Spec.sent (.symmetric idS') pw' x'.val) = own'.drop 1 := by
    rw [ho', List.drop_succ_cons, List.drop_zero]
  have d1 : (own.drop 1).length = 32 := by rw [← e1, Ed25519.compress_length]
  have d2 : (own'.drop 1).length = 32 := by rw [← e2, Ed25519.compress_length]
  have d3 : (m.drop 1).length = 32 := by rw [List.length_drop, hl]
  have d4 : (m'.drop 1).length = 32 := by rw [List.length_drop, hl']
  rw [e1] at hkey
  rw [e2] at hkey'
  have full : ∀ u : Bytes, u[0]? = some 83 → u = 83 :: u.drop 1 := by
    intro u hu
    cases u with
    | nil => simp at hu
    | cons c u => simp at hu; simp [hu]
  have f1 : own = 83 :: own.drop 1 := full _ (by rw [ho, List.getElem?_cons_zero, Spec.letter])
  have f2 : own' = 83 :: own'.drop 1 := full _ (by rw [ho', List.getElem?_cons_zero, Spec.letter])
  have f3 : m = 83 :: m.drop 1 := full _ hc
  have f4 : m' = 83 :: m'.drop 1 := full _ hc'
  rcases transcriptSym_inj d1 d3 d2 d4 (hkey.symm.trans hkey') with ⟨h1, h2, h3, h4⟩ | h | h | h
  · refine Or.inl ⟨h1, h2, ?_, h4⟩
    rcases h3 with ⟨h3, h5⟩ | ⟨h3, h5⟩
    · left; rw [f1, f2, f3, f4, h3, h5]; exact ⟨rfl, rfl⟩
    · right; rw [f1, f2, f3, f4, h3, h5]; exact ⟨rfl, rfl⟩
  · exact Or.inr (Or.inl h)
  · exact Or.inr (Or.inr (Or.inl h))
  · exact Or.inr (Or.inr (Or.inr h))

/-- **C22 (across modes).** A symmetric and an asymmetric session share a key only if their transcripts, of
different lengths, collide. -/
theorem C22_cross_mode {r : Role} {pw idA idB pw' idS : Bytes} {x x' : Scalar}
    {s s' : State Scalar} {own own' m m' key : Bytes}
    (h : startInternal ed25519 (r.toSide idA idB) pw x = .ok (s, own))
    (h' : startInternal ed25519 (.symmetric idS) pw' x' = .ok (s', own'))
    (hk : finish ed25519 s m = .ok key) (hk' : finish ed25519 s' m' = .ok key) :
    ∃ P P' : Point, Ed25519.decompress (m.drop 1) = some P ∧ Ed25519.decompress (m'.drop 1) = some P' ∧
      sha256.Collision
        (Spec.transcriptAB pw idA idB (r.aMsg own m) (r.bMsg own m)
          (Spec.shared (r.toSide idA idB) pw x.val P))
        (Spec.transcriptSym pw' idS (own'.drop 1) (m'.drop 1)
          (Spec.shared (.symmetric idS) pw' x'.val P')) := by
  obtain ⟨rfl, ho⟩ := start_inv h
  obtain ⟨rfl, ho'⟩ := start_inv h'
  obtain ⟨hl, -, P, hP, hkey⟩ := (finish_ok_iff _ _ _ _ _).1 hk
  obtain ⟨hl', -, P', hP', hkey'⟩ := (finish_ok_iff _ _ _ _ _).1 hk'
  refine ⟨P, P', hP, hP', ?_⟩
  have e1 : Ed25519.compress (Spec.sent (r.toSide idA idB) pw x.val) = own.drop 1 := by
    rw [ho, List.drop_succ_cons, List.drop_zero]
  have e2 : Ed25519.compress (Spec.sent (.symmetric idS) pw' x'.val) = own'.drop 1 := by
    rw [ho', List.drop_succ_cons, List.drop_zero]
  have d1 : (own.drop 1).length = 32 := by rw [← e1, Ed25519.compress_length]
  have d2 : (own'.drop 1).length = 32 := by rw [← e2, Ed25519.compress_length]
  have d3 : (m.drop 1).length = 32 := by rw [List.length_drop, hl]
  have d4 : (m'.drop 1).length = 32 := by rw [List.length_drop, hl']
  rw [e1, transcript_role] at hkey
  rw [e2] at hkey'
  refine ⟨?_, hkey.symm.trans hkey'⟩
  intro heq
  have hlen := congrArg List.length heq
  have l1 : (r.aMsg own m).length = 32 := r.aMsg_length d1 d3
  have l2 : (r.bMsg own m).length = 32 := r.bMsg_length d1 d3
  have ho : sha256.outLen = 32 := rfl
  simp only [Spec.transcriptAB, Spec.transcriptSym, List.length_append, Digest.hash_length, l1, l2,
    sorted_length, d2, d4, Ed25519.compress_length, ho] at hlen
  omega

/-- **C23.** Two different byte strings accepted by the same session never give the same key, unless their
transcripts collide. -/
theorem C23_no_malleability {side : Side} {pw : Bytes} {x : Scalar} {s : State Scalar}
    {own m m' key : Bytes} (h : startInternal ed25519 side pw x = .ok (s, own))
    (hk : finish ed25519 s m = .ok key) (hk' : finish ed25519 s m' = .ok key) (hne : m ≠ m') :
    ∃ P P' : Point, Ed25519.decompress (m.drop 1) = some P ∧ Ed25519.decompress (m'.drop 1) = some P' ∧
      sha256.Collision
        (Spec.transcript side pw (own.drop 1) (m.drop 1) (Spec.shared side pw x.val P))
        (Spec.transcript side pw (own.drop 1) (m'.drop 1) (Spec.shared side pw x.val P')) := by
  obtain ⟨rfl, ho⟩ := start_inv h
  obtain ⟨hl, hc, P, hP, hkey⟩ := (finish_ok_iff _ _ _ _ _).1 hk
  obtain ⟨hl', hc', P', hP', hkey'⟩ := (finish_ok_iff _ _ _ _ _).1 hk'
  refine ⟨P, P', hP, hP', ?_⟩
  have e1 : Ed25519.compress (Spec.sent side pw x.val) = own.drop 1 := by
    rw [ho, List.drop_succ_cons, List.drop_zero]
  have d1 : (own.drop 1).length = 32 := by rw [← e1, Ed25519.compress_length]
  have d3 : (m.drop 1).length = 32 := by rw [List.length_drop, hl]
  have d4 : (m'.drop 1).length = 32 := by rw [List.length_drop, hl']
  rw [e1] at hkey hkey'
  refine ⟨?_, hkey.symm.trans hkey'⟩
  intro heq
  have hbody : m.drop 1 ≠ m'.drop 1 := by
    intro hd
    cases m with
    | nil => simp at hl
    | cons c u =>
      cases m' with
      | nil => simp at hl'
      | cons c' u' =>
        simp only [List.getElem?_cons_zero, Option.some.injEq] at hc hc'
        simp only [List.drop_succ_cons, List.drop_zero] at hd
        exact hne (by rw [hc, hc', hd])
  cases side with
  | A idA idB =>
    obtain ⟨-, -, -, -, h5, -⟩ := fields6 (by simp) (by simp) (by simp) rfl (by rw [d3, d4]) heq
    exact hbody h5
  | B idA idB =>
    obtain ⟨-, -, -, h4, -⟩ := fields6 (by simp) (by simp) (by simp) (by rw [d3, d4]) rfl heq
    exact hbody h4
  | symmetric idS =>
    simp only [Spec.transcript, Spec.transcriptSym] at heq
    obtain ⟨heq, -⟩ := append_inj_of_length (by simp only [List.length_append, Digest.hash_length, sorted_length, d1, d3, d4]) heq
    obtain ⟨-, h3⟩ := append_inj_of_length (by simp) heq
    rcases sorted_inj d1 d3 d1 d4 h3 with ⟨-, h⟩ | ⟨h, h'⟩
    · exact hbody h
    · exact hbody (h'.trans h)

/-! ## C24, C25: roles and reflection -/

/-- The pairs (sender, receiver) that may talk to each other. -/
def Compatible : Side → Side → Prop
  | .A _ _, .B _ _ => True
  | .B _ _, .A _ _ => True
  | .symmetric _, .symmetric _ => True
  | _, _ => False

/-- **C24.** A message from a session of a non-matching role is refused with `BadSide`; from a matching role
it is accepted. -/
theorem C24_roles {side side' : Side} {pw pw' : Bytes} {x x' : Scalar} {s s' : State Scalar}
    {own own' : Bytes} (h : startInternal ed25519 side pw x = .ok (s, own))
    (h' : startInternal ed25519 side' pw' x' = .ok (s', own')) :
    (¬ Compatible side' side → finish ed25519 s own' = .err .badSide) ∧
    (Compatible side' side → ∃ key, finish ed25519 s own' = .ok key) := by
  obtain ⟨rfl, -⟩ := start_inv h
  obtain ⟨-, rfl⟩ := start_inv h'
  rw [finish_cons _ _ _ _ _ (Ed25519.compress_length _), Ed25519.decompress_compress]
  constructor
  · intro hn
    rw [if_neg]
    cases side <;> cases side' <;> simp [Compatible] at hn <;> simp [Spec.letter, Spec.accepts]
  · intro hc
    rw [if_pos]
    · exact ⟨_, rfl⟩
    · cases side <;> cases side' <;> simp [Compatible] at hc <;> rfl

/-- A/B, its own reflection and all mixed cases are incompatible; A with B is not. -/
example : ¬ Compatible (.A [] []) (.A [] []) ∧ ¬ Compatible (.A [] []) (.symmetric []) ∧
    ¬ Compatible (.symmetric []) (.B [] []) ∧ Compatible (.A [1] []) (.B [] [2]) := by
  simp [Compatible]

/-- **C25 (what holds).** An A or B session refuses its own message. -/
theorem C25_partial {r : Role} {idA idB pw : Bytes} {x : Scalar} {s : State Scalar} {own : Bytes}
    (h : startInternal ed25519 (r.toSide idA idB) pw x = .ok (s, own)) :
    finish ed25519 s own = .err .badSide :=
  (C24_roles h h).1 (by cases r <;> simp [Role.toSide, Compatible])

/-- **C25 is false in symmetric mode.** Every symmetric session accepts its own message; the key is the one
with shared element `x * x * B`. -/
theorem C25_negation (pw idS : Bytes) (x : Scalar) :
    ∃ s own key, startSymmetricInternal ed25519 pw idS x = .ok (s, own) ∧
      finish ed25519 s own = .ok key ∧
      key = sha256.hash (Spec.transcriptSym pw idS (own.drop 1) (own.drop 1)
        ((x.val * x.val) • Ed25519.base)) := by
  refine ⟨_, _, _, start_eq _ _ _, ?_, rfl⟩
  rw [finish_ok_iff]
  refine ⟨by simp [Ed25519.compress_length], rfl, _, Ed25519.decompress_compress _, ?_⟩
  rw [shared_eq (.symmetric idS) (.symmetric idS) pw _ _ rfl]; rfl

/-! ## C26: the message hides the password -/

/-- **C26.** For every password, each encoding of an element of the prime-order subgroup is sent by exactly one
scalar, and nothing else is ever sent. The set of messages and the number of scalars producing each do not
mention the password. -/
theorem C26_message_independent_of_password (side : Side) (pw m : Bytes) :
    (∃ P : Point, ell • P = 0 ∧ m = Spec.letter side :: Ed25519.compress P) ↔
      ∃! x : Scalar, ∃ s, startInternal ed25519 side pw x = .ok (s, m) := by
  have hB := Ed25519.ell_base
  constructor
  · rintro ⟨P, hP, rfl⟩
    have hQ : ell • (P - Spec.pwNum pw • Spec.mine side) = 0 := by
      rw [nsmul_sub, hP, ← mul_nsmul', mul_comm, mul_nsmul', ell_mine, nsmul_zero, sub_zero]
    obtain ⟨n, hn, hPn⟩ := Ed25519.exists_base hQ
    have hval : ((n : Scalar)).val = n := by rw [ZMod.val_natCast, Nat.mod_eq_of_lt hn]
    refine ⟨(n : Scalar), ⟨started side pw (n : Scalar), ?_⟩, ?_⟩
    · rw [start_eq, Spec.sent, hval, ← hPn, sub_add_cancel]
    · rintro y ⟨s, hs⟩
      obtain ⟨-, hy⟩ := start_inv hs
      rw [List.cons.injEq] at hy
      have hy := Ed25519.compress_injective hy.2
      rw [Spec.sent, ← sub_eq_iff_eq_add, hPn, Ed25519.smul_base_eq_iff] at hy
      have hyv : y.val < ell := ZMod.val_lt y
      rw [Nat.mod_eq_of_lt hn, Nat.mod_eq_of_lt hyv] at hy
      rw [hy, ZMod.natCast_zmod_val]
  · rintro ⟨x, ⟨s, hs⟩, -⟩
    obtain ⟨-, rfl⟩ := start_inv hs
    refine ⟨_, ?_, rfl⟩
    rw [Spec.sent, nsmul_add, ← mul_nsmul', mul_comm, mul_nsmul', hB, nsmul_zero, zero_add,
      ← mul_nsmul', mul_comm, mul_nsmul', ell_mine, nsmul_zero]

/-- **C26**, two passwords compared: the same messages, by translation of the scalar. -/
theorem C26_two_passwords (side : Side) (pw pw' : Bytes) (x : Scalar) {s : State Scalar} {m : Bytes}
    (h : startInternal ed25519 side pw x = .ok (s, m)) :
    ∃! x' : Scalar, ∃ s', startInternal ed25519 side pw' x' = .ok (s', m) := by
  rw [← C26_message_independent_of_password side pw' m]
  obtain ⟨-, rfl⟩ := start_inv h
  refine ⟨_, ?_, rfl⟩
  rw [Spec.sent, nsmul_add, ← mul_nsmul', mul_comm, mul_nsmul', Ed25519.ell_base, nsmul_zero, zero_add,
    ← mul_nsmul', mul_comm, mul_nsmul', ell_mine, nsmul_zero]

/-! ## C27, C28: constants and password scalar -/

/-- **C27.** The constants decode, re-encode to the source bytes, are distinct and not the identity, and lie in
the subgroup of order `ell`. -/
theorem C27_constants :
    ∃ M N S : Point, ed25519.constM = .ok M ∧ ed25519.constN = .ok N ∧ ed25519.constS = .ok S ∧
      Ed25519.compress M = bytesM ∧ Ed25519.compress N = bytesN ∧ Ed25519.compress S = bytesS ∧
      ell • M = 0 ∧ ell • N = 0 ∧ ell • S = 0 ∧
      M ≠ 0 ∧ N ≠ 0 ∧ S ≠ 0 ∧ M ≠ N ∧ M ≠ S ∧ N ≠ S := by
  have rM : Ed25519.Rep _ _ _ Spec.ptM := Ed25519.rep_ofNats _ _ _
  have rN : Ed25519.Rep _ _ _ Spec.ptN := Ed25519.rep_ofNats _ _ _
  have rS : Ed25519.Rep _ _ _ Spec.ptS := Ed25519.rep_ofNats _ _ _
  refine ⟨Spec.ptM, Spec.ptN, Spec.ptS, constM_eq, constN_eq, constS_eq, ?_, ?_, ?_, ell_M, ell_N, ell_S,
    ?_, ?_, ?_, ?_, ?_, ?_⟩
  · rw [← Ed25519.compressK_spec rM]; decide +kernel
  · rw [← Ed25519.compressK_spec rN]; decide +kernel
  · rw [← Ed25519.compressK_spec rS]; decide +kernel
  · rw [Ne, ← Ed25519.sameK_iff rM Ed25519.rep_zero]; decide +kernel
  · rw [Ne, ← Ed25519.sameK_iff rN Ed25519.rep_zero]; decide +kernel
  · rw [Ne, ← Ed25519.sameK_iff rS Ed25519.rep_zero]; decide +kernel
  · rw [Ne, ← Ed25519.sameK_iff rM rN]; decide +kernel
  · rw [Ne, ← Ed25519.sameK_iff rM rS]; decide +kernel
  · rw [Ne, ← Ed25519.sameK_iff rN rS]; decide +kernel

/-- **C27 (cancellation).** Multiplying a constant by a scalar and by its negation cancels, for every scalar. -/
theorem C27_cancellation (s : Scalar) (c : Point)
    (hc : ed25519.constM = .ok c ∨ ed25519.constN = .ok c ∨ ed25519.constS = .ok c) :
    ed25519.add (ed25519.scalarmult c s) (ed25519.scalarmult c (ed25519.scalarNeg s)) = 0 := by
  have hl : ell • c = 0 := by
    rcases hc with h | h | h
    · rw [constM_eq, Res.ok.injEq] at h; exact h ▸ ell_M
    · rw [constN_eq, Res.ok.injEq] at h; exact h ▸ ell_N
    · rw [constS_eq, Res.ok.injEq] at h; exact h ▸ ell_S
  show s.val • c + (-s).val • c = 0
  rw [val_neg_smul hl, add_neg_cancel]

/-- Why it matters: on a point outside the subgroup the negated scalar does not cancel (the point of order 8
with scalar 1). -/
example : ed25519.add (ed25519.scalarmult Ed25519.tors 1)
    (ed25519.scalarmult Ed25519.tors (ed25519.scalarNeg 1)) ≠ 0 := by
  show (1 : Scalar).val • Ed25519.tors + (-1 : Scalar).val • Ed25519.tors ≠ 0
  have h1 : (1 : Scalar).val = 1 := by decide +kernel
  have h2 : (-1 : Scalar).val = ell - 1 := by decide +kernel
  rw [h1, h2, ← add_nsmul]
  intro h
  have := addOrderOf_dvd_of_nsmul_eq_zero h
  rw [Ed25519.addOrderOf_tors] at this
  revert this
  decide +kernel

/-- **C28.** The scalar of a password is the big-endian number of the 48 HKDF bytes, modulo the group order;
the derivation never fails. -/
theorem C28_password_scalar (pw : Bytes) :
    ∃ w : Scalar, ed25519.hashToScalar pw = .ok w ∧ w.val = beToNat (Spec.hkdf48 pw) % ell :=
  ⟨_, hashToScalar_eq pw, by rw [ZMod.val_natCast]⟩

/-! ## C29: wire format and key schedule -/

/-- **C29 (messages).** -/
theorem C29_message (pw idA idB idS : Bytes) (x : Scalar) :
    (∃ s, startAInternal ed25519 pw idA idB x = .ok (s, 0x41 ::
      Ed25519.compress (x.val • Ed25519.base + Spec.pwNum pw • Spec.ptM))) ∧
    (∃ s, startBInternal ed25519 pw idA idB x = .ok (s, 0x42 ::
      Ed25519.compress (x.val • Ed25519.base + Spec.pwNum pw • Spec.ptN))) ∧
    (∃ s, startSymmetricInternal ed25519 pw idS x = .ok (s, 0x53 ::
      Ed25519.compress (x.val • Ed25519.base + Spec.pwNum pw • Spec.ptS))) :=
  ⟨⟨_, start_eq _ _ _⟩, ⟨_, start_eq _ _ _⟩, ⟨_, start_eq _ _ _⟩⟩

/-- **C29 (key, A).** -/
theorem C29_key_a {pw idA idB : Bytes} {x : Scalar} {s : State Scalar} {own m key : Bytes}
    (h : startAInternal ed25519 pw idA idB x = .ok (s, own)) (hk : finish ed25519 s m = .ok key) :
    ∃ P : Point, Ed25519.decompress (m.drop 1) = some P ∧
      key = sha256.hash (sha256.hash pw ++ sha256.hash idA ++ sha256.hash idB ++ own.drop 1 ++ m.drop 1 ++
        Ed25519.compress (x.val • (P - Spec.pwNum pw • Spec.ptN))) := by
  obtain ⟨rfl, rfl⟩ := start_inv h
  obtain ⟨-, -, P, hP, hkey⟩ := (finish_ok_iff _ _ _ _ _).1 hk
  exact ⟨P, hP, hkey⟩

/-- **C29 (key, B).** -/
theorem C29_key_b {pw idA idB : Bytes} {x : Scalar} {s : State Scalar} {own m key : Bytes}
    (h : startBInternal ed25519 pw idA idB x = .ok (s, own)) (hk : finish ed25519 s m = .ok key) :
    ∃ P : Point, Ed25519.decompress (m.drop 1) = some P ∧
      key = sha256.hash (sha256.hash pw ++ sha256.hash idA ++ sha256.hash idB ++ m.drop 1 ++ own.drop 1 ++
        Ed25519.compress (x.val • (P - Spec.pwNum pw • Spec.ptM))) := by
  obtain ⟨rfl, rfl⟩ := start_inv h
  obtain ⟨-, -, P, hP, hkey⟩ := (finish_ok_iff _ _ _ _ _).1 hk
  exact ⟨P, hP, hkey⟩

/-- **C29 (key, symmetric).** -/
theorem C29_key_symmetric {pw idS : Bytes} {x : Scalar} {s : State Scalar} {own m key : Bytes}
    (h : startSymmetricInternal ed25519 pw idS x = .ok (s, own)) (hk : finish ed25519 s m = .ok key) :
    ∃ P : Point, Ed25519.decompress (m.drop 1) = some P ∧
      key = sha256.hash (sha256.hash pw ++ sha256.hash idS ++ Spec.sorted (own.drop 1) (m.drop 1) ++
        Ed25519.compress (x.val • (P - Spec.pwNum pw • Spec.ptS))) := by
  obtain ⟨rfl, rfl⟩ := start_inv h
  obtain ⟨-, -, P, hP, hkey⟩ := (finish_ok_iff _ _ _ _ _).1 hk
  exact ⟨P, hP, hkey⟩

/-! ## C30: Debug -/

/-- **C30 (secrecy).** The debug output is a function of the side and identities only. -/
theorem C30_secrecy {S E : Type} (G : GroupOps S E) (s s' : State S) (h : s.side = s'.side) :
    s.debug G = s'.debug G := by
  unfold State.debug
  rw [h]

/-- **C30 (what holds of unambiguity).** A UTF-8 identity and any other identity are printed differently: the
two notations are disjoint and the first is injective. -/
theorem C30_partial (a b : Bytes) (ha : utf8 a = true) (h : maybeUtf8 a = maybeUtf8 b) : a = b := by
  unfold maybeUtf8 at h
  rw [if_pos ha] at h
  split at h
  · rw [List.append_assoc, List.append_assoc] at h
    have := List.append_cancel_left h
    exact List.append_cancel_right this
  · have : (ascii "(s=" ++ a ++ ascii ")")[1]? = (ascii "(hex=" ++ b.flatMap hexByte ++ ascii ")")[1]? := by
      rw [h]
    have h1 : (ascii "(s=" ++ a ++ ascii ")")[1]? = some 115 := rfl
    have h2 : (ascii "(hex=" ++ b.flatMap hexByte ++ ascii ")")[1]? = some 104 := rfl
    rw [h1, h2] at this
    simp at this

/-- **C30 is false for other identities:** two different ones are printed alike (`{byte:x}` does not pad). -/
theorem C30_hex_negation :
    ∃ a b : Bytes, a ≠ b ∧ Side.debug (.symmetric a) = Side.debug (.symmetric b) :=
  ⟨[0x80, 0x01, 0x23], [0x80, 0x12, 0x03], by decide +kernel, by decide +kernel⟩

/-- **C30 is false for pairs, even of ASCII identities:** they are not escaped. -/
theorem C30_pair_negation :
    ∃ a b a' b' : Bytes, (a, b) ≠ (a', b') ∧ utf8 a ∧ utf8 b ∧ utf8 a' ∧ utf8 b' ∧
      Side.debug (.A a b) = Side.debug (.A a' b') :=
  ⟨ascii "x), idB: (s=y", ascii "z", ascii "x", ascii "y), idB: (s=z", by decide +kernel, by decide +kernel,
    by decide +kernel, by decide +kernel, by decide +kernel, by decide +kernel⟩

/-! ## C31: degenerate elements -/

/-- **C31 is false.** For every session there is an accepted message for which the shared element is the
identity, whatever the scalar. -/
theorem C31_negation (side : Side) (pw : Bytes) :
    ∃ m, ∀ x : Scalar, ∃ s own key, startInternal ed25519 side pw x = .ok (s, own) ∧
      finish ed25519 s m = .ok key ∧
      key = sha256.hash (Spec.transcript side pw (own.drop 1) (m.drop 1) 0) := by
  refine ⟨Spec.accepts side :: Ed25519.compress (Spec.pwNum pw • Spec.peers side), fun x => ?_⟩
  refine ⟨_, _, _, start_eq _ _ _, ?_, rfl⟩
  rw [finish_ok_iff]
  refine ⟨by simp [Ed25519.compress_length], rfl, _, Ed25519.decompress_compress _, ?_⟩
  rw [Spec.shared, sub_self, nsmul_zero]; rfl

/-- A multiple by a non-zero scalar vanishes only on points of order dividing 8. -/
theorem eight_smul {x : Scalar} (hx : x ≠ 0) {Q : Point} (h : x.val • Q = 0) : 8 • Q = 0 := by
  have h1 := addOrderOf_dvd_of_nsmul_eq_zero h
  have h2 : addOrderOf Q ∣ 8 * ell := Ed25519.card_point ▸ addOrderOf_dvd_natCard Q
  have hc : (addOrderOf Q).Coprime ell := by
    rw [Nat.coprime_comm, Nat.Prime.coprime_iff_not_dvd ell_prime]
    intro hd
    have hle := Nat.le_of_dvd (Nat.pos_of_ne_zero fun h0 => hx ((ZMod.val_eq_zero x).1 h0)) (hd.trans h1)
    exact absurd (ZMod.val_lt x) (not_lt.2 hle)
  exact addOrderOf_dvd_iff_nsmul_eq_zero.1 (hc.dvd_of_dvd_mul_right h2)

/-- The points of order dividing 8. -/
theorem ncard_eight : {Q : Point | 8 • Q = 0}.ncard = 8 := by
  have hset : {Q : Point | 8 • Q = 0} = (fun k : Nat => (ell * k) • Ed25519.gen) '' Set.Iio 8 := by
    ext Q
    constructor
    · intro (hQ : 8 • Q = 0)
      obtain ⟨n, rfl⟩ := Ed25519.exists_gen Q
      rw [← mul_nsmul', ← addOrderOf_dvd_iff_nsmul_eq_zero, Ed25519.addOrderOf_gen, mul_comm ell 8] at hQ
      obtain ⟨k, rfl⟩ := (Nat.mul_dvd_mul_iff_left (by norm_num : 0 < 8)).1 hQ
      refine ⟨k % 8, Nat.mod_lt _ (by norm_num), ?_⟩
      rw [nsmul_eq_nsmul_iff_modEq, Ed25519.addOrderOf_gen]
      exact Nat.ModEq.mul_left' ell (Nat.mod_modEq k 8)
    · rintro ⟨k, -, rfl⟩
      show 8 • ((ell * k) • Ed25519.gen) = 0
      rw [← mul_nsmul', ← addOrderOf_dvd_iff_nsmul_eq_zero, Ed25519.addOrderOf_gen]
      exact ⟨k, by ring⟩
  rw [hset, Set.InjOn.ncard_image]
  · rw [Set.ncard_eq_toFinset_card', Set.toFinset_Iio, Nat.card_Iio]
  · intro a ha b hb h
    have h : (ell * a) • Ed25519.gen = (ell * b) • Ed25519.gen := h
    rw [nsmul_eq_nsmul_iff_modEq, Ed25519.addOrderOf_gen] at h
    have h := Nat.ModEq.mul_left_cancel' (by rw [← pos_iff_ne_zero]; exact ell_prime.pos) h
    rwa [Nat.ModEq, Nat.mod_eq_of_lt ha, Nat.mod_eq_of_lt hb] at h

theorem ncard_eight_translate (c : Point) : {P : Point | 8 • (P - c) = 0}.ncard = 8 := by
  have hs : {P : Point | 8 • (P - c) = 0} = (fun Q => Q + c) '' {Q : Point | 8 • Q = 0} := by
    ext P
    constructor
    · intro h
      exact ⟨P - c, h, sub_add_cancel P c⟩
    · rintro ⟨Q, hQ, rfl⟩
      have hQ : 8 • Q = 0 := hQ
      show 8 • (Q + c - c) = 0
      rw [add_sub_cancel_right, hQ]
  rw [hs, Set.ncard_image_of_injective _ (add_left_injective c), ncard_eight]

/-- **C31 (what holds).** With a non-zero scalar the shared element has order dividing 8 exactly if the peer element is
`pw * (N | M | S)` up to a point of order dividing 8. These are the same eight elements for every scalar, so a peer that
does not know the password scalar does not hit them, and an honest peer with the same password and a non-zero scalar
never sends one of them. -/
theorem C31_partial (side : Side) (pw : Bytes) :
    (∀ x : Scalar, x ≠ 0 → {P : Point | 8 • Spec.shared side pw x.val P = 0} =
      {P : Point | 8 • (P - Spec.pwNum pw • Spec.peers side) = 0}) ∧
    {P : Point | 8 • (P - Spec.pwNum pw • Spec.peers side) = 0}.ncard = 8 ∧
    ∀ (side' : Side) (x y : Scalar), Compatible side' side → x ≠ 0 → y ≠ 0 →
      8 • Spec.shared side pw x.val (Spec.sent side' pw y.val) ≠ 0 := by
  have key (x : Scalar) (hx : x ≠ 0) (P : Point) : 8 • Spec.shared side pw x.val P = 0 ↔
      8 • (P - Spec.pwNum pw • Spec.peers side) = 0 := by
    rw [Spec.shared]
    constructor
    · intro h
      rw [nsmul_left_comm] at h
      have h64 := eight_smul hx h
      have h2 : addOrderOf (P - Spec.pwNum pw • Spec.peers side) ∣ 8 * ell :=
        Ed25519.card_point ▸ addOrderOf_dvd_natCard _
      have h3 := addOrderOf_dvd_iff_nsmul_eq_zero.2 ((mul_nsmul' _ 8 8).trans h64)
      have hc : (8 * 8).Coprime ell := by decide +kernel
      exact addOrderOf_dvd_iff_nsmul_eq_zero.1 ((Nat.Coprime.coprime_dvd_left h3 hc).dvd_of_dvd_mul_right h2)
    · intro h
      rw [nsmul_left_comm, h, nsmul_zero]
  refine ⟨fun x hx => Set.ext (key x hx), ?_, ?_⟩
  · exact ncard_eight_translate _
  · intro side' x y hs hx hy h
    have hp : Spec.peers side = Spec.mine side' := by
      cases side <;> cases side' <;> simp_all [Compatible, Spec.peers, Spec.mine]
    rw [shared_eq _ _ _ _ _ hp, ← mul_nsmul', ← addOrderOf_dvd_iff_nsmul_eq_zero, Ed25519.addOrderOf_base,
      ell_prime.dvd_mul, ell_prime.dvd_mul] at h
    have hv (z : Scalar) (hz : z ≠ 0) : ¬ ell ∣ z.val := fun hd =>
      hz ((ZMod.val_eq_zero z).1 (Nat.eq_zero_of_dvd_of_lt hd (ZMod.val_lt z)))
    rcases h with h | h | h
    · exact absurd (Nat.le_of_dvd (by norm_num) h) (by decide +kernel)
    · exact hv x hx h
    · exact hv y hy h

/-- **C31 (what holds, of the calls).** In a session with a non-zero scalar, `finish` on an accepted message hashes a shared
element of order dividing 8 exactly if the message holds one of the eight elements; and a message that an honest peer makes
with the same password and a non-zero scalar holds none of them. -/
theorem C31_session_partial {side : Side} {pw : Bytes} {x : Scalar} {s : State Scalar} {own : Bytes} (hx : x ≠ 0)
    (h : startInternal ed25519 side pw x = .ok (s, own)) :
    (∀ m key, finish ed25519 s m = .ok key → ∃ P K : Point, Ed25519.decompress (m.drop 1) = some P ∧
      key = sha256.hash (Spec.transcript side pw (own.drop 1) (m.drop 1) K) ∧
      (8 • K = 0 ↔ 8 • (P - Spec.pwNum pw • Spec.peers side) = 0)) ∧
    ∀ (side' : Side) (y : Scalar) (s' : State Scalar) (m : Bytes), Compatible side' side → y ≠ 0 →
      startInternal ed25519 side' pw y = .ok (s', m) → ∃ P K : Point, Ed25519.decompress (m.drop 1) = some P ∧
        finish ed25519 s m = .ok (sha256.hash (Spec.transcript side pw (own.drop 1) (m.drop 1) K)) ∧ 8 • K ≠ 0 := by
  obtain ⟨rfl, rfl⟩ := start_inv h
  constructor
  · intro m key hk
    obtain ⟨-, -, P, hP, hkey⟩ := (finish_ok_iff side pw x m key).1 hk
    exact ⟨P, _, hP, hkey, Set.ext_iff.1 ((C31_partial side pw).1 x hx) P⟩
  · intro side' y s' m hs hy h'
    obtain ⟨rfl, rfl⟩ := start_inv h'
    refine ⟨_, _, Ed25519.decompress_compress _, (finish_ok_iff side pw x _ _).2 ⟨?_, ?_, _, Ed25519.decompress_compress _, rfl⟩,
      (C31_partial side pw).2.2 side' x y hs hx hy⟩
    · simp [Ed25519.compress_length]
    · cases side <;> cases side' <;> simp_all [Compatible, Spec.accepts, Spec.letter]

/-- One of the eight is an honest peer's element with scalar zero: the shared element is the identity. -/
example : Spec.shared (.A [] []) [] (5 : Scalar).val (Spec.sent (.B [] []) [] 0) = 0 := by
  rw [Spec.shared, Spec.sent, zero_nsmul, zero_add]
  exact (congrArg _ (sub_self _)).trans (nsmul_zero _)

end Verif.Spake2
