import Verif.Spake2.Props

/-!
# The generic `Spake2<G>` (C20)

`group.rs` documents the trait by comments only. `Lawful` writes down what an implementor would understand: the
elements form a commutative group, scalars act as multiples, negation is negation on the three constants, and the
encoding round-trips at the stated length.
-/

namespace Verif.Spake2

variable {S E : Type} [AddCommGroup E]

/-- spake2/src/group.rs:8-58 `Group`: the laws meant by the trait. -/
structure Lawful (G : GroupOps S E) where
  base : E
  M : E
  N : E
  Sym : E
  /-- the integer a scalar stands for -/
  rep : S → ℕ
  /-- a multiple of the order of the constants -/
  order : ℕ
  constM_eq : G.constM = .ok M
  constN_eq : G.constN = .ok N
  constS_eq : G.constS = .ok Sym
  order_M : order • M = 0
  order_N : order • N = 0
  order_S : order • Sym = 0
  hash_ok : ∀ pw, ∃ w, G.hashToScalar pw = .ok w
  neg_eq : ∀ s, order ∣ rep (G.scalarNeg s) + rep s
  basepointMult_eq : ∀ s, G.basepointMult s = rep s • base
  scalarmult_eq : ∀ e s, G.scalarmult e s = rep s • e
  add_eq : ∀ a b, G.add a b = a + b
  encode_length : ∀ e, (G.elementToBytes e).length = G.elementLength
  decode_encode : ∀ e, G.bytesToElement (G.elementToBytes e) = some e

namespace Lawful
variable {G : GroupOps S E} (L : Lawful G)

/-- The constant a side adds. -/
def mine : Side → E
  | .A _ _ => L.M
  | .B _ _ => L.N
  | .symmetric _ => L.Sym

/-- The constant a side removes. -/
def peers : Side → E
  | .A _ _ => L.N
  | .B _ _ => L.M
  | .symmetric _ => L.Sym

theorem blinding_eq (side : Side) : blinding G side = .ok (L.mine side) := by
  cases side
  · exact L.constM_eq
  · exact L.constN_eq
  · exact L.constS_eq

theorem unblinding_eq (side : Side) : unblinding G side = .ok (L.peers side) := by
  cases side
  · exact L.constN_eq
  · exact L.constM_eq
  · exact L.constS_eq

theorem order_peers (side : Side) : L.order • L.peers side = 0 := by
  cases side
  · exact L.order_N
  · exact L.order_M
  · exact L.order_S

theorem cancel (side : Side) (w : S) :
    L.rep w • L.peers side + L.rep (G.scalarNeg w) • L.peers side = 0 := by
  rw [add_comm, ← add_nsmul]
  obtain ⟨k, hk⟩ := L.neg_eq w
  rw [hk, mul_comm, mul_nsmul', L.order_peers, nsmul_zero]

/-- The session `start_internal` returns. -/
def state (side : Side) (pw : Bytes) (w x : S) : State S where
  side := side
  xyScalar := x
  passwordVec := pw
  msg1 := G.elementToBytes (L.rep x • L.base + L.rep w • L.mine side)
  passwordScalar := w

theorem start_eq (side : Side) {pw : Bytes} {w : S} (hw : G.hashToScalar pw = .ok w) (x : S) :
    startInternal G side pw x = .ok (L.state side pw w x,
       Spec.letter side :: G.elementToBytes (L.rep x • L.base + L.rep w • L.mine side)) := by
  unfold startInternal
  simp only [hw, L.blinding_eq, L.basepointMult_eq, L.scalarmult_eq, L.add_eq, sideByte_eq]
  rfl

theorem finish_eq (s : State S) {c : UInt8} {body : Bytes} (hb : body.length = G.elementLength) {P : E}
    (hc : c = Spec.accepts s.side) (hP : G.bytesToElement body = some P) :
    finish G s (c :: body) = deriveKey s.side s.passwordVec s.msg1 body (G.elementToBytes
      (L.rep s.xyScalar • (P + L.rep (G.scalarNeg s.passwordScalar) • L.peers s.side))) := by
  have hlen : (c :: body).length = 1 + G.elementLength := by simp [hb, add_comm]
  have hs : slice (c :: body) 1 (c :: body).length = some body := by
    simp [slice]
  simp only [finish, hlen, ne_eq, not_true_eq_false, if_false]
  rw [← hlen, hs]
  simp only [List.getElem?_cons_zero, Res.unwrap, Res.bind_ok, checkSide_eq, hc, hP, Res.okOr,
    L.unblinding_eq, L.scalarmult_eq, L.add_eq, if_true]

end Lawful

/-- **C20 (what holds), asymmetric.** With 32-byte elements, every lawful group gives agreement. -/
theorem C20_agreement_partial {G : GroupOps S E} (L : Lawful G) (h32 : G.elementLength = 32)
    (pw idA idB : Bytes) (x y : S) :
    ∃ sA mA sB mB key,
      startAInternal G pw idA idB x = .ok (sA, mA) ∧ startBInternal G pw idA idB y = .ok (sB, mB) ∧
      finish G sA mB = .ok key ∧ finish G sB mA = .ok key ∧ key.length = 32 := by
  obtain ⟨w, hw⟩ := L.hash_ok pw
  have hl := fun e => (L.encode_length e).trans h32
  refine ⟨_, _, _, _, sha256.hash (sha256.hash pw ++ sha256.hash idA ++ sha256.hash idB ++
    G.elementToBytes (L.rep x • L.base + L.rep w • L.M) ++
    G.elementToBytes (L.rep y • L.base + L.rep w • L.N) ++
    G.elementToBytes ((L.rep x * L.rep y) • L.base)),
    L.start_eq _ hw x, L.start_eq _ hw y, ?_, ?_, sha256.hash_length _⟩
  · rw [L.finish_eq (c := Spec.letter _) _ (L.encode_length _) (by rfl) (L.decode_encode _)]
    have hK : L.rep x • (L.rep y • L.base + L.rep w • L.N + L.rep (G.scalarNeg w) • L.N) =
        (L.rep x * L.rep y) • L.base := by
      rw [add_assoc, show L.rep w • L.N + L.rep (G.scalarNeg w) • L.N = 0 from
        L.cancel (.A idA idB) w, add_zero, mul_comm, mul_nsmul]
    simp only [Lawful.state, Lawful.mine, Lawful.peers, deriveKey, hashAb_eq, hl, and_self, if_true, hK]
  · rw [L.finish_eq (c := Spec.letter _) _ (L.encode_length _) (by rfl) (L.decode_encode _)]
    have hK : L.rep y • (L.rep x • L.base + L.rep w • L.M + L.rep (G.scalarNeg w) • L.M) =
        (L.rep x * L.rep y) • L.base := by
      rw [add_assoc, show L.rep w • L.M + L.rep (G.scalarNeg w) • L.M = 0 from
        L.cancel (.B idA idB) w, add_zero, mul_nsmul]
    simp only [Lawful.state, Lawful.mine, Lawful.peers, deriveKey, hashAb_eq, hl, and_self, if_true, hK]

/-- **C20 (what holds), symmetric.** -/
theorem C20_agreement_symmetric_partial {G : GroupOps S E} (L : Lawful G) (h32 : G.elementLength = 32)
    (pw idS : Bytes) (x y : S) :
    ∃ s m s' m' key,
      startSymmetricInternal G pw idS x = .ok (s, m) ∧ startSymmetricInternal G pw idS y = .ok (s', m') ∧
      finish G s m' = .ok key ∧ finish G s' m = .ok key ∧ key.length = 32 := by
  obtain ⟨w, hw⟩ := L.hash_ok pw
  have hl := fun e => (L.encode_length e).trans h32
  obtain ⟨X, hX⟩ : ∃ X, X = G.elementToBytes (L.rep x • L.base + L.rep w • L.Sym) := ⟨_, rfl⟩
  obtain ⟨Y, hY⟩ : ∃ Y, Y = G.elementToBytes (L.rep y • L.base + L.rep w • L.Sym) := ⟨_, rfl⟩
  have lX : X.length = 32 := hX ▸ hl _
  have lY : Y.length = 32 := hY ▸ hl _
  refine ⟨_, _, _, _, sha256.hash (sha256.hash pw ++ sha256.hash idS ++ Spec.sorted X Y ++
    G.elementToBytes ((L.rep x * L.rep y) • L.base)),
    L.start_eq _ hw x, L.start_eq _ hw y, ?_, ?_, sha256.hash_length _⟩
  · rw [L.finish_eq (c := Spec.letter _) _ (L.encode_length _) (by rfl) (L.decode_encode _)]
    have hK : L.rep x • (L.rep y • L.base + L.rep w • L.Sym + L.rep (G.scalarNeg w) • L.Sym) =
        (L.rep x * L.rep y) • L.base := by
      rw [add_assoc, show L.rep w • L.Sym + L.rep (G.scalarNeg w) • L.Sym = 0 from
        L.cancel (.symmetric idS) w, add_zero, mul_comm, mul_nsmul]
    simp only [Lawful.state, Lawful.mine, Lawful.peers, deriveKey, hashSymmetric_eq, ← hX, ← hY, lX, lY, hl, and_self,
      if_true, hK]
    rw [sorted_eq X Y (lX.trans lY.symm)]
  · rw [L.finish_eq (c := Spec.letter _) _ (L.encode_length _) (by rfl) (L.decode_encode _)]
    have hK : L.rep y • (L.rep x • L.base + L.rep w • L.Sym + L.rep (G.scalarNeg w) • L.Sym) =
        (L.rep x * L.rep y) • L.base := by
      rw [add_assoc, show L.rep w • L.Sym + L.rep (G.scalarNeg w) • L.Sym = 0 from
        L.cancel (.symmetric idS) w, add_zero, mul_nsmul]
    simp only [Lawful.state, Lawful.mine, Lawful.peers, deriveKey, hashSymmetric_eq, ← hX, ← hY, lX, lY, hl, and_self,
      if_true, hK]
    rw [sorted_eq Y X (lY.trans lX.symm), sorted_comm Y X (lY.trans lX.symm)]

omit [AddCommGroup E] in
/-- The outcome of `finish` on every input, from every session. -/
theorem finish_cases (G : GroupOps S E) (s : State S) (m : Bytes) :
    (∃ e, finish G s m = .err e) ∨
      ∃ body e, body.length = G.elementLength ∧ m = Spec.accepts s.side :: body ∧
        G.bytesToElement body = some e := by
  by_cases hl : m.length = 1 + G.elementLength
  · cases m with
    | nil => simp only [List.length_nil] at hl; omega
    | cons c body =>
      have hb : body.length = G.elementLength := by
        rw [List.length_cons] at hl; omega
      by_cases hc : c = Spec.accepts s.side
      · cases hd : G.bytesToElement body with
        | none =>
          left
          refine ⟨.corruptMessage, ?_⟩
          have hs : slice (c :: body) 1 (c :: body).length = some body := by simp [slice]
          simp only [finish, hl, ne_eq, not_true_eq_false, if_false]
          rw [← hl, hs]
          simp only [List.getElem?_cons_zero, Res.unwrap, Res.bind_ok, Res.bind_err, checkSide_eq, hc, hd,
            Res.okOr, if_true]
        | some e => exact Or.inr ⟨body, e, hb, by rw [hc], hd⟩
      · left
        refine ⟨.badSide, ?_⟩
        simp only [finish, hl, ne_eq, not_true_eq_false, if_false]
        simp only [List.getElem?_cons_zero, Res.unwrap, Res.bind_ok, Res.bind_err, checkSide_eq, hc, if_false]
  · left
    exact ⟨.wrongLength, by rw [finish, if_pos hl]⟩

/-- **C20 (what holds), no panic.** With 32-byte elements nothing panics. -/
theorem C20_no_panic_partial {G : GroupOps S E} (L : Lawful G) (h32 : G.elementLength = 32)
    {side : Side} {pw : Bytes} {x : S} :
    ∃ s own, startInternal G side pw x = .ok (s, own) ∧ ∀ m, finish G s m ≠ .panic := by
  obtain ⟨w, hw⟩ := L.hash_ok pw
  refine ⟨_, _, L.start_eq side hw x, fun m => ?_⟩
  have hl := fun e => (L.encode_length e).trans h32
  rcases finish_cases G (L.state side pw w x) m with ⟨e, he⟩ | ⟨body, e, hb, rfl, hd⟩
  · rw [he]; simp
  · rw [L.finish_eq _ hb rfl hd]
    have hb' := hb.trans h32
    cases side <;> simp [Lawful.state, deriveKey, hashAb_eq, hashSymmetric_eq, hl, hb']

/-- **C20 is false.** With elements of any other length no session of a lawful group ever completes: every
well-formed message makes `finish` panic. -/
theorem C20_negation {G : GroupOps S E} (L : Lawful G) (h32 : G.elementLength ≠ 32)
    (side : Side) (pw : Bytes) (x : S) :
    ∃ s own, startInternal G side pw x = .ok (s, own) ∧ (∀ m k, finish G s m ≠ .ok k) ∧
      ∀ e, finish G s (Spec.accepts side :: G.elementToBytes e) = .panic := by
  obtain ⟨w, hw⟩ := L.hash_ok pw
  have hl : ∀ e, (G.elementToBytes e).length ≠ 32 := fun e => by rw [L.encode_length]; exact h32
  refine ⟨_, _, L.start_eq side hw x, fun m k => ?_, fun e => ?_⟩
  · rcases finish_cases G (L.state side pw w x) m with ⟨e, he⟩ | ⟨body, e, hb, rfl, hd⟩
    · rw [he]; simp
    · rw [L.finish_eq _ hb rfl hd]
      cases side <;> simp [Lawful.state, deriveKey, hashAb_eq, hashSymmetric_eq, hl]
  · rw [L.finish_eq (c := Spec.accepts side) _ (L.encode_length e) (by rfl) (L.decode_encode e)]
    cases side <;> simp [Lawful.state, deriveKey, hashAb_eq, hashSymmetric_eq, hl]

/-- The crate's own group is lawful. -/
def ed25519Lawful : Lawful ed25519 where
  base := Ed25519.base
  M := Spec.ptM
  N := Spec.ptN
  Sym := Spec.ptS
  rep := ZMod.val
  order := ell
  constM_eq := constM_eq
  constN_eq := constN_eq
  constS_eq := constS_eq
  order_M := ell_M
  order_N := ell_N
  order_S := ell_S
  hash_ok := fun pw => ⟨_, hashToScalar_eq pw⟩
  neg_eq := fun s => by
    rw [← CharP.cast_eq_zero_iff Scalar ell, Nat.cast_add, ZMod.natCast_zmod_val, ZMod.natCast_zmod_val]
    exact neg_add_cancel s
  basepointMult_eq := fun _ => rfl
  scalarmult_eq := fun _ _ => rfl
  add_eq := fun _ _ => rfl
  encode_length := Ed25519.compress_length
  decode_encode := fun P => by
    have h : ed25519.bytesToElement (ed25519.elementToBytes P) =
        ed25519BytesToElement (Ed25519.compress P) := by rw [ed25519]
    rw [h, ed25519BytesToElement, if_neg (not_not.2 (Ed25519.compress_length P)),
      Ed25519.decompress_compress]

/-- The hypotheses of the positive theorems are met by the crate's group... -/
example : ed25519.elementLength = 32 := rfl

/-- A small lawful group with one-byte elements: integers modulo 251. -/
def toy : GroupOps (ZMod 251) (ZMod 251) where
  name := ascii "toy"
  constM := .ok 3
  constN := .ok 4
  constS := .ok 5
  hashToScalar := fun pw => .ok ((beToNat pw : ℕ) : ZMod 251)
  randomScalar := fun R s => ((beToNat (R.fill s 8).1 : ℕ) : ZMod 251)
  scalarNeg := fun s => -s
  elementToBytes := fun e => [UInt8.ofNat e.val]
  bytesToElement := fun b => match b with
    | [c] => some (c.toNat : ZMod 251)
    | _ => none
  elementLength := 1
  basepointMult := fun s => s.val • (1 : ZMod 251)
  scalarmult := fun e s => s.val • e
  add := fun a b => a + b

/-- ... and those of the negative theorem by the small group. -/
def toyLawful : Lawful toy where
  base := 1
  M := 3
  N := 4
  Sym := 5
  rep := ZMod.val
  order := 251
  constM_eq := rfl
  constN_eq := rfl
  constS_eq := rfl
  order_M := by decide +kernel
  order_N := by decide +kernel
  order_S := by decide +kernel
  hash_ok := fun _ => ⟨_, rfl⟩
  neg_eq := fun s => by
    rw [← CharP.cast_eq_zero_iff (ZMod 251) 251, Nat.cast_add, ZMod.natCast_zmod_val,
      ZMod.natCast_zmod_val]
    exact neg_add_cancel s
  basepointMult_eq := fun _ => rfl
  scalarmult_eq := fun _ _ => rfl
  add_eq := fun _ _ => rfl
  encode_length := fun _ => rfl
  decode_encode := fun e => by
    have h : e.val < 251 := ZMod.val_lt e
    have h2 : (UInt8.ofNat e.val).toNat = e.val := by
      rw [UInt8.toNat_ofNat']; omega
    show some (((UInt8.ofNat e.val).toNat : ℕ) : ZMod 251) = some e
    rw [h2, ZMod.natCast_zmod_val]

/-- **C20**, the witness: a group with one-byte elements. -/
theorem C20_witness (pw : Bytes) :
    ∃ s own, startInternal toy (.A [] []) pw 7 = .ok (s, own) ∧
      finish toy s [0x42, 9] = .panic := by
  obtain ⟨s, own, h, -, hp⟩ := C20_negation toyLawful (by decide) (.A [] []) pw 7
  exact ⟨s, own, h, hp 9⟩

end Verif.Spake2
