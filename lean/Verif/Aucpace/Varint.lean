import Verif.Aucpace.Wire

/-!
# C51 (postcard): which bytes are accepted

postcard reads a number from more than one string of bytes: the shortest one, and the same with groups of zeros at the end. So
`C51_client_exact`, which is about formats with one encoding per number (bincode), does not hold for it; here is what does.
-/

namespace Verif.Aucpace.Wire

/-- `n` in exactly `l` groups of seven bits. -/
def padded : Nat → Nat → Bytes
  | 0, _ => []
  | 1, n => [UInt8.ofNat n]
  | l + 2, n => UInt8.ofNat (n % 128 + 128) :: padded (l + 1) (n / 128)

/-- `n` can be written in `l` groups when at most `k` bytes, the last of them at most `last`, are read. -/
def Groups (last k n l : Nat) : Prop := 1 ≤ l ∧ l ≤ k ∧ n < 128 ^ l ∧ (l = k → n < 128 ^ (k - 1) * (last + 1))

theorem takeVarint_padded (last k n l : Nat) (r : Bytes) (hl : Groups last k n l) :
    takeVarint last k (padded l n ++ r) = some (n, r) := by
  induction l generalizing n k with
  | zero => exact absurd hl.1 (by omega)
  | succ l ih =>
    obtain ⟨k, rfl⟩ : ∃ k', k = k' + 1 := ⟨k - 1, by have := hl.1; have := hl.2.1; omega⟩
    obtain ⟨-, h2, h3, h4⟩ := hl
    cases l with
    | zero =>
      have h128 : n < 128 := by simpa using h3
      have hn : (UInt8.ofNat n).toNat = n := by simp; omega
      simp only [padded, List.cons_append, List.nil_append, takeVarint, hn, if_pos h128]
      rw [if_neg]
      rintro ⟨rfl, h⟩
      have := h4 rfl
      simp at this
      omega
    | succ l =>
      have hn : (UInt8.ofNat (n % 128 + 128)).toNat = n % 128 + 128 := by simp; omega
      rw [padded, List.cons_append, takeVarint, hn, if_neg (by omega), ih]
      · simp only [Option.some.injEq, Prod.mk.injEq, and_true]
        omega
      · refine ⟨by omega, by omega, ?_, fun h => ?_⟩
        · rw [Nat.div_lt_iff_lt_mul (by norm_num)]
          calc n < 128 ^ (l + 1 + 1) := h3
            _ = _ := by ring
        · rw [Nat.div_lt_iff_lt_mul (by norm_num)]
          subst h
          calc n < _ := h4 rfl
            _ = _ := by simp only [Nat.add_sub_cancel]; ring

theorem takeVarint_eq (last k n : Nat) (b r : Bytes) (h : takeVarint last k b = some (n, r)) :
    ∃ l, Groups last k n l ∧ b = padded l n ++ r := by
  induction k generalizing n b with
  | zero => simp [takeVarint] at h
  | succ k ih =>
    cases b with
    | nil => simp [takeVarint] at h
    | cons c b =>
      rw [takeVarint] at h
      have hc := c.toNat_lt
      split at h
      · rename_i h128
        split at h
        · simp at h
        · rename_i hk
          simp only [Option.some.injEq, Prod.mk.injEq] at h
          obtain ⟨rfl, rfl⟩ := h
          refine ⟨1, ⟨le_refl _, by omega, by simpa using h128, fun hk1 => ?_⟩, by simp [padded]⟩
          have : k = 0 := by omega
          subst this
          simp
          omega
      · rename_i h128
        split at h
        · rename_i n' r' hr
          simp only [Option.some.injEq, Prod.mk.injEq] at h
          obtain ⟨rfl, rfl⟩ := h
          obtain ⟨l, ⟨h1, h2, h3, h4⟩, rfl⟩ := ih n' b hr
          obtain ⟨l, rfl⟩ : ∃ l', l = l' + 1 := ⟨l - 1, by omega⟩
          refine ⟨l + 2, ⟨by omega, by omega, ?_, fun hk => ?_⟩, ?_⟩
          · have : 128 ^ (l + 2) = 128 * 128 ^ (l + 1) := by ring
            omega
          · have hk' : l + 1 = k := by omega
            subst hk'
            have := h4 rfl
            have e : 128 ^ (l + 1 + 1 - 1) * (last + 1) = 128 * (128 ^ (l + 1 - 1) * (last + 1)) := by
              simp only [Nat.add_sub_cancel]; ring
            omega
          · have e1 : (c.toNat % 128 + 128 * n') % 128 + 128 = c.toNat := by omega
            have e2 : (c.toNat % 128 + 128 * n') / 128 = n' := by omega
            rw [padded, e1, e2]
            simp
        · simp at h

/-- **C51 (postcard numbers).** A variant number is read from exactly its forms in one to five groups, the fifth group being at most
15; a length from exactly its forms in one to ten groups, the tenth being at most 1. -/
theorem C51_postcard_numbers (b r : Bytes) (n : Nat) :
    (postcard.decIdx b = some (n, r) ↔ ∃ l, Groups 15 5 n l ∧ b = padded l n ++ r) ∧
    (postcard.decLen b = some (n, r) ↔ ∃ l, Groups 1 10 n l ∧ b = padded l n ++ r) := by
  refine ⟨⟨fun h => takeVarint_eq 15 5 n b r h, ?_⟩, ⟨fun h => takeVarint_eq 1 10 n b r h, ?_⟩⟩
  · rintro ⟨l, hl, rfl⟩
    exact takeVarint_padded 15 5 n l r hl
  · rintro ⟨l, hl, rfl⟩
    exact takeVarint_padded 1 10 n l r hl

/-- A byte string with its length in `l` groups. -/
def padBytes (l : Nat) (x : Bytes) : Bytes := padded l x.length ++ x

theorem decBytes_postcard {b x r : Bytes} :
    decBytes postcard b = some (x, r) ↔ ∃ l, Groups 1 10 x.length l ∧ b = padBytes l x ++ r := by
  constructor
  · intro h
    unfold decBytes at h
    split at h
    · rename_i n b' h1
      split at h
      · rename_i hn
        simp only [Option.some.injEq, Prod.mk.injEq] at h
        obtain ⟨rfl, rfl⟩ := h
        obtain ⟨l, hl, rfl⟩ := (C51_postcard_numbers _ _ _).2.1 h1
        have e : (b'.take n).length = n := by simp [hn]
        exact ⟨l, by rwa [e], by rw [padBytes, e, List.append_assoc, List.take_append_drop]⟩
      · simp at h
    · simp at h
  · rintro ⟨l, hl, rfl⟩
    unfold decBytes
    rw [padBytes, List.append_assoc, (C51_postcard_numbers _ _ _).2.2 ⟨l, hl, rfl⟩]
    simp

theorem Groups.lt {n l : Nat} (h : Groups 1 10 n l) : n < 2 ^ 64 := by
  obtain ⟨h1, h2, h3, h4⟩ := h
  by_cases hl : l = 10
  · have := h4 hl
    norm_num at this ⊢
    exact this
  · have : 128 ^ l ≤ 128 ^ 9 := Nat.pow_le_pow_right (by norm_num) (by omega)
    norm_num at this ⊢
    omega

theorem decChecked_postcard {ok : Bytes → Bool} {b x r : Bytes} :
    decChecked postcard ok b = some (x, r) ↔ ok x = true ∧ ∃ l, Groups 1 10 x.length l ∧ b = padBytes l x ++ r := by
  constructor
  · intro h
    obtain ⟨h1, h2⟩ := decChecked_ok postcard h
    exact ⟨h2, decBytes_postcard.1 h1⟩
  · rintro ⟨h2, h1⟩
    unfold decChecked
    rw [decBytes_postcard.2 h1]
    simp [h2]

/-- A variant number has every form from one to five groups. -/
theorem groups_idx {n i : Nat} (hn : n < 128) (h1 : 1 ≤ i) (h5 : i ≤ 5) : Groups 15 5 n i := by
  refine ⟨h1, h5, ?_, fun _ => by norm_num; omega⟩
  calc n < 128 ^ 1 := by simpa using hn
    _ ≤ 128 ^ i := Nat.pow_le_pow_right (by norm_num) h1

section
variable {G : Type} [AddCommGroup G] [Module Scalar G] (R : Ristretto G) (strong : Bool) (K1 : Nat) (paramsOk : Bytes → Bool)

/-- The byte strings of a client message in source order. -/
def clientStrings : ClientMessage G → List Bytes
  | .nonce n => [n]
  | .username u => [u]
  | .strongUsername u _ => [u]
  | .publicKey _ => []
  | .authenticator a => [a]
  | .registration u salt ps _ => [u, salt, ps]
  | .strongRegistration u _ ps _ => [u, ps]

def serverStrings : ServerMessage G → List Bytes
  | .nonce n => [n]
  | .augmentationInfo g _ salt ps => [g, salt, ps]
  | .strongAugmentationInfo g _ _ ps => [g, ps]
  | .publicKey _ => []
  | .authenticator a => [a]

/-- A client message in which the variant number has `i` groups and the lengths of its byte strings have `l 0`, `l 1`, … groups. -/
def padClientBody (l : Nat → Nat) : ClientMessage G → Bytes
  | .nonce n => padBytes (l 0) n
  | .username u => padBytes (l 0) u
  | .strongUsername u U => padBytes (l 0) u ++ R.compress U
  | .publicKey P => R.compress P
  | .authenticator a => padBytes (l 0) a
  | .registration u salt ps W => padBytes (l 0) u ++ padBytes (l 1) salt ++ padBytes (l 2) ps ++ R.compress W
  | .strongRegistration u q ps W => padBytes (l 0) u ++ encScalar q ++ padBytes (l 1) ps ++ R.compress W

def padClient (i : Nat) (l : Nat → Nat) (m : ClientMessage G) : Bytes :=
  padded i ((clientVariants strong).idxOf (clientTag m)) ++ padClientBody R l m

def padServerBody (l : Nat → Nat) : ServerMessage G → Bytes
  | .nonce n => padBytes (l 0) n
  | .augmentationInfo g X salt ps => padBytes (l 0) g ++ R.compress X ++ padBytes (l 1) salt ++ padBytes (l 2) ps
  | .strongAugmentationInfo g X Z ps => padBytes (l 0) g ++ R.compress X ++ R.compress Z ++ padBytes (l 1) ps
  | .publicKey P => R.compress P
  | .authenticator a => padBytes (l 0) a

def padServer (i : Nat) (l : Nat → Nat) (m : ServerMessage G) : Bytes :=
  padded i ((serverVariants strong).idxOf (serverTag m)) ++ padServerBody R l m

/-- Possible numbers of groups for the byte strings `xs`. -/
def Lengths (l : Nat → Nat) (xs : List Bytes) : Prop := ∀ j (h : j < xs.length), Groups 1 10 xs[j].length (l j)

theorem lengths_nil (l : Nat → Nat) : Lengths l [] := fun _ h => absurd h (by simp)

theorem lengths_cons {l : Nat → Nat} {x : Bytes} {xs : List Bytes} :
    Lengths l (x :: xs) ↔ Groups 1 10 x.length (l 0) ∧ Lengths (fun j => l (j + 1)) xs := by
  constructor
  · intro h
    exact ⟨h 0 (by simp), fun j hj => h (j + 1) (by simpa using hj)⟩
  · rintro ⟨h1, h2⟩ j hj
    cases j with
    | zero => exact h1
    | succ j => exact h2 j (by simpa using hj)

theorem clientVariants_lt (t : ClientTag) : (clientVariants strong).idxOf t < 128 := by
  cases strong <;> cases t <;> decide

theorem serverVariants_lt (t : ServerTag) : (serverVariants strong).idxOf t < 128 := by
  cases strong <;> cases t <;> decide

/-- **C51 (postcard, client).** An input is accepted exactly if it starts with one of these forms of a value of the message type that
exists in the build. -/
theorem C51_postcard_client (b r : Bytes) (m : ClientMessage G) :
    decClient postcard R strong K1 paramsOk b = some (m, r) ↔
      clientTag m ∈ clientVariants strong ∧ ClientOk K1 paramsOk m ∧
        ∃ i l, 1 ≤ i ∧ i ≤ 5 ∧ Lengths l (clientStrings m) ∧ b = padClient R strong i l m ++ r := by
  constructor
  · intro h
    simp only [decClient, Option.bind_eq_bind] at h
    obtain ⟨⟨i, b1⟩, hi, h⟩ := Option.bind_eq_some_iff.1 h
    obtain ⟨t, ht, h⟩ := Option.bind_eq_some_iff.1 h
    simp only at ht h
    obtain ⟨k, hk, rfl⟩ := (C51_postcard_numbers _ _ _).1.1 hi
    obtain ⟨hmem, hidx⟩ := clientVariants_idx strong t i ht
    suffices hs : clientTag m = t ∧ ClientOk K1 paramsOk m ∧ ∃ l, Lengths l (clientStrings m) ∧ b1 = padClientBody R l m ++ r by
      obtain ⟨h1, h2, l, h3, h4⟩ := hs
      refine ⟨h1 ▸ hmem, h2, k, l, hk.1, hk.2.1, h3, ?_⟩
      rw [padClient, h1, hidx, h4, List.append_assoc]
    cases t with
    | nonce =>
      simp only [decClientBody, Option.bind_eq_bind] at h
      obtain ⟨⟨n, c0⟩, h0, h⟩ := Option.bind_eq_some_iff.1 h
      simp only [Option.some.injEq, Prod.mk.injEq] at h
      obtain ⟨rfl, rfl⟩ := h
      obtain ⟨k0, l0, g0, e0⟩ := decChecked_postcard.1 h0
      refine ⟨rfl, ⟨by simpa using k0, g0.lt⟩, fun j => [l0].getD j 0, lengths_cons.2 ⟨g0, lengths_nil _⟩, ?_⟩
      rw [e0, padClientBody]
      simp
    | username =>
      simp only [decClientBody, Option.bind_eq_bind] at h
      obtain ⟨⟨u, c0⟩, h0, h⟩ := Option.bind_eq_some_iff.1 h
      simp only [Option.some.injEq, Prod.mk.injEq] at h
      obtain ⟨rfl, rfl⟩ := h
      obtain ⟨l0, g0, e0⟩ := decBytes_postcard.1 h0
      refine ⟨rfl, g0.lt, fun j => [l0].getD j 0, lengths_cons.2 ⟨g0, lengths_nil _⟩, ?_⟩
      rw [e0, padClientBody]
      simp
    | strongUsername =>
      simp only [decClientBody, Option.bind_eq_bind] at h
      obtain ⟨⟨u, c0⟩, h0, h⟩ := Option.bind_eq_some_iff.1 h
      obtain ⟨⟨U, c1⟩, h1, h⟩ := Option.bind_eq_some_iff.1 h
      simp only [Option.some.injEq, Prod.mk.injEq] at h
      obtain ⟨rfl, rfl⟩ := h
      obtain ⟨l0, g0, e0⟩ := decBytes_postcard.1 h0
      have e1 := decPoint_eq R h1
      refine ⟨rfl, g0.lt, fun j => [l0].getD j 0, lengths_cons.2 ⟨g0, lengths_nil _⟩, ?_⟩
      rw [e0, show c0 = _ from e1, padClientBody]
      simp [List.append_assoc]
    | publicKey =>
      simp only [decClientBody, Option.bind_eq_bind] at h
      obtain ⟨⟨P, c0⟩, h0, h⟩ := Option.bind_eq_some_iff.1 h
      simp only [Option.some.injEq, Prod.mk.injEq] at h
      obtain ⟨rfl, rfl⟩ := h
      have e0 := decPoint_eq R h0
      refine ⟨rfl, trivial, fun j => [].getD j 0, lengths_nil _, ?_⟩
      rw [e0, padClientBody]
    | authenticator =>
      simp only [decClientBody, Option.bind_eq_bind] at h
      obtain ⟨⟨a, c0⟩, h0, h⟩ := Option.bind_eq_some_iff.1 h
      simp only [Option.some.injEq, Prod.mk.injEq] at h
      obtain ⟨rfl, rfl⟩ := h
      obtain ⟨k0, l0, g0, e0⟩ := decChecked_postcard.1 h0
      refine ⟨rfl, (show a.length = 64 by simpa using k0), fun j => [l0].getD j 0, lengths_cons.2 ⟨g0, lengths_nil _⟩, ?_⟩
      rw [e0, padClientBody]
      simp
    | registration =>
      simp only [decClientBody, Option.bind_eq_bind] at h
      obtain ⟨⟨u, c0⟩, h0, h⟩ := Option.bind_eq_some_iff.1 h
      obtain ⟨⟨salt, c1⟩, h1, h⟩ := Option.bind_eq_some_iff.1 h
      obtain ⟨⟨ps, c2⟩, h2, h⟩ := Option.bind_eq_some_iff.1 h
      obtain ⟨⟨W, c3⟩, h3, h⟩ := Option.bind_eq_some_iff.1 h
      simp only [Option.some.injEq, Prod.mk.injEq] at h
      obtain ⟨rfl, rfl⟩ := h
      obtain ⟨l0, g0, e0⟩ := decBytes_postcard.1 h0
      obtain ⟨k1, l1, g1, e1⟩ := decChecked_postcard.1 h1
      obtain ⟨k2, l2, g2, e2⟩ := decChecked_postcard.1 h2
      simp only [Bool.and_eq_true] at k2
      have e3 := decPoint_eq R h3
      refine ⟨rfl, ⟨g0.lt, (saltOk_iff salt).1 k1, ⟨⟨g2.lt, k2.1⟩, k2.2⟩⟩, fun j => [l0, l1, l2].getD j 0, lengths_cons.2 ⟨g0, lengths_cons.2 ⟨g1, lengths_cons.2 ⟨g2, lengths_nil _⟩⟩⟩, ?_⟩
      rw [e0, show c0 = _ from e1, show c1 = _ from e2, show c2 = _ from e3, padClientBody]
      simp [List.append_assoc]
    | strongRegistration =>
      simp only [decClientBody, Option.bind_eq_bind] at h
      obtain ⟨⟨u, c0⟩, h0, h⟩ := Option.bind_eq_some_iff.1 h
      obtain ⟨⟨q, c1⟩, h1, h⟩ := Option.bind_eq_some_iff.1 h
      obtain ⟨⟨ps, c2⟩, h2, h⟩ := Option.bind_eq_some_iff.1 h
      obtain ⟨⟨W, c3⟩, h3, h⟩ := Option.bind_eq_some_iff.1 h
      simp only [Option.some.injEq, Prod.mk.injEq] at h
      obtain ⟨rfl, rfl⟩ := h
      obtain ⟨l0, g0, e0⟩ := decBytes_postcard.1 h0
      have e1 := decScalar_eq h1
      obtain ⟨k2, l2, g2, e2⟩ := decChecked_postcard.1 h2
      simp only [Bool.and_eq_true] at k2
      have e3 := decPoint_eq R h3
      refine ⟨rfl, ⟨g0.lt, ⟨⟨g2.lt, k2.1⟩, k2.2⟩⟩, fun j => [l0, l2].getD j 0, lengths_cons.2 ⟨g0, lengths_cons.2 ⟨g2, lengths_nil _⟩⟩, ?_⟩
      rw [e0, show c0 = _ from e1, show c1 = _ from e2, show c2 = _ from e3, padClientBody]
      simp [List.append_assoc]
  · rintro ⟨hm, hok, i, l, h1, h5, hl, rfl⟩
    obtain ⟨-, hget⟩ := clientVariants_get strong _ hm
    have hlt := clientVariants_lt strong (clientTag m)
    have hd := (C51_postcard_numbers _ (padClientBody R l m ++ r) _).1.2 ⟨i, groups_idx hlt h1 h5, rfl⟩
    simp only [decClient, padClient, List.append_assoc, hd, Option.bind_eq_bind, Option.bind_some, hget]
    cases m with
    | nonce n =>
      simp only [clientStrings, lengths_cons] at hl
      obtain ⟨g0, -⟩ := hl
      have o0 := hok
      have o0' : n.length = K1 := o0.1
      have d0 : ∀ c, decArray postcard K1 (padBytes (l 0) n ++ c) = some (n, c) := fun c => decChecked_postcard.2 ⟨by simpa using o0', _, g0, rfl⟩
      simp only [clientTag, padClientBody, decClientBody, Option.bind_eq_bind, Option.bind_some, d0]
    | username u =>
      simp only [clientStrings, lengths_cons] at hl
      obtain ⟨g0, -⟩ := hl
      have d0 : ∀ c, decBytes postcard (padBytes (l 0) u ++ c) = some (u, c) := fun c => decBytes_postcard.2 ⟨_, g0, rfl⟩
      simp only [clientTag, padClientBody, decClientBody, Option.bind_eq_bind, Option.bind_some, d0]
    | strongUsername u U =>
      simp only [clientStrings, lengths_cons] at hl
      obtain ⟨g0, -⟩ := hl
      have d0 : ∀ c, decBytes postcard (padBytes (l 0) u ++ c) = some (u, c) := fun c => decBytes_postcard.2 ⟨_, g0, rfl⟩
      simp only [clientTag, padClientBody, decClientBody, List.append_assoc, Option.bind_eq_bind, Option.bind_some, d0, decPoint_compress]
    | publicKey P =>
      simp only [clientTag, padClientBody, decClientBody, Option.bind_eq_bind, Option.bind_some, decPoint_compress]
    | authenticator a =>
      simp only [clientStrings, lengths_cons] at hl
      obtain ⟨g0, -⟩ := hl
      have o0 := hok
      have o0' : a.length = 64 := o0
      have d0 : ∀ c, decArray postcard 64 (padBytes (l 0) a ++ c) = some (a, c) := fun c => decChecked_postcard.2 ⟨by simpa using o0', _, g0, rfl⟩
      simp only [clientTag, padClientBody, decClientBody, Option.bind_eq_bind, Option.bind_some, d0]
    | registration u salt ps W =>
      simp only [clientStrings, lengths_cons] at hl
      obtain ⟨g0, g1, g2, -⟩ := hl
      obtain ⟨-, o1, o2⟩ := hok
      have d0 : ∀ c, decBytes postcard (padBytes (l 0) u ++ c) = some (u, c) := fun c => decBytes_postcard.2 ⟨_, g0, rfl⟩
      have d1 : ∀ c, decSalt postcard (padBytes (l 1) salt ++ c) = some (salt, c) := fun c => decChecked_postcard.2 ⟨(saltOk_iff _).2 o1, _, g1, rfl⟩
      have o2' : (utf8 ps && paramsOk ps) = true := by rw [o2.1.2, o2.2]; rfl
      have d2 : ∀ c, decParams postcard paramsOk (padBytes (l 2) ps ++ c) = some (ps, c) := fun c => decChecked_postcard.2 ⟨o2', _, g2, rfl⟩
      simp only [clientTag, padClientBody, decClientBody, List.append_assoc, Option.bind_eq_bind, Option.bind_some, d0, d1, d2, decPoint_compress]
    | strongRegistration u q ps W =>
      simp only [clientStrings, lengths_cons] at hl
      obtain ⟨g0, g1, -⟩ := hl
      obtain ⟨-, o1⟩ := hok
      have d0 : ∀ c, decBytes postcard (padBytes (l 0) u ++ c) = some (u, c) := fun c => decBytes_postcard.2 ⟨_, g0, rfl⟩
      have o1' : (utf8 ps && paramsOk ps) = true := by rw [o1.1.2, o1.2]; rfl
      have d1 : ∀ c, decParams postcard paramsOk (padBytes (l 1) ps ++ c) = some (ps, c) := fun c => decChecked_postcard.2 ⟨o1', _, g1, rfl⟩
      simp only [clientTag, padClientBody, decClientBody, List.append_assoc, Option.bind_eq_bind, Option.bind_some, d0, d1, decPoint_compress, decScalar_encScalar]

/-- **C51 (postcard, server).** An input is accepted exactly if it starts with one of these forms of a value of the message type that
exists in the build. -/
theorem C51_postcard_server (b r : Bytes) (m : ServerMessage G) :
    decServer postcard R strong K1 paramsOk b = some (m, r) ↔
      serverTag m ∈ serverVariants strong ∧ ServerOk K1 paramsOk m ∧
        ∃ i l, 1 ≤ i ∧ i ≤ 5 ∧ Lengths l (serverStrings m) ∧ b = padServer R strong i l m ++ r := by
  constructor
  · intro h
    simp only [decServer, Option.bind_eq_bind] at h
    obtain ⟨⟨i, b1⟩, hi, h⟩ := Option.bind_eq_some_iff.1 h
    obtain ⟨t, ht, h⟩ := Option.bind_eq_some_iff.1 h
    simp only at ht h
    obtain ⟨k, hk, rfl⟩ := (C51_postcard_numbers _ _ _).1.1 hi
    obtain ⟨hmem, hidx⟩ := serverVariants_idx strong t i ht
    suffices hs : serverTag m = t ∧ ServerOk K1 paramsOk m ∧ ∃ l, Lengths l (serverStrings m) ∧ b1 = padServerBody R l m ++ r by
      obtain ⟨h1, h2, l, h3, h4⟩ := hs
      refine ⟨h1 ▸ hmem, h2, k, l, hk.1, hk.2.1, h3, ?_⟩
      rw [padServer, h1, hidx, h4, List.append_assoc]
    cases t with
    | nonce =>
      simp only [decServerBody, Option.bind_eq_bind] at h
      obtain ⟨⟨n, c0⟩, h0, h⟩ := Option.bind_eq_some_iff.1 h
      simp only [Option.some.injEq, Prod.mk.injEq] at h
      obtain ⟨rfl, rfl⟩ := h
      obtain ⟨k0, l0, g0, e0⟩ := decChecked_postcard.1 h0
      refine ⟨rfl, ⟨by simpa using k0, g0.lt⟩, fun j => [l0].getD j 0, lengths_cons.2 ⟨g0, lengths_nil _⟩, ?_⟩
      rw [e0, padServerBody]
      simp
    | augmentationInfo =>
      simp only [decServerBody, Option.bind_eq_bind] at h
      obtain ⟨⟨g, c0⟩, h0, h⟩ := Option.bind_eq_some_iff.1 h
      obtain ⟨⟨X, c1⟩, h1, h⟩ := Option.bind_eq_some_iff.1 h
      obtain ⟨⟨salt, c2⟩, h2, h⟩ := Option.bind_eq_some_iff.1 h
      obtain ⟨⟨ps, c3⟩, h3, h⟩ := Option.bind_eq_some_iff.1 h
      simp only [Option.some.injEq, Prod.mk.injEq] at h
      obtain ⟨rfl, rfl⟩ := h
      obtain ⟨k0, l0, g0, e0⟩ := decChecked_postcard.1 h0
      have e1 := decPoint_eq R h1
      obtain ⟨k2, l2, g2, e2⟩ := decChecked_postcard.1 h2
      obtain ⟨k3, l3, g3, e3⟩ := decChecked_postcard.1 h3
      simp only [Bool.and_eq_true] at k3
      refine ⟨rfl, ⟨⟨g0.lt, k0⟩, (saltOk_iff salt).1 k2, ⟨⟨g3.lt, k3.1⟩, k3.2⟩⟩, fun j => [l0, l2, l3].getD j 0, lengths_cons.2 ⟨g0, lengths_cons.2 ⟨g2, lengths_cons.2 ⟨g3, lengths_nil _⟩⟩⟩, ?_⟩
      rw [e0, show c0 = _ from e1, show c1 = _ from e2, show c2 = _ from e3, padServerBody]
      simp [List.append_assoc]
    | strongAugmentationInfo =>
      simp only [decServerBody, Option.bind_eq_bind] at h
      obtain ⟨⟨g, c0⟩, h0, h⟩ := Option.bind_eq_some_iff.1 h
      obtain ⟨⟨X, c1⟩, h1, h⟩ := Option.bind_eq_some_iff.1 h
      obtain ⟨⟨Z, c2⟩, h2, h⟩ := Option.bind_eq_some_iff.1 h
      obtain ⟨⟨ps, c3⟩, h3, h⟩ := Option.bind_eq_some_iff.1 h
      simp only [Option.some.injEq, Prod.mk.injEq] at h
      obtain ⟨rfl, rfl⟩ := h
      obtain ⟨k0, l0, g0, e0⟩ := decChecked_postcard.1 h0
      have e1 := decPoint_eq R h1
      have e2 := decPoint_eq R h2
      obtain ⟨k3, l3, g3, e3⟩ := decChecked_postcard.1 h3
      simp only [Bool.and_eq_true] at k3
      refine ⟨rfl, ⟨⟨g0.lt, k0⟩, ⟨⟨g3.lt, k3.1⟩, k3.2⟩⟩, fun j => [l0, l3].getD j 0, lengths_cons.2 ⟨g0, lengths_cons.2 ⟨g3, lengths_nil _⟩⟩, ?_⟩
      rw [e0, show c0 = _ from e1, show c1 = _ from e2, show c2 = _ from e3, padServerBody]
      simp [List.append_assoc]
    | publicKey =>
      simp only [decServerBody, Option.bind_eq_bind] at h
      obtain ⟨⟨P, c0⟩, h0, h⟩ := Option.bind_eq_some_iff.1 h
      simp only [Option.some.injEq, Prod.mk.injEq] at h
      obtain ⟨rfl, rfl⟩ := h
      have e0 := decPoint_eq R h0
      refine ⟨rfl, trivial, fun j => [].getD j 0, lengths_nil _, ?_⟩
      rw [e0, padServerBody]
    | authenticator =>
      simp only [decServerBody, Option.bind_eq_bind] at h
      obtain ⟨⟨a, c0⟩, h0, h⟩ := Option.bind_eq_some_iff.1 h
      simp only [Option.some.injEq, Prod.mk.injEq] at h
      obtain ⟨rfl, rfl⟩ := h
      obtain ⟨k0, l0, g0, e0⟩ := decChecked_postcard.1 h0
      refine ⟨rfl, (show a.length = 64 by simpa using k0), fun j => [l0].getD j 0, lengths_cons.2 ⟨g0, lengths_nil _⟩, ?_⟩
      rw [e0, padServerBody]
      simp
  · rintro ⟨hm, hok, i, l, h1, h5, hl, rfl⟩
    obtain ⟨-, hget⟩ := serverVariants_get strong _ hm
    have hlt := serverVariants_lt strong (serverTag m)
    have hd := (C51_postcard_numbers _ (padServerBody R l m ++ r) _).1.2 ⟨i, groups_idx hlt h1 h5, rfl⟩
    simp only [decServer, padServer, List.append_assoc, hd, Option.bind_eq_bind, Option.bind_some, hget]
    cases m with
    | nonce n =>
      simp only [serverStrings, lengths_cons] at hl
      obtain ⟨g0, -⟩ := hl
      have o0 := hok
      have o0' : n.length = K1 := o0.1
      have d0 : ∀ c, decArray postcard K1 (padBytes (l 0) n ++ c) = some (n, c) := fun c => decChecked_postcard.2 ⟨by simpa using o0', _, g0, rfl⟩
      simp only [serverTag, padServerBody, decServerBody, Option.bind_eq_bind, Option.bind_some, d0]
    | augmentationInfo g X salt ps =>
      simp only [serverStrings, lengths_cons] at hl
      obtain ⟨g0, g1, g2, -⟩ := hl
      obtain ⟨o0, o1, o2⟩ := hok
      have d0 : ∀ c, decStr postcard (padBytes (l 0) g ++ c) = some (g, c) := fun c => decChecked_postcard.2 ⟨o0.2, _, g0, rfl⟩
      have d1 : ∀ c, decSalt postcard (padBytes (l 1) salt ++ c) = some (salt, c) := fun c => decChecked_postcard.2 ⟨(saltOk_iff _).2 o1, _, g1, rfl⟩
      have o2' : (utf8 ps && paramsOk ps) = true := by rw [o2.1.2, o2.2]; rfl
      have d2 : ∀ c, decParams postcard paramsOk (padBytes (l 2) ps ++ c) = some (ps, c) := fun c => decChecked_postcard.2 ⟨o2', _, g2, rfl⟩
      simp only [serverTag, padServerBody, decServerBody, List.append_assoc, Option.bind_eq_bind, Option.bind_some, d0, d1, d2, decPoint_compress]
    | strongAugmentationInfo g X Z ps =>
      simp only [serverStrings, lengths_cons] at hl
      obtain ⟨g0, g1, -⟩ := hl
      obtain ⟨o0, o1⟩ := hok
      have d0 : ∀ c, decStr postcard (padBytes (l 0) g ++ c) = some (g, c) := fun c => decChecked_postcard.2 ⟨o0.2, _, g0, rfl⟩
      have o1' : (utf8 ps && paramsOk ps) = true := by rw [o1.1.2, o1.2]; rfl
      have d1 : ∀ c, decParams postcard paramsOk (padBytes (l 1) ps ++ c) = some (ps, c) := fun c => decChecked_postcard.2 ⟨o1', _, g1, rfl⟩
      simp only [serverTag, padServerBody, decServerBody, List.append_assoc, Option.bind_eq_bind, Option.bind_some, d0, d1, decPoint_compress]
    | publicKey P =>
      simp only [serverTag, padServerBody, decServerBody, Option.bind_eq_bind, Option.bind_some, decPoint_compress]
    | authenticator a =>
      simp only [serverStrings, lengths_cons] at hl
      obtain ⟨g0, -⟩ := hl
      have o0 := hok
      have o0' : a.length = 64 := o0
      have d0 : ∀ c, decArray postcard 64 (padBytes (l 0) a ++ c) = some (a, c) := fun c => decChecked_postcard.2 ⟨by simpa using o0', _, g0, rfl⟩
      simp only [serverTag, padServerBody, decServerBody, Option.bind_eq_bind, Option.bind_some, d0]

theorem padded_length (l n : Nat) : (padded l n).length = l := by
  induction l generalizing n with
  | zero => rfl
  | succ l ih => cases l with
    | zero => rfl
    | succ l => simp [padded, ih]

theorem varint_small (n : Nat) (h : n < 128) : postcard.encIdx n = [UInt8.ofNat n] := by
  show varint _ n = _
  simp [varint, h]

/-- **C51 (postcard, client messages are malleable).** Every message has at least five accepted forms, of different lengths, whatever
its contents: the encoding, and four longer ones that differ in the variant number only. -/
theorem C51_postcard_client_five (m : ClientMessage G) (hbuild : clientTag m ∈ clientVariants strong) (h : ClientOk K1 paramsOk m) :
    ∃ e : Fin 5 → Bytes, e 0 = encClient postcard R strong m ∧ (∀ k, (e k).length = (encClient postcard R strong m).length + k) ∧
      ∀ k r, decClient postcard R strong K1 paramsOk (e k ++ r) = some (m, r) := by
  obtain ⟨-, hget⟩ := clientVariants_get strong _ hbuild
  have hlt := clientVariants_lt strong (clientTag m)
  have he : encClient postcard R strong m = padded 1 ((clientVariants strong).idxOf (clientTag m)) ++ clientBody postcard R m := by
    rw [encClient, padded]
    congr 1
    exact varint_small _ hlt
  refine ⟨fun k => padded (k + 1) ((clientVariants strong).idxOf (clientTag m)) ++ clientBody postcard R m, he.symm, fun k => ?_, fun k r => ?_⟩
  · rw [he]
    simp only [List.length_append, padded_length]
    omega
  · have hd := (C51_postcard_numbers _ (clientBody postcard R m ++ r) _).1.2
      ⟨(k : Nat) + 1, groups_idx hlt (by omega) (by omega), rfl⟩
    simp only [decClient, List.append_assoc, hd, Option.bind_eq_bind, Option.bind_some, hget, decClientBody_enc postcard R K1 paramsOk m r h]

/-- **C51 (postcard, server messages are malleable).** Every message has at least five accepted forms, of different lengths, whatever
its contents: the encoding, and four longer ones that differ in the variant number only. -/
theorem C51_postcard_server_five (m : ServerMessage G) (hbuild : serverTag m ∈ serverVariants strong) (h : ServerOk K1 paramsOk m) :
    ∃ e : Fin 5 → Bytes, e 0 = encServer postcard R strong m ∧ (∀ k, (e k).length = (encServer postcard R strong m).length + k) ∧
      ∀ k r, decServer postcard R strong K1 paramsOk (e k ++ r) = some (m, r) := by
  obtain ⟨-, hget⟩ := serverVariants_get strong _ hbuild
  have hlt := serverVariants_lt strong (serverTag m)
  have he : encServer postcard R strong m = padded 1 ((serverVariants strong).idxOf (serverTag m)) ++ serverBody postcard R m := by
    rw [encServer, padded]
    congr 1
    exact varint_small _ hlt
  refine ⟨fun k => padded (k + 1) ((serverVariants strong).idxOf (serverTag m)) ++ serverBody postcard R m, he.symm, fun k => ?_, fun k r => ?_⟩
  · rw [he]
    simp only [List.length_append, padded_length]
    omega
  · have hd := (C51_postcard_numbers _ (serverBody postcard R m ++ r) _).1.2
      ⟨(k : Nat) + 1, groups_idx hlt (by omega) (by omega), rfl⟩
    simp only [decServer, List.append_assoc, hd, Option.bind_eq_bind, Option.bind_some, hget, decServerBody_enc postcard R K1 paramsOk m r h]

end

/-- The hypotheses are met: a nonce of 16 bytes whose length takes three groups. -/
example : decClient postcard Ristretto.toy false 16 (fun _ => true)
    (padClient Ristretto.toy false 4 (fun _ => 3) (.nonce (List.replicate 16 7)) ++ [1, 2]) =
      some (.nonce (List.replicate 16 7), [1, 2]) :=
  (C51_postcard_client _ _ _ _ _ _ _).2 ⟨by decide, ⟨rfl, by unfold Slice; decide⟩, 4, fun _ => 3, by decide, by decide,
    lengths_cons.2 ⟨⟨by decide, by decide, by decide, by decide⟩, lengths_nil _⟩, rfl⟩

example : padded 1 5 = [5] ∧ padded 3 5 = [0x85, 0x80, 0] ∧ padded 2 300 = [0xac, 2] := by decide

/-- A length in ten groups is refused when the last is more than one, so not every zero-filled form of a number is accepted. -/
example : postcard.decLen (padded 9 5 ++ [9]) = some (5, [9]) ∧ postcard.decLen (padded 11 5 ++ [9]) = none ∧
    postcard.decIdx (padded 6 0) = none := by decide +kernel

end Verif.Aucpace.Wire
