import Verif.Basic.Bytes

/-!
# UTF-8

What `core::str::from_utf8` accepts.
-/

namespace Verif

/-- `b` is a continuation byte `10xxxxxx` at least `lo` and at most `hi`. -/
def cont (lo hi : Nat) (b : UInt8) : Bool := lo ≤ b.toNat && b.toNat ≤ hi

/-- Well-formed UTF-8 (Unicode table 3-7), the invariant of `str`. -/
def utf8 : Bytes → Bool
  | [] => true
  | a :: r =>
    if a.toNat < 0x80 then utf8 r
    else match r with
      | b :: r =>
        if cont 0xC2 0xDF a then cont 0x80 0xBF b && utf8 r
        else match r with
          | c :: r =>
            if cont 0xE0 0xEF a then
              cont (if a = 0xE0 then 0xA0 else 0x80) (if a = 0xED then 0x9F else 0xBF) b &&
                cont 0x80 0xBF c && utf8 r
            else match r with
              | d :: r =>
                cont 0xF0 0xF4 a &&
                  cont (if a = 0xF0 then 0x90 else 0x80) (if a = 0xF4 then 0x8F else 0xBF) b &&
                  cont 0x80 0xBF c && cont 0x80 0xBF d && utf8 r
              | [] => false
          | [] => false
      | [] => false

theorem utf8_ascii (s : Bytes) (h : ∀ b ∈ s, b.toNat < 0x80) : utf8 s = true := by
  induction s with
  | nil => rfl
  | cons a s ih =>
    unfold utf8
    rw [if_pos (h a List.mem_cons_self)]
    exact ih fun b hb => h b (List.mem_cons_of_mem _ hb)

theorem utf8_char (c : Char) (r : Bytes) : utf8 (String.utf8EncodeChar c ++ r) = utf8 r := by
  have hv := c.valid
  unfold String.utf8EncodeChar
  generalize hn : c.val.toNat = v
  have hv' : v < 55296 ∨ 57343 < v ∧ v < 1114112 := by rw [← hn]; exact hv
  have key : ∀ k, k < 256 → (UInt8.ofNat k).toNat = k := fun k h => by simp; omega
  simp only
  split
  · rw [List.singleton_append, utf8.eq_def]
    simp only
    rw [if_pos (by rw [key _ (by omega)]; omega)]
  · split
    · have h1 := key (v / 64 % 32 + 192) (by omega)
      have h2 := key (v % 64 + 128) (by omega)
      simp only [List.cons_append, List.nil_append]
      rw [utf8.eq_def]
      simp only
      rw [if_neg (by omega)]
      simp only [cont, h1, h2]
      rw [if_pos (by simp; omega)]
      simp; intro _; omega
    · split
      · have h1 := key (v / 4096 % 16 + 224) (by omega)
        have h2 := key (v / 64 % 64 + 128) (by omega)
        have h3 := key (v % 64 + 128) (by omega)
        simp only [List.cons_append, List.nil_append]
        rw [utf8.eq_def]
        simp only
        rw [if_neg (by omega)]
        have e1 : (UInt8.ofNat (v / 4096 % 16 + 224) = 0xE0) ↔ v / 4096 % 16 = 0 := by
          rw [← UInt8.toNat_inj, h1]; simp
        have e2 : (UInt8.ofNat (v / 4096 % 16 + 224) = 0xED) ↔ v / 4096 % 16 = 13 := by
          rw [← UInt8.toNat_inj, h1]; simp
        simp only [cont, h1, h2, h3, e1, e2]
        rw [if_neg (by simp), if_pos (by simp; omega)]
        simp; intro _
        split <;> split <;> omega
      · have h1 := key (v / 262144 % 8 + 240) (by omega)
        have h2 := key (v / 4096 % 64 + 128) (by omega)
        have h3 := key (v / 64 % 64 + 128) (by omega)
        have h4 := key (v % 64 + 128) (by omega)
        simp only [List.cons_append, List.nil_append]
        rw [utf8.eq_def]
        simp only
        rw [if_neg (by omega)]
        have e1 : (UInt8.ofNat (v / 262144 % 8 + 240) = 0xF0) ↔ v / 262144 % 8 = 0 := by
          rw [← UInt8.toNat_inj, h1]; simp
        have e2 : (UInt8.ofNat (v / 262144 % 8 + 240) = 0xF4) ↔ v / 262144 % 8 = 4 := by
          rw [← UInt8.toNat_inj, h1]; simp
        simp only [cont, h1, h2, h3, h4, e1, e2]
        rw [if_neg (by simp), if_neg (by simp)]
        simp; intro _
        split <;> split <;> omega

/-- The character with a given number. -/
theorem char_of (v : Nat) (h : v < 55296 ∨ 57343 < v ∧ v < 1114112) : ∃ c : Char, c.val.toNat = v :=
  ⟨Char.ofNat v, by
    rw [Char.ofNat, dif_pos h]
    simp [Char.ofNatAux]⟩

theorem byte_eq (a : UInt8) (k : Nat) (h : k = a.toNat) : UInt8.ofNat k = a := by subst h; simp

/-- `utf8` accepts exactly the encodings of lists of characters. -/
theorem utf8_iff (b : Bytes) : utf8 b = true ↔ ∃ l : List Char, b = l.flatMap String.utf8EncodeChar := by
  constructor
  · induction hn : b.length using Nat.strong_induction_on generalizing b with
    | _ n ih =>
    intro h
    have step : ∀ (c : Char) (r : Bytes), b = String.utf8EncodeChar c ++ r → r.length < n → utf8 r = true →
        ∃ l : List Char, b = l.flatMap String.utf8EncodeChar := by
      intro c r hb hl hr
      obtain ⟨l, hl⟩ := ih r.length hl r rfl hr
      exact ⟨c :: l, by rw [List.flatMap_cons, ← hl, hb]⟩
    cases b with
    | nil => exact ⟨[], rfl⟩
    | cons a r =>
      have ha := a.toNat_lt
      unfold utf8 at h
      split at h
      · obtain ⟨c, hc⟩ := char_of a.toNat (by omega)
        refine step c r ?_ (by simp at hn; omega) h
        unfold String.utf8EncodeChar
        rw [hc]
        simp only
        rw [if_pos (by omega), byte_eq a _ rfl]; rfl
      · split at h
        · rename_i b r
          have hb := b.toNat_lt
          split at h
          · rename_i hA
            simp only [cont, Bool.and_eq_true, decide_eq_true_eq] at h hA
            obtain ⟨c, hc⟩ := char_of ((a.toNat - 192) * 64 + (b.toNat - 128)) (by omega)
            refine step c r ?_ (by simp at hn; omega) h.2
            unfold String.utf8EncodeChar
            rw [hc]
            simp only
            rw [if_neg (by omega), if_pos (by omega), byte_eq a _ (by omega), byte_eq b _ (by omega)]; rfl
          · split at h
            · rename_i c r
              have hc := c.toNat_lt
              split at h
              · rename_i hA
                have e1 : (a = 0xE0) ↔ a.toNat = 0xE0 := by rw [← UInt8.toNat_inj]; simp
                have e2 : (a = 0xED) ↔ a.toNat = 0xED := by rw [← UInt8.toNat_inj]; simp
                simp only [cont, Bool.and_eq_true, decide_eq_true_eq, e1, e2] at h hA
                obtain ⟨⟨⟨h1, h2⟩, h3⟩, h4⟩ := h
                obtain ⟨ch, hch⟩ := char_of ((a.toNat - 224) * 4096 + (b.toNat - 128) * 64 + (c.toNat - 128)) (by
                  split at h1 <;> split at h2 <;> omega)
                refine step ch r ?_ (by simp at hn; omega) h4
                unfold String.utf8EncodeChar
                rw [hch]
                simp only
                have : 128 ≤ b.toNat ∧ b.toNat ≤ 191 := by split at h1 <;> split at h2 <;> omega
                have : 2047 < (a.toNat - 224) * 4096 + (b.toNat - 128) * 64 + (c.toNat - 128) := by
                  split at h1 <;> omega
                rw [if_neg (by omega), if_neg (by omega), if_pos (by omega), byte_eq a _ (by omega),
                  byte_eq b _ (by omega), byte_eq c _ (by omega)]; rfl
              · split at h
                · rename_i d r
                  have hd := d.toNat_lt
                  have e1 : (a = 0xF0) ↔ a.toNat = 0xF0 := by rw [← UInt8.toNat_inj]; simp
                  have e2 : (a = 0xF4) ↔ a.toNat = 0xF4 := by rw [← UInt8.toNat_inj]; simp
                  simp only [cont, Bool.and_eq_true, decide_eq_true_eq, e1, e2] at h
                  obtain ⟨⟨⟨⟨h0, h1, h2⟩, h3⟩, h4⟩, h5⟩ := h
                  have hb' : 128 ≤ b.toNat ∧ b.toNat ≤ 191 := by split at h1 <;> split at h2 <;> omega
                  have hlo : 65535 < (a.toNat - 240) * 262144 + (b.toNat - 128) * 4096 + (c.toNat - 128) * 64 +
                      (d.toNat - 128) := by split at h1 <;> omega
                  have hhi : (a.toNat - 240) * 262144 + (b.toNat - 128) * 4096 + (c.toNat - 128) * 64 +
                      (d.toNat - 128) < 1114112 := by split at h2 <;> omega
                  obtain ⟨ch, hch⟩ := char_of ((a.toNat - 240) * 262144 + (b.toNat - 128) * 4096 + (c.toNat - 128) * 64 +
                      (d.toNat - 128)) (by omega)
                  refine step ch r ?_ (by simp at hn; omega) h5
                  unfold String.utf8EncodeChar
                  rw [hch]
                  simp only
                  rw [if_neg (by omega), if_neg (by omega), if_neg (by omega), byte_eq a _ (by omega),
                    byte_eq b _ (by omega), byte_eq c _ (by omega), byte_eq d _ (by omega)]; rfl
                · cases h
            · cases h
        · cases h
  · rintro ⟨l, rfl⟩
    induction l with
    | nil => rfl
    | cons c l ih => rw [List.flatMap_cons, utf8_char, ih]
end Verif
