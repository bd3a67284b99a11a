import Verif.Aucpace.Scrypt
import Verif.Aucpace.PropsExamples
import Verif.Aucpace.PropsMisc

/-!
# C80: the hasher parameters of the example programs
-/

set_option linter.unusedSectionVars false

namespace Verif.Aucpace.Scrypt
open Spec Run Wire Examples

theorem valueOk_decimal (n : Nat) (h : (decimal n).length ≤ 64) : valueOk (decimal n) = true := by
  simp only [valueOk, Bool.and_eq_true, decide_eq_true_eq, List.all_eq_true]
  refine ⟨h, fun b hb => ?_⟩
  have := decimal_digits n b hb
  have h1 : (0x30 : UInt8) ≤ b := by rw [UInt8.le_iff_toNat_le]; exact this.1
  have h2 : b ≤ (0x39 : UInt8) := by rw [UInt8.le_iff_toNat_le]; exact this.2
  simp [h1, h2]

/-- **C80 (round trip).** Parameters that `Params::new` accepts with the recommended output length are understood by the
client exactly as they were registered, except that the output length is always the recommended one; the string is accepted
by the decoder. -/
theorem C80_round_trip (new : Params → Bool) (x : Params) (hx : x.InRange) (hn : new { x with len := 32 } = true) :
    fromPs new (toPs x) = some { x with len := 32 } ∧ ParamsStr paramsOk (toPs x) ∧ (toPs x).length ≤ 32 := by
  obtain ⟨h1, h2, h3⟩ := hx
  obtain ⟨g1, g2, g3⟩ := getStr_toPs x
  have hl1 : (decimal x.logN).length ≤ 3 := decimal_length _ 2 (by omega)
  have hl2 : (decimal x.r).length ≤ 10 := decimal_length _ 9 (by omega)
  have hl3 : (decimal x.p).length ≤ 10 := decimal_length _ 9 (by omega)
  have hlen : (toPs x).length ≤ 32 := by
    simp only [toPs, List.length_append, show (ascii "ln=").length = 3 by decide,
      show (ascii ",r=").length = 3 by decide, show (ascii ",p=").length = 3 by decide]
    omega
  refine ⟨?_, ⟨⟨by unfold Slice; omega, ?_⟩, ?_⟩, hlen⟩
  · simp only [fromPs, g1, g2, g3, Option.bind_some, parse_decimal _ _ h1, parse_decimal _ _ h2, parse_decimal _ _ h3,
      Option.bind_eq_bind, hn, if_true]
  · apply utf8_ascii
    have hd : ∀ n, ∀ b ∈ decimal n, b.toNat < 0x80 := fun n b hb => by have := decimal_digits n b hb; omega
    intro b hb
    simp only [toPs, List.mem_append] at hb
    rcases hb with ((((hb | hb) | hb) | hb) | hb) | hb
    · revert b; decide
    · exact hd _ b hb
    · revert b; decide
    · exact hd _ b hb
    · revert b; decide
    · exact hd _ b hb
  · have hs := fun n => split_pairs n
    have hi : identOk (ascii "ln") = true ∧ identOk (ascii "r") = true ∧ identOk (ascii "p") = true := by decide
    simp only [paramsOk, split_toPs, List.all_cons, List.all_nil, (hs _).1, (hs _).2.1, (hs _).2.2, hi.1, hi.2.1, hi.2.2,
      valueOk_decimal _ (show (decimal x.logN).length ≤ 64 by omega), valueOk_decimal _ (show (decimal x.r).length ≤ 64 by omega),
      valueOk_decimal _ (show (decimal x.p).length ≤ 64 by omega), Bool.and_self, Bool.and_true, Bool.or_true,
      decide_eq_true_eq]
    omega

theorem decimal_inj {m n : Nat} (h : decimal m = decimal n) : m = n := by
  have h1 := parse_decimal (m + n + 1) m (by omega)
  rw [h, parse_decimal _ n (by omega)] at h1
  exact (Option.some.inj h1).symm

/-- **C80 (what the string says).** The string determines `log_n`, `r` and `p` and says nothing about the output length, so no
function makes the registered parameters from it. -/
theorem C80_length_lost (x y : Params) :
    (toPs x = toPs y ↔ x.logN = y.logN ∧ x.r = y.r ∧ x.p = y.p) ∧
    ∀ f : Bytes → Option Params, ¬ ∀ z ∈ [{ x with len := 32 }, { x with len := 64 }], f (toPs z) = some z := by
  constructor
  · constructor
    · intro h
      obtain ⟨x1, x2, x3⟩ := getStr_toPs x
      obtain ⟨y1, y2, y3⟩ := getStr_toPs y
      rw [h] at x1 x2 x3
      exact ⟨decimal_inj (Option.some.inj (x1.symm.trans y1)), decimal_inj (Option.some.inj (x2.symm.trans y2)),
        decimal_inj (Option.some.inj (x3.symm.trans y3))⟩
    · rintro ⟨h1, h2, h3⟩
      simp only [toPs, h1, h2, h3]
  · intro f h
    have h1 := h { x with len := 32 } (by simp)
    have h2 := h { x with len := 64 } (by simp)
    have : toPs { x with len := 32 } = toPs { x with len := 64 } := rfl
    rw [this, h2] at h1
    simp at h1

/-- The number a string of decimal digits stands for. -/
def value (ds : Bytes) : Nat := ds.foldl (fun acc b => acc * 10 + (b.toNat - 48)) 0

theorem foldl_ge (ds : Bytes) (acc : Nat) : acc ≤ ds.foldl (fun acc b => acc * 10 + (b.toNat - 48)) acc := by
  induction ds generalizing acc with
  | nil => simp
  | cons b bs ih => exact le_trans (by omega) (ih (acc * 10 + (b.toNat - 48)))

theorem parseDigits_iff (bound acc n : Nat) (ds : Bytes) (hacc : acc < bound) :
    parseDigits bound acc ds = some n ↔ (∀ b ∈ ds, 48 ≤ b.toNat ∧ b.toNat ≤ 57) ∧
      n = ds.foldl (fun acc b => acc * 10 + (b.toNat - 48)) acc ∧ n < bound := by
  induction ds generalizing acc with
  | nil =>
    simp only [parseDigits, Option.some.injEq, List.not_mem_nil, false_implies, implies_true, List.foldl_nil, true_and]
    constructor
    · rintro rfl; exact ⟨rfl, hacc⟩
    · rintro ⟨rfl, -⟩; rfl
  | cons b bs ih =>
    simp only [parseDigits, List.mem_cons, forall_eq_or_imp, List.foldl_cons]
    split
    · rename_i hb
      split
      · rename_i hlt
        rw [ih _ hlt]
        simp only [hb, and_self, true_and]
      · rename_i hge
        simp only [reduceCtorEq, false_iff]
        rintro ⟨-, rfl, h⟩
        have := foldl_ge bs (acc * 10 + (b.toNat - 48))
        omega
    · rename_i hb
      simp only [reduceCtorEq, false_iff]
      rintro ⟨⟨h, -⟩, -⟩
      exact hb h

theorem parse_iff (bound n : Nat) (s : Bytes) (h0 : 0 < bound) :
    parse bound s = some n ↔ ∃ ds, (s = ds ∨ s = 0x2b :: ds) ∧ ds ≠ [] ∧ (∀ b ∈ ds, 48 ≤ b.toNat ∧ b.toNat ≤ 57) ∧
      n = value ds ∧ n < bound := by
  have hp : ¬ (48 ≤ (0x2b : UInt8).toNat ∧ (0x2b : UInt8).toNat ≤ 57) := by decide
  cases s with
  | nil => simp only [parse, reduceCtorEq, false_iff]; rintro ⟨ds, h | h, h1, -⟩ <;> simp_all
  | cons b bs =>
    simp only [parse]
    by_cases hb : b = 0x2b
    · subst hb
      simp only [if_true]
      constructor
      · intro h
        split at h
        · simp at h
        · rename_i hne
          exact ⟨bs, Or.inr rfl, hne, (parseDigits_iff bound 0 n bs h0).1 h⟩
      · rintro ⟨ds, hs, hne, hd, hv⟩
        rcases hs with hs | hs
        · exact absurd (hd 0x2b (by rw [← hs]; simp)) hp
        · simp only [List.cons.injEq, true_and] at hs
          subst hs
          rw [if_neg hne, parseDigits_iff bound 0 n bs h0]
          exact ⟨hd, hv⟩
    · rw [if_neg hb, if_neg (by simp), parseDigits_iff bound 0 n _ h0]
      constructor
      · rintro ⟨hd, hv⟩
        exact ⟨b :: bs, Or.inl rfl, by simp, hd, hv⟩
      · rintro ⟨ds, hs, hne, hd, hv⟩
        rcases hs with hs | hs
        · rw [hs]; exact ⟨hd, hv⟩
        · simp only [List.cons.injEq] at hs
          exact absurd hs.1 hb

/-- **C80 (the server decides).** Whatever string the server sends, the parameters with which the client goes on are in the
range of their types, have the recommended output length and are accepted by `Params::new`; conversely the server can make
the client use any such parameters, whatever was registered. -/
theorem C80_accepted (new : Params → Bool) (x : Params) :
    (∃ ps, ParamsStr paramsOk ps ∧ fromPs new ps = some x) ↔ x.InRange ∧ x.len = 32 ∧ new x = true := by
  constructor
  · rintro ⟨ps, -, h⟩
    simp only [fromPs, Option.bind_eq_bind, Option.bind_eq_some_iff] at h
    obtain ⟨a, ⟨s1, -, h1⟩, b, ⟨s2, -, h2⟩, c, ⟨s3, -, h3⟩, h⟩ := h
    rw [parse_iff _ _ _ (by decide)] at h1 h2 h3
    obtain ⟨-, -, -, -, -, h1⟩ := h1
    obtain ⟨-, -, -, -, -, h2⟩ := h2
    obtain ⟨-, -, -, -, -, h3⟩ := h3
    split at h
    · rename_i hn
      simp only [Option.some.injEq] at h
      subst h
      exact ⟨⟨h1, h2, h3⟩, rfl, hn⟩
    · simp at h
  · rintro ⟨hx, hlen, hn⟩
    have hx' : { x with len := 32 } = x := by cases x; simp_all
    obtain ⟨r1, r2, -⟩ := C80_round_trip new x hx (by rw [hx']; exact hn)
    exact ⟨toPs x, r2, by rw [r1, hx']⟩

/-- **C80 (numbers).** A parameter is read as a number exactly if it is a string of digits, with or without a plus sign, whose
value fits the type. -/
theorem C80_parse (bound n : Nat) (s : Bytes) (h0 : 0 < bound) :
    parse bound s = some n ↔ ∃ ds, (s = ds ∨ s = 0x2b :: ds) ∧ ds ≠ [] ∧ (∀ b ∈ ds, 48 ≤ b.toNat ∧ b.toNat ≤ 57) ∧
      n = value ds ∧ n < bound := parse_iff bound n s h0

section
variable {G : Type} [AddCommGroup G] [Module Scalar G] [DecidableEq G] (R : Ristretto G) (D : Digest)
  (hash : Bytes → Params → Bytes → Except PhError (Option Bytes)) {σc σs σr : Type} (rngC : Rng σc) (rngS : Rng σs)
  (rngR : Rng σr)

/-- **C80 (no_std program).** With scrypt and any parameters of the recommended output length that `Params::new` accepts, the
program ends with the same key on both sides or with an error of the library: no `unwrap` of its parameter handling
fails. -/
theorem C80_no_std (h64 : D.outLen = 64) (strong : Bool) (new : Params → Bool) (x : Params) (hx : x.InRange)
    (hlen : x.len = 32) (hn : new x = true) (user pass : Bytes) (s : σr) (c : σc) (sv : Server.State σs) (sr : σs) (c' : σc) :
    (∃ k : Bytes, k.length = 64 ∧
      noStdMain R D (hasher hash) rngC rngS rngR strong paramsOk (fromPs new) x user pass s c sv sr c' = .ok (k, k)) ∨
    ∃ e, noStdMain R D (hasher hash) rngC rngS rngR strong paramsOk (fromPs new) x user pass s c sv sr c' = .err e := by
  have hx' : { x with len := 32 } = x := by cases x; simp_all
  obtain ⟨r1, r2, r3⟩ := C80_round_trip new x hx (by rw [hx']; exact hn)
  rw [hx'] at r1
  obtain ⟨-, h2, h3, h4⟩ := C66_no_std R D (hasher hash) rngC rngS rngR h64 strong paramsOk (fromPs new) x
    (fun ps h => by
      simp only [hasher, Except.ok.injEq] at h
      subst h
      exact ⟨r2, by omega, r1⟩) user pass s c sv sr c'
  cases hr : Client.register R (hasher hash) rngR 100 s user pass x with
  | ok r =>
    rcases h3 r hr with h | h
    · exact Or.inl h
    · exact Or.inr ⟨_, h⟩
  | err e => exact Or.inr ⟨e, h2 e hr⟩
  | panic => exact absurd hr h4

/-- **C80 (TCP programs).** With scrypt the string that a registration sends meets what `C63_partial` assumes of it; a
registration with parameters of another output length can be used for a login only if both lengths give the same scalar, or
with a named collision. -/
theorem C80_other_length (h64 : D.outLen = 64) (new : Params → Bool) (x : Params) (hx : x.InRange)
    (hn : new { x with len := 32 } = true) (bufR : Buf) (s s' : σr) (user pass salt ps : Bytes) (W : G)
    (hreg : Run.register R (hasher hash) rngR bufR s user pass x = .ok (.registration user salt ps W, s'))
    (db : Database G) (hdb : db.lookupVerifier user = some (W, salt, ps)) (kdb : Option (PartialAugDatabase G))
    (hk : ∀ k, kdb = some k → ∃ x, k.lookupLongTermKeypair user = some (x, x • R.base))
    (ci : Bytes) (c c' : σc) (sv : Server.State σs) (sr : σs) :
    fromPs new ps = some { x with len := 32 } ∧ ParamsStr paramsOk ps ∧ ps.length ≤ 127 ∧
    ∀ kc ks, Run.login R D (hasher hash) rngC rngS (Run.explicit R D rngC rngS) (fun _ => { x with len := 32 }) .alloc db kdb
        (.nonces 16) user pass ci c sv sr c' = .ok (kc, ks) →
      ∃ w w' : Scalar, pwScalar (hasher hash) user pass salt x = .ok w ∧
        pwScalar (hasher hash) user pass salt { x with len := 32 } = .ok w' ∧
        (w = w' ∨
          let x := (serverX rngS kdb user sr).1
          ExchangeCollision R D (ssidOf D rngC rngS (.nonces 16) c sv)
            (R.compress ((w * x) • R.base)) (R.compress ((w' * x) • R.base)) ci
            (draw (rngS.fill (serverX rngS kdb user sr).2 64).1) (draw (rngC.fill c' 64).1)) := by
  have hps : ps = toPs x := by
    rw [register_eq] at hreg
    split at hreg
    · obtain ⟨w, -, hreg⟩ := Res.bind_eq_ok.1 hreg
      obtain ⟨ps', hps', hreg⟩ := Res.bind_eq_ok.1 hreg
      simp only [Res.ok.injEq, Prod.mk.injEq, ClientMessage.registration.injEq] at hreg
      simp only [hasher, mapPh, Res.ok.injEq] at hps'
      rw [← hreg.1.2.2.1, hps']
    · simp at hreg
  obtain ⟨r1, r2, r3⟩ := C80_round_trip new x hx hn
  rw [hps]
  refine ⟨r1, r2, by omega, fun kc ks hrun => ?_⟩
  exact C38_credentials R D (hasher hash) rngC rngS rngR h64 bufR .alloc s s' user pass pass salt ps x W hreg db hdb kdb hk
    (fun _ => { x with len := 32 }) trivial (.nonces 16) trivial ci c c' sv sr hrun

/-- **C80 (unknown users).** A server that does not know the user sends no parameters, and the client of every example
program panics on them; for a known user it goes on (`C63_partial`). -/
theorem C80_unknown_user (h64 : D.outLen = 64) (new : Params → Bool) (db : Database G) (sdb : StrongDatabase G)
    (kdb : Option (PartialAugDatabase G)) (srv : Server.AugLayer) (user : Bytes) (U : G) (sr : σs)
    (hdb : db.lookupVerifier user = none) (hsdb : sdb.lookupVerifierStrong user = none) :
    (∃ st m, Run.serverInfo R D rngS db kdb srv user sr = .ok (st, m) ∧
      ∀ (v pass ci : Bytes) (c' : σc) (cl : Client.AugLayer),
        clientRecv R D (hasher hash) rngC (fromPs new) none v pass ci c' (.waitInfo cl) m = none) ∧
    ∀ st m, Run.serverInfoStrong R D rngS sdb kdb srv user U sr = .ok (st, m) →
      ∀ (r : Scalar) (v pass ci : Bytes) (c' : σc) (cl : Client.StrongAugLayer),
        clientRecv R D (hasher hash) rngC (fromPs new) (some r) v pass ci c' (.waitStrongInfo cl) m = none := by
  have hnil : fromPs new [] = none := by simp [fromPs, getStr]
  constructor
  · cases kdb with
    | none =>
      obtain ⟨⟨X, h⟩, -⟩ := C44_answer R D rngS h64 srv user db ⟨fun _ => none⟩ sr hdb
      exact ⟨_, _, h, fun v pass ci c' cl => by simp [clientRecv, hnil]⟩
    | some k =>
      obtain ⟨-, X, s', h⟩ := C44_answer R D rngS h64 srv user db k sr hdb
      exact ⟨_, _, h, fun v pass ci c' cl => by simp [clientRecv, hnil]⟩
  · intro st m h r v pass ci c' cl
    obtain ⟨-, X, rfl⟩ := C44_answer_strong R D rngS srv user U sdb kdb sr hsdb st m h
    simp [clientRecv, hnil]

end

/-- Conditions like those of `Params::new` on a 64-bit platform, used only in the examples below. -/
def newOk (x : Params) : Bool :=
  0 < x.r && 0 < x.p && x.logN < 64 && x.r * 128 * 2 ^ x.logN < 2 ^ 64 && x.r * 128 * x.p < 2 ^ 64 && x.logN < x.r * 16 &&
    x.r * x.p < 0x40000000

/-- The recommended parameters meet the hypotheses, and the strings that are exchanged. -/
example : recommended.InRange ∧ newOk recommended = true ∧ recommended.len = 32 ∧
    toPs recommended = ascii "ln=17,r=8,p=1" ∧ fromPs newOk (ascii "ln=17,r=8,p=1") = some recommended ∧
    fromPs newOk (ascii "p=+01,x=7,ln=17,r=8,r=9") = some recommended ∧
    fromPs newOk [] = none ∧ fromPs newOk (ascii "ln=300,r=8,p=1") = none ∧ fromPs newOk (ascii "ln=17,r=8") = none ∧
    fromPs newOk (ascii "ln=17,r=0,p=1") = none ∧ paramsOk (ascii "ln=17,r==8") = false := by
  refine ⟨by unfold Params.InRange; decide, ?_⟩
  decide +kernel

/-- A login after a registration with 64 bytes of output (`World.login` is the same with the registered length). -/
def exampleHash (pw : Bytes) (x : Params) (salt : Bytes) : Except PhError (Option Bytes) :=
  .ok (some ((sha512.hash (pw ++ salt)).take x.len))

example :
    (match Run.register Ristretto.toy (hasher exampleHash) Rng.replay .alloc (World.bytes 7 16) World.user World.pass
        { recommended with len := 64 } with
    | .ok (.registration _ salt ps W, _) =>
      let db : Database Scalar := ⟨fun u => if u = World.user then some (W, salt, ps) else none⟩
      let run := fun x => Run.login Ristretto.toy sha512 (hasher exampleHash) Rng.replay Rng.replay
        (Run.explicit Ristretto.toy sha512 Rng.replay Rng.replay) (fun _ => x) .alloc db none (.nonces 16) World.user World.pass
        (ascii "ci") (World.bytes 2 100) World.server (World.bytes 3 200) (World.bytes 4 100)
      decide (fromPs newOk ps = some recommended) && decide (run recommended = .err .mutualAuthFail) &&
        (run { recommended with len := 64 }).isOk
    | _ => false) = true := by
  decide +kernel

end Verif.Aucpace.Scrypt
