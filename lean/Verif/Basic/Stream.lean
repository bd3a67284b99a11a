import Verif.Basic.Bytes

/-!
# Two programs connected by byte streams

Each program is a loop: read some bytes, decode the first message in them, drop the rest of what was read, react, write
messages. How many of the waiting bytes a read returns is not determined. This is what the `recv!` macro of the aucpace
examples does with a `TcpStream` (aucpace/examples/key_agreement.rs:23-30).
-/

namespace Verif.Stream

/-- A program that waits for messages. `recv` gives the next state and the messages written, `none` when the program ends
with an error or panics; `result` is the value returned, after which the program does not read any more. -/
structure Proc (In Out : Type) where
  St : Type
  init : St
  first : List Out
  recv : St → In → Option (St × List Out)
  result : St → Option Bytes

/-- Encoding of one kind of messages. -/
structure Codec (M : Type) where
  enc : M → Bytes
  dec : Bytes → Option (M × Bytes)
  valid : M → Prop
  dec_enc : ∀ m r, valid m → dec (enc m ++ r) = some (m, r)
  enc_ne : ∀ m, enc m ≠ []

namespace Codec
variable {M : Type} (K : Codec M)

/-- Messages written one after the other. -/
def encs (ms : List M) : Bytes := ms.flatMap K.enc

theorem encs_append (a b : List M) : K.encs (a ++ b) = K.encs a ++ K.encs b := List.flatMap_append

/-- Whole messages at the front of a stream are the first messages written to it. -/
theorem prefix_of_encs (ms ls : List M) (r : Bytes) (hm : ∀ m ∈ ms, K.valid m) (hl : ∀ m ∈ ls, K.valid m)
    (h : K.encs ms ++ r = K.encs ls) : ∃ ls', ls = ms ++ ls' ∧ r = K.encs ls' := by
  induction ms generalizing ls with
  | nil => exact ⟨ls, rfl, h⟩
  | cons m ms ih =>
    cases ls with
    | nil =>
      have := congrArg List.length h
      have hne := List.length_pos_iff.2 (K.enc_ne m)
      simp only [encs, List.flatMap_cons, List.flatMap_nil, List.append_assoc, List.length_append,
        List.length_nil] at this
      omega
    | cons l ls =>
      simp only [encs, List.flatMap_cons, List.append_assoc] at h
      have h1 := K.dec_enc m (ms.flatMap K.enc ++ r) (hm m List.mem_cons_self)
      rw [h, K.dec_enc l _ (hl l List.mem_cons_self)] at h1
      simp only [Option.some.injEq, Prod.mk.injEq] at h1
      obtain ⟨rfl, h1⟩ := h1
      obtain ⟨ls', rfl, hr⟩ := ih ls (fun x hx => hm x (List.mem_cons_of_mem _ hx))
        (fun x hx => hl x (List.mem_cons_of_mem _ hx)) h1.symm
      exact ⟨ls', rfl, hr⟩

end Codec

section
variable {A B : Type} (KA : Codec A) (KB : Codec B) (C : Proc B A) (S : Proc A B)

/-- `none` instead of a program's state: it has ended with an error or a panic. -/
structure Config where
  client : Option C.St
  server : Option S.St
  toServer : Bytes
  toClient : Bytes

/-- Both programs have started and written their first messages. -/
def start : Config C S := ⟨some C.init, some S.init, KA.encs C.first, KB.encs S.first⟩

/-- A program's reaction to what a read returned: new state and bytes written. -/
def react {In Out : Type} (KI : Codec In) (KO : Codec Out) (P : Proc In Out) (st : P.St) (chunk : Bytes) :
    Option P.St × Bytes :=
  match KI.dec chunk with
  | none => (none, [])
  | some (m, _) =>
    match P.recv st m with
    | none => (none, [])
    | some (st', outs) => (some st', KO.encs outs)

/-- The program has ended: the stream it writes to is closed. -/
def ended {In Out : Type} (P : Proc In Out) (st : Option P.St) : Prop := ∀ s, st = some s → (P.result s).isSome

/-- One step. A read returns between one and `buf` waiting bytes, `okC` and `okS` restrict what it may return; at the end
of a closed stream it returns nothing and decoding fails. -/
inductive Step (buf : Nat) (okC okS : Bytes → Prop) : Config C S → Config C S → Prop
  | client (st : C.St) (sv : Option S.St) (out chunk rest : Bytes) (hr : C.result st = none) (hne : chunk ≠ [])
      (hb : chunk.length ≤ buf) (hok : okC chunk) :
      Step buf okC okS ⟨some st, sv, out, chunk ++ rest⟩
        ⟨(react KB KA C st chunk).1, sv, out ++ (react KB KA C st chunk).2, rest⟩
  | server (cl : Option C.St) (st : S.St) (out chunk rest : Bytes) (hr : S.result st = none) (hne : chunk ≠ [])
      (hb : chunk.length ≤ buf) (hok : okS chunk) :
      Step buf okC okS ⟨cl, some st, chunk ++ rest, out⟩
        ⟨cl, (react KA KB S st chunk).1, rest, out ++ (react KA KB S st chunk).2⟩
  | clientEof (st : C.St) (sv : Option S.St) (out : Bytes) (hr : C.result st = none) (hs : ended S sv) :
      Step buf okC okS ⟨some st, sv, out, []⟩ ⟨none, sv, out, []⟩
  | serverEof (cl : Option C.St) (st : S.St) (out : Bytes) (hr : S.result st = none) (hc : ended C cl) :
      Step buf okC okS ⟨cl, some st, [], out⟩ ⟨cl, none, [], out⟩

/-- Reachable in `n` steps. -/
inductive Reach (buf : Nat) (okC okS : Bytes → Prop) : Nat → Config C S → Prop
  | start : Reach buf okC okS 0 (start KA KB C S)
  | step {n : Nat} {x y : Config C S} (h : Reach buf okC okS n x) (hs : Step KA KB C S buf okC okS x y) :
      Reach buf okC okS (n + 1) y

variable {KA KB C S} in
theorem Step.mono {buf : Nat} {okC okS okC' okS' : Bytes → Prop} (hC : ∀ c, okC c → okC' c) (hS : ∀ c, okS c → okS' c)
    {x y : Config C S} (h : Step KA KB C S buf okC okS x y) : Step KA KB C S buf okC' okS' x y := by
  cases h with
  | client st sv out chunk rest hr hne hb hok => exact .client st sv out chunk rest hr hne hb (hC _ hok)
  | server cl st out chunk rest hr hne hb hok => exact .server cl st out chunk rest hr hne hb (hS _ hok)
  | clientEof st sv out hr hs => exact .clientEof st sv out hr hs
  | serverEof cl st out hr hc => exact .serverEof cl st out hr hc

variable {KA KB C S} in
theorem Reach.mono {buf n : Nat} {okC okS okC' okS' : Bytes → Prop} (hC : ∀ c, okC c → okC' c)
    (hS : ∀ c, okS c → okS' c) {x : Config C S} (h : Reach KA KB C S buf okC okS n x) :
    Reach KA KB C S buf okC' okS' n x := by
  induction h with
  | start => exact .start
  | step _ hs ih => exact .step ih (hs.mono hC hS)

/-- What a read may return: anything. -/
def anything (_ : Bytes) : Prop := True

/-- What a read may return: exactly one message. -/
def single {M : Type} (K : Codec M) (chunk : Bytes) : Prop := ∃ m, K.valid m ∧ chunk = K.enc m

/-- What a read may return: one or several whole messages. -/
def whole {M : Type} (K : Codec M) (chunk : Bytes) : Prop := ∃ ms, (∀ m ∈ ms, K.valid m) ∧ chunk = K.encs ms

/-- What a read may return: whole messages, or bytes that cannot be decoded (such as a part of one message). -/
def aligned {M : Type} (K : Codec M) (chunk : Bytes) : Prop := whole K chunk ∨ K.dec chunk = none

/-- What a read may return: whole messages, or the beginning of one message. -/
def wholeOrPart {M : Type} (K : Codec M) (chunk : Bytes) : Prop :=
  whole K chunk ∨ ∃ m rest, K.valid m ∧ rest ≠ [] ∧ chunk ++ rest = K.enc m

/-- An undisturbed exchange: the `i`-th message each side sends is the `i`-th the other receives, every message arrives
in the state that expects it, and no earlier state accepts it. -/
structure Script where
  cst : Nat → C.St
  sst : Nat → S.St
  cms : List A
  sms : List B
  /-- messages written after so many have been received -/
  csent : Nat → Nat
  ssent : Nat → Nat
  ckey : Bytes
  skey : Bytes
  cinit : cst 0 = C.init
  sinit : sst 0 = S.init
  cfirst : C.first = cms.take (csent 0)
  sfirst : S.first = sms.take (ssent 0)
  cstep : ∀ i m, sms[i]? = some m →
    ∃ outs, C.recv (cst i) m = some (cst (i + 1), outs) ∧ cms.take (csent (i + 1)) = cms.take (csent i) ++ outs
  sstep : ∀ i m, cms[i]? = some m →
    ∃ outs, S.recv (sst i) m = some (sst (i + 1), outs) ∧ sms.take (ssent (i + 1)) = sms.take (ssent i) ++ outs
  cskip : ∀ i j m, i < j → sms[j]? = some m → C.recv (cst i) m = none
  sskip : ∀ i j m, i < j → cms[j]? = some m → S.recv (sst i) m = none
  cwait : ∀ i, i < sms.length → C.result (cst i) = none
  swait : ∀ i, i < cms.length → S.result (sst i) = none
  cdone : C.result (cst sms.length) = some ckey
  sdone : S.result (sst cms.length) = some skey
  cle : ∀ i, csent i ≤ cms.length
  sle : ∀ i, ssent i ≤ sms.length
  cvalid : ∀ m ∈ cms, KA.valid m
  svalid : ∀ m ∈ sms, KB.valid m
  /-- somebody can go on -/
  progress : ∀ i ≤ sms.length, ∀ j ≤ cms.length, i ≤ ssent j → j ≤ csent i →
    (i = sms.length ∧ j = cms.length) ∨ i < ssent j ∨ j < csent i

namespace Script
variable {KA KB C S} (T : Script KA KB C S)

/-- The messages of a script that wait in a stream: `n` have been written, the first `a` of them taken out. -/
def waiting {M : Type} (ms : List M) (n a : Nat) : List M := (ms.take n).drop a

theorem waiting_cons {M : Type} {ms : List M} {n a : Nat} (hn : n ≤ ms.length) (ha : a < n) :
    ∃ m, ms[a]? = some m ∧ waiting ms n a = m :: waiting ms n (a + 1) := by
  have hl : a < (ms.take n).length := by rw [List.length_take]; omega
  refine ⟨ms[a], by rw [List.getElem?_eq_getElem (by omega)], ?_⟩
  rw [waiting, List.drop_eq_getElem_cons hl, List.getElem_take, waiting]

theorem waiting_length {M : Type} {ms : List M} {n a : Nat} (hn : n ≤ ms.length) :
    (waiting ms n a).length = n - a := by
  rw [waiting, List.length_drop, List.length_take]; omega

theorem waiting_append {M : Type} {ms outs : List M} {n n' a : Nat} (hn : n ≤ ms.length) (ha : a ≤ n)
    (h : ms.take n' = ms.take n ++ outs) : waiting ms n' a = waiting ms n a ++ outs := by
  rw [waiting, h, waiting, List.drop_append_of_le_length (by rw [List.length_take]; omega)]

theorem waiting_drop {M : Type} {ms xs ys : List M} {n a : Nat} (h : waiting ms n a = xs ++ ys) :
    ys = waiting ms n (a + xs.length) := by
  have := congrArg (List.drop xs.length) h
  rw [List.drop_left] at this
  rw [← this, waiting, waiting, List.drop_drop]

/-- Where an exchange can be when reads return whole messages or nothing that can be decoded. `i` and `j` messages have been
accepted, `a` and `b` taken out of the streams. -/
structure Inv (x : Config C S) (i j a b : Nat) : Prop where
  hi : i ≤ T.sms.length
  hj : j ≤ T.cms.length
  ha : i ≤ a
  hb : j ≤ b
  ha' : a ≤ T.ssent j
  hb' : b ≤ T.csent i
  client : x.client = none ∨
    (x.client = some (T.cst i) ∧ x.toClient = KB.encs (waiting T.sms (T.ssent j) a))
  server : x.server = none ∨
    (x.server = some (T.sst j) ∧ x.toServer = KA.encs (waiting T.cms (T.csent i) b))

theorem inv_start : T.Inv (start KA KB C S) 0 0 0 0 where
  hi := Nat.zero_le _
  hj := Nat.zero_le _
  ha := le_refl _
  hb := le_refl _
  ha' := Nat.zero_le _
  hb' := Nat.zero_le _
  client := Or.inr ⟨by rw [T.cinit]; rfl, by rw [waiting, List.drop_zero, ← T.sfirst]; rfl⟩
  server := Or.inr ⟨by rw [T.sinit]; rfl, by rw [waiting, List.drop_zero, ← T.cfirst]; rfl⟩

theorem csent_mono (i : Nat) (h : i < T.sms.length) : T.csent i ≤ T.csent (i + 1) := by
  obtain ⟨outs, -, ho⟩ := T.cstep i T.sms[i] (List.getElem?_eq_getElem h)
  have := congrArg List.length ho
  rw [List.length_append, List.length_take, List.length_take] at this
  have := T.cle i
  have := T.cle (i + 1)
  omega

theorem ssent_mono (i : Nat) (h : i < T.cms.length) : T.ssent i ≤ T.ssent (i + 1) := by
  obtain ⟨outs, -, ho⟩ := T.sstep i T.cms[i] (List.getElem?_eq_getElem h)
  have := congrArg List.length ho
  rw [List.length_append, List.length_take, List.length_take] at this
  have := T.sle i
  have := T.sle (i + 1)
  omega

theorem mem_waiting {M : Type} {ms : List M} {n a : Nat} {m : M} (h : m ∈ waiting ms n a) : m ∈ ms :=
  List.mem_of_mem_take (List.mem_of_mem_drop h)

/-- A read of whole messages takes out a non-empty front part of the waiting messages. -/
theorem read_whole {M : Type} {K : Codec M} {ms : List M} {n a : Nat} (hn : n ≤ ms.length) (hv : ∀ m ∈ ms, K.valid m)
    {chunk rest : Bytes} (hne : chunk ≠ []) (hw : whole K chunk) (h : chunk ++ rest = K.encs (waiting ms n a)) :
    ∃ k m r, 0 < k ∧ a + k ≤ n ∧ ms[a]? = some m ∧ K.dec chunk = some (m, r) ∧
      rest = K.encs (waiting ms n (a + k)) ∧ ((∃ m', K.valid m' ∧ chunk = K.enc m') → k = 1) := by
  obtain ⟨xs, hxs, rfl⟩ := hw
  obtain ⟨ys, hys, hr⟩ := K.prefix_of_encs xs _ rest hxs (fun m hm => hv m (mem_waiting hm)) h
  cases xs with
  | nil => exact absurd rfl hne
  | cons x xs =>
    have hl := waiting_length (a := a) hn
    rw [hys] at hl
    simp only [List.length_append, List.length_cons] at hl
    obtain ⟨m, hm, hc⟩ := waiting_cons hn (a := a) (by omega)
    rw [hys] at hc
    simp only [List.cons_append, List.cons.injEq] at hc
    obtain ⟨rfl, -⟩ := hc
    refine ⟨xs.length + 1, x, K.encs xs, by omega, by omega, hm, ?_, ?_, ?_⟩
    · exact K.dec_enc x _ (hxs x List.mem_cons_self)
    · rw [hr, waiting_drop hys, List.length_cons]
    · rintro ⟨m', hv', he⟩
      obtain ⟨zs, hz, -⟩ := K.prefix_of_encs [m'] (x :: xs) [] (by simpa using hv') hxs
        (by rw [he]; simp [Codec.encs])
      have he' : K.encs (x :: xs) = K.encs [m'] := by rw [he]; simp [Codec.encs]
      rw [hz, K.encs_append] at he'
      have hnil : K.encs zs = [] := by
        have := congrArg List.length he'
        rw [List.length_append] at this
        exact List.length_eq_zero_iff.1 (by omega)
      cases zs with
      | nil =>
        have := congrArg List.length hz
        simpa using this
      | cons z zs =>
        have hz' := K.enc_ne z
        simp only [Codec.encs, List.flatMap_cons, List.append_eq_nil_iff] at hnil
        exact absurd hnil.1 hz'

theorem single_whole {M : Type} {K : Codec M} {chunk : Bytes} (h : single K chunk) : whole K chunk := by
  obtain ⟨m, hv, rfl⟩ := h
  exact ⟨[m], by simpa using hv, by simp [Codec.encs]⟩

theorem inv_step {buf : Nat} {okC okS : Bytes → Prop} (hC : ∀ c, okC c → aligned KB c)
    (hS : ∀ c, okS c → aligned KA c)
    {x y : Config C S} {i j a b : Nat} (hx : T.Inv x i j a b) (h : Step KA KB C S buf okC okS x y) :
    ∃ i' j' a' b', T.Inv y i' j' a' b' := by
  cases h with
  | client st sv out chunk rest hr hne hb hok =>
    obtain ⟨hst, hin⟩ : some st = some (T.cst i) ∧ chunk ++ rest = KB.encs (waiting T.sms (T.ssent j) a) := by
      rcases hx.client with h | h
      · cases h
      · exact h
    obtain rfl := Option.some.inj hst
    rcases hC _ hok with hw | hd
    · obtain ⟨k, m, r, hk, hak, hm, hd, hrest, -⟩ := read_whole (T.sle j) T.svalid hne hw hin
      by_cases hai : a = i
      · subst hai
        obtain ⟨outs, hrecv, hout⟩ := T.cstep a m hm
        have hreact : react KB KA C (T.cst a) chunk = (some (T.cst (a + 1)), KA.encs outs) := by
          simp only [react, hd, hrecv]
        have hlt : a < T.sms.length := (List.getElem?_eq_some_iff.1 hm).1
        refine ⟨a + 1, j, a + k, b, ?_⟩
        rw [hreact]
        refine { hi := hlt, hj := hx.hj, ha := by omega, hb := hx.hb, ha' := hak,
                 hb' := hx.hb'.trans (T.csent_mono a hlt), client := Or.inr ⟨rfl, hrest⟩, server := ?_ }
        refine hx.server.imp id fun h => ⟨h.1, ?_⟩
        show out ++ KA.encs outs = _
        rw [waiting_append (T.cle a) hx.hb' hout, KA.encs_append]
        congr 1
        exact h.2
      · have hrecv := T.cskip i a m (by have := hx.ha; omega) hm
        have hreact : react KB KA C (T.cst i) chunk = (none, []) := by
          simp only [react, hd, hrecv]
        refine ⟨i, j, a, b, ?_⟩
        rw [hreact]
        refine { hx with client := Or.inl rfl, server := ?_ }
        refine hx.server.imp id fun h => ⟨h.1, ?_⟩
        show out ++ [] = _
        rw [List.append_nil]
        exact h.2
    · have hreact : react KB KA C (T.cst i) chunk = (none, []) := by
        simp only [react, hd]
      refine ⟨i, j, a, b, ?_⟩
      rw [hreact]
      refine { hx with client := Or.inl rfl, server := ?_ }
      refine hx.server.imp id fun h => ⟨h.1, ?_⟩
      show out ++ [] = _
      rw [List.append_nil]
      exact h.2
  | server cl st out chunk rest hr hne hb hok =>
    obtain ⟨hst, hin⟩ : some st = some (T.sst j) ∧ chunk ++ rest = KA.encs (waiting T.cms (T.csent i) b) := by
      rcases hx.server with h | h
      · cases h
      · exact h
    obtain rfl := Option.some.inj hst
    rcases hS _ hok with hw | hd
    · obtain ⟨k, m, r, hk, hbk, hm, hd, hrest, -⟩ := read_whole (T.cle i) T.cvalid hne hw hin
      by_cases hbj : b = j
      · subst hbj
        obtain ⟨outs, hrecv, hout⟩ := T.sstep b m hm
        have hreact : react KA KB S (T.sst b) chunk = (some (T.sst (b + 1)), KB.encs outs) := by
          simp only [react, hd, hrecv]
        have hlt : b < T.cms.length := (List.getElem?_eq_some_iff.1 hm).1
        refine ⟨i, b + 1, a, b + k, ?_⟩
        rw [hreact]
        refine { hi := hx.hi, hj := hlt, ha := hx.ha, hb := by omega, ha' := hx.ha'.trans (T.ssent_mono b hlt),
                 hb' := hbk, client := ?_, server := Or.inr ⟨rfl, hrest⟩ }
        refine hx.client.imp id fun h => ⟨h.1, ?_⟩
        show out ++ KB.encs outs = _
        rw [waiting_append (T.sle b) hx.ha' hout, KB.encs_append]
        congr 1
        exact h.2
      · have hrecv := T.sskip j b m (by have := hx.hb; omega) hm
        have hreact : react KA KB S (T.sst j) chunk = (none, []) := by
          simp only [react, hd, hrecv]
        refine ⟨i, j, a, b, ?_⟩
        rw [hreact]
        refine { hx with client := ?_, server := Or.inl rfl }
        refine hx.client.imp id fun h => ⟨h.1, ?_⟩
        show out ++ [] = _
        rw [List.append_nil]
        exact h.2
    · have hreact : react KA KB S (T.sst j) chunk = (none, []) := by
        simp only [react, hd]
      refine ⟨i, j, a, b, ?_⟩
      rw [hreact]
      refine { hx with client := ?_, server := Or.inl rfl }
      refine hx.client.imp id fun h => ⟨h.1, ?_⟩
      show out ++ [] = _
      rw [List.append_nil]
      exact h.2
  | clientEof st sv out hr hs =>
    exact ⟨i, j, a, b, { hx with client := Or.inl rfl }⟩
  | serverEof cl st out hr hc =>
    exact ⟨i, j, a, b, { hx with server := Or.inl rfl }⟩

/-- Reads of whole messages or of nothing that can be decoded: whoever finishes has the key of the script. -/
theorem aligned_safe {buf n : Nat} {x : Config C S} (h : Reach KA KB C S buf (aligned KB) (aligned KA) n x) :
    (∀ st k, x.client = some st → C.result st = some k → k = T.ckey) ∧
    (∀ st k, x.server = some st → S.result st = some k → k = T.skey) := by
  have hinv : ∃ i j a b, T.Inv x i j a b := by
    induction h with
    | start => exact ⟨0, 0, 0, 0, T.inv_start⟩
    | step _ hs ih =>
      obtain ⟨i, j, a, b, hx⟩ := ih
      exact T.inv_step (fun _ h => h) (fun _ h => h) hx hs
  obtain ⟨i, j, a, b, hx⟩ := hinv
  constructor
  · intro st k hst hk
    rcases hx.client with h | ⟨h, -⟩
    · rw [h] at hst; cases hst
    · rw [h, Option.some.injEq] at hst
      subst hst
      rcases Nat.lt_or_eq_of_le hx.hi with hlt | rfl
      · rw [T.cwait i hlt] at hk; cases hk
      · rw [T.cdone] at hk; exact (Option.some.inj hk).symm
  · intro st k hst hk
    rcases hx.server with h | ⟨h, -⟩
    · rw [h] at hst; cases hst
    · rw [h, Option.some.injEq] at hst
      subst hst
      rcases Nat.lt_or_eq_of_le hx.hj with hlt | rfl
      · rw [T.swait j hlt] at hk; cases hk
      · rw [T.sdone] at hk; exact (Option.some.inj hk).symm

/-- Nobody has failed and nothing was lost. -/
structure Good (x : Config C S) (i j : Nat) : Prop where
  hi : i ≤ T.sms.length
  hj : j ≤ T.cms.length
  ha' : i ≤ T.ssent j
  hb' : j ≤ T.csent i
  client : x.client = some (T.cst i)
  server : x.server = some (T.sst j)
  toServer : x.toServer = KA.encs (waiting T.cms (T.csent i) j)
  toClient : x.toClient = KB.encs (waiting T.sms (T.ssent j) i)

theorem good_step {buf : Nat} {x y : Config C S} {i j : Nat} (hx : T.Good x i j)
    (h : Step KA KB C S buf (single KB) (single KA) x y) : T.Good y (i + 1) j ∨ T.Good y i (j + 1) := by
  cases h with
  | client st sv out chunk rest hr hne hb hok =>
    obtain ⟨k, m, r, hk, hak, hm, hd, hrest, h1⟩ :=
      read_whole (T.sle j) T.svalid hne (single_whole hok) hx.toClient
    obtain rfl := h1 hok
    obtain rfl : st = T.cst i := Option.some.inj hx.client
    obtain ⟨outs, hrecv, hout⟩ := T.cstep i m hm
    have hreact : react KB KA C (T.cst i) chunk = (some (T.cst (i + 1)), KA.encs outs) := by
      simp only [react, hd, hrecv]
    have hlt : i < T.sms.length := (List.getElem?_eq_some_iff.1 hm).1
    left
    rw [hreact]
    exact { hi := hlt, hj := hx.hj, ha' := hak, hb' := hx.hb'.trans (T.csent_mono i hlt), client := rfl,
            server := hx.server,
            toServer := by
              show out ++ KA.encs outs = _
              rw [waiting_append (T.cle i) hx.hb' hout, KA.encs_append]
              congr 1
              exact hx.toServer,
            toClient := hrest }
  | server cl st out chunk rest hr hne hb hok =>
    obtain ⟨k, m, r, hk, hbk, hm, hd, hrest, h1⟩ :=
      read_whole (T.cle i) T.cvalid hne (single_whole hok) hx.toServer
    obtain rfl := h1 hok
    obtain rfl : st = T.sst j := Option.some.inj hx.server
    obtain ⟨outs, hrecv, hout⟩ := T.sstep j m hm
    have hreact : react KA KB S (T.sst j) chunk = (some (T.sst (j + 1)), KB.encs outs) := by
      simp only [react, hd, hrecv]
    have hlt : j < T.cms.length := (List.getElem?_eq_some_iff.1 hm).1
    right
    rw [hreact]
    exact { hi := hx.hi, hj := hlt, ha' := hx.ha'.trans (T.ssent_mono j hlt), hb' := hbk, client := hx.client,
            server := rfl, toServer := hrest,
            toClient := by
              show out ++ KB.encs outs = _
              rw [waiting_append (T.sle j) hx.ha' hout, KB.encs_append]
              congr 1
              exact hx.toClient }
  | clientEof st sv out hr hs =>
    exfalso
    have hsv := hs _ hx.server
    have hlen := waiting_length (a := i) (T.sle j)
    have h0 : waiting T.sms (T.ssent j) i = [] := by
      have := hx.toClient
      cases hw : waiting T.sms (T.ssent j) i with
      | nil => rfl
      | cons m ms =>
        rw [hw] at this
        have hm := KB.enc_ne m
        simp only [Codec.encs, List.flatMap_cons] at this
        exact absurd (List.append_eq_nil_iff.1 this.symm).1 hm
    rw [h0, List.length_nil] at hlen
    rcases Nat.lt_or_eq_of_le hx.hj with hlt | rfl
    · rw [T.swait j hlt] at hsv; cases hsv
    · obtain rfl : st = T.cst i := Option.some.inj hx.client
      have hi : i ≠ T.sms.length := by
        rintro rfl
        rw [T.cdone] at hr; cases hr
      have := hx.ha'
      have := hx.hi
      have := hx.hb'
      rcases T.progress i hx.hi _ (le_refl _) hx.ha' hx.hb' with h | h | h
      · exact hi h.1
      · omega
      · have := T.cle i; omega
  | serverEof cl st out hr hc =>
    exfalso
    have hcl := hc _ hx.client
    have hlen := waiting_length (a := j) (T.cle i)
    have h0 : waiting T.cms (T.csent i) j = [] := by
      have := hx.toServer
      cases hw : waiting T.cms (T.csent i) j with
      | nil => rfl
      | cons m ms =>
        rw [hw] at this
        have hm := KA.enc_ne m
        simp only [Codec.encs, List.flatMap_cons] at this
        exact absurd (List.append_eq_nil_iff.1 this.symm).1 hm
    rw [h0, List.length_nil] at hlen
    rcases Nat.lt_or_eq_of_le hx.hi with hlt | rfl
    · rw [T.cwait i hlt] at hcl; cases hcl
    · obtain rfl : st = T.sst j := Option.some.inj hx.server
      have hj : j ≠ T.cms.length := by
        rintro rfl
        rw [T.sdone] at hr; cases hr
      have := hx.hj
      rcases T.progress _ (le_refl _) j hx.hj hx.ha' hx.hb' with h | h | h
      · exact hj h.2
      · have := T.sle j; omega
      · omega

theorem good_reach {buf n : Nat} {x : Config C S} (h : Reach KA KB C S buf (single KB) (single KA) n x) :
    ∃ i j, i + j = n ∧ T.Good x i j := by
  induction h with
  | start =>
    exact ⟨0, 0, rfl,
      { hi := Nat.zero_le _, hj := Nat.zero_le _, ha' := Nat.zero_le _, hb' := Nat.zero_le _,
        client := by rw [T.cinit]; rfl, server := by rw [T.sinit]; rfl,
        toServer := by rw [waiting, List.drop_zero, ← T.cfirst]; rfl,
        toClient := by rw [waiting, List.drop_zero, ← T.sfirst]; rfl }⟩
  | step _ hs ih =>
    obtain ⟨i, j, hn, hx⟩ := ih
    rcases T.good_step hx hs with h | h
    · exact ⟨i + 1, j, by omega, h⟩
    · exact ⟨i, j + 1, by omega, h⟩

/-- Reads of single messages: the exchange ends after as many steps as there are messages, and as long as it has not
ended somebody can go on. Whoever cannot go on any more has finished with the key of the script. -/
theorem single_complete {buf n : Nat} (hbufC : ∀ m ∈ T.sms, (KB.enc m).length ≤ buf)
    (hbufS : ∀ m ∈ T.cms, (KA.enc m).length ≤ buf) {x : Config C S}
    (h : Reach KA KB C S buf (single KB) (single KA) n x) :
    n ≤ T.sms.length + T.cms.length ∧
    ((∃ y, Step KA KB C S buf (single KB) (single KA) x y) ∨
      (n = T.sms.length + T.cms.length ∧ ∃ cl sv, x.client = some cl ∧ x.server = some sv ∧
        C.result cl = some T.ckey ∧ S.result sv = some T.skey)) := by
  obtain ⟨i, j, rfl, hx⟩ := T.good_reach h
  refine ⟨Nat.add_le_add hx.hi hx.hj, ?_⟩
  rcases T.progress i hx.hi j hx.hj hx.ha' hx.hb' with ⟨rfl, rfl⟩ | hlt | hlt
  · exact Or.inr ⟨rfl, _, _, hx.client, hx.server, T.cdone, T.sdone⟩
  · left
    obtain ⟨m, hm, hc⟩ := waiting_cons (T.sle j) hlt
    have hmem : m ∈ T.sms := List.mem_of_getElem? hm
    obtain ⟨cl, sv, ts, tc⟩ := x
    have h1 := hx.client
    have h2 := hx.toClient
    simp only at h1 h2
    subst h1
    rw [hc] at h2
    simp only [Codec.encs, List.flatMap_cons] at h2
    subst h2
    exact ⟨_, Step.client (T.cst i) sv ts (KB.enc m) _ (T.cwait i (by have := T.sle j; omega)) (KB.enc_ne m)
      (hbufC m hmem) ⟨m, T.svalid m hmem, rfl⟩⟩
  · left
    obtain ⟨m, hm, hc⟩ := waiting_cons (T.cle i) hlt
    have hmem : m ∈ T.cms := List.mem_of_getElem? hm
    obtain ⟨cl, sv, ts, tc⟩ := x
    have h1 := hx.server
    have h2 := hx.toServer
    simp only at h1 h2
    subst h1
    rw [hc] at h2
    simp only [Codec.encs, List.flatMap_cons] at h2
    subst h2
    exact ⟨_, Step.server cl (T.sst j) tc (KA.enc m) _ (T.swait j (by have := T.cle i; omega)) (KA.enc_ne m)
      (hbufS m hmem) ⟨m, T.cvalid m hmem, rfl⟩⟩

end Script
end
end Verif.Stream
