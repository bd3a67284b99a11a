import Verif.Spake2.Props

/-!
# C30, continued: what the debug output of a session tells

The alternate form `{:#?}` of `Debug for Side` and `Debug for Spake2` (spake2/src/lib.rs:532-560), and what the two forms tell about the role
and the identities.
-/

namespace Verif.Spake2.Debug

/-- `core::fmt::builders::PadAdapter`: four spaces before every line; `nl` tells whether a line begins. What is written in pieces is padded as
if written at once. -/
def pad : Bool → Bytes → Bytes
  | _, [] => []
  | nl, b :: r => (if nl then ascii "    " else []) ++ b :: pad (b == 10) r

/-- `fmt.debug_struct(name).field(k, v)....finish()` with `{:#?}` and at least one field (`core::fmt::builders::DebugStruct`). -/
def prettyStruct (name : Bytes) (fields : List (Bytes × Bytes)) : Bytes :=
  name ++ ascii " {\n" ++ fields.flatMap (fun kv => pad true (kv.1 ++ ascii ": " ++ kv.2 ++ ascii ",\n")) ++ ascii "}"

/-- spake2/src/lib.rs:532-551 `Debug for Side` with `{:#?}`. `Debug for MaybeUtf8` (lib.rs:564-578) uses `write!` and ignores the flag. -/
def sidePretty : Side → Bytes
  | .A idA idB => prettyStruct (ascii "Side::A") [(ascii "idA", maybeUtf8 idA), (ascii "idB", maybeUtf8 idB)]
  | .B idA idB => prettyStruct (ascii "Side::B") [(ascii "idA", maybeUtf8 idA), (ascii "idB", maybeUtf8 idB)]
  | .symmetric idS => prettyStruct (ascii "Side::Symmetric") [(ascii "idS", maybeUtf8 idS)]

/-- spake2/src/lib.rs:553-560 `Debug for Spake2` with `{:#?}`. -/
def pretty {S E : Type} (G : GroupOps S E) (s : State S) : Bytes :=
  prettyStruct (ascii "SPAKE2") [(ascii "group", ascii "\"" ++ G.name ++ ascii "\""), (ascii "side", sidePretty s.side)]

theorem pad_inj : ∀ (nl : Bool) {a b : Bytes}, pad nl a = pad nl b → a = b
  | _, [], [], _ => rfl
  | nl, [], y :: b, h => by cases nl <;> simp [pad] at h
  | nl, x :: a, [], h => by cases nl <;> simp [pad] at h
  | nl, x :: a, y :: b, h => by
    simp only [pad] at h
    have h' := List.append_cancel_left h
    obtain ⟨rfl, h'⟩ := List.cons.inj h'
    rw [pad_inj _ h']

variable {S E : Type} (G : GroupOps S E)

theorem debug_side {s s' : State S} (h : s.debug G = s'.debug G) : s.side.debug = s'.side.debug := by
  simp only [State.debug, debugStruct, debugFields, List.append_assoc, List.append_cancel_left_eq, List.append_nil] at h
  have := List.append_cancel_right (by simpa only [List.append_assoc] using h :
    s.side.debug ++ ascii " }" = s'.side.debug ++ ascii " }")
  exact this

theorem pretty_side {s s' : State S} (h : pretty G s = pretty G s') : sidePretty s.side = sidePretty s'.side := by
  simp only [pretty, prettyStruct, List.flatMap_cons, List.flatMap_nil, List.append_assoc, List.append_cancel_left_eq, List.append_nil] at h
  have h1 := pad_inj _ (List.append_cancel_right h)
  simp only [List.append_cancel_left_eq] at h1
  exact List.append_cancel_right h1

/-- **C30 (secrecy).** The alternate form is a function of the side and identities only, too. -/
theorem C30_pretty_secrecy (s s' : State S) (h : s.side = s'.side) : pretty G s = pretty G s' := by
  unfold pretty
  rw [h]

/-- **C30 (role).** Either form tells the role: sessions that are printed alike have the same one. -/
theorem C30_role {s s' : State S} (h : s.debug G = s'.debug G ∨ pretty G s = pretty G s') : sideByte s.side = sideByte s'.side := by
  have letter : ∀ t : Side, t.debug[6]? = some (sideByte t) ∧ (sidePretty t)[6]? = some (sideByte t) := by
    intro t
    cases t <;> exact ⟨rfl, rfl⟩
  rcases h with h | h
  · have h := congrArg (·[6]?) (debug_side G h)
    simpa only [(letter _).1, Option.some.injEq] using h
  · have h := congrArg (·[6]?) (pretty_side G h)
    simpa only [(letter _).2, Option.some.injEq] using h

/-- **C30 (identity of a symmetric session).** Either form tells it if it is UTF-8. -/
theorem C30_symmetric_partial {s s' : State S} {a b : Bytes} (hs : s.side = .symmetric a) (hs' : s'.side = .symmetric b) (ha : utf8 a = true)
    (h : s.debug G = s'.debug G ∨ pretty G s = pretty G s') : a = b := by
  refine C30_partial a b ha ?_
  rcases h with h | h
  · have h := debug_side G h
    rw [hs, hs'] at h
    simp only [Side.debug, debugStruct, debugFields, List.append_nil, List.append_assoc, List.append_cancel_left_eq] at h
    exact List.append_cancel_right h
  · have h := pretty_side G h
    rw [hs, hs'] at h
    simp only [sidePretty, prettyStruct, List.flatMap_cons, List.flatMap_nil, List.append_assoc, List.append_cancel_left_eq,
      List.append_nil] at h
    have h1 := pad_inj _ (List.append_cancel_right h)
    simp only [List.append_cancel_left_eq] at h1
    exact List.append_cancel_right h1

theorem pad_append : ∀ (nl : Bool) (a b : Bytes), pad nl (a ++ 10 :: b) = pad nl (a ++ [10]) ++ pad true b
  | _, [], b => by simp [pad]
  | nl, x :: a, b => by simp only [List.cons_append, pad, pad_append _ a b, List.append_assoc, List.cons_append]

theorem cut : ∀ {a a' r r' : Bytes}, 41 ∉ a → 41 ∉ a' → a ++ 41 :: r = a' ++ 41 :: r' → a = a' ∧ r = r'
  | [], [], _, _, _, _, h => ⟨rfl, (List.cons.inj h).2⟩
  | [], y :: _, _, _, _, h', h => absurd (List.mem_cons.2 (Or.inl (List.cons.inj h).1)) h'
  | x :: _, [], _, _, h', _, h => absurd (List.mem_cons.2 (Or.inl (List.cons.inj h).1.symm)) h'
  | x :: a, y :: a', _, _, h1, h2, h => by
    obtain ⟨rfl, ht⟩ := List.cons.inj h
    obtain ⟨rfl, hr⟩ := cut (fun m => h1 (List.mem_cons_of_mem _ m)) (fun m => h2 (List.mem_cons_of_mem _ m)) ht
    exact ⟨rfl, hr⟩

theorem fields_inj {a b a' b' e e' : Bytes} (ha : utf8 a = true) (hb : utf8 b = true) (ha' : utf8 a' = true) (hb' : utf8 b' = true)
    (hp : 41 ∉ a) (hp' : 41 ∉ a')
    (h : maybeUtf8 a ++ (e ++ (maybeUtf8 b ++ e')) = maybeUtf8 a' ++ (e ++ (maybeUtf8 b' ++ e'))) : a = a' ∧ b = b' := by
  simp only [maybeUtf8, ha, hb, ha', hb', if_true, List.append_assoc, List.append_cancel_left_eq] at h
  have e0 : ascii ")" = [41] := rfl
  simp only [e0, List.singleton_append] at h
  obtain ⟨rfl, ht⟩ := cut hp hp' h
  refine ⟨rfl, ?_⟩
  exact List.append_cancel_right (List.append_cancel_left (List.append_cancel_left ht))

/-- **C30 (identities of a session with roles).** Either form tells both if they are UTF-8 and the first has no closing parenthesis. -/
theorem C30_roles_partial {s s' : State S} {a b a' b' : Bytes}
    (hs : s.side = .A a b ∧ s'.side = .A a' b' ∨ s.side = .B a b ∧ s'.side = .B a' b')
    (ha : utf8 a = true) (hb : utf8 b = true) (ha' : utf8 a' = true) (hb' : utf8 b' = true) (hp : 41 ∉ a) (hp' : 41 ∉ a')
    (h : s.debug G = s'.debug G ∨ pretty G s = pretty G s') : a = a' ∧ b = b' := by
  rcases h with h | h
  · have h := debug_side G h
    refine fields_inj (e := ascii ", " ++ ascii "idB" ++ ascii ": ") (e' := ascii " }") ha hb ha' hb' hp hp' ?_
    rcases hs with ⟨e, e'⟩ | ⟨e, e'⟩ <;>
    · rw [e, e'] at h
      simpa only [Side.debug, debugStruct, debugFields, List.append_nil, List.append_assoc, List.append_cancel_left_eq] using h
  · have h := pretty_side G h
    refine fields_inj (e := ascii ",\n" ++ ascii "idB" ++ ascii ": ") (e' := ascii ",\n") ha hb ha' hb' hp hp' ?_
    have join : ∀ u v : Bytes, pad true (u ++ ascii ",\n") ++ pad true v = pad true (u ++ ascii ",\n" ++ v) := by
      intro u v
      have e : ascii ",\n" = [44] ++ [10] := rfl
      rw [e, ← List.append_assoc, ← pad_append, List.append_assoc _ [10] v]
      rfl
    rcases hs with ⟨e, e'⟩ | ⟨e, e'⟩ <;>
    · rw [e, e'] at h
      simp only [sidePretty, prettyStruct, List.flatMap_cons, List.flatMap_nil, List.append_nil, join] at h
      have h := pad_inj _ (List.append_cancel_left (List.append_cancel_right h))
      simpa only [List.append_assoc, List.append_cancel_left_eq] using h

/-- **C30 (text).** The text for UTF-8 identities: group, role and identities under their names. -/
theorem C30_text {s : State S} {a b : Bytes} (ha : utf8 a = true) (hb : utf8 b = true) :
    (s.side = .A a b → s.debug G = ascii "SPAKE2 { group: \"" ++ (G.name ++ (ascii "\", side: Side::A { idA: (s=" ++
      (a ++ (ascii "), idB: (s=" ++ (b ++ ascii ") } }")))))) ∧
    (s.side = .B a b → s.debug G = ascii "SPAKE2 { group: \"" ++ (G.name ++ (ascii "\", side: Side::B { idA: (s=" ++
      (a ++ (ascii "), idB: (s=" ++ (b ++ ascii ") } }")))))) ∧
    (s.side = .symmetric a → s.debug G = ascii "SPAKE2 { group: \"" ++ (G.name ++ (ascii "\", side: Side::Symmetric { idS: (s=" ++
      (a ++ ascii ") } }")))) := by
  refine ⟨fun h => ?_, fun h => ?_, fun h => ?_⟩ <;>
  · simp only [State.debug, h, Side.debug, debugStruct, debugFields, maybeUtf8, ha, hb, if_true, List.append_assoc, List.append_nil]
    rfl

/-- **C30 is false in the alternate form as well:** pairs of ASCII identities and single identities that are not UTF-8 are printed alike. -/
theorem C30_pretty_negation :
    (∃ a b a' b' : Bytes, (a, b) ≠ (a', b') ∧ utf8 a ∧ utf8 b ∧ utf8 a' ∧ utf8 b' ∧ sidePretty (.A a b) = sidePretty (.A a' b')) ∧
      ∃ a b : Bytes, a ≠ b ∧ sidePretty (.symmetric a) = sidePretty (.symmetric b) :=
  ⟨⟨ascii "x),\nidB: (s=y", ascii "z", ascii "x", ascii "y),\nidB: (s=z", by decide +kernel, by decide +kernel,
    by decide +kernel, by decide +kernel, by decide +kernel, by decide +kernel⟩,
    [0x80, 0x01, 0x23], [0x80, 0x12, 0x03], by decide +kernel, by decide +kernel⟩

/-- The form of the output, for a session with two identities. -/
example : pretty ed25519 ⟨.A (ascii "alice") (ascii "b\nob"), 1, [], [], 1⟩ = ascii
    "SPAKE2 {\n    group: \"Ed25519\",\n    side: Side::A {\n        idA: (s=alice),\n        idB: (s=b\n        ob),\n    },\n}" := by
  decide +kernel

/-- The hypotheses of `C30_roles_partial` are met. -/
example : utf8 (ascii "alice") = true ∧ utf8 (ascii "b)ob") = true ∧ 41 ∉ ascii "alice" := by decide +kernel

/-- The hypotheses are met by two sessions with different secrets. -/
example : ∃ s s' : State Scalar, s.side = .symmetric (ascii "s") ∧ s'.side = s.side ∧ s.xyScalar ≠ s'.xyScalar ∧ utf8 (ascii "s") = true ∧
    s.debug ed25519 = s'.debug ed25519 ∧ pretty ed25519 s = pretty ed25519 s' :=
  ⟨⟨.symmetric (ascii "s"), 1, [], [], 1⟩, ⟨.symmetric (ascii "s"), 2, [], [], 1⟩, rfl, rfl, by decide +kernel, by decide +kernel, rfl, rfl⟩

end Verif.Spake2.Debug
