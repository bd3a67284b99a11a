import Verif.Aucpace.Wire

/-!
# C52 for formats that write the names of the variants

bincode and postcard write the number of a variant, which depends on the feature `strong_aucpace`; formats such as JSON and CBOR
write its name. They differ in how values are written, which the derived code leaves to them: here a value is written as in a
`Format` and the name as a string before it.
-/

namespace Verif.Aucpace.Wire

/-- The names of the variants, aucpace/src/client.rs:986-1045. -/
def ClientTag.name : ClientTag → Bytes
  | .nonce => ascii "Nonce"
  | .username => ascii "Username"
  | .strongUsername => ascii "StrongUsername"
  | .publicKey => ascii "PublicKey"
  | .authenticator => ascii "Authenticator"
  | .registration => ascii "Registration"
  | .strongRegistration => ascii "StrongRegistration"

/-- aucpace/src/server.rs:687-729. -/
def ServerTag.name : ServerTag → Bytes
  | .nonce => ascii "Nonce"
  | .augmentationInfo => ascii "AugmentationInfo"
  | .strongAugmentationInfo => ascii "StrongAugmentationInfo"
  | .publicKey => ascii "PublicKey"
  | .authenticator => ascii "Authenticator"

section
variable {G : Type} [AddCommGroup G] [Module Scalar G] (F : Format) (R : Ristretto G) (strong : Bool)
  (K1 : Nat) (paramsOk : Bytes → Bool)

/-- Serialisation with names. -/
def encClientNamed (m : ClientMessage G) : Bytes := encBytes F (clientTag m).name ++ clientBody F R m

def encServerNamed (m : ServerMessage G) : Bytes := encBytes F (serverTag m).name ++ serverBody F R m

/-- Deserialisation: the derived code looks for the name among the variants of the build. -/
def decClientNamed (b : Bytes) : Option (ClientMessage G × Bytes) := do
  let (n, b) ← decBytes F b
  let t ← (clientVariants strong).find? fun t => t.name == n
  decClientBody F R K1 paramsOk t b

def decServerNamed (b : Bytes) : Option (ServerMessage G × Bytes) := do
  let (n, b) ← decBytes F b
  let t ← (serverVariants strong).find? fun t => t.name == n
  decServerBody F R K1 paramsOk t b

theorem clientNamed_find (t : ClientTag) :
    (clientVariants strong).find? (fun t' => t'.name == t.name) = if t ∈ clientVariants strong then some t else none := by
  cases strong <;> cases t <;> decide

theorem serverNamed_find (t : ServerTag) :
    (serverVariants strong).find? (fun t' => t'.name == t.name) = if t ∈ serverVariants strong then some t else none := by
  cases strong <;> cases t <;> decide

/-- **C52 (formats with names).** With such a format builds with and without `strong_aucpace` interoperate on all common
messages, and a build without it refuses the messages it does not have. -/
theorem C52_named (r : Bytes) :
    (∀ m : ClientMessage G, ClientOk K1 paramsOk m → decClientNamed F R strong K1 paramsOk (encClientNamed F R m ++ r) =
      if clientTag m ∈ clientVariants strong then some (m, r) else none) ∧
    ∀ m : ServerMessage G, ServerOk K1 paramsOk m → decServerNamed F R strong K1 paramsOk (encServerNamed F R m ++ r) =
      if serverTag m ∈ serverVariants strong then some (m, r) else none := by
  constructor
  · intro m h
    have hl : (clientTag m).name.length < 2 ^ 64 := by cases clientTag m <;> decide
    simp only [decClientNamed, encClientNamed, List.append_assoc, decBytes_encBytes F _ _ hl, Option.bind_eq_bind,
      Option.bind_some, clientNamed_find]
    split
    · simp only [Option.bind_some, decClientBody_enc F R K1 paramsOk m r h]
    · rfl
  · intro m h
    have hl : (serverTag m).name.length < 2 ^ 64 := by cases serverTag m <;> decide
    simp only [decServerNamed, encServerNamed, List.append_assoc, decBytes_encBytes F _ _ hl, Option.bind_eq_bind,
      Option.bind_some, serverNamed_find]
    split
    · simp only [Option.bind_some, decServerBody_enc F R K1 paramsOk m r h]
    · rfl

end

/-- A public key, on which builds with different features do not agree in bincode. -/
example : decClientNamed bincode Ristretto.toy false 16 (fun _ => true) (encClientNamed bincode Ristretto.toy (.publicKey 5)) =
      some (.publicKey 5, []) ∧
    decClient bincode Ristretto.toy false 16 (fun _ => true) (encClient bincode Ristretto.toy true (.publicKey 5)) ≠
      some (.publicKey 5, []) := by
  constructor
  · have := (C52_named bincode Ristretto.toy false 16 (fun _ => true) []).1 (.publicKey 5) trivial
    simpa [clientTag, clientVariants] using this
  · intro h
    have := C52_client_negation bincode Ristretto.toy 16 (fun _ => true) true (.publicKey 5) (.publicKey 5) [] []
      (Or.inl rfl) (by simpa using h)
    exact this rfl

end Verif.Aucpace.Wire
