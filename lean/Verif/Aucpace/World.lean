import Verif.Aucpace.Run
import Verif.Basic.Sha

/-!
# A concrete world in which hypotheses of the theorems are met

The scalars as group, SHA-512, a password hasher made from SHA-512, and generators that replay given
bytes. Only used in `example`s.
-/

namespace Verif.Aucpace
open Run

namespace World

/-- A password hasher for examples. -/
def hasher : PwHasher Unit where
  hash pw _ salt := .ok (some (sha512.hash (pw ++ salt)))
  toParamsString _ := .ok (ascii "ln=1")

def user : Bytes := ascii "alice"
def pass : Bytes := ascii "secret"
/-- Random bytes: `n` repeated. -/
def bytes (n : UInt8) (len : Nat) : Bytes := List.replicate len n

def reg : Res Error (ClientMessage Scalar × Bytes) :=
  Run.register Ristretto.toy hasher Rng.replay .alloc (bytes 7 16) user pass ()

def regStrong : Res Error (ClientMessage Scalar × Bytes) :=
  Run.registerStrong Ristretto.toy sha512 hasher Rng.replay .alloc (bytes 7 64) user pass ()

/-- A database holding the registration. -/
def db : Database Scalar where
  lookupVerifier u :=
    match reg with
    | .ok (.registration u' salt ps W, _) => if u = u' then some (W, salt, ps) else none
    | _ => none

def dbStrong : StrongDatabase Scalar where
  lookupVerifierStrong u :=
    match regStrong with
    | .ok (.strongRegistration u' q ps W, _) => if u = u' then some (W, q, ps) else none
    | _ => none

def kdb : PartialAugDatabase Scalar where
  lookupLongTermKeypair u := if u = user then some (5, 5 • Ristretto.toy.base) else none

def server : Server.State Bytes := Server.new Rng.replay (bytes 1 200)

def login (k : Option (PartialAugDatabase Scalar)) (start : Start) (pw : Bytes) :
    Res Error (Bytes × Bytes) :=
  Run.login Ristretto.toy sha512 hasher Rng.replay Rng.replay
    (Run.explicit Ristretto.toy sha512 Rng.replay Rng.replay) (fun _ => ()) (.fixed 12) db k start
    user pw (ascii "ci") (bytes 2 100) server (bytes 3 200) (bytes 4 100)

def loginStrong (k : Option (PartialAugDatabase Scalar)) (start : Start) (pw : Bytes) :
    Res Error (Bytes × Bytes) :=
  Run.loginStrong Ristretto.toy sha512 hasher Rng.replay Rng.replay
    (Run.explicit Ristretto.toy sha512 Rng.replay Rng.replay) (fun _ => ()) .alloc dbStrong k start
    user pw (ascii "ci") 11 (bytes 2 100) server (bytes 3 200) (bytes 4 100)

end World

end Verif.Aucpace
