import Verif.Basic.Res
import Verif.Basic.Bytes
import Verif.Basic.Digest
import Verif.Basic.PowMod
import Verif.Basic.Sha
import Verif.Srp.Model
import Verif.Srp.Spec
import Verif.Srp.Lemmas
import Verif.Srp.Props
import Verif.Srp.Groups
import Verif.Ecpp.Step
import Verif.Ecpp.Cert1024
import Verif.Ecpp.Cert1536
import Verif.Ecpp.Cert2048
import Verif.Ecpp.Cert3072
import Verif.Ecpp.Cert4096
import Verif.Ecpp.Cert6144
import Verif.Ecpp.Cert8192
import Verif.Ecpp.Cert8192a
import Verif.Ecpp.Cert8192b
import Verif.Ecpp.Cert8192c
import Verif.Srp.GroupsPrime
import Verif.Srp.Vectors
import Verif.Ed25519.Primes
import Verif.Ed25519.Edwards
import Verif.Ed25519.Curve
import Verif.Ed25519.Compute
import Verif.Ed25519.Order
import Verif.Spake2.Model
import Verif.Spake2.Spec
import Verif.Spake2.Lemmas
import Verif.Spake2.Props
import Verif.Spake2.Torsion
import Verif.Spake2.Generic
import Verif.Spake2.Vectors
import Verif.Basic.Rng
import Verif.Basic.Base64
import Verif.Basic.Utf8
import Verif.Aucpace.Group
import Verif.Aucpace.Model
import Verif.Aucpace.Spec
import Verif.Aucpace.Lemmas
import Verif.Aucpace.Run
import Verif.Aucpace.RunLemmas
import Verif.Aucpace.World
import Verif.Aucpace.PropsAgree
import Verif.Aucpace.PropsAuth
import Verif.Aucpace.PropsPairs
import Verif.Aucpace.PropsMisc
import Verif.Aucpace.Sessions
import Verif.Aucpace.Wire
import Verif.Aucpace.Varint
import Verif.Basic.Uniform
import Verif.Basic.Tape
import Verif.Basic.Stream
import Verif.Srp.SafePrime
import Verif.Srp.Consistent
import Verif.Spake2.Uniform
import Verif.Aucpace.Uniform
import Verif.Aucpace.Fresh
import Verif.Aucpace.Examples
import Verif.Aucpace.ExamplesLemmas
import Verif.Aucpace.PropsExamples
import Verif.Aucpace.Threads
import Verif.Ristretto.Even
import Verif.Ristretto.Group
import Verif.Ristretto.Encode
import Verif.Ristretto.Elligator
import Verif.Ristretto.Compute
import Verif.Ristretto.Vectors
import Verif.Ristretto.Props
import Verif.Ristretto.Run
import Verif.Ristretto.Count
import Verif.Ristretto.PropsCount
import Verif.Errors
import Verif.OneGuess
import Verif.Basic.Game
import Verif.Aucpace.Guessing
import Verif.Spake2.Guessing
import Verif.Contribute
import Verif.Aucpace.Passive
import Verif.Aucpace.Compromise
import Verif.Basic.Prepare
import Verif.Aucpace.Precompute
import Verif.Aucpace.Clients
import Verif.Replay
import Verif.Forward
import Verif.Srp.Stolen
import Verif.Aucpace.Stolen
import Verif.Release
import Verif.Timing
import Verif.Aucpace.WireNames
import Verif.Aucpace.Scrypt
import Verif.Aucpace.PropsScrypt
import Verif.Basic.Oracle
import Verif.Aucpace.Oracle
import Verif.Srp.Oracle
import Verif.Basic.Touch
import Verif.Srp.Guessing
import Verif.Failure
import Verif.Aucpace.Nobody
import Verif.Aucpace.Work
import Verif.First
import Verif.Spake2.Debug
import Verif.Basic.Attack
import Verif.Aucpace.Unbounded
import Verif.Spake2.Unbounded
import Verif.Spake2.Oracle
import Verif.Aucpace.Blinding
import Verif.Aucpace.Tests
import Verif.Spake2.Tests
import Verif.Srp.Tests
import Verif.Basic.Tests
import Verif.Aucpace.Secret
import Verif.Spake2.Repeated
import Verif.Srp.Repeated
import Verif.Aucpace.Repeated
import Verif.Basic.Scrypt
import Verif.Basic.ScryptSpec
import Verif.Aucpace.Default
import Verif.Aucpace.PropsDefault
import Verif.Basic.Pi
import Verif.Srp.GroupsPi
import Verif.Spake2.Constants
import Verif.Spake2.Confirm
import Verif.Spake2.Guess
import Verif.Aucpace.Tamper
import Verif.Aucpace.Keys
import Verif.Basic.Auth
import Verif.Aucpace.Impostor
import Verif.Spake2.Keys
import Verif.Aucpace.Guess
import Verif.Basic.Guess
import Verif.Aucpace.Confirm
import Verif.Basic.Confirm
