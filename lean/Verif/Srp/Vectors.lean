import Verif.Basic.Sha
import Verif.Srp.Model
import Verif.Srp.Spec
import Verif.Srp.Groups

/-!
# The model reproduces the test vectors in `/repo/srp`

These are tests of the transcription, evaluated by the kernel with concrete SHA-1 / SHA-256 and the
built-in groups; they are not among the claims.
-/

namespace Verif.Srp.Vectors
open Groups

private def salt : Bytes := beFixed 16 0xBEB25379D1A8581EB5A727673A2441EE
private def a : Nat := 0x60975527035CF2AD1989806F0407210BC81EDC04E2762A56AFD529DDDA2D4393
private def b : Nat := 0xE487CB59D31AC550471E81F00F6928E01DDA08E974A004F49E61F5D105284D20
private def k : Nat := 0x7556AA045AEF2CDD07ABAF0F665C3E818913186F
private def x : Nat := 0x94B7555AABE9127CC58CCF4993DB6CF84D16C124
private def v : Nat := 0x7E273DE8696FFC4F4E337D05B4B375BEB0DDE1569E8FA00A9886D8129BADA1F1822223CA1A605B530E379BA4729FDC59F105B4787E5186F5C671085A1447B52A48CF1970B4FB6F8400BBF4CEBFBB168152E08AB5EA53D15C1AFF87B2B9DA6E04E058AD51CC72BFC9033B564E26480D78E955A5E29E7AB245DB2BE315E2099AFB
private def A : Nat := 0x61D5E490F6F1B79547B0704C436F523DD0E560F0C64115BB72557EC44352E8903211C04692272D8B2D1A5358A2CF1B6E0BFCF99F921530EC8E39356179EAE45E42BA92AEACED825171E1E8B9AF6D9C03E1327F44BE087EF06530E69F66615261EEF54073CA11CF5858F0EDFDFE15EFEAB349EF5D76988A3672FAC47B0769447B
private def B : Nat := 0xBD0C61512C692C0CB6D041FA01BB152D4916A1E77AF46AE105393011BAF38964DC46A0670DD125B95A981652236F99D9B681CBF87837EC996C6DA04453728610D0C6DDB58B318885D7D82C7F8DEB75CE7BD4FBAA37089E6F9C6059F388838E7A00030B331EB76840910440B1B27AAEAEEB4012B7D7665238A8E3FB004B117B58
private def u : Nat := 0xCE38B9593487DA98554ED47D70A7AE5F462EF019
private def S : Nat := 0xB0DC82BABCF30674AE450C0287745E7990A3381F63B387AAF271A10D233861E359B48220F7C4693C9AE12B0A6F67809F0876E2D013800D6C41BB59B6D5979B5C00A172B4A2A5903A0BDCAF8A709585EB2AFAFA8F3499B200210DCC1F10EB33943CD67FC88A2F39A4BE5BEC4EC0A3212DC346D7E474B29EDE8A469FFECA686E5A

/-- srp/tests/rfc5054.rs:17-23 and srp/src/types.rs:41-44 (`k_sha1_1024.bin`). -/
theorem vec_k : (computeK sha1 G_1024 : Res Unit Nat) = .ok k ∧ toBytesBE k = [117, 86, 170, 4, 90, 239, 44, 221, 7, 171, 175, 15, 102, 92, 62, 129, 137, 19, 24, 111] := by
  decide +kernel

/-- srp/tests/rfc5054.rs:25-32. -/
theorem vec_x : Client.computeX sha1 (Client.computeIdentityHash sha1 (ascii "alice")
    (ascii "password123")) salt = x := by decide +kernel

/-- srp/tests/rfc5054.rs:34-49. -/
theorem vec_v : (Client.computeV G_1024 x : Res Unit Nat) = .ok v := by decide +kernel

/-- srp/tests/rfc5054.rs:63-77. -/
theorem vec_A : (Client.computeAPub G_1024 a : Res Unit Nat) = .ok A := by decide +kernel

/-- srp/tests/rfc5054.rs:79-94. -/
theorem vec_B : (Server.computeBPub G_1024 b k v : Res Unit Nat) = .ok B := by decide +kernel

/-- srp/tests/rfc5054.rs:96-102. -/
theorem vec_u : computeU sha1 (toBytesBE A) (toBytesBE B) = u := by decide +kernel

/-- srp/tests/rfc5054.rs:104-118. -/
theorem vec_client_premaster :
    (Client.computePremasterSecret G_1024 B k x a u : Res Unit Nat) = .ok S := by decide +kernel

/-- srp/tests/rfc5054.rs:120-134. -/
theorem vec_server_premaster :
    (Server.computePremasterSecret G_1024 A v u b : Res Unit Nat) = .ok S := by decide +kernel

/-- Documentation test srp/src/client.rs:50-58 (SHA-256, 2048-bit group). -/
theorem vec_client_doc :
    (do
      let c ← Client.processReply sha256 G_2048 [] [] [] [] (ascii "1")
      c.verifyServer [173, 202, 13, 26, 207, 73, 0, 46, 121, 238, 48, 170, 96, 146, 60, 49, 88, 76, 12, 184, 152, 76, 207, 220, 140, 205, 190, 189, 117, 6, 131, 63]) = .ok () := by
  decide +kernel

/-- Documentation test srp/src/server.rs:41-50 (SHA-256, 2048-bit group). -/
theorem vec_server_doc :
    (do
      let s ← Server.processReply sha256 G_2048 [] [] (ascii "1")
      s.verifyClient [26, 80, 8, 243, 111, 162, 238, 171, 208, 237, 207, 46, 46, 137, 44, 213, 105, 208, 84, 224, 244, 216, 103, 145, 14, 103, 182, 56, 242, 4, 179, 57]) = .ok () := by
  decide +kernel

/-- srp/tests/bad_public.rs: a zero public value is refused by both sides. -/
theorem vec_bad_public :
    Server.processReply sha1 G_1024 (ascii "") (ascii "") [0]
      = .err (.illegalParameter "a_pub") ∧
    Client.processReply sha1 G_1024 (ascii "") (ascii "") (ascii "") (ascii "") [0]
      = .err (.illegalParameter "b_pub") := by
  decide +kernel

/-- An ephemeral for which `A` has a leading zero byte in the 1024-bit group. -/
private def aShort : Nat := 0xa2b249ab47122faafead3bed00fdfeae8e903fd93433b60c61e406a660a7a7b7

/-- **C08 is false with real parameters:** SHA-1, the 1024-bit group, an honest client ephemeral
whose public value happens to have a leading zero byte, and the server value of RFC 5054 appendix B:
the scrambling parameter is not the one RFC 5054 prescribes. -/
theorem C08_rfc_divergence_sha1_1024 :
    computeU sha1 (toBytesBE (powMod 2 aShort G_1024.n)) (toBytesBE B)
      ≠ Spec.uRfc sha1 G_1024.n (powMod 2 aShort G_1024.n) B := by
  decide +kernel

end Verif.Srp.Vectors
