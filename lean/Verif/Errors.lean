import Verif.Srp.Props
import Verif.Spake2.Props
import Verif.Aucpace.Model

/-!
# C67: the text of every error

Properties of the `Display` implementations of the three error types. `Display` of `password_hash::Error` is
external, it is the parameter `ph`.
-/

namespace Verif

/-- `Display for Error`, aucpace/src/errors.rs:29-53. -/
def Aucpace.Error.display (ph : Aucpace.PhError → String) : Aucpace.Error → String
  | .illegalPointError => "illegal point encountered"
  | .passwordHashing e => "error while hashing password: " ++ ph e
  | .hashEmpty => "password hash empty"
  | .hashSizeInvalid => "password hash invalid, should be 32 or 64 bytes"
  | .mutualAuthFail => "explicit mutual authentication failed, authenticators didn't match"
  | .usernameOrPasswordTooLong => "username or password too long"
  | .insecureSsid => "provided SSID is insecure - SSIDs must be at least 16 bytes long"
  | .userNotRegistered => "user must be registered before a long-term keypair can be stored"

namespace Errors

/-- Strings with a common prefix and suffix are equal only if they are equal in between. -/
private theorem between {p s a b : String} (h : p ++ a ++ s = p ++ b ++ s) : a = b := by
  have := congrArg String.toList h
  simp only [String.toList_append, List.append_assoc] at this
  exact String.toList_inj.1 (List.append_cancel_right (List.append_cancel_left this))

private theorem append_cancel {p a b : String} (h : p ++ a = p ++ b) : a = b := by
  have := congrArg String.toList h
  simp only [String.toList_append] at this
  exact String.toList_inj.1 (List.append_cancel_left this)

private theorem head_ne {p q a b : String} {x y : Char} (hp : p.toList.head? = some x)
    (hq : q.toList.head? = some y) (hxy : x ≠ y) : p ++ a ≠ q ++ b := by
  intro h
  have := congrArg (fun s => s.toList.head?) h
  simp only [String.toList_append, List.head?_append, hp, hq, Option.some_or, Option.some.injEq] at this
  exact hxy this

private theorem illegal_text (a : String) :
    (Srp.SrpAuthError.illegalParameter a).display = "illegal_parameter: bad '" ++ a ++ "' value" := by
  unfold Srp.SrpAuthError.display
  with_reducible rfl

private theorem mac_text (a : String) :
    (Srp.SrpAuthError.badRecordMac a).display = "bad_record_mac: incorrect '" ++ a ++ "'  proof" := by
  unfold Srp.SrpAuthError.display
  with_reducible rfl

/-- **C67 (SRP).** The text names the kind of failure and the parameter, and determines both. -/
theorem C67_srp (e f : Srp.SrpAuthError) (x : String) :
    (e.display = f.display ↔ e = f) ∧
    (Srp.SrpAuthError.illegalParameter x).display.toList =
      "illegal_parameter: bad '".toList ++ x.toList ++ "' value".toList ∧
    (Srp.SrpAuthError.badRecordMac x).display.toList =
      "bad_record_mac: incorrect '".toList ++ x.toList ++ "'  proof".toList := by
  have hne : ∀ a b, (Srp.SrpAuthError.illegalParameter a).display ≠ (Srp.SrpAuthError.badRecordMac b).display := by
    intro a b
    rw [illegal_text, mac_text, String.append_assoc, String.append_assoc]
    with_reducible exact head_ne (x := 'i') (y := 'b') (by decide +kernel) (by decide +kernel) (by decide)
  refine ⟨⟨fun h => ?_, fun h => h ▸ rfl⟩, ?_, ?_⟩
  · cases e with
    | illegalParameter a =>
      cases f with
      | illegalParameter b =>
        rw [illegal_text, illegal_text] at h
        with_reducible rw [between h]
      | badRecordMac b => exact absurd h (hne a b)
    | badRecordMac a =>
      cases f with
      | illegalParameter b => exact absurd h.symm (hne b a)
      | badRecordMac b =>
        rw [mac_text, mac_text] at h
        with_reducible rw [between h]
  · rw [illegal_text, String.toList_append, String.toList_append]
  · rw [mac_text, String.toList_append, String.toList_append]

/-- **C67 (SRP calls).** The complete list of texts a caller can see, and when. -/
theorem C67_srp_calls (D : Digest) (p : Srp.SrpGroup) (hs : Srp.Spec.Sane p.n p.g) (t : String) :
    (∀ b v A, (∃ e, Srp.Server.processReply D p b v A = .err e ∧ e.display = t) ↔
      p.n ∣ beToNat A ∧ t = "illegal_parameter: bad 'a_pub' value") ∧
    (∀ a I P s B, (∃ e, Srp.Client.processReply D p a I P s B = .err e ∧ e.display = t) ↔
      p.n ∣ beToNat B ∧ t = "illegal_parameter: bad 'b_pub' value") ∧
    (∀ (v : Srp.SrpServerVerifier) (m : Bytes), (∃ e, v.verifyClient m = .err e ∧ e.display = t) ↔
      m ≠ v.m1 ∧ t = "bad_record_mac: incorrect 'client'  proof") ∧
    (∀ (v : Srp.SrpClientVerifier) (m : Bytes), (∃ e, v.verifyServer m = .err e ∧ e.display = t) ↔
      m ≠ v.m2 ∧ t = "bad_record_mac: incorrect 'server'  proof") := by
  have ha : (Srp.SrpAuthError.illegalParameter "a_pub").display = "illegal_parameter: bad 'a_pub' value" := by
    decide +kernel
  have hb : (Srp.SrpAuthError.illegalParameter "b_pub").display = "illegal_parameter: bad 'b_pub' value" := by
    decide +kernel
  have hc : (Srp.SrpAuthError.badRecordMac "client").display =
      "bad_record_mac: incorrect 'client'  proof" := by decide +kernel
  have hd : (Srp.SrpAuthError.badRecordMac "server").display =
      "bad_record_mac: incorrect 'server'  proof" := by decide +kernel
  refine ⟨fun b v A => ?_, fun a I P s B => ?_, fun v m => ?_, fun v m => ?_⟩
  · constructor
    · rintro ⟨e, he, rfl⟩
      obtain ⟨h, rfl⟩ := (Srp.C02_server_rejects_exactly D p hs b v A e).1 he
      exact ⟨h, ha⟩
    · rintro ⟨h, rfl⟩
      exact ⟨_, (Srp.C02_server_rejects_exactly D p hs b v A _).2 ⟨h, rfl⟩, ha⟩
  · constructor
    · rintro ⟨e, he, rfl⟩
      obtain ⟨h, rfl⟩ := (Srp.C02_client_rejects_exactly D p hs a I P s B e).1 he
      exact ⟨h, hb⟩
    · rintro ⟨h, rfl⟩
      exact ⟨_, (Srp.C02_client_rejects_exactly D p hs a I P s B _).2 ⟨h, rfl⟩, hb⟩
  · obtain ⟨h1, h2, -⟩ := Srp.C03_verifyClient_exact v m
    constructor
    · rintro ⟨e, he, rfl⟩
      have hm : m ≠ v.m1 := fun h => by rw [h1.2 h] at he; cases he
      rw [h2.2 hm] at he
      cases he
      exact ⟨hm, hc⟩
    · rintro ⟨h, rfl⟩
      exact ⟨_, h2.2 h, hc⟩
  · obtain ⟨h1, h2, -⟩ := Srp.C03_verifyServer_exact v m
    constructor
    · rintro ⟨e, he, rfl⟩
      have hm : m ≠ v.m2 := fun h => by rw [h1.2 h] at he; cases he
      rw [h2.2 hm] at he
      cases he
      exact ⟨hm, hd⟩
    · rintro ⟨h, rfl⟩
      exact ⟨_, h2.2 h, hd⟩

/-- **C67 (SPAKE2).** The text a caller of `finish` sees for every inbound message; there is no other. -/
theorem C67_spake2 {side : Spake2.Side} {pw : Bytes} {x : Spake2.Scalar} {s : Spake2.State Spake2.Scalar}
    {own : Bytes} (h : Spake2.startInternal Spake2.ed25519 side pw x = .ok (s, own)) (m t : Bytes) :
    (∃ e, Spake2.finish Spake2.ed25519 s m = .err e ∧ e.display = t) ↔
      m.length ≠ 33 ∧ t = ascii "invalid length" ∨
      m.length = 33 ∧ m[0]? ≠ some (Spake2.Spec.accepts side) ∧ t = ascii "bad side" ∨
      m.length = 33 ∧ m[0]? = some (Spake2.Spec.accepts side) ∧ ¬ Spake2.Spec.Decodable (m.drop 1) ∧
        t = ascii "corrupt message" := by
  obtain ⟨h1, h2, h3, -⟩ := Spake2.C18_classification h m
  constructor
  · rintro ⟨e, he, rfl⟩
    cases e with
    | wrongLength => exact .inl ⟨h1.1 he, rfl⟩
    | badSide => exact .inr (.inl ⟨(h2.1 he).1, (h2.1 he).2, rfl⟩)
    | corruptMessage => exact .inr (.inr ⟨(h3.1 he).1, (h3.1 he).2.1, (h3.1 he).2.2, rfl⟩)
  · rintro (⟨a, rfl⟩ | ⟨a, b, rfl⟩ | ⟨a, b, c, rfl⟩)
    · exact ⟨_, h1.2 a, rfl⟩
    · exact ⟨_, h2.2 ⟨a, b⟩, rfl⟩
    · exact ⟨_, h3.2 ⟨a, b, c⟩, rfl⟩

private theorem ph_text (ph : Aucpace.PhError → String) (a : Aucpace.PhError) :
    (Aucpace.Error.passwordHashing a).display ph = "error while hashing password: " ++ ph a := by
  unfold Aucpace.Error.display
  with_reducible rfl

/-- **C67 (AuCPace).** The text determines the error, if the texts of `password_hash::Error` do. -/
theorem C67_aucpace (ph : Aucpace.PhError → String) (e f : Aucpace.Error) :
    e.display ph = f.display ph ↔
      e = f ∨ ∃ a b, e = .passwordHashing a ∧ f = .passwordHashing b ∧ ph a = ph b := by
  have key : ∀ (x : Aucpace.PhError) (s : String),
      "error while hashing password: ".toList.take 2 ≠ s.toList.take 2 →
      (Aucpace.Error.passwordHashing x).display ph ≠ s := by
    intro x s hne h
    apply hne
    rw [← h, ph_text, String.toList_append, List.take_append_of_le_length (by decide +kernel)]
  have indep : ∀ g : Aucpace.Error, (∀ a, g ≠ .passwordHashing a) → g.display ph = g.display (fun _ => "") := by
    intro g hg
    cases g with
    | passwordHashing a => exact absurd rfl (hg a)
    | _ => unfold Aucpace.Error.display; with_reducible rfl
  constructor
  · intro h
    cases e with
    | passwordHashing a =>
      cases f with
      | passwordHashing b =>
        rw [ph_text, ph_text] at h
        with_reducible exact .inr ⟨a, b, rfl, rfl, append_cancel h⟩
      | _ =>
        exact absurd (h.trans (indep _ (fun a => nofun))) (key _ _ (by decide +kernel))
    | _ =>
      cases f with
      | passwordHashing b => exact absurd (h.symm.trans (indep _ (by nofun))) (key _ _ (by decide +kernel))
      | _ =>
        first
          | with_reducible exact .inl rfl
          | exact absurd ((indep _ (by nofun)).symm.trans (h.trans (indep _ (by nofun)))) (by decide +kernel)
  · rintro (rfl | ⟨a, b, rfl, rfl, h⟩)
    · rfl
    · rw [ph_text, ph_text, h]

example (x : Spake2.Scalar) : ∃ s own e, Spake2.startInternal Spake2.ed25519 (.symmetric (ascii "id")) (ascii "pw") x =
    .ok (s, own) ∧ Spake2.finish Spake2.ed25519 s (0x41 :: List.replicate 32 0) = .err e ∧
    e.display = ascii "bad side" := by
  refine ⟨_, _, _, Spake2.start_eq _ _ x, ((Spake2.C18_classification (Spake2.start_eq _ _ x) _).2.1).2 ⟨?_, ?_⟩, rfl⟩
  · decide +kernel
  · decide +kernel
example : (Srp.SrpAuthError.illegalParameter "b_pub").display ≠ (Srp.SrpAuthError.badRecordMac "b_pub").display :=
  fun h => by cases (C67_srp _ _ "").1.1 h
example : (Aucpace.Error.passwordHashing .b64Encoding).display (fun _ => "B64 encoding error") =
    "error while hashing password: B64 encoding error" := by decide +kernel

end Errors

end Verif
