import Verif.Vectors.Repo
import Verif.Props.RsaReadme -- so that it is not built at the same time: both need much memory
import Verif.Spec.EcPkcs8
import Verif.Model.RsaPublic
/-
Signatures made with the `openssl` command (3.0.13) and the keys in /repo/test_data, on the text "abc". Like the rest of Vectors, these are tests of the
model (here of Model/Rsa, Model/Pss, Model/Hmac and Model/Ecdsa), not proofs.
-/
namespace Httpsig
section
attribute [local instance] realDeps

def rsaKeyHalf : Bytes := (publicPkcs1Pem rsaPublicPem).getD []

/-- `openssl dgst -sha512 -sign rsa-private.pem`: the same signature, as there is only one. -/
example : (asymSigner (str% "rsa-v1_5-sha512") .rsaPkcs1Sha512 ((privatePkcs8Pem rsaPrivatePem).getD [])).sign 0 (utf8 (str% "abc")) =
    str% "NHg1YJRJjM5rM7rVwKOMyE91RzQWGpL16r1CbW7eL7rfvIG5Jdn4BLQtBBAtukf5sQpZUOEPUAfzKxgUCJzEOGk8elaRy+LrlbdfcSPWFXydR3j5e6CDVfEdq6IPN+OINlU+tjW/DRrDg5AIWE7rvs1wC4T+XRAwsKyL3YzWa8E35ie4qaiJuRYOqXiEy3dOgJLu/+MX5kwOBWf9tZb18FnpSNani/tpcLFllkrnUTRKyJV8wUsPhFYkWGbTwGJ3hsUqZXLm4mrTQvjtqCMmg3//mVRxF68r43r8kffy8cEfGIPUYMZFzUk8UImf0A9HJU87FeESdcYUu/j/uQ22cw==" := by
  decide +kernel

/-- `openssl dgst -sha512 -sigopt rsa_padding_mode:pss -sigopt rsa_pss_saltlen:64 -sign rsa-private.pem`: accepted for this text only. -/
def pssVector : Str := str% "kFvUsyCEHXRfxh/DgfxOM6evcMAfMBj/AGNqmq4MXxTKdYKWBwbpso7ryB8bn9GTdETj+3oH2DRZVutB0dkNSwFRZXEG/Zs1KjdFo8msGk3RXeUqzO0xRGGQ5lfOS1fcdUbWtKDSRjplqeXD+ju5OBYu2xFdB8hxXe0xhHWrClmNXI1XXz8Msr9Psv60TX7x9Ka9wDizQzRJo6KkKJQVyKHRq20OYIqVywJRO7ZmLcgscEdetVMldv6FYqPe1dws2gR5oSmog5MvcnNNmbfGMs9X/p5OjgQotV6Ia3coZ837yOTpNcl4edn4ZdIhwa7GNc96Vw9d9ZiWOTM5rSLbmg=="

example : (asymVerifier (str% "rsa-pss-sha512") .rsaPssSha512 rsaKeyHalf).verify (utf8 (str% "abc")) pssVector = true ∧
    (asymVerifier (str% "rsa-pss-sha512") .rsaPssSha512 rsaKeyHalf).verify (utf8 (str% "abd")) pssVector = false := by decide +kernel

/-- `openssl dgst -sha512 -mac HMAC` with a key of 200 bytes 0x6b. -/
example : (hmacSha512Sign (List.replicate 200 0x6b)).sign 0 (utf8 (str% "abc")) =
    str% "YABX5supzj4HjArjLwujp4YALR2khTlFyJmqdnj5MvA8dyAAROZorArokCmgjK5Zue1/k//tOzk3Hk1PCMPDdg==" := by
  decide +kernel

/-- `openssl dgst -sha256 -sign ecc-private.pem`: accepted with the key in ecc-public.pem. -/
example : (asymVerifier (str% "ecdsa-p256-sha256") .ecdsaP256Sha256Asn1 ((publicSpkiPem eccPublicPem).getD [])).verify (utf8 (str% "abc"))
    (str% "MEQCIHU8MY57l5BoqC7ixBQcbeGCv6QOj3KNWwTGFrSvvHTdAiB/ZZKFAmktpgOtTXrITfBuOCtdLMZUIeiAHGB6EFklFg==") = true := by decide +kernel

/-- The number in ecc-private.pem (`openssl pkey -text`), and the key in ecc-public.pem. -/
example : publicSpkiPem eccPublicPem = some (P256.keyOf 0xff87a469833c3634306da6741b81fc786cf6952893918af527e373f4c825008a) := by decide +kernel

/-- The reader of ecc-private.pem finds this number; it refuses what `openssl ec` and `openssl ec -no_public | openssl pkcs8 -topk8 -nocrypt`
write for the same key. -/
example : (Pem.parse eccPrivatePem).bind P256.readPkcs8 = some 0xff87a469833c3634306da6741b81fc786cf6952893918af527e373f4c825008a := by decide +kernel

def ecBare : Bytes :=
  (Base64.strictDecode (str% "MHcCAQEEIP+HpGmDPDY0MG2mdBuB/Hhs9pUok5GK9Sfjc/TIJQCKoAoGCCqGSM49AwEHoUQDQgAEgJL4hG+ESiKzj/EQnNhHAipcV53YX5VV8veM60nNkwa+Fxgo65gPyvrzhDk6ioK3UEeXnwhbWgvCgXk9TiJ2Fg==")).getD []
def ecNoPublic : Bytes :=
  (Base64.strictDecode (str% "MEECAQAwEwYHKoZIzj0CAQYIKoZIzj0DAQcEJzAlAgEBBCD/h6Rpgzw2NDBtpnQbgfx4bPaVKJORivUn43P0yCUAig==")).getD []

example : P256.readPkcs8 ecBare = none ∧ (P256.ecPrivateKey ecBare).isSome ∧ P256.readPkcs8 ecNoPublic = none ∧ (P256.unwrapKey ecNoPublic).isSome := by
  decide +kernel

/-- A key of 1024 bits, written by `openssl genrsa 1024 | openssl rsa -RSAPublicKey_out -outform DER`. -/
def rsaShort : Bytes :=
  (Base64.strictDecode (str% "MIGJAoGBANErArY3yHC+yghEC252fZSDSq42V1OOyLuyYu3jsqzSl5kRVTxs/JHTexuuzFdNoWYrvKKf9lqtbCVbXNJEIR6lWp9onBhMbqY/GaNy31uIOub5RP1MFTneJ4kLEAJjmU5vphqGbXSJBBPEjwptp5BBu0FpMrXVaPISVugAy+pVAgMBAAE=")).getD []

/-- The reader of RSA public keys: what the two files of test_data contain is read, as the numbers that are in them. A file in SPKI format as a
whole is not, nor is a private key, the key of an elliptic curve, or a short key. -/
example : (publicPkcs1Pem rsaPublicPem).bind Rsa.readPublic = (publicPkcs1Pem rsaPublicPem).bind Rsa.publicKey ∧
    (publicSpkiPem rsaPublicJustinPem).bind Rsa.readPublic = (publicSpkiPem rsaPublicJustinPem).bind Rsa.publicKey ∧
    ((publicPkcs1Pem rsaPublicPem).bind Rsa.readPublic).isSome ∧ ((publicSpkiPem rsaPublicJustinPem).bind Rsa.readPublic).isSome ∧
    (publicPkcs1Pem rsaPublicJustinPem).bind Rsa.readPublic = none ∧ (Pem.parse rsaPrivatePem).bind Rsa.readPublic = none ∧
    (publicSpkiPem eccPublicPem).bind Rsa.readPublic = none ∧ Rsa.readPublic rsaShort = none ∧
    (Rsa.publicKey rsaShort).map (fun x => (x.1.log2 + 1, x.2)) = some (1024, 65537) := by decide +kernel

end

/-- The hypothesis of C138 about verification holds for the actual functions. -/
theorem realEcdsa : @RealEcdsa realDeps (fun _ => none) :=
  @RealEcdsa.mk realDeps _ (fun _ _ _ _ h => nomatch h) (fun _ _ _ => rfl)

end Httpsig
