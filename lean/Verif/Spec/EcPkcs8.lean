import Verif.Spec.Ecdsa
import Verif.Model.EcPkcs8
/-
Specification vocabulary for private keys on P-256 in files (C139).
-/
namespace Httpsig

/-- prime256v1, 1.2.840.10045.3.1.7 -/
def oidP256 : Bytes := [0x2a, 0x86, 0x48, 0xce, 0x3d, 0x03, 0x01, 0x07]

/-- The optional parameters of an `ECPrivateKey`: the name of the curve. -/
def CurveName (params : Bytes) : Prop := ∃ o, DerValue 0x06 oidP256 o ∧ DerValue 0xa0 o params

/-- The optional public key of an `ECPrivateKey`. -/
def PublicPart (pk part : Bytes) : Prop := ∃ bits, DerValue 0x03 (0 :: pk) bits ∧ DerValue 0xa1 bits part

/-- An `ECPrivateKey` (RFC 5915, section 3) of version 1, with the given private key, parameters and public key. -/
def EcPrivateKey (d params part der : Bytes) : Prop :=
  ∃ v k, DerValue 0x02 [1] v ∧ DerValue 0x04 d k ∧ DerValue 0x30 (v ++ k ++ params ++ part) der

/-- A `PrivateKeyInfo` (RFC 5208, section 5) of this version, for a key on P-256, with the given contents; `attrs` is what follows. -/
def EcPrivateInfo (version : UInt8) (key attrs der : Bytes) : Prop :=
  ∃ v o c a k, DerValue 0x02 [version] v ∧ DerValue 0x06 oidEc o ∧ DerValue 0x06 oidP256 c ∧ DerValue 0x30 (o ++ c) a ∧
    DerValue 0x04 key k ∧ DerValue 0x30 (v ++ a ++ k ++ attrs) der

/-- A file with the private key `d`: PKCS #8 of version 0, perhaps with attributes, that contains the private key as 32 bytes and the
public key that belongs to it. -/
def EcKeyFile (d : Nat) (pk der : Bytes) : Prop :=
  ∃ bytes params part key attrs G, bytes.length = 32 ∧ bigEndian bytes = d ∧ 0 < d ∧ d < P256.q ∧ HasCoords G P256.gx P256.gy ∧
    EcKey (d • G) pk ∧ (params = [] ∨ CurveName params) ∧ PublicPart pk part ∧ EcPrivateKey bytes params part key ∧
    (attrs = [] ∨ ∃ c, DerValue 0xa0 c attrs) ∧ EcPrivateInfo 0 key attrs der ∧ der.length < 65540

/-- The library for ECDSA is `ring`: what a private key is (`priv`), how it is used, and how files are read. -/
structure RealEcKeys [Deps] (priv : Bytes → Option Nat) : Prop extends RealEcdsa priv where
  pkcs8 : ∀ b, (Deps.ringPkcs8 .ecP256 b).map priv = (P256.readPkcs8 b).map some

end Httpsig
