import Verif.Model.OsslRsa
import Verif.Vectors.Sha2
import Verif.Lemmas.Rsa
/-
Public keys and signatures at the limits of Model/OsslRsa, on the text "abc", with the verdicts of the `openssl` command (3.0.13: `openssl dgst -verify`; for
signatures of the wrong length `openssl pkeyutl -verify`, as `dgst` cuts them). Most have the exponent 1, which needs no private key. Like the rest of Vectors,
these are tests of the model, not proofs.
-/
namespace Httpsig
open Openssl

private def acceptsNow (info : Bytes) (hash : Bytes → Bytes) (n e sig len : Nat) : Bool :=
  usable n e && fits info hash n [97, 98, 99] && Rsa.acceptsFast info hash n e [97, 98, 99] (Rsa.toBytes len sig)

/-- What the examples evaluate is the model. -/
example (info : Bytes) (hash : Bytes → Bytes) (n e sig len : Nat) :
    acceptsNow info hash n e sig len = accepts info hash n e [97, 98, 99] (Rsa.toBytes len sig) := by
  rw [acceptsNow, Rsa.acceptsFast_eq, accepts]

/-- 61 bytes, too short for SHA-256. -/
example : acceptsNow Rsa.info256 Sha2.sha256Family.hash 0x181e74ef5e8e25d940ed904759531985d5d9dc9f81818e811892f902bd23f0824128b2f330c5c7fd0a6a3a4506513270e269e0d37f2a74de452e6b439
    0x1
    0x1ffffffffffffff003031300d060960864801650304020105000420ba7816bf8f01cfea414140de5dae2223b00361a396177a9cb410ff61f20015ad 61 = false := by decide +kernel

/-- 61 bytes. -/
example : acceptsNow Rsa.info256 Sha2.sha256Family.hash 0xa139263059f28c105d1fb17c2390c192cfd3ac94af0f21ddb66cad4a268d116ece1738f7d93d9c172411e20b8f6b0d549b6f03675a1600a35a099950d9
    0x1
    0x1ffffffffffffff003031300d060960864801650304020105000420ba7816bf8f01cfea414140de5dae2223b00361a396177a9cb410ff61f20015ad 61 = false := by decide +kernel

/-- 62 bytes. -/
example : acceptsNow Rsa.info256 Sha2.sha256Family.hash 0x1d64a23d5962217beaddbc496cb8e81973e0becd7b03898d190f9ebdacc0cb1e29c658cda1495e60af593bd04cf0fd630f1f29d0da9953f48f1a09f76b5
    0x1
    0x1ffffffffffffffff003031300d060960864801650304020105000420ba7816bf8f01cfea414140de5dae2223b00361a396177a9cb410ff61f20015ad 62 = true := by decide +kernel

/-- 62 bytes. -/
example : acceptsNow Rsa.info256 Sha2.sha256Family.hash 0x98f15f557203301850c5a38fd547923a736994e3bf911a61dbe22e44158bae97ba94d0eda82f8f6d05584ef8aa38922766581e27a1c08a6a63ec24ede6a5
    0x1
    0x1ffffffffffffffff003031300d060960864801650304020105000420ba7816bf8f01cfea414140de5dae2223b00361a396177a9cb410ff61f20015ad 62 = true := by decide +kernel

/-- 93 bytes, too short for SHA-512. -/
example : acceptsNow Rsa.info512 Sha2.sha512Family.hash 0xc7b2f14c942e05319acb5c74273f98e2774cbd87ad5c90a9587403e430ec66a78795e761d17731af10506bf2efc6f877186d76b07e881ed162ae2eb1547f15052434b9b5df9e7769b10f4205b4907a70c31012f037b64ce4228c38fb29
    0x1
    0x1ffffffffffffff003051300d060960864801650304020305000440ddaf35a193617abacc417349ae20413112e6fa4e89a97ea20a9eeee64b55d39a2192992a274fc1a836ba3c23a3feebbd454d4423643ce80e2a9ac94fa54ca49f 93 = false := by decide +kernel

/-- 94 bytes. -/
example : acceptsNow Rsa.info512 Sha2.sha512Family.hash 0x1d77d2caf82eeeacbe226e875555790f82ec1d3fcff2a3af4d46b0a18e8830e07bc1e398f1012bd4acefaecbd389be4bcfc49b64a0872e6cc3ababced2057ee05cde00902c77ebff206867347214cdd2055930d6eaf14f4733f3e7d1bfb
    0x1
    0x1ffffffffffffffff003051300d060960864801650304020305000440ddaf35a193617abacc417349ae20413112e6fa4e89a97ea20a9eeee64b55d39a2192992a274fc1a836ba3c23a3feebbd454d4423643ce80e2a9ac94fa54ca49f 94 = true := by decide +kernel

/-- An even modulus. -/
example : acceptsNow Rsa.info256 Sha2.sha256Family.hash 0xff26144b98289fcd59a54a7bb1fee08f571242425051c1ccd17f9acae01f5057ca02135e92b1d3f28ede0d7ac3baea9e13deef86ab1031d0f646e1f40a097c96
    0x1
    0x1ffffffffffffffffffff003031300d060960864801650304020105000420ba7816bf8f01cfea414140de5dae2223b00361a396177a9cb410ff61f20015ad 64 = false := by decide +kernel

/-- A zero byte too many. -/
example : acceptsNow Rsa.info256 Sha2.sha256Family.hash 0xff26144b98289fcd59a54a7bb1fee08f571242425051c1ccd17f9acae01f5057ca02135e92b1d3f28ede0d7ac3baea9e13deef86ab1031d0f646e1f40a097c97
    0x1
    0x1ffffffffffffffffffff003031300d060960864801650304020105000420ba7816bf8f01cfea414140de5dae2223b00361a396177a9cb410ff61f20015ad 65 = false := by decide +kernel

/-- The zero byte at the front left out. -/
example : acceptsNow Rsa.info256 Sha2.sha256Family.hash 0xff26144b98289fcd59a54a7bb1fee08f571242425051c1ccd17f9acae01f5057ca02135e92b1d3f28ede0d7ac3baea9e13deef86ab1031d0f646e1f40a097c97
    0x1
    0x1ffffffffffffffffffff003031300d060960864801650304020105000420ba7816bf8f01cfea414140de5dae2223b00361a396177a9cb410ff61f20015ad 63 = false := by decide +kernel

/-- Not below the modulus. -/
example : acceptsNow Rsa.info256 Sha2.sha256Family.hash 0x8004f426b394fb36bb2d420f0f88080b10a3d6b2aa05e11ab2715945795e8229451abd81f1d69ed617f5e837d70820fe119a72d174c9df6acc011cdd9474031b
    0x1
    0x8007affb7631a992f0ce583405f6e03765db5f9e3174d483e619148967c33e7071ed0211d7dd1099b356c44f3017cbc95e68f0d7945303a84805481597aa522e 64 = false := by decide +kernel

/-- A `DigestInfo` without NULL. -/
example : acceptsNow Rsa.info256 Sha2.sha256Family.hash 0xff26144b98289fcd59a54a7bb1fee08f571242425051c1ccd17f9acae01f5057ca02135e92b1d3f28ede0d7ac3baea9e13deef86ab1031d0f646e1f40a097c97
    0x1
    0x1ffffffffffffffffffffffff00302f300b06096086480165030402010420ba7816bf8f01cfea414140de5dae2223b00361a396177a9cb410ff61f20015ad 64 = false := by decide +kernel

/-- A byte FE in the padding. -/
example : acceptsNow Rsa.info256 Sha2.sha256Family.hash 0xff26144b98289fcd59a54a7bb1fee08f571242425051c1ccd17f9acae01f5057ca02135e92b1d3f28ede0d7ac3baea9e13deef86ab1031d0f646e1f40a097c97
    0x1
    0x1fffffffffffffffffffe003031300d060960864801650304020105000420ba7816bf8f01cfea414140de5dae2223b00361a396177a9cb410ff61f20015ad 64 = false := by decide +kernel

/-- Block type 2. -/
example : acceptsNow Rsa.info256 Sha2.sha256Family.hash 0xff26144b98289fcd59a54a7bb1fee08f571242425051c1ccd17f9acae01f5057ca02135e92b1d3f28ede0d7ac3baea9e13deef86ab1031d0f646e1f40a097c97
    0x1
    0x2ffffffffffffffffffff003031300d060960864801650304020105000420ba7816bf8f01cfea414140de5dae2223b00361a396177a9cb410ff61f20015ad 64 = false := by decide +kernel

/-- The exponent 1 + (p - 1)(q - 1), below the modulus. -/
example : acceptsNow Rsa.info256 Sha2.sha256Family.hash 0x1c8472144e056758aa38587cd6c41b510ef4ccf44792b4a17058e9b5ad7ff660e7d9462cea19f956de1447e2bdfec81c791055ebd345259f607da548a7f37
    0x1c8472144e056758aa38587cd6c41b510ef4ccf44792b4a17058e9b5ad7ff633b8e4dd770cb18e67709a4f5148f97170570362bdd71916ccd52d0c8833699
    0x1ffffffffffffffffff003031300d060960864801650304020105000420ba7816bf8f01cfea414140de5dae2223b00361a396177a9cb410ff61f20015ad 63 = true := by decide +kernel

/-- The exponent 1 + 2(p - 1)(q - 1), above it. -/
example : acceptsNow Rsa.info256 Sha2.sha256Family.hash 0x1c8472144e056758aa38587cd6c41b510ef4ccf44792b4a17058e9b5ad7ff660e7d9462cea19f956de1447e2bdfec81c791055ebd345259f607da548a7f37
    0x3908e4289c0aceb15470b0f9ad8836a21de999e88f256942e0b1d36b5affec6771c9baee19631ccee1349ea291f2e2e0ae06c57bae322d99aa5a191066d31
    0x1ffffffffffffffffff003031300d060960864801650304020105000420ba7816bf8f01cfea414140de5dae2223b00361a396177a9cb410ff61f20015ad 63 = false := by decide +kernel

/-- The exponent 0. -/
example : acceptsNow Rsa.info256 Sha2.sha256Family.hash 0x1c8472144e056758aa38587cd6c41b510ef4ccf44792b4a17058e9b5ad7ff660e7d9462cea19f956de1447e2bdfec81c791055ebd345259f607da548a7f37
    0x0
    0x1ffffffffffffffffff003031300d060960864801650304020105000420ba7816bf8f01cfea414140de5dae2223b00361a396177a9cb410ff61f20015ad 63 = false := by decide +kernel

/-- 3072 bits, and an exponent of 64. -/
example : acceptsNow Rsa.info256 Sha2.sha256Family.hash 0xc35c85b756b6bd924701c000defe5b0b19ec518601213f0026f4c12692390defddd2c712ace99bd8cddcc27d31faaf92c8f8e4a7cc031e8fd42c37b8298df8e63622e735758e3f53c0a9c349d942b11d298cb786a77577c04136767ffec22604be54dd8416d2a6433258dad0d4e7a61b90329db015b76765874f5d440cfa47ce898b2ec1219dad693293d455feed8a86252bb3ba55d2f2216989dad6ee588f0567e56be120c819d1da1eca1e13ba1ddc240a26145521f6ed95b2553422318f1b85865a67eb2b6b2ad673406fa479ea50168904c9c561f9428a39926661df9cf5dd4b6da9a5cb3e3c12ce96ac6ec132d1ac10edd0d99762c7aedba45b41fffdbce08d508ad78114bc3dbc7262accd1823afe042026f8758875fe840014e73e63c6f5b72934df46c277a374eac9159a8aadab23c14720c4da308e0eaf6fd80cbe9cf8c3f244c220b2f6d7ac98f2326d1e3bf21721554fac96ad20b3bdc327cce0344211e28ec89e76f0c0e83c1c829d5ae84a7301ca9bab685c2f733f18eeccfb5
    0x8000000000000005
    0x44755940379ea251cb1251e92b0b597a6c793f7d3f1fec38619ebfda07fb6bf5206b8f01e4e807bfe618e3c2d8ff54f0a93811aaa0c2e4b961044bbd68ad9f994a51774dffba3596667432b1a219e23580183a0a036507641af8bbc27678dad6c0d14b887cba08145dfb0d83395ccdc582500f025967c06e3a32f96cce52fea1fdd3bf01919b417144a65cf29e64b17ed78ca2676ecbfae108613ca8ce38c3d4919d2bba9c46455f83382d48054b9a6bda030233d592e590d36b2657dbaaae7f49eda7f44c931ba196fe923d0b53966536d17404ede25e56d44351732125ef268dd60cb0f242b6a68d7a6b5152c33b85e5fbda2fab1dc3dd8a5d0c98de95e8031ca0d567c7222ab186f1faedb545065d02b5ad1f171b958349d573b910b0c2e5a55e56f9763a1acc1e8e2d92eb98251ac8eb575631a4dc89539d01c9daa6dbc7fa1044fa418e79af7d7a8c1d3f49fe6a13155e1da9fb60ad29682b37108373afd9a754608a03d55f4949b7062bd27b6beaa68d73ed2df01919bbb3f786fc9e46 384 = true := by decide +kernel

/-- 3072 bits, and an exponent of 65. -/
example : acceptsNow Rsa.info256 Sha2.sha256Family.hash 0xc35c85b756b6bd924701c000defe5b0b19ec518601213f0026f4c12692390defddd2c712ace99bd8cddcc27d31faaf92c8f8e4a7cc031e8fd42c37b8298df8e63622e735758e3f53c0a9c349d942b11d298cb786a77577c04136767ffec22604be54dd8416d2a6433258dad0d4e7a61b90329db015b76765874f5d440cfa47ce898b2ec1219dad693293d455feed8a86252bb3ba55d2f2216989dad6ee588f0567e56be120c819d1da1eca1e13ba1ddc240a26145521f6ed95b2553422318f1b85865a67eb2b6b2ad673406fa479ea50168904c9c561f9428a39926661df9cf5dd4b6da9a5cb3e3c12ce96ac6ec132d1ac10edd0d99762c7aedba45b41fffdbce08d508ad78114bc3dbc7262accd1823afe042026f8758875fe840014e73e63c6f5b72934df46c277a374eac9159a8aadab23c14720c4da308e0eaf6fd80cbe9cf8c3f244c220b2f6d7ac98f2326d1e3bf21721554fac96ad20b3bdc327cce0344211e28ec89e76f0c0e83c1c829d5ae84a7301ca9bab685c2f733f18eeccfb5
    0x10000000000000001
    0x9994ed000c9439ee03e8d4d49bad46cfd6baf1e1b5a07bef65cad3dfe2741bc981a67b0bcbdb243082823a8300dbff357479f0e7a38496fd36edb524baefb9462802be2e36d21f9af3b743d5e745bb3b2cdeb86b7f0f2707784875604c47309d738037967863620c091d52347510703679e84226b4e15ecb8c7e40a06d3cb3788d94573e071f684cff7092db6b4b61921b945da817d5da26725ee747bd8b4dcb2a63dd7043f45bbc85a97a2bf4d288b2d34565cb06af751633abc1cfdbf32924be231724359d46471fad1705680263c5c2104a1c8e297156fca17cd5551b792dc32d17fcd851eb54df91dff9e841f357462f834c25c922fd92907c066f28a0b7cf2ea9177e2aebe9eeb51d9e30e9912e317f1465ae3d3899d7831d0fdd2d8426edfad668531a0406c1539732b47567161f9cf693a85d23b06e0a7d0734df0e096389e34f7c705dd16d42090d18acc6d9c09cbfc74e08fffa21a552e6bb07f64e351329b09765507df68103147797ace94598172e84d50f25d1cbcb9710cb9f16 384 = true := by decide +kernel

/-- 3073 bits, and an exponent of 64. -/
example : acceptsNow Rsa.info256 Sha2.sha256Family.hash 0x1724f70398afaf9ed011c1c68add50a839152e047b8ea26aa68ca4d345eaf4d11c5189207760b027c5ee693c2b5bfcaf24ebe899c4d522e74046d69b69f48e06d02bbef4a0fab61be32f1d617c53179285734bff50807992cad3613bbb112b24b1dd3e54d2bb74d4dbe73e0097ec5802eff6a301c278ec57a666e75d11e611f02f308d8e8ed93341a5114aec4b2828a5b0729a594aebc3c4605ba8d41cd4ce6b84ce11dcf27a817495994472c08cbefb4be6e524092cfe351df84cd2299ee398ebe398ecf3ed322074af851a01d83b5c72ef6af0665acd6e6fde7fdefc256ef1d51145f8402d072bdff957acd4297b03aac3cfd6ba19214c31cd053501da30f70d16aeff96c289a71007178c6872ffa445ff639f0e71147281a3406ab8ccf65336396fbb5649f791c0116ce4b0af0c27e61a0ecb715978541ecfa717472b8bd6e2e1e325a7bb52d956bc392115bdddc3f620f2ef88c3c58d25430b3cad4cdebb9746b5af0972d14356ffdfe1498e722eec7096e0a1dc089e1fb5e53c0513ac2e5
    0x8000000000000003
    0x17028331de5eb84fdf74514297c487338cd5a36837bee22efcba4fd8fbc8394833ae709084223f3061495e17cf626928c837355ee61b5514ea3a1d4fa53c722927a61f4fe01850936afa3dfa70b3a44698c79ffbd160ae1b2d3daf8fc94e5e635d78b39f675862c2979c24ffe2f9e990310130fd541d335c1a883393be1e5adc5b0ba40e5f47046f0c97ee1dc3e73ace07aabf98bc03e8836c18044988fdb148bae01ce70236952f4960742b5839309026de68def9b1ecf4b3dc06cc342bce1739d2cbf5b1689afeac62f4a458f06c938a9a23f8eb7e0f22b9ee115db866f097b8f76e5f522649cace26d3b02a93f2217565ec5c214039a43324fcbb4d32401250d5f1d07f79c1bd7089ab888a90ee08ad6d3fd8681a96c74b6ef86a3aa720e04d8e4064ce7a522768076794ca55cb426bd925d52f530626ad42282070ed71a6c33add78629259e0effad8c06c262711d3eecdfb1d6434a892c6a03f8d7dbb0ac93c5362b5d1ae5fcf3ebeda107da3e7ec7a4a68aeafee4ae6479b0ab20ae17fc 385 = true := by decide +kernel

/-- 3073 bits, and an exponent of 65. -/
example : acceptsNow Rsa.info256 Sha2.sha256Family.hash 0x1724f70398afaf9ed011c1c68add50a839152e047b8ea26aa68ca4d345eaf4d11c5189207760b027c5ee693c2b5bfcaf24ebe899c4d522e74046d69b69f48e06d02bbef4a0fab61be32f1d617c53179285734bff50807992cad3613bbb112b24b1dd3e54d2bb74d4dbe73e0097ec5802eff6a301c278ec57a666e75d11e611f02f308d8e8ed93341a5114aec4b2828a5b0729a594aebc3c4605ba8d41cd4ce6b84ce11dcf27a817495994472c08cbefb4be6e524092cfe351df84cd2299ee398ebe398ecf3ed322074af851a01d83b5c72ef6af0665acd6e6fde7fdefc256ef1d51145f8402d072bdff957acd4297b03aac3cfd6ba19214c31cd053501da30f70d16aeff96c289a71007178c6872ffa445ff639f0e71147281a3406ab8ccf65336396fbb5649f791c0116ce4b0af0c27e61a0ecb715978541ecfa717472b8bd6e2e1e325a7bb52d956bc392115bdddc3f620f2ef88c3c58d25430b3cad4cdebb9746b5af0972d14356ffdfe1498e722eec7096e0a1dc089e1fb5e53c0513ac2e5
    0x10000000000000001
    0x118015369daf841315e6b18fbbcbd1fbfe73689b7cca5df7d51226ec530be649e1ee947cb60c858ce035b6580f38a6b38affa39a6a2731d004d1e782ab5b966241a8c4716c27b1144dbc492945cb36db358042117817e2b001434d817ae37d7c1dd304f5be93c5cacc97beee0a9d3dc7aa08f64ed89e778a5d580ee5fdf3237be7ba75ef957e05dc6f234b5d460e4d4c59fdc94fef561061841c43316f5c29655bec24ffd82f5503eb537c9001bf35f7d09dd79f74e3eba65b73ad93f7a29e63175b32ab904dd9a12fcd0204d03ef161cbe7ca622da131052e239ec8158ed9ab80e6966a213b6748033e1857a695d6e6d3190bc268ca4a768a026167c5ec6cf554baf1179a5f0172839038e3667f0a864ae26fa0922021148ffa79d48c2ec733a3e112d74288ba90d1fedec1acb4f17617c41e850636bf646e1eb5547f54c186d32bfde3419e394ad27f8548810e2c45dc3cb82bd019635ccd519b10b7d37972be15017c40e6fd38f031bd1add1cb914b82d5cff7030d69c44833ca0b78692b54 385 = false := by decide +kernel

end Httpsig
