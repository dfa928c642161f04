import Verif.Model.Keys
import Verif.Proofs.P384

/-!
The private keys written in the sources of the examples, and their public halves.
-/
namespace Verif.Props
open Verif.Spec Verif.Keys

/-- Bytes given in base64url. -/
def bytes (s : Str) : Str := (Go.b64Decode s).getD []

/-- The key of the authorization server. -/
def serverKey : EcKey where
  use := g!"sig"
  kid := g!"123456789"
  alg := g!"ES384"
  x := bytes g!"De4LLFSUCTAAU8O7_ew0VkNR03_kTH9SNCFuhbpi8D1JUbhABRLpNygSDLf2waQt"
  y := bytes g!"cEXPFElY6-qb-5xsFu875_58D3lKZlcOzD99ulje6CAh4D_rJjYU7quxf82xCAUZ"
  d := some (bytes g!"-3yrGLfHTjuvcpG8gZzwQoz9P6uWgBW6HTmYTb-f6u4HxK05PpTdheKBdQ1nXkV-")

/-- The key of the example resource server. -/
def resourceKey : EcKey where
  alg := g!"ES384"
  x := bytes g!"YvJISWbCgiUhED5jb_N6UEem2jwN4WU2kIgC3KsT1tXS2FB7PSKdFdx76vtUW2e3"
  y := bytes g!"XYEHKEfIH8dd2xqZ8oTO8COnOs_OpFs71xvncT3c-3koJYix4Sb9c-drRRRRAqnK"
  d := some (bytes g!"uSBGgPvr8_k_6tFpN46C4S5kjfxfVwW25tT3lcVyUqeNq3TKD65o21LG58X7v88h")

/-- The key of the example device client. -/
def deviceKey : EcKey where
  alg := g!"ES384"
  x := bytes g!"yqLwlyN2qohjRcI_evlAXge2bvQWQQwGjsQNXEtfFMN613Wu6a5qfzu74vBkKJau"
  y := bytes g!"aCVWx2cX2f7foQ0KtPGJ-TKjFMtcEWv1VQKJUL93B7ANbnwnj_Ox2DsYd64wUH8o"
  d := some (bytes g!"YhOeT7joXg9LTYIFcNNAXpSfRM3GxoxfdYII4BAIJoAL1UQrHTQom0IUGxY_CLog")

set_option maxRecDepth 100000 in
/-- The coordinates of the key belong to its number. -/
theorem serverKey_pair : ∃ d, serverKey.d = some d ∧ P384.Multiple (nat d) (nat serverKey.x) (nat serverKey.y) := by
  refine ⟨_, rfl, ?_⟩
  have hd : nat (bytes g!"-3yrGLfHTjuvcpG8gZzwQoz9P6uWgBW6HTmYTb-f6u4HxK05PpTdheKBdQ1nXkV-") =
    0xfb7cab18b7c74e3baf7291bc819cf0428cfd3fab968015ba1d39984dbf9feaee07c4ad393e94dd85e281750d675e457e := by decide +kernel
  have hx : nat serverKey.x =
    0xdee0b2c549409300053c3bbfdec34564351d37fe44c7f5234216e85ba62f03d4951b8400512e93728120cb7f6c1a42d := by decide +kernel
  have hy : nat serverKey.y =
    0x7045cf144958ebea9bfb9c6c16ef3be7fe7c0f794a66570ecc3f7dba58dee82021e03feb263614eeabb17fcdb1080519 := by decide +kernel
  rw [hd, hx, hy]
  exact P384.multiple_of (by decide +kernel)

set_option maxRecDepth 100000 in
/-- The coordinates of the key belong to its number. -/
theorem resourceKey_pair : ∃ d, resourceKey.d = some d ∧ P384.Multiple (nat d) (nat resourceKey.x) (nat resourceKey.y) := by
  refine ⟨_, rfl, ?_⟩
  have hd : nat (bytes g!"uSBGgPvr8_k_6tFpN46C4S5kjfxfVwW25tT3lcVyUqeNq3TKD65o21LG58X7v88h") =
    0xb9204680fbebf3f93fead169378e82e12e648dfc5f5705b6e6d4f795c57252a78dab74ca0fae68db52c6e7c5fbbfcf21 := by decide +kernel
  have hx : nat resourceKey.x =
    0x62f2484966c2822521103e636ff37a5047a6da3c0de16536908802dcab13d6d5d2d8507b3d229d15dc7beafb545b67b7 := by decide +kernel
  have hy : nat resourceKey.y =
    0x5d81072847c81fc75ddb1a99f284cef023a73acfcea45b3bd71be7713ddcfb79282588b1e126fd73e76b45145102a9ca := by decide +kernel
  rw [hd, hx, hy]
  exact P384.multiple_of (by decide +kernel)

set_option maxRecDepth 100000 in
/-- The coordinates of the key belong to its number. -/
theorem deviceKey_pair : ∃ d, deviceKey.d = some d ∧ P384.Multiple (nat d) (nat deviceKey.x) (nat deviceKey.y) := by
  refine ⟨_, rfl, ?_⟩
  have hd : nat (bytes g!"YhOeT7joXg9LTYIFcNNAXpSfRM3GxoxfdYII4BAIJoAL1UQrHTQom0IUGxY_CLog") =
    0x62139e4fb8e85e0f4b4d820570d3405e949f44cdc6c68c5f758208e0100826800bd5442b1d34289b42141b163f08ba20 := by decide +kernel
  have hx : nat deviceKey.x =
    0xcaa2f0972376aa886345c23f7af9405e07b66ef416410c068ec40d5c4b5f14c37ad775aee9ae6a7f3bbbe2f0642896ae := by decide +kernel
  have hy : nat deviceKey.y =
    0x682556c76717d9fedfa10d0ab4f189f932a314cb5c116bf555028950bf7707b00d6e7c278ff3b1d83b1877ae30507f28 := by decide +kernel
  rw [hd, hx, hy]
  exact P384.multiple_of (by decide +kernel)

end Verif.Props
