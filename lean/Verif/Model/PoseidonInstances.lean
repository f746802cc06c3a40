import Verif.Model.Poseidon
/-!
# The parameter sets of `lib/crypto/src/poseidon2/instance/*.rs`

Generated by `scripts/poseidon.py` from the sources; `fp_from_hex!("..")` is the number read in base 16, taken in the field.
-/

namespace Verif.Poseidon.Instances

/-- A parameter set as written in the source: numbers instead of field elements.
`PoseidonParams`, `lib/crypto/src/poseidon2/params.rs` 10-35. -/
structure Raw where
  T : Nat
  D : Nat
  capacity : Nat
  roundsF : Nat
  roundsP : Nat
  diag : List Nat
  rc : List (List Nat)

/-- The constants as field elements.
`fp_from_hex!`, `lib/crypto/src/field/fp.rs` 989-997 (exact by C68). -/
def Raw.params (R : Raw) (F : Type) [CommRing F] : Params F :=
  { T := R.T, D := R.D, capacity := R.capacity, roundsF := R.roundsF, roundsP := R.roundsP
    diag := R.diag.map (fun n : Nat => (n : F)), rc := R.rc.map fun row => row.map fun n : Nat => (n : F) }

/-- `BN256Params`, `bn256.rs` 12-351. -/
def bn256 : Raw where
  T := 3
  D := 5
  capacity := 1
  roundsF := 8
  roundsP := 56
  diag := [0x1,
    0x1,
    0x2]
  rc := [
    [0x1d066a255517b7fd8bddd3a93f7804ef7f8fcde48bb4c37a59a09a1a97052816,
     0x29daefb55f6f2dc6ac3f089cebcc6120b7c6fef31367b68eb7238547d32c1610,
     0x1f2cb1624a78ee001ecbd88ad959d7012572d76f08ec5c4f9e8b7ad7b0b4e1d1],
    [0xaad2e79f15735f2bd77c0ed3d14aa27b11f092a53bbc6e1db0672ded84f31e5,
     0x2252624f8617738cd6f661dd4094375f37028a98f1dece66091ccf1595b43f28,
     0x1a24913a928b38485a65a84a291da1ff91c20626524b2b87d49f4f2c9018d735],
    [0x22fc468f1759b74d7bfc427b5f11ebb10a41515ddff497b14fd6dae1508fc47a,
     0x1059ca787f1f89ed9cd026e9c9ca107ae61956ff0b4121d5efd65515617f6e4d,
     0x2be9473358461d8f61f3536d877de982123011f0bf6f155a45cbbfae8b981ce],
    [0xec96c8e32962d462778a749c82ed623aba9b669ac5b8736a1ff3a441a5084a4,
     0x292f906e073677405442d9553c45fa3f5a47a7cdb8c99f9648fb2e4d814df57e,
     0x274982444157b86726c11b9a0f5e39a5cc611160a394ea460c63f0b2ffe5657e],
    [0x1a1d063e54b1e764b63e1855bff015b8cedd192f47308731499573f23597d4b5,
     0x0,
     0x0],
    [0x26abc66f3fdf8e68839d10956259063708235dccc1aa3793b91b002c5b257c37,
     0x0,
     0x0],
    [0xc7c64a9d887385381a578cfed5aed370754427aabca92a70b3c2b12ff4d7be8,
     0x0,
     0x0],
    [0x1cf5998769e9fab79e17f0b6d08b2d1eba2ebac30dc386b0edd383831354b495,
     0x0,
     0x0],
    [0xf5e3a8566be31b7564ca60461e9e08b19828764a9669bc17aba0b97e66b0109,
     0x0,
     0x0],
    [0x18df6a9d19ea90d895e60e4db0794a01f359a53a180b7d4b42bf3d7a531c976e,
     0x0,
     0x0],
    [0x4f7bf2c5c0538ac6e4b782c3c6e601ad0ea1d3a3b9d25ef4e324055fa3123dc,
     0x0,
     0x0],
    [0x29c76ce22255206e3c40058523748531e770c0584aa2328ce55d54628b89ebe6,
     0x0,
     0x0],
    [0x198d425a45b78e85c053659ab4347f5d65b1b8e9c6108dbe00e0e945dbc5ff15,
     0x0,
     0x0],
    [0x25ee27ab6296cd5e6af3cc79c598a1daa7ff7f6878b3c49d49d3a9a90c3fdf74,
     0x0,
     0x0],
    [0x138ea8e0af41a1e024561001c0b6eb1505845d7d0c55b1b2c0f88687a96d1381,
     0x0,
     0x0],
    [0x306197fb3fab671ef6e7c2cba2eefd0e42851b5b9811f2ca4013370a01d95687,
     0x0,
     0x0],
    [0x1a0c7d52dc32a4432b66f0b4894d4f1a21db7565e5b4250486419eaf00e8f620,
     0x0,
     0x0],
    [0x2b46b418de80915f3ff86a8e5c8bdfccebfbe5f55163cd6caa52997da2c54a9f,
     0x0,
     0x0],
    [0x12d3e0dc0085873701f8b777b9673af9613a1af5db48e05bfb46e312b5829f64,
     0x0,
     0x0],
    [0x263390cf74dc3a8870f5002ed21d089ffb2bf768230f648dba338a5cb19b3a1f,
     0x0,
     0x0],
    [0xa14f33a5fe668a60ac884b4ca607ad0f8abb5af40f96f1d7d543db52b003dcd,
     0x0,
     0x0],
    [0x28ead9c586513eab1a5e86509d68b2da27be3a4f01171a1dd847df829bc683b9,
     0x0,
     0x0],
    [0x1c6ab1c328c3c6430972031f1bdb2ac9888f0ea1abe71cffea16cda6e1a7416c,
     0x0,
     0x0],
    [0x1fc7e71bc0b819792b2500239f7f8de04f6decd608cb98a932346015c5b42c94,
     0x0,
     0x0],
    [0x3e107eb3a42b2ece380e0d860298f17c0c1e197c952650ee6dd85b93a0ddaa8,
     0x0,
     0x0],
    [0x2d354a251f381a4669c0d52bf88b772c46452ca57c08697f454505f6941d78cd,
     0x0,
     0x0],
    [0x94af88ab05d94baf687ef14bc566d1c522551d61606eda3d14b4606826f794b,
     0x0,
     0x0],
    [0x19705b783bf3d2dc19bcaeabf02f8ca5e1ab5b6f2e3195a9d52b2d249d1396f7,
     0x0,
     0x0],
    [0x9bf4acc3a8bce3f1fcc33fee54fc5b28723b16b7d740a3e60cef6852271200e,
     0x0,
     0x0],
    [0x1803f8200db6013c50f83c0c8fab62843413732f301f7058543a073f3f3b5e4e,
     0x0,
     0x0],
    [0xf80afb5046244de30595b160b8d1f38bf6fb02d4454c0add41f7fef2faf3e5c,
     0x0,
     0x0],
    [0x126ee1f8504f15c3d77f0088c1cfc964abcfcf643f4a6fea7dc3f98219529d78,
     0x0,
     0x0],
    [0x23c203d10cfcc60f69bfb3d919552ca10ffb4ee63175ddf8ef86f991d7d0a591,
     0x0,
     0x0],
    [0x2a2ae15d8b143709ec0d09705fa3a6303dec1ee4eec2cf747c5a339f7744fb94,
     0x0,
     0x0],
    [0x7b60dee586ed6ef47e5c381ab6343ecc3d3b3006cb461bbb6b5d89081970b2b,
     0x0,
     0x0],
    [0x27316b559be3edfd885d95c494c1ae3d8a98a320baa7d152132cfe583c9311bd,
     0x0,
     0x0],
    [0x1d5c49ba157c32b8d8937cb2d3f84311ef834cc2a743ed662f5f9af0c0342e76,
     0x0,
     0x0],
    [0x2f8b124e78163b2f332774e0b850b5ec09c01bf6979938f67c24bd5940968488,
     0x0,
     0x0],
    [0x1e6843a5457416b6dc5b7aa09a9ce21b1d4cba6554e51d84665f75260113b3d5,
     0x0,
     0x0],
    [0x11cdf00a35f650c55fca25c9929c8ad9a68daf9ac6a189ab1f5bc79f21641d4b,
     0x0,
     0x0],
    [0x21632de3d3bbc5e42ef36e588158d6d4608b2815c77355b7e82b5b9b7eb560bc,
     0x0,
     0x0],
    [0xde625758452efbd97b27025fbd245e0255ae48ef2a329e449d7b5c51c18498a,
     0x0,
     0x0],
    [0x2ad253c053e75213e2febfd4d976cc01dd9e1e1c6f0fb6b09b09546ba0838098,
     0x0,
     0x0],
    [0x1d6b169ed63872dc6ec7681ec39b3be93dd49cdd13c813b7d35702e38d60b077,
     0x0,
     0x0],
    [0x1660b740a143664bb9127c4941b67fed0be3ea70a24d5568c3a54e706cfef7fe,
     0x0,
     0x0],
    [0x65a92d1de81f34114f4ca2deef76e0ceacdddb12cf879096a29f10376ccbfe,
     0x0,
     0x0],
    [0x1f11f065202535987367f823da7d672c353ebe2ccbc4869bcf30d50a5871040d,
     0x0,
     0x0],
    [0x26596f5c5dd5a5d1b437ce7b14a2c3dd3bd1d1a39b6759ba110852d17df0693e,
     0x0,
     0x0],
    [0x16f49bc727e45a2f7bf3056efcf8b6d38539c4163a5f1e706743db15af91860f,
     0x0,
     0x0],
    [0x1abe1deb45b3e3119954175efb331bf4568feaf7ea8b3dc5e1a4e7438dd39e5f,
     0x0,
     0x0],
    [0xe426ccab66984d1d8993a74ca548b779f5db92aaec5f102020d34aea15fba59,
     0x0,
     0x0],
    [0xe7c30c2e2e8957f4933bd1942053f1f0071684b902d534fa841924303f6a6c6,
     0x0,
     0x0],
    [0x812a017ca92cf0a1622708fc7edff1d6166ded6e3528ead4c76e1f31d3fc69d,
     0x0,
     0x0],
    [0x21a5ade3df2bc1b5bba949d1db96040068afe5026edd7a9c2e276b47cf010d54,
     0x0,
     0x0],
    [0x1f3035463816c84ad711bf1a058c6c6bd101945f50e5afe72b1a5233f8749ce,
     0x0,
     0x0],
    [0xb115572f038c0e2028c2aafc2d06a5e8bf2f9398dbd0fdf4dcaa82b0f0c1c8b,
     0x0,
     0x0],
    [0x1c38ec0b99b62fd4f0ef255543f50d2e27fc24db42bc910a3460613b6ef59e2f,
     0x0,
     0x0],
    [0x1c89c6d9666272e8425c3ff1f4ac737b2f5d314606a297d4b1d0b254d880c53e,
     0x0,
     0x0],
    [0x3326e643580356bf6d44008ae4c042a21ad4880097a5eb38b71e2311bb88f8f,
     0x0,
     0x0],
    [0x268076b0054fb73f67cee9ea0e51e3ad50f27a6434b5dceb5bdde2299910a4c9,
     0x0,
     0x0],
    [0x1acd63c67fbc9ab1626ed93491bda32e5da18ea9d8e4f10178d04aa6f8747ad0,
     0x19f8a5d670e8ab66c4e3144be58ef6901bf93375e2323ec3ca8c86cd2a28b5a5,
     0x1c0dc443519ad7a86efa40d2df10a011068193ea51f6c92ae1cfbb5f7b9b6893],
    [0x14b39e7aa4068dbe50fe7190e421dc19fbeab33cb4f6a2c4180e4c3224987d3d,
     0x1d449b71bd826ec58f28c63ea6c561b7b820fc519f01f021afb1e35e28b0795e,
     0x1ea2c9a89baaddbb60fa97fe60fe9d8e89de141689d1252276524dc0a9e987fc],
    [0x478d66d43535a8cb57e9c1c3d6a2bd7591f9a46a0e9c058134d5cefdb3c7ff1,
     0x19272db71eece6a6f608f3b2717f9cd2662e26ad86c400b21cde5e4a7b00bebe,
     0x14226537335cab33c749c746f09208abb2dd1bd66a87ef75039be846af134166],
    [0x1fd6af15956294f9dfe38c0d976a088b21c21e4a1c2e823f912f44961f9a9ce,
     0x18e5abedd626ec307bca190b8b2cab1aaee2e62ed229ba5a5ad8518d4e5f2a57,
     0xfc1bbceba0590f5abbdffa6d3b35e3297c021a3a409926d0e2d54dc1c84fda6]]

/-- `PallasParams`, `pallas.rs` 12-350. -/
def pallas : Raw where
  T := 3
  D := 5
  capacity := 1
  roundsF := 8
  roundsP := 56
  diag := [0x1,
    0x1,
    0x2]
  rc := [
    [0x360d7470611e473d353f628f76d110f34e71162f31003b7057538c2596426303,
     0x2bab94d7ae222d135dc3c6c5febfaa314908ac2f12ebe06fbdb74213bf63188b,
     0x150c93fef652fb1c2bf03e1a29aa871fef77e7d736766c5d0939d92753cc5dc8],
    [0x3270661e68928b3a955d55db56dc57c103cc0a60141e894e14259dce537782b2,
     0x73f116f04122e25a0b7afe4e2057299b407c370f2b5a1ccce9fb9ffc345afb3,
     0x2a32ec5c4ee5b1837affd09c1f53f5fd55c9cd2061ae93ca8ebad76fc71554d8],
    [0x270326ee039df19e651e2cfc740628ca634d24fc6e2559f22d8ccbe292efeead,
     0x27c6642ac633bc66dc100fe7fcfa54918af895bce012f182a068fc37c182e274,
     0x1bdfd8b01401c70ad27f57396989129d710e1fb6ab976a459ca18682e26d7ff9],
    [0x162a14c62f9a89b814b9d6a9c84dd678f4f6fb3f9054d373c832d824261a35ea,
     0x2d193e0f76de586b2af6f79e3127feeaac0a1fc71e2cf0c0f79824667b5b6bec,
     0x44ca3cc4a85d73b81696ef1104e674f4feff82984990ff85d0bf58dc8a4aa94],
    [0x1cbaf2b371dac6a81d0453416d3e235cb8d9e2d4f314f46f6198785f0cd6b9af,
     0x0,
     0x0],
    [0x1d5b2777692c205b0e6c49d061b6b5f4293c4ab038fdbbdc343e07610f3fede5,
     0x0,
     0x0],
    [0x2e9bdbba3dd34bffaa30535bdd749a7e06a9adb0c1e6f962f60e971b8d73b04f,
     0x0,
     0x0],
    [0x2de11886b18011ca8bd5bae36969299fde40fbe26d047b05035a13661f22418b,
     0x0,
     0x0],
    [0x2e07de1780b8a70d0d5b4a3f1841dcd82ab9395c449be947bc998884ba96a721,
     0x0,
     0x0],
    [0xf69f1854d20ca0cbbdb63dbd52dad16250440a99d6b8af3825e4c2bb74925ca,
     0x0,
     0x0],
    [0x2eb1b25417fe17670d135dc639fb09a46ce5113507f96de9816c059422dc705e,
     0x0,
     0x0],
    [0x115cd0a0643cfb988c24cb44c3fab48aff36c661d26cc42db8b1bdf4953bd82c,
     0x0,
     0x0],
    [0x26ca293f7b2c462d066d7378b999868bbb57ddf14e0f958ade801612311d04cd,
     0x0,
     0x0],
    [0x17bf1b93c4c7e01a2a830aa162412cd90f160bf9f71e967ff5209d14b24820ca,
     0x0,
     0x0],
    [0x35b41a7ac4f3c571a24f8456369c85dfe03c0354bd8cfd3805c86f2e7dc293c5,
     0x0,
     0x0],
    [0x3b1480080523c439435927994849bea964e14d3beb2dddde72ac156af435d09e,
     0x0,
     0x0],
    [0x2cc6810031dc1b0d4950856dc907d57508e286442a2d3eb2271618d874b14c6d,
     0x0,
     0x0],
    [0x25bdbbeda1bde8c1059618e2afd2ef999e517aa93b78341d91f318c09f0cb566,
     0x0,
     0x0],
    [0x392a4a8758e06ee8b95f33c25dde8ac02a5ed0a27b61926cc6313487073f7f7b,
     0x0,
     0x0],
    [0x272a55878a08442b9aa6111f4de009485e6a6fd15db89365e7bbcef02eb5866c,
     0x0,
     0x0],
    [0x2d5b308b0cf02cdfefa13c4e60e26239a6ebba011694dd129b925b3c5b21e0e2,
     0x0,
     0x0],
    [0x16549fc6af2f3b72dd5d293d72e2e5f244dff42f18b46c56ef38c57c311673ac,
     0x0,
     0x0],
    [0x1b10bb7a82afce39fa69c3a2ad52f76d76398265344203119b7126d9b46860df,
     0x0,
     0x0],
    [0xf1e7505ebd91d2fc79c2df7dc98a3bed1b36968ba0405c090d27f6a00b7dfc8,
     0x0,
     0x0],
    [0x2f313faf0d3f6187537a7497a3b43f46797fd6e3f18eb1caff457756b819bb20,
     0x0,
     0x0],
    [0x3a5cbb6de450b481fa3ca61c0ed15bc55cad11ebf0f7ceb8f0bc3e732ecb26f6,
     0x0,
     0x0],
    [0x3dab54bc9bef688dd92086e253b439d651baa6e20f892b62865527cbca915982,
     0x0,
     0x0],
    [0x6dbfb42b979884de280d31670123f744c24b33b410fefd4368045acf2b71ae3,
     0x0,
     0x0],
    [0x68d6b4608aae810c6f039ea1973a63eb8d2de72e3d2c9eca7fc32d22f18b9d3,
     0x0,
     0x0],
    [0x366ebfafa3ad381c0ee258c9b8fdfccdb868a7d7e1f1f69a2b5dfcc5572555df,
     0x0,
     0x0],
    [0x39678f65512f1ee404db3024f41d3f567ef66d89d044d022e6bc229e95bc76b1,
     0x0,
     0x0],
    [0x21668f016a8063c0d58b7750a3bc2fe1cf82c25f99dc01a4e534c88fe53d85fe,
     0x0,
     0x0],
    [0x39d00994a8a5046a1bc749363e98a768e34dea56439fe1954bef429bc5331608,
     0x0,
     0x0],
    [0x1f9dbdc3f84312636b203bbe12fb3425b163d41605d39f99770c956f60d881b3,
     0x0,
     0x0],
    [0x27745a9cddfad95e5f17b9e0ee0cab6be0bc829fe5e66c69794a9f7c336eab2,
     0x0,
     0x0],
    [0x1cec0803c504b635788d695c61e932122fa43fe20a45c78d52025657abd8aee0,
     0x0,
     0x0],
    [0x123523d75e9fabc172077448ef87cc6eed5082c8dbf31365d3872a9559a03a73,
     0x0,
     0x0],
    [0x1723d1452c9cf02df419b848e5d694bf27feba35975ee7e5001779e3a1d357f4,
     0x0,
     0x0],
    [0x1739d180a16010bdfcc0573d7e61369421c3f776f572836d9dab1ee4dcf96622,
     0x0,
     0x0],
    [0x2d4e6354da9cc554acce32391794b627fafa96fbeb0ab89370290452042d048d,
     0x0,
     0x0],
    [0x153ee6142e535e334a869553c9d007f88f3bd43f99260621670bcf6f8b485dcd,
     0x0,
     0x0],
    [0xc45bfd3a69aaa65635ef7e7a430b486968ad4424af83700d258d2e2b7782172,
     0x0,
     0x0],
    [0xadfd53b256a6957f2d56aec831446006897ac0a8ffa5ff10e5633d251f73307,
     0x0,
     0x0],
    [0x315d2ac8ebdbac3c8cd1726b7cbab8ee3f87b28f1c1be4bdac9d36a8b7516d63,
     0x0,
     0x0],
    [0x1b8472712d02eef4cfaec23d2b16883fc9bb60d1f6959879299ce44ea423d8e1,
     0x0,
     0x0],
    [0x3c1cd07efda6ff24bd0b70fa2255eb6f367d2c54e36928c9c4a5404198adf70c,
     0x0,
     0x0],
    [0x136052d26bb3d373687f4e51b2e1dcd34a16073f738f7e0cbbe523aef9ab107a,
     0x0,
     0x0],
    [0x16c96beef6a0a848c1bdd859a1232a1d7b3cfbb873032681676c36c24ef967dd,
     0x0,
     0x0],
    [0x284b38c57ff65c262ab7fed8f499a9fb012387bab4f1662d067eec7f2d6340c4,
     0x0,
     0x0],
    [0xc5993d175e81f6639e242198897d17cfc06772c1c0411a6af1dff204c922f86,
     0x0,
     0x0],
    [0x3bf7a3f7bd043dafcda655d1ba9c8f9f24887ad48e17759bbf53f67b1f87b15,
     0x0,
     0x0],
    [0x3188fe4ee9f9fafbb0cf999567f00e734c8f9cbe69f0e8279b5cd09e36d8be62,
     0x0,
     0x0],
    [0x171f528ccf6584375a39768c480d61e13af5bf77c1c42652afea99a2ec6c595a,
     0x0,
     0x0],
    [0x12f4175c4ab45afc196e41859b35ef88812c3286ee7000675a0563b9b8e9f1d5,
     0x0,
     0x0],
    [0x3a509e155cb7ebfd8f8fdcf800a9ac697e23e1aabe96cfab0e74d4d369118b79,
     0x0,
     0x0],
    [0x10f2a685df4a27c81a89920e2504c3b3984bc8f2e4c1b69e98712c65678cfd30,
     0x0,
     0x0],
    [0x9e5f49790c8a0e21d8d93d54ab91a0e54573c9333c56321e8a16728cc9d4918,
     0x0,
     0x0],
    [0x352d69bed80ee3e52bf35705d9f84a3442d17ed6ee0fab7e609a740347cf5fea,
     0x0,
     0x0],
    [0x58ee73ba9f3f293491562faf2b190d3c634debd281b76a63a758af6fa84e0e8,
     0x0,
     0x0],
    [0x232f99cc911eddd9cd0f1fc55b1a3250092cb92119bc76be621a132510a43904,
     0x0,
     0x0],
    [0x201beed7b8f3ab8186c22c6c5d4869f0f9efd52ca6bc2961c3b97c1e301bc213,
     0x1376dce6580030c6a1c9291d58602f5129388842744a1210bf6b3431ba94e9bc,
     0x1793199e6fd6ba342b3356c38238f761072ba8b02d92e7226454843c5486d7b3],
    [0x22de7a7488dcc7359fee9c20c87a67df3c66160dc62aacac06a3f1d3b433311b,
     0x3514d5e9066bb160df8ff37fe2d8edf8dbe0b77fae77e1d030d6e3fd516b47a8,
     0x30cd3006931ad636f919a00dabbf5fa5ff453d6f900f144a19377427137a81c7],
    [0x253d1a5c5293412741f81a5cf613c8df8f9e4b2cae2ebb515b6a74220692b506,
     0x35b461c02d79d19a35e9613e7f5fe92851b3a59c990fafc73f666cb86a48e8e,
     0x23a9928079d175bd5bc00eedd56b93e092b1283c2d5fccde7cfbf86a3aa04780],
    [0x13a7785ae134ea92f1594a0763c611abb5e2ea3436eef957f1e4ccd73fa00a82,
     0x39fce308b7d43c574962ae3c0da17e313889c57863446d88bbf04f5252de4279,
     0x1aae18833f8e1d3ac0fdf01662f60d22bef00a08c6ed38d23b57e34489b53fad]]

/-- `VestaParams`, `vesta.rs` 12-350. -/
def vesta : Raw where
  T := 3
  D := 5
  capacity := 1
  roundsF := 8
  roundsP := 56
  diag := [0x1,
    0x1,
    0x2]
  rc := [
    [0x360d7470611e473d353f628f76d110f34e71162f31003b7057538c2596426303,
     0x2bab94d7ae222d135dc3c6c5febfaa314908ac2f12ebe06fbdb74213bf63188b,
     0x150c93fef652fb1c2bf03e1a29aa871fef77e7d736766c5d0939d92753cc5dc8],
    [0x3270661e68928b3a955d55db56dc57c103cc0a60141e894e14259dce537782b2,
     0x73f116f04122e25a0b7afe4e2057299b407c370f2b5a1ccce9fb9ffc345afb3,
     0x2a32ec5c4ee5b1837affd09c1f53f5fd55c9cd2061ae93ca8ebad76fc71554d8],
    [0x270326ee039df19e651e2cfc740628ca634d24fc6e2559f22d8ccbe292efeead,
     0x27c6642ac633bc66dc100fe7fcfa54918af895bce012f182a068fc37c182e274,
     0x1bdfd8b01401c70ad27f57396989129d710e1fb6ab976a459ca18682e26d7ff9],
    [0x162a14c62f9a89b814b9d6a9c84dd678f4f6fb3f9054d373c832d824261a35ea,
     0x2d193e0f76de586b2af6f79e3127feeaac0a1fc71e2cf0c0f79824667b5b6bec,
     0x44ca3cc4a85d73b81696ef1104e674f4feff82984990ff85d0bf58dc8a4aa94],
    [0x1cbaf2b371dac6a81d0453416d3e235cb8d9e2d4f314f46f6198785f0cd6b9af,
     0x0,
     0x0],
    [0x1d5b2777692c205b0e6c49d061b6b5f4293c4ab038fdbbdc343e07610f3fede5,
     0x0,
     0x0],
    [0x2e9bdbba3dd34bffaa30535bdd749a7e06a9adb0c1e6f962f60e971b8d73b04f,
     0x0,
     0x0],
    [0x2de11886b18011ca8bd5bae36969299fde40fbe26d047b05035a13661f22418b,
     0x0,
     0x0],
    [0x2e07de1780b8a70d0d5b4a3f1841dcd82ab9395c449be947bc998884ba96a721,
     0x0,
     0x0],
    [0xf69f1854d20ca0cbbdb63dbd52dad16250440a99d6b8af3825e4c2bb74925ca,
     0x0,
     0x0],
    [0x2eb1b25417fe17670d135dc639fb09a46ce5113507f96de9816c059422dc705e,
     0x0,
     0x0],
    [0x115cd0a0643cfb988c24cb44c3fab48aff36c661d26cc42db8b1bdf4953bd82c,
     0x0,
     0x0],
    [0x26ca293f7b2c462d066d7378b999868bbb57ddf14e0f958ade801612311d04cd,
     0x0,
     0x0],
    [0x17bf1b93c4c7e01a2a830aa162412cd90f160bf9f71e967ff5209d14b24820ca,
     0x0,
     0x0],
    [0x35b41a7ac4f3c571a24f8456369c85dfe03c0354bd8cfd3805c86f2e7dc293c5,
     0x0,
     0x0],
    [0x3b1480080523c439435927994849bea964e14d3beb2dddde72ac156af435d09e,
     0x0,
     0x0],
    [0x2cc6810031dc1b0d4950856dc907d57508e286442a2d3eb2271618d874b14c6d,
     0x0,
     0x0],
    [0x25bdbbeda1bde8c1059618e2afd2ef999e517aa93b78341d91f318c09f0cb566,
     0x0,
     0x0],
    [0x392a4a8758e06ee8b95f33c25dde8ac02a5ed0a27b61926cc6313487073f7f7b,
     0x0,
     0x0],
    [0x272a55878a08442b9aa6111f4de009485e6a6fd15db89365e7bbcef02eb5866c,
     0x0,
     0x0],
    [0x2d5b308b0cf02cdfefa13c4e60e26239a6ebba011694dd129b925b3c5b21e0e2,
     0x0,
     0x0],
    [0x16549fc6af2f3b72dd5d293d72e2e5f244dff42f18b46c56ef38c57c311673ac,
     0x0,
     0x0],
    [0x1b10bb7a82afce39fa69c3a2ad52f76d76398265344203119b7126d9b46860df,
     0x0,
     0x0],
    [0xf1e7505ebd91d2fc79c2df7dc98a3bed1b36968ba0405c090d27f6a00b7dfc8,
     0x0,
     0x0],
    [0x2f313faf0d3f6187537a7497a3b43f46797fd6e3f18eb1caff457756b819bb20,
     0x0,
     0x0],
    [0x3a5cbb6de450b481fa3ca61c0ed15bc55cad11ebf0f7ceb8f0bc3e732ecb26f6,
     0x0,
     0x0],
    [0x3dab54bc9bef688dd92086e253b439d651baa6e20f892b62865527cbca915982,
     0x0,
     0x0],
    [0x6dbfb42b979884de280d31670123f744c24b33b410fefd4368045acf2b71ae3,
     0x0,
     0x0],
    [0x68d6b4608aae810c6f039ea1973a63eb8d2de72e3d2c9eca7fc32d22f18b9d3,
     0x0,
     0x0],
    [0x366ebfafa3ad381c0ee258c9b8fdfccdb868a7d7e1f1f69a2b5dfcc5572555df,
     0x0,
     0x0],
    [0x39678f65512f1ee404db3024f41d3f567ef66d89d044d022e6bc229e95bc76b1,
     0x0,
     0x0],
    [0x21668f016a8063c0d58b7750a3bc2fe1cf82c25f99dc01a4e534c88fe53d85fe,
     0x0,
     0x0],
    [0x39d00994a8a5046a1bc749363e98a768e34dea56439fe1954bef429bc5331608,
     0x0,
     0x0],
    [0x1f9dbdc3f84312636b203bbe12fb3425b163d41605d39f99770c956f60d881b3,
     0x0,
     0x0],
    [0x27745a9cddfad95e5f17b9e0ee0cab6be0bc829fe5e66c69794a9f7c336eab2,
     0x0,
     0x0],
    [0x1cec0803c504b635788d695c61e932122fa43fe20a45c78d52025657abd8aee0,
     0x0,
     0x0],
    [0x123523d75e9fabc172077448ef87cc6eed5082c8dbf31365d3872a9559a03a73,
     0x0,
     0x0],
    [0x1723d1452c9cf02df419b848e5d694bf27feba35975ee7e5001779e3a1d357f4,
     0x0,
     0x0],
    [0x1739d180a16010bdfcc0573d7e61369421c3f776f572836d9dab1ee4dcf96622,
     0x0,
     0x0],
    [0x2d4e6354da9cc554acce32391794b627fafa96fbeb0ab89370290452042d048d,
     0x0,
     0x0],
    [0x153ee6142e535e334a869553c9d007f88f3bd43f99260621670bcf6f8b485dcd,
     0x0,
     0x0],
    [0xc45bfd3a69aaa65635ef7e7a430b486968ad4424af83700d258d2e2b7782172,
     0x0,
     0x0],
    [0xadfd53b256a6957f2d56aec831446006897ac0a8ffa5ff10e5633d251f73307,
     0x0,
     0x0],
    [0x315d2ac8ebdbac3c8cd1726b7cbab8ee3f87b28f1c1be4bdac9d36a8b7516d63,
     0x0,
     0x0],
    [0x1b8472712d02eef4cfaec23d2b16883fc9bb60d1f6959879299ce44ea423d8e1,
     0x0,
     0x0],
    [0x3c1cd07efda6ff24bd0b70fa2255eb6f367d2c54e36928c9c4a5404198adf70c,
     0x0,
     0x0],
    [0x136052d26bb3d373687f4e51b2e1dcd34a16073f738f7e0cbbe523aef9ab107a,
     0x0,
     0x0],
    [0x16c96beef6a0a848c1bdd859a1232a1d7b3cfbb873032681676c36c24ef967dd,
     0x0,
     0x0],
    [0x284b38c57ff65c262ab7fed8f499a9fb012387bab4f1662d067eec7f2d6340c4,
     0x0,
     0x0],
    [0xc5993d175e81f6639e242198897d17cfc06772c1c0411a6af1dff204c922f86,
     0x0,
     0x0],
    [0x3bf7a3f7bd043dafcda655d1ba9c8f9f24887ad48e17759bbf53f67b1f87b15,
     0x0,
     0x0],
    [0x3188fe4ee9f9fafbb0cf999567f00e734c8f9cbe69f0e8279b5cd09e36d8be62,
     0x0,
     0x0],
    [0x171f528ccf6584375a39768c480d61e13af5bf77c1c42652afea99a2ec6c595a,
     0x0,
     0x0],
    [0x12f4175c4ab45afc196e41859b35ef88812c3286ee7000675a0563b9b8e9f1d5,
     0x0,
     0x0],
    [0x3a509e155cb7ebfd8f8fdcf800a9ac697e23e1aabe96cfab0e74d4d369118b79,
     0x0,
     0x0],
    [0x10f2a685df4a27c81a89920e2504c3b3984bc8f2e4c1b69e98712c65678cfd30,
     0x0,
     0x0],
    [0x9e5f49790c8a0e21d8d93d54ab91a0e54573c9333c56321e8a16728cc9d4918,
     0x0,
     0x0],
    [0x352d69bed80ee3e52bf35705d9f84a3442d17ed6ee0fab7e609a740347cf5fea,
     0x0,
     0x0],
    [0x58ee73ba9f3f293491562faf2b190d3c634debd281b76a63a758af6fa84e0e8,
     0x0,
     0x0],
    [0x232f99cc911eddd9cd0f1fc55b1a3250092cb92119bc76be621a132510a43904,
     0x0,
     0x0],
    [0x201beed7b8f3ab8186c22c6c5d4869f0f9efd52ca6bc2961c3b97c1e301bc213,
     0x1376dce6580030c6a1c9291d58602f5129388842744a1210bf6b3431ba94e9bc,
     0x1793199e6fd6ba342b3356c38238f761072ba8b02d92e7226454843c5486d7b3],
    [0x22de7a7488dcc7359fee9c20c87a67df3c66160dc62aacac06a3f1d3b433311b,
     0x3514d5e9066bb160df8ff37fe2d8edf8dbe0b77fae77e1d030d6e3fd516b47a8,
     0x30cd3006931ad636f919a00dabbf5fa5ff453d6f900f144a19377427137a81c7],
    [0x253d1a5c5293412741f81a5cf613c8df8f9e4b2cae2ebb515b6a74220692b506,
     0x35b461c02d79d19a35e9613e7f5fe92851b3a59c990fafc73f666cb86a48e8e,
     0x23a9928079d175bd5bc00eedd56b93e092b1283c2d5fccde7cfbf86a3aa04780],
    [0x13a7785ae134ea92f1594a0763c611abb5e2ea3436eef957f1e4ccd73fa00a82,
     0x39fce308b7d43c574962ae3c0da17e313889c57863446d88bbf04f5252de4279,
     0x1aae18833f8e1d3ac0fdf01662f60d22bef00a08c6ed38d23b57e34489b53fad]]

/-- `BLS2Params`, `bls12.rs` 13-281. -/
def bls2 : Raw where
  T := 2
  D := 5
  capacity := 1
  roundsF := 8
  roundsP := 56
  diag := [0x1,
    0x2]
  rc := [
    [0x6267f5556c88257324c1c8b00d5871b2eba13cc39d72aa10dde6b69bc44c41c7,
     0x30347723511438a085118166c68bf0c4f4ab5c10a2c55adb5cf87cc9e030f60f],
    [0x10db856965e40038eb6427303181e7b7439f1a051aa4630c26cf86d0a0451a4b,
     0x5a3d2dcd541e4faaae7eb143eec847a0f652b6dc1b92e3f39ec23c808b3a5d63],
    [0x3b07f0ff7edcf93b1dd0487bc9fab1c6905f9ceee38dcce83efeb3a320398526,
     0x40c73c524b9fd0fab63128175befe07b5c63ccdde9ca10e1a37205c9607fdf8a],
    [0x3a933861cf23752376d94dbb24b0f3c61630787928875c07672b68abfb9191e0,
     0x71cc165e208570b2d5ef81db84e3c5e714ea4edfb36fc7fb11ef65a64b2d9755],
    [0x6c0dc9eb332b5d968bec8ad68fe24ce34087ea54093f153618434475bce402f8,
     0x0],
    [0xaf5bafd335dae5c86967b11d5dcefb986a54c9d60d35eb06dc7a3fd779b3906,
     0x0],
    [0x6e12847918f030f2626c150ab69e4be0f13d202ae1f8bc87ea74323e93372e3b,
     0x0],
    [0x5565d40e21d059a26db241ca125d9316283eadf144b1318e604e253eeae1fe9a,
     0x0],
    [0x608e01b42d3dca09fed9b54eadaaba3e4ce6aefe92b0dc954a0fa4683a9678f2,
     0x0],
    [0x16bbe434b24f94e2c40ed1f4f9bd7d17e5be96c3aec15579b35fd80f0f80de9e,
     0x0],
    [0xd1be811a8e73220cab01ce981d475522c3d7dd9e2716c3a2cf4ddd541546890,
     0x0],
    [0x5997a3affb18f942868b86f8ee10a68966e90bac7bbd8c65ede7e6e5ef1f6320,
     0x0],
    [0x4d92e86d270041061eec80278079fca771499dea5ccdc99682a953bb3a038b8e,
     0x0],
    [0x616c8c5ce232b9314f694fc6a968446ea9daf7a4079ce1a75fcc950741d680bb,
     0x0],
    [0x677e31e7846d9131bdc350eaf11a8ff918dd258ddd800444424afab34dfdfe3d,
     0x0],
    [0x4e7d7f85aefc110b233525ee3e53851aee7d3241e2a132585e0e25005eee0b0e,
     0x0],
    [0x6a8b4539488b7dddc48c3a226dbda313f906e106f844196d55013d321244f13,
     0x0],
    [0x5091517b6a85783108999f8e6bda3c793bef3f2e9589641d260bdfde8bdef00d,
     0x0],
    [0xd2703e5b30f54d7f414e901802d54f8c14cd6355415df6e0f063d16bef9c43a,
     0x0],
    [0x56f69096811148eb38eec143d32565c077b3d1a4a4351f2b458f43b1659d4495,
     0x0],
    [0x622d94d38d1ded428afd062008c5709b43a678f6ba518ec56383e8ffba473504,
     0x0],
    [0x2730c607bba7333723a4a44577819b7db82a24574f6d13eee4c856c1ca3de9c7,
     0x0],
    [0x1ac5f59256c5004dc1043c53b23800a3fbab53eb1a83f551056f227b514b9f6,
     0x0],
    [0x790b92523c973f1c95b94937afbb5796d89481e7a56328b44bab5ba81ae42f3,
     0x0],
    [0x1d63b59d97bc269d13964fb3e8771d0acc749bc83eb2f0372484e266142bb8c0,
     0x0],
    [0x1a52d04e5f14a3a05f7a01262df9e68c77fdf7e2bfb56c8b252d2140efdf0914,
     0x0],
    [0x5aa9b3b808812b284857e8622843a8717fa5cb49b217017f31d79e8d0f963fc0,
     0x0],
    [0x6a3d18fdbeb1d77ec1304539b00e6188786dbbc4435269b4c6281367f42656e3,
     0x0],
    [0x4743e860df269a85dd76fb99dbe9d840eb669dc859754b3f74805e57ba288b00,
     0x0],
    [0x6c32cac3946825f80a434c5ab397fc1a1c6a9bdfaab53175d4cf3d29ddb6cbc6,
     0x0],
    [0x333b0eea5da7ed1e3959d16280a361aa77dd24ecbfb28e1b2583ac4e9894305c,
     0x0],
    [0x3b503fc333b795ccc0c5bb3ae26b077dc3742cb745ec8821648c5ce7ebd9df18,
     0x0],
    [0x4fa5853188d9f728a17532d94bee6fb28fee510380a5d50927c6c5b1ce283444,
     0x0],
    [0x5d2ed8a6603a905bac490ebfb9e6c18f0bc9da1bbc2173291b18de6b6186118f,
     0x0],
    [0x2d830a53584c5556264852f075c78f7f9eb068016ae88af9cda933d6ae52eca7,
     0x0],
    [0x250f4d6780ad29ae60e55f135b9ac80ccc7c81e3add37db276c26f1a2b1b86e,
     0x0],
    [0x6e3e9595f59220599e23e830728d4a0c4d62515ec1ed10b72446cf4df5b4c308,
     0x0],
    [0x2cd3314555d6faf23ee90cdb884f1c4697ebe98e3a450a624c4d896233b93cd5,
     0x0],
    [0x584a408d0f370543b8413fee70a060a394e561f504d8679f7bece4bf222e4108,
     0x0],
    [0x499cd53437b9fcbf7479c00fcc21295759074ce9bd1bb1fbd3460237aef4759e,
     0x0],
    [0x56a9b567bd0646effd0608d74d537991136098d9a06af6cb3ff8f010efb57578,
     0x0],
    [0x6a5fae2b00d968b931441b374e27ba4d03b306bd602d48731677169e75a67e8c,
     0x0],
    [0x2e1cc28e390e64aa1d60edb99c0aeda7c8c32bdb01ba11abbad5026b46eccb27,
     0x0],
    [0x2d4820000675df7c276beac408fe2e851e734a7008ae09bbcb3c96c70024f71b,
     0x0],
    [0xc2fe101a2b52b538b902c6b2dc992cb266f7636e05b0c068385b5fa19e97142,
     0x0],
    [0x209b790b78c0e7927c6a178ef2f00b8687fc7bd4f21a9e02578551535002bc95,
     0x0],
    [0x2dd0926cf56bbaaec6491513d08a9983f94a910852a7b4ea4bd4222b93e14c10,
     0x0],
    [0x4316b39dd7d65b1bb575198104d409b169236a7ade371f7ab176fcbae75a5f0d,
     0x0],
    [0x540276d61041b91f6ea3068ec260a9338b6e3da15d934e648c24f35aee04e535,
     0x0],
    [0x37af612900b839977b146324c84772c58a4ccc0f6494cc054571827e74bfd2d3,
     0x0],
    [0x2af00c93d59ed14c9911e5cb3781d772371e83228e4267bbce11d065c1955338,
     0x0],
    [0x62b48779b0cf7ff2c10fd9b91a6ff7b7a99f935e961a5a94aa38f9d4f71c8b4c,
     0x0],
    [0x540bf5bbe01f28563bcbe11a2ce346d8231a2cdd0fe07641f9fa89e5c21978e3,
     0x0],
    [0x232b6c847a6d23912cb10ecbe50b53491f67f71e9b87a4a30446f2218017874b,
     0x0],
    [0xab34adbe77b8f1e57a370e4fd626071eea74b3f0b66644a629efaa0e96456c0,
     0x0],
    [0x1a83e43ef118c90046b1bdbeab8dd5cdcab632807c2cd0dc9147cbc5b7084be8,
     0x0],
    [0x1ec6fa41b41b672d9005468720918130b642567462a3d557a595d4dc6c56f2f9,
     0x0],
    [0x1f81a153199a751a111b8f5212cfc5bf82aacf0287d03e1864f8e5713fe4a17,
     0x0],
    [0x2617307587a675f4ecd73a54a7b206162d751cabf3d9fd007bcca4de2c6f0649,
     0x0],
    [0x1647be94c515178c7974a245624b642bb1ae6e2d4e1682087e362d7f98bc953f,
     0x0],
    [0x6e690b956e00b9e339dec49d675586f661f9b081ee3fa7696d73977658aa6fea,
     0x660b85bc22de06d476c47bf084ad436f59874f1d630c0f5c91fbef51d5e738c5],
    [0x32bf3d451b69dde075fc370eaa8c1b77b5c0bc2aab1c7b46da7ef9d1840b0419,
     0x73924b40beaa9c1ce4074c2154d1af4d658c09395a568b99b2fbcc3b5685e810],
    [0x17cbb3ee0adcb9d977e96e9152b36042925244fdd0aa184c7a89a58a2dc40097,
     0x29d76a821e3220775c552f6b5977ab94956e52b8dac36ef88ace050d553766a3],
    [0x62b1a6c06ab26881a1fe57eceac56b5aec0b96da7211557f4e27ec24296d7db6,
     0xdfc474151e5c605a693a51ae8227cc0a99fdc4524fc2810c6eda9035d04334d]]

/-- `BLS3Params`, `bls12.rs` 287-620. -/
def bls3 : Raw where
  T := 3
  D := 5
  capacity := 1
  roundsF := 8
  roundsP := 56
  diag := [0x1,
    0x1,
    0x2]
  rc := [
    [0x6f007a551156b3a449e44936b7c093644a0ed33f33eaccc628e942e836c1a875,
     0x360d7470611e473d353f628f76d110f34e71162f31003b7057538c2596426303,
     0x4b5fec3aa073df44019091f007a44ca996484965f7036dce3e9d0977edcdc0f6],
    [0x67cf1868af6396c0b84cce715e539f849e06cd1c383ac5b06100c76bcc973a11,
     0x555db4d1dced819f5d3de70fde83f1c7d3e8c98968e516a23a771a5c9c8257aa,
     0x2bab94d7ae222d135dc3c6c5febfaa314908ac2f12ebe06fbdb74213bf63188b],
    [0x66f44be5296682c4fa7882799d6dd049b6d7d2c950ccf98cf2e50d6d1ebb77c2,
     0x150c93fef652fb1c2bf03e1a29aa871fef77e7d736766c5d0939d92753cc5dc8,
     0x3270661e68928b3a955d55db56dc57c103cc0a60141e894e14259dce537782b2],
    [0x73f116f04122e25a0b7afe4e2057299b407c370f2b5a1ccce9fb9ffc345afb3,
     0x409fda22558cfe4d3dd8dce24f69e76f8c2aaeb1dd0f09d65e654c71f32aa23f,
     0x2a32ec5c4ee5b1837affd09c1f53f5fd55c9cd2061ae93ca8ebad76fc71554d8],
    [0x5848ebeb5923e92555b7124fffba5d6bd571c6f984195eb9cfd3a3e8eb55b1d4,
     0x0,
     0x0],
    [0x270326ee039df19e651e2cfc740628ca634d24fc6e2559f22d8ccbe292efeead,
     0x0,
     0x0],
    [0x27c6642ac633bc66dc100fe7fcfa54918af895bce012f182a068fc37c182e274,
     0x0,
     0x0],
    [0x1bdfd8b01401c70ad27f57396989129d710e1fb6ab976a459ca18682e26d7ff9,
     0x0,
     0x0],
    [0x491b9ba6983bcf9f05fe4794adb44a30879bf8289662e1f57d90f672414e8a4a,
     0x0,
     0x0],
    [0x162a14c62f9a89b814b9d6a9c84dd678f4f6fb3f9054d373c832d824261a35ea,
     0x0,
     0x0],
    [0x2d193e0f76de586b2af6f79e3127feeaac0a1fc71e2cf0c0f79824667b5b6bec,
     0x0,
     0x0],
    [0x46efd8a9a262d6d8fdc9ca5c04b0982f24ddcc6e9863885a6a732a3906a07b95,
     0x0,
     0x0],
    [0x509717e0c200e3c92d8dca2973b3db45f0788294351ad07ae75cbb780693a798,
     0x0,
     0x0],
    [0x7299b28464a8c94fb9d4df61380f39c0dca9c2c014118789e227252820f01bfc,
     0x0,
     0x0],
    [0x44ca3cc4a85d73b81696ef1104e674f4feff82984990ff85d0bf58dc8a4aa94,
     0x0,
     0x0],
    [0x1cbaf2b371dac6a81d0453416d3e235cb8d9e2d4f314f46f6198785f0cd6b9af,
     0x0,
     0x0],
    [0x1d5b2777692c205b0e6c49d061b6b5f4293c4ab038fdbbdc343e07610f3fede5,
     0x0,
     0x0],
    [0x56ae7c7a5293bdc23e85e1698c81c77f8ad88c4b33a5780437ad047c6edb59ba,
     0x0,
     0x0],
    [0x2e9bdbba3dd34bffaa30535bdd749a7e06a9adb0c1e6f962f60e971b8d73b04f,
     0x0,
     0x0],
    [0x2de11886b18011ca8bd5bae36969299fde40fbe26d047b05035a13661f22418b,
     0x0,
     0x0],
    [0x2e07de1780b8a70d0d5b4a3f1841dcd82ab9395c449be947bc998884ba96a721,
     0x0,
     0x0],
    [0xf69f1854d20ca0cbbdb63dbd52dad16250440a99d6b8af3825e4c2bb74925ca,
     0x0,
     0x0],
    [0x5dc987318e6e59c1afb87b655dd58cc1d22e513a05838cd4585d04b135b957ca,
     0x0,
     0x0],
    [0x48b725758571c9df6c01dc639a85f07297696b1bb678633a29dc91de95ef53f6,
     0x0,
     0x0],
    [0x5e565e08c0821099256b56490eaee1d573afd10bb6d17d13ca4e5c611b2a3718,
     0x0,
     0x0],
    [0x2eb1b25417fe17670d135dc639fb09a46ce5113507f96de9816c059422dc705e,
     0x0,
     0x0],
    [0x115cd0a0643cfb988c24cb44c3fab48aff36c661d26cc42db8b1bdf4953bd82c,
     0x0,
     0x0],
    [0x26ca293f7b2c462d066d7378b999868bbb57ddf14e0f958ade801612311d04cd,
     0x0,
     0x0],
    [0x4147400d8e1aaccf311a6b5b762011ab3e45326e4d4b9de26992816b99c528ac,
     0x0,
     0x0],
    [0x6b0db7dccc4ba1b268f6bdcc4d372848d4a72976c268ea30519a2f73e6db4d55,
     0x0,
     0x0],
    [0x17bf1b93c4c7e01a2a830aa162412cd90f160bf9f71e967ff5209d14b24820ca,
     0x0,
     0x0],
    [0x4b431cd9efedbc94cf1eca6f9e9c1839d0e66a8bffa8c8464cac81a39d3cf8f1,
     0x0,
     0x0],
    [0x35b41a7ac4f3c571a24f8456369c85dfe03c0354bd8cfd3805c86f2e7dc293c5,
     0x0,
     0x0],
    [0x3b1480080523c439435927994849bea964e14d3beb2dddde72ac156af435d09e,
     0x0,
     0x0],
    [0x2cc6810031dc1b0d4950856dc907d57508e286442a2d3eb2271618d874b14c6d,
     0x0,
     0x0],
    [0x6f4141c8401c5a395ba6790efd71c70c04afea06c3c92826bcabdd5cb5477d51,
     0x0,
     0x0],
    [0x25bdbbeda1bde8c1059618e2afd2ef999e517aa93b78341d91f318c09f0cb566,
     0x0,
     0x0],
    [0x392a4a8758e06ee8b95f33c25dde8ac02a5ed0a27b61926cc6313487073f7f7b,
     0x0,
     0x0],
    [0x272a55878a08442b9aa6111f4de009485e6a6fd15db89365e7bbcef02eb5866c,
     0x0,
     0x0],
    [0x631ec1d6d28dd9e824ee89a30730aef7ab463acfc9d184b355aa05fd6938eab5,
     0x0,
     0x0],
    [0x4eb6fda10fd0fbde02c7449bfbddc35bcd8225e7e5c3833a0818a100409dc6f2,
     0x0,
     0x0],
    [0x2d5b308b0cf02cdfefa13c4e60e26239a6ebba011694dd129b925b3c5b21e0e2,
     0x0,
     0x0],
    [0x16549fc6af2f3b72dd5d293d72e2e5f244dff42f18b46c56ef38c57c311673ac,
     0x0,
     0x0],
    [0x42332677ff359c5e8db836d9f5fb54822e39bd5e22340bb9ba975ba1a92be382,
     0x0,
     0x0],
    [0x49d7d2c0b449e5179bc5ccc3b44c6075d9849b5610465f09ea725ddc97723a94,
     0x0,
     0x0],
    [0x64c20fb90d7a003831757cc4c6226f6e4985fc9ecb416b9f684ca0351d967904,
     0x0,
     0x0],
    [0x59cff40de83b52b41bc443d7979510d771c940b9758ca820fe73b5c8d5580934,
     0x0,
     0x0],
    [0x53db2731730c39b04edd875fe3b7c882808285cdbc621d7af4f80dd53ebb71b0,
     0x0,
     0x0],
    [0x1b10bb7a82afce39fa69c3a2ad52f76d76398265344203119b7126d9b46860df,
     0x0,
     0x0],
    [0x561b6012d666bfe179c4dd7f84cdd1531596d3aac7c5700ceb319f91046a63c9,
     0x0,
     0x0],
    [0xf1e7505ebd91d2fc79c2df7dc98a3bed1b36968ba0405c090d27f6a00b7dfc8,
     0x0,
     0x0],
    [0x2f313faf0d3f6187537a7497a3b43f46797fd6e3f18eb1caff457756b819bb20,
     0x0,
     0x0],
    [0x3a5cbb6de450b481fa3ca61c0ed15bc55cad11ebf0f7ceb8f0bc3e732ecb26f6,
     0x0,
     0x0],
    [0x681d93411bf8ce63f6716aefbd0e24506454c0348ee38fabeb264702714ccf94,
     0x0,
     0x0],
    [0x5178e940f50004312646b436727f0e80a7b8f2e9ee1fdc677c4831a7672777fb,
     0x0,
     0x0],
    [0x3dab54bc9bef688dd92086e253b439d651baa6e20f892b62865527cbca915982,
     0x0,
     0x0],
    [0x4b3ce75311218f9ae905f84eaa5b2b3818448bbf3972e1aad69de321009015d0,
     0x0,
     0x0],
    [0x6dbfb42b979884de280d31670123f744c24b33b410fefd4368045acf2b71ae3,
     0x0,
     0x0],
    [0x68d6b4608aae810c6f039ea1973a63eb8d2de72e3d2c9eca7fc32d22f18b9d3,
     0x0,
     0x0],
    [0x4c5c254589a92a36084a57d3b1d964278acc7e4fe8f69f2955954f27a79cebef,
     0x0,
     0x0],
    [0x6cbac5e1700984ebc32da15b4bb9683faabab55f67ccc4f71d9560b3475a77eb,
     0x4603c403bbfa9a17738a5c6278eaab1c37ec30b0737aa2409fc4898069eb983c,
     0x6894e7e22b2c1d5c70a712a6345ae6b192a9c833a9234c31c56aacd16bc2f100],
    [0x5be2cbbc44053ad08afa4d1eabc7f3d231eea799b93f226e905b7d4d65c58ebb,
     0x58e55f287b453a9808624a8c2a353d528da0f7e713a5c6d0d7711e47063fa611,
     0x366ebfafa3ad381c0ee258c9b8fdfccdb868a7d7e1f1f69a2b5dfcc5572555df],
    [0x45766ab728968c642f90d97ccf5504ddc10518a819ebbcc4d09c3f5d784d67ce,
     0x39678f65512f1ee404db3024f41d3f567ef66d89d044d022e6bc229e95bc76b1,
     0x463aed1d2f1f955e3078be5bf7bfc46fc0eb8c51551906a8868f18ffae30cf4f],
    [0x21668f016a8063c0d58b7750a3bc2fe1cf82c25f99dc01a4e534c88fe53d85fe,
     0x39d00994a8a5046a1bc749363e98a768e34dea56439fe1954bef429bc5331608,
     0x4d7f5dcd78ece9a933984de32c0b48fac2bba91f261996b8e9d1021773bd07cc]]

/-- `BLS4Params`, `bls12.rs` 626-1024. -/
def bls4 : Raw where
  T := 4
  D := 5
  capacity := 1
  roundsF := 8
  roundsP := 56
  diag := [0x7564ad691bf01c8601d68757a561d224f00f313ada673ab83e6255fb4fd5b3d,
    0x6184e3be38549f7c0850cd069b32f6decbfde312dd4b8c18349b1b3776a6eaa4,
    0x419289088178ad742be6f78425c0156b6546a18fd338f0169937dea46cfb64d2,
    0x3244cdec173b71a4659e2529b499362dac10cb2fd17562860c8bb9d0fd45b787]
  rc := [
    [0x1a3bdcbfc11dabfb6ed0dd5f5a9b38191488bce9eecd811c10f9378b32db8c61,
     0x52b733e857912fdd2248dc9638dd79b1ce18b285b27792238b44c2b23c0f5d5f,
     0x47d6df02d73e6c78ced550ec8df1a459ac41f318d8b904a37652b581b2b766b8,
     0x11ec284726dddcf3cbb2b81862c9cd95e9de81ce0317302e1ef432d59b913388],
    [0x19e21d749905904f3e10cd57f7817c2564c06ec1b1e229def2129e79a7a77738,
     0x6eeecf4c83e1ec164217f3c00956d83c3bd845bee2d86b263cf3bf89a345e5e1,
     0x10d5808ab47295f7a950dc72f968398b9c67426a217811b9bd7e97f2a261992f,
     0x25d334fbadcbfd26449c4ce1472f961f7d401a3ddf40a70af5c10ac9176d151b],
    [0x3ef8a46ec07ee551ecba60b1601cbf6e3664418331a254729b7c6a5c3d13a6c6,
     0x30d373e298c09d2a6efe661d708fcfa6163dc61ae1eb103d98cf88c63e482125,
     0x18769839949b2dda9ef3f111acd86e10250ffad4c4c4263ea970e4f4726cfad7,
     0x2c941286d1534ff3be3a66f9dd59833e65b1fa67db23511f7b4b2ae3b3d66bc9],
    [0x8b6d9c90b4139ea70497ac8a22b30fb9b76b8ceabf70449d282b57d98c60ddd,
     0x3a8a2dd917222a71ca678b5c0a803a43c62de2f2c9fe37931b5b2a017fe64638,
     0x2dc17308abd0e731b3cffafd296cc3e6e2403dc563baa1c797a68da9754dd207,
     0x1d04e542f54431c23f9d1812392a0c87203144e343c459d3ee640b04e203be6c],
    [0x500760e2ef6bf463fdecbf7b47f4adaa8214c797e59359439d63169e1cdb9dfb,
     0x0,
     0x0,
     0x0],
    [0x61f36faac1c12d756dcc3b5491f2b22565409a4e952b8f8e726ee126c0e1c0e6,
     0x0,
     0x0,
     0x0],
    [0x49e72db524a48243849fea068e58d0c078b0c738cd482a2e2160602657456ccb,
     0x0,
     0x0,
     0x0],
    [0x4a74677fff94821e97b20b86063c36d35c6a2908c0a19a9f130edde9c8ceb6b5,
     0x0,
     0x0,
     0x0],
    [0x62d27fd5080b44a436e13066ce1c80ddef2af086c2a4806bd99fa02de9726ded,
     0x0,
     0x0,
     0x0],
    [0x15a26c92fc51dd285a61c2c1379f6731377aeb29c62696aa6a9c109c2991f200,
     0x0,
     0x0,
     0x0],
    [0x1db900a5e9b2685be9f8f02498123ac71bd7bfa40b6853ab527a8d2512b9aefb,
     0x0,
     0x0,
     0x0],
    [0x6ff755d237742498e0b78829cd8358bdb831e96fef08eb192b7e334123080afa,
     0x0,
     0x0,
     0x0],
    [0x1595447e5b94a64c8b3681f57068e19ee3696440ef785e35123886311f48cd1e,
     0x0,
     0x0,
     0x0],
    [0x2b0eabc08eef3abae3304cbb2efc67e7b437bd96b6f7d175daed6da5a2144e8b,
     0x0,
     0x0,
     0x0],
    [0x3a345ee8e715f3226e52838652219202efb4e6d4f057f904d69d3fbd781e39f5,
     0x0,
     0x0,
     0x0],
    [0x49eb2a07b5da81b57b7aa4fab19e691f9a684baef4cfb5afb6f46d23cbf1a9cd,
     0x0,
     0x0,
     0x0],
    [0x3051663ef7de7674506f2c873409725363849564815b8bd291f00b9c60b4daf0,
     0x0,
     0x0,
     0x0],
    [0x41a632a7bc167f67ca9c3825021a05b13f81f814ee101d37716e12efec3121f,
     0x0,
     0x0,
     0x0],
    [0x6a5ae006b70bfebc1a485eed2c078654dc0f10514e8c739ca2a7019f42444ce5,
     0x0,
     0x0,
     0x0],
    [0xf3dba730b64dda2bc2eaa50ede0fcaa86a37c74c3a17be97a9d969fca21fb37,
     0x0,
     0x0,
     0x0],
    [0x6d6c02004f2a4cbb965f9e73799041fafb49f61aee66232f45ae09972af08e86,
     0x0,
     0x0,
     0x0],
    [0x60391f436a32fdb0eeba8578313579c04c48c126f4eb6a0c49e249ff1c1fbf4a,
     0x0,
     0x0,
     0x0],
    [0x570a30710a42539d4440ce9a2cc7d9ac102409a188960d0fbd249fc4352bf3e5,
     0x0,
     0x0,
     0x0],
    [0x35cb6ce55352599332471ad8be46ddc0cf598e0e36b8a8fa5fae6f26277b318e,
     0x0,
     0x0,
     0x0],
    [0x48a8116b254b171052251f353c93ca3816734e4e0baeea10b4269bbab9a2be55,
     0x0,
     0x0,
     0x0],
    [0x126258211a4bb2035121c7ca129eae719d4ddfefa99921a8befb7a160e0f845f,
     0x0,
     0x0,
     0x0],
    [0x5bf6985473bc5500f140844f5b66cea85815772cce03596eda60e6c7dcb4ebbd,
     0x0,
     0x0,
     0x0],
    [0x5af46d3dd02261d893c418582188d328a8a84ff8f6ac6c1997d3aaadf64220d9,
     0x0,
     0x0,
     0x0],
    [0x5e3c84925609016da58df82c1f2b51590e3b91e5502dca2eba13d8354916ddbe,
     0x0,
     0x0,
     0x0],
    [0x410e6fb4390379a8b726cfb22a9eaab7232bc4b60eaddb629a4aacfc7dcdbfcf,
     0x0,
     0x0,
     0x0],
    [0x2ca5debb9de1c4bbfa0204543dd9757241611cd28b5eac2d7f37baa293fa2618,
     0x0,
     0x0,
     0x0],
    [0x4a1554023154a99b4572572ccd5d89fa8745c117a2a85e5786ef6ef39410d611,
     0x0,
     0x0,
     0x0],
    [0x2ca75fb22881b238b6c96da6b908f922da8b54f909237051775c64fec8d5920c,
     0x0,
     0x0,
     0x0],
    [0x546ea8ad3dffe14c4c96e4d6d8c43c644212fb663486165b34cb26ddd717f341,
     0x0,
     0x0,
     0x0],
    [0x6b168ee87f2c532efdb378116dfe462f632a18eccf1e9bcfc740d35e535b2735,
     0x0,
     0x0,
     0x0],
    [0x4cf917a780b850292f44502b80865d3664d75213f89e8ae5861dbcb52aa95e76,
     0x0,
     0x0,
     0x0],
    [0x2e8dfe9046d8b951532466bdf1b62571b85e551b34c8bbfb1ccd3216271b73d,
     0x0,
     0x0,
     0x0],
    [0x4a34d2abd01f09f743cc56a3f87febd60ae5d88e224918d840656da973d9252e,
     0x0,
     0x0,
     0x0],
    [0xa3fad26c6318d471fa376fbaf02d341e41e687db6f3da88266de21c7157e940,
     0x0,
     0x0,
     0x0],
    [0x131c9df7176eadb9af3a14f0f53a9b87196ef60bbb89b3630142ff8d9d69137b,
     0x0,
     0x0,
     0x0],
    [0x5753682a8120106b42241c86deee879263d81fe8e3423e01f567316d9524647e,
     0x0,
     0x0,
     0x0],
    [0x5ed9725af6a91090027acfc12100733a9dea89771048aa2dfe40daea9546645b,
     0x0,
     0x0,
     0x0],
    [0x2c7b7a87f31ebd2464be9f211d41719b453939d53ff7be07a2cc21741d48b467,
     0x0,
     0x0,
     0x0],
    [0x118159eb07353fef60e9733077cc82f92a6e2bd361c88d8122e9a292217757e0,
     0x0,
     0x0,
     0x0],
    [0x5b4626e787d4a4b00ba4693fd7900ecaa19624be9f2fee6b9c3b538d4f896b8a,
     0x0,
     0x0,
     0x0],
    [0x18cad22ae06bb0e8d043f7928477219e4d38ac544ce81c4c685267089e4c7003,
     0x0,
     0x0,
     0x0],
    [0x511149594758e789b440ce534b52b6c508ae1881669d1fa4a7e551ef84e4dc4,
     0x0,
     0x0,
     0x0],
    [0x428b8532efa194a7f5cbf4c296786346ddfcfe8f2bab26f25321f5d984dfc307,
     0x0,
     0x0,
     0x0],
    [0xfd035cc129e91eac66d841e2864989d1ff4853662166143535603bf9460621,
     0x0,
     0x0,
     0x0],
    [0x2c167565114475412c76f0df1961eaca9deb17622c9fb6f5ac8a89a29f42df69,
     0x0,
     0x0,
     0x0],
    [0x10cac3ff02125419ac84ff80295589d1124a1e65a94e8d9b63a411317c7f5728,
     0x0,
     0x0,
     0x0],
    [0x7213c2f17aec536d0a5196e877d1626a63d7db5b4e3bd77327eb3617b932aee7,
     0x0,
     0x0,
     0x0],
    [0x1b86ee2e45fbcd59fa43edee6630dda5cb3b894eb4701eff5fd53967abad2666,
     0x0,
     0x0,
     0x0],
    [0xb941850091bd16875f408f183fb93d250c538e5ee1e8979e960b5b499b2f070,
     0x0,
     0x0,
     0x0],
    [0x31f75d53bdd5ac603c252925148a74fa5f3bf5d9ffabe64c6e932be904204ec,
     0x0,
     0x0,
     0x0],
    [0x55296a48dd399c65798cdbda11e89f26f998f2d33cf328e87a1c364e05be492b,
     0x0,
     0x0,
     0x0],
    [0x191175ec337e64a48785a083559176168bcea3db2822630c48f1d497d03e1e35,
     0x0,
     0x0,
     0x0],
    [0x33200b518e6b1a1e96ba214cad18929e7f5b4e3336e522c5fa1febf69c0818c6,
     0x0,
     0x0,
     0x0],
    [0x2f989e24f97dc06c075bb53404e3eaaae32a1b6d89d9e09acdeee65712aa4216,
     0x0,
     0x0,
     0x0],
    [0xde4b77163f1572bbaa325f48bde7a429b6b0f803ade45a0e72cd2bdbd84680c,
     0x0,
     0x0,
     0x0],
    [0x6af270d408f492402b7271432b6c443abbd1f0e220888d73f47498d59044d7cc,
     0x3d5b5310e7b6be63be8f12594ecd68108f4b3f6266683b13178d0c80d8530c2f,
     0x5f69d748d06e22916088bd21fb472334ddbe5223ff494b6c0dcdf62db69d43ac,
     0x6c1fd7dbb3298da86dfe5d0435b26e0a91fe6ad6aa25b9407d5da544e6b9cd27],
    [0x37172dd49bf14ebca52e1c31b60f31de8213644e330bcf2cc59684606e62537d,
     0x509cf829b68e58861c3d6bce6046ac1b6e9c065378fe9556348c0c1814808e20,
     0x529d5dd132f5cb4b71994ae6b330b7944f0fd8ba319582d2414b9b10768b7448,
     0x5d251391abee228833dbd24be99d163ba9f8c92a2cf73a4e1f8a87e9c4ca97ba],
    [0x1abe1d77226f2eff6f1a6bfc6c8d9e00dde1da9d67858e6984e53bc2aceba535,
     0x4ca74ba72baea6d84fa8f2a05e387a1c41a5a1b2f1a479fb11bbf9d5e09bd01a,
     0x232bfa6a3120224814967315ebf3d8c88b2eb0ea8c20c79ce854f90aec7a9b91,
     0x109f5bd722c8cf28ab6a3852970bcb665f398a8dc9d331958dc291d49a1ba9b4],
    [0x4a181a5de6c79a05c02533350ab51deee24b8f5b9154c5cf09ba5e25862ae176,
     0x6e063b99c16028df94b1eb719164ae8c8336894791516ca2c37c5a1a394bb0d7,
     0x6bbd2d3a643d301d25a8cf156542165abee3039068fecf501e9d39f313ca2a87,
     0x4690fe1be7c7b8c10c81e63f5e508fe93853c61f0435f81eabc9997fa3b99f3]]

/-- `Goldilocks12Params`, `goldilocks.rs` 14-457. -/
def goldilocks12 : Raw where
  T := 12
  D := 7
  capacity := 4
  roundsF := 8
  roundsP := 22
  diag := [0xc3b6c08e23ba9300,
    0xd84b5de94a324fb6,
    0xd0c371c5b35b84f,
    0x7964f570e7188037,
    0x5daf18bbd996604b,
    0x6743bc47b9595257,
    0x5528b9362c59bb70,
    0xac45e25b7127b68b,
    0xa2077d7dfbb606b5,
    0xf3faac6faee378ae,
    0xc6388b51545e883,
    0xd27dbb6944917b60]
  rc := [
    [0x13dcf33aba214f46,
     0x30b3b654a1da6d83,
     0x1fc634ada6159b56,
     0x937459964dc03466,
     0xedd2ef2ca7949924,
     0xede9affde0e22f68,
     0x8515b9d6bac9282d,
     0x6b5c07b4e9e900d8,
     0x1ec66368838c8a08,
     0x9042367d80d1fbab,
     0x400283564a3c3799,
     0x4a00be0466bca75e],
    [0x7913beee58e3817f,
     0xf545e88532237d90,
     0x22f8cb8736042005,
     0x6f04990e247a2623,
     0xfe22e87ba37c38cd,
     0xd20e32c85ffe2815,
     0x117227674048fe73,
     0x4e9fb7ea98a6b145,
     0xe0866c232b8af08b,
     0xbbc77916884964,
     0x7031c0fb990d7116,
     0x240a9e87cf35108f],
    [0x2e6363a5a12244b3,
     0x5e1c3787d1b5011c,
     0x4132660e2a196e8b,
     0x3a013b648d3d4327,
     0xf79839f49888ea43,
     0xfe85658ebafe1439,
     0xb6889825a14240bd,
     0x578453605541382b,
     0x4508cda8f6b63ce9,
     0x9c3ef35848684c91,
     0x812bde23c87178c,
     0xfe49638f7f722c14],
    [0x8e3f688ce885cbf5,
     0xb8e110acf746a87d,
     0xb4b2e8973a6dabef,
     0x9e714c5da3d462ec,
     0x6438f9033d3d0c15,
     0x24312f7cf1a27199,
     0x23f843bb47acbf71,
     0x9183f11a34be9f01,
     0x839062fbb9d45dbf,
     0x24b56e7e6c2e43fa,
     0xe1683da61c962a72,
     0xa95c63971a19bfa7],
    [0x4adf842aa75d4316,
     0x0,
     0x0,
     0x0,
     0x0,
     0x0,
     0x0,
     0x0,
     0x0,
     0x0,
     0x0,
     0x0],
    [0xf8fbb871aa4ab4eb,
     0x0,
     0x0,
     0x0,
     0x0,
     0x0,
     0x0,
     0x0,
     0x0,
     0x0,
     0x0,
     0x0],
    [0x68e85b6eb2dd6aeb,
     0x0,
     0x0,
     0x0,
     0x0,
     0x0,
     0x0,
     0x0,
     0x0,
     0x0,
     0x0,
     0x0],
    [0x7a0b06b2d270380,
     0x0,
     0x0,
     0x0,
     0x0,
     0x0,
     0x0,
     0x0,
     0x0,
     0x0,
     0x0,
     0x0],
    [0xd94e0228bd282de4,
     0x0,
     0x0,
     0x0,
     0x0,
     0x0,
     0x0,
     0x0,
     0x0,
     0x0,
     0x0,
     0x0],
    [0x8bdd91d3250c5278,
     0x0,
     0x0,
     0x0,
     0x0,
     0x0,
     0x0,
     0x0,
     0x0,
     0x0,
     0x0,
     0x0],
    [0x209c68b88bba778f,
     0x0,
     0x0,
     0x0,
     0x0,
     0x0,
     0x0,
     0x0,
     0x0,
     0x0,
     0x0,
     0x0],
    [0xb5e18cdab77f3877,
     0x0,
     0x0,
     0x0,
     0x0,
     0x0,
     0x0,
     0x0,
     0x0,
     0x0,
     0x0,
     0x0],
    [0xb296a3e808da93fa,
     0x0,
     0x0,
     0x0,
     0x0,
     0x0,
     0x0,
     0x0,
     0x0,
     0x0,
     0x0,
     0x0],
    [0x8370ecbda11a327e,
     0x0,
     0x0,
     0x0,
     0x0,
     0x0,
     0x0,
     0x0,
     0x0,
     0x0,
     0x0,
     0x0],
    [0x3f9075283775dad8,
     0x0,
     0x0,
     0x0,
     0x0,
     0x0,
     0x0,
     0x0,
     0x0,
     0x0,
     0x0,
     0x0],
    [0xb78095bb23c6aa84,
     0x0,
     0x0,
     0x0,
     0x0,
     0x0,
     0x0,
     0x0,
     0x0,
     0x0,
     0x0,
     0x0],
    [0x3f36b9fe72ad4e5f,
     0x0,
     0x0,
     0x0,
     0x0,
     0x0,
     0x0,
     0x0,
     0x0,
     0x0,
     0x0,
     0x0],
    [0x69bc96780b10b553,
     0x0,
     0x0,
     0x0,
     0x0,
     0x0,
     0x0,
     0x0,
     0x0,
     0x0,
     0x0,
     0x0],
    [0x3f1d341f2eb7b881,
     0x0,
     0x0,
     0x0,
     0x0,
     0x0,
     0x0,
     0x0,
     0x0,
     0x0,
     0x0,
     0x0],
    [0x4e939e9815838818,
     0x0,
     0x0,
     0x0,
     0x0,
     0x0,
     0x0,
     0x0,
     0x0,
     0x0,
     0x0,
     0x0],
    [0xda366b3ae2a31604,
     0x0,
     0x0,
     0x0,
     0x0,
     0x0,
     0x0,
     0x0,
     0x0,
     0x0,
     0x0,
     0x0],
    [0xbc89db1e7287d509,
     0x0,
     0x0,
     0x0,
     0x0,
     0x0,
     0x0,
     0x0,
     0x0,
     0x0,
     0x0,
     0x0],
    [0x6102f411f9ef5659,
     0x0,
     0x0,
     0x0,
     0x0,
     0x0,
     0x0,
     0x0,
     0x0,
     0x0,
     0x0,
     0x0],
    [0x58725c5e7ac1f0ab,
     0x0,
     0x0,
     0x0,
     0x0,
     0x0,
     0x0,
     0x0,
     0x0,
     0x0,
     0x0,
     0x0],
    [0xdf5856c798883e7,
     0x0,
     0x0,
     0x0,
     0x0,
     0x0,
     0x0,
     0x0,
     0x0,
     0x0,
     0x0,
     0x0],
    [0xf7bb62a8da4c961b,
     0x0,
     0x0,
     0x0,
     0x0,
     0x0,
     0x0,
     0x0,
     0x0,
     0x0,
     0x0,
     0x0],
    [0xc68be7c94882a24d,
     0xaf996d5d5cdaedd9,
     0x9717f025e7daf6a5,
     0x6436679e6e7216f4,
     0x8a223d99047af267,
     0xbb512e35a133ba9a,
     0xfbbf44097671aa03,
     0xf04058ebf6811e61,
     0x5cca84703fac7ffb,
     0x9b55c7945de6469f,
     0x8e05bf09808e934f,
     0x2ea900de876307d7],
    [0x7748fff2b38dfb89,
     0x6b99a676dd3b5d81,
     0xac4bb7c627cf7c13,
     0xadb6ebe5e9e2f5ba,
     0x2d33378cafa24ae3,
     0x1e5b73807543f8c2,
     0x9208814bfebb10f,
     0x782e64b6bb5b93dd,
     0xadd5a48eac90b50f,
     0xadd4c54c736ea4b1,
     0xd58dbb86ed817fd8,
     0x6d5ed1a533f34ddd],
    [0x28686aa3e36b7cb9,
     0x591abd3476689f36,
     0x47d766678f13875,
     0xa2a11112625f5b49,
     0x21fd10a3f8304958,
     0xf9b40711443b0280,
     0xd2697eb8b2bde88e,
     0x3493790b51731b3f,
     0x11caf9dd73764023,
     0x7acfb8f72878164e,
     0x744ec4db23cefc26,
     0x1e00e58f422c6340],
    [0x21dd28d906a62dda,
     0xf32a46ab5f465b5f,
     0xbfce13201f3f7e6b,
     0xf30d2e7adb5304e2,
     0xecdf4ee4abad48e9,
     0xf94e82182d395019,
     0x4ee52e3744d887c5,
     0xa1341c7cac0083b2,
     0x2302fb26c30c834a,
     0xaea3c587273bf7d3,
     0xf798e24961823ec7,
     0x962deba3e9a2cd94]]

/-- `BabyBear24Params`, `babybear.rs` 12-801. -/
def babyBear24 : Raw where
  T := 24
  D := 7
  capacity := 4
  roundsF := 8
  roundsP := 21
  diag := [0x409133f0,
    0x1667a8a1,
    0x6a6c7b6,
    0x6f53160e,
    0x273b11d1,
    0x3176c5d,
    0x72f9bbf9,
    0x73ceba91,
    0x5cdef81d,
    0x1393285,
    0x46daee06,
    0x65d7ba6,
    0x52d72d6f,
    0x5dd05e0,
    0x3bab4b63,
    0x6ada3842,
    0x2fc5fbec,
    0x770d61b0,
    0x5715aae9,
    0x3ef0e90,
    0x75b6c770,
    0x242adf5f,
    0xd0ca4c,
    0x36c0e388]
  rc := [
    [0xfa20c37,
     0x795bb97,
     0x12c60b9c,
     0xeabd88e,
     0x96485ca,
     0x7093527,
     0x1b1d4e50,
     0x30a01ace,
     0x3bd86f5a,
     0x69af7c28,
     0x3f94775f,
     0x731560e8,
     0x465a0ecd,
     0x574ef807,
     0x62fd4870,
     0x52ccfe44,
     0x14772b14,
     0x4dedf371,
     0x260acd7c,
     0x1f51dc58,
     0x75125532,
     0x686a4d7b,
     0x54bac179,
     0x31947706],
    [0x29799d3b,
     0x6e01ae90,
     0x203a7a64,
     0x4f7e25be,
     0x72503f77,
     0x45bd3b69,
     0x769bd6b4,
     0x5a867f08,
     0x4fdba082,
     0x251c4318,
     0x28f06201,
     0x6788c43a,
     0x4c6d6a99,
     0x357784a8,
     0x2abaf051,
     0x770f7de6,
     0x1794b784,
     0x4796c57a,
     0x724b7a10,
     0x449989a7,
     0x64935cf1,
     0x59e14aac,
     0xe620bb8,
     0x3af5a33b],
    [0x4465cc0e,
     0x19df68f,
     0x4af8d068,
     0x8784f82,
     0xcefdeae,
     0x6337a467,
     0x32fa7a16,
     0x486f62d6,
     0x386a7480,
     0x20f17c4a,
     0x54e50da8,
     0x2012cf03,
     0x5fe52950,
     0x9afb6cd,
     0x2523044e,
     0x5c54d0ef,
     0x71c01f3c,
     0x60b2c4fb,
     0x4050b379,
     0x5e6a70a5,
     0x418543f5,
     0x71debe56,
     0x1aad2994,
     0x3368a483],
    [0x7a86f3a,
     0x5ea43ff1,
     0x2443780e,
     0x4ce444f7,
     0x146f9882,
     0x3132b089,
     0x197ea856,
     0x667030c3,
     0x2317d5dc,
     0xc2c48a7,
     0x56b2df66,
     0x67bd81e9,
     0x4fcdfb19,
     0x4baaef32,
     0x328d30a,
     0x6235760d,
     0x12432912,
     0xa49e258,
     0x30e1b70,
     0x48caeb03,
     0x49e4d9e9,
     0x1051b5c6,
     0x6a36dbbe,
     0x4cff27a5],
    [0x1da78ec2,
     0x0,
     0x0,
     0x0,
     0x0,
     0x0,
     0x0,
     0x0,
     0x0,
     0x0,
     0x0,
     0x0,
     0x0,
     0x0,
     0x0,
     0x0,
     0x0,
     0x0,
     0x0,
     0x0,
     0x0,
     0x0,
     0x0,
     0x0],
    [0x730b0924,
     0x0,
     0x0,
     0x0,
     0x0,
     0x0,
     0x0,
     0x0,
     0x0,
     0x0,
     0x0,
     0x0,
     0x0,
     0x0,
     0x0,
     0x0,
     0x0,
     0x0,
     0x0,
     0x0,
     0x0,
     0x0,
     0x0,
     0x0],
    [0x3eb56cf3,
     0x0,
     0x0,
     0x0,
     0x0,
     0x0,
     0x0,
     0x0,
     0x0,
     0x0,
     0x0,
     0x0,
     0x0,
     0x0,
     0x0,
     0x0,
     0x0,
     0x0,
     0x0,
     0x0,
     0x0,
     0x0,
     0x0,
     0x0],
    [0x5bd93073,
     0x0,
     0x0,
     0x0,
     0x0,
     0x0,
     0x0,
     0x0,
     0x0,
     0x0,
     0x0,
     0x0,
     0x0,
     0x0,
     0x0,
     0x0,
     0x0,
     0x0,
     0x0,
     0x0,
     0x0,
     0x0,
     0x0,
     0x0],
    [0x37204c97,
     0x0,
     0x0,
     0x0,
     0x0,
     0x0,
     0x0,
     0x0,
     0x0,
     0x0,
     0x0,
     0x0,
     0x0,
     0x0,
     0x0,
     0x0,
     0x0,
     0x0,
     0x0,
     0x0,
     0x0,
     0x0,
     0x0,
     0x0],
    [0x51642d89,
     0x0,
     0x0,
     0x0,
     0x0,
     0x0,
     0x0,
     0x0,
     0x0,
     0x0,
     0x0,
     0x0,
     0x0,
     0x0,
     0x0,
     0x0,
     0x0,
     0x0,
     0x0,
     0x0,
     0x0,
     0x0,
     0x0,
     0x0],
    [0x66e943e8,
     0x0,
     0x0,
     0x0,
     0x0,
     0x0,
     0x0,
     0x0,
     0x0,
     0x0,
     0x0,
     0x0,
     0x0,
     0x0,
     0x0,
     0x0,
     0x0,
     0x0,
     0x0,
     0x0,
     0x0,
     0x0,
     0x0,
     0x0],
    [0x1a3e72de,
     0x0,
     0x0,
     0x0,
     0x0,
     0x0,
     0x0,
     0x0,
     0x0,
     0x0,
     0x0,
     0x0,
     0x0,
     0x0,
     0x0,
     0x0,
     0x0,
     0x0,
     0x0,
     0x0,
     0x0,
     0x0,
     0x0,
     0x0],
    [0x70beb1e9,
     0x0,
     0x0,
     0x0,
     0x0,
     0x0,
     0x0,
     0x0,
     0x0,
     0x0,
     0x0,
     0x0,
     0x0,
     0x0,
     0x0,
     0x0,
     0x0,
     0x0,
     0x0,
     0x0,
     0x0,
     0x0,
     0x0,
     0x0],
    [0x30ff3b3f,
     0x0,
     0x0,
     0x0,
     0x0,
     0x0,
     0x0,
     0x0,
     0x0,
     0x0,
     0x0,
     0x0,
     0x0,
     0x0,
     0x0,
     0x0,
     0x0,
     0x0,
     0x0,
     0x0,
     0x0,
     0x0,
     0x0,
     0x0],
    [0x4240d1c4,
     0x0,
     0x0,
     0x0,
     0x0,
     0x0,
     0x0,
     0x0,
     0x0,
     0x0,
     0x0,
     0x0,
     0x0,
     0x0,
     0x0,
     0x0,
     0x0,
     0x0,
     0x0,
     0x0,
     0x0,
     0x0,
     0x0,
     0x0],
    [0x12647b8d,
     0x0,
     0x0,
     0x0,
     0x0,
     0x0,
     0x0,
     0x0,
     0x0,
     0x0,
     0x0,
     0x0,
     0x0,
     0x0,
     0x0,
     0x0,
     0x0,
     0x0,
     0x0,
     0x0,
     0x0,
     0x0,
     0x0,
     0x0],
    [0x65d86965,
     0x0,
     0x0,
     0x0,
     0x0,
     0x0,
     0x0,
     0x0,
     0x0,
     0x0,
     0x0,
     0x0,
     0x0,
     0x0,
     0x0,
     0x0,
     0x0,
     0x0,
     0x0,
     0x0,
     0x0,
     0x0,
     0x0,
     0x0],
    [0x49ef4d7c,
     0x0,
     0x0,
     0x0,
     0x0,
     0x0,
     0x0,
     0x0,
     0x0,
     0x0,
     0x0,
     0x0,
     0x0,
     0x0,
     0x0,
     0x0,
     0x0,
     0x0,
     0x0,
     0x0,
     0x0,
     0x0,
     0x0,
     0x0],
    [0x47785697,
     0x0,
     0x0,
     0x0,
     0x0,
     0x0,
     0x0,
     0x0,
     0x0,
     0x0,
     0x0,
     0x0,
     0x0,
     0x0,
     0x0,
     0x0,
     0x0,
     0x0,
     0x0,
     0x0,
     0x0,
     0x0,
     0x0,
     0x0],
    [0x46b3969f,
     0x0,
     0x0,
     0x0,
     0x0,
     0x0,
     0x0,
     0x0,
     0x0,
     0x0,
     0x0,
     0x0,
     0x0,
     0x0,
     0x0,
     0x0,
     0x0,
     0x0,
     0x0,
     0x0,
     0x0,
     0x0,
     0x0,
     0x0],
    [0x5c7b7a0e,
     0x0,
     0x0,
     0x0,
     0x0,
     0x0,
     0x0,
     0x0,
     0x0,
     0x0,
     0x0,
     0x0,
     0x0,
     0x0,
     0x0,
     0x0,
     0x0,
     0x0,
     0x0,
     0x0,
     0x0,
     0x0,
     0x0,
     0x0],
    [0x7078fc60,
     0x0,
     0x0,
     0x0,
     0x0,
     0x0,
     0x0,
     0x0,
     0x0,
     0x0,
     0x0,
     0x0,
     0x0,
     0x0,
     0x0,
     0x0,
     0x0,
     0x0,
     0x0,
     0x0,
     0x0,
     0x0,
     0x0,
     0x0],
    [0x4f22d482,
     0x0,
     0x0,
     0x0,
     0x0,
     0x0,
     0x0,
     0x0,
     0x0,
     0x0,
     0x0,
     0x0,
     0x0,
     0x0,
     0x0,
     0x0,
     0x0,
     0x0,
     0x0,
     0x0,
     0x0,
     0x0,
     0x0,
     0x0],
    [0x482a9aee,
     0x0,
     0x0,
     0x0,
     0x0,
     0x0,
     0x0,
     0x0,
     0x0,
     0x0,
     0x0,
     0x0,
     0x0,
     0x0,
     0x0,
     0x0,
     0x0,
     0x0,
     0x0,
     0x0,
     0x0,
     0x0,
     0x0,
     0x0],
    [0x6beb839d,
     0x0,
     0x0,
     0x0,
     0x0,
     0x0,
     0x0,
     0x0,
     0x0,
     0x0,
     0x0,
     0x0,
     0x0,
     0x0,
     0x0,
     0x0,
     0x0,
     0x0,
     0x0,
     0x0,
     0x0,
     0x0,
     0x0,
     0x0],
    [0x32959ad,
     0x2b18af6a,
     0x55d3dc8c,
     0x43bd26c8,
     0xc41595f,
     0x7048d2e2,
     0xdb8983,
     0x2af563d7,
     0x6e84758f,
     0x611d64e1,
     0x1f9977e2,
     0x64163a0a,
     0x5c5fc27b,
     0x2e22561,
     0x3a2d75db,
     0x1ba7b71a,
     0x34343f64,
     0x7406b35d,
     0x19df8299,
     0x6ff4480a,
     0x514a81c8,
     0x57ab52ce,
     0x6ad69f52,
     0x3e0c0e0d],
    [0x48126114,
     0x2a9d62cc,
     0x17441f23,
     0x485762bb,
     0x2f218674,
     0x6fdc64a,
     0x861b7f2,
     0x3b36eee6,
     0x70a11040,
     0x4b31737,
     0x3722a872,
     0x2a351c63,
     0x623560dc,
     0x62584ab2,
     0x382c7c04,
     0x3bf9edc7,
     0xe38fe51,
     0x376f3b10,
     0x5381e178,
     0x3afc61c7,
     0x5c1bcb4d,
     0x6643ce1f,
     0x2d0af1c1,
     0x8f583cc],
    [0x5d6ff60f,
     0x6324c1e5,
     0x74412fb7,
     0x70c0192e,
     0xb72f141,
     0x4067a111,
     0x57388c4f,
     0x351009ec,
     0x974c159,
     0x539a58b3,
     0x38c0cff,
     0x476c0392,
     0x3f7bc15f,
     0x4491dd2c,
     0x4d1fef55,
     0x4936ae3,
     0x58214dd4,
     0x683c6aad,
     0x1b42f16b,
     0x6dc79135,
     0x2d4e71ec,
     0x3e2946ea,
     0x59dce8db,
     0x6cee892a],
    [0x47f07350,
     0x7106ce93,
     0x3bd4a7a9,
     0x2bfe636a,
     0x430011e9,
     0x1cd66a,
     0x307faf5b,
     0xd9ef3fe,
     0x6d40043a,
     0x2e8f470c,
     0x1b6865e8,
     0xc0e6c01,
     0x4d41981f,
     0x423b9d3d,
     0x410408cc,
     0x263f0884,
     0x5311bbd0,
     0x4dae58d8,
     0x30401cea,
     0x9afa575,
     0x4b3d5b42,
     0x63ac0b37,
     0x5fe5bb14,
     0x5244e9d4]]

end Verif.Poseidon.Instances
