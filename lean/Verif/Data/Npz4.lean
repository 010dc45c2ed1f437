import Verif.Data.Fits4
import Verif.Lemmas.NpzScan

/-! Copy of /repo/bfit/data/kl_fpi_results.npz and kl_slsqp_results.npz, generated by tools/gendata.py. -/

namespace BFit.Data

/-- `tc` in `data/kl_fpi_results.npz`. -/
noncomputable def fpiN_tc : NEntry := ⟨chars! "tc", 32, 22, [
  0x3e5fb8786b2084c0, 0x3e71ba7a5a372618, 0x3e7433a4f1ea4ebf, 0x3eb9e22800264362, 0x3ef7952a34c1df43, 0x3f218af7ecb855b3,
  0x3f408bc5193a2a6f, 0x3f557f3d6ef65985, 0x3f479d6b369d35f1, 0x3f5bb2fc53cef289, 0x3f696cad05622773, 0x3f8616ac1a913edf,
  0x3fa14b97afe71d7e, 0x3fb35d1ab0e21331, 0x3fc2374936b91945, 0x3fcac2cd0e8dc13c, 0x3fd02a4e37637a5d, 0x3fd753ccb1db88d1,
  0x3fe630ab17a8285a, 0x3ff0b358d45f0347, 0x3ff0c7fe710fa2f8, 0x3ff33982fb9e9fe1, 0x4001bbccb4b03287, 0x4003cc13382f2175,
  0x3ffc1249b4b97776, 0x3ff5e3cce9b1cc74, 0x3ffcdd8b698d0c05, 0x3ffacf94e53f2a87, 0x3ff38b80821cc568, 0x3fec628bc7f97c64,
  0x3fea3a6b9c5cfe7b, 0x3fbd99bde406fd0b, 0x3f6b8dd0174d9004, 0x3f7fa7a96843f989, 0x3f946535b6b64163, 0x3fa8556123d34f3d,
  0x3fb602ac5c5197d4, 0x3fc11494d6ccac73, 0x3fcda84c36783b52, 0x3fd19d5938668589, 0x3fd16b71f29a2c82, 0x3fe4ef70dc3073ef,
  0x3ff172d3396d5fd8, 0x3ff7c0f1c3def524, 0x3fe53b9cfed1aa15, 0x4006efe2b1493763, 0x400d9d4627dcf40b, 0x40085c21d767681a,
  0x3ff42d02f81e87f5, 0x4005a0cb64783ef4, 0x400203adeb87cd58, 0x3ff6d3ed846c45b0, 0x3fe82c62ec78b4dc, 0x3fe315a09f686b63], [
  0x416a79950c088eff, 0x416a79950b3a3721, 0x416a79950a7eecda, 0x41079544bb2f52c3, 0x41079544bb2b2ee0, 0x41079544bb29c018,
  0x41079544bb285339, 0x41079544bb243419, 0x40f2104521513b40, 0x40f21002e9c3c33f, 0x40c671f885931fe5, 0x40c037154a86c0ca,
  0x40b783c7df5e3247, 0x40acc3331f234ea4, 0x40a1fe2766b5d464, 0x4096d9464ebf6f74, 0x408af2820d5ccb3b, 0x406fb308f58d8567,
  0x4061fd81dbadffba, 0x4059f7b3ad9e0193, 0x4056808db2a618f7, 0x402d5496bc158df4, 0x4024d561e8532eb5, 0x4023ee41b595bf51,
  0x4023316c8c3ccecb, 0x3ff4bb1c077ee4b1, 0x3fee55d7359f8881, 0x3fe74e2800acc1a1, 0x3fdf297f15b6bf8f, 0x3fcb07e3f3f8958c,
  0x3fb62e84ddc6000c, 0x3faa0a253afa0bf4, 0x40f543827641d517, 0x40f54382764103bc, 0x40d731ad61147307, 0x40d731768a0c1921,
  0x40c1b03746d33619, 0x40b628db75f37f7a, 0x40a7823b02c4867c, 0x409b13f6b802815b, 0x408bdaaf9f2c4eeb, 0x407189b4ec0eab12,
  0x4065155ed8b8ef5a, 0x405c54c17ec4678f, 0x405962dc522899bd, 0x4036af5140a627cd, 0x40300762ee001a25, 0x4028768c153fba8f,
  0x400364316c0bfe94, 0x400291c023b5cc51, 0x3ffc5a1289d9dcc3, 0x3fef874a0eda9e25, 0x3fd770442ca60464, 0x3fc5d4e588e26d80]⟩

/-- `tc` in `data/kl_slsqp_results.npz`. -/
noncomputable def slsqpN_tc : NEntry := ⟨chars! "tc", 32, 22, [
  0x3e7d7d6fd12aaf01, 0x3e95eb9721fff9ad, 0x3d719799a1c44600, 0x3d719799812dea11, 0x3d719799812dea11, 0x3d719799812dea11,
  0x3f4d7ede437f6691, 0x3d7197b78102dade, 0x3d7197998dbf9511, 0x3d719799812dea11, 0x3fc4aa534830854a, 0x3d719799812dea11,
  0x3d7197ab80b1b944, 0x3d7197cc0f643bf8, 0x3d719799812dea11, 0x3d7197e0e46be151, 0x3fe0670a3648365d, 0x3fd4bbc3ed45f473,
  0x40052d6faad7c68e, 0x3f88d983f8951e13, 0x3fb68fe260a731cf, 0x3fc906e1b9d9256b, 0x3fffa43cbf8cf04d, 0x40014f9808cbedb6,
  0x3ff3ff0ee051b08f, 0x3ff52254407d2381, 0x3ff178cee22e63a6, 0x3ff685c4c3b874a7, 0x3fb032d39cfcdb71, 0x3f8b0e651e6669f0,
  0x3fc02c99b2682f15, 0x3f63d91224cf2e51, 0x3d71979981000000, 0x3f684b4b1f4c4510, 0x3d71979a24c14af9, 0x3d71979a3dfabf62,
  0x3fb59193ea156772, 0x3fce8e010a62ec4d, 0x3fd66ca1c9940a7f, 0x3fd142e8ebd147cc, 0x3fb41a5b563c30fc, 0x3fcc5d28db203ca3,
  0x3ff4a7fad10c10ab, 0x3fea602118958d6b, 0x3fffc00bce2d34a8, 0x4015efef691334e9, 0x3fdbacade96104d0, 0x4017a4ffc543ebaf,
  0x40000c5257c35a96, 0x400bb0ab60d63662, 0x401407e1bfd37740, 0x3ffcc7bf2fdfc0dd, 0x3fb6d9068605e78e, 0x3fbabfa8a8beb4d0], [
  0x416a79950c088eff, 0x416a79950b3a3721, 0x416a79950a7eecda, 0x41079544bb260f84, 0x41079544bb7408f8, 0x41079544bb27449e,
  0x41079544bb328139, 0x41079544bb095696, 0x40f2104521513755, 0x40f21002e9c3bedc, 0x40c671fad3b1ed21, 0x40c0371548b27972,
  0x40b783c7d897d59d, 0x40acc33324b6fd98, 0x40a1fe279c18f5f6, 0x4096d946a062c8cf, 0x408af25f40975611, 0x406fb274d9031b67,
  0x4062061937f96b1c, 0x4059f6521a519b00, 0x405662b30a1cfa7c, 0x402d4ccd447cf936, 0x40264ea79a23190f, 0x4026bdb7c6389799,
  0x402651123c5df6f8, 0x3fbef22fe3bd4642, 0x3fc83206f8e4cc9f, 0x3fd6aae5a98831db, 0x3fa93556903f77bf, 0x3fcfb376468e8c49,
  0x3fb0cbe80f6cf3ce, 0x3fa089249cefc4b1, 0x40f543827d8ace21, 0x40f54382762c16a4, 0x40d731ad6120e05a, 0x40d731768a3bb224,
  0x40c1b0362a1c0385, 0x40b628dc05774456, 0x40a782347cee4700, 0x409b13f7d23ad362, 0x408bda9559896526, 0x407187156bd750d2,
  0x40652d67dc50f497, 0x405c405abcba4470, 0x4058aa856805cc17, 0x4035278864edf537, 0x4030bca613b32c6a, 0x4027db514319e97a,
  0x4004524141d52a5d, 0x4004237f759f932b, 0x3ff7801bca288be0, 0x3feac580d1fdce7f, 0x3fb68321898dcd25, 0x3fbad3d3dd5a7d31]⟩

theorem npz_tc_ok : (npzOk fpi_tc fpiN_tc && npzOk slsqp_tc slsqpN_tc) = true := by
  decide +kernel

/-- `ru` in `data/kl_fpi_results.npz`. -/
noncomputable def fpiN_ru : NEntry := ⟨chars! "ru", 31, 22, [
  0x3f035ecf9a087364, 0x3ee997175a288a2f, 0x3ef56a46a619ffec, 0x3f0a09d3280aed0a, 0x3f132d36d5648a35, 0x3f2ca57718e50e8c,
  0x3f3c61630fa85a23, 0x3f404e2f4f9edbab, 0x3f537a3b0e65799c, 0x3f6a8cef4f6db365, 0x3f887315812eb4f8, 0x3fa2b15aebab0730,
  0x3fb46670d8770334, 0x3fc2decdd07f93b0, 0x3fcb57694fdc165b, 0x3fd019cad3f46563, 0x3fd999356c762230, 0x3fe88f2d53a2de94,
  0x3ff24e3344f3a797, 0x3ff1d5d358514feb, 0x3ff4a1bd770672dc, 0x4001c0463cee9b31, 0x4002df63eacb0fe1, 0x3ff7ef584f4357ae,
  0x3ff6f0cd51ee54c0, 0x3ffe3753825c9c4c, 0x3ffc7f8683f4ad2b, 0x3ff504934ae24b2b, 0x3ff05b87d363e897, 0x3fe781e79de082ee,
  0x3fbd3c26c443c5e2, 0x3f515b294b0c5859, 0x3f6eb5934c59b5cc, 0x3f80223eda8aed7d, 0x3f951609fa4376e0, 0x3fa79f45e098b374,
  0x3fb87dda74448788, 0x3fc18c5805f6f60a, 0x3fce569dd5a46d26, 0x3fd1ccd5dcd04c36, 0x3fd05461a83ea365, 0x3fe8f9a6284189f2,
  0x3ff34552e9955221, 0x3ffa2e1ba52f633c, 0x3fdc273651e3fd28, 0x40078370c48466f2, 0x400db9889d87174f, 0x400664d8bc681e1d,
  0x3ffc4627a2d4e7fc, 0x4008fc109069ef0a, 0x4002b69d5a16b883, 0x3ff8cc8ecaab308b, 0x3fe98fc97f2b2bc3], [
  0x41297ff91f7960f1, 0x41297ff915509638, 0x41297ff873410df4, 0x41297fe326724eba, 0x4111925013b837f5, 0x41117467aa7cc142,
  0x4111687f47a86df2, 0x40f2d6a3682a752d, 0x40f2d6938f0fa6eb, 0x40c73a19eb3e765d, 0x40bf6ec133c516c3, 0x40b8202f9a644112,
  0x40ad46fba3a0e054, 0x40a243a88ad6ddd1, 0x40971dd4bc9a03f2, 0x408bbc18f1fd752f, 0x406dc0ac6308a8cb, 0x4061aaef6a76c648,
  0x4059f18cfa966d36, 0x4056dbdf43277068, 0x402be418199d9820, 0x40269bf02f66ea64, 0x4025fc3e95d26136, 0x402541e756bd19fe,
  0x3ff448092211cdac, 0x3fedf91d1743e7d5, 0x3fe6d044bc65b50c, 0x3fdf18c0013adf20, 0x3fc89759637ec93d, 0x3fba0deefa45f8de,
  0x3fab8d3776e6beb8, 0x41148de74e451189, 0x40f6fec49cc4fdd1, 0x40f6fec49cbf6f97, 0x40d88a2fa4a1c93d, 0x40d889c304f07929,
  0x40c264d39c22b848, 0x40b5d0ea98d259e7, 0x40a7ae45fd5d8f55, 0x409ac5b24ca285d5, 0x408b5e30df273f34, 0x40717cfb2702e591,
  0x4063c482c3f143cc, 0x405c249eef61622c, 0x403b636d7c4f32a8, 0x4037a0e4b43dcb6c, 0x40301d466c60f763, 0x402ab6e243176432,
  0x4004102df441bab3, 0x4003bd172f272783, 0x3ffb5412d260a6d2, 0x3fef5b2ba5613325, 0x3fdb3af8a5a94e1e]⟩

/-- `ru` in `data/kl_slsqp_results.npz`. -/
noncomputable def slsqpN_ru : NEntry := ⟨chars! "ru", 31, 22, [
  0x3d719800109d61c7, 0x3d7197c4122e4025, 0x3d719799835f997d, 0x3f12e75950aae647, 0x3f3002b837d0c814, 0x3d719799812dea11,
  0x3d719799934ccb85, 0x3d71979a701454fe, 0x3d7197998986e2b3, 0x3fb79ddd1b68b33f, 0x3d7197bbab4195a7, 0x3fca322424cf7dcb,
  0x3d7198637577f911, 0x3d719799ee35132b, 0x3d71a8bfe700ade3, 0x3fd256aecb0b016d, 0x3d7198fd0cecf4ba, 0x3fe6ccb73aed32df,
  0x3d7197c923dd5ebc, 0x4015fc5f5d2c10ad, 0x3fc442be7cfc3198, 0x3ffe41762732105d, 0x3fff86d6aeb6c4cf, 0x3feb0a254ba5d36e,
  0x3fdff1a62078acce, 0x3ff6f7433ed96eea, 0x3fefb9df770fd187, 0x3fb812963676ff91, 0x3fc59eca1e08405e, 0x3f720871419f4245,
  0x3ec0b6c8044d6c41, 0x3f3f5ab7182c679b, 0x3d71b05a72ce5013, 0x3f6a226a4f74b573, 0x3d719799812dea11, 0x3d7197998145bbcd,
  0x3f8e5060a1623440, 0x3fcc14a97296adc3, 0x3fd914f181e7674b, 0x3fd73da2024c5535, 0x3fc8f6fb0b5c5f41, 0x3fdebe97180b4162,
  0x3fe6c20546a28063, 0x3d719799812dea11, 0x3d71979a0c0407a8, 0x4016dcac0aeb6a2f, 0x3fb05a0b90f86c3c, 0x401ac5e5872d2781,
  0x4003908de22a4a8c, 0x400e650076212554, 0x40160264f797ba2d, 0x40011841f1be87f5, 0x3fda70b963b27058], [
  0x41297ff91f7d14b6, 0x41297ff9154fca54, 0x41297ff87340f679, 0x41297fe32673662f, 0x4111925013bba566, 0x41117467aa7c2dc8,
  0x4111687f47a86f65, 0x40f2d6a3682a769f, 0x40f2d6938f0fd525, 0x40c73a1bf6a80c55, 0x40bf6ec133467554, 0x40b8202a54917c0c,
  0x40ad46fbb882e56f, 0x40a243a31e74394b, 0x40971dd25b283366, 0x408bbc168530199d, 0x406dc04927ef29a8, 0x4061b6e19e3476ad,
  0x4059de1f7137298e, 0x4055f2807a25b4c5, 0x402b18e221b8ebdc, 0x402884c49fd1d5dc, 0x40292882a910eaa8, 0x4028acb8c59db149,
  0x3fbabe0c0e6a1795, 0x3fd47826587ef9d9, 0x3fd43ea805029d64, 0x3facb188c8a83ce3, 0x3fb47286712f2991, 0x3fa1fe210b26066e,
  0x3d719805d94785be, 0x41148de74e4a1a7c, 0x40f6fec49dfc845f, 0x40f6fec48fa07422, 0x40d88a2fa4ccb729, 0x40d889c3057b48a2,
  0x40c264d3320e4b1e, 0x40b5d0f174d68f3f, 0x40a7ae378790c052, 0x409ac5c0809f16f7, 0x408b5dda0df0804f, 0x407166cc7db2a7d5,
  0x4063fd26b020782b, 0x405b47b8dc7309d5, 0x403a35d48be24efa, 0x4036db08fbaecc6e, 0x402a5b3ba51f763a, 0x402a5973a7c1bb98,
  0x40050ca53d7ad87a, 0x4004f83963e2a000, 0x3ff7899349d127f9, 0x3fe9aec6aad8a63b, 0x3fca7423015d30ea]⟩

theorem npz_ru_ok : (npzOk fpi_ru fpiN_ru && npzOk slsqp_ru slsqpN_ru) = true := by
  decide +kernel

/-- `rh` in `data/kl_fpi_results.npz`. -/
noncomputable def fpiN_rh : NEntry := ⟨chars! "rh", 32, 21, [
  0x3e50520e537f88e1, 0x3e64421bbce237f7, 0x3e6b7b4f92558506, 0x3ec16054a081aa5e, 0x3ef9c25e7abd2fff, 0x3f21922c65d64845,
  0x3f3f2e7561d02365, 0x3f521e587d17be82, 0x3f49928719af2fff, 0x3f58e3a3ea4fa51d, 0x3f6a9ad84d5b4442, 0x3f8ae15279139fba,
  0x3fa4216a2c8d0804, 0x3fb57b5e15c26050, 0x3fc3788a1334f61d, 0x3fcc04aece33dd46, 0x3fd025b4f396e931, 0x3fda1301eff41c0e,
  0x3fe8c4b0829fb5b6, 0x3ff22b385fa62a92, 0x3ff115bf1fc9407c, 0x3ff74fed99dd9a7e, 0x40025e056346b9e3, 0x400282be137776f1,
  0x3ff295bc6e3ecc75, 0x3ff851b0b8e805cf, 0x3fff32db3a16cd91, 0x3ffcc3f7d881bb6f, 0x3ff4eeb955a3810a, 0x3fefefefce32acdb,
  0x3fe64e5a9c072336, 0x3fbbf68689b20c85, 0x3f7238b318aa07ea, 0x3f776ba952b150d1, 0x3f965437fc53e0c8, 0x3fa59692249926e5,
  0x3fbbce3d2ddc0f8a, 0x3fc220867e773dfa, 0x3fcec0e1fa8c40ce, 0x3fd23d5e7a332af4, 0x3fce81f7eff6b92b, 0x3fe96506d6a8dc6c,
  0x3ff3895a45fb8e94, 0x3ff96239b010c602, 0x3fed03b36596f56f, 0x4007a91654f3a003, 0x400da89787e64da7, 0x4003df2ca0de8bff,
  0x400214b54f1fe486, 0x400c3bfaa94cbadf, 0x4003454da5f93c93, 0x3ff855044a90f2cd, 0x3fe8d512770fca8f], [
  0x4173043773bf70ad, 0x4173043771e756b9, 0x4173043770403a5e, 0x410bf63eedd0fbcd, 0x410bf63eedce4215, 0x410bf63eedcd3c57,
  0x410bf63eedcbe9c2, 0x410bf63eedc0cbb8, 0x40f519d73e8f4f9e, 0x40f519c472df0276, 0x40c8ed2247ef350b, 0x40be9586f281ff3b,
  0x40b8afae904c8399, 0x40add6df31793153, 0x40a295bb0ae5d657, 0x409713c5a81fe6c3, 0x408cd3a891d3a3ca, 0x406e8127bf57e004,
  0x40619ea437767bec, 0x405aa785eb5c6048, 0x40574128398f186c, 0x402d95bdcefcc0df, 0x40294fe98f1eb9f4, 0x4028a027a0aa9b42,
  0x402781b8e719fae9, 0x3ff3e5ef87d6eadf, 0x3fee97cba8d606a5, 0x3fe75925feaa3758, 0x3fdfb70147ca64d3, 0x3fc94ed257569477,
  0x3fb9e597945688a0, 0x3fab5c25c004d194, 0x40f8e990b2e6ca8e, 0x40f8e990b2e63faf, 0x40dadac8d7ee53fc, 0x40dada4e52291cbe,
  0x40c362fe15f77ff0, 0x40b54685a0f320e5, 0x40a8029b9a51b299, 0x409a545f7793adf4, 0x408ac193ed1ce4c9, 0x40729dc2ba48ac4e,
  0x406507a54b61b280, 0x405e252a66dd5624, 0x403be955afe501cc, 0x4037c7bac240208e, 0x402fe9ca337288d3, 0x402d7a7150368bb6,
  0x4005247341da26a0, 0x4004f139504f2294, 0x3ffb994496257dd2, 0x3ff068d841de6842, 0x3fdd0ea66a4425c6]⟩

/-- `rh` in `data/kl_slsqp_results.npz`. -/
noncomputable def slsqpN_rh : NEntry := ⟨chars! "rh", 32, 21, [
  0x3e76969818ed1dc0, 0x3e84bcf3f3a9cfb2, 0x3e74e33c495f43c7, 0x3d7197ac7f9af011, 0x3f4ab1fa188fb0db, 0x3d7197ecf8de4e11,
  0x3d719799812dea11, 0x3d71994267620a66, 0x3d719799812dea11, 0x3d719799812dea11, 0x3fb0f021f808b9ca, 0x3d7197d40a9cffd7,
  0x3fd2b1bcf96c5274, 0x3d719799812dea11, 0x3d719799812dea11, 0x3d7197a81cd5cc11, 0x3fa659b2fec7d6f7, 0x3d719877879f1811,
  0x3fdd94ab806f3521, 0x3d719799812dea11, 0x4015e51c86afd990, 0x3ff098bc66d2f892, 0x3ff5e2d3b93abf16, 0x3ff51b42c22e5541,
  0x3d719799812dea11, 0x3fe0c8cf812cd088, 0x3ff602db64bb7de8, 0x3fe7bb6d8ead7f07, 0x3fc4f486f64ef90c, 0x3fb16a53ac589e82,
  0x3faf9f068498b2be, 0x3f6fc127ee7c3eec, 0x3f4b2ad376a5db0e, 0x3f624e8b6de141f3, 0x3d71979ab9ece7ae, 0x3d71979ee3791a11,
  0x3d7197a20163aa11, 0x3fccf0c629036413, 0x3fdb79bdf177528e, 0x3fdf66404625002d, 0x3fd2a4ed10490d54, 0x3fe3546570bf06b1,
  0x3fec86e75a4e9501, 0x3d719799812dea11, 0x3fe3b170c3e8117a, 0x401417d1a4518f27, 0x4011b7b120a102e9, 0x400b5587511bd481,
  0x400703fa07b1de44, 0x4010a12c45b85163, 0x40179d8cf5720b38, 0x40020267b31d4b12, 0x3fd8d00be7f891c1], [
  0x4173043773bf70ad, 0x4173043771e756b9, 0x4173043770403a5e, 0x410bf63eede48996, 0x410bf63eede3a2f5, 0x410bf63eef550980,
  0x410bf63eedd44477, 0x410bf63eedc3d841, 0x40f519d73e8f55af, 0x40f519c472df0c93, 0x40c8ed2dc6002e81, 0x40be9586f18a78c2,
  0x40b8af9356c121e5, 0x40add6df3a3e2d1e, 0x40a295ba8f29bdf0, 0x40971401eb7abead, 0x408cd2f581687672, 0x406e80af0c610a39,
  0x40619f1319d724b3, 0x405a953b05568faf, 0x4056aca152d41e07, 0x402c22c27511a2ff, 0x402c5bd924405a66, 0x402be3fb99f8bb12,
  0x4029d68ea2dfe578, 0x3fb8829467a40052, 0x3fd420a655191baa, 0x3fd445d9eb9182b2, 0x3fd4d86191c9c408, 0x3fabd468fb944929,
  0x3fb0b33d750be0e1, 0x3fa1b04d0d1c1a02, 0x40f8e99074f22afe, 0x40f8e9900c8c342b, 0x40dadac8d9d86cec, 0x40dada4e53062c5c,
  0x40c362fe0ec4e692, 0x40b546bb2c574091, 0x40a802bcd5a3c51b, 0x409a55140a35a0c9, 0x408ac229d8eed80d, 0x40727d7bce99e75a,
  0x406586b122be0c47, 0x405dbb436e16bb3d, 0x40399c97a2d4c457, 0x403905dc3681d7f4, 0x402d0e187c0d9484, 0x402d19085dda6c37,
  0x400618ec8b924973, 0x40061ba05ce17f82, 0x3ff83e83dbd55953, 0x3fe9ede0ef83538a, 0x3fc980c169c1e360]⟩

theorem npz_rh_ok : (npzOk fpi_rh fpiN_rh && npzOk slsqp_rh slsqpN_rh) = true := by
  decide +kernel

/-- `pd` in `data/kl_fpi_results.npz`. -/
noncomputable def fpiN_pd : NEntry := ⟨chars! "pd", 29, 22, [
  0x3e6d0787c0ddb9f1, 0x3e55120e771f5763, 0x3ea090de7f42e2d8, 0x3edfbc8d78d52df1, 0x3f090d0d9ba2b55b, 0x3f28c735a57540b0,
  0x3f413893eb74ab56, 0x3f4d38b7cea19886, 0x3f4be4503989f414, 0x3f5ad9d1961587aa, 0x3f692b9084fdee70, 0x3f8bcba8a1074cde,
  0x3fa4ebe552f80bd3, 0x3fb640304744abbd, 0x3fc4048796301a62, 0x3fccbeb3b7b5c387, 0x3fd0596e58060425, 0x3fdae8b8ae50b7da,
  0x3fe9528995e086f3, 0x3ff2167982ebc727, 0x3feff4182f613135, 0x3ffb36ef60aa11b9, 0x4004038ed90618a7, 0x4003359eef3cc012,
  0x3fdb7312b05c8e8f, 0x3ffb2d9f7ff19da2, 0x4001f0acc6ee0d5a, 0x4000bb09eea5cce1, 0x3ff4e0059532f227, 0x3f5ef4b6d573aabb,
  0x3f80eb1e565e064c, 0x3f7080cb341cdaa0, 0x3f979e02456bd93a, 0x3fa3e249adb77d56, 0x3fbecc4dd959fd50, 0x3fc2b0b3461885a4,
  0x3fcf83da04de28e1, 0x3fd2ccca2d07ed25, 0x3fcc48eff7d450dc, 0x3feaccbe1fac75b2, 0x3ff3f49f45983cc2, 0x3ff8869cb2eadd71,
  0x3ff597ba0611f645, 0x40095bf2ab46bdac, 0x400ee4ac777238ab, 0x400248f2099cc894, 0x40076765503995d9, 0x40116fecbd8d60b5,
  0x40087c53cb41d6fa, 0x3ffb87bf9671bf85, 0x3fa9dde7ad6b3613], [
  0x41780fa08d8e97fa, 0x41780fa08bf9d3b4, 0x410e0d0ba17e7a0d, 0x410e0d0ba17e692c, 0x410e0d0ba17e631f, 0x410e0d0ba17e5dde,
  0x410e0d0ba17e53ad, 0x410e0d0ba17b8db2, 0x40f649b677ea1533, 0x40f649b48ad3165f, 0x40c8ee047551ab94, 0x40bdad99504b18d8,
  0x40b89cb78f352f6b, 0x40adb755e0320b8f, 0x40a2bca02f7f1df5, 0x4096d6219763dfc3, 0x408dc8521db52662, 0x406e8c4c58cddb50,
  0x4061eccfb57b2351, 0x405bf1f6ef20ddfa, 0x4057848ddffc818c, 0x402fb283b3d4336a, 0x402c192c7f119647, 0x402b587459aeb8e4,
  0x3ffb2c4d89b34ba6, 0x3ff14d6dfebc72e4, 0x3fed3a9df87b249e, 0x3fe78b47e9e9ec4c, 0x3fcc32b4cd9e86d4, 0x40fa567099081732,
  0x40fa5670990815f2, 0x40dc2baf69e4615d, 0x40dc2baa737beb58, 0x40dc2b5ea5b2cb0c, 0x40c3e44f3bd3ff96, 0x40b513c39c7dab71,
  0x40a84a42787645d2, 0x4099a756355d9896, 0x40893558e67ce554, 0x407343f44d6cb0ea, 0x4065b5c426197cc8, 0x405fd370d22b81b0,
  0x403eb9c840c54fe9, 0x403737f3693a8dec, 0x4030764484d1a9a1, 0x402f9d725883a336, 0x400584339e76ea22, 0x400568494cd4696c,
  0x3ff5fea1479e47b6, 0x3fe266758ed9d504, 0x3fbf7fe0180edc78]⟩

/-- `pd` in `data/kl_slsqp_results.npz`. -/
noncomputable def slsqpN_pd : NEntry := ⟨chars! "pd", 29, 22, [
  0x3d719799812dea11, 0x3e8c377689b25827, 0x3d7228c78944ccde, 0x3f434b940fc3651b, 0x3d72392714e9910a, 0x3d724000e1e6c332,
  0x3f2832f92268d491, 0x3f24c1a9781f194d, 0x3d719799812dea11, 0x3d71979cb506ca87, 0x3fac79aa75cc94de, 0x3d719799812dea11,
  0x3fd20225e57dbf83, 0x3d719805f8eec4ec, 0x3d719799812dea11, 0x3fd650b43482c752, 0x3fc0e5761fe8f37b, 0x3fcedb6d69d6da22,
  0x3d719799812dea11, 0x3d7197e228cf215b, 0x40153b314879657b, 0x3fd4b2e444dfb439, 0x3fe37f4b028c7e72, 0x3fe068d1a97b74cf,
  0x3d719799812dea11, 0x3fdb2af25663fad2, 0x400343c63d38004e, 0x4003054c34606b46, 0x3ffbbbf35fdbedf8, 0x3d719b781b4e1027,
  0x3f70bb85cf892c3c, 0x3f76715a4fb7a12b, 0x3d719799812dea11, 0x3d719799812dea11, 0x3d7197e766bd6256, 0x3fc83ca15a2d1396,
  0x3fd4530a7349a8d5, 0x3fd30d9092fc1e13, 0x3fd19db5b6ec6549, 0x3fe7d21c9a417838, 0x3ff61168fad77f20, 0x3d719799812dea11,
  0x40097b3c01c9fca3, 0x4003e38a91c7c427, 0x401660ab8886c80c, 0x4010325553613b47, 0x40087c3d8792b001, 0x40123241bd94e0a8,
  0x40145e61db264fac, 0x3f8b58825711f593, 0x3f325192e45898e9], [
  0x41780fa08d8e97fa, 0x41780fa08bf9d3b4, 0x410e0d0ba18b20f4, 0x410e0d0ba1d24901, 0x410e0d0ba1956613, 0x410e0d0ba18e06de,
  0x410e0d0ba182f7d0, 0x410e0d0ba17dda2f, 0x40f649b677ea0feb, 0x40f649b48ad31060, 0x40c8ee0788f5fb3b, 0x40bdad99503c3812,
  0x40b89cb49a94dc08, 0x40adb756481ebad8, 0x40a2bca065929e07, 0x4096d67f2be6ca6f, 0x408dc759087d1c8d, 0x406e8bc73227c202,
  0x4061eefc8f9a42c7, 0x405bdfd9977248ec, 0x40567bb2b436c035, 0x402f7825e8fe9989, 0x402ef7be3cbd0f79, 0x403016f492baa56a,
  0x3fec3ded55f8bc4b, 0x3fc4000e98c944e5, 0x3fe31d7b924a4db2, 0x3fe326885dca3f12, 0x3fd2f2ec9d1d2191, 0x40fa56709464467a,
  0x40fa56704312c638, 0x40dc2baffa153112, 0x40dc2baa8e8ffe32, 0x40dc2b5ea75545cf, 0x40c3e44f2ef2c5da, 0x40b513c3ce895794,
  0x40a84a1101325111, 0x4099a6c4f6890b38, 0x4089348ce8f22391, 0x4073263707ab7f4a, 0x4066475fd0b4c4da, 0x405f76a0b2fdfe87,
  0x403ca1fad48dc58c, 0x403c3e220a4b2a04, 0x4030598daaa18cca, 0x4030437c2fa25a42, 0x4006a0b05c50ab5b, 0x40068f4a7964403c,
  0x3ff819ee0df26647, 0x3fba5f5a4b624346, 0x3fad542b19998570]⟩

theorem npz_pd_ok : (npzOk fpi_pd fpiN_pd && npzOk slsqp_pd slsqpN_pd) = true := by
  decide +kernel

/-- `ag` in `data/kl_fpi_results.npz`. -/
noncomputable def fpiN_ag : NEntry := ⟨chars! "ag", 31, 21, [
  0x3e6f2df09f6dc6b8, 0x3e61dc076e925885, 0x3edf01ff7f3cf40c, 0x3f129ac676bc16a7, 0x3f3765b2f19c3483, 0x3f5332195db3129b,
  0x3f31e7e38ea62825, 0x3f5074ebcad416cb, 0x3f5efb549c9cdef1, 0x3f6b31493962dcf3, 0x3f8db8ec2106a850, 0x3fa6267bc498f67d,
  0x3fb73921309cc2db, 0x3fc4c185db4976d4, 0x3fcdc787771e6ae7, 0x3fd0f61cb4eaae80, 0x3fdbb1309b9a5e33, 0x3fe9d5a377ba8c7a,
  0x3ff1df3bedd90ac6, 0x3fec1c20faad8c5c, 0x3ffcfa20ab8ff607, 0x40041e099df28074, 0x4002638006b16467, 0x3fe69e8cd9d1823b,
  0x3ff98cae40f3ac32, 0x3fff3fdd41da271d, 0x3ffbce408d67481c, 0x3ff3e99b2b2715ea, 0x3fecf5e1c96454f7, 0x3fe4c4a530808c99,
  0x3fba1231e543120c, 0x3f8540814048b4e8, 0x3f72967145110dc8, 0x3f990a0d7efc01ee, 0x3fa47cb63bdc9aba, 0x3fc04b240546dd43,
  0x3fc33a1bd67c2109, 0x3fd0502221916e0d, 0x3fd3a320e5471264, 0x3fcafcfb05c4e486, 0x3febd0e3dd269e0d, 0x3ff46e5b6d69fc49,
  0x3ff76e938bf4474c, 0x3ffacbdadabbe54b, 0x400a7c980c4e93b8, 0x400e04d940af1897, 0x3ffe5c69ca69c25c, 0x40097c31d935f10b,
  0x40111c915bac5e29, 0x4003d23b6734110a, 0x3ff67dd98d8a36a2, 0x3fe6990ac4e44944], [
  0x41765de3ac38e1c4, 0x41765de3a8761d34, 0x410ed2a524da6774, 0x410ed2a524da638c, 0x410ed2a524da61ba, 0x410ed2a524da5e9f,
  0x40f62eabc6e344e4, 0x40f62ea48d66f4f3, 0x40f62ea3aa3bf6a6, 0x40c9fefc538cc8f8, 0x40bdf3cb016514d6, 0x40b8f5527084b34a,
  0x40add5f5b6b0555b, 0x40a2de46d0d68b64, 0x4096605ebd35095e, 0x408e182d8bddafb2, 0x406e92c2f68d2205, 0x40625a99495ffa55,
  0x405dda039e15fbed, 0x4057f737fc6037a4, 0x4030afa6ca9af138, 0x402ee453ec1dd969, 0x402e213efcbd7953, 0x3ff7f2ebd6e502a9,
  0x3ff33101f6b4d1cc, 0x3fef9de1e1a7fb59, 0x3fe7dd4457f1691d, 0x3fe04e59e25f0c54, 0x3fca4e38aff24fe3, 0x3fb984a9e6f99369,
  0x3faaff8e3d92a67b, 0x40fa5d36031cf5b9, 0x40dc642672f89ab0, 0x40dc6421ffb432bd, 0x40dc63c6a76abbaf, 0x40c402f7a6f2557f,
  0x40b5011f76cb2f89, 0x40a8757bd5fd3d69, 0x40989a9f2caa9f3a, 0x408593b99c94eb09, 0x40739ca110dda504, 0x4065ef537f3321a3,
  0x406111f436a099a1, 0x40407f1a8bdc3826, 0x40362d96ddc3adf0, 0x4031e415f68922ff, 0x4031135552970366, 0x4007560d462138b6,
  0x4007413743527e79, 0x3ffc04fbb1639729, 0x3ff228408a7e1ac6, 0x3fe0853f32f1e1be]⟩

/-- `ag` in `data/kl_slsqp_results.npz`. -/
noncomputable def slsqpN_ag : NEntry := ⟨chars! "ag", 31, 21, [
  0x3e51d0d6dab2fa8b, 0x3e8b14fea218cc3c, 0x3d719799812dea11, 0x3f41798805d90217, 0x3f3a80d1814b043e, 0x3d719799812dea11,
  0x3d719799e1df8919, 0x3d719799fb5f000e, 0x3d719799f2a28ae1, 0x3fad7900296dbfce, 0x3d7197a12152c2d9, 0x3fd036ca124a8f0c,
  0x3d719799812dea11, 0x3d719854d8b60fa1, 0x3fe3402334d0b63e, 0x3fdee6fde259b49a, 0x3fd53b5df2865ad0, 0x3d719799812dea11,
  0x3d7197dace72adc1, 0x4013fa5341d58f1e, 0x3d719799812dea11, 0x3d719799812dea11, 0x3d719799812dea11, 0x3febf38c2308bfec,
  0x3fcbb242080084a7, 0x3fea6857a6f83145, 0x3fb300c0120e3062, 0x3d7197bf7ae1c051, 0x3fe82cf4b77bc9c6, 0x3fc85c6db4a45047,
  0x3f6431028299bb21, 0x3f70bbd7ec415c56, 0x3f6f8a62b255d305, 0x3d7197d7585bac31, 0x3d71979b487bb351, 0x3d719799812dea11,
  0x3fc512ef78931b9a, 0x3fc8d9f67ce3e8c1, 0x3d719822141d8d11, 0x3fcc5ac1fb3f69ef, 0x3feb647b92266df4, 0x3ffaaa0abffc1e01,
  0x3d719799812dea11, 0x401811019bf948a8, 0x3d719799812dea11, 0x40189f8784cf1d0e, 0x4011a7d073075653, 0x400dbba7de822d17,
  0x401340c9ad5fc32a, 0x40036a1ed0809f81, 0x401ab9388f91b818, 0x3f759dfb9d389351], [
  0x41765de3ac38e1c4, 0x41765de3a8761d34, 0x410ed2a524e31b12, 0x410ed2a524ed6dde, 0x410ed2a524e20f7b, 0x410ed2a524ec9fb7,
  0x40f62eabc6e340cd, 0x40f62ea48d66eaba, 0x40f62ea3aa3bdea8, 0x40c9ff00698d7695, 0x40bdf3cb0046c158, 0x40b8f55e58098677,
  0x40add5f5f28343df, 0x40a2de45ddf5ae6f, 0x4096606831b18f60, 0x408e18376c57968d, 0x406e920fb879c259, 0x4062605d87817884,
  0x405dd1f61e771113, 0x40564cf43e40bd77, 0x4030975f5f4c7ec7, 0x40310f9a938286ec, 0x4030e02b1e1ea69d, 0x3fd601dfa65f01e3,
  0x3fb5a06e82efcb2e, 0x3fd6097c77b6ed53, 0x3fab076397e56bd4, 0x3fef7def7615b4de, 0x3fc389cc65d5f506, 0x3fb677b7c758fa1e,
  0x3fa0c8fc36f2e19f, 0x40fa5d35f936bbd4, 0x40dc642772875c2f, 0x40dc6422143b3477, 0x40dc63c6acb40542, 0x40c402f7993c6da2,
  0x40b50133a5350e5f, 0x40a8753bb834574d, 0x40989aa021ad8b0b, 0x4085956e210fcf1f, 0x407368a814e79668, 0x40669cb9665c1b26,
  0x4060f5f20741bbe7, 0x403ee9d174f0362a, 0x40380be59c21aa6c, 0x4031aa73d6b2e064, 0x4031c0deb21e2b2d, 0x4008931e4ac1e452,
  0x400899706cb8b248, 0x3feb66b2e061ce0f, 0x3ffa31caa28ee88f, 0x3fbb6cca1ba1ca83]⟩

theorem npz_ag_ok : (npzOk fpi_ag fpiN_ag && npzOk slsqp_ag slsqpN_ag) = true := by
  decide +kernel

/-- `cd` in `data/kl_fpi_results.npz`. -/
noncomputable def fpiN_cd : NEntry := ⟨chars! "cd", 31, 20, [
  0x3e5b016efc433f0a, 0x3e6a39353c45908f, 0x3e622ebdebb61e18, 0x3ee099216c1c3630, 0x3f13658500a40bbb, 0x3f3834142de469af,
  0x3f53bc194076b30f, 0x3f3406b80152c8de, 0x3f51ababd647d325, 0x3f604bca11893592, 0x3f6d85f1ec04adec, 0x3f8fea5ecca22342,
  0x3fa78ffa2d178aa1, 0x3fb8561e0cc55e67, 0x3fc5a113c7643bc5, 0x3fceadf7d106bc53, 0x3fd1d8d738f616ad, 0x3fdd2e6e671d9dfc,
  0x3feb084f09cd70f7, 0x3ff213ab41f2a01e, 0x3fe4e8b0022aafcb, 0x3ffddebf83fc93af, 0x4003c1f25b6de2ca, 0x400128a9453424d5,
  0x3fed3e2d234242ff, 0x3ffc24a23a6c1779, 0x400017b39806e033, 0x3ffa475909c6f40e, 0x3ffe33bb20cbc6dc, 0x3ff6f87518786c40,
  0x3fc95715e87340b3, 0x3f85f017a842ef00, 0x3f76e31b0330b4fd, 0x3f9b013502cc2140, 0x3fa42449115e48bb, 0x3fc1424aeff5a5bd,
  0x3fc3dd6f943692ea, 0x3fd0ffa599d1a4ae, 0x3fd417c1c6dc3bd2, 0x3fcf975f52a28422, 0x3febae230bf73769, 0x3ff5cd06596a6a07,
  0x3ff70674acd83c20, 0x3ffe03b2d21c206a, 0x400c9bb7b5ed4221, 0x400e1183e35c489b, 0x3ff7b4e695cb5eb4, 0x400df6872f479b59,
  0x40126c9dcbfed9b6, 0x4005eb53d4d2239a, 0x3ff15d1ad73483af], [
  0x4175553372d0fd47, 0x4175553370fa7b98, 0x417555336e52f6dd, 0x410f5edf26101654, 0x410f5edf2610101f, 0x410f5edf26100d1f,
  0x410f5edf261007cf, 0x40f6820b83cca50c, 0x40f682031a02c8a6, 0x40f68201912f78e7, 0x40cbd46913a41c3b, 0x40be5cd2873bcdec,
  0x40b951842ae25a20, 0x40ae033df61d4d64, 0x40a3027ea964ce5f, 0x409643bd34a16493, 0x408c613f99ab19c5, 0x406f78887cd35e1f,
  0x4062cc236ee007e3, 0x406040e3ec9c126b, 0x405442f4513e43f3, 0x403166124a4e95cf, 0x4030ce22dade394f, 0x403085777508f2dc,
  0x3ff63301f27056c5, 0x3ff3b7be04c64ea9, 0x3ff1de760df6ee98, 0x3feb5bb64114c76c, 0x3fd3a96643c5ca27, 0x3fc0fac540017132,
  0x3fb10d44a3a2db1d, 0x40fac7c24cc1ce88, 0x40dce6b4d9fff0f7, 0x40dce6b1c36e3a0a, 0x40dce5fff3f44eb2, 0x40c43d9832de9dd3,
  0x40b4f2bee1cefce8, 0x40a8918a4b9fa558, 0x4097e1a4683e06a5, 0x408162453e1db498, 0x4073db001fe84896, 0x4065a7d067688cdc,
  0x4062e12e8fdf4f90, 0x40414ef025be0f78, 0x403563bad7b72739, 0x4033eab0ddfddd38, 0x4032f490a6af32a2, 0x4008ced48f74f500,
  0x4008b646580822ce, 0x3ffb79a1fbd89da3, 0x3febd06891ea952d]⟩

/-- `cd` in `data/kl_slsqp_results.npz`. -/
noncomputable def slsqpN_cd : NEntry := ⟨chars! "cd", 31, 20, [
  0x3d7197bb06ef0931, 0x3d719799812dec00, 0x3e923e6d12085216, 0x3d719799812dea11, 0x3d719799812dea11, 0x3f4cd2eb5a8cba1d,
  0x3d71b4f3af7a7d8a, 0x3d719799812dea11, 0x3d71979a0acc68d6, 0x3d719799812dea11, 0x3faf460ab817d7f5, 0x3d719799812dea11,
  0x3fd1bab47e597c37, 0x3d719799812dea11, 0x3d7197d91717ea8e, 0x3fe2709e203095cb, 0x3fe458732ff11a46, 0x3fd2ef9e4bbad20e,
  0x3d7198d6dd095074, 0x3d7197b3fe6ac7e6, 0x4003dc0b2487bfe0, 0x3d7197be6bcb2285, 0x3d7197a86a4408ed, 0x3d7197afb7ffdc3c,
  0x3ff44d1f5bce6d79, 0x3fe6959955a731d7, 0x400697607ea14975, 0x3fe5781c8d12cbe0, 0x3fd7de4289482b40, 0x3f9e3e7c714d5386,
  0x3f30ecb694959b41, 0x3f6cf5087e736f7c, 0x3d719799812dea11, 0x3d719d49a97b1f91, 0x3d719799812dea11, 0x3d7197b275c6c5f6,
  0x3fc681e6199701b5, 0x3fcb796315ac012d, 0x3d719799812dea11, 0x3fdf46944e5ca64d, 0x3ffa543ebc67b682, 0x3ff332acdc00fa62,
  0x3ffb602ec0c90456, 0x40150c4d1b0b5fee, 0x4014e9c947e7bb28, 0x401735fc4b511ddd, 0x3fcbfab0caf67b55, 0x4010c8f9786c950f,
  0x40148c56903b4116, 0x40172f58e33a0c82, 0x3fe6fb90ee9207f0], [
  0x4175553372d0fd43, 0x4175553370fa7b69, 0x417555336e52f6d8, 0x410f5edf477ca3db, 0x410f5edf28222173, 0x410f5edf34e25f21,
  0x410f5edf5b9ff911, 0x40f6820b83cbbf73, 0x40f682031a0230a1, 0x40f68201912f187c, 0x40cbd5effbf91122, 0x40be5cd27fbf3e16,
  0x40b94a59fcb34fc0, 0x40ae033e1b0c4d5b, 0x40a3027dfea9e68f, 0x40963c90666c9d0f, 0x408be25838fea8ef, 0x406f773299b264a5,
  0x4062e036de6c3a9f, 0x406043c148accff2, 0x405633e6cadbd3cc, 0x40311eb727060aae, 0x4030c56f39d84bc8, 0x40308d90bd688c1a,
  0x3fc25f2490157860, 0x3fe370a22ad53ee7, 0x3fe3724948f8ab81, 0x3fe36f1ac98472f9, 0x3fb57761481c9227, 0x3faa352e0dab9df6,
  0x3f9f9963abe9fada, 0x40fac7b311257716, 0x40dce6c8a2d900f1, 0x40dce6a94ef33187, 0x40dce5fff8df933d, 0x40c43d980f495fac,
  0x40b4fc49fd019f15, 0x40a87a30b06fc8fe, 0x4097e1a56c7bf4dd, 0x4081624e799bd803, 0x4071532faf80bec3, 0x406761c4cb321833,
  0x4060dbab978802e7, 0x40411f38314bdf59, 0x40337a4d10114652, 0x40337d9dc1812a1c, 0x403346368069afa9, 0x4009acbccc3fe847,
  0x4009b69460bcefd8, 0x3ffadb515c267f01, 0x3fd57b52b9c79616]⟩

theorem npz_cd_ok : (npzOk fpi_cd fpiN_cd && npzOk slsqp_cd slsqpN_cd) = true := by
  decide +kernel

/-- `in` in `data/kl_fpi_results.npz`. -/
noncomputable def fpiN_in : NEntry := ⟨chars! "in", 30, 22, [
  0x3ee00ed4f941af87, 0x3f14b3d862ce778f, 0x3f3544dc6e8e653d, 0x3f485db8b751280a, 0x3f37cf5f9873890f, 0x3f1d070859a0dee2,
  0x3f3d76c98adc69d1, 0x3f53e41101bda8c0, 0x3f616375cb8aa2db, 0x3f70f7bcd1723dc1, 0x3f916bc7f887bbda, 0x3fa93799b16e97eb,
  0x3fb98f00ddf4f69f, 0x3fc6506272960e64, 0x3fcf205723803710, 0x3fd2586a457b95a3, 0x3fdf42751e2235c2, 0x3fec98eaed15feac,
  0x3ff2a7c2948cc459, 0x3fe9428ac8c84bd6, 0x3fff11ddec32b531, 0x4003a81c1ccb783a, 0x40002514256929fe, 0x3fef847727b0028e,
  0x3ffb784254f6516c, 0x3ffd89e2ad898b2f, 0x3ff6ff59926f746f, 0x3ff3cc9598345911, 0x3fef94875387a7d7, 0x3fe7082e4dbc0810,
  0x3f85496143f21803, 0x3f9f9ee90f23a6c1, 0x3fa4f032a340cae8, 0x3fc1f6e33dfb3ed6, 0x3fc4b1d019d56d57, 0x3fd1461ce4c0cb61,
  0x3fd405e3ef5ae64e, 0x3fd3078451717d04, 0x3fec4cda9b695e8b, 0x3ff72e141a92e02c, 0x3ff7190e09a38002, 0x3ffc2ebc32a80056,
  0x400eae910157da04, 0x400e25cb0f6e59b9, 0x3fed3bcdfa26e770, 0x40112d167822e4a5, 0x401367fcb21998e1, 0x40047017e522d944,
  0x3fec913f58504a0a, 0x3feae5187837e0fe, 0x3fe52db2df0f97ae, 0x3f95d51ca3038b3c], [
  0x4110994878b664cd, 0x4110994878b66420, 0x4110994878b663f5, 0x4110994878b663b4, 0x4110994878b65a83, 0x40f710882bb3a7ec,
  0x40f710874b72b649, 0x40f71086dbf1b58c, 0x40f71085a505359b, 0x40cdfd0ece89f58b, 0x40bf4797972dec3c, 0x40b9bfd37dd63d6f,
  0x40aeb2fc5a1135ce, 0x40a34bbf7d834b11, 0x4096a58febe82415, 0x408aa1cbdd50581d, 0x40700ecee538c4b5, 0x40632880294b8f23,
  0x4060adf0660a806f, 0x4040812773f9c924, 0x4032c2aaccd8e89d, 0x403275332c26444e, 0x403240eaa4410594, 0x3ff637193e816249,
  0x3ff479d6def6baeb, 0x3ff2e86e4e05bdca, 0x3fed0963a5c49b92, 0x3fdc0126cf0448a1, 0x3fc8e314e8ff594f, 0x3fb4f3b4c6893d49,
  0x40fba43d71910db6, 0x40dddd8e738868e4, 0x40dddc75cb6a8bae, 0x40c4ab14a287c4d9, 0x40b4fcfe2b0f87a3, 0x40a8c7b600d43645,
  0x4098317e98ff7c79, 0x40803bd7b539c8b6, 0x40741285a77b4b4e, 0x40661eba5c2f054d, 0x4063b6a296c979aa, 0x403fa6838ad9d6dd,
  0x40359d6ee84a3bf3, 0x403569572ae548c7, 0x40350e84348bac4e, 0x400a820c018ca15f, 0x400a73dbe4a16537, 0x3ffea2ba14339c7a,
  0x3ff1c6263f2cde5f, 0x3fda8db552f00221, 0x3fc8ef1fe27da412, 0x3fa9168620734009]⟩

/-- `in` in `data/kl_slsqp_results.npz`. -/
noncomputable def slsqpN_in : NEntry := ⟨chars! "in", 30, 22, [
  0x3d719952334c924e, 0x3d719799812dea11, 0x3d719799812dea11, 0x3d719799812dea11, 0x3f4c4e345cd9102c, 0x3d719799812dea11,
  0x3d719799812dea11, 0x3ea5d79f8d42c4c8, 0x3f14deeb96949187, 0x3fbc5554c778f09a, 0x3d7197a44ade2a0d, 0x3fb9289da9600e18,
  0x3d719799812dea11, 0x3d719799812dea11, 0x3fe61d28e4293c0d, 0x3fd39295252447e6, 0x3d719799812dea11, 0x40109e99b7b2209a,
  0x3ff2538f51a34265, 0x3d7198bda450b251, 0x3d719a70f5d7ad0a, 0x3d7197db386d959a, 0x3d719799812dea11, 0x3f8f8aab467f323b,
  0x3fb9dc60ac7308e6, 0x3fe00ee6f8129722, 0x3fb83375eb5ffb00, 0x3f2d9a6aa8f0cb0f, 0x3d71979e9ec8e374, 0x3fdb8f9fd5224422,
  0x3f6c6395e0a3cfa5, 0x3f590d51c7abd708, 0x3d719799812dea11, 0x3fba8144bb19dc9c, 0x3fcd2e2f1186e84f, 0x3fc6df4964b57b43,
  0x3d7197f2af160390, 0x3d7197b48420c326, 0x3fdd4c25c47b22c7, 0x3fe4008d70ea0acb, 0x3ffa4ef3470aa517, 0x4013ea1c55d26c4d,
  0x40134564336ee173, 0x4012e2b959e1778b, 0x40006f42c60c736e, 0x4013664fb9acb099, 0x4015a22002d1c62a, 0x401bc54642dc4073,
  0x400167e101b6cb6d, 0x3fea484a769377a4, 0x3ff5636cb4ebae49, 0x3f24d0b42c8375a9], [
  0x41109948789d3039, 0x4110994878b192a3, 0x4110994878b45407, 0x4110994878b0ffce, 0x4110994878bab8c1, 0x40f710882b2df5cf,
  0x40f710874b5064f6, 0x40f71086e3451a96, 0x40f71085a5196e8f, 0x40cdfd21f3e94b03, 0x40bf4797916b8642, 0x40b9bfb79fe1531f,
  0x40aeb2fc35605422, 0x40a34b9eea09e1b3, 0x4096a7013518e1a7, 0x408a9c52d7b9ab8e, 0x407004770ab7fcbf, 0x406330ca221a1473,
  0x405d962fb16c40c5, 0x403e1deb8a7433a2, 0x40354258da8e64ba, 0x4036e0403f28d334, 0x40366530da6825e1, 0x3fa33b39f6f6fd57,
  0x3faf41aa239dc686, 0x3fbb60dd375437a6, 0x3faea51f3c17870e, 0x3f98a7af746390b3, 0x3fe8a702c4243c92, 0x3fb9e1d02f17e130,
  0x40fba43d363d55f2, 0x40dddd8e24f29118, 0x40dddc75cbdd4354, 0x40c4ab0316dc50ee, 0x40b4fd4b6e2155aa, 0x40a8c6fcdc7b30dd,
  0x4098317faae7108b, 0x40803c61e7700e9b, 0x4073a44b72a40ee3, 0x40661c58c7b014ab, 0x405d05f8b262c658, 0x40427392b5f39555,
  0x4034f5cea00024a2, 0x4034fab4944f7e53, 0x403501e4be9720a2, 0x400bc05ff2bf0a0e, 0x400bc35dfba3405f, 0x3ffcfdf26841b321,
  0x3febf468abf2a5c8, 0x3fcc572c5f04399d, 0x3fd9c0a9322ab076, 0x40106f80f79a8335]⟩

theorem npz_in_ok : (npzOk fpi_in fpiN_in && npzOk slsqp_in slsqpN_in) = true := by
  decide +kernel

/-- `sn` in `data/kl_fpi_results.npz`. -/
noncomputable def fpiN_sn : NEntry := ⟨chars! "sn", 30, 22, [
  0x3e9812da5096e079, 0x3ebbd54174b069fe, 0x3ed248da0b5cf3c1, 0x3eca58dc6d67d008, 0x3f0f230e44913bc8, 0x3f3c1b6734073ec8,
  0x3f5bf773f5a8b72a, 0x3f72ba5f709ae9b8, 0x3f807dea1fca4973, 0x3f8326bfb27f203b, 0x3f936fb6d503c0a3, 0x3fab7ffe2f2effb3,
  0x3fbaf2a07449f14d, 0x3fc6b4c406f8e986, 0x3fcf3b0fa0278118, 0x3fd22d11f4e16c3e, 0x3fdf38c0007908e2, 0x3fec41ea12933a5f,
  0x3ff1e2f148b1d5d2, 0x3fef05de5e55105c, 0x400130019d8c3f75, 0x4004f9012ba5e012, 0x40004ac5c5a7cd2c, 0x3ff1af6eef02919c,
  0x3ffcec383b355a17, 0x3ffd9200c07582f4, 0x3ff5d97039ebd713, 0x3ff2457ed263f13e, 0x3fefea5367b2a4ed, 0x3fe829c8dffd70ea,
  0x3f84553c3114a9f7, 0x3fa9b341f70fd1cc, 0x3f9e004ab3dfee5f, 0x3fbf1fe00cd0bfeb, 0x3fc584fd5407c26f, 0x3fd0f4fc7d02587e,
  0x3fd3cc843affd38d, 0x3fd52121d6adbefe, 0x3fea9ff24ec96aa4, 0x3ff72f9cf9dcc151, 0x3ff58f3a59f57aa2, 0x400032fd2c132c0d,
  0x4010299d8fecdddf, 0x400def1fff93f380, 0x3fefc75bcc6a8121, 0x4011ab9d1e97835c, 0x4012aa998437e884, 0x4003a959ddf03896,
  0x3feb5c151f5ce86b, 0x3ff043f89bc1ad57, 0x3fe518b2af3ad87a, 0x3f95baccfad46907], [
  0x414171c19fd3111e, 0x414171c19fd3111d, 0x414171c19fd3110c, 0x414171c19fd3110c, 0x40f18b16cabf5b51, 0x40f18b16cabf5b26,
  0x40f18b16cabf5b09, 0x40f18b16cabf5aee, 0x40f18b16cabf59ec, 0x40d603e5bff99bcb, 0x40c7a6a0073d7473, 0x40bb5463416e3d92,
  0x40b018c1ea267fd2, 0x40a3cf88dadf445e, 0x409729e1a7cb00e2, 0x4089a4e27c9a5ab4, 0x40708a6c36d73ec3, 0x4063c217aac399b3,
  0x4061cae6c9a263fb, 0x403f4c07d66ef901, 0x40351b32a73ea131, 0x4034c12ff93edf4a, 0x403469f1015023ac, 0x3ff65ecfc1f578ec,
  0x3ff4bc7c7abb7218, 0x3ff38d9ec227020b, 0x3ff12c05e8d756d0, 0x3fd7b21d90dfa35c, 0x3fca6c06d2cb3324, 0x3fb8fc2b3a6560dc,
  0x40deb03525d48dbf, 0x40deb033c71688df, 0x40c94ad91c28e219, 0x40c3e114b25807e1, 0x40b4ee7d1f13c3a0, 0x40a918de2cfba617,
  0x40994d4824a9803a, 0x4080851c3a1f9fad, 0x40748091ccad0648, 0x4066f229077b7f31, 0x4065850bd9b74c22, 0x403a94fb2ea66d39,
  0x4037196a4c85cf98, 0x4036c5f4a960848c, 0x400c4cacec17063e, 0x400c38f7eca2bca1, 0x400c28338c09c26f, 0x3ffec0ee9cb4f1db,
  0x3fe51d1d84ba7a92, 0x3fd5b25fcbd1939c, 0x3fc8b0479d4eb4a5, 0x3fb02dd0f631a953]⟩

/-- `sn` in `data/kl_slsqp_results.npz`. -/
noncomputable def slsqpN_sn : NEntry := ⟨chars! "sn", 30, 22, [
  0x3ef75a9750b81a62, 0x3da8978ee18ebe51, 0x3db0e2690238049c, 0x3dabb8bb9f39ceb5, 0x3f68a804e5060577, 0x3f671b0408398ccc,
  0x3f36efea4bada77c, 0x3eec0664da8d6347, 0x3ea1f561cfc8f78d, 0x3f9cfc96c311aca8, 0x3f766a41ce2431e9, 0x3fc69c8215c7fbcf,
  0x3d719799812dea11, 0x3fdc0811232e8141, 0x3fe363dfa3f6341f, 0x3fd80d106c323b8f, 0x3d7197bd3700a3b1, 0x401288df3b8bd12d,
  0x3d719799812dea11, 0x3d719799812dea11, 0x3d719949a0f6e68b, 0x3d719dddc6a0c08b, 0x3d719799812dea11, 0x3eaa92ec172926f8,
  0x3d7197caac98d40a, 0x3d719799812dea11, 0x3d719799812dea11, 0x3f7b8928c75282ec, 0x3fc98d4aa7c4ca17, 0x3d719799812dea11,
  0x3f52268ca08add96, 0x3f8520f1621179e7, 0x3fa2a33bed553d67, 0x3d719799812dea11, 0x3fba5579eff49205, 0x3d7238af5b1804c8,
  0x3d719799812dea11, 0x3d7198507354b26f, 0x3fe57781fbcb78aa, 0x3fe34d72bacab7b6, 0x3fffcc6e24309cc7, 0x401190f89d159a63,
  0x4018f65335af8fda, 0x4017c7ce9350a43b, 0x3fe53016c423e196, 0x4014351859fb0862, 0x401580ae5b5b7cab, 0x401b05ac8c20f946,
  0x3ffec6a061f22207, 0x3fff14317f1a8b34, 0x3ff5f902f4bc22a4, 0x3fdcca09b895050d], [
  0x414171c19fd2b7a0, 0x414171c19fd2cb38, 0x414171c19fd556f5, 0x414171c19fd2b9e7, 0x40f18b1698192421, 0x40f18b1690bfabae,
  0x40f18b165700fe86, 0x40f18b16d9c3fe26, 0x40f18b16ead091a1, 0x40d603e5e524fd57, 0x40c7a69d0bcacbf0, 0x40bb549498312c31,
  0x40b018c239689454, 0x40a3cd952155ee33, 0x409728cf21398d9e, 0x4089a37adadebf72, 0x407089fdb4a52e2d, 0x4063b96d1eacb0be,
  0x4061a033d84a1da1, 0x404067fb1ced21bb, 0x4035d73325e3426b, 0x403731310b9136ae, 0x403722432220e10d, 0x3d7197a09f6826bf,
  0x3fd197a6de51652d, 0x3fcae016f87bd011, 0x3ff715776fe29212, 0x3fa60bac8a6797e7, 0x3fb27ccf23bec5db, 0x3fd6e5591c46c3e1,
  0x40deb0344042c63b, 0x40deb035ca402a41, 0x40c94ad747c31d4d, 0x40c3e11489ba0c72, 0x40b4ee7ff9d339f4, 0x40a918d63e938499,
  0x40994d5072d9c5fc, 0x4080863bd5baf2a1, 0x4074673a59ad7e3c, 0x4066ecd159ed6d21, 0x40601b1f0fe223a3, 0x404469dd1856f0da,
  0x4036c1b41ad71445, 0x4036d5fd3c79f809, 0x400d7cd45883ae16, 0x400d7befe8e067ac, 0x400d787a4e25398e, 0x3ffe9aca83368f85,
  0x3feb6f65ee8af29e, 0x3fda211493d044de, 0x3fcd6e688aecd43f, 0x3fc19b3d6963703f]⟩

theorem npz_sn_ok : (npzOk fpi_sn fpiN_sn && npzOk slsqp_sn slsqpN_sn) = true := by
  decide +kernel

/-- `sb` in `data/kl_fpi_results.npz`. -/
noncomputable def fpiN_sb : NEntry := ⟨chars! "sb", 30, 22, [
  0x3e70cc7869a71044, 0x3ea0b24692995f12, 0x3ebead6505176fb8, 0x3ed0d488648bdaf2, 0x3e960bc108aeddf7, 0x3f1165cfeae31616,
  0x3f3dcd9721b29a6f, 0x3f5d0141fdecc475, 0x3f730fdd99d72cc9, 0x3f7f6e52097a1721, 0x3f817e81206aa5b2, 0x3f95407afeea8eae,
  0x3fabec6c91891770, 0x3fbbf985f2c6e2a5, 0x3fc6f138670e5408, 0x3fcf741a4cba3966, 0x3fd24046c83086e7, 0x3fe05690de07e5c9,
  0x3fecc65699a76755, 0x3ff1bb579108df52, 0x3ff04e67cf9d4bbd, 0x400103dadfa2c5a5, 0x40040273ba6d20e4, 0x3ffccd1394774f88,
  0x3ff3279c5f29be59, 0x3ffbe67f6a98718c, 0x3ffb48f3609ba8f2, 0x3ff37414dc6560fc, 0x3ff5571bbf6b2778, 0x3ff2ad62904585d1,
  0x3f8c291cd9136342, 0x3fa89cdbc87e8129, 0x3fa5eb910ad46f85, 0x3fbd7b68e60e6ede, 0x3fc73a0929fcf06e, 0x3fd09b19c4f248d8,
  0x3fd3e89c430721a3, 0x3fd7574edcbb5d07, 0x3feb83643f0684ed, 0x3ff706f3211e63e5, 0x3ff40dde66f62c51, 0x400264c89eec460c,
  0x4010a6cda4798ff6, 0x400cf09b9d215dab, 0x3ffbc0618d315e2e, 0x4012879b697ab876, 0x40121f36c895ab90, 0x4002c83f62793e0e,
  0x3ff5adc3bcdea8e5, 0x3ff4e3380cb2eb8e, 0x3fe9b0ec275332bf, 0x3fb3a6ed44304925], [
  0x4146c2c79b87742f, 0x4146c2c79b87742f, 0x4146c2c79b87742f, 0x4146c2c79b87742f, 0x40f30c1ca7683559, 0x40f30c1ca768353b,
  0x40f30c1ca768353b, 0x40f30c1ca768353b, 0x40f30c1ca768353b, 0x40f30c1ca768353b, 0x40d5e141393f449e, 0x40c5a68492520d16,
  0x40bb1d1de451edb6, 0x40b02a85667d90ed, 0x40a42e9e14c00bc1, 0x40975b12adcd5349, 0x40882169f693453c, 0x40708ea6cfa6d6bf,
  0x406491ad3db6e866, 0x406211433de2e1a8, 0x40400ebf49cbecca, 0x4036bb0bf1ce6c63, 0x4036936ddbc655d9, 0x40365e9340429414,
  0x3ff7c74053a561a4, 0x3ff717149cc830a1, 0x3ff625581b21b1f4, 0x3feacfe0f737a34f, 0x3fd42707d4606aa6, 0x3fcb3e7d9a21b4af,
  0x40e093b0d72731c9, 0x40e093b038fd0a52, 0x40c8a824162c0f99, 0x40c4ca041334065f, 0x40b4ee38364374ba, 0x40a97b61ff6027a7,
  0x409a1cecb2bdeb74, 0x408091327e082c34, 0x40746a9d2fb876bd, 0x40680efbe0e1cf23, 0x406601ddc52d10e3, 0x40394e281fa3e6f1,
  0x403921d337496d19, 0x403914e027c82f61, 0x400e3b6dcfef9cc1, 0x400e213025b50e1b, 0x400e0662ed3fe0c3, 0x40006f6ae8e6fc5a,
  0x3fe26759ac05f1e8, 0x3fd4824893c24829, 0x3fc6059d2ddba9ee, 0x3fb7e19483ffcf4f]⟩

/-- `sb` in `data/kl_slsqp_results.npz`. -/
noncomputable def slsqpN_sb : NEntry := ⟨chars! "sb", 30, 22, [
  0x3ec5289cd8346b1c, 0x3eeab96dfc71e8c3, 0x3eb7689ae80b7f0e, 0x3e126e31f39556de, 0x3f650b95e570791f, 0x3f659e6025b40c73,
  0x3e8fb4d9d41f4655, 0x3f2c56f24ff7d321, 0x3eecab58b0e6eacd, 0x3f09fbd202acbb5b, 0x3f9bb3b7343dc961, 0x3f9bb659fc06c9ef,
  0x3fc7eca5a0811548, 0x3d719b2cf12e3bb1, 0x3fdcbaa97fedecd8, 0x3fe42486448bc882, 0x3fd7d6f6446d26ca, 0x3d719fe31de8f93d,
  0x4011be0e363202e6, 0x3e40108df99299f1, 0x3d7197e5ac5e7dfa, 0x3d719c57b0242b7f, 0x3d719819bba23bec, 0x3d719799bc118012,
  0x3fadf09243dffc2d, 0x3d7197a273c4a0f0, 0x3eceac7435e39356, 0x3f3b1d5f9b821f64, 0x3feb78348318085c, 0x3d71979a0d4b5b30,
  0x3efc37559a4bae5f, 0x3f807479c39adc26, 0x3f9a9bbcc57d68b7, 0x3d719799812dea11, 0x3fb9aa3033937661, 0x3d719f1f83076b54,
  0x3d71987b28b8f22a, 0x3d71979a00f6f7a0, 0x3feb63eb80552799, 0x3fc6b4c6f3de67f2, 0x4002785ff21e6edd, 0x400ed321ed20d06c,
  0x401b6fff18dd462f, 0x40177d56d6b1c3c4, 0x3ffaa3026c322ef2, 0x4014b7c1407e8d13, 0x40143a1741548cdc, 0x4019639652c54bff,
  0x3ffee7dbe391bf7e, 0x4003acf26a56f612, 0x3ff3fc9b5cfa09ab, 0x3ebc62e2ba80648c], [
  0x4146c2c79b8766ec, 0x4146c2c79b8768ca, 0x4146c2c79b8766ea, 0x4146c2c79b8766bf, 0x40f30c1cad36e072, 0x40f30c1c9823f3c2,
  0x40f30c1ca8e86674, 0x40f30c1cab18e082, 0x40f30c1ca6b79486, 0x40f30c1cab5b6085, 0x40d5e14179cabc4f, 0x40c5a683bec1655a,
  0x40bb1d2048f59bc3, 0x40b02a859d32fc0a, 0x40a42e9850929920, 0x40975bb38a627846, 0x408820b3ce90d844, 0x407096a555b883ee,
  0x406488a047a7a9c5, 0x406203b01e05f545, 0x404348ad3f3833e4, 0x40365ffc75e41ddf, 0x4037949c6dc69ba7, 0x403613f3f04fe73f,
  0x3fb22541e98db64e, 0x3fb6a73467bdb078, 0x3d7197bf7dce3e52, 0x3fa4e2c70c095bbd, 0x3fbea72a5336f004, 0x3fe27b994fedc83c,
  0x40e093b0e797054f, 0x40e093b023ac6cad, 0x40c8a8238354e077, 0x40c4ca0407d77a11, 0x40b4ee393e553914, 0x40a97b5b0ec7d1a1,
  0x409a1ce0f67884f7, 0x40808f1530394aad, 0x407493235cffb2df, 0x4067db86335cd635, 0x40620105465bf223, 0x4046aa7c7653b63b,
  0x4038a9413b331d19, 0x4038b8b37b1f5433, 0x400f4cd5052c17c2, 0x400f4c64a7d87f9a, 0x400f4aa7a0e9c80c, 0x400033237879f3a4,
  0x3fe9defa3ac98fe1, 0x3fda62d0cbb01335, 0x3fce6c63b38c1fa9, 0x3ff25566bbbe5e5e]⟩

theorem npz_sb_ok : (npzOk fpi_sb fpiN_sb && npzOk slsqp_sb slsqpN_sb) = true := by
  decide +kernel

/-- `te` in `data/kl_fpi_results.npz`. -/
noncomputable def fpiN_te : NEntry := ⟨chars! "te", 30, 23, [
  0x3e558c0283d5c9d6, 0x3e570c79d11d3306, 0x3e94e963c4b08095, 0x3eedcfec0eba0013, 0x3f1b4c3708597254, 0x3f3e4141ae931da4,
  0x3f55bea67f9e383d, 0x3f42129c6006e71a, 0x3f56c135a5a4598a, 0x3f58943372b59546, 0x3f74f9e02b697e82, 0x3f9323009be79209,
  0x3faa94982d70a347, 0x3fbbf67d3f6afd40, 0x3fc7011683ba7da8, 0x3fcf8f7c1f522408, 0x3fd2890ce1096be1, 0x3fe14934c60e5067,
  0x3fed90c2a3ed4e0d, 0x3ff1b6376cacf168, 0x3ff1e7f001b2c65d, 0x400129477bd8939b, 0x40036c095462d569, 0x3ff8e7c7f224eead,
  0x3ff44f2dc745d69d, 0x3ffa999e3cc54c28, 0x3ff8530f3f3a44b6, 0x3ff478cfd1d3b6bc, 0x3ff6e4cdf03ef4ef, 0x3ff3380e35fcd9bc,
  0x3f86e67a86d08a8e, 0x3f92a68ae5e8bf65, 0x3fac6b9abc04b486, 0x3fa944e29a4752d1, 0x3fbf100434b94680, 0x3fc890b05bc61097,
  0x3fd0b45dbe576dae, 0x3fd3efe19ad6a16a, 0x3fd9a170247f194e, 0x3fed16c06011c2ee, 0x3ff701354d44182c, 0x3ff279c4d3157b32,
  0x4004711f1e9f04e4, 0x4010dec12272dc9a, 0x400b555ff7e5edc3, 0x4002decd257ced48, 0x4013f69a2d55d5fd, 0x4012174fbe5e7df5,
  0x4000701f75c114e4, 0x3ff9bf447ab86714, 0x3ff65cc795fe9656, 0x3fe9423039f9908d, 0x3fb35acd31cd3e44], [
  0x418533e73053fd6d, 0x418533e72e3c642e, 0x4112fbc12ef33c2b, 0x4112fbc12ef33753, 0x4112fbc12ef336bb, 0x4112fbc12ef33653,
  0x4112fbc12ef334e9, 0x40fcd48daf962833, 0x40fcd48d37b9dc58, 0x40cc312d09532777, 0x40ca50438f9dac05, 0x40c13f8cb995492a,
  0x40b85897de0a1208, 0x40af592af15862c7, 0x40a410da8e5eb310, 0x409779f18c129f2f, 0x40864e99cca95a5c, 0x407080c23c7493f0,
  0x40657d1390c415d2, 0x406208b8e35e0aa5, 0x403b4123430eca8f, 0x4038a0272b76addc, 0x4038887367738696, 0x40385b793e63a6da,
  0x3ff86656db1102ad, 0x3ff810a233bd3297, 0x3ff7710ece1afdfd, 0x3fe1acbcac0faf0c, 0x3fd3b9fdde230172, 0x3fccecccd94e2aba,
  0x4100f2707647ab82, 0x40e19b6a1ce8b6d9, 0x40e19b6a1051d274, 0x40c96dcf964c811f, 0x40c5cc1301ceb95c, 0x40b5620ec49b6777,
  0x40a9d15646d3b538, 0x409aa5f67334c555, 0x40808ed42f063f9a, 0x40743048a6db468b, 0x406955ba6470aae2, 0x4065e468271654da,
  0x403ac62470682868, 0x403ac1f381a7d326, 0x403ac0169a0f6d25, 0x4010158ab8276a0d, 0x401009a99d01437d, 0x400ffc0902a2f1ca,
  0x4001578eaeb866fe, 0x3fe30aba0b0d6edc, 0x3fd5c8555db54edc, 0x3fc77f471ffe1711, 0x3fb9cc38c5fa138f]⟩

/-- `te` in `data/kl_slsqp_results.npz`. -/
noncomputable def slsqpN_te : NEntry := ⟨chars! "te", 30, 23, [
  0x3e7aad5731bde5f6, 0x3e6a02cc56f5dfcf, 0x3f4eb96381031b97, 0x3edccdecc69747f6, 0x3f27509b758522ac, 0x3f0358040c203f70,
  0x3d7e4433a16a4ede, 0x3d71979af1b41e06, 0x3d71979a5b3b32b2, 0x3fa7772b26fd13ff, 0x3d719799812dea11, 0x3d71979b6530d9ab,
  0x3fd2f27bf968d4ba, 0x3d719c2a8065b865, 0x3fd8ba1b5fbb6774, 0x3fe2a93d7298acf9, 0x3fe567eb96b30594, 0x3d71dea27d99fa14,
  0x3fffc8e40233f648, 0x3fd3674b777172a6, 0x3d719a4715b5df80, 0x3d719883729f91b2, 0x3d71994c66d8d836, 0x3d71991e655fed58,
  0x3d7198776cdb6e46, 0x3fd336df1bb6fe32, 0x3f08862160b02dcd, 0x3f2a1296025526ff, 0x3fdbafe46e890c5c, 0x3d7197c4979a0e39,
  0x3f770374db3a32a2, 0x3f2681177e0bcd06, 0x3f8dca7cc1ac111e, 0x3d7197a17c905744, 0x3d7197c697d2eb23, 0x3fb0e59ef8529c7a,
  0x3fb39b10d0277c71, 0x3d71979a25bc2313, 0x3fcfb697fc4c50cf, 0x3ffb97df24bb05ac, 0x3d71988cc47bc54a, 0x4008fcc174b0d143,
  0x400af7f6b88faef6, 0x40224eafa959646a, 0x40104d6483fce66d, 0x4004f65abc317416, 0x401512dc1428418b, 0x401331f12ff96d5a,
  0x40172a0202a557cb, 0x4003af16103963bb, 0x400762bc8356040e, 0x3ff42e1e01aa7cb4, 0x3f8b178dbf599077], [
  0x418533e73053fd6d, 0x418533e72e3c642e, 0x4112fbc12f173558, 0x4112fbc12f280d77, 0x4112fbc12f0e4f04, 0x4112fbc12ee626cb,
  0x4112fbc12efbb659, 0x40fcd48daf962cd7, 0x40fcd48d37b9e845, 0x40cc31308a3c955a, 0x40ca5043904a6906, 0x40c13f8cb8391b71,
  0x40b858941c0cc3be, 0x40af5929f96f85d4, 0x40a410c7e9c738b4, 0x40977a082b0a5671, 0x40864ee9c99ccd5e, 0x407093f754457279,
  0x40657d1590eeb0cc, 0x406201c1c1643b3b, 0x403aeb975a2d6bbc, 0x4039afada0da8504, 0x403a1766a90bb788, 0x4038f7af31115652,
  0x3fc87fe2cc835b42, 0x3fbedee9279524e0, 0x401ccb21eaaf811a, 0x3fa527fa04018b16, 0x3fbee722d9b1056a, 0x3fd31709af1b2d69,
  0x4100f270627de2f6, 0x40e19b6ab5fe9394, 0x40e19b6aeed2fafa, 0x40c96dcf95d98689, 0x40c5cc12dc67aa48, 0x40b56210bdf33bf2,
  0x40a9d1701b433092, 0x409aa520fb26a4e8, 0x408086f392f67842, 0x4074635933e07cfb, 0x4068a004baed0898, 0x406471d65b2ca1aa,
  0x40494b1086e20782, 0x403aa77563c1b763, 0x403aa59395585f73, 0x40109eb76d2643fd, 0x40109c038619d634, 0x40109f102101ca12,
  0x400134b9a1fc99e4, 0x3fe8dcb087d286a7, 0x3fdad1c2f4adf025, 0x3fcf024c82d6947e, 0x3fb4aafcac73628b]⟩

theorem npz_te_ok : (npzOk fpi_te fpiN_te && npzOk slsqp_te slsqpN_te) = true := by
  decide +kernel

/-- `i` in `data/kl_fpi_results.npz`. -/
noncomputable def fpiN_i : NEntry := ⟨chars! "i", 30, 22, [
  0x3e59fecbf7f25eb4, 0x3e5d9d24c3b3f6ae, 0x3e93cc7d3b71f612, 0x3eef6d7c252bf2b2, 0x3f1cdcb4df80e94f, 0x3f400089f6d221d7,
  0x3f5703f03eb8e77d, 0x3f4353f1e68efcaf, 0x3f5844b33553ed97, 0x3f5a6e7d58ceafc5, 0x3f766453f23108e1, 0x3f9429518c567f66,
  0x3fabbf61b1adc4e8, 0x3fbce0f744e75b0d, 0x3fc7808407e16f35, 0x3fcfcffd90088113, 0x3fd3150206a4dab2, 0x3fe23e4680cd6ba5,
  0x3fee670106b4752b, 0x3ff1a6631af1e185, 0x3ff328e9a58c5ff9, 0x4000ed59a7a9f72a, 0x400273cf287446b8, 0x3ff357022b7ade23,
  0x3ff518b1bca478f1, 0x3ff95a83b8e5b805, 0x3ff55344ffcc37d8, 0x3ff9e403f32c59f6, 0x3ffb52356c829855, 0x3ff86150aa036f14,
  0x3f881e5adbd4f253, 0x3f939abccb1ed584, 0x3fada3b26b79fde8, 0x3faa6c5a2e3cc4a5, 0x3fc003fe62ada8bf, 0x3fc93ba041cad8cd,
  0x3fd0ec4dfc31630d, 0x3fd3c89445576f22, 0x3fdbd85800348beb, 0x3feeaf92c1a4c87c, 0x3ff729171c9f065b, 0x3ff0cc473f355938,
  0x4006fabdd9719678, 0x401174405705b591, 0x400a262c5e813188, 0x4007bb720a9d504e, 0x40157924511366f0, 0x40121313e729adac,
  0x3ff6cd8c70461f7f, 0x4002c764266a7a33, 0x3ff6e24a4da7952f, 0x3fa78550b76d0e08], [
  0x4183973d817264b1, 0x4183973d803677c4, 0x411303da5ef4c5ac, 0x411303da5ef4bf38, 0x411303da5ef4be82, 0x411303da5ef4bdf7,
  0x411303da5ef4bc42, 0x40fce4ff48c80d3d, 0x40fce4febff4d2c3, 0x40cc8b367545976f, 0x40caa0c4ec82715f, 0x40c17185786d740c,
  0x40b872eb59b47ab8, 0x40afb174d57b3ef3, 0x40a44229331201c5, 0x4097d21297696c32, 0x4084965ab83227bb, 0x40707a7801823987,
  0x4066723214851a1f, 0x406228e6c57d2351, 0x403acbf957e97703, 0x403a6c682445d611, 0x403a6133152e1121, 0x403a3c7f5775a461,
  0x3ff903fa25b9d13d, 0x3ff8c5d942b6372b, 0x3ff83b82786f6236, 0x3fdd1ace53805c78, 0x3fd5027105dac9be, 0x3fc49f68edb98a9c,
  0x4100fc6d77bd4704, 0x40e1b493ba34ac65, 0x40e1b493ab54e37a, 0x40c9b79d7bfb66fe, 0x40c5e8897a9afc56, 0x40b596b4bb834295,
  0x40a9f4150a765327, 0x409af27d15800e59, 0x4080a428a1344766, 0x4073e168d62b3d0f, 0x406a9ca545b99f7d, 0x406590532a617c87,
  0x403c96bbcec1f4f6, 0x403c963bf35ee331, 0x403c95ea7609d94e, 0x4011131904f47cba, 0x401106a96824dcc7, 0x4010f9fa3b98d1db,
  0x40023914dfc32260, 0x3fe416eb8635fb18, 0x3fd4a1ae630d5f41, 0x3fbb30e89bb4e7cf]⟩

/-- `i` in `data/kl_slsqp_results.npz`. -/
noncomputable def slsqpN_i : NEntry := ⟨chars! "i", 30, 22, [
  0x3e5744bec170502c, 0x3e846f278bae5cc6, 0x3f548e9ae829b0b4, 0x3d719799812dea11, 0x3d719799812dea11, 0x3d719ef56e639211,
  0x3d719799812dea11, 0x3d71979beaf0c122, 0x3d71979ab1cee02a, 0x3fa76537ad2840bb, 0x3d719799812dea11, 0x3d7197b1adf50211,
  0x3fd95f17c9ace5b4, 0x3fca1d7df5473bbd, 0x3d719799812dea11, 0x3d719799812dea11, 0x3d7197c7951cad30, 0x40040794a12dc3f4,
  0x3d71994290f44152, 0x3d719799812dea11, 0x3d719799812dea11, 0x4014c46331a5da46, 0x3fbf53cdb8c1d975, 0x3d719799812dea11,
  0x3d719799812dea11, 0x4003b96c0462ce37, 0x3d719799812dea11, 0x3d719799812dea11, 0x3f9d58a7fb51f3a1, 0x3fd3d8ec1d5ff31b,
  0x3f78dac0ac7902ef, 0x3f9087a6a4342d55, 0x3d719799812dea11, 0x3d719799812dea11, 0x3d719799812dea11, 0x3fbb8f2fce80ab61,
  0x3fdde3c2a57414f6, 0x3fdd45da5db01422, 0x3fcfffc3fe972c9f, 0x3fde98d2da717624, 0x400b1144ed3f4b5e, 0x3d7198c163f3321c,
  0x400c680d668ed73f, 0x4015226176aecb6f, 0x400cc7d9ed39bef9, 0x40094723f83daf70, 0x401636cb42316b56, 0x4012f82a039f37a7,
  0x40140e697f5d09dd, 0x4008ab4df6f0aaec, 0x40049e602386988b, 0x3f60acb9cd8b9927], [
  0x4183973d817264b1, 0x4183973d803677c4, 0x411303da61101056, 0x411303da5f61bc6e, 0x411303da5ebe4189, 0x411303da5f92d62d,
  0x411303da5f589668, 0x40fce4ff48c8182e, 0x40fce4febff4d778, 0x40cc8b391e56f16f, 0x40caa0c4ed379dea, 0x40c1718577a7d915,
  0x40b87398955643d0, 0x40afb14914b0ea98, 0x40a44229ed41fd5c, 0x4097d21183cf5a88, 0x408496cd833a6983, 0x40705dfd2b164e2c,
  0x40665660ba33da0f, 0x4062368a51b7a785, 0x403d78e56292e20d, 0x4040b9dc69e030dc, 0x403f9bbbbbeedaa6, 0x403eb5973fde52f6,
  0x3fe96d2b6c927a7b, 0x3fc8f7994ed8c43d, 0x3ff2b9786d94ff32, 0x3fd6c6a11c300d90, 0x3fc8ef652155b0df, 0x3fbc7b91eeefe37e,
  0x4100fc6d7d195024, 0x40e1b49921fecd56, 0x40e1b496cedc9bd7, 0x40c9b79d7b29940e, 0x40c5e8894a20662f, 0x40b596bac337ec8a,
  0x40a9f33ed3ae7571, 0x409aee39536aca63, 0x40808362f98e2c32, 0x40744f4e97c95ba1, 0x4068bbfd5f368582, 0x406773371232968a,
  0x403c2978357abb11, 0x403c3f48c33f2802, 0x403c70168a3b4c7f, 0x40119c1a6e4b2b1e, 0x40119d5093d4dcfb, 0x40119ea414ef4ddf,
  0x40024203ddc5500e, 0x3fe85db5dcd79691, 0x3fdad51b7989240b, 0x3fb2e23052031c48]⟩

theorem npz_i_ok : (npzOk fpi_i fpiN_i && npzOk slsqp_i slsqpN_i) = true := by
  decide +kernel

/-- `xe` in `data/kl_fpi_results.npz`. -/
noncomputable def fpiN_xe : NEntry := ⟨chars! "xe", 31, 22, [
  0x3e43f5ae210624ae, 0x3e56b8acfd21b08a, 0x3e61410125caf2e4, 0x3e9579ecb8bb3ea2, 0x3ef09415e8dea1ce, 0x3f1e3d0ff9f78483,
  0x3f40b01a82750a17, 0x3f57dbca87499447, 0x3f44971aece402b0, 0x3f59a2de0f32e0d5, 0x3f5cb907cf178dc0, 0x3f781386177f7f23,
  0x3f9562157b19e975, 0x3fad021a3bc24ca8, 0x3fbdd88da052d528, 0x3fc805b7c319c0c8, 0x3fcffdfc0dcbc70a, 0x3fd3e3ad92feab2a,
  0x3fe35e053cd78f79, 0x3fef8fac19b833f7, 0x3ff1b519ed557157, 0x3ff42b0ca26f6350, 0x4000b55ef8b42b83, 0x400190defe49bc25,
  0x3fe26c5b55e2a366, 0x3ffa0be30eb6e150, 0x3ffde9cb16c2dc81, 0x3ff8988b5b74e314, 0x3ffa1cb7655f5858, 0x3ffa2f98299c5389,
  0x3ff6ff5a1de90c6f, 0x3f88fe9caae9ce29, 0x3f947400a5782c6d, 0x3fae74bb5d6de32b, 0x3fabcd15036d33af, 0x3fc067c0eaca67c7,
  0x3fc9e912e3ca9aaa, 0x3fd12751388f762a, 0x3fd3812fb093a549, 0x3fde359d293f1a62, 0x3ff05d5b1d29f8f6, 0x3ff7b1d5af7f1523,
  0x3fee16bf8a0dde14, 0x4009fe034274dcb7, 0x40125d3995f87e91, 0x400937e585c25b1a, 0x400c6d95b58c8265, 0x4016b2a38b14b9ba,
  0x4011adf75619d9f0, 0x3ff382bab0d2a11a, 0x4001e944be2f6c7b, 0x3ff5f27a1715e218, 0x3fa9e00d443fc9be], [
  0x41826165e6378569, 0x41826165e546d62f, 0x41826165e4ac0163, 0x41133658b7533bc2, 0x41133658b75332ee, 0x41133658b75331fa,
  0x41133658b753314d, 0x41133658b7532ef7, 0x40fd2e606e154a8f, 0x40fd2e5fc6def676, 0x40cd2f83b66648e1, 0x40cb23d3a13b2a60,
  0x40c1c26145a56f85, 0x40b8a35ab0c63ff6, 0x40b007fd612105bd, 0x40a47a13c4ebd9c2, 0x40983236c89eff4b, 0x40831b53398bf4cd,
  0x407063f64d1467ab, 0x4067687ad6d9ae04, 0x40624fbbf68191ef, 0x403c466a09615394, 0x403c31a55c74c925, 0x403c2d09b34d074f,
  0x403bf9d7c8a9a0e6, 0x3ff972113fc07ae6, 0x3ff9557393830563, 0x3ff901e24d795984, 0x3fde7bd9a899318c, 0x3fd4f7366a15dd0c,
  0x3fc6dfd142ed07a1, 0x4101297cec62b4e5, 0x40e1eedc2cb610ac, 0x40e1eedc168c77ba, 0x40ca38c25dbb70a6, 0x40c6093d69fd82ec,
  0x40b5ca1169f7b9d5, 0x40aa0ce04cb4d0f4, 0x409b18d403a265db, 0x4080c8da6e55d16c, 0x407368f212c0c6a5, 0x406befff552e63a5,
  0x40646443c1e4e66b, 0x403ea1e010d462fe, 0x403ea1d3b890ddc2, 0x403ea1c8c25b6697, 0x4012049a813b331e, 0x4011f4f07e72b471,
  0x4011e09ff3df1a03, 0x3fe7b57cce5e355e, 0x3fe3e382aa2a60f7, 0x3fd5afb8ba3621bd, 0x3fbf2e3a79a6cae9]⟩

/-- `xe` in `data/kl_slsqp_results.npz`. -/
noncomputable def slsqpN_xe : NEntry := ⟨chars! "xe", 31, 22, [
  0x3d81030e18f18684, 0x3debcbbe2f53bb72, 0x3e8b34705ad6d380, 0x3ec6bff139c6a3fb, 0x3eb1112f4eef4331, 0x3eab3982eee1b067,
  0x3f1ee4e1c3e88532, 0x3f535c8433382bcd, 0x3d71979bb9f18fa3, 0x3d71979b62cfb6f6, 0x3fa9384ead93e9a8, 0x3d71979a07a39382,
  0x3d719799aa47cd6b, 0x3fda34ad54c47775, 0x3fca6373e9ac8d70, 0x3d71a627ab13e816, 0x3d71979ac4611400, 0x3d7197a0a108bfe9,
  0x3e8047a7edf0113e, 0x40117ba45fdeeed9, 0x3d71c7f38221d97b, 0x4002c9de7dcd851f, 0x3ff3fa0cfe691d31, 0x40072bf45fcc008d,
  0x3d719f214074ae15, 0x3d7197d0a5a073f6, 0x3fda66e8c3eac655, 0x3f83529793f55feb, 0x3f20090943076d77, 0x3ee4d7f062abd466,
  0x3e87da26bdbf55d1, 0x3f799ed5b816e455, 0x3e92a9915d38ca4d, 0x3f90800589c0e2dc, 0x3d719799812dea11, 0x3e6f0a773ecd2ab6,
  0x3fbcd0c1bed13a4b, 0x3fde6d17eab0933c, 0x3fdc735cdf37116b, 0x3fd6644d76d7eed2, 0x3fd2582ea4f6782f, 0x3fe420efce1768af,
  0x3ff155b3e4ec74a5, 0x3ff4e6d10695b9f4, 0x40238d05a4cc623a, 0x3d719954cf4845fb, 0x401f9cef5890e970, 0x4019bc2d518de882,
  0x40112b68192e0240, 0x400cd788d330279a, 0x4010d0fa569fa4a7, 0x3ff1f8777d1cda01, 0x3e77f11fe8e8ee42], [
  0x41826165e6378563, 0x41826165e546d62f, 0x41826165e4ac0165, 0x41133658b8044f61, 0x41133658b799e7c9, 0x41133658b81b8362,
  0x41133658bb781533, 0x41133659abe6a7cd, 0x40fd2e606e14e8a4, 0x40fd2e5fc6debf04, 0x40cd2ded44073f07, 0x40cb23d3a3a710c2,
  0x40c1c261453b92b3, 0x40b8abe5f5a0ae95, 0x40b005836560d8f0, 0x40a47a1412bae45c, 0x40983235cfcd0c69, 0x40831b5bad41927f,
  0x4070a72b64fbfb35, 0x4067148f0e531ab6, 0x4062d70c3a6ae37a, 0x403ddf93b2f89fb8, 0x403dd5836a78b6d6, 0x403c72cee7b3c8e5,
  0x403a8b649a4239a4, 0x3ff198e45f509342, 0x3fc0f1f09c15c90d, 0x3fb400f5bed63304, 0x3d719799827c11ab, 0x3fe8ebfbff1a1471,
  0x3d71a6e961992ed6, 0x41012973b3e49a05, 0x40e1eeddd744e934, 0x40e1ef00e1fb6415, 0x40ca38c25dfd26ac, 0x40c6093d969e7bba,
  0x40b5cc2907746df1, 0x40aa0925d035205f, 0x409b0dc15f026d92, 0x40805821637c0576, 0x4073db70083319a2, 0x406c0e8b99ec20d0,
  0x406672ca730f5fd8, 0x403e513ae48c3bb9, 0x403df44b3773465a, 0x403c396ef5620135, 0x4012a56de90536af, 0x40129f0685fdc70e,
  0x4003073d7cbc52a8, 0x3fdc6c7b5724bb6b, 0x3fe9aae0a92d9f4c, 0x3fd086da785cf3a8, 0x3fd7c70d79bc9068]⟩

theorem npz_xe_ok : (npzOk fpi_xe fpiN_xe && npzOk slsqp_xe slsqpN_xe) = true := by
  decide +kernel

/-- Part 4 of the results, with the texts. -/
noncomputable def npz4 : List ((JEntry × JEntry) × NEntry × NEntry) := [
  ((fpi_tc, slsqp_tc), fpiN_tc, slsqpN_tc),
  ((fpi_ru, slsqp_ru), fpiN_ru, slsqpN_ru),
  ((fpi_rh, slsqp_rh), fpiN_rh, slsqpN_rh),
  ((fpi_pd, slsqp_pd), fpiN_pd, slsqpN_pd),
  ((fpi_ag, slsqp_ag), fpiN_ag, slsqpN_ag),
  ((fpi_cd, slsqp_cd), fpiN_cd, slsqpN_cd),
  ((fpi_in, slsqp_in), fpiN_in, slsqpN_in),
  ((fpi_sn, slsqp_sn), fpiN_sn, slsqpN_sn),
  ((fpi_sb, slsqp_sb), fpiN_sb, slsqpN_sb),
  ((fpi_te, slsqp_te), fpiN_te, slsqpN_te),
  ((fpi_i, slsqp_i), fpiN_i, slsqpN_i),
  ((fpi_xe, slsqp_xe), fpiN_xe, slsqpN_xe)]

theorem npz4_ok : ∀ p ∈ npz4, (npzOk p.1.1 p.2.1 && npzOk p.1.2 p.2.2) = true := by
  intro p hp
  unfold npz4 at hp
  simp only [List.mem_cons, List.not_mem_nil, or_false] at hp
  rcases hp with rfl | rfl | rfl | rfl | rfl | rfl | rfl | rfl | rfl | rfl | rfl | rfl
  · exact npz_tc_ok
  · exact npz_ru_ok
  · exact npz_rh_ok
  · exact npz_pd_ok
  · exact npz_ag_ok
  · exact npz_cd_ok
  · exact npz_in_ok
  · exact npz_sn_ok
  · exact npz_sb_ok
  · exact npz_te_ok
  · exact npz_i_ok
  · exact npz_xe_ok

end BFit.Data
