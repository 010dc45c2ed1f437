import Verif.Data.Fits2
import Verif.Lemmas.NpzScan

/-! Copy of /repo/bfit/data/kl_fpi_results.npz and kl_slsqp_results.npz, generated by tools/gendata.py. -/

namespace BFit.Data

/-- `p` in `data/kl_fpi_results.npz`. -/
noncomputable def fpiN_p : NEntry := ⟨chars! "p", 27, 19, [
  0x3e2398387a53c08e, 0x3e730ba5a6827a7e, 0x3e9605664af23a77, 0x3eb0bd4204c7935b, 0x3ec88c5be0179e74, 0x3f067df640d568f1,
  0x3f2cea7754c61230, 0x3f4800e9f23e3b04, 0x3f4dcb0e8f81d3e0, 0x3f645c96db65e77f, 0x3f737cc36ba35eba, 0x3f8a474ae037b2f5,
  0x3fa1483ec5e0e0b7, 0x3fb22a50f90e911b, 0x3fc07916fbfd4dba, 0x3fc86d9722e95a7e, 0x3fce07d1325bfa55, 0x3fce1e2f0a68b554,
  0x3fd698081fe62393, 0x3fe5232bb31f04d6, 0x3fed9b1ad72c0ae2, 0x3fee48d2fc6db832, 0x3fe5764283fbcdeb, 0x3fd8b7e694c55719,
  0x3fe4e4a9e0383d70, 0x3fe833ef619180c3, 0x3fe3ffc942200845, 0x3f7a84f565f07a45, 0x3f872cf7568a61c6, 0x3f9bb576ce0822ff,
  0x3fb1a9ba7e422bd0, 0x3fbeabdf3478e1e9, 0x3fc97a12588ba84c, 0x3fd02716bfdec30b, 0x3fd1299c2694dffa, 0x3fcb1bc488eaeced,
  0x3fe41327133bb67d, 0x3ff0e6bc79f27342, 0x3ff25718bff0a20e, 0x3febd383033df23f, 0x3fce1b648bd199e4, 0x3fe9938efbd0d814,
  0x3fed5cea6e5b5199, 0x3feae95be4ef9f38, 0x3fda69b73a300fd5, 0x3fa316e01cec259b], [
  0x416816b63ba05c80, 0x411cb09e321acc6e, 0x411cb048c66478f3, 0x411cb00fb836d521, 0x40d6e9aefac860bc, 0x40d6e89d4bc4bf76,
  0x40d6e865b7884d16, 0x40d6e7fe4bd63084, 0x40c64954b81d1dd4, 0x40bffb771d0322de, 0x40a5533f65abe698, 0x409a1ed696f1df65,
  0x408c9d6c5a735112, 0x4080ca516eb9b415, 0x40734f8d6635db99, 0x4067c6eb1891d082, 0x405c1ef3af61af69, 0x4050ac933280d91c,
  0x4031c9c05d36acac, 0x4024cedad6b51af3, 0x401bd03161e6e6f6, 0x40147dc8f8c9db15, 0x40111dbc77e59f94, 0x3fe6054b9c3e5f83,
  0x3fd9110d698f8e8c, 0x3fd34e662cb0d702, 0x3fcdf9c1a5d9af1b, 0x40c35356ee40cf3f, 0x40a94ea6e9d1de4d, 0x40a723f9086e26ec,
  0x409362ce7eca47e9, 0x40862d42fe99cdd5, 0x40785930184cf280, 0x406cd5c206189553, 0x405e93831242a72b, 0x404526f2fcd4b64a,
  0x40358edf3513f035, 0x402b7d4cd083365e, 0x402273d55c9e24f0, 0x4016bb703e3dec88, 0x40123dfc5ee33f82, 0x3fee3282e1077880,
  0x3fe4ada72774723e, 0x3fd89433e23783c0, 0x3fc94f21f0fd4edd, 0x3fbc07ea675f51dc]⟩

/-- `p` in `data/kl_slsqp_results.npz`. -/
noncomputable def slsqpN_p : NEntry := ⟨chars! "p", 27, 19, [
  0x3d719799812dea11, 0x3d7197999089305a, 0x3d719799812dea11, 0x3ec5c82519372047, 0x3f3bfceae4c98810, 0x3d719799812dea11,
  0x3d719799f230ee68, 0x3d71979985a532b3, 0x3d719799c05aa1ef, 0x3f536362c757293d, 0x3f7b952c0b8dc6c0, 0x3fa9e4c540885035,
  0x3d71979dadad7cad, 0x3fc6cab9b6ab1a08, 0x3fcb49227ce0af08, 0x3fbf47f8cd0abb3e, 0x3fe0cc6c20736974, 0x3fd7ca84074ac10c,
  0x3fd6ce00f6fbd7b6, 0x3fe478fbdd798e2b, 0x3feee3c5fe32c247, 0x3fedb187adf3305f, 0x3fe5a29af466667c, 0x3fd551c93c677047,
  0x3fe5bd4fd8d8d822, 0x3fe9ebf3a8d9dabc, 0x3fe393bd106367ad, 0x3f4bcaf045ec1689, 0x3d71979ba069fd8b, 0x3d719799812dea11,
  0x3fa24f45f42d6d4b, 0x3fa2aec269ad440a, 0x3fbf65ab74d1bb47, 0x3fc64943b035d722, 0x3faadcd089a1ce07, 0x3fc5d9ef0164af4e,
  0x3fe6349406d4c80c, 0x3fee8aca04956721, 0x3ff4aec385b86692, 0x3fe67229f6e2bb95, 0x3fd791ea3787a79c, 0x3fefe43add6402c8,
  0x3ff37e0abfba0d60, 0x3fe569f0185c46ac, 0x3fa5751f19b2e090, 0x3f586e71c5509d6d], [
  0x416816b63ba05c80, 0x411cb09e321acc6e, 0x411cb048c66478f3, 0x411cb00fb836d3f9, 0x40d6e9aefac8d149, 0x40d6e89d4bc49347,
  0x40d6e865b78c8a19, 0x40d6e7fe4bd010e7, 0x40c64954b81cc125, 0x40bffb771cb4e3e7, 0x40a5533f6693e281, 0x409a1ed686f0a233,
  0x408c9d6c702d908e, 0x4080ca4ffbd46739, 0x40734f9312931224, 0x4067c6da9b9e079a, 0x405c1f28e458a1da, 0x4050ac4a5af2ba21,
  0x4031c8c863a70570, 0x4024cbd0a0bfbd1c, 0x401bd6b965a0df25, 0x40149249b1b661cc, 0x4010df94b1e9cc0b, 0x3fdbb7fdeb114faf,
  0x3fd89b7511e5197e, 0x3fc54702b333148b, 0x3fce16cd48edbcd3, 0x40c35356edd76f46, 0x40a94ea6e9ca225a, 0x40a723f90686e701,
  0x409362cf36a9e109, 0x40862d3ebbd3ef1c, 0x40785944f9d64324, 0x406cd56dd394b84a, 0x405e940f69d11fb2, 0x404528d1496f62b8,
  0x4035876dd9188b7c, 0x402b8643464d4cf9, 0x40224bb25a5ecf39, 0x401699bd99113a15, 0x4011aa2802ea1c5d, 0x3ff018308b8a0c9d,
  0x3fe322925029a24b, 0x3fd684749c3de99b, 0x3fbe68797e5d0cef, 0x3fb2e2b66112b2bf]⟩

theorem npz_p_ok : (npzOk fpi_p fpiN_p && npzOk slsqp_p slsqpN_p) = true := by
  decide +kernel

/-- `s` in `data/kl_fpi_results.npz`. -/
noncomputable def fpiN_s : NEntry := ⟨chars! "s", 27, 19, [
  0x3e21d2dbb83f460e, 0x3e74ebeb8a376d73, 0x3e95ce4774bef429, 0x3eae565537c65373, 0x3ed52df465321e58, 0x3f0abba4f84ebb68,
  0x3f30076ab284de8a, 0x3f4905b9eac56643, 0x3f531c6fbe723589, 0x3f65a4a8ae1809e6, 0x3f78855273e0cfcd, 0x3f8e9e46ff6f5518,
  0x3fa46e3fe518dd35, 0x3fb4b78ed2ec4cb2, 0x3fc21dcc21f4262e, 0x3fc9cd882947529f, 0x3fce3e5d8f71ea64, 0x3fcee5dcac0769b1,
  0x3fdb928497553f76, 0x3fe814add4a41bed, 0x3feee1dbd8c104cd, 0x3feccca3475125c9, 0x3fe0b1e351930222, 0x3fe194e7b4a5437b,
  0x3fe91e6c3b43632e, 0x3fe9f6bd49385bbb, 0x3fe3e42286bc372a, 0x3f79841d86b9db2c, 0x3f8fb1f27498b603, 0x3f9b8c3680d6912d,
  0x3fb58f77754345be, 0x3fc0ff09949f6578, 0x3fcb53d49780a6b9, 0x3fd0897d68cfaae1, 0x3fd044d224e1e40a, 0x3fd362ce55a8bffe,
  0x3fe7c2348b61014d, 0x3ff24ec37488821c, 0x3ff1802c76fbe8f6, 0x3fe74b1cd9c73d9e, 0x3fdf385a5ca5e493, 0x3ff00a18fa3792e0,
  0x3ff065ad9adee4fa, 0x3fe88b317d6b572e, 0x3fd7fb21f3cd11db, 0x3fa2139c1e43914e], [
  0x416c2c32684b5a48, 0x4121089a77961d30, 0x41210825610cd5f4, 0x412107cc380d998d, 0x40d9fd7152b6de96, 0x40d9fbc84f029103,
  0x40d9fb3d89d69117, 0x40d9f9bad580fe2a, 0x40c374e8beea40f5, 0x40c23b132285bf2c, 0x40a7cb5f3b53b1dc, 0x4098c7e322791fcb,
  0x408d445d256cb49c, 0x40812f7b932f6700, 0x40740aa97e4b079d, 0x4068c83f73188956, 0x405ddc81a451763a, 0x404b15279cc24b69,
  0x4032068624739781, 0x4026737752d0d16f, 0x401e3ed8105b3b74, 0x40177ac932320b92, 0x40136fdc42b3066e, 0x3fe613f8b45af828,
  0x3fdd0896689a188e, 0x3fd5a811b9615a35, 0x3fd04d597c25d31f, 0x40c63d0464f09572, 0x40ae16ed9a327d9e, 0x40a8a2720341cde2,
  0x4094973ef6d0e268, 0x40866c1d6791aae0, 0x407941d57b62a8c3, 0x406d9049e6f6d520, 0x40601f4af900a3dc, 0x404345a8fb3c0032,
  0x4035ec0232531bfe, 0x402defe626a706e7, 0x40231349e8480f72, 0x401a22762b346cb5, 0x3ff3c7a8edacdb98, 0x3ff10f7d25e2072b,
  0x3fe59bcf320985f6, 0x3fdb745a382dd863, 0x3fcc8d319baf0490, 0x3fbfaaa796a96caf]⟩

/-- `s` in `data/kl_slsqp_results.npz`. -/
noncomputable def slsqpN_s : NEntry := ⟨chars! "s", 27, 19, [
  0x3d719799819fe866, 0x3d719799812dea11, 0x3d719799819c532a, 0x3ec537c555e3fb57, 0x3f3bfcd1be91d09a, 0x3d719799812dea11,
  0x3d719799c0dd3a78, 0x3d719799812dea11, 0x3f50d2fb87c41f8e, 0x3d719799812dea11, 0x3f882f80c9949b96, 0x3faa3521abfd9bc0,
  0x3fa04f946f0d3d97, 0x3fcf0b544cb29ac0, 0x3fccccd2560f08a3, 0x3d719799812dea11, 0x3fcf7d9dab930ddc, 0x3fcd92470b56fe40,
  0x3fe3fa7c070eb443, 0x3fec1b283fede2bd, 0x3feea2776979d38e, 0x3fec7e8e77ba3fcd, 0x3fe10c6b7f30a2df, 0x3fd194e0b70d4b36,
  0x3febb510929c064f, 0x3fd99e899e846f57, 0x3fe0b8d2ea5e1b74, 0x3f4bb32c57b05635, 0x3f39933dd45e0881, 0x3d7197999582e744,
  0x3f9d0072a933d840, 0x3fae31c1ef2df1eb, 0x3fcae09e3c8d5be4, 0x3fd6eb58c4f0ba91, 0x3fcd0a0197e6d311, 0x3fc6baeb0f596fa1,
  0x3fe7a94e98757e40, 0x3fed5206c799aeab, 0x3ff2b4956d90f87b, 0x3feb1cd373486419, 0x3fe5a9deaab3d84a, 0x3feffd0fc123592e,
  0x3ff9cfcb75bbc955, 0x3fef349b1684229f, 0x3f8ca1b35304a3ff, 0x3f38ddc812de9e69], [
  0x416c2c32684b5a48, 0x4121089a77961d30, 0x41210825610cd5f4, 0x412107cc380d8a8e, 0x40d9fd71521bf6bc, 0x40d9fbc84f07385a,
  0x40d9fb3d89d85254, 0x40d9f9bad57f665a, 0x40c374e8cb6edd8a, 0x40c23b132277b1e0, 0x40a7cb5fd907fde1, 0x4098c7e24b7c6a40,
  0x408d4461cfd9e7d2, 0x40812f78398f9074, 0x40740a9f96184351, 0x4068c8413439673d, 0x405ddc9231afe1f5, 0x404b19541853f3b2,
  0x40321d426b5236ce, 0x402657905a532c0b, 0x401ea3d558e487f7, 0x401705e50637832a, 0x40140e357d71f905, 0x3fcc6caefc1d487d,
  0x3fd0e13741547b69, 0x3fc42d7b042206c2, 0x3fd1fb6dbce118df, 0x40c63d04753a73f0, 0x40ae16ed879681c0, 0x40a8a27274eee7ae,
  0x4094973e36d11062, 0x40866c2045c6de3e, 0x407941bc02cc88e8, 0x406d8f9fd22ee18a, 0x40601ebf78e2be03, 0x40432f1b8d39a564,
  0x403659f292777a95, 0x402ce2ee9181d48d, 0x402452625f2e5cb5, 0x4018858cf06695b0, 0x3ff772a396d29d7b, 0x3ff1ac28aa2295e1,
  0x3fe7f72cdd9712fe, 0x3fdf293b6c1d6022, 0x3fbd4eb71323b081, 0x3fb2a16a34cdea2f]⟩

theorem npz_s_ok : (npzOk fpi_s fpiN_s && npzOk slsqp_s slsqpN_s) = true := by
  decide +kernel

/-- `cl` in `data/kl_fpi_results.npz`. -/
noncomputable def fpiN_cl : NEntry := ⟨chars! "cl", 27, 19, [
  0x3e619548b63a2f94, 0x3e87d23bd6ffee55, 0x3ea29b389b103919, 0x3e97b6c1306a20e8, 0x3ee5067eca2f0100, 0x3f0f145c2ba43f4e,
  0x3f2d09853941ff8d, 0x3f426666c1ebff8b, 0x3f5742c1be69c69b, 0x3f66df34f514435d, 0x3f80233631cd66a3, 0x3f926da321e9acfa,
  0x3fa75b1db3df5658, 0x3fb748c0f55297e3, 0x3fc38b5c1362e886, 0x3fcb2c2c836ceb9c, 0x3fce34a75ffddc2d, 0x3fd18d82fba83fd8,
  0x3fe0d422a765459a, 0x3feb46aa83c44cd2, 0x3ff04cddc2f807ee, 0x3feafe557fbe7257, 0x3fd02a893d01a610, 0x3fe6e38f40ecc143,
  0x3fee504ce245a0ee, 0x3feaf9645d42c134, 0x3fe698d6ce7e5614, 0x3f75a1784e86426c, 0x3f6fbdbb221da03c, 0x3f99c4f61306cfd7,
  0x3f9de47c861d1aa9, 0x3fb76b5f9b76df62, 0x3fc301db7fbba8fa, 0x3fcc72aa8bff4024, 0x3fd139cfbf4d118d, 0x3fcde739fd2fcd21,
  0x3fd9ada862b1e026, 0x3fecc538e86f5bdf, 0x3ff350bc70dc6bb4, 0x3ff1dbcce059d3c5, 0x3fe0ecaa1d22ffcd, 0x3feab2776d87ebb8,
  0x3ff489306d2eb436, 0x3ff564ede319e17a, 0x3fe3270f801fa2a9, 0x3f9253109e33b629], [
  0x41250144f4928519, 0x41250045242cf1cb, 0x4124ffe503b6d7cc, 0x4124fcf6ec503f24, 0x40dff0276bc49e4e, 0x40dfef8e99501fc2,
  0x40dfeee02fad5139, 0x40dfe955ab1c5672, 0x40c56b625e2254dc, 0x40c51b5d1fa2e979, 0x40a91afba24a6b8a, 0x409aae1b76ba7ca7,
  0x408dd3d74e88952e, 0x408183e40fc16257, 0x4074acf71dea29c9, 0x4069641a4d631883, 0x405fd59e9d599cbf, 0x4045a46e938e5327,
  0x40326ed5f9c60b7c, 0x40277c2536265480, 0x4020a691760bcbac, 0x401d31fc808abde3, 0x3ff1fbb159e05fca, 0x3fe314c10213a0ce,
  0x3fe0986dce8621b8, 0x3fd95ee284988e3b, 0x3fca2911939a1be8, 0x40ca648890c57762, 0x40b1623a2ed7958b, 0x40b11fc2c8d8b9a8,
  0x40a2ce370f30a77c, 0x4094871dadda87d7, 0x4086883c8a950a52, 0x4079e2a7309fdc0e, 0x406dd4b01c15a8fe, 0x405ff0fb11535362,
  0x404372f7fd6d97d3, 0x403678f8fdd3ea6e, 0x4030196f26f9a2e3, 0x402282e056760303, 0x402081a18a6cbe4d, 0x3ff761f82fb94439,
  0x3ff3448fcd27a213, 0x3fe65799ce08c779, 0x3fd8d09ddc58a52f, 0x3fc0f74e4b338bad]⟩

/-- `cl` in `data/kl_slsqp_results.npz`. -/
noncomputable def slsqpN_cl : NEntry := ⟨chars! "cl", 27, 19, [
  0x3d719799812dea11, 0x3d719799812dea11, 0x3d719799825db206, 0x3ec210dff1bcb6e5, 0x3f36cdb8d922e7ff, 0x3d719799812dea11,
  0x3d719799812dea11, 0x3d719799812dea11, 0x3d71979b12c38aa3, 0x3f533ac4b8c42047, 0x3fa5af3831fac71d, 0x3fa3343308f5bfc8,
  0x3fb574eaafcd5c5a, 0x3d719799812dea11, 0x3f515ef46998f010, 0x3f938286ca351034, 0x3fd1255f5a4a053e, 0x3fb06e5fca4d0258,
  0x3ff074490f35ace3, 0x3ff72c5fd46a21e7, 0x3ff6c5637ab189f9, 0x3ff5c8e99c9d35f6, 0x3d719799a18cda69, 0x3fa21e690e468a00,
  0x3fd9312992aad19e, 0x3fe0ab3d80ea426e, 0x3fb0cce85de8dfe4, 0x3f4339ecd220017d, 0x3d719799987bca42, 0x3d719799812dea11,
  0x3fa290a683518447, 0x3fbd567d3e53a196, 0x3fd09bd1ec1a9ee7, 0x3fd6aa55ebecd4ca, 0x3fd682599e9cc863, 0x3fc8a59647d697c3,
  0x3fb8bce34db249e6, 0x3fe11da2f19feeae, 0x3fef3aaae73a81c1, 0x3fc0201012ae2874, 0x3feab3d75cd67b23, 0x3ff7c7ad1c34d0ab,
  0x4002998dd3ba8ac7, 0x3ffcc0bd871c0f11, 0x3fe707040dad3fa1, 0x3f406ab63cb9ecc1], [
  0x41250144f4928519, 0x41250045242cf1cb, 0x4124ffe503b6d7cc, 0x4124fcf6ec5024d4, 0x40dff02764a1f01e, 0x40dfef8e98f50b71,
  0x40dfeee02fae3e75, 0x40dfe955ab1c04cc, 0x40c56b6248b80677, 0x40c51b5cceb3414f, 0x40a91af7baa79202, 0x409aae1b6cfb83ad,
  0x408dd3d741ba3a80, 0x408183e15a586464, 0x4074ace3a84797f4, 0x4069644a8814f23b, 0x405fd7c17b694fa0, 0x4045a7dc7d4cd5dc,
  0x4032be71f7bff540, 0x4026f7fbad36958d, 0x40211cc0272e377f, 0x401c016b2c2e8121, 0x3feceb050aafb3dd, 0x3fe3499fe3231a76,
  0x3fc94b4158bd74d9, 0x3fd05295581a1347, 0x3fc0719b772bfe76, 0x40ca648851a87d9e, 0x40b1623a2ee1ca79, 0x40b11fc2c94542ba,
  0x40a2ce3741b02f99, 0x4094871024dc7750, 0x4086883a035c3227, 0x4079e21cdf6b9579, 0x406dd4d4c8200f64, 0x405fe6b19e98c7a4,
  0x40432e72f2e6303e, 0x4037a8b976819f64, 0x402bf70a4b557ad7, 0x40236509779498e8, 0x401d3f12eb1c2e5e, 0x3ffad2eb21b0c99e,
  0x3ff0634f4df341ab, 0x3fe4676eabde8542, 0x3fda37fc1bc81416, 0x3fb682dff820eff0]⟩

theorem npz_cl_ok : (npzOk fpi_cl fpiN_cl && npzOk slsqp_cl slsqpN_cl) = true := by
  decide +kernel

/-- `ar` in `data/kl_fpi_results.npz`. -/
noncomputable def fpiN_ar : NEntry := ⟨chars! "ar", 26, 19, [
  0x3e6c3d6aa2857e54, 0x3e8ed00ac7510a31, 0x3ea469900b5bb3aa, 0x3eb8f2d48c5f971c, 0x3ef4aebe0c8a2900, 0x3f1bbf984028906d,
  0x3f3818478639336e, 0x3f4874dcedeec4a6, 0x3f5d8bd10ec6cef3, 0x3f61008c5788b9fd, 0x3f8240ca0f4d303d, 0x3f964d4b8f2d82c0,
  0x3faa0bd000cbb4cc, 0x3fb9eb211df6f622, 0x3fc4c0c1ce83018f, 0x3fcccce1af0b1464, 0x3fce7c6c7c7077ee, 0x3fd45c992e85d782,
  0x3fe3f294ae28839f, 0x3fed8ee4b10fa567, 0x3ff061294a344c5e, 0x3fe7b6a8177126a6, 0x3fdc90e1747829b9, 0x3fed0c44b516add2,
  0x3ff234520390c499, 0x3fefcb70e62b223a, 0x3f792ca73c440131, 0x3f8109d607780676, 0x3f9d5de6ddbcfbf4, 0x3fa499cac26d6b13,
  0x3fb7fadb5357f844, 0x3fc5876bc6c57e74, 0x3fcccaf90f378a2e, 0x3fd29ef27196ed94, 0x3fcaa3314cb83800, 0x3fe030221266088e,
  0x3ff114378b0f9b01, 0x3ff2b4b1cf8db12f, 0x3ff1309b80ecb829, 0x3fbf9a77e6098c9a, 0x3ff4310058c71509, 0x3ff94b7ea6c8f504,
  0x3ff7c44a1d1206a5, 0x3fe586022cf5a32f, 0x3faf3196c3912a94], [
  0x412b3057cefdf06e, 0x412b3040aa96253d, 0x412b3034d4d3bff2, 0x40e0f365d2bdaf9c, 0x40e0f3312494b367, 0x40e0f322c3ff277f,
  0x40e0f30d200fdd70, 0x40e0ed950b146d96, 0x40ca382e64270fc7, 0x40bcf3acdb9ddba5, 0x40a88c6dea60ecea, 0x409af54c2b6c0a4d,
  0x408e8133d8ee11dd, 0x4081bbd30312187f, 0x40755caf9414389a, 0x4069168a74fbfd0d, 0x406159a7d6984b7c, 0x40433f3ea8973095,
  0x403392823f73ce12, 0x402864e4fc9320db, 0x4022c773bd017c08, 0x402165190977a58f, 0x3fecf3b83bc7553a, 0x3fe3f26b6eccd50f,
  0x3fe0f393d3a51f88, 0x3fdb27a1b9e4eab4, 0x40cf110f60654b59, 0x40b24846918459ca, 0x40b23ab47b82e457, 0x40a042e936d3bda9,
  0x4094f7dd9b2333d6, 0x40868430b42bb993, 0x407a8a9ef113cfb9, 0x406d28026804c9a3, 0x405ae3a61f8dadab, 0x40428fd9132fb560,
  0x40384f0138f6aae9, 0x402f435dd2f49e9e, 0x402458e462dd8116, 0x4023471803007ba2, 0x3ffbf065b1379901, 0x3ff5d8365cf2c307,
  0x3fe8235a385950a7, 0x3fd650b552a4d0f2, 0x3fc7bf2178cc7367]⟩

/-- `ar` in `data/kl_slsqp_results.npz`. -/
noncomputable def slsqpN_ar : NEntry := ⟨chars! "ar", 26, 19, [
  0x3d719799812ea852, 0x3d7197998c8b5ad3, 0x3ebfb29a2e51d13a, 0x3f3be93d466d5af9, 0x3d71979988b68da3, 0x3d719799812dea11,
  0x3d719799ba457205, 0x3d719799812dea11, 0x3f3d08e51064dd7b, 0x3f5d437e2da0e3f8, 0x3f96ce8522ac3963, 0x3f8eb0c529014854,
  0x3fc5d180f6e8fd7b, 0x3fc967ff9cf5591c, 0x3fb4b4608767f4c4, 0x3fdaa183a0a29c4d, 0x3fdc8428118fe511, 0x3fdbc6eb4424c64b,
  0x3fe46b2d824a437b, 0x3feb7f81fd3a9f9a, 0x3fea78a5d4c6509d, 0x3fe278d5a0cb11ce, 0x3f8477797643be53, 0x3fd3f3888fcb2c3c,
  0x3fea19f953c30a01, 0x3fea95e6a7f21ba7, 0x3f453c43f8e61ef0, 0x3d7197a07237a5e3, 0x3d719799812dea11, 0x3f7e814f72871ccf,
  0x3d71979db67a2c2d, 0x3fb6445f8895ada4, 0x3fc75d417f9edda5, 0x3fb400d78e6eab13, 0x3fc133910f589877, 0x3fe168bb675b80b7,
  0x3fef521fb3a0f823, 0x3ff7b4d4cf11db87, 0x3ff160410c3b0dff, 0x3fd5281d77c4052f, 0x4000b3e796b8a4db, 0x400673d102d7e427,
  0x3ff89370330ed40d, 0x3f67b50b0676231c, 0x3f0f175a74eab193], [
  0x412b3057cefdf06e, 0x412b3040aa962507, 0x412b3034d4d38b47, 0x40e0f365d2ad5da2, 0x40e0f3312499fe4d, 0x40e0f322c4017041,
  0x40e0f30d20118406, 0x40e0ed950b1470b7, 0x40ca382e651fc4d5, 0x40bcf3acddeed91e, 0x40a88c6dfcf0fa5d, 0x409af54c4d41e305,
  0x408e8133249b50f6, 0x4081bbd88769168e, 0x40755cab360223ae, 0x4069168266dda8c2, 0x4061598e7681e773, 0x40433e40057d37ad,
  0x40338157108c4f90, 0x4028ae14240268e4, 0x4022a07d306b4268, 0x402168810de1bb6c, 0x3fbf8480e2c3be6e, 0x3fc9c4b9dd544384,
  0x3fd584c9b76bad65, 0x3fd5332cb6395758, 0x40cf110f607e2ee9, 0x40b24846917c2e6d, 0x40b23ab47a74f81b, 0x40a042e9498d7c83,
  0x4094f7dc3bd259ef, 0x40868438de53de71, 0x407a8a79d2376d01, 0x406d280c1966d022, 0x405ae4710145f91c, 0x4042988fc6efb7d5,
  0x4037ef7587a9a54f, 0x40304eda613c8ebe, 0x40232ee08008534d, 0x4023211a091ce4ba, 0x3ffe24b446e7173e, 0x3ff192b5c891714a,
  0x3fe51864c02ddfde, 0x3fc26623a72c6337, 0x3fb5c966028942fe]⟩

theorem npz_ar_ok : (npzOk fpi_ar fpiN_ar && npzOk slsqp_ar slsqpN_ar) = true := by
  decide +kernel

/-- `k` in `data/kl_fpi_results.npz`. -/
noncomputable def fpiN_k : NEntry := ⟨chars! "k", 29, 19, [
  0x3e7154f3fee7b30a, 0x3e928526be3389e0, 0x3ea8214f326f2557, 0x3ec20206e005b188, 0x3efc03105fffc65f, 0x3f22670495995ea9,
  0x3f3f5a3967e6bc04, 0x3f4c4a04d13e44a9, 0x3f61d770234881ff, 0x3f68d5ddca9b1cae, 0x3f8502d1383b2626, 0x3f9a119b8832a7e7,
  0x3fad84698eade6f8, 0x3fbc88e759a07eee, 0x3fc648c141d89e9f, 0x3fcdd50d7bcc9d25, 0x3fcf3db9040e5837, 0x3fd6ed9ab4f35ed6,
  0x3fe5fd2fc35fdaa7, 0x3feeeb6dd11f5512, 0x3fef2d1310057318, 0x3fe2ae6514331bd1, 0x3fe25a42e735e6cb, 0x3fed9af63317107f,
  0x3fef23d182b8f63b, 0x3fe7467b84821fcb, 0x3fd734795fafdb49, 0x3fe70884deb2bd5f, 0x3fbb36d4d2a6d937, 0x3f7dd95178d8f168,
  0x3f838a79091241ed, 0x3f9f08d2d517e4b6, 0x3fa8c1a55bcf9a8c, 0x3fba867a1dd59986, 0x3fc73499a04b1b43, 0x3fce7caafe3fd9f2,
  0x3fd2a340436ed2b7, 0x3fcd199c0c210226, 0x3fe3b21cf175f0a1, 0x3ff23953e9e12e55, 0x3ff310dc4daa090a, 0x3fec7075db35248a,
  0x3fe31a5464274089, 0x3ff70bb7b280beb0, 0x3ff745de200dd462, 0x3ff0577cb7c617d2, 0x3fdb245e7454dc6d, 0x3fd14e17a880802f], [
  0x412bc85ea331ae6c, 0x412bc84c017a3797, 0x412bc8429876c1e3, 0x40e175c5cc7eb19a, 0x40e175a2337ffddd, 0x40e17597a2255313,
  0x40e17586a65b37c8, 0x40e167cab506aa02, 0x40cb56d3580de671, 0x40b08089ecee12dd, 0x40a93075092b6d63, 0x409b02aaac12a0c9,
  0x408f2e8f3ceb5473, 0x4082113a97b0359a, 0x40760ab0a8d6a394, 0x4069a32099042815, 0x40609044956e75ac, 0x4041534cc6efe488,
  0x40345337f45ba379, 0x402a7238d9aad1b8, 0x40262fd67cd39105, 0x40244b6dbd5c2a20, 0x3ff0107f74105e2c, 0x3fe8bfe6a34cd268,
  0x3fe436ac39064286, 0x3fe0cd3861aa593b, 0x3fd1b2c459e8b758, 0x3faa7f64ddb5e39e, 0x3f9e9490ca631adc, 0x40d03da244faedd6,
  0x40b33ee17c0a5ed4, 0x40b3231f42fcbbe7, 0x40a0a6c4c7984ea0, 0x40955301e9cec824, 0x4086e2746905fccd, 0x407b2683036886a5,
  0x406d3d3efc0a721f, 0x4056b77a749a8783, 0x4042acc1d41a066f, 0x403a700266b0e857, 0x402ed13766438402, 0x402842d4de6adbed,
  0x4000e9eaddb7291f, 0x40004600826fff7d, 0x3ff72f714e27440c, 0x3fef16423bbe72ab, 0x3fe4edd8fefca236, 0x3fbd9d1dcb8d6722]⟩

/-- `k` in `data/kl_slsqp_results.npz`. -/
noncomputable def slsqpN_k : NEntry := ⟨chars! "k", 29, 19, [
  0x3d719799843303d7, 0x3e6cf0d91fe95388, 0x3ec1dfe5637bc7e1, 0x3f40fb43cc71ca24, 0x3ed025bc00bdf3aa, 0x3efb13e28f11034b,
  0x3e9f5cced4cd75a1, 0x3d71979b9b64fe6c, 0x3f46f5a6045d7508, 0x3f865906baa64c09, 0x3f75c4a9088f1532, 0x3fa9139e246b6ffd,
  0x3fb5e4cb2fc79e34, 0x3fdbe8b5bab9fef0, 0x3f58a56b4e9a8b4e, 0x3fe205f0ef188d21, 0x3fdad8f0c4afe7ce, 0x3febb8319e88549c,
  0x3fea505223765e1c, 0x3fedfb74922bcc22, 0x3fe6abab4b3822c8, 0x3f465a095a16a1fc, 0x3f57f532a04cf3c4, 0x3e62f479b984f6ea,
  0x3d71979a27ca4cf0, 0x3d71979a2ede3249, 0x3feeea94dee3f5c8, 0x3fb46a3b9fcf32e2, 0x3e48405562ec90fd, 0x3f514a2a663ad410,
  0x3d71979adcde2590, 0x3d71979b4770fdfa, 0x3d71979e9e962113, 0x3d71979f53754ba4, 0x3f318155055895d4, 0x3fc7fe4ed83c8e64,
  0x3d71979e64206742, 0x3fa069d10d6ed317, 0x3fddfa9ab7a8ddd5, 0x3ff47c8fd2ef1e19, 0x3ff24e5eae72e165, 0x3ff93c790f69c6dd,
  0x3fe6f8f6b7dafdb1, 0x3ffa28eb9e231445, 0x4006dabd75692f1a, 0x40008d714df9aac8, 0x3fecfdf343d456fd, 0x3fc5c117c2457216], [
  0x412bc85ea331ae58, 0x412bc84c017a36ec, 0x412bc84298766d6b, 0x40e175c5d2f4a84d, 0x40e175a2314858b4, 0x40e17597a0eda4c1,
  0x40e17586a763a8be, 0x40e167cab5054767, 0x40cb56d2bdcebb07, 0x40b0808a8b75b3c6, 0x40a930716a04cc4a, 0x409b028150be039f,
  0x408f2e6dccb3edb3, 0x4082112dc2f11f60, 0x40760a8d4e858466, 0x4069a40de169b087, 0x406090f3d1c7c094, 0x404160cf43afe6d0,
  0x4033f798ad61907e, 0x402b18f37326eee2, 0x4025de3d3f1440e1, 0x4024515dabf0d069, 0x3f93513d7c0e23d5, 0x3fa6b8caaeefaf02,
  0x3fe81f51bf8b821c, 0x3fe7b2da98d186a3, 0x3fb2038f8f57b6b7, 0x3f9e32ee231171f8, 0x3fc4641001973fdb, 0x40d03da21c88b0be,
  0x40b33ee17be850b6, 0x40b3231f41026413, 0x40a0a6c4f04f6355, 0x409553011f712a56, 0x4086e287fe2e6550, 0x407b243b2f5acfc7,
  0x406d3d3867c45c7b, 0x4056b6770d2cc404, 0x4042edba49ae06be, 0x40387016ee3def14, 0x40312fd42cdc3741, 0x4026afec707e5575,
  0x4002fb1a2351dc4c, 0x400204c36e9c8e3f, 0x3ff6775d2cef067e, 0x3fed50650588ef95, 0x3fe233dcec47f5c5, 0x3faa970175b43eeb]⟩

theorem npz_k_ok : (npzOk fpi_k fpiN_k && npzOk slsqp_k slsqpN_k) = true := by
  decide +kernel

/-- `ca` in `data/kl_fpi_results.npz`. -/
noncomputable def fpiN_ca : NEntry := ⟨chars! "ca", 29, 19, [
  0x3e71d54a309a6b61, 0x3e90961296018bc4, 0x3ea330b777b29516, 0x3ed55b14d1cfbaec, 0x3f0c8e92b782251d, 0x3f31ffb6c6be00e4,
  0x3f4d856f216b3f35, 0x3f4ac6320a7e7043, 0x3f63342b51f24f36, 0x3f6e33a5abfb837a, 0x3f86e57678d2574d, 0x3f9e304b16c30fec,
  0x3fb0a033ddef0d48, 0x3fbf34155ad5a949, 0x3fc80454d9b1fcf7, 0x3fce797850f204dc, 0x3fd0513f935e5b3e, 0x3fdaafdfb760f097,
  0x3fe7dc025200d264, 0x3ff03d287f1da192, 0x3fedb1e422765533, 0x3fcbf65ff30aa469, 0x3fe674acd7244c2e, 0x3fef93dfe3e496ec,
  0x3fed55d2a5b78f2d, 0x3fe3208f0a347c9a, 0x3fe173e02ea2cbb3, 0x3fe5f4d0030290eb, 0x3fc768b46939ef96, 0x3f7d7a05d5ab6f79,
  0x3f868e4b676fcc24, 0x3f9f9e2b7913da13, 0x3fae7ba30c937e11, 0x3fbd2b0189638c27, 0x3fc8c21e39bca57e, 0x3fd06e49fa594cf6,
  0x3fd1c9d183682ce0, 0x3fd06b46928b5b08, 0x3fe84a54c769c52a, 0x3ff2237b092d47ba, 0x3ff4e27c5991dca7, 0x3fe777a650d08d5a,
  0x3fef169ff4f9146a, 0x3ffbc47ff1442848, 0x3ff77cfcdafce85d, 0x3fec1600cd142c8a, 0x3fdbae81ea974bd5, 0x3fe09850615948bf], [
  0x41311cfab2f48471, 0x41311cf70d0365ed, 0x41311cf50cc69824, 0x40e4634085a38904, 0x40e4633e0c778111, 0x40e4633d1dac1164,
  0x40e4633b54aaaf75, 0x40d06f0b70ec6afa, 0x40cdfcb635205005, 0x40b066938d9a17d6, 0x40a8d6948452198d, 0x409aeeb2678efdbb,
  0x408fb5efa870aca5, 0x40826740cfa5fa5e, 0x407684e73683bdc2, 0x406afc9fcb16132e, 0x405ceaaa5a630cea, 0x4040e6f7d32936da,
  0x40343ee893429a3a, 0x402c9fb0966113d8, 0x402ace98bf228544, 0x40273b801437f5d1, 0x3ff058db4d6825cd, 0x3feb54f647a54980,
  0x3fe7db9a1ab14f49, 0x3fe28f20e08322e1, 0x3fc3e1d9850c55f3, 0x3fb1b98bea8049f8, 0x3fa659a6d1487421, 0x40d1bcaa550f46ce,
  0x40b558466a36a71c, 0x40b520e9a8af35ea, 0x40a1b2af036b970e, 0x40958877e101ced9, 0x40876b7bc55fec9d, 0x407b52cb2f088aaf,
  0x406d62aeada87f9e, 0x4054806ac15c0b83, 0x4043bf38cf278e01, 0x403cac4e3ec027b2, 0x402f8696434b2d38, 0x402e830075e997bc,
  0x400399756093a67c, 0x4003019836e1a54d, 0x3ff98e7f98a0234c, 0x3ff2594e25138fcb, 0x3fca8ca9f936b913, 0x3fbe5174c19989d8]⟩

/-- `ca` in `data/kl_slsqp_results.npz`. -/
noncomputable def slsqpN_ca : NEntry := ⟨chars! "ca", 29, 19, [
  0x3d719799859d453d, 0x3d719799812dea11, 0x3ebf1e04bc45ed60, 0x3d719799812dea11, 0x3eb829a3e77ecdd5, 0x3f3f5ab00e842617,
  0x3d7199bf4301653a, 0x3d7197998140b06a, 0x3f4fe2f758f08dc4, 0x3f8dce55b0ef670c, 0x3f907d420a48a414, 0x3fa1504f95f554ba,
  0x3fb7680ae48ae21d, 0x3fe11a76bf7c5d3e, 0x3d7197c128a9dca0, 0x3fdbe50dd231b610, 0x3fce1512b307b21c, 0x3ff3214bb954a2e8,
  0x3ffb7b44525198bb, 0x3fa294a3a9a3b936, 0x3d71979a0008c9f7, 0x3fb3824d1455c963, 0x3d719799a7016132, 0x3fbbf6f8701b3ee6,
  0x3ff141b9ce6d59a4, 0x3d7198124bb089f0, 0x3fe579fba93f7710, 0x3f6a0ca13c8935fc, 0x3e7ad7c49890e922, 0x3f512ac1cf1ba083,
  0x3d71979e956f4cf5, 0x3d71979bcf4a0976, 0x3f8c2837ffaf1873, 0x3d71979984101ee6, 0x3f39fade631c8999, 0x3fd087172ceb91d2,
  0x3fc23ecc9319cffb, 0x3d7197c7ba2e9a94, 0x3fdf7387bd485c4c, 0x3ffe74654fb55d48, 0x3ff27db679750eb5, 0x3ff3326f3539f97f,
  0x3feed79ac1e1cf09, 0x3fffda11e2bd8837, 0x400c8687bc6d0c4c, 0x3ff79eb1f4ad3144, 0x3fcac06e307e8d8b, 0x3fd82b7b7dab28d4], [
  0x41311cfab2f48465, 0x41311cf70d0363f2, 0x41311cf50cc6832f, 0x40e4634085ff5006, 0x40e4633e105a1c6d, 0x40e4633d1e3071cf,
  0x40e4633b633ed0da, 0x40d06f0b70df275c, 0x40cdfcb6529a9cc5, 0x40b0668d75aedd72, 0x40a8d6a2976e9222, 0x409aeeb51cbfc77c,
  0x408fb59ec04d0c51, 0x4082671b5b9c05e7, 0x40768520f622b767, 0x406afe900bd3e9b9, 0x405cf2186ee38dda, 0x404157029894a8af,
  0x4033b40b26fe6852, 0x402be113ca2f910c, 0x40299759d370b76c, 0x402a6d8322e3c574, 0x3fe98b5c725136e5, 0x3fa5776175e85b5c,
  0x3fc13b41d16cddca, 0x3fefee7aea455854, 0x3fb069afc26015e9, 0x3f9c08f6b79d75ff, 0x3d71985e3f29cc09, 0x40d1bcaa4da5ec99,
  0x40b5584669deba1f, 0x40b520e9a7589ca8, 0x40a1b2b3d10ac7ee, 0x4095887651baa342, 0x40876bd70aafc49a, 0x407b51783a3470c3,
  0x406d5d2d27377885, 0x4054794ba179573f, 0x40449aa96718bcc7, 0x403883ea19daec3b, 0x402c3e5754fc8100, 0x402c6354482ba5c3,
  0x4004cf02ec16d50f, 0x4005099c1f803145, 0x3ff845163afe5fe5, 0x3feca26d414c0ff1, 0x3fc90eb11cb1e679, 0x3fbcae2dfc32bec2]⟩

theorem npz_ca_ok : (npzOk fpi_ca fpiN_ca && npzOk slsqp_ca slsqpN_ca) = true := by
  decide +kernel

/-- `sc` in `data/kl_fpi_results.npz`. -/
noncomputable def fpiN_sc : NEntry := ⟨chars! "sc", 30, 20, [
  0x3e70ac3d575f4108, 0x3e8cc4278e21af2e, 0x3e9c41d6b369c64e, 0x3e9ef4979d338b0a, 0x3ee28ec55902dd39, 0x3f0d1367e32da01a,
  0x3f2c62841713482a, 0x3f434ef4d3bf4a9a, 0x3f49bc8e42e02d37, 0x3f5e5aa919032fab, 0x3f709962655090e3, 0x3f88ad06f8b82df0,
  0x3fa14f146becf803, 0x3fb290da639f2282, 0x3fc0d5820ae47d42, 0x3fc994744b0c8397, 0x3fcee47c971b8e11, 0x3fd1dcccc1adabe6,
  0x3fdf2b4f74c81bb7, 0x3fe9faeaefe9e195, 0x3ff0ae02be76e404, 0x3fec0c1ae9277f4a, 0x3fd645a76c1b22c3, 0x3fea06962fa7f021,
  0x3ff08e132a5a8b7a, 0x3fed2d7443d7c9c3, 0x3fe50e288ffe8a60, 0x3fe379a12154f5fe, 0x3fe4c2539f409d76, 0x3fc595442cd01547,
  0x3f61169099642517, 0x3f77895b4b22984e, 0x3f8a10d488c82dbc, 0x3f9e212bdaa1fdf1, 0x3fb2b922a70395ab, 0x3fbfe12e7112c02b,
  0x3fc9e99fe72d7ee3, 0x3fd1888f61ad80f2, 0x3fd0d40adaeabdb4, 0x3fd3adce58c3111f, 0x3fec3a8ab2dd36ae, 0x3ff218d289804e4e,
  0x3ff4e72ac113c4b4, 0x3fe15ec383c8bd49, 0x3ff4b80fb4cd78c1, 0x3ffeb2cbdcd9b2b2, 0x3ff76e79891610fe, 0x3fe7c6378b65a343,
  0x3fe0ae9baf52fad7, 0x3fe06e0141de2b6d], [
  0x4135ac1e39b94bc2, 0x4135ac1da87ab5cb, 0x4135ac1d443d383e, 0x40e60fcb567d8e64, 0x40e60fc49d49a4e9, 0x40e60fc2fd22d688,
  0x40e60fc18c0727f5, 0x40e60fbe32596ac5, 0x40e5f33de62316b5, 0x40d180038d4c0ab7, 0x40b1c1d5707513a3, 0x40a688d645dda785,
  0x409b264397f85b17, 0x409034204c5056dc, 0x4082cd185c9aca38, 0x4076e5ce11dbccf4, 0x406c9e833d9e1143, 0x405929c01a1f71ca,
  0x4041b8444d1878c5, 0x403483cb45ce1938, 0x402f3bfb37b489d0, 0x402de6aa2b2e0aab, 0x3ff7268d2314b06a, 0x3ff23c49f28cf94d,
  0x3feef9b7c2882ed9, 0x3fe9223d5a1272ae, 0x3fdc2871392c987a, 0x3fc5d2660f91ffad, 0x3fb37bc2a45a59ec, 0x3fa879eab446f402,
  0x40d4ece69077cc75, 0x40d4ecdd5268c3ba, 0x40b8eb896da108f4, 0x40b8675a84ea00f9, 0x40a33dafa7b28cbc, 0x409595607e4960b4,
  0x4087f91760710b86, 0x407b79025254b025, 0x406c992255a5d3bf, 0x4051bd01a1ee8b04, 0x40451c5717fbeec8, 0x403d2c3a7afe0d6a,
  0x40317107bf38c8ae, 0x403140b61e7e5be2, 0x40061f6ecc374f85, 0x400548055ff771cc, 0x3ffa6cc1a02f67b5, 0x3ff39ef77a28ea78,
  0x3fce63ed699f2216, 0x3fc0becfdc37aa96]⟩

/-- `sc` in `data/kl_slsqp_results.npz`. -/
noncomputable def slsqpN_sc : NEntry := ⟨chars! "sc", 30, 20, [
  0x3d71979981491155, 0x3d719799812dea11, 0x3eba21184ad7bb54, 0x3f42e7c659f06a97, 0x3d719799a3c4e11b, 0x3d719799812dea11,
  0x3d71979ab06047b7, 0x3d71979a999d14a6, 0x3d719799c7a19ab4, 0x3f40c62eaa9ffed4, 0x3f95ce2b4ea1afde, 0x3fa83fc78a95acb1,
  0x3d719799812dea11, 0x3fc9db7ba9676238, 0x3fcd994452488e5d, 0x3d71979c0d360917, 0x3fd386f0c3448a5f, 0x3fcddd661a1ad210,
  0x3fe9147463824b9d, 0x3feb94126e23aeae, 0x3fed41909790d9f2, 0x3feb4537712d555e, 0x3d719799812dea11, 0x3d7197a01766b5bd,
  0x3fd9df8a06bde4a8, 0x3fdc9b012d6d1927, 0x3d719799812dea11, 0x3ff8a636b3e866a6, 0x3fba95c42d6f6981, 0x3f67f23bd3b663f7,
  0x3f53e1a2607f5f4c, 0x3d719799812dea11, 0x3d719799812dea11, 0x3d719799d374fbbd, 0x3fa56448de921d5e, 0x3fadbe03e8ffe14d,
  0x3fc84977354902bd, 0x3fd630a89954ac40, 0x3fcd73c18e918364, 0x3fce5347578db472, 0x3fe619ebf90530d5, 0x3ff8e399594fc276,
  0x3ff465739e7c8c7e, 0x3fdde61e3f6d50a1, 0x3ff440aaac1c06ac, 0x3ffde53152515027, 0x3ff951d78c19350a, 0x400e7a40602ddc16,
  0x3fcf18c05b42b927, 0x3fc7cb5df1f70f6e], [
  0x4135ac1e39b94bc2, 0x4135ac1da87ab473, 0x4135ac1d443d3726, 0x40e60fcb567c74d6, 0x40e60fc49d3ceab4, 0x40e60fc2fd31b29c,
  0x40e60fc18ba5d03e, 0x40e60fbe325a3cfd, 0x40e5f33de621a196, 0x40d180038cf9cf56, 0x40b1c1d597a60eb2, 0x40a688d568b51596,
  0x409b26433c491f81, 0x4090341dd01f65a6, 0x4082cd1bd50c0004, 0x4076e5b6fc9becaa, 0x406c9e71482b8a55, 0x40592e8b85f72585,
  0x4041c4d98518df5c, 0x40349f5e6dde524f, 0x402ef78c3c3f3048, 0x402da72bd2708fb4, 0x3ff04b4d35ad4d5b, 0x3ff9acac9e3ea280,
  0x3fd67a5e45dfd75f, 0x3fc51b225fcc08e5, 0x3fe26134f053bf8a, 0x3fba4e0314f72338, 0x3fa78e90e251c30f, 0x3f9eab34176a82c8,
  0x40d4ece68cddaec4, 0x40d4ecdd517a1c4f, 0x40b8eb896dadcca7, 0x40b8675a847db9fd, 0x40a33db03c2310f0, 0x409595561a2cb582,
  0x4087f9418afedddb, 0x407b785a18c5526c, 0x406c98760c9abc31, 0x40519eb39b273883, 0x40456ee095e3dda3, 0x403bee52f07879a4,
  0x402f77fed57733dd, 0x40307219f2792f2b, 0x40087d3f2a106384, 0x40083beb8cac69c2, 0x3ff04678fa1e4d2c, 0x3ffc0a3a80c2129e,
  0x3fcca6c233fba4b5, 0x3fb3db089ed150bb]⟩

theorem npz_sc_ok : (npzOk fpi_sc fpiN_sc && npzOk slsqp_sc slsqpN_sc) = true := by
  decide +kernel

/-- `ti` in `data/kl_fpi_results.npz`. -/
noncomputable def fpiN_ti : NEntry := ⟨chars! "ti", 30, 20, [
  0x3e72b861cac64824, 0x3e9193a69b17d129, 0x3ea33fffc1ae653a, 0x3ea02edb7c4084ba, 0x3ee5ecbe31d7b5c9, 0x3f1129bba102457d,
  0x3f30b4e06b31f19b, 0x3f46a3466e01b4d3, 0x3f4b566d35ecc21d, 0x3f61016074a61cf8, 0x3f735833be490126, 0x3f8c2cb0532f3f9e,
  0x3fa3701f39c49b83, 0x3fb4638b02ec5fe4, 0x3fc1e40ef0705083, 0x3fcaa54bed93426c, 0x3fced22ed5279fc3, 0x3fd379e1b65f427e,
  0x3fe278fc5502ceea, 0x3fed41f9331228ee, 0x3ff1486b187ef88d, 0x3fea674dd8c3f795, 0x3fe0f684913b4d6d, 0x3ff037bd0c5d6b8a,
  0x3ff2d0a3d2ef08d9, 0x3feefa1c67e3e1a6, 0x3fe9e645dca74dfe, 0x3fe43e9800f6b0b2, 0x3fe45c16bcbac74d, 0x3fc39fb02bcf33cd,
  0x3f638f885ca121c3, 0x3f797cec891d93f7, 0x3f8dc2b4648fad5a, 0x3fa02a6208b16101, 0x3fb4eaaed23ec629, 0x3fc1464015fa5630,
  0x3fcacf4ff880b97e, 0x3fd2191cc0788701, 0x3fcf5348950c16c2, 0x3fd9c836f7157c47, 0x3ff074524ee357e9, 0x3ff3972005b6ac37,
  0x3ff3920ac96b3f28, 0x3fbf054a92decb19, 0x3ff825d18357776e, 0x3fff0f7d429ecaaa, 0x3ff8bb0e8ef05473, 0x3fe460f3f5c3a2a6,
  0x3fe025e3a4fdab1c, 0x3fe0281ab9f34406], [
  0x4134a06d35c0bb4e, 0x4134a06c6cb79d1e, 0x4134a06bebfbd68d, 0x40e6d27c49d336f2, 0x40e6d2716764c80d, 0x40e6d26f3ed79238,
  0x40e6d26d589bf6e6, 0x40e6d268d445069d, 0x40e64966cca2953b, 0x40d1d4be0dfe2f6f, 0x40b2a3c2eec512f2, 0x40a6841e32276e02,
  0x409b966a08d12151, 0x40908ccf9392608c, 0x408347902825002b, 0x4077607a0561b9d8, 0x406e883818f173b4, 0x4056155e4f2321c5,
  0x40421dd863f363e0, 0x4036465c71ea2171, 0x403190eae2d4344b, 0x40305b18e52502b1, 0x3ff94513b64a4e32, 0x3ff5271c9697b2a5,
  0x3ff29dea27b0e732, 0x3feab2c6b7d85957, 0x3fdb2d6ff85bf8ae, 0x3fc757e1cb43964f, 0x3fb4bcdfa7d16059, 0x3fa9f4197f4c7e25,
  0x40d5907c01591aab, 0x40d5906dccdc7341, 0x40b9e56198141d5c, 0x40b92483b39ed6e1, 0x40a3bd9d2f6e8e3d, 0x4095d0a0430ef56d,
  0x4088759f52d06446, 0x407bc6025107d1be, 0x406bf3f890bacf82, 0x404f00f76e2c3a22, 0x4045bc2920b3b78e, 0x4039c4d3cfbec4d9,
  0x4032d41592d1f61e, 0x400d201e8d7039e3, 0x400a04e6d68da6e2, 0x4006722943d77469, 0x3ffc104ba15010fa, 0x3ff252fff21a2a6c,
  0x3fd0be4d4389a62d, 0x3fc2410ba4c9c024]⟩

/-- `ti` in `data/kl_slsqp_results.npz`. -/
noncomputable def slsqpN_ti : NEntry := ⟨chars! "ti", 30, 20, [
  0x3d719799812dea11, 0x3d71979989667887, 0x3ec091b8e2f69b80, 0x3f4451d977203745, 0x3d7197b842e9c3be, 0x3d719799812dea11,
  0x3d7197a5ea87b417, 0x3d719799812dea11, 0x3d719799812dea11, 0x3f45cc475e73d4e2, 0x3f98e405bb0c54a2, 0x3faf7c94604ee069,
  0x3f761c41d1698bf6, 0x3fbf7b29a5ee9235, 0x3fbd3c6b3e42cb04, 0x3fdad2de49a20c7f, 0x3fde93218cda6425, 0x3fceb0e606bc6413,
  0x3fe5207205979524, 0x40060d66052e2dfe, 0x3f647520f4ed90db, 0x3d719799812dea11, 0x3d71979c8cc14eea, 0x3fe3fa3b68116863,
  0x3faba9b7f8454615, 0x3d719799812dea11, 0x3ff1d8fbb6d2f582, 0x3ff07dd06df7b1c0, 0x3fbbfe6cdf11ef43, 0x3f6b107f60ed24c7,
  0x3f48a08a5e595725, 0x3f3fef7621f5b0fa, 0x3d71979b730ca9ac, 0x3d719799812dea11, 0x3faaa52a2719368c, 0x3fb667334b56afc1,
  0x3fbfa131a3b32d80, 0x3fb19dddd5515ca6, 0x3fc2954d5b6eec88, 0x3fd6d4f96e7b3f39, 0x3fe4cadbb97c680b, 0x3ff10892bacc47c2,
  0x4000e173235451bb, 0x3fcc4c56d5a870b9, 0x3ff9f085023a9119, 0x3ff5f6820587c185, 0x40102ca557f36c73, 0x3ffcc198de5a6b51,
  0x3fd104d63e63a73f, 0x3fc9167631b5ad56], [
  0x4134a06d35c0ba7a, 0x4134a06c6cb7991c, 0x4134a06bebfbcc30, 0x40e6d27c4afb0d2b, 0x40e6d271683739a4, 0x40e6d26f3ee708f5,
  0x40e6d26d58a9c928, 0x40e6d268d472f509, 0x40e64966cca2d979, 0x40d1d4bda4032b45, 0x40b2a3c2a18ffd6f, 0x40a6840af5ca7a28,
  0x409b964f3548d63f, 0x40908cd46e70557a, 0x408347d9a6f63f1c, 0x40775ce1d90eaa04, 0x406e92bf59eba04b, 0x40560b118e3fb852,
  0x4041d476216dde64, 0x4036e3770215a33d, 0x40316f13e85b7fe9, 0x402ff90de1d45832, 0x3fe4fe2087db06c3, 0x3fe027ca7c7c2b3b,
  0x3fc432f72fc2b3da, 0x3fe499f71becddf7, 0x3fc012868f26c5d8, 0x3fc88bf7d6ef6ff8, 0x3fa98ac02ae51ae9, 0x3fa090239016ae2f,
  0x40d5907cbfe73852, 0x40d5906dc83b02fe, 0x40b9e56198044c4f, 0x40b92483b316665d, 0x40a3bd9ea5536c91, 0x4095d09a9d88cde3,
  0x4088753fead1272c, 0x407bc6949ea2fe4c, 0x406bf07b2c017b2e, 0x404f0f2ef9c84839, 0x40447fff96050a8d, 0x403cdfe58b00b3b3,
  0x4031e07e8fc6f000, 0x400b97285715f672, 0x400c0c6f652cbc29, 0x400c6bf090960e2d, 0x400044e7218a6b27, 0x3ff2dda4196e058b,
  0x3fbf24f2e505e785, 0x3fb5c14d207e953e]⟩

theorem npz_ti_ok : (npzOk fpi_ti fpiN_ti && npzOk slsqp_ti slsqpN_ti) = true := by
  decide +kernel

/-- `v` in `data/kl_fpi_results.npz`. -/
noncomputable def fpiN_v : NEntry := ⟨chars! "v", 30, 20, [
  0x3e6273be074234c0, 0x3e847a63ef0c70cc, 0x3e9b6c386d752496, 0x3ea2be0bf7302b74, 0x3eef4b5a0e74bb57, 0x3f1775a81efe5dda,
  0x3f3639e6c6e6e219, 0x3f4d3106f349bda8, 0x3f50d1e885d96499, 0x3f60f5b86692cc2d, 0x3f76188478f57673, 0x3f8f7aa7c0533d7f,
  0x3fa5bfbfedec32f7, 0x3fb655a56ba1cc82, 0x3fc304660da10b22, 0x3fcba64b0dd3413d, 0x3fcf25e7b66b30af, 0x3fd41db5ad9d250d,
  0x3fe39e681adfab83, 0x3fee10d36bc41567, 0x3ff0bf39b4e1a19e, 0x3fe6c8c8d49d4511, 0x3fe6068b62454d13, 0x3ff304743d1e6ead,
  0x3ff4da1abf6bbfc4, 0x3ff009130fb8e310, 0x3fe82c9844bf3aad, 0x3fe400412671ff76, 0x3fe33adafa9889fc, 0x3fc2245024cdbd9c,
  0x3f6821b00a7cda74, 0x3f731b23bb244ff1, 0x3f935e391af89c52, 0x3f9d03b3208c0e6d, 0x3fb8325d8e3ef4bb, 0x3fc2add6a4f7e49c,
  0x3fcbd3a25d6ce079, 0x3fd275047ee42e25, 0x3fcebd517e3c66ae, 0x3fde2d3c0af55d91, 0x3ff0fb23d0bfcf49, 0x3ff3f669b13b59ce,
  0x3ff166920e6111dc, 0x3fe3fb65b495ab78, 0x3ffc04bc13d9e836, 0x3ffe51c6bc3de597, 0x3ff85eaa03bd9782, 0x3fe2b33e4b31c8ae,
  0x3fe12b11c6b24b93, 0x3fdedbfdc62b18fc], [
  0x413c93e38124425a, 0x413c93e2352d59e5, 0x413c93e17f698cfa, 0x40ebbdcef9e1761e, 0x40ebbdc38f4ec522, 0x40ebbdc226cc7df9,
  0x40ebbdc0b7108dae, 0x40ebbdbb14c12ff5, 0x40d4b94acebf6990, 0x40d46cd72d2cb359, 0x40b541b9c422b742, 0x40a543f899608480,
  0x409bec582ac0aa28, 0x4090dfc4b11b581a, 0x4083cf293a4f4ec4, 0x4077e697ca6e9d1f, 0x406f3c836b0852eb, 0x40545a5ca69ad606,
  0x4042bc5ca16bac2f, 0x40376bdf44380c86, 0x40336bce440977f1, 0x4031d7361a48e16b, 0x3ffd12174e4c0bab, 0x3ff693dc3aac316b,
  0x3ff4048109cd87a7, 0x3ff01fc436172f0f, 0x3fdb009c928cd325, 0x3fc80f56f006b6c5, 0x3fb5dbe82cf7b795, 0x3fab4e2b9e6dedd6,
  0x40d8837bf8c80543, 0x40d8836b91e2b762, 0x40bdd789341acaa3, 0x40bb963925ca9ee0, 0x40a5135c49103abc, 0x4095fbec58fa34d0,
  0x408906ff3e8d1dcf, 0x407c3fe746c7951e, 0x406b52ea0919b3c9, 0x40504cdf9c30e130, 0x4047768a1769cd0a, 0x403b6084715ee56a,
  0x403546938b9f42f6, 0x400ec46b400451d4, 0x400dd10b2bde8fdc, 0x40060418bac6af08, 0x3ffbe12713fe3b30, 0x3fececd2876c0069,
  0x3fd220d23c09190e, 0x3fc33f535b63cc06]⟩

/-- `v` in `data/kl_slsqp_results.npz`. -/
noncomputable def slsqpN_v : NEntry := ⟨chars! "v", 30, 20, [
  0x3d719799812dea11, 0x3d71979996c4aa0a, 0x3eb752509de82d20, 0x3f3ee2269a231d51, 0x3d7197b03eda8878, 0x3d71979981000000,
  0x3d7197c51b26225e, 0x3d71979a88f72fd9, 0x3d71979a7b440f80, 0x3f4c5428e509c10f, 0x3f961da98c1edbe1, 0x3faac537c34c39e3,
  0x3fc2d2466d5cc118, 0x3d719799812dea11, 0x3f914a3a25c9f7cb, 0x3fdd6e93486f2548, 0x3fe284d3b5089a43, 0x3d719799812dea11,
  0x3ff1eaeda2d4d488, 0x3fff3b74d36afacc, 0x3ff6c015028c5212, 0x3ffcf1e17bae3191, 0x3d719799812dea11, 0x3fd93489e600daea,
  0x3fe3395795ff1aaa, 0x3d7197a35780096a, 0x3ff04e956c919c19, 0x3fe98b1649ec51ed, 0x3fc46bbcc3021912, 0x3f783d0cca75c38c,
  0x3f369535c9339173, 0x3f45c2ab31d29d2a, 0x3d719799812dea11, 0x3d71979dee147a05, 0x3f99b6ef3ee6553a, 0x3fc50be2b37f5d8d,
  0x3fc6783673f3ab12, 0x3d71979af856acf7, 0x3fb1fd75a9e9b602, 0x3fa1e6ba5f9c5069, 0x3fdccb3aff672359, 0x3fd65e45d7bbb25e,
  0x3fe6816d84fd9a54, 0x3ff0f7cdb244c2f0, 0x400182a6c0df1909, 0x40023ccdffc0ae75, 0x40010c5398790a06, 0x3fff88b1ccd37074,
  0x3fe27e3f590fafda, 0x3fd09681bf7381ca], [
  0x413c93e381244256, 0x413c93e2352d59a3, 0x413c93e17f698c80, 0x40ebbdcefa843c06, 0x40ebbdc38f479a11, 0x40ebbdc226d40dc7,
  0x40ebbdc0b718e175, 0x40ebbdbb14c1f9be, 0x40d4b94acec6064e, 0x40d46cd72ed5397d, 0x40b541b9c3eb5430, 0x40a543f8ba60eb22,
  0x409bec58482ce976, 0x4090dfc5a611865d, 0x4083cf2b44555be1, 0x4077e6a98adda7ef, 0x406f3ce4b1034133, 0x4054530da69de5f1,
  0x4042929b466b5e65, 0x4037db62e037341f, 0x403321c7cdc5bf0a, 0x4031407474b73ff5, 0x3fee5bbd2dad9d87, 0x3fe2ac25f7915551,
  0x3fe2b14e2785b6c7, 0x3fe709f34bfac456, 0x3fcbff9379f54933, 0x3fc794b18a35d358, 0x3fad039eecef456f, 0x3fa280c1500f9b94,
  0x40d8837bfc669df7, 0x40d8836b8f1e6e69, 0x40bdd7893427ba3c, 0x40bb96392546279d, 0x40a5135cb20bef4c, 0x4095fbf09cba37dd,
  0x408906f1722c342a, 0x407c3fe59d636b9b, 0x406b53474bc24911, 0x40504f92f359527b, 0x4046ccd727a9d3d8, 0x403c9ec6d56527dc,
  0x40328339118b6562, 0x40104f00c554e400, 0x401029ef613bc04e, 0x4001b2d84a8f0319, 0x4003c4b9cfa6c771, 0x3ff57bac1c71c7ce,
  0x3fc37ad4ebaf834e, 0x3fb97e62d6f9e50b]⟩

theorem npz_v_ok : (npzOk fpi_v fpiN_v && npzOk slsqp_v slsqpN_v) = true := by
  decide +kernel

/-- `cr` in `data/kl_fpi_results.npz`. -/
noncomputable def fpiN_cr : NEntry := ⟨chars! "cr", 30, 20, [
  0x3ef39b2dff5264fd, 0x3efda30dea1319a2, 0x3e8707da08c097b0, 0x3ecab36ef7fc75d7, 0x3ef5c915995b61ac, 0x3f15f6c7a995299a,
  0x3f2f1f9f189bb9ec, 0x3f3dedc4918679b5, 0x3f4ec3af1f85b621, 0x3f5e70e9fe1241fa, 0x3f79c0967a05fe6c, 0x3f91bed4077ff017,
  0x3fa826b8aab5d786, 0x3fb833ea6a35a5eb, 0x3fc42f5c6b0115d8, 0x3fcc970129aa03e5, 0x3fcf958e3d6e4f1e, 0x3fd5a4ec217874bf,
  0x3fe4fe13b30042f3, 0x3fef0f17e8f6275e, 0x3ff0466c78602741, 0x3fe1bc9f3dc78242, 0x3fec982cbe49f785, 0x3ff63e766c97e12b,
  0x3ff7d8fb7edda610, 0x3ff2a7ba3349dcba, 0x3fe9acdf01f9a48f, 0x3fe4c0eff711b089, 0x3fe290af0a78026f, 0x3fb8289acf995c1e,
  0x3f448e849322b81a, 0x3f6fd08d244e8c36, 0x3f7393abbcae9478, 0x3f9813796e59d42e, 0x3f9d996381a2019a, 0x3fbad0e4a681e161,
  0x3fc3d94b0c51c605, 0x3fcd2cc1d3734ce3, 0x3fd2a70e1c969f75, 0x3fce84fc77a3061e, 0x3fe1b0f0699560bf, 0x3ff181cab0ccbe3e,
  0x3ff471bf10d74611, 0x3feea6ca84ae880f, 0x3fedf28d5c285526, 0x40000a46bd592e8b, 0x3fffbd836e6282ac, 0x3ff8636bc47aee97,
  0x3fe82eb889420e49, 0x3fdbd14070d3b808], [
  0x41115e638ee8e5c7, 0x41115e633b71be4c, 0x40f300c78bbb49fd, 0x40f2d40489a0c4ba, 0x40f2cc0eb7e4911e, 0x40f2c679c8d9aae6,
  0x40f2bdcc632c0baf, 0x40f27ac18ca11a6a, 0x40d4ffab31aeaa83, 0x40d4bc95fa41840b, 0x40b69aa86087bf62, 0x40a54c7d774f1992,
  0x409c6767a6dd43b5, 0x409122eba9e79b56, 0x408447b9de5d44cd, 0x40785b599067bbc5, 0x406f734d7c4160ec, 0x40522ee12cfb1dfa,
  0x40430e89f2abe940, 0x4039487deefdbd26, 0x4035346cd1666864, 0x4031cf3a05035bfc, 0x4001b40b938b6b9f, 0x3ff9371cb829eb4b,
  0x3ff445f15bf70a91, 0x3fed8af9b95767dd, 0x3fdf80700f57c226, 0x3fc4bcb8722eb714, 0x3fb8692a19cb55ba, 0x3faaef719271a94c,
  0x40f66c18e39f31c0, 0x40d9fab28f519f5a, 0x40d9fa682365cd6a, 0x40bfd9f928405dc2, 0x40bb141e9064d4d2, 0x40a56616791907bd,
  0x40963058cafb1850, 0x408976b2ffd4a602, 0x407c74f043fd6cbd, 0x406a56b1cb2d3c73, 0x4051a6483e0adc9f, 0x404890308870c850,
  0x403d492d91d8111a, 0x40376f75e94373d1, 0x401121be363c9b54, 0x401045013a1f4378, 0x40057809cea0c0f3, 0x3ffb3cdafabba876,
  0x3fe9f4063345ea7b, 0x3fd6680170c0b980]⟩

/-- `cr` in `data/kl_slsqp_results.npz`. -/
noncomputable def slsqpN_cr : NEntry := ⟨chars! "cr", 30, 20, [
  0x3ec38c62198221f8, 0x3ef59c1356fd683e, 0x3d719799812dea11, 0x3d719799b9d9cf3e, 0x3d71979a0a36bde9, 0x3d7197998979ea11,
  0x3d719799812dea11, 0x3f28b7a627ddf0ab, 0x3d71979b80725d2b, 0x3f58e5ef35fbcdb7, 0x3f967c1bb0f2a22a, 0x3facd8981df5ae2d,
  0x3fc74f3e68c0c1c0, 0x3d7197c4e385da70, 0x3d719799812dea11, 0x3fde3fa26e56f0c3, 0x3fe1bed601ce9aa6, 0x3fc3a041861585c6,
  0x3feeceef35c6d07a, 0x3ffa69e8370f7060, 0x3ff67b64e7d798c8, 0x400192423e6cc132, 0x3d719799812dea11, 0x3fe4ad67611a66f0,
  0x3ff1d966ed9fa8bf, 0x3fe845d31cb1e39a, 0x3fd26fc7aedca5e9, 0x3fe77c3fba3d3eba, 0x3fe1f2340dc573f3, 0x3f7c88ec66a3d312,
  0x3f1b27fd95cf25be, 0x3d71979c05db7dd2, 0x3f44c2b2dfa2b006, 0x3d719799812dea11, 0x3d71979d1ea40738, 0x3f94ee8c2531fc9d,
  0x3fc754ec5e7a3c39, 0x3fc94037b100d644, 0x3d71979e90eb4cd6, 0x3fa18ac1d6f748fe, 0x3fc48b142b250194, 0x3fe3b562ffbc316b,
  0x3fd4645b2c04be27, 0x3fd7f6678a3a1c73, 0x3ff04272e06cabc8, 0x4000e22abe86efdd, 0x4011876ba4d151ae, 0x400338d0c6d0677d,
  0x3fd8061493040711, 0x3fa4db1eb92a0d5b], [
  0x41115e638ee99c89, 0x41115e633b6ffb46, 0x40f300c78bbb3c12, 0x40f2d40489a0c080, 0x40f2cc0eb7e5828c, 0x40f2c679c8d9a7f0,
  0x40f2bdcc632c1664, 0x40f27ac18ca272b3, 0x40d4ffab320873b4, 0x40d4bc95efdc8ce9, 0x40b69aa8a3a7be64, 0x40a54c803973f924,
  0x409c6772fd877b92, 0x409122eb399d11fb, 0x408447cc158a8a34, 0x40785b269161149a, 0x406f73a06a53bea6, 0x405231385b7a75ab,
  0x4042ec9d1c2ee29c, 0x40398fbad7d07573, 0x40351461bad48449, 0x403176c66edb86bc, 0x3fecae1865779548, 0x3fe48c0691b165ad,
  0x3fe52d63ba817404, 0x3fe66473a7061d67, 0x3fcebb8660c6ffdd, 0x3fc47c5b45e1be00, 0x3fb764d0dbf80434, 0x3fa333def979478e,
  0x40f66c18e396f85d, 0x40d9fab28f45e0fd, 0x40d9fa6834a5ceda, 0x40bfd9f9283ade67, 0x40bb141e8d971be3, 0x40a56615a45b982a,
  0x4096305961dcd737, 0x408976a0870098f9, 0x407c74ec3cb85bd2, 0x406a56bf6c246ec8, 0x4051ae3a8445af57, 0x4047de753a36b302,
  0x403e43222ebcc763, 0x4035aee53dbf705a, 0x4012397f90bbbc83, 0x4012c80ac7065b6b, 0x4005b8d459536437, 0x3ff9513559d13228,
  0x3fdae8e0bca346ce, 0x3fb0de633a9bd004]⟩

theorem npz_cr_ok : (npzOk fpi_cr fpiN_cr && npzOk slsqp_cr slsqpN_cr) = true := by
  decide +kernel

/-- `mn` in `data/kl_fpi_results.npz`. -/
noncomputable def fpiN_mn : NEntry := ⟨chars! "mn", 30, 20, [
  0x3e90c42b91dc135c, 0x3e8dd48b97e18439, 0x3e9bc88a2ea31296, 0x3edcdf8139d75b05, 0x3f07034c4c94bce8, 0x3f26dd629617846c,
  0x3f3fe9c3d804b944, 0x3f4d7631937c754d, 0x3f5b85db9301b694, 0x3f615f0ed4197107, 0x3f807530f61b666c, 0x3f94a44fceac2d9b,
  0x3fa9ba582d741a6d, 0x3fb9db001c63ea04, 0x3fc530acab1dd39d, 0x3fcd7687c973471f, 0x3fd0222925d9b2dd, 0x3fd86a1573ea28cb,
  0x3fe7318795c12220, 0x3ff0aa2264acad70, 0x3ff07217dd3d943a, 0x3fd67320d658e511, 0x3ff0812b932da62d, 0x3ff7bf11d66acaf8,
  0x3ff7cb46213a990b, 0x3ff1789b49670938, 0x3fe8631ba6eac66d, 0x3fe71c1495159792, 0x3fe54fa593b25dea, 0x3fc3c8a28080b45a,
  0x3f59baa37e7ddf32, 0x3f7a7b86435f3ec0, 0x3f83f985738e8239, 0x3fa1c083986b0fd9, 0x3fa32b9f8c5cd02e, 0x3fb92fe4d82dc78b,
  0x3fc581ee405362d6, 0x3fce3b139e40c7a7, 0x3fd2f07883f2f92d, 0x3fcece0d8d1cad05, 0x3fe5a18f867e496e, 0x3ff2a4c01deabeb7,
  0x3ff610d9e19c1d0c, 0x3febdac3f467687b, 0x3ff33d96e0cd47e4, 0x40019cb00ed3beda, 0x4000481a68506d91, 0x3ff61bd8b54a6c97,
  0x3fe3b112ac13d303, 0x3fe2b8dab2c5ce86], [
  0x41436f52857dfc40, 0x41436f52754b791a, 0x40f0285ed4e91303, 0x40f0285e93f92bdb, 0x40f0285e7f09a195, 0x40f0285e6d50962b,
  0x40f0285e4a7cd40b, 0x40f02857b67a58c0, 0x40d9db3abc079cc0, 0x40b87869641fd04b, 0x40b601d927004b11, 0x40a8c3f82e8a4eaa,
  0x409cdefdb674b8d5, 0x409112f5ecf83a80, 0x4084a81d2ee09811, 0x40787b83b25a2474, 0x406ef8550364ba02, 0x4050a33e2a9618e8,
  0x4043234f83143325, 0x403a833c16657a42, 0x40376e767724380e, 0x400fca94e266c0db, 0x40024c80eb796c81, 0x3ffb6433326cbac8,
  0x3ff59d5ec9f44ed5, 0x3ff02474ff696ed8, 0x3fd941d4346043c7, 0x3fc0f6e3cdbe264a, 0x3fba51ba4d2ec7e6, 0x3fae70f964c9ec12,
  0x40de228d9dcfa545, 0x40de228ce22403a0, 0x40c11ebb7c1898e6, 0x40c11de02d7bbfef, 0x40ad8fa6baef9c2e, 0x40a4828540ef9450,
  0x4095ef42d69f9ce2, 0x4089c2d9682e56f2, 0x407c37368a141ef7, 0x40684dd51ac4da7e, 0x4052abe12c83aac3, 0x4049a1954c733d58,
  0x403dcef1ba79bbfd, 0x403aa6e8f54f26b3, 0x4012d8f218cd9314, 0x40117fa4211e8d73, 0x40069b87541e6d4d, 0x3ffd2fec1cff9430,
  0x3fea98bf0dbcb806, 0x3fd2505942e468b6]⟩

/-- `mn` in `data/kl_slsqp_results.npz`. -/
noncomputable def slsqpN_mn : NEntry := ⟨chars! "mn", 30, 20, [
  0x3e7050281973da5c, 0x3eb26183d00c4d32, 0x3d719799812dea11, 0x3d7197a91c8eea11, 0x3f421ac1e0c0dbf0, 0x3d7197a1f8006a11,
  0x3d719799812dea11, 0x3d71979d6396ea11, 0x3f4108e982f74e30, 0x3f9a651e21a05012, 0x3d7197a35fec2a11, 0x3f911fece4a91757,
  0x3fcc7b992d78e18b, 0x3fb897692e061957, 0x3d719799812dea11, 0x3fe13702eff990c3, 0x3fddef33605f51f6, 0x3f24f9298ce2a4aa,
  0x3ffc077f5847be9c, 0x3fff4317799ae07a, 0x40043d126c484fbe, 0x3f76d48f115679d8, 0x3fba1df3cbfb0273, 0x3fee267d6c8c86ba,
  0x3fea04e177f26f10, 0x3fb817f268fb7e4e, 0x3fe90f6e745c0a0e, 0x3ffa8aa456a28412, 0x3fcba6a04ba7db3f, 0x3f83b2fe4e928ef6,
  0x3d71979be3000000, 0x3f54289b08e09d22, 0x3d71979b8ef16a11, 0x3d719799812dea11, 0x3f89e5d8291e5f26, 0x3d719799812dea11,
  0x3fc280739ad2d0a8, 0x3fc8f98594fd0dfe, 0x3d719799812dea11, 0x3f82b884f1a4a17e, 0x3fc9caaa29f06150, 0x3fd8f6659f4a2a9a,
  0x3fcb6a24db5ec554, 0x3fe9142437f47431, 0x3ff1d21121ce9d08, 0x400038dfe4553fd2, 0x4011400d0809a829, 0x3ffc48448cc493c3,
  0x3ff4df4df36d56cb, 0x3fd2c875925e4c69], [
  0x41436f52857dfc2d, 0x41436f52754b78c2, 0x40f0285ed4de0618, 0x40f0285e940f47b5, 0x40f0285e7ee73df2, 0x40f0285e6d4e5174,
  0x40f0285e4a782076, 0x40f02857b67af6c6, 0x40d9db3ac4871558, 0x40b878691268244f, 0x40b601d91ff45aaf, 0x40a8c3f872cd71ea,
  0x409cdef33e1e7e29, 0x409112f30de00c48, 0x4084a81a481987ee, 0x40787b1db169866f, 0x406ef9f2f7986ad2, 0x4050aec12e164c62,
  0x4042e83fbc5db614, 0x403ab5e6970b58a4, 0x40366f9b23f81990, 0x400ec6577b7e9fe1, 0x3fe7287b5933386b, 0x3feb6117e101e17a,
  0x3fe7f8779aafe7d2, 0x40044ca7c710849a, 0x3fd4a6c1d0ab56bc, 0x3fc504b858b41488, 0x3fb1209a6f7db93d, 0x3fa5640e26a29ccd,
  0x40de228d986c7556, 0x40de228cd7f46b08, 0x40c11ebb7c16a83f, 0x40c11de02d2cbfcb, 0x40ad8fa6a53f5293, 0x40a48284a0d9d9ef,
  0x4095ef4d0adee669, 0x4089c2b14c2d1416, 0x407c371d3751d000, 0x40684d6498719079, 0x4052b50f391971b3, 0x40483d6b4e1c2471,
  0x403dbec7d8f16acf, 0x403632fc18bf47f2, 0x401470cb6294df26, 0x4015ac6cc1426ae0, 0x40097bc77ec3b26c, 0x4000c6c0f64aa423,
  0x3ffa1b18c0053557, 0x3fbee51860a79c2d]⟩

theorem npz_mn_ok : (npzOk fpi_mn fpiN_mn && npzOk slsqp_mn slsqpN_mn) = true := by
  decide +kernel

/-- `fe` in `data/kl_fpi_results.npz`. -/
noncomputable def fpiN_fe : NEntry := ⟨chars! "fe", 31, 20, [
  0x3e78ef24841a894d, 0x3e8f6a5360c352a2, 0x3e91d57d386852d7, 0x3e9f7719f992c843, 0x3ee02f67a7060e0e, 0x3f09bf1c47b15293,
  0x3f298511b5b04be8, 0x3f41bf7e7c894f15, 0x3f502c277fdef4ec, 0x3f5e6acf3cec86b2, 0x3f64da4a006f1997, 0x3f827d565150982d,
  0x3f97264ac6d6fc75, 0x3fac4722858c2423, 0x3fbba87d96fa9053, 0x3fc677b568f1abde, 0x3fce2fabfb33623c, 0x3fd087a87b0f2be3,
  0x3fda43ed1d2769ad, 0x3fe815dd781231dd, 0x3ff0b02e5bc40ef6, 0x3fef0ccaabbc3ef9, 0x3fe2904455ce3dff, 0x3ff3d0fdaf779d98,
  0x3ffa44e5430c30e2, 0x3ff8d38de1346922, 0x3ff1f64f4179b624, 0x3fe8a3a8c72a94f1, 0x3fe6b232ee9d78d1, 0x3fe42c71716e26d5,
  0x3fc2978d63b2517e, 0x3f5cf49ff7099eb7, 0x3f7cc95a4dc844c2, 0x3f869b41fc6eaa20, 0x3fa337d70c8b72f3, 0x3fa5b87b33279b07,
  0x3fbb673b66b1f90a, 0x3fc6715d2a196570, 0x3fd013a4c4b0f1f4, 0x3fd2b0e7ecc6e205, 0x3fce3d202cd6c9d3, 0x3fe8810ebc85150e,
  0x3ff2941bb232482e, 0x3ff5d747c387fa52, 0x3fe67dcd60cf62d8, 0x3ff7749fe184bc8f, 0x40027fe4c3e251c2, 0x4000e3656275b42c,
  0x3ff4a1f1d6ec5be8, 0x3fe448378068848a, 0x3fe3019f394bd2b7], [
  0x41429e66138dbe09, 0x41429e660835162f, 0x41429e65fdfda51d, 0x40f073f15bfc7c47, 0x40f073f10d8df140, 0x40f073f0f467c505,
  0x40f073f0df2aae73, 0x40f073f0b54841a1, 0x40f073e7f0986196, 0x40da5c3cbb30920a, 0x40b89afb960a8488, 0x40b650b9f91acbcc,
  0x40a8d4e485c200ef, 0x409d756a7be6de8a, 0x40913de77c651928, 0x4085089f8aea4177, 0x4078fc9437c4483c, 0x406e0792b7b02ae3,
  0x40505cc66ec40d53, 0x40434d7f25701e09, 0x403c14ee23f4cfef, 0x40393dffa08a10e8, 0x400df87251afb6d7, 0x40041b45dfbb4fdb,
  0x3ffef80aafb6a794, 0x3ff7058634ff3f76, 0x3fefadaf5042ee38, 0x3fd972ce4476e1a6, 0x3fc1c7609876485c, 0x3fbba9ba9d2a9cf8,
  0x3faff2cf39a9cf34, 0x40debab634e33d7d, 0x40debab54e5d49c8, 0x40c1777d8a97470b, 0x40c176445e2a3de7, 0x40ad8ce25edaf01d,
  0x40a4b2e56d6ee809, 0x4096076a7ab33e4b, 0x408a112025cb3018, 0x407ba7d9f38fd6da, 0x40665dec466b68b3, 0x4053d6b91ae1229e,
  0x404ade7ec6b64c53, 0x403feac2bc0fbc3f, 0x403d9b5c9cfa9411, 0x4015a4681cf68ac7, 0x40124ef79441ca0d, 0x40070cf71123e118,
  0x3ffd4b49766168ff, 0x3fea9d31c850bf26, 0x3fd34da1e7f5d1d8]⟩

/-- `fe` in `data/kl_slsqp_results.npz`. -/
noncomputable def slsqpN_fe : NEntry := ⟨chars! "fe", 31, 20, [
  0x3d719799821e0000, 0x3e988b98f789f88c, 0x3eb13efd018b1dea, 0x3d719799b875aa11, 0x3d71979f6418b7b9, 0x3d719799812dea11,
  0x3d7197a57996ad44, 0x3f44d79d61632c34, 0x3d719799812dea11, 0x3f4277a26e02522c, 0x3f9db4f41ceee822, 0x3d71979c49703a11,
  0x3f925d50434d9ef5, 0x3fcedbfd90ee15bf, 0x3fc1614c272bd7f0, 0x3f1442133cd8e0d6, 0x3fe06978e0a32192, 0x3fd5421e2cf225f4,
  0x3fcacdbf36a8354c, 0x3fff4f096c6fa32a, 0x3ff3831199ef7460, 0x40055e52cec8ff22, 0x3fcc7746ec20ec91, 0x3fe5d8d87d666038,
  0x3ff644b264dd2cfe, 0x3ff209eaf63b3b5d, 0x3fe2c755b2e3b90c, 0x3ff156c63dfb0e5e, 0x3fdeaa1062b1fd97, 0x3fb385295950d0d4,
  0x3f63941a92cbd4c8, 0x3d719799812dea11, 0x3f57b07d18265847, 0x3d719799812dea11, 0x3d71979ae9fd2a11, 0x3f89876a55f89cdf,
  0x3d719799812dea11, 0x3fc39380fd901870, 0x3fccf4cfc696c186, 0x3fb14f07159ad9ce, 0x3d71979a86d4cb78, 0x3fce4a0eb5722597,
  0x3fe233dc3f0c4b55, 0x3d71979cf35a746a, 0x3fec33bcc8424619, 0x3ffa718981acb570, 0x3ff8655ce97bbe38, 0x40113664b1f4c3dc,
  0x400336c49e06fc53, 0x3fe1bceb3d8f53c0, 0x3fdbee6eb9e2e7d2], [
  0x41429e66138dbd95, 0x41429e66083515cd, 0x41429e65fdfda508, 0x40f073f15b972196, 0x40f073f10d8a9d3a, 0x40f073f0f4215714,
  0x40f073f0df2a377f, 0x40f073f0b554fdbd, 0x40f073e7f08381b4, 0x40da5c3cc2802057, 0x40b89afe8c3e990a, 0x40b650b9f72a38ae,
  0x40a8d4e77ab78d76, 0x409d758304e619b2, 0x40913dfcf162b2dc, 0x408508db8bbfa9d2, 0x4078fb3f40b29b7b, 0x406e06fe4ca262a9,
  0x405076b4ddbbcc82, 0x4043504bc6417fcf, 0x403bf77de5d9e87b, 0x40383ffd7b97f550, 0x400b29bbabaee53b, 0x3ff2f318a14ca195,
  0x3fe825edb20ca069, 0x3fef0ff4b0935105, 0x4002fe91c39687e0, 0x3fc2b7d481089d52, 0x3fb760e22fb28ea3, 0x3fae70734cf1211b,
  0x3fa3da2b10f3345d, 0x40debab64ea95665, 0x40debab53876f5b9, 0x40c1777d8a5cc4a4, 0x40c176445deaf749, 0x40ad8ce37dca9974,
  0x40a4b2e542c703f8, 0x409607797b28a8e0, 0x408a10c3a01dd39b, 0x407ba767ac9320d1, 0x40665c7650ae2079, 0x4053eacbb75c18eb,
  0x4049c7b6f112fa63, 0x403f58054e9f1c22, 0x403a7f629aeb12d7, 0x4017919a830d5e58, 0x4016e3f6e32bce00, 0x400b9a141b7cadaf,
  0x40007581c2539ff0, 0x3fe0312ca47da4cc, 0x3fd2cd01fc456170]⟩

theorem npz_fe_ok : (npzOk fpi_fe fpiN_fe && npzOk slsqp_fe slsqpN_fe) = true := by
  decide +kernel

/-- `co` in `data/kl_fpi_results.npz`. -/
noncomputable def fpiN_co : NEntry := ⟨chars! "co", 31, 20, [
  0x3e72d4629dcdf959, 0x3e8715a0488a841d, 0x3e8a476ff426b536, 0x3ea1d98296c489cf, 0x3ee1be21846c47ac, 0x3f0bc39448b88dc8,
  0x3f2b31f41d0956b4, 0x3f429e22c0c97057, 0x3f4cf76953ca0805, 0x3f5c18fdf2d98d39, 0x3f67dd4c86bbde5a, 0x3f830a68f84efd06,
  0x3f9a4dfc786780a6, 0x3faecd3038643ebf, 0x3fbdb467ac77ff08, 0x3fc7d1ff9c9fa92f, 0x3fcee2fb8caa9821, 0x3fd174351e5b1265,
  0x3fdd1f302623ddc6, 0x3fe9ab15539e10cc, 0x3ff0e9f4ae196b2b, 0x3fed56933f6014c8, 0x3fe7f88954003a90, 0x3ff6ef52906bb441,
  0x3ffcb0a35dcde48b, 0x3ff9be2b08bcaa31, 0x3ff24701268c2068, 0x3fe8c46611fee7e5, 0x3fe62b1d7be08fe7, 0x3fe32979ad9c70b4,
  0x3fc188305ecf5df6, 0x3f604a678818b2a2, 0x3f7afca9e660d951, 0x3f89059aa758de39, 0x3fa24ac33d15a049, 0x3fab1c45f6145b98,
  0x3fbca0ab4d530208, 0x3fc7eba9aebe32e8, 0x3fd0fc8b4fd5ef11, 0x3fd25887cf92a2c6, 0x3fd0cc0abd6567ac, 0x3feb43dd294ac568,
  0x3ff30e6d56f2e995, 0x3ff5513f9e93421d, 0x3fdd06f0f34f0c02, 0x3ffc5662a6cbc6e9, 0x40039d8d12f16c24, 0x400180b101916017,
  0x3ff3bc2999f11b09, 0x3fe45ce43ccf01d3, 0x3fe2dda9031f49d9], [
  0x4147cf11dceb0ecf, 0x4147cf11d2ca2d4f, 0x4147cf11c9990d35, 0x40f2984db7ff786e, 0x40f2984d95132235, 0x40f2984d8974bf42,
  0x40f2984d7f33917c, 0x40f2984d6932dca0, 0x40f2983735819705, 0x40ddb734ea7a4729, 0x40b97f3e2d7a915f, 0x40b630845268e447,
  0x40a87f32458433ba, 0x409dede4359c80ef, 0x409169e0cd3829ed, 0x4085610a6d311759, 0x4079b6d4884b53ee, 0x406b6afa5f60b924,
  0x40508a08f9a8a7dc, 0x4043fe400e0db553, 0x403e441e34c2d744, 0x403b12666da3d36b, 0x400f1d05398dc86b, 0x4005432ad2f0c576,
  0x4000ca90ad82972b, 0x3ff885062010b44d, 0x3fefd229f151bb3a, 0x3fd9d42a2b347009, 0x3fc28547d7366d29, 0x3fbcd23cd9912708,
  0x3fb0a53cdfd27e68, 0x40e1655261329436, 0x40e1655240cb0a99, 0x40c3a7a6acea34c7, 0x40c3a40019d435ec, 0x40b0002e3d414fb7,
  0x40a51fd48789ba6c, 0x40965db9f95097d4, 0x408a32f8eb50bcc3, 0x407ada9e8fa005cc, 0x406285ab5077f0e8, 0x40542ad450fbf52c,
  0x404aa4101c38a0b6, 0x4040db80c7bc8665, 0x403f1549161a0be0, 0x401898b238443324, 0x401310fa24172327, 0x4007f9eba10049ff,
  0x3ffd083a38bfe5a5, 0x3feaa2778b4cc944, 0x3fd41289a329c2d0]⟩

/-- `co` in `data/kl_slsqp_results.npz`. -/
noncomputable def slsqpN_co : NEntry := ⟨chars! "co", 31, 20, [
  0x3e798296c3889716, 0x3e9eca47903d3a8d, 0x3ea10529881d27d6, 0x3d719799812dea11, 0x3d7197a97bae0000, 0x3d719799812dea11,
  0x3f42e24bf23c8c47, 0x3d719799812dea11, 0x3f0a5b81004f27ce, 0x3f3c648e1c75a081, 0x3fa17473e94ffaf1, 0x3f791b63322d92be,
  0x3d7197b01126eb21, 0x3fcda676eaee89c1, 0x3fc255336ed55ed9, 0x3fcd64bc811489c6, 0x3fdc042805a6a245, 0x3fc307b2019bc5e6,
  0x3ff50c3b1b7e2e3f, 0x3fed336dbac12d95, 0x3fe83b94099c59e6, 0x3ff566399d07c8e6, 0x3fe75cf8e38ec1fd, 0x3fd484dad421d1f3,
  0x3fedb3939e8473bd, 0x3ff9d6bee1a093e1, 0x3ff69f249098d8ed, 0x3ff2caec927f054e, 0x3ff066cc11c98a72, 0x3f9dff36c8cb2a59,
  0x3f308b6182f3e48a, 0x3f462eed970296ff, 0x3f4bc149a9c5672c, 0x3d7197a4b8dc6f15, 0x3d719799812dea11, 0x3f975b0fd5f44867,
  0x3d719799812dea11, 0x3fbe3891baf123ca, 0x3fc60a0ce9f40ee3, 0x3fc60ef23c9c0ca5, 0x3d71979a8cfc574d, 0x3fd14f16fda2e2c3,
  0x3ff6fbcbd561ebed, 0x3fa6ab72d908bccf, 0x3ff9dc7598758e2d, 0x4003dcf24908a7c8, 0x4000bf8f9c60d0d1, 0x400ca524fb79feb0,
  0x3ffc14b1a396e9b3, 0x3fd6803d0f2374d3, 0x3fb7111e506d2887], [
  0x4147cf11dceb0ece, 0x4147cf11d2ca2d4f, 0x4147cf11c9990d34, 0x40f2984db8146684, 0x40f2984d951747ed, 0x40f2984d89745fbb,
  0x40f2984d7f482f68, 0x40f2984d693dffec, 0x40f2983735515992, 0x40ddb734883828ca, 0x40b97f4170b55f35, 0x40b63084805c5be6,
  0x40a87f303172302b, 0x409dede76e575b5e, 0x409169b8aea38748, 0x408561563fba425c, 0x4079b7f06b5e3d6f, 0x406b6c26df4a2ad3,
  0x405098d7784fd126, 0x4043fe953a630412, 0x403dc0a335f795f1, 0x403b4d298e66bfa9, 0x400dab6cc64712ee, 0x400238d8a75bfbdd,
  0x3ffd42826fb03558, 0x3ff1b19897b7dfe8, 0x3fe7159c23425316, 0x3fcb882c897dfaac, 0x3fbfad727fc96958, 0x3fab7194a8fdda97,
  0x3fa10b79d06a6acb, 0x40e16552240cd5d7, 0x40e16551f4f8d52f, 0x40c3a7a6acc87e05, 0x40c3a40019d62796, 0x40b00029bf002e78,
  0x40a51fc75dff83af, 0x40965de96c626f71, 0x408a333602533b82, 0x407ada6fb3172dbc, 0x4062831ce51bb149, 0x40543a7aa5d868ae,
  0x404abda2c37964f0, 0x4040b881e0c19abf, 0x403e8ed80105b6de, 0x401a7226e96b257d, 0x40131e7aebbc6644, 0x400ab72e35e049dd,
  0x4000588fc33acc10, 0x3fdedd6de6438d6e, 0x3fb766e68e0f32df]⟩

theorem npz_co_ok : (npzOk fpi_co fpiN_co && npzOk slsqp_co slsqpN_co) = true := by
  decide +kernel

/-- `ni` in `data/kl_fpi_results.npz`. -/
noncomputable def fpiN_ni : NEntry := ⟨chars! "ni", 30, 20, [
  0x3e72fa7c4d1af710, 0x3e88197b15b8782f, 0x3e8db7ebe8f20333, 0x3ea420c07941d2e8, 0x3ee43c9d94a0a60c, 0x3f0f91b3724fb6ca,
  0x3f2ecfdabb16324a, 0x3f44fbe12725fe73, 0x3f4e91c9fad8f91b, 0x3f5defa9e0151003, 0x3f69fe44a0831674, 0x3f84741e8c14f676,
  0x3f9ccd71f3a2da53, 0x3fb08cbe312b6d23, 0x3fbf65b819557ce5, 0x3fc8ae2b91b65ac9, 0x3fcf200effd5f14f, 0x3fd233203a69490a,
  0x3fe03bc7c43795e4, 0x3febd8cd2b75eede, 0x3ff1cec771b0ddb2, 0x3fed64b079afa90f, 0x3fec8b4ca1be118f, 0x3ff977c81b927a30,
  0x3ffe85b6dd75facf, 0x3ffa420178d530be, 0x3ff2a3a4271b5863, 0x3feae596fed34082, 0x3ff0822e45170f52, 0x3fbff192a45f8d4f,
  0x3f62494c6c8900a6, 0x3f7d036dc8d77eab, 0x3f8bb941d12d1e17, 0x3fa379b9e28a7609, 0x3fae4de26c0d96ea, 0x3fbe4f429ba34505,
  0x3fc9071071865b8f, 0x3fd15c7f2d391679, 0x3fd1e74271a40c44, 0x3fd479fe45ad8df2, 0x3fed91f8a4564121, 0x3ff448392cd1843b,
  0x3ff5bc762168f0cf, 0x3fdf719ac0446626, 0x3fff900940b06cd5, 0x400410e905ae938e, 0x4001c6505bbca705, 0x3ff2fcf228383195,
  0x3fe3c9d974afde56, 0x3fe2dc55652f10d6], [
  0x4148b6eeb2f05db9, 0x4148b6eeab32332b, 0x4148b6eea46c9a26, 0x40f33396b919b911, 0x40f333969f272581, 0x40f3339696c4921c,
  0x40f333968f5a84c2, 0x40f333967f351cd6, 0x40f3337793ad271a, 0x40debc6326ce4fe4, 0x40b9d8b613f18573, 0x40b5f3f0b42a7ef0,
  0x40a8973c1238affd, 0x409e3dcd9ab2d775, 0x4091b0b79394b88b, 0x4085d9a9b66b9f05, 0x407a87c68f698e50, 0x406917e5f422d440,
  0x4050eb4e1e73d84f, 0x404442de89ca9a4c, 0x403f1859e67df8c2, 0x403b93eef0591258, 0x401063f92e899432, 0x4006169e027cc583,
  0x4001c779724f78b1, 0x3ff98c05c8ef4ae6, 0x3fef5344aa2e83d5, 0x3fd7175b0e5cb061, 0x3fbfeacf2ac51e2f, 0x3fb11d371481eab2,
  0x40e1fe591088ca96, 0x40e1fe58ff6552f7, 0x40c461b6a36957b2, 0x40c45e0cec6ebb3e, 0x40b076731c5d060f, 0x40a573efdbad87d5,
  0x4096c652efe5723c, 0x408aa7d6b4afb1d8, 0x407b33442bd6a35e, 0x4060e8e852cdfa60, 0x4054b2188ff3f354, 0x404a7adef95b165a,
  0x404193439232eb1f, 0x401dd03c3a5a8201, 0x401a6dc71d58888d, 0x40130581a36e1d17, 0x4008558d3db157a1, 0x3ffaf5a7601839c0,
  0x3fe7e4ddd3c9fe3f, 0x3fd2b18492cd20d3]⟩

/-- `ni` in `data/kl_slsqp_results.npz`. -/
noncomputable def slsqpN_ni : NEntry := ⟨chars! "ni", 30, 20, [
  0x3ea03e84870d5aea, 0x3dc91366e2826b01, 0x3ea61e073d513f18, 0x3e599c14ab000d6c, 0x3f467436f06b53a7, 0x3d7198ac26165563,
  0x3d71979982fc5531, 0x3d71979f38ecbd0d, 0x3df7e34a1799a727, 0x3f3d92cd81c5a422, 0x3fa7013fc7f16531, 0x3d7197c7416280be,
  0x3d71979982e8e47c, 0x3fd131c881aa4517, 0x3fc9c055bdca6d1b, 0x3d71979c4f0e4cca, 0x3fdf4da7c8563d21, 0x3fd62ddfb830bac8,
  0x3fe79176c55897b6, 0x3fd5071f56c775f3, 0x3fe36b94dd15bd84, 0x40009b6b688ab188, 0x3fc511eb35cef17b, 0x3ff170245685e849,
  0x3ffaa94a3eb1317b, 0x3ff908d8b292d6e3, 0x4002b332ba9d9e95, 0x3ffb1d4e6f906c1c, 0x3fd12bf80ed43f63, 0x3f8c200bf2a146cd,
  0x3f5b4e46a2225f93, 0x3d7199755e63d0af, 0x3d71979bc214a3d5, 0x3d719799812dea11, 0x3f9d53c10d55b330, 0x3d7197a8d102a694,
  0x3fc42f6cffc824c0, 0x3fd10de95e699da7, 0x3fc0ccf3e7b00389, 0x3fd1816f64f66476, 0x3feb72605ef9a99e, 0x3ff8af15b108b8dc,
  0x3ff141e7f87ffc43, 0x3fe9d3bf1211a97b, 0x400222526f813af6, 0x400889877e657138, 0x3ffb4b4f6f9c8590, 0x3ff211ee27ba3417,
  0x3fdc6c9a7b103532, 0x3fd5e6c683e2cfe6], [
  0x4148b6eeb2f05db1, 0x4148b6eeab323329, 0x4148b6eea46c9a1c, 0x40f33396b915d53c, 0x40f333969f258520, 0x40f3339696c45531,
  0x40f333968f54c6af, 0x40f333967f3d8893, 0x40f3337794275bc5, 0x40debc62f3232247, 0x40b9d8b80409a4e9, 0x40b5f3f0b6dd92c4,
  0x40a8973c17b6c44a, 0x409e3de30cffe90f, 0x4091b0b9721cf5ef, 0x4085d9990767f5e5, 0x407a8886b6aa837b, 0x406915f30b451b51,
  0x4050ea4f3b48a470, 0x404458b959b038a7, 0x403ec121cf2fdb0e, 0x403b09317eb0ef0e, 0x400e73158e2735a6, 0x40015c55af5d3daf,
  0x3ff9686b5260fb7e, 0x3ffadbc0c19d3b39, 0x3fec6d4e58614349, 0x3fcb9ee04b00b2f7, 0x3fb51359fe537b0d, 0x3fa9b427759655c0,
  0x40e1fe5909424e42, 0x40e1fe58f3deb99e, 0x40c461b6a3569144, 0x40c45e0cec728f84, 0x40b076741582d94a, 0x40a573eea7f38572,
  0x4096c64cd9c895ac, 0x408aa7c3d233ebff, 0x407b336518cce961, 0x4060ebe9ffa9758d, 0x405495a68e8b924a, 0x404ad23c04f5487c,
  0x4040a7f7b2539c9b, 0x401db7e1a2eefbf2, 0x401c89ae019242bc, 0x4012376a3b14cf7f, 0x400cf51d53770a70, 0x4004254709111362,
  0x3fe1892841c1aa7d, 0x3fc3c9e4c85a30c3]⟩

theorem npz_ni_ok : (npzOk fpi_ni fpiN_ni && npzOk slsqp_ni slsqpN_ni) = true := by
  decide +kernel

/-- Part 2 of the results, with the texts. -/
noncomputable def npz2 : List ((JEntry × JEntry) × NEntry × NEntry) := [
  ((fpi_p, slsqp_p), fpiN_p, slsqpN_p),
  ((fpi_s, slsqp_s), fpiN_s, slsqpN_s),
  ((fpi_cl, slsqp_cl), fpiN_cl, slsqpN_cl),
  ((fpi_ar, slsqp_ar), fpiN_ar, slsqpN_ar),
  ((fpi_k, slsqp_k), fpiN_k, slsqpN_k),
  ((fpi_ca, slsqp_ca), fpiN_ca, slsqpN_ca),
  ((fpi_sc, slsqp_sc), fpiN_sc, slsqpN_sc),
  ((fpi_ti, slsqp_ti), fpiN_ti, slsqpN_ti),
  ((fpi_v, slsqp_v), fpiN_v, slsqpN_v),
  ((fpi_cr, slsqp_cr), fpiN_cr, slsqpN_cr),
  ((fpi_mn, slsqp_mn), fpiN_mn, slsqpN_mn),
  ((fpi_fe, slsqp_fe), fpiN_fe, slsqpN_fe),
  ((fpi_co, slsqp_co), fpiN_co, slsqpN_co),
  ((fpi_ni, slsqp_ni), fpiN_ni, slsqpN_ni)]

theorem npz2_ok : ∀ p ∈ npz2, (npzOk p.1.1 p.2.1 && npzOk p.1.2 p.2.2) = true := by
  intro p hp
  unfold npz2 at hp
  simp only [List.mem_cons, List.not_mem_nil, or_false] at hp
  rcases hp with rfl | rfl | rfl | rfl | rfl | rfl | rfl | rfl | rfl | rfl | rfl | rfl | rfl | rfl
  · exact npz_p_ok
  · exact npz_s_ok
  · exact npz_cl_ok
  · exact npz_ar_ok
  · exact npz_k_ok
  · exact npz_ca_ok
  · exact npz_sc_ok
  · exact npz_ti_ok
  · exact npz_v_ok
  · exact npz_cr_ok
  · exact npz_mn_ok
  · exact npz_fe_ok
  · exact npz_co_ok
  · exact npz_ni_ok

end BFit.Data
