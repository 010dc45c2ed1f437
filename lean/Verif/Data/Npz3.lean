import Verif.Data.Fits3
import Verif.Lemmas.NpzScan

/-! Copy of /repo/bfit/data/kl_fpi_results.npz and kl_slsqp_results.npz, generated by tools/gendata.py. -/

namespace BFit.Data

/-- `cu` in `data/kl_fpi_results.npz`. -/
noncomputable def fpiN_cu : NEntry := ⟨chars! "cu", 30, 20, [
  0x3e7207c3ba7a6fa1, 0x3e8887b2420aaf43, 0x3e9160ae059937df, 0x3ea5fffe39ed58d6, 0x3ee69ee24d24819c, 0x3f118e2e7d96bd91,
  0x3f310e0d8fa01d57, 0x3f471334ff3467c4, 0x3f4c694097a994d0, 0x3f5edf2654dbba29, 0x3f6d2f33a4ad3616, 0x3f868e396c0e9604,
  0x3fa00ea1bf558f03, 0x3fb1da8821db21eb, 0x3fc09852a3c97a60, 0x3fc96bb4e4025edd, 0x3fcf5e5fd8686a14, 0x3fd2999a29f8e8aa,
  0x3fe14424e903d6cf, 0x3fecaa646c574fd5, 0x3ff1821d42c66505, 0x3feac84e51146f59, 0x3ff1844fc70f71ee, 0x3ffc76016708f806,
  0x40006aabe43d6432, 0x3ffc25ce9fe28f4d, 0x3ff3d01643e4243d, 0x3fea3bbb0d73e979, 0x3fe5e46f5e35af1f, 0x3fbc64cd41d0ed8c,
  0x3f63a500fdf1a2f2, 0x3f7cbf7a0ef1a7ff, 0x3f8d422b2fa0a2b8, 0x3fa3408ae096ce13, 0x3fb13c431924a939, 0x3fbfb677977888e5,
  0x3fca254dcee1ecaf, 0x3fd17e1d5ba3c68e, 0x3fd1a3f399e0f1fa, 0x3fd7d93bab0cd7ea, 0x3fee63837bec770e, 0x3ff49a422774aacb,
  0x3ff3f7f0cc8f27ab, 0x3fea06f7499235d7, 0x4001671e0215e0fa, 0x4004d2f00957168b, 0x400189bab7c77772, 0x3ff4a12d97d5e814,
  0x3fe6f350f08c64e2, 0x3fdd4b6f58e80886], [
  0x414969e04ccec883, 0x414969e041792154, 0x414969e0382dc8da, 0x40f462dd3e29f79a, 0x40f462dd18e8b28d, 0x40f462dd0d7aa30a,
  0x40f462dd033b0714, 0x40f462dcebe28759, 0x40f461a6bb906b60, 0x40e0453ed6d172f9, 0x40bbe51977bd65fc, 0x40b5fed04329740a,
  0x40a9386d10482845, 0x409edf223a86e7ae, 0x40921685f599a5f4, 0x40866d48bd099a9a, 0x407b241e486be5a0, 0x406767929841917b,
  0x40516ba634520af2, 0x40457e9efe63e165, 0x4040a69ef8c42b51, 0x403b6c41b343faf0, 0x401250a9244a8d3f, 0x400868b8d510c390,
  0x40024a66933e2620, 0x3ff95a8daeba5442, 0x3ff026130b4f609c, 0x3fdea1ec99045fa9, 0x3fbe6ed79a94222f, 0x3faf42b919c3d48e,
  0x40e323b213d0995b, 0x40e323b1f22f3fe8, 0x40c5c3cafd08b0d6, 0x40c5bb1605892d8f, 0x40b15a1c2f22da53, 0x40a5a9c6044e8fb0,
  0x40973bf95e8fe912, 0x408b30e86c4db56b, 0x407bd197a4a66f14, 0x4060e35f455b789d, 0x40559ffebf9e535b, 0x404bc53d67ed8f64,
  0x40430593c9e21d45, 0x402003f1c6afee77, 0x401be6d40f8ad26e, 0x4012d50c7c62de7d, 0x400860bddf848b31, 0x3ffae2bfb8c90d51,
  0x3fe9ff9088aa33df, 0x3fd4f10e7bca62ec]⟩

/-- `cu` in `data/kl_slsqp_results.npz`. -/
noncomputable def slsqpN_cu : NEntry := ⟨chars! "cu", 30, 20, [
  0x3ea316b24dd8afb7, 0x3ea5e0ab80acf781, 0x3d719799a0f80000, 0x3d7197d5dc27920c, 0x3d71979981400000, 0x3d719799812dea11,
  0x3d7197a959b4a2d3, 0x3f46be55832933f3, 0x3d7197a7e93eea11, 0x3f3eef1847296a07, 0x3fa51bc27dc99eb6, 0x3f7b2fc15ac0735a,
  0x3d719799812dea11, 0x3fd2a2de927c9294, 0x3fc8650b2f4beab0, 0x3f9dcdf9abecea26, 0x3fdfd62c5f593de6, 0x3fd394d67c268cf0,
  0x3fe867acc07210c5, 0x3fe42454da3d2a72, 0x3fedb25ab9955e75, 0x4000597bed8add29, 0x3fc65466f2f83d38, 0x3ff7b3b88ae74a18,
  0x400087800ca4be07, 0x3ffbfa270aa9245e, 0x3fff2c7c4ea2f0bf, 0x3feb382a46d3e179, 0x3fbdd7f7fc4e443b, 0x3f767ae3d481653c,
  0x3ee2f8748f998d1c, 0x3f5b2b25b1e44155, 0x3d71979b3087a0fa, 0x3d719799812dea11, 0x3f9f5c1e4693307c, 0x3d719799812dea11,
  0x3fc559deaf34df05, 0x3fd074f374a168c0, 0x3fbfa03531e1a88e, 0x3fce6034a5c7fa70, 0x3feaac083cadf67b, 0x3ff481331834a343,
  0x3fe98f5800c2f2c0, 0x3ff2ba1b3ae08c54, 0x4000ab6190b2bef0, 0x4011196d4e3c17a5, 0x4001aa3391b61476, 0x3fed4fe1389a058e,
  0x3fd602283ecc24c6, 0x3fc3a51302db0950], [
  0x414969e04ccec86d, 0x414969e041792154, 0x414969e0382dc8d6, 0x40f462dd3e2aba64, 0x40f462dd18e66a3c, 0x40f462dd0d79fdb9,
  0x40f462dd03532e8f, 0x40f462dcebe19143, 0x40f461a6bb909553, 0x40e0453ed33c5093, 0x40bbe5195dde0c0b, 0x40b5fed02d98b8c2,
  0x40a9386d105e835f, 0x409edf20f9083120, 0x4092168665a846c1, 0x40866d44a0f2af43, 0x407b244b808e4a42, 0x4067670b8937ac49,
  0x405168664f13f4c9, 0x40458aa8f4934bcf, 0x404091f7290535e3, 0x403b26d1e81eb04e, 0x400e01382056f127, 0x40060442e1b48caf,
  0x3ff8fbe1018a6fc2, 0x3ffb76270791e6f3, 0x3fe3bb2490aead7a, 0x3fc57aaa45c1adc3, 0x3fb0e5635e36616c, 0x3fa5070035a3b022,
  0x40e323b213e65d00, 0x40e323b1ef92dbc2, 0x40c5c3cafcea97da, 0x40c5bb1605901eb1, 0x40b15a1cb19b0347, 0x40a5a9c5008b7e6c,
  0x40973bfa52c4a8b2, 0x408b30e512249380, 0x407bd1b00e216f07, 0x4060e4a6aa27327f, 0x40558c040bbf3a0d, 0x404c09e7dcd69d64,
  0x4042837554d1745f, 0x4021251c9e1f241b, 0x401e39f8874f3693, 0x4012f1286f10e1ef, 0x40068ce4e26b98fb, 0x3ff5a8866cd81408,
  0x3fd9da879f1868c0, 0x3fbee6944ba4f08a]⟩

theorem npz_cu_ok : (npzOk fpi_cu fpiN_cu && npzOk slsqp_cu slsqpN_cu) = true := by
  decide +kernel

/-- `zn` in `data/kl_fpi_results.npz`. -/
noncomputable def fpiN_zn : NEntry := ⟨chars! "zn", 30, 21, [
  0x3e9b0ecdeebe9f84, 0x3eb92eea93cddabc, 0x3ec53e15eb19088e, 0x3ee21cfe4283fff5, 0x3f00cf1bd347d4ff, 0x3f14d2a520743589,
  0x3f25babf3de11683, 0x3f37e69346805a18, 0x3f40f579873ab70f, 0x3f55ad20151f3faa, 0x3f6c2dbe41453270, 0x3f874fb55a505746,
  0x3fa174925f8cb464, 0x3fb30b8f9b069077, 0x3fc17317ecf416c4, 0x3fca3e514bf6741a, 0x3fcfab5a5a9ee783, 0x3fd3756c3e4aaae5,
  0x3fe2a080f8440f83, 0x3fedd7d4e7de1630, 0x3ff1484fc396b8b7, 0x3fe634e3f4be1643, 0x3ff4535ec20dcc14, 0x3fff17438dba64d8,
  0x4000fbc490c927e7, 0x3ffb6e46c2cead5e, 0x3ff2b40c78496f70, 0x3fe9d585a0952f66, 0x3fed99a217989d55, 0x3fbbd3f22038b3a4,
  0x3f4e45971b69c3ec, 0x3f66df3fb7b7ff6d, 0x3f7b47b24c3fcfaa, 0x3f9059be71489e2d, 0x3fa2b3b0129f31a0, 0x3fb4802050c0bdbe,
  0x3fc096e06c41c132, 0x3fcb4281d9b70468, 0x3fd1d06806e79001, 0x3fd157b0f45cdbb0, 0x3fdbcf05699813a4, 0x3feffee3fb8bd6d0,
  0x3ff513587944920b, 0x3ff242a5e134c6cc, 0x3ff1c5acbaf8a7f0, 0x400389011737327e, 0x400575bbe545f82e, 0x40010e467fb7c6ec,
  0x3ff28c2d1d4edf70, 0x3fe377161effe2f2, 0x3fe23855b6de8fff], [
  0x4116f2b8a4dacc61, 0x4116f2af8f2b40bd, 0x4116f2a1f57630ef, 0x4116f288952bb044, 0x4116f24d6e8a17c5, 0x4116ed93be601cdd,
  0x4100ee1ca9988aa0, 0x4100baafb4063ce3, 0x40e2129b835dbfd2, 0x40e21170945a935a, 0x40bc810d4de2353e, 0x40b2e12196054477,
  0x40a9359f6cee2ce7, 0x409f16efced4fce9, 0x40925d430bc1c694, 0x4086d36ea76a2fcb, 0x407bc2f4f1ade252, 0x40653f08ce783fab,
  0x4051cb74a6c5c80f, 0x4046e5fb2db76b70, 0x404236b0ce9d5099, 0x4039f1db790665e6, 0x401323337d0b1aa6, 0x4009c2f872fed520,
  0x40038f4976c7648c, 0x3ffb742f6ee883eb, 0x3ff03170bdb3202b, 0x3fd80f2ccf66a753, 0x3fc0d84adccbf30e, 0x3fb22f7d0aca058a,
  0x4103ab3e56232f10, 0x40e61aea7fe6ad28, 0x40e61aea795aa4ba, 0x40c8823b038dbc48, 0x40c87ab06009eac4, 0x40b2b5de76b53897,
  0x40a5b7fbcd953599, 0x4097b95a0127bc0e, 0x408b7ffa67242af7, 0x407bd45a6a0fc197, 0x4060ceec5fb46e6e, 0x405667e267ffc410,
  0x404c53e1cf24f83b, 0x4044b70ec02249c1, 0x40211d48e7627d80, 0x401de659ecad7a37, 0x4013684f5a64ebbf, 0x40095a65ef1bca83,
  0x3ffa69d416918b6e, 0x3fe7179167074c0b, 0x3fd35208e77013e7]⟩

/-- `zn` in `data/kl_slsqp_results.npz`. -/
noncomputable def slsqpN_zn : NEntry := ⟨chars! "zn", 30, 21, [
  0x3d719799812dea11, 0x3d719799c77c0f38, 0x3d719799812dea11, 0x3d71979a8688094e, 0x3d719799812dea11, 0x3f101e8b9b9391b5,
  0x3d719799812dea11, 0x3f19794ed8da4e1b, 0x3d71979a36dea111, 0x3f4acb06e3fc6e05, 0x3fb0babdf314b1d4, 0x3f414926273db63f,
  0x3d7197a193fa617e, 0x3fa558b12471c0df, 0x3fe2c26eae5d3be4, 0x3d719799812dea11, 0x3fe258033765ffbe, 0x3fccc5582bbcd3a9,
  0x3ff0a1fec80a56f5, 0x3ff075604e99dba1, 0x3ff446b0566939d7, 0x3ffa1524ed62aa80, 0x3f563c0c39875818, 0x3ff10b3e04eb9a38,
  0x3fffb4e9bdeb8cd3, 0x3ff6eeb3825fea01, 0x3ffbe069debd851f, 0x3ff7945574fedcb3, 0x3fc3653064fa84ab, 0x3f7987504c4f3c05,
  0x3f328b41c01a6fc8, 0x3f563afff5751e88, 0x3d71979981400000, 0x3d719799812dea11, 0x3d71979bdb4c35d3, 0x3fada0fd97cc08a4,
  0x3fa4ef76cf13e805, 0x3d71979b86ca5223, 0x3fcbfa726f4ece6e, 0x3fb58aaf460eafe4, 0x3fc2d2b3154e1c2d, 0x3fe87d9abad29fb4,
  0x3ff069a31a6d420f, 0x3fe833948261cd0f, 0x3ffaf1db8b6544c4, 0x40000925f7450aa0, 0x40136a516eb5265b, 0x4004477988e1c9b5,
  0x3feb2d574ee3bb76, 0x3fdbd3f649d53d4c, 0x3fcd19b68719ee63], [
  0x4116f2b8a4dacc61, 0x4116f2af8f2b40bd, 0x4116f2a1f576374e, 0x4116f288952bb6b3, 0x4116f24d6e8a14e8, 0x4116ed93be606406,
  0x4100ee1ca998b895, 0x4100baafb3fc8aa6, 0x40e2129b83846aa7, 0x40e211709d424257, 0x40bc81037bcf1452, 0x40b2e123f8ad8d9c,
  0x40a9359f6ad7dd41, 0x409f16a996bd2495, 0x40925d5c061ab684, 0x4086d36160c3e173, 0x407bbf7a009f88b8, 0x40653b6ef9147a1f,
  0x4051cc9d34d7f647, 0x4046e3e42c29fde8, 0x40420f4003e95418, 0x403a6db04e951d56, 0x400cda2682af2dc7, 0x4004044ed22e5155,
  0x3ff92d7c2ff3221c, 0x4002a51e5b500098, 0x3fe61e7855952261, 0x3fc92466374a36fa, 0x3fb4715f1f43ddd1, 0x3fa99303f52f78c1,
  0x4103ab3e5621162d, 0x40e61aea70479dc8, 0x40e61aea5d673e42, 0x40c8823b037b61fe, 0x40c87ab06021a4b1, 0x40b2b5db513c93a8,
  0x40a5b7ea651527cf, 0x4097b973c3ffcfc0, 0x408b8006d8dbee55, 0x407bd4d50e3986e5, 0x4060d1369b1d5990, 0x40564fb3f81713d5,
  0x404c9ca2029ad452, 0x40446761d2c95874, 0x402341162e74df17, 0x402015ab06603c4f, 0x4014d7d18e200004, 0x4008eeff2804b678,
  0x3ffa1a73861c779e, 0x3fdc70ce11bfe9ae, 0x3fc257269c3e64c4]⟩

theorem npz_zn_ok : (npzOk fpi_zn fpiN_zn && npzOk slsqp_zn slsqpN_zn) = true := by
  decide +kernel

/-- `ga` in `data/kl_fpi_results.npz`. -/
noncomputable def fpiN_ga : NEntry := ⟨chars! "ga", 30, 22, [
  0x3e65feb330111bea, 0x3e80a2d4841c9545, 0x3e8d272235bb667c, 0x3eb1e8030c064ddd, 0x3ef3499ec8715dd8, 0x3f1d5b2eb19effdb,
  0x3f3c16ab51f2d04c, 0x3f529b95e2dc46f0, 0x3f4ac70b7aa808c4, 0x3f5fea015c6b6aec, 0x3f704e2f639e7d97, 0x3f8a1f1446757ac1,
  0x3fa327a4616787e0, 0x3fb477d61813ca9f, 0x3fc25b2f4f5e6bb2, 0x3fcb348a895bb9f2, 0x3fd013b64ec8595c, 0x3fd529a519792a47,
  0x3fe4b0edd9a9bd85, 0x3ff01b8b6256ff42, 0x3ff1de3d5effbb25, 0x3fe03a0e85be60e5, 0x3ff5d631d7d98c99, 0x4000153d583d1d13,
  0x4000ba80cfffb41f, 0x3ff98e42e1a8674f, 0x3ff0d013653acebb, 0x3fe8e0eecf44030b, 0x3fe4a902a24919bc, 0x3fdbe699c409eadb,
  0x3f6728424b31e67b, 0x3f7b0421e188eafd, 0x3f919f4b4da8919f, 0x3fa39eea18886a27, 0x3fb6272d5eeb9ba2, 0x3fc18fcfc17ba1a7,
  0x3fcc3737f6e294ec, 0x3fd24bb76c26d3c0, 0x3fd1316dd0caf87f, 0x3fe081747a61adb7, 0x3ff1879c2700871a, 0x3ff6748604bdf915,
  0x3ff1ab0ed09af0d6, 0x3ff5f02f3965e678, 0x4005907864d987d3, 0x4005a2ea58ce84cc, 0x3ffffba3653198fe, 0x3fef45014f4f31fb,
  0x3fe49484a803b778, 0x3fe51509da22eecc, 0x3fdb4a47e3ffe315, 0x3f8e19c24509756c], [
  0x415125bf43a7f01b, 0x415125bf3fa4434f, 0x415125bf3cb5b261, 0x40f84be6e3d5dab5, 0x40f84be6de7720b9, 0x40f84be6dd0374e5,
  0x40f84be6dba26dd4, 0x40f84be6d7e3ac75, 0x40e288b5ae5d03e5, 0x40e27d718bdb88ea, 0x40be6a8bdb68f5b2, 0x40b370a97069e6ac,
  0x40a9b85207af26af, 0x409f9f53d41ae6b6, 0x4092aba78ea9496e, 0x4087198a7335e10b, 0x407c3dc6d6ff1ff4, 0x40631b078e8851b0,
  0x4052080638f6b71b, 0x4047c1a80a8a555a, 0x4043857d9d082e19, 0x4026bbf8bcb98104, 0x4012f37e522ed04d, 0x400a9f50d60cef66,
  0x4004aa768f690715, 0x3ffe1be0e2456f0c, 0x3feee355d1df0e03, 0x3fd7f0aa559259b7, 0x3fcaeb4db8a0e1d9, 0x3fb53a2a265ebb3a,
  0x40e5d9ed82d84ce2, 0x40e5d9ed7d099648, 0x40c8e347a4322a20, 0x40c8d8cf480aae14, 0x40b2f4aa92ef2e9f, 0x40a5d4a7ad5058a3,
  0x4097fb1d17c23844, 0x408b9fa8b7eeb261, 0x407b0220207be7dd, 0x4060d74859d5ef9b, 0x4057143147aeff6d, 0x404c10c134f3bce0,
  0x404621a995ed9fa4, 0x402176f3f51dac17, 0x401fb3c1d10b84f9, 0x40146d4a495a4d5a, 0x400aecfb730a0066, 0x3ffc17ae492fdd3a,
  0x3fe51444a4e7d59e, 0x3fd4e806f22600b3, 0x3fc6f5a01eb522de, 0x3faa1c10252d25f9]⟩

/-- `ga` in `data/kl_slsqp_results.npz`. -/
noncomputable def slsqpN_ga : NEntry := ⟨chars! "ga", 30, 22, [
  0x3e9909ae07b8cd68, 0x3ea1f3344f09dd80, 0x3e716905fcf1f805, 0x3d719799812dea11, 0x3f44319a5be69f08, 0x3d71979dd4b31a11,
  0x3d7197d6c8e6e211, 0x3d719799812dea11, 0x3d719799812dea11, 0x3f4611010678882b, 0x3fae18791c061dac, 0x3fb30e2df585d0fb,
  0x3d719799d7c25a11, 0x3d719799812dea11, 0x3fb8abd52994b2c6, 0x3fcc3bcc80d9d385, 0x3fe3ae4d900ad6c9, 0x3fad6c8b6aa0fa34,
  0x3ff38ff3de684973, 0x3fff5b6eb1dd33d5, 0x4004624288b18d21, 0x3f8c4f23b388dca3, 0x3ff4542fbee02747, 0x3ffe4f5aef0954ed,
  0x3fffe0114fdaebf9, 0x3ff78a58027f185f, 0x40013adf55731b0b, 0x3ff7d74f2660b9a9, 0x3feff87a93d2cbc3, 0x3fa9ecc688bbe386,
  0x3d719799812dea11, 0x3f59d85471830329, 0x3d719799812dea11, 0x3d71979afff32211, 0x3fb5b49ef31f48e9, 0x3fc6a43bcd2b2926,
  0x3fca5b827021a1f5, 0x3fbc99e1bbc7b731, 0x3f9d4f3ed08d25ed, 0x3d71979a33b8d211, 0x3fe219d4905ca6d3, 0x3fd1665dd5fcf99e,
  0x3fee561297822b12, 0x3ff37cee6c11bd69, 0x40017e82fbbb69b8, 0x400d6c29a7f95d47, 0x3ff97d8da8e6cc5b, 0x3fe328069cdeba07,
  0x3fe0e098bdedd548, 0x3fe04cd91e7f7a96, 0x3fba6551337adcc7, 0x3f41300213e7f774], [
  0x415125bf43a7f01b, 0x415125bf3fa4434f, 0x415125bf3cb5b260, 0x40f84be6e3a80345, 0x40f84be6de65d270, 0x40f84be6dd04fe44,
  0x40f84be6dc14cd97, 0x40f84be6d7f799c8, 0x40e288b5ae5521fc, 0x40e27d718af05884, 0x40be6a8cdce67528, 0x40b370a9bdf18a53,
  0x40a9b8520985071b, 0x409f9f7b39a3858e, 0x4092aba7a66f6e18, 0x4087199236427425, 0x407c3de702ad4c9c, 0x406317382bc3eac7,
  0x4051f543fdf201eb, 0x4047dc8d55ee667a, 0x404351fc1404bfba, 0x4026af2d043c33cc, 0x4011960569cb227e, 0x400d1faa9837dc24,
  0x4004a0ee62cb9792, 0x3ff9f7ddcdac2d2c, 0x3ffb28617db4f0bf, 0x3fcd958131ec24bb, 0x3fc074f9d502ed02, 0x3fa9575332efcfea,
  0x40e5d9ed8355115d, 0x40e5d9ed7c7e96f4, 0x40c8e347a42b35cd, 0x40c8d8cf481921a6, 0x40b2f4acac1245fa, 0x40a5d4a722d88503,
  0x4097fb1f11eb6714, 0x408b9fa4da6ceae1, 0x407b0220e7c08fd7, 0x4060d9b67bbd6fa2, 0x4056bf72aeaedea0, 0x404c8882ce311b20,
  0x4044a8e3da46585d, 0x40222145a8d64cce, 0x402202bd783e644a, 0x40157679e06fc4e1, 0x400980b9b5006dbc, 0x3ff461012d8f06eb,
  0x3fe99e2077c39d10, 0x3fdf0b805abe1149, 0x3fb76bab99bab8c6, 0x3fa1442fd53883b8]⟩

theorem npz_ga_ok : (npzOk fpi_ga fpiN_ga && npzOk slsqp_ga slsqpN_ga) = true := by
  decide +kernel

/-- `ge` in `data/kl_fpi_results.npz`. -/
noncomputable def fpiN_ge : NEntry := ⟨chars! "ge", 30, 22, [
  0x3e62364522d04478, 0x3e7f00822be1d320, 0x3e8ff93b288395b9, 0x3eb13ac78e4971e7, 0x3ef3649a456c0f7a, 0x3f1cfafb95b1f32c,
  0x3f3b64d310855954, 0x3f51e1e71e8d0322, 0x3f4e36641f8f70fe, 0x3f6055b3fc18e1df, 0x3f72374561930710, 0x3f8d534b1b1a48d7,
  0x3fa50d0264bdb87e, 0x3fb5eb6318089091, 0x3fc339fd60fb94dc, 0x3fcbe0833e6f8abe, 0x3fd0235f83d4e804, 0x3fd65d8b091dfc69,
  0x3fe5a19e92590a7e, 0x3ff05199ee1042ca, 0x3ff153a4497bbe4e, 0x3fe8327f15989d15, 0x3ff934a4ceb7e31b, 0x40013b66d231029c,
  0x4000cec6c5678505, 0x3ff824803bbb2ded, 0x3fef21b6f2d955e5, 0x3fecbba7e57cea58, 0x3fe72e52018220db, 0x3fde92a6671c81c5,
  0x3f69d291290c616d, 0x3f7909f02a65ca50, 0x3f9329b7aec7f846, 0x3fa2ec53dfe6e755, 0x3fb89af0c6a5754e, 0x3fc2672ddde51645,
  0x3fcd1bc70d562009, 0x3fd265ac162f70c2, 0x3fd0b9801ba075af, 0x3fe26d4b36c36488, 0x3ff1d6513a8a0fbc, 0x3ff662236d7b304a,
  0x3fef1bd60ddcf3ae, 0x3ff97bc5107d992a, 0x40063f324cf60e38, 0x4005b801cb77721b, 0x3ffd35324b797565, 0x3fe945eea39bba5e,
  0x3febe27d0a8595c6, 0x3fe96f96e4094bdf, 0x3fd9d07e728926ad, 0x3f91895e56f2c9bb], [
  0x41521e4b8d844fde, 0x41521e4b8549e113, 0x41521e4b7fd2a935, 0x40fa216f6dd0c3b9, 0x40fa216f5ccb1e81, 0x40fa216f58c401f8,
  0x40fa216f54b4ad38, 0x40fa216f4714ca25, 0x40e3b50e7fb2559c, 0x40e3ab20a41ab753, 0x40c0b4dc2822c064, 0x40b312a981da6f65,
  0x40aa6f98f83279d2, 0x40a01a0cf0de2c47, 0x40931f38a720a0cb, 0x4087831fd9645744, 0x407cd3c4d7d43762, 0x4061b06e4c019548,
  0x40524cc9708c28d1, 0x40490ba0009dfb56, 0x40446cb2b1eabe55, 0x4021798ef584f21c, 0x4014702dd49a7123, 0x400d322892e2550e,
  0x40063c69f55e56b1, 0x400057b1f72e9122, 0x3fe804eb6878523d, 0x3fd5f86ce611f63d, 0x3fce3cd10ca43687, 0x3fbb3fa1662625bd,
  0x40e75768f906eb76, 0x40e75768e522320b, 0x40ca972efefe51cd, 0x40ca7e6628347711, 0x40b3c5af41e78441, 0x40a5c2e8b342606f,
  0x4098627d6d90747d, 0x408bc5c9357de950, 0x407b04f74b804e2b, 0x4061f462c2e9a21e, 0x4057af1d37675553, 0x404db972dd21a732,
  0x404788f8569de55d, 0x40237261b434e5b0, 0x40202eb1bfb782a1, 0x40152a6fe6524e7f, 0x400bdae9446b0d89, 0x3ffc7d8b7696ed81,
  0x3fe3b2dcab0d26ab, 0x3fd4dfe9922f40e3, 0x3fc89bb553da6277, 0x3fb1cf271eaa76fe]⟩

/-- `ge` in `data/kl_slsqp_results.npz`. -/
noncomputable def slsqpN_ge : NEntry := ⟨chars! "ge", 30, 22, [
  0x3d719a6123dc0000, 0x3ea267172bbea4f7, 0x3e9ee8e8fd671919, 0x3d719d2e09ab8bc5, 0x3d71c02d711b168d, 0x3f429dfd9ff9f022,
  0x3d71c5cd3105803b, 0x3d71c11d525e379e, 0x3d71996dfeaf6591, 0x3f4982bf20a2993e, 0x3fab883e806c3961, 0x3fb74b1f2098d453,
  0x3d71a65eccc3f701, 0x3d719799812dea11, 0x3d719799812dea11, 0x3fe059260a6774bb, 0x3fe1f5f504d252f5, 0x3fd6d3d6cfe6bd74,
  0x3fec64997197c3a2, 0x3ff4ce12c4f95692, 0x4003a59aad0a6e1a, 0x3fc138ae8e7f93ba, 0x3ff8bc5f48f07e65, 0x40015b679844feba,
  0x400066ff8d439ab7, 0x3ffbd604330726dd, 0x3fd748e89112ab10, 0x3ff5d6b53051a140, 0x3feb8ab747f5517b, 0x3fbd8c53126b37b1,
  0x3d719799812dea11, 0x3f569dada4295ba1, 0x3d719799812dea11, 0x3d71979a163b2ef9, 0x3fb5822951ddd83e, 0x3fc85aaf0efcabda,
  0x3fc63b4ad18cbe01, 0x3d719799812dea11, 0x3fa0c58c5df3eb6e, 0x3fc5400925941364, 0x3fef6523cd71e519, 0x3fe0a22fdfab2165,
  0x3fecb766d7bf466d, 0x40018daf136b5cad, 0x3ffd12ac8aade99c, 0x400fb9c223474528, 0x3ff6cc090045505a, 0x3fecd425a40e9ace,
  0x3fef69aa70f5388d, 0x3febfa5adb70df4f, 0x3fcd77446690c9cf, 0x3f55d96dda260763], [
  0x41521e4b8d844fdd, 0x41521e4b8549e111, 0x41521e4b7fd2a932, 0x40fa216f6dd3da88, 0x40fa216f5cc80888, 0x40fa216f57b9eaf3,
  0x40fa216f539e8d9c, 0x40fa216f471433fa, 0x40e3b50e7fa20e08, 0x40e3ab20951ba11f, 0x40c0b4dab818d925, 0x40b312a62cacd3e5,
  0x40aa6f9c210583f9, 0x40a01a0bd9370954, 0x40931f3f51a14330, 0x408782fd663dbbc1, 0x407cd261d549b8b8, 0x4061b1142707dc0d,
  0x40524487c8f0695c, 0x40492260bf1b4c88, 0x40442addd7799816, 0x40217549ea0d372c, 0x401317f5488ba457, 0x400d6d17f615372f,
  0x4004fc66527787ff, 0x3ff430db9431865b, 0x3ff136384b0b611c, 0x3fc80f46b0bcf23e, 0x3fcc7ac543efe59f, 0x3fb33592a85c4655,
  0x40e75768dce1beae, 0x40e75768d8e285ac, 0x40ca972efef109ba, 0x40ca7e66283f870b, 0x40b3c5aee8597a73, 0x40a5c2f0ce4daf0a,
  0x4098628e8d52365c, 0x408bc5ddd23c456e, 0x407b0500c316a17a, 0x4061f7f3c2f4a7fd, 0x40576b49e46e4ee4, 0x404e20f7ab37df17,
  0x40467b51a6efbb1d, 0x4024ed5c46f9beeb, 0x4021658145b6c491, 0x4016c37e5a6210a2, 0x400c05d5e9de7645, 0x4005e5f3654997ec,
  0x3fe75ffa8bf5bd55, 0x3fdb9c7186262998, 0x3fc1f3cbb03d8702, 0x3fa9b2f80c4ceddc]⟩

theorem npz_ge_ok : (npzOk fpi_ge fpiN_ge && npzOk slsqp_ge slsqpN_ge) = true := by
  decide +kernel

/-- `as` in `data/kl_fpi_results.npz`. -/
noncomputable def fpiN_as : NEntry := ⟨chars! "as", 30, 22, [
  0x3e30bf9d375cf5fa, 0x3e577c0a5d84039c, 0x3e72c8b6cf6fc61f, 0x3e80b1e9eee07844, 0x3ec2615b11cfeb92, 0x3ef8db3992e31f5c,
  0x3f204c949c70f626, 0x3f3bcdb913c6d013, 0x3f46bcb46ce52d3e, 0x3f5338a245334865, 0x3f626cb895246dd3, 0x3f73616cc3c02fc5,
  0x3f8f3fc738aff84b, 0x3fa6aa34c15977a8, 0x3fb73c7d5f424108, 0x3fc40eb783c89e4d, 0x3fcc84b80060563f, 0x3fd02981b79fc769,
  0x3fd7d3f270ed384d, 0x3fe6a384f07a3997, 0x3ff08b2741f57d27, 0x3ff0a34c54adf6e7, 0x3fed95ae421b546c, 0x3ffc556532aa0895,
  0x40023b5ac29c5c96, 0x4000bba4f83677d0, 0x3ff76d43359b5666, 0x3ff0521b4bae6efb, 0x3ff0765e6cc29930, 0x3fea92139bb6c1db,
  0x3f80efa2aa8639e6, 0x3f73193d8418dd34, 0x3f97a52def71bd80, 0x3f9c4ff99589b3ec, 0x3fbc23e701eabb05, 0x3fc340fc6da66c0e,
  0x3fce13562aa4641c, 0x3fd2832f52be89d5, 0x3fcfc3be0de19074, 0x3fe4e57558eb4394, 0x3ff22773d17e3e5b, 0x3ff660992d39caf8,
  0x3fe9cc91ac45446c, 0x3ffe46c2a0b8ed3f, 0x400789ef9f030952, 0x400621f9bdc2c551, 0x3ffa5521085699c7, 0x3fe53f0b7c3f6633,
  0x3ff20e66849d35d9, 0x3fee21be2ddd6abe, 0x3fe0ca2452401735, 0x3fa9e9ab547e75fa], [
  0x415a5e1377b6db77, 0x415a5e13211b5a25, 0x415a5e130774d82f, 0x415a5e12e92d3732, 0x40ff25c670f58849, 0x40ff25c66fe7d3ad,
  0x40ff25c66f7e214a, 0x40ff25c66eddcae8, 0x40ff25c60e4c26a7, 0x40e5ec9bdee59de3, 0x40e5ec3264aa74bf, 0x40c31091586364c3,
  0x40b233c90b929f6e, 0x40aa9c3b82389443, 0x40a037afe4b36718, 0x409382b85ea5fbe0, 0x4087cd7a3a9fdc5d, 0x407d8b65e418f208,
  0x4060a7bddb3d155a, 0x405296687319326d, 0x404a74653eafb09a, 0x4045f138095d6d40, 0x4020fd636f052f11, 0x401517d27b341384,
  0x400fe198e6f1b5d4, 0x40078657bbdeb990, 0x3fff2827083399ba, 0x3fe258e6af3f9105, 0x3fd4ef323b2d8a12, 0x3fce3fa9991251f3,
  0x40ea5482fcaff2e1, 0x40cdb31ab71e7f57, 0x40cdb2b2a66c4616, 0x40cd14185e6075b5, 0x40b4ec33f82552ee, 0x40a59ea611752525,
  0x4098ce460bf18746, 0x408b9829a6ec4cd5, 0x407a92db2a6e0248, 0x4062cfde1a087ae6, 0x405829100a55289f, 0x404eb4746c18e864,
  0x404945a8c1080176, 0x4025c5494fc579da, 0x40209ccb62d0ee61, 0x40166311d06ad852, 0x400bdd033b0867df, 0x3ff3479de3337773,
  0x3fe3a285f15ba2f3, 0x3fd6a9908ef69204, 0x3fc858fd7d659084, 0x3fbad5c0ebf7d118]⟩

/-- `as` in `data/kl_slsqp_results.npz`. -/
noncomputable def slsqpN_as : NEntry := ⟨chars! "as", 30, 22, [
  0x3d719799812dea11, 0x3d719799812dea11, 0x3e9e84011bfc9f6e, 0x3e8745a9f34c9187, 0x3d7197b68f000000, 0x3d7197ea1cf3d651,
  0x3d719799812dea11, 0x3d71979981000000, 0x3f3cf89590300a0b, 0x3d719799812dea11, 0x3f4cf8b1079c72d2, 0x3fa35160049af8c5,
  0x3fb52a9de314c84f, 0x3fba2a64900e7e56, 0x3d7197bb6bc911fc, 0x3d719799812dea11, 0x3fe03f1629d567a6, 0x3fe14f4526d4ae79,
  0x3fe77749fc003f59, 0x3febdc07d8c9c53a, 0x3fefd7b11619d7b1, 0x3ff7662c757577a6, 0x3fd1dccb3008a4b1, 0x3ff9e40dde9487d6,
  0x4001f6a21be7c3bb, 0x4000dfae3715fb09, 0x3feff3a1807dd48f, 0x3ffd19fa50ebcb3d, 0x3ffa65a67e633475, 0x3ffaac520e5ed246,
  0x3f532e00a5a4bfaa, 0x3d719799812dea11, 0x3d719799812dea11, 0x3d71979a5f8a150b, 0x3fa669147be603fb, 0x3fc7c6b8963090e1,
  0x3fc79ec7beb3eef5, 0x3d71979b85d56e20, 0x3f896d014ae273f9, 0x3fc6fe7c129e980a, 0x3ff65e5b50620553, 0x3fe20bf563c3ada4,
  0x3ff54eb886c5fb09, 0x40051ad165d92004, 0x4004f12961e82fc3, 0x400b1c436aa1fc49, 0x3ffb1d005ab26dc1, 0x3fd474f698aa94a4,
  0x3fe1f63758ce9585, 0x3fc234c4f1e07a8b, 0x3f907514a118b6c9, 0x3f387fdf18626cc7], [
  0x415a5e1377b6db77, 0x415a5e13211b5a25, 0x415a5e130774d82f, 0x415a5e12e92d3732, 0x40ff25c670f9c393, 0x40ff25c66fedcedd,
  0x40ff25c66f7ec058, 0x40ff25c66eed755e, 0x40ff25c60e4c27cf, 0x40e5ec9bdd1a1f41, 0x40e5ec3265e84e5c, 0x40c310916b044939,
  0x40b233c8d9660c63, 0x40aa9c3b3d3b965a, 0x40a037afaa8f12a0, 0x409382b85535c72e, 0x4087cd827ced1823, 0x407d8b79af8cc3ee,
  0x4060a80c66baf79a, 0x40529499c1268a56, 0x404a73f3ab83fed9, 0x4045dca05d36d2b2, 0x4020dc002d303c8f, 0x4013c71a8a20bd76,
  0x400f841fbea2bc31, 0x40081553ebb49d1c, 0x3ff7ffc905a541c3, 0x3fd8894feeff1df5, 0x3fc89931e667cf32, 0x3fdeb95bb61bba9b,
  0x40ea548300f7d7fd, 0x40cdb31ab71196b8, 0x40cdb2b2a6693098, 0x40cd14185d65e363, 0x40b4ec3422efbca8, 0x40a59ea79b418f2e,
  0x4098ce43a26c48cc, 0x408b982b58a4ceac, 0x407a92dcec1f2ca3, 0x4062d0be4dfc65a4, 0x40581a38ca6403c0, 0x404eb42bfa8edb95,
  0x40490c1cb28cbc46, 0x4026be2a6644e98a, 0x40207ea8659f00ef, 0x4016a2ee00e6a8ea, 0x400a0d406b44d96a, 0x3feaba663761f83c,
  0x3fd5f03aeb17e0a6, 0x3fc21ca6a9af492b, 0x3fb7e0820d258570, 0x3fae81315b19e9ac]⟩

theorem npz_as_ok : (npzOk fpi_as fpiN_as && npzOk slsqp_as slsqpN_as) = true := by
  decide +kernel

/-- `se` in `data/kl_fpi_results.npz`. -/
noncomputable def fpiN_se : NEntry := ⟨chars! "se", 30, 21, [
  0x3e801a6b299df99e, 0x3e8473e5710a37c6, 0x3ea32a4f67edfadf, 0x3ee03462b93d554b, 0x3f060eaf571db1a6, 0x3f230005d748532a,
  0x3f36aba082776f4f, 0x3f47b62ff26a9199, 0x3f3e0b2bc0ab9f9e, 0x3f5542e4a583ab5e, 0x3f6391dd5982a54c, 0x3f757112a0da9155,
  0x3f9146203ba738e2, 0x3fa87f886fb5d161, 0x3fb891439ab19dc1, 0x3fc4fb2c80dca508, 0x3fcd4ec060c0505d, 0x3fd05539512c9590,
  0x3fd9a00a8c5ebd30, 0x3fe7fbe7e05716e5, 0x3ff0f583d245195a, 0x3ff00d256a9907e8, 0x3ff0cfa108224230, 0x3ffe7d2aae733b53,
  0x400298145eae3266, 0x4000013b6c753e42, 0x3ff4ddccf558d04f, 0x3ff321ed0a01213f, 0x3ff21c4c2867ac48, 0x3feb91c52c7920f8,
  0x3f81b1f0bc50699a, 0x3f9afb5b2e93cf26, 0x3fa0c396cf6ee6b5, 0x3fbe6d9b2ec9f91d, 0x3fc3f7d4b391e85c, 0x3fcf5f0481a9cd6b,
  0x3fd2c030202a5f65, 0x3fcd415f5b4727d9, 0x3fe82d7df0c957c3, 0x3ff2cea1ae546ef5, 0x3ff68f750a78106b, 0x3fe26fedec8b9da6,
  0x40018214d34dfb76, 0x40089dd55d1ec397, 0x40057c1a46a6e57c, 0x3ff6c4a739134cbe, 0x3ff0b86f6ae80ce0, 0x3ff335703c7de141,
  0x3fef7db12b440f70, 0x3fe069309c93fed5, 0x3fa992a0692cba7e], [
  0x4158f5b7f6411bcd, 0x4158f5b7de20f4b2, 0x4100030f5e6b9e73, 0x4100030f5e3cc825, 0x4100030f5e327d8b, 0x4100030f5e29bf1b,
  0x4100030f5e1523bb, 0x4100030f5d6cabfa, 0x40e5eb510fc1da67, 0x40e5ea9948bda033, 0x40e5ea1414e2fe14, 0x40c2f3b60a9a2bb2,
  0x40b2218ccc3f9dd4, 0x40ab190a60654f37, 0x40a058110726c75e, 0x4093cd4b970f3719, 0x4087e607346800bb, 0x407e35c581d63b3b,
  0x405fd42fcde523d5, 0x4052ceec24a720ed, 0x404bfb6145465d9b, 0x404784b876a66722, 0x4020c916a7b1b567, 0x4015ca597395ff81,
  0x4010f5c2da7649a9, 0x400a8aad0e64fd0a, 0x3ffbf9244bade79a, 0x3fe34387da71696a, 0x3fd646ec4fcbe9b0, 0x3fd03f0e1ec0e91f,
  0x40ea735ccc224e7b, 0x40cde12520708736, 0x40cda43103db5afd, 0x40b50e8ecfdaf4ec, 0x40a5867edf9eda69, 0x409906adae36856e,
  0x408ad4eac84362ed, 0x4078e8a24affc034, 0x40635af841f0f818, 0x4058077276b31b41, 0x404fa62dac49a58c, 0x4049af3b28960829,
  0x40278f3622abe9df, 0x4021d43aa3ec4248, 0x401793da78775911, 0x400f885136fb6dca, 0x3ff01d4a4f74b2db, 0x3fe3ff86deba9e66,
  0x3fd89692f04b8fd8, 0x3fca753772ef052d, 0x3fbd8060e9995787]⟩

/-- `se` in `data/kl_slsqp_results.npz`. -/
noncomputable def slsqpN_se : NEntry := ⟨chars! "se", 30, 21, [
  0x3e7b4a9b39fec383, 0x3ea5851e4b9c7c5c, 0x3f34724417e39c09, 0x3d719799812dea11, 0x3d71979bf5dca0b1, 0x3f2393eb84a1ec69,
  0x3d7197a8cf3520e3, 0x3d71979b4f0d8e8f, 0x3d719799812dea11, 0x3d719799812dea11, 0x3f51c82a294e2fbb, 0x3fa6860ecf22cae8,
  0x3fb487a96cb38eda, 0x3fbd7e1604f9e613, 0x3d7197aac4c04df6, 0x3d719799812dea11, 0x3fe1ed7289db37c8, 0x3fde316154f7de35,
  0x3feab7cdb35c20cb, 0x3fed6986ce0c3a0c, 0x3fef16083c884b2d, 0x3ff167bf0b64623a, 0x3fcb68c52f463d02, 0x3ffab2873d67fd35,
  0x4001b376f3fd9169, 0x3fff671cc576423b, 0x3fe7efd306f132c6, 0x3ffdaa0e803b4055, 0x3ffcc79fe3482dfc, 0x3ff845e8bc7a72a1,
  0x3f5476519f78154f, 0x3d71979e08d76a7b, 0x3d719799812dea11, 0x3fa956aa90d6c59f, 0x3fc96e4679a9710d, 0x3fc75916da773a93,
  0x3d71979a5d96e7a7, 0x3fa7a9e44d6de117, 0x3fd5de889ff22259, 0x3ff745b35b29abaf, 0x3fe6b780ab41845d, 0x3ff39d3bf683d5ce,
  0x400789e5dc788a75, 0x40079e3f8e52925e, 0x40099dd5ce2e2a0b, 0x3ff7d84eec8a3f67, 0x3fe50fe2833feb8d, 0x3ff0b49227f6ab06,
  0x3fd84f4bf9b8f4f3, 0x3fad130662b9c24f, 0x3f5fa2f1cdbd8571], [
  0x4158f5b7f6411bcd, 0x4158f5b7de20f4b2, 0x4100030f5e604819, 0x4100030f5e3b8a1b, 0x4100030f5e3268e2, 0x4100030f5facbe9a,
  0x4100030f5e14c8ec, 0x4100030f5d67fe9a, 0x40e5eb510ff34f94, 0x40e5ea9948f48075, 0x40e5ea1416f0d72f, 0x40c2f3b63940ff1c,
  0x40b2218c68db1b1b, 0x40ab19031ede6cf6, 0x40a0580ba1b16606, 0x4093cd4775227481, 0x4087e614e95e1ac9, 0x407e36332eed5355,
  0x405fd54912c903d4, 0x4052d2693c76d2f2, 0x404c001d1b0cd820, 0x404780411084af37, 0x40207aec02ad4fc3, 0x4014a7ba608ff81d,
  0x40102b130f2ab55e, 0x400928ddf5354942, 0x3ffc3f9c09cc4b71, 0x3fd93f781839f50d, 0x3fda766acee95d35, 0x3fdfc345c50c0229,
  0x40ea735cbe5fb1ef, 0x40cde125206ba4b9, 0x40cda43103968089, 0x40b50e8dcb03da09, 0x40a5867a85dd76bd, 0x409906ab9ffdc29d,
  0x408ad4defb20114f, 0x4078e8b157718576, 0x40635a0326a2e036, 0x405801bac158bb08, 0x404f97d94a6ce4bf, 0x4049a5c1d5e24fa8,
  0x4029111ffeb243d4, 0x40216fc01429758b, 0x40193201093abc06, 0x400eec936355ce83, 0x3feeba4f2bebea68, 0x3fd3c1353b1fdf17,
  0x3fc92902c839c9e3, 0x3fbfd5532c1c5616, 0x3fb3e9f1f555c74f]⟩

theorem npz_se_ok : (npzOk fpi_se fpiN_se && npzOk slsqp_se slsqpN_se) = true := by
  decide +kernel

/-- `br` in `data/kl_fpi_results.npz`. -/
noncomputable def fpiN_br : NEntry := ⟨chars! "br", 30, 21, [
  0x3e3a7739b8354fac, 0x3e6197ec717e37ac, 0x3e7b19cfe5127161, 0x3e85f67623f4b3a6, 0x3ec8b750f40e4da3, 0x3effa3b47275020d,
  0x3f24463c1a0bebcc, 0x3f40f2398416c4e6, 0x3f458a344bf33d61, 0x3f55fabea7cf02dd, 0x3f632e4e7d6c7f36, 0x3f7d9602664ce271,
  0x3f9271f6b9b14b71, 0x3fa9cdb71582d6e2, 0x3fb9a96dbb0b02f4, 0x3fc5eb6fca2eb15f, 0x3fce28e7054a8fb8, 0x3fd0fe8d02e48744,
  0x3fdc01ce4d410759, 0x3fea136a5ee6509f, 0x3ff23fe6dc8e98eb, 0x3ff0bb425c84ad96, 0x3ff24c27785f2937, 0x3fffe8976c691b0c,
  0x40028a23a0a5b8b5, 0x3ffdfdb8bc8cd06a, 0x3ff370c7594650a5, 0x3ff6b6f65856b8b4, 0x3ff472d89cbcc2b1, 0x3ff006dd41ca873f,
  0x3f81fa1505a80f01, 0x3f8721e04128e680, 0x3fa700e355b97199, 0x3f9d83b78022f98b, 0x3fbd2ea97961f9dc, 0x3fc4b32896421e52,
  0x3fd0833f86739601, 0x3fd304200450a860, 0x3fcdc4b1b02dc852, 0x3feb588313836732, 0x3ff44f740d2e5e09, 0x3ff866d5c343fb6f,
  0x3fe03bcce505475a, 0x400315c1182f3195, 0x40093a0e6c592a26, 0x400498a5e2a18f4e, 0x3ff279cc71cb2f07, 0x3ff6cf741f83d172,
  0x3ff863cf0f12463f, 0x3fecd442be710c5a, 0x3f9fa9c85f929577], [
  0x4158eba19b90a4a9, 0x4158eba140a83313, 0x4158eba123b65117, 0x4158eba0fe5e264c, 0x41008f568cdc3542, 0x41008f568bce7753,
  0x41008f568b5afeb9, 0x41008f568a9dd224, 0x41008f53093fb879, 0x40e760630951d1d0, 0x40e75f5f674f9ca2, 0x40c4a29a19025a61,
  0x40b519601c805eea, 0x40ab5c7023f38599, 0x40a04a04d40b42d7, 0x4093db26bfe864ce, 0x4087de07def1bf79, 0x407d26b1659d9853,
  0x405f05f78b605990, 0x4052890c7eddc4b9, 0x404b8a55b743edef, 0x404778f372fcbd54, 0x402085611ff9ae5c, 0x401618696219de15,
  0x4011d85e9fd7503f, 0x400d449e7c8f9f58, 0x3ff339dec58e4598, 0x3fe1c2fba60f5aff, 0x3fd99dd2ae77a3f6, 0x3fc7e909b0c2bdc6,
  0x40ebfc1b14742a40, 0x40cf9ae68358fde6, 0x40cf9add397a3a81, 0x40bccf0ea36f2acd, 0x40b3deccb32e57a5, 0x40a554c4e7e839ff,
  0x409901182184565b, 0x4089d7df7a30e87a, 0x40754f417290e366, 0x4063543c189e2a89, 0x405822cb128d6869, 0x404f4480c9aa6cf8,
  0x402f592d249a0f3f, 0x4027eb937854c324, 0x4022bafd4c10b4ee, 0x40185d24a9b67412, 0x4010f7d10090791f, 0x3ff0465ced251dca,
  0x3fe39934f118b746, 0x3fd6cafa81a61ff3, 0x3fbf7db71075b34f]⟩

/-- `br` in `data/kl_slsqp_results.npz`. -/
noncomputable def slsqpN_br : NEntry := ⟨chars! "br", 30, 21, [
  0x3d719799817a88de, 0x3e9326d94f63db7f, 0x3e5b36bd2faab04e, 0x3ea166c4124b4139, 0x3d719799812dea11, 0x3f3df511d5aa170f,
  0x3ef4eff1059e6350, 0x3d71979981400000, 0x3d71979af3eec937, 0x3d719799812dea11, 0x3f50965aa7eebb5a, 0x3fab5ddf8c05c4c9,
  0x3d719799812dea11, 0x3fc3012a5016faa4, 0x3f8f79d142b70f28, 0x3fd0cfaf3b07a0f0, 0x3fe1f8b707de56ef, 0x3fdb0b7091b61dc0,
  0x3ff12ee5dbd32cd5, 0x3fd352612a606908, 0x3fe15b8b40540aaa, 0x40093f0767ef8582, 0x3fcb18eb068b2d99, 0x3ff9cd50b2b969c5,
  0x4000dba62d562579, 0x3ffc96be24d86d9f, 0x3ff88941c797d7ac, 0x3ffd656d5324705b, 0x3ff870ea1b3c5231, 0x3fdc4e9c3998656b,
  0x3f53b34de466644e, 0x3d719799812dea11, 0x3d7197d0265fdada, 0x3fa031a8f0724303, 0x3fa08282f0a3f81c, 0x3fc0bed8977d179c,
  0x3fb17ee8861ec603, 0x3d71979bdaa50157, 0x3f8643a96c1cd2c3, 0x3fd8e396032c8a19, 0x3ff69b4fe6b3f079, 0x3fe7f2af5632cbe3,
  0x3fdcc66d6be3eeef, 0x400912e4b43afb87, 0x400831b3c6cab9b9, 0x40077b47f1c5cb37, 0x3ff9448b75c24fa3, 0x3ff44f9eb0add2c7,
  0x3ff8b3336380c2e5, 0x3fe44ce98b309ce8, 0x3f781b2ca23f0403], [
  0x4158eba19b90a4a9, 0x4158eba140a83313, 0x4158eba123b65117, 0x4158eba0fe5e264c, 0x41008f568ce23455, 0x41008f568bed234a,
  0x41008f568b5cc2fa, 0x41008f5688c5c449, 0x41008f530942b533, 0x40e760630a6c4fdb, 0x40e75f5f7293762a, 0x40c4a299e28033ff,
  0x40b5196061637deb, 0x40ab5c7030899e93, 0x40a04a0336ec5d8b, 0x4093db258b093187, 0x4087de0218bf08a3, 0x407d26f107dd12af,
  0x405f059165e72fdf, 0x40528ed5a76191a5, 0x404b725879e9fc2a, 0x40472f9867a737ce, 0x40203b896254e3ed, 0x40152a65b75fc3d2,
  0x400f4e09b09f9081, 0x400d07573520c546, 0x3fee4ce5f49a25f9, 0x3fe3b8fbe182baac, 0x3fd549fb8ef8082c, 0x3fc346b6cd25eaf5,
  0x40ebfc1b0b31d3ca, 0x40cf9ae6833298f5, 0x40cf9add39994be3, 0x40bccf0f6782262a, 0x40b3decc984af871, 0x40a554c01b499066,
  0x4099011396a3b268, 0x4089d7ad53e9c47c, 0x40754f0ee02e0b70, 0x406352066a6c3bcd, 0x40584438bcfc59a7, 0x404e9e7e363df2c3,
  0x402dd4dc4cf2a1f3, 0x402a8423afd43106, 0x4021de4815e8091e, 0x401c9e095e816ffd, 0x401232a7bf9b4038, 0x3fec5b179cb499be,
  0x3fe099e8d9dd4b44, 0x3fd2790b8966e66c, 0x3fb9620fbb41a694]⟩

theorem npz_br_ok : (npzOk fpi_br fpiN_br && npzOk slsqp_br slsqpN_br) = true := by
  decide +kernel

/-- `kr` in `data/kl_fpi_results.npz`. -/
noncomputable def fpiN_kr : NEntry := ⟨chars! "kr", 30, 20, [
  0x3e4743c7ba78601a, 0x3e6b0ab7608c76bc, 0x3ea03b0368c9e534, 0x3ec297491381545a, 0x3eda78cd1d78f6fe, 0x3ed7b2e8e24902b3,
  0x3f0c286f68cc7e0a, 0x3f3914e25f44f601, 0x3f58d445e492d892, 0x3f709ad314499a1d, 0x3f7d4bd6fa3a865c, 0x3f85d4c49a00496d,
  0x3f9715849ce61fca, 0x3fac8271e12a5e48, 0x3fbb966b05516b3f, 0x3fc6dc489c917751, 0x3fced23d63c2a60d, 0x3fd19f0c492cdf4a,
  0x3fdd79b62129ba87, 0x3feab50ed6e13d49, 0x3ff209e69d04cfa9, 0x3fef046398475612, 0x3ff4a85454399946, 0x400108025998cfc2,
  0x4002a68a31fb1efe, 0x3ffb9db1ad786390, 0x3ff4b7e0c6ac0ecc, 0x3ff92b27001277eb, 0x3ff576b500756297, 0x3ff056f762a5756c,
  0x3f83f141e85c83c8, 0x3fa4a0c089136d6c, 0x3fa43f76160f7fab, 0x3fbc3b072b66b791, 0x3fc60e1552c2e790, 0x3fd0c65b8c97c361,
  0x3fd31bc4645ceb18, 0x3fd09a5de8e14108, 0x3febdc259dba033d, 0x3ff48a09a6296563, 0x3ff7143c8da9f4e5, 0x3fec5dee87b9acad,
  0x40051cad035a59c6, 0x40090dc6d7aeb0d5, 0x4003f43039292835, 0x3fe4fdb4d9e88317, 0x3ffbd5d45dc606b0, 0x3ffbfc1612713789,
  0x3fec2fec127fa8ce, 0x3f9e54b1adcc1ffc], [
  0x4181cdcad762b16f, 0x412b6b169e6f408f, 0x412b6b169e6f31bf, 0x412b6b169e6f2da3, 0x412b6b169e6f2ad7, 0x412b6b169e6f231f,
  0x40e25af9ef9adcad, 0x40e25af9ef975c8f, 0x40e25af9ef95aace, 0x40e25af9ef93b3dd, 0x40e25af9ef754352, 0x40c7b4d45a6506c4,
  0x40ba3ef0eb131785, 0x40ad1e8008676ef3, 0x40a0c39b673e286c, 0x4094635ea69bfeee, 0x40882268794b8d8c, 0x407bb7b7f2627b27,
  0x405fdfaf4b65c35e, 0x405326836c869742, 0x404d2ca6deeea46d, 0x40484dc19f6652ff, 0x40214a1c146a8811, 0x4016e3fa07a9cb2d,
  0x4013a9d297167b98, 0x401147c4558deed2, 0x3feed96d12178a7f, 0x3fe1f2cb8721118c, 0x3fdc2096bd3517ca, 0x3fcb1ea332bbd138,
  0x40d06101cccea74b, 0x40d060c5d14d32e1, 0x40ba9e6981cfd4d6, 0x40b43f664b059f39, 0x40a5339df76f99e1, 0x40994c9c63937d37,
  0x4089a7544eaf9dbe, 0x4072c161ebcc0dea, 0x4063c1993367d388, 0x4059234aac7e056b, 0x4050c20813ec66b2, 0x402d137ec28d007e,
  0x4029e92162851439, 0x402297e913af58cc, 0x4018ebb8b4293236, 0x400fe16fc935be60, 0x3ff2eb9eb84529cc, 0x3fe5a329856fe408,
  0x3fd9076705278979, 0x3fc1e45f73515426]⟩

/-- `kr` in `data/kl_slsqp_results.npz`. -/
noncomputable def slsqpN_kr : NEntry := ⟨chars! "kr", 30, 20, [
  0x3d719799812dea11, 0x3d719799812dea11, 0x3d71979c9bdf3800, 0x3eff4270aeb5add3, 0x3d719799812dea11, 0x3d71979d8dc791f9,
  0x3d7197a76384582d, 0x3d7197a16dbbe0e7, 0x3d7198d7f61b10d6, 0x3f788301b24143d8, 0x3d719799812dea11, 0x3f9994449ecdbccf,
  0x3f8e7221b659f53d, 0x3faaa3e7b3a63cab, 0x3fda7a3ac78bef1a, 0x3d719799812dea11, 0x3fe5b7f5961f7205, 0x3fd51571e6d9053e,
  0x3ff1b7a7ea9be560, 0x3fd16541a7314870, 0x3fe9e1a98399ac3a, 0x400817f47ceaeb90, 0x3fc5e2cba9e900be, 0x3ff5d700b939cc30,
  0x3ffdd970378fe8ac, 0x3ff83857cebef79a, 0x3ff602a57838f414, 0x40075f5e2f9ad124, 0x4005674e3ae34683, 0x3fbfe2e7faecabc0,
  0x3f86ae11107010df, 0x3d7197a2593c9c19, 0x3fa4180e9cdda248, 0x3d7197a8a39a9b2f, 0x3f93e4c4a6b208ed, 0x3fc3ed05cb664955,
  0x3d71979f21f1f9b6, 0x3f8dedab94b44e32, 0x3fddb08e79379aeb, 0x3ff54babbfe78411, 0x3fe51a1fa864ac9c, 0x3ff9de2d98b88577,
  0x40019571e0bb83c1, 0x401252e2f6211ea0, 0x3ff841decb9c1230, 0x40001c4f57572630, 0x3ff3853ed0be3495, 0x3ff257dbfc3073e9,
  0x3fd1f91a468ebb10, 0x3f4d332cd81cc4ea], [
  0x4181cdcad762b16f, 0x412b6b169e6e3662, 0x412b6b169e6ede0f, 0x412b6b169e6e2002, 0x412b6b169e6e81a2, 0x412b6b169e6e2072,
  0x40e25afa2fcf9a08, 0x40e25af9e602e8c3, 0x40e25af9e9306d15, 0x40e25af9f252e706, 0x40e25af9f3742001, 0x40c7b4d51a18221d,
  0x40ba3eee9fec87a2, 0x40ad1e9a4035b87b, 0x40a0c39cf5f60a6d, 0x40946367cf9b9f8b, 0x4088229a84c6f69d, 0x407bb5db8e6b2e5f,
  0x405fdebbad741eba, 0x4053332ba33c11ad, 0x404d27a7519f482b, 0x4048368078ef2f5f, 0x401fe4e27069d88d, 0x401726d2a0e1f80c,
  0x40119fc13940e68e, 0x40104da409b3c364, 0x3fed535f2bcdbfac, 0x3fd4c235597ddf7e, 0x3fdfb65d61d53d95, 0x3fc1931ef1333188,
  0x40d061027a952c12, 0x40d060c5d543a55b, 0x40ba9e6b5eb101f6, 0x40b43f663d25b665, 0x40a533958156a6c3, 0x40994c9af0432bc5,
  0x4089a755946f0c4b, 0x4072c2fa06d68e3f, 0x4063bb3ee02be323, 0x40592849a70c774f, 0x40508a9bfc884941, 0x402f1260430113f3,
  0x402c1578f9b4cdbf, 0x40229f5d0b4f3efa, 0x401e1a80aaeb0300, 0x4015339597bfc189, 0x3ff3791fc22b880b, 0x3fe86f5369300e58,
  0x3fcee189d207cf26, 0x3fb7c7a1eb444ade]⟩

theorem npz_kr_ok : (npzOk fpi_kr fpiN_kr && npzOk slsqp_kr slsqpN_kr) = true := by
  decide +kernel

/-- `rb` in `data/kl_fpi_results.npz`. -/
noncomputable def fpiN_rb : NEntry := ⟨chars! "rb", 30, 20, [
  0x3ea1f6dfe3bcd557, 0x3ec47e95a16baca4, 0x3eda7611a9a1fb1f, 0x3ecebd364fde3e1a, 0x3f0f9600d03a149a, 0x3f3b61b389e121b6,
  0x3f5ac468b05bee11, 0x3f71b20f6a1dafc5, 0x3f7e20680ff6dc54, 0x3f85fa73834cd612, 0x3f98c0a7f0c1c2e5, 0x3fade3b4993e4fc9,
  0x3fbce5b4f69d0de6, 0x3fc78b358dac7456, 0x3fcf2d51deea597d, 0x3fd22763e36c38dd, 0x3fdf84b9f2e83ef1, 0x3febb1fc5b969426,
  0x3ff1e8692af82ebe, 0x3febb210b53ec77f, 0x3ff7454797b55a25, 0x4002058d034195c6, 0x4002cf73de76b62c, 0x3ffa7b812d048e89,
  0x3ff5874a7c14ba08, 0x3ff7132b1ee02c6a, 0x3ff28c248738f1fc, 0x3fe6582bb91bf502, 0x3fea881d74f155c6, 0x3fc0dc9bcac527ac,
  0x3f882370876f4343, 0x3fa53bcfcfaefce5, 0x3fa7501eb2eb6f8b, 0x3fbcf3fae5f364a3, 0x3fc73d3a8352656b, 0x3fd10ac18080a424,
  0x3fd2f909947ea5be, 0x3fd3693af96b30fb, 0x3fecb3e705fe30df, 0x3ff501cdc9121212, 0x3ff5a7a82a589806, 0x3ff284a2dd632e78,
  0x4006c9aa954ee69b, 0x40096d0a7ae45371, 0x4002a65cf13a37e6, 0x3fefcd5731ba5919, 0x3ffb5008ca4a9cec, 0x3ff62afa3d927046,
  0x3fe8ccf0cc16f13b, 0x3fca81f089abbde4], [
  0x412f67728646e347, 0x412f67728646e1f9, 0x412f67728646e14c, 0x412f67728646df25, 0x40e3500770b89ae0, 0x40e3500770b84479,
  0x40e3500770b81723, 0x40e3500770b7df10, 0x40e3500770b1bbc8, 0x40c81a0fbb407670, 0x40b8cb1e21acd32d, 0x40ad3c3d71f56f23,
  0x40a0dbafd195047e, 0x4094bf4d31812fd6, 0x40888c62f688a8e3, 0x4079f09b7ddf4263, 0x406061ed66d14246, 0x40541b33204164fc,
  0x404f56e408071266, 0x40480d1a80b7347d, 0x4021a87490ba18a5, 0x4018718e91841408, 0x4014a77b1083d102, 0x4010ed3b7b1427b1,
  0x3fef4abb2cdd3dbe, 0x3fe38a37b6a27f82, 0x3fdd647b16043ea2, 0x3fd206a487df0e17, 0x3fa8f9eb77732894, 0x3f9c1268fb2bf0c7,
  0x40d1395898dd1698, 0x40d139313bff2699, 0x40bb419e3bb060fe, 0x40b4c01bbcdd0eae, 0x40a56e8b21d85155, 0x4099ab905665d593,
  0x4089e048f2dcfddf, 0x40711b9443045ea2, 0x406430e38e67a75e, 0x405994a6dfb090cf, 0x4052001962b7d67c, 0x402f19e046f70ed7,
  0x402b50b0e6203d83, 0x40236c8b8586e827, 0x401a431b6a136f63, 0x3ffa09c305322a28, 0x3ff2de014c3915b8, 0x3fea02289441534f,
  0x3fe177b698e7cc2d, 0x3fbb796b07537618]⟩

/-- `rb` in `data/kl_slsqp_results.npz`. -/
noncomputable def slsqpN_rb : NEntry := ⟨chars! "rb", 30, 20, [
  0x3eb125cbe7748a0d, 0x3e601e1e4b4be06a, 0x3efb81c7a22b5601, 0x3e80b1a3c95efc5c, 0x3f7748a168d7b998, 0x3f05051b6047e98f,
  0x3f26134d70e072a3, 0x3efe987460de5841, 0x3f10c41b2b56edcc, 0x3f99f35fcc436ac9, 0x3f95dea0b249577c, 0x3fb1bc9a7839c2b4,
  0x3fd90459d9fb3fa9, 0x3fb506f8b4df14e7, 0x3fe61e54b9c86c46, 0x3fd8d789255a72f8, 0x3fe3e0d48e209b5e, 0x3fe95ebaf1987935,
  0x3ff36d25cd8c34f1, 0x3ffea52812e65a01, 0x3fc5edf7d6a4961b, 0x3ffa3b03bed93566, 0x40061e7243f10b35, 0x3ffef953fb1ce55b,
  0x3fef532e3666300a, 0x3ff5472cf7f7c9f1, 0x3fe4556ebf412cbd, 0x3ff0512eab256164, 0x3fb366079d7d2185, 0x3f5705d0a707981f,
  0x3f85052ab1e6c619, 0x3eea77eb431402c2, 0x3fa18064bc75bca1, 0x3d7197b799576cf5, 0x3f914e30134fdcdc, 0x3fbef7aa1cc73850,
  0x3e48c9ee620978e6, 0x3fc13a1da3611d2c, 0x3fe98795296f98d0, 0x3ff219c51e30dacf, 0x3fed49fad54b230b, 0x400196eb28a14d36,
  0x400262df10e9e33a, 0x40128d62defdf537, 0x3ffac7eabfe4f51c, 0x3ffb36121bc7714b, 0x3ff9f1c0dacd270e, 0x400331493fbd2521,
  0x3fd802e21b459963, 0x3fc4d90de5e1a747], [
  0x412f6772864697a8, 0x412f6772864675d5, 0x412f6772864730e5, 0x412f6772866f6b29, 0x40e3500760962b61, 0x40e350077bc0d6ec,
  0x40e3500757104176, 0x40e3500772e9a6b9, 0x40e350078389b36f, 0x40c81a100d8d78b1, 0x40b8cb1bd3332abc, 0x40ad3c38daba8752,
  0x40a0dbb88f562eac, 0x4094bf5a549dbf11, 0x40888ca2d3b449dc, 0x4079efe3d7467748, 0x40606187828f3ac7, 0x40541e50ad77f7bf,
  0x404f502d1b11267b, 0x4048132a71b447d0, 0x402109d7974736bf, 0x401723ead935e43e, 0x4011f71c019b2a36, 0x40101b0b12a13774,
  0x3fd8283223f0c6e7, 0x3fdf722da32f6f22, 0x3fdcc8eb1ea3cff2, 0x3faf7b290cc12e83, 0x3f9abfbfe2c167a2, 0x3f9114fc05dac130,
  0x40d13958b6897a5e, 0x40d139321e3f6384, 0x40bb419f3eda450c, 0x40b4c01bbaf40238, 0x40a56e974c102095, 0x4099ab816e977fc0,
  0x4089e04deaef289e, 0x40711c855e75fb9d, 0x4064298ba5f19053, 0x4059a4f0619a50eb, 0x4051e57fb1fe6285, 0x4030226f5c13733b,
  0x402c4d75d6b7c736, 0x4022f7cac12a2798, 0x401be5f24bf9b38b, 0x3ffa808ec8bb5a0f, 0x3ff3bf22b32194d5, 0x3feb0d15c24b2e50,
  0x3fdc8f6a26f3fca4, 0x3fa75e61f889a1cd]⟩

theorem npz_rb_ok : (npzOk fpi_rb fpiN_rb && npzOk slsqp_rb slsqpN_rb) = true := by
  decide +kernel

/-- `sr` in `data/kl_fpi_results.npz`. -/
noncomputable def fpiN_sr : NEntry := ⟨chars! "sr", 30, 21, [
  0x3e83e8ef0c0d407d, 0x3e72de64e51a0f4f, 0x3ee503e1269201f1, 0x3f163c7ee34cc3a5, 0x3f3a45f1555dbc51, 0x3f5449d8a1688882,
  0x3f4875410752de43, 0x3f601ea3d6d25e5c, 0x3f6378e40c6263e9, 0x3f8025e6361a0ed8, 0x3f97fa14cb14d02b, 0x3fae159cd4f9a0b8,
  0x3fbdb0e4211c644e, 0x3fc809c22c87e972, 0x3fcf699c74063a96, 0x3fd2b83035284521, 0x3fe111113820abad, 0x3fed19e2670e5f56,
  0x3ff1fe650da60143, 0x3fe5cdbb50d5d737, 0x3ff8cd911814d6d9, 0x40023b462c3fc881, 0x4001d6728fd66ed4, 0x3ff597a5cd911d8c,
  0x3ff7b687b881dd75, 0x3ff77450253fc757, 0x3ff0b22e60f161e2, 0x3fe844db106bdae0, 0x3ff1e4a45d8d1d61, 0x3fc5467e4aa53582,
  0x3f84afbaf13ab3fe, 0x3f9011ace987097a, 0x3fa8802aa80bc8ff, 0x3faa384ab23db2f7, 0x3fbe88f38c2c747f, 0x3fc85c8e30889313,
  0x3fd158111f72037e, 0x3fd2d59b53a7fc9a, 0x3fd6e0892604f928, 0x3fee4d2170fff79a, 0x3ff5c1a40957131f, 0x3ff488ada87132ef,
  0x3ff6d827f5395c99, 0x40088f4b779f22a0, 0x4009426c16af9014, 0x40009ee5426c253d, 0x3ff790284a2bfb9e, 0x3ffd083e011f5b5a,
  0x3ff4f1a910e76bee, 0x3fdfff092df50564, 0x3fe300526604438a], [
  0x4161de913e4c3220, 0x4161de9139590800, 0x4102c4933b267f43, 0x4102c4933b1edc5d, 0x4102c4933b1a480d, 0x4102c4933b0f43cc,
  0x40ec2432361010c2, 0x40ec23a285c42d15, 0x40c497a91cccb7b9, 0x40c2ff7d9281f47b, 0x40b54aa97941246a, 0x40abf0e5c274d4ca,
  0x40a0a3f8cc66b31c, 0x4094ef4769b17679, 0x4088de6e3de4dc46, 0x40780de8fa0a0c2a, 0x4060c3468ff0c03e, 0x40550fb7670b70fc,
  0x4051177958481b90, 0x404631cb91ebe416, 0x40214479934c12f3, 0x401a2a46469e84a4, 0x4017579bd147d173, 0x40124d1a17a2a370,
  0x3fef845044f3a7d9, 0x3fe5e463920b95b0, 0x3fe2a8b9d132d133, 0x3fc4236d73d118b4, 0x3fb015d13cea981a, 0x3fa30e97f0efb29c,
  0x40f09d805ebde0c4, 0x40d226331b55ba4d, 0x40d22625cb24d0b9, 0x40bbf24f24de7e5b, 0x40b5609fc499ef3e, 0x40a5bad047f06a9a,
  0x409a0db01774d304, 0x408a07f41f69b974, 0x406fca5359acde70, 0x4064b794fdbb4725, 0x40595252c0615553, 0x405366fa5a45094b,
  0x40304aa17faaca1b, 0x402d6e41a84a9d0c, 0x4024171bce7b6f61, 0x401d119625b6f74c, 0x3ffb4095a8cfbb5d, 0x3ff5d5e96c843d81,
  0x3febb0260769c6e8, 0x3fe584986f4e1e27, 0x3fbfd409af73e9de]⟩

/-- `sr` in `data/kl_slsqp_results.npz`. -/
noncomputable def slsqpN_sr : NEntry := ⟨chars! "sr", 30, 21, [
  0x3e9b333fbc2c98b2, 0x3e8afb70b36c91f2, 0x3f44d4c017c5ca36, 0x3d71982a026fbf23, 0x3d71979981000000, 0x3ef74582f1d0f45c,
  0x3d719799812dea11, 0x3f42faa8d5b4b29e, 0x3fb3db614c36c2d1, 0x3d7197a572414a11, 0x3d719799812dea11, 0x3fccc6c79fa0e6e0,
  0x3d719799812dea11, 0x3d71979b00e2e434, 0x3fe634b030bd4e1b, 0x3fcd00a744ea2e0b, 0x3fd8382d81303794, 0x3ffe75cff457bfd7,
  0x4001f39075cf1bac, 0x3ff82dc81c992ddd, 0x3d7197a218852a11, 0x3ff393b54fcf3e04, 0x3ffbddec9ddb50a0, 0x3ff36c3a4f46e618,
  0x3f581885e0633260, 0x3d71979d944f4a11, 0x3d719799812dea11, 0x400087d29ac7cf3a, 0x3fc782102da284ef, 0x3f70ec600531dba0,
  0x3f5f588c1528b036, 0x3d71979d2e2da9bd, 0x3d719799812dea11, 0x3fa54f1ad43c8be2, 0x3fa98243a7167c39, 0x3fcebf93812e7396,
  0x3fc8d7e75ce6ee9c, 0x3f9880351825efae, 0x3d719799812dea11, 0x3fe43ad7477fe497, 0x3fd723b1e4bcc07d, 0x3fe8182a41bcb8bf,
  0x4000eecb61abca61, 0x4002517b0b43e585, 0x4017d591a0a608fe, 0x4004eac559bd52ba, 0x40024c0b1ec79eca, 0x40023b5220a3c54e,
  0x3ffe9614d5721dc8, 0x40017769a4ebba72, 0x3fd75aff29975b01], [
  0x4161de913e4c3152, 0x4161de9139590800, 0x4102c4933b170d83, 0x4102c4933b13409c, 0x4102c4933aee8083, 0x4102c4933b0ab63f,
  0x40ec243236417480, 0x40ec23a29ca3ea93, 0x40c497aa1345e389, 0x40c2ff7d8cb5c317, 0x40b54aa97610f69d, 0x40abf0d93c97135f,
  0x40a0a3f55e690d7c, 0x4094ef547c869644, 0x4088deca3199198f, 0x40780d24d4e91ff6, 0x4060be25d4a74360, 0x40550c10163ede75,
  0x4051083274c91ff4, 0x404687259a0706ca, 0x401fcd5d88162694, 0x401545c9eb15f717, 0x4012a910eaac6db6, 0x4014cf07321b6968,
  0x3ffad258824e95bc, 0x3fe1f92d6c3fb23a, 0x3fad2942459a2443, 0x3fb8ab30d6c7fe7f, 0x3fa3ee14d30c8157, 0x3f98bbda1d4c82fa,
  0x40f09d805c3fe135, 0x40d226331b542121, 0x40d22625cb29a5a8, 0x40bbf25089ccb512, 0x40b560a1f9ea206e, 0x40a5bad5b06ab315,
  0x409a0dbf48a71590, 0x408a07f5a8481d21, 0x406fcb6b8668e408, 0x40649e0682c46f79, 0x405970d75ffd1561, 0x405323564b5ddea6,
  0x403207fbdd00c22a, 0x40300c67b89260d8, 0x402566f913f76122, 0x401c9b3c93a92e87, 0x3fff4292dc48403a, 0x3ff41d1e4174bca7,
  0x3ff2805e86c16900, 0x3fe709651e979b50, 0x3fb1f94459ac8169]⟩

theorem npz_sr_ok : (npzOk fpi_sr fpiN_sr && npzOk slsqp_sr slsqpN_sr) = true := by
  decide +kernel

/-- `y` in `data/kl_fpi_results.npz`. -/
noncomputable def fpiN_y : NEntry := ⟨chars! "y", 30, 22, [
  0x3e9066993200babc, 0x3ea94333a1424b9c, 0x3eeb4db26668d7f7, 0x3f15218f0abb95e8, 0x3f347163092102cc, 0x3f4b8e3f0ad91f2f,
  0x3f4ca3acb68d6c4c, 0x3f5be28f64176dd1, 0x3f65c2c8a7efa81e, 0x3f81803ce5b4132f, 0x3f9a5484c08199f0, 0x3fb003d6ed577b77,
  0x3fbf3576110a1503, 0x3fc8d2b414f39c39, 0x3fcff1c8df4e7ddb, 0x3fd39aea1a1e1d96, 0x3fe2d0053b0895f0, 0x3fef68446d04d228,
  0x3ff2d44387e31fdb, 0x3fe48049d4a9223c, 0x3ffac475047a4680, 0x40028de3aa5a3ede, 0x400105b25b35ac73, 0x3fe94d20f748e799,
  0x3ff83979f6e40ea5, 0x3ff7fa271f05d57d, 0x3ff110736ae9592b, 0x3fe89988654a728c, 0x3ff0ded07fefd78b, 0x3fc2d62ae474ed5b,
  0x3f65ec3c2346b803, 0x3f80d5e5715087c4, 0x3f90cf0f9b1e4c16, 0x3fa85c1185bea34d, 0x3fad0bc18fcd3c17, 0x3fbf664b5500179b,
  0x3fc9757ed5f7430c, 0x3fd1a5a65e79faf3, 0x3fd2dd9ca6bb1f3b, 0x3fdaf223e8c596ba, 0x3ff0877f3565ab12, 0x3ff74a1a05820387,
  0x3ff48bfe09b058a5, 0x3ffb1d868a6b2d13, 0x400a3d717e0b08d1, 0x400985fd440f5a23, 0x3ffd2ad0f35c7850, 0x3ffe3ecbb53fe2b4,
  0x4000f4dc146e76ff, 0x3ff598e1c86bc2f5, 0x3fdc6e8a352320b0, 0x3fe5636e04525cea], [
  0x4161c0e633dbfb63, 0x4102c4750a5d0770, 0x4102c4750a23efc2, 0x4102c4750a125b4c, 0x4102c4750a02a775, 0x4102c47509df50da,
  0x4102c46e0d321820, 0x40edda558d6f5c46, 0x40c5501d60361ae0, 0x40c349c13f1a3d21, 0x40b5d91cd0815eb7, 0x40ac5eb7d37c5586,
  0x40a0e552c901917c, 0x4095469536ba1ced, 0x408930b2e7ce1c07, 0x40761f9344f03fe5, 0x4060eb58e884db5e, 0x40558f4954a8cdc4,
  0x4051c5bc91966a37, 0x40305ff406f4e5a8, 0x4020fdaeb9ab6595, 0x401c51c92d6bd66f, 0x401a75591b3cb21a, 0x400a416ed29787d7,
  0x3fed095d5dd4f941, 0x3fe556ad5e3ca380, 0x3fe1bd4415bdf5dc, 0x3fc5c39be4af4287, 0x3fb20abc58310285, 0x3fa54522c31b4816,
  0x40f174ed84d4079e, 0x40f174ed84c72f15, 0x40d2f9b29c3f1b93, 0x40d2f991577d271b, 0x40bd64a31d9f7f8c, 0x40b596c4b5388fbf,
  0x40a608b32d2fbbf3, 0x409a4f56c6431c1d, 0x408a1b6d9e643513, 0x406ef3a1ac0e396e, 0x406530aa7e110de9, 0x40593c5e02817315,
  0x4054242702b8a17f, 0x4030ad7b84425ba7, 0x402e894f9a627be8, 0x4023fb07218a5ec7, 0x40201ddf0524e869, 0x3ffb2d24dd120231,
  0x3ff90f88174c3d47, 0x3febf09c339654ab, 0x3fd1cba6ac49beab, 0x3fc1b546e7d2fc55]⟩

/-- `y` in `data/kl_slsqp_results.npz`. -/
noncomputable def slsqpN_y : NEntry := ⟨chars! "y", 30, 22, [
  0x3ea655d5e7b1fee7, 0x3d719799812dea11, 0x3d7197b37c8b9085, 0x3d71984bca000000, 0x3d719799812dea11, 0x3d719799812dea11,
  0x3f4a2067556e28be, 0x3f30a48747e3ff62, 0x3fb540c5b827e8de, 0x3d719799812dea11, 0x3d7197a4c4bfb211, 0x3fc9c26f32479060,
  0x3fa76c15828bb3c9, 0x3d7197a5fc205bbd, 0x3fe71d56f2e9091d, 0x3fcbcae67a8544b9, 0x3fc7db1b973f70e1, 0x3ff4fa9abbfe166b,
  0x4011d782f15158f3, 0x3fc6491b2055a913, 0x3ffb7755dfea36c1, 0x40031d4c5f859d49, 0x40028fa8d9ea9ad1, 0x3f75aab37d075b15,
  0x3fe8f8456ed09b54, 0x3ff00b704529b459, 0x3fe264cdd77c87b6, 0x3fffceb22dad89c5, 0x3fc6667c284d45f0, 0x3f74e394b4f1009e,
  0x3f61dc51f972dc55, 0x3ee2d975509f1e2d, 0x3d719799812dea11, 0x3d71979db0b9dd85, 0x3fa761012ee8667f, 0x3fae642aae96608f,
  0x3fcd92f27ec36d6a, 0x3fc7b7310e459ef0, 0x3f7c8f73371cadb7, 0x3d71979ec847d935, 0x3fe71c90d62fe9c4, 0x3d7197a267706295,
  0x3fe5584e29137cd3, 0x3ffd0d02ae85ad61, 0x400659cf39d7fa76, 0x4012511700f744b3, 0x3ff958daae2615c5, 0x40055218c7194a5e,
  0x40045bb6b4ea0686, 0x3ffb1b2692c1875f, 0x3fd47f4a6ccabf41, 0x3fe7234fae40fd75], [
  0x4161c0e633dbfb63, 0x4102c4750a5cae9c, 0x4102c4750a1dac56, 0x4102c47509f732f2, 0x4102c47510dc1de0, 0x4102c47509ddfcf8,
  0x4102c46e0d5eaa7a, 0x40edda55337c3525, 0x40c55020c4e48655, 0x40c349c13dd7f356, 0x40b5d91ccf87f632, 0x40ac5e4cbcc1815e,
  0x40a0e54f3667c9ed, 0x40954643c1422809, 0x4089352983da482a, 0x40761e47faa57110, 0x4060e7ef401c955c, 0x4055a019f235fc20,
  0x4051a200a0e21987, 0x4030416706e7b8e0, 0x401fc060e21046f9, 0x401c9156e02e6fcd, 0x4017ae797a8ae623, 0x4011171cd6823b6e,
  0x3fe1205c3a3e954c, 0x3fe2d1695956fe0c, 0x3fe1e48a01d765ec, 0x3fc3bf20c80eb91b, 0x3fa6bb298abde274, 0x3f9c675785f2151e,
  0x40f174ed956026f2, 0x40f174ed6215aa2a, 0x40d2f9b29c408944, 0x40d2f9915783e88c, 0x40bd649d4ff09ae4, 0x40b596c0b7ab52d2,
  0x40a6091c944ddaa5, 0x409a4f7d3f4ab4b1, 0x408a1b735f574693, 0x406ef4ded56346e8, 0x4064f7566d6b2728, 0x40596d96aaf34606,
  0x4052d296a769d740, 0x403155c645353873, 0x40306a90bb9021ff, 0x402517512214c1cc, 0x401b9bf88fbdfb4a, 0x3fffe6a72423ff24,
  0x3ff5c89883c40308, 0x3fefcc61107d6fac, 0x3fb40df247564cf8, 0x3fbe890993f6333b]⟩

theorem npz_y_ok : (npzOk fpi_y fpiN_y && npzOk slsqp_y slsqpN_y) = true := by
  decide +kernel

/-- `zr` in `data/kl_fpi_results.npz`. -/
noncomputable def fpiN_zr : NEntry := ⟨chars! "zr", 30, 22, [
  0x3e87fb0e02bdc70c, 0x3eb3136dc1968677, 0x3ef430cfc9368e64, 0x3f1ecc86f20b70e0, 0x3f3d7dd29625ff09, 0x3f539630336a061e,
  0x3f43f83f811c6ed4, 0x3f5a852ca10facb6, 0x3f66baddb34d4612, 0x3f8262ea88b2e4ab, 0x3f9cdefea34e2336, 0x3fb0ed10f97cd027,
  0x3fc05d6a2f1028e4, 0x3fc96700da88a3b6, 0x3fd02a9b9138b1ac, 0x3fd3f4eaa52fee07, 0x3fe370ca1be95fa8, 0x3fefb91d3fd2a71b,
  0x3ff258b012ee09c1, 0x3fea7f72d91c782c, 0x3ffd61df0c680ba0, 0x400325eb4218223b, 0x40009cd4faf15e16, 0x3ff167d99274d6e1,
  0x3ff99e40e92db830, 0x3ff88afdc8e0c320, 0x3ff1f2934776ba97, 0x3feb1af999c3b57c, 0x3fee1cae3f4a398b, 0x3fc1a7be6e10ff00,
  0x3f661e0697786a96, 0x3f7de1da015d0547, 0x3f9129704e2aeee1, 0x3fa6d76f11bfadfb, 0x3fb0cf5c0a178f03, 0x3fbfa6d27fe0e989,
  0x3fcac34537947789, 0x3fd19ffb1e7bd678, 0x3fd2eb39b5b458a9, 0x3fdd91cc4defd565, 0x3ff0aee47ea867d4, 0x3ff757c785e25943,
  0x3ff2baba289230ac, 0x3fff02ae8776ea5f, 0x400acaf7e32592fd, 0x4009527292d8aafe, 0x3ff83dffa476d628, 0x4000042d5c0bb526,
  0x4000973be7eb772b, 0x3ff5241655b474e2, 0x3fe4bf607b373980, 0x3fe5213bf25f2509], [
  0x416629c7180a67e4, 0x41053a470c4f7051, 0x41053a470c46f48c, 0x41053a470c445456, 0x41053a470c41dfe5, 0x41053a470c3bc304,
  0x40f03df2747796cb, 0x40f03c7c04e9ac14, 0x40c64a3be28d153c, 0x40c27357ebd7d1ae, 0x40b689006beaf719, 0x40aca6eda93fd243,
  0x40a13802fb059bb0, 0x4095bdafcb185ac5, 0x40896eedffdf6e8d, 0x407484b7fd4e37ca, 0x40612836ba5edb08, 0x4056656ae2c682ef,
  0x4052a54aa8f6b64b, 0x402e350510319242, 0x4021e5e3abba277a, 0x401ecedaedf42539, 0x401c99ae5af9134a, 0x3ff89b391cb1a680,
  0x3fee829ad803a326, 0x3fe645d5134ea258, 0x3fdfd1ccec3a4e77, 0x3fc76e00237db5f2, 0x3fb347bfb2a74ab6, 0x3fa6d2411cac828a,
  0x40f3235930824c8d, 0x40f32359307d9210, 0x40d4d42c33880e28, 0x40d4d3dfa868a724, 0x40c01bc175f70917, 0x40b5d79b1674835b,
  0x40a68c5bddf269a2, 0x409ab31bbf75c8fb, 0x408abb0b81c65d28, 0x406fc3c4255412cf, 0x4065c7c5c3d85297, 0x405a1d84eb92d67a,
  0x405589ebc32d51fe, 0x403226d9c4551bac, 0x402f5fa35768e3f6, 0x4024b13df280093a, 0x40216ba332d3be32, 0x3ffd777f67119693,
  0x3ff98a0b28188eb8, 0x3fecb2ffc456d2d7, 0x3fd2fe221d9ba417, 0x3fc2ae4cecbfe8b6]⟩

/-- `zr` in `data/kl_slsqp_results.npz`. -/
noncomputable def slsqpN_zr : NEntry := ⟨chars! "zr", 30, 22, [
  0x3ea07cd34d13d008, 0x3d719799812dea11, 0x3d71984bc6659a71, 0x3d71979980000000, 0x3f471c62fca3cd61, 0x3d7199360611cd52,
  0x3d719799812dea11, 0x3f343e582a801e95, 0x3fb8bfd1533c0834, 0x3d7197a0cc4fd8aa, 0x3d719799812dea11, 0x3fc668995359a446,
  0x3d719799812dea11, 0x3d719799812dea11, 0x3fe701139548a3aa, 0x3fc8a27429de5b73, 0x3fda7a66c197e898, 0x3d719799812dea11,
  0x401768f14b81d47d, 0x3f91e0b5b673bb36, 0x3ffb7540ea575328, 0x4003b8f1780a83c2, 0x4001f6eaf2d28b59, 0x3f24d6aa40b08f73,
  0x3ff0b40412081b9a, 0x3ff680ee75b27016, 0x4000d94a15e45dfb, 0x3fee28cf21d67218, 0x3fa15f1b11234c59, 0x3f41e4cb926eb0e2,
  0x3f614715d7024e34, 0x3d719799812dea11, 0x3d71979a6e6e86bf, 0x3d71979ae5379d4a, 0x3fabdbdf5c55bce8, 0x3fb92e4a54b265b8,
  0x3fd15524b9457e8e, 0x3fc950fb525ddf2c, 0x3d719799812dea11, 0x3d71979a6189d9ed, 0x3fe83385dc4a2fde, 0x3d719799812dea11,
  0x3fd5b058b14dd077, 0x4007a16668b8cc1b, 0x4002c6364473c62b, 0x400ecd54be750dd6, 0x3ffbb0dc20b1f924, 0x400a4b1fa112307e,
  0x4001c7376b6f80b9, 0x3fff45b45c920aa1, 0x3fd9f4d0ac23055d, 0x3fba35a6d4793aaa], [
  0x416629c7180a67e4, 0x41053a470c1eebaa, 0x41053a470c1a2bea, 0x41053a470c163b21, 0x41053a470c2fe2d1, 0x41053a470c4b5b4f,
  0x40f03df274f6a86d, 0x40f03c7bef746bf8, 0x40c64a4525f283d9, 0x40c27357ed62f574, 0x40b689006ae63bdb, 0x40aca6a8fa8ff1d0,
  0x40a13805ed1914e8, 0x4095bdaa323b6f79, 0x40896f532cef175c, 0x407484f3888d12f2, 0x406123079a2d9add, 0x405654ff9f29da15,
  0x40527fb15018998a, 0x402e38bbf53ceb0f, 0x402227ccbf09bb85, 0x401e11fc056bb589, 0x401ab7f045281aba, 0x3ff2db6315a6c865,
  0x3fe217b7630bcd0d, 0x3fe258352fa8d405, 0x3fbf844281994eb4, 0x3fcd44c7b49eb585, 0x3fa355751f748e5c, 0x3f99100cfdbc6f5f,
  0x40f3235909f6deb7, 0x40f32358aff4a8da, 0x40d4d42c3388dfbd, 0x40d4d3dfa86fc12e, 0x40c01bbca211c4a8, 0x40b5d7983dd4dedc,
  0x40a68c4efdc0614c, 0x409ab2c84c664248, 0x408abb10c3c6f7bd, 0x406fc57efc491c29, 0x40658135bdde2a6b, 0x405a397f02b308c1,
  0x4054a42e6b1cddd5, 0x403307f148b4aa0d, 0x402f6765599aaa37, 0x40265b97e5f0f6fd, 0x40200bb2d388c69b, 0x4000da0a9dbc8d69,
  0x3ff71a2361f614a6, 0x3ff18d41bab1830d, 0x3fb7cd5bede779f1, 0x3fb01513b1500299]⟩

theorem npz_zr_ok : (npzOk fpi_zr fpiN_zr && npzOk slsqp_zr slsqpN_zr) = true := by
  decide +kernel

/-- `nb` in `data/kl_fpi_results.npz`. -/
noncomputable def fpiN_nb : NEntry := ⟨chars! "nb", 31, 23, [
  0x3ecd3dd13e374435, 0x3ed5f630a7192b29, 0x3eee059aac607109, 0x3f07b7ac004e58f2, 0x3f14d6e37fc1bce3, 0x3f271f1ea098bd4a,
  0x3f38a1d9bca19fae, 0x3f39b05390bc5e39, 0x3f50a6a5e59786cb, 0x3f64f0fe55c7cbc1, 0x3f825313f2550884, 0x3f9ded53bc06bb19,
  0x3fb17bbc823a1b5d, 0x3fc0f12e04030fc0, 0x3fc9d9ac358602c2, 0x3fd04aacf1772a12, 0x3fd4a2df267871ab, 0x3fe41b84ee808de7,
  0x3ff0071005c1b122, 0x3ff1c775e457fb0d, 0x3feea966aec90335, 0x3fff79d48e4e9adf, 0x40035b6acda7f40a, 0x3fff7a0db39b7a24,
  0x3ff338d92116d7b2, 0x3ffb749af08d61b4, 0x3ffad7b8b376384c, 0x3ff3edb9f8b93fd5, 0x3febefded8238ee5, 0x3fe844a5b7c1c507,
  0x3fb61f0520221ed6, 0x3f51d2b1472cdc53, 0x3f6a1f9746467d71, 0x3f7fed1d62d90084, 0x3f92bac6c7ab9caf, 0x3fa750b50a1dd0b6,
  0x3fb33585e8f151ed, 0x3fc027013fc76af7, 0x3fcc013349e73648, 0x3fd1a2a633fe1705, 0x3fd2dbda8d2b7d62, 0x3fe046b510149b26,
  0x3ff0c65de095612b, 0x3ff774d9c961f9ed, 0x3ff0a3d777775763, 0x4001b9cdfea706c0, 0x400b52ff5df78d1a, 0x4009196ae4bc0f0c,
  0x3ff1ee45efef6f94, 0x4002547fd169a6ec, 0x4001bed89739e8f3, 0x3ff85084a7822f59, 0x3fe9022b49c4556f, 0x3fe129eb3823e5ef], [
  0x4125e4b5d727206b, 0x4125e4b59a95ab58, 0x4125e4b51993e319, 0x4125e4b333191d53, 0x4125e2df67212bc0, 0x411051a1333460ac,
  0x41104826aabe9067, 0x40f14efdc6adc0b4, 0x40f14ef93f2f521d, 0x40c43cb993d38935, 0x40bf86c611ff493c, 0x40b6402302760884,
  0x40ac27de2a850d85, 0x40a15a66acccdf55, 0x4096125c60499783, 0x4089a803fb0481b5, 0x4072ac0a1f56fbc6, 0x406166148b15079c,
  0x40575a55f5027e42, 0x4053d5e557aa9b7e, 0x402df95c9b769280, 0x4022b3d2306995a1, 0x4020e7f15bc5aa98, 0x401fed5b52b9c426,
  0x3ff645d190fca617, 0x3fed5b79745f2d76, 0x3fe631138c10c3e0, 0x3fdf7a3ccbd715be, 0x3fcdca066ad80605, 0x3fb640afcf40a94b,
  0x3fa88c00570280bd, 0x41130698b6953303, 0x40f5138b88a7d27d, 0x40f5138b88a7313f, 0x40d64c514351e73b, 0x40d64c3626241648,
  0x40c10719a675bc21, 0x40b62b8f89c6aa2a, 0x40a6fe18bcfe0c54, 0x409b014ca8f35863, 0x408b2acd36d607f7, 0x40705d9ae7357fa1,
  0x406618f7158af666, 0x405ab90ecc782cbd, 0x40571c216fe4d9a5, 0x4033bb65e9ef9006, 0x402fe3194042ee89, 0x40256b9763da27d3,
  0x402348b213b26a40, 0x40002513183c05cf, 0x3ffab47f51cf4b23, 0x3fece886a42defef, 0x3fd7fce3d6386f40, 0x3fc79ab1153a11b5]⟩

/-- `nb` in `data/kl_slsqp_results.npz`. -/
noncomputable def slsqpN_nb : NEntry := ⟨chars! "nb", 31, 23, [
  0x3d71979a53dbec6b, 0x3d71979c73a5a5f8, 0x3d71979a21e361a0, 0x3d719799e826fd3b, 0x3f16d58c2179cc08, 0x3f22c024b7267a17,
  0x3d719799812dea11, 0x3d719799812dea11, 0x3d719799812dea11, 0x3fba8eeccdfde688, 0x3d7197c244eed1ef, 0x3fc1461fd9ccb39d,
  0x3d719799812dea11, 0x3d719799b26648f0, 0x3d719799812dea11, 0x3fe686b44de535a0, 0x3fca01e0531e7326, 0x3fe976411ace7cbd,
  0x3d71979e818ac01b, 0x4012dd49fd7a5940, 0x3fc338d6cc529249, 0x3ffeb92c92d45c07, 0x400490a121c8199e, 0x3ffdf220dac2cf84,
  0x3fdc4df76c97eced, 0x3ff851ff45c49829, 0x3ffe14b1593f0f57, 0x3ff7a4f54737d44f, 0x3fefd5321a11d6ec, 0x3fb46284fde085d2,
  0x3f650ec4387f9fb6, 0x3f3f8f1700a27c8c, 0x3d719799812dea11, 0x3f66e8b4ee549cab, 0x3d71979a9c2b3c1e, 0x3d71979c0341c17d,
  0x3d719799812dea11, 0x3fc73af9f67dcb3e, 0x3fd42ccd9f4038f1, 0x3fc9bc4210ff72e6, 0x3d719799812dea11, 0x3f9c2c8ef6a46126,
  0x3feafae22b858131, 0x3d71979a0986942f, 0x3fec3b0a69634c08, 0x400674119e39282b, 0x400d75d8a15ceb3e, 0x400793db9cd15600,
  0x3ff625fa75c6b89f, 0x400e90ee3e80f0c2, 0x3ffcd49d8abd538f, 0x4000a22cc50716bf, 0x3fd550b0f3a64871, 0x3fbf7bfe538c10e2], [
  0x4125e4b5d7272a2b, 0x4125e4b59a95ab9f, 0x4125e4b51993ecdc, 0x4125e4b333191d7c, 0x4125e2df672080b0, 0x411051a13332f3f2,
  0x41104826aabea5ad, 0x40f14efdc6ad9e5a, 0x40f14ef93f2f34d1, 0x40c43cb4e962c62a, 0x40bf86c612a03c44, 0x40b640142544e4b8,
  0x40ac27e5270dcffd, 0x40a15a66bea9778e, 0x40961252ef405ca6, 0x4089a66ec058b38c, 0x4072ad52c826c48f, 0x40615e041d586298,
  0x405773a907e29368, 0x4053c2920eeac343, 0x402dea4dd16226a3, 0x4022e685b13b2433, 0x40210f7b98303ffe, 0x401e2dfb9c6a3312,
  0x3fd3177ada8da3a7, 0x3fd08f96e2f98eab, 0x3fe17f23d5960b4a, 0x3fe3860ca22b8595, 0x3fbc125f2d1094c5, 0x3fa991611e9d94a3,
  0x3fa011d38772d480, 0x41130698b6ddc2ce, 0x40f5138bc8310cad, 0x40f5138b611d71b4, 0x40d64c51435ea8c7, 0x40d64c362658eef7,
  0x40c107199efbb9b3, 0x40b62bc01152ee38, 0x40a6fe0f5d2049a3, 0x409b0188fa57a6b5, 0x408b2ad14ee0c43d, 0x40705f22d449ac90,
  0x406602e5728ee05c, 0x405ac0990f4cc6e0, 0x4056fb6c6eaa3e6f, 0x403441d0dac38de8, 0x402fb4deb3e99f64, 0x4024cad096e70a6b,
  0x4022dfdc070e4964, 0x40017f0d5866ec2b, 0x3ff784dba8a6f0c0, 0x3ff2d56e54a68793, 0x3fc8e5cbaa25264f, 0x3fb5c6fbb310d054]⟩

theorem npz_nb_ok : (npzOk fpi_nb fpiN_nb && npzOk slsqp_nb slsqpN_nb) = true := by
  decide +kernel

/-- `mo` in `data/kl_fpi_results.npz`. -/
noncomputable def fpiN_mo : NEntry := ⟨chars! "mo", 30, 23, [
  0x3ecf7c2f1a462f70, 0x3ed783ef28e00ab6, 0x3eefe4bbf15f6c2a, 0x3f093bbee6ec1a73, 0x3f166d51111e2707, 0x3f28e1a246bc21c0,
  0x3f3a779c1038bbdd, 0x3f3bfc97b7c55ed7, 0x3f520845e488cc47, 0x3f66b486d6185039, 0x3f83d4b60ad186ff, 0x3f9fd8b0527be2d6,
  0x3fb25707fcaaa096, 0x3fc18e437b255a2c, 0x3fca4e4830347a02, 0x3fd04a43c24736e4, 0x3fd5d6c28623b1bf, 0x3fe4ffcb19f28aac,
  0x3ff0485e8242bf8e, 0x3ff1331d6d5dde0d, 0x3ff1b10a849dbf2c, 0x40014b3e1756a801, 0x4004474dae78a2ab, 0x3ffef1cedd995e5f,
  0x3ff46214caaf6a79, 0x3ffcabc44935a27e, 0x3ffc1979211ae5ec, 0x3ff5ea00cfa087c8, 0x3ff0fdf629afa0e2, 0x3fc92faead922734,
  0x3f5302aa7699aff9, 0x3f6bec39e7161027, 0x3f80eb860f44a740, 0x3f93d86f5e5b90ef, 0x3fa868351537d6e4, 0x3fb46bbcf7a38f98,
  0x3fc0adda4c28d5ed, 0x3fcce0e3519f31e4, 0x3fd1a430470fab14, 0x3fd26163e46c41e2, 0x3fe25084240f68d6, 0x3ff0ecea51268a3a,
  0x3ff7a00a0dff0709, 0x3fec007fa9745393, 0x400557b941e43b2c, 0x400d3b780434e4b9, 0x4009ed1b0ef1c0a5, 0x3fdd2207a4cb05ec,
  0x40046f832b79a280, 0x40034181aa90cbe3, 0x3ff93c987752cfff, 0x3feba2dd677f53e9, 0x3fe0e5459ec09b38], [
  0x4125f99541853062, 0x4125f994fb7149dd, 0x4125f99462f140f0, 0x4125f99227328a21, 0x4125f79a9f12f8b4, 0x41106070edc01c7e,
  0x411056710175949e, 0x40f16acd66f83835, 0x40f16ac7f6854ed6, 0x40c4855a67c6b8ca, 0x40bf92ab65cd2629, 0x40b6a322ba2549c0,
  0x40ac49fbc8861bff, 0x40a1a107b01d793a, 0x40966fe2d7b3033c, 0x408a25a56b57c631, 0x4070f93904cffe34, 0x4061b44f95b97586,
  0x40588f435c599b70, 0x4055337410f03284, 0x402d58360c8800ac, 0x40235ec2c30f014c, 0x4022125f5d4918ce, 0x402149abb0e4b517,
  0x3ff3d6bd5ee18d24, 0x3fed040b5b2c47ba, 0x3fe53ec9c46756a1, 0x3fdd3b4994aef48a, 0x3fc8f4683bac44ca, 0x3fada1cb3b504a19,
  0x4113194940080e2d, 0x40f534c1f41430f4, 0x40f534c1f41355a1, 0x40d689ea66d7bed3, 0x40d689cb78a51a3b, 0x40c13f65c9a87dbf,
  0x40b6475fcc34df26, 0x40a74022e7fdbf0a, 0x409b25c0e2a05828, 0x408b849f512b9e23, 0x4070fa69ace74a66, 0x4065d32bc907ca50,
  0x405b6087fe43b86f, 0x405890c3f89b1802, 0x403525fc5c860717, 0x402f40d2393a2b25, 0x402634f4a3f513b9, 0x400428b270b1dfe0,
  0x4000f52a398d679c, 0x3ffc08750b18247d, 0x3feceb281fb3deb4, 0x3fd5d118fc82622f, 0x3fc19aa1ec183fbc]⟩

/-- `mo` in `data/kl_slsqp_results.npz`. -/
noncomputable def slsqpN_mo : NEntry := ⟨chars! "mo", 30, 23, [
  0x3d719799abca57b7, 0x3d719799812dea11, 0x3d719799da59f3c7, 0x3d719799812dea11, 0x3f187e3c7c1c8dd4, 0x3f2561d01ff10530,
  0x3d71979c830b474b, 0x3d719799812dea11, 0x3d719799a38201a7, 0x3fbb56217b0ef5d8, 0x3d719799812dea11, 0x3fc2ecc7b5fbada8,
  0x3d719799812dea11, 0x3d7197af9b7a795c, 0x3d719799812dea11, 0x3fe5942920f2da99, 0x3fea417ac00f3ea4, 0x3fdcdb2ad8df9802,
  0x3fcf6a7ba547ded0, 0x3ff7ad453264e340, 0x3fd87821412bd8bd, 0x400020e09cfafba9, 0x4002e097acdcd47b, 0x3ffa5691094b0119,
  0x3fe8ccecfb821374, 0x3ffcafb0b794680b, 0x3fdd070898041b28, 0x3ff586b03996f5f7, 0x3fc0f04ca6d4c589, 0x3f326ccfb9aad03f,
  0x3f40f9178929373d, 0x3f36fe1a582970c2, 0x3f661e7ec5d376dc, 0x3d719799812dea11, 0x3d71979db508cba0, 0x3d719799812dea11,
  0x3fc8373f993e53c3, 0x3fd50ecebffb6ada, 0x3fcae6153bd53f78, 0x3f7e8ec26cd1854a, 0x3fd107b3f8029600, 0x3ffd3a5f06098704,
  0x3fc9cbec32011ef6, 0x4000d63bfac708aa, 0x400c49c16d4504a0, 0x40070341efeb5e0d, 0x40129a783fa830f5, 0x3ff1b2e0030200c5,
  0x400b6f047cdb0d1f, 0x4011cba4b6ba44b1, 0x3ffc546e2dd13384, 0x3fcaeb7c8d2c6cf0, 0x3f6cd80a9c641eb7], [
  0x4125f99541853030, 0x4125f994fb714bc3, 0x4125f99462f140e4, 0x4125f99227328a21, 0x4125f79a9f14d86b, 0x41106070edc06a0c,
  0x411056710176316c, 0x40f16acd66f801fb, 0x40f16ac7f6857b0b, 0x40c4855e12f0a0fc, 0x40bf92ab65c5d0b3, 0x40b6a32ca5197b8a,
  0x40ac49fbbed31083, 0x40a1a107a6694bbc, 0x40966fe2782408e6, 0x408a25a853711733, 0x4070fae00408a4c9, 0x4061ad9365c8a738,
  0x40588d2669cf55cf, 0x40551c4b31d16289, 0x402d67fa47f5a3e7, 0x40235d4f8e4d897d, 0x40230163a77d3458, 0x40230de89bbedb69,
  0x3fc181a664137aec, 0x3fdb7ff629746328, 0x3fb6eb0b98a4705f, 0x3fd1669ca03c36b0, 0x3fae204e154a10e0, 0x3f9b4d00ed6c1360,
  0x411319494054b1ef, 0x40f534c1eeb447a0, 0x40f534c20669781f, 0x40d689ea66f26fea, 0x40d689cb7905eb0c, 0x40c13f65c69a14b0,
  0x40b647562ba8d7f3, 0x40a74028734471bd, 0x409b25ac54e721ce, 0x408b8499de8f53d5, 0x4070fbd458ea3c1d, 0x4065d57d4da867b0,
  0x405b5108ec9ff08e, 0x405864f77b64fc4c, 0x4034bdbdce70deff, 0x4030a9d9dd7466c2, 0x40257ddfb30ed72e, 0x400307cfa9579f5f,
  0x400307bf8e184cea, 0x3ff6e0daf099e320, 0x3feba3648edb9793, 0x3fcd41ae800d4624, 0x3fa6809d3a0b441d]⟩

theorem npz_mo_ok : (npzOk fpi_mo fpiN_mo && npzOk slsqp_mo slsqpN_mo) = true := by
  decide +kernel

/-- Part 3 of the results, with the texts. -/
noncomputable def npz3 : List ((JEntry × JEntry) × NEntry × NEntry) := [
  ((fpi_cu, slsqp_cu), fpiN_cu, slsqpN_cu),
  ((fpi_zn, slsqp_zn), fpiN_zn, slsqpN_zn),
  ((fpi_ga, slsqp_ga), fpiN_ga, slsqpN_ga),
  ((fpi_ge, slsqp_ge), fpiN_ge, slsqpN_ge),
  ((fpi_as, slsqp_as), fpiN_as, slsqpN_as),
  ((fpi_se, slsqp_se), fpiN_se, slsqpN_se),
  ((fpi_br, slsqp_br), fpiN_br, slsqpN_br),
  ((fpi_kr, slsqp_kr), fpiN_kr, slsqpN_kr),
  ((fpi_rb, slsqp_rb), fpiN_rb, slsqpN_rb),
  ((fpi_sr, slsqp_sr), fpiN_sr, slsqpN_sr),
  ((fpi_y, slsqp_y), fpiN_y, slsqpN_y),
  ((fpi_zr, slsqp_zr), fpiN_zr, slsqpN_zr),
  ((fpi_nb, slsqp_nb), fpiN_nb, slsqpN_nb),
  ((fpi_mo, slsqp_mo), fpiN_mo, slsqpN_mo)]

theorem npz3_ok : ∀ p ∈ npz3, (npzOk p.1.1 p.2.1 && npzOk p.1.2 p.2.2) = true := by
  intro p hp
  unfold npz3 at hp
  simp only [List.mem_cons, List.not_mem_nil, or_false] at hp
  rcases hp with rfl | rfl | rfl | rfl | rfl | rfl | rfl | rfl | rfl | rfl | rfl | rfl | rfl | rfl
  · exact npz_cu_ok
  · exact npz_zn_ok
  · exact npz_ga_ok
  · exact npz_ge_ok
  · exact npz_as_ok
  · exact npz_se_ok
  · exact npz_br_ok
  · exact npz_kr_ok
  · exact npz_rb_ok
  · exact npz_sr_ok
  · exact npz_y_ok
  · exact npz_zr_ok
  · exact npz_nb_ok
  · exact npz_mo_ok

end BFit.Data
