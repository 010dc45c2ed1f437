import Verif.Data.Fits1
import Verif.Lemmas.NpzScan

/-! Copy of /repo/bfit/data/kl_fpi_results.npz and kl_slsqp_results.npz, generated by tools/gendata.py. -/

namespace BFit.Data

/-- `h` in `data/kl_fpi_results.npz`. -/
noncomputable def fpiN_h : NEntry := ⟨chars! "h", 20, 0, [
  0x3e44f33df415b336, 0x3e5cd77e16c248a9, 0x3e808d2cf6b5182b, 0x3e9fd1acb1988471, 0x3eb9b4ccd669f4f1, 0x3ed90132333c028d,
  0x3ef8816f335411c0, 0x3f14e110aef92af2, 0x3f33cac2e94529f6, 0x3f50c178ce01c91f, 0x3f6c674a7420bf87, 0x3f8582facabfeed1,
  0x3f9d58d57c2a5e27, 0x3fb0c347cf7b8e1d, 0x3fc01bfa6b5e38cc, 0x3fc7d942a2479f1f, 0x3fcc36602a9f0b4f, 0x3fc8e61156209781,
  0x3fc2ac77ad41d351, 0x3f91e20d3bf1977a], [
  0x40d03a30d3d8ff9a, 0x40ad60ded840892a, 0x409f163735820c4c, 0x4094adc79b229bf9, 0x4085e0ead31d9aed, 0x40722815c4fdfb08,
  0x4066107156f3fc5e, 0x4056a09f3e2ad25a, 0x40465320f19b2ba9, 0x4038f2f3ffb4589e, 0x4029b8606a4511be, 0x401bb750a407ee6a,
  0x400febac4ca8cfa2, 0x4001e208076732f6, 0x3ff60e08d5977e70, 0x3feb7e22ad611df9, 0x3fe1cd6710ca10c8, 0x3fd893590e986e94,
  0x3fce431ae9dbd3bd, 0x3fc0b854cb4f6e3a]⟩

/-- `h` in `data/kl_slsqp_results.npz`. -/
noncomputable def slsqpN_h : NEntry := ⟨chars! "h", 20, 0, [
  0x3e402ad01003fd29, 0x3e74667e77451aa0, 0x3d719799812dea11, 0x3ea30daf3c4aa1b0, 0x3eb17b5b8c00f361, 0x3eea010a7f094e59,
  0x3ed7ba271f95427f, 0x3f1d37b89adabbc8, 0x3f3084e138c560cf, 0x3f514001373b2628, 0x3f6cde86c8523d50, 0x3f85ebe9705449a3,
  0x3f9b336e5390351d, 0x3fb2fa27b1643609, 0x3fbc79ba0e2ef552, 0x3fcbf8081954e748, 0x3fd3b974a4011999, 0x3fc935194fe6b98d,
  0x3fa7cbe2b274e7db, 0x3f62d692e5ac17e8], [
  0x40d03a30d3d8ff8c, 0x40ad60ded840858c, 0x409f16373582016a, 0x4094adc79b227ffc, 0x4085e0ead31b2a35, 0x40722815c50f033c,
  0x4066107155c8aba9, 0x4056a09f388d2111, 0x40465320aaae8cb9, 0x4038f2f3dee5aa3c, 0x4029b82c354dbbe1, 0x401bb7b9d8539cff,
  0x400fe2649ed121ff, 0x4001f31161bb3adf, 0x3ff59ce38bbdee39, 0x3feb8f50f4b735ee, 0x3fdf948e3ff91187, 0x3fd219876ea11c7d,
  0x3fc56162edaede0d, 0x3fb96191b5b5910b]⟩

theorem npz_h_ok : (npzOk fpi_h fpiN_h && npzOk slsqp_h slsqpN_h) = true := by
  decide +kernel

/-- `he` in `data/kl_fpi_results.npz`. -/
noncomputable def fpiN_he : NEntry := ⟨chars! "he", 21, 0, [
  0x3e47b3db94d2c5f9, 0x3e66f9311e906eb4, 0x3e88a7a444b1efbc, 0x3ea52b8505c58dcd, 0x3ec18b79c26f7696, 0x3ee4807c1d9c236c,
  0x3f02b272281b8fbe, 0x3f1e6285a1893667, 0x3f3f365d5f5e40eb, 0x3f56e086e993a8ab, 0x3f753bfc89cd8b38, 0x3f8f8470bb86cecd,
  0x3fa50a84e1b9daee, 0x3fb8cbd53f3ae66a, 0x3fc7ff6861ef60ee, 0x3fd364ec9840be4c, 0x3fd8b79251ad16be, 0x3fd976ba3318e20a,
  0x3fd4a2274abe88be, 0x3fcc19f192233667, 0x3f97739f4c8da9e6], [
  0x40f007adcb46b1d9, 0x40cccccdd51647f2, 0x40c20c8e69256ad5, 0x40b771766f4a041e, 0x40a1235cde99b0b1, 0x409151177109c046,
  0x4088ac1ab50da0ba, 0x4071f6a3ef5f9062, 0x4066832a56259bdb, 0x4059db8ceb47d71a, 0x4046fedb40040bd7, 0x403cfe970c60392e,
  0x402da23aa0058238, 0x40219c8d99dbe66a, 0x4014863cf77ea3f1, 0x4008c0e91a809041, 0x3fff83a8381a0224, 0x3ff39a95caa16e96,
  0x3feb05344a071844, 0x3fdfd1cef12ae19f, 0x3fd0e9724517f1e9]⟩

/-- `he` in `data/kl_slsqp_results.npz`. -/
noncomputable def slsqpN_he : NEntry := ⟨chars! "he", 21, 0, [
  0x3e469b59097e8c88, 0x3e7de7ce9df7ea8f, 0x3d719799812dea11, 0x3ea2fb925201d5cc, 0x3ed4a1fa419d67b7, 0x3d71979984067d08,
  0x3f02dbc3f921ee98, 0x3f3233fd0696ac28, 0x3d719799812dea11, 0x3f60344c060c1e30, 0x3f75d392943c0fe9, 0x3f8b0a4c51e2555b,
  0x3fa8cf6a3774cfb2, 0x3fb4bc91fae2fb78, 0x3fcb74939f1bb541, 0x3fd15b81dbb92c92, 0x3fdba059953904e5, 0x3fe1442bb43a8052,
  0x3fd438f83ea2aa31, 0x3fb2b4fa2f8a6d4c, 0x3f6e7eccde3ac755], [
  0x40f007adcb46b1d9, 0x40cccccdd516479c, 0x40c20c8e69256a4c, 0x40b771766f49e72f, 0x40a1235cde9abfc3, 0x409151177108bc7d,
  0x4088ac1ab45b79ee, 0x4071f6a3fbe0d512, 0x4066832a52b64434, 0x4059db8a26b54f61, 0x4046fee14508e211, 0x403cfe5a7ae55248,
  0x402da396f13709f8, 0x402197f30bd59627, 0x401498043f68461d, 0x40086d9c67b1b1da, 0x3fff8681c89e2062, 0x3ff1d85627e9dae6,
  0x3fe3db1d68dd53ed, 0x3fd6b71064455424, 0x3fca1f892470b52d]⟩

theorem npz_he_ok : (npzOk fpi_he fpiN_he && npzOk slsqp_he slsqpN_he) = true := by
  decide +kernel

/-- `li` in `data/kl_fpi_results.npz`. -/
noncomputable def fpiN_li : NEntry := ⟨chars! "li", 25, 0, [
  0x3e45a209cd6ed227, 0x3e52c8a5c8a20773, 0x3e7c009a327d9598, 0x3e9bc39a3b459786, 0x3eb3379541e8d0e3, 0x3ecf5bf0324af817,
  0x3ef1d0d15a26155f, 0x3f0c3caab030d59e, 0x3f2baeea50a925f4, 0x3f4b034eb018770f, 0x3f607eab56f834c5, 0x3f7ed58bb3909ecc,
  0x3f968576abfd9b2a, 0x3faba65762ec9f68, 0x3fbfda2fa0443f91, 0x3fcb541629e264b4, 0x3fd6215cd3d6a1ad, 0x3fd8c6b5a232127e,
  0x3fd94ad72022925f, 0x3fd218f2f8aa6cc8, 0x3fb8188449207b02, 0x3fccb28727f21bdb, 0x3fd8cfc6e4bd071f, 0x3fd47ab1a1e47889,
  0x3fc1bc03ef772291], [
  0x4108f060bb76fc43, 0x40de776a8e7f099a, 0x40d211c153fbdeac, 0x40ce20d785351c6f, 0x40c6286eacf02231, 0x40a6b2c86b796455,
  0x40a00ab91acf52d1, 0x409878b2f91ec569, 0x407abea62abe904a, 0x4077537917db24e4, 0x406726ec19001ec3, 0x40567d7ca2b74adc,
  0x404cd2944ff53a24, 0x403e2a0ad794b9cb, 0x403186ba74a2ce68, 0x40271f5237f75ab6, 0x40172226af07ac76, 0x401574cf005f4687,
  0x400267cd337aba14, 0x400267caefe377a8, 0x400267ca917f5544, 0x3fbedd0e7eddc02e, 0x3fbedd0e7c69443c, 0x3fb4868f5aa81eb6,
  0x3fa8cec00f39bc66]⟩

/-- `li` in `data/kl_slsqp_results.npz`. -/
noncomputable def slsqpN_li : NEntry := ⟨chars! "li", 25, 0, [
  0x3e49ebc1e086bee1, 0x3d7197999c420388, 0x3d719799812dea11, 0x3e98ee310e61c95a, 0x3ebbc327d30729b8, 0x3d719799812dea11,
  0x3d719799c6767085, 0x3f185b383a1bc834, 0x3f4355aafb8780a4, 0x3d71979ae316fc53, 0x3f6c552e48aa20e4, 0x3f738b8cddf15d4f,
  0x3f97524a61e2f1c1, 0x3fb0ceb01dad70ba, 0x3d719799812dea11, 0x3fd2f11e1b6385d2, 0x3fd151acaef9d5ae, 0x3fdf4d0801b3f4dd,
  0x3fdc812bd9877899, 0x3fd4b4de84195938, 0x3f80739ca716d31b, 0x3fd39f759086d59b, 0x3fde14f42822bc7b, 0x3fd2502af896643e,
  0x3f7dc62a8f6ca808], [
  0x4108f060bb76fc35, 0x40de776a8e7f0c7e, 0x40d211c153fbdebd, 0x40ce20d78534566f, 0x40c6286eacf07b34, 0x40a6b2c86b78275a,
  0x40a00ab91aceaa32, 0x409878b2b52d9339, 0x407abeac5f21c2c8, 0x40775379175305f0, 0x4067269ce88ae277, 0x40567da51b243efa,
  0x404cc9a80246224d, 0x403e58e56829b5a3, 0x4030a7d889c76430, 0x402bd000b776d52a, 0x4016a0331b2c6430, 0x4016a1d1ccc67127,
  0x400269bbb2374b30, 0x400269c6d7a2d6a8, 0x400269ed7e171879, 0x3fbd5462964b382b, 0x3fbd545af59876f4, 0x3fadd38c43a96a8c,
  0x3f9fb7ec440c90a9]⟩

theorem npz_li_ok : (npzOk fpi_li fpiN_li && npzOk slsqp_li slsqpN_li) = true := by
  decide +kernel

/-- `be` in `data/kl_fpi_results.npz`. -/
noncomputable def fpiN_be : NEntry := ⟨chars! "be", 25, 0, [
  0x3e54b5a2eb139ad3, 0x3e7bdc8ad40abf26, 0x3e96fc43e2020124, 0x3ea8d17262d542c3, 0x3ece57f8ef6aad1a, 0x3eee21283d53283e,
  0x3f038b73d84e3905, 0x3f3087afa02720d6, 0x3f501b99ba1d1968, 0x3f5b1f999aacaa1e, 0x3f7e4f2b922a48dd, 0x3f943c899fbb155f,
  0x3fad0ee879c27a5e, 0x3fc00d427105811a, 0x3fd0d34785a0bcb8, 0x3fd98d40e0c56ce9, 0x3fd8223d88f79393, 0x3fd85bca83578ba8,
  0x3fcebac11f78e082, 0x3fbd57c78cc0aaba, 0x3fd820a40ffe6c2e, 0x3fe2058afc1f1fbc, 0x3fd792c08b879c3f, 0x3fe5504111a954f0,
  0x3fa3ca96e019889e], [
  0x41017e2ea13696d8, 0x40e73af8ac3f49a4, 0x40e331005df41bfc, 0x40d210b88552b60c, 0x40b6a47a6637effb, 0x40b2a945c1c0bee0,
  0x40a9928977d249c1, 0x40872a47ab34d1f5, 0x4086712905a6cafe, 0x40730402cc0ed61f, 0x40640cd26aa0b06b, 0x405e3b0b0a81e34a,
  0x4047d53c7373287c, 0x4043ae3b6fadae89, 0x402e30d88738334b, 0x402db1cb48f78e23, 0x40166bcf92a2b63c, 0x40166bcf890554ec,
  0x40166bcf88e2d4b3, 0x3fd0e8325fd05a63, 0x3fd0e8325fcfd555, 0x3fd0e8325fcebf94, 0x3fd0ca78c267c671, 0x3fbffaf10c28ad8e,
  0x3fb0c1ee274fec53]⟩

/-- `be` in `data/kl_slsqp_results.npz`. -/
noncomputable def slsqpN_be : NEntry := ⟨chars! "be", 25, 0, [
  0x3e55be3fdaceb6cb, 0x3d719799812dea11, 0x3e99b2291aca630d, 0x3eb81058ba066bab, 0x3d71979a1fe01dca, 0x3d719799812dea11,
  0x3f134079f1e1c778, 0x3d7197a2bf2b4562, 0x3f50c67c81767250, 0x3f67f830408d8e68, 0x3f6b58dc092ebe17, 0x3f979e20c53fc938,
  0x3fac9a007765d035, 0x3fc00dfc7a2bc0da, 0x3fd000e5b94de62c, 0x3fda5f114b9980e5, 0x3fd825633298865c, 0x3fd8606b9659588f,
  0x3fcebd268f197f24, 0x3fbd1f64f43625f1, 0x3fd813ae65cc6f32, 0x3fe1fea96c5fd109, 0x3fd784c1ee815402, 0x3fe55dc5c0aea4f7,
  0x3fa4ae291f0c16f2], [
  0x41017e2ea13696d1, 0x40e73af8ac3f49fe, 0x40e331005df41a1a, 0x40d210b88552773f, 0x40b6a47a6637f598, 0x40b2a945c1c0bee3,
  0x40a992897669214d, 0x40872a47a71972c5, 0x4086712905618a7d, 0x4073040477b08db9, 0x40640ccf4e7beb9b, 0x405e3b4bc44459da,
  0x4047d0e9e6d17e6d, 0x4043bb51d3da129b, 0x402ddbc77db3e434, 0x402df4cafa6c9042, 0x40166ce42930966c, 0x40166ed4f05bc2a8,
  0x40166c2081965e28, 0x3fd0e44f3dd94e4a, 0x3fd0e45470b8ef64, 0x3fd0e4526e74ac0a, 0x3fd0e44ed637d344, 0x3fc00aae20686fb3,
  0x3fb0e52dc2fa6e4e]⟩

theorem npz_be_ok : (npzOk fpi_be fpiN_be && npzOk slsqp_be slsqpN_be) = true := by
  decide +kernel

/-- `b` in `data/kl_fpi_results.npz`. -/
noncomputable def fpiN_b : NEntry := ⟨chars! "b", 25, 15, [
  0x3e9ee2f1f6d19cf8, 0x3ea8713fc3de0822, 0x3e9f7575a0255f71, 0x3ed1568b4a1834f1, 0x3ef32974151070f6, 0x3f0a2862124d813f,
  0x3f0010837b8fd0e6, 0x3f30979c68dadf7e, 0x3f507c02f6701b16, 0x3f6637ed0fbd0ff2, 0x3f74344684a7127e, 0x3f85f64384b01171,
  0x3f996cd609bb778c, 0x3fab596ddb8c41cd, 0x3fb9d185266898db, 0x3fc42405f6eca766, 0x3fc97351d89d9d0f, 0x3fc95a04e4502675,
  0x3fc2fc44d2fe50ec, 0x3fb9c2d8218510ee, 0x3fcb7cf749a0611b, 0x3fd4e6e7f4fc29c0, 0x3fd77d99165070d9, 0x3fd301433111a157,
  0x3fc97a7078337b22, 0x3f77b4f06aa47667, 0x3f9615e8b5614b70, 0x3fa7598d163062fb, 0x3fb7b4a35be124dc, 0x3fc47d8eab9ad41b,
  0x3fcb6b6dba24c6f9, 0x3fccf6affe7d9479, 0x3fc6bccee5a423af, 0x3fb17d557205c7a8, 0x3fca5fca731977e7, 0x3fd809e12ec911b6,
  0x3fdc696a2a7d8f6d, 0x3fd7d41cd096cb1b, 0x3fc690d3d9e75f8c, 0x3f7de079c3db01ba], [
  0x40e7990b43c8f45a, 0x40e77de0c7ef9757, 0x40b5ce54859868aa, 0x40b5a932164a30ab, 0x40b5a0fd7ccea245, 0x40b59844223c900b,
  0x4089ae80cf68ed2a, 0x4088b3ed16c75e00, 0x408889c721a2bc39, 0x40885cc7186334ce, 0x4086282dfb41e556, 0x406e736f5350e51a,
  0x40600463d56b6275, 0x40518177dcfb0a18, 0x40440927064d54c6, 0x4037c1c575867fac, 0x402dbd9f92d45937, 0x40236b144d8c4c8c,
  0x401ba8a8b9e3318e, 0x3ff39fd9e265447d, 0x3fe5176ea911fc46, 0x3fdbed12f0f8b299, 0x3fd3edd8bf27ae6b, 0x3fcf9878480c1178,
  0x3fbfec7b49e38e42, 0x408140c2e8f5bf46, 0x4074241e8d1c21b7, 0x406439658993b764, 0x405694721fc2cfb9, 0x4049666ee316c98e,
  0x403d3a92be9574f8, 0x4031bddb0d99f582, 0x4024b54840d9bee7, 0x401bd1b611a36cfa, 0x3ff6e11ceac92bae, 0x3fedef3a8830cc9a,
  0x3fe3aad5267cc338, 0x3fd7b9096b1a2227, 0x3fcbe14e36475b93, 0x3fb5649b09f98702]⟩

/-- `b` in `data/kl_slsqp_results.npz`. -/
noncomputable def slsqpN_b : NEntry := ⟨chars! "b", 25, 15, [
  0x3eaf13a36bbf2e6f, 0x3d7197998166f171, 0x3d71979981ad168e, 0x3d71979982eda5c4, 0x3d719799812dea11, 0x3f146fc96a61e78b,
  0x3f775c8c57d340f9, 0x3d719799b0ca7755, 0x3d719799fb3e99f9, 0x3d719799812dea11, 0x3d7197a3d757863f, 0x3d719799d08eb1cb,
  0x3fb64e7153e7a0d5, 0x3fa148de68e08875, 0x3fbc27a2ff1d30c6, 0x3fc7f15b5d802137, 0x3fc111a979138577, 0x3fda5ada5119a684,
  0x3fb740321a6d8ab6, 0x3f96e344355bad97, 0x3fce1d9359be8d47, 0x3fd6ec1a92a71ac8, 0x3fd82ee6cfc835db, 0x3fd42f2f4bb3b125,
  0x3fb072b9217295d3, 0x3f784e61a3ddffee, 0x3f816af1b017b4a3, 0x3f9007d67529235d, 0x3fb79231f5e97a32, 0x3fc297612e37c336,
  0x3fc8aa890de87649, 0x3fc91f1946831d2c, 0x3fb9f9e517da6af2, 0x3fbc445eeb652086, 0x3fcef0bde0c81557, 0x3fdf37f32c6b7222,
  0x3fe0220f06bfc491, 0x3fd4ac42361abbcb, 0x3fc2188fea9da88d, 0x3f478102f173fb1b], [
  0x40e7990b43c906b2, 0x40e77de0c7ef9784, 0x40b5ce54859850d0, 0x40b5a932164a2c4e, 0x40b5a0fd7cc9cd80, 0x40b59844214e65b8,
  0x4089ae810dff40ec, 0x4088b3ed16f5e0e7, 0x408889c72170984d, 0x40885cc71e34cadb, 0x4086282df7699176, 0x406e736e78c84c63,
  0x406004642033f68e, 0x4051818596de1031, 0x40440898f9ad5c91, 0x4037c4c7afb76144, 0x402db2cc0c73e11d, 0x40237636c9e20d13,
  0x401ba4a73c96751c, 0x3ff3779a75c73d90, 0x3fe48170bc9aa053, 0x3fde3dbdcc1c95c5, 0x3fd51194366c7f73, 0x3fcd7adbbaccaed4,
  0x3fb7eece20188ad1, 0x408140c3225653cc, 0x4074241cdb351a46, 0x4064396acd865a90, 0x4056949984392c38, 0x404963fa2311699b,
  0x403d4792d6f408e2, 0x4031a58b60fe8da0, 0x4024e356a6c83684, 0x401b8c68f4a4e68a, 0x3ff834826a144673, 0x3fec181a3ff587a8,
  0x3fdffa1854f4493e, 0x3fd2af0251022925, 0x3fc6bbfcc831eddb, 0x3fafb88fa070cafc]⟩

theorem npz_b_ok : (npzOk fpi_b fpiN_b && npzOk slsqp_b slsqpN_b) = true := by
  decide +kernel

/-- `c` in `data/kl_fpi_results.npz`. -/
noncomputable def fpiN_c : NEntry := ⟨chars! "c", 23, 15, [
  0x3eb23ae6165bbe30, 0x3e9ad2cbdd56523f, 0x3ed138e83310a092, 0x3ef2d2d503cf5943, 0x3f09985dd24e212c, 0x3f134fd0c6c17424,
  0x3f4062d6f48f8ea2, 0x3f5ea399d1e592e7, 0x3f7388fb5e931f70, 0x3f81d95849bac8df, 0x3f92418cb06fba45, 0x3fa44814d7894379,
  0x3fb44aecdfcfb757, 0x3fc13ad954aad685, 0x3fc83365bd4dcfb2, 0x3fcab3ac52ddae79, 0x3fc75fcb94dedad9, 0x3fb96d51a0bcb8ec,
  0x3fcceb8df06d18ff, 0x3fd827d9c1d74153, 0x3fdda76eac2ff4e1, 0x3fdbd2a72f622b61, 0x3fd3e9c0f8d3d777, 0x3f8ded98ef17ee00,
  0x3f9eed0bb07d293e, 0x3fb26da40ac405b5, 0x3fc0c987f147016d, 0x3fc91a6e54231b7e, 0x3fce74aa05d266e9, 0x3fca9cace41b1b10,
  0x3fc0cd4d486bb6f9, 0x3fc86b3455b06bfa, 0x3fda1f7b6c40cb09, 0x3fe1eed7d455a51b, 0x3fe0361b889aa4e4, 0x3fd6d8a7b7f2f802,
  0x3fc4e5fb37369ca5, 0x3f8ad88a7811c12d], [
  0x40f1f34497408fb7, 0x40c05e16ebe99316, 0x40c022ce9cd882a3, 0x40c01c8d131192b6, 0x40c0163b0f58eb8d, 0x4090ed93c05f3fd1,
  0x4090a58250253c1e, 0x409082635c8457d9, 0x409032c199d38f6d, 0x4080b8388d3c3315, 0x407094ed64de06f0, 0x4060885e52a8d4e1,
  0x40529e123a8ca3e6, 0x404592956893fb46, 0x403a63b71c5b0bcf, 0x403116481c62bf97, 0x4026329a918b446d, 0x400ade11843d035a,
  0x3ff3b7c899beadf4, 0x3fe9b7171bddc887, 0x3fe183b6d771fe0d, 0x3fd7ee1f1fdaad2d, 0x3fd250ddffd16270, 0x4081d3f12135ff95,
  0x407385a1d6f254ef, 0x40653e2d0faa4531, 0x4057b1708ccdb9ea, 0x404b0f1206ced72e, 0x404005fc5edf5825, 0x403307a920f9da5e,
  0x40279f8eb976e040, 0x4003a3d880627ebf, 0x3ffbddf551e9e4d4, 0x3ff164b8ef25463b, 0x3fe6f3c9afbab0f5, 0x3fdb459a419cf6f4,
  0x3fcd42ccb102982f, 0x3fc01299b0025d14]⟩

/-- `c` in `data/kl_slsqp_results.npz`. -/
noncomputable def slsqpN_c : NEntry := ⟨chars! "c", 23, 15, [
  0x3ea3ec70553e1f2e, 0x3d71979986eb8bb6, 0x3d719799812dea11, 0x3d719799812dea11, 0x3f15c731d92636e4, 0x3f761e6d6ee25135,
  0x3d719799812dea11, 0x3d71979a4a92bed3, 0x3d719799812dea11, 0x3f9b3cabff3b89db, 0x3d7197998d9570f6, 0x3d71979fea147412,
  0x3f971c85afb75863, 0x3fc1095bd9aa7a6f, 0x3fc3a457b3a3a27a, 0x3fd64d639e919b2b, 0x3fa1dae79d8255b6, 0x3fb2e65ade835409,
  0x3fccb30799073995, 0x3fd978d49a4e3ed3, 0x3fdf26fc9983df35, 0x3fdc6420eec9131e, 0x3fd9cb9baec3b160, 0x3f908ab4e9a30620,
  0x3fae280f42a631ea, 0x3fbb8339ac1ee738, 0x3fc4d48399fee7c7, 0x3fca04a848c22323, 0x3fcd2733de2dc881, 0x3fca6b0100811314,
  0x3fc8b6b46e73567f, 0x3fcd6c2e3c6ffca9, 0x3fd7dbb922e74292, 0x3fe34109e164a32e, 0x3fe1074163a51d6b, 0x3fd42cc1b722f965,
  0x3f92551c63f7dbb8, 0x3f44bf08e6ea8428], [
  0x40f1f34497409c9a, 0x40c05e16ebe98d1a, 0x40c022ce9cd88495, 0x40c01c8d1311914a, 0x40c0163b0e47559c, 0x4090ed9429319d11,
  0x4090a58251f0ded8, 0x409082635cfd3adf, 0x409032c19a1db45b, 0x4080b8396def94d5, 0x407094ed586e2ff7, 0x406088606f793cfe,
  0x40529de76047acbf, 0x40459362fff3662e, 0x403a60b5c2ddaef6, 0x40311c29fcb564c6, 0x40262b2504c253fe, 0x400ae62982e0409c,
  0x3ff3913355f69eff, 0x3fe941c275246b27, 0x3fe1d27588a7a0bb, 0x3fd992e388e33e9c, 0x3fc9e82fd95903c5, 0x4081d3f34c86b36f,
  0x40738597eac502f7, 0x40653e54d5ef3a19, 0x4057b1194eed924e, 0x404b1193b737e494, 0x4040010877951536, 0x403317573a24c687,
  0x40276f5c606db696, 0x4003ea6e55819b9d, 0x3ffaf050aba4b657, 0x3ff1461ad8ef4c7a, 0x3fe4b6db6cd8f9d2, 0x3fd8ae61654daa08,
  0x3fc1f84c556d6e0b, 0x3fb5fc90fd289d60]⟩

theorem npz_c_ok : (npzOk fpi_c fpiN_c && npzOk slsqp_c slsqpN_c) = true := by
  decide +kernel

/-- `n` in `data/kl_fpi_results.npz`. -/
noncomputable def fpiN_n : NEntry := ⟨chars! "n", 23, 16, [
  0x3e9251aadcabe09e, 0x3eb2b9a572f7b9c2, 0x3ec26732ffc1d605, 0x3eedfd961955cd50, 0x3f163c37d43c47ae, 0x3f34999d73a2d140,
  0x3f49dec156fde8ba, 0x3f6033597f9cd23a, 0x3f7006c5e34f29a5, 0x3f853b5effabd047, 0x3f9a18afd84245ca, 0x3fac49374e389857,
  0x3fbad90eeb0eef27, 0x3fc4d419c390d93c, 0x3fca66676d2dfbdc, 0x3fca6cdae324cead, 0x3fc4cbb2a70388ff, 0x3fcb2f41c941933d,
  0x3fd8dff1b078e747, 0x3fe164deb5b5a7bb, 0x3fe26e3728457352, 0x3fdce92805afad72, 0x3fd2b28140bc4984, 0x3f72c30aed89b310,
  0x3f7ce8259588b7a1, 0x3f95ba2209b555d2, 0x3fa8e6ad21b7a605, 0x3fb86e1608f31abf, 0x3fc56f743cb52884, 0x3fcc334ef093999c,
  0x3fce6f2e089787fb, 0x3fc7af66a8803c0c, 0x3fc02666afe9165c, 0x3fd85d57c3b4c486, 0x3fe3add78bb993fe, 0x3fe5ab220ad5c345,
  0x3fe177330e88fc6e, 0x3fd016cb7032ab2a, 0x3f865e89493bbe34], [
  0x40ecd8701b2f0737, 0x40ebe6d6305fe0ce, 0x40eb739c89ef7e07, 0x40b232bb1b90fb60, 0x40b21284c8fb7d8e, 0x40b1ef3d481c836f,
  0x40b0ca99e6d47e5c, 0x409bd09583737942, 0x408cf3600a187742, 0x407cf44906cf333f, 0x406e82218e712f52, 0x40610db4d3fb421a,
  0x40539860877dde03, 0x4047588b97b49a84, 0x403d33d5c358bfce, 0x4032c724a0afa6ff, 0x4024e7b107cc1416, 0x400374e1c7fe68ea,
  0x3ff6a4908dcb657b, 0x3fedfa91f77caaec, 0x3fe46824403e852a, 0x3fe009bfbfcf4251, 0x3fcf6b569305ecec, 0x40a0e3b298018441,
  0x4089d737fe885017, 0x4084452b083558f5, 0x407397069a1c0558, 0x4066425ff2702b12, 0x4058ecd1cb666491, 0x404cc7766b2f07e0,
  0x40414b905a11b8d2, 0x40338a5c6b2ee2b3, 0x401376dc57f4edfd, 0x4007c09cd50c9b0a, 0x3ffe782731c0524a, 0x3ff3cf5265ab30c1,
  0x3fe764de7c1ab95a, 0x3fdb6183ca05a832, 0x3fc4f2d3412b950f]⟩

/-- `n` in `data/kl_slsqp_results.npz`. -/
noncomputable def slsqpN_n : NEntry := ⟨chars! "n", 23, 16, [
  0x3d71979985d1b76c, 0x3d71979985d4ae4e, 0x3ed6030f2ff76a29, 0x3f3d5c4dd0edead7, 0x3d719799aabb1fa5, 0x3d7197999ae9aa84,
  0x3d719799e7b2050b, 0x3f49e8e203a2220f, 0x3f569ff33c0932c2, 0x3f9bc431bcef51c3, 0x3fb5b52a8b792b80, 0x3f8b389f179d4df4,
  0x3fc264067b501c03, 0x3fc590a5e64c8196, 0x3fc2f2ac82c39495, 0x3fd65e90db3658e4, 0x3fc9974f530e6a34, 0x3fc8c99fd606466c,
  0x3fdbfafd5392932d, 0x3fe31a3d928aa317, 0x3fe32a909cce1133, 0x3fdf86cf4382ba1d, 0x3fb937ffacfc2d59, 0x3f45cad4b44547f8,
  0x3d719799b753c46c, 0x3d719799f3eaad66, 0x3f956f1e67cc86e4, 0x3fba091cc90e84f5, 0x3fc2c4b85c95d099, 0x3fcacb01a703e9e5,
  0x3fcae53b570c03cb, 0x3fbacb883b6cb25a, 0x3fb9578de91d83cf, 0x3fd9121170b31ebc, 0x3fe7f8547bb59d5f, 0x3fe71fde1d13b73b,
  0x3fdf239458f578f7, 0x3fc9ac5650c822e1, 0x3f52084a005565bd], [
  0x40ecd8701b2f0731, 0x40ebe6d6305fe0a9, 0x40eb739c89ef74aa, 0x40b232bb1cf76df0, 0x40b21284c8fb1969, 0x40b1ef3d4817c874,
  0x40b0ca99e6d28fd6, 0x409bd0958531c7e5, 0x408cf3600b7c21d8, 0x407cf448d04403eb, 0x406e82246712546b, 0x40610db54187237a,
  0x405398541991f904, 0x404758fb861110d8, 0x403d322b60684d79, 0x4032c8c64c448ec1, 0x4024e43534f8426a, 0x400369972d193440,
  0x3ff67e2fe5e36083, 0x3fedd35256ce9aa2, 0x3fe5ff0a109696b6, 0x3fdc00a7dc2fb37e, 0x3fc79e08476ceab3, 0x40a0e3b297c68f19,
  0x4089d737faaa5b2d, 0x4084452ac5cbf130, 0x4073970853971913, 0x4066425636734dab, 0x4058eca3d5a78b22, 0x404cc93b43a6112d,
  0x4041478d78d53a83, 0x403390e8047b174e, 0x40134ad80fff5fc9, 0x400864866a962acc, 0x3ffcee3ae37d1170, 0x3ff09d43c3890b1a,
  0x3fe33688c41eb7d1, 0x3fd6802c15ef52dc, 0x3fbf05f2bed8dca9]⟩

theorem npz_n_ok : (npzOk fpi_n fpiN_n && npzOk slsqp_n slsqpN_n) = true := by
  decide +kernel

/-- `o` in `data/kl_fpi_results.npz`. -/
noncomputable def fpiN_o : NEntry := ⟨chars! "o", 23, 16, [
  0x3e61d54b80ac077c, 0x3e927a01ba6e8804, 0x3eb1cca7cf1365db, 0x3ec2f94277400d8c, 0x3efb0b3ccba427c7, 0x3f228713c73ef7f6,
  0x3f400aae1d62bba1, 0x3f511e07a3f3dab8, 0x3f63e3f9947f4e01, 0x3f793764fa146952, 0x3f8da81e13704ab8, 0x3fa27603fe76884c,
  0x3fb2c0a3c8b2d7b9, 0x3fc0992dfd3ebc89, 0x3fc799f944d5b90a, 0x3fcb8255ccb7eb8c, 0x3fc8a752c7a44231, 0x3fc706f905c7702d,
  0x3fd62af24b76ae81, 0x3fe1c6d4e0058538, 0x3fe5d95cc76b762f, 0x3fe4a47cd0145568, 0x3fdee324a885384e, 0x3f73cb92385bb69c,
  0x3f8c593dc10dd785, 0x3f9a298bcd910672, 0x3fb22e03a62abce6, 0x3fbece2f803cab13, 0x3fc93d13fb73fedb, 0x3fcdbe64c08bc8ce,
  0x3fcd88c46f8a1867, 0x3fc1c187c11cb32c, 0x3fd232d404307119, 0x3fe2bc2f157fb6a8, 0x3fe90278c8ff48bb, 0x3fe80a4154712173,
  0x3fe13741c5ca7e4c, 0x3fd060fe46cb750c, 0x3f9573fabccca53e], [
  0x4126e0447ccd15a6, 0x40f2899c06d7a2b9, 0x40f1fc7de49fd65e, 0x40f0f1b4a37e6609, 0x40ba392c24edc623, 0x40b9d01aa8b5a493,
  0x40b93603d01ca65b, 0x40ae5e7fddd9b595, 0x40a0d4ca6bcf77f4, 0x408ad43cfacc7cfa, 0x407d25366663c4a8, 0x406f30f0f244fd0f,
  0x4061dd042d62e430, 0x4054c2a0e917f4ce, 0x40495b1d6a3afeb5, 0x403fce43b739f498, 0x40356af974b80053, 0x4016bc2e275ef279,
  0x4004bdeb77b290a3, 0x3ff9b4875a61a3cd, 0x3ff14c660a099188, 0x3fe687aa5b3a96a0, 0x3fe07e231e19adaf, 0x40a594d7ba0acb0c,
  0x4090c040b3ac14aa, 0x4085172515b15da1, 0x4074c3620d473411, 0x40671127fda8df04, 0x405a27e61de674a2, 0x404eabc29fad798e,
  0x404226de00ce2f63, 0x4033f213ece45d07, 0x4014b2e628a4cdf7, 0x400ada81e487244a, 0x4000d8d4daa3cd02, 0x3ff57df932be6e5c,
  0x3fe8208d6b1001e2, 0x3fd8c635be53d83f, 0x3fca063a63a017e1]⟩

/-- `o` in `data/kl_slsqp_results.npz`. -/
noncomputable def slsqpN_o : NEntry := ⟨chars! "o", 23, 16, [
  0x3d719799815f8043, 0x3d719799812dea11, 0x3d719799812dea11, 0x3ed65839754f9b1d, 0x3f35a481db82d918, 0x3d71979cc18c49f3,
  0x3d71979aaf58e1f9, 0x3d719799b4e53186, 0x3f5857e0586a2d8a, 0x3f7348b920af391b, 0x3fac40889828b0ae, 0x3fb10659248fca6a,
  0x3fb1c717c9896f64, 0x3fc1a1aae0748ebf, 0x3fc7bbd0cc51efbe, 0x3fc800855824774a, 0x3fd06363b798bcd2, 0x3fc80b45241fd1d3,
  0x3fd69c478cbc1134, 0x3fe320863c79ef68, 0x3fe70194ed2cddd9, 0x3fe53bd17884ec33, 0x3fe35261c9d7bca7, 0x3f3d94563c4bc853,
  0x3d719799812dea11, 0x3d719799812dea11, 0x3fa7c886f3bb9ae2, 0x3fbef88cfc27a7aa, 0x3fc84409414fc5bf, 0x3fcdc27c45630571,
  0x3fcb49252f6e4558, 0x3fbd37082dc7a8da, 0x3fd0d0133985e0a4, 0x3fe2de1634eb6efe, 0x3febae0a01d7dd7a, 0x3fe84841d072c77b,
  0x3fdef22d3524c18e, 0x3fa084971a4a13b2, 0x3f54f5183c7095e1], [
  0x4126e0447ccd15a6, 0x40f2899c06d7a2b9, 0x40f1fc7de49fd65d, 0x40f0f1b4a37e57bd, 0x40ba392c24eadb64, 0x40b9d01aa8b71e0c,
  0x40b93603d020d7e5, 0x40ae5e7fdde4d0fc, 0x40a0d4ca6b7c28ac, 0x408ad43d0a424bc8, 0x407d253605462776, 0x406f30f1bf3b16ff,
  0x4061dd03eb4197c4, 0x4054c29f3166f9fa, 0x40495b39f586c514, 0x403fcdc49029579e, 0x40356af28d15e96d, 0x4016bbbbb961b26b,
  0x4004afb418ee23cb, 0x3ff991ededceade7, 0x3ff15307f47e75de, 0x3fe81a13c66621ba, 0x3fd623a14c8d2902, 0x40a594d7b9916ea2,
  0x4090c040b6d72757, 0x40851724e6287117, 0x4074c3638bbdea59, 0x40671123906deb3f, 0x405a27e49cbbd65a, 0x404eac1cfc45f18a,
  0x404225f6dbfcbf20, 0x4033f4305a29485a, 0x4014abbbae9267c7, 0x400ac6eb452cf7c0, 0x40005382ac934f3b, 0x3ff30baa28df887f,
  0x3fe61c787b8168dc, 0x3fce13d46e9b7ede, 0x3fc1d708323339a8]⟩

theorem npz_o_ok : (npzOk fpi_o fpiN_o && npzOk slsqp_o slsqpN_o) = true := by
  decide +kernel

/-- `f` in `data/kl_fpi_results.npz`. -/
noncomputable def fpiN_f : NEntry := ⟨chars! "f", 24, 16, [
  0x3eb9420979ec2b69, 0x3ea2251e0e001e68, 0x3ed2cb3fdbc97613, 0x3ef7b30ecb515971, 0x3f128050eb678d41, 0x3f207da93ee2ed45,
  0x3f2a3e2a2fd6558e, 0x3f434f9e2b58109b, 0x3f5a84b6ba446c45, 0x3f683088eb51cc13, 0x3f829ddbd27b5860, 0x3f952fb52ba4052a,
  0x3fa83e22f06b45a1, 0x3fb7c58baa554f4c, 0x3fc36a524d685099, 0x3fca1dedbd7a0029, 0x3fcc0c8119f64709, 0x3fc8a4112ef8ca88,
  0x3fd0ea1701a43bbe, 0x3fdf1b8ccc1d6485, 0x3fe672970a5d7421, 0x3fe8742d7322cd5a, 0x3fe4e5262384e06d, 0x3fdcd7023cdc31e3,
  0x3f70a933cebc50d3, 0x3f98f72992295ca5, 0x3fa27a8242a185e4, 0x3fb62f2b0025062b, 0x3fc355f6b5291229, 0x3fcb77fa49f4c62d,
  0x3fcfe1d1942c58eb, 0x3fcb6a27c7410277, 0x3fc419e4d2621034, 0x3fde0a519b1de017, 0x3fe8ac95361903f4, 0x3fecd1b93cd60bbb,
  0x3fe7a4068884dc57, 0x3fdefab2d2bb4477, 0x3fcc107c2927e565, 0x3f9197c4b25ef04b], [
  0x40ff8c064bfbbbdb, 0x40fefa4c6332e8d4, 0x40c4a2d54b70ae74, 0x40c49c9eebfa33d0, 0x40c498667c948aa6, 0x40c4860339214ce3,
  0x40c1ae7030b06ac5, 0x40ad20e8e8fae060, 0x40a9a6bdcd9cdb9a, 0x40a58904a83e18df, 0x408b19046662a271, 0x407e454714f85de9,
  0x40702c6899a1a449, 0x40629b99bca2805a, 0x4055de9e4bd83259, 0x404b0f9a5e2a8de1, 0x4040fc12c265f5c4, 0x403293ec0c23c357,
  0x401308e3917836de, 0x40061827881f3a86, 0x3ffcce51b49f6800, 0x3ff383a172addc40, 0x3fe969f5feb807c3, 0x3fe270161ea85117,
  0x40aa46e4105cfb1b, 0x4093390a21fb4ec8, 0x4082e19be8198cd8, 0x407565a2d6d43e14, 0x4067b7a82775b954, 0x405b2e5d136dc2bf,
  0x405020c1aa8c7fc8, 0x4041bf40b4675a76, 0x40254c939c88367e, 0x4016dfae77909058, 0x400dcf361cd1bf06, 0x4002725b05218c7a,
  0x3ff77c51f7c250d8, 0x3feabf495f90a079, 0x3fdbd0e073566cde, 0x3fcd9a3fad8d4615]⟩

/-- `f` in `data/kl_slsqp_results.npz`. -/
noncomputable def slsqpN_f : NEntry := ⟨chars! "f", 24, 16, [
  0x3d719799812dea11, 0x3ec9d5f902bc759b, 0x3f298139e18b9751, 0x3d719799a28e79fd, 0x3d719799812dea11, 0x3d719799812dea11,
  0x3d7197998c26570d, 0x3d719799812dea11, 0x3f495a7358b66ee7, 0x3f499bd14f379d7e, 0x3fa0e282bf434639, 0x3fa3f53d984e979a,
  0x3f9faca103f2e90f, 0x3fbd09316a0580ff, 0x3fc5c1f152efac44, 0x3fbe2c9a43ed3893, 0x3fd76a0a9ffb5282, 0x3fce9f51b9737cc5,
  0x3fd479de0a5f4faa, 0x3fe04d6f59d1b588, 0x3fe729d31ec606de, 0x3fe95616938ec4cd, 0x3fe5f0bcd632ccd3, 0x3fe26f4ae4522062,
  0x3f2fb6fd02ce9ff4, 0x3d719799812dea11, 0x3f9eb6607464dd5f, 0x3fb57add46b28b48, 0x3fc1d73273fbaf80, 0x3fca3b01660ecec1,
  0x3fcde13406a6a8df, 0x3fbe5ad45d5ec872, 0x3fb8a0d933826b7f, 0x3fdc90486646e33c, 0x3fe9ecc8a5ebca63, 0x3fec7ee662c68bd3,
  0x3fe7c8b1b6bde260, 0x3fdd18b953643cdc, 0x3f9e63e0923e88a6, 0x3f5225f195d52e72], [
  0x40ff8c064bfbbbb7, 0x40fefa4c6332a08f, 0x40c4a2d54bb22645, 0x40c49c9eebfcc6f1, 0x40c498667c9ca6be, 0x40c4860339216259,
  0x40c1ae7030acc65b, 0x40ad20e8e8abff13, 0x40a9a6bdd2576b7a, 0x40a58904aec61cd1, 0x408b1906dc98eb97, 0x407e454bab55cbcb,
  0x40702c6a09a45390, 0x40629bd74ec9336d, 0x4055df5c38924eb9, 0x404b0dddffef3e25, 0x4040fabedb2c92f1, 0x403294e374c5a332,
  0x40131cd5b29da31f, 0x400612db1819831d, 0x3ffced3f4a121962, 0x3ff37e3a413d266c, 0x3feb15ffa8bc6282, 0x3fd98f7cd862cabb,
  0x40aa46e3e922b62c, 0x4093390a13be3b82, 0x4082e198839e8db3, 0x407565a32c821eba, 0x4067b770e582e47c, 0x405b2efad9e99b80,
  0x40501ec43944cdff, 0x4041bf8a4a9d47d2, 0x402521d18abd087f, 0x4017e69069ea8bdb, 0x400cfac16157334a, 0x40020efb57c9a523,
  0x3ff5dd613aff9797, 0x3fe971fd845d4e40, 0x3fd15c0492158174, 0x3fc48ef5557ae06a]⟩

theorem npz_f_ok : (npzOk fpi_f fpiN_f && npzOk slsqp_f slsqpN_f) = true := by
  decide +kernel

/-- `ne` in `data/kl_fpi_results.npz`. -/
noncomputable def fpiN_ne : NEntry := ⟨chars! "ne", 23, 16, [
  0x3e9761bdb26a541e, 0x3ed0d2de379f76db, 0x3ef0dd474d3b741d, 0x3f03774e57e1bfc0, 0x3f07dc2f5ed72c97, 0x3f35febdcc3eeb6e,
  0x3f55a437546bfbe5, 0x3f6cec311f0a885f, 0x3f7a0913ef5520dd, 0x3f8924ecba8285f7, 0x3f9cd3fbe04f9950, 0x3fae87e835cbc23f,
  0x3fbc8bb3e6ee2204, 0x3fc5c810a31bf22e, 0x3fcb80e766c7de3a, 0x3fcb5549afdb719e, 0x3fca88c204e31676, 0x3fd8ab831595834c,
  0x3fe4a7136b2cd495, 0x3feabe7f77562a35, 0x3fea598c4a084c2c, 0x3fe4a10dd79e2e1b, 0x3fda998c1ab2d7c3, 0x3f7bae20a4fbf7cb,
  0x3f98743c7b7c2ea7, 0x3faaa20fd78c6585, 0x3fba11c8bed3e012, 0x3fc69a71dc68f550, 0x3fcd2c473f6a4cba, 0x3fcfeeec41dede42,
  0x3fc7a28a9ad30fd1, 0x3fd2db6fe6bd3adf, 0x3fe4f781c97db4be, 0x3fee31525cd14c82, 0x3feee831dbc0d3b7, 0x3fe6c6b966ba1912,
  0x3fdb404e884439d1, 0x3fc7e35b61da1bb3, 0x3f8cc7edc78cffc1], [
  0x40dc16b45b4b2997, 0x40dc01c8fe64d150, 0x40dc007f11711804, 0x40dbff111acfe1fa, 0x40a4e4a81600e751, 0x40a4df03e3dfb8bd,
  0x40a4dcfa73492e01, 0x40a4da6fb63dd812, 0x40a49d03534f4983, 0x408e91d629c8630c, 0x407e9a79da066e4e, 0x4070f0e8fe7b4c4d,
  0x406366154b9a01b8, 0x40574dfd8711c353, 0x404ce43965cb6eb0, 0x4042a37587c04055, 0x4028d3e1987603cb, 0x4013dbf69c8d4145,
  0x40084ecd6e5c9038, 0x40000692f95894d5, 0x3ff5bf3fe5388084, 0x3fec8c4d4a1cdebf, 0x3fe483f69c0cdaeb, 0x40994e2f6f8501b1,
  0x4093fcada2f24d09, 0x40830df923f44ca2, 0x4076074afd825e13, 0x406887d5a60bbab7, 0x405c903793eb2bf1, 0x4050cd6d91cd2ced,
  0x4042583de1ac5af6, 0x40242f9c3e77b736, 0x4018e8590d2ba55a, 0x4010020a83a1dda8, 0x4003ec9bdf7ec901, 0x3ff9337d277fed95,
  0x3fed5913cc4c0121, 0x3fdf4b71ad61f584, 0x3fd0ed48c7c74ebe]⟩

/-- `ne` in `data/kl_slsqp_results.npz`. -/
noncomputable def slsqpN_ne : NEntry := ⟨chars! "ne", 23, 16, [
  0x3d719799812dea11, 0x3d719799812dea11, 0x3d719799ba396797, 0x3f137a89f5084a9b, 0x3f80fbd12328adb5, 0x3d719799bf83f486,
  0x3d7197ad8615f912, 0x3d719799812dea11, 0x3d719799812dea11, 0x3d7197a43d0fe8d1, 0x3fb7549bb8f17819, 0x3fb26afc89008e59,
  0x3fc0ac4fdcefb22b, 0x3fc552e973e9e2ce, 0x3fcc6e8aad9c176f, 0x3fca006ac087e41b, 0x3fcb55d1d9c88dd2, 0x3fd930e4e20fd584,
  0x3fe4b87df50fa903, 0x3feb766a37e20973, 0x3feb3c7904689814, 0x3fe540f4167b645c, 0x3fde8c424e9815b9, 0x3f8102c862d62b0c,
  0x3f76df14cdeb02f7, 0x3f8f607539d51e34, 0x3fb60152d2083c2d, 0x3fc5f43a637d20d2, 0x3fcc8903602507b0, 0x3fd04d29b91d1307,
  0x3fc764986f97af8b, 0x3fd1c943622955b5, 0x3fe5a2b7bbbc3c75, 0x3fed8e40d9240322, 0x3ff04028d86c5bb1, 0x3fe7c4f7cff74c07,
  0x3fd9423edd6958cc, 0x3f96dbc55b08db81, 0x3f4904202d0f47a6], [
  0x40dc16b45b4b29bd, 0x40dc01c8fe64d051, 0x40dc007f116f9e3d, 0x40dbff111aca36fd, 0x40a4e4a81771c6b3, 0x40a4df03e4b9d5e3,
  0x40a4dcfa74067995, 0x40a4da6fb69a5244, 0x40a49d035329d41b, 0x408e91d61c90818f, 0x407e9a7a3c585c22, 0x4070f0e8a68b81f1,
  0x40636617075e4df4, 0x40574df98d76331b, 0x404ce44394eeaca3, 0x4042a372bc2e08fd, 0x4028d4bb37cff8d8, 0x4013df3f95251002,
  0x40083a03410110f8, 0x3fffe22e844b858d, 0x3ff56f98ee5def98, 0x3fed562d16e60284, 0x3fdc4b90fdb0771f, 0x40994e2f714718cb,
  0x4093fcad9c3ca0df, 0x40830df98ef03793, 0x40760748c10a21bd, 0x406887de067b3529, 0x405c9026f00764af, 0x4050cd79e8bbe6d5,
  0x40425811b4717eb1, 0x40242980b20fb606, 0x4018fd9273e43d06, 0x400fbe94ce7cb6da, 0x4003d358156346a9, 0x3ff782785d3688e2,
  0x3feb79237f5f1e08, 0x3fd372893b1e0934, 0x3fc73a443b3f6328]⟩

theorem npz_ne_ok : (npzOk fpi_ne fpiN_ne && npzOk slsqp_ne slsqpN_ne) = true := by
  decide +kernel

/-- `na` in `data/kl_fpi_results.npz`. -/
noncomputable def fpiN_na : NEntry := ⟨chars! "na", 27, 16, [
  0x3e4a76845599613c, 0x3e93e2cd4bb0772e, 0x3eb11a08f3ae7db9, 0x3eb2660ef26a76ff, 0x3f000f797bb8474c, 0x3f2563024721988d,
  0x3f422d4d112a5362, 0x3f4fd01a53e3bc06, 0x3f645058e7447e33, 0x3f76fa32b0ee46f1, 0x3f8c308e348074f6, 0x3fa21ac2b46aa01b,
  0x3fb2990563b70a4f, 0x3fc0a1ed706c4fd5, 0x3fc801d5b0ff6752, 0x3fccff62a19e0b61, 0x3fcb1f07c60777cd, 0x3fd0f4364252a46d,
  0x3fe04409bfc364ae, 0x3fe8c0b5581ce3ff, 0x3fec37633065e9d1, 0x3fe8569ce09a8aeb, 0x3fe05ad1ef6de305, 0x3fceb4186d9d9770,
  0x3fd4881b4c56df9c, 0x3fdb1f5b67ea93fd, 0x3fbc82737e131d15, 0x3f773a6591d9cbfa, 0x3f897499b6568f4f, 0x3f99e3b2def53a3c,
  0x3fb243ba94d45867, 0x3fbeccedb49dba75, 0x3fc98294cc1f9fa2, 0x3fcec71f7aa956d4, 0x3fd057350a9f83d1, 0x3fc35cecd537e8b6,
  0x3fddd70662b2aed5, 0x3feab1e3cab43f4c, 0x3ff09ce1899d52da, 0x3fec92e3018ec1cf, 0x3fe1cf80cdec2c54, 0x3fcea6e1ee5e5c64,
  0x3fca8b1b66e0acfb], [
  0x41424d1edf5a7877, 0x4105b18060b71e0b, 0x4105a8cb7614c1c3, 0x41057409f30894d9, 0x40c890323cb51c26, 0x40c8878a86268358,
  0x40c878aa277fc579, 0x40bd15f725def0db, 0x40b044c47736e291, 0x409922fdc1c00fdf, 0x408b91a1874addbd, 0x407df90b03332109,
  0x407162692d3f31a4, 0x4064127e9070fadc, 0x4058a8e1f7ba9438, 0x404d6d3d4ceec720, 0x4043d39129011444, 0x4022e3ca0f04634a,
  0x4014b442f8a10d65, 0x400ab64ebd514476, 0x400241974d6ec5a6, 0x3ff982a5b3d64512, 0x3ff262e2b04d0cbe, 0x3fe24052f78e05f7,
  0x3fb67be364230e57, 0x3fb28a5425ede8a2, 0x3fa523d2c09baa17, 0x40b470b275cbc154, 0x409df5fa69f1c354, 0x40966d8a137f407d,
  0x40843c88d311e389, 0x4076a481c3d0909f, 0x4069330981a725d4, 0x405dcd083bf1b340, 0x405064684ceeb9ad, 0x403c598007fe4840,
  0x4026433f7288d9b3, 0x401b68f6c8664ac5, 0x40117f66a6a2cccb, 0x40069aa8d9e8b8db, 0x3ffc51957e7a242e, 0x3ff2ea0364ff89bb,
  0x3fc9a3f1444fcca0]⟩

/-- `na` in `data/kl_slsqp_results.npz`. -/
noncomputable def slsqpN_na : NEntry := ⟨chars! "na", 27, 16, [
  0x3d719799812dea11, 0x3d719799812dea11, 0x3d719799812dea11, 0x3ed0af475895f611, 0x3f37a27e6a7e6343, 0x3d719799812dea11,
  0x3d719799812dea11, 0x3d719799812dea11, 0x3f563b03eba09ef4, 0x3f78e341d6ff7bef, 0x3fa740a8419db340, 0x3f9eb0857ded2470,
  0x3fbb2cf6ecf28d29, 0x3fd649087c253497, 0x3f9975ba1e2b780a, 0x3fdf2258cf053e27, 0x3fd9fd60e3b517b8, 0x3fdc638fc9fc7bd5,
  0x3fe21b1fa8d35c95, 0x3fe9420ed9fe3b59, 0x3fec551454d376c7, 0x3fe95e3dd35285ae, 0x3fe1380e8f1ef60a, 0x3fc163cc6403cbdf,
  0x3fe3a9be9deea72e, 0x3fcb4933241a4c01, 0x3f89dfc937ea12c4, 0x3f406c02fc97af0f, 0x3d719799812dea11, 0x3d719799812dea11,
  0x3f9fdffa975dd15f, 0x3fa7cc43e244fb31, 0x3fb47fc280d06feb, 0x3fc9f786e3d5245d, 0x3f8555e9abc83698, 0x3fac8ab377f1f385,
  0x3fd405e4e40da59b, 0x3fec0cd98eec6b35, 0x3fef58c2aaa83c41, 0x3febab207c50b645, 0x3fe4b99aa561ce7f, 0x3fd338b4c8ee2683,
  0x3fc292dff008c3f6], [
  0x41424d1edf5a7877, 0x4105b18060b71e0c, 0x4105a8cb7614c1c0, 0x41057409f30868ed, 0x40c890323c6e6f9d, 0x40c8878a86253bcb,
  0x40c878aa277eb37d, 0x40bd15f725df449e, 0x40b044c47272a21d, 0x409922fdb032b487, 0x408b919eb5228cda, 0x407df909de992a2c,
  0x4071625dc50acb1c, 0x4064128e9b5c42c7, 0x4058a89b1e1481f7, 0x404d6e8221ebf9e9, 0x4043d361f278c192, 0x4022ea95b137c769,
  0x4014c187898f9677, 0x400ad4230397186f, 0x400249fb8451a464, 0x3ff981effe3ae33d, 0x3ff1bccc10fc3a9a, 0x3fc93644929fafe7,
  0x3fb56c560d7e82c0, 0x3fa9b9ef8a046802, 0x3f9f85f915b5ce5c, 0x40b470b272267d5a, 0x409df5fa6da25e8f, 0x40966d8a0a49bede,
  0x40843c91df54697d, 0x4076a44dab8e7171, 0x406933ca697c72cf, 0x405dcae8b0dd6f32, 0x405065b85c7a4771, 0x403c5bb4bfdd59dc,
  0x4026663dcddbc217, 0x401b5c30c9ad14f7, 0x40114637cd586f1d, 0x4006df89a814be73, 0x3ffca0d1e25ac9e1, 0x3ff04b566f9513b0,
  0x3fc640007aaa049e]⟩

theorem npz_na_ok : (npzOk fpi_na fpiN_na && npzOk slsqp_na slsqpN_na) = true := by
  decide +kernel

/-- `mg` in `data/kl_fpi_results.npz`. -/
noncomputable def fpiN_mg : NEntry := ⟨chars! "mg", 27, 16, [
  0x3ea701e96c57ee6a, 0x3eb3c9c6f3394040, 0x3eb3f854b38992d5, 0x3eea4a35c3f2c1a0, 0x3f0d33c5679f096a, 0x3f2c482c65d2b95c,
  0x3f425a8fb9cc60e4, 0x3f54f5e702163885, 0x3f64b27da7ac5487, 0x3f805122d5313f2e, 0x3f924a7054d93af6, 0x3fa64a0671fd7c04,
  0x3fb63c61c98beea1, 0x3fc2c1a5428e985b, 0x3fca046a89923dce, 0x3fcd2d206dcddd4c, 0x3fcbf6bd28d1b102, 0x3fd6a6d376fb9315,
  0x3fe44663fbd44b3d, 0x3febceaa05db202f, 0x3fec3414393c33bd, 0x3fe597b359863e93, 0x3fd7f5d5bb64eaf8, 0x3fd6ec79def6c7c5,
  0x3fdfde4aca6110a0, 0x3fdea72129150efb, 0x3fbf7558032df490, 0x3f733a056d1808a1, 0x3f97a5096b413d97, 0x3f9e7f15ecb6c47b,
  0x3fb59a98aef039cc, 0x3fc23194224a97f3, 0x3fcb583fc1081b24, 0x3fd05619820a4ef3, 0x3fcde48c82fb3edd, 0x3fcdca3662f12219,
  0x3fe3c288c6df9798, 0x3fef419f0443b4d1, 0x3ff0f17ba9c54c96, 0x3fe91d201bc2ce27, 0x3fd9eefd14731e0f, 0x3fd1c1290a069eac,
  0x3fdd50d9df620cb4], [
  0x410e6fbfeee29574, 0x410e36e141289458, 0x40cfe9373a29fab4, 0x40cf023b27ec04e3, 0x40cee6265ae81fc6, 0x40cec9d7d1370637,
  0x40cdb33ce3ecc8be, 0x40b6c434b580afa3, 0x40b441d618519441, 0x409a1c90f9f35f84, 0x408ce48bd616b398, 0x407eccd63d22a347,
  0x4071e95b07e870c4, 0x4064eed7c2f5a25d, 0x4059e139491afbd2, 0x404fdd486ed9a4be, 0x403f474e096ad1dd, 0x4022b6d3a10d9c74,
  0x40162cd765082d72, 0x400d91b82acc1244, 0x4004d2c8a92c346c, 0x3ffe1d58fe31dd6a, 0x3ff2360e1a1a28c4, 0x3fcfb3caf229df2a,
  0x3fbc46baa2f4e9b7, 0x3fbb308f1dd883d2, 0x3fae5efd48bd432c, 0x40b9d80585fc372b, 0x40a1c449b6e45765, 0x40934ca287a360d1,
  0x4084c982ef8dda6c, 0x407703fc466844a1, 0x406a2a94c4cc9e89, 0x405eddbc0a7ebf14, 0x4050d59fd6cf1ad3, 0x4034074be92fd6cc,
  0x4026d4a537027279, 0x401daed42f8cfa85, 0x4013238bcb1132f4, 0x4008f161ecde3973, 0x3fffc2c0f9a6950e, 0x3fdb6d527de2840e,
  0x3fce416e2591cb12]⟩

/-- `mg` in `data/kl_slsqp_results.npz`. -/
noncomputable def slsqpN_mg : NEntry := ⟨chars! "mg", 27, 16, [
  0x3d719799812dea11, 0x3ec950b348adbe31, 0x3f34c50e16bdee0d, 0x3d719799812dea11, 0x3d719799812dea11, 0x3d7197998348f75a,
  0x3d719799812dea11, 0x3d719799812dea11, 0x3f554348cbf8b663, 0x3f9e46f32c656a36, 0x3f93c4c61f68e030, 0x3fb8b0d9b049aac1,
  0x3f5b93c1596388da, 0x3fd1ab98cb2e7adc, 0x3fb0232b3a71f5bc, 0x3fda3255698a604e, 0x3fd12c1e17a2a4db, 0x3fd8eb827e5266df,
  0x3fe465462fc23d22, 0x3feb65a1a088aca2, 0x3fed10c00a45a2c5, 0x3fe5c9356ac47a59, 0x3fcfa9469416ca3e, 0x3fd818297e89ac2f,
  0x3febfd7f66906870, 0x3fcb9a31faccdd2e, 0x3f858acc7e283363, 0x3f4010e166707c43, 0x3d719799812dea11, 0x3f9933b913fabbcb,
  0x3fb019110623a479, 0x3fc39ff89d592061, 0x3fc5a64aea29222d, 0x3fcfaf403bec4910, 0x3fc05158336b9781, 0x3fc71e883dda567d,
  0x3fe5008e566148a4, 0x3fee5d90681a8269, 0x3ff00aa98c36531a, 0x3fec9245ea5c18a6, 0x3fd94ef00720595f, 0x3fd5469ee7e80651,
  0x3fdc5e8e04e1a1e8], [
  0x410e6fbfeee2957c, 0x410e36e141288180, 0x40cfe9373a55a85d, 0x40cf023b27ec38aa, 0x40cee6265ae833af, 0x40cec9d7d137c8af,
  0x40cdb33ce3ec7646, 0x40b6c434b57d0f7b, 0x40b441d614c0ba30, 0x409a1c919ada55f9, 0x408ce48abc86a26a, 0x407eccdc0b9d3eea,
  0x4071e955fccb9809, 0x4064eef09353d650, 0x4059e0f076d33c85, 0x404fdd513fc5ea83, 0x403f4a42407baed8, 0x4022c0bc300dba2c,
  0x401627c32fad9667, 0x400d7f2f53b0fde9, 0x4004bf0933bfb9fd, 0x3ffdf03071437010, 0x3ff6b89c79f39b1f, 0x3fd6b9d8f4d0f9d5,
  0x3fbd27231c837e76, 0x3fb1e4ce7ea92a24, 0x3fa64796c9d67f7b, 0x40b9d80582ad09e4, 0x40a1c449b7546acb, 0x40934ca14c6a86f6,
  0x4084c98a1a930e87, 0x407703d0ca10d34d, 0x406a2b1bf7eefe45, 0x405edc611a7b7225, 0x4050d62a8f13054e, 0x4033f7fc6ac1fbd6,
  0x402730800e76f365, 0x401d03e0347f34f0, 0x401396f3469e93d6, 0x4008bc2a849a2d73, 0x3ffcba662998ca59, 0x3fd6b9b203070a4c,
  0x3fccba1ea6587733]⟩

theorem npz_mg_ok : (npzOk fpi_mg fpiN_mg && npzOk slsqp_mg slsqpN_mg) = true := by
  decide +kernel

/-- `al` in `data/kl_fpi_results.npz`. -/
noncomputable def fpiN_al : NEntry := ⟨chars! "al", 27, 19, [
  0x3e70e1c264bf55da, 0x3e976d628b27a3b3, 0x3eb28ecda01161df, 0x3e899d73a3a9f26e, 0x3eee3e9dc9999750, 0x3f155823cf461057,
  0x3f333c9141e9e71d, 0x3f46968094d47c9c, 0x3f5ca2664917a304, 0x3f67318d2a09cc92, 0x3f835dae0bbcb7da, 0x3f9735bc4b9ed37b,
  0x3faa6b7d5c7baa5a, 0x3fb9c8bd78458d7b, 0x3fc4a43bd7e6b5d1, 0x3fcb73d12e5e2cf6, 0x3fccfab3f90e1b81, 0x3fcebd1c2b075b5f,
  0x3fdd2f468645fb33, 0x3fe82b32f0c4f791, 0x3fedc07608324069, 0x3feb486eae0f19a0, 0x3fe1fcd7378094a4, 0x3fd5e0c14e426383,
  0x3fdf4997e3a203ce, 0x3fdeea83c9c351bb, 0x3fdbdaab107f9e42, 0x3f75407a2de529df, 0x3f7d771fe8a87a51, 0x3f99be8e08a0af43,
  0x3fa531965e5f0ea8, 0x3fb7d6f18d76a95a, 0x3fc4fe57d2fe4438, 0x3fccc8e5348738b9, 0x3fd0bca637742081, 0x3fcb27ebbb99ffc8,
  0x3fd679f9a6d38aea, 0x3fe8bf955fcbe6d5, 0x3ff176a92a914853, 0x3ff0399cb2d6f68e, 0x3fe5beb06bfdb486, 0x3fc5564b6ec6f96c,
  0x3fe0f8e763577298, 0x3fe3b6dacf8d3c55, 0x3fd91a2c6f943df5, 0x3f8b2bef62f6eca3], [
  0x4113097c84181aaf, 0x41130829fe57c202, 0x411307b3a127ef2f, 0x4112f10bcd54cb0c, 0x40d0e659a2db226c, 0x40d0e542e372b0b1,
  0x40d0e3d93ba023a9, 0x40d0c9a15f31a17e, 0x40b9442fe751154c, 0x40b225bf1fc92fbc, 0x409a5185f28d3ea9, 0x408c9366ebdaa564,
  0x407fbbeae2505cd8, 0x407259f0c2f2f60d, 0x4065e3d4b140466d, 0x405b0481f6af2a5d, 0x40510be1d668e421, 0x40370f9774ba22fc,
  0x4023367a22fabb90, 0x401808e211648680, 0x40104bb6fb73bfda, 0x4007875339b566ac, 0x4002af8c269dff52, 0x3fdd3f244575f5d0,
  0x3fcfb48fccfccfd0, 0x3fc6fd68409cbef4, 0x3fb4c4afb7e374fb, 0x40be7cb76e4b6523, 0x40a3534ffcccdd5c, 0x40a2ee6390db4150,
  0x40918aec34b42072, 0x408536121192f4b0, 0x407769468a295216, 0x406b1519308e8312, 0x405fb7d522363d0d, 0x4050e75facd62dc9,
  0x403385f3a1c5e0c7, 0x402851f16a9c3777, 0x401fa77a83964617, 0x4014cf19035a7ec4, 0x400a0830d8d841f8, 0x400094f1d641ddd4,
  0x3fe0bee8e6d2b41b, 0x3fd33d8d40235adf, 0x3fc5996befffdc45, 0x3faa5c50b7a0cd57]⟩

/-- `al` in `data/kl_slsqp_results.npz`. -/
noncomputable def slsqpN_al : NEntry := ⟨chars! "al", 27, 19, [
  0x3d719799812dea11, 0x3d71979984e12273, 0x3d71979985675dbf, 0x3ec95596634c3ed0, 0x3f3cfd0a7b6e2f3d, 0x3d719799812dea11,
  0x3d71979b4b794791, 0x3d7197999b76cf9b, 0x3f46078ce794ab6b, 0x3f42bc8a2e94bfe6, 0x3f9c514cdd43d1da, 0x3f913bdb17648cad,
  0x3fc1d85c6aefc8a4, 0x3fcab39f28ae6cd4, 0x3fc2cdc67e0fcaad, 0x3fc69da1550d7bdf, 0x3fd253be5ee1a009, 0x3fd112b7689dd131,
  0x3fdf4b83731561d8, 0x3fe8141f136a9e28, 0x3feee31ac9a3869f, 0x3feafac3c12781a7, 0x3fe30f737a532087, 0x3fd00b5ea22d4a33,
  0x3ff051b8e14f453e, 0x3ff04de974afc649, 0x3fb271b8d02eaa15, 0x3f48b25ced03fc6f, 0x3d7197bb3aa11830, 0x3d71979fa127b169,
  0x3f90db788f67eaf1, 0x3f9252057459a2e3, 0x3fbbc18cacb044a4, 0x3fcd5167766bfef9, 0x3fd078cf20bc205e, 0x3fc6202f89192d7d,
  0x3fd37001a15ccb79, 0x3fe9b54c236add1d, 0x3ff09fe499353ece, 0x3ff19593bbcb3d72, 0x3fe0cf8c1f2cff7d, 0x3fcab1abcc41eb9f,
  0x3fd8950e8c34a61b, 0x3fdbad73bf9a81ff, 0x3fbf6ea3ebcb586d, 0x3f49e66479f09c9f], [
  0x4113097c84181aaf, 0x41130829fe57c202, 0x411307b3a127ef2f, 0x4112f10bcd54b79f, 0x40d0e659a14a9f9a, 0x40d0e542e374bdcf,
  0x40d0e3d93ba01b8d, 0x40d0c9a15f31d37d, 0x40b9442fbce6927a, 0x40b225bf4e1c577f, 0x409a5186db8d315e, 0x408c9369ed3fed63,
  0x407fbc01b66cf606, 0x407259f3f713a2c1, 0x4065e3a4a5eb2080, 0x405b0434d8f1e158, 0x40510a8df4ad0d44, 0x403717ddca7d6b19,
  0x402331a91fc7379f, 0x401814451c455c2f, 0x401041dbe1165cf4, 0x40076c3c87d77c6f, 0x40025773b88ab70e, 0x3fda2eac01ecb7d2,
  0x3fc0a5addeb77f28, 0x3fc9c90f5c0a743a, 0x3fab69123890dbb2, 0x40be7cb76c5f3add, 0x40a3534ffcc3ca98, 0x40a2ee6393813b88,
  0x40918aeb95c74a15, 0x4085361050e4c87d, 0x4077694ec7b9f8c4, 0x406b15001afa6e3d, 0x405fb809447f0523, 0x4050e7ef36da7854,
  0x40337b4b6ee55459, 0x4028585090620c2f, 0x401f9ce712e43c85, 0x40147b30eca752fe, 0x40098769116b56cc, 0x400266e114a65d41,
  0x3fe256650c3cba1a, 0x3fd65e0f73b3935a, 0x3fb8c80fa7c925a7, 0x3fa2da609a5d737d]⟩

theorem npz_al_ok : (npzOk fpi_al fpiN_al && npzOk slsqp_al slsqpN_al) = true := by
  decide +kernel

/-- `si` in `data/kl_fpi_results.npz`. -/
noncomputable def fpiN_si : NEntry := ⟨chars! "si", 27, 19, [
  0x3e735456be16d6b7, 0x3e998eb11962ae13, 0x3eb38b30a813ca16, 0x3eb6074d56e48d58, 0x3ef889a3e44e1228, 0x3f20712d9b2e9717,
  0x3f3c601a4c664bf3, 0x3f4bd14e25d76993, 0x3f6238c29bce272c, 0x3f6e88e5aafca959, 0x3f86981f6afcf5d3, 0x3f9c984a7108d4bd,
  0x3faf08cf0496b3b1, 0x3fbd63223293dae0, 0x3fc66584bba2e03e, 0x3fccd95ade8fd76c, 0x3fccbd6e4abad9a7, 0x3fd272f38205910e,
  0x3fe1cbfeccd9f8e7, 0x3feb20e6526a8ca6, 0x3fee288f37bac78b, 0x3fe89961247840c4, 0x3fd837527f673d5a, 0x3fdf77c8c7c9fdff,
  0x3fe3d59d6662efc5, 0x3fe162f370f01f2b, 0x3fd9be12e6c7a558, 0x3f7a7ed44e353ac6, 0x3f827d5e95ef1b44, 0x3f9add796e224fc0,
  0x3fabfd151453951c, 0x3fbacc4f71b9643e, 0x3fc790700904cf51, 0x3fcdf799ebc22733, 0x3fd1475ea3d3d11a, 0x3fc71c04a18d63bb,
  0x3fdf93a80929b67b, 0x3fed39fe5b2beb7f, 0x3ff24bfed1d405a8, 0x3fedb0e024ebdc79, 0x3fdfd7f8332288ee, 0x3fde41eb00f3b2b1,
  0x3fe5d3f189dfb30b, 0x3fe7af65f0399533, 0x3fd6cd97f511ad63, 0x3f9225d5a34d8d93], [
  0x4117165c6d8ee209, 0x4117155781704a17, 0x411714fdadcf3a75, 0x40d2937a923797b3, 0x40d28fbd4df4094a, 0x40d28f28477b95b6,
  0x40d28e43d1d921c0, 0x40d22e53562375af, 0x40bca56db6c313bb, 0x40a43d1a188d5980, 0x409adfb44889f625, 0x408c6028ce9a26bc,
  0x4080531720ffb7a0, 0x4072d462b096db9e, 0x4066f02363d9a7af, 0x405b77f5eb2da103, 0x405270b7df93e6cf, 0x4032daee0981b7fc,
  0x4023d50af92b5674, 0x401a30f7d387d0c3, 0x401265761302f05a, 0x400c02ad0cdf7905, 0x400323b566723204, 0x3fdab4afef1aabb3,
  0x3fd17efd2aa84749, 0x3fcc762337f168fa, 0x3fbbf369a3b58278, 0x40c15bbdbf232783, 0x40a5b5d477fe8a75, 0x40a4db4fcb3fe4d6,
  0x409235097c812c13, 0x4085d375bde383c4, 0x4077d28527c0c929, 0x406c0a5d2d5f9852, 0x405f64011a2c96f4, 0x404e409a84575521,
  0x40356f3b39af43c5, 0x4029c5b3492b33c3, 0x402162e9b98034de, 0x4016417c78ff87d7, 0x400e9020106dbb33, 0x3fe9d7c5b4043dee,
  0x3fe20ce8cc422957, 0x3fd5285ec7379b24, 0x3fc823547f74ec63, 0x3fb36438914cef5f]⟩

/-- `si` in `data/kl_slsqp_results.npz`. -/
noncomputable def slsqpN_si : NEntry := ⟨chars! "si", 27, 19, [
  0x3d719799829b8742, 0x3d719799812dea11, 0x3ec90d72471365bd, 0x3f4125bd049764f4, 0x3d719799c76de5c8, 0x3d719799874a7930,
  0x3d719799812dea11, 0x3d719799812dea11, 0x3f48a0596e5e3d8a, 0x3f7a9d7da9fbad6e, 0x3f8760c3e3051388, 0x3fa9a83c29117d5e,
  0x3fbf847d248a4d07, 0x3fd81ae42b02646e, 0x3f4abff6cf40a325, 0x3fde2b9892a18b2a, 0x3fda14dd72b7d8b4, 0x3fdb5b0b2bf1162a,
  0x3fe42f84e003012b, 0x3feca8fe6231ed12, 0x3feea41d9f64b040, 0x3fe978358f7ea16f, 0x3fcf40eb0631e9a2, 0x3fdd73d19af8a348,
  0x3fe59b23741b6e1a, 0x3fe38cd84e5981f1, 0x3fc302caf928bbc1, 0x3f4dd2d2fd185ef0, 0x3f1ba50b63e71954, 0x3d719799812dea11,
  0x3d71979a8685b2ec, 0x3f6d68b7675ee53b, 0x3fa72a9f0ea14628, 0x3fcac1460be0ee43, 0x3fa9afead99b33da, 0x3fb6c16597836960,
  0x3fd461b54470e596, 0x3feffffd7b9b20ac, 0x3ff0222ef22493ca, 0x3fed986faa6b22c8, 0x3fe3d3ad9e0e4431, 0x3fe58c7adf9329cb,
  0x3febca6e3ca747b6, 0x3fe7441241687145, 0x3fc520c3364baf83, 0x3f5badcc04e60f4f], [
  0x4117165c6d8ee209, 0x4117155781704a47, 0x411714fdadcf20c8, 0x40d2937a928cb304, 0x40d28fbd4e02efb1, 0x40d28f28478aad30,
  0x40d28e43d1eec0d0, 0x40d22e5356233c9c, 0x40bca56dc36d2802, 0x40a43d1a1969f73a, 0x409adfb3ff29aa58, 0x408c602962b0598f,
  0x408053120abc5580, 0x4072d47e2387f982, 0x4066f014731322b1, 0x405b7808621192e2, 0x40527072e9d058dc, 0x4032d8ba1240fc50,
  0x4023eb5f76950660, 0x401a2d458d34857b, 0x4012a6fc8708dac4, 0x400b65eca090a26f, 0x40056f2f8eb95a5c, 0x3fd4dc479ddfc7a1,
  0x3fc49f741e8c8cdd, 0x3fd992cca6afa1d9, 0x3fb55ff1d52f7b69, 0x40c15bbdbdd64d53, 0x40a5b5d477f718aa, 0x40a4db4fca180f9d,
  0x40923509c271dddf, 0x4085d3726387c7e6, 0x4077d2ae46a4567e, 0x406c09b40fbd6b7d, 0x405f64ab45b5e0dc, 0x404e4139147b7d24,
  0x403563aacfe68873, 0x402a30fb6a316a8d, 0x4020cd2c4c3f86ac, 0x40175a061877491f, 0x400d55b6ee7757f4, 0x3fe91e085b7111a9,
  0x3fdd370e723f7094, 0x3fd1714f093118fa, 0x3fc3333bb379809b, 0x3facdb24266b3e41]⟩

theorem npz_si_ok : (npzOk fpi_si fpiN_si && npzOk slsqp_si slsqpN_si) = true := by
  decide +kernel

/-- Part 1 of the results, with the texts. -/
noncomputable def npz1 : List ((JEntry × JEntry) × NEntry × NEntry) := [
  ((fpi_h, slsqp_h), fpiN_h, slsqpN_h),
  ((fpi_he, slsqp_he), fpiN_he, slsqpN_he),
  ((fpi_li, slsqp_li), fpiN_li, slsqpN_li),
  ((fpi_be, slsqp_be), fpiN_be, slsqpN_be),
  ((fpi_b, slsqp_b), fpiN_b, slsqpN_b),
  ((fpi_c, slsqp_c), fpiN_c, slsqpN_c),
  ((fpi_n, slsqp_n), fpiN_n, slsqpN_n),
  ((fpi_o, slsqp_o), fpiN_o, slsqpN_o),
  ((fpi_f, slsqp_f), fpiN_f, slsqpN_f),
  ((fpi_ne, slsqp_ne), fpiN_ne, slsqpN_ne),
  ((fpi_na, slsqp_na), fpiN_na, slsqpN_na),
  ((fpi_mg, slsqp_mg), fpiN_mg, slsqpN_mg),
  ((fpi_al, slsqp_al), fpiN_al, slsqpN_al),
  ((fpi_si, slsqp_si), fpiN_si, slsqpN_si)]

theorem npz1_ok : ∀ p ∈ npz1, (npzOk p.1.1 p.2.1 && npzOk p.1.2 p.2.2) = true := by
  intro p hp
  unfold npz1 at hp
  simp only [List.mem_cons, List.not_mem_nil, or_false] at hp
  rcases hp with rfl | rfl | rfl | rfl | rfl | rfl | rfl | rfl | rfl | rfl | rfl | rfl | rfl | rfl
  · exact npz_h_ok
  · exact npz_he_ok
  · exact npz_li_ok
  · exact npz_be_ok
  · exact npz_b_ok
  · exact npz_c_ok
  · exact npz_n_ok
  · exact npz_o_ok
  · exact npz_f_ok
  · exact npz_ne_ok
  · exact npz_na_ok
  · exact npz_mg_ok
  · exact npz_al_ok
  · exact npz_si_ok

end BFit.Data
