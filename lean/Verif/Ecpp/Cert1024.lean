import Verif.Ecpp.Step
import Verif.Ed25519.Primes
import Verif.Srp.Groups

/-!
# `(N - 1) / 2` is prime for the group `G_1024` of srp/src/groups.rs

A certificate of 41 elliptic curve steps, checked by the kernel.
-/

-- Keeps the memory of the finished steps from piling up.
set_option Elab.async false

namespace Verif.Ecpp.Cert1024

theorem prime_1379291 : Nat.Prime 1379291 := by
  refine pratt _ 7 [2, 5, 11, 12539] (by decide +kernel) ?_ (by decide +kernel)
    (by decide +kernel) (by decide +kernel)
  intro f hf
  simp only [List.mem_cons, List.not_mem_nil, or_false] at hf
  rcases hf with rfl | rfl | rfl | rfl
  · norm_num
  · norm_num
  · norm_num
  · norm_num

theorem prime_11034329 : Nat.Prime 11034329 := by
  refine pratt _ 3 [2, 2, 2, 1379291] (by decide +kernel) ?_ (by decide +kernel)
    (by decide +kernel) (by decide +kernel)
  intro f hf
  simp only [List.mem_cons, List.not_mem_nil, or_false] at hf
  rcases hf with rfl | rfl | rfl | rfl
  · norm_num
  · norm_num
  · norm_num
  · exact prime_1379291

theorem prime_17661097 : Nat.Prime 17661097 := by
  refine pratt _ 5 [2, 2, 2, 3, 3, 17, 47, 307] (by decide +kernel) ?_ (by decide +kernel)
    (by decide +kernel) (by decide +kernel)
  intro f hf
  simp only [List.mem_cons, List.not_mem_nil, or_false] at hf
  rcases hf with rfl | rfl | rfl | rfl | rfl | rfl | rfl | rfl
  · norm_num
  · norm_num
  · norm_num
  · norm_num
  · norm_num
  · norm_num
  · norm_num
  · norm_num

theorem prime_4315776045376727299 : Nat.Prime 4315776045376727299 := by
  refine pratt _ 2 [2, 3, 3691, 11034329, 17661097] (by decide +kernel) ?_ (by decide +kernel)
    (by decide +kernel) (by decide +kernel)
  intro f hf
  simp only [List.mem_cons, List.not_mem_nil, or_false] at hf
  rcases hf with rfl | rfl | rfl | rfl | rfl
  · norm_num
  · norm_num
  · norm_num
  · exact prime_11034329
  · exact prime_17661097

theorem prime_1024_40 : Nat.Prime 0x6723b161a1898354cc6453 := by
  refine prime_of_step (a := 0x431f5b0ec69671e9fadbb2)
    (x := 0x3fb12d63c50d8a02aec627)
    (y := 0x45675bd0db7788693089dd)
    (q := 0x3be4b77282d1e903)
    (s := 12)
    (c := 0x240580a8130230460a81802304e0b013841)
    (by decide +kernel) ?_
  exact prime_4315776045376727299

theorem prime_1024_39 : Nat.Prime 0x5c9048715eb8dd10f696b2469 := by
  refine prime_of_step (a := 0x43ab804befe1cce75255cf7f0)
    (x := 0x31c31d3c9d4e4dddaea78beb9)
    (y := 0x1410834ce03c15eb5355fee47)
    (q := 0x6723b161a1898354cc6453)
    (s := 18)
    (c := 0x94168270480bc1302004a0c4100210720881102505e0bc19021)
    (by decide +kernel) ?_
  exact prime_1024_40

theorem prime_1024_38 : Nat.Prime 0xff556dca15751a373c2a21532e4c277be088ab := by
  refine prime_of_step (a := 0x930809b3a08eacdc4caea9b2494f212bea35b7)
    (x := 0xe8dfb4c5f87759f7cdbcc7cdbfae2082b868f0)
    (y := 0xd832e447d9d5b90969e8e736681e81c4ca7912)
    (q := 0x5c9048715eb8dd10f696b2469)
    (s := 20)
    (c := 0x82d04e0a01382006e0981a8230660b4100200580941082e04a09c19827)
    (by decide +kernel) ?_
  exact prime_1024_39

theorem prime_1024_37 : Nat.Prime 0x42d35bbbe39da5dc74bf4810cf6456cf66cc494bf := by
  refine prime_of_step (a := 0x145dff1168f9c532787e4be238808c0c01e1cb4d1)
    (x := 0x2566af073cfd7e33c8cd011fcbc473294da58eec6)
    (y := 0x9f549417e63363e0ea4037f7297352fe72a61020)
    (q := 0xff556dca15751a373c2a21532e4c277be088ab)
    (s := 31)
    (c := 0x980981302e0460a81882606c09c1283305a090140220400a0110210420dc1083a0480b01602804e09c13026)
    (by decide +kernel) ?_
  exact prime_1024_38

theorem prime_1024_36 : Nat.Prime 0x8e2792c859ded76a83aa16b5f5b833c78ce82be6da27ae759 := by
  refine prime_of_step (a := 0x39c4ebb015479b9c051d8026ed26d9c536506af99544c24c4)
    (x := 0x7a946d834374e0e1809f582ab3b55738267ee6cdc89934154)
    (y := 0x8805ffdc56a0af05a27a17d0f95285ecfb2c961f4cb416f1d)
    (q := 0x42d35bbbe39da5dc74bf4810cf6456cf66cc494bf)
    (s := 33)
    (c := 0x100260440941182404811c1682404a0841203705a0841e0270700801282c05e0c81182507c0ac1282f04e0a810834)
    (by decide +kernel) ?_
  exact prime_1024_37

theorem prime_1024_35 : Nat.Prime 0x41863da8596cb74b18b06677e2b2d176959509ab33da55638cf := by
  refine prime_of_step (a := 0x1c63d59d213ea0f17fa9f3a51167565cd1cdaaa0a899a43f940)
    (x := 0x37db20aae5dcf9e4daf319f289064efacbb7d9c5681e1f39f2e)
    (y := 0x215db81a317e42735b2478af98fb3f218ba5ffabc9e697b0d16)
    (q := 0x8e2792c859ded76a83aa16b5f5b833c78ce82be6da27ae759)
    (s := 38)
    (c := 0xcc1903f0420bc188250480b01702404a0881402d0440c41702e0680981182804a0fc1f82505a0a01302c04208c1283207c0b41b02f)
    (by decide +kernel) ?_
  exact prime_1024_36

theorem prime_1024_34 : Nat.Prime 0x249ee9c92cdc73cfbb302480ac24ee2e4d6c578babc7309d482d3f97 := by
  refine prime_of_step (a := 0x20566ea12d9a3f579f4e71134ea7590f6fc8773976c05c54fddd1a33)
    (x := 0x19293e3cbab7a8099287960a6b3bcd39c1179085e1e8420a62063db3)
    (y := 0x18cdaefe19e6c13df77899b28c3982795d1c3a4a11b0a59848b91330)
    (q := 0x41863da8596cb74b18b06677e2b2d176959509ab33da55638cf)
    (s := 42)
    (c := 0xe41002f07c0881882f0460bc1182d0420bc17826050094128240680a41302104a0a41b02204c0bc110280560981282507c0881302605e0dc12824)
    (by decide +kernel) ?_
  exact prime_1024_35

theorem prime_1024_33 : Nat.Prime 0x2e44698e6a1ae416f8a5fc4f90d51d21aee86d1673e1fa5466e67394d95785e3 := by
  refine prime_of_step (a := 0x1dbc1a3044151a6a4242bfccee622ad5722d318fc695c9cbbac1289e5bb44ff8)
    (x := 0x13c759714c41efa37d3d6bfd5b038889102b884992f778268136766baaf76a02)
    (y := 0x147e9cbb4bca6e6db661bf2bf859a5ebd28a2cb1efa574045be7bf7d4295b307)
    (q := 0x249ee9c92cdc73cfbb302480ac24ee2e4d6c578babc7309d482d3f97)
    (s := 44)
    (c := 0x270540901182206e0a81302b06e0b41a83406c084250270920981002705608c100230540941182f04c0901482404c090198210740d81382804c0882b823)
    (by decide +kernel) ?_
  exact prime_1024_34

theorem prime_1024_32 : Nat.Prime 0x25bdd8aa296dd20465218354cdf7582767ebd2325521049cd31bff2ba71fe44b79054d98b := by
  refine prime_of_step (a := 0x241d5e3a51a85e145da3a80b60c63151416f1201e63bc6594bd3a825016d88f6746b2ca4e)
    (x := 0x1968bf5edba41931d2ddf253ea5ca1453bae2cee730c4aa5ad415ee492f14ad571b6e7c55)
    (y := 0xdefe8759136e73d7932e4eaffd5aa5aaa288f2c5093a1823c7dd081b55eb73067760b373)
    (q := 0x2e44698e6a1ae416f8a5fc4f90d51d21aee86d1673e1fa5466e67394d95785e3)
    (s := 51)
    (c := 0x105a09c138250420cc108220400b81b8300460b0190210780c82383b04c09c120270400b81202d0760941482505a0b01003c04e0881482b05a094168370440b8108260480c412029)
    (by decide +kernel) ?_
  exact prime_1024_33

theorem prime_1024_31 : Nat.Prime 0x96f762a8a5b7481194860d5337dd609d9fafaa7d2339e776eca0eec515f9599fe1686406d := by
  refine prime_of_step (a := 0x12cdd3b2e63c634d9689db4e6a0103d789931d25bc28f30bece5935f38edba41efd03b21c)
    (x := 0x757709698c6504e29b408d2938431cfb5340bbf3895526ee92397f50e3b6e30035d138a49)
    (y := 0x31b3542cd9b523d4b00660b4b4ccde95e6628337bac4e87872efc7d30f29b7cb83c39caa1)
    (q := 0x25bdd8aa296dd20465218354cdf7582767ebd2325521049cd31bff2ba71fe44b79054d98b)
    (s := 58)
    (c := 0x9c1182c06c0c8110200440981182404e0e01482104e0c414025044084158340480982102404a1381202204e0bc1082604e0a01802a05a094108330a80a81182206e154138270460fc1802205609417826)
    (by decide +kernel) ?_
  exact prime_1024_32

theorem prime_1024_30 : Nat.Prime 0x26421ff598ebf2856a24ec4505611262ccc32424c3a7a3e99f9b3e4af8ea629688b76cd29a5dc93f05 := by
  refine prime_of_step (a := 0xd33ca6f5957988eee024ae225f3e6ff6c2e7129a8aeb040789f02f91993d9d4019543799888da9506)
    (x := 0x16d13a9c576f9e6d42308834b4a931eb6df2798b2e1094b501765a684118f9db8cacdb25da75951684)
    (y := 0x1375731a62e77fe3c9e0532ffa9f8e25c493e5c9191ebba4b003e314779fe1bc4a3796dd467dbb97bf)
    (q := 0x96f762a8a5b7481194860d5337dd609d9fafaa7d2339e776eca0eec515f9599fe1686406d)
    (s := 59)
    (c := 0x4e08c160360640881002204c08c120270700a4108270620a0128220420ac1a02404c1081202509c0b0110220580881382505a090158230460d8150280480d81482704c1141302504a110188250400bc29825)
    (by decide +kernel) ?_
  exact prime_1024_31

theorem prime_1024_29 : Nat.Prime 0x37964b5762b3b15a7ffcad993894ce2ab4e9f75fbaa511b16972f79c456d0b1b7ad5239ec7e14be633b53d := by
  refine prime_of_step (a := 0x2e5482feda9a2fb19ffca9e8e844128821e1e5911ef166128de0a9a0d3df33ead9594daafa2b903104bca2)
    (x := 0x99d20cf670773f0f6febeaf78033fba839db8781e832e8af360dcee1554d47f61ec6fc8da59c8e2bda776)
    (y := 0xce4f042b176d22fa58b5fb1fe96dcfef28b441dcef78f5a00cf934d85d7e852e5b62720a91f2b043efdb1)
    (q := 0x26421ff598ebf2856a24ec4505611262ccc32424c3a7a3e99f9b3e4af8ea629688b76cd29a5dc93f05)
    (s := 66)
    (c := 0x40bc140200cc094178360680a818826044080150360400c81c8260500801502f04c0841082004a09c100270420ec1102c04e0b0110250680ac1282c054098160330440841902104a080100230480b8158270440941082406e0a81a042)
    (by decide +kernel) ?_
  exact prime_1024_30

theorem prime_1024_28 : Nat.Prime 0x1f0cf415d02260118d7e24f8969b1f29db0eb12e7942b2f0bb1020cadaaa6d5234469e54ca47547df3b228c7 := by
  refine prime_of_step (a := 0xd2bf2e3a65081c2574bb457a19b7eb96eafeb68df3a38bfa410849d43c12f397c2967843ecd7e6f73a55811)
    (x := 0x11ee964ed0beb29204c924b2498932dc2d496db5fd1b3cd5f97f625f738499ad3e349afa969206fa1d752b6a)
    (y := 0x10addf5b0b6a6f07d908462187bd330109581fb2aeebba321b7e320913368138dc6dd51bf99d37df9155655f)
    (q := 0x37964b5762b3b15a7ffcad993894ce2ab4e9f75fbaa511b16972f79c456d0b1b7ad5239ec7e14be633b53d)
    (s := 71)
    (c := 0x3048084128270460981202f04c0941b02904c0883e82605c0841503704e0881283704c0981282b0440d01b03c05a0881082704e0b81002304e08c1082c0480ac100320460941002605208c160260440881382d0580bc1a03a0420f41782504809411035)
    (by decide +kernel) ?_
  exact prime_1024_29

theorem prime_1024_27 : Nat.Prime 0x1c2ca50e5c4abf93def31af1ca0ae24e902a051a5e3d3892c714885cd07655a3670d9a89db7f51726c2ba80bb188f71 := by
  refine prime_of_step (a := 0x136cb4ff719dab32d184db99f84de8b4e812b873d134d26a80929f4caa3317b8958905a8c7dddfd4faf88d850612337)
    (x := 0xc1fc88ac503731bb4e05f8b9f1a76a01d79fcc4de714725cf7796a30556d07ac36a8a49cc88fcc21f8f243c07e9986)
    (y := 0x126bf344ad594d5f244c38878a40ee8748501a3c51dcdc453e73b49e6f2018c50beb8a2ca086e010baac7c991faa149)
    (q := 0x1f0cf415d02260118d7e24f8969b1f29db0eb12e7942b2f0bb1020cadaaa6d5234469e54ca47547df3b228c7)
    (s := 73)
    (c := 0x1602004a0d41402605a0e01002108009c1782e0680801502c0400841282b05e11c1102405c08012026040084168240540c4130210480c41b0200700a01282605c0881102205c0881102704a080148220480a81102f04409c1202604e0d01e82405e0c814833)
    (by decide +kernel) ?_
  exact prime_1024_28

theorem prime_1024_26 : Nat.Prime 0x7a01a16715cd08392e0359fe06337e87b42dbbbc5e68ebe3b666247ec22f102cf6d6f821a3283844d662ef514860c040f9eaae65295 := by
  refine prime_of_step (a := 0x5626649e323015e3cac3391fb0c20ac11054bd866cd8c1c8255e3c7f699ee1601eb9f236fd33e338fcba719df67439e2c692b7aa8d0)
    (x := 0x23b7ac1f2f67ae7d0107f4cc109702a94638430f0b010444dad7ae839e175d159533d240389c92fa1bbba78009b7acbcb1cc0100511)
    (y := 0x5ad58b1a26ca6bc4f2f0623ab123a9b9b0015143ad1bd20bcf7c0a6cfaade83703e5d071788a54b644569267f8abdb342e61aec933d)
    (q := 0x1c2ca50e5c4abf93def31af1ca0ae24e902a051a5e3d3892c714885cd07655a3670d9a89db7f51726c2ba80bb188f71)
    (s := 76)
    (c := 0x182004c0a81502006e08c1002104c0f01502c0580d41782e0480cc150420460801502404e0e01104104e0941083f06a0ac1002a04c0cc148270400c4168250500901782204609c1702b0400b8108220640d81183c0440801182a05c0e8118220920901782f04e09011820)
    (by decide +kernel) ?_
  exact prime_1024_27

theorem prime_1024_25 : Nat.Prime 0x70f9f37a145979341cb8b9861af8bb32e706e5e3cd9ed2bcf7fa6a677552a8d0b0ec49dd25041b91439da509b660ad530536bc2e9f62909842eb := by
  refine prime_of_step (a := 0x1ad44aeb1ef479dfbad4005ca416f8af78e1d0f414553651ec0bf8f8bf3ed9b8ebcbd2d8d9c5219e75b27f88b7e59039b6320b712fd303774680)
    (x := 0x129ed7f469dac77f1ce2fdf3f1a19c822f7236a23ada45ac818d546704fe2b0d39e4ecc0c8c50a0219b5a9d784534b57fc73e47a22f4fb132553)
    (y := 0xbe5d0b6f11b333a26beb9cd4b5d51a76f5b3b098c760a7efabe82abd7fc507ccda79985d53d3c12b82838f540355a906b51b9a47772232baf4a)
    (q := 0x7a01a16715cd08392e0359fe06337e87b42dbbbc5e68ebe3b666247ec22f102cf6d6f821a3283844d662ef514860c040f9eaae65295)
    (s := 85)
    (c := 0x1a84004a0c41283704c0b4128280500b4138230700b8128440820a4158450400b01282004c08c120240480a41202b04e0d82382405c0841083204e138140290480802082504808c128230580c0100250520a8218280400ac130210520901202205209c188390800c01e8240440881182105408413822)
    (by decide +kernel) ?_
  exact prime_1024_26

theorem prime_1024_24 : Nat.Prime 0x14299ba3d981b7d17ce0379c1ef043e8a59b0b2717c2483c198180dd56c22ca57cf32c3d2884e569c37eda2beb7914d366b429ace5c5fe5b984654d := by
  refine prime_of_step (a := 0x9cf738b278576215c32c61ae5ee70777e5393531ca1802499d0a9bbac7b0cff817c0b30479e981a842decf7cbda686b4ff8502dd133c1599009ca9)
    (x := 0x6d8d1a0acabe3cd8c9d5341c26924020e7c17773293e87c0d31b8c5c5a0aabeef416bf62c14cccca4e43c0b3695082aad675b6afc7e95a61b4b31)
    (y := 0xaf20d7fecb0e852f23486f97d03eb7d8494326b16f340a717cf98699e15b1cde69c1b54b06d7b4280d3ecb78cf3aa8cfd1c8c6928034bd13c797a1)
    (q := 0x70f9f37a145979341cb8b9861af8bb32e706e5e3cd9ed2bcf7fa6a677552a8d0b0ec49dd25041b91439da509b660ad530536bc2e9f62909842eb)
    (s := 95)
    (c := 0x30400f41602b06a0c413826042090150250500dc118200460841882005c0b01482404a0bc1182b07208c1083f0480ac1283e0440981a82c0aa0841102105608c1102204209813825040098100360400a81202404e0a81804306e0c81002d048094150280560b81082804c094110210840ac1702405008c1104605209c140210500c412026)
    (by decide +kernel) ?_
  exact prime_1024_25

theorem prime_1024_23 : Nat.Prime 0x248b6a18fa3b1d2bb25664caf8137b15ac290436db1022ecee3ab9912d3f6c1283fb04e45f0cf73e3bf59a0e9b3472a6d44e9761c2b2749f3e0d73dd := by
  refine prime_of_step (a := 0x1e4136d886a2adace900c2b469000a221e099f70377fa4aa73064add27ce357baa03d025889612bc159fad9b01cd31e0a2c69c0a3d10d6fa77466b28)
    (x := 0x1b5f25e531aa6f962e355bee9d5f46554225a2f423d85682b4999bac55b38a19fbba7947114c1878479eaa36a7713da512d2535cde4f8f36092db2f9)
    (y := 0x88a271043b75cda532f309356a0293d2be3b4856305e4ae479d520304d02c679bd25716cbdbe084d62e4216f86890ad0ef708b26a619020c4608e25)
    (q := 0x14299ba3d981b7d17ce0379c1ef043e8a59b0b2717c2483c198180dd56c22ca57cf32c3d2884e569c37eda2beb7914d366b429ace5c5fe5b984654d)
    (s := 90)
    (c := 0x40e81082b04809c1f02108208c1e8290580ac298240560a0160240600801e8320420941703105e0ac1482c07409c140240720842085306c098170280520bc1102607a0d4128260400d4150200740b4130250560ec2702304e0981e82307e08011025056094170250500881702506e08c1485504c08c108280520a811025)
    (by decide +kernel) ?_
  exact prime_1024_24

theorem prime_1024_22 : Nat.Prime 0x3e0c056b0085cadde933e9754147d4c8e6d71b760a291e994af59c01700da3f683f603d290435e80c38e458082a6a1222e0b2588888d71a35325d8b8961ad := by
  refine prime_of_step (a := 0x663d3675a72a5e2cdbaa69224cdbd1c2e90b4f696b948dbac60237d4a682192fca3e110e6012ea9ecd08731c05de073ea9378587f7e754ba1ce529e1ebb2)
    (x := 0x1153819d7246030098ab099bb20b4823d4973dc35332d9fe03bbebdf57b6568149ae0e7645ee127fb0e346f84e76f4ef94ba59b8f3f50add162bd23194136)
    (y := 0x2a935d037c4b1464fc92be9de3f04f620c50813b79ce1c5e2cf155f9500a26f9a04e8edcd6550eb7d9792524e8813b24afeb5713c145cbdb8b160b17341f0)
    (q := 0x248b6a18fa3b1d2bb25664caf8137b15ac290436db1022ecee3ab9912d3f6c1283fb04e45f0cf73e3bf59a0e9b3472a6d44e9761c2b2749f3e0d73dd)
    (s := 93)
    (c := 0x81382905c0881002f06809c1b0330440981202f0420981082a04a098160380560f81902304c0c4138300400b81182e0400e01482404a0901b82404c0b41783204c0881e02e0600a8140560840dc1482c0400941602d08e0902702504a0a01682b04a0941982a0440b81103205a0841b03b0620981502d0540f41602805c0b41602d)
    (by decide +kernel) ?_
  exact prime_1024_23

theorem prime_1024_21 : Nat.Prime 0x57db66ad365b426c62df5c7f82b3bf86699cc8db6f04bfcab23bf952a967a1898c5bcb910b6be99387327fd31280af6c910488944461b33a1adb23b804bb037da9 := by
  refine prime_of_step (a := 0xfaaf3139286d57a5c845b914c05f35aed42795d9e774fc6d081746551598a2c384bf454b0d10e3295c4e9f820e68dde40751d587276c50ae0f735d43cdaeda724)
    (x := 0x10bca496440fefb211ef01511d9e916aca3eb7ee024651ab7786949a43d796c722815bb620b1acbba417048dca4ca6c933bcd809fca38a717ec5fbdf49f130f4bb)
    (y := 0x1f420e7134bca84576d02d79d24c4c6bcd4ce8d3c83c7f8c880697ca1287ed1ac69a39e0ffbabf129cb85e5cc3e93de8a0c614f35d1c9942774f99393067433a31)
    (q := 0x3e0c056b0085cadde933e9754147d4c8e6d71b760a291e994af59c01700da3f683f603d290435e80c38e458082a6a1222e0b2588888d71a35325d8b8961ad)
    (s := 98)
    (c := 0xb01c852046098240280460a81182406a0a81283d0420b41103904e0f41102f0660ac1282305208c1b042040088138240440bc1102605809815850046144118270780941404e0700d410827060080170350920801b82d04e098200300440841102004e080100230720bc1082f04e09c1382704a08c1982704a0881782106c0801183204c08017025)
    (by decide +kernel) ?_
  exact prime_1024_22

theorem prime_1024_20 : Nat.Prime 0x8317245dee4cda769fee211ad2d1eb9c7b737eb2997556cc631241daf078c8a231809f2f9494d7a5a5781be75922616b6564d51f01a7a686fafa46e5ede7cba281a2d325 := by
  refine prime_of_step (a := 0x3a069fc90318ee97f3ff90a57f265be72e47d0cea4eb094d542d4212684c9f38c16a7abc94229aa1acf8106cb5de656ce5a76408efaf3b04e25f660439865532a21353d4)
    (x := 0x404fe54f7b27cbb5c6fa5ceba9562028c4db68d329600a35f3b2d72d6f63d987102f1349e62136c7b77a9e0de191a35594bc088ffdb0fdb6f6e494e44adb8a2dd1a09859)
    (y := 0x6a6c2c5685b32612a1118bc9a31ae59a1832f83df8849c70ee64c3f82019db64e96cea24332a575064b667b2edc4b54903ae7a7bef786f45f275d1f73718fce99ab8c574)
    (q := 0x57db66ad365b426c62df5c7f82b3bf86699cc8db6f04bfcab23bf952a967a1898c5bcb910b6be99387327fd31280af6c910488944461b33a1adb23b804bb037da9)
    (s := 104)
    (c := 0x2605808c1702b04c0941582f0460941d02e0520801184606e1101402604a0901e0310420881282d05e0cc170230480c0108440420981282704815c1102a044084128350620801082904008c1202106e0801402305c0b01102f0560ec1082a0ba0841002a0700981202304a09c1002804e0801002a0400801483b04a0941683b04c08c17833046120108360960d017027)
    (by decide +kernel) ?_
  exact prime_1024_21

theorem prime_1024_19 : Nat.Prime 0x6b05e4b0af8cbe5ad8916906e61d615ac0c94a6fcf48cbdcdce1e7c3be529bcc6a6a014e6e35c28d1c48c0c29a80147bd02fce6708c0ef6c77a3aee4cd454104159b4bd8bcb1 := by
  refine prime_of_step (a := 0x6a65abf603db43fa80789b50371bb61e56dd129c1170caabaa2fede50810411015f49cfea0775121fe2d61512f4ded709c1195cdbadac11c7ced946bb29eac6cdb18247aa69e)
    (x := 0x6128c97fa4438323fc93cf17e048e0695af95bafaafc44b9e9ae8e8e08694f7457f3eae89ce1fb754196534ed2499eab18669a9f37697edb5dc92040c89901ae4c9b08ea0f4)
    (y := 0x3cf730a97b15bbbce434c9571fb778b8231790c810021847b9698fd275fa760422dadc85532a8452a10e73a9a4434fc3c7324937a5292d69a3e18ccc789f345dd1cd370124c7)
    (q := 0x8317245dee4cda769fee211ad2d1eb9c7b737eb2997556cc631241daf078c8a231809f2f9494d7a5a5781be75922616b6564d51f01a7a686fafa46e5ede7cba281a2d325)
    (s := 110)
    (c := 0xe41482d04e0a4120240460a81282e0440d8110440460801002704a08c1382304e0f81683707c08c1583c04c0a8108210480981302e0420a41483204e0a01202e0480a01f82f064080148290a40b01084704409c1102e0480881302204c0902583d06c094138200420c41282304a0981782b04c09c16049044090110250761181a02705208c108240460d41602105a0c82582704c0881782a)
    (by decide +kernel) ?_
  exact prime_1024_20

theorem prime_1024_18 : Nat.Prime 0x3c3350a362bf2b1319d1cb13e17086c30c7139dee498f2ac3c3f125e1b0e77a2fbdba0f894844f4ab301e32a6d1f71489232d3c306a74c6291eed1ead9b8a916f358ee6a04bdf := by
  refine prime_of_step (a := 0x31811f2751f8bb2f1dcf2db5ee3cd8c03cd8b41048f90240cdfbd713ad31cf2fb43f5f8b756fac8132f5ffde9091fbeca7a161401e3f65f35670880e72026110aabc030566685)
    (x := 0x298f9d11696d5803fb3d3ed5b5a867425cf3e7d6b738f91337d15c99f355c5c1942b09243d5b0797c5d58a888e678ec4213c682f4d17136973419ee27cf12ef2c2e04aefc6d4d)
    (y := 0xae4d25117d0e4b7cc038a6f2c08dfe8a1ac3684b0c7c5364f70e728f58cdc3414840e9a4fea82dd00e94819ab44a02998ae2bf3f3628e9a3742e671ec0a61d4e5c53c78166ca)
    (q := 0x6b05e4b0af8cbe5ad8916906e61d615ac0c94a6fcf48cbdcdce1e7c3be529bcc6a6a014e6e35c28d1c48c0c29a80147bd02fce6708c0ef6c77a3aee4cd454104159b4bd8bcb1)
    (s := 112)
    (c := 0x182607209015026040098160290420b0108250460bc1382004609c1c8230420801202607408c1303005e0a81502b08a0b013829042090118210460ac100350580801202c0540a8158240420a4110210441681582b06e0941183a06609c1b8270521041d0210441841382c06a1041a02b0420ac140290600901202305e0901602706c0901b821042088100220600c01c8260560941083e0520d413020)
    (by decide +kernel) ?_
  exact prime_1024_19

theorem prime_1024_17 : Nat.Prime 0x209d0cbf838ef0a5e90cd7b45531a601cacd9709f0779bf7aee36b435b4866701bd18bc47b60888018caeff1dd12d8046071f50c4398c5b5001551b398d81d8eb575431dd980004f := by
  refine prime_of_step (a := 0x1157660fd3fa1e917057f2939604705e10bf09766278694b3a29b67b37d3f0e22a831272a4cf9cddd26af7aa630051c74570524204bbc9c4dc760c8f34611d045acae0002c01675f)
    (x := 0x1bc62ed187937d13bc823fcce175bfbc1741a6ad0d6a89bca2c8948bec830437a76c3f1b35300b6a95c814440ec703d96ad3bbb64b1589153038fbdabb2d9fe48ac074411a9c3ffa)
    (y := 0x4ded71fbc1b4e21eabc412b58d7bc9f7de1de387ca181769cae369619c04041e8e443925cbcbd5e7f38d76867808f6b0a09858fadf2965411bbe6b53bad6821d399aeb193e589bb)
    (q := 0x3c3350a362bf2b1319d1cb13e17086c30c7139dee498f2ac3c3f125e1b0e77a2fbdba0f894844f4ab301e32a6d1f71489232d3c306a74c6291eed1ead9b8a916f358ee6a04bdf)
    (s := 119)
    (c := 0x480c4108220740cc178260680841303205e0941202705a0981902c05008c1402005c0c4188330640b41202c06e0a81783504c0981002404013c138210480801702005a0901a8290680901182d0500b01002104e0a019024044098130210700fc1782204208c1382c0460a41382005409c128260440901882804a088168210520801102704808c118270580981702b06e098138200460901582606608c108220700841602c)
    (by decide +kernel) ?_
  exact prime_1024_18

theorem prime_1024_16 : Nat.Prime 0x8009c132972ea39d6a1ad9e133fd8bffecfd379f9b321535b6d7e56c0a109b8ad960a903a33d2467b10059d7c92e5d3ebd8ada93c0e5c058b55aebca12d37c9ece2959dbd2775bcbe73e1dca3 := by
  refine prime_of_step (a := 0x322ac9cd19c655caff120f94ddeb90bc329e977080eef50c8ede4d26c2e068e2efde4038d736fabdf353e4868432718dcc03873063813139fb3e1ce644867320ef60ef3b2bf80877c67c91f56)
    (x := 0x4e6ce82a73557f7447f72110c35d8b377cf963676e96c36afbaa869b8a91513737816eaa581eeda8c83c96d040ee5a1f501d8a873f78e45d79bbac2b15701b70afb8f55a4310e54390d6260e3)
    (y := 0x5b570025ff4173a868acc812c6eca5aeaa28fce20f0d8e0fdc371fe89a342981e4a5bda688d7a59ef4f6a1be537cc6cb3c9e35791ebabfa6cef6f445b1598b2be4fe89a4a0045cdd7f33a694e)
    (q := 0x209d0cbf838ef0a5e90cd7b45531a601cacd9709f0779bf7aee36b435b4866701bd18bc47b60888018caeff1dd12d8046071f50c4398c5b5001551b398d81d8eb575431dd980004f)
    (s := 108)
    (c := 0x4205a0c41083c0500dc12024074084160270400941702c04a0801102205e0941085b0420981582f0460e8160280480901583c06a08c1183305c0941d82604609c1882105614c1a8290520fc1382c05c0c0100200a00bc1282604817c1202d040084170480520c01b82c0440c41003b0420a41482e044180110220660941682f05c0c01202f05a08c1302d0440801782406c0844d024)
    (by decide +kernel) ?_
  exact prime_1024_17

theorem prime_1024_15 : Nat.Prime 0x1e3c2e4eca14ff9bdab8936ee67be15daebca32fdfac098b6bd04ae980762e7407132c68d9ddb9f96e0636de1230f0fecb415deed2682d23a38127bcea23796cdd9baedfa5de701928a612eaec78d048831 := by
  refine prime_of_step (a := 0x1d365f998493f7161ca7fd2d5270ec7dd85466ef7040c0fa9699f5aee47a1add2b594f71a79b8f929d5af9cea19de49aaa3620fb303a999d2af495bc8bf06ee1154c0199033556d2bfdb27e1dcc09cd2674)
    (x := 0x1cee95b3bad282c28e2ca5667647389e8711142d899eee33b5eb515e1d7c7cfe284c1f9a14435e62fe028ff0ee204f40a3ff52443007d924424442e709fe80ebadd4ed1030155b0bb6157e1986bc6973574)
    (y := 0x92c52f84d36973583fb718f809cd4953c428000a3af9740fe0c1bdb8083794f812eaa9392727451593762db9df96f2d4ec890794c956e6702a430fc58a614c65cca869d7c2500a16125f88ed6b93aad166)
    (q := 0x8009c132972ea39d6a1ad9e133fd8bffecfd379f9b321535b6d7e56c0a109b8ad960a903a33d2467b10059d7c92e5d3ebd8ada93c0e5c058b55aebca12d37c9ece2959dbd2775bcbe73e1dca3)
    (s := 118)
    (c := 0x18015830042084138230420d81382d0480981102004a08c128240740942f0290e80942282b06a0d01582505e0e81102e05c08c1704504c0b825028050084118320460941302804c09c1802404e0941a82a04e0941f0200b20941b03d04e0841b8230441181602f04c0b81102a0480c01b8230700981482e04c0b81b0240540a0108250560b01503e0560c81082605608c1a82a0480b4118240420f41682c07608c15029)
    (by decide +kernel) ?_
  exact prime_1024_16

theorem prime_1024_14 : Nat.Prime 0x284d500eaf903aa34f693c961855f4bfc43a625b04f797a3c56c7dddeb26ac73081d2174a3ecd3ebe4d604130cdd05e718fb2b87df6902de082d4ce62279b39da6f0fb230f10a89ce599f7a565ce6da6737bf50875 := by
  refine prime_of_step (a := 0x1780266d733c3b951e7c3a8bcd9e802db5b300de37adb42d5cc38f86179fc680b07ae98c65fceeadbc2e0dbe84384412c3736da1e01e90e3a99df8b1d0b16750e8ad7c8590a15e839a803059ac18d9640a62c45a10)
    (x := 0xf2ded179c48954933e76b3eafc74beee8201391a25e0813236e88381804bcf4607fbe88aeac9db586bf386c31ff9eb2edef5b7dc68c8807a83b0ef2a8ebce3c07d0b9af268f47e84d94f0e3bb32c32bdc346bddff)
    (y := 0x196fc2ef87d7fca5b7e4733bbe846fb88896d00d1fc12f05ae35283b64259a2381885d632bba608d39416cf423d525805ca2fecc657e7485eae737802c5df42e1aeb5211e78ed77a2f1d5836ef1bfb9768c02a24dc)
    (q := 0x1e3c2e4eca14ff9bdab8936ee67be15daebca32fdfac098b6bd04ae980762e7407132c68d9ddb9f96e0636de1230f0fecb415deed2682d23a38127bcea23796cdd9baedfa5de701928a612eaec78d048831)
    (s := 131)
    (c := 0x7e090140230540d815028044130158240460981b82704208c1202d04a0b01602004c090170360480a8148210780f0130380420801182e06a1081302d0421001b02905a0b42983204a0981982705c0ac1182305a114130230600bc170230480801382904009010056042094140260480b0120250540941402604409c168330700a816024056088100330480841702b06c0ac16823046114108240480ac1c02f0540c8108280420901302405e0fc1282804e0801c820)
    (by decide +kernel) ?_
  exact prime_1024_15

theorem prime_1024_13 : Nat.Prime 0x26b0d8cf5943728b3008838e0834e50ae99e1cd46970c1afd553fb85bff40ca61ed617523e2f2823029c05c3cc3fba84c284c1d5737deaa6c4c575e01202f5e2f073a98eb974c3031728581dd035ca98c38a32b742c649 := by
  refine prime_of_step (a := 0x23b0b0734ecb4cd1e76e1aae8247d977205781ae531095aeda76c222da0f4d13a57a7515b4053c0a64a0c9b985e7b021ff86ec91be1c4db6118e5a146c27eb094b9c2c2c0e14e6b9628ccd3e7f978b7d8787bda2e427e0)
    (x := 0x149a7806720ef3011a9844586232e5f892330e28f0b385b44552f15430e70dd277a4ae36a4b16e6214ae99fd138e1bf37047400031c109558e5cdd5f620c7f0442f72c45a16653486e5230944d4131dc0da2f669963bd0)
    (y := 0x8675a7359bc13b444693ab366bbdcc9caf9dd9fce5a293e392e4cf20906ec02fbf48e9e3ec4f896e9226559013b811d633f836a7debd794ae7792d63a34e92737e9995abeb9563a8aae5ae11c8b2d9de51e874292a9d9)
    (q := 0x284d500eaf903aa34f693c961855f4bfc43a625b04f797a3c56c7dddeb26ac73081d2174a3ecd3ebe4d604130cdd05e718fb2b87df6902de082d4ce62279b39da6f0fb230f10a89ce599f7a565ce6da6737bf50875)
    (s := 137)
    (c := 0x81d0250441001202608e0c01682205208816025054090150260620c41303d0421101002005a0841002105c108160240420b01382406408c17834048090160260540b8130330420a01802404e0c41682104e1181082208c11c158260700c0108310560b41c83506e0bc2302a0460801a02c04609c1c0230480c014026044084158210400c81202b04a0b4120250560901003405e0a4100240400a0110200560ac1082504a0d01202204c0bc1182b04208c128210560ac160340440a01d822)
    (by decide +kernel) ?_
  exact prime_1024_14

theorem prime_1024_12 : Nat.Prime 0x24c9acdc0974961eed9790a1d546253ebe20cd75a58b08e35f22d60979615c4b9f1331b3eddb0f21a70347a166a6bd4b2883db531954179d4abc91e399b27bc61daa5aaf7b677f76d2c579a276b5d2da7106a79d9bfabe5faa243e3 := by
  refine prime_of_step (a := 0x11a4a3e1b0f1621e819ee4b61a8784cd1c7d7235cf64a39c10e44c8727ed631f0afc24e5f74c530314042f6a242b653b8e34c9d6dfbd3a587f4589e2b4d05feeb02fbdc7193979365fdc186033b53df09978be19f49a36baf0f208b)
    (x := 0x3736956cbbf50be095d295e10700059cff8f448e483ed60dd6525afcd53b90450c8641d28072437f6ba136944ecafb1748c64c355863b25ef9615f6ac034c4f6006cd2a45b2a9ecd175505e6751c17143be81a69661610a1453ce3)
    (y := 0xfe414c4f8e746ee8137401333d8681506678abf1c527f92689706a6f006a543cd8d122e87c5fa749ea43b7ba20b2d27ef421efd65052fc6e115f9c879126ceff41289575a9c621e70a6b209a8519f3cb22a6d478ada7a2d75ee371)
    (q := 0x26b0d8cf5943728b3008838e0834e50ae99e1cd46970c1afd553fb85bff40ca61ed617523e2f2823029c05c3cc3fba84c284c1d5737deaa6c4c575e01202f5e2f073a98eb974c3031728581dd035ca98c38a32b742c649)
    (s := 137)
    (c := 0x158260760bc1282c04c0a81882304209c13021090080218330600a01282b0540e81182204a0901d8210440cc138230620a0170340440881103c0460a0118650820a81082004808c1303105a0881382c0520901503005212815840046080120210400f0118220500841d0280420a0168220460ac1a0350440881703205e0981b02408009c2483e0480a41202805a0b41102f05a08c1082d0420c4208200460a8100260600901683005c0dc110210520ec1902905408c1682004c0a415027)
    (by decide +kernel) ?_
  exact prime_1024_13

theorem prime_1024_11 : Nat.Prime 0x3f5001abd0be6948afcabf292f273d8da7af03945468ab9c2aa82fc3b6d7554e23dda22d0878f57e5502eb512b3da59cc7f4194d1ea3b90c5b43d47b668d7f02d07b1d3013fadbc8fb2eba23033db30d312c03476fa17d1792146dd02bfd24f := by
  refine prime_of_step (a := 0x26679a9baecfaa15b8f4c867e7aa13df0ddf4d2e0d8505086239dbfedd15ee625377166df1ec9c74ea8328902ee8a03f32234a50bd560d0827b0ba10727a67bdb92db7172dd7139f2d73663a370eef7382f10d895d98611d140124673244985)
    (x := 0x1c53bdc9fc3c5a0da726ae141c35d4e27c53163d2b98ec096885f0eb38943f0c5ae62a4f2266ee4b39500b2d0555f970b7932d21bfb184e9f724e3e2c572937bdbce66f821626be065d49cf4016a3c6e7938914100a526c595ed82d4fc65bb0)
    (y := 0x1f2b3b66c8f9b2787787725b60648efe2bcd03aa217b3c5197b3c6e8bbce8f040bba836fb00afe3e985c09681c0a6d7573c104871a1a347f60e86277d3a1fc8d293a6ed2ca0ede7fc675ee83ab8165cc638f64fc5ee2c479de75e7df4d6ba29)
    (q := 0x24c9acdc0974961eed9790a1d546253ebe20cd75a58b08e35f22d60979615c4b9f1331b3eddb0f21a70347a166a6bd4b2883db531954179d4abc91e399b27bc61daa5aaf7b677f76d2c579a276b5d2da7106a79d9bfabe5faa243e3)
    (s := 153)
    (c := 0x1502f056098108230700841682a04c0801602405c0841f83a0400d81302705e09c110460580801402505c0d81282105e0981002706e0b8238200460981802106a0981d0230400841682c0400841083304a0b01182405c0801f82004a0ac2582706a0c4128250440b81a82204c0a8100280580b8110210520a8110390480ac1102104c0901502707e0b41282e0540b012029040090128220420b81302c04808c1282407808c118250420bc1303504a0c81202e05c0901382304a0ac1002804a0881a8360561101302c0420f01302704e08016029)
    (by decide +kernel) ?_
  exact prime_1024_12

theorem prime_1024_10 : Nat.Prime 0x728e10a61217259b06220554d2532dfd37f047a7f7a1cad0f5a6833c4be92956fc20d9991f1e6b9f6e6ce229c30ef090e10bbe0235999dfee710958e264ac0248f72e0161415827c208b902f505d3feaf959bed8f13d8071d04b646e7ab3a73f573 := by
  refine prime_of_step (a := 0x4bb5700455500901a1cf2206f943a6826ae5870999dfe44400e8ee7824a4b2f3b5733a51caae87797d21468eb61bcbed8122d08c1a6538c2dc71e58f018173792f22a80cd258cfce3bff28e6c1c13f0030393eb3ef2c597aa6ff7de8d23e0a54772)
    (x := 0x460f42d830596c8051cb1cdd806b2d027a6c3615a2ea448894664f040f3e58c7d399c3cd6a6a8ccaf1d921c47ffc9719ab4ca0011d662d9d42b8c82c342f28f0ac57e471c3b74360fbba7084be17173c8b68e924cbeb3b6a95d68f9bb30952779fa)
    (y := 0x194fa6616b2a3f10dcde2eaf4905fd16fb49329800b013b02595cfcec506d7a8ecc12240e1482e99f8098417db69537f196a96f380c75b64034e3078afc54c97d0809df6a63bfa3ac1d5370d52ac896fba88c396800f1b90488a37ca5d2916f75a9)
    (q := 0x3f5001abd0be6948afcabf292f273d8da7af03945468ab9c2aa82fc3b6d7554e23dda22d0878f57e5502eb512b3da59cc7f4194d1ea3b90c5b43d47b668d7f02d07b1d3013fadbc8fb2eba23033db30d312c03476fa17d1792146dd02bfd24f)
    (s := 150)
    (c := 0xd01107304c0d41882c05609c1102704c0d010826068084138210480a81682c05e0b81103e04812c1082704c09c1282004408c1583a0440881c8340400d8118250460881102206e09c1602404a080148250500801f82c04c0d015022082090130220640981282c04a0841282d05e1341c82a05609c1f0270480dc188200460941003e04e0b01702b04e0b81e04104a0a01602f05a0842904404c08c1a82708c0841b02d0400a4180250580b81082004a084190260800941982307a0c41e82906a09c1d0290460b41802609809c15024)
    (by decide +kernel) ?_
  exact prime_1024_11

theorem prime_1024_9 : Nat.Prime 0x1c31553a54aebc4bcf32976571987670a4ef7177ca99953e544421e4e6eac85f3e5303422c1d9a928542f0ffc4e8350ceb15eef9c39ff8426447ae02a86797be7d8bff9fb0d31c2f4ec405378d5275c839b554c888fcd38435b13f3f3372f18bdaffe42ea36e7 := by
  refine prime_of_step (a := 0x11417697f0be7fd6ea8d8baa3b6d786404dab148e88c6129b7efa7a0dcfe1027f3084117ef8950f304b9dcebdfc5f544beaf087e76f1030637d140690060cd43ab83cdae5deb7a7fdd3acc0da63a676631a3af27d2683020e3d2afd77ffdb038681c227c62de6)
    (x := 0xda5f698c5844cf2d9394e143123e1d8a3c4a48bd9bde4c7dc59a733c1fef499ea1a1f073ffc5d3f8654b7e44f0d3d14b8445fb99d8e5997818e3e371745e2d643c06bb471c6418971d6eae282e2b6fb3db16b71d696dfef20a79328453a2af5a34911b5fdff8)
    (y := 0x12ab2a8c0a7f4d45bf4436f5cf717733c2914225bf74441fe1a88c158bbb993b717f8c2da555fd489c9f6cf5949c9ed6f5e95b8c7d438f591ffe9307c7adbe8868fbb59f20d1472f07149fa5f5a68be8013905a74a7411172b414afa309529c6b3ede6204fb57)
    (q := 0x728e10a61217259b06220554d2532dfd37f047a7f7a1cad0f5a6833c4be92956fc20d9991f1e6b9f6e6ce229c30ef090e10bbe0235999dfee710958e264ac0248f72e0161415827c208b902f505d3feaf959bed8f13d8071d04b646e7ab3a73f573)
    (s := 154)
    (c := 0x60a819828074084100270620dc1082505c0e4100200700881102104409c1102f0461341583c05009c120220880d41002d04c0941002c04c0881282804a0901002106809c1082704408c1a0280860941282504e11c1a82e05a0b01182d05c0ac100320560c4100240480801383b0500c41202c07009c1702504a094120440460ac100280420981983205e0841304805409c160370461001303a0720982102c0500c014837082090110300460882a0260580841302b05808c178240640f82003705a0a01382305e0cc1683e04c0ac1102d06808811821)
    (by decide +kernel) ?_
  exact prime_1024_10

theorem prime_1024_8 : Nat.Prime 0x2539228703ceb49c1790cbe3effb4c60b9c423d0297ec70c4b41f4c038e1fc8dc0499a4d5e3f161573f26231b1fa960b0e62f58695f6bbc0a591365f7d47d4ecd027b86c0f690fdbc00149adee14d53e19f749ce6b781c95625d4a817e44c26900c6fda049a053f := by
  refine prime_of_step (a := 0x17bee8881965b642d49923d1dea516154637e1534d09a841b87d4b3d07778b030562249d01784a1b2e475b98b152b96ade902d3701908330f23f236e271fe53ee1e77150adacdd97dc4a414ac1d01d7479324c4633d55199b30b0b64c032208e8bd0752ffe480ea)
    (x := 0x1927e09fca0d0b4ee143db246013caa9f95869c9c74294d705667fd5f1e8101da122f837c9a3bdd655553f58e660d510d8eb652aacbc73733731e5945b8d6ee3155567394153ad51b0a1db7d114a64a88588afad94dd618ff0c03d9e231fb365ae2558adfecdc58)
    (y := 0x109d0a26fac37d37e3c260a266c3a52feb43f6e4334e467c7689f02a62578586adec99e515f8e84e81c6b2d2fb8724896b7ed80ebc436317261027baba91ae0089cdcdd89dd94222a5049dfae9ae91115fe691128a28bebcc268de2aea4da79f4cd5e34550395b8)
    (q := 0x1c31553a54aebc4bcf32976571987670a4ef7177ca99953e544421e4e6eac85f3e5303422c1d9a928542f0ffc4e8350ceb15eef9c39ff8426447ae02a86797be7d8bff9fb0d31c2f4ec405378d5275c839b554c888fcd38435b13f3f3372f18bdaffe42ea36e7)
    (s := 159)
    (c := 0x30620c81102205a0a81102606c0901002106a0901082a0420d815023052084100360560e81502404808c1482408e08810821054088238220400801402007e0ac1582404c0bc1883d0580a81083004a080138260500901282e04e0a814022062090100540640b41c8220400941b02f04c0b01202c056080168540500e81282704e0d411852044080128240420b01e8460521b42702004a084198310480881b0200a40ac1f8250440a81b0370500b4170220440881282704e09c228250560a01002e05c0c822834042084118210480a41482c05c1dc1883604e0b81182b)
    (by decide +kernel) ?_
  exact prime_1024_9

theorem prime_1024_7 : Nat.Prime 0x71fef9bd7ba9091e082b706a0ef199e838e8adad7f144195a679fd8cae3415721ce1688cf0a133a1b3164cb8310f6b81dc0f0fec8660bf32d73de3cedd982229176000e62522d6cfd08e87af1143d6ef1c13dde6b38f1518d0aebaceedf01749a510a19a222aa1cb := by
  refine prime_of_step (a := 0x6f0c855e1754fe827226c821d7c0e0e16a69045bf766cf51cd583b166fd080213238e3919fadc5c93f38884ca52b96d4a11aa4f7ce1866b13eca52ec70027bff7ff0e87c00ef94cbe2e491da6e3de9546a85fd0def39a1861b8b6c78aaba674d5909e87bbeda1f87)
    (x := 0x48097aff06b2dd72dd64c41eb0c961963d0f556a5b1daefbaf34a9639911cce297e8c98966ec9f4ba3d56b0c45a826c8fba70cdd2019e4c9efba50ee9ee8a092fd6ae5157028c6d9a662dbfa5b514c97902ba2960f15c721c4d5479c5c86fd99e580d72dae6d8655)
    (y := 0x37a77ad5e574b4fe9540b5563ac01caac2b1c87fbe81276dc060b535bd640c661a01f48cbbaf2e8d993e24d729abfcd401f6cb114c0a275522562401a3b84952d33468f97240c37521ebe72c8acf99a0b4fe2857c5810c849c79530203a965ff9258af082d33d037)
    (q := 0x2539228703ceb49c1790cbe3effb4c60b9c423d0297ec70c4b41f4c038e1fc8dc0499a4d5e3f161573f26231b1fa960b0e62f58695f6bbc0a591365f7d47d4ecd027b86c0f690fdbc00149adee14d53e19f749ce6b781c95625d4a817e44c26900c6fda049a053f)
    (s := 155)
    (c := 0x4e088168270640ec1803505a08c1382b0720fc1882108e0d02a0250420a4180230560801002706a1281084e0660c41002104a0a01e8210b60cc1005705208c1c0270420ac1382b04c0fc278260620981684f0420801483305e114110260500981d8210520b0130310440981a02e0480902502105e0c8170210681181383d044090128250940901182005c0c01202304e0801a023048208150250460901183a0420881102c0400941a02d0540b4168250460902582a04c0981002106c09c1104109e0801082805609c288330780941c02a04a0e011034)
    (by decide +kernel) ?_
  exact prime_1024_8

theorem prime_1024_6 : Nat.Prime 0x2516c48648c976e07f5b6ab74dd3ddb2ffadfe76b604e85034025cbe6854f3d97d7851a4c2789e3bdff2afc84c9f569a4c949c954a2dbe7a1e523170576e62e0381eb42428e57079448bb666b5e17221f7a026cc598d34b87ef803ea27b16ab0b4e189a8535c01377f882f := by
  refine prime_of_step (a := 0x1f1576e864ed99cc6e4256135cebbdeb9272f6b92435d6736b2720765575c830e749589a604eaae2f3c2422b551029bb8eb021b6c6c3e5cd02f9db5c5ec363cc5bcabcc9183592bcd372880c6760efe21b059da4eb77b73dd7cb366ef1bd44f5a2471f5351683c72343dc8)
    (x := 0xf1f450610d2b646b18199275f68c626f94df74b55a88003bf14043086c2f881a299de807532031c2e2554fc8ce1359fef144f23151a5a183a554473e2125f74e17167b44825b8c47c537b8157a16736bfdb4800d27f727648c15d08a5673f99304b1d7187575adcd8da27)
    (y := 0x560c656aeaf67844ad5ab09ddb8a5667544cf71e1491ed0dc4de6d91cc6407a4881e7a47b2cb54773d3110811f33bdb046f0e4835303ec7a1e485ee1736fcd411dd969f6d0c7f0c05129948ad0a080fd884da6d3317b7a493064cf982661916f4c5c1dc7b9e9987aa7077)
    (q := 0x71fef9bd7ba9091e082b706a0ef199e838e8adad7f144195a679fd8cae3415721ce1688cf0a133a1b3164cb8310f6b81dc0f0fec8660bf32d73de3cedd982229176000e62522d6cfd08e87af1143d6ef1c13dde6b38f1518d0aebaceedf01749a510a19a222aa1cb)
    (s := 163)
    (c := 0x6e1301602b07c0b01b02707409c12030072098118390440a01203f04a0941a82806e0b41902305c0b81e0320400e4108260440941a84405e0941303704a0e4130370760ac1402304e09c128240740e81282d076094178260540bc118390400801602504612c118300480802202f0620841c8340420841702d0580fc1202b0460d8108300400a41382906c20c1082004209c148250460942282004e0b41003e0480801902006a08c120240661081602406a0b81283707e0981382f04a08013036048098158230460b02482d05409415020074080128250400801002204408016826)
    (by decide +kernel) ?_
  exact prime_1024_7

theorem prime_1024_5 : Nat.Prime 0x32ff4e38a4150374af1db2bc0b0350d61f8f3de33a46bf6e47833f85cf74cf4b0c8570428b65d99253edb1b3695b1714294c574d45fe186a120be2f9403a3b0301d360466e8909e01541ccde067e10069e4296dc2fbca7a3523f5806e2869c5f13fcf3f8acf1ecd4de8140af := by
  refine prime_of_step (a := 0x19180a0b9df1f5828f0e9d07321e13758d7f5f77effa2d6f274095193551dbd7b8f47430ff8362ee9b136fd22fc73c1e3cf4cd7f6b95697945d51649e2a6cfd4c8026c536b373dbf886d9591d26ecaeef069e8b57d13aff2e77480a5ed6eef7bfda51a96cf0133853088be4c)
    (x := 0x288e91015d45b9b64e81bf71fa5d25f2f11f942576defb295adf8345819ce5c36a3ac58aa9a6f910749132d5a82b3d9bd1db6c80481f4f54bfd16dad8ef874931d8e7cc0a4c9ef24b78cecc771c3b0b7cb043edb69e21a52dba1e850e22f20b5671ad8090f977a088c430ecb)
    (y := 0x11e6db2caf7e70b48038f2386289fb27d91610fd73261b6b0810fd6506a3e4899589972a795655b388ea8819b31ea6a609c4f73867abafcaceb4ae954b51e41ef2c98c7ac7c4cd9df6f78c3f9b989bc9ecf19ae7fdf08c722ec63323f2d97469a14869d0ed4afb63f860f40)
    (q := 0x2516c48648c976e07f5b6ab74dd3ddb2ffadfe76b604e85034025cbe6854f3d97d7851a4c2789e3bdff2afc84c9f569a4c949c954a2dbe7a1e523170576e62e0381eb42428e57079448bb666b5e17221f7a026cc598d34b87ef803ea27b16ab0b4e189a8535c01377f882f)
    (s := 167)
    (c := 0x540801182f04e0c41502705e0841b0230601101302304a0881182d04208c1102c0480b81085d0461541202e05c1281683a060094200270460841e8250740881a83e0421181203a06609c1083a0480c81f8240581301082609e0a01082a08c098110250540bc1502a06e0a81102104e0981183d06a0801202104e0a4100230500981b023042080118530600f81282004e0e81982a0460a01202104e09c100230460941282e05c090188370400801a0350a40b81082904a0bc1282b04e08c1003c058120160220640f81002304c098188250560c4100210440a011025046140158240880801c824)
    (by decide +kernel) ?_
  exact prime_1024_6

theorem prime_1024_4 : Nat.Prime 0x2734e752eba567b824e104f931377c959e234fc4413d840bf85a97460f8dfd9de290565e28cb3d54cf262d2dbe6f57ae300000de185f6958d61c4fbb26333749b0c7057ffe7db8517cdcb275862fcc98d28d9bea4e96f1a8015e71ae6260d9a0ec485c7e9b6dc5148be6bc117af := by
  refine prime_of_step (a := 0x1525f665cb93635800bf14210b0bcfa647b54f9259a02059be4df1c5c0b295d1fbaa9b00a76a677d2915e19e3a2cf6bb05cce88913faad3c0a6d1d6bd377445e870a1da183c370936ce169735943736871221eb36a626e0d6c8005d4fa41bc7600ad8a528fb2bad34b2a943ccba)
    (x := 0x179242cce4e7b6d5ef4c08e653a413f6f0c291ee62b691e2a111f837cfe6c4270a9b9e6e057a5b52c653f9d3d82c488f743e135cf170be60556c86b1e28a4d19d34fa09dcc71eb83b2eee943808508d71b6fbefc525fff998eb10ae6698a2600a36920ce1997e1e5c16e3775c25)
    (y := 0x238fb1a3dd1f704b963e4b88fd05e3c035183d22d9711884d2f7aad86104ef0c33c239368f2e132244de5293b746a837cff2a9acfc33dc4c0892d5ce24a0dcfee8f444e1474df9c92706b8f8c7e6e5763f7ea3f9997d2a798e734e960d337fe8b19533597f6e95b709f74fd0736)
    (q := 0x32ff4e38a4150374af1db2bc0b0350d61f8f3de33a46bf6e47833f85cf74cf4b0c8570428b65d99253edb1b3695b1714294c574d45fe186a120be2f9403a3b0301d360466e8909e01541ccde067e10069e4296dc2fbca7a3523f5806e2869c5f13fcf3f8acf1ecd4de8140af)
    (s := 164)
    (c := 0x8210aa0ac1982904e0c0110410460881302406608c128260480c0130410440ec1302009e0d4160240520ac1102705c0d01182d04e090140250780c416824046088128240440981002f07408c1803a0520b8108360420a81382205808c1703304a0b81102605c0801183206209c1102f04c0b41082205211018831044080138390580a41602a0800901383608214c1102e0700a41582404e09c1d0240b408821821056090180250680a02c82207e0e81082e0460c41a03f0440b01382504409c1e0260a208c1902004a0ac1482c0641541a85704c0941f83e042088158350940c013024)
    (by decide +kernel) ?_
  exact prime_1024_5

theorem prime_1024_3 : Nat.Prime 0xb878ed71e836d78412c39a27d5c010e2372c20e7c0728b41b0777cc860e707f24f1726964a8f941dddc10eaca158d309f5e964eb7a0345140eaa8d7321bd57746f6b2d527c9b6b713da45e7c42a84e18fec7ab33ff9f9ba62d68672697afcc9f4d3df95868ec92970462b88f01f1b5ed9a117d := by
  refine prime_of_step (a := 0x7596706e08caa1542fe3faf6f58966156f84ec8dbc8ae27f349a033061b2b43924f0d0bc9e4f8b53696c16d3d720aa73a2bd315bb691cdb773a41b49635abffadfb916e6bb37a74b2d47d66d25ff7e21e5c5a30632a91b5af485eaebb008c2ce56a9bfe006ff97d3898848baf841bed1d6faab)
    (x := 0x71cae292d83c7e03b3bfca8e30fe58f4f9280ce7a6d21e73ba41410b05e49c6a1b968044b852cad32c8010c6b52032835139dc6bc6408141aa58ff827f5ff4f8e4cfd9303b4afc23dec2a9aa91d652c8b26595cb1e6f18f5828fdc95170fc6d1a2e631ec3439079c147e4149f018fe23200c15)
    (y := 0x2fb361252b52d00e828765da1087ff1fab54ca055d731aa0755636b0236029a70f706f376dd4ef1f12596b5630eb9e625e091fc23de9c9b55ba8c84a29356804de10104b8b18973af276c3f5ede85be35af4c150f958f75838f4841b3621e545199ed808a81c656c2c363cc941276532dab610)
    (q := 0x2734e752eba567b824e104f931377c959e234fc4413d840bf85a97460f8dfd9de290565e28cb3d54cf262d2dbe6f57ae300000de185f6958d61c4fbb26333749b0c7057ffe7db8517cdcb275862fcc98d28d9bea4e96f1a8015e71ae6260d9a0ec485c7e9b6dc5148be6bc117af)
    (s := 171)
    (c := 0x205a0941582b04408416823044098128240460a01382b050108238210400ac1202c054098128240400a4110340400802103e0501041e02004c0881082d0520a0160330880941202405209c1c826042090190290420941a8220440941202a05e098110260460b01582c04c0d41182917609018831068094108260660981d832068090178210520841582d0540b818833050098428460460e81482c0560b41302a048098188290680841502f04a0841382e0560b01102a04809c118240520882802606a0dc128230420801084304a0941402405e09c1883708a0841182e0460c8148270520f4170240600a41f024)
    (by decide +kernel) ?_
  exact prime_1024_4

theorem prime_1024_2 : Nat.Prime 0x229316a9ac1cc741e4b3488abbd04f620656b827a35c605264b44f9f0d0d5157eb0a7636bdbca249b65c98a50b7d37c62a10f39e20fdfa9dfdcb6e6b4a73efb32b8dbe564e430bf4416295d79307d1099b83b5f59c5af794acfba3d0fcd0202ada4a0c148c3bff3e4ed761f46651b6d9ca99dd0b9a03b := by
  refine prime_of_step (a := 0xc75061797efe511e6b1dc522f55fe21d385f654562c3fc17cc761876ae61484f723def0eac644f93247a320b0cde0dc5f942bacf0c9ff17ecdf2e4764bcb7f5b55e1ee819c95676a7b377da4818124c1e862c11b0ecfe8100a293a217faa506ac1a4d2c060873f23b21599f7033ee48404e8dff106d)
    (x := 0x3a16babe903197ee2298e39eed4e471528f7802b2370ae58cc2823055f64fae3b075779069350f01b2107d88981bc3a651132ffaedb5fa45332a12989192aa67f320d595e9880ff6a4382d014bbf830b27e153140add9b9b82bcf05d0c075373a6b1230628154f3fa217b5ea165f0085eb65d20f750f)
    (y := 0x8cb16c27dba73a5e2da44f0fb32062b80b64e75835f9d55704d60826227b7fc1de5a8c45f6962958779f4e32700a21023cd3b252af072f1d1ac6dd9c0ec27d59681081886a202303fafbfbddcb57846a7c496ab57474ba8dccea4d5a69ab0a97a03ab5e712feaba0f53b0c6655250ac57bcd38159dbe)
    (q := 0xb878ed71e836d78412c39a27d5c010e2372c20e7c0728b41b0777cc860e707f24f1726964a8f941dddc10eaca158d309f5e964eb7a0345140eaa8d7321bd57746f6b2d527c9b6b713da45e7c42a84e18fec7ab33ff9f9ba62d68672697afcc9f4d3df95868ec92970462b88f01f1b5ed9a117d)
    (s := 182)
    (c := 0x8c1003f0480b81b83507208c170240501081302005a0941902c04408c2803b0400cc168260500a01682c0a60a8148250500b8140240480f4178310860ac14057054090148370420881302a04c09c1602a08608c118230600801b0260540801302f04a0841d0460480881302a05a08c1a83804a0c8190300480981302705c0b41783b07c0981202d066090118260420941102a0580a81702304c08c1902404609c148350580801d0220500ac1002f0880bc1602604a094368340560b41082905c0941882b0540941083e0680841503d042088160340420981d8270480941382104e08c1402705e0981b8270480e01603305c0901182504a0a01483d)
    (by decide +kernel) ?_
  exact prime_1024_3

theorem prime_1024_1 : Nat.Prime 0x115dae996f64ab5d4e60a35216117cdc49da08fd8e0f7ef9be83c647315872ae5d12cdc905e2cc27b8af0d7f5748bc4ce68d37c4cb05452a898dc4fc4f05e3da0883ccca7d8a038ead2012fb5305fea26c1e9eb2a9025b051cefeef4102ddf15eda74322389064c6fe717d44fcf0dbf2073708aee7b87c1c94073d := by
  refine prime_of_step (a := 0xe4f6db588417f3079e8ee675d2475a62ee8b8f0fd94265ac0c1e13d8145f651573896f8becd1bb187510d33c8c0f4d9ed764aae2a483feaa173346e6fd703f20b1132824fbbcf405a8525c39eba14121db7a2c4e053bda55d42c94910087d65226d54501ef0725cc1ce495794c3cf8582c9336c296c345b86723f)
    (x := 0x8f0208fc54eaefe2e4b5f5f95ebf218ba94c0d568546df4dbc512b9f63b762f0b5754742ffed93a5ad3917c7fad2961956e051ed83a4f8a6a4196f904332ed83417dd7cca9783bbbfb2934291b20ef81f4437a450cf3661b4e81fcea40422a2bb42ef01e560a8cd96b70dcb5c21a92409ea353945f2138a4b9a3b)
    (y := 0xc9b9b8c46f049696c0f9d5af659a0fcf31625005891dfc337c72159fb157c2572eb6785fb8ac81614e170e16aec095e76066545f6155243aa82c03a830072eb6ed4d512d9edcf1e23917195faf9918e9dc24f850efb30a7692a00be04c9f9dc7b20fc2d536024e3f03c509001844ae78cab736cec98a02eadc47c)
    (q := 0x229316a9ac1cc741e4b3488abbd04f620656b827a35c605264b44f9f0d0d5157eb0a7636bdbca249b65c98a50b7d37c62a10f39e20fdfa9dfdcb6e6b4a73efb32b8dbe564e430bf4416295d79307d1099b83b5f59c5af794acfba3d0fcd0202ada4a0c148c3bff3e4ed761f46651b6d9ca99dd0b9a03b)
    (s := 190)
    (c := 0xa4138210520941102b04c0a01682f05a0a01202a04c0ac13820052098120350840f81003004a098128230840b0138250460a42502a05e0841283207a0b0100250400941102904c0f0130280440d81982e04808c1202a06409c1582e0420dc108320540a01183d0560b0148200440a01003505a09010028078114110240880b41302305a094118270440b41a0460420a8118290460b0108260540dc1883108a080140260400881303607e0841403d0400a0108210460a01202e0680981582905c0b01f82204c0941a02404e0d41004504a0e01c02604c08c1382a0720e4138290400903282c054090170360400f41482104209c1702305c0ac1502204a0901683105a0941c036)
    (by decide +kernel) ?_
  exact prime_1024_2

theorem prime_1024_0 : Nat.Prime 0x7757855cd6d9c6eb4e19fc057d47e2f4303930c3baff9e05cf5118a64e12b2bb6b3a6fba4b7540e99c1da409eb496370706aec71285cc5f24724ae0eb044ed68aee3ebda30aa6b5b67477a56b4d8aea4c12acd94bde78c42e294fab333072bf63476de1e02b9366017ea65fa4bb7554d7ea89c7f41bb21adcfe30e97e0758371 := by
  refine prime_of_step (a := 0x4042feb9c6a717fdfb2492350301c8ef1ea48f9e7795cc00ba4fb85469821b04c6f7ed46eae04fc804c7f5ffd0072a293a271baaa89424059d0611043f74528f31feeaa58d3af3f9cd6665f4220dcc2c945918a464a47638c3cb3c741042fb79effd5dc9f68987d5dd3576bbc5d9f437b7294ed4b9c9a3afff6e199e0c1b5b77)
    (x := 0x3ae59d441b7739d9df02523219fa825e11658bc5a9d4ef51d301b51b3c9bdf0494f62dae128091c45f0a88bfa54a91d0c4417cb9c3b25edd6b611ee5538b59124f242cdd1244f1be7b8961759e73e5d6d86d06f9fc3ba397cecbfa2062e47ce34371c35ab03c83eb05958b25bdce86453f99ab6c1cee83af4fce5d43b70e46da)
    (y := 0x16f03f49bc54e12e6fdf8e937a24b99e1cb084aa46c1fb7ca919b5ec4d937982ac0265f7f50f4608e5af46870d2b8d6c85490ee2d6f6ba26b42f8add610bfcb62be8a94fcdc9ac3e0ef6a5b251231587c371f412437d2f9f5e1e595564e51409df3c17f6779aa1266e7a829e3bc0ff3c36dae80fab5fe7709269ab9806ed2a99)
    (q := 0x115dae996f64ab5d4e60a35216117cdc49da08fd8e0f7ef9be83c647315872ae5d12cdc905e2cc27b8af0d7f5748bc4ce68d37c4cb05452a898dc4fc4f05e3da0883ccca7d8a038ead2012fb5305fea26c1e9eb2a9025b051cefeef4102ddf15eda74322389064c6fe717d44fcf0dbf2073708aee7b87c1c94073d)
    (s := 195)
    (c := 0x4e09812025046088178230580bc1082604a08c1102b0420e41382e04e080130280520b0108230400a81202505009c270330500b01e02c0560f41403f05e0cc1082904c0801b8220460841683204c0ac168270720fc130210740b01b8260480801704404c090138290480801082b05609c1282b0580c8128260600881902a044080108290460c81a0320480e41f82c04a0c01002806a0941782208c0c82983304408c13848042118110210721101103205c0a0120220580981082604e0e01082e07209c168240880901a83007008c1204704c0b01702205a0801282704e0dc1382805e0841983c0560a4160220641141203104613c25821046080138260480b4120230400b0140370540e016835)
    (by decide +kernel) ?_
  exact prime_1024_1

/-- `(N - 1) / 2` is prime, `N` from srp/src/groups/1024.bin. -/
theorem half_prime : ((Srp.Groups.G_1024.n - 1) / 2).Prime := by
  have h : (Srp.Groups.G_1024.n - 1) / 2 = 0x7757855cd6d9c6eb4e19fc057d47e2f4303930c3baff9e05cf5118a64e12b2bb6b3a6fba4b7540e99c1da409eb496370706aec71285cc5f24724ae0eb044ed68aee3ebda30aa6b5b67477a56b4d8aea4c12acd94bde78c42e294fab333072bf63476de1e02b9366017ea65fa4bb7554d7ea89c7f41bb21adcfe30e97e0758371 := by decide +kernel
  rw [h]
  exact prime_1024_0

end Verif.Ecpp.Cert1024
