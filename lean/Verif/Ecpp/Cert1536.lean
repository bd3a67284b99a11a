import Verif.Ecpp.Step
import Verif.Ed25519.Primes
import Verif.Srp.Groups

/-!
# `(N - 1) / 2` is prime for the group `G_1536` of srp/src/groups.rs

A certificate of 68 elliptic curve steps, checked by the kernel.
-/

-- Keeps the memory of the finished steps from piling up.
set_option Elab.async false

namespace Verif.Ecpp.Cert1536

theorem prime_26450939918801 : Nat.Prime 26450939918801 := by
  refine pratt _ 6 [2, 2, 2, 2, 5, 5, 227, 7321, 39791] (by decide +kernel) ?_ (by decide +kernel)
    (by decide +kernel) (by decide +kernel)
  intro f hf
  simp only [List.mem_cons, List.not_mem_nil, or_false] at hf
  rcases hf with rfl | rfl | rfl | rfl | rfl | rfl | rfl | rfl | rfl
  · norm_num
  · norm_num
  · norm_num
  · norm_num
  · norm_num
  · norm_num
  · norm_num
  · norm_num
  · norm_num

theorem prime_1536_67 : Nat.Prime 0x34c8d85df28698e27 := by
  refine prime_of_step (a := 0xb07f1b230af2d44c)
    (x := 0x280dc86f230c4ebd9)
    (y := 0x152aecb1621d7b618)
    (q := 0x180e96e0b9d1)
    (s := 7)
    (c := 0x10a6088130230720b416820)
    (by decide +kernel) ?_
  exact prime_26450939918801

theorem prime_1536_66 : Nat.Prime 0x2bbbc35f178222641e7282f := by
  refine prime_of_step (a := 0x177b4ad569ba1aec785ebd7)
    (x := 0xddc1b9df2674ebe216110)
    (y := 0xe9e7a23fa9e3b8a2eaee16)
    (q := 0x34c8d85df28698e27)
    (s := 13)
    (c := 0x41102504e0b8188240580a8100250420cc1002b)
    (by decide +kernel) ?_
  exact prime_1536_67

theorem prime_1536_65 : Nat.Prime 0x9def930ce865860bf3e87c2c53 := by
  refine prime_of_step (a := 0x7297b2c1a535d2722fed326375)
    (x := 0x47fe4fc8b94275a06361b3cc1a)
    (y := 0x2680a50dfc57ab791fd2b7d585)
    (q := 0x2bbbc35f178222641e7282f)
    (s := 18)
    (c := 0x98120240480801702c052090180200640bc140240560a81c824)
    (by decide +kernel) ?_
  exact prime_1536_66

theorem prime_1536_64 : Nat.Prime 0x941099dc19df311c882e3c6bdf5 := by
  refine prime_of_step (a := 0x3813243409dfc697491c3dc5f09)
    (x := 0x4217bfacd9a3d7fdb35b55f0653)
    (y := 0x4edb2d4752e0c621aaa7b8b9747)
    (q := 0x9def930ce865860bf3e87c2c53)
    (s := 19)
    (c := 0x20480b0238210400941682004a0981883908a0f41002c04009819021)
    (by decide +kernel) ?_
  exact prime_1536_65

theorem prime_1536_63 : Nat.Prime 0x451ffb6754079a4ca41d60aeda36cae3f3 := by
  refine prime_of_step (a := 0x108972cbdce8a674fbc3c1b2efa76a7ae9)
    (x := 0x37bd1a03b0c17e4adc698056d0fede2960)
    (y := 0x3a2ef701a1c1091eab77046e79be3bcf35)
    (q := 0x941099dc19df311c882e3c6bdf5)
    (s := 20)
    (c := 0x2a0600a01082b0460a01282407a0bc138370400e41b83f05c0b016022)
    (by decide +kernel) ?_
  exact prime_1536_64

theorem prime_1536_62 : Nat.Prime 0x3a8f2a166080017058d14f0e46a25e77f3b579743 := by
  refine prime_of_step (a := 0x310873d9da2ea7095b2967a891de0b04a8cc47f0e)
    (x := 0x3217849915ed0cb1cb8d9e41bf5a4e2f975fd9b76)
    (y := 0x1ce869f3a81cc65770c2a5e49d1e91b5551c357e4)
    (q := 0x451ffb6754079a4ca41d60aeda36cae3f3)
    (s := 27)
    (c := 0x5209c2a02304a0b4110380480ac1382104209c1402404c1081182304a0a41182504c0dc1a021)
    (by decide +kernel) ?_
  exact prime_1536_63

theorem prime_1536_61 : Nat.Prime 0x674b27ad1897ca89bbaab51384cc2ccb814479b8976d := by
  refine prime_of_step (a := 0x2d62881d89351345b299cbc33252df44b28a519e93cc)
    (x := 0x370844fdbf9279b1d55ef46de5dc684df298c8a3ba53)
    (y := 0x506ead08ba043be42dc3781cb02be397c9a877d4c38e)
    (q := 0x3a8f2a166080017058d14f0e46a25e77f3b579743)
    (s := 31)
    (c := 0x6c09c1f822040098108300f008c1c82f04a080110240400dc148220400841a8240780ac1182604808416831)
    (by decide +kernel) ?_
  exact prime_1536_62

theorem prime_1536_60 : Nat.Prime 0x5c663a7dd6ffc82d34dfb4048f6d73866166c88bfb0b15 := by
  refine prime_of_step (a := 0x3764c63fb60c5ce6ef6112a1c6dd59be46ad00fdfb521c)
    (x := 0x53640c3d88b514d56aa02cd56f0ff5a3c55c56c69b497f)
    (y := 0x4e6ac003a220bda1bc7b71f7feecd1b3622f508e49f67f)
    (q := 0x674b27ad1897ca89bbaab51384cc2ccb814479b8976d)
    (s := 36)
    (c := 0x82b0440981503e04a0a41002108e0881002b0480d813026044080158280420841882505e08c2082704e0901583704e08c11825)
    (by decide +kernel) ?_
  exact prime_1536_61

theorem prime_1536_59 : Nat.Prime 0x25a49ebe1b81756ddcb0a1d31910dd56bd056687214a8069e5ef352b3187 := by
  refine prime_of_step (a := 0x5cccbd0300bbde0ae24a4a92448df628cc58a44c16060fff35b09e96283)
    (x := 0x754bb7ec49ed4c5aa12e29b83bf776485bb98f1983ee17801404cf32986)
    (y := 0x1e7be0ad8b4aeefe295e41a1bdb708b2cc3f05283ee5911accb038e104e0)
    (q := 0x5c663a7dd6ffc82d34dfb4048f6d73866166c88bfb0b15)
    (s := 35)
    (c := 0x460a4108330440d0168230de0a01302204a0ac1e0250a409c1202304a08c158310420801302b05e0801485604009810022)
    (by decide +kernel) ?_
  exact prime_1536_60

theorem prime_1536_58 : Nat.Prime 0x101ea096f4992174b46dfdb01defb152d04eb28cd39c8ac30337c5f6e1e38b1f0a8207 := by
  refine prime_of_step (a := 0xb903d9912b1d8ae1fa360e78d32a4ba952e5ccda3ddb114741e223a93c5330d5be630)
    (x := 0x13188cb5ae1d4c1df9df104ceabe4e53de1b2eb4f2d1bcc49ab495a7649d14008e86b)
    (y := 0x10f931ecf7446db8ef2763fa5fb08aef7feca59b9d3e6f2e4dcc2d1ada208cf9c6cc0)
    (q := 0x25a49ebe1b81756ddcb0a1d31910dd56bd056687214a8069e5ef352b3187)
    (s := 47)
    (c := 0x4e08c1382a07c0b0188230820d8130230480b41303a0760881782f0400ec1b02605c0d41402604a0941003706209c110510440901082c0480841102104c0841483b)
    (by decide +kernel) ?_
  exact prime_1536_59

theorem prime_1536_57 : Nat.Prime 0xc16f8713772d91787527e441673c4fe1c3cb7d30129847b9a0dd5664e85b785dd2d921 := by
  refine prime_of_step (a := 0xa811d0886de1ff6ef152e7b0c57a844b0a595c5edc1d8c92c1a3d45cb41e0e58b331e0)
    (x := 0xb62210868d956557c0c074cdfb7842fbee2a04e9af26b1befc5888ab130d97017772a4)
    (y := 0xd6a7b249c19cb60a9280368a9de55aa8f475b9b82e0d15e529334910a54baf053a687)
    (q := 0x101ea096f4992174b46dfdb01defb152d04eb28cd39c8ac30337c5f6e1e38b1f0a8207)
    (s := 53)
    (c := 0x1c0240440a01382306a0a8128270620b41082505208c2202e07009016046040088108250840901302a0520841102d06e0a4130310820ac1602908c08c100240660a41782c0500881804b)
    (by decide +kernel) ?_
  exact prime_1536_58

theorem prime_1536_56 : Nat.Prime 0x274aa76ff435418c77cc1a5d48f84039dbc61df892168864d31a3bc78da7f0b832b6fc1f := by
  refine prime_of_step (a := 0x3a9de92ef0f1db73952001d7f324b9d8455a2833f3d5a3320b83cf7ff152179018528e5)
    (x := 0x11c0a0f57de83e8f1217240df16c2d1d08f73e958da2e1e775c7381ea68523c70a21df1e)
    (y := 0x350e667c6a5aa4b4360e36950f643870733450a7ec6eb712f3d4acfbce91fe5b8c7c95d)
    (q := 0xc16f8713772d91787527e441673c4fe1c3cb7d30129847b9a0dd5664e85b785dd2d921)
    (s := 55)
    (c := 0x106008c1603b0400ac120370460bc148240760881504f0400e41282d0480c81e03b0400fc1183d0421001502104009c1602d04a10c1202604c0841502d040098118240620901202704609413828)
    (by decide +kernel) ?_
  exact prime_1536_57

theorem prime_1536_55 : Nat.Prime 0x1c05f17d0bc6ff9903ecd489aa2bf62683ebc3ffdcbbbdce4ae47eb4656e952127d7927bd65f := by
  refine prime_of_step (a := 0x18e54eda68fc0f981324cbb2df6221a4538a2f3f3af26dbc65fd202850b9a7f8606a961f1538)
    (x := 0x18291d522f45ba40a75431869e28fe4a8038eeed7f09e333ce73f5baee15b22d37826f68d9d3)
    (y := 0x9ba10206adbaf972529e65042a08fdc68b0b55389cdce747702f33647206bd79be91378922f)
    (q := 0x274aa76ff435418c77cc1a5d48f84039dbc61df892168864d31a3bc78da7f0b832b6fc1f)
    (s := 56)
    (c := 0x102d054088158230aa080128220500bc17824058084140250420b4110270580a02d82b046090148200480d019027062094100310540941083304e0901f83f05c0881e0280460e4108260460d01402c)
    (by decide +kernel) ?_
  exact prime_1536_56

theorem prime_1536_54 : Nat.Prime 0x4d105817e0633ee4cacb487a93f8e4e9eac85abb63b2ca4888426b9a551b9a971792728867561 := by
  refine prime_of_step (a := 0x43023a01cfd0c621c64b96ff0c5a4e61b046bf2b3c943c8f156d1815cd55e2c782c1dd3339dec)
    (x := 0x350cdc15ff066d6fc4efaf0c7b3cc461df22fbcdba00753fb8cbf1ea43386fedbceb5b638970a)
    (y := 0x19f1e406d980fb7708751e0e60616d01b99c38b32f3f38e09b89d22f129794a9f2adf1efb696d)
    (q := 0x1c05f17d0bc6ff9903ecd489aa2bf62683ebc3ffdcbbbdce4ae47eb4656e952127d7927bd65f)
    (s := 56)
    (c := 0x18490580a41e8310480cc2e82f0600d01282e04e0801582604e0982703204a0a02302404019011821048090120230560a81302d04e138128290420981182204c09c1402a08c0fc1502c0580981082c)
    (by decide +kernel) ?_
  exact prime_1536_55

theorem prime_1536_53 : Nat.Prime 0x6b17766b2e11eaa670cffdf85721201c1003ec16d4551a724ac111c30c1d7333985eeaa7ff31763b := by
  refine prime_of_step (a := 0x47eddd94d8fd8620392e6d5c19738f38b3de1afecabe98600926a528b4d79b2408dc7dc5ef487faf)
    (x := 0x6f233173865ea0f7f6cd5dfd067ec98b79ef46d9aa57b6591259c8b35c66e1e0dab3c2ebea22d66)
    (y := 0x52d4e2283f639486f7286ee321bac141f1b9a6b11c7f0512536539e491328a1dfbaed5e38269f376)
    (q := 0x4d105817e0633ee4cacb487a93f8e4e9eac85abb63b2ca4888426b9a551b9a971792728867561)
    (s := 63)
    (c := 0x204a080140260820d01802f04a0b01182a04a0981782304e0801202205415c1b82b0440b01302f040098110230460bc1b02105e088138200400a01d02e05a094150220660b4170270460a41a8270560a81002004a0d813028)
    (by decide +kernel) ?_
  exact prime_1536_54

theorem prime_1536_52 : Nat.Prime 0x28dee34489b6dd2554efb9ac3804ef67fb4d373179a0b2406d2f32e15ca67cfc023fde7c2a5b1009ca1b3102b := by
  refine prime_of_step (a := 0x252b6096b2a5d84da8b8d2aa288c2120ef98dbb5de91c40c711dbbdeb3231d4acfc4bb195c3c61380a16b750)
    (x := 0x1b561c64ff35f3db368e6a3126c7cc51ca76e5259afc8e90b659108f96271c139d648d8acedc2d9ce49ce3d13)
    (y := 0xba5d8ad04c49b3d5876898968618d22aa46264161c89f59233d6c6043d40955d98e52a606e126a067663bcec)
    (q := 0x6b17766b2e11eaa670cffdf85721201c1003ec16d4551a724ac111c30c1d7333985eeaa7ff31763b)
    (s := 61)
    (c := 0xc130290480901282e05e08c10027048088110210560801285c0680801303704009c2d8300a01181c82e0440c8110290440b41382104c0c0100330620c41402d0460841082b0420c41602d0440882e02105209017836)
    (by decide +kernel) ?_
  exact prime_1536_53

theorem prime_1536_51 : Nat.Prime 0x242cefd1c38454cba6a9c6297bfe8f0d67fdf0f6bc77b15a11d1b05cd96b1a2ede6c43b4a9bd1567bffe58675341029d := by
  refine prime_of_step (a := 0x1dcc3aa20e6c7415a821f00b15fa6df8566de88251b6a27674d0c0ff94893f7ec414284a072fac32ba5e80f0e4e74813)
    (x := 0xbcc26a578ca8d2d288ab31c3158deed52353b08a30f90e748d0605f15336b9fda1793fdab43ee727a9887237a1f3c91)
    (y := 0x15da00206dd88a6401cff1c805b4dbdbf50a8e47f42bea822ebdb953ecda7157e2d139bffb7113232af441b9984ea1c0)
    (q := 0x28dee34489b6dd2554efb9ac3804ef67fb4d373179a0b2406d2f32e15ca67cfc023fde7c2a5b1009ca1b3102b)
    (s := 68)
    (c := 0x103304808c1982704e0801582e0460901382a0440881202c0460ac1303b0b4090160250bc088128210460841483504a0e4128270a60941083505e08c1002606e0881283d0681001384c06a0b0140220420b8100480560a81002e04208020826)
    (by decide +kernel) ?_
  exact prime_1536_52

theorem prime_1536_50 : Nat.Prime 0x1012f78f74a00cad7d4defcceed85c1034f515d1a23e2f0dc369ce00f033261702354e2f974ea7c8be5e69da1b2319361cb := by
  refine prime_of_step (a := 0xe2970565eb131e9643b06498d335907291a0b9cbe9e5564ff5a529e4522ee0d770a276c2185c8cca71abe9787747f84e1d)
    (x := 0x454f8faa722c370261f4cbbc1f138aea75adbd09f2662821922352880a364f25d82cb4bb8b1696f2842a643deebd2032c3)
    (y := 0x49de5ffd9eaff6d223a62a6416f4535da175421f376d597f07abc6b7249d5ee663e7e4548bb84c18df464c430820b8443b)
    (q := 0x242cefd1c38454cba6a9c6297bfe8f0d67fdf0f6bc77b15a11d1b05cd96b1a2ede6c43b4a9bd1567bffe58675341029d)
    (s := 75)
    (c := 0x4e0c41282408a0cc1d828064088178230440941102b0520c81082c0a809c1202005c0942a02c0400b01703f0480b01782604a0801382404e0b81c82d05c0841702f04a0801182306a0b81003b04609c1102b06a0a4130250581f41302004a0b4110250600e01102d)
    (by decide +kernel) ?_
  exact prime_1536_51

theorem prime_1536_49 : Nat.Prime 0xbba2676bc21085fce8c0d346e3cff629ef2d2741a33080a35916c84129e40ae92a5480a85c3e2c21a8b37ccf21e6da26071d49 := by
  refine prime_of_step (a := 0x532b1efc777f4454ae44c963e23985218ba778dc6ce3bcdd139735ec5b12d6adae7f3b8996311ee333affd606a5a25cdc1497f)
    (x := 0xa737a53070be8d970e7011a86e9bf2de0b557919340a73c37e1f694897fc1aa310b5e56259e464fdbb233e7aa1286a3d012c27)
    (y := 0x205f3e2b8638baa7306a37b4a7087ed9aadf142bdd9a1b669d7a259b572f3ec94a5f7b600ecbdafc8778dd59fbab6745dcb92f)
    (q := 0x1012f78f74a00cad7d4defcceed85c1034f515d1a23e2f0dc369ce00f033261702354e2f974ea7c8be5e69da1b2319361cb)
    (s := 77)
    (c := 0x200210580fc1602d0541201282605c0b01102b058114128240480b8140230601041103e04e0981683304e09c160290480c41183b04a0ac158480480c01282f0420a01183004e0941102b05211c1182205a08823829058084120210440901283b05e0a41482a05c08016826)
    (by decide +kernel) ?_
  exact prime_1536_50

theorem prime_1536_48 : Nat.Prime 0xe7e9f1339f76c29ec23f4f89bdd5fc55f3845225def5f46c7f6a8568d41f601135b01f0297c8d7f98cd7299b0736da14b048aa1a3f97 := by
  refine prime_of_step (a := 0xd236dc2151aa867df07246994c42b650e73611929bb088386d817d6aff26eb49fc445200da6cb1cd3dca840748691c81895553d2ed47)
    (x := 0x5362cd60ad91767d2a9d16ed4711349965830a956ccd887cb3377caded190b4e8865144f3c61c7f84d4eed4af48218ee2d9fdcaa8a52)
    (y := 0x5654f10f00ca4b2fdabc899dcb3bc7a2d117c9ab849c98b121f4f8ed4a47a0ebc5be7f47d7dcf8552650b253d5b42df615ce1b2a4957)
    (q := 0xbba2676bc21085fce8c0d346e3cff629ef2d2741a33080a35916c84129e40ae92a5480a85c3e2c21a8b37ccf21e6da26071d49)
    (s := 81)
    (c := 0x41202d0640941202e0480a014028062134168290820881283306e0d42f0200440b01202104a0a81682804a0a41082809209c1702f04008c1782805009c1103f06009812027054088130270800881402304011c130280400b8138260560f41283f0400901082304a0801083006e0b411027)
    (by decide +kernel) ?_
  exact prime_1536_49

theorem prime_1536_47 : Nat.Prime 0x3d317fb621541f5562af0e672f0e3e9dcd4ab3432c6cefaca921bdf9778d885b03e13de67c34431d1c043d63168c2e84881a309f78d9c534afa2308bdbcb := by
  refine prime_of_step (a := 0xc166ebb64a7039d7745aee094c597e681429b20bc746cb4af1ba1a32589cbeceaeaa401b2fed28e4a991adf572c5b80457d6aedcb7aa67c1ee0f841891e)
    (x := 0x2bb53f51e0a829f32a681542a6b356708a944ebf7c370a150f355301cec8985abce63a379688e29b9ebf3f6dcbdb4994fcc8d6cd36cf667cbf65fcdd1cab)
    (y := 0xefbfeabb83824907099aec35653f41dc7b8d213b25167274759c938cf2889f13aa425456e01ec0282ea24c5ae315ed88f7f8eaf562b93bb5d7ede856a2b)
    (q := 0xe7e9f1339f76c29ec23f4f89bdd5fc55f3845225def5f46c7f6a8568d41f601135b01f0297c8d7f98cd7299b0736da14b048aa1a3f97)
    (s := 83)
    (c := 0x5a0d01102c064094168340480b81402207c080138340440b01002b0580901303c0520981602b0500a4138200420901603e07a0cc1784404a0881002604a0a41102808c1201902e05c0e01604a0420f41382e0aa0bc1282e06e0881282e0500b41702304a0a01102605009c1902207609c2b823)
    (by decide +kernel) ?_
  exact prime_1536_48

theorem prime_1536_46 : Nat.Prime 0xbc8fcc3362803bd399db6650cbfa19cac53478d028f92cdf7bcf952c3d29f02218399e66e6580cb93089ef0db3be1abe33e57cbb52e6c82a9c2aff57ee2c5b2cb9 := by
  refine prime_of_step (a := 0x11511fd0795f5e4f83ae457a5be01c7db94b597661cdbd9722e16e5a444f9b470cac79a62f46c7b2f7657bd4d9a65b45b6660e113405855247cfb42f4247fdec95)
    (x := 0x1bbfe9b8221bcad102b0c338510b3c5c5d20c05c0d7f1df204cb0008a8fce17d090ba3ce8e094721587a30c0080ea02fd47572254dbec208750b6faef7aea37819)
    (y := 0x35052af6958e704452678c08d4029736a43d90cd75796746905eb89a1083b7b3e9f9062d09631a8e3b7c73b5c645c477f7e73b3458ee07c6d6682bf10f97e50688)
    (q := 0x3d317fb621541f5562af0e672f0e3e9dcd4ab3432c6cefaca921bdf9778d885b03e13de67c34431d1c043d63168c2e84881a309f78d9c534afa2308bdbcb)
    (s := 99)
    (c := 0x6a0841484c05c0801d022050118130260520981203b0420ac108240400dc1e82b0460841102104c0941282004a098198250480d01302a04409c1d82c0680841203f05c0801882e0600b01d02c06a0941602004a0801002f05a0cc200200580981482904a0a41882d04009c1003004a0a41d03407e0b8158320420881303d0400a41402904808c1a826)
    (by decide +kernel) ?_
  exact prime_1536_47

theorem prime_1536_45 : Nat.Prime 0x53e659b35512395e80a3e971dc8e5d44b0e4ece3363a11ed837ae2f4ad31db88f43f0bf431ee91d05379047f1704ed3800781cc33a34b086b1557b2d78c77bcdc246d69a9be4806f := by
  refine prime_of_step (a := 0x4991ef943cffd4a3f1b62877f27f5fe302cb39ff2255a084c0d08aa9ed01d593ff384c03720924d81f6253451e1e2c6834810a5a3a3922bd797c9c1b50c70c77f8a0499576fa314c)
    (x := 0x4250459da60c58fb2bbfe1f9df424ea93bd092bce6a56427254be12bb039f3915530c1f28fb286ebd7e80f6a4755ed601652dd71ddb14002ea139fe54b1311c3367d3adf2c7c40e5)
    (y := 0x1e54a80c565ccb66c9cb115c972fcc9e4fa759c8198426f857823c7acde62812ac97f91dc7840d940e4dcb0b72bb053501a2009325a8d22334d078e86226ff7658532002df45216c)
    (q := 0xbc8fcc3362803bd399db6650cbfa19cac53478d028f92cdf7bcf952c3d29f02218399e66e6580cb93089ef0db3be1abe33e57cbb52e6c82a9c2aff57ee2c5b2cb9)
    (s := 102)
    (c := 0x20d4138340420801282e064120120350560841582305c084150310421341882b0420981902b04e0fc1284104e0b0150260560d0160350580a8110260400b0138220580e0100310500b4128240420ac1682504c124108370420a01902c0480c4118250480b01d82608e0941e8260580841202e04e08c1582f0840881583104c1301303c06e0981002304a09810837)
    (by decide +kernel) ?_
  exact prime_1536_46

theorem prime_1536_44 : Nat.Prime 0x95a18159e46850709a4c540620e9a636d1bb46b9f865f09927ccd9637e223b177019b0c1b812b4a38bcbe8ce88aaa388776f5e597ff6184270ac0c14ac1a830f6374be8b16554783b9d := by
  refine prime_of_step (a := 0x87f43b78f86f4be7ea90e821a2647120c15c1eedd2f02acf424310bc8173308c35101723220ec61d32e97253fc58b992d15e6bf787c3386f1a4f6bf9d4a725858ea307e3fa7b6941836)
    (x := 0x308bac416a7c244498be2d22ccc504d9efb59eb4b7bf113c592ddf6497c66c3637f252bf707d03b7beeb3a854876d690cc952c4347604b57cbd275513c463db59962d53f613215a34ee)
    (y := 0x6523623b2b93b09c42c53aaf243302a9da877b7c7b6d89b1fb8f8d05245ef4adce80c7fe4a5d842c41c7a4c13a534838cd88b8f9136dea12f488b008adb6d17dd5ff53d23062c779436)
    (q := 0x53e659b35512395e80a3e971dc8e5d44b0e4ece3363a11ed837ae2f4ad31db88f43f0bf431ee91d05379047f1704ed3800781cc33a34b086b1557b2d78c77bcdc246d69a9be4806f)
    (s := 113)
    (c := 0x1102c0420841282e0420881103204e0b41303509209c1e82106e0901682706e08c1103204c0ec150360560a41582f05a0801382c05c10c1a8230520901102604a0841982306e09c1a8200680c42282005e0901182204e0b42102b07e0a01383c04008c2102404a0ac300240960841002505a0a4110260500ec1302904c0981f02105c0fc178240580901082304009c1982e04a0841102b07a09c2d824)
    (by decide +kernel) ?_
  exact prime_1536_45

theorem prime_1536_43 : Nat.Prime 0xfe921e5b88afe79dd6f9742fac15338ac65dc3c8930cacf966df4112de1bc2546ccd3eda21e9b9f5b368a4b587acb02015f607444f3dc48f4a4d0efd10d119b798e3fd0e5a3812cee83959a84b1 := by
  refine prime_of_step (a := 0xc4bd93eefea551412b00bf690476b01688cba00c57d88bf93b149898205a9235f0e501c20d00278c954fb601c95d022ebc229353a81b8623303baf84e4eddac79c65066dc958498be18d07790a6)
    (x := 0xc07564bdfff2bb6e89582c9ddb1f1f218fb9b996dbce3d14f33c4bc53264783b9261f4d69dee766d7c0ed91be71028007804f822e8db262ef057991ca45eb369299747f47603c77dd40d587ddee)
    (y := 0x305700385b88ada4e08f1a3fd92464b8952c7c48a36fa6094af71dc48ec39e7d04915d5b32258f965172067e2bf54b1e3216b415c6b06d9796eb909798801c94224467a9a3a8b3c0bb91eae9c61)
    (q := 0x95a18159e46850709a4c540620e9a636d1bb46b9f865f09927ccd9637e223b177019b0c1b812b4a38bcbe8ce88aaa388776f5e597ff6184270ac0c14ac1a830f6374be8b16554783b9d)
    (s := 114)
    (c := 0x4098128310600981283504e0941d0430500ac13821040088248200860881282105208c1282904608c1382e05a0d0188210580e81782a0580841582504c0cc2782704e0d8100230460e01282e0620e41184a04c094150330520901083404e09416820064088110330400ec1182307c0d4130210ec0c4140280560c413041084084130390440e41003e0660b41083404e0981482504c098138240500901682d)
    (by decide +kernel) ?_
  exact prime_1536_44

theorem prime_1536_42 : Nat.Prime 0xbeed96c4a683edb6613b1723c10fe6a814c652d66e4981bb0d2770ce2694d1bf5199ef23996f4a33b0ffd807114061d08899806f244f7e84d789c6ee4fc1fd0a798e0b12f8d09dc3fd77d3c8cea9 := by
  refine prime_of_step (a := 0x1dae05b9cef0ccd645d44b32f869f973793cd4145cd24077af1ea01eddc8321a7243385dff8f349a8966127e48ab1a99cb0fe9554d060cd8452b77a68600ff28289d3853b5a841ddf9e624438076)
    (x := 0x14bec3dea220591c8b65861742746088f214c2330927dba5ac6f5060662f10a15a6756034c20a3d0ede8796407df3eb89292ddb8274a91e82f49fbf3dad75aced46361423198bd2636cf767b9185)
    (y := 0x456f533de65204d42d9035131505a5a69fc10b350cb3e901ae80fd4c9526d65f0ca8ce43f9a758d038640c1b85d35176d8c64bb63a351abc04975a78f0b646be39a0d80b5d661871794e10c24b9d)
    (q := 0xfe921e5b88afe79dd6f9742fac15338ac65dc3c8930cacf966df4112de1bc2546ccd3eda21e9b9f5b368a4b587acb02015f607444f3dc48f4a4d0efd10d119b798e3fd0e5a3812cee83959a84b1)
    (s := 125)
    (c := 0x1e02204e0801f82306e09c1304d06a09016823058084168310680982102204a0dc1302f05e08c1182006a09c138210400941302507a0981082307a0a0138270460901d8240740981382e0420841102c0460941002006a0ac1684605c0ac1282004409c118260400f812826070100130460600b41003206a0901183204e0d41502a04a08012045040080128200520841183505e0dc2a83b042094198380420941202d086084130210440e813020)
    (by decide +kernel) ?_
  exact prime_1536_43

theorem prime_1536_41 : Nat.Prime 0x6869ee738b1025ffbd2c50a78d94b223eb5c754d445032f24b3191b0bd1962b4a0a02ec777e8dc9da7b82fe1a1c4a28bd1c7b65f62e42c8c9531cc7291b5f5bf5785ff015b62baf2dabbb138f232ef := by
  refine prime_of_step (a := 0x4f0cca1dbaa60f7e5631935a59650d49737e1d47adf439c6dc3a5d2f50d511d83e96b536ae3564f834580d0a7b7d0482af99fe932c0c7163d603f89e6f71982b279e5ae01453c2993e090e0a8db837)
    (x := 0x1e7a92176ede77b003ec0643e29479bdaaef05ee7a908536e98997e4c5d70d241086295166b97eed28c49cfb70904e1cd07f1134c8d57a753879ae0855a4da047745f1d6d4baa462b7e64a28b415bb)
    (y := 0x3d057ab8835dce15d8e71989dfcc4f0d3d5baeac1bb93a57df4533e133769cd9bd9f21f3f6f4c859f0b56871e04ed4a7299c5c21c928419a0cd10179051c4dd88587bfbf16819a4958f049a8820f35)
    (q := 0xbeed96c4a683edb6613b1723c10fe6a814c652d66e4981bb0d2770ce2694d1bf5199ef23996f4a33b0ffd807114061d08899806f244f7e84d789c6ee4fc1fd0a798e0b12f8d09dc3fd77d3c8cea9)
    (s := 120)
    (c := 0x82c04608c1782305e09c110250501181182e0420e81b02905a09c12030040134128220940841482104e08c1302b05a09c1084b06c0ec1382b0460c41582005609c110250661381382504a0b01a82705a0bc1183504209c128360401b82d8200641241002d0500801002104216c1a8270640b02283a05c0901002b05208c1182a0680a026828044090108330500981002108e0941402b0460802f0240580881a82704a09013027)
    (by decide +kernel) ?_
  exact prime_1536_42

theorem prime_1536_40 : Nat.Prime 0x2dae58528cd7109fe2c363494df10defb6f87351cde3164a00e5afbd52bb1b2f064614774475e08510e84ea8c5bfa99e36dae61e5cf58dd53eb05b8f7527cf86827bb1fef117fb3a4105ee69bd8cf365 := by
  refine prime_of_step (a := 0xc1752f83f1d3ffbf191593b72f3bc9ca6a8fa81579ae641104ab2ca139be47c89fac7183be5422f56200886ebf4fbe907ec73b8f79d8761cbc4c3ef258238b12b52fb766c6dfd5b4ed63ba578b90b9b)
    (x := 0x1170860f42246606373d166ee9e5aa936c18fea1d55b3bb3e1f46502fae777982c169dd0ce8ab2e3344512a369894f7718fc3c6faf30bd741bdd31b92fb01264d36b5f3cdfcc04a8927fa4f76b9bf456)
    (y := 0x4f1ed2b86c80ee5cdcd942d3aea9c04277050b94516344503239396cb7595c5bfdc87cd09556c6061f0109db86b7d757e19a24a2623c7ac5c422e623f1489ee15d5b0053917f834025ba7e9e59580d)
    (q := 0x6869ee738b1025ffbd2c50a78d94b223eb5c754d445032f24b3191b0bd1962b4a0a02ec777e8dc9da7b82fe1a1c4a28bd1c7b65f62e42c8c9531cc7291b5f5bf5785ff015b62baf2dabbb138f232ef)
    (s := 123)
    (c := 0x4a0c41102c05a0b41b8260400e01085c048088130320500881f82e0540841282704e1181703705a088108220400c82082106a09c1082505e0941382e0620d41482105e0981282a0841241202f048090228290460a81b02204808c1c83c0400941d8200540c81482c04e0dc1602e042118148370620941382504e088108330420cc108270660b81e823078098120310981241302305e0981b03504c08c1302406c0c81b83f05208412024)
    (by decide +kernel) ?_
  exact prime_1536_41

theorem prime_1536_39 : Nat.Prime 0x3c756d3ec025bbcab825aa14d9aa9db455a36959477f8fc772f06bfd0d7786c76c298d6782a55c86c20395992ee2ffda5b6f00822feac33c2d18e5d77bd237009e4abe7b0ecf2270d4e46b151cfb6d45d035261e67 := by
  refine prime_of_step (a := 0x74bc30536e7253a698827af6370c589288299e7ebbd24012c92707868095ebcd910d1bff5ec01999848c601118b2b1c903084a3c84cfc726de38e35caf171f78fc5d216e8580c5f85874afb18d3d903ba9f6bb2df)
    (x := 0x1d9567300a6b970ab3f5945920b6cdd220bd2456a651dd868c0f55e841f7d8b225c1317065cee78c07db81b35ccd14d9f73320e9ce8666e12a56bf0a935676670177a28c26e56c695377fe7d1cae69689026e4dfd8)
    (y := 0x1b9aaadd6a3690454a4b2a51e4012be82f56b127f8fa61cc0f5508ed5f189b28df906f99007d6655c11de29ff1ecf5102ad4c829e9cd287345b5cbc75e1c66fb741c8a75ba9700eaba9c1f4b0eeea4e2c3d258adb9)
    (q := 0x2dae58528cd7109fe2c363494df10defb6f87351cde3164a00e5afbd52bb1b2f064614774475e08510e84ea8c5bfa99e36dae61e5cf58dd53eb05b8f7527cf86827bb1fef117fb3a4105ee69bd8cf365)
    (s := 127)
    (c := 0x460b8168260740841382504a08c1003a0be0981002e06609c1502b0580801d82c08c08c1603b0420881982b0480a41482f05418c1082e0680901102204c0901782e0420901402f0520c41382404809c138360480c01d0200400b41d02d0440a41002309a0881283f05c08c128230420801202105a0b0130290460881103404c0c01183704808c1102a07a0b0100250840b01202f09809010029098094120270600e41602d04a0ac1602f04a0d41702a)
    (by decide +kernel) ?_
  exact prime_1536_40

theorem prime_1536_38 : Nat.Prime 0x1de086f50a17fd9bdb0d63db56fb1d782b707589ddb2407b1fd3a19b70a14cb7895a4e37f28aabd7fb7d21b124280bfe67b4340caa8d2b0922cc4b1ab9bfc1b3db6a0f8dd6b075b07da089d5177ae3bae961cbd40894dbd := by
  refine prime_of_step (a := 0xee51065f5b2a23029c24fb783625e0a93b2fecb5b199f2e682537904518fdb437ff4ac6aa1e42bdc5a33804938c99846c4c8f64b27f4fb9ea3971523a8a2a0b60f00bb85680755b2d2421327387d54c5bf37ed4e37994c)
    (x := 0x11a27645723b2714fe14e925939655d0c15552945d6f4e1b6836527f55dcec53102d1a007266e7d841eac9f1d1254bfcca084b215f635ad959344a9d4fc7d89c9b90f3e9a5646b658a8568b95a17bef7817387ab61c63d8)
    (y := 0x8649f7760147a5493c348029de2d9e270793cde97b8737fb06352303a0bf3b8b32a10b44effd2559de983dd44dfda0229946b7234e11b4b75725dee56b9c5070043a31f316742276330530abacbe4cd1b8e493db0aefc3)
    (q := 0x3c756d3ec025bbcab825aa14d9aa9db455a36959477f8fc772f06bfd0d7786c76c298d6782a55c86c20395992ee2ffda5b6f00822feac33c2d18e5d77bd237009e4abe7b0ecf2270d4e46b151cfb6d45d035261e67)
    (s := 137)
    (c := 0x1f82404c0b81104608009c1182407e08811830042094110280440b8108220440ac118250520981283304a0841302104e0902f83406608c108240500b82a82005c0901203b05e090170280440bc170250480c01102104c0dc1002e0500e01682604a094138230460a42e0250420b8118240900c01485604c08012824062094148330420d81202c05809c148230b40fc1082607a0f81002404a0fc1002b0400941102d04e0b81782604e0b41602305c0881482d0600b8138210400901082b)
    (by decide +kernel) ?_
  exact prime_1536_39

theorem prime_1536_37 : Nat.Prime 0x3626f49c224b7baa7d0844fd8da72569cebbd509e1d314df29af94e9bc245b0ca8f3adc5679b577777d2cd11f19a6ce2d8249c032aee61b6b0b71cb88f18bc31b508ac8458bbc62ee7491b8c5726762b64bd3b5002b134d1 := by
  refine prime_of_step (a := 0x1f4f4a3cc076d48853448a75cf05fd21e337fcb0dd74035cd384b09307fc36a30cdde050a84dc0defbbf9cd76a096e8f37a76ea34070e03c2bab3551c306ebda782c983097bf73de6b076101598d769ddbd069a7bc1bb071)
    (x := 0x183725db2be5e773af5cd1333d1fa58b3ff0bc8ac6f5f8576f8300a27a35721bfba9d0b03a0f5ef6a290acb6a8cef5f28e002a9d44bb5332c9bb48c94d0261d5cb07dc05d2c01fda904799711e469552c7dc2e4bee752ac7)
    (y := 0x7ff4a1041eb199e918348ddaee6752b05d89ffd39bf0f0f245a85b796a96b99a5984ea12e1bd1f8d7cefb2faf30123d01eca40e1123be80a43c25361e0bda9f597d089ed3bd0341b8d929dd3741c248953c0223012fd8b3)
    (q := 0x1de086f50a17fd9bdb0d63db56fb1d782b707589ddb2407b1fd3a19b70a14cb7895a4e37f28aabd7fb7d21b124280bfe67b4340caa8d2b0922cc4b1ab9bfc1b3db6a0f8dd6b075b07da089d5177ae3bae961cbd40894dbd)
    (s := 139)
    (c := 0x480901803b0480881d0310cc0ac1602e0400b81782c05c0881183405e0d81203904c08c1402404c08015823046094138380580bc1e02205a0801282e0460e81402205e08c1202005408c1382b0660f01502904c0981f0440460d01382005c0c81383a0921741282c04a0801283004a0981302704a0841302805409c13021064098148220460ac2204304a0901182e0440a01603305a08c1302806c0b81403404a0c01902d0440a41203e06e090168230440981d8210480881c02005408411835)
    (by decide +kernel) ?_
  exact prime_1536_38

theorem prime_1536_36 : Nat.Prime 0x35c8bd1b42790ca826eb554f4d25e5df85c1e65afcee8f17f45e54ee3cee4527c34fe6364c8bd1c0ecf6726da8d93cf8b2d11c362e68f3a446d808ded18ac4ceb374534512bb6fc2996fdf3d126cddf3d6b580c9e1102c4a6bf0f7 := by
  refine prime_of_step (a := 0x10dabef8701d88c6606649df8656a9b91204f8c1c712679ec21fe76e9c56c4677924a274b6cd15de9820b680a5d10049f040b5a44b3bd0145446fab9d19d1416c2259e9b6f75cf849dd5d3b9c3a2dae6572df64f62ff6b653eb23c)
    (x := 0x30d543a0f32be5763c0e0552fca5645f3ccedca336af34e5eff818d006db6bc8dfe31b181380a2bd8fa3101211b090bb37e37d51b56541392acc127fcd9f80b6cd88f53e0e7a955756bbf427a4644d342a436fb2f9b69c843d1cf6)
    (y := 0x2e068e07828cd167930b0a525bbfd68592fa958764a3c611dab2aee002e418743641d36faba03c11b010fd4c8646a13e4a5afe5a337fa7a03a2e2333478aad83521d09086e5f48e655b8035242380a6f4a0c48ca818ec0b1cd34e0)
    (q := 0x3626f49c224b7baa7d0844fd8da72569cebbd509e1d314df29af94e9bc245b0ca8f3adc5679b577777d2cd11f19a6ce2d8249c032aee61b6b0b71cb88f18bc31b508ac8458bbc62ee7491b8c5726762b64bd3b5002b134d1)
    (s := 149)
    (c := 0x170200560b01382b0500c81382304808c1102207a0a0140320780bc1702206e0841302205a0d8120350440e81202005a0841902b08e088170470440b41582404009c1482e0400941302706a0b41183704c09412021046098120240480901602204c0ac138270580a41082205c0ac1482e08409c1584005e088118230420801702304c080130230660841b8270480a4148240400bc1702204009c1302f04009c130290480901482004608c1582204e0a41182906408c1502506c0c81182f042090110360441841302004208812820)
    (by decide +kernel) ?_
  exact prime_1536_37

theorem prime_1536_35 : Nat.Prime 0xe31ca6881bb126720c57bb3bdcc507acdbcfc5b6360b5a3c26e254a1ff4a2204e7bc631b493a68b7a89ca9310dfb95e3755812764ba61e1a9da3bc60a8ed3b73a7f1eab1f8123eb3cc3adcde4caea29e1e7364f0d63fe6a726c0097b := by
  refine prime_of_step (a := 0x3220c39da353b3d86ad1b82df4341c7fa547d2f21433a74459ac19d32b3c071f3703172b17b4731b7a242bfc38dc0a4af35640c35ba12a6f5f37350ce836e3d8d9141ef6eecd1983775d1fc2b0ec49760b31c91ebbac3e7b144e54ff)
    (x := 0xde70bba077d5fba7a23ac4471970376e984b4c576a454c01e62b67660b68f8885db3e01cc3192cf69a14ef3b3e0dcc5e7ec0f875f8d5b87ef24761e296700ef8f7a6f28514289103c908edcf6e254fd67e0e913f32c5b29b2e6e98e8)
    (y := 0x789ea8ba8907abee6b79e99a3e52b5e62ad30012f756e2af8e76acbcde04e602094582cf27650d7ce5e61fff3144ebc4b271839a056be58cdf0d65ed09720f03f3ee3d19e8eb66f8d8b6f062f2813b3c8eb9998f337c107c835b23ce)
    (q := 0x35c8bd1b42790ca826eb554f4d25e5df85c1e65afcee8f17f45e54ee3cee4527c34fe6364c8bd1c0ecf6726da8d93cf8b2d11c362e68f3a446d808ded18ac4ceb374534512bb6fc2996fdf3d126cddf3d6b580c9e1102c4a6bf0f7)
    (s := 145)
    (c := 0x170370520d4198250740fc1002f0440c01582404c0881102206a0ac138210480841203405008c140240420841704504809013824052134148240540881203706a0901b8320540b01882209a0bc1702a05e0a41a8330600901282c04a0dc1082305c09c1702a06a11c1302104a0801982005c0801182b04e0d4120270400cc170400660b012829052098190250480981582d040088128320640981b0230680a01102f0460f01e8350400a81702b0480f41f0250460982482a0480a01004105e09c1102e06808012023)
    (by decide +kernel) ?_
  exact prime_1536_36

theorem prime_1536_34 : Nat.Prime 0x391a28164f3365ed75f845092235cfe64261b528caf153e401ce8215fd18ab34d36218d4e9dabf201fa032ce321dcb4f765c0e6c9a87de5fe52823ab2e784033292b6db9e3e176fcc0ce0d01a159175841588dad8a11ce7a2e6cf4484b601215e7f := by
  refine prime_of_step (a := 0x346168c3171597eafad1d8b0e9caadce58dd288e6b58508bdc130d1b4d784741d8f488d17a19e5a37a4e62dca7342eb46056bdc92e2d8908df05630f441c5fe7d8b4d9970acf9cd6202407985b5b7a1c14269f50257569d2c3f0ed9ebc9568946ef)
    (x := 0x2d3d53f9992c31eadbcf161e68f4225a680649ae8b25a49fd32ae74277bc69f380b3a552a93870308a43db85f2ed7d8dc376ccc883e515f8b53deeff90b3e1be09186fed4dbae229e7b96e0cc1035d47c696186987edc0975fb273c4fb81f6cb18e)
    (y := 0xf1b5d77c98299ed4b6744a5b384d6e093cace0b4450da20d80f76f3c90a1cda97383c561652869f417759f9809e70707f1c6db61651d8009fc7e64602e06659bea54683c73d2e048fa684b42d2ab6cfb5afb7891f76ceb2a9c195640e38c031a72)
    (q := 0xe31ca6881bb126720c57bb3bdcc507acdbcfc5b6360b5a3c26e254a1ff4a2204e7bc631b493a68b7a89ca9310dfb95e3755812764ba61e1a9da3bc60a8ed3b73a7f1eab1f8123eb3cc3adcde4caea29e1e7364f0d63fe6a726c0097b)
    (s := 148)
    (c := 0x3705e0dc1102504012c1b0200540941b82805e0981602404a090120230420c81402c04c0841183509e0981182f05c0e41282304e0901402b06e09c1102a040174150200401281682c07e0bc1782e04409c1582204a080118240440c81682604e0841003b0780b413024066090130260700a81202f0420b4108200480c41102b04609c120240520a01302706c0881b0230560882b83e04c0bc1a04a04e11812824042080120260460ac1f82105408c110200440901003505a0b8150240400b81784c0420881582a05c1601083e)
    (by decide +kernel) ?_
  exact prime_1536_35

theorem prime_1536_33 : Nat.Prime 0xf14d7e4f7ade42633d335a2a47dc4841f3007714a968e08305220b2fc394de4578043b5acd6c995a5d17b9ca40217aa5e8e646a13a4ab64c5abd9153a6d2b918277f980f5f688cf7dc753632c7afd131c7aaf7d77848d90f865b09c2caf9299bf301ee4e8db33 := by
  refine prime_of_step (a := 0x7cc62650bdade11e3a2781e5642216aefa0ad215464d2055ee6febbdffe317561f0b2ab7db81f86a05fec482dac6ca1e4af62a6e1ad46e05d30ffe4394e36286795ab9be5a7fdae389f97349eb1999ee7d310fc48ece69b8c742b5dc99014642f19a94ef92d14)
    (x := 0x74c1d7cdf9ce52c9269658f1403d92f15f43687a696ecdbd47fac377cf6809b0384941993010c8944d400c40696ef19701964a6fa887759ada33ed8f1306fedfd2d9669d626cb88e18d0a0b9c9dda47dbf05738955d4b31e584166f8c4f3b733c26a3a9d3df36)
    (y := 0xb3769403a7f828a3c32ad58d40db7df03ccb1f1953fcd26389b0572cc32cb22e2042b1ef557ae1921efc9f82b4017ee2328ddcb3ed630afd18f926fa8b2aec04a88efcf6afaa9405511eb8cbc33775ae30e1cea7e026acc58d3a83909c34af81910a79932eda1)
    (q := 0x391a28164f3365ed75f845092235cfe64261b528caf153e401ce8215fd18ab34d36218d4e9dabf201fa032ce321dcb4f765c0e6c9a87de5fe52823ab2e784033292b6db9e3e176fcc0ce0d01a159175841588dad8a11ce7a2e6cf4484b601215e7f)
    (s := 155)
    (c := 0x5a09c128320600981503504a0b81082c05c0d81a0280640a01502704e0b81684d05e0a01082005c0881082704a0981203204411c2402d05a0c01002609a0a41482604a0941082205c0801002f04a0881682b0460982784008a1241082506e0bc1002405a0981102c0480bc1184b0560bc108220400d0120210880a81502804e0d81302105a090140510420841382a0460b81182d07e0b0140230460d0108410560a01283804a0801302f052090130280720981003305c0b81902004e0b41683504008c1582505809c138280420b8200270400981a83c)
    (by decide +kernel) ?_
  exact prime_1536_34

theorem prime_1536_32 : Nat.Prime 0x9f06a44f54b7144be35004faafc237fdb86b8d3a55a26e3fd0a4bed3cf1aae98d3b777f6d834033379ac5810be52205271742c49af8084a5d2bc0de28dacd9c459942b183bc87b35e34737d5c9c7da6a66f5a3ad8bf220b843d9d7eaa994535963867a34a3695313cb := by
  refine prime_of_step (a := 0x396f7d589d2f2440062cc7502e3d5538b90aa7b957b88064abf90c159383cb66ece04662192ee8adc1d404fb7adfcb0431cd42ea3595375e1634a33a861ea40f0f46b6ff9f9d0488c88ae1194057d7d03e9aabcaa798028fe270fe921fd2aae51e68a7e594ce8a9ccc)
    (x := 0x579a1c113825a7aa398a5eb109829d3fddb3dd19889689f9708e9a7e662e95f78469b32f531e4c6afad55782f373dc3907c090c1dc465047cd841571820896f38bc5a28f8c684a107e75a6cb7ba38d81862e4959e7665a716968f28efeb9e9465b6ae9d9f82f2ccd0c)
    (y := 0x486fcdbbb0b93f8fdcc9615db3aa8d9dd5420517645769ae7a8f0b5627103aa4ad62958f5f8dd3798b472ee3e9d31b25c3436acc5bf1ec09413f8c553a7e7c93c1a29edb623055261ed07ea5e86b95b84ecf4eac861b5d3f594e9ea2f96e8dd5263faa0aa2a7c6e751)
    (q := 0xf14d7e4f7ade42633d335a2a47dc4841f3007714a968e08305220b2fc394de4578043b5acd6c995a5d17b9ca40217aa5e8e646a13a4ab64c5abd9153a6d2b918277f980f5f688cf7dc753632c7afd131c7aaf7d77848d90f865b09c2caf9299bf301ee4e8db33)
    (s := 164)
    (c := 0x24040088170340540b01a82307e0e8178250480881282e04a0c8110270680dc138280500b0108630460a413822042094198300720e413820050098108340760a81583504e098120480400901702e04a0b81702a04a0981282105a0a412023056084138480620d41102105809c1682f0520881402b04409c1102305e0841002304c0b0178200440ac1102e0440981b829084090220210700f81602304e09c1282c0680dc1682205c0a41082f07c1141902f06e0f81302c08c0901202004e0cc178200580c41082e0500ac1882504c11c150210560d01083804808c1502d0660b810821)
    (by decide +kernel) ?_
  exact prime_1536_33

theorem prime_1536_31 : Nat.Prime 0x4a58ee6aba76fd3dd1e0c076c5f5f3b600228992759527e6c138eb4cf5399b3ef5ad487478333497fe450f7020110103e9fd917f33a3486ac8968c25556a21deef18fa4e1a6412245e581904ca921cae84115863a5735beefc3844b34cde05f582e985172170dfe809f91e5ac1 := by
  refine prime_of_step (a := 0x4449977e983ba1e94b5eec7871a9933eac431e8c132ff475be5d480325a23044e472993ed2f811218dbd75f4dd549f28cb2173f10f4148cbb6ac0d839264f243fa44bdba42888aef776068846a0f68bf673ada1388ea11019adab6242c5b00526024a39eea1bb9a3bbf4189ce3)
    (x := 0x31c2d63850c89f160d28dda01693fe9480742230f73f2032e646b7bb69db3fd2302fc1614fda268e7f1c2e1052784c9390527f1d6fb97030469af9e8e97edf22228ea6660058db0bd1046940cc981143c620b74ce2b3b9e6f65fa4aa807ee1e997d82b5d7b8868f20816c872a8)
    (y := 0x446460c2cfc97974dc756770e4469522ef53f049ddaf6b9075279717e3124668252c82fd43e97646e1dfd58f9bcc4c9144af69ccc9babf9fb308adef9126cad21a62193b1508168ed92f267043d7a21313f19816b1dbff8a031f934b835b0eb4769b3af3fc92dffd0f4abdd6c8)
    (q := 0x9f06a44f54b7144be35004faafc237fdb86b8d3a55a26e3fd0a4bed3cf1aae98d3b777f6d834033379ac5810be52205271742c49af8084a5d2bc0de28dacd9c459942b183bc87b35e34737d5c9c7da6a66f5a3ad8bf220b843d9d7eaa994535963867a34a3695313cb)
    (s := 168)
    (c := 0x102c0500b813832048088110260460c8100210580a41106208c0981a0280661981182004a08c1482205a084130250400ac1b85506209c108460440d41f82504408c1102f04a0ac118240480f01182e050094288210560d41702f04c0e01882c04209c1004104e0ac1482d0400981002a05c0b02002804209c1182204c090258240640a4118260560941b82704c0841503104c0a41402407e0801602505c0fc128330560b0110230540dc1a0250420881082b06a08c1383605c0a42782006008c140200580941b0450440881082a0400881702504c0cc1002505809c1282a05208c138220420c81a826)
    (by decide +kernel) ?_
  exact prime_1536_32

theorem prime_1536_30 : Nat.Prime 0x9048b6307ffe0b5588ddfb82800d6006a423069b8ad0867f81db462449a6db981f27592c8784df8138246605c93affc8688967ecab6650e1b7622bdf4eaa4283393ec816a7d5ea4033c557c23a6f6ccffdfe40eff48c2532c61f6a74da32f1877f923a24e7635ab5815ec5792bdd05 := by
  refine prime_of_step (a := 0x3f5dcbc1a5f3f59096342abc19fef7a4e506b013276400c3a9a49a0749aae8e3394508c34212c7ef3b3493bb05fc61bd0dc1f8db99c03a495479ac680d28671588ddbe7c14fb1a10c71f9945dd4596a7bf3b6b4a9d181ae4ad8aa50d1a4034fd9682cdb461af5d8ba6ca2ca06a57ef)
    (x := 0x7fe864e5dc57a65dc12f6a9c70da34888793b1a37189a2c6055879f969a224121d8e41518f799bc0b73d4e18e43dcfd263c145d4d780a9e04e1c1f8aad3adbce22d7cb2f14d19b3b011e465db6c6ad4db6e0ccea4229ec8f3bfcebd6bb72bfc92cda41d16a0df7e205539afca945f2)
    (y := 0x112b334e19380c1c4467fb6561b65f0da4eadd23e109d54519fecedd34414cabe89b503fe9bb57e2f77e5f6476c5e76e1efdf8ba91072808c29f5ed0849f354a9d1dfd02494dbd6648c04cc720a3b878659f97e43f2032feb73b3959c115ed502fd9b9ee75368e8e2ec538d227e862)
    (q := 0x4a58ee6aba76fd3dd1e0c076c5f5f3b600228992759527e6c138eb4cf5399b3ef5ad487478333497fe450f7020110103e9fd917f33a3486ac8968c25556a21deef18fa4e1a6412245e581904ca921cae84115863a5735beefc3844b34cde05f582e985172170dfe809f91e5ac1)
    (s := 167)
    (c := 0x540841782405a0b81302d05608c1a022058090138240720e01202e0521181e82405c1801903205e0a81b02f0440a82282e0840dc1202604409412022056084158250680f81702e04e080120270480e41082b04e0843783204009011838090080200300580882202f0521341282d06609c1d82605e080108250520a01082604c098110200400901602407e0bc1a0270560c41102f08409c1382906a0981802f0600841502204e0801682605a0a01802904c0c41982204c0b4128230680901a03b0500801082504a084158240820d01303905a0841d02906e0a01183b0aa1482282707e08c13030)
    (by decide +kernel) ?_
  exact prime_1536_31

theorem prime_1536_29 : Nat.Prime 0x160c8c8f735f337d67356432564f8b3fa3cf363f7efb93bdb639213d059d56a8c42ac4599509a723c03357f33c5b5b1c81319778a3c557b6338ef67081b03d51819edc0972fad6242715594eef839c97d57d0a6e3ce278cdee63f73e6e25e7f38b95b548970718619fa0ad89c5ebcf4c0b := by
  refine prime_of_step (a := 0xd2e0f90173f8191a6ebeeaabb756d844eec9d0b52b58c914b22355736a8a9602bc821f03051b1773dc3ae6bc82b22ee7d267f7582daa78c81e802ec59e856c47f31024d9452f4aab4fe8ec1f7648cdb5b88dd3f1f2de3675aebadb91301f0332401476679e654f15dea5e0bed1112f72a)
    (x := 0x474c3f53f38a5adb56f22e4bfa797d3a8ed019caeaefd4db5b6ecf88c20f5686ed0d0acf9a15099afa6da968ca33312a7efe5b240a997800ffc2b4632f7703e40df49e6967d03c3b5d367b0f92731f2aba40c83bae65993b76b6f745bfac43f4351aade26c0749dff31248de923520982)
    (y := 0x7d760ee25b108c6c436e5c76b744012f7399fc3ee145a18c40e25150f02d11f5379635ed07d5c344b9a5219f7bf6782935442d496d4efce419d90a7b21948054a93bbef789dfff87d0dea593b7e4455fa5109376fd40cfeae5bdbab315ba8c303cd01c22756c0672a750a4b492e9ef602)
    (q := 0x9048b6307ffe0b5588ddfb82800d6006a423069b8ad0867f81db462449a6db981f27592c8784df8138246605c93affc8688967ecab6650e1b7622bdf4eaa4283393ec816a7d5ea4033c557c23a6f6ccffdfe40eff48c2532c61f6a74da32f1877f923a24e7635ab5815ec5792bdd05)
    (s := 172)
    (c := 0x2705009c1482e0520a03a030046098130200660901a0230841cc1305005c09c140290500941583704c0941402004a1101803604609c178270400a81282b05c08c108300580a81b02f0420bc100240500ac1a0380560a0138290421041b82a06c1bc100250400801082509c0841302e0420a81d8310460901782704c0b01602206c0981383a0720ac1503405e104128220680981f0270800941f82604c0b01002705a0ac1202304a0942e05f060090260270520801382204a098148200680941102d056094148210480a4100240880a81382d0400a8168360660981102304c0c01302c05e0981202a04c0b016842)
    (by decide +kernel) ?_
  exact prime_1536_30

theorem prime_1536_28 : Nat.Prime 0xfe5458035a248a87e9cf96f1b01a1c8ddd9b4e1880d217b33239122943174f6b445bde3fde600bed1c273be7249f33fdd726ead207ed772f20d64e6b619e6c91f5009edff69567271c03923035ba359d4b12c84bab17948f05947546f6fe78f0f15df6b332f7dc5d36214d2e4d651017883da6b := by
  refine prime_of_step (a := 0x1d331c45f6902243c1fa2efa2d56a0f745ec62e13b930e2ab7f5101671260c9e2cc0b3d109978f24759f73e10ad70f176f8af02977f12c8b0a71843cf9772ef967b12200096b1439b3cec578c4b1a967a9b4c7bdb15cb311a2bbb0b950e1e888c59fdf53b6cdca0df37bfeeedfa4c39993acf89)
    (x := 0x1c9186e7b24768baaeeafdbeb86884b3da812b4dd8085bed23e808f8bb520a7b3b2652f5763f4844f40f191c69dcd13c44e3a7a26b22d4d8f15d0e88f000dfc14cae8b73e2cd32f7a943bd48ebb658b4cd91e1e14fc12fbee034388393bda9360e5d9fb82b9bdc2308aa0ae677d486d9b186cfc)
    (y := 0x62f6dc5635a2cbabef0ba1a338ef5e1ed90400ccd60efa4e120986c185a58020e6e33b977b72caccea58f6d132600de48fa5b92daa9c9413ac99f9fd9ed8ad01e93946dac0ed77bb76bc34d455045b3ada49eee8a940ab65b375a1eb047e598a96aaf5a41bbbae625b6dfe0169ca02f4379bf5)
    (q := 0x160c8c8f735f337d67356432564f8b3fa3cf363f7efb93bdb639213d059d56a8c42ac4599509a723c03357f33c5b5b1c81319778a3c557b6338ef67081b03d51819edc0972fad6242715594eef839c97d57d0a6e3ce278cdee63f73e6e25e7f38b95b548970718619fa0ad89c5ebcf4c0b)
    (s := 181)
    (c := 0x1302804a09c128270580b41702c0420ac1a0260560ac1302f0400bc108260540b01482508809c1a8240560bc1e03c05808c1502407c08c1782d04e0e81a83904a0d8130250440a41002004c0981002904a0bc11028042088168270481441582609a094120200460941182f06e0e0108290420901202904e0fc1302604808c1782506e0901f02b0500c01703006a0881483004a0f81183004e08c1084605c0bc1383a06e0981302f0440901202c0500b41b82108c0981e83a0560dc1202b0640901482b0580b41783c05a0b0108230400841a83c0560a41682605c0881102704e08c2182906208012845050098170200560a41f03506a08418026)
    (by decide +kernel) ?_
  exact prime_1536_29

theorem prime_1536_27 : Nat.Prime 0x34383152303220b187f1af6dffb85c7ce0d03338e7f322fdbaffd7ca98d6793e76391cd1fd189872df17ce3ca574f01cce7ced96bfc0b1c89d2df63d70394ca8990fd26f28cef5528ddd1fc9663106d8a18b9587551b839f7b663b5081d6b052aa66a86f76e26f30971bf1bba0df2d7ef3b8bccd7f := by
  refine prime_of_step (a := 0x2370ddecc1c279d9dc7635b3dffdc6340c86cab6ef43f4dd73c330438ce95a17da2753fd9bd9eeef476d9d413e9d6fec9b30badbb6577104e1b2dee3a02a53905b6afc372bdcf029e675961260a6f5f4ef46ee51a4a0a7b64434e821bfdcb83f442308014110feebc9f314b54ef85baed387a2ccb2)
    (x := 0xc0030ae8a61ef439d02db49453572ca0fc599c9daabeea81f612d7001fbe9dadeb7c4852dca24be5f4c7327db258e7094553ac69c499529a8277ef92716ffc51a1131d409ec6aee567b3f36788b1933d8004911b677b81477b24fd0d1d696612ca1399183e6813b5e44e4cf7da2dc8b5a8a274445)
    (y := 0xdbcb5bc35b699b6b1949d85ad0086efaad061a6383767aa18b22194f769b8c8ef2a23668bf72e0b272dad0fcbfb4aca6fee39d63d4e6aad4425b48758e1aee30cd9c8147e2bd3f4d7f247a2835a03ab08747bcf2942e5a3bd9e874118c5a285b7a6eb5ad36eb31eb62e439c3706f5c9175d5cc4f)
    (q := 0xfe5458035a248a87e9cf96f1b01a1c8ddd9b4e1880d217b33239122943174f6b445bde3fde600bed1c273be7249f33fdd726ead207ed772f20d64e6b619e6c91f5009edff69567271c03923035ba359d4b12c84bab17948f05947546f6fe78f0f15df6b332f7dc5d36214d2e4d651017883da6b)
    (s := 184)
    (c := 0x4d04c09c1304805c09419027040088100340440b42382307e0b81c0250400dc1982406c0ac1282b062080298270620b01282504a09c1682704e0c81503104008c1102c05c094100200460b01f84c0480842c83404a0cc1d02d0480f4168270540f41284c06c0dc1082304408c13830078094118230420fc218260540b41702e0400941a82e05409c160220b40901185404a0841302506e0ac1984005a09c1483004a08c1202705c0941682204c0801082f0500841b0260520fc110270480a01302104e0b41103304808c2683f0480801f8260480b0118260420841082c05808c100230440b81002804409410837056098150200920901002805809415826)
    (by decide +kernel) ?_
  exact prime_1536_28

theorem prime_1536_26 : Nat.Prime 0x5ea5d964f75adb41c6660df75f7e27a257795cd72468af6be2efb71f3504bbc13647843c9abc9450345b25cdebe3f33436426ea13b8d423b9ce34fb211070186858c5269be4d7f5dcdce55d623f51c8d7120351612cc92cecefe57ec3c8c35ac419e8453dcfd243f61db4307d8d9027697ae098fb3b := by
  refine prime_of_step (a := 0x179210ab7d775cd7d813303f4661bb5c6a3e4456b70cccf588a94ffebbf2f2043466b8138fcf2d401b37c01d69dd029cae9b2b8a22689916abb71d41b8b85fd2ab7d9db113ffd127ab8e42a78998c3d564bceb4c006ee08e98a24d0b97a7979896e26f76506759a0ce3d3f67e8985d36a147bfb9a5d)
    (x := 0x4d108a5652372feb18207170dcb37366d28b4606ae59904a75105798e3472e560eb599125c35fda424fb61261f28ba3345d9043e64d363f9b2a64273dc025c134b90de6366406751fb48c75ceff613cecef4ddd2a1b1b0b3d6d91d193603f5703159498e839c5ff178cb1157bd397d34238daf89d6f)
    (y := 0x38ade4cd66499cecccf75a31db1bc1f346e8759eebcfd536966391b66fd745acd6be692d2dc3035df7b8326bc818e4c67d9ca0752f02a0054a14dd8ff4ebb34bff38dcfa1052dd47c49b8a4a1f197e15a087554971adafd4ebf16c125ab39495b678a418cc6bb39e526a2c4bd945cbc10c2dc39291d)
    (q := 0x34383152303220b187f1af6dffb85c7ce0d03338e7f322fdbaffd7ca98d6793e76391cd1fd189872df17ce3ca574f01cce7ced96bfc0b1c89d2df63d70394ca8990fd26f28cef5528ddd1fc9663106d8a18b9587551b839f7b663b5081d6b052aa66a86f76e26f30971bf1bba0df2d7ef3b8bccd7f)
    (s := 183)
    (c := 0x4a0ec1402f04c09c1483005e080140260520802b82e07c08c2a0230620dc1602b0500941802504a0dc1684d05e0a41a02306c1b81602a0440bc170250480a81e82405e0dc1982b04e134148200420801b8230580a41e8370480a8150230440901c02d04a0b41e82405c084170440820bc1b83204809c1183405e0d41183006e088178220640bc1003c04e0ac1202104e09412024044088150330480901383c0540981082904010c170320620801182104c0ec1102205208c1402d0680901182505e0d8110280600b4118260840a81102204a0941103b0580d8118200560901082004e08c19834066090168430580841703c0480ac1182906a0941703c)
    (by decide +kernel) ?_
  exact prime_1536_27

theorem prime_1536_25 : Nat.Prime 0x4663f0547706f89817379d5be95fcbd1307a31cba6ebd9d55ae0dc4372becbaff6a4abe62dd66aae700ff8e279860c36a49b16d32d195a6e6b52ffce3f994f3ad8f7c6170e8dd2417e9de7960b3510872bb5f77aa53fb18ee3651958ef1626d66f359c51f8ace82391d2ef1fb4f1e5378b7963e7e7f4c5b7fe45c1 := by
  refine prime_of_step (a := 0x1b7a4d0113780eb80ccf20dcfa77cfd964d809b1ad7d9309227f9d8461a4d58c09b4b2e865ec7227d36e925cc5a2596654849150bbc7d204de02e9caf9d65f70e91cd92501c5b34d5117bf26a6dc78354e6b7cadde95594a1ae6e573d957ae3043168cd0cbbcd10c19f56e37e2cabcee8e871d4cc2556251c5bef3)
    (x := 0xf889b16e88da6d8daea8e18295eef65171be03b768849e607baab31c49b26f9338d0266382a0f706f3d5a5e88845502d59ff83d1aa2787a1475215f71bc52d8f666b2db1afeebb595ddab10bc2b525dc7d9ea0ad48a7a351c1016e06e5582fbf2b2b47359d5cc41c17108d256922facd3844723484b14a2e33d0f)
    (y := 0xc5634db484df1fb38e2b81a4d0979202c9add0cc79dbfc47da060b8b28ff7177500b8cc441816a1a73651ecef192a0acc925c2b9a76cd8ea6fc4c36fe1c1298b3e7f511a493605a6a3c3f74de6f884fe491e666f48be601895e594656dd00beb1ecb66859cc4745e12fddd2a2f48e0bba9c57a503fb6fe5f02750)
    (q := 0x5ea5d964f75adb41c6660df75f7e27a257795cd72468af6be2efb71f3504bbc13647843c9abc9450345b25cdebe3f33436426ea13b8d423b9ce34fb211070186858c5269be4d7f5dcdce55d623f51c8d7120351612cc92cecefe57ec3c8c35ac419e8453dcfd243f61db4307d8d9027697ae098fb3b)
    (s := 187)
    (c := 0x10480881082404a0981502c05a08c1302304a10c1482104210c1a0360680d0190350640981203504c0b41702d04e0cc138260580b8160290480b0118370580841103004209012030056094138240500801f82b04c0fc150320600941002304a09c1182b07c11c2282504a0ec1782804208c1102805608c148220500cc1182b0560a41103405e0a0100430920801282004c0a41902a04a0ac1602a05c1341182304208c1582104c0d81782709c09c1682705c0dc1383805c09c1302804209412827042094120250481341304e0400fc1482004a08c130200500941a8280400881602d0680881382009c0ec118250620a02303305e128120250420d41184205e0d012836)
    (by decide +kernel) ?_
  exact prime_1536_26

theorem prime_1536_24 : Nat.Prime 0xcf56b54783584c9240777e76d725ebb59f30a7efd37fe813f2e62694599e3235c3f09ceb6bdb13461acc9ebbebae7c86417997a173cfa3fae8403cc01f18d58c3c9122aad49845eccc72321e9dbe66e34a30a942dabfdf82211b8daf02dd92350fa51e32083dffe1afa30e03607e95208e5680d4737db0da4fd2566a5a866491 := by
  refine prime_of_step (a := 0x6a7a7b504e7684df68d60a677c6d6310801b6f310f8d6e98ab544367c3b6f7cd0d77fe23ae1a75e148e15183581bad3344a6cbe90f834d841d5a2c17a893f0a233badc83f3c5c5a9cd9ece217c65cfe72aceb845f3b7955afb9105f275f66fd7930b922eaa7ee545cd5737e757f348f8615b2b39d039ededf0cbe983036b4bd4)
    (x := 0x49f5e8793910a6bedaa61068b5a261d21114d43f64d8c787ec3db43c7aec1e4205a1bd9a057b28610dccd273539654218bfee46bf52a037a592ade28e54476defc7086a9973e9466615e35be11e8ae3e44aebf56c00e098f9f4f1d1ee4dceefcb0bd96c23edbe09c3fe2fedbcfeefddd9c4ab25c7025b3eca52320010f78ff9f)
    (y := 0xbb899e81055431602539d4ce4e46a70314465632de5c5f08c95570c4f2c62c4f586d39301eb573305cd1f709d12a331e7506a6cabf56c6ce5da1422290e9e3624d98d861c85bae10652b02ba5d0918402255c620b3059e9b51275fb73296a1de16d76b3fb9ad17c12b09cb6eace348699d716941690c3abf7ddedeba642b3b7f)
    (q := 0x4663f0547706f89817379d5be95fcbd1307a31cba6ebd9d55ae0dc4372becbaff6a4abe62dd66aae700ff8e279860c36a49b16d32d195a6e6b52ffce3f994f3ad8f7c6170e8dd2417e9de7960b3510872bb5f77aa53fb18ee3651958ef1626d66f359c51f8ace82391d2ef1fb4f1e5378b7963e7e7f4c5b7fe45c1)
    (s := 198)
    (c := 0x9c1282f0680c01103304610c160200420e01182b0480ac110230580881303c0420d4100210500d4148330420b4158360580941202604c094118390460801d82d04c118108360980b81382104c0b010820046090130210440881182b08013019832048084188390760b81382a05c0a41702205e08c1382504c09410823056098110210ca0dc2682f0440d41682305e0b01602905008c1002d05208c110270720d01102406a0d41302804c08411020050080168260480b81a024058098138220880bc1782406e0b81082704a0981782407e09810021046098158240560981582904e13c1302505a0a01382d04e0b41082407e1381103f0480a81582404008c1202105e0f42283c0440bc130230de08011830)
    (by decide +kernel) ?_
  exact prime_1536_25

theorem prime_1536_23 : Nat.Prime 0xf54f883c1365ff1e344e70cbb6566153d30f56dd57358f92642ced6a9a54d34b4d2a4484684c831a7c529298f99ce1dbeee4ce96b90f8db4aa7b8a70557ac79e2b1ff611176dff3816bc4630f57b93b4b49a1e38a528c2cea78c839fe1f14e4ce324a0f719100b386bfb539614b03ac596284e62aa5bbdd9c605d01f6afbb4f8a8fd3 := by
  refine prime_of_step (a := 0x47155565717ddabf600443a106a0e04f83485edba02ae3c8163abc95321ee5b6578ed07a802cd50b811d2c35fb511499c01ddc4bf3576ded979e091e3028d77cea673b3a170268026c906d4382bd442e9c4f83b3c1e800b02bb5845069d94b88bb0b362f128ab7c5eaba879afce85055313dc1bf60cbe2b25e32492f09885ca02aca4)
    (x := 0x1a1ba8ee8802df77e09d16b93e37315cf1d637dfa55f6822bc376ba3aa0e47da492b3b666b40a272a47e51e509f21a26d6334930e7dfcc47a4527e21e56f841004998d2eadda9fab6b83007a8008b0ad4a1d22c16d5d542d8b654751306b85262bfc40fd8e7f7173b4a64a9592cd3828dd5328712d9bd7dd2104537b039d69c1d7ca5)
    (y := 0xec8ee18fe2f1645ee3a1bbc8d4308461ef3b440119a1559ea4b2161ac9d01cb9fe0ddaa4a85a7bcde87207c90669ec01821bc987184b688230f8e1dd52dc9db769063638cdcbeb8d3cee995d624c7134b309b67ad6b79fd2d14b6a38f8b45bb2af483dfba04e25ec19e9b18d3b48d01d0697978fdb09c41f1e5e6d13289e3176fb3b3)
    (q := 0xcf56b54783584c9240777e76d725ebb59f30a7efd37fe813f2e62694599e3235c3f09ceb6bdb13461acc9ebbebae7c86417997a173cfa3fae8403cc01f18d58c3c9122aad49845eccc72321e9dbe66e34a30a942dabfdf82211b8daf02dd92350fa51e32083dffe1afa30e03607e95208e5680d4737db0da4fd2566a5a866491)
    (s := 199)
    (c := 0x4a0b013025046098138240860981d02f05409c1c0240480d01582305c0dc1083e0480b81282c0420a01103c08a0ac3284a09e08c1083204a0a81482504a0fc1282704a08c100340740b41682305c0b01703204a0a41d8260420a81f02408c0d8168470400bc1c8240420841a83105a0d41a0270ac0b4140400480842404705e0b8130290400901502704e0a41302605c09c108280520b01282505e0b41382f0400d4158230580841583704a0a8148280440a81002604609826034060080140290460cc1702407008c1202504e0a41102007a0841383f05e0c01402c0c80801703d0520ec1c02e0600d01102604e0a01382d04c094248220660ac1a02e0760941504505409812825044098110310420a813820)
    (by decide +kernel) ?_
  exact prime_1536_24

theorem prime_1536_22 : Nat.Prime 0x4440ab90a4874b159e4852a1129625a6746398d865c194a6df30a836218ec0db0ac5b99c39cd9079d8bec94a0430dc18a756a43401875fb4b7efb7152b68153fd4423a054e7546f0637233b88d6c8c87d8ca81a40ad99da2964a2e2bfc91c684e569467c952524daef51fc9577df6daaf6504943ed89ef87691ae05bd95023773aa2f50078aa4fb92b5 := by
  refine prime_of_step (a := 0x416db7868d139c72679184e4617e0e04e6417c5c7cf3cad8e32dca2920e7a9059593f8792ffcdf22a19971a442c7a77ea122248677bbede15162c3b8e805fcca1e35b869021ec26af7f0aa3dec98d0a5e75942454961e356a29441a74bc04d2336154c7d611c74e5e3c92cfeec57a8a87d27984ac82595069827b265b0a4cd3ff28ad4a1b11a0eb9eb1)
    (x := 0x3fb6bc147df9aa6717579d554797dcc9d0078bb8881a1df5147d46fe9a089c9ad854bb6c9d2c2ce7d6aa2ec2a7a67992b00f7f8bde511e6639355dc864773086526580ba8a87f9ec1d7968c43d07545283149f7e50305fcd62640dd4c702d87e18dccbfa80e1e30bf107dddc6d7baccaf57fa678ece21aef886aab9e696cb5fb31eff4fc9ce5a7f0b98)
    (y := 0x29631f8d72e32234d30ed347a206978ec3b709dc0d50d7ff0e63c1fb0d6ec43864ff6a4f20fd37919596abf134bcf9227efa0296311af52d95e560f860aec073ae00c328dca0c1f16f2ac53e217f1263a900508268aefab248536b604fe2412169fa8cf3e2faea7cd169e210c8823d5bb9f94b179f7efbfd81e1e9189b9be13ead6a8113f280bc5ba9d)
    (q := 0xf54f883c1365ff1e344e70cbb6566153d30f56dd57358f92642ced6a9a54d34b4d2a4484684c831a7c529298f99ce1dbeee4ce96b90f8db4aa7b8a70557ac79e2b1ff611176dff3816bc4630f57b93b4b49a1e38a528c2cea78c839fe1f14e4ce324a0f719100b386bfb539614b03ac596284e62aa5bbdd9c605d01f6afbb4f8a8fd3)
    (s := 211)
    (c := 0x480881102c0400a01204205c0843383f04a0801582b0620841202e0420981083a0440d41082007c0981183604c0b41702f08e0a81782004c0ac118260440881282a0440941082204c0881282a04409c1382004e0941d02f0720a41102c05209c110270440bc160210560ac1d82305808c1182a04a0b41082e06e0802382e04609c1102204808c1902b0500981303e05e0d41f82605e198140200520d81184c056104170240400a414820058098120230540901282104a0a8128200480cc1902a0540a41882505a0881f82f0500b4220200580c81582a04a0dc128270540a01603705e080200260560801704404a08816826050088130300480981482504c0c81d02d05e09813027046090160360560a42082d0700b0118260680d81104704c09c22821)
    (by decide +kernel) ?_
  exact prime_1536_23

theorem prime_1536_21 : Nat.Prime 0x47d3b1f4d2c1462d93a40b824dbcaa21e3e328f9d53e617c7bd7789247cf0dd5709b174c46a02a4696a816fbd2dac198beef6e041e2831d90fb2dccfb99f426e4b02d86c3798def16ec1c85d32b8e8c3ebf63d8bba0e98ec70563d56250283ab82ee70a64427c440e2235f2ca05442d9d8d2010a304f55c3ef4804aecf4bdbad62935c58fc2a0329c2fcd8b1faf7 := by
  refine prime_of_step (a := 0x37ae139b7135ee011f69d58fcfe41c9595b55b7c29637eb37f5b945122a5a470242b6e54e2af16cb3719cbd894d1fef22cdd665b94e4b094d09c24b90f43714844459b6074918aa79180c77c8169db9e225b2d79aa40944b4c091672a2f0cdd09b6232c1f1dd0cf4c60859bf6fbbd9974b55aaba04b6e77d3656cd55e6fbbef48ee1103bbb5fc4861398588a0512)
    (x := 0x2c05fc3158742827c4ba8d536d9c6609ef060b1bf94f0512e92041b6b8e2bbb17cae87cd968992ddfd7034acf37708a90b80dde5ea5598ece82204ad98cf8bc88cba39f1588151f39c3089fa0e2b80a42918b2a92a287f859dc22489b85fc722288ce14394bb50064063acdeaff9e6ac79e313dc459c69b944e74ac8bf8a8553ee427bb5da124e649f94d9a71675)
    (y := 0x2339db16dec9f56e04860972fd8cd41cd7e98716a7acf24048cd6cea43bdca77d4007f42dd2f58ac280d2bed2e8ae8cf8b06ae45252d7b39742901e1f92857a95c8046411cffedddabbc32ad7aeeb6a8054c8cbb3beeb69fb39e5267f7660b562f4fef1046633fb6b9e55c8ada0adf8aff0b3c79f59f06e11fa8a2f99980fb035350bc832f921e8d6f85198e1a6c)
    (q := 0x4440ab90a4874b159e4852a1129625a6746398d865c194a6df30a836218ec0db0ac5b99c39cd9079d8bec94a0430dc18a756a43401875fb4b7efb7152b68153fd4423a054e7546f0637233b88d6c8c87d8ca81a40ad99da2964a2e2bfc91c684e569467c952524daef51fc9577df6daaf6504943ed89ef87691ae05bd95023773aa2f50078aa4fb92b5)
    (s := 221)
    (c := 0x100200820981b82804409c1002d0420bc1302506a09c1882704408013827044098190260440941202705e0b41782e0400bc118390540a810823058084140220500b81002005e0d82582e040098178260460841583b0560ac1782806a0d81483405e0a8150380620c4118390400881202605c09c100250b20801b03404609c1183c08c08c1002205408c1284a0441101102004009c1684a0440b4168220660901c83305a09c1282406e09c1282304a09c178200680bc1782209609c2502304a094120250640841782a0520dc1304405409c1b8250740b41302504209c128470540881382204e0ac1702407c09c2b82104c0901a0460460b81303e0540a01382a0400d0170320580b01003604409c1282307008c1602f0440e01982405a0b411029048088240240640881503406e08413022)
    (by decide +kernel) ?_
  exact prime_1536_22

theorem prime_1536_20 : Nat.Prime 0x11f4ec7d34b0518b64e902e0936f2a8878f8ca3e754f985f1ef5de2491f3c3755c26c5d311a80a91a5aa05bef4b6b0662fbbdb81078a0c7643ecb733ee67d09b92c0b61b0de637d2ba3d1d11966dd44bc504be755b85fd1d803ba2c9a55df93a2102ff5e5b6fe8753351f608c839f7d92e9f10b3230281d96e65b8c597aed8744325ebbb6ce92892fd6de063f06e5 := by
  refine prime_of_step (a := 0x7552c9efa656d8e7d38c90da6a335a164ff51090859ca87128d118de1c553602d404e2dbbae63b98f837991776b6a6a29263bfcbe561ed509dac9d313f1794bcd241e50f49e97f04f1e272ea58d81295bd8f8a83a6203b383f1d1846b789bc798e7b458dd9b97ad3d19501eef9b9c846bfb273a4470e300f8ac412299bf17d9347ca142414137bd64982111745b6)
    (x := 0x83eedff52ac0f9a4caaefaf9fbfddc95339489910bcc758d9260929d39484880c7078256a76469c774217407a16bb7f4a4847f2784098f6f28f6689eff9923c1bf836a8ceef66ed066d688d5382ea6bdbcf80c3c77b0a3ddbb3012bc8f2e6b2649e19b1017ce637d949a9c76d8ca88d48f0125dd72d6bd2a3ec603a8425cb8443bb4d0b852c3fbdcd5619dabe6ab)
    (y := 0xa381b0e4947e6aa759163e9b21a9675a94b9b6275c2b0328da054828f4f21c3a0f937f29b4dd254b0c50e90da1a586f21959247730784578b72f156bad86b2bedabcae85f0ded413ccf8af3d4a373fe31324642caf7604376e23b5d4eb105eaa0364a067b040f08d5a85c595200d6316d4685505ba7a10803dfe3f4fdc25fb5e399079fa934c0f14d25a3d770e83)
    (q := 0x47d3b1f4d2c1462d93a40b824dbcaa21e3e328f9d53e617c7bd7789247cf0dd5709b174c46a02a4696a816fbd2dac198beef6e041e2831d90fb2dccfb99f426e4b02d86c3798def16ec1c85d32b8e8c3ebf63d8bba0e98ec70563d56250283ab82ee70a64427c440e2235f2ca05442d9d8d2010a304f55c3ef4804aecf4bdbad62935c58fc2a0329c2fcd8b1faf7)
    (s := 224)
    (c := 0x270580881202f07a084110260840a41482e054090138380460a013821046090150220400801f82c0520841382c0560881102c0420c42382c07c0901f82705409c1e8240760b4110230740b81482d042080148220a408813825042094110380460d01202204c08c130390420a41a02407c08c1c0280480c81402f0480bc1003405e08c168250680b41283d0500841182a04c1041702005c0ec120210660b0120200460d81403705008c1102504c0dc168290401181e02f07c0a41202d086088178360660a01302f05809813020054128218220460c0118230560a01102f0400e8160200400c01b82704e0b81e8260540e01102005008c1283606609c2403a0521081a8220460801a02c04e1681302404a0d4108240460b4118260640a8128230520bc1a0280441241502b0621141702905e13812023)
    (by decide +kernel) ?_
  exact prime_1536_21

theorem prime_1536_19 : Nat.Prime 0xfb64eed8e1a4759f84be2848101453769d9b0f6a6a5a5533b17225fffb54b06b0a1ed18af73093f70f4c507161fda5969c46010e698cae77b6f204d709ad68820689f57ac2970e04040cfeecf51320f0193715020f404753d9bbaaa8208b4635101e20ef94ea86e01df47b9a65a9ebdbed64e3941091f8063e871cae534ccf05097cb97e6941e4556b519d3fe87df := by
  refine prime_of_step (a := 0x39aa41f63d627c0c81674f32ec5e6bf7dd5b22d31a4396ad3f126ab817b8d0054c36ecc127894dae38fe20374c6254f51889f0ca5d5d55bb76798c61310becb803a26f5beda8869a440f8d65d3523936e3fa0eb9a65d129f398cbd6c04128fccad5886525fb75dacef4d1def7ea91736b811160f0a9ae5a6946cea9ab895e60e5d88668bc1204ca422527071ee9f8)
    (x := 0x686a8081c8d6ca719fa6ce37eb05cbc353727ea8fbc12e7b2c466785c4b53b640223180999e8b99197472d6e65d997ed65b3e8376f0ad809a61c25ff90d2a1eee6de90b2156faa0077e7b3ca3580c012f204b3d085e93380de0e23319924ddde5e13e76b25be18eeaa82e40b672c4dcf5c66672166a9143e5bc9e8a7dde6e7c157576cbc71a4398c58e37631a47b0)
    (y := 0x5e855c6712283741e9eb6e8bcb0160bc54227a220d5b8cab272a7bc52e1844fac44e7efd7e1cde4fb669b6f2ca0b9d7b8305db49561ba16a30b163b3f5de277099105a69e00c0caa56a34ab03e5779c34c5788683acbe6a2b535b4af58f263508234a7a49792ae4019e3120b71f6df452491946558bc5a6628a5fac120b94dcffdc5645bce7b579b5a8398fe971c7)
    (q := 0x11f4ec7d34b0518b64e902e0936f2a8878f8ca3e754f985f1ef5de2491f3c3755c26c5d311a80a91a5aa05bef4b6b0662fbbdb81078a0c7643ecb733ee67d09b92c0b61b0de637d2ba3d1d11966dd44bc504be755b85fd1d803ba2c9a55df93a2102ff5e5b6fe8753351f608c839f7d92e9f10b3230281d96e65b8c597aed8744325ebbb6ce92892fd6de063f06e5)
    (s := 231)
    (c := 0x4e0b01102405e0f41082204c1081482905c0a81202707008c1402704208c1202a0440801003f0580a4108270580ac11022058084188470580f81203f04e0a81383d0480ec168220460e81702905a084100290441481102704a0841282207008c1a02404409811826072084148340480f8118380500901902805e090178200680bc1182d04a0d01682507a0a0108230540982082e0400b81d8240420cc1602204c0901382c04e0b41002904209417023044080108240640c01083d04809813023062110138360900901202704c0a81282104c0901a02a05a080140410bc0901082e0461341002d0440941702708c0a01382f0500b41a03404a09c118220580801882505e0a4250300480bc1182d05e08c1b82f04c0841f02405c080168200400bc1083e0480d81182504809c1082704e0841e0260460901802f0680e41182a)
    (by decide +kernel) ?_
  exact prime_1536_20

theorem prime_1536_18 : Nat.Prime 0x1301e271fae13a240b4054d5a7e94eb9d721da781b60d43dae353fd560b07e8d61284d0bd847d66ad9065db96412dda216d9741889d3e4c40bffd69e74ca73214ed7a44e12f5e4874520add6c4b2459eb0a94b1e6a04c19bcefe59d49cb0635fa24ff2aa91308c3bf0fc774d6cc16ff17dffe1786ad2965605687980d0d3913baf56cc690256b617144772649864b76adedb3f := by
  refine prime_of_step (a := 0xe25cae7b02868db4277e7f798ccf206ba4568c4363c12f9cc0b9834abd48e458a89b2172e650fc20462047ec0577cef0d1fa5cbb88cd692446fb5cbe970ece13edfd23b8ef57dfd2393d9b25f0caf701a2b53180ba4616d8bfc42244a2cd763e8f03ef11efedf5b17466c7aff676dfc35db2961e8d4dc3a26dfee46abff1c854476abf5c44a0a3569863a0b623569c531fa85)
    (x := 0x26c56cfe1c9d6eef27cde518734d801a829605e96341c0aab2e071f5c2e859bf0fdcc08d628f4a254170076f6162649aae8a970092de620e70d860bbed5e76eeef78e514805e5a8af46f4facb732f43587fbc3583d2ffdc41b7001d08291ba2e50091cd1fcfb4e94339f83c1440dc265c020c4d13ea21f50c80d1b1b32e49319c950becd9a09a479eac5413c4d40291d20da9)
    (y := 0xae097f428b9945e35669d96c2ba5f6849538496fb8d7a0b9403ff0466174711a83f622d0291ef91118686325135ea53971aa9607013d606752477f64993cceb582c187481c405b71cf41c403d07f9652b71ca08aafd54b8ededf671282e853129662811438d6cade3ef65fc95e05d434b5bcecd42759e808dd718c40ffba184c5db4a8389c6ed56f154a3937dc286f6575740)
    (q := 0xfb64eed8e1a4759f84be2848101453769d9b0f6a6a5a5533b17225fffb54b06b0a1ed18af73093f70f4c507161fda5969c46010e698cae77b6f204d709ad68820689f57ac2970e04040cfeecf51320f0193715020f404753d9bbaaa8208b4635101e20ef94ea86e01df47b9a65a9ebdbed64e3941091f8063e871cae534ccf05097cb97e6941e4556b519d3fe87df)
    (s := 223)
    (c := 0x680b8150240480b81983104409c1b0250680a01082c064080138380a40c8158360440901282e0400b01282205c09c11827044088128360520dc1002111c088110260860981d02004808c1382f04c090118210500a81a0230400d4108320500dc130200ac0881302104a0ac100290900ec1082205e0941302d0480f81183f0940941183a05c0b8128200600c0128320680981602606209c1183b07010018025088090128240440c8178280480e017821046080110380500d41c02705a0881f02104608c110220440c01802904a0a4148220400e0120200500902382205a088188230800901a0270580b4128210420941103e04808c1a02e05e0ac1982a0600e8138340800bc1e83b0660a81182a042088128250481081402108e08c1084504a0a81403f064088118260440a4158220ba0801a02c)
    (by decide +kernel) ?_
  exact prime_1536_19

theorem prime_1536_17 : Nat.Prime 0xb361c913afad94b42a2f20a060a9d6f9de4f7dcd8261d3061c168a6dc081aa5644ec571fc925f790602c1485a0720ba9b7a437a794bfbefa313e79776e369e8a58131ea0d2f09cbc9c67dfbcf93ec231bb8128fa33fc3e83bc7eb4ce2a1c1b2447bea69807fa3d488ef694b136a87fc602a83d693f3834d49d0d49d2f2c4ebceaf2ec17cbb064304d74b841635e5aaf4ce9818b := by
  refine prime_of_step (a := 0x269210f6f039acb1845055ba4f6480b90a0a15e6a634dc554caa52c492eeb98c45ef15be5737db0654895f961d3aa58e69b8db0d82f9bf66b619a188853cdeaec168b49699ac3b37c0a2e08cc78734ce9f890b3cc684c184886b18381063d0ce6c49440523b2989ce2eccc7628e07c672644647e661d5b9e8dca7f7319e6f696900650d8e527748b07a056519d765840826698b)
    (x := 0x1ec87dcbb54a26d14650776e17248a517fc57b2f41fc6d21380ad272c60a557e92d56659929a8a2c0fa0da0d769a05ac50cd84d304d070307f951fbd2911a4f9456288aabd5835701f0f342258da1fd5c7e63c77937daa062bff3efb8ab2ef688b8cc128f7fec53c8b9fbde98e5d2ae73df61411046f34f3f08c098f579d6dd7c8b1445a4800f180235c1b6ba96a2b2d5a53795)
    (y := 0x4688375c3f306721d0ff6e9c28aca8a9404469257c12575473e22a262d8f772f87e31c2cb5cd39b60c160896bf4d5a4734d625b032b60c0dd4b49f2a4918a6a6f2521d55c8da742fcbb203df7236af05ad7311aae89851081ab286d99fc24cded8f27ca482ce1a6a5c67f200d0eaa4cc4237ce4db6c525c513b7ce32c576a00040971ee892469774075e32c2496d1b70da6d1fb)
    (q := 0x1301e271fae13a240b4054d5a7e94eb9d721da781b60d43dae353fd560b07e8d61284d0bd847d66ad9065db96412dda216d9741889d3e4c40bffd69e74ca73214ed7a44e12f5e4874520add6c4b2459eb0a94b1e6a04c19bcefe59d49cb0635fa24ff2aa91308c3bf0fc774d6cc16ff17dffe1786ad2965605687980d0d3913baf56cc690256b617144772649864b76adedb3f)
    (s := 234)
    (c := 0x841c0240640dc22823074090138270820942902205c0981103c04e0881b02d06c0dc100360440902582e0720881002c05c0dc128220980981302804c0a02283304c0a01503a04a0c41f02004e0d01302104408c178390420d81182105e0a013823048094100280460b81082d0720801002b04411c108200821b0130220480ac1102f0440b4178280440901702c04e080158280420f81a8270400b41482708408c1b02e04008412827052094160260500881502105e090108220700841c82b06a090268260560881502d04c0a01782e08a0801504404209813027040084140290400901a0200680cc1182205c0b810830046110148340c80c41203104408c1382204c0841303004c094100240420e0128310440dc1902406c0b01302e0420cc1384a04c0b8170280460c8100330460a812827042080128270460d81102307c08c12834)
    (by decide +kernel) ?_
  exact prime_1536_18

theorem prime_1536_16 : Nat.Prime 0xb361c913afad94b42a2f20a060a9d6f9de4f7dcd8261d3061c168a6dc081aa5644ec571fc925f790602c1485a0720ba9b7a437a794bfbefa313e79776e369e8a58131ea0d2f09cbc9c664ad3a7ca57c992e0dbf609324fe23b09729c8e9e22198daaaafdc3ec49eba39b335c0b46d6c7042865150810bf48445d6fb88289c2466e11210485bf5bb96ab8e2799f90dd087e0f5255 := by
  refine prime_of_step (a := 0x4d5093fe9a38198e650cb72af7712d775779fa5ed7a86cbda55a40ee5a5924a21e8334de120c69d66af49d55713e8794712f5d49a2489aa2d88efe9c1728b8751dfa57170923d820833bb02b3a1301d621ac6ccf433eaf2586951fd722bcf601f254e5bf2eb6cffa93c1febba623bec0b9851d4100241fdee032a172ddfa9c41767c8866b8ced84bdc5fe6d19bba68d08b565722)
    (x := 0x62f5f057d2dbfeefd574a530c25a4b74d12bd3e43ecb17ae814830a2dc4c1413b3bcea8e2ef6153b9e9423aa5ec58f2abc549c2b558598d1208dc6e9321c122c9746042106de2f65301ca9f836b93aeb3a43bd733097f3508c11faad5115547b46b53d2eda9f293084bbaf07eddb0f047b32be31cd3c997370163f78c52d5f8c3c96d6369f7dac35257ac9384253e9ea545c5ae2)
    (y := 0x6673cdee8f58ae3015c57279c60d2d4d47c60c630ee5adbf93ab0c4ca30e76e3eaca86b8d23d4af572889a96ee19022c602ed45dce9f75429bf83e0afec12f1208c814bc89b14046eba197069e636ece07d0c0f037df9f7d77ebd429c266f8692a73a38b5aa350867b95ce4abfa7dae7368632dd43fd4b00b47358a70cfbfa61bc273f97a62de43fce35ccc48ae64df5e6255a22)
    (q := 0xb361c913afad94b42a2f20a060a9d6f9de4f7dcd8261d3061c168a6dc081aa5644ec571fc925f790602c1485a0720ba9b7a437a794bfbefa313e79776e369e8a58131ea0d2f09cbc9c67dfbcf93ec231bb8128fa33fc3e83bc7eb4ce2a1c1b2447bea69807fa3d488ef694b136a87fc602a83d693f3834d49d0d49d2f2c4ebceaf2ec17cbb064304d74b841635e5aaf4ce9818b)
    (s := 230)
    (c := 0x20941702005a09c1903608c0b81502104a0a01102907e108208420440b41183d0480901502c0680b417030042080168210720ec1c825040088170230701041102204c0bc1902405e0981b83c05409c1083407e0e41c02607209c188250600dc180230440841182c04e0ec120220480a8108440680f41483207a0fc118230460dc1702206a080110260940bc12022050094108240500ac108240540dc128340780d41602a08c0a01482904608c1c02104e0d0138250880801e8280480fc270250420ac100220760a01702a04e09c1603d0440941084009809c1a82204e09c1202404609c110260400ac12822040130148520440a01f0250540d01582804a0841102a05a0c41102a05a0841a8260640d81a82404c090108360720b0108360500bc1884205c090138230500e41782e048084170260480881282d0420c017826)
    (by decide +kernel) ?_
  exact prime_1536_17

theorem prime_1536_15 : Nat.Prime 0x1ff87a1b5725abcc72bc96c5d0ac2b4b2179da3fff5b40808d51a452ac1a41826d94685daffef394440f9c15dd425ec52db17d79b7042bdae97fe17e3669e551b43af515c8ca36fb03941ccf323d5cbca407722445cbf3d2c82bf25e7cac0e4078259b9d48d3a8691a90785a43c79aec1db61eef6c215dbdd11c0e03b52c9c6084d9b0ac153aa6cb451c92bea7960b10a97dd4c205f80e1e1 := by
  refine prime_of_step (a := 0x170b9c524dc08dc1afe6db36f332d7e3fef3e260e7a8686fd4d3a2a4d15af04695ecbb3f916f0c6a2e4c8e9bc3ddca6d2382f5ee7debb6de199c85ba9f15c48eff3b53c1675bf51dba9a9e41e1f0742ba9e74e41e25c92b3eb64c973397f5eb9af7c1f8023e69c2deaa698b6e96ed6a25e11769b5829baf25c5742521345a6479c916126f1d980c6d7b4b21724b72feb24ecd2275a4f6e409)
    (x := 0x1965e2a596dc23ded24900f18c5cabaf779b5789cc1f89e9e0eec938b5020aaf01172be8befa871a09ca2bc8e15b0fbde86661a762c13f7a55f4352e624786e9f1317fff0e1bd9294afd2d8fbb6aaba73c1483b9607f86a8667bf1da5e20b7414a332af1dd7880a7a2d5eaaa243fcd49afa4470b0c8f4828803f144170a7ebd51a5c275050cc100b89a308dbd8fabc0c2eca9ac7e5b2ffe68)
    (y := 0x1715464974f260b39168d50228248bd517af0470397d53b9d89a9a6d49c5f979af5c4cf942cb25dde84a7224ef8285670e1c7d5a99cb8d3afe10e5f42cf2bfc394e637bb386723bea8db9af4277539fd810989198d33c42236c18e227ed3f900553173c76e2fa9696c7d0bd8a37b5722d233bd8c905a7bccdaa86fae1cc972e57f54948ae0c4b28e462c5824f6044ddb24cd1bfe6ac68cba7)
    (q := 0xb361c913afad94b42a2f20a060a9d6f9de4f7dcd8261d3061c168a6dc081aa5644ec571fc925f790602c1485a0720ba9b7a437a794bfbefa313e79776e369e8a58131ea0d2f09cbc9c664ad3a7ca57c992e0dbf609324fe23b09729c8e9e22198daaaafdc3ec49eba39b335c0b46d6c7042865150810bf48445d6fb88289c2466e11210485bf5bb96ab8e2799f90dd087e0f5255)
    (s := 231)
    (c := 0x104a0b81002d04e0c81b04605c0a8108250500881483f0841042102205a08c1e8240480a81603405a0b8180210400b4108390760e4128200440b8118380820881102605e0c81202f04c0dc1e02a04e0841a03f0720e01303904e0c41283006e0c01182204208c16027076090110240540842203407a0a41903d07e08c1182306e0b8110350400881304a05e0901102804a084120280560841f82b0520841502604a0ac110470440981602a04a09c118390461381802a05e0a82b82706c0a0108370440dc19822048080100310420cc1702604c0981a0230401181002a07c0b41982b04a094128230820941982e05c0cc1803a0620a8100220500e01883c04e0a01002905a08c160230401081002b04009c14821046080138270500a0138280460f013023046084128220460cc1903504a13c1d82d0500801a02807c09c15022)
    (by decide +kernel) ?_
  exact prime_1536_16

theorem prime_1536_14 : Nat.Prime 0x7b27853e797f58fd9aaa7f3b198876f5758007bd2e855f4432605261867d5401906502d78508b6034efdb15e2944be58c5b80a3c7003cd7f521f607bd3538420efa86c405e6b14328714f7ca14fc0e6f670ed06546ebe000c2fab1b5a50423c9daaafeaa4fe205580a73d9275c2c428e580fdffd95125a2088e873e7e9b4eb2ae965077b26793635020d75c46ddbfe284a4cbbc3e61f306d90251 := by
  refine prime_of_step (a := 0x6ab3f6602b5247dfbdd396a5339a8665cf4235d5951f65f5b0ba921e2bb914f71fa93615a5afe12aefd7acac6a2a5559a16b680fcb1e193487fd4fe93d72159e1f8edd7d3aef94e2247c0a7776a77de9d0692cef1d9f67e02b23c0ec4c45d78aa7241dc7881e033497b5fb5a1269bdc9827e6f3280cf9e9469e43029a44f55f475356c555e47d57a0a0ddbe2609a1c005555660fa85436ba1655e)
    (x := 0xd0412c053bb51cca690af905cb51d1fd31229a06601e86cd2c02df31a183c9bc6181c9ddc7aa527fdd7861aa8a729202bc8ab0eb0f557c7f0032af4865fe62b889c7d5c5f17dfaf50483566dfce67e2e059061ab9e1c051640fcbd76ce0df8b545d691c1c986276bfe3627237ecc82b2c7a84108d922bf3d7679bd2e6428fe2ed6061c7c0d8e048607cd9963fd477436d5c9c246b3c0b7ab5c7c)
    (y := 0x355976b3c4d2fcf3fbf41bcdb7881ac52f6c75dc766931b67d19d61a34f80d9981bd1ceda1bb610a970024e178221de9192c6e044ee4ee6a43293e3c5f991929478248bac4f10a65aa487b634785bfc2eac6e1d8f4383857bc7e3395c3e511cafb9066a5369d7ecb5bec985e1be76cac7bb98b8691bf95fb65ea427d977ce3c0112b79039b160e4e23cc30cdd881dd1b95ec0eb46d1d66da9b933)
    (q := 0x1ff87a1b5725abcc72bc96c5d0ac2b4b2179da3fff5b40808d51a452ac1a41826d94685daffef394440f9c15dd425ec52db17d79b7042bdae97fe17e3669e551b43af515c8ca36fb03941ccf323d5cbca407722445cbf3d2c82bf25e7cac0e4078259b9d48d3a8691a90785a43c79aec1db61eef6c215dbdd11c0e03b52c9c6084d9b0ac153aa6cb451c92bea7960b10a97dd4c205f80e1e1)
    (s := 240)
    (c := 0x540400d41882304c0b41382304c0d41782d04c0fc1082e0520b4188260400981282105e0c41202b04609c4282304a0e01c02704a088198270400881302608609c1c8300560b81082704a0c41202e0c80901582a0400801802c056108118230440a01083e05209c1182e0521181a82e0460c0100260580b8168210a80c42782e0420881202a0440cc1282006c0f81382606e0a4150290461182582a0500b41283504a09c120220460841202104e0e01202d04e09c10020046084228350420bc1402609e0841a82c04209818037070090210260560b41682204e094158220620881382e04e0a01202804609c1003f06a0b81b0430460b81002c0480b01702807408c1182c05a0801984b0700d81102105e0ac148300500ac1282e062098180220560881102e0420941482706e0a81303d0440d41302804c080140220420b0118220420a0208340a608012028)
    (by decide +kernel) ?_
  exact prime_1536_15

theorem prime_1536_13 : Nat.Prime 0x80c82b3b0ca3c90af1bdc5f4533653e957373b1eb63313fcef38c658f5c8fd114478ca15d57db43bca8db6d7004bebba96575ff05da5fc5b33a45ffb11934535ae992b283f1e1337d96e58b7faf1a750bf23af29a4bb74b1766b5fe165a0a2ed5e9dc8e42c15b477b66e804e3e43b19a1f775d14d8c7f86d7436b9d2c03ce51ef3345e2d1f5eaa1b8478acdf8d5322c69e72f2905d8fd7ce21baff5fdaf := by
  refine prime_of_step (a := 0x578ef248788dceb93f5102dc1cb2292bbbda0323211e2d91da4885ea9161466766f69e32a67676b7d663537c56a3f9cee5d82255f63ddf4ce9f2abcdff763634dcb4f55748664c72f555c5b3f8bfc062e4e45715c37e663b7471131bbae8c7de5790413368dfb34f1a87081c015baac6ef66c32c785e49d3eb748d81abcd8cf7186412c602d455f664b839fb8051a50995de53c579ea158f5e3fe9c1b01)
    (x := 0x6bafb6b29a5d6eadb05bddc81428b12a7da510cd188746bc27d89f78eec1f7c529d37087c840e647d26f50176b8e694ecfd816ff5666b77dab42b66794d7db6dd8a73e4743943f7d971cd9d75824e11a4388b1ff3c0ecc55c7b28aa02c48c51ef7bf6d95e97ec124270d8127a8e6aa8070647e4510716d734b22c9041b5405ac987ee8159d3f2bb182699e80fe6c5ab8216b4173f1ea35f39381a3d8777)
    (y := 0x3b6446cbc3a2931800a4f94373a7e0554f30cd40403c716f347fac1100caec2598d5eadae0c0a4da95f22084e390dab2821ff85fd7449c45a9729bef0d92383b161540aaa0b36cae2cbe42b3ec7acaf5756decb5e1f2a10dee4d1c42abe0fbbcc3af2ff1c4f953f6da9fcd75b440ee8a890c5180d8ea06eea77001f14182cef4a3a0f1a7c0b9a79b6ffca3e0f96b826d9f69b6e8de0ee82539c6749c4b5)
    (q := 0x7b27853e797f58fd9aaa7f3b198876f5758007bd2e855f4432605261867d5401906502d78508b6034efdb15e2944be58c5b80a3c7003cd7f521f607bd3538420efa86c405e6b14328714f7ca14fc0e6f670ed06546ebe000c2fab1b5a50423c9daaafeaa4fe205580a73d9275c2c428e580fdffd95125a2088e873e7e9b4eb2ae965077b26793635020d75c46ddbfe284a4cbbc3e61f306d90251)
    (s := 239)
    (c := 0x7c0a8120280440f4120210ac0bc270210440881104d06c0a41082007608c160260480983002c06a0841683104c0f41002005e084208270420c4100250580881104805e0e41504105c0901d0280520b8248220480d01182f04c0901902a0400841602105e0bc1302309209c120330a00d41705604e080230300580d4108220560a0140280480b01102005c08024824056098190310540ec100220580b0150280440d02582b07c0ac1002404a0a0178220660d8160790621181303305c0941503004009c1202a0480b8130260780881102a0780801802604c1001102d0580bc1502d0460801302006209c168260700f03202504c09c1382104a0801402704e0b41002d07a0d01102e0440d8178220460881302a0500901f02a04a0901502e0520881c02805c0d81b82705c08c1184c0640a010827042084120240400b0108200580841c82305e0e015020)
    (by decide +kernel) ?_
  exact prime_1536_14

theorem prime_1536_12 : Nat.Prime 0xc5af9ac2fba585c4b8ca641dd48d721be58ed0f73646222e89899eae51ff399815da28c77a087ea7fc9a744c3302b4752853bb354a8e5e3b0e7a17b4c7b7373896ad0d31feed07081f79eecc29aeece6bc00bc563c13184f5b002b35300eaefc19ba61f06591349bcda9146802c97e942ec6dc5ee95b53a4b4bb072003ba11e4b3918d01caf8f1f3d160a552991bd53271c3e56b9a9b463fe59a5536e6637b1133 := by
  refine prime_of_step (a := 0x196885239c45337ce958d310e519586726e13dae98191f0b428e7149be10444a88115d2a8951ae7734a251fcdd21dda95d29f766770a3163a051d1c0e3eeb706a94532760f7688eb4fddc8a237fbae5f2005cd1a522f03a8df9ee43d2fd0619ade99134cc040f39dde55dc255743546c7c868ee5f5e8179c94fd606bd8ee17b32a0612c4762548f83f267e2da2fe02b82a06c01f18d07e21da4b2ea4f71992a59b)
    (x := 0x79d29f31f712d6e8abf7e401305105ab4e1c413920246f76aa5609c76fafc12b7e4937136a7d11e78e4ab75d561009cc0b1f34d3aedc95ff9572ee7e48a9a523c7d06949262d27a04678f23ca5f4554da55d93512d2173d2e84fb0e2ccc335f9562cc2c654d2efd5b4e1c4f146588635f274b22f061253d2cdfaa4a52846eb36655767a30a7fa58cc4bf08e93c569f79626fbe34e9b7721ba801cdcd2a2f4b3885)
    (y := 0xc572c0f2fefc63582790ffa181ea8eadbcc9598bf164e26abced1d46630652c6901d6a0f8d2ed1a34843b5a169918661daba6f508e86c2c35683239fab6985e0e3e1b4a481b96aac7eb202af9711b677632068c72c47172e503cd6d465a71a05f68f8d800347d069cefa66a535daecd124bf12775c6c1eaa8114de88902de3e5d4c451f2213f5e9a1eb623c1fe6a4200cd7c7d5fc95e1ced8534e722614562fb55)
    (q := 0x80c82b3b0ca3c90af1bdc5f4533653e957373b1eb63313fcef38c658f5c8fd114478ca15d57db43bca8db6d7004bebba96575ff05da5fc5b33a45ffb11934535ae992b283f1e1337d96e58b7faf1a750bf23af29a4bb74b1766b5fe165a0a2ed5e9dc8e42c15b477b66e804e3e43b19a1f775d14d8c7f86d7436b9d2c03ce51ef3345e2d1f5eaa1b8478acdf8d5322c69e72f2905d8fd7ce21baff5fdaf)
    (s := 253)
    (c := 0x1c02f050098128360620841383504e080130240660901182907a0c81082b05e0881a02704408c1582d0480bc1f02e05208419055048090158290520841783e05a09c2282005209c138240520a81002606c0981602304a0801203f0440cc1702304a08c2802107a08c11822042094130360980e4120250420f01002304a094120270521b8100290540941002205c0941182205e0841302a05013c120280420ac1a02f0460b4130200461781f8250560881884504e0d81202a05609c10836046088130290480941702e0880801302104a10810023046098120220480b4138370400981c82604609c1202c05c0ac1685a06e11c1002405e094128200680901b02d0640ac1782f0880ec1702d0760941182b044098200240560841382c06a094128290480801182708c0901102206208c100270480a41302b0680a41102204a09c1302904409015821048084138390480bc2702c0560801d8360bc11017024)
    (by decide +kernel) ?_
  exact prime_1536_13

theorem prime_1536_11 : Nat.Prime 0x35fd07ffb3a86555f1253ab457f286e05fd16ec332697a880fbdfe19910f6c22a2215e7ce4629d6115212e8371daa74f89a9e326cf89bad29b405f0bdf2aa422718d97533676198c8aefaaf0c7c90be86a81d215a8c896c1e2063a3d6e7e3e033fe22e2994b26fe5ec2f4c7875e86629da64b745e47b51ac0c3bc5c27379e21e96f8d8263b4a128433adda4d031d3613ffb9aae6e5b53fb54c4daf3ab1e6d8ee18b02e97 := by
  refine prime_of_step (a := 0xccee5f631bbc4122eaf0df0648cead7b8e14abaec9844bb136ddbd1bc8cfe795aed191863cfdd0d3fb529e6db24d34a172511edafdeda862045967b6653aefc06a1e19c6731d8f0fabb13932f1b86fb135071ab77f7cfd0557bbfea7e3b4ec0520f616b3ca823dfa8d1f882eb7aa0cfdda73cf02847cd5624bbb3381c08d68dc0ba0d7240587f4cb1e873d127cd3d1a360405f7e2da60aa19f2ddedf3cc27653d04f88d)
    (x := 0x2821031472fc3d2446e3adb08f0cc618e864d0d1a141f7ed66e0b2b7d7b71846e6576e753d5cec84b733e2ab3010453a9625119bda602e21b0560b80f777e2ec58ec8391ef8359eddbfd1eb75edffa6d2823ad9262013cfcf44f9b9aa83a1c7fc1095c2fde06a7f5f3d618b5bd5cec81c8151420dace83b5ebc649d2691aef7a8117cca77e4f7a3fa877b356ebebdb76ac7b0aa547b4a43ba00c2d8e6f4b1a86450f257c)
    (y := 0x180345c386433c578900b24b43dc9e3a85a8b2becd93d58dedbd8822f9d64fdfb144ddc76035a8b61d920b904eee5ca2ac3c6864207833a7f7ffa910528483b8246259d5c733e814877e0fd00a901997e529eab2a2f143bc554f6e75997918d1a71468410e648d7d4dd6012115f728106e7c6c98adf010916f3590d1169344371a547ee1a1270f715962286a3b39f1c32942559014955c2e2f4c36218523bb22ce55303a)
    (q := 0xc5af9ac2fba585c4b8ca641dd48d721be58ed0f73646222e89899eae51ff399815da28c77a087ea7fc9a744c3302b4752853bb354a8e5e3b0e7a17b4c7b7373896ad0d31feed07081f79eecc29aeece6bc00bc563c13184f5b002b35300eaefc19ba61f06591349bcda9146802c97e942ec6dc5ee95b53a4b4bb072003ba11e4b3918d01caf8f1f3d160a552991bd53271c3e56b9a9b463fe59a5536e6637b1133)
    (s := 258)
    (c := 0x20a41702c0560981882c046088130280460801083705e088178280480b41102705c0dc1d82c0420bc120250400901182b05e0a4100200520b410021064094120220460841384c0560841083004c0901282904e0bc12035060080228220ce0841102d04008418821060098128330440a8140220480d81582604e0881982107e0d81002d06a0c41f02205e0f81182b05a0dc1382304c0941882205e130120250860a01803406a0b01b021050088170240480941682e0481841f82605e090180210520e81f02e0c209810822042100120260480d01c82b05a0841002c0720841782005609c158240560b81382904e0942c82f042114150310480bc170230520b01682a0460941102404e0841282106c0a01b8580480b41002707e0841282d04e0bc1283805a0982383f07a0b013826084084130270440bc198240440881782b0660801e82604a08c1082204208c1382f0ba09815827044088170230420841983e04008010821)
    (by decide +kernel) ?_
  exact prime_1536_12

theorem prime_1536_10 : Nat.Prime 0x3bb217a82b96628c56f33a39087e9a4277f28288b4edc10c11e803c624f51d810b650589f8474a24286d007e3713d49f622768ba19da3a227ec9dd181072161c55ae9f227267f59ff65fa0f2dbe7bcbaac442802ca329511db84b72925895c22a019c7214f12bac2af84bbbe34b66f7e525e4d9c664921953c22602f80de73557b79d8c4c60a439512a96985f86f748ee72f9f384e70c0e16bc45a809ffa047360289f5d05f := by
  refine prime_of_step (a := 0x8923340497028bdb5d56511bdda4ed24019d528ff3e117ab083840cf6fddc1ededd2baf81b4d70f5358bcf0b79a57995a9d07c338f2d0ce9ff89b0dcb2bff0b157c10a4e3fdc11a64b52f51f02f4b959b2d6923006f766d1ea162d13202785c4186486458da6212ce731c3a2687064ae32e8bed72b5acb4dd0f16aa9685bbf3372bdf1df545bcc67ebfc6f3faf7dab18befcd008c6f4418427993524c9db34c4d20920e7b6)
    (x := 0x1658fb78882ab136e63b36c3ed00abb9b27d5020ee251fff33aa1a589f7b77f6179d5c66bd0172192b104a64ee6d44d202bbb3fbae63ba282829cac8e31819de6f0df16d99ceae601c9422328388a56fe89d34334573bd439cd5815a890c8e0c2cf73ca14e1c1ffb3a7bcc86e4a7a9fb100789850075589e2d86e69dd479aca3b7eba5f97f2a55a77421c2f58b7dcf8554671bd519d7295580d926c01b3aad92819f0ab1df6)
    (y := 0x37696474b8ff57e5aa2bd54ad4822be6c4698cf698cf934ccac62ecb41c069ce42b835edd30801912d387adaaac56bfae7b9a29f4fc9bfed0fccccee63d264a2936868d7ab85bd2d5ade88ca24c62ff697db41da658e9417549a8fe1eb6f43450427a490362d2714d34ecbffe57f84fb7a719c6d261639b8dc712aad06dc30994cf9ef390b19073312628c0e93d899492881efe4848d8ac69fc122c7474684a007018a8acf3)
    (q := 0x35fd07ffb3a86555f1253ab457f286e05fd16ec332697a880fbdfe19910f6c22a2215e7ce4629d6115212e8371daa74f89a9e326cf89bad29b405f0bdf2aa422718d97533676198c8aefaaf0c7c90be86a81d215a8c896c1e2063a3d6e7e3e033fe22e2994b26fe5ec2f4c7875e86629da64b745e47b51ac0c3bc5c27379e21e96f8d8263b4a128433adda4d031d3613ffb9aae6e5b53fb54c4daf3ab1e6d8ee18b02e97)
    (s := 264)
    (c := 0x2e09a0a03f02b0440c41082604c11c1382a0560881182704c0f015031046104268200460d818821054094108240440801c0340581101002505e0801002c05c0a0100220400801002606a0f41b8290400881202604009c130270500841684306e090128220560881603204a0881f82f056094160200560d81282a0560942482c0620b01e82604c09c140200560a41982f0460881082b04a0d81002505e09413826048118130240400bc1e8270620f4100250440c0120270400981702705e0801082e0500901003005e090138350460b42782c0700942602004008c190210540841782b0780841f031048088178240400d81a831042080110360440941382305a0a41a82707c088198260820801202404008c1402b0560d4120200400b01382308e0b82102f048094150280540a01002505a08c12025054094208330440b81d06405a094110230560dc11825044110128220420801582e06a0901302f0480ac170330460801782608209013823)
    (by decide +kernel) ?_
  exact prime_1536_11

theorem prime_1536_9 : Nat.Prime 0x2ac83401851dde981efc0006d9f9186e590da801f8778098f610b8bd67e23d2128922a0a57139a4fde0b4f499459a9a22a246987587154281300cc2024203d1dd63d5d7abc4106697ffddc7d30aeaa1301df77f2c71dbffc3a2d63ab5d2da8bb61c859c864c98422a72e367de9b0adef690e44a4c3b25859e538eba58ec76a3d275a912ba9c94e036836529aef639b8201407f187d36d964a64c1c1e13849d6151a5e7a66a9d92e3 := by
  refine prime_of_step (a := 0x2870f3fa46a18fb76df27508ee131e0f15d3882e8501abf60ecbc06a4ffbbcde1a528799497172a78bb0c42129a8f965efaae17fe943ddfbcb61875951e157a1ec49540c99672cf35233ea156416ff75b586e438d1264bd5a38f2e5dc99239ad521336356aa9539fe1d9eddbdf5331a803da01f56b6af3b31424a168a57e7df826803a8eebac467e31a8fdda2b0e76e9d0a964aabbf951bd601e428733bdda90e380d5dc5ee1dec)
    (x := 0x64a84332db4fcd5e1a846a8b6c69181affb9750fbc9161f6a0df21c4d3e1b964ad2dd562dde6e3bac2819a45b565c12f346399c6f706c28b287270aa155412880d00956c0adc9ac9bf80e08eef6acf110047d25b7ab73adb404526e0071abcff0f7963678382491283a69aa95aea475b5fe053f75237bbdeb9ffbd8d090c74326c468dda2b0977cc2ab19290f79b882237181d62c9b3fa2a51573bf4fb786674432d6ceb4113a8e)
    (y := 0x6bc480df0bb24c8ddcf250b2ad33f905c03167f693641d497bcf4dc89877cc5ccee3c5c9a1b2da204afdaa9785cb4dd219a79dc1419b37d6779cc68474abcda0cb2ac58230aff0d02535dc97267558bfded8b31540a8f00fbd3bfcd09233908de5f7f1a18eea875d0e44a2fe0d64a31463fd983e6c1d4194e46a868fcf0fdf73159050f245576ef37e1fc94535e236e67a9bd96df7a15a6e40954c96e013feeb24e36cfe9bd0de9)
    (q := 0x3bb217a82b96628c56f33a39087e9a4277f28288b4edc10c11e803c624f51d810b650589f8474a24286d007e3713d49f622768ba19da3a227ec9dd181072161c55ae9f227267f59ff65fa0f2dbe7bcbaac442802ca329511db84b72925895c22a019c7214f12bac2af84bbbe34b66f7e525e4d9c664921953c22602f80de73557b79d8c4c60a439512a96985f86f748ee72f9f384e70c0e16bc45a809ffa047360289f5d05f)
    (s := 257)
    (c := 0x1202405e0c412022050098168260420c8148320460d41282404e0dc1402008a0ac1383a0480f01503904e09c1302206c08c1803105009c1a8480480a41002a07c09c1b0380620b81502804c0c81a02004e0b41082704e0e81d8250900d0148230640901102a08c0801902404a0a41683105608c1382d0400c82702a0480b4148380500dc100260760a413025046088238200560a81285604a198108450500d41302307a0b012021048098130200400e82402604209c1782204c09c138360460e81302304209c150260400a8118280400882002506e0dc140220480c81302404c0c41302c0500841202408e0941082e0560b01a02104e0841f82b04a0dc1282f05409c1882a04409014020042124160530480ac1582604c0901183506c0a4100210520e41382006e0881002a044084128210620d01d82c04809c198230560841e82c0560a01582b06212c1882e07e09c130220a41941802705a0b82903208c0b41c82c)
    (by decide +kernel) ?_
  exact prime_1536_10

theorem prime_1536_8 : Nat.Prime 0x2a47db65808e84fc569f0c06c56b2d250e027f09f28e1a172b2e86932faa9669c518738c380e5f80ee712d5bb79c9ca543a5fc4ac268002b9ac7c9bbc3b3dc667cbaa5624c0c4356437de2e7b91c9e14c8d9d98af1474595735b0a15bda2eb62b8fb785764cb231f3fe258a141b32c9d9a049e2df8048dd7e634b55fcccdda1a211777508706cb5c0c800b4ed264106e9f6754e5d0aa95b1622c38df68251e1b5a000af9f88f5c976d := by
  refine prime_of_step (a := 0x8a49aff345a8641d70c010019ab81f3619a8b20c46da2688e557647cffb32ee0c91af55c027c60eb335a65e84aa728b3b92f02806f4a47b5debb33c6838446c4d13dcf6137359a3104a15397226f7eaf1b035ccdbecb954dfd316d42bc7798202975448a6e2b02d9f59ec8d8d65928cb02977e516d3f8f6faa036d8bbbe0a6c9fde88f2407b88abe4d6a0df2cd4c2bb4d61187839c40d644c3d53e9220ebd1e5f2563a12525ee1f6f)
    (x := 0x16c7b063649c9d6e968f28abcc9958b06a40b1dd75d8e24de4a15c205cf621898c3ad3f6112385e4724363fd6568fb3c0825eec61ec8783c79f7da68d8b7add0422eb95df40f19006f22887904cbde9b497379e961d968a6cfabeb55325a907515c0ac6ab400ee3179bb34b68ad95f7cc1f391e0955f6811fe79a4488e6323de2738ea68bda3cf669257a9daab72babad912a2caf45d0fe188d909009577cd037503e60212224bc978)
    (y := 0x18f69c11f7548b955f370500e79f7deec0f610202af9a10ccf794cf5a619deb6d496aaf7385ba7d85395b30115ae28211fa028a53b2369ebcb17928490781fa7d83342b8bcc011825a4db8091dc94694ff5540d8c4ab214e8014177cfa1cdfdc79f9402971050e923255877b99d2dd2429f90f45089e3c7a515174c3c6dce2b33b905707cf784e102ae1ec69d05ce9b2770e2f57332f8d824dda5800032c089db479eadee4729aea75)
    (q := 0x2ac83401851dde981efc0006d9f9186e590da801f8778098f610b8bd67e23d2128922a0a57139a4fde0b4f499459a9a22a246987587154281300cc2024203d1dd63d5d7abc4106697ffddc7d30aeaa1301df77f2c71dbffc3a2d63ab5d2da8bb61c859c864c98422a72e367de9b0adef690e44a4c3b25859e538eba58ec76a3d275a912ba9c94e036836529aef639b8201407f187d36d964a64c1c1e13849d6151a5e7a66a9d92e3)
    (s := 263)
    (c := 0x104c0bc140250b20c4138240480d4108300580d04482304a13c148310460841782005c088280340400901205205e0f8140280460a41f02509e09c160270500a8190270400882102a0460c8168250540f01202804c088160270420a81482504a088128200400881902704a0841002404c0ec190220740e0108510420a01c0270500e0160270480d81782c04c0d8160260480801802804a094108740480dc1e82107408c110220500841c024068090268260660cc118640400b41482e05e0901302e05a084170220520901702006e0c4128370620a8178210500a01902206e08c198250680901102e07408c1602404609c10037040084138210400d8150260620941f82206e0d81682105e0901782405c09c1a82a06c0b81383204c0b4110370540ac298250500b8108270440b81203e066084118300b40e01e0290400f41082305c084128270440bc108430500901402b0500a812026040098138250420d41a8210420881102404a09c11829)
    (by decide +kernel) ?_
  exact prime_1536_9

theorem prime_1536_7 : Nat.Prime 0x2eefd61cdce705055569a7ad293f285ed551ef3710fdb26e4a0703496bc787f49738f4bf6ca27c3cc548f42228ebf80ca7ae566a3f844a25800113247b6053a1aabf44387940efbc13c9d1f0edfe853919eeeba158992666b1368e7ebbc2bd88d3dc672d2db0949059f568025d1e54d6c0df497b9445c37a54fcd95119a0caa5fe9f5abd55221f5debd2479af3cf072d3dc286fb59f18c42179277900901d6238f828faf227c94f601ef50529551 := by
  refine prime_of_step (a := 0x1d4a0bd9d3834c03f59c1ee82dbe68758d43dca7a5e74353bfee85eada5e1484e80e550ac58925b152b68895c8d1e731476b56d2417da00051aaeb85f5869256e3011c2172253deda3e4acb56732d1500efb26d474594527dc4e4aa7fbb2a438ee8c9f6b5c5b9fdd0beb02530878ea8c0fc517b408f212d8466ae1eafc03fd1d475d32c8e2f9818bc255fe4a8d34b3502b6fa4ec5b20283dbf136bd0694c338db96507ebeb8a62055e4f22a983e7)
    (x := 0x19a4f847ada5ef411b1a001d463e76804a1dd3fa8e41cd8926c8f3167d8921a8544084da32c5ddf74b2a4253fc0d02115a0d6b3e404ef98266339148e2b967f41391b5af5dc73957caf04f9366abed86f5b91d20fd5aa69da166fbaca736e4fb1191d96c1a8a5053382c8869325d8a1a7a8fd8c6ed6ee936ed300bfaf7c46e00e4e7eb1dacaea68d5e68bf4018225a266c39b5ec81cbdd5fc4d0c5caa842dc49e1df9dcbdc8419945efb3045db7d)
    (y := 0x73a3af0dd7f28eb0938be9b4be4366f282ca0a209c3ab175b0edc9c4d65a5ea2a381401668ae44441a17144d324e1a90dbff18027c44e657dbc4be39f5b3f7bea1e4ececc0199b197d4f2e65f5448c5ac6bf880b9993276a4704d8ec502baf3e2f2340ced89fec6c5792ad43d294f73bd751baa02d74ae1f4ec125142f47ceab6b8beb1b4c69f31a22914ebe29e4597d89923e57529d62e6804a28e646726273aeaea9ed8604dfae442d6ba4959)
    (q := 0x2a47db65808e84fc569f0c06c56b2d250e027f09f28e1a172b2e86932faa9669c518738c380e5f80ee712d5bb79c9ca543a5fc4ac268002b9ac7c9bbc3b3dc667cbaa5624c0c4356437de2e7b91c9e14c8d9d98af1474595735b0a15bda2eb62b8fb785764cb231f3fe258a141b32c9d9a049e2df8048dd7e634b55fcccdda1a211777508706cb5c0c800b4ed264106e9f6754e5d0aa95b1622c38df68251e1b5a000af9f88f5c976d)
    (s := 267)
    (c := 0x204409c2302304a0981c02705a0e81a02904c088160310a60bc1302e05e08c1382a0761481e03a0580a81982004a0a01182104c0841683b04e0841082c0440881082504a0ac190290760ac1483b0a60841a0530460ac1002105c0981182306a0dc1582104e0881002d0420f01002104c0e81286804c0b41702f08e0ac120240400901282c06e094128470460881102605e09c108410400ec1302f0760d01202905a0b01b8330540901402205e0cc1282404a0bc1302405209c1202704c0841302d05c0b81d03a0460b01282905a08c1782606e0b0118240400981202f0420841282705e0f42603204c0c81d04304a0941302a04809412838054090100230681001383306c114178250420b81303c0420841582404a08012820050080118230460881403b0500b8108250460c01785804c088120250540bc180390460881a02505a0881582105a0e81102204c0b81482f04e0981d8330680941802104e0901d82e04a1a01303d09e09c1f02d04e08c11825)
    (by decide +kernel) ?_
  exact prime_1536_8

theorem prime_1536_6 : Nat.Prime 0x202034e593f071294e3d936572985fd5b60bbf1dd9b5b36891941827788862d97861ba50d5d6dfae90643a8432301fa029e410baa342afa7961264520f1f8e87c9dbfecd92fa6281f3af896d0245fddf44e46db7e821fd371489087dada4d7f209f471205ff7f15c52fcc9a79d07a9cd25f31eaaafce2d15f4f0952f727c3a65c735d68660cd3e4a84989ac841475ccbcb307d007c191ec4258031936527c6125c1119e9f27bdbfcad35671ea74038035 := by
  refine prime_of_step (a := 0x1fe45bd1d80251a63baf3ffad4cf5ce38d25acb74aec0bd6039a63541dc5672fcb700fe60187feb72b27ea2198fbfe27c9936b6cea29ad72aaa28cfd856e2e6d2783c1bafd906af5262c81c2161895a36fdaadd2f3afe7e3ab3768be9123b35c83817c87432f848424f45d7a0e3662733ee6e35f400a556842785590103eaafe82f26ece0f84553362092f6deff0afb23e05cb337d6cb6a7f4fe0efe0b8081757c10db3a21167615813767992bdf6717)
    (x := 0x45c001dbb3787769dea717b7a00635cb3603b28eff022e50fcc0969d8c7e790982a86f224b2b87bfb9b1076a6772605faf0b7fb8453cae575d11fa1ff5ac1fdc1633a35dfc5f8a30306cd568bd73119c36d5ee65a3877f5812e6f14e0078e9b9765f94f62a1d189615cba3924123fd887032ce9684b6fccb354afcb67b59f22e76a02e6c384587e67b7ad5af31aa0157ad11ec9bd2a205918c86faa04999519d4370870af59c6be943fead61472bf86f)
    (y := 0x6796a35a3b158b5b03c4c94344ee92cbf6a0c02d706e9b81237ed86a4fcc6254d112553051a8a5fa5d725403ec76accfbc2ba4380510fd61caa5989c8dcb864b28e79cae917e1c1e2429d88966943c9677ae820171df5708d10bb85ffa02a29b515a337c8a385df748e6d8938627e43500df85dd798889d4e5fe5410cf50ec8130c10c9fe1693ff88e825be8ada24bb7f052443cecdf67a594aa465a80fd85c7fec15eb90528b37516028ddc8617d2d7)
    (q := 0x2eefd61cdce705055569a7ad293f285ed551ef3710fdb26e4a0703496bc787f49738f4bf6ca27c3cc548f42228ebf80ca7ae566a3f844a25800113247b6053a1aabf44387940efbc13c9d1f0edfe853919eeeba158992666b1368e7ebbc2bd88d3dc672d2db0949059f568025d1e54d6c0df497b9445c37a54fcd95119a0caa5fe9f5abd55221f5debd2479af3cf072d3dc286fb59f18c42179277900901d6238f828faf227c94f601ef50529551)
    (s := 274)
    (c := 0x20901203c04c0ec108230560ac2102804c098130250420881f0250540a81a02a0620901182604c09c1602404208c1002006808c1782b06e0a82584b04e0841703f048080220270420b41b8350420f01702a0640b0100240420c81102706a0a01002904e0d81e03805e0881f02d04c094170270780a01002a0640983c0200420a81382c05c0e01102d076098130450400ec100240540c0120340481081202a04809c1603b0461541402205a09c1282c0480d81683104c0c812827042084158260400841182705a138120240400981f0200520881603704a0dc118270460b81002704409c1c82506809812850042090138240540881702e0960d01382104808c1502004008c1d8350540881a02b04a0981382704a0941c82a0440842202207a08c1302c04c098138200401181203e06a0a81383505c0d41a8240500b41302204808c1d03b0680b81282c0520a4100280620fc1502407e1001383806c0bc138370580e41384607e0c81e8270440f82002c0480882102104e08811020)
    (by decide +kernel) ?_
  exact prime_1536_7

theorem prime_1536_5 : Nat.Prime 0x411d27169d54636c274bbfe2ab3f24a5e98558f1e1864e4cdea878e0e845f6d225059c20dd1b0ec8113a95b676b517e9a147f78438ed26841ca4f1036e1506e3eabbfc36ec79ab6ec24875fb488e9aa9eae338fdb2e7fbf90693d36a6f5787a1f8de14cc22d487b9e40e5dc7d98ac99cbdc05338f5cef4219d6e1ccc704045dfb2bcf6bac490fdc82b549086c735fb0ddffd7a2cdd4cebdafef723eeea542162cc5b43a4110b9cc46cce15e795405df3fa6f3 := by
  refine prime_of_step (a := 0x132d48cead1bd5348c49bce0cf27ef28ac113d649202f7acd08fbff8dc0dfa76bc703256f2b49f19c4eebf8399405f62c08f985b27442e1033cd93c126dba017e69883c7791d9b010a5f41f89be02b0ea4cfc0a5723653ba930fdf3c724a1e101c0ea3e942e29b0b199f77892b0923ff1435867315b014e2f854ffddc36180746a29b082f085549394dc082329c750845d16a10ece8067ae3441328b8f1d4081e6dd06ff9a45d01c06984b7f35ce108b58c38)
    (x := 0xd63e4f98cc7b8c19d12646b0c5abf89fefa8763fc4b82102898993287258f22213dc55b2be6721f620a0271c8685104c019a0e06579d761a48ecee3fdb6b759cecca4bec37f0f241b907a117a3062c8c34f9a11c2028cb6e96105dcde890afe9aaa1421d70b2f490616c39e6c3e4d66d76e4442b490f54fb1bcfe2eb4654ab0e0da01fed96040feb93688be159419399ee21fbdf824d138181b04f9c03f86dde2a8fa1c93a8f0e9143f31adbb688905137ab)
    (y := 0x2b72759e4d61b3e5486c628e0fc2146a96a2b99f543352bc7ab4b220fad225a8698a3df24d8d3d9ca15345252ec4e90c02154185f40626b988d96b2496b863618c56981137c177d3679f6f27cb8c8eee5fd7653b6f3d7b0e8dd6aa3cb88ae3fce1900d0a20ab5c41bb65bcb83efc1898bf347eb7812fefd933ac31ab35ec4821eb13a6e4a51f8808e359ad4881405f189708b14d78cd28bbe25ea4fbb07b71ad262716c3a89bcb6de632751de45e77559fa80)
    (q := 0x202034e593f071294e3d936572985fd5b60bbf1dd9b5b36891941827788862d97861ba50d5d6dfae90643a8432301fa029e410baa342afa7961264520f1f8e87c9dbfecd92fa6281f3af896d0245fddf44e46db7e821fd371489087dada4d7f209f471205ff7f15c52fcc9a79d07a9cd25f31eaaafce2d15f4f0952f727c3a65c735d68660cd3e4a84989ac841475ccbcb307d007c191ec4258031936527c6125c1119e9f27bdbfcad35671ea74038035)
    (s := 270)
    (c := 0x1002482205a09815034086080108270440dc1f02a05c0a81182a0420c41e0220460b81c82409e0901b02b05c0b81082304e09c1482a072108120240400801882905c084120310760b41503b04c0901302309c0901382805e0ec110280400bc1483808a1001103f0600c41202604e094188260580881a8260500a81782904e0a01f84f05a0802382b0461981582f0420f4108320600f41b04704e08c1283004e0a42202407a0c81b83305c08c2283004013410823040088138270500801a0250460941502e0ae1081a02706e09c208540780c811832042114178210440d4168280480881582b04e0841e82f058098130260680ac1002304e09816022048080138220420901182a058080168210420dc1682e06c094188210720841103d04e088100270420c81702f0500e41382d0460841083504c0841403d0900b01402504e0f81003a04c1641482a05c0a81502c0520e81382305009c138250480881602a0580901185504c0941582604a0dc1a82205a16c2c822)
    (by decide +kernel) ?_
  exact prime_1536_6

theorem prime_1536_4 : Nat.Prime 0x80cf0747e6bd84c89e7143680a2262439c669bae4792230b64f3b6556bc40d4e00202bb56bdc8b5aeac30c532a2e67fc995de145c66bb3f216b912cd38c724f824659d23f786850ed3e17f3255eda7b97349bbc8b066952e8510cb33f8225dd669242c3ca52aaf026c56711f9e2ec066f6ea129fc25123c25bbb3b63c2643a9b4e1b9a5323d0b284fee0cec77a5c2c364af0e707bdfa9f0f7e9a292de1eccc071cbc5456adfd3953f5a6bc97b18dfd77af74648ea3 := by
  refine prime_of_step (a := 0x9e3672e7d03948244ea3e5ee527bd72f18f45e050c2a08cb93b174865496159f57c83328c5fcb502d005407d9b46091b1ec5092b2732b2533e0b7e21a9bdec43c8a743d21116fd413b941e6c1c1280cb02fc59e2e4ef3c0a621f6d85746f02fadeeddaee5074c2e3b9d7cf164c300214af9137e695dc604e4c80996a1a5cb860104040a1581507bab423404a722c6a7cfe2fdaeb6435c19ae7984b0e77e2dacbae633eac2019c99c3e9166c185c233bf541312525)
    (x := 0x4ea8beae2bc6e6ed2b749a89555bc132f8fffc872fbbf6eccb38bc80dffdb921208621ee92ce4c43ea6bacc34117bdcc965ce33795a097c0923b1512ff876329b145c8d2558c942b42768a6fc7fd59294f5c6551a94b0be403152a785c1ae01a36ddda9c0e0198a1154606953f209508f13c988414eef8677a3bbcc4c2131853a57d9b43d1fb67b4ef145be551c5dc9a0553e4ae55005a3715a06d2d7eb4af5897390ae3187f7828573fecd0d73eeff99764988943)
    (y := 0x63260e383bed0be010003a063a4784004f6f4f0f961a167639e4379b9c418c8b621eff2c223e3c5e5d8042a6e4bfc9baf8d2c59e69f513a11f0aaf4ba73a453e6776b602ae3ae802671f4658a2e9899cdff338de10af7b1a93b7ad8bef53ccaa1027564c9b3e3772693d593a9b768ec5ed21988eaa53a58fb8438005d87ccdda55becea8dbb3318ea1108698bbb8a371f4e0301347b9167309d9bf8bcdd55b68f61d6d5572ffea86a641ca367ec3e39fb0fbed5241)
    (q := 0x411d27169d54636c274bbfe2ab3f24a5e98558f1e1864e4cdea878e0e845f6d225059c20dd1b0ec8113a95b676b517e9a147f78438ed26841ca4f1036e1506e3eabbfc36ec79ab6ec24875fb488e9aa9eae338fdb2e7fbf90693d36a6f5787a1f8de14cc22d487b9e40e5dc7d98ac99cbdc05338f5cef4219d6e1ccc704045dfb2bcf6bac490fdc82b549086c735fb0ddffd7a2cdd4cebdafef723eeea542162cc5b43a4110b9cc46cce15e795405df3fa6f3)
    (s := 282)
    (c := 0xa01382404e0ac14825056088110290660b81d02d0420903382604c094228270540841a8210620981783f0480c41882a06e08415835044080120330500b41402908c08c138200540a01302b05010c1202705c0801202f0700801582205408c1702b046098110290680881283104e110120280400dc12025054094140430540a8120200600b81182804410c1b84604c090220310460901783505c0981183607409c1003606808c13820066088128220440b01303704a0dc1e02e0420b426057050094150240440b81102b0580981202006a0801a0330480e8108210500a4170270400b01683f096084120370680941782605e0841582104808c2002204a0dc1f02d0480d41402004a090130230760841083306010014824078094130350580b81202606409c1003c06e0e41302204409c1403b05e0b41704e0760903b02c04e0981582d0440941b02c05c1101602d04e0d01203604e0881403105e098108200460941002404e0c01003105a0b41782705c0841582004c0d41202a0441241203d09a0ac12021)
    (by decide +kernel) ?_
  exact prime_1536_5

theorem prime_1536_3 : Nat.Prime 0x13b59cb5e94ccd21e65d09d900ca038b27fe197bc7d556853e37ba1b38cfa0c412abe3abe8d9f82a7a04d3f392d85b01bc921c3c38c590041c18ef2d98b18a9fe712059b176c8b8224c910b38d391691ff935954e0dc3d1a34198bccdf72b3e77dd66ebe9853b2737aa21fc3d031a3b9ae795003a2095a46d2f0049c02e8277d98b1be1d728f7511a2149e7c62f256873db474bac5ea2da2ddbc83b5b237303759629bb67297b90277741f5b327b41873af9b70147f9732a45 := by
  refine prime_of_step (a := 0x252f7067ae1f70f1c3130c08da282f9295e21c61eda1491ad7a64b736df71f124ceb863ab7043a38d323471548756eb281e6c29c4518728b481f2c0713ffb5adc9ffa5f7d19833afb81cf178e28be0646d5ce571c16a74979f06d5f3b8560a4325b2a6a06659b57b5993d9e97dc142d4e63f6fdb4e7d1e5d9d4f1d532a11938193071184142d9a6e4c55a4332b9272770623b0baff235ab7a062541eb1d278ac7f44b22d4562c5f01d0d857268ea2a572944decd01fe86627)
    (x := 0xe269cd2395d19709d6abf308d6b294b7b020c2f420217b75f3f2ada88352c310ec088dfa16fd9a5b38fa91fae688fd7bc1cd558e7e6e98be9dc33162e556cfc5760d0c9ea5b9b74721e6cb303c2933c7d9777824ba5869d4e0ca8714e81c97425625336b3c705e77f1250877db03653fb8922d5d9402f190caefe5da7aef82a0584b7009a6db59db1af8a47b930a1d16349296a5cde01904caf3ef583f5fd5684a295043f381c3d0eeb155bd72e929ea625defda062ccaa43)
    (y := 0x129ff706962c67df38b469b488c7e0893437496cbc102bff855ef4fea5eb3c8ae708c8e19da87f237dbb4b9fb67655beadb43b5ea91d3912fe8bc2258ff115bb803651e045b0497cedf43f78529b5028ef691d95c0da132e33ec12432384fda8ee25a73f221a8a22f2e4ce3792a839efc70a968d4f31f694d3d91f8f89f9bf54ad5b50dd253b935ef8c5b235938fc2395bf0a3abdcbe9d65919232d044d7856c527e7f801c614979eff367ec7d20eb77e18502d40203013e02)
    (q := 0x80cf0747e6bd84c89e7143680a2262439c669bae4792230b64f3b6556bc40d4e00202bb56bdc8b5aeac30c532a2e67fc995de145c66bb3f216b912cd38c724f824659d23f786850ed3e17f3255eda7b97349bbc8b066952e8510cb33f8225dd669242c3ca52aaf026c56711f9e2ec066f6ea129fc25123c25bbb3b63c2643a9b4e1b9a5323d0b284fee0cec77a5c2c364af0e707bdfa9f0f7e9a292de1eccc071cbc5456adfd3953f5a6bc97b18dfd77af74648ea3)
    (s := 289)
    (c := 0x1c0250480a01202708a0b81f03a05e0c81202b0640ec128520400c8178270400b41b82504a0ac1b02d04e0d4138200520c41702a0480ac1182504c098170240401041102b0c01481182304c0b8160370520b81703604c0c4188200440bc1102905a0942602a04a098120240740a41b82505c0901284f0620b81b83204c0841103705e0dc1502c08409c128260560881383c0480801283a0400d81102c0621341782104c0b0170220580dc1182b04e0ac1203504e0981c82b04e0881082d0740801882104a0941e0300400841203604a09415027040098100240540a81082604c0901c02b05e0981283704e1141202906c1241583e046088100270440f01402a06409c1202004e08c1203605608c178240740bc1d822056094158310460ac1382204a09c1a82004c0a81d03c0460a01282405e090160270460801302005c0a8130240760ac1402c0581141102c0400b01a02204a080110270460901003e04208429833042090100220520981102309a0ac150220780981102e07e0841f0290661581203e0580901382504e0cc11029)
    (by decide +kernel) ?_
  exact prime_1536_4

theorem prime_1536_2 : Nat.Prime 0xade794f564bd528878e432ffe1e2743c39a31b42173af32430f51bec68c89d7588eeff1bb8d01c986a17d1534b51571dd6a30179acbbcdb3031a517ec523a630db8917ce6c321101142ac58902b61291bc995359d6f9c271d06ad770723c2e5835d4975f73d726be698beac430277b71083bac02573abe8d7e465fe9a0c0ce67f2df33787c0cf2a7139627a8d299df1fe2831645dcf265a46b919de434ce70f4f4cb5295b43763a847c01eea8ad4a66aa220c3bcf4db0253462427 := by
  refine prime_of_step (a := 0x789c089c01516248ba93a183667c9931d1c18eb6ec8ac51ea2e31830392fe634fac821002aff1cf20cac7f3b13f9546a0058192abc861fab026c06ccdef662704e5fde95e6e18507864786b3e7eb9a916eec8e7b4ce6de67198ef78a2fccc2ab6f111ef00f12c21b478421fc36ff6b91fa1295f8cef7cb96e70bdaf7c3c535c0a627e6b48c023139db4f9c139f10fcaae151caf4b0ea16a3438d790c0dbc8b48bb4a16bc1f1e154df786ba4518bcf4f64b1f5d319290d4992d1172)
    (x := 0xad4f0fb7929b384b593e9b931d8288b13e56b041f344dcc9b0f6c8854e7289ce10d48dd9cc6b1267efb6a8f7fd04d4b432e85caa0a621c54bd2c98891ab59034abb86b3d690fb1c095ab758434945f82e48b894de6ec22cfdd7fd43cf9117de69b1f23ce35e21b1253e54e57e6b6c26d9f0a9c530e742bb505909870d65d42bd9c8f08569f8479f9225f8c05bc6b84f83dfe38a0dfb3887048a1350d2472257aa6f6a32d65c2e7b8086da56bd230b61cb5a0ed1aabac7ce504c15)
    (y := 0x5dfe4c85b7faa8b95c0711730d61c2deff9d61eeb5c49df7eb9d2116d72b684ca32e143c6f0ba7ccd91cdd2b3f6e35762cceaf8c5bcdbc202277d3e6cfd783c8d349ba941b7ff85e0e717cbe10e597c8ea776f280ffc6bc97bd7dabf3c37b0b94cdff6c2bd19ba115250320ac7035933a78ba32f2ca357ee69472fb1331ddb410c03cabb54a6320e874b59ccd4dfdfd65d55bac36dcfb09cf5ec5a2594bd0be64da998cf0ce2cb387ab331dcd33553818c1aa24f8396a09475a5ff)
    (q := 0x13b59cb5e94ccd21e65d09d900ca038b27fe197bc7d556853e37ba1b38cfa0c412abe3abe8d9f82a7a04d3f392d85b01bc921c3c38c590041c18ef2d98b18a9fe712059b176c8b8224c910b38d391691ff935954e0dc3d1a34198bccdf72b3e77dd66ebe9853b2737aa21fc3d031a3b9ae795003a2095a46d2f0049c02e8277d98b1be1d728f7511a2149e7c62f256873db474bac5ea2da2ddbc83b5b237303759629bb67297b90277741f5b327b41873af9b70147f9732a45)
    (s := 287)
    (c := 0x5608c1302b0420b81a82a042084158270400901082105a0e81202f0a20a81c03704c0a82a0310420b01f84604c098128280440b01982c05a0ec1283704a0f41c820084098130470480981e83304a0d02102206a0e01082208a0dc1082e0620b82982405409c1d8200480ec1482905e1402182805e0901f82304a0bc130290640882a83704e1041282e04008c1182f04008c1802005409413820040098158290440b41382604409c3782b04c0a81102b07208c1003506609c128390420a4120210560d01682604a0f4120340480981583607a084140220480bc1582b06a088100200780801a84106609c1202d05c0b41f8220a00b41003005408c1383304a0841204804e0ac2882d0840901a02505e0981982c0400b41182104e0b01b02704e0941003a0540d4160290520901502604a0801683e04609c168210480981483e04e0981182704c08c1183f0500901282305e0a4118210960d8128260640ac1202e0560a81082c06e1281202405a0a02302e0420a8160250720801683607a0b81184904e1101082d04a09813832)
    (by decide +kernel) ?_
  exact prime_1536_3

theorem prime_1536_1 : Nat.Prime 0xe15c824b8012c527796de33a52e0458a2a364d146ea7d2b2fc061de22f80006e67a09205e034817c04da5f3980bd091a4b51785403d71c6ca102c085904513bc9273e8429987402b872ee02a6a2e562d30a71e4136af30b92f5637094bcaf278f642c61e8cd2b13f38592ac29f9ca902a2d74e9249cb61fbfa05379fa4d28685ec0b951de5c56e04b8b171801b72b3f5c786899c09641e400e88bad8f8254023462d3a222fac425e3fbec6ed799957a96118ddb38773fc21182e4db2f1c1 := by
  refine prime_of_step (a := 0x13b5788412aeb156cc0fcebfde859ba18fff6699ab19b31756b9690062747dbc5a8991540d8e0ba8fa3038efab70f44d9bb606fd9061ae9686789c95ce59344d2ba906b93c4bdd28a3baf979358e38ebfff4edfda3c650f583d66502309cd0600b8c2e68a535f6fc1b44ca6a0dff494de31a7117f63f13f014df0644721bab21136104db8a0961582f08964e4377e536b26303b17bf2d09a206adcc415718e7b0b681da3d69eb9f90bcb6c24aba1b4c9de0ac720c9b165b0d78b46383f38)
    (x := 0x1d4d57c3dc78680ed5d148c325e66780c984404f4f027b866f613146c883a5b96a1e2acc1a96a5c0d0d440edf1dfb16f7cf85dc3b8242c13e72ec00664bef8b9bada4e2938647df8e98a6f30a9b2c286bcfab9d48d7d218f407345945c383bb70042d9266c7f841f7e00c6cdbc39cbe139181395bd105052a40ccb0c2af6bb0cac3f8baab976dd7e71c6a6695a3cdb35d11ea9c071c862f95cd53e4aabc7c94163d3e5beeb6d486ce9095499fd827e2c1502ae8858419b38c34952db8038)
    (y := 0x1121c82c7b5d6dea86b0a25262bab548377ab93cfdf3afac26568b6a114a12bb034c81aa52e84c1be7bb6a943144006413440f2267afe417eeaaaa829f32be10d77ad288b133bb519550cfd4182323ac5cca2367907908726616c787505c9343fa2809749dc8c828f35db83b188cd953d42aebc1474ab5931d9fb22b59c6026b60397623787e5d998b752b82bf8fa79a10b0b0b4dfbaae76494786c980f55d48f41a8c63900657865aa124999ccb453437ea2dda3fcf84b56a532db2cfd9)
    (q := 0xade794f564bd528878e432ffe1e2743c39a31b42173af32430f51bec68c89d7588eeff1bb8d01c986a17d1534b51571dd6a30179acbbcdb3031a517ec523a630db8917ce6c321101142ac58902b61291bc995359d6f9c271d06ad770723c2e5835d4975f73d726be698beac430277b71083bac02573abe8d7e465fe9a0c0ce67f2df33787c0cf2a7139627a8d299df1fe2831645dcf265a46b919de434ce70f4f4cb5295b43763a847c01eea8ad4a66aa220c3bcf4db0253462427)
    (s := 299)
    (c := 0x20460d41f8220580981782106a088150200400fc1b831042170100240640b4100240400b4128290660941403105a0d81a82504e0c4100240440cc2303304e0bc1903606c0bc138240481101982406e0941c0370420c41103107a080110210440981102904c0dc1202404c088148490480ac130210480901582e0420c0178250540a42702004409c168210520c41183704e0a41e82d05c080178280401001902004c0981482f04e0c01302e0500841383307e0841502205c094168230580ac1d03705a10c1302504608c1402d04e0901882d04c0a01703604e0841b03405a0d41182a05c0f412821052118130200621281203e046080140280480901305a04c0b41202606809c1704f0520842202204a0e41802505a0942b823058084158240400b01802507e0881583205a098190240440cc1382204a090238440640e41482f052090168240540941302204e0b81682704a0901f82004a0841582b04009011024044094130220540a8118250760d81982204009c160480580b41102904c08815021042088110200400e41002406a0d41582e0700a81582705e09c1402b)
    (by decide +kernel) ?_
  exact prime_1536_2

theorem prime_1536_0 : Nat.Prime 0x4ef79e57dc9c93bd58f895430bd23dddedd28efa4cd626405f7754b0a58ce626afa7afaab713e5ef28e354a5f2303d148aac481dd0687c21c05b2addcd11746e6f81453e7633f868409a58e45cbcc48a4db04f05f1dd5b1ea3aa41c0ede2d8fe3b271fa5a9eeced08ac5fe9f15ce467ab76f80ca9c9a4b13ed97ea9e925be24332bb9721beb63fc6722139a57be65bd741be132571d4df5c3fc517f4dc5a94972d010fffaf48a3cf4673d146122163798a8c07c9a4cd11a6e7bb71ff689afcdd := by
  refine prime_of_step (a := 0x86d863f42fe88cd29490ac00d364ec853ca0ff7ec7f8a8d51ebb9a5e3c6a64c398f24f48ad66ff9aa34f71c2206258fa29212af77f32f6816ee309e543dc7e4435807236179d00567236a5495eb43949131b377b041c4257b804dbba3daba1efb52e0f93bc602ecb3675982b9f77d64e6e0bfdc90d11fc064a96b7e0f7ad843354665fc73849b0ea841d269311e7821e2ebc83e38b6b431111029325f975760ae1d154675aa73ae6389893b80480788655fefb0dc01f7c67eeaf78976f7f836)
    (x := 0x20fb0fc6ce14399c628b5ae3201fbc5013e26c66ec30642d39a777997cca2cf137a1f9d7d622037644747cc3ed485e6db11d2195b833e1681bf7641dd43e82b468630b61db858ba73820b9607c7978065c34fbd8319759eb23f97ead9ad0e6cd193c56881722aa57a28bb472517686309a30ec8468f0e16a7d829c17d1fc8ac090f0284ff44ea673eeef327472e1ddde2659ba406bb3f103f535c10ee5b2fca2cbfc80e3077dd7d64bdee7182ee9525f1a40a3365df9530a28d9e59667669e26)
    (y := 0x2d2f51c4164cb1d1baf5230d28a5771ee5923966471784c198bcf77f56ec18a21aa7dc374dc5125ac784ac8dbed2efd1c2815cb1eb5ce5d107e8b11b7b3de0b2d70738ee0ae1ca9ceff861febaf3c77a0ee760be882a5770e4a3cf79d770deb6acb3a770d6decf0260aead21d781b34e24010a026b2414a958455b76ce723a0b3f73523bbb29f377a2df423df92bc84cfd33ef81f5e8b8b7c0fff6558a52a7d47a93257c4e6d74fde7b7755fdf54c48a094876baf3359dc2e0ab32d752613823)
    (q := 0xe15c824b8012c527796de33a52e0458a2a364d146ea7d2b2fc061de22f80006e67a09205e034817c04da5f3980bd091a4b51785403d71c6ca102c085904513bc9273e8429987402b872ee02a6a2e562d30a71e4136af30b92f5637094bcaf278f642c61e8cd2b13f38592ac29f9ca902a2d74e9249cb61fbfa05379fa4d28685ec0b951de5c56e04b8b171801b72b3f5c786899c09641e400e88bad8f8254023462d3a222fac425e3fbec6ed799957a96118ddb38773fc21182e4db2f1c1)
    (s := 294)
    (c := 0x60801303708409c1186a04c0c81502406a0981183f04a0b4108270460c01382605209c1302705c0a8128320660b41103d04209810834092080120240400a41609b05a0941a84204e1041205304e104160400560941082c0560842483507409c1282a04c088148240500882003e06e0dc1702a0500c0130380620bc180320640901a8270540b41e8280740841082005a1681182006e08c11840044084110200460841302904a0841402206e0fc18021046098120210620dc1083e04c0a4118280540841a8260480a81f82c05e080130290400b01382504a084130320680ac10026054098130280441141682604e0e01102904a08c1102404e0a81382b0420b81003c09a1281583508a0a81282a0400941883e0820b4130270480fc1182904c08c1c02106e098100230521841182d04c09427037048080128200420ac1c02105e0a01f85005a0801482d0460bc1602804e0882403304e0bc1302205a08010029068098100280420fc22046066090170240420841082606a088130280520cc1202e0560801202d0880a0140290720dc1582e04209019830)
    (by decide +kernel) ?_
  exact prime_1536_1

/-- `(N - 1) / 2` is prime, `N` from srp/src/groups/1536.bin. -/
theorem half_prime : ((Srp.Groups.G_1536.n - 1) / 2).Prime := by
  have h : (Srp.Groups.G_1536.n - 1) / 2 = 0x4ef79e57dc9c93bd58f895430bd23dddedd28efa4cd626405f7754b0a58ce626afa7afaab713e5ef28e354a5f2303d148aac481dd0687c21c05b2addcd11746e6f81453e7633f868409a58e45cbcc48a4db04f05f1dd5b1ea3aa41c0ede2d8fe3b271fa5a9eeced08ac5fe9f15ce467ab76f80ca9c9a4b13ed97ea9e925be24332bb9721beb63fc6722139a57be65bd741be132571d4df5c3fc517f4dc5a94972d010fffaf48a3cf4673d146122163798a8c07c9a4cd11a6e7bb71ff689afcdd := by decide +kernel
  rw [h]
  exact prime_1536_0

end Verif.Ecpp.Cert1536
