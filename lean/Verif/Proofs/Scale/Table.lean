import Verif.Proofs.PackedFast

/-!
What squaring `100 ^ 4096` gives in digits of eight bits, and what squaring that gives.
-/

namespace Babs

def joined : List Nat → Nat
  | [] => 0
  | d :: l => d + 2 ^ 384 * joined l

/-- The result, and its length. -/
def isResult (n v : Nat) : R P → Bool
  | .ok p => Nat.beq p.n n && Nat.beq p.v v
  | .error _ => false

theorem isResult_ok {n v : Nat} {r : R P} (h : isResult n v r = true) : r = .ok ⟨n, v⟩ := by
  cases r with
  | error e => cases h
  | ok p =>
    rw [isResult, Bool.and_eq_true, Nat.beq_eq, Nat.beq_eq] at h
    obtain ⟨m, w⟩ := p
    obtain ⟨rfl, rfl⟩ := h
    rfl

def isUnwrap : R P → Bool
  | .error .unwrap => true
  | _ => false

theorem isUnwrap_error {r : R P} (h : isUnwrap r = true) : r = .error .unwrap := by
  rcases r with e | p
  · cases e <;> first | rfl | cases h
  · cases h

/-- The square of `100 ^ 4096` as computed. -/
def scale13 : Nat := joined [
  0x000000000000000000000000000000000000000000000000000000000000000000000000000000000000000000000000,
  0x000000000000000000000000000000000000000000000000000000000000000000000000000000000000000000000000,
  0x000000000000000000000000000000000000000000000000000000000000000000000000000000000000000000000000,
  0x000000000000000000000000000000000000000000000000000000000000000000000000000000000000000000000000,
  0x000000000000000000000000000000000000000000000000000000000000000000000000000000000000000000000000,
  0x000000000000000000000000000000000000000000000000000000000000000000000000000000000000000000000000,
  0x000000000000000000000000000000000000000000000000000000000000000000000000000000000000000000000000,
  0x000000000000000000000000000000000000000000000000000000000000000000000000000000000000000000000000,
  0x000000000000000000000000000000000000000000000000000000000000000000000000000000000000000000000000,
  0x000000000000000000000000000000000000000000000000000000000000000000000000000000000000000000000000,
  0x000000000000000000000000000000000000000000000000000000000000000000000000000000000000000000000000,
  0x000000000000000000000000000000000000000000000000000000000000000000000000000000000000000000000000,
  0x000000000000000000000000000000000000000000000000000000000000000000000000000000000000000000000000,
  0x000000000000000000000000000000000000000000000000000000000000000000000000000000000000000000000000,
  0x000000000000000000000000000000000000000000000000000000000000000000000000000000000000000000000000,
  0x000000000000000000000000000000000000000000000000000000000000000000000000000000000000000000000000,
  0x000000000000000000000000000000000000000000000000000000000000000000000000000000000000000000000000,
  0x000000000000000000000000000000000000000000000000000000000000000000000000000000000000000000000000,
  0x000000000000000000000000000000000000000000000000000000000000000000000000000000000000000000000000,
  0x000000000000000000000000000000000000000000000000000000000000000000000000000000000000000000000000,
  0x000000000000000000000000000000000000000000000000000000000000000000000000000000000000000000000000,
  0x000000000000000000000000000000000000000000000000000000000000000000000000000000000000000000000000,
  0x000000000000000000000000000000000000000000000000000000000000000000000000000000000000000000000000,
  0x000000000000000000000000000000000000000000000000000000000000000000000000000000000000000000000000,
  0x000000000000000000000000000000000000000000000000000000000000000000000000000000000000000000000000,
  0x000000000000000000000000000000000000000000000000000000000000000000000000000000000000000000000000,
  0x000000000000000000000000000000000000000000000000000000000000000000000000000000000000000000000000,
  0x000000000000000000000000000000000000000000000000000000000000000000000000000000000000000000000000,
  0x000000000000000000000000000000000000000000000000000000000000000000000000000000000000000000000000,
  0x000000000000000000000000000000000000000000000000000000000000000000000000000000000000000000000000,
  0x000000000000000000000000000000000000000000000000000000000000000000000000000000000000000000000000,
  0x000000000000000000000000000000000000000000000000000000000000000000000000000000000000000000000000,
  0x000000000000000000000000000000000000000000000000000000000000000000000000000000000000000000000000,
  0x000000000000000000000000000000000000000000000000000000000000000000000000000000000000000000000000,
  0x000000000000000000000000000000000000000000000000000000000000000000000000000000000000000000000000,
  0xd7d5504587e6b74f0329161f9add3c0ca4587e6b74f0329161f9add3c0ca4587e6b74f0329161f9add3c0ca458800000,
  0x8cee6c53ee386a2f205b97b631d3087c81c7273707c23126ff673a0887bfe116f4e71112542630fcc5a8839d46850ad8,
  0x80b530087f446914f3652ef6391c6c35fc5b974ea18b76a441fd202a8aa2059211d041eb95c70f05f211a8cfe2955eca,
  0x555555555555555555555555555555555555b693d9cf0720b8af61603ad9275cda08d6ac7c96a4d51d33a92caceef5d8,
  0x555555555555555555555555555555555555555555555555555555555555555555555555555555555555555555555555,
  0x1948b0fcd6e9e06522c3f35ba781948b0fcd6e9e06522c3f35ba781948b0fcd555555555555555555555555555555555,
  0x4cd8d38e2e1e4d93242e55ee1b4ccd95743e606e4443012f24588facd1b80ed04a7c7d80050fcd6e9e06522c3f35ba78,
  0x7595475d8a03cf3820667bd53ec9cab44fc343851369bf8e464f6343ac8572bff68ac866e901671ceb2634f9bd9f2382,
  0x6b1d35162e7ffa93784ed17b6ccec1911b601d04b68c88db0cfa36fac4c8ad537e32af3b48e1ae1bc392f89d71783923,
  0xca4ca9d3be6a92f37321c3a0d61222690113232f83159c97a6d93d6558860b00d3e716e1c81d32e8a7825681e57c43ea,
  0x25e1f9f65f05d1d560dcc8f2d446338a13030d1108abec6f62a3df4b0fae0ca47b7a78c1b05915d6c0e55163d1e276a5,
  0xee16907c01e092e4d4d4abdc1559e74106e87dff95fb108fea5068a1308c3661589ff59a88f47ec07f8c711304a40bee,
  0xedd016cdd75ccbc7e2acfcc2c4745a56d37392530f29f589fd49fc1d4f6b43c5ad372889146bb7e0e73aabcb5a7b78e6,
  0x1f2b7f1e255e7b2573c56b1b19bebdba29d9253dade96d3c01b0197f5b3d04012bdabfc4b352496eef82ccd3ac5a63e0,
  0xf7260f074fb90a37a9b87b99b1fde6a92db5f1d0508e2561ee571bea5c85fe93a2ca74c65c63cc786299c836a56a457e,
  0x477b30ae1030db21b9f6a95fae17dd8d4566519cfdb2c7281b76d26778816f7342e6f9cebab9fa4656ee7e97ff58c5fd,
  0x6233a0c9fb28f3e5cdb0f9346521a4277f6c900c79678fc4584afd8709bd914b3df9bd11461ecf53b7511241c5502296,
  0x7248458a9e4ff37c394b6ebdbfeec82b98f94835773a8b81fd79d35b1b1aae738ce67ab8b5259d46a122b68128a48031,
  0xac8c6b55eda8ee84626e8f2a8662dc321ada9c4a57da461641fbcf6dc32e40168b15a1a0785c2daa9f104a0a3bec9ed6,
  0xe2f8bc0ef79694e738b08f451eab7a7f2a357017b8ae3cea1fa12d8bdadfa417027fd5a74e08fb97d53135be05939060,
  0x912edf16207695c606df29663dd44d00840cc690afeaebaaf944c3df0ebe1be24eab0bcdb9b5e9845fb58b095d8ee836,
  0xdc2cae12dc9d26da47d7541b10140a76460e52e66a5d9fe068e2378fc4ac8c26341125c17c1eee45bd9541fe2eba9900,
  0xcdc58aa1d5502c515752772e83db1a7f36e2b8f7c44f9bd52d4da94a4e244b6eb8b5f5b16081d68e24bcb3143b95c4e4,
  0x26b5d8a545f0ea3035a7e359a180feedd3ab33c400c61b5b0a5c8c72d9caf7f5ac0aa2f80f65b78faaa31abf74a07481,
  0x4fac59403be8e30aa1fdb96664cf7cf072573dd36b412e4c0a670fd849a19428899e16aaea601ee7f50b6abeaef8f6e5,
  0xdc11c885c5c68bf49178a17e253435748f15ac011fc9df48e0d733c5a00da52d47f8b9e2e294fc494d5f80fa0965ebd3,
  0x3547b661f1f4ddb511b201d66b274b21a99ed183eafaefda4cb23ebe593e5b9cf56f46851a5bdfa051235a3630d616ef,
  0xae30e887977a8583c0dea28184b4c0fad8489ea0f888db82fe9dc99c6f481a9f6e34d6fbae24277c05bfa219ceb7f29c,
  0x024b0e75d22e45531dfc7df50ab4e62aacab62ad3d67f2e7478d7dd494b5fd49d011b0fc0ee0d1371d4848cb8c1cbcec,
  0x05f83ffdd54b991337c713e53d134055e54acb479d6170a9917aa6765c47d3953b6f9eeb386d89785dd29004fddd9d0b,
  0x4567a86b223646ab83cbc2edbede26a38fcf79034bdb2ec399a2b9c94c461b6b7bcc4603b108512e10ec6d629f6250fe,
  0x4cf6ce888cf11cb9f8c96b42e45c27376acce864d4ed87b47db09e0c4ff4840006a6a990fb0986de3052ec9923a523e3,
  0xa97e9a6421e4181c3f67b836da455e5498dc318ee2dd150313636e87599594ccef06a38a08ee277561bb56d2ee0fb657,
  0x506af77edcc3c3daeeb0f6500d8aa585861e99e0ca497b96ccbeadf10042d256682972ad1712dc21527a08bb1e17f655,
  0x0ccf60230f2fd50f0d8fc27d4c8c5da96d5fd2fe07be42c442747f7577ad0b9437b37e95e9d978b77c9d60be5deb9768,
  0x741e8f76b656e6758db14123c76120ed56d10633419abe54c4888da47602a150c0feca2756d349063b1101bd5b56053f,
  0x1f4b158aa00f64ca6400fd4cbe6838b769e02439bf55820535fff92a6626574d9b409e273662439d96be6f21d297b94e,
  0x6b0a89296e57f7e6d50babab2f2809a4ed8bf908bee1e16b8ab1940196f26e1f58da644cfb5ee69e04cca5589e2052ae,
  0xd32cd13cff1fd188b345d9557c278fb140111b6b8bd321293b42f469836bfbf86f9fd6cb9a1d0ac4b54a4cfcf7356431,
  0x5d2cb059184489ff124a6fc5fdad58f14941bbd6255ac7e655024d8eb3a28ceb4d79a4bfab707fa43789f792f7ec3aa0,
  0x42f581572f2d4a6b14649ab4892e64cc7fab1f0250f28ddd7abccec32970b7a034107ed45442a1fb582082eeac06960a,
  0x4a9d0c2ddd5fee5209ae61a69d18a950f64656bd4969dbe05d79bc5d23d99c1f19da76cabd923f09d52eb745c1ae5174,
  0x7d48f9f51095c127106cdb175f12b07053ab47f75a11febe122c4685cb6a80924a9cc05dd203b1ffd508f4638cb081b0,
  0xe3cdf588a1d039aa96fbfff9aa8108ef32ddca23750aaed8a97e8c8bcfd2fb5935c7942848427fc6566ed88381cefe0b,
  0xc2cca251c20c9a01d5ce79fb2dfbf3ee339fe6c4a670cfa1ef175610eda062839a522152e72a9a80cd6b3fdb47e77e00,
  0x0c111dc6aa39239a84fe07908efc020e7b89b5b8024c8aa4c0f230027a12dc1e72b44927e558676c5b0d24f947edeccf,
  0x41ea12881e77985a2258e8b23c616579325c424ed048a07a1647769a46ccdba195f32ea21465bc7ed91bb78d06e95efb,
  0x4518b8474ff9c40977369a20e995d74d168e5abff0dbc93c12d3c5e9f5e58aa4dbf9f5690962ab4024af04c3ad9390fb,
  0xc214aa5e0fd4317341dbd322900aa80fda54a87f5e791201bd5c08118421b75a6be31bb15b3d22964b12f9f4a1cd498d,
  0x6d1386904b20d000c5ed97f582cfe8bc124e8754b679bee51b1a4be35eee4437356d3c3c3a9f2396c307ed369749ed91,
  0xe80c362bdbb25fb6648f822cae14e0a3b517a1795ced65d90c46bb09c40d40e60c31b83a75b212df74e32a3520c09484,
  0x1612c8482874f962917f1970b899510dab2b6e55b3801a3326ed1a4821d9c76ba29323ca8d8b3a67a70940fc6752424e,
  0x52ba2d59b010233641748e858d5674c6e245c29e5500595c66b4664574c47dacfcb41f0dae369f12f59b8b9d84b11db6,
  0xccf230f46e0783a9e6a908fa91b4e08a18df0534777ff432755201433f0d37c9ee7882f9da8570d14a805b7a0b7f4f7a,
  0x6700392a16631da8ffda3b87018b6c547957180c97b70b346adcba3aeb4e03021baf2fc635c0917709e7585310371a3c,
  0x4b8c399dea50b7512337c1cc05e3e114eefff0d18a7b830dc62908d41621df76e87f06fa865cb5d7c8624cdd150422e1,
  0x36aba94b0a5ad8b241d5886cf94aba57349ec09392755bc5b154abedc146a264088c3fc8313a8c519832979649326fff,
  0x167b56d5a65fcfea4fceb827fa816e6670f0a2350b172403c3808ea40366da160546172f5d64069aa9ad229f883a6758,
  0x2eb20bc09be689a7c14032f4bc45bedc7ec7e17b91eca52509eda8b83e128584cd96320fa84c4cc9fec36bcdfe2b9fb2,
  0x4b7e9d7a648e17e6315a1a8b628831985722a550d64b87c823d477155feb0f3bcd778dd8c6966c5914ef835fffdf1efc,
  0x626770f745816df878751d733f39f33ec7eb0aefa53e56ae3dde3c453e16e1a96e660159741f039867caca842ba43d28,
  0xf8b86d4c5b490d39ca609578acc37687bb00eaf5b9f6dd69d895d0421a1e4ce2c1dcf32893a86aba909e87f4cb17d28d,
  0x584803a61fb24915e08cbc20f673ad8583984d54291035b1dbc01e936eb060c472524a0369267bc039419f6df2737ef0,
  0xcfbeaa29c8fc23ca214511b487d684c78ddc081e09507742dbd0894f824f7f7584966f8fc4f4b6a43a36b175e15bbcd7,
  0xa41508ea4e9c7e0fbeef90276b7533fb686da3c4f6531a38184cbcca82da531860882ad030fd8cf377cee27e2e60d570,
  0x71e60aabb576419d00e847018d56422959721167b15d04174060f61ccfe2500edcad2d0fcd740617f2662a2ad62b5a12,
  0xcb5684caf8950ce597b654302095072f7f568487e5e0a91f50f3617e64779de4e747f4a14396d30b966ba7e86bb1a912,
  0x5ff7ea0e77e3d43b4368cd2a31acfcdb9d36ab5fb45fb9359570b4b16d20e467b1e420cb83d8793168645f037a163b13,
  0x15250b4579b2ce3b5ce1230a8e075cbad992d83db723ef71a3a9f2aa72f1334c465e0cc7e78286dfab06538503fc1a89,
  0xc29a4237303a5af5d97402cae9ed6ec18c7caa4d4eeba77fc9de1ed216011f5b909b6984e2c064e61cb1c2f97f6ab465,
  0xadb2930391a0903c1bd9b1b553dd6457be50c90a3e175e776b6b19618f366f20be8d0261c09d48a08e8bfd00e04befa3,
  0xbf4cfddc5c46cbcb08091ee1f0ca63cfeb9b85854aef0c43d171be4720b6b69cb139c1d00ddd851d18d4fbefb191f6c8,
  0xed4204917dd12b893f8a2b11c84e7354683172f8625803c24bf1a506b7e4285a4517109b6123378ea522631dd304e977,
  0xff4dc144a8fdf4d1b990321ee2d0c1b630e255e39055f055510381105f028f05b697e1c99631777b9853fb978c698b0b,
  0xc435186ff72ffa048fc283776e6afa5694ec2e93a0dc4df14b394a948157f508a9c96852a8111c66148999e0521a3056,
  0xf1a5884c7c504c74063d9cfd2ac5a0a0b4570569a5a54e68b8cf377d4101b61248757727a899ec1e8d037f6ff91488b7,
  0x56429986992ba80e8e77e86b8febf2b485b9c6489fe131c7c6fd31fb0ed3d38f79ff5361e5f6862f8d0b91bf0a9b1955,
  0xb5d51155f5fef0bedeeea20ae00a390ee81f09395d37aad9afd5195b25200576754b300e3e0d106e608cdda56848879a,
  0x32caec933cdde3fe8c92d7403ec7833765dce5a23347ebc5726c840809520238b966f7bab776e9789e72ebcf6e27d173,
  0x1c841afe2880366d49ad3be0964468533a25922cdd4ee5fe84c42f04a92125b372fa1bbd41756580411be811d20379ae,
  0x477ef58f99bdb940cec7d091ad8ea3753c9a3ca5e921e7a0a42419f256db2e9c3ba9d0c9a451ad59fb905fe1f1e09019,
  0x0ea0585dc13c174e9c75aaa0c9feeb3045bc6f37e122b03fe2a04aab339f8748cfac1e1cf5659df7b2598b8d8a4933c7,
  0xda26fac90e1a513c380dd38237e75d6a3b496b5fa37de4066cb83b6b696897eb3c7a714d202514823a96bd5adc58bbb4,
  0x3f9e84071ca5f4258768ffb26b04e425947614538d70f51559a6a7babe7c6e861ff1fcbf79ce9e4712b5c6eaf2458364,
  0xb43e5517ad10b8c8892df1af8e290fb1a1bc9c068cce5e2d17f2fa18d1e5da6856bc212062b1a5a55f8f67563b641184,
  0x4708acc8c62d12fc87aa3ca045d6bf41da44ed4ade5e9b40d5b2aaf9d8e0e7d6fea9c9b64a020d814407c38fd0597409,
  0x58251aac2aea861958c0e9227f048b7eae1e0bef32c215ec1d56e5e1d66668e75da02550feeb57420d1227ff10212e26,
  0x1709d878b0098f5b0efb1788d6c4e8ac903ec9f061d918eab0693c67cf435c0bd233eb7d2e1d9667a1fea536bbe10425,
  0xedb2bd943bc87c7e8d5caaf9ebbfcab964e00749a333054073e8563e37608d6a8a8f7dbba1b3ff543f6ce1b73c12b35e,
  0xa7afb4e97f9245f98b288dac8419441e2fc4e53047d294404237542f94089e7f670c1626c5683222e656dec322f8f62d,
  0x7b372af7f587e30f81ebf4e04d8e81cce0600fade7e80a8b7ecd06350aff3dc5043c62de3104ef19082adef78a15650d,
  0xbbfe3cf6003cd316d7bfa75facf8b595fae3186b3634f7785c22de4fca9debedf8adc426d3624b1cdee11c6f2d8f8ca0,
  0xc09c8134d4aa3272e13cfde2673892d8109defc95187457efbceeb1051e022d493869a770063cffdc51055a1b023cb50,
  0xcf59281ccefddfc4d5d22a5c1386c526493d278946713f9ce41885b5d7e72186aa21b63209511ec70327181bbf89ad5b,
  0xfbf5756a7dae3f00707b0166ddf06e8128d8f0db28e5e9bd82ce562ad95082a06cf4897deac5c6ad4ebe43f692973ea6,
  0x1edc87eaf415b3749120a214040ee971d7a1a766aae3ad67e5f1bc49106a75945190fedfe7ba4b334f114102035a4680,
  0x20bbd8c3abb5f5e75adef0ec95925446d81eea30344a9a883ff4eb0ebfd4b70bd90303c7885858c1c6ad637d17aab43c,
  0xde5853b31c3e1b404dd6b5289696ea3978569acd55f0764894b30c812232c63580024021c5acdb23e6944262c1c22cce,
  0xa0009f004fb10024c057d45d4f9a538115bfb45d50a6a7d56481c7e7fda86d5b8f9cf09656bda89a6eb5a7d88a2c3679,
  0x63a13528c0f5ce463bfacf9f58272fdd166c1e3ecb3d7b200e3aef8419bf0318f0d4a615cfbb38bdac420f745e1ca0dd,
  0x7508eb6d35fdc40207ce951b6c709e8464d520fb0922171e747f55eae5523f473dbb5a3daadd116ba020ca8cea59e333,
  0xeb4e1b661908198700432f88a903a44b45a3a7c5bb096315f72301f3a7b61e2657447ef081313d65b0d11c39c495a8fa,
  0x4db3488cb0d9ddacd49640174ac7720a08a274499a87855bf70d8a6087f4de6c0d89bd0bde4182f56d245171bb7b66bd,
  0xb14a44a709abab2f5b61c9c8f60a2201115ff96db9e002ac9143fef1e3b908126e9d567d197dcb7bd07b745bfe397d44,
  0x4d0c2990c19d365de599647d05e8be0f4ad0ba3c990ec2c2764df59d0c0404ee5e3fc18ce3a9bbe6843c79970ca19c73,
  0xea73b0c3215ad82cc691adc0cccc2399d742fa41b5fcdc81bd6078e006f9c25b6d6c02674ce2e5ddb680a72de5a9d9ac,
  0x000000000000000000000000058a42a38f8b301dab1137089a6e364447752521d94440a253e27ab0f499e0a6a511e5b0]

/-- The square of `scale13` as computed. -/
def scale14 : Nat := joined [
  0x000000000000000000000000000000000000000000000000000000000000000000000000000000000000000000000000,
  0x000000000000000000000000000000000000000000000000000000000000000000000000000000000000000000000000,
  0x000000000000000000000000000000000000000000000000000000000000000000000000000000000000000000000000,
  0x000000000000000000000000000000000000000000000000000000000000000000000000000000000000000000000000,
  0x000000000000000000000000000000000000000000000000000000000000000000000000000000000000000000000000,
  0x000000000000000000000000000000000000000000000000000000000000000000000000000000000000000000000000,
  0x000000000000000000000000000000000000000000000000000000000000000000000000000000000000000000000000,
  0x000000000000000000000000000000000000000000000000000000000000000000000000000000000000000000000000,
  0x000000000000000000000000000000000000000000000000000000000000000000000000000000000000000000000000,
  0x000000000000000000000000000000000000000000000000000000000000000000000000000000000000000000000000,
  0x000000000000000000000000000000000000000000000000000000000000000000000000000000000000000000000000,
  0x000000000000000000000000000000000000000000000000000000000000000000000000000000000000000000000000,
  0x000000000000000000000000000000000000000000000000000000000000000000000000000000000000000000000000,
  0x000000000000000000000000000000000000000000000000000000000000000000000000000000000000000000000000,
  0x000000000000000000000000000000000000000000000000000000000000000000000000000000000000000000000000,
  0x000000000000000000000000000000000000000000000000000000000000000000000000000000000000000000000000,
  0x000000000000000000000000000000000000000000000000000000000000000000000000000000000000000000000000,
  0x000000000000000000000000000000000000000000000000000000000000000000000000000000000000000000000000,
  0x000000000000000000000000000000000000000000000000000000000000000000000000000000000000000000000000,
  0x000000000000000000000000000000000000000000000000000000000000000000000000000000000000000000000000,
  0x000000000000000000000000000000000000000000000000000000000000000000000000000000000000000000000000,
  0x000000000000000000000000000000000000000000000000000000000000000000000000000000000000000000000000,
  0x000000000000000000000000000000000000000000000000000000000000000000000000000000000000000000000000,
  0x000000000000000000000000000000000000000000000000000000000000000000000000000000000000000000000000,
  0x000000000000000000000000000000000000000000000000000000000000000000000000000000000000000000000000,
  0x000000000000000000000000000000000000000000000000000000000000000000000000000000000000000000000000,
  0x000000000000000000000000000000000000000000000000000000000000000000000000000000000000000000000000,
  0x000000000000000000000000000000000000000000000000000000000000000000000000000000000000000000000000,
  0x000000000000000000000000000000000000000000000000000000000000000000000000000000000000000000000000,
  0x000000000000000000000000000000000000000000000000000000000000000000000000000000000000000000000000,
  0x000000000000000000000000000000000000000000000000000000000000000000000000000000000000000000000000,
  0x000000000000000000000000000000000000000000000000000000000000000000000000000000000000000000000000,
  0x000000000000000000000000000000000000000000000000000000000000000000000000000000000000000000000000,
  0x000000000000000000000000000000000000000000000000000000000000000000000000000000000000000000000000,
  0x000000000000000000000000000000000000000000000000000000000000000000000000000000000000000000000000,
  0x000000000000000000000000000000000000000000000000000000000000000000000000000000000000000000000000,
  0x000000000000000000000000000000000000000000000000000000000000000000000000000000000000000000000000,
  0x000000000000000000000000000000000000000000000000000000000000000000000000000000000000000000000000,
  0x000000000000000000000000000000000000000000000000000000000000000000000000000000000000000000000000,
  0x000000000000000000000000000000000000000000000000000000000000000000000000000000000000000000000000,
  0x000000000000000000000000000000000000000000000000000000000000000000000000000000000000000000000000,
  0x000000000000000000000000000000000000000000000000000000000000000000000000000000000000000000000000,
  0x000000000000000000000000000000000000000000000000000000000000000000000000000000000000000000000000,
  0x000000000000000000000000000000000000000000000000000000000000000000000000000000000000000000000000,
  0x000000000000000000000000000000000000000000000000000000000000000000000000000000000000000000000000,
  0x000000000000000000000000000000000000000000000000000000000000000000000000000000000000000000000000,
  0x000000000000000000000000000000000000000000000000000000000000000000000000000000000000000000000000,
  0x000000000000000000000000000000000000000000000000000000000000000000000000000000000000000000000000,
  0x000000000000000000000000000000000000000000000000000000000000000000000000000000000000000000000000,
  0x000000000000000000000000000000000000000000000000000000000000000000000000000000000000000000000000,
  0x000000000000000000000000000000000000000000000000000000000000000000000000000000000000000000000000,
  0x000000000000000000000000000000000000000000000000000000000000000000000000000000000000000000000000,
  0x000000000000000000000000000000000000000000000000000000000000000000000000000000000000000000000000,
  0x000000000000000000000000000000000000000000000000000000000000000000000000000000000000000000000000,
  0x000000000000000000000000000000000000000000000000000000000000000000000000000000000000000000000000,
  0x000000000000000000000000000000000000000000000000000000000000000000000000000000000000000000000000,
  0x000000000000000000000000000000000000000000000000000000000000000000000000000000000000000000000000,
  0x000000000000000000000000000000000000000000000000000000000000000000000000000000000000000000000000,
  0x000000000000000000000000000000000000000000000000000000000000000000000000000000000000000000000000,
  0x000000000000000000000000000000000000000000000000000000000000000000000000000000000000000000000000,
  0x000000000000000000000000000000000000000000000000000000000000000000000000000000000000000000000000,
  0x000000000000000000000000000000000000000000000000000000000000000000000000000000000000000000000000,
  0x000000000000000000000000000000000000000000000000000000000000000000000000000000000000000000000000,
  0x000000000000000000000000000000000000000000000000000000000000000000000000000000000000000000000000,
  0x000000000000000000000000000000000000000000000000000000000000000000000000000000000000000000000000,
  0x000000000000000000000000000000000000000000000000000000000000000000000000000000000000000000000000,
  0x000000000000000000000000000000000000000000000000000000000000000000000000000000000000000000000000,
  0x000000000000000000000000000000000000000000000000000000000000000000000000000000000000000000000000,
  0x000000000000000000000000000000000000000000000000000000000000000000000000000000000000000000000000,
  0x000000000000000000000000000000000000000000000000000000000000000000000000000000000000000000000000,
  0x2008bd793af4f5311fcccecc38f788728ee2b278693197aa28d033d10594631b5a17f51328764dcd8298400000000000,
  0xac2805fd129763072df3315974fe212a8bc7b6d196efc2ce4dfc728c01ba2314f7f451a13e63c091865ec9baa45e9791,
  0x409dbd415cd51f533481b859998fdc38d784575abd28444b4d7dec4d4727c16804a8fd7009182c6075c550cdf00764cd,
  0xc6597ad4c3d7c1fa574008e3a31c2ff6bda6f0ba3d7f63a6041aa72ef4d9c40761a476d1aaca5b86b53cf7b744bd899e,
  0x56aa4e0794c4b391eefdd9c9d9e007b23273ef7bf3cb11de3b0249caef2a4fb8982affb7be25a6ea85c258c84e455e80,
  0x1ef24198682775750abf3c50700a092394797d4361e29345b7258a9fc018d4e2422e37ced1b47d242ef7bf1101ef0f87,
  0x37e9110c936779eb47e9696911fb5965c86e1d81813de30129e3cf32ba30178257f896869d665939768b177b6c164519,
  0x4f1be5793c8761ffc4cea630669e553eb61384e6e8ae26b33577f8039747ae2a19f2e093a72f2e081b112b5429cd0ea0,
  0x2a9d925c864adc088f74f3297b32de5c61d57173b70ecb87b715a74d3c9500aa639e022f7c24475ac6a65e685fa0b50c,
  0x6382b6841366d9b28f3b45a1c34fb2c1b0a34fb37d3e1c798c12b9059017e333e944890fd64f89800550679ed03705a3,
  0xd0de26849da1f7d6424ff49c8fd36160ca351ef44cf3103f7bcadd2a922cea9f84a3bccb81cfd2020bb7357b488a0477,
  0x22f8656241c540b9f13bcaa9e8e71730a2aab14315bcf5a86d9d7336807a3c5bab59f080c9e8acccf14a7d49f54523f4,
  0xd7a5a9b0fb2444ff8fd9fc90ebc1f594cdd4c6858e4544206a807e9505b3d723135b551e62b212ccc3df02fc48de1f72,
  0x72629814172a49093e1a9789f54a9e2e0ea023e6424d7acd699f44594f3927d859c1d834ec27f195cb9021bb1bc16d88,
  0x622fb9e00af145e300c9a9f48231c078a9a1955d5033747b10e6b2b5e8bb0e4c6956b4027e35277303fb32b1dc552139,
  0xbe08282d7150f848801e82107a8c1a75d05ee8d840d9126fd5ef805e3fc481f7545fd3309d410328ca931e106b35f20c,
  0x7dcac702b4daf7207381e6fc7fc5230801fed80205e03c73022c8fc47bed07fbf6a0bc48d4ff75825ca9e236fec22ba2,
  0x3d25bcbf98cb3012a0f91294493c0ad4e0189fc29ccba698cb42a85cdecc8c0f9b18e11708c2c429cc4205420bc88fed,
  0x5d41bcb0a3a78c898a3de90504e42454f6be4cb136e43c7c14ee5c6d8afa3c89a9e64e30e8def0f26b65429095521ccd,
  0x9636c7c59a52f886597edf7161711e1fb1ec4b622fabe8833a2c3a5899a16c0a1183fb11f7952f1434fafa8ee6008a33,
  0x82a8a2e4c289774879e9274d885a4acf53ed6a846e8535471b3dc1ff1b61f876a98bd168770fdc1e047779a4005ae9f9,
  0x4f01fa714bb8110bcd114124b32430d05c36ca637d6e5afbe5b67a85e97a6356ecfb05e50e618103f2c3e69052e782aa,
  0x73ae44feac76823da46f31eaf40a5670b77eaa200edac4abcc53eeedfc26c8dd4b18ed71b487106ac3b3d47d70636286,
  0x7e390cbab8edd5fea335f92022387777ab204604a38e898e9cc4a22be55d5bbf2b1f35bb6b93f8e8bdfb4073b1dcc0fe,
  0xe32952f121140a45dca013c7b49e7ffb45d0feadba797f00414821618f2b61eb7fed40e5c1afb26e460cd9194c0ed9e4,
  0x29c5083083dda36d83deca868fa2353b4dc50faf2756bf6659203b8a758b2316a6ce209dfbd4e03bc79115693c13f112,
  0xdcff4272b0fe77b52ea9b7bcfaf3a83eab2efe8d7ccac589862d2d8a6d92cd0f557975b3210a09ce50b39e57fa3b0f9a,
  0x0f3ee630f811e3d8b30deded297239112bc785d79a1b0498b329e575bd9962299476a16f9c5ad7bf83e7664336b25661,
  0x8729a307807a2616430a20b2658b3602688f7b9ab65b3d8fe7afc8304711f0290f34bc3dc5035a5ba8b1756d7d732fe0,
  0xf0d803c93347114d4aeed0be5b849e9c683dc00c87660443d3ac13de962edc92dee176604491e889a241ff7a4bbc1425,
  0x4b0148fd320dfe4c33985ee57a87519287563eb8b742333975203c898aefed15b46733ca5e03c2ef2a196b46b8fd22e6,
  0xb60c1a2d482562b469ca087bf4c5f85c8a7c92bf335a7ffa6b4993fdd9583c168df6cf268799324887f395ace6d8fd91,
  0xa5c996f7b830768786621161e5602cfc516155cfef2f3b5a71ea04797f170dacc632acbc40496f0d427e3d6013138bf4,
  0xaf93e0a91b0f85977b9a4fa10cbc99b4d59c136fc453e81d7221f61b4316642f358d15936ac55e596036408582ee77a8,
  0x3a5e14852c0fb4564d48ef96349e43fd8c5567bfe8eb2bffe0e9a5c0e3775dbda470e888edd3f4f41f358cec0d07825f,
  0x21337c6584fd23350fa771042022c158dd23483f65abbe4b8baa30c064020078dd15451af8c43223f4442978ed543339,
  0xf759e6660a361e8960bd92583e489344305244cd50218f31a9442e73436c63956fb7a154e61512e5d4cd1d0cec0a5e78,
  0x4f3e629242333e415dec645e83e2fb28b8a09b856fa18c45929228a61bb1453878af554ff28599592679030c7c9b7783,
  0x57baf677a413472480c27a8bd91b2c08ba650057ba17a9b8802c08c2e726272d092710e25618b786ab1ff3a4fadecd6d,
  0x3a1e819be2de2b94713b8a7f1135b6b6f77c9d8d9156302cc2d5dbb0bde8986f8ad8f927248f67945bb2d14070ca5567,
  0x919d87f4a912fedca83dd72b5bf647ca57e4c62bf463e349800fcfea3411cf00e38b2cdb7f142f020e6bd23b1d30dcf6,
  0x07a498b324ed6c16e1f8a0bf4149a20f09e378fc6ed25ade7aa46f38f52fe6eef18c4de30b9494951cae0cac171f4193,
  0x1bf8e238a52d4b75fd5e63f7deb7e7228b130b43b05828f40ca95624542e912de01fb419c08a29b2d7a02af38304bf2c,
  0x5796145e12adf0927c7f52a933c23a1b14b044c776bb9da670d61468f4d2ffbbd16ff10879cb764cb7167aeb3a14bf3b,
  0x7436edfef6fc67b9721fefcef2cb37f7831cb4e15d8eaa1569e24df32b342eb36390dd0585e27fdf7f47b5a618b301df,
  0x21e36203bff3d2781641d07f19a3fb8e749a930e8999c19c74566335a59f1703a47ab198b16054b79b554d5426ce5f71,
  0xd901c412399f980b106341b24a26eb30b0c24d7066dab6709223185c72deddc7efa97b2e9c7f259cd0a912f7df114ed2,
  0x27d5376261e0d17a0b2ad811a0663f2e9b5b3fb34ba7539841f50e81ddac854d698dd1f28f4dab053f0e7b0c9030c79e,
  0x2f764c05488e0477ea0f7a4032ab87d10c3c0ba4c60d9dd1efb3ef4f7b4f920f4df55daca3c9eeca4ad4b915e6c5a90d,
  0xfe8c0811f3570a0030c8e42a52b3700f1a6deabd99248a7b9fdbfc042a01e65a5c2c048c403b4098c8c197087c901d89,
  0x341e26339e10918bcf70cf545d59263a1abe212dab4a67673197631f2969a02bcf752b654222eacca9c38de83eddea03,
  0xb04fab66a7f5f6446b848ea4a80476bab3f01d2d51e0e01c33739d500444eb183a14bd1c562f994b11795bd19cf92407,
  0x4d14f1dff9da8c6db3e1aec329039adcc83d36a716ecb2d68594fba15c2cf5a41bc7daa0b2c164cc4bca6872f2c0da9a,
  0x5c524da2b09af63f6d4598036d7781ee1e420daa9a3e799832b504d9ab25f0c0fd51606c85dd87b3b128843e894bf32e,
  0xb27fc74859a60654dff457d62fd640d0f93c460c48aecd44af53fea7a2b0244784e1b196c926bb03db7214c76f2e2fe9,
  0x4f3a9cc969e7e929f09579dc4edfdbd83e88931290ab4545d9bb4d88bc649a9c13c407475d735461c3b1300226e08581,
  0x0ff8dd88da793643da0580fdca43f615f2a91460fca6ad90bb2bc5474b09e9585f05aa2e5e9c2d39578d287528c8da5b,
  0xb95bfa481db8ebac9c024140b49a58240d836eeb5682fbfc1ef4d9b351c6bb83998fd9aabec56ae6b07ae3d317984055,
  0x83c802859f61152147607d306c6c2810e4a63af0f94ad16ca418e6321a77e56d539caf4b4f1f90bce3a8e2dee213b7ad,
  0x6867d6cbfca09a3cc00876380d909d18dcf20146802ed30a4929aaf0407e41b16ba9acaff72844c5ee908715d4a44230,
  0x9884ada6bc2861dd84502b7dfd725315544927b306762077219193c395caad3059a6bab61c6fb59617a326081c5bf739,
  0x0be7341a86011b859a95cd54a91f78cd04f3bfc65a74a0a5b7ec579052ad8c8e21165a91257f46ac449e025aab215ea2,
  0x80ffb47cc4234ebe880483af4d5aad912fa4c14429fdf29b67d0c24ec75221b83a83b639623b683b6223751b28c58c1c,
  0xd8e43282e4ee963ebbc3471d18b1a28e6d129342034288bb7ad5560356366bd47e71e1ab3a9208a0c21df03306b120d7,
  0x9661813b850c536a9d0a604e5aa931bd5c229b4d35942a7cd622f97bb9f34ea73a3149b6df66f275f41bf80eff1c7fe2,
  0x25014f2a5d7df179eaf77fae4e669747f41bdbe8a3f456e2754a6b04798d7ab84859044d28a9ddddc5ee8ac9ed29d7d5,
  0x0f2e7985d149cf90d34f750cec36c633d329dcf09ceaa114bc65e48003a102ffab24a532868141c295236b3a05506f80,
  0x064d07851a81a7c1e3cc5b5ce55eb1be4eb548ff10e57c668a6471fc879f1e9107071dff3515ba73540b1cf7153b89ff,
  0x5898af520e2f196a2235e15eda69672a37b6aa52f3c677c4191088938b6fcbab2448bf37f9fc24808280f82a29920112,
  0x466b1ea523008b64592907e5d19031b61d5a6dd26ff9e3617cb6b25837e3eefbaf7f90235f339f29c03dd39b651d6bf2,
  0xece2216e3b3eee9f230bb0b1a2f3720e287f396e4d460019f037101853b3130d5955a55cb168b7b9a52f077ccef3b0a6,
  0xb98e50956885ca0c14994857e0c536283338bb507c7c13c8df97ac46a560bf84f4359947b700149b2e78fea81e2bbaf4,
  0x25bff0e1a4867ceeea9818e991ab847853e1675c46f0f0e620275a421d69309e642f36a6adfb6c75116eebf0c080ee38,
  0x76213f827f357fb3b9d2bb0c8431792d52c621da3cb6fff96c8747db81977632f92d289d2b6d419416e49a2a7b45f9bd,
  0xd513a70ef47c611fffb8efa043168add68f26f968bac106867b711ead001d1e57c5b9dd30d45aa0c3da67c5480365cd8,
  0xb1e6502a115ad13f058175354090b07e465a065bf7aa4bc6ca9525f66be2997ba6c7a40fd1063e89b1d6846f5d866fbc,
  0x778787fcd61d3594b060a4d619dad88398bb30ce6b904ea0013e7eedca1ef4af4bf55c0e7c2cf65bd3b1f4e2bc8f9923,
  0x2184783bcc677ee397b533cef49aa9f9423824714635c3646e73c25d21e0435d9e3e24c005ae7263307960db9d02c3b4,
  0x6124290a6770e35dd108469ec24263eb65e88654799eda977cea5f71e1e0da35934726ae0336f81e697ff78549466f1f,
  0x8469fdb331607d6b5716a694ca25cf0ccec0464ccb25b4a93549e28c76824f49ed473f1d00107588923ea86e74f52896,
  0x4ead1f2795d2752f304334ec96a7bcf054a2212a2c9c87df7a8adc94d7d70dc9a886e68465a7ee5edb2064d0507ef083,
  0x9294363f29e16b51048f93fb6d36d34b9e13c5c94e177d7df96bdc63f7ff1eac9d1855ddfece2ed0ae15655a7c724894,
  0xafd4006d20127e71f3784dd45f3c452f4c3757a133247605eeee5b5738319d75eb6edbbebcb727005d135c94d52f0fe2,
  0x8eae9551dbc0b2c5120ffb1014a62999bc6b9fedd05144639399a8ffa8892c061243df1f8489887843814d5ede73f601,
  0x7f63fa02765f216631ec1e20f69d01c55f2958349b3ad32d505323234289ffbe1f989e30b19cc77f2f2c9de39c280817,
  0x6d4b228daed511cc5e07f531d3ad6e0e31d2d5ef6704493aa8f52842b540ba3e84a4d78ff5c5b55ee0fc89181044d809,
  0x8187d5b97ecf83dcd07db7c704c1c7eaeb1735e24b636956d78de9d662b8959f118972a2841418e3714b4778ba7f08d2,
  0x8e6074e96538950d90deb3c5c6aa0fd29d3990eea922b2f6ec7ba6f6ad03c0443392661e7c1ed8726bc8b64e73bb33b4,
  0x9c959b19b68a5735f608c3ba58e91763e02765ba5cdbb47fce17814d40f296d20913d2a930d17cb261635c7bc7a38eb8,
  0x41f78df465d94e53cacfc56e8a78acedb5beebf8bfe0d83515f9be9dde657cc5ed8dbc311b33779f616245d4ffa9a048,
  0x53672698962853fbb7cd2727b4eb9329bb392c6fa77a7c99965f2afbd2db4b1b742f371f293f578456e77ecaeb850fd0,
  0xaaa178f6564c761d8d97fe64612fae078b99777736588500dc110ecc6bd901ba5e063d7b09b47375ecee7991a3b07177,
  0xed077d872a8259d887319d42d2316bf5918f90072477d6c85d62f73d92120a2187bc0f959239d5cc243de248394fc861,
  0x4f3de12533e3f53addcb821f87f51732a09972a7fe41a839fb800293167576173b1acfb222108006aafeb4cfeaf840eb,
  0x3f44133df7dbe9fce0b7f2df52170abc9fcf20e694f0955462cc8dd58f6af3fad33f1a8e3787bf6f1cec2868e883186f,
  0x22f6964be80e33432436ba965f957ef5434d05310d4f3d1ac053b852afc8ca874bb3bc98a96719f8433a1aaa33b942d7,
  0x3b251eeec78ce00785e6b3de50c5d4a63e7f1b42df60ce0d7af87ec1b3d748db5c2582f08250a06f0a7cf80f92e0fade,
  0x984479fbb680a1b57311cef5b2ff0bf4a49b28ffa88d885d8d84446e49a5819e33db4ae70297d09f04e5f1d5f99eac57,
  0xb342d44aac3a23a7e70ead7b362148b35cab33c1a0a50a657c993ce8e7d5af168fb89e0be4d53e2d8631138e183350a7,
  0xab618eeb3acd5b9ff653b6ae92d9ce735d7ff129d9ea4a1cda8b8a9a45844822b9a20cf23e9aa71a39d5d16b09ed315d,
  0x1f02afe0d4f5982f5a5ffed24c4e7d390828f178a039d1bcf36921fb2e1ebd7c10eaab4d5b8cc63cc2482c68701a5e3c,
  0xcb5d09ac97eafd455754ce2ff91898bc3b7bee0da5af99a9467026dfa22efc83a98c3daa2fd48875ff27bc97d24286e6,
  0x8e2eaf179744fb844b410cd8dc9f024aab04cec6c6b04da728b906cbe4dc770bc1d65b826fd308ad11f0bfe1d0906ff1,
  0x25ae9e8e03b9ad383b636899d339d4d47bb619732fd60fe06646f95c310b48ce9c80f58a1222f1e918d4bcf92343a323,
  0xdaed6242aa5b0167d11ffd985d81e36128d02b788edddcfa554e4bf8225dff85a766ed735212002f0c8ef86f60003fdd,
  0x478bbd9f71134cc3ad66d96481cc96175f860c0103c1de0e116126990c722a1ce0b3fa140d58e6e3f1f2e68ab4c75ce6,
  0xfb9bfe0d2ce5c542f3fa9e78d6de508adfe4eea65f9f4e948f964b8643a9797996515d1fc9d55f956a6db22b736bda5a,
  0xc1e341da85f52a7b9806797b2239563536abc32ca3e62d5a7e6d5f825afbd01d9240b12b5b6a6ec1b0a6d2692862c4b4,
  0x84fbd9cd132bf858026d05fae4d28ffc86f3a6810fd455ead9f44dc7692a476b4fa7b18e2af5b7585ddfdf5e522e5d94,
  0x54e939033ee3374fd66d399839bb2582b5a10ef8bb5f08709cd1450dc8a60d1c6a60078031f3de30b4fd75f2c8971631,
  0x04c8eab900c1c6ec86b4a80b873fb6f960b26b8e5f9944a8fe00d86ffa812aba7fe3565533e52eb243c01eea13d4a30e,
  0xe3f1a742b7357b3c9bbb4cdfc8acd90ab0a1321f2de357731072aad192a7c8a46f6eaf6aaf5d799493838099be9a5677,
  0xb3d4dc3d9310a7bbfc3f7a5c10b9e1f0a5292e3c8bc8b452c08e1ab37a3778937514dca8da5911b26e39d666b91667de,
  0xdc2954ae20cf31c3c15f39cfdccb86dea8c36d0904f58f1d09a0cce314b91967ecdded03a88e42962c7a141506f21c71,
  0x16862a20da90bb3108810c33bd17875a846b47be5df126de2a42c943923180702751bc7e489ebaf8932650e356a16175,
  0x42f3c72e0ffe465aebe368d593563d9ea0957d529be4c6d3e87ee2951e8b7f4147abd5aacd7bd1c693c5ccc33126bba5,
  0xa1cc91e132fef5009b125220f2627e44115760c2b307e186490f4f9dce81a7d4b3f9d0096c7c0935595ab53c09501688,
  0x2edf877927d2186d53ef534a5f78698851f3948bc8b12fd70a4a03f45375a3c6121f9dccc7d55b5415a55c5f3c234cc9,
  0xb09b10cac6717aef3e48aea2623fd912d9b90ce6f21d7e73b3c7efa13b1d17e64e1cb5db001ee44a77d74e3cc7d3cf36,
  0x15d7430559329b87193af1fed5e1ec18619d5b45a75c89a4d9085d1fd7dfe5020e223d737c2b599d75635cfc63fa7f7f,
  0x99c37c69392e31c774f04213a12f1e0226f7e235f905fa633a4743bb89ff318503f1faa54723c515549f9a48c2a1bb6b,
  0xf67134ee87f6b7347552cabbeb77b1b5e30b518d62976b3b160fe977122a5fb78a21ef156835c1a7b83a1c2159169151,
  0x78b2dc3a503e28ee7947f0503340f99f6f2fad0edb0a7df5a98d0f3741a2d79bcd3cee90b3dd463945f6c928f03285b9,
  0x7ae2245ab48903a16953c6d4dfd5cc05b0cad20d477a3a739b534a79a9584a96c0bf6d84e41a44b871507cd5e60ac15e,
  0x8c8091b0000860a1429a46c622b312c2980b78aca5f069ea27c562d7bd6555d3664d42348184731c2b6017f8cfb64dd7,
  0x3f85687a6f19e39b27f4659080af9fc3c78e975eb3ad086d16023a98b49b9c5c7e1e852eef4f3b5891c00ae6df12a7fe,
  0xfd303f2e76f3d7d230ac9a8620391f4f8501a91ec154c4fd3d68f1ffb4279e086c7d7dbd6ac87b50fa8f0b1ddd81b76c,
  0x6931274305fe77dfac188e043279a9ec1afc8fa5e118888b2027c519253fcd914f923700f30d7dcfe928d49d163bc9d0,
  0x788c35c76320af476fe575bbc6f8ce951559160a8b63a084d6c485866f37655b57fdcb378ef28cab5272814a8cbc4f06,
  0xa688f944451a7a636752dc135c2c8acf209eb67f73ec66bec6a1238af11a1df39294ee2d3a88a8487d6b4b902eba4caa,
  0x1332b74da2b805d7775f2f5bd959dfbb4c01da6ba13b6a562f071161791e6e80a8771933fa823c2108d137dedb07bb98,
  0x8bf41a8361661d3ec828bc8f8616fc915c5cd8c651b5c524e9d352603e2ef27b180d1b4c7a7e597314ee4643a891a457,
  0xc682f6a7fb23288893282502f57362633e33ca9996b6d1410ef2f18282dfaeb102c6e4cd06c3d79741fb1fc8598b6076,
  0xe7b64b36e5e45f3ea21358b67f398c40c375760b28acc8a6ff2b01cfaf075d9d4b348362aeb978867b5bf1f1bef3f0a9,
  0x2e41eaba1bfbd00328785714157011e45b6248e8e5ec942047a1b50b2248a9f7f37d3f2c3bdfaede10b32f23f60dd202,
  0xf5f594b1e2b8eb7e080a1909c1bc996bb2b7f681cc6150faffc80e949d16dead1b6aee8f34fd23196d3b3124577a5ed2,
  0xb2c0925c493ce12d19cf70624683389b292147746212a74b15f38e6388e1471d8db4589a8c9e19c80a5d2fa6fc21d803,
  0x389ddd9acf733dc07606e923d372fe665c21bfb913b921805f19df684d486b82c6f951d93433a12def265655f4b8ee20,
  0x6399567dc67892a1e84da31ea0ebd5ad81644b54fae8c72a3962e96ebf787677fd4e8d5ca3e52df764ca1947b597ad85,
  0x5e77235d1a0a95acfa42e2eba27126c2fb16ec01ea9d992e6665634860c8265f1e70c0afa68cb8962dbaee03e175b364,
  0x7fb8f61f0f99c6b18da80258c7db732a5f4e008d951f6999bdd3718f77bbb1b6cae895b61a20ba444aee3c33374451be,
  0x08a4a06593e0998a4cdcd51a6c7aa28cf193d700a571c157b1a206fe19970a124cc3074c9b02bbb327a6b766027ad396,
  0x7d99a5cde0e3cda15a8c63861cef5af5715387d69fcc1eaf04c598499744fb9afb1c58f2563d7bab53b55d6cac826f21,
  0x87aeb196c38d8109be7899b54863144abd2476c9f5840e21c84631da59ee89b1162e83c84b1bf24e78ffab989ebd847e,
  0xff35c4d93d62808bce4af8e50c19b986a34047df1ab8936b4dca418fc4d9f09d2db4b470e1bc88195dccda57a6c4d0cc,
  0xd82e6cc04c422a34384dd2940571c9d80dbc98bbf8c4a7f480fb4871544705472dd376bf57be6cebac3a11d938e7a470,
  0xb4d9a45b9e38f1cd7c4055eed31c0da3b42b14ffec2f1cac16febf071394b07ecc296b176bb6dd5a08b6b5403c78f84d,
  0xdf0271337b2241cc4e32c40bc3f1f5cdd69b70d0f18555399c6d9652bae94deb8780cc52b100c467528be4293007ac97,
  0xbd6d48fe7e4756cfb3fa79dca1aaa9cbd11efc58e868e7c7822cb07cec49a8f44a1df17601587f650d15c4cb6faf2249,
  0xd1decbb38510c8fdb0f64703b585f50d69cfc3381c9a620df39284ed7f4227dee7a6583f1f20aa62048251a936db5cc4,
  0xaced7f950435842b8c845a2d532ef6a53eae677bc0f7501db5628a5449f1114d8e6d6c3883ffce4eb10d9e7803547ef6,
  0xc713eebd3025788aac93e9a6c0c8eca9c4da9727e3d0570ac05a37d4c8ce84c3845fe766fadbea165647ea0071f0d8c2,
  0x652cd8ad83c0c14052f1b7878dc913a2947fec7503efdb04428f2e844905a96631a4485a885ee5cff7feba59b17c7c69,
  0xb67407c2dabc86fd0641f5f1e3b0df70026bb758c6b0577cf32874e16d33160f9d83013f47df56fa5c973dcfc351cedb,
  0x0cc9291b93b8a886b28d52ed16be61576e59b404238cf69fa1a67658c8bead151d544a98b3f14dd63cd1664b1634951a,
  0x38df8fd5863f070e30ddca2ad3b99eb5039a1337be4aea643670d70c6714f65e4bc1586671a2a95947caac9f9e67a5ef,
  0x98ca4e9cbb60170a99ccd3d43cbdd17742cea26f16e13fdb78abcc3e3245b6536f9c0fb5300225bd22fb2a45752f798c,
  0x0a123eb03ccb397af80f01d79b44b06e09f9bbceb7f3125456e11e99dced2903f676b67a3bf9165e5f5b47334d5c0bb8,
  0x94ea3a200625d0bba56003d61a6a4a80b83c9a79ff13d55945d9043804241a45f460a48beed1276cd65c9cf3d346ea0b,
  0x26a25e4bcb70494d8d1879721dfc8ee6ed971006037536a833e20e1524e6062146636ad6e932f8515de478c71d6de120,
  0xe13b1a1e5fae912d1e5aa1185c7ff76ba8faa55a5ae0696dd89a211ea09cfb4ae52171c1d94803e09c74f15b6ffa690d,
  0x4c092416ef69684e297a46085f7ee8fde81caefc3d4fb5d024462fc2f95a310d1464c1fcb6f0624d0028a36ad8270a3b,
  0x45c85213b8dbf4809e2a6a94d2d5ddf041ce0ada26b69a270959124e1f15448b07f53d617e26034b9932e52e38b75f10,
  0x43a3a05aa973cf57eb0a9de1e21fb53a25da3979e1ed71c8e0e61405f96cc57361fe18752d9f5fab98c50b6fe4e7533c,
  0xf70ff4635c8d794a919e559e4c8270dfe1772cf43b393764ad547233cdf4e2623afa0e97d2c2e4d62d6df47276edef85,
  0x69de72e2bdc93127c5a830174e88ea57d3a2ed48c556570440d33175434119eb6ca0c5d2f454efb4b23711a1b9a8c4e5,
  0x94328fb3d2998d453d398b4f56b28a48def0bb7469f61702b09a40b782c77c545e89668b7a952df83d690437812c3ff5,
  0xe8d902fa65b6db23f2468fff8c046b70bbba15e91479408128f2170827ca5bc95d326afd2634c6441b351fceedfc424f,
  0x52f9f985ef062fac06b263efcdc391eec17c5c650d725451fe4b28c9cfb093e03c6d3c2fefac33edc31aa5b7eb30e4ca,
  0x2ae822f8f78d40fd2d83e160e9cd857d38d07924e7070a98d41acfaaf42476db953d4af91cd61953a2fbdba3653ea0f5,
  0x316dbba1191bfac24f943cb15b03cfb1ce78ddc9e923789a4d630476e69219ee886eae2d3dc891fd144735b0a0f702af,
  0xf43facab5fed53efaa8db20af0d7ebdb3499de91787f24fd4a457e67c99ba593a8e91d4e5325091277a85be776421ae5,
  0xaeeed2a1f130898e20e9883f89cfe6cd03bac74489a31c8f9dc4c15871044a76fee869a5d14e0367d965dc7f5bb6d9e2,
  0x3f5c0d777fcfdbd46d2554f042121b2cba0a4e30a74961124a8c914dce96ef409621153f9a30f9dbbde42133a4e86fbd,
  0xb13894016fe2e8f848def9ddf8b9a45a50648cfe8c150da55545aea3ebb0e2dd4a4590d8bb9758a4837a00a5a3993950,
  0x8ac9ff9ba539cf986c64ba7149dfde9185c2b7a77699595ef1c9744d3408e70f61bc9511edbaf7c3711a27e925f6d9ef,
  0x70689067347940621c01d10cde06f52f26ee041ee31f60703dc6aa2a1b94e8b90f5e39a94da2b812523f7a0b86d3a7ac,
  0x447d90ea48f85226d72d469d9d5ab7d86f899ce976c8296fe2b4cadd0d9cc77ca14510afc41788a1b6fbd2fb51ed5d12,
  0x99cfb674596c8caab5b4eaabe315f0267d3138a7a6254759a9eb0f9614c06ab6844d530d9706451ae5dee231cfe4120e,
  0x5ffa9030e47e2b52d715bd556cc0117d181116dc8eb2fcca7ac010e43e2effa7ed05b468b068c951942fa50f15260143,
  0xcf241b5fb7e78733292554bd1d2048bd76b4446253713357c40a720f26a4f88f8eae31abd25e2ed224a235cb04848698,
  0x2cf17f46da669d22a6a4281d154924bd431fe66ef1c13175bdc2b2a65c0f697498eec823773413442eff1345c074d987,
  0xb04f0269d4b44419cc68d0c46b6f501c5ee3cf6b4d086c544066e3283a3ef842fe2e9b87295f0132afd9c72cfb179488,
  0x8d5202613f969d823b579d4f97bf5edfc0c0bf7a304198f09dddd9d9991c289044f31e845b431a8adfed895d35c486ef,
  0xdac65a2edbd7571b20713b29159c3f12f3bcabe4d152ee1e0ee5d7ca7801a2193d05e6c32cdd4f0fd888b515e139e706,
  0xee600142106cd59d94e7a110db400040a5a97021fc7c45c95b371db6f325f85ae726217b0496adc71cb90ef8ac01c984,
  0xd796dc4a858e188b99074dcd707e07665d4ec9ab9c1975bc49035b6ff1f38f4f71e1a20e4eba67945e38ac143db127bd,
  0xb0e20485fe9c411ff701b1a5160ab285eedaaad3e4eb20333513ddb8abcc4735a53bf351b585da2a2b286b7e59ab43d8,
  0xf0c298f8384e5cc74823dc85a366f52eb37bbf9e008307c0a6282eabd97867640e3e41e7fa071c22c8bfa49beeabc252,
  0xe1a0637cae9a4bf1d0da2a5794290ebdcea4a55777486e4e5bea8171ad25d98ee4e4c793c1d612ab46bccd868a0a5c05,
  0xa1afea6b6d14444bde3d29ed7f5a0aecdbab224f5650898d5401b7f56b5b6b5402ab456cdccbfd7241ca62ed85cdf9d7,
  0xbca39a17bf260433126ee11c002cd5075dda74a8a80bd23bf9c5b832a0430b00feee0cf33f97c0b14e5104738638c4b3,
  0xf0959107816edee2ebe84fd94e4843f0b34653eb967f7da243b243e794b6ecd8e3c5c9df81aaedd88bf0b9900dbd4a0e,
  0x7141b6ff8d40d177da33a0f826eaef38d6447890370f0b7e19cc27c95a4dd52b43948289a339c57d46affd511a2e25d9,
  0x690bd92d120d67ccb7e3b9db83e790ee9b24029b5df0377e4888eab41b0d242f1e59bcb1495632bd14966fad42d68d76,
  0xce580514419528e0852bb2f7f4ed9d4ed4dfe669d4092c635e0a22fc6d9a80d06358841fb3573b4e17cbd7cb9e559541,
  0xebb7fca5681510e59f5e21dac68143b69aa2c7fb6023f91e9ed2c3d63b0a0a6796b39528edd43704761cc4e96306fe76,
  0xb6f8b56ddb8f92a934093333912222061af85d4a77762ef3eb1141540a38e2e89b0e72c4622502248230c7774e57be3d,
  0x35f28a3ece7f482952cb9b94fb47c51dc54c32a346dfa68bbc24956cdeaa27f18b200677f90fa21985660e53924d1d39,
  0x4f9b04d7c81efdf973dd70f379354329990c5eb1748c0e6506528c485c465de8ba59a1bb5836f91c3cb320dc097e609d,
  0xefd01f51c3a2ae589a10191b156541dd2774319cf2ef0b697374088e550ab23c558fb42cdff8c9b877256b6da776f8a0,
  0xa91070d0e75a82496c64c8b93bc27de215333ece1ca152bef5238d3be6f07bb9aac4da7a1e3899096891f54fd1c98d47,
  0x8ab1e6199c1379921b74af27168608b563fc85c05eea8a50f0448c89d57c0eb8c1c27130afbec91cf20aa17a8f13ca22,
  0x9d038bae37d09bebbde97d2a34faaaae376b12d148506b32235a93ba2b6cb2a4f37809fcf9fda5a525523f93a799ac81,
  0x4044739d653d13a034db275aec03078e59c09b08b973ea0acf76d4bf5b2b2ac763853c2ba559bddcd707559d8465ee6e,
  0x9109ff467f34f6490f9182705713ac631b3e6d5955e79ccde0a3d7789cb929f730a57de9f30d7780f82ff2718523e273,
  0xe75a550ffe36c74defe42641df29eb1c00841d9bcd899f477c1add85e178e9aea9b5a9cf7600823c2f4801e14ac48218,
  0xf2ddf9a8e40fd8c0269c24ef3dd4ac90c53ece2d554aa2e8bb2dae0171695f7d77579f9428a931c4edfbb617585abde3,
  0xb517a0853e71337e7b84d718d64739dd03fe122b3a4037c977a4ba98b9acc53def06cee03b55a64b7846414f610a67bb,
  0x5c63679deac05e5100181ad0e39a8e1cbe7e7382a6c738f389d86487b631e942a98f3a3ea0777d8f941d2850e0b97f3b,
  0x385e746952ae8e8ab0dd82cada285142cc4bc8e169e1703611d3f501993720d3e4da2a59271cf48f6223d4d9df31e008,
  0x9792c785372caaaa9c7d4c9031a1d00a158a1989060df6810fc21c1c6114bb2f13f2d6bd558681c7eb6760e8042ba5b5,
  0xf2601746ede0f5f8d8a4dfed498c0d9e7f32c46ad9bdfc1d41e7bb1d9c9eb6a5faa9700fd46da3269e7491c113516e0f,
  0x000000000000000000000000000000000000000000000000001eb1464d4af074e9367820d1fb754ab174746421e275fb]

end Babs
