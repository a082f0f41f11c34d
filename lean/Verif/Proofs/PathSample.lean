import Verif.Proofs.PathEval

/-!
For every vector two computations that follow it, found by a search that chooses sixteen expanded message words one after the
other: the chaining value, the block, and the other chaining value.
-/

namespace Verif.Path

open Verif Verif.Spec

def samples : List (List Nat) := [
  -- I(43,0)
  [0x3bb02255, 0xb5143fc8, 0x61a35b23, 0xea350c82, 0xb9f30a33, 0x6d87a86f, 0xcf8ac96,
   0x4db02458, 0x411cdd11, 0x24da0221, 0x9723af24, 0x321ebbbf, 0x46a4288c, 0xc9015cf7,
   0xf775f93d, 0x798e38a6, 0xba5ef61e, 0xcf2dfe7c, 0x7cacc33c, 0xa19ec04f, 0xc46b5a5e,
   0x19731689, 0xcd3c9bb2, 0xe0d9f3f0, 0xba4a1f0f, 0x890eb38],
  -- I(44,0)
  [0xe07cd76, 0x9c1552d7, 0xe9dc03ba, 0x7deacd91, 0xb00f7fbe, 0x23d8996b, 0x318745e6,
   0xc6d4b21c, 0xb0d53165, 0x88e254a1, 0x788c9115, 0x1db96e3, 0xe40a25f8, 0xe846867b,
   0xaacb5089, 0x7cb6a2fe, 0x95b5ff7, 0x9339ab29, 0xa7fe60fc, 0xb9607e86, 0x220735c9,
   0x3323a651, 0xd2bd564c, 0xf2bc7763, 0x14ccb572, 0xaf034a04],
  -- I(45,0)
  [0xbe58eae1, 0x1321a340, 0x3d40a837, 0xe028e973, 0xf7d23729, 0xce9bfc06, 0xf1c09a,
   0xe3914b46, 0x34a0837a, 0x8afbed33, 0x3559090b, 0xb981f77, 0x4839e7fd, 0x132b9f49,
   0x875c5864, 0x4f7d2733, 0xdea5cc11, 0xda2195f6, 0x69adfa51, 0xf328d1e8, 0x491022c2,
   0x65301f0a, 0x79bd8044, 0x5209f9f5, 0x91a9a3b0, 0x4d7f6df6],
  -- I(46,0)
  [0xf6377714, 0x607c5173, 0xcc36c770, 0xd5edc948, 0xc6d07e86, 0xf572d1c1, 0x997138ab,
   0xe402570d, 0xc5bc410e, 0x1847084, 0x6b8c310, 0x88b1def1, 0x8f942789, 0xfc3cb0f3,
   0xa10967d5, 0x37ef25d2, 0xb8876c3c, 0x1be5c4dd, 0xb193599a, 0x65447566, 0x3fdb7aeb,
   0xe4c40a66, 0x4cdd5fc1, 0xed40b0bc, 0x8d5bf986, 0xfe8207ff],
  -- I(46,2)
  [0x49aa82fc, 0x52863d38, 0x74a758a8, 0xdf5552cf, 0x17a1411, 0x50142288, 0x868378fa,
   0x5333e947, 0x880c8282, 0x6ceb4f65, 0x5910458, 0x1b67adde, 0xa8de286d, 0xfd82b429,
   0x2c8ebf98, 0x61247df, 0x545c6e6f, 0x3561a09d, 0xd8e6e5d2, 0x7635fe3c, 0xff1eb4a2,
   0x582d0cff, 0xffb1bb2d, 0xefe748ef, 0xed3c7053, 0x942a28b2],
  -- I(47,0)
  [0xf27f45cf, 0x6bc1ed4b, 0x6007a10f, 0x1e6d0f70, 0xf2384e93, 0xdbb4abce, 0xc50394c7,
   0x2eb3f69d, 0xe232c13b, 0x4d1f77e, 0x721ffc0a, 0xc04c4767, 0xaae59cc, 0xe425496d,
   0x70e6a56a, 0x9cd789a6, 0x6ba679b, 0x92f1e960, 0xf95c9fa, 0xb0b84b6b, 0xd6484971,
   0x818bd4f5, 0xffcb52a, 0x7da67727, 0x370db81d, 0x396ecbf8],
  -- I(47,2)
  [0x6dd858b, 0x4c432adc, 0xb5da8aad, 0x2767a940, 0x3252020e, 0xf52cd6a0, 0xa0c9838b,
   0xc68ebf43, 0x6ad053b6, 0x5ee0f6de, 0xfa777a36, 0xeb4d1ddc, 0xf7394bd7, 0x59891311,
   0xab54f70d, 0x2ace7285, 0xd03d2d52, 0x9f0df1d6, 0x87777f2f, 0xcec1212d, 0xe58e2f6c,
   0x6c840623, 0x5626614e, 0xd8d8b0eb, 0x295c0d48, 0x47d03a0c],
  -- I(48,0)
  [0x48fdace9, 0x29fe4d9c, 0x5cc08e78, 0xf0dd0961, 0x1ff50b30, 0x2cca908a, 0x48848d64,
   0xe45080d4, 0xcc749c34, 0xb9d90050, 0x36c74a8d, 0x80db29f1, 0x9cb0a324, 0x6872f2e2,
   0xca9f9e0c, 0x8ec11d3b, 0xdf154543, 0x1712cab1, 0x7a6bac1a, 0x332eca03, 0xfbddfd2e,
   0xc520559b, 0xb2f1935b, 0x12382eca, 0x2c972895, 0x22851aa0],
  -- I(48,2)
  [0x4c41d524, 0x22d1a32, 0x635b0ec7, 0xffefc442, 0xd8e812bf, 0x57ea458d, 0x1565a35c,
   0xd24b0995, 0x84fb10e2, 0xb5363ea2, 0x80829e95, 0x33a90058, 0x89063e56, 0x84b738a2,
   0x45e7915d, 0xde076d43, 0xa91b55c1, 0xb2103f9a, 0xf096fc04, 0x6e1e591, 0xb1106c46,
   0x45e7e537, 0xf5da4baa, 0xa4e3d400, 0xdac382a, 0xf0c37178],
  -- I(49,0)
  [0xdddf6815, 0x891f3456, 0x2558e9bf, 0x1633f48f, 0x5efcce05, 0x3d3fd605, 0xe16e1960,
   0xe779ef70, 0x5eebfcd4, 0x105705b9, 0xbd67eccc, 0xef41ce21, 0xd9b93c05, 0xa04198ce,
   0xc568f88d, 0xf8d978cc, 0x462f7b28, 0x7b4a3b70, 0x8eaccf8b, 0xf5372f15, 0xa7fda22b,
   0x20e82071, 0x116eeea0, 0x3dc8b000, 0x63096945, 0xbf6c8c2e],
  -- I(49,2)
  [0x9db87e3c, 0x79a3b147, 0xa29ddf41, 0x40b49312, 0x449af53e, 0x42d1bec0, 0x787a013c,
   0x1f69986f, 0xcca1e96d, 0x62c6eb29, 0x184be72a, 0x2130246a, 0xfb3e2e50, 0xfcfe63cd,
   0x2828c015, 0xc3f5eb8a, 0xb7dbc3ed, 0x20221e57, 0xf2b6f921, 0xe58a6ce, 0x8390dfeb,
   0x47315037, 0xf6803d0, 0xaec2183f, 0x1b70b138, 0x1a90cec5],
  -- I(50,0)
  [0x6b59d222, 0xcd9dff02, 0x4b7f68c0, 0xee67ccc5, 0x6e8a0f0c, 0xdb286c5e, 0xd24f576b,
   0xc8a50e3, 0x5ea7c051, 0x8f35995f, 0x6f0d42f7, 0xd6ced0ca, 0xae4c7705, 0xedf66247,
   0x7d7b51d0, 0x1cebbc50, 0xf5fec6a6, 0x693b54a9, 0xb03ff8ae, 0x447e7dc3, 0x2a2b46c,
   0xbbae11a5, 0xc2415f30, 0x85c8bf83, 0xa5ef55cd, 0xdceece6e],
  -- I(50,2)
  [0xed05a587, 0x9e82ca3e, 0x548195ea, 0x520cb22b, 0x924b5039, 0x215109b8, 0x913f53a8,
   0x7495dbe4, 0x9ff09f79, 0xce46bf79, 0x56652efa, 0xd10d2463, 0xc90d9d44, 0x1ae9b6a9,
   0xd74e81ea, 0xb49ae75c, 0x8937fbf2, 0x7917b916, 0x55237134, 0x443506ec, 0x7235b880,
   0xf724858c, 0xc0a32010, 0x2d2d212f, 0x1c0c07d9, 0x495db4ed],
  -- I(51,0)
  [0xc40128cd, 0x2f9e460d, 0x30801a42, 0xe99b971c, 0x93e5298c, 0x13285a68, 0xaa6cbd53,
   0xc859be12, 0x4400cf72, 0x10ea0442, 0xeef835d0, 0xaf43aca4, 0xd327e9b9, 0xd9e4f72c,
   0xda5c8878, 0xe5d7ede6, 0xa82a4fbe, 0x42d1a761, 0x7457f1f3, 0xd6e110e7, 0x52b3bcf5,
   0xa8484415, 0x799741a5, 0xd194c979, 0x7f72ffb5, 0x4c8fa0ea],
  -- I(51,2)
  [0x99a0c6e5, 0x339bfffb, 0xe660535e, 0xa5a2df85, 0x202147fa, 0xf14e585f, 0xd566752,
   0x2eaf354c, 0x354f5136, 0xf6daad35, 0x4081351b, 0x278dcd09, 0x9d084106, 0xd6f09d,
   0x6df4aa72, 0x59b0d0ed, 0x59a48419, 0x13af123d, 0xd8c2b73c, 0x94e5790f, 0xeed83f70,
   0x400952df, 0x6699e578, 0x100c141b, 0xb9674086, 0x38a94f15],
  -- I(52,0)
  [0xdb520783, 0x43564e44, 0xb8b7c27c, 0xdef8bb3f, 0xeabd972c, 0x56105447, 0x2d623447,
   0x238b6794, 0xc462f386, 0x4b34995, 0x4b589466, 0xe5ba3c80, 0x1fc76d94, 0x113349f0,
   0x3142ed9b, 0x2fc9263a, 0x4b290b82, 0x2077a4e1, 0xc330914a, 0xf4491e45, 0x69402031,
   0x1fdf04a7, 0x9110e80f, 0xd8b48b47, 0x32316a04, 0xaa159db2],
  -- II(45,0)
  [0xdbef97ea, 0x75e5a0fb, 0x5da0bd4, 0x1cc3865d, 0xcafa0435, 0xa2326fe0, 0x8810ea07,
   0xaf4b593a, 0xe73e0c43, 0xde80c8e6, 0xbc9c583d, 0x2ac58d2e, 0xc439647a, 0xccefecca,
   0x5e11f676, 0xdf2834f, 0x6f555d13, 0x5f2ffb0a, 0x22152035, 0x97eec01b, 0x4d420d0f,
   0x208120c0, 0x1d1e4eac, 0x823406a6, 0x107276e9, 0xb94ec7],
  -- II(46,0)
  [0x7905696b, 0x9a2a0d19, 0x1cfa3ed2, 0x71480069, 0xb37b471e, 0x59eea62f, 0x66c6be98,
   0xcd366b5d, 0x4774baba, 0x6257205b, 0x3ab89b3, 0x8d698f82, 0x40a7403f, 0xa6d9516,
   0x1a239651, 0x96a99030, 0x44c27ae9, 0xe79406b9, 0xf816d313, 0x1466d2da, 0x129fba2e,
   0xb2c2b5a5, 0x6081fd97, 0x10fc27d8, 0xabda1a34, 0xad1e13f6],
  -- II(46,2)
  [0xb41ac107, 0x303627ba, 0x57b0d35e, 0x866ad38b, 0x3c12a9de, 0xa6351356, 0x8fae4d0a,
   0x69c5b1fd, 0x8009c221, 0x62599bdb, 0xed021576, 0xbe998afd, 0x556e9272, 0x24393c9a,
   0x96d88141, 0x1dc97a86, 0xdd61f381, 0x3becaf35, 0xd73dd48f, 0x378f8b9b, 0xb240a627,
   0x3add918d, 0xafaed36c, 0x80e7de60, 0xc7b6bb0d, 0xe7e371aa],
  -- II(47,0)
  [0x896c1d0, 0x846a1c08, 0xc67c793f, 0x3fdc5d33, 0xae77b64, 0xd8811a7d, 0x622a4d3f,
   0xa800a080, 0x59c1de0f, 0x5bd22020, 0x1a44a067, 0xb4fdb084, 0x56412722, 0xc857dd92,
   0xde3ea38a, 0x7f203f8, 0x7eb4ae9e, 0xac74443b, 0xb3893599, 0x2e6daf80, 0x44a8c2e9,
   0xab3fd298, 0xdc490325, 0xd119e7df, 0xb84f3007, 0x44085338],
  -- II(48,0)
  [0xb67828c9, 0x2c80ba2d, 0x6df14894, 0x5bc6d34e, 0x65cf9bbe, 0x4a32efe1, 0xd81b51b6,
   0x6a28c00c, 0xe1796c11, 0x66d24f00, 0xecfcd717, 0x142cd129, 0x9e0523e1, 0xbb3947a4,
   0x335b5e84, 0x58170cc6, 0xe194a9a4, 0x7eac5303, 0x50d1a1fd, 0xf0e78e47, 0x44f29e6c,
   0x4fea5d79, 0xfd29e205, 0x67daa98f, 0xb2dcce3a, 0x7cfdc7f7],
  -- II(49,0)
  [0x759e17f0, 0xc1f8a01d, 0x5462650, 0xecf88733, 0x7953e977, 0xe825d6b4, 0x901f197b,
   0x254fa67b, 0x503e861, 0x93d60bea, 0x645909fe, 0x58a3b7af, 0xa565481e, 0x93aa5f3f,
   0xf2966f3c, 0x4ea80b94, 0xbaceaffa, 0x3ea1c276, 0xd6c8e686, 0x9037014e, 0xacc31311,
   0xbfb6fd13, 0x20ca2211, 0xbb3c66f8, 0x36f5364c, 0xcc02036],
  -- II(49,2)
  [0xcd2574e4, 0x6be3aced, 0x80db5b4a, 0x88ece24f, 0x3a3685b4, 0xc4474a2d, 0xff83c362,
   0x1c763e3f, 0x3b23ee2d, 0x57410b99, 0xdcfff448, 0xfab764e9, 0x674e7251, 0x66700565,
   0xb4a76d15, 0xf88f68be, 0x5ad4c4f5, 0x5ba90926, 0x79b02234, 0xbb670a0d, 0xa2fff02a,
   0xb71a5e3a, 0xb15c0756, 0x9d4970cf, 0x756e7e97, 0xee9d24fb],
  -- II(50,0)
  [0x824e9a8a, 0x6bae7b50, 0xab3d6c24, 0xd93c63e0, 0x506c7850, 0x9f9eb46e, 0x15df041b,
   0xedeeabf1, 0x82165d36, 0xd8be7362, 0x341957f0, 0xd6e1a3c6, 0x210d4bfa, 0x77880f0,
   0x8ac07646, 0x1ecfc9c0, 0xf39073cb, 0xff64bd9, 0x15395f38, 0xcfc15eb9, 0x89243876,
   0x3748d4a, 0xb69ced1e, 0x86ebb5c2, 0x25116c24, 0x615e3ebe],
  -- II(50,2)
  [0xca5edaf1, 0xeb6045c2, 0x26c357af, 0x82a829d8, 0xa7ce1027, 0x3e492614, 0x933a4c25,
   0x3c79673f, 0x77bd91ec, 0xdc26363c, 0xc804773c, 0x20470a28, 0x9b2e6284, 0x695ad8e4,
   0xe414c0a5, 0x67bc8dfd, 0x3c5c0b6a, 0x17fff2a2, 0x2c6f13ab, 0xec8aa93f, 0xc2a2b74a,
   0x1cc64b16, 0xd2daf6e2, 0x346c8a05, 0xea38d567, 0x664af4fe],
  -- II(51,0)
  [0xb0aa8042, 0xaab1c435, 0x1d7e7f77, 0xe5a4c945, 0x69a23ba, 0xf4e9fb4, 0xfa8ba15,
   0xdd03ade, 0xd64e7b59, 0xf1b8e078, 0x210d65e9, 0xdc5de149, 0xa7938463, 0x2946b360,
   0xad13a81b, 0xbcedc401, 0xbd60ef8a, 0x35dd6983, 0xe23e0e6e, 0x42cd0d66, 0xa4d7949f,
   0x45745b15, 0x2671acee, 0xc493dd98, 0x687410d6, 0x242bbaaf],
  -- II(51,2)
  [0x272f9b02, 0x43c194ed, 0xe062a693, 0xfbd8af8f, 0xa146c40a, 0x34e24cb0, 0xa1eb5b41,
   0x17ebfba4, 0x7f090112, 0x56f4ee4b, 0x857b0082, 0x8f526e4d, 0xaa787e5f, 0xd7fd1def,
   0x8e8a8ca0, 0x9c72ba9c, 0xc6765ee2, 0xcc2a0775, 0x3ee2f281, 0xc702ccb0, 0x233b5255,
   0xcabc7d3f, 0x8796f368, 0x4f42039c, 0xfe30c77b, 0x33ef3792],
  -- II(52,0)
  [0xc6423396, 0x7d4c11d5, 0x4aadf7aa, 0x65cb11d5, 0x9afbe026, 0xcc8f4a5c, 0xa92a3d78,
   0x99161983, 0xfe8198e9, 0x15259db1, 0x45ec09b5, 0x97d29a11, 0x87769792, 0xe1b8c171,
   0xbd2b1a03, 0x33b44a37, 0xcd9d204, 0x8e345834, 0x3bf46809, 0x8a8df31d, 0xaab08081,
   0x8236ae4f, 0x7ef287c0, 0x2aee692b, 0x6d02f6d2, 0xab1c3bed],
  -- II(53,0)
  [0x7bec8ce0, 0x9b97dcf7, 0xffae0efe, 0x855e9084, 0xfe98459b, 0x1967ffd7, 0xfa811ea2,
   0x85105af7, 0x5f07a5, 0xd47be91c, 0xcfeeb2e4, 0x91ce22b2, 0x4b9fb83a, 0xe1f9fb30,
   0xbbbdf8d0, 0xd76523e6, 0xb7bb01f0, 0xe07c6b1c, 0x492cba4e, 0xcbddafe8, 0x1381e14e,
   0x454004d1, 0x679ccd32, 0xf976fb9e, 0x8e3e7a96, 0xf98d19e1],
  -- II(54,0)
  [0xcfae189e, 0x622145a1, 0x89b241c8, 0x62caf6c2, 0x6d89cc4d, 0x45d5111f, 0xcbd81548,
   0xc1db1bcc, 0xc1843e60, 0x2b895122, 0x1717d506, 0xb837a3d3, 0x8c7147be, 0xfc8f0ce7,
   0x255fc3e8, 0xbe78ba50, 0xfedd8a41, 0x34445338, 0xf99ef84f, 0xec194829, 0x22d643a3,
   0xb235d6a1, 0x68287f7b, 0x31ea67c4, 0x1a6dc15a, 0xd6e43fac],
  -- II(55,0)
  [0x9985fe50, 0xf9ccc67, 0x81251244, 0x72b0dbc7, 0xd7104879, 0x6778da31, 0x5e9e0e80,
   0x31bd4a7a, 0x52d4d4a5, 0x8578d594, 0xa178cb27, 0x26e05bef, 0x6fe5702a, 0xd7893e2b,
   0x44ee762b, 0xac2d3c2e, 0x359cb56, 0xc6587501, 0x2c7eff67, 0xea30d0f1, 0xad29b405,
   0x9b5d11d6, 0x4e06bae6, 0xcbdce0e3, 0x11b87b01, 0xa4253c12],
  -- II(56,0)
  [0x3e504797, 0xd8100375, 0xc8fda451, 0x343df274, 0x48f4b9c0, 0xd79b2978, 0x763ca900,
   0xd6b1ed8d, 0x3e658bac, 0xc0d03023, 0x49a26c61, 0x10f5b8a8, 0x466ae67b, 0x50232f0d,
   0x735c6052, 0x9a2b7536, 0xa028a16f, 0xcc93b304, 0x8b832e79, 0xe79f93c8, 0xa5b83435,
   0x4f5477fa, 0xa464e7ac, 0xc4bd5ffa, 0x35172b88, 0x1d4c70c5]]

/-- Five words. -/
def regsL (l : List Nat) : Regs := ⟨.ofNat 32 (l.getD 0 0), .ofNat 32 (l.getD 1 0), .ofNat 32 (l.getD 2 0), .ofNat 32 (l.getD 3 0),
  .ofNat 32 (l.getD 4 0)⟩

/-- Sixteen words. -/
def blockL (l : List Nat) : Block := fun i => .ofNat 32 (l.getD i 0)

def sampleOk (l s : List Nat) : Bool :=
  followsB l (regsL s) (blockL (s.drop 5)) (regsL (s.drop 21)) (xorBlock (blockL (s.drop 5)) (localDiff (dwFn l)))

def samplesOk : List (List Nat) → List (List Nat) → Bool
  | l :: ls, s :: ss => sampleOk l s && samplesOk ls ss
  | [], [] => true
  | _, _ => false

theorem samples_ok : samplesOk dwTable samples = true := by decide +kernel

theorem samplesOk_get : ∀ (k : Nat) (ls ss : List (List Nat)) (l : List Nat), samplesOk ls ss = true → ls[k]? = some l →
    sampleOk l (ss.getD k []) = true
  | 0, l' :: ls, s :: ss, l, h, hl => by
    rw [samplesOk, Bool.and_eq_true] at h
    obtain rfl : l' = l := by simpa using hl
    exact h.1
  | k + 1, _ :: ls, _ :: ss, l, h, hl => by
    rw [samplesOk, Bool.and_eq_true] at h
    exact samplesOk_get k ls ss l h.2 (by simpa using hl)
  | _, [], _, _, _, hl => by simp at hl
  | _, _ :: _, [], _, h, _ => by simp [samplesOk] at h

/-- Every vector is followed by some computations. -/
theorem sample {k : Nat} {dv : DV} (hk : dvList[k]? = some dv) : ∃ H M H' M', Follows dv H M H' M' := by
  obtain ⟨l, h1, _⟩ := vector hk
  have e : dwTable.getD k [] = l := by
    rw [List.getD_eq_getElem?_getD, h1]; rfl
  have h := samplesOk_get k dwTable samples l samples_ok h1
  rw [← e] at h
  exact ⟨_, _, _, _, follows_of_B hk _ _ _ _ h⟩

end Verif.Path
