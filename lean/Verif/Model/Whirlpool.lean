import Verif.Model.HashTask
/-
  Model of src/kryptos_whirlpool.c.
-/
namespace Kryptos.Whirlpool
open Hash

/-- `kryptos_whirlpool_C0` (src/kryptos_whirlpool.c:34-99). -/
def C0 : List W64 := [
  0x18186018c07830d8#64, 0x23238c2305af4626#64, 0xc6c63fc67ef991b8#64, 0xe8e887e8136fcdfb#64,
  0x878726874ca113cb#64, 0xb8b8dab8a9626d11#64, 0x0101040108050209#64, 0x4f4f214f426e9e0d#64,
  0x3636d836adee6c9b#64, 0xa6a6a2a6590451ff#64, 0xd2d26fd2debdb90c#64, 0xf5f5f3f5fb06f70e#64,
  0x7979f979ef80f296#64, 0x6f6fa16f5fcede30#64, 0x91917e91fcef3f6d#64, 0x52525552aa07a4f8#64,
  0x60609d6027fdc047#64, 0xbcbccabc89766535#64, 0x9b9b569baccd2b37#64, 0x8e8e028e048c018a#64,
  0xa3a3b6a371155bd2#64, 0x0c0c300c603c186c#64, 0x7b7bf17bff8af684#64, 0x3535d435b5e16a80#64,
  0x1d1d741de8693af5#64, 0xe0e0a7e05347ddb3#64, 0xd7d77bd7f6acb321#64, 0xc2c22fc25eed999c#64,
  0x2e2eb82e6d965c43#64, 0x4b4b314b627a9629#64, 0xfefedffea321e15d#64, 0x575741578216aed5#64,
  0x15155415a8412abd#64, 0x7777c1779fb6eee8#64, 0x3737dc37a5eb6e92#64, 0xe5e5b3e57b56d79e#64,
  0x9f9f469f8cd92313#64, 0xf0f0e7f0d317fd23#64, 0x4a4a354a6a7f9420#64, 0xdada4fda9e95a944#64,
  0x58587d58fa25b0a2#64, 0xc9c903c906ca8fcf#64, 0x2929a429558d527c#64, 0x0a0a280a5022145a#64,
  0xb1b1feb1e14f7f50#64, 0xa0a0baa0691a5dc9#64, 0x6b6bb16b7fdad614#64, 0x85852e855cab17d9#64,
  0xbdbdcebd8173673c#64, 0x5d5d695dd234ba8f#64, 0x1010401080502090#64, 0xf4f4f7f4f303f507#64,
  0xcbcb0bcb16c08bdd#64, 0x3e3ef83eedc67cd3#64, 0x0505140528110a2d#64, 0x676781671fe6ce78#64,
  0xe4e4b7e47353d597#64, 0x27279c2725bb4e02#64, 0x4141194132588273#64, 0x8b8b168b2c9d0ba7#64,
  0xa7a7a6a7510153f6#64, 0x7d7de97dcf94fab2#64, 0x95956e95dcfb3749#64, 0xd8d847d88e9fad56#64,
  0xfbfbcbfb8b30eb70#64, 0xeeee9fee2371c1cd#64, 0x7c7ced7cc791f8bb#64, 0x6666856617e3cc71#64,
  0xdddd53dda68ea77b#64, 0x17175c17b84b2eaf#64, 0x4747014702468e45#64, 0x9e9e429e84dc211a#64,
  0xcaca0fca1ec589d4#64, 0x2d2db42d75995a58#64, 0xbfbfc6bf9179632e#64, 0x07071c07381b0e3f#64,
  0xadad8ead012347ac#64, 0x5a5a755aea2fb4b0#64, 0x838336836cb51bef#64, 0x3333cc3385ff66b6#64,
  0x636391633ff2c65c#64, 0x02020802100a0412#64, 0xaaaa92aa39384993#64, 0x7171d971afa8e2de#64,
  0xc8c807c80ecf8dc6#64, 0x19196419c87d32d1#64, 0x494939497270923b#64, 0xd9d943d9869aaf5f#64,
  0xf2f2eff2c31df931#64, 0xe3e3abe34b48dba8#64, 0x5b5b715be22ab6b9#64, 0x88881a8834920dbc#64,
  0x9a9a529aa4c8293e#64, 0x262698262dbe4c0b#64, 0x3232c8328dfa64bf#64, 0xb0b0fab0e94a7d59#64,
  0xe9e983e91b6acff2#64, 0x0f0f3c0f78331e77#64, 0xd5d573d5e6a6b733#64, 0x80803a8074ba1df4#64,
  0xbebec2be997c6127#64, 0xcdcd13cd26de87eb#64, 0x3434d034bde46889#64, 0x48483d487a759032#64,
  0xffffdbffab24e354#64, 0x7a7af57af78ff48d#64, 0x90907a90f4ea3d64#64, 0x5f5f615fc23ebe9d#64,
  0x202080201da0403d#64, 0x6868bd6867d5d00f#64, 0x1a1a681ad07234ca#64, 0xaeae82ae192c41b7#64,
  0xb4b4eab4c95e757d#64, 0x54544d549a19a8ce#64, 0x93937693ece53b7f#64, 0x222288220daa442f#64,
  0x64648d6407e9c863#64, 0xf1f1e3f1db12ff2a#64, 0x7373d173bfa2e6cc#64, 0x12124812905a2482#64,
  0x40401d403a5d807a#64, 0x0808200840281048#64, 0xc3c32bc356e89b95#64, 0xecec97ec337bc5df#64,
  0xdbdb4bdb9690ab4d#64, 0xa1a1bea1611f5fc0#64, 0x8d8d0e8d1c830791#64, 0x3d3df43df5c97ac8#64,
  0x97976697ccf1335b#64, 0x0000000000000000#64, 0xcfcf1bcf36d483f9#64, 0x2b2bac2b4587566e#64,
  0x7676c57697b3ece1#64, 0x8282328264b019e6#64, 0xd6d67fd6fea9b128#64, 0x1b1b6c1bd87736c3#64,
  0xb5b5eeb5c15b7774#64, 0xafaf86af112943be#64, 0x6a6ab56a77dfd41d#64, 0x50505d50ba0da0ea#64,
  0x45450945124c8a57#64, 0xf3f3ebf3cb18fb38#64, 0x3030c0309df060ad#64, 0xefef9bef2b74c3c4#64,
  0x3f3ffc3fe5c37eda#64, 0x55554955921caac7#64, 0xa2a2b2a2791059db#64, 0xeaea8fea0365c9e9#64,
  0x656589650fecca6a#64, 0xbabad2bab9686903#64, 0x2f2fbc2f65935e4a#64, 0xc0c027c04ee79d8e#64,
  0xdede5fdebe81a160#64, 0x1c1c701ce06c38fc#64, 0xfdfdd3fdbb2ee746#64, 0x4d4d294d52649a1f#64,
  0x92927292e4e03976#64, 0x7575c9758fbceafa#64, 0x06061806301e0c36#64, 0x8a8a128a249809ae#64,
  0xb2b2f2b2f940794b#64, 0xe6e6bfe66359d185#64, 0x0e0e380e70361c7e#64, 0x1f1f7c1ff8633ee7#64,
  0x6262956237f7c455#64, 0xd4d477d4eea3b53a#64, 0xa8a89aa829324d81#64, 0x96966296c4f43152#64,
  0xf9f9c3f99b3aef62#64, 0xc5c533c566f697a3#64, 0x2525942535b14a10#64, 0x59597959f220b2ab#64,
  0x84842a8454ae15d0#64, 0x7272d572b7a7e4c5#64, 0x3939e439d5dd72ec#64, 0x4c4c2d4c5a619816#64,
  0x5e5e655eca3bbc94#64, 0x7878fd78e785f09f#64, 0x3838e038ddd870e5#64, 0x8c8c0a8c14860598#64,
  0xd1d163d1c6b2bf17#64, 0xa5a5aea5410b57e4#64, 0xe2e2afe2434dd9a1#64, 0x616199612ff8c24e#64,
  0xb3b3f6b3f1457b42#64, 0x2121842115a54234#64, 0x9c9c4a9c94d62508#64, 0x1e1e781ef0663cee#64,
  0x4343114322528661#64, 0xc7c73bc776fc93b1#64, 0xfcfcd7fcb32be54f#64, 0x0404100420140824#64,
  0x51515951b208a2e3#64, 0x99995e99bcc72f25#64, 0x6d6da96d4fc4da22#64, 0x0d0d340d68391a65#64,
  0xfafacffa8335e979#64, 0xdfdf5bdfb684a369#64, 0x7e7ee57ed79bfca9#64, 0x242490243db44819#64,
  0x3b3bec3bc5d776fe#64, 0xabab96ab313d4b9a#64, 0xcece1fce3ed181f0#64, 0x1111441188552299#64,
  0x8f8f068f0c890383#64, 0x4e4e254e4a6b9c04#64, 0xb7b7e6b7d1517366#64, 0xebeb8beb0b60cbe0#64,
  0x3c3cf03cfdcc78c1#64, 0x81813e817cbf1ffd#64, 0x94946a94d4fe3540#64, 0xf7f7fbf7eb0cf31c#64,
  0xb9b9deb9a1676f18#64, 0x13134c13985f268b#64, 0x2c2cb02c7d9c5851#64, 0xd3d36bd3d6b8bb05#64,
  0xe7e7bbe76b5cd38c#64, 0x6e6ea56e57cbdc39#64, 0xc4c437c46ef395aa#64, 0x03030c03180f061b#64,
  0x565645568a13acdc#64, 0x44440d441a49885e#64, 0x7f7fe17fdf9efea0#64, 0xa9a99ea921374f88#64,
  0x2a2aa82a4d825467#64, 0xbbbbd6bbb16d6b0a#64, 0xc1c123c146e29f87#64, 0x53535153a202a6f1#64,
  0xdcdc57dcae8ba572#64, 0x0b0b2c0b58271653#64, 0x9d9d4e9d9cd32701#64, 0x6c6cad6c47c1d82b#64,
  0x3131c43195f562a4#64, 0x7474cd7487b9e8f3#64, 0xf6f6fff6e309f115#64, 0x464605460a438c4c#64,
  0xacac8aac092645a5#64, 0x89891e893c970fb5#64, 0x14145014a04428b4#64, 0xe1e1a3e15b42dfba#64,
  0x16165816b04e2ca6#64, 0x3a3ae83acdd274f7#64, 0x6969b9696fd0d206#64, 0x09092409482d1241#64,
  0x7070dd70a7ade0d7#64, 0xb6b6e2b6d954716f#64, 0xd0d067d0ceb7bd1e#64, 0xeded93ed3b7ec7d6#64,
  0xcccc17cc2edb85e2#64, 0x424215422a578468#64, 0x98985a98b4c22d2c#64, 0xa4a4aaa4490e55ed#64,
  0x2828a0285d885075#64, 0x5c5c6d5cda31b886#64, 0xf8f8c7f8933fed6b#64, 0x8686228644a411c2#64]

/-- `kryptos_whirlpool_C1` (src/kryptos_whirlpool.c:101-166). -/
def C1 : List W64 := [
  0xd818186018c07830#64, 0x2623238c2305af46#64, 0xb8c6c63fc67ef991#64, 0xfbe8e887e8136fcd#64,
  0xcb878726874ca113#64, 0x11b8b8dab8a9626d#64, 0x0901010401080502#64, 0x0d4f4f214f426e9e#64,
  0x9b3636d836adee6c#64, 0xffa6a6a2a6590451#64, 0x0cd2d26fd2debdb9#64, 0x0ef5f5f3f5fb06f7#64,
  0x967979f979ef80f2#64, 0x306f6fa16f5fcede#64, 0x6d91917e91fcef3f#64, 0xf852525552aa07a4#64,
  0x4760609d6027fdc0#64, 0x35bcbccabc897665#64, 0x379b9b569baccd2b#64, 0x8a8e8e028e048c01#64,
  0xd2a3a3b6a371155b#64, 0x6c0c0c300c603c18#64, 0x847b7bf17bff8af6#64, 0x803535d435b5e16a#64,
  0xf51d1d741de8693a#64, 0xb3e0e0a7e05347dd#64, 0x21d7d77bd7f6acb3#64, 0x9cc2c22fc25eed99#64,
  0x432e2eb82e6d965c#64, 0x294b4b314b627a96#64, 0x5dfefedffea321e1#64, 0xd5575741578216ae#64,
  0xbd15155415a8412a#64, 0xe87777c1779fb6ee#64, 0x923737dc37a5eb6e#64, 0x9ee5e5b3e57b56d7#64,
  0x139f9f469f8cd923#64, 0x23f0f0e7f0d317fd#64, 0x204a4a354a6a7f94#64, 0x44dada4fda9e95a9#64,
  0xa258587d58fa25b0#64, 0xcfc9c903c906ca8f#64, 0x7c2929a429558d52#64, 0x5a0a0a280a502214#64,
  0x50b1b1feb1e14f7f#64, 0xc9a0a0baa0691a5d#64, 0x146b6bb16b7fdad6#64, 0xd985852e855cab17#64,
  0x3cbdbdcebd817367#64, 0x8f5d5d695dd234ba#64, 0x9010104010805020#64, 0x07f4f4f7f4f303f5#64,
  0xddcbcb0bcb16c08b#64, 0xd33e3ef83eedc67c#64, 0x2d0505140528110a#64, 0x78676781671fe6ce#64,
  0x97e4e4b7e47353d5#64, 0x0227279c2725bb4e#64, 0x7341411941325882#64, 0xa78b8b168b2c9d0b#64,
  0xf6a7a7a6a7510153#64, 0xb27d7de97dcf94fa#64, 0x4995956e95dcfb37#64, 0x56d8d847d88e9fad#64,
  0x70fbfbcbfb8b30eb#64, 0xcdeeee9fee2371c1#64, 0xbb7c7ced7cc791f8#64, 0x716666856617e3cc#64,
  0x7bdddd53dda68ea7#64, 0xaf17175c17b84b2e#64, 0x454747014702468e#64, 0x1a9e9e429e84dc21#64,
  0xd4caca0fca1ec589#64, 0x582d2db42d75995a#64, 0x2ebfbfc6bf917963#64, 0x3f07071c07381b0e#64,
  0xacadad8ead012347#64, 0xb05a5a755aea2fb4#64, 0xef838336836cb51b#64, 0xb63333cc3385ff66#64,
  0x5c636391633ff2c6#64, 0x1202020802100a04#64, 0x93aaaa92aa393849#64, 0xde7171d971afa8e2#64,
  0xc6c8c807c80ecf8d#64, 0xd119196419c87d32#64, 0x3b49493949727092#64, 0x5fd9d943d9869aaf#64,
  0x31f2f2eff2c31df9#64, 0xa8e3e3abe34b48db#64, 0xb95b5b715be22ab6#64, 0xbc88881a8834920d#64,
  0x3e9a9a529aa4c829#64, 0x0b262698262dbe4c#64, 0xbf3232c8328dfa64#64, 0x59b0b0fab0e94a7d#64,
  0xf2e9e983e91b6acf#64, 0x770f0f3c0f78331e#64, 0x33d5d573d5e6a6b7#64, 0xf480803a8074ba1d#64,
  0x27bebec2be997c61#64, 0xebcdcd13cd26de87#64, 0x893434d034bde468#64, 0x3248483d487a7590#64,
  0x54ffffdbffab24e3#64, 0x8d7a7af57af78ff4#64, 0x6490907a90f4ea3d#64, 0x9d5f5f615fc23ebe#64,
  0x3d202080201da040#64, 0x0f6868bd6867d5d0#64, 0xca1a1a681ad07234#64, 0xb7aeae82ae192c41#64,
  0x7db4b4eab4c95e75#64, 0xce54544d549a19a8#64, 0x7f93937693ece53b#64, 0x2f222288220daa44#64,
  0x6364648d6407e9c8#64, 0x2af1f1e3f1db12ff#64, 0xcc7373d173bfa2e6#64, 0x8212124812905a24#64,
  0x7a40401d403a5d80#64, 0x4808082008402810#64, 0x95c3c32bc356e89b#64, 0xdfecec97ec337bc5#64,
  0x4ddbdb4bdb9690ab#64, 0xc0a1a1bea1611f5f#64, 0x918d8d0e8d1c8307#64, 0xc83d3df43df5c97a#64,
  0x5b97976697ccf133#64, 0x0000000000000000#64, 0xf9cfcf1bcf36d483#64, 0x6e2b2bac2b458756#64,
  0xe17676c57697b3ec#64, 0xe68282328264b019#64, 0x28d6d67fd6fea9b1#64, 0xc31b1b6c1bd87736#64,
  0x74b5b5eeb5c15b77#64, 0xbeafaf86af112943#64, 0x1d6a6ab56a77dfd4#64, 0xea50505d50ba0da0#64,
  0x5745450945124c8a#64, 0x38f3f3ebf3cb18fb#64, 0xad3030c0309df060#64, 0xc4efef9bef2b74c3#64,
  0xda3f3ffc3fe5c37e#64, 0xc755554955921caa#64, 0xdba2a2b2a2791059#64, 0xe9eaea8fea0365c9#64,
  0x6a656589650fecca#64, 0x03babad2bab96869#64, 0x4a2f2fbc2f65935e#64, 0x8ec0c027c04ee79d#64,
  0x60dede5fdebe81a1#64, 0xfc1c1c701ce06c38#64, 0x46fdfdd3fdbb2ee7#64, 0x1f4d4d294d52649a#64,
  0x7692927292e4e039#64, 0xfa7575c9758fbcea#64, 0x3606061806301e0c#64, 0xae8a8a128a249809#64,
  0x4bb2b2f2b2f94079#64, 0x85e6e6bfe66359d1#64, 0x7e0e0e380e70361c#64, 0xe71f1f7c1ff8633e#64,
  0x556262956237f7c4#64, 0x3ad4d477d4eea3b5#64, 0x81a8a89aa829324d#64, 0x5296966296c4f431#64,
  0x62f9f9c3f99b3aef#64, 0xa3c5c533c566f697#64, 0x102525942535b14a#64, 0xab59597959f220b2#64,
  0xd084842a8454ae15#64, 0xc57272d572b7a7e4#64, 0xec3939e439d5dd72#64, 0x164c4c2d4c5a6198#64,
  0x945e5e655eca3bbc#64, 0x9f7878fd78e785f0#64, 0xe53838e038ddd870#64, 0x988c8c0a8c148605#64,
  0x17d1d163d1c6b2bf#64, 0xe4a5a5aea5410b57#64, 0xa1e2e2afe2434dd9#64, 0x4e616199612ff8c2#64,
  0x42b3b3f6b3f1457b#64, 0x342121842115a542#64, 0x089c9c4a9c94d625#64, 0xee1e1e781ef0663c#64,
  0x6143431143225286#64, 0xb1c7c73bc776fc93#64, 0x4ffcfcd7fcb32be5#64, 0x2404041004201408#64,
  0xe351515951b208a2#64, 0x2599995e99bcc72f#64, 0x226d6da96d4fc4da#64, 0x650d0d340d68391a#64,
  0x79fafacffa8335e9#64, 0x69dfdf5bdfb684a3#64, 0xa97e7ee57ed79bfc#64, 0x19242490243db448#64,
  0xfe3b3bec3bc5d776#64, 0x9aabab96ab313d4b#64, 0xf0cece1fce3ed181#64, 0x9911114411885522#64,
  0x838f8f068f0c8903#64, 0x044e4e254e4a6b9c#64, 0x66b7b7e6b7d15173#64, 0xe0ebeb8beb0b60cb#64,
  0xc13c3cf03cfdcc78#64, 0xfd81813e817cbf1f#64, 0x4094946a94d4fe35#64, 0x1cf7f7fbf7eb0cf3#64,
  0x18b9b9deb9a1676f#64, 0x8b13134c13985f26#64, 0x512c2cb02c7d9c58#64, 0x05d3d36bd3d6b8bb#64,
  0x8ce7e7bbe76b5cd3#64, 0x396e6ea56e57cbdc#64, 0xaac4c437c46ef395#64, 0x1b03030c03180f06#64,
  0xdc565645568a13ac#64, 0x5e44440d441a4988#64, 0xa07f7fe17fdf9efe#64, 0x88a9a99ea921374f#64,
  0x672a2aa82a4d8254#64, 0x0abbbbd6bbb16d6b#64, 0x87c1c123c146e29f#64, 0xf153535153a202a6#64,
  0x72dcdc57dcae8ba5#64, 0x530b0b2c0b582716#64, 0x019d9d4e9d9cd327#64, 0x2b6c6cad6c47c1d8#64,
  0xa43131c43195f562#64, 0xf37474cd7487b9e8#64, 0x15f6f6fff6e309f1#64, 0x4c464605460a438c#64,
  0xa5acac8aac092645#64, 0xb589891e893c970f#64, 0xb414145014a04428#64, 0xbae1e1a3e15b42df#64,
  0xa616165816b04e2c#64, 0xf73a3ae83acdd274#64, 0x066969b9696fd0d2#64, 0x4109092409482d12#64,
  0xd77070dd70a7ade0#64, 0x6fb6b6e2b6d95471#64, 0x1ed0d067d0ceb7bd#64, 0xd6eded93ed3b7ec7#64,
  0xe2cccc17cc2edb85#64, 0x68424215422a5784#64, 0x2c98985a98b4c22d#64, 0xeda4a4aaa4490e55#64,
  0x752828a0285d8850#64, 0x865c5c6d5cda31b8#64, 0x6bf8f8c7f8933fed#64, 0xc28686228644a411#64]

/-- `kryptos_whirlpool_C2` (src/kryptos_whirlpool.c:168-233). -/
def C2 : List W64 := [
  0x30d818186018c078#64, 0x462623238c2305af#64, 0x91b8c6c63fc67ef9#64, 0xcdfbe8e887e8136f#64,
  0x13cb878726874ca1#64, 0x6d11b8b8dab8a962#64, 0x0209010104010805#64, 0x9e0d4f4f214f426e#64,
  0x6c9b3636d836adee#64, 0x51ffa6a6a2a65904#64, 0xb90cd2d26fd2debd#64, 0xf70ef5f5f3f5fb06#64,
  0xf2967979f979ef80#64, 0xde306f6fa16f5fce#64, 0x3f6d91917e91fcef#64, 0xa4f852525552aa07#64,
  0xc04760609d6027fd#64, 0x6535bcbccabc8976#64, 0x2b379b9b569baccd#64, 0x018a8e8e028e048c#64,
  0x5bd2a3a3b6a37115#64, 0x186c0c0c300c603c#64, 0xf6847b7bf17bff8a#64, 0x6a803535d435b5e1#64,
  0x3af51d1d741de869#64, 0xddb3e0e0a7e05347#64, 0xb321d7d77bd7f6ac#64, 0x999cc2c22fc25eed#64,
  0x5c432e2eb82e6d96#64, 0x96294b4b314b627a#64, 0xe15dfefedffea321#64, 0xaed5575741578216#64,
  0x2abd15155415a841#64, 0xeee87777c1779fb6#64, 0x6e923737dc37a5eb#64, 0xd79ee5e5b3e57b56#64,
  0x23139f9f469f8cd9#64, 0xfd23f0f0e7f0d317#64, 0x94204a4a354a6a7f#64, 0xa944dada4fda9e95#64,
  0xb0a258587d58fa25#64, 0x8fcfc9c903c906ca#64, 0x527c2929a429558d#64, 0x145a0a0a280a5022#64,
  0x7f50b1b1feb1e14f#64, 0x5dc9a0a0baa0691a#64, 0xd6146b6bb16b7fda#64, 0x17d985852e855cab#64,
  0x673cbdbdcebd8173#64, 0xba8f5d5d695dd234#64, 0x2090101040108050#64, 0xf507f4f4f7f4f303#64,
  0x8bddcbcb0bcb16c0#64, 0x7cd33e3ef83eedc6#64, 0x0a2d050514052811#64, 0xce78676781671fe6#64,
  0xd597e4e4b7e47353#64, 0x4e0227279c2725bb#64, 0x8273414119413258#64, 0x0ba78b8b168b2c9d#64,
  0x53f6a7a7a6a75101#64, 0xfab27d7de97dcf94#64, 0x374995956e95dcfb#64, 0xad56d8d847d88e9f#64,
  0xeb70fbfbcbfb8b30#64, 0xc1cdeeee9fee2371#64, 0xf8bb7c7ced7cc791#64, 0xcc716666856617e3#64,
  0xa77bdddd53dda68e#64, 0x2eaf17175c17b84b#64, 0x8e45474701470246#64, 0x211a9e9e429e84dc#64,
  0x89d4caca0fca1ec5#64, 0x5a582d2db42d7599#64, 0x632ebfbfc6bf9179#64, 0x0e3f07071c07381b#64,
  0x47acadad8ead0123#64, 0xb4b05a5a755aea2f#64, 0x1bef838336836cb5#64, 0x66b63333cc3385ff#64,
  0xc65c636391633ff2#64, 0x041202020802100a#64, 0x4993aaaa92aa3938#64, 0xe2de7171d971afa8#64,
  0x8dc6c8c807c80ecf#64, 0x32d119196419c87d#64, 0x923b494939497270#64, 0xaf5fd9d943d9869a#64,
  0xf931f2f2eff2c31d#64, 0xdba8e3e3abe34b48#64, 0xb6b95b5b715be22a#64, 0x0dbc88881a883492#64,
  0x293e9a9a529aa4c8#64, 0x4c0b262698262dbe#64, 0x64bf3232c8328dfa#64, 0x7d59b0b0fab0e94a#64,
  0xcff2e9e983e91b6a#64, 0x1e770f0f3c0f7833#64, 0xb733d5d573d5e6a6#64, 0x1df480803a8074ba#64,
  0x6127bebec2be997c#64, 0x87ebcdcd13cd26de#64, 0x68893434d034bde4#64, 0x903248483d487a75#64,
  0xe354ffffdbffab24#64, 0xf48d7a7af57af78f#64, 0x3d6490907a90f4ea#64, 0xbe9d5f5f615fc23e#64,
  0x403d202080201da0#64, 0xd00f6868bd6867d5#64, 0x34ca1a1a681ad072#64, 0x41b7aeae82ae192c#64,
  0x757db4b4eab4c95e#64, 0xa8ce54544d549a19#64, 0x3b7f93937693ece5#64, 0x442f222288220daa#64,
  0xc86364648d6407e9#64, 0xff2af1f1e3f1db12#64, 0xe6cc7373d173bfa2#64, 0x248212124812905a#64,
  0x807a40401d403a5d#64, 0x1048080820084028#64, 0x9b95c3c32bc356e8#64, 0xc5dfecec97ec337b#64,
  0xab4ddbdb4bdb9690#64, 0x5fc0a1a1bea1611f#64, 0x07918d8d0e8d1c83#64, 0x7ac83d3df43df5c9#64,
  0x335b97976697ccf1#64, 0x0000000000000000#64, 0x83f9cfcf1bcf36d4#64, 0x566e2b2bac2b4587#64,
  0xece17676c57697b3#64, 0x19e68282328264b0#64, 0xb128d6d67fd6fea9#64, 0x36c31b1b6c1bd877#64,
  0x7774b5b5eeb5c15b#64, 0x43beafaf86af1129#64, 0xd41d6a6ab56a77df#64, 0xa0ea50505d50ba0d#64,
  0x8a5745450945124c#64, 0xfb38f3f3ebf3cb18#64, 0x60ad3030c0309df0#64, 0xc3c4efef9bef2b74#64,
  0x7eda3f3ffc3fe5c3#64, 0xaac755554955921c#64, 0x59dba2a2b2a27910#64, 0xc9e9eaea8fea0365#64,
  0xca6a656589650fec#64, 0x6903babad2bab968#64, 0x5e4a2f2fbc2f6593#64, 0x9d8ec0c027c04ee7#64,
  0xa160dede5fdebe81#64, 0x38fc1c1c701ce06c#64, 0xe746fdfdd3fdbb2e#64, 0x9a1f4d4d294d5264#64,
  0x397692927292e4e0#64, 0xeafa7575c9758fbc#64, 0x0c3606061806301e#64, 0x09ae8a8a128a2498#64,
  0x794bb2b2f2b2f940#64, 0xd185e6e6bfe66359#64, 0x1c7e0e0e380e7036#64, 0x3ee71f1f7c1ff863#64,
  0xc4556262956237f7#64, 0xb53ad4d477d4eea3#64, 0x4d81a8a89aa82932#64, 0x315296966296c4f4#64,
  0xef62f9f9c3f99b3a#64, 0x97a3c5c533c566f6#64, 0x4a102525942535b1#64, 0xb2ab59597959f220#64,
  0x15d084842a8454ae#64, 0xe4c57272d572b7a7#64, 0x72ec3939e439d5dd#64, 0x98164c4c2d4c5a61#64,
  0xbc945e5e655eca3b#64, 0xf09f7878fd78e785#64, 0x70e53838e038ddd8#64, 0x05988c8c0a8c1486#64,
  0xbf17d1d163d1c6b2#64, 0x57e4a5a5aea5410b#64, 0xd9a1e2e2afe2434d#64, 0xc24e616199612ff8#64,
  0x7b42b3b3f6b3f145#64, 0x42342121842115a5#64, 0x25089c9c4a9c94d6#64, 0x3cee1e1e781ef066#64,
  0x8661434311432252#64, 0x93b1c7c73bc776fc#64, 0xe54ffcfcd7fcb32b#64, 0x0824040410042014#64,
  0xa2e351515951b208#64, 0x2f2599995e99bcc7#64, 0xda226d6da96d4fc4#64, 0x1a650d0d340d6839#64,
  0xe979fafacffa8335#64, 0xa369dfdf5bdfb684#64, 0xfca97e7ee57ed79b#64, 0x4819242490243db4#64,
  0x76fe3b3bec3bc5d7#64, 0x4b9aabab96ab313d#64, 0x81f0cece1fce3ed1#64, 0x2299111144118855#64,
  0x03838f8f068f0c89#64, 0x9c044e4e254e4a6b#64, 0x7366b7b7e6b7d151#64, 0xcbe0ebeb8beb0b60#64,
  0x78c13c3cf03cfdcc#64, 0x1ffd81813e817cbf#64, 0x354094946a94d4fe#64, 0xf31cf7f7fbf7eb0c#64,
  0x6f18b9b9deb9a167#64, 0x268b13134c13985f#64, 0x58512c2cb02c7d9c#64, 0xbb05d3d36bd3d6b8#64,
  0xd38ce7e7bbe76b5c#64, 0xdc396e6ea56e57cb#64, 0x95aac4c437c46ef3#64, 0x061b03030c03180f#64,
  0xacdc565645568a13#64, 0x885e44440d441a49#64, 0xfea07f7fe17fdf9e#64, 0x4f88a9a99ea92137#64,
  0x54672a2aa82a4d82#64, 0x6b0abbbbd6bbb16d#64, 0x9f87c1c123c146e2#64, 0xa6f153535153a202#64,
  0xa572dcdc57dcae8b#64, 0x16530b0b2c0b5827#64, 0x27019d9d4e9d9cd3#64, 0xd82b6c6cad6c47c1#64,
  0x62a43131c43195f5#64, 0xe8f37474cd7487b9#64, 0xf115f6f6fff6e309#64, 0x8c4c464605460a43#64,
  0x45a5acac8aac0926#64, 0x0fb589891e893c97#64, 0x28b414145014a044#64, 0xdfbae1e1a3e15b42#64,
  0x2ca616165816b04e#64, 0x74f73a3ae83acdd2#64, 0xd2066969b9696fd0#64, 0x124109092409482d#64,
  0xe0d77070dd70a7ad#64, 0x716fb6b6e2b6d954#64, 0xbd1ed0d067d0ceb7#64, 0xc7d6eded93ed3b7e#64,
  0x85e2cccc17cc2edb#64, 0x8468424215422a57#64, 0x2d2c98985a98b4c2#64, 0x55eda4a4aaa4490e#64,
  0x50752828a0285d88#64, 0xb8865c5c6d5cda31#64, 0xed6bf8f8c7f8933f#64, 0x11c28686228644a4#64]

/-- `kryptos_whirlpool_C3` (src/kryptos_whirlpool.c:235-300). -/
def C3 : List W64 := [
  0x7830d818186018c0#64, 0xaf462623238c2305#64, 0xf991b8c6c63fc67e#64, 0x6fcdfbe8e887e813#64,
  0xa113cb878726874c#64, 0x626d11b8b8dab8a9#64, 0x0502090101040108#64, 0x6e9e0d4f4f214f42#64,
  0xee6c9b3636d836ad#64, 0x0451ffa6a6a2a659#64, 0xbdb90cd2d26fd2de#64, 0x06f70ef5f5f3f5fb#64,
  0x80f2967979f979ef#64, 0xcede306f6fa16f5f#64, 0xef3f6d91917e91fc#64, 0x07a4f852525552aa#64,
  0xfdc04760609d6027#64, 0x766535bcbccabc89#64, 0xcd2b379b9b569bac#64, 0x8c018a8e8e028e04#64,
  0x155bd2a3a3b6a371#64, 0x3c186c0c0c300c60#64, 0x8af6847b7bf17bff#64, 0xe16a803535d435b5#64,
  0x693af51d1d741de8#64, 0x47ddb3e0e0a7e053#64, 0xacb321d7d77bd7f6#64, 0xed999cc2c22fc25e#64,
  0x965c432e2eb82e6d#64, 0x7a96294b4b314b62#64, 0x21e15dfefedffea3#64, 0x16aed55757415782#64,
  0x412abd15155415a8#64, 0xb6eee87777c1779f#64, 0xeb6e923737dc37a5#64, 0x56d79ee5e5b3e57b#64,
  0xd923139f9f469f8c#64, 0x17fd23f0f0e7f0d3#64, 0x7f94204a4a354a6a#64, 0x95a944dada4fda9e#64,
  0x25b0a258587d58fa#64, 0xca8fcfc9c903c906#64, 0x8d527c2929a42955#64, 0x22145a0a0a280a50#64,
  0x4f7f50b1b1feb1e1#64, 0x1a5dc9a0a0baa069#64, 0xdad6146b6bb16b7f#64, 0xab17d985852e855c#64,
  0x73673cbdbdcebd81#64, 0x34ba8f5d5d695dd2#64, 0x5020901010401080#64, 0x03f507f4f4f7f4f3#64,
  0xc08bddcbcb0bcb16#64, 0xc67cd33e3ef83eed#64, 0x110a2d0505140528#64, 0xe6ce78676781671f#64,
  0x53d597e4e4b7e473#64, 0xbb4e0227279c2725#64, 0x5882734141194132#64, 0x9d0ba78b8b168b2c#64,
  0x0153f6a7a7a6a751#64, 0x94fab27d7de97dcf#64, 0xfb374995956e95dc#64, 0x9fad56d8d847d88e#64,
  0x30eb70fbfbcbfb8b#64, 0x71c1cdeeee9fee23#64, 0x91f8bb7c7ced7cc7#64, 0xe3cc716666856617#64,
  0x8ea77bdddd53dda6#64, 0x4b2eaf17175c17b8#64, 0x468e454747014702#64, 0xdc211a9e9e429e84#64,
  0xc589d4caca0fca1e#64, 0x995a582d2db42d75#64, 0x79632ebfbfc6bf91#64, 0x1b0e3f07071c0738#64,
  0x2347acadad8ead01#64, 0x2fb4b05a5a755aea#64, 0xb51bef838336836c#64, 0xff66b63333cc3385#64,
  0xf2c65c636391633f#64, 0x0a04120202080210#64, 0x384993aaaa92aa39#64, 0xa8e2de7171d971af#64,
  0xcf8dc6c8c807c80e#64, 0x7d32d119196419c8#64, 0x70923b4949394972#64, 0x9aaf5fd9d943d986#64,
  0x1df931f2f2eff2c3#64, 0x48dba8e3e3abe34b#64, 0x2ab6b95b5b715be2#64, 0x920dbc88881a8834#64,
  0xc8293e9a9a529aa4#64, 0xbe4c0b262698262d#64, 0xfa64bf3232c8328d#64, 0x4a7d59b0b0fab0e9#64,
  0x6acff2e9e983e91b#64, 0x331e770f0f3c0f78#64, 0xa6b733d5d573d5e6#64, 0xba1df480803a8074#64,
  0x7c6127bebec2be99#64, 0xde87ebcdcd13cd26#64, 0xe468893434d034bd#64, 0x75903248483d487a#64,
  0x24e354ffffdbffab#64, 0x8ff48d7a7af57af7#64, 0xea3d6490907a90f4#64, 0x3ebe9d5f5f615fc2#64,
  0xa0403d202080201d#64, 0xd5d00f6868bd6867#64, 0x7234ca1a1a681ad0#64, 0x2c41b7aeae82ae19#64,
  0x5e757db4b4eab4c9#64, 0x19a8ce54544d549a#64, 0xe53b7f93937693ec#64, 0xaa442f222288220d#64,
  0xe9c86364648d6407#64, 0x12ff2af1f1e3f1db#64, 0xa2e6cc7373d173bf#64, 0x5a24821212481290#64,
  0x5d807a40401d403a#64, 0x2810480808200840#64, 0xe89b95c3c32bc356#64, 0x7bc5dfecec97ec33#64,
  0x90ab4ddbdb4bdb96#64, 0x1f5fc0a1a1bea161#64, 0x8307918d8d0e8d1c#64, 0xc97ac83d3df43df5#64,
  0xf1335b97976697cc#64, 0x0000000000000000#64, 0xd483f9cfcf1bcf36#64, 0x87566e2b2bac2b45#64,
  0xb3ece17676c57697#64, 0xb019e68282328264#64, 0xa9b128d6d67fd6fe#64, 0x7736c31b1b6c1bd8#64,
  0x5b7774b5b5eeb5c1#64, 0x2943beafaf86af11#64, 0xdfd41d6a6ab56a77#64, 0x0da0ea50505d50ba#64,
  0x4c8a574545094512#64, 0x18fb38f3f3ebf3cb#64, 0xf060ad3030c0309d#64, 0x74c3c4efef9bef2b#64,
  0xc37eda3f3ffc3fe5#64, 0x1caac75555495592#64, 0x1059dba2a2b2a279#64, 0x65c9e9eaea8fea03#64,
  0xecca6a656589650f#64, 0x686903babad2bab9#64, 0x935e4a2f2fbc2f65#64, 0xe79d8ec0c027c04e#64,
  0x81a160dede5fdebe#64, 0x6c38fc1c1c701ce0#64, 0x2ee746fdfdd3fdbb#64, 0x649a1f4d4d294d52#64,
  0xe0397692927292e4#64, 0xbceafa7575c9758f#64, 0x1e0c360606180630#64, 0x9809ae8a8a128a24#64,
  0x40794bb2b2f2b2f9#64, 0x59d185e6e6bfe663#64, 0x361c7e0e0e380e70#64, 0x633ee71f1f7c1ff8#64,
  0xf7c4556262956237#64, 0xa3b53ad4d477d4ee#64, 0x324d81a8a89aa829#64, 0xf4315296966296c4#64,
  0x3aef62f9f9c3f99b#64, 0xf697a3c5c533c566#64, 0xb14a102525942535#64, 0x20b2ab59597959f2#64,
  0xae15d084842a8454#64, 0xa7e4c57272d572b7#64, 0xdd72ec3939e439d5#64, 0x6198164c4c2d4c5a#64,
  0x3bbc945e5e655eca#64, 0x85f09f7878fd78e7#64, 0xd870e53838e038dd#64, 0x8605988c8c0a8c14#64,
  0xb2bf17d1d163d1c6#64, 0x0b57e4a5a5aea541#64, 0x4dd9a1e2e2afe243#64, 0xf8c24e616199612f#64,
  0x457b42b3b3f6b3f1#64, 0xa542342121842115#64, 0xd625089c9c4a9c94#64, 0x663cee1e1e781ef0#64,
  0x5286614343114322#64, 0xfc93b1c7c73bc776#64, 0x2be54ffcfcd7fcb3#64, 0x1408240404100420#64,
  0x08a2e351515951b2#64, 0xc72f2599995e99bc#64, 0xc4da226d6da96d4f#64, 0x391a650d0d340d68#64,
  0x35e979fafacffa83#64, 0x84a369dfdf5bdfb6#64, 0x9bfca97e7ee57ed7#64, 0xb44819242490243d#64,
  0xd776fe3b3bec3bc5#64, 0x3d4b9aabab96ab31#64, 0xd181f0cece1fce3e#64, 0x5522991111441188#64,
  0x8903838f8f068f0c#64, 0x6b9c044e4e254e4a#64, 0x517366b7b7e6b7d1#64, 0x60cbe0ebeb8beb0b#64,
  0xcc78c13c3cf03cfd#64, 0xbf1ffd81813e817c#64, 0xfe354094946a94d4#64, 0x0cf31cf7f7fbf7eb#64,
  0x676f18b9b9deb9a1#64, 0x5f268b13134c1398#64, 0x9c58512c2cb02c7d#64, 0xb8bb05d3d36bd3d6#64,
  0x5cd38ce7e7bbe76b#64, 0xcbdc396e6ea56e57#64, 0xf395aac4c437c46e#64, 0x0f061b03030c0318#64,
  0x13acdc565645568a#64, 0x49885e44440d441a#64, 0x9efea07f7fe17fdf#64, 0x374f88a9a99ea921#64,
  0x8254672a2aa82a4d#64, 0x6d6b0abbbbd6bbb1#64, 0xe29f87c1c123c146#64, 0x02a6f153535153a2#64,
  0x8ba572dcdc57dcae#64, 0x2716530b0b2c0b58#64, 0xd327019d9d4e9d9c#64, 0xc1d82b6c6cad6c47#64,
  0xf562a43131c43195#64, 0xb9e8f37474cd7487#64, 0x09f115f6f6fff6e3#64, 0x438c4c464605460a#64,
  0x2645a5acac8aac09#64, 0x970fb589891e893c#64, 0x4428b414145014a0#64, 0x42dfbae1e1a3e15b#64,
  0x4e2ca616165816b0#64, 0xd274f73a3ae83acd#64, 0xd0d2066969b9696f#64, 0x2d12410909240948#64,
  0xade0d77070dd70a7#64, 0x54716fb6b6e2b6d9#64, 0xb7bd1ed0d067d0ce#64, 0x7ec7d6eded93ed3b#64,
  0xdb85e2cccc17cc2e#64, 0x578468424215422a#64, 0xc22d2c98985a98b4#64, 0x0e55eda4a4aaa449#64,
  0x8850752828a0285d#64, 0x31b8865c5c6d5cda#64, 0x3fed6bf8f8c7f893#64, 0xa411c28686228644#64]

/-- `kryptos_whirlpool_C4` (src/kryptos_whirlpool.c:302-367). -/
def C4 : List W64 := [
  0xc07830d818186018#64, 0x05af462623238c23#64, 0x7ef991b8c6c63fc6#64, 0x136fcdfbe8e887e8#64,
  0x4ca113cb87872687#64, 0xa9626d11b8b8dab8#64, 0x0805020901010401#64, 0x426e9e0d4f4f214f#64,
  0xadee6c9b3636d836#64, 0x590451ffa6a6a2a6#64, 0xdebdb90cd2d26fd2#64, 0xfb06f70ef5f5f3f5#64,
  0xef80f2967979f979#64, 0x5fcede306f6fa16f#64, 0xfcef3f6d91917e91#64, 0xaa07a4f852525552#64,
  0x27fdc04760609d60#64, 0x89766535bcbccabc#64, 0xaccd2b379b9b569b#64, 0x048c018a8e8e028e#64,
  0x71155bd2a3a3b6a3#64, 0x603c186c0c0c300c#64, 0xff8af6847b7bf17b#64, 0xb5e16a803535d435#64,
  0xe8693af51d1d741d#64, 0x5347ddb3e0e0a7e0#64, 0xf6acb321d7d77bd7#64, 0x5eed999cc2c22fc2#64,
  0x6d965c432e2eb82e#64, 0x627a96294b4b314b#64, 0xa321e15dfefedffe#64, 0x8216aed557574157#64,
  0xa8412abd15155415#64, 0x9fb6eee87777c177#64, 0xa5eb6e923737dc37#64, 0x7b56d79ee5e5b3e5#64,
  0x8cd923139f9f469f#64, 0xd317fd23f0f0e7f0#64, 0x6a7f94204a4a354a#64, 0x9e95a944dada4fda#64,
  0xfa25b0a258587d58#64, 0x06ca8fcfc9c903c9#64, 0x558d527c2929a429#64, 0x5022145a0a0a280a#64,
  0xe14f7f50b1b1feb1#64, 0x691a5dc9a0a0baa0#64, 0x7fdad6146b6bb16b#64, 0x5cab17d985852e85#64,
  0x8173673cbdbdcebd#64, 0xd234ba8f5d5d695d#64, 0x8050209010104010#64, 0xf303f507f4f4f7f4#64,
  0x16c08bddcbcb0bcb#64, 0xedc67cd33e3ef83e#64, 0x28110a2d05051405#64, 0x1fe6ce7867678167#64,
  0x7353d597e4e4b7e4#64, 0x25bb4e0227279c27#64, 0x3258827341411941#64, 0x2c9d0ba78b8b168b#64,
  0x510153f6a7a7a6a7#64, 0xcf94fab27d7de97d#64, 0xdcfb374995956e95#64, 0x8e9fad56d8d847d8#64,
  0x8b30eb70fbfbcbfb#64, 0x2371c1cdeeee9fee#64, 0xc791f8bb7c7ced7c#64, 0x17e3cc7166668566#64,
  0xa68ea77bdddd53dd#64, 0xb84b2eaf17175c17#64, 0x02468e4547470147#64, 0x84dc211a9e9e429e#64,
  0x1ec589d4caca0fca#64, 0x75995a582d2db42d#64, 0x9179632ebfbfc6bf#64, 0x381b0e3f07071c07#64,
  0x012347acadad8ead#64, 0xea2fb4b05a5a755a#64, 0x6cb51bef83833683#64, 0x85ff66b63333cc33#64,
  0x3ff2c65c63639163#64, 0x100a041202020802#64, 0x39384993aaaa92aa#64, 0xafa8e2de7171d971#64,
  0x0ecf8dc6c8c807c8#64, 0xc87d32d119196419#64, 0x7270923b49493949#64, 0x869aaf5fd9d943d9#64,
  0xc31df931f2f2eff2#64, 0x4b48dba8e3e3abe3#64, 0xe22ab6b95b5b715b#64, 0x34920dbc88881a88#64,
  0xa4c8293e9a9a529a#64, 0x2dbe4c0b26269826#64, 0x8dfa64bf3232c832#64, 0xe94a7d59b0b0fab0#64,
  0x1b6acff2e9e983e9#64, 0x78331e770f0f3c0f#64, 0xe6a6b733d5d573d5#64, 0x74ba1df480803a80#64,
  0x997c6127bebec2be#64, 0x26de87ebcdcd13cd#64, 0xbde468893434d034#64, 0x7a75903248483d48#64,
  0xab24e354ffffdbff#64, 0xf78ff48d7a7af57a#64, 0xf4ea3d6490907a90#64, 0xc23ebe9d5f5f615f#64,
  0x1da0403d20208020#64, 0x67d5d00f6868bd68#64, 0xd07234ca1a1a681a#64, 0x192c41b7aeae82ae#64,
  0xc95e757db4b4eab4#64, 0x9a19a8ce54544d54#64, 0xece53b7f93937693#64, 0x0daa442f22228822#64,
  0x07e9c86364648d64#64, 0xdb12ff2af1f1e3f1#64, 0xbfa2e6cc7373d173#64, 0x905a248212124812#64,
  0x3a5d807a40401d40#64, 0x4028104808082008#64, 0x56e89b95c3c32bc3#64, 0x337bc5dfecec97ec#64,
  0x9690ab4ddbdb4bdb#64, 0x611f5fc0a1a1bea1#64, 0x1c8307918d8d0e8d#64, 0xf5c97ac83d3df43d#64,
  0xccf1335b97976697#64, 0x0000000000000000#64, 0x36d483f9cfcf1bcf#64, 0x4587566e2b2bac2b#64,
  0x97b3ece17676c576#64, 0x64b019e682823282#64, 0xfea9b128d6d67fd6#64, 0xd87736c31b1b6c1b#64,
  0xc15b7774b5b5eeb5#64, 0x112943beafaf86af#64, 0x77dfd41d6a6ab56a#64, 0xba0da0ea50505d50#64,
  0x124c8a5745450945#64, 0xcb18fb38f3f3ebf3#64, 0x9df060ad3030c030#64, 0x2b74c3c4efef9bef#64,
  0xe5c37eda3f3ffc3f#64, 0x921caac755554955#64, 0x791059dba2a2b2a2#64, 0x0365c9e9eaea8fea#64,
  0x0fecca6a65658965#64, 0xb9686903babad2ba#64, 0x65935e4a2f2fbc2f#64, 0x4ee79d8ec0c027c0#64,
  0xbe81a160dede5fde#64, 0xe06c38fc1c1c701c#64, 0xbb2ee746fdfdd3fd#64, 0x52649a1f4d4d294d#64,
  0xe4e0397692927292#64, 0x8fbceafa7575c975#64, 0x301e0c3606061806#64, 0x249809ae8a8a128a#64,
  0xf940794bb2b2f2b2#64, 0x6359d185e6e6bfe6#64, 0x70361c7e0e0e380e#64, 0xf8633ee71f1f7c1f#64,
  0x37f7c45562629562#64, 0xeea3b53ad4d477d4#64, 0x29324d81a8a89aa8#64, 0xc4f4315296966296#64,
  0x9b3aef62f9f9c3f9#64, 0x66f697a3c5c533c5#64, 0x35b14a1025259425#64, 0xf220b2ab59597959#64,
  0x54ae15d084842a84#64, 0xb7a7e4c57272d572#64, 0xd5dd72ec3939e439#64, 0x5a6198164c4c2d4c#64,
  0xca3bbc945e5e655e#64, 0xe785f09f7878fd78#64, 0xddd870e53838e038#64, 0x148605988c8c0a8c#64,
  0xc6b2bf17d1d163d1#64, 0x410b57e4a5a5aea5#64, 0x434dd9a1e2e2afe2#64, 0x2ff8c24e61619961#64,
  0xf1457b42b3b3f6b3#64, 0x15a5423421218421#64, 0x94d625089c9c4a9c#64, 0xf0663cee1e1e781e#64,
  0x2252866143431143#64, 0x76fc93b1c7c73bc7#64, 0xb32be54ffcfcd7fc#64, 0x2014082404041004#64,
  0xb208a2e351515951#64, 0xbcc72f2599995e99#64, 0x4fc4da226d6da96d#64, 0x68391a650d0d340d#64,
  0x8335e979fafacffa#64, 0xb684a369dfdf5bdf#64, 0xd79bfca97e7ee57e#64, 0x3db4481924249024#64,
  0xc5d776fe3b3bec3b#64, 0x313d4b9aabab96ab#64, 0x3ed181f0cece1fce#64, 0x8855229911114411#64,
  0x0c8903838f8f068f#64, 0x4a6b9c044e4e254e#64, 0xd1517366b7b7e6b7#64, 0x0b60cbe0ebeb8beb#64,
  0xfdcc78c13c3cf03c#64, 0x7cbf1ffd81813e81#64, 0xd4fe354094946a94#64, 0xeb0cf31cf7f7fbf7#64,
  0xa1676f18b9b9deb9#64, 0x985f268b13134c13#64, 0x7d9c58512c2cb02c#64, 0xd6b8bb05d3d36bd3#64,
  0x6b5cd38ce7e7bbe7#64, 0x57cbdc396e6ea56e#64, 0x6ef395aac4c437c4#64, 0x180f061b03030c03#64,
  0x8a13acdc56564556#64, 0x1a49885e44440d44#64, 0xdf9efea07f7fe17f#64, 0x21374f88a9a99ea9#64,
  0x4d8254672a2aa82a#64, 0xb16d6b0abbbbd6bb#64, 0x46e29f87c1c123c1#64, 0xa202a6f153535153#64,
  0xae8ba572dcdc57dc#64, 0x582716530b0b2c0b#64, 0x9cd327019d9d4e9d#64, 0x47c1d82b6c6cad6c#64,
  0x95f562a43131c431#64, 0x87b9e8f37474cd74#64, 0xe309f115f6f6fff6#64, 0x0a438c4c46460546#64,
  0x092645a5acac8aac#64, 0x3c970fb589891e89#64, 0xa04428b414145014#64, 0x5b42dfbae1e1a3e1#64,
  0xb04e2ca616165816#64, 0xcdd274f73a3ae83a#64, 0x6fd0d2066969b969#64, 0x482d124109092409#64,
  0xa7ade0d77070dd70#64, 0xd954716fb6b6e2b6#64, 0xceb7bd1ed0d067d0#64, 0x3b7ec7d6eded93ed#64,
  0x2edb85e2cccc17cc#64, 0x2a57846842421542#64, 0xb4c22d2c98985a98#64, 0x490e55eda4a4aaa4#64,
  0x5d8850752828a028#64, 0xda31b8865c5c6d5c#64, 0x933fed6bf8f8c7f8#64, 0x44a411c286862286#64]

/-- `kryptos_whirlpool_C5` (src/kryptos_whirlpool.c:369-434). -/
def C5 : List W64 := [
  0x18c07830d8181860#64, 0x2305af462623238c#64, 0xc67ef991b8c6c63f#64, 0xe8136fcdfbe8e887#64,
  0x874ca113cb878726#64, 0xb8a9626d11b8b8da#64, 0x0108050209010104#64, 0x4f426e9e0d4f4f21#64,
  0x36adee6c9b3636d8#64, 0xa6590451ffa6a6a2#64, 0xd2debdb90cd2d26f#64, 0xf5fb06f70ef5f5f3#64,
  0x79ef80f2967979f9#64, 0x6f5fcede306f6fa1#64, 0x91fcef3f6d91917e#64, 0x52aa07a4f8525255#64,
  0x6027fdc04760609d#64, 0xbc89766535bcbcca#64, 0x9baccd2b379b9b56#64, 0x8e048c018a8e8e02#64,
  0xa371155bd2a3a3b6#64, 0x0c603c186c0c0c30#64, 0x7bff8af6847b7bf1#64, 0x35b5e16a803535d4#64,
  0x1de8693af51d1d74#64, 0xe05347ddb3e0e0a7#64, 0xd7f6acb321d7d77b#64, 0xc25eed999cc2c22f#64,
  0x2e6d965c432e2eb8#64, 0x4b627a96294b4b31#64, 0xfea321e15dfefedf#64, 0x578216aed5575741#64,
  0x15a8412abd151554#64, 0x779fb6eee87777c1#64, 0x37a5eb6e923737dc#64, 0xe57b56d79ee5e5b3#64,
  0x9f8cd923139f9f46#64, 0xf0d317fd23f0f0e7#64, 0x4a6a7f94204a4a35#64, 0xda9e95a944dada4f#64,
  0x58fa25b0a258587d#64, 0xc906ca8fcfc9c903#64, 0x29558d527c2929a4#64, 0x0a5022145a0a0a28#64,
  0xb1e14f7f50b1b1fe#64, 0xa0691a5dc9a0a0ba#64, 0x6b7fdad6146b6bb1#64, 0x855cab17d985852e#64,
  0xbd8173673cbdbdce#64, 0x5dd234ba8f5d5d69#64, 0x1080502090101040#64, 0xf4f303f507f4f4f7#64,
  0xcb16c08bddcbcb0b#64, 0x3eedc67cd33e3ef8#64, 0x0528110a2d050514#64, 0x671fe6ce78676781#64,
  0xe47353d597e4e4b7#64, 0x2725bb4e0227279c#64, 0x4132588273414119#64, 0x8b2c9d0ba78b8b16#64,
  0xa7510153f6a7a7a6#64, 0x7dcf94fab27d7de9#64, 0x95dcfb374995956e#64, 0xd88e9fad56d8d847#64,
  0xfb8b30eb70fbfbcb#64, 0xee2371c1cdeeee9f#64, 0x7cc791f8bb7c7ced#64, 0x6617e3cc71666685#64,
  0xdda68ea77bdddd53#64, 0x17b84b2eaf17175c#64, 0x4702468e45474701#64, 0x9e84dc211a9e9e42#64,
  0xca1ec589d4caca0f#64, 0x2d75995a582d2db4#64, 0xbf9179632ebfbfc6#64, 0x07381b0e3f07071c#64,
  0xad012347acadad8e#64, 0x5aea2fb4b05a5a75#64, 0x836cb51bef838336#64, 0x3385ff66b63333cc#64,
  0x633ff2c65c636391#64, 0x02100a0412020208#64, 0xaa39384993aaaa92#64, 0x71afa8e2de7171d9#64,
  0xc80ecf8dc6c8c807#64, 0x19c87d32d1191964#64, 0x497270923b494939#64, 0xd9869aaf5fd9d943#64,
  0xf2c31df931f2f2ef#64, 0xe34b48dba8e3e3ab#64, 0x5be22ab6b95b5b71#64, 0x8834920dbc88881a#64,
  0x9aa4c8293e9a9a52#64, 0x262dbe4c0b262698#64, 0x328dfa64bf3232c8#64, 0xb0e94a7d59b0b0fa#64,
  0xe91b6acff2e9e983#64, 0x0f78331e770f0f3c#64, 0xd5e6a6b733d5d573#64, 0x8074ba1df480803a#64,
  0xbe997c6127bebec2#64, 0xcd26de87ebcdcd13#64, 0x34bde468893434d0#64, 0x487a75903248483d#64,
  0xffab24e354ffffdb#64, 0x7af78ff48d7a7af5#64, 0x90f4ea3d6490907a#64, 0x5fc23ebe9d5f5f61#64,
  0x201da0403d202080#64, 0x6867d5d00f6868bd#64, 0x1ad07234ca1a1a68#64, 0xae192c41b7aeae82#64,
  0xb4c95e757db4b4ea#64, 0x549a19a8ce54544d#64, 0x93ece53b7f939376#64, 0x220daa442f222288#64,
  0x6407e9c86364648d#64, 0xf1db12ff2af1f1e3#64, 0x73bfa2e6cc7373d1#64, 0x12905a2482121248#64,
  0x403a5d807a40401d#64, 0x0840281048080820#64, 0xc356e89b95c3c32b#64, 0xec337bc5dfecec97#64,
  0xdb9690ab4ddbdb4b#64, 0xa1611f5fc0a1a1be#64, 0x8d1c8307918d8d0e#64, 0x3df5c97ac83d3df4#64,
  0x97ccf1335b979766#64, 0x0000000000000000#64, 0xcf36d483f9cfcf1b#64, 0x2b4587566e2b2bac#64,
  0x7697b3ece17676c5#64, 0x8264b019e6828232#64, 0xd6fea9b128d6d67f#64, 0x1bd87736c31b1b6c#64,
  0xb5c15b7774b5b5ee#64, 0xaf112943beafaf86#64, 0x6a77dfd41d6a6ab5#64, 0x50ba0da0ea50505d#64,
  0x45124c8a57454509#64, 0xf3cb18fb38f3f3eb#64, 0x309df060ad3030c0#64, 0xef2b74c3c4efef9b#64,
  0x3fe5c37eda3f3ffc#64, 0x55921caac7555549#64, 0xa2791059dba2a2b2#64, 0xea0365c9e9eaea8f#64,
  0x650fecca6a656589#64, 0xbab9686903babad2#64, 0x2f65935e4a2f2fbc#64, 0xc04ee79d8ec0c027#64,
  0xdebe81a160dede5f#64, 0x1ce06c38fc1c1c70#64, 0xfdbb2ee746fdfdd3#64, 0x4d52649a1f4d4d29#64,
  0x92e4e03976929272#64, 0x758fbceafa7575c9#64, 0x06301e0c36060618#64, 0x8a249809ae8a8a12#64,
  0xb2f940794bb2b2f2#64, 0xe66359d185e6e6bf#64, 0x0e70361c7e0e0e38#64, 0x1ff8633ee71f1f7c#64,
  0x6237f7c455626295#64, 0xd4eea3b53ad4d477#64, 0xa829324d81a8a89a#64, 0x96c4f43152969662#64,
  0xf99b3aef62f9f9c3#64, 0xc566f697a3c5c533#64, 0x2535b14a10252594#64, 0x59f220b2ab595979#64,
  0x8454ae15d084842a#64, 0x72b7a7e4c57272d5#64, 0x39d5dd72ec3939e4#64, 0x4c5a6198164c4c2d#64,
  0x5eca3bbc945e5e65#64, 0x78e785f09f7878fd#64, 0x38ddd870e53838e0#64, 0x8c148605988c8c0a#64,
  0xd1c6b2bf17d1d163#64, 0xa5410b57e4a5a5ae#64, 0xe2434dd9a1e2e2af#64, 0x612ff8c24e616199#64,
  0xb3f1457b42b3b3f6#64, 0x2115a54234212184#64, 0x9c94d625089c9c4a#64, 0x1ef0663cee1e1e78#64,
  0x4322528661434311#64, 0xc776fc93b1c7c73b#64, 0xfcb32be54ffcfcd7#64, 0x0420140824040410#64,
  0x51b208a2e3515159#64, 0x99bcc72f2599995e#64, 0x6d4fc4da226d6da9#64, 0x0d68391a650d0d34#64,
  0xfa8335e979fafacf#64, 0xdfb684a369dfdf5b#64, 0x7ed79bfca97e7ee5#64, 0x243db44819242490#64,
  0x3bc5d776fe3b3bec#64, 0xab313d4b9aabab96#64, 0xce3ed181f0cece1f#64, 0x1188552299111144#64,
  0x8f0c8903838f8f06#64, 0x4e4a6b9c044e4e25#64, 0xb7d1517366b7b7e6#64, 0xeb0b60cbe0ebeb8b#64,
  0x3cfdcc78c13c3cf0#64, 0x817cbf1ffd81813e#64, 0x94d4fe354094946a#64, 0xf7eb0cf31cf7f7fb#64,
  0xb9a1676f18b9b9de#64, 0x13985f268b13134c#64, 0x2c7d9c58512c2cb0#64, 0xd3d6b8bb05d3d36b#64,
  0xe76b5cd38ce7e7bb#64, 0x6e57cbdc396e6ea5#64, 0xc46ef395aac4c437#64, 0x03180f061b03030c#64,
  0x568a13acdc565645#64, 0x441a49885e44440d#64, 0x7fdf9efea07f7fe1#64, 0xa921374f88a9a99e#64,
  0x2a4d8254672a2aa8#64, 0xbbb16d6b0abbbbd6#64, 0xc146e29f87c1c123#64, 0x53a202a6f1535351#64,
  0xdcae8ba572dcdc57#64, 0x0b582716530b0b2c#64, 0x9d9cd327019d9d4e#64, 0x6c47c1d82b6c6cad#64,
  0x3195f562a43131c4#64, 0x7487b9e8f37474cd#64, 0xf6e309f115f6f6ff#64, 0x460a438c4c464605#64,
  0xac092645a5acac8a#64, 0x893c970fb589891e#64, 0x14a04428b4141450#64, 0xe15b42dfbae1e1a3#64,
  0x16b04e2ca6161658#64, 0x3acdd274f73a3ae8#64, 0x696fd0d2066969b9#64, 0x09482d1241090924#64,
  0x70a7ade0d77070dd#64, 0xb6d954716fb6b6e2#64, 0xd0ceb7bd1ed0d067#64, 0xed3b7ec7d6eded93#64,
  0xcc2edb85e2cccc17#64, 0x422a578468424215#64, 0x98b4c22d2c98985a#64, 0xa4490e55eda4a4aa#64,
  0x285d8850752828a0#64, 0x5cda31b8865c5c6d#64, 0xf8933fed6bf8f8c7#64, 0x8644a411c2868622#64]

/-- `kryptos_whirlpool_C6` (src/kryptos_whirlpool.c:436-501). -/
def C6 : List W64 := [
  0x6018c07830d81818#64, 0x8c2305af46262323#64, 0x3fc67ef991b8c6c6#64, 0x87e8136fcdfbe8e8#64,
  0x26874ca113cb8787#64, 0xdab8a9626d11b8b8#64, 0x0401080502090101#64, 0x214f426e9e0d4f4f#64,
  0xd836adee6c9b3636#64, 0xa2a6590451ffa6a6#64, 0x6fd2debdb90cd2d2#64, 0xf3f5fb06f70ef5f5#64,
  0xf979ef80f2967979#64, 0xa16f5fcede306f6f#64, 0x7e91fcef3f6d9191#64, 0x5552aa07a4f85252#64,
  0x9d6027fdc0476060#64, 0xcabc89766535bcbc#64, 0x569baccd2b379b9b#64, 0x028e048c018a8e8e#64,
  0xb6a371155bd2a3a3#64, 0x300c603c186c0c0c#64, 0xf17bff8af6847b7b#64, 0xd435b5e16a803535#64,
  0x741de8693af51d1d#64, 0xa7e05347ddb3e0e0#64, 0x7bd7f6acb321d7d7#64, 0x2fc25eed999cc2c2#64,
  0xb82e6d965c432e2e#64, 0x314b627a96294b4b#64, 0xdffea321e15dfefe#64, 0x41578216aed55757#64,
  0x5415a8412abd1515#64, 0xc1779fb6eee87777#64, 0xdc37a5eb6e923737#64, 0xb3e57b56d79ee5e5#64,
  0x469f8cd923139f9f#64, 0xe7f0d317fd23f0f0#64, 0x354a6a7f94204a4a#64, 0x4fda9e95a944dada#64,
  0x7d58fa25b0a25858#64, 0x03c906ca8fcfc9c9#64, 0xa429558d527c2929#64, 0x280a5022145a0a0a#64,
  0xfeb1e14f7f50b1b1#64, 0xbaa0691a5dc9a0a0#64, 0xb16b7fdad6146b6b#64, 0x2e855cab17d98585#64,
  0xcebd8173673cbdbd#64, 0x695dd234ba8f5d5d#64, 0x4010805020901010#64, 0xf7f4f303f507f4f4#64,
  0x0bcb16c08bddcbcb#64, 0xf83eedc67cd33e3e#64, 0x140528110a2d0505#64, 0x81671fe6ce786767#64,
  0xb7e47353d597e4e4#64, 0x9c2725bb4e022727#64, 0x1941325882734141#64, 0x168b2c9d0ba78b8b#64,
  0xa6a7510153f6a7a7#64, 0xe97dcf94fab27d7d#64, 0x6e95dcfb37499595#64, 0x47d88e9fad56d8d8#64,
  0xcbfb8b30eb70fbfb#64, 0x9fee2371c1cdeeee#64, 0xed7cc791f8bb7c7c#64, 0x856617e3cc716666#64,
  0x53dda68ea77bdddd#64, 0x5c17b84b2eaf1717#64, 0x014702468e454747#64, 0x429e84dc211a9e9e#64,
  0x0fca1ec589d4caca#64, 0xb42d75995a582d2d#64, 0xc6bf9179632ebfbf#64, 0x1c07381b0e3f0707#64,
  0x8ead012347acadad#64, 0x755aea2fb4b05a5a#64, 0x36836cb51bef8383#64, 0xcc3385ff66b63333#64,
  0x91633ff2c65c6363#64, 0x0802100a04120202#64, 0x92aa39384993aaaa#64, 0xd971afa8e2de7171#64,
  0x07c80ecf8dc6c8c8#64, 0x6419c87d32d11919#64, 0x39497270923b4949#64, 0x43d9869aaf5fd9d9#64,
  0xeff2c31df931f2f2#64, 0xabe34b48dba8e3e3#64, 0x715be22ab6b95b5b#64, 0x1a8834920dbc8888#64,
  0x529aa4c8293e9a9a#64, 0x98262dbe4c0b2626#64, 0xc8328dfa64bf3232#64, 0xfab0e94a7d59b0b0#64,
  0x83e91b6acff2e9e9#64, 0x3c0f78331e770f0f#64, 0x73d5e6a6b733d5d5#64, 0x3a8074ba1df48080#64,
  0xc2be997c6127bebe#64, 0x13cd26de87ebcdcd#64, 0xd034bde468893434#64, 0x3d487a7590324848#64,
  0xdbffab24e354ffff#64, 0xf57af78ff48d7a7a#64, 0x7a90f4ea3d649090#64, 0x615fc23ebe9d5f5f#64,
  0x80201da0403d2020#64, 0xbd6867d5d00f6868#64, 0x681ad07234ca1a1a#64, 0x82ae192c41b7aeae#64,
  0xeab4c95e757db4b4#64, 0x4d549a19a8ce5454#64, 0x7693ece53b7f9393#64, 0x88220daa442f2222#64,
  0x8d6407e9c8636464#64, 0xe3f1db12ff2af1f1#64, 0xd173bfa2e6cc7373#64, 0x4812905a24821212#64,
  0x1d403a5d807a4040#64, 0x2008402810480808#64, 0x2bc356e89b95c3c3#64, 0x97ec337bc5dfecec#64,
  0x4bdb9690ab4ddbdb#64, 0xbea1611f5fc0a1a1#64, 0x0e8d1c8307918d8d#64, 0xf43df5c97ac83d3d#64,
  0x6697ccf1335b9797#64, 0x0000000000000000#64, 0x1bcf36d483f9cfcf#64, 0xac2b4587566e2b2b#64,
  0xc57697b3ece17676#64, 0x328264b019e68282#64, 0x7fd6fea9b128d6d6#64, 0x6c1bd87736c31b1b#64,
  0xeeb5c15b7774b5b5#64, 0x86af112943beafaf#64, 0xb56a77dfd41d6a6a#64, 0x5d50ba0da0ea5050#64,
  0x0945124c8a574545#64, 0xebf3cb18fb38f3f3#64, 0xc0309df060ad3030#64, 0x9bef2b74c3c4efef#64,
  0xfc3fe5c37eda3f3f#64, 0x4955921caac75555#64, 0xb2a2791059dba2a2#64, 0x8fea0365c9e9eaea#64,
  0x89650fecca6a6565#64, 0xd2bab9686903baba#64, 0xbc2f65935e4a2f2f#64, 0x27c04ee79d8ec0c0#64,
  0x5fdebe81a160dede#64, 0x701ce06c38fc1c1c#64, 0xd3fdbb2ee746fdfd#64, 0x294d52649a1f4d4d#64,
  0x7292e4e039769292#64, 0xc9758fbceafa7575#64, 0x1806301e0c360606#64, 0x128a249809ae8a8a#64,
  0xf2b2f940794bb2b2#64, 0xbfe66359d185e6e6#64, 0x380e70361c7e0e0e#64, 0x7c1ff8633ee71f1f#64,
  0x956237f7c4556262#64, 0x77d4eea3b53ad4d4#64, 0x9aa829324d81a8a8#64, 0x6296c4f431529696#64,
  0xc3f99b3aef62f9f9#64, 0x33c566f697a3c5c5#64, 0x942535b14a102525#64, 0x7959f220b2ab5959#64,
  0x2a8454ae15d08484#64, 0xd572b7a7e4c57272#64, 0xe439d5dd72ec3939#64, 0x2d4c5a6198164c4c#64,
  0x655eca3bbc945e5e#64, 0xfd78e785f09f7878#64, 0xe038ddd870e53838#64, 0x0a8c148605988c8c#64,
  0x63d1c6b2bf17d1d1#64, 0xaea5410b57e4a5a5#64, 0xafe2434dd9a1e2e2#64, 0x99612ff8c24e6161#64,
  0xf6b3f1457b42b3b3#64, 0x842115a542342121#64, 0x4a9c94d625089c9c#64, 0x781ef0663cee1e1e#64,
  0x1143225286614343#64, 0x3bc776fc93b1c7c7#64, 0xd7fcb32be54ffcfc#64, 0x1004201408240404#64,
  0x5951b208a2e35151#64, 0x5e99bcc72f259999#64, 0xa96d4fc4da226d6d#64, 0x340d68391a650d0d#64,
  0xcffa8335e979fafa#64, 0x5bdfb684a369dfdf#64, 0xe57ed79bfca97e7e#64, 0x90243db448192424#64,
  0xec3bc5d776fe3b3b#64, 0x96ab313d4b9aabab#64, 0x1fce3ed181f0cece#64, 0x4411885522991111#64,
  0x068f0c8903838f8f#64, 0x254e4a6b9c044e4e#64, 0xe6b7d1517366b7b7#64, 0x8beb0b60cbe0ebeb#64,
  0xf03cfdcc78c13c3c#64, 0x3e817cbf1ffd8181#64, 0x6a94d4fe35409494#64, 0xfbf7eb0cf31cf7f7#64,
  0xdeb9a1676f18b9b9#64, 0x4c13985f268b1313#64, 0xb02c7d9c58512c2c#64, 0x6bd3d6b8bb05d3d3#64,
  0xbbe76b5cd38ce7e7#64, 0xa56e57cbdc396e6e#64, 0x37c46ef395aac4c4#64, 0x0c03180f061b0303#64,
  0x45568a13acdc5656#64, 0x0d441a49885e4444#64, 0xe17fdf9efea07f7f#64, 0x9ea921374f88a9a9#64,
  0xa82a4d8254672a2a#64, 0xd6bbb16d6b0abbbb#64, 0x23c146e29f87c1c1#64, 0x5153a202a6f15353#64,
  0x57dcae8ba572dcdc#64, 0x2c0b582716530b0b#64, 0x4e9d9cd327019d9d#64, 0xad6c47c1d82b6c6c#64,
  0xc43195f562a43131#64, 0xcd7487b9e8f37474#64, 0xfff6e309f115f6f6#64, 0x05460a438c4c4646#64,
  0x8aac092645a5acac#64, 0x1e893c970fb58989#64, 0x5014a04428b41414#64, 0xa3e15b42dfbae1e1#64,
  0x5816b04e2ca61616#64, 0xe83acdd274f73a3a#64, 0xb9696fd0d2066969#64, 0x2409482d12410909#64,
  0xdd70a7ade0d77070#64, 0xe2b6d954716fb6b6#64, 0x67d0ceb7bd1ed0d0#64, 0x93ed3b7ec7d6eded#64,
  0x17cc2edb85e2cccc#64, 0x15422a5784684242#64, 0x5a98b4c22d2c9898#64, 0xaaa4490e55eda4a4#64,
  0xa0285d8850752828#64, 0x6d5cda31b8865c5c#64, 0xc7f8933fed6bf8f8#64, 0x228644a411c28686#64]

/-- `kryptos_whirlpool_C7` (src/kryptos_whirlpool.c:503-568). -/
def C7 : List W64 := [
  0x186018c07830d818#64, 0x238c2305af462623#64, 0xc63fc67ef991b8c6#64, 0xe887e8136fcdfbe8#64,
  0x8726874ca113cb87#64, 0xb8dab8a9626d11b8#64, 0x0104010805020901#64, 0x4f214f426e9e0d4f#64,
  0x36d836adee6c9b36#64, 0xa6a2a6590451ffa6#64, 0xd26fd2debdb90cd2#64, 0xf5f3f5fb06f70ef5#64,
  0x79f979ef80f29679#64, 0x6fa16f5fcede306f#64, 0x917e91fcef3f6d91#64, 0x525552aa07a4f852#64,
  0x609d6027fdc04760#64, 0xbccabc89766535bc#64, 0x9b569baccd2b379b#64, 0x8e028e048c018a8e#64,
  0xa3b6a371155bd2a3#64, 0x0c300c603c186c0c#64, 0x7bf17bff8af6847b#64, 0x35d435b5e16a8035#64,
  0x1d741de8693af51d#64, 0xe0a7e05347ddb3e0#64, 0xd77bd7f6acb321d7#64, 0xc22fc25eed999cc2#64,
  0x2eb82e6d965c432e#64, 0x4b314b627a96294b#64, 0xfedffea321e15dfe#64, 0x5741578216aed557#64,
  0x155415a8412abd15#64, 0x77c1779fb6eee877#64, 0x37dc37a5eb6e9237#64, 0xe5b3e57b56d79ee5#64,
  0x9f469f8cd923139f#64, 0xf0e7f0d317fd23f0#64, 0x4a354a6a7f94204a#64, 0xda4fda9e95a944da#64,
  0x587d58fa25b0a258#64, 0xc903c906ca8fcfc9#64, 0x29a429558d527c29#64, 0x0a280a5022145a0a#64,
  0xb1feb1e14f7f50b1#64, 0xa0baa0691a5dc9a0#64, 0x6bb16b7fdad6146b#64, 0x852e855cab17d985#64,
  0xbdcebd8173673cbd#64, 0x5d695dd234ba8f5d#64, 0x1040108050209010#64, 0xf4f7f4f303f507f4#64,
  0xcb0bcb16c08bddcb#64, 0x3ef83eedc67cd33e#64, 0x05140528110a2d05#64, 0x6781671fe6ce7867#64,
  0xe4b7e47353d597e4#64, 0x279c2725bb4e0227#64, 0x4119413258827341#64, 0x8b168b2c9d0ba78b#64,
  0xa7a6a7510153f6a7#64, 0x7de97dcf94fab27d#64, 0x956e95dcfb374995#64, 0xd847d88e9fad56d8#64,
  0xfbcbfb8b30eb70fb#64, 0xee9fee2371c1cdee#64, 0x7ced7cc791f8bb7c#64, 0x66856617e3cc7166#64,
  0xdd53dda68ea77bdd#64, 0x175c17b84b2eaf17#64, 0x47014702468e4547#64, 0x9e429e84dc211a9e#64,
  0xca0fca1ec589d4ca#64, 0x2db42d75995a582d#64, 0xbfc6bf9179632ebf#64, 0x071c07381b0e3f07#64,
  0xad8ead012347acad#64, 0x5a755aea2fb4b05a#64, 0x8336836cb51bef83#64, 0x33cc3385ff66b633#64,
  0x6391633ff2c65c63#64, 0x020802100a041202#64, 0xaa92aa39384993aa#64, 0x71d971afa8e2de71#64,
  0xc807c80ecf8dc6c8#64, 0x196419c87d32d119#64, 0x4939497270923b49#64, 0xd943d9869aaf5fd9#64,
  0xf2eff2c31df931f2#64, 0xe3abe34b48dba8e3#64, 0x5b715be22ab6b95b#64, 0x881a8834920dbc88#64,
  0x9a529aa4c8293e9a#64, 0x2698262dbe4c0b26#64, 0x32c8328dfa64bf32#64, 0xb0fab0e94a7d59b0#64,
  0xe983e91b6acff2e9#64, 0x0f3c0f78331e770f#64, 0xd573d5e6a6b733d5#64, 0x803a8074ba1df480#64,
  0xbec2be997c6127be#64, 0xcd13cd26de87ebcd#64, 0x34d034bde4688934#64, 0x483d487a75903248#64,
  0xffdbffab24e354ff#64, 0x7af57af78ff48d7a#64, 0x907a90f4ea3d6490#64, 0x5f615fc23ebe9d5f#64,
  0x2080201da0403d20#64, 0x68bd6867d5d00f68#64, 0x1a681ad07234ca1a#64, 0xae82ae192c41b7ae#64,
  0xb4eab4c95e757db4#64, 0x544d549a19a8ce54#64, 0x937693ece53b7f93#64, 0x2288220daa442f22#64,
  0x648d6407e9c86364#64, 0xf1e3f1db12ff2af1#64, 0x73d173bfa2e6cc73#64, 0x124812905a248212#64,
  0x401d403a5d807a40#64, 0x0820084028104808#64, 0xc32bc356e89b95c3#64, 0xec97ec337bc5dfec#64,
  0xdb4bdb9690ab4ddb#64, 0xa1bea1611f5fc0a1#64, 0x8d0e8d1c8307918d#64, 0x3df43df5c97ac83d#64,
  0x976697ccf1335b97#64, 0x0000000000000000#64, 0xcf1bcf36d483f9cf#64, 0x2bac2b4587566e2b#64,
  0x76c57697b3ece176#64, 0x82328264b019e682#64, 0xd67fd6fea9b128d6#64, 0x1b6c1bd87736c31b#64,
  0xb5eeb5c15b7774b5#64, 0xaf86af112943beaf#64, 0x6ab56a77dfd41d6a#64, 0x505d50ba0da0ea50#64,
  0x450945124c8a5745#64, 0xf3ebf3cb18fb38f3#64, 0x30c0309df060ad30#64, 0xef9bef2b74c3c4ef#64,
  0x3ffc3fe5c37eda3f#64, 0x554955921caac755#64, 0xa2b2a2791059dba2#64, 0xea8fea0365c9e9ea#64,
  0x6589650fecca6a65#64, 0xbad2bab9686903ba#64, 0x2fbc2f65935e4a2f#64, 0xc027c04ee79d8ec0#64,
  0xde5fdebe81a160de#64, 0x1c701ce06c38fc1c#64, 0xfdd3fdbb2ee746fd#64, 0x4d294d52649a1f4d#64,
  0x927292e4e0397692#64, 0x75c9758fbceafa75#64, 0x061806301e0c3606#64, 0x8a128a249809ae8a#64,
  0xb2f2b2f940794bb2#64, 0xe6bfe66359d185e6#64, 0x0e380e70361c7e0e#64, 0x1f7c1ff8633ee71f#64,
  0x62956237f7c45562#64, 0xd477d4eea3b53ad4#64, 0xa89aa829324d81a8#64, 0x966296c4f4315296#64,
  0xf9c3f99b3aef62f9#64, 0xc533c566f697a3c5#64, 0x25942535b14a1025#64, 0x597959f220b2ab59#64,
  0x842a8454ae15d084#64, 0x72d572b7a7e4c572#64, 0x39e439d5dd72ec39#64, 0x4c2d4c5a6198164c#64,
  0x5e655eca3bbc945e#64, 0x78fd78e785f09f78#64, 0x38e038ddd870e538#64, 0x8c0a8c148605988c#64,
  0xd163d1c6b2bf17d1#64, 0xa5aea5410b57e4a5#64, 0xe2afe2434dd9a1e2#64, 0x6199612ff8c24e61#64,
  0xb3f6b3f1457b42b3#64, 0x21842115a5423421#64, 0x9c4a9c94d625089c#64, 0x1e781ef0663cee1e#64,
  0x4311432252866143#64, 0xc73bc776fc93b1c7#64, 0xfcd7fcb32be54ffc#64, 0x0410042014082404#64,
  0x515951b208a2e351#64, 0x995e99bcc72f2599#64, 0x6da96d4fc4da226d#64, 0x0d340d68391a650d#64,
  0xfacffa8335e979fa#64, 0xdf5bdfb684a369df#64, 0x7ee57ed79bfca97e#64, 0x2490243db4481924#64,
  0x3bec3bc5d776fe3b#64, 0xab96ab313d4b9aab#64, 0xce1fce3ed181f0ce#64, 0x1144118855229911#64,
  0x8f068f0c8903838f#64, 0x4e254e4a6b9c044e#64, 0xb7e6b7d1517366b7#64, 0xeb8beb0b60cbe0eb#64,
  0x3cf03cfdcc78c13c#64, 0x813e817cbf1ffd81#64, 0x946a94d4fe354094#64, 0xf7fbf7eb0cf31cf7#64,
  0xb9deb9a1676f18b9#64, 0x134c13985f268b13#64, 0x2cb02c7d9c58512c#64, 0xd36bd3d6b8bb05d3#64,
  0xe7bbe76b5cd38ce7#64, 0x6ea56e57cbdc396e#64, 0xc437c46ef395aac4#64, 0x030c03180f061b03#64,
  0x5645568a13acdc56#64, 0x440d441a49885e44#64, 0x7fe17fdf9efea07f#64, 0xa99ea921374f88a9#64,
  0x2aa82a4d8254672a#64, 0xbbd6bbb16d6b0abb#64, 0xc123c146e29f87c1#64, 0x535153a202a6f153#64,
  0xdc57dcae8ba572dc#64, 0x0b2c0b582716530b#64, 0x9d4e9d9cd327019d#64, 0x6cad6c47c1d82b6c#64,
  0x31c43195f562a431#64, 0x74cd7487b9e8f374#64, 0xf6fff6e309f115f6#64, 0x4605460a438c4c46#64,
  0xac8aac092645a5ac#64, 0x891e893c970fb589#64, 0x145014a04428b414#64, 0xe1a3e15b42dfbae1#64,
  0x165816b04e2ca616#64, 0x3ae83acdd274f73a#64, 0x69b9696fd0d20669#64, 0x092409482d124109#64,
  0x70dd70a7ade0d770#64, 0xb6e2b6d954716fb6#64, 0xd067d0ceb7bd1ed0#64, 0xed93ed3b7ec7d6ed#64,
  0xcc17cc2edb85e2cc#64, 0x4215422a57846842#64, 0x985a98b4c22d2c98#64, 0xa4aaa4490e55eda4#64,
  0x28a0285d88507528#64, 0x5c6d5cda31b8865c#64, 0xf8c7f8933fed6bf8#64, 0x86228644a411c286#64]

/-- `kryptos_whirlpool_RC` (src/kryptos_whirlpool.c:570-573). -/
def RC : List W64 := [
  0x1823c6e887b8014f#64, 0x36a6d2f5796f9152#64, 0x60bc9b8ea30c7b35#64, 0x1de0d7c22e4bfe57#64,
  0x157737e59ff04ada#64, 0x58c9290ab1a06b85#64, 0xbd5d10f4cb3e0567#64, 0xe427418ba77d95d8#64,
  0xfbee7c66dd17479e#64, 0xca2dbf07ad5a8333#64]

/-- `kryptos_whirlpool_block_index_decision_table` (src/kryptos_whirlpool.c:575-584). -/
def tab : List Nat := [
  0, 0, 0, 0, 0, 0, 0, 0, 1, 1, 1, 1, 1, 1, 1, 1, 2, 2, 2, 2, 2, 2, 2, 2, 3, 3, 3, 3, 3, 3, 3, 3,
  4, 4, 4, 4, 4, 4, 4, 4, 5, 5, 5, 5, 5, 5, 5, 5, 6, 6, 6, 6, 6, 6, 6, 6, 7, 7, 7, 7, 7, 7, 7, 7]

/-- `kryptos_whirlpool_C` (src/kryptos_whirlpool.c:28); the table is passed itself instead of its number. -/
def look (c : List W64) (k b : Nat) (K : List W64) : Out W64 := do
  let w ← rd K k
  rd c ((w >>> b) &&& 0xFF#64).toNat

/-- A sum of eight table entries, as in the assignments of `L`. -/
def sum8 (K : List W64) (k0 k1 k2 k3 k4 k5 k6 k7 : Nat) : Out W64 := do
  let x0 ← look C0 k0 56 K
  let x1 ← look C1 k1 48 K
  let x2 ← look C2 k2 40 K
  let x3 ← look C3 k3 32 K
  let x4 ← look C4 k4 24 K
  let x5 ← look C5 k5 16 K
  let x6 ← look C6 k6 8 K
  let x7 ← look C7 k7 0 K
  return x0 ^^^ x1 ^^^ x2 ^^^ x3 ^^^ x4 ^^^ x5 ^^^ x6 ^^^ x7

/-- The assignments of `L` from `K` (src/kryptos_whirlpool.c:695-765), with the constant of the round. -/
def lk (K : List W64) (rc : W64) : Out (List W64) := do
  let l0 ← sum8 K 0 7 6 5 4 3 2 1
  let l1 ← sum8 K 1 0 7 6 5 4 3 2
  let l2 ← sum8 K 2 1 0 7 6 5 4 3
  let l3 ← sum8 K 3 2 1 0 7 6 5 4
  let l4 ← sum8 K 4 3 2 1 0 7 6 5
  let l5 ← sum8 K 5 4 3 2 1 0 7 6
  let l6 ← sum8 K 6 5 4 3 2 1 0 7
  let l7 ← sum8 K 7 6 5 4 3 2 1 0
  return [l0 ^^^ rc, l1, l2, l3, l4, l5, l6, l7]

/-- The assignments of `L` from `S` (src/kryptos_whirlpool.c:769-839). -/
def lsum (S K : List W64) : Out (List W64) := do
  let l0 ← sum8 S 0 7 6 5 4 3 2 1
  let l1 ← sum8 S 1 0 7 6 5 4 3 2
  let l2 ← sum8 S 2 1 0 7 6 5 4 3
  let l3 ← sum8 S 3 2 1 0 7 6 5 4
  let l4 ← sum8 S 4 3 2 1 0 7 6 5
  let l5 ← sum8 S 5 4 3 2 1 0 7 6
  let l6 ← sum8 S 6 5 4 3 2 1 0 7
  let l7 ← sum8 S 7 6 5 4 3 2 1 0
  let k0 ← rd K 0
  let k1 ← rd K 1
  let k2 ← rd K 2
  let k3 ← rd K 3
  let k4 ← rd K 4
  let k5 ← rd K 5
  let k6 ← rd K 6
  let k7 ← rd K 7
  return [l0 ^^^ k0, l1 ^^^ k1, l2 ^^^ k2, l3 ^^^ k3, l4 ^^^ k4, l5 ^^^ k5, l6 ^^^ k6, l7 ^^^ k7]

/-- The body of the loop over the rounds (src/kryptos_whirlpool.c:694-841), on `S` and `K`. -/
def round (st : List W64 × List W64) (r : Nat) : Out (List W64 × List W64) := do
  let rc ← rd RC r
  let K ← lk st.2 rc
  let S ← lsum st.1 K
  return (S, K)

/-- The sum of two arrays of eight words (src/kryptos_whirlpool.c:685-692 and, twice, 843-850). -/
def xor8 (x y : List W64) : Out (List W64) :=
  if x.length = 8 ∧ y.length = 8 then .ok (List.zipWith (· ^^^ ·) x y) else .ub

/-- The computation of `kryptos_whirlpool_do_block` on a full block (src/kryptos_whirlpool.c:676-850). -/
def compress (H : Eight 64) (block : List W64) : Out (Eight 64) := do
  let S ← xor8 block H.words
  let st ← (List.range 10).foldlM round (S, H.words)
  let D ← xor8 st.1 block
  let R ← xor8 H.words D
  match R with
  | [a, b, c, d, e, f, g, h] => return ⟨a, b, c, d, e, f, g, h⟩
  | _ => .ub

/-- `kryptos_whirlpool_init` (src/kryptos_whirlpool.c:659-663). -/
def init : Eight 64 := ⟨0, 0, 0, 0, 0, 0, 0, 0⟩

/-- The instantiation of the message processor (src/kryptos_whirlpool.c:605-610) with the padding token and the offset of the length
of `kryptos_whirlpool_do_block` (669-674). -/
def alg : Alg 64 (Eight 64) := ⟨8, 8, tab, 32, 0x80#8, putLen64, .ok, init, compress⟩

/-- `kryptos_whirlpool_hash` (src/kryptos_whirlpool.c:616-657): raw output (630-638) or hexadecimal (648-656). -/
def hash (stale : List W64) : HashFn := hashOf alg (fun K => K.words.flatMap (cpyBe 8)) (fun K => K.words.flatMap (toHex 8)) stale

end Kryptos.Whirlpool
