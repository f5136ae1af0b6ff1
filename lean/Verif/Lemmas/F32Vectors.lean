import Verif.Model.F32Sqrt
/-
  Written by tools/gen_f32_vectors.py: operations on binary32 as hardware performs them.
-/
namespace Verif
open Model

/-- Operands, product, quotient, sum, difference, `<=`, `>`. -/
def f32Vectors : List (BitVec 32 × BitVec 32 × BitVec 32 × BitVec 32 × BitVec 32 × BitVec 32 × Bool × Bool) := [
  (0xbc7fd161#32, 0x3c7fd161#32, 0xb97fa2ca#32, 0xbf800000#32, 0x00000000#32, 0xbcffd161#32, true, false),
  (0xfbfcb6c7#32, 0x6b9913cf#32, 0xff800000#32, 0xcfd35060#32, 0xfbfcb6c7#32, 0xfbfcb6c7#32, true, false),
  (0xb77a477a#32, 0x5f3b05aa#32, 0xd736d7c0#32, 0x97ab4b39#32, 0x5f3b05aa#32, 0xdf3b05aa#32, true, false),
  (0x82c8e3f6#32, 0xff4d1a98#32, 0x42a0f36a#32, 0x00000000#32, 0xff4d1a98#32, 0x7f4d1a98#32, false, true),
  (0xa7289a7f#32, 0x3f800001#32, 0xa7289a80#32, 0xa7289a7e#32, 0x3f800001#32, 0xbf800001#32, true, false),
  (0x4305fd0a#32, 0xc305fd0a#32, 0xc68c41cd#32, 0xbf800000#32, 0x00000000#32, 0x4385fd0a#32, false, true),
  (0x5916ea5a#32, 0x3f800001#32, 0x5916ea5b#32, 0x5916ea59#32, 0x5916ea5a#32, 0x5916ea5a#32, false, true),
  (0xbd8965fd#32, 0x40c9c3c1#32, 0xbed89448#32, 0xbc2e54ee#32, 0x40c79e29#32, 0xc0cbe959#32, true, false),
  (0x1a3cbed9#32, 0xbf7a1ee4#32, 0x9a386926#32, 0x9a412ea1#32, 0xbf7a1ee4#32, 0x3f7a1ee4#32, false, true),
  (0xbf1e807c#32, 0x802b9d5c#32, 0x001b0103#32, 0x7ee895c2#32, 0xbf1e807c#32, 0xbf1e807c#32, true, false),
  (0x8070261a#32, 0x0070261b#32, 0x80000000#32, 0xbf7ffffe#32, 0x00000001#32, 0x80e04c35#32, true, false),
  (0x7f800000#32, 0x4268a011#32, 0x7f800000#32, 0x7f800000#32, 0x7f800000#32, 0x7f800000#32, false, true),
  (0x1ff63ccf#32, 0x208a82d2#32, 0x01053a9c#32, 0x3ee38d36#32, 0x20c81206#32, 0xa019e73c#32, true, false),
  (0x4b7fffff#32, 0xdf38eabe#32, 0xeb38eabd#32, 0xabb13430#32, 0xdf38eabe#32, 0x5f38eabe#32, false, true),
  (0x4b7fffff#32, 0x5f606f83#32, 0x6b606f82#32, 0x2b920075#32, 0x5f606f83#32, 0xdf606f83#32, true, false),
  (0xc1f41f7a#32, 0x41f41f79#32, 0xc468cc03#32, 0xbf800001#32, 0xb6000000#32, 0xc2741f7a#32, true, false),
  (0x3f033afd#32, 0x007fffff#32, 0x00419d7e#32, 0x7e033afe#32, 0x3f033afd#32, 0x3f033afd#32, false, true),
  (0xc06ce42d#32, 0x00800000#32, 0x816ce42d#32, 0xff6ce42d#32, 0xc06ce42d#32, 0xc06ce42d#32, true, false),
  (0xcc5ec79d#32, 0x4b800000#32, 0xd85ec79d#32, 0xc05ec79d#32, 0xcc1ec79d#32, 0xcc8f63ce#32, true, false),
  (0x003dde3f#32, 0x00df070b#32, 0x00000000#32, 0x3e8e078f#32, 0x010e72a5#32, 0x80a128cc#32, true, false),
  (0xdafd63a1#32, 0x5afd63a2#32, 0xf67ace14#32, 0xbf7fffff#32, 0x4f000000#32, 0xdb7d63a2#32, true, false),
  (0x1e2c2070#32, 0x007fffff#32, 0x00000000#32, 0x5d2c2071#32, 0x1e2c2070#32, 0x1e2c2070#32, false, true),
  (0x7d479bd3#32, 0xbc25c59a#32, 0xfa014182#32, 0xff800000#32, 0x7d479bd3#32, 0x7d479bd3#32, false, true),
  (0xa0b46405#32, 0xcbb2a767#32, 0x2cfbc703#32, 0x14813e8e#32, 0xcbb2a767#32, 0x4bb2a767#32, false, true),
  (0xbd861363#32, 0x7272882d#32, 0xf07e0b4b#32, 0x8a8d8567#32, 0x7272882d#32, 0xf272882d#32, true, false),
  (0x4380bc51#32, 0xc380bc53#32, 0xc78179b9#32, 0xbf7ffffc#32, 0xb8800000#32, 0x4400bc52#32, false, true),
  (0xc0cf8843#32, 0x7f800000#32, 0xff800000#32, 0x80000000#32, 0x7f800000#32, 0xff800000#32, true, false),
  (0x7f800000#32, 0x42e7a1fa#32, 0x7f800000#32, 0x7f800000#32, 0x7f800000#32, 0x7f800000#32, false, true),
  (0x3fb9c207#32, 0x800af677#32, 0x800fe8d6#32, 0xff800000#32, 0x3fb9c207#32, 0x3fb9c207#32, false, true),
  (0x000a6606#32, 0x3f716b0d#32, 0x0009ce65#32, 0x000b06d0#32, 0x3f716b0d#32, 0xbf716b0d#32, true, false),
  (0x80000001#32, 0x00000000#32, 0x80000000#32, 0xff800000#32, 0x80000001#32, 0x80000001#32, true, false),
  (0x3d775ac3#32, 0x887c7ab4#32, 0x8673f3e7#32, 0xf47acdc4#32, 0x3d775ac3#32, 0x3d775ac3#32, false, true),
  (0x41ea5df2#32, 0x5f92ad16#32, 0x6206480a#32, 0x21cc8678#32, 0x5f92ad16#32, 0xdf92ad16#32, true, false),
  (0xc311e9e5#32, 0x9fd325a4#32, 0x2370b278#32, 0x62b0e8ce#32, 0xc311e9e5#32, 0xc311e9e5#32, true, false),
  (0x41cab981#32, 0x00800000#32, 0x02cab981#32, 0x7f800000#32, 0x41cab981#32, 0x41cab981#32, false, true),
  (0x4b800000#32, 0xcb800002#32, 0xd7800002#32, 0xbf7ffffc#32, 0xc0800000#32, 0x4c000001#32, false, true),
  (0x1f88ad50#32, 0x28400730#32, 0x084d0ba5#32, 0x36b63598#32, 0x28400774#32, 0xa84006ec#32, true, false),
  (0x7f7fffff#32, 0x42344828#32, 0x7f800000#32, 0x7cb5c283#32, 0x7f7fffff#32, 0x7f7fffff#32, false, true),
  (0xbf800000#32, 0x76ac1eb0#32, 0xf6ac1eb0#32, 0x883e6103#32, 0x76ac1eb0#32, 0xf6ac1eb0#32, true, false),
  (0x73ddade8#32, 0x00516b18#32, 0x348d0186#32, 0x7f800000#32, 0x73ddade8#32, 0x73ddade8#32, false, true),
  (0x806b0cdf#32, 0x006b0cdf#32, 0x80000000#32, 0xbf800000#32, 0x00000000#32, 0x80d619be#32, true, false),
  (0xc2507466#32, 0x13832357#32, 0x965590ae#32, 0xee4b776d#32, 0xc2507466#32, 0xc2507466#32, true, false),
  (0xbc2a2b08#32, 0x7c535c8f#32, 0xf90c7efe#32, 0x8019c36a#32, 0x7c535c8f#32, 0xfc535c8f#32, true, false),
  (0x3df85c69#32, 0x4cc47721#32, 0x4b3e9a53#32, 0x30a1cf8d#32, 0x4cc47721#32, 0xccc47721#32, true, false),
  (0xbf800000#32, 0x41cd3188#32, 0xc1cd3188#32, 0xbd1fb174#32, 0x41c53188#32, 0xc1d53188#32, true, false),
  (0xdf201d54#32, 0x5f201d57#32, 0xfec8495c#32, 0xbf7ffffb#32, 0x54400000#32, 0xdfa01d56#32, true, false),
  (0x20671fe5#32, 0x3fceace8#32, 0x20ba97c5#32, 0x200f245f#32, 0x3fceace8#32, 0xbfceace8#32, true, false),
  (0x007fffff#32, 0xff7fffff#32, 0xc07ffffd#32, 0x80000000#32, 0xff7fffff#32, 0x7f7fffff#32, false, true),
  (0x43c6ceef#32, 0x3f7fffff#32, 0x43c6ceee#32, 0x43c6cef0#32, 0x43c74eef#32, 0x43c64eef#32, false, true),
  (0x5d6f3638#32, 0xdfe64058#32, 0xfdd726d6#32, 0xbd04fb33#32, 0xdfdec6a6#32, 0x5fedba0a#32, false, true),
  (0xc1ba14fb#32, 0x41ba14f9#32, 0xc407427d#32, 0xbf800001#32, 0xb6800000#32, 0xc23a14fa#32, true, false),
  (0x7fc00000#32, 0x63a9a40a#32, 0x7fc00000#32, 0x7fc00000#32, 0x7fc00000#32, 0x7fc00000#32, false, false),
  (0x41161261#32, 0x3f800000#32, 0x41161261#32, 0x41161261#32, 0x41261261#32, 0x41061261#32, false, true),
  (0x4b800000#32, 0x6f55350b#32, 0x7b55350b#32, 0x1b99b0dd#32, 0x6f55350b#32, 0xef55350b#32, true, false),
  (0x5cbeb7fc#32, 0xc3c74f3b#32, 0xe1147c0c#32, 0xd874f736#32, 0x5cbeb7fc#32, 0x5cbeb7fc#32, false, true),
  (0x0094041f#32, 0x8094041f#32, 0x80000000#32, 0xbf800000#32, 0x00000000#32, 0x0114041f#32, false, true),
  (0xa0016209#32, 0x5fbca357#32, 0xc03ead18#32, 0x802be573#32, 0x5fbca357#32, 0xdfbca357#32, true, false),
  (0x7f288c0c#32, 0x20d121ef#32, 0x6089b0ad#32, 0x7f800000#32, 0x7f288c0c#32, 0x7f288c0c#32, false, true),
  (0x3e6b44d4#32, 0x20224564#32, 0x1f152154#32, 0x5db994b8#32, 0x3e6b44d4#32, 0x3e6b44d4#32, false, true),
  (0x20debeeb#32, 0x7e9a6968#32, 0x60065a90#32, 0x00000000#32, 0x7e9a6968#32, 0xfe9a6968#32, true, false),
  (0x1d2008f3#32, 0x9d2008f0#32, 0x80000c81#32, 0xbf800002#32, 0x12400000#32, 0x1da008f2#32, false, true),
  (0xbc1c02e9#32, 0xff4329db#32, 0x7beddf73#32, 0x00006652#32, 0xff4329db#32, 0x7f4329db#32, false, true),
  (0x1fcfc388#32, 0x43a20873#32, 0x24038098#32, 0x1ba42028#32, 0x43a20873#32, 0xc3a20873#32, true, false),
  (0x5f931420#32, 0x40c267fd#32, 0x60df61fd#32, 0x5e41ad76#32, 0x5f931420#32, 0x5f931420#32, false, true),
  (0x47fccc53#32, 0xc0507761#32, 0xc8cddbe6#32, 0xc71b3858#32, 0x47fccab2#32, 0x47fccdf4#32, false, true),
  (0x007fffff#32, 0x807fffff#32, 0x80000000#32, 0xbf800000#32, 0x00000000#32, 0x00fffffe#32, false, true),
  (0x00cbb160#32, 0x9fe0d1d0#32, 0x80000000#32, 0xa067f176#32, 0x9fe0d1d0#32, 0x1fe0d1d0#32, false, true),
  (0xaa613685#32, 0x0139e91b#32, 0x80000000#32, 0xe89b0f51#32, 0xaa613685#32, 0xaa613685#32, true, false),
  (0x80d05ce7#32, 0xff0fbe1e#32, 0x4069fd45#32, 0x00000000#32, 0xff0fbe1e#32, 0x7f0fbe1e#32, false, true),
  (0xa0f4aebf#32, 0x1f92c294#32, 0x810c45a3#32, 0xc0d567c0#32, 0xa0cffe1a#32, 0xa10cafb2#32, true, false),
  (0x8050fd6f#32, 0x0050fd6e#32, 0x80000000#32, 0xbf800002#32, 0x80000001#32, 0x80a1fadd#32, true, false),
  (0x1fee28a3#32, 0x80000000#32, 0x80000000#32, 0xff800000#32, 0x1fee28a3#32, 0x1fee28a3#32, false, true),
  (0x3ee3578e#32, 0x20d4b3a0#32, 0x203ce406#32, 0x5d88cf70#32, 0x3ee3578e#32, 0x3ee3578e#32, false, true),
  (0x00000000#32, 0x3d982924#32, 0x00000000#32, 0x00000000#32, 0x3d982924#32, 0xbd982924#32, true, false),
  (0xff7fffff#32, 0xff800000#32, 0x7f800000#32, 0x00000000#32, 0xff800000#32, 0x7f800000#32, false, true),
  (0x00000000#32, 0x80000000#32, 0x80000000#32, 0x7fc00000#32, 0x00000000#32, 0x00000000#32, true, false),
  (0x32623ddc#32, 0xf8a73dba#32, 0xeb93cce8#32, 0x8000015a#32, 0xf8a73dba#32, 0x78a73dba#32, false, true),
  (0xbf0afccd#32, 0x201ff7d3#32, 0x9fadb320#32, 0xde5e6ca6#32, 0xbf0afccd#32, 0xbf0afccd#32, true, false),
  (0xbf800000#32, 0xdf870616#32, 0x5f870616#32, 0x1f72aee6#32, 0xdf870616#32, 0x5f870616#32, false, true),
  (0x7f7fffff#32, 0x813091d7#32, 0xc13091d6#32, 0xff800000#32, 0x7f7fffff#32, 0x7f7fffff#32, false, true),
  (0xc07d567c#32, 0x407d567c#32, 0xc17ab40e#32, 0xbf800000#32, 0x00000000#32, 0xc0fd567c#32, true, false),
  (0xdfedbc15#32, 0x7fc00000#32, 0x7fc00000#32, 0x7fc00000#32, 0x7fc00000#32, 0x7fc00000#32, false, false),
  (0x8a0df075#32, 0x7f800000#32, 0xff800000#32, 0x80000000#32, 0x7f800000#32, 0xff800000#32, true, false),
  (0x3ee9a4b8#32, 0x7f4ad4a7#32, 0x7eb91e0e#32, 0x00126e3d#32, 0x7f4ad4a7#32, 0xff4ad4a7#32, true, false),
  (0x80000001#32, 0xd90c326b#32, 0x0e8c326b#32, 0x00000000#32, 0xd90c326b#32, 0x590c326b#32, false, true),
  (0xff7fffff#32, 0x7f7ffffd#32, 0xff800000#32, 0xbf800001#32, 0xf4000000#32, 0xff800000#32, true, false),
  (0x5f1c81bb#32, 0xbf800000#32, 0xdf1c81bb#32, 0xdf1c81bb#32, 0x5f1c81bb#32, 0x5f1c81bb#32, false, true),
  (0xff3223ef#32, 0xc043a7fe#32, 0x7f800000#32, 0x7e6914fb#32, 0xff3223ef#32, 0xff3223ef#32, true, false),
  (0xbf800000#32, 0x1fce0830#32, 0x9fce0830#32, 0xdf1f0b14#32, 0xbf800000#32, 0xbf800000#32, true, false),
  (0x3f7fffff#32, 0xbd2eec96#32, 0xbd2eec95#32, 0xc1bb53ae#32, 0x3f751136#32, 0x3f857764#32, false, true),
  (0x1f34c704#32, 0x9f34c705#32, 0x800ff50f#32, 0xbf7fffff#32, 0x93800000#32, 0x1fb4c704#32, false, true),
  (0xc09e5c1a#32, 0xcadd208f#32, 0x4c08c9a6#32, 0x35375578#32, 0xcadd2099#32, 0x4add2085#32, false, true),
  (0xdf457967#32, 0x000f48cb#32, 0x9ebca43c#32, 0xff800000#32, 0xdf457967#32, 0xdf457967#32, true, false),
  (0xc1517d6a#32, 0x80ddf27e#32, 0x02b59fb4#32, 0x7f800000#32, 0xc1517d6a#32, 0xc1517d6a#32, true, false),
  (0x00000000#32, 0xcd585e77#32, 0x80000000#32, 0x80000000#32, 0xcd585e77#32, 0x4d585e77#32, false, true),
  (0x3eea2797#32, 0xbeea2796#32, 0xbe562c65#32, 0xbf800001#32, 0x33000000#32, 0x3f6a2796#32, false, true),
  (0x3f579102#32, 0x20daae22#32, 0x20b8241d#32, 0x5dfc5ad7#32, 0x3f579102#32, 0x3f579102#32, false, true),
  (0x45318c04#32, 0x407bfeeb#32, 0x462ec514#32, 0x44345e40#32, 0x4531cb04#32, 0x45314d04#32, false, true),
  (0xc2352548#32, 0x7f800000#32, 0xff800000#32, 0x80000000#32, 0x7f800000#32, 0xff800000#32, true, false),
  (0x813d9456#32, 0xc0f35075#32, 0x02b42f63#32, 0x0031ddab#32, 0xc0f35075#32, 0x40f35075#32, false, true),
  (0xc47093be#32, 0x447093be#32, 0xc962155a#32, 0xbf800000#32, 0x00000000#32, 0xc4f093be#32, true, false),
  (0xc2cfd696#32, 0x40b93e51#32, 0xc41664aa#32, 0xc18f9cd5#32, 0xc2c442b1#32, 0xc2db6a7b#32, true, false),
  (0x7f7fffff#32, 0xc0ef7f8d#32, 0xff800000#32, 0xfe08d1c2#32, 0x7f7fffff#32, 0x7f7fffff#32, false, true),
  (0xff7fffff#32, 0xb6fa6e09#32, 0x76fa6e08#32, 0x7f800000#32, 0xff7fffff#32, 0xff7fffff#32, true, false),
  (0x1fcaa78e#32, 0xc0c8af63#32, 0xa11eddbe#32, 0x9e814191#32, 0xc0c8af63#32, 0x40c8af63#32, false, true),
  (0x3c7b4205#32, 0xbc7b4205#32, 0xb9769a87#32, 0xbf800000#32, 0x00000000#32, 0x3cfb4205#32, false, true),
  (0x3f800000#32, 0xfd3683c3#32, 0xfd3683c3#32, 0x81b38946#32, 0xfd3683c3#32, 0x7d3683c3#32, false, true),
  (0x4b800000#32, 0xbfc3464f#32, 0xcbc3464f#32, 0xcb27ce00#32, 0x4b7ffffe#32, 0x4b800001#32, false, true),
  (0x007fffff#32, 0xbeb89229#32, 0x802e248a#32, 0x8131893b#32, 0xbeb89229#32, 0x3eb89229#32, false, true),
  (0x5f26937c#32, 0xbdf01696#32, 0xdd9c38f7#32, 0xe0b19dab#32, 0x5f26937c#32, 0x5f26937c#32, false, true),
  (0x22e5bab1#32, 0xa2e5bab1#32, 0x864e2789#32, 0xbf800000#32, 0x00000000#32, 0x2365bab1#32, false, true),
  (0xc11e723f#32, 0x00000000#32, 0x80000000#32, 0xff800000#32, 0xc11e723f#32, 0xc11e723f#32, true, false),
  (0x1222ead0#32, 0xdcbd42cc#32, 0xaf70e3bc#32, 0x80000001#32, 0xdcbd42cc#32, 0x5cbd42cc#32, false, true),
  (0x7fc00000#32, 0xfa0a02e3#32, 0x7fc00000#32, 0x7fc00000#32, 0x7fc00000#32, 0x7fc00000#32, false, false),
  (0x00000000#32, 0x176249e0#32, 0x00000000#32, 0x00000000#32, 0x176249e0#32, 0x976249e0#32, true, false),
  (0x00599df6#32, 0x80599df5#32, 0x80000000#32, 0xbf800001#32, 0x00000001#32, 0x00b33beb#32, false, true),
  (0xdf225ccc#32, 0x3f800001#32, 0xdf225ccd#32, 0xdf225ccb#32, 0xdf225ccc#32, 0xdf225ccc#32, true, false),
  (0xbf800000#32, 0x4360c45b#32, 0xc360c45b#32, 0xbb91c959#32, 0x435fc45b#32, 0xc361c45b#32, true, false),
  (0x80000001#32, 0x3ceca048#32, 0x80000000#32, 0x80000023#32, 0x3ceca048#32, 0xbceca048#32, true, false),
  (0x40482712#32, 0x52003c29#32, 0x52c88524#32, 0x2dc7c92c#32, 0x52003c29#32, 0xd2003c29#32, true, false),
  (0xdf13614f#32, 0x5f13614d#32, 0xfea9b1c9#32, 0xbf800002#32, 0xd4000000#32, 0xdf93614e#32, true, false),
  (0x5a83cf80#32, 0xbd58e268#32, 0xd85f574d#32, 0xdc9b9538#32, 0x5a83cf80#32, 0x5a83cf80#32, false, true),
  (0xbf800000#32, 0xbe61b13d#32, 0x3e61b13d#32, 0x40913055#32, 0xbf9c3628#32, 0xbf4793b1#32, true, false),
  (0x4b800000#32, 0x80000000#32, 0x80000000#32, 0xff800000#32, 0x4b800000#32, 0x4b800000#32, false, true),
  (0xc28c84e7#32, 0x434be693#32, 0xc65fd7e7#32, 0xbeb06c74#32, 0x4305a420#32, 0xc3891483#32, true, false),
  (0xbdc2f7f1#32, 0x3dc2f7f0#32, 0xbc147cb9#32, 0xbf800001#32, 0xb2000000#32, 0xbe42f7f0#32, true, false),
  (0x43b8cf7c#32, 0xbee4c46d#32, 0xc3252698#32, 0xc44ecf7f#32, 0x43b8964b#32, 0x43b908ad#32, false, true),
  (0x4b800000#32, 0xbf800000#32, 0xcb800000#32, 0xcb800000#32, 0x4b7fffff#32, 0x4b800000#32, false, true),
  (0xf4322cef#32, 0x4b7fffff#32, 0xff800000#32, 0xe8322cf0#32, 0xf4322cef#32, 0xf4322cef#32, true, false),
  (0xc25f3d19#32, 0x3cad33ca#32, 0xbf970973#32, 0xc524fa56#32, 0xc25f2773#32, 0xc25f52bf#32, true, false),
  (0x5f387327#32, 0xdf387326#32, 0xff04e5bb#32, 0xbf800001#32, 0x53800000#32, 0x5fb87326#32, false, true),
  (0x00000001#32, 0x42e81a91#32, 0x00000074#32, 0x00000000#32, 0x42e81a91#32, 0xc2e81a91#32, true, false),
  (0x3e50d73d#32, 0xb555725e#32, 0xb42e2062#32, 0xc87a79cc#32, 0x3e50d708#32, 0x3e50d772#32, false, true),
  (0x0da850c8#32, 0x80ccc48a#32, 0x80000000#32, 0xcc526d77#32, 0x0da850c8#32, 0x0da850c8#32, false, true),
  (0x00800000#32, 0x9f1fe213#32, 0x80000000#32, 0xa0ccf322#32, 0x9f1fe213#32, 0x1f1fe213#32, false, true),
  (0x14d00fc6#32, 0x94d00fc5#32, 0x80000000#32, 0xbf800001#32, 0x09000000#32, 0x15500fc6#32, false, true),
  (0xdf92f929#32, 0x813dd3f9#32, 0x2159f74b#32, 0x7f800000#32, 0xdf92f929#32, 0xdf92f929#32, true, false),
  (0xb5d4271c#32, 0x00800000#32, 0x8000000d#32, 0xf4d4271c#32, 0xb5d4271c#32, 0xb5d4271c#32, true, false),
  (0xc1dbbbdc#32, 0x0f29c591#32, 0x9191b898#32, 0xf225ab49#32, 0xc1dbbbdc#32, 0xc1dbbbdc#32, true, false),
  (0x7d29e226#32, 0x00000000#32, 0x00000000#32, 0x7f800000#32, 0x7d29e226#32, 0x7d29e226#32, false, true),
  (0xbf800000#32, 0x3f800001#32, 0xbf800001#32, 0xbf7ffffe#32, 0x34000000#32, 0xc0000000#32, true, false),
  (0xff7fffff#32, 0x00000000#32, 0x80000000#32, 0xff800000#32, 0xff7fffff#32, 0xff7fffff#32, true, false),
  (0x80000000#32, 0xc3450f72#32, 0x00000000#32, 0x00000000#32, 0xc3450f72#32, 0x43450f72#32, false, true),
  (0x1ffcc520#32, 0x42211800#32, 0x229f0fac#32, 0x1d48d7d3#32, 0x42211800#32, 0xc2211800#32, true, false),
  (0xdfc9ddd4#32, 0x5f76a2f3#32, 0xff800000#32, 0xbfd187c3#32, 0xdf1d18b5#32, 0xe02297a7#32, true, false),
  (0x20ca5765#32, 0xa0ca5767#32, 0x821fee0b#32, 0xbf7ffffd#32, 0x95800000#32, 0x214a5766#32, false, true),
  (0x3d0605bc#32, 0x5fab62a6#32, 0x5d3372f3#32, 0x1cc830cb#32, 0x5fab62a6#32, 0xdfab62a6#32, true, false),
  (0xdff6c7e5#32, 0x3f800001#32, 0xdff6c7e7#32, 0xdff6c7e3#32, 0xdff6c7e5#32, 0xdff6c7e5#32, true, false),
  (0x7f4be632#32, 0x01112fe4#32, 0x40e7470e#32, 0x7f800000#32, 0x7f4be632#32, 0x7f4be632#32, false, true),
  (0x5f9b3332#32, 0x3d5d97fc#32, 0x5d865756#32, 0x61b34c29#32, 0x5f9b3332#32, 0x5f9b3332#32, false, true),
  (0xa06fe388#32, 0x206fe389#32, 0x8160caa3#32, 0xbf7fffff#32, 0x14800000#32, 0xa0efe388#32, true, false),
  (0x80000001#32, 0xbf800000#32, 0x00000001#32, 0x00000001#32, 0xbf800000#32, 0x3f800000#32, false, true),
  (0x4188addc#32, 0x80fc6018#32, 0x8306be73#32, 0xff800000#32, 0x4188addc#32, 0x4188addc#32, false, true),
  (0x3f7fffff#32, 0x007fffff#32, 0x007fffff#32, 0x7e800001#32, 0x3f7fffff#32, 0x3f7fffff#32, false, true),
  (0xba429ab0#32, 0x203aa6d4#32, 0x9b0de335#32, 0xd9857421#32, 0xba429ab0#32, 0xba429ab0#32, true, false),
  (0x20bee619#32, 0xa0bee619#32, 0x820e5a5c#32, 0xbf800000#32, 0x00000000#32, 0x213ee619#32, false, true),
  (0x77eb816c#32, 0xdf7a361e#32, 0xff800000#32, 0xd7f0f436#32, 0x77eb816c#32, 0x77eb816c#32, false, true),
  (0xff800000#32, 0x3f7fffff#32, 0xff800000#32, 0xff800000#32, 0xff800000#32, 0xff800000#32, true, false),
  (0x00000000#32, 0x3c111017#32, 0x00000000#32, 0x00000000#32, 0x3c111017#32, 0xbc111017#32, true, false),
  (0x007791c6#32, 0x05bdecdf#32, 0x00000000#32, 0x3a212ade#32, 0x05be0ac3#32, 0x85bdcefb#32, true, false),
  (0x1f93f140#32, 0x9f93f140#32, 0x802abf79#32, 0xbf800000#32, 0x00000000#32, 0x2013f140#32, false, true),
  (0x195becdb#32, 0x1e50c64d#32, 0x0000005a#32, 0x3a86d622#32, 0x1e50fd48#32, 0x9e508f52#32, true, false),
  (0x3db75a6b#32, 0xfc6ef41e#32, 0xfaab24e7#32, 0x80c46ee6#32, 0xfc6ef41e#32, 0x7c6ef41e#32, false, true),
  (0x3f800000#32, 0x7f7fffff#32, 0x7f7fffff#32, 0x00200000#32, 0x7f7fffff#32, 0xff7fffff#32, true, false),
  (0xff1f3bf5#32, 0x08827f6f#32, 0xc822576c#32, 0xff800000#32, 0xff1f3bf5#32, 0xff1f3bf5#32, true, false),
  (0x41d460a1#32, 0xc1d460a1#32, 0xc430302f#32, 0xbf800000#32, 0x00000000#32, 0x425460a1#32, false, true),
  (0xbe285a41#32, 0xc2f5fc7f#32, 0x41a1c46d#32, 0x3aaf34b6#32, 0xc2f650ac#32, 0x42f5a852#32, false, true),
  (0x403a91eb#32, 0x3f800000#32, 0x403a91eb#32, 0x403a91eb#32, 0x407a91eb#32, 0x3ff523d6#32, false, true),
  (0x80000000#32, 0xa0cbff6c#32, 0x00000000#32, 0x00000000#32, 0xa0cbff6c#32, 0x20cbff6c#32, false, true),
  (0x4ed8b1dd#32, 0x80b9061e#32, 0x901c9db6#32, 0xff800000#32, 0x4ed8b1dd#32, 0x4ed8b1dd#32, false, true),
  (0xacfa1f4b#32, 0x2cfa1f49#32, 0x9a746120#32, 0xbf800001#32, 0xa1800000#32, 0xad7a1f4a#32, true, false),
  (0x7f800000#32, 0x407da592#32, 0x7f800000#32, 0x7f800000#32, 0x7f800000#32, 0x7f800000#32, false, true),
  (0x00000000#32, 0xa2d9cf06#32, 0x80000000#32, 0x80000000#32, 0xa2d9cf06#32, 0x22d9cf06#32, false, true),
  (0x007fffff#32, 0x0019df66#32, 0x00000000#32, 0x409e505a#32, 0x0099df65#32, 0x00662099#32, false, true),
  (0xff7fffff#32, 0x41cd0678#32, 0xff800000#32, 0xfd1fd2fe#32, 0xff7fffff#32, 0xff7fffff#32, true, false),
  (0x20985260#32, 0xa0985263#32, 0x81b543dd#32, 0xbf7ffffb#32, 0x95c00000#32, 0x21185262#32, false, true),
  (0x4b800000#32, 0x203fd2d5#32, 0x2c3fd2d5#32, 0x6aaad2da#32, 0x4b800000#32, 0x4b800000#32, false, true),
  (0xb57dfe34#32, 0x7f7fffff#32, 0xf57dfe33#32, 0x80000002#32, 0x7f7fffff#32, 0xff7fffff#32, true, false),
  (0x20c812a5#32, 0xbee87577#32, 0xa035acb3#32, 0xa15c5591#32, 0xbee87577#32, 0x3ee87577#32, false, true),
  (0x3f800000#32, 0x015c4838#32, 0x015c4838#32, 0x7d94c135#32, 0x3f800000#32, 0x3f800000#32, false, true),
  (0x4b7fffff#32, 0xcb7fffff#32, 0xd77ffffe#32, 0xbf800000#32, 0x00000000#32, 0x4bffffff#32, false, true),
  (0x5287a93e#32, 0x5ffa7600#32, 0x7304b9cf#32, 0x320aa94c#32, 0x5ffa7600#32, 0xdffa7600#32, true, false),
  (0x39c987b5#32, 0xe4d21e5c#32, 0xdf256939#32, 0x94758940#32, 0xe4d21e5c#32, 0x64d21e5c#32, false, true),
  (0x7b303dcd#32, 0xff800000#32, 0xff800000#32, 0x80000000#32, 0xff800000#32, 0x7f800000#32, false, true),
  (0x5f2516bc#32, 0x00000001#32, 0x14a516bc#32, 0x7f800000#32, 0x5f2516bc#32, 0x5f2516bc#32, false, true),
  (0x7f800000#32, 0xff800000#32, 0xff800000#32, 0x7fc00000#32, 0x7fc00000#32, 0x7f800000#32, false, true),
  (0x77f00f51#32, 0xdf190719#32, 0xff800000#32, 0xd848cc48#32, 0x77f00f51#32, 0x77f00f51#32, false, true),
  (0x7f65e550#32, 0xa72d71c1#32, 0xe71bc21f#32, 0xff800000#32, 0x7f65e550#32, 0x7f65e550#32, false, true),
  (0x5f5881bb#32, 0x809361b4#32, 0xa0794a40#32, 0xff800000#32, 0x5f5881bb#32, 0x5f5881bb#32, false, true),
  (0x7681aa7c#32, 0x7f800000#32, 0x7f800000#32, 0x00000000#32, 0x7f800000#32, 0xff800000#32, true, false),
  (0xbd535d0d#32, 0x3d535d0c#32, 0xbb2e8284#32, 0xbf800001#32, 0xb1800000#32, 0xbdd35d0c#32, true, false),
  (0x9fbafa19#32, 0x7f6a1e9f#32, 0xdfaafef8#32, 0x80000000#32, 0x7f6a1e9f#32, 0xff6a1e9f#32, true, false),
  (0x4b800000#32, 0x3cf4577f#32, 0x48f4577f#32, 0x4e061b74#32, 0x4b800000#32, 0x4b800000#32, false, true),
  (0xbd2ed341#32, 0x206c3301#32, 0x9e214d95#32, 0xdc3d7b1f#32, 0xbd2ed341#32, 0xbd2ed341#32, true, false),
  (0x8174a124#32, 0xabac49a3#32, 0x00000000#32, 0x1535bef2#32, 0xabac49a3#32, 0x2bac49a3#32, false, true),
  (0xc23d1047#32, 0x423d1044#32, 0xc50ba108#32, 0xbf800002#32, 0xb7400000#32, 0xc2bd1046#32, true, false),
  (0x012e812a#32, 0x7f15a20e#32, 0x40cbff49#32, 0x00000000#32, 0x7f15a20e#32, 0xff15a20e#32, true, false),
  (0x432db823#32, 0xff800000#32, 0xff800000#32, 0x80000000#32, 0xff800000#32, 0x7f800000#32, false, true),
  (0xdfc67469#32, 0xdf28da1c#32, 0x7f800000#32, 0x401670cf#32, 0xe00d70bc#32, 0xdf640eb6#32, true, false),
  (0x5fca8b8e#32, 0x56dbe467#32, 0x772dfa18#32, 0x486bcdef#32, 0x5fca8bc5#32, 0x5fca8b57#32, false, true),
  (0x80000000#32, 0x00000000#32, 0x80000000#32, 0x7fc00000#32, 0x00000000#32, 0x80000000#32, true, false),
  (0x00000001#32, 0x00800000#32, 0x00000000#32, 0x34000000#32, 0x00800001#32, 0x807fffff#32, true, false),
  (0x8688be8a#32, 0x4b7fffff#32, 0x9288be89#32, 0x8000088c#32, 0x4b7fffff#32, 0xcb7fffff#32, true, false),
  (0x43a5f4d9#32, 0xe7277311#32, 0xeb591aa3#32, 0x9bfdb7a8#32, 0xe7277311#32, 0x67277311#32, false, true),
  (0x20004a4a#32, 0x5f8e7e27#32, 0x400ed0da#32, 0x00399ef8#32, 0x5f8e7e27#32, 0xdf8e7e27#32, true, false),
  (0x42e3af2c#32, 0xc2e3af2c#32, 0xc64a8020#32, 0xbf800000#32, 0x00000000#32, 0x4363af2c#32, false, true),
  (0xbeaa6fd3#32, 0x3d63e53f#32, 0xbc97b9c8#32, 0xc0bf7496#32, 0xbe8df32b#32, 0xbec6ec7b#32, true, false),
  (0x4b7fffff#32, 0x7d63f091#32, 0x7f800000#32, 0x0d8fc1df#32, 0x7d63f091#32, 0xfd63f091#32, true, false),
  (0xfec9467f#32, 0x00800000#32, 0xbfc9467f#32, 0xff800000#32, 0xfec9467f#32, 0xfec9467f#32, true, false),
  (0x80000000#32, 0xa004c4a9#32, 0x00000000#32, 0x00000000#32, 0xa004c4a9#32, 0x2004c4a9#32, false, true),
  (0x3de8546d#32, 0xbde8546d#32, 0xbc52d921#32, 0xbf800000#32, 0x00000000#32, 0x3e68546d#32, false, true),
  (0x00800000#32, 0x41ac2c65#32, 0x02ac2c65#32, 0x0005f28f#32, 0x41ac2c65#32, 0xc1ac2c65#32, true, false),
  (0x002dcb7d#32, 0x42128ff4#32, 0x0251be6d#32, 0x00013ff6#32, 0x42128ff4#32, 0xc2128ff4#32, true, false),
  (0x42603bd3#32, 0x00800000#32, 0x03603bd3#32, 0x7f800000#32, 0x42603bd3#32, 0x42603bd3#32, false, true),
  (0x7f7fffff#32, 0x7f800000#32, 0x7f800000#32, 0x00000000#32, 0x7f800000#32, 0xff800000#32, true, false),
  (0xff800000#32, 0x7f800000#32, 0xff800000#32, 0x7fc00000#32, 0x7fc00000#32, 0xff800000#32, true, false),
  (0x5fe86902#32, 0x3f800001#32, 0x5fe86904#32, 0x5fe86900#32, 0x5fe86902#32, 0x5fe86902#32, false, true),
  (0xff800000#32, 0x3d65f73d#32, 0xff800000#32, 0xff800000#32, 0xff800000#32, 0xff800000#32, true, false),
  (0x7f7fffff#32, 0x3cbc7b6c#32, 0x7cbc7b6b#32, 0x7f800000#32, 0x7f7fffff#32, 0x7f7fffff#32, false, true),
  (0xff73ff1f#32, 0xc335349d#32, 0x7f800000#32, 0x7bac5ab7#32, 0xff73ff1f#32, 0xff73ff1f#32, true, false),
  (0xbf800000#32, 0x3f800000#32, 0xbf800000#32, 0xbf800000#32, 0x00000000#32, 0xc0000000#32, true, false),
  (0x4347c266#32, 0xc170e7fb#32, 0xc53bfb44#32, 0xc1544671#32, 0x4338b3e6#32, 0x4356d0e6#32, false, true),
  (0xff800000#32, 0x3f800000#32, 0xff800000#32, 0xff800000#32, 0xff800000#32, 0xff800000#32, true, false),
  (0x7fc00000#32, 0x006496a3#32, 0x7fc00000#32, 0x7fc00000#32, 0x7fc00000#32, 0x7fc00000#32, false, false),
  (0x31eb6610#32, 0x000b5508#32, 0x00000000#32, 0x72a62e5b#32, 0x31eb6610#32, 0x31eb6610#32, false, true),
  (0x435bb94d#32, 0xc35bb94d#32, 0xc73c9690#32, 0xbf800000#32, 0x00000000#32, 0x43dbb94d#32, false, true),
  (0x7f7fffff#32, 0x6b24dc4c#32, 0x7f800000#32, 0x53c6c30e#32, 0x7f7fffff#32, 0x7f7fffff#32, false, true),
  (0x2f50ec9a#32, 0xc2da5bb3#32, 0xb2b23451#32, 0xabf4f093#32, 0xc2da5bb3#32, 0x42da5bb3#32, false, true),
  (0x00000001#32, 0x7f800000#32, 0x7f800000#32, 0x00000000#32, 0x7f800000#32, 0xff800000#32, true, false),
  (0x3f800000#32, 0x3f800000#32, 0x3f800000#32, 0x3f800000#32, 0x40000000#32, 0x00000000#32, true, false),
  (0xff37fc36#32, 0x7f37fc36#32, 0xff800000#32, 0xbf800000#32, 0x00000000#32, 0xff800000#32, true, false),
  (0x7fc00000#32, 0x3e286973#32, 0x7fc00000#32, 0x7fc00000#32, 0x7fc00000#32, 0x7fc00000#32, false, false),
  (0x84efa37d#32, 0x00000000#32, 0x80000000#32, 0xff800000#32, 0x84efa37d#32, 0x84efa37d#32, true, false),
  (0xc001f77b#32, 0x46f5c3cc#32, 0xc7798a80#32, 0xb887611c#32, 0x46f5bfbc#32, 0xc6f5c7dc#32, true, false),
  (0xbf800000#32, 0x3f28c8bb#32, 0xbf28c8bb#32, 0xbfc2243a#32, 0xbeae6e8a#32, 0xbfd4645e#32, true, false),
  (0xa00fd197#32, 0x200fd194#32, 0x80a197a1#32, 0xbf800003#32, 0x95400000#32, 0xa08fd196#32, true, false),
  (0xdf2a752f#32, 0xbe261eed#32, 0x5ddd3928#32, 0x6083577b#32, 0xdf2a752f#32, 0xdf2a752f#32, true, false),
  (0x1ad04582#32, 0xff800000#32, 0xff800000#32, 0x80000000#32, 0xff800000#32, 0x7f800000#32, false, true),
  (0xff7176fe#32, 0x748add8f#32, 0xff800000#32, 0xca5e924f#32, 0xff7176fa#32, 0xff717702#32, true, false),
  (0xbf800000#32, 0xd7ba0a23#32, 0x57ba0a23#32, 0x27302272#32, 0xd7ba0a23#32, 0x57ba0a23#32, false, true),
  (0xa013f134#32, 0x2013f137#32, 0x80aafdcd#32, 0xbf7ffffb#32, 0x15400000#32, 0xa093f136#32, true, false),
  (0x3f800001#32, 0xbcfdee25#32, 0xbcfdee27#32, 0xc2010b17#32, 0x3f781091#32, 0x3f83f7ba#32, false, true),
  (0x413e63a6#32, 0xff800000#32, 0xff800000#32, 0x80000000#32, 0xff800000#32, 0x7f800000#32, false, true),
  (0xbdb744a8#32, 0x3f7fffff#32, 0xbdb744a7#32, 0xbdb744a9#32, 0x3f69176a#32, 0xbf8b744a#32, true, false),
  (0xbcf360a9#32, 0x3e57aa55#32, 0xbbcd081d#32, 0xbe107292#32, 0x3e393e40#32, 0xbe76166a#32, true, false),
  (0x68cc8792#32, 0xe8cc8791#32, 0xff800000#32, 0xbf800001#32, 0x5d000000#32, 0x694c8792#32, false, true),
  (0x407bdce5#32, 0xd9b398dc#32, 0xdab0b1d8#32, 0xa6338118#32, 0xd9b398dc#32, 0x59b398dc#32, false, true),
  (0xff58b6c1#32, 0xff7fffff#32, 0x7f800000#32, 0x3f58b6c2#32, 0xff800000#32, 0x7e1d24f8#32, false, true),
  (0xbf800000#32, 0x7f61fdd8#32, 0xff61fdd8#32, 0x80243fc8#32, 0x7f61fdd8#32, 0xff61fdd8#32, true, false),
  (0x24559f2c#32, 0x8c99bb17#32, 0x80000000#32, 0xd731dddd#32, 0x24559f2c#32, 0x24559f2c#32, false, true),
  (0x3f7fffff#32, 0xbf7ffffd#32, 0xbf7ffffc#32, 0xbf800001#32, 0x34000000#32, 0x3ffffffe#32, false, true),
  (0x4bf394d2#32, 0x5f666901#32, 0x6bdb3b9e#32, 0x2c075126#32, 0x5f666901#32, 0xdf666901#32, true, false),
  (0xc30ed8e6#32, 0x2c0b40a9#32, 0xaf9b67b3#32, 0xd6834de0#32, 0xc30ed8e6#32, 0xc30ed8e6#32, true, false),
  (0x20dd54e0#32, 0xff7fffff#32, 0xe0dd54df#32, 0x80000000#32, 0xff7fffff#32, 0x7f7fffff#32, false, true),
  (0x80000000#32, 0x3f7fffff#32, 0x80000000#32, 0x80000000#32, 0x3f7fffff#32, 0xbf7fffff#32, true, false),
  (0xff7fffff#32, 0x7f7ffffc#32, 0xff800000#32, 0xbf800002#32, 0xf4400000#32, 0xff800000#32, true, false)]

/-- The model reproduces them. -/
theorem f32_vectors : ∀ t ∈ f32Vectors,
    let (a, b, m, q, s, d, l, g) := t
    (F32.ofBits a).mul (.ofBits b) = .ofBits m ∧ (F32.ofBits a).div (.ofBits b) = .ofBits q ∧
      (F32.ofBits a).add (.ofBits b) = .ofBits s ∧ (F32.ofBits a).sub (.ofBits b) = .ofBits d ∧
      (F32.ofBits a).le (.ofBits b) = l ∧ (F32.ofBits a).gt (.ofBits b) = g := by decide +kernel

/-- Operands and square roots. -/
def f32Roots : List (BitVec 32 × BitVec 32) := [
  (0x3e328993#32, 0x3ed5c9e3#32),
  (0x00000001#32, 0x1a3504f3#32),
  (0x3f800000#32, 0x3f800000#32),
  (0x4b7fffff#32, 0x457fffff#32),
  (0x099950d8#32, 0x248c1652#32),
  (0x3f7fffff#32, 0x3f7fffff#32),
  (0x1f8b9c7b#32, 0x2f85adfb#32),
  (0x00f94608#32, 0x2032a017#32),
  (0x2170b338#32, 0x30783b71#32),
  (0xbf800000#32, 0x7fc00000#32),
  (0x7f7fffff#32, 0x5f7fffff#32),
  (0x007fffff#32, 0x1fffffff#32),
  (0x3e453531#32, 0x3ee0b069#32),
  (0xff800000#32, 0x7fc00000#32),
  (0x1a61dbe2#32, 0x2cf07529#32),
  (0x5f557203#32, 0x4f69c19d#32),
  (0x00000001#32, 0x1a3504f3#32),
  (0x7f7fffff#32, 0x5f7fffff#32),
  (0x7f36bb58#32, 0x5f58490b#32),
  (0x432e4854#32, 0x415339cc#32),
  (0x3ed978a6#32, 0x3f26d79b#32),
  (0x14f4733f#32, 0x2a30e384#32),
  (0x43f00481#32, 0x41af4714#32),
  (0xc324db25#32, 0x7fc00000#32),
  (0x00000001#32, 0x1a3504f3#32),
  (0x2093743a#32, 0x30096212#32),
  (0x007b2370#32, 0x1ffb1764#32),
  (0x7fc00000#32, 0x7fc00000#32),
  (0x41cc144f#32, 0x40a19f9d#32),
  (0xdf88cd39#32, 0x7fc00000#32),
  (0x7f800000#32, 0x7f800000#32),
  (0x8087c404#32, 0x7fc00000#32),
  (0x43246da0#32, 0x414d2ad5#32),
  (0xa082e357#32, 0x7fc00000#32),
  (0x014e329c#32, 0x2065c0dd#32),
  (0x4b800000#32, 0x45800000#32),
  (0x7f7fffff#32, 0x5f7fffff#32),
  (0x3fb2ee4f#32, 0x3f97567f#32),
  (0x5f8a507c#32, 0x4f850eaa#32),
  (0x72fdf202#32, 0x59344a9c#32),
  (0x207112b8#32, 0x2ff86caa#32),
  (0xd1bc52d9#32, 0x7fc00000#32),
  (0x7f23a34d#32, 0x5f4cac74#32),
  (0xa0d76378#32, 0x7fc00000#32),
  (0x1f935160#32, 0x2f8951d5#32),
  (0x00800000#32, 0x20000000#32),
  (0x3b618676#32, 0x3d7047ac#32),
  (0x0316909e#32, 0x214453ed#32),
  (0x0121a1ae#32, 0x204b6a40#32),
  (0x3e35a009#32, 0x3ed7a120#32),
  (0x4179ff1c#32, 0x407cfaff#32),
  (0xb0c4312d#32, 0x7fc00000#32),
  (0x3f800001#32, 0x3f800000#32),
  (0x5f327286#32, 0x4f55bc16#32),
  (0x4b800000#32, 0x45800000#32),
  (0x1f889ed8#32, 0x2f843d72#32),
  (0x70ccec31#32, 0x5821f503#32),
  (0x1c2442f9#32, 0x2dcd1037#32),
  (0x3c8d1ac6#32, 0x3e066485#32),
  (0x007fffff#32, 0x1fffffff#32),
  (0x3f800000#32, 0x3f800000#32),
  (0x00000001#32, 0x1a3504f3#32),
  (0x1d33a01c#32, 0x2e567066#32),
  (0x207a4cc6#32, 0x2ffd2248#32),
  (0x41bcb0fe#32, 0x409b6926#32),
  (0x80000001#32, 0x7fc00000#32),
  (0x5fbd7d96#32, 0x4f9bbd50#32),
  (0x00927271#32, 0x2008e9c7#32),
  (0x7fc00000#32, 0x7fc00000#32),
  (0x3ec2173f#32, 0x3f1d9e5d#32),
  (0x7f7fffff#32, 0x5f7fffff#32),
  (0x3c610ad4#32, 0x3df005c6#32),
  (0x3d591cf9#32, 0x3e6bc194#32),
  (0xc1f441d0#32, 0x7fc00000#32),
  (0x5b0ee76f#32, 0x4d3f4499#32),
  (0x8857f9a4#32, 0x7fc00000#32),
  (0x3fce7e43#32, 0x3fa29398#32),
  (0xce5b2a92#32, 0x7fc00000#32),
  (0x517e4497#32, 0x487f21eb#32),
  (0x9f9996e9#32, 0x7fc00000#32),
  (0x007eab54#32, 0x1ffeaa70#32),
  (0x7f800000#32, 0x7f800000#32),
  (0x1fd8a48f#32, 0x2fa6862c#32),
  (0x41fa3d75#32, 0x40b2f8a8#32),
  (0x3f8d137c#32, 0x3f86610d#32),
  (0x78572976#32, 0x5beab1c4#32),
  (0x5675f6ad#32, 0x4afaee7e#32),
  (0x7b8f2ab5#32, 0x5d875f05#32),
  (0x4b800000#32, 0x45800000#32),
  (0xbd6ad5c5#32, 0x7fc00000#32),
  (0x3f800000#32, 0x3f800000#32),
  (0x7a605a91#32, 0x5cefa7b5#32),
  (0x6f15b6ad#32, 0x5743c5a2#32),
  (0x423b48d8#32, 0x40daf68e#32),
  (0x00dcc633#32, 0x20281abc#32),
  (0x2b855c1f#32, 0x3582a706#32),
  (0x070d7109#32, 0x233e4966#32),
  (0x973f7986#32, 0x7fc00000#32),
  (0x014e4808#32, 0x2065cccc#32),
  (0xa093f4f0#32, 0x7fc00000#32),
  (0x057a40b2#32, 0x227d1c2c#32),
  (0x80000001#32, 0x7fc00000#32),
  (0x6f0e2289#32, 0x573ec0a7#32),
  (0xd37ee915#32, 0x7fc00000#32),
  (0x072a98d2#32, 0x2350fafd#32),
  (0x40c02612#32, 0x401cd3fb#32),
  (0x438084a0#32, 0x4180423f#32),
  (0x42eac6e6#32, 0x412d5a81#32),
  (0x0f977044#32, 0x278b3a17#32),
  (0xc354cbf9#32, 0x7fc00000#32),
  (0x7f10bcd9#32, 0x5f407dbd#32),
  (0x86048719#32, 0x7fc00000#32),
  (0x3f800001#32, 0x3f800000#32),
  (0x9bca3cb7#32, 0x7fc00000#32),
  (0x007fffff#32, 0x1fffffff#32),
  (0x243d3570#32, 0x31dc15c7#32),
  (0x00c73a97#32, 0x201fb0f6#32),
  (0x7fc00000#32, 0x7fc00000#32),
  (0x00f10d9b#32, 0x202fa7c5#32),
  (0xff7fffff#32, 0x7fc00000#32),
  (0x46e40990#32, 0x432ad8e5#32),
  (0x80000001#32, 0x7fc00000#32),
  (0x00614774#32, 0x1fdf2cb3#32),
  (0x3f800001#32, 0x3f800000#32),
  (0x3f58ab68#32, 0x3f6b83e4#32),
  (0x43c0fe03#32, 0x419d2c02#32),
  (0x32fff17b#32, 0x3934ffd1#32),
  (0xbf6b851c#32, 0x7fc00000#32),
  (0x5f0f914e#32, 0x4f3fb626#32),
  (0x20894930#32, 0x30048fc9#32),
  (0x6da79a87#32, 0x56927826#32),
  (0x7f7fffff#32, 0x5f7fffff#32),
  (0x3df2d1c3#32, 0x3eb04c36#32),
  (0xf0836085#32, 0x7fc00000#32),
  (0x407100aa#32, 0x3ff8635d#32),
  (0xf7b103df#32, 0x7fc00000#32),
  (0x00b2fa14#32, 0x20175b79#32),
  (0x1f94aaeb#32, 0x2f89f283#32),
  (0x7f33b009#32, 0x5f5679e7#32),
  (0x3f2da58d#32, 0x3f52d711#32),
  (0x41827e6a#32, 0x40813dab#32),
  (0xc33860ee#32, 0x7fc00000#32),
  (0x3f800000#32, 0x3f800000#32),
  (0xc0c191cf#32, 0x7fc00000#32),
  (0x00000001#32, 0x1a3504f3#32),
  (0xf8c110fb#32, 0x7fc00000#32),
  (0x00000001#32, 0x1a3504f3#32),
  (0x3cf3f47c#32, 0x3e30b5a1#32),
  (0x453bf491#32, 0x425b5ada#32),
  (0xd1dcec53#32, 0x7fc00000#32),
  (0x2033f619#32, 0x2fd6a3b4#32),
  (0x895e8b6b#32, 0x7fc00000#32),
  (0x208b737f#32, 0x30059a5b#32),
  (0x3eb670c9#32, 0x3f18d09d#32),
  (0x7f800000#32, 0x7f800000#32),
  (0x00000001#32, 0x1a3504f3#32),
  (0x3f888716#32, 0x3f8431f2#32),
  (0xbdba1540#32, 0x7fc00000#32),
  (0x7fc00000#32, 0x7fc00000#32),
  (0xa04f93fa#32, 0x7fc00000#32),
  (0x0b0f873b#32, 0x253faf6c#32),
  (0xf0290531#32, 0x7fc00000#32),
  (0x00800000#32, 0x20000000#32),
  (0x3e99d38a#32, 0x3f0c51fb#32),
  (0x40c3fa9e#32, 0x401e6228#32),
  (0x4a3adf99#32, 0x44dab900#32),
  (0x0122a07a#32, 0x204c0a56#32),
  (0xbc7f4bbe#32, 0x7fc00000#32),
  (0x3c025c0a#32, 0x3db6ae1f#32),
  (0x83a4e629#32, 0x7fc00000#32),
  (0x5f8d9aa0#32, 0x4f86a15a#32),
  (0xdfc5e041#32, 0x7fc00000#32),
  (0x7f27656f#32, 0x5f4f02be#32),
  (0xfb813921#32, 0x7fc00000#32),
  (0x57bb7d97#32, 0x4b9aea5b#32),
  (0xd510bb04#32, 0x7fc00000#32),
  (0x679a44dd#32, 0x538c85a2#32),
  (0xbceb226f#32, 0x7fc00000#32),
  (0x03a63966#32, 0x2191dd87#32),
  (0x7f800000#32, 0x7f800000#32),
  (0x000ad066#32, 0x1f14d1be#32),
  (0xff55d45c#32, 0x7fc00000#32),
  (0x3fd8a9eb#32, 0x3fa6883b#32),
  (0x4317b99d#32, 0x41451530#32),
  (0x44df96ff#32, 0x42292c49#32),
  (0x202e9c2f#32, 0x2fd36c97#32),
  (0x411f4a05#32, 0x4049ef89#32),
  (0xff800000#32, 0x7fc00000#32),
  (0x5b491561#32, 0x4d62e2e3#32),
  (0x00460d69#32, 0x1fbd62a8#32),
  (0x3d3cc11f#32, 0x3e5bd217#32),
  (0xbf1fc457#32, 0x7fc00000#32),
  (0x00000001#32, 0x1a3504f3#32),
  (0xbd126a2c#32, 0x7fc00000#32),
  (0x00326de4#32, 0x1fa0af73#32),
  (0xff800000#32, 0x7fc00000#32),
  (0x3f8ad054#32, 0x3f854c1a#32),
  (0xa854c834#32, 0x7fc00000#32),
  (0x20dc3f27#32, 0x3027e74a#32),
  (0x205cb122#32, 0x2fedb0f6#32),
  (0x0b35b1de#32, 0x2557abb5#32),
  (0xff11d4d4#32, 0x7fc00000#32),
  (0x7f7fffff#32, 0x5f7fffff#32),
  (0x00000000#32, 0x00000000#32),
  (0x007fffff#32, 0x1fffffff#32),
  (0xbdb03506#32, 0x7fc00000#32),
  (0x00505aac#32, 0x1fcad553#32),
  (0xff7fffff#32, 0x7fc00000#32),
  (0x003a7d4a#32, 0x1fad0d01#32),
  (0x4b7fffff#32, 0x457fffff#32),
  (0x4b7fffff#32, 0x457fffff#32),
  (0x4b800000#32, 0x45800000#32),
  (0x3d6c4e1b#32, 0x3e75f49b#32),
  (0x3f1d88c2#32, 0x3f48d1f9#32),
  (0x5f09d29c#32, 0x4f3bd62f#32),
  (0xa0622c13#32, 0x7fc00000#32),
  (0x7f7fffff#32, 0x5f7fffff#32),
  (0x007fffff#32, 0x1fffffff#32),
  (0x40cf81de#32, 0x4022f9aa#32),
  (0x03312ead#32, 0x2154f9cc#32),
  (0x5fa26725#32, 0x4f902dd0#32),
  (0x7f7fffff#32, 0x5f7fffff#32),
  (0x7f248cb0#32, 0x5f4d3e35#32),
  (0x5fe2329e#32, 0x4faa281f#32),
  (0x7f7fffff#32, 0x5f7fffff#32),
  (0xbd77d72e#32, 0x7fc00000#32),
  (0x203abf8e#32, 0x2fdaa63e#32),
  (0x4b7fffff#32, 0x457fffff#32),
  (0x2031843f#32, 0x2fd52d33#32),
  (0xeaa3556c#32, 0x7fc00000#32),
  (0x1319d424#32, 0x294671be#32),
  (0x007fffff#32, 0x1fffffff#32),
  (0x4190f933#32, 0x408838fd#32),
  (0xbdda06f2#32, 0x7fc00000#32),
  (0x43f2e805#32, 0x41b0544b#32),
  (0x00145c40#32, 0x1f4c336d#32),
  (0x4b800000#32, 0x45800000#32),
  (0x205d1453#32, 0x2fede65b#32),
  (0x6a8ad9cb#32, 0x550550a6#32),
  (0x410f79f5#32, 0x403fa68e#32),
  (0x4160180d#32, 0x406f842b#32),
  (0xc20f5d83#32, 0x7fc00000#32),
  (0x3688b661#32, 0x3b0448d5#32),
  (0xff800000#32, 0x7fc00000#32),
  (0x3d324a86#32, 0x3e55a420#32),
  (0x80ae2bb9#32, 0x7fc00000#32),
  (0x206d583c#32, 0x2ff67ef4#32),
  (0x7f800000#32, 0x7f800000#32),
  (0x00000000#32, 0x00000000#32),
  (0xbe1fe9df#32, 0x7fc00000#32),
  (0x41184cf9#32, 0x404574cd#32),
  (0xc2f12fa5#32, 0x7fc00000#32),
  (0x3f800000#32, 0x3f800000#32),
  (0xb835e8a5#32, 0x7fc00000#32),
  (0x00000000#32, 0x00000000#32),
  (0x01527eab#32, 0x20682291#32)]

/-- The model reproduces them. -/
theorem f32_roots : ∀ t ∈ f32Roots, (F32.ofBits t.1).sqrt = .ofBits t.2 := by decide +kernel

end Verif
