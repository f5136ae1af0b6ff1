import Verif.Model.Segments
import Verif.Model.Boot
/-
  Written by tools/gen_link_vectors.py: guests linked with compiler/linker-script/default.x by lld 22.1.4.
-/
namespace Verif
open Model Model.Link

/-- Input sections; which are writable; address and size of .text, .inpdata, .outdata, .rodata, .data, .bss, if present;
_stack_start, __global_pointer$, _end; the segment table. -/
def linkVectors : List (Guest × Kinds × List (Option Sect) × Nat × Nat × Nat × List Phdr) := [
  (⟨[⟨2, 1⟩, ⟨34, 4⟩], [⟨33, 8⟩], [⟨39, 4⟩, ⟨229, 4⟩], [⟨93, 16⟩, ⟨990, 4⟩], [], [], [], [⟨909, 4⟩, ⟨388, 1⟩, ⟨877, 4⟩], []⟩,
   ⟨some true, none, none, none⟩,
   [some ⟨0x0, 348⟩, some ⟨0x40000, 1086⟩, none, some ⟨0x40440, 0⟩, some ⟨0x40440, 0⟩, some ⟨0x40440, 2177⟩],
   0x41000, 0x40c40, 0x40cc1,
   [⟨0x1, 5, 0x1000, 0x0, 348, 348⟩, ⟨0x1, 6, 0x2000, 0x40000, 1088, 1088⟩, ⟨0x1, 6, 0x2440, 0x40440, 0, 2177⟩, ⟨0x6474e551, 6, 0x0, 0x0, 0, 0⟩]),
  (⟨[⟨11, 2⟩, ⟨17, 8⟩], [], [⟨19379, 1⟩, ⟨32559, 1⟩, ⟨91515, 32⟩], [⟨19, 1⟩], [⟨12, 8⟩], [⟨38, 8⟩, ⟨19, 2⟩, ⟨8, 1⟩], [⟨45, 4⟩], [⟨33, 32⟩, ⟨4, 32⟩], []⟩,
   ⟨some true, some true, some false, some true⟩,
   [some ⟨0x0, 143516⟩, some ⟨0x40000, 19⟩, some ⟨0x40018, 12⟩, some ⟨0x40028, 68⟩, some ⟨0x4006c, 45⟩, some ⟨0x400a0, 68⟩],
   0x41000, 0x4086c, 0x400e4,
   [⟨0x1, 5, 0x1000, 0x0, 143516, 143516⟩, ⟨0x1, 6, 0x25000, 0x40000, 36, 36⟩, ⟨0x1, 4, 0x25028, 0x40028, 68, 68⟩, ⟨0x1, 6, 0x2506c, 0x4006c, 45, 45⟩, ⟨0x1, 6, 0x250a0, 0x400a0, 0, 68⟩, ⟨0x6474e551, 6, 0x0, 0x0, 0, 0⟩]),
  (⟨[⟨19, 1⟩], [⟨45, 4⟩], [⟨202, 4⟩, ⟨117, 4⟩], [], [⟨57, 1⟩], [], [⟨20, 1⟩], [], []⟩,
   ⟨none, some false, none, some true⟩,
   [some ⟨0x0, 392⟩, none, some ⟨0x40000, 57⟩, some ⟨0x4003c, 0⟩, some ⟨0x4003c, 20⟩, some ⟨0x40050, 0⟩],
   0x41000, 0x4083c, 0x40050,
   [⟨0x1, 5, 0x1000, 0x0, 392, 392⟩, ⟨0x1, 4, 0x2000, 0x40000, 60, 60⟩, ⟨0x1, 6, 0x203c, 0x4003c, 20, 20⟩, ⟨0x6474e551, 6, 0x0, 0x0, 0, 0⟩]),
  (⟨[⟨7, 1⟩, ⟨16, 4⟩], [], [⟨15, 4⟩, ⟨134, 1⟩, ⟨265, 2⟩, ⟨61, 16⟩], [⟨1018, 4⟩, ⟨307, 1⟩], [⟨1087, 4⟩], [⟨121, 2⟩], [⟨692, 4⟩], [], []⟩,
   ⟨some true, some true, some false, some true⟩,
   [some ⟨0x0, 512⟩, some ⟨0x40000, 1325⟩, some ⟨0x40530, 1087⟩, some ⟨0x40970, 124⟩, some ⟨0x409ec, 692⟩, some ⟨0x40ca0, 0⟩],
   0x41000, 0x411ec, 0x40ca0,
   [⟨0x1, 5, 0x1000, 0x0, 512, 512⟩, ⟨0x1, 6, 0x2000, 0x40000, 2415, 2415⟩, ⟨0x1, 4, 0x2970, 0x40970, 124, 124⟩, ⟨0x1, 6, 0x29ec, 0x409ec, 692, 692⟩, ⟨0x6474e551, 6, 0x0, 0x0, 0, 0⟩]),
  (⟨[⟨28, 8⟩], [⟨59, 32⟩], [], [⟨14, 4⟩], [], [⟨47, 4⟩, ⟨51, 1⟩], [⟨54, 1⟩, ⟨32, 4⟩], [], []⟩,
   ⟨some true, none, some false, some true⟩,
   [some ⟨0x0, 92⟩, some ⟨0x40000, 14⟩, none, some ⟨0x40010, 100⟩, some ⟨0x40074, 88⟩, some ⟨0x400cc, 0⟩],
   0x41000, 0x40874, 0x400cc,
   [⟨0x1, 5, 0x1000, 0x0, 92, 92⟩, ⟨0x1, 6, 0x2000, 0x40000, 14, 14⟩, ⟨0x1, 4, 0x2010, 0x40010, 100, 100⟩, ⟨0x1, 6, 0x2074, 0x40074, 88, 88⟩, ⟨0x6474e551, 6, 0x0, 0x0, 0, 0⟩]),
  (⟨[⟨38, 1⟩], [], [⟨153, 16⟩, ⟨33, 1⟩, ⟨116, 16⟩], [], [⟨45, 16⟩, ⟨30, 4⟩], [⟨1, 1⟩], [], [⟨13, 4⟩, ⟨25, 16⟩, ⟨12, 1⟩], []⟩,
   ⟨none, some true, some false, none⟩,
   [some ⟨0x0, 356⟩, none, some ⟨0x40000, 78⟩, some ⟨0x40050, 4⟩, some ⟨0x40054, 0⟩, some ⟨0x40060, 53⟩],
   0x41000, 0x40854, 0x40095,
   [⟨0x1, 5, 0x1000, 0x0, 356, 356⟩, ⟨0x1, 6, 0x2000, 0x40000, 78, 78⟩, ⟨0x1, 4, 0x2050, 0x40050, 4, 4⟩, ⟨0x1, 6, 0x2060, 0x40060, 0, 53⟩, ⟨0x6474e551, 6, 0x0, 0x0, 0, 0⟩]),
  (⟨[⟨8, 4⟩, ⟨6, 32⟩], [], [⟨62, 2⟩, ⟨103, 4⟩, ⟨128, 32⟩], [⟨1350, 32⟩, ⟨349, 1⟩], [], [], [⟨1283, 1⟩], [⟨1045, 16⟩], []⟩,
   ⟨some true, none, none, some true⟩,
   [some ⟨0x0, 352⟩, some ⟨0x40000, 1699⟩, none, some ⟨0x406a4, 0⟩, some ⟨0x406a4, 1283⟩, some ⟨0x40bb0, 1045⟩],
   0x41000, 0x40ea4, 0x40fc5,
   [⟨0x1, 5, 0x1000, 0x0, 352, 352⟩, ⟨0x1, 6, 0x2000, 0x40000, 2983, 2983⟩, ⟨0x1, 6, 0x2bb0, 0x40bb0, 0, 1045⟩, ⟨0x6474e551, 6, 0x0, 0x0, 0, 0⟩]),
  (⟨[⟨39, 8⟩], [⟨35, 4⟩], [⟨194, 1⟩], [⟨29, 1⟩], [⟨21, 32⟩, ⟨11, 4⟩], [⟨48, 4⟩], [], [], []⟩,
   ⟨some true, some true, some false, none⟩,
   [some ⟨0x0, 272⟩, some ⟨0x40000, 29⟩, some ⟨0x40020, 35⟩, some ⟨0x40044, 48⟩, some ⟨0x40074, 0⟩, some ⟨0x40074, 0⟩],
   0x41000, 0x40874, 0x40074,
   [⟨0x1, 5, 0x1000, 0x0, 272, 272⟩, ⟨0x1, 6, 0x2000, 0x40000, 67, 67⟩, ⟨0x1, 4, 0x2044, 0x40044, 48, 48⟩, ⟨0x6474e551, 6, 0x0, 0x0, 0, 0⟩]),
  (⟨[⟨6, 2⟩, ⟨30, 1⟩], [⟨12, 4⟩], [⟨21, 1⟩, ⟨255, 32⟩], [⟨59, 4⟩, ⟨42, 8⟩], [⟨33, 4⟩], [⟨50, 4⟩, ⟨2, 4⟩, ⟨14, 4⟩], [⟨27, 32⟩, ⟨20, 4⟩], [], []⟩,
   ⟨some true, some true, some false, some true⟩,
   [some ⟨0x0, 352⟩, some ⟨0x40000, 106⟩, some ⟨0x4006c, 33⟩, some ⟨0x40090, 72⟩, some ⟨0x400e0, 48⟩, some ⟨0x40110, 0⟩],
   0x41000, 0x408e0, 0x40110,
   [⟨0x1, 5, 0x1000, 0x0, 352, 352⟩, ⟨0x1, 6, 0x2000, 0x40000, 141, 141⟩, ⟨0x1, 4, 0x2090, 0x40090, 72, 72⟩, ⟨0x1, 6, 0x20e0, 0x400e0, 48, 48⟩, ⟨0x6474e551, 6, 0x0, 0x0, 0, 0⟩]),
  (⟨[⟨37, 4⟩], [⟨60, 8⟩], [⟨225, 1⟩], [⟨26, 4⟩, ⟨10, 1⟩], [⟨31, 1⟩], [⟨49, 8⟩, ⟨46, 1⟩, ⟨43, 4⟩], [], [⟨54, 1⟩, ⟨21, 1⟩], []⟩,
   ⟨some true, some true, some false, none⟩,
   [some ⟨0x0, 328⟩, some ⟨0x40000, 36⟩, some ⟨0x40024, 31⟩, some ⟨0x40048, 140⟩, some ⟨0x400d4, 0⟩, some ⟨0x400d4, 75⟩],
   0x41000, 0x408d4, 0x4011f,
   [⟨0x1, 5, 0x1000, 0x0, 328, 328⟩, ⟨0x1, 6, 0x2000, 0x40000, 67, 67⟩, ⟨0x1, 4, 0x2048, 0x40048, 140, 140⟩, ⟨0x1, 6, 0x20d4, 0x400d4, 0, 75⟩, ⟨0x6474e551, 6, 0x0, 0x0, 0, 0⟩]),
  (⟨[⟨18, 8⟩], [⟨35, 1⟩], [⟨25813, 4⟩, ⟨45334, 8⟩], [], [⟨278, 1⟩], [⟨964, 4⟩], [⟨1448, 2⟩, ⟨204, 4⟩], [], []⟩,
   ⟨none, some false, some false, some true⟩,
   [some ⟨0x0, 71208⟩, none, some ⟨0x40000, 278⟩, some ⟨0x40118, 964⟩, some ⟨0x404dc, 1652⟩, some ⟨0x40b50, 0⟩],
   0x41000, 0x40cdc, 0x40b50,
   [⟨0x1, 5, 0x1000, 0x0, 71208, 71208⟩, ⟨0x1, 4, 0x13000, 0x40000, 1244, 1244⟩, ⟨0x1, 6, 0x134dc, 0x404dc, 1652, 1652⟩, ⟨0x6474e551, 6, 0x0, 0x0, 0, 0⟩]),
  (⟨[⟨11, 32⟩, ⟨15, 2⟩], [], [⟨117, 4⟩, ⟨231, 4⟩, ⟨125, 1⟩], [⟨0, 8⟩, ⟨1, 2⟩], [⟨13, 32⟩, ⟨39, 1⟩], [⟨13, 2⟩, ⟨7, 32⟩, ⟨10, 1⟩], [], [⟨18, 2⟩, ⟨58, 4⟩, ⟨49, 32⟩], []⟩,
   ⟨some true, some true, some false, none⟩,
   [some ⟨0x0, 504⟩, some ⟨0x40000, 1⟩, some ⟨0x40020, 52⟩, some ⟨0x40060, 52⟩, some ⟨0x40094, 0⟩, some ⟨0x400a0, 145⟩],
   0x41000, 0x40894, 0x40131,
   [⟨0x1, 5, 0x1000, 0x0, 504, 504⟩, ⟨0x1, 6, 0x2000, 0x40000, 84, 84⟩, ⟨0x1, 4, 0x2060, 0x40060, 52, 52⟩, ⟨0x1, 6, 0x20a0, 0x400a0, 0, 145⟩, ⟨0x6474e551, 6, 0x0, 0x0, 0, 0⟩]),
  (⟨[⟨29, 8⟩, ⟨8, 32⟩], [], [⟨122, 8⟩], [], [⟨56, 1⟩, ⟨34, 4⟩], [⟨46, 8⟩], [⟨25, 2⟩, ⟨44, 2⟩, ⟨53, 1⟩], [⟨32, 1⟩, ⟨13, 1⟩, ⟨3, 16⟩], []⟩,
   ⟨none, some true, some false, some true⟩,
   [some ⟨0x0, 164⟩, none, some ⟨0x40000, 90⟩, some ⟨0x40060, 48⟩, some ⟨0x40090, 123⟩, some ⟨0x40110, 51⟩],
   0x41000, 0x40890, 0x40143,
   [⟨0x1, 5, 0x1000, 0x0, 164, 164⟩, ⟨0x1, 6, 0x2000, 0x40000, 90, 90⟩, ⟨0x1, 4, 0x2060, 0x40060, 48, 48⟩, ⟨0x1, 6, 0x2090, 0x40090, 123, 123⟩, ⟨0x1, 6, 0x2110, 0x40110, 0, 51⟩, ⟨0x6474e551, 6, 0x0, 0x0, 0, 0⟩]),
  (⟨[⟨32, 16⟩, ⟨35, 32⟩], [], [⟨143, 4⟩, ⟨300, 4⟩, ⟨260, 16⟩, ⟨182, 16⟩], [⟨42, 2⟩], [⟨8, 16⟩, ⟨43, 8⟩], [], [⟨41, 16⟩, ⟨54, 16⟩, ⟨1, 8⟩], [], []⟩,
   ⟨some true, some true, none, some true⟩,
   [some ⟨0x0, 968⟩, some ⟨0x40000, 42⟩, some ⟨0x40030, 51⟩, some ⟨0x40064, 0⟩, some ⟨0x40070, 105⟩, some ⟨0x400dc, 0⟩],
   0x41000, 0x40870, 0x400dc,
   [⟨0x1, 5, 0x1000, 0x0, 968, 968⟩, ⟨0x1, 6, 0x2000, 0x40000, 217, 217⟩, ⟨0x6474e551, 6, 0x0, 0x0, 0, 0⟩]),
  (⟨[⟨6, 1⟩, ⟨20, 8⟩], [⟨16, 1⟩], [⟨115, 4⟩, ⟨165, 4⟩], [⟨56, 4⟩, ⟨23, 16⟩], [], [⟨5, 8⟩, ⟨16, 4⟩], [⟨47, 4⟩, ⟨8, 4⟩], [⟨3, 4⟩], []⟩,
   ⟨some true, none, some false, some true⟩,
   [some ⟨0x0, 328⟩, some ⟨0x40000, 87⟩, none, some ⟨0x40058, 24⟩, some ⟨0x40070, 56⟩, some ⟨0x400a8, 3⟩],
   0x41000, 0x40870, 0x400ab,
   [⟨0x1, 5, 0x1000, 0x0, 328, 328⟩, ⟨0x1, 6, 0x2000, 0x40000, 87, 87⟩, ⟨0x1, 4, 0x2058, 0x40058, 24, 24⟩, ⟨0x1, 6, 0x2070, 0x40070, 56, 56⟩, ⟨0x1, 6, 0x20a8, 0x400a8, 0, 3⟩, ⟨0x6474e551, 6, 0x0, 0x0, 0, 0⟩]),
  (⟨[⟨2, 16⟩], [⟨11, 1⟩], [⟨267, 4⟩, ⟨85, 1⟩, ⟨290, 16⟩], [], [⟨59, 1⟩, ⟨47, 2⟩], [], [⟨39, 1⟩, ⟨10, 4⟩, ⟨53, 8⟩], [⟨51, 16⟩, ⟨49, 4⟩, ⟨48, 1⟩], []⟩,
   ⟨none, some true, none, some true⟩,
   [some ⟨0x0, 660⟩, none, some ⟨0x40000, 107⟩, some ⟨0x4006c, 0⟩, some ⟨0x40070, 109⟩, some ⟨0x400e0, 149⟩],
   0x41000, 0x40870, 0x40175,
   [⟨0x1, 5, 0x1000, 0x0, 660, 660⟩, ⟨0x1, 6, 0x2000, 0x40000, 221, 221⟩, ⟨0x1, 6, 0x20e0, 0x400e0, 0, 149⟩, ⟨0x6474e551, 6, 0x0, 0x0, 0, 0⟩]),
  (⟨[⟨24, 4⟩], [⟨50, 4⟩], [⟨145, 4⟩, ⟨203, 1⟩, ⟨163, 8⟩], [⟨43, 32⟩, ⟨26, 16⟩], [⟨8, 16⟩, ⟨41, 1⟩], [⟨48, 4⟩], [⟨3, 16⟩], [⟨58, 1⟩, ⟨60, 4⟩, ⟨58, 32⟩], []⟩,
   ⟨some true, some true, some false, some true⟩,
   [some ⟨0x0, 588⟩, some ⟨0x40000, 74⟩, some ⟨0x40050, 49⟩, some ⟨0x40084, 48⟩, some ⟨0x400c0, 3⟩, some ⟨0x400e0, 186⟩],
   0x41000, 0x408c0, 0x4019a,
   [⟨0x1, 5, 0x1000, 0x0, 588, 588⟩, ⟨0x1, 6, 0x2000, 0x40000, 129, 129⟩, ⟨0x1, 4, 0x2084, 0x40084, 48, 48⟩, ⟨0x1, 6, 0x20c0, 0x400c0, 3, 3⟩, ⟨0x1, 6, 0x20e0, 0x400e0, 0, 186⟩, ⟨0x6474e551, 6, 0x0, 0x0, 0, 0⟩]),
  (⟨[⟨9, 1⟩, ⟨34, 1⟩], [⟨50, 4⟩], [⟨51679, 4⟩], [⟨32, 2⟩], [], [], [⟨58, 1⟩], [], []⟩,
   ⟨some true, none, none, some true⟩,
   [some ⟨0x0, 51776⟩, some ⟨0x40000, 32⟩, none, some ⟨0x40020, 0⟩, some ⟨0x40020, 58⟩, some ⟨0x4005c, 0⟩],
   0x41000, 0x40820, 0x4005c,
   [⟨0x1, 5, 0x1000, 0x0, 51776, 51776⟩, ⟨0x1, 6, 0xe000, 0x40000, 90, 90⟩, ⟨0x6474e551, 6, 0x0, 0x0, 0, 0⟩]),
  (⟨[⟨16, 1⟩], [⟨15, 4⟩], [⟨88, 1⟩], [⟨31, 16⟩], [⟨15, 4⟩], [⟨35, 4⟩, ⟨10, 8⟩], [⟨40, 4⟩, ⟨29, 32⟩], [⟨34, 2⟩, ⟨57, 4⟩], []⟩,
   ⟨some true, some true, some false, some true⟩,
   [some ⟨0x0, 120⟩, some ⟨0x40000, 31⟩, some ⟨0x40020, 15⟩, some ⟨0x40030, 52⟩, some ⟨0x40080, 93⟩, some ⟨0x400e0, 93⟩],
   0x41000, 0x40880, 0x4013d,
   [⟨0x1, 5, 0x1000, 0x0, 120, 120⟩, ⟨0x1, 6, 0x2000, 0x40000, 47, 47⟩, ⟨0x1, 4, 0x2030, 0x40030, 52, 52⟩, ⟨0x1, 6, 0x2080, 0x40080, 93, 93⟩, ⟨0x1, 6, 0x20e0, 0x400e0, 0, 93⟩, ⟨0x6474e551, 6, 0x0, 0x0, 0, 0⟩]),
  (⟨[⟨37, 1⟩, ⟨14, 32⟩], [], [⟨174, 4⟩, ⟨189, 1⟩, ⟨281, 1⟩], [], [], [⟨17, 1⟩], [⟨6, 4⟩, ⟨45, 32⟩, ⟨2, 4⟩], [], []⟩,
   ⟨none, none, some false, some true⟩,
   [some ⟨0x0, 724⟩, none, none, some ⟨0x40000, 20⟩, some ⟨0x40020, 82⟩, some ⟨0x40074, 0⟩],
   0x41000, 0x40820, 0x40074,
   [⟨0x1, 5, 0x1000, 0x0, 724, 724⟩, ⟨0x1, 4, 0x2000, 0x40000, 20, 20⟩, ⟨0x1, 6, 0x2020, 0x40020, 82, 82⟩, ⟨0x6474e551, 6, 0x0, 0x0, 0, 0⟩]),
  (⟨[⟨35, 8⟩, ⟨15, 4⟩], [], [], [⟨31, 8⟩], [], [], [⟨8, 16⟩, ⟨34, 16⟩], [⟨47, 4⟩], []⟩,
   ⟨some true, none, none, some true⟩,
   [some ⟨0x0, 52⟩, some ⟨0x40000, 31⟩, none, some ⟨0x40020, 0⟩, some ⟨0x40020, 50⟩, some ⟨0x40054, 47⟩],
   0x41000, 0x40820, 0x40083,
   [⟨0x1, 5, 0x1000, 0x0, 52, 52⟩, ⟨0x1, 6, 0x2000, 0x40000, 82, 82⟩, ⟨0x1, 6, 0x2054, 0x40054, 0, 47⟩, ⟨0x6474e551, 6, 0x0, 0x0, 0, 0⟩]),
  (⟨[⟨27, 8⟩], [], [⟨43831, 2⟩], [⟨46, 4⟩, ⟨52, 1⟩], [⟨27, 1⟩], [⟨35, 4⟩], [⟨6, 16⟩], [⟨58, 2⟩, ⟨59, 1⟩, ⟨43, 4⟩], []⟩,
   ⟨some true, some true, some false, some true⟩,
   [some ⟨0x0, 43860⟩, some ⟨0x40000, 98⟩, some ⟨0x40064, 27⟩, some ⟨0x40080, 36⟩, some ⟨0x400b0, 6⟩, some ⟨0x400b8, 163⟩],
   0x41000, 0x408b0, 0x4015b,
   [⟨0x1, 5, 0x1000, 0x0, 43860, 43860⟩, ⟨0x1, 6, 0xc000, 0x40000, 127, 127⟩, ⟨0x1, 4, 0xc080, 0x40080, 36, 36⟩, ⟨0x1, 6, 0xc0b0, 0x400b0, 6, 6⟩, ⟨0x1, 6, 0xc0b8, 0x400b8, 0, 163⟩, ⟨0x6474e551, 6, 0x0, 0x0, 0, 0⟩]),
  (⟨[⟨2, 32⟩, ⟨23, 4⟩], [], [⟨237, 8⟩, ⟨130, 1⟩], [⟨4, 8⟩], [⟨0, 8⟩, ⟨54, 4⟩], [⟨35, 32⟩, ⟨10, 4⟩, ⟨7, 1⟩], [⟨51, 1⟩, ⟨31, 32⟩], [⟨0, 1⟩, ⟨11, 4⟩], []⟩,
   ⟨some true, some true, some false, some true⟩,
   [some ⟨0x0, 400⟩, some ⟨0x40000, 4⟩, some ⟨0x40008, 54⟩, some ⟨0x40040, 56⟩, some ⟨0x40080, 95⟩, some ⟨0x400e0, 11⟩],
   0x41000, 0x40880, 0x400eb,
   [⟨0x1, 5, 0x1000, 0x0, 400, 400⟩, ⟨0x1, 6, 0x2000, 0x40000, 62, 62⟩, ⟨0x1, 4, 0x2040, 0x40040, 56, 56⟩, ⟨0x1, 6, 0x2080, 0x40080, 95, 95⟩, ⟨0x1, 6, 0x20e0, 0x400e0, 0, 11⟩, ⟨0x6474e551, 6, 0x0, 0x0, 0, 0⟩]),
  (⟨[⟨17, 8⟩], [⟨16, 8⟩], [⟨119, 4⟩, ⟨101, 1⟩, ⟨157, 16⟩], [⟨34, 1⟩, ⟨35, 2⟩], [], [⟨10, 4⟩, ⟨7, 4⟩], [], [⟨5, 32⟩], []⟩,
   ⟨some true, none, some false, none⟩,
   [some ⟨0x0, 432⟩, some ⟨0x40000, 69⟩, none, some ⟨0x40048, 20⟩, some ⟨0x4005c, 0⟩, some ⟨0x40060, 5⟩],
   0x41000, 0x4085c, 0x40065,
   [⟨0x1, 5, 0x1000, 0x0, 432, 432⟩, ⟨0x1, 6, 0x2000, 0x40000, 69, 69⟩, ⟨0x1, 4, 0x2048, 0x40048, 20, 20⟩, ⟨0x1, 6, 0x2060, 0x40060, 0, 5⟩, ⟨0x6474e551, 6, 0x0, 0x0, 0, 0⟩]),
  (⟨[⟨19, 1⟩], [⟨8, 4⟩], [⟨57, 32⟩, ⟨70, 32⟩], [⟨33, 4⟩], [⟨16, 16⟩], [⟨12, 1⟩, ⟨12, 1⟩], [⟨35, 1⟩, ⟨43, 1⟩, ⟨39, 1⟩], [], []⟩,
   ⟨some true, some true, some false, some true⟩,
   [some ⟨0x0, 168⟩, some ⟨0x40000, 33⟩, some ⟨0x40030, 16⟩, some ⟨0x40040, 24⟩, some ⟨0x40058, 117⟩, some ⟨0x400d0, 0⟩],
   0x41000, 0x40858, 0x400d0,
   [⟨0x1, 5, 0x1000, 0x0, 168, 168⟩, ⟨0x1, 6, 0x2000, 0x40000, 64, 64⟩, ⟨0x1, 4, 0x2040, 0x40040, 24, 24⟩, ⟨0x1, 6, 0x2058, 0x40058, 117, 117⟩, ⟨0x6474e551, 6, 0x0, 0x0, 0, 0⟩]),
  (⟨[⟨17, 4⟩, ⟨38, 4⟩], [], [], [⟨54, 8⟩, ⟨29, 1⟩], [⟨17, 2⟩, ⟨59, 8⟩], [⟨29, 4⟩], [⟨57, 1⟩], [], []⟩,
   ⟨some true, some true, some false, some true⟩,
   [some ⟨0x0, 60⟩, some ⟨0x40000, 83⟩, some ⟨0x40058, 83⟩, some ⟨0x400ac, 32⟩, some ⟨0x400cc, 57⟩, some ⟨0x40108, 0⟩],
   0x41000, 0x408cc, 0x40108,
   [⟨0x1, 5, 0x1000, 0x0, 60, 60⟩, ⟨0x1, 6, 0x2000, 0x40000, 171, 171⟩, ⟨0x1, 4, 0x20ac, 0x400ac, 32, 32⟩, ⟨0x1, 6, 0x20cc, 0x400cc, 57, 57⟩, ⟨0x6474e551, 6, 0x0, 0x0, 0, 0⟩]),
  (⟨[⟨16, 8⟩, ⟨37, 2⟩], [⟨34, 4⟩], [⟨277, 16⟩, ⟨163, 32⟩], [], [⟨818, 4⟩], [⟨1294, 4⟩, ⟨460, 1⟩, ⟨1399, 1⟩], [], [], []⟩,
   ⟨none, some true, some false, none⟩,
   [some ⟨0x0, 548⟩, none, some ⟨0x40000, 818⟩, some ⟨0x40334, 3156⟩, some ⟨0x40f88, 0⟩, some ⟨0x40f88, 0⟩],
   0x41000, 0x41788, 0x40f88,
   [⟨0x1, 5, 0x1000, 0x0, 548, 548⟩, ⟨0x1, 6, 0x2000, 0x40000, 818, 818⟩, ⟨0x1, 4, 0x2334, 0x40334, 3156, 3156⟩, ⟨0x6474e551, 6, 0x0, 0x0, 0, 0⟩]),
  (⟨[⟨17, 1⟩, ⟨10, 1⟩], [], [⟨6528, 8⟩, ⟨56828, 2⟩, ⟨35769, 1⟩, ⟨47739, 1⟩], [⟨38, 4⟩], [], [], [], [⟨42, 4⟩, ⟨37, 1⟩], []⟩,
   ⟨some true, none, none, none⟩,
   [some ⟨0x0, 146896⟩, some ⟨0x40000, 38⟩, none, some ⟨0x40028, 0⟩, some ⟨0x40028, 0⟩, some ⟨0x40028, 79⟩],
   0x41000, 0x40828, 0x40077,
   [⟨0x1, 5, 0x1000, 0x0, 146896, 146896⟩, ⟨0x1, 6, 0x25000, 0x40000, 40, 40⟩, ⟨0x1, 6, 0x25028, 0x40028, 0, 79⟩, ⟨0x6474e551, 6, 0x0, 0x0, 0, 0⟩]),
  (⟨[⟨7, 4⟩, ⟨11, 1⟩], [⟨4, 4⟩], [⟨32569, 2⟩], [⟨23, 16⟩], [⟨48, 4⟩], [⟨27, 32⟩], [], [], []⟩,
   ⟨some true, some true, some false, none⟩,
   [some ⟨0x0, 32596⟩, some ⟨0x40000, 23⟩, some ⟨0x40018, 48⟩, some ⟨0x40060, 28⟩, some ⟨0x4007c, 0⟩, some ⟨0x4007c, 0⟩],
   0x41000, 0x4087c, 0x4007c,
   [⟨0x1, 5, 0x1000, 0x0, 32596, 32596⟩, ⟨0x1, 6, 0x9000, 0x40000, 72, 72⟩, ⟨0x1, 4, 0x9060, 0x40060, 28, 28⟩, ⟨0x6474e551, 6, 0x0, 0x0, 0, 0⟩]),
  (⟨[⟨3, 4⟩], [], [⟨32, 8⟩, ⟨295, 1⟩, ⟨191, 32⟩], [⟨53, 1⟩, ⟨41, 32⟩], [⟨1, 1⟩, ⟨9, 1⟩], [⟨8, 32⟩, ⟨5, 1⟩, ⟨44, 4⟩], [⟨29, 1⟩], [⟨53, 1⟩], []⟩,
   ⟨some true, some true, some false, some true⟩,
   [some ⟨0x0, 544⟩, some ⟨0x40000, 105⟩, some ⟨0x4006c, 10⟩, some ⟨0x40080, 60⟩, some ⟨0x400bc, 29⟩, some ⟨0x400dc, 53⟩],
   0x41000, 0x408bc, 0x40111,
   [⟨0x1, 5, 0x1000, 0x0, 544, 544⟩, ⟨0x1, 6, 0x2000, 0x40000, 118, 118⟩, ⟨0x1, 4, 0x2080, 0x40080, 60, 60⟩, ⟨0x1, 6, 0x20bc, 0x400bc, 29, 29⟩, ⟨0x1, 6, 0x20dc, 0x400dc, 0, 53⟩, ⟨0x6474e551, 6, 0x0, 0x0, 0, 0⟩]),
  (⟨[⟨14, 4⟩, ⟨14, 1⟩], [⟨28, 1⟩], [⟨211, 4⟩, ⟨143, 8⟩, ⟨16, 4⟩, ⟨189, 4⟩], [], [], [⟨816, 1⟩], [⟨1255, 1⟩, ⟨716, 8⟩, ⟨489, 2⟩], [], []⟩,
   ⟨none, none, some false, some true⟩,
   [some ⟨0x0, 624⟩, none, none, some ⟨0x40000, 816⟩, some ⟨0x40330, 2461⟩, some ⟨0x40cd0, 0⟩],
   0x41000, 0x40b30, 0x40cd0,
   [⟨0x1, 5, 0x1000, 0x0, 624, 624⟩, ⟨0x1, 4, 0x2000, 0x40000, 816, 816⟩, ⟨0x1, 6, 0x2330, 0x40330, 2461, 2461⟩, ⟨0x6474e551, 6, 0x0, 0x0, 0, 0⟩]),
  (⟨[⟨24, 8⟩], [⟨36, 4⟩], [⟨248, 4⟩], [], [⟨23, 32⟩, ⟨6, 1⟩], [⟨59, 4⟩], [⟨57, 32⟩, ⟨43, 2⟩], [⟨51, 4⟩, ⟨20, 2⟩], []⟩,
   ⟨none, some true, some false, some true⟩,
   [some ⟨0x0, 308⟩, none, some ⟨0x40000, 29⟩, some ⟨0x40020, 60⟩, some ⟨0x40060, 101⟩, some ⟨0x400c8, 72⟩],
   0x41000, 0x40860, 0x40110,
   [⟨0x1, 5, 0x1000, 0x0, 308, 308⟩, ⟨0x1, 6, 0x2000, 0x40000, 29, 29⟩, ⟨0x1, 4, 0x2020, 0x40020, 60, 60⟩, ⟨0x1, 6, 0x2060, 0x40060, 101, 101⟩, ⟨0x1, 6, 0x20c8, 0x400c8, 0, 72⟩, ⟨0x6474e551, 6, 0x0, 0x0, 0, 0⟩]),
  (⟨[⟨2, 32⟩], [], [⟨75370, 1⟩], [⟨59, 4⟩], [⟨3, 2⟩], [⟨41, 1⟩], [], [⟨14, 1⟩], []⟩,
   ⟨some true, some false, some false, none⟩,
   [some ⟨0x0, 75376⟩, some ⟨0x40000, 59⟩, some ⟨0x4003c, 3⟩, some ⟨0x40040, 44⟩, some ⟨0x4006c, 0⟩, some ⟨0x4006c, 14⟩],
   0x41000, 0x4086c, 0x4007a,
   [⟨0x1, 5, 0x1000, 0x0, 75376, 75376⟩, ⟨0x1, 6, 0x14000, 0x40000, 59, 59⟩, ⟨0x1, 4, 0x1403c, 0x4003c, 48, 48⟩, ⟨0x1, 6, 0x1406c, 0x4006c, 0, 14⟩, ⟨0x6474e551, 6, 0x0, 0x0, 0, 0⟩]),
  (⟨[⟨36, 1⟩], [⟨44, 8⟩], [⟨71, 1⟩, ⟨39, 16⟩, ⟨271, 4⟩, ⟨177, 8⟩], [], [⟨19, 8⟩, ⟨19, 4⟩], [⟨36, 1⟩, ⟨30, 1⟩], [⟨33, 4⟩], [], []⟩,
   ⟨none, some true, some false, some true⟩,
   [some ⟨0x0, 652⟩, none, some ⟨0x40000, 39⟩, some ⟨0x40028, 68⟩, some ⟨0x4006c, 33⟩, some ⟨0x40090, 0⟩],
   0x41000, 0x4086c, 0x40090,
   [⟨0x1, 5, 0x1000, 0x0, 652, 652⟩, ⟨0x1, 6, 0x2000, 0x40000, 39, 39⟩, ⟨0x1, 4, 0x2028, 0x40028, 68, 68⟩, ⟨0x1, 6, 0x206c, 0x4006c, 33, 33⟩, ⟨0x6474e551, 6, 0x0, 0x0, 0, 0⟩]),
  (⟨[⟨17, 1⟩], [⟨36, 8⟩], [], [], [⟨32, 1⟩, ⟨22, 4⟩], [], [⟨20, 1⟩, ⟨42, 32⟩, ⟨53, 4⟩], [], []⟩,
   ⟨none, some true, none, some true⟩,
   [some ⟨0x0, 60⟩, none, some ⟨0x40000, 54⟩, some ⟨0x40038, 0⟩, some ⟨0x40040, 129⟩, some ⟨0x400c4, 0⟩],
   0x41000, 0x40840, 0x400c4,
   [⟨0x1, 5, 0x1000, 0x0, 60, 60⟩, ⟨0x1, 6, 0x2000, 0x40000, 193, 193⟩, ⟨0x6474e551, 6, 0x0, 0x0, 0, 0⟩]),
  (⟨[⟨28, 4⟩], [], [⟨80592, 1⟩, ⟨15377, 4⟩, ⟨86255, 2⟩], [], [⟨24, 4⟩], [⟨54, 2⟩, ⟨34, 1⟩], [], [⟨28, 4⟩], []⟩,
   ⟨none, some false, some false, none⟩,
   [some ⟨0x0, 182256⟩, none, some ⟨0x40000, 24⟩, some ⟨0x40018, 88⟩, some ⟨0x40070, 0⟩, some ⟨0x40070, 28⟩],
   0x41000, 0x40870, 0x4008c,
   [⟨0x1, 5, 0x1000, 0x0, 182256, 182256⟩, ⟨0x1, 4, 0x2e000, 0x40000, 112, 112⟩, ⟨0x1, 6, 0x2e070, 0x40070, 0, 28⟩, ⟨0x6474e551, 6, 0x0, 0x0, 0, 0⟩]),
  (⟨[⟨10, 4⟩, ⟨34, 4⟩], [⟨28, 1⟩], [⟨43409, 8⟩, ⟨40905, 2⟩, ⟨20715, 4⟩], [⟨47, 4⟩], [⟨28, 1⟩, ⟨37, 1⟩], [], [⟨25, 2⟩], [⟨38, 1⟩, ⟨3, 16⟩, ⟨45, 8⟩], []⟩,
   ⟨some true, some true, none, some true⟩,
   [some ⟨0x0, 105112⟩, some ⟨0x40000, 47⟩, some ⟨0x40030, 65⟩, some ⟨0x40074, 0⟩, some ⟨0x40074, 25⟩, some ⟨0x40090, 101⟩],
   0x41000, 0x40874, 0x400f5,
   [⟨0x1, 5, 0x1000, 0x0, 105112, 105112⟩, ⟨0x1, 6, 0x1b000, 0x40000, 141, 141⟩, ⟨0x1, 6, 0x1b090, 0x40090, 0, 101⟩, ⟨0x6474e551, 6, 0x0, 0x0, 0, 0⟩]),
  (⟨[⟨36, 4⟩, ⟨27, 8⟩], [], [⟨176, 1⟩, ⟨20, 1⟩, ⟨78, 2⟩], [⟨60, 1⟩, ⟨54, 1⟩], [], [], [⟨39, 2⟩, ⟨15, 1⟩, ⟨10, 1⟩], [⟨3, 32⟩, ⟨58, 4⟩, ⟨43, 2⟩], []⟩,
   ⟨some true, none, none, some true⟩,
   [some ⟨0x0, 344⟩, some ⟨0x40000, 114⟩, none, some ⟨0x40074, 0⟩, some ⟨0x40074, 64⟩, some ⟨0x400c0, 105⟩],
   0x41000, 0x40874, 0x40129,
   [⟨0x1, 5, 0x1000, 0x0, 344, 344⟩, ⟨0x1, 6, 0x2000, 0x40000, 180, 180⟩, ⟨0x1, 6, 0x20c0, 0x400c0, 0, 105⟩, ⟨0x6474e551, 6, 0x0, 0x0, 0, 0⟩]),
  (⟨[⟨18, 16⟩, ⟨29, 2⟩], [⟨40, 4⟩], [⟨217, 32⟩], [⟨21, 32⟩, ⟨42, 4⟩], [], [⟨33, 32⟩, ⟨39, 32⟩, ⟨18, 4⟩], [⟨19, 4⟩, ⟨8, 4⟩, ⟨29, 4⟩], [⟨5, 1⟩, ⟨60, 1⟩], []⟩,
   ⟨some true, none, some false, some true⟩,
   [some ⟨0x0, 316⟩, some ⟨0x40000, 66⟩, none, some ⟨0x40060, 124⟩, some ⟨0x400dc, 57⟩, some ⟨0x40118, 65⟩],
   0x41000, 0x408dc, 0x40159,
   [⟨0x1, 5, 0x1000, 0x0, 316, 316⟩, ⟨0x1, 6, 0x2000, 0x40000, 66, 66⟩, ⟨0x1, 4, 0x2060, 0x40060, 124, 124⟩, ⟨0x1, 6, 0x20dc, 0x400dc, 57, 57⟩, ⟨0x1, 6, 0x2118, 0x40118, 0, 65⟩, ⟨0x6474e551, 6, 0x0, 0x0, 0, 0⟩]),
  (⟨[⟨38, 1⟩, ⟨30, 4⟩], [], [⟨28, 4⟩], [], [⟨19, 2⟩, ⟨11, 16⟩], [⟨60, 16⟩], [⟨39, 32⟩, ⟨55, 32⟩], [], []⟩,
   ⟨none, some true, some false, some true⟩,
   [some ⟨0x0, 100⟩, none, some ⟨0x40000, 43⟩, some ⟨0x40030, 60⟩, some ⟨0x40080, 119⟩, some ⟨0x400f8, 0⟩],
   0x41000, 0x40880, 0x400f8,
   [⟨0x1, 5, 0x1000, 0x0, 100, 100⟩, ⟨0x1, 6, 0x2000, 0x40000, 43, 43⟩, ⟨0x1, 4, 0x2030, 0x40030, 60, 60⟩, ⟨0x1, 6, 0x2080, 0x40080, 119, 119⟩, ⟨0x6474e551, 6, 0x0, 0x0, 0, 0⟩])
]

/-- Guests lld refuses. -/
def linkErrors : List Guest := [
  ⟨[⟨11, 1⟩, ⟨16, 1⟩], [], [⟨298, 1⟩, ⟨101, 4⟩, ⟨286, 1⟩], [], [⟨1006, 1⟩], [⟨371, 1⟩, ⟨495, 4⟩, ⟨1444, 4⟩], [], [⟨1147, 8⟩, ⟨852, 4⟩], []⟩,
  ⟨[⟨1, 4⟩, ⟨19, 1⟩], [], [], [], [⟨147, 32⟩, ⟨1430, 4⟩], [], [⟨1355, 32⟩, ⟨846, 1⟩, ⟨616, 4⟩], [⟨1375, 1⟩], []⟩,
  ⟨[⟨2, 1⟩], [⟨53, 1⟩], [⟨47201, 16⟩, ⟨40423, 8⟩, ⟨25984, 4⟩], [⟨1303, 8⟩, ⟨1365, 1⟩], [], [⟨594, 2⟩, ⟨355, 4⟩, ⟨665, 4⟩], [⟨731, 2⟩, ⟨147, 4⟩], [⟨958, 4⟩, ⟨1061, 1⟩, ⟨507, 16⟩], []⟩,
  ⟨[⟨19, 8⟩, ⟨8, 1⟩], [⟨3, 1⟩], [⟨1, 16⟩, ⟨213, 1⟩, ⟨67, 32⟩], [], [⟨1100, 1⟩, ⟨162, 1⟩], [⟨111, 4⟩, ⟨1488, 4⟩, ⟨1292, 2⟩], [⟨477, 4⟩], [⟨539, 4⟩], []⟩,
  ⟨[⟨35, 16⟩], [⟨34, 16⟩], [⟨220, 32⟩, ⟨34, 4⟩], [⟨1262, 4⟩, ⟨321, 4⟩], [⟨1340, 4⟩], [⟨1369, 2⟩], [⟨1318, 16⟩], [], []⟩,
  ⟨[⟨12, 1⟩], [⟨14, 4⟩], [⟨93798, 2⟩, ⟨39456, 4⟩, ⟨7857, 16⟩, ⟨33001, 2⟩], [⟨1318, 1⟩], [⟨332, 4⟩], [⟨1117, 8⟩, ⟨759, 2⟩, ⟨223, 2⟩], [⟨447, 32⟩, ⟨681, 8⟩], [⟨1458, 32⟩], []⟩,
  ⟨[⟨24, 4⟩], [⟨55, 1⟩], [⟨60, 4⟩, ⟨224, 4⟩, ⟨298, 1⟩, ⟨220, 16⟩], [⟨92, 1⟩, ⟨1212, 4⟩], [⟨1110, 16⟩], [⟨167, 4⟩, ⟨1475, 1⟩], [⟨1201, 2⟩, ⟨547, 4⟩], [⟨1105, 16⟩, ⟨130, 1⟩, ⟨707, 4⟩], []⟩,
  ⟨[⟨22, 4⟩, ⟨29, 32⟩], [], [⟨272, 32⟩, ⟨215, 1⟩, ⟨179, 2⟩], [⟨1291, 2⟩, ⟨527, 16⟩], [⟨272, 4⟩], [⟨710, 16⟩, ⟨1176, 8⟩, ⟨891, 1⟩], [⟨56, 4⟩], [⟨302, 32⟩], []⟩,
  ⟨[⟨30, 1⟩, ⟨34, 4⟩], [], [⟨257, 1⟩], [⟨40, 2⟩, ⟨23, 1⟩], [], [⟨58, 32⟩], [], [⟨59, 8⟩, ⟨9, 16⟩], [⟨4, 4⟩]⟩
]

/-- The layout of the model as the vectors list it: a tape without input sections has no section. -/
def listed (k : Kinds) (l : Layout) : List (Option Sect) :=
  [some l.text, k.inp.map fun _ => l.inp, k.out.map fun _ => l.out, some l.rodata, some l.data, some l.bss]

theorem linkVectors_ok : linkVectors.all (fun v => (link v.1).any fun l =>
    decide ((listed v.2.1 l, l.stackStart, l.gp, l.fin, segments l v.2.1) = v.2.2)) = true := by decide +kernel

theorem linkErrors_ok : linkErrors.all (fun g => (link g).isNone) = true := by decide +kernel

/-- Input sections, the first one `_start`; the words of `_start` after linking (with relaxation allowed). -/
def bootVectors : List (Guest × List (BitVec 32)) := [
  (⟨[⟨36, 4⟩], [⟨40, 16⟩], [⟨3, 8⟩, ⟨238, 4⟩], [⟨1264, 16⟩], [], [], [⟨785, 16⟩], [], []⟩,
   [0x00041197#32, 0xcf018193#32, 0x00041117#32, 0xff810113#32, 0x00010413#32, 0x00a05463#32, 0xc0001073#32, 0x014000ef#32, 0xc0001073#32]),
  (⟨[⟨36, 4⟩], [⟨32, 8⟩], [⟨53, 16⟩, ⟨186, 1⟩, ⟨102, 4⟩, ⟨10, 4⟩], [⟨1186, 32⟩, ⟨932, 4⟩], [], [⟨640, 1⟩, ⟨408, 32⟩], [], [], []⟩,
   [0x00041197#32, 0x47818193#32, 0x00041117#32, 0xff810113#32, 0x00010413#32, 0x00a05463#32, 0xc0001073#32, 0x00c000ef#32, 0xc0001073#32]),
  (⟨[⟨36, 4⟩], [⟨48, 8⟩], [⟨148, 1⟩, ⟨30, 2⟩], [⟨22, 1⟩], [], [], [⟨1, 1⟩], [⟨15, 1⟩, ⟨3, 2⟩], []⟩,
   [0x00041197#32, 0x81818193#32, 0x00041117#32, 0xff810113#32, 0x00010413#32, 0x00a05463#32, 0xc0001073#32, 0x00c000ef#32, 0xc0001073#32]),
  (⟨[⟨36, 4⟩], [⟨8, 16⟩], [⟨93, 4⟩, ⟨146, 4⟩, ⟨283, 2⟩, ⟨7, 1⟩], [⟨877, 32⟩, ⟨917, 2⟩], [⟨599, 4⟩, ⟨1045, 1⟩], [], [], [], []⟩,
   [0x00041197#32, 0x57018193#32, 0x00041117#32, 0xff810113#32, 0x00010413#32, 0x00a05463#32, 0xc0001073#32, 0x014000ef#32, 0xc0001073#32]),
  (⟨[⟨36, 4⟩], [⟨68, 8⟩], [⟨60353, 32⟩, ⟨82237, 1⟩], [⟨35, 32⟩], [], [⟨3, 1⟩, ⟨31, 16⟩], [⟨60, 1⟩, ⟨22, 2⟩, ⟨3, 1⟩], [], []⟩,
   [0x00041197#32, 0x86018193#32, 0x00041117#32, 0xff810113#32, 0x00010413#32, 0x00a05463#32, 0xc0001073#32, 0x00c000ef#32, 0xc0001073#32]),
  (⟨[⟨36, 4⟩], [⟨44, 8⟩], [⟨94, 32⟩, ⟨291, 1⟩, ⟨233, 1⟩], [], [], [], [⟨2, 1⟩, ⟨19, 4⟩], [⟨43, 2⟩, ⟨40, 32⟩], []⟩,
   [0x00041197#32, 0x80018193#32, 0x00041117#32, 0xff810113#32, 0x00010413#32, 0x00a05463#32, 0xc0001073#32, 0x00c000ef#32, 0xc0001073#32]),
  (⟨[⟨36, 4⟩], [⟨20, 16⟩], [⟨289, 32⟩], [⟨262, 32⟩], [], [⟨837, 16⟩], [], [], []⟩,
   [0x00041197#32, 0xc5818193#32, 0x00041117#32, 0xff810113#32, 0x00010413#32, 0x00a05463#32, 0xc0001073#32, 0x014000ef#32, 0xc0001073#32]),
  (⟨[⟨36, 4⟩], [⟨60, 4⟩], [⟨10, 8⟩, ⟨13, 32⟩, ⟨215, 1⟩], [⟨30, 2⟩], [⟨26, 32⟩], [⟨52, 32⟩, ⟨59, 1⟩], [⟨21, 4⟩, ⟨4, 1⟩, ⟨5, 4⟩], [⟨33, 8⟩, ⟨37, 4⟩, ⟨25, 4⟩], []⟩,
   [0x00041197#32, 0x8b018193#32, 0x00041117#32, 0xff810113#32, 0x00010413#32, 0x00a05463#32, 0xc0001073#32, 0x008000ef#32, 0xc0001073#32]),
  (⟨[⟨36, 4⟩], [⟨36, 4⟩], [⟨185, 1⟩, ⟨104, 1⟩], [⟨23, 8⟩, ⟨54, 4⟩], [⟨39, 32⟩], [⟨23, 4⟩, ⟨1, 16⟩, ⟨20, 1⟩], [⟨34, 1⟩, ⟨10, 1⟩], [], []⟩,
   [0x00041197#32, 0x8c818193#32, 0x00041117#32, 0xff810113#32, 0x00010413#32, 0x00a05463#32, 0xc0001073#32, 0x008000ef#32, 0xc0001073#32]),
  (⟨[⟨36, 4⟩], [⟨48, 16⟩], [], [⟨58, 4⟩], [⟨39, 16⟩, ⟨19, 4⟩], [⟨27, 16⟩, ⟨12, 1⟩], [⟨39, 1⟩], [⟨35, 8⟩, ⟨28, 4⟩, ⟨44, 4⟩], []⟩,
   [0x00041197#32, 0x8a818193#32, 0x00041117#32, 0xff810113#32, 0x00010413#32, 0x00a05463#32, 0xc0001073#32, 0x014000ef#32, 0xc0001073#32]),
  (⟨[⟨36, 4⟩], [⟨64, 16⟩], [], [], [], [], [], [⟨673, 32⟩], []⟩,
   [0x00041197#32, 0x80018193#32, 0x00041117#32, 0xff810113#32, 0x00010413#32, 0x00a05463#32, 0xc0001073#32, 0x014000ef#32, 0xc0001073#32]),
  (⟨[⟨36, 4⟩], [⟨60, 8⟩], [⟨155, 4⟩, ⟨143, 16⟩], [⟨58, 4⟩], [⟨4, 1⟩, ⟨27, 4⟩], [⟨17, 4⟩], [], [], []⟩,
   [0x00041197#32, 0x87018193#32, 0x00041117#32, 0xff810113#32, 0x00010413#32, 0x00a05463#32, 0xc0001073#32, 0x00c000ef#32, 0xc0001073#32])
]

theorem bootVectors_ok : bootVectors.all (fun v => (link v.1).any fun l => v.1.initRust.head?.any fun p =>
    decide (Boot.bootWords (BitVec.ofNat 32 l.gp) (BitVec.ofNat 32 l.stackStart) (BitVec.ofNat 32 (alignUp 36 p.align)) = v.2)) =
      true := by decide +kernel

/-- A file lld wrote: the code `lui x2,0x40; lw x1,0(x2); lw x3,8(x2); lw x4,12(x2); add x1,x1,x3; add x1,x1,x4; sw x1,4(x2);
jal x0,0`, tapes of four bytes, a constant 5, a variable 7 and eight bytes of `.bss`. -/
def lldFile : List (BitVec 8) :=
  [127, 69, 76, 70, 1, 1, 1, 0, 0, 0, 0, 0, 0, 0, 0, 0, 2, 0, 243, 0, 1, 0, 0, 0, 0, 0, 0, 0, 52, 0, 0, 0,
   212, 32, 0, 0, 0, 0, 0, 0, 52, 0, 32, 0, 6, 0, 40, 0, 10, 0, 8, 0, 1, 0, 0, 0, 0, 16, 0, 0, 0, 0, 0, 0,
   0, 0, 0, 0, 32, 0, 0, 0, 32, 0, 0, 0, 5, 0, 0, 0, 0, 16, 0, 0, 1, 0, 0, 0, 0, 32, 0, 0, 0, 0, 4, 0,
   0, 0, 4, 0, 8, 0, 0, 0, 8, 0, 0, 0, 6, 0, 0, 0, 0, 16, 0, 0, 1, 0, 0, 0, 8, 32, 0, 0, 8, 0, 4, 0,
   8, 0, 4, 0, 4, 0, 0, 0, 4, 0, 0, 0, 4, 0, 0, 0, 0, 16, 0, 0, 1, 0, 0, 0, 12, 32, 0, 0, 12, 0, 4, 0,
   12, 0, 4, 0, 4, 0, 0, 0, 4, 0, 0, 0, 6, 0, 0, 0, 0, 16, 0, 0, 1, 0, 0, 0, 16, 32, 0, 0, 16, 0, 4, 0,
   16, 0, 4, 0, 0, 0, 0, 0, 8, 0, 0, 0, 6, 0, 0, 0, 0, 16, 0, 0, 81, 229, 116, 100, 0, 0, 0, 0, 0, 0, 0, 0,
   0, 0, 0, 0, 0, 0, 0, 0, 0, 0, 0, 0, 6] ++ (
  List.replicate 3859 0#8 ++ (
  [55, 1, 4, 0, 131, 32, 1, 0, 131, 33, 129, 0, 3, 34, 193, 0, 179, 128, 48, 0, 179, 128, 64, 0, 35, 34, 17, 0, 111] ++ (
  List.replicate 4075 0#8 ++ (
  [5, 0, 0, 0, 7, 0, 0, 0, 0, 0, 0, 0, 0, 0, 0, 0, 0, 0, 0, 0, 0, 0, 0, 0, 1, 0, 0, 0, 0, 0, 0, 0,
   0, 0, 0, 0, 16, 0, 1, 0, 8, 0, 0, 0, 12, 8, 4, 0, 0, 0, 0, 0, 16, 0, 5, 0, 26, 0, 0, 0, 0, 16, 4, 0,
   0, 0, 0, 0, 16, 0, 241, 255, 39, 0, 0, 0, 24, 0, 4, 0, 0, 0, 0, 0, 16, 0, 6, 0, 0, 46, 116, 101, 120, 116, 0, 46,
   105, 110, 112, 100, 97, 116, 97, 0, 46, 111, 117, 116, 100, 97, 116, 97, 0, 46, 114, 111, 100, 97, 116, 97, 0, 46, 100, 97, 116, 97, 0, 46,
   98, 115, 115, 0, 46, 115, 121, 109, 116, 97, 98, 0, 46, 115, 104, 115, 116, 114, 116, 97, 98, 0, 46, 115, 116, 114, 116, 97, 98, 0, 0, 95,
   115, 116, 97, 114, 116, 0, 95, 95, 103, 108, 111, 98, 97, 108, 95, 112, 111, 105, 110, 116, 101, 114, 36, 0, 95, 115, 116, 97, 99, 107, 95, 115,
   116, 97, 114, 116, 0, 95, 101, 110, 100] ++ (
  List.replicate 43 0#8 ++ (
  [1, 0, 0, 0, 1, 0, 0, 0, 6, 0, 0, 0, 0, 0, 0, 0, 0, 16, 0, 0, 32, 0, 0, 0, 0, 0, 0, 0, 0, 0, 0, 0,
   4, 0, 0, 0, 0, 0, 0, 0, 7, 0, 0, 0, 1, 0, 0, 0, 3, 0, 0, 0, 0, 0, 4, 0, 0, 32, 0, 0, 4, 0, 0, 0,
   0, 0, 0, 0, 0, 0, 0, 0, 4, 0, 0, 0, 0, 0, 0, 0, 16, 0, 0, 0, 1, 0, 0, 0, 3, 0, 0, 0, 4, 0, 4, 0,
   4, 32, 0, 0, 4, 0, 0, 0, 0, 0, 0, 0, 0, 0, 0, 0, 4, 0, 0, 0, 0, 0, 0, 0, 25, 0, 0, 0, 1, 0, 0, 0,
   2, 0, 0, 0, 8, 0, 4, 0, 8, 32, 0, 0, 4, 0, 0, 0, 0, 0, 0, 0, 0, 0, 0, 0, 4, 0, 0, 0, 0, 0, 0, 0,
   33, 0, 0, 0, 1, 0, 0, 0, 3, 0, 0, 0, 12, 0, 4, 0, 12, 32, 0, 0, 4, 0, 0, 0, 0, 0, 0, 0, 0, 0, 0, 0,
   4, 0, 0, 0, 0, 0, 0, 0, 39, 0, 0, 0, 8, 0, 0, 0, 3, 0, 0, 0, 16, 0, 4, 0, 16, 32, 0, 0, 8, 0, 0, 0,
   0, 0, 0, 0, 0, 0, 0, 0, 4, 0, 0, 0, 0, 0, 0, 0, 44, 0, 0, 0, 2, 0, 0, 0, 0, 0, 0, 0, 0, 0, 0, 0,
   16, 32, 0, 0, 80, 0, 0, 0, 9, 0, 0, 0, 1, 0, 0, 0, 4, 0, 0, 0, 16, 0, 0, 0, 52, 0, 0, 0, 3, 0, 0, 0,
   0, 0, 0, 0, 0, 0, 0, 0, 96, 32, 0, 0, 70, 0, 0, 0, 0, 0, 0, 0, 0, 0, 0, 0, 1, 0, 0, 0, 0, 0, 0, 0,
   62, 0, 0, 0, 3, 0, 0, 0, 0, 0, 0, 0, 0, 0, 0, 0, 166, 32, 0, 0, 44, 0, 0, 0, 0, 0, 0, 0, 0, 0, 0, 0,
   1, 0, 0, 0, 0, 0, 0, 0]))))))

end Verif
