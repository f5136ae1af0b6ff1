import Verif.Model.Select
/-
  Written by tools/gen_link_vectors.py: sections with names and references, linked with
  compiler/linker-script/default.x by lld 22.1.4.
-/
namespace Verif
open Model Model.Link

/-- Whether unused sections are collected; the input sections; the addresses of those in the program; `_end`. -/
def selectVectors : List (Bool × List InSec × List (Nat × Nat) × Nat) := [
  (true, [⟨".sbss", ⟨38, 4⟩, [], false⟩, ⟨".sdata", ⟨4, 8⟩, [4], false⟩, ⟨".init", ⟨37, 8⟩, [3, 6], false⟩, ⟨".rodata..L", ⟨16, 16⟩, [5], false⟩, ⟨".rodata..L", ⟨25, 1⟩, [4, 7], false⟩, ⟨".sbss", ⟨17, 1⟩, [], false⟩, ⟨".text.unlikely.b", ⟨14, 2⟩, [], false⟩, ⟨".sdata2.z", ⟨30, 2⟩, [7], true⟩],
   [(2, 0x0), (3, 0x40000), (5, 0x40030), (6, 0x28), (7, 0x40010)], 0x40041),
  (true, [⟨".rodata", ⟨23, 4⟩, [7, 1], false⟩, ⟨".text.c.d", ⟨12, 16⟩, [], false⟩, ⟨".eh_frame.z", ⟨29, 1⟩, [5], false⟩, ⟨".init", ⟨8, 16⟩, [0, 4], true⟩, ⟨".text.unlikely.b", ⟨38, 1⟩, [1], false⟩, ⟨".data", ⟨39, 8⟩, [5, 5, 1], false⟩, ⟨".text", ⟨21, 4⟩, [], false⟩, ⟨".outdata", ⟨19, 8⟩, [4], false⟩],
   [(0, 0x40014), (1, 0x10), (3, 0x0), (4, 0x1c), (7, 0x40000)], 0x4002c),
  (true, [⟨".init", ⟨36, 16⟩, [2, 5, 2], false⟩, ⟨".sdata.q", ⟨39, 8⟩, [4, 7, 10], false⟩, ⟨".init", ⟨18, 4⟩, [], false⟩, ⟨".data.v", ⟨25, 4⟩, [], false⟩, ⟨".srodata.x", ⟨16, 1⟩, [6], false⟩, ⟨".text.a", ⟨6, 8⟩, [5], false⟩, ⟨".data", ⟨27, 4⟩, [7], false⟩, ⟨".rodata..L", ⟨30, 2⟩, [4], false⟩, ⟨".text.a", ⟨39, 8⟩, [], false⟩, ⟨".sdata2", ⟨26, 16⟩, [11, 10, 9], false⟩, ⟨".rodata", ⟨40, 16⟩, [8], false⟩, ⟨".sbss.1", ⟨37, 1⟩, [], true⟩],
   [(0, 0x0), (2, 0x24), (5, 0x38), (11, 0x40000)], 0x40025),
  (true, [⟨".text", ⟨14, 4⟩, [5, 1], false⟩, ⟨".sdata.q", ⟨34, 4⟩, [2, 2, 11], false⟩, ⟨".sdata2.z", ⟨36, 16⟩, [2, 0], false⟩, ⟨".outdata", ⟨33, 8⟩, [], false⟩, ⟨".sdata2", ⟨13, 8⟩, [], false⟩, ⟨".inpdata", ⟨5, 2⟩, [], false⟩, ⟨".sdata.q", ⟨33, 16⟩, [], false⟩, ⟨".text.unlikely.b", ⟨34, 4⟩, [12], false⟩, ⟨".sdata2.z", ⟨25, 2⟩, [], false⟩, ⟨".data.v", ⟨36, 2⟩, [8], false⟩, ⟨".init", ⟨20, 8⟩, [], true⟩, ⟨".rodata", ⟨38, 2⟩, [7], false⟩, ⟨".sbss", ⟨18, 16⟩, [], false⟩],
   [(3, 0x40008), (5, 0x40000), (10, 0x0)], 0x4002c),
  (true, [⟨".data", ⟨31, 1⟩, [6, 9], false⟩, ⟨".text.c.d", ⟨3, 4⟩, [], false⟩, ⟨".outdata", ⟨40, 4⟩, [0], false⟩, ⟨".text.unlikely.b", ⟨19, 2⟩, [], false⟩, ⟨".rodata..L", ⟨8, 1⟩, [4, 5], false⟩, ⟨".sdata2.z", ⟨18, 1⟩, [6], false⟩, ⟨".text.unlikely.b", ⟨9, 8⟩, [5, 7], false⟩, ⟨".text.unlikely.b", ⟨14, 16⟩, [], false⟩, ⟨".text", ⟨21, 2⟩, [5], false⟩, ⟨".init", ⟨15, 16⟩, [], true⟩],
   [(0, 0x4003a), (2, 0x40000), (5, 0x40028), (6, 0x10), (7, 0x20), (9, 0x0)], 0x4005c),
  (true, [⟨".data.rel.ro", ⟨24, 2⟩, [10], false⟩, ⟨".data.v", ⟨11, 4⟩, [], false⟩, ⟨".text.unlikely.b", ⟨28, 2⟩, [0], false⟩, ⟨".init", ⟨13, 8⟩, [4], true⟩, ⟨".text.a", ⟨16, 1⟩, [3, 10], false⟩, ⟨".sdata", ⟨40, 4⟩, [], false⟩, ⟨".sdata2.z", ⟨40, 1⟩, [3, 7, 8], false⟩, ⟨".bss.w", ⟨9, 16⟩, [], false⟩, ⟨".sdata2", ⟨39, 8⟩, [6], false⟩, ⟨".text", ⟨35, 16⟩, [12], false⟩, ⟨".inpdata", ⟨27, 4⟩, [1], false⟩, ⟨".outdata", ⟨35, 16⟩, [4, 7, 2], false⟩, ⟨".sdata2", ⟨19, 4⟩, [], false⟩, ⟨".sdata2", ⟨36, 2⟩, [14], false⟩, ⟨".rodata..L", ⟨5, 4⟩, [], false⟩],
   [(0, 0x40044), (1, 0x4005c), (2, 0x10), (3, 0x0), (4, 0x2c), (7, 0x40070), (10, 0x40000), (11, 0x40020)], 0x40079),
  (true, [⟨".init", ⟨14, 2⟩, [3], false⟩, ⟨".eh_frame.z", ⟨12, 16⟩, [], false⟩, ⟨".sbss.1", ⟨26, 4⟩, [], false⟩, ⟨".init.rust", ⟨37, 1⟩, [0, 2], true⟩],
   [(0, 0x0), (2, 0x40000), (3, 0x10)], 0x4001a),
  (false, [⟨".data", ⟨37, 1⟩, [6, 7, 1], false⟩, ⟨".data", ⟨21, 16⟩, [], false⟩, ⟨".init.rust", ⟨22, 8⟩, [2, 0], false⟩, ⟨".bss", ⟨7, 2⟩, [], false⟩, ⟨".sdata", ⟨21, 1⟩, [], false⟩, ⟨".inpdata", ⟨0, 4⟩, [], false⟩, ⟨".rodata.cst", ⟨18, 2⟩, [1, 4, 0], false⟩, ⟨".init", ⟨31, 2⟩, [9], false⟩, ⟨".bss", ⟨32, 4⟩, [], true⟩, ⟨".bss.w", ⟨28, 1⟩, [], false⟩],
   [(0, 0x40035), (1, 0x40060), (2, 0x20), (3, 0x40078), (4, 0x40020), (5, 0x40000), (6, 0x40000), (7, 0x0), (8, 0x40080), (9, 0x400a0)], 0x400bc),
  (true, [⟨".riscv.attributes.b", ⟨3, 16⟩, [], false⟩, ⟨".init", ⟨6, 4⟩, [], true⟩, ⟨".bss", ⟨14, 2⟩, [], false⟩, ⟨".inpdata", ⟨26, 2⟩, [2, 4, 1], false⟩, ⟨".sbss.1", ⟨39, 8⟩, [], false⟩],
   [(1, 0x0), (2, 0x40020), (3, 0x40000), (4, 0x40030)], 0x40057),
  (true, [⟨".inpdata", ⟨12, 2⟩, [0, 7, 5], false⟩, ⟨".sbss.1", ⟨1, 4⟩, [], false⟩, ⟨".srodata", ⟨4, 2⟩, [1], false⟩, ⟨".bss", ⟨37, 1⟩, [], false⟩, ⟨".init", ⟨30, 2⟩, [1, 7, 0], true⟩, ⟨".bss", ⟨9, 2⟩, [], false⟩, ⟨".rodata..L", ⟨28, 8⟩, [4, 3], false⟩, ⟨".text.unlikely.b", ⟨38, 4⟩, [5], false⟩, ⟨".init", ⟨26, 4⟩, [0], false⟩, ⟨".sdata", ⟨10, 8⟩, [8, 5], false⟩],
   [(0, 0x40000), (1, 0x4000c), (4, 0x0), (5, 0x4000e), (7, 0x3c), (8, 0x20)], 0x40017),
  (true, [⟨".rodata", ⟨30, 8⟩, [3, 3], false⟩, ⟨".rodata.cst", ⟨21, 16⟩, [9], false⟩, ⟨".sdata2.z", ⟨38, 8⟩, [], false⟩, ⟨".outdata", ⟨6, 2⟩, [14], false⟩, ⟨".text.a", ⟨27, 4⟩, [5, 13], false⟩, ⟨".init", ⟨28, 4⟩, [], true⟩, ⟨".bss.w", ⟨36, 4⟩, [], false⟩, ⟨".bss", ⟨28, 16⟩, [], false⟩, ⟨".bss.w", ⟨15, 1⟩, [], false⟩, ⟨".sdata2", ⟨12, 4⟩, [6, 13, 5], false⟩, ⟨".rodata", ⟨8, 4⟩, [13, 5], false⟩, ⟨".outdata", ⟨11, 1⟩, [14, 5], false⟩, ⟨".bss", ⟨32, 4⟩, [], false⟩, ⟨".bss.w", ⟨27, 1⟩, [], false⟩, ⟨".rodata..L", ⟨14, 2⟩, [6, 14, 5], false⟩],
   [(3, 0x40000), (5, 0x0), (6, 0x40024), (11, 0x40006), (14, 0x40014)], 0x40048),
  (true, [⟨".data", ⟨5, 16⟩, [], false⟩, ⟨".init", ⟨9, 4⟩, [4], true⟩, ⟨".sbss.1", ⟨17, 8⟩, [], false⟩, ⟨".bss", ⟨24, 1⟩, [], false⟩, ⟨".outdata", ⟨4, 4⟩, [0], false⟩],
   [(0, 0x40010), (1, 0x0), (4, 0x40000)], 0x40018),
  (true, [⟨".init", ⟨22, 16⟩, [0], true⟩, ⟨".sdata.q", ⟨9, 8⟩, [], false⟩, ⟨".sdata2.z", ⟨29, 4⟩, [3], false⟩, ⟨".rodata", ⟨21, 2⟩, [2], false⟩],
   [(0, 0x0)], 0x40000),
  (true, [⟨".inpdata", ⟨11, 8⟩, [5], false⟩, ⟨".inpdata", ⟨25, 8⟩, [2, 6, 3], false⟩, ⟨".sbss.1", ⟨6, 4⟩, [], false⟩, ⟨".text.c.d", ⟨16, 16⟩, [4], false⟩, ⟨".init", ⟨31, 16⟩, [3, 2], true⟩, ⟨".rodata", ⟨9, 4⟩, [], false⟩, ⟨".sdata.q", ⟨8, 1⟩, [7], false⟩, ⟨".text", ⟨4, 4⟩, [3], false⟩, ⟨".sbss", ⟨18, 8⟩, [], false⟩],
   [(0, 0x40000), (1, 0x40010), (2, 0x40040), (3, 0x20), (4, 0x0), (5, 0x4002c), (6, 0x40038), (7, 0x30)], 0x40046),
  (true, [⟨".rodata", ⟨31, 8⟩, [], false⟩, ⟨".sdata2.z", ⟨38, 1⟩, [0, 13, 11], false⟩, ⟨".inpdata", ⟨40, 2⟩, [], false⟩, ⟨".bss", ⟨1, 16⟩, [], false⟩, ⟨".text.a", ⟨17, 1⟩, [1], false⟩, ⟨".data.v", ⟨25, 16⟩, [2], false⟩, ⟨".rodata.cst", ⟨39, 4⟩, [12], false⟩, ⟨".init", ⟨33, 4⟩, [], true⟩, ⟨".data", ⟨29, 1⟩, [0], false⟩, ⟨".data.v", ⟨8, 8⟩, [5], false⟩, ⟨".sdata", ⟨15, 8⟩, [9, 13], false⟩, ⟨".srodata.x", ⟨4, 8⟩, [10], false⟩, ⟨".sdata2.z", ⟨8, 4⟩, [7, 9], false⟩, ⟨".text", ⟨8, 8⟩, [2, 11], false⟩, ⟨".data.rel.ro", ⟨25, 16⟩, [14], false⟩],
   [(2, 0x40000), (7, 0x0)], 0x40028),
  (true, [⟨".bss", ⟨13, 4⟩, [], false⟩, ⟨".sdata", ⟨36, 4⟩, [3, 1], false⟩, ⟨".bss.w", ⟨30, 2⟩, [], false⟩, ⟨".sdata2", ⟨8, 4⟩, [3, 0], false⟩, ⟨".init", ⟨14, 2⟩, [4, 2], true⟩],
   [(2, 0x40000), (4, 0x0)], 0x4001e),
  (true, [⟨".text", ⟨37, 4⟩, [2, 10], false⟩, ⟨".sdata.q", ⟨13, 4⟩, [], false⟩, ⟨".inpdata", ⟨15, 1⟩, [], false⟩, ⟨".srodata", ⟨15, 16⟩, [], false⟩, ⟨".rodata", ⟨25, 8⟩, [], false⟩, ⟨".bss", ⟨36, 8⟩, [], false⟩, ⟨".init", ⟨4, 1⟩, [10], true⟩, ⟨".srodata.x", ⟨30, 1⟩, [13, 9], false⟩, ⟨".sdata2", ⟨12, 2⟩, [4], false⟩, ⟨".sbss", ⟨27, 1⟩, [], false⟩, ⟨".srodata.x", ⟨27, 2⟩, [5, 6, 11], false⟩, ⟨".text", ⟨8, 16⟩, [8, 5], false⟩, ⟨".text.unlikely.b", ⟨5, 2⟩, [1], false⟩, ⟨".init.rust", ⟨4, 1⟩, [8], false⟩, ⟨".data.rel.ro", ⟨12, 4⟩, [1, 1, 6], false⟩],
   [(2, 0x40000), (4, 0x40030), (5, 0x40058), (6, 0x0), (8, 0x4004c), (10, 0x40010), (11, 0x10), (13, 0x4)], 0x4007c),
  (true, [⟨".init", ⟨33, 1⟩, [2, 1, 1], true⟩, ⟨".text.a", ⟨34, 4⟩, [3], false⟩, ⟨".text.c.d", ⟨18, 2⟩, [3], false⟩, ⟨".bss", ⟨39, 4⟩, [], false⟩],
   [(0, 0x0), (1, 0x24), (2, 0x46), (3, 0x40000)], 0x40027),
  (false, [⟨".data.rel.ro", ⟨11, 1⟩, [11], true⟩, ⟨".init", ⟨38, 8⟩, [9], false⟩, ⟨".init", ⟨24, 16⟩, [2, 0], false⟩, ⟨".srodata.x", ⟨32, 2⟩, [0], false⟩, ⟨".data.rel.ro", ⟨31, 1⟩, [], false⟩, ⟨".init.rust", ⟨16, 2⟩, [7], false⟩, ⟨".text.unlikely.b", ⟨4, 4⟩, [3], false⟩, ⟨".bss", ⟨21, 2⟩, [], false⟩, ⟨".data.rel.ro", ⟨22, 16⟩, [], false⟩, ⟨".srodata", ⟨35, 4⟩, [], false⟩, ⟨".rodata", ⟨32, 1⟩, [10], false⟩, ⟨".text", ⟨23, 4⟩, [9, 5], false⟩],
   [(0, 0x40070), (1, 0x0), (2, 0x30), (3, 0x40000), (4, 0x4007b), (5, 0x48), (6, 0x58), (7, 0x400b8), (8, 0x400a0), (9, 0x40020), (10, 0x40043), (11, 0x5c)], 0x400cd),
  (true, [⟨".bss.w", ⟨2, 2⟩, [], false⟩, ⟨".init", ⟨3, 4⟩, [], true⟩, ⟨".init", ⟨12, 16⟩, [1, 7, 2], false⟩, ⟨".rodata..L", ⟨23, 1⟩, [7], false⟩, ⟨".sdata2.z", ⟨4, 16⟩, [5], false⟩, ⟨".sdata", ⟨31, 4⟩, [0], false⟩, ⟨".sdata2", ⟨19, 1⟩, [], false⟩, ⟨".text", ⟨30, 4⟩, [], false⟩],
   [(1, 0x0), (2, 0x10), (7, 0x1c)], 0x40000),
  (true, [⟨".outdata", ⟨12, 16⟩, [9, 9, 5], false⟩, ⟨".init", ⟨11, 2⟩, [], false⟩, ⟨".init", ⟨4, 4⟩, [2], false⟩, ⟨".rodata..L", ⟨12, 4⟩, [], false⟩, ⟨".text", ⟨4, 4⟩, [3], false⟩, ⟨".srodata.x", ⟨18, 4⟩, [5], false⟩, ⟨".text", ⟨12, 2⟩, [7, 0, 6], false⟩, ⟨".text.unlikely.b", ⟨12, 16⟩, [2, 6, 8], false⟩, ⟨".data.rel.ro", ⟨37, 8⟩, [], false⟩, ⟨".rodata", ⟨12, 8⟩, [5, 2, 5], true⟩],
   [(0, 0x40000), (1, 0x0), (2, 0xc), (5, 0x40010), (9, 0x40028)], 0x40034),
  (true, [⟨".riscv.attributes.b", ⟨8, 16⟩, [0], false⟩, ⟨".text.c.d", ⟨8, 1⟩, [], false⟩, ⟨".sdata", ⟨22, 4⟩, [3, 7, 1], false⟩, ⟨".text.unlikely.b", ⟨39, 16⟩, [1, 5], false⟩, ⟨".text.unlikely.b", ⟨33, 4⟩, [], false⟩, ⟨".init", ⟨4, 8⟩, [3], true⟩, ⟨".bss.w", ⟨33, 4⟩, [], false⟩, ⟨".bss.w", ⟨13, 8⟩, [], false⟩, ⟨".sdata.q", ⟨10, 4⟩, [], false⟩],
   [(1, 0x4), (3, 0x10), (5, 0x0)], 0x40000),
  (true, [⟨".init", ⟨26, 16⟩, [10, 9], true⟩, ⟨".riscv.attributes.b", ⟨20, 8⟩, [5, 14, 12], false⟩, ⟨".debug.x", ⟨34, 16⟩, [9], false⟩, ⟨".comment.a", ⟨34, 4⟩, [], false⟩, ⟨".sbss", ⟨23, 4⟩, [], false⟩, ⟨".sdata", ⟨33, 4⟩, [1, 8, 13], false⟩, ⟨".rodata", ⟨37, 4⟩, [2, 3], false⟩, ⟨".sdata2.z", ⟨4, 8⟩, [4], false⟩, ⟨".outdata", ⟨8, 1⟩, [], false⟩, ⟨".bss.w", ⟨27, 4⟩, [], false⟩, ⟨".data", ⟨6, 8⟩, [], false⟩, ⟨".init", ⟨39, 1⟩, [], false⟩, ⟨".bss", ⟨15, 1⟩, [], false⟩, ⟨".init", ⟨19, 16⟩, [7], false⟩, ⟨".sdata2.z", ⟨12, 8⟩, [0, 7, 12], false⟩],
   [(0, 0x0), (4, 0x40018), (7, 0x40008), (8, 0x40000), (9, 0x40030), (10, 0x40010), (11, 0x1a), (13, 0x50)], 0x4004b),
  (true, [⟨".comment.a", ⟨12, 16⟩, [3, 2, 2], false⟩, ⟨".text.unlikely.b", ⟨30, 2⟩, [4], true⟩, ⟨".sdata2.z", ⟨16, 2⟩, [1], false⟩, ⟨".rodata.cst", ⟨24, 8⟩, [0], false⟩, ⟨".init", ⟨5, 2⟩, [], false⟩, ⟨".rodata.cst", ⟨16, 4⟩, [], false⟩, ⟨".srodata", ⟨32, 1⟩, [], false⟩],
   [(1, 0x8), (4, 0x0)], 0x40000),
  (false, [⟨".rodata.cst", ⟨38, 8⟩, [], false⟩, ⟨".riscv.attributes.b", ⟨32, 1⟩, [], false⟩, ⟨".sdata", ⟨4, 16⟩, [5], false⟩, ⟨".text.a", ⟨12, 1⟩, [0, 0, 4], false⟩, ⟨".bss", ⟨1, 16⟩, [], false⟩, ⟨".init", ⟨8, 4⟩, [], true⟩],
   [(0, 0x40000), (2, 0x40030), (3, 0x8), (4, 0x40040), (5, 0x0)], 0x40041),
  (true, [⟨".srodata.x", ⟨13, 1⟩, [5], false⟩, ⟨".bss.w", ⟨16, 8⟩, [], false⟩, ⟨".sdata2", ⟨4, 4⟩, [0], false⟩, ⟨".rodata", ⟨22, 8⟩, [1, 2, 8], false⟩, ⟨".init", ⟨18, 8⟩, [4, 10], true⟩, ⟨".rodata..L", ⟨12, 4⟩, [0], false⟩, ⟨".text.a", ⟨39, 8⟩, [1], false⟩, ⟨".rodata.cst", ⟨6, 2⟩, [2], false⟩, ⟨".sbss", ⟨32, 1⟩, [], false⟩, ⟨".bss", ⟨11, 8⟩, [], false⟩, ⟨".sdata.q", ⟨18, 1⟩, [2, 8], false⟩],
   [(0, 0x40000), (2, 0x4001c), (4, 0x0), (5, 0x40010), (8, 0x40034), (10, 0x40020)], 0x40054),
  (true, [⟨".text.a", ⟨30, 4⟩, [11], false⟩, ⟨".init", ⟨15, 2⟩, [12, 9], true⟩, ⟨".rodata..L", ⟨4, 4⟩, [5], false⟩, ⟨".sdata2", ⟨11, 8⟩, [], false⟩, ⟨".sdata2.z", ⟨7, 4⟩, [], false⟩, ⟨".text", ⟨37, 4⟩, [6], false⟩, ⟨".sdata.q", ⟨29, 1⟩, [8], false⟩, ⟨".sdata.q", ⟨28, 16⟩, [1], false⟩, ⟨".text.unlikely.b", ⟨4, 1⟩, [0], false⟩, ⟨".text.c.d", ⟨40, 4⟩, [0, 2, 3], false⟩, ⟨".text.a", ⟨10, 4⟩, [], false⟩, ⟨".init", ⟨13, 8⟩, [11], false⟩, ⟨".text.c.d", ⟨38, 4⟩, [], false⟩, ⟨".text.c.d", ⟨7, 1⟩, [], false⟩],
   [(0, 0x20), (1, 0x0), (2, 0x40000), (3, 0x40008), (5, 0x40), (6, 0x40013), (8, 0x65), (9, 0x6c), (11, 0x10), (12, 0x94)], 0x40030),
  (true, [⟨".sdata.q", ⟨35, 16⟩, [3], false⟩, ⟨".init", ⟨14, 16⟩, [], true⟩, ⟨".srodata.x", ⟨6, 1⟩, [], false⟩, ⟨".text", ⟨15, 2⟩, [], false⟩, ⟨".sdata", ⟨16, 4⟩, [0], false⟩, ⟨".rodata.cst", ⟨19, 4⟩, [3, 1], false⟩],
   [(1, 0x0)], 0x40000),
  (true, [⟨".data.rel.ro", ⟨4, 16⟩, [7], false⟩, ⟨".data.rel.ro", ⟨28, 2⟩, [], false⟩, ⟨".sbss", ⟨6, 16⟩, [], false⟩, ⟨".bss.w", ⟨22, 4⟩, [], false⟩, ⟨".init.rust", ⟨26, 1⟩, [3], false⟩, ⟨".rodata", ⟨16, 8⟩, [10], false⟩, ⟨".init", ⟨26, 8⟩, [2], true⟩, ⟨".bss.w", ⟨30, 2⟩, [], false⟩, ⟨".rodata", ⟨12, 1⟩, [11, 4, 10], false⟩, ⟨".init", ⟨4, 1⟩, [8], false⟩, ⟨".inpdata", ⟨4, 2⟩, [3], false⟩, ⟨".sdata.q", ⟨17, 16⟩, [3], false⟩],
   [(2, 0x40030), (3, 0x40038), (4, 0x20), (6, 0x0), (8, 0x40004), (9, 0x1a), (10, 0x40000), (11, 0x40010)], 0x4004e),
  (true, [⟨".inpdata", ⟨10, 4⟩, [1, 4], false⟩, ⟨".inpdata", ⟨40, 4⟩, [2], false⟩, ⟨".bss", ⟨30, 2⟩, [], false⟩, ⟨".comment.a", ⟨10, 16⟩, [7, 5], false⟩, ⟨".data", ⟨26, 2⟩, [], false⟩, ⟨".text.c.d", ⟨12, 4⟩, [0, 8, 5], true⟩, ⟨".scratch", ⟨9, 4⟩, [], false⟩, ⟨".init", ⟨10, 4⟩, [8], false⟩, ⟨".sbss", ⟨12, 8⟩, [], false⟩],
   [(0, 0x40000), (1, 0x4000c), (2, 0x40050), (4, 0x40034), (5, 0xc), (7, 0x0), (8, 0x40070)], 0x4007c),
  (false, [⟨".bss.w", ⟨4, 4⟩, [], false⟩, ⟨".text.unlikely.b", ⟨4, 1⟩, [9], false⟩, ⟨".sbss", ⟨37, 1⟩, [], false⟩, ⟨".rodata", ⟨4, 1⟩, [3], false⟩, ⟨".sbss.1", ⟨21, 2⟩, [], false⟩, ⟨".bss.w", ⟨36, 4⟩, [], false⟩, ⟨".text.a", ⟨3, 8⟩, [], false⟩, ⟨".outdata", ⟨39, 4⟩, [], false⟩, ⟨".init", ⟨27, 1⟩, [7], true⟩, ⟨".sbss", ⟨12, 4⟩, [], false⟩, ⟨".sdata", ⟨11, 8⟩, [0], false⟩, ⟨".rodata..L", ⟨11, 16⟩, [6], false⟩, ⟨".sdata.q", ⟨19, 4⟩, [4], false⟩],
   [(0, 0x40070), (1, 0x1c), (2, 0x40074), (3, 0x40030), (4, 0x4009a), (5, 0x400b0), (6, 0x20), (7, 0x40000), (8, 0x0), (9, 0x400d4), (10, 0x40050), (11, 0x40040), (12, 0x4005c)], 0x400e0),
  (false, [⟨".data.v", ⟨16, 4⟩, [], false⟩, ⟨".rodata", ⟨19, 1⟩, [6, 1, 4], false⟩, ⟨".sdata.q", ⟨8, 4⟩, [9], true⟩, ⟨".bss", ⟨1, 4⟩, [], false⟩, ⟨".sdata", ⟨40, 2⟩, [], false⟩, ⟨".bss", ⟨7, 4⟩, [], false⟩, ⟨".rodata..L", ⟨20, 1⟩, [], false⟩, ⟨".init", ⟨25, 8⟩, [1, 8, 2], false⟩, ⟨".data", ⟨4, 4⟩, [3], false⟩, ⟨".outdata", ⟨23, 4⟩, [], false⟩],
   [(0, 0x40070), (1, 0x40018), (2, 0x40040), (3, 0x40084), (4, 0x40048), (5, 0x40088), (6, 0x4002b), (7, 0x0), (8, 0x40080), (9, 0x40000)], 0x4008f),
  (true, [⟨".sdata.q", ⟨7, 4⟩, [7], false⟩, ⟨".sdata2", ⟨30, 2⟩, [11], false⟩, ⟨".bss.w", ⟨22, 16⟩, [], false⟩, ⟨".bss.w", ⟨22, 1⟩, [], false⟩, ⟨".data.v", ⟨5, 2⟩, [], false⟩, ⟨".sdata", ⟨12, 4⟩, [0], false⟩, ⟨".srodata.x", ⟨22, 1⟩, [], false⟩, ⟨".inpdata", ⟨15, 4⟩, [], false⟩, ⟨".init", ⟨37, 1⟩, [], true⟩, ⟨".sdata2.z", ⟨18, 16⟩, [10], false⟩, ⟨".bss.w", ⟨14, 8⟩, [], false⟩, ⟨".sdata2.z", ⟨5, 4⟩, [], false⟩, ⟨".bss.w", ⟨12, 4⟩, [], false⟩, ⟨".text", ⟨13, 16⟩, [9, 13, 10], false⟩],
   [(7, 0x40000), (8, 0x0)], 0x40010),
  (true, [⟨".sdata2", ⟨16, 2⟩, [8], false⟩, ⟨".init", ⟨14, 8⟩, [3, 7, 13], false⟩, ⟨".srodata.x", ⟨8, 16⟩, [], false⟩, ⟨".rodata", ⟨19, 16⟩, [3], false⟩, ⟨".sbss.1", ⟨18, 2⟩, [], false⟩, ⟨".data.rel.ro", ⟨17, 4⟩, [7], false⟩, ⟨".data", ⟨3, 4⟩, [], false⟩, ⟨".sdata", ⟨4, 4⟩, [2], false⟩, ⟨".sdata2.z", ⟨22, 2⟩, [6], false⟩, ⟨".sdata2.z", ⟨20, 4⟩, [], false⟩, ⟨".data.v", ⟨9, 8⟩, [0], false⟩, ⟨".text", ⟨31, 16⟩, [10, 8], true⟩, ⟨".data.rel.ro", ⟨14, 4⟩, [5, 2, 2], false⟩, ⟨".srodata", ⟨4, 4⟩, [9], false⟩],
   [(0, 0x40028), (1, 0x0), (2, 0x40000), (3, 0x40010), (6, 0x40068), (7, 0x40038), (8, 0x4003c), (9, 0x40054), (10, 0x40070), (11, 0x10), (13, 0x40008)], 0x4007c),
  (true, [⟨".srodata", ⟨16, 16⟩, [], false⟩, ⟨".sdata2.z", ⟨6, 1⟩, [], true⟩, ⟨".scratch", ⟨39, 8⟩, [], false⟩, ⟨".text.a", ⟨34, 4⟩, [], false⟩, ⟨".sdata.q", ⟨26, 16⟩, [0, 4, 1], false⟩, ⟨".text.a", ⟨32, 1⟩, [], false⟩, ⟨".text.c.d", ⟨12, 2⟩, [], false⟩, ⟨".sdata2.z", ⟨36, 8⟩, [7], false⟩, ⟨".init", ⟨12, 4⟩, [8], false⟩],
   [(1, 0x40000), (8, 0x0)], 0x40008),
  (true, [⟨".rodata", ⟨39, 4⟩, [1, 1], false⟩, ⟨".srodata", ⟨38, 8⟩, [], false⟩, ⟨".inpdata", ⟨12, 2⟩, [4], false⟩, ⟨".sdata", ⟨12, 2⟩, [], false⟩, ⟨".sdata2", ⟨8, 1⟩, [2], false⟩, ⟨".inpdata", ⟨15, 16⟩, [7], false⟩, ⟨".inpdata", ⟨27, 1⟩, [10, 3], false⟩, ⟨".sdata.q", ⟨8, 4⟩, [3, 7], false⟩, ⟨".init.rust", ⟨17, 4⟩, [9], false⟩, ⟨".data", ⟨10, 16⟩, [], false⟩, ⟨".outdata", ⟨30, 8⟩, [8], false⟩, ⟨".init", ⟨38, 8⟩, [4], true⟩],
   [(2, 0x40000), (3, 0x40060), (4, 0x4006c), (5, 0x40010), (6, 0x4001f), (7, 0x40074), (8, 0x28), (9, 0x40080), (10, 0x40040), (11, 0x0)], 0x4008c),
  (false, [⟨".rodata..L", ⟨20, 4⟩, [3], false⟩, ⟨".bss", ⟨13, 8⟩, [], false⟩, ⟨".srodata", ⟨20, 16⟩, [], false⟩, ⟨".init", ⟨30, 8⟩, [0, 4], true⟩, ⟨".sdata2", ⟨7, 16⟩, [0], false⟩, ⟨".text", ⟨22, 8⟩, [], false⟩],
   [(0, 0x40014), (1, 0x40038), (2, 0x40000), (3, 0x0), (4, 0x40030), (5, 0x20)], 0x40045),
  (true, [⟨".bss", ⟨34, 4⟩, [], false⟩, ⟨".data.v", ⟨8, 4⟩, [2, 8], false⟩, ⟨".eh_frame.z", ⟨27, 4⟩, [1], false⟩, ⟨".rodata.cst", ⟨4, 4⟩, [5], false⟩, ⟨".text.c.d", ⟨6, 4⟩, [8], false⟩, ⟨".sbss", ⟨29, 8⟩, [], false⟩, ⟨".rodata..L", ⟨8, 8⟩, [5], false⟩, ⟨".bss.w", ⟨23, 8⟩, [], false⟩, ⟨".srodata.x", ⟨20, 16⟩, [], false⟩, ⟨".text.c.d", ⟨19, 4⟩, [], false⟩, ⟨".init", ⟨6, 4⟩, [], true⟩, ⟨".srodata", ⟨20, 4⟩, [], false⟩, ⟨".init", ⟨14, 4⟩, [], false⟩],
   [(10, 0x0), (12, 0x8)], 0x40000),
  (false, [⟨".rodata", ⟨14, 4⟩, [1, 0], false⟩, ⟨".inpdata", ⟨24, 1⟩, [5], false⟩, ⟨".text", ⟨26, 8⟩, [5, 9], false⟩, ⟨".sbss.1", ⟨40, 8⟩, [], false⟩, ⟨".inpdata", ⟨31, 2⟩, [1], false⟩, ⟨".text.a", ⟨14, 2⟩, [1], false⟩, ⟨".rodata", ⟨15, 4⟩, [1], false⟩, ⟨".init", ⟨13, 4⟩, [], true⟩, ⟨".init.rust", ⟨25, 8⟩, [1, 5, 6], false⟩, ⟨".srodata.x", ⟨7, 2⟩, [3], false⟩],
   [(0, 0x40040), (1, 0x40000), (2, 0x30), (3, 0x40060), (4, 0x40018), (5, 0x4a), (6, 0x40050), (7, 0x0), (8, 0x10), (9, 0x40038)], 0x40088),
  (false, [⟨".bss", ⟨40, 8⟩, [], false⟩, ⟨".init", ⟨12, 1⟩, [2, 2, 4], true⟩, ⟨".inpdata", ⟨22, 1⟩, [2], false⟩, ⟨".text.a", ⟨18, 4⟩, [], false⟩, ⟨".bss.w", ⟨2, 2⟩, [], false⟩],
   [(0, 0x40018), (1, 0x0), (2, 0x40000), (3, 0xc), (4, 0x40040)], 0x40042)
]

/-- Inputs lld refuses. -/
def selectErrors : List (Bool × List InSec) := [
  (true, [⟨".riscv.attributes.b", ⟨2, 8⟩, [], false⟩, ⟨".sbss.1", ⟨2, 2⟩, [], false⟩, ⟨".init", ⟨18, 16⟩, [8], true⟩, ⟨".comment.a", ⟨12, 2⟩, [1, 0], false⟩, ⟨".comment.a", ⟨7, 4⟩, [2], false⟩, ⟨".data", ⟨6, 16⟩, [1], false⟩, ⟨".sdata2", ⟨8, 8⟩, [1, 7], false⟩, ⟨".rodata", ⟨30, 16⟩, [], false⟩, ⟨".sdata.q", ⟨38, 16⟩, [], false⟩, ⟨".init", ⟨38, 8⟩, [10, 2, 14], false⟩, ⟨".eh_frame.z", ⟨16, 2⟩, [14, 3], false⟩, ⟨".init.rust", ⟨23, 4⟩, [], false⟩, ⟨".inpdata", ⟨27, 4⟩, [4, 2], false⟩, ⟨".sdata2.z", ⟨40, 8⟩, [], false⟩, ⟨".sdata2", ⟨0, 1⟩, [], false⟩]),
  (true, [⟨".bss.w", ⟨10, 4⟩, [], false⟩, ⟨".init", ⟨10, 4⟩, [5], true⟩, ⟨".inpdata", ⟨21, 16⟩, [7, 12], false⟩, ⟨".rodata..L", ⟨4, 8⟩, [11], false⟩, ⟨".inpdata", ⟨14, 8⟩, [7, 4], false⟩, ⟨".sbss.1", ⟨4, 4⟩, [], false⟩, ⟨".text.a", ⟨25, 2⟩, [], false⟩, ⟨".debug.x", ⟨32, 16⟩, [2], false⟩, ⟨".srodata", ⟨8, 2⟩, [13, 1], false⟩, ⟨".scratch", ⟨4, 1⟩, [], false⟩, ⟨".srodata.x", ⟨23, 4⟩, [], false⟩, ⟨".debug.x", ⟨35, 4⟩, [2], false⟩, ⟨".rodata", ⟨15, 2⟩, [3], false⟩, ⟨".scratch", ⟨28, 8⟩, [], false⟩]),
  (false, [⟨".text.unlikely.b", ⟨23, 4⟩, [11, 9], false⟩, ⟨".init", ⟨30, 2⟩, [3, 12], true⟩, ⟨".init.rust", ⟨10, 1⟩, [2], false⟩, ⟨".sdata", ⟨13, 8⟩, [], false⟩, ⟨".bss", ⟨16, 4⟩, [], false⟩, ⟨".text", ⟨25, 2⟩, [9], false⟩, ⟨".inpdata", ⟨22, 4⟩, [], false⟩, ⟨".riscv.attributes.b", ⟨26, 2⟩, [], false⟩, ⟨".rodata..L", ⟨15, 2⟩, [7], false⟩, ⟨".sdata", ⟨39, 2⟩, [2], false⟩, ⟨".init.rust", ⟨37, 16⟩, [4], false⟩, ⟨".bss", ⟨29, 4⟩, [], false⟩, ⟨".bss.w", ⟨28, 4⟩, [], false⟩, ⟨".sdata", ⟨32, 4⟩, [7, 5, 13], false⟩]),
  (true, [⟨".data.v", ⟨9, 16⟩, [10, 9], false⟩, ⟨".init", ⟨38, 1⟩, [5, 2, 0], true⟩, ⟨".text.unlikely.b", ⟨17, 16⟩, [9], false⟩, ⟨".bss.w", ⟨39, 4⟩, [], false⟩, ⟨".data", ⟨4, 8⟩, [7], false⟩, ⟨".data.v", ⟨15, 8⟩, [0], false⟩, ⟨".comment.a", ⟨15, 2⟩, [5, 3], false⟩, ⟨".init.rust", ⟨16, 2⟩, [2, 2, 10], false⟩, ⟨".sdata2.z", ⟨10, 16⟩, [2], false⟩, ⟨".debug.x", ⟨6, 4⟩, [], false⟩, ⟨".debug.x", ⟨6, 4⟩, [0], false⟩]),
  (true, [⟨".comment.a", ⟨40, 16⟩, [4, 1], false⟩, ⟨".sdata2", ⟨15, 1⟩, [0], false⟩, ⟨".sdata2.z", ⟨19, 1⟩, [], false⟩, ⟨".debug.x", ⟨21, 8⟩, [], false⟩, ⟨".inpdata", ⟨12, 1⟩, [6, 5, 10], false⟩, ⟨".init.rust", ⟨15, 2⟩, [7, 6], false⟩, ⟨".init", ⟨26, 2⟩, [4], true⟩, ⟨".text", ⟨20, 16⟩, [10], false⟩, ⟨".rodata.cst", ⟨12, 8⟩, [3], false⟩, ⟨".srodata.x", ⟨34, 8⟩, [2], false⟩, ⟨".sdata2.z", ⟨20, 8⟩, [0, 5, 7], false⟩]),
  (true, [⟨".data", ⟨32, 4⟩, [2], true⟩, ⟨".riscv.attributes.b", ⟨24, 16⟩, [1], false⟩, ⟨".eh_frame.z", ⟨12, 2⟩, [], false⟩, ⟨".init.rust", ⟨8, 8⟩, [6, 2], false⟩, ⟨".eh_frame.z", ⟨24, 4⟩, [5, 10, 11], false⟩, ⟨".bss", ⟨27, 4⟩, [], false⟩, ⟨".riscv.attributes.b", ⟨8, 4⟩, [10, 2], false⟩, ⟨".sdata2.z", ⟨1, 4⟩, [], false⟩, ⟨".bss", ⟨26, 1⟩, [], false⟩, ⟨".srodata", ⟨37, 4⟩, [], false⟩, ⟨".rodata..L", ⟨25, 4⟩, [4, 12, 2], false⟩, ⟨".sdata", ⟨4, 16⟩, [], false⟩, ⟨".debug.x", ⟨28, 16⟩, [2, 13], false⟩, ⟨".init", ⟨38, 2⟩, [4], false⟩]),
  (true, [⟨".outdata", ⟨12, 2⟩, [10, 3, 0], false⟩, ⟨".text.c.d", ⟨29, 16⟩, [5], false⟩, ⟨".sdata", ⟨12, 2⟩, [7, 0, 7], false⟩, ⟨".init", ⟨23, 8⟩, [10], false⟩, ⟨".text", ⟨12, 2⟩, [2, 2, 7], false⟩, ⟨".sdata", ⟨26, 16⟩, [], false⟩, ⟨".rodata.cst", ⟨10, 8⟩, [5, 12], false⟩, ⟨".scratch", ⟨0, 4⟩, [], false⟩, ⟨".data.rel.ro", ⟨2, 1⟩, [], false⟩, ⟨".outdata", ⟨12, 2⟩, [3, 9, 1], true⟩, ⟨".eh_frame.z", ⟨19, 16⟩, [], false⟩, ⟨".rodata..L", ⟨15, 16⟩, [4], false⟩, ⟨".init.rust", ⟨5, 4⟩, [13], false⟩, ⟨".sdata", ⟨19, 4⟩, [], false⟩, ⟨".data", ⟨18, 4⟩, [], false⟩]),
  (false, [⟨".text.c.d", ⟨12, 4⟩, [5, 9, 1], false⟩, ⟨".debug.x", ⟨4, 4⟩, [6], false⟩, ⟨".outdata", ⟨20, 4⟩, [], false⟩, ⟨".text.c.d", ⟨24, 4⟩, [1], false⟩, ⟨".sdata.q", ⟨19, 4⟩, [1], false⟩, ⟨".outdata", ⟨14, 4⟩, [8, 1, 8], false⟩, ⟨".comment.a", ⟨8, 1⟩, [7, 1], false⟩, ⟨".init", ⟨15, 4⟩, [4, 6], true⟩, ⟨".inpdata", ⟨8, 16⟩, [10, 9], false⟩, ⟨".bss.w", ⟨18, 16⟩, [], false⟩, ⟨".sdata2", ⟨24, 4⟩, [], false⟩])
]

/-- The same with sections of a name the script does not know, which are listed separately. -/
def orphanVectors : List (Bool × List InSec × List (Nat × Nat) × Nat × List (Nat × Nat)) := [
  (true, [⟨".init", ⟨8, 1⟩, [7, 4], false⟩, ⟨".sdata2", ⟨6, 1⟩, [], false⟩, ⟨".sdata.q", ⟨31, 1⟩, [1, 6, 5], true⟩, ⟨".scratch", ⟨32, 2⟩, [], false⟩, ⟨".rodata..L", ⟨27, 16⟩, [5, 7, 0], false⟩, ⟨".text.c.d", ⟨20, 8⟩, [3, 6], false⟩, ⟨".sdata2", ⟨23, 8⟩, [5], false⟩, ⟨".text.a", ⟨5, 1⟩, [], false⟩],
   [(0, 0x0), (1, 0x40020), (2, 0x40026), (4, 0x40000), (5, 0x8), (6, 0x40048), (7, 0x1c)], 0x40060, [(3, 0x40060)]),
  (true, [⟨".text.c.d", ⟨8, 4⟩, [0, 4], false⟩, ⟨".text", ⟨0, 1⟩, [], false⟩, ⟨".scratch", ⟨9, 2⟩, [], false⟩, ⟨".init", ⟨35, 16⟩, [5, 0], true⟩, ⟨".bss.w", ⟨10, 2⟩, [], false⟩, ⟨".sdata", ⟨16, 1⟩, [4, 2, 1], false⟩],
   [(0, 0x24), (1, 0x2c), (3, 0x0), (4, 0x40010), (5, 0x40000)], 0x4001a, [(2, 0x4001a)]),
  (true, [⟨".sbss.1", ⟨10, 2⟩, [], false⟩, ⟨".text.a", ⟨19, 4⟩, [2, 11], false⟩, ⟨".data.rel.ro", ⟨34, 16⟩, [], false⟩, ⟨".sdata.q", ⟨38, 4⟩, [4], false⟩, ⟨".outdata", ⟨16, 4⟩, [12], true⟩, ⟨".comment.a", ⟨19, 2⟩, [9], false⟩, ⟨".rodata..L", ⟨33, 4⟩, [9], false⟩, ⟨".debug.x", ⟨15, 4⟩, [7], false⟩, ⟨".debug.x", ⟨14, 1⟩, [4, 4, 9], false⟩, ⟨".text", ⟨38, 4⟩, [2, 11, 5], false⟩, ⟨".init", ⟨35, 4⟩, [10], false⟩, ⟨".sbss.1", ⟨25, 4⟩, [], false⟩, ⟨".scratch", ⟨15, 4⟩, [], false⟩],
   [(4, 0x40000), (10, 0x0)], 0x40010, [(12, 0x40010)]),
  (false, [⟨".scratch", ⟨14, 16⟩, [], false⟩, ⟨".sdata2", ⟨3, 4⟩, [], false⟩, ⟨".text.c.d", ⟨13, 8⟩, [8, 6, 9], false⟩, ⟨".inpdata", ⟨14, 4⟩, [], false⟩, ⟨".init", ⟨33, 4⟩, [3, 8], false⟩, ⟨".riscv.attributes.b", ⟨10, 16⟩, [5, 4], false⟩, ⟨".data.rel.ro", ⟨39, 4⟩, [], false⟩, ⟨".debug.x", ⟨13, 4⟩, [], false⟩, ⟨".text.unlikely.b", ⟨14, 4⟩, [2], false⟩, ⟨".data.rel.ro", ⟨10, 4⟩, [], false⟩, ⟨".data.v", ⟨39, 4⟩, [], true⟩],
   [(1, 0x40010), (2, 0x28), (3, 0x40000), (4, 0x0), (6, 0x40014), (8, 0x38), (9, 0x4003c), (10, 0x40048)], 0x40070, [(0, 0x40070)]),
  (true, [⟨".init.rust", ⟨6, 8⟩, [1], false⟩, ⟨".init", ⟨3, 2⟩, [], false⟩, ⟨".debug.x", ⟨19, 2⟩, [], false⟩, ⟨".scratch", ⟨1, 4⟩, [], false⟩, ⟨".text.unlikely.b", ⟨8, 2⟩, [0, 1], true⟩, ⟨".text.unlikely.b", ⟨36, 2⟩, [6], false⟩, ⟨".rodata..L", ⟨5, 2⟩, [], false⟩, ⟨".init", ⟨22, 4⟩, [6, 3, 1], false⟩],
   [(0, 0x20), (1, 0x0), (4, 0x26), (6, 0x40000), (7, 0x4)], 0x40008, [(3, 0x40008)]),
  (false, [⟨".data", ⟨20, 16⟩, [6], false⟩, ⟨".rodata", ⟨9, 4⟩, [7], false⟩, ⟨".sdata", ⟨29, 1⟩, [1], false⟩, ⟨".eh_frame.z", ⟨37, 2⟩, [], false⟩, ⟨".scratch", ⟨6, 1⟩, [], false⟩, ⟨".text.c.d", ⟨19, 4⟩, [7, 9], false⟩, ⟨".rodata.cst", ⟨15, 1⟩, [6, 8, 2], false⟩, ⟨".data", ⟨22, 4⟩, [], false⟩, ⟨".data.rel.ro", ⟨27, 16⟩, [8], false⟩, ⟨".init", ⟨11, 4⟩, [], true⟩, ⟨".rodata..L", ⟨12, 16⟩, [8, 4, 10], false⟩, ⟨".inpdata", ⟨0, 16⟩, [], false⟩],
   [(0, 0x40050), (1, 0x40000), (2, 0x40030), (5, 0xc), (6, 0x40009), (7, 0x40064), (8, 0x40080), (9, 0x0), (10, 0x40020), (11, 0x40000)], 0x4009c, [(4, 0x4009c)])
]

/-- The model gives these addresses and no others. -/
def agrees (gc : Bool) (is : List InSec) (as : List (Nat × Nat)) (fin : Nat) : Bool :=
  (placements gc is).any fun (l, pl) =>
    decide (l.fin = fin ∧ pl.length = as.length) && (pl.all fun x => decide (x ∈ as)) && as.all fun x => decide (x ∈ pl)

theorem selectVectors_ok : selectVectors.all (fun v => agrees v.1 v.2.1 v.2.2.1 v.2.2.2) = true := by decide +kernel

theorem selectErrors_ok : selectErrors.all (fun v => (select v.1 v.2).isNone) = true := by decide +kernel

theorem orphanVectors_ok : orphanVectors.all (fun v => agrees v.1 v.2.1 v.2.2.1 v.2.2.2.1 &&
    (placements v.1 v.2.1).any fun (l, _) =>
      decide ((orphans v.1 v.2.1).zip (orphanAddrs l ((orphans v.1 v.2.1).filterMap fun k => v.2.1[k]?.map (·.piece))) =
        v.2.2.2.2)) = true := by decide +kernel

end Verif
