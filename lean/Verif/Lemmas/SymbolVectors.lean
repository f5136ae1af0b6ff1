import Verif.Model.Symbols
import Verif.Lemmas.SelectVectors
/-
  Written by tools/gen_link_vectors.py: object files with symbols, linked with
  compiler/linker-script/default.x by lld 22.1.4.
-/
namespace Verif
open Model Model.Link

/-- Whether unused sections are collected; the input sections; the addresses of those in the program; `_end`. -/
def symbolVectors : List (Bool × List SymSec × List (Nat × Nat) × Nat) := [
  (true, [⟨".comment.q", ⟨8, 1⟩, [], ["OUT", "_start"]⟩, ⟨".bss.z", ⟨30, 4⟩, [], []⟩, ⟨".data.y", ⟨8, 2⟩, ["_start"], ["_end"]⟩, ⟨".rodata.x", ⟨0, 2⟩, ["main"], []⟩, ⟨".rodata.x", ⟨29, 1⟩, ["d"], ["b", "_start_rust"]⟩, ⟨".inpdata", ⟨6, 4⟩, [], []⟩, ⟨".rodata.x", ⟨27, 4⟩, ["b"], []⟩, ⟨".text.f", ⟨11, 4⟩, ["OUT"], []⟩, ⟨".text", ⟨6, 4⟩, ["f", "_start_rust"], []⟩, ⟨".text.f", ⟨12, 4⟩, ["e"], []⟩, ⟨".text.f", ⟨35, 4⟩, ["a"], []⟩, ⟨".bss.z", ⟨8, 2⟩, ["c"], []⟩],
   [(2, 0x40008), (5, 0x40000)], 0x40010),
  (true, [⟨".text.f", ⟨36, 2⟩, ["c"], ["_start_rust", "_start_rust"]⟩, ⟨".rodata.x", ⟨26, 2⟩, ["_start"], ["e"]⟩, ⟨".comment.q", ⟨22, 4⟩, [], ["nowhere"]⟩, ⟨".bss.z", ⟨30, 2⟩, ["main", "f"], []⟩, ⟨".text", ⟨31, 2⟩, ["_start_rust"], ["c"]⟩, ⟨".text.g", ⟨12, 8⟩, ["a"], ["a"]⟩, ⟨".comment.q", ⟨8, 1⟩, [], ["nowhere"]⟩, ⟨".comment.q", ⟨25, 2⟩, [], ["nowhere"]⟩, ⟨".bss.z", ⟨1, 1⟩, ["b", "e"], []⟩, ⟨".init", ⟨9, 4⟩, [], []⟩, ⟨".init", ⟨10, 4⟩, ["d"], []⟩],
   [(1, 0x40000), (8, 0x4001c), (9, 0x0), (10, 0xc)], 0x4001d),
  (true, [⟨".text.f", ⟨29, 2⟩, [], []⟩, ⟨".text", ⟨15, 1⟩, ["_start_rust"], []⟩, ⟨".text", ⟨4, 1⟩, ["c"], ["_end"]⟩, ⟨".data.y", ⟨4, 8⟩, [], ["c"]⟩, ⟨".comment.q", ⟨37, 2⟩, [], ["nowhere"]⟩, ⟨".rodata.x", ⟨26, 8⟩, ["_start"], ["_start", "_start_rust"]⟩, ⟨".rodata.x", ⟨17, 2⟩, ["main"], ["c"]⟩, ⟨".inpdata", ⟨39, 4⟩, ["OUT", "f"], ["f"]⟩, ⟨".comment.q", ⟨17, 2⟩, [], ["f"]⟩],
   [(1, 0x0), (5, 0x40028), (7, 0x40000)], 0x40044),
  (true, [⟨".comment.q", ⟨7, 2⟩, [], ["nowhere"]⟩, ⟨".text", ⟨16, 1⟩, [], []⟩],
   [], 0x40000),
  (true, [⟨".comment.q", ⟨26, 8⟩, [], []⟩, ⟨".inpdata", ⟨2, 4⟩, ["a"], []⟩],
   [(1, 0x40000)], 0x40004),
  (true, [⟨".text", ⟨16, 4⟩, ["d", "_start"], ["e"]⟩, ⟨".text.g", ⟨32, 1⟩, ["OUT", "a"], ["d"]⟩, ⟨".inpdata", ⟨30, 8⟩, ["b"], ["__global_pointer$"]⟩, ⟨".bss.z", ⟨38, 8⟩, ["e"], []⟩, ⟨".init", ⟨11, 2⟩, ["f"], []⟩],
   [(0, 0xc), (2, 0x40000), (3, 0x40020), (4, 0x0)], 0x40046),
  (true, [⟨".text.f", ⟨31, 2⟩, [], []⟩, ⟨".bss.z", ⟨6, 4⟩, ["d", "b"], []⟩, ⟨".text", ⟨4, 8⟩, ["a"], ["main"]⟩, ⟨".text.g", ⟨10, 1⟩, ["OUT"], ["d", "e"]⟩, ⟨".text.f", ⟨9, 2⟩, ["_start_rust"], ["e"]⟩, ⟨".text.f", ⟨29, 1⟩, ["e"], ["d", "f"]⟩],
   [], 0x40000),
  (true, [⟨".data.y", ⟨18, 2⟩, ["OUT"], ["OUT", "_end"]⟩, ⟨".init", ⟨8, 1⟩, ["main"], []⟩, ⟨".text.f", ⟨15, 4⟩, ["e", "b"], ["_start"]⟩],
   [(1, 0x0)], 0x40000),
  (true, [⟨".text.g", ⟨39, 4⟩, [], ["b"]⟩, ⟨".text", ⟨20, 2⟩, ["OUT"], ["e"]⟩, ⟨".text.f", ⟨37, 2⟩, ["c", "e"], []⟩, ⟨".bss.z", ⟨19, 4⟩, ["_start", "a"], []⟩, ⟨".text.f", ⟨25, 4⟩, ["d", "f"], []⟩, ⟨".data.y", ⟨40, 8⟩, ["main"], []⟩],
   [(3, 0x40000)], 0x40013),
  (true, [⟨".text", ⟨38, 1⟩, [], ["_stack_start"]⟩, ⟨".text.f", ⟨22, 2⟩, [], ["c"]⟩, ⟨".bss.z", ⟨15, 8⟩, [], []⟩, ⟨".data.y", ⟨31, 8⟩, ["a"], ["a"]⟩, ⟨".text.f", ⟨25, 8⟩, [], []⟩],
   [], 0x40000),
  (true, [⟨".data.y", ⟨40, 4⟩, ["f"], []⟩, ⟨".rodata.x", ⟨39, 4⟩, [], ["e"]⟩, ⟨".rodata.x", ⟨10, 4⟩, ["_start_rust", "c"], ["b"]⟩, ⟨".data.y", ⟨11, 2⟩, ["a", "d"], ["c", "f"]⟩, ⟨".text.f", ⟨8, 1⟩, ["b"], ["_start_rust", "nowhere"]⟩],
   [], 0x40000),
  (true, [⟨".comment.q", ⟨10, 1⟩, [], ["e", "OUT"]⟩, ⟨".comment.q", ⟨35, 1⟩, [], ["d"]⟩],
   [], 0x40000),
  (true, [⟨".data.y", ⟨34, 8⟩, ["e", "a"], ["__global_pointer$"]⟩, ⟨".inpdata", ⟨37, 4⟩, ["main"], ["e"]⟩, ⟨".comment.q", ⟨35, 4⟩, [], ["nowhere"]⟩, ⟨".data.y", ⟨22, 4⟩, [], []⟩],
   [(0, 0x40028), (1, 0x40000)], 0x4004c),
  (true, [⟨".text.f", ⟨11, 4⟩, ["d", "OUT"], ["OUT"]⟩, ⟨".text.g", ⟨37, 2⟩, ["e", "a"], ["nowhere"]⟩, ⟨".text.g", ⟨1, 8⟩, ["b"], []⟩],
   [], 0x40000),
  (true, [⟨".rodata.x", ⟨12, 4⟩, ["OUT"], ["e", "f"]⟩, ⟨".text", ⟨17, 1⟩, ["d"], []⟩],
   [], 0x40000),
  (true, [⟨".text.f", ⟨17, 2⟩, ["d"], []⟩],
   [], 0x40000),
  (true, [⟨".bss.z", ⟨25, 8⟩, ["b", "d"], []⟩, ⟨".text.f", ⟨36, 2⟩, ["OUT"], []⟩, ⟨".inpdata", ⟨4, 2⟩, [], ["_stack_start"]⟩, ⟨".init.rust", ⟨0, 4⟩, [], []⟩],
   [(2, 0x40000), (3, 0x0)], 0x40004),
  (true, [⟨".init.rust", ⟨17, 2⟩, ["_start"], ["main"]⟩, ⟨".bss.z", ⟨33, 2⟩, ["a", "f"], []⟩, ⟨".init.rust", ⟨21, 1⟩, [], []⟩, ⟨".text.g", ⟨17, 4⟩, ["main", "c"], ["b"]⟩, ⟨".comment.q", ⟨8, 1⟩, [], ["__global_pointer$", "b"]⟩, ⟨".bss.z", ⟨10, 2⟩, ["OUT"], []⟩, ⟨".text.f", ⟨38, 2⟩, [], []⟩, ⟨".inpdata", ⟨17, 4⟩, ["d"], ["_stack_start"]⟩, ⟨".text.f", ⟨21, 1⟩, ["b"], ["_start", "d"]⟩, ⟨".init", ⟨7, 2⟩, ["e", "_start_rust"], []⟩, ⟨".inpdata", ⟨18, 8⟩, [], ["f"]⟩, ⟨".text.f", ⟨12, 1⟩, [], []⟩],
   [(0, 0x8), (1, 0x4002c), (2, 0x19), (3, 0x30), (7, 0x40000), (8, 0x41), (9, 0x0), (10, 0x40018)], 0x4004d),
  (true, [⟨".text.g", ⟨32, 8⟩, ["_start_rust"], []⟩, ⟨".inpdata", ⟨26, 8⟩, ["d"], ["_start_rust"]⟩, ⟨".init.rust", ⟨28, 2⟩, ["b"], []⟩, ⟨".bss.z", ⟨0, 4⟩, ["a"], []⟩, ⟨".text.g", ⟨20, 8⟩, ["OUT"], []⟩, ⟨".text.f", ⟨6, 4⟩, ["_start", "c"], ["_start"]⟩, ⟨".init", ⟨31, 1⟩, ["main"], ["d", "f"]⟩, ⟨".bss.z", ⟨30, 8⟩, ["f"], []⟩, ⟨".rodata.x", ⟨34, 8⟩, ["e"], ["_start", "_start"]⟩],
   [(0, 0x40), (1, 0x40000), (2, 0x20), (5, 0x60), (6, 0x0), (7, 0x40020)], 0x4003e),
  (true, [⟨".bss.z", ⟨33, 8⟩, [], []⟩, ⟨".text.f", ⟨17, 1⟩, ["e"], ["__global_pointer$"]⟩, ⟨".comment.q", ⟨4, 8⟩, [], ["nowhere"]⟩],
   [], 0x40000),
  (true, [⟨".data.y", ⟨26, 2⟩, [], ["main"]⟩],
   [], 0x40000),
  (true, [⟨".comment.q", ⟨29, 4⟩, [], ["nowhere"]⟩, ⟨".init", ⟨32, 8⟩, [], []⟩, ⟨".text.g", ⟨40, 8⟩, ["f"], ["main"]⟩, ⟨".text.f", ⟨33, 4⟩, ["c", "b"], ["c"]⟩, ⟨".text.g", ⟨28, 4⟩, ["OUT"], ["a"]⟩, ⟨".init", ⟨2, 8⟩, [], []⟩, ⟨".init.rust", ⟨10, 4⟩, ["a"], []⟩, ⟨".data.y", ⟨3, 2⟩, ["d"], []⟩],
   [(1, 0x0), (5, 0x20), (6, 0x24)], 0x40000),
  (true, [⟨".init.rust", ⟨19, 2⟩, ["d"], ["_stack_start"]⟩, ⟨".inpdata", ⟨34, 8⟩, ["_start"], []⟩, ⟨".data.y", ⟨26, 8⟩, [], ["_stack_start"]⟩, ⟨".init.rust", ⟨37, 1⟩, ["OUT"], []⟩, ⟨".bss.z", ⟨24, 2⟩, ["_start_rust"], []⟩, ⟨".text.f", ⟨6, 1⟩, [], ["c"]⟩, ⟨".inpdata", ⟨27, 2⟩, ["b", "c"], ["_start"]⟩],
   [(0, 0x0), (1, 0x40000), (3, 0x13), (6, 0x40022)], 0x40040),
  (true, [⟨".bss.z", ⟨3, 1⟩, ["e"], []⟩],
   [], 0x40000),
  (true, [⟨".bss.z", ⟨23, 1⟩, ["c"], []⟩, ⟨".bss.z", ⟨13, 4⟩, [], []⟩, ⟨".text", ⟨24, 4⟩, ["d"], ["_start", "a"]⟩],
   [], 0x40000),
  (true, [⟨".bss.z", ⟨35, 2⟩, [], []⟩, ⟨".data.y", ⟨6, 1⟩, ["a"], []⟩, ⟨".text", ⟨4, 1⟩, ["main", "d"], ["_end"]⟩, ⟨".comment.q", ⟨33, 2⟩, [], []⟩, ⟨".bss.z", ⟨33, 1⟩, ["f", "OUT"], []⟩],
   [], 0x40000),
  (true, [⟨".init.rust", ⟨16, 4⟩, ["_start_rust"], []⟩, ⟨".init", ⟨16, 4⟩, ["main", "d"], ["_end"]⟩],
   [(0, 0x10), (1, 0x0)], 0x40000),
  (true, [⟨".data.y", ⟨24, 2⟩, ["d"], ["_start_rust"]⟩, ⟨".text.g", ⟨39, 1⟩, [], []⟩, ⟨".text", ⟨19, 2⟩, ["_start"], ["__global_pointer$"]⟩, ⟨".text", ⟨8, 4⟩, ["main", "a"], ["main"]⟩, ⟨".data.y", ⟨14, 1⟩, ["c"], []⟩, ⟨".rodata.x", ⟨4, 8⟩, ["f", "_start_rust"], []⟩, ⟨".bss.z", ⟨18, 1⟩, [], []⟩, ⟨".rodata.x", ⟨36, 4⟩, ["OUT"], []⟩],
   [(2, 0x0)], 0x40000),
  (true, [⟨".data.y", ⟨24, 4⟩, [], ["b"]⟩, ⟨".rodata.x", ⟨40, 4⟩, ["c"], ["nowhere"]⟩, ⟨".bss.z", ⟨9, 8⟩, ["_start", "e"], []⟩, ⟨".inpdata", ⟨35, 8⟩, ["main"], ["main"]⟩, ⟨".rodata.x", ⟨28, 2⟩, ["_start_rust", "f"], ["OUT", "_start"]⟩, ⟨".bss.z", ⟨29, 4⟩, [], []⟩, ⟨".rodata.x", ⟨6, 8⟩, [], ["__global_pointer$"]⟩, ⟨".text", ⟨27, 4⟩, ["b"], []⟩, ⟨".text.g", ⟨25, 4⟩, ["d"], []⟩, ⟨".bss.z", ⟨29, 4⟩, [], []⟩, ⟨".text.g", ⟨37, 1⟩, [], ["_start_rust"]⟩],
   [(2, 0x40028), (3, 0x40000)], 0x40031),
  (true, [⟨".text.g", ⟨16, 4⟩, ["_start"], []⟩, ⟨".data.y", ⟨5, 2⟩, ["_start_rust", "f"], []⟩, ⟨".text.f", ⟨13, 8⟩, ["e"], ["_end", "e"]⟩, ⟨".comment.q", ⟨24, 4⟩, [], ["_start_rust"]⟩, ⟨".init", ⟨32, 1⟩, ["a"], []⟩],
   [(0, 0x20), (4, 0x0)], 0x40000)
]

/-- Inputs lld refuses, because of a symbol that is missing or defined twice. -/
def symbolErrors : List (Bool × List SymSec) := [
  (true, [⟨".bss.z", ⟨31, 4⟩, ["e", "_start_rust"], []⟩, ⟨".text", ⟨12, 1⟩, ["f"], ["_stack_start"]⟩, ⟨".inpdata", ⟨29, 1⟩, ["a"], []⟩, ⟨".text.g", ⟨16, 2⟩, ["c"], ["_start_rust", "OUT"]⟩, ⟨".init.rust", ⟨24, 8⟩, [], ["c"]⟩, ⟨".comment.q", ⟨36, 2⟩, [], ["f"]⟩, ⟨".init", ⟨15, 2⟩, ["_start"], ["_start_rust"]⟩]),
  (false, [⟨".text.f", ⟨29, 4⟩, ["main"], ["a"]⟩, ⟨".rodata.x", ⟨21, 1⟩, ["_start_rust", "c"], ["main"]⟩, ⟨".inpdata", ⟨25, 2⟩, ["_start"], []⟩, ⟨".inpdata", ⟨16, 2⟩, ["f"], ["OUT", "e"]⟩, ⟨".rodata.x", ⟨12, 4⟩, ["d"], []⟩]),
  (true, [⟨".rodata.x", ⟨19, 2⟩, ["d", "b"], ["OUT", "_end"]⟩, ⟨".bss.z", ⟨13, 1⟩, ["main"], []⟩, ⟨".comment.q", ⟨20, 8⟩, [], ["nowhere"]⟩, ⟨".comment.q", ⟨39, 4⟩, [], ["nowhere"]⟩, ⟨".comment.q", ⟨28, 4⟩, [], ["nowhere"]⟩, ⟨".rodata.x", ⟨3, 4⟩, ["a"], []⟩, ⟨".init", ⟨22, 2⟩, ["_start_rust", "OUT"], ["nowhere", "__global_pointer$"]⟩, ⟨".text.f", ⟨29, 2⟩, ["e", "f"], ["_start_rust"]⟩, ⟨".data.y", ⟨27, 4⟩, [], ["b"]⟩, ⟨".text", ⟨27, 4⟩, ["_start", "c"], []⟩]),
  (true, [⟨".init.rust", ⟨22, 4⟩, ["OUT"], []⟩, ⟨".text.g", ⟨25, 4⟩, ["d", "_start"], ["b"]⟩, ⟨".inpdata", ⟨31, 2⟩, [], ["main"]⟩, ⟨".init.rust", ⟨20, 1⟩, ["b"], ["nowhere", "_stack_start"]⟩, ⟨".rodata.x", ⟨39, 4⟩, ["c"], []⟩, ⟨".rodata.x", ⟨27, 4⟩, [], []⟩, ⟨".comment.q", ⟨31, 8⟩, [], ["main"]⟩, ⟨".bss.z", ⟨24, 2⟩, ["main"], []⟩, ⟨".init.rust", ⟨4, 8⟩, ["a"], ["c"]⟩]),
  (false, [⟨".init.rust", ⟨22, 2⟩, ["b"], ["__global_pointer$", "d"]⟩, ⟨".bss.z", ⟨2, 4⟩, ["f", "_start_rust"], []⟩]),
  (true, [⟨".inpdata", ⟨19, 8⟩, ["e"], ["f", "e"]⟩, ⟨".text.f", ⟨36, 1⟩, ["c"], ["_stack_start"]⟩, ⟨".text", ⟨26, 4⟩, ["f"], ["_start"]⟩, ⟨".inpdata", ⟨38, 8⟩, [], ["f"]⟩, ⟨".init", ⟨16, 4⟩, ["a"], ["b"]⟩, ⟨".bss.z", ⟨38, 2⟩, ["e"], []⟩, ⟨".bss.z", ⟨7, 4⟩, ["_start_rust", "b"], []⟩, ⟨".data.y", ⟨32, 4⟩, ["_start", "c"], ["c", "main"]⟩, ⟨".bss.z", ⟨27, 4⟩, ["OUT", "main"], []⟩]),
  (true, [⟨".inpdata", ⟨4, 8⟩, ["main", "b"], ["d"]⟩, ⟨".text.f", ⟨5, 4⟩, [], []⟩, ⟨".data.y", ⟨22, 4⟩, ["f", "a"], ["a"]⟩]),
  (false, [⟨".inpdata", ⟨9, 8⟩, ["OUT", "c"], ["main", "c"]⟩, ⟨".inpdata", ⟨29, 2⟩, ["e"], ["b"]⟩, ⟨".init", ⟨25, 8⟩, ["_start"], ["main"]⟩, ⟨".data.y", ⟨25, 8⟩, ["_start_rust", "b"], ["d"]⟩, ⟨".inpdata", ⟨39, 1⟩, ["f"], ["nowhere", "OUT"]⟩, ⟨".inpdata", ⟨0, 4⟩, ["d"], []⟩, ⟨".init.rust", ⟨1, 4⟩, ["main"], []⟩, ⟨".text.f", ⟨12, 8⟩, ["a"], ["OUT", "__global_pointer$"]⟩, ⟨".comment.q", ⟨21, 2⟩, [], ["nowhere"]⟩]),
  (true, [⟨".init", ⟨32, 4⟩, ["e"], ["b"]⟩, ⟨".init.rust", ⟨38, 2⟩, ["c"], []⟩, ⟨".text.f", ⟨20, 4⟩, [], ["d"]⟩, ⟨".data.y", ⟨4, 1⟩, ["f"], ["a"]⟩]),
  (true, [⟨".text.g", ⟨15, 8⟩, ["OUT", "main"], []⟩, ⟨".data.y", ⟨11, 4⟩, ["d"], ["_start"]⟩, ⟨".data.y", ⟨17, 8⟩, ["_start"], ["nowhere"]⟩, ⟨".data.y", ⟨15, 2⟩, [], ["_end"]⟩, ⟨".rodata.x", ⟨35, 8⟩, ["_start_rust"], ["c", "__global_pointer$"]⟩, ⟨".text.g", ⟨30, 4⟩, [], ["b"]⟩, ⟨".bss.z", ⟨29, 4⟩, ["b", "f"], []⟩, ⟨".text.f", ⟨37, 4⟩, [], ["e"]⟩, ⟨".comment.q", ⟨4, 1⟩, [], ["_end"]⟩, ⟨".init.rust", ⟨15, 2⟩, ["c"], []⟩, ⟨".comment.q", ⟨12, 1⟩, [], ["OUT", "main"]⟩]),
  (true, [⟨".text", ⟨21, 4⟩, ["f", "e"], ["main", "_start_rust"]⟩, ⟨".text.g", ⟨25, 4⟩, ["_start"], []⟩, ⟨".text.g", ⟨23, 2⟩, ["main"], ["b"]⟩, ⟨".inpdata", ⟨36, 8⟩, ["_start_rust", "a"], []⟩, ⟨".comment.q", ⟨26, 8⟩, [], []⟩, ⟨".comment.q", ⟨15, 4⟩, [], []⟩, ⟨".inpdata", ⟨19, 4⟩, [], ["nowhere"]⟩, ⟨".init", ⟨11, 4⟩, [], []⟩, ⟨".text.g", ⟨16, 8⟩, ["d"], ["_stack_start"]⟩, ⟨".text.f", ⟨23, 4⟩, ["c"], ["b", "_start_rust"]⟩]),
  (false, [⟨".init", ⟨25, 8⟩, [], ["d", "nowhere"]⟩, ⟨".rodata.x", ⟨28, 4⟩, ["OUT"], ["nowhere"]⟩, ⟨".text.g", ⟨39, 4⟩, ["b"], ["b"]⟩]),
  (true, [⟨".text", ⟨28, 4⟩, ["_start"], ["_end"]⟩, ⟨".bss.z", ⟨18, 8⟩, ["main"], []⟩, ⟨".data.y", ⟨8, 4⟩, ["e", "a"], ["__global_pointer$", "f"]⟩, ⟨".data.y", ⟨34, 2⟩, [], []⟩, ⟨".text", ⟨26, 4⟩, ["_start_rust", "b"], ["a", "_end"]⟩, ⟨".rodata.x", ⟨17, 8⟩, [], ["e"]⟩, ⟨".comment.q", ⟨11, 4⟩, [], ["nowhere", "main"]⟩, ⟨".init", ⟨37, 4⟩, [], ["_end", "OUT"]⟩, ⟨".init", ⟨8, 8⟩, ["f"], ["a", "c"]⟩, ⟨".rodata.x", ⟨25, 2⟩, ["d", "OUT"], []⟩]),
  (false, [⟨".comment.q", ⟨35, 8⟩, [], ["nowhere"]⟩, ⟨".init", ⟨19, 1⟩, ["a"], ["_stack_start", "nowhere"]⟩, ⟨".rodata.x", ⟨4, 1⟩, ["f", "_start"], []⟩, ⟨".text.g", ⟨29, 8⟩, ["b", "c"], []⟩, ⟨".init", ⟨4, 2⟩, ["e", "OUT"], ["main"]⟩, ⟨".rodata.x", ⟨35, 4⟩, ["_start_rust", "main"], ["a"]⟩]),
  (false, [⟨".data.y", ⟨28, 1⟩, ["f", "OUT"], ["_start_rust", "_start_rust"]⟩, ⟨".text", ⟨29, 4⟩, ["main", "d"], []⟩, ⟨".data.y", ⟨7, 2⟩, ["e"], ["_start_rust"]⟩, ⟨".text.f", ⟨4, 2⟩, [], []⟩, ⟨".text", ⟨16, 8⟩, ["c"], []⟩]),
  (true, [⟨".comment.q", ⟨22, 4⟩, [], ["nowhere"]⟩, ⟨".init.rust", ⟨33, 4⟩, ["f"], ["_end", "f"]⟩, ⟨".text", ⟨28, 4⟩, ["e", "_start"], ["d", "OUT"]⟩]),
  (false, [⟨".comment.q", ⟨12, 2⟩, [], []⟩, ⟨".text.f", ⟨34, 1⟩, [], []⟩, ⟨".rodata.x", ⟨21, 4⟩, ["e"], ["nowhere"]⟩, ⟨".text.f", ⟨28, 2⟩, ["_start", "main"], []⟩, ⟨".data.y", ⟨4, 1⟩, ["OUT", "_start_rust"], ["main"]⟩, ⟨".text.f", ⟨11, 4⟩, ["f"], ["_end", "_start_rust"]⟩, ⟨".text", ⟨8, 4⟩, ["b"], ["OUT", "_start"]⟩, ⟨".bss.z", ⟨33, 4⟩, ["a"], []⟩, ⟨".inpdata", ⟨5, 4⟩, [], []⟩, ⟨".text.f", ⟨14, 1⟩, ["d"], ["_start", "nowhere"]⟩]),
  (false, [⟨".text", ⟨32, 4⟩, ["a"], []⟩, ⟨".inpdata", ⟨17, 8⟩, ["_start"], ["e"]⟩, ⟨".data.y", ⟨21, 8⟩, ["main"], []⟩, ⟨".bss.z", ⟨17, 8⟩, ["d", "_start_rust"], []⟩, ⟨".text.g", ⟨40, 2⟩, ["f", "e"], ["b"]⟩]),
  (true, [⟨".bss.z", ⟨28, 2⟩, ["d"], []⟩, ⟨".init", ⟨28, 4⟩, [], ["_start_rust"]⟩]),
  (true, [⟨".init", ⟨40, 4⟩, ["_start_rust"], ["_start"]⟩, ⟨".init", ⟨0, 4⟩, ["e"], []⟩])
]

theorem symbolVectors_ok : symbolVectors.all (fun v => (resolve v.1 v.2.1).any fun js => agrees v.1 js v.2.2.1 v.2.2.2) = true := by
  decide +kernel

theorem symbolErrors_ok : symbolErrors.all (fun v => (resolve v.1 v.2).isNone) = true := by decide +kernel

end Verif
