import Verif.Model.Reloc
/-
  Written by tools/gen_object_vectors.py: object files with relocations, linked with compiler/linker-script/default.x by lld 22.1.4.
-/
namespace Verif
open Model Model.Link

/-- Whether unused sections are collected; the sections; address and bytes of those in the program. -/
abbrev ObjectVector := Bool × List ObjSec × List (Nat × Nat × List (BitVec 8))

private def good0 : ObjectVector := (false, [⟨".init", 2, [124, 96, 189, 251, 111, 110, 197, 46, 44, 229, 154, 197, 178, 192, 221, 88, 173, 91, 196, 191, 109, 135, 22, 30, 200, 218, 94, 100, 35, 223, 212, 145, 180, 78, 227, 175, 230, 103, 176, 227, 180, 30, 212, 91, 156, 111, 75, 51, 209, 23, 4, 166, 81, 9, 213, 4, 153], [("_start", 0), ("f0", 4)], [⟨2, .hi, .sym "f1", 0x12345678⟩, ⟨10, .jal, .sym "f0", 0⟩, ⟨14, .pcrelHi, .label 53, 0x12345678⟩, ⟨22, .pcrelLoS, .label 14, 0⟩, ⟨26, .pcrelLoI, .label 14, 0⟩, ⟨30, .pcrelLoS, .label 14, 0⟩, ⟨34, .pcrelLoI, .label 14, 0⟩, ⟨38, .hi, .sym "__global_pointer$", 0x80000001⟩, ⟨42, .pcrelLoI, .label 14, 0⟩, ⟨50, .abs32, .sym "_end", 0⟩]⟩,
    ⟨".bss.e", 2, [0, 0, 0, 0, 0, 0, 0, 0, 0, 0, 0, 0, 0, 0, 0, 0, 0, 0, 0, 0, 0, 0, 0, 0, 0, 0, 0, 0, 0, 0, 0, 0, 0, 0, 0, 0, 0, 0, 0, 0], [("f1", 0)], []⟩,
    ⟨".rodata.c", 2, [156, 137, 91, 27, 76, 61, 211, 90, 50, 232, 210, 161, 236, 168, 247, 216, 106, 118, 135, 94, 26, 201, 37, 82, 102, 215, 178, 165, 240, 61, 133, 145, 157, 41, 115, 62, 52, 227, 111, 78, 160, 7], [("f2", 4)], [⟨4, .hi, .label 40, 0x4⟩, ⟨12, .abs32, .label 4, 0⟩, ⟨16, .hi, .sym "__global_pointer$", 0xfffffffc⟩, ⟨28, .pcrelLoS, .label 20, 0⟩, ⟨24, .pcrelLoS, .label 20, 0⟩, ⟨32, .pcrelLoS, .label 20, 0⟩, ⟨8, .abs32, .label 6, 0x7ff⟩, ⟨20, .pcrelHi, .sym "f2", 0⟩]⟩],
   [(0, 0x0, [124, 96, 189, 91, 56, 18, 197, 46, 44, 229, 154, 245, 191, 255, 221, 88, 52, 18, 196, 191, 109, 135, 150, 31, 200, 104, 94, 100, 243, 105, 212, 159, 180, 104, 227, 175, 246, 105, 176, 19, 4, 128, 212, 91, 252, 105, 75, 51, 209, 23, 84, 0, 4, 0, 213, 4, 153]),
    (1, 0x4002c, [0, 0, 0, 0, 0, 0, 0, 0, 0, 0, 0, 0, 0, 0, 0, 0, 0, 0, 0, 0, 0, 0, 0, 0, 0, 0, 0, 0, 0, 0, 0, 0, 0, 0, 0, 0, 0, 0, 0, 0]),
    (2, 0x40000, [156, 137, 91, 27, 76, 13, 4, 0, 5, 8, 4, 0, 4, 0, 4, 0, 106, 22, 4, 0, 26, 9, 0, 0, 102, 216, 178, 255, 112, 56, 133, 255, 29, 40, 115, 254, 52, 227, 111, 78, 160, 7])])

private def good1 : ObjectVector := (false, [⟨".init", 4, [236, 56, 18, 56, 132, 127, 135, 19, 215, 22, 112, 207, 198], [("_start", 0), ("f0", 4), ("f1", 8)], [⟨4, .call, .sym "__global_pointer$", 0⟩]⟩,
    ⟨".rodata", 4, [65, 171, 145, 129, 137, 221, 151, 90, 129, 55, 195, 167, 241, 78, 93, 60, 162, 230, 39, 249], [("f2", 16), ("f3", 8)], [⟨8, .abs32, .label 12, 0x800⟩, ⟨12, .abs32, .sym "f3", 0x800⟩, ⟨16, .hi, .sym "f3", 0⟩]⟩,
    ⟨".inpdata", 8, [199, 230, 110, 50, 239, 123, 203, 20, 77, 87, 126, 215, 232, 104, 22, 35, 181, 171, 247, 1, 46, 56, 200, 123, 107, 227, 202, 111, 102, 32, 34, 199, 181, 215, 57, 32, 141, 238, 227, 240, 53, 58], [("f4", 8)], [⟨1, .abs32, .sym "f2", 0⟩, ⟨9, .pcrelHi, .sym "f1", 0x200000⟩, ⟨13, .abs32, .sym "f3", 0⟩, ⟨17, .pcrelLoS, .label 9, 0⟩, ⟨21, .pcrelLoS, .label 9, 0⟩, ⟨25, .pcrelLoS, .label 9, 0⟩, ⟨29, .pcrelLoS, .label 9, 0⟩, ⟨33, .pcrelLoI, .label 9, 0⟩, ⟨37, .pcrelLoS, .label 9, 0⟩]⟩],
   [(0, 0x0, [236, 56, 18, 56, 132, 31, 4, 0, 215, 22, 192, 131, 198]),
    (1, 0x4002c, [65, 171, 145, 129, 137, 221, 151, 90, 56, 8, 4, 0, 52, 8, 4, 0, 162, 6, 4, 0]),
    (2, 0x40000, [199, 60, 0, 4, 0, 123, 203, 20, 77, 87, 14, 28, 0, 52, 0, 4, 0, 171, 255, 1, 254, 184, 207, 123, 255, 227, 207, 111, 254, 160, 47, 199, 255, 215, 57, 240, 255, 238, 239, 240, 255, 58])])

private def good2 : ObjectVector := (true, [⟨".init", 4, [176, 123, 111, 159, 228, 212, 196, 105, 238, 121, 222, 87, 208, 171, 115, 242, 138, 162, 68, 23], [("_start", 0), ("f0", 0)], [⟨0, .jal, .sym "f6", 0⟩, ⟨4, .jal, .label 4, 0⟩, ⟨8, .hi, .sym "f1", 0xfffffffc⟩, ⟨12, .branch, .label 16, 0⟩, ⟨16, .loI, .sym "_stack_start", 0⟩]⟩,
    ⟨".data.d", 8, [18, 57, 102, 20, 154, 242, 91, 13], [("f1", 4), ("f2", 4)], []⟩,
    ⟨".outdata", 1, [115, 78, 67, 92, 227, 95, 183, 42, 242, 227, 71], [("f3", 8)], [⟨1, .abs32, .label 0, 0⟩]⟩,
    ⟨".bss.e", 8, [0, 0, 0, 0, 0, 0, 0, 0, 0, 0, 0, 0, 0, 0, 0, 0, 0, 0, 0, 0, 0, 0, 0, 0, 0, 0, 0, 0, 0, 0, 0, 0, 0, 0, 0, 0, 0, 0, 0, 0, 0, 0, 0], [("f4", 4)], []⟩,
    ⟨".outdata", 2, [18, 106, 188, 180, 81, 215, 226, 72, 192, 47, 65, 16, 52, 198, 250], [("f5", 7)], [⟨1, .hi, .sym "f4", 0⟩, ⟨9, .abs32, .sym "f1", 0x12345678⟩]⟩,
    ⟨".outdata", 4, [40, 82, 15, 166, 2, 25, 225, 120, 62, 232, 222, 72, 65, 222, 100, 48, 134, 8, 22, 112, 147, 157, 210, 170, 64, 221, 177, 175, 175, 155, 92], [("f6", 4), ("f7", 0)], [⟨1, .abs32, .sym "_end", 0xfffff7ff⟩, ⟨5, .hi, .sym "_stack_start", 0x4⟩, ⟨13, .pcrelHi, .sym "f1", 0⟩, ⟨17, .pcrelLoI, .label 13, 0⟩, ⟨21, .pcrelLoS, .label 13, 0⟩, ⟨25, .pcrelLoS, .label 13, 0⟩]⟩,
    ⟨".inpdata", 2, [38, 210, 140, 77, 254, 113, 203, 90, 218, 189, 167, 78, 188, 9, 60, 115, 46, 239, 191, 239], [("f8", 0), ("f9", 3)], [⟨9, .pcrelHi, .label 3, 0x800⟩, ⟨13, .pcrelLoI, .label 9, 0⟩]⟩],
   [(0, 0x0, [176, 11, 68, 3, 228, 4, 0, 0, 238, 9, 4, 0, 80, 162, 115, 0, 138, 162, 4, 0]),
    (1, 0x40050, [18, 57, 102, 20, 154, 242, 91, 13]),
    (2, 0x40014, [115, 20, 0, 4, 0, 95, 183, 42, 242, 227, 71]),
    (3, 0x40058, [0, 0, 0, 0, 0, 0, 0, 0, 0, 0, 0, 0, 0, 0, 0, 0, 0, 0, 0, 0, 0, 0, 0, 0, 0, 0, 0, 0, 0, 0, 0, 0, 0, 0, 0, 0, 0, 0, 0, 0, 0, 0, 0]),
    (4, 0x40020, [18, 106, 12, 4, 0, 215, 226, 72, 192, 204, 86, 56, 18, 198, 250]),
    (5, 0x40030, [40, 130, 248, 3, 0, 25, 17, 4, 0, 232, 222, 72, 65, 222, 4, 0, 0, 8, 22, 112, 1, 157, 219, 170, 0, 221, 187, 175, 1, 155, 92]),
    (6, 0x40000, [38, 210, 140, 77, 254, 113, 203, 90, 218, 189, 7, 0, 0, 9, 60, 163, 127, 239, 191, 239])])

private def good3 : ObjectVector := (false, [⟨".init", 4, [146, 141, 182, 231], [("_start", 0), ("f0", 8)], []⟩,
    ⟨".inpdata", 4, [56, 13, 69, 63, 15, 202], [("f1", 4)], [⟨2, .abs32, .sym "f6", 0⟩]⟩,
    ⟨".inpdata", 4, [128, 177, 107, 83, 200, 155, 70, 129, 155, 57], [("f2", 8)], [⟨6, .abs32, .sym "f0", 0x12345678⟩]⟩,
    ⟨".text", 2, [247, 30, 162, 229, 129, 248, 208, 138, 163, 64, 9, 94, 132, 30, 66, 66, 218, 215, 75, 89, 173, 190, 56, 14, 118, 179, 80, 128], [("f3", 4)], [⟨12, .loS, .sym "f1", 0⟩, ⟨16, .loI, .sym "_stack_start", 0x4⟩, ⟨20, .abs32, .sym "f4", 0x4⟩, ⟨24, .jal, .sym "f0", 0x1000⟩]⟩,
    ⟨".sdata", 4, [90, 104, 236, 252, 141, 8, 120, 119, 102, 70, 196, 31, 128, 124, 80, 48, 169, 230, 71, 135, 135, 190, 116, 45, 154, 128, 235, 81, 254, 33, 134, 180, 211, 93, 11, 241, 47, 103, 191, 251], [("f4", 4), ("f5", 0)], [⟨8, .pcrelLoS, .label 0, 0⟩, ⟨28, .pcrelLoI, .label 0, 0⟩, ⟨4, .pcrelLoS, .label 0, 0⟩, ⟨24, .pcrelLoS, .label 0, 0⟩, ⟨0, .pcrelHi, .sym "f1", 0x7ff⟩, ⟨12, .pcrelLoI, .label 0, 0⟩, ⟨32, .pcrelLoI, .label 0, 0⟩, ⟨16, .pcrelLoI, .label 0, 0⟩, ⟨36, .pcrelLoI, .label 0, 0⟩]⟩,
    ⟨".outdata", 2, [196, 3, 18, 133, 167, 114, 135, 2, 142, 198, 163, 155, 50, 119, 123, 196, 69, 97, 111, 160, 48, 236, 218, 168, 107, 250, 120, 17, 7, 143, 90, 2, 198, 192, 158, 157, 130, 50, 250, 93, 28, 100, 230, 79, 249, 255, 175, 52, 239, 133, 19, 85, 98, 77, 241, 156], [("f6", 8)], [⟨50, .pcrelLoI, .label 6, 0⟩, ⟨30, .pcrelLoI, .label 2, 0⟩, ⟨26, .pcrelHi, .label 38, 0x4⟩, ⟨6, .pcrelHi, .label 3, 0x8⟩, ⟨10, .pcrelLoI, .label 2, 0⟩, ⟨42, .pcrelLoS, .label 6, 0⟩, ⟨2, .pcrelHi, .sym "f4", 0x8⟩, ⟨38, .pcrelLoI, .label 26, 0⟩, ⟨34, .pcrelLoS, .label 6, 0⟩, ⟨46, .hi, .label 14, 0x80000001⟩, ⟨14, .pcrelLoI, .label 2, 0⟩, ⟨22, .pcrelLoS, .label 2, 0⟩, ⟨18, .pcrelLoS, .label 2, 0⟩]⟩],
   [(0, 0x0, [146, 141, 182, 231]),
    (1, 0x40000, [56, 13, 28, 0, 4, 0]),
    (2, 0x40008, [128, 177, 107, 83, 200, 155, 128, 86, 52, 18]),
    (3, 0x4, [247, 30, 162, 229, 129, 248, 208, 138, 163, 64, 9, 94, 4, 18, 66, 0, 218, 215, 75, 0, 84, 0, 4, 0, 118, 3, 208, 126]),
    (4, 0x4004c, [90, 8, 0, 0, 141, 11, 120, 123, 230, 75, 196, 123, 128, 124, 112, 123, 169, 230, 119, 123, 135, 190, 116, 45, 154, 139, 235, 123, 254, 33, 118, 123, 211, 93, 123, 123, 47, 103, 127, 123]),
    (5, 0x40014, [196, 3, 18, 5, 0, 0, 135, 2, 0, 0, 163, 155, 34, 4, 123, 196, 37, 4, 111, 161, 48, 4, 90, 161, 107, 4, 120, 1, 0, 0, 90, 2, 38, 4, 158, 146, 130, 0, 250, 93, 12, 1, 230, 66, 249, 1, 175, 4, 4, 128, 19, 85, 82, 0, 241, 156])])

private def good4 : ObjectVector := (true, [⟨".init", 4, [85, 139, 121, 30, 97, 22, 183, 51, 97, 230, 210], [("_start", 0), ("f0", 4)], [⟨0, .branch, .sym "f5", 0⟩, ⟨4, .jal, .sym "f6", 0⟩]⟩,
    ⟨".rodata", 4, [124, 248, 124, 20, 186, 35, 127, 77, 227, 211, 207, 82, 77, 214, 106, 146, 244, 164, 150, 40, 231], [("f1", 4)], [⟨8, .pcrelHi, .sym "f6", 0x200000⟩, ⟨16, .pcrelHi, .sym "f4", 0x12345678⟩]⟩,
    ⟨".sdata", 1, [98, 163, 212, 22], [("f2", 8), ("f3", 1)], []⟩,
    ⟨".inpdata", 1, [115, 62, 19, 66, 69, 2, 66, 169, 183, 36, 19, 34, 7, 37, 34, 129, 149, 26, 230, 170, 78, 86, 226, 228, 61, 100, 199, 36, 114, 251, 68, 167, 73, 90, 119, 167, 2, 11, 23, 251], [("f4", 0)], [⟨17, .abs32, .sym "f4", 0x800⟩, ⟨1, .hi, .sym "f7", 0x800⟩, ⟨25, .pcrelHi, .label 27, 0⟩, ⟨33, .pcrelLoS, .label 25, 0⟩]⟩,
    ⟨".text", 8, [156, 63, 84, 133, 207, 210, 14, 217, 240, 197, 23, 237, 109, 211, 47, 24, 65, 255, 145, 152], [("f5", 0), ("f6", 0)], [⟨0, .loI, .sym "f6", 0x7ff⟩, ⟨12, .loI, .sym "f5", 0x4⟩, ⟨16, .loI, .sym "f6", 0xfffff7ff⟩]⟩,
    ⟨".outdata", 4, [246, 80, 2, 154, 217, 147, 123, 173], [("f7", 8)], []⟩],
   [(0, 0x0, [85, 136, 121, 0, 97, 6, 192, 0, 97, 230, 210]),
    (3, 0x40000, [115, 62, 19, 4, 0, 2, 66, 169, 183, 36, 19, 34, 7, 37, 34, 129, 149, 0, 8, 4, 0, 86, 226, 228, 61, 100, 7, 0, 0, 251, 68, 167, 73, 90, 113, 167, 0, 11, 23, 251]),
    (4, 0x10, [156, 63, 244, 128, 207, 210, 14, 217, 240, 197, 23, 237, 109, 211, 79, 1, 65, 255, 241, 128]),
    (5, 0x40028, [246, 80, 2, 154, 217, 147, 123, 173])])

private def good5 : ObjectVector := (false, [⟨".init", 4, [183, 249, 253, 31, 6, 8, 131, 16, 29, 148, 55, 107, 173, 235, 201, 254, 2, 125, 237, 30], [("_start", 0), ("f0", 17), ("f1", 0)], [⟨4, .abs32, .sym "f7", 0⟩, ⟨8, .jal, .sym "f2", 0⟩, ⟨16, .jal, .sym "f8", 0⟩]⟩,
    ⟨".text.a", 4, [198, 156, 197, 205, 37, 185, 215, 198, 240, 8, 59, 71, 140, 240, 206, 35, 100, 237, 206, 178, 152, 163, 231, 247, 139, 202, 0, 140, 145, 228, 103, 172, 218, 195, 142, 105, 174, 171, 167, 242, 78, 10, 231, 88, 53, 228, 113, 123, 37, 97, 82, 17, 60, 57, 125, 254, 16, 49], [("f2", 0)], [⟨6, .abs32, .sym "f1", 0⟩, ⟨10, .loI, .sym "_stack_start", 0x12345678⟩, ⟨14, .abs32, .sym "f7", 0x200000⟩, ⟨18, .branch, .sym "f1", 0⟩, ⟨22, .abs32, .sym "f5", 0x800⟩, ⟨42, .loS, .sym "f10", 0x8⟩, ⟨46, .call, .sym "__global_pointer$", 0x200000⟩, ⟨54, .abs32, .sym "f2", 0x200000⟩]⟩,
    ⟨".bss.e", 4, [0, 0, 0, 0], [("f3", 8), ("f4", 0)], []⟩,
    ⟨".init.rust", 4, [177, 56, 108, 9, 169, 155, 148, 130, 41, 39, 247, 62, 181, 165, 134, 182, 137, 127, 124, 9, 204, 37, 184, 89, 225, 150, 175, 49, 228], [("f5", 4)], [⟨2, .jal, .sym "f8", 0⟩, ⟨6, .loS, .sym "f4", 0x200000⟩, ⟨10, .jal, .sym "f1", 0⟩, ⟨14, .pcrelHi, .sym "f11", 0⟩, ⟨18, .pcrelLoI, .label 14, 0⟩, ⟨22, .pcrelLoI, .label 14, 0⟩]⟩,
    ⟨".outdata", 8, [112, 33, 99, 68, 23, 40, 128, 22, 250, 142, 241, 100, 40, 48, 233, 224, 43, 152, 110, 5, 234, 43, 76, 80, 95, 148, 35, 53, 214, 12, 103, 242, 233, 29, 240, 119, 37, 213, 174, 37, 25], [("f6", 4), ("f7", 0)], [⟨1, .abs32, .sym "f11", 0⟩, ⟨9, .hi, .sym "f10", 0xfffff7ff⟩, ⟨17, .abs32, .label 38, 0⟩, ⟨21, .pcrelHi, .sym "__global_pointer$", 0x80000001⟩, ⟨25, .pcrelLoS, .label 21, 0⟩, ⟨29, .abs32, .sym "f7", 0xfffff7ff⟩, ⟨37, .pcrelLoI, .label 21, 0⟩]⟩,
    ⟨".text", 4, [143, 91, 65, 107, 3, 60, 154, 171, 0, 29, 63, 94, 162], [("f8", 8), ("f9", 3)], [⟨2, .loS, .sym "f2", 0x200000⟩]⟩,
    ⟨".inpdata", 4, [114, 184, 10, 172], [("f10", 4), ("f11", 4)], []⟩],
   [(0, 0x0, [183, 249, 253, 31, 8, 0, 4, 0, 29, 4, 192, 2, 173, 235, 201, 254, 2, 13, 128, 6]),
    (1, 0x34, [198, 156, 197, 205, 37, 185, 0, 0, 0, 0, 59, 71, 140, 103, 8, 0, 36, 0, 206, 189, 152, 251, 24, 8, 0, 0, 0, 140, 145, 228, 103, 172, 218, 195, 142, 105, 174, 171, 167, 242, 78, 10, 103, 86, 53, 0, 113, 11, 36, 0, 82, 17, 44, 125, 52, 0, 32, 0]),
    (2, 0x40034, [0, 0, 0, 0]),
    (3, 0x14, [177, 56, 108, 9, 32, 6, 20, 138, 41, 3, 247, 254, 63, 254, 134, 6, 4, 0, 124, 9, 44, 254, 184, 89, 33, 254, 175, 49, 228]),
    (4, 0x40008, [112, 4, 0, 4, 0, 40, 128, 22, 250, 142, 1, 4, 0, 48, 233, 224, 43, 46, 0, 4, 0, 43, 28, 0, 128, 20, 44, 53, 128, 7, 248, 3, 0, 29, 240, 119, 37, 213, 174, 133, 129]),
    (5, 0x70, [143, 91, 65, 106, 3, 2, 154, 171, 0, 29, 63, 94, 162]),
    (6, 0x40000, [114, 184, 10, 172])])

private def good6 : ObjectVector := (true, [⟨".init", 2, [26, 15, 170, 241, 182, 205, 79, 44, 126, 211, 140, 97, 171, 182, 112, 243, 183, 29, 217, 77, 108, 252, 199, 120, 8, 172, 199, 31, 53, 39, 99, 99, 156, 69, 47, 65, 130, 17, 22, 218, 155, 86], [("_start", 0), ("f0", 8)], [⟨34, .loS, .sym "_end", 0x7ff⟩, ⟨22, .loI, .sym "f4", 0x8⟩, ⟨38, .abs32, .sym "f3", 0x7ff⟩, ⟨2, .abs32, .sym "f3", 0x8⟩, ⟨10, .abs32, .sym "_end", 0x80000001⟩, ⟨6, .loI, .sym "_end", 0x7ff⟩, ⟨18, .branch, .sym "f0", 0⟩]⟩,
    ⟨".text.a", 2, [57, 118, 200, 143, 7, 8, 32, 101, 245, 33, 31, 27, 176, 162, 219, 235, 57, 255, 34, 178, 251, 213, 65, 8, 7, 182, 186, 171, 124, 202, 128], [("f1", 0)], [⟨0, .pcrelHi, .sym "f0", 0x4⟩, ⟨4, .loI, .sym "f3", 0x8⟩, ⟨8, .pcrelLoI, .label 0, 0⟩, ⟨12, .pcrelLoS, .label 0, 0⟩, ⟨16, .pcrelLoI, .label 0, 0⟩, ⟨20, .pcrelLoS, .label 0, 0⟩, ⟨24, .pcrelLoS, .label 0, 0⟩]⟩,
    ⟨".init.rust", 4, [9, 27, 230, 125, 78, 79, 60, 19, 117, 24, 113, 63, 119, 51, 137, 218, 223, 142, 192, 77, 249, 115, 35, 230, 101, 6, 130, 183, 46, 199, 105, 147, 163, 36, 84, 122, 216, 24, 203, 119, 37, 37, 207, 233, 205, 47, 251, 127, 107, 62, 38, 167, 51, 75, 73, 234], [("f2", 0)], [⟨2, .loI, .sym "f6", 0x12345678⟩, ⟨6, .jal, .sym "f4", 0⟩, ⟨10, .jal, .sym "_stack_start", 0⟩, ⟨18, .jal, .sym "f2", 0⟩, ⟨22, .hi, .sym "_stack_start", 0x7ff⟩, ⟨30, .loS, .sym "f6", 0x800⟩, ⟨34, .loS, .label 36, 0x12345678⟩, ⟨42, .hi, .sym "f6", 0x200000⟩]⟩,
    ⟨".text.a", 8, [40, 204, 240, 105, 171, 27, 168, 219, 180, 103, 51, 181, 5, 16, 44, 85, 89, 61, 75, 30, 100, 81, 75, 249, 196, 255, 16, 235, 148, 121, 159, 123, 61, 231, 40, 72, 115, 50, 174, 213, 54, 193, 179, 97, 206, 158, 156, 128, 215, 80, 152, 136, 81, 124, 44, 89, 77], [("f3", 0), ("f4", 4)], [⟨8, .pcrelHi, .sym "f0", 0x800⟩, ⟨4, .branch, .sym "f1", 0⟩, ⟨48, .pcrelLoS, .label 24, 0⟩, ⟨52, .pcrelHi, .sym "f4", 0⟩, ⟨12, .loI, .label 7, 0xfffff7ff⟩, ⟨28, .pcrelLoS, .label 8, 0⟩, ⟨32, .pcrelLoS, .label 24, 0⟩, ⟨20, .pcrelLoI, .label 8, 0⟩, ⟨24, .pcrelHi, .sym "f3", 0xfffff7ff⟩, ⟨40, .pcrelLoS, .label 8, 0⟩, ⟨0, .jal, .sym "f4", 0⟩]⟩,
    ⟨".rodata", 2, [221, 35, 172, 115, 27, 234, 58, 175, 136, 244, 177, 0, 247, 233, 202, 100, 76, 89, 106, 75, 27, 128, 242, 18, 102, 199, 40, 42, 12, 74, 119, 112, 239, 249, 97, 221, 219, 148, 225, 7, 53, 49, 118, 214, 117, 190, 66, 118, 33, 136, 154, 33, 58, 176, 201, 27], [("f5", 0), ("f6", 4)], [⟨6, .hi, .sym "_stack_start", 0⟩, ⟨10, .abs32, .sym "f8", 0x4⟩, ⟨22, .abs32, .sym "f5", 0xfffffffc⟩, ⟨26, .hi, .sym "f0", 0⟩, ⟨30, .hi, .sym "f6", 0⟩, ⟨38, .abs32, .label 46, 0x8⟩, ⟨46, .abs32, .label 47, 0x8⟩, ⟨50, .abs32, .sym "f6", 0⟩]⟩,
    ⟨".rodata.c", 2, [177, 251, 240, 164, 91, 1, 85, 183, 10, 40, 122, 153, 37, 45, 180, 224, 210, 159, 72, 239, 120, 253, 124, 21, 87, 205, 66, 107, 229, 149, 109, 182, 11, 206, 139, 66, 241, 172, 62, 105, 107, 219, 175, 255, 19, 184, 21, 217, 135, 151, 194, 101, 9, 24, 38, 182, 3, 36, 37], [("f7", 0), ("f8", 4)], [⟨33, .abs32, .label 1, 0x80000001⟩, ⟨37, .abs32, .label 13, 0x7ff⟩, ⟨21, .pcrelLoS, .label 1, 0⟩, ⟨41, .pcrelHi, .sym "f8", 0⟩, ⟨49, .pcrelLoS, .label 41, 0⟩, ⟨25, .pcrelLoI, .label 1, 0⟩, ⟨29, .pcrelHi, .sym "f2", 0x4⟩, ⟨1, .pcrelHi, .sym "f0", 0⟩, ⟨9, .pcrelLoI, .label 1, 0⟩, ⟨45, .pcrelLoI, .label 41, 0⟩, ⟨5, .abs32, .sym "f5", 0x4⟩]⟩],
   [(0, 0x0, [26, 15, 144, 0, 0, 0, 79, 44, 62, 135, 117, 0, 4, 128, 112, 243, 183, 29, 217, 75, 108, 254, 199, 120, 72, 9, 199, 31, 53, 39, 99, 99, 156, 69, 175, 73, 130, 135, 135, 8, 0, 0]),
    (1, 0x64, [57, 6, 0, 0, 7, 8, 0, 9, 245, 33, 143, 250, 48, 164, 219, 251, 57, 255, 130, 250, 123, 212, 65, 250, 7, 180, 186, 251, 124, 202, 128]),
    (2, 0x2c, [9, 27, 230, 125, 206, 103, 60, 3, 160, 5, 113, 15, 180, 124, 137, 218, 223, 142, 192, 253, 255, 254, 35, 22, 4, 0, 130, 183, 46, 199, 105, 146, 163, 128, 84, 116, 216, 108, 203, 119, 37, 37, 207, 9, 36, 0, 251, 127, 107, 62, 38, 167, 51, 75, 73, 234]),
    (3, 0x88, [40, 12, 64, 0, 171, 28, 168, 253, 180, 7, 0, 0, 5, 16, 236, 136, 89, 61, 75, 30, 100, 81, 139, 119, 196, 255, 255, 255, 20, 124, 159, 119, 189, 227, 40, 126, 115, 50, 174, 213, 54, 204, 179, 119, 206, 158, 156, 128, 215, 83, 152, 126, 81, 12, 0, 0, 77]),
    (4, 0x40000, [221, 35, 172, 115, 27, 234, 58, 31, 4, 0, 64, 0, 4, 0, 202, 100, 76, 89, 106, 75, 27, 128, 252, 255, 3, 0, 40, 10, 0, 0, 119, 0, 4, 0, 97, 221, 219, 148, 54, 0, 4, 0, 118, 214, 117, 190, 55, 0, 4, 0, 4, 0, 4, 0, 201, 27]),
    (5, 0x40038, [177, 251, 0, 252, 255, 4, 0, 4, 0, 40, 122, 249, 252, 45, 180, 224, 210, 159, 72, 239, 120, 253, 119, 21, 253, 205, 66, 251, 252, 149, 13, 252, 255, 58, 0, 4, 128, 68, 8, 4, 0, 219, 15, 0, 0, 184, 21, 185, 253, 151, 205, 101, 253, 24, 38, 182, 3, 36, 37])])

private def good7 : ObjectVector := (false, [⟨".init", 4, [154, 10, 225, 25, 68, 197, 28, 190, 129, 158, 117, 172, 235, 217, 108, 193, 37, 198, 232, 102], [("_start", 0), ("f0", 0)], [⟨0, .call, .sym "f3", 0⟩, ⟨12, .abs32, .sym "f7", 0x200000⟩, ⟨16, .branch, .sym "f3", 0⟩]⟩,
    ⟨".rodata", 8, [214, 98, 219, 141, 89, 88, 173, 66, 201, 28, 38, 44, 150, 112, 247, 16, 119, 207, 188, 20, 26, 151, 40, 194, 192, 207, 117, 48], [("f1", 0), ("f2", 0)], [⟨2, .abs32, .sym "f3", 0x800⟩, ⟨6, .abs32, .sym "_stack_start", 0x200000⟩, ⟨14, .pcrelHi, .sym "f0", 0x4⟩, ⟨18, .pcrelLoI, .label 14, 0⟩, ⟨22, .abs32, .sym "f2", 0x200000⟩]⟩,
    ⟨".text.a", 4, [192, 141, 81, 141, 68, 205, 44, 132, 130, 106, 97, 130, 234, 108, 47, 17, 218, 143, 70, 175, 165, 168, 99, 96, 113, 93, 28, 67, 163, 87, 211], [("f3", 4)], [⟨6, .abs32, .sym "_stack_start", 0x4⟩, ⟨14, .call, .sym "__global_pointer$", 0xfffff7ff⟩, ⟨10, .branch, .sym "f0", 0⟩, ⟨2, .loS, .sym "f1", 0x200000⟩, ⟨26, .loS, .label 14, 0x800⟩]⟩,
    ⟨".rodata", 4, [126, 243, 226, 215, 73, 34, 141, 136, 134, 4, 166, 172], [("f4", 4), ("f5", 7)], [⟨4, .pcrelLoS, .label 0, 0⟩, ⟨0, .pcrelHi, .sym "__global_pointer$", 0x80000001⟩]⟩,
    ⟨".sdata", 4, [81, 251, 60, 239, 226, 26, 9, 130, 214, 70, 234, 107], [("f6", 8), ("f7", 4)], [⟨0, .hi, .sym "f6", 0xfffff7ff⟩, ⟨4, .pcrelHi, .sym "f2", 0x4⟩, ⟨8, .abs32, .sym "_end", 0x4⟩]⟩],
   [(0, 0x0, [154, 10, 0, 0, 68, 197, 140, 1, 129, 158, 117, 172, 44, 0, 36, 0, 37, 196, 232, 0]),
    (1, 0x40000, [214, 98, 24, 8, 0, 0, 0, 16, 36, 0, 38, 44, 150, 112, 247, 0, 252, 255, 188, 20, 106, 255, 0, 0, 36, 0, 117, 48]),
    (2, 0x14, [192, 141, 81, 128, 68, 1, 4, 16, 4, 0, 225, 129, 234, 254, 47, 1, 4, 0, 70, 175, 85, 0, 99, 96, 113, 93, 28, 65, 163, 131, 211]),
    (3, 0x4001c, [126, 19, 0, 128, 201, 38, 141, 128, 134, 4, 166, 172]),
    (4, 0x40028, [81, 11, 4, 0, 226, 10, 0, 0, 56, 0, 4, 0])])

private def good8 : ObjectVector := (false, [⟨".init", 1, [126, 83, 186, 122, 22, 124, 244, 95, 242, 60, 227, 81], [("_start", 0), ("f0", 0)], [⟨0, .branch, .label 0, 0⟩, ⟨8, .jal, .sym "_end", 0⟩, ⟨4, .loI, .sym "f1", 0xfffffffc⟩]⟩,
    ⟨".sdata", 4, [184, 168, 123, 64, 234, 161, 21, 218, 202, 214, 104, 117, 238, 84, 149, 244, 9, 179, 46, 200, 166, 36, 77, 133, 205, 244, 184, 148, 240, 49, 6, 52, 73, 217, 28, 203, 191, 68, 78, 228, 39, 49, 14, 226, 124, 6, 84, 62, 91, 151, 50, 81, 40, 138, 140, 189], [("f1", 0)], [⟨0, .abs32, .sym "_stack_start", 0x8⟩, ⟨8, .abs32, .sym "f2", 0⟩, ⟨12, .abs32, .sym "_end", 0⟩, ⟨20, .abs32, .sym "__global_pointer$", 0xfffffffc⟩, ⟨24, .pcrelHi, .sym "f1", 0x800⟩, ⟨28, .pcrelLoS, .label 24, 0⟩, ⟨32, .pcrelLoI, .label 24, 0⟩, ⟨36, .pcrelLoI, .label 24, 0⟩, ⟨44, .hi, .sym "_stack_start", 0x7ff⟩, ⟨48, .pcrelLoI, .label 24, 0⟩, ⟨52, .pcrelLoI, .label 24, 0⟩]⟩,
    ⟨".bss.e", 8, [0, 0, 0, 0, 0, 0, 0, 0, 0, 0, 0, 0, 0, 0, 0, 0, 0, 0, 0, 0, 0, 0, 0, 0, 0, 0, 0, 0, 0, 0, 0, 0, 0, 0, 0, 0, 0, 0, 0, 0, 0, 0, 0, 0, 0, 0, 0, 0, 0, 0, 0, 0, 0, 0, 0, 0], [("f2", 4)], []⟩],
   [(0, 0x0, [126, 80, 186, 0, 22, 124, 196, 255, 242, 12, 132, 6]),
    (1, 0x40000, [8, 16, 4, 0, 234, 161, 21, 218, 60, 0, 4, 0, 112, 0, 4, 0, 9, 179, 46, 200, 252, 7, 4, 0, 205, 4, 0, 0, 112, 52, 6, 126, 73, 217, 140, 126, 191, 68, 142, 126, 39, 49, 14, 226, 124, 22, 4, 0, 91, 151, 130, 126, 40, 138, 140, 126]),
    (2, 0x40038, [0, 0, 0, 0, 0, 0, 0, 0, 0, 0, 0, 0, 0, 0, 0, 0, 0, 0, 0, 0, 0, 0, 0, 0, 0, 0, 0, 0, 0, 0, 0, 0, 0, 0, 0, 0, 0, 0, 0, 0, 0, 0, 0, 0, 0, 0, 0, 0, 0, 0, 0, 0, 0, 0, 0, 0])])

private def good9 : ObjectVector := (false, [⟨".init", 4, [221, 11, 251, 199, 170, 126, 63, 2, 14, 80, 181, 126, 214, 101], [("_start", 0), ("f0", 3), ("f1", 8)], [⟨4, .branch, .label 4, 0⟩]⟩,
    ⟨".outdata", 8, [4, 231, 1, 135, 154, 103, 207, 70, 98, 50, 167, 225, 38, 251, 30, 169, 250, 144, 197, 77, 173, 58, 36, 187, 174, 153, 238, 247, 140, 16, 70, 65, 181, 223, 101, 195, 215, 183, 40, 43], [("f2", 0), ("f3", 36)], [⟨26, .abs32, .sym "__global_pointer$", 0⟩]⟩,
    ⟨".text.b", 4, [27, 255, 40, 89, 97, 11, 150, 174], [("f4", 0)], []⟩,
    ⟨".rodata", 2, [198, 166, 172, 219, 130, 160, 97, 13, 192, 123, 20, 126, 214, 177, 44, 211, 121, 163, 77, 13, 189, 25, 97, 44, 108, 75, 10, 175, 55, 109, 63, 127, 2, 86, 70, 153, 21, 89, 237, 250, 117, 34, 42], [("f5", 4)], [⟨14, .hi, .sym "f0", 0x80000001⟩, ⟨18, .abs32, .label 1, 0x200000⟩, ⟨22, .hi, .sym "_end", 0⟩, ⟨26, .hi, .sym "f8", 0x8⟩, ⟨30, .hi, .label 40, 0⟩, ⟨34, .abs32, .sym "f8", 0x800⟩, ⟨38, .pcrelHi, .sym "_stack_start", 0x4⟩]⟩,
    ⟨".outdata", 1, [30, 27, 243, 243, 130, 59, 159, 255, 79, 171, 71, 15, 77, 2, 149, 59, 165, 201, 212, 60, 245, 184, 24, 231, 221, 54, 174, 64, 100, 53, 100, 158, 84, 105, 220, 26, 83, 163, 76, 118, 25, 54, 39, 203, 116, 166, 121, 167, 121, 121, 194, 152, 224, 149, 172, 198], [("f6", 8), ("f7", 29)], [⟨0, .pcrelHi, .sym "f0", 0x7ff⟩, ⟨4, .pcrelLoS, .label 0, 0⟩, ⟨8, .pcrelLoI, .label 0, 0⟩, ⟨12, .hi, .sym "f5", 0x800⟩, ⟨16, .pcrelLoS, .label 0, 0⟩, ⟨20, .pcrelLoS, .label 0, 0⟩, ⟨24, .pcrelHi, .sym "f8", 0⟩, ⟨28, .pcrelLoS, .label 0, 0⟩, ⟨36, .pcrelLoS, .label 24, 0⟩, ⟨40, .pcrelLoI, .label 24, 0⟩, ⟨44, .hi, .sym "f0", 0xfffffffc⟩, ⟨52, .abs32, .label 5, 0x4⟩]⟩,
    ⟨".data.d", 4, [204, 215, 101, 69, 155, 195, 19, 15, 132, 57, 126, 247, 70, 94, 169, 52, 100, 163, 70, 101, 2, 15, 61, 3, 19, 91, 238, 182, 105, 185], [("f8", 0)], [⟨0, .hi, .sym "f7", 0x4⟩, ⟨4, .abs32, .sym "f5", 0x200000⟩, ⟨24, .pcrelHi, .sym "f5", 0x12345678⟩]⟩],
   [(0, 0x0, [221, 11, 251, 199, 42, 112, 63, 0, 14, 80, 181, 126, 214, 101]),
    (1, 0x40000, [4, 231, 1, 135, 154, 103, 207, 70, 98, 50, 167, 225, 38, 251, 30, 169, 250, 144, 197, 77, 173, 58, 36, 187, 174, 153, 140, 8, 4, 0, 70, 65, 181, 223, 101, 195, 215, 183, 40, 43]),
    (2, 0x10, [27, 255, 40, 89, 97, 11, 150, 174]),
    (3, 0x40060, [198, 166, 172, 219, 130, 160, 97, 13, 192, 123, 20, 126, 214, 177, 44, 3, 0, 128, 97, 0, 36, 0, 97, 12, 4, 0, 10, 15, 4, 0, 63, 15, 4, 0, 140, 8, 4, 0, 237, 26, 0, 0, 42]),
    (4, 0x40028, [30, 11, 252, 255, 2, 61, 159, 125, 79, 171, 167, 125, 77, 18, 4, 0, 37, 205, 212, 124, 117, 189, 24, 125, 221, 6, 0, 0, 100, 61, 100, 124, 84, 105, 220, 26, 83, 166, 76, 4, 25, 54, 199, 4, 116, 6, 0, 0, 121, 121, 194, 152, 49, 0, 4, 0]),
    (5, 0x4008c, [204, 7, 4, 0, 100, 0, 36, 0, 132, 57, 126, 247, 70, 94, 169, 52, 100, 163, 70, 101, 2, 15, 61, 3, 19, 91, 52, 18, 105, 185])])

private def good10 : ObjectVector := (true, [⟨".init", 4, [96, 142, 232, 85, 183, 217, 129, 97, 80, 41, 202, 85, 245, 198, 79, 71, 197, 61, 5, 165, 54, 107, 184, 67, 17, 62, 18, 164, 171, 34], [("_start", 0), ("f0", 0), ("f1", 0)], [⟨13, .loS, .sym "__global_pointer$", 0x7ff⟩, ⟨17, .call, .sym "f5", 0x800⟩, ⟨25, .abs32, .sym "f2", 0x8⟩]⟩,
    ⟨".sdata", 4, [33, 60, 119, 30, 166, 66, 131, 247, 179, 202, 0, 232], [("f2", 8), ("f3", 1)], [⟨4, .abs32, .sym "f4", 0⟩, ⟨8, .pcrelHi, .label 7, 0⟩]⟩,
    ⟨".text", 4, [123, 253, 135, 170, 164, 194, 130, 169, 225], [("f4", 0)], [⟨0, .loI, .sym "f4", 0⟩]⟩,
    ⟨".data.d", 2, [40, 63, 99, 151, 238, 54, 50, 78, 101, 167, 165, 33, 61, 5, 108, 147, 251, 159, 109, 49, 11, 98, 182, 142, 92, 181, 232, 43, 228, 216, 20, 50, 179, 50, 235, 77, 151, 114, 145, 180], [("f5", 8)], [⟨0, .pcrelHi, .label 35, 0⟩, ⟨4, .pcrelLoI, .label 0, 0⟩, ⟨8, .pcrelLoI, .label 0, 0⟩, ⟨12, .abs32, .label 25, 0x7ff⟩, ⟨16, .pcrelHi, .sym "f3", 0xfffffffc⟩, ⟨20, .pcrelLoS, .label 0, 0⟩, ⟨28, .pcrelLoS, .label 16, 0⟩, ⟨32, .abs32, .sym "f4", 0x200000⟩, ⟨36, .pcrelHi, .sym "f1", 0⟩]⟩,
    ⟨".text.b", 4, [247, 136, 180, 180], [("f6", 8)], [⟨0, .abs32, .sym "f3", 0⟩]⟩],
   [(0, 0x0, [96, 142, 232, 85, 183, 217, 129, 97, 80, 41, 202, 85, 245, 198, 79, 71, 255, 61, 21, 4, 0, 107, 184, 51, 128, 16, 0, 4, 0, 34]),
    (1, 0x40000, [33, 60, 119, 30, 32, 0, 0, 0, 179, 10, 0, 0]),
    (2, 0x20, [123, 253, 7, 2, 164, 194, 130, 169, 225]),
    (3, 0x4000c, [40, 15, 0, 0, 238, 54, 50, 2, 101, 167, 53, 2, 36, 8, 4, 0, 251, 15, 0, 0, 139, 97, 182, 2, 92, 181, 232, 43, 228, 208, 20, 254, 32, 0, 32, 0, 151, 2, 252, 255])])

private def good11 : ObjectVector := (true, [⟨".init", 4, [87, 217, 84, 119, 144, 209, 82], [("_start", 0), ("f0", 2), ("f1", 0)], [⟨1, .pcrelHi, .sym "__global_pointer$", 0xfffff7ff⟩]⟩,
    ⟨".text", 8, [226, 67, 26, 172, 110, 155, 24, 128, 32, 221, 77, 91, 69, 227], [("f2", 4)], []⟩,
    ⟨".rodata.c", 8, [196, 143, 203, 249, 37, 19, 235, 133, 175, 30, 161, 245, 123, 172, 89, 29, 87, 250, 238, 81, 72], [("f3", 0)], [⟨0, .pcrelHi, .sym "f3", 0⟩, ⟨4, .pcrelLoI, .label 0, 0⟩, ⟨12, .pcrelLoS, .label 0, 0⟩, ⟨8, .pcrelLoS, .label 0, 0⟩, ⟨16, .hi, .sym "f7", 0x12345678⟩]⟩,
    ⟨".data.d", 1, [95, 22, 110, 132, 122, 54, 51, 224, 220, 16, 35, 221, 59, 16, 208, 192, 36, 91, 43, 73, 58, 73, 81, 129, 196, 177, 4, 38, 190, 115], [("f4", 1), ("f5", 8)], [⟨0, .abs32, .label 2, 0xfffffffc⟩, ⟨8, .hi, .sym "_stack_start", 0x800⟩, ⟨12, .abs32, .label 18, 0xfffff7ff⟩, ⟨16, .hi, .sym "_end", 0x4⟩, ⟨20, .abs32, .sym "f5", 0x12345678⟩]⟩,
    ⟨".rodata", 4, [118, 15, 216, 177, 142, 210, 14, 48, 166, 28, 40, 78, 183, 201, 135, 38, 128, 143, 48, 193, 151, 119, 68, 243, 202, 29, 59, 231, 66, 85, 146, 115, 41, 121, 81, 94, 113, 248, 232, 246], [("f6", 8)], [⟨26, .abs32, .sym "f3", 0x200000⟩, ⟨10, .abs32, .sym "f7", 0x800⟩, ⟨2, .hi, .sym "_stack_start", 0x8⟩, ⟨14, .hi, .sym "_end", 0xfffffffc⟩, ⟨34, .pcrelHi, .label 36, 0x80000001⟩, ⟨6, .abs32, .sym "f7", 0⟩, ⟨18, .abs32, .sym "f4", 0x80000001⟩, ⟨30, .hi, .sym "__global_pointer$", 0x8⟩]⟩,
    ⟨".bss.e", 2, [0, 0, 0, 0, 0, 0, 0, 0, 0, 0, 0, 0, 0, 0, 0, 0, 0, 0, 0, 0, 0, 0, 0, 0, 0, 0, 0, 0, 0, 0, 0, 0, 0, 0, 0, 0, 0, 0, 0, 0], [("f7", 28)], []⟩],
   [(0, 0x0, [87, 217, 4, 4, 0, 209, 82])])

/-- Programs as lld links them. -/
def objectVectors : List ObjectVector := [good0, good1, good2, good3, good4, good5, good6, good7, good8, good9, good10, good11]

private def bad0 : Bool × List ObjSec := (false, [⟨".init", 2, [208, 109, 171, 14, 253, 129], [("_start", 0), ("f0", 0)], [⟨0, .branch, .sym "f1", 0⟩]⟩,
    ⟨".init.rust", 8, [245, 239, 207, 209, 238, 184, 189, 85, 203, 206, 19, 213, 254, 229, 3, 9, 122, 249, 247, 227, 124, 166, 211, 168, 252, 255, 33, 85, 69, 245, 116, 134, 125, 124, 69, 156, 79, 84, 23, 220], [("f1", 16), ("f2", 16)], [⟨0, .branch, .sym "f2", 0⟩, ⟨8, .pcrelHi, .sym "_end", 0x12345678⟩, ⟨12, .branch, .sym "f5", 0⟩, ⟨20, .pcrelLoS, .label 8, 0⟩, ⟨24, .pcrelLoI, .label 8, 0⟩, ⟨28, .loS, .sym "f9", 0⟩, ⟨32, .call, .sym "f8", 0⟩]⟩,
    ⟨".inpdata", 4, [15, 87, 51, 32, 237, 53, 91, 52, 171, 235, 169, 172, 222, 209, 44, 193, 240, 155, 79, 168], [("f3", 3)], [⟨8, .hi, .sym "f8", 0xfffffffc⟩, ⟨16, .pcrelHi, .sym "f9", 0x800⟩]⟩,
    ⟨".outdata", 2, [144, 239, 58, 216, 207, 248, 94, 187, 75, 0, 211, 249, 77, 109, 107, 191, 126, 34, 180, 108, 152, 125, 42, 133, 216, 149, 59, 142, 118, 168, 20, 69, 249, 141, 34, 186, 195, 87, 114, 218, 229, 187, 188, 110, 223, 219, 101, 220, 46, 232, 3, 245, 241, 96, 181, 207, 236, 184, 213], [("f4", 0)], [⟨4, .hi, .sym "f2", 0⟩, ⟨8, .abs32, .sym "f5", 0xfffff7ff⟩, ⟨12, .pcrelHi, .sym "f4", 0⟩, ⟨16, .pcrelLoS, .label 12, 0⟩, ⟨20, .pcrelLoS, .label 12, 0⟩, ⟨32, .pcrelLoI, .label 12, 0⟩, ⟨36, .pcrelHi, .sym "f1", 0x4⟩, ⟨40, .pcrelLoI, .label 36, 0⟩, ⟨44, .pcrelLoI, .label 36, 0⟩, ⟨48, .pcrelLoI, .label 36, 0⟩, ⟨52, .hi, .sym "f5", 0⟩]⟩,
    ⟨".text.b", 4, [122, 228, 134, 25, 66, 213, 152, 240, 58, 59, 137, 230, 137, 231, 111, 49, 157, 39, 73, 253, 28, 144, 118], [("f5", 8), ("f6", 8)], [⟨1, .loI, .sym "f6", 0⟩, ⟨9, .abs32, .label 6, 0⟩, ⟨17, .branch, .sym "f2", 0⟩]⟩,
    ⟨".data.d", 4, [218, 171, 102, 239, 101, 23, 72, 231, 159, 146, 191, 155, 72, 137, 82, 85, 215, 122, 58, 87, 200, 123, 165, 146, 18, 148, 40, 189, 162, 225, 207, 166, 18, 37, 90, 204, 79, 41, 169, 189], [("f7", 0), ("f8", 0)], [⟨0, .abs32, .sym "f0", 0x200000⟩, ⟨4, .abs32, .sym "f8", 0x7ff⟩, ⟨20, .pcrelHi, .sym "f7", 0x7ff⟩, ⟨24, .pcrelHi, .label 35, 0xfffffffc⟩, ⟨28, .pcrelLoS, .label 24, 0⟩, ⟨32, .pcrelLoS, .label 20, 0⟩, ⟨36, .pcrelLoI, .label 20, 0⟩]⟩,
    ⟨".rodata.c", 2, [25, 57, 173, 30, 79, 177, 102, 224, 101, 180, 165, 43, 86, 155, 0, 206, 18, 22, 210, 140, 30, 154, 60, 168, 138, 178, 53, 197, 19, 12, 231, 26, 51, 194, 188, 202, 42, 99, 21, 207, 100, 23, 187], [("f9", 0)], [⟨0, .abs32, .sym "f3", 0x4⟩, ⟨8, .hi, .sym "f3", 0⟩, ⟨12, .hi, .label 28, 0x800⟩, ⟨16, .pcrelHi, .sym "f1", 0⟩, ⟨20, .abs32, .sym "_stack_start", 0⟩, ⟨24, .pcrelHi, .sym "_end", 0xfffffffc⟩, ⟨28, .pcrelHi, .sym "f2", 0x7ff⟩, ⟨36, .abs32, .sym "f3", 0⟩]⟩])

private def bad1 : Bool × List ObjSec := (true, [⟨".init", 8, [97, 80, 93, 22, 215, 175, 103, 145, 101, 253, 95, 135], [("_start", 0), ("f0", 4), ("f1", 0)], [⟨8, .pcrelLoI, .label 4, 0⟩]⟩,
    ⟨".inpdata", 4, [133, 190, 143, 89, 84, 149, 219, 165, 8, 204, 22, 4, 5, 89, 219, 186, 123, 153, 195, 106, 255, 74, 165, 231, 205, 23, 247, 77], [("f2", 20)], [⟨18, .abs32, .sym "f7", 0x200000⟩]⟩,
    ⟨".bss.e", 2, [0, 0, 0, 0, 0, 0, 0, 0, 0, 0, 0, 0, 0, 0, 0, 0, 0, 0, 0, 0, 0, 0, 0, 0, 0, 0, 0, 0, 0, 0, 0, 0, 0, 0, 0, 0, 0, 0, 0, 0], [("f3", 21)], []⟩,
    ⟨".rodata.c", 4, [145, 111, 229, 94, 158, 182, 227, 60, 134, 143, 242, 169, 88, 189, 252, 159, 104, 248, 200, 254], [("f4", 0), ("f5", 0)], [⟨14, .pcrelHi, .sym "f7", 0⟩, ⟨2, .abs32, .sym "_end", 0x800⟩]⟩,
    ⟨".text.b", 1, [11, 83, 148, 211, 31, 137, 46, 172, 94, 54, 166, 171, 194, 130, 125, 114, 67, 122, 191, 123, 92, 126, 208, 228, 244, 28, 122, 5], [("f6", 0)], [⟨2, .jal, .sym "f5", 0x100000⟩, ⟨10, .loS, .sym "f7", 0x12345678⟩, ⟨18, .branch, .sym "f1", 0xfffff000⟩, ⟨22, .pcrelHi, .sym "__global_pointer$", 0x12345678⟩]⟩,
    ⟨".outdata", 4, [4, 52, 206, 39, 120, 12, 12, 11, 136, 170, 72, 142, 210, 162, 237, 10, 123, 146, 227, 211, 136, 5, 240, 114, 10, 161, 37, 111, 19, 7, 5, 240, 255, 98, 230, 11, 27, 19, 34, 130], [("f7", 0), ("f8", 4)], [⟨2, .pcrelHi, .sym "f0", 0x200000⟩, ⟨6, .pcrelLoS, .label 2, 0⟩, ⟨10, .pcrelLoI, .label 0, 0⟩, ⟨14, .hi, .label 27, 0x800⟩, ⟨18, .abs32, .sym "nowhere", 0x200000⟩, ⟨22, .pcrelHi, .sym "f9", 0x80000001⟩, ⟨26, .pcrelLoS, .label 2, 0⟩, ⟨30, .pcrelHi, .sym "f7", 0x7ff⟩, ⟨34, .abs32, .sym "f4", 0x80000001⟩]⟩,
    ⟨".outdata", 8, [111, 92, 5, 224, 190, 87], [("f9", 8)], [⟨1, .abs32, .sym "f3", 0x800⟩]⟩])

private def bad2 : Bool × List ObjSec := (true, [⟨".init", 8, [60, 104, 244, 43, 230, 197, 248, 170, 16, 5, 39, 173, 206, 213, 213, 163, 20, 123, 105, 192, 16, 240, 180, 189, 169, 228, 167, 209, 82, 155, 172, 251, 27, 22, 73, 42, 108, 70, 240, 139], [("_start", 0), ("f0", 8), ("f1", 4)], [⟨8, .branch, .label 8, 0⟩, ⟨12, .call, .sym "__global_pointer$", 0xfffff7ff⟩, ⟨28, .jal, .label 28, 0⟩, ⟨36, .loI, .label 9, 0x80000001⟩]⟩,
    ⟨".inpdata", 1, [42, 79, 63, 55, 8, 98, 178, 151, 198, 90, 110, 254, 39, 23, 91, 232, 61, 44, 123, 131, 66, 31, 140, 59, 79, 234, 17, 24, 249, 133, 57, 228, 1, 180, 232, 36, 9, 79, 155, 144, 79, 158, 13, 161, 65, 3, 230, 204, 198, 160, 122, 187, 60, 106, 128, 51], [("f2", 8), ("f3", 8)], [⟨4, .pcrelHi, .sym "f5", 0x800⟩, ⟨8, .pcrelLoS, .label 4, 0⟩, ⟨16, .pcrelLoI, .label 4, 0⟩, ⟨20, .pcrelLoS, .label 4, 0⟩, ⟨24, .pcrelHi, .label 25, 0⟩, ⟨28, .pcrelLoI, .label 4, 0⟩, ⟨32, .pcrelLoI, .label 4, 0⟩, ⟨36, .abs32, .sym "_stack_start", 0x200000⟩, ⟨40, .pcrelLoI, .label 4, 0⟩, ⟨44, .abs32, .sym "f5", 0⟩, ⟨48, .abs32, .sym "f0", 0x4⟩, ⟨52, .abs32, .sym "f9", 0x7ff⟩]⟩,
    ⟨".text.a", 4, [126, 35, 112, 244, 178, 238, 209, 21, 28, 109, 194, 113, 160, 190, 244, 119, 158, 130, 67, 75, 62, 168, 253, 43, 196, 239, 160, 222, 182, 102, 54, 59, 20, 179, 0, 235, 3, 100, 153, 81, 164, 221], [("f4", 19), ("f5", 0)], [⟨1, .pcrelHi, .sym "f6", 0x80000001⟩, ⟨5, .pcrelLoI, .label 1, 0⟩, ⟨9, .pcrelLoI, .label 1, 0⟩, ⟨21, .call, .label 17, 0x12345678⟩, ⟨29, .loS, .sym "f6", 0x8⟩, ⟨37, .jal, .sym "_stack_start", 0⟩]⟩,
    ⟨".bss.e", 4, [0, 0, 0, 0, 0, 0, 0, 0, 0, 0, 0, 0, 0, 0, 0, 0, 0, 0, 0, 0, 0, 0, 0, 0, 0, 0, 0, 0, 0], [("f6", 17), ("f7", 0)], []⟩,
    ⟨".init.rust", 4, [152, 218, 249, 136, 53, 131, 2, 144, 253, 159, 72, 224, 135, 133, 4, 221, 13, 52, 44, 63, 78, 64, 67, 201, 181, 115, 143, 203, 196, 25, 248, 79, 152, 227, 221, 92, 145, 245, 25, 30, 138, 251], [("f8", 8), ("f9", 4)], [⟨4, .hi, .sym "f3", 0⟩, ⟨8, .hi, .sym "_end", 0xfffffffc⟩, ⟨12, .jal, .sym "f5", 0⟩, ⟨16, .abs32, .sym "f9", 0x4⟩, ⟨20, .abs32, .sym "_stack_start", 0⟩, ⟨24, .loI, .sym "__global_pointer$", 0xfffff7ff⟩, ⟨28, .jal, .sym "f2", 0⟩, ⟨32, .loS, .sym "f0", 0x4⟩, ⟨36, .jal, .sym "f3", 0⟩]⟩])

private def bad3 : Bool × List ObjSec := (true, [⟨".init", 4, [12, 165, 207, 232, 221, 145, 161, 36, 246, 190, 112, 59, 248, 58, 222, 237, 223, 245, 177, 42, 89, 36], [("_start", 0), ("f0", 0), ("f1", 0)], [⟨0, .pcrelHi, .label 5, 0x800⟩, ⟨4, .pcrelLoI, .label 0, 0⟩, ⟨8, .pcrelLoS, .label 0, 0⟩, ⟨12, .pcrelLoI, .label 0, 0⟩, ⟨16, .abs32, .label 2, 0x8⟩]⟩,
    ⟨".comment.f", 1, [117, 236, 138, 75, 176, 17, 221, 25, 89, 165, 220, 95], [("f2", 9)], [⟨2, .pcrelHi, .sym "_stack_start", 0⟩, ⟨6, .pcrelLoS, .label 2, 0⟩]⟩,
    ⟨".rodata.c", 4, [168, 72, 106, 78, 148, 147, 111, 89, 173, 142, 52, 122, 89, 55, 165, 92, 241, 123, 205, 242, 197, 23, 98, 56, 119, 100, 24, 243, 46, 0, 156, 203, 22, 189, 18, 189, 62, 230, 177, 94, 21, 183, 119, 31, 242, 72, 175, 29, 218, 166, 0, 229, 58, 80, 204, 2, 152, 36], [("f3", 0), ("f4", 4)], [⟨0, .abs32, .sym "f6", 0x4⟩, ⟨4, .abs32, .sym "f0", 0x12345678⟩, ⟨8, .abs32, .sym "__global_pointer$", 0x80000001⟩, ⟨12, .abs32, .sym "f7", 0⟩, ⟨20, .abs32, .label 19, 0x7ff⟩, ⟨24, .hi, .sym "f0", 0x800⟩, ⟨28, .abs32, .sym "_end", 0x12345678⟩, ⟨32, .pcrelHi, .sym "f0", 0xfffffffc⟩, ⟨36, .pcrelLoI, .label 32, 0⟩, ⟨40, .pcrelLoI, .label 32, 0⟩, ⟨44, .abs32, .sym "__global_pointer$", 0x4⟩, ⟨48, .pcrelLoS, .label 32, 0⟩]⟩,
    ⟨".init.rust", 8, [159, 182, 57, 50], [("f5", 8)], []⟩,
    ⟨".rodata.c", 4, [231, 10, 229, 33, 41, 11, 125, 246], [("f6", 0)], []⟩,
    ⟨".inpdata", 4, [242, 146, 11, 98, 133, 231], [("f7", 0)], [⟨2, .abs32, .sym "f6", 0xfffff7ff⟩]⟩,
    ⟨".inpdata", 4, [2, 239, 170, 161, 9, 237, 83, 213, 77, 158, 195, 95, 182, 7, 17, 198, 11, 154, 83, 68, 7, 210, 95, 201, 212, 72, 4, 133, 122, 80], [("f8", 24)], [⟨1, .pcrelHi, .sym "f2", 0x7ff⟩, ⟨25, .hi, .sym "f5", 0⟩, ⟨17, .pcrelLoS, .label 1, 0⟩, ⟨5, .pcrelHi, .sym "f5", 0⟩, ⟨13, .pcrelLoI, .label 1, 0⟩, ⟨21, .pcrelLoS, .label 1, 0⟩, ⟨9, .pcrelLoI, .label 5, 0⟩]⟩])

private def bad4 : Bool × List ObjSec := (true, [⟨".init", 4, [17, 38, 50, 230, 151, 25, 91, 161, 217, 153, 133, 68, 23, 111, 7, 250, 48, 54, 169, 74, 128, 116, 213, 130, 203, 119, 5, 54, 188, 123, 227, 101, 179, 40, 223, 252, 164, 93, 83, 194, 118, 18, 101, 36, 12, 245, 121, 31, 20, 87, 172, 181, 172, 220, 125, 241, 134, 167], [("_start", 0), ("f0", 4), ("f1", 0)], [⟨0, .branch, .sym "f0", 0x1⟩, ⟨4, .hi, .sym "f5", 0⟩, ⟨12, .hi, .sym "f4", 0x7ff⟩, ⟨16, .jal, .sym "__global_pointer$", 0x2⟩, ⟨20, .loI, .sym "_stack_start", 0x200000⟩, ⟨24, .hi, .sym "f1", 0xfffff7ff⟩, ⟨28, .call, .sym "f0", 0x800⟩, ⟨36, .loI, .sym "f5", 0⟩, ⟨40, .pcrelHi, .sym "f1", 0x800⟩, ⟨44, .call, .label 35, 0x7ff⟩, ⟨52, .pcrelLoI, .label 40, 0⟩]⟩,
    ⟨".data.d", 8, [120, 24, 130, 75, 162, 216, 191, 196, 215, 43, 6, 223, 247, 84, 171, 224, 102, 161, 68, 23], [("f2", 0)], [⟨4, .abs32, .sym "f3", 0x4⟩, ⟨8, .abs32, .label 3, 0x8⟩, ⟨16, .abs32, .label 6, 0x800⟩]⟩,
    ⟨".text.a", 8, [58, 96, 59, 43, 212, 235, 13, 159, 2, 237, 21, 174, 12, 192], [("f3", 0), ("f4", 8)], [⟨0, .hi, .sym "f1", 0x4⟩]⟩,
    ⟨".text", 8, [203, 221, 38, 142, 10, 115, 20, 51, 11, 153, 122, 158, 217, 74, 83, 218, 21, 96, 91, 53], [("f5", 0)], [⟨0, .hi, .label 7, 0⟩, ⟨4, .loI, .sym "f3", 0x800⟩, ⟨8, .loS, .sym "f1", 0x12345678⟩, ⟨12, .branch, .sym "f5", 0x1⟩, ⟨16, .abs32, .sym "f0", 0x7ff⟩]⟩])

private def bad5 : Bool × List ObjSec := (false, [⟨".init", 4, [62, 112, 17, 147, 149, 173, 204, 181, 32, 160, 16, 11, 169, 108, 116, 208, 216, 155, 126, 6, 51, 195, 229, 68, 228, 179, 216, 6, 207, 184, 50, 247, 226, 109, 232, 29, 237, 226, 108, 204, 51, 55, 83, 239, 177, 87, 166, 207, 228, 155, 83, 63, 187, 29, 50, 165, 6], [("_start", 0), ("f0", 0), ("f1", 24)], [⟨0, .loS, .sym "f4", 0x12345678⟩, ⟨8, .branch, .sym "nowhere", 0xfffff000⟩, ⟨12, .branch, .sym "f0", 0xfff00000⟩, ⟨16, .abs32, .sym "f0", 0⟩, ⟨20, .pcrelHi, .sym "f1", 0x4⟩, ⟨24, .pcrelLoI, .label 20, 0⟩, ⟨28, .pcrelLoS, .label 20, 0⟩, ⟨32, .pcrelLoI, .label 20, 0⟩, ⟨36, .pcrelLoI, .label 20, 0⟩, ⟨40, .pcrelLoI, .label 20, 0⟩, ⟨44, .jal, .sym "f3", 0x2⟩, ⟨48, .pcrelLoI, .label 20, 0⟩, ⟨52, .pcrelLoS, .label 20, 0⟩]⟩,
    ⟨".sdata", 4, [31, 72, 168, 88, 17, 212, 185, 231], [("f2", 4), ("f3", 8)], [⟨1, .abs32, .sym "f3", 0xfffffffc⟩]⟩,
    ⟨".text.a", 1, [102, 155, 189, 155, 82, 163, 140, 23, 102, 59, 82, 222], [("f4", 0)], [⟨0, .call, .sym "_stack_start", 0x80000001⟩, ⟨8, .jal, .label 2, 0x1⟩]⟩,
    ⟨".text.a", 8, [213, 65, 140, 16, 128, 200, 239, 185, 48, 231, 226, 14, 3, 217, 119], [("f5", 8)], [⟨0, .loS, .sym "f3", 0x80000001⟩, ⟨4, .jal, .sym "f4", 0xfffff000⟩, ⟨8, .branch, .label 8, 0⟩]⟩,
    ⟨".text", 4, [129, 224, 141, 0, 128, 180, 131, 228, 117, 208], [("f6", 8)], []⟩])

private def bad6 : Bool × List ObjSec := (false, [⟨".init", 1, [173, 193, 178, 247, 221, 18, 141, 40, 133, 187, 2, 103, 30, 126, 92, 101, 214, 217, 133, 205, 96, 173, 42, 244, 3, 139, 31, 171, 152, 238, 42, 66, 222, 210, 8, 203, 158, 217, 196, 222], [("_start", 0), ("f0", 0)], [⟨4, .hi, .sym "f1", 0x200000⟩, ⟨8, .jal, .label 29, 0x2⟩, ⟨12, .branch, .sym "_end", 0x1000⟩, ⟨16, .hi, .sym "f1", 0xfffffffc⟩, ⟨20, .jal, .sym "f1", 0x1⟩, ⟨24, .abs32, .sym "f0", 0xfffffffc⟩, ⟨32, .loS, .sym "f0", 0x200000⟩]⟩,
    ⟨".rodata.c", 4, [7, 235, 170, 175, 183, 142, 147, 9, 144, 50, 226, 83, 194, 0, 70, 21, 193, 119, 29, 249, 107, 224, 76, 28, 18, 101, 61, 49, 232, 111, 157, 152, 24, 174, 99, 55, 123, 254, 88, 199, 210, 248, 146], [("f1", 0)], [⟨4, .hi, .sym "f3", 0x200000⟩, ⟨24, .abs32, .label 40, 0⟩, ⟨12, .pcrelHi, .sym "f0", 0⟩, ⟨36, .pcrelLoI, .label 12, 0⟩, ⟨16, .pcrelLoI, .label 4, 0⟩, ⟨20, .pcrelLoI, .label 12, 0⟩]⟩,
    ⟨".rodata.c", 4, [113, 32, 200, 37, 78, 121, 191, 23, 8, 234, 106, 115, 180], [("f2", 4), ("f3", 10)], [⟨0, .pcrelHi, .label 9, 0x80000001⟩, ⟨4, .pcrelLoS, .label 0, 0⟩, ⟨8, .abs32, .sym "_end", 0x80000001⟩]⟩,
    ⟨".outdata", 1, [138, 154, 19, 121, 47, 94, 224, 35, 20, 204, 65, 144, 93, 87, 251, 12, 73, 221, 224, 249, 203, 3, 198, 24, 83, 55, 230, 34], [("f4", 4)], [⟨4, .abs32, .sym "_end", 0x8⟩, ⟨8, .pcrelLoI, .label 4, 0⟩, ⟨16, .hi, .sym "f3", 0x4⟩]⟩])

private def bad7 : Bool × List ObjSec := (false, [⟨".init", 4, [40, 12, 54, 173, 98, 184, 190, 182], [("_start", 0), ("f0", 8), ("f1", 0)], [⟨4, .loI, .sym "f0", 0x8⟩]⟩,
    ⟨".init.rust", 4, [206, 118, 109, 72, 191, 159, 62, 246, 109, 207, 243, 221, 99, 61, 52, 205, 1, 65, 208, 185, 239, 117, 81, 41, 226, 179, 151, 130, 120], [("f2", 4), ("f3", 4)], [⟨18, .jal, .sym "f6", 0x1⟩, ⟨10, .pcrelLoI, .label 0, 0⟩, ⟨6, .branch, .sym "nowhere", 0xfffff000⟩, ⟨22, .pcrelLoS, .label 14, 0⟩, ⟨14, .pcrelHi, .sym "f2", 0⟩]⟩,
    ⟨".init.rust", 4, [49, 169, 107, 206, 13, 35, 13, 121, 234, 240, 151, 96, 58, 249, 98, 193, 97, 1, 77, 23, 73, 74, 68, 87, 106, 43, 211, 133, 74, 4, 176, 141, 177, 240, 136, 124, 95, 17, 154, 30], [("f4", 15)], [⟨4, .hi, .sym "nowhere", 0x8⟩, ⟨8, .call, .sym "_end", 0⟩, ⟨16, .pcrelHi, .sym "_end", 0⟩, ⟨20, .pcrelLoS, .label 16, 0⟩, ⟨24, .pcrelLoS, .label 16, 0⟩, ⟨28, .pcrelLoS, .label 16, 0⟩, ⟨32, .pcrelLoS, .label 16, 0⟩, ⟨36, .abs32, .sym "_stack_start", 0⟩]⟩,
    ⟨".inpdata", 4, [145, 93, 150, 177, 254, 72, 91, 181, 153, 249, 90, 186, 117, 79, 163, 203, 82, 157, 181, 80], [("f5", 0), ("f6", 0)], [⟨0, .abs32, .label 1, 0x800⟩]⟩])

private def bad8 : Bool × List ObjSec := (false, [⟨".init", 4, [111, 114, 41, 100], [("_start", 0), ("f0", 0)], [⟨0, .jal, .sym "f6", 0xfff00000⟩]⟩,
    ⟨".text.b", 4, [197, 161, 57, 217, 133, 35, 131, 170, 168, 154, 217, 251, 91, 98, 253, 117, 48, 25, 204, 245, 204, 214, 59, 173, 99, 11, 103, 109, 37, 199, 1, 82, 26, 57, 213, 219, 177, 8, 40, 78], [("f1", 10), ("f2", 0)], [⟨4, .pcrelHi, .sym "f0", 0xfffff7ff⟩, ⟨8, .pcrelLoS, .label 4, 0⟩, ⟨12, .pcrelLoI, .label 4, 0⟩, ⟨16, .pcrelLoI, .label 4, 0⟩, ⟨20, .pcrelLoI, .label 4, 0⟩, ⟨24, .pcrelLoI, .label 4, 0⟩, ⟨28, .pcrelLoS, .label 4, 0⟩, ⟨32, .branch, .sym "f3", 0⟩]⟩,
    ⟨".text.b", 4, [215, 209, 26, 105, 117, 50, 119, 57, 39, 161, 0, 106, 85, 146], [("f3", 4)], [⟨8, .pcrelHi, .sym "f2", 0x12345678⟩]⟩,
    ⟨".rodata.c", 1, [2, 222, 153, 4, 159, 19, 57, 229, 211, 182, 176, 221, 249, 215, 227, 59, 200, 118, 151, 32, 252, 81, 238, 99, 200, 77, 3, 142], [("f4", 8), ("f5", 4)], [⟨16, .abs32, .sym "f1", 0⟩, ⟨20, .hi, .sym "f3", 0⟩, ⟨24, .abs32, .sym "f4", 0x200000⟩]⟩,
    ⟨".text", 1, [78, 36, 141, 149, 154, 165, 46, 154, 183, 1, 227, 180, 123, 165, 157, 33, 206, 73, 200, 103, 138, 228, 6, 157, 166, 242, 193, 194], [("f6", 4)], [⟨8, .hi, .sym "f1", 0⟩, ⟨16, .branch, .sym "f1", 0xfff00000⟩, ⟨20, .abs32, .sym "_end", 0x4⟩]⟩])

private def bad9 : Bool × List ObjSec := (false, [⟨".init", 2, [97, 21, 98, 113, 204, 126, 136, 22, 183, 196, 57, 234, 209, 157, 17, 205, 241, 192, 251, 143, 212, 177, 175, 209, 219, 0, 106, 177, 187, 22, 172, 155, 61, 158, 195, 3, 200, 142, 222, 29, 146, 39, 85, 248, 132, 238, 184, 166, 220, 200, 47, 140, 118, 223, 149, 30], [("_start", 0), ("f0", 4)], [⟨0, .loI, .sym "_stack_start", 0x200000⟩, ⟨4, .loS, .sym "_stack_start", 0xfffffffc⟩, ⟨8, .hi, .sym "f0", 0x4⟩, ⟨12, .pcrelHi, .sym "_stack_start", 0x200000⟩, ⟨16, .pcrelHi, .sym "_stack_start", 0x12345678⟩, ⟨20, .loI, .sym "__global_pointer$", 0x7ff⟩, ⟨24, .pcrelLoS, .label 12, 0⟩, ⟨28, .pcrelLoI, .label 16, 0⟩, ⟨32, .jal, .label 37, 0x1000⟩, ⟨36, .pcrelLoI, .label 12, 0⟩, ⟨40, .pcrelLoI, .label 12, 0⟩, ⟨44, .pcrelHi, .sym "f3", 0⟩, ⟨48, .hi, .sym "f4", 0x200000⟩, ⟨52, .pcrelLoS, .label 44, 0⟩]⟩,
    ⟨".inpdata", 8, [172, 238, 181, 4, 155, 20, 249, 78, 101, 56, 114, 13, 32], [("f1", 0)], [⟨0, .hi, .sym "f3", 0x12345678⟩, ⟨8, .hi, .sym "f0", 0x200000⟩]⟩,
    ⟨".rodata", 4, [77, 95, 24, 139, 234, 84, 202, 107, 127, 223, 3, 40, 146, 144, 142, 156, 204, 55, 218, 140, 251, 164], [("f2", 4)], [⟨4, .abs32, .label 6, 0x800⟩, ⟨8, .abs32, .sym "__global_pointer$", 0x200000⟩, ⟨12, .pcrelHi, .sym "_stack_start", 0x4⟩, ⟨16, .hi, .sym "f4", 0xfffff7ff⟩]⟩,
    ⟨".bss.e", 4, [0, 0, 0, 0, 0, 0, 0, 0, 0, 0, 0, 0, 0, 0, 0, 0, 0, 0, 0, 0, 0, 0, 0, 0, 0, 0, 0, 0, 0, 0, 0, 0, 0, 0, 0, 0, 0, 0, 0, 0, 0], [("f3", 4)], []⟩,
    ⟨".comment.f", 2, [158, 207, 150, 50, 69, 5, 244, 134, 216, 19, 206, 106, 241, 0, 9, 28, 169, 181, 158, 192, 200, 174, 227, 48, 34, 201, 150, 15, 119, 134, 9, 147, 22, 214, 208, 12, 193, 26, 204, 40], [("f4", 8), ("f5", 14)], [⟨0, .abs32, .sym "f1", 0⟩, ⟨8, .pcrelLoI, .label 4, 0⟩, ⟨16, .pcrelHi, .label 35, 0x8⟩, ⟨20, .hi, .sym "__global_pointer$", 0x800⟩, ⟨24, .pcrelLoS, .label 16, 0⟩, ⟨28, .hi, .sym "f2", 0⟩, ⟨32, .pcrelLoS, .label 16, 0⟩, ⟨36, .abs32, .label 33, 0xfffff7ff⟩]⟩])

private def bad10 : Bool × List ObjSec := (true, [⟨".init", 4, [16, 38, 55, 132, 212, 44, 33, 104, 140, 136, 21, 37, 159, 179, 74, 103, 19, 166, 101, 233, 190, 82, 66, 112, 104, 24, 114, 224, 147, 171, 228, 122, 101, 188, 112, 218, 31, 73, 216, 26, 214, 33, 35, 222, 5, 23, 16, 185, 28, 32, 17, 171, 147, 203, 209, 65, 235, 6, 157], [("_start", 0), ("f0", 8), ("f1", 21)], [⟨2, .call, .sym "f2", 0x12345678⟩, ⟨10, .call, .sym "f0", 0x4⟩, ⟨22, .jal, .sym "f1", 0⟩, ⟨26, .loI, .sym "f8", 0x7ff⟩, ⟨30, .loS, .sym "_stack_start", 0x4⟩, ⟨34, .abs32, .sym "__global_pointer$", 0⟩, ⟨38, .loS, .sym "f3", 0x12345678⟩, ⟨42, .call, .sym "f9", 0xfffffffc⟩, ⟨50, .loS, .sym "f6", 0x800⟩]⟩,
    ⟨".text", 4, [124, 227, 40, 10, 31, 154, 120, 106, 146, 122, 85, 124, 112, 139, 189, 199, 121, 175, 213, 143, 11, 102, 122, 248, 140, 107, 70, 158, 191, 70, 190, 24, 68, 2, 141, 38, 132, 167, 179, 79], [("f2", 4), ("f3", 0)], [⟨0, .pcrelHi, .sym "f5", 0x4⟩, ⟨4, .pcrelLoI, .label 0, 0⟩, ⟨8, .loS, .sym "f4", 0xfffff7ff⟩, ⟨12, .pcrelLoI, .label 0, 0⟩, ⟨20, .pcrelLoS, .label 0, 0⟩, ⟨24, .pcrelLoI, .label 0, 0⟩, ⟨32, .pcrelLoI, .label 0, 0⟩, ⟨36, .pcrelLoS, .label 0, 0⟩]⟩,
    ⟨".inpdata", 4, [249, 68, 240, 170, 14, 191, 83, 250, 90, 103, 32, 36, 5, 137, 178, 114, 102, 180, 152, 42, 66], [("f4", 1)], [⟨1, .hi, .sym "f6", 0⟩, ⟨13, .abs32, .label 3, 0x200000⟩, ⟨17, .abs32, .sym "f1", 0xfffffffc⟩]⟩,
    ⟨".text", 8, [75, 56, 116, 240, 188, 39, 108, 104, 184, 245, 190, 212, 241, 169, 89, 97, 70, 205, 162, 75, 17, 180, 253, 216, 7, 143, 184, 208, 64, 200, 84, 38, 73, 99, 134, 58, 65, 200, 108, 212], [("f5", 8), ("f6", 0)], [⟨2, .hi, .sym "f3", 0x8⟩, ⟨30, .branch, .sym "f2", 0xfffff000⟩, ⟨14, .call, .sym "f7", 0⟩, ⟨10, .loS, .sym "f5", 0x4⟩]⟩,
    ⟨".inpdata", 2, [159, 56, 56, 30, 211, 58, 93, 39, 182, 45, 2, 39, 194, 205, 139, 159, 178, 228, 181, 164, 230, 80, 169, 63, 45, 90, 206, 202, 104, 210, 188, 136, 81, 211, 50, 74, 31, 192, 225, 232], [("f7", 0)], [⟨0, .abs32, .sym "f7", 0x7ff⟩, ⟨4, .pcrelHi, .sym "_stack_start", 0⟩, ⟨16, .pcrelLoI, .label 4, 0⟩, ⟨20, .pcrelLoS, .label 4, 0⟩, ⟨24, .pcrelLoI, .label 4, 0⟩, ⟨28, .pcrelLoI, .label 4, 0⟩, ⟨36, .pcrelLoI, .label 4, 0⟩]⟩,
    ⟨".text.a", 4, [63, 218, 119, 217, 167, 152, 4, 8, 154, 67, 145, 21, 160, 169], [("f8", 0), ("f9", 0)], [⟨2, .branch, .sym "f1", 0⟩, ⟨6, .loS, .sym "f0", 0⟩]⟩])

private def bad11 : Bool × List ObjSec := (true, [⟨".init", 1, [167, 79, 141, 69], [("_start", 0), ("f0", 4)], [⟨0, .pcrelLoI, .label 0, 0⟩]⟩,
    ⟨".bss.e", 1, [0, 0, 0, 0], [("f1", 8)], []⟩,
    ⟨".text.a", 8, [252, 242, 165, 218, 68, 4, 190, 192, 39, 226, 41, 131, 121, 181, 154, 62, 243, 221, 155, 129, 167, 60, 124, 239, 77, 232, 119, 154, 216, 253, 134, 30, 197, 169, 243, 35, 248, 63, 65, 135], [("f2", 0)], [⟨2, .pcrelHi, .sym "_end", 0x200000⟩, ⟨6, .pcrelLoS, .label 2, 0⟩, ⟨14, .pcrelLoI, .label 2, 0⟩, ⟨18, .pcrelLoS, .label 2, 0⟩, ⟨22, .pcrelLoI, .label 2, 0⟩, ⟨26, .pcrelLoI, .label 2, 0⟩, ⟨30, .pcrelLoI, .label 2, 0⟩, ⟨34, .pcrelLoI, .label 2, 0⟩]⟩])

/-- Inputs lld refuses: jumps too far or to odd addresses, second halves without a first, symbols missing or discarded. -/
def objectErrors : List (Bool × List ObjSec) := [bad0, bad1, bad2, bad3, bad4, bad5, bad6, bad7, bad8, bad9, bad10, bad11]

/-- The model gives these addresses and bytes, and no others. -/
def yields (gc : Bool) (objs : List ObjSec) (xs : List (Nat × Nat × List (BitVec 8))) : Bool :=
  (linkObjs gc objs).any fun r => decide (r.places.length = xs.length) &&
    xs.all fun x => decide ((x.1, x.2.1) ∈ r.places) && decide (r.bytes x.1 = x.2.2)

theorem objectVectors_ok : objectVectors.all (fun v => yields v.1 v.2.1 v.2.2) = true := by decide +kernel

theorem objectErrors_ok : objectErrors.all (fun v => (linkObjs v.1 v.2).isNone) = true := by decide +kernel

end Verif
