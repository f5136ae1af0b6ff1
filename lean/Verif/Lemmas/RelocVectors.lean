import Verif.Spec.Isa
/-
  Written by tools/gen_reloc_vectors.py: instructions whose immediates lld 22.1.4 has filled in.
-/
namespace Verif
open Spec

def relocVectors : List (Instr × Word) := [
  (.branch .beq 13 9 (BitVec.ofInt 12 (-100)), 0xf2968ce3#32),
  (.branch .beq 2 6 (BitVec.ofInt 12 (-2048)), 0x80610063#32),
  (.branch .bltu 30 23 (BitVec.ofInt 12 (1)), 0x017f6163#32),
  (.branch .bltu 0 31 (BitVec.ofInt 12 (-1)), 0xfff06fe3#32),
  (.branch .bge 5 21 (BitVec.ofInt 12 (2047)), 0x7f52dfe3#32),
  (.branch .bgeu 10 28 (BitVec.ofInt 12 (-2048)), 0x81c57063#32),
  (.branch .beq 22 14 (BitVec.ofInt 12 (1024)), 0x00eb00e3#32),
  (.branch .bgeu 31 10 (BitVec.ofInt 12 (2047)), 0x7eafffe3#32),
  (.branch .beq 18 14 (BitVec.ofInt 12 (2047)), 0x7ee90fe3#32),
  (.branch .bne 25 18 (BitVec.ofInt 12 (-1478)), 0xc72c9a63#32),
  (.branch .beq 11 28 (BitVec.ofInt 12 (-2048)), 0x81c58063#32),
  (.branch .bne 16 3 (BitVec.ofInt 12 (1)), 0x00381163#32),
  (.branch .bge 3 12 (BitVec.ofInt 12 (-1751)), 0xa4c1d963#32),
  (.branch .beq 20 23 (BitVec.ofInt 12 (-1)), 0xff7a0fe3#32),
  (.branch .bltu 20 14 (BitVec.ofInt 12 (8)), 0x00ea6863#32),
  (.branch .bltu 23 12 (BitVec.ofInt 12 (-1024)), 0x80cbe0e3#32),
  (.branch .bgeu 23 8 (BitVec.ofInt 12 (-2048)), 0x808bf063#32),
  (.branch .bge 1 6 (BitVec.ofInt 12 (-1024)), 0x8060d0e3#32),
  (.branch .bge 14 29 (BitVec.ofInt 12 (-1024)), 0x81d750e3#32),
  (.branch .bge 10 23 (BitVec.ofInt 12 (-1)), 0xff755fe3#32),
  (.branch .bne 16 30 (BitVec.ofInt 12 (1024)), 0x01e810e3#32),
  (.branch .beq 2 11 (BitVec.ofInt 12 (-1)), 0xfeb10fe3#32),
  (.branch .bgeu 20 24 (BitVec.ofInt 12 (8)), 0x018a7863#32),
  (.branch .blt 12 9 (BitVec.ofInt 12 (-2048)), 0x80964063#32),
  (.branch .bge 1 0 (BitVec.ofInt 12 (-2048)), 0x8000d063#32),
  (.branch .bltu 4 8 (BitVec.ofInt 12 (2047)), 0x7e826fe3#32),
  (.branch .bltu 14 21 (BitVec.ofInt 12 (1024)), 0x015760e3#32),
  (.branch .bltu 11 14 (BitVec.ofInt 12 (2047)), 0x7ee5efe3#32),
  (.branch .bne 1 1 (BitVec.ofInt 12 (-1024)), 0x801090e3#32),
  (.branch .bgeu 22 11 (BitVec.ofInt 12 (-1024)), 0x80bb70e3#32),
  (.branch .beq 1 1 (BitVec.ofInt 12 (2047)), 0x7e108fe3#32),
  (.branch .bgeu 14 24 (BitVec.ofInt 12 (-2048)), 0x81877063#32),
  (.branch .bgeu 8 28 (BitVec.ofInt 12 (-1)), 0xffc47fe3#32),
  (.branch .blt 5 25 (BitVec.ofInt 12 (-1024)), 0x8192c0e3#32),
  (.branch .bge 17 9 (BitVec.ofInt 12 (-295)), 0xda98d9e3#32),
  (.branch .blt 7 1 (BitVec.ofInt 12 (985)), 0x7a13c963#32),
  (.branch .bne 16 19 (BitVec.ofInt 12 (-2048)), 0x81381063#32),
  (.branch .bgeu 28 9 (BitVec.ofInt 12 (-1)), 0xfe9e7fe3#32),
  (.branch .bge 15 5 (BitVec.ofInt 12 (2047)), 0x7e57dfe3#32),
  (.branch .blt 8 19 (BitVec.ofInt 12 (-1024)), 0x813440e3#32),
  (.jal 30 (BitVec.ofInt 20 (-486150)), 0x9f512f6f#32),
  (.jal 25 (BitVec.ofInt 20 (-1024)), 0x801ffcef#32),
  (.jal 22 (BitVec.ofInt 20 (-1024)), 0x801ffb6f#32),
  (.jal 24 (BitVec.ofInt 20 (-524288)), 0x80000c6f#32),
  (.jal 23 (BitVec.ofInt 20 (1024)), 0x00100bef#32),
  (.jal 17 (BitVec.ofInt 20 (-41585)), 0xb1feb8ef#32),
  (.jal 18 (BitVec.ofInt 20 (524287)), 0x7ffff96f#32),
  (.jal 25 (BitVec.ofInt 20 (524287)), 0x7ffffcef#32),
  (.jal 1 (BitVec.ofInt 20 (-1)), 0xfffff0ef#32),
  (.jal 11 (BitVec.ofInt 20 (1)), 0x002005ef#32),
  (.jal 25 (BitVec.ofInt 20 (1)), 0x00200cef#32),
  (.jal 11 (BitVec.ofInt 20 (333455)), 0x51fa25ef#32),
  (.jal 24 (BitVec.ofInt 20 (1024)), 0x00100c6f#32),
  (.jal 9 (BitVec.ofInt 20 (524287)), 0x7ffff4ef#32),
  (.jal 11 (BitVec.ofInt 20 (524287)), 0x7ffff5ef#32),
  (.jal 9 (BitVec.ofInt 20 (1)), 0x002004ef#32),
  (.jal 27 (BitVec.ofInt 20 (4)), 0x00800def#32),
  (.jal 6 (BitVec.ofInt 20 (-228236)), 0x8e99036f#32),
  (.jal 14 (BitVec.ofInt 20 (-1)), 0xfffff76f#32),
  (.jal 18 (BitVec.ofInt 20 (-1024)), 0x801ff96f#32),
  (.jal 15 (BitVec.ofInt 20 (-1)), 0xfffff7ef#32),
  (.jal 26 (BitVec.ofInt 20 (524287)), 0x7ffffd6f#32),
  (.jal 29 (BitVec.ofInt 20 (-1)), 0xfffffeef#32),
  (.jal 5 (BitVec.ofInt 20 (-1024)), 0x801ff2ef#32),
  (.jal 26 (BitVec.ofInt 20 (-1)), 0xfffffd6f#32),
  (.jal 4 (BitVec.ofInt 20 (32768)), 0x0001026f#32),
  (.jal 28 (BitVec.ofInt 20 (-1)), 0xfffffe6f#32),
  (.jal 19 (BitVec.ofInt 20 (157176)), 0x3f14c9ef#32),
  (.jal 8 (BitVec.ofInt 20 (1024)), 0x0010046f#32),
  (.jal 23 (BitVec.ofInt 20 (-524288)), 0x80000bef#32),
  (.jal 16 (BitVec.ofInt 20 (1)), 0x0020086f#32),
  (.jal 5 (BitVec.ofInt 20 (-1)), 0xfffff2ef#32),
  (.jal 2 (BitVec.ofInt 20 (-421785)), 0x8ce3216f#32),
  (.jal 22 (BitVec.ofInt 20 (524287)), 0x7ffffb6f#32),
  (.jal 3 (BitVec.ofInt 20 (-126042)), 0xf4cc21ef#32),
  (.jal 4 (BitVec.ofInt 20 (524287)), 0x7ffff26f#32),
  (.jal 10 (BitVec.ofInt 20 (-1)), 0xfffff56f#32),
  (.jal 28 (BitVec.ofInt 20 (-524288)), 0x80000e6f#32),
  (.jal 29 (BitVec.ofInt 20 (512)), 0x40000eef#32),
  (.jal 19 (BitVec.ofInt 20 (-1)), 0xfffff9ef#32),
  (.auipc 27 0x2000, 0x02000d97#32),
  (.auipc 2 0x4, 0x00004117#32),
  (.lui 11 0x4bdca, 0x4bdca5b7#32),
  (.lui 5 0x4, 0x000042b7#32),
  (.lui 8 0xe22e8, 0xe22e8437#32),
  (.lui 23 0x4caae, 0x4caaebb7#32),
  (.lui 0 0xecb01, 0xecb01037#32),
  (.auipc 18 0x40000, 0x40000917#32),
  (.auipc 1 0xb211, 0x0b211097#32),
  (.lui 27 0x165a1, 0x165a1db7#32),
  (.auipc 1 0x4000, 0x04000097#32),
  (.auipc 18 0xe9d7a, 0xe9d7a917#32),
  (.lui 4 0xf61e8, 0xf61e8237#32),
  (.auipc 30 0x3b27b, 0x3b27bf17#32),
  (.lui 17 0x100, 0x001008b7#32),
  (.lui 28 0x6a667, 0x6a667e37#32),
  (.auipc 17 0x10, 0x00010897#32),
  (.lui 26 0x40000, 0x40000d37#32),
  (.auipc 12 0xbaf25, 0xbaf25617#32),
  (.auipc 31 0x8c3f3, 0x8c3f3f97#32),
  (.auipc 31 0x1, 0x00001f97#32),
  (.auipc 15 0x400, 0x00400797#32),
  (.auipc 3 0x8281a, 0x8281a197#32),
  (.auipc 30 0x10, 0x00010f17#32),
  (.auipc 14 0x10000, 0x10000717#32),
  (.lui 31 0x4000, 0x04000fb7#32),
  (.auipc 16 0x73939, 0x73939817#32),
  (.lui 20 0x2cdb4, 0x2cdb4a37#32),
  (.auipc 2 0x400, 0x00400117#32),
  (.lui 12 0x2000, 0x02000637#32),
  (.auipc 3 0x10, 0x00010197#32),
  (.auipc 30 0x1e5cc, 0x1e5ccf17#32),
  (.auipc 30 0x100, 0x00100f17#32),
  (.lui 13 0x181bd, 0x181bd6b7#32),
  (.auipc 15 0x40, 0x00040797#32),
  (.auipc 8 0x400, 0x00400417#32),
  (.auipc 26 0x1000, 0x01000d17#32),
  (.lui 14 0x4, 0x00004737#32),
  (.lui 14 0x8000, 0x08000737#32),
  (.lui 3 0x1, 0x000011b7#32),
  (.jalr 15 23 (BitVec.ofInt 12 (-1)), 0xfffb87e7#32),
  (.opImm .andi 13 7 (BitVec.ofInt 12 (-774)), 0xcfa3f693#32),
  (.load .lw 23 6 (BitVec.ofInt 12 (2047)), 0x7ff32b83#32),
  (.opImm .xori 17 14 (BitVec.ofInt 12 (64)), 0x04074893#32),
  (.jalr 25 13 (BitVec.ofInt 12 (16)), 0x01068ce7#32),
  (.jalr 14 28 (BitVec.ofInt 12 (2011)), 0x7dbe0767#32),
  (.opImm .ori 12 7 (BitVec.ofInt 12 (1)), 0x0013e613#32),
  (.load .lhu 10 2 (BitVec.ofInt 12 (-1)), 0xfff15503#32),
  (.opImm .sltiu 24 16 (BitVec.ofInt 12 (4)), 0x00483c13#32),
  (.opImm .ori 29 11 (BitVec.ofInt 12 (903)), 0x3875ee93#32),
  (.load .lbu 2 21 (BitVec.ofInt 12 (-2048)), 0x800ac103#32),
  (.load .lbu 0 21 (BitVec.ofInt 12 (-2048)), 0x800ac003#32),
  (.jalr 13 20 (BitVec.ofInt 12 (8)), 0x008a06e7#32),
  (.jalr 11 4 (BitVec.ofInt 12 (-2048)), 0x800205e7#32),
  (.jalr 17 9 (BitVec.ofInt 12 (1)), 0x001488e7#32),
  (.opImm .sltiu 6 11 (BitVec.ofInt 12 (1)), 0x0015b313#32),
  (.opImm .ori 7 9 (BitVec.ofInt 12 (1)), 0x0014e393#32),
  (.opImm .andi 21 29 (BitVec.ofInt 12 (1)), 0x001efa93#32),
  (.jalr 29 9 (BitVec.ofInt 12 (2047)), 0x7ff48ee7#32),
  (.jalr 8 2 (BitVec.ofInt 12 (1024)), 0x40010467#32),
  (.load .lb 10 19 (BitVec.ofInt 12 (16)), 0x01098503#32),
  (.jalr 26 1 (BitVec.ofInt 12 (1269)), 0x4f508d67#32),
  (.jalr 12 15 (BitVec.ofInt 12 (-758)), 0xd0a78667#32),
  (.jalr 17 10 (BitVec.ofInt 12 (8)), 0x008508e7#32),
  (.load .lw 2 26 (BitVec.ofInt 12 (1)), 0x001d2103#32),
  (.jalr 15 8 (BitVec.ofInt 12 (1)), 0x001407e7#32),
  (.load .lw 29 0 (BitVec.ofInt 12 (-2048)), 0x80002e83#32),
  (.load .lh 24 13 (BitVec.ofInt 12 (-1)), 0xfff69c03#32),
  (.opImm .sltiu 25 0 (BitVec.ofInt 12 (1938)), 0x79203c93#32),
  (.load .lw 24 15 (BitVec.ofInt 12 (-2048)), 0x8007ac03#32),
  (.opImm .addi 15 22 (BitVec.ofInt 12 (256)), 0x100b0793#32),
  (.opImm .andi 0 28 (BitVec.ofInt 12 (1)), 0x001e7013#32),
  (.load .lw 21 10 (BitVec.ofInt 12 (1)), 0x00152a83#32),
  (.jalr 31 21 (BitVec.ofInt 12 (-1)), 0xfffa8fe7#32),
  (.load .lb 5 13 (BitVec.ofInt 12 (399)), 0x18f68283#32),
  (.load .lbu 13 28 (BitVec.ofInt 12 (-2048)), 0x800e4683#32),
  (.jalr 8 18 (BitVec.ofInt 12 (128)), 0x08090467#32),
  (.load .lh 1 14 (BitVec.ofInt 12 (-1)), 0xfff71083#32),
  (.jalr 21 30 (BitVec.ofInt 12 (16)), 0x010f0ae7#32),
  (.jalr 9 15 (BitVec.ofInt 12 (2047)), 0x7ff784e7#32),
  (.store .sh 22 27 (BitVec.ofInt 12 (16)), 0x01bb1823#32),
  (.store .sh 28 6 (BitVec.ofInt 12 (1)), 0x006e10a3#32),
  (.store .sw 22 11 (BitVec.ofInt 12 (2047)), 0x7ebb2fa3#32),
  (.store .sw 17 13 (BitVec.ofInt 12 (1160)), 0x48d8a423#32),
  (.store .sb 31 5 (BitVec.ofInt 12 (933)), 0x3a5f82a3#32),
  (.store .sw 4 0 (BitVec.ofInt 12 (1)), 0x000220a3#32),
  (.store .sh 20 16 (BitVec.ofInt 12 (-2011)), 0x830a12a3#32),
  (.store .sb 15 6 (BitVec.ofInt 12 (-1)), 0xfe678fa3#32),
  (.store .sh 31 10 (BitVec.ofInt 12 (2047)), 0x7eaf9fa3#32),
  (.store .sw 31 10 (BitVec.ofInt 12 (8)), 0x00afa423#32),
  (.store .sw 23 1 (BitVec.ofInt 12 (-2048)), 0x801ba023#32),
  (.store .sb 24 0 (BitVec.ofInt 12 (-1)), 0xfe0c0fa3#32),
  (.store .sb 13 28 (BitVec.ofInt 12 (2047)), 0x7fc68fa3#32),
  (.store .sb 0 23 (BitVec.ofInt 12 (-2048)), 0x81700023#32),
  (.store .sb 14 1 (BitVec.ofInt 12 (1)), 0x001700a3#32),
  (.store .sh 21 28 (BitVec.ofInt 12 (-505)), 0xe1ca93a3#32),
  (.store .sh 24 18 (BitVec.ofInt 12 (2047)), 0x7f2c1fa3#32),
  (.store .sh 4 22 (BitVec.ofInt 12 (2)), 0x01621123#32),
  (.store .sh 8 7 (BitVec.ofInt 12 (2047)), 0x7e741fa3#32),
  (.store .sw 18 16 (BitVec.ofInt 12 (1839)), 0x730927a3#32),
  (.store .sb 25 5 (BitVec.ofInt 12 (2047)), 0x7e5c8fa3#32),
  (.store .sw 29 11 (BitVec.ofInt 12 (-2048)), 0x80bea023#32),
  (.store .sb 24 26 (BitVec.ofInt 12 (-268)), 0xefac0a23#32),
  (.store .sw 26 29 (BitVec.ofInt 12 (-1)), 0xffdd2fa3#32),
  (.store .sh 5 28 (BitVec.ofInt 12 (-2048)), 0x81c29023#32),
  (.store .sb 25 15 (BitVec.ofInt 12 (-1)), 0xfefc8fa3#32),
  (.store .sw 7 16 (BitVec.ofInt 12 (2047)), 0x7f03afa3#32),
  (.store .sb 22 26 (BitVec.ofInt 12 (1629)), 0x65ab0ea3#32),
  (.store .sw 30 22 (BitVec.ofInt 12 (-2048)), 0x816f2023#32),
  (.store .sh 4 7 (BitVec.ofInt 12 (1416)), 0x58721423#32),
  (.store .sb 1 25 (BitVec.ofInt 12 (8)), 0x01908423#32),
  (.store .sw 11 19 (BitVec.ofInt 12 (2047)), 0x7f35afa3#32),
  (.store .sb 10 11 (BitVec.ofInt 12 (1250)), 0x4eb50123#32),
  (.store .sb 13 0 (BitVec.ofInt 12 (-1)), 0xfe068fa3#32),
  (.store .sh 20 16 (BitVec.ofInt 12 (-1243)), 0xb30a12a3#32),
  (.store .sb 14 28 (BitVec.ofInt 12 (-1)), 0xffc70fa3#32),
  (.store .sb 1 9 (BitVec.ofInt 12 (2047)), 0x7e908fa3#32),
  (.store .sb 14 13 (BitVec.ofInt 12 (-1)), 0xfed70fa3#32),
  (.store .sb 11 1 (BitVec.ofInt 12 (2)), 0x00158123#32),
  (.store .sh 7 24 (BitVec.ofInt 12 (1)), 0x018390a3#32)
]

/-- Words familiar from disassembled programs: nop, ret, `j .`, a stack frame, `li`, and register operations on a0 and a1. -/
def knownWords : List (Instr × Word) := [
  (.opImm .addi 0 0 0, 0x00000013#32), (.jalr 0 1 0, 0x00008067#32), (.jal 0 0, 0x0000006f#32),
  (.opImm .addi 2 2 (BitVec.ofInt 12 (-32)), 0xfe010113#32), (.store .sw 2 1 28, 0x00112e23#32), (.load .lw 1 2 28, 0x01c12083#32),
  (.opImm .addi 10 0 10, 0x00a00513#32), (.opImm .addi 10 0 (BitVec.ofInt 12 (-1)), 0xfff00513#32),
  (.opImm .andi 10 10 255, 0x0ff57513#32), (.load .lbu 10 10 0, 0x00054503#32),
  (.shImm .slli 10 10 2, 0x00251513#32), (.shImm .srli 10 10 2, 0x00255513#32), (.shImm .srai 10 10 2, 0x40255513#32),
  (.op .add 10 10 11, 0x00b50533#32), (.op .sub 10 10 11, 0x40b50533#32), (.op .sll 10 10 11, 0x00b51533#32),
  (.op .slt 10 10 11, 0x00b52533#32), (.op .sltu 10 10 11, 0x00b53533#32), (.op .xor 10 10 11, 0x00b54533#32),
  (.op .srl 10 10 11, 0x00b55533#32), (.op .sra 10 10 11, 0x40b55533#32), (.op .or 10 10 11, 0x00b56533#32),
  (.op .and 10 10 11, 0x00b57533#32), (.mul .mul 10 10 11, 0x02b50533#32), (.mul .mulh 10 10 11, 0x02b51533#32),
  (.mul .mulhsu 10 10 11, 0x02b52533#32), (.mul .mulhu 10 10 11, 0x02b53533#32), (.mul .div 10 10 11, 0x02b54533#32),
  (.mul .divu 10 10 11, 0x02b55533#32), (.mul .rem 10 10 11, 0x02b56533#32), (.mul .remu 10 10 11, 0x02b57533#32)
]

theorem knownWords_ok : knownWords.all (fun v => encode v.1 == v.2) = true := by decide +kernel

theorem relocVectors_ok : relocVectors.all (fun v => encode v.1 == v.2) = true := by decide +kernel

end Verif
