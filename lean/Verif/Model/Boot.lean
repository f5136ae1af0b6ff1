import Verif.Spec.Isa
/-
  Start-up code of a guest: `global_asm!` in runtime/src/lib.rs:19-40, as the assembler and the linker
  lay it out at address 0 (compiler/linker-script/default.x:15-18 puts `.init` first in FLASH, whose origin
  is 0).  Pseudo-instructions are expanded as in the assembly manual: `la` is the pair AUIPC/ADDI with the
  distance split into `%pcrel_hi` and `%pcrel_lo`, `mv` is ADDI with 0, `blez x, l` is `bge x0, x, l`.
  The second `la` may be relaxed by a linker; lld leaves it as it is (Lemmas/LinkVectors, `bootVectors`: the start-up code
  as lld relocated it).
-/
namespace Verif.Model.Boot
open Spec

/-- Upper part of a distance, `%pcrel_hi`: rounded so that a signed 12-bit remainder is left. -/
def hi20 (d : Word) : BitVec 20 := ((d + 0x800#32) >>> 12).setWidth 20

/-- Lower part, `%pcrel_lo`. -/
def lo12 (d : Word) : BitVec 12 := d.setWidth 12

/-- `la rd, sym` at address `pc`. -/
def la (rd : Reg) (sym pc : Word) : List Word :=
  [encode (.auipc rd (hi20 (sym - pc))), encode (.opImm .addi rd rd (lo12 (sym - pc)))]

/-- `unimp`, the 32-bit form (`csrrw x0, cycle, x0`); the target is riscv32i without compressed
instructions (compiler/src/lib.rs:25-26). -/
def unimp : Word := 0xC0001073#32

/-- Distance of a jump as the field `imm[20:1]`. -/
def jumpField (d : Word) : BitVec 20 := (d >>> 1).setWidth 20

/-- `_start` and `run`, runtime/src/lib.rs:24-38, for given addresses of `__global_pointer$`,
`_stack_start` and `_start_rust`. -/
def bootWords (gp sp entry : Word) : List Word :=
  la 3#5 gp 0#32 ++ la 2#5 sp 8#32 ++
  [encode (.opImm .addi 8#5 2#5 0#12),
   encode (.branch .bge 0#5 10#5 4#12),
   unimp,
   encode (.jal 1#5 (jumpField (entry - 28#32))),
   unimp]

/-- `_stack_start`, compiler/linker-script/default.x:7, 13. -/
def stackStart : Word := 0x41000#32

/-- `loop {}` at the end of every guest (e.g. compiler-tests/template/src/guest/src/main.rs:76): a jump
to itself. -/
def spin : Word := encode (.jal 0#5 0#20)

end Verif.Model.Boot
