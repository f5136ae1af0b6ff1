import Verif.Spec.Isa
/-
  Tests of the specification of the instruction set (`Spec/Isa`), which the theorems trust: machine words as assemblers print them,
  operands and results in the manner of riscv-tests (rv32ui and rv32um).  Both were written down from memory, without an assembler or
  a copy of that suite at hand; what they check is that the definitions agree with values not computed from them.
-/
namespace Verif
open Spec

/-! ### Encodings -/

/-- Registers by their names in the calling convention. -/
private def ra : Reg := 1
private def sp : Reg := 2
private def s0 : Reg := 8
private def a0 : Reg := 10
private def a1 : Reg := 11
private def a5 : Reg := 15

def encodeVectors : List (Instr × Word) := [
  (.opImm .addi 0 0 0, 0x00000013#32),                 -- nop
  (.jalr 0 ra 0, 0x00008067#32),                       -- ret
  (.opImm .addi sp sp (-16), 0xff010113#32),           -- addi sp, sp, -16
  (.store .sw sp ra 12, 0x00112623#32),                -- sw ra, 12(sp)
  (.store .sw sp s0 8, 0x00812423#32),                 -- sw s0, 8(sp)
  (.opImm .addi s0 sp 16, 0x01010413#32),              -- addi s0, sp, 16
  (.load .lw ra sp 12, 0x00c12083#32),                 -- lw ra, 12(sp)
  (.load .lw s0 sp 8, 0x00812403#32),                  -- lw s0, 8(sp)
  (.opImm .addi sp sp 16, 0x01010113#32),              -- addi sp, sp, 16
  (.opImm .addi a0 0 0, 0x00000513#32),                -- li a0, 0
  (.opImm .addi a0 a5 0, 0x00078513#32),               -- mv a0, a5
  (.lui a5 0x12345, 0x123457b7#32),                    -- lui a5, 0x12345
  (.auipc a0 0, 0x00000517#32),                        -- auipc a0, 0
  (.jal 0 0, 0x0000006f#32),                           -- j .
  (.jal ra 0, 0x000000ef#32),                          -- jal .
  (.jal 0 (BitVec.ofInt 20 (-2)), 0xffdff06f#32),      -- j .-4
  (.jal 0 8, 0x0100006f#32),                           -- j .+16
  (.jal 0 1024, 0x0010006f#32),                        -- j .+2048
  (.op .add a0 a0 a1, 0x00b50533#32),                  -- add a0, a0, a1
  (.op .sub a0 a0 a1, 0x40b50533#32),
  (.op .sll a0 a0 a1, 0x00b51533#32),
  (.op .slt a0 a0 a1, 0x00b52533#32),
  (.op .sltu a0 a0 a1, 0x00b53533#32),
  (.op .xor a0 a0 a1, 0x00b54533#32),
  (.op .srl a0 a0 a1, 0x00b55533#32),
  (.op .sra a0 a0 a1, 0x40b55533#32),
  (.op .or a0 a0 a1, 0x00b56533#32),
  (.op .and a0 a0 a1, 0x00b57533#32),
  (.shImm .slli a0 a0 1, 0x00151513#32),               -- slli a0, a0, 1
  (.shImm .srli a0 a0 1, 0x00155513#32),
  (.shImm .srai a0 a0 31, 0x41f55513#32),
  (.opImm .andi a0 a0 255, 0x0ff57513#32),             -- zext.b a0, a0
  (.opImm .ori a0 a0 1, 0x00156513#32),
  (.opImm .xori a0 a0 (-1), 0xfff54513#32),            -- not a0, a0
  (.opImm .slti a0 a0 1, 0x00152513#32),
  (.opImm .sltiu a0 a0 1, 0x00153513#32),              -- seqz a0, a0
  (.branch .beq a0 0 0, 0x00050063#32),                -- beqz a0, .
  (.branch .beq a0 a1 (-2), 0xfeb50ee3#32),            -- beq a0, a1, .-4
  (.branch .bne a0 a1 4, 0x00b51463#32),               -- bne a0, a1, .+8
  (.branch .bne a5 0 (-4), 0xfe079ce3#32),             -- bnez a5, .-8
  (.branch .blt a0 a1 4, 0x00b54463#32),
  (.branch .bge a0 a1 4, 0x00b55463#32),
  (.branch .bltu a0 a1 4, 0x00b56463#32),
  (.branch .bgeu a0 a1 4, 0x00b57463#32),
  (.load .lb a0 a1 0, 0x00058503#32),                  -- lb a0, 0(a1)
  (.load .lh a0 a1 0, 0x00059503#32),
  (.load .lw a0 a1 0, 0x0005a503#32),
  (.load .lbu a0 a1 0, 0x0005c503#32),
  (.load .lhu a0 a1 0, 0x0005d503#32),
  (.store .sb a1 a0 0, 0x00a58023#32),                 -- sb a0, 0(a1)
  (.store .sh a1 a0 0, 0x00a59023#32),
  (.store .sw a1 a0 (-4), 0xfea5ae23#32),
  (.mul .mul a0 a0 a1, 0x02b50533#32),                 -- mul a0, a0, a1
  (.mul .mulh a0 a0 a1, 0x02b51533#32),
  (.mul .mulhsu a0 a0 a1, 0x02b52533#32),
  (.mul .mulhu a0 a0 a1, 0x02b53533#32),
  (.mul .div a0 a0 a1, 0x02b54533#32),
  (.mul .divu a0 a0 a1, 0x02b55533#32),
  (.mul .rem a0 a0 a1, 0x02b56533#32),
  (.mul .remu a0 a0 a1, 0x02b57533#32)]

example : encodeVectors.all fun v => encode v.1 == v.2 := by decide +kernel

/-! ### Arithmetic, operands and result -/

def regVectors : List (RegOp × Word × Word × Word) := [
  (.add, 0x00000003#32, 0x00000007#32, 0x0000000a#32),
  (.add, 0x80000000#32, 0xffff8000#32, 0x7fff8000#32),
  (.add, 0x7fffffff#32, 0x00007fff#32, 0x80007ffe#32),
  (.add, 0xffffffff#32, 0x00000001#32, 0x00000000#32),
  (.sub, 0x00000003#32, 0x00000007#32, 0xfffffffc#32),
  (.sub, 0x00000000#32, 0xffff8000#32, 0x00008000#32),
  (.sub, 0x80000000#32, 0x00007fff#32, 0x7fff8001#32),
  (.sub, 0x00000000#32, 0xffffffff#32, 0x00000001#32),
  (.slt, 0x00000003#32, 0x00000007#32, 1#32),
  (.slt, 0x00000000#32, 0xffff8000#32, 0#32),
  (.slt, 0x80000000#32, 0x00000000#32, 1#32),
  (.slt, 0x80000000#32, 0xffff8000#32, 1#32),
  (.slt, 0x7fffffff#32, 0xffff8000#32, 0#32),
  (.sltu, 0x00000000#32, 0xffff8000#32, 1#32),
  (.sltu, 0x80000000#32, 0x00000000#32, 0#32),
  (.sltu, 0x80000000#32, 0xffff8000#32, 1#32),
  (.sltu, 0x80000000#32, 0x00007fff#32, 0#32),
  (.sll, 0x00000001#32, 0x0000001f#32, 0x80000000#32),
  (.sll, 0x21212121#32, 0xffffffc0#32, 0x21212121#32),
  (.sll, 0x21212121#32, 0xffffffc1#32, 0x42424242#32),
  (.sll, 0x21212121#32, 0xffffffc7#32, 0x90909080#32),
  (.sll, 0x21212121#32, 0xffffffce#32, 0x48484000#32),
  (.srl, 0x80000000#32, 0x0000000e#32, 0x00020000#32),
  (.srl, 0x21212121#32, 0xffffffc1#32, 0x10909090#32),
  (.srl, 0x21212121#32, 0xffffffc7#32, 0x00424242#32),
  (.srl, 0x21212121#32, 0xffffffce#32, 0x00008484#32),
  (.srl, 0x21212121#32, 0xffffffff#32, 0x00000000#32),
  (.sra, 0x80000000#32, 0x00000001#32, 0xc0000000#32),
  (.sra, 0x80000000#32, 0x0000001f#32, 0xffffffff#32),
  (.sra, 0x7fffffff#32, 0x0000000e#32, 0x0001ffff#32),
  (.sra, 0x81818181#32, 0xffffffc1#32, 0xc0c0c0c0#32),
  (.sra, 0x81818181#32, 0xffffffc7#32, 0xff030303#32),
  (.sra, 0x81818181#32, 0xffffffce#32, 0xfffe0606#32),
  (.sra, 0x81818181#32, 0xffffffff#32, 0xffffffff#32),
  (.xor, 0xff00ff00#32, 0x0f0f0f0f#32, 0xf00ff00f#32),
  (.or, 0xff00ff00#32, 0x0f0f0f0f#32, 0xff0fff0f#32),
  (.and, 0xff00ff00#32, 0x0f0f0f0f#32, 0x0f000f00#32)]

example : regVectors.all fun v => v.1.eval v.2.1 v.2.2.1 == v.2.2.2 := by decide +kernel

def mulVectors : List (MulOp × Word × Word × Word) := [
  (.mul, 0x00000003#32, 0x00000007#32, 0x00000015#32),
  (.mul, 0x80000000#32, 0xffff8000#32, 0x00000000#32),
  (.mul, 0xaaaaaaab#32, 0x0002fe7d#32, 0x0000ff7f#32),
  (.mul, 0xff000000#32, 0xff000000#32, 0x00000000#32),
  (.mul, 0xffffffff#32, 0xffffffff#32, 0x00000001#32),
  (.mulh, 0x80000000#32, 0xffff8000#32, 0x00004000#32),
  (.mulh, 0xaaaaaaab#32, 0x0002fe7d#32, 0xffff0081#32),
  (.mulh, 0xff000000#32, 0xff000000#32, 0x00010000#32),
  (.mulh, 0xffffffff#32, 0xffffffff#32, 0x00000000#32),
  (.mulh, 0xffffffff#32, 0x00000001#32, 0xffffffff#32),
  (.mulhsu, 0x80000000#32, 0xffff8000#32, 0x80004000#32),
  (.mulhsu, 0xaaaaaaab#32, 0x0002fe7d#32, 0xffff0081#32),
  (.mulhsu, 0x0002fe7d#32, 0xaaaaaaab#32, 0x0001fefe#32),
  (.mulhsu, 0xff000000#32, 0xff000000#32, 0xff010000#32),
  (.mulhsu, 0xffffffff#32, 0xffffffff#32, 0xffffffff#32),
  (.mulhsu, 0x00000001#32, 0xffffffff#32, 0x00000000#32),
  (.mulhu, 0x80000000#32, 0xffff8000#32, 0x7fffc000#32),
  (.mulhu, 0xaaaaaaab#32, 0x0002fe7d#32, 0x0001fefe#32),
  (.mulhu, 0xff000000#32, 0xff000000#32, 0xfe010000#32),
  (.mulhu, 0xffffffff#32, 0xffffffff#32, 0xfffffffe#32),
  (.div, 20#32, 6#32, 3#32), (.div, -20#32, 6#32, -3#32), (.div, 20#32, -6#32, -3#32), (.div, -20#32, -6#32, 3#32),
  (.div, 0x80000000#32, 1#32, 0x80000000#32), (.div, 0x80000000#32, -1#32, 0x80000000#32),
  (.div, 0x80000000#32, 0#32, -1#32), (.div, 1#32, 0#32, -1#32), (.div, 0#32, 0#32, -1#32),
  (.divu, 20#32, 6#32, 3#32), (.divu, -20#32, 6#32, 715827879#32), (.divu, 20#32, -6#32, 0#32), (.divu, -20#32, -6#32, 0#32),
  (.divu, 0x80000000#32, 1#32, 0x80000000#32), (.divu, 0x80000000#32, -1#32, 0#32), (.divu, 0x80000000#32, 0#32, -1#32),
  (.rem, 20#32, 6#32, 2#32), (.rem, -20#32, 6#32, -2#32), (.rem, 20#32, -6#32, 2#32), (.rem, -20#32, -6#32, -2#32),
  (.rem, 0x80000000#32, 1#32, 0#32), (.rem, 0x80000000#32, -1#32, 0#32), (.rem, 0x80000000#32, 0#32, 0x80000000#32),
  (.rem, 1#32, 0#32, 1#32), (.rem, 0#32, 0#32, 0#32),
  (.remu, 20#32, 6#32, 2#32), (.remu, -20#32, 6#32, 2#32), (.remu, 20#32, -6#32, 20#32), (.remu, -20#32, -6#32, -20#32),
  (.remu, 0x80000000#32, 1#32, 0#32), (.remu, 0x80000000#32, -1#32, 0x80000000#32), (.remu, 0x80000000#32, 0#32, 0x80000000#32)]

example : mulVectors.all fun v => v.1.eval v.2.1 v.2.2.1 == v.2.2.2 := by decide +kernel

def immVectors : List (ImmOp × Word × BitVec 12 × Word) := [
  (.addi, 0x80000000#32, 0x800#12, 0x7ffff800#32),
  (.addi, 0x7fffffff#32, 0x7ff#12, 0x800007fe#32),
  (.addi, 0xffffffff#32, 0x001#12, 0x00000000#32),
  (.slti, 0x80000000#32, 0x800#12, 1#32),
  (.slti, 0x7fffffff#32, 0x800#12, 0#32),
  (.slti, 0x00000000#32, 0xfff#12, 0#32),
  (.sltiu, 0x00000000#32, 0x800#12, 1#32),
  (.sltiu, 0x80000000#32, 0x7ff#12, 0#32),
  (.sltiu, 0x80000000#32, 0x800#12, 1#32),
  (.xori, 0x00ff0f00#32, 0xf0f#12, 0xff00f00f#32),
  (.ori, 0xff00ff00#32, 0xf0f#12, 0xffffff0f#32),
  (.andi, 0xff00ff00#32, 0xf0f#12, 0xff00ff00#32)]

example : immVectors.all fun v => v.1.eval v.2.1 (immI v.2.2.1) == v.2.2.2 := by decide +kernel

/-! ### Memory, jumps and branches -/

/-- The bytes of `tdat` in lb.S, lh.S and lw.S: `0x00ff`, `0xff00`, `0x0ff0`, `0xf00f` at 0x2000. -/
def tdat : Arch where
  pc := 0x100#32
  reg r := if r = 1#5 then 0x2000#32 else if r = 2#5 then 0xffffff99#32 else 0#32
  mem a := if a = 0x2000#32 then 0xff#8 else if a = 0x2001#32 then 0x00#8 else if a = 0x2002#32 then 0x00#8 else
    if a = 0x2003#32 then 0xff#8 else if a = 0x2004#32 then 0xf0#8 else if a = 0x2005#32 then 0x0f#8 else
    if a = 0x2006#32 then 0x0f#8 else if a = 0x2007#32 then 0xf0#8 else 0x00#8

def loadVectors : List (LoadOp × BitVec 12 × Word) := [
  (.lh, 0, 0x000000ff#32), (.lh, 2, 0xffffff00#32), (.lh, 4, 0x00000ff0#32), (.lh, 6, 0xfffff00f#32),
  (.lhu, 0, 0x000000ff#32), (.lhu, 2, 0x0000ff00#32), (.lhu, 4, 0x00000ff0#32), (.lhu, 6, 0x0000f00f#32),
  (.lw, 0, 0xff0000ff#32), (.lw, 4, 0xf00f0ff0#32),
  (.lb, 0, 0xffffffff#32), (.lb, 1, 0#32), (.lb, 4, 0xfffffff0#32), (.lb, 5, 0x0000000f#32),
  (.lbu, 0, 0x000000ff#32), (.lbu, 1, 0#32), (.lbu, 4, 0x000000f0#32), (.lbu, 5, 0x0000000f#32)]

example : loadVectors.all fun v => (exec (.load v.1 5 1 v.2.1) tdat).x 5 == v.2.2 := by decide +kernel

/-- A store changes the bytes of its size and no other. -/
def storeVectors : List (StoreOp × BitVec 12 × Word × Word) := [
  (.sb, 0, 0xff000099#32, 0xf00f0ff0#32), (.sb, 3, 0x990000ff#32, 0xf00f0ff0#32),
  (.sh, 0, 0xff00ff99#32, 0xf00f0ff0#32), (.sh, 6, 0xff0000ff#32, 0xff990ff0#32),
  (.sw, 4, 0xff0000ff#32, 0xffffff99#32)]

example : storeVectors.all fun v => LoadOp.eval .lw (exec (.store v.1 1 2 v.2.1) tdat).mem 0x2000#32 == v.2.2.1 &&
    LoadOp.eval .lw (exec (.store v.1 1 2 v.2.1) tdat).mem 0x2004#32 == v.2.2.2 := by decide +kernel

example : (exec (.lui 5 0x80000) tdat).x 5 = 0x80000000#32 ∧ (exec (.auipc 5 0xfffff) tdat).x 5 = 0xfffff100#32 := by decide +kernel
example : (exec (.jal 5 (-8)) tdat).pc = 0xf0#32 ∧ (exec (.jal 5 (-8)) tdat).x 5 = 0x104#32 := by decide +kernel
example : (exec (.jalr 5 1 3) tdat).pc = 0x2002#32 ∧ (exec (.jalr 5 1 3) tdat).x 5 = 0x104#32 ∧
    (exec (.jalr 1 1 4) tdat).pc = 0x2004#32 ∧ (exec (.jalr 1 1 4) tdat).x 1 = 0x104#32 := by decide +kernel
example : (exec (.opImm .addi 0 1 1) tdat).x 0 = 0#32 ∧ (exec (.opImm .addi 0 1 1) tdat).pc = 0x104#32 := by decide +kernel

def branchVectors : List (BranchOp × Word × Word × Bool) := [
  (.beq, -1#32, -1#32, true), (.beq, 0#32, 1#32, false), (.bne, 0#32, 1#32, true), (.bne, -1#32, -1#32, false),
  (.blt, -1#32, 1#32, true), (.blt, 1#32, -2#32, false), (.blt, -1#32, -2#32, false), (.blt, 1#32, 1#32, false),
  (.bge, 1#32, -2#32, true), (.bge, -1#32, -1#32, true), (.bge, -2#32, -1#32, false), (.bge, -2#32, 1#32, false),
  (.bltu, 0xfffffffe#32, 0xffffffff#32, true), (.bltu, 0#32, 0xffffffff#32, true), (.bltu, 0xffffffff#32, 0#32, false),
  (.bltu, 0x80000000#32, 0x7fffffff#32, false), (.bgeu, 0xffffffff#32, 0#32, true), (.bgeu, 0xefffffff#32, 0xf0000000#32, false),
  (.bgeu, 0x7fffffff#32, 0x80000000#32, false)]

example : branchVectors.all fun v => decide (v.1.taken v.2.1 v.2.2.1) == v.2.2.2 := by decide +kernel
example : (exec (.branch .bne 1 2 (-8)) tdat).pc = 0xf0#32 ∧ (exec (.branch .beq 1 2 (-8)) tdat).pc = 0x104#32 := by decide +kernel

end Verif
