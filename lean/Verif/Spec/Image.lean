import Verif.Model.Loader
/-
  Specification of ELF loading and of tape placement.
-/
namespace Verif.Model

/-- A load segment (type 1) with flags R (4) or RW (6). -/
def Phdr.isRam (ph : Phdr) : Prop := ph.ptype = 1 ∧ (ph.flags = 4 ∨ ph.flags = 6)

/-- A load segment with flags RX (5). -/
def Phdr.isText (ph : Phdr) : Prop := ph.ptype = 1 ∧ ph.flags = 5

/-- A segment without uninitialised part that covers address `a`. -/
def Phdr.loads (ph : Phdr) (a : Nat) : Prop :=
  0 < ph.memsz ∧ ph.filesz = ph.memsz ∧ ph.vaddr ≤ a ∧ a < ph.vaddr + ph.memsz

end Verif.Model

namespace Verif.Spec
open Model

/-- `after` is `before` with the bytes `src` at index `at_`. -/
def Placed (before : List (BitVec 8)) (at_ : Nat) (src after : List (BitVec 8)) : Prop :=
  at_ + src.length ≤ before.length ∧ after.length = before.length ∧
  (∀ i, i < src.length → after[at_ + i]? = src[i]?) ∧
  ∀ k, k < at_ ∨ at_ + src.length ≤ k → after[k]? = before[k]?

/-- `out` is the range of `size` bytes at index `at_`. -/
def Range (data : List (BitVec 8)) (at_ size : Nat) (out : List (BitVec 8)) : Prop :=
  at_ + size ≤ data.length ∧ out.length = size ∧ ∀ i, i < size → out[i]? = data[at_ + i]?

/-- The claim one expects of the loader: every initialised byte of every R/RW load segment ends up at
its address, unless a later segment covers the same address. -/
def LoadsEverySegment : Prop :=
  ∀ (e : Elf) (p : Phantom), Phantom.fromElf e = some p →
    ∀ pre ph post, e.segments = pre ++ ph :: post → ph.isRam →
    ∀ j, j < ph.filesz → j < ph.memsz →
      (∀ q ∈ post, q.isRam → ¬ (q.vaddr ≤ ph.vaddr + j ∧ ph.vaddr + j < q.vaddr + q.memsz)) →
      p.bootRam.data[ph.vaddr + j - p.bootRam.offset]? = e.bytes[ph.offset + j]?

end Verif.Spec
