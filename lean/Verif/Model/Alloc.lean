/-
  Model of the guest allocator, runtime/src/alloc.rs and the `GlobalAlloc` of runtime/src/lib.rs.

  `usize` has 32 bits on the guest target (compiler/src/lib.rs:26, riscv32i) and the guest is built in
  the release profile (lib.rs:27), in which `-` wraps.  The address of the linker symbol `_end` and the
  value of the stack pointer at each call are parameters.  A panic of the guest never returns; it is
  modelled by the result `none` with the static variable as the panicking call left it.
-/
namespace Verif.Model

/-- `usize` on the guest. -/
abbrev GSize := BitVec 32

/-- `MEMORY_GAP`, alloc.rs:17. -/
def MEMORY_GAP : GSize := 0x100#32

/-- `usize::checked_add`. -/
def checkedAdd (a b : GSize) : Option GSize :=
  if a.toNat + b.toNat < 2 ^ 32 then some (a + b) else none

/-- The static variable `HEAP_POS`, alloc.rs:29. -/
structure Heap where
  pos : GSize
  deriving DecidableEq

/-- Its initial value. -/
def Heap.init : Heap := ⟨0⟩

/-- Lines 32-43: the position rounded up to the alignment. -/
def alignedPos (fin : GSize) (h : Heap) (align : GSize) : Option GSize :=
  let heapPos := if h.pos = 0 then fin else h.pos
  let offset := heapPos &&& (align - 1)
  if offset ≠ 0 then checkedAdd heapPos (align - offset) else some heapPos

/-- `sys_alloc_aligned`, alloc.rs:21-72: the static variable afterwards and the pointer returned. -/
def sysAllocAligned (fin sp : GSize) (h : Heap) (bytes align : GSize) : Heap × Option GSize :=
  match alignedPos fin h align with
  | none => (h, none)
  | some ptr =>
    match checkedAdd ptr bytes with
    | none => (h, none)
    | some heapPos =>
      match checkedAdd heapPos MEMORY_GAP with
      | none => (h, none)
      | some gapCheck => if sp < gapCheck then (h, none) else (⟨heapPos⟩, some ptr)

/-- A call of the global allocator (runtime/src/lib.rs:81-86).  A call of `alloc` comes with the stack
pointer it is made with; `dealloc` does nothing. -/
inductive HeapCall where
  | alloc (size align sp : GSize)
  | dealloc (ptr size align : GSize)

/-- A block returned by the allocator. -/
structure Block where
  ptr : GSize
  size : GSize
  deriving DecidableEq

/-- A sequence of calls: the static variable at the end and the blocks handed out, in order, or
`none` for them once a call has panicked. -/
def heapRun (fin : GSize) (h : Heap) : List HeapCall → Heap × Option (List Block)
  | [] => (h, some [])
  | .dealloc .. :: cs => heapRun fin h cs
  | .alloc size align sp :: cs =>
    match sysAllocAligned fin sp h size align with
    | (h', none) => (h', none)
    | (h', some ptr) =>
      match heapRun fin h' cs with
      | (h'', none) => (h'', none)
      | (h'', some bs) => (h'', some (⟨ptr, size⟩ :: bs))

end Verif.Model
