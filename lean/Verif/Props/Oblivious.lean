import Verif.Lemmas.Terms
import Verif.Lemmas.Witness
import Verif.Props.Circuits
import Verif.Props.Interp
/-
  C33: what the evaluator does depends on public data only.  `vm.names` is the interpreter `vm` with
  every ciphertext replaced by its name: all that is left are sizes, the thread count and the cycle
  counter.  Running it yields expressions, which contain no ciphertext.
-/
namespace Verif.Props
open Model

/-- `n` cycles compute a fixed expression of the initial ciphertexts (or panic), for every library,
every secret key and every ciphertext, meaningful or not. -/
theorem C33_fixed_expression (B : Backend) (hB : B.Lawful) (vm : Interp B) (n : Nat) :
    Interp.run n vm = (Interp.run n vm.names).map (Interp.eval B vm.inputs) := by
  have h := (Interp.names_rel (hB := hB) vm).run n
  cases h1 : Interp.run n vm.names <;> cases h2 : Interp.run n vm <;> rw [h1, h2] at h
  · rfl
  · exact h.elim
  · exact h.elim
  · exact congrArg some (Interp.Rel.eval h)

/-- So do all intermediate results of each cycle. -/
theorem C33_intermediate (B : Backend) (hB : B.Lawful) (vm : Interp B) (n : Nat) :
    ORel (Trace.Rel (evalSim B hB vm.inputs)) ((Interp.run n vm.names).bind Interp.trace)
      ((Interp.run n vm).bind Interp.trace) :=
  ORel.bind (fun _ _ h => h.trace) ((Interp.names_rel (hB := hB) vm).run n)

/-- Two interpreters set up with the same sizes and thread count perform the same operations on their
respective ciphertexts, whatever their programs, RAM contents, keys and randomness; in particular one
panics exactly when the other does. -/
theorem C33_oblivious (B : Backend) (hB : B.Lawful) (C C' : Cipher B)
    (rand : Nat → Nat → Nat → C.Rand) (rand' : Nat → Nat → Nat → C'.Rand) (dbg dbg' : Bool)
    (romSize ramSize threads : Nat) (p p' : Parser) (data data' : List (BitVec 32)) (vm vm' : Interp B)
    (h : Interp.load C rand dbg romSize ramSize threads p data = some vm)
    (h' : Interp.load C' rand' dbg' romSize ramSize threads p' data' = some vm') (n : Nat) :
    ∃ E : Option (Interp (terms B.logN)),
      Interp.run n vm = E.map (Interp.eval B vm.inputs) ∧
      Interp.run n vm' = E.map (Interp.eval B vm'.inputs) := by
  refine ⟨Interp.run n vm.names, C33_fixed_expression B hB vm n, ?_⟩
  rw [Interp.load_names h h']
  exact C33_fixed_expression B hB vm' n

theorem plain_lawful (logN : Nat) (L : Lib (2 ^ logN))
    (h1 : ∀ b i l, (L.net.fwd b i l).length = l.length) (h2 : ∀ b i l, (L.net.rev b i l).length = l.length) :
    (plain logN L).Lawful where
  retrieval l p o b := h1 _ _ _
  retrievalRev l p o b := h2 _ _ _
  bdd c hc f := by
    have : ∃ fam ∈ families, c ∈ fam.2 := by
      simp only [generatedCircuits, List.mem_append] at hc
      rcases hc with (((h | h) | h) | h) | h
      · exact ⟨_, .head _, h⟩
      · exact ⟨_, .tail _ (.head _), h⟩
      · exact ⟨_, .tail _ (.tail _ (.head _)), h⟩
      · exact ⟨_, .tail _ (.tail _ (.tail _ (.head _))), h⟩
      · exact ⟨_, .tail _ (.tail _ (.tail _ (.tail _ (.head _)))), h⟩
    obtain ⟨fam, hf, hc⟩ := this
    obtain ⟨b, hb⟩ := C20_defined fam hf c hc f f (fun _ _ => rfl)
    show ((c.run f L.stale0 L.stale1).map _).isSome = true
    rw [(hb _ _).1]
    rfl

/-- A lawful library exists, and in it the two programs below perform the same operations. -/
example : sampleFhe.B.Lawful := by
  apply plain_lawful
  · intro b i l
    simp only [sampleLib, swapNet]
    split <;> simp
  · intro b i l
    simp only [sampleLib, swapNet]
    split <;> simp

example : ∃ vm vm', Interp.load sampleFhe.C (fun _ _ _ => ()) true 4 4 3 demoParser [9#32, 8#32] = some vm ∧
    Interp.load sampleFhe.C (fun _ _ _ => ()) false 4 4 3 Parser.new [] = some vm' := by
  obtain ⟨vm, h⟩ := demo_load
  have : (Interp.load sampleFhe.C (fun _ _ _ => ()) false 4 4 3 Parser.new []).isSome = true := by
    decide +kernel
  obtain ⟨vm', h'⟩ := Option.isSome_iff_exists.mp this
  exact ⟨vm, vm', h, h'⟩

end Verif.Props
