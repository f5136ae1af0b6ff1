/-
  Model of the automorphism keys of fhevm/src/keys.rs and of fhevm/src/parameters.rs.

  A `HashMap<i64, K>` is a list of pairs with distinct keys; the iteration order of the map is the
  order of the list (the theorems hold for every order).  The library functions are parameters:
  `gals` is `GLWE::trace_galois_elements(module)`, `enc` encrypts one key and advances the sources of
  randomness `σ`, `prep` prepares one key, `fresh` is a newly allocated one.

  Not modelled: the circuit bootstrapping keys (`bdd_key`), which are passed to the library as a whole.
-/
namespace Verif.Model

/-- A `HashMap<i64, K>`. -/
abbrev KeyMap (K : Type) := List (Int × K)

/-- `HashMap::get`. -/
def KeyMap.get? {K : Type} (m : KeyMap K) (g : Int) : Option K :=
  (m.find? fun p => p.1 == g).map (·.2)

/-- `HashMap::insert`: replaces the value of a key already present. -/
def KeyMap.insert {K : Type} (m : KeyMap K) (g : Int) (k : K) : KeyMap K :=
  if m.any (fun p => p.1 == g) then m.map fun p => if p.1 == g then (g, k) else p else m ++ [(g, k)]

/-- `HashMap::from_iter`. -/
def KeyMap.fromIter {K : Type} (l : List (Int × K)) : KeyMap K :=
  l.foldl (fun m p => m.insert p.1 p.2) []

/-- `VMKeysPrepared::alloc`, keys.rs:71-94. -/
def allocKeys {KP : Type} (gals : List Int) (fresh : KP) : KeyMap KP :=
  KeyMap.fromIter (gals.map fun g => (g, fresh))

/-- The keys made by the closure of `encrypt_sk`, keys.rs:167-181, one after the other. -/
def encryptList {K σ : Type} (enc : Int → σ → K × σ) : List Int → σ → List (Int × K)
  | [], _ => []
  | g :: gs, s => (g, (enc g s).1) :: encryptList enc gs (enc g s).2

/-- `VMKeys::encrypt_sk`, keys.rs:140-194. -/
def encryptKeys {K σ : Type} (enc : Int → σ → K × σ) (gals : List Int) (s : σ) : KeyMap K :=
  KeyMap.fromIter (encryptList enc gals s)

/-- `VMKeysPrepared::prepare`, keys.rs:98-111. -/
def prepareKeys {K KP : Type} (prep : K → KP) (self : KeyMap KP) (other : KeyMap K) :
    Option (KeyMap KP) :=
  self.mapM fun p => (other.get? p.1).map fun k => (p.1, prep k)

/-! ### Parameters -/

/-- A gadget layout: base, precision, number of digits, digit size, ranks of what it is applied to and of what it
gives. -/
structure Gadget where
  base2k : Nat
  k : Nat
  dnum : Nat
  dsize : Nat
  rankIn : Nat
  rankOut : Nat

/-- parameters.rs:40-63. -/
def LOGN_GLWE : Nat := 10
def N_GLWE : Nat := 1 <<< LOGN_GLWE
def N_LWE : Nat := 679
def K_LWE : Nat := 16
def LWE_BLOCK_SIZE : Nat := 7
def BASE2K_FHE_UINT : Nat := 15
def BASE2K_CBT_BRK : Nat := 15
def BASE2K_CBT_ATK : Nat := 15
def BASE2K_CBT_TSK : Nat := 15
def BASE2K_GLWE_TO_GLWE_KSK : Nat := 13
def BASE2K_GLWE_TO_LWE_KSK : Nat := 4
def RANK : Nat := 2
def K_GLWE_PT : Nat := 2
def K_ROM : Nat := BASE2K_FHE_UINT * 2
def K_RAM : Nat := BASE2K_FHE_UINT * 2
def K_FHE_UINT : Nat := BASE2K_FHE_UINT * 2
def K_EVK_RAM_READ : Nat := BASE2K_FHE_UINT * 3
def K_FHE_UINT_PREPARED : Nat := BASE2K_FHE_UINT * 3
def K_PBS : Nat := BASE2K_FHE_UINT * 4
def K_GLWE_TO_GLWE_KSK : Nat := 27
def K_GLWE_TO_LWE_KSK : Nat := 16

/-- `TorusPrecision::div_ceil`: number of digits of a precision. -/
def precDigits (a b : Nat) : Nat := (a + b - 1) / b

/-- `fhe_uint_prepared_infos`, parameters.rs:140-149. -/
def preparedGadget : Gadget :=
  ⟨BASE2K_FHE_UINT, K_FHE_UINT_PREPARED, precDigits K_FHE_UINT BASE2K_FHE_UINT, 1, RANK, RANK⟩

/-- `evk_ram_infos`, parameters.rs:169-179. -/
def evkRamGadget : Gadget :=
  ⟨BASE2K_FHE_UINT, K_EVK_RAM_READ, precDigits K_RAM BASE2K_FHE_UINT, 1, RANK, RANK⟩

/-- `cbt_key_layout`, parameters.rs:267-303: blind rotation, automorphism and tensor keys. -/
def brkGadget : Gadget :=
  ⟨BASE2K_CBT_BRK, K_PBS, precDigits K_FHE_UINT_PREPARED BASE2K_CBT_BRK, 1, RANK, RANK⟩
def atkGadget : Gadget :=
  ⟨BASE2K_CBT_ATK, K_PBS, precDigits K_FHE_UINT_PREPARED BASE2K_CBT_ATK, 1, RANK, RANK⟩
def tskGadget : Gadget :=
  ⟨BASE2K_CBT_TSK, K_PBS, precDigits K_FHE_UINT_PREPARED BASE2K_CBT_TSK, 1, RANK, RANK⟩

/-- `glwe_to_glwe_key_layout`, parameters.rs:305-315. -/
def ksGlweGadget : Gadget := ⟨BASE2K_GLWE_TO_GLWE_KSK, K_GLWE_TO_GLWE_KSK, 2, 1, RANK, 1⟩

/-- `glwe_to_lwe_key_layout`, parameters.rs:317-325; its output, an LWE ciphertext, is a GLWE ciphertext of rank 1
of which one coefficient is kept. -/
def ksLweGadget : Gadget := ⟨BASE2K_GLWE_TO_LWE_KSK, K_GLWE_TO_LWE_KSK, 4, 1, 1, 1⟩

end Verif.Model
