import Verif.Model.Bdd
/- Generated by tools/gen_circuits.py from fhevm/src/codegen/codegen_pc_update.rs:145-31973
   (`OUTPUT_CIRCUITS`); node for node, same order, same widths. -/
namespace Verif.Model.Circuits.PcUpdate
open Verif.Model

/-- `INPUT_BITS` of codegen_pc_update.rs. -/
def inputBits : Nat := 120

def b0 : BitCircuit where
  maxInterState := 5
  nodes := [
    .copy, .cmux 100 1 0, .cmux 68 1 0, .cmux 100 0 1, .none,
    .copy, .cmux 68 3 1, .copy, .cmux 0 0 2, .none,
    .cmux 0 0 1, .copy, .copy, .cmux 1 3 2, .none,
    .cmux 1 0 1, .copy, .cmux 2 3 2, .none, .none,
    .cmux 2 0 1, .none, .copy, .none, .none,
    .copy, .cmux 0 0 2, .copy, .cmux 0 2 0, .cmux 1 0 2,
    .cmux 1 0 3, .cmux 1 1 3, .cmux 1 1 2, .none, .copy,
    .cmux 2 2 1, .cmux 2 4 0, .cmux 2 1 2, .cmux 2 0 4, .none,
    .cmux 3 2 3, .cmux 3 3 2, .cmux 3 1 0, .none, .none,
    .copy, .copy, .cmux 36 2 1, .cmux 36 0 2, .none,
    .copy, .copy, .cmux 4 2 3, .none, .none,
    .copy, .copy, .cmux 37 0 2, .cmux 37 2 1, .none,
    .copy, .copy, .cmux 5 3 2, .none, .none,
    .copy, .copy, .cmux 38 2 1, .cmux 38 0 2, .none,
    .copy, .copy, .cmux 6 2 3, .none, .none,
    .copy, .copy, .cmux 39 0 2, .cmux 39 2 1, .none,
    .copy, .copy, .cmux 7 3 2, .none, .none,
    .copy, .copy, .cmux 40 0 2, .cmux 40 2 1, .none,
    .copy, .copy, .cmux 8 3 2, .none, .none,
    .copy, .copy, .cmux 41 0 2, .cmux 41 2 1, .none,
    .copy, .copy, .cmux 9 3 2, .none, .none,
    .copy, .copy, .cmux 42 2 1, .cmux 42 0 2, .none,
    .copy, .copy, .cmux 10 2 3, .none, .none,
    .copy, .copy, .cmux 43 0 2, .cmux 43 2 1, .none,
    .copy, .copy, .cmux 11 3 2, .none, .none,
    .copy, .copy, .cmux 44 2 1, .cmux 44 0 2, .none,
    .copy, .copy, .cmux 12 2 3, .none, .none,
    .copy, .copy, .cmux 45 0 2, .cmux 45 2 1, .none,
    .copy, .copy, .cmux 13 3 2, .none, .none,
    .copy, .copy, .cmux 46 2 1, .cmux 46 0 2, .none,
    .copy, .copy, .cmux 14 2 3, .none, .none,
    .copy, .copy, .cmux 47 0 2, .cmux 47 2 1, .none,
    .copy, .copy, .cmux 15 3 2, .none, .none,
    .copy, .copy, .cmux 48 0 2, .cmux 48 2 1, .none,
    .copy, .copy, .cmux 16 3 2, .none, .none,
    .copy, .copy, .cmux 49 2 1, .cmux 49 0 2, .none,
    .copy, .copy, .cmux 17 2 3, .none, .none,
    .copy, .copy, .cmux 50 2 1, .cmux 50 0 2, .none,
    .copy, .copy, .cmux 18 2 3, .none, .none,
    .copy, .copy, .cmux 51 2 1, .cmux 51 0 2, .none,
    .copy, .copy, .cmux 19 2 3, .none, .none,
    .copy, .copy, .cmux 52 0 2, .cmux 52 2 1, .none,
    .copy, .copy, .cmux 20 3 2, .none, .none,
    .copy, .copy, .cmux 53 2 1, .cmux 53 0 2, .none,
    .copy, .copy, .cmux 21 2 3, .none, .none,
    .copy, .copy, .cmux 54 2 1, .cmux 54 0 2, .none,
    .copy, .copy, .cmux 22 2 3, .none, .none,
    .copy, .copy, .cmux 55 2 1, .cmux 55 0 2, .none,
    .copy, .copy, .cmux 23 2 3, .none, .none,
    .copy, .copy, .cmux 56 0 2, .cmux 56 2 1, .none,
    .copy, .copy, .cmux 24 3 2, .none, .none,
    .copy, .copy, .cmux 57 2 1, .cmux 57 0 2, .none,
    .copy, .copy, .cmux 25 2 3, .none, .none,
    .copy, .copy, .cmux 58 0 2, .cmux 58 2 1, .none,
    .copy, .copy, .cmux 26 3 2, .none, .none,
    .copy, .copy, .cmux 59 2 1, .cmux 59 0 2, .none,
    .copy, .copy, .cmux 27 2 3, .none, .none,
    .copy, .copy, .cmux 60 0 2, .cmux 60 2 1, .none,
    .copy, .copy, .cmux 28 3 2, .none, .none,
    .copy, .copy, .cmux 61 0 2, .cmux 61 2 1, .none,
    .copy, .copy, .cmux 29 3 2, .none, .none,
    .copy, .copy, .cmux 62 2 1, .cmux 62 0 2, .none,
    .copy, .copy, .cmux 30 2 3, .none, .none,
    .copy, .copy, .cmux 63 2 1, .cmux 63 0 2, .none,
    .copy, .copy, .cmux 31 2 3, .none, .none,
    .copy, .copy, .cmux 64 2 1, .cmux 64 0 2, .none,
    .copy, .copy, .cmux 32 2 3, .none, .none,
    .copy, .copy, .cmux 65 0 2, .cmux 65 2 1, .none,
    .copy, .copy, .cmux 33 3 2, .none, .none,
    .copy, .copy, .cmux 66 0 2, .cmux 66 2 1, .none,
    .copy, .copy, .cmux 34 3 2, .none, .none,
    .cmux 67 0 2, .cmux 67 2 0, .cmux 67 1 2, .cmux 67 2 1, .none,
    .cmux 35 1 2, .cmux 35 3 0, .none, .none, .none,
    .cmux 2 0 1, .none, .none, .none, .none]

def b1 : BitCircuit where
  maxInterState := 6
  nodes := [
    .cmux 101 0 1, .cmux 101 1 0, .cmux 69 1 0, .cmux 5 1 0, .none, .none,
    .cmux 5 0 1, .cmux 5 1 0, .copy, .cmux 0 3 2, .cmux 69 1 0, .cmux 69 0 1,
    .copy, .cmux 100 4 5, .copy, .cmux 1 3 2, .cmux 100 1 0, .copy,
    .cmux 2 3 2, .cmux 68 1 5, .cmux 4 4 0, .none, .none, .none,
    .copy, .copy, .cmux 0 2 1, .none, .none, .none,
    .copy, .copy, .cmux 1 2 1, .none, .none, .none,
    .copy, .cmux 2 2 1, .none, .none, .none, .none,
    .copy, .copy, .cmux 1 1 0, .cmux 0 1 0, .cmux 0 0 1, .none,
    .cmux 1 3 4, .cmux 1 3 0, .copy, .cmux 1 1 4, .none, .none,
    .cmux 2 0 1, .cmux 2 1 0, .cmux 2 2 3, .cmux 2 3 2, .none, .none,
    .cmux 3 2 1, .cmux 3 0 3, .cmux 3 3 0, .none, .none, .none,
    .cmux 36 0 2, .copy, .copy, .cmux 36 1 0, .none, .none,
    .cmux 4 0 3, .copy, .copy, .none, .none, .none,
    .cmux 37 1 0, .copy, .copy, .cmux 37 0 2, .none, .none,
    .cmux 5 3 0, .copy, .copy, .none, .none, .none,
    .cmux 38 0 2, .copy, .copy, .cmux 38 1 0, .none, .none,
    .cmux 6 0 3, .copy, .copy, .none, .none, .none,
    .cmux 39 0 2, .copy, .copy, .cmux 39 1 0, .none, .none,
    .cmux 7 0 3, .copy, .copy, .none, .none, .none,
    .cmux 40 0 2, .copy, .copy, .cmux 40 1 0, .none, .none,
    .cmux 8 0 3, .copy, .copy, .none, .none, .none,
    .cmux 41 0 2, .copy, .copy, .cmux 41 1 0, .none, .none,
    .cmux 9 0 3, .copy, .copy, .none, .none, .none,
    .cmux 42 1 0, .copy, .copy, .cmux 42 0 2, .none, .none,
    .cmux 10 3 0, .copy, .copy, .none, .none, .none,
    .cmux 43 0 2, .copy, .copy, .cmux 43 1 0, .none, .none,
    .cmux 11 0 3, .copy, .copy, .none, .none, .none,
    .cmux 44 0 2, .copy, .copy, .cmux 44 1 0, .none, .none,
    .cmux 12 0 3, .copy, .copy, .none, .none, .none,
    .cmux 45 0 2, .copy, .copy, .cmux 45 1 0, .none, .none,
    .cmux 13 0 3, .copy, .copy, .none, .none, .none,
    .cmux 46 0 2, .copy, .copy, .cmux 46 1 0, .none, .none,
    .cmux 14 0 3, .copy, .copy, .none, .none, .none,
    .cmux 47 0 2, .copy, .copy, .cmux 47 1 0, .none, .none,
    .cmux 15 0 3, .copy, .copy, .none, .none, .none,
    .cmux 48 0 2, .copy, .copy, .cmux 48 1 0, .none, .none,
    .cmux 16 0 3, .copy, .copy, .none, .none, .none,
    .cmux 49 0 2, .copy, .copy, .cmux 49 1 0, .none, .none,
    .cmux 17 0 3, .copy, .copy, .none, .none, .none,
    .cmux 50 1 0, .copy, .copy, .cmux 50 0 2, .none, .none,
    .cmux 18 3 0, .copy, .copy, .none, .none, .none,
    .cmux 51 1 0, .copy, .copy, .cmux 51 0 2, .none, .none,
    .cmux 19 3 0, .copy, .copy, .none, .none, .none,
    .cmux 52 1 0, .copy, .copy, .cmux 52 0 2, .none, .none,
    .cmux 20 3 0, .copy, .copy, .none, .none, .none,
    .cmux 53 0 2, .copy, .copy, .cmux 53 1 0, .none, .none,
    .cmux 21 0 3, .copy, .copy, .none, .none, .none,
    .cmux 54 0 2, .copy, .copy, .cmux 54 1 0, .none, .none,
    .cmux 22 0 3, .copy, .copy, .none, .none, .none,
    .cmux 55 1 0, .copy, .copy, .cmux 55 0 2, .none, .none,
    .cmux 23 3 0, .copy, .copy, .none, .none, .none,
    .cmux 56 1 0, .copy, .copy, .cmux 56 0 2, .none, .none,
    .cmux 24 3 0, .copy, .copy, .none, .none, .none,
    .cmux 57 1 0, .copy, .copy, .cmux 57 0 2, .none, .none,
    .cmux 25 3 0, .copy, .copy, .none, .none, .none,
    .cmux 58 0 2, .copy, .copy, .cmux 58 1 0, .none, .none,
    .cmux 26 0 3, .copy, .copy, .none, .none, .none,
    .cmux 59 0 2, .copy, .copy, .cmux 59 1 0, .none, .none,
    .cmux 27 0 3, .copy, .copy, .none, .none, .none,
    .cmux 60 1 0, .copy, .copy, .cmux 60 0 2, .none, .none,
    .cmux 28 3 0, .copy, .copy, .none, .none, .none,
    .cmux 61 0 2, .copy, .copy, .cmux 61 1 0, .none, .none,
    .cmux 29 0 3, .copy, .copy, .none, .none, .none,
    .cmux 62 1 0, .copy, .copy, .cmux 62 0 2, .none, .none,
    .cmux 30 3 0, .copy, .copy, .none, .none, .none,
    .cmux 63 1 0, .copy, .copy, .cmux 63 0 2, .none, .none,
    .cmux 31 3 0, .copy, .copy, .none, .none, .none,
    .cmux 64 1 0, .copy, .copy, .cmux 64 0 2, .none, .none,
    .cmux 32 3 0, .copy, .copy, .none, .none, .none,
    .cmux 65 1 0, .copy, .copy, .cmux 65 0 2, .none, .none,
    .cmux 33 3 0, .copy, .copy, .none, .none, .none,
    .cmux 66 1 0, .copy, .copy, .cmux 66 0 2, .none, .none,
    .cmux 34 3 0, .copy, .copy, .none, .none, .none,
    .cmux 67 0 1, .cmux 67 2 0, .cmux 67 1 0, .cmux 67 0 2, .none, .none,
    .cmux 35 0 1, .cmux 35 3 2, .none, .none, .none, .none,
    .cmux 2 0 1, .none, .none, .none, .none, .none]

def b2 : BitCircuit where
  maxInterState := 8
  nodes := [
    .cmux 6 0 1, .cmux 102 1 0, .cmux 102 0 1, .cmux 70 0 1, .none, .none, .none, .none,
    .cmux 70 1 2, .cmux 70 2 1, .cmux 6 1 2, .copy, .cmux 6 2 1, .cmux 0 0 3, .none, .none,
    .copy, .copy, .copy, .copy, .copy, .cmux 1 5 3, .cmux 101 2 4, .cmux 101 0 1,
    .cmux 5 6 4, .cmux 69 7 1, .cmux 5 2 6, .cmux 2 5 3, .cmux 69 0 7, .none, .none, .none,
    .copy, .copy, .cmux 100 2 0, .copy, .cmux 100 4 1, .none, .none, .none,
    .cmux 4 2 0, .cmux 68 4 1, .none, .copy, .none, .none, .none, .none,
    .cmux 0 0 1, .copy, .none, .copy, .none, .none, .none, .none,
    .cmux 1 0 1, .copy, .none, .copy, .none, .none, .none, .none,
    .cmux 2 0 1, .none, .none, .copy, .none, .none, .none, .none,
    .copy, .cmux 1 0 3, .cmux 0 0 3, .copy, .cmux 0 3 0, .none, .none, .none,
    .cmux 1 2 3, .copy, .cmux 1 0 4, .cmux 1 2 4, .none, .none, .none, .none,
    .cmux 2 2 1, .cmux 2 3 0, .cmux 2 1 2, .cmux 2 0 3, .none, .none, .none, .none,
    .cmux 3 1 0, .cmux 3 0 1, .cmux 3 2 3, .none, .none, .none, .none, .none,
    .copy, .copy, .cmux 36 0 2, .cmux 36 2 1, .none, .none, .none, .none,
    .copy, .copy, .cmux 4 3 2, .none, .none, .none, .none, .none,
    .copy, .copy, .cmux 37 2 1, .cmux 37 0 2, .none, .none, .none, .none,
    .copy, .copy, .cmux 5 2 3, .none, .none, .none, .none, .none,
    .copy, .copy, .cmux 38 2 1, .cmux 38 0 2, .none, .none, .none, .none,
    .copy, .copy, .cmux 6 2 3, .none, .none, .none, .none, .none,
    .copy, .copy, .cmux 39 0 2, .cmux 39 2 1, .none, .none, .none, .none,
    .copy, .copy, .cmux 7 3 2, .none, .none, .none, .none, .none,
    .copy, .copy, .cmux 40 2 1, .cmux 40 0 2, .none, .none, .none, .none,
    .copy, .copy, .cmux 8 2 3, .none, .none, .none, .none, .none,
    .copy, .copy, .cmux 41 2 1, .cmux 41 0 2, .none, .none, .none, .none,
    .copy, .copy, .cmux 9 2 3, .none, .none, .none, .none, .none,
    .copy, .copy, .cmux 42 2 1, .cmux 42 0 2, .none, .none, .none, .none,
    .copy, .copy, .cmux 10 2 3, .none, .none, .none, .none, .none,
    .copy, .copy, .cmux 43 0 2, .cmux 43 2 1, .none, .none, .none, .none,
    .copy, .copy, .cmux 11 3 2, .none, .none, .none, .none, .none,
    .copy, .copy, .cmux 44 2 1, .cmux 44 0 2, .none, .none, .none, .none,
    .copy, .copy, .cmux 12 2 3, .none, .none, .none, .none, .none,
    .copy, .copy, .cmux 45 0 2, .cmux 45 2 1, .none, .none, .none, .none,
    .copy, .copy, .cmux 13 3 2, .none, .none, .none, .none, .none,
    .copy, .copy, .cmux 46 2 1, .cmux 46 0 2, .none, .none, .none, .none,
    .copy, .copy, .cmux 14 2 3, .none, .none, .none, .none, .none,
    .copy, .copy, .cmux 47 2 1, .cmux 47 0 2, .none, .none, .none, .none,
    .copy, .copy, .cmux 15 2 3, .none, .none, .none, .none, .none,
    .copy, .copy, .cmux 48 2 1, .cmux 48 0 2, .none, .none, .none, .none,
    .copy, .copy, .cmux 16 2 3, .none, .none, .none, .none, .none,
    .copy, .copy, .cmux 49 0 2, .cmux 49 2 1, .none, .none, .none, .none,
    .copy, .copy, .cmux 17 3 2, .none, .none, .none, .none, .none,
    .copy, .copy, .cmux 50 2 1, .cmux 50 0 2, .none, .none, .none, .none,
    .copy, .copy, .cmux 18 2 3, .none, .none, .none, .none, .none,
    .copy, .copy, .cmux 51 0 2, .cmux 51 2 1, .none, .none, .none, .none,
    .copy, .copy, .cmux 19 3 2, .none, .none, .none, .none, .none,
    .copy, .copy, .cmux 52 0 2, .cmux 52 2 1, .none, .none, .none, .none,
    .copy, .copy, .cmux 20 3 2, .none, .none, .none, .none, .none,
    .copy, .copy, .cmux 53 2 1, .cmux 53 0 2, .none, .none, .none, .none,
    .copy, .copy, .cmux 21 2 3, .none, .none, .none, .none, .none,
    .copy, .copy, .cmux 54 0 2, .cmux 54 2 1, .none, .none, .none, .none,
    .copy, .copy, .cmux 22 3 2, .none, .none, .none, .none, .none,
    .copy, .copy, .cmux 55 2 1, .cmux 55 0 2, .none, .none, .none, .none,
    .copy, .copy, .cmux 23 2 3, .none, .none, .none, .none, .none,
    .copy, .copy, .cmux 56 0 2, .cmux 56 2 1, .none, .none, .none, .none,
    .copy, .copy, .cmux 24 3 2, .none, .none, .none, .none, .none,
    .copy, .copy, .cmux 57 2 1, .cmux 57 0 2, .none, .none, .none, .none,
    .copy, .copy, .cmux 25 2 3, .none, .none, .none, .none, .none,
    .copy, .copy, .cmux 58 2 1, .cmux 58 0 2, .none, .none, .none, .none,
    .copy, .copy, .cmux 26 2 3, .none, .none, .none, .none, .none,
    .copy, .copy, .cmux 59 0 2, .cmux 59 2 1, .none, .none, .none, .none,
    .copy, .copy, .cmux 27 3 2, .none, .none, .none, .none, .none,
    .copy, .copy, .cmux 60 2 1, .cmux 60 0 2, .none, .none, .none, .none,
    .copy, .copy, .cmux 28 2 3, .none, .none, .none, .none, .none,
    .copy, .copy, .cmux 61 2 1, .cmux 61 0 2, .none, .none, .none, .none,
    .copy, .copy, .cmux 29 2 3, .none, .none, .none, .none, .none,
    .copy, .copy, .cmux 62 0 2, .cmux 62 2 1, .none, .none, .none, .none,
    .copy, .copy, .cmux 30 3 2, .none, .none, .none, .none, .none,
    .copy, .copy, .cmux 63 2 1, .cmux 63 0 2, .none, .none, .none, .none,
    .copy, .copy, .cmux 31 2 3, .none, .none, .none, .none, .none,
    .copy, .copy, .cmux 64 0 2, .cmux 64 2 1, .none, .none, .none, .none,
    .copy, .copy, .cmux 32 3 2, .none, .none, .none, .none, .none,
    .copy, .copy, .cmux 65 2 1, .cmux 65 0 2, .none, .none, .none, .none,
    .copy, .copy, .cmux 33 2 3, .none, .none, .none, .none, .none,
    .copy, .copy, .cmux 66 0 2, .cmux 66 2 1, .none, .none, .none, .none,
    .copy, .copy, .cmux 34 3 2, .none, .none, .none, .none, .none,
    .cmux 67 0 2, .cmux 67 2 1, .cmux 67 1 2, .cmux 67 2 0, .none, .none, .none, .none,
    .cmux 35 1 0, .cmux 35 3 2, .none, .none, .none, .none, .none, .none,
    .cmux 2 1 0, .none, .none, .none, .none, .none, .none, .none]

def b3 : BitCircuit where
  maxInterState := 8
  nodes := [
    .cmux 7 0 1, .cmux 71 1 0, .cmux 7 1 0, .cmux 103 0 1, .cmux 103 1 0, .cmux 71 0 1, .none, .none,
    .cmux 71 4 3, .cmux 70 5 1, .cmux 71 3 4, .cmux 7 3 4, .cmux 7 4 3, .cmux 6 0 2, .none, .none,
    .copy, .copy, .copy, .copy, .copy, .cmux 0 5 1, .cmux 102 4 3, .cmux 102 0 2,
    .cmux 70 7 2, .copy, .cmux 6 4 6, .cmux 6 6 3, .cmux 1 5 1, .cmux 70 0 7, .none, .none,
    .copy, .cmux 101 5 0, .copy, .copy, .cmux 2 4 1, .copy, .cmux 101 2 3, .none,
    .cmux 5 2 6, .cmux 5 6 3, .cmux 69 5 1, .cmux 69 1 0, .copy, .none, .none, .none,
    .cmux 100 0 1, .copy, .cmux 100 2 3, .copy, .copy, .none, .none, .none,
    .cmux 68 2 3, .cmux 4 0 1, .none, .none, .copy, .none, .none, .none,
    .copy, .cmux 0 1 0, .none, .none, .copy, .none, .none, .none,
    .copy, .cmux 1 1 0, .none, .none, .copy, .none, .none, .none,
    .cmux 2 1 0, .none, .none, .none, .copy, .none, .none, .none,
    .copy, .cmux 0 0 4, .cmux 0 4 0, .cmux 1 0 4, .copy, .none, .none, .none,
    .cmux 1 0 2, .cmux 1 1 4, .cmux 1 1 2, .copy, .none, .none, .none, .none,
    .cmux 2 1 2, .cmux 2 2 1, .cmux 2 3 0, .cmux 2 0 3, .none, .none, .none, .none,
    .cmux 3 1 3, .cmux 3 2 0, .cmux 3 3 1, .none, .none, .none, .none, .none,
    .copy, .cmux 36 0 1, .copy, .cmux 36 1 2, .none, .none, .none, .none,
    .copy, .cmux 4 3 1, .copy, .none, .none, .none, .none, .none,
    .copy, .cmux 37 1 2, .copy, .cmux 37 0 1, .none, .none, .none, .none,
    .copy, .cmux 5 1 3, .copy, .none, .none, .none, .none, .none,
    .copy, .cmux 38 0 1, .copy, .cmux 38 1 2, .none, .none, .none, .none,
    .copy, .cmux 6 3 1, .copy, .none, .none, .none, .none, .none,
    .copy, .cmux 39 0 1, .copy, .cmux 39 1 2, .none, .none, .none, .none,
    .copy, .cmux 7 3 1, .copy, .none, .none, .none, .none, .none,
    .copy, .cmux 40 0 1, .copy, .cmux 40 1 2, .none, .none, .none, .none,
    .copy, .cmux 8 3 1, .copy, .none, .none, .none, .none, .none,
    .copy, .cmux 41 0 1, .copy, .cmux 41 1 2, .none, .none, .none, .none,
    .copy, .cmux 9 3 1, .copy, .none, .none, .none, .none, .none,
    .copy, .cmux 42 0 1, .copy, .cmux 42 1 2, .none, .none, .none, .none,
    .copy, .cmux 10 3 1, .copy, .none, .none, .none, .none, .none,
    .copy, .cmux 43 0 1, .copy, .cmux 43 1 2, .none, .none, .none, .none,
    .copy, .cmux 11 3 1, .copy, .none, .none, .none, .none, .none,
    .copy, .cmux 44 0 1, .copy, .cmux 44 1 2, .none, .none, .none, .none,
    .copy, .cmux 12 3 1, .copy, .none, .none, .none, .none, .none,
    .copy, .cmux 45 0 1, .copy, .cmux 45 1 2, .none, .none, .none, .none,
    .copy, .cmux 13 3 1, .copy, .none, .none, .none, .none, .none,
    .copy, .cmux 46 1 2, .copy, .cmux 46 0 1, .none, .none, .none, .none,
    .copy, .cmux 14 1 3, .copy, .none, .none, .none, .none, .none,
    .copy, .cmux 47 0 1, .copy, .cmux 47 1 2, .none, .none, .none, .none,
    .copy, .cmux 15 3 1, .copy, .none, .none, .none, .none, .none,
    .copy, .cmux 48 0 1, .copy, .cmux 48 1 2, .none, .none, .none, .none,
    .copy, .cmux 16 3 1, .copy, .none, .none, .none, .none, .none,
    .copy, .cmux 49 1 2, .copy, .cmux 49 0 1, .none, .none, .none, .none,
    .copy, .cmux 17 1 3, .copy, .none, .none, .none, .none, .none,
    .copy, .cmux 50 1 2, .copy, .cmux 50 0 1, .none, .none, .none, .none,
    .copy, .cmux 18 1 3, .copy, .none, .none, .none, .none, .none,
    .copy, .cmux 51 0 1, .copy, .cmux 51 1 2, .none, .none, .none, .none,
    .copy, .cmux 19 3 1, .copy, .none, .none, .none, .none, .none,
    .copy, .cmux 52 0 1, .copy, .cmux 52 1 2, .none, .none, .none, .none,
    .copy, .cmux 20 3 1, .copy, .none, .none, .none, .none, .none,
    .copy, .cmux 53 1 2, .copy, .cmux 53 0 1, .none, .none, .none, .none,
    .copy, .cmux 21 1 3, .copy, .none, .none, .none, .none, .none,
    .copy, .cmux 54 0 1, .copy, .cmux 54 1 2, .none, .none, .none, .none,
    .copy, .cmux 22 3 1, .copy, .none, .none, .none, .none, .none,
    .copy, .cmux 55 1 2, .copy, .cmux 55 0 1, .none, .none, .none, .none,
    .copy, .cmux 23 1 3, .copy, .none, .none, .none, .none, .none,
    .copy, .cmux 56 1 2, .copy, .cmux 56 0 1, .none, .none, .none, .none,
    .copy, .cmux 24 1 3, .copy, .none, .none, .none, .none, .none,
    .copy, .cmux 57 1 2, .copy, .cmux 57 0 1, .none, .none, .none, .none,
    .copy, .cmux 25 1 3, .copy, .none, .none, .none, .none, .none,
    .copy, .cmux 58 1 2, .copy, .cmux 58 0 1, .none, .none, .none, .none,
    .copy, .cmux 26 1 3, .copy, .none, .none, .none, .none, .none,
    .copy, .cmux 59 1 2, .copy, .cmux 59 0 1, .none, .none, .none, .none,
    .copy, .cmux 27 1 3, .copy, .none, .none, .none, .none, .none,
    .copy, .cmux 60 1 2, .copy, .cmux 60 0 1, .none, .none, .none, .none,
    .copy, .cmux 28 1 3, .copy, .none, .none, .none, .none, .none,
    .copy, .cmux 61 1 2, .copy, .cmux 61 0 1, .none, .none, .none, .none,
    .copy, .cmux 29 1 3, .copy, .none, .none, .none, .none, .none,
    .copy, .cmux 62 1 2, .copy, .cmux 62 0 1, .none, .none, .none, .none,
    .copy, .cmux 30 1 3, .copy, .none, .none, .none, .none, .none,
    .copy, .cmux 63 1 2, .copy, .cmux 63 0 1, .none, .none, .none, .none,
    .copy, .cmux 31 1 3, .copy, .none, .none, .none, .none, .none,
    .copy, .cmux 64 0 1, .copy, .cmux 64 1 2, .none, .none, .none, .none,
    .copy, .cmux 32 3 1, .copy, .none, .none, .none, .none, .none,
    .copy, .cmux 65 0 1, .copy, .cmux 65 1 2, .none, .none, .none, .none,
    .copy, .cmux 33 3 1, .copy, .none, .none, .none, .none, .none,
    .copy, .cmux 66 1 2, .copy, .cmux 66 0 1, .none, .none, .none, .none,
    .copy, .cmux 34 1 3, .copy, .none, .none, .none, .none, .none,
    .cmux 67 1 2, .cmux 67 0 1, .cmux 67 1 0, .cmux 67 2 1, .none, .none, .none, .none,
    .cmux 35 0 1, .cmux 35 2 3, .none, .none, .none, .none, .none, .none,
    .cmux 2 1 0, .none, .none, .none, .none, .none, .none, .none]

def b4 : BitCircuit where
  maxInterState := 8
  nodes := [
    .cmux 8 0 1, .cmux 104 0 1, .cmux 72 1 0, .cmux 8 1 0, .cmux 104 1 0, .cmux 72 0 1, .none, .none,
    .cmux 72 4 1, .cmux 8 1 4, .copy, .copy, .cmux 72 1 4, .cmux 71 5 2, .cmux 8 4 1, .cmux 7 0 3,
    .copy, .copy, .cmux 103 6 1, .cmux 70 5 2, .copy, .cmux 6 7 3, .copy, .cmux 103 0 4,
    .cmux 7 6 2, .cmux 0 5 3, .cmux 7 2 1, .copy, .cmux 71 7 4, .cmux 71 0 7, .none, .none,
    .copy, .cmux 102 0 2, .copy, .copy, .copy, .copy, .cmux 102 5 4, .cmux 1 1 3,
    .cmux 6 0 1, .cmux 2 7 3, .cmux 70 6 4, .cmux 6 1 2, .cmux 70 5 6, .none, .none, .none,
    .copy, .copy, .copy, .copy, .copy, .cmux 101 4 2, .cmux 101 0 3, .none,
    .cmux 5 0 6, .copy, .cmux 69 4 5, .cmux 69 5 2, .cmux 5 6 3, .none, .none, .none,
    .cmux 100 2 3, .copy, .cmux 100 0 4, .copy, .copy, .none, .none, .none,
    .cmux 68 0 3, .copy, .cmux 4 2 4, .none, .none, .none, .none, .none,
    .copy, .copy, .cmux 0 2 0, .none, .none, .none, .none, .none,
    .copy, .copy, .cmux 1 2 0, .none, .none, .none, .none, .none,
    .cmux 2 2 0, .copy, .none, .none, .none, .none, .none, .none,
    .copy, .copy, .cmux 0 0 1, .cmux 0 1 0, .cmux 1 0 1, .none, .none, .none,
    .cmux 1 2 3, .cmux 1 2 1, .cmux 1 0 3, .none, .copy, .none, .none, .none,
    .cmux 2 2 4, .cmux 2 4 2, .cmux 2 1 0, .cmux 2 0 1, .none, .none, .none, .none,
    .cmux 3 1 2, .cmux 3 3 0, .cmux 3 0 3, .none, .none, .none, .none, .none,
    .cmux 36 0 2, .copy, .copy, .cmux 36 1 0, .none, .none, .none, .none,
    .cmux 4 0 3, .copy, .copy, .none, .none, .none, .none, .none,
    .cmux 37 0 2, .copy, .copy, .cmux 37 1 0, .none, .none, .none, .none,
    .cmux 5 0 3, .copy, .copy, .none, .none, .none, .none, .none,
    .cmux 38 0 2, .copy, .copy, .cmux 38 1 0, .none, .none, .none, .none,
    .cmux 6 0 3, .copy, .copy, .none, .none, .none, .none, .none,
    .cmux 39 1 0, .copy, .copy, .cmux 39 0 2, .none, .none, .none, .none,
    .cmux 7 3 0, .copy, .copy, .none, .none, .none, .none, .none,
    .cmux 40 1 0, .copy, .copy, .cmux 40 0 2, .none, .none, .none, .none,
    .cmux 8 3 0, .copy, .copy, .none, .none, .none, .none, .none,
    .cmux 41 0 2, .copy, .copy, .cmux 41 1 0, .none, .none, .none, .none,
    .cmux 9 0 3, .copy, .copy, .none, .none, .none, .none, .none,
    .cmux 42 1 0, .copy, .copy, .cmux 42 0 2, .none, .none, .none, .none,
    .cmux 10 3 0, .copy, .copy, .none, .none, .none, .none, .none,
    .cmux 43 0 2, .copy, .copy, .cmux 43 1 0, .none, .none, .none, .none,
    .cmux 11 0 3, .copy, .copy, .none, .none, .none, .none, .none,
    .cmux 44 0 2, .copy, .copy, .cmux 44 1 0, .none, .none, .none, .none,
    .cmux 12 0 3, .copy, .copy, .none, .none, .none, .none, .none,
    .cmux 45 1 0, .copy, .copy, .cmux 45 0 2, .none, .none, .none, .none,
    .cmux 13 3 0, .copy, .copy, .none, .none, .none, .none, .none,
    .cmux 46 0 2, .copy, .copy, .cmux 46 1 0, .none, .none, .none, .none,
    .cmux 14 0 3, .copy, .copy, .none, .none, .none, .none, .none,
    .cmux 47 1 0, .copy, .copy, .cmux 47 0 2, .none, .none, .none, .none,
    .cmux 15 3 0, .copy, .copy, .none, .none, .none, .none, .none,
    .cmux 48 0 2, .copy, .copy, .cmux 48 1 0, .none, .none, .none, .none,
    .cmux 16 0 3, .copy, .copy, .none, .none, .none, .none, .none,
    .cmux 49 0 2, .copy, .copy, .cmux 49 1 0, .none, .none, .none, .none,
    .cmux 17 0 3, .copy, .copy, .none, .none, .none, .none, .none,
    .cmux 50 1 0, .copy, .copy, .cmux 50 0 2, .none, .none, .none, .none,
    .cmux 18 3 0, .copy, .copy, .none, .none, .none, .none, .none,
    .cmux 51 1 0, .copy, .copy, .cmux 51 0 2, .none, .none, .none, .none,
    .cmux 19 3 0, .copy, .copy, .none, .none, .none, .none, .none,
    .cmux 52 1 0, .copy, .copy, .cmux 52 0 2, .none, .none, .none, .none,
    .cmux 20 3 0, .copy, .copy, .none, .none, .none, .none, .none,
    .cmux 53 1 0, .copy, .copy, .cmux 53 0 2, .none, .none, .none, .none,
    .cmux 21 3 0, .copy, .copy, .none, .none, .none, .none, .none,
    .cmux 54 1 0, .copy, .copy, .cmux 54 0 2, .none, .none, .none, .none,
    .cmux 22 3 0, .copy, .copy, .none, .none, .none, .none, .none,
    .cmux 55 0 2, .copy, .copy, .cmux 55 1 0, .none, .none, .none, .none,
    .cmux 23 0 3, .copy, .copy, .none, .none, .none, .none, .none,
    .cmux 56 0 2, .copy, .copy, .cmux 56 1 0, .none, .none, .none, .none,
    .cmux 24 0 3, .copy, .copy, .none, .none, .none, .none, .none,
    .cmux 57 0 2, .copy, .copy, .cmux 57 1 0, .none, .none, .none, .none,
    .cmux 25 0 3, .copy, .copy, .none, .none, .none, .none, .none,
    .cmux 58 1 0, .copy, .copy, .cmux 58 0 2, .none, .none, .none, .none,
    .cmux 26 3 0, .copy, .copy, .none, .none, .none, .none, .none,
    .cmux 59 0 2, .copy, .copy, .cmux 59 1 0, .none, .none, .none, .none,
    .cmux 27 0 3, .copy, .copy, .none, .none, .none, .none, .none,
    .cmux 60 0 2, .copy, .copy, .cmux 60 1 0, .none, .none, .none, .none,
    .cmux 28 0 3, .copy, .copy, .none, .none, .none, .none, .none,
    .cmux 61 0 2, .copy, .copy, .cmux 61 1 0, .none, .none, .none, .none,
    .cmux 29 0 3, .copy, .copy, .none, .none, .none, .none, .none,
    .cmux 62 1 0, .copy, .copy, .cmux 62 0 2, .none, .none, .none, .none,
    .cmux 30 3 0, .copy, .copy, .none, .none, .none, .none, .none,
    .cmux 63 1 0, .copy, .copy, .cmux 63 0 2, .none, .none, .none, .none,
    .cmux 31 3 0, .copy, .copy, .none, .none, .none, .none, .none,
    .cmux 64 0 2, .copy, .copy, .cmux 64 1 0, .none, .none, .none, .none,
    .cmux 32 0 3, .copy, .copy, .none, .none, .none, .none, .none,
    .cmux 65 0 2, .copy, .copy, .cmux 65 1 0, .none, .none, .none, .none,
    .cmux 33 0 3, .copy, .copy, .none, .none, .none, .none, .none,
    .cmux 66 1 0, .copy, .copy, .cmux 66 0 2, .none, .none, .none, .none,
    .cmux 34 3 0, .copy, .copy, .none, .none, .none, .none, .none,
    .cmux 67 0 2, .cmux 67 0 1, .cmux 67 1 0, .cmux 67 2 0, .none, .none, .none, .none,
    .cmux 35 0 2, .cmux 35 1 3, .none, .none, .none, .none, .none, .none,
    .cmux 2 1 0, .none, .none, .none, .none, .none, .none, .none]

def b5 : BitCircuit where
  maxInterState := 10
  nodes := [
    .cmux 73 1 0, .cmux 105 1 0, .cmux 73 0 1, .cmux 9 0 1, .cmux 105 0 1, .cmux 9 1 0, .none, .none, .none, .none,
    .copy, .cmux 73 4 1, .cmux 8 3 5, .cmux 9 4 1, .cmux 73 1 4, .copy, .cmux 72 2 0, .cmux 9 1 4, .none, .none,
    .copy, .copy, .cmux 104 7 3, .copy, .copy, .copy, .cmux 7 2 5, .copy, .cmux 104 4 1, .cmux 71 6 0,
    .cmux 72 4 8, .cmux 72 8 1, .cmux 70 9 0, .cmux 8 2 3, .cmux 6 6 5, .cmux 8 7 2, .none, .none, .none, .none,
    .copy, .copy, .copy, .copy, .cmux 0 4 2, .copy, .cmux 103 5 3, .cmux 103 0 1, .none, .none,
    .cmux 71 7 1, .cmux 1 4 2, .copy, .cmux 7 6 3, .cmux 71 0 7, .cmux 7 5 6, .none, .none, .none, .none,
    .copy, .cmux 102 4 0, .cmux 102 5 3, .copy, .copy, .copy, .cmux 2 1 2, .none, .none, .none,
    .cmux 70 4 1, .cmux 6 2 3, .cmux 6 5 2, .cmux 70 1 0, .none, .none, .copy, .none, .none, .none,
    .copy, .copy, .copy, .copy, .cmux 101 0 3, .cmux 101 2 1, .copy, .none, .none, .none,
    .cmux 5 2 5, .cmux 5 5 1, .cmux 69 0 4, .cmux 69 4 3, .none, .none, .copy, .none, .none, .none,
    .cmux 100 0 1, .copy, .cmux 100 2 3, .copy, .none, .none, .copy, .none, .none, .none,
    .cmux 68 2 3, .cmux 4 0 1, .none, .none, .none, .none, .copy, .none, .none, .none,
    .copy, .cmux 0 1 0, .none, .none, .none, .none, .copy, .none, .none, .none,
    .copy, .cmux 1 1 0, .none, .none, .none, .none, .copy, .none, .none, .none,
    .cmux 2 1 0, .none, .none, .none, .none, .none, .copy, .none, .none, .none,
    .copy, .cmux 1 0 6, .cmux 0 0 6, .cmux 0 6 0, .none, .none, .copy, .none, .none, .none,
    .cmux 1 0 3, .copy, .cmux 1 2 3, .cmux 1 2 6, .none, .none, .none, .none, .none, .none,
    .cmux 2 1 0, .cmux 2 3 2, .cmux 2 0 1, .cmux 2 2 3, .none, .none, .none, .none, .none, .none,
    .cmux 3 2 3, .cmux 3 0 1, .cmux 3 3 2, .none, .none, .none, .none, .none, .none, .none,
    .copy, .cmux 36 1 0, .copy, .cmux 36 2 1, .none, .none, .none, .none, .none, .none,
    .copy, .cmux 4 1 3, .copy, .none, .none, .none, .none, .none, .none, .none,
    .copy, .cmux 37 2 1, .copy, .cmux 37 1 0, .none, .none, .none, .none, .none, .none,
    .copy, .cmux 5 3 1, .copy, .none, .none, .none, .none, .none, .none, .none,
    .copy, .cmux 38 2 1, .copy, .cmux 38 1 0, .none, .none, .none, .none, .none, .none,
    .copy, .cmux 6 3 1, .copy, .none, .none, .none, .none, .none, .none, .none,
    .copy, .cmux 39 1 0, .copy, .cmux 39 2 1, .none, .none, .none, .none, .none, .none,
    .copy, .cmux 7 1 3, .copy, .none, .none, .none, .none, .none, .none, .none,
    .copy, .cmux 40 1 0, .copy, .cmux 40 2 1, .none, .none, .none, .none, .none, .none,
    .copy, .cmux 8 1 3, .copy, .none, .none, .none, .none, .none, .none, .none,
    .copy, .cmux 41 1 0, .copy, .cmux 41 2 1, .none, .none, .none, .none, .none, .none,
    .copy, .cmux 9 1 3, .copy, .none, .none, .none, .none, .none, .none, .none,
    .copy, .cmux 42 2 1, .copy, .cmux 42 1 0, .none, .none, .none, .none, .none, .none,
    .copy, .cmux 10 3 1, .copy, .none, .none, .none, .none, .none, .none, .none,
    .copy, .cmux 43 1 0, .copy, .cmux 43 2 1, .none, .none, .none, .none, .none, .none,
    .copy, .cmux 11 1 3, .copy, .none, .none, .none, .none, .none, .none, .none,
    .copy, .cmux 44 1 0, .copy, .cmux 44 2 1, .none, .none, .none, .none, .none, .none,
    .copy, .cmux 12 1 3, .copy, .none, .none, .none, .none, .none, .none, .none,
    .copy, .cmux 45 2 1, .copy, .cmux 45 1 0, .none, .none, .none, .none, .none, .none,
    .copy, .cmux 13 3 1, .copy, .none, .none, .none, .none, .none, .none, .none,
    .copy, .cmux 46 1 0, .copy, .cmux 46 2 1, .none, .none, .none, .none, .none, .none,
    .copy, .cmux 14 1 3, .copy, .none, .none, .none, .none, .none, .none, .none,
    .copy, .cmux 47 2 1, .copy, .cmux 47 1 0, .none, .none, .none, .none, .none, .none,
    .copy, .cmux 15 3 1, .copy, .none, .none, .none, .none, .none, .none, .none,
    .copy, .cmux 48 1 0, .copy, .cmux 48 2 1, .none, .none, .none, .none, .none, .none,
    .copy, .cmux 16 1 3, .copy, .none, .none, .none, .none, .none, .none, .none,
    .copy, .cmux 49 2 1, .copy, .cmux 49 1 0, .none, .none, .none, .none, .none, .none,
    .copy, .cmux 17 3 1, .copy, .none, .none, .none, .none, .none, .none, .none,
    .copy, .cmux 50 1 0, .copy, .cmux 50 2 1, .none, .none, .none, .none, .none, .none,
    .copy, .cmux 18 1 3, .copy, .none, .none, .none, .none, .none, .none, .none,
    .copy, .cmux 51 2 1, .copy, .cmux 51 1 0, .none, .none, .none, .none, .none, .none,
    .copy, .cmux 19 3 1, .copy, .none, .none, .none, .none, .none, .none, .none,
    .copy, .cmux 52 1 0, .copy, .cmux 52 2 1, .none, .none, .none, .none, .none, .none,
    .copy, .cmux 20 1 3, .copy, .none, .none, .none, .none, .none, .none, .none,
    .copy, .cmux 53 1 0, .copy, .cmux 53 2 1, .none, .none, .none, .none, .none, .none,
    .copy, .cmux 21 1 3, .copy, .none, .none, .none, .none, .none, .none, .none,
    .copy, .cmux 54 1 0, .copy, .cmux 54 2 1, .none, .none, .none, .none, .none, .none,
    .copy, .cmux 22 1 3, .copy, .none, .none, .none, .none, .none, .none, .none,
    .copy, .cmux 55 1 0, .copy, .cmux 55 2 1, .none, .none, .none, .none, .none, .none,
    .copy, .cmux 23 1 3, .copy, .none, .none, .none, .none, .none, .none, .none,
    .copy, .cmux 56 1 0, .copy, .cmux 56 2 1, .none, .none, .none, .none, .none, .none,
    .copy, .cmux 24 1 3, .copy, .none, .none, .none, .none, .none, .none, .none,
    .copy, .cmux 57 2 1, .copy, .cmux 57 1 0, .none, .none, .none, .none, .none, .none,
    .copy, .cmux 25 3 1, .copy, .none, .none, .none, .none, .none, .none, .none,
    .copy, .cmux 58 1 0, .copy, .cmux 58 2 1, .none, .none, .none, .none, .none, .none,
    .copy, .cmux 26 1 3, .copy, .none, .none, .none, .none, .none, .none, .none,
    .copy, .cmux 59 1 0, .copy, .cmux 59 2 1, .none, .none, .none, .none, .none, .none,
    .copy, .cmux 27 1 3, .copy, .none, .none, .none, .none, .none, .none, .none,
    .copy, .cmux 60 1 0, .copy, .cmux 60 2 1, .none, .none, .none, .none, .none, .none,
    .copy, .cmux 28 1 3, .copy, .none, .none, .none, .none, .none, .none, .none,
    .copy, .cmux 61 1 0, .copy, .cmux 61 2 1, .none, .none, .none, .none, .none, .none,
    .copy, .cmux 29 1 3, .copy, .none, .none, .none, .none, .none, .none, .none,
    .copy, .cmux 62 2 1, .copy, .cmux 62 1 0, .none, .none, .none, .none, .none, .none,
    .copy, .cmux 30 3 1, .copy, .none, .none, .none, .none, .none, .none, .none,
    .copy, .cmux 63 2 1, .copy, .cmux 63 1 0, .none, .none, .none, .none, .none, .none,
    .copy, .cmux 31 3 1, .copy, .none, .none, .none, .none, .none, .none, .none,
    .copy, .cmux 64 1 0, .copy, .cmux 64 2 1, .none, .none, .none, .none, .none, .none,
    .copy, .cmux 32 1 3, .copy, .none, .none, .none, .none, .none, .none, .none,
    .copy, .cmux 65 1 0, .copy, .cmux 65 2 1, .none, .none, .none, .none, .none, .none,
    .copy, .cmux 33 1 3, .copy, .none, .none, .none, .none, .none, .none, .none,
    .copy, .cmux 66 2 1, .copy, .cmux 66 1 0, .none, .none, .none, .none, .none, .none,
    .copy, .cmux 34 3 1, .copy, .none, .none, .none, .none, .none, .none, .none,
    .cmux 67 1 2, .cmux 67 0 1, .cmux 67 1 0, .cmux 67 2 1, .none, .none, .none, .none, .none, .none,
    .cmux 35 2 3, .cmux 35 0 1, .none, .none, .none, .none, .none, .none, .none, .none,
    .cmux 2 1 0, .none, .none, .none, .none, .none, .none, .none, .none, .none]

def b6 : BitCircuit where
  maxInterState := 10
  nodes := [
    .cmux 74 1 0, .cmux 10 0 1, .cmux 106 0 1, .cmux 74 0 1, .cmux 106 1 0, .cmux 10 1 0, .none, .none, .none, .none,
    .copy, .cmux 74 2 4, .cmux 73 3 0, .cmux 10 2 4, .cmux 9 1 5, .copy, .cmux 74 4 2, .cmux 10 4 2, .none, .none,
    .copy, .copy, .cmux 72 2 0, .copy, .cmux 105 7 3, .copy, .copy, .copy, .cmux 105 6 1, .cmux 8 4 5,
    .copy, .cmux 71 2 0, .cmux 73 8 1, .cmux 7 9 5, .cmux 9 4 3, .copy, .cmux 9 7 4, .cmux 73 6 8, .none, .none,
    .cmux 104 7 2, .cmux 70 1 0, .copy, .cmux 6 3 5, .copy, .cmux 104 6 4, .copy, .copy, .none, .none,
    .cmux 72 7 0, .copy, .cmux 8 5 4, .cmux 0 3 1, .cmux 8 6 5, .cmux 72 0 2, .none, .none, .none, .none,
    .copy, .copy, .copy, .cmux 103 0 5, .copy, .copy, .cmux 103 4 2, .cmux 1 3 1, .none, .none,
    .cmux 7 4 6, .cmux 2 7 1, .cmux 71 0 3, .cmux 71 3 5, .cmux 7 6 2, .none, .none, .none, .none, .none,
    .copy, .copy, .copy, .copy, .copy, .cmux 102 0 4, .cmux 102 2 3, .none, .none, .none,
    .cmux 6 5 4, .copy, .cmux 6 0 5, .cmux 70 6 3, .cmux 70 2 6, .none, .none, .none, .none, .none,
    .copy, .copy, .copy, .copy, .copy, .cmux 101 2 0, .cmux 101 4 3, .none, .none, .none,
    .cmux 69 6 3, .copy, .cmux 5 2 5, .cmux 5 5 0, .cmux 69 4 6, .none, .none, .none, .none, .none,
    .copy, .copy, .cmux 100 2 3, .copy, .cmux 100 4 0, .none, .none, .none, .none, .none,
    .cmux 68 4 0, .copy, .cmux 4 2 3, .none, .none, .none, .none, .none, .none, .none,
    .copy, .copy, .cmux 0 2 0, .none, .none, .none, .none, .none, .none, .none,
    .copy, .copy, .cmux 1 2 0, .none, .none, .none, .none, .none, .none, .none,
    .cmux 2 2 0, .copy, .none, .none, .none, .none, .none, .none, .none, .none,
    .copy, .copy, .cmux 0 0 1, .cmux 0 1 0, .cmux 1 0 1, .none, .none, .none, .none, .none,
    .cmux 1 2 1, .cmux 1 2 3, .cmux 1 0 3, .none, .copy, .none, .none, .none, .none, .none,
    .cmux 2 4 2, .cmux 2 2 4, .cmux 2 0 1, .cmux 2 1 0, .none, .none, .none, .none, .none, .none,
    .cmux 3 0 2, .cmux 3 3 1, .cmux 3 1 3, .none, .none, .none, .none, .none, .none, .none,
    .cmux 36 0 2, .copy, .copy, .cmux 36 1 0, .none, .none, .none, .none, .none, .none,
    .cmux 4 0 3, .copy, .copy, .none, .none, .none, .none, .none, .none, .none,
    .cmux 37 1 0, .copy, .copy, .cmux 37 0 2, .none, .none, .none, .none, .none, .none,
    .cmux 5 3 0, .copy, .copy, .none, .none, .none, .none, .none, .none, .none,
    .cmux 38 1 0, .copy, .copy, .cmux 38 0 2, .none, .none, .none, .none, .none, .none,
    .cmux 6 3 0, .copy, .copy, .none, .none, .none, .none, .none, .none, .none,
    .cmux 39 0 2, .copy, .copy, .cmux 39 1 0, .none, .none, .none, .none, .none, .none,
    .cmux 7 0 3, .copy, .copy, .none, .none, .none, .none, .none, .none, .none,
    .cmux 40 1 0, .copy, .copy, .cmux 40 0 2, .none, .none, .none, .none, .none, .none,
    .cmux 8 3 0, .copy, .copy, .none, .none, .none, .none, .none, .none, .none,
    .cmux 41 1 0, .copy, .copy, .cmux 41 0 2, .none, .none, .none, .none, .none, .none,
    .cmux 9 3 0, .copy, .copy, .none, .none, .none, .none, .none, .none, .none,
    .cmux 42 1 0, .copy, .copy, .cmux 42 0 2, .none, .none, .none, .none, .none, .none,
    .cmux 10 3 0, .copy, .copy, .none, .none, .none, .none, .none, .none, .none,
    .cmux 43 0 2, .copy, .copy, .cmux 43 1 0, .none, .none, .none, .none, .none, .none,
    .cmux 11 0 3, .copy, .copy, .none, .none, .none, .none, .none, .none, .none,
    .cmux 44 0 2, .copy, .copy, .cmux 44 1 0, .none, .none, .none, .none, .none, .none,
    .cmux 12 0 3, .copy, .copy, .none, .none, .none, .none, .none, .none, .none,
    .cmux 45 0 2, .copy, .copy, .cmux 45 1 0, .none, .none, .none, .none, .none, .none,
    .cmux 13 0 3, .copy, .copy, .none, .none, .none, .none, .none, .none, .none,
    .cmux 46 1 0, .copy, .copy, .cmux 46 0 2, .none, .none, .none, .none, .none, .none,
    .cmux 14 3 0, .copy, .copy, .none, .none, .none, .none, .none, .none, .none,
    .cmux 47 1 0, .copy, .copy, .cmux 47 0 2, .none, .none, .none, .none, .none, .none,
    .cmux 15 3 0, .copy, .copy, .none, .none, .none, .none, .none, .none, .none,
    .cmux 48 0 2, .copy, .copy, .cmux 48 1 0, .none, .none, .none, .none, .none, .none,
    .cmux 16 0 3, .copy, .copy, .none, .none, .none, .none, .none, .none, .none,
    .cmux 49 1 0, .copy, .copy, .cmux 49 0 2, .none, .none, .none, .none, .none, .none,
    .cmux 17 3 0, .copy, .copy, .none, .none, .none, .none, .none, .none, .none,
    .cmux 50 0 2, .copy, .copy, .cmux 50 1 0, .none, .none, .none, .none, .none, .none,
    .cmux 18 0 3, .copy, .copy, .none, .none, .none, .none, .none, .none, .none,
    .cmux 51 1 0, .copy, .copy, .cmux 51 0 2, .none, .none, .none, .none, .none, .none,
    .cmux 19 3 0, .copy, .copy, .none, .none, .none, .none, .none, .none, .none,
    .cmux 52 1 0, .copy, .copy, .cmux 52 0 2, .none, .none, .none, .none, .none, .none,
    .cmux 20 3 0, .copy, .copy, .none, .none, .none, .none, .none, .none, .none,
    .cmux 53 0 2, .copy, .copy, .cmux 53 1 0, .none, .none, .none, .none, .none, .none,
    .cmux 21 0 3, .copy, .copy, .none, .none, .none, .none, .none, .none, .none,
    .cmux 54 0 2, .copy, .copy, .cmux 54 1 0, .none, .none, .none, .none, .none, .none,
    .cmux 22 0 3, .copy, .copy, .none, .none, .none, .none, .none, .none, .none,
    .cmux 55 1 0, .copy, .copy, .cmux 55 0 2, .none, .none, .none, .none, .none, .none,
    .cmux 23 3 0, .copy, .copy, .none, .none, .none, .none, .none, .none, .none,
    .cmux 56 1 0, .copy, .copy, .cmux 56 0 2, .none, .none, .none, .none, .none, .none,
    .cmux 24 3 0, .copy, .copy, .none, .none, .none, .none, .none, .none, .none,
    .cmux 57 1 0, .copy, .copy, .cmux 57 0 2, .none, .none, .none, .none, .none, .none,
    .cmux 25 3 0, .copy, .copy, .none, .none, .none, .none, .none, .none, .none,
    .cmux 58 1 0, .copy, .copy, .cmux 58 0 2, .none, .none, .none, .none, .none, .none,
    .cmux 26 3 0, .copy, .copy, .none, .none, .none, .none, .none, .none, .none,
    .cmux 59 1 0, .copy, .copy, .cmux 59 0 2, .none, .none, .none, .none, .none, .none,
    .cmux 27 3 0, .copy, .copy, .none, .none, .none, .none, .none, .none, .none,
    .cmux 60 0 2, .copy, .copy, .cmux 60 1 0, .none, .none, .none, .none, .none, .none,
    .cmux 28 0 3, .copy, .copy, .none, .none, .none, .none, .none, .none, .none,
    .cmux 61 1 0, .copy, .copy, .cmux 61 0 2, .none, .none, .none, .none, .none, .none,
    .cmux 29 3 0, .copy, .copy, .none, .none, .none, .none, .none, .none, .none,
    .cmux 62 0 2, .copy, .copy, .cmux 62 1 0, .none, .none, .none, .none, .none, .none,
    .cmux 30 0 3, .copy, .copy, .none, .none, .none, .none, .none, .none, .none,
    .cmux 63 0 2, .copy, .copy, .cmux 63 1 0, .none, .none, .none, .none, .none, .none,
    .cmux 31 0 3, .copy, .copy, .none, .none, .none, .none, .none, .none, .none,
    .cmux 64 1 0, .copy, .copy, .cmux 64 0 2, .none, .none, .none, .none, .none, .none,
    .cmux 32 3 0, .copy, .copy, .none, .none, .none, .none, .none, .none, .none,
    .cmux 65 0 2, .copy, .copy, .cmux 65 1 0, .none, .none, .none, .none, .none, .none,
    .cmux 33 0 3, .copy, .copy, .none, .none, .none, .none, .none, .none, .none,
    .cmux 66 1 0, .copy, .copy, .cmux 66 0 2, .none, .none, .none, .none, .none, .none,
    .cmux 34 3 0, .copy, .copy, .none, .none, .none, .none, .none, .none, .none,
    .cmux 67 2 0, .cmux 67 0 1, .cmux 67 0 2, .cmux 67 1 0, .none, .none, .none, .none, .none, .none,
    .cmux 35 1 0, .cmux 35 2 3, .none, .none, .none, .none, .none, .none, .none, .none,
    .cmux 2 0 1, .none, .none, .none, .none, .none, .none, .none, .none, .none]

def b7 : BitCircuit where
  maxInterState := 10
  nodes := [
    .cmux 11 1 0, .cmux 75 0 1, .cmux 75 1 0, .cmux 107 1 0, .cmux 11 0 1, .cmux 107 0 1, .none, .none, .none, .none,
    .copy, .cmux 75 5 3, .copy, .cmux 74 1 2, .cmux 11 3 5, .cmux 11 5 3, .cmux 10 4 0, .cmux 75 3 5, .none, .none,
    .copy, .copy, .copy, .cmux 73 3 2, .copy, .copy, .cmux 9 6 0, .copy, .cmux 106 4 5, .cmux 106 7 1,
    .copy, .cmux 74 7 9, .copy, .cmux 10 8 5, .cmux 74 9 1, .cmux 10 4 8, .cmux 72 3 2, .cmux 8 6 0, .none, .none,
    .copy, .copy, .copy, .copy, .copy, .copy, .cmux 105 5 3, .cmux 71 6 2, .cmux 105 1 4, .cmux 7 7 0,
    .cmux 73 8 4, .cmux 73 1 8, .cmux 70 7 2, .cmux 9 5 6, .cmux 9 6 3, .cmux 6 9 0, .none, .none, .none, .none,
    .copy, .copy, .copy, .copy, .copy, .cmux 0 5 2, .cmux 104 1 0, .cmux 104 3 4, .none, .none,
    .cmux 1 5 2, .cmux 72 1 6, .copy, .cmux 8 7 4, .cmux 8 3 7, .cmux 72 6 0, .none, .none, .none, .none,
    .cmux 103 1 5, .copy, .cmux 103 4 3, .copy, .copy, .copy, .cmux 2 0 2, .none, .none, .none,
    .cmux 7 4 2, .cmux 71 0 5, .cmux 71 1 0, .cmux 7 2 3, .none, .none, .copy, .none, .none, .none,
    .copy, .copy, .copy, .copy, .cmux 102 2 1, .cmux 102 0 3, .copy, .none, .none, .none,
    .cmux 6 5 3, .cmux 6 0 5, .cmux 70 2 4, .cmux 70 4 1, .none, .none, .copy, .none, .none, .none,
    .copy, .copy, .copy, .copy, .cmux 101 2 3, .cmux 101 1 0, .copy, .none, .none, .none,
    .cmux 5 1 5, .cmux 69 4 3, .cmux 5 5 0, .cmux 69 2 4, .none, .none, .copy, .none, .none, .none,
    .cmux 100 3 1, .copy, .copy, .cmux 100 0 2, .none, .none, .copy, .none, .none, .none,
    .cmux 68 0 1, .cmux 4 3 2, .none, .none, .none, .none, .copy, .none, .none, .none,
    .copy, .cmux 0 1 0, .none, .none, .none, .none, .copy, .none, .none, .none,
    .copy, .cmux 1 1 0, .none, .none, .none, .none, .copy, .none, .none, .none,
    .cmux 2 1 0, .none, .none, .none, .none, .none, .copy, .none, .none, .none,
    .copy, .cmux 0 0 6, .cmux 0 6 0, .cmux 1 0 6, .none, .none, .copy, .none, .none, .none,
    .cmux 1 1 6, .cmux 1 0 2, .cmux 1 1 2, .copy, .none, .none, .none, .none, .none, .none,
    .cmux 2 3 1, .cmux 2 1 3, .cmux 2 0 2, .cmux 2 2 0, .none, .none, .none, .none, .none, .none,
    .cmux 3 0 2, .cmux 3 1 3, .cmux 3 3 1, .none, .none, .none, .none, .none, .none, .none,
    .cmux 36 0 1, .copy, .copy, .cmux 36 2 0, .none, .none, .none, .none, .none, .none,
    .cmux 4 0 3, .copy, .copy, .none, .none, .none, .none, .none, .none, .none,
    .cmux 37 2 0, .copy, .copy, .cmux 37 0 1, .none, .none, .none, .none, .none, .none,
    .cmux 5 3 0, .copy, .copy, .none, .none, .none, .none, .none, .none, .none,
    .cmux 38 0 1, .copy, .copy, .cmux 38 2 0, .none, .none, .none, .none, .none, .none,
    .cmux 6 0 3, .copy, .copy, .none, .none, .none, .none, .none, .none, .none,
    .cmux 39 2 0, .copy, .copy, .cmux 39 0 1, .none, .none, .none, .none, .none, .none,
    .cmux 7 3 0, .copy, .copy, .none, .none, .none, .none, .none, .none, .none,
    .cmux 40 0 1, .copy, .copy, .cmux 40 2 0, .none, .none, .none, .none, .none, .none,
    .cmux 8 0 3, .copy, .copy, .none, .none, .none, .none, .none, .none, .none,
    .cmux 41 2 0, .copy, .copy, .cmux 41 0 1, .none, .none, .none, .none, .none, .none,
    .cmux 9 3 0, .copy, .copy, .none, .none, .none, .none, .none, .none, .none,
    .cmux 42 2 0, .copy, .copy, .cmux 42 0 1, .none, .none, .none, .none, .none, .none,
    .cmux 10 3 0, .copy, .copy, .none, .none, .none, .none, .none, .none, .none,
    .cmux 43 0 1, .copy, .copy, .cmux 43 2 0, .none, .none, .none, .none, .none, .none,
    .cmux 11 0 3, .copy, .copy, .none, .none, .none, .none, .none, .none, .none,
    .cmux 44 2 0, .copy, .copy, .cmux 44 0 1, .none, .none, .none, .none, .none, .none,
    .cmux 12 3 0, .copy, .copy, .none, .none, .none, .none, .none, .none, .none,
    .cmux 45 0 1, .copy, .copy, .cmux 45 2 0, .none, .none, .none, .none, .none, .none,
    .cmux 13 0 3, .copy, .copy, .none, .none, .none, .none, .none, .none, .none,
    .cmux 46 2 0, .copy, .copy, .cmux 46 0 1, .none, .none, .none, .none, .none, .none,
    .cmux 14 3 0, .copy, .copy, .none, .none, .none, .none, .none, .none, .none,
    .cmux 47 0 1, .copy, .copy, .cmux 47 2 0, .none, .none, .none, .none, .none, .none,
    .cmux 15 0 3, .copy, .copy, .none, .none, .none, .none, .none, .none, .none,
    .cmux 48 0 1, .copy, .copy, .cmux 48 2 0, .none, .none, .none, .none, .none, .none,
    .cmux 16 0 3, .copy, .copy, .none, .none, .none, .none, .none, .none, .none,
    .cmux 49 2 0, .copy, .copy, .cmux 49 0 1, .none, .none, .none, .none, .none, .none,
    .cmux 17 3 0, .copy, .copy, .none, .none, .none, .none, .none, .none, .none,
    .cmux 50 2 0, .copy, .copy, .cmux 50 0 1, .none, .none, .none, .none, .none, .none,
    .cmux 18 3 0, .copy, .copy, .none, .none, .none, .none, .none, .none, .none,
    .cmux 51 2 0, .copy, .copy, .cmux 51 0 1, .none, .none, .none, .none, .none, .none,
    .cmux 19 3 0, .copy, .copy, .none, .none, .none, .none, .none, .none, .none,
    .cmux 52 2 0, .copy, .copy, .cmux 52 0 1, .none, .none, .none, .none, .none, .none,
    .cmux 20 3 0, .copy, .copy, .none, .none, .none, .none, .none, .none, .none,
    .cmux 53 0 1, .copy, .copy, .cmux 53 2 0, .none, .none, .none, .none, .none, .none,
    .cmux 21 0 3, .copy, .copy, .none, .none, .none, .none, .none, .none, .none,
    .cmux 54 2 0, .copy, .copy, .cmux 54 0 1, .none, .none, .none, .none, .none, .none,
    .cmux 22 3 0, .copy, .copy, .none, .none, .none, .none, .none, .none, .none,
    .cmux 55 2 0, .copy, .copy, .cmux 55 0 1, .none, .none, .none, .none, .none, .none,
    .cmux 23 3 0, .copy, .copy, .none, .none, .none, .none, .none, .none, .none,
    .cmux 56 0 1, .copy, .copy, .cmux 56 2 0, .none, .none, .none, .none, .none, .none,
    .cmux 24 0 3, .copy, .copy, .none, .none, .none, .none, .none, .none, .none,
    .cmux 57 2 0, .copy, .copy, .cmux 57 0 1, .none, .none, .none, .none, .none, .none,
    .cmux 25 3 0, .copy, .copy, .none, .none, .none, .none, .none, .none, .none,
    .cmux 58 0 1, .copy, .copy, .cmux 58 2 0, .none, .none, .none, .none, .none, .none,
    .cmux 26 0 3, .copy, .copy, .none, .none, .none, .none, .none, .none, .none,
    .cmux 59 0 1, .copy, .copy, .cmux 59 2 0, .none, .none, .none, .none, .none, .none,
    .cmux 27 0 3, .copy, .copy, .none, .none, .none, .none, .none, .none, .none,
    .cmux 60 2 0, .copy, .copy, .cmux 60 0 1, .none, .none, .none, .none, .none, .none,
    .cmux 28 3 0, .copy, .copy, .none, .none, .none, .none, .none, .none, .none,
    .cmux 61 2 0, .copy, .copy, .cmux 61 0 1, .none, .none, .none, .none, .none, .none,
    .cmux 29 3 0, .copy, .copy, .none, .none, .none, .none, .none, .none, .none,
    .cmux 62 2 0, .copy, .copy, .cmux 62 0 1, .none, .none, .none, .none, .none, .none,
    .cmux 30 3 0, .copy, .copy, .none, .none, .none, .none, .none, .none, .none,
    .cmux 63 2 0, .copy, .copy, .cmux 63 0 1, .none, .none, .none, .none, .none, .none,
    .cmux 31 3 0, .copy, .copy, .none, .none, .none, .none, .none, .none, .none,
    .cmux 64 0 1, .copy, .copy, .cmux 64 2 0, .none, .none, .none, .none, .none, .none,
    .cmux 32 0 3, .copy, .copy, .none, .none, .none, .none, .none, .none, .none,
    .cmux 65 0 1, .copy, .copy, .cmux 65 2 0, .none, .none, .none, .none, .none, .none,
    .cmux 33 0 3, .copy, .copy, .none, .none, .none, .none, .none, .none, .none,
    .cmux 66 0 1, .copy, .copy, .cmux 66 2 0, .none, .none, .none, .none, .none, .none,
    .cmux 34 0 3, .copy, .copy, .none, .none, .none, .none, .none, .none, .none,
    .cmux 67 2 0, .cmux 67 1 0, .cmux 67 0 1, .cmux 67 0 2, .none, .none, .none, .none, .none, .none,
    .cmux 35 2 0, .cmux 35 3 1, .none, .none, .none, .none, .none, .none, .none, .none,
    .cmux 2 1 0, .none, .none, .none, .none, .none, .none, .none, .none, .none]

def b8 : BitCircuit where
  maxInterState := 10
  nodes := [
    .cmux 76 0 1, .cmux 108 0 1, .cmux 12 1 0, .cmux 108 1 0, .cmux 76 1 0, .cmux 12 0 1, .none, .none, .none, .none,
    .cmux 12 3 1, .cmux 76 3 1, .copy, .cmux 75 0 4, .copy, .cmux 76 1 3, .cmux 11 5 2, .cmux 12 1 3, .none, .none,
    .copy, .copy, .copy, .cmux 107 1 5, .copy, .copy, .cmux 107 0 7, .copy, .cmux 10 6 2, .cmux 74 3 4,
    .cmux 11 0 6, .cmux 11 6 7, .copy, .cmux 73 9 4, .copy, .cmux 75 1 3, .cmux 9 8 2, .cmux 75 3 5, .none, .none,
    .copy, .copy, .copy, .cmux 8 6 2, .copy, .copy, .cmux 106 0 1, .copy, .cmux 72 3 4, .cmux 106 5 7,
    .cmux 74 5 9, .cmux 10 6 1, .copy, .cmux 71 8 4, .copy, .cmux 7 3 2, .cmux 74 9 7, .cmux 10 0 6, .none, .none,
    .copy, .copy, .cmux 6 5 2, .cmux 70 3 4, .cmux 105 7 1, .cmux 105 0 6, .copy, .copy, .none, .none,
    .cmux 9 4 1, .cmux 9 7 4, .cmux 73 5 6, .copy, .cmux 0 2 3, .cmux 73 0 5, .none, .none, .none, .none,
    .copy, .copy, .copy, .copy, .cmux 1 4 3, .copy, .cmux 104 1 0, .cmux 104 5 2, .none, .none,
    .cmux 2 4 3, .cmux 72 7 2, .cmux 8 6 0, .cmux 8 1 6, .cmux 72 5 7, .none, .none, .none, .none, .none,
    .copy, .copy, .copy, .copy, .copy, .cmux 103 4 1, .cmux 103 3 2, .none, .none, .none,
    .copy, .cmux 71 4 5, .cmux 7 6 2, .cmux 7 3 6, .cmux 71 5 1, .none, .none, .none, .none, .none,
    .copy, .copy, .copy, .copy, .copy, .cmux 102 1 4, .cmux 102 3 2, .none, .none, .none,
    .copy, .cmux 6 6 2, .cmux 70 5 4, .cmux 70 1 5, .cmux 6 3 6, .none, .none, .none, .none, .none,
    .copy, .copy, .copy, .copy, .copy, .cmux 101 4 1, .cmux 101 3 2, .none, .none, .none,
    .copy, .cmux 69 3 6, .cmux 5 4 5, .cmux 5 5 1, .cmux 69 6 2, .none, .none, .none, .none, .none,
    .copy, .cmux 100 1 4, .cmux 100 2 3, .copy, .copy, .none, .none, .none, .none, .none,
    .copy, .cmux 4 2 3, .cmux 68 1 4, .none, .none, .none, .none, .none, .none, .none,
    .copy, .cmux 0 1 2, .copy, .none, .none, .none, .none, .none, .none, .none,
    .copy, .cmux 1 1 2, .copy, .none, .none, .none, .none, .none, .none, .none,
    .copy, .cmux 2 1 2, .none, .none, .none, .none, .none, .none, .none, .none,
    .copy, .copy, .cmux 0 0 1, .cmux 1 1 0, .cmux 0 1 0, .none, .none, .none, .none, .none,
    .cmux 1 1 2, .cmux 1 4 2, .cmux 1 4 0, .copy, .none, .none, .none, .none, .none, .none,
    .cmux 2 2 1, .cmux 2 1 2, .cmux 2 3 0, .cmux 2 0 3, .none, .none, .none, .none, .none, .none,
    .cmux 3 2 0, .cmux 3 1 3, .cmux 3 3 1, .none, .none, .none, .none, .none, .none, .none,
    .cmux 36 1 0, .copy, .copy, .cmux 36 0 2, .none, .none, .none, .none, .none, .none,
    .cmux 4 3 0, .copy, .copy, .none, .none, .none, .none, .none, .none, .none,
    .cmux 37 0 2, .copy, .copy, .cmux 37 1 0, .none, .none, .none, .none, .none, .none,
    .cmux 5 0 3, .copy, .copy, .none, .none, .none, .none, .none, .none, .none,
    .cmux 38 0 2, .copy, .copy, .cmux 38 1 0, .none, .none, .none, .none, .none, .none,
    .cmux 6 0 3, .copy, .copy, .none, .none, .none, .none, .none, .none, .none,
    .cmux 39 1 0, .copy, .copy, .cmux 39 0 2, .none, .none, .none, .none, .none, .none,
    .cmux 7 3 0, .copy, .copy, .none, .none, .none, .none, .none, .none, .none,
    .cmux 40 0 2, .copy, .copy, .cmux 40 1 0, .none, .none, .none, .none, .none, .none,
    .cmux 8 0 3, .copy, .copy, .none, .none, .none, .none, .none, .none, .none,
    .cmux 41 0 2, .copy, .copy, .cmux 41 1 0, .none, .none, .none, .none, .none, .none,
    .cmux 9 0 3, .copy, .copy, .none, .none, .none, .none, .none, .none, .none,
    .cmux 42 1 0, .copy, .copy, .cmux 42 0 2, .none, .none, .none, .none, .none, .none,
    .cmux 10 3 0, .copy, .copy, .none, .none, .none, .none, .none, .none, .none,
    .cmux 43 1 0, .copy, .copy, .cmux 43 0 2, .none, .none, .none, .none, .none, .none,
    .cmux 11 3 0, .copy, .copy, .none, .none, .none, .none, .none, .none, .none,
    .cmux 44 0 2, .copy, .copy, .cmux 44 1 0, .none, .none, .none, .none, .none, .none,
    .cmux 12 0 3, .copy, .copy, .none, .none, .none, .none, .none, .none, .none,
    .cmux 45 1 0, .copy, .copy, .cmux 45 0 2, .none, .none, .none, .none, .none, .none,
    .cmux 13 3 0, .copy, .copy, .none, .none, .none, .none, .none, .none, .none,
    .cmux 46 1 0, .copy, .copy, .cmux 46 0 2, .none, .none, .none, .none, .none, .none,
    .cmux 14 3 0, .copy, .copy, .none, .none, .none, .none, .none, .none, .none,
    .cmux 47 0 2, .copy, .copy, .cmux 47 1 0, .none, .none, .none, .none, .none, .none,
    .cmux 15 0 3, .copy, .copy, .none, .none, .none, .none, .none, .none, .none,
    .cmux 48 1 0, .copy, .copy, .cmux 48 0 2, .none, .none, .none, .none, .none, .none,
    .cmux 16 3 0, .copy, .copy, .none, .none, .none, .none, .none, .none, .none,
    .cmux 49 1 0, .copy, .copy, .cmux 49 0 2, .none, .none, .none, .none, .none, .none,
    .cmux 17 3 0, .copy, .copy, .none, .none, .none, .none, .none, .none, .none,
    .cmux 50 1 0, .copy, .copy, .cmux 50 0 2, .none, .none, .none, .none, .none, .none,
    .cmux 18 3 0, .copy, .copy, .none, .none, .none, .none, .none, .none, .none,
    .cmux 51 0 2, .copy, .copy, .cmux 51 1 0, .none, .none, .none, .none, .none, .none,
    .cmux 19 0 3, .copy, .copy, .none, .none, .none, .none, .none, .none, .none,
    .cmux 52 0 2, .copy, .copy, .cmux 52 1 0, .none, .none, .none, .none, .none, .none,
    .cmux 20 0 3, .copy, .copy, .none, .none, .none, .none, .none, .none, .none,
    .cmux 53 1 0, .copy, .copy, .cmux 53 0 2, .none, .none, .none, .none, .none, .none,
    .cmux 21 3 0, .copy, .copy, .none, .none, .none, .none, .none, .none, .none,
    .cmux 54 0 2, .copy, .copy, .cmux 54 1 0, .none, .none, .none, .none, .none, .none,
    .cmux 22 0 3, .copy, .copy, .none, .none, .none, .none, .none, .none, .none,
    .cmux 55 1 0, .copy, .copy, .cmux 55 0 2, .none, .none, .none, .none, .none, .none,
    .cmux 23 3 0, .copy, .copy, .none, .none, .none, .none, .none, .none, .none,
    .cmux 56 0 2, .copy, .copy, .cmux 56 1 0, .none, .none, .none, .none, .none, .none,
    .cmux 24 0 3, .copy, .copy, .none, .none, .none, .none, .none, .none, .none,
    .cmux 57 1 0, .copy, .copy, .cmux 57 0 2, .none, .none, .none, .none, .none, .none,
    .cmux 25 3 0, .copy, .copy, .none, .none, .none, .none, .none, .none, .none,
    .cmux 58 0 2, .copy, .copy, .cmux 58 1 0, .none, .none, .none, .none, .none, .none,
    .cmux 26 0 3, .copy, .copy, .none, .none, .none, .none, .none, .none, .none,
    .cmux 59 1 0, .copy, .copy, .cmux 59 0 2, .none, .none, .none, .none, .none, .none,
    .cmux 27 3 0, .copy, .copy, .none, .none, .none, .none, .none, .none, .none,
    .cmux 60 0 2, .copy, .copy, .cmux 60 1 0, .none, .none, .none, .none, .none, .none,
    .cmux 28 0 3, .copy, .copy, .none, .none, .none, .none, .none, .none, .none,
    .cmux 61 0 2, .copy, .copy, .cmux 61 1 0, .none, .none, .none, .none, .none, .none,
    .cmux 29 0 3, .copy, .copy, .none, .none, .none, .none, .none, .none, .none,
    .cmux 62 0 2, .copy, .copy, .cmux 62 1 0, .none, .none, .none, .none, .none, .none,
    .cmux 30 0 3, .copy, .copy, .none, .none, .none, .none, .none, .none, .none,
    .cmux 63 0 2, .copy, .copy, .cmux 63 1 0, .none, .none, .none, .none, .none, .none,
    .cmux 31 0 3, .copy, .copy, .none, .none, .none, .none, .none, .none, .none,
    .cmux 64 1 0, .copy, .copy, .cmux 64 0 2, .none, .none, .none, .none, .none, .none,
    .cmux 32 3 0, .copy, .copy, .none, .none, .none, .none, .none, .none, .none,
    .cmux 65 0 2, .copy, .copy, .cmux 65 1 0, .none, .none, .none, .none, .none, .none,
    .cmux 33 0 3, .copy, .copy, .none, .none, .none, .none, .none, .none, .none,
    .cmux 66 0 2, .copy, .copy, .cmux 66 1 0, .none, .none, .none, .none, .none, .none,
    .cmux 34 0 3, .copy, .copy, .none, .none, .none, .none, .none, .none, .none,
    .cmux 67 0 2, .cmux 67 0 1, .cmux 67 2 0, .cmux 67 1 0, .none, .none, .none, .none, .none, .none,
    .cmux 35 1 2, .cmux 35 0 3, .none, .none, .none, .none, .none, .none, .none, .none,
    .cmux 2 0 1, .none, .none, .none, .none, .none, .none, .none, .none, .none]

def b9 : BitCircuit where
  maxInterState := 10
  nodes := [
    .cmux 109 0 1, .cmux 13 0 1, .cmux 77 1 0, .cmux 109 1 0, .cmux 77 0 1, .cmux 13 1 0, .none, .none, .none, .none,
    .cmux 77 0 3, .cmux 77 3 0, .copy, .cmux 12 1 5, .cmux 76 4 2, .copy, .cmux 13 0 3, .cmux 13 3 0, .none, .none,
    .copy, .copy, .copy, .cmux 108 7 6, .cmux 11 3 5, .copy, .copy, .copy, .cmux 75 4 2, .cmux 108 1 0,
    .cmux 74 8 2, .cmux 10 4 5, .copy, .cmux 12 7 3, .cmux 12 3 6, .copy, .cmux 76 9 0, .cmux 76 1 9, .none, .none,
    .cmux 9 1 5, .cmux 107 3 4, .copy, .copy, .copy, .copy, .copy, .copy, .cmux 107 7 6, .cmux 73 0 2,
    .cmux 8 0 5, .cmux 72 9 2, .copy, .cmux 11 1 4, .cmux 75 8 6, .copy, .cmux 75 7 8, .cmux 11 3 1, .none, .none,
    .cmux 7 0 5, .cmux 106 7 3, .copy, .copy, .copy, .copy, .copy, .copy, .cmux 71 1 2, .cmux 106 6 4,
    .cmux 74 9 4, .cmux 6 0 5, .cmux 70 8 2, .cmux 74 6 9, .cmux 10 1 3, .cmux 10 7 1, .none, .none, .none, .none,
    .copy, .cmux 0 1 2, .copy, .copy, .copy, .copy, .cmux 105 5 4, .cmux 105 3 0, .none, .none,
    .cmux 1 1 2, .cmux 73 7 0, .copy, .cmux 73 3 7, .cmux 9 5 6, .cmux 9 6 4, .none, .none, .none, .none,
    .cmux 2 0 2, .copy, .cmux 104 4 5, .copy, .copy, .copy, .cmux 104 3 1, .none, .none, .none,
    .copy, .cmux 72 6 1, .cmux 72 3 6, .cmux 8 4 2, .cmux 8 2 5, .none, .none, .none, .none, .none,
    .copy, .copy, .copy, .copy, .copy, .cmux 103 3 4, .cmux 103 2 1, .none, .none, .none,
    .copy, .cmux 7 3 5, .cmux 71 6 1, .cmux 7 5 4, .cmux 71 2 6, .none, .none, .none, .none, .none,
    .copy, .copy, .copy, .copy, .copy, .cmux 102 4 2, .cmux 102 1 3, .none, .none, .none,
    .copy, .cmux 70 4 5, .cmux 6 1 6, .cmux 6 6 3, .cmux 70 5 2, .none, .none, .none, .none, .none,
    .copy, .copy, .copy, .copy, .copy, .cmux 101 1 4, .cmux 101 2 3, .none, .none, .none,
    .copy, .cmux 69 5 4, .cmux 69 1 5, .cmux 5 6 3, .cmux 5 2 6, .none, .none, .none, .none, .none,
    .copy, .copy, .cmux 100 4 3, .copy, .cmux 100 2 1, .none, .none, .none, .none, .none,
    .copy, .cmux 4 2 3, .cmux 68 4 1, .none, .none, .none, .none, .none, .none, .none,
    .copy, .cmux 0 1 2, .copy, .none, .none, .none, .none, .none, .none, .none,
    .copy, .cmux 1 1 2, .copy, .none, .none, .none, .none, .none, .none, .none,
    .copy, .cmux 2 1 2, .none, .none, .none, .none, .none, .none, .none, .none,
    .copy, .copy, .cmux 0 1 0, .cmux 1 1 0, .cmux 0 0 1, .none, .none, .none, .none, .none,
    .cmux 1 2 0, .cmux 1 1 4, .cmux 1 2 4, .copy, .none, .none, .none, .none, .none, .none,
    .cmux 2 3 1, .cmux 2 2 0, .cmux 2 1 3, .cmux 2 0 2, .none, .none, .none, .none, .none, .none,
    .cmux 3 2 1, .cmux 3 1 2, .cmux 3 0 3, .none, .none, .none, .none, .none, .none, .none,
    .copy, .copy, .cmux 36 2 0, .cmux 36 1 2, .none, .none, .none, .none, .none, .none,
    .copy, .copy, .cmux 4 2 3, .none, .none, .none, .none, .none, .none, .none,
    .copy, .copy, .cmux 37 2 0, .cmux 37 1 2, .none, .none, .none, .none, .none, .none,
    .copy, .copy, .cmux 5 2 3, .none, .none, .none, .none, .none, .none, .none,
    .copy, .copy, .cmux 38 2 0, .cmux 38 1 2, .none, .none, .none, .none, .none, .none,
    .copy, .copy, .cmux 6 2 3, .none, .none, .none, .none, .none, .none, .none,
    .copy, .copy, .cmux 39 2 0, .cmux 39 1 2, .none, .none, .none, .none, .none, .none,
    .copy, .copy, .cmux 7 2 3, .none, .none, .none, .none, .none, .none, .none,
    .copy, .copy, .cmux 40 2 0, .cmux 40 1 2, .none, .none, .none, .none, .none, .none,
    .copy, .copy, .cmux 8 2 3, .none, .none, .none, .none, .none, .none, .none,
    .copy, .copy, .cmux 41 1 2, .cmux 41 2 0, .none, .none, .none, .none, .none, .none,
    .copy, .copy, .cmux 9 3 2, .none, .none, .none, .none, .none, .none, .none,
    .copy, .copy, .cmux 42 2 0, .cmux 42 1 2, .none, .none, .none, .none, .none, .none,
    .copy, .copy, .cmux 10 2 3, .none, .none, .none, .none, .none, .none, .none,
    .copy, .copy, .cmux 43 1 2, .cmux 43 2 0, .none, .none, .none, .none, .none, .none,
    .copy, .copy, .cmux 11 3 2, .none, .none, .none, .none, .none, .none, .none,
    .copy, .copy, .cmux 44 1 2, .cmux 44 2 0, .none, .none, .none, .none, .none, .none,
    .copy, .copy, .cmux 12 3 2, .none, .none, .none, .none, .none, .none, .none,
    .copy, .copy, .cmux 45 1 2, .cmux 45 2 0, .none, .none, .none, .none, .none, .none,
    .copy, .copy, .cmux 13 3 2, .none, .none, .none, .none, .none, .none, .none,
    .copy, .copy, .cmux 46 1 2, .cmux 46 2 0, .none, .none, .none, .none, .none, .none,
    .copy, .copy, .cmux 14 3 2, .none, .none, .none, .none, .none, .none, .none,
    .copy, .copy, .cmux 47 1 2, .cmux 47 2 0, .none, .none, .none, .none, .none, .none,
    .copy, .copy, .cmux 15 3 2, .none, .none, .none, .none, .none, .none, .none,
    .copy, .copy, .cmux 48 2 0, .cmux 48 1 2, .none, .none, .none, .none, .none, .none,
    .copy, .copy, .cmux 16 2 3, .none, .none, .none, .none, .none, .none, .none,
    .copy, .copy, .cmux 49 2 0, .cmux 49 1 2, .none, .none, .none, .none, .none, .none,
    .copy, .copy, .cmux 17 2 3, .none, .none, .none, .none, .none, .none, .none,
    .copy, .copy, .cmux 50 1 2, .cmux 50 2 0, .none, .none, .none, .none, .none, .none,
    .copy, .copy, .cmux 18 3 2, .none, .none, .none, .none, .none, .none, .none,
    .copy, .copy, .cmux 51 2 0, .cmux 51 1 2, .none, .none, .none, .none, .none, .none,
    .copy, .copy, .cmux 19 2 3, .none, .none, .none, .none, .none, .none, .none,
    .copy, .copy, .cmux 52 2 0, .cmux 52 1 2, .none, .none, .none, .none, .none, .none,
    .copy, .copy, .cmux 20 2 3, .none, .none, .none, .none, .none, .none, .none,
    .copy, .copy, .cmux 53 2 0, .cmux 53 1 2, .none, .none, .none, .none, .none, .none,
    .copy, .copy, .cmux 21 2 3, .none, .none, .none, .none, .none, .none, .none,
    .copy, .copy, .cmux 54 2 0, .cmux 54 1 2, .none, .none, .none, .none, .none, .none,
    .copy, .copy, .cmux 22 2 3, .none, .none, .none, .none, .none, .none, .none,
    .copy, .copy, .cmux 55 1 2, .cmux 55 2 0, .none, .none, .none, .none, .none, .none,
    .copy, .copy, .cmux 23 3 2, .none, .none, .none, .none, .none, .none, .none,
    .copy, .copy, .cmux 56 1 2, .cmux 56 2 0, .none, .none, .none, .none, .none, .none,
    .copy, .copy, .cmux 24 3 2, .none, .none, .none, .none, .none, .none, .none,
    .copy, .copy, .cmux 57 2 0, .cmux 57 1 2, .none, .none, .none, .none, .none, .none,
    .copy, .copy, .cmux 25 2 3, .none, .none, .none, .none, .none, .none, .none,
    .copy, .copy, .cmux 58 1 2, .cmux 58 2 0, .none, .none, .none, .none, .none, .none,
    .copy, .copy, .cmux 26 3 2, .none, .none, .none, .none, .none, .none, .none,
    .copy, .copy, .cmux 59 1 2, .cmux 59 2 0, .none, .none, .none, .none, .none, .none,
    .copy, .copy, .cmux 27 3 2, .none, .none, .none, .none, .none, .none, .none,
    .copy, .copy, .cmux 60 2 0, .cmux 60 1 2, .none, .none, .none, .none, .none, .none,
    .copy, .copy, .cmux 28 2 3, .none, .none, .none, .none, .none, .none, .none,
    .copy, .copy, .cmux 61 1 2, .cmux 61 2 0, .none, .none, .none, .none, .none, .none,
    .copy, .copy, .cmux 29 3 2, .none, .none, .none, .none, .none, .none, .none,
    .copy, .copy, .cmux 62 2 0, .cmux 62 1 2, .none, .none, .none, .none, .none, .none,
    .copy, .copy, .cmux 30 2 3, .none, .none, .none, .none, .none, .none, .none,
    .copy, .copy, .cmux 63 1 2, .cmux 63 2 0, .none, .none, .none, .none, .none, .none,
    .copy, .copy, .cmux 31 3 2, .none, .none, .none, .none, .none, .none, .none,
    .copy, .copy, .cmux 64 1 2, .cmux 64 2 0, .none, .none, .none, .none, .none, .none,
    .copy, .copy, .cmux 32 3 2, .none, .none, .none, .none, .none, .none, .none,
    .copy, .copy, .cmux 65 2 0, .cmux 65 1 2, .none, .none, .none, .none, .none, .none,
    .copy, .copy, .cmux 33 2 3, .none, .none, .none, .none, .none, .none, .none,
    .copy, .copy, .cmux 66 2 0, .cmux 66 1 2, .none, .none, .none, .none, .none, .none,
    .copy, .copy, .cmux 34 2 3, .none, .none, .none, .none, .none, .none, .none,
    .cmux 67 0 2, .cmux 67 2 1, .cmux 67 2 0, .cmux 67 1 2, .none, .none, .none, .none, .none, .none,
    .cmux 35 2 3, .cmux 35 1 0, .none, .none, .none, .none, .none, .none, .none, .none,
    .cmux 2 1 0, .none, .none, .none, .none, .none, .none, .none, .none, .none]

def b10 : BitCircuit where
  maxInterState := 10
  nodes := [
    .cmux 110 1 0, .cmux 78 1 0, .cmux 14 0 1, .cmux 110 0 1, .cmux 78 0 1, .cmux 14 1 0, .none, .none, .none, .none,
    .cmux 78 0 3, .copy, .cmux 78 3 0, .cmux 14 0 3, .cmux 77 4 1, .copy, .cmux 13 2 5, .cmux 14 3 0, .none, .none,
    .copy, .copy, .copy, .copy, .cmux 76 4 1, .copy, .cmux 12 6 5, .copy, .cmux 109 0 2, .cmux 109 3 7,
    .cmux 75 4 1, .copy, .cmux 13 3 9, .cmux 11 6 5, .cmux 77 0 8, .copy, .cmux 13 9 7, .cmux 77 8 2, .none, .none,
    .cmux 108 2 6, .copy, .copy, .cmux 74 0 1, .copy, .copy, .copy, .copy, .cmux 10 3 5, .cmux 108 4 7,
    .cmux 76 4 9, .copy, .cmux 76 9 7, .cmux 12 0 6, .cmux 12 2 0, .copy, .cmux 9 8 5, .cmux 73 3 1, .none, .none,
    .copy, .copy, .copy, .copy, .copy, .copy, .cmux 107 0 2, .cmux 72 7 1, .cmux 107 4 3, .cmux 8 6 5,
    .cmux 11 4 8, .copy, .cmux 75 6 2, .cmux 75 0 6, .cmux 11 8 3, .copy, .cmux 7 9 5, .cmux 71 7 1, .none, .none,
    .copy, .cmux 70 7 1, .copy, .copy, .copy, .cmux 106 3 2, .cmux 106 0 4, .cmux 6 6 5, .none, .none,
    .cmux 10 0 6, .copy, .cmux 74 3 5, .cmux 0 7 1, .cmux 74 5 2, .cmux 10 6 4, .none, .none, .none, .none,
    .copy, .copy, .copy, .cmux 105 2 4, .copy, .copy, .cmux 105 0 5, .cmux 1 3 1, .none, .none,
    .cmux 9 6 5, .cmux 73 2 3, .cmux 73 3 4, .cmux 2 7 1, .cmux 9 0 6, .none, .none, .none, .none, .none,
    .copy, .copy, .copy, .copy, .copy, .cmux 104 4 0, .cmux 104 1 2, .none, .none, .none,
    .cmux 8 5 0, .cmux 72 1 6, .cmux 72 6 2, .copy, .cmux 8 4 5, .none, .none, .none, .none, .none,
    .copy, .copy, .copy, .copy, .copy, .cmux 103 4 0, .cmux 103 1 2, .none, .none, .none,
    .cmux 7 4 5, .cmux 71 1 6, .cmux 7 5 0, .copy, .cmux 71 6 2, .none, .none, .none, .none, .none,
    .copy, .copy, .copy, .copy, .copy, .cmux 102 0 2, .cmux 102 1 4, .none, .none, .none,
    .cmux 6 5 2, .cmux 70 1 6, .cmux 6 0 5, .copy, .cmux 70 6 4, .none, .none, .none, .none, .none,
    .copy, .copy, .copy, .copy, .copy, .cmux 101 2 0, .cmux 101 1 4, .none, .none, .none,
    .cmux 69 6 4, .cmux 69 1 6, .cmux 5 2 5, .copy, .cmux 5 5 0, .none, .none, .none, .none, .none,
    .copy, .cmux 100 2 4, .cmux 100 1 0, .copy, .copy, .none, .none, .none, .none, .none,
    .cmux 68 2 0, .cmux 4 1 4, .none, .copy, .none, .none, .none, .none, .none, .none,
    .copy, .cmux 0 1 0, .none, .copy, .none, .none, .none, .none, .none, .none,
    .copy, .cmux 1 1 0, .none, .copy, .none, .none, .none, .none, .none, .none,
    .cmux 2 1 0, .none, .none, .copy, .none, .none, .none, .none, .none, .none,
    .copy, .cmux 0 0 3, .cmux 1 0 3, .copy, .cmux 0 3 0, .none, .none, .none, .none, .none,
    .cmux 1 1 3, .cmux 1 0 4, .copy, .cmux 1 1 4, .none, .none, .none, .none, .none, .none,
    .cmux 2 1 2, .cmux 2 3 0, .cmux 2 2 1, .cmux 2 0 3, .none, .none, .none, .none, .none, .none,
    .cmux 3 0 1, .cmux 3 2 3, .cmux 3 1 0, .none, .none, .none, .none, .none, .none, .none,
    .copy, .cmux 36 2 1, .copy, .cmux 36 1 0, .none, .none, .none, .none, .none, .none,
    .copy, .cmux 4 3 1, .copy, .none, .none, .none, .none, .none, .none, .none,
    .copy, .cmux 37 2 1, .copy, .cmux 37 1 0, .none, .none, .none, .none, .none, .none,
    .copy, .cmux 5 3 1, .copy, .none, .none, .none, .none, .none, .none, .none,
    .copy, .cmux 38 1 0, .copy, .cmux 38 2 1, .none, .none, .none, .none, .none, .none,
    .copy, .cmux 6 1 3, .copy, .none, .none, .none, .none, .none, .none, .none,
    .copy, .cmux 39 1 0, .copy, .cmux 39 2 1, .none, .none, .none, .none, .none, .none,
    .copy, .cmux 7 1 3, .copy, .none, .none, .none, .none, .none, .none, .none,
    .copy, .cmux 40 2 1, .copy, .cmux 40 1 0, .none, .none, .none, .none, .none, .none,
    .copy, .cmux 8 3 1, .copy, .none, .none, .none, .none, .none, .none, .none,
    .copy, .cmux 41 2 1, .copy, .cmux 41 1 0, .none, .none, .none, .none, .none, .none,
    .copy, .cmux 9 3 1, .copy, .none, .none, .none, .none, .none, .none, .none,
    .copy, .cmux 42 1 0, .copy, .cmux 42 2 1, .none, .none, .none, .none, .none, .none,
    .copy, .cmux 10 1 3, .copy, .none, .none, .none, .none, .none, .none, .none,
    .copy, .cmux 43 2 1, .copy, .cmux 43 1 0, .none, .none, .none, .none, .none, .none,
    .copy, .cmux 11 3 1, .copy, .none, .none, .none, .none, .none, .none, .none,
    .copy, .cmux 44 2 1, .copy, .cmux 44 1 0, .none, .none, .none, .none, .none, .none,
    .copy, .cmux 12 3 1, .copy, .none, .none, .none, .none, .none, .none, .none,
    .copy, .cmux 45 1 0, .copy, .cmux 45 2 1, .none, .none, .none, .none, .none, .none,
    .copy, .cmux 13 1 3, .copy, .none, .none, .none, .none, .none, .none, .none,
    .copy, .cmux 46 1 0, .copy, .cmux 46 2 1, .none, .none, .none, .none, .none, .none,
    .copy, .cmux 14 1 3, .copy, .none, .none, .none, .none, .none, .none, .none,
    .copy, .cmux 47 2 1, .copy, .cmux 47 1 0, .none, .none, .none, .none, .none, .none,
    .copy, .cmux 15 3 1, .copy, .none, .none, .none, .none, .none, .none, .none,
    .copy, .cmux 48 2 1, .copy, .cmux 48 1 0, .none, .none, .none, .none, .none, .none,
    .copy, .cmux 16 3 1, .copy, .none, .none, .none, .none, .none, .none, .none,
    .copy, .cmux 49 2 1, .copy, .cmux 49 1 0, .none, .none, .none, .none, .none, .none,
    .copy, .cmux 17 3 1, .copy, .none, .none, .none, .none, .none, .none, .none,
    .copy, .cmux 50 1 0, .copy, .cmux 50 2 1, .none, .none, .none, .none, .none, .none,
    .copy, .cmux 18 1 3, .copy, .none, .none, .none, .none, .none, .none, .none,
    .copy, .cmux 51 1 0, .copy, .cmux 51 2 1, .none, .none, .none, .none, .none, .none,
    .copy, .cmux 19 1 3, .copy, .none, .none, .none, .none, .none, .none, .none,
    .copy, .cmux 52 1 0, .copy, .cmux 52 2 1, .none, .none, .none, .none, .none, .none,
    .copy, .cmux 20 1 3, .copy, .none, .none, .none, .none, .none, .none, .none,
    .copy, .cmux 53 2 1, .copy, .cmux 53 1 0, .none, .none, .none, .none, .none, .none,
    .copy, .cmux 21 3 1, .copy, .none, .none, .none, .none, .none, .none, .none,
    .copy, .cmux 54 2 1, .copy, .cmux 54 1 0, .none, .none, .none, .none, .none, .none,
    .copy, .cmux 22 3 1, .copy, .none, .none, .none, .none, .none, .none, .none,
    .copy, .cmux 55 2 1, .copy, .cmux 55 1 0, .none, .none, .none, .none, .none, .none,
    .copy, .cmux 23 3 1, .copy, .none, .none, .none, .none, .none, .none, .none,
    .copy, .cmux 56 1 0, .copy, .cmux 56 2 1, .none, .none, .none, .none, .none, .none,
    .copy, .cmux 24 1 3, .copy, .none, .none, .none, .none, .none, .none, .none,
    .copy, .cmux 57 2 1, .copy, .cmux 57 1 0, .none, .none, .none, .none, .none, .none,
    .copy, .cmux 25 3 1, .copy, .none, .none, .none, .none, .none, .none, .none,
    .copy, .cmux 58 1 0, .copy, .cmux 58 2 1, .none, .none, .none, .none, .none, .none,
    .copy, .cmux 26 1 3, .copy, .none, .none, .none, .none, .none, .none, .none,
    .copy, .cmux 59 2 1, .copy, .cmux 59 1 0, .none, .none, .none, .none, .none, .none,
    .copy, .cmux 27 3 1, .copy, .none, .none, .none, .none, .none, .none, .none,
    .copy, .cmux 60 1 0, .copy, .cmux 60 2 1, .none, .none, .none, .none, .none, .none,
    .copy, .cmux 28 1 3, .copy, .none, .none, .none, .none, .none, .none, .none,
    .copy, .cmux 61 2 1, .copy, .cmux 61 1 0, .none, .none, .none, .none, .none, .none,
    .copy, .cmux 29 3 1, .copy, .none, .none, .none, .none, .none, .none, .none,
    .copy, .cmux 62 2 1, .copy, .cmux 62 1 0, .none, .none, .none, .none, .none, .none,
    .copy, .cmux 30 3 1, .copy, .none, .none, .none, .none, .none, .none, .none,
    .copy, .cmux 63 2 1, .copy, .cmux 63 1 0, .none, .none, .none, .none, .none, .none,
    .copy, .cmux 31 3 1, .copy, .none, .none, .none, .none, .none, .none, .none,
    .copy, .cmux 64 2 1, .copy, .cmux 64 1 0, .none, .none, .none, .none, .none, .none,
    .copy, .cmux 32 3 1, .copy, .none, .none, .none, .none, .none, .none, .none,
    .copy, .cmux 65 1 0, .copy, .cmux 65 2 1, .none, .none, .none, .none, .none, .none,
    .copy, .cmux 33 1 3, .copy, .none, .none, .none, .none, .none, .none, .none,
    .copy, .cmux 66 1 0, .copy, .cmux 66 2 1, .none, .none, .none, .none, .none, .none,
    .copy, .cmux 34 1 3, .copy, .none, .none, .none, .none, .none, .none, .none,
    .cmux 67 1 2, .cmux 67 0 1, .cmux 67 2 1, .cmux 67 1 0, .none, .none, .none, .none, .none, .none,
    .cmux 35 3 2, .cmux 35 0 1, .none, .none, .none, .none, .none, .none, .none, .none,
    .cmux 2 1 0, .none, .none, .none, .none, .none, .none, .none, .none, .none]

def b11 : BitCircuit where
  maxInterState := 10
  nodes := [
    .cmux 15 0 1, .cmux 79 0 1, .cmux 79 1 0, .cmux 111 0 1, .cmux 15 1 0, .cmux 111 1 0, .none, .none, .none, .none,
    .cmux 14 0 4, .cmux 79 5 3, .copy, .cmux 78 1 2, .copy, .cmux 79 3 5, .cmux 15 3 5, .cmux 15 5 3, .none, .none,
    .cmux 13 0 4, .copy, .copy, .cmux 110 7 6, .copy, .copy, .copy, .copy, .cmux 77 3 2, .cmux 110 1 5,
    .cmux 76 8 2, .cmux 14 3 6, .copy, .cmux 78 1 9, .copy, .cmux 14 7 3, .cmux 78 9 5, .cmux 12 0 4, .none, .none,
    .cmux 11 7 4, .copy, .copy, .copy, .copy, .copy, .copy, .cmux 75 0 2, .cmux 109 5 1, .cmux 109 3 6,
    .cmux 13 8 1, .cmux 74 7 2, .copy, .cmux 10 0 4, .copy, .cmux 77 9 6, .cmux 13 5 8, .cmux 77 3 9, .none, .none,
    .copy, .cmux 108 7 5, .copy, .cmux 9 3 4, .copy, .copy, .copy, .copy, .cmux 73 1 2, .cmux 108 6 0,
    .cmux 76 7 1, .cmux 12 9 0, .copy, .cmux 76 1 5, .copy, .cmux 72 8 2, .cmux 8 3 4, .cmux 12 6 9, .none, .none,
    .copy, .copy, .copy, .copy, .copy, .cmux 107 7 1, .cmux 71 5 2, .copy, .cmux 107 0 3, .cmux 7 6 4,
    .cmux 11 7 5, .cmux 6 9 4, .cmux 70 6 2, .cmux 75 0 8, .cmux 11 5 1, .cmux 75 8 3, .none, .none, .none, .none,
    .copy, .cmux 0 1 2, .copy, .copy, .copy, .copy, .cmux 106 0 4, .cmux 106 3 5, .none, .none,
    .cmux 74 3 7, .cmux 1 1 2, .copy, .cmux 10 6 4, .cmux 10 0 6, .cmux 74 7 5, .none, .none, .none, .none,
    .copy, .cmux 105 0 5, .cmux 105 4 3, .copy, .copy, .copy, .cmux 2 1 2, .none, .none, .none,
    .cmux 73 1 5, .cmux 9 2 3, .cmux 73 0 1, .cmux 9 4 2, .none, .none, .copy, .none, .none, .none,
    .copy, .copy, .copy, .copy, .cmux 104 2 0, .cmux 104 3 1, .copy, .none, .none, .none,
    .cmux 72 2 4, .cmux 8 5 1, .cmux 8 3 5, .cmux 72 4 0, .none, .none, .copy, .none, .none, .none,
    .copy, .copy, .copy, .copy, .cmux 103 2 1, .cmux 103 0 3, .copy, .none, .none, .none,
    .cmux 71 5 3, .cmux 71 0 5, .cmux 7 2 4, .cmux 7 4 1, .none, .none, .copy, .none, .none, .none,
    .copy, .copy, .copy, .copy, .cmux 102 1 0, .cmux 102 2 3, .copy, .none, .none, .none,
    .cmux 70 4 0, .cmux 6 5 3, .cmux 70 1 4, .cmux 6 2 5, .none, .none, .copy, .none, .none, .none,
    .copy, .copy, .copy, .copy, .cmux 101 2 0, .cmux 101 3 1, .copy, .none, .none, .none,
    .cmux 5 5 1, .cmux 69 4 0, .cmux 69 2 4, .cmux 5 3 5, .none, .none, .copy, .none, .none, .none,
    .copy, .copy, .cmux 100 2 1, .cmux 100 3 0, .none, .none, .copy, .none, .none, .none,
    .cmux 68 2 1, .cmux 4 3 0, .none, .none, .none, .none, .copy, .none, .none, .none,
    .copy, .cmux 0 1 0, .none, .none, .none, .none, .copy, .none, .none, .none,
    .copy, .cmux 1 1 0, .none, .none, .none, .none, .copy, .none, .none, .none,
    .cmux 2 1 0, .none, .none, .none, .none, .none, .copy, .none, .none, .none,
    .copy, .cmux 0 6 0, .cmux 0 0 6, .cmux 1 0 6, .none, .none, .copy, .none, .none, .none,
    .cmux 1 0 1, .cmux 1 2 6, .cmux 1 2 1, .copy, .none, .none, .none, .none, .none, .none,
    .cmux 2 3 0, .cmux 2 0 3, .cmux 2 1 2, .cmux 2 2 1, .none, .none, .none, .none, .none, .none,
    .cmux 3 3 1, .cmux 3 0 2, .cmux 3 1 3, .none, .none, .none, .none, .none, .none, .none,
    .copy, .cmux 36 0 1, .copy, .cmux 36 1 2, .none, .none, .none, .none, .none, .none,
    .copy, .cmux 4 3 1, .copy, .none, .none, .none, .none, .none, .none, .none,
    .copy, .cmux 37 0 1, .copy, .cmux 37 1 2, .none, .none, .none, .none, .none, .none,
    .copy, .cmux 5 3 1, .copy, .none, .none, .none, .none, .none, .none, .none,
    .copy, .cmux 38 1 2, .copy, .cmux 38 0 1, .none, .none, .none, .none, .none, .none,
    .copy, .cmux 6 1 3, .copy, .none, .none, .none, .none, .none, .none, .none,
    .copy, .cmux 39 0 1, .copy, .cmux 39 1 2, .none, .none, .none, .none, .none, .none,
    .copy, .cmux 7 3 1, .copy, .none, .none, .none, .none, .none, .none, .none,
    .copy, .cmux 40 0 1, .copy, .cmux 40 1 2, .none, .none, .none, .none, .none, .none,
    .copy, .cmux 8 3 1, .copy, .none, .none, .none, .none, .none, .none, .none,
    .copy, .cmux 41 0 1, .copy, .cmux 41 1 2, .none, .none, .none, .none, .none, .none,
    .copy, .cmux 9 3 1, .copy, .none, .none, .none, .none, .none, .none, .none,
    .copy, .cmux 42 0 1, .copy, .cmux 42 1 2, .none, .none, .none, .none, .none, .none,
    .copy, .cmux 10 3 1, .copy, .none, .none, .none, .none, .none, .none, .none,
    .copy, .cmux 43 0 1, .copy, .cmux 43 1 2, .none, .none, .none, .none, .none, .none,
    .copy, .cmux 11 3 1, .copy, .none, .none, .none, .none, .none, .none, .none,
    .copy, .cmux 44 1 2, .copy, .cmux 44 0 1, .none, .none, .none, .none, .none, .none,
    .copy, .cmux 12 1 3, .copy, .none, .none, .none, .none, .none, .none, .none,
    .copy, .cmux 45 1 2, .copy, .cmux 45 0 1, .none, .none, .none, .none, .none, .none,
    .copy, .cmux 13 1 3, .copy, .none, .none, .none, .none, .none, .none, .none,
    .copy, .cmux 46 0 1, .copy, .cmux 46 1 2, .none, .none, .none, .none, .none, .none,
    .copy, .cmux 14 3 1, .copy, .none, .none, .none, .none, .none, .none, .none,
    .copy, .cmux 47 0 1, .copy, .cmux 47 1 2, .none, .none, .none, .none, .none, .none,
    .copy, .cmux 15 3 1, .copy, .none, .none, .none, .none, .none, .none, .none,
    .copy, .cmux 48 1 2, .copy, .cmux 48 0 1, .none, .none, .none, .none, .none, .none,
    .copy, .cmux 16 1 3, .copy, .none, .none, .none, .none, .none, .none, .none,
    .copy, .cmux 49 0 1, .copy, .cmux 49 1 2, .none, .none, .none, .none, .none, .none,
    .copy, .cmux 17 3 1, .copy, .none, .none, .none, .none, .none, .none, .none,
    .copy, .cmux 50 1 2, .copy, .cmux 50 0 1, .none, .none, .none, .none, .none, .none,
    .copy, .cmux 18 1 3, .copy, .none, .none, .none, .none, .none, .none, .none,
    .copy, .cmux 51 1 2, .copy, .cmux 51 0 1, .none, .none, .none, .none, .none, .none,
    .copy, .cmux 19 1 3, .copy, .none, .none, .none, .none, .none, .none, .none,
    .copy, .cmux 52 0 1, .copy, .cmux 52 1 2, .none, .none, .none, .none, .none, .none,
    .copy, .cmux 20 3 1, .copy, .none, .none, .none, .none, .none, .none, .none,
    .copy, .cmux 53 1 2, .copy, .cmux 53 0 1, .none, .none, .none, .none, .none, .none,
    .copy, .cmux 21 1 3, .copy, .none, .none, .none, .none, .none, .none, .none,
    .copy, .cmux 54 0 1, .copy, .cmux 54 1 2, .none, .none, .none, .none, .none, .none,
    .copy, .cmux 22 3 1, .copy, .none, .none, .none, .none, .none, .none, .none,
    .copy, .cmux 55 1 2, .copy, .cmux 55 0 1, .none, .none, .none, .none, .none, .none,
    .copy, .cmux 23 1 3, .copy, .none, .none, .none, .none, .none, .none, .none,
    .copy, .cmux 56 0 1, .copy, .cmux 56 1 2, .none, .none, .none, .none, .none, .none,
    .copy, .cmux 24 3 1, .copy, .none, .none, .none, .none, .none, .none, .none,
    .copy, .cmux 57 1 2, .copy, .cmux 57 0 1, .none, .none, .none, .none, .none, .none,
    .copy, .cmux 25 1 3, .copy, .none, .none, .none, .none, .none, .none, .none,
    .copy, .cmux 58 1 2, .copy, .cmux 58 0 1, .none, .none, .none, .none, .none, .none,
    .copy, .cmux 26 1 3, .copy, .none, .none, .none, .none, .none, .none, .none,
    .copy, .cmux 59 1 2, .copy, .cmux 59 0 1, .none, .none, .none, .none, .none, .none,
    .copy, .cmux 27 1 3, .copy, .none, .none, .none, .none, .none, .none, .none,
    .copy, .cmux 60 0 1, .copy, .cmux 60 1 2, .none, .none, .none, .none, .none, .none,
    .copy, .cmux 28 3 1, .copy, .none, .none, .none, .none, .none, .none, .none,
    .copy, .cmux 61 1 2, .copy, .cmux 61 0 1, .none, .none, .none, .none, .none, .none,
    .copy, .cmux 29 1 3, .copy, .none, .none, .none, .none, .none, .none, .none,
    .copy, .cmux 62 1 2, .copy, .cmux 62 0 1, .none, .none, .none, .none, .none, .none,
    .copy, .cmux 30 1 3, .copy, .none, .none, .none, .none, .none, .none, .none,
    .copy, .cmux 63 1 2, .copy, .cmux 63 0 1, .none, .none, .none, .none, .none, .none,
    .copy, .cmux 31 1 3, .copy, .none, .none, .none, .none, .none, .none, .none,
    .copy, .cmux 64 1 2, .copy, .cmux 64 0 1, .none, .none, .none, .none, .none, .none,
    .copy, .cmux 32 1 3, .copy, .none, .none, .none, .none, .none, .none, .none,
    .copy, .cmux 65 0 1, .copy, .cmux 65 1 2, .none, .none, .none, .none, .none, .none,
    .copy, .cmux 33 3 1, .copy, .none, .none, .none, .none, .none, .none, .none,
    .copy, .cmux 66 0 1, .copy, .cmux 66 1 2, .none, .none, .none, .none, .none, .none,
    .copy, .cmux 34 3 1, .copy, .none, .none, .none, .none, .none, .none, .none,
    .cmux 67 0 1, .cmux 67 2 1, .cmux 67 1 2, .cmux 67 1 0, .none, .none, .none, .none, .none, .none,
    .cmux 35 2 0, .cmux 35 3 1, .none, .none, .none, .none, .none, .none, .none, .none,
    .cmux 2 1 0, .none, .none, .none, .none, .none, .none, .none, .none, .none]

def b12 : BitCircuit where
  maxInterState := 10
  nodes := [
    .cmux 112 1 0, .cmux 112 0 1, .cmux 80 0 1, .cmux 16 0 1, .cmux 80 1 0, .cmux 16 1 0, .none, .none, .none, .none,
    .cmux 15 3 5, .cmux 80 1 0, .cmux 16 1 0, .cmux 16 0 1, .copy, .copy, .cmux 79 2 4, .cmux 80 0 1, .none, .none,
    .cmux 78 6 4, .copy, .copy, .copy, .copy, .copy, .cmux 111 3 2, .copy, .cmux 14 0 5, .cmux 111 7 1,
    .cmux 79 7 9, .cmux 15 6 2, .cmux 15 3 6, .cmux 79 9 1, .copy, .copy, .cmux 13 8 5, .cmux 77 0 4, .none, .none,
    .copy, .copy, .copy, .copy, .copy, .copy, .cmux 12 6 5, .cmux 110 2 1, .cmux 110 0 3, .cmux 76 7 4,
    .cmux 14 7 1, .cmux 11 6 5, .cmux 78 8 3, .cmux 75 9 4, .copy, .copy, .cmux 78 0 8, .cmux 14 2 7, .none, .none,
    .copy, .cmux 109 6 2, .copy, .cmux 74 3 4, .copy, .copy, .copy, .copy, .cmux 109 7 0, .cmux 10 1 5,
    .cmux 77 1 2, .cmux 77 6 1, .cmux 13 8 0, .cmux 9 9 5, .copy, .copy, .cmux 13 7 8, .cmux 73 3 4, .none, .none,
    .copy, .copy, .copy, .cmux 108 6 2, .copy, .copy, .copy, .cmux 8 3 5, .cmux 72 7 4, .cmux 108 1 0,
    .cmux 71 8 4, .cmux 12 6 3, .cmux 76 9 0, .cmux 12 3 2, .copy, .copy, .cmux 7 7 5, .cmux 76 1 9, .none, .none,
    .cmux 6 6 5, .copy, .copy, .copy, .cmux 107 1 3, .cmux 107 7 2, .cmux 70 0 4, .copy, .none, .none,
    .cmux 75 7 5, .cmux 11 1 4, .cmux 0 0 6, .cmux 11 4 3, .cmux 75 5 2, .none, .copy, .none, .none, .none,
    .copy, .copy, .cmux 106 1 3, .copy, .copy, .cmux 106 0 4, .copy, .cmux 1 2 6, .none, .none,
    .cmux 10 1 2, .cmux 74 5 4, .cmux 74 0 5, .cmux 10 2 3, .cmux 2 7 6, .none, .none, .none, .none, .none,
    .copy, .copy, .copy, .copy, .copy, .cmux 105 0 3, .cmux 105 2 1, .none, .none, .none,
    .cmux 73 2 6, .cmux 73 6 1, .cmux 9 5 3, .cmux 9 0 5, .copy, .none, .none, .none, .none, .none,
    .copy, .copy, .copy, .copy, .copy, .cmux 104 0 1, .cmux 104 3 2, .none, .none, .none,
    .cmux 72 0 5, .cmux 8 6 2, .cmux 72 5 1, .cmux 8 3 6, .copy, .none, .none, .none, .none, .none,
    .copy, .copy, .copy, .copy, .copy, .cmux 103 0 2, .cmux 103 3 1, .none, .none, .none,
    .cmux 71 0 5, .cmux 7 6 1, .cmux 7 3 6, .cmux 71 5 2, .copy, .none, .none, .none, .none, .none,
    .copy, .copy, .copy, .copy, .copy, .cmux 102 2 1, .cmux 102 0 3, .none, .none, .none,
    .cmux 6 5 1, .cmux 6 2 5, .cmux 70 6 3, .cmux 70 0 6, .copy, .none, .none, .none, .none, .none,
    .copy, .copy, .copy, .copy, .copy, .cmux 101 1 0, .cmux 101 3 2, .none, .none, .none,
    .cmux 5 1 5, .cmux 5 5 0, .cmux 69 3 6, .cmux 69 6 2, .copy, .none, .none, .none, .none, .none,
    .cmux 100 2 3, .copy, .cmux 100 0 1, .copy, .copy, .none, .none, .none, .none, .none,
    .cmux 68 0 3, .cmux 4 2 1, .none, .none, .copy, .none, .none, .none, .none, .none,
    .copy, .cmux 0 1 0, .none, .none, .copy, .none, .none, .none, .none, .none,
    .copy, .cmux 1 1 0, .none, .none, .copy, .none, .none, .none, .none, .none,
    .cmux 2 1 0, .none, .none, .none, .copy, .none, .none, .none, .none, .none,
    .copy, .cmux 0 4 0, .cmux 1 0 4, .cmux 0 0 4, .copy, .none, .none, .none, .none, .none,
    .cmux 1 3 4, .cmux 1 3 1, .copy, .cmux 1 0 1, .none, .none, .none, .none, .none, .none,
    .cmux 2 3 2, .cmux 2 2 3, .cmux 2 1 0, .cmux 2 0 1, .none, .none, .none, .none, .none, .none,
    .cmux 3 1 3, .cmux 3 0 2, .cmux 3 2 0, .none, .none, .none, .none, .none, .none, .none,
    .cmux 36 2 0, .copy, .copy, .cmux 36 0 1, .none, .none, .none, .none, .none, .none,
    .cmux 4 3 0, .copy, .copy, .none, .none, .none, .none, .none, .none, .none,
    .cmux 37 2 0, .copy, .copy, .cmux 37 0 1, .none, .none, .none, .none, .none, .none,
    .cmux 5 3 0, .copy, .copy, .none, .none, .none, .none, .none, .none, .none,
    .cmux 38 0 1, .copy, .copy, .cmux 38 2 0, .none, .none, .none, .none, .none, .none,
    .cmux 6 0 3, .copy, .copy, .none, .none, .none, .none, .none, .none, .none,
    .cmux 39 2 0, .copy, .copy, .cmux 39 0 1, .none, .none, .none, .none, .none, .none,
    .cmux 7 3 0, .copy, .copy, .none, .none, .none, .none, .none, .none, .none,
    .cmux 40 0 1, .copy, .copy, .cmux 40 2 0, .none, .none, .none, .none, .none, .none,
    .cmux 8 0 3, .copy, .copy, .none, .none, .none, .none, .none, .none, .none,
    .cmux 41 2 0, .copy, .copy, .cmux 41 0 1, .none, .none, .none, .none, .none, .none,
    .cmux 9 3 0, .copy, .copy, .none, .none, .none, .none, .none, .none, .none,
    .cmux 42 0 1, .copy, .copy, .cmux 42 2 0, .none, .none, .none, .none, .none, .none,
    .cmux 10 0 3, .copy, .copy, .none, .none, .none, .none, .none, .none, .none,
    .cmux 43 2 0, .copy, .copy, .cmux 43 0 1, .none, .none, .none, .none, .none, .none,
    .cmux 11 3 0, .copy, .copy, .none, .none, .none, .none, .none, .none, .none,
    .cmux 44 2 0, .copy, .copy, .cmux 44 0 1, .none, .none, .none, .none, .none, .none,
    .cmux 12 3 0, .copy, .copy, .none, .none, .none, .none, .none, .none, .none,
    .cmux 45 0 1, .copy, .copy, .cmux 45 2 0, .none, .none, .none, .none, .none, .none,
    .cmux 13 0 3, .copy, .copy, .none, .none, .none, .none, .none, .none, .none,
    .cmux 46 2 0, .copy, .copy, .cmux 46 0 1, .none, .none, .none, .none, .none, .none,
    .cmux 14 3 0, .copy, .copy, .none, .none, .none, .none, .none, .none, .none,
    .cmux 47 2 0, .copy, .copy, .cmux 47 0 1, .none, .none, .none, .none, .none, .none,
    .cmux 15 3 0, .copy, .copy, .none, .none, .none, .none, .none, .none, .none,
    .cmux 48 2 0, .copy, .copy, .cmux 48 0 1, .none, .none, .none, .none, .none, .none,
    .cmux 16 3 0, .copy, .copy, .none, .none, .none, .none, .none, .none, .none,
    .cmux 49 2 0, .copy, .copy, .cmux 49 0 1, .none, .none, .none, .none, .none, .none,
    .cmux 17 3 0, .copy, .copy, .none, .none, .none, .none, .none, .none, .none,
    .cmux 50 0 1, .copy, .copy, .cmux 50 2 0, .none, .none, .none, .none, .none, .none,
    .cmux 18 0 3, .copy, .copy, .none, .none, .none, .none, .none, .none, .none,
    .cmux 51 2 0, .copy, .copy, .cmux 51 0 1, .none, .none, .none, .none, .none, .none,
    .cmux 19 3 0, .copy, .copy, .none, .none, .none, .none, .none, .none, .none,
    .cmux 52 0 1, .copy, .copy, .cmux 52 2 0, .none, .none, .none, .none, .none, .none,
    .cmux 20 0 3, .copy, .copy, .none, .none, .none, .none, .none, .none, .none,
    .cmux 53 2 0, .copy, .copy, .cmux 53 0 1, .none, .none, .none, .none, .none, .none,
    .cmux 21 3 0, .copy, .copy, .none, .none, .none, .none, .none, .none, .none,
    .cmux 54 0 1, .copy, .copy, .cmux 54 2 0, .none, .none, .none, .none, .none, .none,
    .cmux 22 0 3, .copy, .copy, .none, .none, .none, .none, .none, .none, .none,
    .cmux 55 0 1, .copy, .copy, .cmux 55 2 0, .none, .none, .none, .none, .none, .none,
    .cmux 23 0 3, .copy, .copy, .none, .none, .none, .none, .none, .none, .none,
    .cmux 56 2 0, .copy, .copy, .cmux 56 0 1, .none, .none, .none, .none, .none, .none,
    .cmux 24 3 0, .copy, .copy, .none, .none, .none, .none, .none, .none, .none,
    .cmux 57 0 1, .copy, .copy, .cmux 57 2 0, .none, .none, .none, .none, .none, .none,
    .cmux 25 0 3, .copy, .copy, .none, .none, .none, .none, .none, .none, .none,
    .cmux 58 2 0, .copy, .copy, .cmux 58 0 1, .none, .none, .none, .none, .none, .none,
    .cmux 26 3 0, .copy, .copy, .none, .none, .none, .none, .none, .none, .none,
    .cmux 59 0 1, .copy, .copy, .cmux 59 2 0, .none, .none, .none, .none, .none, .none,
    .cmux 27 0 3, .copy, .copy, .none, .none, .none, .none, .none, .none, .none,
    .cmux 60 0 1, .copy, .copy, .cmux 60 2 0, .none, .none, .none, .none, .none, .none,
    .cmux 28 0 3, .copy, .copy, .none, .none, .none, .none, .none, .none, .none,
    .cmux 61 0 1, .copy, .copy, .cmux 61 2 0, .none, .none, .none, .none, .none, .none,
    .cmux 29 0 3, .copy, .copy, .none, .none, .none, .none, .none, .none, .none,
    .cmux 62 2 0, .copy, .copy, .cmux 62 0 1, .none, .none, .none, .none, .none, .none,
    .cmux 30 3 0, .copy, .copy, .none, .none, .none, .none, .none, .none, .none,
    .cmux 63 2 0, .copy, .copy, .cmux 63 0 1, .none, .none, .none, .none, .none, .none,
    .cmux 31 3 0, .copy, .copy, .none, .none, .none, .none, .none, .none, .none,
    .cmux 64 0 1, .copy, .copy, .cmux 64 2 0, .none, .none, .none, .none, .none, .none,
    .cmux 32 0 3, .copy, .copy, .none, .none, .none, .none, .none, .none, .none,
    .cmux 65 0 1, .copy, .copy, .cmux 65 2 0, .none, .none, .none, .none, .none, .none,
    .cmux 33 0 3, .copy, .copy, .none, .none, .none, .none, .none, .none, .none,
    .cmux 66 2 0, .copy, .copy, .cmux 66 0 1, .none, .none, .none, .none, .none, .none,
    .cmux 34 3 0, .copy, .copy, .none, .none, .none, .none, .none, .none, .none,
    .cmux 67 0 1, .cmux 67 0 2, .cmux 67 1 0, .cmux 67 2 0, .none, .none, .none, .none, .none, .none,
    .cmux 35 0 3, .cmux 35 1 2, .none, .none, .none, .none, .none, .none, .none, .none,
    .cmux 2 1 0, .none, .none, .none, .none, .none, .none, .none, .none, .none]

def b13 : BitCircuit where
  maxInterState := 10
  nodes := [
    .cmux 17 0 1, .cmux 81 1 0, .cmux 113 0 1, .cmux 113 1 0, .cmux 17 1 0, .cmux 81 0 1, .none, .none, .none, .none,
    .cmux 17 2 3, .copy, .cmux 80 5 1, .cmux 81 3 2, .copy, .cmux 81 2 3, .cmux 17 3 2, .cmux 16 0 4, .none, .none,
    .copy, .copy, .cmux 112 3 5, .copy, .copy, .copy, .copy, .cmux 79 2 1, .cmux 112 6 0, .cmux 15 7 4,
    .cmux 80 3 2, .copy, .cmux 78 7 1, .cmux 80 2 5, .copy, .cmux 14 9 4, .cmux 16 8 0, .cmux 16 6 8, .none, .none,
    .copy, .copy, .cmux 111 0 3, .copy, .copy, .cmux 13 5 4, .copy, .copy, .cmux 77 2 1, .cmux 111 7 6,
    .cmux 76 8 1, .copy, .cmux 15 9 6, .cmux 12 5 4, .copy, .cmux 79 2 3, .cmux 15 7 9, .cmux 79 0 2, .none, .none,
    .cmux 110 7 5, .copy, .copy, .cmux 11 3 4, .copy, .copy, .copy, .copy, .cmux 110 6 2, .cmux 75 0 1,
    .cmux 78 7 0, .copy, .cmux 74 9 1, .cmux 14 6 8, .copy, .cmux 78 0 5, .cmux 14 8 2, .cmux 10 3 4, .none, .none,
    .copy, .copy, .cmux 73 2 1, .copy, .copy, .copy, .copy, .cmux 9 7 4, .cmux 109 3 6, .cmux 109 0 5,
    .cmux 8 7 4, .copy, .cmux 13 8 6, .cmux 13 3 8, .copy, .cmux 77 0 9, .cmux 77 9 5, .cmux 72 2 1, .none, .none,
    .cmux 71 7 1, .copy, .copy, .copy, .copy, .copy, .copy, .cmux 108 5 6, .cmux 7 0 4, .cmux 108 3 2,
    .cmux 76 5 7, .cmux 12 3 9, .cmux 12 9 2, .cmux 6 8 4, .cmux 76 7 6, .cmux 70 0 1, .none, .none, .none, .none,
    .copy, .copy, .copy, .cmux 0 3 5, .copy, .copy, .cmux 107 0 4, .cmux 107 1 2, .none, .none,
    .cmux 75 0 6, .cmux 75 6 4, .cmux 11 7 2, .cmux 1 3 5, .cmux 11 1 7, .copy, .none, .none, .none, .none,
    .copy, .copy, .copy, .cmux 106 0 1, .copy, .cmux 106 4 2, .cmux 2 3 5, .none, .none, .none,
    .cmux 10 4 5, .cmux 10 5 2, .cmux 74 3 1, .cmux 74 0 3, .none, .none, .copy, .none, .none, .none,
    .copy, .copy, .copy, .copy, .cmux 105 3 2, .cmux 105 0 1, .copy, .none, .none, .none,
    .cmux 9 0 5, .cmux 73 3 4, .cmux 73 4 2, .cmux 9 5 1, .none, .none, .copy, .none, .none, .none,
    .copy, .copy, .copy, .copy, .cmux 104 0 3, .cmux 104 1 2, .copy, .none, .none, .none,
    .cmux 72 1 5, .cmux 8 4 3, .cmux 8 0 4, .cmux 72 5 2, .none, .none, .copy, .none, .none, .none,
    .copy, .copy, .copy, .copy, .cmux 103 2 1, .cmux 103 0 3, .copy, .none, .none, .none,
    .cmux 7 4 1, .cmux 71 0 5, .cmux 71 5 3, .cmux 7 2 4, .none, .none, .copy, .none, .none, .none,
    .copy, .copy, .copy, .copy, .cmux 102 3 0, .cmux 102 1 2, .copy, .none, .none, .none,
    .cmux 6 4 0, .cmux 6 3 4, .cmux 70 1 5, .cmux 70 5 2, .none, .none, .copy, .none, .none, .none,
    .copy, .copy, .copy, .copy, .cmux 101 1 0, .cmux 101 2 3, .copy, .none, .none, .none,
    .cmux 5 4 0, .cmux 69 2 5, .cmux 5 1 4, .cmux 69 5 3, .none, .none, .copy, .none, .none, .none,
    .copy, .cmux 100 2 0, .cmux 100 1 3, .copy, .none, .none, .copy, .none, .none, .none,
    .cmux 68 2 3, .cmux 4 1 0, .none, .none, .none, .none, .copy, .none, .none, .none,
    .copy, .cmux 0 1 0, .none, .none, .none, .none, .copy, .none, .none, .none,
    .copy, .cmux 1 1 0, .none, .none, .none, .none, .copy, .none, .none, .none,
    .cmux 2 1 0, .none, .none, .none, .none, .none, .copy, .none, .none, .none,
    .copy, .cmux 1 0 6, .cmux 0 0 6, .cmux 0 6 0, .none, .none, .copy, .none, .none, .none,
    .cmux 1 0 3, .copy, .cmux 1 2 6, .cmux 1 2 3, .none, .none, .none, .none, .none, .none,
    .cmux 2 3 2, .cmux 2 2 3, .cmux 2 0 1, .cmux 2 1 0, .none, .none, .none, .none, .none, .none,
    .cmux 3 3 1, .cmux 3 0 2, .cmux 3 2 0, .none, .none, .none, .none, .none, .none, .none,
    .cmux 36 1 0, .copy, .copy, .cmux 36 0 2, .none, .none, .none, .none, .none, .none,
    .cmux 4 3 0, .copy, .copy, .none, .none, .none, .none, .none, .none, .none,
    .cmux 37 0 2, .copy, .copy, .cmux 37 1 0, .none, .none, .none, .none, .none, .none,
    .cmux 5 0 3, .copy, .copy, .none, .none, .none, .none, .none, .none, .none,
    .cmux 38 0 2, .copy, .copy, .cmux 38 1 0, .none, .none, .none, .none, .none, .none,
    .cmux 6 0 3, .copy, .copy, .none, .none, .none, .none, .none, .none, .none,
    .cmux 39 1 0, .copy, .copy, .cmux 39 0 2, .none, .none, .none, .none, .none, .none,
    .cmux 7 3 0, .copy, .copy, .none, .none, .none, .none, .none, .none, .none,
    .cmux 40 0 2, .copy, .copy, .cmux 40 1 0, .none, .none, .none, .none, .none, .none,
    .cmux 8 0 3, .copy, .copy, .none, .none, .none, .none, .none, .none, .none,
    .cmux 41 1 0, .copy, .copy, .cmux 41 0 2, .none, .none, .none, .none, .none, .none,
    .cmux 9 3 0, .copy, .copy, .none, .none, .none, .none, .none, .none, .none,
    .cmux 42 0 2, .copy, .copy, .cmux 42 1 0, .none, .none, .none, .none, .none, .none,
    .cmux 10 0 3, .copy, .copy, .none, .none, .none, .none, .none, .none, .none,
    .cmux 43 1 0, .copy, .copy, .cmux 43 0 2, .none, .none, .none, .none, .none, .none,
    .cmux 11 3 0, .copy, .copy, .none, .none, .none, .none, .none, .none, .none,
    .cmux 44 0 2, .copy, .copy, .cmux 44 1 0, .none, .none, .none, .none, .none, .none,
    .cmux 12 0 3, .copy, .copy, .none, .none, .none, .none, .none, .none, .none,
    .cmux 45 1 0, .copy, .copy, .cmux 45 0 2, .none, .none, .none, .none, .none, .none,
    .cmux 13 3 0, .copy, .copy, .none, .none, .none, .none, .none, .none, .none,
    .cmux 46 1 0, .copy, .copy, .cmux 46 0 2, .none, .none, .none, .none, .none, .none,
    .cmux 14 3 0, .copy, .copy, .none, .none, .none, .none, .none, .none, .none,
    .cmux 47 0 2, .copy, .copy, .cmux 47 1 0, .none, .none, .none, .none, .none, .none,
    .cmux 15 0 3, .copy, .copy, .none, .none, .none, .none, .none, .none, .none,
    .cmux 48 1 0, .copy, .copy, .cmux 48 0 2, .none, .none, .none, .none, .none, .none,
    .cmux 16 3 0, .copy, .copy, .none, .none, .none, .none, .none, .none, .none,
    .cmux 49 1 0, .copy, .copy, .cmux 49 0 2, .none, .none, .none, .none, .none, .none,
    .cmux 17 3 0, .copy, .copy, .none, .none, .none, .none, .none, .none, .none,
    .cmux 50 0 2, .copy, .copy, .cmux 50 1 0, .none, .none, .none, .none, .none, .none,
    .cmux 18 0 3, .copy, .copy, .none, .none, .none, .none, .none, .none, .none,
    .cmux 51 0 2, .copy, .copy, .cmux 51 1 0, .none, .none, .none, .none, .none, .none,
    .cmux 19 0 3, .copy, .copy, .none, .none, .none, .none, .none, .none, .none,
    .cmux 52 1 0, .copy, .copy, .cmux 52 0 2, .none, .none, .none, .none, .none, .none,
    .cmux 20 3 0, .copy, .copy, .none, .none, .none, .none, .none, .none, .none,
    .cmux 53 1 0, .copy, .copy, .cmux 53 0 2, .none, .none, .none, .none, .none, .none,
    .cmux 21 3 0, .copy, .copy, .none, .none, .none, .none, .none, .none, .none,
    .cmux 54 1 0, .copy, .copy, .cmux 54 0 2, .none, .none, .none, .none, .none, .none,
    .cmux 22 3 0, .copy, .copy, .none, .none, .none, .none, .none, .none, .none,
    .cmux 55 0 2, .copy, .copy, .cmux 55 1 0, .none, .none, .none, .none, .none, .none,
    .cmux 23 0 3, .copy, .copy, .none, .none, .none, .none, .none, .none, .none,
    .cmux 56 0 2, .copy, .copy, .cmux 56 1 0, .none, .none, .none, .none, .none, .none,
    .cmux 24 0 3, .copy, .copy, .none, .none, .none, .none, .none, .none, .none,
    .cmux 57 0 2, .copy, .copy, .cmux 57 1 0, .none, .none, .none, .none, .none, .none,
    .cmux 25 0 3, .copy, .copy, .none, .none, .none, .none, .none, .none, .none,
    .cmux 58 1 0, .copy, .copy, .cmux 58 0 2, .none, .none, .none, .none, .none, .none,
    .cmux 26 3 0, .copy, .copy, .none, .none, .none, .none, .none, .none, .none,
    .cmux 59 1 0, .copy, .copy, .cmux 59 0 2, .none, .none, .none, .none, .none, .none,
    .cmux 27 3 0, .copy, .copy, .none, .none, .none, .none, .none, .none, .none,
    .cmux 60 0 2, .copy, .copy, .cmux 60 1 0, .none, .none, .none, .none, .none, .none,
    .cmux 28 0 3, .copy, .copy, .none, .none, .none, .none, .none, .none, .none,
    .cmux 61 0 2, .copy, .copy, .cmux 61 1 0, .none, .none, .none, .none, .none, .none,
    .cmux 29 0 3, .copy, .copy, .none, .none, .none, .none, .none, .none, .none,
    .cmux 62 1 0, .copy, .copy, .cmux 62 0 2, .none, .none, .none, .none, .none, .none,
    .cmux 30 3 0, .copy, .copy, .none, .none, .none, .none, .none, .none, .none,
    .cmux 63 0 2, .copy, .copy, .cmux 63 1 0, .none, .none, .none, .none, .none, .none,
    .cmux 31 0 3, .copy, .copy, .none, .none, .none, .none, .none, .none, .none,
    .cmux 64 1 0, .copy, .copy, .cmux 64 0 2, .none, .none, .none, .none, .none, .none,
    .cmux 32 3 0, .copy, .copy, .none, .none, .none, .none, .none, .none, .none,
    .cmux 65 1 0, .copy, .copy, .cmux 65 0 2, .none, .none, .none, .none, .none, .none,
    .cmux 33 3 0, .copy, .copy, .none, .none, .none, .none, .none, .none, .none,
    .cmux 66 0 2, .copy, .copy, .cmux 66 1 0, .none, .none, .none, .none, .none, .none,
    .cmux 34 0 3, .copy, .copy, .none, .none, .none, .none, .none, .none, .none,
    .cmux 67 1 0, .cmux 67 2 0, .cmux 67 0 1, .cmux 67 0 2, .none, .none, .none, .none, .none, .none,
    .cmux 35 2 1, .cmux 35 3 0, .none, .none, .none, .none, .none, .none, .none, .none,
    .cmux 2 0 1, .none, .none, .none, .none, .none, .none, .none, .none, .none]

def b14 : BitCircuit where
  maxInterState := 10
  nodes := [
    .cmux 18 1 0, .cmux 82 0 1, .cmux 82 1 0, .cmux 114 1 0, .cmux 114 0 1, .cmux 18 0 1, .none, .none, .none, .none,
    .copy, .cmux 81 1 2, .copy, .cmux 18 4 3, .cmux 82 3 4, .cmux 82 4 3, .cmux 18 3 4, .cmux 17 5 0, .none, .none,
    .copy, .cmux 113 4 5, .copy, .copy, .copy, .copy, .copy, .cmux 16 7 0, .cmux 80 1 2, .cmux 113 6 3,
    .copy, .cmux 17 9 3, .copy, .cmux 79 8 2, .cmux 81 1 5, .cmux 15 7 0, .cmux 81 4 1, .cmux 17 6 9, .none, .none,
    .copy, .copy, .copy, .cmux 112 7 1, .copy, .cmux 78 3 2, .copy, .copy, .cmux 112 6 4, .cmux 14 5 0,
    .copy, .cmux 80 8 4, .copy, .cmux 16 3 1, .cmux 13 9 0, .cmux 77 5 2, .cmux 80 6 8, .cmux 16 7 3, .none, .none,
    .copy, .copy, .copy, .copy, .cmux 76 5 2, .cmux 12 4 0, .copy, .copy, .cmux 111 7 3, .cmux 111 6 1,
    .copy, .cmux 75 4 2, .copy, .cmux 15 8 3, .cmux 11 5 0, .cmux 15 7 8, .cmux 79 6 9, .cmux 79 9 1, .none, .none,
    .copy, .cmux 110 5 3, .copy, .copy, .cmux 74 1 2, .copy, .copy, .copy, .cmux 110 6 7, .cmux 10 4 0,
    .copy, .cmux 78 8 7, .copy, .cmux 73 4 2, .cmux 78 6 8, .cmux 9 9 0, .cmux 14 5 1, .cmux 14 1 3, .none, .none,
    .copy, .copy, .copy, .cmux 8 5 0, .copy, .cmux 109 6 7, .copy, .copy, .cmux 109 4 1, .cmux 72 3 2,
    .copy, .cmux 77 4 8, .copy, .cmux 7 3 0, .cmux 13 5 7, .cmux 77 8 1, .cmux 13 6 5, .cmux 71 9 2, .none, .none,
    .cmux 108 6 4, .copy, .cmux 70 7 2, .cmux 108 1 5, .copy, .copy, .copy, .cmux 6 3 0, .none, .none,
    .cmux 12 6 0, .cmux 76 1 3, .copy, .cmux 12 0 4, .cmux 76 3 5, .cmux 0 7 2, .none, .none, .none, .none,
    .copy, .copy, .copy, .copy, .copy, .cmux 107 1 4, .cmux 107 0 3, .cmux 1 5 2, .none, .none,
    .cmux 11 6 3, .cmux 11 0 6, .cmux 2 7 2, .cmux 75 1 5, .cmux 75 5 4, .none, .none, .none, .none, .none,
    .copy, .copy, .copy, .copy, .copy, .cmux 106 1 0, .cmux 106 3 4, .none, .none, .none,
    .cmux 74 3 6, .cmux 10 5 0, .copy, .cmux 74 6 4, .cmux 10 1 5, .none, .none, .none, .none, .none,
    .copy, .copy, .copy, .copy, .copy, .cmux 105 4 1, .cmux 105 0 3, .none, .none, .none,
    .cmux 73 0 6, .cmux 9 5 1, .copy, .cmux 73 6 3, .cmux 9 4 5, .none, .none, .none, .none, .none,
    .copy, .copy, .copy, .copy, .copy, .cmux 104 4 1, .cmux 104 0 3, .none, .none, .none,
    .cmux 8 4 5, .cmux 72 0 6, .copy, .cmux 72 6 3, .cmux 8 5 1, .none, .none, .none, .none, .none,
    .copy, .copy, .copy, .copy, .copy, .cmux 103 0 4, .cmux 103 1 3, .none, .none, .none,
    .cmux 71 6 3, .cmux 71 1 6, .copy, .cmux 7 5 4, .cmux 7 0 5, .none, .none, .none, .none, .none,
    .copy, .copy, .copy, .copy, .copy, .cmux 102 1 0, .cmux 102 4 3, .none, .none, .none,
    .cmux 6 4 6, .cmux 70 1 5, .copy, .cmux 70 5 0, .cmux 6 6 3, .none, .none, .none, .none, .none,
    .copy, .copy, .copy, .copy, .copy, .cmux 101 0 4, .cmux 101 1 3, .none, .none, .none,
    .cmux 5 5 4, .cmux 69 1 6, .copy, .cmux 69 6 3, .cmux 5 0 5, .none, .none, .none, .none, .none,
    .copy, .cmux 100 1 3, .copy, .copy, .cmux 100 4 0, .none, .none, .none, .none, .none,
    .cmux 68 1 3, .cmux 4 4 0, .copy, .none, .none, .none, .none, .none, .none, .none,
    .copy, .cmux 0 1 0, .copy, .none, .none, .none, .none, .none, .none, .none,
    .copy, .cmux 1 1 0, .copy, .none, .none, .none, .none, .none, .none, .none,
    .cmux 2 1 0, .none, .copy, .none, .none, .none, .none, .none, .none, .none,
    .copy, .cmux 1 0 2, .copy, .cmux 0 0 2, .cmux 0 2 0, .none, .none, .none, .none, .none,
    .cmux 1 3 4, .copy, .cmux 1 3 2, .cmux 1 0 4, .none, .none, .none, .none, .none, .none,
    .cmux 2 1 3, .cmux 2 3 1, .cmux 2 0 2, .cmux 2 2 0, .none, .none, .none, .none, .none, .none,
    .cmux 3 0 3, .cmux 3 1 2, .cmux 3 2 1, .none, .none, .none, .none, .none, .none, .none,
    .cmux 36 2 0, .copy, .copy, .cmux 36 0 1, .none, .none, .none, .none, .none, .none,
    .cmux 4 3 0, .copy, .copy, .none, .none, .none, .none, .none, .none, .none,
    .cmux 37 0 1, .copy, .copy, .cmux 37 2 0, .none, .none, .none, .none, .none, .none,
    .cmux 5 0 3, .copy, .copy, .none, .none, .none, .none, .none, .none, .none,
    .cmux 38 2 0, .copy, .copy, .cmux 38 0 1, .none, .none, .none, .none, .none, .none,
    .cmux 6 3 0, .copy, .copy, .none, .none, .none, .none, .none, .none, .none,
    .cmux 39 0 1, .copy, .copy, .cmux 39 2 0, .none, .none, .none, .none, .none, .none,
    .cmux 7 0 3, .copy, .copy, .none, .none, .none, .none, .none, .none, .none,
    .cmux 40 2 0, .copy, .copy, .cmux 40 0 1, .none, .none, .none, .none, .none, .none,
    .cmux 8 3 0, .copy, .copy, .none, .none, .none, .none, .none, .none, .none,
    .cmux 41 0 1, .copy, .copy, .cmux 41 2 0, .none, .none, .none, .none, .none, .none,
    .cmux 9 0 3, .copy, .copy, .none, .none, .none, .none, .none, .none, .none,
    .cmux 42 0 1, .copy, .copy, .cmux 42 2 0, .none, .none, .none, .none, .none, .none,
    .cmux 10 0 3, .copy, .copy, .none, .none, .none, .none, .none, .none, .none,
    .cmux 43 2 0, .copy, .copy, .cmux 43 0 1, .none, .none, .none, .none, .none, .none,
    .cmux 11 3 0, .copy, .copy, .none, .none, .none, .none, .none, .none, .none,
    .cmux 44 2 0, .copy, .copy, .cmux 44 0 1, .none, .none, .none, .none, .none, .none,
    .cmux 12 3 0, .copy, .copy, .none, .none, .none, .none, .none, .none, .none,
    .cmux 45 2 0, .copy, .copy, .cmux 45 0 1, .none, .none, .none, .none, .none, .none,
    .cmux 13 3 0, .copy, .copy, .none, .none, .none, .none, .none, .none, .none,
    .cmux 46 2 0, .copy, .copy, .cmux 46 0 1, .none, .none, .none, .none, .none, .none,
    .cmux 14 3 0, .copy, .copy, .none, .none, .none, .none, .none, .none, .none,
    .cmux 47 0 1, .copy, .copy, .cmux 47 2 0, .none, .none, .none, .none, .none, .none,
    .cmux 15 0 3, .copy, .copy, .none, .none, .none, .none, .none, .none, .none,
    .cmux 48 0 1, .copy, .copy, .cmux 48 2 0, .none, .none, .none, .none, .none, .none,
    .cmux 16 0 3, .copy, .copy, .none, .none, .none, .none, .none, .none, .none,
    .cmux 49 0 1, .copy, .copy, .cmux 49 2 0, .none, .none, .none, .none, .none, .none,
    .cmux 17 0 3, .copy, .copy, .none, .none, .none, .none, .none, .none, .none,
    .cmux 50 0 1, .copy, .copy, .cmux 50 2 0, .none, .none, .none, .none, .none, .none,
    .cmux 18 0 3, .copy, .copy, .none, .none, .none, .none, .none, .none, .none,
    .cmux 51 2 0, .copy, .copy, .cmux 51 0 1, .none, .none, .none, .none, .none, .none,
    .cmux 19 3 0, .copy, .copy, .none, .none, .none, .none, .none, .none, .none,
    .cmux 52 2 0, .copy, .copy, .cmux 52 0 1, .none, .none, .none, .none, .none, .none,
    .cmux 20 3 0, .copy, .copy, .none, .none, .none, .none, .none, .none, .none,
    .cmux 53 2 0, .copy, .copy, .cmux 53 0 1, .none, .none, .none, .none, .none, .none,
    .cmux 21 3 0, .copy, .copy, .none, .none, .none, .none, .none, .none, .none,
    .cmux 54 2 0, .copy, .copy, .cmux 54 0 1, .none, .none, .none, .none, .none, .none,
    .cmux 22 3 0, .copy, .copy, .none, .none, .none, .none, .none, .none, .none,
    .cmux 55 0 1, .copy, .copy, .cmux 55 2 0, .none, .none, .none, .none, .none, .none,
    .cmux 23 0 3, .copy, .copy, .none, .none, .none, .none, .none, .none, .none,
    .cmux 56 2 0, .copy, .copy, .cmux 56 0 1, .none, .none, .none, .none, .none, .none,
    .cmux 24 3 0, .copy, .copy, .none, .none, .none, .none, .none, .none, .none,
    .cmux 57 0 1, .copy, .copy, .cmux 57 2 0, .none, .none, .none, .none, .none, .none,
    .cmux 25 0 3, .copy, .copy, .none, .none, .none, .none, .none, .none, .none,
    .cmux 58 2 0, .copy, .copy, .cmux 58 0 1, .none, .none, .none, .none, .none, .none,
    .cmux 26 3 0, .copy, .copy, .none, .none, .none, .none, .none, .none, .none,
    .cmux 59 0 1, .copy, .copy, .cmux 59 2 0, .none, .none, .none, .none, .none, .none,
    .cmux 27 0 3, .copy, .copy, .none, .none, .none, .none, .none, .none, .none,
    .cmux 60 0 1, .copy, .copy, .cmux 60 2 0, .none, .none, .none, .none, .none, .none,
    .cmux 28 0 3, .copy, .copy, .none, .none, .none, .none, .none, .none, .none,
    .cmux 61 0 1, .copy, .copy, .cmux 61 2 0, .none, .none, .none, .none, .none, .none,
    .cmux 29 0 3, .copy, .copy, .none, .none, .none, .none, .none, .none, .none,
    .cmux 62 0 1, .copy, .copy, .cmux 62 2 0, .none, .none, .none, .none, .none, .none,
    .cmux 30 0 3, .copy, .copy, .none, .none, .none, .none, .none, .none, .none,
    .cmux 63 2 0, .copy, .copy, .cmux 63 0 1, .none, .none, .none, .none, .none, .none,
    .cmux 31 3 0, .copy, .copy, .none, .none, .none, .none, .none, .none, .none,
    .cmux 64 2 0, .copy, .copy, .cmux 64 0 1, .none, .none, .none, .none, .none, .none,
    .cmux 32 3 0, .copy, .copy, .none, .none, .none, .none, .none, .none, .none,
    .cmux 65 2 0, .copy, .copy, .cmux 65 0 1, .none, .none, .none, .none, .none, .none,
    .cmux 33 3 0, .copy, .copy, .none, .none, .none, .none, .none, .none, .none,
    .cmux 66 2 0, .copy, .copy, .cmux 66 0 1, .none, .none, .none, .none, .none, .none,
    .cmux 34 3 0, .copy, .copy, .none, .none, .none, .none, .none, .none, .none,
    .cmux 67 0 2, .cmux 67 1 0, .cmux 67 0 1, .cmux 67 2 0, .none, .none, .none, .none, .none, .none,
    .cmux 35 2 3, .cmux 35 0 1, .none, .none, .none, .none, .none, .none, .none, .none,
    .cmux 2 1 0, .none, .none, .none, .none, .none, .none, .none, .none, .none]

def b15 : BitCircuit where
  maxInterState := 10
  nodes := [
    .cmux 83 1 0, .cmux 19 0 1, .cmux 115 1 0, .cmux 83 0 1, .cmux 115 0 1, .cmux 19 1 0, .none, .none, .none, .none,
    .copy, .cmux 19 2 4, .cmux 82 3 0, .cmux 18 1 5, .cmux 83 2 4, .copy, .cmux 83 4 2, .cmux 19 4 2, .none, .none,
    .copy, .copy, .cmux 114 4 6, .cmux 114 1 7, .copy, .copy, .copy, .copy, .cmux 81 2 0, .cmux 17 3 5,
    .copy, .cmux 80 8 0, .cmux 18 3 7, .cmux 18 1 3, .cmux 16 9 5, .copy, .cmux 82 2 6, .cmux 82 4 2, .none, .none,
    .copy, .cmux 113 3 2, .copy, .copy, .cmux 79 1 0, .copy, .copy, .copy, .cmux 15 4 5, .cmux 113 7 6,
    .copy, .cmux 78 4 0, .cmux 81 7 9, .cmux 81 9 6, .cmux 17 1 2, .copy, .cmux 17 3 1, .cmux 14 8 5, .none, .none,
    .copy, .cmux 13 7 5, .copy, .copy, .copy, .copy, .copy, .cmux 112 6 4, .cmux 77 1 0, .cmux 112 2 3,
    .copy, .cmux 80 9 3, .cmux 76 8 0, .cmux 16 7 4, .cmux 16 6 7, .copy, .cmux 12 1 5, .cmux 80 2 9, .none, .none,
    .copy, .copy, .cmux 75 2 0, .copy, .copy, .copy, .cmux 11 6 5, .copy, .cmux 111 4 3, .cmux 111 7 1,
    .copy, .cmux 15 4 8, .cmux 15 8 3, .cmux 10 6 5, .cmux 74 2 0, .copy, .cmux 79 9 1, .cmux 79 7 9, .none, .none,
    .copy, .copy, .copy, .cmux 110 1 2, .cmux 9 3 5, .copy, .copy, .copy, .cmux 110 7 6, .cmux 73 4 0,
    .copy, .cmux 14 3 2, .cmux 78 7 8, .cmux 78 8 6, .cmux 8 4 5, .copy, .cmux 72 9 0, .cmux 14 1 3, .none, .none,
    .copy, .copy, .copy, .copy, .cmux 71 6 0, .copy, .cmux 109 7 1, .copy, .cmux 109 2 3, .cmux 7 4 5,
    .cmux 77 2 8, .cmux 13 7 6, .cmux 70 4 0, .cmux 6 9 5, .cmux 13 6 1, .cmux 77 8 3, .none, .none, .none, .none,
    .copy, .copy, .copy, .cmux 108 0 5, .copy, .copy, .cmux 108 1 4, .cmux 0 3 2, .none, .none,
    .cmux 76 3 5, .cmux 76 0 3, .copy, .cmux 12 1 6, .cmux 12 6 4, .cmux 1 7 2, .none, .none, .none, .none,
    .copy, .copy, .cmux 107 1 0, .copy, .copy, .cmux 2 5 2, .cmux 107 3 4, .none, .none, .none,
    .cmux 75 1 2, .cmux 11 3 6, .cmux 75 2 0, .cmux 11 6 4, .none, .copy, .none, .none, .none, .none,
    .copy, .copy, .copy, .copy, .cmux 106 1 3, .copy, .cmux 106 0 2, .none, .none, .none,
    .cmux 10 1 4, .cmux 74 0 6, .cmux 74 6 2, .cmux 10 4 3, .none, .copy, .none, .none, .none, .none,
    .copy, .copy, .copy, .copy, .cmux 105 1 2, .copy, .cmux 105 0 3, .none, .none, .none,
    .cmux 9 0 6, .cmux 73 1 4, .cmux 9 6 3, .cmux 73 4 2, .none, .copy, .none, .none, .none, .none,
    .copy, .copy, .copy, .copy, .cmux 104 1 3, .copy, .cmux 104 0 2, .none, .none, .none,
    .cmux 8 0 6, .cmux 72 4 3, .cmux 8 6 2, .cmux 72 1 4, .none, .copy, .none, .none, .none, .none,
    .copy, .copy, .copy, .copy, .cmux 103 3 1, .copy, .cmux 103 0 2, .none, .none, .none,
    .cmux 7 0 6, .cmux 71 4 1, .cmux 7 6 2, .cmux 71 3 4, .none, .copy, .none, .none, .none, .none,
    .copy, .copy, .copy, .copy, .cmux 102 3 1, .copy, .cmux 102 0 2, .none, .none, .none,
    .cmux 6 0 6, .cmux 70 4 1, .cmux 70 3 4, .cmux 6 6 2, .none, .copy, .none, .none, .none, .none,
    .copy, .copy, .copy, .copy, .cmux 101 0 3, .copy, .cmux 101 2 1, .none, .none, .none,
    .cmux 5 0 4, .cmux 69 2 6, .cmux 69 6 1, .cmux 5 4 3, .none, .copy, .none, .none, .none, .none,
    .cmux 100 1 2, .cmux 100 0 3, .copy, .copy, .none, .copy, .none, .none, .none, .none,
    .cmux 68 0 2, .cmux 4 1 3, .none, .none, .none, .copy, .none, .none, .none, .none,
    .copy, .cmux 0 1 0, .none, .none, .none, .copy, .none, .none, .none, .none,
    .copy, .cmux 1 1 0, .none, .none, .none, .copy, .none, .none, .none, .none,
    .cmux 2 1 0, .none, .none, .none, .none, .copy, .none, .none, .none, .none,
    .copy, .cmux 0 5 0, .cmux 1 0 5, .cmux 0 0 5, .none, .copy, .none, .none, .none, .none,
    .cmux 1 3 5, .cmux 1 3 1, .copy, .cmux 1 0 1, .none, .none, .none, .none, .none, .none,
    .cmux 2 3 2, .cmux 2 2 3, .cmux 2 1 0, .cmux 2 0 1, .none, .none, .none, .none, .none, .none,
    .cmux 3 0 2, .cmux 3 2 0, .cmux 3 1 3, .none, .none, .none, .none, .none, .none, .none,
    .copy, .copy, .cmux 36 2 0, .cmux 36 1 2, .none, .none, .none, .none, .none, .none,
    .copy, .copy, .cmux 4 2 3, .none, .none, .none, .none, .none, .none, .none,
    .copy, .copy, .cmux 37 2 0, .cmux 37 1 2, .none, .none, .none, .none, .none, .none,
    .copy, .copy, .cmux 5 2 3, .none, .none, .none, .none, .none, .none, .none,
    .copy, .copy, .cmux 38 1 2, .cmux 38 2 0, .none, .none, .none, .none, .none, .none,
    .copy, .copy, .cmux 6 3 2, .none, .none, .none, .none, .none, .none, .none,
    .copy, .copy, .cmux 39 1 2, .cmux 39 2 0, .none, .none, .none, .none, .none, .none,
    .copy, .copy, .cmux 7 3 2, .none, .none, .none, .none, .none, .none, .none,
    .copy, .copy, .cmux 40 1 2, .cmux 40 2 0, .none, .none, .none, .none, .none, .none,
    .copy, .copy, .cmux 8 3 2, .none, .none, .none, .none, .none, .none, .none,
    .copy, .copy, .cmux 41 1 2, .cmux 41 2 0, .none, .none, .none, .none, .none, .none,
    .copy, .copy, .cmux 9 3 2, .none, .none, .none, .none, .none, .none, .none,
    .copy, .copy, .cmux 42 1 2, .cmux 42 2 0, .none, .none, .none, .none, .none, .none,
    .copy, .copy, .cmux 10 3 2, .none, .none, .none, .none, .none, .none, .none,
    .copy, .copy, .cmux 43 1 2, .cmux 43 2 0, .none, .none, .none, .none, .none, .none,
    .copy, .copy, .cmux 11 3 2, .none, .none, .none, .none, .none, .none, .none,
    .copy, .copy, .cmux 44 2 0, .cmux 44 1 2, .none, .none, .none, .none, .none, .none,
    .copy, .copy, .cmux 12 2 3, .none, .none, .none, .none, .none, .none, .none,
    .copy, .copy, .cmux 45 1 2, .cmux 45 2 0, .none, .none, .none, .none, .none, .none,
    .copy, .copy, .cmux 13 3 2, .none, .none, .none, .none, .none, .none, .none,
    .copy, .copy, .cmux 46 1 2, .cmux 46 2 0, .none, .none, .none, .none, .none, .none,
    .copy, .copy, .cmux 14 3 2, .none, .none, .none, .none, .none, .none, .none,
    .copy, .copy, .cmux 47 2 0, .cmux 47 1 2, .none, .none, .none, .none, .none, .none,
    .copy, .copy, .cmux 15 2 3, .none, .none, .none, .none, .none, .none, .none,
    .copy, .copy, .cmux 48 1 2, .cmux 48 2 0, .none, .none, .none, .none, .none, .none,
    .copy, .copy, .cmux 16 3 2, .none, .none, .none, .none, .none, .none, .none,
    .copy, .copy, .cmux 49 2 0, .cmux 49 1 2, .none, .none, .none, .none, .none, .none,
    .copy, .copy, .cmux 17 2 3, .none, .none, .none, .none, .none, .none, .none,
    .copy, .copy, .cmux 50 1 2, .cmux 50 2 0, .none, .none, .none, .none, .none, .none,
    .copy, .copy, .cmux 18 3 2, .none, .none, .none, .none, .none, .none, .none,
    .copy, .copy, .cmux 51 2 0, .cmux 51 1 2, .none, .none, .none, .none, .none, .none,
    .copy, .copy, .cmux 19 2 3, .none, .none, .none, .none, .none, .none, .none,
    .copy, .copy, .cmux 52 2 0, .cmux 52 1 2, .none, .none, .none, .none, .none, .none,
    .copy, .copy, .cmux 20 2 3, .none, .none, .none, .none, .none, .none, .none,
    .copy, .copy, .cmux 53 1 2, .cmux 53 2 0, .none, .none, .none, .none, .none, .none,
    .copy, .copy, .cmux 21 3 2, .none, .none, .none, .none, .none, .none, .none,
    .copy, .copy, .cmux 54 2 0, .cmux 54 1 2, .none, .none, .none, .none, .none, .none,
    .copy, .copy, .cmux 22 2 3, .none, .none, .none, .none, .none, .none, .none,
    .copy, .copy, .cmux 55 2 0, .cmux 55 1 2, .none, .none, .none, .none, .none, .none,
    .copy, .copy, .cmux 23 2 3, .none, .none, .none, .none, .none, .none, .none,
    .copy, .copy, .cmux 56 1 2, .cmux 56 2 0, .none, .none, .none, .none, .none, .none,
    .copy, .copy, .cmux 24 3 2, .none, .none, .none, .none, .none, .none, .none,
    .copy, .copy, .cmux 57 1 2, .cmux 57 2 0, .none, .none, .none, .none, .none, .none,
    .copy, .copy, .cmux 25 3 2, .none, .none, .none, .none, .none, .none, .none,
    .copy, .copy, .cmux 58 2 0, .cmux 58 1 2, .none, .none, .none, .none, .none, .none,
    .copy, .copy, .cmux 26 2 3, .none, .none, .none, .none, .none, .none, .none,
    .copy, .copy, .cmux 59 1 2, .cmux 59 2 0, .none, .none, .none, .none, .none, .none,
    .copy, .copy, .cmux 27 3 2, .none, .none, .none, .none, .none, .none, .none,
    .copy, .copy, .cmux 60 1 2, .cmux 60 2 0, .none, .none, .none, .none, .none, .none,
    .copy, .copy, .cmux 28 3 2, .none, .none, .none, .none, .none, .none, .none,
    .copy, .copy, .cmux 61 2 0, .cmux 61 1 2, .none, .none, .none, .none, .none, .none,
    .copy, .copy, .cmux 29 2 3, .none, .none, .none, .none, .none, .none, .none,
    .copy, .copy, .cmux 62 1 2, .cmux 62 2 0, .none, .none, .none, .none, .none, .none,
    .copy, .copy, .cmux 30 3 2, .none, .none, .none, .none, .none, .none, .none,
    .copy, .copy, .cmux 63 1 2, .cmux 63 2 0, .none, .none, .none, .none, .none, .none,
    .copy, .copy, .cmux 31 3 2, .none, .none, .none, .none, .none, .none, .none,
    .copy, .copy, .cmux 64 1 2, .cmux 64 2 0, .none, .none, .none, .none, .none, .none,
    .copy, .copy, .cmux 32 3 2, .none, .none, .none, .none, .none, .none, .none,
    .copy, .copy, .cmux 65 2 0, .cmux 65 1 2, .none, .none, .none, .none, .none, .none,
    .copy, .copy, .cmux 33 2 3, .none, .none, .none, .none, .none, .none, .none,
    .copy, .copy, .cmux 66 2 0, .cmux 66 1 2, .none, .none, .none, .none, .none, .none,
    .copy, .copy, .cmux 34 2 3, .none, .none, .none, .none, .none, .none, .none,
    .cmux 67 0 2, .cmux 67 1 2, .cmux 67 2 1, .cmux 67 2 0, .none, .none, .none, .none, .none, .none,
    .cmux 35 2 0, .cmux 35 3 1, .none, .none, .none, .none, .none, .none, .none, .none,
    .cmux 2 0 1, .none, .none, .none, .none, .none, .none, .none, .none, .none]

def b16 : BitCircuit where
  maxInterState := 10
  nodes := [
    .cmux 84 1 0, .cmux 116 1 0, .cmux 20 0 1, .cmux 84 0 1, .cmux 20 1 0, .cmux 116 0 1, .none, .none, .none, .none,
    .copy, .cmux 84 1 5, .cmux 20 5 1, .cmux 84 5 1, .copy, .cmux 19 2 4, .cmux 83 3 0, .cmux 20 1 5, .none, .none,
    .copy, .copy, .copy, .copy, .copy, .cmux 115 7 2, .cmux 82 6 0, .copy, .cmux 18 5 4, .cmux 115 1 3,
    .copy, .cmux 83 9 3, .cmux 19 5 2, .cmux 83 1 9, .copy, .cmux 81 6 0, .cmux 19 7 5, .cmux 17 8 4, .none, .none,
    .copy, .copy, .copy, .copy, .copy, .cmux 80 5 0, .copy, .cmux 114 6 2, .cmux 114 3 1, .cmux 16 7 4,
    .copy, .cmux 82 8 1, .cmux 18 6 7, .cmux 15 9 4, .copy, .cmux 79 5 0, .cmux 18 7 2, .cmux 82 3 8, .none, .none,
    .copy, .copy, .copy, .cmux 113 7 1, .copy, .cmux 78 5 0, .copy, .copy, .cmux 14 3 4, .cmux 113 2 6,
    .copy, .cmux 17 9 6, .cmux 13 8 4, .cmux 77 5 0, .copy, .cmux 81 7 3, .cmux 17 2 9, .cmux 81 3 1, .none, .none,
    .copy, .copy, .cmux 12 2 4, .cmux 112 5 7, .copy, .copy, .copy, .copy, .cmux 76 3 0, .cmux 112 6 1,
    .copy, .cmux 16 6 9, .cmux 16 9 1, .cmux 75 8 0, .copy, .cmux 11 2 4, .cmux 80 3 7, .cmux 80 5 3, .none, .none,
    .copy, .copy, .copy, .cmux 74 3 0, .copy, .cmux 111 1 2, .copy, .copy, .cmux 111 7 6, .cmux 10 5 4,
    .copy, .cmux 15 5 2, .cmux 79 8 6, .cmux 9 9 4, .copy, .cmux 73 3 0, .cmux 79 7 8, .cmux 15 1 5, .none, .none,
    .copy, .copy, .copy, .cmux 8 3 4, .copy, .cmux 72 5 0, .copy, .copy, .cmux 110 7 1, .cmux 110 6 2,
    .copy, .cmux 14 7 8, .cmux 78 9 2, .cmux 78 6 9, .copy, .cmux 71 5 0, .cmux 14 8 1, .cmux 7 3 4, .none, .none,
    .cmux 70 5 0, .copy, .copy, .copy, .cmux 109 3 2, .cmux 109 1 6, .copy, .cmux 6 7 4, .none, .none,
    .copy, .cmux 0 7 0, .cmux 77 3 4, .cmux 13 5 6, .cmux 13 1 5, .cmux 77 4 2, .none, .none, .none, .none,
    .copy, .cmux 108 4 3, .copy, .copy, .copy, .copy, .cmux 1 1 0, .cmux 108 2 5, .none, .none,
    .cmux 2 6 0, .cmux 76 2 7, .cmux 12 1 3, .cmux 76 7 5, .cmux 12 4 1, .none, .none, .none, .none, .none,
    .copy, .copy, .copy, .copy, .copy, .cmux 107 1 3, .cmux 107 4 2, .none, .none, .none,
    .copy, .cmux 11 4 6, .cmux 11 6 2, .cmux 75 5 3, .cmux 75 1 5, .none, .none, .none, .none, .none,
    .copy, .copy, .copy, .copy, .copy, .cmux 106 1 2, .cmux 106 4 3, .none, .none, .none,
    .copy, .cmux 74 4 6, .cmux 74 6 3, .cmux 10 1 5, .cmux 10 5 2, .none, .none, .none, .none, .none,
    .copy, .copy, .copy, .copy, .copy, .cmux 105 3 4, .cmux 105 1 2, .none, .none, .none,
    .copy, .cmux 9 3 5, .cmux 73 1 6, .cmux 73 6 2, .cmux 9 5 4, .none, .none, .none, .none, .none,
    .copy, .copy, .copy, .copy, .copy, .cmux 104 1 4, .cmux 104 2 3, .none, .none, .none,
    .copy, .cmux 8 5 4, .cmux 72 2 6, .cmux 8 1 5, .cmux 72 6 3, .none, .none, .none, .none, .none,
    .copy, .copy, .copy, .copy, .copy, .cmux 103 2 4, .cmux 103 3 1, .none, .none, .none,
    .copy, .cmux 7 3 6, .cmux 71 5 4, .cmux 71 2 5, .cmux 7 6 1, .none, .none, .none, .none, .none,
    .copy, .copy, .copy, .copy, .copy, .cmux 102 3 2, .cmux 102 1 4, .none, .none, .none,
    .copy, .cmux 6 1 6, .cmux 6 6 4, .cmux 70 3 5, .cmux 70 5 2, .none, .none, .none, .none, .none,
    .copy, .copy, .copy, .copy, .copy, .cmux 101 3 4, .cmux 101 1 2, .none, .none, .none,
    .copy, .cmux 69 3 5, .cmux 69 5 4, .cmux 5 1 6, .cmux 5 6 2, .none, .none, .none, .none, .none,
    .copy, .cmux 100 3 4, .copy, .cmux 100 1 2, .copy, .none, .none, .none, .none, .none,
    .copy, .cmux 68 3 2, .cmux 4 1 4, .none, .none, .none, .none, .none, .none, .none,
    .copy, .copy, .cmux 0 2 1, .none, .none, .none, .none, .none, .none, .none,
    .copy, .copy, .cmux 1 2 1, .none, .none, .none, .none, .none, .none, .none,
    .copy, .cmux 2 2 1, .none, .none, .none, .none, .none, .none, .none, .none,
    .copy, .copy, .cmux 0 0 1, .cmux 0 1 0, .cmux 1 1 0, .none, .none, .none, .none, .none,
    .cmux 1 3 2, .cmux 1 3 0, .cmux 1 1 2, .none, .copy, .none, .none, .none, .none, .none,
    .cmux 2 4 2, .cmux 2 2 4, .cmux 2 0 1, .cmux 2 1 0, .none, .none, .none, .none, .none, .none,
    .cmux 3 2 1, .cmux 3 0 3, .cmux 3 1 2, .none, .none, .none, .none, .none, .none, .none,
    .copy, .cmux 36 1 2, .copy, .cmux 36 0 1, .none, .none, .none, .none, .none, .none,
    .copy, .cmux 4 1 3, .copy, .none, .none, .none, .none, .none, .none, .none,
    .copy, .cmux 37 1 2, .copy, .cmux 37 0 1, .none, .none, .none, .none, .none, .none,
    .copy, .cmux 5 1 3, .copy, .none, .none, .none, .none, .none, .none, .none,
    .copy, .cmux 38 1 2, .copy, .cmux 38 0 1, .none, .none, .none, .none, .none, .none,
    .copy, .cmux 6 1 3, .copy, .none, .none, .none, .none, .none, .none, .none,
    .copy, .cmux 39 1 2, .copy, .cmux 39 0 1, .none, .none, .none, .none, .none, .none,
    .copy, .cmux 7 1 3, .copy, .none, .none, .none, .none, .none, .none, .none,
    .copy, .cmux 40 0 1, .copy, .cmux 40 1 2, .none, .none, .none, .none, .none, .none,
    .copy, .cmux 8 3 1, .copy, .none, .none, .none, .none, .none, .none, .none,
    .copy, .cmux 41 1 2, .copy, .cmux 41 0 1, .none, .none, .none, .none, .none, .none,
    .copy, .cmux 9 1 3, .copy, .none, .none, .none, .none, .none, .none, .none,
    .copy, .cmux 42 0 1, .copy, .cmux 42 1 2, .none, .none, .none, .none, .none, .none,
    .copy, .cmux 10 3 1, .copy, .none, .none, .none, .none, .none, .none, .none,
    .copy, .cmux 43 1 2, .copy, .cmux 43 0 1, .none, .none, .none, .none, .none, .none,
    .copy, .cmux 11 1 3, .copy, .none, .none, .none, .none, .none, .none, .none,
    .copy, .cmux 44 0 1, .copy, .cmux 44 1 2, .none, .none, .none, .none, .none, .none,
    .copy, .cmux 12 3 1, .copy, .none, .none, .none, .none, .none, .none, .none,
    .copy, .cmux 45 0 1, .copy, .cmux 45 1 2, .none, .none, .none, .none, .none, .none,
    .copy, .cmux 13 3 1, .copy, .none, .none, .none, .none, .none, .none, .none,
    .copy, .cmux 46 0 1, .copy, .cmux 46 1 2, .none, .none, .none, .none, .none, .none,
    .copy, .cmux 14 3 1, .copy, .none, .none, .none, .none, .none, .none, .none,
    .copy, .cmux 47 0 1, .copy, .cmux 47 1 2, .none, .none, .none, .none, .none, .none,
    .copy, .cmux 15 3 1, .copy, .none, .none, .none, .none, .none, .none, .none,
    .copy, .cmux 48 0 1, .copy, .cmux 48 1 2, .none, .none, .none, .none, .none, .none,
    .copy, .cmux 16 3 1, .copy, .none, .none, .none, .none, .none, .none, .none,
    .copy, .cmux 49 1 2, .copy, .cmux 49 0 1, .none, .none, .none, .none, .none, .none,
    .copy, .cmux 17 1 3, .copy, .none, .none, .none, .none, .none, .none, .none,
    .copy, .cmux 50 0 1, .copy, .cmux 50 1 2, .none, .none, .none, .none, .none, .none,
    .copy, .cmux 18 3 1, .copy, .none, .none, .none, .none, .none, .none, .none,
    .copy, .cmux 51 0 1, .copy, .cmux 51 1 2, .none, .none, .none, .none, .none, .none,
    .copy, .cmux 19 3 1, .copy, .none, .none, .none, .none, .none, .none, .none,
    .copy, .cmux 52 1 2, .copy, .cmux 52 0 1, .none, .none, .none, .none, .none, .none,
    .copy, .cmux 20 1 3, .copy, .none, .none, .none, .none, .none, .none, .none,
    .copy, .cmux 53 1 2, .copy, .cmux 53 0 1, .none, .none, .none, .none, .none, .none,
    .copy, .cmux 21 1 3, .copy, .none, .none, .none, .none, .none, .none, .none,
    .copy, .cmux 54 1 2, .copy, .cmux 54 0 1, .none, .none, .none, .none, .none, .none,
    .copy, .cmux 22 1 3, .copy, .none, .none, .none, .none, .none, .none, .none,
    .copy, .cmux 55 1 2, .copy, .cmux 55 0 1, .none, .none, .none, .none, .none, .none,
    .copy, .cmux 23 1 3, .copy, .none, .none, .none, .none, .none, .none, .none,
    .copy, .cmux 56 1 2, .copy, .cmux 56 0 1, .none, .none, .none, .none, .none, .none,
    .copy, .cmux 24 1 3, .copy, .none, .none, .none, .none, .none, .none, .none,
    .copy, .cmux 57 0 1, .copy, .cmux 57 1 2, .none, .none, .none, .none, .none, .none,
    .copy, .cmux 25 3 1, .copy, .none, .none, .none, .none, .none, .none, .none,
    .copy, .cmux 58 1 2, .copy, .cmux 58 0 1, .none, .none, .none, .none, .none, .none,
    .copy, .cmux 26 1 3, .copy, .none, .none, .none, .none, .none, .none, .none,
    .copy, .cmux 59 0 1, .copy, .cmux 59 1 2, .none, .none, .none, .none, .none, .none,
    .copy, .cmux 27 3 1, .copy, .none, .none, .none, .none, .none, .none, .none,
    .copy, .cmux 60 1 2, .copy, .cmux 60 0 1, .none, .none, .none, .none, .none, .none,
    .copy, .cmux 28 1 3, .copy, .none, .none, .none, .none, .none, .none, .none,
    .copy, .cmux 61 1 2, .copy, .cmux 61 0 1, .none, .none, .none, .none, .none, .none,
    .copy, .cmux 29 1 3, .copy, .none, .none, .none, .none, .none, .none, .none,
    .copy, .cmux 62 1 2, .copy, .cmux 62 0 1, .none, .none, .none, .none, .none, .none,
    .copy, .cmux 30 1 3, .copy, .none, .none, .none, .none, .none, .none, .none,
    .copy, .cmux 63 1 2, .copy, .cmux 63 0 1, .none, .none, .none, .none, .none, .none,
    .copy, .cmux 31 1 3, .copy, .none, .none, .none, .none, .none, .none, .none,
    .copy, .cmux 64 0 1, .copy, .cmux 64 1 2, .none, .none, .none, .none, .none, .none,
    .copy, .cmux 32 3 1, .copy, .none, .none, .none, .none, .none, .none, .none,
    .copy, .cmux 65 0 1, .copy, .cmux 65 1 2, .none, .none, .none, .none, .none, .none,
    .copy, .cmux 33 3 1, .copy, .none, .none, .none, .none, .none, .none, .none,
    .copy, .cmux 66 0 1, .copy, .cmux 66 1 2, .none, .none, .none, .none, .none, .none,
    .copy, .cmux 34 3 1, .copy, .none, .none, .none, .none, .none, .none, .none,
    .cmux 67 0 1, .cmux 67 1 0, .cmux 67 2 1, .cmux 67 1 2, .none, .none, .none, .none, .none, .none,
    .cmux 35 3 0, .cmux 35 1 2, .none, .none, .none, .none, .none, .none, .none, .none,
    .cmux 2 1 0, .none, .none, .none, .none, .none, .none, .none, .none, .none]

def b17 : BitCircuit where
  maxInterState := 10
  nodes := [
    .cmux 21 1 0, .cmux 85 0 1, .cmux 117 1 0, .cmux 21 0 1, .cmux 85 1 0, .cmux 117 0 1, .none, .none, .none, .none,
    .copy, .cmux 21 2 5, .cmux 85 2 5, .cmux 84 1 4, .copy, .cmux 20 3 0, .cmux 21 5 2, .cmux 85 5 2, .none, .none,
    .copy, .copy, .copy, .cmux 116 1 6, .copy, .cmux 83 3 4, .copy, .copy, .cmux 116 2 7, .cmux 19 5 0,
    .copy, .cmux 18 9 0, .cmux 20 1 3, .cmux 84 8 7, .copy, .cmux 20 3 6, .cmux 84 2 8, .cmux 82 5 4, .none, .none,
    .copy, .cmux 115 6 3, .copy, .copy, .copy, .copy, .copy, .cmux 81 7 4, .cmux 115 2 5, .cmux 17 1 0,
    .copy, .cmux 19 2 8, .cmux 19 8 5, .cmux 80 7 4, .copy, .cmux 83 6 1, .cmux 16 9 0, .cmux 83 1 3, .none, .none,
    .copy, .copy, .copy, .cmux 79 3 4, .copy, .copy, .cmux 114 1 2, .copy, .cmux 114 5 7, .cmux 15 6 0,
    .copy, .cmux 82 8 7, .cmux 18 6 2, .cmux 14 9 0, .copy, .cmux 82 5 8, .cmux 78 3 4, .cmux 18 1 6, .none, .none,
    .copy, .copy, .copy, .cmux 113 7 2, .copy, .copy, .cmux 77 6 4, .copy, .cmux 13 3 0, .cmux 113 5 1,
    .copy, .cmux 81 5 9, .cmux 81 9 1, .cmux 12 8 0, .copy, .cmux 17 3 2, .cmux 76 6 4, .cmux 17 7 3, .none, .none,
    .copy, .copy, .copy, .cmux 112 7 5, .copy, .copy, .cmux 11 3 0, .copy, .cmux 75 6 4, .cmux 112 1 2,
    .copy, .cmux 10 6 0, .cmux 74 8 4, .cmux 16 7 3, .copy, .cmux 16 3 5, .cmux 80 1 9, .cmux 80 9 2, .none, .none,
    .copy, .cmux 111 3 5, .cmux 111 6 7, .copy, .copy, .copy, .copy, .copy, .cmux 9 1 0, .cmux 73 2 4,
    .copy, .cmux 79 6 2, .cmux 15 3 1, .cmux 72 9 4, .copy, .cmux 15 1 5, .cmux 8 8 0, .cmux 79 2 7, .none, .none,
    .copy, .copy, .copy, .cmux 110 2 5, .copy, .copy, .cmux 7 6 0, .copy, .cmux 71 3 4, .cmux 110 1 7,
    .cmux 6 6 0, .cmux 78 9 7, .cmux 14 3 5, .cmux 78 1 9, .cmux 14 2 3, .cmux 70 8 4, .none, .none, .none, .none,
    .cmux 0 0 5, .copy, .copy, .copy, .copy, .copy, .cmux 109 4 2, .cmux 109 3 1, .none, .none,
    .cmux 1 0 5, .cmux 13 4 6, .cmux 77 3 7, .cmux 77 7 1, .cmux 13 6 2, .copy, .none, .none, .none, .none,
    .cmux 108 1 4, .copy, .copy, .copy, .copy, .cmux 108 2 3, .cmux 2 0 5, .none, .none, .none,
    .cmux 76 5 3, .cmux 12 0 4, .cmux 76 2 5, .cmux 12 1 0, .none, .none, .copy, .none, .none, .none,
    .copy, .copy, .copy, .copy, .cmux 107 3 1, .cmux 107 2 0, .copy, .none, .none, .none,
    .cmux 11 3 4, .cmux 75 2 5, .cmux 75 5 0, .cmux 11 4 1, .none, .none, .copy, .none, .none, .none,
    .copy, .copy, .copy, .copy, .cmux 106 1 2, .cmux 106 0 3, .copy, .none, .none, .none,
    .cmux 10 5 3, .cmux 74 1 4, .cmux 74 4 2, .cmux 10 0 5, .none, .none, .copy, .none, .none, .none,
    .copy, .copy, .copy, .copy, .cmux 105 3 0, .cmux 105 1 2, .copy, .none, .none, .none,
    .cmux 9 4 0, .cmux 9 3 4, .cmux 73 1 5, .cmux 73 5 2, .none, .none, .copy, .none, .none, .none,
    .copy, .copy, .copy, .copy, .cmux 104 2 3, .cmux 104 1 0, .copy, .none, .none, .none,
    .cmux 72 4 3, .cmux 8 1 5, .cmux 8 5 0, .cmux 72 2 4, .none, .none, .copy, .none, .none, .none,
    .copy, .copy, .copy, .copy, .cmux 103 1 2, .cmux 103 3 0, .copy, .none, .none, .none,
    .cmux 7 1 4, .cmux 71 3 5, .cmux 71 5 0, .cmux 7 4 2, .none, .none, .copy, .none, .none, .none,
    .copy, .copy, .copy, .copy, .cmux 102 0 3, .cmux 102 1 2, .copy, .none, .none, .none,
    .cmux 70 5 2, .cmux 70 1 5, .cmux 6 0 4, .cmux 6 4 3, .none, .none, .copy, .none, .none, .none,
    .copy, .copy, .copy, .copy, .cmux 101 1 0, .cmux 101 2 3, .copy, .none, .none, .none,
    .cmux 5 2 5, .cmux 69 4 0, .cmux 69 1 4, .cmux 5 5 3, .none, .none, .copy, .none, .none, .none,
    .cmux 100 0 3, .copy, .cmux 100 2 1, .copy, .none, .none, .copy, .none, .none, .none,
    .cmux 68 2 1, .cmux 4 0 3, .none, .none, .none, .none, .copy, .none, .none, .none,
    .copy, .cmux 0 1 0, .none, .none, .none, .none, .copy, .none, .none, .none,
    .copy, .cmux 1 1 0, .none, .none, .none, .none, .copy, .none, .none, .none,
    .cmux 2 1 0, .none, .none, .none, .none, .none, .copy, .none, .none, .none,
    .copy, .cmux 0 6 0, .cmux 0 0 6, .cmux 1 0 6, .none, .none, .copy, .none, .none, .none,
    .cmux 1 0 1, .cmux 1 2 1, .cmux 1 2 6, .copy, .none, .none, .none, .none, .none, .none,
    .cmux 2 3 0, .cmux 2 0 3, .cmux 2 1 2, .cmux 2 2 1, .none, .none, .none, .none, .none, .none,
    .cmux 3 1 2, .cmux 3 2 1, .cmux 3 0 3, .none, .none, .none, .none, .none, .none, .none,
    .copy, .copy, .cmux 36 1 2, .cmux 36 2 0, .none, .none, .none, .none, .none, .none,
    .copy, .copy, .cmux 4 3 2, .none, .none, .none, .none, .none, .none, .none,
    .copy, .copy, .cmux 37 1 2, .cmux 37 2 0, .none, .none, .none, .none, .none, .none,
    .copy, .copy, .cmux 5 3 2, .none, .none, .none, .none, .none, .none, .none,
    .copy, .copy, .cmux 38 2 0, .cmux 38 1 2, .none, .none, .none, .none, .none, .none,
    .copy, .copy, .cmux 6 2 3, .none, .none, .none, .none, .none, .none, .none,
    .copy, .copy, .cmux 39 2 0, .cmux 39 1 2, .none, .none, .none, .none, .none, .none,
    .copy, .copy, .cmux 7 2 3, .none, .none, .none, .none, .none, .none, .none,
    .copy, .copy, .cmux 40 2 0, .cmux 40 1 2, .none, .none, .none, .none, .none, .none,
    .copy, .copy, .cmux 8 2 3, .none, .none, .none, .none, .none, .none, .none,
    .copy, .copy, .cmux 41 1 2, .cmux 41 2 0, .none, .none, .none, .none, .none, .none,
    .copy, .copy, .cmux 9 3 2, .none, .none, .none, .none, .none, .none, .none,
    .copy, .copy, .cmux 42 2 0, .cmux 42 1 2, .none, .none, .none, .none, .none, .none,
    .copy, .copy, .cmux 10 2 3, .none, .none, .none, .none, .none, .none, .none,
    .copy, .copy, .cmux 43 1 2, .cmux 43 2 0, .none, .none, .none, .none, .none, .none,
    .copy, .copy, .cmux 11 3 2, .none, .none, .none, .none, .none, .none, .none,
    .copy, .copy, .cmux 44 2 0, .cmux 44 1 2, .none, .none, .none, .none, .none, .none,
    .copy, .copy, .cmux 12 2 3, .none, .none, .none, .none, .none, .none, .none,
    .copy, .copy, .cmux 45 1 2, .cmux 45 2 0, .none, .none, .none, .none, .none, .none,
    .copy, .copy, .cmux 13 3 2, .none, .none, .none, .none, .none, .none, .none,
    .copy, .copy, .cmux 46 2 0, .cmux 46 1 2, .none, .none, .none, .none, .none, .none,
    .copy, .copy, .cmux 14 2 3, .none, .none, .none, .none, .none, .none, .none,
    .copy, .copy, .cmux 47 1 2, .cmux 47 2 0, .none, .none, .none, .none, .none, .none,
    .copy, .copy, .cmux 15 3 2, .none, .none, .none, .none, .none, .none, .none,
    .copy, .copy, .cmux 48 1 2, .cmux 48 2 0, .none, .none, .none, .none, .none, .none,
    .copy, .copy, .cmux 16 3 2, .none, .none, .none, .none, .none, .none, .none,
    .copy, .copy, .cmux 49 1 2, .cmux 49 2 0, .none, .none, .none, .none, .none, .none,
    .copy, .copy, .cmux 17 3 2, .none, .none, .none, .none, .none, .none, .none,
    .copy, .copy, .cmux 50 2 0, .cmux 50 1 2, .none, .none, .none, .none, .none, .none,
    .copy, .copy, .cmux 18 2 3, .none, .none, .none, .none, .none, .none, .none,
    .copy, .copy, .cmux 51 2 0, .cmux 51 1 2, .none, .none, .none, .none, .none, .none,
    .copy, .copy, .cmux 19 2 3, .none, .none, .none, .none, .none, .none, .none,
    .copy, .copy, .cmux 52 2 0, .cmux 52 1 2, .none, .none, .none, .none, .none, .none,
    .copy, .copy, .cmux 20 2 3, .none, .none, .none, .none, .none, .none, .none,
    .copy, .copy, .cmux 53 1 2, .cmux 53 2 0, .none, .none, .none, .none, .none, .none,
    .copy, .copy, .cmux 21 3 2, .none, .none, .none, .none, .none, .none, .none,
    .copy, .copy, .cmux 54 1 2, .cmux 54 2 0, .none, .none, .none, .none, .none, .none,
    .copy, .copy, .cmux 22 3 2, .none, .none, .none, .none, .none, .none, .none,
    .copy, .copy, .cmux 55 2 0, .cmux 55 1 2, .none, .none, .none, .none, .none, .none,
    .copy, .copy, .cmux 23 2 3, .none, .none, .none, .none, .none, .none, .none,
    .copy, .copy, .cmux 56 1 2, .cmux 56 2 0, .none, .none, .none, .none, .none, .none,
    .copy, .copy, .cmux 24 3 2, .none, .none, .none, .none, .none, .none, .none,
    .copy, .copy, .cmux 57 2 0, .cmux 57 1 2, .none, .none, .none, .none, .none, .none,
    .copy, .copy, .cmux 25 2 3, .none, .none, .none, .none, .none, .none, .none,
    .copy, .copy, .cmux 58 2 0, .cmux 58 1 2, .none, .none, .none, .none, .none, .none,
    .copy, .copy, .cmux 26 2 3, .none, .none, .none, .none, .none, .none, .none,
    .copy, .copy, .cmux 59 1 2, .cmux 59 2 0, .none, .none, .none, .none, .none, .none,
    .copy, .copy, .cmux 27 3 2, .none, .none, .none, .none, .none, .none, .none,
    .copy, .copy, .cmux 60 1 2, .cmux 60 2 0, .none, .none, .none, .none, .none, .none,
    .copy, .copy, .cmux 28 3 2, .none, .none, .none, .none, .none, .none, .none,
    .copy, .copy, .cmux 61 1 2, .cmux 61 2 0, .none, .none, .none, .none, .none, .none,
    .copy, .copy, .cmux 29 3 2, .none, .none, .none, .none, .none, .none, .none,
    .copy, .copy, .cmux 62 1 2, .cmux 62 2 0, .none, .none, .none, .none, .none, .none,
    .copy, .copy, .cmux 30 3 2, .none, .none, .none, .none, .none, .none, .none,
    .copy, .copy, .cmux 63 2 0, .cmux 63 1 2, .none, .none, .none, .none, .none, .none,
    .copy, .copy, .cmux 31 2 3, .none, .none, .none, .none, .none, .none, .none,
    .copy, .copy, .cmux 64 1 2, .cmux 64 2 0, .none, .none, .none, .none, .none, .none,
    .copy, .copy, .cmux 32 3 2, .none, .none, .none, .none, .none, .none, .none,
    .copy, .copy, .cmux 65 2 0, .cmux 65 1 2, .none, .none, .none, .none, .none, .none,
    .copy, .copy, .cmux 33 2 3, .none, .none, .none, .none, .none, .none, .none,
    .copy, .copy, .cmux 66 2 0, .cmux 66 1 2, .none, .none, .none, .none, .none, .none,
    .copy, .copy, .cmux 34 2 3, .none, .none, .none, .none, .none, .none, .none,
    .cmux 67 2 1, .cmux 67 0 2, .cmux 67 1 2, .cmux 67 2 0, .none, .none, .none, .none, .none, .none,
    .cmux 35 3 2, .cmux 35 0 1, .none, .none, .none, .none, .none, .none, .none, .none,
    .cmux 2 1 0, .none, .none, .none, .none, .none, .none, .none, .none, .none]

def b18 : BitCircuit where
  maxInterState := 10
  nodes := [
    .cmux 86 1 0, .cmux 22 0 1, .cmux 86 0 1, .cmux 118 1 0, .cmux 118 0 1, .cmux 22 1 0, .none, .none, .none, .none,
    .copy, .cmux 86 3 4, .cmux 22 4 3, .cmux 85 2 0, .cmux 21 1 5, .copy, .cmux 22 3 4, .cmux 86 4 3, .none, .none,
    .copy, .copy, .copy, .cmux 117 6 2, .cmux 84 3 0, .copy, .copy, .copy, .cmux 117 1 7, .cmux 20 4 5,
    .copy, .cmux 21 3 2, .cmux 19 9 5, .cmux 85 1 8, .cmux 21 6 3, .copy, .cmux 83 4 0, .cmux 85 8 7, .none, .none,
    .copy, .copy, .cmux 18 2 5, .copy, .copy, .copy, .cmux 82 6 0, .copy, .cmux 116 4 1, .cmux 116 3 7,
    .copy, .cmux 20 8 1, .cmux 81 6 0, .cmux 84 9 7, .cmux 17 2 5, .copy, .cmux 20 4 8, .cmux 84 3 9, .none, .none,
    .copy, .copy, .cmux 115 7 3, .copy, .cmux 16 4 5, .copy, .copy, .copy, .cmux 115 6 1, .cmux 80 2 0,
    .copy, .cmux 79 9 0, .cmux 15 4 5, .cmux 19 6 8, .cmux 83 7 2, .copy, .cmux 19 8 1, .cmux 83 2 3, .none, .none,
    .copy, .cmux 78 1 0, .cmux 14 2 5, .copy, .copy, .copy, .copy, .copy, .cmux 114 3 6, .cmux 114 4 7,
    .copy, .cmux 18 3 8, .cmux 77 1 0, .cmux 82 9 7, .cmux 18 8 6, .copy, .cmux 13 2 5, .cmux 82 4 9, .none, .none,
    .copy, .copy, .cmux 113 7 3, .copy, .copy, .copy, .cmux 12 6 5, .copy, .cmux 113 1 4, .cmux 76 2 0,
    .copy, .cmux 17 8 4, .cmux 81 2 3, .cmux 17 1 8, .cmux 11 6 5, .copy, .cmux 75 9 0, .cmux 81 7 2, .none, .none,
    .copy, .copy, .copy, .copy, .cmux 112 7 2, .copy, .cmux 10 4 5, .copy, .cmux 74 6 0, .cmux 112 3 1,
    .copy, .cmux 16 3 9, .cmux 16 9 1, .cmux 73 8 0, .cmux 80 7 4, .copy, .cmux 9 6 5, .cmux 80 4 2, .none, .none,
    .copy, .copy, .copy, .cmux 111 1 2, .copy, .copy, .cmux 8 6 5, .copy, .cmux 72 3 0, .cmux 111 4 7,
    .copy, .cmux 7 6 5, .cmux 71 8 0, .cmux 15 3 2, .cmux 79 9 7, .copy, .cmux 15 1 3, .cmux 79 4 9, .none, .none,
    .cmux 6 1 5, .cmux 70 2 0, .cmux 110 6 3, .copy, .copy, .cmux 110 7 4, .copy, .copy, .none, .none,
    .cmux 14 6 2, .copy, .cmux 78 5 4, .cmux 0 0 1, .cmux 78 7 5, .cmux 14 2 3, .none, .none, .none, .none,
    .copy, .copy, .copy, .cmux 109 0 5, .copy, .copy, .cmux 109 4 2, .cmux 1 3 1, .none, .none,
    .cmux 77 6 2, .cmux 2 7 1, .cmux 13 3 5, .cmux 77 4 6, .cmux 13 0 3, .none, .none, .none, .none, .none,
    .copy, .copy, .copy, .copy, .copy, .cmux 108 4 2, .cmux 108 3 0, .none, .none, .none,
    .cmux 12 4 5, .copy, .cmux 12 5 2, .cmux 76 6 0, .cmux 76 3 6, .none, .none, .none, .none, .none,
    .copy, .copy, .copy, .copy, .copy, .cmux 107 0 2, .cmux 107 4 3, .none, .none, .none,
    .cmux 11 5 2, .copy, .cmux 75 4 6, .cmux 75 6 3, .cmux 11 0 5, .none, .none, .none, .none, .none,
    .copy, .copy, .copy, .copy, .copy, .cmux 106 4 0, .cmux 106 2 3, .none, .none, .none,
    .cmux 10 5 0, .copy, .cmux 10 4 5, .cmux 74 2 6, .cmux 74 6 3, .none, .none, .none, .none, .none,
    .copy, .copy, .copy, .copy, .copy, .cmux 105 3 4, .cmux 105 2 0, .none, .none, .none,
    .cmux 73 5 4, .copy, .cmux 9 2 6, .cmux 73 3 5, .cmux 9 6 0, .none, .none, .none, .none, .none,
    .copy, .copy, .copy, .copy, .copy, .cmux 104 3 0, .cmux 104 2 4, .none, .none, .none,
    .cmux 8 6 4, .copy, .cmux 8 2 6, .cmux 72 3 5, .cmux 72 5 0, .none, .none, .none, .none, .none,
    .copy, .copy, .copy, .copy, .copy, .cmux 103 2 0, .cmux 103 3 4, .none, .none, .none,
    .cmux 7 5 0, .copy, .cmux 71 3 6, .cmux 71 6 4, .cmux 7 2 5, .none, .none, .none, .none, .none,
    .copy, .copy, .copy, .copy, .copy, .cmux 102 4 0, .cmux 102 2 3, .none, .none, .none,
    .cmux 6 4 5, .copy, .cmux 70 2 6, .cmux 6 5 0, .cmux 70 6 3, .none, .none, .none, .none, .none,
    .copy, .copy, .copy, .copy, .copy, .cmux 101 2 4, .cmux 101 0 3, .none, .none, .none,
    .cmux 5 0 6, .copy, .cmux 69 2 5, .cmux 69 5 4, .cmux 5 6 3, .none, .none, .none, .none, .none,
    .cmux 100 2 3, .copy, .cmux 100 0 4, .copy, .copy, .none, .none, .none, .none, .none,
    .cmux 4 2 4, .copy, .cmux 68 0 3, .none, .none, .none, .none, .none, .none, .none,
    .cmux 0 0 2, .copy, .copy, .none, .none, .none, .none, .none, .none, .none,
    .cmux 1 0 2, .copy, .copy, .none, .none, .none, .none, .none, .none, .none,
    .cmux 2 0 2, .copy, .none, .none, .none, .none, .none, .none, .none, .none,
    .copy, .copy, .cmux 0 1 0, .cmux 0 0 1, .cmux 1 0 1, .none, .none, .none, .none, .none,
    .cmux 1 3 1, .cmux 1 0 2, .cmux 1 3 2, .none, .copy, .none, .none, .none, .none, .none,
    .cmux 2 4 1, .cmux 2 0 2, .cmux 2 1 4, .cmux 2 2 0, .none, .none, .none, .none, .none, .none,
    .cmux 3 2 3, .cmux 3 0 1, .cmux 3 3 2, .none, .none, .none, .none, .none, .none, .none,
    .copy, .cmux 36 1 0, .copy, .cmux 36 2 1, .none, .none, .none, .none, .none, .none,
    .copy, .cmux 4 1 3, .copy, .none, .none, .none, .none, .none, .none, .none,
    .copy, .cmux 37 2 1, .copy, .cmux 37 1 0, .none, .none, .none, .none, .none, .none,
    .copy, .cmux 5 3 1, .copy, .none, .none, .none, .none, .none, .none, .none,
    .copy, .cmux 38 2 1, .copy, .cmux 38 1 0, .none, .none, .none, .none, .none, .none,
    .copy, .cmux 6 3 1, .copy, .none, .none, .none, .none, .none, .none, .none,
    .copy, .cmux 39 2 1, .copy, .cmux 39 1 0, .none, .none, .none, .none, .none, .none,
    .copy, .cmux 7 3 1, .copy, .none, .none, .none, .none, .none, .none, .none,
    .copy, .cmux 40 2 1, .copy, .cmux 40 1 0, .none, .none, .none, .none, .none, .none,
    .copy, .cmux 8 3 1, .copy, .none, .none, .none, .none, .none, .none, .none,
    .copy, .cmux 41 1 0, .copy, .cmux 41 2 1, .none, .none, .none, .none, .none, .none,
    .copy, .cmux 9 1 3, .copy, .none, .none, .none, .none, .none, .none, .none,
    .copy, .cmux 42 2 1, .copy, .cmux 42 1 0, .none, .none, .none, .none, .none, .none,
    .copy, .cmux 10 3 1, .copy, .none, .none, .none, .none, .none, .none, .none,
    .copy, .cmux 43 2 1, .copy, .cmux 43 1 0, .none, .none, .none, .none, .none, .none,
    .copy, .cmux 11 3 1, .copy, .none, .none, .none, .none, .none, .none, .none,
    .copy, .cmux 44 1 0, .copy, .cmux 44 2 1, .none, .none, .none, .none, .none, .none,
    .copy, .cmux 12 1 3, .copy, .none, .none, .none, .none, .none, .none, .none,
    .copy, .cmux 45 2 1, .copy, .cmux 45 1 0, .none, .none, .none, .none, .none, .none,
    .copy, .cmux 13 3 1, .copy, .none, .none, .none, .none, .none, .none, .none,
    .copy, .cmux 46 2 1, .copy, .cmux 46 1 0, .none, .none, .none, .none, .none, .none,
    .copy, .cmux 14 3 1, .copy, .none, .none, .none, .none, .none, .none, .none,
    .copy, .cmux 47 1 0, .copy, .cmux 47 2 1, .none, .none, .none, .none, .none, .none,
    .copy, .cmux 15 1 3, .copy, .none, .none, .none, .none, .none, .none, .none,
    .copy, .cmux 48 2 1, .copy, .cmux 48 1 0, .none, .none, .none, .none, .none, .none,
    .copy, .cmux 16 3 1, .copy, .none, .none, .none, .none, .none, .none, .none,
    .copy, .cmux 49 2 1, .copy, .cmux 49 1 0, .none, .none, .none, .none, .none, .none,
    .copy, .cmux 17 3 1, .copy, .none, .none, .none, .none, .none, .none, .none,
    .copy, .cmux 50 2 1, .copy, .cmux 50 1 0, .none, .none, .none, .none, .none, .none,
    .copy, .cmux 18 3 1, .copy, .none, .none, .none, .none, .none, .none, .none,
    .copy, .cmux 51 1 0, .copy, .cmux 51 2 1, .none, .none, .none, .none, .none, .none,
    .copy, .cmux 19 1 3, .copy, .none, .none, .none, .none, .none, .none, .none,
    .copy, .cmux 52 1 0, .copy, .cmux 52 2 1, .none, .none, .none, .none, .none, .none,
    .copy, .cmux 20 1 3, .copy, .none, .none, .none, .none, .none, .none, .none,
    .copy, .cmux 53 1 0, .copy, .cmux 53 2 1, .none, .none, .none, .none, .none, .none,
    .copy, .cmux 21 1 3, .copy, .none, .none, .none, .none, .none, .none, .none,
    .copy, .cmux 54 1 0, .copy, .cmux 54 2 1, .none, .none, .none, .none, .none, .none,
    .copy, .cmux 22 1 3, .copy, .none, .none, .none, .none, .none, .none, .none,
    .copy, .cmux 55 1 0, .copy, .cmux 55 2 1, .none, .none, .none, .none, .none, .none,
    .copy, .cmux 23 1 3, .copy, .none, .none, .none, .none, .none, .none, .none,
    .copy, .cmux 56 2 1, .copy, .cmux 56 1 0, .none, .none, .none, .none, .none, .none,
    .copy, .cmux 24 3 1, .copy, .none, .none, .none, .none, .none, .none, .none,
    .copy, .cmux 57 1 0, .copy, .cmux 57 2 1, .none, .none, .none, .none, .none, .none,
    .copy, .cmux 25 1 3, .copy, .none, .none, .none, .none, .none, .none, .none,
    .copy, .cmux 58 1 0, .copy, .cmux 58 2 1, .none, .none, .none, .none, .none, .none,
    .copy, .cmux 26 1 3, .copy, .none, .none, .none, .none, .none, .none, .none,
    .copy, .cmux 59 2 1, .copy, .cmux 59 1 0, .none, .none, .none, .none, .none, .none,
    .copy, .cmux 27 3 1, .copy, .none, .none, .none, .none, .none, .none, .none,
    .copy, .cmux 60 2 1, .copy, .cmux 60 1 0, .none, .none, .none, .none, .none, .none,
    .copy, .cmux 28 3 1, .copy, .none, .none, .none, .none, .none, .none, .none,
    .copy, .cmux 61 2 1, .copy, .cmux 61 1 0, .none, .none, .none, .none, .none, .none,
    .copy, .cmux 29 3 1, .copy, .none, .none, .none, .none, .none, .none, .none,
    .copy, .cmux 62 1 0, .copy, .cmux 62 2 1, .none, .none, .none, .none, .none, .none,
    .copy, .cmux 30 1 3, .copy, .none, .none, .none, .none, .none, .none, .none,
    .copy, .cmux 63 2 1, .copy, .cmux 63 1 0, .none, .none, .none, .none, .none, .none,
    .copy, .cmux 31 3 1, .copy, .none, .none, .none, .none, .none, .none, .none,
    .copy, .cmux 64 2 1, .copy, .cmux 64 1 0, .none, .none, .none, .none, .none, .none,
    .copy, .cmux 32 3 1, .copy, .none, .none, .none, .none, .none, .none, .none,
    .copy, .cmux 65 2 1, .copy, .cmux 65 1 0, .none, .none, .none, .none, .none, .none,
    .copy, .cmux 33 3 1, .copy, .none, .none, .none, .none, .none, .none, .none,
    .copy, .cmux 66 1 0, .copy, .cmux 66 2 1, .none, .none, .none, .none, .none, .none,
    .copy, .cmux 34 1 3, .copy, .none, .none, .none, .none, .none, .none, .none,
    .cmux 67 0 1, .cmux 67 1 0, .cmux 67 1 2, .cmux 67 2 1, .none, .none, .none, .none, .none, .none,
    .cmux 35 1 3, .cmux 35 2 0, .none, .none, .none, .none, .none, .none, .none, .none,
    .cmux 2 1 0, .none, .none, .none, .none, .none, .none, .none, .none, .none]

def b19 : BitCircuit where
  maxInterState := 10
  nodes := [
    .cmux 119 0 1, .cmux 119 1 0, .cmux 23 1 0, .cmux 23 0 1, .cmux 87 1 0, .cmux 87 0 1, .none, .none, .none, .none,
    .cmux 87 0 1, .cmux 86 5 4, .copy, .cmux 23 1 0, .copy, .cmux 23 0 1, .cmux 87 1 0, .cmux 22 3 2, .none, .none,
    .copy, .cmux 85 1 4, .copy, .copy, .copy, .copy, .copy, .cmux 118 3 5, .cmux 21 7 2, .cmux 118 6 0,
    .cmux 22 3 7, .cmux 86 9 0, .copy, .cmux 20 8 2, .copy, .cmux 86 6 9, .cmux 22 7 5, .cmux 84 1 4, .none, .none,
    .copy, .copy, .copy, .cmux 19 3 2, .copy, .copy, .copy, .cmux 83 7 4, .cmux 117 0 6, .cmux 117 5 1,
    .cmux 85 5 9, .cmux 21 8 6, .copy, .cmux 82 7 4, .copy, .cmux 18 3 2, .cmux 21 0 8, .cmux 85 9 1, .none, .none,
    .copy, .copy, .copy, .cmux 116 0 7, .copy, .cmux 17 5 2, .copy, .copy, .cmux 116 6 1, .cmux 81 3 4,
    .cmux 16 5 2, .cmux 84 0 3, .copy, .cmux 20 6 8, .copy, .cmux 20 8 1, .cmux 80 9 4, .cmux 84 3 7, .none, .none,
    .cmux 115 1 7, .copy, .copy, .copy, .copy, .copy, .cmux 115 3 5, .copy, .cmux 79 6 4, .cmux 15 0 2,
    .cmux 83 0 7, .cmux 83 1 0, .copy, .cmux 19 3 6, .copy, .cmux 19 6 5, .cmux 78 8 4, .cmux 14 9 2, .none, .none,
    .copy, .copy, .copy, .copy, .copy, .copy, .cmux 114 1 0, .cmux 13 7 2, .cmux 77 6 4, .cmux 114 3 5,
    .cmux 82 6 0, .cmux 18 3 9, .copy, .cmux 76 8 4, .copy, .cmux 82 1 6, .cmux 18 9 5, .cmux 12 7 2, .none, .none,
    .copy, .copy, .copy, .cmux 75 3 4, .copy, .copy, .copy, .cmux 113 5 0, .cmux 113 1 6, .cmux 11 7 2,
    .cmux 10 9 2, .cmux 74 3 4, .copy, .cmux 81 5 7, .copy, .cmux 17 8 6, .cmux 81 7 0, .cmux 17 1 8, .none, .none,
    .cmux 9 0 2, .cmux 112 3 6, .copy, .copy, .copy, .copy, .copy, .copy, .cmux 73 1 4, .cmux 112 7 5,
    .cmux 80 1 6, .cmux 16 9 5, .copy, .cmux 16 7 9, .copy, .cmux 8 0 2, .cmux 72 8 4, .cmux 80 3 1, .none, .none,
    .copy, .copy, .copy, .copy, .copy, .cmux 71 6 4, .cmux 111 3 1, .copy, .cmux 111 7 0, .cmux 7 5 2,
    .cmux 15 3 6, .cmux 15 6 1, .cmux 6 9 2, .cmux 79 7 8, .cmux 70 5 4, .cmux 79 8 0, .none, .none, .none, .none,
    .copy, .copy, .cmux 110 3 5, .copy, .copy, .copy, .cmux 0 2 4, .cmux 110 0 1, .none, .none,
    .cmux 1 6 4, .cmux 78 2 5, .cmux 14 7 1, .cmux 14 0 7, .copy, .cmux 78 3 2, .none, .none, .none, .none,
    .cmux 2 0 4, .copy, .copy, .copy, .cmux 109 5 1, .copy, .cmux 109 3 2, .none, .none, .none,
    .copy, .cmux 13 6 2, .cmux 13 3 6, .cmux 77 4 1, .cmux 77 5 4, .none, .none, .none, .none, .none,
    .copy, .copy, .copy, .copy, .copy, .cmux 108 4 3, .cmux 108 2 1, .none, .none, .none,
    .copy, .cmux 12 2 6, .cmux 12 6 1, .cmux 76 5 3, .cmux 76 4 5, .none, .none, .none, .none, .none,
    .copy, .copy, .copy, .copy, .copy, .cmux 107 4 3, .cmux 107 1 2, .none, .none, .none,
    .copy, .cmux 11 1 6, .cmux 75 4 5, .cmux 75 5 3, .cmux 11 6 2, .none, .none, .none, .none, .none,
    .copy, .copy, .copy, .copy, .copy, .cmux 106 2 3, .cmux 106 1 4, .none, .none, .none,
    .copy, .cmux 74 5 3, .cmux 74 2 5, .cmux 10 1 6, .cmux 10 6 4, .none, .none, .none, .none, .none,
    .copy, .copy, .copy, .copy, .copy, .cmux 105 2 1, .cmux 105 3 4, .none, .none, .none,
    .copy, .cmux 73 2 5, .cmux 73 5 1, .cmux 9 6 4, .cmux 9 3 6, .none, .none, .none, .none, .none,
    .copy, .copy, .copy, .copy, .copy, .cmux 104 4 3, .cmux 104 1 2, .none, .none, .none,
    .copy, .cmux 72 6 2, .cmux 72 1 6, .cmux 8 4 5, .cmux 8 5 3, .none, .none, .none, .none, .none,
    .copy, .copy, .copy, .copy, .copy, .cmux 103 3 4, .cmux 103 2 1, .none, .none, .none,
    .copy, .cmux 71 2 6, .cmux 71 6 1, .cmux 7 3 5, .cmux 7 5 4, .none, .none, .none, .none, .none,
    .copy, .copy, .copy, .copy, .copy, .cmux 102 3 4, .cmux 102 1 2, .none, .none, .none,
    .copy, .cmux 70 1 6, .cmux 6 3 5, .cmux 6 5 4, .cmux 70 6 2, .none, .none, .none, .none, .none,
    .copy, .copy, .copy, .copy, .copy, .cmux 101 1 4, .cmux 101 2 3, .none, .none, .none,
    .copy, .cmux 69 1 5, .cmux 5 6 3, .cmux 69 5 4, .cmux 5 2 6, .none, .none, .none, .none, .none,
    .copy, .cmux 100 4 2, .copy, .copy, .cmux 100 1 3, .none, .none, .none, .none, .none,
    .copy, .cmux 4 1 2, .cmux 68 4 3, .none, .none, .none, .none, .none, .none, .none,
    .copy, .cmux 0 1 2, .copy, .none, .none, .none, .none, .none, .none, .none,
    .copy, .cmux 1 1 2, .copy, .none, .none, .none, .none, .none, .none, .none,
    .copy, .cmux 2 1 2, .none, .none, .none, .none, .none, .none, .none, .none,
    .copy, .copy, .cmux 1 1 0, .cmux 0 1 0, .cmux 0 0 1, .none, .none, .none, .none, .none,
    .cmux 1 3 4, .cmux 1 3 0, .copy, .cmux 1 1 4, .none, .none, .none, .none, .none, .none,
    .cmux 2 0 1, .cmux 2 1 0, .cmux 2 3 2, .cmux 2 2 3, .none, .none, .none, .none, .none, .none,
    .cmux 3 3 1, .cmux 3 0 2, .cmux 3 2 0, .none, .none, .none, .none, .none, .none, .none,
    .cmux 36 0 2, .copy, .copy, .cmux 36 1 0, .none, .none, .none, .none, .none, .none,
    .cmux 4 0 3, .copy, .copy, .none, .none, .none, .none, .none, .none, .none,
    .cmux 37 0 2, .copy, .copy, .cmux 37 1 0, .none, .none, .none, .none, .none, .none,
    .cmux 5 0 3, .copy, .copy, .none, .none, .none, .none, .none, .none, .none,
    .cmux 38 0 2, .copy, .copy, .cmux 38 1 0, .none, .none, .none, .none, .none, .none,
    .cmux 6 0 3, .copy, .copy, .none, .none, .none, .none, .none, .none, .none,
    .cmux 39 1 0, .copy, .copy, .cmux 39 0 2, .none, .none, .none, .none, .none, .none,
    .cmux 7 3 0, .copy, .copy, .none, .none, .none, .none, .none, .none, .none,
    .cmux 40 1 0, .copy, .copy, .cmux 40 0 2, .none, .none, .none, .none, .none, .none,
    .cmux 8 3 0, .copy, .copy, .none, .none, .none, .none, .none, .none, .none,
    .cmux 41 0 2, .copy, .copy, .cmux 41 1 0, .none, .none, .none, .none, .none, .none,
    .cmux 9 0 3, .copy, .copy, .none, .none, .none, .none, .none, .none, .none,
    .cmux 42 1 0, .copy, .copy, .cmux 42 0 2, .none, .none, .none, .none, .none, .none,
    .cmux 10 3 0, .copy, .copy, .none, .none, .none, .none, .none, .none, .none,
    .cmux 43 0 2, .copy, .copy, .cmux 43 1 0, .none, .none, .none, .none, .none, .none,
    .cmux 11 0 3, .copy, .copy, .none, .none, .none, .none, .none, .none, .none,
    .cmux 44 0 2, .copy, .copy, .cmux 44 1 0, .none, .none, .none, .none, .none, .none,
    .cmux 12 0 3, .copy, .copy, .none, .none, .none, .none, .none, .none, .none,
    .cmux 45 1 0, .copy, .copy, .cmux 45 0 2, .none, .none, .none, .none, .none, .none,
    .cmux 13 3 0, .copy, .copy, .none, .none, .none, .none, .none, .none, .none,
    .cmux 46 0 2, .copy, .copy, .cmux 46 1 0, .none, .none, .none, .none, .none, .none,
    .cmux 14 0 3, .copy, .copy, .none, .none, .none, .none, .none, .none, .none,
    .cmux 47 0 2, .copy, .copy, .cmux 47 1 0, .none, .none, .none, .none, .none, .none,
    .cmux 15 0 3, .copy, .copy, .none, .none, .none, .none, .none, .none, .none,
    .cmux 48 1 0, .copy, .copy, .cmux 48 0 2, .none, .none, .none, .none, .none, .none,
    .cmux 16 3 0, .copy, .copy, .none, .none, .none, .none, .none, .none, .none,
    .cmux 49 0 2, .copy, .copy, .cmux 49 1 0, .none, .none, .none, .none, .none, .none,
    .cmux 17 0 3, .copy, .copy, .none, .none, .none, .none, .none, .none, .none,
    .cmux 50 0 2, .copy, .copy, .cmux 50 1 0, .none, .none, .none, .none, .none, .none,
    .cmux 18 0 3, .copy, .copy, .none, .none, .none, .none, .none, .none, .none,
    .cmux 51 1 0, .copy, .copy, .cmux 51 0 2, .none, .none, .none, .none, .none, .none,
    .cmux 19 3 0, .copy, .copy, .none, .none, .none, .none, .none, .none, .none,
    .cmux 52 0 2, .copy, .copy, .cmux 52 1 0, .none, .none, .none, .none, .none, .none,
    .cmux 20 0 3, .copy, .copy, .none, .none, .none, .none, .none, .none, .none,
    .cmux 53 0 2, .copy, .copy, .cmux 53 1 0, .none, .none, .none, .none, .none, .none,
    .cmux 21 0 3, .copy, .copy, .none, .none, .none, .none, .none, .none, .none,
    .cmux 54 0 2, .copy, .copy, .cmux 54 1 0, .none, .none, .none, .none, .none, .none,
    .cmux 22 0 3, .copy, .copy, .none, .none, .none, .none, .none, .none, .none,
    .cmux 55 0 2, .copy, .copy, .cmux 55 1 0, .none, .none, .none, .none, .none, .none,
    .cmux 23 0 3, .copy, .copy, .none, .none, .none, .none, .none, .none, .none,
    .cmux 56 1 0, .copy, .copy, .cmux 56 0 2, .none, .none, .none, .none, .none, .none,
    .cmux 24 3 0, .copy, .copy, .none, .none, .none, .none, .none, .none, .none,
    .cmux 57 0 2, .copy, .copy, .cmux 57 1 0, .none, .none, .none, .none, .none, .none,
    .cmux 25 0 3, .copy, .copy, .none, .none, .none, .none, .none, .none, .none,
    .cmux 58 1 0, .copy, .copy, .cmux 58 0 2, .none, .none, .none, .none, .none, .none,
    .cmux 26 3 0, .copy, .copy, .none, .none, .none, .none, .none, .none, .none,
    .cmux 59 1 0, .copy, .copy, .cmux 59 0 2, .none, .none, .none, .none, .none, .none,
    .cmux 27 3 0, .copy, .copy, .none, .none, .none, .none, .none, .none, .none,
    .cmux 60 1 0, .copy, .copy, .cmux 60 0 2, .none, .none, .none, .none, .none, .none,
    .cmux 28 3 0, .copy, .copy, .none, .none, .none, .none, .none, .none, .none,
    .cmux 61 0 2, .copy, .copy, .cmux 61 1 0, .none, .none, .none, .none, .none, .none,
    .cmux 29 0 3, .copy, .copy, .none, .none, .none, .none, .none, .none, .none,
    .cmux 62 1 0, .copy, .copy, .cmux 62 0 2, .none, .none, .none, .none, .none, .none,
    .cmux 30 3 0, .copy, .copy, .none, .none, .none, .none, .none, .none, .none,
    .cmux 63 0 2, .copy, .copy, .cmux 63 1 0, .none, .none, .none, .none, .none, .none,
    .cmux 31 0 3, .copy, .copy, .none, .none, .none, .none, .none, .none, .none,
    .cmux 64 1 0, .copy, .copy, .cmux 64 0 2, .none, .none, .none, .none, .none, .none,
    .cmux 32 3 0, .copy, .copy, .none, .none, .none, .none, .none, .none, .none,
    .cmux 65 0 2, .copy, .copy, .cmux 65 1 0, .none, .none, .none, .none, .none, .none,
    .cmux 33 0 3, .copy, .copy, .none, .none, .none, .none, .none, .none, .none,
    .cmux 66 0 2, .copy, .copy, .cmux 66 1 0, .none, .none, .none, .none, .none, .none,
    .cmux 34 0 3, .copy, .copy, .none, .none, .none, .none, .none, .none, .none,
    .cmux 67 0 2, .cmux 67 2 0, .cmux 67 1 0, .cmux 67 0 1, .none, .none, .none, .none, .none, .none,
    .cmux 35 3 1, .cmux 35 0 2, .none, .none, .none, .none, .none, .none, .none, .none,
    .cmux 2 0 1, .none, .none, .none, .none, .none, .none, .none, .none, .none]

def b20 : BitCircuit where
  maxInterState := 10
  nodes := [
    .cmux 88 1 0, .cmux 24 0 1, .cmux 88 0 1, .cmux 24 1 0, .none, .none, .none, .none, .none, .none,
    .copy, .cmux 119 1 3, .cmux 119 2 0, .copy, .cmux 87 2 0, .cmux 119 0 2, .cmux 23 1 3, .cmux 119 3 1, .none, .none,
    .copy, .cmux 23 3 1, .cmux 23 7 3, .copy, .cmux 22 6 3, .cmux 86 4 0, .cmux 87 0 2, .cmux 87 5 0, .none, .none,
    .copy, .copy, .copy, .copy, .cmux 118 7 6, .cmux 118 2 1, .copy, .copy, .cmux 85 5 0, .cmux 21 4 3,
    .copy, .cmux 86 7 4, .cmux 84 8 0, .copy, .cmux 20 9 3, .cmux 86 4 6, .cmux 22 2 5, .cmux 22 5 1, .none, .none,
    .copy, .copy, .cmux 117 1 5, .copy, .cmux 19 4 3, .copy, .copy, .copy, .cmux 83 2 0, .cmux 117 6 7,
    .copy, .cmux 82 8 0, .cmux 18 4 3, .copy, .cmux 21 6 9, .cmux 21 9 7, .cmux 85 2 5, .cmux 85 1 2, .none, .none,
    .copy, .cmux 17 2 3, .cmux 81 1 0, .copy, .copy, .copy, .copy, .copy, .cmux 116 4 5, .cmux 116 7 6,
    .copy, .cmux 20 8 5, .cmux 20 4 8, .copy, .cmux 84 7 9, .cmux 16 1 3, .cmux 84 9 6, .cmux 80 2 0, .none, .none,
    .copy, .copy, .copy, .copy, .copy, .cmux 79 7 0, .copy, .cmux 115 4 6, .cmux 15 5 3, .cmux 115 2 1,
    .copy, .cmux 19 2 9, .cmux 78 5 0, .copy, .cmux 83 4 7, .cmux 19 9 1, .cmux 14 8 3, .cmux 83 7 6, .none, .none,
    .copy, .copy, .cmux 114 4 7, .copy, .copy, .copy, .cmux 77 2 0, .copy, .cmux 13 6 3, .cmux 114 1 5,
    .copy, .cmux 76 6 0, .cmux 18 9 5, .copy, .cmux 82 2 7, .cmux 18 1 9, .cmux 82 4 2, .cmux 12 8 3, .none, .none,
    .copy, .cmux 11 7 3, .copy, .copy, .copy, .copy, .copy, .cmux 75 1 0, .cmux 113 6 4, .cmux 113 5 2,
    .copy, .cmux 81 6 8, .cmux 17 9 2, .copy, .cmux 81 8 4, .cmux 10 1 3, .cmux 74 7 0, .cmux 17 5 9, .none, .none,
    .copy, .copy, .copy, .copy, .copy, .cmux 73 6 0, .cmux 112 7 2, .copy, .cmux 9 5 3, .cmux 112 1 4,
    .copy, .cmux 16 7 6, .cmux 80 1 9, .copy, .cmux 16 6 2, .cmux 80 9 4, .cmux 8 8 3, .cmux 72 5 0, .none, .none,
    .copy, .copy, .copy, .copy, .copy, .copy, .cmux 7 6 3, .cmux 71 7 0, .cmux 111 2 5, .cmux 111 1 4,
    .cmux 15 1 9, .cmux 79 2 8, .cmux 70 7 0, .cmux 6 6 3, .cmux 15 9 4, .cmux 79 8 5, .none, .none, .none, .none,
    .copy, .copy, .copy, .cmux 110 0 4, .copy, .copy, .cmux 110 1 5, .cmux 0 3 2, .none, .none,
    .cmux 1 7 2, .cmux 78 6 5, .copy, .cmux 14 0 3, .cmux 14 3 4, .cmux 78 1 6, .none, .none, .none, .none,
    .cmux 2 0 2, .copy, .cmux 109 5 1, .copy, .copy, .copy, .cmux 109 3 4, .none, .none, .none,
    .copy, .cmux 13 6 4, .cmux 77 5 2, .cmux 77 2 1, .cmux 13 3 6, .none, .none, .none, .none, .none,
    .copy, .copy, .copy, .copy, .copy, .cmux 108 2 3, .cmux 108 4 1, .none, .none, .none,
    .copy, .cmux 76 2 5, .cmux 76 5 3, .cmux 12 4 6, .cmux 12 6 1, .none, .none, .none, .none, .none,
    .copy, .copy, .copy, .copy, .copy, .cmux 107 1 2, .cmux 107 3 4, .none, .none, .none,
    .copy, .cmux 75 1 5, .cmux 75 5 2, .cmux 11 6 4, .cmux 11 3 6, .none, .none, .none, .none, .none,
    .copy, .copy, .copy, .copy, .copy, .cmux 106 4 3, .cmux 106 1 2, .none, .none, .none,
    .copy, .cmux 74 6 2, .cmux 10 4 5, .cmux 74 1 6, .cmux 10 5 3, .none, .none, .none, .none, .none,
    .copy, .copy, .copy, .copy, .copy, .cmux 105 3 1, .cmux 105 2 4, .none, .none, .none,
    .copy, .cmux 73 3 5, .cmux 9 2 6, .cmux 73 5 1, .cmux 9 6 4, .none, .none, .none, .none, .none,
    .copy, .copy, .copy, .copy, .copy, .cmux 104 1 3, .cmux 104 2 4, .none, .none, .none,
    .copy, .cmux 8 6 4, .cmux 8 2 6, .cmux 72 5 3, .cmux 72 1 5, .none, .none, .none, .none, .none,
    .copy, .copy, .copy, .copy, .copy, .cmux 103 4 3, .cmux 103 2 1, .none, .none, .none,
    .copy, .cmux 71 5 3, .cmux 7 2 6, .cmux 71 4 5, .cmux 7 6 1, .none, .none, .none, .none, .none,
    .copy, .copy, .copy, .copy, .copy, .cmux 102 2 4, .cmux 102 3 1, .none, .none, .none,
    .copy, .cmux 70 6 1, .cmux 6 5 4, .cmux 6 2 5, .cmux 70 3 6, .none, .none, .none, .none, .none,
    .copy, .copy, .copy, .copy, .copy, .cmux 101 3 2, .cmux 101 4 1, .none, .none, .none,
    .copy, .cmux 5 5 2, .cmux 69 4 6, .cmux 5 3 5, .cmux 69 6 1, .none, .none, .none, .none, .none,
    .copy, .copy, .cmux 100 2 4, .cmux 100 3 1, .copy, .none, .none, .none, .none, .none,
    .copy, .cmux 68 2 4, .cmux 4 3 1, .none, .none, .none, .none, .none, .none, .none,
    .copy, .copy, .cmux 0 2 1, .none, .none, .none, .none, .none, .none, .none,
    .copy, .copy, .cmux 1 2 1, .none, .none, .none, .none, .none, .none, .none,
    .copy, .cmux 2 2 1, .none, .none, .none, .none, .none, .none, .none, .none,
    .copy, .copy, .cmux 1 1 0, .cmux 0 1 0, .cmux 0 0 1, .none, .none, .none, .none, .none,
    .cmux 1 3 0, .cmux 1 3 4, .copy, .cmux 1 1 4, .none, .none, .none, .none, .none, .none,
    .cmux 2 1 0, .cmux 2 2 3, .cmux 2 0 1, .cmux 2 3 2, .none, .none, .none, .none, .none, .none,
    .cmux 3 1 2, .cmux 3 3 0, .cmux 3 0 3, .none, .none, .none, .none, .none, .none, .none,
    .cmux 36 0 1, .copy, .copy, .cmux 36 2 0, .none, .none, .none, .none, .none, .none,
    .cmux 4 0 3, .copy, .copy, .none, .none, .none, .none, .none, .none, .none,
    .cmux 37 2 0, .copy, .copy, .cmux 37 0 1, .none, .none, .none, .none, .none, .none,
    .cmux 5 3 0, .copy, .copy, .none, .none, .none, .none, .none, .none, .none,
    .cmux 38 2 0, .copy, .copy, .cmux 38 0 1, .none, .none, .none, .none, .none, .none,
    .cmux 6 3 0, .copy, .copy, .none, .none, .none, .none, .none, .none, .none,
    .cmux 39 0 1, .copy, .copy, .cmux 39 2 0, .none, .none, .none, .none, .none, .none,
    .cmux 7 0 3, .copy, .copy, .none, .none, .none, .none, .none, .none, .none,
    .cmux 40 2 0, .copy, .copy, .cmux 40 0 1, .none, .none, .none, .none, .none, .none,
    .cmux 8 3 0, .copy, .copy, .none, .none, .none, .none, .none, .none, .none,
    .cmux 41 2 0, .copy, .copy, .cmux 41 0 1, .none, .none, .none, .none, .none, .none,
    .cmux 9 3 0, .copy, .copy, .none, .none, .none, .none, .none, .none, .none,
    .cmux 42 2 0, .copy, .copy, .cmux 42 0 1, .none, .none, .none, .none, .none, .none,
    .cmux 10 3 0, .copy, .copy, .none, .none, .none, .none, .none, .none, .none,
    .cmux 43 0 1, .copy, .copy, .cmux 43 2 0, .none, .none, .none, .none, .none, .none,
    .cmux 11 0 3, .copy, .copy, .none, .none, .none, .none, .none, .none, .none,
    .cmux 44 0 1, .copy, .copy, .cmux 44 2 0, .none, .none, .none, .none, .none, .none,
    .cmux 12 0 3, .copy, .copy, .none, .none, .none, .none, .none, .none, .none,
    .cmux 45 0 1, .copy, .copy, .cmux 45 2 0, .none, .none, .none, .none, .none, .none,
    .cmux 13 0 3, .copy, .copy, .none, .none, .none, .none, .none, .none, .none,
    .cmux 46 2 0, .copy, .copy, .cmux 46 0 1, .none, .none, .none, .none, .none, .none,
    .cmux 14 3 0, .copy, .copy, .none, .none, .none, .none, .none, .none, .none,
    .cmux 47 0 1, .copy, .copy, .cmux 47 2 0, .none, .none, .none, .none, .none, .none,
    .cmux 15 0 3, .copy, .copy, .none, .none, .none, .none, .none, .none, .none,
    .cmux 48 2 0, .copy, .copy, .cmux 48 0 1, .none, .none, .none, .none, .none, .none,
    .cmux 16 3 0, .copy, .copy, .none, .none, .none, .none, .none, .none, .none,
    .cmux 49 2 0, .copy, .copy, .cmux 49 0 1, .none, .none, .none, .none, .none, .none,
    .cmux 17 3 0, .copy, .copy, .none, .none, .none, .none, .none, .none, .none,
    .cmux 50 2 0, .copy, .copy, .cmux 50 0 1, .none, .none, .none, .none, .none, .none,
    .cmux 18 3 0, .copy, .copy, .none, .none, .none, .none, .none, .none, .none,
    .cmux 51 2 0, .copy, .copy, .cmux 51 0 1, .none, .none, .none, .none, .none, .none,
    .cmux 19 3 0, .copy, .copy, .none, .none, .none, .none, .none, .none, .none,
    .cmux 52 2 0, .copy, .copy, .cmux 52 0 1, .none, .none, .none, .none, .none, .none,
    .cmux 20 3 0, .copy, .copy, .none, .none, .none, .none, .none, .none, .none,
    .cmux 53 0 1, .copy, .copy, .cmux 53 2 0, .none, .none, .none, .none, .none, .none,
    .cmux 21 0 3, .copy, .copy, .none, .none, .none, .none, .none, .none, .none,
    .cmux 54 0 1, .copy, .copy, .cmux 54 2 0, .none, .none, .none, .none, .none, .none,
    .cmux 22 0 3, .copy, .copy, .none, .none, .none, .none, .none, .none, .none,
    .cmux 55 0 1, .copy, .copy, .cmux 55 2 0, .none, .none, .none, .none, .none, .none,
    .cmux 23 0 3, .copy, .copy, .none, .none, .none, .none, .none, .none, .none,
    .cmux 56 0 1, .copy, .copy, .cmux 56 2 0, .none, .none, .none, .none, .none, .none,
    .cmux 24 0 3, .copy, .copy, .none, .none, .none, .none, .none, .none, .none,
    .cmux 57 2 0, .copy, .copy, .cmux 57 0 1, .none, .none, .none, .none, .none, .none,
    .cmux 25 3 0, .copy, .copy, .none, .none, .none, .none, .none, .none, .none,
    .cmux 58 2 0, .copy, .copy, .cmux 58 0 1, .none, .none, .none, .none, .none, .none,
    .cmux 26 3 0, .copy, .copy, .none, .none, .none, .none, .none, .none, .none,
    .cmux 59 0 1, .copy, .copy, .cmux 59 2 0, .none, .none, .none, .none, .none, .none,
    .cmux 27 0 3, .copy, .copy, .none, .none, .none, .none, .none, .none, .none,
    .cmux 60 0 1, .copy, .copy, .cmux 60 2 0, .none, .none, .none, .none, .none, .none,
    .cmux 28 0 3, .copy, .copy, .none, .none, .none, .none, .none, .none, .none,
    .cmux 61 0 1, .copy, .copy, .cmux 61 2 0, .none, .none, .none, .none, .none, .none,
    .cmux 29 0 3, .copy, .copy, .none, .none, .none, .none, .none, .none, .none,
    .cmux 62 0 1, .copy, .copy, .cmux 62 2 0, .none, .none, .none, .none, .none, .none,
    .cmux 30 0 3, .copy, .copy, .none, .none, .none, .none, .none, .none, .none,
    .cmux 63 2 0, .copy, .copy, .cmux 63 0 1, .none, .none, .none, .none, .none, .none,
    .cmux 31 3 0, .copy, .copy, .none, .none, .none, .none, .none, .none, .none,
    .cmux 64 0 1, .copy, .copy, .cmux 64 2 0, .none, .none, .none, .none, .none, .none,
    .cmux 32 0 3, .copy, .copy, .none, .none, .none, .none, .none, .none, .none,
    .cmux 65 2 0, .copy, .copy, .cmux 65 0 1, .none, .none, .none, .none, .none, .none,
    .cmux 33 3 0, .copy, .copy, .none, .none, .none, .none, .none, .none, .none,
    .cmux 66 2 0, .copy, .copy, .cmux 66 0 1, .none, .none, .none, .none, .none, .none,
    .cmux 34 3 0, .copy, .copy, .none, .none, .none, .none, .none, .none, .none,
    .cmux 67 0 1, .cmux 67 2 0, .cmux 67 1 0, .cmux 67 0 2, .none, .none, .none, .none, .none, .none,
    .cmux 35 0 1, .cmux 35 3 2, .none, .none, .none, .none, .none, .none, .none, .none,
    .cmux 2 1 0, .none, .none, .none, .none, .none, .none, .none, .none, .none]

def b21 : BitCircuit where
  maxInterState := 10
  nodes := [
    .cmux 25 1 0, .cmux 89 1 0, .cmux 25 0 1, .cmux 89 0 1, .none, .none, .none, .none, .none, .none,
    .copy, .copy, .cmux 88 1 3, .cmux 24 2 0, .cmux 24 0 2, .cmux 88 3 1, .none, .none, .none, .none,
    .copy, .copy, .cmux 23 3 0, .cmux 87 5 1, .cmux 119 2 1, .cmux 119 1 5, .cmux 119 0 3, .cmux 119 4 0, .none, .none,
    .copy, .copy, .cmux 87 5 1, .cmux 23 0 7, .cmux 22 2 0, .cmux 87 1 4, .cmux 23 6 0, .cmux 86 3 1, .none, .none,
    .copy, .copy, .copy, .copy, .cmux 21 4 0, .copy, .copy, .cmux 118 2 5, .cmux 118 6 3, .cmux 85 7 1,
    .copy, .copy, .cmux 22 8 3, .cmux 22 6 8, .cmux 86 7 5, .cmux 84 9 1, .cmux 20 4 0, .cmux 86 2 7, .none, .none,
    .copy, .copy, .copy, .copy, .copy, .cmux 117 3 2, .cmux 83 5 1, .copy, .cmux 117 7 4, .cmux 19 6 0,
    .copy, .copy, .cmux 82 6 1, .cmux 18 9 0, .cmux 85 7 8, .cmux 85 8 4, .cmux 21 3 5, .cmux 21 5 2, .none, .none,
    .copy, .copy, .cmux 81 2 1, .cmux 116 4 5, .copy, .copy, .copy, .copy, .cmux 116 6 7, .cmux 17 3 0,
    .copy, .copy, .cmux 20 8 7, .cmux 84 4 3, .cmux 80 2 1, .cmux 84 3 5, .cmux 16 9 0, .cmux 20 6 8, .none, .none,
    .copy, .copy, .copy, .copy, .cmux 115 3 5, .copy, .cmux 115 7 2, .copy, .cmux 79 4 1, .cmux 15 6 0,
    .copy, .copy, .cmux 83 4 5, .cmux 14 9 0, .cmux 78 8 1, .cmux 83 3 4, .cmux 19 6 2, .cmux 19 7 6, .none, .none,
    .copy, .copy, .copy, .cmux 114 7 6, .cmux 13 3 0, .copy, .copy, .copy, .cmux 114 5 2, .cmux 77 4 1,
    .copy, .copy, .cmux 12 4 0, .cmux 82 5 8, .cmux 18 3 6, .cmux 76 9 1, .cmux 18 7 3, .cmux 82 8 2, .none, .none,
    .copy, .copy, .cmux 11 2 0, .copy, .copy, .cmux 113 3 7, .copy, .copy, .cmux 75 5 1, .cmux 113 6 4,
    .copy, .copy, .cmux 81 5 7, .cmux 74 8 1, .cmux 10 2 0, .cmux 17 6 9, .cmux 17 9 4, .cmux 81 3 5, .none, .none,
    .copy, .copy, .copy, .cmux 112 5 6, .cmux 73 3 1, .copy, .copy, .copy, .cmux 112 7 2, .cmux 9 4 0,
    .copy, .copy, .cmux 16 3 6, .cmux 80 7 8, .cmux 80 8 2, .cmux 72 4 1, .cmux 8 9 0, .cmux 16 5 3, .none, .none,
    .copy, .copy, .copy, .copy, .copy, .cmux 111 3 4, .cmux 7 6 0, .copy, .cmux 71 5 1, .cmux 111 7 2,
    .cmux 6 6 0, .cmux 70 8 1, .cmux 15 9 2, .cmux 79 3 5, .cmux 79 5 4, .cmux 15 7 9, .none, .none, .none, .none,
    .cmux 0 0 1, .copy, .copy, .copy, .copy, .copy, .cmux 110 3 4, .cmux 110 5 2, .none, .none,
    .cmux 14 7 2, .copy, .cmux 14 5 7, .cmux 78 3 6, .cmux 1 0 1, .cmux 78 6 4, .none, .none, .none, .none,
    .copy, .cmux 109 2 0, .copy, .copy, .cmux 109 3 5, .copy, .cmux 2 4 1, .none, .none, .none,
    .cmux 77 4 5, .cmux 77 3 4, .cmux 13 2 1, .cmux 13 1 0, .none, .none, .copy, .none, .none, .none,
    .copy, .copy, .copy, .copy, .cmux 108 2 3, .cmux 108 1 0, .copy, .none, .none, .none,
    .cmux 12 2 4, .cmux 76 1 5, .cmux 12 4 3, .cmux 76 5 0, .none, .none, .copy, .none, .none, .none,
    .copy, .copy, .copy, .copy, .cmux 107 0 2, .cmux 107 1 3, .copy, .none, .none, .none,
    .cmux 11 4 2, .cmux 11 0 4, .cmux 75 5 3, .cmux 75 1 5, .none, .none, .copy, .none, .none, .none,
    .copy, .copy, .copy, .copy, .cmux 106 1 0, .cmux 106 3 2, .copy, .none, .none, .none,
    .cmux 74 3 5, .cmux 74 5 2, .cmux 10 4 0, .cmux 10 1 4, .none, .none, .copy, .none, .none, .none,
    .copy, .copy, .copy, .copy, .cmux 105 0 1, .cmux 105 3 2, .copy, .none, .none, .none,
    .cmux 73 0 4, .cmux 9 3 5, .cmux 73 4 1, .cmux 9 5 2, .none, .none, .copy, .none, .none, .none,
    .copy, .copy, .copy, .copy, .cmux 104 0 2, .cmux 104 1 3, .copy, .none, .none, .none,
    .cmux 8 5 3, .cmux 8 1 5, .cmux 72 0 4, .cmux 72 4 2, .none, .none, .copy, .none, .none, .none,
    .copy, .copy, .copy, .copy, .cmux 103 2 3, .cmux 103 1 0, .copy, .none, .none, .none,
    .cmux 71 2 4, .cmux 7 5 0, .cmux 71 4 3, .cmux 7 1 5, .none, .none, .copy, .none, .none, .none,
    .copy, .copy, .copy, .copy, .cmux 102 0 2, .cmux 102 3 1, .copy, .none, .none, .none,
    .cmux 70 4 2, .cmux 6 3 5, .cmux 70 0 4, .cmux 6 5 1, .none, .none, .copy, .none, .none, .none,
    .copy, .copy, .copy, .copy, .cmux 101 1 3, .cmux 101 2 0, .copy, .none, .none, .none,
    .cmux 69 2 5, .cmux 5 1 4, .cmux 69 5 0, .cmux 5 4 3, .none, .none, .copy, .none, .none, .none,
    .cmux 100 0 2, .cmux 100 1 3, .copy, .copy, .none, .none, .copy, .none, .none, .none,
    .cmux 4 1 3, .cmux 68 0 2, .none, .none, .none, .none, .copy, .none, .none, .none,
    .cmux 0 0 1, .copy, .none, .none, .none, .none, .copy, .none, .none, .none,
    .cmux 1 0 1, .copy, .none, .none, .none, .none, .copy, .none, .none, .none,
    .cmux 2 0 1, .none, .none, .none, .none, .none, .copy, .none, .none, .none,
    .copy, .cmux 0 0 6, .cmux 1 0 6, .cmux 0 6 0, .none, .none, .copy, .none, .none, .none,
    .cmux 1 1 3, .cmux 1 0 3, .copy, .cmux 1 1 6, .none, .none, .none, .none, .none, .none,
    .cmux 2 3 0, .cmux 2 2 1, .cmux 2 1 2, .cmux 2 0 3, .none, .none, .none, .none, .none, .none,
    .cmux 3 2 3, .cmux 3 3 2, .cmux 3 1 0, .none, .none, .none, .none, .none, .none, .none,
    .copy, .copy, .cmux 36 1 2, .cmux 36 2 0, .none, .none, .none, .none, .none, .none,
    .copy, .copy, .cmux 4 3 2, .none, .none, .none, .none, .none, .none, .none,
    .copy, .copy, .cmux 37 1 2, .cmux 37 2 0, .none, .none, .none, .none, .none, .none,
    .copy, .copy, .cmux 5 3 2, .none, .none, .none, .none, .none, .none, .none,
    .copy, .copy, .cmux 38 2 0, .cmux 38 1 2, .none, .none, .none, .none, .none, .none,
    .copy, .copy, .cmux 6 2 3, .none, .none, .none, .none, .none, .none, .none,
    .copy, .copy, .cmux 39 1 2, .cmux 39 2 0, .none, .none, .none, .none, .none, .none,
    .copy, .copy, .cmux 7 3 2, .none, .none, .none, .none, .none, .none, .none,
    .copy, .copy, .cmux 40 1 2, .cmux 40 2 0, .none, .none, .none, .none, .none, .none,
    .copy, .copy, .cmux 8 3 2, .none, .none, .none, .none, .none, .none, .none,
    .copy, .copy, .cmux 41 1 2, .cmux 41 2 0, .none, .none, .none, .none, .none, .none,
    .copy, .copy, .cmux 9 3 2, .none, .none, .none, .none, .none, .none, .none,
    .copy, .copy, .cmux 42 1 2, .cmux 42 2 0, .none, .none, .none, .none, .none, .none,
    .copy, .copy, .cmux 10 3 2, .none, .none, .none, .none, .none, .none, .none,
    .copy, .copy, .cmux 43 2 0, .cmux 43 1 2, .none, .none, .none, .none, .none, .none,
    .copy, .copy, .cmux 11 2 3, .none, .none, .none, .none, .none, .none, .none,
    .copy, .copy, .cmux 44 2 0, .cmux 44 1 2, .none, .none, .none, .none, .none, .none,
    .copy, .copy, .cmux 12 2 3, .none, .none, .none, .none, .none, .none, .none,
    .copy, .copy, .cmux 45 1 2, .cmux 45 2 0, .none, .none, .none, .none, .none, .none,
    .copy, .copy, .cmux 13 3 2, .none, .none, .none, .none, .none, .none, .none,
    .copy, .copy, .cmux 46 2 0, .cmux 46 1 2, .none, .none, .none, .none, .none, .none,
    .copy, .copy, .cmux 14 2 3, .none, .none, .none, .none, .none, .none, .none,
    .copy, .copy, .cmux 47 1 2, .cmux 47 2 0, .none, .none, .none, .none, .none, .none,
    .copy, .copy, .cmux 15 3 2, .none, .none, .none, .none, .none, .none, .none,
    .copy, .copy, .cmux 48 2 0, .cmux 48 1 2, .none, .none, .none, .none, .none, .none,
    .copy, .copy, .cmux 16 2 3, .none, .none, .none, .none, .none, .none, .none,
    .copy, .copy, .cmux 49 1 2, .cmux 49 2 0, .none, .none, .none, .none, .none, .none,
    .copy, .copy, .cmux 17 3 2, .none, .none, .none, .none, .none, .none, .none,
    .copy, .copy, .cmux 50 1 2, .cmux 50 2 0, .none, .none, .none, .none, .none, .none,
    .copy, .copy, .cmux 18 3 2, .none, .none, .none, .none, .none, .none, .none,
    .copy, .copy, .cmux 51 2 0, .cmux 51 1 2, .none, .none, .none, .none, .none, .none,
    .copy, .copy, .cmux 19 2 3, .none, .none, .none, .none, .none, .none, .none,
    .copy, .copy, .cmux 52 1 2, .cmux 52 2 0, .none, .none, .none, .none, .none, .none,
    .copy, .copy, .cmux 20 3 2, .none, .none, .none, .none, .none, .none, .none,
    .copy, .copy, .cmux 53 1 2, .cmux 53 2 0, .none, .none, .none, .none, .none, .none,
    .copy, .copy, .cmux 21 3 2, .none, .none, .none, .none, .none, .none, .none,
    .copy, .copy, .cmux 54 2 0, .cmux 54 1 2, .none, .none, .none, .none, .none, .none,
    .copy, .copy, .cmux 22 2 3, .none, .none, .none, .none, .none, .none, .none,
    .copy, .copy, .cmux 55 1 2, .cmux 55 2 0, .none, .none, .none, .none, .none, .none,
    .copy, .copy, .cmux 23 3 2, .none, .none, .none, .none, .none, .none, .none,
    .copy, .copy, .cmux 56 1 2, .cmux 56 2 0, .none, .none, .none, .none, .none, .none,
    .copy, .copy, .cmux 24 3 2, .none, .none, .none, .none, .none, .none, .none,
    .copy, .copy, .cmux 57 2 0, .cmux 57 1 2, .none, .none, .none, .none, .none, .none,
    .copy, .copy, .cmux 25 2 3, .none, .none, .none, .none, .none, .none, .none,
    .copy, .copy, .cmux 58 1 2, .cmux 58 2 0, .none, .none, .none, .none, .none, .none,
    .copy, .copy, .cmux 26 3 2, .none, .none, .none, .none, .none, .none, .none,
    .copy, .copy, .cmux 59 2 0, .cmux 59 1 2, .none, .none, .none, .none, .none, .none,
    .copy, .copy, .cmux 27 2 3, .none, .none, .none, .none, .none, .none, .none,
    .copy, .copy, .cmux 60 2 0, .cmux 60 1 2, .none, .none, .none, .none, .none, .none,
    .copy, .copy, .cmux 28 2 3, .none, .none, .none, .none, .none, .none, .none,
    .copy, .copy, .cmux 61 2 0, .cmux 61 1 2, .none, .none, .none, .none, .none, .none,
    .copy, .copy, .cmux 29 2 3, .none, .none, .none, .none, .none, .none, .none,
    .copy, .copy, .cmux 62 1 2, .cmux 62 2 0, .none, .none, .none, .none, .none, .none,
    .copy, .copy, .cmux 30 3 2, .none, .none, .none, .none, .none, .none, .none,
    .copy, .copy, .cmux 63 1 2, .cmux 63 2 0, .none, .none, .none, .none, .none, .none,
    .copy, .copy, .cmux 31 3 2, .none, .none, .none, .none, .none, .none, .none,
    .copy, .copy, .cmux 64 2 0, .cmux 64 1 2, .none, .none, .none, .none, .none, .none,
    .copy, .copy, .cmux 32 2 3, .none, .none, .none, .none, .none, .none, .none,
    .copy, .copy, .cmux 65 1 2, .cmux 65 2 0, .none, .none, .none, .none, .none, .none,
    .copy, .copy, .cmux 33 3 2, .none, .none, .none, .none, .none, .none, .none,
    .copy, .copy, .cmux 66 1 2, .cmux 66 2 0, .none, .none, .none, .none, .none, .none,
    .copy, .copy, .cmux 34 3 2, .none, .none, .none, .none, .none, .none, .none,
    .cmux 67 2 0, .cmux 67 0 2, .cmux 67 2 1, .cmux 67 1 2, .none, .none, .none, .none, .none, .none,
    .cmux 35 0 3, .cmux 35 2 1, .none, .none, .none, .none, .none, .none, .none, .none,
    .cmux 2 1 0, .none, .none, .none, .none, .none, .none, .none, .none, .none]

def b22 : BitCircuit where
  maxInterState := 10
  nodes := [
    .cmux 90 0 1, .cmux 26 1 0, .cmux 26 0 1, .cmux 90 1 0, .none, .none, .none, .none, .none, .none,
    .cmux 25 2 1, .copy, .cmux 89 0 3, .copy, .cmux 89 3 0, .cmux 25 1 2, .none, .none, .none, .none,
    .cmux 24 1 5, .copy, .cmux 88 3 4, .copy, .cmux 88 2 3, .cmux 24 0 1, .none, .none, .none, .none,
    .cmux 23 5 1, .copy, .cmux 119 1 5, .copy, .cmux 119 3 4, .cmux 119 2 3, .cmux 87 4 3, .cmux 119 0 1, .none, .none,
    .cmux 86 6 3, .copy, .cmux 22 0 1, .copy, .cmux 23 1 7, .cmux 23 2 1, .cmux 87 4 3, .cmux 87 3 5, .none, .none,
    .cmux 118 6 7, .copy, .cmux 85 0 3, .copy, .copy, .copy, .copy, .copy, .cmux 21 2 1, .cmux 118 5 4,
    .cmux 84 2 3, .copy, .cmux 22 5 9, .copy, .cmux 86 6 0, .cmux 22 9 4, .cmux 86 0 7, .cmux 20 8 1, .none, .none,
    .cmux 83 0 3, .copy, .copy, .copy, .copy, .copy, .copy, .cmux 117 4 6, .cmux 117 2 5, .cmux 19 7 1,
    .cmux 18 9 1, .copy, .cmux 82 0 3, .copy, .cmux 85 7 6, .cmux 85 4 7, .cmux 21 8 5, .cmux 21 2 8, .none, .none,
    .cmux 81 2 3, .copy, .cmux 116 7 6, .copy, .copy, .copy, .copy, .copy, .cmux 116 5 4, .cmux 17 0 1,
    .cmux 16 9 1, .copy, .cmux 20 7 2, .copy, .cmux 84 5 8, .cmux 84 8 4, .cmux 20 2 6, .cmux 80 0 3, .none, .none,
    .cmux 115 4 5, .copy, .copy, .copy, .copy, .copy, .copy, .cmux 79 7 3, .cmux 15 0 1, .cmux 115 2 6,
    .cmux 78 7 3, .copy, .cmux 19 2 9, .copy, .cmux 83 4 0, .cmux 83 0 5, .cmux 19 9 6, .cmux 14 8 1, .none, .none,
    .cmux 114 4 5, .copy, .copy, .copy, .copy, .copy, .copy, .cmux 114 2 6, .cmux 13 7 1, .cmux 77 0 3,
    .cmux 18 7 6, .copy, .cmux 18 2 7, .copy, .cmux 82 4 0, .cmux 82 0 5, .cmux 76 9 3, .cmux 12 8 1, .none, .none,
    .copy, .copy, .copy, .copy, .copy, .copy, .cmux 113 2 0, .cmux 75 6 3, .cmux 11 7 1, .cmux 113 4 5,
    .cmux 17 6 0, .copy, .cmux 10 8 1, .copy, .cmux 17 2 6, .cmux 81 9 5, .cmux 81 4 9, .cmux 74 7 3, .none, .none,
    .copy, .copy, .cmux 73 7 3, .copy, .copy, .copy, .copy, .cmux 112 4 0, .cmux 112 6 5, .cmux 9 2 1,
    .cmux 80 8 5, .copy, .cmux 8 9 1, .copy, .cmux 16 7 0, .cmux 72 2 3, .cmux 16 4 7, .cmux 80 6 8, .none, .none,
    .copy, .copy, .cmux 111 7 0, .copy, .copy, .cmux 111 6 4, .copy, .copy, .cmux 7 2 1, .cmux 71 5 3,
    .cmux 70 9 3, .cmux 6 8 1, .cmux 15 6 5, .cmux 15 5 4, .cmux 79 2 0, .cmux 79 7 2, .none, .none, .none, .none,
    .copy, .cmux 0 1 0, .copy, .copy, .copy, .copy, .cmux 110 5 4, .cmux 110 2 3, .none, .none,
    .copy, .cmux 78 6 4, .cmux 14 2 7, .cmux 78 5 6, .cmux 1 1 0, .cmux 14 7 3, .none, .none, .none, .none,
    .cmux 109 3 1, .copy, .copy, .copy, .cmux 109 2 5, .copy, .cmux 2 4 0, .none, .none, .none,
    .cmux 77 0 1, .cmux 13 4 5, .cmux 13 2 4, .cmux 77 3 0, .none, .none, .copy, .none, .none, .none,
    .copy, .copy, .copy, .copy, .cmux 108 2 1, .cmux 108 3 0, .copy, .none, .none, .none,
    .cmux 12 4 1, .cmux 76 3 5, .cmux 76 5 0, .cmux 12 2 4, .none, .none, .copy, .none, .none, .none,
    .copy, .copy, .copy, .copy, .cmux 107 3 0, .cmux 107 1 2, .copy, .none, .none, .none,
    .cmux 75 1 5, .cmux 11 3 4, .cmux 11 4 0, .cmux 75 5 2, .none, .none, .copy, .none, .none, .none,
    .copy, .copy, .copy, .copy, .cmux 106 1 2, .cmux 106 0 3, .copy, .none, .none, .none,
    .cmux 10 4 2, .cmux 10 1 4, .cmux 74 5 3, .cmux 74 0 5, .none, .none, .copy, .none, .none, .none,
    .copy, .copy, .copy, .copy, .cmux 105 3 2, .cmux 105 1 0, .copy, .none, .none, .none,
    .cmux 73 4 2, .cmux 9 5 0, .cmux 9 1 5, .cmux 73 3 4, .none, .none, .copy, .none, .none, .none,
    .copy, .copy, .copy, .copy, .cmux 104 2 1, .cmux 104 3 0, .copy, .none, .none, .none,
    .cmux 72 5 0, .cmux 8 2 4, .cmux 72 3 5, .cmux 8 4 1, .none, .none, .copy, .none, .none, .none,
    .copy, .copy, .copy, .copy, .cmux 103 1 3, .cmux 103 2 0, .copy, .none, .none, .none,
    .cmux 71 5 0, .cmux 71 2 5, .cmux 7 4 3, .cmux 7 1 4, .none, .none, .copy, .none, .none, .none,
    .copy, .copy, .copy, .copy, .cmux 102 3 2, .cmux 102 1 0, .copy, .none, .none, .none,
    .cmux 6 3 4, .cmux 70 1 5, .cmux 6 4 2, .cmux 70 5 0, .none, .none, .copy, .none, .none, .none,
    .copy, .copy, .copy, .copy, .cmux 101 1 3, .cmux 101 0 2, .copy, .none, .none, .none,
    .cmux 69 4 3, .cmux 69 1 4, .cmux 5 5 2, .cmux 5 0 5, .none, .none, .copy, .none, .none, .none,
    .copy, .cmux 100 1 0, .copy, .cmux 100 3 2, .none, .none, .copy, .none, .none, .none,
    .cmux 68 1 0, .cmux 4 3 2, .none, .none, .none, .none, .copy, .none, .none, .none,
    .copy, .cmux 0 1 0, .none, .none, .none, .none, .copy, .none, .none, .none,
    .copy, .cmux 1 1 0, .none, .none, .none, .none, .copy, .none, .none, .none,
    .cmux 2 1 0, .none, .none, .none, .none, .none, .copy, .none, .none, .none,
    .copy, .cmux 0 0 6, .cmux 0 6 0, .cmux 1 0 6, .none, .none, .copy, .none, .none, .none,
    .cmux 1 1 6, .cmux 1 0 2, .cmux 1 1 2, .copy, .none, .none, .none, .none, .none, .none,
    .cmux 2 0 2, .cmux 2 2 0, .cmux 2 3 1, .cmux 2 1 3, .none, .none, .none, .none, .none, .none,
    .cmux 3 3 1, .cmux 3 1 3, .cmux 3 2 0, .none, .none, .none, .none, .none, .none, .none,
    .copy, .copy, .cmux 36 1 2, .cmux 36 2 0, .none, .none, .none, .none, .none, .none,
    .copy, .copy, .cmux 4 3 2, .none, .none, .none, .none, .none, .none, .none,
    .copy, .copy, .cmux 37 2 0, .cmux 37 1 2, .none, .none, .none, .none, .none, .none,
    .copy, .copy, .cmux 5 2 3, .none, .none, .none, .none, .none, .none, .none,
    .copy, .copy, .cmux 38 2 0, .cmux 38 1 2, .none, .none, .none, .none, .none, .none,
    .copy, .copy, .cmux 6 2 3, .none, .none, .none, .none, .none, .none, .none,
    .copy, .copy, .cmux 39 2 0, .cmux 39 1 2, .none, .none, .none, .none, .none, .none,
    .copy, .copy, .cmux 7 2 3, .none, .none, .none, .none, .none, .none, .none,
    .copy, .copy, .cmux 40 1 2, .cmux 40 2 0, .none, .none, .none, .none, .none, .none,
    .copy, .copy, .cmux 8 3 2, .none, .none, .none, .none, .none, .none, .none,
    .copy, .copy, .cmux 41 1 2, .cmux 41 2 0, .none, .none, .none, .none, .none, .none,
    .copy, .copy, .cmux 9 3 2, .none, .none, .none, .none, .none, .none, .none,
    .copy, .copy, .cmux 42 2 0, .cmux 42 1 2, .none, .none, .none, .none, .none, .none,
    .copy, .copy, .cmux 10 2 3, .none, .none, .none, .none, .none, .none, .none,
    .copy, .copy, .cmux 43 1 2, .cmux 43 2 0, .none, .none, .none, .none, .none, .none,
    .copy, .copy, .cmux 11 3 2, .none, .none, .none, .none, .none, .none, .none,
    .copy, .copy, .cmux 44 2 0, .cmux 44 1 2, .none, .none, .none, .none, .none, .none,
    .copy, .copy, .cmux 12 2 3, .none, .none, .none, .none, .none, .none, .none,
    .copy, .copy, .cmux 45 2 0, .cmux 45 1 2, .none, .none, .none, .none, .none, .none,
    .copy, .copy, .cmux 13 2 3, .none, .none, .none, .none, .none, .none, .none,
    .copy, .copy, .cmux 46 1 2, .cmux 46 2 0, .none, .none, .none, .none, .none, .none,
    .copy, .copy, .cmux 14 3 2, .none, .none, .none, .none, .none, .none, .none,
    .copy, .copy, .cmux 47 2 0, .cmux 47 1 2, .none, .none, .none, .none, .none, .none,
    .copy, .copy, .cmux 15 2 3, .none, .none, .none, .none, .none, .none, .none,
    .copy, .copy, .cmux 48 1 2, .cmux 48 2 0, .none, .none, .none, .none, .none, .none,
    .copy, .copy, .cmux 16 3 2, .none, .none, .none, .none, .none, .none, .none,
    .copy, .copy, .cmux 49 2 0, .cmux 49 1 2, .none, .none, .none, .none, .none, .none,
    .copy, .copy, .cmux 17 2 3, .none, .none, .none, .none, .none, .none, .none,
    .copy, .copy, .cmux 50 1 2, .cmux 50 2 0, .none, .none, .none, .none, .none, .none,
    .copy, .copy, .cmux 18 3 2, .none, .none, .none, .none, .none, .none, .none,
    .copy, .copy, .cmux 51 2 0, .cmux 51 1 2, .none, .none, .none, .none, .none, .none,
    .copy, .copy, .cmux 19 2 3, .none, .none, .none, .none, .none, .none, .none,
    .copy, .copy, .cmux 52 1 2, .cmux 52 2 0, .none, .none, .none, .none, .none, .none,
    .copy, .copy, .cmux 20 3 2, .none, .none, .none, .none, .none, .none, .none,
    .copy, .copy, .cmux 53 1 2, .cmux 53 2 0, .none, .none, .none, .none, .none, .none,
    .copy, .copy, .cmux 21 3 2, .none, .none, .none, .none, .none, .none, .none,
    .copy, .copy, .cmux 54 1 2, .cmux 54 2 0, .none, .none, .none, .none, .none, .none,
    .copy, .copy, .cmux 22 3 2, .none, .none, .none, .none, .none, .none, .none,
    .copy, .copy, .cmux 55 1 2, .cmux 55 2 0, .none, .none, .none, .none, .none, .none,
    .copy, .copy, .cmux 23 3 2, .none, .none, .none, .none, .none, .none, .none,
    .copy, .copy, .cmux 56 2 0, .cmux 56 1 2, .none, .none, .none, .none, .none, .none,
    .copy, .copy, .cmux 24 2 3, .none, .none, .none, .none, .none, .none, .none,
    .copy, .copy, .cmux 57 2 0, .cmux 57 1 2, .none, .none, .none, .none, .none, .none,
    .copy, .copy, .cmux 25 2 3, .none, .none, .none, .none, .none, .none, .none,
    .copy, .copy, .cmux 58 2 0, .cmux 58 1 2, .none, .none, .none, .none, .none, .none,
    .copy, .copy, .cmux 26 2 3, .none, .none, .none, .none, .none, .none, .none,
    .copy, .copy, .cmux 59 2 0, .cmux 59 1 2, .none, .none, .none, .none, .none, .none,
    .copy, .copy, .cmux 27 2 3, .none, .none, .none, .none, .none, .none, .none,
    .copy, .copy, .cmux 60 1 2, .cmux 60 2 0, .none, .none, .none, .none, .none, .none,
    .copy, .copy, .cmux 28 3 2, .none, .none, .none, .none, .none, .none, .none,
    .copy, .copy, .cmux 61 2 0, .cmux 61 1 2, .none, .none, .none, .none, .none, .none,
    .copy, .copy, .cmux 29 2 3, .none, .none, .none, .none, .none, .none, .none,
    .copy, .copy, .cmux 62 2 0, .cmux 62 1 2, .none, .none, .none, .none, .none, .none,
    .copy, .copy, .cmux 30 2 3, .none, .none, .none, .none, .none, .none, .none,
    .copy, .copy, .cmux 63 1 2, .cmux 63 2 0, .none, .none, .none, .none, .none, .none,
    .copy, .copy, .cmux 31 3 2, .none, .none, .none, .none, .none, .none, .none,
    .copy, .copy, .cmux 64 1 2, .cmux 64 2 0, .none, .none, .none, .none, .none, .none,
    .copy, .copy, .cmux 32 3 2, .none, .none, .none, .none, .none, .none, .none,
    .copy, .copy, .cmux 65 1 2, .cmux 65 2 0, .none, .none, .none, .none, .none, .none,
    .copy, .copy, .cmux 33 3 2, .none, .none, .none, .none, .none, .none, .none,
    .copy, .copy, .cmux 66 2 0, .cmux 66 1 2, .none, .none, .none, .none, .none, .none,
    .copy, .copy, .cmux 34 2 3, .none, .none, .none, .none, .none, .none, .none,
    .cmux 67 2 0, .cmux 67 1 2, .cmux 67 0 2, .cmux 67 2 1, .none, .none, .none, .none, .none, .none,
    .cmux 35 3 2, .cmux 35 0 1, .none, .none, .none, .none, .none, .none, .none, .none,
    .cmux 2 0 1, .none, .none, .none, .none, .none, .none, .none, .none, .none]

def b23 : BitCircuit where
  maxInterState := 10
  nodes := [
    .cmux 91 1 0, .cmux 27 0 1, .cmux 27 1 0, .cmux 91 0 1, .none, .none, .none, .none, .none, .none,
    .copy, .cmux 26 1 2, .copy, .cmux 90 0 3, .cmux 26 2 1, .cmux 90 3 0, .none, .none, .none, .none,
    .copy, .cmux 89 0 3, .copy, .cmux 25 2 4, .cmux 89 5 0, .cmux 25 1 2, .none, .none, .none, .none,
    .copy, .cmux 88 0 1, .copy, .cmux 24 5 2, .cmux 88 4 0, .cmux 24 2 3, .none, .none, .none, .none,
    .copy, .cmux 119 0 4, .copy, .cmux 119 1 0, .cmux 87 4 0, .cmux 119 5 2, .cmux 23 3 2, .cmux 119 2 3, .none, .none,
    .copy, .cmux 87 1 0, .copy, .cmux 22 6 2, .cmux 23 7 2, .cmux 86 4 0, .cmux 23 2 5, .cmux 87 0 3, .none, .none,
    .copy, .copy, .copy, .cmux 21 3 2, .copy, .cmux 118 4 6, .copy, .copy, .cmux 118 1 7, .cmux 85 5 0,
    .copy, .cmux 86 1 8, .copy, .cmux 22 5 6, .cmux 20 3 2, .cmux 84 9 0, .cmux 86 8 7, .cmux 22 4 5, .none, .none,
    .copy, .copy, .copy, .copy, .cmux 83 5 0, .cmux 19 4 2, .copy, .copy, .cmux 117 7 3, .cmux 117 1 6,
    .copy, .cmux 85 9 6, .copy, .cmux 21 8 3, .cmux 18 5 2, .cmux 21 7 8, .cmux 82 4 0, .cmux 85 1 9, .none, .none,
    .copy, .copy, .copy, .copy, .cmux 81 6 0, .copy, .cmux 17 4 2, .copy, .cmux 116 5 3, .cmux 116 7 1,
    .copy, .cmux 16 6 2, .copy, .cmux 84 9 1, .cmux 84 7 9, .cmux 20 8 3, .cmux 80 4 0, .cmux 20 5 8, .none, .none,
    .copy, .cmux 79 6 0, .copy, .copy, .copy, .copy, .cmux 115 4 3, .copy, .cmux 15 1 2, .cmux 115 7 5,
    .copy, .cmux 14 8 2, .copy, .cmux 78 1 0, .cmux 83 4 6, .cmux 19 9 5, .cmux 83 6 3, .cmux 19 7 9, .none, .none,
    .copy, .cmux 114 4 6, .copy, .cmux 77 3 0, .copy, .copy, .copy, .copy, .cmux 13 1 2, .cmux 114 7 5,
    .copy, .cmux 18 7 9, .copy, .cmux 76 3 0, .cmux 82 1 6, .cmux 18 9 5, .cmux 82 4 1, .cmux 12 8 2, .none, .none,
    .copy, .copy, .copy, .cmux 11 7 2, .copy, .copy, .copy, .cmux 113 6 4, .cmux 113 1 5, .cmux 75 3 0,
    .copy, .cmux 81 7 4, .copy, .cmux 10 3 2, .cmux 17 1 8, .cmux 74 9 0, .cmux 17 8 5, .cmux 81 6 7, .none, .none,
    .copy, .copy, .copy, .cmux 112 4 6, .copy, .cmux 73 5 0, .copy, .copy, .cmux 9 3 2, .cmux 112 7 1,
    .copy, .cmux 8 8 2, .copy, .cmux 80 9 1, .cmux 80 7 9, .cmux 16 3 6, .cmux 72 5 0, .cmux 16 4 3, .none, .none,
    .copy, .cmux 111 4 3, .copy, .copy, .copy, .copy, .cmux 71 6 0, .copy, .cmux 7 1 2, .cmux 111 7 5,
    .cmux 79 1 3, .cmux 15 9 5, .cmux 70 6 0, .cmux 15 7 9, .cmux 6 8 2, .cmux 79 4 1, .none, .none, .none, .none,
    .copy, .copy, .copy, .copy, .cmux 110 5 0, .copy, .cmux 110 3 1, .cmux 0 4 2, .none, .none,
    .cmux 14 3 6, .cmux 14 6 1, .copy, .cmux 78 4 0, .cmux 78 5 4, .cmux 1 7 2, .none, .none, .none, .none,
    .copy, .copy, .cmux 2 5 2, .copy, .copy, .cmux 109 4 3, .cmux 109 0 1, .none, .none, .none,
    .cmux 77 5 3, .cmux 13 6 1, .copy, .cmux 77 4 5, .cmux 13 0 6, .none, .none, .none, .none, .none,
    .copy, .copy, .copy, .copy, .copy, .cmux 108 4 1, .cmux 108 3 0, .none, .none, .none,
    .cmux 76 6 0, .cmux 12 4 5, .copy, .cmux 12 5 1, .cmux 76 3 6, .none, .none, .none, .none, .none,
    .copy, .copy, .copy, .copy, .copy, .cmux 107 4 0, .cmux 107 1 3, .none, .none, .none,
    .cmux 75 5 0, .cmux 75 4 5, .copy, .cmux 11 1 6, .cmux 11 6 3, .none, .none, .none, .none, .none,
    .copy, .copy, .copy, .copy, .copy, .cmux 106 3 4, .cmux 106 1 0, .none, .none, .none,
    .cmux 10 3 5, .cmux 74 1 6, .copy, .cmux 74 6 0, .cmux 10 5 4, .none, .none, .none, .none, .none,
    .copy, .copy, .copy, .copy, .copy, .cmux 105 1 3, .cmux 105 0 4, .none, .none, .none,
    .cmux 9 0 6, .cmux 73 1 5, .copy, .cmux 73 5 3, .cmux 9 6 4, .none, .none, .none, .none, .none,
    .copy, .copy, .copy, .copy, .copy, .cmux 104 1 3, .cmux 104 0 4, .none, .none, .none,
    .cmux 8 0 6, .cmux 72 1 5, .copy, .cmux 72 5 3, .cmux 8 6 4, .none, .none, .none, .none, .none,
    .copy, .copy, .copy, .copy, .copy, .cmux 103 0 4, .cmux 103 1 3, .none, .none, .none,
    .cmux 7 0 5, .cmux 71 6 3, .copy, .cmux 71 1 6, .cmux 7 5 4, .none, .none, .none, .none, .none,
    .copy, .copy, .copy, .copy, .copy, .cmux 102 3 1, .cmux 102 0 4, .none, .none, .none,
    .cmux 6 6 4, .cmux 70 3 5, .copy, .cmux 70 5 1, .cmux 6 0 6, .none, .none, .none, .none, .none,
    .copy, .copy, .copy, .copy, .copy, .cmux 101 4 0, .cmux 101 1 3, .none, .none, .none,
    .cmux 5 5 0, .cmux 69 1 6, .copy, .cmux 69 6 3, .cmux 5 4 5, .none, .none, .none, .none, .none,
    .copy, .cmux 100 4 0, .copy, .copy, .cmux 100 1 3, .none, .none, .none, .none, .none,
    .cmux 4 1 0, .cmux 68 4 3, .copy, .none, .none, .none, .none, .none, .none, .none,
    .cmux 0 0 1, .copy, .copy, .none, .none, .none, .none, .none, .none, .none,
    .cmux 1 0 1, .copy, .copy, .none, .none, .none, .none, .none, .none, .none,
    .cmux 2 0 1, .none, .copy, .none, .none, .none, .none, .none, .none, .none,
    .copy, .cmux 0 2 0, .copy, .cmux 1 0 2, .cmux 0 0 2, .none, .none, .none, .none, .none,
    .cmux 1 0 1, .cmux 1 4 1, .cmux 1 4 2, .copy, .none, .none, .none, .none, .none, .none,
    .cmux 2 1 2, .cmux 2 3 0, .cmux 2 0 3, .cmux 2 2 1, .none, .none, .none, .none, .none, .none,
    .cmux 3 2 0, .cmux 3 0 2, .cmux 3 1 3, .none, .none, .none, .none, .none, .none, .none,
    .copy, .copy, .cmux 36 2 0, .cmux 36 1 2, .none, .none, .none, .none, .none, .none,
    .copy, .copy, .cmux 4 2 3, .none, .none, .none, .none, .none, .none, .none,
    .copy, .copy, .cmux 37 2 0, .cmux 37 1 2, .none, .none, .none, .none, .none, .none,
    .copy, .copy, .cmux 5 2 3, .none, .none, .none, .none, .none, .none, .none,
    .copy, .copy, .cmux 38 2 0, .cmux 38 1 2, .none, .none, .none, .none, .none, .none,
    .copy, .copy, .cmux 6 2 3, .none, .none, .none, .none, .none, .none, .none,
    .copy, .copy, .cmux 39 2 0, .cmux 39 1 2, .none, .none, .none, .none, .none, .none,
    .copy, .copy, .cmux 7 2 3, .none, .none, .none, .none, .none, .none, .none,
    .copy, .copy, .cmux 40 2 0, .cmux 40 1 2, .none, .none, .none, .none, .none, .none,
    .copy, .copy, .cmux 8 2 3, .none, .none, .none, .none, .none, .none, .none,
    .copy, .copy, .cmux 41 1 2, .cmux 41 2 0, .none, .none, .none, .none, .none, .none,
    .copy, .copy, .cmux 9 3 2, .none, .none, .none, .none, .none, .none, .none,
    .copy, .copy, .cmux 42 1 2, .cmux 42 2 0, .none, .none, .none, .none, .none, .none,
    .copy, .copy, .cmux 10 3 2, .none, .none, .none, .none, .none, .none, .none,
    .copy, .copy, .cmux 43 2 0, .cmux 43 1 2, .none, .none, .none, .none, .none, .none,
    .copy, .copy, .cmux 11 2 3, .none, .none, .none, .none, .none, .none, .none,
    .copy, .copy, .cmux 44 2 0, .cmux 44 1 2, .none, .none, .none, .none, .none, .none,
    .copy, .copy, .cmux 12 2 3, .none, .none, .none, .none, .none, .none, .none,
    .copy, .copy, .cmux 45 2 0, .cmux 45 1 2, .none, .none, .none, .none, .none, .none,
    .copy, .copy, .cmux 13 2 3, .none, .none, .none, .none, .none, .none, .none,
    .copy, .copy, .cmux 46 2 0, .cmux 46 1 2, .none, .none, .none, .none, .none, .none,
    .copy, .copy, .cmux 14 2 3, .none, .none, .none, .none, .none, .none, .none,
    .copy, .copy, .cmux 47 1 2, .cmux 47 2 0, .none, .none, .none, .none, .none, .none,
    .copy, .copy, .cmux 15 3 2, .none, .none, .none, .none, .none, .none, .none,
    .copy, .copy, .cmux 48 1 2, .cmux 48 2 0, .none, .none, .none, .none, .none, .none,
    .copy, .copy, .cmux 16 3 2, .none, .none, .none, .none, .none, .none, .none,
    .copy, .copy, .cmux 49 1 2, .cmux 49 2 0, .none, .none, .none, .none, .none, .none,
    .copy, .copy, .cmux 17 3 2, .none, .none, .none, .none, .none, .none, .none,
    .copy, .copy, .cmux 50 2 0, .cmux 50 1 2, .none, .none, .none, .none, .none, .none,
    .copy, .copy, .cmux 18 2 3, .none, .none, .none, .none, .none, .none, .none,
    .copy, .copy, .cmux 51 1 2, .cmux 51 2 0, .none, .none, .none, .none, .none, .none,
    .copy, .copy, .cmux 19 3 2, .none, .none, .none, .none, .none, .none, .none,
    .copy, .copy, .cmux 52 2 0, .cmux 52 1 2, .none, .none, .none, .none, .none, .none,
    .copy, .copy, .cmux 20 2 3, .none, .none, .none, .none, .none, .none, .none,
    .copy, .copy, .cmux 53 1 2, .cmux 53 2 0, .none, .none, .none, .none, .none, .none,
    .copy, .copy, .cmux 21 3 2, .none, .none, .none, .none, .none, .none, .none,
    .copy, .copy, .cmux 54 1 2, .cmux 54 2 0, .none, .none, .none, .none, .none, .none,
    .copy, .copy, .cmux 22 3 2, .none, .none, .none, .none, .none, .none, .none,
    .copy, .copy, .cmux 55 1 2, .cmux 55 2 0, .none, .none, .none, .none, .none, .none,
    .copy, .copy, .cmux 23 3 2, .none, .none, .none, .none, .none, .none, .none,
    .copy, .copy, .cmux 56 2 0, .cmux 56 1 2, .none, .none, .none, .none, .none, .none,
    .copy, .copy, .cmux 24 2 3, .none, .none, .none, .none, .none, .none, .none,
    .copy, .copy, .cmux 57 2 0, .cmux 57 1 2, .none, .none, .none, .none, .none, .none,
    .copy, .copy, .cmux 25 2 3, .none, .none, .none, .none, .none, .none, .none,
    .copy, .copy, .cmux 58 2 0, .cmux 58 1 2, .none, .none, .none, .none, .none, .none,
    .copy, .copy, .cmux 26 2 3, .none, .none, .none, .none, .none, .none, .none,
    .copy, .copy, .cmux 59 1 2, .cmux 59 2 0, .none, .none, .none, .none, .none, .none,
    .copy, .copy, .cmux 27 3 2, .none, .none, .none, .none, .none, .none, .none,
    .copy, .copy, .cmux 60 1 2, .cmux 60 2 0, .none, .none, .none, .none, .none, .none,
    .copy, .copy, .cmux 28 3 2, .none, .none, .none, .none, .none, .none, .none,
    .copy, .copy, .cmux 61 2 0, .cmux 61 1 2, .none, .none, .none, .none, .none, .none,
    .copy, .copy, .cmux 29 2 3, .none, .none, .none, .none, .none, .none, .none,
    .copy, .copy, .cmux 62 2 0, .cmux 62 1 2, .none, .none, .none, .none, .none, .none,
    .copy, .copy, .cmux 30 2 3, .none, .none, .none, .none, .none, .none, .none,
    .copy, .copy, .cmux 63 1 2, .cmux 63 2 0, .none, .none, .none, .none, .none, .none,
    .copy, .copy, .cmux 31 3 2, .none, .none, .none, .none, .none, .none, .none,
    .copy, .copy, .cmux 64 2 0, .cmux 64 1 2, .none, .none, .none, .none, .none, .none,
    .copy, .copy, .cmux 32 2 3, .none, .none, .none, .none, .none, .none, .none,
    .copy, .copy, .cmux 65 1 2, .cmux 65 2 0, .none, .none, .none, .none, .none, .none,
    .copy, .copy, .cmux 33 3 2, .none, .none, .none, .none, .none, .none, .none,
    .copy, .copy, .cmux 66 1 2, .cmux 66 2 0, .none, .none, .none, .none, .none, .none,
    .copy, .copy, .cmux 34 3 2, .none, .none, .none, .none, .none, .none, .none,
    .cmux 67 1 2, .cmux 67 2 0, .cmux 67 2 1, .cmux 67 0 2, .none, .none, .none, .none, .none, .none,
    .cmux 35 1 0, .cmux 35 2 3, .none, .none, .none, .none, .none, .none, .none, .none,
    .cmux 2 1 0, .none, .none, .none, .none, .none, .none, .none, .none, .none]

def b24 : BitCircuit where
  maxInterState := 10
  nodes := [
    .cmux 92 1 0, .cmux 28 1 0, .cmux 92 0 1, .cmux 28 0 1, .none, .none, .none, .none, .none, .none,
    .copy, .copy, .cmux 91 0 2, .cmux 27 3 1, .cmux 27 1 3, .cmux 91 2 0, .none, .none, .none, .none,
    .copy, .copy, .cmux 90 0 2, .cmux 26 3 1, .cmux 26 1 4, .cmux 90 5 0, .none, .none, .none, .none,
    .copy, .copy, .cmux 89 0 2, .cmux 25 3 1, .cmux 89 5 0, .cmux 25 1 4, .none, .none, .none, .none,
    .copy, .copy, .cmux 24 1 5, .cmux 88 4 0, .cmux 24 3 1, .cmux 88 0 2, .none, .none, .none, .none,
    .copy, .copy, .cmux 119 0 3, .cmux 87 3 0, .cmux 119 2 1, .cmux 119 1 4, .cmux 119 5 0, .cmux 23 4 1, .none, .none,
    .copy, .copy, .cmux 86 3 0, .cmux 23 1 4, .cmux 87 2 0, .cmux 23 5 1, .cmux 22 7 1, .cmux 87 0 6, .none, .none,
    .copy, .copy, .cmux 118 4 7, .copy, .copy, .copy, .cmux 85 2 0, .copy, .cmux 118 5 3, .cmux 21 6 1,
    .copy, .copy, .cmux 86 2 7, .cmux 84 6 0, .cmux 22 5 8, .cmux 86 4 2, .cmux 22 8 3, .cmux 20 9 1, .none, .none,
    .copy, .copy, .copy, .cmux 19 7 1, .copy, .copy, .copy, .cmux 117 5 2, .cmux 117 4 6, .cmux 83 3 0,
    .copy, .copy, .cmux 85 5 7, .cmux 82 9 0, .cmux 18 3 1, .cmux 21 8 6, .cmux 21 4 8, .cmux 85 7 2, .none, .none,
    .copy, .copy, .copy, .cmux 81 3 0, .cmux 17 4 1, .copy, .copy, .copy, .cmux 116 6 5, .cmux 116 2 7,
    .copy, .copy, .cmux 80 3 0, .cmux 84 2 9, .cmux 20 6 8, .cmux 84 9 7, .cmux 20 8 5, .cmux 16 4 1, .none, .none,
    .copy, .copy, .cmux 115 4 6, .copy, .copy, .copy, .copy, .cmux 79 2 0, .cmux 15 7 1, .cmux 115 3 5,
    .copy, .copy, .cmux 78 7 0, .cmux 19 4 2, .cmux 83 9 5, .cmux 19 2 6, .cmux 14 8 1, .cmux 83 3 9, .none, .none,
    .copy, .copy, .cmux 114 3 5, .copy, .copy, .copy, .cmux 77 2 0, .copy, .cmux 13 6 1, .cmux 114 7 4,
    .copy, .copy, .cmux 18 2 5, .cmux 82 9 4, .cmux 12 8 1, .cmux 18 3 2, .cmux 82 7 9, .cmux 76 6 0, .none, .none,
    .copy, .copy, .copy, .copy, .cmux 11 4 1, .copy, .copy, .cmux 113 6 3, .cmux 113 5 2, .cmux 75 7 0,
    .copy, .copy, .cmux 81 7 3, .cmux 10 4 1, .cmux 74 9 0, .cmux 17 5 8, .cmux 17 8 2, .cmux 81 6 7, .none, .none,
    .copy, .copy, .copy, .cmux 112 7 2, .cmux 9 3 1, .copy, .copy, .copy, .cmux 73 4 0, .cmux 112 5 6,
    .copy, .copy, .cmux 80 3 2, .cmux 80 7 3, .cmux 72 8 0, .cmux 8 4 1, .cmux 16 9 6, .cmux 16 5 9, .none, .none,
    .copy, .copy, .copy, .copy, .cmux 111 7 6, .cmux 71 4 0, .copy, .copy, .cmux 7 5 1, .cmux 111 3 2,
    .cmux 70 5 0, .cmux 79 3 9, .cmux 6 8 1, .cmux 15 4 6, .cmux 15 7 4, .cmux 79 9 2, .none, .none, .none, .none,
    .copy, .copy, .cmux 110 4 3, .copy, .copy, .copy, .cmux 0 2 0, .cmux 110 1 5, .none, .none,
    .copy, .cmux 78 7 5, .cmux 1 6 0, .cmux 78 1 7, .cmux 14 4 2, .cmux 14 2 3, .none, .none, .none, .none,
    .cmux 109 3 1, .copy, .cmux 2 2 0, .copy, .copy, .copy, .cmux 109 4 5, .none, .none, .none,
    .cmux 13 6 5, .cmux 13 4 6, .copy, .cmux 77 0 1, .cmux 77 3 0, .none, .none, .none, .none, .none,
    .copy, .copy, .copy, .copy, .copy, .cmux 108 4 3, .cmux 108 1 0, .none, .none, .none,
    .cmux 76 5 3, .cmux 12 6 0, .copy, .cmux 12 1 6, .cmux 76 4 5, .none, .none, .none, .none, .none,
    .copy, .copy, .copy, .copy, .copy, .cmux 107 3 1, .cmux 107 4 0, .none, .none, .none,
    .cmux 75 4 6, .cmux 75 6 0, .copy, .cmux 11 3 5, .cmux 11 5 1, .none, .none, .none, .none, .none,
    .copy, .copy, .copy, .copy, .copy, .cmux 106 0 1, .cmux 106 3 4, .none, .none, .none,
    .cmux 74 5 1, .cmux 10 6 4, .copy, .cmux 74 0 5, .cmux 10 3 6, .none, .none, .none, .none, .none,
    .copy, .copy, .copy, .copy, .copy, .cmux 105 3 0, .cmux 105 4 1, .none, .none, .none,
    .cmux 9 6 1, .cmux 73 3 5, .copy, .cmux 73 5 0, .cmux 9 4 6, .none, .none, .none, .none, .none,
    .copy, .copy, .copy, .copy, .copy, .cmux 104 4 0, .cmux 104 1 3, .none, .none, .none,
    .cmux 72 1 6, .cmux 72 6 3, .copy, .cmux 8 5 0, .cmux 8 4 5, .none, .none, .none, .none, .none,
    .copy, .copy, .copy, .copy, .copy, .cmux 103 4 3, .cmux 103 0 1, .none, .none, .none,
    .cmux 7 4 5, .cmux 71 0 6, .copy, .cmux 7 5 3, .cmux 71 6 1, .none, .none, .none, .none, .none,
    .copy, .copy, .copy, .copy, .copy, .cmux 102 1 4, .cmux 102 0 3, .none, .none, .none,
    .cmux 6 0 6, .cmux 6 6 3, .copy, .cmux 70 1 5, .cmux 70 5 4, .none, .none, .none, .none, .none,
    .copy, .copy, .copy, .copy, .copy, .cmux 101 0 1, .cmux 101 3 4, .none, .none, .none,
    .cmux 69 3 6, .cmux 5 0 5, .copy, .cmux 69 6 4, .cmux 5 5 1, .none, .none, .none, .none, .none,
    .cmux 100 1 4, .cmux 100 0 3, .copy, .copy, .copy, .none, .none, .none, .none, .none,
    .cmux 4 0 4, .cmux 68 1 3, .copy, .none, .none, .none, .none, .none, .none, .none,
    .cmux 0 0 1, .copy, .copy, .none, .none, .none, .none, .none, .none, .none,
    .cmux 1 0 1, .copy, .copy, .none, .none, .none, .none, .none, .none, .none,
    .cmux 2 0 1, .none, .copy, .none, .none, .none, .none, .none, .none, .none,
    .copy, .cmux 1 0 2, .copy, .cmux 0 0 2, .cmux 0 2 0, .none, .none, .none, .none, .none,
    .cmux 1 0 4, .copy, .cmux 1 3 2, .cmux 1 3 4, .none, .none, .none, .none, .none, .none,
    .cmux 2 0 1, .cmux 2 1 0, .cmux 2 3 2, .cmux 2 2 3, .none, .none, .none, .none, .none, .none,
    .cmux 3 1 3, .cmux 3 0 2, .cmux 3 2 0, .none, .none, .none, .none, .none, .none, .none,
    .cmux 36 2 0, .copy, .copy, .cmux 36 0 1, .none, .none, .none, .none, .none, .none,
    .cmux 4 3 0, .copy, .copy, .none, .none, .none, .none, .none, .none, .none,
    .cmux 37 2 0, .copy, .copy, .cmux 37 0 1, .none, .none, .none, .none, .none, .none,
    .cmux 5 3 0, .copy, .copy, .none, .none, .none, .none, .none, .none, .none,
    .cmux 38 0 1, .copy, .copy, .cmux 38 2 0, .none, .none, .none, .none, .none, .none,
    .cmux 6 0 3, .copy, .copy, .none, .none, .none, .none, .none, .none, .none,
    .cmux 39 2 0, .copy, .copy, .cmux 39 0 1, .none, .none, .none, .none, .none, .none,
    .cmux 7 3 0, .copy, .copy, .none, .none, .none, .none, .none, .none, .none,
    .cmux 40 2 0, .copy, .copy, .cmux 40 0 1, .none, .none, .none, .none, .none, .none,
    .cmux 8 3 0, .copy, .copy, .none, .none, .none, .none, .none, .none, .none,
    .cmux 41 2 0, .copy, .copy, .cmux 41 0 1, .none, .none, .none, .none, .none, .none,
    .cmux 9 3 0, .copy, .copy, .none, .none, .none, .none, .none, .none, .none,
    .cmux 42 2 0, .copy, .copy, .cmux 42 0 1, .none, .none, .none, .none, .none, .none,
    .cmux 10 3 0, .copy, .copy, .none, .none, .none, .none, .none, .none, .none,
    .cmux 43 2 0, .copy, .copy, .cmux 43 0 1, .none, .none, .none, .none, .none, .none,
    .cmux 11 3 0, .copy, .copy, .none, .none, .none, .none, .none, .none, .none,
    .cmux 44 2 0, .copy, .copy, .cmux 44 0 1, .none, .none, .none, .none, .none, .none,
    .cmux 12 3 0, .copy, .copy, .none, .none, .none, .none, .none, .none, .none,
    .cmux 45 2 0, .copy, .copy, .cmux 45 0 1, .none, .none, .none, .none, .none, .none,
    .cmux 13 3 0, .copy, .copy, .none, .none, .none, .none, .none, .none, .none,
    .cmux 46 2 0, .copy, .copy, .cmux 46 0 1, .none, .none, .none, .none, .none, .none,
    .cmux 14 3 0, .copy, .copy, .none, .none, .none, .none, .none, .none, .none,
    .cmux 47 2 0, .copy, .copy, .cmux 47 0 1, .none, .none, .none, .none, .none, .none,
    .cmux 15 3 0, .copy, .copy, .none, .none, .none, .none, .none, .none, .none,
    .cmux 48 2 0, .copy, .copy, .cmux 48 0 1, .none, .none, .none, .none, .none, .none,
    .cmux 16 3 0, .copy, .copy, .none, .none, .none, .none, .none, .none, .none,
    .cmux 49 0 1, .copy, .copy, .cmux 49 2 0, .none, .none, .none, .none, .none, .none,
    .cmux 17 0 3, .copy, .copy, .none, .none, .none, .none, .none, .none, .none,
    .cmux 50 0 1, .copy, .copy, .cmux 50 2 0, .none, .none, .none, .none, .none, .none,
    .cmux 18 0 3, .copy, .copy, .none, .none, .none, .none, .none, .none, .none,
    .cmux 51 0 1, .copy, .copy, .cmux 51 2 0, .none, .none, .none, .none, .none, .none,
    .cmux 19 0 3, .copy, .copy, .none, .none, .none, .none, .none, .none, .none,
    .cmux 52 2 0, .copy, .copy, .cmux 52 0 1, .none, .none, .none, .none, .none, .none,
    .cmux 20 3 0, .copy, .copy, .none, .none, .none, .none, .none, .none, .none,
    .cmux 53 0 1, .copy, .copy, .cmux 53 2 0, .none, .none, .none, .none, .none, .none,
    .cmux 21 0 3, .copy, .copy, .none, .none, .none, .none, .none, .none, .none,
    .cmux 54 0 1, .copy, .copy, .cmux 54 2 0, .none, .none, .none, .none, .none, .none,
    .cmux 22 0 3, .copy, .copy, .none, .none, .none, .none, .none, .none, .none,
    .cmux 55 2 0, .copy, .copy, .cmux 55 0 1, .none, .none, .none, .none, .none, .none,
    .cmux 23 3 0, .copy, .copy, .none, .none, .none, .none, .none, .none, .none,
    .cmux 56 0 1, .copy, .copy, .cmux 56 2 0, .none, .none, .none, .none, .none, .none,
    .cmux 24 0 3, .copy, .copy, .none, .none, .none, .none, .none, .none, .none,
    .cmux 57 2 0, .copy, .copy, .cmux 57 0 1, .none, .none, .none, .none, .none, .none,
    .cmux 25 3 0, .copy, .copy, .none, .none, .none, .none, .none, .none, .none,
    .cmux 58 2 0, .copy, .copy, .cmux 58 0 1, .none, .none, .none, .none, .none, .none,
    .cmux 26 3 0, .copy, .copy, .none, .none, .none, .none, .none, .none, .none,
    .cmux 59 2 0, .copy, .copy, .cmux 59 0 1, .none, .none, .none, .none, .none, .none,
    .cmux 27 3 0, .copy, .copy, .none, .none, .none, .none, .none, .none, .none,
    .cmux 60 0 1, .copy, .copy, .cmux 60 2 0, .none, .none, .none, .none, .none, .none,
    .cmux 28 0 3, .copy, .copy, .none, .none, .none, .none, .none, .none, .none,
    .cmux 61 2 0, .copy, .copy, .cmux 61 0 1, .none, .none, .none, .none, .none, .none,
    .cmux 29 3 0, .copy, .copy, .none, .none, .none, .none, .none, .none, .none,
    .cmux 62 0 1, .copy, .copy, .cmux 62 2 0, .none, .none, .none, .none, .none, .none,
    .cmux 30 0 3, .copy, .copy, .none, .none, .none, .none, .none, .none, .none,
    .cmux 63 0 1, .copy, .copy, .cmux 63 2 0, .none, .none, .none, .none, .none, .none,
    .cmux 31 0 3, .copy, .copy, .none, .none, .none, .none, .none, .none, .none,
    .cmux 64 2 0, .copy, .copy, .cmux 64 0 1, .none, .none, .none, .none, .none, .none,
    .cmux 32 3 0, .copy, .copy, .none, .none, .none, .none, .none, .none, .none,
    .cmux 65 2 0, .copy, .copy, .cmux 65 0 1, .none, .none, .none, .none, .none, .none,
    .cmux 33 3 0, .copy, .copy, .none, .none, .none, .none, .none, .none, .none,
    .cmux 66 0 1, .copy, .copy, .cmux 66 2 0, .none, .none, .none, .none, .none, .none,
    .cmux 34 0 3, .copy, .copy, .none, .none, .none, .none, .none, .none, .none,
    .cmux 67 1 0, .cmux 67 0 2, .cmux 67 2 0, .cmux 67 0 1, .none, .none, .none, .none, .none, .none,
    .cmux 35 1 0, .cmux 35 3 2, .none, .none, .none, .none, .none, .none, .none, .none,
    .cmux 2 0 1, .none, .none, .none, .none, .none, .none, .none, .none, .none]

def b25 : BitCircuit where
  maxInterState := 10
  nodes := [
    .cmux 29 0 1, .cmux 93 1 0, .cmux 93 0 1, .cmux 29 1 0, .none, .none, .none, .none, .none, .none,
    .cmux 28 0 3, .copy, .cmux 92 2 1, .copy, .cmux 92 1 2, .cmux 28 3 0, .none, .none, .none, .none,
    .cmux 91 1 4, .copy, .cmux 27 3 5, .copy, .cmux 91 2 1, .cmux 27 0 3, .none, .none, .none, .none,
    .cmux 26 5 3, .copy, .cmux 90 1 0, .copy, .cmux 26 3 2, .cmux 90 4 1, .none, .none, .none, .none,
    .cmux 25 3 4, .copy, .cmux 25 0 3, .copy, .cmux 89 5 1, .cmux 89 1 2, .none, .none, .none, .none,
    .cmux 24 3 0, .copy, .cmux 88 4 1, .copy, .cmux 24 2 3, .cmux 88 1 5, .none, .none, .none, .none,
    .cmux 23 4 3, .copy, .cmux 119 1 2, .copy, .cmux 119 3 4, .cmux 119 5 1, .cmux 87 2 1, .cmux 119 0 3, .none, .none,
    .cmux 23 4 3, .copy, .cmux 86 6 1, .copy, .cmux 23 3 7, .cmux 87 1 5, .cmux 87 2 1, .cmux 22 0 3, .none, .none,
    .copy, .copy, .cmux 118 0 4, .copy, .copy, .copy, .copy, .cmux 21 7 3, .cmux 85 2 1, .cmux 118 6 5,
    .cmux 20 7 3, .copy, .cmux 22 0 2, .copy, .cmux 86 9 5, .cmux 22 2 4, .cmux 84 8 1, .cmux 86 6 9, .none, .none,
    .cmux 117 2 5, .copy, .copy, .copy, .copy, .copy, .cmux 83 6 1, .copy, .cmux 19 0 3, .cmux 117 7 4,
    .cmux 18 8 3, .copy, .cmux 21 0 5, .copy, .cmux 85 7 9, .cmux 85 9 4, .cmux 21 2 0, .cmux 82 6 1, .none, .none,
    .cmux 116 4 5, .copy, .copy, .copy, .copy, .copy, .copy, .cmux 17 0 3, .cmux 116 6 2, .cmux 81 7 1,
    .cmux 20 6 8, .copy, .cmux 80 9 1, .copy, .cmux 20 8 2, .cmux 84 0 5, .cmux 16 7 3, .cmux 84 4 0, .none, .none,
    .copy, .copy, .cmux 15 6 3, .copy, .copy, .copy, .cmux 79 2 1, .copy, .cmux 115 7 5, .cmux 115 0 4,
    .cmux 83 8 5, .copy, .cmux 19 0 9, .copy, .cmux 83 7 8, .cmux 78 6 1, .cmux 19 9 4, .cmux 14 2 3, .none, .none,
    .copy, .copy, .copy, .copy, .copy, .cmux 114 2 6, .copy, .cmux 13 7 3, .cmux 114 4 0, .cmux 77 5 1,
    .cmux 12 7 3, .copy, .cmux 18 2 5, .copy, .cmux 82 8 0, .cmux 82 4 8, .cmux 76 9 1, .cmux 18 5 6, .none, .none,
    .cmux 75 6 1, .copy, .copy, .copy, .copy, .copy, .cmux 113 2 7, .copy, .cmux 11 0 3, .cmux 113 5 4,
    .cmux 81 5 9, .copy, .cmux 74 0 1, .copy, .cmux 10 8 3, .cmux 81 9 4, .cmux 17 2 6, .cmux 17 6 7, .none, .none,
    .copy, .copy, .cmux 112 6 7, .copy, .cmux 112 0 5, .copy, .copy, .copy, .cmux 9 4 3, .cmux 73 2 1,
    .cmux 16 2 7, .copy, .cmux 72 9 1, .copy, .cmux 80 4 5, .cmux 8 8 3, .cmux 80 0 4, .cmux 16 6 2, .none, .none,
    .copy, .copy, .cmux 111 6 4, .copy, .copy, .cmux 71 2 1, .copy, .copy, .cmux 111 7 0, .cmux 7 5 3,
    .cmux 79 2 4, .cmux 6 9 3, .cmux 15 7 8, .cmux 79 6 2, .cmux 15 8 0, .cmux 70 5 1, .none, .none, .none, .none,
    .copy, .cmux 110 2 4, .copy, .copy, .copy, .copy, .cmux 0 1 5, .cmux 110 3 0, .none, .none,
    .cmux 78 3 7, .cmux 78 7 0, .cmux 14 2 1, .cmux 14 1 4, .cmux 1 6 5, .copy, .none, .none, .none, .none,
    .copy, .copy, .copy, .copy, .cmux 2 4 5, .cmux 109 0 1, .cmux 109 2 3, .none, .none, .none,
    .cmux 13 2 6, .cmux 77 5 1, .cmux 77 0 5, .cmux 13 6 3, .copy, .none, .none, .none, .none, .none,
    .copy, .copy, .copy, .copy, .copy, .cmux 108 0 3, .cmux 108 2 1, .none, .none, .none,
    .cmux 76 2 6, .cmux 76 6 1, .cmux 12 5 3, .cmux 12 0 5, .copy, .none, .none, .none, .none, .none,
    .copy, .copy, .copy, .copy, .copy, .cmux 107 3 2, .cmux 107 0 1, .none, .none, .none,
    .cmux 75 0 6, .cmux 11 5 2, .cmux 75 6 1, .cmux 11 3 5, .copy, .none, .none, .none, .none, .none,
    .copy, .copy, .copy, .copy, .copy, .cmux 106 0 2, .cmux 106 3 1, .none, .none, .none,
    .cmux 74 5 2, .cmux 10 3 6, .cmux 74 0 5, .cmux 10 6 1, .copy, .none, .none, .none, .none, .none,
    .copy, .copy, .copy, .copy, .copy, .cmux 105 1 3, .cmux 105 2 0, .none, .none, .none,
    .cmux 9 1 5, .cmux 73 6 0, .cmux 9 5 3, .cmux 73 2 6, .copy, .none, .none, .none, .none, .none,
    .copy, .copy, .copy, .copy, .copy, .cmux 104 3 1, .cmux 104 0 2, .none, .none, .none,
    .cmux 72 3 5, .cmux 72 5 1, .cmux 8 6 2, .cmux 8 0 6, .copy, .none, .none, .none, .none, .none,
    .copy, .copy, .copy, .copy, .copy, .cmux 103 3 2, .cmux 103 0 1, .none, .none, .none,
    .cmux 7 3 5, .cmux 7 5 2, .cmux 71 0 6, .cmux 71 6 1, .copy, .none, .none, .none, .none, .none,
    .copy, .copy, .copy, .copy, .copy, .cmux 102 2 3, .cmux 102 0 1, .none, .none, .none,
    .cmux 6 6 1, .cmux 6 0 6, .cmux 70 5 3, .cmux 70 2 5, .copy, .none, .none, .none, .none, .none,
    .copy, .copy, .copy, .copy, .copy, .cmux 101 1 0, .cmux 101 3 2, .none, .none, .none,
    .cmux 69 3 6, .cmux 5 5 0, .cmux 5 1 5, .cmux 69 6 2, .copy, .none, .none, .none, .none, .none,
    .cmux 100 0 3, .copy, .cmux 100 2 1, .copy, .copy, .none, .none, .none, .none, .none,
    .cmux 68 0 3, .cmux 4 2 1, .none, .none, .copy, .none, .none, .none, .none, .none,
    .copy, .cmux 0 1 0, .none, .none, .copy, .none, .none, .none, .none, .none,
    .copy, .cmux 1 1 0, .none, .none, .copy, .none, .none, .none, .none, .none,
    .cmux 2 1 0, .none, .none, .none, .copy, .none, .none, .none, .none, .none,
    .copy, .cmux 1 0 4, .cmux 0 4 0, .cmux 0 0 4, .copy, .none, .none, .none, .none, .none,
    .cmux 1 3 2, .copy, .cmux 1 3 4, .cmux 1 0 2, .none, .none, .none, .none, .none, .none,
    .cmux 2 1 3, .cmux 2 2 0, .cmux 2 0 2, .cmux 2 3 1, .none, .none, .none, .none, .none, .none,
    .cmux 3 3 2, .cmux 3 0 1, .cmux 3 2 3, .none, .none, .none, .none, .none, .none, .none,
    .copy, .cmux 36 2 1, .copy, .cmux 36 1 0, .none, .none, .none, .none, .none, .none,
    .copy, .cmux 4 3 1, .copy, .none, .none, .none, .none, .none, .none, .none,
    .copy, .cmux 37 1 0, .copy, .cmux 37 2 1, .none, .none, .none, .none, .none, .none,
    .copy, .cmux 5 1 3, .copy, .none, .none, .none, .none, .none, .none, .none,
    .copy, .cmux 38 2 1, .copy, .cmux 38 1 0, .none, .none, .none, .none, .none, .none,
    .copy, .cmux 6 3 1, .copy, .none, .none, .none, .none, .none, .none, .none,
    .copy, .cmux 39 1 0, .copy, .cmux 39 2 1, .none, .none, .none, .none, .none, .none,
    .copy, .cmux 7 1 3, .copy, .none, .none, .none, .none, .none, .none, .none,
    .copy, .cmux 40 1 0, .copy, .cmux 40 2 1, .none, .none, .none, .none, .none, .none,
    .copy, .cmux 8 1 3, .copy, .none, .none, .none, .none, .none, .none, .none,
    .copy, .cmux 41 2 1, .copy, .cmux 41 1 0, .none, .none, .none, .none, .none, .none,
    .copy, .cmux 9 3 1, .copy, .none, .none, .none, .none, .none, .none, .none,
    .copy, .cmux 42 2 1, .copy, .cmux 42 1 0, .none, .none, .none, .none, .none, .none,
    .copy, .cmux 10 3 1, .copy, .none, .none, .none, .none, .none, .none, .none,
    .copy, .cmux 43 1 0, .copy, .cmux 43 2 1, .none, .none, .none, .none, .none, .none,
    .copy, .cmux 11 1 3, .copy, .none, .none, .none, .none, .none, .none, .none,
    .copy, .cmux 44 2 1, .copy, .cmux 44 1 0, .none, .none, .none, .none, .none, .none,
    .copy, .cmux 12 3 1, .copy, .none, .none, .none, .none, .none, .none, .none,
    .copy, .cmux 45 1 0, .copy, .cmux 45 2 1, .none, .none, .none, .none, .none, .none,
    .copy, .cmux 13 1 3, .copy, .none, .none, .none, .none, .none, .none, .none,
    .copy, .cmux 46 2 1, .copy, .cmux 46 1 0, .none, .none, .none, .none, .none, .none,
    .copy, .cmux 14 3 1, .copy, .none, .none, .none, .none, .none, .none, .none,
    .copy, .cmux 47 1 0, .copy, .cmux 47 2 1, .none, .none, .none, .none, .none, .none,
    .copy, .cmux 15 1 3, .copy, .none, .none, .none, .none, .none, .none, .none,
    .copy, .cmux 48 2 1, .copy, .cmux 48 1 0, .none, .none, .none, .none, .none, .none,
    .copy, .cmux 16 3 1, .copy, .none, .none, .none, .none, .none, .none, .none,
    .copy, .cmux 49 2 1, .copy, .cmux 49 1 0, .none, .none, .none, .none, .none, .none,
    .copy, .cmux 17 3 1, .copy, .none, .none, .none, .none, .none, .none, .none,
    .copy, .cmux 50 1 0, .copy, .cmux 50 2 1, .none, .none, .none, .none, .none, .none,
    .copy, .cmux 18 1 3, .copy, .none, .none, .none, .none, .none, .none, .none,
    .copy, .cmux 51 1 0, .copy, .cmux 51 2 1, .none, .none, .none, .none, .none, .none,
    .copy, .cmux 19 1 3, .copy, .none, .none, .none, .none, .none, .none, .none,
    .copy, .cmux 52 2 1, .copy, .cmux 52 1 0, .none, .none, .none, .none, .none, .none,
    .copy, .cmux 20 3 1, .copy, .none, .none, .none, .none, .none, .none, .none,
    .copy, .cmux 53 1 0, .copy, .cmux 53 2 1, .none, .none, .none, .none, .none, .none,
    .copy, .cmux 21 1 3, .copy, .none, .none, .none, .none, .none, .none, .none,
    .copy, .cmux 54 1 0, .copy, .cmux 54 2 1, .none, .none, .none, .none, .none, .none,
    .copy, .cmux 22 1 3, .copy, .none, .none, .none, .none, .none, .none, .none,
    .copy, .cmux 55 2 1, .copy, .cmux 55 1 0, .none, .none, .none, .none, .none, .none,
    .copy, .cmux 23 3 1, .copy, .none, .none, .none, .none, .none, .none, .none,
    .copy, .cmux 56 1 0, .copy, .cmux 56 2 1, .none, .none, .none, .none, .none, .none,
    .copy, .cmux 24 1 3, .copy, .none, .none, .none, .none, .none, .none, .none,
    .copy, .cmux 57 1 0, .copy, .cmux 57 2 1, .none, .none, .none, .none, .none, .none,
    .copy, .cmux 25 1 3, .copy, .none, .none, .none, .none, .none, .none, .none,
    .copy, .cmux 58 1 0, .copy, .cmux 58 2 1, .none, .none, .none, .none, .none, .none,
    .copy, .cmux 26 1 3, .copy, .none, .none, .none, .none, .none, .none, .none,
    .copy, .cmux 59 1 0, .copy, .cmux 59 2 1, .none, .none, .none, .none, .none, .none,
    .copy, .cmux 27 1 3, .copy, .none, .none, .none, .none, .none, .none, .none,
    .copy, .cmux 60 2 1, .copy, .cmux 60 1 0, .none, .none, .none, .none, .none, .none,
    .copy, .cmux 28 3 1, .copy, .none, .none, .none, .none, .none, .none, .none,
    .copy, .cmux 61 2 1, .copy, .cmux 61 1 0, .none, .none, .none, .none, .none, .none,
    .copy, .cmux 29 3 1, .copy, .none, .none, .none, .none, .none, .none, .none,
    .copy, .cmux 62 2 1, .copy, .cmux 62 1 0, .none, .none, .none, .none, .none, .none,
    .copy, .cmux 30 3 1, .copy, .none, .none, .none, .none, .none, .none, .none,
    .copy, .cmux 63 1 0, .copy, .cmux 63 2 1, .none, .none, .none, .none, .none, .none,
    .copy, .cmux 31 1 3, .copy, .none, .none, .none, .none, .none, .none, .none,
    .copy, .cmux 64 2 1, .copy, .cmux 64 1 0, .none, .none, .none, .none, .none, .none,
    .copy, .cmux 32 3 1, .copy, .none, .none, .none, .none, .none, .none, .none,
    .copy, .cmux 65 1 0, .copy, .cmux 65 2 1, .none, .none, .none, .none, .none, .none,
    .copy, .cmux 33 1 3, .copy, .none, .none, .none, .none, .none, .none, .none,
    .copy, .cmux 66 1 0, .copy, .cmux 66 2 1, .none, .none, .none, .none, .none, .none,
    .copy, .cmux 34 1 3, .copy, .none, .none, .none, .none, .none, .none, .none,
    .cmux 67 1 0, .cmux 67 0 1, .cmux 67 2 1, .cmux 67 1 2, .none, .none, .none, .none, .none, .none,
    .cmux 35 0 2, .cmux 35 3 1, .none, .none, .none, .none, .none, .none, .none, .none,
    .cmux 2 1 0, .none, .none, .none, .none, .none, .none, .none, .none, .none]

def b26 : BitCircuit where
  maxInterState := 10
  nodes := [
    .cmux 94 1 0, .cmux 30 0 1, .cmux 94 0 1, .cmux 30 1 0, .none, .none, .none, .none, .none, .none,
    .copy, .cmux 29 3 1, .cmux 93 2 0, .copy, .cmux 93 0 2, .cmux 29 1 3, .none, .none, .none, .none,
    .copy, .cmux 28 5 3, .cmux 92 0 4, .copy, .cmux 92 2 0, .cmux 28 3 1, .none, .none, .none, .none,
    .copy, .cmux 27 1 3, .cmux 91 4 0, .copy, .cmux 27 3 5, .cmux 91 0 2, .none, .none, .none, .none,
    .copy, .cmux 90 2 0, .cmux 90 0 5, .copy, .cmux 26 1 3, .cmux 26 3 4, .none, .none, .none, .none,
    .copy, .cmux 25 3 5, .cmux 25 4 3, .copy, .cmux 89 1 0, .cmux 89 0 2, .none, .none, .none, .none,
    .copy, .cmux 24 3 1, .cmux 24 2 3, .copy, .cmux 88 4 0, .cmux 88 0 5, .none, .none, .none, .none,
    .copy, .cmux 23 2 3, .cmux 119 5 0, .copy, .cmux 87 4 0, .cmux 119 3 2, .cmux 119 0 4, .cmux 119 1 3, .none, .none,
    .copy, .cmux 87 6 0, .cmux 87 0 2, .copy, .cmux 23 3 7, .cmux 23 5 3, .cmux 22 1 3, .cmux 86 4 0, .none, .none,
    .copy, .copy, .copy, .copy, .copy, .copy, .cmux 21 6 3, .cmux 118 5 4, .cmux 118 1 2, .cmux 85 7 0,
    .copy, .cmux 86 1 8, .cmux 22 5 7, .copy, .cmux 84 9 0, .cmux 22 7 4, .cmux 20 6 3, .cmux 86 8 2, .none, .none,
    .copy, .copy, .copy, .copy, .cmux 117 2 5, .copy, .cmux 19 6 3, .copy, .cmux 83 4 0, .cmux 117 1 7,
    .copy, .cmux 85 1 9, .cmux 21 4 5, .copy, .cmux 82 8 0, .cmux 18 6 3, .cmux 85 9 7, .cmux 21 2 4, .none, .none,
    .copy, .copy, .copy, .copy, .cmux 81 4 0, .cmux 17 5 3, .copy, .copy, .cmux 116 1 6, .cmux 116 7 2,
    .copy, .cmux 84 1 8, .cmux 16 5 3, .copy, .cmux 20 9 2, .cmux 84 8 6, .cmux 80 4 0, .cmux 20 7 9, .none, .none,
    .copy, .copy, .cmux 115 7 4, .copy, .copy, .copy, .cmux 79 6 0, .copy, .cmux 115 1 5, .cmux 15 2 3,
    .copy, .cmux 78 6 0, .cmux 83 1 8, .copy, .cmux 14 9 3, .cmux 19 7 2, .cmux 83 8 5, .cmux 19 2 4, .none, .none,
    .copy, .cmux 13 4 3, .copy, .copy, .cmux 114 2 6, .copy, .copy, .copy, .cmux 77 1 0, .cmux 114 5 7,
    .copy, .cmux 76 8 0, .cmux 18 9 7, .copy, .cmux 82 4 6, .cmux 18 5 9, .cmux 82 2 4, .cmux 12 1 3, .none, .none,
    .copy, .cmux 11 7 3, .copy, .copy, .copy, .copy, .copy, .cmux 113 5 2, .cmux 113 6 4, .cmux 75 1 0,
    .copy, .cmux 74 9 0, .cmux 81 6 8, .copy, .cmux 81 8 4, .cmux 17 7 2, .cmux 10 1 3, .cmux 17 5 7, .none, .none,
    .copy, .cmux 112 2 4, .copy, .copy, .copy, .copy, .cmux 73 1 0, .copy, .cmux 9 6 3, .cmux 112 7 5,
    .copy, .cmux 80 2 1, .cmux 16 7 9, .copy, .cmux 80 1 4, .cmux 72 6 0, .cmux 16 9 5, .cmux 8 8 3, .none, .none,
    .copy, .copy, .copy, .copy, .copy, .cmux 7 7 3, .copy, .cmux 111 2 6, .cmux 71 5 0, .cmux 111 1 4,
    .cmux 6 5 3, .cmux 15 7 6, .cmux 79 9 4, .cmux 79 1 9, .cmux 15 2 7, .cmux 70 8 0, .none, .none, .none, .none,
    .cmux 110 3 2, .copy, .copy, .copy, .copy, .copy, .cmux 0 0 5, .cmux 110 4 1, .none, .none,
    .cmux 14 7 1, .cmux 78 3 0, .cmux 78 0 2, .cmux 14 4 7, .cmux 1 6 5, .copy, .none, .none, .none, .none,
    .copy, .copy, .copy, .copy, .cmux 2 4 5, .cmux 109 3 0, .cmux 109 1 2, .none, .none, .none,
    .cmux 77 1 6, .cmux 13 3 5, .cmux 77 6 2, .cmux 13 5 0, .copy, .none, .none, .none, .none, .none,
    .copy, .copy, .copy, .copy, .copy, .cmux 108 0 2, .cmux 108 1 3, .none, .none, .none,
    .cmux 12 1 6, .cmux 76 0 5, .cmux 12 6 3, .cmux 76 5 2, .copy, .none, .none, .none, .none, .none,
    .copy, .copy, .copy, .copy, .copy, .cmux 107 1 3, .cmux 107 0 2, .none, .none, .none,
    .cmux 75 5 3, .cmux 11 6 2, .cmux 11 0 6, .cmux 75 1 5, .copy, .none, .none, .none, .none, .none,
    .copy, .copy, .copy, .copy, .copy, .cmux 106 3 0, .cmux 106 2 1, .none, .none, .none,
    .cmux 74 5 0, .cmux 10 2 6, .cmux 74 3 5, .cmux 10 6 1, .copy, .none, .none, .none, .none, .none,
    .copy, .copy, .copy, .copy, .copy, .cmux 105 2 0, .cmux 105 1 3, .none, .none, .none,
    .cmux 9 6 3, .cmux 73 5 0, .cmux 9 1 6, .cmux 73 2 5, .copy, .none, .none, .none, .none, .none,
    .copy, .copy, .copy, .copy, .copy, .cmux 104 2 0, .cmux 104 3 1, .none, .none, .none,
    .cmux 8 2 5, .cmux 8 5 0, .cmux 72 3 6, .cmux 72 6 1, .copy, .none, .none, .none, .none, .none,
    .copy, .copy, .copy, .copy, .copy, .cmux 103 0 1, .cmux 103 2 3, .none, .none, .none,
    .cmux 7 5 1, .cmux 71 6 3, .cmux 7 0 5, .cmux 71 2 6, .copy, .none, .none, .none, .none, .none,
    .copy, .copy, .copy, .copy, .copy, .cmux 102 3 1, .cmux 102 2 0, .none, .none, .none,
    .cmux 70 3 5, .cmux 6 2 6, .cmux 6 6 0, .cmux 70 5 1, .copy, .none, .none, .none, .none, .none,
    .copy, .copy, .copy, .copy, .copy, .cmux 101 1 2, .cmux 101 0 3, .none, .none, .none,
    .cmux 69 6 3, .cmux 5 5 2, .cmux 69 0 6, .cmux 5 1 5, .copy, .none, .none, .none, .none, .none,
    .copy, .copy, .cmux 100 2 0, .cmux 100 3 1, .copy, .none, .none, .none, .none, .none,
    .cmux 68 2 0, .cmux 4 3 1, .none, .none, .copy, .none, .none, .none, .none, .none,
    .copy, .cmux 0 1 0, .none, .none, .copy, .none, .none, .none, .none, .none,
    .copy, .cmux 1 1 0, .none, .none, .copy, .none, .none, .none, .none, .none,
    .cmux 2 1 0, .none, .none, .none, .copy, .none, .none, .none, .none, .none,
    .copy, .cmux 0 0 4, .cmux 0 4 0, .cmux 1 0 4, .copy, .none, .none, .none, .none, .none,
    .cmux 1 0 2, .cmux 1 1 4, .cmux 1 1 2, .copy, .none, .none, .none, .none, .none, .none,
    .cmux 2 0 3, .cmux 2 3 0, .cmux 2 2 1, .cmux 2 1 2, .none, .none, .none, .none, .none, .none,
    .cmux 3 1 3, .cmux 3 0 2, .cmux 3 2 0, .none, .none, .none, .none, .none, .none, .none,
    .cmux 36 2 0, .copy, .copy, .cmux 36 0 1, .none, .none, .none, .none, .none, .none,
    .cmux 4 3 0, .copy, .copy, .none, .none, .none, .none, .none, .none, .none,
    .cmux 37 0 1, .copy, .copy, .cmux 37 2 0, .none, .none, .none, .none, .none, .none,
    .cmux 5 0 3, .copy, .copy, .none, .none, .none, .none, .none, .none, .none,
    .cmux 38 0 1, .copy, .copy, .cmux 38 2 0, .none, .none, .none, .none, .none, .none,
    .cmux 6 0 3, .copy, .copy, .none, .none, .none, .none, .none, .none, .none,
    .cmux 39 2 0, .copy, .copy, .cmux 39 0 1, .none, .none, .none, .none, .none, .none,
    .cmux 7 3 0, .copy, .copy, .none, .none, .none, .none, .none, .none, .none,
    .cmux 40 0 1, .copy, .copy, .cmux 40 2 0, .none, .none, .none, .none, .none, .none,
    .cmux 8 0 3, .copy, .copy, .none, .none, .none, .none, .none, .none, .none,
    .cmux 41 2 0, .copy, .copy, .cmux 41 0 1, .none, .none, .none, .none, .none, .none,
    .cmux 9 3 0, .copy, .copy, .none, .none, .none, .none, .none, .none, .none,
    .cmux 42 0 1, .copy, .copy, .cmux 42 2 0, .none, .none, .none, .none, .none, .none,
    .cmux 10 0 3, .copy, .copy, .none, .none, .none, .none, .none, .none, .none,
    .cmux 43 2 0, .copy, .copy, .cmux 43 0 1, .none, .none, .none, .none, .none, .none,
    .cmux 11 3 0, .copy, .copy, .none, .none, .none, .none, .none, .none, .none,
    .cmux 44 2 0, .copy, .copy, .cmux 44 0 1, .none, .none, .none, .none, .none, .none,
    .cmux 12 3 0, .copy, .copy, .none, .none, .none, .none, .none, .none, .none,
    .cmux 45 0 1, .copy, .copy, .cmux 45 2 0, .none, .none, .none, .none, .none, .none,
    .cmux 13 0 3, .copy, .copy, .none, .none, .none, .none, .none, .none, .none,
    .cmux 46 2 0, .copy, .copy, .cmux 46 0 1, .none, .none, .none, .none, .none, .none,
    .cmux 14 3 0, .copy, .copy, .none, .none, .none, .none, .none, .none, .none,
    .cmux 47 0 1, .copy, .copy, .cmux 47 2 0, .none, .none, .none, .none, .none, .none,
    .cmux 15 0 3, .copy, .copy, .none, .none, .none, .none, .none, .none, .none,
    .cmux 48 2 0, .copy, .copy, .cmux 48 0 1, .none, .none, .none, .none, .none, .none,
    .cmux 16 3 0, .copy, .copy, .none, .none, .none, .none, .none, .none, .none,
    .cmux 49 0 1, .copy, .copy, .cmux 49 2 0, .none, .none, .none, .none, .none, .none,
    .cmux 17 0 3, .copy, .copy, .none, .none, .none, .none, .none, .none, .none,
    .cmux 50 2 0, .copy, .copy, .cmux 50 0 1, .none, .none, .none, .none, .none, .none,
    .cmux 18 3 0, .copy, .copy, .none, .none, .none, .none, .none, .none, .none,
    .cmux 51 2 0, .copy, .copy, .cmux 51 0 1, .none, .none, .none, .none, .none, .none,
    .cmux 19 3 0, .copy, .copy, .none, .none, .none, .none, .none, .none, .none,
    .cmux 52 2 0, .copy, .copy, .cmux 52 0 1, .none, .none, .none, .none, .none, .none,
    .cmux 20 3 0, .copy, .copy, .none, .none, .none, .none, .none, .none, .none,
    .cmux 53 0 1, .copy, .copy, .cmux 53 2 0, .none, .none, .none, .none, .none, .none,
    .cmux 21 0 3, .copy, .copy, .none, .none, .none, .none, .none, .none, .none,
    .cmux 54 0 1, .copy, .copy, .cmux 54 2 0, .none, .none, .none, .none, .none, .none,
    .cmux 22 0 3, .copy, .copy, .none, .none, .none, .none, .none, .none, .none,
    .cmux 55 0 1, .copy, .copy, .cmux 55 2 0, .none, .none, .none, .none, .none, .none,
    .cmux 23 0 3, .copy, .copy, .none, .none, .none, .none, .none, .none, .none,
    .cmux 56 2 0, .copy, .copy, .cmux 56 0 1, .none, .none, .none, .none, .none, .none,
    .cmux 24 3 0, .copy, .copy, .none, .none, .none, .none, .none, .none, .none,
    .cmux 57 2 0, .copy, .copy, .cmux 57 0 1, .none, .none, .none, .none, .none, .none,
    .cmux 25 3 0, .copy, .copy, .none, .none, .none, .none, .none, .none, .none,
    .cmux 58 2 0, .copy, .copy, .cmux 58 0 1, .none, .none, .none, .none, .none, .none,
    .cmux 26 3 0, .copy, .copy, .none, .none, .none, .none, .none, .none, .none,
    .cmux 59 2 0, .copy, .copy, .cmux 59 0 1, .none, .none, .none, .none, .none, .none,
    .cmux 27 3 0, .copy, .copy, .none, .none, .none, .none, .none, .none, .none,
    .cmux 60 2 0, .copy, .copy, .cmux 60 0 1, .none, .none, .none, .none, .none, .none,
    .cmux 28 3 0, .copy, .copy, .none, .none, .none, .none, .none, .none, .none,
    .cmux 61 2 0, .copy, .copy, .cmux 61 0 1, .none, .none, .none, .none, .none, .none,
    .cmux 29 3 0, .copy, .copy, .none, .none, .none, .none, .none, .none, .none,
    .cmux 62 0 1, .copy, .copy, .cmux 62 2 0, .none, .none, .none, .none, .none, .none,
    .cmux 30 0 3, .copy, .copy, .none, .none, .none, .none, .none, .none, .none,
    .cmux 63 0 1, .copy, .copy, .cmux 63 2 0, .none, .none, .none, .none, .none, .none,
    .cmux 31 0 3, .copy, .copy, .none, .none, .none, .none, .none, .none, .none,
    .cmux 64 0 1, .copy, .copy, .cmux 64 2 0, .none, .none, .none, .none, .none, .none,
    .cmux 32 0 3, .copy, .copy, .none, .none, .none, .none, .none, .none, .none,
    .cmux 65 0 1, .copy, .copy, .cmux 65 2 0, .none, .none, .none, .none, .none, .none,
    .cmux 33 0 3, .copy, .copy, .none, .none, .none, .none, .none, .none, .none,
    .cmux 66 0 1, .copy, .copy, .cmux 66 2 0, .none, .none, .none, .none, .none, .none,
    .cmux 34 0 3, .copy, .copy, .none, .none, .none, .none, .none, .none, .none,
    .cmux 67 2 0, .cmux 67 0 2, .cmux 67 0 1, .cmux 67 1 0, .none, .none, .none, .none, .none, .none,
    .cmux 35 2 0, .cmux 35 1 3, .none, .none, .none, .none, .none, .none, .none, .none,
    .cmux 2 1 0, .none, .none, .none, .none, .none, .none, .none, .none, .none]

def b27 : BitCircuit where
  maxInterState := 10
  nodes := [
    .cmux 31 1 0, .cmux 31 0 1, .cmux 95 1 0, .cmux 95 0 1, .none, .none, .none, .none, .none, .none,
    .copy, .cmux 94 3 2, .copy, .cmux 94 2 3, .cmux 30 1 0, .cmux 30 0 1, .none, .none, .none, .none,
    .copy, .cmux 93 2 3, .copy, .cmux 29 0 5, .cmux 29 4 0, .cmux 93 1 2, .none, .none, .none, .none,
    .copy, .cmux 28 4 0, .copy, .cmux 92 5 2, .cmux 28 0 3, .cmux 92 2 1, .none, .none, .none, .none,
    .copy, .cmux 91 3 2, .copy, .cmux 27 0 4, .cmux 91 2 5, .cmux 27 1 0, .none, .none, .none, .none,
    .copy, .cmux 90 1 2, .copy, .cmux 26 0 3, .cmux 90 2 4, .cmux 26 5 0, .none, .none, .none, .none,
    .copy, .cmux 89 1 2, .copy, .cmux 89 2 4, .cmux 25 0 3, .cmux 25 5 0, .none, .none, .none, .none,
    .copy, .cmux 88 1 2, .copy, .cmux 88 2 3, .cmux 24 0 4, .cmux 24 5 0, .none, .none, .none, .none,
    .copy, .cmux 119 3 2, .copy, .cmux 87 1 2, .cmux 23 5 0, .cmux 119 4 0, .cmux 119 2 1, .cmux 119 0 5, .none, .none,
    .copy, .cmux 23 7 0, .copy, .cmux 22 4 0, .cmux 23 0 5, .cmux 87 2 1, .cmux 86 3 2, .cmux 87 6 2, .none, .none,
    .copy, .copy, .copy, .cmux 21 3 0, .copy, .copy, .cmux 118 1 4, .copy, .cmux 85 6 2, .cmux 118 7 5,
    .copy, .cmux 22 1 6, .copy, .cmux 84 8 2, .cmux 20 3 0, .cmux 86 7 9, .cmux 86 9 5, .cmux 22 6 4, .none, .none,
    .copy, .copy, .copy, .cmux 83 3 2, .cmux 117 1 7, .copy, .copy, .copy, .cmux 117 5 6, .cmux 19 4 0,
    .copy, .cmux 85 8 6, .copy, .cmux 21 4 7, .cmux 82 3 2, .cmux 21 1 4, .cmux 18 9 0, .cmux 85 5 8, .none, .none,
    .copy, .copy, .copy, .copy, .cmux 116 5 3, .copy, .cmux 17 6 0, .copy, .cmux 116 7 1, .cmux 81 4 2,
    .copy, .cmux 16 6 0, .copy, .cmux 84 8 1, .cmux 80 9 2, .cmux 84 7 8, .cmux 20 4 3, .cmux 20 5 4, .none, .none,
    .copy, .cmux 15 1 0, .copy, .copy, .cmux 115 7 6, .copy, .copy, .copy, .cmux 115 5 3, .cmux 79 4 2,
    .copy, .cmux 83 5 8, .copy, .cmux 19 7 4, .cmux 83 8 3, .cmux 78 9 2, .cmux 19 4 6, .cmux 14 1 0, .none, .none,
    .copy, .copy, .copy, .copy, .copy, .cmux 114 1 4, .copy, .cmux 114 3 6, .cmux 13 7 0, .cmux 77 5 2,
    .copy, .cmux 82 5 4, .copy, .cmux 18 3 7, .cmux 82 1 5, .cmux 76 9 2, .cmux 18 7 6, .cmux 12 8 0, .none, .none,
    .copy, .copy, .copy, .copy, .copy, .cmux 113 4 1, .copy, .cmux 75 5 2, .cmux 113 3 6, .cmux 11 7 0,
    .copy, .cmux 81 5 1, .copy, .cmux 81 4 5, .cmux 74 7 2, .cmux 10 9 0, .cmux 17 3 8, .cmux 17 8 6, .none, .none,
    .copy, .copy, .copy, .copy, .cmux 9 5 0, .cmux 112 3 1, .copy, .copy, .cmux 112 6 7, .cmux 73 4 2,
    .copy, .cmux 16 8 7, .copy, .cmux 72 9 2, .cmux 8 4 0, .cmux 80 5 1, .cmux 16 6 8, .cmux 80 3 5, .none, .none,
    .copy, .copy, .copy, .cmux 111 7 5, .cmux 111 6 1, .copy, .copy, .copy, .cmux 71 3 2, .cmux 7 4 0,
    .cmux 15 4 1, .cmux 79 7 3, .cmux 6 9 0, .cmux 15 6 4, .cmux 79 3 5, .cmux 70 8 2, .none, .none, .none, .none,
    .copy, .copy, .cmux 110 1 4, .copy, .copy, .copy, .cmux 0 2 5, .cmux 110 3 0, .none, .none,
    .cmux 14 7 0, .cmux 78 2 4, .cmux 1 6 5, .cmux 78 1 2, .cmux 14 3 7, .copy, .none, .none, .none, .none,
    .copy, .copy, .cmux 2 2 5, .copy, .copy, .cmux 109 3 1, .cmux 109 4 0, .none, .none, .none,
    .cmux 77 5 1, .cmux 13 4 6, .copy, .cmux 77 3 5, .cmux 13 6 0, .none, .none, .none, .none, .none,
    .copy, .copy, .copy, .copy, .copy, .cmux 108 3 0, .cmux 108 1 4, .none, .none, .none,
    .cmux 12 6 4, .cmux 76 3 5, .copy, .cmux 12 1 6, .cmux 76 5 0, .none, .none, .none, .none, .none,
    .copy, .copy, .copy, .copy, .copy, .cmux 107 1 4, .cmux 107 3 0, .none, .none, .none,
    .cmux 75 5 4, .cmux 75 1 5, .copy, .cmux 11 6 0, .cmux 11 3 6, .none, .none, .none, .none, .none,
    .copy, .copy, .copy, .copy, .copy, .cmux 106 1 0, .cmux 106 4 3, .none, .none, .none,
    .cmux 10 4 6, .cmux 74 5 0, .copy, .cmux 74 1 5, .cmux 10 6 3, .none, .none, .none, .none, .none,
    .copy, .copy, .copy, .copy, .copy, .cmux 105 0 4, .cmux 105 3 1, .none, .none, .none,
    .cmux 9 5 4, .cmux 73 6 1, .copy, .cmux 9 0 5, .cmux 73 3 6, .none, .none, .none, .none, .none,
    .copy, .copy, .copy, .copy, .copy, .cmux 104 3 0, .cmux 104 4 1, .none, .none, .none,
    .cmux 72 4 6, .cmux 72 6 1, .copy, .cmux 8 5 0, .cmux 8 3 5, .none, .none, .none, .none, .none,
    .copy, .copy, .copy, .copy, .copy, .cmux 103 4 3, .cmux 103 0 1, .none, .none, .none,
    .cmux 71 0 6, .cmux 7 5 3, .copy, .cmux 71 6 1, .cmux 7 4 5, .none, .none, .none, .none, .none,
    .copy, .copy, .copy, .copy, .copy, .cmux 102 0 3, .cmux 102 4 1, .none, .none, .none,
    .cmux 70 5 3, .cmux 70 0 5, .copy, .cmux 6 4 6, .cmux 6 6 1, .none, .none, .none, .none, .none,
    .copy, .copy, .copy, .copy, .copy, .cmux 101 3 4, .cmux 101 1 0, .none, .none, .none,
    .cmux 5 3 5, .cmux 5 5 4, .copy, .cmux 69 1 6, .cmux 69 6 0, .none, .none, .none, .none, .none,
    .cmux 100 3 4, .copy, .copy, .cmux 100 0 1, .copy, .none, .none, .none, .none, .none,
    .cmux 68 0 4, .cmux 4 3 1, .copy, .none, .none, .none, .none, .none, .none, .none,
    .copy, .cmux 0 1 0, .copy, .none, .none, .none, .none, .none, .none, .none,
    .copy, .cmux 1 1 0, .copy, .none, .none, .none, .none, .none, .none, .none,
    .cmux 2 1 0, .none, .copy, .none, .none, .none, .none, .none, .none, .none,
    .copy, .cmux 1 0 2, .copy, .cmux 0 0 2, .cmux 0 2 0, .none, .none, .none, .none, .none,
    .cmux 1 0 4, .copy, .cmux 1 3 2, .cmux 1 3 4, .none, .none, .none, .none, .none, .none,
    .cmux 2 3 2, .cmux 2 1 0, .cmux 2 0 1, .cmux 2 2 3, .none, .none, .none, .none, .none, .none,
    .cmux 3 2 0, .cmux 3 1 3, .cmux 3 0 2, .none, .none, .none, .none, .none, .none, .none,
    .copy, .cmux 36 1 0, .copy, .cmux 36 2 1, .none, .none, .none, .none, .none, .none,
    .copy, .cmux 4 1 3, .copy, .none, .none, .none, .none, .none, .none, .none,
    .copy, .cmux 37 1 0, .copy, .cmux 37 2 1, .none, .none, .none, .none, .none, .none,
    .copy, .cmux 5 1 3, .copy, .none, .none, .none, .none, .none, .none, .none,
    .copy, .cmux 38 1 0, .copy, .cmux 38 2 1, .none, .none, .none, .none, .none, .none,
    .copy, .cmux 6 1 3, .copy, .none, .none, .none, .none, .none, .none, .none,
    .copy, .cmux 39 2 1, .copy, .cmux 39 1 0, .none, .none, .none, .none, .none, .none,
    .copy, .cmux 7 3 1, .copy, .none, .none, .none, .none, .none, .none, .none,
    .copy, .cmux 40 1 0, .copy, .cmux 40 2 1, .none, .none, .none, .none, .none, .none,
    .copy, .cmux 8 1 3, .copy, .none, .none, .none, .none, .none, .none, .none,
    .copy, .cmux 41 1 0, .copy, .cmux 41 2 1, .none, .none, .none, .none, .none, .none,
    .copy, .cmux 9 1 3, .copy, .none, .none, .none, .none, .none, .none, .none,
    .copy, .cmux 42 1 0, .copy, .cmux 42 2 1, .none, .none, .none, .none, .none, .none,
    .copy, .cmux 10 1 3, .copy, .none, .none, .none, .none, .none, .none, .none,
    .copy, .cmux 43 2 1, .copy, .cmux 43 1 0, .none, .none, .none, .none, .none, .none,
    .copy, .cmux 11 3 1, .copy, .none, .none, .none, .none, .none, .none, .none,
    .copy, .cmux 44 1 0, .copy, .cmux 44 2 1, .none, .none, .none, .none, .none, .none,
    .copy, .cmux 12 1 3, .copy, .none, .none, .none, .none, .none, .none, .none,
    .copy, .cmux 45 1 0, .copy, .cmux 45 2 1, .none, .none, .none, .none, .none, .none,
    .copy, .cmux 13 1 3, .copy, .none, .none, .none, .none, .none, .none, .none,
    .copy, .cmux 46 2 1, .copy, .cmux 46 1 0, .none, .none, .none, .none, .none, .none,
    .copy, .cmux 14 3 1, .copy, .none, .none, .none, .none, .none, .none, .none,
    .copy, .cmux 47 2 1, .copy, .cmux 47 1 0, .none, .none, .none, .none, .none, .none,
    .copy, .cmux 15 3 1, .copy, .none, .none, .none, .none, .none, .none, .none,
    .copy, .cmux 48 1 0, .copy, .cmux 48 2 1, .none, .none, .none, .none, .none, .none,
    .copy, .cmux 16 1 3, .copy, .none, .none, .none, .none, .none, .none, .none,
    .copy, .cmux 49 1 0, .copy, .cmux 49 2 1, .none, .none, .none, .none, .none, .none,
    .copy, .cmux 17 1 3, .copy, .none, .none, .none, .none, .none, .none, .none,
    .copy, .cmux 50 1 0, .copy, .cmux 50 2 1, .none, .none, .none, .none, .none, .none,
    .copy, .cmux 18 1 3, .copy, .none, .none, .none, .none, .none, .none, .none,
    .copy, .cmux 51 2 1, .copy, .cmux 51 1 0, .none, .none, .none, .none, .none, .none,
    .copy, .cmux 19 3 1, .copy, .none, .none, .none, .none, .none, .none, .none,
    .copy, .cmux 52 2 1, .copy, .cmux 52 1 0, .none, .none, .none, .none, .none, .none,
    .copy, .cmux 20 3 1, .copy, .none, .none, .none, .none, .none, .none, .none,
    .copy, .cmux 53 2 1, .copy, .cmux 53 1 0, .none, .none, .none, .none, .none, .none,
    .copy, .cmux 21 3 1, .copy, .none, .none, .none, .none, .none, .none, .none,
    .copy, .cmux 54 2 1, .copy, .cmux 54 1 0, .none, .none, .none, .none, .none, .none,
    .copy, .cmux 22 3 1, .copy, .none, .none, .none, .none, .none, .none, .none,
    .copy, .cmux 55 1 0, .copy, .cmux 55 2 1, .none, .none, .none, .none, .none, .none,
    .copy, .cmux 23 1 3, .copy, .none, .none, .none, .none, .none, .none, .none,
    .copy, .cmux 56 2 1, .copy, .cmux 56 1 0, .none, .none, .none, .none, .none, .none,
    .copy, .cmux 24 3 1, .copy, .none, .none, .none, .none, .none, .none, .none,
    .copy, .cmux 57 1 0, .copy, .cmux 57 2 1, .none, .none, .none, .none, .none, .none,
    .copy, .cmux 25 1 3, .copy, .none, .none, .none, .none, .none, .none, .none,
    .copy, .cmux 58 2 1, .copy, .cmux 58 1 0, .none, .none, .none, .none, .none, .none,
    .copy, .cmux 26 3 1, .copy, .none, .none, .none, .none, .none, .none, .none,
    .copy, .cmux 59 1 0, .copy, .cmux 59 2 1, .none, .none, .none, .none, .none, .none,
    .copy, .cmux 27 1 3, .copy, .none, .none, .none, .none, .none, .none, .none,
    .copy, .cmux 60 2 1, .copy, .cmux 60 1 0, .none, .none, .none, .none, .none, .none,
    .copy, .cmux 28 3 1, .copy, .none, .none, .none, .none, .none, .none, .none,
    .copy, .cmux 61 1 0, .copy, .cmux 61 2 1, .none, .none, .none, .none, .none, .none,
    .copy, .cmux 29 1 3, .copy, .none, .none, .none, .none, .none, .none, .none,
    .copy, .cmux 62 2 1, .copy, .cmux 62 1 0, .none, .none, .none, .none, .none, .none,
    .copy, .cmux 30 3 1, .copy, .none, .none, .none, .none, .none, .none, .none,
    .copy, .cmux 63 2 1, .copy, .cmux 63 1 0, .none, .none, .none, .none, .none, .none,
    .copy, .cmux 31 3 1, .copy, .none, .none, .none, .none, .none, .none, .none,
    .copy, .cmux 64 1 0, .copy, .cmux 64 2 1, .none, .none, .none, .none, .none, .none,
    .copy, .cmux 32 1 3, .copy, .none, .none, .none, .none, .none, .none, .none,
    .copy, .cmux 65 2 1, .copy, .cmux 65 1 0, .none, .none, .none, .none, .none, .none,
    .copy, .cmux 33 3 1, .copy, .none, .none, .none, .none, .none, .none, .none,
    .copy, .cmux 66 1 0, .copy, .cmux 66 2 1, .none, .none, .none, .none, .none, .none,
    .copy, .cmux 34 1 3, .copy, .none, .none, .none, .none, .none, .none, .none,
    .cmux 67 1 0, .cmux 67 0 1, .cmux 67 1 2, .cmux 67 2 1, .none, .none, .none, .none, .none, .none,
    .cmux 35 2 1, .cmux 35 0 3, .none, .none, .none, .none, .none, .none, .none, .none,
    .cmux 2 0 1, .none, .none, .none, .none, .none, .none, .none, .none, .none]

def b28 : BitCircuit where
  maxInterState := 10
  nodes := [
    .cmux 96 1 0, .cmux 32 0 1, .cmux 96 0 1, .cmux 32 1 0, .none, .none, .none, .none, .none, .none,
    .copy, .cmux 95 2 0, .cmux 95 0 2, .copy, .cmux 31 1 3, .cmux 31 3 1, .none, .none, .none, .none,
    .copy, .cmux 94 1 0, .cmux 30 3 5, .copy, .cmux 30 4 3, .cmux 94 0 2, .none, .none, .none, .none,
    .copy, .cmux 29 4 3, .cmux 29 3 2, .copy, .cmux 93 0 5, .cmux 93 1 0, .none, .none, .none, .none,
    .copy, .cmux 28 3 2, .cmux 92 0 4, .copy, .cmux 92 5 0, .cmux 28 1 3, .none, .none, .none, .none,
    .copy, .cmux 91 0 2, .cmux 91 4 0, .copy, .cmux 27 5 3, .cmux 27 3 1, .none, .none, .none, .none,
    .copy, .cmux 90 0 1, .cmux 26 3 5, .copy, .cmux 26 4 3, .cmux 90 2 0, .none, .none, .none, .none,
    .copy, .cmux 25 3 2, .cmux 89 5 0, .copy, .cmux 25 4 3, .cmux 89 0 1, .none, .none, .none, .none,
    .copy, .cmux 24 3 1, .cmux 24 4 3, .copy, .cmux 88 2 0, .cmux 88 0 5, .none, .none, .none, .none,
    .copy, .cmux 119 5 0, .cmux 87 4 0, .copy, .cmux 23 2 3, .cmux 119 0 4, .cmux 119 1 3, .cmux 119 3 2, .none, .none,
    .copy, .cmux 86 2 0, .cmux 23 3 6, .copy, .cmux 22 4 3, .cmux 87 5 0, .cmux 23 7 3, .cmux 87 0 1, .none, .none,
    .copy, .cmux 118 5 7, .copy, .copy, .cmux 85 1 0, .copy, .copy, .copy, .cmux 21 4 3, .cmux 118 6 2,
    .copy, .cmux 20 8 3, .cmux 86 1 7, .copy, .cmux 86 5 1, .cmux 22 6 9, .cmux 84 4 0, .cmux 22 9 2, .none, .none,
    .copy, .cmux 83 6 0, .copy, .copy, .copy, .copy, .cmux 117 4 2, .copy, .cmux 117 5 7, .cmux 19 1 3,
    .copy, .cmux 21 8 7, .cmux 21 5 8, .copy, .cmux 85 4 6, .cmux 85 6 2, .cmux 82 1 0, .cmux 18 9 3, .none, .none,
    .copy, .copy, .copy, .copy, .copy, .copy, .cmux 116 4 5, .cmux 116 2 1, .cmux 17 7 3, .cmux 81 6 0,
    .copy, .cmux 20 7 1, .cmux 20 2 7, .copy, .cmux 80 9 0, .cmux 84 4 6, .cmux 16 8 3, .cmux 84 6 5, .none, .none,
    .copy, .copy, .copy, .copy, .cmux 79 4 0, .copy, .cmux 115 2 1, .copy, .cmux 15 6 3, .cmux 115 5 7,
    .copy, .cmux 14 8 3, .cmux 19 6 1, .copy, .cmux 19 2 6, .cmux 83 9 7, .cmux 83 5 9, .cmux 78 4 0, .none, .none,
    .copy, .cmux 13 1 3, .copy, .copy, .copy, .copy, .copy, .cmux 114 6 5, .cmux 77 7 0, .cmux 114 4 2,
    .copy, .cmux 82 6 7, .cmux 18 9 2, .copy, .cmux 12 1 3, .cmux 76 8 0, .cmux 18 4 9, .cmux 82 7 5, .none, .none,
    .copy, .copy, .copy, .copy, .cmux 75 5 0, .cmux 11 4 3, .copy, .copy, .cmux 113 6 2, .cmux 113 1 7,
    .copy, .cmux 81 9 7, .cmux 17 6 8, .copy, .cmux 10 5 3, .cmux 17 8 2, .cmux 81 1 9, .cmux 74 4 0, .none, .none,
    .copy, .copy, .copy, .copy, .cmux 112 2 5, .copy, .copy, .cmux 73 7 0, .cmux 112 6 1, .cmux 9 4 3,
    .copy, .cmux 16 2 4, .cmux 80 8 1, .copy, .cmux 16 4 5, .cmux 80 6 8, .cmux 8 9 3, .cmux 72 7 0, .none, .none,
    .copy, .copy, .copy, .copy, .copy, .copy, .cmux 7 6 3, .cmux 71 7 0, .cmux 111 1 4, .cmux 111 5 2,
    .cmux 15 8 4, .cmux 79 5 9, .cmux 6 6 3, .cmux 70 7 0, .cmux 15 1 8, .cmux 79 9 2, .none, .none, .none, .none,
    .copy, .copy, .cmux 0 2 3, .copy, .copy, .copy, .cmux 110 4 0, .cmux 110 1 5, .none, .none,
    .cmux 1 2 3, .cmux 14 4 6, .cmux 78 7 5, .copy, .cmux 14 6 0, .cmux 78 1 7, .none, .none, .none, .none,
    .cmux 2 0 3, .copy, .copy, .cmux 109 1 4, .copy, .copy, .cmux 109 5 2, .none, .none, .none,
    .copy, .cmux 13 1 3, .cmux 13 3 4, .cmux 77 5 6, .cmux 77 6 2, .none, .none, .none, .none, .none,
    .copy, .copy, .copy, .copy, .copy, .cmux 108 3 4, .cmux 108 1 2, .none, .none, .none,
    .copy, .cmux 12 6 2, .cmux 76 5 4, .cmux 76 3 5, .cmux 12 1 6, .none, .none, .none, .none, .none,
    .copy, .copy, .copy, .copy, .copy, .cmux 107 4 1, .cmux 107 3 2, .none, .none, .none,
    .copy, .cmux 75 6 2, .cmux 75 3 6, .cmux 11 5 1, .cmux 11 4 5, .none, .none, .none, .none, .none,
    .copy, .copy, .copy, .copy, .copy, .cmux 106 4 3, .cmux 106 2 1, .none, .none, .none,
    .copy, .cmux 10 5 3, .cmux 10 4 5, .cmux 74 6 1, .cmux 74 2 6, .none, .none, .none, .none, .none,
    .copy, .copy, .copy, .copy, .copy, .cmux 105 4 3, .cmux 105 2 1, .none, .none, .none,
    .copy, .cmux 73 5 3, .cmux 9 2 6, .cmux 73 4 5, .cmux 9 6 1, .none, .none, .none, .none, .none,
    .copy, .copy, .copy, .copy, .copy, .cmux 104 2 4, .cmux 104 3 1, .none, .none, .none,
    .copy, .cmux 8 5 4, .cmux 72 6 1, .cmux 72 3 6, .cmux 8 2 5, .none, .none, .none, .none, .none,
    .copy, .copy, .copy, .copy, .copy, .cmux 103 4 1, .cmux 103 3 2, .none, .none, .none,
    .copy, .cmux 7 4 5, .cmux 71 6 2, .cmux 71 3 6, .cmux 7 5 1, .none, .none, .none, .none, .none,
    .copy, .copy, .copy, .copy, .copy, .cmux 102 3 2, .cmux 102 1 4, .none, .none, .none,
    .copy, .cmux 70 5 2, .cmux 6 1 6, .cmux 6 6 4, .cmux 70 3 5, .none, .none, .none, .none, .none,
    .copy, .copy, .copy, .copy, .copy, .cmux 101 4 1, .cmux 101 2 3, .none, .none, .none,
    .copy, .cmux 5 6 3, .cmux 69 4 5, .cmux 5 2 6, .cmux 69 5 1, .none, .none, .none, .none, .none,
    .copy, .copy, .cmux 100 3 1, .cmux 100 2 4, .copy, .none, .none, .none, .none, .none,
    .copy, .cmux 4 2 1, .cmux 68 3 4, .none, .none, .none, .none, .none, .none, .none,
    .copy, .cmux 0 1 2, .copy, .none, .none, .none, .none, .none, .none, .none,
    .copy, .cmux 1 1 2, .copy, .none, .none, .none, .none, .none, .none, .none,
    .copy, .cmux 2 1 2, .none, .none, .none, .none, .none, .none, .none, .none,
    .copy, .copy, .cmux 1 1 0, .cmux 0 0 1, .cmux 0 1 0, .none, .none, .none, .none, .none,
    .cmux 1 4 3, .cmux 1 1 3, .copy, .cmux 1 4 0, .none, .none, .none, .none, .none, .none,
    .cmux 2 3 0, .cmux 2 2 1, .cmux 2 1 2, .cmux 2 0 3, .none, .none, .none, .none, .none, .none,
    .cmux 3 2 3, .cmux 3 3 2, .cmux 3 1 0, .none, .none, .none, .none, .none, .none, .none,
    .copy, .copy, .cmux 36 2 0, .cmux 36 1 2, .none, .none, .none, .none, .none, .none,
    .copy, .copy, .cmux 4 2 3, .none, .none, .none, .none, .none, .none, .none,
    .copy, .copy, .cmux 37 1 2, .cmux 37 2 0, .none, .none, .none, .none, .none, .none,
    .copy, .copy, .cmux 5 3 2, .none, .none, .none, .none, .none, .none, .none,
    .copy, .copy, .cmux 38 2 0, .cmux 38 1 2, .none, .none, .none, .none, .none, .none,
    .copy, .copy, .cmux 6 2 3, .none, .none, .none, .none, .none, .none, .none,
    .copy, .copy, .cmux 39 2 0, .cmux 39 1 2, .none, .none, .none, .none, .none, .none,
    .copy, .copy, .cmux 7 2 3, .none, .none, .none, .none, .none, .none, .none,
    .copy, .copy, .cmux 40 2 0, .cmux 40 1 2, .none, .none, .none, .none, .none, .none,
    .copy, .copy, .cmux 8 2 3, .none, .none, .none, .none, .none, .none, .none,
    .copy, .copy, .cmux 41 2 0, .cmux 41 1 2, .none, .none, .none, .none, .none, .none,
    .copy, .copy, .cmux 9 2 3, .none, .none, .none, .none, .none, .none, .none,
    .copy, .copy, .cmux 42 2 0, .cmux 42 1 2, .none, .none, .none, .none, .none, .none,
    .copy, .copy, .cmux 10 2 3, .none, .none, .none, .none, .none, .none, .none,
    .copy, .copy, .cmux 43 2 0, .cmux 43 1 2, .none, .none, .none, .none, .none, .none,
    .copy, .copy, .cmux 11 2 3, .none, .none, .none, .none, .none, .none, .none,
    .copy, .copy, .cmux 44 1 2, .cmux 44 2 0, .none, .none, .none, .none, .none, .none,
    .copy, .copy, .cmux 12 3 2, .none, .none, .none, .none, .none, .none, .none,
    .copy, .copy, .cmux 45 2 0, .cmux 45 1 2, .none, .none, .none, .none, .none, .none,
    .copy, .copy, .cmux 13 2 3, .none, .none, .none, .none, .none, .none, .none,
    .copy, .copy, .cmux 46 1 2, .cmux 46 2 0, .none, .none, .none, .none, .none, .none,
    .copy, .copy, .cmux 14 3 2, .none, .none, .none, .none, .none, .none, .none,
    .copy, .copy, .cmux 47 2 0, .cmux 47 1 2, .none, .none, .none, .none, .none, .none,
    .copy, .copy, .cmux 15 2 3, .none, .none, .none, .none, .none, .none, .none,
    .copy, .copy, .cmux 48 1 2, .cmux 48 2 0, .none, .none, .none, .none, .none, .none,
    .copy, .copy, .cmux 16 3 2, .none, .none, .none, .none, .none, .none, .none,
    .copy, .copy, .cmux 49 1 2, .cmux 49 2 0, .none, .none, .none, .none, .none, .none,
    .copy, .copy, .cmux 17 3 2, .none, .none, .none, .none, .none, .none, .none,
    .copy, .copy, .cmux 50 2 0, .cmux 50 1 2, .none, .none, .none, .none, .none, .none,
    .copy, .copy, .cmux 18 2 3, .none, .none, .none, .none, .none, .none, .none,
    .copy, .copy, .cmux 51 1 2, .cmux 51 2 0, .none, .none, .none, .none, .none, .none,
    .copy, .copy, .cmux 19 3 2, .none, .none, .none, .none, .none, .none, .none,
    .copy, .copy, .cmux 52 2 0, .cmux 52 1 2, .none, .none, .none, .none, .none, .none,
    .copy, .copy, .cmux 20 2 3, .none, .none, .none, .none, .none, .none, .none,
    .copy, .copy, .cmux 53 2 0, .cmux 53 1 2, .none, .none, .none, .none, .none, .none,
    .copy, .copy, .cmux 21 2 3, .none, .none, .none, .none, .none, .none, .none,
    .copy, .copy, .cmux 54 2 0, .cmux 54 1 2, .none, .none, .none, .none, .none, .none,
    .copy, .copy, .cmux 22 2 3, .none, .none, .none, .none, .none, .none, .none,
    .copy, .copy, .cmux 55 1 2, .cmux 55 2 0, .none, .none, .none, .none, .none, .none,
    .copy, .copy, .cmux 23 3 2, .none, .none, .none, .none, .none, .none, .none,
    .copy, .copy, .cmux 56 2 0, .cmux 56 1 2, .none, .none, .none, .none, .none, .none,
    .copy, .copy, .cmux 24 2 3, .none, .none, .none, .none, .none, .none, .none,
    .copy, .copy, .cmux 57 2 0, .cmux 57 1 2, .none, .none, .none, .none, .none, .none,
    .copy, .copy, .cmux 25 2 3, .none, .none, .none, .none, .none, .none, .none,
    .copy, .copy, .cmux 58 2 0, .cmux 58 1 2, .none, .none, .none, .none, .none, .none,
    .copy, .copy, .cmux 26 2 3, .none, .none, .none, .none, .none, .none, .none,
    .copy, .copy, .cmux 59 1 2, .cmux 59 2 0, .none, .none, .none, .none, .none, .none,
    .copy, .copy, .cmux 27 3 2, .none, .none, .none, .none, .none, .none, .none,
    .copy, .copy, .cmux 60 1 2, .cmux 60 2 0, .none, .none, .none, .none, .none, .none,
    .copy, .copy, .cmux 28 3 2, .none, .none, .none, .none, .none, .none, .none,
    .copy, .copy, .cmux 61 2 0, .cmux 61 1 2, .none, .none, .none, .none, .none, .none,
    .copy, .copy, .cmux 29 2 3, .none, .none, .none, .none, .none, .none, .none,
    .copy, .copy, .cmux 62 2 0, .cmux 62 1 2, .none, .none, .none, .none, .none, .none,
    .copy, .copy, .cmux 30 2 3, .none, .none, .none, .none, .none, .none, .none,
    .copy, .copy, .cmux 63 1 2, .cmux 63 2 0, .none, .none, .none, .none, .none, .none,
    .copy, .copy, .cmux 31 3 2, .none, .none, .none, .none, .none, .none, .none,
    .copy, .copy, .cmux 64 1 2, .cmux 64 2 0, .none, .none, .none, .none, .none, .none,
    .copy, .copy, .cmux 32 3 2, .none, .none, .none, .none, .none, .none, .none,
    .copy, .copy, .cmux 65 1 2, .cmux 65 2 0, .none, .none, .none, .none, .none, .none,
    .copy, .copy, .cmux 33 3 2, .none, .none, .none, .none, .none, .none, .none,
    .copy, .copy, .cmux 66 2 0, .cmux 66 1 2, .none, .none, .none, .none, .none, .none,
    .copy, .copy, .cmux 34 2 3, .none, .none, .none, .none, .none, .none, .none,
    .cmux 67 0 2, .cmux 67 2 1, .cmux 67 1 2, .cmux 67 2 0, .none, .none, .none, .none, .none, .none,
    .cmux 35 3 2, .cmux 35 1 0, .none, .none, .none, .none, .none, .none, .none, .none,
    .cmux 2 1 0, .none, .none, .none, .none, .none, .none, .none, .none, .none]

def b29 : BitCircuit where
  maxInterState := 10
  nodes := [
    .cmux 97 0 1, .cmux 33 1 0, .cmux 33 0 1, .cmux 97 1 0, .none, .none, .none, .none, .none, .none,
    .cmux 32 1 2, .copy, .cmux 32 2 1, .copy, .cmux 96 0 3, .cmux 96 3 0, .none, .none, .none, .none,
    .cmux 31 2 1, .copy, .cmux 31 1 0, .copy, .cmux 95 3 5, .cmux 95 4 3, .none, .none, .none, .none,
    .cmux 30 0 1, .copy, .cmux 94 3 4, .copy, .cmux 30 1 2, .cmux 94 5 3, .none, .none, .none, .none,
    .cmux 93 3 2, .copy, .cmux 29 0 1, .copy, .cmux 29 1 4, .cmux 93 5 3, .none, .none, .none, .none,
    .cmux 92 3 0, .copy, .cmux 28 2 1, .copy, .cmux 28 1 4, .cmux 92 5 3, .none, .none, .none, .none,
    .cmux 27 1 4, .copy, .cmux 91 5 3, .copy, .cmux 91 3 0, .cmux 27 2 1, .none, .none, .none, .none,
    .cmux 90 3 4, .copy, .cmux 26 5 1, .copy, .cmux 26 1 0, .cmux 90 2 3, .none, .none, .none, .none,
    .cmux 25 2 1, .copy, .cmux 89 5 3, .copy, .cmux 89 3 0, .cmux 25 1 4, .none, .none, .none, .none,
    .cmux 24 0 1, .copy, .cmux 88 2 3, .copy, .cmux 24 1 5, .cmux 88 3 4, .none, .none, .none, .none,
    .cmux 119 5 3, .copy, .cmux 119 4 1, .copy, .cmux 119 3 2, .cmux 23 0 1, .cmux 87 2 3, .cmux 119 1 0, .none, .none,
    .cmux 86 6 3, .copy, .cmux 87 4 3, .copy, .cmux 23 7 1, .cmux 22 5 1, .cmux 23 1 2, .cmux 87 3 0, .none, .none,
    .cmux 85 0 3, .copy, .copy, .copy, .copy, .cmux 118 4 6, .copy, .copy, .cmux 118 2 7, .cmux 21 5 1,
    .cmux 84 0 3, .copy, .cmux 20 9 1, .copy, .cmux 86 8 7, .cmux 22 5 6, .cmux 22 4 5, .cmux 86 2 8, .none, .none,
    .cmux 83 0 3, .copy, .cmux 19 2 1, .copy, .copy, .copy, .copy, .copy, .cmux 117 6 5, .cmux 117 7 4,
    .cmux 85 9 4, .copy, .cmux 85 7 9, .copy, .cmux 21 6 8, .cmux 18 2 1, .cmux 21 8 5, .cmux 82 0 3, .none, .none,
    .copy, .copy, .copy, .copy, .copy, .cmux 116 4 6, .copy, .cmux 81 7 3, .cmux 17 5 1, .cmux 116 2 0,
    .cmux 80 7 3, .copy, .cmux 84 9 0, .copy, .cmux 16 8 1, .cmux 20 5 6, .cmux 84 2 9, .cmux 20 4 5, .none, .none,
    .cmux 115 6 2, .copy, .copy, .copy, .cmux 79 0 3, .copy, .copy, .copy, .cmux 115 7 5, .cmux 15 4 1,
    .cmux 19 7 8, .copy, .cmux 19 8 5, .copy, .cmux 83 0 2, .cmux 14 9 1, .cmux 83 6 0, .cmux 78 4 3, .none, .none,
    .copy, .copy, .copy, .copy, .copy, .cmux 114 6 4, .copy, .cmux 114 0 2, .cmux 13 5 1, .cmux 77 7 3,
    .cmux 18 7 2, .copy, .cmux 82 6 5, .copy, .cmux 76 9 3, .cmux 82 5 4, .cmux 12 8 1, .cmux 18 0 7, .none, .none,
    .copy, .copy, .copy, .copy, .cmux 75 4 3, .copy, .cmux 113 2 5, .copy, .cmux 11 6 1, .cmux 113 7 0,
    .cmux 10 8 1, .copy, .cmux 17 7 9, .copy, .cmux 17 9 0, .cmux 74 4 3, .cmux 81 6 5, .cmux 81 2 6, .none, .none,
    .cmux 9 0 1, .copy, .copy, .copy, .copy, .cmux 112 7 6, .copy, .copy, .cmux 112 2 4, .cmux 73 5 3,
    .cmux 16 2 8, .copy, .cmux 80 5 6, .copy, .cmux 8 0 1, .cmux 80 7 5, .cmux 16 8 4, .cmux 72 9 3, .none, .none,
    .copy, .copy, .copy, .copy, .cmux 7 4 1, .copy, .copy, .cmux 111 0 6, .cmux 111 5 2, .cmux 71 7 3,
    .cmux 6 4 1, .cmux 15 7 6, .cmux 70 9 3, .cmux 79 8 2, .cmux 15 0 7, .cmux 79 5 8, .none, .none, .none, .none,
    .cmux 110 5 3, .copy, .copy, .copy, .copy, .copy, .cmux 110 4 1, .cmux 0 0 2, .none, .none,
    .cmux 14 6 1, .cmux 78 0 3, .copy, .cmux 14 4 6, .cmux 1 7 2, .cmux 78 5 0, .none, .none, .none, .none,
    .copy, .copy, .cmux 2 4 2, .copy, .cmux 109 3 0, .copy, .cmux 109 5 1, .none, .none, .none,
    .cmux 77 6 1, .cmux 77 5 6, .copy, .cmux 13 4 0, .cmux 13 3 4, .none, .none, .none, .none, .none,
    .copy, .copy, .copy, .copy, .copy, .cmux 108 1 0, .cmux 108 4 3, .none, .none, .none,
    .cmux 12 4 6, .cmux 12 6 3, .copy, .cmux 76 5 0, .cmux 76 1 5, .none, .none, .none, .none, .none,
    .copy, .copy, .copy, .copy, .copy, .cmux 107 4 3, .cmux 107 0 1, .none, .none, .none,
    .cmux 75 5 3, .cmux 75 4 5, .copy, .cmux 11 6 1, .cmux 11 0 6, .none, .none, .none, .none, .none,
    .copy, .copy, .copy, .copy, .copy, .cmux 106 4 3, .cmux 106 1 0, .none, .none, .none,
    .cmux 74 1 6, .cmux 10 5 3, .copy, .cmux 10 4 5, .cmux 74 6 0, .none, .none, .none, .none, .none,
    .copy, .copy, .copy, .copy, .copy, .cmux 105 0 4, .cmux 105 3 1, .none, .none, .none,
    .cmux 9 3 6, .cmux 9 6 1, .copy, .cmux 73 0 5, .cmux 73 5 4, .none, .none, .none, .none, .none,
    .copy, .copy, .copy, .copy, .copy, .cmux 104 3 4, .cmux 104 0 1, .none, .none, .none,
    .cmux 72 3 5, .cmux 8 6 1, .copy, .cmux 8 0 6, .cmux 72 5 4, .none, .none, .none, .none, .none,
    .copy, .copy, .copy, .copy, .copy, .cmux 103 0 4, .cmux 103 3 1, .none, .none, .none,
    .cmux 7 3 6, .cmux 71 0 5, .copy, .cmux 7 6 1, .cmux 71 5 4, .none, .none, .none, .none, .none,
    .copy, .copy, .copy, .copy, .copy, .cmux 102 1 4, .cmux 102 0 3, .none, .none, .none,
    .cmux 70 5 4, .cmux 6 0 6, .copy, .cmux 6 6 3, .cmux 70 1 5, .none, .none, .none, .none, .none,
    .copy, .copy, .copy, .copy, .copy, .cmux 101 4 0, .cmux 101 1 3, .none, .none, .none,
    .cmux 5 6 3, .cmux 69 5 0, .copy, .cmux 69 4 5, .cmux 5 1 6, .none, .none, .none, .none, .none,
    .copy, .copy, .copy, .cmux 100 4 0, .cmux 100 3 1, .none, .none, .none, .none, .none,
    .cmux 68 4 1, .cmux 4 3 0, .copy, .none, .none, .none, .none, .none, .none, .none,
    .copy, .cmux 0 1 0, .copy, .none, .none, .none, .none, .none, .none, .none,
    .copy, .cmux 1 1 0, .copy, .none, .none, .none, .none, .none, .none, .none,
    .cmux 2 1 0, .none, .copy, .none, .none, .none, .none, .none, .none, .none,
    .copy, .cmux 0 0 2, .copy, .cmux 1 0 2, .cmux 0 2 0, .none, .none, .none, .none, .none,
    .cmux 1 1 2, .cmux 1 0 4, .cmux 1 1 4, .copy, .none, .none, .none, .none, .none, .none,
    .cmux 2 0 2, .cmux 2 3 1, .cmux 2 2 0, .cmux 2 1 3, .none, .none, .none, .none, .none, .none,
    .cmux 3 2 3, .cmux 3 3 2, .cmux 3 1 0, .none, .none, .none, .none, .none, .none, .none,
    .copy, .copy, .cmux 36 0 2, .cmux 36 2 1, .none, .none, .none, .none, .none, .none,
    .copy, .copy, .cmux 4 3 2, .none, .none, .none, .none, .none, .none, .none,
    .copy, .copy, .cmux 37 0 2, .cmux 37 2 1, .none, .none, .none, .none, .none, .none,
    .copy, .copy, .cmux 5 3 2, .none, .none, .none, .none, .none, .none, .none,
    .copy, .copy, .cmux 38 0 2, .cmux 38 2 1, .none, .none, .none, .none, .none, .none,
    .copy, .copy, .cmux 6 3 2, .none, .none, .none, .none, .none, .none, .none,
    .copy, .copy, .cmux 39 0 2, .cmux 39 2 1, .none, .none, .none, .none, .none, .none,
    .copy, .copy, .cmux 7 3 2, .none, .none, .none, .none, .none, .none, .none,
    .copy, .copy, .cmux 40 0 2, .cmux 40 2 1, .none, .none, .none, .none, .none, .none,
    .copy, .copy, .cmux 8 3 2, .none, .none, .none, .none, .none, .none, .none,
    .copy, .copy, .cmux 41 2 1, .cmux 41 0 2, .none, .none, .none, .none, .none, .none,
    .copy, .copy, .cmux 9 2 3, .none, .none, .none, .none, .none, .none, .none,
    .copy, .copy, .cmux 42 0 2, .cmux 42 2 1, .none, .none, .none, .none, .none, .none,
    .copy, .copy, .cmux 10 3 2, .none, .none, .none, .none, .none, .none, .none,
    .copy, .copy, .cmux 43 0 2, .cmux 43 2 1, .none, .none, .none, .none, .none, .none,
    .copy, .copy, .cmux 11 3 2, .none, .none, .none, .none, .none, .none, .none,
    .copy, .copy, .cmux 44 0 2, .cmux 44 2 1, .none, .none, .none, .none, .none, .none,
    .copy, .copy, .cmux 12 3 2, .none, .none, .none, .none, .none, .none, .none,
    .copy, .copy, .cmux 45 2 1, .cmux 45 0 2, .none, .none, .none, .none, .none, .none,
    .copy, .copy, .cmux 13 2 3, .none, .none, .none, .none, .none, .none, .none,
    .copy, .copy, .cmux 46 0 2, .cmux 46 2 1, .none, .none, .none, .none, .none, .none,
    .copy, .copy, .cmux 14 3 2, .none, .none, .none, .none, .none, .none, .none,
    .copy, .copy, .cmux 47 0 2, .cmux 47 2 1, .none, .none, .none, .none, .none, .none,
    .copy, .copy, .cmux 15 3 2, .none, .none, .none, .none, .none, .none, .none,
    .copy, .copy, .cmux 48 0 2, .cmux 48 2 1, .none, .none, .none, .none, .none, .none,
    .copy, .copy, .cmux 16 3 2, .none, .none, .none, .none, .none, .none, .none,
    .copy, .copy, .cmux 49 0 2, .cmux 49 2 1, .none, .none, .none, .none, .none, .none,
    .copy, .copy, .cmux 17 3 2, .none, .none, .none, .none, .none, .none, .none,
    .copy, .copy, .cmux 50 2 1, .cmux 50 0 2, .none, .none, .none, .none, .none, .none,
    .copy, .copy, .cmux 18 2 3, .none, .none, .none, .none, .none, .none, .none,
    .copy, .copy, .cmux 51 0 2, .cmux 51 2 1, .none, .none, .none, .none, .none, .none,
    .copy, .copy, .cmux 19 3 2, .none, .none, .none, .none, .none, .none, .none,
    .copy, .copy, .cmux 52 2 1, .cmux 52 0 2, .none, .none, .none, .none, .none, .none,
    .copy, .copy, .cmux 20 2 3, .none, .none, .none, .none, .none, .none, .none,
    .copy, .copy, .cmux 53 2 1, .cmux 53 0 2, .none, .none, .none, .none, .none, .none,
    .copy, .copy, .cmux 21 2 3, .none, .none, .none, .none, .none, .none, .none,
    .copy, .copy, .cmux 54 2 1, .cmux 54 0 2, .none, .none, .none, .none, .none, .none,
    .copy, .copy, .cmux 22 2 3, .none, .none, .none, .none, .none, .none, .none,
    .copy, .copy, .cmux 55 0 2, .cmux 55 2 1, .none, .none, .none, .none, .none, .none,
    .copy, .copy, .cmux 23 3 2, .none, .none, .none, .none, .none, .none, .none,
    .copy, .copy, .cmux 56 0 2, .cmux 56 2 1, .none, .none, .none, .none, .none, .none,
    .copy, .copy, .cmux 24 3 2, .none, .none, .none, .none, .none, .none, .none,
    .copy, .copy, .cmux 57 2 1, .cmux 57 0 2, .none, .none, .none, .none, .none, .none,
    .copy, .copy, .cmux 25 2 3, .none, .none, .none, .none, .none, .none, .none,
    .copy, .copy, .cmux 58 2 1, .cmux 58 0 2, .none, .none, .none, .none, .none, .none,
    .copy, .copy, .cmux 26 2 3, .none, .none, .none, .none, .none, .none, .none,
    .copy, .copy, .cmux 59 2 1, .cmux 59 0 2, .none, .none, .none, .none, .none, .none,
    .copy, .copy, .cmux 27 2 3, .none, .none, .none, .none, .none, .none, .none,
    .copy, .copy, .cmux 60 0 2, .cmux 60 2 1, .none, .none, .none, .none, .none, .none,
    .copy, .copy, .cmux 28 3 2, .none, .none, .none, .none, .none, .none, .none,
    .copy, .copy, .cmux 61 0 2, .cmux 61 2 1, .none, .none, .none, .none, .none, .none,
    .copy, .copy, .cmux 29 3 2, .none, .none, .none, .none, .none, .none, .none,
    .copy, .copy, .cmux 62 2 1, .cmux 62 0 2, .none, .none, .none, .none, .none, .none,
    .copy, .copy, .cmux 30 2 3, .none, .none, .none, .none, .none, .none, .none,
    .copy, .copy, .cmux 63 0 2, .cmux 63 2 1, .none, .none, .none, .none, .none, .none,
    .copy, .copy, .cmux 31 3 2, .none, .none, .none, .none, .none, .none, .none,
    .copy, .copy, .cmux 64 2 1, .cmux 64 0 2, .none, .none, .none, .none, .none, .none,
    .copy, .copy, .cmux 32 2 3, .none, .none, .none, .none, .none, .none, .none,
    .copy, .copy, .cmux 65 2 1, .cmux 65 0 2, .none, .none, .none, .none, .none, .none,
    .copy, .copy, .cmux 33 2 3, .none, .none, .none, .none, .none, .none, .none,
    .copy, .copy, .cmux 66 2 1, .cmux 66 0 2, .none, .none, .none, .none, .none, .none,
    .copy, .copy, .cmux 34 2 3, .none, .none, .none, .none, .none, .none, .none,
    .cmux 67 2 0, .cmux 67 0 2, .cmux 67 1 2, .cmux 67 2 1, .none, .none, .none, .none, .none, .none,
    .cmux 35 3 1, .cmux 35 0 2, .none, .none, .none, .none, .none, .none, .none, .none,
    .cmux 2 1 0, .none, .none, .none, .none, .none, .none, .none, .none, .none]

def b30 : BitCircuit where
  maxInterState := 10
  nodes := [
    .cmux 34 0 1, .cmux 34 1 0, .cmux 98 1 0, .cmux 98 0 1, .none, .none, .none, .none, .none, .none,
    .cmux 33 0 1, .copy, .copy, .cmux 97 2 3, .cmux 33 1 0, .cmux 97 3 2, .none, .none, .none, .none,
    .cmux 96 5 2, .copy, .copy, .cmux 32 0 1, .cmux 32 1 4, .cmux 96 2 3, .none, .none, .none, .none,
    .cmux 95 2 5, .copy, .copy, .cmux 95 0 2, .cmux 31 1 4, .cmux 31 3 1, .none, .none, .none, .none,
    .cmux 94 3 2, .copy, .copy, .cmux 30 5 1, .cmux 94 2 0, .cmux 30 1 4, .none, .none, .none, .none,
    .cmux 93 2 4, .copy, .copy, .cmux 29 1 5, .cmux 29 3 1, .cmux 93 0 2, .none, .none, .none, .none,
    .cmux 28 1 3, .copy, .copy, .cmux 92 2 0, .cmux 92 5 2, .cmux 28 4 1, .none, .none, .none, .none,
    .cmux 27 5 1, .copy, .copy, .cmux 91 2 3, .cmux 27 1 0, .cmux 91 4 2, .none, .none, .none, .none,
    .cmux 26 1 4, .copy, .copy, .cmux 26 0 1, .cmux 90 5 2, .cmux 90 2 3, .none, .none, .none, .none,
    .cmux 89 4 2, .copy, .copy, .cmux 89 2 5, .cmux 25 3 1, .cmux 25 1 0, .none, .none, .none, .none,
    .cmux 88 2 3, .copy, .copy, .cmux 24 4 1, .cmux 24 1 5, .cmux 88 0 2, .none, .none, .none, .none,
    .cmux 87 5 2, .copy, .copy, .cmux 119 2 5, .cmux 119 0 2, .cmux 119 1 3, .cmux 119 4 1, .cmux 23 3 1, .none, .none,
    .cmux 23 5 1, .copy, .copy, .cmux 87 2 4, .cmux 23 1 6, .cmux 86 0 2, .cmux 87 3 2, .cmux 22 7 1, .none, .none,
    .copy, .copy, .copy, .copy, .copy, .cmux 118 0 4, .copy, .cmux 21 7 1, .cmux 118 6 3, .cmux 85 5 2,
    .cmux 84 9 2, .copy, .copy, .cmux 86 8 3, .cmux 86 6 8, .cmux 22 5 4, .cmux 20 7 1, .cmux 22 0 5, .none, .none,
    .cmux 19 6 1, .copy, .copy, .copy, .copy, .copy, .cmux 83 0 2, .copy, .cmux 117 4 3, .cmux 117 7 5,
    .cmux 21 7 9, .copy, .copy, .cmux 82 6 2, .cmux 85 8 3, .cmux 18 0 1, .cmux 21 9 5, .cmux 85 4 8, .none, .none,
    .copy, .copy, .copy, .cmux 116 7 4, .copy, .cmux 17 5 1, .copy, .copy, .cmux 81 3 2, .cmux 116 0 6,
    .cmux 84 7 3, .copy, .copy, .cmux 80 8 2, .cmux 16 5 1, .cmux 20 9 6, .cmux 84 3 4, .cmux 20 0 9, .none, .none,
    .copy, .copy, .copy, .cmux 79 3 2, .cmux 15 4 1, .copy, .copy, .copy, .cmux 115 7 5, .cmux 115 0 6,
    .cmux 19 7 8, .copy, .copy, .cmux 19 8 5, .cmux 78 3 2, .cmux 14 4 1, .cmux 83 9 6, .cmux 83 0 9, .none, .none,
    .copy, .copy, .copy, .copy, .cmux 13 5 1, .cmux 77 4 2, .copy, .copy, .cmux 114 0 3, .cmux 114 7 6,
    .cmux 82 7 9, .copy, .copy, .cmux 18 0 8, .cmux 76 5 2, .cmux 18 8 3, .cmux 12 4 1, .cmux 82 9 6, .none, .none,
    .copy, .copy, .copy, .copy, .cmux 113 0 7, .copy, .cmux 75 4 2, .copy, .cmux 113 3 5, .cmux 11 6 1,
    .cmux 74 6 2, .copy, .copy, .cmux 17 8 5, .cmux 81 4 7, .cmux 17 3 8, .cmux 10 9 1, .cmux 81 0 4, .none, .none,
    .cmux 112 5 3, .copy, .copy, .copy, .copy, .copy, .cmux 9 6 1, .copy, .cmux 73 0 2, .cmux 112 7 4,
    .cmux 72 8 2, .copy, .copy, .cmux 16 0 3, .cmux 80 9 4, .cmux 16 5 0, .cmux 8 6 1, .cmux 80 7 9, .none, .none,
    .cmux 111 5 3, .copy, .copy, .copy, .copy, .copy, .cmux 111 7 4, .copy, .cmux 71 0 2, .cmux 7 6 1,
    .cmux 15 0 3, .cmux 6 9 1, .cmux 15 5 0, .cmux 79 7 6, .cmux 70 8 2, .cmux 79 6 4, .none, .none, .none, .none,
    .copy, .cmux 110 2 0, .copy, .copy, .copy, .copy, .cmux 0 1 4, .cmux 110 3 5, .none, .none,
    .cmux 1 6 4, .cmux 14 1 0, .cmux 14 2 1, .cmux 78 7 5, .copy, .cmux 78 3 7, .none, .none, .none, .none,
    .cmux 109 2 1, .copy, .copy, .copy, .cmux 2 0 4, .copy, .cmux 109 5 3, .none, .none, .none,
    .cmux 77 6 3, .cmux 13 2 0, .cmux 13 0 1, .cmux 77 5 6, .copy, .none, .none, .none, .none, .none,
    .copy, .copy, .copy, .copy, .copy, .cmux 108 1 2, .cmux 108 3 0, .none, .none, .none,
    .cmux 76 6 0, .cmux 12 1 5, .cmux 12 5 2, .cmux 76 3 6, .copy, .none, .none, .none, .none, .none,
    .copy, .copy, .copy, .copy, .copy, .cmux 107 3 0, .cmux 107 1 2, .none, .none, .none,
    .cmux 75 3 5, .cmux 75 5 0, .cmux 11 1 6, .cmux 11 6 2, .copy, .none, .none, .none, .none, .none,
    .copy, .copy, .copy, .copy, .copy, .cmux 106 0 1, .cmux 106 2 3, .none, .none, .none,
    .cmux 10 2 6, .cmux 74 5 1, .cmux 10 6 3, .cmux 74 0 5, .copy, .none, .none, .none, .none, .none,
    .copy, .copy, .copy, .copy, .copy, .cmux 105 3 1, .cmux 105 0 2, .none, .none, .none,
    .cmux 9 0 6, .cmux 73 5 1, .cmux 9 6 2, .cmux 73 3 5, .copy, .none, .none, .none, .none, .none,
    .copy, .copy, .copy, .copy, .copy, .cmux 104 0 2, .cmux 104 3 1, .none, .none, .none,
    .cmux 72 3 6, .cmux 8 5 2, .cmux 72 6 1, .cmux 8 0 5, .copy, .none, .none, .none, .none, .none,
    .copy, .copy, .copy, .copy, .copy, .cmux 103 0 2, .cmux 103 3 1, .none, .none, .none,
    .cmux 71 0 5, .cmux 7 6 1, .cmux 71 5 2, .cmux 7 3 6, .copy, .none, .none, .none, .none, .none,
    .copy, .copy, .copy, .copy, .copy, .cmux 102 0 2, .cmux 102 3 1, .none, .none, .none,
    .cmux 70 0 5, .cmux 70 5 2, .cmux 6 6 1, .cmux 6 3 6, .copy, .none, .none, .none, .none, .none,
    .copy, .copy, .copy, .copy, .copy, .cmux 101 0 1, .cmux 101 3 2, .none, .none, .none,
    .cmux 5 6 2, .cmux 69 0 5, .cmux 5 3 6, .cmux 69 5 1, .copy, .none, .none, .none, .none, .none,
    .copy, .cmux 100 2 0, .cmux 100 1 3, .copy, .copy, .none, .none, .none, .none, .none,
    .cmux 68 2 3, .cmux 4 1 0, .none, .none, .copy, .none, .none, .none, .none, .none,
    .copy, .cmux 0 1 0, .none, .none, .copy, .none, .none, .none, .none, .none,
    .copy, .cmux 1 1 0, .none, .none, .copy, .none, .none, .none, .none, .none,
    .cmux 2 1 0, .none, .none, .none, .copy, .none, .none, .none, .none, .none,
    .copy, .cmux 0 4 0, .cmux 1 0 4, .cmux 0 0 4, .copy, .none, .none, .none, .none, .none,
    .cmux 1 0 1, .cmux 1 3 1, .copy, .cmux 1 3 4, .none, .none, .none, .none, .none, .none,
    .cmux 2 2 0, .cmux 2 3 1, .cmux 2 1 3, .cmux 2 0 2, .none, .none, .none, .none, .none, .none,
    .cmux 3 2 3, .cmux 3 3 2, .cmux 3 0 1, .none, .none, .none, .none, .none, .none, .none,
    .copy, .copy, .cmux 36 2 1, .cmux 36 0 2, .none, .none, .none, .none, .none, .none,
    .copy, .copy, .cmux 4 2 3, .none, .none, .none, .none, .none, .none, .none,
    .copy, .copy, .cmux 37 0 2, .cmux 37 2 1, .none, .none, .none, .none, .none, .none,
    .copy, .copy, .cmux 5 3 2, .none, .none, .none, .none, .none, .none, .none,
    .copy, .copy, .cmux 38 2 1, .cmux 38 0 2, .none, .none, .none, .none, .none, .none,
    .copy, .copy, .cmux 6 2 3, .none, .none, .none, .none, .none, .none, .none,
    .copy, .copy, .cmux 39 0 2, .cmux 39 2 1, .none, .none, .none, .none, .none, .none,
    .copy, .copy, .cmux 7 3 2, .none, .none, .none, .none, .none, .none, .none,
    .copy, .copy, .cmux 40 2 1, .cmux 40 0 2, .none, .none, .none, .none, .none, .none,
    .copy, .copy, .cmux 8 2 3, .none, .none, .none, .none, .none, .none, .none,
    .copy, .copy, .cmux 41 0 2, .cmux 41 2 1, .none, .none, .none, .none, .none, .none,
    .copy, .copy, .cmux 9 3 2, .none, .none, .none, .none, .none, .none, .none,
    .copy, .copy, .cmux 42 2 1, .cmux 42 0 2, .none, .none, .none, .none, .none, .none,
    .copy, .copy, .cmux 10 2 3, .none, .none, .none, .none, .none, .none, .none,
    .copy, .copy, .cmux 43 0 2, .cmux 43 2 1, .none, .none, .none, .none, .none, .none,
    .copy, .copy, .cmux 11 3 2, .none, .none, .none, .none, .none, .none, .none,
    .copy, .copy, .cmux 44 2 1, .cmux 44 0 2, .none, .none, .none, .none, .none, .none,
    .copy, .copy, .cmux 12 2 3, .none, .none, .none, .none, .none, .none, .none,
    .copy, .copy, .cmux 45 2 1, .cmux 45 0 2, .none, .none, .none, .none, .none, .none,
    .copy, .copy, .cmux 13 2 3, .none, .none, .none, .none, .none, .none, .none,
    .copy, .copy, .cmux 46 2 1, .cmux 46 0 2, .none, .none, .none, .none, .none, .none,
    .copy, .copy, .cmux 14 2 3, .none, .none, .none, .none, .none, .none, .none,
    .copy, .copy, .cmux 47 0 2, .cmux 47 2 1, .none, .none, .none, .none, .none, .none,
    .copy, .copy, .cmux 15 3 2, .none, .none, .none, .none, .none, .none, .none,
    .copy, .copy, .cmux 48 0 2, .cmux 48 2 1, .none, .none, .none, .none, .none, .none,
    .copy, .copy, .cmux 16 3 2, .none, .none, .none, .none, .none, .none, .none,
    .copy, .copy, .cmux 49 0 2, .cmux 49 2 1, .none, .none, .none, .none, .none, .none,
    .copy, .copy, .cmux 17 3 2, .none, .none, .none, .none, .none, .none, .none,
    .copy, .copy, .cmux 50 0 2, .cmux 50 2 1, .none, .none, .none, .none, .none, .none,
    .copy, .copy, .cmux 18 3 2, .none, .none, .none, .none, .none, .none, .none,
    .copy, .copy, .cmux 51 2 1, .cmux 51 0 2, .none, .none, .none, .none, .none, .none,
    .copy, .copy, .cmux 19 2 3, .none, .none, .none, .none, .none, .none, .none,
    .copy, .copy, .cmux 52 0 2, .cmux 52 2 1, .none, .none, .none, .none, .none, .none,
    .copy, .copy, .cmux 20 3 2, .none, .none, .none, .none, .none, .none, .none,
    .copy, .copy, .cmux 53 0 2, .cmux 53 2 1, .none, .none, .none, .none, .none, .none,
    .copy, .copy, .cmux 21 3 2, .none, .none, .none, .none, .none, .none, .none,
    .copy, .copy, .cmux 54 2 1, .cmux 54 0 2, .none, .none, .none, .none, .none, .none,
    .copy, .copy, .cmux 22 2 3, .none, .none, .none, .none, .none, .none, .none,
    .copy, .copy, .cmux 55 0 2, .cmux 55 2 1, .none, .none, .none, .none, .none, .none,
    .copy, .copy, .cmux 23 3 2, .none, .none, .none, .none, .none, .none, .none,
    .copy, .copy, .cmux 56 0 2, .cmux 56 2 1, .none, .none, .none, .none, .none, .none,
    .copy, .copy, .cmux 24 3 2, .none, .none, .none, .none, .none, .none, .none,
    .copy, .copy, .cmux 57 0 2, .cmux 57 2 1, .none, .none, .none, .none, .none, .none,
    .copy, .copy, .cmux 25 3 2, .none, .none, .none, .none, .none, .none, .none,
    .copy, .copy, .cmux 58 2 1, .cmux 58 0 2, .none, .none, .none, .none, .none, .none,
    .copy, .copy, .cmux 26 2 3, .none, .none, .none, .none, .none, .none, .none,
    .copy, .copy, .cmux 59 0 2, .cmux 59 2 1, .none, .none, .none, .none, .none, .none,
    .copy, .copy, .cmux 27 3 2, .none, .none, .none, .none, .none, .none, .none,
    .copy, .copy, .cmux 60 2 1, .cmux 60 0 2, .none, .none, .none, .none, .none, .none,
    .copy, .copy, .cmux 28 2 3, .none, .none, .none, .none, .none, .none, .none,
    .copy, .copy, .cmux 61 0 2, .cmux 61 2 1, .none, .none, .none, .none, .none, .none,
    .copy, .copy, .cmux 29 3 2, .none, .none, .none, .none, .none, .none, .none,
    .copy, .copy, .cmux 62 2 1, .cmux 62 0 2, .none, .none, .none, .none, .none, .none,
    .copy, .copy, .cmux 30 2 3, .none, .none, .none, .none, .none, .none, .none,
    .copy, .copy, .cmux 63 2 1, .cmux 63 0 2, .none, .none, .none, .none, .none, .none,
    .copy, .copy, .cmux 31 2 3, .none, .none, .none, .none, .none, .none, .none,
    .copy, .copy, .cmux 64 0 2, .cmux 64 2 1, .none, .none, .none, .none, .none, .none,
    .copy, .copy, .cmux 32 3 2, .none, .none, .none, .none, .none, .none, .none,
    .copy, .copy, .cmux 65 0 2, .cmux 65 2 1, .none, .none, .none, .none, .none, .none,
    .copy, .copy, .cmux 33 3 2, .none, .none, .none, .none, .none, .none, .none,
    .copy, .copy, .cmux 66 2 1, .cmux 66 0 2, .none, .none, .none, .none, .none, .none,
    .copy, .copy, .cmux 34 2 3, .none, .none, .none, .none, .none, .none, .none,
    .cmux 67 2 1, .cmux 67 1 2, .cmux 67 0 2, .cmux 67 2 0, .none, .none, .none, .none, .none, .none,
    .cmux 35 0 2, .cmux 35 3 1, .none, .none, .none, .none, .none, .none, .none, .none,
    .cmux 2 1 0, .none, .none, .none, .none, .none, .none, .none, .none, .none]

def b31 : BitCircuit where
  maxInterState := 10
  nodes := [
    .cmux 99 1 0, .cmux 35 1 0, .cmux 35 0 1, .cmux 99 0 1, .none, .none, .none, .none, .none, .none,
    .copy, .copy, .cmux 98 0 3, .cmux 34 2 1, .cmux 34 1 2, .cmux 98 3 0, .none, .none, .none, .none,
    .copy, .copy, .cmux 97 0 2, .cmux 33 1 4, .cmux 97 5 0, .cmux 33 3 1, .none, .none, .none, .none,
    .copy, .copy, .cmux 96 0 2, .cmux 32 5 1, .cmux 96 4 0, .cmux 32 1 3, .none, .none, .none, .none,
    .copy, .copy, .cmux 31 1 5, .cmux 31 3 1, .cmux 95 0 2, .cmux 95 4 0, .none, .none, .none, .none,
    .copy, .copy, .cmux 94 0 4, .cmux 30 1 2, .cmux 94 5 0, .cmux 30 3 1, .none, .none, .none, .none,
    .copy, .copy, .cmux 93 4 0, .cmux 29 1 3, .cmux 93 0 2, .cmux 29 5 1, .none, .none, .none, .none,
    .copy, .copy, .cmux 28 5 1, .cmux 92 2 0, .cmux 28 1 3, .cmux 92 0 4, .none, .none, .none, .none,
    .copy, .copy, .cmux 27 2 1, .cmux 91 0 5, .cmux 27 1 4, .cmux 91 3 0, .none, .none, .none, .none,
    .copy, .copy, .cmux 26 2 1, .cmux 90 5 0, .cmux 90 0 3, .cmux 26 1 4, .none, .none, .none, .none,
    .copy, .copy, .cmux 89 3 0, .cmux 89 0 4, .cmux 25 2 1, .cmux 25 1 5, .none, .none, .none, .none,
    .copy, .copy, .cmux 88 0 3, .cmux 24 4 1, .cmux 88 2 0, .cmux 24 1 5, .none, .none, .none, .none,
    .copy, .copy, .cmux 119 0 4, .cmux 119 1 3, .cmux 87 4 0, .cmux 119 5 1, .cmux 23 3 1, .cmux 119 2 0, .none, .none,
    .copy, .copy, .cmux 87 0 7, .cmux 86 4 0, .cmux 23 1 5, .cmux 23 3 1, .cmux 22 6 1, .cmux 87 2 0, .none, .none,
    .copy, .copy, .copy, .cmux 85 3 0, .copy, .copy, .cmux 118 7 2, .copy, .cmux 118 5 4, .cmux 21 6 1,
    .copy, .copy, .cmux 86 7 6, .cmux 22 5 8, .cmux 86 6 2, .cmux 20 9 1, .cmux 22 8 4, .cmux 84 3 0, .none, .none,
    .copy, .copy, .copy, .copy, .copy, .cmux 19 5 1, .copy, .cmux 117 2 4, .cmux 117 3 6, .cmux 83 7 0,
    .copy, .copy, .cmux 85 2 7, .cmux 82 9 0, .cmux 21 3 8, .cmux 18 5 1, .cmux 85 7 4, .cmux 21 8 6, .none, .none,
    .copy, .copy, .copy, .cmux 17 5 1, .copy, .cmux 116 4 7, .copy, .copy, .cmux 81 3 0, .cmux 116 2 6,
    .copy, .copy, .cmux 80 8 0, .cmux 20 5 7, .cmux 84 2 9, .cmux 16 3 1, .cmux 20 4 5, .cmux 84 9 6, .none, .none,
    .copy, .copy, .cmux 15 5 1, .copy, .copy, .cmux 79 2 0, .copy, .copy, .cmux 115 6 3, .cmux 115 4 7,
    .copy, .copy, .cmux 83 4 9, .cmux 14 2 1, .cmux 83 9 7, .cmux 78 5 0, .cmux 19 8 3, .cmux 19 6 8, .none, .none,
    .copy, .copy, .copy, .cmux 114 2 4, .copy, .cmux 13 3 1, .copy, .copy, .cmux 77 5 0, .cmux 114 7 6,
    .copy, .copy, .cmux 18 7 9, .cmux 18 9 6, .cmux 76 8 0, .cmux 82 2 3, .cmux 82 3 4, .cmux 12 5 1, .none, .none,
    .copy, .copy, .copy, .copy, .cmux 113 2 3, .copy, .copy, .cmux 75 4 0, .cmux 11 7 1, .cmux 113 5 6,
    .copy, .copy, .cmux 10 8 1, .cmux 74 7 0, .cmux 17 2 4, .cmux 17 4 3, .cmux 81 9 6, .cmux 81 5 9, .none, .none,
    .copy, .copy, .cmux 73 3 0, .cmux 9 2 1, .copy, .copy, .copy, .copy, .cmux 112 4 5, .cmux 112 7 6,
    .copy, .copy, .cmux 80 7 9, .cmux 16 4 8, .cmux 16 8 5, .cmux 80 9 6, .cmux 72 2 0, .cmux 8 3 1, .none, .none,
    .copy, .copy, .copy, .copy, .copy, .copy, .cmux 71 6 0, .cmux 111 3 4, .cmux 7 7 1, .cmux 111 2 5,
    .cmux 15 7 4, .cmux 6 8 1, .cmux 15 3 7, .cmux 70 6 0, .cmux 79 9 5, .cmux 79 2 9, .none, .none, .none, .none,
    .copy, .cmux 0 1 3, .copy, .copy, .copy, .copy, .cmux 110 5 4, .cmux 110 2 0, .none, .none,
    .cmux 78 6 4, .cmux 14 2 7, .cmux 14 7 0, .copy, .cmux 1 1 3, .cmux 78 5 6, .none, .none, .none, .none,
    .copy, .copy, .copy, .cmux 109 5 0, .cmux 2 4 3, .copy, .cmux 109 1 2, .none, .none, .none,
    .cmux 77 3 0, .cmux 13 6 2, .cmux 13 1 6, .cmux 77 5 3, .copy, .none, .none, .none, .none, .none,
    .copy, .copy, .copy, .copy, .copy, .cmux 108 3 0, .cmux 108 2 1, .none, .none, .none,
    .cmux 12 6 1, .cmux 76 5 0, .cmux 76 3 5, .cmux 12 2 6, .copy, .none, .none, .none, .none, .none,
    .copy, .copy, .copy, .copy, .copy, .cmux 107 3 0, .cmux 107 2 1, .none, .none, .none,
    .cmux 11 5 0, .cmux 75 2 6, .cmux 11 3 5, .cmux 75 6 1, .copy, .none, .none, .none, .none, .none,
    .copy, .copy, .copy, .copy, .copy, .cmux 106 1 3, .cmux 106 2 0, .none, .none, .none,
    .cmux 74 5 3, .cmux 10 6 0, .cmux 10 2 6, .cmux 74 1 5, .copy, .none, .none, .none, .none, .none,
    .copy, .copy, .copy, .copy, .copy, .cmux 105 2 1, .cmux 105 3 0, .none, .none, .none,
    .cmux 73 3 6, .cmux 9 5 1, .cmux 73 6 0, .cmux 9 2 5, .copy, .none, .none, .none, .none, .none,
    .copy, .copy, .copy, .copy, .copy, .cmux 104 0 2, .cmux 104 3 1, .none, .none, .none,
    .cmux 72 5 2, .cmux 72 0 5, .cmux 8 3 6, .cmux 8 6 1, .copy, .none, .none, .none, .none, .none,
    .copy, .copy, .copy, .copy, .copy, .cmux 103 1 0, .cmux 103 2 3, .none, .none, .none,
    .cmux 71 1 5, .cmux 71 5 0, .cmux 7 2 6, .cmux 7 6 3, .copy, .none, .none, .none, .none, .none,
    .copy, .copy, .copy, .copy, .copy, .cmux 102 2 3, .cmux 102 0 1, .none, .none, .none,
    .cmux 70 6 1, .cmux 6 2 5, .cmux 70 0 6, .cmux 6 5 3, .copy, .none, .none, .none, .none, .none,
    .copy, .copy, .copy, .copy, .copy, .cmux 101 1 3, .cmux 101 2 0, .none, .none, .none,
    .cmux 5 1 5, .cmux 69 2 6, .cmux 5 5 3, .cmux 69 6 0, .copy, .none, .none, .none, .none, .none,
    .cmux 100 0 2, .cmux 100 1 3, .copy, .copy, .copy, .none, .none, .none, .none, .none,
    .cmux 4 0 2, .cmux 68 1 3, .none, .none, .copy, .none, .none, .none, .none, .none,
    .cmux 0 0 1, .copy, .none, .none, .copy, .none, .none, .none, .none, .none,
    .cmux 1 0 1, .copy, .none, .none, .copy, .none, .none, .none, .none, .none,
    .cmux 2 0 1, .none, .none, .none, .copy, .none, .none, .none, .none, .none,
    .copy, .cmux 1 0 4, .cmux 0 0 4, .cmux 0 4 0, .copy, .none, .none, .none, .none, .none,
    .cmux 1 0 3, .copy, .cmux 1 2 4, .cmux 1 2 3, .none, .none, .none, .none, .none, .none,
    .cmux 2 2 3, .cmux 2 0 1, .cmux 2 3 2, .cmux 2 1 0, .none, .none, .none, .none, .none, .none,
    .cmux 3 1 2, .cmux 3 3 0, .cmux 3 2 1, .none, .none, .none, .none, .none, .none, .none,
    .copy, .cmux 36 1 0, .copy, .cmux 36 2 1, .none, .none, .none, .none, .none, .none,
    .copy, .cmux 4 1 3, .copy, .none, .none, .none, .none, .none, .none, .none,
    .copy, .cmux 37 1 0, .copy, .cmux 37 2 1, .none, .none, .none, .none, .none, .none,
    .copy, .cmux 5 1 3, .copy, .none, .none, .none, .none, .none, .none, .none,
    .copy, .cmux 38 1 0, .copy, .cmux 38 2 1, .none, .none, .none, .none, .none, .none,
    .copy, .cmux 6 1 3, .copy, .none, .none, .none, .none, .none, .none, .none,
    .copy, .cmux 39 2 1, .copy, .cmux 39 1 0, .none, .none, .none, .none, .none, .none,
    .copy, .cmux 7 3 1, .copy, .none, .none, .none, .none, .none, .none, .none,
    .copy, .cmux 40 1 0, .copy, .cmux 40 2 1, .none, .none, .none, .none, .none, .none,
    .copy, .cmux 8 1 3, .copy, .none, .none, .none, .none, .none, .none, .none,
    .copy, .cmux 41 1 0, .copy, .cmux 41 2 1, .none, .none, .none, .none, .none, .none,
    .copy, .cmux 9 1 3, .copy, .none, .none, .none, .none, .none, .none, .none,
    .copy, .cmux 42 2 1, .copy, .cmux 42 1 0, .none, .none, .none, .none, .none, .none,
    .copy, .cmux 10 3 1, .copy, .none, .none, .none, .none, .none, .none, .none,
    .copy, .cmux 43 2 1, .copy, .cmux 43 1 0, .none, .none, .none, .none, .none, .none,
    .copy, .cmux 11 3 1, .copy, .none, .none, .none, .none, .none, .none, .none,
    .copy, .cmux 44 2 1, .copy, .cmux 44 1 0, .none, .none, .none, .none, .none, .none,
    .copy, .cmux 12 3 1, .copy, .none, .none, .none, .none, .none, .none, .none,
    .copy, .cmux 45 2 1, .copy, .cmux 45 1 0, .none, .none, .none, .none, .none, .none,
    .copy, .cmux 13 3 1, .copy, .none, .none, .none, .none, .none, .none, .none,
    .copy, .cmux 46 1 0, .copy, .cmux 46 2 1, .none, .none, .none, .none, .none, .none,
    .copy, .cmux 14 1 3, .copy, .none, .none, .none, .none, .none, .none, .none,
    .copy, .cmux 47 2 1, .copy, .cmux 47 1 0, .none, .none, .none, .none, .none, .none,
    .copy, .cmux 15 3 1, .copy, .none, .none, .none, .none, .none, .none, .none,
    .copy, .cmux 48 1 0, .copy, .cmux 48 2 1, .none, .none, .none, .none, .none, .none,
    .copy, .cmux 16 1 3, .copy, .none, .none, .none, .none, .none, .none, .none,
    .copy, .cmux 49 1 0, .copy, .cmux 49 2 1, .none, .none, .none, .none, .none, .none,
    .copy, .cmux 17 1 3, .copy, .none, .none, .none, .none, .none, .none, .none,
    .copy, .cmux 50 2 1, .copy, .cmux 50 1 0, .none, .none, .none, .none, .none, .none,
    .copy, .cmux 18 3 1, .copy, .none, .none, .none, .none, .none, .none, .none,
    .copy, .cmux 51 1 0, .copy, .cmux 51 2 1, .none, .none, .none, .none, .none, .none,
    .copy, .cmux 19 1 3, .copy, .none, .none, .none, .none, .none, .none, .none,
    .copy, .cmux 52 2 1, .copy, .cmux 52 1 0, .none, .none, .none, .none, .none, .none,
    .copy, .cmux 20 3 1, .copy, .none, .none, .none, .none, .none, .none, .none,
    .copy, .cmux 53 1 0, .copy, .cmux 53 2 1, .none, .none, .none, .none, .none, .none,
    .copy, .cmux 21 1 3, .copy, .none, .none, .none, .none, .none, .none, .none,
    .copy, .cmux 54 2 1, .copy, .cmux 54 1 0, .none, .none, .none, .none, .none, .none,
    .copy, .cmux 22 3 1, .copy, .none, .none, .none, .none, .none, .none, .none,
    .copy, .cmux 55 2 1, .copy, .cmux 55 1 0, .none, .none, .none, .none, .none, .none,
    .copy, .cmux 23 3 1, .copy, .none, .none, .none, .none, .none, .none, .none,
    .copy, .cmux 56 2 1, .copy, .cmux 56 1 0, .none, .none, .none, .none, .none, .none,
    .copy, .cmux 24 3 1, .copy, .none, .none, .none, .none, .none, .none, .none,
    .copy, .cmux 57 1 0, .copy, .cmux 57 2 1, .none, .none, .none, .none, .none, .none,
    .copy, .cmux 25 1 3, .copy, .none, .none, .none, .none, .none, .none, .none,
    .copy, .cmux 58 2 1, .copy, .cmux 58 1 0, .none, .none, .none, .none, .none, .none,
    .copy, .cmux 26 3 1, .copy, .none, .none, .none, .none, .none, .none, .none,
    .copy, .cmux 59 2 1, .copy, .cmux 59 1 0, .none, .none, .none, .none, .none, .none,
    .copy, .cmux 27 3 1, .copy, .none, .none, .none, .none, .none, .none, .none,
    .copy, .cmux 60 2 1, .copy, .cmux 60 1 0, .none, .none, .none, .none, .none, .none,
    .copy, .cmux 28 3 1, .copy, .none, .none, .none, .none, .none, .none, .none,
    .copy, .cmux 61 1 0, .copy, .cmux 61 2 1, .none, .none, .none, .none, .none, .none,
    .copy, .cmux 29 1 3, .copy, .none, .none, .none, .none, .none, .none, .none,
    .copy, .cmux 62 1 0, .copy, .cmux 62 2 1, .none, .none, .none, .none, .none, .none,
    .copy, .cmux 30 1 3, .copy, .none, .none, .none, .none, .none, .none, .none,
    .copy, .cmux 63 1 0, .copy, .cmux 63 2 1, .none, .none, .none, .none, .none, .none,
    .copy, .cmux 31 1 3, .copy, .none, .none, .none, .none, .none, .none, .none,
    .copy, .cmux 64 2 1, .copy, .cmux 64 1 0, .none, .none, .none, .none, .none, .none,
    .copy, .cmux 32 3 1, .copy, .none, .none, .none, .none, .none, .none, .none,
    .copy, .cmux 65 2 1, .copy, .cmux 65 1 0, .none, .none, .none, .none, .none, .none,
    .copy, .cmux 33 3 1, .copy, .none, .none, .none, .none, .none, .none, .none,
    .copy, .cmux 66 1 0, .copy, .cmux 66 2 1, .none, .none, .none, .none, .none, .none,
    .copy, .cmux 34 1 3, .copy, .none, .none, .none, .none, .none, .none, .none,
    .cmux 67 1 0, .cmux 67 0 1, .cmux 67 1 2, .cmux 67 2 1, .none, .none, .none, .none, .none, .none,
    .cmux 35 0 3, .cmux 35 2 1, .none, .none, .none, .none, .none, .none, .none, .none,
    .cmux 2 1 0, .none, .none, .none, .none, .none, .none, .none, .none, .none]

/-- `OUTPUT_CIRCUITS`. -/
def circuits : List BitCircuit :=
  [b0, b1, b2, b3, b4, b5, b6, b7,
   b8, b9, b10, b11, b12, b13, b14, b15,
   b16, b17, b18, b19, b20, b21, b22, b23,
   b24, b25, b26, b27, b28, b29, b30, b31]

end Verif.Model.Circuits.PcUpdate
