import Verif.Model.Bdd
/- Generated by tools/gen_circuits.py from fhevm/src/codegen/codegen_jalr.rs:146-1224
   (`OUTPUT_CIRCUITS`); node for node, same order, same widths. -/
namespace Verif.Model.Circuits.Jalr
open Verif.Model

/-- `INPUT_BITS` of codegen_jalr.rs. -/
def inputBits : Nat := 32

def b0 : BitCircuit where
  maxInterState := 2
  nodes := [
    .cmux 0 1 0, .none]

def b1 : BitCircuit where
  maxInterState := 2
  nodes := [
    .cmux 1 1 0, .none]

def b2 : BitCircuit where
  maxInterState := 2
  nodes := [
    .cmux 2 0 1, .none]

def b3 : BitCircuit where
  maxInterState := 2
  nodes := [
    .cmux 3 0 1, .cmux 3 1 0,
    .cmux 2 0 1, .none]

def b4 : BitCircuit where
  maxInterState := 2
  nodes := [
    .cmux 4 0 1, .cmux 4 1 0,
    .cmux 3 0 1, .copy,
    .cmux 2 0 1, .none]

def b5 : BitCircuit where
  maxInterState := 2
  nodes := [
    .cmux 5 0 1, .cmux 5 1 0,
    .cmux 4 0 1, .copy,
    .cmux 3 0 1, .copy,
    .cmux 2 0 1, .none]

def b6 : BitCircuit where
  maxInterState := 2
  nodes := [
    .cmux 6 0 1, .cmux 6 1 0,
    .cmux 5 0 1, .copy,
    .cmux 4 0 1, .copy,
    .cmux 3 0 1, .copy,
    .cmux 2 0 1, .none]

def b7 : BitCircuit where
  maxInterState := 2
  nodes := [
    .cmux 7 0 1, .cmux 7 1 0,
    .cmux 6 0 1, .copy,
    .cmux 5 0 1, .copy,
    .cmux 4 0 1, .copy,
    .cmux 3 0 1, .copy,
    .cmux 2 0 1, .none]

def b8 : BitCircuit where
  maxInterState := 2
  nodes := [
    .cmux 8 1 0, .cmux 8 0 1,
    .copy, .cmux 7 1 0,
    .copy, .cmux 6 1 0,
    .copy, .cmux 5 1 0,
    .copy, .cmux 4 1 0,
    .copy, .cmux 3 1 0,
    .cmux 2 1 0, .none]

def b9 : BitCircuit where
  maxInterState := 2
  nodes := [
    .cmux 9 0 1, .cmux 9 1 0,
    .cmux 8 0 1, .copy,
    .cmux 7 0 1, .copy,
    .cmux 6 0 1, .copy,
    .cmux 5 0 1, .copy,
    .cmux 4 0 1, .copy,
    .cmux 3 0 1, .copy,
    .cmux 2 0 1, .none]

def b10 : BitCircuit where
  maxInterState := 2
  nodes := [
    .cmux 10 0 1, .cmux 10 1 0,
    .cmux 9 0 1, .copy,
    .cmux 8 0 1, .copy,
    .cmux 7 0 1, .copy,
    .cmux 6 0 1, .copy,
    .cmux 5 0 1, .copy,
    .cmux 4 0 1, .copy,
    .cmux 3 0 1, .copy,
    .cmux 2 0 1, .none]

def b11 : BitCircuit where
  maxInterState := 2
  nodes := [
    .cmux 11 0 1, .cmux 11 1 0,
    .cmux 10 0 1, .copy,
    .cmux 9 0 1, .copy,
    .cmux 8 0 1, .copy,
    .cmux 7 0 1, .copy,
    .cmux 6 0 1, .copy,
    .cmux 5 0 1, .copy,
    .cmux 4 0 1, .copy,
    .cmux 3 0 1, .copy,
    .cmux 2 0 1, .none]

def b12 : BitCircuit where
  maxInterState := 2
  nodes := [
    .cmux 12 0 1, .cmux 12 1 0,
    .cmux 11 0 1, .copy,
    .cmux 10 0 1, .copy,
    .cmux 9 0 1, .copy,
    .cmux 8 0 1, .copy,
    .cmux 7 0 1, .copy,
    .cmux 6 0 1, .copy,
    .cmux 5 0 1, .copy,
    .cmux 4 0 1, .copy,
    .cmux 3 0 1, .copy,
    .cmux 2 0 1, .none]

def b13 : BitCircuit where
  maxInterState := 2
  nodes := [
    .cmux 13 1 0, .cmux 13 0 1,
    .copy, .cmux 12 1 0,
    .copy, .cmux 11 1 0,
    .copy, .cmux 10 1 0,
    .copy, .cmux 9 1 0,
    .copy, .cmux 8 1 0,
    .copy, .cmux 7 1 0,
    .copy, .cmux 6 1 0,
    .copy, .cmux 5 1 0,
    .copy, .cmux 4 1 0,
    .copy, .cmux 3 1 0,
    .cmux 2 1 0, .none]

def b14 : BitCircuit where
  maxInterState := 2
  nodes := [
    .cmux 14 0 1, .cmux 14 1 0,
    .cmux 13 0 1, .copy,
    .cmux 12 0 1, .copy,
    .cmux 11 0 1, .copy,
    .cmux 10 0 1, .copy,
    .cmux 9 0 1, .copy,
    .cmux 8 0 1, .copy,
    .cmux 7 0 1, .copy,
    .cmux 6 0 1, .copy,
    .cmux 5 0 1, .copy,
    .cmux 4 0 1, .copy,
    .cmux 3 0 1, .copy,
    .cmux 2 0 1, .none]

def b15 : BitCircuit where
  maxInterState := 2
  nodes := [
    .cmux 15 0 1, .cmux 15 1 0,
    .cmux 14 0 1, .copy,
    .cmux 13 0 1, .copy,
    .cmux 12 0 1, .copy,
    .cmux 11 0 1, .copy,
    .cmux 10 0 1, .copy,
    .cmux 9 0 1, .copy,
    .cmux 8 0 1, .copy,
    .cmux 7 0 1, .copy,
    .cmux 6 0 1, .copy,
    .cmux 5 0 1, .copy,
    .cmux 4 0 1, .copy,
    .cmux 3 0 1, .copy,
    .cmux 2 0 1, .none]

def b16 : BitCircuit where
  maxInterState := 2
  nodes := [
    .cmux 16 0 1, .cmux 16 1 0,
    .cmux 15 0 1, .copy,
    .cmux 14 0 1, .copy,
    .cmux 13 0 1, .copy,
    .cmux 12 0 1, .copy,
    .cmux 11 0 1, .copy,
    .cmux 10 0 1, .copy,
    .cmux 9 0 1, .copy,
    .cmux 8 0 1, .copy,
    .cmux 7 0 1, .copy,
    .cmux 6 0 1, .copy,
    .cmux 5 0 1, .copy,
    .cmux 4 0 1, .copy,
    .cmux 3 0 1, .copy,
    .cmux 2 0 1, .none]

def b17 : BitCircuit where
  maxInterState := 2
  nodes := [
    .cmux 17 1 0, .cmux 17 0 1,
    .copy, .cmux 16 1 0,
    .copy, .cmux 15 1 0,
    .copy, .cmux 14 1 0,
    .copy, .cmux 13 1 0,
    .copy, .cmux 12 1 0,
    .copy, .cmux 11 1 0,
    .copy, .cmux 10 1 0,
    .copy, .cmux 9 1 0,
    .copy, .cmux 8 1 0,
    .copy, .cmux 7 1 0,
    .copy, .cmux 6 1 0,
    .copy, .cmux 5 1 0,
    .copy, .cmux 4 1 0,
    .copy, .cmux 3 1 0,
    .cmux 2 1 0, .none]

def b18 : BitCircuit where
  maxInterState := 2
  nodes := [
    .cmux 18 0 1, .cmux 18 1 0,
    .cmux 17 0 1, .copy,
    .cmux 16 0 1, .copy,
    .cmux 15 0 1, .copy,
    .cmux 14 0 1, .copy,
    .cmux 13 0 1, .copy,
    .cmux 12 0 1, .copy,
    .cmux 11 0 1, .copy,
    .cmux 10 0 1, .copy,
    .cmux 9 0 1, .copy,
    .cmux 8 0 1, .copy,
    .cmux 7 0 1, .copy,
    .cmux 6 0 1, .copy,
    .cmux 5 0 1, .copy,
    .cmux 4 0 1, .copy,
    .cmux 3 0 1, .copy,
    .cmux 2 0 1, .none]

def b19 : BitCircuit where
  maxInterState := 2
  nodes := [
    .cmux 19 1 0, .cmux 19 0 1,
    .copy, .cmux 18 1 0,
    .copy, .cmux 17 1 0,
    .copy, .cmux 16 1 0,
    .copy, .cmux 15 1 0,
    .copy, .cmux 14 1 0,
    .copy, .cmux 13 1 0,
    .copy, .cmux 12 1 0,
    .copy, .cmux 11 1 0,
    .copy, .cmux 10 1 0,
    .copy, .cmux 9 1 0,
    .copy, .cmux 8 1 0,
    .copy, .cmux 7 1 0,
    .copy, .cmux 6 1 0,
    .copy, .cmux 5 1 0,
    .copy, .cmux 4 1 0,
    .copy, .cmux 3 1 0,
    .cmux 2 1 0, .none]

def b20 : BitCircuit where
  maxInterState := 2
  nodes := [
    .cmux 20 1 0, .cmux 20 0 1,
    .copy, .cmux 19 1 0,
    .copy, .cmux 18 1 0,
    .copy, .cmux 17 1 0,
    .copy, .cmux 16 1 0,
    .copy, .cmux 15 1 0,
    .copy, .cmux 14 1 0,
    .copy, .cmux 13 1 0,
    .copy, .cmux 12 1 0,
    .copy, .cmux 11 1 0,
    .copy, .cmux 10 1 0,
    .copy, .cmux 9 1 0,
    .copy, .cmux 8 1 0,
    .copy, .cmux 7 1 0,
    .copy, .cmux 6 1 0,
    .copy, .cmux 5 1 0,
    .copy, .cmux 4 1 0,
    .copy, .cmux 3 1 0,
    .cmux 2 1 0, .none]

def b21 : BitCircuit where
  maxInterState := 2
  nodes := [
    .cmux 21 1 0, .cmux 21 0 1,
    .copy, .cmux 20 1 0,
    .copy, .cmux 19 1 0,
    .copy, .cmux 18 1 0,
    .copy, .cmux 17 1 0,
    .copy, .cmux 16 1 0,
    .copy, .cmux 15 1 0,
    .copy, .cmux 14 1 0,
    .copy, .cmux 13 1 0,
    .copy, .cmux 12 1 0,
    .copy, .cmux 11 1 0,
    .copy, .cmux 10 1 0,
    .copy, .cmux 9 1 0,
    .copy, .cmux 8 1 0,
    .copy, .cmux 7 1 0,
    .copy, .cmux 6 1 0,
    .copy, .cmux 5 1 0,
    .copy, .cmux 4 1 0,
    .copy, .cmux 3 1 0,
    .cmux 2 1 0, .none]

def b22 : BitCircuit where
  maxInterState := 2
  nodes := [
    .cmux 22 1 0, .cmux 22 0 1,
    .copy, .cmux 21 1 0,
    .copy, .cmux 20 1 0,
    .copy, .cmux 19 1 0,
    .copy, .cmux 18 1 0,
    .copy, .cmux 17 1 0,
    .copy, .cmux 16 1 0,
    .copy, .cmux 15 1 0,
    .copy, .cmux 14 1 0,
    .copy, .cmux 13 1 0,
    .copy, .cmux 12 1 0,
    .copy, .cmux 11 1 0,
    .copy, .cmux 10 1 0,
    .copy, .cmux 9 1 0,
    .copy, .cmux 8 1 0,
    .copy, .cmux 7 1 0,
    .copy, .cmux 6 1 0,
    .copy, .cmux 5 1 0,
    .copy, .cmux 4 1 0,
    .copy, .cmux 3 1 0,
    .cmux 2 1 0, .none]

def b23 : BitCircuit where
  maxInterState := 2
  nodes := [
    .cmux 23 1 0, .cmux 23 0 1,
    .copy, .cmux 22 1 0,
    .copy, .cmux 21 1 0,
    .copy, .cmux 20 1 0,
    .copy, .cmux 19 1 0,
    .copy, .cmux 18 1 0,
    .copy, .cmux 17 1 0,
    .copy, .cmux 16 1 0,
    .copy, .cmux 15 1 0,
    .copy, .cmux 14 1 0,
    .copy, .cmux 13 1 0,
    .copy, .cmux 12 1 0,
    .copy, .cmux 11 1 0,
    .copy, .cmux 10 1 0,
    .copy, .cmux 9 1 0,
    .copy, .cmux 8 1 0,
    .copy, .cmux 7 1 0,
    .copy, .cmux 6 1 0,
    .copy, .cmux 5 1 0,
    .copy, .cmux 4 1 0,
    .copy, .cmux 3 1 0,
    .cmux 2 1 0, .none]

def b24 : BitCircuit where
  maxInterState := 2
  nodes := [
    .cmux 24 1 0, .cmux 24 0 1,
    .copy, .cmux 23 1 0,
    .copy, .cmux 22 1 0,
    .copy, .cmux 21 1 0,
    .copy, .cmux 20 1 0,
    .copy, .cmux 19 1 0,
    .copy, .cmux 18 1 0,
    .copy, .cmux 17 1 0,
    .copy, .cmux 16 1 0,
    .copy, .cmux 15 1 0,
    .copy, .cmux 14 1 0,
    .copy, .cmux 13 1 0,
    .copy, .cmux 12 1 0,
    .copy, .cmux 11 1 0,
    .copy, .cmux 10 1 0,
    .copy, .cmux 9 1 0,
    .copy, .cmux 8 1 0,
    .copy, .cmux 7 1 0,
    .copy, .cmux 6 1 0,
    .copy, .cmux 5 1 0,
    .copy, .cmux 4 1 0,
    .copy, .cmux 3 1 0,
    .cmux 2 1 0, .none]

def b25 : BitCircuit where
  maxInterState := 2
  nodes := [
    .cmux 25 0 1, .cmux 25 1 0,
    .cmux 24 0 1, .copy,
    .cmux 23 0 1, .copy,
    .cmux 22 0 1, .copy,
    .cmux 21 0 1, .copy,
    .cmux 20 0 1, .copy,
    .cmux 19 0 1, .copy,
    .cmux 18 0 1, .copy,
    .cmux 17 0 1, .copy,
    .cmux 16 0 1, .copy,
    .cmux 15 0 1, .copy,
    .cmux 14 0 1, .copy,
    .cmux 13 0 1, .copy,
    .cmux 12 0 1, .copy,
    .cmux 11 0 1, .copy,
    .cmux 10 0 1, .copy,
    .cmux 9 0 1, .copy,
    .cmux 8 0 1, .copy,
    .cmux 7 0 1, .copy,
    .cmux 6 0 1, .copy,
    .cmux 5 0 1, .copy,
    .cmux 4 0 1, .copy,
    .cmux 3 0 1, .copy,
    .cmux 2 0 1, .none]

def b26 : BitCircuit where
  maxInterState := 2
  nodes := [
    .cmux 26 0 1, .cmux 26 1 0,
    .cmux 25 0 1, .copy,
    .cmux 24 0 1, .copy,
    .cmux 23 0 1, .copy,
    .cmux 22 0 1, .copy,
    .cmux 21 0 1, .copy,
    .cmux 20 0 1, .copy,
    .cmux 19 0 1, .copy,
    .cmux 18 0 1, .copy,
    .cmux 17 0 1, .copy,
    .cmux 16 0 1, .copy,
    .cmux 15 0 1, .copy,
    .cmux 14 0 1, .copy,
    .cmux 13 0 1, .copy,
    .cmux 12 0 1, .copy,
    .cmux 11 0 1, .copy,
    .cmux 10 0 1, .copy,
    .cmux 9 0 1, .copy,
    .cmux 8 0 1, .copy,
    .cmux 7 0 1, .copy,
    .cmux 6 0 1, .copy,
    .cmux 5 0 1, .copy,
    .cmux 4 0 1, .copy,
    .cmux 3 0 1, .copy,
    .cmux 2 0 1, .none]

def b27 : BitCircuit where
  maxInterState := 2
  nodes := [
    .cmux 27 0 1, .cmux 27 1 0,
    .cmux 26 0 1, .copy,
    .cmux 25 0 1, .copy,
    .cmux 24 0 1, .copy,
    .cmux 23 0 1, .copy,
    .cmux 22 0 1, .copy,
    .cmux 21 0 1, .copy,
    .cmux 20 0 1, .copy,
    .cmux 19 0 1, .copy,
    .cmux 18 0 1, .copy,
    .cmux 17 0 1, .copy,
    .cmux 16 0 1, .copy,
    .cmux 15 0 1, .copy,
    .cmux 14 0 1, .copy,
    .cmux 13 0 1, .copy,
    .cmux 12 0 1, .copy,
    .cmux 11 0 1, .copy,
    .cmux 10 0 1, .copy,
    .cmux 9 0 1, .copy,
    .cmux 8 0 1, .copy,
    .cmux 7 0 1, .copy,
    .cmux 6 0 1, .copy,
    .cmux 5 0 1, .copy,
    .cmux 4 0 1, .copy,
    .cmux 3 0 1, .copy,
    .cmux 2 0 1, .none]

def b28 : BitCircuit where
  maxInterState := 2
  nodes := [
    .cmux 28 0 1, .cmux 28 1 0,
    .cmux 27 0 1, .copy,
    .cmux 26 0 1, .copy,
    .cmux 25 0 1, .copy,
    .cmux 24 0 1, .copy,
    .cmux 23 0 1, .copy,
    .cmux 22 0 1, .copy,
    .cmux 21 0 1, .copy,
    .cmux 20 0 1, .copy,
    .cmux 19 0 1, .copy,
    .cmux 18 0 1, .copy,
    .cmux 17 0 1, .copy,
    .cmux 16 0 1, .copy,
    .cmux 15 0 1, .copy,
    .cmux 14 0 1, .copy,
    .cmux 13 0 1, .copy,
    .cmux 12 0 1, .copy,
    .cmux 11 0 1, .copy,
    .cmux 10 0 1, .copy,
    .cmux 9 0 1, .copy,
    .cmux 8 0 1, .copy,
    .cmux 7 0 1, .copy,
    .cmux 6 0 1, .copy,
    .cmux 5 0 1, .copy,
    .cmux 4 0 1, .copy,
    .cmux 3 0 1, .copy,
    .cmux 2 0 1, .none]

def b29 : BitCircuit where
  maxInterState := 2
  nodes := [
    .cmux 29 0 1, .cmux 29 1 0,
    .cmux 28 0 1, .copy,
    .cmux 27 0 1, .copy,
    .cmux 26 0 1, .copy,
    .cmux 25 0 1, .copy,
    .cmux 24 0 1, .copy,
    .cmux 23 0 1, .copy,
    .cmux 22 0 1, .copy,
    .cmux 21 0 1, .copy,
    .cmux 20 0 1, .copy,
    .cmux 19 0 1, .copy,
    .cmux 18 0 1, .copy,
    .cmux 17 0 1, .copy,
    .cmux 16 0 1, .copy,
    .cmux 15 0 1, .copy,
    .cmux 14 0 1, .copy,
    .cmux 13 0 1, .copy,
    .cmux 12 0 1, .copy,
    .cmux 11 0 1, .copy,
    .cmux 10 0 1, .copy,
    .cmux 9 0 1, .copy,
    .cmux 8 0 1, .copy,
    .cmux 7 0 1, .copy,
    .cmux 6 0 1, .copy,
    .cmux 5 0 1, .copy,
    .cmux 4 0 1, .copy,
    .cmux 3 0 1, .copy,
    .cmux 2 0 1, .none]

def b30 : BitCircuit where
  maxInterState := 2
  nodes := [
    .cmux 30 1 0, .cmux 30 0 1,
    .copy, .cmux 29 1 0,
    .copy, .cmux 28 1 0,
    .copy, .cmux 27 1 0,
    .copy, .cmux 26 1 0,
    .copy, .cmux 25 1 0,
    .copy, .cmux 24 1 0,
    .copy, .cmux 23 1 0,
    .copy, .cmux 22 1 0,
    .copy, .cmux 21 1 0,
    .copy, .cmux 20 1 0,
    .copy, .cmux 19 1 0,
    .copy, .cmux 18 1 0,
    .copy, .cmux 17 1 0,
    .copy, .cmux 16 1 0,
    .copy, .cmux 15 1 0,
    .copy, .cmux 14 1 0,
    .copy, .cmux 13 1 0,
    .copy, .cmux 12 1 0,
    .copy, .cmux 11 1 0,
    .copy, .cmux 10 1 0,
    .copy, .cmux 9 1 0,
    .copy, .cmux 8 1 0,
    .copy, .cmux 7 1 0,
    .copy, .cmux 6 1 0,
    .copy, .cmux 5 1 0,
    .copy, .cmux 4 1 0,
    .copy, .cmux 3 1 0,
    .cmux 2 1 0, .none]

def b31 : BitCircuit where
  maxInterState := 2
  nodes := [
    .cmux 31 1 0, .cmux 31 0 1,
    .copy, .cmux 30 1 0,
    .copy, .cmux 29 1 0,
    .copy, .cmux 28 1 0,
    .copy, .cmux 27 1 0,
    .copy, .cmux 26 1 0,
    .copy, .cmux 25 1 0,
    .copy, .cmux 24 1 0,
    .copy, .cmux 23 1 0,
    .copy, .cmux 22 1 0,
    .copy, .cmux 21 1 0,
    .copy, .cmux 20 1 0,
    .copy, .cmux 19 1 0,
    .copy, .cmux 18 1 0,
    .copy, .cmux 17 1 0,
    .copy, .cmux 16 1 0,
    .copy, .cmux 15 1 0,
    .copy, .cmux 14 1 0,
    .copy, .cmux 13 1 0,
    .copy, .cmux 12 1 0,
    .copy, .cmux 11 1 0,
    .copy, .cmux 10 1 0,
    .copy, .cmux 9 1 0,
    .copy, .cmux 8 1 0,
    .copy, .cmux 7 1 0,
    .copy, .cmux 6 1 0,
    .copy, .cmux 5 1 0,
    .copy, .cmux 4 1 0,
    .copy, .cmux 3 1 0,
    .cmux 2 1 0, .none]

/-- `OUTPUT_CIRCUITS`. -/
def circuits : List BitCircuit :=
  [b0, b1, b2, b3, b4, b5, b6, b7,
   b8, b9, b10, b11, b12, b13, b14, b15,
   b16, b17, b18, b19, b20, b21, b22, b23,
   b24, b25, b26, b27, b28, b29, b30, b31]

end Verif.Model.Circuits.Jalr
