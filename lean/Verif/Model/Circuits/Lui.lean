import Verif.Model.Bdd
/- Generated by tools/gen_circuits.py from fhevm/src/codegen/codegen_lui.rs:146-180
   (`OUTPUT_CIRCUITS`); node for node, same order, same widths. -/
namespace Verif.Model.Circuits.Lui
open Verif.Model

/-- `INPUT_BITS` of codegen_lui.rs. -/
def inputBits : Nat := 20

def b0 : BitCircuit where
  maxInterState := 0
  nodes := []

def b1 : BitCircuit where
  maxInterState := 0
  nodes := []

def b2 : BitCircuit where
  maxInterState := 0
  nodes := []

def b3 : BitCircuit where
  maxInterState := 0
  nodes := []

def b4 : BitCircuit where
  maxInterState := 0
  nodes := []

def b5 : BitCircuit where
  maxInterState := 0
  nodes := []

def b6 : BitCircuit where
  maxInterState := 0
  nodes := []

def b7 : BitCircuit where
  maxInterState := 0
  nodes := []

def b8 : BitCircuit where
  maxInterState := 0
  nodes := []

def b9 : BitCircuit where
  maxInterState := 0
  nodes := []

def b10 : BitCircuit where
  maxInterState := 0
  nodes := []

def b11 : BitCircuit where
  maxInterState := 0
  nodes := []

def b12 : BitCircuit where
  maxInterState := 2
  nodes := [
    .cmux 0 1 0, .none]

def b13 : BitCircuit where
  maxInterState := 2
  nodes := [
    .cmux 1 1 0, .none]

def b14 : BitCircuit where
  maxInterState := 2
  nodes := [
    .cmux 2 1 0, .none]

def b15 : BitCircuit where
  maxInterState := 2
  nodes := [
    .cmux 3 1 0, .none]

def b16 : BitCircuit where
  maxInterState := 2
  nodes := [
    .cmux 4 1 0, .none]

def b17 : BitCircuit where
  maxInterState := 2
  nodes := [
    .cmux 5 1 0, .none]

def b18 : BitCircuit where
  maxInterState := 2
  nodes := [
    .cmux 6 1 0, .none]

def b19 : BitCircuit where
  maxInterState := 2
  nodes := [
    .cmux 7 1 0, .none]

def b20 : BitCircuit where
  maxInterState := 2
  nodes := [
    .cmux 8 1 0, .none]

def b21 : BitCircuit where
  maxInterState := 2
  nodes := [
    .cmux 9 1 0, .none]

def b22 : BitCircuit where
  maxInterState := 2
  nodes := [
    .cmux 10 1 0, .none]

def b23 : BitCircuit where
  maxInterState := 2
  nodes := [
    .cmux 11 1 0, .none]

def b24 : BitCircuit where
  maxInterState := 2
  nodes := [
    .cmux 12 1 0, .none]

def b25 : BitCircuit where
  maxInterState := 2
  nodes := [
    .cmux 13 1 0, .none]

def b26 : BitCircuit where
  maxInterState := 2
  nodes := [
    .cmux 14 1 0, .none]

def b27 : BitCircuit where
  maxInterState := 2
  nodes := [
    .cmux 15 1 0, .none]

def b28 : BitCircuit where
  maxInterState := 2
  nodes := [
    .cmux 16 1 0, .none]

def b29 : BitCircuit where
  maxInterState := 2
  nodes := [
    .cmux 17 1 0, .none]

def b30 : BitCircuit where
  maxInterState := 2
  nodes := [
    .cmux 18 1 0, .none]

def b31 : BitCircuit where
  maxInterState := 2
  nodes := [
    .cmux 19 1 0, .none]

/-- `OUTPUT_CIRCUITS`. -/
def circuits : List BitCircuit :=
  [b0, b1, b2, b3, b4, b5, b6, b7,
   b8, b9, b10, b11, b12, b13, b14, b15,
   b16, b17, b18, b19, b20, b21, b22, b23,
   b24, b25, b26, b27, b28, b29, b30, b31]

end Verif.Model.Circuits.Lui
