import Verif.Model.Bdd
/- Generated by tools/gen_circuits.py from fhevm/src/codegen/codegen_auipc.rs:146-1514
   (`OUTPUT_CIRCUITS`); node for node, same order, same widths. -/
namespace Verif.Model.Circuits.Auipc
open Verif.Model

/-- `INPUT_BITS` of codegen_auipc.rs. -/
def inputBits : Nat := 52

def b0 : BitCircuit where
  maxInterState := 2
  nodes := [
    .cmux 0 1 0, .none]

def b1 : BitCircuit where
  maxInterState := 2
  nodes := [
    .cmux 1 1 0, .none]

def b2 : BitCircuit where
  maxInterState := 2
  nodes := [
    .cmux 2 1 0, .none]

def b3 : BitCircuit where
  maxInterState := 2
  nodes := [
    .cmux 3 1 0, .none]

def b4 : BitCircuit where
  maxInterState := 2
  nodes := [
    .cmux 4 1 0, .none]

def b5 : BitCircuit where
  maxInterState := 2
  nodes := [
    .cmux 5 1 0, .none]

def b6 : BitCircuit where
  maxInterState := 2
  nodes := [
    .cmux 6 1 0, .none]

def b7 : BitCircuit where
  maxInterState := 2
  nodes := [
    .cmux 7 1 0, .none]

def b8 : BitCircuit where
  maxInterState := 2
  nodes := [
    .cmux 8 1 0, .none]

def b9 : BitCircuit where
  maxInterState := 2
  nodes := [
    .cmux 9 1 0, .none]

def b10 : BitCircuit where
  maxInterState := 2
  nodes := [
    .cmux 10 1 0, .none]

def b11 : BitCircuit where
  maxInterState := 2
  nodes := [
    .cmux 11 1 0, .none]

def b12 : BitCircuit where
  maxInterState := 2
  nodes := [
    .cmux 32 0 1, .cmux 32 1 0,
    .cmux 12 0 1, .none]

def b13 : BitCircuit where
  maxInterState := 2
  nodes := [
    .cmux 33 1 0, .cmux 33 0 1,
    .cmux 13 0 1, .cmux 13 1 0,
    .cmux 32 0 1, .copy,
    .cmux 12 0 1, .none]

def b14 : BitCircuit where
  maxInterState := 3
  nodes := [
    .cmux 34 0 1, .cmux 34 1 0, .none,
    .cmux 14 0 1, .cmux 14 1 0, .none,
    .copy, .copy, .cmux 33 1 0,
    .cmux 13 1 2, .cmux 13 2 0, .none,
    .cmux 32 0 1, .copy, .none,
    .cmux 12 0 1, .none, .none]

def b15 : BitCircuit where
  maxInterState := 3
  nodes := [
    .cmux 35 1 0, .cmux 35 0 1, .none,
    .cmux 15 1 0, .cmux 15 0 1, .none,
    .copy, .copy, .cmux 34 1 0,
    .cmux 14 2 0, .cmux 14 1 2, .none,
    .copy, .copy, .cmux 33 1 0,
    .cmux 13 2 0, .cmux 13 1 2, .none,
    .copy, .cmux 32 1 0, .none,
    .cmux 12 1 0, .none, .none]

def b16 : BitCircuit where
  maxInterState := 3
  nodes := [
    .cmux 36 0 1, .cmux 36 1 0, .none,
    .cmux 16 1 0, .cmux 16 0 1, .none,
    .copy, .copy, .cmux 35 0 1,
    .cmux 15 0 2, .cmux 15 2 1, .none,
    .copy, .copy, .cmux 34 0 1,
    .cmux 14 0 2, .cmux 14 2 1, .none,
    .copy, .copy, .cmux 33 0 1,
    .cmux 13 2 1, .cmux 13 0 2, .none,
    .copy, .cmux 32 1 0, .none,
    .cmux 12 1 0, .none, .none]

def b17 : BitCircuit where
  maxInterState := 3
  nodes := [
    .cmux 37 0 1, .cmux 37 1 0, .none,
    .cmux 17 1 0, .cmux 17 0 1, .none,
    .copy, .copy, .cmux 36 0 1,
    .cmux 16 0 2, .cmux 16 2 1, .none,
    .copy, .copy, .cmux 35 0 1,
    .cmux 15 2 1, .cmux 15 0 2, .none,
    .copy, .copy, .cmux 34 1 0,
    .cmux 14 1 2, .cmux 14 2 0, .none,
    .copy, .copy, .cmux 33 0 1,
    .cmux 13 2 1, .cmux 13 0 2, .none,
    .copy, .cmux 32 1 0, .none,
    .cmux 12 1 0, .none, .none]

def b18 : BitCircuit where
  maxInterState := 3
  nodes := [
    .cmux 38 0 1, .cmux 38 1 0, .none,
    .cmux 18 0 1, .cmux 18 1 0, .none,
    .copy, .copy, .cmux 37 1 0,
    .cmux 17 2 0, .cmux 17 1 2, .none,
    .copy, .copy, .cmux 36 1 0,
    .cmux 16 2 0, .cmux 16 1 2, .none,
    .copy, .copy, .cmux 35 1 0,
    .cmux 15 1 2, .cmux 15 2 0, .none,
    .copy, .copy, .cmux 34 0 1,
    .cmux 14 2 1, .cmux 14 0 2, .none,
    .copy, .copy, .cmux 33 1 0,
    .cmux 13 1 2, .cmux 13 2 0, .none,
    .cmux 32 0 1, .copy, .none,
    .cmux 12 0 1, .none, .none]

def b19 : BitCircuit where
  maxInterState := 3
  nodes := [
    .cmux 39 0 1, .cmux 39 1 0, .none,
    .cmux 19 0 1, .cmux 19 1 0, .none,
    .copy, .copy, .cmux 38 1 0,
    .cmux 18 1 2, .cmux 18 2 0, .none,
    .copy, .copy, .cmux 37 0 1,
    .cmux 17 2 1, .cmux 17 0 2, .none,
    .copy, .copy, .cmux 36 1 0,
    .cmux 16 2 0, .cmux 16 1 2, .none,
    .copy, .copy, .cmux 35 1 0,
    .cmux 15 1 2, .cmux 15 2 0, .none,
    .copy, .copy, .cmux 34 0 1,
    .cmux 14 2 1, .cmux 14 0 2, .none,
    .copy, .copy, .cmux 33 1 0,
    .cmux 13 2 0, .cmux 13 1 2, .none,
    .copy, .cmux 32 1 0, .none,
    .cmux 12 1 0, .none, .none]

def b20 : BitCircuit where
  maxInterState := 3
  nodes := [
    .cmux 40 0 1, .cmux 40 1 0, .none,
    .cmux 20 1 0, .cmux 20 0 1, .none,
    .copy, .copy, .cmux 39 0 1,
    .cmux 19 2 1, .cmux 19 0 2, .none,
    .copy, .copy, .cmux 38 1 0,
    .cmux 18 2 0, .cmux 18 1 2, .none,
    .copy, .copy, .cmux 37 1 0,
    .cmux 17 1 2, .cmux 17 2 0, .none,
    .copy, .copy, .cmux 36 0 1,
    .cmux 16 2 1, .cmux 16 0 2, .none,
    .copy, .copy, .cmux 35 1 0,
    .cmux 15 1 2, .cmux 15 2 0, .none,
    .copy, .copy, .cmux 34 0 1,
    .cmux 14 2 1, .cmux 14 0 2, .none,
    .copy, .copy, .cmux 33 1 0,
    .cmux 13 1 2, .cmux 13 2 0, .none,
    .cmux 32 0 1, .copy, .none,
    .cmux 12 0 1, .none, .none]

def b21 : BitCircuit where
  maxInterState := 3
  nodes := [
    .cmux 41 1 0, .cmux 41 0 1, .none,
    .cmux 21 0 1, .cmux 21 1 0, .none,
    .copy, .copy, .cmux 40 0 1,
    .cmux 20 0 2, .cmux 20 2 1, .none,
    .copy, .copy, .cmux 39 0 1,
    .cmux 19 2 1, .cmux 19 0 2, .none,
    .copy, .copy, .cmux 38 1 0,
    .cmux 18 2 0, .cmux 18 1 2, .none,
    .copy, .copy, .cmux 37 1 0,
    .cmux 17 1 2, .cmux 17 2 0, .none,
    .copy, .copy, .cmux 36 0 1,
    .cmux 16 2 1, .cmux 16 0 2, .none,
    .copy, .copy, .cmux 35 1 0,
    .cmux 15 2 0, .cmux 15 1 2, .none,
    .copy, .copy, .cmux 34 1 0,
    .cmux 14 1 2, .cmux 14 2 0, .none,
    .copy, .copy, .cmux 33 0 1,
    .cmux 13 2 1, .cmux 13 0 2, .none,
    .copy, .cmux 32 1 0, .none,
    .cmux 12 1 0, .none, .none]

def b22 : BitCircuit where
  maxInterState := 3
  nodes := [
    .cmux 42 0 1, .cmux 42 1 0, .none,
    .cmux 22 0 1, .cmux 22 1 0, .none,
    .copy, .copy, .cmux 41 1 0,
    .cmux 21 2 0, .cmux 21 1 2, .none,
    .copy, .copy, .cmux 40 1 0,
    .cmux 20 1 2, .cmux 20 2 0, .none,
    .copy, .copy, .cmux 39 0 1,
    .cmux 19 0 2, .cmux 19 2 1, .none,
    .copy, .copy, .cmux 38 0 1,
    .cmux 18 0 2, .cmux 18 2 1, .none,
    .copy, .copy, .cmux 37 0 1,
    .cmux 17 2 1, .cmux 17 0 2, .none,
    .copy, .copy, .cmux 36 1 0,
    .cmux 16 2 0, .cmux 16 1 2, .none,
    .copy, .copy, .cmux 35 1 0,
    .cmux 15 1 2, .cmux 15 2 0, .none,
    .copy, .copy, .cmux 34 0 1,
    .cmux 14 2 1, .cmux 14 0 2, .none,
    .copy, .copy, .cmux 33 1 0,
    .cmux 13 1 2, .cmux 13 2 0, .none,
    .cmux 32 0 1, .copy, .none,
    .cmux 12 0 1, .none, .none]

def b23 : BitCircuit where
  maxInterState := 3
  nodes := [
    .cmux 43 1 0, .cmux 43 0 1, .none,
    .cmux 23 0 1, .cmux 23 1 0, .none,
    .copy, .copy, .cmux 42 0 1,
    .cmux 22 2 1, .cmux 22 0 2, .none,
    .copy, .copy, .cmux 41 1 0,
    .cmux 21 2 0, .cmux 21 1 2, .none,
    .copy, .copy, .cmux 40 1 0,
    .cmux 20 1 2, .cmux 20 2 0, .none,
    .copy, .copy, .cmux 39 0 1,
    .cmux 19 2 1, .cmux 19 0 2, .none,
    .copy, .copy, .cmux 38 1 0,
    .cmux 18 2 0, .cmux 18 1 2, .none,
    .copy, .copy, .cmux 37 1 0,
    .cmux 17 1 2, .cmux 17 2 0, .none,
    .copy, .copy, .cmux 36 0 1,
    .cmux 16 2 1, .cmux 16 0 2, .none,
    .copy, .copy, .cmux 35 1 0,
    .cmux 15 2 0, .cmux 15 1 2, .none,
    .copy, .copy, .cmux 34 1 0,
    .cmux 14 1 2, .cmux 14 2 0, .none,
    .copy, .copy, .cmux 33 0 1,
    .cmux 13 2 1, .cmux 13 0 2, .none,
    .copy, .cmux 32 1 0, .none,
    .cmux 12 1 0, .none, .none]

def b24 : BitCircuit where
  maxInterState := 3
  nodes := [
    .cmux 44 0 1, .cmux 44 1 0, .none,
    .cmux 24 0 1, .cmux 24 1 0, .none,
    .copy, .copy, .cmux 43 1 0,
    .cmux 23 1 2, .cmux 23 2 0, .none,
    .copy, .copy, .cmux 42 0 1,
    .cmux 22 0 2, .cmux 22 2 1, .none,
    .copy, .copy, .cmux 41 0 1,
    .cmux 21 0 2, .cmux 21 2 1, .none,
    .copy, .copy, .cmux 40 0 1,
    .cmux 20 0 2, .cmux 20 2 1, .none,
    .copy, .copy, .cmux 39 0 1,
    .cmux 19 0 2, .cmux 19 2 1, .none,
    .copy, .copy, .cmux 38 0 1,
    .cmux 18 2 1, .cmux 18 0 2, .none,
    .copy, .copy, .cmux 37 1 0,
    .cmux 17 1 2, .cmux 17 2 0, .none,
    .copy, .copy, .cmux 36 0 1,
    .cmux 16 0 2, .cmux 16 2 1, .none,
    .copy, .copy, .cmux 35 0 1,
    .cmux 15 0 2, .cmux 15 2 1, .none,
    .copy, .copy, .cmux 34 0 1,
    .cmux 14 2 1, .cmux 14 0 2, .none,
    .copy, .copy, .cmux 33 1 0,
    .cmux 13 2 0, .cmux 13 1 2, .none,
    .copy, .cmux 32 1 0, .none,
    .cmux 12 1 0, .none, .none]

def b25 : BitCircuit where
  maxInterState := 3
  nodes := [
    .cmux 45 0 1, .cmux 45 1 0, .none,
    .cmux 25 0 1, .cmux 25 1 0, .none,
    .copy, .copy, .cmux 44 1 0,
    .cmux 24 1 2, .cmux 24 2 0, .none,
    .copy, .copy, .cmux 43 0 1,
    .cmux 23 2 1, .cmux 23 0 2, .none,
    .copy, .copy, .cmux 42 1 0,
    .cmux 22 2 0, .cmux 22 1 2, .none,
    .copy, .copy, .cmux 41 1 0,
    .cmux 21 2 0, .cmux 21 1 2, .none,
    .copy, .copy, .cmux 40 1 0,
    .cmux 20 1 2, .cmux 20 2 0, .none,
    .copy, .copy, .cmux 39 0 1,
    .cmux 19 0 2, .cmux 19 2 1, .none,
    .copy, .copy, .cmux 38 0 1,
    .cmux 18 0 2, .cmux 18 2 1, .none,
    .copy, .copy, .cmux 37 0 1,
    .cmux 17 0 2, .cmux 17 2 1, .none,
    .copy, .copy, .cmux 36 0 1,
    .cmux 16 0 2, .cmux 16 2 1, .none,
    .copy, .copy, .cmux 35 0 1,
    .cmux 15 2 1, .cmux 15 0 2, .none,
    .copy, .copy, .cmux 34 1 0,
    .cmux 14 2 0, .cmux 14 1 2, .none,
    .copy, .copy, .cmux 33 1 0,
    .cmux 13 1 2, .cmux 13 2 0, .none,
    .cmux 32 0 1, .copy, .none,
    .cmux 12 0 1, .none, .none]

def b26 : BitCircuit where
  maxInterState := 3
  nodes := [
    .cmux 46 1 0, .cmux 46 0 1, .none,
    .cmux 26 0 1, .cmux 26 1 0, .none,
    .copy, .copy, .cmux 45 0 1,
    .cmux 25 2 1, .cmux 25 0 2, .none,
    .copy, .copy, .cmux 44 1 0,
    .cmux 24 1 2, .cmux 24 2 0, .none,
    .copy, .copy, .cmux 43 0 1,
    .cmux 23 0 2, .cmux 23 2 1, .none,
    .copy, .copy, .cmux 42 0 1,
    .cmux 22 2 1, .cmux 22 0 2, .none,
    .copy, .copy, .cmux 41 1 0,
    .cmux 21 1 2, .cmux 21 2 0, .none,
    .copy, .copy, .cmux 40 0 1,
    .cmux 20 2 1, .cmux 20 0 2, .none,
    .copy, .copy, .cmux 39 1 0,
    .cmux 19 2 0, .cmux 19 1 2, .none,
    .copy, .copy, .cmux 38 1 0,
    .cmux 18 1 2, .cmux 18 2 0, .none,
    .copy, .copy, .cmux 37 0 1,
    .cmux 17 0 2, .cmux 17 2 1, .none,
    .copy, .copy, .cmux 36 0 1,
    .cmux 16 2 1, .cmux 16 0 2, .none,
    .copy, .copy, .cmux 35 1 0,
    .cmux 15 1 2, .cmux 15 2 0, .none,
    .copy, .copy, .cmux 34 0 1,
    .cmux 14 2 1, .cmux 14 0 2, .none,
    .copy, .copy, .cmux 33 1 0,
    .cmux 13 1 2, .cmux 13 2 0, .none,
    .cmux 32 0 1, .copy, .none,
    .cmux 12 0 1, .none, .none]

def b27 : BitCircuit where
  maxInterState := 3
  nodes := [
    .cmux 47 0 1, .cmux 47 1 0, .none,
    .cmux 27 1 0, .cmux 27 0 1, .none,
    .copy, .copy, .cmux 46 0 1,
    .cmux 26 0 2, .cmux 26 2 1, .none,
    .copy, .copy, .cmux 45 0 1,
    .cmux 25 0 2, .cmux 25 2 1, .none,
    .copy, .copy, .cmux 44 0 1,
    .cmux 24 0 2, .cmux 24 2 1, .none,
    .copy, .copy, .cmux 43 0 1,
    .cmux 23 0 2, .cmux 23 2 1, .none,
    .copy, .copy, .cmux 42 0 1,
    .cmux 22 2 1, .cmux 22 0 2, .none,
    .copy, .copy, .cmux 41 1 0,
    .cmux 21 1 2, .cmux 21 2 0, .none,
    .copy, .copy, .cmux 40 0 1,
    .cmux 20 0 2, .cmux 20 2 1, .none,
    .copy, .copy, .cmux 39 0 1,
    .cmux 19 2 1, .cmux 19 0 2, .none,
    .copy, .copy, .cmux 38 1 0,
    .cmux 18 2 0, .cmux 18 1 2, .none,
    .copy, .copy, .cmux 37 1 0,
    .cmux 17 2 0, .cmux 17 1 2, .none,
    .copy, .copy, .cmux 36 1 0,
    .cmux 16 2 0, .cmux 16 1 2, .none,
    .copy, .copy, .cmux 35 1 0,
    .cmux 15 1 2, .cmux 15 2 0, .none,
    .copy, .copy, .cmux 34 0 1,
    .cmux 14 2 1, .cmux 14 0 2, .none,
    .copy, .copy, .cmux 33 1 0,
    .cmux 13 1 2, .cmux 13 2 0, .none,
    .cmux 32 0 1, .copy, .none,
    .cmux 12 0 1, .none, .none]

def b28 : BitCircuit where
  maxInterState := 3
  nodes := [
    .cmux 48 1 0, .cmux 48 0 1, .none,
    .cmux 28 0 1, .cmux 28 1 0, .none,
    .copy, .copy, .cmux 47 0 1,
    .cmux 27 2 1, .cmux 27 0 2, .none,
    .copy, .copy, .cmux 46 1 0,
    .cmux 26 1 2, .cmux 26 2 0, .none,
    .copy, .copy, .cmux 45 0 1,
    .cmux 25 0 2, .cmux 25 2 1, .none,
    .copy, .copy, .cmux 44 0 1,
    .cmux 24 2 1, .cmux 24 0 2, .none,
    .copy, .copy, .cmux 43 1 0,
    .cmux 23 1 2, .cmux 23 2 0, .none,
    .copy, .copy, .cmux 42 0 1,
    .cmux 22 0 2, .cmux 22 2 1, .none,
    .copy, .copy, .cmux 41 0 1,
    .cmux 21 0 2, .cmux 21 2 1, .none,
    .copy, .copy, .cmux 40 0 1,
    .cmux 20 0 2, .cmux 20 2 1, .none,
    .copy, .copy, .cmux 39 0 1,
    .cmux 19 0 2, .cmux 19 2 1, .none,
    .copy, .copy, .cmux 38 0 1,
    .cmux 18 0 2, .cmux 18 2 1, .none,
    .copy, .copy, .cmux 37 0 1,
    .cmux 17 2 1, .cmux 17 0 2, .none,
    .copy, .copy, .cmux 36 1 0,
    .cmux 16 1 2, .cmux 16 2 0, .none,
    .copy, .copy, .cmux 35 0 1,
    .cmux 15 2 1, .cmux 15 0 2, .none,
    .copy, .copy, .cmux 34 1 0,
    .cmux 14 1 2, .cmux 14 2 0, .none,
    .copy, .copy, .cmux 33 0 1,
    .cmux 13 2 1, .cmux 13 0 2, .none,
    .copy, .cmux 32 1 0, .none,
    .cmux 12 1 0, .none, .none]

def b29 : BitCircuit where
  maxInterState := 3
  nodes := [
    .cmux 49 0 1, .cmux 49 1 0, .none,
    .cmux 29 0 1, .cmux 29 1 0, .none,
    .copy, .copy, .cmux 48 1 0,
    .cmux 28 2 0, .cmux 28 1 2, .none,
    .copy, .copy, .cmux 47 1 0,
    .cmux 27 2 0, .cmux 27 1 2, .none,
    .copy, .copy, .cmux 46 1 0,
    .cmux 26 1 2, .cmux 26 2 0, .none,
    .copy, .copy, .cmux 45 0 1,
    .cmux 25 0 2, .cmux 25 2 1, .none,
    .copy, .copy, .cmux 44 0 1,
    .cmux 24 0 2, .cmux 24 2 1, .none,
    .copy, .copy, .cmux 43 0 1,
    .cmux 23 0 2, .cmux 23 2 1, .none,
    .copy, .copy, .cmux 42 0 1,
    .cmux 22 2 1, .cmux 22 0 2, .none,
    .copy, .copy, .cmux 41 1 0,
    .cmux 21 2 0, .cmux 21 1 2, .none,
    .copy, .copy, .cmux 40 1 0,
    .cmux 20 2 0, .cmux 20 1 2, .none,
    .copy, .copy, .cmux 39 1 0,
    .cmux 19 1 2, .cmux 19 2 0, .none,
    .copy, .copy, .cmux 38 0 1,
    .cmux 18 0 2, .cmux 18 2 1, .none,
    .copy, .copy, .cmux 37 0 1,
    .cmux 17 0 2, .cmux 17 2 1, .none,
    .copy, .copy, .cmux 36 0 1,
    .cmux 16 0 2, .cmux 16 2 1, .none,
    .copy, .copy, .cmux 35 0 1,
    .cmux 15 0 2, .cmux 15 2 1, .none,
    .copy, .copy, .cmux 34 0 1,
    .cmux 14 2 1, .cmux 14 0 2, .none,
    .copy, .copy, .cmux 33 1 0,
    .cmux 13 2 0, .cmux 13 1 2, .none,
    .copy, .cmux 32 1 0, .none,
    .cmux 12 1 0, .none, .none]

def b30 : BitCircuit where
  maxInterState := 3
  nodes := [
    .cmux 50 0 1, .cmux 50 1 0, .none,
    .cmux 30 1 0, .cmux 30 0 1, .none,
    .copy, .copy, .cmux 49 0 1,
    .cmux 29 2 1, .cmux 29 0 2, .none,
    .copy, .copy, .cmux 48 1 0,
    .cmux 28 2 0, .cmux 28 1 2, .none,
    .copy, .copy, .cmux 47 1 0,
    .cmux 27 2 0, .cmux 27 1 2, .none,
    .copy, .copy, .cmux 46 1 0,
    .cmux 26 2 0, .cmux 26 1 2, .none,
    .copy, .copy, .cmux 45 1 0,
    .cmux 25 2 0, .cmux 25 1 2, .none,
    .copy, .copy, .cmux 44 1 0,
    .cmux 24 2 0, .cmux 24 1 2, .none,
    .copy, .copy, .cmux 43 1 0,
    .cmux 23 2 0, .cmux 23 1 2, .none,
    .copy, .copy, .cmux 42 1 0,
    .cmux 22 1 2, .cmux 22 2 0, .none,
    .copy, .copy, .cmux 41 0 1,
    .cmux 21 2 1, .cmux 21 0 2, .none,
    .copy, .copy, .cmux 40 1 0,
    .cmux 20 2 0, .cmux 20 1 2, .none,
    .copy, .copy, .cmux 39 1 0,
    .cmux 19 1 2, .cmux 19 2 0, .none,
    .copy, .copy, .cmux 38 0 1,
    .cmux 18 0 2, .cmux 18 2 1, .none,
    .copy, .copy, .cmux 37 0 1,
    .cmux 17 2 1, .cmux 17 0 2, .none,
    .copy, .copy, .cmux 36 1 0,
    .cmux 16 1 2, .cmux 16 2 0, .none,
    .copy, .copy, .cmux 35 0 1,
    .cmux 15 0 2, .cmux 15 2 1, .none,
    .copy, .copy, .cmux 34 0 1,
    .cmux 14 0 2, .cmux 14 2 1, .none,
    .copy, .copy, .cmux 33 0 1,
    .cmux 13 0 2, .cmux 13 2 1, .none,
    .cmux 32 0 1, .copy, .none,
    .cmux 12 0 1, .none, .none]

def b31 : BitCircuit where
  maxInterState := 3
  nodes := [
    .cmux 51 1 0, .cmux 51 0 1, .none,
    .cmux 31 0 1, .cmux 31 1 0, .none,
    .copy, .copy, .cmux 50 0 1,
    .cmux 30 2 1, .cmux 30 0 2, .none,
    .copy, .copy, .cmux 49 1 0,
    .cmux 29 1 2, .cmux 29 2 0, .none,
    .copy, .copy, .cmux 48 0 1,
    .cmux 28 0 2, .cmux 28 2 1, .none,
    .copy, .copy, .cmux 47 0 1,
    .cmux 27 0 2, .cmux 27 2 1, .none,
    .copy, .copy, .cmux 46 0 1,
    .cmux 26 2 1, .cmux 26 0 2, .none,
    .copy, .copy, .cmux 45 1 0,
    .cmux 25 1 2, .cmux 25 2 0, .none,
    .copy, .copy, .cmux 44 0 1,
    .cmux 24 0 2, .cmux 24 2 1, .none,
    .copy, .copy, .cmux 43 0 1,
    .cmux 23 0 2, .cmux 23 2 1, .none,
    .copy, .copy, .cmux 42 0 1,
    .cmux 22 0 2, .cmux 22 2 1, .none,
    .copy, .copy, .cmux 41 0 1,
    .cmux 21 0 2, .cmux 21 2 1, .none,
    .copy, .copy, .cmux 40 0 1,
    .cmux 20 2 1, .cmux 20 0 2, .none,
    .copy, .copy, .cmux 39 1 0,
    .cmux 19 1 2, .cmux 19 2 0, .none,
    .copy, .copy, .cmux 38 0 1,
    .cmux 18 2 1, .cmux 18 0 2, .none,
    .copy, .copy, .cmux 37 1 0,
    .cmux 17 1 2, .cmux 17 2 0, .none,
    .copy, .copy, .cmux 36 0 1,
    .cmux 16 0 2, .cmux 16 2 1, .none,
    .copy, .copy, .cmux 35 0 1,
    .cmux 15 0 2, .cmux 15 2 1, .none,
    .copy, .copy, .cmux 34 0 1,
    .cmux 14 0 2, .cmux 14 2 1, .none,
    .copy, .copy, .cmux 33 0 1,
    .cmux 13 2 1, .cmux 13 0 2, .none,
    .copy, .cmux 32 1 0, .none,
    .cmux 12 1 0, .none, .none]

/-- `OUTPUT_CIRCUITS`. -/
def circuits : List BitCircuit :=
  [b0, b1, b2, b3, b4, b5, b6, b7,
   b8, b9, b10, b11, b12, b13, b14, b15,
   b16, b17, b18, b19, b20, b21, b22, b23,
   b24, b25, b26, b27, b28, b29, b30, b31]

end Verif.Model.Circuits.Auipc
