import Verif.Model.Bdd
/- Generated by tools/gen_circuits.py from fhevm/src/codegen/codegen_ram_offset.rs:144-4104
   (`OUTPUT_CIRCUITS`); node for node, same order, same widths. -/
namespace Verif.Model.Circuits.RamOffset
open Verif.Model

/-- `INPUT_BITS` of codegen_ram_offset.rs. -/
def inputBits : Nat := 64

def b0 : BitCircuit where
  maxInterState := 2
  nodes := [
    .cmux 32 0 1, .cmux 32 1 0,
    .cmux 0 0 1, .none]

def b1 : BitCircuit where
  maxInterState := 2
  nodes := [
    .cmux 33 1 0, .cmux 33 0 1,
    .cmux 1 0 1, .cmux 1 1 0,
    .cmux 32 0 1, .copy,
    .cmux 0 0 1, .none]

def b2 : BitCircuit where
  maxInterState := 3
  nodes := [
    .cmux 34 0 1, .cmux 34 1 0, .none,
    .cmux 2 0 1, .cmux 2 1 0, .none,
    .copy, .copy, .cmux 33 1 0,
    .cmux 1 1 2, .cmux 1 2 0, .none,
    .cmux 32 0 1, .copy, .none,
    .cmux 0 0 1, .none, .none]

def b3 : BitCircuit where
  maxInterState := 3
  nodes := [
    .cmux 35 0 1, .cmux 35 1 0, .none,
    .cmux 3 0 1, .cmux 3 1 0, .none,
    .copy, .copy, .cmux 34 1 0,
    .cmux 2 1 2, .cmux 2 2 0, .none,
    .copy, .copy, .cmux 33 0 1,
    .cmux 1 0 2, .cmux 1 2 1, .none,
    .cmux 32 0 1, .copy, .none,
    .cmux 0 0 1, .none, .none]

def b4 : BitCircuit where
  maxInterState := 3
  nodes := [
    .cmux 36 0 1, .cmux 36 1 0, .none,
    .cmux 4 1 0, .cmux 4 0 1, .none,
    .copy, .copy, .cmux 35 0 1,
    .cmux 3 2 1, .cmux 3 0 2, .none,
    .copy, .copy, .cmux 34 1 0,
    .cmux 2 2 0, .cmux 2 1 2, .none,
    .copy, .copy, .cmux 33 1 0,
    .cmux 1 2 0, .cmux 1 1 2, .none,
    .copy, .cmux 32 1 0, .none,
    .cmux 0 1 0, .none, .none]

def b5 : BitCircuit where
  maxInterState := 3
  nodes := [
    .cmux 37 0 1, .cmux 37 1 0, .none,
    .cmux 5 0 1, .cmux 5 1 0, .none,
    .copy, .copy, .cmux 36 1 0,
    .cmux 4 1 2, .cmux 4 2 0, .none,
    .copy, .copy, .cmux 35 0 1,
    .cmux 3 2 1, .cmux 3 0 2, .none,
    .copy, .copy, .cmux 34 1 0,
    .cmux 2 2 0, .cmux 2 1 2, .none,
    .copy, .copy, .cmux 33 1 0,
    .cmux 1 2 0, .cmux 1 1 2, .none,
    .copy, .cmux 32 1 0, .none,
    .cmux 0 1 0, .none, .none]

def b6 : BitCircuit where
  maxInterState := 3
  nodes := [
    .cmux 38 0 1, .cmux 38 1 0, .none,
    .cmux 6 1 0, .cmux 6 0 1, .none,
    .copy, .copy, .cmux 37 0 1,
    .cmux 5 2 1, .cmux 5 0 2, .none,
    .copy, .copy, .cmux 36 1 0,
    .cmux 4 2 0, .cmux 4 1 2, .none,
    .copy, .copy, .cmux 35 1 0,
    .cmux 3 2 0, .cmux 3 1 2, .none,
    .copy, .copy, .cmux 34 1 0,
    .cmux 2 2 0, .cmux 2 1 2, .none,
    .copy, .copy, .cmux 33 1 0,
    .cmux 1 2 0, .cmux 1 1 2, .none,
    .copy, .cmux 32 1 0, .none,
    .cmux 0 1 0, .none, .none]

def b7 : BitCircuit where
  maxInterState := 3
  nodes := [
    .cmux 39 0 1, .cmux 39 1 0, .none,
    .cmux 7 0 1, .cmux 7 1 0, .none,
    .copy, .copy, .cmux 38 1 0,
    .cmux 6 2 0, .cmux 6 1 2, .none,
    .copy, .copy, .cmux 37 1 0,
    .cmux 5 2 0, .cmux 5 1 2, .none,
    .copy, .copy, .cmux 36 1 0,
    .cmux 4 1 2, .cmux 4 2 0, .none,
    .copy, .copy, .cmux 35 0 1,
    .cmux 3 2 1, .cmux 3 0 2, .none,
    .copy, .copy, .cmux 34 1 0,
    .cmux 2 1 2, .cmux 2 2 0, .none,
    .copy, .copy, .cmux 33 0 1,
    .cmux 1 0 2, .cmux 1 2 1, .none,
    .cmux 32 0 1, .copy, .none,
    .cmux 0 0 1, .none, .none]

def b8 : BitCircuit where
  maxInterState := 3
  nodes := [
    .cmux 40 1 0, .cmux 40 0 1, .none,
    .cmux 8 0 1, .cmux 8 1 0, .none,
    .copy, .copy, .cmux 39 0 1,
    .cmux 7 0 2, .cmux 7 2 1, .none,
    .copy, .copy, .cmux 38 0 1,
    .cmux 6 0 2, .cmux 6 2 1, .none,
    .copy, .copy, .cmux 37 0 1,
    .cmux 5 0 2, .cmux 5 2 1, .none,
    .copy, .copy, .cmux 36 0 1,
    .cmux 4 2 1, .cmux 4 0 2, .none,
    .copy, .copy, .cmux 35 1 0,
    .cmux 3 1 2, .cmux 3 2 0, .none,
    .copy, .copy, .cmux 34 0 1,
    .cmux 2 0 2, .cmux 2 2 1, .none,
    .copy, .copy, .cmux 33 0 1,
    .cmux 1 0 2, .cmux 1 2 1, .none,
    .cmux 32 0 1, .copy, .none,
    .cmux 0 0 1, .none, .none]

def b9 : BitCircuit where
  maxInterState := 3
  nodes := [
    .cmux 41 0 1, .cmux 41 1 0, .none,
    .cmux 9 1 0, .cmux 9 0 1, .none,
    .copy, .copy, .cmux 40 0 1,
    .cmux 8 0 2, .cmux 8 2 1, .none,
    .copy, .copy, .cmux 39 0 1,
    .cmux 7 0 2, .cmux 7 2 1, .none,
    .copy, .copy, .cmux 38 0 1,
    .cmux 6 0 2, .cmux 6 2 1, .none,
    .copy, .copy, .cmux 37 0 1,
    .cmux 5 0 2, .cmux 5 2 1, .none,
    .copy, .copy, .cmux 36 0 1,
    .cmux 4 2 1, .cmux 4 0 2, .none,
    .copy, .copy, .cmux 35 1 0,
    .cmux 3 2 0, .cmux 3 1 2, .none,
    .copy, .copy, .cmux 34 1 0,
    .cmux 2 1 2, .cmux 2 2 0, .none,
    .copy, .copy, .cmux 33 0 1,
    .cmux 1 2 1, .cmux 1 0 2, .none,
    .copy, .cmux 32 1 0, .none,
    .cmux 0 1 0, .none, .none]

def b10 : BitCircuit where
  maxInterState := 3
  nodes := [
    .cmux 42 0 1, .cmux 42 1 0, .none,
    .cmux 10 0 1, .cmux 10 1 0, .none,
    .copy, .copy, .cmux 41 1 0,
    .cmux 9 2 0, .cmux 9 1 2, .none,
    .copy, .copy, .cmux 40 1 0,
    .cmux 8 1 2, .cmux 8 2 0, .none,
    .copy, .copy, .cmux 39 0 1,
    .cmux 7 2 1, .cmux 7 0 2, .none,
    .copy, .copy, .cmux 38 1 0,
    .cmux 6 1 2, .cmux 6 2 0, .none,
    .copy, .copy, .cmux 37 0 1,
    .cmux 5 0 2, .cmux 5 2 1, .none,
    .copy, .copy, .cmux 36 0 1,
    .cmux 4 2 1, .cmux 4 0 2, .none,
    .copy, .copy, .cmux 35 1 0,
    .cmux 3 1 2, .cmux 3 2 0, .none,
    .copy, .copy, .cmux 34 0 1,
    .cmux 2 0 2, .cmux 2 2 1, .none,
    .copy, .copy, .cmux 33 0 1,
    .cmux 1 0 2, .cmux 1 2 1, .none,
    .cmux 32 0 1, .copy, .none,
    .cmux 0 0 1, .none, .none]

def b11 : BitCircuit where
  maxInterState := 3
  nodes := [
    .cmux 43 0 1, .cmux 43 1 0, .none,
    .cmux 11 0 1, .cmux 11 1 0, .none,
    .copy, .copy, .cmux 42 1 0,
    .cmux 10 2 0, .cmux 10 1 2, .none,
    .copy, .copy, .cmux 41 1 0,
    .cmux 9 1 2, .cmux 9 2 0, .none,
    .copy, .copy, .cmux 40 0 1,
    .cmux 8 2 1, .cmux 8 0 2, .none,
    .copy, .copy, .cmux 39 1 0,
    .cmux 7 1 2, .cmux 7 2 0, .none,
    .copy, .copy, .cmux 38 0 1,
    .cmux 6 2 1, .cmux 6 0 2, .none,
    .copy, .copy, .cmux 37 1 0,
    .cmux 5 1 2, .cmux 5 2 0, .none,
    .copy, .copy, .cmux 36 0 1,
    .cmux 4 2 1, .cmux 4 0 2, .none,
    .copy, .copy, .cmux 35 1 0,
    .cmux 3 1 2, .cmux 3 2 0, .none,
    .copy, .copy, .cmux 34 0 1,
    .cmux 2 2 1, .cmux 2 0 2, .none,
    .copy, .copy, .cmux 33 1 0,
    .cmux 1 2 0, .cmux 1 1 2, .none,
    .copy, .cmux 32 1 0, .none,
    .cmux 0 1 0, .none, .none]

def b12 : BitCircuit where
  maxInterState := 3
  nodes := [
    .cmux 44 0 1, .cmux 44 1 0, .none,
    .cmux 12 0 1, .cmux 12 1 0, .none,
    .copy, .copy, .cmux 43 1 0,
    .cmux 11 2 0, .cmux 11 1 2, .none,
    .copy, .copy, .cmux 42 1 0,
    .cmux 10 1 2, .cmux 10 2 0, .none,
    .copy, .copy, .cmux 41 0 1,
    .cmux 9 0 2, .cmux 9 2 1, .none,
    .copy, .copy, .cmux 40 0 1,
    .cmux 8 2 1, .cmux 8 0 2, .none,
    .copy, .copy, .cmux 39 1 0,
    .cmux 7 2 0, .cmux 7 1 2, .none,
    .copy, .copy, .cmux 38 1 0,
    .cmux 6 1 2, .cmux 6 2 0, .none,
    .copy, .copy, .cmux 37 0 1,
    .cmux 5 2 1, .cmux 5 0 2, .none,
    .copy, .copy, .cmux 36 1 0,
    .cmux 4 2 0, .cmux 4 1 2, .none,
    .copy, .copy, .cmux 35 1 0,
    .cmux 3 1 2, .cmux 3 2 0, .none,
    .copy, .copy, .cmux 34 0 1,
    .cmux 2 2 1, .cmux 2 0 2, .none,
    .copy, .copy, .cmux 33 1 0,
    .cmux 1 1 2, .cmux 1 2 0, .none,
    .cmux 32 0 1, .copy, .none,
    .cmux 0 0 1, .none, .none]

def b13 : BitCircuit where
  maxInterState := 3
  nodes := [
    .cmux 45 0 1, .cmux 45 1 0, .none,
    .cmux 13 0 1, .cmux 13 1 0, .none,
    .copy, .copy, .cmux 44 1 0,
    .cmux 12 2 0, .cmux 12 1 2, .none,
    .copy, .copy, .cmux 43 1 0,
    .cmux 11 1 2, .cmux 11 2 0, .none,
    .copy, .copy, .cmux 42 0 1,
    .cmux 10 0 2, .cmux 10 2 1, .none,
    .copy, .copy, .cmux 41 0 1,
    .cmux 9 0 2, .cmux 9 2 1, .none,
    .copy, .copy, .cmux 40 0 1,
    .cmux 8 0 2, .cmux 8 2 1, .none,
    .copy, .copy, .cmux 39 0 1,
    .cmux 7 0 2, .cmux 7 2 1, .none,
    .copy, .copy, .cmux 38 0 1,
    .cmux 6 0 2, .cmux 6 2 1, .none,
    .copy, .copy, .cmux 37 0 1,
    .cmux 5 0 2, .cmux 5 2 1, .none,
    .copy, .copy, .cmux 36 0 1,
    .cmux 4 0 2, .cmux 4 2 1, .none,
    .copy, .copy, .cmux 35 0 1,
    .cmux 3 0 2, .cmux 3 2 1, .none,
    .copy, .copy, .cmux 34 0 1,
    .cmux 2 0 2, .cmux 2 2 1, .none,
    .copy, .copy, .cmux 33 0 1,
    .cmux 1 2 1, .cmux 1 0 2, .none,
    .copy, .cmux 32 1 0, .none,
    .cmux 0 1 0, .none, .none]

def b14 : BitCircuit where
  maxInterState := 3
  nodes := [
    .cmux 46 1 0, .cmux 46 0 1, .none,
    .cmux 14 1 0, .cmux 14 0 1, .none,
    .copy, .copy, .cmux 45 1 0,
    .cmux 13 1 2, .cmux 13 2 0, .none,
    .copy, .copy, .cmux 44 0 1,
    .cmux 12 0 2, .cmux 12 2 1, .none,
    .copy, .copy, .cmux 43 0 1,
    .cmux 11 2 1, .cmux 11 0 2, .none,
    .copy, .copy, .cmux 42 1 0,
    .cmux 10 2 0, .cmux 10 1 2, .none,
    .copy, .copy, .cmux 41 1 0,
    .cmux 9 2 0, .cmux 9 1 2, .none,
    .copy, .copy, .cmux 40 1 0,
    .cmux 8 1 2, .cmux 8 2 0, .none,
    .copy, .copy, .cmux 39 0 1,
    .cmux 7 2 1, .cmux 7 0 2, .none,
    .copy, .copy, .cmux 38 1 0,
    .cmux 6 1 2, .cmux 6 2 0, .none,
    .copy, .copy, .cmux 37 0 1,
    .cmux 5 2 1, .cmux 5 0 2, .none,
    .copy, .copy, .cmux 36 1 0,
    .cmux 4 2 0, .cmux 4 1 2, .none,
    .copy, .copy, .cmux 35 1 0,
    .cmux 3 2 0, .cmux 3 1 2, .none,
    .copy, .copy, .cmux 34 1 0,
    .cmux 2 2 0, .cmux 2 1 2, .none,
    .copy, .copy, .cmux 33 1 0,
    .cmux 1 1 2, .cmux 1 2 0, .none,
    .cmux 32 0 1, .copy, .none,
    .cmux 0 0 1, .none, .none]

def b15 : BitCircuit where
  maxInterState := 3
  nodes := [
    .cmux 47 1 0, .cmux 47 0 1, .none,
    .cmux 15 0 1, .cmux 15 1 0, .none,
    .copy, .copy, .cmux 46 0 1,
    .cmux 14 2 1, .cmux 14 0 2, .none,
    .copy, .copy, .cmux 45 1 0,
    .cmux 13 1 2, .cmux 13 2 0, .none,
    .copy, .copy, .cmux 44 0 1,
    .cmux 12 2 1, .cmux 12 0 2, .none,
    .copy, .copy, .cmux 43 1 0,
    .cmux 11 1 2, .cmux 11 2 0, .none,
    .copy, .copy, .cmux 42 0 1,
    .cmux 10 0 2, .cmux 10 2 1, .none,
    .copy, .copy, .cmux 41 0 1,
    .cmux 9 2 1, .cmux 9 0 2, .none,
    .copy, .copy, .cmux 40 1 0,
    .cmux 8 1 2, .cmux 8 2 0, .none,
    .copy, .copy, .cmux 39 0 1,
    .cmux 7 2 1, .cmux 7 0 2, .none,
    .copy, .copy, .cmux 38 1 0,
    .cmux 6 1 2, .cmux 6 2 0, .none,
    .copy, .copy, .cmux 37 0 1,
    .cmux 5 2 1, .cmux 5 0 2, .none,
    .copy, .copy, .cmux 36 1 0,
    .cmux 4 1 2, .cmux 4 2 0, .none,
    .copy, .copy, .cmux 35 0 1,
    .cmux 3 2 1, .cmux 3 0 2, .none,
    .copy, .copy, .cmux 34 1 0,
    .cmux 2 2 0, .cmux 2 1 2, .none,
    .copy, .copy, .cmux 33 1 0,
    .cmux 1 1 2, .cmux 1 2 0, .none,
    .cmux 32 0 1, .copy, .none,
    .cmux 0 0 1, .none, .none]

def b16 : BitCircuit where
  maxInterState := 3
  nodes := [
    .cmux 48 1 0, .cmux 48 0 1, .none,
    .cmux 16 0 1, .cmux 16 1 0, .none,
    .copy, .copy, .cmux 47 0 1,
    .cmux 15 2 1, .cmux 15 0 2, .none,
    .copy, .copy, .cmux 46 1 0,
    .cmux 14 2 0, .cmux 14 1 2, .none,
    .copy, .copy, .cmux 45 1 0,
    .cmux 13 1 2, .cmux 13 2 0, .none,
    .copy, .copy, .cmux 44 0 1,
    .cmux 12 0 2, .cmux 12 2 1, .none,
    .copy, .copy, .cmux 43 0 1,
    .cmux 11 0 2, .cmux 11 2 1, .none,
    .copy, .copy, .cmux 42 0 1,
    .cmux 10 2 1, .cmux 10 0 2, .none,
    .copy, .copy, .cmux 41 1 0,
    .cmux 9 1 2, .cmux 9 2 0, .none,
    .copy, .copy, .cmux 40 0 1,
    .cmux 8 0 2, .cmux 8 2 1, .none,
    .copy, .copy, .cmux 39 0 1,
    .cmux 7 2 1, .cmux 7 0 2, .none,
    .copy, .copy, .cmux 38 1 0,
    .cmux 6 2 0, .cmux 6 1 2, .none,
    .copy, .copy, .cmux 37 1 0,
    .cmux 5 2 0, .cmux 5 1 2, .none,
    .copy, .copy, .cmux 36 1 0,
    .cmux 4 2 0, .cmux 4 1 2, .none,
    .copy, .copy, .cmux 35 1 0,
    .cmux 3 1 2, .cmux 3 2 0, .none,
    .copy, .copy, .cmux 34 0 1,
    .cmux 2 0 2, .cmux 2 2 1, .none,
    .copy, .copy, .cmux 33 0 1,
    .cmux 1 0 2, .cmux 1 2 1, .none,
    .cmux 32 0 1, .copy, .none,
    .cmux 0 0 1, .none, .none]

def b17 : BitCircuit where
  maxInterState := 3
  nodes := [
    .cmux 49 1 0, .cmux 49 0 1, .none,
    .cmux 17 1 0, .cmux 17 0 1, .none,
    .copy, .copy, .cmux 48 1 0,
    .cmux 16 1 2, .cmux 16 2 0, .none,
    .copy, .copy, .cmux 47 0 1,
    .cmux 15 2 1, .cmux 15 0 2, .none,
    .copy, .copy, .cmux 46 1 0,
    .cmux 14 2 0, .cmux 14 1 2, .none,
    .copy, .copy, .cmux 45 1 0,
    .cmux 13 1 2, .cmux 13 2 0, .none,
    .copy, .copy, .cmux 44 0 1,
    .cmux 12 0 2, .cmux 12 2 1, .none,
    .copy, .copy, .cmux 43 0 1,
    .cmux 11 0 2, .cmux 11 2 1, .none,
    .copy, .copy, .cmux 42 0 1,
    .cmux 10 0 2, .cmux 10 2 1, .none,
    .copy, .copy, .cmux 41 0 1,
    .cmux 9 2 1, .cmux 9 0 2, .none,
    .copy, .copy, .cmux 40 1 0,
    .cmux 8 1 2, .cmux 8 2 0, .none,
    .copy, .copy, .cmux 39 0 1,
    .cmux 7 2 1, .cmux 7 0 2, .none,
    .copy, .copy, .cmux 38 1 0,
    .cmux 6 1 2, .cmux 6 2 0, .none,
    .copy, .copy, .cmux 37 0 1,
    .cmux 5 2 1, .cmux 5 0 2, .none,
    .copy, .copy, .cmux 36 1 0,
    .cmux 4 2 0, .cmux 4 1 2, .none,
    .copy, .copy, .cmux 35 1 0,
    .cmux 3 1 2, .cmux 3 2 0, .none,
    .copy, .copy, .cmux 34 0 1,
    .cmux 2 0 2, .cmux 2 2 1, .none,
    .copy, .copy, .cmux 33 0 1,
    .cmux 1 2 1, .cmux 1 0 2, .none,
    .copy, .cmux 32 1 0, .none,
    .cmux 0 1 0, .none, .none]

def b18 : BitCircuit where
  maxInterState := 3
  nodes := [
    .cmux 50 0 1, .cmux 50 1 0, .none,
    .cmux 18 1 0, .cmux 18 0 1, .none,
    .copy, .copy, .cmux 49 1 0,
    .cmux 17 1 2, .cmux 17 2 0, .none,
    .copy, .copy, .cmux 48 0 1,
    .cmux 16 0 2, .cmux 16 2 1, .none,
    .copy, .copy, .cmux 47 0 1,
    .cmux 15 0 2, .cmux 15 2 1, .none,
    .copy, .copy, .cmux 46 0 1,
    .cmux 14 2 1, .cmux 14 0 2, .none,
    .copy, .copy, .cmux 45 1 0,
    .cmux 13 1 2, .cmux 13 2 0, .none,
    .copy, .copy, .cmux 44 0 1,
    .cmux 12 2 1, .cmux 12 0 2, .none,
    .copy, .copy, .cmux 43 1 0,
    .cmux 11 1 2, .cmux 11 2 0, .none,
    .copy, .copy, .cmux 42 0 1,
    .cmux 10 0 2, .cmux 10 2 1, .none,
    .copy, .copy, .cmux 41 0 1,
    .cmux 9 0 2, .cmux 9 2 1, .none,
    .copy, .copy, .cmux 40 0 1,
    .cmux 8 2 1, .cmux 8 0 2, .none,
    .copy, .copy, .cmux 39 1 0,
    .cmux 7 2 0, .cmux 7 1 2, .none,
    .copy, .copy, .cmux 38 1 0,
    .cmux 6 2 0, .cmux 6 1 2, .none,
    .copy, .copy, .cmux 37 1 0,
    .cmux 5 2 0, .cmux 5 1 2, .none,
    .copy, .copy, .cmux 36 1 0,
    .cmux 4 1 2, .cmux 4 2 0, .none,
    .copy, .copy, .cmux 35 0 1,
    .cmux 3 0 2, .cmux 3 2 1, .none,
    .copy, .copy, .cmux 34 0 1,
    .cmux 2 0 2, .cmux 2 2 1, .none,
    .copy, .copy, .cmux 33 0 1,
    .cmux 1 0 2, .cmux 1 2 1, .none,
    .cmux 32 0 1, .copy, .none,
    .cmux 0 0 1, .none, .none]

def b19 : BitCircuit where
  maxInterState := 3
  nodes := [
    .cmux 51 0 1, .cmux 51 1 0, .none,
    .cmux 19 1 0, .cmux 19 0 1, .none,
    .cmux 50 1 0, .copy, .cmux 50 0 1,
    .cmux 18 1 0, .cmux 18 2 1, .none,
    .copy, .copy, .cmux 49 1 0,
    .cmux 17 1 2, .cmux 17 2 0, .none,
    .copy, .copy, .cmux 48 0 1,
    .cmux 16 0 2, .cmux 16 2 1, .none,
    .copy, .copy, .cmux 47 0 1,
    .cmux 15 0 2, .cmux 15 2 1, .none,
    .copy, .copy, .cmux 46 0 1,
    .cmux 14 0 2, .cmux 14 2 1, .none,
    .copy, .copy, .cmux 45 0 1,
    .cmux 13 2 1, .cmux 13 0 2, .none,
    .copy, .copy, .cmux 44 1 0,
    .cmux 12 1 2, .cmux 12 2 0, .none,
    .copy, .copy, .cmux 43 0 1,
    .cmux 11 2 1, .cmux 11 0 2, .none,
    .copy, .copy, .cmux 42 1 0,
    .cmux 10 1 2, .cmux 10 2 0, .none,
    .copy, .copy, .cmux 41 0 1,
    .cmux 9 2 1, .cmux 9 0 2, .none,
    .copy, .copy, .cmux 40 1 0,
    .cmux 8 1 2, .cmux 8 2 0, .none,
    .copy, .copy, .cmux 39 0 1,
    .cmux 7 2 1, .cmux 7 0 2, .none,
    .copy, .copy, .cmux 38 1 0,
    .cmux 6 2 0, .cmux 6 1 2, .none,
    .copy, .copy, .cmux 37 1 0,
    .cmux 5 2 0, .cmux 5 1 2, .none,
    .copy, .copy, .cmux 36 1 0,
    .cmux 4 2 0, .cmux 4 1 2, .none,
    .copy, .copy, .cmux 35 1 0,
    .cmux 3 2 0, .cmux 3 1 2, .none,
    .copy, .copy, .cmux 34 1 0,
    .cmux 2 1 2, .cmux 2 2 0, .none,
    .copy, .copy, .cmux 33 0 1,
    .cmux 1 0 2, .cmux 1 2 1, .none,
    .cmux 32 0 1, .copy, .none,
    .cmux 0 0 1, .none, .none]

def b20 : BitCircuit where
  maxInterState := 4
  nodes := [
    .cmux 52 0 1, .cmux 52 1 0, .none, .none,
    .cmux 20 0 1, .cmux 20 1 0, .none, .none,
    .copy, .copy, .cmux 51 1 0, .cmux 51 0 1,
    .cmux 19 2 0, .cmux 19 0 3, .cmux 19 1 2, .none,
    .copy, .cmux 50 2 0, .cmux 50 0 1, .none,
    .cmux 18 1 0, .cmux 18 0 2, .none, .none,
    .copy, .copy, .cmux 49 0 1, .none,
    .cmux 17 2 1, .cmux 17 0 2, .none, .none,
    .copy, .copy, .cmux 48 1 0, .none,
    .cmux 16 1 2, .cmux 16 2 0, .none, .none,
    .copy, .copy, .cmux 47 0 1, .none,
    .cmux 15 0 2, .cmux 15 2 1, .none, .none,
    .copy, .copy, .cmux 46 0 1, .none,
    .cmux 14 2 1, .cmux 14 0 2, .none, .none,
    .copy, .copy, .cmux 45 1 0, .none,
    .cmux 13 2 0, .cmux 13 1 2, .none, .none,
    .copy, .copy, .cmux 44 1 0, .none,
    .cmux 12 2 0, .cmux 12 1 2, .none, .none,
    .copy, .copy, .cmux 43 1 0, .none,
    .cmux 11 1 2, .cmux 11 2 0, .none, .none,
    .copy, .copy, .cmux 42 0 1, .none,
    .cmux 10 0 2, .cmux 10 2 1, .none, .none,
    .copy, .copy, .cmux 41 0 1, .none,
    .cmux 9 0 2, .cmux 9 2 1, .none, .none,
    .copy, .copy, .cmux 40 0 1, .none,
    .cmux 8 2 1, .cmux 8 0 2, .none, .none,
    .copy, .copy, .cmux 39 1 0, .none,
    .cmux 7 1 2, .cmux 7 2 0, .none, .none,
    .copy, .copy, .cmux 38 0 1, .none,
    .cmux 6 0 2, .cmux 6 2 1, .none, .none,
    .copy, .copy, .cmux 37 0 1, .none,
    .cmux 5 0 2, .cmux 5 2 1, .none, .none,
    .copy, .copy, .cmux 36 0 1, .none,
    .cmux 4 0 2, .cmux 4 2 1, .none, .none,
    .copy, .copy, .cmux 35 0 1, .none,
    .cmux 3 2 1, .cmux 3 0 2, .none, .none,
    .copy, .copy, .cmux 34 1 0, .none,
    .cmux 2 2 0, .cmux 2 1 2, .none, .none,
    .copy, .copy, .cmux 33 1 0, .none,
    .cmux 1 1 2, .cmux 1 2 0, .none, .none,
    .cmux 32 0 1, .copy, .none, .none,
    .cmux 0 0 1, .none, .none, .none]

def b21 : BitCircuit where
  maxInterState := 4
  nodes := [
    .cmux 53 0 1, .cmux 53 1 0, .none, .none,
    .cmux 21 1 0, .cmux 21 0 1, .none, .none,
    .copy, .copy, .cmux 52 1 0, .cmux 52 0 1,
    .cmux 20 0 3, .cmux 20 3 1, .cmux 20 1 2, .none,
    .copy, .copy, .cmux 51 1 2, .cmux 51 0 1,
    .cmux 19 0 3, .cmux 19 3 1, .cmux 19 1 2, .none,
    .cmux 50 0 1, .copy, .cmux 50 1 2, .none,
    .cmux 18 0 1, .cmux 18 1 2, .none, .none,
    .copy, .copy, .cmux 49 0 1, .none,
    .cmux 17 0 2, .cmux 17 2 1, .none, .none,
    .copy, .copy, .cmux 48 0 1, .none,
    .cmux 16 0 2, .cmux 16 2 1, .none, .none,
    .copy, .copy, .cmux 47 0 1, .none,
    .cmux 15 2 1, .cmux 15 0 2, .none, .none,
    .copy, .copy, .cmux 46 1 0, .none,
    .cmux 14 2 0, .cmux 14 1 2, .none, .none,
    .copy, .copy, .cmux 45 1 0, .none,
    .cmux 13 2 0, .cmux 13 1 2, .none, .none,
    .copy, .copy, .cmux 44 1 0, .none,
    .cmux 12 1 2, .cmux 12 2 0, .none, .none,
    .copy, .copy, .cmux 43 0 1, .none,
    .cmux 11 0 2, .cmux 11 2 1, .none, .none,
    .copy, .copy, .cmux 42 0 1, .none,
    .cmux 10 0 2, .cmux 10 2 1, .none, .none,
    .copy, .copy, .cmux 41 0 1, .none,
    .cmux 9 0 2, .cmux 9 2 1, .none, .none,
    .copy, .copy, .cmux 40 0 1, .none,
    .cmux 8 2 1, .cmux 8 0 2, .none, .none,
    .copy, .copy, .cmux 39 1 0, .none,
    .cmux 7 1 2, .cmux 7 2 0, .none, .none,
    .copy, .copy, .cmux 38 0 1, .none,
    .cmux 6 2 1, .cmux 6 0 2, .none, .none,
    .copy, .copy, .cmux 37 1 0, .none,
    .cmux 5 1 2, .cmux 5 2 0, .none, .none,
    .copy, .copy, .cmux 36 0 1, .none,
    .cmux 4 0 2, .cmux 4 2 1, .none, .none,
    .copy, .copy, .cmux 35 0 1, .none,
    .cmux 3 2 1, .cmux 3 0 2, .none, .none,
    .copy, .copy, .cmux 34 1 0, .none,
    .cmux 2 1 2, .cmux 2 2 0, .none, .none,
    .copy, .copy, .cmux 33 0 1, .none,
    .cmux 1 0 2, .cmux 1 2 1, .none, .none,
    .cmux 32 0 1, .copy, .none, .none,
    .cmux 0 0 1, .none, .none, .none]

def b22 : BitCircuit where
  maxInterState := 4
  nodes := [
    .cmux 54 0 1, .cmux 54 1 0, .none, .none,
    .cmux 22 1 0, .cmux 22 0 1, .none, .none,
    .copy, .copy, .cmux 53 0 1, .cmux 53 1 0,
    .cmux 21 0 2, .cmux 21 1 3, .cmux 21 2 1, .none,
    .copy, .cmux 52 2 1, .copy, .cmux 52 0 2,
    .cmux 20 3 2, .cmux 20 2 1, .cmux 20 0 3, .none,
    .copy, .cmux 51 0 1, .copy, .cmux 51 2 0,
    .cmux 19 2 3, .cmux 19 3 0, .cmux 19 0 1, .none,
    .cmux 50 1 2, .copy, .cmux 50 0 1, .none,
    .cmux 18 1 0, .cmux 18 2 1, .none, .none,
    .copy, .copy, .cmux 49 1 0, .none,
    .cmux 17 2 0, .cmux 17 1 2, .none, .none,
    .copy, .copy, .cmux 48 1 0, .none,
    .cmux 16 2 0, .cmux 16 1 2, .none, .none,
    .copy, .copy, .cmux 47 1 0, .none,
    .cmux 15 2 0, .cmux 15 1 2, .none, .none,
    .copy, .copy, .cmux 46 1 0, .none,
    .cmux 14 1 2, .cmux 14 2 0, .none, .none,
    .copy, .copy, .cmux 45 0 1, .none,
    .cmux 13 0 2, .cmux 13 2 1, .none, .none,
    .copy, .copy, .cmux 44 0 1, .none,
    .cmux 12 0 2, .cmux 12 2 1, .none, .none,
    .copy, .copy, .cmux 43 0 1, .none,
    .cmux 11 0 2, .cmux 11 2 1, .none, .none,
    .copy, .copy, .cmux 42 0 1, .none,
    .cmux 10 0 2, .cmux 10 2 1, .none, .none,
    .copy, .copy, .cmux 41 0 1, .none,
    .cmux 9 0 2, .cmux 9 2 1, .none, .none,
    .copy, .copy, .cmux 40 0 1, .none,
    .cmux 8 0 2, .cmux 8 2 1, .none, .none,
    .copy, .copy, .cmux 39 0 1, .none,
    .cmux 7 0 2, .cmux 7 2 1, .none, .none,
    .copy, .copy, .cmux 38 0 1, .none,
    .cmux 6 0 2, .cmux 6 2 1, .none, .none,
    .copy, .copy, .cmux 37 0 1, .none,
    .cmux 5 2 1, .cmux 5 0 2, .none, .none,
    .copy, .copy, .cmux 36 1 0, .none,
    .cmux 4 1 2, .cmux 4 2 0, .none, .none,
    .copy, .copy, .cmux 35 0 1, .none,
    .cmux 3 0 2, .cmux 3 2 1, .none, .none,
    .copy, .copy, .cmux 34 0 1, .none,
    .cmux 2 2 1, .cmux 2 0 2, .none, .none,
    .copy, .copy, .cmux 33 1 0, .none,
    .cmux 1 2 0, .cmux 1 1 2, .none, .none,
    .copy, .cmux 32 1 0, .none, .none,
    .cmux 0 1 0, .none, .none, .none]

def b23 : BitCircuit where
  maxInterState := 4
  nodes := [
    .cmux 55 1 0, .cmux 55 0 1, .none, .none,
    .cmux 23 1 0, .cmux 23 0 1, .none, .none,
    .copy, .copy, .cmux 54 0 1, .cmux 54 1 0,
    .cmux 22 3 0, .cmux 22 0 2, .cmux 22 1 3, .none,
    .copy, .cmux 53 0 1, .copy, .cmux 53 2 0,
    .cmux 21 2 3, .cmux 21 3 0, .cmux 21 0 1, .none,
    .copy, .copy, .cmux 52 0 1, .cmux 52 1 2,
    .cmux 20 1 3, .cmux 20 0 2, .cmux 20 2 1, .none,
    .cmux 51 2 0, .copy, .copy, .cmux 51 1 2,
    .cmux 19 3 2, .cmux 19 2 0, .cmux 19 1 3, .none,
    .copy, .cmux 50 2 0, .cmux 50 0 1, .none,
    .cmux 18 1 0, .cmux 18 0 2, .none, .none,
    .copy, .copy, .cmux 49 0 1, .none,
    .cmux 17 2 1, .cmux 17 0 2, .none, .none,
    .copy, .copy, .cmux 48 1 0, .none,
    .cmux 16 2 0, .cmux 16 1 2, .none, .none,
    .copy, .copy, .cmux 47 1 0, .none,
    .cmux 15 1 2, .cmux 15 2 0, .none, .none,
    .copy, .copy, .cmux 46 0 1, .none,
    .cmux 14 2 1, .cmux 14 0 2, .none, .none,
    .copy, .copy, .cmux 45 1 0, .none,
    .cmux 13 1 2, .cmux 13 2 0, .none, .none,
    .copy, .copy, .cmux 44 0 1, .none,
    .cmux 12 2 1, .cmux 12 0 2, .none, .none,
    .copy, .copy, .cmux 43 1 0, .none,
    .cmux 11 1 2, .cmux 11 2 0, .none, .none,
    .copy, .copy, .cmux 42 0 1, .none,
    .cmux 10 2 1, .cmux 10 0 2, .none, .none,
    .copy, .copy, .cmux 41 1 0, .none,
    .cmux 9 2 0, .cmux 9 1 2, .none, .none,
    .copy, .copy, .cmux 40 1 0, .none,
    .cmux 8 1 2, .cmux 8 2 0, .none, .none,
    .copy, .copy, .cmux 39 0 1, .none,
    .cmux 7 2 1, .cmux 7 0 2, .none, .none,
    .copy, .copy, .cmux 38 1 0, .none,
    .cmux 6 2 0, .cmux 6 1 2, .none, .none,
    .copy, .copy, .cmux 37 1 0, .none,
    .cmux 5 2 0, .cmux 5 1 2, .none, .none,
    .copy, .copy, .cmux 36 1 0, .none,
    .cmux 4 2 0, .cmux 4 1 2, .none, .none,
    .copy, .copy, .cmux 35 1 0, .none,
    .cmux 3 1 2, .cmux 3 2 0, .none, .none,
    .copy, .copy, .cmux 34 0 1, .none,
    .cmux 2 0 2, .cmux 2 2 1, .none, .none,
    .copy, .copy, .cmux 33 0 1, .none,
    .cmux 1 0 2, .cmux 1 2 1, .none, .none,
    .cmux 32 0 1, .copy, .none, .none,
    .cmux 0 0 1, .none, .none, .none]

def b24 : BitCircuit where
  maxInterState := 4
  nodes := [
    .cmux 56 0 1, .cmux 56 1 0, .none, .none,
    .cmux 24 1 0, .cmux 24 0 1, .none, .none,
    .copy, .copy, .cmux 55 0 1, .cmux 55 1 0,
    .cmux 23 2 1, .cmux 23 0 2, .cmux 23 1 3, .none,
    .copy, .copy, .cmux 54 1 0, .cmux 54 0 2,
    .cmux 22 0 3, .cmux 22 2 0, .cmux 22 1 2, .none,
    .cmux 53 1 0, .copy, .copy, .cmux 53 2 1,
    .cmux 21 1 0, .cmux 21 3 1, .cmux 21 2 3, .none,
    .cmux 52 1 0, .copy, .copy, .cmux 52 2 1,
    .cmux 20 1 0, .cmux 20 3 1, .cmux 20 2 3, .none,
    .cmux 51 1 0, .copy, .copy, .cmux 51 2 1,
    .cmux 19 3 1, .cmux 19 2 3, .cmux 19 1 0, .none,
    .copy, .cmux 50 0 2, .cmux 50 1 0, .none,
    .cmux 18 0 1, .cmux 18 2 0, .none, .none,
    .copy, .copy, .cmux 49 1 0, .none,
    .cmux 17 2 0, .cmux 17 1 2, .none, .none,
    .copy, .copy, .cmux 48 1 0, .none,
    .cmux 16 2 0, .cmux 16 1 2, .none, .none,
    .copy, .copy, .cmux 47 1 0, .none,
    .cmux 15 1 2, .cmux 15 2 0, .none, .none,
    .copy, .copy, .cmux 46 0 1, .none,
    .cmux 14 0 2, .cmux 14 2 1, .none, .none,
    .copy, .copy, .cmux 45 0 1, .none,
    .cmux 13 0 2, .cmux 13 2 1, .none, .none,
    .copy, .copy, .cmux 44 0 1, .none,
    .cmux 12 2 1, .cmux 12 0 2, .none, .none,
    .copy, .copy, .cmux 43 1 0, .none,
    .cmux 11 2 0, .cmux 11 1 2, .none, .none,
    .copy, .copy, .cmux 42 1 0, .none,
    .cmux 10 2 0, .cmux 10 1 2, .none, .none,
    .copy, .copy, .cmux 41 1 0, .none,
    .cmux 9 1 2, .cmux 9 2 0, .none, .none,
    .copy, .copy, .cmux 40 0 1, .none,
    .cmux 8 0 2, .cmux 8 2 1, .none, .none,
    .copy, .copy, .cmux 39 0 1, .none,
    .cmux 7 0 2, .cmux 7 2 1, .none, .none,
    .copy, .copy, .cmux 38 0 1, .none,
    .cmux 6 2 1, .cmux 6 0 2, .none, .none,
    .copy, .copy, .cmux 37 1 0, .none,
    .cmux 5 1 2, .cmux 5 2 0, .none, .none,
    .copy, .copy, .cmux 36 0 1, .none,
    .cmux 4 0 2, .cmux 4 2 1, .none, .none,
    .copy, .copy, .cmux 35 0 1, .none,
    .cmux 3 0 2, .cmux 3 2 1, .none, .none,
    .copy, .copy, .cmux 34 0 1, .none,
    .cmux 2 2 1, .cmux 2 0 2, .none, .none,
    .copy, .copy, .cmux 33 1 0, .none,
    .cmux 1 2 0, .cmux 1 1 2, .none, .none,
    .copy, .cmux 32 1 0, .none, .none,
    .cmux 0 1 0, .none, .none, .none]

def b25 : BitCircuit where
  maxInterState := 4
  nodes := [
    .cmux 57 0 1, .cmux 57 1 0, .none, .none,
    .cmux 25 0 1, .cmux 25 1 0, .none, .none,
    .copy, .copy, .cmux 56 1 0, .cmux 56 0 1,
    .cmux 24 2 0, .cmux 24 0 3, .cmux 24 1 2, .none,
    .copy, .cmux 55 0 1, .copy, .cmux 55 2 0,
    .cmux 23 2 3, .cmux 23 0 1, .cmux 23 3 0, .none,
    .copy, .cmux 54 0 2, .copy, .cmux 54 2 1,
    .cmux 22 1 2, .cmux 22 0 1, .cmux 22 2 3, .none,
    .copy, .copy, .cmux 53 1 0, .cmux 53 0 2,
    .cmux 21 2 0, .cmux 21 0 3, .cmux 21 1 2, .none,
    .copy, .cmux 52 0 1, .copy, .cmux 52 2 0,
    .cmux 20 3 0, .cmux 20 2 3, .cmux 20 0 1, .none,
    .copy, .copy, .cmux 51 1 0, .cmux 51 0 2,
    .cmux 19 0 3, .cmux 19 2 0, .cmux 19 1 2, .none,
    .cmux 50 2 1, .copy, .cmux 50 1 0, .none,
    .cmux 18 0 1, .cmux 18 1 2, .none, .none,
    .copy, .copy, .cmux 49 0 1, .none,
    .cmux 17 2 1, .cmux 17 0 2, .none, .none,
    .copy, .copy, .cmux 48 1 0, .none,
    .cmux 16 1 2, .cmux 16 2 0, .none, .none,
    .copy, .copy, .cmux 47 0 1, .none,
    .cmux 15 2 1, .cmux 15 0 2, .none, .none,
    .copy, .copy, .cmux 46 1 0, .none,
    .cmux 14 1 2, .cmux 14 2 0, .none, .none,
    .copy, .copy, .cmux 45 0 1, .none,
    .cmux 13 2 1, .cmux 13 0 2, .none, .none,
    .copy, .copy, .cmux 44 1 0, .none,
    .cmux 12 1 2, .cmux 12 2 0, .none, .none,
    .copy, .copy, .cmux 43 0 1, .none,
    .cmux 11 0 2, .cmux 11 2 1, .none, .none,
    .copy, .copy, .cmux 42 0 1, .none,
    .cmux 10 2 1, .cmux 10 0 2, .none, .none,
    .copy, .copy, .cmux 41 1 0, .none,
    .cmux 9 2 0, .cmux 9 1 2, .none, .none,
    .copy, .copy, .cmux 40 1 0, .none,
    .cmux 8 2 0, .cmux 8 1 2, .none, .none,
    .copy, .copy, .cmux 39 1 0, .none,
    .cmux 7 2 0, .cmux 7 1 2, .none, .none,
    .copy, .copy, .cmux 38 1 0, .none,
    .cmux 6 2 0, .cmux 6 1 2, .none, .none,
    .copy, .copy, .cmux 37 1 0, .none,
    .cmux 5 2 0, .cmux 5 1 2, .none, .none,
    .copy, .copy, .cmux 36 1 0, .none,
    .cmux 4 1 2, .cmux 4 2 0, .none, .none,
    .copy, .copy, .cmux 35 0 1, .none,
    .cmux 3 0 2, .cmux 3 2 1, .none, .none,
    .copy, .copy, .cmux 34 0 1, .none,
    .cmux 2 2 1, .cmux 2 0 2, .none, .none,
    .copy, .copy, .cmux 33 1 0, .none,
    .cmux 1 2 0, .cmux 1 1 2, .none, .none,
    .copy, .cmux 32 1 0, .none, .none,
    .cmux 0 1 0, .none, .none, .none]

def b26 : BitCircuit where
  maxInterState := 4
  nodes := [
    .cmux 58 0 1, .cmux 58 1 0, .none, .none,
    .cmux 26 1 0, .cmux 26 0 1, .none, .none,
    .copy, .copy, .cmux 57 1 0, .cmux 57 0 1,
    .cmux 25 0 3, .cmux 25 1 2, .cmux 25 3 1, .none,
    .copy, .cmux 56 2 1, .copy, .cmux 56 0 2,
    .cmux 24 2 1, .cmux 24 0 3, .cmux 24 3 2, .none,
    .cmux 55 1 2, .copy, .copy, .cmux 55 2 0,
    .cmux 23 1 0, .cmux 23 0 2, .cmux 23 2 3, .none,
    .copy, .copy, .cmux 54 1 2, .cmux 54 0 1,
    .cmux 22 0 3, .cmux 22 1 2, .cmux 22 3 1, .none,
    .copy, .cmux 53 2 1, .copy, .cmux 53 0 2,
    .cmux 21 2 1, .cmux 21 0 3, .cmux 21 3 2, .none,
    .cmux 52 2 0, .copy, .copy, .cmux 52 1 2,
    .cmux 20 3 2, .cmux 20 1 3, .cmux 20 2 0, .none,
    .copy, .copy, .cmux 51 0 2, .cmux 51 1 0,
    .cmux 19 0 2, .cmux 19 1 3, .cmux 19 3 0, .none,
    .cmux 50 1 2, .cmux 50 2 0, .copy, .none,
    .cmux 18 0 2, .cmux 18 2 1, .none, .none,
    .copy, .copy, .cmux 49 0 1, .none,
    .cmux 17 2 1, .cmux 17 0 2, .none, .none,
    .copy, .copy, .cmux 48 1 0, .none,
    .cmux 16 2 0, .cmux 16 1 2, .none, .none,
    .copy, .copy, .cmux 47 1 0, .none,
    .cmux 15 1 2, .cmux 15 2 0, .none, .none,
    .copy, .copy, .cmux 46 0 1, .none,
    .cmux 14 0 2, .cmux 14 2 1, .none, .none,
    .copy, .copy, .cmux 45 0 1, .none,
    .cmux 13 2 1, .cmux 13 0 2, .none, .none,
    .copy, .copy, .cmux 44 1 0, .none,
    .cmux 12 1 2, .cmux 12 2 0, .none, .none,
    .copy, .copy, .cmux 43 0 1, .none,
    .cmux 11 2 1, .cmux 11 0 2, .none, .none,
    .copy, .copy, .cmux 42 1 0, .none,
    .cmux 10 2 0, .cmux 10 1 2, .none, .none,
    .copy, .copy, .cmux 41 1 0, .none,
    .cmux 9 1 2, .cmux 9 2 0, .none, .none,
    .copy, .copy, .cmux 40 0 1, .none,
    .cmux 8 2 1, .cmux 8 0 2, .none, .none,
    .copy, .copy, .cmux 39 1 0, .none,
    .cmux 7 1 2, .cmux 7 2 0, .none, .none,
    .copy, .copy, .cmux 38 0 1, .none,
    .cmux 6 0 2, .cmux 6 2 1, .none, .none,
    .copy, .copy, .cmux 37 0 1, .none,
    .cmux 5 0 2, .cmux 5 2 1, .none, .none,
    .copy, .copy, .cmux 36 0 1, .none,
    .cmux 4 0 2, .cmux 4 2 1, .none, .none,
    .copy, .copy, .cmux 35 0 1, .none,
    .cmux 3 2 1, .cmux 3 0 2, .none, .none,
    .copy, .copy, .cmux 34 1 0, .none,
    .cmux 2 2 0, .cmux 2 1 2, .none, .none,
    .copy, .copy, .cmux 33 1 0, .none,
    .cmux 1 1 2, .cmux 1 2 0, .none, .none,
    .cmux 32 0 1, .copy, .none, .none,
    .cmux 0 0 1, .none, .none, .none]

def b27 : BitCircuit where
  maxInterState := 4
  nodes := [
    .cmux 59 0 1, .cmux 59 1 0, .none, .none,
    .cmux 27 0 1, .cmux 27 1 0, .none, .none,
    .copy, .copy, .cmux 58 0 1, .cmux 58 1 0,
    .cmux 26 1 3, .cmux 26 0 2, .cmux 26 3 0, .none,
    .copy, .cmux 57 0 2, .copy, .cmux 57 2 1,
    .cmux 25 1 2, .cmux 25 0 1, .cmux 25 2 3, .none,
    .copy, .copy, .cmux 56 0 2, .cmux 56 1 0,
    .cmux 24 3 0, .cmux 24 1 3, .cmux 24 0 2, .none,
    .copy, .copy, .cmux 55 1 0, .cmux 55 0 2,
    .cmux 23 2 0, .cmux 23 1 2, .cmux 23 0 3, .none,
    .copy, .copy, .cmux 54 0 2, .cmux 54 1 0,
    .cmux 22 3 0, .cmux 22 1 3, .cmux 22 0 2, .none,
    .copy, .copy, .cmux 53 1 0, .cmux 53 0 2,
    .cmux 21 2 0, .cmux 21 1 2, .cmux 21 0 3, .none,
    .copy, .copy, .cmux 52 0 2, .cmux 52 1 0,
    .cmux 20 3 0, .cmux 20 0 2, .cmux 20 1 3, .none,
    .copy, .cmux 51 2 0, .copy, .cmux 51 0 1,
    .cmux 19 2 1, .cmux 19 1 0, .cmux 19 0 3, .none,
    .cmux 50 1 2, .copy, .cmux 50 0 1, .none,
    .cmux 18 2 1, .cmux 18 1 0, .none, .none,
    .copy, .copy, .cmux 49 0 1, .none,
    .cmux 17 2 1, .cmux 17 0 2, .none, .none,
    .copy, .copy, .cmux 48 1 0, .none,
    .cmux 16 1 2, .cmux 16 2 0, .none, .none,
    .copy, .copy, .cmux 47 0 1, .none,
    .cmux 15 0 2, .cmux 15 2 1, .none, .none,
    .copy, .copy, .cmux 46 0 1, .none,
    .cmux 14 2 1, .cmux 14 0 2, .none, .none,
    .copy, .copy, .cmux 45 1 0, .none,
    .cmux 13 1 2, .cmux 13 2 0, .none, .none,
    .copy, .copy, .cmux 44 0 1, .none,
    .cmux 12 2 1, .cmux 12 0 2, .none, .none,
    .copy, .copy, .cmux 43 1 0, .none,
    .cmux 11 1 2, .cmux 11 2 0, .none, .none,
    .copy, .copy, .cmux 42 0 1, .none,
    .cmux 10 0 2, .cmux 10 2 1, .none, .none,
    .copy, .copy, .cmux 41 0 1, .none,
    .cmux 9 0 2, .cmux 9 2 1, .none, .none,
    .copy, .copy, .cmux 40 0 1, .none,
    .cmux 8 2 1, .cmux 8 0 2, .none, .none,
    .copy, .copy, .cmux 39 1 0, .none,
    .cmux 7 1 2, .cmux 7 2 0, .none, .none,
    .copy, .copy, .cmux 38 0 1, .none,
    .cmux 6 2 1, .cmux 6 0 2, .none, .none,
    .copy, .copy, .cmux 37 1 0, .none,
    .cmux 5 1 2, .cmux 5 2 0, .none, .none,
    .copy, .copy, .cmux 36 0 1, .none,
    .cmux 4 0 2, .cmux 4 2 1, .none, .none,
    .copy, .copy, .cmux 35 0 1, .none,
    .cmux 3 2 1, .cmux 3 0 2, .none, .none,
    .copy, .copy, .cmux 34 1 0, .none,
    .cmux 2 2 0, .cmux 2 1 2, .none, .none,
    .copy, .copy, .cmux 33 1 0, .none,
    .cmux 1 2 0, .cmux 1 1 2, .none, .none,
    .copy, .cmux 32 1 0, .none, .none,
    .cmux 0 1 0, .none, .none, .none]

def b28 : BitCircuit where
  maxInterState := 4
  nodes := [
    .cmux 60 1 0, .cmux 60 0 1, .none, .none,
    .cmux 28 1 0, .cmux 28 0 1, .none, .none,
    .copy, .copy, .cmux 59 0 1, .cmux 59 1 0,
    .cmux 27 3 0, .cmux 27 0 2, .cmux 27 1 3, .none,
    .copy, .cmux 58 2 0, .copy, .cmux 58 0 1,
    .cmux 26 1 0, .cmux 26 2 1, .cmux 26 0 3, .none,
    .copy, .copy, .cmux 57 0 2, .cmux 57 1 0,
    .cmux 25 3 0, .cmux 25 0 2, .cmux 25 1 3, .none,
    .copy, .cmux 56 2 0, .copy, .cmux 56 0 1,
    .cmux 24 0 3, .cmux 24 1 0, .cmux 24 2 1, .none,
    .cmux 55 2 1, .copy, .copy, .cmux 55 1 0,
    .cmux 23 0 1, .cmux 23 1 3, .cmux 23 2 0, .none,
    .copy, .cmux 54 2 0, .copy, .cmux 54 0 1,
    .cmux 22 2 1, .cmux 22 1 0, .cmux 22 0 3, .none,
    .copy, .copy, .cmux 53 0 1, .cmux 53 1 2,
    .cmux 21 0 2, .cmux 21 1 3, .cmux 21 2 1, .none,
    .copy, .cmux 52 0 2, .copy, .cmux 52 2 1,
    .cmux 20 1 2, .cmux 20 0 1, .cmux 20 2 3, .none,
    .copy, .copy, .cmux 51 1 0, .cmux 51 0 2,
    .cmux 19 0 3, .cmux 19 2 0, .cmux 19 1 2, .none,
    .cmux 50 1 0, .copy, .cmux 50 2 1, .none,
    .cmux 18 2 1, .cmux 18 1 0, .none, .none,
    .copy, .copy, .cmux 49 0 1, .none,
    .cmux 17 2 1, .cmux 17 0 2, .none, .none,
    .copy, .copy, .cmux 48 1 0, .none,
    .cmux 16 2 0, .cmux 16 1 2, .none, .none,
    .copy, .copy, .cmux 47 1 0, .none,
    .cmux 15 2 0, .cmux 15 1 2, .none, .none,
    .copy, .copy, .cmux 46 1 0, .none,
    .cmux 14 2 0, .cmux 14 1 2, .none, .none,
    .copy, .copy, .cmux 45 1 0, .none,
    .cmux 13 2 0, .cmux 13 1 2, .none, .none,
    .copy, .copy, .cmux 44 1 0, .none,
    .cmux 12 2 0, .cmux 12 1 2, .none, .none,
    .copy, .copy, .cmux 43 1 0, .none,
    .cmux 11 2 0, .cmux 11 1 2, .none, .none,
    .copy, .copy, .cmux 42 1 0, .none,
    .cmux 10 1 2, .cmux 10 2 0, .none, .none,
    .copy, .copy, .cmux 41 0 1, .none,
    .cmux 9 2 1, .cmux 9 0 2, .none, .none,
    .copy, .copy, .cmux 40 1 0, .none,
    .cmux 8 2 0, .cmux 8 1 2, .none, .none,
    .copy, .copy, .cmux 39 1 0, .none,
    .cmux 7 2 0, .cmux 7 1 2, .none, .none,
    .copy, .copy, .cmux 38 1 0, .none,
    .cmux 6 2 0, .cmux 6 1 2, .none, .none,
    .copy, .copy, .cmux 37 1 0, .none,
    .cmux 5 1 2, .cmux 5 2 0, .none, .none,
    .copy, .copy, .cmux 36 0 1, .none,
    .cmux 4 0 2, .cmux 4 2 1, .none, .none,
    .copy, .copy, .cmux 35 0 1, .none,
    .cmux 3 2 1, .cmux 3 0 2, .none, .none,
    .copy, .copy, .cmux 34 1 0, .none,
    .cmux 2 1 2, .cmux 2 2 0, .none, .none,
    .copy, .copy, .cmux 33 0 1, .none,
    .cmux 1 0 2, .cmux 1 2 1, .none, .none,
    .cmux 32 0 1, .copy, .none, .none,
    .cmux 0 0 1, .none, .none, .none]

def b29 : BitCircuit where
  maxInterState := 4
  nodes := [
    .cmux 61 1 0, .cmux 61 0 1, .none, .none,
    .cmux 29 1 0, .cmux 29 0 1, .none, .none,
    .copy, .copy, .cmux 60 0 1, .cmux 60 1 0,
    .cmux 28 0 2, .cmux 28 1 3, .cmux 28 3 0, .none,
    .cmux 59 1 2, .copy, .copy, .cmux 59 2 0,
    .cmux 27 0 2, .cmux 27 2 3, .cmux 27 1 0, .none,
    .copy, .cmux 58 0 1, .copy, .cmux 58 2 0,
    .cmux 26 3 0, .cmux 26 0 1, .cmux 26 2 3, .none,
    .copy, .cmux 57 0 1, .copy, .cmux 57 2 0,
    .cmux 25 2 3, .cmux 25 0 1, .cmux 25 3 0, .none,
    .copy, .cmux 56 0 2, .copy, .cmux 56 2 1,
    .cmux 24 0 1, .cmux 24 2 3, .cmux 24 1 2, .none,
    .copy, .cmux 55 0 2, .copy, .cmux 55 2 1,
    .cmux 23 0 1, .cmux 23 1 2, .cmux 23 2 3, .none,
    .copy, .copy, .cmux 54 1 2, .cmux 54 0 1,
    .cmux 22 0 3, .cmux 22 1 2, .cmux 22 3 1, .none,
    .copy, .cmux 53 2 1, .copy, .cmux 53 0 2,
    .cmux 21 3 2, .cmux 21 2 1, .cmux 21 0 3, .none,
    .copy, .cmux 52 2 0, .copy, .cmux 52 0 1,
    .cmux 20 1 0, .cmux 20 0 3, .cmux 20 2 1, .none,
    .copy, .cmux 51 2 0, .copy, .cmux 51 0 1,
    .cmux 19 0 3, .cmux 19 1 0, .cmux 19 2 1, .none,
    .cmux 50 1 0, .copy, .cmux 50 2 1, .none,
    .cmux 18 2 1, .cmux 18 1 0, .none, .none,
    .copy, .copy, .cmux 49 0 1, .none,
    .cmux 17 0 2, .cmux 17 2 1, .none, .none,
    .copy, .copy, .cmux 48 0 1, .none,
    .cmux 16 0 2, .cmux 16 2 1, .none, .none,
    .copy, .copy, .cmux 47 0 1, .none,
    .cmux 15 2 1, .cmux 15 0 2, .none, .none,
    .copy, .copy, .cmux 46 1 0, .none,
    .cmux 14 2 0, .cmux 14 1 2, .none, .none,
    .copy, .copy, .cmux 45 1 0, .none,
    .cmux 13 2 0, .cmux 13 1 2, .none, .none,
    .copy, .copy, .cmux 44 1 0, .none,
    .cmux 12 2 0, .cmux 12 1 2, .none, .none,
    .copy, .copy, .cmux 43 1 0, .none,
    .cmux 11 1 2, .cmux 11 2 0, .none, .none,
    .copy, .copy, .cmux 42 0 1, .none,
    .cmux 10 0 2, .cmux 10 2 1, .none, .none,
    .copy, .copy, .cmux 41 0 1, .none,
    .cmux 9 0 2, .cmux 9 2 1, .none, .none,
    .copy, .copy, .cmux 40 0 1, .none,
    .cmux 8 0 2, .cmux 8 2 1, .none, .none,
    .copy, .copy, .cmux 39 0 1, .none,
    .cmux 7 0 2, .cmux 7 2 1, .none, .none,
    .copy, .copy, .cmux 38 0 1, .none,
    .cmux 6 0 2, .cmux 6 2 1, .none, .none,
    .copy, .copy, .cmux 37 0 1, .none,
    .cmux 5 2 1, .cmux 5 0 2, .none, .none,
    .copy, .copy, .cmux 36 1 0, .none,
    .cmux 4 1 2, .cmux 4 2 0, .none, .none,
    .copy, .copy, .cmux 35 0 1, .none,
    .cmux 3 0 2, .cmux 3 2 1, .none, .none,
    .copy, .copy, .cmux 34 0 1, .none,
    .cmux 2 2 1, .cmux 2 0 2, .none, .none,
    .copy, .copy, .cmux 33 1 0, .none,
    .cmux 1 1 2, .cmux 1 2 0, .none, .none,
    .cmux 32 0 1, .copy, .none, .none,
    .cmux 0 0 1, .none, .none, .none]

def b30 : BitCircuit where
  maxInterState := 4
  nodes := [
    .cmux 62 0 1, .cmux 62 1 0, .none, .none,
    .cmux 30 0 1, .cmux 30 1 0, .none, .none,
    .copy, .copy, .cmux 61 0 1, .cmux 61 1 0,
    .cmux 29 3 0, .cmux 29 0 2, .cmux 29 1 3, .none,
    .copy, .cmux 60 0 1, .copy, .cmux 60 2 0,
    .cmux 28 3 0, .cmux 28 0 1, .cmux 28 2 3, .none,
    .copy, .cmux 59 0 1, .copy, .cmux 59 2 0,
    .cmux 27 3 0, .cmux 27 2 3, .cmux 27 0 1, .none,
    .copy, .copy, .cmux 58 1 0, .cmux 58 0 2,
    .cmux 26 0 3, .cmux 26 2 0, .cmux 26 1 2, .none,
    .cmux 57 2 1, .copy, .copy, .cmux 57 1 0,
    .cmux 25 0 1, .cmux 25 1 3, .cmux 25 2 0, .none,
    .copy, .cmux 56 0 1, .copy, .cmux 56 2 0,
    .cmux 24 2 3, .cmux 24 3 0, .cmux 24 0 1, .none,
    .copy, .copy, .cmux 55 0 1, .cmux 55 1 2,
    .cmux 23 0 2, .cmux 23 2 1, .cmux 23 1 3, .none,
    .copy, .copy, .cmux 54 0 1, .cmux 54 1 2,
    .cmux 22 0 2, .cmux 22 1 3, .cmux 22 2 1, .none,
    .copy, .cmux 53 2 1, .copy, .cmux 53 0 2,
    .cmux 21 2 1, .cmux 21 0 3, .cmux 21 3 2, .none,
    .cmux 52 2 0, .copy, .copy, .cmux 52 1 2,
    .cmux 20 2 0, .cmux 20 3 2, .cmux 20 1 3, .none,
    .cmux 51 2 1, .copy, .copy, .cmux 51 1 0,
    .cmux 19 1 3, .cmux 19 0 1, .cmux 19 2 0, .none,
    .cmux 50 1 0, .copy, .cmux 50 2 1, .none,
    .cmux 18 2 1, .cmux 18 1 0, .none, .none,
    .copy, .copy, .cmux 49 0 1, .none,
    .cmux 17 0 2, .cmux 17 2 1, .none, .none,
    .copy, .copy, .cmux 48 0 1, .none,
    .cmux 16 0 2, .cmux 16 2 1, .none, .none,
    .copy, .copy, .cmux 47 0 1, .none,
    .cmux 15 0 2, .cmux 15 2 1, .none, .none,
    .copy, .copy, .cmux 46 0 1, .none,
    .cmux 14 0 2, .cmux 14 2 1, .none, .none,
    .copy, .copy, .cmux 45 0 1, .none,
    .cmux 13 0 2, .cmux 13 2 1, .none, .none,
    .copy, .copy, .cmux 44 0 1, .none,
    .cmux 12 2 1, .cmux 12 0 2, .none, .none,
    .copy, .copy, .cmux 43 1 0, .none,
    .cmux 11 1 2, .cmux 11 2 0, .none, .none,
    .copy, .copy, .cmux 42 0 1, .none,
    .cmux 10 2 1, .cmux 10 0 2, .none, .none,
    .copy, .copy, .cmux 41 1 0, .none,
    .cmux 9 1 2, .cmux 9 2 0, .none, .none,
    .copy, .copy, .cmux 40 0 1, .none,
    .cmux 8 0 2, .cmux 8 2 1, .none, .none,
    .copy, .copy, .cmux 39 0 1, .none,
    .cmux 7 2 1, .cmux 7 0 2, .none, .none,
    .copy, .copy, .cmux 38 1 0, .none,
    .cmux 6 2 0, .cmux 6 1 2, .none, .none,
    .copy, .copy, .cmux 37 1 0, .none,
    .cmux 5 1 2, .cmux 5 2 0, .none, .none,
    .copy, .copy, .cmux 36 0 1, .none,
    .cmux 4 0 2, .cmux 4 2 1, .none, .none,
    .copy, .copy, .cmux 35 0 1, .none,
    .cmux 3 2 1, .cmux 3 0 2, .none, .none,
    .copy, .copy, .cmux 34 1 0, .none,
    .cmux 2 2 0, .cmux 2 1 2, .none, .none,
    .copy, .copy, .cmux 33 1 0, .none,
    .cmux 1 1 2, .cmux 1 2 0, .none, .none,
    .cmux 32 0 1, .copy, .none, .none,
    .cmux 0 0 1, .none, .none, .none]

def b31 : BitCircuit where
  maxInterState := 4
  nodes := [
    .cmux 63 0 1, .cmux 63 1 0, .none, .none,
    .cmux 31 0 1, .cmux 31 1 0, .none, .none,
    .copy, .copy, .cmux 62 0 1, .cmux 62 1 0,
    .cmux 30 0 2, .cmux 30 1 3, .cmux 30 3 0, .none,
    .cmux 61 2 0, .copy, .copy, .cmux 61 1 2,
    .cmux 29 3 2, .cmux 29 1 3, .cmux 29 2 0, .none,
    .copy, .copy, .cmux 60 1 0, .cmux 60 0 2,
    .cmux 28 0 3, .cmux 28 2 0, .cmux 28 1 2, .none,
    .cmux 59 1 0, .copy, .copy, .cmux 59 2 1,
    .cmux 27 3 1, .cmux 27 2 3, .cmux 27 1 0, .none,
    .copy, .copy, .cmux 58 0 2, .cmux 58 1 0,
    .cmux 26 3 0, .cmux 26 0 2, .cmux 26 1 3, .none,
    .copy, .cmux 57 0 1, .copy, .cmux 57 2 0,
    .cmux 25 0 1, .cmux 25 3 0, .cmux 25 2 3, .none,
    .cmux 56 1 0, .copy, .copy, .cmux 56 2 1,
    .cmux 24 2 3, .cmux 24 3 1, .cmux 24 1 0, .none,
    .copy, .copy, .cmux 55 1 2, .cmux 55 0 1,
    .cmux 23 0 3, .cmux 23 1 2, .cmux 23 3 1, .none,
    .copy, .cmux 54 0 2, .copy, .cmux 54 2 1,
    .cmux 22 2 3, .cmux 22 0 1, .cmux 22 1 2, .none,
    .cmux 53 1 2, .copy, .copy, .cmux 53 2 0,
    .cmux 21 0 2, .cmux 21 2 3, .cmux 21 1 0, .none,
    .copy, .cmux 52 0 1, .copy, .cmux 52 2 0,
    .cmux 20 3 0, .cmux 20 0 1, .cmux 20 2 3, .none,
    .copy, .cmux 51 0 1, .copy, .cmux 51 2 0,
    .cmux 19 3 0, .cmux 19 2 3, .cmux 19 0 1, .none,
    .copy, .cmux 50 0 2, .cmux 50 1 0, .none,
    .cmux 18 0 1, .cmux 18 2 0, .none, .none,
    .copy, .copy, .cmux 49 1 0, .none,
    .cmux 17 2 0, .cmux 17 1 2, .none, .none,
    .copy, .copy, .cmux 48 1 0, .none,
    .cmux 16 2 0, .cmux 16 1 2, .none, .none,
    .copy, .copy, .cmux 47 1 0, .none,
    .cmux 15 2 0, .cmux 15 1 2, .none, .none,
    .copy, .copy, .cmux 46 1 0, .none,
    .cmux 14 1 2, .cmux 14 2 0, .none, .none,
    .copy, .copy, .cmux 45 0 1, .none,
    .cmux 13 0 2, .cmux 13 2 1, .none, .none,
    .copy, .copy, .cmux 44 0 1, .none,
    .cmux 12 2 1, .cmux 12 0 2, .none, .none,
    .copy, .copy, .cmux 43 1 0, .none,
    .cmux 11 1 2, .cmux 11 2 0, .none, .none,
    .copy, .copy, .cmux 42 0 1, .none,
    .cmux 10 2 1, .cmux 10 0 2, .none, .none,
    .copy, .copy, .cmux 41 1 0, .none,
    .cmux 9 2 0, .cmux 9 1 2, .none, .none,
    .copy, .copy, .cmux 40 1 0, .none,
    .cmux 8 1 2, .cmux 8 2 0, .none, .none,
    .copy, .copy, .cmux 39 0 1, .none,
    .cmux 7 0 2, .cmux 7 2 1, .none, .none,
    .copy, .copy, .cmux 38 0 1, .none,
    .cmux 6 2 1, .cmux 6 0 2, .none, .none,
    .copy, .copy, .cmux 37 1 0, .none,
    .cmux 5 2 0, .cmux 5 1 2, .none, .none,
    .copy, .copy, .cmux 36 1 0, .none,
    .cmux 4 1 2, .cmux 4 2 0, .none, .none,
    .copy, .copy, .cmux 35 0 1, .none,
    .cmux 3 0 2, .cmux 3 2 1, .none, .none,
    .copy, .copy, .cmux 34 0 1, .none,
    .cmux 2 2 1, .cmux 2 0 2, .none, .none,
    .copy, .copy, .cmux 33 1 0, .none,
    .cmux 1 1 2, .cmux 1 2 0, .none, .none,
    .cmux 32 0 1, .copy, .none, .none,
    .cmux 0 0 1, .none, .none, .none]

/-- `OUTPUT_CIRCUITS`. -/
def circuits : List BitCircuit :=
  [b0, b1, b2, b3, b4, b5, b6, b7,
   b8, b9, b10, b11, b12, b13, b14, b15,
   b16, b17, b18, b19, b20, b21, b22, b23,
   b24, b25, b26, b27, b28, b29, b30, b31]

end Verif.Model.Circuits.RamOffset
