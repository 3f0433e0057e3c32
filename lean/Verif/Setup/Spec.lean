/-!
# How a run is to be set up

Written from the comments above the flags of the simulators (the stack), the C standard's
description of integer constants (numbers in a configuration), the host-target interface's
convention for `tohost`, and the privileged manual's interrupt codes.
-/

namespace Verif.Setup.Spec

/-! ## Numbers -/

/-- The digits in order, lower case. -/
def digits : List Char := ['0', '1', '2', '3', '4', '5', '6', '7', '8', '9', 'a', 'b', 'c', 'd', 'e', 'f']

/-- Upper case letters are digits too. -/
def upper : List (Char × Nat) := [('A', 10), ('B', 11), ('C', 12), ('D', 13), ('E', 14), ('F', 15)]

/-- `c` is the digit `d`. -/
def IsDigit (c : Char) (d : Nat) : Prop := digits[d]? = some c ∨ (c, d) ∈ upper

/-- The characters are digits of the base, and their number in positional notation is `n`:
a digit counts as many times the base's power as there are digits after it. -/
inductive Numeral (base : Nat) : List Char → Nat → Prop
  | nil : Numeral base [] 0
  | cons {c d t n} : IsDigit c d → d < base → Numeral base t n →
      Numeral base (c :: t) (d * base ^ t.length + n)

/-- An integer constant and its value: `0x` and hexadecimal digits, `0` and octal digits, or
decimal digits that do not start with `0`. -/
inductive Constant : List Char → Nat → Prop
  | hex {t n} : t ≠ [] → Numeral 16 t n → Constant ('0' :: 'x' :: t) n
  | octal {t n} : Numeral 8 t n → Constant ('0' :: t) n
  | decimal {c t n} : c ≠ '0' → Numeral 10 (c :: t) n → Constant (c :: t) n

/-! ## The stack -/

/-- Where the stack ends: the setting, else the symbol. -/
def location (setting symbol : Option (BitVec 64)) : Option (BitVec 64) :=
  setting.or symbol

/-- The stack's size: the setting, else the GNU_STACK segment, else the symbol, else
32 KiB. -/
def size (setting segment symbol : Option (BitVec 64)) : BitVec 64 :=
  ((setting.or segment).or symbol).getD (BitVec.ofNat 64 (32 * 1024))

/-- The initial stack pointer: none without a location. -/
def stackPointer (location : Option (BitVec 64)) (size : BitVec 64) : Option (BitVec 64) :=
  location.map (· + size)

/-! ## tohost -/

/-- A store touches the 32-bit word at `tohost`. -/
def Touches (tohost addr size : Nat) : Prop :=
  ∃ b, addr ≤ b ∧ b < addr + size ∧ tohost ≤ b ∧ b < tohost + 4

/-- A word is an exit code when its lowest bit is set; the code is the rest. -/
def exitCode (word : BitVec 32) : Option Nat :=
  if word.toNat % 2 = 1 then some (word.toNat / 2) else none

/-! ## Registers -/

/-- The width of the register with a debugger's number on a hart with `xlen` bits: pc and
integer registers have `xlen` bits, floating-point registers 64. -/
def width (xlen number : Nat) : Nat :=
  if 0x1020 ≤ number ∧ number < 0x1040 then 64 else xlen

end Verif.Setup.Spec
