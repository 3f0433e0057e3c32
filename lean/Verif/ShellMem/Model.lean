import Verif.Shell.Model
import Verif.Setup.Model
import Verif.DebugMem.Model
/-
Model of the command shell's numbers and of its commands `mem get` and `mem set`
(riscv/debug_command_shell.cc:1277-1497, riscv/stoull_wrapper.cc).

The host is little-endian. `kMemBufferSize` is a constant of mpact-sim and at least 8. Printing a
floating-point number and disassembling are not modelled: the result only says what is to be
printed. The parameter `core` of the helpers is the current core.
-/
namespace Verif.ShellMem
open Verif.Shell (Text)

/-! ## Numbers -/

/-- What `std::stoull` does: a value and the number of characters used, or an exception. -/
inductive Conv where
  | ok (v : BitVec 64) (used : Nat)
  | invalid
  | outOfRange
deriving DecidableEq

/-- The base and the digits: base 0 is found out from the text, and `0x` is skipped in base 16 if
a digit follows. -/
def resolve (base : Nat) (t : Text) : Nat × Text :=
  if base = 0 then
    (if (Setup.skipHexMark t).length < t.length then (16, Setup.skipHexMark t)
     else if t.head? = some '0' then (8, t)
     else (10, t))
  else if base = 16 then (16, Setup.skipHexMark t)
  else (base, t)

/-- `riscv::internal::stoull` with a position (stoull_wrapper.cc:34-46). -/
def strtoull (base : Nat) (s : Text) : Conv :=
  let (neg, t) := Setup.takeSign (s.dropWhile Setup.isSpace)
  let (b, u) := resolve base t
  let ds := Setup.takeDigits b u
  if ds.isEmpty then .invalid
  else
    let v := ds.foldl (fun acc d => acc * b + d) 0
    if v < 2 ^ 64 then
      .ok (if neg then -BitVec.ofNat 64 v else BitVec.ofNat 64 v) (s.length - (u.length - ds.length))
    else .outOfRange

inductive Value where
  | value (v : BitVec 64)
  | outOfRange
  | noTable
  | noSymbol
deriving DecidableEq

/-- The loader's symbols, if there is a loader. -/
abbrev Symbols := Option (Text → Option (BitVec 64))

/-- The symbol's value (debug_command_shell.cc:1491-1496). -/
def lookup (syms : Symbols) (s : Text) : Value :=
  match syms with
  | none => .noTable
  | some f => match f s with
    | some v => .value v
    | none => .noSymbol

/-- `GetValueFromString` (debug_command_shell.cc:1477-1497). -/
def getValue (syms : Symbols) (s : Text) (radix : Nat) : Value :=
  match strtoull radix s with
  | .ok v used => if used ≥ s.length then .value v else lookup syms s
  | .outOfRange => .outOfRange
  | .invalid => lookup syms s

/-! ## Printing -/

def digitChar (d : Nat) : Char := if d < 10 then Char.ofNat (48 + d) else Char.ofNat (87 + d)

/-- A number in the base, with at most `fuel` + 1 digits (the values printed have 64 bits). -/
def digitsOf (base : Nat) : Nat → Nat → Text
  | 0, n => [digitChar n]
  | fuel + 1, n => if n < base then [digitChar n] else digitsOf base fuel (n / base) ++ [digitChar (n % base)]

/-- `StrCat` of an unsigned number, `%o`, `absl::Hex`. -/
def decimal (n : Nat) : Text := digitsOf 10 64 n
def octal (n : Nat) : Text := digitsOf 8 64 n
/-- `absl::Hex(n, pad)`. -/
def hex (pad : Nat) (n : Nat) : Text :=
  let t := digitsOf 16 64 n
  List.replicate (pad - t.length) '0' ++ t

/-- `StrCat` of a signed number of `w` bits. -/
def signed (w : Nat) (n : Nat) : Text :=
  if n < 2 ^ (w - 1) then decimal n else '-' :: decimal (2 ^ w - n)

/-! ## mem get, mem set -/

/-- The letter and the width of a format (debug_command_shell.cc:1284-1305, 1401-1421); `none` if
it is refused. The width is stored in an `int`. -/
def readFormat (format : Text) : Option (Char × Nat) :=
  match format.dropWhile (· = ' ') with
  | [] => none
  | c :: rest =>
    match Setup.stoull 10 rest with
    | none => none
    | some v =>
      let width := v.toNat % 2 ^ 32
      if width = 8 ∨ width = 16 ∨ width = 32 ∨ width = 64 then some (c, width) else none

/-- The bytes as one number, the first the least significant. -/
def number : List (BitVec 8) → Nat
  | [] => 0
  | b :: bs => b.toNat + 256 * number bs

/-- What is printed. -/
inductive Out where
  /-- `[address] = text` -/
  | shown (address : BitVec 64) (text : Text)
  /-- a floating-point number given by its bits -/
  | float (address : BitVec 64) (width bits : Nat)
  /-- the disassembly of the instruction at the address -/
  | disassembly (address : BitVec 64)
  | error
deriving DecidableEq

variable {w : Nat}

/-- `ReadMemory` (debug_command_shell.cc:1277-1394). `buffer` is `mem_buffer_` before; the result
has it after. -/
def readMemory (syms : Symbols) (c : Core.Core w) (st : DebugMem.RunStatus) (buffer : List (BitVec 8))
    (address format : Text) : Out × List (BitVec 8) :=
  let f := if format.isEmpty then some ('x', 32)
    else if format.head? = some 'i' then some ('i', 32)
    else readFormat format
  match f with
  | none => (.error, buffer)
  | some (ch, width) =>
    match getValue syms address 0 with
    | .value a =>
      if ch = 'i' then (.disassembly a, buffer)
      else
        match DebugMem.readMemory c st a (BitVec.ofNat 64 (width / 8)) with
        | .ok bytes =>
          let buffer := bytes ++ buffer.drop bytes.length
          let n := number (buffer.take (width / 8))
          let out :=
            if ch = 'f' ∧ 32 ≤ width then .float a width n
            else if ch = 'd' then .shown a (signed width n)
            else if ch = 'x' ∨ ch = 'X' then .shown a (hex (width / 4) n)
            else if ch = 'u' then .shown a (decimal n)
            else .shown a (octal n)
          (out, buffer)
        | _ => (.error, buffer)
    | _ => (.error, buffer)

/-- The base in which the value is read (debug_command_shell.cc:1406-1412). -/
def radixOf (ch : Char) : Nat :=
  if ch = 'x' ∨ ch = 'X' then 16
  else if ch = 'd' ∨ ch = 'u' then 10
  else if ch = 'o' then 8
  else 0

/-- The first `n` bytes of a number in memory. -/
def bytesOf (v : BitVec 64) : Nat → List (BitVec 8)
  | 0 => []
  | n + 1 => v.setWidth 8 :: bytesOf (v >>> 8) n

/-- `WriteMemory` (debug_command_shell.cc:1396-1475). -/
def writeMemory (syms : Symbols) (c : Core.Core w) (st : DebugMem.RunStatus) (buffer : List (BitVec 8))
    (address format value : Text) : Out × Core.Core w × List (BitVec 8) :=
  let f := if format.isEmpty then some (0, 32)
    else (readFormat format).map fun x => (radixOf x.1, x.2)
  match f with
  | none => (.error, c, buffer)
  | some (radix, width) =>
    match getValue syms address 0 with
    | .value a =>
      match getValue syms value radix with
      | .value v =>
        let bytes := bytesOf v (width / 8)
        let buffer := bytes ++ buffer.drop bytes.length
        match DebugMem.writeMemory c st a (buffer.take (width / 8)) with
        | (c, .ok _) => (.shown a (hex (width / 4) v.toNat), c, buffer)
        | (c, _) => (.error, c, buffer)
      | _ => (.error, c, buffer)
    | _ => (.error, c, buffer)

end Verif.ShellMem
