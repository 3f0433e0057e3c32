import Verif.ShellMem.Model
/-
Model of the command shell's `vreg get` and `vreg set` (riscv/debug_command_shell.cc:441-527,
1143-1281, riscv/riscv_top.cc:626-640). A register is its bytes in the data buffer; the host is
little-endian. The texts are those the command lines' expressions capture, so a number has no
blanks and no sign.
-/
namespace Verif.ShellVec
open Verif.Shell (Text)
open Verif.ShellMem (number bytesOf digitsOf decimal octal hex)

/-- `absl::SimpleAtoi` of a text without sign to a type with the given maximum. -/
def atoi (max : Nat) (s : Text) : Option Nat :=
  let ds := Setup.takeDigits 10 s
  if s = [] ∨ ds.length < s.length then none
  else
    let v := ds.foldl (fun acc d => acc * 10 + d) 0
    if v ≤ max then some v else none

/-- A leading `0x` is dropped. -/
def dropMark : Text → Text
  | '0' :: 'x' :: t => t
  | '0' :: 'X' :: t => t
  | t => t

/-- `absl::SimpleHexAtoi` to 64 bits. -/
def hexAtoi (s : Text) : Option Nat :=
  let t := dropMark s
  let ds := Setup.takeDigits 16 t
  if t = [] ∨ ds.length < t.length then none
  else
    let v := ds.foldl (fun acc d => acc * 16 + d) 0
    if v < 2 ^ 64 then some v else none

/-- `DataBuffer::Get<T>` of an element of `k` bytes. -/
def get (db : List (BitVec 8)) (k index : Nat) : Nat := number ((db.drop (index * k)).take k)

/-- `DataBuffer::Set<T>`; the value is converted to `k` bytes. -/
def set (db : List (BitVec 8)) (k index : Nat) (v : BitVec 64) : List (BitVec 8) :=
  db.take (index * k) ++ bytesOf v k ++ db.drop (index * k + k)

/-- Hexadecimal with capital letters. -/
def upper (c : Char) : Char :=
  if 97 ≤ c.toNat ∧ c.toNat ≤ 102 then Char.ofNat (c.toNat - 32) else c

inductive Out where
  | text (t : Text)
  | error
deriving DecidableEq

/-- `FormatDbValue` (debug_command_shell.cc:1143-1172); `%d` of an unsigned type prints it unsigned. -/
def formatValue (db : List (BitVec 8)) (l : Char) (width index : Nat) : Option Text :=
  let k := width / 8
  if index ≥ db.length / k then none
  else
    let v := get db k index
    if l = 'd' then some (decimal v)
    else if l = 'o' then some (octal v)
    else if l = 'u' then some (decimal v)
    else if l = 'x' then some (hex (width / 4) v)
    else if l = 'X' then some ((hex (width / 4) v).map upper)
    else none

/-- `WriteDbValue` (debug_command_shell.cc:1174-1210); `none` for an error. -/
def writeValue (value : Text) (db : List (BitVec 8)) (l : Char) (width index : Nat) :
    Option (List (BitVec 8)) :=
  let k := width / 8
  if index ≥ db.length / k then none
  else if l = 'd' then (atoi (2 ^ 63 - 1) value).map fun v => set db k index (BitVec.ofNat 64 v)
  else if l = 'u' then (atoi (2 ^ 64 - 1) value).map fun v => set db k index (BitVec.ofNat 64 v)
  else if l = 'x' ∨ l = 'X' then (hexAtoi value).map fun v => set db k index (BitVec.ofNat 64 v)
  else none

/-- The widths the switches have a case for. -/
def legal (width : Nat) : Bool := width = 8 || width = 16 || width = 32 || width = 64

/-- `FormatAllDbValues` (debug_command_shell.cc:1228-1263) from element `i` on, with `n` elements to
go. -/
def formatFrom (db : List (BitVec 8)) (l : Char) (width : Nat) (sep : Text) : Nat → Nat → Text
  | 0, _ => []
  | n + 1, i =>
    sep ++ (formatValue db l width i).getD "Error".toList ++ formatFrom db l width [':'] n (i + 1)

/-- The registers by name: their bytes. -/
abbrev Registers := Text → Option (List (BitVec 8))

/-- `vreg get` (debug_command_shell.cc:441-485). -/
def vregGet (regs : Registers) (st : DebugMem.RunStatus) (name index format width : Text) : Out :=
  let l := format.headD 'x'
  let width := if width = [] then "32".toList else width
  match atoi (2 ^ 31 - 1) width with
  | none => .error
  | some width =>
    if st ≠ .halted then .error
    else match regs name with
      | none => .error
      | some db =>
        if index = [] then
          (if legal width then .text (formatFrom db l width [] (db.length / (width / 8)) 0) else .error)
        else match atoi (2 ^ 31 - 1) index with
          | none => .error
          | some i =>
            if legal width then
              (match formatValue db l width i with
               | some t => .text t
               | none => .error)
            else .error

/-- `vreg set` (debug_command_shell.cc:487-527): the register's bytes after it, `none` for an error. -/
def vregSet (regs : Registers) (st : DebugMem.RunStatus) (name index format width value : Text) :
    Option (List (BitVec 8)) :=
  let l := format.headD 'x'
  let width := if width = [] then "32".toList else width
  match atoi (2 ^ 31 - 1) width with
  | none => none
  | some width =>
    if st ≠ .halted then none
    else match regs name with
      | none => none
      | some db =>
        match atoi (2 ^ 31 - 1) index with
        | none => none
        | some i => if legal width then writeValue value db l width i else none

end Verif.ShellVec
