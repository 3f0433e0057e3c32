import Verif.Semihost.Model
/-
Model of the host-target interface, `riscv/riscv32_htif_semihost.{h,cc}`: system calls a
program makes by storing to magic addresses.

The host operating system is a parameter, as in `Verif.Semihost`. The memory watcher calls
`StoreEvent` after each store that touches the ready byte (mpact-sim); the memory interface
the object uses is flat and does not trigger the watcher.
-/
namespace Verif.Htif

open Semihost (Byte Memory loadBytes storeBytes leBytes word toInt32 upd)

/-- Calls of the host operating system. `close` is never made by the code; it is part of the
type for the specification. -/
inductive Call where
  | openat (dir : Int) (name : List Byte) (flags mode : Int)
  | close (fd : Int)
  | lseek (fd : Int) (offset : Int) (whence : Int)
  | read (fd : Int) (length : Nat)
  | write (fd : Int) (data : List Byte)
  | pread (fd : Int) (length : Nat) (offset : Int)
  | pwrite (fd : Int) (data : List Byte) (offset : Int)
deriving DecidableEq, Repr

/-- The host's response: return value, `errno` afterwards, bytes delivered. -/
structure Resp where
  ret : Int
  errno : Int
  data : List Byte
deriving DecidableEq, Repr

abbrev Host := List Call → Call → Resp

/-- The magic addresses (riscv32_htif_semihost.h:41-46). -/
structure Addresses where
  tohostReady : BitVec 64
  tohost : BitVec 64
  fromhostReady : BitVec 64
  fromhost : BitVec 64

/-- State of the object (riscv32_htif_semihost.h:67-81) and of what it acts on: memory, the
descriptor map, the host calls made, the number of times the halt callback ran, the system
call numbers reported to the error callback, and which callbacks are installed. -/
structure St where
  mem : Memory
  fdMap : Int → Option Int
  calls : List Call
  halts : Nat
  errors : List Nat
  haltCallback : Bool
  errorCallback : Bool

/-- `kRiscvAtFdCwd` and the host's `AT_FDCWD`, which is the same number on Linux
(riscv32_htif_semihost.cc:34,60). -/
def atFdCwd : Int := -100

/-- The descriptor map after construction (riscv32_htif_semihost.cc:56-60). -/
def initialMap : Int → Option Int :=
  fun h => if h = 0 ∨ h = 1 ∨ h = 2 ∨ h = atFdCwd then some h else none

/-- The state after a host call has been made. -/
def St.did (s : St) (c : Call) : St := { s with calls := s.calls ++ [c] }

/-- The host descriptor a program descriptor stands for, or -1
(riscv32_htif_semihost.cc:130-135,155-156 and alike); the map is indexed by `int`. -/
def fdOf (s : St) (v : BitVec 64) : Int := (s.fdMap (toInt32 v)).getD (-1)

/-- The response packets (riscv32_htif_semihost.cc:241-248): the return value at the start of
the parameter block, then a one in the response-ready byte. -/
def respond (a : Addresses) (block : BitVec 64) (ret : BitVec 64) (s : St) : St :=
  { s with
    mem := storeBytes (storeBytes s.mem block (leBytes 8 ret.toNat)) a.fromhostReady [1] }

/-- What is done with the result of a host `read` or `pread`
(riscv32_htif_semihost.cc:167-182,201-216): `int res`, and if it is positive that many bytes
are stored. -/
def deliver (stale : Nat → Byte) (r : Resp) (dst : BitVec 64) (s : St) : BitVec 64 × St :=
  let res := (BitVec.ofInt 32 r.ret).toInt
  let bs := (List.range res.toNat).map fun k => r.data.getD k (stale k)
  (BitVec.ofInt 64 res, if 0 < res then { s with mem := storeBytes s.mem dst bs } else s)

/-- The lengths for which a buffer can be allocated: the allocation takes an `int`. -/
def allocatable (v : BitVec 64) : Bool := v.toNat < 2 ^ 31

/-- Outcome of the system call switch: a return value and new state, no response, or undefined
behaviour. -/
inductive Res where
  | ret (v : BitVec 64) (s : St)
  | unhandled (n : Nat)
  | ub

/-- `sys_openat` (riscv32_htif_semihost.cc:127-142). A file name without a terminating zero
in its buffer is read beyond the buffer. -/
def sysOpenat (host : Host) (p : Nat → BitVec 64) (s : St) : Res :=
  let dir := fdOf s (p 1)
  let name := loadBytes s.mem (p 2) (p 3).toNat
  if allocatable (p 3) = false ∨ (0 : Byte) ∉ name then .ub
  else
    let c : Call := .openat dir (name.takeWhile (· ≠ 0)) (toInt32 (p 4)) (toInt32 (p 5))
    .ret (BitVec.ofInt 64 (host s.calls c).ret) (s.did c)

/-- `sys_close` (riscv32_htif_semihost.cc:143-152). -/
def sysClose (p : Nat → BitVec 64) (s : St) : Res :=
  match s.fdMap (toInt32 (p 1)) with
  | none => .ret (BitVec.ofInt 64 (-1)) s
  | some _ => .ret 0 { s with fdMap := upd s.fdMap (toInt32 (p 1)) none }

/-- `sys_lseek` (riscv32_htif_semihost.cc:153-160). -/
def sysLseek (host : Host) (p : Nat → BitVec 64) (s : St) : Res :=
  let c : Call := .lseek (fdOf s (p 1)) (p 2).toInt (toInt32 (p 3))
  .ret (BitVec.ofInt 64 (host s.calls c).ret) (s.did c)

/-- `sys_read` (riscv32_htif_semihost.cc:161-183). -/
def sysRead (host : Host) (stale : Nat → Byte) (p : Nat → BitVec 64) (s : St) : Res :=
  if allocatable (p 3) = false then .ub
  else
    let c : Call := .read (fdOf s (p 1)) (p 3).toNat
    let d := deliver stale (host s.calls c) (p 2) (s.did c)
    .ret d.1 d.2

/-- `sys_write` (riscv32_htif_semihost.cc:184-193). -/
def sysWrite (host : Host) (p : Nat → BitVec 64) (s : St) : Res :=
  if allocatable (p 3) = false then .ub
  else
    let c : Call := .write (fdOf s (p 1)) (loadBytes s.mem (p 2) (p 3).toNat)
    .ret (BitVec.ofInt 64 (host s.calls c).ret) (s.did c)

/-- `sys_pread` (riscv32_htif_semihost.cc:194-217). -/
def sysPread (host : Host) (stale : Nat → Byte) (p : Nat → BitVec 64) (s : St) : Res :=
  if allocatable (p 3) = false then .ub
  else
    let c : Call := .pread (fdOf s (p 1)) (p 3).toNat (p 4).toInt
    let d := deliver stale (host s.calls c) (p 2) (s.did c)
    .ret d.1 d.2

/-- `sys_pwrite` (riscv32_htif_semihost.cc:218-228). -/
def sysPwrite (host : Host) (p : Nat → BitVec 64) (s : St) : Res :=
  if allocatable (p 3) = false then .ub
  else
    let c : Call := .pwrite (fdOf s (p 1)) (loadBytes s.mem (p 2) (p 3).toNat) (p 4).toInt
    .ret (BitVec.ofInt 64 (host s.calls c).ret) (s.did c)

/-- `sys_exit` (riscv32_htif_semihost.cc:229-231). -/
def sysExit (s : St) : Res :=
  .ret 0 (if s.haltCallback then { s with halts := s.halts + 1 } else s)

/-- The system call switch (riscv32_htif_semihost.cc:125-240) on the number `n`; `p` are the
words of the parameter block. -/
def switch (host : Host) (stale : Nat → Byte) (n : Nat) (p : Nat → BitVec 64) (s : St) : Res :=
  match n with
  | 56 => sysOpenat host p s
  | 57 => sysClose p s
  | 62 => sysLseek host p s
  | 63 => sysRead host stale p s
  | 64 => sysWrite host p s
  | 67 => sysPread host stale p s
  | 68 => sysPwrite host p s
  | 93 => sysExit s
  | n => .unhandled n

/-- The first parameter specifies the system call (riscv32_htif_semihost.cc:124-125). -/
def syscall (host : Host) (stale : Nat → Byte) (p : Nat → BitVec 64) (s : St) : Res :=
  switch host stale (p 0).toNat p s

/-- `StoreEvent` (riscv32_htif_semihost.cc:86-249); `none` is undefined behaviour (also the
call of an error callback that was never set, line 237). The freed parameter buffer that line
237 reads is still intact. `address + size - 1` is computed in 64 bits. -/
def storeEvent (host : Host) (stale : Nat → Byte) (a : Addresses) (s : St)
    (address : BitVec 64) (size : Nat) : Option St :=
  if a.tohostReady < address ∨ address + BitVec.ofNat 64 size - 1 < a.tohostReady then some s
  else if s.mem a.tohostReady ≠ 1 then some s
  else
    let payload : BitVec 64 := word 64 s.mem a.tohost 0
    let device := (payload >>> 56).setWidth 8
    let command := ((payload >>> 48) &&& 0xff).setWidth 8
    if device ≠ 0 ∨ command ≠ 0 then some s
    else if payload &&& 1 ≠ 0 then
      some (if s.haltCallback then { s with halts := s.halts + 1 } else s)
    else
      match syscall host stale (fun k => word 64 s.mem payload k) s with
      | .ret v s' => some (respond a payload v s')
      | .unhandled n => if s.errorCallback then some { s with errors := s.errors ++ [n] } else none
      | .ub => none

end Verif.Htif
