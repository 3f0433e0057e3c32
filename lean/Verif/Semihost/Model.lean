/-
Model of ARM-style semihosting, `riscv/riscv_arm_semihost.{h,cc}`.

The host operating system is a parameter: a function from the calls made so far and the next
call to its response. Memory is a map from addresses to bytes; loads and stores through the
memory interface move the bytes of the buffer in order.
-/
namespace Verif.Semihost

abbrev Byte := BitVec 8
abbrev Memory := BitVec 64 → Byte

/-- The bytes a load of `n` bytes from `a` returns. -/
def loadBytes (m : Memory) (a : BitVec 64) (n : Nat) : List Byte :=
  (List.range n).map fun k => m (a + BitVec.ofNat 64 k)

/-- Memory after a store of `bs` to `a`. -/
def storeBytes (m : Memory) (a : BitVec 64) (bs : List Byte) : Memory :=
  fun x => if h : (x - a).toNat < bs.length then bs[(x - a).toNat] else m x

/-- The number a list of bytes denotes, least significant byte first. -/
def leNat : List Byte → Nat
  | [] => 0
  | b :: bs => b.toNat + 256 * leNat bs

/-- The bytes of a number, least significant first. -/
def leBytes : Nat → Nat → List Byte
  | 0, _ => []
  | n + 1, v => BitVec.ofNat 8 v :: leBytes n (v / 256)

/-- Word `k` (of `w` bits) of the block at `a`: `db->Get<uintw_t>(k)` after a load of the
block. -/
def word (w : Nat) (m : Memory) (a : BitVec 64) (k : Nat) : BitVec w :=
  BitVec.ofNat w (leNat (loadBytes m (a + BitVec.ofNat 64 (k * (w / 8))) (w / 8)))

/-- `static_cast<int>` of an unsigned word. -/
def toInt32 {w : Nat} (v : BitVec w) : Int := (v.setWidth 32).toInt

/-- How a host file is opened: access, and creation. (`open`'s truncate and append flags
are never used by the code and are part of this structure for the specification.) -/
structure Flags where
  read : Bool
  write : Bool
  create : Bool
  truncate : Bool
  append : Bool
deriving DecidableEq, Repr

/-- Calls of the host operating system. -/
inductive Call where
  | close (fd : Int)
  | fstat (fd : Int)
  | isatty (fd : Int)
  | dup (fd : Int)
  | openFile (name : List Byte) (flags : Flags) (perm : Int)
  | read (fd : Int) (length : Nat)
  | write (fd : Int) (data : List Byte)
  | lseek (fd : Int) (offset : BitVec 64)
  | time
  | tmpnam (length : Nat)
deriving DecidableEq, Repr

/-- The host's response: return value (for `fstat`, the file size when it is not negative),
the value of `errno` afterwards, and the bytes delivered. -/
structure Resp where
  ret : Int
  errno : Int
  data : List Byte
deriving DecidableEq, Repr

/-- A host operating system. -/
abbrev Host := List Call → Call → Resp

/-- State of the semihosting object and of what it acts on (riscv_arm_semihost.h:141-170):
data memory, the handle map, the saved errno, the command line, the calls made so far and
the number of times the exit callback ran (`exitCallback`: one is installed). -/
structure St where
  mem : Memory
  fdMap : Int → Option Int
  errno : Int
  cmdLine : List Byte
  calls : List Call
  exits : Nat
  exitCallback : Bool

/-- The handle map after construction (riscv_arm_semihost.cc:89-94). -/
def initialMap : Int → Option Int := fun h => if 0 ≤ h ∧ h ≤ 2 then some h else none

/-- Result of an operation: a status, with the return value for an OK status; `ub` is a
buffer allocation of negative size. -/
inductive Res where
  | ok (ret : BitVec 64) (s : St)
  | err (s : St)
  | ub

/-- The state after a host call has been made. -/
def St.did (s : St) (c : Call) : St := { s with calls := s.calls ++ [c] }

/-- Update of a map at one key. -/
def upd (f : Int → Option Int) (k : Int) (v : Option Int) : Int → Option Int :=
  fun x => if x = k then v else f x

/-- `-1ULL`. -/
def minusOne : BitVec 64 := BitVec.allOnes 64

variable (w : Nat) (host : Host)

/-- `SysClose` (riscv_arm_semihost.cc:173-201). -/
def sysClose (s : St) (p : BitVec 64) : Res :=
  let fd := toInt32 (word w s.mem p 0)
  match s.fdMap fd with
  | none => .ok minusOne s
  | some h =>
    if h ≤ 2 then .ok 0 s
    else
      let c : Call := .close h
      let r := host s.calls c
      let s := s.did c
      if r.ret = 0 then .ok (BitVec.ofInt 64 r.ret) { s with errno := r.errno }
      else .ok (BitVec.ofInt 64 r.ret) { s with fdMap := upd s.fdMap fd none }

/-- `SysErrno` (riscv_arm_semihost.cc:217-220). -/
def sysErrno (s : St) (_ : BitVec 64) : Res := .ok (BitVec.ofInt 64 s.errno) s

/-- `SysException` (riscv_arm_semihost.cc:223-247). -/
def sysException (s : St) (p : BitVec 64) : Res :=
  let v : BitVec 32 := if w = 32 then p.setWidth 32 else (word w s.mem p 0).setWidth 32
  if v = 0x20026#32 then
    if s.exitCallback then .ok 0 { s with exits := s.exits + 1 } else .err s
  else .err s

/-- `SysFlen` (riscv_arm_semihost.cc:250-272). -/
def sysFlen (s : St) (p : BitVec 64) : Res :=
  let fd := toInt32 (word w s.mem p 0)
  match s.fdMap fd with
  | none => .ok minusOne s
  | some h =>
    let c : Call := .fstat h
    let r := host s.calls c
    let s := s.did c
    if r.ret < 0 then .ok minusOne { s with errno := r.errno }
    else .ok (BitVec.ofInt 64 r.ret) s

/-- `SysGetCmdline` (riscv_arm_semihost.cc:275-300). The block is stored back with its
second word replaced by the length. -/
def sysGetCmdline (s : St) (p : BitVec 64) : Res :=
  let buf : BitVec 64 := (word w s.mem p 0).setWidth 64
  let len := (word w s.mem p 1).toNat
  if len ≤ s.cmdLine.length then .ok minusOne s
  else
    let blk := loadBytes s.mem p (w / 8) ++ leBytes (w / 8) s.cmdLine.length
    let m := storeBytes s.mem buf (s.cmdLine ++ [0])
    .ok (BitVec.ofNat 64 s.cmdLine.length) { s with mem := storeBytes m p blk }

/-- `SysHeapInfo` (riscv_arm_semihost.cc:303-319): sixteen zero bytes, at the block's
address converted through `int`. -/
def sysHeapInfo (s : St) (p : BitVec 64) : Res :=
  let a := BitVec.ofInt 64 (toInt32 (word w s.mem p 0))
  .ok 0 { s with mem := storeBytes s.mem a (List.replicate 16 0) }

/-- `SysIsTty` (riscv_arm_semihost.cc:330-349). -/
def sysIsTty (s : St) (p : BitVec 64) : Res :=
  let fd := toInt32 (word w s.mem p 0)
  match s.fdMap fd with
  | none => .ok minusOne s
  | some h =>
    let c : Call := .isatty h
    let r := host s.calls c
    let s := s.did c
    .ok (BitVec.ofInt 64 r.ret) (if r.ret = 0 then { s with errno := r.errno } else s)

/-- A C string: the bytes before the first NUL (`std::string::c_str`). -/
def cstr (bs : List Byte) : List Byte := bs.takeWhile (· ≠ 0)

/-- The characters `:tt`. -/
def tt : List Byte := [0x3a, 0x74, 0x74]

/-- `SysOpen` (riscv_arm_semihost.cc:352-402). `O_RDONLY` is 0, and `open(name, O_CREAT, _)`
opens for reading, creating the file if needed. `insert` does not replace an entry. -/
def sysOpen (s : St) (p : BitVec 64) : Res :=
  let addr : BitVec 64 := (word w s.mem p 0).setWidth 64
  let mode := toInt32 (word w s.mem p 1)
  let len := toInt32 (word w s.mem p 2)
  if len < 0 then .ub
  else
    let name := loadBytes s.mem addr len.toNat
    let (h, s) : Int × St :=
      if name = tt then (if mode = 0 then 0 else 1, s)
      else
        let f : Flags := ⟨true, false, decide (mode ≠ 0), false, false⟩
        let c : Call := .openFile (cstr name) f mode
        let r := host s.calls c
        let s := s.did c
        (r.ret, s)
    let c : Call := .dup h
    let r := host s.calls c
    let s := s.did c
    let ret := BitVec.ofInt 64 r.ret
    if r.ret < 0 then .ok ret { s with errno := r.errno }
    else
      match s.fdMap r.ret with
      | some _ => .ok ret s
      | none => .ok ret { s with fdMap := upd s.fdMap r.ret (some h) }

/-- `SysRead` (riscv_arm_semihost.cc:404-435). `stale` is what the allocated buffer holds
beyond the bytes the host delivered. -/
def sysRead (stale : Nat → Byte) (s : St) (p : BitVec 64) : Res :=
  let fd := toInt32 (word w s.mem p 0)
  let buf : BitVec 64 := (word w s.mem p 1).setWidth 64
  let len := toInt32 (word w s.mem p 2)
  match s.fdMap fd with
  | none => .ok minusOne s
  | some h =>
    if len < 0 then .ub
    else
      let c : Call := .read h len.toNat
      let r := host s.calls c
      let s := s.did c
      if r.ret < 0 then .ok (BitVec.ofInt 64 r.ret) { s with errno := r.errno }
      else
        let bs := (List.range len.toNat).map fun k => r.data.getD k (stale k)
        .ok (BitVec.ofInt 64 r.ret) { s with mem := storeBytes s.mem buf bs }

/-- `SysSeek` (riscv_arm_semihost.cc:456-481). The offset goes through `int`. -/
def sysSeek (s : St) (p : BitVec 64) : Res :=
  let fd := toInt32 (word w s.mem p 0)
  let off := BitVec.ofInt 64 (toInt32 (word w s.mem p 1))
  match s.fdMap fd with
  | none => .ok minusOne s
  | some h =>
    let c : Call := .lseek h off
    let r := host s.calls c
    let s := s.did c
    if r.ret < 0 then .ok minusOne { s with errno := r.errno } else .ok 0 s

/-- `SysTime` (riscv_arm_semihost.cc:498-501). -/
def sysTime (s : St) (_ : BitVec 64) : Res :=
  let c : Call := .time
  let r := host s.calls c
  let s := s.did c
  .ok (BitVec.ofInt 64 r.ret) s

/-- `L_tmpnam` of the host's C library (glibc). -/
def lTmpnam : Int := 20

/-- `SysTmpnam` (riscv_arm_semihost.cc:504-532). -/
def sysTmpnam (stale : Nat → Byte) (s : St) (p : BitVec 64) : Res :=
  let buf := BitVec.ofInt 64 (toInt32 (word w s.mem p 0))
  let id := toInt32 (word w s.mem p 1)
  let len := toInt32 (word w s.mem p 2)
  if id < 0 ∨ 255 < id then .ok minusOne s
  else if len < lTmpnam then .ok minusOne s
  else
    let c : Call := .tmpnam len.toNat
    let r := host s.calls c
    let s := s.did c
    let bs := (List.range len.toNat).map fun k => r.data.getD k (stale k)
    .ok 0 { s with mem := storeBytes s.mem buf bs }

/-- `SysWrite` (riscv_arm_semihost.cc:535-566). -/
def sysWrite (s : St) (p : BitVec 64) : Res :=
  let fd := toInt32 (word w s.mem p 0)
  let buf : BitVec 64 := (word w s.mem p 1).setWidth 64
  let len := toInt32 (word w s.mem p 2)
  match s.fdMap fd with
  | none => .ok minusOne s
  | some h =>
    if len < 0 then .ub
    else
      let c : Call := .write h (loadBytes s.mem buf len.toNat)
      let r := host s.calls c
      let s := s.did c
      .ok (BitVec.ofInt 64 r.ret) (if r.ret < 0 then { s with errno := r.errno } else s)

/-- The dispatch on the operation number (riscv_arm_semihost.cc:47-76, with the numbers of
riscv_arm_semihost.h:99-121). The operations with an `Unimplemented` status are
riscv_arm_semihost.cc:204-214,323-327,438-453,484-487,569-579; `SysTickFreq` is 491-495. -/
def dispatch (stale : Nat → Byte) (op : Nat) : Option (St → BitVec 64 → Res) :=
  match op with
  | 0x01 => some (sysOpen w host)
  | 0x02 => some (sysClose w host)
  | 0x03 => some (fun s _ => .err s)
  | 0x04 => some (fun s _ => .err s)
  | 0x05 => some (sysWrite w host)
  | 0x06 => some (sysRead w host stale)
  | 0x07 => some (fun s _ => .err s)
  | 0x08 => some (fun s _ => .err s)
  | 0x09 => some (sysIsTty w host)
  | 0x0a => some (sysSeek w host)
  | 0x0c => some (sysFlen w host)
  | 0x0d => some (sysTmpnam w host stale)
  | 0x0e => some (fun s _ => .err s)
  | 0x0f => some (fun s _ => .err s)
  | 0x10 => some (fun s _ => .err s)
  | 0x11 => some (sysTime host)
  | 0x12 => some (fun s _ => .err s)
  | 0x13 => some sysErrno
  | 0x15 => some (sysGetCmdline w)
  | 0x16 => some (sysHeapInfo w)
  | 0x18 => some (sysException w)
  | 0x30 => some (fun s _ => .err s)
  | 0x31 => some (fun s _ => .ok minusOne s)
  | _ => none

/-- The hart as far as semihosting is concerned: registers a0 and a1, the semihosting
object with data memory, and instruction memory. -/
structure Machine (w : Nat) where
  a0 : BitVec w
  a1 : BitVec w
  st : St
  imem : Memory

/-- `IsSemihostingCall` (riscv_arm_semihost.cc:105-117): the twelve bytes from four bytes
before the ebreak. -/
def isCall {w : Nat} (m : Machine w) (address : BitVec 64) : Bool :=
  let a := address - 4
  word 32 m.imem a 0 == 0x01f01013#32 && word 32 m.imem a 1 == 0x00100073#32 &&
    word 32 m.imem a 2 == 0x40705013#32

/-- `OnEBreak` (riscv_arm_semihost.cc:119-171); `none` is undefined behaviour. The argument
registers exist. -/
def onEBreak {w : Nat} (host : Host) (stale : Nat → Byte) (m : Machine w)
    (address : BitVec 64) : Option (Machine w) :=
  if !isCall m address then some m
  else
    match dispatch w host stale m.a0.toNat with
    | none => some m
    | some f =>
      match f m.st (m.a1.setWidth 64) with
      | .ok ret s => some { m with a0 := ret.setWidth w, st := s }
      | .err s => some { m with a0 := BitVec.allOnes w, st := s }
      | .ub => none

end Verif.Semihost
