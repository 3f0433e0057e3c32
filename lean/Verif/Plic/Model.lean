/-
Model of the platform-level interrupt controller (riscv/riscv_plic.{h,cc}).

Accesses outside the arrays of the C++ class and calls through a null context interface are
undefined behaviour: the functions below return `none` for them. Source numbers, context numbers
and (24-bit) register offsets are natural numbers; negative source numbers, which `SetInterrupt`
rejects, are not representable. The two multimaps are kept as lists per key, in insertion order,
which is the order in which `absl::btree_multimap` visits equal keys.
-/
namespace Verif.Plic

/-- Function update. -/
def upd {α : Type} (f : Nat → α) (k : Nat) (v : α) : Nat → α := fun i => if i = k then v else f i

/-- Members of `RiscVPlic` (riscv_plic.h). `ready`/`gpend` are the two fields of `GatewayInfo`;
`hasIf c` says that `context_if_[c]` is not null. -/
structure Plic where
  nS : Nat
  nC : Nat
  hasIf : Nat → Bool
  irq : Nat → Bool
  ready : Nat → Bool
  gpend : Nat → Bool
  prio : Nat → BitVec 32
  /-- `interrupt_pending_`, 32 sources per word, `nS / 32 + 1` words. -/
  pend : Nat → BitVec 32
  /-- `interrupt_enabled_[context][word]`. -/
  enabled : Nat → Nat → BitVec 32
  thresh : Nat → BitVec 32
  claimed : Nat → Nat
  s2c : Nat → List Nat
  c2s : Nat → List Nat

namespace Plic

/-- Constructor (riscv_plic.cc:31-62) followed by `SetContext` (265-267) for the contexts in `ifs`. -/
def init (nS nC : Nat) (ifs : Nat → Bool) : Plic where
  nS := nS
  nC := nC
  hasIf := ifs
  irq := fun _ => false
  ready := fun _ => true
  gpend := fun _ => false
  prio := fun _ => 0#32
  pend := fun _ => 0#32
  enabled := fun _ _ => 0#32
  thresh := fun _ => 0#32
  claimed := fun _ => 0
  s2c := fun _ => []
  c2s := fun _ => []

/-- `IsPending` (riscv_plic.cc:575-579). -/
def isPending (p : Plic) (s : Nat) : Bool := (p.pend (s / 32)).getLsbD (s % 32)

/-- `SetPending` (riscv_plic.cc:565-573). -/
def setPending (p : Plic) (s : Nat) (v : Bool) : Plic :=
  let w := p.pend (s / 32)
  let m := 1#32 <<< (s % 32)
  { p with pend := upd p.pend (s / 32) (if v then w ||| m else w &&& ~~~m) }

/-- Raise the line of one context (riscv_plic.cc:193-194). -/
def raise (p : Plic) (c : Nat) : Plic := { p with irq := upd p.irq c true }

/-- Loop body of `SetPlicPendingInterrupt` (riscv_plic.cc:186-195). -/
def trigger (p : Plic) (s c : Nat) : Plic :=
  if p.prio s ≤ p.thresh c then p else if p.hasIf c = false then p else p.raise c

/-- `SetPlicPendingInterrupt` (riscv_plic.cc:171-196). -/
def setPlicPending (p : Plic) (s : Nat) : Plic :=
  if s = 0 ∨ p.nS ≤ s then p
  else if p.isPending s then p
  else if p.prio s = 0#32 then p
  else (p.s2c s).foldl (fun q c => q.trigger s c) (p.setPending s true)

/-- `SetInterrupt` (riscv_plic.cc:143-169). -/
def setInterrupt (p : Plic) (s : Nat) (value level : Bool) : Plic :=
  if p.nS ≤ s then p
  else if !value && !level then p
  else if !p.ready s || !value then
    if level then { p with gpend := upd p.gpend s value } else p
  else
    let p := if level then { p with gpend := upd p.gpend s true } else p
    if p.prio s = 0#32 then p
    else ({ p with ready := upd p.ready s false }).setPlicPending s

/-- Local variables of the loop of `ClaimInterrupt` (riscv_plic.cc:504-509). -/
structure Scan where
  id : Nat := 0
  priority : BitVec 32 := 0#32
  count : Int := 0
deriving DecidableEq, Repr

/-- Loop body of `ClaimInterrupt` (riscv_plic.cc:510-522). The comparisons are unsigned, because
`interrupt_priority_` is. `none` if the source is outside the arrays. -/
def scan1 (p : Plic) (a : Scan) (s : Nat) : Option Scan :=
  if p.nS / 32 < s / 32 then none
  else if p.isPending s = false then some a
  else if p.nS ≤ s then none
  else if p.prio s < a.priority then some a
  else if a.priority = p.prio s ∧ a.id < s then some a
  else some ⟨s, p.prio s, a.count + 1⟩

/-- `ClaimInterrupt` (riscv_plic.cc:502-534). -/
def claim (p : Plic) (c : Nat) : Option (Nat × Plic) :=
  if p.nC ≤ c then some (0, p)
  else
    match (p.c2s c).foldlM (scan1 p) ({} : Scan) with
    | none => none
    | some a =>
      let q := if a.id ≠ 0 then
          { p.setPending a.id false with claimed := upd p.claimed c a.id } else p
      let count := if a.id ≠ 0 then a.count - 1 else a.count
      if count = 0 then
        if p.hasIf c then some (a.id, { q with irq := upd q.irq c false }) else none
      else some (a.id, q)

/-- `CompleteInterrupt` (riscv_plic.cc:536-563). -/
def complete (p : Plic) (c id : Nat) : Option Plic :=
  if p.nC ≤ c then some p
  else if id ∉ p.c2s c then some p
  else
    let s := p.claimed c
    let p := { p with claimed := upd p.claimed c 0 }
    if p.nS ≤ s then none
    else if p.gpend s ∧ 0#32 < p.prio s then some (p.setPlicPending s)
    else some { p with ready := upd p.ready s true }

/-- `Read` (riscv_plic.cc:275-336). -/
def read (p : Plic) (offset : Nat) : Option (BitVec 32 × Plic) :=
  if offset < 0x1000 then
    if offset / 4 < p.nS then some (p.prio (offset / 4), p) else none
  else if offset < 0x2000 then
    let o := offset - 0x1000
    if p.nS / 32 < o then some (0#32, p) else some (p.pend o, p)
  else if offset < 0x200000 then
    let o := offset - 0x2000
    let c := o / 128
    if p.nC ≤ c then some (0#32, p)
    else
      let word := o % 128
      if p.nS + 32 ≤ word * 32 then some (0#32, p)
      else if word ≤ p.nS / 32 then some (p.enabled c word, p) else none
  else
    let o := offset - 0x200000
    let c := o / 4096
    if p.nC ≤ c then some (0#32, p)
    else if o % 4096 = 0 then some (p.thresh c, p)
    else if o % 4096 = 4 then (p.claim c).map fun r => (BitVec.ofNat 32 r.1, r.2)
    else some (0#32, p)

/-- The bits of a word that are set, lowest first (`absl::countr_zero` loops). -/
def bitsOf (w : BitVec 32) : List Nat := (List.range 32).filter fun b => w.getLsbD b

/-- Write of a priority register (riscv_plic.cc:340-357). -/
def writePrio (p : Plic) (offset : Nat) (v : BitVec 32) : Plic :=
  let s := offset / 8
  if p.nS ≤ s then p
  else
    let prev := p.prio s
    let p := { p with prio := upd p.prio s v }
    if prev = 0#32 ∧ v ≠ 0#32 ∧ p.ready s ∧ p.gpend s then p.setPlicPending s else p

/-- Inner loop of a pending write, one context (riscv_plic.cc:376-393). -/
def trigger2 (p : Plic) (s c : Nat) : Plic :=
  if p.irq c then p else p.trigger s c

/-- Write of a pending word (riscv_plic.cc:360-396). The priority array is read for every newly
set bit of a source that has a context whose line is low. -/
def writePend (p : Plic) (o : Nat) (v : BitVec 32) : Option Plic :=
  if p.nS / 32 < o then some p
  else
    let bitsSet := (v ^^^ p.pend o) &&& v
    let p := { p with pend := upd p.pend o v }
    (bitsOf bitsSet).foldlM (fun q b =>
      let s := o * 32 + b
      (q.s2c s).foldlM (fun q c =>
        if q.irq c then some q else if q.nS ≤ s then none else some (q.trigger2 s c)) q) p

/-- Loop body for a newly enabled source (riscv_plic.cc:414-432). -/
def enable1 (p : Plic) (c s : Nat) : Option Plic :=
  let p := { p with s2c := upd p.s2c s (p.s2c s ++ [c]), c2s := upd p.c2s c (p.c2s c ++ [s]) }
  if p.hasIf c = false then some p
  else if p.irq c then some p
  else if p.nS ≤ s then none
  else if p.thresh c < p.prio s then some (p.raise c) else some p

/-- Loop body for a newly disabled source (riscv_plic.cc:435-453). -/
def disable1 (p : Plic) (c s : Nat) : Plic :=
  { p with s2c := upd p.s2c s ((p.s2c s).erase c), c2s := upd p.c2s c ((p.c2s c).erase s) }

/-- Write of an enable word, with the context and word already extracted. -/
def writeEnableWord (p : Plic) (c word : Nat) (v : BitVec 32) : Option Plic :=
  if p.nC ≤ c ∨ p.nS / 32 < word then none
  else
    let prev := p.enabled c word
    let bitsSet := (v ^^^ prev) &&& v
    let bitsCleared := (v ^^^ prev) &&& ~~~v
    let p := { p with enabled := upd p.enabled c (upd (p.enabled c) word v) }
    match (bitsOf bitsSet).foldlM (fun q b => q.enable1 c (word * 32 + b)) p with
    | none => none
    | some p => some ((bitsOf bitsCleared).foldl (fun q b => q.disable1 c (word * 32 + b)) p)

/-- Write of an enable register (riscv_plic.cc:399-455); `o` is the offset from 0x2000. -/
def writeEnable (p : Plic) (o : Nat) (v : BitVec 32) : Option Plic :=
  let o := o / 4
  let word := (o / 4) % 32
  let c := o / 128
  p.writeEnableWord c word v

/-- Write of a threshold register (riscv_plic.cc:467-491). -/
def writeThresh (p : Plic) (c : Nat) (v : BitVec 32) : Option Plic :=
  let prev := p.thresh c
  let p := { p with thresh := upd p.thresh c v }
  if v < prev ∧ p.irq c = false ∧ p.hasIf c = true then
    -- `break` at the first source above the threshold; sources outside the array are an
    -- out-of-bounds read
    match (p.c2s c).find? (fun s => p.nS ≤ s ∨ v < p.prio s) with
    | none => some p
    | some s => if p.nS ≤ s then none else some (p.raise c)
  else some p

/-- `Write` (riscv_plic.cc:338-500). -/
def write (p : Plic) (offset : Nat) (v : BitVec 32) : Option Plic :=
  if offset < 0x1000 then some (p.writePrio offset v)
  else if offset < 0x2000 then p.writePend (offset - 0x1000) v
  else if offset < 0x200000 then p.writeEnable (offset - 0x2000) v
  else
    let o := offset - 0x200000
    let c := o / 4096
    if p.nC ≤ c then some p
    else if o % 4096 = 0 then p.writeThresh c v
    else if o % 4096 = 4 then p.complete c v.toNat
    else some p

/-- One `<source>=<priority>` item of `Configure` (riscv_plic.cc:94-100). -/
def cfgPrio (p : Plic) (s : Nat) (v : BitVec 32) : Plic :=
  if p.nS ≤ s then p else { p with prio := upd p.prio s v }

/-- One `<source>,<enable>` item of `Configure` (riscv_plic.cc:119-134). The regular expression
admits a digit for `enable`; only 0 and 1 are modelled. -/
def cfgEnable (p : Plic) (c s : Nat) (enable : Bool) : Plic :=
  if p.nC ≤ c ∨ p.nS ≤ s then p
  else
    let w := p.enabled c (s / 32)
    let m := 1#32 <<< (s % 32)
    { p with
      s2c := upd p.s2c s (p.s2c s ++ [c])
      c2s := upd p.c2s c (p.c2s c ++ [s])
      enabled := upd p.enabled c
        (upd (p.enabled c) (s / 32) ((w &&& ~~~m) ||| (if enable then m else 0#32))) }

/-- What can happen to a PLIC. -/
inductive Op where
  | set (s : Nat) (value level : Bool)
  | claim (c : Nat)
  | write (offset : Nat) (v : BitVec 32)
  | cfgPrio (s : Nat) (v : BitVec 32)
  | cfgEnable (c s : Nat) (enable : Bool)
deriving DecidableEq, Repr

def step (p : Plic) : Op → Option Plic
  | .set s v l => some (p.setInterrupt s v l)
  | .claim c => (p.claim c).map Prod.snd
  | .write o v => p.write o v
  | .cfgPrio s v => some (p.cfgPrio s v)
  | .cfgEnable c s e => some (p.cfgEnable c s e)

def run (p : Plic) (l : List Op) : Option Plic := l.foldlM step p

end Plic
end Verif.Plic
