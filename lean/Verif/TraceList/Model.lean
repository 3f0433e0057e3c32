import Verif.BranchTrace.Model
/-
The shell's command `branch-trace` (riscv/debug_command_shell.cc:1032-1076).
-/
namespace Verif.TraceList
open Verif.BranchTrace

/-- The lines printed: from, to, count. `$branch_trace_head` and `$branch_trace` give the head and the
buffer of the core (riscv_top.cc:531, 634); the loop starts after the head and passes over entries whose
count is zero. -/
def listing (s : State) : List (BitVec 32 × BitVec 32 × BitVec 32) :=
  ((List.range s.size).map fun i => s.buf ((s.head + 1 + i) % s.size)).filterMap fun e =>
    if e.count = 0#32 then none else some (e.src, e.dst, e.count)

end Verif.TraceList
