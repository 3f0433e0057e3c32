import Verif.Semihost.Props
/-
C93: seeking, file lengths, error number, exit, command line and heap information; concrete
cases.
-/
namespace Verif.Semihost

variable {w : Nat} {host : Host} {stale : Nat → Byte} {m : Machine w} {addr : BitVec 64}

/-- C93 (seek, part): for an offset below 2^31 the host is asked to move the file's position
to exactly that offset; a0 is 0 if it can and -1 if it can not, and then the host's error
number is saved. -/
theorem C93_seek_partial (hw : w = 32 ∨ w = 64) (hc : isCall m addr = true)
    (ho : m.a0.toNat = 0x0a) (fd off : Nat) (hfd : fd < 2 ^ 31) (hoff : off < 2 ^ 31)
    (hp : Spec.Block w m.st.mem (m.a1.setWidth 64) [fd, off]) (h : Int)
    (hh : m.st.fdMap fd = some h) (r : Resp)
    (hr : host m.st.calls (.lseek h (BitVec.ofNat 64 off)) = r) :
    ∃ m' : Machine w, onEBreak host stale m addr = some m' ∧
      m'.a0 = (if r.ret < 0 then BitVec.allOnes w else 0) ∧
      m'.st.calls = m.st.calls ++ [.lseek h (BitVec.ofNat 64 off)] ∧
      m'.st.errno = (if r.ret < 0 then r.errno else m.st.errno) ∧
      m'.st.fdMap = m.st.fdMap ∧ m'.st.mem = m.st.mem := by
  have h0 := toInt32_small _ fd (hp 0 (by simp)) hfd
  have h1 := toInt32_small _ off (hp 1 (by simp)) hoff
  have hb : BitVec.ofInt 64 ((off : Nat) : Int) = BitVec.ofNat 64 off := BitVec.ofInt_natCast 64 off
  rw [run_call hc _ ho rfl]
  unfold sysSeek
  dsimp only
  rw [h0, h1, hh]
  dsimp only
  rw [hb, hr]
  by_cases hn : r.ret < 0
  · simp only [if_pos hn]
    exact ⟨_, rfl, minusOne_trunc hw, rfl, rfl, rfl, rfl⟩
  · simp only [if_neg hn]
    exact ⟨_, rfl, by rcases hw with e | e <;> subst e <;> rfl, rfl, rfl, rfl, rfl⟩

/-- C93, large offsets: the offset is taken modulo 2^32 as a signed number. On a 64-bit hart
an offset of exactly 2^32 seeks to the start of the file; on either hart an offset of 2^31
is negative. -/
theorem C93_seek_violated (hc : isCall m addr = true) (ho : m.a0.toNat = 0x0a) (fd : Nat)
    (hfd : fd < 2 ^ 31) (h : Int) (hh : m.st.fdMap fd = some h) :
    (w = 64 → Spec.Block w m.st.mem (m.a1.setWidth 64) [fd, 2 ^ 32] →
      ∃ m' : Machine w, onEBreak host stale m addr = some m' ∧
        m'.st.calls = m.st.calls ++ [.lseek h 0]) ∧
    (Spec.Block w m.st.mem (m.a1.setWidth 64) [fd, 2 ^ 31] →
      ∃ m' : Machine w, onEBreak host stale m addr = some m' ∧
        m'.st.calls = m.st.calls ++ [.lseek h (-(2 ^ 31))]) := by
  have key : ∀ off : Nat, ∀ v : BitVec 64, Spec.Block w m.st.mem (m.a1.setWidth 64) [fd, off] →
      BitVec.ofInt 64 ((BitVec.ofNat 32 off).toInt) = v →
      ∃ m' : Machine w, onEBreak host stale m addr = some m' ∧
        m'.st.calls = m.st.calls ++ [.lseek h v] := by
    intro off v hp hv
    have h0 := toInt32_small _ fd (hp 0 (by simp)) hfd
    have h1 : toInt32 (word w m.st.mem (m.a1.setWidth 64) 1) = (BitVec.ofNat 32 off).toInt := by
      unfold toInt32
      congr 1
      apply BitVec.eq_of_toNat_eq
      rw [BitVec.toNat_setWidth, hp 1 (by simp), BitVec.toNat_ofNat]; rfl
    rw [run_call hc _ ho rfl]
    unfold sysSeek
    dsimp only
    rw [h0, h1, hh, hv]
    dsimp only
    by_cases hn : (host m.st.calls (.lseek h v)).ret < 0
    · rw [if_pos hn]; exact ⟨_, rfl, rfl⟩
    · rw [if_neg hn]; exact ⟨_, rfl, rfl⟩
  exact ⟨fun _ hp => key (2 ^ 32) 0 hp (by decide), fun hp => key (2 ^ 31) _ hp (by decide)⟩

/-- C93 (file length): a0 is the length the host reports for the file, or -1 with the host's
error number saved. -/
theorem C93_flen (hw : w = 32 ∨ w = 64) (hc : isCall m addr = true)
    (ho : m.a0.toNat = 0x0c) (fd : Nat) (hfd : fd < 2 ^ 31)
    (hp : Spec.Block w m.st.mem (m.a1.setWidth 64) [fd]) (h : Int)
    (hh : m.st.fdMap fd = some h) (r : Resp) (hr : host m.st.calls (.fstat h) = r) :
    ∃ m' : Machine w, onEBreak host stale m addr = some m' ∧
      m'.a0 = (if r.ret < 0 then BitVec.allOnes w else BitVec.ofInt w r.ret) ∧
      m'.st.calls = m.st.calls ++ [.fstat h] ∧
      m'.st.errno = (if r.ret < 0 then r.errno else m.st.errno) ∧
      m'.st.fdMap = m.st.fdMap ∧ m'.st.mem = m.st.mem := by
  have h0 := toInt32_small _ fd (hp 0 (by simp)) hfd
  rw [run_call hc _ ho rfl]
  unfold sysFlen
  dsimp only
  rw [h0, hh]
  dsimp only
  rw [hr]
  by_cases hn : r.ret < 0
  · simp only [if_pos hn]
    exact ⟨_, rfl, minusOne_trunc hw, rfl, rfl, rfl, rfl⟩
  · simp only [if_neg hn]
    exact ⟨_, rfl, setWidth_ofInt hw _, rfl, rfl, rfl, rfl⟩

/-- C93 (terminal status): a0 is the host's answer for the file. -/
theorem C93_isTty (hw : w = 32 ∨ w = 64) (hc : isCall m addr = true)
    (ho : m.a0.toNat = 0x09) (fd : Nat) (hfd : fd < 2 ^ 31)
    (hp : Spec.Block w m.st.mem (m.a1.setWidth 64) [fd]) (h : Int)
    (hh : m.st.fdMap fd = some h) (r : Resp) (hr : host m.st.calls (.isatty h) = r) :
    ∃ m' : Machine w, onEBreak host stale m addr = some m' ∧ m'.a0 = BitVec.ofInt w r.ret ∧
      m'.st.calls = m.st.calls ++ [.isatty h] ∧
      m'.st.errno = (if r.ret = 0 then r.errno else m.st.errno) ∧
      m'.st.fdMap = m.st.fdMap ∧ m'.st.mem = m.st.mem := by
  have h0 := toInt32_small _ fd (hp 0 (by simp)) hfd
  rw [run_call hc _ ho rfl]
  unfold sysIsTty
  dsimp only
  rw [h0, hh]
  dsimp only
  rw [hr]
  by_cases hn : r.ret = 0
  · simp only [if_pos hn]
    exact ⟨_, rfl, setWidth_ofInt hw _, rfl, rfl, rfl, rfl⟩
  · simp only [if_neg hn]
    exact ⟨_, rfl, setWidth_ofInt hw _, rfl, rfl, rfl, rfl⟩

/-- C93 (error number): a0 is the error number last saved; nothing else changes. -/
theorem C93_errno (hw : w = 32 ∨ w = 64) (hc : isCall m addr = true) (ho : m.a0.toNat = 0x13) :
    onEBreak host stale m addr = some { m with a0 := BitVec.ofInt w m.st.errno } := by
  rw [run_call hc _ ho rfl]
  show some _ = some _
  rw [setWidth_ofInt hw]

/-- C93 (exit): on a 32-bit hart the call with reason 0x20026 (application exit) in a1 runs
the exit callback once if there is one; any other reason, or no callback, is refused with -1
and nothing runs. On a 64-bit hart the reason is the first word of the block a1 points to. -/
theorem C93_exit (hw : w = 32 ∨ w = 64) (hc : isCall m addr = true) (ho : m.a0.toNat = 0x18)
    (reason : BitVec 32)
    (hr : reason = if w = 32 then m.a1.setWidth 32
      else (word w m.st.mem (m.a1.setWidth 64) 0).setWidth 32) :
    onEBreak host stale m addr = some
      (if reason = 0x20026#32 ∧ m.st.exitCallback = true then
        { m with a0 := 0, st := { m.st with exits := m.st.exits + 1 } }
      else { m with a0 := BitVec.allOnes w }) := by
  rw [run_call hc _ ho rfl]
  unfold sysException
  dsimp only
  have e : (if w = 32 then (BitVec.setWidth 64 m.a1).setWidth 32
      else (word w m.st.mem (m.a1.setWidth 64) 0).setWidth 32) = reason := by
    rw [hr]
    by_cases h : w = 32
    · rw [if_pos h, if_pos h]
      apply BitVec.eq_of_toNat_eq
      simp only [BitVec.toNat_setWidth]
      have := m.a1.isLt
      omega
    · rw [if_neg h, if_neg h]
  rw [e]
  have z : (0 : BitVec 64).setWidth w = 0 := by rcases hw with e | e <;> subst e <;> rfl
  by_cases h1 : reason = 0x20026#32
  · rw [if_pos h1]
    cases h2 : m.st.exitCallback with
    | true => rw [if_pos rfl, if_pos ⟨h1, rfl⟩]; dsimp only; rw [z]
    | false => rw [if_neg (by simp), if_neg (by simp)]
  · rw [if_neg h1, if_neg (fun q => h1 q.1)]

/-- C93 (command line): if the buffer (of the size in the block) can hold the command line
and a terminating zero, both are stored there (the block lying elsewhere); the stored block's
second word is the command line's length. If it can not, -1 is returned and memory is as
before. -/
theorem C93_cmdline_partial (hw : w = 32 ∨ w = 64) (hc : isCall m addr = true)
    (ho : m.a0.toNat = 0x15) (buf size : Nat)
    (hp : Spec.Block w m.st.mem (m.a1.setWidth 64) [buf, size])
    (hcl : m.st.cmdLine.length + 1 < 2 ^ 31) :
    (size ≤ m.st.cmdLine.length →
      onEBreak host stale m addr = some { m with a0 := BitVec.allOnes w }) ∧
    (m.st.cmdLine.length < size → ∃ m' : Machine w, onEBreak host stale m addr = some m' ∧
      (∀ x, 2 * (w / 8) ≤ (x - m.a1.setWidth 64).toNat →
        m.st.cmdLine.length + 1 ≤ (x - BitVec.ofNat 64 buf).toNat → m'.st.mem x = m.st.mem x) ∧
      (∀ k, (hk : k < m.st.cmdLine.length) →
        2 * (w / 8) ≤ (BitVec.ofNat 64 buf + BitVec.ofNat 64 k - m.a1.setWidth 64).toNat →
        m'.st.mem (BitVec.ofNat 64 buf + BitVec.ofNat 64 k) = m.st.cmdLine[k]) ∧
      (2 * (w / 8) ≤ (BitVec.ofNat 64 buf + BitVec.ofNat 64 m.st.cmdLine.length -
          m.a1.setWidth 64).toNat →
        m'.st.mem (BitVec.ofNat 64 buf + BitVec.ofNat 64 m.st.cmdLine.length) = 0) ∧
      (∀ k, (hk : k < w / 8) →
        m'.st.mem (m.a1.setWidth 64 + BitVec.ofNat 64 (w / 8 + k)) =
          BitVec.ofNat 8 (m.st.cmdLine.length / 256 ^ k))) := by
  have hb : (word w m.st.mem (m.a1.setWidth 64) 0).setWidth 64 = BitVec.ofNat 64 buf := by
    apply BitVec.eq_of_toNat_eq
    rw [BitVec.toNat_setWidth, hp 0 (by simp), BitVec.toNat_ofNat]; rfl
  have hs : (word w m.st.mem (m.a1.setWidth 64) 1).toNat = size := hp 1 (by simp)
  rw [run_call hc _ ho rfl]
  unfold sysGetCmdline
  dsimp only
  rw [hb, hs]
  have hlb : ∀ (mm : Memory) a n, (loadBytes mm a n).length = n := by
    intro mm a n; simp [loadBytes]
  have hle : ∀ n v, (leBytes n v).length = n := by
    intro n
    induction n with
    | zero => intro v; rfl
    | succ n ih => intro v; simp [leBytes, ih]
  have hlg : ∀ n v k (hk : k < (leBytes n v).length), (leBytes n v)[k] =
      BitVec.ofNat 8 (v / 256 ^ k) := by
    intro n
    induction n with
    | zero => intro v k hk; exact absurd hk (by simp [leBytes])
    | succ n ih =>
      intro v k hk
      cases k with
      | zero => simp [leBytes]
      | succ k =>
        simp only [leBytes, List.getElem_cons_succ]
        rw [ih, Nat.pow_succ, Nat.mul_comm, Nat.div_div_eq_div_mul]
  constructor
  · intro h
    rw [if_pos h]
    dsimp only
    rw [minusOne_trunc hw]
  · intro h
    rw [if_neg (by omega)]
    refine ⟨_, rfl, ?_, ?_, ?_, ?_⟩
    · intro x h1 h2
      dsimp only
      rw [store_off _ _ _ _ (by simp only [List.length_append, hlb, hle]; omega),
        store_off _ _ _ _ (by simp only [List.length_append, List.length_singleton]; omega)]
    · intro k hk h1
      dsimp only
      rw [store_off _ _ _ _ (by simp only [List.length_append, hlb, hle]; omega),
        store_at _ _ _ _ (by simp only [List.length_append, List.length_singleton]; omega)
          (by simp only [List.length_append, List.length_singleton]; omega),
        List.getElem_append_left hk]
    · intro h1
      dsimp only
      rw [store_off _ _ _ _ (by simp only [List.length_append, hlb, hle]; omega),
        store_at _ _ _ _ (by simp only [List.length_append, List.length_singleton]; omega)
          (by simp only [List.length_append, List.length_singleton]; omega),
        List.getElem_append_right (Nat.le_refl _)]
      simp
    · intro k hk
      dsimp only
      have hw8 : w / 8 ≤ 8 := by rcases hw with e | e <;> subst e <;> decide
      rw [store_at _ _ _ _ (by simp only [List.length_append, hlb, hle]; omega)
        (by simp only [List.length_append, hlb, hle]; omega),
        List.getElem_append_right (by rw [hlb]; omega)]
      rw [hlg]
      simp [hlb]

/-- C93, command line result: a successful call should return 0; a0 is the length. -/
theorem C93_cmdline_result_violated (hw : w = 32 ∨ w = 64) (hc : isCall m addr = true)
    (ho : m.a0.toNat = 0x15) (buf size : Nat)
    (hp : Spec.Block w m.st.mem (m.a1.setWidth 64) [buf, size])
    (hcl : m.st.cmdLine.length < 2 ^ 31) (h0 : m.st.cmdLine ≠ [])
    (h : m.st.cmdLine.length < size) :
    ∃ m' : Machine w, onEBreak host stale m addr = some m' ∧
      m'.a0.toNat = m.st.cmdLine.length ∧ m'.a0 ≠ 0 := by
  have hs : (word w m.st.mem (m.a1.setWidth 64) 1).toNat = size := hp 1 (by simp)
  rw [run_call hc _ ho rfl]
  unfold sysGetCmdline
  dsimp only
  rw [hs, if_neg (by omega)]
  have e : ((BitVec.ofNat 64 m.st.cmdLine.length).setWidth w).toNat = m.st.cmdLine.length := by
    rw [BitVec.toNat_setWidth, BitVec.toNat_ofNat]
    rcases hw with q | q <;> subst q <;> omega
  refine ⟨_, rfl, e, ?_⟩
  intro q
  have : m.st.cmdLine.length = 0 := by rw [← e]; show (_ : BitVec w).toNat = 0; rw [show
    (BitVec.ofNat 64 m.st.cmdLine.length).setWidth w = 0 from q]; rfl
  exact h0 (List.length_eq_zero_iff.mp this)

/-- C93, heap information: four words should be stored at the address in the block. The
address goes through `int`, so on a 32-bit hart with the block at 0x80000000 the zeroes go to
0xffffffff80000000; and sixteen bytes are written on a 64-bit hart too, only two of the four
words. -/
theorem C93_heapinfo_violated (hc : isCall m addr = true) (ho : m.a0.toNat = 0x16) :
    (Spec.Block w m.st.mem (m.a1.setWidth 64) [2 ^ 31] →
      ∃ m' : Machine w, onEBreak host stale m addr = some m' ∧ m'.a0 = 0 ∧
        m'.st.mem 0x80000000 = m.st.mem 0x80000000 ∧ m'.st.mem 0xffffffff80000000 = 0) ∧
    (∀ a : Nat, a < 2 ^ 31 → Spec.Block w m.st.mem (m.a1.setWidth 64) [a] →
      ∃ m' : Machine w, onEBreak host stale m addr = some m' ∧ m'.a0 = 0 ∧
        ∀ x, 16 ≤ (x - BitVec.ofNat 64 a).toNat → m'.st.mem x = m.st.mem x) := by
  have z : (0 : BitVec 64).setWidth w = 0 := by
    apply BitVec.eq_of_toNat_eq; simp
  constructor
  · intro hp
    have h1 : toInt32 (word w m.st.mem (m.a1.setWidth 64) 0) = (BitVec.ofNat 32 (2 ^ 31)).toInt := by
      unfold toInt32
      congr 1
      apply BitVec.eq_of_toNat_eq
      rw [BitVec.toNat_setWidth, hp 0 (by simp), BitVec.toNat_ofNat]; rfl
    have h2 : BitVec.ofInt 64 (BitVec.ofNat 32 (2 ^ 31)).toInt = 0xffffffff80000000#64 := by decide
    rw [run_call hc _ ho rfl]
    unfold sysHeapInfo
    dsimp only
    rw [h1, h2]
    refine ⟨_, rfl, z, ?_, ?_⟩
    · exact store_off _ 0xffffffff80000000#64 0x80000000#64 (List.replicate 16 0) (by decide)
    · have := store_at m.st.mem 0xffffffff80000000#64 (List.replicate 16 0) 0 (by simp) (by simp)
      simpa using this
  · intro a ha hp
    have h0 := toInt32_small _ a (hp 0 (by simp)) ha
    rw [run_call hc _ ho rfl]
    unfold sysHeapInfo
    dsimp only
    rw [h0]
    refine ⟨_, rfl, z, ?_⟩
    intro x hx
    exact store_off _ _ _ _ (by simpa using hx)

/-! ### A concrete machine -/

/-- Memory holding the 64-bit words of a parameter block at 0x1000, the marker sequence at
0x100 and the text "hi" at 0x2000. -/
def exMem (ws : List Nat) : Memory := fun a =>
  if a.toNat < 0x10c ∧ 0x100 ≤ a.toNat then
    ([0x13, 0x10, 0xf0, 0x01, 0x73, 0, 0x10, 0, 0x13, 0x50, 0x70, 0x40] : List Byte).getD
      (a.toNat - 0x100) 0
  else if a.toNat < 0x2000 ∧ 0x1000 ≤ a.toNat then
    BitVec.ofNat 8 (ws.getD ((a.toNat - 0x1000) / 8) 0 / 256 ^ ((a.toNat - 0x1000) % 8))
  else if a = 0x2000 then 0x68 else if a = 0x2001 then 0x69 else 0

/-- A machine about to execute semihosting operation `op` with the block `ws`. -/
def exMachine (op : Nat) (ws : List Nat) : Machine 64 :=
  ⟨BitVec.ofNat 64 op, 0x1000,
    ⟨exMem ws, fun k => if k = 1 then some 1 else if k = 5 then some 4 else none, 0,
      [0x61, 0x62], [], 0, true⟩, exMem ws⟩

/-- A host on which everything succeeds. -/
def exHost : Host := fun _ c =>
  match c with
  | .openFile .. => ⟨7, 0, []⟩
  | .dup _ => ⟨8, 0, []⟩
  | .write _ bs => ⟨bs.length, 0, []⟩
  | .fstat _ => ⟨100, 0, []⟩
  | _ => ⟨0, 0, []⟩

set_option maxRecDepth 100000 in
example : isCall (exMachine 5 []) 0x104 = true := by decide +kernel

/-- Writing "hi" to handle 5. -/
example : Spec.Block 64 (exMachine 5 [5, 0x2000, 2]).st.mem 0x1000 [5, 0x2000, 2] := by
  unfold Spec.Block
  decide +kernel

example : ((onEBreak exHost (fun _ => 0) (exMachine 5 [5, 0x2000, 2]) 0x104).map
    (fun m => (m.a0, m.st.calls))) = some (2, [.write 4 [0x68, 0x69]]) := by decide +kernel

/-- Opening "hi" for reading. -/
example : ((onEBreak exHost (fun _ => 0) (exMachine 1 [0x2000, 0, 2]) 0x104).map
    (fun m => (m.a0, m.st.fdMap 8))) = some (8, some 7) := by decide +kernel

/-- Closing handle 5 leaves it open. -/
example : ((onEBreak exHost (fun _ => 0) (exMachine 2 [5]) 0x104).map
    (fun m => (m.a0, m.st.fdMap 5, m.st.calls))) = some (0, some 4, [.close 4]) := by
  decide +kernel

/-- The length of handle 5. -/
example : ((onEBreak exHost (fun _ => 0) (exMachine 0x0c [5]) 0x104).map
    (fun m => m.a0)) = some 100 := by decide +kernel

/-- The exit call. -/
example : ((onEBreak exHost (fun _ => 0) (exMachine 0x18 [0x20026]) 0x104).map
    (fun m => (m.a0, m.st.exits))) = some (0, 1) := by decide +kernel

end Verif.Semihost
