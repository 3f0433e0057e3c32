import Verif.Semihost.Model
import Verif.Semihost.Spec
/-
C93: semihosting calls.
-/
namespace Verif.Semihost

variable {w : Nat} {host : Host} {stale : Nat → Byte} {m : Machine w} {addr : BitVec 64}

/-! ### Running one call -/

/-- The effect of a call, given the operation it dispatches to. -/
theorem run_call {f : St → BitVec 64 → Res} (hc : isCall m addr = true) (op : Nat)
    (ho : m.a0.toNat = op) (hd : dispatch w host stale op = some f) :
    onEBreak host stale m addr =
      match f m.st (m.a1.setWidth 64) with
      | .ok ret s => some { m with a0 := ret.setWidth w, st := s }
      | .err s => some { m with a0 := BitVec.allOnes w, st := s }
      | .ub => none := by
  unfold onEBreak
  rw [hc]
  simp only [Bool.not_true, Bool.false_eq_true, if_false]
  rw [ho]
  simp only [hd]
  cases f m.st (m.a1.setWidth 64) <;> rfl

/-- A word below 2^31 keeps its value through `int`. -/
theorem toInt32_small (v : BitVec w) (n : Nat) (h : v.toNat = n)
    (hn : n < 2 ^ 31) : toInt32 v = n := by
  unfold toInt32
  have h1 : (v.setWidth 32).toNat = n := by
    rw [BitVec.toNat_setWidth, h]
    exact Nat.mod_eq_of_lt (by omega)
  rw [BitVec.toInt_eq_toNat_of_lt (by rw [h1]; omega), h1]

theorem minusOne_trunc (hw : w = 32 ∨ w = 64) : minusOne.setWidth w = BitVec.allOnes w := by
  rcases hw with h | h <;> subst h <;> decide

theorem setWidth_ofInt (hw : w = 32 ∨ w = 64) (i : Int) :
    (BitVec.ofInt 64 i).setWidth w = BitVec.ofInt w i := by
  rcases hw with h | h
  · subst h
    apply BitVec.eq_of_toNat_eq
    rw [BitVec.toNat_setWidth, BitVec.toNat_ofInt, BitVec.toNat_ofInt]
    omega
  · subst h; exact BitVec.setWidth_eq _

/-- The bytes a store writes. -/
theorem store_at (mem : Memory) (a : BitVec 64) (bs : List Byte) (k : Nat) (hk : k < bs.length)
    (hl : bs.length ≤ 2 ^ 64) : storeBytes mem a bs (a + BitVec.ofNat 64 k) = bs[k] := by
  have h : (a + BitVec.ofNat 64 k - a).toNat = k := by
    have : a + BitVec.ofNat 64 k - a = BitVec.ofNat 64 k := by grind
    rw [this, BitVec.toNat_ofNat]
    exact Nat.mod_eq_of_lt (by omega)
  unfold storeBytes
  simp only [h, hk, dif_pos]

/-- The bytes a store does not write. -/
theorem store_off (mem : Memory) (a x : BitVec 64) (bs : List Byte)
    (h : bs.length ≤ (x - a).toNat) : storeBytes mem a bs x = mem x := by
  unfold storeBytes
  rw [dif_neg (by omega)]

/-! ### Which ebreaks are calls -/

/-- C93 (recognition): an ebreak is a semihosting call exactly if it stands between the two
marker instructions; any other ebreak changes nothing. -/
theorem C93_recognised (host : Host) (stale : Nat → Byte) (m : Machine w) (addr : BitVec 64) :
    (isCall m addr = true ↔ word 32 m.imem (addr - 4) 0 = 0x01f01013#32 ∧
      word 32 m.imem (addr - 4) 1 = 0x00100073#32 ∧
      word 32 m.imem (addr - 4) 2 = 0x40705013#32) ∧
    (isCall m addr = false → onEBreak host stale m addr = some m) := by
  constructor
  · simp only [isCall, Bool.and_eq_true, beq_iff_eq, and_assoc]
  · intro h
    unfold onEBreak
    rw [h]
    rfl

/-- C93 (operations without an implementation): they report -1 and change nothing else. -/
theorem C93_unimplemented (hc : isCall m addr = true)
    (ho : m.a0.toNat ∈ [0x03, 0x04, 0x07, 0x08, 0x0e, 0x0f, 0x10, 0x12, 0x30]) :
    onEBreak host stale m addr = some { m with a0 := BitVec.allOnes w } := by
  simp only [List.mem_cons, List.not_mem_nil, or_false] at ho
  rcases ho with h | h | h | h | h | h | h | h | h <;>
    exact run_call hc _ h rfl

/-- The operation numbers the dispatch table has. -/
def known : List Nat :=
  [0x01, 0x02, 0x03, 0x04, 0x05, 0x06, 0x07, 0x08, 0x09, 0x0a, 0x0c, 0x0d, 0x0e, 0x0f, 0x10,
   0x11, 0x12, 0x13, 0x15, 0x16, 0x18, 0x30, 0x31]

theorem dispatch_none (op : Nat) (h : op ∉ known) : dispatch w host stale op = none := by
  unfold dispatch
  split <;> first | rfl | exact absurd (by decide) h

/-- C93, operations outside the table: a0 keeps the operation number, so the caller is not
told that the operation does not exist. -/
theorem C93_unknown_violated (hc : isCall m addr = true) (ho : m.a0.toNat ∉ known) :
    onEBreak host stale m addr = some m := by
  unfold onEBreak
  rw [hc, dispatch_none _ ho]
  rfl

/-! ### Handles -/

/-- C93 (unknown handles): closing, reading, writing, seeking, asking for the length of or
the terminal status of a handle that is not open reports -1; the host is not called, and
memory and handles are as before. -/
theorem C93_bad_handle (hw : w = 32 ∨ w = 64) (hc : isCall m addr = true)
    (ho : m.a0.toNat ∈ [0x02, 0x05, 0x06, 0x09, 0x0a, 0x0c]) (fd : Nat) (hfd : fd < 2 ^ 31)
    (hp : Spec.Block w m.st.mem (m.a1.setWidth 64) [fd]) (hn : m.st.fdMap fd = none) :
    onEBreak host stale m addr = some { m with a0 := BitVec.allOnes w } := by
  have h0 := toInt32_small _ fd (hp 0 (by simp)) hfd
  simp only [List.mem_cons, List.not_mem_nil, or_false] at ho
  rcases ho with h | h | h | h | h | h
  · rw [run_call hc _ h rfl]; simp only [sysClose, h0, hn, minusOne_trunc hw]
  · rw [run_call hc _ h rfl]; simp only [sysWrite, h0, hn, minusOne_trunc hw]
  · rw [run_call hc _ h rfl]; simp only [sysRead, h0, hn, minusOne_trunc hw]
  · rw [run_call hc _ h rfl]; simp only [sysIsTty, h0, hn, minusOne_trunc hw]
  · rw [run_call hc _ h rfl]; simp only [sysSeek, h0, hn, minusOne_trunc hw]
  · rw [run_call hc _ h rfl]; simp only [sysFlen, h0, hn, minusOne_trunc hw]

/-- What an operation leaves alone. -/
def Keeps (P : St → St → Prop) (f : St → BitVec 64 → Res) : Prop :=
  ∀ s p, match f s p with
    | .ok _ s' => P s s'
    | .err s' => P s s'
    | .ub => True

theorem keeps_call {P : St → St → Prop} (hrefl : ∀ m : Machine w, P m.st m.st)
    (hk : ∀ f, dispatch w host stale m.a0.toNat = some f → Keeps P f) (m' : Machine w)
    (h : onEBreak host stale m addr = some m') : P m.st m'.st ∧ m'.a1 = m.a1 ∧ m'.imem = m.imem := by
  unfold onEBreak at h
  by_cases hc : isCall m addr = true
  · rw [hc] at h
    simp only [Bool.not_true, Bool.false_eq_true, if_false] at h
    cases hd : dispatch w host stale m.a0.toNat with
    | none => rw [hd] at h; cases h; exact ⟨hrefl m, rfl, rfl⟩
    | some f =>
      rw [hd] at h
      have := hk f hd m.st (m.a1.setWidth 64)
      dsimp only at h
      cases hf : f m.st (m.a1.setWidth 64) with
      | ok ret s => rw [hf] at h this; cases h; exact ⟨this, rfl, rfl⟩
      | err s => rw [hf] at h this; cases h; exact ⟨this, rfl, rfl⟩
      | ub => rw [hf] at h; cases h
  · rw [Bool.not_eq_true] at hc
    rw [hc] at h
    cases h
    exact ⟨hrefl m, rfl, rfl⟩

/-- Memory and handles as before. -/
def Same (s s' : St) : Prop := s'.fdMap = s.fdMap ∧ s'.mem = s.mem

theorem keeps_write : Keeps Same (sysWrite w host) := by
  intro s p
  unfold sysWrite
  generalize toInt32 (word w s.mem p 0) = fd
  generalize toInt32 (word w s.mem p 2) = len
  dsimp only
  cases s.fdMap fd with
  | none => exact ⟨rfl, rfl⟩
  | some h =>
    dsimp only
    by_cases hl : len < 0
    · rw [if_pos hl]; trivial
    · rw [if_neg hl]
      by_cases hr : (host s.calls (.write h (loadBytes s.mem ((word w s.mem p 1).setWidth 64)
          len.toNat))).ret < 0
      · dsimp only; rw [if_pos hr]; exact ⟨rfl, rfl⟩
      · dsimp only; rw [if_neg hr]; exact ⟨rfl, rfl⟩

theorem keeps_read : Keeps (fun s s' => s'.fdMap = s.fdMap) (sysRead w host stale) := by
  intro s p
  unfold sysRead
  generalize toInt32 (word w s.mem p 0) = fd
  generalize toInt32 (word w s.mem p 2) = len
  dsimp only
  cases s.fdMap fd with
  | none => rfl
  | some h =>
    dsimp only
    by_cases hl : len < 0
    · rw [if_pos hl]; trivial
    · rw [if_neg hl]
      dsimp only [St.did]
      by_cases hr : (host s.calls (.read h len.toNat)).ret < 0
      · rw [if_pos hr]
      · rw [if_neg hr]

theorem keeps_isTty : Keeps Same (sysIsTty w host) := by
  intro s p
  unfold sysIsTty
  generalize toInt32 (word w s.mem p 0) = fd
  dsimp only
  cases s.fdMap fd with
  | none => exact ⟨rfl, rfl⟩
  | some h =>
    by_cases hr : (host s.calls (.isatty h)).ret = 0
    · dsimp only; rw [if_pos hr]; exact ⟨rfl, rfl⟩
    · dsimp only; rw [if_neg hr]; exact ⟨rfl, rfl⟩

theorem keeps_seek : Keeps Same (sysSeek w host) := by
  intro s p
  unfold sysSeek
  generalize toInt32 (word w s.mem p 0) = fd
  generalize BitVec.ofInt 64 (toInt32 (word w s.mem p 1)) = off
  dsimp only
  cases s.fdMap fd with
  | none => exact ⟨rfl, rfl⟩
  | some h =>
    dsimp only [St.did]
    by_cases hr : (host s.calls (.lseek h off)).ret < 0
    · rw [if_pos hr]; exact ⟨rfl, rfl⟩
    · rw [if_neg hr]; exact ⟨rfl, rfl⟩

theorem keeps_flen : Keeps Same (sysFlen w host) := by
  intro s p
  unfold sysFlen
  generalize toInt32 (word w s.mem p 0) = fd
  dsimp only
  cases s.fdMap fd with
  | none => exact ⟨rfl, rfl⟩
  | some h =>
    dsimp only [St.did]
    by_cases hr : (host s.calls (.fstat h)).ret < 0
    · rw [if_pos hr]; exact ⟨rfl, rfl⟩
    · rw [if_neg hr]; exact ⟨rfl, rfl⟩

theorem keeps_exception : Keeps Same (sysException w) := by
  intro s p
  unfold sysException
  dsimp only
  generalize (if w = 32 then p.setWidth 32 else (word w s.mem p 0).setWidth 32) = v
  by_cases hv : v = 0x20026#32
  · rw [if_pos hv]
    cases s.exitCallback <;> exact ⟨rfl, rfl⟩
  · rw [if_neg hv]; exact ⟨rfl, rfl⟩

theorem keeps_cmdline : Keeps (fun s s' => s'.fdMap = s.fdMap) (sysGetCmdline w) := by
  intro s p
  unfold sysGetCmdline
  generalize (word w s.mem p 1).toNat = len
  dsimp only
  by_cases hl : len ≤ s.cmdLine.length
  · rw [if_pos hl]
  · rw [if_neg hl]

theorem keeps_tmpnam : Keeps (fun s s' => s'.fdMap = s.fdMap) (sysTmpnam w host stale) := by
  intro s p
  unfold sysTmpnam
  generalize toInt32 (word w s.mem p 1) = id
  generalize toInt32 (word w s.mem p 2) = len
  dsimp only
  by_cases hi : id < 0 ∨ 255 < id
  · rw [if_pos hi]
  · rw [if_neg hi]
    by_cases hl : len < lTmpnam
    · rw [if_pos hl]
    · rw [if_neg hl]; rfl

theorem Keeps.map {f : St → BitVec 64 → Res} (h : Keeps Same f) :
    Keeps (fun s s' => s'.fdMap = s.fdMap) f := by
  intro s p
  have := h s p
  cases hf : f s p with
  | ok r s' => rw [hf] at this; exact this.1
  | err s' => rw [hf] at this; exact this.1
  | ub => trivial

theorem Keeps.mem {f : St → BitVec 64 → Res} (h : Keeps Same f) :
    Keeps (fun s s' => s'.mem = s.mem) f := by
  intro s p
  have := h s p
  cases hf : f s p with
  | ok r s' => rw [hf] at this; exact this.2
  | err s' => rw [hf] at this; exact this.2
  | ub => trivial

/-- C93 (handle table): only opening and closing change which handles are open. -/
theorem C93_handles_stable (m' : Machine w) (ho : m.a0.toNat ≠ 0x01) (hcl : m.a0.toNat ≠ 0x02)
    (h : onEBreak host stale m addr = some m') : m'.st.fdMap = m.st.fdMap := by
  refine (keeps_call (P := fun s s' => s'.fdMap = s.fdMap) (fun _ => rfl) ?_ m' h).1
  intro f hd
  unfold dispatch at hd
  split at hd <;> cases hd <;> first
    | exact absurd (by assumption) ho
    | exact absurd (by assumption) hcl
    | exact keeps_write.map
    | exact keeps_read
    | exact keeps_isTty.map
    | exact keeps_seek.map
    | exact keeps_flen.map
    | exact keeps_exception.map
    | exact keeps_cmdline
    | exact keeps_tmpnam
    | exact fun _ _ => rfl

theorem keeps_close : Keeps (fun s s' => s'.mem = s.mem) (sysClose w host) := by
  intro s p
  unfold sysClose
  generalize toInt32 (word w s.mem p 0) = fd
  dsimp only
  cases s.fdMap fd with
  | none => rfl
  | some h =>
    dsimp only
    by_cases h2 : h ≤ 2
    · rw [if_pos h2]
    · rw [if_neg h2]
      dsimp only [St.did]
      by_cases hr : (host s.calls (.close h)).ret = 0
      · rw [if_pos hr]
      · rw [if_neg hr]

/-- The part of `SysOpen` after the host descriptor has been chosen. -/
def opened (host : Host) (h : Int) (s : St) : Res :=
  let c : Call := .dup h
  let r := host s.calls c
  let s := s.did c
  let ret := BitVec.ofInt 64 r.ret
  if r.ret < 0 then .ok ret { s with errno := r.errno }
  else
    match s.fdMap r.ret with
    | some _ => .ok ret s
    | none => .ok ret { s with fdMap := upd s.fdMap r.ret (some h) }

/-- `SysOpen` in two steps. -/
theorem sysOpen_eq (s : St) (p : BitVec 64) (mode len : Int) (name : List Byte)
    (hm : toInt32 (word w s.mem p 1) = mode) (hl : toInt32 (word w s.mem p 2) = len)
    (h0 : ¬ len < 0) (hn : loadBytes s.mem ((word w s.mem p 0).setWidth 64) len.toNat = name) :
    sysOpen w host s p =
      if name = tt then opened host (if mode = 0 then 0 else 1) s
      else
        let c := Call.openFile (cstr name) ⟨true, false, decide (mode ≠ 0), false, false⟩ mode
        opened host (host s.calls c).ret (s.did c) := by
  unfold sysOpen
  dsimp only
  rw [hm, hl, if_neg h0, hn]
  by_cases ht : name = tt
  · rw [if_pos ht, if_pos ht]; rfl
  · rw [if_neg ht, if_neg ht]; rfl

theorem opened_mem (h : Int) (s : St) : match opened host h s with
    | .ok _ s' => s'.mem = s.mem
    | .err s' => s'.mem = s.mem
    | .ub => True := by
  unfold opened
  dsimp only [St.did]
  by_cases hr : (host s.calls (.dup h)).ret < 0
  · rw [if_pos hr]
  · rw [if_neg hr]
    cases s.fdMap (host s.calls (.dup h)).ret <;> rfl

theorem keeps_open : Keeps (fun s s' => s'.mem = s.mem) (sysOpen w host) := by
  intro s p
  by_cases h0 : toInt32 (word w s.mem p 2) < 0
  · have : sysOpen w host s p = .ub := by unfold sysOpen; dsimp only; rw [if_pos h0]
    rw [this]; trivial
  · rw [sysOpen_eq s p _ _ _ rfl rfl h0 rfl]
    split
    all_goals
      rename_i h
      split at h
      · have := opened_mem (host := host) (if toInt32 (word w s.mem p 1) = 0 then 0 else 1) s
        rw [h] at this
        exact this
      · dsimp only at h
        have := opened_mem (host := host) (host s.calls (Call.openFile (cstr (loadBytes s.mem
            ((word w s.mem p 0).setWidth 64) (toInt32 (word w s.mem p 2)).toNat))
            ⟨true, false, decide (toInt32 (word w s.mem p 1) ≠ 0), false, false⟩
            (toInt32 (word w s.mem p 1)))).ret
            (s.did <| Call.openFile (cstr (loadBytes s.mem
            ((word w s.mem p 0).setWidth 64) (toInt32 (word w s.mem p 2)).toNat))
            ⟨true, false, decide (toInt32 (word w s.mem p 1) ≠ 0), false, false⟩
            (toInt32 (word w s.mem p 1)))
        rw [h] at this
        exact this

/-- C93 (memory): only reading, the command line, the heap query and temporary names change
the program's memory. -/
theorem C93_memory_stable (m' : Machine w) (ho : m.a0.toNat ∉ [0x06, 0x0d, 0x15, 0x16])
    (h : onEBreak host stale m addr = some m') : m'.st.mem = m.st.mem := by
  refine (keeps_call (P := fun s s' => s'.mem = s.mem) (fun _ => rfl) ?_ m' h).1
  intro f hd
  unfold dispatch at hd
  split at hd <;> cases hd <;> first
    | (rename_i e; rw [e] at ho; exact absurd (by decide) ho)
    | exact keeps_open
    | exact keeps_close
    | exact keeps_write.mem
    | exact keeps_isTty.mem
    | exact keeps_seek.mem
    | exact keeps_flen.mem
    | exact keeps_exception.mem
    | exact fun _ _ => rfl

/-! ### Writing and reading -/

/-- C93 (write): the host is asked to write exactly the `len` bytes of the program's memory
from `buf`, to the file the handle stands for; a0 is the host's answer, memory is as before,
and a failure saves the host's error number. -/
theorem C93_write (hw : w = 32 ∨ w = 64) (hc : isCall m addr = true) (ho : m.a0.toNat = 0x05)
    (fd buf len : Nat) (hfd : fd < 2 ^ 31) (hlen : len < 2 ^ 31)
    (hp : Spec.Block w m.st.mem (m.a1.setWidth 64) [fd, buf, len]) (h : Int)
    (hh : m.st.fdMap fd = some h) :
    ∃ (data : List Byte) (m' : Machine w), onEBreak host stale m addr = some m' ∧
      data.length = len ∧ (∀ k, (hk : k < data.length) → data[k] = m.st.mem (BitVec.ofNat 64 (buf + k))) ∧
      m'.st.calls = m.st.calls ++ [.write h data] ∧
      m'.a0 = BitVec.ofInt w (host m.st.calls (.write h data)).ret ∧
      m'.st.mem = m.st.mem ∧ m'.st.fdMap = m.st.fdMap ∧
      m'.st.errno = (if (host m.st.calls (.write h data)).ret < 0
        then (host m.st.calls (.write h data)).errno else m.st.errno) := by
  have h0 := toInt32_small _ fd (hp 0 (by simp)) hfd
  have h1 : (word w m.st.mem (m.a1.setWidth 64) 1).setWidth 64 = BitVec.ofNat 64 buf := by
    apply BitVec.eq_of_toNat_eq
    rw [BitVec.toNat_setWidth, hp 1 (by simp), BitVec.toNat_ofNat]; rfl
  have h2 := toInt32_small _ len (hp 2 (by simp)) hlen
  have hneg : ¬ ((len : Int) < 0) := by omega
  have hd : ∀ k, (hk : k < (loadBytes m.st.mem (BitVec.ofNat 64 buf) len).length) →
      (loadBytes m.st.mem (BitVec.ofNat 64 buf) len)[k] = m.st.mem (BitVec.ofNat 64 (buf + k)) := by
    intro k hk
    simp only [loadBytes, List.getElem_map, List.getElem_range]
    congr 1
    apply BitVec.eq_of_toNat_eq
    simp
  rw [run_call hc _ ho rfl]
  unfold sysWrite
  dsimp only
  rw [h0, hh, h2, h1]
  dsimp only
  rw [if_neg hneg]
  simp only [Int.toNat_natCast]
  refine ⟨loadBytes m.st.mem (BitVec.ofNat 64 buf) len, _, rfl, by simp [loadBytes], hd, ?_⟩
  generalize loadBytes m.st.mem (BitVec.ofNat 64 buf) len = data
  by_cases hn : (host m.st.calls (.write h data)).ret < 0
  · simp only [if_pos hn]
    exact ⟨rfl, setWidth_ofInt hw _, rfl, rfl, by first | rfl | trivial⟩
  · simp only [if_neg hn]
    exact ⟨rfl, setWidth_ofInt hw _, rfl, rfl, by first | rfl | trivial⟩

/-- C93, result of a write: the specification's result is the number of bytes *not* written,
0 for a complete write. After a complete write of at least one byte a0 is not 0. -/
theorem C93_write_result_violated (hw : w = 32 ∨ w = 64) (hc : isCall m addr = true)
    (ho : m.a0.toNat = 0x05) (fd buf len : Nat) (hfd : fd < 2 ^ 31) (hlen : len < 2 ^ 31)
    (hp : Spec.Block w m.st.mem (m.a1.setWidth 64) [fd, buf, len]) (h : Int)
    (hh : m.st.fdMap fd = some h) (hall : ∀ data, data.length = len →
      (host m.st.calls (.write h data)).ret = len) (hpos : 0 < len) (m' : Machine w)
    (hm : onEBreak host stale m addr = some m') :
    m'.a0.toNat = len ∧ m'.a0.toNat ≠ Spec.notTransferred len len := by
  obtain ⟨data, m'', h1, h2, _, _, h5, _⟩ := C93_write (stale := stale) (host := host) hw hc ho fd buf len hfd hlen hp h hh
  rw [hm] at h1
  cases h1
  have : m'.a0.toNat = len := by
    rw [h5, hall data h2, BitVec.toNat_ofInt]
    rcases hw with e | e <;> subst e <;> omega
  refine ⟨this, ?_⟩
  rw [this]
  simp only [Spec.notTransferred, Nat.sub_self]
  omega

/-- C93 (read): the host is asked for `len` bytes of the file the handle stands for. If it
delivers `n` bytes, they are in memory from `buf` on, nothing outside the `len` bytes of the
buffer has changed, and a0 is `n`; if it fails, memory is as before and its error number
is saved. -/
theorem C93_read_partial (hw : w = 32 ∨ w = 64) (hc : isCall m addr = true)
    (ho : m.a0.toNat = 0x06) (hr : Spec.ReadsRight host)
    (fd buf len : Nat) (hfd : fd < 2 ^ 31) (hlen : len < 2 ^ 31)
    (hp : Spec.Block w m.st.mem (m.a1.setWidth 64) [fd, buf, len]) (h : Int)
    (hh : m.st.fdMap fd = some h) :
    ∃ m' : Machine w, onEBreak host stale m addr = some m' ∧
      m'.st.calls = m.st.calls ++ [.read h len] ∧
      m'.a0 = BitVec.ofInt w (host m.st.calls (.read h len)).ret ∧
      (∀ x : BitVec 64, len ≤ (x - BitVec.ofNat 64 buf).toNat → m'.st.mem x = m.st.mem x) ∧
      (0 ≤ (host m.st.calls (.read h len)).ret →
        (∀ k, (hk : k < (host m.st.calls (.read h len)).data.length) →
          m'.st.mem (BitVec.ofNat 64 buf + BitVec.ofNat 64 k) =
            (host m.st.calls (.read h len)).data[k])) ∧
      ((host m.st.calls (.read h len)).ret < 0 → m'.st.mem = m.st.mem ∧
        m'.st.errno = (host m.st.calls (.read h len)).errno) := by
  have h0 := toInt32_small _ fd (hp 0 (by simp)) hfd
  have h1 : (word w m.st.mem (m.a1.setWidth 64) 1).setWidth 64 = BitVec.ofNat 64 buf := by
    apply BitVec.eq_of_toNat_eq
    rw [BitVec.toNat_setWidth, hp 1 (by simp), BitVec.toNat_ofNat]; rfl
  have h2 := toInt32_small _ len (hp 2 (by simp)) hlen
  have hneg : ¬ ((len : Int) < 0) := by omega
  rw [run_call hc _ ho rfl]
  unfold sysRead
  dsimp only
  rw [h0, hh, h2, h1]
  dsimp only
  rw [if_neg hneg]
  simp only [Int.toNat_natCast]
  by_cases hn : (host m.st.calls (.read h len)).ret < 0
  · rw [if_pos hn]
    refine ⟨_, rfl, rfl, setWidth_ofInt hw _, fun _ _ => rfl, fun q => absurd hn (by omega),
      fun _ => ⟨rfl, rfl⟩⟩
  · rw [if_neg hn]
    refine ⟨_, rfl, rfl, setWidth_ofInt hw _, ?_, ?_, fun q => absurd q hn⟩
    · intro x hx
      apply store_off
      simpa using hx
    · intro h0' k hk
      obtain ⟨e1, e2⟩ := hr m.st.calls h len h0'
      have hkl : k < len := by omega
      dsimp only
      rw [store_at _ _ _ k (by simpa using hkl) (by simp; omega)]
      simp only [List.getElem_map, List.getElem_range]
      rw [List.getD_eq_getElem?_getD, List.getElem?_eq_getElem hk]
      rfl

/-- C93, short reads: when the host delivers fewer bytes than asked for, the rest of the
program's buffer is overwritten with whatever the host-side buffer held. -/
theorem C93_short_read_violated (hc : isCall m addr = true)
    (ho : m.a0.toNat = 0x06) (hr : Spec.ReadsRight host)
    (fd buf len : Nat) (hfd : fd < 2 ^ 31) (hlen : len < 2 ^ 31)
    (hp : Spec.Block w m.st.mem (m.a1.setWidth 64) [fd, buf, len]) (h : Int)
    (hh : m.st.fdMap fd = some h) (hok : 0 ≤ (host m.st.calls (.read h len)).ret)
    (m' : Machine w) (hm : onEBreak host stale m addr = some m') (k : Nat)
    (hk1 : (host m.st.calls (.read h len)).ret.toNat ≤ k) (hk2 : k < len) :
    m'.st.mem (BitVec.ofNat 64 buf + BitVec.ofNat 64 k) = stale k := by
  have h0 := toInt32_small _ fd (hp 0 (by simp)) hfd
  have h1 : (word w m.st.mem (m.a1.setWidth 64) 1).setWidth 64 = BitVec.ofNat 64 buf := by
    apply BitVec.eq_of_toNat_eq
    rw [BitVec.toNat_setWidth, hp 1 (by simp), BitVec.toNat_ofNat]; rfl
  have h2 := toInt32_small _ len (hp 2 (by simp)) hlen
  have hneg : ¬ ((len : Int) < 0) := by omega
  rw [run_call hc _ ho rfl] at hm
  unfold sysRead at hm
  dsimp only at hm
  rw [h0, hh, h2, h1] at hm
  dsimp only at hm
  rw [if_neg hneg] at hm
  simp only [Int.toNat_natCast] at hm
  rw [if_neg (by omega)] at hm
  cases hm
  obtain ⟨e1, _⟩ := hr m.st.calls h len hok
  dsimp only
  rw [store_at _ _ _ k (by simpa using hk2) (by simp; omega)]
  simp only [List.getElem_map, List.getElem_range]
  rw [List.getD_eq_getElem?_getD, List.getElem?_eq_none (by omega)]
  rfl

/-- C93, result of a read: the specification's result is the number of bytes *not* read.
After a complete read of at least one byte a0 is not 0. -/
theorem C93_read_result_violated (hw : w = 32 ∨ w = 64) (hc : isCall m addr = true)
    (ho : m.a0.toNat = 0x06) (hr : Spec.ReadsRight host)
    (fd buf len : Nat) (hfd : fd < 2 ^ 31) (hlen : len < 2 ^ 31)
    (hp : Spec.Block w m.st.mem (m.a1.setWidth 64) [fd, buf, len]) (h : Int)
    (hh : m.st.fdMap fd = some h) (hall : (host m.st.calls (.read h len)).ret = len)
    (hpos : 0 < len) (m' : Machine w) (hm : onEBreak host stale m addr = some m') :
    m'.a0.toNat = len ∧ m'.a0.toNat ≠ Spec.notTransferred len len := by
  obtain ⟨m'', h1, _, h5, _⟩ := C93_read_partial (stale := stale) (host := host) hw hc ho hr fd buf len hfd hlen hp h hh
  rw [hm] at h1
  cases h1
  have : m'.a0.toNat = len := by
    rw [h5, hall, BitVec.toNat_ofInt]
    rcases hw with e | e <;> subst e <;> omega
  refine ⟨this, ?_⟩
  rw [this]
  simp only [Spec.notTransferred, Nat.sub_self]
  omega

/-! ### Opening and closing -/

/-- The words of an open call's parameter block. -/
theorem open_words (p : BitVec 64) (s : St) (ptr mode len : Nat) (hm : mode < 2 ^ 31)
    (hl : len < 2 ^ 31) (hp : Spec.Block w s.mem p [ptr, mode, len]) :
    toInt32 (word w s.mem p 1) = mode ∧ toInt32 (word w s.mem p 2) = len ∧
      ¬ ((len : Int) < 0) ∧ (word w s.mem p 0).setWidth 64 = BitVec.ofNat 64 ptr := by
  refine ⟨toInt32_small _ mode (hp 1 (by simp)) hm, toInt32_small _ len (hp 2 (by simp)) hl,
    by omega, ?_⟩
  apply BitVec.eq_of_toNat_eq
  rw [BitVec.toNat_setWidth, hp 0 (by simp), BitVec.toNat_ofNat]; rfl

/-- What `opened` does when the host hands out a descriptor that is not in the table. -/
theorem opened_ok (h : Int) (s : St) (hr : 0 ≤ (host s.calls (.dup h)).ret)
    (hf : s.fdMap (host s.calls (.dup h)).ret = none) :
    opened host h s = .ok (BitVec.ofInt 64 (host s.calls (.dup h)).ret)
      { s.did (.dup h) with
        fdMap := upd s.fdMap (host s.calls (.dup h)).ret (some h) } := by
  unfold opened
  dsimp only [St.did]
  rw [if_neg (by omega), hf]

theorem opened_fail (h : Int) (s : St) (hr : (host s.calls (.dup h)).ret < 0) :
    opened host h s = .ok (BitVec.ofInt 64 (host s.calls (.dup h)).ret)
      { s.did (.dup h) with errno := (host s.calls (.dup h)).errno } := by
  unfold opened
  dsimp only
  rw [if_pos hr]

/-- The host call with which a file (not the console) is opened. -/
def openCall (name : List Byte) (mode : Nat) : Call :=
  .openFile (cstr name) ⟨true, false, decide ((mode : Int) ≠ 0), false, false⟩ mode

/-- C93 (open, part): opening a file named in the program's memory, other than the console
`:tt`, asks the host to open that name. If the host opens it as `h` and hands out a new
descriptor `d`, a0 is `d`, and `d` is from then on a handle for `h`; all other handles are as
before. -/
theorem C93_open_partial (hw : w = 32 ∨ w = 64) (hc : isCall m addr = true)
    (ho : m.a0.toNat = 0x01) (ptr mode len : Nat) (hmo : mode < 2 ^ 31) (hl : len < 2 ^ 31)
    (hp : Spec.Block w m.st.mem (m.a1.setWidth 64) [ptr, mode, len]) (name : List Byte)
    (hn : loadBytes m.st.mem (BitVec.ofNat 64 ptr) len = name) (htt : name ≠ tt) (h d : Int)
    (h1 : (host m.st.calls (openCall name mode)).ret = h)
    (h2 : (host (m.st.calls ++ [openCall name mode]) (.dup h)).ret = d) (hd : 0 ≤ d)
    (hnew : m.st.fdMap d = none) :
    ∃ m' : Machine w, onEBreak host stale m addr = some m' ∧ m'.a0 = BitVec.ofInt w d ∧
      m'.st.fdMap d = some h ∧ (∀ e, e ≠ d → m'.st.fdMap e = m.st.fdMap e) ∧
      m'.st.calls = m.st.calls ++ [openCall name mode, .dup h] ∧ m'.st.mem = m.st.mem := by
  obtain ⟨e1, e2, e3, e4⟩ := open_words _ m.st ptr mode len hmo hl hp
  have hs := sysOpen_eq (host := host) m.st (m.a1.setWidth 64) mode len name e1 e2 e3
    (by rw [e4]; exact hn)
  rw [if_neg htt] at hs
  dsimp only at hs
  have hcall : Call.openFile (cstr name) ⟨true, false, decide ((mode : Int) ≠ 0), false, false⟩
    (mode : Int) = openCall name mode := rfl
  rw [hcall, h1] at hs
  have h2' : (host (m.st.did (openCall name mode)).calls (.dup h)).ret = d := h2
  rw [opened_ok h _ (by rw [h2']; exact hd) (by rw [h2']; exact hnew), h2'] at hs
  rw [run_call hc _ ho rfl, hs]
  refine ⟨_, rfl, setWidth_ofInt hw _, ?_, ?_, ?_, rfl⟩
  · simp [upd]
  · intro e he
    simp [upd, he, St.did]
  · simp [St.did]

/-- C93, open modes: whatever the mode, the host file is opened for reading only. In the
modes "w", "w+", "a" and "a+" (4 to 11) and "r+" (2, 3) the specification asks for write
access, so nothing can ever be written to a file opened through semihosting; and the mode
"rb" (1) creates files. -/
theorem C93_open_mode_violated (name : List Byte) (mode : Nat) :
    (∃ c p, openCall name mode = .openFile (cstr name) ⟨true, false, c, false, false⟩ p) ∧
    (2 ≤ mode → mode < 12 → ∃ f, Spec.openFlags mode = some f ∧ f.write = true) ∧
    (∃ p, openCall name 1 = .openFile (cstr name) ⟨true, false, true, false, false⟩ p) ∧
    Spec.openFlags 1 = some ⟨true, false, false, false, false⟩ := by
  refine ⟨⟨_, _, rfl⟩, ?_, ⟨_, rfl⟩, rfl⟩
  intro h1 h2
  have : ∀ k : Fin 12, 2 ≤ k.val → ∃ f, Spec.openFlags k.val = some f ∧ f.write = true := by
    intro k hk
    have hb : ∀ k : Fin 12, 2 ≤ k.val → (Spec.openFlags k.val).map (·.write) = some true := by
      decide
    obtain ⟨f, hf, hw⟩ := Option.map_eq_some_iff.mp (hb k hk)
    exact ⟨f, hf, hw⟩
  exact this ⟨mode, h2⟩ h1

/-- C93 (open for reading): in mode 0 the host is asked for exactly what the specification
says. -/
theorem C93_open_read_partial (name : List Byte) :
    ∃ f p, openCall name 0 = .openFile (cstr name) f p ∧ Spec.openFlags 0 = some f :=
  ⟨_, _, rfl, rfl⟩

/-- C93, console: `:tt` opened in the modes 8 to 11 is standard error according to the
specification, and in the modes 1 to 3 standard input; the handle given out stands for
standard output (1). -/
theorem C93_console_violated (hw : w = 32 ∨ w = 64) (hc : isCall m addr = true)
    (ho : m.a0.toNat = 0x01) (ptr mode : Nat) (hmo : mode < 2 ^ 31) (h0 : mode ≠ 0)
    (hp : Spec.Block w m.st.mem (m.a1.setWidth 64) [ptr, mode, 3])
    (hn : loadBytes m.st.mem (BitVec.ofNat 64 ptr) 3 = tt) (d : Int)
    (h2 : (host m.st.calls (.dup 1)).ret = d) (hd : 0 ≤ d) (hnew : m.st.fdMap d = none) :
    (∃ m' : Machine w, onEBreak host stale m addr = some m' ∧ m'.a0 = BitVec.ofInt w d ∧
      m'.st.fdMap d = some 1) ∧ Spec.console 8 = 2 ∧ Spec.console 1 = 0 := by
  refine ⟨?_, rfl, rfl⟩
  obtain ⟨e1, e2, e3, e4⟩ := open_words _ m.st ptr mode 3 hmo (by decide) hp
  have hs := sysOpen_eq (host := host) m.st (m.a1.setWidth 64) mode ((3 : Nat) : Int) tt e1 e2 e3
    (by rw [e4]; exact hn)
  rw [if_pos rfl, if_neg (by omega : ¬ (mode : Int) = 0)] at hs
  rw [opened_ok 1 _ (by rw [h2]; exact hd) (by rw [h2]; exact hnew), h2] at hs
  rw [run_call hc _ ho rfl, hs]
  exact ⟨_, rfl, setWidth_ofInt hw _, by simp [upd]⟩

/-- C93, error number of a failed open: if the host can not open the file, what is saved for
SYS_ERRNO is the error of duplicating the descriptor -1, not the error of the open. -/
theorem C93_open_errno_violated (hc : isCall m addr = true)
    (ho : m.a0.toNat = 0x01) (ptr mode len : Nat) (hmo : mode < 2 ^ 31) (hl : len < 2 ^ 31)
    (hp : Spec.Block w m.st.mem (m.a1.setWidth 64) [ptr, mode, len]) (name : List Byte)
    (hn : loadBytes m.st.mem (BitVec.ofNat 64 ptr) len = name) (htt : name ≠ tt)
    (h1 : (host m.st.calls (openCall name mode)).ret = -1)
    (h2 : (host (m.st.calls ++ [openCall name mode]) (.dup (-1))).ret < 0) :
    ∃ m' : Machine w, onEBreak host stale m addr = some m' ∧
      m'.st.errno = (host (m.st.calls ++ [openCall name mode]) (.dup (-1))).errno := by
  obtain ⟨e1, e2, e3, e4⟩ := open_words _ m.st ptr mode len hmo hl hp
  have hs := sysOpen_eq (host := host) m.st (m.a1.setWidth 64) mode len name e1 e2 e3
    (by rw [e4]; exact hn)
  rw [if_neg htt] at hs
  dsimp only at hs
  have hcall : Call.openFile (cstr name) ⟨true, false, decide ((mode : Int) ≠ 0), false, false⟩
    (mode : Int) = openCall name mode := rfl
  rw [hcall, h1] at hs
  have h2' : (host (m.st.did (openCall name mode)).calls (.dup (-1))).ret < 0 := h2
  rw [opened_fail (-1) _ h2'] at hs
  rw [run_call hc _ ho rfl, hs]
  exact ⟨_, rfl, rfl⟩

/-- C93, closing: after the host has closed the file, the handle is still open. -/
theorem C93_close_violated (hw : w = 32 ∨ w = 64) (hc : isCall m addr = true)
    (ho : m.a0.toNat = 0x02) (fd : Nat) (hfd : fd < 2 ^ 31)
    (hp : Spec.Block w m.st.mem (m.a1.setWidth 64) [fd]) (h : Int) (hh : m.st.fdMap fd = some h)
    (h2 : 2 < h) (hr : (host m.st.calls (.close h)).ret = 0) :
    ∃ m' : Machine w, onEBreak host stale m addr = some m' ∧ m'.a0 = 0 ∧
      m'.st.calls = m.st.calls ++ [.close h] ∧ m'.st.fdMap = m.st.fdMap ∧
      m'.st.fdMap fd = some h := by
  have h0 := toInt32_small _ fd (hp 0 (by simp)) hfd
  have hs : sysClose w host m.st (m.a1.setWidth 64) = .ok (BitVec.ofInt 64 0)
      { m.st.did (.close h) with errno := (host m.st.calls (.close h)).errno } := by
    unfold sysClose
    dsimp only
    rw [h0, hh]
    dsimp only
    rw [if_neg (by omega), if_pos hr, hr]
  rw [run_call hc _ ho rfl, hs]
  exact ⟨_, rfl, by rcases hw with e | e <;> subst e <;> rfl, rfl, rfl, hh⟩

/-- C93 (closing, part): closing a handle of a standard stream succeeds without calling the
host and leaves the handle open; when the host fails to close a file, its answer is returned. -/
theorem C93_close_partial (hw : w = 32 ∨ w = 64) (hc : isCall m addr = true)
    (ho : m.a0.toNat = 0x02) (fd : Nat) (hfd : fd < 2 ^ 31)
    (hp : Spec.Block w m.st.mem (m.a1.setWidth 64) [fd]) (h : Int) (hh : m.st.fdMap fd = some h) :
    ∃ m' : Machine w, onEBreak host stale m addr = some m' ∧ m'.st.mem = m.st.mem ∧
      (∀ e : Int, e ≠ fd → m'.st.fdMap e = m.st.fdMap e) ∧
      (h ≤ 2 → m'.a0 = 0 ∧ m'.st.calls = m.st.calls ∧ m'.st.fdMap fd = some h) ∧
      (2 < h → m'.a0 = BitVec.ofInt w (host m.st.calls (.close h)).ret ∧
        m'.st.calls = m.st.calls ++ [.close h]) := by
  have h0 := toInt32_small _ fd (hp 0 (by simp)) hfd
  rw [run_call hc _ ho rfl]
  unfold sysClose
  dsimp only
  rw [h0, hh]
  dsimp only
  have z : (0 : BitVec 64).setWidth w = 0 := by rcases hw with e | e <;> subst e <;> decide
  by_cases h2 : h ≤ 2
  · rw [if_pos h2]
    exact ⟨_, rfl, rfl, fun _ _ => rfl, fun _ => ⟨z, rfl, hh⟩, fun q => absurd q (by omega)⟩
  · rw [if_neg h2]
    by_cases hr : (host m.st.calls (.close h)).ret = 0
    · rw [if_pos hr]
      exact ⟨_, rfl, rfl, fun _ _ => rfl, fun q => absurd q h2,
        fun _ => ⟨setWidth_ofInt hw _, rfl⟩⟩
    · rw [if_neg hr]
      refine ⟨_, rfl, rfl, ?_, fun q => absurd q h2, fun _ => ⟨setWidth_ofInt hw _, rfl⟩⟩
      intro e he
      simp [upd, he, St.did]

/-- C93, closed handles reused: a handle that has been closed stands for a later file. If
after closing `fd` the host opens another file under the descriptor it has just been given
back (as POSIX hosts do) and duplicates it as `d`, then both `d` and the closed handle `fd`
stand for the new file. -/
theorem C93_stale_handle_violated (hw : w = 32 ∨ w = 64) (hc : isCall m addr = true)
    (ho : m.a0.toNat = 0x01) (ptr mode len : Nat) (hmo : mode < 2 ^ 31) (hl : len < 2 ^ 31)
    (hp : Spec.Block w m.st.mem (m.a1.setWidth 64) [ptr, mode, len]) (name : List Byte)
    (hn : loadBytes m.st.mem (BitVec.ofNat 64 ptr) len = name) (htt : name ≠ tt) (h d : Int)
    -- the state after closing `fd`, by `C93_close_violated`:
    (fd : Nat) (hfd : m.st.fdMap fd = some h)
    (h1 : (host m.st.calls (openCall name mode)).ret = h)
    (h2 : (host (m.st.calls ++ [openCall name mode]) (.dup h)).ret = d) (hd : 0 ≤ d)
    (hnew : m.st.fdMap d = none) :
    ∃ m' : Machine w, onEBreak host stale m addr = some m' ∧ (fd : Int) ≠ d ∧
      m'.st.fdMap d = some h ∧ m'.st.fdMap fd = some h := by
  obtain ⟨m', e1, _, e3, e4, _⟩ := C93_open_partial (stale := stale) hw hc ho ptr mode len hmo hl
    hp name hn htt h d h1 h2 hd hnew
  have hne : (fd : Int) ≠ d := by
    intro q
    rw [q, hnew] at hfd
    cases hfd
  exact ⟨m', e1, hne, e3, by rw [e4 _ hne]; exact hfd⟩

end Verif.Semihost
