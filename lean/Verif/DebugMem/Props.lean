import Verif.DebugMem.Model
import Verif.Mem.Props
/-
C56: debugger reads and writes are clamped to physical memory and agree with each other.

The specification is stated with natural numbers: the bytes at addresses `a`, `a+1`, … up to the limit.
-/
namespace Verif.DebugMem
open Verif.Core

variable {w : Nat}

/-- The number of bytes a transfer of `length` bytes at `a` may touch: those not above the limit. -/
def Spec.room (limit a length : Nat) : Nat := min length (limit + 1 - a)

theorem clamp_eq (limit a length : BitVec 64) (hl : limit.toNat < 2 ^ 64 - 1)
    (ha : a.toNat ≤ limit.toNat) :
    (clamp limit a length).toNat = Spec.room limit.toNat a.toNat length.toNat := by
  have e : (limit - a + 1#64).toNat = limit.toNat + 1 - a.toNat := by
    rw [BitVec.toNat_add, BitVec.toNat_sub]
    have := limit.isLt; have := a.isLt
    simp only [BitVec.toNat_ofNat]
    omega
  unfold clamp Spec.room
  split
  · rename_i c
    rw [BitVec.ult, decide_eq_true_eq] at c
    omega
  · rename_i c
    rw [BitVec.ult, decide_eq_true_eq] at c
    omega

theorem readBytes_length (m : Memory) (a : BitVec 64) (n : Nat) : (readBytes m a n).length = n := by
  induction n generalizing a with
  | zero => rfl
  | succ n ih => simp [readBytes, ih]

theorem readBytes_get (m : Memory) (a : BitVec 64) (n i : Nat) (hi : i < n) :
    (readBytes m a n)[i]? = some (m (a + BitVec.ofNat 64 i)) := by
  induction n generalizing a i with
  | zero => omega
  | succ n ih =>
    cases i with
    | zero => simp [readBytes]
    | succ i =>
      rw [readBytes, List.getElem?_cons_succ, ih _ _ (by omega), BitVec.ofNat_add]
      congr 2
      grind

theorem writeBytes_frame (m : Memory) (a : BitVec 64) (vs : List (BitVec 8))
    (hn : vs.length ≤ 2 ^ 64) (b : BitVec 64) (h : vs.length ≤ (b - a).toNat) :
    writeBytes m a vs b = m b := by
  induction vs generalizing a m with
  | nil => rfl
  | cons v vs ih =>
    rw [List.length_cons] at hn h
    rw [writeBytes, ih _ _ (by omega) (add_one_sub a b vs.length hn h), setByte, if_neg]
    rintro rfl
    simp at h

theorem writeBytes_get (m : Memory) (a : BitVec 64) (vs : List (BitVec 8))
    (hn : vs.length ≤ 2 ^ 64) (i : Nat) (hi : i < vs.length) :
    some (writeBytes m a vs (a + BitVec.ofNat 64 i)) = vs[i]? := by
  induction vs generalizing a m i with
  | nil => simp at hi
  | cons v vs ih =>
    rw [List.length_cons] at hn hi
    cases i with
    | zero =>
      rw [writeBytes, writeBytes_frame _ _ _ (by omega)]
      · simp [setByte]
      · rw [BitVec.toNat_sub, BitVec.toNat_add, BitVec.toNat_add]
        have := a.isLt
        simp only [BitVec.toNat_ofNat]
        omega
    | succ i =>
      have := ih (setByte m a v) (a + 1#64) (by omega) i (by omega)
      rw [writeBytes, List.getElem?_cons_succ, ← this, BitVec.ofNat_add]
      congr 2
      grind

/-- The limit is one `set_max_physical_address` can produce. -/
def ValidLimit (c : Core w) : Prop := c.limit.toNat ≤ (Mem.maxSize w).toNat

theorem valid_small {c : Core w} (h : ValidLimit c) : c.limit.toNat < 2 ^ 64 - 1 := by
  unfold ValidLimit Mem.maxSize at h
  split at h <;> simp only [BitVec.toNat_ofNat] at h <;> omega

/-- Every limit is valid after setting it. -/
theorem setLimit_valid (c : Core w) (v : BitVec 64) : ValidLimit (Mem.setLimit c v) := by
  unfold ValidLimit Mem.setLimit
  simp only
  split
  · exact Nat.le_refl _
  · rename_i h
    rw [BitVec.ult, decide_eq_true_eq] at h
    omega

/-- C56: a read of a halted core at an address not above the limit returns the bytes at that address
and up, as many as asked for but none above the limit. -/
theorem C56_read (c : Core w) (a length : BitVec 64) (hv : ValidLimit c)
    (ha : a.toNat ≤ c.limit.toNat) :
    ∃ bytes, readMemory c .halted a length = .ok bytes ∧
      bytes.length = Spec.room c.limit.toNat a.toNat length.toNat ∧
      ∀ i, i < bytes.length → a.toNat + i ≤ c.limit.toNat ∧
        bytes[i]? = some (c.mem (BitVec.ofNat 64 (a.toNat + i))) := by
  have hc := clamp_eq c.limit a length (valid_small hv) ha
  have hn : ¬c.limit.ult a = true := by
    rw [BitVec.ult, decide_eq_true_eq]; omega
  refine ⟨readBytes c.mem a (clamp c.limit a length).toNat, by simp only [readMemory, ne_eq, not_true_eq_false,
    if_false, if_neg hn], ?_, ?_⟩
  · rw [readBytes_length, hc]
  · intro i hi
    rw [readBytes_length] at hi
    refine ⟨?_, ?_⟩
    · rw [hc] at hi
      unfold Spec.room at hi
      omega
    · rw [readBytes_get _ _ _ _ hi, BitVec.ofNat_add, BitVec.ofNat_toNat, BitVec.setWidth_eq]

/-- C56: a write to a halted core at an address not above the limit stores the front of the buffer, as
many bytes as fit below the limit, returns that number, and changes nothing else. -/
theorem C56_write (c : Core w) (a : BitVec 64) (buffer : List (BitVec 8)) (hv : ValidLimit c)
    (hb : buffer.length < 2 ^ 64) (ha : a.toNat ≤ c.limit.toNat) :
    let n := Spec.room c.limit.toNat a.toNat buffer.length
    let r := writeMemory c .halted a buffer
    r.2 = .ok n ∧
    (∀ i, i < n → some (r.1.mem (BitVec.ofNat 64 (a.toNat + i))) = buffer[i]?) ∧
    (∀ b : BitVec 64, b.toNat < a.toNat ∨ a.toNat + n ≤ b.toNat → r.1.mem b = c.mem b) ∧
    r.1 = { c with mem := r.1.mem } := by
  have hc := clamp_eq c.limit a (BitVec.ofNat 64 buffer.length) (valid_small hv) ha
  rw [BitVec.toNat_ofNat, Nat.mod_eq_of_lt hb] at hc
  have hn : ¬c.limit.ult a = true := by
    rw [BitVec.ult, decide_eq_true_eq]; omega
  intro n r
  have hn' : n = Spec.room c.limit.toNat a.toNat buffer.length := rfl
  have hr : r = ({ c with mem := writeBytes c.mem a (buffer.take n) }, .ok n) := by
    show writeMemory c .halted a buffer = _
    simp only [writeMemory, ne_eq, not_true_eq_false, if_false, if_neg hn, hc, hn']
  have hle : n ≤ buffer.length := by rw [hn']; unfold Spec.room; omega
  have htake : (buffer.take n).length = n := by rw [List.length_take]; omega
  have hlim := valid_small hv
  have hfit : n = 0 ∨ a.toNat + n ≤ c.limit.toNat + 1 := by
    rw [hn']; unfold Spec.room; omega
  rw [hr]
  refine ⟨rfl, ?_, ?_, rfl⟩
  · intro i hi
    have := writeBytes_get c.mem a (buffer.take n) (by omega) i (by omega)
    rw [List.getElem?_take, if_pos hi] at this
    rw [← this, BitVec.ofNat_add, BitVec.ofNat_toNat, BitVec.setWidth_eq]
  · intro b hb'
    refine writeBytes_frame _ _ _ (by omega) b ?_
    rw [htake, BitVec.toNat_sub]
    have := b.isLt
    omega

/-- C56: nothing is transferred unless the core is halted and the address is not above the limit. -/
theorem C56_reject (c : Core w) (st : RunStatus) (a length : BitVec 64) (buffer : List (BitVec 8)) :
    (st ≠ .halted → readMemory c st a length = .failedPrecondition ∧
      writeMemory c st a buffer = (c, .failedPrecondition)) ∧
    (st = .halted → c.limit.toNat < a.toNat → readMemory c st a length = .invalidArgument ∧
      writeMemory c st a buffer = (c, .invalidArgument)) := by
  constructor
  · intro h
    exact ⟨by simp [readMemory, h], by simp [writeMemory, h]⟩
  · rintro rfl h
    have hn : c.limit.ult a = true := by rw [BitVec.ult, decide_eq_true_eq]; exact h
    exact ⟨by simp [readMemory, hn], by simp [writeMemory, hn]⟩

/-- C56: a read of the same range after a write returns the bytes written. -/
theorem C56_round_trip (c : Core w) (a : BitVec 64) (buffer : List (BitVec 8)) (hv : ValidLimit c)
    (hb : buffer.length < 2 ^ 64) (ha : a.toNat ≤ c.limit.toNat) :
    readMemory (writeMemory c .halted a buffer).1 .halted a (BitVec.ofNat 64 buffer.length)
      = .ok (buffer.take (Spec.room c.limit.toNat a.toNat buffer.length)) := by
  obtain ⟨-, h2, -, h4⟩ := C56_write c a buffer hv hb ha
  generalize (writeMemory c .halted a buffer).1 = c' at h2 h4
  have hlim : c'.limit = c.limit := by rw [h4]
  have hv' : ValidLimit c' := by unfold ValidLimit; rw [hlim]; exact hv
  obtain ⟨bytes, e, hl, hget⟩ := C56_read c' a (BitVec.ofNat 64 buffer.length) hv' (by rw [hlim]; exact ha)
  rw [BitVec.toNat_ofNat, Nat.mod_eq_of_lt hb, hlim] at hl
  rw [e]
  congr 1
  have hle : Spec.room c.limit.toNat a.toNat buffer.length ≤ buffer.length := by
    unfold Spec.room; omega
  apply List.ext_getElem?
  intro i
  rw [List.getElem?_take]
  by_cases hi : i < bytes.length
  · rw [(hget i hi).2, if_pos (by omega), h2 i (by omega)]
  · rw [if_neg (by omega), List.getElem?_eq_none_iff]
    omega

/-- A write of four bytes two below the limit transfers two plus one: the limit itself is included. -/
def small : Core 64 := Mem.setLimit Mem.sample 0xfff#64
example : ValidLimit small ∧ (0xffd#64).toNat ≤ small.limit.toNat := ⟨setLimit_valid _ _, by decide⟩
example : Spec.room small.limit.toNat 0xffd 4 = 3 := by decide
example : (writeMemory small .halted 0xffd#64 [1, 2, 3, 4]).1.mem 0xfff#64 = 3#8 := by decide

end Verif.DebugMem
