import Verif.Atomic.Spec
import Verif.Mem.Props
/-
C33: atomic memory operations.
-/
namespace Verif.Atomic
open Verif.Core

variable {w : Nat} {ρ : Type}

/-- **C33 (no support).** With no atomic memory, or an operation the memory does not implement, the
illegal-instruction exception is raised and nothing else happens. -/
theorem C33_unsupported (dev : Option (Device ρ)) (s : St w ρ) (i : Insn) (sz : Mem.Size)
    (rd rs1 rs2 : BitVec 5) (epc : BitVec 64) (handled : Bool)
    (h : ∀ d, dev = some d → ∀ q, d (s.resv, s.core.mem) q = none) :
    exec dev s i sz rd rs1 rs2 epc handled
      = { s with core := { s.core with hart := s.core.hart.trap false 0#64 2#64 epc handled } } := by
  cases dev with
  | none => rfl
  | some d => simp only [exec, h d rfl]; rfl

/-- The address handed to the memory is the value of rs1. -/
def addr (s : St w ρ) (rs1 : BitVec 5) : BitVec 64 := (Regs.read s.core.regs rs1).setWidth 64

/-- The semantic function of each AMO requests the operation the ISA defines for it. -/
theorem op_ok (i : Insn) (n old v : Nat) : Spec.devAmo (semOp i).1 n old v = Spec.amo i n old v := by
  cases i <;> rfl

/-- **C33 (AMO).** One step: the memory at the address in rs1 goes from old to the ISA-defined
combination of old and the low part of rs2, and rd gets the sign-extended old value. -/
theorem C33_amo (d : Device ρ) (hd : Spec.Contract d) (s : St w ρ) (i : Insn) (sz : Mem.Size)
    (hf : Mem.Fits w sz) (rd rs1 rs2 : BitVec 5) (epc : BitVec 64) (handled : Bool)
    (hi : i ≠ .lr) (hi' : i ≠ .sc) :
    ∃ r' old new x, Mem.Spec.Holds s.core.mem (addr s rs1) sz.bytes old ∧ old < 256 ^ sz.bytes
      ∧ Spec.amo i sz.bytes old ((Regs.read s.core.regs rs2).toNat % 2 ^ (8 * sz.bytes)) = some new
      ∧ Mem.Spec.IsExt true sz.bytes old x
      ∧ exec (some d) s i sz rd rs1 rs2 epc handled
        = { resv := r'
            core := { s.core with
              mem := writeLE s.core.mem (addr s rs1) sz.bytes new
              regs := Regs.write s.core.regs rd x } } := by
  have hamo : ∃ new, Spec.amo i sz.bytes (readLE s.core.mem (addr s rs1) sz.bytes)
      ((Regs.read s.core.regs rs2).toNat % 2 ^ (8 * sz.bytes)) = some new := by
    cases i <;> first | exact ⟨_, rfl⟩ | exact absurd rfl hi | exact absurd rfl hi'
  obtain ⟨new, hnew⟩ := hamo
  obtain ⟨r', hr⟩ := hd.rmw s.resv s.core.mem (addr s rs1) (semOp i).1 sz.bytes _ new
    (by rw [op_ok]; exact hnew)
  refine ⟨r', readLE s.core.mem (addr s rs1) sz.bytes, new, _,
    fun j hj => (readLE_byte _ _ _ j hj).symm, readLE_lt _ _ _, hnew,
    Mem.extend_ok true sz.bytes _ hf, ?_⟩
  have hst : (semOp i).2 = true := by
    cases i <;> first | rfl | exact absurd rfl hi
  simp only [exec, hst, if_true]
  rw [show BitVec.setWidth 64 (Regs.read s.core.regs rs1) = addr s rs1 from rfl, hr]

/-- The bytes of the result of an AMO and the bytes around it. -/
theorem C33_amo_memory (m : Memory) (a : BitVec 64) (sz : Mem.Size) (new : Nat) :
    Mem.Spec.Holds (writeLE m a sz.bytes new) a sz.bytes new
      ∧ ∀ b, ¬ Mem.Spec.InRange a sz.bytes b → writeLE m a sz.bytes new b = m b := by
  have hs := (Mem.C26_store (w := 64)
    { hart := Hart.Hart.init 64 true, regs := fun _ => 0#64, mem := m, limit := -1#64, hasC := true }
    a sz.bytes new (by cases sz <;> decide) 0#64 false).2
  have hl : a.toNat ≤ (-1#64).toNat := by
    have := a.isLt
    rw [show (-1#64).toNat = 2 ^ 64 - 1 from rfl]; omega
  obtain ⟨m', h1, h2, h3⟩ := hs hl
  have : m' = writeLE m a sz.bytes new := by
    have h4 := congrArg (·.mem) h1
    have hn : ¬ (-1#64).ult a = true := fun hc => by have := (Mem.ult_iff _ _).1 hc; omega
    simp only [Mem.store, if_neg hn] at h4
    exact h4.symm
  rw [← this]; exact ⟨h2, h3⟩

/-- **C33 (LR).** The sign-extended value is loaded and memory does not change. -/
theorem C33_lr (d : Device ρ) (hd : Spec.Contract d) (s : St w ρ) (sz : Mem.Size) (hf : Mem.Fits w sz)
    (rd rs1 rs2 : BitVec 5) (epc : BitVec 64) (handled : Bool) :
    ∃ r' old x, Mem.Spec.Holds s.core.mem (addr s rs1) sz.bytes old ∧ Mem.Spec.IsExt true sz.bytes old x
      ∧ exec (some d) s .lr sz rd rs1 rs2 epc handled
        = { resv := r', core := { s.core with regs := Regs.write s.core.regs rd x } } := by
  obtain ⟨r', hr⟩ := hd.ll s.resv s.core.mem (addr s rs1) sz.bytes
  refine ⟨r', readLE s.core.mem (addr s rs1) sz.bytes, _, fun j hj => (readLE_byte _ _ _ j hj).symm,
    Mem.extend_ok true sz.bytes _ hf, ?_⟩
  simp only [exec, semOp]
  rw [show BitVec.setWidth 64 (Regs.read s.core.regs rs1) = addr s rs1 from rfl]
  simp only [Bool.false_eq_true, if_false, hr]

theorem ext_zero (sz : Mem.Size) : Mem.extend w true sz.bytes 0 = 0#w := by
  have h : BitVec.signExtend w 0#(8 * sz.bytes) = 0#w := by
    apply BitVec.eq_of_getLsbD_eq
    intro i hi
    rw [BitVec.getLsbD_signExtend]
    simp [BitVec.msb]
  simpa [Mem.extend] using h

theorem ext_ne_zero (sz : Mem.Size) (hf : Mem.Fits w sz) (x : Nat) (h0 : 0 < x) (h1 : x < 2 ^ (8 * sz.bytes)) :
    Mem.extend w true sz.bytes x ≠ 0#w := by
  intro h
  have he := Mem.extend_ok (w := w) true sz.bytes x hf
  unfold Mem.Spec.IsExt at he
  rw [if_pos rfl, h] at he
  have h2 : (x : Int).bmod (2 ^ (8 * sz.bytes)) = 0 := by rw [← he]; simp
  have h3 := congrArg (· % ((2 ^ (8 * sz.bytes) : Nat) : Int)) h2
  simp only [Int.bmod_emod, Int.zero_emod] at h3
  have h4 : (x % 2 ^ (8 * sz.bytes) : Nat) = 0 := by
    have : ((x % 2 ^ (8 * sz.bytes) : Nat) : Int) = 0 := by rw [Int.natCast_emod]; exact h3
    omega
  rw [Nat.mod_eq_of_lt h1] at h4
  omega

/-- **C33 (SC).** Either the low part of rs2 is stored and rd is zero, or nothing is stored and rd is
not zero. -/
theorem C33_sc (d : Device ρ) (hd : Spec.Contract d) (s : St w ρ) (sz : Mem.Size) (hf : Mem.Fits w sz)
    (rd rs1 rs2 : BitVec 5) (epc : BitVec 64) (handled : Bool) :
    ∃ r' m x, exec (some d) s .sc sz rd rs1 rs2 epc handled
        = { resv := r', core := { s.core with mem := m, regs := Regs.write s.core.regs rd x } }
      ∧ ((x = 0#w ∧ m = writeLE s.core.mem (addr s rs1) sz.bytes
            ((Regs.read s.core.regs rs2).toNat % 2 ^ (8 * sz.bytes)))
        ∨ (x ≠ 0#w ∧ m = s.core.mem)) := by
  obtain ⟨r', h⟩ := hd.sc s.resv s.core.mem (addr s rs1) sz.bytes
    ((Regs.read s.core.regs rs2).toNat % 2 ^ (8 * sz.bytes))
  have e : exec (some d) s .sc sz rd rs1 rs2 epc handled
      = match d (s.resv, s.core.mem) ⟨addr s rs1, .storeConditional, sz.bytes,
          some ((Regs.read s.core.regs rs2).toNat % 2 ^ (8 * sz.bytes))⟩ with
        | none => { s with core := raise s.core 0#64 2#64 epc handled }
        | some ((r, m), v) =>
          { resv := r
            core := { s.core with mem := m, regs := Regs.write s.core.regs rd (Mem.extend w true sz.bytes v) } } := by
    simp only [exec, semOp, if_true]; rfl
  rcases h with h | ⟨x, hx0, hx1, h⟩
  · refine ⟨r', _, _, ?_, Or.inl ⟨ext_zero sz, rfl⟩⟩
    rw [e, h]
  · refine ⟨r', _, _, ?_, Or.inr ⟨ext_ne_zero sz hf x hx0 hx1, rfl⟩⟩
    rw [e, h]

/-! ### A memory that meets the contract, and a gap -/

/-- A memory with one reservation, invalidated by any write. -/
def simpleDev : Device (Option (BitVec 64)) := fun (r, m) q =>
  match q.op with
  | .loadLinked => some ((some q.addr, m), readLE m q.addr q.bytes)
  | .storeConditional =>
    match q.operand with
    | some v => if r = some q.addr then some ((none, writeLE m q.addr q.bytes v), 0)
        else if q.bytes = 0 then some ((none, writeLE m q.addr q.bytes v), 0) else some ((none, m), 1)
    | none => none
  | o =>
    match q.operand with
    | some v => (Spec.devAmo o q.bytes (readLE m q.addr q.bytes) v).map
        (fun f => ((none, writeLE m q.addr q.bytes f), readLE m q.addr q.bytes))
    | none => none

/-- The assumption on the memory is satisfiable. -/
theorem simpleDev_ok : Spec.Contract simpleDev where
  rmw := by
    intro r m a o n v f h
    refine ⟨none, ?_⟩
    cases o <;> first | (simp only [simpleDev, h]; rfl) | (simp [Spec.devAmo] at h)
  ll := fun r m a n => ⟨some a, rfl⟩
  sc := by
    intro r m a n v
    refine ⟨none, ?_⟩
    simp only [simpleDev]
    split
    · exact Or.inl rfl
    · split
      · exact Or.inl rfl
      · rename_i h
        refine Or.inr ⟨1, by omega, ?_, rfl⟩
        exact Nat.one_lt_two_pow (by omega)

/-- **C26 violated (atomics).** The physical address limit is not checked for atomics: an AMO above
the limit changes memory. -/
theorem C26_atomic_violated :
    let s : St 64 (Option (BitVec 64)) :=
      { core := { Mem.sample with regs := fun r => if r = 1 then 0x20000#64 else 5#64 }, resv := none }
    s.core.limit.toNat < (addr s 1).toNat
      ∧ (exec (some simpleDev) s .amoadd .w 3 1 2 0#64).core.mem 0x20000#64 = 5#8
      ∧ s.core.mem 0x20000#64 = 0#8 := by
  refine ⟨by decide, by decide, rfl⟩

/-! Non-vacuity: lr/sc succeed, then sc fails; amomin.w is signed. -/
def demo : St 64 (Option (BitVec 64)) :=
  { core := { Mem.sample with regs := fun r => if r = 1 then 0x100#64 else 0xffffffff#64 }, resv := none }
example : Regs.read (exec (some simpleDev) (exec (some simpleDev) demo .lr .w 3 1 2 0#64) .sc .w 3 1 2 0#64).core.regs 3
    = 0#64 := by decide
example : Regs.read (exec (some simpleDev) demo .sc .w 3 1 2 0#64).core.regs 3 = 1#64 := by decide
example : (exec (some simpleDev) demo .amomin .w 3 1 2 0#64).core.mem 0x100#64 = 0xff#8
    ∧ (exec (some simpleDev) demo .amominu .w 3 1 2 0#64).core.mem 0x100#64 = 0#8 := by decide
example : (exec (none : Option (Device (Option (BitVec 64)))) demo .lr .w 3 1 2 0x40#64).core.hart.mcause = 2#64 := by
  decide

end Verif.Atomic
