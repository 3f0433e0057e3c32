import Verif.CsrFile.Model
import Verif.CsrFile.Spec
/-
C92: registers with restricted legal values.
-/
namespace Verif.CsrFile

/-- C92 (misa): no sequence of CSR instructions changes misa, and what software reads has
the layout of its XLEN. -/
theorem C92_misa_constant (ops : List Csr.Op) :
    ((Misa.mk32 misaInitial32).run ops).as32 = misaInitial32 ∧
    ((Misa.mk64 misaInitial64).run ops).as64 = misaInitial64 ∧
    Spec.mxl misaInitial32 = 1 ∧ Spec.mxl misaInitial64 = 2 := by
  have : ∀ (m : Misa) (ops : List Csr.Op), m.run ops = m := by
    intro m ops
    induction ops with
    | nil => rfl
    | cons o os ih => exact ih
  rw [this, this]
  decide +kernel

/-- The upper-case letters. -/
def letters : List Char := "ABCDEFGHIJKLMNOPQRSTUVWXYZ".toList

/-- C92 (misa letters): the letters reported are exactly A, C, D, F, G, I, M and S. -/
theorem C92_misa_letters : ∀ c ∈ letters,
    (Spec.hasLetter misaInitial32 c = true ↔ c ∈ "ACDFGIMS".toList) ∧
    (Spec.hasLetter misaInitial64 c = true ↔ c ∈ "ACDFGIMS".toList) := by decide +kernel

/-- C92, user mode: the register object says user mode exists, misa does not report it
(letter U), and misa reports the reserved letter G. -/
theorem C92_misa_user_violated (ops : List Csr.Op) :
    ((Misa.mk64 misaInitial64).run ops).hasUserMode = true ∧
    Spec.hasLetter misaInitial64 'U' = false ∧ Spec.hasLetter misaInitial64 'G' = true :=
  ⟨rfl, by decide +kernel, by decide +kernel⟩

/-- C92 (supervisor mode): the model's answer is letter S of what software reads. -/
theorem C92_supervisor (v : BitVec 64) :
    (Misa.mk64 v).hasSupervisorMode = Spec.hasLetter (Misa.mk64 v).as64 'S' ∧
    (Misa.mk64 v).hasSupervisorMode = Spec.hasLetter (Misa.mk64 v).as32 'S' := by
  have hS : 'S'.toNat - 'A'.toNat = 18 := by decide
  have hb : (Misa.mk64 v).hasSupervisorMode = v.getLsbD 18 := by
    have hg : (Misa.mk64 v).get32.getLsbD 18 = v.getLsbD 18 := by
      simp [Misa.mk64, Misa.get32, compress]
    unfold Misa.hasSupervisorMode
    rw [← hg]
    generalize (Misa.mk64 v).get32 = u
    have h1 : (0x40000#32 : BitVec 32) = BitVec.twoPow 32 18 := by decide
    rw [h1, BitVec.and_twoPow]
    cases u.getLsbD 18 <;> simp <;> decide
  constructor
  · rw [hb]
    simp [Spec.hasLetter, Misa.mk64, Misa.as64, Csr.SimpleCsr.as, Csr.SimpleCsr.get]
  · rw [hb]
    simp [Spec.hasLetter, Misa.mk64, Misa.as32, Misa.get32, compress]

/-- C92 (XLEN, part): a hart built as RV32 reports RV32. -/
theorem C92_xlen_partial : (Misa.mk32 misaInitial32).xlen = .rv32 := by decide +kernel

/-- C92, XLEN: no misa value reports RV64 – not the one an RV64 hart is built with – and a
value with the reserved encoding 3 reports RV32. -/
theorem C92_xlen_violated : (∀ v, (Misa.mk64 v).xlen ≠ .rv64) ∧
    Spec.mxl misaInitial64 = 2 ∧ (Misa.mk64 misaInitial64).xlen = .unknown ∧
    (Misa.mk64 0xc000000000000000#64).xlen = .rv32 := by
  refine ⟨?_, by decide +kernel, by decide +kernel, by decide +kernel⟩
  intro v h
  obtain ⟨k, hk⟩ : ∃ k, k = (Misa.mk64 v).csr.get 64 >>> 62 &&& 0xb11#64 := ⟨_, rfl⟩
  have hx : (Misa.mk64 v).xlen =
      if k = 0b01#64 then .rv32 else if k = 0b10#64 then .rv64 else .unknown := by
    rw [hk]; rfl
  rw [hx] at h
  replace hk : k.getLsbD 1 = false := by
    rw [hk, BitVec.getLsbD_and]
    have : (0xb11#64).getLsbD 1 = false := by decide
    rw [this, Bool.and_false]
  by_cases h1 : k = 0b01#64
  · rw [if_pos h1] at h; cases h
  · rw [if_neg h1] at h
    by_cases h2 : k = 0b10#64
    · rw [h2] at hk; revert hk; decide
    · rw [if_neg h2] at h; cases h

/-- C92 (setting misa): a value of the 64-bit layout set by the simulator is what software
reads, reserved bits aside; on an RV32 hart the MXL field moves to the top of the word. -/
theorem C92_misa_set (m : BitVec 64) (v : BitVec 64) :
    ((Misa.mk64 m).set v).as64 = v &&& 0xc000000003ffffff#64 ∧
    (∀ k, k < 26 → ((Misa.mk64 m).set v).as32.getLsbD k = v.getLsbD k) ∧
    (∀ k, k < 2 → ((Misa.mk64 m).set v).as32.getLsbD (30 + k) = v.getLsbD (62 + k)) := by
  refine ⟨?_, ?_, ?_⟩
  · simp [Misa.set, Misa.mk64, Misa.as64, Csr.SimpleCsr.as, Csr.SimpleCsr.set, Csr.SimpleCsr.get]
  · intro k hk
    have h32 : k < 32 := by omega
    have h64 : k < 64 := by omega
    have c1 : ∀ k, k < 26 → (0xc0000000#64).getLsbD k = false ∧ (0x3fffffff#64).getLsbD k = true ∧
        (compress 0xc000000003ffffff#64).getLsbD k = true := by decide +kernel
    obtain ⟨a, b, c⟩ := c1 k hk
    simp only [Misa.set, Misa.mk64, Misa.as32, Misa.get32, compress, Csr.SimpleCsr.set,
      BitVec.getLsbD_and, BitVec.getLsbD_setWidth, BitVec.getLsbD_or, BitVec.getLsbD_ushiftRight,
      h32, h64, decide_true, Bool.true_and, a, b, Bool.and_false, Bool.false_or, Bool.and_true]
    have c' := c
    unfold compress at c'
    simp only [BitVec.getLsbD_setWidth, h32, decide_true, Bool.true_and, BitVec.getLsbD_or,
      BitVec.getLsbD_and, BitVec.getLsbD_ushiftRight, a, b, Bool.and_false, Bool.false_or,
      Bool.and_true] at c'
    simp [c']
  · intro k hk
    rcases (by omega : k = 0 ∨ k = 1) with h | h <;> subst h <;>
      simp [Misa.set, Misa.mk64, Misa.as32, Misa.get32, compress, Csr.SimpleCsr.set]

/-- C92, setting misa with a 32-bit value: the two MXL bits are lost, so the value read
back is not the value set. -/
theorem C92_misa_set32_violated :
    ((Misa.mk32 misaInitial32).set misaInitial32).as32 ≠ misaInitial32 ∧
    Spec.mxl ((Misa.mk32 misaInitial32).set misaInitial32).as32 = 0 := by decide +kernel

/-- C92, reset: `Reset`, documented as setting the reset value, clears misa. -/
theorem C92_misa_reset_violated : (Misa.mk64 misaInitial64).reset ≠ Misa.mk64 misaInitial64 ∧
    (Misa.mk64 misaInitial64).reset.as64 = 0#64 := by decide +kernel

/-- C92 (jvt): after any sequence of CSR operations at the register's own width, the mode
field (the low six bits) of jvt reads zero. -/
theorem C92_jvt_mode {w : Nat} (ops : List Csr.Op) (k : Nat) (hk : k < 6) :
    (jvtRun (⟨0, BitVec.allOnes w, BitVec.allOnes w⟩ : Csr.SimpleCsr w) ops).value.getLsbD k
      = false := by
  have wr : ∀ {n : Nat} (c : Csr.SimpleCsr w) (v : BitVec n), (n = 32 ∨ n = 64) →
      (jvtWrite c v).value.getLsbD k = false := by
    intro n c v hn
    have h3 : (0x3f#n).getLsbD k = true := by
      have : ∀ k, k < 6 → (0x3f#32).getLsbD k = true ∧ (0x3f#64).getLsbD k = true := by decide
      rcases hn with hn | hn <;> subst hn
      · exact (this k hk).1
      · exact (this k hk).2
    simp only [jvtWrite, Csr.SimpleCsr.set, BitVec.getLsbD_setWidth, BitVec.getLsbD_and,
      BitVec.getLsbD_not, h3, Bool.not_true, Bool.and_false]
  have step : ∀ (c : Csr.SimpleCsr w) (o : Csr.Op), (jvtStep c o).value.getLsbD k = false := by
    intro c o
    cases o <;> first | exact wr _ _ (.inl rfl) | exact wr _ _ (.inr rfl)
  have : ∀ (ops : List Csr.Op) (c : Csr.SimpleCsr w), c.value.getLsbD k = false →
      (jvtRun c ops).value.getLsbD k = false := by
    intro ops
    induction ops with
    | nil => exact fun _ h => h
    | cons o os ih => exact fun c _ => ih (jvtStep c o) (step c o)
  exact this ops _ (by simp)

/-- C92 (jvt base): a write of `v` leaves the table base `v` rounded down to 64 bytes. -/
theorem C92_jvt_base {w : Nat} (c : Csr.SimpleCsr w) (v : BitVec w) :
    (jvtWrite c v).value.toNat = v.toNat / 64 * 64 := by
  have h0 : (jvtWrite c v).value = v &&& ~~~(0x3f#w) := by
    simp [jvtWrite, Csr.SimpleCsr.set]
  rw [h0]
  have hn : v &&& ~~~(0x3f#w) = (v >>> 6) <<< 6 := by
    apply BitVec.eq_of_getLsbD_eq
    intro i hi
    have h3 : (0x3f#w).getLsbD i = decide (i < 6) := by
      have e : (0x3f : Nat) = 2 ^ 6 - 1 := rfl
      rw [BitVec.getLsbD_ofNat, e, Nat.testBit_two_pow_sub_one]
      simp [hi]
    simp only [BitVec.getLsbD_and, BitVec.getLsbD_not, hi, decide_true, Bool.true_and, h3,
      BitVec.getLsbD_shiftLeft, BitVec.getLsbD_ushiftRight]
    by_cases h6 : i < 6
    · simp [h6]
    · simp only [h6, decide_false, Bool.not_false, Bool.and_true, Bool.true_and]
      congr 1
      omega
  rw [hn, BitVec.toNat_shiftLeft, BitVec.toNat_ushiftRight, Nat.shiftRight_eq_div_pow,
    Nat.shiftLeft_eq]
  apply Nat.mod_eq_of_lt
  exact Nat.lt_of_le_of_lt (Nat.div_mul_le_self _ _) v.isLt

example : (jvtWrite (⟨0, BitVec.allOnes 32, BitVec.allOnes 32⟩ : Csr.SimpleCsr 32)
    0x80001fff#32).value = 0x80001fc0#32 := by decide

/-- A register created without masks takes every bit written to it. -/
theorem plain_write (w : Nat) (c : Csr.SimpleCsr w) (hc : c.readMask = BitVec.allOnes w)
    (hm : c.writeMask = BitVec.allOnes w) (v : BitVec w) :
    (c.write v).as w = v ∧ (c.write v).readMask = BitVec.allOnes w ∧
      (c.write v).writeMask = BitVec.allOnes w := by
  refine ⟨?_, hc, hm⟩
  simp [Csr.SimpleCsr.write, Csr.SimpleCsr.as, Csr.SimpleCsr.set, Csr.SimpleCsr.get, hc, hm]

/-- The object created under a name. -/
def objectOf (w : Nat) (n : String) : Option (Csr.SimpleCsr w) :=
  ((created w).find? (·.name = n)).bind Created.simple

/-- The initial object of a plain register. -/
def fresh (w : Nat) : Csr.SimpleCsr w := ⟨0, BitVec.allOnes w, BitVec.allOnes w⟩

/-- C92, exception addresses: mepc and sepc keep bit 0 of what is written, which the
privileged architecture requires to read as zero. -/
theorem C92_epc_violated :
    objectOf 64 "mepc" = some (fresh 64) ∧ objectOf 64 "sepc" = some (fresh 64) ∧
    objectOf 32 "mepc" = some (fresh 32) ∧ objectOf 32 "sepc" = some (fresh 32) ∧
    (∀ w (v : BitVec w), ((fresh w).write v).as w = v) ∧
    (((fresh 64).write 0x80000001#64).as 64).getLsbD 0 = true := by
  refine ⟨by decide +kernel, by decide +kernel, by decide +kernel, by decide +kernel, ?_,
    by decide +kernel⟩
  exact fun w v => (plain_write w _ rfl rfl v).1

/-- C92, locked memory protection: an entry of pmpcfg0 with its lock bit set (bit 7) can be
rewritten, for every old and new value, although a locked entry may change only at reset;
and the reserved bits 5 and 6 of an entry take what is written. -/
theorem C92_pmp_violated :
    objectOf 64 "pmpcfg0" = some (fresh 64) ∧ objectOf 64 "pmpaddr0" = some (fresh 64) ∧
    (∀ old new : BitVec 64, (((fresh 64).write old).write new).as 64 = new) ∧
    ((((fresh 64).write 0x8f#64).write 0x60#64).as 64) = 0x60#64 := by
  refine ⟨by decide +kernel, by decide +kernel, ?_, by decide +kernel⟩
  intro old new
  have := plain_write 64 (fresh 64) rfl rfl old
  exact (plain_write 64 _ this.2.1 this.2.2 new).1

/-- C92 (delegation): an environment call from machine mode (code 11), the reserved codes 10
and 14 and everything above 15 can not be delegated: those bits of medeleg read zero
whatever is written. -/
theorem C92_medeleg (w : Nat) (hw : w = 32 ∨ w = 64) (c : Csr.SimpleCsr w)
    (hc : objectOf w "medeleg" = some c) (v : BitVec w) (k : Nat)
    (hk : k = 10 ∨ k = 11 ∨ k = 14 ∨ 16 ≤ k) :
    (c.write v).as w = v &&& BitVec.ofNat w 0xb3ff ∧ ((c.write v).as w).getLsbD k = false := by
  have hc' : c = ⟨0, BitVec.ofNat w 0xb3ff, BitVec.ofNat w 0xb3ff⟩ := by
    rcases hw with h | h <;> subst h
    · have : objectOf 32 "medeleg" = some ⟨0, 0xb3ff#32, 0xb3ff#32⟩ := by decide +kernel
      rw [this] at hc; exact (Option.some.inj hc).symm
    · have : objectOf 64 "medeleg" = some ⟨0, 0xb3ff#64, 0xb3ff#64⟩ := by decide +kernel
      rw [this] at hc; exact (Option.some.inj hc).symm
  subst hc'
  have h1 : (Csr.SimpleCsr.write (⟨0, BitVec.ofNat w 0xb3ff, BitVec.ofNat w 0xb3ff⟩ :
      Csr.SimpleCsr w) v).as w = v &&& BitVec.ofNat w 0xb3ff := by
    simp only [Csr.SimpleCsr.write, Csr.SimpleCsr.as, Csr.SimpleCsr.set, Csr.SimpleCsr.get,
      BitVec.setWidth_eq]
    apply BitVec.eq_of_getLsbD_eq
    intro i hi
    simp
  refine ⟨h1, ?_⟩
  rw [h1, BitVec.getLsbD_and, BitVec.getLsbD_ofNat]
  have : Nat.testBit 0xb3ff k = false := by
    rcases hk with h | h | h | h
    · subst h; decide
    · subst h; decide
    · subst h; decide
    · exact Nat.testBit_lt_two_pow (Nat.lt_of_lt_of_le (by decide : 0xb3ff < 2 ^ 16)
        (Nat.pow_le_pow_right (by decide) h))
  rw [this]
  simp

example : (objectOf 64 "medeleg").isSome ∧ (objectOf 32 "mhartid").isSome := by decide +kernel

/-- C92 (hart number): mhartid ignores writes. -/
theorem C92_mhartid (w : Nat) (hw : w = 32 ∨ w = 64) (c : Csr.SimpleCsr w)
    (hc : objectOf w "mhartid" = some c) (v : BitVec w) : (c.write v).as w = 0 := by
  have hc' : c = ⟨0, BitVec.allOnes w, 0⟩ := by
    rcases hw with h | h <;> subst h
    · have : objectOf 32 "mhartid" = some ⟨0, BitVec.allOnes 32, 0⟩ := by decide +kernel
      rw [this] at hc; exact (Option.some.inj hc).symm
    · have : objectOf 64 "mhartid" = some ⟨0, BitVec.allOnes 64, 0⟩ := by decide +kernel
      rw [this] at hc; exact (Option.some.inj hc).symm
  subst hc'
  simp [Csr.SimpleCsr.write, Csr.SimpleCsr.as, Csr.SimpleCsr.set, Csr.SimpleCsr.get]

end Verif.CsrFile
