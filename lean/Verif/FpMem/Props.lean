import Verif.FpMem.Spec

/-!
# C87: floating-point loads and stores
-/

namespace Verif.FpMem

open Core Mem Spec

variable {w : Nat}

/-! ## Addresses and FS -/

theorem address_self (s : State w) (rs1 : BitVec 5) (off : BitVec w) :
    address w s rs1 off = ea s.core rs1 off := by
  unfold address ea
  rw [BitVec.setWidth_eq, BitVec.setWidth_eq]

/-- A 64-bit sum of zero-extended numbers is the address when the sum fits. -/
theorem address_wide (hw : w ≤ 64) (s : State w) (rs1 : BitVec 5) (off : BitVec w)
    (h : (Regs.read s.core.regs rs1).toNat + off.toNat < 2 ^ w) :
    address 64 s rs1 off = ea s.core rs1 off := by
  have hp : (2 : Nat) ^ w ≤ 2 ^ 64 := Nat.pow_le_pow_right (by decide) hw
  unfold address ea
  apply BitVec.eq_of_toNat_eq
  rw [BitVec.setWidth_eq, BitVec.toNat_add, BitVec.toNat_setWidth, BitVec.toNat_setWidth,
    BitVec.toNat_setWidth, BitVec.toNat_add, Nat.mod_eq_of_lt h]
  generalize (2 : Nat) ^ w = p at *
  have h1 : (Regs.read s.core.regs rs1).toNat < 2 ^ 64 := by omega
  have h2 : off.toNat < 2 ^ 64 := by omega
  rw [Nat.mod_eq_of_lt h1, Nat.mod_eq_of_lt h2]

theorem fs_zero_iff (s : State w) : fs s = 0#64 ↔ Off s := by
  unfold fs Off XStatus.MStatus.getter
  generalize s.core.hart.mstatus.value = v
  simp only [XStatus.Field.shift, XStatus.Field.mask]
  constructor
  · intro h
    have h0 := congrArg (fun x : BitVec 64 => x.getLsbD 0) h
    have h1 := congrArg (fun x : BitVec 64 => x.getLsbD 1) h
    simp only [BitVec.getLsbD_and, BitVec.getLsbD_ushiftRight, BitVec.getLsbD_zero] at h0 h1
    exact ⟨by simpa using h0, by simpa using h1⟩
  · rintro ⟨h0, h1⟩
    apply BitVec.eq_of_getLsbD_eq
    intro j hj
    rw [BitVec.getLsbD_and, BitVec.getLsbD_ushiftRight, BitVec.getLsbD_zero]
    rcases j with _ | _ | j
    · rw [h0, Bool.false_and]
    · rw [show 13 + (0 + 1) = 14 from rfl, h1, Bool.false_and]
    · have : (0b11#64).getLsbD (j + 1 + 1) = false := by
        show Nat.testBit 3 (j + 1 + 1) = false
        exact Nat.testBit_lt_two_pow (Nat.lt_of_lt_of_le (by decide : 3 < 2 ^ 2)
          (Nat.pow_le_pow_right (by decide) (by omega)))
      rw [show (0b11 : BitVec 64) = 0b11#64 from rfl, this, Bool.and_false]

/-! ## Write-back -/

theorem box_toNat (n v : Nat) (hn : n ≤ 8) (hv : v < 256 ^ n) (old : BitVec 64) :
    Boxed n v (back (.box n) old v) := by
  unfold Boxed back
  have hp : (256 : Nat) ^ n = 2 ^ (8 * n) := by rw [Nat.pow_mul]
  rw [hp] at hv
  have hle : (2 : Nat) ^ (8 * n) ≤ 2 ^ 64 := Nat.pow_le_pow_right (by decide) (by omega)
  have hv64 : v < 2 ^ 64 := by omega
  have hs : (BitVec.allOnes 64 <<< (8 * n)).toNat = 2 ^ 64 - 2 ^ (8 * n) := by
    rw [BitVec.toNat_shiftLeft, BitVec.toNat_allOnes, Nat.shiftLeft_eq]
    obtain ⟨k, hk⟩ : ∃ k, 8 * n + k = 64 := ⟨64 - 8 * n, by omega⟩
    have e : (2 : Nat) ^ 64 = 2 ^ (8 * n) * 2 ^ k := by rw [← Nat.pow_add, hk]
    have : (2 ^ 64 - 1) * 2 ^ (8 * n) = 2 ^ 64 - 2 ^ (8 * n) + 2 ^ 64 * (2 ^ (8 * n) - 1) := by
      generalize (2 : Nat) ^ (8 * n) = p at *
      have hp1 : 1 ≤ p := by
        rcases Nat.eq_zero_or_pos p with h | h
        · omega
        · exact h
      obtain ⟨q, rfl⟩ : ∃ q, p = q + 1 := ⟨p - 1, by omega⟩
      simp only [Nat.add_sub_cancel]
      omega
    rw [this, Nat.add_mul_mod_self_left]
    apply Nat.mod_eq_of_lt
    have := Nat.two_pow_pos (8 * n)
    omega
  rw [BitVec.toNat_or, hs, BitVec.toNat_ofNat, Nat.mod_eq_of_lt hv64]
  obtain ⟨k, hk⟩ : ∃ k, 8 * n + k = 64 := ⟨64 - 8 * n, by omega⟩
  have e : 2 ^ 64 - 2 ^ (8 * n) = 2 ^ (8 * n) * (2 ^ k - 1) := by
    rw [Nat.mul_sub, ← Nat.pow_add, hk, Nat.mul_one]
  rw [e, Nat.two_pow_add_eq_or_of_lt hv]

theorem whole_toNat (v : Nat) (hv : v < 256 ^ 8) (old : BitVec 64) :
    Boxed 8 v (back .whole old v) := by
  unfold Boxed back
  rw [BitVec.toNat_ofNat, Nat.mod_eq_of_lt (by simpa using hv)]
  simp

/-! ## Loads -/

theorem load_does (k n : Nat) (b : Back) (hb : ∀ v old, v < 256 ^ n → Boxed n v (back b old v))
    (s : State w) (fr rs1 : BitVec 5) (off : BitVec w) (epc : BitVec 64) (handled : Bool)
    (a : BitVec 64) (ha : address k s rs1 off = a) :
    (a.toNat ≤ s.core.limit.toNat → Loaded n a fr s (load k n b s fr rs1 off epc handled)) ∧
    (s.core.limit.toNat < a.toNat →
      Raised s (load k n b s fr rs1 off epc handled) a 5#64 epc handled) := by
  unfold load
  rw [ha]
  constructor
  · intro h
    rw [Mem.load, if_neg (fun hc => by have := (ult_iff _ _).1 hc; omega)]
    refine ⟨rfl, fun q hq => if_neg hq, readLE s.core.mem a n,
      fun i hi => (readLE_byte _ _ _ i hi).symm, readLE_lt _ _ _, ?_⟩
    show Boxed n _ (if fr = fr then _ else _)
    rw [if_pos rfl]
    exact hb _ _ (readLE_lt _ _ _)
  · intro h
    rw [Mem.load, if_pos ((ult_iff _ _).2 h)]
    exact ⟨rfl, rfl⟩

/-- C87, loads: `flh`, `flw` and `fld` read the addressed bytes and NaN-box them.
Missing: nothing refuses them when the unit is off (`C87_off_load_violated`). -/
theorem C87_load_partial (hw : w ≤ 64) (i : Ins) (hi : i = .flh ∨ i = .flw ∨ i = .fld) (s : State w)
    (fr rs1 : BitVec 5) (off : BitVec w) (epc : BitVec 64) (handled : Bool) :
    Does i s (exec i s fr rs1 off epc handled) fr rs1 off epc handled := by
  intro a ha
  have he := (address_self s rs1 off).trans ((address_iff hw s.core rs1 off a).1 ha).symm
  rcases hi with rfl | rfl | rfl
  · exact load_does w 2 (.box 2) (fun v o h => box_toNat 2 v (by decide) h o) s fr rs1 off epc handled a he
  · exact load_does w 4 (.box 4) (fun v o h => box_toNat 4 v (by decide) h o) s fr rs1 off epc handled a he
  · exact load_does w 8 .whole (fun v o h => whole_toNat v h o) s fr rs1 off epc handled a he

/-! ## Stores -/

theorem holds_mod {m : Memory} {a : BitVec 64} {n v : Nat} (h : Mem.Spec.Holds m a n (v % 2 ^ (8 * n))) :
    Mem.Spec.Holds m a n v := by
  intro i hi
  rw [h i hi, Mem.Spec.byteOf, Mem.Spec.byteOf, ← pow_eq]
  have e : 256 ^ n = 256 ^ i * 256 ^ (n - i) := by rw [← Nat.pow_add]; congr 1; omega
  rw [e, Nat.mod_mul_right_div_self]
  have e2 : 256 ^ (n - i) = 256 * 256 ^ (n - i - 1) := by
    rw [← Nat.pow_succ']; congr 1; omega
  rw [e2, Nat.mod_mul_right_mod]

theorem store_does (k n : Nat) (hn : n ≤ 2 ^ 64) (s : State w) (fr rs1 : BitVec 5) (off : BitVec w)
    (epc : BitVec 64) (handled : Bool) (a : BitVec 64) (ha : address k s rs1 off = a) :
    (a.toNat ≤ s.core.limit.toNat → Stored n a fr s (store k n s fr rs1 off epc handled)) ∧
    (s.core.limit.toNat < a.toNat →
      Raised s (store k n s fr rs1 off epc handled) a 7#64 epc handled) := by
  have hs := C26_store s.core a n ((s.fregs fr).toNat % 2 ^ (8 * n)) hn epc handled
  unfold store
  rw [ha]
  refine ⟨fun h => ?_, fun h => ⟨hs.1 h, rfl⟩⟩
  obtain ⟨m, h1, h2, h3⟩ := hs.2 h
  exact ⟨rfl, m, h1, holds_mod h2, h3⟩

/-- C87, stores: with the unit on, `fsh`, `fsw` and `fsd` write the low bytes of
the register and nothing else; so do `c.fsw` and `c.fsd` of RV32. -/
theorem C87_store_partial (hw : w ≤ 64) (i : Ins)
    (hi : i = .fsh ∨ i = .fsw ∨ i = .fsd ∨ i = .cfsw ∨ (i = .cfsd ∧ w = 32)) (s : State w)
    (hs : ¬ Off s) (fr rs1 : BitVec 5) (off : BitVec w) (epc : BitVec 64) (handled : Bool) :
    Does i s (exec i s fr rs1 off epc handled) fr rs1 off epc handled := by
  intro a ha
  have he := (address_self s rs1 off).trans ((address_iff hw s.core rs1 off a).1 ha).symm
  have hf : fs s ≠ 0#64 := fun h => hs ((fs_zero_iff s).1 h)
  rcases hi with rfl | rfl | rfl | rfl | ⟨rfl, h32⟩
  · exact store_does w 2 (by decide) s fr rs1 off epc handled a he
  · simp only [exec, storeFs, if_neg hf]
    exact store_does w 4 (by decide) s fr rs1 off epc handled a he
  · simp only [exec, storeFs, if_neg hf]
    exact store_does w 8 (by decide) s fr rs1 off epc handled a he
  · exact store_does w 4 (by decide) s fr rs1 off epc handled a he
  · simp only [exec, storeFs, if_neg hf, if_pos h32]
    exact store_does w 8 (by decide) s fr rs1 off epc handled a he

/-! ## Compressed double-precision forms -/

/-- C87 for the compressed doubles of RV64, and for those of RV32 when the sum
of base and offset does not wrap. -/
theorem C87_compressed_double_partial (hw : w = 32 ∨ w = 64) (i : Ins)
    (hi : i = .cfld ∨ i = .cfsdsp ∨ (i = .cfsd ∧ w = 64)) (s : State w) (fr rs1 : BitVec 5)
    (off : BitVec w)
    (hn : w = 64 ∨ (Regs.read s.core.regs rs1).toNat + off.toNat < 2 ^ w)
    (epc : BitVec 64) (handled : Bool) :
    Does i s (exec i s fr rs1 off epc handled) fr rs1 off epc handled := by
  intro a ha
  have hw' : w ≤ 64 := by omega
  have he : address 64 s rs1 off = a := by
    refine Eq.trans ?_ ((address_iff hw' s.core rs1 off a).1 ha).symm
    rcases hn with rfl | hn
    · exact address_self s rs1 off
    · exact address_wide hw' s rs1 off hn
  rcases hi with rfl | rfl | ⟨rfl, h64⟩
  · exact load_does 64 8 .whole (fun v o h => whole_toNat v h o) s fr rs1 off epc handled a he
  · exact store_does 64 8 (by decide) s fr rs1 off epc handled a he
  · have h32 : ¬ w = 32 := by omega
    simp only [exec, if_neg h32]
    exact store_does 64 8 (by decide) s fr rs1 off epc handled a he

/-- C87 fails for the compressed doubles of RV32 (riscv32g.isa:877-892,903-908):
whenever base plus offset passes 2^32 the access is to an address above the
address space. -/
theorem C87_wrap_violated (s : State 32) (rs1 : BitVec 5) (off : BitVec 32) (a : BitVec 64)
    (ha : Mem.Spec.IsAddress s.core rs1 off a)
    (h : 2 ^ 32 ≤ (Regs.read s.core.regs rs1).toNat + off.toNat) :
    (address 64 s rs1 off).toNat = a.toNat + 2 ^ 32 ∧ a.toNat < 2 ^ 32 := by
  obtain rfl := (address_iff (by decide) s.core rs1 off a).1 ha
  unfold address ea
  have h1 := (Regs.read s.core.regs rs1).isLt
  have h2 := off.isLt
  simp only [BitVec.setWidth_eq, BitVec.toNat_add, BitVec.toNat_setWidth]
  omega

/-! ## The single-precision compressed load of RV32 -/

/-- C87 fails for `c.flw` of RV32 (riscv32g.isa:872-876,898-902): the upper half of the
register keeps its value, so the result is NaN-boxed only if it was all ones. -/
theorem C87_cflw_violated (s : State w) (fr rs1 : BitVec 5) (off : BitVec w) (epc : BitVec 64)
    (handled : Bool) (h : (ea s.core rs1 off).toNat ≤ s.core.limit.toNat) :
    ((exec .cflw s fr rs1 off epc handled).fregs fr).extractLsb' 32 32 =
      (s.fregs fr).extractLsb' 32 32 := by
  have he := address_self s rs1 off
  simp only [exec, load, he]
  rw [Mem.load, if_neg (fun hc => by have := (ult_iff _ _).1 hc; omega)]
  simp only [setF, if_true, back]
  apply BitVec.eq_of_getLsbD_eq
  intro j hj
  simp only [BitVec.getLsbD_extractLsb', BitVec.getLsbD_or, BitVec.getLsbD_and, hj, decide_true,
    Bool.true_and]
  have h1 : (BitVec.ofNat 64 (readLE s.core.mem (ea s.core rs1 off) 4 % 2 ^ 32)).getLsbD (32 + j)
      = false := by
    rw [BitVec.getLsbD_ofNat]
    rw [Nat.testBit_lt_two_pow (Nat.lt_of_lt_of_le (Nat.mod_lt _ (by decide))
      (Nat.pow_le_pow_right (by decide) (by omega)))]
    simp
  rw [h1, Bool.or_false]
  have h2 : (0xffffffff00000000#64).getLsbD (32 + j) = true := by
    have : ∀ j : Fin 32, (0xffffffff00000000#64).getLsbD (32 + j.1) = true := by decide
    exact this ⟨j, hj⟩
  rw [h2, Bool.and_true]

/-- Its lower half is the loaded word. -/
theorem C87_cflw_low (s : State w) (fr rs1 : BitVec 5) (off : BitVec w) (epc : BitVec 64)
    (handled : Bool) (h : (ea s.core rs1 off).toNat ≤ s.core.limit.toNat) :
    ∃ v, Mem.Spec.Holds s.core.mem (ea s.core rs1 off) 4 v ∧ v < 256 ^ 4 ∧
      ((exec .cflw s fr rs1 off epc handled).fregs fr).toNat % 2 ^ 32 = v := by
  have he := address_self s rs1 off
  simp only [exec, load, he]
  rw [Mem.load, if_neg (fun hc => by have := (ult_iff _ _).1 hc; omega)]
  refine ⟨_, fun i hi => (readLE_byte _ _ _ i hi).symm, readLE_lt _ _ _, ?_⟩
  have hl := readLE_lt s.core.mem (ea s.core rs1 off) 4
  simp only [setF, if_true, back]
  generalize readLE s.core.mem (ea s.core rs1 off) 4 = v at *
  have hv : v < 2 ^ 32 := by simpa using hl
  rw [Nat.mod_eq_of_lt hv, BitVec.toNat_or, BitVec.toNat_and, BitVec.toNat_ofNat, BitVec.toNat_ofNat,
    Nat.mod_eq_of_lt (Nat.lt_trans hv (by decide)), Nat.or_mod_two_pow, Nat.and_mod_two_pow]
  simp [Nat.mod_eq_of_lt hv]

/-! ## The unit switched off -/

/-- C87 fails with the unit off: no load is refused; each does what it does with
the unit on. -/
theorem C87_off_load_violated (hw : w ≤ 64) (i : Ins) (hi : i = .flh ∨ i = .flw ∨ i = .fld)
    (s : State w) (_ : Off s) (fr rs1 : BitVec 5) (off : BitVec w) (epc : BitVec 64) (handled : Bool) :
    Does i s (exec i s fr rs1 off epc handled) fr rs1 off epc handled :=
  C87_load_partial hw i hi s fr rs1 off epc handled

/-- C87 fails with the unit off: `fsw` and `fsd` do nothing at all, not even an
exception (riscv_f_instructions.cc:393, riscv_d_instructions.cc:366). -/
theorem C87_off_store_violated (i : Ins) (hi : i = .fsw ∨ i = .fsd) (s : State w) (h : Off s)
    (fr rs1 : BitVec 5) (off : BitVec w) (epc : BitVec 64) (handled : Bool) :
    exec i s fr rs1 off epc handled = s := by
  rcases hi with rfl | rfl <;> simp only [exec, storeFs, if_pos ((fs_zero_iff s).2 h)]

/-- C87 fails with the unit off: `c.fsw` does store, unlike the instruction it
abbreviates. -/
theorem C87_off_cfsw_violated (hw : w ≤ 64) (s : State w) (_ : Off s) (fr rs1 : BitVec 5)
    (off : BitVec w) (epc : BitVec 64) (handled : Bool) :
    Does .cfsw s (exec .cfsw s fr rs1 off epc handled) fr rs1 off epc handled := by
  intro a ha
  exact store_does w 4 (by decide) s fr rs1 off epc handled a
    ((address_self s rs1 off).trans ((address_iff hw s.core rs1 off a).1 ha).symm)

/-! ## The statements are about something -/

def sample : State 64 := ⟨Mem.sample, fun _ => 0x4048f5c3#64⟩

example : ¬ Off sample := by unfold Off; decide

example : (exec .flw (exec .fsw sample 3 2 8#64 0#64 false) 4 2 8#64 0#64 false).fregs 4
    = 0xffffffff4048f5c3#64 := by decide

def sampleOff : State 64 :=
  { sample with core := { sample.core with hart :=
      { sample.core.hart with mstatus :=
          { sample.core.hart.mstatus with value := 0#64 } } } }

example : Off sampleOff := by unfold Off; decide

example : (exec .flw (exec .fsw sampleOff 3 2 8#64 0#64 false) 4 2 8#64 0#64 false).fregs 4
    = 0xffffffff00000000#64 := by decide

/-- A base and an offset whose sum wraps. -/
example : ∃ s : State 32, 2 ^ 32 ≤ (Regs.read s.core.regs 8).toNat + (16#32).toNat :=
  ⟨⟨{ hart := Hart.Hart.init 32 true, regs := fun _ => 0xfffffff8#32, mem := fun _ => 0#8,
      limit := 0x3fffffffff#64, hasC := true }, fun _ => 0⟩, by decide⟩

end Verif.FpMem
