import Verif.Clint.Spec
import Verif.Util.Bits
/-
Properties of the CLINT: C21, C22.
-/
namespace Verif.Clint
open Verif.Clint.Clint (Size Ev offsetOf)

/-! ### Addressing -/

theorem offset_toNat (a : BitVec 64) : (offsetOf a).toNat = a.toNat % 0x10000 := by
  unfold offsetOf
  rw [BitVec.toNat_setWidth, BitVec.toNat_and]
  show (a.toNat &&& (2 ^ 16 - 1)) % _ = _
  rw [Nat.and_two_pow_sub_one_eq_mod]; omega

theorem offset_eq (a : BitVec 64) (k : Nat) (hk : k < 2 ^ 32) :
    offsetOf a = BitVec.ofNat 32 k ↔ a.toNat % 0x10000 = k := by
  rw [← offset_toNat]
  constructor
  · intro h; rw [h, BitVec.toNat_ofNat, Nat.mod_eq_of_lt hk]
  · intro h; apply BitVec.eq_of_toNat_eq; rw [h, BitVec.toNat_ofNat, Nat.mod_eq_of_lt hk]

/-! ### Halves of 64-bit registers -/

theorem lo_eq (x : BitVec 64) : (x &&& 0xffffffff#64).setWidth 32 = x.extractLsb' 0 32 := by
  bits_ext
  rw [Nat.zero_add]
  generalize x.getLsbD i = a
  revert i a
  exact allLt (by decide)

theorem hi_eq (x : BitVec 64) : (x >>> 32).setWidth 32 = x.extractLsb' 32 32 := by
  bits_ext

theorem setLo_lo (x : BitVec 64) (v : BitVec 32) :
    ((x &&& 0xffffffff00000000#64) ||| v.setWidth 64).extractLsb' 0 32 = v := by
  bits_ext
  rw [Nat.zero_add]
  generalize x.getLsbD i = a
  generalize v.getLsbD i = b
  revert i a b
  exact allLt (by decide)

theorem setLo_hi (x : BitVec 64) (v : BitVec 32) :
    ((x &&& 0xffffffff00000000#64) ||| v.setWidth 64).extractLsb' 32 32 = x.extractLsb' 32 32 := by
  bits_ext
  rw [BitVec.getLsbD_of_ge v (32 + i) (by omega)]
  generalize x.getLsbD (32 + i) = a
  revert i a
  exact allLt (by decide)

theorem setHi_lo (x : BitVec 64) (v : BitVec 32) :
    ((x &&& 0xffffffff#64) ||| (v.setWidth 64 <<< 32)).extractLsb' 0 32 = x.extractLsb' 0 32 := by
  bits_ext
  rw [Nat.zero_add]
  generalize x.getLsbD i = a
  generalize v.getLsbD (i - 32) = b
  revert i a b
  exact allLt (by decide)

theorem setHi_hi (x : BitVec 64) (v : BitVec 32) :
    ((x &&& 0xffffffff#64) ||| (v.setWidth 64 <<< 32)).extractLsb' 32 32 = v := by
  bits_ext
  rw [show 32 + i - 32 = i by omega]
  generalize x.getLsbD (32 + i) = a
  generalize v.getLsbD i = b
  revert i a b
  exact allLt (by decide)
/-! ### Reads and writes in terms of the register map -/

theorem read_spec (c : Clint) (a : BitVec 64) :
    c.read (offsetOf a) = match Spec.regOf a with | some r => Spec.get c r | none => 0 := by
  have h0 := offset_eq a 0 (by decide)
  have h1 := offset_eq a 0x4000 (by decide)
  have h2 := offset_eq a 0x4004 (by decide)
  have h3 := offset_eq a 0xbff8 (by decide)
  have h4 := offset_eq a 0xbffc (by decide)
  unfold Clint.read Spec.regOf Spec.regAt
  by_cases e0 : a.toNat % 0x10000 = 0
  · rw [if_pos (h0.2 e0), if_pos e0]; rfl
  rw [if_neg (fun h => e0 (h0.1 h)), if_neg e0]
  by_cases e1 : a.toNat % 0x10000 = 0x4000
  · rw [if_pos (h1.2 e1), if_pos e1]; exact lo_eq _
  rw [if_neg (fun h => e1 (h1.1 h)), if_neg e1]
  by_cases e2 : a.toNat % 0x10000 = 0x4004
  · rw [if_pos (h2.2 e2), if_pos e2]; exact hi_eq _
  rw [if_neg (fun h => e2 (h2.1 h)), if_neg e2]
  by_cases e3 : a.toNat % 0x10000 = 0xbff8
  · rw [if_pos (h3.2 e3), if_pos e3]; exact lo_eq _
  rw [if_neg (fun h => e3 (h3.1 h)), if_neg e3]
  by_cases e4 : a.toNat % 0x10000 = 0xbffc
  · rw [if_pos (h4.2 e4), if_pos e4]; exact hi_eq _
  rw [if_neg (fun h => e4 (h4.1 h)), if_neg e4]

/-- The write selected by a register. -/
def writeReg (c : Clint) (v : BitVec 32) : Option Spec.Reg → Clint
  | some .msip => c.writeMSip v
  | some .mtimecmpLo => c.writeMTimeCmpLow v
  | some .mtimecmpHi => c.writeMTimeCmpHigh v
  | some .mtimeLo => { c.writeMTimeLow v with updateCounter := 0 }
  | some .mtimeHi => c.writeMTimeHigh v
  | none => c

theorem write_spec (c : Clint) (a : BitVec 64) (v : BitVec 32) :
    c.write (offsetOf a) v = writeReg c v (Spec.regOf a) := by
  have h0 := offset_eq a 0 (by decide)
  have h1 := offset_eq a 0x4000 (by decide)
  have h2 := offset_eq a 0x4004 (by decide)
  have h3 := offset_eq a 0xbff8 (by decide)
  have h4 := offset_eq a 0xbffc (by decide)
  unfold Clint.write Spec.regOf Spec.regAt
  by_cases e0 : a.toNat % 0x10000 = 0
  · rw [if_pos (h0.2 e0), if_pos e0]; rfl
  rw [if_neg (fun h => e0 (h0.1 h)), if_neg e0]
  by_cases e1 : a.toNat % 0x10000 = 0x4000
  · rw [if_pos (h1.2 e1), if_pos e1]; rfl
  rw [if_neg (fun h => e1 (h1.1 h)), if_neg e1]
  by_cases e2 : a.toNat % 0x10000 = 0x4004
  · rw [if_pos (h2.2 e2), if_pos e2]; rfl
  rw [if_neg (fun h => e2 (h2.1 h)), if_neg e2]
  by_cases e3 : a.toNat % 0x10000 = 0xbff8
  · rw [if_pos (h3.2 e3), if_pos e3]; rfl
  rw [if_neg (fun h => e3 (h3.1 h)), if_neg e3]
  by_cases e4 : a.toNat % 0x10000 = 0xbffc
  · rw [if_pos (h4.2 e4), if_pos e4]; rfl
  rw [if_neg (fun h => e4 (h4.1 h)), if_neg e4]; rfl

theorem writeReg_get (c : Clint) (v : BitVec 32) (q r : Spec.Reg) :
    Spec.get (writeReg c v (some q)) r = if r = q then Spec.legal q v else Spec.get c r := by
  have hu : ∀ c' : Clint, c'.update.msip = c'.msip ∧ c'.update.mtimecmp = c'.mtimecmp ∧
      c'.update.mtime = c'.mtime := by
    intro c'; unfold Clint.update; simp only; split <;> exact ⟨rfl, rfl, rfl⟩
  cases q <;> cases r <;>
    simp only [writeReg, Clint.writeMTimeCmpLow, Clint.writeMTimeCmpHigh, hu, Spec.get,
      Clint.writeMSip, Clint.writeMTimeLow, Clint.writeMTimeHigh, Spec.legal, setLo_lo, setLo_hi,
      setHi_lo, setHi_hi, if_true, if_false, reduceCtorEq]

/-- The 32-bit value passed on by a store of each size. -/
def arg (s : Size) (v : BitVec 64) : BitVec 32 :=
  match s with
  | .b1 => (v.setWidth 8).setWidth 32
  | .b2 => (v.setWidth 16).setWidth 32
  | .b4 | .b8 => v.setWidth 32

theorem store_spec (c : Clint) (a : BitVec 64) (s : Size) (v : BitVec 64) :
    c.store a s v = writeReg c (arg s v) (Spec.regOf a) := by
  cases s <;> exact write_spec c a _

/-! ### C22 -/

/-- **C22 (round trip).** A store of 1, 2 or 4 bytes to a CLINT register followed by a load of the
same size at the same address returns the stored value (msip keeps bit 0 only). Missing: 8-byte
stores, which lose the upper half (`C22_store8_violated`). -/
theorem C22_roundtrip_partial (c : Clint) (a : BitVec 64) (s : Size) (v : BitVec 64) (r : Spec.Reg)
    (hs : s ≠ .b8) (hr : Spec.regOf a = some r) :
    ((c.store a s v).load a s).toNat =
      if r = .msip then v.toNat % 2 else v.toNat % 2 ^ s.bits := by
  have h : (c.store a s v).read (offsetOf a) = Spec.legal r (arg s v) := by
    rw [read_spec, hr]; simp only; rw [store_spec, hr, writeReg_get, if_pos rfl]
  have h1 : ∀ x : BitVec 32, (x &&& 1).toNat = x.toNat % 2 := by
    intro x
    rw [BitVec.toNat_and]; exact Nat.and_one_is_mod _
  cases s with
  | b8 => exact absurd rfl hs
  | b1 =>
    show (((c.store a .b1 v).read (offsetOf a)).setWidth 8 |>.setWidth 64).toNat = _
    rw [h]
    cases r <;> simp only [Spec.legal, arg, Size.bits, BitVec.toNat_setWidth, h1, if_true, if_false,
      reduceCtorEq] <;> omega
  | b2 =>
    show (((c.store a .b2 v).read (offsetOf a)).setWidth 16 |>.setWidth 64).toNat = _
    rw [h]
    cases r <;> simp only [Spec.legal, arg, Size.bits, BitVec.toNat_setWidth, h1, if_true, if_false,
      reduceCtorEq] <;> omega
  | b4 =>
    show (((c.store a .b4 v).read (offsetOf a)).setWidth 64).toNat = _
    rw [h]
    cases r <;> simp only [Spec.legal, arg, Size.bits, BitVec.toNat_setWidth, h1, if_true, if_false,
      reduceCtorEq] <;> omega

/-- **C22 (other registers).** A store changes no other register. -/
theorem C22_other_registers (c : Clint) (a : BitVec 64) (s : Size) (v : BitVec 64) (r : Spec.Reg)
    (hr : Spec.regOf a ≠ some r) : Spec.get (c.store a s v) r = Spec.get c r := by
  rw [store_spec]
  cases hq : Spec.regOf a with
  | none => rfl
  | some q =>
    rw [writeReg_get, if_neg]
    intro h; exact hr (by rw [hq, h])

/-- **C22 (outside).** A store elsewhere has no effect at all, and a load of at most 4 bytes
elsewhere gives zero. -/
theorem C22_outside (c : Clint) (a : BitVec 64) (s : Size) (v : BitVec 64)
    (hr : Spec.regOf a = none) : c.store a s v = c ∧ (s ≠ .b8 → c.load a s = 0) := by
  refine ⟨by rw [store_spec, hr]; rfl, fun hs => ?_⟩
  have h : c.read (offsetOf a) = 0 := by rw [read_spec, hr]
  cases s <;> simp only [Clint.load, h] <;> first | rfl | exact absurd rfl hs

theorem offset_add4 (a : BitVec 64) (h : a.toNat % 0x10000 < 0xfffc) :
    offsetOf a + 4 = offsetOf (a + 4) := by
  apply BitVec.eq_of_toNat_eq
  rw [BitVec.toNat_add, offset_toNat, offset_toNat, BitVec.toNat_add]
  show (_ + 4) % _ = (_ + 4) % _ % _
  omega

/-- **C22 (8-byte loads).** An 8-byte load of mtimecmp or mtime returns the whole register. -/
theorem C22_load8 (c : Clint) (a : BitVec 64) :
    (a.toNat % 0x10000 = 0x4000 → c.load a .b8 = c.mtimecmp) ∧
    (a.toNat % 0x10000 = 0xbff8 → c.load a .b8 = c.mtime) := by
  have join : ∀ x : BitVec 64,
      (x.extractLsb' 32 32).setWidth 64 <<< 32 ||| (x.extractLsb' 0 32).setWidth 64 = x := by
    intro x
    bits_ext
    rw [Nat.zero_add]
    by_cases h : i < 32
    · simp [h, hi]
    · rw [show 32 + (i - 32) = i by omega]; simp [h, hi, show i - 32 < 32 by omega, show i - 32 < 64 by omega]
  have reg : ∀ k r, Spec.regAt k = some r → ∀ b : BitVec 64, b.toNat % 0x10000 = k →
      c.read (offsetOf b) = Spec.get c r := by
    intro k r hk b hb
    rw [read_spec, Spec.regOf, hb, hk]
  constructor
  · intro h
    simp only [Clint.load]
    rw [offset_add4 a (by omega), reg 0x4000 .mtimecmpLo rfl a h,
      reg 0x4004 .mtimecmpHi rfl (a + 4) (by rw [BitVec.toNat_add]; show (_ + 4) % _ % _ = _; omega)]
    exact join _
  · intro h
    simp only [Clint.load]
    rw [offset_add4 a (by omega), reg 0xbff8 .mtimeLo rfl a h,
      reg 0xbffc .mtimeHi rfl (a + 4) (by rw [BitVec.toNat_add]; show (_ + 4) % _ % _ = _; omega)]
    exact join _

/-- Non-vacuity of the C22 theorems. -/
example :
    let c := Clint.init 10
    Spec.regOf 0x2004004 = some .mtimecmpHi ∧
    (c.store 0x2004004 .b4 0x12345678).load 0x2004004 .b4 = 0x12345678 ∧
    (c.store 0x2004004 .b4 0x12345678).load 0x2004000 .b8 = 0x1234567800000000 ∧
    (c.store 0x2000000 .b4 7).load 0x2000000 .b4 = 1 ∧
    Spec.regOf 0x2000004 = none := by decide

/-- **C22 is violated for 8-byte stores**: a 64-bit store to mtimecmp loses its upper half, so a
timer armed for a far future time fires at once. -/
theorem C22_store8_violated :
    let c := (Clint.init 10).store 0x4000 .b8 0x0000000500000000
    c.load 0x4000 .b8 = 0 ∧ c.load 0x4000 .b8 ≠ 0x0000000500000000 ∧ c.lineT = true := by decide

/-! ### C21 -/

theorem update_fields (c : Clint) :
    c.update.mtime = c.mtime ∧ c.update.mtimecmp = c.mtimecmp ∧ c.update.msip = c.msip ∧
    c.update.lineS = c.lineS ∧ c.update.updateCounter = c.updateCounter ∧
    c.update.period = c.period ∧ c.update.mtip = Spec.timer c ∧
    (c.lineT = c.mtip → c.update.lineT = Spec.timer c) := by
  have ht : decide (c.mtime ≥ c.mtimecmp) = Spec.timer c := rfl
  unfold Clint.update
  simp only [ht]
  split
  · next h => exact ⟨rfl, rfl, rfl, rfl, rfl, rfl, h.symm, fun e => by rw [e, h]⟩
  · exact ⟨rfl, rfl, rfl, rfl, rfl, rfl, rfl, fun _ => rfl⟩

/-- Facts that hold in every reachable state. -/
structure Inv (c : Clint) : Prop where
  line : c.lineT = c.mtip
  soft : c.lineS = c.msip.getLsbD 0
  nonneg : 0 ≤ c.updateCounter
  below : c.updateCounter = 0 ∨ c.updateCounter < c.period

theorem inv_update {c : Clint} (h : Inv c) : Inv c.update := by
  obtain ⟨h1, h2, h3, h4, h5, h6, h7, h8⟩ := update_fields c
  exact ⟨by rw [h8 h.line, h7], by rw [h4, h3]; exact h.soft, by rw [h5]; exact h.nonneg,
    by rw [h5, h6]; exact h.below⟩

theorem inv_setValue {c : Clint} (h : Inv c) : Inv c.setValue := by
  unfold Clint.setValue
  simp only
  have := h.nonneg
  split
  · exact inv_update ⟨h.line, h.soft, Int.le_refl 0, Or.inl rfl⟩
  · next hp =>
    refine ⟨h.line, h.soft, ?_, Or.inr ?_⟩ <;> simp only <;> omega

theorem inv_writeReg {c : Clint} (h : Inv c) (v : BitVec 32) (r : Option Spec.Reg) :
    Inv (writeReg c v r) := by
  cases r with
  | none => exact h
  | some r =>
    cases r with
    | msip => exact ⟨h.line, by simp [writeReg, Clint.writeMSip], h.nonneg, h.below⟩
    | mtimecmpLo => exact inv_update ⟨h.line, h.soft, h.nonneg, h.below⟩
    | mtimecmpHi => exact inv_update ⟨h.line, h.soft, h.nonneg, h.below⟩
    | mtimeLo => exact ⟨h.line, h.soft, Int.le_refl 0, Or.inl rfl⟩
    | mtimeHi => exact ⟨h.line, h.soft, h.nonneg, h.below⟩

theorem inv_step {c : Clint} (h : Inv c) (e : Ev) : Inv (c.step e) := by
  cases e with
  | tick => exact inv_setValue h
  | store a s v => rw [Clint.step, store_spec]; exact inv_writeReg h _ _
  | reset =>
    have h' : Inv ((c.writeMTimeLow 0).writeMTimeHigh 0) := ⟨h.line, h.soft, h.nonneg, h.below⟩
    exact inv_writeReg h' 0 (some .msip)

theorem init_inv (p : Int) : Inv (Clint.init p) ∧ (Clint.init p).period = p ∧
    (Clint.init p).lineT = Spec.timer (Clint.init p) := by
  have h0 : Inv { period := p : Clint } := ⟨rfl, by simp, Int.le_refl 0, Or.inl rfl⟩
  have h1 := inv_setValue h0
  have h2 : Inv { ({ period := p : Clint }).setValue with
      lineT := ({ period := p : Clint }).setValue.mtip,
      lineS := ({ period := p : Clint }).setValue.msip.getLsbD 0 } :=
    ⟨rfl, rfl, h1.nonneg, h1.below⟩
  refine ⟨inv_update h2, ?_, ?_⟩
  · refine (update_fields _).2.2.2.2.2.1.trans ?_
    show ({ period := p : Clint }).setValue.period = p
    unfold Clint.setValue; simp only; split
    · exact (update_fields _).2.2.2.2.2.1
    · rfl
  · refine ((update_fields _).2.2.2.2.2.2.2 h2.line).trans ?_
    unfold Spec.timer
    rw [show (Clint.init p).mtimecmp = _ from (update_fields _).2.1,
      show (Clint.init p).mtime = _ from (update_fields _).1]

theorem period_step (c : Clint) (e : Ev) : (c.step e).period = c.period := by
  cases e with
  | tick =>
    simp only [Clint.step, Clint.setValue]; split
    · exact (update_fields _).2.2.2.2.2.1
    · rfl
  | store a s v =>
    rw [Clint.step, store_spec]
    cases Spec.regOf a with
    | none => rfl
    | some r => cases r <;> first | rfl | exact (update_fields _).2.2.2.2.2.1
  | reset => rfl

theorem inv_run {c : Clint} (h : Inv c) (l : List Ev) : Inv (c.run l) := by
  induction l generalizing c with
  | nil => exact h
  | cons e l ih => exact ih (inv_step h e)

theorem period_run (c : Clint) (l : List Ev) : (c.run l).period = c.period := by
  induction l generalizing c with
  | nil => rfl
  | cons e l ih => exact (ih (c.step e)).trans (period_step c e)

/-- **C21 (software interrupt).** After every history the software interrupt line equals bit 0 of
msip. -/
theorem C21_software (p : Int) (l : List Ev) :
    ((Clint.init p).run l).lineS = ((Clint.init p).run l).msip.getLsbD 0 :=
  (inv_run (init_inv p).1 l).soft

theorem timer_step {c : Clint} (h : Inv c) (ht : c.lineT = Spec.timer c) (e : Ev)
    (he : Spec.touchesTime e = false) : (c.step e).lineT = Spec.timer (c.step e) := by
  have upd : ∀ d : Clint, Inv d → d.update.lineT = Spec.timer d.update := by
    intro d hd
    obtain ⟨h1, h2, _, _, _, _, _, h8⟩ := update_fields d
    rw [h8 hd.line]; unfold Spec.timer; rw [h1, h2]
  cases e with
  | reset => exact absurd he (by decide)
  | tick =>
    simp only [Clint.step, Clint.setValue]; split
    · exact upd _ ⟨h.line, h.soft, Int.le_refl 0, Or.inl rfl⟩
    · exact ht
  | store a s v =>
    simp only [Spec.touchesTime, Bool.or_eq_false_iff, decide_eq_false_iff_not] at he
    rw [Clint.step, store_spec]
    cases hq : Spec.regOf a with
    | none => exact ht
    | some r =>
      cases r with
      | msip => exact ht
      | mtimecmpLo => exact upd _ ⟨h.line, h.soft, h.nonneg, h.below⟩
      | mtimecmpHi => exact upd _ ⟨h.line, h.soft, h.nonneg, h.below⟩
      | mtimeLo => exact absurd hq he.1
      | mtimeHi => exact absurd hq he.2

/-- **C21 (timer, partial).** Along every history without writes of mtime and without reset, the
timer interrupt line equals mtime ≥ mtimecmp after every event. Missing: writes of mtime and reset,
after which the line is stale (`C21_stale_violated`) until it is refreshed (`C21_refresh_partial`). -/
theorem C21_timer_partial (p : Int) (l : List Ev) (hl : ∀ e ∈ l, Spec.touchesTime e = false) :
    ((Clint.init p).run l).lineT = Spec.timer ((Clint.init p).run l) := by
  have gen : ∀ (c : Clint), Inv c → c.lineT = Spec.timer c →
      (∀ e ∈ l, Spec.touchesTime e = false) → (c.run l).lineT = Spec.timer (c.run l) := by
    clear hl
    induction l with
    | nil => intro c _ ht _; exact ht
    | cons e l ih =>
      intro c h ht hl
      exact ih _ (inv_step h e) (timer_step h ht e (hl e (List.mem_cons_self ..)))
        (fun x hx => hl x (List.mem_cons_of_mem _ hx))
  exact gen _ (init_inv p).1 (init_inv p).2.2 hl

/-- **C21 (refresh).** After any history whatever, the line is exact again once mtimecmp is written
or mtime advances. -/
theorem C21_refresh_partial (p : Int) (l : List Ev) :
    let c := (Clint.init p).run l
    (∀ a s v, Spec.regOf a = some .mtimecmpLo ∨ Spec.regOf a = some .mtimecmpHi →
      (c.store a s v).lineT = Spec.timer (c.store a s v)) ∧
    (c.setValue.mtime ≠ c.mtime → c.setValue.lineT = Spec.timer c.setValue) := by
  intro c
  have hc : Inv c := inv_run (init_inv p).1 l
  have upd : ∀ d : Clint, Inv d → d.update.lineT = Spec.timer d.update := by
    intro d hd
    obtain ⟨h1, h2, _, _, _, _, _, h8⟩ := update_fields d
    rw [h8 hd.line]; unfold Spec.timer; rw [h1, h2]
  constructor
  · intro a s v h
    rw [store_spec]
    rcases h with h | h <;> rw [h] <;> exact upd _ ⟨hc.line, hc.soft, hc.nonneg, hc.below⟩
  · intro h
    unfold Clint.setValue at h ⊢
    simp only at h ⊢
    split
    · exact upd _ ⟨hc.line, hc.soft, Int.le_refl 0, Or.inl rfl⟩
    · next hn => rw [if_neg hn] at h; exact absurd rfl h

theorem setValue_count {c : Clint} (h : Inv c) (hp : 0 < c.period) :
    c.setValue.mtime = c.mtime + BitVec.ofNat 64 ((c.updateCounter.toNat + 1) / c.period.toNat) ∧
    c.setValue.updateCounter.toNat = (c.updateCounter.toNat + 1) % c.period.toNat := by
  have h1 := h.nonneg
  have h2 : c.updateCounter < c.period := by rcases h.below with h | h <;> omega
  unfold Clint.setValue
  simp only
  split
  · next hc =>
    have e : c.updateCounter.toNat + 1 = c.period.toNat := by omega
    obtain ⟨f1, _, _, _, f5, _⟩ := update_fields { c with updateCounter := 0, mtime := c.mtime + 1 }
    rw [e, Nat.div_self (by omega), Nat.mod_self]
    exact ⟨f1, by rw [f5]; rfl⟩
  · next hc =>
    have e : c.updateCounter.toNat + 1 < c.period.toNat := by omega
    rw [Nat.div_eq_of_lt e, Nat.mod_eq_of_lt e]
    exact ⟨by simp, by simp only; omega⟩

/-- **C21 (rate).** In every reachable state, `n` updates of the bound counter advance mtime by the
number of whole periods completed, counting the part of the period already elapsed. -/
theorem C21_rate (p : Int) (hp : 0 < p) (l : List Ev) (n : Nat) :
    let c := (Clint.init p).run l
    (c.run (List.replicate n .tick)).mtime =
      c.mtime + BitVec.ofNat 64 ((c.updateCounter.toNat + n) / p.toNat) := by
  intro c
  have hper : c.period = p := (period_run _ l).trans (init_inv p).2.1
  have hc : Inv c := inv_run (init_inv p).1 l
  have gen : ∀ (n : Nat) (c : Clint), Inv c → c.period = p →
      (c.run (List.replicate n .tick)).mtime =
        c.mtime + BitVec.ofNat 64 ((c.updateCounter.toNat + n) / p.toNat) := by
    intro n
    induction n with
    | zero =>
      intro c h hper
      have h2 : c.updateCounter < c.period := by
        rcases h.below with h | h
        · rw [h, hper]; exact hp
        · exact h
      have := h.nonneg
      show c.mtime = _
      rw [Nat.add_zero, Nat.div_eq_of_lt (by omega)]; simp
    | succ n ih =>
      intro c h hper
      show ((c.setValue).run (List.replicate n .tick)).mtime = _
      have hper' : c.setValue.period = p := (period_step c .tick).trans hper
      obtain ⟨s1, s2⟩ := setValue_count h (by rw [hper]; exact hp)
      rw [ih _ (inv_setValue h) hper', s1, s2, hper, BitVec.add_assoc, ← BitVec.ofNat_add]
      congr 2
      generalize c.updateCounter.toNat = u
      have hq : 0 < p.toNat := by omega
      rw [show u + (n + 1) = (u + 1) + n by omega]
      generalize u + 1 = x
      have := Nat.div_add_mod x p.toNat
      rw [show x + n = (x % p.toNat + n) + p.toNat * (x / p.toNat) by omega,
        Nat.add_mul_div_left _ _ hq]
      omega
  exact gen n c hc hper

/-- Non-vacuity: period 3; the line rises exactly when mtime reaches mtimecmp. -/
example :
    let l : List Ev := [.store 0x4000 .b4 2, .tick, .tick, .tick]
    let c := (Clint.init 3).run l
    c.mtime = 1 ∧ c.lineT = false ∧ (c.run [.tick, .tick]).lineT = true ∧
    (∀ e ∈ l, Spec.touchesTime e = false) ∧ (c.step (.store 0 .b4 1)).lineS = true := by decide

/-- **C21 is violated by writes of mtime and by reset**: moving mtime past mtimecmp does not raise
the line, and resetting mtime to zero does not lower it. -/
theorem C21_stale_violated :
    (let c := (Clint.init 1000).run [.store 0x4000 .b4 100, .store 0xbff8 .b4 200]
     c.lineT = false ∧ Spec.timer c = true) ∧
    (let c := (Clint.init 1).run [.store 0x4000 .b4 1, .reset]
     c.lineT = true ∧ Spec.timer c = false) := by decide

end Verif.Clint
