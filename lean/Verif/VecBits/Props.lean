import Verif.VecBits.Spec
import Verif.VecInt.Props
import Verif.Bitmanip.Props
/-
C90: the vector bit-manipulation instructions.
-/
namespace Verif.VecBits
open Verif.VecState Verif.VecLoop Verif.VecLoop.Spec Verif.VecInt Verif.Bitmanip

/-! ### One element -/

theorem rev_src {w : Nat} (a : BitVec w) (n : Nat) : (revLoop a n).1 = a >>> n := by
  induction n with
  | zero => simp [revLoop, loop]
  | succ n ih =>
    show (revLoop a n).1 >>> 1 = _
    rw [ih, ← BitVec.shiftRight_add]

theorem rev_bit {w : Nat} (a : BitVec w) (n i : Nat) (hi : i < n) (hn : n ≤ w) :
    (revLoop a n).2.getLsbD i = a.getLsbD (n - 1 - i) := by
  induction n generalizing i with
  | zero => omega
  | succ n ih =>
    show (((revLoop a n).2 <<< 1) ||| ((revLoop a n).1 &&& 1#w)).getLsbD i = _
    rw [BitVec.getLsbD_or, BitVec.getLsbD_shiftLeft, BitVec.getLsbD_and, rev_src, BitVec.getLsbD_ushiftRight, BitVec.getLsbD_one]
    cases i with
    | zero => simp [show 0 < w by omega]
    | succ i =>
      rw [show i + 1 - 1 = i by omega, ih i (by omega) (by omega)]
      simp [show i + 1 < w by omega]
      congr 1; omega

theorem bitReverse_bit {w : Nat} (a : BitVec w) (j : Nat) (hj : j < w) : (bitReverse a).getLsbD j = a.getLsbD (w - 1 - j) :=
  rev_bit a w j hj (Nat.le_refl _)

theorem swap_bit {w : Nat} (a : BitVec w) (size n k j : Nat) (hn : n ≤ size) (hw : w = 8 * size) (hk : k < size) (hj : j < 8) :
    (swapLoop a size n).getLsbD (8 * k + j) = (decide (size - 1 - k < n) && a.getLsbD (8 * (size - 1 - k) + j)) := by
  induction n with
  | zero => simp [swapLoop, loop]
  | succ n ih =>
    show (swapLoop a size n ||| (((a >>> ((0 + n) * 8)) &&& 0xff#w) <<< ((size - 1 - (0 + n)) * 8))).getLsbD _ = _
    rw [BitVec.getLsbD_or, ih (by omega), BitVec.getLsbD_shiftLeft, BitVec.getLsbD_and, BitVec.getLsbD_ushiftRight, ff_bit]
    have h1 : 8 * k + j < w := by omega
    by_cases h : size - 1 - k = n
    · subst h
      have e1 : ¬ (8 * k + j < (size - 1 - (0 + (size - 1 - k))) * 8) := by omega
      have e2 : 8 * k + j - (size - 1 - (0 + (size - 1 - k))) * 8 = j := by omega
      have e3 : (0 + (size - 1 - k)) * 8 + j = 8 * (size - 1 - k) + j := by omega
      rw [e2, e3]
      simp [h1, e1, show j < w by omega, hj]
      intro _; omega
    · by_cases hlt : size - 1 - k < n
      · have e : 8 * k + j - (size - 1 - (0 + n)) * 8 ≥ 8 := by omega
        simp [hlt, show size - 1 - k < n + 1 by omega]
        intros; omega
      · have e : 8 * k + j < (size - 1 - (0 + n)) * 8 := by omega
        simp only [decide_eq_true e, Bool.not_true, Bool.and_false, Bool.false_and, Bool.or_false,
          show ¬ size - 1 - k < n + 1 by omega, hlt]

theorem mask_bit {w : Nat} (i p : Nat) (hp : p < w) : (~~~(0xff#w <<< (8 * i))).getLsbD p = !(decide (8 * i ≤ p) && decide (p < 8 * i + 8)) := by
  rw [BitVec.getLsbD_not, BitVec.getLsbD_shiftLeft, ff_bit]
  by_cases h1 : 8 * i ≤ p
  · by_cases h2 : p < 8 * i + 8
    · simp [hp, h1, h2, show ¬ p < 8 * i by omega, show p - 8 * i < w by omega, show p - 8 * i < 8 by omega]
    · simp [hp, h1, h2, show ¬ p - 8 * i < 8 by omega]
  · simp [hp, h1, show p < 8 * i by omega]

theorem brev8_bit {w : Nat} (a : BitVec w) (n k j : Nat) (hw : 8 * n ≤ w) (hk : 8 * k + 8 ≤ w) (hj : j < 8) :
    (brev8Loop a n).getLsbD (8 * k + j) = if k < n then a.getLsbD (8 * k + (7 - j)) else a.getLsbD (8 * k + j) := by
  induction n generalizing j with
  | zero => simp [brev8Loop, loop]
  | succ n ih =>
    show ((brev8Loop a n &&& ~~~(0xff#w <<< (8 * (0 + n)))) |||
      ((bitReverse ((brev8Loop a n).extractLsb' (8 * (0 + n)) 8)).setWidth w <<< (8 * (0 + n)))).getLsbD (8 * k + j) = _
    rw [Nat.zero_add, BitVec.getLsbD_or, BitVec.getLsbD_and, mask_bit _ _ (by omega), BitVec.getLsbD_shiftLeft, BitVec.getLsbD_setWidth]
    by_cases h : k = n
    · subst h
      rw [show 8 * k + j - 8 * k = j by omega, bitReverse_bit _ _ hj, BitVec.getLsbD_extractLsb', ih (8 - 1 - j) (by omega) (by omega),
        if_neg (by omega), if_pos (by omega)]
      simp [show 8 * k + j < w by omega, show j < w by omega, show 8 * k ≤ 8 * k + j by omega, show 8 * k + j < 8 * k + 8 by omega,
        show 7 - j < 8 by omega]
    · by_cases hlt : k < n
      · rw [ih j (by omega) hj, if_pos hlt, if_pos (by omega)]
        simp [show ¬ 8 * n ≤ 8 * k + j by omega, show 8 * k + j < 8 * n by omega]
      · rw [ih j (by omega) hj, if_neg hlt, if_neg (by omega)]
        have hb : (bitReverse ((brev8Loop a n).extractLsb' (8 * n) 8)).getLsbD (8 * k + j - 8 * n) = false :=
          BitVec.getLsbD_of_ge _ _ (by omega)
        rw [hb]
        simp [show ¬ 8 * k + j < 8 * n + 8 by omega]

theorem un_value (n : Nat) (hn : 0 < n) (o : Un) (a : BitVec (8 * n)) : Spec.un a (o.fn n a) o := by
  cases o with
  | brev8 =>
    intro k j hk hj
    simp only [Un.fn]
    split
    · rename_i h
      subst h
      have : k = 0 := by omega
      subst this
      rw [bitReverse_bit _ _ (by omega)]
      congr 1
      omega
    · rw [brev8_bit a n k j (Nat.le_refl _) (by omega) hj, if_pos (by omega)]
  | rev8 =>
    intro k j hk hj
    have hs : 8 * n / 8 = n := by omega
    rw [hs] at hk ⊢
    simp only [Un.fn]
    split
    · rename_i h
      subst h
      have : k = 0 := by omega
      subst this
      rfl
    · rw [byteSwap, swap_bit a n n k j (Nat.le_refl _) rfl hk hj]
      simp [show n - 1 - k < n by omega]
  | brev => intro j hj; exact bitReverse_bit a j hj
  | clz =>
    have h := clz_spec a
    have hle : (BitVec.ofNat (8 * n) (countlZero a)).toNat = countlZero a := by
      rw [BitVec.toNat_ofNat, Nat.mod_eq_of_lt (Nat.lt_of_le_of_lt h.1 Nat.lt_two_pow_self)]
    show Bitmanip.Spec.IsClz a (BitVec.ofNat (8 * n) (countlZero a)).toNat
    rw [hle]; exact h
  | ctz =>
    have h := ctz_spec a
    have hle : (BitVec.ofNat (8 * n) (countrZero a)).toNat = countrZero a := by
      rw [BitVec.toNat_ofNat, Nat.mod_eq_of_lt (Nat.lt_of_le_of_lt h.1 Nat.lt_two_pow_self)]
    show Bitmanip.Spec.IsCtz a (BitVec.ofNat (8 * n) (countrZero a)).toNat
    rw [hle]; exact h
  | cpop =>
    show (BitVec.ofNat (8 * n) (popcount a)).toNat = Bitmanip.Spec.ones a (8 * n)
    rw [popcount_spec, BitVec.toNat_ofNat, Nat.mod_eq_of_lt (Nat.lt_of_le_of_lt (ones_le a _) Nat.lt_two_pow_self)]

theorem rot_amount (n : Nat) (hn : n = 1 ∨ n = 2 ∨ n = 4 ∨ n = 8) (b : BitVec (8 * n)) :
    ((b &&& BitVec.ofNat (8 * n) (shiftMask n)).setWidth 8).toNat = b.toNat % (8 * n) := by
  have hsm : n * 8 ≤ 2 ^ (8 * n) := by rcases hn with rfl | rfl | rfl | rfl <;> decide
  rw [BitVec.toNat_setWidth, shift_amount n hn hsm, Nat.mod_eq_of_lt]
  have := Nat.mod_lt b.toNat (show 8 * n > 0 by omega)
  omega

theorem bin_value (n : Nat) (hn : n = 1 ∨ n = 2 ∨ n = 4 ∨ n = 8) (o : Bin) (a b : BitVec (8 * n)) : Spec.bin a b (o.fn n a b) o := by
  have hsm : n * 8 ≤ 2 ^ (8 * n) := by rcases hn with rfl | rfl | rfl | rfl <;> decide
  have hw : 0 < 8 * n := by omega
  have hm : MaskOk (BitVec.ofNat (8 * n) (shiftMask n)) := fun b => shift_amount n hn hsm b
  cases o with
  | andn => intro j hj; show (a &&& ~~~b).getLsbD j = _; rw [BitVec.getLsbD_and, BitVec.getLsbD_not]; simp [hj]
  | rol =>
    intro j hj
    show (rotl a _).getLsbD _ = _
    rw [rot_amount n hn, b64_rotl _ a b hm hw _ rfl]
    exact rol_spec _ a b (hm b) j hj
  | ror =>
    intro j hj
    show (rotr a _).getLsbD _ = _
    rw [rot_amount n hn, b64_rotr _ a b hm hw _ rfl]
    exact ror_bit _ a b (hm b) j hj

/-! ### The instructions -/

theorem C90_un (o : Un) (c : VCore) (vd vs2 : Nat) (vm : Bool) (hsew : c.vs.sew = 1 ∨ c.vs.sew = 2 ∨ c.vs.sew = 4 ∨ c.vs.sew = 8)
    (hr : Ready c.vs [c.vs.sew, c.vs.sew] c.vs.sew vd) (h2 : SourceOk c.vs.vlenb c.vs.vl c.vs.sew vd c.vs.sew vs2) :
    ∃ c', un o c vd vs2 vm = some c' ∧ Spec.Gives c.vs c.regs vm c.vs.sew vd c'.vs c'.regs (fun i r =>
      ∃ a : BitVec (8 * c.vs.sew), IsElem c.vs.vlenb c.vs.sew c.regs vs2 i a ∧ Spec.un a r o) := by
  obtain ⟨c', st, e1, e2, e3, e4, e5, e6⟩ := C44_unary c c.vs.sew c.vs.sew vd vs2 vm (fun a (_ : Unit) => (o.fn c.vs.sew a, ())) () hr h2
  refine ⟨c', ?_, e2, ?_, e6⟩
  · unfold un
    rw [if_pos hsew, e1]; rfl
  · intro i hi hi' hact
    have ha : IsElem c.vs.vlenb c.vs.sew c.regs vs2 i (source c.vs.vlenb c.vs.sew c.regs vs2 i) :=
      (isElem_iff h2.1 h2.2.1 hr.size.2.2 _ _ _ _).2 rfl
    exact ⟨_, (e4 i _ hi hi' hact ha).1, _, ha, un_value _ hr.sew o _⟩

/-- The scalar is at least as wide as the elements; only the low bits of a rotate amount count, so a rotate may also take
a narrower one. -/
def Fits {xlen : Nat} (o : Bin) (n : Nat) : Src xlen → Prop
  | .of (.x _) => 8 * n ≤ xlen ∨ (o ≠ .andn ∧ 32 ≤ xlen)
  | _ => True

theorem amount_congr {w : Nat} (o : Bin) (ho : o ≠ .andn) (a b b' r : BitVec w) (h : b.toNat % w = b'.toNat % w) (hb : Spec.bin a b r o) :
    Spec.bin a b' r o := by
  cases o with
  | andn => exact absurd rfl ho
  | rol => intro j hj; have := hb j hj; rwa [h] at this
  | ror => intro j hj; have := hb j hj; rwa [h] at this

theorem C90_bin_partial {xlen : Nat} (o : Bin) (c : VCore) (vd vs2 : Nat) (s1 : Src xlen) (vm : Bool)
    (hsew : c.vs.sew = 1 ∨ c.vs.sew = 2 ∨ c.vs.sew = 4 ∨ c.vs.sew = 8)
    (hr : Ready c.vs [c.vs.sew, c.vs.sew, c.vs.sew] c.vs.sew vd) (h2 : SourceOk c.vs.vlenb c.vs.vl c.vs.sew vd c.vs.sew vs2)
    (h1 : Spec.OperandOk c.vs c.vs.sew vd c.vs.sew s1) (hf : Fits o c.vs.sew s1) :
    ∃ c', bin o c vd vs2 s1 vm = some c' ∧ Spec.Gives c.vs c.regs vm c.vs.sew vd c'.vs c'.regs (fun i r =>
      ∃ a : BitVec (8 * c.vs.sew), IsElem c.vs.vlenb c.vs.sew c.regs vs2 i a
        ∧ ∀ b : BitVec (8 * c.vs.sew), Spec.Operand c.vs c.regs i b s1 → Spec.bin a b r o) := by
  have hn : 0 < c.vs.sew := hr.sew
  have hok : SrcOk c.vs c.vs.sew vd (s1.to c.vs.sew) := by
    cases s1 with
    | of s => exact operandOk c.vs false s h1
    | uimm6 k => trivial
  obtain ⟨c', st, e1, e2, e3, e4, e5, e6⟩ := C44_binary c c.vs.sew c.vs.sew c.vs.sew vd vs2 (s1.to c.vs.sew) vm
    (fun a b (_ : Unit) => (o.fn c.vs.sew a b, ())) () hr h2 hok
  refine ⟨c', ?_, e2, ?_, e6⟩
  · unfold bin
    rw [if_pos hsew, e1]; rfl
  · intro i hi hi' hact
    have ha : IsElem c.vs.vlenb c.vs.sew c.regs vs2 i (source c.vs.vlenb c.vs.sew c.regs vs2 i) :=
      (isElem_iff h2.1 h2.2.1 hr.size.2.2 _ _ _ _).2 rfl
    have hb0 : SrcIs c.vs c.regs i (s1.to c.vs.sew) ((s1.to c.vs.sew).get c.vs.vlenb c.regs i) :=
      (src_is (nd := c.vs.sew) (vd := vd) c.vs c.regs i _ hr.size.2.2 hok _).2 rfl
    refine ⟨_, (e4 i _ _ hi hi' hact ha hb0).1, _, ha, ?_⟩
    intro b hb
    dsimp only
    have heq : ∀ b', SrcIs c.vs c.regs i (s1.to c.vs.sew) b' → (s1.to c.vs.sew).get c.vs.vlenb c.regs i = b' := fun b' h =>
      (src_is (nd := c.vs.sew) (vd := vd) c.vs c.regs i _ hr.size.2.2 hok _).1 h
    cases s1 with
    | uimm6 k =>
      have : SrcIs c.vs c.regs i ((Src.uimm6 (xlen := xlen) k).to c.vs.sew) b := by
        show b = (k.setWidth 32).signExtend (8 * c.vs.sew)
        have hb' : b.toNat = k.toNat := hb
        apply BitVec.eq_of_toInt_eq
        have hk : k.toNat < 64 := k.isLt
        have hk' : (k.setWidth 32).toInt = k.toNat := zext_toInt (by omega) k
        have h256 : 2 ^ 8 ≤ 2 ^ (8 * c.vs.sew) := Nat.pow_le_pow_right (by decide) (by omega)
        have hbi : b.toInt = k.toNat := by
          rw [BitVec.toInt_eq_toNat_of_lt (by omega), hb']
        by_cases hn4 : 4 ≤ c.vs.sew
        · rw [BitVec.toInt_signExtend_of_le (by omega), hk', hbi]
        · rw [BitVec.signExtend_eq_setWidth_of_le _ (by omega), VecInt.toInt_trunc (by omega), hk', ← hbi, BitVec.toInt_bmod_cancel]
      rw [heq b this]; exact bin_value _ hsew o _ _
    | of s =>
      have key : VecInt.Fits false c.vs.sew s → Spec.bin (source c.vs.vlenb c.vs.sew c.regs vs2 i) b
          (o.fn c.vs.sew (source c.vs.vlenb c.vs.sew c.regs vs2 i) (((Src.of s).to c.vs.sew).get c.vs.vlenb c.regs i)) o := by
        intro hfit
        rw [heq b (operand hn _ _ _ false s b hfit hb)]; exact bin_value _ hsew o _ _
      cases s with
      | vec v => exact key trivial
      | simm k => exact key trivial
      | uimm k => exact key trivial
      | x v =>
        rcases hf with hf | ⟨ho, h32⟩
        · exact key (Or.inr hf)
        · by_cases hle : 8 * c.vs.sew ≤ xlen
          · exact key (Or.inr hle)
          · have hb' : b.toInt = v.toInt := hb.1 (by omega)
            have hs8 : 8 * c.vs.sew = 64 := by omega
            refine amount_congr o ho _ _ b _ ?_ (bin_value _ hsew o _ _)
            show (v.setWidth (8 * c.vs.sew)).toNat % _ = _
            have hvlt := v.isLt
            have hblt := b.isLt
            have hp : (2 ^ (8 * c.vs.sew)) % 64 = 0 := by rw [hs8]
            have hpx : 2 ^ xlen % 64 = 0 := by
              rw [show xlen = 6 + (xlen - 6) by omega, Nat.pow_add, Nat.mul_mod_right]
            have hlt : 2 ^ xlen < 2 ^ (8 * c.vs.sew) := Nat.pow_lt_pow_right (by decide) (by omega)
            rw [BitVec.toNat_setWidth, Nat.mod_eq_of_lt (Nat.lt_trans hvlt hlt)]
            have e64 : ∀ x : Nat, x % (8 * c.vs.sew) = x % 64 := by rw [hs8]; intro; rfl
            rw [e64, e64]
            rw [BitVec.toInt_eq_toNat_cond, BitVec.toInt_eq_toNat_cond] at hb'
            generalize 2 ^ (8 * c.vs.sew) = p at *
            generalize 2 ^ xlen = q at *
            split at hb' <;> split at hb' <;> omega

/-- vandn.vx on RV32 with 64-bit elements keeps the upper half of vs2 although the scalar is negative. -/
theorem C90_andn_violated : ∃ c', bin (xlen := 32) .andn (remCore 8) 8 3 (.of (.x 0xffffffff#32)) true = some c'
    ∧ IsElem 16 8 (remCore 8).regs 3 0 0xffffffffffffffff#64 ∧ IsElem 16 8 c'.regs 8 0 0xffffffff00000000#64
    ∧ VecInt.Spec.Operand (xlen := 32) (n := 8) (remCore 8).vs (remCore 8).regs 0 0xffffffffffffffff#64 (.x 0xffffffff#32)
    ∧ ¬ Spec.bin 0xffffffffffffffff#64 0xffffffffffffffff#64 0xffffffff00000000#64 .andn := by
  have hbytes : ∀ k, k < 8 → (bin (xlen := 32) .andn (remCore 8) 8 3 (.of (.x 0xffffffff#32)) true).map
      (fun c' => c'.regs (8 + (0 * 8 + k) / 16) ((0 * 8 + k) % 16)) = some ((0xffffffff00000000#64).extractLsb' (8 * k) 8) := by
    decide +kernel
  obtain ⟨c', hc⟩ : ∃ c', bin (xlen := 32) .andn (remCore 8) 8 3 (.of (.x 0xffffffff#32)) true = some c' :=
    Option.isSome_iff_exists.1 (by decide +kernel)
  refine ⟨c', hc, ?_, ?_, ⟨by decide, by decide⟩, ?_⟩
  · unfold IsElem; decide +kernel
  · intro k hk
    have := hbytes k hk
    rw [hc] at this
    exact Option.some.inj this
  · intro h
    have := h 63 (by decide)
    revert this
    decide

/-- vwsll: the zero-extended element shifted by the amount modulo twice the width. -/
theorem C90_wsll {xlen : Nat} (c : VCore) (vd vs2 : Nat) (s1 : Src1 xlen) (vm : Bool) (hx : 32 ≤ xlen)
    (hsew : c.vs.sew = 1 ∨ c.vs.sew = 2 ∨ c.vs.sew = 4)
    (hr : Ready c.vs [2 * c.vs.sew, c.vs.sew, c.vs.sew] (2 * c.vs.sew) vd)
    (h2 : SourceOk c.vs.vlenb c.vs.vl (2 * c.vs.sew) vd c.vs.sew vs2)
    (h1 : VecInt.Spec.OperandOk c.vs (2 * c.vs.sew) vd c.vs.sew s1) :
    ∃ c', wsll c vd vs2 s1 vm = some c' ∧ VecInt.Spec.Did c.vs c.regs vm (2 * c.vs.sew) vd c'.vs c'.regs (fun i v =>
      ∃ a b : BitVec (8 * c.vs.sew), IsElem c.vs.vlenb c.vs.sew c.regs vs2 i a ∧ VecInt.Spec.Operand c.vs c.regs i b s1
        ∧ v = a.toNat * 2 ^ (b.toNat % (2 * (8 * c.vs.sew)))) := by
  have hn : 0 < c.vs.sew := hr.sew
  have hf : VecInt.Fits false c.vs.sew s1 := by
    cases s1 with
    | x v => exact Or.inr (by omega)
    | _ => trivial
  obtain ⟨c', st, e1, e2, e3, e4, e5, e6⟩ := C44_binary c (2 * c.vs.sew) c.vs.sew c.vs.sew vd vs2 (s1.to false c.vs.sew) vm
    (fun a b (_ : Unit) => (a.setWidth _ <<< (b &&& BitVec.ofNat _ (shiftMask (2 * c.vs.sew))).toNat, ())) () hr h2 (operandOk c.vs _ s1 h1)
  refine ⟨c', ?_, e2, ?_, e6⟩
  · unfold wsll
    rw [if_pos hsew, e1]; rfl
  · rintro i v hi hi' hact ⟨a, b, ha, hb, rfl⟩
    have h := (e4 i a b hi hi' hact ha (operand hn _ _ _ _ _ _ hf hb)).1
    have hsm : 2 * c.vs.sew * 8 ≤ 2 ^ (8 * c.vs.sew) := by rcases hsew with h | h | h <;> rw [h] <;> decide
    have hval : a.setWidth (8 * (2 * c.vs.sew)) <<< (b &&& BitVec.ofNat _ (shiftMask (2 * c.vs.sew))).toNat
        = BitVec.ofInt (8 * (2 * c.vs.sew)) ((a.toNat * 2 ^ (b.toNat % (2 * (8 * c.vs.sew))) : Nat) : Int) := by
      apply eq_ofInt_nat
      have hlt : a.toNat < 2 ^ (8 * (2 * c.vs.sew)) := Nat.lt_of_lt_of_le a.isLt (Nat.pow_le_pow_right (by decide) (by omega))
      rw [shift_amount (2 * c.vs.sew) (by omega) hsm, BitVec.toNat_shiftLeft, BitVec.toNat_setWidth, Nat.mod_eq_of_lt hlt, Nat.shiftLeft_eq,
        show 8 * (2 * c.vs.sew) = 2 * (8 * c.vs.sew) by omega]
    have hcast : ((a.toNat : Int) * 2 ^ (b.toNat % (2 * (8 * c.vs.sew)))) = ((a.toNat * 2 ^ (b.toNat % (2 * (8 * c.vs.sew))) : Nat) : Int) := by
      norm_cast
    rw [hcast, ← hval]
    exact h

/-- With 64-bit elements vwsll is refused. -/
theorem C90_wsll_refused {xlen : Nat} (c : VCore) (vd vs2 : Nat) (s1 : Src1 xlen) (vm : Bool) (h : c.vs.sew = 8) :
    ∃ c', wsll c vd vs2 s1 vm = some c' ∧ c'.vs.exception = true ∧ c'.regs = c.regs := by
  unfold wsll
  rw [if_neg (by omega)]
  exact ⟨_, rfl, rfl, rfl⟩

/-! ### Concrete cases -/

theorem ready_un : Ready core.vs [core.vs.sew, core.vs.sew] core.vs.sew 4 :=
  ⟨rfl, by decide, by decide, by decide, 2, by decide, by decide, by decide⟩

example := C90_un .brev8 core 4 2 false (by decide) ready_un ⟨by decide, by decide, Or.inl (by decide)⟩

example := C90_bin_partial (xlen := 32) .ror core 4 2 (.uimm6 0x2d#6) false (by decide) ready_core
  ⟨by decide, by decide, Or.inl (by decide)⟩ trivial trivial

example := C90_wsll (xlen := 32) core 8 4 (.vec 2) false (by decide) (by decide) ready_wide
  ⟨by decide, by decide, Or.inl (by decide)⟩ ⟨by decide, by decide, Or.inl (by decide)⟩

example : Un.fn 2 .brev8 0x0180#16 = 0x8001#16 ∧ Un.fn 4 .rev8 0x01020304#32 = 0x04030201#32 := by decide

end Verif.VecBits
