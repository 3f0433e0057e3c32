import Verif.HalfFp.Model
import Verif.HalfFp.Spec
import Verif.FpConvert.Props
/-
C39: half precision widening is exact.  C68: narrowing to half precision is correctly rounded.
-/
namespace Verif.HalfFp
open Verif.Fp Verif.FpConvert.Spec Verif.HalfFp.Spec
open Verif.FpConvert (sgn sig_lt sign_msb mag_lt)

variable {f g : Fmt}

/-! ### Packing fields -/

theorem pack_or (g : Fmt) (S E F : Nat) (hE : E < 2 ^ g.e) (hF : F < 2 ^ g.s) :
    S <<< (g.bits - 1) ||| E <<< g.s ||| F = S * (2 ^ g.e * 2 ^ g.s) + E * 2 ^ g.s + F := by
  have hb : g.bits - 1 = g.e + g.s := by show 1 + g.e + g.s - 1 = _; omega
  have h1 : S <<< (g.bits - 1) ||| E <<< g.s = (S * 2 ^ g.e + E) <<< g.s := by
    have hlt : E <<< g.s < 2 ^ (g.e + g.s) := by
      rw [Nat.shiftLeft_eq, Nat.pow_add]; exact Nat.mul_lt_mul_of_pos_right hE (Nat.two_pow_pos _)
    rw [hb, ← Nat.shiftLeft_add_eq_or_of_lt hlt, Nat.shiftLeft_eq, Nat.shiftLeft_eq, Nat.shiftLeft_eq, Nat.pow_add]
    grind
  rw [h1, ← Nat.shiftLeft_add_eq_or_of_lt hF, Nat.shiftLeft_eq]
  grind

theorem two_bits (g : Fmt) : 2 ^ g.bits = 2 * (2 ^ g.e * 2 ^ g.s) := by
  show 2 ^ (1 + g.e + g.s) = _
  rw [Nat.pow_add, Nat.pow_add, Nat.mul_assoc]

/-- The pattern with given fields. -/
def mk (g : Fmt) (S : Bool) (E F : Nat) : BitVec g.bits :=
  BitVec.ofNat g.bits (S.toNat * (2 ^ g.e * 2 ^ g.s) + E * 2 ^ g.s + F)

theorem mk_toNat (g : Fmt) (S : Bool) (E F : Nat) (hE : E < 2 ^ g.e) (hF : F < 2 ^ g.s) :
    (mk g S E F).toNat = S.toNat * (2 ^ g.e * 2 ^ g.s) + E * 2 ^ g.s + F := by
  unfold mk
  rw [BitVec.toNat_ofNat, Nat.mod_eq_of_lt]
  rw [two_bits]
  have h1 : (E + 1) * 2 ^ g.s ≤ 2 ^ g.e * 2 ^ g.s := Nat.mul_le_mul_right _ hE
  rw [Nat.add_mul] at h1
  have : S.toNat * (2 ^ g.e * 2 ^ g.s) ≤ 1 * (2 ^ g.e * 2 ^ g.s) := Nat.mul_le_mul_right _ (by cases S <;> decide)
  omega

theorem mk_exp (g : Fmt) (S : Bool) (E F : Nat) (hE : E < 2 ^ g.e) (hF : F < 2 ^ g.s) :
    (mk g S E F).toNat / 2 ^ g.s % 2 ^ g.e = E := by
  rw [mk_toNat g S E F hE hF]
  have h1 : 0 < 2 ^ g.s := Nat.two_pow_pos _
  have : S.toNat * (2 ^ g.e * 2 ^ g.s) + E * 2 ^ g.s + F = F + (E + S.toNat * 2 ^ g.e) * 2 ^ g.s := by grind
  rw [this, Nat.add_mul_div_right _ _ h1, Nat.div_eq_of_lt hF, Nat.zero_add, Nat.add_mul_mod_self_right,
    Nat.mod_eq_of_lt hE]

theorem mk_sig (g : Fmt) (S : Bool) (E F : Nat) (hE : E < 2 ^ g.e) (hF : F < 2 ^ g.s) :
    (mk g S E F).toNat % 2 ^ g.s = F := by
  rw [mk_toNat g S E F hE hF]
  have : S.toNat * (2 ^ g.e * 2 ^ g.s) + E * 2 ^ g.s + F = F + (E + S.toNat * 2 ^ g.e) * 2 ^ g.s := by grind
  rw [this, Nat.add_mul_mod_self_right, Nat.mod_eq_of_lt hF]

theorem mk_msb (g : Fmt) (S : Bool) (E F : Nat) (hE : E < 2 ^ g.e) (hF : F < 2 ^ g.s) : (mk g S E F).msb = S := by
  rw [BitVec.msb_eq_decide, mk_toNat g S E F hE hF]
  have h1 : (E + 1) * 2 ^ g.s ≤ 2 ^ g.e * 2 ^ g.s := Nat.mul_le_mul_right _ hE
  rw [Nat.add_mul] at h1
  have hb : g.bits - 1 = g.e + g.s := by show 1 + g.e + g.s - 1 = _; omega
  rw [hb, Nat.pow_add]
  cases S <;> simp <;> omega

/-- Every pattern is made of its fields. -/
theorem eq_mk (u : BitVec g.bits) : u = mk g u.msb (u.toNat / 2 ^ g.s % 2 ^ g.e) (u.toNat % 2 ^ g.s) := by
  apply BitVec.eq_of_toNat_eq
  rw [mk_toNat _ _ _ _ (Nat.mod_lt _ (Nat.two_pow_pos _)) (Nat.mod_lt _ (Nat.two_pow_pos _))]
  have hb : g.bits - 1 = g.e + g.s := by show 1 + g.e + g.s - 1 = _; omega
  have hlt := u.isLt
  rw [two_bits] at hlt
  have h1 := Nat.div_add_mod u.toNat (2 ^ g.s)
  have h2 := Nat.div_add_mod (u.toNat / 2 ^ g.s) (2 ^ g.e)
  have h3 : u.toNat / 2 ^ g.s / 2 ^ g.e = u.msb.toNat := by
    rw [Nat.div_div_eq_div_mul, BitVec.msb_eq_decide, hb, Nat.pow_add, Nat.mul_comm (2 ^ g.s)]
    have hp : 0 < 2 ^ g.e * 2 ^ g.s := Nat.mul_pos (Nat.two_pow_pos _) (Nat.two_pow_pos _)
    by_cases hc : 2 ^ g.e * 2 ^ g.s ≤ u.toNat
    · rw [decide_eq_true hc]
      apply Nat.le_antisymm
      · exact Nat.le_of_lt_succ ((Nat.div_lt_iff_lt_mul hp).2 (by show _ < 2 * _; exact hlt))
      · exact (Nat.le_div_iff_mul_le hp).2 (by show 1 * _ ≤ _; omega)
    · rw [decide_eq_false hc, Nat.div_eq_of_lt (by omega)]; rfl
  rw [h3] at h2
  generalize u.toNat / 2 ^ g.s % 2 ^ g.e = E at *
  generalize u.toNat % 2 ^ g.s = F at *
  rw [← h1, ← h2]
  grind

theorem mag_mk (g : Fmt) (S : Bool) (E F : Nat) (hE : E < 2 ^ g.e) (hF : F < 2 ^ g.s) :
    mag (mk g S E F) = if E = 0 then F else 2 ^ g.s + F := by
  unfold mag; simp only []; rw [mk_exp g S E F hE hF, mk_sig g S E F hE hF]

theorem ulp_mk (g : Fmt) (S : Bool) (E F : Nat) (hE : E < 2 ^ g.e) (hF : F < 2 ^ g.s) :
    ulp (mk g S E F) = ((if E = 0 then 1 else E : Nat) : Int) - (g.bias : Nat) - (g.s : Int) := by
  unfold ulp; simp only []; rw [mk_exp g S E F hE hF]; rfl

theorem special_mk (g : Fmt) (S : Bool) (E F : Nat) (hE : E < 2 ^ g.e) (hF : F < 2 ^ g.s) :
    Special (mk g S E F) ↔ E = 2 ^ g.e - 1 := by
  unfold Special; rw [mk_exp g S E F hE hF]

/-- Scaling the significand by `2 ^ k` and the exponent by `-k` keeps the value. -/
theorem same_of_scale (u : BitVec f.bits) (v : BitVec g.bits) (k : Nat) (hs : u.msb = v.msb)
    (hm : mag v = mag u * 2 ^ k) (hu : ulp v = ulp u - k) : SameValue u v := by
  refine ⟨?_, hs⟩
  have key : mag u * 2 ^ (ulp u).toNat * den v = mag v * 2 ^ (ulp v).toNat * den u := by
    unfold den
    rw [hm, Nat.mul_assoc, Nat.mul_assoc, Nat.mul_assoc, ← Nat.pow_add, ← Nat.pow_add, ← Nat.pow_add]
    congr 2
    omega
  unfold num
  simp only []
  rw [hs]
  have key' := congrArg (Int.ofNat) key
  simp only [Int.ofNat_eq_natCast, Int.natCast_mul, Int.natCast_pow] at key'
  cases v.msb
  · simpa using key'
  · simp only [if_true, Int.neg_mul]
    rw [show ((2 : Int)) = ((2 : Nat) : Int) from rfl, key']

/-! ### C39 -/

/-- What widening needs of the target format. -/
structure Wide (g : Fmt) : Prop where
  e : 1 ≤ g.e
  s : 10 ≤ g.s
  bias : 25 ≤ g.bias
theorem wide_single : Wide single := ⟨by decide, by decide, by decide⟩
theorem wide_double : Wide double := ⟨by decide, by decide, by decide⟩

theorem bias_pow (g : Fmt) (h : 1 ≤ g.e) : 2 ^ g.e = 2 * (g.bias + 1) := by
  unfold Fmt.bias
  have : 0 < 2 ^ (g.e - 1) := Nat.two_pow_pos _
  rw [Nat.sub_add_cancel this, Nat.mul_comm, ← Nat.pow_succ]
  congr 1; omega

theorem bitLen_spec (n : Nat) (h : n ≠ 0) : 2 ^ (bitLen n - 1) ≤ n ∧ n < 2 ^ bitLen n ∧ 1 ≤ bitLen n := by
  unfold bitLen
  rw [if_neg h]
  exact ⟨Nat.log2_self_le h, Nat.lt_log2_self, by omega⟩

theorem or_zero_sign (g : Fmt) (S : Bool) (E : Nat) (hE : E < 2 ^ g.e) :
    BitVec.ofNat g.bits (E * 2 ^ g.s) ||| BitVec.ofNat g.bits (S.toNat <<< (g.bits - 1)) = mk g S E 0 := by
  unfold mk
  rw [← BitVec.ofNat_or, Nat.or_comm]
  have := pack_or g S.toNat E 0 hE (Nat.two_pow_pos _)
  rw [Nat.or_zero, Nat.shiftLeft_eq E] at this
  rw [this]

theorem zero_pat (u : BitVec g.bits) : (u.toNat = 0 ∨ u.toNat = 1 <<< (g.bits - 1)) ↔
    (u.toNat / 2 ^ g.s % 2 ^ g.e = 0 ∧ u.toNat % 2 ^ g.s = 0) := by
  have hb : g.bits - 1 = g.e + g.s := by show 1 + g.e + g.s - 1 = _; omega
  have hp : 0 < 2 ^ g.e := Nat.two_pow_pos _
  have hq : 0 < 2 ^ g.s := Nat.two_pow_pos _
  constructor
  · rw [Nat.shiftLeft_eq, Nat.one_mul, hb, Nat.pow_add]
    rintro (h | h)
    · rw [h]; simp
    · rw [h, Nat.mul_div_cancel _ hq, Nat.mod_self, Nat.mul_mod_left]; exact ⟨rfl, rfl⟩
  · rintro ⟨h1, h2⟩
    have := congrArg BitVec.toNat (eq_mk u)
    rw [h1, h2, mk_toNat _ _ _ _ hp hq] at this
    rw [this, Nat.shiftLeft_eq, Nat.one_mul, hb, Nat.pow_add]
    cases u.msb <;> simp

/-- The pattern `widen` produces for a finite, non-zero operand. -/
theorem widen_fields (w : Wide g) (u : BitVec half.bits) (hsp : ¬ Special u) (hz : ¬ IsZero u) :
    ∃ E F k : Nat, widen g u = (mk g u.msb E F, 0) ∧ 1 ≤ E ∧ E < 2 ^ g.e - 1 ∧ F < 2 ^ g.s
      ∧ 2 ^ g.s + F = mag u * 2 ^ k ∧ (E : Int) - g.bias - g.s = ulp u - k := by
  obtain ⟨he, hs, hb⟩ := w
  have hpow := bias_pow g he
  have hWt : 2 * (g.bias + 1) ≤ 2 ^ g.bits := by
    rw [← hpow]; exact Nat.pow_le_pow_right (by decide) (by show g.e ≤ 1 + g.e + g.s; omega)
  have hnan : isNaN u = false := by
    have : ¬ expField u = 2 ^ half.e - 1 := hsp
    unfold isNaN; simp [this]
  have hinf : isInf u = false := by
    have : ¬ expField u = 2 ^ half.e - 1 := hsp
    unfold isInf; simp [this]
  have hmag : mag u = if expField u = 0 then sigField u else 2 ^ half.s + sigField u := rfl
  have hulp : ulp u = ((if expField u = 0 then 1 else expField u : Nat) : Int) - 15 - 10 := rfl
  have hzz : ¬ (u.toNat = 0 ∨ u.toNat = 1 <<< 15) := by
    have := zero_pat u
    intro hc
    obtain ⟨h1, h2⟩ := this.1 hc
    apply hz
    show mag u = 0
    rw [hmag, if_pos (show expField u = 0 from h1)]; exact h2
  have hexp : expField u < 32 := Nat.mod_lt _ (by decide)
  have hsig : sigField u < 1024 := sig_lt u
  have hexp' : expField u ≠ 31 := hsp
  have hsp2 : (2 : Nat) ^ g.s = 1024 * 2 ^ (g.s - 10) := by
    rw [show (1024 : Nat) = 2 ^ 10 from rfl, ← Nat.pow_add]; congr 1; omega
  have hP : 0 < 2 ^ (g.s - 10) := Nat.two_pow_pos _
  have hout : ∀ (E sg : Nat) (x : Int), x + g.bias - 15 = E → E < 2 ^ g.e → sg < 1024 →
      BitVec.ofNat g.bits ((signBit u).toNat <<< (g.bits - 1) ||| wrap g.bits (x + g.bias - half.bias) <<< g.s
        ||| sg <<< (g.s - half.s)) = mk g u.msb E (sg * 2 ^ (g.s - 10)) := by
    intro E sg x hx hE hsg
    have hw : wrap g.bits (x + g.bias - half.bias) = E := by
      show wrap g.bits (x + g.bias - 15) = E
      rw [hx]; unfold wrap
      have : ((E : Int) % 2 ^ g.bits) = ((E % 2 ^ g.bits : Nat) : Int) := by simp
      rw [this, Int.toNat_natCast, Nat.mod_eq_of_lt (by omega)]
    have hF : sg * 2 ^ (g.s - 10) < 2 ^ g.s := by rw [hsp2]; exact Nat.mul_lt_mul_of_pos_right hsg hP
    rw [hw, show sg <<< (g.s - half.s) = sg * 2 ^ (g.s - 10) from Nat.shiftLeft_eq _ _, pack_or g _ _ _ hE hF,
      sign_msb]
    rfl
  unfold widen
  simp only [hnan, hinf, Bool.false_eq_true, if_false, if_neg hzz]
  by_cases hsub : expField u = 0
  · have hn0 : sigField u ≠ 0 := by
      intro hc; apply hz; show mag u = 0; rw [hmag, if_pos hsub]; exact hc
    rw [if_pos ⟨hsub, hn0⟩, if_pos ⟨hsub, hn0⟩]
    obtain ⟨hl1, hl2, hl3⟩ := bitLen_spec _ hn0
    generalize bitLen (sigField u) = L at *
    have hL : L ≤ 10 := by
      by_cases hc : L ≤ 10
      · exact hc
      · have : 2 ^ 10 ≤ 2 ^ (L - 1) := Nat.pow_le_pow_right (by decide) (by omega)
        omega
    have hsh : ((1 + half.s : Int) - L).toNat = 11 - L := by
      show ((1 + 10 : Int) - L).toNat = _; omega
    rw [hsh]
    have hmul : sigField u * 2 ^ (11 - L) < 2048 ∧ 1024 ≤ sigField u * 2 ^ (11 - L) := by
      have h1 : sigField u * 2 ^ (11 - L) < 2 ^ L * 2 ^ (11 - L) := Nat.mul_lt_mul_of_pos_right hl2 (Nat.two_pow_pos _)
      have h2 : 2 ^ (L - 1) * 2 ^ (11 - L) ≤ sigField u * 2 ^ (11 - L) := Nat.mul_le_mul_right _ hl1
      rw [← Nat.pow_add] at h1 h2
      rw [show L + (11 - L) = 11 by omega] at h1
      rw [show L - 1 + (11 - L) = 10 by omega] at h2
      exact ⟨h1, h2⟩
    have hsgv : (sigField u <<< (11 - L)) &&& (2 ^ half.s - 1) = sigField u * 2 ^ (11 - L) - 1024 := by
      rw [Nat.shiftLeft_eq, Nat.and_two_pow_sub_one_eq_mod]
      show _ % 1024 = _
      omega
    rw [hsgv]
    rw [hout (g.bias + 1 - 15 - (11 - L)) _ _ (by show (1 - ((1 + 10 : Int) - L)) + g.bias - 15 = _; omega) (by omega) (by omega)]
    refine ⟨_, _, 11 - L + (g.s - 10), rfl, by omega, by omega, ?_, ?_, ?_⟩
    · rw [hsp2]; exact Nat.mul_lt_mul_of_pos_right (by omega) hP
    · rw [hmag, if_pos hsub, Nat.pow_add, ← Nat.mul_assoc, Nat.sub_mul, hsp2]
      have : 1024 * 2 ^ (g.s - 10) ≤ sigField u * 2 ^ (11 - L) * 2 ^ (g.s - 10) := Nat.mul_le_mul_right _ hmul.2
      omega
    · rw [hulp, if_pos hsub]; omega
  · rw [if_neg (by intro hc; exact hsub hc.1), if_neg (by intro hc; exact hsub hc.1)]
    rw [hout (expField u + g.bias - 15) (sigField u) _ (by omega) (by omega) hsig]
    refine ⟨_, _, g.s - 10, rfl, by omega, by omega, ?_, ?_, ?_⟩
    · rw [hsp2]; exact Nat.mul_lt_mul_of_pos_right hsig hP
    · rw [hmag, if_neg hsub, hsp2, ← Nat.add_mul]; rfl
    · rw [hulp, if_neg hsub]; omega

/-- C39: widening a finite half precision number to any wider format (single and double in particular) gives
a finite number of exactly the same value and sign, and raises no flag; an infinity gives the infinity of the
same sign; a NaN gives the canonical NaN and raises NV exactly if it is signalling. -/
theorem C39_widen (w : Wide g) (u : BitVec half.bits) :
    (¬ Special u → ¬ Special (widen g u).1 ∧ SameValue u (widen g u).1 ∧ (widen g u).2 = 0)
    ∧ (Inf u → Inf (widen g u).1 ∧ (widen g u).1.msb = u.msb ∧ (widen g u).2 = 0)
    ∧ (NaN u → (widen g u).1 = canonicalNaN g ∧ (widen g u).2 = if u.getLsbD 9 then 0 else 16) := by
  obtain ⟨he, hs, hb⟩ := id w
  have hpow := bias_pow g he
  have hq : 0 < 2 ^ g.s := Nat.two_pow_pos _
  have hp : 0 < 2 ^ g.e := Nat.two_pow_pos _
  refine ⟨fun hsp => ?_, fun hi => ?_, fun hn => ?_⟩
  · by_cases hz : IsZero u
    · have hnan : isNaN u = false := by
        have : ¬ expField u = 2 ^ half.e - 1 := hsp
        unfold isNaN; simp [this]
      have hinf : isInf u = false := by
        have : ¬ expField u = 2 ^ half.e - 1 := hsp
        unfold isInf; simp [this]
      have hz' : expField u = 0 ∧ sigField u = 0 := by
        have : (if expField u = 0 then sigField u else 2 ^ half.s + sigField u) = 0 := hz
        by_cases hc : expField u = 0
        · rw [if_pos hc] at this; exact ⟨hc, this⟩
        · rw [if_neg hc] at this
          have : 0 < 2 ^ half.s := by decide
          omega
      have hun : u.toNat = u.msb.toNat * 32768 := by
        have := congrArg BitVec.toNat (eq_mk u)
        rw [show u.toNat / 2 ^ half.s % 2 ^ half.e = 0 from hz'.1, show u.toNat % 2 ^ half.s = 0 from hz'.2,
          mk_toNat _ _ _ _ (by decide) (by decide)] at this
        rw [this]; simp [half]
      have hpat : u.toNat = 0 ∨ u.toNat = 1 <<< 15 := (zero_pat u).2 hz'
      have hw : widen g u = (mk g u.msb 0 0, 0) := by
        unfold widen
        simp only [hnan, hinf, Bool.false_eq_true, if_false, if_pos hpat]
        unfold mk
        congr 2
        rw [Nat.shiftLeft_eq, hun]
        have : 32768 * 2 ^ (g.bits - 16) = 2 ^ g.e * 2 ^ g.s := by
          rw [show (32768 : Nat) = 2 ^ 15 from rfl, ← Nat.pow_add, ← Nat.pow_add]
          congr 1
          have : g.bits = 1 + g.e + g.s := rfl
          have : 6 ≤ g.e := by
            by_cases hc : 6 ≤ g.e
            · exact hc
            · have : 2 ^ g.e ≤ 2 ^ 5 := Nat.pow_le_pow_right (by decide) (by omega)
              omega
          omega
        rw [Nat.mul_assoc, this]; simp
      rw [hw]
      refine ⟨?_, ⟨?_, ?_⟩, rfl⟩
      · rw [special_mk g _ _ _ hp hq]; omega
      · have h1 : mag u = 0 := hz
        have h2 : mag (mk g u.msb 0 0) = 0 := by rw [mag_mk g _ _ _ hp hq]; rfl
        unfold num; rw [h1, h2]; simp
      · rw [mk_msb g _ _ _ hp hq]
    · obtain ⟨E, F, k, hw, h1, h2, h3, h4, h5⟩ := widen_fields w u hsp hz
      rw [hw]
      refine ⟨?_, ?_, rfl⟩
      · rw [special_mk g _ _ _ (by omega) h3]; omega
      · apply same_of_scale u _ k
        · rw [mk_msb g _ _ _ (by omega) h3]
        · rw [mag_mk g _ _ _ (by omega) h3, if_neg (by omega), h4]
        · rw [ulp_mk g _ _ _ (by omega) h3, if_neg (by omega), h5]
  · obtain ⟨h1, h2⟩ := hi
    have hnan : isNaN u = false := by
      have : sigField u = 0 := h2
      unfold isNaN; simp [this]
    have hinf : isInf u = true := by
      have e1 : expField u = 2 ^ half.e - 1 := h1
      have e2 : sigField u = 0 := h2
      unfold isInf; simp [e1, e2]
    have hw : widen g u = (mk g u.msb (2 ^ g.e - 1) 0, 0) := by
      unfold widen
      simp only [hnan, hinf, Bool.false_eq_true, if_false, if_true]
      unfold posInf
      rw [or_zero_sign g _ _ (by omega), sign_msb]
    rw [hw]
    refine ⟨⟨?_, ?_⟩, ?_, rfl⟩
    · rw [special_mk g _ _ _ (by omega) hq]
    · exact mk_sig g _ _ _ (by omega) hq
    · exact mk_msb g _ _ _ (by omega) hq
  · obtain ⟨h1, h2⟩ := hn
    have hnan : isNaN u = true := by
      have e1 : expField u = 2 ^ half.e - 1 := h1
      have e2 : sigField u ≠ 0 := h2
      unfold isNaN; simp [e1, e2]
    unfold widen
    simp only [hnan, if_true]
    refine ⟨trivial, ?_⟩
    unfold isSNaN
    rw [hnan]
    show (if (true && !u.getLsbD 9) = true then NV else 0) = _
    cases u.getLsbD 9 <;> rfl

-- the hypotheses are met: a subnormal, a normal, infinity, signalling NaN
example : ¬ Special (f := half) 0x8001#16 ∧ IsZero (f := half) 0x8000#16 ∧ Inf (f := half) 0xfc00#16
    ∧ Signalling (f := half) 0x7d00#16 := by
  refine ⟨by unfold Special; decide, by unfold IsZero; decide, ⟨by unfold Special; decide, by decide⟩,
    ⟨⟨by unfold Special; decide, by decide⟩, by decide⟩⟩
example := (C39_widen wide_double 0x0001#16).1 (by unfold Special; decide)

/-! Sanity checks: 1.0 and the smallest subnormal. -/
example : widen single 0x3c00#16 = (0x3f800000#32, 0) := rfl
example : widen double 0x8001#16 = (0xbe70000000000000#64, 0) := rfl

end Verif.HalfFp
