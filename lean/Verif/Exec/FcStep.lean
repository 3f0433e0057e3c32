import Verif.Exec.FaStep
import Verif.Exec.FcSpec
import Verif.FpConvert.Props
import Verif.FpCvt.Props

/-!
# What conversions do, from their descriptions
-/

namespace Verif.Exec

open Decode Decode.Isa Core Operands Spec

/-- The description an instruction should have. -/
def okV (k : VSem) (q : VAct) : Bool :=
  decide (q.sem = k) &&
  match k with
  | .toInt _ _ => isFrs1 q.ops.srcs[0]? && isOne q.ops.srcs[1]? .Rm && isOne q.ops.dsts[0]? .Rd &&
      isOne q.ops.dsts[1]? .Fflags
  | .ofInt _ _ => isOne q.ops.srcs[0]? .Rs1 && isOne q.ops.srcs[1]? .Rm && isFrd q.ops.dsts[0]?
  | .narrow => isFrs1 q.ops.srcs[0]? && isOne q.ops.srcs[1]? .Rm && isFrd q.ops.dsts[0]?
  | .widen => isFrs1 q.ops.srcs[0]? && isOne q.ops.srcs[1]? .Rm && isFrd q.ops.dsts[0]?

variable {n : Nat} {ρ : Type} {H : FpState.Host}

/-! ## The rounding mode -/

/-- The mode used by an instruction, as a number. -/
theorem mode_is {s : Sim} {w : Nat} {st : FSt s.xlen.bits ρ H} (hv : FInv st.fp)
    (h7 : ¬ (rmField w = 7#3 ∧ st.fp.valid = false)) :
    ((FpState.resolve st.fp (rmField w)).map fun r => r.setWidth 3) = some (modeOf w st) := by
  unfold modeOf FpState.resolve
  split
  · rename_i h
    have hva : st.fp.valid = true := by
      cases hc : st.fp.valid
      · exact absurd ⟨h, hc⟩ h7
      · rfl
    rw [hva, if_pos rfl, Option.map_some, hv.2.1 hva, BitVec.setWidth_setWidth_of_le _ (by omega),
      BitVec.setWidth_eq, frm_self]
  · rw [Option.map_some, BitVec.setWidth_setWidth_of_le _ (by omega), BitVec.setWidth_eq]

theorem rvDir_cases (r : BitVec 3) (d : Way) (h : FpHost.Spec.rvDir r = some d) :
    r.toNat ≤ 4 ∧ (r.toNat = 4 → d = .nearestAway) := by
  revert h
  revert d
  revert r
  decide

/-! ## Hosts -/

/-- The host converts and raises what IEEE 754 says. -/
structure IeeeV (after : Bool) (C : Cvt) : Prop where
  num : FpCvt.Ieee C.num
  narrow : ∀ d a, ¬ FpFma.Spec.NaN a →
    FpFlags.Spec.Flags Fp.single after d (FpCvt.Spec.converted Fp.single a) False False (C.narrow d a)
  widen : ∀ a, ¬ FpFma.Spec.NaN a → C.widen a = 0#5
  toSingle : ∀ d (z : Int), z.natAbs ≤ 2 ^ 64 →
    FpFlags.Spec.Flags Fp.single after d (FpCvt.Spec.ofInt Fp.single z) False False (C.toSingle d z)
  toDouble : ∀ d (z : Int), z.natAbs ≤ 2 ^ 64 →
    FpFlags.Spec.Flags Fp.double after d (FpCvt.Spec.ofInt Fp.double z) False False (C.toDouble d z)

theorem nan_flags {f : Fp.Fmt} {after : Bool} {d : Way} : FpFlags.Spec.Flags f after d .nan False False 0#5 :=
  ⟨by simp, by simp, by simp [FpFlags.Spec.Overflows], by simp [FpFlags.Spec.Underflows],
    by simp [FpFlags.Spec.Inexact]⟩

theorem flags_congr {f : Fp.Fmt} {after : Bool} {d : Way} {x : FpFma.Spec.Expect} {p q r t : Prop} {fl : BitVec 5}
    (h : FpFlags.Spec.Flags f after d x p r fl) (e : p ↔ q) (e' : r ↔ t) : FpFlags.Spec.Flags f after d x q t fl :=
  ⟨h.nv.trans e, h.dz.trans e', h.of, h.uf, h.nx⟩

/-! ## Effects -/

/-- A function that is carried out, and what the turn does. -/
def CarriesV (A : Arith H) (C : Cvt) (s : Sim) (w : Nat) (st : FSt s.xlen.bits ρ H) (q : VAct)
    (Q : FSt s.xlen.bits ρ H → Prop) : Prop :=
  ∃ st₁, carryV A C s w st q = some st₁ ∧ Q (closeF st₁ (st.core.hart.pc.setWidth 64) 4) ∧ Sound st st₁ ∧
    FInv st₁.fp

theorem carriesV_mono {A : Arith H} {C : Cvt} {s : Sim} {w : Nat} {st : FSt s.xlen.bits ρ H} {q : VAct}
    {P Q : FSt s.xlen.bits ρ H → Prop} (h : CarriesV A C s w st q P) (hpq : ∀ st', P st' → Q st') :
    CarriesV A C s w st q Q := by
  obtain ⟨st₁, e1, e2, e3⟩ := h
  exact ⟨st₁, e1, hpq _ e2, e3⟩

theorem submit_all (hH : FpState.HostOk H) (s : Sim) (a : Act) (k fl : Nat) (h : isOne a.dsts[k]? .Fflags = true)
    (st : FSt n ρ H) (hv : FInv st.fp) :
    ∃ fp', submit s a k fl st = some { st with fp := fp' } ∧ FInv fp' ∧
      FpState.Rep fp' ⟨(regOf st.fp).frm, (regOf st.fp).flags ||| BitVec.ofNat 5 fl⟩ := by
  unfold submit
  by_cases h0 : fl = 0
  · subst h0
    refine ⟨st.fp, if_pos rfl, hv, ?_⟩
    show FpState.Rep st.fp ⟨_, _ ||| 0#5⟩
    rw [BitVec.or_zero]; exact rep_self _
  · rw [if_neg h0, isOne_iff h]
    refine ⟨FpState.step st.fp (.fflagsSet (BitVec.ofNat 32 fl)), ?_, finv_step hH hv _ trivial, ?_⟩
    · show (if s.dest .Fflags = some .flags then _ else _) = _
      rw [dest_flags, if_pos rfl]
    · have := FpState.step_rep hH st.fp _ (rep_self _) (.fflagsSet (BitVec.ofNat 32 fl)) trivial
      have e : (BitVec.ofNat 32 fl).setWidth 5 = BitVec.ofNat 5 fl := BitVec.setWidth_ofNat_of_le (by omega) fl
      rw [← e]
      exact this

/-- The types of integers. -/
def Width (x : Xlen) (t : FpConvert.To) : Prop := (t.bits = 32 ∨ t.bits = 64) ∧ t.bits ≤ x.bits

theorem ok_conv (p : Prec) : FpConvert.Ok p.fmt := by
  cases p
  · exact FpConvert.ok_single
  · exact FpConvert.ok_double

section
variable {A : Arith H} {C : Cvt} {after : Bool} (s : Sim) (w : Nat) (st : FSt s.xlen.bits ρ H) (q : VAct)

theorem toInt_carry (p : Prec) (t : FpConvert.To) (h : okV (.toInt p t) q = true) :
    carryV A C s w st q = toIntV s w q.ops p t (plainF p (st.fregs (rs1 w))) st
      ((FpState.resolve st.fp (rmField w)).map fun r => r.setWidth 3) := by
  unfold okV at h
  simp only [Bool.and_eq_true, decide_eq_true_eq] at h
  obtain ⟨hs, ⟨⟨h1, h2⟩, h3⟩, h4⟩ := h
  unfold carryV
  rw [hs]
  dsimp only
  rw [fsrc_rs1 s w _ _ h1, modeAt_eq s w _ _ st h2]
  rfl

/-- A conversion to an integer of whatever is in the lower bits. -/
theorem toInt_any (hH : FpState.HostOk H) (hb : st.core.hart.branch = false) (hi : Hart.HInv st.core.hart)
    (hv : FInv st.fp) (p : Prec) (t : FpConvert.To) (ht : Width s.xlen t) (h : okV (.toInt p t) q = true) (d : Way)
    (hm : InMode w st d) (h7 : ¬ (rmField w = 7#3 ∧ st.fp.valid = false))
    (h8 : ¬ (d = .nearestAway ∧ FpConvert.Spec.Tie (plainF p (st.fregs (rs1 w)))))
    (h9 : ¬ Undefined t (modeOf w st).toNat (plainF p (st.fregs (rs1 w)))) :
    CarriesV A C s w st q (DoesToInt (modeOf w st) p t (plainF p (st.fregs (rs1 w))) w st) := by
  have e := toInt_carry (A := A) (C := C) s w st q p t h
  unfold okV at h
  simp only [Bool.and_eq_true, decide_eq_true_eq] at h
  obtain ⟨hs, ⟨⟨h1, h2⟩, h3⟩, h4⟩ := h
  rw [mode_is hv h7] at e
  obtain ⟨hle, h4'⟩ := rvDir_cases _ _ hm
  revert e h8 h9
  generalize plainF p (st.fregs (rs1 w)) = a
  intro h8 h9 e
  have hub := FpConvert.C38_ub_violated (ok_conv p) t ht.1 _ hle a
  have e' : toIntV s w q.ops p t a st (some (modeOf w st)) =
      finishV s w q.ops t st (FpConvert.convert p.fmt t (modeOf w st).toNat a) := rfl
  rw [e'] at e
  cases hc : FpConvert.convert p.fmt t (modeOf w st).toNat a with
  | ignored => exact absurd hc hub.1
  | ub => exact absurd (hub.2.1 hc) h9
  | done v fl =>
    rw [hc] at e
    obtain ⟨g1, g2⟩ := FpConvert.C38_convert_partial (ok_conv p) t ht.1 _ hle a v fl hc
    have g2 := g2 fun hh => h8 ⟨h4' hh.1, hh.2⟩
    have ep := putX_rd s w q.ops st (FpConvert.writeBack s.xlen.bits t v) (isOne_iff h3)
    obtain ⟨fp', f1, f2, f3⟩ := submit_all hH s q.ops 1 fl h4
      (st.withCore { st.core with regs := Regs.write st.core.regs (rd w) (FpConvert.writeBack s.xlen.bits t v) }) hv
    have e2 : carryV A C s w st q = some ({ st with fp := fp' }.withCore
        { st.core with regs := Regs.write st.core.regs (rd w) (FpConvert.writeBack s.xlen.bits t v) }) := by
      rw [e]
      show (putX s w q.ops _ st).bind _ = _
      rw [ep, Option.bind_some, f1]
      rfl
    refine ⟨_, e2, ⟨v, fl, g1, g2, accrues_rep f3, ?_⟩, ⟨hi, write_zero _ _ _⟩, f2⟩
    exact gives_x st { st with fp := fp' } (bits_le _) hb (rd w) _ _ rfl rfl (FpConvert.C38_write_back _ t ht.2 v)

theorem toInt_ok (hH : FpState.HostOk H) (hb : st.core.hart.branch = false) (hi : Hart.HInv st.core.hart)
    (hv : FInv st.fp) (p : Prec) (t : FpConvert.To) (ht : Width s.xlen t) (h : okV (.toInt p t) q = true) (d : Way)
    (hm : InMode w st d) (hw : ¬ WrongV d (.toInt p t) w st) :
    CarriesV A C s w st q (DoesV after d (.toInt p t) w st) := by
  unfold WrongV at hw
  simp only [not_or] at hw
  obtain ⟨h7, h8, h9⟩ := hw
  have hr : NaNBox.Spec.Reads p.fmt (st.fregs (rs1 w)) (plainF p (st.fregs (rs1 w))) :=
    plain_reads p _ fun e => Classical.not_not.1 fun hn => h8 ⟨e, hn⟩
  refine carriesV_mono (toInt_any (A := A) (C := C) s w st q hH hb hi hv p t ht h d hm h7
    (fun hh => h9 ⟨_, hr, .inl hh⟩) (fun hh => h9 ⟨_, hr, .inr hh⟩)) fun st' hd => ⟨_, hr, hd⟩

/-- An operation of one operand with the host. -/
theorem unary_any (hH : FpState.HostOk H) (hb : st.core.hart.branch = false) (hi : Hart.HInv st.core.hart)
    (hv : FInv st.fp) (p : Prec) (value : Way → BitVec p.fmt.bits) (flags : Way → BitVec 5) (d : Way)
    (hm : ∃ r, ((FpState.resolve st.fp (rmField w)).map fun r => r.setWidth 3) = some r ∧ A.dir st.fp.host r = d)
    (e : carryV A C s w st q = some (unaryV p value flags A (rd w) st
      ((FpState.resolve st.fp (rmField w)).map fun r => r.setWidth 3)))
    (P : BitVec p.fmt.bits → Prop) (hP : P (value d)) :
    CarriesV A C s w st q fun st' => AccruesAll st st' (flags d) ∧ GivesF p st st' (rd w) P := by
  obtain ⟨r, hr, hd⟩ := hm
  subst hd
  rw [hr] at e
  refine ⟨_, e, ⟨accrues_rep (arith_rep hH _ _ _), gives_f p st _ (bits_le _) hb (rd w) _ P rfl rfl hP⟩,
    ⟨hi, rfl⟩, finv_step hH hv _ trivial⟩

theorem intOf_ok (t : FpConvert.To) (hb : 0 < t.bits) (v : BitVec n) : Integer t v (intOf t v) := by
  unfold Integer intOf FpConvert.Spec.lo FpConvert.Spec.hi
  cases t.signed with
  | true =>
    simp only [if_true]
    refine ⟨?_, BitVec.le_toInt _, Int.le_sub_one_of_lt (BitVec.toInt_lt)⟩
    rw [BitVec.toInt_setWidth]
    obtain ⟨k, hk⟩ := Int.dvd_self_sub_bmod (x := (v.toNat : Int)) (m := 2 ^ t.bits)
    refine ⟨-k, ?_⟩
    push_cast at *
    rw [Int.neg_mul, Int.mul_comm k]
    omega
  | false =>
    simp only [Bool.false_eq_true, if_false]
    have h1 := (v.setWidth t.bits).isLt
    refine ⟨⟨-((v.toNat / 2 ^ t.bits : Nat) : Int), ?_⟩, Int.natCast_nonneg _, ?_⟩
    · rw [BitVec.toNat_setWidth]
      have := Nat.div_add_mod v.toNat (2 ^ t.bits)
      have h2 : ((2 ^ t.bits : Nat) : Int) * ((v.toNat / 2 ^ t.bits : Nat) : Int) + ((v.toNat % 2 ^ t.bits : Nat) : Int)
        = (v.toNat : Int) := by exact_mod_cast this
      rw [Int.neg_mul, Int.mul_comm, show ((2 : Int) ^ t.bits) = ((2 ^ t.bits : Nat) : Int) by push_cast; rfl]
      omega
    · have : (((v.setWidth t.bits).toNat : Nat) : Int) < ((2 ^ t.bits : Nat) : Int) := by exact_mod_cast h1
      push_cast at this
      omega

theorem integer_small {t : FpConvert.To} (ht : t.bits = 32 ∨ t.bits = 64) {v : BitVec n} {z : Int} (h : Integer t v z) :
    z.natAbs ≤ 2 ^ 64 := by
  obtain ⟨_, h1, h2⟩ := h
  unfold FpConvert.Spec.lo at h1
  unfold FpConvert.Spec.hi at h2
  rcases ht with e | e <;> rw [e] at h1 h2 <;> revert h1 h2 <;> cases t.signed <;> intro h1 h2 <;>
    simp only [Bool.false_eq_true, if_false, if_true] at h1 h2 <;> omega

theorem ofInt_ok (hH : FpState.HostOk H) (hie : IeeeV after C) (hb : st.core.hart.branch = false)
    (hi : Hart.HInv st.core.hart) (hv : FInv st.fp) (p : Prec) (t : FpConvert.To) (ht : Width s.xlen t)
    (h : okV (.ofInt p t) q = true) (d : Way)
    (hm : ∃ r, ((FpState.resolve st.fp (rmField w)).map fun r => r.setWidth 3) = some r ∧ A.dir st.fp.host r = d) :
    CarriesV A C s w st q (DoesV after d (.ofInt p t) w st) := by
  unfold okV at h
  simp only [Bool.and_eq_true, decide_eq_true_eq] at h
  obtain ⟨hs, ⟨h1, h2⟩, h3⟩ := h
  have hz := intOf_ok t (by rcases ht.1 with e | e <;> omega) (X st.core (rs1 w))
  have hl := integer_small ht.1 hz
  have hc := FpCvt.C82_int hie.num d _ hl
  have e : carryV A C s w st q = some (unaryV p (fun k => ofIntV C p k (intOf t (X st.core (rs1 w))))
      (fun k => ofIntFlags C p k (intOf t (X st.core (rs1 w)))) A (rd w) st
      ((FpState.resolve st.fp (rmField w)).map fun r => r.setWidth 3)) := by
    unfold carryV
    rw [hs]
    dsimp only
    rw [src_rs1 s w st.core q.ops 0 (isOne_iff h1), modeAt_eq s w _ _ st h2, fdst_rd s w _ _ h3]
    rfl
  revert hz hl hc e
  generalize intOf t (X st.core (rs1 w)) = z
  intro hz hl hc e
  refine carriesV_mono (unary_any s w st q hH hb hi hv p _ _ d hm e
    (FpFma.Spec.Meets d (FpCvt.Spec.ofInt p.fmt z)) ?_) fun st' hd => ⟨z, hz, _, ?_, hd⟩
  · cases p
    · exact hc.1
    · exact hc.2.1
  · cases p
    · exact hie.toSingle d z hl
    · exact hie.toDouble d z hl

theorem narrow_carry (h : okV .narrow q = true) :
    carryV A C s w st q = some (unaryV .s (fun k => FpCvt.fcvtSD C.num k (operandF .d (st.fregs (rs1 w))))
      (fun k => narrowFlags C k (operandF .d (st.fregs (rs1 w)))) A (rd w) st
      ((FpState.resolve st.fp (rmField w)).map fun r => r.setWidth 3)) := by
  unfold okV at h
  simp only [Bool.and_eq_true, decide_eq_true_eq] at h
  obtain ⟨hs, ⟨h1, h2⟩, h3⟩ := h
  unfold carryV
  rw [hs]
  dsimp only
  rw [fsrc_rs1 s w _ _ h1, modeAt_eq s w _ _ st h2, fdst_rd s w _ _ h3]
  rfl

theorem narrowFlags_ok (hie : IeeeV after C) (d : Way) (a : BitVec Fp.double.bits) :
    FpFlags.Spec.Flags Fp.single after d (FpCvt.Spec.converted Fp.single a) False False (narrowFlags C d a) := by
  unfold narrowFlags
  rw [FpFma.isNaN_eq]
  by_cases hn : FpFma.Spec.NaN a
  · rw [if_pos (decide_eq_true hn)]
    unfold FpCvt.Spec.converted
    rw [if_pos hn]
    exact nan_flags
  · rw [if_neg (by simpa using hn)]
    exact hie.narrow d a hn

/-- The conversion to single precision, of signalling NaNs too. -/
theorem narrow_any (hH : FpState.HostOk H) (hie : IeeeV after C) (hb : st.core.hart.branch = false)
    (hi : Hart.HInv st.core.hart) (hv : FInv st.fp) (h : okV .narrow q = true) (d : Way)
    (hm : ∃ r, ((FpState.resolve st.fp (rmField w)).map fun r => r.setWidth 3) = some r ∧ A.dir st.fp.host r = d) :
    CarriesV A C s w st q fun st' => ∃ a, ValueF .d st (rs1 w) a ∧
      ∃ fl, FpFlags.Spec.Flags Fp.single after d (FpCvt.Spec.converted Fp.single a) False False fl ∧
        AccruesAll st st' fl ∧ GivesF .s st st' (rd w) (Right d (FpCvt.Spec.converted Fp.single a)) :=
  carriesV_mono (unary_any s w st q hH hb hi hv .s _ _ d hm (narrow_carry s w st q h)
    (Right d (FpCvt.Spec.converted Fp.single (operandF .d (st.fregs (rs1 w)))))
    (FpCvt.C82_narrow hie.num d _)) fun _ hd => ⟨_, operandF_reads .d _, _, narrowFlags_ok hie d _, hd⟩

theorem narrow_ok (hH : FpState.HostOk H) (hie : IeeeV after C) (hb : st.core.hart.branch = false)
    (hi : Hart.HInv st.core.hart) (hv : FInv st.fp) (h : okV .narrow q = true) (d : Way)
    (hm : ∃ r, ((FpState.resolve st.fp (rmField w)).map fun r => r.setWidth 3) = some r ∧ A.dir st.fp.host r = d)
    (hw : ¬ ∃ a, ValueF .d st (rs1 w) a ∧ FpFma.Spec.Signalling a) :
    CarriesV A C s w st q (DoesV after d .narrow w st) :=
  carriesV_mono (narrow_any s w st q hH hie hb hi hv h d hm) fun _ ⟨a, ha, fl, hf, hd⟩ =>
    ⟨a, ha, fl, flags_congr hf ⟨False.elim, fun hc => hw ⟨a, ha, hc⟩⟩ Iff.rfl, hd⟩

theorem widenFlags_ok (hie : IeeeV after C) (a : BitVec Fp.single.bits) : widenFlags C a = 0#5 := by
  unfold widenFlags
  rw [FpFma.isNaN_eq]
  by_cases hn : FpFma.Spec.NaN a
  · exact if_pos (decide_eq_true hn)
  · rw [if_neg (fun hc => hn (of_decide_eq_true hc))]
    exact hie.widen _ hn

/-- The conversion of whatever is in the lower bits to double precision. -/
theorem widen_any (hH : FpState.HostOk H) (hie : IeeeV after C) (hb : st.core.hart.branch = false)
    (hi : Hart.HInv st.core.hart) (hv : FInv st.fp) (h : okV .widen q = true)
    (hm : ∃ r, ((FpState.resolve st.fp (rmField w)).map fun r => r.setWidth 3) = some r) :
    CarriesV A C s w st q fun st' => AccruesAll st st' 0#5 ∧ GivesF .d st st' (rd w) fun v =>
      VecWiden.Spec.Same (plainF .s (st.fregs (rs1 w))) v ∧ (FpFma.Spec.NaN v → v = Fp.canonicalNaN Fp.double) := by
  unfold okV at h
  simp only [Bool.and_eq_true, decide_eq_true_eq] at h
  obtain ⟨hs, ⟨h1, h2⟩, h3⟩ := h
  have e : carryV A C s w st q = some (unaryV .d (fun _ => FpCvt.fcvtDS C.num (plainF .s (st.fregs (rs1 w))))
      (fun _ => widenFlags C (plainF .s (st.fregs (rs1 w)))) A (rd w) st
      ((FpState.resolve st.fp (rmField w)).map fun r => r.setWidth 3)) := by
    unfold carryV
    rw [hs]
    dsimp only
    rw [fsrc_rs1 s w _ _ h1, modeAt_eq s w _ _ st h2, fdst_rd s w _ _ h3]
    rfl
  obtain ⟨r, hr⟩ := hm
  have hf : widenFlags C (plainF .s (st.fregs (rs1 w))) = 0#5 := by
    exact widenFlags_ok hie _
  rw [hf] at e
  exact unary_any s w st q hH hb hi hv .d (fun _ => FpCvt.fcvtDS C.num (plainF .s (st.fregs (rs1 w)))) (fun _ => 0#5)
    (A.dir st.fp.host r) ⟨r, hr, rfl⟩ e _ (FpCvt.C82_widen hie.num _)

theorem widen_ok (hH : FpState.HostOk H) (hie : IeeeV after C) (hb : st.core.hart.branch = false)
    (hi : Hart.HInv st.core.hart) (hv : FInv st.fp) (h : okV .widen q = true) (d : Way)
    (h7 : ¬ (rmField w = 7#3 ∧ st.fp.valid = false))
    (hw : ¬ (¬ BoxedS st (rs1 w) ∨ ∃ a, ValueF .s st (rs1 w) a ∧ FpFma.Spec.Signalling a)) :
    CarriesV A C s w st q (DoesV after d .widen w st) := by
  simp only [not_or, Classical.not_not] at hw
  have hr := plain_reads .s (st.fregs (rs1 w)) fun _ => hw.1
  exact carriesV_mono (widen_any s w st q hH hie hb hi hv h ⟨_, mode_is hv h7⟩) fun _ hd =>
    ⟨_, hr, 0#5, fun hc => absurd ⟨_, hr, hc⟩ hw.2, fun _ => rfl, hd⟩

/-! ## Without a rounding mode -/

theorem none_V (hb : st.core.hart.branch = false) (hi : Hart.HInv st.core.hart) (hv : FInv st.fp) (k : VSem)
    (h : okV k q = true) (h7 : rmField w = 7#3) (hva : st.fp.valid = false) :
    CarriesV A C s w st q fun st' =>
      Passes st.core st'.core 4 ∧ Rest st st' ∧ st'.fregs = st.fregs ∧ st'.fp = st.fp := by
  have hr : ((FpState.resolve st.fp (rmField w)).map fun r => r.setWidth 3) = none := by
    unfold FpState.resolve
    rw [if_pos h7, hva]
    rfl
  refine ⟨st, ?_, ⟨next_passes (bits_le _) st.core hb 4, ⟨rfl, rfl⟩, rfl, rfl⟩, ⟨hi, rfl⟩, hv⟩
  cases k with
  | toInt p t => rw [toInt_carry s w st q p t h, hr]; rfl
  | narrow => rw [narrow_carry s w st q h, hr]; rfl
  | ofInt p t =>
    unfold okV at h
    simp only [Bool.and_eq_true, decide_eq_true_eq] at h
    obtain ⟨hs, ⟨h1, h2⟩, h3⟩ := h
    unfold carryV
    rw [hs]
    dsimp only
    rw [src_rs1 s w st.core q.ops 0 (isOne_iff h1), modeAt_eq s w _ _ st h2, fdst_rd s w _ _ h3, hr]
    rfl
  | widen =>
    unfold okV at h
    simp only [Bool.and_eq_true, decide_eq_true_eq] at h
    obtain ⟨hs, ⟨h1, h2⟩, h3⟩ := h
    unfold carryV
    rw [hs]
    dsimp only
    rw [fsrc_rs1 s w _ _ h1, modeAt_eq s w _ _ st h2, fdst_rd s w _ _ h3, hr]
    rfl

/-! ## A reserved rounding mode -/

theorem ignored {f : Fp.Fmt} (t : FpConvert.To) (r : BitVec 3) (hr : r = 5#3 ∨ r = 6#3) (a : BitVec f.bits)
    (h1 : ¬ FpConvert.Spec.Special a) (h2 : ¬ FpFma.Spec.IsZero a) (h3 : FpConvert.Spec.ulp a < 0) :
    FpConvert.convert f t r.toNat a = .ignored := by
  have hz : ¬ (Fp.expField a = 0 ∧ Fp.sigField a = 0) := by
    intro h
    have e := FpFma.isZero_eq a
    unfold Fp.isZero at e
    rw [h.1, h.2] at e
    exact h2 (of_decide_eq_true e.symm)
  rw [(FpConvert.convert_cases t r.toNat a).2.2.2 h1 hz]
  have hs : FpConvert.rightShift f a ≥ 0 := by
    unfold FpConvert.rightShift
    split
    · rename_i he
      have hu : FpConvert.Spec.ulp a = ((if Fp.expField a = 0 then 1 else Fp.expField a : Nat) : Int) - f.bias - f.s := rfl
      rw [if_neg he] at hu
      omega
    · omega
  have hb : ∀ sg b st fl, FpConvert.roundBase r.toNat sg b st fl = none := by
    intro sg b st fl
    rcases hr with rfl | rfl <;> rfl
  unfold FpConvert.convertFinite
  dsimp only
  rw [if_pos hs, hb]

theorem reserved_toInt (hb : st.core.hart.branch = false) (hi : Hart.HInv st.core.hart) (hv : FInv st.fp)
    (p : Prec) (t : FpConvert.To) (h : okV (.toInt p t) q = true)
    (hr : rmField w = 5#3 ∨ rmField w = 6#3) (h1 : ¬ FpConvert.Spec.Special (plainF p (st.fregs (rs1 w))))
    (h2 : ¬ FpFma.Spec.IsZero (plainF p (st.fregs (rs1 w))))
    (h3 : FpConvert.Spec.ulp (plainF p (st.fregs (rs1 w))) < 0) :
    CarriesV A C s w st q fun st' =>
      Passes st.core st'.core 4 ∧ Rest st st' ∧ st'.fregs = st.fregs ∧ st'.fp = st.fp := by
  have h7 : rmField w ≠ 7#3 := by rcases hr with e | e <;> rw [e] <;> decide
  have hm : modeOf w st = rmField w := if_neg h7
  refine ⟨st, ?_, ⟨next_passes (bits_le _) st.core hb 4, ⟨rfl, rfl⟩, rfl, rfl⟩, ⟨hi, rfl⟩, hv⟩
  rw [toInt_carry s w st q p t h, mode_is hv fun hh => h7 hh.1, hm]
  show finishV s w q.ops t st _ = _
  rw [ignored t _ hr _ h1 h2 h3]
  rfl

end

end Verif.Exec
