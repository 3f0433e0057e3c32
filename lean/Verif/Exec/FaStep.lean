import Verif.Exec.FpStep
import Verif.Exec.FaSpec
import Verif.FpFlags.Props

/-!
# What floating-point arithmetic does, from its descriptions
-/

namespace Verif.Exec

open Decode Decode.Isa Core Operands Spec

/-! ## Operands -/

def aSrcs : List Getters.Opd := [.Frs3, .Drs3, .Rm]

theorem source_okA (s : Sim) (o : Getters.Opd) (ho : o ∈ aSrcs) (w : Nat) :
    ∃ g m, s.source o = some g ∧ Getters.Spec.source o = some m ∧
      Getters.Spec.Reads w (g.source w) m := by
  have t : aSrcs.all (fun o => s.isa.enc.any fun e =>
      (e.source o).isSome && !Getters.oddSource e o) = true := by
    cases s <;> decide +kernel
  have h := List.all_eq_true.1 t o ho
  unfold Sim.source
  cases he : s.isa.enc with
  | none => rw [he] at h; simp at h
  | some e =>
    rw [he] at h
    simp only [Option.any_some, Bool.and_eq_true, Bool.not_eq_true'] at h
    obtain ⟨g, hg⟩ := Option.isSome_iff_exists.1 h.1
    obtain ⟨m, hm, hr⟩ := Getters.C84_source_partial e o g hg h.2 w
    exact ⟨g, m, hg, hm, hr⟩

def isFrs3 (a : Option Arg) : Bool := isOne a .Frs3 || isOne a .Drs3

theorem fsrc_ofA (s : Sim) (w : Nat) (a : Act) (k : Nat) (o : Getters.Opd) (ho : o ∈ aSrcs)
    (b : List (Nat × Nat)) (hm : Getters.Spec.source o = some (.f b)) (h : a.srcs[k]? = some (.one o)) :
    fsrcAt s w a k = some (BitVec.ofNat 5 (Getters.Spec.unsigned w (Getters.Spec.positions b))) := by
  obtain ⟨g, m, hg, hm', hr⟩ := source_okA s o ho w
  obtain rfl : Getters.Spec.Meaning.f b = m := Option.some.inj (hm.symm.trans hm')
  have hr' : g.source w = .f (Getters.Spec.unsigned w (Getters.Spec.positions b)) := hr
  unfold fsrcAt
  rw [h]
  show ((s.source o).bind fun g => fregNo (g.source w)) = _
  rw [hg, Option.bind_some, hr']
  rfl

theorem fsrc_rs3 (s : Sim) (w : Nat) (a : Act) (k : Nat) (h : isFrs3 a.srcs[k]? = true) :
    fsrcAt s w a k = some (rs3 w) := by
  unfold isFrs3 at h
  rw [Bool.or_eq_true] at h
  rcases h with h | h
  · exact fsrc_ofA s w a k .Frs3 (by decide) _ rfl (isOne_iff h)
  · exact fsrc_ofA s w a k .Drs3 (by decide) _ rfl (isOne_iff h)

theorem src_rm {n : Nat} (hn : 3 ≤ n) (s : Sim) (w : Nat) (c : Core n) (a : Act) (k : Nat)
    (h : isOne a.srcs[k]? .Rm = true) : ∃ v, srcAt s w c a k = some v ∧ v.setWidth 3 = rmField w := by
  obtain ⟨g, m, hg, hm', hr⟩ := source_okA s .Rm (by decide) w
  obtain rfl : Getters.Spec.Meaning.uimm [(14, 12)] 1 = m := Option.some.inj hm'
  have h' : g.source w = .number ((Getters.Spec.unsigned w (Getters.Spec.positions [(14, 12)]) : Int) * (1 : Nat)) := hr
  refine ⟨BitVec.ofNat n (Getters.Spec.unsigned w (Getters.Spec.positions [(14, 12)])), ?_, ?_⟩
  · rw [src_one s w c a k _ (isOne_iff h), hg, Option.bind_some, h']
    show some (BitVec.ofInt n _) = _
    rw [Int.natCast_one, Int.mul_one, BitVec.ofInt_natCast]
  · unfold rmField
    rw [BitVec.setWidth_ofNat_of_le hn]

/-- The description an instruction should have. -/
def okA (k : ASem) (q : AAct) : Bool :=
  decide (q.sem = k) &&
  match k with
  | .bin _ _ => isFrs1 q.ops.srcs[0]? && isFrs2 q.ops.srcs[1]? && isOne q.ops.srcs[2]? .Rm && isFrd q.ops.dsts[0]?
  | .sqrt _ => isFrs1 q.ops.srcs[0]? && isOne q.ops.srcs[1]? .Rm && isFrd q.ops.dsts[0]? &&
      isOne q.ops.dsts[1]? .Fflags
  | .fma _ _ => isFrs1 q.ops.srcs[0]? && isFrs2 q.ops.srcs[1]? && isFrs3 q.ops.srcs[2]? &&
      isOne q.ops.srcs[3]? .Rm && isFrd q.ops.dsts[0]? && isOne q.ops.dsts[1]? .Fflags

/-! ## The rounding mode -/

variable {n : Nat} {ρ : Type} {H : FpState.Host}

/-- The host rounds in the direction asked for, and to nearest, ties to even, for the modes it does not
have. -/
structure DirOk (A : Arith H) : Prop where
  has : ∀ s r, r.toNat ≤ 3 → some (A.dir s r) = FpHost.Spec.rvDir r
  other : ∀ s r, 4 ≤ r.toNat → r.toNat ≤ 6 → A.dir s r = .nearestEven

theorem bits3 {P : BitVec 3 → Prop} (h : ∀ i : Fin 8, P (BitVec.ofFin i)) (r : BitVec 3) : P r := h r.toFin

theorem x86_other (st : FpHost.X86.Status) (r : BitVec 3) (h1 : 4 ≤ r.toNat) (h2 : r.toNat ≤ 6) :
    FpHost.Spec.x86Dir (FpHost.X86.load st (some r)) = .nearestEven := by
  have h7 : r ≠ 7#3 := by rintro rfl; exact absurd h2 (by decide)
  have e : (FpHost.X86.rmFromRiscV[r.toNat]?.getD 0#32) = 0#32 := by
    revert h1 h2; revert r; decide
  unfold FpHost.X86.load
  dsimp only
  rw [if_pos h7, e]
  unfold FpHost.Spec.x86Dir
  simp only [BitVec.getLsbD_or, BitVec.getLsbD_and, BitVec.getLsbD_zero, Bool.false_or,
    show (0x1fff#32).getLsbD 14 = false from by decide, show (0x1fff#32).getLsbD 13 = false from by decide,
    Bool.and_false]

theorem arm_other (st : FpHost.Arm.Status) (r : BitVec 3) (h1 : 4 ≤ r.toNat) (h2 : r.toNat ≤ 6) :
    FpHost.Spec.armDir (FpHost.Arm.load st (some r)).fpcr = .nearestEven := by
  have h7 : r ≠ 7#3 := by rintro rfl; exact absurd h2 (by decide)
  have e : (FpHost.Arm.rmFromRiscV[r.toNat]?.getD 0#32) = 0#32 := by
    revert h1 h2; revert r; decide
  unfold FpHost.Arm.load
  dsimp only
  rw [if_pos h7, e]
  show FpHost.Spec.armDir (BitVec.setWidth 64 0#32) = _
  decide

theorem x86_dir (s : FpFlags.Host Fp.single) (d : FpFlags.Host Fp.double) : DirOk (x86Arith s d) where
  has st r h := FpHost.C64_x86_explicit_partial st r h
  other st r h1 h2 := x86_other st r h1 h2

theorem arm_dir (s : FpFlags.Host Fp.single) (d : FpFlags.Host Fp.double) : DirOk (armArith s d) where
  has st r h := FpHost.C64_arm_explicit_partial st r h
  other st r h1 h2 := arm_other st r h1 h2

/-- The register a floating-point state stands for. -/
def regOf (fp : FpState.Fp H) : FpState.Spec.Reg :=
  ⟨fp.stored.extractLsb' 5 3, (H.get fp.host).setWidth 5⟩

theorem rep_self (fp : FpState.Fp H) : FpState.Rep fp (regOf fp) := ⟨rfl, rfl⟩

/-- What histories keep up: the mode remembered is a rounding mode, and it is frm if it is valid. -/
def FInv (fp : FpState.Fp H) : Prop := FpState.VInv fp (regOf fp)

theorem finv_of {fp : FpState.Fp H} {r : FpState.Spec.Reg} (h : FpState.Rep fp r) (hv : FpState.VInv fp r) :
    FInv fp := by
  have : (regOf fp).frm = r.frm := h.1
  unfold FInv FpState.VInv
  rw [this]; exact hv

theorem finv_init (hH : FpState.HostOk H) : FInv (FpState.init H) :=
  finv_of (FpState.init_rep hH) FpState.init_vinv

theorem finv_step (hH : FpState.HostOk H) {fp : FpState.Fp H} (h : FInv fp) (o : FpState.Op) (ho : FpState.Plain o) :
    FInv (FpState.step fp o) :=
  finv_of (FpState.step_rep hH fp _ (rep_self fp) o ho) (FpState.step_vinv fp _ (rep_self fp) h o ho)

theorem frm_self (fp : FpState.Fp H) : (FpState.frmRead fp).setWidth 3 = (regOf fp).frm := by
  rw [FpState.frm_read _ _ (rep_self fp), BitVec.setWidth_setWidth_of_le _ (by omega), BitVec.setWidth_eq]

theorem rvDir_le (r : BitVec 3) (d : Way) (h : FpHost.Spec.rvDir r = some d) (hd : d ≠ .nearestAway) :
    r.toNat ≤ 3 := by
  revert h hd
  revert d
  revert r
  decide

theorem modeAt_eq (s : Sim) (w : Nat) (a : Act) (k : Nat) (st : FSt s.xlen.bits ρ H)
    (h : isOne a.srcs[k]? .Rm = true) :
    modeAt s w a k st = some ((FpState.resolve st.fp (rmField w)).map fun r => r.setWidth 3) := by
  obtain ⟨v, hv, e⟩ := src_rm (Nat.le_trans (by decide : 3 ≤ 32) (bits_32 s.xlen)) s w st.core a k h
  unfold modeAt
  rw [hv, Option.map_some, e]

/-- The mode used by an instruction. -/
theorem mode_ok {A : Arith H} (hA : DirOk A) {s : Sim} {w : Nat} {st : FSt s.xlen.bits ρ H} (hv : FInv st.fp)
    {d : Way} (hm : InMode w st d) (hd : d ≠ .nearestAway) (h7 : ¬ (rmField w = 7#3 ∧ st.fp.valid = false)) :
    ∃ r, ((FpState.resolve st.fp (rmField w)).map fun r => r.setWidth 3) = some r ∧ A.dir st.fp.host r = d := by
  unfold InMode modeOf at hm
  unfold FpState.resolve
  split at hm
  · rename_i h
    rw [if_pos h]
    have hva : st.fp.valid = true := by
      cases hc : st.fp.valid
      · exact absurd ⟨h, hc⟩ h7
      · rfl
    rw [hva, if_pos rfl]
    refine ⟨_, rfl, ?_⟩
    dsimp only
    rw [hv.2.1 hva, BitVec.setWidth_setWidth_of_le _ (by omega), BitVec.setWidth_eq]
    rw [frm_self] at hm
    have := hA.has st.fp.host _ (rvDir_le _ _ hm hd)
    rw [hm] at this
    exact Option.some.inj this
  · rename_i h
    rw [if_neg h]
    refine ⟨_, rfl, ?_⟩
    dsimp only
    rw [BitVec.setWidth_setWidth_of_le _ (by omega), BitVec.setWidth_eq]
    have := hA.has st.fp.host _ (rvDir_le _ _ hm hd)
    rw [hm] at this
    exact Option.some.inj this

/-- A mode given in the instruction that the host does not have, or that is none. -/
theorem mode_other {A : Arith H} (hA : DirOk A) {s : Sim} {w : Nat} {st : FSt s.xlen.bits ρ H}
    (h1 : 4 ≤ (rmField w).toNat) (h2 : (rmField w).toNat ≤ 6) :
    ∃ r, ((FpState.resolve st.fp (rmField w)).map fun r => r.setWidth 3) = some r ∧
      A.dir st.fp.host r = .nearestEven := by
  have h7 : rmField w ≠ 7#3 := by intro h; rw [h] at h2; exact absurd h2 (by decide)
  unfold FpState.resolve
  rw [if_neg h7]
  refine ⟨_, rfl, ?_⟩
  dsimp only
  rw [BitVec.setWidth_setWidth_of_le _ (by omega), BitVec.setWidth_eq]
  exact hA.other _ _ h1 h2

/-! ## Flags -/

theorem accrues_rep {st st' : FSt n ρ H} {fl : BitVec 5}
    (h : FpState.Rep st'.fp ⟨(regOf st.fp).frm, (regOf st.fp).flags ||| fl⟩) : AccruesAll st st' fl := by
  refine ⟨?_, ?_⟩
  · rw [FpState.frm_read _ _ h, FpState.frm_read _ _ (rep_self st.fp)]
  · rw [FpState.fflags_read _ _ h, FpState.fflags_read _ _ (rep_self st.fp)]
    exact BitVec.setWidth_or ..

theorem arith_rep (hH : FpState.HostOk H) (fp : FpState.Fp H) (r : BitVec 3) (fl : BitVec 5) :
    FpState.Rep (FpState.step fp (.arith (some r) fl)) ⟨(regOf fp).frm, (regOf fp).flags ||| fl⟩ :=
  FpState.step_rep hH fp _ (rep_self fp) (.arith (some r) fl) trivial

/-- What is submitted in the scope is lost, and the mode stays. -/
theorem scope_rep (hH : FpState.HostOk H) (fp : FpState.Fp H) (r : BitVec 3) (on : Bool) (fl : BitVec 5) :
    FpState.Rep (FpState.scopedFp fp (some r) (innerA on) fl) ⟨(regOf fp).frm, (regOf fp).flags ||| fl⟩ := by
  refine ⟨?_, ?_⟩
  · show (innerA on fp).stored.extractLsb' 5 3 = _
    unfold innerA
    split
    · exact (FpState.step_rep hH fp _ (rep_self fp) (.fflagsSet 16#32) trivial).1
    · rfl
  · show (H.get (H.runIn fp.host (some r) fl)).setWidth 5 = _
    rw [hH.run]; rfl

theorem scope_finv (hH : FpState.HostOk H) {fp : FpState.Fp H} (h : FInv fp) (r : BitVec 3) (on : Bool) (fl : BitVec 5) :
    FInv (FpState.scopedFp fp (some r) (innerA on) fl) := by
  have : FInv (innerA on fp) := by
    unfold innerA
    split
    · exact finv_step hH h (.fflagsSet 16#32) trivial
    · exact h
  exact this

/-! ## Effects -/

/-- A function that is carried out, and what the turn does. -/
def CarriesA (A : Arith H) (s : Sim) (w : Nat) (st : FSt s.xlen.bits ρ H) (q : AAct)
    (Q : FSt s.xlen.bits ρ H → Prop) : Prop :=
  ∃ st₁, carryA A s w st q = some st₁ ∧ Q (closeF st₁ (st.core.hart.pc.setWidth 64) 4) ∧ st₁.core = st.core ∧
    FInv st₁.fp

theorem carriesA_mono {A : Arith H} {s : Sim} {w : Nat} {st : FSt s.xlen.bits ρ H} {q : AAct}
    {P Q : FSt s.xlen.bits ρ H → Prop} (h : CarriesA A s w st q P) (hpq : ∀ st', P st' → Q st') :
    CarriesA A s w st q Q := by
  obtain ⟨st₁, e1, e2, e3⟩ := h
  exact ⟨st₁, e1, hpq _ e2, e3⟩

/-- The host computes and raises what IEEE 754 says. -/
structure Ieee (after : Bool) (A : Arith H) : Prop where
  s : FpFlags.Ieee after A.s
  d : FpFlags.Ieee after A.d

theorem Ieee.on {after : Bool} {A : Arith H} (h : Ieee after A) (p : Prec) : FpFlags.Ieee after (A.on p) := by
  cases p
  · exact h.s
  · exact h.d

theorem ok_prec (p : Prec) : FpFma.Ok p.fmt := by
  cases p
  · exact FpFma.ok_single
  · exact FpFma.ok_double

theorem roomy_prec (p : Prec) : FpArith.Roomy p.fmt := by
  cases p
  · exact FpArith.roomy_single
  · exact FpArith.roomy_double

section
variable {A : Arith H} {after : Bool} (hH : FpState.HostOk H) (hi : Ieee after A) (s : Sim) (w : Nat)
  (st : FSt s.xlen.bits ρ H) (q : AAct)

include hH hi in
theorem bin_ok (hb : st.core.hart.branch = false) (hv : FInv st.fp) (p : Prec) (o : FpFlags.Spec.BinOp)
    (h : okA (.bin p o) q = true) (d : Way)
    (hm : ∃ r, ((FpState.resolve st.fp (rmField w)).map fun r => r.setWidth 3) = some r ∧ A.dir st.fp.host r = d) :
    CarriesA A s w st q (DoesA after d (.bin p o) w st) := by
  unfold okA at h
  simp only [Bool.and_eq_true, decide_eq_true_eq] at h
  obtain ⟨hs, ⟨⟨h1, h2⟩, h3⟩, h4⟩ := h
  obtain ⟨r, hr, hd⟩ := hm
  have hc := FpFlags.C128_binary (ok_prec p) (hi.on p) o d (operandF p (st.fregs (rs1 w))) (operandF p (st.fregs (rs2 w)))
  refine ⟨binA A p o (rs1 w) (rs2 w) (rd w) st (some r), ?_, ⟨_, _, operandF_reads p _, operandF_reads p _, _, hc.2,
    accrues_rep ?_, gives_f p st _ (bits_le _) hb (rd w) _ _ rfl ?_ hc.1⟩, rfl, ?_⟩
  · unfold carryA
    rw [hs]
    dsimp only
    rw [fsrc_rs1 s w _ _ h1, fsrc_rs2 s w _ _ h2, fdst_rd s w _ _ h4, modeAt_eq s w _ _ st h3, hr]
    rfl
  · rw [← hd]
    exact arith_rep hH _ _ _
  · rw [← hd]; rfl
  · exact finv_step hH hv _ trivial

theorem sqrt_at {f : Fp.Fmt} {h : FpFlags.Host f} {d : Way} {a : BitVec f.bits}
    (h1 : ¬ (Fp.isNaN a || FpArith.negative a) = true) (h2 : ¬ Fp.isZero a = true) :
    (FpArith.fsqrt h.num d a).1 = h.num.sqrt d a ∧ FpFlags.sqrtFlags h d a = h.sqrt d a := by
  unfold FpArith.fsqrt FpFlags.sqrtFlags
  rw [if_neg h1, if_neg h2, if_neg h1, if_neg h2]
  exact ⟨rfl, rfl⟩

include hH hi in
theorem sqrt_ok (hb : st.core.hart.branch = false) (hv : FInv st.fp) (p : Prec)
    (h : okA (.sqrt p) q = true) (d : Way)
    (hm : ∃ r, ((FpState.resolve st.fp (rmField w)).map fun r => r.setWidth 3) = some r ∧ A.dir st.fp.host r = d) :
    CarriesA A s w st q (DoesA after d (.sqrt p) w st) := by
  unfold okA at h
  simp only [Bool.and_eq_true, decide_eq_true_eq] at h
  obtain ⟨hs, ⟨⟨h1, h2⟩, h3⟩, h4⟩ := h
  obtain ⟨r, hr, hd⟩ := hm
  have hc := FpFlags.C128_sqrt (ok_prec p) (roomy_prec p) (hi.on p) d (operandF p (st.fregs (rs1 w)))
  have hval : ValueF p st (rs1 w) (operandF p (st.fregs (rs1 w))) := operandF_reads p _
  have e : carryA A s w st q = sqrtA A s w q.ops p (operandF p (st.fregs (rs1 w))) (rd w) st := by
    unfold carryA
    rw [hs]
    dsimp only
    rw [fsrc_rs1 s w _ _ h1, fdst_rd s w _ _ h3]
    rfl
  revert hc hval e
  generalize operandF p (st.fregs (rs1 w)) = a
  intro hc hval e
  unfold sqrtA at e
  split at e
  · rename_i hn
    have e1 : (FpArith.fsqrt (A.on p).num d a).1 = Fp.canonicalNaN p.fmt := by
      unfold FpArith.fsqrt; rw [if_pos hn]
    have e2 : FpFlags.sqrtFlags (A.on p) d a = if Fp.isQNaN a then 0#5 else 16#5 := by
      unfold FpFlags.sqrtFlags; rw [if_pos hn]
    rw [e1, e2] at hc
    cases hq : Fp.isQNaN a with
    | true =>
      rw [hq] at e hc
      refine ⟨_, e, ⟨a, hval, _, hc.2, accrues_rep ?_, gives_f p st _ (bits_le _) hb (rd w) _ _ rfl rfl hc.1⟩, rfl, hv⟩
      show FpState.Rep st.fp ⟨_, _ ||| 0#5⟩
      rw [BitVec.or_zero]; exact rep_self _
    | false =>
      rw [hq] at e hc
      have e' : carryA A s w st q = some ((st.setF (rd w) (resultF p (Fp.canonicalNaN p.fmt))).withFp
          (FpState.step st.fp (.fflagsSet 16#32))) := by
        rw [e]
        show submit s q.ops 1 16 _ = _
        unfold submit
        rw [if_neg (by decide), isOne_iff h4]
        show (if s.dest .Fflags = some .flags then _ else _) = _
        rw [dest_flags, if_pos rfl]
        rfl
      refine ⟨_, e', ⟨a, hval, _, hc.2, accrues_rep ?_, gives_f p st _ (bits_le _) hb (rd w) _ _ rfl rfl hc.1⟩, rfl,
        finv_step hH hv _ trivial⟩
      exact FpState.step_rep hH st.fp _ (rep_self _) (.fflagsSet 16#32) trivial
  · rename_i hn
    split at e
    · rename_i hz
      have e1 : (FpArith.fsqrt (A.on p).num d a).1 = a := by
        unfold FpArith.fsqrt; rw [if_neg hn, if_pos hz]
      have e2 : FpFlags.sqrtFlags (A.on p) d a = 0#5 := by
        unfold FpFlags.sqrtFlags; rw [if_neg hn, if_pos hz]
      rw [e1, e2] at hc
      refine ⟨_, e, ⟨a, hval, _, hc.2, accrues_rep ?_, gives_f p st _ (bits_le _) hb (rd w) _ _ rfl rfl hc.1⟩, rfl, hv⟩
      show FpState.Rep st.fp ⟨_, _ ||| 0#5⟩
      rw [BitVec.or_zero]; exact rep_self _
    · rename_i hz
      obtain ⟨e1, e2⟩ := sqrt_at (h := A.on p) (d := d) hn hz
      rw [e1, e2, ← hd] at hc
      rw [modeAt_eq s w _ _ st h2, hr] at e
      refine ⟨_, e, ⟨a, hval, _, hc.2, accrues_rep (arith_rep hH _ _ _),
        gives_f p st _ (bits_le _) hb (rd w) _ _ rfl rfl ?_⟩, rfl, finv_step hH hv _ trivial⟩
      rw [← hd]; exact hc.1

/-- A fused multiply-add, whatever is known of its result and flags. -/
theorem fma_any (hH : FpState.HostOk H) (hb : st.core.hart.branch = false) (hv : FInv st.fp) (p : Prec)
    (o : FpFma.Spec.Op) (h : okA (.fma p o) q = true) (d : Way)
    (hm : ∃ r, ((FpState.resolve st.fp (rmField w)).map fun r => r.setWidth 3) = some r ∧ A.dir st.fp.host r = d)
    (P : BitVec p.fmt.bits → Prop)
    (hP : P (fmaA A p o d (plainF p (st.fregs (rs1 w))) (plainF p (st.fregs (rs2 w))) (plainF p (st.fregs (rs3 w))))) :
    CarriesA A s w st q fun st' =>
      AccruesAll st st' (fmaFlagsA A p o d (plainF p (st.fregs (rs1 w))) (plainF p (st.fregs (rs2 w)))
        (plainF p (st.fregs (rs3 w)))) ∧ GivesF p st st' (rd w) P := by
  unfold okA at h
  simp only [Bool.and_eq_true, decide_eq_true_eq] at h
  obtain ⟨hs, ⟨⟨⟨⟨h1, h2⟩, h3⟩, h4⟩, h5⟩, h6⟩ := h
  obtain ⟨r, hr, hd⟩ := hm
  refine ⟨ternA A p o (rs1 w) (rs2 w) (rs3 w) (rd w) st (some r), ?_, ⟨accrues_rep ?_,
    gives_f p st _ (bits_le _) hb (rd w) _ P rfl ?_ hP⟩, rfl, ?_⟩
  · unfold carryA
    rw [hs]
    dsimp only
    rw [fsrc_rs1 s w _ _ h1, fsrc_rs2 s w _ _ h2, fsrc_rs3 s w _ _ h3, fdst_rd s w _ _ h5, modeAt_eq s w _ _ st h4, hr]
    have hf : hasFlags s q.ops = true := by
      unfold hasFlags
      rw [isOne_iff h6]
      show decide (s.dest .Fflags = some .flags) = true
      rw [dest_flags]; decide
    simp only [Option.bind_some, hf, if_true, Option.map_some]
  · rw [← hd]
    exact scope_rep hH _ _ _ _
  · rw [← hd]; rfl
  · exact scope_finv hH hv _ _ _

theorem plain_low (p : Prec) (r : BitVec 64) : NaNBox.Spec.Low p.fmt r (plainF p r) := by
  intro i hi
  show (r.setWidth p.fmt.bits).getLsbD i = _
  rw [BitVec.getLsbD_setWidth]; simp [hi]

theorem plain_reads (p : Prec) (r : BitVec 64) (h : p = .s → NaNBox.Spec.Boxed Fp.single r) :
    NaNBox.Spec.Reads p.fmt r (plainF p r) := by
  refine ⟨fun _ => plain_low p r, fun hn => absurd ?_ hn⟩
  cases p with
  | s => exact h rfl
  | d => intro i h1 h2; have : (64 : Nat) ≤ i := h1; omega

theorem reads_unique {f : Fp.Fmt} {r : BitVec 64} {a b : BitVec f.bits} (h1 : NaNBox.Spec.Reads f r a)
    (h2 : NaNBox.Spec.Reads f r b) : a = b := by
  by_cases h : NaNBox.Spec.Boxed f r
  · have ha := h1.1 h
    have hb := h2.1 h
    apply BitVec.eq_of_getLsbD_eq
    intro i hi
    rw [ha i hi, hb i hi]
  · rw [h1.2 h, h2.2 h]

include hi in
theorem fmaS_right (o : FpFma.Spec.Op) (d : Way) (a b c : BitVec Fp.single.bits)
    (hq : ¬ (FpArith.Spec.InfZero a b ∧ FpFma.Spec.NaN c)) :
    Right d (FpFma.Spec.fma d o.negProduct o.negAddend a b c) (fmaA A .s o d a b c) ∧
    FpFlags.Spec.Flags Fp.single after d (FpFma.Spec.fma d o.negProduct o.negAddend a b c)
      (FpArith.Spec.FmaInvalid o a b c) False (fmaFlagsA A .s o d a b c) :=
  FpFlags.C128_fma_single_partial hi.s o d a b c hq

include hi in
theorem fmaD_right (o : FpFma.Spec.Op) (d : Way) (a b c : BitVec Fp.double.bits)
    (hq : ¬ (FpArith.Spec.InfZero a b ∧ FpFma.Spec.NaN c)) (hw : ¬ WrongD d o a b c) :
    Right d (FpFma.Spec.fma d o.negProduct o.negAddend a b c) (fmaA A .d o d a b c) ∧
    FpFlags.Spec.Flags Fp.double after d (FpFma.Spec.fma d o.negProduct o.negAddend a b c)
      (FpArith.Spec.FmaInvalid o a b c) False (fmaFlagsA A .d o d a b c) := by
  unfold WrongD at hw
  simp only [not_or] at hw
  obtain ⟨sa, sb, sc, hz, hn, hm⟩ := hw
  have hsym : o.negProduct = true → FpFma.Symmetric d := by
    intro ho
    refine Classical.byContradiction fun h => hn ⟨ho, Or.inl h⟩
  refine ⟨?_, FpFlags.C128_fma_double_partial hi.d o d a b c sa sb sc hq hsym⟩
  have hop : FpFma.OppositeZeros o a b c → d ≠ .down := fun h hd => hz ⟨hd, ⟨h.1, h.2.1⟩, h.2.2⟩
  cases o with
  | madd => exact FpFma.C67_madd_double_partial hi.d.num.fma d a b c hop
  | msub => exact FpFma.C67_msub_double_partial hi.d.num.fma d a b c hop
  | nmadd =>
    exact FpFma.C67_nmadd_double_partial hi.d.num.fma d (hsym rfl) a b c fun h1 h2 h3 h4 h5 =>
      hn ⟨rfl, Or.inr ⟨h1, h2, h3, h4, h5⟩⟩
  | nmsub =>
    refine FpFma.C67_nmsub_double_partial hi.d.num.fma d (hsym rfl) a b c (fun h1 h2 h3 h4 h5 =>
      hn ⟨rfl, Or.inr ⟨h1, h2, h3, h4, h5⟩⟩) fun h1 h2 => ?_
    cases hc : c.msb
    · rfl
    · exact absurd ⟨rfl, ⟨h1, h2⟩, hc⟩ hm

include hH hi in
theorem fma_ok (hb : st.core.hart.branch = false) (hv : FInv st.fp) (p : Prec) (o : FpFma.Spec.Op)
    (h : okA (.fma p o) q = true) (d : Way)
    (hm : ∃ r, ((FpState.resolve st.fp (rmField w)).map fun r => r.setWidth 3) = some r ∧ A.dir st.fp.host r = d)
    (hw : ¬ WrongFma d p o w st) : CarriesA A s w st q (DoesA after d (.fma p o) w st) := by
  cases p with
  | s =>
    unfold WrongFma at hw
    simp only [not_or, Classical.not_not] at hw
    obtain ⟨b1, b2, b3, hq⟩ := hw
    have r1 := plain_reads .s (st.fregs (rs1 w)) fun _ => b1
    have r2 := plain_reads .s (st.fregs (rs2 w)) fun _ => b2
    have r3 := plain_reads .s (st.fregs (rs3 w)) fun _ => b3
    obtain ⟨c1, c2⟩ := fmaS_right hi o d _ _ _ (fun hh => hq ⟨_, _, _, r1, r2, r3, hh⟩)
    exact carriesA_mono (fma_any s w st q hH hb hv .s o h d hm _ c1) fun st' hd =>
      ⟨_, _, _, r1, r2, r3, _, c2, hd⟩
  | d =>
    have nb : ∀ r : BitVec 64, Prec.d = .s → NaNBox.Spec.Boxed Fp.single r := by intro r h; cases h
    have r1 := plain_reads .d (st.fregs (rs1 w)) (nb _)
    have r2 := plain_reads .d (st.fregs (rs2 w)) (nb _)
    have r3 := plain_reads .d (st.fregs (rs3 w)) (nb _)
    obtain ⟨c1, c2⟩ := fmaD_right hi o d (plainF .d (st.fregs (rs1 w))) (plainF .d (st.fregs (rs2 w)))
      (plainF .d (st.fregs (rs3 w))) (fun hh => hw ⟨_, _, _, r1, r2, r3, Or.inl hh⟩)
      (fun hh => hw ⟨_, _, _, r1, r2, r3, Or.inr hh⟩)
    exact carriesA_mono (fma_any s w st q hH hb hv .d o h d hm _ c1) fun st' hd =>
      ⟨_, _, _, r1, r2, r3, _, c2, hd⟩

/-! ## Without a rounding mode -/

/-- Sums, differences, products, quotients and fused multiply-adds are passed over. -/
theorem none_bin (hb : st.core.hart.branch = false) (hv : FInv st.fp) (p : Prec) (o : FpFlags.Spec.BinOp)
    (h : okA (.bin p o) q = true) (h7 : rmField w = 7#3) (hva : st.fp.valid = false) :
    CarriesA A s w st q fun st' => Passes st.core st'.core 4 ∧ Rest st st' ∧ st'.fregs = st.fregs ∧ st'.fp = st.fp := by
  unfold okA at h
  simp only [Bool.and_eq_true, decide_eq_true_eq] at h
  obtain ⟨hs, ⟨⟨h1, h2⟩, h3⟩, h4⟩ := h
  refine ⟨st, ?_, ⟨next_passes (bits_le _) st.core hb 4, ⟨rfl, rfl⟩, rfl, rfl⟩, rfl, hv⟩
  unfold carryA
  rw [hs]
  dsimp only
  rw [fsrc_rs1 s w _ _ h1, fsrc_rs2 s w _ _ h2, fdst_rd s w _ _ h4, modeAt_eq s w _ _ st h3]
  unfold FpState.resolve
  rw [if_pos h7, hva]
  rfl

theorem none_fma (hb : st.core.hart.branch = false) (hv : FInv st.fp) (p : Prec) (o : FpFma.Spec.Op)
    (h : okA (.fma p o) q = true) (h7 : rmField w = 7#3) (hva : st.fp.valid = false) :
    CarriesA A s w st q fun st' => Passes st.core st'.core 4 ∧ Rest st st' ∧ st'.fregs = st.fregs ∧ st'.fp = st.fp := by
  unfold okA at h
  simp only [Bool.and_eq_true, decide_eq_true_eq] at h
  obtain ⟨hs, ⟨⟨⟨⟨h1, h2⟩, h3⟩, h4⟩, h5⟩, h6⟩ := h
  refine ⟨st, ?_, ⟨next_passes (bits_le _) st.core hb 4, ⟨rfl, rfl⟩, rfl, rfl⟩, rfl, hv⟩
  unfold carryA
  rw [hs]
  dsimp only
  rw [fsrc_rs1 s w _ _ h1, fsrc_rs2 s w _ _ h2, fsrc_rs3 s w _ _ h3, fdst_rd s w _ _ h5, modeAt_eq s w _ _ st h4]
  have hf : hasFlags s q.ops = true := by
    unfold hasFlags
    rw [isOne_iff h6]
    show decide (s.dest .Fflags = some .flags) = true
    rw [dest_flags]; decide
  unfold FpState.resolve
  rw [if_pos h7, hva]
  simp only [Option.bind_some, hf, if_true, Option.map_some]
  rfl

/-- The square root of a positive number is the canonical NaN. -/
theorem none_sqrt (hb : st.core.hart.branch = false) (hv : FInv st.fp) (p : Prec)
    (h : okA (.sqrt p) q = true) (h7 : rmField w = 7#3) (hva : st.fp.valid = false)
    (a : BitVec p.fmt.bits) (ha : ValueF p st (rs1 w) a) (hn : ¬ FpFma.Spec.NaN a) (hz : ¬ FpFma.Spec.IsZero a)
    (hneg : a.msb = false) :
    CarriesA A s w st q fun st' => st'.fp = st.fp ∧ GivesF p st st' (rd w) fun v => v = Fp.canonicalNaN p.fmt := by
  unfold okA at h
  simp only [Bool.and_eq_true, decide_eq_true_eq] at h
  obtain ⟨hs, ⟨⟨h1, h2⟩, h3⟩, h4⟩ := h
  obtain rfl : operandF p (st.fregs (rs1 w)) = a := reads_unique (operandF_reads p _) ha
  have e : carryA A s w st q = sqrtA A s w q.ops p (operandF p (st.fregs (rs1 w))) (rd w) st := by
    unfold carryA
    rw [hs]
    dsimp only
    rw [fsrc_rs1 s w _ _ h1, fdst_rd s w _ _ h3]
    rfl
  unfold sqrtA at e
  have e1 : ¬ (Fp.isNaN (operandF p (st.fregs (rs1 w))) || FpArith.negative (operandF p (st.fregs (rs1 w)))) = true := by
    rw [Bool.or_eq_true]
    rintro (h | h)
    · rw [FpFma.isNaN_eq] at h; exact hn (of_decide_eq_true h)
    · rw [FpArith.negative_eq] at h
      simp [hneg] at h
  have e2 : ¬ Fp.isZero (operandF p (st.fregs (rs1 w))) = true := by
    intro h; rw [FpFma.isZero_eq] at h; exact hz (of_decide_eq_true h)
  rw [if_neg e1, if_neg e2, modeAt_eq s w _ _ st h2] at e
  unfold FpState.resolve at e
  rw [if_pos h7, hva] at e
  exact ⟨_, e, ⟨rfl, gives_f p st _ (bits_le _) hb (rd w) _ _ rfl rfl rfl⟩, rfl, hv⟩

include hH hi in
theorem ok_carriesA (hb : st.core.hart.branch = false) (hv : FInv st.fp) (k : ASem) (h : okA k q = true) (d : Way)
    (hm : ∃ r, ((FpState.resolve st.fp (rmField w)).map fun r => r.setWidth 3) = some r ∧ A.dir st.fp.host r = d)
    (hw : ¬ WrongK d k w st) : CarriesA A s w st q (DoesA after d k w st) := by
  cases k with
  | bin p o => exact bin_ok hH hi s w st q hb hv p o h d hm
  | sqrt p => exact sqrt_ok hH hi s w st q hb hv p h d hm
  | fma p o => exact fma_ok hH hi s w st q hb hv p o h d hm hw

end

end Verif.Exec
