import Verif.Exec.CsrStep
import Verif.Exec.Bits
import Verif.Exec.FpSpec
import Verif.FpMem.Props
import Verif.NaNBox.Props
import Verif.FpClass.Props
import Verif.FpState.Props

/-!
# What floating-point instructions that do not round do, from their descriptions
-/

namespace Verif.Exec

open Decode Decode.Isa Core Operands Spec

/-! ## Operands -/

def fSrcs : List Getters.Opd := [.Frs1, .Drs1, .Frs2, .Drs2]
def fDsts : List Getters.Opd := [.Frd, .Drd]

theorem source_okF (s : Sim) (o : Getters.Opd) (ho : o ∈ fSrcs) (w : Nat) :
    ∃ g m, s.source o = some g ∧ Getters.Spec.source o = some m ∧
      Getters.Spec.Reads w (g.source w) m := by
  have t : fSrcs.all (fun o => s.isa.enc.any fun e =>
      (e.source o).isSome && !Getters.oddSource e o) = true := by
    cases s <;> decide +kernel
  have h := List.all_eq_true.1 t o ho
  unfold Sim.source
  cases he : s.isa.enc with
  | none => rw [he] at h; simp at h
  | some e =>
    rw [he] at h
    simp only [Option.any_some, Bool.and_eq_true, Bool.not_eq_true'] at h
    obtain ⟨g, hg⟩ := Option.isSome_iff_exists.1 h.1
    obtain ⟨m, hm, hr⟩ := Getters.C84_source_partial e o g hg h.2 w
    exact ⟨g, m, hg, hm, hr⟩

theorem dest_okF (s : Sim) (o : Getters.Opd) (ho : o ∈ fDsts) (w : Nat) :
    ∃ g m, s.dest o = some g ∧ Getters.Spec.dest o = some m ∧
      Getters.Spec.Writes w (g.dest w) m := by
  have t : fDsts.all (fun o => s.isa.enc.any fun e =>
      (e.dest o).isSome && !Getters.oddDest e o) = true := by
    cases s <;> decide +kernel
  have h := List.all_eq_true.1 t o ho
  unfold Sim.dest
  cases he : s.isa.enc with
  | none => rw [he] at h; simp at h
  | some e =>
    rw [he] at h
    simp only [Option.any_some, Bool.and_eq_true, Bool.not_eq_true'] at h
    obtain ⟨g, hg⟩ := Option.isSome_iff_exists.1 h.1
    obtain ⟨m, hm, hr⟩ := Getters.C84_dest_partial e o g hg h.2 (by
      revert ho; clear h hg t; unfold fDsts; cases o <;> decide) w
    exact ⟨g, m, hg, hm, hr⟩

theorem dest_flags (s : Sim) : s.dest .Fflags = some .flags := by cases s <;> decide +kernel

def isOne (a : Option Arg) (o : Getters.Opd) : Bool := decide (a = some (.one o))

def isFrs1 (a : Option Arg) : Bool := isOne a .Frs1 || isOne a .Drs1
def isFrs2 (a : Option Arg) : Bool := isOne a .Frs2 || isOne a .Drs2
def isFrd (a : Option Arg) : Bool := isOne a .Frd || isOne a .Drd

theorem isOne_iff {a : Option Arg} {o : Getters.Opd} (h : isOne a o = true) : a = some (.one o) := by
  unfold isOne at h; simpa using h

theorem fsrc_of (s : Sim) (w : Nat) (a : Act) (k : Nat) (o : Getters.Opd) (ho : o ∈ fSrcs)
    (b : List (Nat × Nat)) (hm : Getters.Spec.source o = some (.f b)) (h : a.srcs[k]? = some (.one o)) :
    fsrcAt s w a k = some (BitVec.ofNat 5 (Getters.Spec.unsigned w (Getters.Spec.positions b))) := by
  obtain ⟨g, m, hg, hm', hr⟩ := source_okF s o ho w
  obtain rfl : Getters.Spec.Meaning.f b = m := Option.some.inj (hm.symm.trans hm')
  have hr' : g.source w = .f (Getters.Spec.unsigned w (Getters.Spec.positions b)) := hr
  unfold fsrcAt
  rw [h]
  show ((s.source o).bind fun g => fregNo (g.source w)) = _
  rw [hg, Option.bind_some, hr']
  rfl

theorem fsrc_rs1 (s : Sim) (w : Nat) (a : Act) (k : Nat) (h : isFrs1 a.srcs[k]? = true) :
    fsrcAt s w a k = some (rs1 w) := by
  unfold isFrs1 at h
  rw [Bool.or_eq_true] at h
  rcases h with h | h
  · exact fsrc_of s w a k .Frs1 (by decide) _ rfl (isOne_iff h)
  · exact fsrc_of s w a k .Drs1 (by decide) _ rfl (isOne_iff h)

theorem fsrc_rs2 (s : Sim) (w : Nat) (a : Act) (k : Nat) (h : isFrs2 a.srcs[k]? = true) :
    fsrcAt s w a k = some (rs2 w) := by
  unfold isFrs2 at h
  rw [Bool.or_eq_true] at h
  rcases h with h | h
  · exact fsrc_of s w a k .Frs2 (by decide) _ rfl (isOne_iff h)
  · exact fsrc_of s w a k .Drs2 (by decide) _ rfl (isOne_iff h)

theorem fdst_of (s : Sim) (w : Nat) (a : Act) (k : Nat) (o : Getters.Opd) (ho : o ∈ fDsts)
    (b : List (Nat × Nat)) (hm : Getters.Spec.dest o = some (.f b)) (h : a.dsts[k]? = some (.one o)) :
    fdstAt s w a k = some (BitVec.ofNat 5 (Getters.Spec.unsigned w (Getters.Spec.positions b))) := by
  obtain ⟨g, m, hg, hm', hr⟩ := dest_okF s o ho w
  obtain rfl : Getters.Spec.Meaning.f b = m := Option.some.inj (hm.symm.trans hm')
  have hr' : g.dest w = .f (Getters.Spec.unsigned w (Getters.Spec.positions b)) := hr
  unfold fdstAt
  rw [h]
  show ((s.dest o).bind fun g => fregNo (g.dest w)) = _
  rw [hg, Option.bind_some, hr']
  rfl

theorem fdst_rd (s : Sim) (w : Nat) (a : Act) (k : Nat) (h : isFrd a.dsts[k]? = true) :
    fdstAt s w a k = some (rd w) := by
  unfold isFrd at h
  rw [Bool.or_eq_true] at h
  rcases h with h | h
  · exact fdst_of s w a k .Frd (by decide) _ rfl (isOne_iff h)
  · exact fdst_of s w a k .Drd (by decide) _ rfl (isOne_iff h)

/-! ## The right description -/

/-- The second part of a load of `bytes` bytes. -/
def rightBack (bytes : Nat) (b : FpMem.Back) : Bool :=
  (decide (bytes = 4) && decide (b = .box 4)) || (decide (bytes = 8) && decide (b = .whole))

/-- The description an instruction should have. -/
def okF (k : FSem) (p : FAct) : Bool :=
  decide (p.sem = k) &&
  match k with
  | .load bytes => p.back.any fun q => rightBack bytes q.1 && isOne p.ops.srcs[0]? .Rs1 &&
      isOne p.ops.srcs[1]? .IImm12 && isFrd q.2.dsts[0]?
  | .store bytes => (bytes == 4 || bytes == 8) && p.back.isNone && isOne p.ops.srcs[0]? .Rs1 &&
      isOne p.ops.srcs[1]? .SImm12 && isFrs2 p.ops.srcs[2]?
  | .sign _ _ => p.back.isNone && isFrs1 p.ops.srcs[0]? && isFrs2 p.ops.srcs[1]? && isFrd p.ops.dsts[0]?
  | .minMax _ _ => p.back.isNone && isFrs1 p.ops.srcs[0]? && isFrs2 p.ops.srcs[1]? && isFrd p.ops.dsts[0]? &&
      isOne p.ops.dsts[1]? .Fflags
  | .cmp _ _ => p.back.isNone && isFrs1 p.ops.srcs[0]? && isFrs2 p.ops.srcs[1]? && isOne p.ops.dsts[0]? .Rd &&
      isOne p.ops.dsts[1]? .Fflags
  | .classify _ | .toX _ => p.back.isNone && isFrs1 p.ops.srcs[0]? && isOne p.ops.dsts[0]? .Rd
  | .fromX _ => p.back.isNone && isOne p.ops.srcs[0]? .Rs1 && isFrd p.ops.dsts[0]?

/-! ## Values -/

theorem operandF_reads (p : Prec) (r : BitVec 64) : NaNBox.Spec.Reads p.fmt r (operandF p r) := by
  cases p with
  | s => exact NaNBox.C37_read 64 Fp.single (by decide) r
  | d =>
    refine ⟨fun _ i hi => ?_, fun h => absurd (fun i h1 h2 => ?_) h⟩
    · show (r.setWidth 64).getLsbD i = _
      rw [BitVec.setWidth_eq]
    · have : (64 : Nat) ≤ i := h1
      omega

theorem low_plain (r : BitVec 64) : NaNBox.Spec.Low Fp.single r (NaNBox.plainSource Fp.single r) := by
  intro i hi
  show (r.setWidth Fp.single.bits).getLsbD i = _
  rw [BitVec.getLsbD_setWidth]; simp [hi]

theorem operandC_reads (x : Xlen) (p : Prec) (r : BitVec 64)
    (h : p = .s → x = .rv32 → NaNBox.Spec.Boxed Fp.single r) :
    NaNBox.Spec.Reads p.fmt r (operandC x.bits p r) := by
  cases p with
  | d => exact operandF_reads .d r
  | s =>
    cases x with
    | rv64 => exact operandF_reads .s r
    | rv32 =>
      have hb := h rfl rfl
      have e : operandC (Xlen.bits .rv32) .s r = NaNBox.plainSource Fp.single r := by
        show NaNBox.boxedSource 32 Fp.single r = _
        unfold NaNBox.boxedSource
        rw [if_pos (by decide)]
      refine ⟨fun _ => ?_, fun hn => absurd hb hn⟩
      rw [e]; exact low_plain r

theorem resultF_writes (p : Prec) (v : BitVec p.fmt.bits) : NaNBox.Spec.Writes p.fmt (resultF p v) v := by
  cases p with
  | s => exact NaNBox.C37_write_partial 64 Fp.single (by decide) (by decide) v
  | d =>
    refine ⟨fun i h1 h2 => ?_, fun i hi => ?_⟩
    · have : (64 : Nat) ≤ i := h1
      omega
    · show _ = (BitVec.setWidth 64 v).getLsbD i
      have : i < 64 := hi
      rw [BitVec.getLsbD_setWidth]; simp [this]

theorem signF_bit (o : SignOp) {f : Fp.Fmt} (a b : BitVec f.bits) (i : Nat) (hi : i < f.bits) :
    (signF o a b).getLsbD i =
      if i = f.bits - 1 then newSign o (a.getLsbD i) (b.getLsbD i) else a.getLsbD i := by
  obtain ⟨h1, h2, h3⟩ := FpClass.C40_sgnj a b i hi
  cases o
  · exact h1
  · exact h2
  · exact h3

theorem minMaxF_ok (p : Prec) (m : Bool) (a b : BitVec p.fmt.bits) :
    Extreme m a b (minMaxF p m a b).1 ∧
    ((minMaxF p m a b).2 = 16 ↔ FpClass.Spec.Is a .sNaN ∨ FpClass.Spec.Is b .sNaN) ∧
    ((minMaxF p m a b).2 = 16 ∨ (minMaxF p m a b).2 = 0) := by
  cases m with
  | false =>
    obtain ⟨h1, h2, h3, h4, h5, h6⟩ := FpClass.C40_fmin a b
    exact ⟨⟨h1, h2, h3, fun x y => ⟨(h4 x y).1, fun _ => (h4 x y).2, fun h => Bool.noConfusion h⟩⟩, h5, h6⟩
  | true =>
    cases p with
    | s =>
      obtain ⟨h1, h2, h3, h4, h5, h6⟩ := FpClass.C40_fmax a b
      exact ⟨⟨h1, h2, h3, fun x y => ⟨(h4 x y).1, fun h => Bool.noConfusion h, fun _ => (h4 x y).2⟩⟩, h5, h6⟩
    | d =>
      obtain ⟨h1, h2, h3, h4, h5, h6⟩ := FpClass.C40_dmax a b
      exact ⟨⟨h1, h2, h3, fun x y => ⟨(h4 x y).1, fun h => Bool.noConfusion h, fun _ => (h4 x y).2⟩⟩, h5, h6⟩

theorem cmpF_ok (o : CmpOp) {f : Fp.Fmt} (a b : BitVec f.bits) :
    ((cmpF o a b).1 = true ↔ Compares o a b) ∧ ((cmpF o a b).2 = 16 ↔ InvalidCmp o a b) ∧
    ((cmpF o a b).2 = 16 ∨ (cmpF o a b).2 = 0) := by
  obtain ⟨h1, h2, h3, h4, h5, h6, h7, h8⟩ := FpClass.C40_compare a b
  cases o with
  | eq => exact ⟨h1, h4, h5⟩
  | lt => exact ⟨h2, h6, h7⟩
  | le =>
    refine ⟨h3, ?_, ?_⟩
    · show (FpClass.fle a b).2 = 16 ↔ _
      rw [h8]; exact h6
    · show (FpClass.fle a b).2 = 16 ∨ (FpClass.fle a b).2 = 0
      rw [h8]; exact h7

/-! ## Flags -/

variable {n : Nat} {ρ : Type} {H : FpState.Host}

theorem submit_ok (hH : FpState.HostOk H) (s : Sim) (a : Act) (k flags : Nat) (nv : Prop)
    (h : a.dsts[k]? = some (.one .Fflags)) (hf : flags = 16 ↔ nv) (h01 : flags = 16 ∨ flags = 0)
    (st : FSt n ρ H) :
    ∃ st', submit s a k flags st = some st' ∧ st'.x = st.x ∧ st'.fregs = st.fregs ∧ Accrues st st' nv := by
  rcases h01 with rfl | rfl
  · refine ⟨{ st with fp := FpState.step st.fp (.fflagsSet (BitVec.ofNat 32 16)) }, ?_, rfl, rfl, ?_⟩
    · unfold submit
      rw [if_neg (by decide), h]
      show (if s.dest .Fflags = some .flags then _ else _) = _
      rw [dest_flags, if_pos rfl]
    · have hr : FpState.Rep st.fp ⟨st.fp.stored.extractLsb' 5 3, (H.get st.fp.host).setWidth 5⟩ := ⟨rfl, rfl⟩
      have hr' := FpState.step_rep hH st.fp _ hr (.fflagsSet (BitVec.ofNat 32 16)) trivial
      refine ⟨?_, fun _ => ?_, fun hn => absurd (hf.1 rfl) hn⟩
      · show FpState.frmRead (FpState.step st.fp _) = _
        rw [FpState.frm_read _ _ hr', FpState.frm_read _ _ hr]
        rfl
      · show FpState.fflagsRead (FpState.step st.fp _) = _
        rw [FpState.fflags_read _ _ hr', FpState.fflags_read _ _ hr]
        show BitVec.setWidth 32 (_ ||| BitVec.setWidth 5 _) = _
        rw [BitVec.setWidth_or]
        rfl
  · exact ⟨st, rfl, rfl, rfl, rfl, fun h => absurd (hf.2 h) (by decide), fun _ => rfl⟩

/-! ## Effects -/

theorem unitOff_iff (st : FSt n ρ H) : unitOff st = true ↔ OffF st := by
  unfold unitOff
  rw [decide_eq_true_iff]
  exact FpMem.fs_zero_iff ⟨st.core, st.fregs⟩

/-- The part of the state after the semantic function that later turns need. -/
def Sound (st st₁ : FSt n ρ H) : Prop :=
  Hart.HInv st₁.core.hart ∧ st₁.core.regs 0#5 = st.core.regs 0#5

/-- A function that is carried out, and what the turn does. -/
def CarriesF (s : Sim) (w : Nat) (st : FSt s.xlen.bits ρ H) (p : FAct)
    (Q : FSt s.xlen.bits ρ H → Prop) : Prop :=
  ∃ st₁, carryF s w (st.core.hart.pc.setWidth 64) st p = some st₁ ∧
    Q (closeF st₁ (st.core.hart.pc.setWidth 64) 4) ∧ Sound st st₁

theorem one_toNat (x : Xlen) : (1#x.bits).toNat = 1 := by cases x <;> rfl
theorem zero_toNat (x : Xlen) : (0#x.bits).toNat = 0 := by cases x <;> rfl

/-- The turn of an instruction that writes a floating-point register. -/
theorem gives_f (p : Prec) (st st₁ : FSt n ρ H) (hn : n ≤ 64) (hb : st.core.hart.branch = false) (d : BitVec 5)
    (v : BitVec p.fmt.bits) (P : BitVec p.fmt.bits → Prop) (hx : st₁.x = st.x)
    (hf : st₁.fregs = (st.setF d (resultF p v)).fregs) (h : P v) :
    GivesF p st (closeF st₁ (st.core.hart.pc.setWidth 64) 4) d P := by
  have hc : st₁.core = st.core := congrArg (fun x => x.base.core) hx
  refine ⟨?_, ⟨?_, ?_⟩, fun q hq => ?_, v, h, ?_⟩
  · show Passes st.core (next st₁.core _ 4) 4
    rw [hc]; exact next_passes hn st.core hb 4
  · show st₁.x.base.resv = _
    rw [hx]
  · show st₁.x.csrs = _
    rw [hx]
  · show st₁.fregs q = _
    rw [hf]; exact if_neg hq
  · show NaNBox.Spec.Writes _ (st₁.fregs d) v
    rw [hf]
    show NaNBox.Spec.Writes _ (if d = d then _ else _) v
    rw [if_pos rfl]; exact resultF_writes p v

/-- The turn of an instruction that writes an integer register. -/
theorem gives_x (st st₁ : FSt n ρ H) (hn : n ≤ 64) (hb : st.core.hart.branch = false) (d : BitVec 5)
    (v : BitVec n) (P : BitVec n → Prop) (hx : st₁.x = st.x) (hf : st₁.fregs = st.fregs) (h : P v) :
    GivesX st (closeF (st₁.withCore { st₁.core with regs := Regs.write st₁.core.regs d v })
      (st.core.hart.pc.setWidth 64) 4) d P := by
  have hc : st₁.core = st.core := congrArg (fun x => x.base.core) hx
  refine ⟨?_, ⟨?_, ?_⟩, hf⟩
  · show Computes st.core (next { st₁.core with regs := Regs.write st₁.core.regs d v } _ 4) _ P
    rw [hc]; exact computes_put hn st.core hb { rd := d, size := 4 } v P h
  · show st₁.x.base.resv = _
    rw [hx]
  · show st₁.x.csrs = _
    rw [hx]

theorem accrues_close {st st₁ : FSt n ρ H} {nv : Prop} (h : Accrues st st₁ nv) (pc : BitVec 64) (size : Nat) :
    Accrues st (closeF st₁ pc size) nv := h

section
variable (s : Sim) (w : Nat) (st : FSt s.xlen.bits ρ H) (p : FAct)

theorem putX_rd (a : Act) (st₁ : FSt s.xlen.bits ρ H) (v : BitVec s.xlen.bits) (h : a.dsts[0]? = some (.one .Rd)) :
    putX s w a v st₁ = some (st₁.withCore { st₁.core with regs := Regs.write st₁.core.regs (rd w) v }) := by
  obtain ⟨d, hd, hp⟩ := puts_rd s w a 0 h
  unfold putX
  rw [hd, Option.bind_some, hp, Option.map_some]

theorem sign_ok (hb : st.core.hart.branch = false) (hi : Hart.HInv st.core.hart) (q : Prec) (o : SignOp)
    (h : okF (.sign q o) p = true) : CarriesF s w st p (DoesF (.sign q o) w st) := by
  unfold okF at h
  simp only [Bool.and_eq_true, decide_eq_true_eq, Option.isNone_iff_eq_none] at h
  obtain ⟨hs, ⟨⟨hk, h1⟩, h2⟩, h3⟩ := h
  refine ⟨st.setF (rd w) (resultF q (signF o (operandF q (st.fregs (rs1 w))) (operandF q (st.fregs (rs2 w))))), ?_,
    ⟨_, _, operandF_reads q _, operandF_reads q _, rfl,
    gives_f q st _ (bits_le _) hb (rd w) (signF o (operandF q (st.fregs (rs1 w))) (operandF q (st.fregs (rs2 w)))) _
      rfl rfl fun i hi => signF_bit o _ _ i hi⟩, hi, rfl⟩
  unfold carryF
  rw [hs, hk]
  show oneF s w _ p.ops st (.sign q o) = _
  unfold oneF
  simp only [fsrc_rs1 s w _ _ h1, fsrc_rs2 s w _ _ h2, fdst_rd s w _ _ h3, Option.bind_some, Option.map_some]

theorem minMax_ok (hH : FpState.HostOk H) (hb : st.core.hart.branch = false) (hi : Hart.HInv st.core.hart)
    (q : Prec) (m : Bool) (h : okF (.minMax q m) p = true) : CarriesF s w st p (DoesF (.minMax q m) w st) := by
  unfold okF at h
  simp only [Bool.and_eq_true, decide_eq_true_eq, Option.isNone_iff_eq_none] at h
  obtain ⟨hs, ⟨⟨⟨hk, h1⟩, h2⟩, h3⟩, h4⟩ := h
  obtain ⟨hm, hf, h01⟩ := minMaxF_ok q m (operandF q (st.fregs (rs1 w))) (operandF q (st.fregs (rs2 w)))
  obtain ⟨st₁, e1, e2, e3, e4⟩ := submit_ok hH s p.ops 1 _ _ (isOne_iff h4) hf h01
    (st.setF (rd w) (resultF q (minMaxF q m (operandF q (st.fregs (rs1 w))) (operandF q (st.fregs (rs2 w)))).1))
  have hc : st₁.core = st.core := congrArg (fun x => x.base.core) e2
  refine ⟨st₁, ?_, ⟨_, _, operandF_reads q _, operandF_reads q _, accrues_close e4 _ _,
    gives_f q st st₁ (bits_le _) hb (rd w) _ _ e2 e3 hm⟩, ?_, ?_⟩
  · unfold carryF
    rw [hs, hk]
    show oneF s w _ p.ops st (.minMax q m) = _
    unfold oneF
    simp only [fsrc_rs1 s w _ _ h1, fsrc_rs2 s w _ _ h2, fdst_rd s w _ _ h3, Option.bind_some]
    exact e1
  · rw [hc]; exact hi
  · rw [hc]

/-- A comparison of whatever the operands are taken to be. -/
theorem cmp_any (hH : FpState.HostOk H) (hb : st.core.hart.branch = false) (hi : Hart.HInv st.core.hart)
    (q : Prec) (o : CmpOp) (h : okF (.cmp q o) p = true) :
    CarriesF s w st p fun st' =>
      Accrues st st' (InvalidCmp o (operandC s.xlen.bits q (st.fregs (rs1 w))) (operandC s.xlen.bits q (st.fregs (rs2 w)))) ∧
      GivesX st st' (rd w) fun v =>
        (Compares o (operandC s.xlen.bits q (st.fregs (rs1 w))) (operandC s.xlen.bits q (st.fregs (rs2 w))) →
          v.toNat = 1) ∧
        (¬ Compares o (operandC s.xlen.bits q (st.fregs (rs1 w))) (operandC s.xlen.bits q (st.fregs (rs2 w))) →
          v.toNat = 0) := by
  unfold okF at h
  simp only [Bool.and_eq_true, decide_eq_true_eq, Option.isNone_iff_eq_none] at h
  obtain ⟨hs, ⟨⟨⟨hk, h1⟩, h2⟩, h3⟩, h4⟩ := h
  obtain ⟨hm, hf, h01⟩ := cmpF_ok o (operandC s.xlen.bits q (st.fregs (rs1 w))) (operandC s.xlen.bits q (st.fregs (rs2 w)))
  obtain ⟨st₁, e1, e2, e3, e4⟩ := submit_ok hH s p.ops 1 _ _ (isOne_iff h4) hf h01 st
  have hc : st₁.core = st.core := congrArg (fun x => x.base.core) e2
  generalize hv : (if (cmpF o (operandC s.xlen.bits q (st.fregs (rs1 w))) (operandC s.xlen.bits q (st.fregs (rs2 w)))).1
    then 1#s.xlen.bits else 0#s.xlen.bits) = v
  have hP : (Compares o (operandC s.xlen.bits q (st.fregs (rs1 w))) (operandC s.xlen.bits q (st.fregs (rs2 w))) →
      v.toNat = 1) ∧ (¬ Compares o (operandC s.xlen.bits q (st.fregs (rs1 w))) (operandC s.xlen.bits q (st.fregs (rs2 w))) →
      v.toNat = 0) := by
    subst hv
    constructor
    · intro hy; rw [if_pos (hm.2 hy), one_toNat]
    · intro hn; rw [if_neg (fun h => hn (hm.1 h)), zero_toNat]
  refine ⟨st₁.withCore { st₁.core with regs := Regs.write st₁.core.regs (rd w) v }, ?_, ⟨?_,
    gives_x st st₁ (bits_le _) hb (rd w) v _ e2 e3 hP⟩, ?_, ?_⟩
  · unfold carryF
    rw [hs, hk]
    show oneF s w _ p.ops st (.cmp q o) = _
    unfold oneF
    simp only [fsrc_rs1 s w _ _ h1, fsrc_rs2 s w _ _ h2, Option.bind_some]
    rw [e1, Option.bind_some, hv]
    exact putX_rd s w p.ops st₁ _ (isOne_iff h3)
  · exact e4
  · show Hart.HInv st₁.core.hart
    rw [hc]; exact hi
  · show Regs.write st₁.core.regs _ _ 0#5 = _
    rw [write_zero, hc]

theorem carriesF_mono {s : Sim} {w : Nat} {st : FSt s.xlen.bits ρ H} {p : FAct} {P Q : FSt s.xlen.bits ρ H → Prop}
    (h : CarriesF s w st p P) (hpq : ∀ st', P st' → Q st') : CarriesF s w st p Q := by
  obtain ⟨st₁, e1, e2, e3⟩ := h
  exact ⟨st₁, e1, hpq _ e2, e3⟩

theorem cmp_ok (hH : FpState.HostOk H) (hb : st.core.hart.branch = false) (hi : Hart.HInv st.core.hart)
    (q : Prec) (o : CmpOp) (h : okF (.cmp q o) p = true) (hw : ¬ WrongF s.xlen (.cmp q o) w st) :
    CarriesF s w st p (DoesF (.cmp q o) w st) := by
  have r1 : NaNBox.Spec.Reads q.fmt (st.fregs (rs1 w)) (operandC s.xlen.bits q (st.fregs (rs1 w))) := by
    refine operandC_reads s.xlen q _ fun e1 e2 => Classical.not_not.1 fun hn => hw ?_
    subst e1; exact ⟨e2, .inl hn⟩
  have r2 : NaNBox.Spec.Reads q.fmt (st.fregs (rs2 w)) (operandC s.xlen.bits q (st.fregs (rs2 w))) := by
    refine operandC_reads s.xlen q _ fun e1 e2 => Classical.not_not.1 fun hn => hw ?_
    subst e1; exact ⟨e2, .inr hn⟩
  exact carriesF_mono (cmp_any s w st p hH hb hi q o h) fun st' hd => ⟨_, _, r1, r2, hd⟩

/-- `c` with `v` in register `d`. -/
abbrev wreg (c : Core s.xlen.bits) (d : BitVec 5) (v : BitVec s.xlen.bits) : Core s.xlen.bits :=
  { c with regs := Regs.write c.regs d v }

theorem class_value {f : Fp.Fmt} (he : 0 < f.e) (hs : 0 < f.s) (x : Xlen) (u : BitVec f.bits) (v : BitVec x.bits)
    (h : v = BitVec.ofNat x.bits (FpClass.classify u)) : ∃ c, FpClass.Spec.Is u c ∧ v.toNat = 2 ^ c.bit := by
  obtain ⟨c, hc, _⟩ := FpClass.C40_fclass_total he hs u
  refine ⟨c, hc, ?_⟩
  have hl := FpClass.classify_lt u
  rw [h, BitVec.toNat_ofNat, Nat.mod_eq_of_lt (Nat.lt_of_lt_of_le hl
    (Nat.le_trans (by decide : 1024 ≤ 2 ^ 32) (Nat.pow_le_pow_right (by decide) (bits_32 x))))]
  exact (FpClass.C40_fclass he hs u c).2 hc

theorem classF_ok (x : Xlen) (q : Prec) (old : BitVec x.bits) (r : BitVec 64)
    (h1 : q = .s → NaNBox.Spec.Boxed Fp.single r) (h2 : q = .s → x = .rv64 → old.toNat < 2 ^ 32) :
    ∃ u, NaNBox.Spec.Reads q.fmt r u ∧ ∃ c, FpClass.Spec.Is u c ∧ (classF x q old r).toNat = 2 ^ c.bit := by
  cases q with
  | d =>
    refine ⟨_, operandF_reads .d r, class_value (by decide) (by decide) x _ _ ?_⟩
    cases x
    · exact FpClass.C40_fclass_write old _
    · exact FpClass.C40_fclass_write old _
  | s =>
    refine ⟨NaNBox.plainSource Fp.single r, ⟨fun _ => low_plain r, fun hn => absurd (h1 rfl) hn⟩,
      class_value (by decide) (by decide) x _ _ ?_⟩
    cases x
    · exact FpClass.C40_fclass_write old _
    · exact (FpClass.C40_fclass_rv64_violated old _).2 (h2 rfl rfl)

theorem classify_any (hb : st.core.hart.branch = false) (hi : Hart.HInv st.core.hart) (q : Prec)
    (h : okF (.classify q) p = true) (P : BitVec s.xlen.bits → Prop)
    (hP : P (classF s.xlen q (X st.core (rd w)) (st.fregs (rs1 w)))) :
    CarriesF s w st p fun st' => st'.fp = st.fp ∧ GivesX st st' (rd w) P := by
  unfold okF at h
  simp only [Bool.and_eq_true, decide_eq_true_eq, Option.isNone_iff_eq_none] at h
  obtain ⟨hs, ⟨hk, h1⟩, h2⟩ := h
  obtain ⟨d, hd, hp⟩ := puts_rd s w p.ops 0 (isOne_iff h2)
  have hbf := before_rd s w st.core p.ops (isOne_iff h2) d hd
  refine ⟨st.withCore (wreg s st.core (rd w) (classF s.xlen q (X st.core (rd w)) (st.fregs (rs1 w)))), ?_,
    ⟨rfl, gives_x st st (bits_le _) hb (rd w) _ _ rfl rfl hP⟩, hi, write_zero _ _ _⟩
  unfold carryF
  rw [hs, hk]
  show oneF s w _ p.ops st (.classify q) = _
  unfold oneF
  simp only [fsrc_rs1 s w _ _ h1, Option.bind_some, hd, hbf, hp, Option.map_some]

theorem classify_ok (hb : st.core.hart.branch = false) (hi : Hart.HInv st.core.hart) (q : Prec)
    (h : okF (.classify q) p = true) (hw : ¬ WrongF s.xlen (.classify q) w st) :
    CarriesF s w st p (DoesF (.classify q) w st) := by
  obtain ⟨u, hu, hc⟩ := classF_ok s.xlen q (X st.core (rd w)) (st.fregs (rs1 w))
    (fun e => Classical.not_not.1 fun hn => hw (by subst e; exact .inl hn))
    (fun e e2 => Nat.lt_of_not_le fun hn => hw (by subst e; exact .inr ⟨e2, hn⟩))
  exact carriesF_mono (classify_any s w st p hb hi q h _ hc) fun st' hd => ⟨u, hu, hd⟩

/-- What `fclass.s` writes in any case. -/
theorem writeLow_nat (old : BitVec 64) (c : Nat) (hc : c < 2 ^ 32) :
    (FpClass.writeLow 32 old (BitVec.ofNat 64 c)).toNat = c + old.toNat / 2 ^ 32 * 2 ^ 32 := by
  have e : FpClass.writeLow 32 old (BitVec.ofNat 64 c) = (old.extractLsb' 32 32 ++ BitVec.ofNat 32 c) := by
    apply BitVec.eq_of_getLsbD_eq
    intro i hi
    unfold FpClass.writeLow
    rw [BitVec.getLsbD_append]
    simp only [BitVec.getLsbD_or, BitVec.getLsbD_and, BitVec.getLsbD_not, BitVec.getLsbD_shiftLeft,
      BitVec.getLsbD_allOnes, BitVec.getLsbD_ofNat, BitVec.getLsbD_extractLsb', hi, decide_true, Bool.true_and]
    by_cases h : i < 32
    · simp [h]
    · have : c.testBit i = false := Nat.testBit_lt_two_pow (Nat.lt_of_lt_of_le hc (Nat.pow_le_pow_right (by decide) (by omega)))
      simp [h, this, show i - 32 < 64 by omega, show i - 32 < 32 by omega, show 32 + (i - 32) = i by omega]
  rw [e, BitVec.toNat_append, ← Nat.shiftLeft_add_eq_or_of_lt (BitVec.isLt _), BitVec.extractLsb'_toNat,
    BitVec.toNat_ofNat, Nat.mod_eq_of_lt hc, Nat.shiftLeft_eq, Nat.shiftRight_eq_div_pow]
  have := old.isLt
  rw [Nat.mod_eq_of_lt (by omega)]
  omega

theorem classS_any (x : Xlen) (old : BitVec x.bits) (r : BitVec 64) :
    ∃ c, FpClass.Spec.Is (NaNBox.plainSource Fp.single r) c ∧
      (classF x .s old r).toNat = 2 ^ c.bit + old.toNat / 2 ^ 32 * 2 ^ 32 := by
  obtain ⟨c, hc, _⟩ := FpClass.C40_fclass_total (f := Fp.single) (by decide) (by decide) (NaNBox.plainSource Fp.single r)
  refine ⟨c, hc, ?_⟩
  have hv := (FpClass.C40_fclass (f := Fp.single) (by decide) (by decide) (NaNBox.plainSource Fp.single r) c).2 hc
  have hl := FpClass.classify_lt (NaNBox.plainSource Fp.single r)
  cases x with
  | rv64 =>
    rw [← hv]
    exact writeLow_nat old _ (by omega)
  | rv32 =>
    have h0 : old.toNat / 2 ^ 32 = 0 := Nat.div_eq_of_lt old.isLt
    rw [h0, Nat.zero_mul, Nat.add_zero, ← hv]
    show (FpClass.fclassFull old (NaNBox.plainSource Fp.single r)).toNat = _
    rw [FpClass.C40_fclass_write old _, BitVec.toNat_ofNat]
    exact Nat.mod_eq_of_lt (Nat.lt_of_lt_of_le hl (by decide))

theorem toX_ok (hb : st.core.hart.branch = false) (hi : Hart.HInv st.core.hart) (q : Prec)
    (h : okF (.toX q) p = true) (h64 : q = .d → s.xlen = .rv64) : CarriesF s w st p (DoesF (.toX q) w st) := by
  unfold okF at h
  simp only [Bool.and_eq_true, decide_eq_true_eq, Option.isNone_iff_eq_none] at h
  obtain ⟨hs, ⟨hk, h1⟩, h2⟩ := h
  have e : carryF s w (st.core.hart.pc.setWidth 64) st p = 
      some (st.withCore (wreg s st.core (rd w) (toXF s.xlen.bits q (st.fregs (rs1 w))))) := by
    unfold carryF
    rw [hs, hk]
    show oneF s w _ p.ops st (.toX q) = _
    unfold oneF
    simp only [fsrc_rs1 s w _ _ h1, Option.bind_some]
    exact putX_rd s w p.ops st _ (isOne_iff h2)
  refine ⟨_, e, ?_, hi, write_zero _ _ _⟩
  cases q with
  | s =>
    refine ⟨rfl, gives_x st st (bits_le _) hb (rd w) _ _ rfl rfl ?_⟩
    show (BitVec.signExtend s.xlen.bits (BitVec.setWidth 32 (st.fregs (rs1 w)))).toInt = _
    rw [BitVec.toInt_signExtend_of_le (bits_32 _), BitVec.toInt_setWidth]
  | d =>
    refine ⟨rfl, gives_x st st (bits_le _) hb (rd w) _ _ rfl rfl ?_⟩
    show (BitVec.setWidth s.xlen.bits (st.fregs (rs1 w))).toNat = _
    have h64' : s.xlen.bits = 64 := congrArg Xlen.bits (h64 rfl)
    rw [BitVec.toNat_setWidth]
    generalize st.fregs (rs1 w) = r
    rw [h64']
    exact Nat.mod_eq_of_lt r.isLt

theorem fromX_ok (hb : st.core.hart.branch = false) (hi : Hart.HInv st.core.hart) (q : Prec)
    (h : okF (.fromX q) p = true) : CarriesF s w st p (DoesF (.fromX q) w st) := by
  unfold okF at h
  simp only [Bool.and_eq_true, decide_eq_true_eq, Option.isNone_iff_eq_none] at h
  obtain ⟨hs, ⟨hk, h1⟩, h2⟩ := h
  have hv : fromXF q (X st.core (rs1 w)) = resultF q ((X st.core (rs1 w)).setWidth q.fmt.bits) := by
    cases q with
    | s => rfl
    | d =>
      show BitVec.setWidth 64 _ = BitVec.setWidth 64 (BitVec.setWidth 64 _)
      rw [BitVec.setWidth_eq]
  refine ⟨st.setF (rd w) (fromXF q (X st.core (rs1 w))), ?_,
    ⟨rfl, gives_f q st _ (bits_le _) hb (rd w) ((X st.core (rs1 w)).setWidth q.fmt.bits) _ rfl (by rw [← hv])
      (BitVec.toNat_setWidth _ _)⟩, hi, rfl⟩
  unfold carryF
  rw [hs, hk]
  show oneF s w _ p.ops st (.fromX q) = _
  unfold oneF
  simp only [src_rs1 s w st.core p.ops 0 (isOne_iff h1), fdst_rd s w _ _ h2, Option.bind_some, Option.map_some]

theorem addressF_ok (off : Int) (hs : Small off) (a : Act) (h0 : a.srcs[0]? = some (.one .Rs1))
    (h1 : srcAt s w st.core a 1 = some (BitVec.ofInt s.xlen.bits off)) :
    ∃ u, addressF s w a st = some u ∧ IsAddr u s.xlen.bits (X st.core (rs1 w)) off := by
  refine ⟨Mem.ea st.core (rs1 w) (BitVec.ofInt _ off), ?_, ea_addr _ _ _ (ofInt_toInt _ (bits_32 _) hs)⟩
  unfold addressF
  rw [src_rs1 s w st.core a 0 h0, h1, Option.bind_some, Option.map_some]
  rfl

theorem back_boxed (bytes : Nat) (b : FpMem.Back) (h : rightBack bytes b = true) (v : Nat) (hv : v < 256 ^ bytes)
    (old : BitVec 64) : FpMem.Spec.Boxed bytes v (FpMem.back b old v) := by
  unfold rightBack at h
  simp only [Bool.or_eq_true, Bool.and_eq_true, decide_eq_true_eq] at h
  rcases h with ⟨rfl, rfl⟩ | ⟨rfl, rfl⟩
  · exact FpMem.box_toNat 4 v (by decide) hv old
  · exact FpMem.whole_toNat v hv old

theorem load_ok (hb : st.core.hart.branch = false) (hi : Hart.HInv st.core.hart) (bytes : Nat)
    (h : okF (.load bytes) p = true) : CarriesF s w st p (DoesF (.load bytes) w st) := by
  unfold okF at h
  simp only [Bool.and_eq_true, decide_eq_true_eq] at h
  obtain ⟨hs, h⟩ := h
  cases hk : p.back with
  | none => rw [hk] at h; cases h
  | some q =>
    rw [hk, Option.any_some] at h
    simp only [Bool.and_eq_true] at h
    obtain ⟨⟨⟨hr, h1⟩, h2⟩, h3⟩ := h
    obtain ⟨a, ea, ha⟩ := addressF_ok s w st (immI w) (immI_small w) p.ops (isOne_iff h1)
      (src_immI s w st.core p.ops 1 (.inl (isOne_iff h2)))
    have e : carryF s w (st.core.hart.pc.setWidth 64) st p =
        loadedF s w q.1 q.2 st (Mem.load st.core a bytes (st.core.hart.pc.setWidth 64) false) := by
      unfold carryF
      rw [hs, hk]
      show loadF s w _ bytes p.ops q st = _
      unfold loadF
      rw [ea, Option.bind_some]
    by_cases hl : st.core.limit.toNat < a.toNat
    · have hm : Mem.load st.core a bytes (st.core.hart.pc.setWidth 64) false =
          .trapped (raise st.core a Mem.kLoadFault (st.core.hart.pc.setWidth 64) false) :=
        if_pos ((Mem.ult_iff _ _).2 hl)
      rw [hm] at e
      refine ⟨_, e, ⟨a, ha, fun hc => absurd hl (by omega), fun _ => ⟨?_, ⟨rfl, rfl⟩, rfl, rfl⟩⟩, ?_, rfl⟩
      · exact raises_next st.core _ 4 a 5#64 rfl
      · exact Hart.hinv_trap hi false a _ _ false
    · have hm : Mem.load st.core a bytes (st.core.hart.pc.setWidth 64) false =
          .value (readLE st.core.mem a bytes) := if_neg (fun hc => hl ((Mem.ult_iff _ _).1 hc))
      rw [hm] at e
      have e' : loadedF s w q.1 q.2 st (.value (readLE st.core.mem a bytes)) =
          some (st.setF (rd w) (FpMem.back q.1 (st.fregs (rd w)) (readLE st.core.mem a bytes))) := by
        unfold loadedF
        dsimp only
        rw [fdst_rd s w _ _ h3, Option.map_some]
      rw [e'] at e
      refine ⟨_, e, ⟨a, ha, fun _ => ⟨next_passes (bits_le _) st.core hb 4, ⟨rfl, rfl⟩, rfl, fun r hr => if_neg hr,
        readLE st.core.mem a bytes, fun i hi => (readLE_byte _ _ _ i hi).symm, readLE_lt _ _ _, ?_⟩,
        fun hc => absurd hc hl⟩, hi, rfl⟩
      show FpMem.Spec.Boxed bytes _ (if rd w = rd w then _ else _)
      rw [if_pos rfl]
      exact back_boxed bytes q.1 hr _ (readLE_lt _ _ _) _

theorem store_ok (hb : st.core.hart.branch = false) (hi : Hart.HInv st.core.hart) (hon : ¬ OffF st) (bytes : Nat)
    (h : okF (.store bytes) p = true) : CarriesF s w st p (DoesF (.store bytes) w st) := by
  unfold okF at h
  simp only [Bool.and_eq_true, decide_eq_true_eq, Option.isNone_iff_eq_none, Bool.or_eq_true, beq_iff_eq] at h
  obtain ⟨hs, ⟨⟨⟨hsz, hk⟩, h1⟩, h2⟩, h3⟩ := h
  obtain ⟨a, ea, ha⟩ := addressF_ok s w st (immS w) (immS_small w) p.ops (isOne_iff h1)
    (src_immS s w st.core p.ops 1 (isOne_iff h2))
  have hoff : unitOff st = false := Bool.eq_false_iff.2 fun h => hon ((unitOff_iff st).1 h)
  have e : carryF s w (st.core.hart.pc.setWidth 64) st p = some (st.withCore
      (Mem.store st.core a bytes ((st.fregs (rs2 w)).toNat % 2 ^ (8 * bytes)) (st.core.hart.pc.setWidth 64) false)) := by
    unfold carryF
    rw [hs, hk]
    show oneF s w _ p.ops st (.store bytes) = _
    unfold oneF
    dsimp only
    unfold storeF
    rw [hoff, ea, Option.bind_some, fsrc_rs2 s w _ _ h3, Option.map_some]
    rfl
  have hst := Mem.C26_store st.core a bytes ((st.fregs (rs2 w)).toNat % 2 ^ (8 * bytes)) (by
    rcases hsz with rfl | rfl <;> decide) (st.core.hart.pc.setWidth 64) false
  by_cases hl : st.core.limit.toNat < a.toNat
  · have hm := hst.1 hl
    rw [show Mem.store st.core a bytes _ (st.core.hart.pc.setWidth 64) false = _ from hm] at e
    refine ⟨_, e, ⟨a, ha, fun hc => absurd hl (by omega), fun _ => ⟨?_, ⟨rfl, rfl⟩, rfl, rfl⟩⟩, ?_, rfl⟩
    · exact raises_next st.core _ 4 a 7#64 rfl
    · exact Hart.hinv_trap hi false a _ _ false
  · obtain ⟨m, hm, hh, hfr⟩ := hst.2 (by omega)
    rw [hm] at e
    refine ⟨_, e, ⟨a, ha, fun _ => ⟨⟨_, m, next_is (bits_le _) st.core 4, ?_, FpMem.holds_mod hh, hfr⟩, ⟨rfl, rfl⟩,
      rfl, rfl⟩, fun hc => absurd hc hl⟩, hi, rfl⟩
    exact next_stay { st.core with mem := m } _ 4 hb

/-- What an instruction with a right description does. -/
theorem ok_carries (hH : FpState.HostOk H) (hb : st.core.hart.branch = false) (hi : Hart.HInv st.core.hart)
    (k : FSem) (h : okF k p = true) (hon : ∀ b, k = .store b → ¬ OffF st) (hw : ¬ WrongF s.xlen k w st)
    (h64 : k = .toX .d → s.xlen = .rv64) : CarriesF s w st p (DoesF k w st) := by
  cases k with
  | load b => exact load_ok s w st p hb hi b h
  | store b => exact store_ok s w st p hb hi (hon b rfl) b h
  | sign q o => exact sign_ok s w st p hb hi q o h
  | minMax q m => exact minMax_ok s w st p hH hb hi q m h
  | cmp q o => exact cmp_ok s w st p hH hb hi q o h hw
  | classify q => exact classify_ok s w st p hb hi q h hw
  | toX q => exact toX_ok s w st p hb hi q h (fun e => h64 (by rw [e]))
  | fromX q => exact fromX_ok s w st p hb hi q h

end

end Verif.Exec
