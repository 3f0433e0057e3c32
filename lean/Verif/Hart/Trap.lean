import Verif.Hart.Interrupt
import Verif.XStatus.Props
/-
C12-C16 and C61: trap entry, trap return, privileged instructions and the handler depth.
-/
namespace Verif.Hart
open Verif.Csr (Op SimpleCsr)
open Verif.XStatus (MStatus Field)
open Verif.XStatus.Spec (field)
open Hart
variable {w : Nat}

/-! ### Frames -/

theorem check_frame (g : Hart w) : ∃ a c, g.check = { g with avail := a, code := c } := by
  unfold check; simp only
  repeat' split
  all_goals exact ⟨_, _, rfl⟩

theorem setMstatus_frame (g : Hart w) (m : MStatus) :
    ∃ a c, g.setMstatus m = { g with mstatus := m, avail := a, code := c } := by
  unfold setMstatus; simp only
  split
  · obtain ⟨a, c, h⟩ := check_frame { g with mstatus := m }
    exact ⟨a, c, h⟩
  · exact ⟨_, _, rfl⟩

theorem setMip_frame (g : Hart w) (m : Xip.MIp) :
    ∃ a c, g.setMip m = { g with mip := m, avail := a, code := c } := by
  unfold setMip; simp only
  split
  · obtain ⟨a, c, h⟩ := check_frame { g with mip := m }
    exact ⟨a, c, h⟩
  · exact ⟨_, _, rfl⟩

theorem setMie_frame (g : Hart w) (v : BitVec 64) :
    ∃ a c, g.setMie v = { g with mie := v, avail := a, code := c } := by
  unfold setMie; simp only
  split
  · obtain ⟨a, c, h⟩ := check_frame { g with mie := v }
    exact ⟨a, c, h⟩
  · exact ⟨_, _, rfl⟩

/-! ### Reachable states -/

/-- The invariant used below. -/
def HInv (h : Hart w) : Prop := XStatus.Inv h.mstatus ∧ h.mstatus.hasS = true

theorem hasS_csrOp (m : MStatus) (op : Op) : (m.csrOp op).hasS = m.hasS := by cases op <;> rfl

theorem hasS_sstatusOp (m : MStatus) (op : Op) : (XStatus.sstatusOp m op).hasS = m.hasS := by
  cases op <;> rfl

theorem hasS_update (m : MStatus) (us : List (Field × BitVec 32)) :
    (m.update us).hasS = m.hasS := (XStatus.setFields_pending us m).2.1

theorem hinv_setMstatus {g : Hart w} {m : MStatus} (h1 : XStatus.Inv m) (h2 : m.hasS = true) :
    HInv (g.setMstatus m) := by
  obtain ⟨a, c, h⟩ := setMstatus_frame g m
  rw [h]; exact ⟨h1, h2⟩

theorem hinv_update {g h : Hart w} (hh : HInv h) (us : List (Field × BitVec 32)) :
    HInv (g.setMstatus (h.mstatus.update us)) :=
  hinv_setMstatus (XStatus.update_keeps _ hh.1 us) ((hasS_update _ us).trans hh.2)

theorem hinv_trap {h : Hart w} (hh : HInv h) (i : Bool) (t c e : BitVec 64) (hd : Bool) :
    HInv (h.trap i t c e hd) := by
  unfold trap; simp only
  split
  · exact hh
  · split
    · exact hinv_update hh _
    · split
      · exact hinv_update hh _
      · exact hh

theorem hinv_step {h : Hart w} (hh : HInv h) (e : Ev w) : HInv (step h e) := by
  have hmip : ∀ m, HInv (h.setMip m) := by
    intro m; obtain ⟨a, c, h1⟩ := setMip_frame h m; rw [h1]; exact hh
  have hmie : ∀ m, HInv (h.setMie m) := by
    intro m; obtain ⟨a, c, h1⟩ := setMie_frame h m; rw [h1]; exact hh
  cases e with
  | mip e =>
    cases e with
    | csr op => exact hmip _
    | setBit s v => exact hmip _
    | ext v => exact hh
  | mie op => exact hmie _
  | sip v => exact hmip _
  | sie v => exact hmie _
  | mstatus op =>
    exact hinv_setMstatus (XStatus.csrOp_keeps _ hh.1 op) ((hasS_csrOp _ _).trans hh.2)
  | sstatus op =>
    exact hinv_setMstatus (XStatus.viewOp_keeps _ XStatus.sWriteMask_sub _ hh.1 op)
      ((hasS_sstatusOp _ _).trans hh.2)
  | mideleg op => exact hh
  | sideleg op => exact hh
  | medeleg op => exact hh
  | mtvec v => exact hh
  | stvec v => exact hh
  | mepc v => exact hh
  | sepc v => exact hh
  | exception t c ep => exact hinv_trap hh _ _ _ _ _
  | take ep =>
    simp only [step, takeAvailable]
    split
    · exact hinv_trap hh _ _ _ _ _
    · exact hh
  | mret a =>
    simp only [step, mret]
    split
    · exact hinv_trap hh _ _ _ _ _
    · exact hinv_update (g := _) hh _
  | sret a =>
    simp only [step, sret]
    split
    · exact hinv_trap hh _ _ _ _ _
    · split
      · exact hinv_trap hh _ _ _ _ _
      · exact hinv_update (g := _) hh _

theorem hinv_reachable {h : Hart w} (hr : Spec.Reachable h) : HInv h := by
  obtain ⟨es, rfl⟩ := hr
  have : ∀ g : Hart w, HInv g → HInv (run g es) := by
    induction es with
    | nil => exact fun g hg => hg
    | cons e es ih => exact fun g hg => ih _ (hinv_step hg e)
  exact this _ ⟨XStatus.inv_init true, rfl⟩

/-! ### Field updates -/

theorem update_field {m : MStatus} (h : XStatus.Inv m) (us : List (Field × BitVec 32))
    (f : Field) : field (m.update us).value f =
      match XStatus.Spec.lastValue m.hasS us f with
      | some x => x.setWidth _
      | none => field m.value f := by
  have hp := (XStatus.setFields_pending us m).2.2.1 f
  have h0 : XStatus.pendingValue m = m.value := by
    rw [XStatus.pendingValue, h.2.1, h.2.2]
    refine BitVec.eq_of_getLsbD_eq (fun i hi => ?_)
    bits_at; simp [hi]
  rw [h0] at hp
  refine Eq.trans ?_ hp
  apply XStatus.field_eq_of_bits
  intro i hi hf
  rw [XStatus.update_bit m h us i hi,
    show XStatus.Spec.inFields i XStatus.Spec.fields = true from
      List.any_eq_true.2 ⟨f, XStatus.mem_fields f, hf⟩]
  rfl

theorem getter_small (m : MStatus) (f : Field) :
    ((m.getter f).setWidth 32).setWidth (XStatus.Spec.pos f).2 = field m.value f := by
  rw [XStatus.C05_getters]
  refine BitVec.eq_of_getLsbD_eq (fun i hi => ?_)
  have : (XStatus.Spec.pos f).2 ≤ 2 := by cases f <;> decide
  simp only [BitVec.getLsbD_setWidth]
  simp [hi, show i < 32 by omega, show i < 64 by omega]

/-! ### Destination -/

theorem dest_spec (h : Hart w) (isInt : Bool) (code : BitVec 64) (hc : code.toNat < 32) :
    h.dest isInt code = Spec.trapMode h isInt code.toNat := by
  unfold dest Spec.trapMode Spec.level
  have hb : ∀ (c : SimpleCsr w) n, code.toNat < n → (c.as n).getLsbD code.toNat =
      (c.value.getLsbD code.toNat && c.readMask.getLsbD code.toNat) := by
    intro c n hn
    simp only [SimpleCsr.as, SimpleCsr.get]
    bits_at
    simp [hn]
  rw [hb _ 32 hc, hb _ 32 hc, hb _ 64 (by omega)]
  cases isInt <;> simp

/-! ### C12 -/

/-- The effect of a trap to machine mode. -/
theorem trap_M (h : Hart w) (isInt : Bool) (tval code epc : BitVec 64)
    (hd : h.dest isInt code = M) : ∃ a c, h.trap isInt tval code epc =
      { h with
        mepc := epc.setWidth w, mtval := tval.setWidth w, mcause := causeValue w isInt code
        pc := (target h.mtvec code).setWidth w, branch := true, mode := M
        mstatus := h.mstatus.update [(.mpp, h.mode.setWidth 32),
          (.mpie, (h.mstatus.getter .mie).setWidth 32), (.mie, 0)]
        avail := a, code := c } := by
  unfold trap; simp only [hd]
  obtain ⟨a, c, h1⟩ := setMstatus_frame
    { h with
      mepc := epc.setWidth w, mtval := tval.setWidth w, mcause := causeValue w isInt code
      pc := (target h.mtvec code).setWidth w, branch := true, mode := M }
    (h.mstatus.update [(.mpp, h.mode.setWidth 32),
      (.mpie, (h.mstatus.getter .mie).setWidth 32), (.mie, 0)])
  exact ⟨a, c, h1⟩

/-- The effect of a trap to supervisor mode. -/
theorem trap_S (h : Hart w) (isInt : Bool) (tval code epc : BitVec 64)
    (hd : h.dest isInt code = S) : ∃ a c, h.trap isInt tval code epc =
      { h with
        sepc := epc.setWidth w, stval := tval.setWidth w, scause := causeValue w isInt code
        pc := (target h.stvec code).setWidth w, branch := true, mode := S
        mstatus := h.mstatus.update [(.spp, h.mode.setWidth 32 &&& 1),
          (.spie, (h.mstatus.getter .sie).setWidth 32), (.sie, 0)]
        avail := a, code := c } := by
  unfold trap; simp only [hd]
  obtain ⟨a, c, h1⟩ := setMstatus_frame
    { h with
      sepc := epc.setWidth w, stval := tval.setWidth w, scause := causeValue w isInt code
      pc := (target h.stvec code).setWidth w, branch := true, mode := S }
    (h.mstatus.update [(.spp, h.mode.setWidth 32 &&& 1),
      (.spie, (h.mstatus.getter .sie).setWidth 32), (.sie, 0)])
  exact ⟨a, c, h1⟩

theorem causeValue_bit (isInt : Bool) (code : BitVec 64) (hc : code.toNat < 32)
    (hw5 : 32 ≤ w) :
    causeValue w isInt code =
      BitVec.ofNat w (code.toNat + if isInt then 2 ^ (w - 1) else 0) := by
  have hcw : code.toNat < 2 ^ (w - 1) := by
    have : 2 ^ 31 ≤ 2 ^ (w - 1) := Nat.pow_le_pow_right (by omega) (by omega)
    omega
  have hpow : 2 ^ w = 2 * 2 ^ (w - 1) := by
    rw [show w = (w - 1) + 1 by omega, Nat.pow_succ]; simp; omega
  unfold causeValue
  apply BitVec.eq_of_toNat_eq
  cases isInt with
  | false => simp
  | true =>
    simp only [if_true, BitVec.toNat_or, BitVec.toNat_setWidth, BitVec.toNat_shiftLeft,
      BitVec.toNat_ofNat]
    have h1 : (1 : BitVec w).toNat = 1 := by
      rw [show (1 : BitVec w) = BitVec.ofNat w 1 from rfl, BitVec.toNat_ofNat,
        Nat.mod_eq_of_lt (by omega)]
    rw [h1, Nat.one_shiftLeft, Nat.mod_eq_of_lt (a := code.toNat) (by omega),
      Nat.mod_eq_of_lt (a := 2 ^ (w - 1)) (by omega),
      Nat.mod_eq_of_lt (a := code.toNat + 2 ^ (w - 1)) (by omega)]
    rw [Nat.or_comm, Nat.add_comm]
    have := Nat.two_pow_add_eq_or_of_lt hcw 1
    simpa using this.symm

/-- **C12, machine mode.** From every reachable state, a trap whose handling level is machine mode
records epc, tval and cause (top bit = interrupt) in the machine CSRs, saves the mode in MPP and
MIE in MPIE, clears MIE, leaves every other mstatus field, all supervisor trap CSRs and the
interrupt registers unchanged, and enters machine mode. -/
theorem C12_trap_machine (h : Hart w) (hr : Spec.Reachable h) (hw : 32 ≤ w) (isInt : Bool)
    (tval code epc : BitVec 64) (hc : code.toNat < 32)
    (hd : Spec.trapMode h isInt code.toNat = M) :
    let t := h.trap isInt tval code epc
    t.mepc = epc.setWidth w ∧ t.mtval = tval.setWidth w ∧
    t.mcause = BitVec.ofNat w (code.toNat + if isInt then 2 ^ (w - 1) else 0) ∧
    t.mode = M ∧ t.branch = true ∧
    field t.mstatus.value .mpp = h.mode ∧
    field t.mstatus.value .mpie = field h.mstatus.value .mie ∧
    field t.mstatus.value .mie = 0 ∧
    (∀ f, f ≠ .mpp → f ≠ .mpie → f ≠ .mie →
      field t.mstatus.value f = field h.mstatus.value f) ∧
    t.sepc = h.sepc ∧ t.stval = h.stval ∧ t.scause = h.scause ∧ t.mtvec = h.mtvec ∧
    t.stvec = h.stvec ∧ t.mip = h.mip ∧ t.mie = h.mie ∧ t.mideleg = h.mideleg ∧
    t.sideleg = h.sideleg ∧ t.medeleg = h.medeleg := by
  have hi := hinv_reachable hr
  obtain ⟨a, c, ht⟩ := trap_M h isInt tval code epc (by rw [dest_spec h _ _ hc]; exact hd)
  intro t
  rw [show t = _ from ht]
  refine ⟨rfl, rfl, causeValue_bit _ _ hc hw, rfl, rfl, ?_, ?_, ?_, ?_, rfl, rfl, rfl,
    rfl, rfl, rfl, rfl, rfl, rfl, rfl⟩
  · simp only
    rw [update_field hi.1]
    simp only [XStatus.Spec.lastValue, hi.2]
    simp
    exact BitVec.setWidth_eq h.mode
  · simp only
    rw [update_field hi.1]
    simp only [XStatus.Spec.lastValue, hi.2]
    exact getter_small h.mstatus .mie
  · simp only
    rw [update_field hi.1]
    simp only [XStatus.Spec.lastValue, hi.2]
    rfl
  · intro f h1 h2 h3
    simp only
    rw [update_field hi.1]
    simp only [XStatus.Spec.lastValue, hi.2]
    rw [if_neg (fun h => h3 h.1.symm), if_neg (fun h => h2 h.1.symm),
      if_neg (fun h => h1 h.1.symm)]

/-- **C12, supervisor mode.** The same for a trap handled in supervisor mode, entered from user or
supervisor mode. -/
theorem C12_trap_supervisor (h : Hart w) (hr : Spec.Reachable h) (hw : 32 ≤ w) (isInt : Bool)
    (tval code epc : BitVec 64) (hc : code.toNat < 32)
    (hd : Spec.trapMode h isInt code.toNat = S) :
    let t := h.trap isInt tval code epc
    t.sepc = epc.setWidth w ∧ t.stval = tval.setWidth w ∧
    t.scause = BitVec.ofNat w (code.toNat + if isInt then 2 ^ (w - 1) else 0) ∧
    t.mode = S ∧ t.branch = true ∧
    (h.mode = U ∨ h.mode = S → field t.mstatus.value .spp = if h.mode = S then 1 else 0) ∧
    field t.mstatus.value .spie = field h.mstatus.value .sie ∧
    field t.mstatus.value .sie = 0 ∧
    (∀ f, f ≠ .spp → f ≠ .spie → f ≠ .sie →
      field t.mstatus.value f = field h.mstatus.value f) ∧
    t.mepc = h.mepc ∧ t.mtval = h.mtval ∧ t.mcause = h.mcause ∧ t.mtvec = h.mtvec ∧
    t.stvec = h.stvec ∧ t.mip = h.mip ∧ t.mie = h.mie ∧ t.mideleg = h.mideleg ∧
    t.sideleg = h.sideleg ∧ t.medeleg = h.medeleg := by
  have hi := hinv_reachable hr
  obtain ⟨a, c, ht⟩ := trap_S h isInt tval code epc (by rw [dest_spec h _ _ hc]; exact hd)
  intro t
  rw [show t = _ from ht]
  refine ⟨rfl, rfl, causeValue_bit _ _ hc hw, rfl, rfl, ?_, ?_, ?_, ?_, rfl, rfl, rfl,
    rfl, rfl, rfl, rfl, rfl, rfl, rfl⟩
  · intro hm
    simp only
    rw [update_field hi.1]
    simp only [XStatus.Spec.lastValue, hi.2]
    rcases hm with hm | hm <;> rw [hm] <;> simp <;> rfl
  · simp only
    rw [update_field hi.1]
    simp only [XStatus.Spec.lastValue, hi.2]
    exact getter_small h.mstatus .sie
  · simp only
    rw [update_field hi.1]
    simp only [XStatus.Spec.lastValue, hi.2]
    rfl
  · intro f h1 h2 h3
    simp only
    rw [update_field hi.1]
    simp only [XStatus.Spec.lastValue, hi.2]
    rw [if_neg (fun h => h3 h.1.symm), if_neg (fun h => h2 h.1.symm),
      if_neg (fun h => h1 h.1.symm)]

/-- Non-vacuity: a reachable state in user mode with a delegated page fault and a non-delegated
illegal instruction. -/
def exU : List (Ev 64) :=
  [.medeleg (.write64 0x1000), .mtvec 0x8000, .stvec 0x9000, .mepc 0x400,
    .mstatus (.write64 0x2), .mret 0x100]

example : (run (Hart.init 64 true) exU).mode = U ∧
    Spec.trapMode (run (Hart.init 64 true) exU) false 12 = S ∧
    Spec.trapMode (run (Hart.init 64 true) exU) false 2 = M ∧
    ((run (Hart.init 64 true) exU).trap false 0x77 12 0x404).scause = 12 ∧
    ((run (Hart.init 64 true) exU).trap false 0x77 12 0x404).pc = 0x9000 := by decide

/-! ### C13 -/

/-- **C13, exceptions.** An exception raised in one of the three modes never lowers the
privilege. -/
theorem C13_exception (h : Hart w) (hl : Spec.legalMode h) (tval code epc : BitVec 64) :
    h.mode.toNat ≤ (h.trap false tval code epc).mode.toNat := by
  have hd : h.dest false code = M ∨ (h.dest false code = S ∧ h.mode ≠ M) := by
    simp only [dest, Bool.false_eq_true, if_false]
    split
    · next h1 => exact Or.inr ⟨rfl, h1.1⟩
    · exact Or.inl rfl
  rcases hd with hd | ⟨hd, hm⟩
  · obtain ⟨a, c, ht⟩ := trap_M h false tval code epc hd
    rw [ht]
    show h.mode.toNat ≤ M.toNat
    rcases hl with hl | hl | hl <;> rw [hl] <;> decide
  · obtain ⟨a, c, ht⟩ := trap_S h false tval code epc hd
    rw [ht]
    show h.mode.toNat ≤ S.toNat
    rcases hl with hl | hl | hl
    · rw [hl]; decide
    · rw [hl]; decide
    · exact absurd hl hm

/-- **C13, interrupts, partial.** Taking the reported interrupt never lowers the privilege if the
report is up to date. Missing: stale reports (`C13_interrupt_violated`). -/
theorem C13_interrupt_partial (h : Hart w) (hl : Spec.legalMode h) (hf : Fresh h)
    (hc : h.code.toNat < 32) (epc : BitVec 64) :
    h.mode.toNat ≤ (step h (.take epc)).mode.toNat := by
  simp only [step, takeAvailable]
  split
  · next ha =>
    have ht := hf ha
    simp only [Spec.takeable, Bool.and_eq_true] at ht
    have hd := dest_spec h true h.code hc
    have hd' : h.dest true h.code = Spec.level h h.code.toNat := hd
    have hon := ht.2
    rw [← hd'] at hon
    simp only
    have hcs : h.dest true h.code = M ∨ h.dest true h.code = S := by
      unfold Spec.levelOn at hon
      split at hon
      · next h1 => exact Or.inl h1
      · split at hon
        · next h1 => exact Or.inr h1
        · cases hon
    rcases hcs with hcs | hcs
    · obtain ⟨a, c, h1⟩ := trap_M h true 0 h.code epc hcs
      rw [h1]
      show h.mode.toNat ≤ M.toNat
      rcases hl with hl | hl | hl <;> rw [hl] <;> decide
    · obtain ⟨a, c, h1⟩ := trap_S h true 0 h.code epc hcs
      rw [h1]
      rw [hcs] at hon
      simp only
      rcases hl with hl | hl | hl
      · rw [hl]; decide
      · rw [hl]; decide
      · exfalso
        simp only [Spec.levelOn, hl] at hon
        revert hon; simp [M, S]
  · exact Nat.le_refl _

/-- **C13, violated.** A supervisor timer interrupt is reported while in supervisor mode; before
it is taken an exception enters machine mode. The interrupt is then taken from machine mode into
supervisor mode. -/
theorem C13_interrupt_violated :
    ∃ es : List (Ev 64), (run (Hart.init 64 true) es).mode = M ∧
      (step (run (Hart.init 64 true) es) (.take 0x100)).mode = S :=
  ⟨[.mideleg (.write64 0x20), .mie (.write64 0x20), .mstatus (.write64 0x802), .mret 0,
    .mip (.setBit 5 1), .exception 0 9 0x200], by decide, by decide⟩

/-- MPP is not legalised: mret can enter the reserved mode 2, and from there an exception can
lower the (numeric) privilege. This is why `C13_exception` asks for a legal mode. -/
theorem C13_reserved_mode_violated :
    ∃ es : List (Ev 64), (run (Hart.init 64 true) es).mode = 2 ∧
      (step (run (Hart.init 64 true) es) (.exception 0 2 0)).mode = S :=
  ⟨[.medeleg (.write64 0x4), .mstatus (.write64 0x1000), .mret 0], by decide, by decide⟩

/-- Non-vacuity of the hypotheses of `C13_interrupt_partial`. -/
example :
    let h := run (Hart.init 64 true) [.mideleg (.write64 0x20), .mie (.write64 0x20),
      .mstatus (.write64 0x802), .mret 0, .mip (.setBit 5 1), .mstatus (.setBits64 2)]
    h.mode = S ∧ h.avail = true ∧ Spec.takeable h h.code.toNat = true ∧ h.code = 5 := by decide

/-! ### C14 -/

theorem mretBody_eff (g : Hart w) : ∃ a c, g.mretBody =
    { g with
      pc := g.mepc, branch := true, mode := (g.mstatus.getter .mpp).setWidth 2
      returns := g.returns + 1
      mstatus := g.mstatus.update [(.mie, (g.mstatus.getter .mpie).setWidth 32), (.mpie, 1),
        (.mpp, 0)]
      avail := a, code := c } := by
  unfold mretBody; simp only
  obtain ⟨a, c, h1⟩ := setMstatus_frame
    { g with
      pc := g.mepc, branch := true, mode := (g.mstatus.getter .mpp).setWidth 2
      returns := g.returns + 1 }
    (g.mstatus.update [(.mie, (g.mstatus.getter .mpie).setWidth 32), (.mpie, 1), (.mpp, 0)])
  exact ⟨a, c, h1⟩

theorem sretBody_eff (g : Hart w) : ∃ a c, g.sretBody =
    { g with
      pc := g.sepc, branch := true, mode := (g.mstatus.getter .spp).setWidth 2
      returns := g.returns + 1
      mstatus := g.mstatus.update [(.sie, (g.mstatus.getter .spie).setWidth 32), (.spie, 1),
        (.spp, 0)]
      avail := a, code := c } := by
  unfold sretBody; simp only
  obtain ⟨a, c, h1⟩ := setMstatus_frame
    { g with
      pc := g.sepc, branch := true, mode := (g.mstatus.getter .spp).setWidth 2
      returns := g.returns + 1 }
    (g.mstatus.update [(.sie, (g.mstatus.getter .spie).setWidth 32), (.spie, 1), (.spp, 0)])
  exact ⟨a, c, h1⟩

theorem getter_mpp (m : MStatus) : (m.getter .mpp).setWidth 2 = field m.value .mpp := by
  have := getter_small m .mpp
  rw [← this]
  exact (BitVec.setWidth_setWidth_of_le (m.getter .mpp) (by decide : 2 ≤ 32)).symm

theorem getter_spp (m : MStatus) :
    (m.getter .spp).setWidth 2 = (field m.value .spp).setWidth 2 := by
  rw [XStatus.C05_getters]
  refine BitVec.eq_of_getLsbD_eq (fun i hi => ?_)
  simp only [BitVec.getLsbD_setWidth]
  simp [show i < 64 by omega]

/-- Effect of an executed mret, in terms of the fields of mstatus. -/
theorem mret_fields (g : Hart w) (hi : HInv g) (hm : g.mode = M) (a : BitVec 64) :
    let t := g.mret a
    t.pc = g.mepc ∧ t.mode = field g.mstatus.value .mpp ∧
    field t.mstatus.value .mie = field g.mstatus.value .mpie ∧
    field t.mstatus.value .mpie = 1 ∧ field t.mstatus.value .mpp = 0 ∧
    (∀ f, f ≠ .mpp → f ≠ .mpie → f ≠ .mie →
      field t.mstatus.value f = field g.mstatus.value f) ∧
    t.branch = true ∧ t.returns = g.returns + 1 ∧ t.taken = g.taken ∧
    t.mepc = g.mepc ∧ t.mcause = g.mcause ∧ t.mtval = g.mtval ∧
    t.sepc = g.sepc ∧ t.scause = g.scause ∧ t.stval = g.stval := by
  obtain ⟨x, y, hb⟩ := mretBody_eff g
  intro t
  have ht : t = _ := (show t = g.mretBody by
    show g.mret a = _; unfold mret; rw [if_neg (by simp [hm])]).trans hb
  rw [ht]
  refine ⟨rfl, getter_mpp _, ?_, ?_, ?_, ?_, rfl, rfl, rfl, rfl, rfl, rfl, rfl, rfl, rfl⟩
  · simp only
    rw [update_field hi.1]
    simp only [XStatus.Spec.lastValue, hi.2]
    exact getter_small g.mstatus .mpie
  · simp only
    rw [update_field hi.1]
    simp only [XStatus.Spec.lastValue, hi.2]
    rfl
  · simp only
    rw [update_field hi.1]
    simp only [XStatus.Spec.lastValue, hi.2]
    rfl
  · intro f h1 h2 h3
    simp only
    rw [update_field hi.1]
    simp only [XStatus.Spec.lastValue, hi.2]
    rw [if_neg (fun h => h1 h.1.symm), if_neg (fun h => h2 h.1.symm),
      if_neg (fun h => h3 h.1.symm)]

/-- Effect of an executed sret (after the checks). -/
theorem sret_fields (g : Hart w) (hi : HInv g) :
    let t := g.sretBody
    t.pc = g.sepc ∧ t.mode = (field g.mstatus.value .spp).setWidth 2 ∧
    field t.mstatus.value .sie = field g.mstatus.value .spie ∧
    field t.mstatus.value .spie = 1 ∧ field t.mstatus.value .spp = 0 ∧
    (∀ f, f ≠ .spp → f ≠ .spie → f ≠ .sie →
      field t.mstatus.value f = field g.mstatus.value f) ∧
    t.branch = true ∧ t.returns = g.returns + 1 ∧ t.taken = g.taken ∧
    t.mepc = g.mepc ∧ t.mcause = g.mcause ∧ t.mtval = g.mtval ∧
    t.sepc = g.sepc ∧ t.scause = g.scause ∧ t.stval = g.stval := by
  obtain ⟨x, y, hb⟩ := sretBody_eff g
  intro t
  rw [show t = _ from hb]
  refine ⟨rfl, getter_spp _, ?_, ?_, ?_, ?_, rfl, rfl, rfl, rfl, rfl, rfl, rfl, rfl, rfl⟩
  · simp only
    rw [update_field hi.1]
    simp only [XStatus.Spec.lastValue, hi.2]
    exact getter_small g.mstatus .spie
  · simp only
    rw [update_field hi.1]
    simp only [XStatus.Spec.lastValue, hi.2]
    rfl
  · simp only
    rw [update_field hi.1]
    simp only [XStatus.Spec.lastValue, hi.2]
    rfl
  · intro f h1 h2 h3
    simp only
    rw [update_field hi.1]
    simp only [XStatus.Spec.lastValue, hi.2]
    rw [if_neg (fun h => h1 h.1.symm), if_neg (fun h => h2 h.1.symm),
      if_neg (fun h => h3 h.1.symm)]

/-- **C14, machine.** mret directly after any trap to machine mode restores the mode, the pc and
the machine interrupt enable, and every mstatus field except MPP (now U) and MPIE (now 1). -/
theorem C14_mret_roundtrip (h : Hart w) (hr : Spec.Reachable h) (hw : 32 ≤ w) (isInt : Bool)
    (tval code epc a : BitVec 64) (hc : code.toNat < 32)
    (hd : Spec.trapMode h isInt code.toNat = M) :
    let t := (h.trap isInt tval code epc).mret a
    t.mode = h.mode ∧ t.pc = epc.setWidth w ∧
    field t.mstatus.value .mie = field h.mstatus.value .mie ∧
    (∀ f, f ≠ .mpp → f ≠ .mpie → field t.mstatus.value f = field h.mstatus.value f) ∧
    field t.mstatus.value .mpp = U ∧ field t.mstatus.value .mpie = 1 := by
  obtain ⟨h1, _, _, h4, _, h6, h7, _, h9, _⟩ :=
    C12_trap_machine h hr hw isInt tval code epc hc hd
  have hi := hinv_trap (hinv_reachable hr) isInt tval code epc false
  obtain ⟨m1, m2, m3, m4, m5, m6, _⟩ := mret_fields _ hi h4 a
  refine ⟨m2.trans h6, m1.trans h1, m3.trans h7, fun f hf1 hf2 => ?_, m5, m4⟩
  by_cases hf3 : f = .mie
  · rw [hf3]; exact m3.trans h7
  · exact (m6 f hf1 hf2 hf3).trans (h9 f hf1 hf2 hf3)

/-- **C14, supervisor.** sret directly after any trap from user or supervisor mode to supervisor
mode restores the mode, the pc and the supervisor interrupt enable, unless TSR is set (then sret
must trap, C15). -/
theorem C14_sret_roundtrip (h : Hart w) (hr : Spec.Reachable h) (hw : 32 ≤ w) (isInt : Bool)
    (tval code epc a : BitVec 64) (hc : code.toNat < 32)
    (hm : h.mode = U ∨ h.mode = S) (htsr : field h.mstatus.value .tsr = 0)
    (hd : Spec.trapMode h isInt code.toNat = S) :
    let t := (h.trap isInt tval code epc).sret a
    t.mode = h.mode ∧ t.pc = epc.setWidth w ∧
    field t.mstatus.value .sie = field h.mstatus.value .sie ∧
    (∀ f, f ≠ .spp → f ≠ .spie → field t.mstatus.value f = field h.mstatus.value f) ∧
    field t.mstatus.value .spp = 0 ∧ field t.mstatus.value .spie = 1 := by
  obtain ⟨h1, _, _, h4, _, h6, h7, _, h9, _⟩ :=
    C12_trap_supervisor h hr hw isInt tval code epc hc hd
  have hi := hinv_trap (hinv_reachable hr) isInt tval code epc false
  obtain ⟨m1, m2, m3, m4, m5, m6, _⟩ := sret_fields _ hi
  have hexec : (h.trap isInt tval code epc).sret a = (h.trap isInt tval code epc).sretBody := by
    unfold sret
    have hbad : (h.trap isInt tval code epc).sretBadMode = false := by
      unfold sretBadMode; rw [h4]; split <;> simp
    have ht : (h.trap isInt tval code epc).mstatus.getter .tsr = 0 := by
      rw [XStatus.C05_getters, h9 .tsr (by decide) (by decide) (by decide), htsr]; rfl
    rw [hbad, ht]; simp
  rw [hexec]
  refine ⟨m2.trans ?_, m1.trans h1, m3.trans h7, fun f hf1 hf2 => ?_, m5, m4⟩
  · rw [h6 hm]; rcases hm with hm | hm <;> rw [hm] <;> rfl
  · by_cases hf3 : f = .sie
    · rw [hf3]; exact m3.trans h7
    · exact (m6 f hf1 hf2 hf3).trans (h9 f hf1 hf2 hf3)

/-- Non-vacuity, both levels, from user mode with SIE set. -/
example :
    let h := run (Hart.init 64 true) exU
    field h.mstatus.value .tsr = 0 ∧ Spec.trapMode h false 12 = S ∧ Spec.trapMode h false 2 = M ∧
    ((h.trap false 0 12 0x404).sret 0x9000).mode = U ∧
    ((h.trap false 0 12 0x404).sret 0x9000).pc = 0x404 ∧
    field h.mstatus.value .sie = 1 := by decide

/-! ### C15 -/

/-- **C15, mret.** Below machine mode, mret is exactly an illegal-instruction exception; in machine
mode it executes (effects in `mret_fields`). -/
theorem C15_mret (h : Hart w) (hr : Spec.Reachable h) (a : BitVec 64) :
    (h.mode ≠ M → step h (.mret a) = step h (.exception 0 2 a)) ∧
    (h.mode = M → (step h (.mret a)).pc = h.mepc ∧
      (step h (.mret a)).mode = field h.mstatus.value .mpp ∧
      field (step h (.mret a)).mstatus.value .mie = field h.mstatus.value .mpie ∧
      (step h (.mret a)).mcause = h.mcause ∧ (step h (.mret a)).scause = h.scause ∧
      (step h (.mret a)).mepc = h.mepc ∧ (step h (.mret a)).sepc = h.sepc) := by
  refine ⟨fun hm => ?_, fun hm => ?_⟩
  · simp only [step, mret]; rw [if_pos hm]; rfl
  · have := mret_fields h (hinv_reachable hr) hm a
    exact ⟨this.1, this.2.1, this.2.2.1, this.2.2.2.2.2.2.2.2.2.2.1,
      this.2.2.2.2.2.2.2.2.2.2.2.2.2.1, this.2.2.2.2.2.2.2.2.2.1,
      this.2.2.2.2.2.2.2.2.2.2.2.2.1⟩

/-- **C15, sret, partial.** In user mode, and in supervisor mode with TSR, sret is exactly an
illegal-instruction exception; in supervisor mode without TSR it executes. Missing: machine mode
(`C15_sret_rv32_machine_violated`, `C15_sret_tsr_machine_violated`). -/
theorem C15_sret_partial (h : Hart w) (hr : Spec.Reachable h) (a : BitVec 64) :
    (h.mode = U ∨ (h.mode = S ∧ field h.mstatus.value .tsr = 1) →
      step h (.sret a) = step h (.exception 0 2 a)) ∧
    (h.mode = S → field h.mstatus.value .tsr = 0 →
      (step h (.sret a)).pc = h.sepc ∧
      (step h (.sret a)).mode = (field h.mstatus.value .spp).setWidth 2 ∧
      field (step h (.sret a)).mstatus.value .sie = field h.mstatus.value .spie ∧
      (step h (.sret a)).mcause = h.mcause ∧ (step h (.sret a)).scause = h.scause ∧
      (step h (.sret a)).mepc = h.mepc ∧ (step h (.sret a)).sepc = h.sepc) := by
  refine ⟨fun hm => ?_, fun hm ht => ?_⟩
  · simp only [step, sret]
    rcases hm with hm | ⟨hm, ht⟩
    · rw [if_pos (by unfold sretBadMode; rw [hm]; split <;> decide)]; rfl
    · have h1 : h.mstatus.getter .tsr ≠ 0 := by
        rw [XStatus.C05_getters, ht]; decide
      split
      · rfl
      · try rw [if_pos h1]
        rfl
  · have hexec : step h (.sret a) = h.sretBody := by
      simp only [step, sret]
      have h1 : h.mstatus.getter .tsr = 0 := by rw [XStatus.C05_getters, ht]; rfl
      rw [if_neg (by unfold sretBadMode; rw [hm]; split <;> decide), if_neg (by simp [h1])]
    rw [hexec]
    have := sret_fields h (hinv_reachable hr)
    exact ⟨this.1, this.2.1, this.2.2.1, this.2.2.2.2.2.2.2.2.2.2.1,
      this.2.2.2.2.2.2.2.2.2.2.2.2.2.1, this.2.2.2.2.2.2.2.2.2.1,
      this.2.2.2.2.2.2.2.2.2.2.2.2.1⟩

/-- **C15, violated.** On RV32, sret in machine mode (TSR clear) is rejected. -/
theorem C15_sret_rv32_machine_violated :
    ∃ es : List (Ev 32), (run (Hart.init 32 true) es).mode = M ∧
      field (run (Hart.init 32 true) es).mstatus.value .tsr = 0 ∧
      (step (run (Hart.init 32 true) es) (.sret 0x40)).mcause = 2 :=
  ⟨[], by decide, by decide, by decide⟩

/-- **C15, violated.** On RV64, sret in machine mode with TSR set is rejected although TSR only
concerns supervisor mode. -/
theorem C15_sret_tsr_machine_violated :
    ∃ es : List (Ev 64), (run (Hart.init 64 true) es).mode = M ∧
      (step (run (Hart.init 64 true) es) (.sret 0x40)).mcause = 2 :=
  ⟨[.mstatus (.write64 0x400000)], by decide, by decide⟩

/-- **C15, RV64 sret in machine mode without TSR executes.** -/
theorem C15_sret_rv64_machine (h : Hart 64) (hm : h.mode = M)
    (ht : field h.mstatus.value .tsr = 0) (a : BitVec 64) :
    step h (.sret a) = h.sretBody := by
  simp only [step, sret]
  have h1 : h.mstatus.getter .tsr = 0 := by rw [XStatus.C05_getters, ht]; rfl
  rw [if_neg (by unfold sretBadMode; rw [hm]; decide), if_neg (by simp [h1])]

/-- **C15, sfence.vma.** In user mode, or in supervisor mode with TVM, it is exactly an
illegal-instruction exception; otherwise it does not change this state. -/
theorem C15_sfence (h : Hart w) (a : BitVec 64) :
    (h.mode = U ∨ (h.mode = S ∧ field h.mstatus.value .tvm = 1) →
      h.sfenceVma a = step h (.exception 0 2 a)) ∧
    (¬ (h.mode = U ∨ (h.mode = S ∧ field h.mstatus.value .tvm = 1)) → h.sfenceVma a = h) := by
  have key : h.mstatus.getter .tvm ≠ 0 ↔ field h.mstatus.value .tvm = 1 := by
    rw [XStatus.C05_getters]
    show BitVec.setWidth 64 (field h.mstatus.value .tvm : BitVec 1) ≠ 0 ↔
      (field h.mstatus.value .tvm : BitVec 1) = 1
    generalize (field h.mstatus.value .tvm : BitVec 1) = x
    revert x; decide
  unfold sfenceVma
  refine ⟨fun hc => ?_, fun hc => ?_⟩
  · rw [if_pos (hc.imp id (fun h => ⟨h.1, key.2 h.2⟩))]; rfl
  · rw [if_neg (fun h => hc (h.imp id (fun h => ⟨h.1, key.1 h.2⟩)))]

/-- Non-vacuity: the user-mode case is reachable and sets mcause to 2. -/
example : (run (Hart.init 64 true) exU).mode = U ∧
    (step (run (Hart.init 64 true) exU) (.mret 0x44)).mcause = 2 ∧
    (step (run (Hart.init 64 true) exU) (.mret 0x44)).mepc = 0x44 := by decide

/-! ### C16 -/

theorem target_eq (hw : 2 ≤ w) (hw' : w ≤ 64) (tvec : BitVec w) (code : BitVec 64) :
    (target tvec code).setWidth w =
      if tvec &&& 3 = 1 then (tvec &&& ~~~3) + BitVec.ofNat w (4 * code.toNat)
      else tvec &&& ~~~3 := by
  have h3 : ∀ i, (3 : BitVec w).getLsbD i = decide (i < 2) := by
    intro i
    rw [show (3 : BitVec w) = BitVec.ofNat w 3 from rfl, BitVec.getLsbD_ofNat]
    rcases Nat.lt_or_ge i 2 with h | h
    · have : i = 0 ∨ i = 1 := by omega
      have h1 : (3 : Nat).testBit 0 = true ∧ (3 : Nat).testBit 1 = true := by decide
      rcases this with rfl | rfl
      · rw [h1.1]; simp; omega
      · rw [h1.2]; simp; omega
    · have : (3 : Nat).testBit i = false := Nat.testBit_lt_two_pow (by
        calc 3 < 2 ^ 2 := by decide
          _ ≤ 2 ^ i := Nat.pow_le_pow_right (by decide) h)
      simp [this]; omega
  have h3' : ∀ i, (3 : BitVec 64).getLsbD i = decide (i < 2) := by
    intro i
    rcases Nat.lt_or_ge i 64 with h | h
    · revert i; exact allLt (by decide)
    · rw [BitVec.getLsbD_of_ge _ _ h]; simp; omega
  have hand : (tvec.setWidth 64 &&& ~~~3).setWidth w = tvec &&& ~~~3 := by
    refine BitVec.eq_of_getLsbD_eq (fun i hi => ?_)
    bits_at
    rw [h3, h3']
    simp [hi, show i < 64 by omega]
  have hcond : (tvec.setWidth 64 &&& 3 = 1) ↔ (tvec &&& 3 = 1) := by
    have h1 : ∀ i, (1 : BitVec w).getLsbD i = decide (i = 0) := by
      intro i
      rw [show (1 : BitVec w) = BitVec.ofNat w 1 from rfl, BitVec.getLsbD_ofNat]
      rcases Nat.eq_zero_or_pos i with rfl | h
      · simp; omega
      · have : (1 : Nat).testBit i = false := Nat.testBit_lt_two_pow (by
          calc 1 < 2 ^ 1 := by decide
            _ ≤ 2 ^ i := Nat.pow_le_pow_right (by decide) h)
        simp [this]; omega
    have h1' : ∀ i, (1 : BitVec 64).getLsbD i = decide (i = 0) := by
      intro i
      rcases Nat.lt_or_ge i 64 with h | h
      · revert i; exact allLt (by decide)
      · rw [BitVec.getLsbD_of_ge _ _ h]; simp; omega
    constructor
    · intro h
      refine BitVec.eq_of_getLsbD_eq (fun i hi => ?_)
      have := congrArg (fun v => v.getLsbD i) h
      simp only [BitVec.getLsbD_and, BitVec.getLsbD_setWidth, h3', h1'] at this
      rw [BitVec.getLsbD_and, h3, h1, ← this]
      simp [show i < 64 by omega]
    · intro h
      refine BitVec.eq_of_getLsbD_eq (fun i hi => ?_)
      have := congrArg (fun v => v.getLsbD i) h
      simp only [BitVec.getLsbD_and, h3, h1] at this
      rw [BitVec.getLsbD_and, BitVec.getLsbD_setWidth, h3', h1', ← this]
      simp [hi]
  unfold target
  simp only [hcond]
  split
  · rw [BitVec.setWidth_add _ _ hw', hand]
    congr 1
    apply BitVec.eq_of_toNat_eq
    simp only [BitVec.toNat_setWidth, BitVec.toNat_mul, BitVec.toNat_ofNat]
    rw [Nat.mod_mod_of_dvd _ (Nat.pow_dvd_pow 2 hw')]
    rfl
  · exact hand

/-- **C16, violated.** With a vectored mtvec, exceptions are vectored too. -/
theorem C16_exception_vectored_violated :
    ∃ es : List (Ev 64), let h := run (Hart.init 64 true) es
      h.mtvec &&& 3 = 1 ∧ (step h (.exception 0 2 0)).pc ≠ Spec.entry h.mtvec false 2 :=
  ⟨[.mtvec 0x1001], by decide⟩

/-- **C16, partial.** Interrupts always, and exceptions when xtvec is not in vectored mode, enter
at the address the privileged manual gives. Missing: exceptions with a vectored xtvec. -/
theorem C16_entry_partial (h : Hart w) (hw : 2 ≤ w) (hw' : w ≤ 64) (isInt : Bool)
    (tval code epc : BitVec 64) (hc : code.toNat < 32) :
    (Spec.trapMode h isInt code.toNat = M → (isInt = true ∨ h.mtvec &&& 3 ≠ 1) →
      (h.trap isInt tval code epc).pc = Spec.entry h.mtvec isInt code.toNat) ∧
    (Spec.trapMode h isInt code.toNat = S → (isInt = true ∨ h.stvec &&& 3 ≠ 1) →
      (h.trap isInt tval code epc).pc = Spec.entry h.stvec isInt code.toNat) := by
  refine ⟨fun hd hv => ?_, fun hd hv => ?_⟩
  · obtain ⟨a, c, ht⟩ := trap_M h isInt tval code epc (by rw [dest_spec h _ _ hc]; exact hd)
    rw [ht]; simp only
    rw [target_eq hw hw', Spec.entry]
    rcases hv with hv | hv
    · simp [hv]
    · rw [if_neg hv, if_neg (by simp only [Bool.and_eq_true, decide_eq_true_eq]; exact fun h => hv h.2)]
  · obtain ⟨a, c, ht⟩ := trap_S h isInt tval code epc (by rw [dest_spec h _ _ hc]; exact hd)
    rw [ht]; simp only
    rw [target_eq hw hw', Spec.entry]
    rcases hv with hv | hv
    · simp [hv]
    · rw [if_neg hv, if_neg (by simp only [Bool.and_eq_true, decide_eq_true_eq]; exact fun h => hv h.2)]

/-- Non-vacuity: a vectored interrupt. -/
example :
    let h := run (Hart.init 64 true) [.mtvec 0x1001, .mie (.write64 0x80), .mstatus (.write64 8),
      .mip (.setBit 7 1)]
    Spec.trapMode h true 7 = M ∧ (step h (.take 0)).pc = 0x101c := by decide

/-! ### C61 -/

/-- The event takes an interrupt. -/
def tookInt (h : Hart w) : Ev w → Bool
  | .take _ => h.avail
  | _ => false

/-- The event executes a trap return. -/
def returned (h : Hart w) : Ev w → Bool
  | .mret _ => h.mode = M
  | .sret _ => !h.sretBadMode && h.mstatus.getter .tsr = 0
  | _ => false

/-- The event raises an exception. -/
def tookExc (h : Hart w) : Ev w → Bool
  | .exception .. => true
  | .mret a => !returned h (.mret a)
  | .sret a => !returned h (.sret a)
  | _ => false

/-- **C61, violated.** One exception and its return leave the depth at -1. -/
theorem C61_depth_violated :
    ∃ es : List (Ev 64), (run (Hart.init 64 true) es).depth = -1 :=
  ⟨[.exception 0 2 0, .mret 0], by decide⟩

theorem trap_counts (h : Hart w) (i : Bool) (t c e : BitVec 64) (hd : Bool) :
    (h.trap i t c e hd).taken = h.taken ∧ (h.trap i t c e hd).returns = h.returns := by
  unfold trap; simp only
  split
  · exact ⟨rfl, rfl⟩
  · split
    · obtain ⟨a, b, h1⟩ := setMstatus_frame { h with
        mepc := e.setWidth w, mtval := t.setWidth w, mcause := causeValue w i c
        pc := (target h.mtvec c).setWidth w, branch := true, mode := h.dest i c }
        (h.mstatus.update [(.mpp, h.mode.setWidth 32),
          (.mpie, (h.mstatus.getter .mie).setWidth 32), (.mie, 0)])
      rw [h1]; exact ⟨rfl, rfl⟩
    · split
      · obtain ⟨a, b, h1⟩ := setMstatus_frame { h with
          sepc := e.setWidth w, stval := t.setWidth w, scause := causeValue w i c
          pc := (target h.stvec c).setWidth w, branch := true, mode := h.dest i c }
          (h.mstatus.update [(.spp, h.mode.setWidth 32 &&& 1),
            (.spie, (h.mstatus.getter .sie).setWidth 32), (.sie, 0)])
        rw [h1]; exact ⟨rfl, rfl⟩
      · exact ⟨rfl, rfl⟩

/-- Exact accounting of one event. -/
theorem depth_step (h : Hart w) (e : Ev w) :
    (step h e).depth = h.depth + (if tookInt h e then 1 else 0) -
      (if returned h e then 1 else 0) := by
  have hmip : ∀ m, (h.setMip m).depth = h.depth := by
    intro m; obtain ⟨a, c, h1⟩ := setMip_frame h m; rw [h1]; rfl
  have hmie : ∀ m, (h.setMie m).depth = h.depth := by
    intro m; obtain ⟨a, c, h1⟩ := setMie_frame h m; rw [h1]; rfl
  have hms : ∀ m, (h.setMstatus m).depth = h.depth := by
    intro m; obtain ⟨a, c, h1⟩ := setMstatus_frame h m; rw [h1]; rfl
  have htr : ∀ i t c e hd, (h.trap i t c e hd).depth = h.depth := by
    intro i t c e hd
    obtain ⟨h1, h2⟩ := trap_counts h i t c e hd
    unfold depth; rw [h1, h2]
  cases e with
  | mip e =>
    cases e with
    | csr op => simp [step, hmip, tookInt, returned]
    | setBit s v => simp [step, hmip, tookInt, returned]
    | ext v => simp [step, tookInt, returned, depth]
  | mie op => simp [step, hmie, tookInt, returned]
  | sip v => simp [step, hmip, tookInt, returned]
  | sie v => simp [step, hmie, tookInt, returned]
  | mstatus op => simp [step, hms, tookInt, returned]
  | sstatus op => simp [step, hms, tookInt, returned]
  | mideleg op => simp [step, tookInt, returned, depth]
  | sideleg op => simp [step, tookInt, returned, depth]
  | medeleg op => simp [step, tookInt, returned, depth]
  | mtvec v => simp [step, tookInt, returned, depth]
  | stvec v => simp [step, tookInt, returned, depth]
  | mepc v => simp [step, tookInt, returned, depth]
  | sepc v => simp [step, tookInt, returned, depth]
  | exception t c ep => simp [step, htr, tookInt, returned]
  | take ep =>
    have e1 : tookInt h (.take ep) = h.avail := rfl
    have e2 : returned h (.take ep) = false := rfl
    rw [e1, e2]
    simp only [step, takeAvailable]
    by_cases ha : h.avail = true
    · obtain ⟨h1, h2⟩ := trap_counts h true 0 h.code ep false
      rw [if_pos ha, if_pos ha]
      simp only [depth, h1, h2]
      simp; omega
    · rw [if_neg ha, if_neg ha]; simp
  | mret a =>
    have e1 : tookInt h (.mret a) = false := rfl
    have e2 : returned h (.mret a) = decide (h.mode = M) := rfl
    rw [e1, e2]
    simp only [step, mret]
    by_cases hm : h.mode = M
    · obtain ⟨x, y, hb⟩ := mretBody_eff h
      rw [if_neg (by simp [hm]), hb]
      simp [depth, hm]; omega
    · rw [if_pos hm, htr]; simp [hm]
  | sret a =>
    have e1 : tookInt h (.sret a) = false := rfl
    have e2 : returned h (.sret a) = (!h.sretBadMode && decide (h.mstatus.getter .tsr = 0)) := rfl
    rw [e1, e2]
    simp only [step, sret]
    by_cases hb : h.sretBadMode = true
    · rw [if_pos hb, htr]; simp [hb]
    · rw [if_neg hb]
      by_cases ht : h.mstatus.getter .tsr = 0
      · obtain ⟨x, y, hs⟩ := sretBody_eff h
        rw [if_neg (by simp [ht]), hs]
        simp [depth, hb, ht]; omega
      · rw [if_pos ht, htr, decide_eq_false ht]; simp

/-- The handlers in progress after a history, starting with `st`. -/
def nestRun : Hart w → List Bool → List (Ev w) → List Bool
  | _, st, [] => st
  | h, st, e :: es =>
    nestRun (step h e) (Spec.nest st (tookInt h e) (tookExc h e) (returned h e)) es

/-- No exception is raised, and every return leaves a handler. -/
def IntOnly : Hart w → List Bool → List (Ev w) → Prop
  | _, _, [] => True
  | h, st, e :: es => tookExc h e = false ∧ (returned h e = true → st ≠ []) ∧
      IntOnly (step h e) (Spec.nest st (tookInt h e) (tookExc h e) (returned h e)) es

/-- **C61, partial.** In histories without exceptions and with matched returns, the depth is the
number of interrupt handlers in progress. Missing: histories with exceptions. -/
theorem C61_depth_partial (es : List (Ev w)) (h : Hart w) (st : List Bool)
    (hst : ∀ b ∈ st, b = true) (h0 : h.depth = st.length) (hi : IntOnly h st es) :
    (run h es).depth = ((nestRun h st es).filter id).length := by
  induction es generalizing h st with
  | nil =>
    have : st.filter id = st := List.filter_eq_self.2 (fun b hb => hst b hb)
    show h.depth = ((st.filter id).length : Int)
    rw [this]; exact h0
  | cons e es ih =>
    obtain ⟨he, hr, hrest⟩ := hi
    refine ih (step h e) _ ?_ ?_ hrest
    · intro b hb
      unfold Spec.nest at hb
      rw [he] at hb
      split at hb
      · rcases List.mem_cons.1 hb with rfl | hb
        · rfl
        · exact hst b hb
      · simp only [Bool.false_eq_true, if_false] at hb
        split at hb
        · exact hst b (List.mem_of_mem_tail hb)
        · exact hst b hb
    · rw [depth_step, h0, he]
      have hex : tookInt h e = true → returned h e = false := by
        cases e <;> simp [tookInt, returned]
      unfold Spec.nest
      cases ht : tookInt h e with
      | true => rw [hex ht]; simp
      | false =>
        cases hrr : returned h e with
        | false => simp
        | true =>
          have := hr hrr
          cases st with
          | nil => exact absurd rfl this
          | cons b st => simp

/-- Non-vacuity: two nested interrupts and one return satisfy the hypothesis; depth 1. -/
example :
    let es : List (Ev 64) := [.mie (.write64 0x888), .mstatus (.write64 8), .mip (.setBit 7 1),
      .take 0, .mstatus (.setBits64 8), .take 4, .mret 8]
    IntOnly (Hart.init 64 true) [] es ∧ (run (Hart.init 64 true) es).depth = 1 := by
  refine ⟨⟨by decide, by decide, by decide, by decide, by decide, by decide, by decide, by decide,
    by decide, by decide, by decide, by decide, by decide, by decide, trivial⟩, by decide⟩

end Verif.Hart
