import Verif.Exec.FpTables

/-!
# C127: floating-point instructions that do not round, from the word in memory
-/

namespace Verif.Exec

open Decode Decode.Isa Core Operands Spec

variable {ρ : Type} {H : FpState.Host}

/-- Some entry matches, and the turn with any that does is carried out and has the effect `Q`. -/
def GoesF (s : Sim) (dev : Option (Atomic.Device ρ)) (st : FSt s.xlen.bits ρ H)
    (Q : FSt s.xlen.bits ρ H → Prop) : Prop :=
  (∃ i size, Finds s (wordAt st.core) i size) ∧
  ∀ i size, Finds s (wordAt st.core) i size →
    ∃ st', turnF s i (wordAt st.core) size dev st = some st' ∧ Q st'

theorem turnsF_of {s : Sim} {dev : Option (Atomic.Device ρ)} {st : FSt s.xlen.bits ρ H}
    {Q : FSt s.xlen.bits ρ H → Prop} (h : GoesF s dev st Q) :
    (∃ st', TurnF s dev st st') ∧ ∀ st', TurnF s dev st st' → Q st' := by
  obtain ⟨⟨i, size, hf⟩, h⟩ := h
  obtain ⟨st', hs, _⟩ := h i size hf
  refine ⟨⟨st', .inl ⟨i, size, hf, hs⟩⟩, ?_⟩
  rintro st₂ (⟨j, m, hj, hs⟩ | ⟨hn, _⟩)
  · obtain ⟨st', hs', hq⟩ := h j m hj
    rw [hs] at hs'
    obtain rfl := Option.some.inj hs'
    exact hq
  · exact absurd hf (hn i size)

/-- The turn of an instruction, from what its semantic function does. -/
theorem fp_goes (s : Sim) (dev : Option (Atomic.Device ρ)) (st : FSt s.xlen.bits ρ H) (k : FSem)
    (h : IsF s.xlen (wordAt st.core) k) (Q : FSt s.xlen.bits ρ H → Prop)
    (hc : ∀ p, okF k p = true → CarriesF s (wordAt st.core) st p Q) :
    GoesF s dev st fun st' => Q st' ∧ Kept st.core st'.core := by
  obtain ⟨o, hk, hl⟩ := h
  obtain ⟨⟨e, he, hem⟩, hall⟩ := decodesF s o k hk _ (readLE_lt st.core.mem _ 4) hl
  have hlow := listed_lowF s.xlen o k hk _ hl
  refine ⟨⟨e, 4, by unfold Finds; rw [if_pos hlow]; exact ⟨he, hem, rfl⟩⟩, fun e size hf => ?_⟩
  unfold Finds at hf
  rw [if_pos hlow] at hf
  obtain ⟨he, hem, rfl⟩ := hf
  have ht := List.all_eq_true.1 (entriesF_ok s) e he
  unfold okEntryF at ht
  rw [hall e he hem, hk] at ht
  obtain ⟨p, hp, hok⟩ := Option.any_eq_true _ _ |>.1 ht
  obtain ⟨st₁, e1, e2, e3, e4⟩ := hc p hok
  refine ⟨closeF st₁ (st.core.hart.pc.setWidth 64) 4, ?_, e2, kept_next _ _ _ _ e3 e4⟩
  unfold turnF
  rw [hp]
  show (carryF s (wordAt st.core) (st.core.hart.pc.setWidth 64) st p).map _ = _
  rw [e1]
  rfl

theorem toX_rv64 {s : Sim} {w : Nat} {k : FSem} (h : IsF s.xlen w k) (e : k = .toX .d) : s.xlen = .rv64 := by
  obtain ⟨o, hk, _⟩ := h
  subst e
  exact fkind_toX hk

theorem fp_step (hH : FpState.HostOk H) (s : Sim) (dev : Option (Atomic.Device ρ)) (st : FSt s.xlen.bits ρ H)
    (k : FSem) (h : IsF s.xlen (wordAt st.core) k) (hb : st.core.hart.branch = false)
    (hi : Hart.HInv st.core.hart) (hon : ∀ b, k = .store b → ¬ OffF st)
    (hw : ¬ WrongF s.xlen k (wordAt st.core) st) :
    GoesF s dev st fun st' => DoesF k (wordAt st.core) st st' ∧ Kept st.core st'.core :=
  fp_goes s dev st k h _ fun p hp =>
    ok_carries s (wordAt st.core) st p hH hb hi k hp hon hw (toX_rv64 h)

/-- **C127.** In every simulated core, a word that the manual gives to a load, store, sign injection,
minimum, maximum, comparison, classification or move of the F and D extensions is carried out, whichever
matching entry of the decoder is used, and has the effect the manual describes: operands of single
precision that are not boxed count as the canonical NaN, results are boxed, the flag "invalid operation" is
added to fflags exactly when the manual says so, and the other flags, the rounding mode and the rest of the
state stay.  Assumed is that the unit is on; left out are the cases of `WrongF`.  That FS becomes Dirty is
not part of `DoesF`: see `C127_dirty_violated`. -/
theorem C127_step_partial (hH : FpState.HostOk H) (s : Sim) (dev : Option (Atomic.Device ρ))
    (st : FSt s.xlen.bits ρ H) (hb : st.core.hart.branch = false) (hr : Hart.Spec.Reachable st.core.hart)
    (k : FSem) (h : IsF s.xlen (wordAt st.core) k) (hon : ¬ OffF st)
    (hw : ¬ WrongF s.xlen k (wordAt st.core) st) :
    (∃ st', TurnF s dev st st') ∧ ∀ st', TurnF s dev st st' → DoesF k (wordAt st.core) st st' := by
  have := turnsF_of (fp_step hH s dev st k h hb (Hart.hinv_reachable hr) (fun _ _ => hon) hw)
  exact ⟨this.1, fun st' ht => (this.2 st' ht).1⟩

/-! ## What goes wrong -/

theorem off_store (s : Sim) (w : Nat) (st : FSt s.xlen.bits ρ H) (p : FAct) (hi : Hart.HInv st.core.hart)
    (hb : st.core.hart.branch = false) (hoff : OffF st) (b : Nat) (h : okF (.store b) p = true) :
    CarriesF s w st p fun st' =>
      Passes st.core st'.core 4 ∧ Rest st st' ∧ st'.fregs = st.fregs ∧ st'.fp = st.fp := by
  unfold okF at h
  simp only [Bool.and_eq_true, decide_eq_true_eq, Option.isNone_iff_eq_none] at h
  obtain ⟨hs, ⟨⟨⟨_, hk⟩, _⟩, _⟩, _⟩ := h
  refine ⟨st, ?_, ⟨next_passes (bits_le _) st.core hb 4, ⟨rfl, rfl⟩, rfl, rfl⟩, hi, rfl⟩
  unfold carryF
  rw [hs, hk]
  show storeF s w _ b p.ops st = _
  unfold storeF
  rw [if_pos ((unitOff_iff st).2 hoff)]

/-- **C127** fails when the unit is off: the manual asks for an illegal instruction exception, but the
instructions are carried out as if it were on, and the stores pass without storing anything. -/
theorem C127_off_violated (hH : FpState.HostOk H) (s : Sim) (dev : Option (Atomic.Device ρ))
    (st : FSt s.xlen.bits ρ H) (hb : st.core.hart.branch = false) (hr : Hart.Spec.Reachable st.core.hart)
    (k : FSem) (h : IsF s.xlen (wordAt st.core) k) (hoff : OffF st)
    (hw : ¬ WrongF s.xlen k (wordAt st.core) st) :
    (∃ st', TurnF s dev st st') ∧ ∀ st', TurnF s dev st st' →
      ((∀ b, k ≠ .store b) → DoesF k (wordAt st.core) st st') ∧
      (∀ b, k = .store b →
        Passes st.core st'.core 4 ∧ Rest st st' ∧ st'.fregs = st.fregs ∧ st'.fp = st.fp) := by
  have hi := Hart.hinv_reachable hr
  by_cases hs : ∃ b, k = .store b
  · obtain ⟨b, rfl⟩ := hs
    have := turnsF_of (fp_goes s dev st (.store b) h _ fun p hp => off_store s _ st p hi hb hoff b hp)
    exact ⟨this.1, fun st' ht => ⟨fun hn => absurd rfl (hn b), fun _ _ => (this.2 st' ht).1⟩⟩
  · have := turnsF_of (fp_step hH s dev st k h hb hi (fun b e => absurd ⟨b, e⟩ hs) hw)
    exact ⟨this.1, fun st' ht => ⟨fun _ => (this.2 st' ht).1, fun b e => absurd ⟨b, e⟩ hs⟩⟩

/-- **C127** fails for mstatus: the manual has FS become Dirty (3) when a floating-point register or a flag
is written, but an instruction that writes a floating-point register leaves mstatus as it is. -/
theorem C127_dirty_violated (hH : FpState.HostOk H) (s : Sim) (dev : Option (Atomic.Device ρ))
    (st : FSt s.xlen.bits ρ H) (hb : st.core.hart.branch = false) (hr : Hart.Spec.Reachable st.core.hart)
    (k : FSem) (h : IsF s.xlen (wordAt st.core) k)
    (hk : (∃ p o, k = .sign p o) ∨ (∃ p m, k = .minMax p m) ∨ (∃ p, k = .fromX p)) :
    (∃ st', TurnF s dev st st') ∧ ∀ st', TurnF s dev st st' →
      st'.core.hart.mstatus = st.core.hart.mstatus := by
  have hns : ∀ b, k = .store b → ¬ OffF st := by
    rintro b rfl
    rcases hk with ⟨p, o, e⟩ | ⟨p, m, e⟩ | ⟨p, e⟩ <;> cases e
  have hw : ¬ WrongF s.xlen k (wordAt st.core) st := by
    rcases hk with ⟨p, o, rfl⟩ | ⟨p, m, rfl⟩ | ⟨p, rfl⟩ <;> exact id
  have := turnsF_of (fp_step hH s dev st k h hb (Hart.hinv_reachable hr) hns hw)
  refine ⟨this.1, fun st' ht => ?_⟩
  have hd := (this.2 st' ht).1
  have hp : Passes st.core st'.core 4 := by
    rcases hk with ⟨p, o, rfl⟩ | ⟨p, m, rfl⟩ | ⟨p, rfl⟩
    · obtain ⟨_, _, _, _, _, hg⟩ := hd; exact hg.1
    · obtain ⟨_, _, _, _, _, hg⟩ := hd; exact hg.1
    · exact hd.2.1
  obtain ⟨p, _, e, _⟩ := hp
  rw [e.1]

/-- **C127** fails for comparisons of single precision on RV32: they compare the lower halves of the
registers, boxed or not. -/
theorem C127_compare_violated (hH : FpState.HostOk H) (s : Sim) (hx : s.xlen = .rv32)
    (dev : Option (Atomic.Device ρ)) (st : FSt s.xlen.bits ρ H) (hb : st.core.hart.branch = false)
    (hr : Hart.Spec.Reachable st.core.hart) (o : CmpOp) (h : IsF s.xlen (wordAt st.core) (.cmp .s o)) :
    ∃ a b, NaNBox.Spec.Low Fp.single (st.fregs (rs1 (wordAt st.core))) a ∧
      NaNBox.Spec.Low Fp.single (st.fregs (rs2 (wordAt st.core))) b ∧
      (∃ st', TurnF s dev st st') ∧ ∀ st', TurnF s dev st st' →
        Accrues st st' (InvalidCmp o a b) ∧
        GivesX st st' (rd (wordAt st.core)) fun v =>
          (Compares o a b → v.toNat = 1) ∧ (¬ Compares o a b → v.toNat = 0) := by
  have e : ∀ r, operandC s.xlen.bits .s r = NaNBox.plainSource Fp.single r := by
    intro r
    show NaNBox.boxedSource s.xlen.bits Fp.single r = _
    unfold NaNBox.boxedSource
    rw [if_pos (by rw [hx]; decide)]
  have := turnsF_of (fp_goes s dev st (.cmp .s o) h _ fun p hp =>
    cmp_any s _ st p hH hb (Hart.hinv_reachable hr) .s o hp)
  rw [e, e] at this
  exact ⟨_, _, low_plain _, low_plain _, this.1, fun st' ht => (this.2 st' ht).1⟩

/-- **C127** fails for `fclass.s`: it classifies the lower half of the register, boxed or not, and on RV64
leaves the upper half of rd as it was. -/
theorem C127_fclass_violated (s : Sim) (dev : Option (Atomic.Device ρ)) (st : FSt s.xlen.bits ρ H)
    (hb : st.core.hart.branch = false) (hr : Hart.Spec.Reachable st.core.hart)
    (h : IsF s.xlen (wordAt st.core) (.classify .s)) :
    ∃ a, NaNBox.Spec.Low Fp.single (st.fregs (rs1 (wordAt st.core))) a ∧
      (∃ st', TurnF s dev st st') ∧ ∀ st', TurnF s dev st st' → st'.fp = st.fp ∧
        GivesX st st' (rd (wordAt st.core)) fun v => ∃ c, FpClass.Spec.Is a c ∧
          v.toNat = 2 ^ c.bit + (X st.core (rd (wordAt st.core))).toNat / 2 ^ 32 * 2 ^ 32 := by
  have := turnsF_of (fp_goes s dev st (.classify .s) h _ fun p hp =>
    classify_any s _ st p hb (Hart.hinv_reachable hr) .s hp
      (fun v => ∃ c, FpClass.Spec.Is (NaNBox.plainSource Fp.single (st.fregs (rs1 (wordAt st.core)))) c ∧
        v.toNat = 2 ^ c.bit + (X st.core (rd (wordAt st.core))).toNat / 2 ^ 32 * 2 ^ 32)
      (classS_any s.xlen _ _))
  exact ⟨_, low_plain _, this.1, fun st' ht => (this.2 st' ht).1⟩

/-! ## Many instructions -/

theorem dst_freg (s : Sim) (w : Nat) (a : Act) (h : isFreg ((firstOpd a.dsts[0]?).bind s.dest) = true) :
    dstAt s w a 0 = none := by
  unfold dstAt
  cases hd : a.dsts[0]? with
  | none => rfl
  | some g =>
    cases g with
    | one o =>
      rw [hd] at h
      change isFreg (s.dest o) = true at h
      dsimp only
      cases hs : s.dest o with
      | none => rfl
      | some t =>
        rw [hs] at h
        cases t <;> first | (cases h; done) | rfl
    | _ => rfl

theorem turnF_load (s : Sim) (q q' : Phase) (c : Code) (hcc : q.fn = some c) (m : Nat)
    (t1 : ∀ k, fn s.xlen c.name = some k → ∃ z : Mem.Size, k = .load z ∧ z.bytes = m) (b : FpMem.Back)
    (hbk : backs s q' = true) (w size : Nat) (st : FSt s.xlen.bits ρ H) (a a' : Act)
    (hq1 : act s.xlen q = some a) (hq2 : act s.xlen q' = some a') (c₁ : Core s.xlen.bits)
    (h : carry s w (st.core.hart.pc.setWidth 64) size st.core [a, a'] = some c₁) :
    fpTurn s ⟨.load m, opsOf q, some (b, opsOf q')⟩ w size st =
      some (st.withCore (next c₁ (st.core.hart.pc.setWidth 64) size)) := by
  unfold act at hq1 hq2
  rw [hcc, Option.bind_some] at hq1
  obtain ⟨k, hk, rfl⟩ := Option.map_eq_some_iff.1 hq1
  obtain ⟨k', _, rfl⟩ := Option.map_eq_some_iff.1 hq2
  obtain ⟨z, rfl, rfl⟩ := t1 k hk
  have h' : pair s w (st.core.hart.pc.setWidth 64) ⟨.load z, q.srcs, q.dsts⟩ ⟨k', q'.srcs, q'.dsts⟩ st.core =
      some c₁ := h
  unfold pair at h'
  have key : carryF s w (st.core.hart.pc.setWidth 64) st ⟨.load z.bytes, opsOf q, some (b, opsOf q')⟩ =
      some (st.withCore c₁) := by
    show loadF s w _ z.bytes (opsOf q) (b, opsOf q') st = _
    unfold loadF addressF
    rw [show ∀ j, srcAt s w st.core (opsOf q) j = srcAt s w st.core ⟨.load z, q.srcs, q.dsts⟩ j from fun _ => rfl]
    rw [show ∀ j, srcAt s w st.core (opsOf q) j = srcAt s w st.core ⟨.load z, q.srcs, q.dsts⟩ j from fun _ => rfl]
    dsimp only at h'
    split at h'
    · rename_i z' sz' sgn hz _
      cases hz
      cases h0 : srcAt s w st.core ⟨.load z, q.srcs, q.dsts⟩ 0 with
      | none => rw [h0] at h'; cases h'
      | some v0 =>
        cases h1 : srcAt s w st.core ⟨.load z, q.srcs, q.dsts⟩ 1 with
        | none => rw [h0, h1] at h'; cases h'
        | some v1 =>
          rw [h0, h1] at h'
          simp only [Option.bind_eq_bind, Option.bind_some] at h'
          simp only [Option.bind_some, Option.map_some]
          cases hl : Mem.load st.core ((v0 + v1).setWidth 64) z.bytes (st.core.hart.pc.setWidth 64) false with
          | trapped c' =>
            rw [hl] at h'
            cases h'
            rfl
          | value v =>
            rw [hl] at h'
            dsimp only at h'
            rw [show dstAt s w ⟨.child sz' sgn, q'.srcs, q'.dsts⟩ 0 = none from
              dst_freg s w ⟨.child sz' sgn, q'.srcs, q'.dsts⟩ hbk] at h'
            cases h'
    · cases h'
  unfold fpTurn
  rw [key]
  rfl

/-- A turn of the smaller model is a turn of this one. -/
theorem turnF_of (s : Sim) (i : Inst) (w size : Nat) (dev : Option (Atomic.Device ρ)) (st : FSt s.xlen.bits ρ H)
    (x' : XSt s.xlen.bits ρ) (h : turnI s i w size dev st.x = some x') :
    turnF s i w size dev st = some { st with x := x' } := by
  unfold turnF
  cases hp : fpActs s i.op with
  | none =>
    show Option.map _ (turnI s i w size dev st.x) = _
    rw [h, Option.map_some]
  | some p =>
    show fpTurn s p w size st = _
    cases hf : (s.isa.instrs.find? fun e => e.name == opName i.op) with
    | none => unfold fpActs at hp; rw [hf] at hp; cases hp
    | some e =>
      have hp' : fpParts s e.phases = some p := by unfold fpActs at hp; rw [hf] at hp; exact hp
      have ha : acts s i.op = e.phases.mapM (act s.xlen) := by unfold acts; rw [hf]; rfl
      have hs : sysActs s i.op = sysParts s.xlen e.phases := by unfold sysActs; rw [hf]; rfl
      have hc : csrActs s i.op = csrPart s.xlen e.phases := by unfold csrActs; rw [hf]; rfl
      have hu : isUnimp s i.op = isUnimpPart e.phases := by unfold isUnimp; rw [hf]; rfl
      revert hp' ha hs hc hu
      generalize e.phases = ps
      intro hp' ha hs hc hu
      rcases ps with _ | ⟨q, _ | ⟨q', l⟩⟩
      · cases hp'
      · exfalso
        have h1 : fpOne s q = some p := hp'
        unfold fpOne at h1
        obtain ⟨m, hm, _⟩ := Option.map_eq_some_iff.1 h1
        obtain ⟨c, hcc, hm⟩ := Option.bind_eq_some_iff.1 hm
        obtain ⟨t1, t2, t3, t4⟩ := fpFn_other _ _ _ hm
        have ha' : acts s i.op = none := by rw [ha]; simp [List.mapM_cons, act, hcc, t1]
        have hs' : sysActs s i.op = none := by rw [hs]; simp [sysParts, sysAct, hcc, t2]
        have hc' : csrActs s i.op = none := by rw [hc]; simp [csrPart, csrAct, hcc, t3]
        have hu' : isUnimp s i.op = false := by rw [hu]; simp [isUnimpPart, hcc, t4]
        unfold turnI at h
        dsimp only at h
        rw [hu', if_neg (by decide)] at h
        rcases describedZ s dev _ _ _ _ _ h with h | h | h
        · exact h ha'
        · exact h hs'
        · exact h hc'
      · rcases l with _ | ⟨q'', l⟩
        · have h1 : fpTwo s q q' = some p := hp'
          unfold fpTwo at h1
          split at h1
          · rename_i hbk
            obtain ⟨m, hm, h2⟩ := Option.bind_eq_some_iff.1 h1
            obtain ⟨b, hb, rfl⟩ := Option.map_eq_some_iff.1 h2
            obtain ⟨c, hcc, hm⟩ := Option.bind_eq_some_iff.1 hm
            obtain ⟨t2, t1⟩ := fpLoad_fn _ _ _ hm
            have hs' : sysActs s i.op = none := by rw [hs]; simp [sysParts, sysAct, hcc, t2]
            have hc' : csrActs s i.op = none := by rw [hc]; rfl
            have hu' : isUnimp s i.op = false := by rw [hu]; rfl
            unfold turnI at h
            dsimp only at h
            rw [hu', if_neg (by decide)] at h
            unfold turnZ at h
            rw [hc'] at h
            obtain ⟨y, hy, rfl⟩ := Option.map_eq_some_iff.1 h
            unfold turnX at hy
            cases ha2 : acts s i.op with
            | none =>
              rw [ha2] at hy
              unfold sysTurn at hy
              rw [hs'] at hy
              cases hy
            | some as =>
              rw [ha2] at hy
              obtain ⟨c', ht, rfl⟩ := Option.map_eq_some_iff.1 hy
              unfold turn at ht
              dsimp only at ht
              rw [ha2, Option.bind_some] at ht
              obtain ⟨c₁, hcar, rfl⟩ := Option.map_eq_some_iff.1 ht
              rw [ha2] at ha
              cases hq1 : act s.xlen q with
              | none => simp [List.mapM_cons, hq1] at ha
              | some a =>
                cases hq2 : act s.xlen q' with
                | none => simp [List.mapM_cons, hq1, hq2] at ha
                | some a' =>
                  have : as = [a, a'] := by simpa [List.mapM_cons, hq1, hq2] using ha
                  subst this
                  exact turnF_load s q q' c hcc m t1 b hbk w size st a a' hq1 hq2 c₁ hcar
          · cases h1
        · cases hp'

theorem meantI_each (s : Sim) (dev : Option (Atomic.Device ρ))
    (hdev : ∀ d, dev = some d → Atomic.Spec.Contract d) (st : XSt s.xlen.bits ρ)
    (hb : st.base.core.hart.branch = false) (hpc : st.base.core.hart.pc.toNat % 2 = 0)
    (hz : st.base.core.regs 0#5 = 0#s.xlen.bits) (hi : Hart.HInv st.base.core.hart) (h : MeantI s dev st)
    (i : Inst) (size : Nat) (hf : Finds s (wordAt st.base.core) i size) :
    ∃ st', turnI s i (wordAt st.base.core) size dev st = some st' := by
  have hle : st.base.core.hart.pc.toNat ≤ st.base.core.limit.toNat →
      ¬ st.base.core.limit < st.base.core.hart.pc.setWidth 64 := by
    intro hl
    rw [BitVec.lt_def, BitVec.toNat_setWidth, Nat.mod_eq_of_lt (by
      have := st.base.core.hart.pc.isLt
      exact Nat.lt_of_lt_of_le this (Nat.pow_le_pow_right (by decide) (bits_le _)))]
    omega
  cases h with
  | insn h =>
    obtain ⟨st', ht, _⟩ := (meantZ_goes s dev hdev st hb hpc hz hi h).2 i size hf
    refine ⟨st', ?_⟩
    unfold turnI
    dsimp only
    rw [not_unimp_fn s i.op (describedZ s dev _ _ _ _ _ ht)]
    exact ht
  | nothing h hu =>
    obtain ⟨⟨st', ht⟩, hall⟩ := C126_unassigned_partial s dev st h hu
    exfalso
    obtain ⟨j, hj, hm⟩ := (finds_iff s _).1 ⟨i, size, hf⟩
    have hw : partFor (wordAt st.base.core) < 2 ^ 32 := by
      have := readLE_lt st.base.core.mem (st.base.core.hart.pc.setWidth 64) 4
      unfold partFor
      split
      · exact this
      · have := Nat.mod_lt (wordAt st.base.core) (show 2 ^ 16 > 0 by decide); omega
    have hl := C71_decoded_partial _ j hj (fun ho => by rw [hu j hj ho] at hm; cases hm) _ hw hm
    rw [xlenFor] at hl
    exact h _ ⟨j, hj, rfl⟩ hl
  | unimp h hl =>
    obtain ⟨_, h2, _, h4⟩ := unimp_entries s
    rcases h with h | h
    · exact ⟨_, unimp_key s dev st (hle hl) (by rw [h]; exact h2) i size hf⟩
    · have h3 : wordAt st.base.core &&& 3 ≠ 3 := by
        rw [show wordAt st.base.core &&& 3 = wordAt st.base.core % 4 from Nat.and_two_pow_sub_one_eq_mod _ 2]
        omega
      have hd : decoderFor s (wordAt st.base.core) = s.decoder16 := if_neg h3
      have hp : partFor (wordAt st.base.core) = 0 := by unfold partFor; rw [if_neg h3, h]
      exact ⟨_, unimp_key s dev st (hle hl) (by rw [hd, hp]; exact h4) i size hf⟩

/-- The instructions of C126 in this model: the floating-point state stays. -/
theorem meantI_turnsF (s : Sim) (dev : Option (Atomic.Device ρ))
    (hdev : ∀ d, dev = some d → Atomic.Spec.Contract d) (st : FSt s.xlen.bits ρ H)
    (hb : st.core.hart.branch = false) (hpc : st.core.hart.pc.toNat % 2 = 0)
    (hz : st.core.regs 0#5 = 0#s.xlen.bits) (hi : Hart.HInv st.core.hart) (h : MeantI s dev st.x) :
    (∃ st', TurnF s dev st st') ∧ ∀ st', TurnF s dev st st' →
      (st'.fregs = st.fregs ∧ st'.fp = st.fp ∧ EffectI s dev st.x st'.x) ∧ Kept st.core st'.core := by
  obtain ⟨⟨x', hx⟩, hall⟩ := meantI_step s dev hdev st.x hb hpc hz hi h
  have key : ∀ st', TurnF s dev st st' → ∃ y, TurnI s dev st.x y ∧ st' = { st with x := y } := by
    rintro st' (⟨i, size, hf, ht⟩ | ⟨hn, rfl⟩)
    · obtain ⟨y, hy⟩ := meantI_each s dev hdev st.x hb hpc hz hi h i size hf
      rw [show turnF s i (wordAt st.core) size dev st = _ from turnF_of s i _ size dev st y hy] at ht
      exact ⟨y, .inl ⟨i, size, hf, hy⟩, (Option.some.inj ht).symm⟩
    · exact ⟨_, .inr ⟨hn, rfl⟩, rfl⟩
  refine ⟨?_, fun st' ht => ?_⟩
  · rcases hx with ⟨i, size, hf, hy⟩ | ⟨hn, rfl⟩
    · exact ⟨_, .inl ⟨i, size, hf, turnF_of s i _ size dev st x' hy⟩⟩
    · exact ⟨_, .inr ⟨hn, rfl⟩⟩
  · obtain ⟨y, hy, rfl⟩ := key st' ht
    exact ⟨⟨rfl, rfl, (hall y hy).1⟩, (hall y hy).2⟩

/-- The word at the program counter: an instruction or a word of C126, or one of these instructions, apart
from the cases left out. -/
inductive MeantF (s : Sim) (dev : Option (Atomic.Device ρ)) (st : FSt s.xlen.bits ρ H) : Prop where
  | other (h : MeantI s dev st.x)
  | fp (k : FSem) (h : IsF s.xlen (wordAt st.core) k) (hon : ¬ OffF st)
      (hw : ¬ WrongF s.xlen k (wordAt st.core) st)

/-- The effect of the word. -/
def EffectF (s : Sim) (dev : Option (Atomic.Device ρ)) (st st' : FSt s.xlen.bits ρ H) : Prop :=
  (st'.fregs = st.fregs ∧ st'.fp = st.fp ∧ EffectI s dev st.x st'.x) ∨
  (∃ k, IsF s.xlen (wordAt st.core) k ∧ DoesF k (wordAt st.core) st st')

theorem meantF_step (hH : FpState.HostOk H) (s : Sim) (dev : Option (Atomic.Device ρ))
    (hdev : ∀ d, dev = some d → Atomic.Spec.Contract d) (st : FSt s.xlen.bits ρ H)
    (hb : st.core.hart.branch = false) (hpc : st.core.hart.pc.toNat % 2 = 0)
    (hz : st.core.regs 0#5 = 0#s.xlen.bits) (hi : Hart.HInv st.core.hart) (h : MeantF s dev st) :
    (∃ st', TurnF s dev st st') ∧
      ∀ st', TurnF s dev st st' → EffectF s dev st st' ∧ Kept st.core st'.core := by
  cases h with
  | other h =>
    have := meantI_turnsF s dev hdev st hb hpc hz hi h
    exact ⟨this.1, fun st' ht => ⟨.inl (this.2 st' ht).1, (this.2 st' ht).2⟩⟩
  | fp k h hon hw =>
    have := turnsF_of (fp_step hH s dev st k h hb hi (fun _ _ => hon) hw)
    exact ⟨this.1, fun st' ht => ⟨.inr ⟨k, h, (this.2 st' ht).1⟩, (this.2 st' ht).2⟩⟩

/-- **C127**, for a whole run that mixes these instructions with those of C120, C121, C124, C125 and C126:
every turn has the effect the manual describes, and the run can go on. -/
theorem C127_run_partial (hH : FpState.HostOk H) (s : Sim) (dev : Option (Atomic.Device ρ))
    (hdev : ∀ d, dev = some d → Atomic.Spec.Contract d) (sts : List (FSt s.xlen.bits ρ H))
    (st : FSt s.xlen.bits ρ H) (hb : st.core.hart.branch = false)
    (hz : st.core.regs 0#5 = 0#s.xlen.bits) (hr : Hart.Spec.Reachable st.core.hart)
    (ht : Chain (TurnF s dev) st sts)
    (hok : ∀ d ∈ st :: sts, d.core.hart.pc.toNat % 2 = 0 ∧ MeantF s dev d) :
    Chain (EffectF s dev) st sts ∧ ∃ st', TurnF s dev (sts.getLastD st) st' := by
  have hi := Hart.hinv_reachable hr
  clear hr
  induction sts generalizing st with
  | nil =>
    obtain ⟨hpc, hm⟩ := hok st (by simp)
    exact ⟨trivial, (meantF_step hH s dev hdev st hb hpc hz hi hm).1⟩
  | cons d sts ih =>
    obtain ⟨hpc, hm⟩ := hok st (by simp)
    obtain ⟨he, hi', hb', hz'⟩ := (meantF_step hH s dev hdev st hb hpc hz hi hm).2 d ht.1
    have := ih d hb' (hz'.trans hz) ht.2 (fun e he => hok e (List.mem_cons_of_mem _ he)) hi'
    refine ⟨⟨he, this.1⟩, ?_⟩
    have e : (d :: sts).getLastD st = sts.getLastD d := by cases sts <;> rfl
    rw [e]; exact this.2

/-! ## Examples -/

/-- `fsgnj.s f1, f2, f3` with 1.0 in f2 and -2.0 in f3, both boxed. -/
def signs : FSt Sim.rv64g.xlen.bits (Option (BitVec 64)) FpState.x86 :=
  { x := oneWord 0x1000#64 0xd3#8 0x00#8 0x31#8 0x20#8
    fregs := fun r => if r = 2#5 then 0xffffffff3f800000#64 else if r = 3#5 then 0xffffffffc0000000#64 else 0#64
    fp := FpState.init FpState.x86 }

example : IsF .rv64 (wordAt signs.core) (.sign .s .copy) ∧ ¬ OffF signs ∧
    ¬ WrongF .rv64 (.sign .s .copy) (wordAt signs.core) signs ∧ FpState.HostOk FpState.x86 := by
  refine ⟨⟨.fsgnj_s, rfl, _, rfl, ?_⟩, ?_, id, FpState.x86_ok⟩
  · unfold Enc.assigns; decide +kernel
  · unfold OffF; decide +kernel

/-- What a turn leaves somewhere in the state, with the first matching entry. -/
def firstF {α : Type} (s : Sim) (st : FSt s.xlen.bits (Option (BitVec 64)) FpState.x86)
    (get : FSt s.xlen.bits (Option (BitVec 64)) FpState.x86 → α) : Option α :=
  (s.decoder.insts.find? fun i => i.matches (wordAt st.core)).bind fun i =>
    (turnF s i (wordAt st.core) 4 none st).map get

/-- f1 is now -1.0, boxed. -/
example : firstF .rv64g signs (fun st => (st.fregs 1#5).toNat) = some 0xffffffffbf800000 := by decide +kernel

/-- `feq.s x5, f2, f2` on RV32 with 1.0 in f2, not boxed. -/
def compares : FSt Sim.rv32g.xlen.bits (Option (BitVec 64)) FpState.x86 :=
  { x :=
    { base :=
      { core :=
          { hart := { Hart.Hart.init 32 true with pc := 0x1000#32 }
            regs := fun _ => 0#32
            mem := fun a =>
              if a = 0x1000#64 then 0xd3#8 else if a = 0x1001#64 then 0x22#8
              else if a = 0x1002#64 then 0x21#8 else if a = 0x1003#64 then 0xa0#8 else 0#8
            limit := 0xffff#64
            hasC := true }
        resv := none }
      csrs := builtCsrs 32 false }
    fregs := fun _ => 0x3f800000#64
    fp := FpState.init FpState.x86 }

/-- x5 is 1, although the manual has the register count as a NaN. -/
example : IsF .rv32 (wordAt compares.core) (.cmp .s .eq) ∧
    firstF .rv32g compares (fun st => (st.core.regs 5#5).toNat) = some 1 ∧
    ¬ BoxedS compares (rs1 (wordAt compares.core)) := by
  refine ⟨⟨.fcmpeq_s, rfl, _, rfl, ?_⟩, by decide +kernel, ?_⟩
  · unfold Enc.assigns; decide +kernel
  · intro h
    have := h 40 (by decide) (by decide)
    revert this
    decide +kernel

/-- `fclass.s x5, f2` on RV64 with -1 in x5. -/
def classifies : FSt Sim.rv64g.xlen.bits (Option (BitVec 64)) FpState.x86 :=
  { signs with x :=
      { oneWord 0x1000#64 0xd3#8 0x12#8 0x01#8 0xe0#8 with base :=
        { core := { (oneWord 0x1000#64 0xd3#8 0x12#8 0x01#8 0xe0#8).base.core with
            regs := fun r => if r = 5#5 then BitVec.allOnes 64 else 0#64 }
          resv := none } } }

/-- x5 is 0xffffffff00000040 and not 0x40. -/
example : IsF .rv64 (wordAt classifies.core) (.classify .s) ∧
    firstF .rv64g classifies (fun st => (st.core.regs 5#5).toNat) = some 0xffffffff00000040 := by
  refine ⟨⟨.fclass_s, rfl, _, rfl, ?_⟩, by decide +kernel⟩
  unfold Enc.assigns; decide +kernel

/-- `fsw f3, 8(x10)` with the unit off. -/
def stores (on : Bool) : FSt Sim.rv64g.xlen.bits (Option (BitVec 64)) FpState.x86 :=
  { signs with x :=
      { oneWord 0x1000#64 0x27#8 0x24#8 0x35#8 0x00#8 with base :=
        { core := { (oneWord 0x1000#64 0x27#8 0x24#8 0x35#8 0x00#8).base.core with
            hart := { (oneWord 0x1000#64 0x27#8 0x24#8 0x35#8 0x00#8).base.core.hart with
              mstatus := if on then (Hart.Hart.init 64 true).mstatus
                else { (Hart.Hart.init 64 true).mstatus with value := 0 } } }
          resv := none } } }

/-- With the unit off nothing is stored and there is no exception. -/
example : IsF .rv64 (wordAt (stores false).core) (.store 4) ∧ OffF (stores false) ∧ ¬ OffF (stores true) ∧
    firstF .rv64g (stores false) (fun st => (st.core.mem 11#64).toNat) = some 0 ∧
    firstF .rv64g (stores false) (fun st => st.core.hart.pc.toNat) = some 0x1004 ∧
    firstF .rv64g (stores true) (fun st => (st.core.mem 11#64).toNat) = some 0xc0 := by
  refine ⟨⟨.fsw, rfl, _, rfl, ?_⟩, ?_, ?_, by decide +kernel, by decide +kernel, by decide +kernel⟩
  · unfold Enc.assigns; decide +kernel
  · unfold OffF; decide +kernel
  · unfold OffF; decide +kernel

end Verif.Exec
