import Verif.Exec.FaTables
import Verif.Exec.PropsF

/-!
# C129: floating-point arithmetic, from the word in memory
-/

namespace Verif.Exec

open Decode Decode.Isa Core Operands Spec

variable {ρ : Type} {H : FpState.Host}

/-- Some entry matches, and the turn with any that does is carried out and has the effect `Q`. -/
def GoesA (A : Arith H) (s : Sim) (dev : Option (Atomic.Device ρ)) (st : FSt s.xlen.bits ρ H)
    (Q : FSt s.xlen.bits ρ H → Prop) : Prop :=
  (∃ i size, Finds s (wordAt st.core) i size) ∧
  ∀ i size, Finds s (wordAt st.core) i size →
    ∃ st', turnA A s i (wordAt st.core) size dev st = some st' ∧ Q st'

theorem turnsA_of {A : Arith H} {s : Sim} {dev : Option (Atomic.Device ρ)} {st : FSt s.xlen.bits ρ H}
    {Q : FSt s.xlen.bits ρ H → Prop} (h : GoesA A s dev st Q) :
    (∃ st', TurnA A s dev st st') ∧ ∀ st', TurnA A s dev st st' → Q st' := by
  obtain ⟨⟨i, size, hf⟩, h⟩ := h
  obtain ⟨st', hs, _⟩ := h i size hf
  refine ⟨⟨st', .inl ⟨i, size, hf, hs⟩⟩, ?_⟩
  rintro st₂ (⟨j, m, hj, hs⟩ | ⟨hn, _⟩)
  · obtain ⟨st', hs', hq⟩ := h j m hj
    rw [hs] at hs'
    obtain rfl := Option.some.inj hs'
    exact hq
  · exact absurd hf (hn i size)

/-- What a turn keeps up. -/
def KeptA (st st' : FSt n ρ H) : Prop := Kept st.core st'.core ∧ FInv st'.fp

/-- The turn of an instruction, from what its semantic function does. -/
theorem ar_goes (A : Arith H) (s : Sim) (dev : Option (Atomic.Device ρ)) (st : FSt s.xlen.bits ρ H) (k : ASem)
    (h : IsA s.xlen (wordAt st.core) k) (hi : Hart.HInv st.core.hart) (Q : FSt s.xlen.bits ρ H → Prop)
    (hc : ∀ q, okA k q = true → CarriesA A s (wordAt st.core) st q Q) :
    GoesA A s dev st fun st' => Q st' ∧ KeptA st st' := by
  obtain ⟨o, hk, hl⟩ := h
  obtain ⟨⟨e, he, hem⟩, hall⟩ := decodesA s o k hk _ (readLE_lt st.core.mem _ 4) hl
  have hlow := listed_lowA s.xlen o k hk _ hl
  refine ⟨⟨e, 4, by unfold Finds; rw [if_pos hlow]; exact ⟨he, hem, rfl⟩⟩, fun e size hf => ?_⟩
  unfold Finds at hf
  rw [if_pos hlow] at hf
  obtain ⟨he, hem, rfl⟩ := hf
  have ht := List.all_eq_true.1 (entriesA_ok s) e he
  unfold okEntryA at ht
  rw [hall e he hem, hk] at ht
  obtain ⟨q, hq, hok⟩ := Option.any_eq_true _ _ |>.1 ht
  obtain ⟨st₁, e1, e2, e3, e4⟩ := hc q hok
  refine ⟨closeF st₁ (st.core.hart.pc.setWidth 64) 4, ?_, e2,
    kept_next _ _ _ _ (by rw [e3]; exact hi) (by rw [e3]), e4⟩
  unfold turnA
  rw [hq]
  show (carryA A s (wordAt st.core) st q).map _ = _
  rw [e1]
  rfl

section
variable {A : Arith H} {after : Bool} (hH : FpState.HostOk H) (hA : DirOk A) (hie : Ieee after A) (s : Sim)
  (dev : Option (Atomic.Device ρ)) (st : FSt s.xlen.bits ρ H)

include hH hA hie in
theorem ar_step (k : ASem) (h : IsA s.xlen (wordAt st.core) k) (hb : st.core.hart.branch = false)
    (hi : Hart.HInv st.core.hart) (hv : FInv st.fp) (d : Way) (hm : InMode (wordAt st.core) st d)
    (hw : ¬ WrongA d k (wordAt st.core) st) :
    GoesA A s dev st fun st' => DoesA after d k (wordAt st.core) st st' ∧ KeptA st st' := by
  unfold WrongA at hw
  simp only [not_or] at hw
  exact ar_goes A s dev st k h hi _ fun q hq =>
    ok_carriesA hH hie s _ st q hb hv k hq d (mode_ok hA hv hm hw.1 hw.2.1) hw.2.2

/-- **C129.** In every simulated core, a word that the manual gives to an addition, subtraction,
multiplication, division, square root or fused multiply-add of the F and D extensions is carried out,
whichever matching entry of the decoder is used, and has the effect the manual describes: rd gets the exact
result, rounded in the direction of the rounding mode in the word or in frm, NaNs being canonical and
results of single precision boxed; the flags IEEE 754 asks for are added to fflags; frm and the rest of the
state stay.  The unit is on (otherwise see `C129_off_violated`).  The host is assumed to round in the
direction asked for and to be right (`HostOk`, `DirOk`, `Ieee`: shown for x86 and ARM where they concern
code of the simulator), and `FInv`, that a valid rounding mode is that in frm, holds initially and is kept
up by the runs of `C129_run_partial`.  Left out are the cases of `WrongA`. -/
theorem C129_step_partial (hH : FpState.HostOk H) (hA : DirOk A) (hie : Ieee after A)
    (hb : st.core.hart.branch = false) (hr : Hart.Spec.Reachable st.core.hart) (hv : FInv st.fp)
    (k : ASem) (h : IsA s.xlen (wordAt st.core) k) (_hon : ¬ OffF st) (d : Way)
    (hm : InMode (wordAt st.core) st d) (hw : ¬ WrongA d k (wordAt st.core) st) :
    (∃ st', TurnA A s dev st st') ∧
      ∀ st', TurnA A s dev st st' → DoesA after d k (wordAt st.core) st st' := by
  have := turnsA_of (ar_step hH hA hie s dev st k h hb (Hart.hinv_reachable hr) hv d hm hw)
  exact ⟨this.1, fun st' ht => (this.2 st' ht).1⟩

/-! ## What goes wrong -/

/-- **C129** fails when the unit is off: the manual asks for an illegal instruction exception, but the
instructions are carried out as if it were on. -/
theorem C129_off_violated (hH : FpState.HostOk H) (hA : DirOk A) (hie : Ieee after A)
    (hb : st.core.hart.branch = false) (hr : Hart.Spec.Reachable st.core.hart) (hv : FInv st.fp)
    (k : ASem) (h : IsA s.xlen (wordAt st.core) k) (_hoff : OffF st) (d : Way)
    (hm : InMode (wordAt st.core) st d) (hw : ¬ WrongA d k (wordAt st.core) st) :
    (∃ st', TurnA A s dev st st') ∧
      ∀ st', TurnA A s dev st st' → DoesA after d k (wordAt st.core) st st' := by
  have := turnsA_of (ar_step hH hA hie s dev st k h hb (Hart.hinv_reachable hr) hv d hm hw)
  exact ⟨this.1, fun st' ht => (this.2 st' ht).1⟩

/-- **C129** fails for three rounding modes in the word: 4 is to nearest, ties away from zero, and 5 and 6
are reserved, where the manual asks for an illegal instruction exception, but with each of them the
instruction rounds to nearest, ties to even. -/
theorem C129_static_violated (hH : FpState.HostOk H) (hA : DirOk A) (hie : Ieee after A)
    (hb : st.core.hart.branch = false) (hr : Hart.Spec.Reachable st.core.hart) (hv : FInv st.fp)
    (k : ASem) (h : IsA s.xlen (wordAt st.core) k)
    (hm : rmField (wordAt st.core) = 4#3 ∨ rmField (wordAt st.core) = 5#3 ∨ rmField (wordAt st.core) = 6#3)
    (hw : ¬ WrongK .nearestEven k (wordAt st.core) st) :
    (∃ st', TurnA A s dev st st') ∧
      ∀ st', TurnA A s dev st st' → DoesA after .nearestEven k (wordAt st.core) st st' := by
  have hm' : 4 ≤ (rmField (wordAt st.core)).toNat ∧ (rmField (wordAt st.core)).toNat ≤ 6 := by
    rcases hm with e | e | e <;> rw [e] <;> decide
  have := turnsA_of (ar_goes A s dev st k h (Hart.hinv_reachable hr) _ fun q hq =>
    ok_carriesA hH hie s _ st q hb hv k hq _ (mode_other hA hm'.1 hm'.2) hw)
  exact ⟨this.1, fun st' ht => (this.2 st' ht).1⟩

end

/-- **C129** fails with the dynamic rounding mode once the simulator has taken it to be invalid, which
happens when a reserved mode is written to frm and is not undone by writing another: the manual asks for
an illegal instruction exception while the mode is reserved, and for rounding in that mode later, but
sums, differences, products, quotients and fused multiply-adds are passed over without any effect, and the
square root of a positive number is the canonical NaN. -/
theorem C129_dynamic_violated (A : Arith H) (s : Sim) (dev : Option (Atomic.Device ρ)) (st : FSt s.xlen.bits ρ H)
    (hb : st.core.hart.branch = false) (hr : Hart.Spec.Reachable st.core.hart) (hv : FInv st.fp)
    (k : ASem) (h : IsA s.xlen (wordAt st.core) k) (hm : rmField (wordAt st.core) = 7#3)
    (hva : st.fp.valid = false) :
    ((∀ p, k ≠ .sqrt p) → (∃ st', TurnA A s dev st st') ∧ ∀ st', TurnA A s dev st st' →
      Passes st.core st'.core 4 ∧ Rest st st' ∧ st'.fregs = st.fregs ∧ st'.fp = st.fp) ∧
    (∀ p a, k = .sqrt p → ValueF p st (rs1 (wordAt st.core)) a → ¬ FpFma.Spec.NaN a →
      ¬ FpFma.Spec.IsZero a → a.msb = false →
      (∃ st', TurnA A s dev st st') ∧ ∀ st', TurnA A s dev st st' →
        st'.fp = st.fp ∧ GivesF p st st' (rd (wordAt st.core)) fun v => v = Fp.canonicalNaN p.fmt) := by
  have hi := Hart.hinv_reachable hr
  refine ⟨fun hk => ?_, fun p a hk ha hn hz hneg => ?_⟩
  · have := turnsA_of (ar_goes A s dev st k h hi (fun st' =>
        Passes st.core st'.core 4 ∧ Rest st st' ∧ st'.fregs = st.fregs ∧ st'.fp = st.fp) fun q hq => by
      cases k with
      | bin p o => exact none_bin s _ st q hb hv p o hq hm hva
      | sqrt p => exact absurd rfl (hk p)
      | fma p o => exact none_fma s _ st q hb hv p o hq hm hva)
    exact ⟨this.1, fun st' ht => (this.2 st' ht).1⟩
  · subst hk
    have := turnsA_of (ar_goes A s dev st (.sqrt p) h hi _ fun q hq =>
      none_sqrt s _ st q hb hv p hq hm hva a ha hn hz hneg)
    exact ⟨this.1, fun st' ht => (this.2 st' ht).1⟩

/-- **C129** fails for fused multiply-adds of single precision whose operands are not boxed: the manual has
them count as the canonical NaN, but the lower halves of the registers are used. -/
theorem C129_unboxed_violated {A : Arith H} {after : Bool} (hH : FpState.HostOk H) (hA : DirOk A)
    (hie : Ieee after A) (s : Sim) (dev : Option (Atomic.Device ρ)) (st : FSt s.xlen.bits ρ H)
    (hb : st.core.hart.branch = false) (hr : Hart.Spec.Reachable st.core.hart) (hv : FInv st.fp)
    (o : FpFma.Spec.Op) (h : IsA s.xlen (wordAt st.core) (.fma .s o)) (d : Way)
    (hm : InMode (wordAt st.core) st d) (hd : d ≠ .nearestAway)
    (h7 : ¬ (rmField (wordAt st.core) = 7#3 ∧ st.fp.valid = false)) :
    ∃ a b c, NaNBox.Spec.Low Fp.single (st.fregs (rs1 (wordAt st.core))) a ∧
      NaNBox.Spec.Low Fp.single (st.fregs (rs2 (wordAt st.core))) b ∧
      NaNBox.Spec.Low Fp.single (st.fregs (rs3 (wordAt st.core))) c ∧
      (¬ (FpArith.Spec.InfZero a b ∧ FpFma.Spec.NaN c) → (∃ st', TurnA A s dev st st') ∧
        ∀ st', TurnA A s dev st st' → DoesFma after d .s o a b c (wordAt st.core) st st') := by
  refine ⟨plainF .s (st.fregs (rs1 (wordAt st.core))), plainF .s (st.fregs (rs2 (wordAt st.core))),
    plainF .s (st.fregs (rs3 (wordAt st.core))), plain_low .s _, plain_low .s _, plain_low .s _, fun hq => ?_⟩
  obtain ⟨c1, c2⟩ := fmaS_right hie o d _ _ _ hq
  have := turnsA_of (ar_goes A s dev st (.fma .s o) h (Hart.hinv_reachable hr) _ fun q hok =>
    carriesA_mono (fma_any s (wordAt st.core) st q hH hb hv .s o hok d (mode_ok hA hv hm hd h7) _ c1) fun st' he =>
      (⟨_, c2, he⟩ : DoesFma after d .s o _ _ _ (wordAt st.core) st st'))
  exact ⟨this.1, fun st' ht => (this.2 st' ht).1⟩

/-! ## Many instructions -/

/-- An instruction of arithmetic is none of the smaller model. -/
theorem ar_other (s : Sim) (i : Inst) (q : AAct) (h : arActs s i.op = some q) (w size : Nat)
    (dev : Option (Atomic.Device ρ)) (st : FSt s.xlen.bits ρ H) : turnF s i w size dev st = none := by
  cases hf : (s.isa.instrs.find? fun e => e.name == opName i.op) with
  | none => unfold arActs at h; rw [hf] at h; cases h
  | some e =>
    have h' : arPart e.phases = some q := by unfold arActs at h; rw [hf] at h; exact h
    have ha : acts s i.op = e.phases.mapM (act s.xlen) := by unfold acts; rw [hf]; rfl
    have hs : sysActs s i.op = sysParts s.xlen e.phases := by unfold sysActs; rw [hf]; rfl
    have hc : csrActs s i.op = csrPart s.xlen e.phases := by unfold csrActs; rw [hf]; rfl
    have hu : isUnimp s i.op = isUnimpPart e.phases := by unfold isUnimp; rw [hf]; rfl
    have hp : fpActs s i.op = fpParts s e.phases := by unfold fpActs; rw [hf]; rfl
    revert h' ha hs hc hu hp
    generalize e.phases = ps
    intro h' ha hs hc hu hp
    rcases ps with _ | ⟨p, _ | ⟨p', l⟩⟩
    · cases h'
    · obtain ⟨m, hm, _⟩ := Option.map_eq_some_iff.1 (show (p.fn.bind fun c => byName arFns c.name).map _ = _ from h')
      obtain ⟨c, hcc, hm⟩ := Option.bind_eq_some_iff.1 hm
      obtain ⟨t1, t2, t3, t4, t5⟩ := arFn_other s.xlen _ _ hm
      have ha' : acts s i.op = none := by rw [ha]; simp [List.mapM_cons, act, hcc, t1]
      have hs' : sysActs s i.op = none := by rw [hs]; simp [sysParts, sysAct, hcc, t2]
      have hc' : csrActs s i.op = none := by rw [hc]; simp [csrPart, csrAct, hcc, t3]
      have hu' : isUnimp s i.op = false := by rw [hu]; simp [isUnimpPart, hcc, t4]
      have hp' : fpActs s i.op = none := by rw [hp]; simp [fpParts, fpOne, hcc, t5]
      unfold turnF
      rw [hp']
      show Option.map _ (turnI s i w size dev st.x) = none
      cases ht : turnI s i w size dev st.x with
      | none => rfl
      | some x' =>
        exfalso
        unfold turnI at ht
        dsimp only at ht
        rw [hu', if_neg (by decide)] at ht
        rcases describedZ s dev _ _ _ _ _ ht with h | h | h
        · exact h ha'
        · exact h hs'
        · exact h hc'
    · cases h'

/-- A turn of the smaller model is a turn of this one. -/
theorem turnA_of (A : Arith H) (s : Sim) (i : Inst) (w size : Nat) (dev : Option (Atomic.Device ρ))
    (st st' : FSt s.xlen.bits ρ H) (h : turnF s i w size dev st = some st') :
    turnA A s i w size dev st = some st' := by
  unfold turnA
  cases hq : arActs s i.op with
  | none => exact h
  | some q => rw [ar_other s i q hq] at h; cases h

/-- What the smaller model does to flags and rounding mode. -/
def Sets (st st' : FSt n ρ H) : Prop :=
  st'.fp = st.fp ∨ ∃ v, st'.fp = FpState.step st.fp (.fflagsSet v)

theorem submit_sets {s : Sim} {a : Act} {k flags : Nat} {st st' : FSt n ρ H} (h : submit s a k flags st = some st') :
    Sets st st' := by
  unfold submit at h
  split at h
  · cases h; exact .inl rfl
  · split at h
    · cases h; exact .inr ⟨_, rfl⟩
    · cases h

theorem putX_sets {s : Sim} {w : Nat} {a : Act} {v : BitVec n} {st st' : FSt n ρ H}
    (h : putX s w a v st = some st') : st'.fp = st.fp := by
  unfold putX at h
  obtain ⟨d, _, h⟩ := Option.bind_eq_some_iff.1 h
  obtain ⟨c, _, rfl⟩ := Option.map_eq_some_iff.1 h
  rfl

theorem storeF_sets {s : Sim} {w : Nat} {addr : BitVec 64} {b : Nat} {a : Act} {st st' : FSt n ρ H}
    (h : storeF s w addr b a st = some st') : st'.fp = st.fp := by
  unfold storeF at h
  split at h
  · cases h; rfl
  · obtain ⟨u, _, h⟩ := Option.bind_eq_some_iff.1 h
    obtain ⟨r, _, rfl⟩ := Option.map_eq_some_iff.1 h
    rfl

theorem loadF_sets {s : Sim} {w : Nat} {addr : BitVec 64} {b : Nat} {a : Act} {q : FpMem.Back × Act}
    {st st' : FSt n ρ H} (h : loadF s w addr b a q st = some st') : st'.fp = st.fp := by
  unfold loadF at h
  obtain ⟨u, _, h⟩ := Option.bind_eq_some_iff.1 h
  unfold loadedF at h
  split at h
  · cases h; rfl
  · obtain ⟨r, _, rfl⟩ := Option.map_eq_some_iff.1 h
    rfl

theorem oneF_sets {s : Sim} {w : Nat} {addr : BitVec 64} {a : Act} {st st' : FSt s.xlen.bits ρ H} {m : FSem}
    (h : oneF s w addr a st m = some st') : Sets st st' := by
  cases m with
  | store b => exact .inl (storeF_sets h)
  | sign p o =>
    obtain ⟨_, _, h⟩ := Option.bind_eq_some_iff.1 h
    obtain ⟨_, _, h⟩ := Option.bind_eq_some_iff.1 h
    obtain ⟨_, _, rfl⟩ := Option.map_eq_some_iff.1 h
    exact .inl rfl
  | minMax p o =>
    obtain ⟨r₁, _, h⟩ := Option.bind_eq_some_iff.1 h
    obtain ⟨r₂, _, h⟩ := Option.bind_eq_some_iff.1 h
    obtain ⟨d, _, h⟩ := Option.bind_eq_some_iff.1 h
    exact submit_sets (st := st.setF d (resultF p (minMaxF p o (operandF p (st.fregs r₁)) (operandF p (st.fregs r₂))).1)) h
  | cmp p o =>
    obtain ⟨_, _, h⟩ := Option.bind_eq_some_iff.1 h
    obtain ⟨_, _, h⟩ := Option.bind_eq_some_iff.1 h
    obtain ⟨st₁, h1, h⟩ := Option.bind_eq_some_iff.1 h
    have := submit_sets h1
    unfold Sets at *
    rw [putX_sets h]
    exact this
  | classify p =>
    obtain ⟨_, _, h⟩ := Option.bind_eq_some_iff.1 h
    obtain ⟨_, _, h⟩ := Option.bind_eq_some_iff.1 h
    obtain ⟨_, _, rfl⟩ := Option.map_eq_some_iff.1 h
    exact .inl rfl
  | toX p =>
    obtain ⟨_, _, h⟩ := Option.bind_eq_some_iff.1 h
    exact .inl (putX_sets h)
  | fromX p =>
    obtain ⟨_, _, h⟩ := Option.bind_eq_some_iff.1 h
    obtain ⟨_, _, rfl⟩ := Option.map_eq_some_iff.1 h
    exact .inl rfl
  | load b => cases h

theorem turnF_sets {s : Sim} {i : Inst} {w size : Nat} {dev : Option (Atomic.Device ρ)}
    {st st' : FSt s.xlen.bits ρ H} (h : turnF s i w size dev st = some st') : Sets st st' := by
  unfold turnF at h
  split at h
  · unfold fpTurn at h
    obtain ⟨st₁, h1, rfl⟩ := Option.map_eq_some_iff.1 h
    show Sets st st₁
    clear h
    have h := h1
    unfold carryF at h
    split at h
    · exact .inl (loadF_sets h)
    · exact oneF_sets h
    · cases h
  · obtain ⟨x, _, rfl⟩ := Option.map_eq_some_iff.1 h
    exact .inl rfl

theorem sets_finv (hH : FpState.HostOk H) {st st' : FSt n ρ H} (h : Sets st st') (hv : FInv st.fp) : FInv st'.fp := by
  rcases h with h | ⟨v, h⟩
  · rw [h]; exact hv
  · rw [h]; exact finv_step hH hv _ trivial

/-- Where the word is one of C127, each matching entry has its turn in the smaller model. -/
theorem meantF_each (hH : FpState.HostOk H) (s : Sim) (dev : Option (Atomic.Device ρ))
    (hdev : ∀ d, dev = some d → Atomic.Spec.Contract d) (st : FSt s.xlen.bits ρ H)
    (hb : st.core.hart.branch = false) (hpc : st.core.hart.pc.toNat % 2 = 0)
    (hz : st.core.regs 0#5 = 0#s.xlen.bits) (hi : Hart.HInv st.core.hart) (h : MeantF s dev st)
    (i : Inst) (size : Nat) (hf : Finds s (wordAt st.core) i size) :
    ∃ st', turnF s i (wordAt st.core) size dev st = some st' := by
  cases h with
  | other h =>
    obtain ⟨y, hy⟩ := meantI_each s dev hdev st.x hb hpc hz hi h i size hf
    exact ⟨_, turnF_of s i _ size dev st y hy⟩
  | fp k h hon hw =>
    obtain ⟨st', ht, _⟩ := (fp_step hH s dev st k h hb hi (fun _ _ => hon) hw).2 i size hf
    exact ⟨st', ht⟩

theorem turnA_F {A : Arith H} (hH : FpState.HostOk H) (s : Sim) (dev : Option (Atomic.Device ρ))
    (hdev : ∀ d, dev = some d → Atomic.Spec.Contract d) (st : FSt s.xlen.bits ρ H)
    (hb : st.core.hart.branch = false) (hpc : st.core.hart.pc.toNat % 2 = 0)
    (hz : st.core.regs 0#5 = 0#s.xlen.bits) (hi : Hart.HInv st.core.hart) (h : MeantF s dev st)
    (st' : FSt s.xlen.bits ρ H) : TurnA A s dev st st' ↔ TurnF s dev st st' := by
  constructor
  · rintro (⟨i, size, hf, ht⟩ | h')
    · obtain ⟨y, hy⟩ := meantF_each hH s dev hdev st hb hpc hz hi h i size hf
      rw [turnA_of A s i _ size dev st y hy] at ht
      exact .inl ⟨i, size, hf, by rw [hy]; exact ht⟩
    · exact .inr h'
  · rintro (⟨i, size, hf, ht⟩ | h')
    · exact .inl ⟨i, size, hf, turnA_of A s i _ size dev st st' ht⟩
    · exact .inr h'

/-- The word at the program counter: one of C127, or one of these instructions, apart from the cases left
out. -/
inductive MeantA (s : Sim) (dev : Option (Atomic.Device ρ)) (st : FSt s.xlen.bits ρ H) : Prop where
  | other (h : MeantF s dev st)
  | ar (k : ASem) (h : IsA s.xlen (wordAt st.core) k) (hon : ¬ OffF st) (d : Way)
      (hm : InMode (wordAt st.core) st d) (hw : ¬ WrongA d k (wordAt st.core) st)

/-- The effect of the word. -/
def EffectA (after : Bool) (s : Sim) (dev : Option (Atomic.Device ρ)) (st st' : FSt s.xlen.bits ρ H) : Prop :=
  EffectF s dev st st' ∨
  ∃ k d, IsA s.xlen (wordAt st.core) k ∧ InMode (wordAt st.core) st d ∧ DoesA after d k (wordAt st.core) st st'

theorem meantA_step {A : Arith H} {after : Bool} (hH : FpState.HostOk H) (hA : DirOk A) (hie : Ieee after A)
    (s : Sim) (dev : Option (Atomic.Device ρ))
    (hdev : ∀ d, dev = some d → Atomic.Spec.Contract d) (st : FSt s.xlen.bits ρ H)
    (hb : st.core.hart.branch = false) (hpc : st.core.hart.pc.toNat % 2 = 0)
    (hz : st.core.regs 0#5 = 0#s.xlen.bits) (hi : Hart.HInv st.core.hart) (hv : FInv st.fp) (h : MeantA s dev st) :
    (∃ st', TurnA A s dev st st') ∧
      ∀ st', TurnA A s dev st st' → EffectA after s dev st st' ∧ KeptA st st' := by
  cases h with
  | other h =>
    have := meantF_step hH s dev hdev st hb hpc hz hi h
    have key := turnA_F (A := A) hH s dev hdev st hb hpc hz hi h
    obtain ⟨⟨st', ht⟩, hall⟩ := this
    refine ⟨⟨st', (key st').2 ht⟩, fun st' ht => ?_⟩
    have ht := (key st').1 ht
    refine ⟨.inl (hall st' ht).1, (hall st' ht).2, ?_⟩
    rcases ht with ⟨i, size, _, ht⟩ | ⟨_, rfl⟩
    · exact sets_finv hH (turnF_sets ht) hv
    · exact hv
  | ar k h hon d hm hw =>
    have := turnsA_of (ar_step hH hA hie s dev st k h hb hi hv d hm hw)
    exact ⟨this.1, fun st' ht => ⟨.inr ⟨k, d, h, hm, (this.2 st' ht).1⟩, (this.2 st' ht).2⟩⟩

/-- **C129**, for a whole run that mixes these instructions with those of C120, C121 and C124 to C127: every
turn has the effect the manual describes, and the run can go on. -/
theorem C129_run_partial {A : Arith H} {after : Bool} (hH : FpState.HostOk H) (hA : DirOk A) (hie : Ieee after A)
    (s : Sim) (dev : Option (Atomic.Device ρ))
    (hdev : ∀ d, dev = some d → Atomic.Spec.Contract d) (sts : List (FSt s.xlen.bits ρ H))
    (st : FSt s.xlen.bits ρ H) (hb : st.core.hart.branch = false)
    (hz : st.core.regs 0#5 = 0#s.xlen.bits) (hr : Hart.Spec.Reachable st.core.hart) (hv : FInv st.fp)
    (ht : Chain (TurnA A s dev) st sts)
    (hok : ∀ d ∈ st :: sts, d.core.hart.pc.toNat % 2 = 0 ∧ MeantA s dev d) :
    Chain (EffectA after s dev) st sts ∧ ∃ st', TurnA A s dev (sts.getLastD st) st' := by
  have hi := Hart.hinv_reachable hr
  clear hr
  induction sts generalizing st with
  | nil =>
    obtain ⟨hpc, hm⟩ := hok st (by simp)
    exact ⟨trivial, (meantA_step hH hA hie s dev hdev st hb hpc hz hi hv hm).1⟩
  | cons d sts ih =>
    obtain ⟨hpc, hm⟩ := hok st (by simp)
    obtain ⟨he, ⟨hi', hb', hz'⟩, hv'⟩ := (meantA_step hH hA hie s dev hdev st hb hpc hz hi hv hm).2 d ht.1
    have := ih d hb' (hz'.trans hz) hv' ht.2 (fun e he => hok e (List.mem_cons_of_mem _ he)) hi'
    refine ⟨⟨he, this.1⟩, ?_⟩
    have e : (d :: sts).getLastD st = sts.getLastD d := by cases sts <;> rfl
    rw [e]; exact this.2

/-! ## Examples -/

/-- A host with everything assumed here. -/
theorem arith_exists (after : Bool) : ∃ A : Arith FpState.x86, DirOk A ∧ Ieee after A := by
  obtain ⟨s, hs⟩ := FpFlags.ieee_exists FpFma.ok_single FpArith.roomy_single after
  obtain ⟨d, hd⟩ := FpFlags.ieee_exists FpFma.ok_double FpArith.roomy_double after
  exact ⟨x86Arith s d, x86_dir s d, ⟨hs, hd⟩⟩

/-- `fadd.s f1, f2, f3` with the rounding mode `m` in the word, 1.0 in f2 and -2.0 in f3. -/
def adds (m : BitVec 3) : FSt Sim.rv64g.xlen.bits (Option (BitVec 64)) FpState.x86 :=
  { signs with x := oneWord 0x1000#64 0xd3#8 (m.setWidth 8 <<< 4) 0x31#8 0x00#8 }

example : IsA .rv64 (wordAt (adds 7#3).core) (.bin .s .add) ∧ ¬ OffF (adds 7#3) ∧ FInv (adds 7#3).fp ∧
    InMode (wordAt (adds 7#3).core) (adds 7#3) .nearestEven ∧
    ¬ WrongA .nearestEven (.bin .s .add) (wordAt (adds 7#3).core) (adds 7#3) := by
  refine ⟨⟨.fadd_s, rfl, _, rfl, ?_⟩, ?_, finv_init FpState.x86_ok, ?_, ?_⟩
  · unfold Enc.assigns; decide +kernel
  · unfold OffF; decide +kernel
  · unfold InMode; decide +kernel
  · rintro (h | ⟨_, h⟩ | h)
    · cases h
    · cases h
    · exact h

/-- The mode 5 is reserved. -/
example : IsA .rv64 (wordAt (adds 5#3).core) (.bin .s .add) ∧ rmField (wordAt (adds 5#3).core) = 5#3 ∧
    FpHost.Spec.rvDir 5#3 = none := by
  refine ⟨⟨.fadd_s, rfl, _, rfl, ?_⟩, by decide +kernel, by decide⟩
  unfold Enc.assigns; decide +kernel

/-- After a reserved mode has been written to frm, writing another does not make the mode valid. -/
example : (FpState.step (FpState.step (FpState.init FpState.x86) (.frmWrite 5#32)) (.frmWrite 0#32)).valid = false := by
  decide +kernel

/-- `fmadd.s f1, f2, f3, f4`, where f4 holds zeros: not boxed. -/
def fuses : FSt Sim.rv64g.xlen.bits (Option (BitVec 64)) FpState.x86 :=
  { signs with x := oneWord 0x1000#64 0xc3#8 0x00#8 0x31#8 0x20#8 }

example : IsA .rv64 (wordAt fuses.core) (.fma .s .madd) ∧ ¬ BoxedS fuses (rs3 (wordAt fuses.core)) ∧
    InMode (wordAt fuses.core) fuses .nearestEven := by
  refine ⟨⟨.fmadd_s, rfl, _, rfl, ?_⟩, ?_, ?_⟩
  · unfold Enc.assigns; decide +kernel
  · intro h
    have := h 40 (by decide) (by decide)
    revert this
    decide +kernel
  · unfold InMode; decide +kernel

end Verif.Exec
