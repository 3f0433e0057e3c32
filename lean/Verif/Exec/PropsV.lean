import Verif.Exec.FcTables
import Verif.Exec.PropsA

/-!
# C130: conversions, from the word in memory
-/

namespace Verif.Exec

open Decode Decode.Isa Core Operands Spec

variable {ρ : Type} {H : FpState.Host}

/-- Some entry matches, and the turn with any that does is carried out and has the effect `Q`. -/
def GoesV (A : Arith H) (C : Cvt) (s : Sim) (dev : Option (Atomic.Device ρ)) (st : FSt s.xlen.bits ρ H)
    (Q : FSt s.xlen.bits ρ H → Prop) : Prop :=
  (∃ i size, Finds s (wordAt st.core) i size) ∧
  ∀ i size, Finds s (wordAt st.core) i size →
    ∃ st', turnV A C s i (wordAt st.core) size dev st = some st' ∧ Q st'

theorem turnsV_of {A : Arith H} {C : Cvt} {s : Sim} {dev : Option (Atomic.Device ρ)} {st : FSt s.xlen.bits ρ H}
    {Q : FSt s.xlen.bits ρ H → Prop} (h : GoesV A C s dev st Q) :
    (∃ st', TurnV A C s dev st st') ∧ ∀ st', TurnV A C s dev st st' → Q st' := by
  obtain ⟨⟨i, size, hf⟩, h⟩ := h
  obtain ⟨st', hs, _⟩ := h i size hf
  refine ⟨⟨st', .inl ⟨i, size, hf, hs⟩⟩, ?_⟩
  rintro st₂ (⟨j, m, hj, hs⟩ | ⟨hn, _⟩)
  · obtain ⟨st', hs', hq⟩ := h j m hj
    rw [hs] at hs'
    obtain rfl := Option.some.inj hs'
    exact hq
  · exact absurd hf (hn i size)

/-- The turn of an instruction, from what its semantic function does. -/
theorem cv_goes (A : Arith H) (C : Cvt) (s : Sim) (dev : Option (Atomic.Device ρ)) (st : FSt s.xlen.bits ρ H) (k : VSem)
    (h : IsV s.xlen (wordAt st.core) k) (Q : FSt s.xlen.bits ρ H → Prop)
    (hc : ∀ q, okV k q = true → CarriesV A C s (wordAt st.core) st q Q) :
    GoesV A C s dev st fun st' => Q st' ∧ KeptA st st' := by
  obtain ⟨o, hk, hl⟩ := h
  obtain ⟨⟨e, he, hem⟩, hall⟩ := decodesV s o k hk _ (readLE_lt st.core.mem _ 4) hl
  have hlow := listed_lowV s.xlen o k hk _ hl
  refine ⟨⟨e, 4, by unfold Finds; rw [if_pos hlow]; exact ⟨he, hem, rfl⟩⟩, fun e size hf => ?_⟩
  unfold Finds at hf
  rw [if_pos hlow] at hf
  obtain ⟨he, hem, rfl⟩ := hf
  have ht := List.all_eq_true.1 (entriesV_ok s) e he
  unfold okEntryV at ht
  rw [hall e he hem, hk] at ht
  obtain ⟨q, hq, hok⟩ := Option.any_eq_true _ _ |>.1 ht
  obtain ⟨st₁, e1, e2, e3, e4⟩ := hc q hok
  refine ⟨closeF st₁ (st.core.hart.pc.setWidth 64) 4, ?_, e2, kept_next _ _ _ _ e3.1 e3.2, e4⟩
  unfold turnV
  rw [hq]
  show (carryV A C s (wordAt st.core) st q).map _ = _
  rw [e1]
  rfl

theorem width_of {x : Xlen} {w : Nat} {k : VSem} (h : IsV x w k) (p : Prec) (t : FpConvert.To)
    (hk : k = .toInt p t ∨ k = .ofInt p t) : Width x t := by
  obtain ⟨o, ho, _⟩ := h
  exact vkind_width ho p t hk

section
variable {A : Arith H} {C : Cvt} {after : Bool} (hH : FpState.HostOk H) (hA : DirOk A) (hie : IeeeV after C) (s : Sim)
  (dev : Option (Atomic.Device ρ)) (st : FSt s.xlen.bits ρ H)

include hH hA hie in
theorem cv_step (k : VSem) (h : IsV s.xlen (wordAt st.core) k) (hb : st.core.hart.branch = false)
    (hi : Hart.HInv st.core.hart) (hv : FInv st.fp) (d : Way) (hm : InMode (wordAt st.core) st d)
    (hw : ¬ WrongV d k (wordAt st.core) st) :
    GoesV A C s dev st fun st' => DoesV after d k (wordAt st.core) st st' ∧ KeptA st st' := by
  refine cv_goes A C s dev st k h _ fun q hq => ?_
  cases k with
  | toInt p t => exact toInt_ok s _ st q hH hb hi hv p t (width_of h p t (.inl rfl)) hq d hm hw
  | ofInt p t =>
    unfold WrongV at hw
    simp only [not_or] at hw
    exact ofInt_ok s _ st q hH hie hb hi hv p t (width_of h p t (.inr rfl)) hq d (mode_ok hA hv hm hw.2 hw.1)
  | narrow =>
    unfold WrongV at hw
    simp only [not_or] at hw
    exact narrow_ok s _ st q hH hie hb hi hv hq d (mode_ok hA hv hm hw.2.1 hw.1) hw.2.2
  | widen =>
    unfold WrongV at hw
    rw [not_or] at hw
    exact widen_ok s _ st q hH hie hb hi hv hq d hw.1 hw.2

/-- **C130.** In every simulated core, a word that the manual gives to a conversion between integers, single
and double precision (those of 64-bit integers on RV64) is carried out, whichever matching entry of the
decoder is used, and has the effect the manual describes: a conversion to an integer puts the number, rounded
in the direction of the rounding mode in the word or in frm, into rd, or the nearest integer of the type,
extended from its sign bit; one from an integer, or from double to single precision, puts the number, so
rounded and boxed, into rd, and one from single to double precision the number itself, NaNs being canonical;
the flags IEEE 754 and the manual ask for are added to fflags; frm and the rest of the state stay.  The unit
is on (otherwise see `C130_off_violated`).  The host is assumed to round in the direction asked for and to be
right, as in C129.  Left out are the cases of `WrongV`. -/
theorem C130_step_partial (hH : FpState.HostOk H) (hA : DirOk A) (hie : IeeeV after C)
    (hb : st.core.hart.branch = false) (hr : Hart.Spec.Reachable st.core.hart) (hv : FInv st.fp)
    (k : VSem) (h : IsV s.xlen (wordAt st.core) k) (_hon : ¬ OffF st) (d : Way)
    (hm : InMode (wordAt st.core) st d) (hw : ¬ WrongV d k (wordAt st.core) st) :
    (∃ st', TurnV A C s dev st st') ∧
      ∀ st', TurnV A C s dev st st' → DoesV after d k (wordAt st.core) st st' := by
  have := turnsV_of (cv_step hH hA hie s dev st k h hb (Hart.hinv_reachable hr) hv d hm hw)
  exact ⟨this.1, fun st' ht => (this.2 st' ht).1⟩

/-! ## What goes wrong -/

/-- **C130** fails when the unit is off: the manual asks for an illegal instruction exception, but the
instructions are carried out as if it were on. -/
theorem C130_off_violated (hH : FpState.HostOk H) (hA : DirOk A) (hie : IeeeV after C)
    (hb : st.core.hart.branch = false) (hr : Hart.Spec.Reachable st.core.hart) (hv : FInv st.fp)
    (k : VSem) (h : IsV s.xlen (wordAt st.core) k) (_hoff : OffF st) (d : Way)
    (hm : InMode (wordAt st.core) st d) (hw : ¬ WrongV d k (wordAt st.core) st) :
    (∃ st', TurnV A C s dev st st') ∧
      ∀ st', TurnV A C s dev st st' → DoesV after d k (wordAt st.core) st st' := by
  have := turnsV_of (cv_step hH hA hie s dev st k h hb (Hart.hinv_reachable hr) hv d hm hw)
  exact ⟨this.1, fun st' ht => (this.2 st' ht).1⟩

/-- **C130** fails for three rounding modes in the word: 4 is to nearest, ties away from zero, and 5 and 6
are reserved, where the manual asks for an illegal instruction exception.  With each of them a conversion
from an integer rounds to nearest, ties to even, and so does one to single precision. -/
theorem C130_static_violated (hH : FpState.HostOk H) (hA : DirOk A) (hie : IeeeV after C)
    (hb : st.core.hart.branch = false) (hr : Hart.Spec.Reachable st.core.hart) (hv : FInv st.fp)
    (k : VSem) (h : IsV s.xlen (wordAt st.core) k)
    (hm : rmField (wordAt st.core) = 4#3 ∨ rmField (wordAt st.core) = 5#3 ∨ rmField (wordAt st.core) = 6#3)
    (hk : (∃ p t, k = .ofInt p t) ∨
      (k = .narrow ∧ ¬ ∃ a, ValueF .d st (rs1 (wordAt st.core)) a ∧ FpFma.Spec.Signalling a)) :
    (∃ st', TurnV A C s dev st st') ∧
      ∀ st', TurnV A C s dev st st' → DoesV after .nearestEven k (wordAt st.core) st st' := by
  have hm' : 4 ≤ (rmField (wordAt st.core)).toNat ∧ (rmField (wordAt st.core)).toNat ≤ 6 := by
    rcases hm with e | e | e <;> rw [e] <;> decide
  have hi := Hart.hinv_reachable hr
  have := turnsV_of (cv_goes A C s dev st k h (DoesV after .nearestEven k (wordAt st.core) st) fun q hq => by
    rcases hk with ⟨p, t, rfl⟩ | ⟨rfl, hs⟩
    · exact ofInt_ok s _ st q hH hie hb hi hv p t (width_of h p t (.inr rfl)) hq _ (mode_other hA hm'.1 hm'.2)
    · exact narrow_ok s _ st q hH hie hb hi hv hq _ (mode_other hA hm'.1 hm'.2) hs)
  exact ⟨this.1, fun st' ht => (this.2 st' ht).1⟩

end

/-- Nothing happens, apart from the program counter. -/
def Nothing (st st' : FSt n ρ H) : Prop :=
  Passes st.core st'.core 4 ∧ Rest st st' ∧ st'.fregs = st.fregs ∧ st'.fp = st.fp

/-- **C130** fails for the reserved rounding modes 5 and 6 in the word: the manual asks for an illegal
instruction exception, but the conversion of a number with a unit in the last place below 1 to an integer is
passed over without any effect. -/
theorem C130_reserved_violated (A : Arith H) (C : Cvt) (s : Sim) (dev : Option (Atomic.Device ρ))
    (st : FSt s.xlen.bits ρ H) (hb : st.core.hart.branch = false) (hr : Hart.Spec.Reachable st.core.hart)
    (hv : FInv st.fp) (p : Prec) (t : FpConvert.To) (h : IsV s.xlen (wordAt st.core) (.toInt p t))
    (hm : rmField (wordAt st.core) = 5#3 ∨ rmField (wordAt st.core) = 6#3) (a : BitVec p.fmt.bits)
    (ha : ValueF p st (rs1 (wordAt st.core)) a) (hbx : p = .s → BoxedS st (rs1 (wordAt st.core)))
    (h1 : ¬ FpConvert.Spec.Special a) (h2 : ¬ FpFma.Spec.IsZero a) (h3 : FpConvert.Spec.ulp a < 0) :
    (∃ st', TurnV A C s dev st st') ∧ ∀ st', TurnV A C s dev st st' → Nothing st st' := by
  obtain rfl : plainF p (st.fregs (rs1 (wordAt st.core))) = a := reads_unique (plain_reads p _ hbx) ha
  have := turnsV_of (cv_goes A C s dev st _ h (Nothing st) fun q hq =>
    reserved_toInt s _ st q hb (Hart.hinv_reachable hr) hv p t hq hm h1 h2 h3)
  exact ⟨this.1, fun st' ht => (this.2 st' ht).1⟩

/-- **C130** fails with the dynamic rounding mode once the simulator has taken it to be invalid: the manual
asks for an illegal instruction exception while the mode in frm is reserved, and for rounding in that mode
later, but all conversions are passed over without any effect, even those that do not round. -/
theorem C130_dynamic_violated (A : Arith H) (C : Cvt) (s : Sim) (dev : Option (Atomic.Device ρ))
    (st : FSt s.xlen.bits ρ H) (hb : st.core.hart.branch = false) (hr : Hart.Spec.Reachable st.core.hart)
    (hv : FInv st.fp) (k : VSem) (h : IsV s.xlen (wordAt st.core) k) (hm : rmField (wordAt st.core) = 7#3)
    (hva : st.fp.valid = false) :
    (∃ st', TurnV A C s dev st st') ∧ ∀ st', TurnV A C s dev st st' → Nothing st st' := by
  have := turnsV_of (cv_goes A C s dev st k h (Nothing st) fun q hq =>
    none_V s _ st q hb (Hart.hinv_reachable hr) hv k hq hm hva)
  exact ⟨this.1, fun st' ht => (this.2 st' ht).1⟩

section
variable {A : Arith H} {C : Cvt} {after : Bool} (s : Sim) (dev : Option (Atomic.Device ρ)) (st : FSt s.xlen.bits ρ H)

/-- **C130** fails for operands of single precision that are not boxed: the manual has them count as the
canonical NaN, but conversions to integers and to double precision use the lower half of the register. -/
theorem C130_unboxed_violated (hH : FpState.HostOk H) (hie : IeeeV after C)
    (hb : st.core.hart.branch = false) (hr : Hart.Spec.Reachable st.core.hart) (hv : FInv st.fp) (d : Way)
    (hm : InMode (wordAt st.core) st d) (h7 : ¬ (rmField (wordAt st.core) = 7#3 ∧ st.fp.valid = false)) :
    ∃ a, NaNBox.Spec.Low Fp.single (st.fregs (rs1 (wordAt st.core))) a ∧
      (∀ t, IsV s.xlen (wordAt st.core) (.toInt .s t) → ¬ (d = .nearestAway ∧ FpConvert.Spec.Tie a) →
        ¬ Undefined t (modeOf (wordAt st.core) st).toNat a →
        (∃ st', TurnV A C s dev st st') ∧ ∀ st', TurnV A C s dev st st' →
          DoesToInt (modeOf (wordAt st.core) st) .s t a (wordAt st.core) st st') ∧
      (IsV s.xlen (wordAt st.core) .widen → ¬ FpFma.Spec.Signalling a →
        (∃ st', TurnV A C s dev st st') ∧ ∀ st', TurnV A C s dev st st' → DoesWiden a (wordAt st.core) st st') := by
  have hi := Hart.hinv_reachable hr
  refine ⟨plainF .s (st.fregs (rs1 (wordAt st.core))), plain_low .s _, fun t h h8 h9 => ?_, fun h hs => ?_⟩
  · have := turnsV_of (cv_goes A C s dev st _ h _ fun q hq =>
      toInt_any s _ st q hH hb hi hv .s t (width_of h .s t (.inl rfl)) hq d hm h7 h8 h9)
    exact ⟨this.1, fun st' ht => (this.2 st' ht).1⟩
  · have := turnsV_of (cv_goes A C s dev st _ h
      (DoesWiden (plainF .s (st.fregs (rs1 (wordAt st.core)))) (wordAt st.core) st) fun q hq =>
      carriesV_mono (widen_any s _ st q hH hie hb hi hv hq ⟨_, mode_is hv h7⟩) fun _ hd =>
        ⟨0#5, fun hc => absurd hc hs, fun _ => rfl, hd⟩)
    exact ⟨this.1, fun st' ht => (this.2 st' ht).1⟩

/-- **C130** fails for signalling NaNs: the manual has conversions between the two precisions set the invalid
flag for them, but fflags stays as it is. -/
theorem C130_signalling_violated (hH : FpState.HostOk H) (hA : DirOk A) (hie : IeeeV after C)
    (hb : st.core.hart.branch = false) (hr : Hart.Spec.Reachable st.core.hart) (hv : FInv st.fp) (d : Way)
    (hm : InMode (wordAt st.core) st d) (hd : d ≠ .nearestAway)
    (h7 : ¬ (rmField (wordAt st.core) = 7#3 ∧ st.fp.valid = false)) :
    (∀ a, ValueF .d st (rs1 (wordAt st.core)) a → FpFma.Spec.Signalling a → IsV s.xlen (wordAt st.core) .narrow →
      (∃ st', TurnV A C s dev st st') ∧ ∀ st', TurnV A C s dev st st' → AccruesAll st st' 0#5) ∧
    (IsV s.xlen (wordAt st.core) .widen →
      (∃ st', TurnV A C s dev st st') ∧ ∀ st', TurnV A C s dev st st' → AccruesAll st st' 0#5) := by
  have hi := Hart.hinv_reachable hr
  refine ⟨fun a ha hs h => ?_, fun h => ?_⟩
  · have := turnsV_of (cv_goes A C s dev st _ h (fun st' => AccruesAll st st' 0#5) fun q hq =>
      carriesV_mono (narrow_any s _ st q hH hie hb hi hv hq d (mode_ok hA hv hm hd h7)) fun st' hd => by
        obtain ⟨a', ha', fl, hf, hac, _⟩ := hd
        obtain rfl := reads_unique ha' ha
        have hx : FpCvt.Spec.converted Fp.single a' = .nan := if_pos hs.1
        rw [hx] at hf
        have e : fl = 0#5 := by
          apply BitVec.eq_of_getLsbD_eq
          intro i hi5
          have h4 : fl.getLsbD 4 = false := Bool.eq_false_iff.2 fun hc => hf.nv.1 hc
          have h3 : fl.getLsbD 3 = false := Bool.eq_false_iff.2 fun hc => hf.dz.1 hc
          have h2 : fl.getLsbD 2 = false := Bool.eq_false_iff.2 fun hc => hf.of.1 hc
          have h1 : fl.getLsbD 1 = false := Bool.eq_false_iff.2 fun hc => hf.uf.1 hc
          have h0 : fl.getLsbD 0 = false := Bool.eq_false_iff.2 fun hc => hf.nx.1 hc
          rw [BitVec.getLsbD_zero]
          rcases (by omega : i = 0 ∨ i = 1 ∨ i = 2 ∨ i = 3 ∨ i = 4) with rfl | rfl | rfl | rfl | rfl <;> assumption
        rw [← e]; exact hac)
    exact ⟨this.1, fun st' ht => (this.2 st' ht).1⟩
  · have := turnsV_of (cv_goes A C s dev st _ h (fun st' => AccruesAll st st' 0#5) fun q hq =>
      carriesV_mono (widen_any s _ st q hH hie hb hi hv hq ⟨_, mode_is hv h7⟩) fun _ hd => hd.1)
    exact ⟨this.1, fun st' ht => (this.2 st' ht).1⟩

/-- **C130** fails for numbers that a conversion to a signed type rounds to its least value, or, for 64 bits,
that are at most -2^64: the turn is undefined behaviour (a negation that overflows). -/
theorem C130_undefined_violated (hv : FInv st.fp)
    (p : Prec) (t : FpConvert.To) (h : IsV s.xlen (wordAt st.core) (.toInt p t)) (d : Way)
    (hm : InMode (wordAt st.core) st d) (h7 : ¬ (rmField (wordAt st.core) = 7#3 ∧ st.fp.valid = false))
    (a : BitVec p.fmt.bits) (ha : ValueF p st (rs1 (wordAt st.core)) a)
    (hbx : p = .s → BoxedS st (rs1 (wordAt st.core)))
    (hu : Undefined t (modeOf (wordAt st.core) st).toNat a) : ¬ ∃ st', TurnV A C s dev st st' := by
  obtain rfl : plainF p (st.fregs (rs1 (wordAt st.core))) = a := reads_unique (plain_reads p _ hbx) ha
  have hwd := width_of h p t (.inl rfl)
  obtain ⟨o, hk, hl⟩ := h
  obtain ⟨⟨e, he, hem⟩, hall⟩ := decodesV s o _ hk _ (readLE_lt st.core.mem _ 4) hl
  have hlow := listed_lowV s.xlen o _ hk _ hl
  rintro ⟨st', ⟨i, size, hf, ht⟩ | ⟨hn, _⟩⟩
  · unfold Finds at hf
    rw [if_pos hlow] at hf
    obtain ⟨he, hem, rfl⟩ := hf
    have ht' := List.all_eq_true.1 (entriesV_ok s) i he
    unfold okEntryV at ht'
    rw [hall i he hem, hk] at ht'
    obtain ⟨q, hq, hok⟩ := Option.any_eq_true _ _ |>.1 ht'
    unfold turnV at ht
    rw [hq] at ht
    have hc := toInt_carry (A := A) (C := C) s (wordAt st.core) st q p t hok
    rw [mode_is hv h7] at hc
    have hub := (FpConvert.C38_ub_violated (ok_conv p) t hwd.1 _ (rvDir_cases _ _ hm).1
      (plainF p (st.fregs (rs1 (wordAt st.core))))).2.2 hu
    have hc' : carryV A C s (wordAt st.core) st q = none := by
      rw [hc]
      show finishV s (wordAt st.core) q.ops t st _ = _
      rw [hub]; rfl
    have ht2 : (carryV A C s (wordAt st.core) st q).map _ = some st' := ht
    rw [hc'] at ht2
    cases ht2
  · exact hn e 4 (by unfold Finds; rw [if_pos hlow]; exact ⟨he, hem, rfl⟩)

end

/-! ## Many instructions -/

/-- A conversion is none of the instructions of the smaller model. -/
theorem cv_other (A : Arith H) (s : Sim) (i : Inst) (q : VAct) (h : cvActs s i.op = some q) (w size : Nat)
    (dev : Option (Atomic.Device ρ)) (st : FSt s.xlen.bits ρ H) : turnA A s i w size dev st = none := by
  cases hf : (s.isa.instrs.find? fun e => e.name == opName i.op) with
  | none => unfold cvActs at h; rw [hf] at h; cases h
  | some e =>
    have h' : cvPart s.xlen e.phases = some q := by unfold cvActs at h; rw [hf] at h; exact h
    have ha : acts s i.op = e.phases.mapM (act s.xlen) := by unfold acts; rw [hf]; rfl
    have hs : sysActs s i.op = sysParts s.xlen e.phases := by unfold sysActs; rw [hf]; rfl
    have hc : csrActs s i.op = csrPart s.xlen e.phases := by unfold csrActs; rw [hf]; rfl
    have hu : isUnimp s i.op = isUnimpPart e.phases := by unfold isUnimp; rw [hf]; rfl
    have hp : fpActs s i.op = fpParts s e.phases := by unfold fpActs; rw [hf]; rfl
    have hr : arActs s i.op = arPart e.phases := by unfold arActs; rw [hf]; rfl
    revert h' ha hs hc hu hp hr
    generalize e.phases = ps
    intro h' ha hs hc hu hp hr
    rcases ps with _ | ⟨p, _ | ⟨p', l⟩⟩
    · cases h'
    · obtain ⟨m, hm, _⟩ := Option.map_eq_some_iff.1
        (show (p.fn.bind fun c => byName (cvFns s.xlen) c.name).map _ = _ from h')
      obtain ⟨c, hcc, hm⟩ := Option.bind_eq_some_iff.1 hm
      obtain ⟨t1, t2, t3, t4, t5, t6⟩ := cvFn_other s.xlen _ _ hm
      have ha' : acts s i.op = none := by rw [ha]; simp [List.mapM_cons, act, hcc, t1]
      have hs' : sysActs s i.op = none := by rw [hs]; simp [sysParts, sysAct, hcc, t2]
      have hc' : csrActs s i.op = none := by rw [hc]; simp [csrPart, csrAct, hcc, t3]
      have hu' : isUnimp s i.op = false := by rw [hu]; simp [isUnimpPart, hcc, t4]
      have hp' : fpActs s i.op = none := by rw [hp]; simp [fpParts, fpOne, hcc, t5]
      have hr' : arActs s i.op = none := by rw [hr]; simp [arPart, hcc, t6]
      unfold turnA
      rw [hr']
      show turnF s i w size dev st = none
      unfold turnF
      rw [hp']
      show Option.map _ (turnI s i w size dev st.x) = none
      cases ht : turnI s i w size dev st.x with
      | none => rfl
      | some x' =>
        exfalso
        unfold turnI at ht
        dsimp only at ht
        rw [hu', if_neg (by decide)] at ht
        rcases describedZ s dev _ _ _ _ _ ht with h | h | h
        · exact h ha'
        · exact h hs'
        · exact h hc'
    · cases h'

/-- A turn of the smaller model is a turn of this one. -/
theorem turnV_of (A : Arith H) (C : Cvt) (s : Sim) (i : Inst) (w size : Nat) (dev : Option (Atomic.Device ρ))
    (st st' : FSt s.xlen.bits ρ H) (h : turnA A s i w size dev st = some st') :
    turnV A C s i w size dev st = some st' := by
  unfold turnV
  cases hq : cvActs s i.op with
  | none => exact h
  | some q => rw [cv_other A s i q hq] at h; cases h

section
variable {A : Arith H} {C : Cvt} {after : Bool} (hH : FpState.HostOk H) (hA : DirOk A) (hia : Ieee after A)
  (hie : IeeeV after C) (s : Sim) (dev : Option (Atomic.Device ρ))
  (hdev : ∀ d, dev = some d → Atomic.Spec.Contract d)

include hH hA hia hdev in
/-- Where the word is one of C129, each matching entry has its turn in the smaller model. -/
theorem meantA_each (st : FSt s.xlen.bits ρ H)
    (hb : st.core.hart.branch = false) (hpc : st.core.hart.pc.toNat % 2 = 0)
    (hz : st.core.regs 0#5 = 0#s.xlen.bits) (hi : Hart.HInv st.core.hart) (hv : FInv st.fp) (h : MeantA s dev st)
    (i : Inst) (size : Nat) (hf : Finds s (wordAt st.core) i size) :
    ∃ st', turnA A s i (wordAt st.core) size dev st = some st' := by
  cases h with
  | other h =>
    obtain ⟨y, hy⟩ := meantF_each hH s dev hdev st hb hpc hz hi h i size hf
    exact ⟨_, turnA_of A s i _ size dev st y hy⟩
  | ar k h hon d hm hw =>
    obtain ⟨st', ht, _⟩ := (ar_step hH hA hia s dev st k h hb hi hv d hm hw).2 i size hf
    exact ⟨st', ht⟩

include hH hA hia hdev in
theorem turnV_A (st : FSt s.xlen.bits ρ H)
    (hb : st.core.hart.branch = false) (hpc : st.core.hart.pc.toNat % 2 = 0)
    (hz : st.core.regs 0#5 = 0#s.xlen.bits) (hi : Hart.HInv st.core.hart) (hv : FInv st.fp) (h : MeantA s dev st)
    (st' : FSt s.xlen.bits ρ H) : TurnV A C s dev st st' ↔ TurnA A s dev st st' := by
  constructor
  · rintro (⟨i, size, hf, ht⟩ | h')
    · obtain ⟨y, hy⟩ := meantA_each hH hA hia s dev hdev st hb hpc hz hi hv h i size hf
      rw [turnV_of A C s i _ size dev st y hy] at ht
      exact .inl ⟨i, size, hf, by rw [hy]; exact ht⟩
    · exact .inr h'
  · rintro (⟨i, size, hf, ht⟩ | h')
    · exact .inl ⟨i, size, hf, turnV_of A C s i _ size dev st st' ht⟩
    · exact .inr h'

end

/-- The word at the program counter: one of C129, or one of these instructions, apart from the cases left
out. -/
inductive MeantV (s : Sim) (dev : Option (Atomic.Device ρ)) (st : FSt s.xlen.bits ρ H) : Prop where
  | other (h : MeantA s dev st)
  | cv (k : VSem) (h : IsV s.xlen (wordAt st.core) k) (hon : ¬ OffF st) (d : Way)
      (hm : InMode (wordAt st.core) st d) (hw : ¬ WrongV d k (wordAt st.core) st)

/-- The effect of the word. -/
def EffectV (after : Bool) (s : Sim) (dev : Option (Atomic.Device ρ)) (st st' : FSt s.xlen.bits ρ H) : Prop :=
  EffectA after s dev st st' ∨
  ∃ k d, IsV s.xlen (wordAt st.core) k ∧ InMode (wordAt st.core) st d ∧ DoesV after d k (wordAt st.core) st st'

theorem meantV_step {A : Arith H} {C : Cvt} {after : Bool} (hH : FpState.HostOk H) (hA : DirOk A) (hia : Ieee after A)
    (hie : IeeeV after C) (s : Sim) (dev : Option (Atomic.Device ρ))
    (hdev : ∀ d, dev = some d → Atomic.Spec.Contract d) (st : FSt s.xlen.bits ρ H)
    (hb : st.core.hart.branch = false) (hpc : st.core.hart.pc.toNat % 2 = 0)
    (hz : st.core.regs 0#5 = 0#s.xlen.bits) (hi : Hart.HInv st.core.hart) (hv : FInv st.fp) (h : MeantV s dev st) :
    (∃ st', TurnV A C s dev st st') ∧
      ∀ st', TurnV A C s dev st st' → EffectV after s dev st st' ∧ KeptA st st' := by
  cases h with
  | other h =>
    have key := turnV_A (C := C) hH hA hia s dev hdev st hb hpc hz hi hv h
    obtain ⟨⟨st', ht⟩, hall⟩ := meantA_step hH hA hia s dev hdev st hb hpc hz hi hv h
    refine ⟨⟨st', (key st').2 ht⟩, fun st' ht => ?_⟩
    have ht := (key st').1 ht
    exact ⟨.inl (hall st' ht).1, (hall st' ht).2⟩
  | cv k h hon d hm hw =>
    have := turnsV_of (cv_step hH hA hie s dev st k h hb hi hv d hm hw)
    exact ⟨this.1, fun st' ht => ⟨.inr ⟨k, d, h, hm, (this.2 st' ht).1⟩, (this.2 st' ht).2⟩⟩

/-- **C130**, for a whole run that mixes conversions with the instructions of C129: every turn has the effect
the manual describes, and the run can go on. -/
theorem C130_run_partial {A : Arith H} {C : Cvt} {after : Bool} (hH : FpState.HostOk H) (hA : DirOk A)
    (hia : Ieee after A) (hie : IeeeV after C) (s : Sim) (dev : Option (Atomic.Device ρ))
    (hdev : ∀ d, dev = some d → Atomic.Spec.Contract d) (sts : List (FSt s.xlen.bits ρ H))
    (st : FSt s.xlen.bits ρ H) (hb : st.core.hart.branch = false)
    (hz : st.core.regs 0#5 = 0#s.xlen.bits) (hr : Hart.Spec.Reachable st.core.hart) (hv : FInv st.fp)
    (ht : Chain (TurnV A C s dev) st sts)
    (hok : ∀ d ∈ st :: sts, d.core.hart.pc.toNat % 2 = 0 ∧ MeantV s dev d) :
    Chain (EffectV after s dev) st sts ∧ ∃ st', TurnV A C s dev (sts.getLastD st) st' := by
  have hi := Hart.hinv_reachable hr
  clear hr
  induction sts generalizing st with
  | nil =>
    obtain ⟨hpc, hm⟩ := hok st (by simp)
    exact ⟨trivial, (meantV_step hH hA hia hie s dev hdev st hb hpc hz hi hv hm).1⟩
  | cons d sts ih =>
    obtain ⟨hpc, hm⟩ := hok st (by simp)
    obtain ⟨he, ⟨hi', hb', hz'⟩, hv'⟩ := (meantV_step hH hA hia hie s dev hdev st hb hpc hz hi hv hm).2 d ht.1
    have := ih d hb' (hz'.trans hz) hv' ht.2 (fun e he => hok e (List.mem_cons_of_mem _ he)) hi'
    refine ⟨⟨he, this.1⟩, ?_⟩
    have e : (d :: sts).getLastD st = sts.getLastD d := by cases sts <;> rfl
    rw [e]; exact this.2

/-! ## Examples -/

/-- A host with everything assumed here. -/
theorem cvt_exists (after : Bool) : ∃ C : Cvt, IeeeV after C := by
  refine ⟨⟨⟨fun d a => (FpFma.meets_exists FpFma.ok_single d (FpCvt.Spec.converted Fp.single a)).choose,
    fun u => (VecWiden.widened_exists u).choose,
    fun d n => (FpFma.meets_exists FpFma.ok_single d (FpCvt.Spec.ofInt Fp.single n)).choose,
    fun d n => (FpFma.meets_exists FpFma.ok_double d (FpCvt.Spec.ofInt Fp.double n)).choose⟩,
    fun d a => (FpFlags.flags_exist Fp.single after d (FpCvt.Spec.converted Fp.single a) False False).choose,
    fun _ => 0#5,
    fun d n => (FpFlags.flags_exist Fp.single after d (FpCvt.Spec.ofInt Fp.single n) False False).choose,
    fun d n => (FpFlags.flags_exist Fp.double after d (FpCvt.Spec.ofInt Fp.double n) False False).choose⟩,
    ⟨fun d a => (FpFma.meets_exists FpFma.ok_single d _).choose_spec, fun u => (VecWiden.widened_exists u).choose_spec,
    fun d n _ => (FpFma.meets_exists FpFma.ok_single d _).choose_spec,
    fun d n _ => (FpFma.meets_exists FpFma.ok_double d _).choose_spec⟩,
    fun d a _ => (FpFlags.flags_exist Fp.single after d _ False False).choose_spec, fun _ _ => rfl,
    fun d n _ => (FpFlags.flags_exist Fp.single after d _ False False).choose_spec,
    fun d n _ => (FpFlags.flags_exist Fp.double after d _ False False).choose_spec⟩

/-- `fcvt.w.s x1, f2` with the rounding mode `m` in the word and 1.0 in f2. -/
def converts (m : BitVec 3) : FSt Sim.rv64g.xlen.bits (Option (BitVec 64)) FpState.x86 :=
  { signs with x := oneWord 0x1000#64 0xd3#8 (m.setWidth 8 <<< 4) 0x01#8 0xc0#8 }

theorem converts_is (m : BitVec 3) : IsV .rv64 (wordAt (converts m).core) (.toInt .s FpConvert.int32) := by
  refine ⟨.fcvt_ws, rfl, _, rfl, ?_⟩
  refine bits3 (P := fun m => Enc.assigns _ (wordAt (converts m).core) ) ?_ m
  unfold Enc.assigns; decide +kernel

example : ¬ OffF (converts 7#3) ∧ FInv (converts 7#3).fp ∧
    InMode (wordAt (converts 7#3).core) (converts 7#3) .nearestEven ∧
    ¬ WrongV .nearestEven (.toInt .s FpConvert.int32) (wordAt (converts 7#3).core) (converts 7#3) := by
  have hbx : BoxedS (converts 7#3) (rs1 (wordAt (converts 7#3).core)) := by
    have e : (converts 7#3).fregs (rs1 (wordAt (converts 7#3).core)) = 0xffffffff3f800000#64 := by decide +kernel
    unfold BoxedS
    rw [e]
    intro i h1 h2
    have t : ∀ i, i < 64 → 32 ≤ i → (0xffffffff3f800000#64).getLsbD i = true := allLt (by decide +kernel)
    exact t i h2 h1
  refine ⟨?_, finv_init FpState.x86_ok, ?_, ?_⟩
  · unfold OffF; decide +kernel
  · unfold InMode; decide +kernel
  · rintro (⟨_, h⟩ | ⟨_, h⟩ | ⟨a, ha, ⟨h, _⟩ | ⟨_, _, h⟩⟩)
    · cases h
    · exact h hbx
    · cases h
    · obtain rfl := reads_unique (plain_reads .s _ fun _ => hbx) ha
      have e : plainF .s ((converts 7#3).fregs (rs1 (wordAt (converts 7#3).core))) = (0x3f800000#32 : BitVec 32) :=
        BitVec.eq_of_toNat_eq (by decide +kernel)
      have em : modeOf (wordAt (converts 7#3).core) (converts 7#3) = 0#3 := by decide +kernel
      rw [em] at h
      have hn : FpConvert.Spec.num (f := Fp.single) (0x3f800000#32) = 2 ^ 23 := by decide +kernel
      have hd : FpConvert.Spec.den (f := Fp.single) (0x3f800000#32) = 2 ^ 23 := by decide +kernel
      rcases h with h | ⟨h, _⟩
      · rw [e] at h
        have h' : FpConvert.Spec.Rounded 0 (FpConvert.Spec.num (f := Fp.single) (0x3f800000#32))
          (FpConvert.Spec.den (f := Fp.single) (0x3f800000#32)) (-2 ^ 31) := h
        rw [hn, hd] at h'
        exact absurd h'.1 (by decide)
      · cases h

/-- `fcvt.d.wu f1, x2`. -/
def fromWord : FSt Sim.rv64g.xlen.bits (Option (BitVec 64)) FpState.x86 :=
  { signs with x := oneWord 0x1000#64 0xd3#8 0x00#8 0x11#8 0xd2#8 }

example : IsV .rv64 (wordAt fromWord.core) (.ofInt .d FpConvert.uint32) ∧ ¬ OffF fromWord ∧ FInv fromWord.fp ∧
    InMode (wordAt fromWord.core) fromWord .nearestEven ∧
    ¬ WrongV .nearestEven (.ofInt .d FpConvert.uint32) (wordAt fromWord.core) fromWord := by
  refine ⟨⟨.fcvt_dwu, rfl, _, rfl, ?_⟩, ?_, finv_init FpState.x86_ok, ?_, ?_⟩
  · unfold Enc.assigns; decide +kernel
  · unfold OffF; decide +kernel
  · unfold InMode; decide +kernel
  · rintro (⟨_, h⟩ | h)
    · cases h
    · cases h

end Verif.Exec
