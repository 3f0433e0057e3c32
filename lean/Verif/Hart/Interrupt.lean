import Verif.Hart.Spec
import Verif.Csr.Spec
import Verif.XStatus.Props
import Verif.Util.Bits
/-
C10, C11, C60: interrupt selection.
-/
namespace Verif.Hart
open Verif.Csr (Op SimpleCsr)
open Verif.XStatus (MStatus Field)
open Verif.Xip (MIp MipEvent)
open Hart

variable {w : Nat}

/-! ### Lemmas -/

theorem and_bit_ne_zero (x : BitVec 32) (k : Nat) (hk : k < 32) :
    (x &&& ((1 : BitVec 32) <<< k) ≠ 0) ↔ x.getLsbD k = true := by
  constructor
  · intro h
    cases hx : x.getLsbD k with
    | true => rfl
    | false =>
      exfalso; apply h
      refine BitVec.eq_of_getLsbD_eq (fun i hi => ?_)
      rw [BitVec.getLsbD_and, BitVec.getLsbD_shiftLeft]
      by_cases hik : i = k
      · subst hik; simp [hx]
      · by_cases hlt : i < k
        · simp [hlt]
        · have : i - k ≠ 0 := by omega
          simp [BitVec.getLsbD_one, this]
  · intro h h0
    have : (x &&& ((1 : BitVec 32) <<< k)).getLsbD k = true := by
      rw [BitVec.getLsbD_and, h, BitVec.getLsbD_shiftLeft]; simp [hk]
    rw [h0] at this; simp at this

theorem pick_find (x : BitVec 32) (hx : ∀ i, i < 32 → i ∉ Spec.priority → x.getLsbD i = false) :
    (x = 0 → Spec.priority.find? (fun i => x.getLsbD i) = none) ∧
    (x ≠ 0 → ∃ k, Spec.priority.find? (fun i => x.getLsbD i) = some k ∧
      pick x = BitVec.ofNat 64 k) := by
  constructor
  · rintro rfl; simp
  · intro h0
    have hex : ∃ i ∈ Spec.priority, x.getLsbD i = true := by
      apply Classical.byContradiction
      intro hne
      apply h0
      refine BitVec.eq_of_getLsbD_eq (fun i hi => ?_)
      show _ = (0#32).getLsbD i
      rw [BitVec.getLsbD_zero]
      by_cases hp : i ∈ Spec.priority
      · cases hb : x.getLsbD i with
        | false => rfl
        | true => exact absurd ⟨i, hp, hb⟩ hne
      · exact hx i hi hp
    simp only [Spec.priority, List.mem_cons, List.not_mem_nil, or_false] at hex
    simp only [pick, Spec.priority, List.find?_cons, List.find?_nil]
    simp only [and_bit_ne_zero x _ (by decide : 11 < 32), and_bit_ne_zero x _ (by decide : 3 < 32),
      and_bit_ne_zero x _ (by decide : 7 < 32), and_bit_ne_zero x _ (by decide : 9 < 32),
      and_bit_ne_zero x _ (by decide : 1 < 32), and_bit_ne_zero x _ (by decide : 5 < 32),
      and_bit_ne_zero x _ (by decide : 8 < 32), and_bit_ne_zero x _ (by decide : 0 < 32),
      and_bit_ne_zero x _ (by decide : 4 < 32)]
    cases h11 : x.getLsbD 11 with
    | true => exact ⟨11, rfl, rfl⟩
    | false =>
    cases h3 : x.getLsbD 3 with
    | true => exact ⟨3, rfl, rfl⟩
    | false =>
    cases h7 : x.getLsbD 7 with
    | true => exact ⟨7, rfl, rfl⟩
    | false =>
    cases h9 : x.getLsbD 9 with
    | true => exact ⟨9, rfl, rfl⟩
    | false =>
    cases h1 : x.getLsbD 1 with
    | true => exact ⟨1, rfl, rfl⟩
    | false =>
    cases h5 : x.getLsbD 5 with
    | true => exact ⟨5, rfl, rfl⟩
    | false =>
    cases h8 : x.getLsbD 8 with
    | true => exact ⟨8, rfl, rfl⟩
    | false =>
    cases h00 : x.getLsbD 0 with
    | true => exact ⟨0, rfl, rfl⟩
    | false =>
    cases h4 : x.getLsbD 4 with
    | true => exact ⟨4, rfl, rfl⟩
    | false =>
      obtain ⟨i, hi, hb⟩ := hex
      rcases hi with rfl | rfl | rfl | rfl | rfl | rfl | rfl | rfl | rfl <;> simp_all

theorem find_congr {l : List Nat} {f g : Nat → Bool} (h : ∀ i ∈ l, f i = g i) :
    l.find? f = l.find? g := by
  induction l with
  | nil => rfl
  | cons a l ih =>
    rw [List.find?_cons, List.find?_cons, h a (by simp), ih (fun i hi => h i (by simp [hi]))]

theorem mask_bit (i : Nat) (hi : i < 64) :
    Xip.mieMask.getLsbD i = decide (i ∈ Spec.priority) ∧
    Xip.mipReadMask.getLsbD i = decide (i ∈ Spec.priority) := by
  revert i; exact allLt (by decide)

theorem priority_lt : ∀ i ∈ Spec.priority, i < 32 := by decide

/-- Bits of the pending-and-enabled word. -/
theorem interrupts_bit (h : Hart w) (i : Nat) (hi : i < 32) :
    (h.mip.as32 &&& h.mieAs32).getLsbD i = (decide (i ∈ Spec.priority) && Spec.pendEn h i) := by
  obtain ⟨h1, h2⟩ := mask_bit i (by omega)
  rw [BitVec.getLsbD_and, MIp.as32, mieAs32, BitVec.getLsbD_setWidth, BitVec.getLsbD_setWidth,
    BitVec.getLsbD_and, BitVec.getLsbD_and, h1, h2, Spec.pendEn, MIp.get, MIp.extBits,
    BitVec.getLsbD_or]
  have hx : (if h.mip.ext then (0x200 : BitVec 64) else 0).getLsbD i = (i = 9 && h.mip.ext) := by
    cases h.mip.ext with
    | false => simp
    | true =>
      have : ∀ i, i < 64 → (0x200 : BitVec 64).getLsbD i = decide (i = 9) := allLt (by decide)
      simp only [if_true, this i (by omega), Bool.and_true]
  rw [hx]
  cases decide (i ∈ Spec.priority) <;> simp [hi]

theorem deleg_bit (c : SimpleCsr w) (i : Nat) (hi : i < 32) :
    (c.as 32).getLsbD i = (c.value.getLsbD i && c.readMask.getLsbD i) := by
  rw [SimpleCsr.as, SimpleCsr.get, BitVec.getLsbD_and, BitVec.getLsbD_setWidth,
    BitVec.getLsbD_setWidth]
  simp [hi]

theorem getter1 (m : MStatus) (f : Field) (hm : f.mask = 1) :
    (m.getter f ≠ 0) ↔ m.value.getLsbD f.shift = true := by
  rw [MStatus.getter, hm]
  have hb : ((m.value >>> f.shift) &&& 1).getLsbD 0 = m.value.getLsbD f.shift := by
    rw [BitVec.getLsbD_and, BitVec.getLsbD_ushiftRight]; simp
  constructor
  · intro hne
    cases hx : m.value.getLsbD f.shift with
    | true => rfl
    | false =>
      exfalso; apply hne
      refine BitVec.eq_of_getLsbD_eq (fun i hi => ?_)
      by_cases h0 : i = 0
      · subst h0; rw [hb, hx]; simp
      · simp [BitVec.getLsbD_one, h0]
  · intro hx h0
    rw [h0, hx] at hb; simp at hb

theorem mieBit_eq (h : Hart w) : h.mieBit = h.mstatus.value.getLsbD 3 := by
  have := getter1 h.mstatus .mie rfl
  unfold mieBit
  cases hb : h.mstatus.value.getLsbD 3 with
  | true => simpa using this.2 hb
  | false =>
    have h2 : ¬ (h.mstatus.getter .mie ≠ 0) := fun hh => by
      have := this.1 hh; rw [show Field.shift .mie = 3 from rfl, hb] at this; cases this
    exact decide_eq_false h2

theorem sieBit_eq (h : Hart w) : h.sieBit = h.mstatus.value.getLsbD 1 := by
  have := getter1 h.mstatus .sie rfl
  unfold sieBit
  cases hb : h.mstatus.value.getLsbD 1 with
  | true => simpa using this.2 hb
  | false =>
    have h2 : ¬ (h.mstatus.getter .sie ≠ 0) := fun hh => by
      have := this.1 hh; rw [show Field.shift .sie = 1 from rfl, hb] at this; cases this
    exact decide_eq_false h2

/-- The bits of the per-level words. -/
theorem mInts_bit (h : Hart w) (i : Nat) (hi : i < 32) :
    ((h.mip.as32 &&& h.mieAs32) &&& ~~~(h.mideleg.as 32)).getLsbD i =
      (decide (i ∈ Spec.priority) && (Spec.pendEn h i && Spec.level h i = M)) := by
  rw [BitVec.getLsbD_and, interrupts_bit h i hi, BitVec.getLsbD_not, deleg_bit _ i hi, Spec.level]
  cases h.mideleg.value.getLsbD i && h.mideleg.readMask.getLsbD i with
  | false => simp [hi]
  | true =>
    cases h.sideleg.value.getLsbD i && h.sideleg.readMask.getLsbD i <;> simp [M, S, U]

theorem sInts_bit (h : Hart w) (i : Nat) (hi : i < 32) :
    (((h.mip.as32 &&& h.mieAs32) &&& h.mideleg.as 32) &&& ~~~(h.sideleg.as 32)).getLsbD i =
      (decide (i ∈ Spec.priority) && (Spec.pendEn h i && Spec.level h i = S)) := by
  rw [BitVec.getLsbD_and, BitVec.getLsbD_and, interrupts_bit h i hi, BitVec.getLsbD_not,
    deleg_bit _ i hi, deleg_bit _ i hi, Spec.level]
  cases h.mideleg.value.getLsbD i && h.mideleg.readMask.getLsbD i with
  | false => simp [M, S]
  | true =>
    cases h.sideleg.value.getLsbD i && h.sideleg.readMask.getLsbD i <;> simp [hi, S, U]

/-- A per-level word and the specification's search. -/
theorem level_pick (h : Hart w) (l : Mode) (x : BitVec 32)
    (hx : ∀ i, i < 32 → x.getLsbD i =
      (decide (i ∈ Spec.priority) && (Spec.pendEn h i && Spec.level h i = l))) :
    (x = 0 → Spec.priority.find? (fun i => Spec.pendEn h i && Spec.level h i = l) = none) ∧
    (x ≠ 0 → ∃ k, Spec.priority.find? (fun i => Spec.pendEn h i && Spec.level h i = l) = some k ∧
      pick x = BitVec.ofNat 64 k) := by
  have hc : Spec.priority.find? (fun i => Spec.pendEn h i && Spec.level h i = l) =
      Spec.priority.find? (fun i => x.getLsbD i) := by
    apply find_congr
    intro i hi
    rw [hx i (priority_lt i hi)]; simp [hi]
  rw [hc]
  exact pick_find x (fun i hi hn => by rw [hx i hi]; simp [hn])

theorem mode_cases (m : Mode) : m = 0 ∨ m = 1 ∨ m = 2 ∨ m = 3 := by
  revert m; decide

/-! ### C10 -/

/-- **C10.** In every state with a legal mode, evaluating interrupts reports an interrupt exactly
when the specification finds one to take, reports the one the specification chooses, and changes
nothing else. -/
theorem C10_check_spec (h : Hart w) (hl : Spec.legalMode h) :
    h.check = match Spec.choose h with
      | some k => { h with avail := true, code := BitVec.ofNat 64 k }
      | none => h := by
  obtain ⟨hm0, hm1⟩ := level_pick h M _ (mInts_bit h)
  obtain ⟨hs0, hs1⟩ := level_pick h S _ (sInts_bit h)
  have hM : Spec.levelOn h M = (decide (h.mode ≠ M) || h.mieBit) := by
    rw [mieBit_eq, Spec.levelOn, if_pos rfl]
    rcases hl with h' | h' | h' <;> rw [h'] <;> simp [U, S, M]
  have hS : Spec.levelOn h S = ((decide (h.mode.toNat < S.toNat) || h.sieBit) &&
      decide (h.mode ≠ M)) := by
    rw [sieBit_eq, Spec.levelOn, if_neg (by decide), if_pos rfl]
    rcases hl with h' | h' | h' <;> rw [h'] <;> simp [U, S, M]
  unfold check Spec.choose Spec.best
  rw [hM, hS]
  simp only
  by_cases h0 : h.mip.as32 &&& h.mieAs32 = 0
  · rw [if_pos h0]
    rw [hm0 (by rw [h0]; simp), hs0 (by rw [h0]; simp)]
    simp
  · rw [if_neg h0]
    generalize (h.mip.as32 &&& h.mieAs32) &&& ~~~(h.mideleg.as 32) = mi at *
    generalize ((h.mip.as32 &&& h.mieAs32) &&& h.mideleg.as 32) &&& ~~~(h.sideleg.as 32) = si at *
    generalize (decide (h.mode ≠ M) || h.mieBit) = mie
    generalize ((decide (h.mode.toNat < S.toNat) || h.sieBit) && decide (h.mode ≠ M)) = sie
    generalize (h.uieBit && decide (h.mode = U)) = uie
    by_cases hmi : mi = 0
    · rw [hm0 hmi]
      by_cases hsi : si = 0
      · rw [hs0 hsi]
        cases mie <;> cases sie <;> cases uie <;> simp [hmi, hsi]
      · obtain ⟨k, hk1, hk2⟩ := hs1 hsi
        rw [hk1]
        replace hsi : ¬ si = 0#32 := hsi
        cases mie <;> cases sie <;> cases uie <;> simp [hmi, hsi, hk2]
    · obtain ⟨k, hk1, hk2⟩ := hm1 hmi
      rw [hk1]
      replace hmi : ¬ mi = 0#32 := hmi
      by_cases hsi : si = 0
      · rw [hs0 hsi]
        cases mie <;> cases sie <;> cases uie <;> simp [hmi, hsi, hk2]
      · obtain ⟨k', hk1', hk2'⟩ := hs1 hsi
        rw [hk1']
        replace hsi : ¬ si = 0#32 := hsi
        cases mie <;> cases sie <;> cases uie <;> simp [hmi, hsi, hk2, hk2']

/-- The chosen interrupt may be taken, and is one of the nine. -/
theorem choose_takeable {h : Hart w} {k : Nat} (hc : Spec.choose h = some k) :
    Spec.takeable h k = true ∧ k ∈ Spec.priority := by
  have key : ∀ l, Spec.best h l = some k → Spec.takeable h k = true ∧ k ∈ Spec.priority := by
    intro l hb
    unfold Spec.best at hb
    split at hb
    · next hon =>
      have h1 := List.find?_some hb
      have h2 := List.mem_of_find?_eq_some hb
      simp only [Bool.and_eq_true, decide_eq_true_eq] at h1
      exact ⟨by rw [Spec.takeable, h1.1, h1.2, hon]; rfl, h2⟩
    · cases hb
  unfold Spec.choose at hc
  cases hM : Spec.best h M with
  | some j => rw [hM] at hc; cases hc; exact key M hM
  | none => rw [hM] at hc; exact key S hc

/-- If some interrupt may be taken, one is chosen. -/
theorem choose_complete {h : Hart w} {i : Nat} (hi : i ∈ Spec.priority)
    (ht : Spec.takeable h i = true) : ∃ k, Spec.choose h = some k := by
  have key : ∀ l, Spec.level h i = l → Spec.levelOn h l = true →
      ∃ k, Spec.best h l = some k := by
    intro l hl hon
    unfold Spec.best
    rw [if_pos hon]
    cases hf : Spec.priority.find? (fun i => Spec.pendEn h i && Spec.level h i = l) with
    | some k => exact ⟨k, rfl⟩
    | none =>
      have := List.find?_eq_none.1 hf i hi
      simp only [Spec.takeable, Bool.and_eq_true] at ht
      simp [ht.1, hl] at this
  simp only [Spec.takeable, Bool.and_eq_true] at ht
  unfold Spec.choose
  cases hM : Spec.best h M with
  | some j => exact ⟨j, rfl⟩
  | none =>
    have hcases : Spec.level h i = M ∨ Spec.level h i = S ∨ Spec.level h i = U := by
      unfold Spec.level; split
      · split
        · exact Or.inr (Or.inr rfl)
        · exact Or.inr (Or.inl rfl)
      · exact Or.inl rfl
    rcases hcases with hl | hl | hl
    · obtain ⟨k, hk⟩ := key M hl (hl ▸ ht.2)
      rw [hM] at hk; cases hk
    · obtain ⟨k, hk⟩ := key S hl (hl ▸ ht.2)
      exact ⟨k, hk⟩
    · have := ht.2; rw [hl] at this; simp [Spec.levelOn, U, M, S] at this

/-- **C10, availability.** Evaluation with no interrupt reported so far reports one exactly when
some pending and enabled interrupt may be taken in the current mode. -/
theorem C10_available_iff (h : Hart w) (hl : Spec.legalMode h) (h0 : h.avail = false) :
    h.check.avail = true ↔ ∃ i ∈ Spec.priority, Spec.takeable h i = true := by
  rw [C10_check_spec h hl]
  constructor
  · intro ha
    cases hc : Spec.choose h with
    | none => rw [hc] at ha; simp [h0] at ha
    | some k => exact ⟨k, (choose_takeable hc).2, (choose_takeable hc).1⟩
  · rintro ⟨i, hi, ht⟩
    obtain ⟨k, hk⟩ := choose_complete hi ht
    rw [hk]

/-- **C10, priority.** The interrupt reported by an evaluation is takeable, and no takeable
interrupt of its level precedes it in the priority order; it is of machine level if any takeable
one is. -/
theorem C10_priority (h : Hart w) (k : Nat) (hc : Spec.choose h = some k) :
    Spec.takeable h k = true ∧
    (∀ i ∈ Spec.priority, Spec.takeable h i = true → Spec.level h i = M → Spec.level h k = M) ∧
    (∀ i ∈ Spec.priority, Spec.takeable h i = true → Spec.level h i = Spec.level h k →
      Spec.priority.idxOf k ≤ Spec.priority.idxOf i) := by
  refine ⟨(choose_takeable hc).1, ?_, ?_⟩
  · intro i hi ht hlm
    unfold Spec.choose at hc
    have hlev : ∀ l k, Spec.best h l = some k → Spec.level h k = l := by
      intro l k hb
      unfold Spec.best at hb
      split at hb
      · have := List.find?_some hb; simp at this; exact this.2
      · cases hb
    cases hM : Spec.best h M with
    | some j => rw [hM] at hc; cases hc; exact hlev M _ hM
    | none =>
      unfold Spec.best at hM
      simp only [Spec.takeable, Bool.and_eq_true] at ht
      rw [if_pos (hlm ▸ ht.2)] at hM
      have := List.find?_eq_none.1 hM i hi
      simp [ht.1, hlm] at this
  · intro i hi ht hle
    have hbest : ∃ l, Spec.best h l = some k := by
      unfold Spec.choose at hc
      cases hM : Spec.best h M with
      | some j => rw [hM] at hc; cases hc; exact ⟨M, hM⟩
      | none => rw [hM] at hc; exact ⟨S, hc⟩
    obtain ⟨l, hb⟩ := hbest
    unfold Spec.best at hb
    split at hb
    · have hp := List.find?_some hb
      simp only [Bool.and_eq_true, decide_eq_true_eq] at hp
      rw [hp.2] at hle
      simp only [Spec.takeable, Bool.and_eq_true] at ht
      have hpi : (fun i => Spec.pendEn h i && decide (Spec.level h i = l)) i = true := by
        simp [ht.1, hle]
      have gen : ∀ (xs : List Nat) (p : Nat → Bool) (k i : Nat), xs.find? p = some k → i ∈ xs →
          p i = true → xs.idxOf k ≤ xs.idxOf i := by
        intro xs p k i
        induction xs with
        | nil => intro hf; simp at hf
        | cons a xs ih =>
          intro hf hmem hpi
          rw [List.find?_cons] at hf
          cases hpa : p a with
          | true => rw [hpa] at hf; cases hf; simp [List.idxOf_cons]
          | false =>
            rw [hpa] at hf
            have hai : a ≠ i := by rintro rfl; rw [hpa] at hpi; cases hpi
            have hak : a ≠ k := by
              rintro rfl; have := List.find?_some hf; rw [hpa] at this; cases this
            have hm' : i ∈ xs := by
              rcases List.mem_cons.1 hmem with h' | h'
              · exact absurd h'.symm hai
              · exact h'
            have := ih hf hm' hpi
            rw [List.idxOf_cons, List.idxOf_cons]
            simp only [beq_eq_false_iff_ne.2 hai, beq_eq_false_iff_ne.2 hak, cond_false]
            omega
      exact gen _ _ _ _ hb hi hpi
    · cases hb

/-- Non-vacuity: STI delegated and pending, MTI and MEI pending, user mode: MEI is chosen. -/
example :
    let h : Hart 64 := { Hart.init 64 true with
      mode := U, mip := ⟨0x8a0, false⟩, mie := 0x8a0, mideleg := ⟨0x20, 0xbbb, 0xbbb⟩ }
    Spec.choose h = some 11 ∧ h.check.code = 11 ∧ h.check.avail = true ∧
      Spec.takeable h 5 = true := by decide

/-! ### C11 -/

/-- **C11, violated.** From reset: enable and raise the machine timer interrupt, then lower the
line. The simulator still reports the interrupt although it is not pending. -/
theorem C11_stale_violated :
    ∃ es : List (Ev 64), (run (Hart.init 64 true) es).avail = true ∧
      Spec.pendEn (run (Hart.init 64 true) es) (run (Hart.init 64 true) es).code.toNat = false :=
  ⟨[.mie (.write64 0x80), .mstatus (.write64 0x8), .mip (.setBit 7 1), .mip (.setBit 7 0)],
    by decide, by decide⟩

/-- ... and the run loop then takes the withdrawn interrupt. -/
theorem C11_spurious_trap_violated :
    ∃ es : List (Ev 64), Spec.pendEn (run (Hart.init 64 true) es) 7 = false ∧
      (step (run (Hart.init 64 true) es) (.take 0)).mcause = 0x8000000000000007 :=
  ⟨[.mie (.write64 0x80), .mstatus (.write64 0x8), .mip (.setBit 7 1), .mip (.setBit 7 0)],
    by decide, by decide⟩

/-- The report is up to date. -/
def Fresh (h : Hart w) : Prop := h.avail = true → Spec.takeable h h.code.toNat = true

/-- No event of the history withdraws the interrupt that is reported when it happens, and the
mode is legal throughout. -/
def NoWithdraw : Hart w → List (Ev w) → Prop
  | h, [] => Spec.legalMode h
  | h, e :: es => Spec.legalMode h ∧ Spec.legalMode (step h e) ∧
      (h.avail = true → Spec.takeable h h.code.toNat = true →
        (step h e).avail = true → (step h e).code = h.code →
        Spec.takeable (step h e) h.code.toNat = true) ∧ NoWithdraw (step h e) es

/-- Shape of a step: the report is kept, withdrawn, or recomputed by an evaluation at the end. -/
theorem step_shape (h : Hart w) (e : Ev w) :
    ((step h e).avail = h.avail ∧ (step h e).code = h.code) ∨ (step h e).avail = false ∨
    ∃ g : Hart w, step h e = g.check ∧ g.avail = h.avail ∧ g.code = h.code := by
  have hmip : ∀ m, ((h.setMip m).avail = h.avail ∧ (h.setMip m).code = h.code) ∨
      (h.setMip m).avail = false ∨
      ∃ g : Hart w, h.setMip m = g.check ∧ g.avail = h.avail ∧ g.code = h.code := by
    intro m; unfold setMip; simp only
    split
    · exact Or.inr (Or.inr ⟨_, rfl, rfl, rfl⟩)
    · exact Or.inl ⟨rfl, rfl⟩
  have hmie : ∀ m, ((h.setMie m).avail = h.avail ∧ (h.setMie m).code = h.code) ∨
      (h.setMie m).avail = false ∨
      ∃ g : Hart w, h.setMie m = g.check ∧ g.avail = h.avail ∧ g.code = h.code := by
    intro m; unfold setMie; simp only
    split
    · exact Or.inr (Or.inr ⟨_, rfl, rfl, rfl⟩)
    · exact Or.inl ⟨rfl, rfl⟩
  have hms : ∀ (h1 : Hart w) m, h1.avail = h.avail → h1.code = h.code →
      ((h1.setMstatus m).avail = h.avail ∧ (h1.setMstatus m).code = h.code) ∨
      (h1.setMstatus m).avail = false ∨
      ∃ g : Hart w, h1.setMstatus m = g.check ∧ g.avail = h.avail ∧ g.code = h.code := by
    intro h1 m ha hc; unfold setMstatus; simp only
    split
    · exact Or.inr (Or.inr ⟨_, rfl, ha, hc⟩)
    · exact Or.inl ⟨ha, hc⟩
  have htrap : ∀ i t c ep hd, ((h.trap i t c ep hd).avail = h.avail ∧
        (h.trap i t c ep hd).code = h.code) ∨ (h.trap i t c ep hd).avail = false ∨
      ∃ g : Hart w, h.trap i t c ep hd = g.check ∧ g.avail = h.avail ∧ g.code = h.code := by
    intro i t c ep hd; unfold trap; simp only
    split
    · exact Or.inl ⟨rfl, rfl⟩
    · split
      · exact hms _ _ rfl rfl
      · split
        · exact hms _ _ rfl rfl
        · exact Or.inl ⟨rfl, rfl⟩
  cases e with
  | mip e =>
    cases e with
    | csr op => exact hmip _
    | setBit s v => exact hmip _
    | ext v => exact Or.inl ⟨rfl, rfl⟩
  | mie op => exact hmie _
  | sip v => exact hmip _
  | sie v => exact hmie _
  | mstatus op => exact hms h _ rfl rfl
  | sstatus op => exact hms h _ rfl rfl
  | mideleg op => exact Or.inl ⟨rfl, rfl⟩
  | sideleg op => exact Or.inl ⟨rfl, rfl⟩
  | medeleg op => exact Or.inl ⟨rfl, rfl⟩
  | mtvec v => exact Or.inl ⟨rfl, rfl⟩
  | stvec v => exact Or.inl ⟨rfl, rfl⟩
  | mepc v => exact Or.inl ⟨rfl, rfl⟩
  | sepc v => exact Or.inl ⟨rfl, rfl⟩
  | exception t c ep => exact htrap _ _ _ _ _
  | take ep =>
    simp only [step, takeAvailable]
    cases ha : h.avail with
    | true => exact Or.inr (Or.inl rfl)
    | false => exact Or.inr (Or.inl ha)
  | mret a =>
    simp only [step, mret]
    split
    · exact htrap _ _ _ _ _
    · exact hms _ _ rfl rfl
  | sret a =>
    simp only [step, sret]
    split
    · exact htrap _ _ _ _ _
    · split
      · exact htrap _ _ _ _ _
      · exact hms _ _ rfl rfl

/-- Evaluation either leaves the state alone or leaves a takeable report. -/
theorem check_fresh (g : Hart w) (hl : Spec.legalMode g) :
    g.check = g ∨ (g.check.avail = true ∧ Spec.takeable g.check g.check.code.toNat = true) := by
  rw [C10_check_spec g hl]
  cases hc : Spec.choose g with
  | none => exact Or.inl rfl
  | some k =>
    obtain ⟨h1, h2⟩ := choose_takeable hc
    have hk : (BitVec.ofNat 64 k).toNat = k := by
      have := priority_lt k h2
      rw [BitVec.toNat_ofNat]; omega
    refine Or.inr ⟨rfl, ?_⟩
    simp only [hk]; exact h1

theorem check_mode (g : Hart w) : g.check.mode = g.mode := by
  unfold check; simp only
  repeat' split
  all_goals rfl

/-- **C11, partial.** In every history in which no event withdraws the currently reported
interrupt (lowers its line, disables or redelegates it, or leaves the mode in which it can be
taken), the report is never stale. Missing: those events (see `C11_stale_violated`). -/
theorem C11_fresh_partial (h : Hart w) (es : List (Ev w)) (h0 : Fresh h)
    (hn : NoWithdraw h es) : Fresh (run h es) := by
  induction es generalizing h with
  | nil => exact h0
  | cons e es ih =>
    obtain ⟨_, hl', hw, hrest⟩ := hn
    refine ih (step h e) ?_ hrest
    intro ha
    rcases step_shape h e with ⟨h1, h2⟩ | h1 | ⟨g, h1, h2, h3⟩
    · rw [h1] at ha
      rw [h2]; exact hw ha (h0 ha) (h1 ▸ ha) h2
    · rw [h1] at ha; cases ha
    · have hlg : Spec.legalMode g := by
        have : (step h e).mode = g.mode := by rw [h1, check_mode]
        unfold Spec.legalMode at hl' ⊢; rw [← this]; exact hl'
      rcases check_fresh g hlg with hc | ⟨_, hc⟩
      · rw [h1, hc] at ha ⊢
        rw [h2] at ha
        rw [h3]
        have := hw ha (h0 ha) (by rw [h1, hc, h2]; exact ha) (by rw [h1, hc, h3])
        rw [h1, hc] at this; exact this
      · rw [h1]; exact hc

/-- Non-vacuity: a history that reports and takes an interrupt satisfies the hypothesis. -/
example : NoWithdraw (Hart.init 64 true)
    [.mie (.write64 0x80), .mstatus (.write64 0x8), .mip (.setBit 7 1), .take 0x1000] := by
  refine ⟨Or.inr (Or.inr rfl), Or.inr (Or.inr ?_), ?_, Or.inr (Or.inr ?_), Or.inr (Or.inr ?_), ?_,
    Or.inr (Or.inr ?_), Or.inr (Or.inr ?_), ?_, Or.inr (Or.inr ?_), Or.inr (Or.inr ?_), ?_,
    Or.inr (Or.inr ?_)⟩ <;> decide

/-! ### C60 -/

/-- **C60, violated (1).** A machine interrupt is pending and enabled while machine mode runs with
MIE = 0 and MPIE = 0; mret to user mode makes it takeable, but nothing re-evaluates. -/
theorem C60_mret_missed_violated :
    ∃ es : List (Ev 64), let h := run (Hart.init 64 true) es
      Spec.takeable h 7 = true ∧ h.mode = U ∧ h.avail = false :=
  ⟨[.mie (.write64 0x80), .mip (.setBit 7 1), .mstatus (.write64 0), .mret 0], by decide⟩

/-- **C60, violated (2).** Raising the external supervisor line does not re-evaluate. -/
theorem C60_ext_seip_missed_violated :
    ∃ es : List (Ev 64), let h := run (Hart.init 64 true) es
      Spec.takeable h 9 = true ∧ h.avail = false :=
  ⟨[.mie (.write64 0x200), .mstatus (.write64 0x8), .mip (.ext 1)], by decide⟩

/-- **C60, partial.** After storing mip (unless it stores zero while the external line is high),
after storing mie, and after storing an mstatus with one of its low four bits set, every takeable
interrupt is reported. Missing: mode changes with all low mstatus bits clear, changes of the
external line, and delegation changes. -/
theorem C60_reported_partial (h : Hart w) :
    (∀ m, Spec.legalMode h → (m.stored ≠ 0 ∨ m.ext = false) →
      ∀ i ∈ Spec.priority, Spec.takeable (h.setMip m) i = true → (h.setMip m).avail = true) ∧
    (∀ v, Spec.legalMode h →
      ∀ i ∈ Spec.priority, Spec.takeable (h.setMie v) i = true → (h.setMie v).avail = true) ∧
    (∀ s, Spec.legalMode h → s.value &&& 0xf ≠ 0 →
      ∀ i ∈ Spec.priority, Spec.takeable (h.setMstatus s) i = true →
        (h.setMstatus s).avail = true) := by
  have key : ∀ g : Hart w, Spec.legalMode g → ∀ i ∈ Spec.priority,
      Spec.takeable g.check i = true → g.check.avail = true := by
    intro g hg i hi ht
    rw [C10_check_spec g hg] at ht ⊢
    cases hc : Spec.choose g with
    | some k => rfl
    | none =>
      rw [hc] at ht
      obtain ⟨k, hk⟩ := choose_complete hi ht
      rw [hk] at hc; cases hc
  refine ⟨fun m hl hm i hi ht => ?_, fun v hl i hi ht => ?_, fun s hl hs i hi ht => ?_⟩
  · unfold setMip at ht ⊢; simp only at ht ⊢
    by_cases h0 : m.stored ≠ 0
    · rw [if_pos h0] at ht ⊢; exact key _ hl i hi ht
    · exfalso
      rw [if_neg h0] at ht
      have h0 : m.stored = 0 := by simpa using h0
      have he : m.ext = false := by
        rcases hm with h' | h'
        · exact absurd h0 h'
        · exact h'
      simp [Spec.takeable, Spec.pendEn, h0, he] at ht
  · unfold setMie at ht ⊢; simp only at ht ⊢
    by_cases h0 : v ≠ 0
    · rw [if_pos h0] at ht ⊢; exact key _ hl i hi ht
    · exfalso
      rw [if_neg h0] at ht
      have h0 : v = 0 := by simpa using h0
      simp [Spec.takeable, Spec.pendEn, h0] at ht
  · unfold setMstatus at ht ⊢; simp only at ht ⊢
    rw [if_pos hs] at ht ⊢; exact key _ hl i hi ht

end Verif.Hart
