import Verif.Operands.Spec

/-!
# C66: functions use only operands their instruction has
-/

namespace Verif.Operands

open Spec

/-! ## A check that does not depend on the register list -/

/-- Operands of a description other than register lists. -/
def fixed (l : List Arg) : Nat := (l.filter (· ≠ .regs)).length

theorem fixed_le (r : Nat) (l : List Arg) : fixed l ≤ (supplied r l).length := by
  induction l with
  | nil => simp [fixed]
  | cons a l ih =>
    have : (supplied r (a :: l)).length
        = (match a with | .regs => r | _ => 1) + (supplied r l).length := by
      cases a <;> simp [supplied] <;> omega
    rw [this]
    cases a <;> simp_all [fixed] <;> omega

def Acc.fits (fs fd : Nat) : Acc → Bool
  | .src k => k < fs
  | .dst k => k < fd
  | .srcOver n k => k ≤ n
  | .srcUpTo _ k => k < fs
  | .srcFrom _ => true
  | .dstBelow _ => true
  | .dstFromEnd m k => m ≤ fd && k < m

def fitsPhase (p : Phase) : Bool :=
  match p.fn with
  | none => true
  | some c => c.accs.all (Acc.fits (fixed p.srcs) (fixed p.dsts))

theorem inRange_of_fits {p : Phase} (h : fitsPhase p = true) : InRange p := by
  intro r u hu
  unfold Phase.uses at hu
  unfold fitsPhase at h
  cases hf : p.fn with
  | none => rw [hf] at hu; cases hu
  | some c =>
    rw [hf] at hu h
    obtain ⟨a, ha, hau⟩ := List.mem_flatMap.1 hu
    have hfit := List.all_eq_true.1 h a ha
    have hs := fixed_le r p.srcs
    have hd := fixed_le r p.dsts
    generalize supplied r p.srcs = ls at *
    generalize supplied r p.dsts = ld at *
    cases a with
    | src k =>
      simp only [Acc.uses, List.mem_singleton, Acc.fits, decide_eq_true_eq] at hau hfit
      subst hau; exact ⟨by omega, by omega⟩
    | dst k =>
      simp only [Acc.uses, List.mem_singleton, Acc.fits, decide_eq_true_eq] at hau hfit
      subst hau; exact ⟨by omega, by omega⟩
    | srcOver n k =>
      simp only [Acc.uses, Acc.fits, decide_eq_true_eq] at hau hfit
      split at hau
      · rw [List.mem_singleton] at hau
        subst hau; exact ⟨by omega, by omega⟩
      · cases hau
    | srcUpTo n k =>
      simp only [Acc.uses, Acc.fits, decide_eq_true_eq] at hau hfit
      split at hau
      · cases hau
      · rw [List.mem_singleton] at hau
        subst hau; exact ⟨by omega, by omega⟩
    | srcFrom k =>
      simp only [Acc.uses, List.mem_map, List.mem_range] at hau
      obtain ⟨i, hi, rfl⟩ := hau
      exact ⟨by omega, by omega⟩
    | dstBelow m =>
      simp only [Acc.uses, List.mem_map, List.mem_range] at hau
      obtain ⟨i, hi, rfl⟩ := hau
      exact ⟨by omega, by omega⟩
    | dstFromEnd m k =>
      simp only [Acc.uses, List.mem_singleton, Acc.fits, Bool.and_eq_true,
        decide_eq_true_eq] at hau hfit
      subst hau
      exact ⟨by omega, by omega⟩

/-! ## A check of the getters, for descriptions without register lists -/

def made (getter : Getters.Opd → Option Getters.What) : Option Arg → Bool
  | some (.one o) => match getter o with
    | some .null => false
    | some .missing => false
    | some _ => true
    | none => false
  | _ => false

def Acc.madeIn (e : Getters.Enc) (p : Phase) : Acc → Bool
  | .src k => made e.source p.srcs[k]?
  | .dst k => made e.dest p.dsts[k]?
  | .srcOver n k => !(n < p.srcs.length) || made e.source p.srcs[k]?
  | .srcUpTo n k => n < p.srcs.length || made e.source p.srcs[k]?
  | _ => false

def isOne : Arg → Bool
  | .one _ => true
  | _ => false

def madePhase (e : Getters.Enc) (p : Phase) : Bool :=
  p.srcs.all isOne && p.dsts.all isOne &&
  match p.fn with
  | none => true
  | some c => c.accs.all (Acc.madeIn e p)

theorem supplied_ones (r : Nat) {l : List Arg} (h : l.all isOne = true) : supplied r l = l := by
  induction l with
  | nil => rfl
  | cons a l ih =>
    rw [List.all_cons, Bool.and_eq_true] at h
    cases a with
    | one o => show _ :: supplied r l = _; rw [ih h.2]
    | other n => cases h.1
    | regs => cases h.1

theorem made_spec {g : Getters.Opd → Option Getters.What} {l : List Arg} {k : Nat}
    (h : made g l[k]? = true) : Made g l k := by
  refine ⟨by omega, ?_⟩
  rw [Int.toNat_natCast]
  cases hk : l[k]? with
  | none => rw [hk] at h; cases h
  | some a =>
    rw [hk] at h
    cases a with
    | one o =>
      cases hg : g o with
      | none => simp [made, hg] at h
      | some w =>
        refine ⟨o, w, rfl, hg, ?_, ?_⟩ <;> rintro rfl <;> simp [made, hg] at h
    | other n => cases h
    | regs => cases h

theorem allMade_of_check {e : Getters.Enc} {p : Phase} (h : madePhase e p = true) :
    AllMade e p := by
  unfold madePhase at h
  rw [Bool.and_eq_true, Bool.and_eq_true] at h
  obtain ⟨⟨h1, h2⟩, h3⟩ := h
  intro r u hu
  unfold Phase.uses at hu
  rw [supplied_ones r h1, supplied_ones r h2] at *
  cases hf : p.fn with
  | none => rw [hf] at hu; cases hu
  | some c =>
    rw [hf] at hu h3
    obtain ⟨a, ha, hau⟩ := List.mem_flatMap.1 hu
    have hfit := List.all_eq_true.1 h3 a ha
    cases a with
    | src k =>
      rw [List.mem_singleton.1 hau]
      exact made_spec hfit
    | dst k =>
      rw [List.mem_singleton.1 hau]
      exact made_spec hfit
    | srcOver n k =>
      simp only [Acc.uses] at hau
      split at hau
      · rename_i hn
        rw [List.mem_singleton.1 hau]
        simp only [Acc.madeIn, hn, decide_true, Bool.not_true, Bool.false_or] at hfit
        exact made_spec hfit
      · cases hau
    | srcUpTo n k =>
      simp only [Acc.uses] at hau
      split at hau
      · cases hau
      · rename_i hn
        rw [List.mem_singleton.1 hau]
        simp only [Acc.madeIn, hn, decide_false, Bool.false_or] at hfit
        exact made_spec hfit
    | srcFrom k => cases hfit
    | dstBelow m => cases hfit
    | dstFromEnd m k => cases hfit

/-! ## The tables -/

def okInstr (skip : List String) (i : Instr) : Bool :=
  i.phases.all fitsPhase || skip.contains i.name

def Isa.all : List Isa :=
  [.riscv32g, .riscv32gzb, .riscv32gv, .riscv32gvzb, .riscv64g, .riscv64gzb, .riscv64gv,
   .riscv64gvzb, .zfh32, .zfh64, .zvbb, .rvm23]

theorem Isa.mem_all (a : Isa) : a ∈ Isa.all := by cases a <;> decide

set_option maxRecDepth 100000 in
theorem range_table :
    (Isa.all.all fun a => a.instrs.all (okInstr (short a))) = true := by decide +kernel

set_option maxRecDepth 100000 in
theorem made_table :
    (Isa.all.all fun a => match a.enc with
      | none => true
      | some e => a.instrs.all fun i => i.phases.all (madePhase e)) = true := by decide +kernel

/-- C66 for every description of the repository: whatever the number of
registers in a register list, a function uses only positions at which its
instruction has an operand.  The eight instructions named in `short` are left
out; they are the subject of `C66_half_violated` and `C66_popret_violated`. -/
theorem C66_in_range_partial (a : Isa) (i : Instr) (hi : i ∈ a.instrs)
    (hs : i.name ∉ short a) (p : Phase) (hp : p ∈ i.phases) : InRange p := by
  have h := List.all_eq_true.1 (List.all_eq_true.1 range_table a (Isa.mem_all a)) i hi
  unfold okInstr at h
  rw [Bool.or_eq_true] at h
  rcases h with h | h
  · exact inRange_of_fits (List.all_eq_true.1 h p hp)
  · exact absurd (List.contains_iff_mem.1 h) hs

/-- C66 for the eight descriptions that have an encoding class, without
exception: a function uses only operands that the getters of the class make. -/
theorem C66_operands_made (a : Isa) (e : Getters.Enc) (he : a.enc = some e) (i : Instr)
    (hi : i ∈ a.instrs) (p : Phase) (hp : p ∈ i.phases) : AllMade e p := by
  have h := List.all_eq_true.1 made_table a (Isa.mem_all a)
  rw [he] at h
  exact allMade_of_check (List.all_eq_true.1 (List.all_eq_true.1 h i hi) p hp)

/-! ## The exceptions -/

/-- A phase that always uses source `k`, having no more than `k` of them and no
register list. -/
def lacks (p : Phase) : Bool :=
  match p.fn with
  | none => false
  | some c => p.srcs.all (· ≠ .regs) && c.accs.any fun a => match a with
    | .src k => p.srcs.length ≤ k
    | _ => false

theorem not_inRange {p : Phase} (h : lacks p = true) : ¬ InRange p := by
  intro hr
  unfold lacks at h
  cases hf : p.fn with
  | none => rw [hf] at h; cases h
  | some c =>
    rw [hf, Bool.and_eq_true] at h
    obtain ⟨h1, h2⟩ := h
    obtain ⟨a, ha, hk⟩ := List.any_eq_true.1 h2
    cases a with
    | src k =>
      have hl : supplied 0 p.srcs = p.srcs := by
        generalize p.srcs = l at h1
        induction l with
        | nil => rfl
        | cons a l ih =>
          rw [List.all_cons, Bool.and_eq_true] at h1
          cases a with
          | one o => show _ :: supplied 0 l = _; rw [ih h1.2]
          | other n => show _ :: supplied 0 l = _; rw [ih h1.2]
          | regs => exact absurd h1.1 (by decide)
      have := hr 0 (.src k) (by
        unfold Phase.uses
        rw [hf]
        exact List.mem_flatMap.2 ⟨_, ha, List.mem_singleton.2 rfl⟩)
      simp only [hl] at this
      have hk' : p.srcs.length ≤ k := by simpa using hk
      have := this.2
      omega
    | _ => cases hk

set_option maxRecDepth 100000 in
theorem short_table :
    (Isa.all.all fun a => (short a).all fun n => a.instrs.any fun i =>
      i.name == n && i.phases.any lacks) = true := by decide +kernel

theorem short_lacks (a : Isa) (n : String) (hn : n ∈ short a) :
    ∃ i ∈ a.instrs, i.name = n ∧ ∃ p ∈ i.phases, ¬ InRange p := by
  have h := List.all_eq_true.1 (List.all_eq_true.1 short_table a (Isa.mem_all a)) n hn
  obtain ⟨i, hi, h⟩ := List.any_eq_true.1 h
  rw [Bool.and_eq_true, beq_iff_eq] at h
  obtain ⟨p, hp, h'⟩ := List.any_eq_true.1 h.2
  exact ⟨i, hi, h.1, p, hp, not_inRange h'⟩

/-- C66 fails in the half-precision descriptions: `fmv.x.h`, `fmin.h`, `fmax.h`
and the sign injections are described without a rounding mode
(riscv_zfh.isa:83,113,158-181), but the functions they name read one. -/
theorem C66_half_violated (n : String)
    (hn : n ∈ ["fmv_xh", "fmin_h", "fmax_h", "fsgnj_h", "fsgnjn_h", "fsgnjx_h"]) :
    (∃ i ∈ Isa.zfh32.instrs, i.name = n ∧ ∃ p ∈ i.phases, ¬ InRange p) ∧
    (∃ i ∈ Isa.zfh64.instrs, i.name = n ∧ ∃ p ∈ i.phases, ¬ InRange p) :=
  ⟨short_lacks .zfh32 n hn, short_lacks .zfh64 n hn⟩

/-- C66 fails for `cm.popret` and `cm.popretz` of the 32-bit description, which
does not give `ra` as a source (riscv_zc.isa:338-345); the functions read it as
source 3 (riscv_zc_instructions.cc:107,122). -/
theorem C66_popret_violated (n : String) (hn : n ∈ ["cm_popret", "cm_popretz"]) :
    ∃ i ∈ Isa.rvm23.instrs, i.name = n ∧ ∃ p ∈ i.phases, ¬ InRange p :=
  short_lacks .rvm23 n hn

/-- The 64-bit description of the same instructions supplies it. -/
theorem C66_zcmp64 (i : Instr) (hi : i ∈ slot_riscv_zcmp64) (p : Phase) (hp : p ∈ i.phases) :
    InRange p := by
  have h : (slot_riscv_zcmp64.all fun i => i.phases.all fitsPhase) = true := by decide +kernel
  exact inRange_of_fits (List.all_eq_true.1 (List.all_eq_true.1 h i hi) p hp)

/-! ## The statements are about something -/

/-- Branches use three sources and one destination. -/
example : Phase.uses 0 ⟨[.one .Rs1, .one .Rs2, .one .BImm12], [.one .NextPc],
    some rv32_RiscVIBeq, []⟩ = [.src 0, .src 1, .src 2, .dst 0] := by decide +kernel

/-- `cm.push` of five registers uses all eight sources. -/
example : Phase.uses 5 ⟨[.one .X2, .other "spimm6", .one .Rlist, .regs], [.one .X2],
    some rv64_RiscVZCmpPush, []⟩ =
    [.src 3, .src 4, .src 5, .src 6, .src 7, .src 0, .src 1, .src 2, .dst 0] := by
  decide +kernel

example : Isa.riscv64gvzb.instrs.length = 730 := by decide +kernel

end Verif.Operands
