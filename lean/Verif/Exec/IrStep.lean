import Verif.Exec.IrSpec
import Verif.Exec.PropsK
import Verif.Hart.Interrupt
import Verif.Hart.Trap

/-!
# Interrupts between instructions: lemmas
-/

namespace Verif.Exec

open Decode Decode.Isa Core Operands Spec
open XStatus.Spec (field)

variable {n : Nat}

/-! ## The order of things at the end of a turn -/

theorem drive_eq (h : Hart.Hart n) (p : Line × Bool) :
    ∃ a q, drive h p = { h with mip := h.mip.setBit p.1.bit (if p.2 then 1 else 0), avail := a, code := q } :=
  Hart.setMip_frame h _

theorem driveAll_cons (h : Hart.Hart n) (p : Line × Bool) (ls : List (Line × Bool)) :
    driveAll h (p :: ls) = driveAll (drive h p) ls := rfl

/-- What `check` finds. -/
def found (h : Hart.Hart n) : Option (BitVec 64) :=
  let interrupts := h.mip.as32 &&& h.mieAs32
  if interrupts = 0 then none else
  let mInts := interrupts &&& ~~~(h.mideleg.as 32)
  let interrupts := interrupts &&& h.mideleg.as 32
  let sInts := interrupts &&& ~~~(h.sideleg.as 32)
  let mie := h.mode ≠ Hart.M || h.mieBit
  let sie := (h.mode.toNat < Hart.S.toNat || h.sieBit) && h.mode ≠ Hart.M
  if mie && mInts ≠ 0 then some (Verif.Hart.pick mInts)
  else if sie && sInts ≠ 0 then some (Verif.Hart.pick sInts)
  else none

def report (h : Hart.Hart n) : Option (BitVec 64) → Hart.Hart n
  | none => h
  | some k => { h with code := k, avail := true }

theorem check_found (h : Hart.Hart n) : h.check = report h (found h) := by
  unfold Hart.Hart.check found
  dsimp only
  by_cases h0 : h.mip.as32 &&& h.mieAs32 = 0
  · rw [if_pos h0, if_pos h0]; rfl
  · rw [if_neg h0, if_neg h0]
    generalize (decide (h.mode ≠ Hart.M) || h.mieBit) = b1
    generalize ((decide (h.mode.toNat < Hart.S.toNat) || h.sieBit) && decide (h.mode ≠ Hart.M)) = b2
    generalize (h.uieBit && decide (h.mode = Hart.U)) = b3
    cases b1 <;> cases b2 <;> cases b3 <;> simp <;> repeat' split
    all_goals first | rfl | (exfalso; simp_all; done)

theorem check_pc (h : Hart.Hart n) (p : BitVec n) (b : Bool) :
    ({ h with pc := p, branch := b } : Hart.Hart n).check = { h.check with pc := p, branch := b } := by
  rw [check_found, check_found, show found ({ h with pc := p, branch := b } : Hart.Hart n) = found h from rfl]
  cases found h <;> rfl

theorem setMip_pc (h : Hart.Hart n) (p : BitVec n) (b : Bool) (m : Xip.MIp) :
    ({ h with pc := p, branch := b } : Hart.Hart n).setMip m = { h.setMip m with pc := p, branch := b } := by
  unfold Hart.Hart.setMip
  dsimp only
  by_cases h0 : m.stored ≠ 0
  · rw [if_pos h0, if_pos h0]; exact check_pc { h with mip := m } p b
  · rw [if_neg h0, if_neg h0]

theorem drive_pc (h : Hart.Hart n) (p : BitVec n) (b : Bool) (l : Line × Bool) :
    drive { h with pc := p, branch := b } l = { drive h l with pc := p, branch := b } := setMip_pc h p b _

theorem driveAll_pc (h : Hart.Hart n) (p : BitVec n) (b : Bool) (ls : List (Line × Bool)) :
    driveAll { h with pc := p, branch := b } ls = { driveAll h ls with pc := p, branch := b } := by
  induction ls generalizing h with
  | nil => rfl
  | cons l ls ih => rw [driveAll_cons, drive_pc, ih]; rfl

theorem driveAll_mono (h : Hart.Hart n) (ls : List (Line × Bool)) :
    ∃ m a q, driveAll h ls = { h with mip := m, avail := a, code := q } := by
  induction ls generalizing h with
  | nil => exact ⟨h.mip, h.avail, h.code, rfl⟩
  | cons l ls ih =>
    obtain ⟨a, q, e⟩ := drive_eq h l
    obtain ⟨m, a', q', e'⟩ := ih (drive h l)
    exact ⟨m, a', q', by rw [driveAll_cons, e', e]⟩

theorem driveAll_branch (h : Hart.Hart n) (ls : List (Line × Bool)) : (driveAll h ls).branch = h.branch := by
  obtain ⟨m, a, q, e⟩ := driveAll_mono h ls
  rw [e]

/-- A trap sets the program counter and the flag, whatever they were. -/
theorem trap_sets (h : Hart.Hart n) (i : Bool) (t c e e' : BitVec 64) (p : BitVec n) (b : Bool)
    (he : e.setWidth n = e'.setWidth n) (hd : h.dest i c = Hart.M ∨ h.dest i c = Hart.S) :
    ({ h with pc := p, branch := b } : Hart.Hart n).trap i t c e = h.trap i t c e' ∧
      (h.trap i t c e').branch = true := by
  have hd' : ({ h with pc := p, branch := b } : Hart.Hart n).dest i c = h.dest i c := rfl
  unfold Hart.Hart.trap
  simp only [Bool.false_eq_true, if_false]
  rw [hd', he]
  rcases hd with hd | hd
  · rw [if_pos hd, if_pos hd]
    refine ⟨rfl, ?_⟩
    obtain ⟨a, q, e⟩ := Hart.setMstatus_frame
      ({ h with
          mepc := e'.setWidth n, mtval := t.setWidth n, mcause := Hart.Hart.causeValue n i c
          pc := (Hart.Hart.target h.mtvec c).setWidth n, branch := true, mode := h.dest i c } : Hart.Hart n)
      (h.mstatus.update [(.mpp, h.mode.setWidth 32), (.mpie, (h.mstatus.getter .mie).setWidth 32), (.mie, 0)])
    rw [e]
  · have hm : h.dest i c ≠ Hart.M := by rw [hd]; decide
    rw [if_neg hm, if_pos hd, if_neg hm, if_pos hd]
    refine ⟨rfl, ?_⟩
    obtain ⟨a, q, e⟩ := Hart.setMstatus_frame
      ({ h with
          sepc := e'.setWidth n, stval := t.setWidth n, scause := Hart.Hart.causeValue n i c
          pc := (Hart.Hart.target h.stvec c).setWidth n, branch := true, mode := h.dest i c } : Hart.Hart n)
      (h.mstatus.update [(.spp, h.mode.setWidth 32 &&& 1), (.spie, (h.mstatus.getter .sie).setWidth 32), (.sie, 0)])
    rw [e]

/-- Otherwise it does nothing. -/
theorem trap_nowhere (h : Hart.Hart n) (i : Bool) (t c e : BitVec 64)
    (hd : ¬ (h.dest i c = Hart.M ∨ h.dest i c = Hart.S)) : h.trap i t c e = h := by
  unfold Hart.Hart.trap
  simp only [Bool.false_eq_true, if_false]
  rw [if_neg fun e => hd (.inl e), if_neg fun e => hd (.inr e)]

theorem driveAll_move (h : Hart.Hart n) (ls : List (Line × Bool)) (np : BitVec 64) :
    driveAll (moveOn h np) ls = moveOn (driveAll h ls) np := by
  have hb := driveAll_branch h ls
  have key := fun p b => driveAll_pc h p b ls
  obtain ⟨m, a, q, e⟩ := driveAll_mono h ls
  unfold moveOn
  rw [hb]
  cases hc : h.branch with
  | true =>
    rw [if_pos rfl, if_pos rfl]
    have := key h.pc false
    rw [e] at this ⊢
    exact this
  | false =>
    rw [if_neg (by decide), if_neg (by decide)]
    rw [key, e]

theorem take_move (hn : n ≤ 64) (h : Hart.Hart n) (np : BitVec 64) :
    moveOn (h.takeAvailable (if h.branch then h.pc.setWidth 64 else np)) np =
      { (moveOn h np).takeAvailable ((moveOn h np).pc.setWidth 64) with branch := false } := by
  have ha : (moveOn h np).avail = h.avail := by unfold moveOn; split <;> rfl
  have hc : (moveOn h np).code = h.code := by unfold moveOn; split <;> rfl
  have hb : (moveOn h np).branch = false := by
    unfold moveOn
    split
    · rfl
    · rename_i hb; exact Bool.eq_false_iff.2 hb
  unfold Hart.Hart.takeAvailable
  rw [ha, hc]
  cases h.avail with
  | false =>
    rw [if_neg (by decide), if_neg (by decide)]
    rw [← hb]
  | true =>
    rw [if_pos rfl, if_pos rfl]
    dsimp only
    have hm : ∃ p b, moveOn h np = { h with pc := p, branch := b } := by
      unfold moveOn; split
      · exact ⟨_, _, rfl⟩
      · exact ⟨_, h.branch, rfl⟩
    have he : (if h.branch then h.pc.setWidth 64 else np : BitVec 64).setWidth n =
        ((moveOn h np).pc.setWidth 64).setWidth n := by
      unfold moveOn
      split
      · rfl
      · rw [BitVec.setWidth_setWidth_of_le _ hn, BitVec.setWidth_eq]
    by_cases hd : h.dest true h.code = Hart.M ∨ h.dest true h.code = Hart.S
    · obtain ⟨p, b, e⟩ := hm
      obtain ⟨t1, t2⟩ := trap_sets h true 0 h.code _ _ p b he.symm hd
      generalize hp : (moveOn h np).pc.setWidth 64 = ep at t1 ⊢
      rw [e, t1]
      unfold moveOn
      exact if_pos t2
    · rw [trap_nowhere h true 0 h.code _ hd, trap_nowhere (moveOn h np) true 0 h.code]
      · unfold moveOn
        dsimp only
        split
        · rfl
        · rename_i hx; rw [← Bool.eq_false_iff.2 hx]
      · obtain ⟨p, b, e⟩ := hm
        rw [e]; exact hd

theorem next_move (c : Core n) (pc : BitVec 64) (size : Nat) :
    next c pc size = { c with hart := moveOn c.hart (pc + BitVec.ofNat 64 size) } := by
  unfold next moveOn
  split <;> rfl

/-- Taking the interrupt before or after the program counter moves comes to the same. -/
theorem lastPart_next (hn : n ≤ 64) (ls : List (Line × Bool)) (c : Core n) (pc : BitVec 64) (size : Nat) :
    lastPart ls c pc size = between ls (next c pc size) := by
  rw [next_move]
  unfold lastPart between
  dsimp only
  rw [driveAll_move, take_move hn]

/-! ## What is to be taken -/

theorem choose_of_check (g : Hart.Hart n) (hl : Hart.Spec.legalMode g) (ha : g.avail = false) :
    Exact g.check := by
  rw [Hart.C10_check_spec g hl]
  cases hc : Hart.Spec.choose g with
  | none => exact .inr ⟨ha, hc⟩
  | some k => exact .inl ⟨rfl, k, hc, rfl⟩

/-- Nothing is to be taken in machine mode with MIE clear. -/
theorem choose_M (g : Hart.Hart n) (hm : g.mode = Hart.M) (hv : g.mstatus.value.getLsbD 3 = false) :
    Hart.Spec.choose g = none := by
  unfold Hart.Spec.choose Hart.Spec.best Hart.Spec.levelOn
  rw [hm, hv]
  rfl

/-- Nor in supervisor mode with SIE clear, if no interrupt of machine level is pending. -/
theorem choose_S (g : Hart.Hart n) (hm : g.mode = Hart.S) (hv : g.mstatus.value.getLsbD 1 = false)
    (hp : Hart.Spec.priority.find? (fun i => Hart.Spec.pendEn g i && Hart.Spec.level g i = Hart.M) = none) :
    Hart.Spec.choose g = none := by
  unfold Hart.Spec.choose Hart.Spec.best
  rw [hp]
  unfold Hart.Spec.levelOn
  rw [hm, hv]
  rfl

theorem levelOn_M (h : Hart.Hart n) (hl : Hart.Spec.legalMode h) (hm : h.mode ≠ Hart.M) :
    Hart.Spec.levelOn h Hart.M = true := by
  unfold Hart.Spec.levelOn
  rw [if_pos rfl]
  rcases hl with h' | h' | h'
  · rw [h']; rfl
  · rw [h']; rfl
  · exact absurd h' hm

/-- Outside machine mode, if nothing of machine level is chosen, nothing of it is pending. -/
theorem none_M (h : Hart.Hart n) (hl : Hart.Spec.legalMode h) (hm : h.mode ≠ Hart.M)
    (hb : Hart.Spec.best h Hart.M = none) :
    Hart.Spec.priority.find? (fun i => Hart.Spec.pendEn h i && Hart.Spec.level h i = Hart.M) = none := by
  unfold Hart.Spec.best at hb
  rw [if_pos (levelOn_M h hl hm)] at hb
  exact hb

theorem best_of_choose (h : Hart.Hart n) (hc : Hart.Spec.choose h = none) : Hart.Spec.best h Hart.M = none := by
  unfold Hart.Spec.choose at hc
  cases hb : Hart.Spec.best h Hart.M with
  | none => rfl
  | some k => rw [hb] at hc; cases hc

theorem best_level (h : Hart.Hart n) (l : Hart.Mode) (k : Nat) (hb : Hart.Spec.best h l = some k) :
    Hart.Spec.level h k = l ∧ Hart.Spec.levelOn h l = true := by
  unfold Hart.Spec.best at hb
  split at hb
  · rename_i ho
    have := List.find?_some hb
    simp only [Bool.and_eq_true, decide_eq_true_eq] at this
    exact ⟨this.2, ho⟩
  · cases hb

theorem low_zero (v : BitVec 64) (h : v &&& 0xf = 0) (k : Nat) (hk : k < 4) : v.getLsbD k = false := by
  have := congrArg (fun x => BitVec.getLsbD x k) h
  have t : ∀ k, k < 4 → (0xf : BitVec 64).getLsbD k = true := by decide
  simp only [BitVec.getLsbD_and, t k hk, Bool.and_true] at this
  rw [this]
  exact BitVec.getLsbD_zero

theorem setMstatus_exact (g : Hart.Hart n) (m : XStatus.MStatus) (hl : Hart.Spec.legalMode g)
    (ha : g.avail = false)
    (hz : m.value &&& 0xf = 0 → Hart.Spec.choose ({ g with mstatus := m } : Hart.Hart n) = none) :
    Exact (g.setMstatus m) := by
  unfold Hart.Hart.setMstatus
  dsimp only
  by_cases h0 : m.value &&& 0xf ≠ 0
  · rw [if_pos h0]; exact choose_of_check { g with mstatus := m } hl ha
  · rw [if_neg h0]; exact .inr ⟨ha, hz (Classical.not_not.1 h0)⟩

/-- After an exception the report is exact. -/
theorem trap_exact (h : Hart.Hart n) (hs : Settled h) (tval code epc : BitVec 64) :
    Exact (h.trap false tval code epc) := by
  obtain ⟨hl, _, ha, hc⟩ := hs
  have hd : h.dest false code = Hart.M ∨ (h.dest false code = Hart.S ∧ h.mode ≠ Hart.M) := by
    unfold Hart.Hart.dest
    simp only [Bool.false_eq_true, if_false]
    split
    · rename_i hx; exact .inr ⟨rfl, hx.1⟩
    · exact .inl rfl
  unfold Hart.Hart.trap
  simp only [Bool.false_eq_true, if_false]
  rcases hd with hd | ⟨hd, hm⟩
  · rw [if_pos hd]
    refine setMstatus_exact _ _ (.inr (.inr hd)) ha fun hz => ?_
    exact choose_M _ hd (low_zero _ hz 3 (by decide))
  · rw [if_neg (by rw [hd]; decide), if_pos hd]
    refine setMstatus_exact _ _ (.inr (.inl hd)) ha fun hz => ?_
    exact choose_S _ hd (low_zero _ hz 1 (by decide)) (none_M h hl hm (best_of_choose h hc))

theorem trap_legal (h : Hart.Hart n) (hl : Hart.Spec.legalMode h) (i : Bool) (tval code epc : BitVec 64) :
    Hart.Spec.legalMode (h.trap i tval code epc) := by
  by_cases hd : h.dest i code = Hart.M
  · obtain ⟨a, c, e⟩ := Hart.trap_M h i tval code epc hd
    rw [e]; exact .inr (.inr rfl)
  · by_cases hd' : h.dest i code = Hart.S
    · obtain ⟨a, c, e⟩ := Hart.trap_S h i tval code epc hd'
      rw [e]; exact .inr (.inl rfl)
    · rw [trap_nowhere h i tval code epc (by rintro (e | e) <;> contradiction)]
      exact hl

/-! ## Lines -/

theorem setBit_bits (m : Xip.MIp) (he : m.ext = false) (s : Nat) (v : Bool) (k : Nat) (hk : k < 64) :
    (m.setBit s (if v then 1 else 0)).stored.getLsbD k = if k = s then v else m.stored.getLsbD k := by
  have hg : m.get = m.stored := by
    unfold Xip.MIp.get Xip.MIp.extBits
    rw [he]
    simp
  unfold Xip.MIp.setBit Xip.MIp.set
  rw [hg]
  dsimp only
  by_cases h : k = s
  · subst h
    rw [if_pos rfl]
    cases v <;> bits_at <;> simp [hk]
  · rw [if_neg h]
    have e : ∀ x : BitVec 64, x = 0 ∨ x = 1 → (x <<< s).getLsbD k = false := by
      intro x hx
      rw [BitVec.getLsbD_shiftLeft]
      rcases hx with rfl | rfl
      · simp
      · by_cases hlt : k < s
        · simp [hlt]
        · have : (1 : BitVec 64).getLsbD (k - s) = false := by
            rw [show (1 : BitVec 64) = 1#64 from rfl, BitVec.getLsbD_one]
            simp; omega
          rw [this]; simp
    rw [BitVec.getLsbD_or, BitVec.getLsbD_and, BitVec.getLsbD_not, e 1 (.inr rfl), e]
    · simp [hk]
    · cases v
      · left; rfl
      · right; rfl

theorem drive_pends (h : Hart.Hart n) (he : h.mip.ext = false) (ls : List (Line × Bool)) :
    ∃ m a q, driveAll h ls = { h with mip := m, avail := a, code := q } ∧ Pends h.mip m ls := by
  induction ls generalizing h with
  | nil => exact ⟨h.mip, h.avail, h.code, rfl, rfl, fun k _ => rfl⟩
  | cons l ls ih =>
    obtain ⟨a, q, e⟩ := drive_eq h l
    obtain ⟨m, a', q', e', hp⟩ := ih (drive h l) (by rw [e]; exact he)
    refine ⟨m, a', q', by rw [driveAll_cons, e', e], ?_, fun k hk => ?_⟩
    · rw [hp.1, e]; rfl
    · rw [hp.2 k hk, e]
      dsimp only
      rw [setBit_bits h.mip he _ _ k hk]
      unfold lastLevel
      rw [List.reverse_cons, List.find?_append]
      cases ls.reverse.find? fun p => p.1.bit == k with
      | some p => rfl
      | none =>
        rw [Option.none_or, List.find?_cons]
        by_cases hx : k = l.1.bit
        · subst hx; simp
        · rw [if_neg hx, beq_eq_false_iff_ne.2 (Ne.symm hx)]; rfl

theorem choose_report (h : Hart.Hart n) (a : Bool) (q : BitVec 64) :
    Hart.Spec.choose ({ h with avail := a, code := q } : Hart.Hart n) = Hart.Spec.choose h := rfl

theorem choose_nothing (h : Hart.Hart n) (h0 : h.mip.stored = 0) (he : h.mip.ext = false) :
    Hart.Spec.choose h = none := by
  cases hc : Hart.Spec.choose h with
  | none => rfl
  | some k =>
    have := (Hart.choose_takeable hc).1
    unfold Hart.Spec.takeable Hart.Spec.pendEn at this
    rw [h0, he] at this
    simp at this

theorem drive_exact (h : Hart.Hart n) (p : Line × Bool) (hl : Hart.Spec.legalMode h) (he : h.mip.ext = false)
    (hx : Exact h) (hw : ¬ (Hart.Spec.choose h ≠ none ∧ Hart.Spec.choose (drive h p) = none)) :
    Exact (drive h p) := by
  have hw : Hart.Spec.choose (drive h p) = none → h.avail = false := by
    intro hn
    rcases hx with ⟨_, i, hi, _⟩ | ⟨ha, _⟩
    · exact absurd ⟨by rw [hi]; exact Option.some_ne_none i, hn⟩ hw
    · exact ha
  revert hw
  show (Hart.Spec.choose (h.setMip (h.mip.setBit p.1.bit (if p.2 then 1 else 0))) = none → _) →
    Exact (h.setMip (h.mip.setBit p.1.bit (if p.2 then 1 else 0)))
  have hme : (h.mip.setBit p.1.bit (if p.2 then 1 else 0)).ext = false := he
  generalize h.mip.setBit p.1.bit (if p.2 then 1 else 0) = m at hme
  unfold Hart.Hart.setMip
  dsimp only
  by_cases h0 : m.stored ≠ 0
  · rw [if_pos h0, Hart.C10_check_spec ({ h with mip := m } : Hart.Hart n) hl]
    intro hw
    cases hc : Hart.Spec.choose ({ h with mip := m } : Hart.Hart n) with
    | some k => exact .inl ⟨rfl, k, hc, rfl⟩
    | none =>
      rw [hc] at hw
      exact .inr ⟨hw hc, hc⟩
  · rw [if_neg h0]
    intro hw
    have hn := choose_nothing ({ h with mip := m } : Hart.Hart n) (Classical.not_not.1 h0) hme
    exact .inr ⟨hw hn, hn⟩

theorem driveAll_exact (h : Hart.Hart n) (ls : List (Line × Bool)) (hl : Hart.Spec.legalMode h)
    (he : h.mip.ext = false) (hx : Exact h) (hw : ¬ Withdraws h ls) : Exact (driveAll h ls) := by
  induction ls generalizing h with
  | nil => exact hx
  | cons p ls ih =>
    rw [driveAll_cons]
    have hw' : ¬ (_ ∨ _) := hw
    rw [not_or] at hw'
    obtain ⟨a, q, e⟩ := drive_eq h p
    exact ih _ (by rw [e]; exact hl) (by rw [e]; exact he) (drive_exact h p hl he hx hw'.1) hw'.2

/-! ## Taking it -/

theorem field_bit3 (v : BitVec 64) (h : field v .mie = 0) : v.getLsbD 3 = false := by
  have := congrArg (fun x => BitVec.getLsbD x 0) h
  simpa [field, XStatus.Spec.pos] using this

theorem field_bit1 (v : BitVec 64) (h : field v .sie = 0) : v.getLsbD 1 = false := by
  have := congrArg (fun x => BitVec.getLsbD x 0) h
  simpa [field, XStatus.Spec.pos] using this

theorem entry_eq (h2 : 2 ≤ n) (hn : n ≤ 64) (tvec : BitVec n) (i : Nat) (hi : i < 32) :
    (Hart.Hart.target tvec (BitVec.ofNat 64 i)).setWidth n = Hart.Spec.entry tvec true i := by
  rw [Hart.target_eq h2 hn, Hart.Spec.entry, BitVec.toNat_ofNat, Nat.mod_eq_of_lt (by omega)]
  simp

theorem code_nat (i : Nat) (hi : i < 32) : (BitVec.ofNat 64 i).toNat = i := by
  rw [BitVec.toNat_ofNat, Nat.mod_eq_of_lt (by omega)]

theorem choose_level (h : Hart.Hart n) (i : Nat) (hc : Hart.Spec.choose h = some i) :
    Hart.Spec.level h i = Hart.M ∨ (Hart.Spec.level h i = Hart.S ∧ Hart.Spec.levelOn h Hart.S = true ∧
      Hart.Spec.best h Hart.M = none) := by
  unfold Hart.Spec.choose at hc
  cases hb : Hart.Spec.best h Hart.M with
  | some k =>
    rw [hb] at hc
    cases hc
    exact .inl (best_level h _ _ hb).1
  | none =>
    rw [hb, Option.none_or] at hc
    exact .inr ⟨(best_level h _ _ hc).1, (best_level h _ _ hc).2, rfl⟩

theorem on_S (h : Hart.Hart n) (ho : Hart.Spec.levelOn h Hart.S = true) : h.mode = Hart.U ∨ h.mode = Hart.S := by
  unfold Hart.Spec.levelOn at ho
  rw [if_neg (by decide), if_pos rfl] at ho
  rcases Hart.mode_cases h.mode with e | e | e | e
  · exact .inl e
  · exact .inr e
  all_goals rw [e] at ho; simp [Hart.S] at ho

/-- Taking the interrupt that is to be taken. -/
theorem take_interrupts (h32 : 32 ≤ n) (hn : n ≤ 64) (h : Hart.Hart n) (hi : Hart.HInv h)
    (hb : h.branch = false) (i : Nat) (ha : h.avail = true) (hc : Hart.Spec.choose h = some i)
    (hq : h.code = BitVec.ofNat 64 i) :
    Interrupts h { h.takeAvailable (h.pc.setWidth 64) with branch := false } i ∧
      Hart.Spec.choose ({ h.takeAvailable (h.pc.setWidth 64) with branch := false } : Hart.Hart n) = none ∧
      Hart.Spec.legalMode ({ h.takeAvailable (h.pc.setWidth 64) with branch := false } : Hart.Hart n) ∧
      Hart.HInv ({ h.takeAvailable (h.pc.setWidth 64) with branch := false } : Hart.Hart n) := by
  have hlt := Hart.priority_lt i (Hart.choose_takeable hc).2
  have hcn : (BitVec.ofNat 64 i).toNat < 32 := by rw [code_nat i hlt]; exact hlt
  have hdest : h.dest true (BitVec.ofNat 64 i) = Hart.Spec.level h i := by
    rw [Hart.dest_spec h _ _ hcn, code_nat i hlt]; rfl
  have hpc : (h.pc.setWidth 64).setWidth n = h.pc := by
    rw [BitVec.setWidth_setWidth_of_le _ hn, BitVec.setWidth_eq]
  have hcause : Hart.Hart.causeValue n true (BitVec.ofNat 64 i) = BitVec.ofNat n (i + 2 ^ (n - 1)) := by
    rw [Hart.causeValue_bit _ _ hcn h32, code_nat i hlt]; rfl
  have hinv := Hart.hinv_trap hi true 0 (BitVec.ofNat 64 i) (h.pc.setWidth 64) false
  have hz : (0 : BitVec 64).setWidth n = 0#n := by simp
  unfold Hart.Hart.takeAvailable
  rw [if_pos ha, hq]
  dsimp only
  rcases choose_level h i hc with hlev | ⟨hlev, hon, hbest⟩
  · obtain ⟨a, c, e⟩ := Hart.trap_M h true 0 (BitVec.ofNat 64 i) (h.pc.setWidth 64) (hdest.trans hlev)
    rw [e] at hinv ⊢
    have f1 : field (h.mstatus.update [(.mpp, h.mode.setWidth 32), (.mpie, (h.mstatus.getter .mie).setWidth 32),
        (.mie, 0)]).value .mie = 0 := by
      rw [Hart.update_field hi.1]
      simp only [XStatus.Spec.lastValue, hi.2]
      rfl
    refine ⟨.inl ⟨hlev, _, false, Hart.kNone, ?_, ?_, ?_, f1, ?_⟩, choose_M _ rfl (field_bit3 _ f1), .inr (.inr rfl), hinv⟩
    · rw [hpc, hcause, hz, entry_eq (by omega) hn _ i hlt, hb]
      dsimp only
      rfl
    · rw [Hart.update_field hi.1]
      simp only [XStatus.Spec.lastValue, hi.2]
      simp
      exact BitVec.setWidth_eq h.mode
    · rw [Hart.update_field hi.1]
      simp only [XStatus.Spec.lastValue, hi.2]
      exact Hart.getter_small h.mstatus .mie
    · intro f h1 h2 h3
      rw [Hart.update_field hi.1]
      simp only [XStatus.Spec.lastValue, hi.2]
      rw [if_neg (fun h => h3 h.1.symm), if_neg (fun h => h2 h.1.symm), if_neg (fun h => h1 h.1.symm)]
  · obtain ⟨a, c, e⟩ := Hart.trap_S h true 0 (BitVec.ofNat 64 i) (h.pc.setWidth 64) (hdest.trans hlev)
    rw [e] at hinv ⊢
    have hm := on_S h hon
    have f1 : field (h.mstatus.update [(.spp, h.mode.setWidth 32 &&& 1),
        (.spie, (h.mstatus.getter .sie).setWidth 32), (.sie, 0)]).value .sie = 0 := by
      rw [Hart.update_field hi.1]
      simp only [XStatus.Spec.lastValue, hi.2]
      rfl
    have hl : Hart.Spec.legalMode h := hm.elim .inl fun e => .inr (.inl e)
    have hmm : h.mode ≠ Hart.M := by rcases hm with e | e <;> rw [e] <;> decide
    refine ⟨.inr ⟨hlev, _, false, Hart.kNone, ?_, ?_, ?_, f1, ?_⟩,
      choose_S _ rfl (field_bit1 _ f1) (none_M h hl hmm hbest), .inr (.inl rfl), hinv⟩
    · rw [hpc, hcause, hz, entry_eq (by omega) hn _ i hlt, hb]
      dsimp only
      rfl
    · rw [Hart.update_field hi.1]
      simp only [XStatus.Spec.lastValue, hi.2]
      rcases hm with hm | hm <;> rw [hm] <;> simp <;> rfl
    · rw [Hart.update_field hi.1]
      simp only [XStatus.Spec.lastValue, hi.2]
      exact Hart.getter_small h.mstatus .sie
    · intro f h1 h2 h3
      rw [Hart.update_field hi.1]
      simp only [XStatus.Spec.lastValue, hi.2]
      rw [if_neg (fun h => h3 h.1.symm), if_neg (fun h => h2 h.1.symm), if_neg (fun h => h1 h.1.symm)]

theorem between_none (c : Core n) (ls : List (Line × Bool)) (hb : c.hart.branch = false)
    (ha : (driveAll c.hart ls).avail = false) : between ls c = { c with hart := driveAll c.hart ls } := by
  unfold between Hart.Hart.takeAvailable
  dsimp only
  rw [if_neg (by rw [ha]; decide)]
  obtain ⟨m, a, q, e⟩ := driveAll_mono c.hart ls
  rw [e, ← hb]

/-- What happens between two instructions is what the manual says, if what the simulator has found by then
is what is to be taken. -/
theorem between_spec (h32 : 32 ≤ n) (hn : n ≤ 64) (c : Core n) (ls : List (Line × Bool))
    (hi : Hart.HInv c.hart) (hb : c.hart.branch = false) (he : c.hart.mip.ext = false)
    (hl : Hart.Spec.legalMode c.hart) (hx : Exact (driveAll c.hart ls)) :
    Between ls c (between ls c) ∧ Settled (between ls c).hart ∧ Hart.HInv (between ls c).hart ∧
      (between ls c).hart.branch = false ∧ (between ls c).regs = c.regs := by
  obtain ⟨m, a, q, e, hp⟩ := drive_pends c.hart he ls
  have hce : Hart.Spec.choose (driveAll c.hart ls) = Hart.Spec.choose { c.hart with mip := m } := by rw [e]; rfl
  have hext : m.ext = false := hp.1.trans he
  rcases hx with ⟨ha, i, hc, hq⟩ | ⟨ha, hc⟩
  · have hd : driveAll c.hart ls = driveAll c.hart ls := rfl
    obtain ⟨t1, t2, t3, t4⟩ := take_interrupts h32 hn (driveAll c.hart ls) (by rw [e]; exact hi)
      (by rw [e]; exact hb) i ha hc hq
    refine ⟨⟨m, _, hp, rfl, fun j hj => ?_, fun hj => ?_⟩, ⟨t3, ?_, ?_, t2⟩, t4, rfl, rfl⟩
    · rw [← hce, hc] at hj
      cases hj
      rw [e] at t1
      rcases t1 with ⟨l, m', a', q', e', r⟩ | ⟨l, m', a', q', e', r⟩
      · left
        refine ⟨l, m', a', q', ?_, r⟩
        dsimp only
        rw [e]
        exact e'
      · right
        refine ⟨l, m', a', q', ?_, r⟩
        dsimp only
        rw [e]
        exact e'
    · rw [← hce, hc] at hj; cases hj
    · rcases t1 with ⟨l, m', a', q', e', r⟩ | ⟨l, m', a', q', e', r⟩
      all_goals
        show ({ (driveAll c.hart ls).takeAvailable _ with branch := false } : Hart.Hart n).mip.ext = false
        rw [e', e]
        exact hext
    · show ((driveAll c.hart ls).takeAvailable _).avail = false
      unfold Hart.Hart.takeAvailable
      rw [if_pos ha]
  · rw [between_none c ls hb ha]
    refine ⟨⟨m, _, hp, rfl, fun j hj => ?_, fun _ => ⟨a, q, e⟩⟩, ⟨?_, ?_, ha, hc⟩, ?_, ?_, rfl⟩
    · rw [← hce, hc] at hj; cases hj
    all_goals
      dsimp only
      rw [e]
    · exact hl
    · exact hext
    · exact hi
    · exact hb

end Verif.Exec
