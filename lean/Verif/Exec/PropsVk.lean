import Verif.Exec.PropsVm
import Verif.Exec.VkSpec

/-!
# C143: a vector program from its words in memory to memory
-/

namespace Verif.Exec

open Decode Decode.Isa Core Operands Spec
open VecLoop (VCore VRegs)
open VecLoop.Spec (IsElem Active Covers)

/-- `k` turns. -/
def RunVm (s : Sim) : Nat → VaSt s.xlen.bits → VaSt s.xlen.bits → Prop
  | 0, st, st' => st' = st
  | k + 1, st, st' => ∃ st₁, TurnVm s st st₁ ∧ RunVm s k st₁ st'

/-- There is a run of `k` turns, and every such run ends in a state with `Q`. -/
def AfterVm (s : Sim) (k : Nat) (st : VaSt s.xlen.bits) (Q : VaSt s.xlen.bits → Prop) : Prop :=
  (∃ st', RunVm s k st st') ∧ ∀ st', RunVm s k st st' → Q st'

theorem after_step {s : Sim} {k : Nat} {st : VaSt s.xlen.bits} {P Q : VaSt s.xlen.bits → Prop} (h : GoesVm s st P)
    (hk : ∀ st₁, P st₁ → AfterVm s k st₁ Q) : AfterVm s (k + 1) st Q := by
  obtain ⟨⟨st₁, h1⟩, h2⟩ := turnsVm_of h
  obtain ⟨⟨st', h3⟩, -⟩ := hk st₁ (h2 st₁ h1)
  refine ⟨⟨st', st₁, h1, h3⟩, ?_⟩
  rintro st'' ⟨st₂, h4, h5⟩
  exact (hk st₂ (h2 st₂ h4)).2 st'' h5

variable {n : Nat}

/-- Only the program counter moved, by `4 * j`. -/
def Moved (c c' : Core n) (j : Nat) : Prop :=
  c' = { c with hart := { c.hart with pc := c.hart.pc + BitVec.ofNat n (4 * j) } }

theorem moved_next {c c₁ c₂ : Core n} {j : Nat} (h1 : Moved c c₁ j) (h2 : OnlyNext c₁ c₂ 4) : Moved c c₂ (j + 1) := by
  obtain ⟨p, hp, ⟨hh, hm, hl, hc⟩, hr⟩ := h2
  unfold Moved at h1 ⊢
  rcases c₂ with ⟨h, r, m, l, b⟩
  dsimp only at hh hm hl hc hr
  have hpe : p = c₁.hart.pc + BitVec.ofNat n 4 := by
    apply BitVec.eq_of_toNat_eq
    unfold IsNext at hp
    rw [hp, BitVec.toNat_add, BitVec.toNat_ofNat, Nat.add_mod_mod]
  subst h1
  subst hh hm hl hc hr hpe
  dsimp only
  congr 2
  rw [BitVec.add_assoc, ← BitVec.ofNat_add, Nat.mul_add]

theorem moved_word {c c₁ : Core n} {j w : Nat} {ws : List Nat} (hc : CodeAt c ws) (h1 : Moved c c₁ j) (h : ws[j]? = some w) :
    wordAt c₁ = w := by
  unfold Moved at h1
  subst h1
  exact hc j w h

theorem moved_X {c c₁ : Core n} {j : Nat} (h1 : Moved c c₁ j) (r : BitVec 5) : X c₁ r = X c r := by
  unfold Moved at h1
  subst h1
  rfl

/-- The access of the unit-stride instructions of the program. -/
theorem sum_access {c : Core n} {v : VCore} {w : Nat} {k : VmKind} (hk : k.bytes = 4 ∧ k.strided = false) (hv : Words32 v)
    {vd : Nat} (hvd : vdOf w = vd) (h8 : vd % 8 = 0) : PermittedM c v w k := by
  refine ⟨⟨hv.ok, by have := hv.sew; omega, ?_, ?_, 8, by omega, by rw [hvd]; exact h8, ?_⟩, ?_⟩
  · intro m hm
    rw [List.mem_singleton, hk.1] at hm
    subst hm
    have := hv.sew
    have := hv.lmul
    omega
  · rw [hk.1]; exact ⟨by decide, hv.len⟩
  · rw [hk.1]; exact hv.room
  · intro i _ h2
    have := hv.small
    unfold strideOf
    rw [hk.2, hk.1, if_neg (by decide)]
    omega

theorem sum_raw {c : Core n} {w : Nat} {k : VmKind} (hk : k.bytes = 4 ∧ k.strided = false) {r : BitVec 5} (hr : rs1 w = r)
    (i : Nat) : rawAddr c w k i = (((X c r).toNat + i * 4 : Nat) : Int) := by
  unfold rawAddr strideOf
  rw [hk.2, hk.1, hr, if_neg (by decide)]
  omega

theorem sum_addr {c : Core n} {w : Nat} {k : VmKind} (hk : k.bytes = 4 ∧ k.strided = false) {r : BitVec 5} (hr : rs1 w = r)
    {num : Nat} (ha : ArrayIn c r num) (i : Nat) (hi : i < num) : elemAddr c w k i = item c r i := by
  unfold elemAddr item
  rw [sum_raw hk hr, Int.emod_eq_of_lt (by omega)]
  · rw [BitVec.ofInt_natCast]
  · have := (ha i hi).1
    exact_mod_cast this

theorem sum_limit (c : Core n) {r : BitVec 5} {num : Nat} (ha : ArrayIn c r num) (i : Nat) (hi : i < num) :
    (item c r i).toNat ≤ c.limit.toNat := by
  unfold item
  rw [BitVec.toNat_ofNat]
  exact Nat.le_trans (Nat.mod_le _ _) (ha i hi).2

/-- A group of up to eight registers is not touched by what is written to another. -/
theorem group_stays {vlenb vl vd vs : Nat} {body : Nat → Prop} {R R' : VRegs} (hv : 0 < vlenb) (hroom : vl * 4 ≤ 8 * vlenb)
    (hd : vs + 8 ≤ vd) (h : VecLoop.Spec.Undisturbed vlenb 4 vd body R R') (i : Nat) (hi : i < vl) (x : BitVec (8 * 4))
    (he : IsElem vlenb 4 R vs i x) : IsElem vlenb 4 R' vs i x := by
  intro k hk
  rw [h _ _ (Nat.mod_lt _ hv) ?_]
  · exact he k hk
  · rintro ⟨j, -, k', -, hr, -⟩
    have : (i * 4 + k) / vlenb < 8 := Nat.div_lt_of_lt_mul (by omega)
    have := Nat.zero_le ((j * 4 + k') / vlenb)
    omega

theorem moved_array {c c₁ : Core n} {j : Nat} (h1 : Moved c c₁ j) {r : BitVec 5} {num : Nat} (h : ArrayIn c r num) :
    ArrayIn c₁ r num := by
  unfold Moved at h1
  subst h1
  exact h

theorem moved_item {c c₁ : Core n} {j : Nat} (h1 : Moved c c₁ j) (r : BitVec 5) : item c₁ r = item c r := by
  unfold Moved at h1
  subst h1
  rfl

theorem moved_same {c c₁ : Core n} {j : Nat} (h1 : Moved c c₁ j) : c₁.mem = c.mem ∧ c₁.limit = c.limit ∧
    c₁.hart.branch = c.hart.branch := by
  unfold Moved at h1
  subst h1
  exact ⟨rfl, rfl, rfl⟩

theorem words_of {v v' : VCore} (h : v'.vs = v.vs) (hv : Words32 v) : Words32 v' := by
  constructor <;> rw [h]
  · exact hv.ok
  · exact hv.sew
  · exact hv.lmul
  · exact hv.len
  · exact hv.room
  · exact hv.small
  · exact hv.start

theorem noWrap_of {c : Core n} {w : Nat} {k : VmKind} {r : BitVec 5} {v : VCore} (hk : k.bytes = 4 ∧ k.strided = false)
    (hr : rs1 w = r) (ha : ArrayIn c r v.vs.vl) : NoWrap c v w k := by
  right
  intro i _ hi
  rw [sum_raw hk hr]
  have := (ha i hi).1
  exact ⟨by omega, by exact_mod_cast this⟩

theorem start_same (v : VecState.VState) (h : v.vstart = 0) : { v with vstart := 0 } = v := by rw [← h]

/-- A unit-stride load of words without a mask. -/
theorem sum_load (s : Sim) (hs : s.vec = true) (st : VaSt s.xlen.bits) (w vd : Nat) (r : BitVec 5)
    (hw : wordAt st.core = w) (hl : Listed s.xlen .vle32 w) (hvd : vdOf w = vd) (hr : rs1 w = r) (hvm : vmOf w = true)
    (h8 : vd % 8 = 0) (hb : st.core.hart.branch = false) (hv : Words32 st.vec) (ha : ArrayIn st.core r st.vec.vs.vl) :
    GoesVm s st fun st' => st'.vec.vs = st.vec.vs ∧ OnlyNext st.core st'.core 4 ∧
      (∃ a : Nat → BitVec 32, ∀ i, i < st.vec.vs.vl → Mem.Spec.Holds st.core.mem (item st.core r i) 4 (a i).toNat ∧
        IsElem st.vec.vs.vlenb 4 st'.vec.regs vd i (a i)) ∧
      ∃ body, VecLoop.Spec.Undisturbed st.vec.vs.vlenb 4 vd body st.vec.regs st'.vec.regs := by
  subst hw hvd hr
  obtain ⟨h1, h2⟩ := C142_load_partial s hs st .vle32 ⟨false, 4, false⟩ rfl rfl (fun h => by cases h) hl hb
    (sum_access ⟨rfl, rfl⟩ hv rfl h8) (noWrap_of ⟨rfl, rfl⟩ rfl ha) (by rw [hv.start]; exact Nat.zero_mod _)
    (by rw [hv.start]; exact Nat.zero_le _)
    (fun i _ hi => by
      rw [sum_addr ⟨rfl, rfl⟩ rfl ha i hi]
      exact sum_limit _ ha i hi)
  refine ⟨h1, fun i size junk hf => ?_⟩
  obtain ⟨st', ht, hvs, ⟨hld, hrest⟩, hn⟩ := h2 i size junk hf
  refine ⟨st', ht, hvs.trans (start_same _ hv.start), hn, ?_, _, hrest⟩
  have h : ∀ i, ∃ x : BitVec 32, i < st.vec.vs.vl →
      Mem.Spec.Holds st.core.mem (item st.core (rs1 (wordAt st.core)) i) 4 x.toNat ∧
        IsElem st.vec.vs.vlenb 4 st'.vec.regs (vdOf (wordAt st.core)) i x := by
    intro i
    by_cases hi : i < st.vec.vs.vl
    · obtain ⟨v, hh, he⟩ := hld i (by rw [hv.start]; exact Nat.zero_le _) hi (Or.inl hvm)
      rw [sum_addr ⟨rfl, rfl⟩ rfl ha i hi] at hh
      exact ⟨v, fun _ => ⟨hh, he⟩⟩
    · exact ⟨0#32, fun h => absurd h hi⟩
  exact ⟨fun i => Classical.choose (h i), fun i => Classical.choose_spec (h i)⟩

/-- An element of the sum. -/
theorem sum_elem {vlenb vs2 vs1 vd i : Nat} {R R' : VRegs} (m : Nat) (hm : m = 4)
    (h : ∀ r : Int, (∃ a b : BitVec (8 * m), IsElem vlenb m R vs2 i a ∧ IsElem vlenb m R vs1 i b ∧ r = a.toInt + b.toInt) →
      IsElem vlenb m R' vd i (BitVec.ofInt (8 * m) r)) (a b : BitVec 32) (ha : IsElem vlenb 4 R vs2 i a)
    (hb : IsElem vlenb 4 R vs1 i b) : IsElem vlenb 4 R' vd i (a + b) := by
  subst hm
  have := h _ ⟨a, b, ha, hb, rfl⟩
  rw [BitVec.ofInt_add, BitVec.ofInt_toInt, BitVec.ofInt_toInt] at this
  exact this

/-- **C143.** In every simulated core with vectors: with 32-bit elements selected, the four words of the program in memory at
the program counter and the three arrays below the limit, every run of four turns (and there is one) ends with
`x10[i] = x11[i] + x12[i]` (modulo 2^32) for the `vl` elements, in terms of the memory at the start; no other byte of memory
and no integer register changes, and the program counter is behind the program.  (If the arrays overlap, the sums are still
those of the items at the start.) -/
theorem C143_sum (s : Sim) (hs : s.vec = true) (st : VaSt s.xlen.bits) (hcode : CodeAt st.core sumWords)
    (hb : st.core.hart.branch = false) (hv : Words32 st.vec) (h10 : ArrayIn st.core 10#5 st.vec.vs.vl)
    (h11 : ArrayIn st.core 11#5 st.vec.vs.vl) (h12 : ArrayIn st.core 12#5 st.vec.vs.vl) :
    AfterVm s 4 st fun st' =>
      (∃ a b : Nat → BitVec 32,
        (∀ i, i < st.vec.vs.vl → Mem.Spec.Holds st.core.mem (item st.core 11#5 i) 4 (a i).toNat ∧
          Mem.Spec.Holds st.core.mem (item st.core 12#5 i) 4 (b i).toNat) ∧
        VecMem.Spec.Stored 4 0 st.vec.vs.vl (item st.core 10#5) (fun _ => True) (fun i => (a i + b i).toNat)
          st.core.mem st'.core.mem) ∧
      st'.vec.vs = st.vec.vs ∧
      st'.core = { st.core with hart := { st.core.hart with pc := st.core.hart.pc + 16#s.xlen.bits }, mem := st'.core.mem } := by
  have hm0 : Moved st.core st.core 0 := by
    unfold Moved
    rw [Nat.mul_zero, BitVec.add_zero]
  have w0 := moved_word hcode hm0 (j := 0) rfl
  -- vle32.v v8, (x11)
  refine after_step (sum_load s hs st _ 8 11#5 w0 ⟨_, rfl, by unfold Enc.assigns; decide +kernel⟩ (by decide +kernel)
    (by decide +kernel) (by decide +kernel) rfl hb hv h11) ?_
  rintro st₁ ⟨hvs1, hn1, ⟨a, ha⟩, -⟩
  have hm1 := moved_next hm0 hn1
  have w1 := moved_word hcode hm1 (j := 1) rfl
  have hv1 := words_of hvs1 hv
  -- vle32.v v16, (x12)
  refine after_step (sum_load s hs st₁ _ 16 12#5 w1 ⟨_, rfl, by unfold Enc.assigns; decide +kernel⟩ (by decide +kernel)
    (by decide +kernel) (by decide +kernel) rfl ((moved_same hm1).2.2.trans hb) hv1
    (by rw [hvs1]; exact moved_array hm1 h12)) ?_
  rintro st₂ ⟨hvs2, hn2, ⟨b, hb2⟩, body, hrest2⟩
  have hm2 := moved_next hm1 hn2
  have w2 := moved_word hcode hm2 (j := 2) rfl
  have hv2 := words_of hvs2 hv1
  rw [hvs1] at hb2 hrest2
  rw [(moved_same hm1).1, moved_item hm1] at hb2
  have e2 : st₂.vec.vs = st.vec.vs := hvs2.trans hvs1
  have hroom := hv.room
  have hlen := hv.len.2
  have hdiv : (st.vec.vs.vl * 4 + st.vec.vs.vlenb - 1) / st.vec.vs.vlenb ≤ 8 := by
    apply Nat.le_of_lt_succ
    exact Nat.div_lt_of_lt_mul (by rw [Nat.mul_comm st.vec.vs.vlenb]; omega)
  -- vadd.vv v24, v8, v16
  have hvd : vdOf (wordAt st₂.core) = 24 := by rw [w2]; decide +kernel
  have hx2 : vs2Of (wordAt st₂.core) = 8 := by rw [w2]; decide +kernel
  have hx1 : vs1Of (wordAt st₂.core) = 16 := by rw [w2]; decide +kernel
  have hvm : vmOf (wordAt st₂.core) = true := by rw [w2]; decide +kernel
  have hl2 : Listed s.xlen .vadd_vv (wordAt st₂.core) := by
    rw [w2]; exact ⟨_, rfl, by unfold Enc.assigns; decide +kernel⟩
  have hperm : Permitted st₂.core st₂.vec (wordAt st₂.core) .vv := by
    refine ⟨by right; right; left; exact hv2.sew, ⟨hv2.ok, by rw [hv2.sew]; decide, ?_, ?_, 8, by omega, by rw [hvd], ?_⟩, ?_, ?_⟩
    · intro m hm
      have : m = 4 := by rw [hv2.sew] at hm; simpa using hm
      subst this
      have := hv2.sew
      have := hv2.lmul
      omega
    · rw [hv2.sew]; exact ⟨by decide, hv2.len⟩
    · rw [hv2.sew]; exact hv2.room
    · rw [hv2.sew, hvd, hx2, e2]
      exact ⟨by decide, hv.len.1, Or.inl (Or.inl (by omega))⟩
    · show VecLoop.Spec.SourceOk _ _ _ _ _ _
      rw [hv2.sew, hvd, hx1, e2]
      exact ⟨by decide, hv.len.1, Or.inl (Or.inl (by omega))⟩
  have hva := C140_same_partial s hs st₂ .vadd_vv .add .vv rfl hl2 ((moved_same hm2).2.2.trans hb) hperm trivial
    (fun h => by cases h) (fun h => by cases h)
  refine after_step (C142_others (C141_others hva (Or.inl ⟨_, _, hs, rfl, hl2⟩)) (Or.inr (Or.inl ⟨_, _, hs, rfl, hl2⟩))) ?_
  rintro st₃ ⟨hdid, hn3⟩
  have hm3 := moved_next hm2 hn3
  have w3 := moved_word hcode hm3 (j := 3) rfl
  have hvs3 : st₃.vec.vs = st.vec.vs := (hdid.state.trans (start_same _ hv2.start)).trans e2
  have hv3 := words_of hvs3 hv
  have hsum : ∀ i, i < st.vec.vs.vl → IsElem st.vec.vs.vlenb 4 st₃.vec.regs 24 i (a i + b i) := by
    intro i hi
    have h2 := group_stays hlen hroom (vs := 8) (by decide) hrest2 i hi (a i) (ha i hi).2
    have h1 := (hb2 i hi).2
    have := sum_elem (vlenb := st₂.vec.vs.vlenb) (vs2 := vs2Of (wordAt st₂.core)) (vs1 := vs1Of (wordAt st₂.core))
      (vd := vdOf (wordAt st₂.core)) (i := i) (R := st₂.vec.regs) (R' := st₃.vec.regs) st₂.vec.vs.sew hv2.sew
      (fun r hr => hdid.body i r (by rw [hv2.start]; exact Nat.zero_le _) (by rw [e2]; exact hi) (Or.inl hvm) hr)
      (a i) (b i) (by rw [e2, hx2]; exact h2) (by rw [e2, hx1]; exact h1)
    rw [e2, hvd] at this
    exact this
  -- vse32.v v24, (x10)
  have hvd3 : vdOf (wordAt st₃.core) = 24 := by rw [w3]; decide +kernel
  have hr3 : rs1 (wordAt st₃.core) = 10#5 := by rw [w3]; decide +kernel
  have hvm3 : vmOf (wordAt st₃.core) = true := by rw [w3]; decide +kernel
  have ha3 : ArrayIn st₃.core 10#5 st₃.vec.vs.vl := by rw [hvs3]; exact moved_array hm3 h10
  refine after_step (C142_store_partial s hs st₃ .vse32 ⟨true, 4, false⟩ rfl rfl (fun h => by cases h)
    (by rw [w3]; exact ⟨_, rfl, by unfold Enc.assigns; decide +kernel⟩) ((moved_same hm3).2.2.trans hb)
    (sum_access ⟨rfl, rfl⟩ hv3 hvd3 rfl) (noWrap_of ⟨rfl, rfl⟩ hr3 ha3) hv3.start
    (fun i hi => by
      rw [sum_addr ⟨rfl, rfl⟩ hr3 ha3 i hi]
      exact sum_limit _ ha3 i hi)
    (fun i => a i + b i) (fun i hi => by
      rw [hvs3] at hi
      rw [hvs3, hvd3]
      exact hsum i hi)) ?_
  rintro st₄ ⟨hv4, hst, p, hp, hc4⟩
  refine ⟨⟨st₄, rfl⟩, ?_⟩
  rintro st' rfl
  refine ⟨⟨a, b, fun i hi => ⟨(ha i hi).1, (hb2 i hi).1⟩, ?_⟩, (congrArg VCore.vs hv4).trans hvs3, ?_⟩
  · rw [hvs3, (moved_same hm3).1] at hst
    intro x
    rcases hst x with ⟨i, k, h1, h2, -, h4, h5, h6, h7⟩ | ⟨h1, h2⟩
    · left
      refine ⟨i, k, h1, h2, trivial, h4, ?_, h6, fun j j1 j2 _ => ?_⟩
      · rw [h5, sum_addr ⟨rfl, rfl⟩ hr3 ha3 i (by rw [hvs3]; exact h2), moved_item hm3]
      · have := h7 j j1 j2 (Or.inl hvm3)
        rw [sum_addr ⟨rfl, rfl⟩ hr3 ha3 j (by rw [hvs3]; exact j2), moved_item hm3] at this
        exact this
    · right
      refine ⟨fun i i1 i2 _ => ?_, h2⟩
      have := h1 i i1 i2 (Or.inl hvm3)
      rw [sum_addr ⟨rfl, rfl⟩ hr3 ha3 i (by rw [hvs3]; exact i2), moved_item hm3] at this
      exact this
  · have hpe : p = st.core.hart.pc + 16#s.xlen.bits := by
      have hpc : st₃.core.hart.pc = st.core.hart.pc + BitVec.ofNat s.xlen.bits 12 := by
        unfold Moved at hm3
        rw [hm3]
      apply BitVec.eq_of_toNat_eq
      unfold IsNext at hp
      rw [hp, hpc]
      simp only [BitVec.toNat_add, BitVec.toNat_ofNat, Nat.add_mod_mod, Nat.mod_add_mod, Nat.add_assoc]
    rw [hc4, hpe]
    unfold Moved at hm3
    rw [hm3]

/-- The program at 0x1000, arrays at 0x3000 (the result), 0x2000 and 0x2100, registers of 16 bytes, 19 elements in groups of
eight registers. -/
def summing : VaSt Sim.rv64gv.xlen.bits :=
  { core := { (adding 0#32 4 19).core with
      regs := fun r => if r = 10#5 then 0x3000#64 else if r = 11#5 then 0x2000#64 else if r = 12#5 then 0x2100#64 else 0#64
      mem := fun a =>
        if 0x1000 ≤ a.toNat ∧ a.toNat < 0x1010 then
          BitVec.ofNat 8 (sumWords.getD ((a.toNat - 0x1000) / 4) 0 >>> (8 * (a.toNat % 4)))
        else BitVec.ofNat 8 (3 * a.toNat + 1) }
    vec := { (adding 0#32 4 19).vec with vs := { (adding 0#32 4 19).vec.vs with vstart := 0, lmul8 := 64 } } }

example := C143_sum .rv64gv rfl summing
  (fun j w h => by
    match j, h with
    | 0, h => cases h; decide +kernel
    | 1, h => cases h; decide +kernel
    | 2, h => cases h; decide +kernel
    | 3, h => cases h; decide +kernel)
  rfl ⟨rfl, rfl, (show 1 ≤ 64 ∧ 64 ≤ 64 by decide), (show 4 ∣ 16 ∧ 0 < 16 by decide), (show 19 * 4 ≤ 8 * 16 by decide),
    (show 19 < 2 ^ 32 by decide), rfl⟩
  (fun i hi => by
    have hi : i < 19 := hi
    show 0x3000 + i * 4 < 2 ^ 64 ∧ 0x3000 + i * 4 ≤ 0xffff
    omega)
  (fun i hi => by
    have hi : i < 19 := hi
    show 0x2000 + i * 4 < 2 ^ 64 ∧ 0x2000 + i * 4 ≤ 0xffff
    omega)
  (fun i hi => by
    have hi : i < 19 := hi
    show 0x2100 + i * 4 < 2 ^ 64 ∧ 0x2100 + i * 4 ≤ 0xffff
    omega)

end Verif.Exec
