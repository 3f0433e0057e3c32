import Verif.Exec.VsStep
import Verif.Exec.Props

/-!
# C139: vsetvli, vsetivli and vsetvl, from the word in memory
-/

namespace Verif.Exec

open Decode Decode.Isa Core Operands Spec
open VecState (VState)
open VecState.Spec (maxOf)

/-- Some entry matches, and the turn with any that does is carried out and has the effect `Q`. -/
def GoesVs (s : Sim) (st : VsSt s.xlen.bits) (Q : VsSt s.xlen.bits → Prop) : Prop :=
  (∃ i size, Finds s (wordAt st.core) i size) ∧
  ∀ i size, Finds s (wordAt st.core) i size → ∃ st', turnVs s i (wordAt st.core) size st = some st' ∧ Q st'

theorem turnsVs_of {s : Sim} {st : VsSt s.xlen.bits} {Q : VsSt s.xlen.bits → Prop} (h : GoesVs s st Q) :
    (∃ st', TurnVs s st st') ∧ ∀ st', TurnVs s st st' → Q st' := by
  obtain ⟨⟨i, size, hf⟩, h⟩ := h
  obtain ⟨st', hs, _⟩ := h i size hf
  refine ⟨⟨st', i, size, hf, hs⟩, ?_⟩
  rintro st₂ ⟨i, size, hf, hs⟩
  obtain ⟨st', hs', hq⟩ := h i size hf
  rw [hs] at hs'
  obtain rfl := Option.some.inj hs'
  exact hq

/-- The effect of a right description that does not keep vl. -/
theorem vs_carries (s : Sim) (hs : s.vec = true) (w : Nat) (st : VsSt s.xlen.bits) (i : VInsn) (p : VsAct)
    (hsrc : p.ops.srcs = vsSrcs i) (hdst : p.ops.dsts[0]? = some (.one .Rd)) (hz : p.rdZero = false)
    (h1 : i = .vsetivli → p.rs1Zero = false) (h2 : i ≠ .vsetivli → (p.rs1Zero = true ↔ rs1 w = 0#5))
    (hb : st.core.hart.branch = false) (hv : st.vec.vlenb < 2 ^ 25)
    (ht : LegalType (newType st.core w i)) (ha : ∀ a, avl st.core w i = some a → a < 2 ^ 32) :
    ∃ st₁, vsCarry s w st p = some st₁ ∧ Configured st.vec st₁.vec (newType st.core w i) (avl st.core w i) ∧
      st₁.vec.vstart = st.vec.vstart ∧
      st₁.core = { st.core with regs := Regs.write st.core.regs (rd w) (BitVec.ofNat _ st₁.vec.vl) } ∧
      st₁.vec.vl < 2 ^ 32 ∧
      ∀ a, avl st.core w i = some a → st₁.vec.vl = min a (maxOf st.vec.vlenb (newType st.core w i)) := by
  obtain ⟨x, t, hx, htt, htn, hxi, hxr⟩ := vs_operands s hs w st.core i p.ops hsrc ht.1
  have hmod : t.toNat % 256 = newType st.core w i := by rw [htn]; exact Nat.mod_eq_of_lt ht.1
  have hlt : ¬ p.rs1Zero = true → x.toNat < 2 ^ 32 ∧ avl st.core w i = some x.toNat := by
    intro h
    by_cases hi : i = .vsetivli
    · subst hi
      refine ⟨?_, ?_⟩
      · rw [hxi rfl]; have := unsigned5 w; omega
      · rw [hxi rfl]; rfl
    · have hr : rs1 w ≠ 0#5 := fun e => h ((h2 hi).2 e)
      have hav : avl st.core w i = some x.toNat := by
        rw [hxr hi]
        cases i with
        | vsetivli => exact absurd rfl hi
        | vsetvli => exact if_neg hr
        | vsetvl => exact if_neg hr
      exact ⟨ha _ hav, hav⟩
  have hnone : p.rs1Zero = true → avl st.core w i = none := by
    intro h
    cases i with
    | vsetivli => rw [h1 rfl] at h; cases h
    | vsetvli => exact if_pos ((h2 (by decide)).1 h)
    | vsetvl => exact if_pos ((h2 (by decide)).1 h)
  have hm := VecState.maxOf_le st.vec.vlenb (newType st.core w i) ht.2
  -- the function reads no length if `rs1_zero` is set
  have key : ∃ v', VecState.vsetvl st.vec p.rdZero p.rs1Zero x t = some (v', some (BitVec.ofNat _ v'.vl)) ∧
      Configured st.vec v' (newType st.core w i) (avl st.core w i) ∧ v'.vstart = st.vec.vstart ∧ v'.vl < 2 ^ 32 ∧
      ∀ a, avl st.core w i = some a → v'.vl = min a (maxOf st.vec.vlenb (newType st.core w i)) := by
    have hw32 := bits_32 s.xlen
    have same : p.rs1Zero = true → VecState.vsetvl st.vec p.rdZero p.rs1Zero x t =
        VecState.vsetvl st.vec p.rdZero p.rs1Zero 0 t := by
      intro h
      unfold VecState.vsetvl
      rw [h, hz]
      simp only [Bool.not_true, Bool.false_and, Bool.and_false, Bool.false_eq_true, if_false]
    have go : ∀ y : BitVec s.xlen.bits, y.toNat < 2 ^ 32 →
        LengthFor (avl st.core w i) (maxOf st.vec.vlenb (newType st.core w i))
          (if p.rs1Zero then maxOf st.vec.vlenb (t.toNat % 256) else min y.toNat (maxOf st.vec.vlenb (t.toNat % 256))) →
        ∃ v', VecState.vsetvl st.vec p.rdZero p.rs1Zero y t = some (v', some (BitVec.ofNat _ v'.vl)) ∧
        Configured st.vec v' (newType st.core w i) (avl st.core w i) ∧ v'.vstart = st.vec.vstart ∧
        v'.vl < 2 ^ 32 ∧ v'.vl = (if p.rs1Zero then maxOf st.vec.vlenb (t.toNat % 256)
          else min y.toNat (maxOf st.vec.vlenb (t.toNat % 256))) := by
      intro y hy hlen
      obtain ⟨v', r, e, hvl, hr, -, e1, e2, e3, e4, e5, e6, e7, e8, e9, e10⟩ :=
        VecState.C43_vsetvl_partial hw32 st.vec hv p.rdZero p.rs1Zero y t (by rw [hmod]; exact ht.2)
          (by rw [hz]; rintro ⟨h, _⟩; cases h) hy
      obtain ⟨z, rfl, hzv⟩ := hr hz
      have hbound : v'.vl < 2 ^ 32 := by
        rw [hvl, hmod]
        split <;> omega
      refine ⟨v', ?_, ⟨?_, ?_, ?_, ?_, ?_, ?_, e6, e8, e9, e10⟩, e7, hbound, hvl⟩
      · rw [e]
        congr 3
        apply BitVec.eq_of_toNat_eq
        rw [hzv, BitVec.toNat_ofNat, Nat.mod_eq_of_lt]
        exact Nat.lt_of_lt_of_le hbound (Nat.pow_le_pow_right (by decide) hw32)
      · rw [e1, hmod]
      · rw [e2, hmod]
      · rw [hvl]; exact hlen
      · rw [e3, hmod]
      · rw [e4, hmod]
      · rw [e5, hmod]
    by_cases h : p.rs1Zero = true
    · rw [same h]
      obtain ⟨v', g1, g2, g3, g4, -⟩ := go 0
        (by rw [show (0 : BitVec s.xlen.bits).toNat = 0 from BitVec.toNat_zero]; decide)
        (by rw [if_pos h, hnone h, hmod]; rfl)
      exact ⟨v', g1, g2, g3, g4, fun a e => by rw [hnone h] at e; cases e⟩
    · obtain ⟨hl, hav⟩ := hlt h
      obtain ⟨v', g1, g2, g3, g4, g5⟩ := go x hl (by rw [if_neg h, hav, hmod]; exact length_min _ _)
      refine ⟨v', g1, g2, g3, g4, fun a e => ?_⟩
      rw [hav] at e
      obtain rfl := Option.some.inj e
      rw [g5, if_neg h, hmod]
  obtain ⟨v', e, hc, hst, hl, hex⟩ := key
  obtain ⟨d, hd, hp⟩ := puts_rd s w p.ops 0 hdst
  refine ⟨⟨{ st.core with regs := Regs.write st.core.regs (rd w) (BitVec.ofNat _ v'.vl) }, v'⟩, ?_, hc, hst, rfl, hl, hex⟩
  unfold vsCarry
  rw [hx, Option.bind_some, htt, Option.bind_some, e, Option.bind_some]
  dsimp only
  rw [hd, Option.bind_some, hp, Option.map_some]

/-- **C139.** In every simulated core with vectors, a word that the manual gives to vsetvli, vsetivli or vsetvl is
carried out, whichever matching entry of the decoder is used: with a legal vtype the vector unit is configured as
the manual says (with the largest of the lengths it allows), rd receives the new vl, the program counter moves on and
nothing else changes.  Missing: rd and
rs1 both x0 and reserved types (C43), application vector lengths of 2^32 and above, and vstart (see
`C139_vstart_violated`). -/
theorem C139_vset_partial (s : Sim) (hs : s.vec = true) (st : VsSt s.xlen.bits) (i : VInsn)
    (h : IsVs s.xlen (wordAt st.core) i) (hb : st.core.hart.branch = false) (hv : st.vec.vlenb < 2 ^ 25)
    (ht : LegalType (newType st.core (wordAt st.core) i)) (hk : ¬ KeepsVl (wordAt st.core) i)
    (ha : ∀ a, avl st.core (wordAt st.core) i = some a → a < 2 ^ 32) :
    GoesVs s st fun st' =>
      Configured st.vec st'.vec (newType st.core (wordAt st.core) i) (avl st.core (wordAt st.core) i) ∧
      Computes st.core st'.core { rd := rd (wordAt st.core), size := 4 } (fun v => v.toNat = st'.vec.vl) ∧
      (∀ a, avl st.core (wordAt st.core) i = some a →
        st'.vec.vl = min a (maxOf st.vec.vlenb (newType st.core (wordAt st.core) i))) ∧
      st'.vec.vstart = st.vec.vstart := by
  obtain ⟨o, hko, hl⟩ := h
  obtain ⟨⟨e, he, hem⟩, hall⟩ := decodesVs s hs o i hko _ (readLE_lt st.core.mem _ 4) hl
  have hlow := listed_lowVs s.xlen o i hko _ hl
  refine ⟨⟨e, 4, by unfold Finds; rw [if_pos hlow]; exact ⟨he, hem, rfl⟩⟩, fun e size hf => ?_⟩
  unfold Finds at hf
  rw [if_pos hlow] at hf
  obtain ⟨he, hem, rfl⟩ := hf
  have hok := List.all_eq_true.1 (entriesVs_ok s hs) e he
  unfold okEntryVs at hok
  rw [hall e he hem, hko] at hok
  simp only [Bool.and_eq_true, beq_iff_eq] at hok
  obtain ⟨hfm, hok⟩ := hok
  cases hp : vsActs s e.op with
  | none => rw [hp] at hok; cases hok
  | some p =>
    rw [hp, Option.any_some] at hok
    unfold okVs at hok
    simp only [Bool.and_eq_true, beq_iff_eq] at hok
    obtain ⟨⟨hsrc, hdst⟩, hok⟩ := hok
    have hz : p.rdZero = false ∧ (i = .vsetivli → p.rs1Zero = false) ∧
        (i ≠ .vsetivli → (p.rs1Zero = true ↔ rs1 (wordAt st.core) = 0#5)) := by
      by_cases hi : i = .vsetivli
      · rw [if_pos hi] at hok
        simp only [Bool.and_eq_true, Bool.not_eq_true'] at hok
        exact ⟨hok.1, fun _ => hok.2, fun h => absurd hi h⟩
      · rw [if_neg hi] at hok
        simp only [Bool.or_eq_true, Bool.and_eq_true, Bool.not_eq_true'] at hok
        rcases hok with (⟨⟨a, b⟩, c⟩ | ⟨⟨⟨a, b⟩, c⟩, d⟩) | ⟨⟨⟨a, b⟩, c⟩, d⟩
        · exact ⟨b, fun h => absurd h hi, fun _ => by rw [a]; exact ⟨fun h => (by cases h), fun h => absurd h (ask_rs1nV hem hfm c)⟩⟩
        · exact ⟨b, fun h => absurd h hi, fun _ => ⟨fun _ => ask_rs1V hem hfm c, fun _ => a⟩⟩
        · exfalso
          apply hk
          have := And.intro (ask_rdV hem hfm d) (ask_rs1V hem hfm c)
          cases i with
          | vsetivli => exact absurd rfl hi
          | vsetvli => exact this
          | vsetvl => exact this
    obtain ⟨st₁, h1, h2, h3, h4, h5, h6⟩ := vs_carries s hs (wordAt st.core) st i p hsrc hdst hz.1 hz.2.1 hz.2.2 hb hv ht ha
    refine ⟨{ st₁ with core := next st₁.core (st.core.hart.pc.setWidth 64) 4 }, ?_, h2, ?_, h6, h3⟩
    · unfold turnVs; rw [hp]; dsimp only; rw [h1, Option.map_some]
    have hb1 : st₁.core.hart.branch = false := by rw [h4]; exact hb
    refine ⟨BitVec.ofNat _ st₁.vec.vl, _, ?_, next_is (bits_le _) st.core 4, ?_, ?_⟩
    · show (BitVec.ofNat _ st₁.vec.vl).toNat = _
      rw [BitVec.toNat_ofNat, Nat.mod_eq_of_lt]
      exact Nat.lt_of_lt_of_le h5 (Nat.pow_le_pow_right (by decide) (bits_32 s.xlen))
    · dsimp only
      rw [next_stay _ _ _ hb1, h4]
      exact ⟨rfl, rfl, rfl, rfl⟩
    · apply setsReg_of
      dsimp only
      rw [next_stay _ _ _ hb1, h4]

/-- **C139 violated**: the manual has these instructions set vstart to 0, as all vector instructions do; none of
them does. -/
theorem C139_vstart_violated (s : Sim) (hs : s.vec = true) (st st' : VsSt s.xlen.bits) (i : VInsn)
    (h : IsVs s.xlen (wordAt st.core) i) (hb : st.core.hart.branch = false) (hv : st.vec.vlenb < 2 ^ 25)
    (ht : LegalType (newType st.core (wordAt st.core) i)) (hk : ¬ KeepsVl (wordAt st.core) i)
    (ha : ∀ a, avl st.core (wordAt st.core) i = some a → a < 2 ^ 32)
    (h0 : st.vec.vstart ≠ 0) (hturn : TurnVs s st st') : st'.vec.vstart ≠ 0 := by
  rw [((turnsVs_of (C139_vset_partial s hs st i h hb hv ht hk ha)).2 st' hturn).2.2.2]
  exact h0

/-! ## The other instructions -/

/-- The instructions of C119 do what they do without vectors, and leave the vector unit alone. -/
theorem C139_base (s : Sim) (st : VsSt s.xlen.bits) (o : Op) (k : Kind) (hk : kind s.xlen o = some k)
    (hl : Listed s.xlen o (wordAt st.core)) (hn : ¬ Ntl o (wordAt st.core))
    (hb : st.core.hart.branch = false) (hpc : st.core.hart.pc.toNat % 2 = 0)
    (ho : NoOverflow st.core k (args s.xlen k (wordAt st.core))) :
    GoesVs s st fun st' => Does s.xlen k (args s.xlen k (wordAt st.core)) st.core st'.core ∧ st'.vec = st.vec := by
  obtain ⟨⟨_, i, size, hf, _⟩, h⟩ := C119_step s st.core o k hk hl hn hb hpc ho
  refine ⟨⟨i, size, hf⟩, fun i size hf => ?_⟩
  obtain ⟨c', hc, hd⟩ := h i size hf
  refine ⟨{ st with core := c' }, ?_, hd, rfl⟩
  have ha : acts s i.op ≠ none := by
    intro e
    unfold turn at hc
    dsimp only at hc
    rw [e] at hc
    cases hc
  unfold turnVs
  rw [not_vs s i.op ha]
  dsimp only
  rw [hc, Option.map_some]

/-! ## A loop over an array of any length -/

/-- `Q` holds after `k` turns, whichever matching entries of the decoder are used. -/
def Always (s : Sim) (Q : VsSt s.xlen.bits → Prop) : Nat → VsSt s.xlen.bits → Prop
  | 0, st => Q st
  | k + 1, st => GoesVs s st (Always s Q k)

theorem goes_mono {s : Sim} {st : VsSt s.xlen.bits} {P Q : VsSt s.xlen.bits → Prop} (h : GoesVs s st P)
    (hpq : ∀ st', P st' → Q st') : GoesVs s st Q := by
  refine ⟨h.1, fun i size hf => ?_⟩
  obtain ⟨st', h1, h2⟩ := h.2 i size hf
  exact ⟨st', h1, hpq _ h2⟩

theorem always_add {s : Sim} {Q P : VsSt s.xlen.bits → Prop} (k l : Nat) (st : VsSt s.xlen.bits)
    (h : Always s P k st) (hpq : ∀ st', P st' → Always s Q l st') : Always s Q (l + k) st := by
  induction k generalizing st with
  | zero => exact hpq st h
  | succ k ih => exact goes_mono h fun st' h' => ih st' h'

/-- The word at address `a` of the memory of `c`. -/
def wordIn {n : Nat} (c : Core n) (a : BitVec n) : Nat := readLE c.mem (a.setWidth 64) 4

/-- The loop of the manual's examples ("strip mining") at `p`, `d` and `r` being two registers:
`vsetvli d, r, t; sub r, r, d; bne r, x0, p`. -/
structure Strip (s : Sim) (c : Core s.xlen.bits) (p : BitVec s.xlen.bits) (d r : BitVec 5) (t : Nat) : Prop where
  regs : d ≠ 0#5 ∧ r ≠ 0#5 ∧ d ≠ r
  place : p.toNat % 4 = 0 ∧ p.toNat + 12 < 2 ^ s.xlen.bits
  set : IsVs s.xlen (wordIn c p) .vsetvli ∧ rd (wordIn c p) = d ∧ rs1 (wordIn c p) = r ∧
    newType c (wordIn c p) .vsetvli = t
  sub : Listed s.xlen .sub (wordIn c (p + 4)) ∧ rd (wordIn c (p + 4)) = r ∧ rs1 (wordIn c (p + 4)) = r ∧
    rs2 (wordIn c (p + 4)) = d
  bne : Listed s.xlen .bne (wordIn c (p + 8)) ∧ rs1 (wordIn c (p + 8)) = r ∧ rs2 (wordIn c (p + 8)) = 0#5 ∧
    immB (wordIn c (p + 8)) = -8

/-- The loop is about to be run with `m` elements to go. -/
structure At (s : Sim) (st : VsSt s.xlen.bits) (p : BitVec s.xlen.bits) (d r : BitVec 5) (t b m : Nat) : Prop where
  strip : Strip s st.core p d r t
  pc : st.core.hart.pc = p
  quiet : st.core.hart.branch = false
  vlenb : st.vec.vlenb = b
  left : (X st.core r).toNat = m

theorem toNat_add_lt {x : Xlen} (p : BitVec x.bits) (k : Nat) (h : p.toNat + k < 2 ^ x.bits) :
    (p + BitVec.ofNat _ k).toNat = p.toNat + k := by
  simp only [BitVec.toNat_add, BitVec.toNat_ofNat]
  rw [Nat.mod_eq_of_lt (by omega : k < 2 ^ x.bits), Nat.mod_eq_of_lt h]

theorem next_add {x : Xlen} {c : Core x.bits} {v p : BitVec x.bits} {k : Nat} (h : IsNext c 4 v) (hc : c.hart.pc = p + BitVec.ofNat _ k)
    (hk : p.toNat + k + 4 < 2 ^ x.bits) : v = p + BitVec.ofNat _ (k + 4) := by
  apply BitVec.eq_of_toNat_eq
  unfold IsNext at h
  rw [h, hc, toNat_add_lt p k (by omega), toNat_add_lt p (k + 4) (by omega), Nat.mod_eq_of_lt hk, Nat.add_assoc]

theorem strip_mem {s : Sim} {c c' : Core s.xlen.bits} {p : BitVec s.xlen.bits} {d r : BitVec 5} {t : Nat}
    (h : Strip s c p d r t) (hm : c'.mem = c.mem) : Strip s c' p d r t := by
  have e : ∀ a, wordIn c' a = wordIn c a := fun a => by unfold wordIn; rw [hm]
  obtain ⟨h1, h2, h3, h4, h5⟩ := h
  refine ⟨h1, h2, ?_, ?_, ?_⟩
  · rw [e]; exact h3
  · rw [e]; exact h4
  · rw [e]; exact h5

/-- The first instruction of the loop. -/
theorem strip_set (s : Sim) (hs : s.vec = true) (st : VsSt s.xlen.bits) (p : BitVec s.xlen.bits) (d r : BitVec 5)
    (t b m : Nat) (h : At s st p d r t b m) (hb : b < 2 ^ 25) (ht : LegalType t) (hm : m < 2 ^ 32) :
    GoesVs s st fun st' => st'.vec.vl = min m (maxOf b t) ∧ st'.vec.vmax = maxOf b t ∧ st'.vec.vlenb = b ∧
      st'.core.hart.branch = false ∧ st'.core.hart.pc = p + BitVec.ofNat _ 4 ∧ st'.core.mem = st.core.mem ∧
      (X st'.core d).toNat = min m (maxOf b t) ∧ (X st'.core r).toNat = m := by
  obtain ⟨hp, hpc, hq, hvb, hl⟩ := h
  have hw : wordAt st.core = wordIn st.core p := by unfold wordAt wordIn; rw [hpc]
  have hav : avl st.core (wordAt st.core) .vsetvli = some m := by
    show (if rs1 (wordAt st.core) = 0#5 then none else some (X st.core (rs1 (wordAt st.core))).toNat) = _
    rw [hw, hp.set.2.2.1, if_neg hp.regs.2.1, hl]
  have htt : newType st.core (wordAt st.core) .vsetvli = t := by rw [hw]; exact hp.set.2.2.2
  refine goes_mono (C139_vset_partial s hs st .vsetvli (by rw [hw]; exact hp.set.1) hq (by rw [hvb]; exact hb)
    (by rw [htt]; exact ht) (fun h => hp.regs.1 (by rw [← hp.set.2.1, ← hw]; exact h.1))
    (fun a e => by rw [hav] at e; cases e; exact hm)) ?_
  rintro st' ⟨hc, ⟨v, q, hv, hn, hg, hr⟩, hvl, -⟩
  have hvl := hvl m hav
  rw [htt, hvb] at hvl
  have hd : rd (wordAt st.core) = d := by rw [hw]; exact hp.set.2.1
  refine ⟨hvl, by rw [hc.max, htt, hvb], by rw [hc.rest.1, hvb], by rw [hg.1]; exact hq, ?_, hg.2.1, ?_, ?_⟩
  · rw [hg.1]
    show q = _
    have := hp.place.2
    refine next_add (k := 0) hn (by rw [hpc]; simp) (by omega)
  · rw [hr.1 d, if_neg hp.regs.1]
    show (if d = rd (wordAt st.core) then v else _).toNat = _
    rw [hd, if_pos rfl, hv, hvl]
  · rw [hr.1 r, if_neg hp.regs.2.1]
    show (if r = rd (wordAt st.core) then v else _).toNat = _
    rw [hd, if_neg (fun e => hp.regs.2.2 e.symm), hl]

/-- The rest of the loop. -/
theorem strip_rest (s : Sim) (st : VsSt s.xlen.bits) (p : BitVec s.xlen.bits) (d r : BitVec 5)
    (t m l : Nat) (hp : Strip s st.core p d r t) (hq : st.core.hart.branch = false)
    (hpc : st.core.hart.pc = p + BitVec.ofNat _ 4) (hd : (X st.core d).toNat = l) (hr : (X st.core r).toNat = m)
    (hlm : l ≤ m) :
    Always s (fun st' => st'.core.mem = st.core.mem ∧ st'.vec = st.vec ∧ st'.core.hart.branch = false ∧
      (X st'.core r).toNat = m - l ∧ st'.core.hart.pc = if m - l = 0 then p + BitVec.ofNat _ 12 else p) 2 st := by
  have hpl := hp.place
  have hlt : m < 2 ^ s.xlen.bits := by rw [← hr]; exact (X st.core r).isLt
  have e4 : p + BitVec.ofNat _ 4 = p + 4 := rfl
  have e8 : p + BitVec.ofNat _ 8 = p + 8 := rfl
  have hw : wordAt st.core = wordIn st.core (p + 4) := by unfold wordAt wordIn; rw [hpc, e4]
  have heven : st.core.hart.pc.toNat % 2 = 0 := by
    rw [hpc, toNat_add_lt p 4 (by omega)]; omega
  have h1 := C139_base s st .sub (.rr .sub) rfl (by rw [hw]; exact hp.sub.1) (fun h => by cases h.1) hq heven
    (fun a b h => by cases h)
  refine goes_mono h1 ?_
  rintro st1 ⟨⟨v, q, hv, hn, hg, hs1⟩, hvec⟩
  have hrd : rd (wordAt st.core) = r := by rw [hw]; exact hp.sub.2.1
  have hrs1 : rs1 (wordAt st.core) = r := by rw [hw]; exact hp.sub.2.2.1
  have hrs2 : rs2 (wordAt st.core) = d := by rw [hw]; exact hp.sub.2.2.2
  have hv' : v.toNat = m - l := by
    have hv2 : (v.toNat : Int) = (((X st.core (rs1 (wordAt st.core))).toNat : Int) -
      (X st.core (rs2 (wordAt st.core))).toNat) % 2 ^ s.xlen.bits := hv
    rw [hrs1, hrs2, hr, hd] at hv2
    rw [Int.emod_eq_of_lt (by omega) (by have : ((2 ^ s.xlen.bits : Nat) : Int) = 2 ^ s.xlen.bits := by simp
                                         omega)] at hv2
    omega
  have hr1 : (X st1.core r).toNat = m - l := by
    rw [hs1.1 r, if_neg hp.regs.2.1]
    show (if r = rd (wordAt st.core) then v else _).toNat = _
    rw [hrd, if_pos rfl, hv']
  have hpc1 : st1.core.hart.pc = p + BitVec.ofNat _ 8 := by
    rw [hg.1]
    show q = _
    exact next_add (k := 4) hn hpc (by omega)
  have hq1 : st1.core.hart.branch = false := by rw [hg.1]; exact hq
  have hp1 := strip_mem hp hg.2.1
  have hw1 : wordAt st1.core = wordIn st1.core (p + 8) := by unfold wordAt wordIn; rw [hpc1, e8]
  have h8 := toNat_add_lt p 8 (by omega)
  have h2 := C139_base s st1 .bne (.br .ne) rfl (by rw [hw1]; exact hp1.bne.1) (fun h => by cases h.1) hq1
    (by rw [hpc1, h8]; omega) (fun a b h => by cases h)
  refine goes_mono h2 ?_
  rintro st2 ⟨⟨hno, hyes⟩, hvec2⟩
  have hb1 : rs1 (wordAt st1.core) = r := by rw [hw1]; exact hp1.bne.2.1
  have hb2 : rs2 (wordAt st1.core) = 0#5 := by rw [hw1]; exact hp1.bne.2.2.1
  have hbi : immB (wordAt st1.core) = -8 := by rw [hw1]; exact hp1.bne.2.2.2
  have htk : Control.Spec.taken .ne (X st1.core (args s.xlen (.br .ne) (wordAt st1.core)).rs1)
      (X st1.core (args s.xlen (.br .ne) (wordAt st1.core)).rs2) ↔ m - l ≠ 0 := by
    show (X st1.core (rs1 (wordAt st1.core))).toNat ≠ (X st1.core (rs2 (wordAt st1.core))).toNat ↔ _
    rw [hb1, hb2, hr1, show X st1.core 0#5 = 0#_ from if_pos rfl]
    rw [show (0#s.xlen.bits : BitVec s.xlen.bits).toNat = 0 from BitVec.toNat_zero]
  have fin : ∀ q, GoesTo st1.core st2.core q → st2.core.regs = st1.core.regs →
      (q = if m - l = 0 then p + BitVec.ofNat _ 12 else p) →
      st2.core.mem = st.core.mem ∧ st2.vec = st.vec ∧ st2.core.hart.branch = false ∧
      (X st2.core r).toNat = m - l ∧ st2.core.hart.pc = if m - l = 0 then p + BitVec.ofNat _ 12 else p := by
    intro q g hregs hqq
    refine ⟨by rw [g.2.1, hg.2.1], by rw [hvec2, hvec], by rw [g.1]; exact hq1, ?_, by rw [g.1]; exact hqq⟩
    unfold X at hr1 ⊢
    rw [hregs]
    exact hr1
  by_cases hz : m - l = 0
  · obtain ⟨q, hn2, hg2, hregs⟩ := hno (fun h => htk.1 h hz)
    refine fin q hg2 hregs ?_
    rw [if_pos hz]
    exact next_add (k := 8) hn2 hpc1 (by omega)
  · obtain ⟨q, hq2, hgood, -⟩ := hyes (htk.2 hz)
    have hqp : q = p := by
      apply BitVec.eq_of_toNat_eq
      have hq3 : (q.toNat : Int) = (st1.core.hart.pc.toNat + immB (wordAt st1.core)) % 2 ^ s.xlen.bits := hq2
      rw [hbi, hpc1, h8] at hq3
      have hpp := p.isLt
      rw [Int.emod_eq_of_lt (by omega) (by have : ((2 ^ s.xlen.bits : Nat) : Int) = 2 ^ s.xlen.bits := by simp
                                           omega)] at hq3
      omega
    obtain ⟨hg2, hregs⟩ := hgood (by rw [hqp]; rintro ⟨_, h⟩; exact h hpl.1)
    refine fin q hg2 hregs ?_
    rw [if_neg hz]
    exact hqp

/-- Once around the loop. -/
theorem strip_once (s : Sim) (hs : s.vec = true) (st : VsSt s.xlen.bits) (p : BitVec s.xlen.bits) (d r : BitVec 5)
    (t b m : Nat) (h : At s st p d r t b m) (hb : b < 2 ^ 25) (ht : LegalType t) (hm : m < 2 ^ 32) :
    Always s (fun st' => (maxOf b t < m → At s st' p d r t b (m - maxOf b t)) ∧
      (m ≤ maxOf b t → st'.core.hart.pc = p + BitVec.ofNat _ 12 ∧ (X st'.core r).toNat = 0)) 3 st := by
  refine goes_mono (strip_set s hs st p d r t b m h hb ht hm) ?_
  rintro st1 ⟨_, _, hvb, hq, hpc, hmem, hd, hr⟩
  have hp1 := strip_mem (c' := st1.core) h.strip hmem
  have h2 := strip_rest s st1 p d r t m _ hp1 hq hpc hd hr (Nat.min_le_left _ _)
  refine always_add (Q := _) 2 0 st1 h2 ?_
  rintro st2 ⟨hmem2, hvec, hq2, hr2, hpc2⟩
  refine ⟨fun hlt => ⟨strip_mem hp1 hmem2, ?_, hq2, by rw [hvec]; exact hvb, by rw [hr2]; omega⟩, fun hle => ⟨?_, by rw [hr2]; omega⟩⟩
  · rw [hpc2, if_neg (by omega)]
  · rw [hpc2, if_pos (by omega)]

theorem strip_iter (s : Sim) (hs : s.vec = true) (st : VsSt s.xlen.bits) (p : BitVec s.xlen.bits) (d r : BitVec 5)
    (t b N : Nat) (h : At s st p d r t b N) (hb : b < 2 ^ 25) (ht : LegalType t) (hN : N < 2 ^ 32) (j : Nat)
    (hj : j * maxOf b t < N) : Always s (fun st' => At s st' p d r t b (N - j * maxOf b t)) (3 * j) st := by
  induction j with
  | zero => simpa [Always] using h
  | succ j ih =>
    rw [Nat.succ_mul] at hj
    rw [show 3 * (j + 1) = 0 + (3 + 3 * j) by omega]
    refine always_add (3 + 3 * j) 0 st (always_add (3 * j) 3 st (ih (by omega)) fun st' h' =>
      strip_once s hs st' p d r t b _ h' hb ht (by omega)) fun st' h' => ?_
    have := h'.1 (by omega)
    rw [Nat.sub_sub, ← Nat.succ_mul] at this
    exact this

/-- **C139**, a program: the loop that the manual gives for arrays of any length, on `N` elements with `M` to a
register group.  The `j`-th time around vl is what is left, at most `M`, so that every element is in exactly one of
the stretches from `j * M` on; and after ⌈N / M⌉ times the loop is left with nothing to go. -/
theorem C139_strip_partial (s : Sim) (hs : s.vec = true) (st : VsSt s.xlen.bits) (p : BitVec s.xlen.bits)
    (d r : BitVec 5) (t b N M : Nat) (h : At s st p d r t b N) (hb : b < 2 ^ 25) (ht : LegalType t)
    (hN : N < 2 ^ 32) (h0 : 0 < N) (hM : M = maxOf b t) (hpos : 0 < M) :
    (∀ j, j * M < N → Always s (fun st' => st'.vec.vl = min (N - j * M) M ∧ st'.vec.vmax = M) (3 * j + 1) st) ∧
    Always s (fun st' => st'.core.hart.pc = p + BitVec.ofNat _ 12 ∧ (X st'.core r).toNat = 0)
      (3 * ((N + M - 1) / M)) st := by
  subst hM
  refine ⟨fun j hj => ?_, ?_⟩
  · rw [Nat.add_comm (3 * j) 1]
    refine always_add (3 * j) 1 st (strip_iter s hs st p d r t b N h hb ht hN j hj) fun st' h' => ?_
    exact goes_mono (strip_set s hs st' p d r t b _ h' hb ht (by omega)) fun st2 h2 => ⟨h2.1, h2.2.1⟩
  · generalize hM : maxOf b t = M at *
    have e : (N + M - 1) / M = (N - 1) / M + 1 := by
      rw [show N + M - 1 = (N - 1) + M by omega, Nat.add_div_right _ hpos]
    have h1 : (N - 1) / M * M ≤ N - 1 := Nat.div_mul_le_self _ _
    have h2 : N - 1 < ((N - 1) / M + 1) * M := by
      rw [Nat.mul_comm]; exact Nat.lt_mul_div_succ _ hpos
    rw [Nat.succ_mul] at h2
    generalize (N - 1) / M = j at *
    rw [e, show 3 * (j + 1) = 0 + (3 + 3 * j) by omega]
    have hi := strip_iter s hs st p d r t b N h hb ht hN j (by rw [hM]; omega)
    refine always_add (3 + 3 * j) 0 st (always_add (3 * j) 3 st hi fun st' h' =>
      strip_once s hs st' p d r t b _ h' hb ht (by omega)) fun st' h' => ?_
    rw [hM] at h'
    exact h'.2 (by omega)

/-! ## Examples -/

/-- The turn with the first entry that matches. -/
def firstVs (s : Sim) (st : VsSt s.xlen.bits) : Option (VsSt s.xlen.bits) :=
  if wordAt st.core &&& 3 = 3 then
    (s.decoder.insts.find? fun i => i.matches (wordAt st.core)).bind fun i => turnVs s i (wordAt st.core) 4 st
  else (s.decoder16.insts.find? fun i => i.matches (wordAt st.core &&& 0xffff)).bind fun i =>
    turnVs s i (wordAt st.core) 2 st

theorem firstVs_turn {s : Sim} {st st' : VsSt s.xlen.bits} (h : firstVs s st = some st') : TurnVs s st st' := by
  unfold firstVs at h
  split at h
  · rename_i hl
    obtain ⟨i, hi, ht⟩ := Option.bind_eq_some_iff.1 h
    refine ⟨i, 4, ?_, ht⟩
    unfold Finds
    rw [if_pos hl]
    exact ⟨List.mem_of_find?_eq_some hi, by simpa using List.find?_some hi, rfl⟩
  · rename_i hl
    obtain ⟨i, hi, ht⟩ := Option.bind_eq_some_iff.1 h
    refine ⟨i, 2, ?_, ht⟩
    unfold Finds
    rw [if_neg hl]
    exact ⟨List.mem_of_find?_eq_some hi, by simpa using List.find?_some hi, rfl⟩

/-- `vsetvli x5, x10, e32, m1; sub x10, x10, x5; bne x10, x0, -8` at 0x1000 and `vsetvli x0, x0, e32, m1` at
0x100c, with ten elements to go and registers of 16 bytes. -/
def looping : VsSt Sim.rv64gv.xlen.bits :=
  { core :=
      { hart := { Hart.Hart.init 64 true with pc := 0x1000#64 }
        regs := fun r => if r = 10#5 then 10#64 else 0#64
        mem := fun a =>
            if a = 0x1000#64 then 0xd7#8 else if a = 0x1001#64 then 0x72#8 else if a = 0x1002#64 then 0x05#8
            else if a = 0x1003#64 then 0x01#8 else if a = 0x1004#64 then 0x33#8 else if a = 0x1005#64 then 0x05#8
            else if a = 0x1006#64 then 0x55#8 else if a = 0x1007#64 then 0x40#8 else if a = 0x1008#64 then 0xe3#8
            else if a = 0x1009#64 then 0x1c#8 else if a = 0x100a#64 then 0x05#8 else if a = 0x100b#64 then 0xfe#8
            else if a = 0x100c#64 then 0x57#8 else if a = 0x100d#64 then 0x70#8 else if a = 0x100e#64 then 0x00#8
            else if a = 0x100f#64 then 0x01#8 else 0#8
        limit := 0xffff#64
        hasC := true }
    vec := { VecState.VState.init 16 0#32 with vstart := 3 } }

/-- The loop is about to be run. -/
theorem looping_at : At .rv64gv looping 0x1000#64 5#5 10#5 0x10 16 10 := by
  refine ⟨⟨by decide, by decide +kernel, ⟨⟨.vsetvli_xn, rfl, _, rfl, ?_⟩, ?_⟩, ⟨⟨_, rfl, ?_⟩, ?_⟩,
    ⟨⟨_, rfl, ?_⟩, ?_⟩⟩, rfl, ?_, rfl, ?_⟩
  · unfold Enc.assigns; decide +kernel
  · decide +kernel
  · unfold Enc.assigns; decide +kernel
  · decide +kernel
  · unfold Enc.assigns; decide +kernel
  · decide +kernel
  · decide +kernel
  · decide +kernel

theorem legal_e32 : LegalType 0x10 := ⟨by decide, by unfold VecState.Spec.Legal; decide⟩

/-- Three times around it, with four, four and two elements. -/
example : Always .rv64gv (fun st' => st'.vec.vl = 4) 1 looping ∧ Always .rv64gv (fun st' => st'.vec.vl = 4) 4 looping ∧
    Always .rv64gv (fun st' => st'.vec.vl = 2) 7 looping ∧
    Always .rv64gv (fun st' => st'.core.hart.pc = 0x100c#64) 9 looping := by
  obtain ⟨h, h'⟩ := C139_strip_partial .rv64gv rfl looping 0x1000#64 5#5 10#5 0x10 16 10 4 looping_at (by decide)
    legal_e32 (by decide) (by decide) (by decide) (by decide)
  exact ⟨always_add 1 0 _ (h 0 (by decide)) fun _ h => h.1, always_add 4 0 _ (h 1 (by decide)) fun _ h => h.1,
    always_add 7 0 _ (h 2 (by decide)) fun _ h => h.1, always_add 9 0 _ h' fun _ h => h.1⟩

/-- The same, computed. -/
def turnsVs (s : Sim) : Nat → VsSt s.xlen.bits → Option (VsSt s.xlen.bits)
  | 0, st => some st
  | k + 1, st => (firstVs s st).bind (turnsVs s k)

example : (turnsVs .rv64gv 9 looping).map (fun st => (st.core.hart.pc.toNat, st.vec.vl, st.vec.vmax,
    (st.core.regs 5#5).toNat, (st.core.regs 10#5).toNat, st.vec.vstart)) = some (0x100c, 2, 4, 2, 0, 3) := by
  decide +kernel

/-- **C139 violated**: `vsetvli x0, x0, e32, m1` is to keep vl (and only change the type), but after the loop it turns
vl = 2 into 4. -/
theorem C139_keep_violated : ∃ st st' : VsSt Sim.rv64gv.xlen.bits, IsVs .rv64 (wordAt st.core) .vsetvli ∧
    KeepsVl (wordAt st.core) .vsetvli ∧ LegalType (newType st.core (wordAt st.core) .vsetvli) ∧
    st.vec.vtype.toNat = newType st.core (wordAt st.core) .vsetvli ∧
    st.vec.vmax = maxOf st.vec.vlenb (newType st.core (wordAt st.core) .vsetvli) ∧
    TurnVs .rv64gv st st' ∧ st.vec.vl = 2 ∧ st'.vec.vl = 4 := by
  have h : ((turnsVs .rv64gv 9 looping).bind fun st => (firstVs .rv64gv st).map fun st' =>
      (decide (wordAt st.core = 0x1007057) && decide (st.vec.vtype.toNat = 0x10) && decide (st.vec.vmax = 4) &&
        decide (st.vec.vlenb = 16) && decide (st.vec.vl = 2) && decide (st'.vec.vl = 4))) = some true := by
    decide +kernel
  obtain ⟨st, h1, h⟩ := Option.bind_eq_some_iff.1 h
  obtain ⟨st', h2, h⟩ := Option.map_eq_some_iff.1 h
  simp only [Bool.and_eq_true, decide_eq_true_eq] at h
  obtain ⟨⟨⟨⟨⟨hw, ht⟩, hm⟩, hb⟩, hl⟩, hl'⟩ := h
  refine ⟨st, st', ?_, ?_, ?_, ?_, ?_, firstVs_turn h2, hl, hl'⟩
  · rw [hw]
    exact ⟨.vsetvli_xn, rfl, _, rfl, by unfold Enc.assigns; decide +kernel⟩
  · rw [hw]
    show rd _ = _ ∧ rs1 _ = _
    decide +kernel
  · rw [hw]; exact legal_e32
  · rw [hw, ht]; rfl
  · rw [hw, hm, hb]
    show 4 = maxOf 16 0x10
    decide +kernel

/-- vstart stays 3. -/
example (st' : VsSt Sim.rv64gv.xlen.bits) (h : TurnVs .rv64gv looping st') : st'.vec.vstart ≠ 0 := by
  have hw : wordAt looping.core = wordIn looping.core 0x1000#64 := rfl
  refine C139_vstart_violated .rv64gv rfl looping st' .vsetvli looping_at.strip.set.1 looping_at.quiet (by decide)
    ?_ ?_ ?_ (by decide) h
  · rw [hw, looping_at.strip.set.2.2.2]; exact legal_e32
  · rintro ⟨h, _⟩
    rw [hw, looping_at.strip.set.2.1] at h
    exact absurd h (by decide)
  · intro a e
    have : avl looping.core (wordAt looping.core) .vsetvli = some 10 := by decide +kernel
    rw [this] at e
    cases e
    decide

end Verif.Exec
