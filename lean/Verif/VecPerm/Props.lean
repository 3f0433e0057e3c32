import Verif.VecPerm.Spec
import Verif.VecLoop.Props
/-
C88: the permutations move the elements the vector specification says.
-/
namespace Verif.VecPerm
open Verif.VecState Verif.VecLoop Verif.VecLoop.Spec Spec

theorem lt_ceil {vlenb vl i m : Nat} (hv : 0 < vlenb) (hm : 0 < m) (hi : i < vl) :
    i * m / vlenb < (vl * m + vlenb - 1) / vlenb := by
  have h1 : i * m + m ≤ vl * m := by
    have := Nat.mul_le_mul_right m (show i + 1 ≤ vl from hi); rw [Nat.add_mul, Nat.one_mul] at this; exact this
  have : i * m / vlenb + 1 ≤ (vl * m + vlenb - 1) / vlenb := by
    rw [Nat.le_div_iff_mul_le hv, Nat.add_mul, Nat.one_mul]
    have := Nat.div_mul_le_self (i * m) vlenb
    omega
  exact this

/-- A source that is apart from the destination is not overwritten. -/
theorem apart_ok {vlenb vl nd vd cnt n vs : Nat} (hv : 0 < vlenb) (hnd : 0 < nd) (hdd : nd ∣ vlenb) (hn : 0 < n)
    (hd : n ∣ vlenb) (h : Apart vlenb vl nd vd cnt n vs) (e j : Nat) (he : e < vl) (hj : j < cnt) :
    vs + j / (vlenb / n) < vd ∨ vd + e / (vlenb / nd) ≤ vs + j / (vlenb / n) := by
  rw [div_epv hn hd, div_epv hnd hdd]
  have h1 := lt_ceil hv hnd he
  have h2 := lt_ceil hv hn hj
  generalize j * n / vlenb = y at *
  rcases h with h | h
  · left; omega
  · right; omega

/-- The loops, for a computation that does not see what they have written. -/
theorem loops_spec (c : VCore) (n vd : Nat) (g : VRegs → Nat → Option (BitVec (8 * n))) (hr : Ready c.vs [] n vd)
    (hind : ∀ e R, c.vs.vstart ≤ e → e < c.vs.vl →
      (∀ r, (r < vd ∨ vd + e / (c.vs.vlenb / n) ≤ r) → R r = c.regs r) → g R e = g c.regs e) :
    ∃ c', loops c n vd g = some c' ∧ c'.vs = { c.vs with vstart := 0 }
      ∧ (∀ i v, Body c.vs i → g c.regs i = some v → IsElem c.vs.vlenb n c'.regs vd i v)
      ∧ Undisturbed c.vs.vlenb n vd (fun i => Body c.vs i ∧ (g c.regs i).isSome) c.regs c'.regs := by
  obtain ⟨c', e1, e2, e3, e4⟩ := elementwise_elems c [] n vd (fun R i (_ : Unit) => (g R i, ())) (fun i => g c.regs i)
    (fun _ => ()) hr (fun e R _ h1 h2 h3 => by rw [hind e R h1 h2 h3]) (fun e _ _ => rfl)
  refine ⟨c', by rw [loops, e1]; rfl, e2, fun i v hb hg => e3 i v hb.1 hb.2 hg, ?_⟩
  intro r x hx hno
  exact e4 r x hx (fun ⟨i, ⟨i1, i2, i3⟩, hc⟩ => hno ⟨i, ⟨⟨i1, i2⟩, i3⟩, hc⟩)

theorem undisturbed_mono {vlenb n vd : Nat} {P Q : Nat → Prop} {R R' : Regs} (h : ∀ i, P i → Q i)
    (hu : Undisturbed vlenb n vd P R R') : Undisturbed vlenb n vd Q R R' :=
  fun r x hx hno => hu r x hx (fun ⟨i, hi, hc⟩ => hno ⟨i, h i hi, hc⟩)

/-- The mask bit the loops look up is the right one if there is no mask or the elements fit in a register. -/
theorem mask_ok {s : VState} {R : VRegs} {vm : Bool} {epv : Nat} (h : vm = true ∨ s.vl ≤ epv) {i : Nat} (hi : i < s.vl) :
    maskBit (maskOf R vm) (i % epv) = true ↔ Active R vm i := by
  rw [maskBit_iff]
  rcases h with rfl | h
  · exact ⟨fun _ => Or.inl rfl, fun _ => Or.inl rfl⟩
  · rw [Nat.mod_eq_of_lt (by omega)]

theorem index_get {n : Nat} {s : VState} {R : VRegs} {i vd : Nat} {ix : Index n} (hv : 0 < s.vlenb) (hx : IndexApart s vd ix)
    {x : Nat} (h : IndexIs s R i ix x) : (ix.get s.vlenb R i).toNat = x % 2 ^ 32 := by
  cases ix with
  | scalar v => rw [h]; exact BitVec.toNat_setWidth ..
  | vec vs =>
    obtain ⟨b, hb, rfl⟩ := h
    rw [Index.get, (isElem_iff hx.1 hx.2.1 hv _ _ _ _).1 hb]
    exact BitVec.toNat_setWidth ..

theorem index_is {n : Nat} {s : VState} (R : VRegs) (i : Nat) {vd : Nat} (ix : Index n) (hv : 0 < s.vlenb) (hx : IndexApart s vd ix) :
    ∃ x, IndexIs s R i ix x := by
  cases ix with
  | scalar v => exact ⟨_, rfl⟩
  | vec vs => exact ⟨_, _, (isElem_iff hx.1 hx.2.1 hv _ _ _ _).2 rfl, rfl⟩

/-- Indices the simulator treats as the specification does: they fit in 32 bits, and they are not between VLMAX and
the number of elements of the registers that the source's number is aligned to. -/
def Modest (c : VCore) (vs2 n1 : Nat) (ix : Index n1) (vm : Bool) : Prop :=
  ∀ i x, Body c.vs i → Active c.regs vm i → IndexIs c.vs c.regs i ix x →
    x < 2 ^ 32 ∧ (x < vlmax c.vs ∨ groupSize vs2 * (c.vs.vlenb / c.vs.sew) ≤ x)

theorem gather_partial (c : VCore) (n1 vd vs2 : Nat) (ix : Index n1) (vm : Bool) (hc : Config c.vs vd)
    (h64 : c.vs.lmul8 * n1 ≤ 64 * c.vs.sew)
    (h2 : Apart c.vs.vlenb c.vs.vl c.vs.sew vd (vlmax c.vs) c.vs.sew vs2) (h1 : IndexApart c.vs vd ix)
    (hg : vlmax c.vs ≤ groupSize vs2 * (c.vs.vlenb / c.vs.sew))
    (hm : vm = true ∨ c.vs.vl ≤ c.vs.vlenb / c.vs.sew) (hx : Modest c vs2 n1 ix vm) :
    ∃ c', gather c c.vs.sew n1 vd vs2 ix (maskOf c.regs vm) = some c' ∧ c'.vs = { c.vs with vstart := 0 }
      ∧ Gathered c.vs c.regs c'.regs vd vs2 ix vm := by
  obtain ⟨hnd, hdd, hv⟩ := hc.ready.size
  have higet : ∀ e (R : VRegs), e < c.vs.vl → (∀ r, (r < vd ∨ vd + e / (c.vs.vlenb / c.vs.sew) ≤ r) → R r = c.regs r) →
      ix.get c.vs.vlenb R e = ix.get c.vs.vlenb c.regs e := by
    intro e R he hR
    cases ix with
    | scalar v => rfl
    | vec vs =>
      simp only [Index.get]
      rw [source_congr _ _ _ _ _ _ (hR _ (apart_ok hv hnd hdd h1.1 h1.2.1 h1.2.2 e e he he))]
  obtain ⟨c', e1, e2, e3, e4⟩ := loops_spec c c.vs.sew vd (fun R i =>
      if maskBit (maskOf c.regs vm) (i % (c.vs.vlenb / c.vs.sew)) then
        some (if (ix.get c.vs.vlenb R i).toNat < groupSize vs2 * (c.vs.vlenb / c.vs.sew)
          then source c.vs.vlenb c.vs.sew R vs2 (ix.get c.vs.vlenb R i).toNat else 0)
      else none) hc.ready (by
    intro e R h3 h4 hR
    simp only [higet e R h4 hR]
    by_cases hmb : maskBit (maskOf c.regs vm) (e % (c.vs.vlenb / c.vs.sew)) = true
    · rw [if_pos hmb, if_pos hmb]
      obtain ⟨x, hxe⟩ := index_is c.regs e ix hv h1
      obtain ⟨hx1, hx2⟩ := hx e x ⟨h3, h4⟩ ((mask_ok hm h4).1 hmb) hxe
      rw [index_get hv h1 hxe, Nat.mod_eq_of_lt hx1]
      rcases hx2 with hx2 | hx2
      · rw [source_congr _ _ _ _ _ _ (hR _ (apart_ok hv hnd hdd hnd hdd h2 e x h4 hx2))]
      · rw [if_neg (by omega), if_neg (by omega)]
    · rw [if_neg hmb, if_neg hmb])
  refine ⟨c', ?_, e2, ?_, ?_⟩
  · have : ¬ c.vs.lmul8 * n1 / c.vs.sew > 64 := by
      have := Nat.div_le_of_le_mul (show c.vs.lmul8 * n1 ≤ c.vs.sew * 64 by omega)
      omega
    rw [gather, hc.ready.ok, if_neg Bool.false_ne_true, if_neg this]
    exact e1
  · intro i x hb ha hix
    obtain ⟨hx1, hx2⟩ := hx i x hb ha hix
    have hget := index_get hv h1 hix
    rw [Nat.mod_eq_of_lt hx1] at hget
    have hmb := (mask_ok (R := c.regs) hm hb.2).2 ha
    refine ⟨fun hlt v hv2 => ?_, fun hge => ?_⟩
    · apply e3 i v hb
      rw [if_pos hmb, hget, if_pos (by omega), (isElem_iff hnd hdd hv _ _ _ _).1 hv2]
    · apply e3 i _ hb
      rw [if_pos hmb, hget, if_neg (by omega)]
  · refine undisturbed_mono (fun i hi => ⟨hi.1, (mask_ok hm hi.1.2).1 ?_⟩) e4
    obtain ⟨_, h⟩ := hi
    by_cases hmb : maskBit (maskOf c.regs vm) (i % (c.vs.vlenb / c.vs.sew)) = true
    · exact hmb
    · rw [if_neg hmb] at h; cases h

/-- C88 for vrgather.  Missing: masked forms with more than one register (`C88_mask_violated`), and the indices that
`Modest` excludes (`C88_gather_range_violated`, `C88_gather_index_violated`). -/
theorem C88_gather_partial (c : VCore) (vd vs2 : Nat) (ix : Index c.vs.sew) (vm : Bool) (hc : Config c.vs vd)
    (hl : c.vs.lmul8 ≤ 64)
    (h2 : Apart c.vs.vlenb c.vs.vl c.vs.sew vd (vlmax c.vs) c.vs.sew vs2) (h1 : IndexApart c.vs vd ix)
    (hg : vlmax c.vs ≤ groupSize vs2 * (c.vs.vlenb / c.vs.sew))
    (hm : vm = true ∨ c.vs.vl ≤ c.vs.vlenb / c.vs.sew) (hx : Modest c vs2 c.vs.sew ix vm) :
    ∃ c', vrgather c vd vs2 ix (maskOf c.regs vm) = some c' ∧ c'.vs = { c.vs with vstart := 0 }
      ∧ Gathered c.vs c.regs c'.regs vd vs2 ix vm := by
  rw [vrgather, if_pos hc.sew]
  exact gather_partial c c.vs.sew vd vs2 ix vm hc (Nat.mul_le_mul_right _ hl) h2 h1 hg hm hx

/-- C88 for vrgatherei16; the multiplier of the indices, LMUL * 16 / SEW, is at most 8.  Missing: as above. -/
theorem C88_gatherei16_partial (c : VCore) (vd vs2 : Nat) (ix : Index 2) (vm : Bool) (hc : Config c.vs vd)
    (h64 : c.vs.lmul8 * 2 ≤ 64 * c.vs.sew)
    (h2 : Apart c.vs.vlenb c.vs.vl c.vs.sew vd (vlmax c.vs) c.vs.sew vs2) (h1 : IndexApart c.vs vd ix)
    (hg : vlmax c.vs ≤ groupSize vs2 * (c.vs.vlenb / c.vs.sew))
    (hm : vm = true ∨ c.vs.vl ≤ c.vs.vlenb / c.vs.sew) (hx : Modest c vs2 2 ix vm) :
    ∃ c', vrgatherei16 c vd vs2 ix (maskOf c.regs vm) = some c' ∧ c'.vs = { c.vs with vstart := 0 }
      ∧ Gathered c.vs c.regs c'.regs vd vs2 ix vm := by
  rw [vrgatherei16, if_pos hc.sew]
  exact gather_partial c 2 vd vs2 ix vm hc h64 h2 h1 hg hm hx

/-! ### Slides -/

theorem not_overflows {c : VCore} {off : Int} (h1 : -2 ^ 31 ≤ -off) (h2 : (c.vs.vl : Int) - off ≤ 2 ^ 31) :
    overflows c off = false := by
  unfold overflows
  have e1 : decide (-2 ^ 31 ≤ (c.vs.vstart : Int) - off) = true := decide_eq_true (by omega)
  have e2 : decide ((c.vs.vl : Int) - 1 - off < 2 ^ 31) = true := decide_eq_true (by omega)
  rw [e1, e2]
  simp

/-- C88 for vslideup.  Missing: masked forms with more than one register (`C88_mask_violated`), offsets of 2^32 and
more (`C88_slide_offset_violated`), and clearing vstart for an offset above VLMAX (`C88_slideup_vstart_violated`). -/
theorem C88_slideup_partial (c : VCore) (vd vs2 : Nat) (x : BitVec 64) (vm : Bool) (hc : Config c.vs vd)
    (hl : c.vs.vl ≤ vlmax c.vs)
    (h2 : Apart c.vs.vlenb c.vs.vl c.vs.sew vd (vlmax c.vs) c.vs.sew vs2)
    (hm : vm = true ∨ c.vs.vl ≤ c.vs.vlenb / c.vs.sew) (hx : x.toNat < 2 ^ 32)
    (h0 : x.toNat ≤ vlmax c.vs ∨ c.vs.vstart = 0) :
    ∃ c', vslideup c vd vs2 x (maskOf c.regs vm) = some c' ∧ c'.vs = { c.vs with vstart := 0 }
      ∧ SlidUp c.vs c.regs c'.regs vd vs2 x.toNat vm := by
  obtain ⟨hnd, hdd, hv⟩ := hc.ready.size
  have hn : (x.setWidth 32 : BitVec 32).toNat = x.toNat := by
    rw [BitVec.toNat_setWidth, Nat.mod_eq_of_lt hx]
  have hvm := hc.max
  have hsm := hc.small
  rw [vslideup, hn]
  by_cases hbig : c.vs.vmax < x.toNat
  · rw [if_pos hbig]
    have hs0 : c.vs.vstart = 0 := by rcases h0 with h | h; omega; exact h
    refine ⟨c, rfl, ?_, fun i hb hi => ?_, fun r y _ _ => rfl⟩
    · rw [← hs0]
    · have := hb.2; omega
  · rw [if_neg hbig, if_pos hc.sew]
    have hint : (x.setWidth 32 : BitVec 32).toInt = (x.toNat : Int) := by
      rw [BitVec.toInt_eq_toNat_of_lt (by omega), hn]
    rw [hint]
    have hov : overflows c (x.toNat : Int) = false := not_overflows (by omega) (by omega)
    obtain ⟨c', e1, e2, e3, e4⟩ := loops_spec c c.vs.sew vd (fun R i =>
      if 0 ≤ (i : Int) - (x.toNat : Int) ∧ maskBit (maskOf c.regs vm) (i % (c.vs.vlenb / c.vs.sew)) = true then
        some (if (i : Int) - (x.toNat : Int) < c.vs.vmax
          then source c.vs.vlenb c.vs.sew R vs2 ((i : Int) - (x.toNat : Int)).toNat else 0)
      else none) hc.ready (by
        intro e R h3 h4 hR
        by_cases hp : 0 ≤ (e : Int) - (x.toNat : Int) ∧ maskBit (maskOf c.regs vm) (e % (c.vs.vlenb / c.vs.sew)) = true
        · rw [if_pos hp, if_pos hp]
          rw [source_congr _ _ _ _ _ _ (hR _ (apart_ok hv hnd hdd hnd hdd h2 e _ h4 (by omega)))]
        · rw [if_neg hp, if_neg hp])
    refine ⟨c', by rw [slide, hov]; exact e1, e2, ?_, ?_⟩
    · intro i hb hi ha v hvv
      have hmb := (mask_ok (R := c.regs) hm hb.2).2 ha
      have hb2 := hb.2
      apply e3 i v hb
      have hi' : ((i : Int) - (x.toNat : Int)).toNat = i - x.toNat := by omega
      rw [if_pos ⟨by omega, hmb⟩, if_pos (by omega), hi', (isElem_iff hnd hdd hv _ _ _ _).1 hvv]
    · refine undisturbed_mono (fun i hi => ?_) e4
      obtain ⟨hb, h⟩ := hi
      by_cases hp : 0 ≤ (i : Int) - (x.toNat : Int) ∧ maskBit (maskOf c.regs vm) (i % (c.vs.vlenb / c.vs.sew)) = true
      · exact ⟨hb, by omega, (mask_ok hm hb.2).1 hp.2⟩
      · rw [if_neg hp] at h; cases h

/-- A source that slides down: apart from the destination, or the same group. -/
def DownOk (s : VState) (vd vs2 : Nat) : Prop :=
  vs2 = vd ∨ Apart s.vlenb s.vl s.sew vd (vlmax s) s.sew vs2

theorem down_ok {s : VState} {vd vs2 : Nat} (hv : 0 < s.vlenb) (hnd : 0 < s.sew) (hdd : s.sew ∣ s.vlenb)
    (h : DownOk s vd vs2) {e j : Nat} (he : e < s.vl) (hej : e ≤ j) (hj : j < vlmax s) :
    vs2 + j / (s.vlenb / s.sew) < vd ∨ vd + e / (s.vlenb / s.sew) ≤ vs2 + j / (s.vlenb / s.sew) := by
  rcases h with rfl | h
  · right
    have : e / (s.vlenb / s.sew) ≤ j / (s.vlenb / s.sew) := Nat.div_le_div_right hej
    omega
  · exact apart_ok hv hnd hdd hnd hdd h e j he hj

/-- C88 for vslidedown.  Missing: masked forms with more than one register (`C88_mask_violated`) and offsets near and
above 2^31 (`C88_slide_offset_violated`, `C88_slidedown_negative_violated`). -/
theorem C88_slidedown_partial (c : VCore) (vd vs2 : Nat) (x : BitVec 64) (vm : Bool) (hc : Config c.vs vd)
    (h2 : DownOk c.vs vd vs2)
    (hm : vm = true ∨ c.vs.vl ≤ c.vs.vlenb / c.vs.sew) (hx : x.toNat + c.vs.vl ≤ 2 ^ 31) (hx' : x.toNat < 2 ^ 31) :
    ∃ c', vslidedown c vd vs2 x (maskOf c.regs vm) = some c' ∧ c'.vs = { c.vs with vstart := 0 }
      ∧ SlidDown c.vs c.regs c'.regs vd vs2 x.toNat vm := by
  obtain ⟨hnd, hdd, hv⟩ := hc.ready.size
  have hn : (x.setWidth 32 : BitVec 32).toNat = x.toNat := by
    rw [BitVec.toNat_setWidth, Nat.mod_eq_of_lt (by omega)]
  have hvm := hc.max
  have hne : ¬ (x.setWidth 32 : BitVec 32) = 0x80000000#32 := by
    intro h
    have := congrArg BitVec.toNat h
    rw [hn] at this
    simp at this
    omega
  rw [vslidedown, if_neg hne, if_pos hc.sew]
  have hint : (x.setWidth 32 : BitVec 32).toInt = (x.toNat : Int) := by
    rw [BitVec.toInt_eq_toNat_of_lt (by omega), hn]
  rw [hint]
  have hov : overflows c (-(x.toNat : Int)) = false := not_overflows (by omega) (by omega)
  obtain ⟨c', e1, e2, e3, e4⟩ := loops_spec c c.vs.sew vd (fun R i =>
    if 0 ≤ (i : Int) - -(x.toNat : Int) ∧ maskBit (maskOf c.regs vm) (i % (c.vs.vlenb / c.vs.sew)) = true then
      some (if (i : Int) - -(x.toNat : Int) < c.vs.vmax
        then source c.vs.vlenb c.vs.sew R vs2 ((i : Int) - -(x.toNat : Int)).toNat else 0)
    else none) hc.ready (by
      intro e R h3 h4 hR
      by_cases hp : 0 ≤ (e : Int) - -(x.toNat : Int) ∧ maskBit (maskOf c.regs vm) (e % (c.vs.vlenb / c.vs.sew)) = true
      · rw [if_pos hp, if_pos hp]
        by_cases hlt : (e : Int) - -(x.toNat : Int) < c.vs.vmax
        · rw [source_congr _ _ _ _ _ _ (hR _ (down_ok hv hnd hdd h2 h4 (by omega) (by omega)))]
        · rw [if_neg hlt, if_neg hlt]
      · rw [if_neg hp, if_neg hp])
  refine ⟨c', by rw [slide, hov]; exact e1, e2, ?_, ?_⟩
  · intro i hb ha
    have hmb := (mask_ok (R := c.regs) hm hb.2).2 ha
    have hi' : ((i : Int) - -(x.toNat : Int)).toNat = i + x.toNat := by omega
    refine ⟨fun hlt v hvv => ?_, fun hge => ?_⟩
    · apply e3 i v hb
      rw [if_pos ⟨by omega, hmb⟩, if_pos (by omega), hi', (isElem_iff hnd hdd hv _ _ _ _).1 hvv]
    · apply e3 i _ hb
      rw [if_pos ⟨by omega, hmb⟩, if_neg (by omega)]
  · refine undisturbed_mono (fun i hi => ?_) e4
    obtain ⟨hb, h⟩ := hi
    by_cases hp : 0 ≤ (i : Int) - -(x.toNat : Int) ∧ maskBit (maskOf c.regs vm) (i % (c.vs.vlenb / c.vs.sew)) = true
    · exact ⟨hb, (mask_ok hm hb.2).1 hp.2⟩
    · rw [if_neg hp] at h; cases h

/-! ### Slides by one -/

/-- What `slide1` does with each element. -/
theorem slide1_spec (c : VCore) (vd vs2 : Nat) (x : BitVec (8 * c.vs.sew)) (off : Int) (vm : Bool) (hc : Config c.vs vd)
    (h2 : Apart c.vs.vlenb c.vs.vl c.vs.sew vd (vlmax c.vs) c.vs.sew vs2 ∨ (vs2 = vd ∧ off ≤ 0)) :
    ∃ c', slide1 c c.vs.sew vd vs2 x off (maskOf c.regs vm) = some c' ∧ c'.vs = { c.vs with vstart := 0 }
      ∧ (∀ i v, Body c.vs i → (if maskBit (maskOf c.regs vm) (i % (c.vs.vlenb / c.vs.sew)) then
          some (if 0 < (i : Int) - off ∧ (i : Int) - off < c.vs.vmax
            then source c.vs.vlenb c.vs.sew c.regs vs2 ((i : Int) - off).toNat else x) else none) = some v →
          IsElem c.vs.vlenb c.vs.sew c'.regs vd i v)
      ∧ Undisturbed c.vs.vlenb c.vs.sew vd
          (fun i => Body c.vs i ∧ maskBit (maskOf c.regs vm) (i % (c.vs.vlenb / c.vs.sew)) = true) c.regs c'.regs := by
  obtain ⟨hnd, hdd, hv⟩ := hc.ready.size
  have hvm := hc.max
  obtain ⟨c', e1, e2, e3, e4⟩ := loops_spec c c.vs.sew vd (fun R i =>
      if maskBit (maskOf c.regs vm) (i % (c.vs.vlenb / c.vs.sew)) then
        some (if 0 < (i : Int) - off ∧ (i : Int) - off < c.vs.vmax
          then source c.vs.vlenb c.vs.sew R vs2 ((i : Int) - off).toNat else x) else none) hc.ready (by
      intro e R h3 h4 hR
      by_cases hp : 0 < (e : Int) - off ∧ (e : Int) - off < c.vs.vmax
      · have : source c.vs.vlenb c.vs.sew R vs2 ((e : Int) - off).toNat =
            source c.vs.vlenb c.vs.sew c.regs vs2 ((e : Int) - off).toNat := by
          apply source_congr
          apply hR
          rcases h2 with h2 | ⟨h2, h0⟩
          · exact apart_ok hv hnd hdd hnd hdd h2 e _ h4 (by omega)
          · exact down_ok hv hnd hdd (Or.inl h2) h4 (by omega) (by omega)
        rw [this]
      · rw [if_neg hp, if_neg hp])
  refine ⟨c', e1, e2, fun i v hb h => e3 i v hb h, undisturbed_mono (fun i hi => ⟨hi.1, ?_⟩) e4⟩
  obtain ⟨_, h⟩ := hi
  by_cases hmb : maskBit (maskOf c.regs vm) (i % (c.vs.vlenb / c.vs.sew)) = true
  · exact hmb
  · rw [if_neg hmb] at h; cases h

/-- The floating-point forms have no elements of 1 or 2 bytes. -/
def FpOk (fp : Bool) (s : VState) : Prop := (fp = false ∧ (s.sew = 1 ∨ s.sew = 2)) ∨ s.sew = 4 ∨ s.sew = 8

/-- C88 for vslide1up and vfslide1up, except that nothing is said of element 1 (`C88_slide1up_violated`).  Missing
besides: masked forms with more than one register. -/
theorem C88_slide1up_partial (fp : Bool) (c : VCore) (vd vs2 : Nat) (x : BitVec (8 * c.vs.sew)) (vm : Bool)
    (hc : Config c.vs vd) (hf : FpOk fp c.vs) (hl : c.vs.vl ≤ vlmax c.vs)
    (h2 : Apart c.vs.vlenb c.vs.vl c.vs.sew vd (vlmax c.vs) c.vs.sew vs2)
    (hm : vm = true ∨ c.vs.vl ≤ c.vs.vlenb / c.vs.sew) :
    ∃ c', vslide1up fp c vd vs2 x (maskOf c.regs vm) = some c' ∧ c'.vs = { c.vs with vstart := 0 }
      ∧ (∀ i, Body c.vs i → Active c.regs vm i → i ≠ 1 →
        (i = 0 → IsElem c.vs.vlenb c.vs.sew c'.regs vd i x)
        ∧ (0 < i → ∀ v, IsElem c.vs.vlenb c.vs.sew c.regs vs2 (i - 1) v → IsElem c.vs.vlenb c.vs.sew c'.regs vd i v))
      ∧ Undisturbed c.vs.vlenb c.vs.sew vd (fun i => Body c.vs i ∧ Active c.regs vm i) c.regs c'.regs := by
  obtain ⟨hnd, hdd, hv⟩ := hc.ready.size
  have hvm := hc.max
  obtain ⟨c', e1, e2, e3, e4⟩ := slide1_spec c vd vs2 x 1 vm hc (Or.inl h2)
  refine ⟨c', (if_pos hf).trans e1, e2, fun i hb ha hi => ?_,
    undisturbed_mono (fun i hi => ⟨hi.1, (mask_ok hm hi.1.2).1 hi.2⟩) e4⟩
  have hmb := (mask_ok (R := c.regs) hm hb.2).2 ha
  have hb2 := hb.2
  refine ⟨fun h0 => e3 i x hb ?_, fun h0 v hvv => e3 i v hb ?_⟩
  · rw [if_pos hmb, if_neg (by omega)]
  · have : ((i : Int) - 1).toNat = i - 1 := by omega
    rw [if_pos hmb, if_pos (by omega), this, (isElem_iff hnd hdd hv _ _ _ _).1 hvv]

/-- C88 fails for vslide1up (riscv_vector_permute_instructions.cc:301, `src_index > 0`): element 1 receives the scalar
instead of element 0 of the source, whenever it is in the body and active. -/
theorem C88_slide1up_violated (fp : Bool) (c : VCore) (vd vs2 : Nat) (x : BitVec (8 * c.vs.sew)) (vm : Bool)
    (hc : Config c.vs vd) (hf : FpOk fp c.vs)
    (h2 : Apart c.vs.vlenb c.vs.vl c.vs.sew vd (vlmax c.vs) c.vs.sew vs2)
    (hm : vm = true ∨ c.vs.vl ≤ c.vs.vlenb / c.vs.sew) (hb : Body c.vs 1) (ha : Active c.regs vm 1) :
    ∃ c', vslide1up fp c vd vs2 x (maskOf c.regs vm) = some c' ∧ IsElem c.vs.vlenb c.vs.sew c'.regs vd 1 x := by
  obtain ⟨c', e1, e2, e3, e4⟩ := slide1_spec c vd vs2 x 1 vm hc (Or.inl h2)
  refine ⟨c', (if_pos hf).trans e1, e3 1 x hb ?_⟩
  rw [if_pos ((mask_ok (R := c.regs) hm hb.2).2 ha), if_neg (by omega)]

/-- C88 for vslide1down and vfslide1down when the vector has its greatest length.  Missing: other lengths
(`C88_slide1down_violated`), masked forms with more than one register. -/
theorem C88_slide1down_partial (fp : Bool) (c : VCore) (vd vs2 : Nat) (x : BitVec (8 * c.vs.sew)) (vm : Bool)
    (hc : Config c.vs vd) (hf : FpOk fp c.vs) (hl : c.vs.vl = vlmax c.vs) (h2 : DownOk c.vs vd vs2)
    (hm : vm = true ∨ c.vs.vl ≤ c.vs.vlenb / c.vs.sew) :
    ∃ c', vslide1down fp c vd vs2 x (maskOf c.regs vm) = some c' ∧ c'.vs = { c.vs with vstart := 0 }
      ∧ Slid1Down c.vs c.regs c'.regs vd vs2 x vm := by
  obtain ⟨hnd, hdd, hv⟩ := hc.ready.size
  have hvm := hc.max
  obtain ⟨c', e1, e2, e3, e4⟩ := slide1_spec c vd vs2 x (-1) vm hc
    (h2.elim (fun h => Or.inr ⟨h, by decide⟩) Or.inl)
  refine ⟨c', (if_pos hf).trans e1, e2, fun i hb ha => ?_,
    undisturbed_mono (fun i hi => ⟨hi.1, (mask_ok hm hi.1.2).1 hi.2⟩) e4⟩
  have hmb := (mask_ok (R := c.regs) hm hb.2).2 ha
  have : ((i : Int) - -1).toNat = i + 1 := by omega
  refine ⟨fun h0 v hvv => e3 i v hb ?_, fun h0 => e3 i x hb ?_⟩
  · rw [if_pos hmb, if_pos (by omega), this, (isElem_iff hnd hdd hv _ _ _ _).1 hvv]
  · rw [if_pos hmb, if_neg (by omega)]

/-- C88 fails for vslide1down (riscv_vector_permute_instructions.cc:301, the bound is VLMAX instead of vl): with a
shorter vector the last element receives the element of the source behind the end, not the scalar. -/
theorem C88_slide1down_violated (fp : Bool) (c : VCore) (vd vs2 : Nat) (x : BitVec (8 * c.vs.sew)) (vm : Bool)
    (hc : Config c.vs vd) (hf : FpOk fp c.vs) (hl : c.vs.vl < vlmax c.vs) (h2 : DownOk c.vs vd vs2)
    (hm : vm = true ∨ c.vs.vl ≤ c.vs.vlenb / c.vs.sew) (i : Nat) (hi : i + 1 = c.vs.vl) (hb : Body c.vs i)
    (ha : Active c.regs vm i) (v : BitVec (8 * c.vs.sew)) (hvv : IsElem c.vs.vlenb c.vs.sew c.regs vs2 c.vs.vl v) :
    ∃ c', vslide1down fp c vd vs2 x (maskOf c.regs vm) = some c' ∧ IsElem c.vs.vlenb c.vs.sew c'.regs vd i v := by
  obtain ⟨hnd, hdd, hv⟩ := hc.ready.size
  have hvm := hc.max
  obtain ⟨c', e1, e2, e3, e4⟩ := slide1_spec c vd vs2 x (-1) vm hc
    (h2.elim (fun h => Or.inr ⟨h, by decide⟩) Or.inl)
  refine ⟨c', (if_pos hf).trans e1, e3 i v hb ?_⟩
  have : ((i : Int) - -1).toNat = c.vs.vl := by omega
  rw [if_pos ((mask_ok (R := c.regs) hm hb.2).2 ha), if_pos (by omega), this, (isElem_iff hnd hdd hv _ _ _ _).1 hvv]

/-! ### Compress -/

/-- The number of selected elements from `lo` to `i`. -/
theorem below_succ (R : Regs) (vs i : Nat) (h : bit R vs i = true) : below R vs (i + 1) = below R vs i + 1 := by
  rw [below, if_pos h]

theorem below_mono (R : Regs) (vs : Nat) {i j : Nat} (h : i ≤ j) : below R vs i ≤ below R vs j := by
  induction j with
  | zero => rw [Nat.le_zero.1 h]; exact Nat.le_refl _
  | succ j ih =>
    rcases Nat.lt_or_ge i (j + 1) with h' | h'
    · have := ih (by omega)
      rw [below]
      omega
    · rw [Nat.le_antisymm h h']
      exact Nat.le_refl _

theorem below_le (R : Regs) (vs : Nat) (i : Nat) : below R vs i ≤ i := by
  induction i with
  | zero => exact Nat.le_refl _
  | succ i ih => rw [below]; split <;> omega

/-- What the register file would be if the compression stopped at `i`: its first `k` elements are written, nothing
else is. -/
structure Inv (c : VCore) (vd vs2 vs1 : Nat) (i : Nat) (s : CState) : Prop where
  next : s.next = below c.regs vs1 i
  elems : ∀ j, j < i → bit c.regs vs1 j = true →
    source c.vs.vlenb c.vs.sew (s.submit vd) vd (below c.regs vs1 j) = source c.vs.vlenb c.vs.sew c.regs vs2 j
  rest : ∀ r x, x < c.vs.vlenb → (¬ ∃ j, j < below c.regs vs1 i ∧ Covers c.vs.vlenb c.vs.sew vd j r x) →
    s.submit vd r x = c.regs r x
  out : ∀ R, R = s.regs ∨ R = s.submit vd →
    ∀ r, (r < vd ∨ vd + (c.vs.vl * c.vs.sew + c.vs.vlenb - 1) / c.vs.vlenb ≤ r) → R r = c.regs r

/-- Writing an element. -/
theorem put_submit (vlenb n vd vs2 : Nat) (s : CState) (i : Nat) (he : ∀ R, R = s.regs ∨ R = s.submit vd →
      source vlenb n R vs2 i = source vlenb n s.regs vs2 i) :
    (s.put vlenb n vd vs2 i).submit vd = (fun q => if q = vd + s.next / (vlenb / n)
      then setElem n (s.submit vd q) (s.next % (vlenb / n)) (source vlenb n s.regs vs2 i) else s.submit vd q)
    ∧ ((s.put vlenb n vd vs2 i).regs = s.regs ∨ (s.put vlenb n vd vs2 i).regs = s.submit vd) := by
  obtain ⟨R, cur, next⟩ := s
  cases cur with
  | none =>
    refine ⟨?_, Or.inl rfl⟩
    funext q
    simp only [CState.put, CState.submit]
    by_cases hq : q = vd + next / (vlenb / n)
    · rw [if_pos hq, if_pos hq, hq]
    · rw [if_neg hq, if_neg hq]
  | some p =>
    obtain ⟨r, b⟩ := p
    by_cases hr : r = next / (vlenb / n)
    · refine ⟨?_, Or.inl (by simp only [CState.put, if_pos hr])⟩
      funext q
      simp only [CState.put, CState.submit, if_pos hr]
      by_cases hq : q = vd + next / (vlenb / n)
      · rw [if_pos hq, if_pos hq, if_pos (by rw [hr]; exact hq)]
      · rw [if_neg hq, if_neg hq, if_neg (by rw [hr]; exact hq)]
    · refine ⟨?_, Or.inr (by simp only [CState.put, if_neg hr])⟩
      have hsrc := he _ (Or.inr rfl)
      funext q
      simp only [CState.put, if_neg hr]
      rw [hsrc]
      simp only [CState.submit]
      by_cases hq : q = vd + next / (vlenb / n)
      · rw [if_pos hq, if_pos hq, hq]
      · rw [if_neg hq, if_neg hq]

theorem source_set {vlenb n : Nat} (hn : 0 < n) (hd : n ∣ vlenb) (hv : 0 < vlenb) (R : VRegs) (vd k : Nat)
    (v : BitVec (8 * n)) (j : Nat) :
    source vlenb n (fun q => if q = vd + k / (vlenb / n) then setElem n (R q) (k % (vlenb / n)) v else R q) vd j
      = if j = k then v else source vlenb n R vd j := by
  have hq : 0 < vlenb / n := Nat.div_pos (Nat.le_of_dvd hv hd) hn
  by_cases hjk : j = k
  · subst hjk
    rw [if_pos rfl]
    apply (isElem_iff hn hd hv _ _ _ _).1
    intro x hx
    obtain ⟨p1, p2⟩ := place hn hd hv j x hx
    rw [p1, p2]
    show (if vd + j / (vlenb / n) = vd + j / (vlenb / n) then _ else _ : Buf) _ = _
    rw [if_pos rfl]
    have e1 : (j % (vlenb / n) * n + x) / n = j % (vlenb / n) := by
      rw [Nat.mul_comm, Nat.mul_add_div hn, Nat.div_eq_of_lt hx, Nat.add_zero]
    have e2 : (j % (vlenb / n) * n + x) % n = x := by
      rw [Nat.mul_comm, Nat.mul_add_mod, Nat.mod_eq_of_lt hx]
    simp only [setElem, e1, e2, if_true]
  · rw [if_neg hjk]
    apply (isElem_iff hn hd hv _ _ _ _).1
    intro x hx
    have h0 := (isElem_iff hn hd hv R vd j _).2 rfl x hx
    obtain ⟨p1, p2⟩ := place hn hd hv j x hx
    rw [p1, p2] at h0 ⊢
    rw [← h0]
    show (if vd + j / (vlenb / n) = vd + k / (vlenb / n) then _ else _ : Buf) _ = _
    by_cases hr : vd + j / (vlenb / n) = vd + k / (vlenb / n)
    · rw [if_pos hr]
      have hne : ¬ j % (vlenb / n) = k % (vlenb / n) := by
        intro h
        have h1 := Nat.div_add_mod j (vlenb / n)
        have h2 := Nat.div_add_mod k (vlenb / n)
        have h3 : j / (vlenb / n) = k / (vlenb / n) := by omega
        rw [h3, h] at h1
        omega
      have e1 : (j % (vlenb / n) * n + x) / n = j % (vlenb / n) := by
        rw [Nat.mul_comm, Nat.mul_add_div hn, Nat.div_eq_of_lt hx, Nat.add_zero]
      simp only [setElem, e1, if_neg hne]
    · rw [if_neg hr]

theorem covers_set {vlenb n : Nat} (hn : 0 < n) (hd : n ∣ vlenb) (hv : 0 < vlenb) (R : VRegs) (vd k : Nat)
    (v : BitVec (8 * n)) (r x : Nat) (hx : x < vlenb) (h : ¬ Covers vlenb n vd k r x) :
    (if r = vd + k / (vlenb / n) then setElem n (R r) (k % (vlenb / n)) v else R r : Buf) x = R r x := by
  by_cases hr : r = vd + k / (vlenb / n)
  · rw [if_pos hr]
    by_cases he : x / n = k % (vlenb / n)
    · exfalso
      apply h
      refine ⟨x % n, Nat.mod_lt _ hn, ?_⟩
      obtain ⟨p1, p2⟩ := place hn hd hv k (x % n) (Nat.mod_lt _ hn)
      rw [p1, p2]
      refine ⟨hr, ?_⟩
      have := Nat.div_add_mod x n
      rw [Nat.mul_comm, he] at this
      omega
    · simp only [setElem, if_neg he]
  · rw [if_neg hr]

theorem inv_step (c : VCore) (vd vs2 vs1 : Nat) (hc : Config c.vs vd)
    (h2 : Apart c.vs.vlenb c.vs.vl c.vs.sew vd c.vs.vl c.vs.sew vs2) (i : Nat) (hi : i < c.vs.vl) (s : CState)
    (h : Inv c vd vs2 vs1 i s) :
    Inv c vd vs2 vs1 (i + 1) (if maskBit (c.regs vs1) i then s.put c.vs.vlenb c.vs.sew vd vs2 i else s) := by
  obtain ⟨hn, hd, hv⟩ := hc.ready.size
  have hbit : maskBit (c.regs vs1) i = bit c.regs vs1 i := maskBit_eq _ _
  have hq : 0 < c.vs.vlenb / c.vs.sew := Nat.div_pos (Nat.le_of_dvd hv hd) hn
  by_cases hb : bit c.regs vs1 i = true
  · rw [if_pos (hbit.trans hb)]
    have hnext : s.next < c.vs.vl := by
      have := below_le c.regs vs1 i; rw [h.next]; omega
    have hsrc : ∀ R, R = s.regs ∨ R = s.submit vd →
        source c.vs.vlenb c.vs.sew R vs2 i = source c.vs.vlenb c.vs.sew c.regs vs2 i := by
      intro R hR
      apply source_congr
      apply h.out R hR
      rw [div_epv hn hd]
      have := lt_ceil hv hn hi
      rcases h2 with h2 | h2
      · left; omega
      · right; exact Nat.le_trans h2 (Nat.le_add_right _ _)
    obtain ⟨hp1, hp2⟩ := put_submit c.vs.vlenb c.vs.sew vd vs2 s i
      (fun R hR => (hsrc R hR).trans (hsrc s.regs (Or.inl rfl)).symm)
    rw [hsrc s.regs (Or.inl rfl), h.next] at hp1
    refine ⟨?_, ?_, ?_, ?_⟩
    · show s.next + 1 = _
      rw [below_succ _ _ _ hb, h.next]
    · intro j hj hbj
      rw [hp1, source_set hn hd hv]
      rcases Nat.lt_or_ge j i with hji | hji
      · have h1 := below_mono c.regs vs1 (show j + 1 ≤ i from hji)
        rw [below_succ _ _ _ hbj] at h1
        rw [if_neg (by omega)]
        exact h.elems j hji hbj
      · have : j = i := by omega
        rw [this, if_pos rfl]
    · intro r x hx hno
      rw [hp1]
      show (if r = _ then _ else _ : Buf) x = _
      rw [covers_set hn hd hv (s.submit vd) vd _ _ r x hx
        (fun hc => hno ⟨_, by rw [below_succ _ _ _ hb]; exact Nat.lt_succ_self _, hc⟩)]
      exact h.rest r x hx (fun ⟨j, hj, hc⟩ => hno ⟨j, by rw [below_succ _ _ _ hb]; omega, hc⟩)
    · intro R hR r hr
      have key : (s.put c.vs.vlenb c.vs.sew vd vs2 i).submit vd r = c.regs r := by
        rw [hp1]
        have hlt : below c.regs vs1 i / (c.vs.vlenb / c.vs.sew) < (c.vs.vl * c.vs.sew + c.vs.vlenb - 1) / c.vs.vlenb := by
          rw [div_epv hn hd, ← h.next]
          exact lt_ceil hv hn hnext
        show (if r = _ then _ else _ : Buf) = _
        generalize below c.regs vs1 i / (c.vs.vlenb / c.vs.sew) = y at *
        rw [if_neg (by omega)]
        exact h.out _ (Or.inr rfl) r hr
      rcases hR with hR | hR
      · rw [hR]
        rcases hp2 with e | e
        · rw [e]; exact h.out _ (Or.inl rfl) r hr
        · rw [e]; exact h.out _ (Or.inr rfl) r hr
      · rw [hR]; exact key
  · rw [hbit, if_neg hb]
    have hbl : below c.regs vs1 (i + 1) = below c.regs vs1 i := by rw [below, if_neg hb, Nat.add_zero]
    refine ⟨by rw [hbl]; exact h.next, fun j hj hbj => ?_, by rw [hbl]; exact h.rest, h.out⟩
    have : j ≠ i := fun e => hb (e ▸ hbj)
    exact h.elems j (by omega) hbj

theorem inv_loop (c : VCore) (vd vs2 vs1 : Nat) (hc : Config c.vs vd)
    (h2 : Apart c.vs.vlenb c.vs.vl c.vs.sew vd c.vs.vl c.vs.sew vs2) (k : Nat) :
    ∀ i s, i + k = c.vs.vl → Inv c vd vs2 vs1 i s →
      Inv c vd vs2 vs1 c.vs.vl (compressLoop c.vs.vlenb c.vs.sew vd vs2 (c.regs vs1) k i s) := by
  induction k with
  | zero => intro i s hi h; rw [Nat.add_zero] at hi; rw [← hi]; exact h
  | succ k ih =>
    intro i s hi h
    exact ih (i + 1) _ (by omega) (inv_step c vd vs2 vs1 hc h2 i (by omega) s h)

/-- C88 for vcompress.  Missing: a vstart other than 0 is not refused (`C88_compress_vstart_violated`). -/
theorem C88_compress_partial (c : VCore) (vd vs2 vs1 : Nat) (hc : Config c.vs vd) (h0 : c.vs.vstart = 0)
    (h2 : Apart c.vs.vlenb c.vs.vl c.vs.sew vd c.vs.vl c.vs.sew vs2) :
    ∃ c', vcompress c vd vs2 vs1 = some c' ∧ c'.vs = c.vs ∧ Compressed c.vs c.regs c'.regs vd vs2 vs1 := by
  obtain ⟨hn, hd, hv⟩ := hc.ready.size
  obtain ⟨m, hm, hmod, hvl⟩ := hc.ready.group
  have hq : 0 < c.vs.vlenb / c.vs.sew := Nat.div_pos (Nat.le_of_dvd hv hd) hn
  have hgs := group_size hm hmod
  have hsize : ¬ groupSize vd < max 1 ((c.vs.vl + c.vs.vlenb / c.vs.sew - 1) / (c.vs.vlenb / c.vs.sew)) := by
    have h1 : c.vs.vl ≤ groupSize vd * (c.vs.vlenb / c.vs.sew) := by
      have h1 : c.vs.vl * c.vs.sew ≤ groupSize vd * (c.vs.vlenb / c.vs.sew) * c.vs.sew := by
        rw [Nat.mul_assoc, Nat.div_mul_cancel hd]
        exact Nat.le_trans hvl (Nat.mul_le_mul_right _ hgs)
      exact Nat.le_of_mul_le_mul_right h1 hn
    have h3 : (c.vs.vl + c.vs.vlenb / c.vs.sew - 1) / (c.vs.vlenb / c.vs.sew) ≤ groupSize vd := by
      apply Nat.le_of_lt_succ
      rw [Nat.div_lt_iff_lt_mul hq, Nat.succ_mul]
      omega
    have h4 : 1 ≤ groupSize vd := by rcases hm with rfl | rfl | rfl | rfl <;> omega
    omega
  have hI : Inv c vd vs2 vs1 0 { regs := c.regs } :=
    ⟨rfl, fun j hj => absurd hj (Nat.not_lt_zero _), fun r x _ _ => rfl, by
      rintro R (rfl | rfl) r _ <;> rfl⟩
  have hF := inv_loop c vd vs2 vs1 hc h2 c.vs.vl 0 _ (Nat.zero_add _) hI
  refine ⟨⟨c.vs, (compressLoop c.vs.vlenb c.vs.sew vd vs2 (c.regs vs1) c.vs.vl 0 { regs := c.regs }).submit vd⟩, ?_, ?_⟩
  · rw [vcompress, if_pos hc.sew, compress, hc.ready.ok, if_neg Bool.false_ne_true]
    simp only []
    rw [if_neg (by omega), if_neg hsize, h0, Nat.sub_zero]
    have : ({ c.vs with vstart := 0 } : VState) = c.vs := by rw [← h0]
    rw [this]
  · refine ⟨rfl, fun i hi hb v hvv => ?_, fun r x hx hno => hF.rest r x hx hno⟩
    rw [isElem_iff hn hd hv, hF.elems i hi hb]
    exact (isElem_iff hn hd hv _ _ _ _).1 hvv

/-! ### What fails -/

/-- C88 fails for an offset above VLMAX and a vstart that is not 0 (riscv_vector_permute_instructions.cc:213): the
instruction leaves vstart as it is. -/
theorem C88_slideup_vstart_violated (c : VCore) (vd vs2 : Nat) (x : BitVec 64) (mask : Buf)
    (h : c.vs.vmax < x.toNat) (hx : x.toNat < 2 ^ 32) (_ : c.vs.vstart ≠ 0) : vslideup c vd vs2 x mask = some c := by
  have hn : (x.setWidth 32 : BitVec 32).toNat = x.toNat := by
    rw [BitVec.toNat_setWidth, Nat.mod_eq_of_lt hx]
  rw [vslideup, hn, if_pos h]

/-- C88 fails on RV64 (riscv_vector_permute_instructions.cc:212, 236): only the low 32 bits of an offset count. -/
theorem C88_slide_offset_violated (c : VCore) (vd vs2 : Nat) (x : BitVec 64) (mask : Buf) :
    vslideup c vd vs2 x mask = vslideup c vd vs2 ((x.setWidth 32 : BitVec 32).setWidth 64) mask
    ∧ vslidedown c vd vs2 x mask = vslidedown c vd vs2 ((x.setWidth 32 : BitVec 32).setWidth 64) mask := by
  have : (((x.setWidth 32 : BitVec 32).setWidth 64).setWidth 32 : BitVec 32) = x.setWidth 32 := by
    apply BitVec.eq_of_toNat_eq
    simp only [BitVec.toNat_setWidth]
    omega
  simp only [vslideup, vslidedown, this, and_self]

/-- C88 fails for offsets from 2^31 + 1 to 2^32 - 1 (riscv_vector_permute_instructions.cc:238): the negated offset is
positive, and the instruction slides up by 2^32 - offset. -/
theorem C88_slidedown_negative_violated (c : VCore) (vd vs2 : Nat) (x : BitVec 64) (mask : Buf)
    (h1 : 2 ^ 31 < x.toNat) (h2 : x.toNat < 2 ^ 32)
    (hs : c.vs.sew = 1 ∨ c.vs.sew = 2 ∨ c.vs.sew = 4 ∨ c.vs.sew = 8) :
    vslidedown c vd vs2 x mask = slide c c.vs.sew vd vs2 (2 ^ 32 - x.toNat) mask := by
  have hn : (x.setWidth 32 : BitVec 32).toNat = x.toNat := by
    rw [BitVec.toNat_setWidth, Nat.mod_eq_of_lt h2]
  have hne : ¬ (x.setWidth 32 : BitVec 32) = 0x80000000#32 := by
    intro h
    have := congrArg BitVec.toNat h
    rw [hn] at this
    simp at this
    omega
  have hint : (x.setWidth 32 : BitVec 32).toInt = (x.toNat : Int) - 2 ^ 32 := by
    rw [BitVec.toInt_eq_toNat_cond, hn, if_neg (by omega)]
    rfl
  rw [vslidedown, if_neg hne, if_pos hs, hint]
  congr 1
  omega

/-- VLEN = 128, SEW = 8 bits, LMUL = 1, 16 elements: byte `x` of register `r` is `16 r + x`. -/
def one : VCore :=
  { vs := { vlenb := 16, vtype := 0#32, vl := 16, vmax := 16, lmul8 := 8, sew := 1 },
    regs := fun r x => BitVec.ofNat 8 (16 * r + x) }

theorem config_one (vd : Nat) : Config one.vs vd :=
  ⟨Or.inl rfl, ⟨rfl, by decide, (by intro n hn; cases hn), by decide, 1, by decide, Nat.mod_one _, by decide⟩, rfl, by decide⟩

/-- The same with LMUL = 2 and 32 elements; the mask v0 selects the elements from 16 on. -/
def two : VCore :=
  { vs := { vlenb := 16, vtype := 0#32, vl := 32, vmax := 32, lmul8 := 16, sew := 1 },
    regs := fun r x => if r = 0 then (if x < 2 then 0#8 else 0xff#8) else BitVec.ofNat 8 (16 * r + x) }

theorem config_two : Config two.vs 4 :=
  ⟨Or.inl rfl, ⟨rfl, by decide, (by intro n hn; cases hn), by decide, 2, by decide, by decide, by decide⟩, rfl, by decide⟩

theorem byte_elem {R : Regs} {base i : Nat} {v : BitVec (8 * 1)} (h : IsElem 16 1 R base i v) :
    R (base + i / 16) (i % 16) = v := by
  have := h 0 (by decide)
  simpa using this

/-- C88 fails for masked permutations of more than one register (riscv_vector_permute_instructions.cc:82-84, 190-192,
294-296): the mask bit of an element of a further register is that of the first register's.  Here vslidedown.vi with
offset 1: element 16 is active, but not written. -/
theorem C88_mask_violated : ∃ c', vslidedown two 4 8 1#64 (maskOf two.regs false) = some c' ∧
    ¬ SlidDown two.vs two.regs c'.regs 4 8 1 false := by
  refine ⟨_, rfl, fun h => ?_⟩
  have h1 := ((h.1 16 (by unfold Body; decide) (Or.inr (by decide))).1 (by decide) (0x91#8)
    (by intro k hk; obtain rfl : k = 0 := by (have : k < 1 := hk); omega
        decide))
  have := byte_elem h1
  revert this
  decide +kernel

/-- C88 fails for vrgather (riscv_vector_permute_instructions.cc:68,91): with LMUL = 1 and a source whose number is a
multiple of 8, indices from VLMAX to 8 VLMAX - 1 read the registers behind it instead of giving 0. -/
theorem C88_gather_range_violated : ∃ c', vrgather one 4 8 (.scalar 17#64) (maskOf one.regs true) = some c' ∧
    ¬ Gathered (n1 := one.vs.sew) one.vs one.regs c'.regs 4 8 (.scalar 17#64) true := by
  refine ⟨_, rfl, fun h => ?_⟩
  have h1 := (h.1 0 17 (by unfold Body; decide) (Or.inl rfl) rfl).2 (by decide)
  have : _ = 0#8 := byte_elem h1
  revert this
  decide +kernel

/-- C88 fails for vrgather on RV64 (riscv_vector_permute_instructions.cc:86-94): an index of 2^32 reads element 0. -/
theorem C88_gather_index_violated : ∃ c', vrgather one 4 8 (.scalar 0x100000000#64) (maskOf one.regs true) = some c' ∧
    ¬ Gathered (n1 := one.vs.sew) one.vs one.regs c'.regs 4 8 (.scalar 0x100000000#64) true := by
  refine ⟨_, rfl, fun h => ?_⟩
  have h1 := (h.1 0 0x100000000 (by unfold Body; decide) (Or.inl rfl) rfl).2 (by decide)
  have : _ = 0#8 := byte_elem h1
  revert this
  decide +kernel

/-- C88 fails for vcompress with a vstart other than 0 (riscv_vector_permute_instructions.cc:409-415): the
specification wants it refused; the simulator packs the elements from vstart on, starting at element 0. -/
theorem C88_compress_vstart_violated (c : VCore) (n vd vs2 vs1 : Nat) (h : c.vs.exception = false)
    (_ : c.vs.vstart ≠ 0) (he : c.vs.vlenb / n ≠ 0)
    (hg : ¬ groupSize vd < max 1 ((c.vs.vl + c.vs.vlenb / n - 1) / (c.vs.vlenb / n))) :
    ∃ c', compress c n vd vs2 vs1 = some c' ∧ c'.vs.exception = false ∧ c'.vs.vstart = 0 := by
  refine ⟨⟨{ c.vs with vstart := 0 }, (compressLoop c.vs.vlenb n vd vs2 (c.regs vs1)
      (c.vs.vl - c.vs.vstart) c.vs.vstart { regs := c.regs }).submit vd⟩, ?_, ?_⟩
  · rw [compress, h, if_neg Bool.false_ne_true]
    simp only []
    rw [if_neg he, if_neg hg]
  · exact ⟨h, rfl⟩

/-! ### Non-vacuity -/

example := C88_gather_partial one 4 8 (.vec 6) true (config_one 4) (by decide) (by unfold Apart; decide)
  ⟨by decide, by decide, by unfold Apart; decide⟩ (by decide) (Or.inl rfl)

/-- The indices 0x60 to 0x6f of this one are not modest, those of register 0 are. -/
example : Modest one 8 1 (.vec 0) true := by
  rintro i x ⟨_, hi⟩ _ ⟨b, hb, rfl⟩
  have hlt : b.toNat < 256 := b.isLt
  have := byte_elem hb
  have hi' : i < 16 := hi
  have : b.toNat = i := by
    rw [← this]
    show (BitVec.ofNat 8 (16 * (0 + i / 16) + i % 16)).toNat = i
    rw [BitVec.toNat_ofNat]
    omega
  refine ⟨by omega, Or.inl ?_⟩
  show b.toNat < 16
  omega

example := C88_slideup_partial one 4 8 3#64 false (config_one 4) (by decide) (by unfold Apart; decide)
  (Or.inr (by decide)) (by decide) (Or.inl (by decide))

example := C88_slidedown_partial one 4 4 3#64 false (config_one 4) (Or.inl rfl) (Or.inr (by decide)) (by decide) (by decide)

example := C88_slide1up_partial false one 4 8 7#8 false (config_one 4) (Or.inl ⟨rfl, Or.inl rfl⟩) (by decide)
  (by unfold Apart; decide) (Or.inr (by decide))

example := C88_slide1up_violated false one 4 8 7#8 true (config_one 4) (Or.inl ⟨rfl, Or.inl rfl⟩)
  (by unfold Apart; decide) (Or.inr (by decide)) (by unfold Body; decide) (Or.inl rfl)

example := C88_slide1down_partial false one 4 4 7#8 false (config_one 4) (Or.inl ⟨rfl, Or.inl rfl⟩) (by decide)
  (Or.inl rfl) (Or.inr (by decide))

example := C88_compress_partial one 4 8 6 (config_one 4) rfl (by unfold Apart; decide)

example := C88_slide1up_partial false two 4 8 7#8 true config_two (Or.inl ⟨rfl, Or.inl rfl⟩) (by decide)
  (by unfold Apart; decide) (Or.inl rfl)

/-- vcompress.vm v4, v8, v6 selects the elements 5 and 6 first (v6 starts with 0x60, 0x61). -/
example : (vcompress one 4 8 6).map (fun c => (c.regs 4 0, c.regs 4 1, c.regs 4 2, c.regs 4 5))
    = some (0x85#8, 0x86#8, 0x88#8, 0x45#8) := by decide +kernel

end Verif.VecPerm
