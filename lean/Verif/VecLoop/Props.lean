import Verif.VecLoop.Lemmas
import Verif.VecLoop.Spec
namespace Verif.VecLoop
open Verif.VecState Spec

theorem div_epv {vlenb n : Nat} (hn : 0 < n) (hd : n ∣ vlenb) (i : Nat) : i / (vlenb / n) = i * n / vlenb := by
  obtain ⟨q, rfl⟩ := hd
  rw [Nat.mul_div_cancel_left _ hn, Nat.mul_comm n q, Nat.mul_div_mul_right _ _ hn]

theorem mod_epv {vlenb n : Nat} (hn : 0 < n) (hd : n ∣ vlenb) (i : Nat) : i % (vlenb / n) * n = i * n % vlenb := by
  obtain ⟨q, rfl⟩ := hd
  rw [Nat.mul_div_cancel_left _ hn, Nat.mul_comm n q, Nat.mul_mod_mul_right]

/-- Where byte `k` of element `i` lives. -/
theorem place {vlenb n : Nat} (hn : 0 < n) (hd : n ∣ vlenb) (hv : 0 < vlenb) (i k : Nat) (hk : k < n) :
    (i * n + k) / vlenb = i / (vlenb / n) ∧ (i * n + k) % vlenb = i % (vlenb / n) * n + k := by
  have h1 := div_epv hn hd i
  have h2 := mod_epv hn hd i
  have h3 := Nat.div_add_mod (i * n) vlenb
  have hq : 0 < vlenb / n := Nat.div_pos (Nat.le_of_dvd hv hd) hn
  have hlt : i % (vlenb / n) * n + n ≤ vlenb := by
    have := Nat.mod_lt i hq
    have h4 : (i % (vlenb / n) + 1) * n ≤ vlenb / n * n := Nat.mul_le_mul_right _ this
    rw [Nat.div_mul_cancel hd, Nat.add_mul, Nat.one_mul] at h4
    exact h4
  have e : i * n + k = vlenb * (i / (vlenb / n)) + (i % (vlenb / n) * n + k) := by rw [h1, h2]; omega
  constructor
  · have h0 : (i % (vlenb / n) * n + k) / vlenb = 0 := Nat.div_eq_of_lt (by omega)
    rw [e, Nat.mul_add_div hv, h0, Nat.add_zero]
  · rw [e, Nat.mul_add_mod, Nat.mod_eq_of_lt (by omega)]

/-- The operand accessors read the elements of the specification. -/
theorem isElem_iff {vlenb n : Nat} (hn : 0 < n) (hd : n ∣ vlenb) (hv : 0 < vlenb) (R : VRegs) (base i : Nat) (v : BitVec (8 * n)) :
    IsElem vlenb n R base i v ↔ source vlenb n R base i = v := by
  constructor
  · intro h
    apply getElem_eq
    intro k hk
    obtain ⟨p1, p2⟩ := place hn hd hv i k hk
    rw [← h k hk, p1, p2]
  · rintro rfl k hk
    obtain ⟨p1, p2⟩ := place hn hd hv i k hk
    rw [p1, p2]
    unfold source getElem
    apply BitVec.eq_of_toNat_eq
    rw [BitVec.extractLsb'_toNat, BitVec.toNat_ofNat, Nat.shiftRight_eq_div_pow, Nat.mod_eq_of_lt (leNat_lt _ _)]
    have key : ∀ (f : Nat → BitVec 8) m k, k < m → leNat f m / 2 ^ (8 * k) % 256 = (f k).toNat := by
      intro f m
      induction m generalizing f with
      | zero => intro k hk; omega
      | succ m ih =>
        intro k hk
        rw [leNat]
        have h0 := (f 0).isLt
        cases k with
        | zero => rw [Nat.mul_zero, Nat.pow_zero, Nat.div_one]; omega
        | succ k =>
          rw [show 8 * (k + 1) = 8 + 8 * k by omega, Nat.pow_add, ← Nat.div_div_eq_div_mul,
            show ((f 0).toNat + 256 * leNat (fun k => f (k + 1)) m) / 2 ^ 8 = leNat (fun k => f (k + 1)) m by omega]
          exact ih (fun k => f (k + 1)) k (by omega)
    exact (key (fun k => R (base + i / (vlenb / n)) (i % (vlenb / n) * n + k)) n k hk).symm

theorem maskBit_eq (m : Buf) (i : Nat) : maskBit m i = (m (i / 8)).getLsbD (i % 8) := by
  unfold maskBit
  rw [Nat.shiftRight_eq_div_pow, show i &&& 0b111 = i % 8 from Nat.and_two_pow_sub_one_eq_mod i 3]
  generalize m (i / 2 ^ 3) = b
  have h : i % 8 < 8 := Nat.mod_lt _ (by decide)
  generalize i % 8 = j at h
  revert b
  have : ∀ (j : Fin 8) (b : BitVec 8), decide ((b >>> j.val) &&& 1#8 ≠ 0#8) = b.getLsbD j.val := by decide
  exact this ⟨j, h⟩

theorem maskBit_iff (R : VRegs) (vm : Bool) (i : Nat) : maskBit (maskOf R vm) i = true ↔ Active R vm i := by
  rw [maskBit_eq]
  unfold maskOf Active
  cases vm
  · simp
  · have h : i % 8 < 8 := Nat.mod_lt _ (by decide)
    generalize i % 8 = j at h
    have : ∀ j : Fin 8, (0xff#8).getLsbD j.val = true := by decide
    simp [this ⟨j, h⟩]

theorem group_size {m vd : Nat} (hm : m = 1 ∨ m = 2 ∨ m = 4 ∨ m = 8) (h : vd % m = 0) : m ≤ groupSize vd := by
  unfold groupSize
  have h8 : vd % 8 < 8 := Nat.mod_lt _ (by decide)
  have hmm : vd % 8 % m = 0 := by
    rcases hm with rfl | rfl | rfl | rfl <;> omega
  generalize vd % 8 = j at *
  have : j = 0 ∨ j = 1 ∨ j = 2 ∨ j = 3 ∨ j = 4 ∨ j = 5 ∨ j = 6 ∨ j = 7 := by omega
  rcases hm with rfl | rfl | rfl | rfl <;> rcases this with rfl | rfl | rfl | rfl | rfl | rfl | rfl | rfl <;>
    first | decide | (exfalso; omega)

/-- A source group that the ISA allows is read before it is overwritten. -/
theorem source_ok {vlenb vl nd vd n vs : Nat} (hv : 0 < vlenb) (hnd : 0 < nd) (hdd : nd ∣ vlenb) (h : SourceOk vlenb vl nd vd n vs)
    (i : Nat) (hi : i < vl) : vs + i / (vlenb / n) < vd ∨ vd + i / (vlenb / nd) ≤ vs + i / (vlenb / n) := by
  obtain ⟨hn, hd, h⟩ := h
  rw [div_epv hn hd, div_epv hnd hdd]
  have lt_ceil : ∀ m, i * m / vlenb ≤ (vl * m + vlenb - 1) / vlenb ∧ (0 < m → i * m / vlenb < (vl * m + vlenb - 1) / vlenb) := by
    intro m
    refine ⟨Nat.div_le_div_right (by have := Nat.mul_le_mul_right m (Nat.le_of_lt hi); omega), fun hm => ?_⟩
    have h1 : i * m + m ≤ vl * m := by
      have := Nat.mul_le_mul_right m (show i + 1 ≤ vl from hi); rw [Nat.add_mul, Nat.one_mul] at this; exact this
    have : i * m / vlenb + 1 ≤ (vl * m + vlenb - 1) / vlenb := by
      rw [Nat.le_div_iff_mul_le hv, Nat.add_mul, Nat.one_mul]
      have := Nat.div_mul_le_self (i * m) vlenb
      omega
    exact this
  rcases h with (h | h) | ⟨rfl, hle⟩ | ⟨⟨q, hq⟩, m, hm, hvs⟩
  · left; have := (lt_ceil n).2 hn; omega
  · right
    have := (lt_ceil nd).2 hnd
    generalize i * n / vlenb = y
    omega
  · right
    have : i * nd / vlenb ≤ i * n / vlenb := Nat.div_le_div_right (Nat.mul_le_mul_left _ hle)
    omega
  · right
    -- i = a * (vlenb / n) + b
    have hqn : nd / n = q := by rw [hq]; exact Nat.mul_div_cancel_left _ hn
    rw [hqn] at hvs
    have hq1 : 1 ≤ q := by
      rcases Nat.eq_zero_or_pos q with h | h
      · rw [h] at hq; omega
      · exact h
    have ha : i * n / vlenb < m := by
      rw [Nat.div_lt_iff_lt_mul hv]
      have := Nat.mul_lt_mul_of_pos_right hi hn
      omega
    have hb : i * nd / vlenb < (i * n / vlenb + 1) * q := by
      rw [Nat.div_lt_iff_lt_mul hv, hq, ← Nat.mul_assoc]
      have h1 : i * n < (i * n / vlenb + 1) * vlenb := by
        rw [Nat.add_mul, Nat.one_mul]
        have h2 := Nat.div_add_mod (i * n) vlenb
        have h3 := Nat.mod_lt (i * n) hv
        rw [Nat.mul_comm vlenb] at h2
        omega
      have := Nat.mul_lt_mul_of_pos_right h1 hq1
      calc i * n * q < (i * n / vlenb + 1) * vlenb * q := this
        _ = (i * n / vlenb + 1) * q * vlenb := by rw [Nat.mul_assoc, Nat.mul_comm vlenb q, Nat.mul_assoc]
    generalize i * n / vlenb = a at *
    generalize i * nd / vlenb = b at *
    -- b < (a+1) q, a < m, want b ≤ m q - m + a
    have h1 : (m - a - 1) * 1 ≤ (m - a - 1) * q := Nat.mul_le_mul_left _ hq1
    have h2 : m * q = (m - a - 1) * q + (a + 1) * q := by rw [← Nat.add_mul]; congr 1; omega
    omega


/-- What an element-wise instruction does: `val i` is the value element `i` receives, if any. -/
theorem elementwise_elems {σ : Type} (c : VCore) (ns : List Nat) (nd vd : Nat)
    (f : VRegs → Nat → σ → Option (BitVec (8 * nd)) × σ) (val : Nat → Option (BitVec (8 * nd))) (st : Nat → σ)
    (hr : Ready c.vs ns nd vd)
    (hind : ∀ e R s, c.vs.vstart ≤ e → e < c.vs.vl →
      (∀ r, (r < vd ∨ vd + e / (c.vs.vlenb / nd) ≤ r) → R r = c.regs r) → f R e s = f c.regs e s)
    (h : ∀ e, c.vs.vstart ≤ e → e < c.vs.vl → f c.regs e (st e) = (val e, st (e + 1))) :
    ∃ c', elementwise c ns nd vd f (st c.vs.vstart) = some (c', st (max c.vs.vstart c.vs.vl))
      ∧ c'.vs = { c.vs with vstart := 0 }
      ∧ (∀ i v, c.vs.vstart ≤ i → i < c.vs.vl → val i = some v → IsElem c.vs.vlenb nd c'.regs vd i v)
      ∧ Undisturbed c.vs.vlenb nd vd (fun i => c.vs.vstart ≤ i ∧ i < c.vs.vl ∧ (val i).isSome) c.regs c'.regs := by
  obtain ⟨hok, hsew, hemul, ⟨hnd, hdd, hv⟩, m, hm, hmod, hvl⟩ := hr
  have hq : 0 < c.vs.vlenb / nd := Nat.div_pos (Nat.le_of_dvd hv hdd) hnd
  have hgs := group_size hm hmod
  have hspec := elementwise_spec c ns nd vd f val st hok hsew
    (fun n hn => by
      obtain ⟨h1, h2⟩ := hemul n hn
      refine ⟨(Nat.le_div_iff_mul_le hsew).2 (by omega), ?_⟩
      exact Nat.div_le_of_le_mul (by omega))
    hq
    (by
      have h1 : c.vs.vl * nd ≤ groupSize vd * (c.vs.vlenb / nd) * nd := by
        rw [Nat.mul_assoc, Nat.div_mul_cancel hdd]
        exact Nat.le_trans hvl (Nat.mul_le_mul_right _ hgs)
      exact Nat.le_of_mul_le_mul_right h1 hnd)
    hind h
  refine ⟨_, hspec, rfl, ?_, ?_⟩
  · intro i v h1 h2 h3
    rw [isElem_iff hnd hdd hv, source_updR _ _ _ hnd hq, if_pos ⟨h1, h2⟩, h3]
    rfl
  · intro r x hx hno
    show updR nd (c.vs.vlenb / nd) vd val c.vs.vstart c.vs.vl c.regs r x = _
    unfold updR
    by_cases hc : vd ≤ r ∧ x / nd < c.vs.vlenb / nd ∧ c.vs.vstart ≤ (r - vd) * (c.vs.vlenb / nd) + x / nd
        ∧ (r - vd) * (c.vs.vlenb / nd) + x / nd < c.vs.vl
    · rw [if_pos hc]
      cases hval : val ((r - vd) * (c.vs.vlenb / nd) + x / nd) with
      | none => rfl
      | some v =>
        exfalso
        apply hno
        refine ⟨_, ⟨hc.2.2.1, hc.2.2.2, by rw [hval]; rfl⟩, x % nd, Nat.mod_lt _ hnd, ?_⟩
        obtain ⟨p1, p2⟩ := place hnd hdd hv ((r - vd) * (c.vs.vlenb / nd) + x / nd) (x % nd) (Nat.mod_lt _ hnd)
        have e1 : ((r - vd) * (c.vs.vlenb / nd) + x / nd) / (c.vs.vlenb / nd) = r - vd := by
          rw [Nat.mul_comm, Nat.mul_add_div hq, Nat.div_eq_of_lt hc.2.1, Nat.add_zero]
        have e2 : ((r - vd) * (c.vs.vlenb / nd) + x / nd) % (c.vs.vlenb / nd) = x / nd := by
          rw [Nat.mul_comm, Nat.mul_add_mod, Nat.mod_eq_of_lt hc.2.1]
        rw [p1, p2, e1, e2]
        have := Nat.div_add_mod x nd
        rw [Nat.mul_comm] at this
        omega
    · rw [if_neg hc]

/-- The states of an operation that collects something (flags, saturation) along the body. -/
def states {σ : Type} (f : Nat → σ → σ) (lo : Nat) (s : σ) : Nat → σ
  | 0 => s
  | i + 1 => if lo ≤ i then f i (states f lo s i) else s

theorem states_lo {σ : Type} (f : Nat → σ → σ) (lo : Nat) (s : σ) : ∀ i, i ≤ lo → states f lo s i = s
  | 0, _ => rfl
  | i + 1, h => by rw [states, if_neg (by omega)]

/-- Source 1 satisfies the overlap rule (scalars always do). -/
def SrcOk {n1 : Nat} (s : VState) (nd vd : Nat) : Src n1 → Prop
  | .vec vs => SourceOk s.vlenb s.vl nd vd n1 vs
  | .scalar _ => True

/-- Operand 1 of element `i` in the specification's terms. -/
def SrcIs {n1 : Nat} (s : VState) (R : VRegs) (i : Nat) : Src n1 → BitVec (8 * n1) → Prop
  | .vec vs, v => IsElem s.vlenb n1 R vs i v
  | .scalar x, v => v = x

theorem src_get {n1 nd vd : Nat} (s : VState) (R R' : VRegs) (e : Nat) (src : Src n1) (hv : 0 < s.vlenb) (hnd : 0 < nd)
    (hdd : nd ∣ s.vlenb) (ho : SrcOk s nd vd src) (he : e < s.vl)
    (hR : ∀ r, (r < vd ∨ vd + e / (s.vlenb / nd) ≤ r) → R' r = R r) : src.get s.vlenb R' e = src.get s.vlenb R e := by
  cases src with
  | scalar x => rfl
  | vec vs => exact source_congr _ _ _ _ _ _ (hR _ (source_ok hv hnd hdd ho e he))

theorem src_is {n1 nd vd : Nat} (s : VState) (R : VRegs) (i : Nat) (src : Src n1) (hv : 0 < s.vlenb) (ho : SrcOk s nd vd src)
    (v : BitVec (8 * n1)) : SrcIs s R i src v ↔ src.get s.vlenb R i = v := by
  cases src with
  | scalar x => exact ⟨fun h => h.symm, fun h => h.symm⟩
  | vec vs => exact isElem_iff ho.1 ho.2.1 hv R vs i v

/-- **C44 (binary).** Every active body element receives the operation's result on the original operands; all
other bytes of the register file keep their values; vstart is cleared.  The operation may also update a state
(flags, vxsat): it is applied along the active elements in order. -/
theorem C44_binary {σ : Type} (c : VCore) (nd n2 n1 vd vs2 : Nat) (src1 : Src n1) (vm : Bool)
    (op : BitVec (8 * n2) → BitVec (8 * n1) → σ → BitVec (8 * nd) × σ) (s : σ)
    (hr : Ready c.vs [nd, n2, n1] nd vd) (h2 : SourceOk c.vs.vlenb c.vs.vl nd vd n2 vs2) (h1 : SrcOk c.vs nd vd src1) :
    ∃ (c' : VCore) (st : Nat → σ), binary c nd n2 n1 vd vs2 src1 (maskOf c.regs vm) op s = some (c', st (max c.vs.vstart c.vs.vl))
      ∧ c'.vs = { c.vs with vstart := 0 } ∧ st c.vs.vstart = s
      ∧ (∀ i a b, c.vs.vstart ≤ i → i < c.vs.vl → Active c.regs vm i → IsElem c.vs.vlenb n2 c.regs vs2 i a → SrcIs c.vs c.regs i src1 b →
          IsElem c.vs.vlenb nd c'.regs vd i (op a b (st i)).1 ∧ st (i + 1) = (op a b (st i)).2)
      ∧ (∀ i, c.vs.vstart ≤ i → i < c.vs.vl → ¬ Active c.regs vm i → st (i + 1) = st i)
      ∧ Undisturbed c.vs.vlenb nd vd (fun i => c.vs.vstart ≤ i ∧ i < c.vs.vl ∧ Active c.regs vm i) c.regs c'.regs := by
  obtain ⟨hnd, hdd, hv⟩ := hr.size
  let A := fun i => source c.vs.vlenb n2 c.regs vs2 i
  let B := fun i => src1.get c.vs.vlenb c.regs i
  let M := fun i => maskBit (maskOf c.regs vm) i
  let st := states (fun i s => if M i then (op (A i) (B i) s).2 else s) c.vs.vstart s
  have hst : ∀ i, c.vs.vstart ≤ i → st (i + 1) = if M i then (op (A i) (B i) (st i)).2 else st i := by
    intro i hi
    show states _ _ _ (i + 1) = _
    rw [states, if_pos hi]
  have hs0 : st c.vs.vstart = s := states_lo _ _ _ _ (Nat.le_refl _)
  obtain ⟨c', e1, e2, e3, e4⟩ := elementwise_elems c [nd, n2, n1] nd vd
    (fun R i s => if maskBit (maskOf c.regs vm) i then
      (some (op (source c.vs.vlenb n2 R vs2 i) (src1.get c.vs.vlenb R i) s).1, (op (source c.vs.vlenb n2 R vs2 i) (src1.get c.vs.vlenb R i) s).2)
      else (none, s))
    (fun i => if M i then some (op (A i) (B i) (st i)).1 else none) st hr
    (by
      intro e R s _ he hR
      have g2 : source c.vs.vlenb n2 R vs2 e = source c.vs.vlenb n2 c.regs vs2 e :=
        source_congr _ _ _ _ _ _ (hR _ (source_ok hv hnd hdd h2 e he))
      have g1 := src_get (nd := nd) (vd := vd) c.vs c.regs R e src1 hv hnd hdd h1 he hR
      simp only [g1, g2])
    (by
      intro e he _
      rw [hst e he]
      show (if M e then _ else _) = _
      cases M e <;> rfl)
  rw [hs0] at e1
  refine ⟨c', st, e1, e2, hs0, ?_, ?_, ?_⟩
  · intro i a b i1 i2 ha hA hB
    have hM : M i = true := (maskBit_iff _ _ _).2 ha
    have hA' : A i = a := (isElem_iff h2.1 h2.2.1 hv _ _ _ _).1 hA
    have hB' : B i = b := (src_is (nd := nd) (vd := vd) c.vs c.regs i src1 hv h1 b).1 hB
    refine ⟨?_, ?_⟩
    · apply e3 i _ i1 i2
      rw [hM, hA', hB']; rfl
    · rw [hst i i1, hM, hA', hB']; rfl
  · intro i i1 _ hna
    have hM : M i = false := by
      cases hM : M i with
      | false => rfl
      | true => exact absurd ((maskBit_iff _ _ _).1 hM) hna
    rw [hst i i1, hM]; rfl
  · intro r x hx hno
    apply e4 r x hx
    rintro ⟨i, ⟨i1, i2, i3⟩, hcov⟩
    apply hno
    refine ⟨i, ⟨i1, i2, (maskBit_iff _ _ _).1 ?_⟩, hcov⟩
    show M i = true
    cases hM : M i with
    | true => rfl
    | false => rw [hM] at i3; cases i3


/-- **C44 (mask as operand).** vmerge, vadc, vsbc: the mask bit is an operand; the elements for which the
operation yields a value receive it. -/
theorem C44_mask_binary (c : VCore) (nd n2 n1 vd vs2 : Nat) (src1 : Src n1) (vm : Bool)
    (op : BitVec (8 * n2) → BitVec (8 * n1) → Bool → Option (BitVec (8 * nd)))
    (hr : Ready c.vs [nd, n2, n1] nd vd) (h2 : SourceOk c.vs.vlenb c.vs.vl nd vd n2 vs2) (h1 : SrcOk c.vs nd vd src1) :
    ∃ c' : VCore, maskBinary c nd n2 n1 vd vs2 src1 (maskOf c.regs vm) (fun a b m (_ : Unit) => (op a b m, ())) () = some (c', ())
      ∧ c'.vs = { c.vs with vstart := 0 }
      ∧ (∀ i a b m v, c.vs.vstart ≤ i → i < c.vs.vl → (m = true ↔ Active c.regs vm i) → IsElem c.vs.vlenb n2 c.regs vs2 i a →
          SrcIs c.vs c.regs i src1 b → op a b m = some v → IsElem c.vs.vlenb nd c'.regs vd i v)
      ∧ Undisturbed c.vs.vlenb nd vd (fun i => c.vs.vstart ≤ i ∧ i < c.vs.vl ∧ ∃ a b m, (m = true ↔ Active c.regs vm i)
          ∧ IsElem c.vs.vlenb n2 c.regs vs2 i a ∧ SrcIs c.vs c.regs i src1 b ∧ (op a b m).isSome) c.regs c'.regs := by
  obtain ⟨hnd, hdd, hv⟩ := hr.size
  let A := fun i => source c.vs.vlenb n2 c.regs vs2 i
  let B := fun i => src1.get c.vs.vlenb c.regs i
  let M := fun i => maskBit (maskOf c.regs vm) i
  obtain ⟨c', e1, e2, e3, e4⟩ := elementwise_elems c [nd, n2, n1] nd vd
    (fun R i (_ : Unit) => (op (source c.vs.vlenb n2 R vs2 i) (src1.get c.vs.vlenb R i) (maskBit (maskOf c.regs vm) i), ()))
    (fun i => op (A i) (B i) (M i)) (fun _ => ()) hr
    (by
      intro e R s _ he hR
      have g2 : source c.vs.vlenb n2 R vs2 e = source c.vs.vlenb n2 c.regs vs2 e :=
        source_congr _ _ _ _ _ _ (hR _ (source_ok hv hnd hdd h2 e he))
      have g1 := src_get (nd := nd) (vd := vd) c.vs c.regs R e src1 hv hnd hdd h1 he hR
      simp only [g1, g2])
    (fun e _ _ => rfl)
  have hM : ∀ i, M i = true ↔ Active c.regs vm i := fun i => maskBit_iff _ _ _
  refine ⟨c', e1, e2, ?_, ?_⟩
  · intro i a b m v i1 i2 hm hA hB hop
    have hA' : A i = a := (isElem_iff h2.1 h2.2.1 hv _ _ _ _).1 hA
    have hB' : B i = b := (src_is (nd := nd) (vd := vd) c.vs c.regs i src1 hv h1 b).1 hB
    have hM' : M i = m := by rw [Bool.eq_iff_iff, hM, hm]
    exact e3 i v i1 i2 (by rw [hA', hB', hM']; exact hop)
  · intro r x hx hno
    apply e4 r x hx
    rintro ⟨i, ⟨i1, i2, i3⟩, hcov⟩
    exact hno ⟨i, ⟨i1, i2, A i, B i, M i, hM i, (isElem_iff h2.1 h2.2.1 hv _ _ _ _).2 rfl,
      (src_is (nd := nd) (vd := vd) c.vs c.regs i src1 hv h1 _).2 rfl, i3⟩, hcov⟩

/-- **C44 (unary).** -/
theorem C44_unary {σ : Type} (c : VCore) (nd n2 vd vs2 : Nat) (vm : Bool)
    (op : BitVec (8 * n2) → σ → BitVec (8 * nd) × σ) (s : σ)
    (hr : Ready c.vs [nd, n2] nd vd) (h2 : SourceOk c.vs.vlenb c.vs.vl nd vd n2 vs2) :
    ∃ (c' : VCore) (st : Nat → σ), unary c nd n2 vd vs2 (maskOf c.regs vm) op s = some (c', st (max c.vs.vstart c.vs.vl))
      ∧ c'.vs = { c.vs with vstart := 0 } ∧ st c.vs.vstart = s
      ∧ (∀ i a, c.vs.vstart ≤ i → i < c.vs.vl → Active c.regs vm i → IsElem c.vs.vlenb n2 c.regs vs2 i a →
          IsElem c.vs.vlenb nd c'.regs vd i (op a (st i)).1 ∧ st (i + 1) = (op a (st i)).2)
      ∧ (∀ i, c.vs.vstart ≤ i → i < c.vs.vl → ¬ Active c.regs vm i → st (i + 1) = st i)
      ∧ Undisturbed c.vs.vlenb nd vd (fun i => c.vs.vstart ≤ i ∧ i < c.vs.vl ∧ Active c.regs vm i) c.regs c'.regs := by
  obtain ⟨hnd, hdd, hv⟩ := hr.size
  let A := fun i => source c.vs.vlenb n2 c.regs vs2 i
  let M := fun i => maskBit (maskOf c.regs vm) i
  let st := states (fun i s => if M i then (op (A i) s).2 else s) c.vs.vstart s
  have hst : ∀ i, c.vs.vstart ≤ i → st (i + 1) = if M i then (op (A i) (st i)).2 else st i := by
    intro i hi
    show states _ _ _ (i + 1) = _
    rw [states, if_pos hi]
  have hs0 : st c.vs.vstart = s := states_lo _ _ _ _ (Nat.le_refl _)
  have hM : ∀ i, M i = true ↔ Active c.regs vm i := fun i => maskBit_iff _ _ _
  obtain ⟨c', e1, e2, e3, e4⟩ := elementwise_elems c [nd, n2] nd vd
    (fun R i s => if maskBit (maskOf c.regs vm) i then
      (some (op (source c.vs.vlenb n2 R vs2 i) s).1, (op (source c.vs.vlenb n2 R vs2 i) s).2) else (none, s))
    (fun i => if M i then some (op (A i) (st i)).1 else none) st hr
    (by
      intro e R s _ he hR
      have g2 : source c.vs.vlenb n2 R vs2 e = source c.vs.vlenb n2 c.regs vs2 e :=
        source_congr _ _ _ _ _ _ (hR _ (source_ok hv hnd hdd h2 e he))
      simp only [g2])
    (by
      intro e he _
      rw [hst e he]
      show (if M e then _ else _) = _
      cases M e <;> rfl)
  rw [hs0] at e1
  refine ⟨c', st, e1, e2, hs0, ?_, ?_, ?_⟩
  · intro i a i1 i2 ha hA
    have hM' : M i = true := (hM i).2 ha
    have hA' : A i = a := (isElem_iff h2.1 h2.2.1 hv _ _ _ _).1 hA
    refine ⟨?_, ?_⟩
    · apply e3 i _ i1 i2
      rw [hM', hA']; rfl
    · rw [hst i i1, hM', hA']; rfl
  · intro i i1 _ hna
    have hM' : M i = false := by rw [← Bool.not_eq_true, hM]; exact hna
    rw [hst i i1, hM']; rfl
  · intro r x hx hno
    apply e4 r x hx
    rintro ⟨i, ⟨i1, i2, i3⟩, hcov⟩
    refine hno ⟨i, ⟨i1, i2, (hM i).1 ?_⟩, hcov⟩
    cases hM' : M i with
    | true => rfl
    | false => rw [hM'] at i3; cases i3

/-- **C44 (ternary).** Multiply-add instructions: the destination's old element is the third operand. -/
theorem C44_ternary (c : VCore) (nd n2 n1 vd vs2 : Nat) (src1 : Src n1) (vm : Bool)
    (op : BitVec (8 * n2) → BitVec (8 * n1) → BitVec (8 * nd) → BitVec (8 * nd))
    (hr : Ready c.vs [nd, n2, n1] nd vd) (h2 : SourceOk c.vs.vlenb c.vs.vl nd vd n2 vs2) (h1 : SrcOk c.vs nd vd src1) :
    ∃ c' : VCore, ternary c nd n2 n1 vd vs2 src1 (maskOf c.regs vm) op = some c'
      ∧ c'.vs = { c.vs with vstart := 0 }
      ∧ (∀ i a b d, c.vs.vstart ≤ i → i < c.vs.vl → Active c.regs vm i → IsElem c.vs.vlenb n2 c.regs vs2 i a → SrcIs c.vs c.regs i src1 b →
          IsElem c.vs.vlenb nd c.regs vd i d → IsElem c.vs.vlenb nd c'.regs vd i (op a b d))
      ∧ Undisturbed c.vs.vlenb nd vd (fun i => c.vs.vstart ≤ i ∧ i < c.vs.vl ∧ Active c.regs vm i) c.regs c'.regs := by
  obtain ⟨hnd, hdd, hv⟩ := hr.size
  let A := fun i => source c.vs.vlenb n2 c.regs vs2 i
  let B := fun i => src1.get c.vs.vlenb c.regs i
  let D := fun i => source c.vs.vlenb nd c.regs vd i
  let M := fun i => maskBit (maskOf c.regs vm) i
  have hM : ∀ i, M i = true ↔ Active c.regs vm i := fun i => maskBit_iff _ _ _
  obtain ⟨c', e1, e2, e3, e4⟩ := elementwise_elems c [nd, n2, n1] nd vd
    (fun R i (_ : Unit) => (if maskBit (maskOf c.regs vm) i then
      some (op (source c.vs.vlenb n2 R vs2 i) (src1.get c.vs.vlenb R i) (source c.vs.vlenb nd R vd i)) else none, ()))
    (fun i => if M i then some (op (A i) (B i) (D i)) else none) (fun _ => ()) hr
    (by
      intro e R s _ he hR
      have g2 : source c.vs.vlenb n2 R vs2 e = source c.vs.vlenb n2 c.regs vs2 e :=
        source_congr _ _ _ _ _ _ (hR _ (source_ok hv hnd hdd h2 e he))
      have g1 := src_get (nd := nd) (vd := vd) c.vs c.regs R e src1 hv hnd hdd h1 he hR
      have g0 : source c.vs.vlenb nd R vd e = source c.vs.vlenb nd c.regs vd e :=
        source_congr _ _ _ _ _ _ (hR _ (Or.inr (Nat.le_refl _)))
      simp only [g0, g1, g2])
    (fun e _ _ => rfl)
  refine ⟨c', ?_, e2, ?_, ?_⟩
  · unfold ternary; rw [e1]; rfl
  · intro i a b d i1 i2 ha hA hB hD
    have hM' : M i = true := (hM i).2 ha
    have hA' : A i = a := (isElem_iff h2.1 h2.2.1 hv _ _ _ _).1 hA
    have hB' : B i = b := (src_is (nd := nd) (vd := vd) c.vs c.regs i src1 hv h1 b).1 hB
    have hD' : D i = d := (isElem_iff hnd hdd hv _ _ _ _).1 hD
    exact e3 i _ i1 i2 (by rw [hM', hA', hB', hD']; rfl)
  · intro r x hx hno
    apply e4 r x hx
    rintro ⟨i, ⟨i1, i2, i3⟩, hcov⟩
    refine hno ⟨i, ⟨i1, i2, (hM i).1 ?_⟩, hcov⟩
    cases hM' : M i with
    | true => rfl
    | false => rw [hM'] at i3; cases i3

/-- C44: an instruction that is not legal in the configuration sets the exception flag and changes no register;
with the flag set, instructions have no effect at all. -/
theorem C44_refused {σ : Type} (c : VCore) (ns : List Nat) (nd vd : Nat) (f : VRegs → Nat → σ → Option (BitVec (8 * nd)) × σ) (s : σ) :
    (c.vs.exception = true → elementwise c ns nd vd f s = some (c, s))
    ∧ (∀ n ∈ ns, 0 < c.vs.sew → (c.vs.lmul8 * n < c.vs.sew ∨ 65 * c.vs.sew ≤ c.vs.lmul8 * n) → c.vs.exception = false →
        elementwise c ns nd vd f s = some ({ c with vs := { c.vs with exception := true } }, s)) := by
  constructor
  · intro h; unfold elementwise; rw [if_pos h]
  · intro n hn hs hbad h
    unfold elementwise
    have hany : ((ns.map fun n => c.vs.lmul8 * n / c.vs.sew).any fun l => decide (l > 64) || l == 0) = true := by
      rw [List.any_eq_true]
      refine ⟨_, List.mem_map.mpr ⟨n, hn, rfl⟩, ?_⟩
      rcases hbad with hb | hb
      · rw [Nat.div_eq_of_lt hb]; rfl
      · have : 65 ≤ c.vs.lmul8 * n / c.vs.sew := (Nat.le_div_iff_mul_le hs).2 hb
        simp; left; omega
    rw [h]
    simp only [Bool.false_eq_true, if_false, hany]
    rw [if_neg (by omega)]
    rfl

/-! ### Non-vacuity -/

/-- VLEN = 128, SEW = 16 bits, LMUL = 2. -/
def cfg : VState := { vlenb := 16, vtype := 0x9#32, vl := 11, vmax := 16, lmul8 := 16, sew := 2, vstart := 2 }
def core : VCore := { vs := cfg, regs := fun r x => BitVec.ofNat 8 (16 * r + x) }

theorem ready_core : Ready core.vs [2, 2, 2] 2 4 :=
  ⟨rfl, by decide, by intro n hn; have : n = 2 := by simpa using hn
                      subst this; decide, by decide, 2, by decide, by decide, by decide⟩

/-- vadd.vv v4, v4, v2 with v0 as mask. -/
example := C44_binary core 2 2 2 4 4 (.vec 2) false (fun a b (_ : Unit) => (a + b, ())) () ready_core
  ⟨by decide, by decide, Or.inr (Or.inl ⟨rfl, by decide⟩)⟩ ⟨by decide, by decide, Or.inl (by decide)⟩

/-- vwadd.vv v4, v6, v2: the source at the highest registers of the destination. -/
example : SourceOk 16 11 4 4 2 6 := ⟨by decide, by decide, Or.inr (Or.inr ⟨by decide, 2, by decide, by decide⟩)⟩

end Verif.VecLoop
