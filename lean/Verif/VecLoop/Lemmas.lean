import Verif.VecLoop.Model
namespace Verif.VecLoop
open Verif.VecState

theorem leNat_lt (f : Nat → BitVec 8) (n : Nat) : leNat f n < 2 ^ (8 * n) := by
  induction n generalizing f with
  | zero => exact Nat.zero_lt_one
  | succ n ih =>
    have h0 := (f 0).isLt
    have h1 := ih (fun k => f (k + 1))
    rw [leNat, show 2 ^ (8 * (n + 1)) = 256 * 2 ^ (8 * n) by rw [Nat.mul_add, Nat.pow_add, Nat.mul_comm]]
    omega

theorem leNat_congr {f g : Nat → BitVec 8} {n : Nat} (h : ∀ k, k < n → f k = g k) : leNat f n = leNat g n := by
  induction n generalizing f g with
  | zero => rfl
  | succ n ih => rw [leNat, leNat, h 0 (by omega), ih (fun k hk => h (k + 1) (by omega))]

theorem leNat_bytes (v : Nat) (n : Nat) : leNat (fun k => BitVec.ofNat 8 (v / 2 ^ (8 * k))) n = v % 2 ^ (8 * n) := by
  induction n generalizing v with
  | zero => rw [leNat]; exact (Nat.mod_one v).symm
  | succ n ih =>
    rw [leNat]
    have : (fun k => BitVec.ofNat 8 (v / 2 ^ (8 * (k + 1)))) = fun k => BitVec.ofNat 8 (v / 256 / 2 ^ (8 * k)) := by
      funext k
      rw [Nat.div_div_eq_div_mul, show 8 * (k + 1) = 8 + 8 * k by omega, Nat.pow_add]
    rw [this, ih, show 2 ^ (8 * (n + 1)) = 256 * 2 ^ (8 * n) by rw [Nat.mul_add, Nat.pow_add, Nat.mul_comm], Nat.mod_mul]
    simp [BitVec.toNat_ofNat]

theorem getElem_congr {n : Nat} {b b' : Buf} {i : Nat} (h : ∀ k, k < n → b (i * n + k) = b' (i * n + k)) :
    getElem n b i = getElem n b' i := by
  unfold getElem; rw [leNat_congr h]

/-- An element whose bytes are those of `v`. -/
theorem getElem_eq {n : Nat} {b : Buf} {i : Nat} {v : BitVec (8 * n)}
    (h : ∀ k, k < n → b (i * n + k) = v.extractLsb' (8 * k) 8) : getElem n b i = v := by
  unfold getElem
  rw [leNat_congr (g := fun k => BitVec.ofNat 8 (v.toNat / 2 ^ (8 * k)))]
  · rw [leNat_bytes, Nat.mod_eq_of_lt v.isLt, BitVec.ofNat_toNat, BitVec.setWidth_eq]
  · intro k hk
    rw [h k hk]
    apply BitVec.eq_of_toNat_eq
    rw [BitVec.extractLsb'_toNat, BitVec.toNat_ofNat, Nat.shiftRight_eq_div_pow]

theorem get_set {n : Nat} (hn : 0 < n) (b : Buf) (i j : Nat) (v : BitVec (8 * n)) :
    getElem n (setElem n b i v) j = if j = i then v else getElem n b j := by
  have hd : ∀ k, k < n → (j * n + k) / n = j ∧ (j * n + k) % n = k := by
    intro k hk
    constructor
    · rw [Nat.mul_comm, Nat.mul_add_div hn, Nat.div_eq_of_lt hk]; omega
    · rw [Nat.mul_comm, Nat.mul_add_mod]; exact Nat.mod_eq_of_lt hk
  by_cases h : j = i
  · rw [if_pos h]
    apply getElem_eq
    intro k hk
    unfold setElem
    rw [(hd k hk).1, (hd k hk).2, if_pos h]
  · rw [if_neg h]
    apply getElem_congr
    intro k hk
    unfold setElem
    rw [(hd k hk).1, if_neg h]

/-! ### The loops -/

/-- The buffer of the register whose first element is element `o` of the group, after the elements from `lo` to
below `hi` have received their values. -/
def updB (nd : Nat) (val : Nat → Option (BitVec (8 * nd))) (o lo hi : Nat) (b : Buf) : Buf :=
  fun x => if lo ≤ o + x / nd ∧ o + x / nd < hi then
    match val (o + x / nd) with
    | some v => v.extractLsb' (8 * (x % nd)) 8
    | none => b x
  else b x

theorem inner_spec {σ : Type} (nd num : Nat) (f : Nat → σ → Option (BitVec (8 * nd)) × σ)
    (val : Nat → Option (BitVec (8 * nd))) (st : Nat → σ) (k o i vi : Nat) (b : Buf) (hvi : vi = o + i) (hlt : vi ≤ num)
    (h : ∀ e, vi ≤ e → e < num → e < vi + k → f e (st e) = (val e, st (e + 1))) :
    inner nd num f k i vi b (st vi) = (updB nd val o vi (min num (vi + k)) b, min num (vi + k), st (min num (vi + k))) := by
  induction k generalizing i vi b with
  | zero =>
    rw [inner, Nat.add_zero, Nat.min_eq_right hlt]
    congr 1
    funext x
    unfold updB
    rw [if_neg (by omega)]
  | succ k ih =>
    rw [inner]
    by_cases hc : vi < num
    · rw [if_pos hc]
      have h0 := h vi (Nat.le_refl _) hc (by omega)
      simp only [h0]
      rw [ih (i + 1) (vi + 1) _ (by omega) (by omega) (fun e h1 h2 h3 => h e (by omega) h2 (by omega))]
      rw [show vi + 1 + k = vi + (k + 1) by omega]
      congr 1
      funext x
      unfold updB
      by_cases he : o + x / nd = vi
      · rw [if_neg (by omega), if_pos (by omega), he]
        cases val vi with
        | none => rfl
        | some v =>
          show setElem nd b i v x = _
          unfold setElem
          rw [if_pos (by omega)]
      · by_cases h2 : vi + 1 ≤ o + x / nd ∧ o + x / nd < min num (vi + (k + 1))
        · rw [if_pos h2, if_pos (by omega)]
          cases val (o + x / nd) with
          | some v => rfl
          | none =>
            show (match val vi with | some v => setElem nd b i v | none => b) x = b x
            cases val vi with
            | none => rfl
            | some v => show setElem nd b i v x = _; unfold setElem; rw [if_neg (by omega)]
        · rw [if_neg h2, if_neg (by omega)]
          cases val vi with
          | none => rfl
          | some v => show setElem nd b i v x = _; unfold setElem; rw [if_neg (by omega)]
    · rw [if_neg hc]
      have hm : min num (vi + (k + 1)) = vi := by omega
      rw [hm]
      congr 1
      funext x
      unfold updB
      rw [if_neg (by omega)]

/-- The register file after the elements from `lo` to below `hi` of the group at `vd` have received their
values. -/
def updR (nd epv vd : Nat) (val : Nat → Option (BitVec (8 * nd))) (lo hi : Nat) (R : VRegs) : VRegs :=
  fun r x => if vd ≤ r ∧ x / nd < epv ∧ lo ≤ (r - vd) * epv + x / nd ∧ (r - vd) * epv + x / nd < hi then
    match val ((r - vd) * epv + x / nd) with
    | some v => v.extractLsb' (8 * (x % nd)) 8
    | none => R r x
  else R r x

theorem updR_empty (nd epv vd : Nat) (val : Nat → Option (BitVec (8 * nd))) (lo hi : Nat) (R : VRegs) (h : hi ≤ lo) :
    updR nd epv vd val lo hi R = R := by
  funext r x
  unfold updR
  rw [if_neg (by omega)]

theorem outer_spec {σ : Type} (nd epv num vd : Nat) (hepv : 0 < epv)
    (f : VRegs → Nat → σ → Option (BitVec (8 * nd)) × σ) (val : Nat → Option (BitVec (8 * nd))) (st : Nat → σ)
    (R0 : VRegs) (lo : Nat)
    (hind : ∀ e R s, lo ≤ e → e < num → (∀ r, (r < vd ∨ vd + e / epv ≤ r) → R r = R0 r) → f R e s = f R0 e s)
    (h : ∀ e, lo ≤ e → e < num → f R0 e (st e) = (val e, st (e + 1)))
    (k reg item vi : Nat) (hvi : vi = reg * epv + item) (hitem : item < epv) (hfirst : item = 0 ∨ vi = lo) (hlo : lo ≤ vi) (hle : vi ≤ num)
    (hk : num ≤ (reg + k) * epv) :
    outer nd epv num vd f k reg item vi (updR nd epv vd val lo vi R0) (st vi) = (updR nd epv vd val lo num R0, st num) := by
  induction k generalizing reg item vi with
  | zero =>
    have : vi = num := by rw [Nat.add_zero] at hk; omega
    rw [outer, this]
  | succ k ih =>
    rw [outer]
    by_cases hc : vi < num
    · rw [if_pos hc]
      have hmul : (reg + 1) * epv = reg * epv + epv := by rw [Nat.add_mul, Nat.one_mul]
      have hdiv : ∀ e, vi ≤ e → e < reg * epv + epv → e / epv = reg := by
        intro e h1 h2
        apply Nat.div_eq_of_lt_le <;> omega
      -- the inner loop stays within this register
      have hn : vi + (min epv num - item) ≤ reg * epv + epv := by omega
      have hnx : min num (vi + (min epv num - item)) = min num (reg * epv + epv) := by
        by_cases hr : reg = 0
        · rw [hr] at hvi ⊢; omega
        · have : epv ≤ reg * epv := Nat.le_mul_of_pos_left _ (by omega)
          omega
      have hin := inner_spec nd num (f (updR nd epv vd val lo vi R0)) val st (min epv num - item) (reg * epv) item vi
        (updR nd epv vd val lo vi R0 (vd + reg)) hvi (by omega)
        (by
          intro e h1 h2 h3
          rw [hind e _ _ (by omega) h2]
          · exact h e (by omega) h2
          · intro r hr
            funext x
            unfold updR
            rw [hdiv e h1 (by omega)] at hr
            rw [if_neg]
            generalize x / nd = y
            rintro ⟨c1, c2, c3, c4⟩
            rcases hr with hr | hr
            · omega
            · have : reg * epv ≤ (r - vd) * epv := Nat.mul_le_mul_right _ (by omega)
              omega)
      rw [hnx] at hin
      simp only [hin]
      -- the register file after the submission
      have hR : (fun q => if q = vd + reg then updB nd val (reg * epv) vi (min num (reg * epv + epv)) (updR nd epv vd val lo vi R0 (vd + reg))
          else updR nd epv vd val lo vi R0 q) = updR nd epv vd val lo (min num (reg * epv + epv)) R0 := by
        funext q x
        by_cases hq : q = vd + reg
        · rw [if_pos hq, hq]
          unfold updB updR
          have hsub : vd + reg - vd = reg := by omega
          simp only [hsub]
          generalize x / nd = y
          by_cases h1 : vi ≤ reg * epv + y ∧ reg * epv + y < min num (reg * epv + epv)
          · have n1 : ¬ (vd ≤ vd + reg ∧ y < epv ∧ lo ≤ reg * epv + y ∧ reg * epv + y < vi) := by omega
            have n2 : vd ≤ vd + reg ∧ y < epv ∧ lo ≤ reg * epv + y ∧ reg * epv + y < min num (reg * epv + epv) := by omega
            rw [if_pos h1, if_neg n1, if_pos n2]
          · rw [if_neg h1]
            by_cases h2 : vd ≤ vd + reg ∧ y < epv ∧ lo ≤ reg * epv + y ∧ reg * epv + y < vi
            · rw [if_pos h2, if_pos (by omega)]
            · rw [if_neg h2, if_neg (by omega)]
        · rw [if_neg hq]
          unfold updR
          generalize x / nd = y
          by_cases h2 : vd ≤ q ∧ y < epv ∧ lo ≤ (q - vd) * epv + y ∧ (q - vd) * epv + y < vi
          · rw [if_pos h2, if_pos (by omega)]
          · rw [if_neg h2, if_neg]
            rintro ⟨c1, c2, c3, c4⟩
            apply h2
            refine ⟨c1, c2, c3, ?_⟩
            by_cases hlt : q - vd < reg
            · have : (q - vd + 1) * epv ≤ reg * epv := Nat.mul_le_mul_right _ (by omega)
              rw [Nat.add_mul, Nat.one_mul] at this
              omega
            · have : (reg + 1) * epv ≤ (q - vd) * epv := Nat.mul_le_mul_right _ (by omega)
              omega
      rw [hR]
      by_cases hend : num ≤ reg * epv + epv
      · -- all elements are done
        have hm : min num (reg * epv + epv) = num := by omega
        rw [hm]
        cases k with
        | zero => rw [outer]
        | succ k => rw [outer, if_neg (by omega)]
      · have hm : min num (reg * epv + epv) = (reg + 1) * epv + 0 := by omega
        rw [hm]
        exact ih (reg + 1) 0 _ rfl hepv (Or.inl rfl) (by omega) (by omega)
          (by rw [show reg + 1 + k = reg + (k + 1) by omega]; exact hk)
    · rw [if_neg hc, show vi = num by omega]


/-- An element of the destination group after the loop. -/
theorem source_updR (vlenb nd vd : Nat) (hnd : 0 < nd) (hepv : 0 < vlenb / nd) (val : Nat → Option (BitVec (8 * nd))) (lo hi : Nat)
    (R : VRegs) (i : Nat) :
    source vlenb nd (updR nd (vlenb / nd) vd val lo hi R) vd i
      = if lo ≤ i ∧ i < hi then (val i).getD (source vlenb nd R vd i) else source vlenb nd R vd i := by
  unfold source
  have hb : ∀ k, k < nd → (i % (vlenb / nd) * nd + k) / nd = i % (vlenb / nd) ∧ (i % (vlenb / nd) * nd + k) % nd = k := by
    intro k hk
    constructor
    · rw [Nat.mul_comm, Nat.mul_add_div hnd, Nat.div_eq_of_lt hk]; omega
    · rw [Nat.mul_comm, Nat.mul_add_mod]; exact Nat.mod_eq_of_lt hk
  have hlt := Nat.mod_lt i hepv
  have he : (vd + i / (vlenb / nd) - vd) * (vlenb / nd) + i % (vlenb / nd) = i := by
    rw [Nat.add_sub_cancel_left, Nat.mul_comm]
    exact Nat.div_add_mod i (vlenb / nd)
  by_cases hc : lo ≤ i ∧ i < hi
  · rw [if_pos hc]
    cases hv : val i with
    | none =>
      apply getElem_congr
      intro k hk
      unfold updR
      rw [(hb k hk).1, he, if_pos ⟨Nat.le_add_right _ _, hlt, hc⟩, hv]
    | some v =>
      apply getElem_eq
      intro k hk
      unfold updR
      rw [(hb k hk).1, (hb k hk).2, he, if_pos ⟨Nat.le_add_right _ _, hlt, hc⟩, hv]
      rfl
  · rw [if_neg hc]
    apply getElem_congr
    intro k hk
    unfold updR
    rw [(hb k hk).1, he, if_neg (by omega)]

/-- Reading an element only looks at its register. -/
theorem source_congr (vlenb n base i : Nat) (R R' : VRegs) (h : R (base + i / (vlenb / n)) = R' (base + i / (vlenb / n))) :
    source vlenb n R base i = source vlenb n R' base i := by
  unfold source; rw [h]

/-- The common body: with the checks passed the loops compute `updR`. -/
theorem elementwise_spec {σ : Type} (c : VCore) (ns : List Nat) (nd vd : Nat)
    (f : VRegs → Nat → σ → Option (BitVec (8 * nd)) × σ) (val : Nat → Option (BitVec (8 * nd))) (st : Nat → σ)
    (hexc : c.vs.exception = false) (hsew : 0 < c.vs.sew) (hns : ∀ n ∈ ns, 1 ≤ c.vs.lmul8 * n / c.vs.sew ∧ c.vs.lmul8 * n / c.vs.sew ≤ 64)
    (hepv : 0 < c.vs.vlenb / nd) (hreg : c.vs.vl ≤ groupSize vd * (c.vs.vlenb / nd))
    (hind : ∀ e R s, c.vs.vstart ≤ e → e < c.vs.vl →
      (∀ r, (r < vd ∨ vd + e / (c.vs.vlenb / nd) ≤ r) → R r = c.regs r) → f R e s = f c.regs e s)
    (h : ∀ e, c.vs.vstart ≤ e → e < c.vs.vl → f c.regs e (st e) = (val e, st (e + 1))) :
    elementwise c ns nd vd f (st c.vs.vstart)
      = some ({ vs := { c.vs with vstart := 0 }, regs := updR nd (c.vs.vlenb / nd) vd val c.vs.vstart c.vs.vl c.regs },
          st (max c.vs.vstart c.vs.vl)) := by
  unfold elementwise
  have hany : ((ns.map fun n => c.vs.lmul8 * n / c.vs.sew).any fun l => decide (l > 64) || l == 0) = false := by
    rw [List.any_eq_false]
    intro l hl
    obtain ⟨n, hn, rfl⟩ := List.mem_map.mp hl
    have h1 := hns n hn
    generalize c.vs.lmul8 * n / c.vs.sew = l at *
    have h2 : ¬ l > 64 := by omega
    have h3 : ¬ l = 0 := by omega
    simp [h3]; omega
  rw [hexc]
  simp only [Bool.false_eq_true, if_false, hany]
  rw [if_neg (by omega), if_neg (by omega)]
  generalize hE : c.vs.vlenb / nd = epv at *
  have hmr : (c.vs.vl + epv - 1) / epv ≤ groupSize vd := by
    have := Nat.div_lt_of_lt_mul (m := c.vs.vl + epv - 1) (n := epv) (k := groupSize vd + 1) (by
      rw [Nat.mul_add, Nat.mul_one, Nat.mul_comm]; omega)
    omega
  rw [if_neg (by omega)]
  have hmul : c.vs.vl ≤ (c.vs.vl + epv - 1) / epv * epv := by
    have h1 := Nat.div_add_mod (c.vs.vl + epv - 1) epv
    have h2 := Nat.mod_lt (c.vs.vl + epv - 1) hepv
    rw [Nat.mul_comm] at h1
    omega
  by_cases hle : c.vs.vstart ≤ c.vs.vl
  · have ho := outer_spec nd epv c.vs.vl vd hepv f val st c.regs c.vs.vstart hind h
      ((c.vs.vl + epv - 1) / epv - c.vs.vstart / epv) (c.vs.vstart / epv) (c.vs.vstart % epv) c.vs.vstart
      (by rw [Nat.mul_comm]; exact (Nat.div_add_mod _ _).symm) (Nat.mod_lt _ hepv) (Or.inr rfl) (Nat.le_refl _) hle
      (by
        by_cases hq : c.vs.vstart / epv ≤ (c.vs.vl + epv - 1) / epv
        · rw [Nat.add_sub_cancel' hq]; exact hmul
        · have : (c.vs.vl + epv - 1) / epv * epv ≤ c.vs.vstart / epv * epv := Nat.mul_le_mul_right _ (by omega)
          rw [Nat.add_mul]; omega)
    rw [updR_empty nd epv vd val c.vs.vstart c.vs.vstart c.regs (Nat.le_refl _)] at ho
    rw [ho, Nat.max_eq_right hle]
  · have hz : ∀ k, outer nd epv c.vs.vl vd f k (c.vs.vstart / epv) (c.vs.vstart % epv) c.vs.vstart c.regs (st c.vs.vstart)
        = (c.regs, st c.vs.vstart) := by
      intro k
      cases k with
      | zero => rfl
      | succ k => rw [outer, if_neg (by omega)]
    rw [hz, updR_empty nd epv vd val _ _ c.regs (by omega), Nat.max_eq_left (by omega)]

end Verif.VecLoop
