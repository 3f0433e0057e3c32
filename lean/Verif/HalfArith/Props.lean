import Verif.HalfArith.Bridge
import Verif.HalfArith.Model
import Verif.HalfArith.Spec
import Verif.FpArith.Props

/-!
# C81
-/

namespace Verif.HalfArith

open Verif.Fp Verif.FpHost.Spec Verif.FpFma.Spec Verif.FpFma
open Verif.VecWiden (val_natAbs val_neg_iff finite_lt floor_scale roundPat_scale round_eq decompose)
open Verif.HalfFp (widen narrow)

theorem hostDir_eq (rm : Nat) (hrm : rm ≤ 3) : hostDir rm = dirOf rm := by
  have hr : rm = 0 ∨ rm = 1 ∨ rm = 2 ∨ rm = 3 := by omega
  rcases hr with e | e | e | e <;> subst e <;> rfl

/-- The rounded result compared with single precision numbers. -/
structure Tests (N m q : Nat) : Prop where
  le : ∀ c k, c < 2 ^ 24 → k ≤ 240 → c * 2 ^ k * m ≤ N * K → c * 2 ^ k ≤ scaled single q
  ge : ∀ c k, c < 2 ^ 24 → k ≤ 240 → N * K ≤ c * 2 ^ k * m → scaled single q ≤ c * 2 ^ k

theorem tests {N m q : Nat} {o : Mode} (hm : 0 < m) (h : Rounds single 1 o (ratio (N * K) m hm) q) :
    Tests N m q := by
  constructor
  · intro c k hc hk hl
    obtain ⟨R, e1, e2⟩ := single_num c k hc hk
    rw [← e2]
    refine scaled_le_iff.mpr (test_le h e1 ?_)
    show 2 * (scaled single R * 1) * m ≤ 2 * (N * K)
    rw [e2, Nat.mul_one, Nat.mul_assoc]; omega
  · intro c k hc hk hl
    obtain ⟨R, e1, e2⟩ := single_num c k hc hk
    rw [← e2]
    refine scaled_le_iff.mpr (test_ge (by decide) h e1 ?_)
    show 2 * (N * K) ≤ 2 * (scaled single R * 1) * m
    rw [e2, Nat.mul_one, Nat.mul_assoc]; omega

/-- The first rounding does not make a tie. -/
def NoFalseTie (N m q : Nat) : Prop :=
  ∀ p < infPat half, 2 * scaled single q = mid half K p →
    (scaled half p + scaled half (p + 1)) * m = 2 * N

/-- `n / m` half precision units rounded to single and then to half precision. -/
theorem finish_round (rm : Nat) (hrm : rm ≤ 3) {n n' : Int} {m m' : Nat} {r : F32} (hm : 0 < m) (hm' : 0 < m')
    (hmK : m ≤ K) (hn : n ≠ 0) (hb : n.natAbs ≤ 2 ^ 100 * m) (he : n' * m = n * K * m')
    (hr : Meets (hostDir rm) (.round n' m') r)
    (hf : rm = 0 → Tests n.natAbs m (pat r) → NoFalseTie n.natAbs m (pat r)) :
    Meets (dirOf rm) (.round n m) (narrow single rm r).1 := by
  rw [hostDir_eq rm hrm] at hr
  replace hr : Meets (dirOf rm) (.round (n * K) m) r := round_eq hm' hm he hr
  obtain ⟨r1, p, r2, r3⟩ := hr
  have hKz : (0 : Int) < K := by have := K_pos; omega
  have hneg : decide (n * (K : Int) < 0) = decide (n < 0) := by
    congr 1
    exact propext ⟨fun q => Int.lt_of_not_ge fun g => absurd (Int.mul_nonneg g (Int.le_of_lt hKz)) (by omega),
      fun q => Int.mul_neg_of_neg_of_pos q hKz⟩
  have habs : (n * (K : Int)).natAbs = n.natAbs * K := by rw [Int.natAbs_mul, Int.natAbs_natCast]
  rw [hneg] at r1 r3
  rw [habs] at r2 r3
  have hR : Rounds single 1 (mode (dirOf rm) (decide (n < 0))) (ratio (n.natAbs * K) m hm) (pat r) :=
    (rounds_ratio hm).mpr ⟨p, by rwa [Nat.mul_one], by rwa [Nat.mul_one]⟩
  have T := tests hm hR
  have hN : 1 ≤ n.natAbs := by omega
  have lo : 1 ≤ scaled single (pat r) := by
    have := T.le 1 0 (by decide) (by decide) (by
      rw [Nat.pow_zero, Nat.mul_one, Nat.one_mul]
      exact Nat.le_trans hmK (Nat.le_mul_of_pos_left _ hN))
    simpa using this
  have fin : pat r < infPat single := by
    obtain ⟨R, e1, e2⟩ := single_num 1 225 (by decide) (by decide)
    have := T.ge 1 225 (by decide) (by decide) (by
      calc n.natAbs * K ≤ 2 ^ 100 * m * K := Nat.mul_le_mul_right _ hb
        _ = 1 * 2 ^ 225 * m := by
          rw [show 2 ^ 225 = 2 ^ 100 * K from by decide +kernel]; grind)
    rw [← e2] at this
    exact Nat.lt_of_le_of_lt (scaled_le_iff.mp this) e1
  have hz : ¬ IsZero r := by
    intro q
    rw [q, scaled_zero] at lo; omega
  have hv : val r ≠ 0 := fun q => hz (val_eq_zero.mp q)
  have nr := narrow_round rm hrm r fin hz
  obtain ⟨s1, p', s2, s3⟩ := nr
  rw [val_neg_iff hv, r1] at s1 s3
  rw [val_natAbs] at s2 s3
  refine ⟨s1, ?_⟩
  have hR2 : Rounds half K (mode (dirOf rm) (decide (n < 0)))
      (ratio (scaled single (pat r)) 1 (by decide)) (pat (narrow single rm r).1) :=
    (rounds_ratio (by decide)).mpr ⟨p', by rwa [Nat.one_mul], by rwa [Nat.one_mul]⟩
  have ho : mode (dirOf rm) (decide (n < 0)) ≠ .nearestAway := by
    have hr : rm = 0 ∨ rm = 1 ∨ rm = 2 ∨ rm = 3 := by omega
    rcases hr with e | e | e | e <;> subst e <;> cases decide (n < 0) <;> intro h <;> cases h
  have hne : mode (dirOf rm) (decide (n < 0)) = .nearestEven → rm = 0 := by
    have hr : rm = 0 ∨ rm = 1 ∨ rm = 2 ∨ rm = 3 := by omega
    rcases hr with e | e | e | e <;> subst e <;> cases decide (n < 0) <;> intro h <;> first | rfl | cases h
  have fin2 := round_twice ho fin hR hR2 (fun e p hp ht => by
    have := hf (hne e) T p hp ht
    have e2 : mid half K p * m = 2 * (n.natAbs * K) := by
      unfold mid
      rw [Nat.mul_right_comm, this, Nat.mul_assoc]
    exact ⟨Nat.le_of_eq e2, Nat.le_of_eq e2.symm⟩)
  obtain ⟨p2, t1, t2⟩ := (rounds_ratio hm).mp fin2
  exact ⟨p2, (floor_scale K_pos).mp t1, by rw [t2, roundPat_scale K_pos]⟩

/-- The other results. -/
theorem finish_special (rm : Nat) (hrm : rm ≤ 3) {x : Expect} {r : F32} (hx : ∀ n m, x ≠ .round n m)
    (hr : Meets (hostDir rm) x r) : Meets (dirOf rm) x (narrow single rm r).1 := by
  cases x with
  | nan =>
    show NaN _
    rw [narrow_nan rm hrm r hr]; exact canonical_nan ok_half
  | inf b =>
    obtain ⟨h1, h2⟩ := narrow_inf rm hrm r hr.1
    exact ⟨h1, h2.trans hr.2⟩
  | zero b =>
    obtain ⟨h1, h2⟩ := narrow_zero rm hrm r hr.1
    exact ⟨h1, h2.trans hr.2⟩
  | round n m => exact absurd rfl (hx n m)

/-- What is expected of the single precision operation follows from what is expected
of the half precision one. -/
def Lifts (x x' : Expect) : Prop :=
  match x with
  | .round n m => ∃ n' m', x' = .round n' m' ∧ 0 < m ∧ m ≤ K ∧ n ≠ 0 ∧ n.natAbs ≤ 2 ^ 100 * m ∧ 0 < m' ∧
      n' * m = n * K * m'
  | _ => x' = x

theorem finish (rm : Nat) (hrm : rm ≤ 3) {x x' : Expect} {r : F32} (hl : Lifts x x')
    (hr : Meets (hostDir rm) x' r)
    (hf : rm = 0 → ∀ n m, x = .round n m → Tests n.natAbs m (pat r) → NoFalseTie n.natAbs m (pat r)) :
    Meets (dirOf rm) x (narrow single rm r).1 := by
  cases x with
  | nan => exact finish_special rm hrm (fun _ _ h => by cases h) (by rw [show x' = .nan from hl] at hr; exact hr)
  | inf b => exact finish_special rm hrm (fun _ _ h => by cases h) (by rw [show x' = .inf b from hl] at hr; exact hr)
  | zero b => exact finish_special rm hrm (fun _ _ h => by cases h) (by rw [show x' = .zero b from hl] at hr; exact hr)
  | round n m =>
    obtain ⟨n', m', e, h1, h2, h3, h4, h5, h6⟩ := hl
    subst e
    exact finish_round rm hrm h1 h5 h2 h3 h4 h6 hr (fun e => hf e n m rfl)

/-! ### No false ties -/

theorem mid_form {p : Nat} (hp : p < infPat half) :
    ∃ t z, t ≤ 29 ∧ z < 2048 ∧ (0 < t → 1024 ≤ z) ∧ scaled half p = z * 2 ^ t ∧
      scaled half (p + 1) = (z + 1) * 2 ^ t ∧ mid half K p = (2 * z + 1) * 2 ^ t * K ∧
      scaled half p + scaled half (p + 1) = (2 * z + 1) * 2 ^ t := by
  obtain ⟨t, z, h1, h2, h3, -, h5, h6⟩ := neighbours p hp
  refine ⟨t, z, h1, h2, h3, h5, h6, ?_, ?_⟩
  · unfold mid; rw [h5, h6]; generalize 2 ^ t = T; grind
  · rw [h5, h6]; generalize 2 ^ t = T; grind

/-- A single precision number is not changed, so makes no tie. -/
theorem noFalseTie_exact {N m q c k : Nat} (hc : c < 2 ^ 24) (hk : k ≤ 240)
    (he : c * 2 ^ k * m = N * K) (T : Tests N m q) : NoFalseTie N m q := by
  intro p hp ht
  have h1 := T.le c k hc hk (Nat.le_of_eq he)
  have h2 := T.ge c k hc hk (Nat.le_of_eq he.symm)
  have e : scaled single q = c * 2 ^ k := by omega
  rw [e] at ht
  unfold mid at ht
  apply Nat.eq_of_mul_eq_mul_right K_pos
  calc (scaled half p + scaled half (p + 1)) * m * K = 2 * (c * 2 ^ k * m) := by
        rw [Nat.mul_right_comm, ← ht]; grind
    _ = 2 * N * K := by rw [he]; grind

/-- The tests for whole numbers of half precision units. -/
theorem tests_half {N q M : Nat} (T : Tests N 1 q) (h : 2 * scaled single q = M * K) (c k : Nat)
    (hc : c < 2 ^ 24) (hk : k ≤ 100) :
    (c * 2 ^ k ≤ N → 2 * (c * 2 ^ k) ≤ M) ∧ (N ≤ c * 2 ^ k → M ≤ 2 * (c * 2 ^ k)) := by
  have e : c * 2 ^ (k + 125) = c * 2 ^ k * K := by
    rw [Nat.pow_add, ← Nat.mul_assoc]; rfl
  have h1 := T.le c (k + 125) hc (by omega)
  have h2 := T.ge c (k + 125) hc (by omega)
  rw [e, Nat.mul_one] at h1 h2
  constructor
  · intro a
    have := h1 (Nat.mul_le_mul_right _ a)
    refine Nat.le_of_mul_le_mul_right ?_ K_pos
    rw [← h, Nat.mul_assoc]; omega
  · intro a
    have := h2 (Nat.mul_le_mul_right _ a)
    refine Nat.le_of_mul_le_mul_right ?_ K_pos
    rw [← h, Nat.mul_assoc]; omega

/-- Half of the argument for sums: the smaller operand is too small to matter. -/
theorem sum_far {z t A B S M : Nat} (ht : 13 ≤ t) (hM : M = (2 * z + 1) * 2 ^ t)
    (hz : z < 2048) (hA : A ≤ z * 2 ^ t ∨ (z + 1) * 2 ^ t ≤ A) (hB : B < 2 ^ (t - 2))
    (hS : S ≤ A + B ∧ A ≤ S + B)
    (H : ∀ c, c < 2 ^ 24 → (c * 2 ^ (t - 2) ≤ S → 2 * (c * 2 ^ (t - 2)) ≤ M) ∧
      (S ≤ c * 2 ^ (t - 2) → M ≤ 2 * (c * 2 ^ (t - 2)))) : False := by
  have e : 2 ^ t = 4 * 2 ^ (t - 2) := by
    rw [show 4 = 2 ^ 2 from rfl, ← Nat.pow_add]; congr 1; omega
  have hP := Nat.two_pow_pos (t - 2)
  rw [e] at hM hA
  generalize 2 ^ (t - 2) = P at *
  have e1 : z * (4 * P) = 4 * (z * P) := by grind
  have e2 : (z + 1) * (4 * P) = 4 * (z * P) + 4 * P := by grind
  have e3 : (2 * z + 1) * (4 * P) = 8 * (z * P) + 4 * P := by grind
  rw [e1, e2] at hA
  rw [e3] at hM
  have h1 := H (4 * z + 1) (by omega)
  have h2 := H (4 * z + 3) (by omega)
  have e4 : (4 * z + 1) * P = 4 * (z * P) + P := by grind
  have e5 : (4 * z + 3) * P = 4 * (z * P) + 3 * P := by grind
  rw [e4] at h1
  rw [e5] at h2
  generalize z * P = Q at *
  rcases hA with a | a
  · have := h1.2 (by omega); omega
  · have := h2.1 (by omega); omega

theorem noFalseTie_add {a b S q : Nat} (ha : a < infPat half) (hb : b < infPat half)
    (hS : S = scaled half a + scaled half b ∨ S + scaled half b = scaled half a ∨
      S + scaled half a = scaled half b) (T : Tests S 1 q) : NoFalseTie S 1 q := by
  intro p hp ht
  obtain ⟨t, z, h1, h2, h3, h5, h6, h7, h8⟩ := mid_form hp
  rw [h8, Nat.mul_one]
  rw [h7] at ht
  have H := tests_half T ht
  have hM1 : (2 * z + 1) * 2 ^ t < 2 ^ (t + 12) := by
    rw [Nat.pow_add, Nat.mul_comm]; exact Nat.mul_lt_mul_of_pos_left (by omega) (Nat.two_pow_pos _)
  obtain ⟨α, i, a1, a2, a3⟩ := decompose a ha
  obtain ⟨β, j, b1, b2, b3⟩ := decompose b hb
  have a1' : α < 2048 := a1
  have b1' : β < 2048 := b1
  have i1 : i ≤ 29 := a2
  have j1 : j ≤ 29 := b2
  by_cases hsmall : S < 2 ^ 24
  · have := H S 0 hsmall (by decide)
    simp only [Nat.pow_zero, Nat.mul_one] at this
    omega
  · have ht13 : 13 ≤ t := by
      have h0 := (H 1 24 (by decide) (by decide)).1 (by omega)
      have h1 : 2 ^ 24 < 2 ^ (t + 12) := by omega
      have := (Nat.pow_lt_pow_iff_right (a := 2) (by decide)).mp h1
      omega
    have hSlt : S < 2 ^ (t + 11) := by
      apply Nat.lt_of_not_le
      intro c
      have := (H 1 (t + 11) (by decide) (by omega)).1 (by omega)
      have e : 2 ^ (t + 12) = 2 * 2 ^ (t + 11) := by rw [Nat.pow_succ 2 (t + 11), Nat.mul_comm]
      omega
    -- operands are not strictly between the neighbours
    have side : ∀ y, scaled half y ≤ z * 2 ^ t ∨ (z + 1) * 2 ^ t ≤ scaled half y := by
      intro y
      rw [← h5, ← h6]
      rcases Nat.lt_or_ge y (p + 1) with c | c
      · exact Or.inl (scaled_le_iff.mpr (by omega))
      · exact Or.inr (scaled_le_iff.mpr c)
    have small : ∀ γ l, γ < 2048 → l < t - 12 → γ * 2 ^ l < 2 ^ (t - 2) := by
      intro γ l c1 c2
      calc γ * 2 ^ l < 2 ^ 11 * 2 ^ l := Nat.mul_lt_mul_of_pos_right c1 (Nat.two_pow_pos _)
        _ = 2 ^ (11 + l) := by rw [Nat.pow_add]
        _ ≤ 2 ^ (t - 2) := Nat.pow_le_pow_right (by decide) (by omega)
    by_cases hj : j < t - 12
    · exact (sum_far ht13 rfl h2 (side a) (b3 ▸ small β j b1' hj) (by omega)
        (fun c hc => H c (t - 2) hc (by omega))).elim
    · by_cases hi : i < t - 12
      · exact (sum_far ht13 rfl h2 (side b) (a3 ▸ small α i a1' hi) (by omega)
          (fun c hc => H c (t - 2) hc (by omega))).elim
      · -- both are multiples of the last place
        have mul : ∀ γ l, t - 12 ≤ l → 2 ^ (t - 12) ∣ γ * 2 ^ l := fun γ l c =>
          Nat.dvd_trans (Nat.pow_dvd_pow 2 c) (Nat.dvd_mul_left _ _)
        have da : 2 ^ (t - 12) ∣ scaled half a := a3 ▸ mul α i (by omega)
        have db : 2 ^ (t - 12) ∣ scaled half b := b3 ▸ mul β j (by omega)
        have dS : 2 ^ (t - 12) ∣ S := by
          rcases hS with c | c | c
          · rw [c]; exact Nat.dvd_add da db
          · exact (Nat.dvd_add_left db).mp (c ▸ da)
          · exact (Nat.dvd_add_left da).mp (c ▸ db)
        obtain ⟨c, hc⟩ := dS
        have hc24 : c < 2 ^ 24 := by
          have e : 2 ^ (t + 11) = 2 ^ (t - 12) * 2 ^ 23 := by rw [← Nat.pow_add]; congr 1; omega
          rw [hc, e] at hSlt
          have := Nat.lt_of_mul_lt_mul_left hSlt
          omega
        have := H c (t - 12) hc24 (by omega)
        rw [Nat.mul_comm c, ← hc] at this
        omega

/-- Quotients: `A / B`, with `A` and `B` numbers of half precision. -/
theorem noFalseTie_div {a b q : Nat} (ha : a < infPat half) (hb : b < infPat half)
    (hb0 : 0 < scaled half b) (T : Tests (scaled half a * 2 ^ 24) (scaled half b) q) :
    NoFalseTie (scaled half a * 2 ^ 24) (scaled half b) q := by
  intro p hp ht
  obtain ⟨t, z, h1, h2, h3, h5, h6, h7, h8⟩ := mid_form hp
  rw [h8]
  rw [h7] at ht
  obtain ⟨α, i, a1, a2, a3⟩ := decompose a ha
  obtain ⟨β, j, b1, b2, b3⟩ := decompose b hb
  have a1' : α < 2048 := a1
  have b1' : β < 2048 := b1
  rw [a3, b3] at T
  rw [b3] at hb0
  rw [a3, b3]
  -- twice the value is X / Y, the tie is M / 1
  obtain ⟨Y, hY⟩ : ∃ Y, Y = β * 2 ^ j := ⟨_, rfl⟩
  obtain ⟨M, hM⟩ : ∃ M, M = (2 * z + 1) * 2 ^ t := ⟨_, rfl⟩
  obtain ⟨X, hX⟩ : ∃ X, X = α * 2 ^ i * 2 ^ 25 := ⟨_, rfl⟩
  rw [← hY] at hb0 T ⊢
  rw [← hM] at ht ⊢
  have hX2 : 2 * (α * 2 ^ i * 2 ^ 24) = X := by rw [hX]; generalize α * 2 ^ i = y; omega
  rw [hX2]
  have hMpos : 0 < M := by rw [hM]; exact Nat.mul_pos (by omega) (Nat.two_pow_pos _)
  -- tests with c * 2 ^ (t + l), compared through 2 ^ (125 - l)
  have H : ∀ c l g, c < 2 ^ 24 → l + g = 124 →
      (c * 2 ^ t * Y ≤ X * 2 ^ g → c * 2 ^ t ≤ M * 2 ^ g) ∧
      (X * 2 ^ g ≤ c * 2 ^ t * Y → M * 2 ^ g ≤ c * 2 ^ t) := by
    intro c l g hc hl
    have eK : K = 2 * (2 ^ g * 2 ^ l) := by
      rw [← Nat.pow_add, show g + l = 124 from by omega]; decide +kernel
    have hp2 := Nat.two_pow_pos l
    have t1 := T.le c (t + l) hc (by omega)
    have t2 := T.ge c (t + l) hc (by omega)
    have eN : α * 2 ^ i * 2 ^ 24 * K = X * 2 ^ g * 2 ^ l := by
      rw [← hX2, eK]; generalize α * 2 ^ i * 2 ^ 24 = y; grind
    have eC : c * 2 ^ (t + l) * Y = c * 2 ^ t * Y * 2 ^ l := by rw [Nat.pow_add]; grind
    have eC2 : c * 2 ^ (t + l) = c * 2 ^ t * 2 ^ l := by rw [Nat.pow_add]; grind
    rw [eN, eC, Nat.mul_le_mul_right_iff hp2, eC2] at t1
    rw [eN, eC, Nat.mul_le_mul_right_iff hp2, eC2] at t2
    have eq : scaled single q = M * 2 ^ g * 2 ^ l := by
      have : 2 * scaled single q = 2 * (M * 2 ^ g * 2 ^ l) := by rw [ht, eK]; grind
      omega
    rw [eq, Nat.mul_le_mul_right_iff hp2] at t1 t2
    exact ⟨t1, t2⟩
  have hT := Nat.two_pow_pos t
  rcases Nat.lt_or_ge (i + 25) (t + j) with hij | hij
  · -- the tie is a multiple of the unit of X
    obtain ⟨W, hW⟩ : ∃ W, W = (2 * z + 1) * β * 2 ^ (t + j - (i + 25)) := ⟨_, rfl⟩
    obtain ⟨E, hE⟩ : ∃ E, E = 2 ^ (i + 25) := ⟨_, rfl⟩
    have hEp : 0 < E := hE ▸ Nat.two_pow_pos _
    have e1 : X = α * E := by rw [hX, hE, Nat.pow_add, Nat.mul_assoc]
    have e2 : M * Y = W * E := by
      rw [hM, hY, hW, hE]
      have : 2 ^ (t + j - (i + 25)) * 2 ^ (i + 25) = 2 ^ t * 2 ^ j := by
        rw [← Nat.pow_add, ← Nat.pow_add]; congr 1; omega
      calc (2 * z + 1) * 2 ^ t * (β * 2 ^ j) = (2 * z + 1) * β * (2 ^ t * 2 ^ j) := by grind
        _ = _ := by rw [← this]; grind
    rcases Nat.lt_trichotomy X (M * Y) with c | c | c
    · exfalso
      rw [e1, e2] at c
      have cw := Nat.lt_of_mul_lt_mul_right c
      have h := (H ((2 * z + 1) * 4095) 112 12 (by omega) (by omega)).2
      have eM : (2 * z + 1) * 4095 * 2 ^ t = M * 4095 := by rw [hM]; grind
      rw [eM] at h
      have := h (by
        calc X * 2 ^ 12 = α * 4096 * E := by rw [e1]; grind
          _ ≤ W * 4095 * E := Nat.mul_le_mul_right _ (by omega)
          _ = M * 4095 * Y := by rw [Nat.mul_right_comm M, e2]; grind)
      omega
    · exact c.symm
    · exfalso
      rw [e1, e2] at c
      have cw := Nat.lt_of_mul_lt_mul_right c
      have h := (H ((2 * z + 1) * 2049) 113 11 (by omega) (by omega)).1
      have eM : (2 * z + 1) * 2049 * 2 ^ t = M * 2049 := by rw [hM]; grind
      rw [eM] at h
      have := h (by
        calc M * 2049 * Y = W * 2049 * E := by rw [Nat.mul_right_comm M, e2]; grind
          _ ≤ α * 2048 * E := Nat.mul_le_mul_right _ (by omega)
          _ = X * 2 ^ 11 := by rw [e1]; grind)
      omega
  · -- X is a multiple of the unit of the tie
    obtain ⟨V, hV⟩ : ∃ V, V = α * 2 ^ (i + 25 - (t + j)) := ⟨_, rfl⟩
    obtain ⟨E, hE⟩ : ∃ E, E = 2 ^ (t + j) := ⟨_, rfl⟩
    have hEp : 0 < E := hE ▸ Nat.two_pow_pos _
    have e1 : X = V * E := by
      rw [hX, hV, hE, Nat.mul_assoc, Nat.mul_assoc, ← Nat.pow_add, ← Nat.pow_add]
      congr 2; omega
    have e2 : M * Y = (2 * z + 1) * β * E := by rw [hM, hY, hE, Nat.pow_add]; grind
    have e3 : 2 ^ t * Y = β * E := by rw [hY, hE, Nat.pow_add]; grind
    rcases Nat.lt_trichotomy X (M * Y) with c | c | c
    · exfalso
      rw [e1, e2] at c
      have cw := Nat.lt_of_mul_lt_mul_right c
      have h := (H ((2 * z + 1) * 2048 - 1) 113 11 (by omega) (by omega)).2
      have := h (by
        calc X * 2 ^ 11 = V * 2048 * E := by rw [e1]; grind
          _ ≤ ((2 * z + 1) * 2048 - 1) * β * E := by
            apply Nat.mul_le_mul_right
            rw [Nat.sub_mul, Nat.one_mul, Nat.mul_right_comm]
            omega
          _ = ((2 * z + 1) * 2048 - 1) * 2 ^ t * Y := by rw [Nat.mul_assoc, Nat.mul_assoc, e3])
      rw [Nat.sub_mul, Nat.mul_right_comm, ← hM] at this
      omega
    · exact c.symm
    · exfalso
      rw [e1, e2] at c
      have cw := Nat.lt_of_mul_lt_mul_right c
      have h := (H ((2 * z + 1) * 2048 + 1) 113 11 (by omega) (by omega)).1
      have := h (by
        calc ((2 * z + 1) * 2048 + 1) * 2 ^ t * Y = ((2 * z + 1) * 2048 + 1) * β * E := by
              rw [Nat.mul_assoc, Nat.mul_assoc, e3]
          _ ≤ V * 2048 * E := by
            apply Nat.mul_le_mul_right
            rw [Nat.add_mul, Nat.one_mul, Nat.mul_right_comm]
            omega
          _ = X * 2 ^ 11 := by rw [e1]; grind)
      rw [Nat.add_mul, Nat.mul_right_comm, ← hM] at this
      omega

/-! ### Square roots -/

/-- The square root of `n` half precision square units, rounded to single precision. -/
structure RootTests (n q : Nat) : Prop where
  le : ∀ c k, c < 2 ^ 24 → k ≤ 240 → (2 * (c * 2 ^ k)) ^ 2 ≤ 4 * (n * K ^ 2) → c * 2 ^ k ≤ scaled single q
  ge : ∀ c k, c < 2 ^ 24 → k ≤ 240 → 4 * (n * K ^ 2) ≤ (2 * (c * 2 ^ k)) ^ 2 → scaled single q ≤ c * 2 ^ k

theorem root_tests {n q : Nat} {o : Mode} (h : Rounds single 1 o (root (n * K ^ 2)) q) : RootTests n q := by
  constructor
  · intro c k hc hk hl
    obtain ⟨R, e1, e2⟩ := single_num c k hc hk
    rw [← e2]
    refine scaled_le_iff.mpr (test_le h e1 ?_)
    show (2 * (scaled single R * 1)) ^ 2 ≤ 4 * (n * K ^ 2)
    rw [e2, Nat.mul_one]; exact hl
  · intro c k hc hk hl
    obtain ⟨R, e1, e2⟩ := single_num c k hc hk
    rw [← e2]
    refine scaled_le_iff.mpr (test_ge (by decide) h e1 ?_)
    show 4 * (n * K ^ 2) ≤ (2 * (scaled single R * 1)) ^ 2
    rw [e2, Nat.mul_one]; exact hl

/-- Single precision neighbours with significands `c` and `c + 1`. -/
theorem single_neighbours (c k : Nat) (h1 : 2 ^ 23 ≤ c) (h2 : c < 2 ^ 24) (hk : k ≤ 240) :
    ∃ R < infPat single, scaled single R = c * 2 ^ k ∧ scaled single (R + 1) = (c + 1) * 2 ^ k := by
  have hs : 2 ^ single.s = 2 ^ 23 := rfl
  obtain ⟨R, e1, e2⟩ := single_num c k h2 hk
  have g := grid (f := single) k c (by rw [hs]; omega) (by rw [hs]; omega)
  have g2 := grid (f := single) k (c + 1) (by rw [hs]; omega) (by rw [hs]; omega)
  have e : R = k * 2 ^ single.s + c := by
    have := e2.trans g.symm
    exact Nat.le_antisymm (scaled_le_iff.mp (Nat.le_of_eq this)) (scaled_le_iff.mp (Nat.le_of_eq this.symm))
  exact ⟨R, e1, e2, by rw [e, Nat.add_assoc]; exact g2⟩

theorem root_mid {n q : Nat} (h : Rounds single 1 .nearestEven (root (n * K ^ 2)) q) (c k : Nat)
    (h1 : 2 ^ 23 ≤ c) (h2 : c < 2 ^ 24) (hk : k ≤ 240) :
    (((2 * c + 1) * 2 ^ k) ^ 2 < 4 * (n * K ^ 2) → (c + 1) * 2 ^ k ≤ scaled single q) ∧
    (4 * (n * K ^ 2) < ((2 * c + 1) * 2 ^ k) ^ 2 → scaled single q ≤ c * 2 ^ k) := by
  obtain ⟨R, e1, e2, e3⟩ := single_neighbours c k h1 h2 hk
  have em : mid single 1 R = (2 * c + 1) * 2 ^ k := by
    unfold mid; rw [e2, e3]; generalize 2 ^ k = T; grind
  constructor
  · intro a
    rw [← e3]
    refine scaled_le_iff.mpr (test_mid_le h e1 ?_)
    show ¬ (4 * (n * K ^ 2) ≤ mid single 1 R ^ 2)
    rw [em]; omega
  · intro a
    rw [← e2]
    refine scaled_le_iff.mpr (test_mid_ge (by decide) h e1 ?_)
    show ¬ (mid single 1 R ^ 2 ≤ 4 * (n * K ^ 2))
    rw [em]; omega

theorem sq_lt {a b : Nat} (h : a < b) : a ^ 2 < b ^ 2 := (Nat.pow_lt_pow_iff_left (by decide)).mpr h

theorem noFalseTie_root {a q p : Nat} (ha : a < infPat half) (ha0 : 0 < scaled half a)
    (h : Rounds single 1 .nearestEven (root (scaled half a * 2 ^ 24 * K ^ 2)) q) (hp : p < infPat half)
    (ht : 2 * scaled single q = mid half K p) :
    (mid half K p) ^ 2 = 4 * (scaled half a * 2 ^ 24 * K ^ 2) := by
  obtain ⟨t, z, h1, h2, h3, h5, h6, h7, h8⟩ := mid_form hp
  rw [h7] at ht ⊢
  obtain ⟨α, i, a1, a2, a3⟩ := decompose a ha
  have a1' : α < 2048 := a1
  have T := root_tests h
  obtain ⟨X, hX⟩ : ∃ X, X = scaled half a * 2 ^ 26 := ⟨_, rfl⟩
  obtain ⟨M, hM⟩ : ∃ M, M = (2 * z + 1) * 2 ^ t := ⟨_, rfl⟩
  have eX : 4 * (scaled half a * 2 ^ 24 * K ^ 2) = X * K ^ 2 := by
    rw [hX]; generalize scaled half a = y; generalize K ^ 2 = k; grind
  have hX26 : 2 ^ 26 ≤ X := by rw [hX]; omega
  have hK2 : 0 < K ^ 2 := Nat.pow_pos K_pos
  have hmid := root_mid h
  have hT := Nat.two_pow_pos t
  obtain ⟨Tle, Tge⟩ := T
  rw [eX] at hmid Tle Tge ⊢
  rw [← hM] at ht ⊢
  suffices hs : M ^ 2 = X by rw [Nat.mul_pow, hs]
  have hM2 : M ^ 2 = (2 * z + 1) ^ 2 * 2 ^ (2 * t) := by
    rw [hM, Nat.mul_pow, ← Nat.pow_mul, Nat.mul_comm t 2]
  have hMlt : M < 2 ^ (t + 12) := by
    rw [hM, Nat.pow_add, Nat.mul_comm]; exact Nat.mul_lt_mul_of_pos_left (by omega) hT
  -- the result is at least 2 ^ 12 units
  have ht1 : 1 ≤ t := by
    have g := Tle 1 137 (by decide) (by decide) (by
      have : (2 * (1 * 2 ^ 137)) ^ 2 = 2 ^ 26 * K ^ 2 := by decide +kernel
      rw [this]; exact Nat.mul_le_mul_right _ hX26)
    have e : 2 * (1 * 2 ^ 137) = 2 ^ 13 * K := by decide +kernel
    have g2 : 2 ^ 13 * K ≤ M * K := by rw [← e, ← ht]; omega
    have g3 := Nat.le_of_mul_le_mul_right g2 K_pos
    have g4 : 2 ^ 13 < 2 ^ (t + 12) := by omega
    have := (Nat.pow_lt_pow_iff_right (a := 2) (by decide)).mp g4
    omega
  have hz := h3 ht1
  have hXf : X = α * 2 ^ (i + 26) := by rw [hX, a3, Nat.mul_assoc, ← Nat.pow_add]
  have hMpos : 0 < M := by rw [hM]; exact Nat.mul_pos (by omega) hT
  rcases Nat.lt_or_ge (i + 26) (2 * t) with hij | hij
  · exfalso
    have g := Tge (2 * z + 1) (t + 123) (by omega) (by omega) (by
      have e : (2 * ((2 * z + 1) * 2 ^ (t + 123))) ^ 2 * 4 = M ^ 2 * K ^ 2 := by
        have e1 : K = 2 ^ 123 * 4 := by decide +kernel
        rw [hM, e1, Nat.pow_add]
        generalize 2 ^ 123 = k
        generalize 2 ^ t = y
        grind
      have e2 : X * 4 ≤ M ^ 2 := by
        rw [hXf, hM2]
        have : 2 ^ (2 * t) = 2 ^ (2 * t - (i + 26)) * 2 ^ (i + 26) := by
          rw [← Nat.pow_add, Nat.sub_add_cancel (by omega)]
        rw [this, Nat.mul_right_comm, ← Nat.mul_assoc]
        apply Nat.mul_le_mul_right
        have g1 : 2049 * 2049 ≤ (2 * z + 1) ^ 2 := by
          rw [Nat.pow_two]; exact Nat.mul_le_mul (by omega) (by omega)
        have g2 : 1 ≤ 2 ^ (2 * t - (i + 26)) := Nat.two_pow_pos _
        calc α * 4 ≤ 2049 * 2049 * 1 := by omega
          _ ≤ _ := Nat.mul_le_mul g1 g2
      have e3 := Nat.mul_le_mul_right (K ^ 2) e2
      have e4 : X * 4 * K ^ 2 = X * K ^ 2 * 4 := Nat.mul_right_comm _ _ _
      omega)
    have e : 4 * ((2 * z + 1) * 2 ^ (t + 123)) = M * K := by
      have e1 : K = 2 ^ 123 * 4 := by decide +kernel
      rw [hM, e1, Nat.pow_add]
      generalize 2 ^ 123 = k
      generalize 2 ^ t = y
      grind
    have : 0 < M * K := Nat.mul_pos hMpos K_pos
    omega
  · obtain ⟨V, hV⟩ : ∃ V, X = V * 2 ^ (2 * t) := by
      refine ⟨α * 2 ^ (i + 26 - 2 * t), ?_⟩
      rw [hXf, Nat.mul_assoc, ← Nat.pow_add]; congr 2; omega
    have hE := Nat.two_pow_pos (2 * t)
    have eK : K = 2 ^ 13 * 2 ^ 112 := by decide +kernel
    have eK2 : ∀ y, y * K ^ 2 = y * 2 ^ 26 * (2 ^ 112) ^ 2 := by
      intro y; rw [eK]; generalize 2 ^ 112 = k; grind
    have esq : ∀ c : Nat, (c * 2 ^ (t + 112)) ^ 2 = c ^ 2 * 2 ^ (2 * t) * (2 ^ 112) ^ 2 := by
      intro c
      rw [Nat.pow_add, Nat.pow_mul', Nat.pow_two (2 ^ t)]
      generalize 2 ^ 112 = k; generalize 2 ^ t = y; grind
    have h112 : 0 < (2 ^ 112) ^ 2 := Nat.pow_pos (Nat.two_pow_pos _)
    have hMK : M * K = (2 * z + 1) * 2 ^ 13 * 2 ^ (t + 112) := by
      rw [hM, eK, Nat.pow_add]; generalize 2 ^ 112 = k; generalize 2 ^ t = y; grind
    have hp112 := Nat.two_pow_pos (t + 112)
    rcases Nat.lt_trichotomy X (M ^ 2) with c | c | c
    · exfalso
      have g := (hmid ((2 * z + 1) * 4096 - 1) (t + 112) (by omega) (by omega) (by omega)).2
      have e0 : 2 * ((2 * z + 1) * 4096 - 1) + 1 = (2 * z + 1) * 8192 - 1 := by omega
      rw [e0, esq, eK2, Nat.mul_lt_mul_right h112, hV, Nat.mul_right_comm, Nat.mul_lt_mul_right hE] at g
      rw [hM2, hV] at c
      have cw := Nat.lt_of_mul_lt_mul_right c
      obtain ⟨y, hy⟩ : ∃ y, y = 2 * z + 1 := ⟨_, rfl⟩
      rw [← hy] at g cw hMK
      obtain ⟨x, hx⟩ : ∃ x, y * 8192 = x + 1 := ⟨y * 8192 - 1, by omega⟩
      have r := g (by
        rw [show y * 8192 - 1 = x from by omega]
        have e1 : (y * 8192) ^ 2 = y ^ 2 * 2 ^ 26 := by rw [Nat.mul_pow]
        have e2 : (y * 8192) ^ 2 = x ^ 2 + 2 * x + 1 := by rw [hx]; grind
        have : V + 1 ≤ y ^ 2 := cw
        have := Nat.mul_le_mul_right (2 ^ 26) this
        rw [Nat.add_mul] at this
        omega)
      rw [hMK] at ht
      have e3 : 2 * ((y * 4096 - 1) * 2 ^ (t + 112)) = y * 2 ^ 13 * 2 ^ (t + 112) - 2 * 2 ^ (t + 112) := by
        rw [← Nat.mul_assoc, ← Nat.sub_mul]; congr 1; omega
      have : 2 * 2 ^ (t + 112) ≤ y * 2 ^ 13 * 2 ^ (t + 112) := Nat.mul_le_mul_right _ (by omega)
      omega
    · exact c.symm
    · exfalso
      have g := (hmid ((2 * z + 1) * 4096) (t + 112) (by omega) (by omega) (by omega)).1
      have e0 : 2 * ((2 * z + 1) * 4096) + 1 = (2 * z + 1) * 8192 + 1 := by omega
      rw [e0, esq, eK2, Nat.mul_lt_mul_right h112, hV, Nat.mul_right_comm, Nat.mul_lt_mul_right hE] at g
      rw [hM2, hV] at c
      have cw := Nat.lt_of_mul_lt_mul_right c
      obtain ⟨y, hy⟩ : ∃ y, y = 2 * z + 1 := ⟨_, rfl⟩
      rw [← hy] at g cw hMK
      have r := g (by
        have e1 : (y * 8192 + 1) ^ 2 = y ^ 2 * 2 ^ 26 + y * 16384 + 1 := by grind
        have : y ^ 2 + 1 ≤ V := cw
        have := Nat.mul_le_mul_right (2 ^ 26) this
        rw [Nat.add_mul] at this
        omega)
      rw [hMK] at ht
      have e3 : 2 * ((y * 4096 + 1) * 2 ^ (t + 112)) = y * 2 ^ 13 * 2 ^ (t + 112) + 2 * 2 ^ (t + 112) := by
        rw [← Nat.mul_assoc, ← Nat.add_mul]; congr 1; omega
      omega

/-! ### Expectations for the widened operands -/

theorem w_nan {u : F16} : NaN (w u) ↔ NaN u := widen_nan u
theorem w_inf {u : F16} : Inf (w u) ↔ Inf u := widen_inf u
theorem w_msb {u : F16} (h : ¬ NaN u) : (w u).msb = u.msb := widen_msb u h
theorem w_val {u : F16} (h : ¬ NaN u) (hi : ¬ Inf u) : val (w u) = val u * K := widen_val u h hi
theorem w_zero {u : F16} (h : ¬ NaN u) : IsZero (w u) ↔ IsZero u := by
  by_cases hi : Inf u
  · exact ⟨fun q => absurd (w_inf.mpr hi) (zero_not_inf ok_single q), fun q => absurd hi (zero_not_inf ok_half q)⟩
  · exact widen_zero u h hi

theorem w_scaled {u : F16} (h : ¬ NaN u) (hi : ¬ Inf u) :
    scaled single (pat (w u)) = scaled half (pat u) * K := by
  rw [← val_natAbs, w_val h hi, Int.natAbs_mul, Int.natAbs_natCast, val_natAbs]

theorem val_lt {u : F16} (h : ¬ NaN u) (hi : ¬ Inf u) : (val u).natAbs < 2 ^ 40 := by
  rw [val_natAbs, ← scaled_infPat_half]
  exact scaled_lt (finite_lt h hi)

theorem K_ne : (K : Int) ≠ 0 := by have := K_pos; omega

theorem neg?_natAbs (b : Bool) (x : Int) : (neg? b x).natAbs = x.natAbs := by
  cases b <;> simp [neg?]

theorem add_lifts (d : Dir) (nc : Bool) (a c : F16) :
    Lifts (FpArith.Spec.add d nc a c) (FpArith.Spec.add d nc (w a) (w c)) := by
  unfold FpArith.Spec.add
  by_cases h1 : NaN a ∨ NaN c
  · have h1' : NaN (w a) ∨ NaN (w c) := h1.imp w_nan.mpr w_nan.mpr
    simp only [if_pos h1, if_pos h1']; rfl
  · have h1' : ¬ (NaN (w a) ∨ NaN (w c)) := fun q => h1 (q.imp w_nan.mp w_nan.mp)
    have na : ¬ NaN a := fun q => h1 (Or.inl q)
    have nc' : ¬ NaN c := fun q => h1 (Or.inr q)
    simp only [if_neg h1, if_neg h1', w_inf, w_msb na, w_msb nc']
    by_cases ia : Inf a
    · simp only [if_pos ia]; split <;> rfl
    · simp only [if_neg ia]
      by_cases ic : Inf c
      · simp only [if_pos ic]; rfl
      · simp only [if_neg ic, w_val na ia, w_val nc' ic]
        have e : val a * K + neg? nc (val c * K) = (val a + neg? nc (val c)) * K := by
          rw [← VecWiden.neg?_mul, Int.add_mul]
        rw [e]
        by_cases hn : val a + neg? nc (val c) = 0
        · rw [hn, Int.zero_mul, if_neg (by simp)]; rfl
        · rw [if_pos hn, if_pos (by
            intro q; rcases Int.mul_eq_zero.mp q with q | q
            · exact hn q
            · exact K_ne q)]
          refine ⟨_, _, rfl, by decide, K_pos, hn, ?_, by decide, rfl⟩
          have b1 := val_lt na ia
          have b2 := val_lt nc' ic
          have b3 := neg?_natAbs nc (val c)
          omega

theorem mul_lifts (a b : F16) : Lifts (FpFma.Spec.mul a b) (FpFma.Spec.mul (w a) (w b)) := by
  unfold FpFma.Spec.mul
  by_cases h1 : NaN a ∨ NaN b
  · have h1' : NaN (w a) ∨ NaN (w b) := h1.imp w_nan.mpr w_nan.mpr
    simp only [if_pos h1, if_pos h1']; rfl
  · have h1' : ¬ (NaN (w a) ∨ NaN (w b)) := fun q => h1 (q.imp w_nan.mp w_nan.mp)
    have na : ¬ NaN a := fun q => h1 (Or.inl q)
    have nb : ¬ NaN b := fun q => h1 (Or.inr q)
    simp only [if_neg h1, if_neg h1', w_inf, w_msb na, w_msb nb, w_zero na, w_zero nb]
    by_cases h2 : (Inf a ∧ IsZero b) ∨ (IsZero a ∧ Inf b)
    · simp only [if_pos h2]; rfl
    · simp only [if_neg h2]
      by_cases h3 : Inf a ∨ Inf b
      · simp only [if_pos h3]; rfl
      · have ia : ¬ Inf a := fun q => h3 (Or.inl q)
        have ib : ¬ Inf b := fun q => h3 (Or.inr q)
        simp only [if_neg h3, w_val na ia, w_val nb ib, unit_single, unit_half]
        have e : val a * K * (val b * K) = val a * val b * (K * K) := by grind
        rw [e]
        by_cases hn : val a * val b = 0
        · rw [hn, Int.zero_mul, if_neg (by simp)]; rfl
        · rw [if_pos hn, if_pos (by
            intro q; rcases Int.mul_eq_zero.mp q with q | q
            · exact hn q
            · rcases Int.mul_eq_zero.mp q with q | q <;> exact K_ne q)]
          refine ⟨_, _, rfl, by decide, by decide +kernel, hn, ?_, Nat.mul_pos (by decide) K_pos, ?_⟩
          · rw [Int.natAbs_mul]
            calc _ ≤ 2 ^ 40 * 2 ^ 40 :=
                  Nat.mul_le_mul (Nat.le_of_lt (val_lt na ia)) (Nat.le_of_lt (val_lt nb ib))
              _ ≤ _ := by decide +kernel
          · rw [Int.natCast_mul]; grind

theorem div_lifts (a b : F16) : Lifts (FpArith.Spec.div a b) (FpArith.Spec.div (w a) (w b)) := by
  unfold FpArith.Spec.div
  by_cases h1 : NaN a ∨ NaN b
  · have h1' : NaN (w a) ∨ NaN (w b) := h1.imp w_nan.mpr w_nan.mpr
    simp only [if_pos h1, if_pos h1']; rfl
  · have h1' : ¬ (NaN (w a) ∨ NaN (w b)) := fun q => h1 (q.imp w_nan.mp w_nan.mp)
    have na : ¬ NaN a := fun q => h1 (Or.inl q)
    have nb : ¬ NaN b := fun q => h1 (Or.inr q)
    simp only [if_neg h1, if_neg h1', w_inf, w_msb na, w_msb nb, w_zero na, w_zero nb]
    by_cases h2 : (Inf a ∧ Inf b) ∨ (IsZero a ∧ IsZero b)
    · simp only [if_pos h2]; rfl
    · simp only [if_neg h2]
      by_cases h3 : Inf a ∨ IsZero b
      · simp only [if_pos h3]; rfl
      · simp only [if_neg h3]
        by_cases h4 : Inf b ∨ IsZero a
        · simp only [if_pos h4]; rfl
        · have ia : ¬ Inf a := fun q => h3 (Or.inl q)
          have ib : ¬ Inf b := fun q => h4 (Or.inl q)
          have za : val a ≠ 0 := fun q => h4 (Or.inr (val_eq_zero.mp q))
          have zb : val b ≠ 0 := fun q => h3 (Or.inr (val_eq_zero.mp q))
          have b1 := val_lt na ia
          have b2 := val_lt nb ib
          simp only [if_neg h4, w_val na ia, w_val nb ib, unit_single, unit_half, Int.natAbs_mul,
            Int.natAbs_natCast]
          refine ⟨_, _, rfl, by omega, ?_, ?_, ?_, Nat.mul_pos (by omega) K_pos, ?_⟩
          · exact Nat.le_trans (Nat.le_of_lt b2) (by decide +kernel)
          · intro q
            have := congrArg Int.natAbs q
            rw [neg?_natAbs] at this
            omega
          · rw [neg?_natAbs]
            have : ((((val a).natAbs : Nat) : Int) * ((2 ^ 24 : Nat) : Int)).natAbs = (val a).natAbs * 2 ^ 24 := by
              rw [Int.natAbs_mul, Int.natAbs_natCast, Int.natAbs_natCast]
            rw [this]
            have : 1 ≤ (val b).natAbs := by omega
            calc (val a).natAbs * 2 ^ 24 ≤ 2 ^ 40 * 2 ^ 24 := Nat.mul_le_mul_right _ (Nat.le_of_lt b1)
              _ ≤ 2 ^ 100 * 1 := by decide +kernel
              _ ≤ _ := Nat.mul_le_mul_left _ this
          · rw [VecWiden.neg?_mul, VecWiden.neg?_mul, VecWiden.neg?_mul]
            refine congrArg (neg? _) ?_
            generalize (val a).natAbs = x
            generalize (val b).natAbs = y
            simp only [Int.natCast_mul]
            generalize (K : Int) = k
            generalize ((2 ^ 24 : Nat) : Int) = z
            grind

theorem fma_lifts (d : Dir) (np nc : Bool) (a b c : F16) :
    Lifts (FpFma.Spec.fma d np nc a b c) (FpFma.Spec.fma d np nc (w a) (w b) (w c)) := by
  unfold FpFma.Spec.fma
  by_cases h1 : NaN a ∨ NaN b ∨ NaN c
  · have h1' : NaN (w a) ∨ NaN (w b) ∨ NaN (w c) := h1.imp w_nan.mpr (Or.imp w_nan.mpr w_nan.mpr)
    simp only [if_pos h1, if_pos h1']; rfl
  · have h1' : ¬ (NaN (w a) ∨ NaN (w b) ∨ NaN (w c)) := fun q => h1 (q.imp w_nan.mp (Or.imp w_nan.mp w_nan.mp))
    have na : ¬ NaN a := fun q => h1 (Or.inl q)
    have nb : ¬ NaN b := fun q => h1 (Or.inr (Or.inl q))
    have nc' : ¬ NaN c := fun q => h1 (Or.inr (Or.inr q))
    simp only [if_neg h1, if_neg h1', w_inf, w_msb na, w_msb nb, w_msb nc', w_zero na, w_zero nb]
    by_cases h2 : (Inf a ∧ IsZero b) ∨ (IsZero a ∧ Inf b)
    · simp only [if_pos h2]; rfl
    · simp only [if_neg h2]
      by_cases h3 : Inf a ∨ Inf b
      · simp only [if_pos h3]; split <;> rfl
      · simp only [if_neg h3]
        by_cases h4 : Inf c
        · simp only [if_pos h4]; rfl
        · have ia : ¬ Inf a := fun q => h3 (Or.inl q)
          have ib : ¬ Inf b := fun q => h3 (Or.inr q)
          simp only [if_neg h4, w_val na ia, w_val nb ib, w_val nc' h4, unit_single, unit_half]
          have e : neg? np (val a * K * (val b * K)) + neg? nc (val c * K) * ((2 ^ 24 * K : Nat) : Int) =
              (neg? np (val a * val b) + neg? nc (val c) * ((2 ^ 24 : Nat) : Int)) * (K * K) := by
            have e1 : val a * K * (val b * K) = val a * val b * (K * K) := by grind
            have e2 : neg? np (val a * val b * (K * K)) = neg? np (val a * val b) * (K * K) :=
              (VecWiden.neg?_mul ..).symm
            have e3 : neg? nc (val c * K) = neg? nc (val c) * K := (VecWiden.neg?_mul ..).symm
            rw [e1, e2, e3, Int.natCast_mul]
            generalize neg? np (val a * val b) = x
            generalize neg? nc (val c) = y
            generalize (K : Int) = k
            generalize ((2 ^ 24 : Nat) : Int) = z
            grind
          rw [e]
          by_cases hn : neg? np (val a * val b) + neg? nc (val c) * ((2 ^ 24 : Nat) : Int) = 0
          · rw [hn, Int.zero_mul, if_neg (by simp)]; rfl
          · rw [if_pos hn, if_pos (by
              intro q; rcases Int.mul_eq_zero.mp q with q | q
              · exact hn q
              · rcases Int.mul_eq_zero.mp q with q | q <;> exact K_ne q)]
            refine ⟨_, _, rfl, by decide, by decide +kernel, hn, ?_, Nat.mul_pos (by decide) K_pos, ?_⟩
            · have b1 := val_lt na ia
              have b2 := val_lt nb ib
              have b3 := val_lt nc' h4
              have e1 := neg?_natAbs np (val a * val b)
              have e2 := neg?_natAbs nc (val c)
              rw [Int.natAbs_mul] at e1
              have e3 : (val a).natAbs * (val b).natAbs ≤ 2 ^ 40 * 2 ^ 40 :=
                Nat.mul_le_mul (Nat.le_of_lt b1) (Nat.le_of_lt b2)
              have e4 : 2 ^ 40 * 2 ^ 40 + 2 ^ 40 * 2 ^ 24 ≤ 2 ^ 100 * 2 ^ 24 := by decide +kernel
              generalize neg? np (val a * val b) = x at *
              generalize neg? nc (val c) = y at *
              have e5 := Int.natAbs_add_le x (y * ((2 ^ 24 : Nat) : Int))
              rw [Int.natAbs_mul, Int.natAbs_natCast] at e5
              have e6 : y.natAbs * 2 ^ 24 ≤ 2 ^ 40 * 2 ^ 24 := Nat.mul_le_mul_right _ (by omega)
              omega
            · rw [Int.natCast_mul]
              generalize neg? np (val a * val b) + neg? nc (val c) * ((2 ^ 24 : Nat) : Int) = x
              grind

/-! ### Results -/

theorem narrow_canonical (rm : Nat) (hrm : rm ≤ 3) (r : F32) (h : NaN (narrow single rm r).1) :
    (narrow single rm r).1 = canonicalNaN half := by
  by_cases h1 : NaN r
  · exact narrow_nan rm hrm r h1
  by_cases h2 : Inf r
  · exact absurd h (inf_not_nan (narrow_inf rm hrm r h2).1)
  by_cases h3 : IsZero r
  · exact absurd h (zero_not_nan (narrow_zero rm hrm r h3).1)
  · exact absurd h (not_nan_of_meets (narrow_round rm hrm r (finite_lt h1 h2) h3) (fun q => by cases q))

theorem round_inj {n n' : Int} {m m' : Nat} (h : Expect.round n m = .round n' m') : n = n' ∧ m = m' := by
  cases h; exact ⟨rfl, rfl⟩

theorem val_or (u : F16) : val u = scaled half (pat u) ∨ val u = -(scaled half (pat u) : Int) := by
  unfold val; split
  · exact Or.inr rfl
  · exact Or.inl rfl

theorem add_round {d : Dir} {nc : Bool} {a c : F16} {n : Int} {m : Nat}
    (h : FpArith.Spec.add d nc a c = .round n m) :
    m = 1 ∧ pat a < infPat half ∧ pat c < infPat half ∧ n = val a + neg? nc (val c) := by
  unfold FpArith.Spec.add at h
  dsimp only at h
  split at h
  · cases h
  · rename_i h1
    split at h
    · split at h <;> cases h
    · rename_i h2
      split at h
      · cases h
      · rename_i h3
        split at h
        · cases h
          exact ⟨rfl, finite_lt (fun q => h1 (Or.inl q)) h2, finite_lt (fun q => h1 (Or.inr q)) h3, rfl⟩
        · cases h

theorem add_tie {d : Dir} {nc : Bool} {a c : F16} {q : Nat} {n : Int} {m : Nat}
    (h : FpArith.Spec.add d nc a c = .round n m) (T : Tests n.natAbs m q) : NoFalseTie n.natAbs m q := by
  obtain ⟨h1, h2, h3, h4⟩ := add_round h
  subst h1
  refine noFalseTie_add h2 h3 ?_ T
  have ha := val_or a
  have hc := val_or c
  have hc' : neg? nc (val c) = val c ∨ neg? nc (val c) = -val c := by cases nc <;> simp [neg?]
  generalize neg? nc (val c) = y at *
  generalize scaled half (pat a) = A at *
  generalize scaled half (pat c) = C at *
  rcases ha with ha | ha <;> rcases hc with hc | hc <;> rcases hc' with hc' | hc' <;> omega

theorem pow_split : (2 : Nat) ^ 101 * 2 ^ 24 = K := by decide +kernel

theorem mul_tie {a b : F16} {q : Nat} {n : Int} {m : Nat}
    (h : FpFma.Spec.mul a b = .round n m) (T : Tests n.natAbs m q) : NoFalseTie n.natAbs m q := by
  unfold FpFma.Spec.mul at h
  dsimp only at h
  split at h
  · cases h
  · rename_i h1
    split at h
    · cases h
    · split at h
      · cases h
      · rename_i h2
        split at h
        · cases h
          obtain ⟨α, i, a1, a2, a3⟩ := decompose _ (finite_lt (fun q => h1 (Or.inl q)) (fun q => h2 (Or.inl q)))
          obtain ⟨β, j, b1, b2, b3⟩ := decompose _ (finite_lt (fun q => h1 (Or.inr q)) (fun q => h2 (Or.inr q)))
          have a1' : α < 2 ^ 11 := a1
          have b1' : β < 2 ^ 11 := b1
          have a2' : i ≤ 29 := a2
          have b2' : j ≤ 29 := b2
          refine noFalseTie_exact (c := α * β) (k := i + j + 101) ?_ (by omega) ?_ T
          · calc α * β ≤ 2 ^ 11 * 2 ^ 11 := Nat.mul_le_mul (Nat.le_of_lt a1') (Nat.le_of_lt b1')
              _ < 2 ^ 24 := by decide
          · rw [Int.natAbs_mul, val_natAbs, val_natAbs, a3, b3, unit_half, Nat.pow_add, Nat.pow_add,
              ← pow_split]
            generalize (2 : Nat) ^ 101 = x
            generalize (2 : Nat) ^ 24 = y
            grind
        · cases h

theorem div_tie {a b : F16} {q : Nat} {n : Int} {m : Nat}
    (h : FpArith.Spec.div a b = .round n m) (T : Tests n.natAbs m q) : NoFalseTie n.natAbs m q := by
  unfold FpArith.Spec.div at h
  dsimp only at h
  split at h
  · cases h
  · rename_i h1
    split at h
    · cases h
    · split at h
      · cases h
      · rename_i h2
        split at h
        · cases h
        · rename_i h3
          obtain ⟨e1, e2⟩ := round_inj h
          have e3 : n.natAbs = scaled half (pat a) * 2 ^ 24 := by
            rw [← e1, neg?_natAbs, Int.natAbs_mul, Int.natAbs_natCast, Int.natAbs_natCast, val_natAbs, unit_half]
          rw [val_natAbs] at e2
          subst e2
          rw [e3] at T ⊢
          refine noFalseTie_div (finite_lt (fun q => h1 (Or.inl q)) (fun q => h2 (Or.inl q)))
            (finite_lt (fun q => h1 (Or.inr q)) (fun q => h3 (Or.inl q))) ?_ T
          have hz : val b ≠ 0 := fun q => h2 (Or.inr (val_eq_zero.mp q))
          have := val_natAbs b
          omega

variable {h : FpArith.Host single}

/-- **C81**: sums, differences, products and quotients of half precision numbers are
the exact results rounded once, in every rounding mode but "to nearest, ties away"
(which the host does not have), and every NaN is the canonical one. -/
theorem C81_binary_partial (ie : FpArith.Ieee h) (rm : Nat) (hrm : rm ≤ 3) (a b : F16) :
    (Meets (dirOf rm) (FpArith.Spec.add (dirOf rm) false a b) (fadd h rm a b) ∧
      (NaN (fadd h rm a b) → fadd h rm a b = canonicalNaN half)) ∧
    (Meets (dirOf rm) (FpArith.Spec.add (dirOf rm) true a b) (fsub h rm a b) ∧
      (NaN (fsub h rm a b) → fsub h rm a b = canonicalNaN half)) ∧
    (Meets (dirOf rm) (FpFma.Spec.mul a b) (fmul h rm a b) ∧
      (NaN (fmul h rm a b) → fmul h rm a b = canonicalNaN half)) ∧
    (Meets (dirOf rm) (FpArith.Spec.div a b) (fdiv h rm a b) ∧
      (NaN (fdiv h rm a b) → fdiv h rm a b = canonicalNaN half)) := by
  have e := hostDir_eq rm hrm
  refine ⟨canon_meets ok_half ?_, canon_meets ok_half ?_, canon_meets ok_half ?_, canon_meets ok_half ?_⟩
  · exact finish rm hrm (add_lifts _ _ a b) (e ▸ ie.add (hostDir rm) (w a) (w b)) (fun _ _ _ => add_tie)
  · exact finish rm hrm (add_lifts _ _ a b) (e ▸ ie.sub (hostDir rm) (w a) (w b)) (fun _ _ _ => add_tie)
  · exact finish rm hrm (mul_lifts a b) (ie.fma.mul (hostDir rm) (w a) (w b)) (fun _ _ _ => mul_tie)
  · exact finish rm hrm (div_lifts a b) (ie.div (hostDir rm) (w a) (w b)) (fun _ _ _ => div_tie)

theorem root_bound {a : F16} (h1 : ¬ NaN a) (h2 : ¬ Inf a) :
    scaled half (pat a) * 2 ^ 24 < 2 ^ 64 := by
  have := val_lt h1 h2
  rw [val_natAbs] at this
  calc scaled half (pat a) * 2 ^ 24 < 2 ^ 40 * 2 ^ 24 := Nat.mul_lt_mul_of_pos_right this (by decide)
    _ = 2 ^ 64 := by decide

theorem mode_dirOf {rm : Nat} (hrm : rm ≤ 3) (b : Bool) :
    mode (dirOf rm) b ≠ .nearestAway ∧ (mode (dirOf rm) b = .nearestEven → rm = 0) := by
  have hr : rm = 0 ∨ rm = 1 ∨ rm = 2 ∨ rm = 3 := by omega
  rcases hr with e | e | e | e <;> subst e <;> cases b <;>
    exact ⟨fun h => (by cases h), fun h => (by first | rfl | cases h)⟩

/-- Square roots of positive numbers. -/
theorem finish_root (rm : Nat) (hrm : rm ≤ 3) {a : F16} {r : F32} (h1 : ¬ NaN a) (h2 : ¬ Inf a)
    (h3 : ¬ IsZero a) (hr : FpArith.Spec.SqrtRounded (hostDir rm) (w a) r) :
    FpArith.Spec.SqrtRounded (dirOf rm) a (narrow single rm r).1 := by
  rw [hostDir_eq rm hrm] at hr
  obtain ⟨r1, r2⟩ := hr
  have hb := root_bound h1 h2
  have hp : 0 < scaled half (pat a) := by
    have hz : val a ≠ 0 := fun q => h3 (val_eq_zero.mp q)
    have := val_natAbs a
    omega
  have en : scaled single (pat (w a)) * unit single = scaled half (pat a) * 2 ^ 24 * K ^ 2 := by
    rw [w_scaled h1 h2, unit_single]
    generalize (2 : Nat) ^ 24 = y
    grind
  rw [en] at r2
  have hlt := finite_lt h1 h2
  obtain ⟨n, hn⟩ : ∃ n, n = scaled half (pat a) * 2 ^ 24 := ⟨_, rfl⟩
  have hn1 : 1 ≤ n := by omega
  have hR : Rounds single 1 (mode (dirOf rm) false) (root (n * K ^ 2)) (pat r) := by
    have := (rounds_root (f := single) (k := 1) (n := n * K ^ 2) (o := mode (dirOf rm) false) (q := pat r)
      (by decide) (by
        rw [scaled_infPat_single, hn]
        calc scaled half (pat a) * 2 ^ 24 * K ^ 2 < 2 ^ 64 * K ^ 2 :=
              Nat.mul_lt_mul_of_pos_right hb (Nat.pow_pos K_pos)
          _ ≤ (2 ^ 27 * (K * K)) ^ 2 := by decide +kernel)).mpr (by rw [hn]; exact r2)
    rwa [Nat.one_pow, Nat.mul_one] at this
  have T := root_tests hR
  have lo : 1 ≤ scaled single (pat r) := by
    have := T.le 1 0 (by decide) (by decide) (by
      have : 1 ≤ n * K ^ 2 := Nat.mul_pos hn1 (Nat.pow_pos K_pos)
      simp only [Nat.pow_zero, Nat.mul_one]
      omega)
    simpa using this
  have fin : pat r < infPat single := by
    obtain ⟨R, e1, e2⟩ := single_num 1 225 (by decide) (by decide)
    have := T.ge 1 225 (by decide) (by decide) (by
      calc 4 * (n * K ^ 2) ≤ 4 * (2 ^ 64 * K ^ 2) :=
            Nat.mul_le_mul_left _ (Nat.mul_le_mul_right _ (Nat.le_of_lt (hn ▸ hb)))
        _ ≤ (2 * (1 * 2 ^ 225)) ^ 2 := by decide +kernel)
    rw [← e2] at this
    exact Nat.lt_of_le_of_lt (scaled_le_iff.mp this) e1
  have hz : ¬ IsZero r := by
    intro q
    rw [q, scaled_zero] at lo; omega
  have hv : val r ≠ 0 := fun q => hz (val_eq_zero.mp q)
  obtain ⟨s1, p', s2, s3⟩ := narrow_round rm hrm r fin hz
  rw [val_neg_iff hv, r1] at s1 s3
  rw [val_natAbs] at s2 s3
  have hR2 : Rounds half K (mode (dirOf rm) false)
      (ratio (scaled single (pat r)) 1 (by decide)) (pat (narrow single rm r).1) :=
    (rounds_ratio (by decide)).mpr ⟨p', by rwa [Nat.one_mul], by rwa [Nat.one_mul]⟩
  have := round_twice (mode_dirOf hrm false).1 fin hR hR2 (fun e p hp' ht => by
    have e2 := noFalseTie_root hlt hp (by rw [← hn, ← e]; exact hR) hp' ht
    rw [← hn] at e2
    exact ⟨Nat.le_of_eq e2, Nat.le_of_eq e2.symm⟩)
  have := (rounds_root (f := half) K_pos (by
    rw [scaled_infPat_half, hn]
    exact Nat.lt_of_lt_of_le hb (by decide))).mp this
  refine ⟨s1, ?_⟩
  rw [unit_half, ← hn]
  exact this

theorem fsqrt_eq (rm : Nat) (hrm : rm ≤ 3) (a : F16) :
    fsqrt h rm a = (narrow single rm (h.sqrt (hostDir rm) (w a))).1 := by
  unfold fsqrt unary
  dsimp only
  generalize h.sqrt (hostDir rm) (w a) = r
  by_cases hn : NaN (narrow single rm r).1
  · rw [narrow_canonical rm hrm r hn]; decide
  · rw [if_neg (by rw [isNaN_eq]; simp [hn])]

/-- **C81**: the square root of a half precision number is the exact one rounded once,
in every rounding mode but "to nearest, ties away", and every NaN is the canonical one. -/
theorem C81_sqrt_partial (ie : FpArith.Ieee h) (rm : Nat) (hrm : rm ≤ 3) (a : F16) :
    FpArith.Spec.Sqrt (dirOf rm) a (fsqrt h rm a) ∧
      (NaN (fsqrt h rm a) → fsqrt h rm a = canonicalNaN half) := by
  rw [fsqrt_eq rm hrm]
  refine ⟨?_, narrow_canonical rm hrm _⟩
  have hs := ie.sqrt (hostDir rm) (w a)
  generalize h.sqrt (hostDir rm) (w a) = r at *
  unfold FpArith.Spec.Sqrt at hs ⊢
  by_cases h1 : NaN a
  · rw [if_pos (w_nan.mpr h1)] at hs
    rw [if_pos h1, narrow_nan rm hrm r hs]
    exact canonical_nan ok_half
  rw [if_neg (fun q => h1 (w_nan.mp q))] at hs
  rw [if_neg h1]
  by_cases h3 : IsZero a
  · have hz := (w_zero h1).mpr h3
    rw [if_pos hz] at hs
    rw [if_pos h3]
    subst hs
    obtain ⟨g1, g2⟩ := narrow_zero rm hrm (w a) hz
    exact ext_pat (g2.trans (w_msb h1)) (g1.trans h3.symm)
  rw [if_neg (fun q => h3 ((w_zero h1).mp q)), w_msb h1] at hs
  rw [if_neg h3]
  by_cases hm : a.msb = true
  · rw [if_pos hm] at hs ⊢
    rw [narrow_nan rm hrm r hs]
    exact canonical_nan ok_half
  rw [if_neg hm] at hs ⊢
  by_cases h2 : Inf a
  · rw [if_pos (w_inf.mpr h2)] at hs
    rw [if_pos h2]
    obtain ⟨g1, g2⟩ := narrow_inf rm hrm r hs.1
    exact ⟨g1, g2.trans hs.2⟩
  · rw [if_neg (fun q => h2 (w_inf.mp q))] at hs
    rw [if_neg h2]
    exact finish_root rm hrm h1 h2 h3 hs

/-! ### Fused multiply-adds -/

/-- The instruction of each operation. -/
def fused (h : FpArith.Host single) : Op → Nat → F16 → F16 → F16 → F16
  | .madd => fmadd h
  | .msub => fmsub h
  | .nmadd => fnmadd h
  | .nmsub => fnmsub h

theorem fused_meets (ie : FpArith.Ieee h) (o : Op) (rm : Nat) (a b c : F16) :
    ∃ r, fused h o rm a b c = (narrow single rm r).1 ∧
      Meets (hostDir rm) (FpFma.Spec.fma (hostDir rm) o.negProduct o.negAddend (w a) (w b) (w c)) r := by
  have := ie.fma.fma (hostDir rm)
  cases o <;> exact ⟨_, rfl, by rw [fma_neg]; exact this _ _ _⟩

theorem fma_tie {d : Dir} {o : Op} {a b c : F16} {q : Nat} {n : Int} {m : Nat}
    (hs : Spec.Short o a b c) (hx : FpFma.Spec.fma d o.negProduct o.negAddend a b c = .round n m)
    (T : Tests n.natAbs m q) : NoFalseTie n.natAbs m q := by
  have hl := fma_lifts d o.negProduct o.negAddend a b c
  rw [hx] at hl
  obtain ⟨n', m', _, _, _, hn, hb, _, _⟩ := hl
  obtain ⟨s, k, h1, h2⟩ := hs
  have hm : m = 2 ^ 24 ∧ n = neg? o.negProduct (val a * val b) + neg? o.negAddend (val c) * unit half := by
    unfold FpFma.Spec.fma at hx
    dsimp only at hx
    rw [← unit_half]
    split at hx
    · cases hx
    · split at hx
      · cases hx
      · split at hx
        · split at hx <;> cases hx
        · split at hx
          · cases hx
          · split at hx
            · obtain ⟨e1, e2⟩ := round_inj hx; exact ⟨e2.symm, e1.symm⟩
            · cases hx
  rw [← hm.2] at h2
  obtain ⟨hm, -⟩ := hm
  subst hm
  have hs : 1 ≤ s := by
    rcases Nat.eq_zero_or_pos s with e | e
    · rw [e, Nat.zero_mul] at h2; omega
    · exact e
  have hk : k ≤ 124 := by
    rcases Nat.lt_or_ge 124 k with e | e
    · have : 2 ^ 125 ≤ n.natAbs := by
        rw [h2]
        calc 2 ^ 125 ≤ 2 ^ k := Nat.pow_le_pow_right (by decide) e
          _ ≤ s * 2 ^ k := Nat.le_mul_of_pos_left _ hs
      have h3 : 2 ^ 125 ≤ 2 ^ 100 * 2 ^ 24 := Nat.le_trans this hb
      exact absurd h3 (by decide +kernel)
    · exact e
  refine noFalseTie_exact (c := s) (k := k + 101) h1 (by omega) ?_ T
  rw [h2, Nat.pow_add, ← pow_split]
  generalize (2 : Nat) ^ 101 = x
  generalize (2 : Nat) ^ 24 = y
  grind

/-- **C81**: a fused multiply-add is the exact result rounded once, with the canonical
NaN, when rounding toward zero, down or up, and when rounding to nearest if the exact
result has no more than 24 significant bits. -/
theorem C81_fma_partial (ie : FpArith.Ieee h) (o : Op) (rm : Nat) (hrm : rm ≤ 3) (a b c : F16)
    (hs : rm = 0 → Spec.Short o a b c) : Correct (dirOf rm) o a b c (fused h o rm a b c) := by
  obtain ⟨r, h1, h2⟩ := fused_meets ie o rm a b c
  rw [h1]
  refine ⟨?_, narrow_canonical rm hrm r⟩
  refine finish rm hrm (fma_lifts _ _ _ a b c) (by rw [← hostDir_eq rm hrm]; exact h2) ?_
  intro e n m hx
  exact fma_tie (hs e) hx

/-- 1.5 × 1.5 + 2^-10. -/
example : Spec.Short .madd (0x3e00#16) (0x3e00#16) (0x1400#16) := ⟨9 * 2 ^ 8 + 1, 38, by decide, by decide +kernel⟩

/-! ### Integers -/

theorem int_tie {n : Int} {q : Nat} (hn : n ≠ 0) (T : Tests (n * (2 ^ 24 : Nat)).natAbs 1 q) :
    NoFalseTie (n * (2 ^ 24 : Nat)).natAbs 1 q := by
  rw [Int.natAbs_mul, Int.natAbs_natCast] at *
  rcases Nat.lt_or_ge n.natAbs (2 ^ 24) with e | e
  · exact noFalseTie_exact (c := n.natAbs) (k := 149) e (by decide) (by
      rw [show (2 : Nat) ^ 149 = 2 ^ 24 * K from by decide +kernel]; grind) T
  · intro p hp ht
    have h1 := T.le 1 173 (by decide) (by decide) (by
      calc 1 * 2 ^ 173 * 1 = 2 ^ 24 * 2 ^ 24 * K := by decide +kernel
        _ ≤ _ := Nat.mul_le_mul_right _ (Nat.mul_le_mul_right _ e))
    have h2 : scaled half p ≤ 2 ^ 40 := by
      rw [← scaled_infPat_half]; exact scaled_le_iff.mpr (by omega)
    have h3 : scaled half (p + 1) ≤ 2 ^ 40 := by
      rw [← scaled_infPat_half]; exact scaled_le_iff.mpr (by omega)
    have h4 : 2 * scaled single q ≤ (2 ^ 40 + 2 ^ 40) * K := by
      rw [ht]; exact Nat.mul_le_mul_right _ (by omega)
    have h5 : (2 ^ 40 + 2 ^ 40) * K < 2 * (1 * 2 ^ 173) := by decide +kernel
    omega

/-- **C81**: an integer of 32 or 64 bits converted to half precision is rounded once,
in every rounding mode but "to nearest, ties away". -/
theorem C81_int_partial {conv : Dir → Int → F32} (hc : Spec.HostInt conv) (rm : Nat) (hrm : rm ≤ 3) (n : Int)
    (hn : n.natAbs ≤ 2 ^ 64) : Meets (dirOf rm) (Spec.ofInt n) (ofInt conv rm n) := by
  have hr := hc (hostDir rm) n hn
  unfold ofInt Spec.ofInt
  by_cases hz : n = 0
  · rw [if_pos hz] at hr ⊢
    exact finish rm hrm (x := .zero false) rfl hr (fun _ _ _ e => by cases e)
  · rw [if_neg hz] at hr ⊢
    refine finish rm hrm ⟨_, _, rfl, by decide, K_pos, ?_, ?_, by decide, ?_⟩ hr ?_
    · rw [unit_half]; omega
    · rw [unit_half, Int.natAbs_mul, Int.natAbs_natCast]
      calc n.natAbs * 2 ^ 24 ≤ 2 ^ 64 * 2 ^ 24 := Nat.mul_le_mul_right _ hn
        _ ≤ _ := by decide +kernel
    · rw [unit_half, unit_single, Int.natCast_mul]
      generalize ((2 ^ 24 : Nat) : Int) = y
      grind
    · intro _ n' m' e T
      obtain ⟨e1, e2⟩ := round_inj e
      subst e2
      rw [unit_half] at e1
      rw [← e1] at T ⊢
      exact int_tie hz T

example : ∃ conv, Spec.HostInt conv :=
  ⟨fun d n => (meets_exists ok_single d (if n = 0 then .zero false else .round (n * unit single) 1)).choose,
    fun d n _ => (meets_exists ok_single d _).choose_spec⟩

example : ∃ h : FpArith.Host single, FpArith.Ieee h := FpArith.ieee_exists ok_single FpArith.roomy_single

/-! ### Violations -/

theorem meets_unique {f : Fmt} {d : Dir} {n : Int} {m : Nat} {r r' : BitVec f.bits}
    (h1 : Meets d (.round n m) r) (h2 : Meets d (.round n m) r') : r = r' := by
  obtain ⟨a1, p, a2, a3⟩ := h1
  obtain ⟨b1, p', b2, b3⟩ := h2
  have := floor_unique a2 b2
  subst this
  exact ext_pat (a1.trans b1.symm) (a3.trans b3.symm)

/-- **C81** is violated: 3 × 683·2^-11 + 2^-24, to nearest, is 1 + 2^-11 + 2^-24.  That is a
tie in single precision, whose even neighbour is a tie in half precision, so that 1 is
returned on every host.  The nearest half precision number is 1 + 2^-10. -/
theorem C81_fma_violated (ie : FpArith.Ieee h) :
    fused h .madd 0 (0x4200#16) (0x3556#16) (0x0001#16) = 0x3c00#16 ∧
    Correct (f := half) .nearestEven .madd (0x4200#16) (0x3556#16) (0x0001#16) (0x3c01#16) ∧
    ¬ Correct (f := half) .nearestEven .madd (0x4200#16) (0x3556#16) (0x0001#16) (0x3c00#16) := by
  obtain ⟨r, h1, h2⟩ := fused_meets ie .madd 0 (0x4200#16) (0x3556#16) (0x0001#16)
  have hx : FpFma.Spec.fma (hostDir 0) Op.madd.negProduct Op.madd.negAddend (w 0x4200#16) (w 0x3556#16)
      (w 0x0001#16) = .round (281612432441344 * (K * K)) (2 ^ 24 * K) := by
    unfold FpFma.Spec.fma
    rw [if_neg (by unfold NaN; decide +kernel), if_neg (by unfold Inf IsZero; decide +kernel),
      if_neg (by unfold Inf; decide +kernel), if_neg (by unfold Inf; decide +kernel),
      if_pos (by decide +kernel)]
    congr 1
  rw [hx] at h2
  have hr : r = 0x3f801000#32 := meets_unique h2
    ⟨by decide +kernel, 0x3f801000, by unfold Floor; decide +kernel, by decide +kernel⟩
  have hy : FpFma.Spec.fma (f := half) .nearestEven Op.madd.negProduct Op.madd.negAddend (0x4200#16) (0x3556#16)
      (0x0001#16) = .round 281612432441344 (2 ^ 24) := by
    unfold FpFma.Spec.fma
    rw [if_neg (by unfold NaN; decide +kernel), if_neg (by unfold Inf IsZero; decide +kernel),
      if_neg (by unfold Inf; decide +kernel), if_neg (by unfold Inf; decide +kernel),
      if_pos (by decide +kernel)]
    congr 1
  have hm : Meets (f := half) .nearestEven (.round 281612432441344 (2 ^ 24)) (0x3c01#16) :=
    ⟨by decide +kernel, 0x3c00, by unfold Floor; decide +kernel, by decide +kernel⟩
  refine ⟨?_, ⟨?_, ?_⟩, ?_⟩
  · rw [h1, hr]; exact (by decide +kernel : (narrow single 0 (0x3f801000#32)).1.toNat = 0x3c00) |> BitVec.eq_of_toNat_eq
  · rw [hy]; exact hm
  · exact fun q => absurd q (by unfold NaN; decide +kernel)
  · intro q
    have q1 := q.1
    rw [hy] at q1
    exact absurd (congrArg BitVec.toNat (meets_unique (f := half) hm q1)) (by decide)

/-- **C81** is violated in the rounding mode "to nearest, ties away": 1 + 2^-11 gives 1
on every host. -/
theorem C81_rmm_violated (ie : FpArith.Ieee h) :
    fadd h 4 (0x3c00#16) (0x1000#16) = 0x3c00#16 ∧
    Meets (f := half) .nearestAway (FpArith.Spec.add (f := half) .nearestAway false (0x3c00#16) (0x1000#16))
      (0x3c01#16) ∧
    ¬ Meets (f := half) .nearestAway (FpArith.Spec.add (f := half) .nearestAway false (0x3c00#16) (0x1000#16))
      (0x3c00#16) := by
  have h2 := ie.add (hostDir 4) (w 0x3c00#16) (w 0x1000#16)
  have hx : FpArith.Spec.add (hostDir 4) false (w 0x3c00#16) (w 0x1000#16) = .round (16785408 * K) 1 := by
    unfold FpArith.Spec.add
    rw [if_neg (by unfold NaN; decide +kernel), if_neg (by unfold Inf; decide +kernel),
      if_neg (by unfold Inf; decide +kernel), if_pos (by decide +kernel)]
    congr 1
  rw [hx] at h2
  have hr := meets_unique (f := single) (r' := 0x3f801000#32) h2
    ⟨by decide +kernel, 0x3f801000, by unfold Floor; decide +kernel, by decide +kernel⟩
  have hy : FpArith.Spec.add (f := half) .nearestAway false (0x3c00#16) (0x1000#16) = .round 16785408 1 := by
    unfold FpArith.Spec.add
    rw [if_neg (by unfold NaN; decide +kernel), if_neg (by unfold Inf; decide +kernel),
      if_neg (by unfold Inf; decide +kernel), if_pos (by decide +kernel)]
    congr 1
  have hm : Meets (f := half) .nearestAway (.round 16785408 1) (0x3c01#16) :=
    ⟨by decide +kernel, 0x3c00, by unfold Floor; decide +kernel, by decide +kernel⟩
  refine ⟨?_, ?_, ?_⟩
  · unfold fadd binary FpArith.binary
    dsimp only
    rw [hr]
    exact BitVec.eq_of_toNat_eq (by decide +kernel)
  · rw [hy]; exact hm
  · intro q
    rw [hy] at q
    exact absurd (congrArg BitVec.toNat (meets_unique (f := half) hm q)) (by decide)

end Verif.HalfArith
