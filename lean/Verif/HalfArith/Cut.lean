import Verif.VecWiden.Props

/-!
# Rounding twice

A magnitude is known by how twice it compares with whole numbers; this covers
quotients and square roots alike.  The main result: a magnitude rounded to single
precision and then to half precision is the magnitude rounded to half precision,
unless the first rounding lands half way between two half precision numbers from
a place that is not.
-/

namespace Verif.HalfArith

open Verif.Fp Verif.FpFma.Spec Verif.FpFma
open Verif.VecWiden (representable decompose)

variable {f : Fmt}

/-- A magnitude `v`: `le c` says `c ≤ 2 v`, `ge c` says `2 v ≤ c`. -/
structure Cut where
  le : Nat → Prop
  ge : Nat → Prop
  nonneg : le 0
  total : ∀ c, le c ∨ ge c
  le_mono : ∀ {c c'}, c' ≤ c → le c → le c'
  ge_mono : ∀ {c c'}, c ≤ c' → ge c → ge c'
  sep : ∀ {c c'}, le c → ge c' → c ≤ c'

/-- The magnitude `n / m`. -/
def ratio (n m : Nat) (hm : 0 < m) : Cut where
  le c := c * m ≤ 2 * n
  ge c := 2 * n ≤ c * m
  nonneg := by simp
  total c := Nat.le_total _ _
  le_mono h1 h2 := Nat.le_trans (Nat.mul_le_mul_right m h1) h2
  ge_mono h1 h2 := Nat.le_trans h2 (Nat.mul_le_mul_right m h1)
  sep h1 h2 := Nat.le_of_mul_le_mul_right (Nat.le_trans h1 h2) hm

/-- The square root of `n`. -/
def root (n : Nat) : Cut where
  le c := c ^ 2 ≤ 4 * n
  ge c := 4 * n ≤ c ^ 2
  nonneg := by simp
  total c := Nat.le_total _ _
  le_mono h1 h2 := Nat.le_trans (Nat.pow_le_pow_left h1 2) h2
  ge_mono h1 h2 := Nat.le_trans h2 (Nat.pow_le_pow_left h1 2)
  sep h1 h2 := (Nat.pow_le_pow_iff_left (by decide)).mp (Nat.le_trans h1 h2)

/-- The last pattern not above the magnitude, the numbers being multiplied by `k`. -/
def Below (f : Fmt) (k : Nat) (x : Cut) (p : Nat) : Prop :=
  p ≤ infPat f ∧ x.le (2 * (scaled f p * k)) ∧ (p ≠ infPat f → ¬ x.le (2 * (scaled f (p + 1) * k)))

/-- Twice the point between the numbers of patterns `p` and `p + 1`. -/
def mid (f : Fmt) (k p : Nat) : Nat := (scaled f p + scaled f (p + 1)) * k

/-- The pattern chosen. -/
def Choice (f : Fmt) (k : Nat) (o : Mode) (x : Cut) (p q : Nat) : Prop :=
  match o with
  | .down => (p = infPat f → q = infPat f - 1) ∧ (p ≠ infPat f → q = p)
  | .up => (p = infPat f ∨ x.ge (2 * (scaled f p * k)) → q = p) ∧
      (¬ (p = infPat f ∨ x.ge (2 * (scaled f p * k))) → q = p + 1)
  | .nearestEven => (p = infPat f → q = p) ∧ (p ≠ infPat f →
      (¬ x.le (mid f k p) → q = p) ∧ (¬ x.ge (mid f k p) → q = p + 1) ∧
      (x.le (mid f k p) → x.ge (mid f k p) → q = if p % 2 = 0 then p else p + 1))
  | .nearestAway => (p = infPat f → q = p) ∧ (p ≠ infPat f →
      (¬ x.le (mid f k p) → q = p) ∧ (x.le (mid f k p) → q = p + 1))

def Rounds (f : Fmt) (k : Nat) (o : Mode) (x : Cut) (q : Nat) : Prop :=
  ∃ p, Below f k x p ∧ Choice f k o x p q

theorem not_le (x : Cut) {c : Nat} (h : ¬ x.le c) : x.ge c := (x.total c).resolve_left h
theorem not_ge (x : Cut) {c : Nat} (h : ¬ x.ge c) : x.le c := (x.total c).resolve_right h

theorem below_exists (f : Fmt) (k : Nat) (x : Cut) : ∃ p, Below f k x p := by
  have key : ∀ n ≤ infPat f, (∃ p, Below f k x p) ∨ x.le (2 * (scaled f n * k)) := by
    intro n
    induction n with
    | zero => intro _; right; rw [scaled_zero]; simpa using x.nonneg
    | succ n ih =>
      intro hn
      rcases ih (by omega) with h | h
      · exact Or.inl h
      · by_cases q : x.le (2 * (scaled f (n + 1) * k))
        · exact Or.inr q
        · exact Or.inl ⟨n, by omega, h, fun _ => q⟩
  rcases key _ (Nat.le_refl _) with h | h
  · exact h
  · exact ⟨_, Nat.le_refl _, h, fun q => absurd rfl q⟩

theorem choice_range {k p q : Nat} {o : Mode} {x : Cut} (h : Choice f k o x p q) :
    (p = infPat f → q = p ∨ q = infPat f - 1) ∧ (p ≠ infPat f → q = p ∨ q = p + 1) := by
  constructor
  · intro hp
    cases o with
    | down => exact Or.inr (h.1 hp)
    | up => exact Or.inl (h.1 (Or.inl hp))
    | nearestEven => exact Or.inl (h.1 hp)
    | nearestAway => exact Or.inl (h.1 hp)
  · intro hp
    cases o with
    | down => exact Or.inl (h.2 hp)
    | up =>
      by_cases g : p = infPat f ∨ x.ge (2 * (scaled f p * k))
      · exact Or.inl (h.1 g)
      · exact Or.inr (h.2 g)
    | nearestEven =>
      obtain ⟨h1, h2, h3⟩ := h.2 hp
      by_cases a : x.le (mid f k p)
      · by_cases b : x.ge (mid f k p)
        · have := h3 a b; split at this <;> simp [this]
        · exact Or.inr (h2 b)
      · exact Or.inl (h1 a)
    | nearestAway =>
      obtain ⟨h1, h2⟩ := h.2 hp
      by_cases a : x.le (mid f k p)
      · exact Or.inr (h2 a)
      · exact Or.inl (h1 a)

theorem scaled_le_iff {p q : Nat} : scaled f p ≤ scaled f q ↔ p ≤ q := by
  constructor
  · intro h
    rcases Nat.lt_or_ge q p with g | g
    · have := scaled_lt (f := f) g; omega
    · exact g
  · intro h
    rcases Nat.lt_or_ge p q with g | g
    · exact Nat.le_of_lt (scaled_lt g)
    · have : p = q := by omega
      rw [this]; exact Nat.le_refl _

theorem scaled_lt_iff {p q : Nat} : scaled f p < scaled f q ↔ p < q := by
  rw [← Nat.not_le, ← Nat.not_le, scaled_le_iff]

/-- A number not above the magnitude is not above the result. -/
theorem test_le {k q R : Nat} {o : Mode} {x : Cut} (h : Rounds f k o x q) (hR : R < infPat f)
    (hl : x.le (2 * (scaled f R * k))) : R ≤ q := by
  obtain ⟨p, ⟨h1, h2, h3⟩, hc⟩ := h
  have hr := choice_range hc
  by_cases hp : p = infPat f
  · have := hr.1 hp; omega
  · have : R ≤ p := by
      rcases Nat.lt_or_ge p R with g | g
      · exfalso
        apply h3 hp
        apply x.le_mono _ hl
        exact Nat.mul_le_mul_left _ (Nat.mul_le_mul_right _ (scaled_le_iff.mpr g))
      · exact g
    have := hr.2 hp
    omega

/-- A number not below the magnitude is not below the result. -/
theorem test_ge {k q R : Nat} {o : Mode} {x : Cut} (hk : 0 < k) (h : Rounds f k o x q)
    (hR : R < infPat f) (hg : x.ge (2 * (scaled f R * k))) : q ≤ R := by
  obtain ⟨p, ⟨h1, h2, h3⟩, hc⟩ := h
  have hpR : p ≤ R := by
    have := x.sep h2 hg
    have := Nat.le_of_mul_le_mul_left this (by decide)
    exact scaled_le_iff.mp (Nat.le_of_mul_le_mul_right this hk)
  have hp : p ≠ infPat f := by omega
  have hr := (choice_range hc).2 hp
  rcases Nat.lt_or_ge p R with g | g
  · omega
  · have e : p = R := by omega
    subst e
    have hmid : ¬ x.le (mid f k p) := by
      intro hl
      have := x.sep hl hg
      unfold mid at this
      rw [← Nat.mul_assoc] at this
      have := Nat.le_of_mul_le_mul_right this hk
      have := scaled_succ (f := f) p
      omega
    cases o with
    | down => have := hc.2 hp; omega
    | up => have := hc.1 (Or.inr hg); omega
    | nearestEven => have := (hc.2 hp).1 hmid; omega
    | nearestAway => have := (hc.2 hp).1 hmid; omega

/-- To nearest: above the point between two neighbours, the upper one or more. -/
theorem test_mid_le {k q R : Nat} {x : Cut} (h : Rounds f k .nearestEven x q) (hR : R < infPat f)
    (hl : ¬ x.ge (mid f k R)) : R + 1 ≤ q := by
  have hle := not_ge x hl
  have h0 : R ≤ q := test_le h hR (x.le_mono (by
    unfold mid; rw [← Nat.mul_assoc]
    exact Nat.mul_le_mul_right _ (by have := scaled_succ (f := f) R; omega)) hle)
  obtain ⟨p, ⟨h1, h2, h3⟩, hc⟩ := h
  by_cases hp : p = infPat f
  · have := hc.1 hp; omega
  · have hRp : R ≤ p := by
      rcases Nat.lt_or_ge p R with g | g
      · exfalso
        apply h3 hp
        refine x.le_mono (Nat.le_trans (Nat.mul_le_mul_left _ (Nat.mul_le_mul_right _ (scaled_le_iff.mpr g))) ?_) hle
        unfold mid; rw [← Nat.mul_assoc]
        exact Nat.mul_le_mul_right _ (by have := scaled_succ (f := f) R; omega)
      · exact g
    have hr := (choice_range hc).2 hp
    rcases Nat.lt_or_ge R p with g | g
    · omega
    · have e : p = R := by omega
      subst e
      have := (hc.2 hp).2.1 hl
      omega

theorem test_mid_ge {k q R : Nat} {x : Cut} (hk : 0 < k) (h : Rounds f k .nearestEven x q)
    (hR : R < infPat f) (hl : ¬ x.le (mid f k R)) : q ≤ R := by
  have hge := not_le x hl
  obtain ⟨p, ⟨h1, h2, h3⟩, hc⟩ := h
  have hpR : p ≤ R := by
    have := x.sep h2 hge
    unfold mid at this
    rw [← Nat.mul_assoc] at this
    have := Nat.le_of_mul_le_mul_right this hk
    have h4 := scaled_succ (f := f) R
    have : scaled f p < scaled f (R + 1) := by omega
    have := scaled_lt_iff.mp this
    omega
  have hp : p ≠ infPat f := by omega
  have hr := (choice_range hc).2 hp
  rcases Nat.lt_or_ge p R with g | g
  · omega
  · have e : p = R := by omega
    subst e
    have := (hc.2 hp).1 hl
    omega

/-- Rounding up does not go below, rounding down not above. -/
theorem up_ge {k q : Nat} {x : Cut} (h : Rounds f k .up x q) (hq : q < infPat f) :
    x.ge (2 * (scaled f q * k)) := by
  obtain ⟨p, ⟨h1, h2, h3⟩, hc⟩ := h
  by_cases hp : p = infPat f
  · have := hc.1 (Or.inl hp); omega
  · by_cases g : x.ge (2 * (scaled f p * k))
    · rw [hc.1 (Or.inr g)]; exact g
    · rw [hc.2 (by rintro (a | a) <;> contradiction)]; exact not_le x (h3 hp)

theorem down_le {k q : Nat} {x : Cut} (h : Rounds f k .down x q) : x.le (2 * (scaled f q * k)) := by
  obtain ⟨p, ⟨h1, h2, h3⟩, hc⟩ := h
  by_cases hp : p = infPat f
  · rw [hc.1 hp]
    apply x.le_mono _ h2
    exact Nat.mul_le_mul_left _ (Nat.mul_le_mul_right _ (scaled_le_iff.mpr (by omega)))
  · rw [hc.2 hp]; exact h2

/-! ### Half precision numbers and the points between them are single precision numbers -/

/-- The number of single precision units in a half precision unit. -/
def K : Nat := 2 ^ 125

theorem K_pos : 0 < K := Nat.two_pow_pos _

theorem scaled_infPat_single : scaled single (infPat single) = 2 ^ 27 * (K * K) := by decide +kernel
theorem scaled_infPat_half : scaled half (infPat half) = 2 ^ 40 := by decide +kernel
theorem unit_single : unit single = 2 ^ 24 * K := by decide +kernel
theorem unit_half : unit half = 2 ^ 24 := by decide +kernel

/-- The numbers with significand `z` and exponent `t`. -/
theorem grid (t z : Nat) (hz : z ≤ 2 * 2 ^ f.s) (ht : 0 < t → 2 ^ f.s ≤ z) :
    scaled f (t * 2 ^ f.s + z) = z * 2 ^ t := by
  have hP := Nat.two_pow_pos f.s
  unfold scaled
  generalize 2 ^ f.s = P at *
  rw [Nat.mul_comm t P, Nat.mul_add_div hP, Nat.mul_add_mod]
  rcases Nat.lt_or_ge z P with a | a
  · have t0 : t = 0 := by
      rcases Nat.eq_zero_or_pos t with q | q
      · exact q
      · have := ht q; omega
    subst t0
    rw [Nat.div_eq_of_lt a]; simp
  · rcases Nat.lt_or_ge z (2 * P) with b | b
    · have e : z = P * 1 + (z - P) := by omega
      have e1 : z / P = 1 := by
        rw [e, Nat.mul_add_div hP, Nat.div_eq_of_lt (by omega)]
      have e2 : z % P = z - P := by rw [e, Nat.mul_add_mod, Nat.mod_eq_of_lt (by omega)]; omega
      rw [e1, e2, if_neg (by omega)]
      congr 1
      omega
    · have e : z = P * 2 := by omega
      rw [e, Nat.mul_div_cancel_left _ hP, Nat.mul_mod_right, if_neg (by omega), Nat.add_zero,
        show t + 2 - 1 = t + 1 from by omega, Nat.pow_succ]
      grind

/-- Neighbours. -/
theorem neighbours (p : Nat) (hp : p < infPat half) :
    ∃ t z, t ≤ 29 ∧ z < 2048 ∧ (0 < t → 1024 ≤ z) ∧ p = t * 1024 + z ∧ scaled half p = z * 2 ^ t ∧
      scaled half (p + 1) = (z + 1) * 2 ^ t := by
  have hi : infPat half = 31744 := by decide
  have hs : 2 ^ half.s = 1024 := by decide
  obtain ⟨t, z, h1, h2, h3, h4⟩ : ∃ t z, t ≤ 29 ∧ z < 2048 ∧ (0 < t → 1024 ≤ z) ∧ p = t * 1024 + z := by
    rcases Nat.lt_or_ge p 2048 with a | a
    · exact ⟨0, p, by omega, a, by omega, by omega⟩
    · exact ⟨p / 1024 - 1, p % 1024 + 1024, by omega, by omega, by omega, by omega⟩
  refine ⟨t, z, h1, h2, h3, h4, ?_, ?_⟩
  · have := grid (f := half) t z (by rw [hs]; omega) (by rw [hs]; exact h3)
    rw [hs] at this; rw [h4]; exact this
  · have := grid (f := half) t (z + 1) (by rw [hs]; omega) (by rw [hs]; intro q; have := h3 q; omega)
    rw [hs] at this; rw [h4, Nat.add_assoc]; exact this

/-- A significand of 24 bits times a power of two, within reason. -/
theorem single_num (c k : Nat) (hc : c < 2 ^ 24) (hk : k ≤ 240) :
    ∃ R < infPat single, scaled single R = c * 2 ^ k := by
  apply representable c k hc
  rw [scaled_infPat_single]
  have h1 : 2 ^ k ≤ 2 ^ 240 := Nat.pow_le_pow_right (by decide) hk
  calc c * 2 ^ k ≤ c * 2 ^ 240 := Nat.mul_le_mul_left _ h1
    _ < 2 ^ 24 * 2 ^ 240 := Nat.mul_lt_mul_of_pos_right hc (Nat.two_pow_pos _)
    _ ≤ 2 ^ 27 * (K * K) := by unfold K; decide +kernel

theorem embed (p : Nat) (hp : p ≤ infPat half) :
    ∃ R < infPat single, scaled single R = scaled half p * K := by
  by_cases h : p = infPat half
  · obtain ⟨R, h1, h2⟩ := single_num 1 165 (by decide) (by decide)
    refine ⟨R, h1, ?_⟩
    rw [h2, h, scaled_infPat_half]; decide +kernel
  · obtain ⟨t, z, h1, h2, -, -, h5, -⟩ := neighbours p (by omega)
    obtain ⟨R, g1, g2⟩ := single_num z (t + 125) (by omega) (by omega)
    exact ⟨R, g1, by rw [g2, h5, Nat.pow_add, Nat.mul_assoc]; rfl⟩

theorem embed_mid (p : Nat) (hp : p < infPat half) :
    ∃ R < infPat single, 2 * scaled single R = mid half K p := by
  obtain ⟨t, z, h1, h2, -, -, h5, h6⟩ := neighbours p hp
  obtain ⟨R, g1, g2⟩ := single_num (2 * z + 1) (t + 124) (by omega) (by omega)
  refine ⟨R, g1, ?_⟩
  unfold mid
  rw [g2, h5, h6, show K = 2 ^ 124 * 2 from by decide +kernel, Nat.pow_add]
  generalize 2 ^ 124 = k
  generalize 2 ^ t = T
  grind

/-! ### Rounding twice -/

theorem round_twice {o : Mode} {x : Cut} {q g : Nat} (ho : o ≠ .nearestAway) (hq : q < infPat single)
    (h1 : Rounds single 1 o x q) (h2 : Rounds half K o (ratio (scaled single q) 1 (by decide)) g)
    (hf : o = .nearestEven → ∀ p < infPat half, 2 * scaled single q = mid half K p →
      x.le (mid half K p) ∧ x.ge (mid half K p)) :
    Rounds half K o x g := by
  obtain ⟨p, hb⟩ := below_exists half K x
  refine ⟨p, hb, ?_⟩
  obtain ⟨b1, b2, b3⟩ := hb
  obtain ⟨p', ⟨c1, c2, c3⟩, hc⟩ := h2
  have c2' : scaled half p' * K ≤ scaled single q := by
    have : 2 * (scaled half p' * K) * 1 ≤ 2 * scaled single q := c2
    omega
  have c3' : p' ≠ infPat half → scaled single q < scaled half (p' + 1) * K := by
    intro a
    have : ¬ (2 * (scaled half (p' + 1) * K) * 1 ≤ 2 * scaled single q) := c3 a
    omega
  have lift1 : ∀ r ≤ infPat half, x.le (2 * (scaled half r * K)) → scaled half r * K ≤ scaled single q := by
    intro r hr hl
    obtain ⟨R, e1, e2⟩ := embed r hr
    rw [← e2]
    exact scaled_le_iff.mpr (test_le h1 e1 (by rw [Nat.mul_one, e2]; exact hl))
  have lift2 : ∀ r ≤ infPat half, x.ge (2 * (scaled half r * K)) → scaled single q ≤ scaled half r * K := by
    intro r hr hl
    obtain ⟨R, e1, e2⟩ := embed r hr
    rw [← e2]
    exact scaled_le_iff.mpr (test_ge (by decide) h1 e1 (by rw [Nat.mul_one, e2]; exact hl))
  have mon : ∀ {a b : Nat}, scaled half a * K ≤ scaled half b * K → a ≤ b := fun h =>
    scaled_le_iff.mp (Nat.le_of_mul_le_mul_right h K_pos)
  have mon' : ∀ {a b : Nat}, scaled half a * K < scaled half b * K → a < b := fun h =>
    scaled_lt_iff.mp (Nat.lt_of_mul_lt_mul_right h)
  by_cases hp : p = infPat half
  · have l := lift1 p b1 b2
    have hp' : p' = infPat half := by
      apply Classical.byContradiction
      intro a
      have := mon' (Nat.lt_of_le_of_lt l (c3' a))
      omega
    cases o with
    | down => exact ⟨fun _ => hc.1 hp', fun a => absurd hp a⟩
    | up => exact ⟨fun _ => by rw [hc.1 (Or.inl hp'), hp', hp], fun a => absurd (Or.inl hp) a⟩
    | nearestEven => exact ⟨fun _ => by rw [hc.1 hp', hp', hp], fun a => absurd hp a⟩
    | nearestAway => exact absurd rfl ho
  · have lo := lift1 p b1 b2
    have hi := lift2 (p + 1) (by omega) (not_le x (b3 hp))
    -- the two cases for the second floor
    have same : scaled single q < scaled half (p + 1) * K → p' = p := by
      intro a
      have g1 : p' < p + 1 := mon' (Nat.lt_of_le_of_lt c2' a)
      by_cases e : p' = infPat half
      · omega
      · have := mon' (Nat.lt_of_le_of_lt lo (c3' e)); omega
    have next : scaled single q = scaled half (p + 1) * K → p' = p + 1 := by
      intro a
      have g1 : p' ≤ p + 1 := mon (by omega)
      by_cases e : p' = infPat half
      · omega
      · have := mon' (a ▸ c3' e); omega
    have hmid : mid half K p = scaled half p * K + scaled half (p + 1) * K := by
      unfold mid; rw [Nat.add_mul]
    have hlt : scaled half p * K < scaled half (p + 1) * K :=
      Nat.mul_lt_mul_of_pos_right (scaled_succ p) K_pos
    -- exact results are kept
    have keep : p' = p + 1 → g = p + 1 ∨ o = .down := by
      intro e
      have es : scaled single q = scaled half (p + 1) * K := by
        have := e ▸ c2'
        omega
      have hge : (ratio (scaled single q) 1 (by decide)).ge (2 * (scaled half p' * K)) := by
        show 2 * scaled single q ≤ 2 * (scaled half p' * K) * 1
        rw [e, es]; omega
      have hnl : ¬ (ratio (scaled single q) 1 (by decide)).le (mid half K p') := by
        show ¬ (mid half K p' * 1 ≤ 2 * scaled single q)
        have : scaled half p' * K < scaled half (p' + 1) * K :=
          Nat.mul_lt_mul_of_pos_right (scaled_succ p') K_pos
        have h9 : mid half K p' = scaled half p' * K + scaled half (p' + 1) * K := by
          unfold mid; rw [Nat.add_mul]
        rw [h9, es, ← e]; omega
      cases o with
      | down => exact Or.inr rfl
      | up => exact Or.inl (by rw [hc.1 (Or.inr hge), e])
      | nearestEven =>
        left
        by_cases i : p' = infPat half
        · rw [hc.1 i, e]
        · rw [(hc.2 i).1 hnl, e]
      | nearestAway => exact absurd rfl ho
    cases o with
    | down =>
      have hd := down_le h1
      rw [Nat.mul_one] at hd
      have hs : scaled single q < scaled half (p + 1) * K := by
        apply Nat.lt_of_le_of_ne hi
        intro e
        exact b3 hp (e ▸ hd)
      have e := same hs
      exact ⟨fun a => absurd a hp, fun _ => by rw [hc.2 (e ▸ hp), e]⟩
    | up =>
      have hu := up_ge h1 hq
      rw [Nat.mul_one] at hu
      refine ⟨fun a => ?_, fun a => ?_⟩
      · have a := a.resolve_left hp
        have es := lift2 p b1 a
        have e := same (by omega)
        rw [hc.1 (Or.inr _), e]
        show 2 * scaled single q ≤ 2 * (scaled half p' * K) * 1
        rw [e]; omega
      · have hgt : scaled half p * K < scaled single q := by
          apply Nat.lt_of_le_of_ne lo
          intro e
          exact a (Or.inr (e ▸ hu))
        by_cases hs : scaled single q < scaled half (p + 1) * K
        · have e := same hs
          rw [hc.2 _, e]
          rintro (i | i)
          · exact hp (e ▸ i)
          · have : 2 * scaled single q ≤ 2 * (scaled half p' * K) * 1 := i
            rw [e] at this; omega
        · exact (keep (next (by omega))).resolve_right (by intro h; cases h)
    | nearestEven =>
      obtain ⟨R, e1, e2⟩ := embed_mid p (by omega)
      have hf := hf rfl p (by omega)
      refine ⟨fun a => absurd a hp, fun _ => ⟨fun a => ?_, fun a => ?_, fun a b => ?_⟩⟩
      · have := scaled_le_iff (f := single).mpr (test_ge (by decide) h1 e1 (by
          rw [Nat.mul_one, e2]; exact not_le x a))
        have hs : 2 * scaled single q < mid half K p := by
          apply Nat.lt_of_le_of_ne (by omega)
          intro e
          exact a (hf e).1
        have e := same (by omega)
        rw [(hc.2 (e ▸ hp)).1 _, e]
        show ¬ (mid half K p' * 1 ≤ 2 * scaled single q)
        rw [e]; omega
      · have := scaled_le_iff (f := single).mpr (test_le h1 e1 (by
          rw [Nat.mul_one, e2]; exact not_ge x a))
        have hs : mid half K p < 2 * scaled single q := by
          apply Nat.lt_of_le_of_ne (by omega)
          intro e
          exact a (hf e.symm).2
        by_cases hs' : scaled single q < scaled half (p + 1) * K
        · have e := same hs'
          rw [(hc.2 (e ▸ hp)).2.1 _, e]
          show ¬ (2 * scaled single q ≤ mid half K p' * 1)
          rw [e]; omega
        · exact (keep (next (by omega))).resolve_right (by intro h; cases h)
      · have t1 := scaled_le_iff (f := single).mpr (test_ge (by decide) h1 e1 (by rw [Nat.mul_one, e2]; exact b))
        have t2 := scaled_le_iff (f := single).mpr (test_le h1 e1 (by rw [Nat.mul_one, e2]; exact a))
        have e := same (by omega)
        have := (hc.2 (e ▸ hp)).2.2 (by
          show mid half K p' * 1 ≤ 2 * scaled single q
          rw [e]; omega) (by
          show 2 * scaled single q ≤ mid half K p' * 1
          rw [e]; omega)
        rw [this, e]
    | nearestAway => exact absurd rfl ho

/-! ### Quotients and square roots -/

theorem rounds_ratio {k n m q : Nat} {o : Mode} (hm : 0 < m) :
    Rounds f k o (ratio n m hm) q ↔ ∃ p, Floor f p n (m * k) ∧ q = roundPat f o p n (m * k) := by
  have c1 : ∀ a : Nat, (ratio n m hm).le (2 * (a * k)) ↔ a * (m * k) ≤ n := by
    intro a
    show 2 * (a * k) * m ≤ 2 * n ↔ _
    have : 2 * (a * k) * m = 2 * (a * (m * k)) := by grind
    rw [this]; omega
  have c2 : ∀ a : Nat, (ratio n m hm).ge (2 * (a * k)) ↔ n ≤ a * (m * k) := by
    intro a
    show 2 * n ≤ 2 * (a * k) * m ↔ _
    have : 2 * (a * k) * m = 2 * (a * (m * k)) := by grind
    rw [this]; omega
  have c3 : ∀ p, (ratio n m hm).le (mid f k p) ↔ (scaled f p + scaled f (p + 1)) * (m * k) ≤ 2 * n := by
    intro p
    show mid f k p * m ≤ 2 * n ↔ _
    unfold mid
    rw [Nat.mul_assoc, Nat.mul_comm k m]
  have c4 : ∀ p, (ratio n m hm).ge (mid f k p) ↔ 2 * n ≤ (scaled f p + scaled f (p + 1)) * (m * k) := by
    intro p
    show 2 * n ≤ mid f k p * m ↔ _
    unfold mid
    rw [Nat.mul_assoc, Nat.mul_comm k m]
  have fl : ∀ p, Below f k (ratio n m hm) p ↔ Floor f p n (m * k) := by
    intro p
    unfold Below Floor
    rw [c1, c1, Nat.not_le]
  unfold Rounds
  refine exists_congr fun p => ?_
  rw [fl]
  refine and_congr_right fun hfl => ?_
  unfold Choice roundPat
  have hle := hfl.2.1
  cases o with
  | down => by_cases a : p = infPat f <;> simp [a]
  | up =>
    simp only [c2]
    by_cases a : p = infPat f
    · simp [a]
    · simp only [a, false_or]
      by_cases b : scaled f p * (m * k) = n
      · rw [if_pos b]
        simp [b]
      · rw [if_neg b]
        have : ¬ (n ≤ scaled f p * (m * k)) := by omega
        simp [this]
  | nearestEven =>
    simp only [c3, c4]
    by_cases a : p = infPat f
    · simp [a]
    · simp only [a, if_false, false_implies, true_and, not_false_eq_true, true_implies, ne_eq]
      generalize (scaled f p + scaled f (p + 1)) * (m * k) = c
      generalize (if p % 2 = 0 then p else p + 1) = e
      rcases Nat.lt_trichotomy (2 * n) c with b | b | b
      · rw [if_pos b]
        constructor
        · intro h; exact h.1 (by omega)
        · intro h; exact ⟨fun _ => h, fun q => by omega, fun q => by omega⟩
      · rw [if_neg (c := 2 * n < c) (by omega), if_neg (c := c < 2 * n) (by omega)]
        constructor
        · intro h; exact h.2.2 (by omega) (by omega)
        · intro h; exact ⟨fun q => by omega, fun q => by omega, fun _ _ => h⟩
      · rw [if_neg (c := 2 * n < c) (by omega), if_pos b]
        constructor
        · intro h; exact h.2.1 (by omega)
        · intro h; exact ⟨fun q => by omega, fun _ => h, fun _ q => by omega⟩
  | nearestAway =>
    simp only [c3]
    by_cases a : p = infPat f
    · simp [a]
    · simp only [a, if_false, false_implies, true_and, not_false_eq_true, true_implies, ne_eq]
      generalize (scaled f p + scaled f (p + 1)) * (m * k) = c
      rcases Nat.lt_or_ge (2 * n) c with b | b
      · rw [if_pos b]
        constructor
        · intro h; exact h.1 (by omega)
        · intro h; exact ⟨fun _ => h, fun q => by omega⟩
      · rw [if_neg (by omega)]
        constructor
        · intro h; exact h.2 (by omega)
        · intro h; exact ⟨fun q => by omega, fun _ => h⟩

/-- What `sqrtPat` says, for a square root below infinity. -/
theorem rounds_root {k n q : Nat} {o : Mode} (hk : 0 < k) (hn : n < scaled f (infPat f) ^ 2) :
    Rounds f k o (root (n * k ^ 2)) q ↔ ∃ p, scaled f p ^ 2 ≤ n ∧ n < scaled f (p + 1) ^ 2 ∧
      q = FpArith.Spec.sqrtPat f o p n := by
  have hk2 : 0 < k ^ 2 := Nat.pow_pos hk
  have le2 : ∀ a b : Nat, a ^ 2 < b ^ 2 ↔ a < b := fun a b => Nat.pow_lt_pow_iff_left (by decide)
  have c1 : ∀ a : Nat, (root (n * k ^ 2)).le (2 * (a * k)) ↔ a ^ 2 ≤ n := by
    intro a
    show (2 * (a * k)) ^ 2 ≤ 4 * (n * k ^ 2) ↔ _
    have e : (2 * (a * k)) ^ 2 = 4 * (a ^ 2 * k ^ 2) := by grind
    rw [e, Nat.mul_le_mul_left_iff (by decide), Nat.mul_le_mul_right_iff hk2]
  have c2 : ∀ a : Nat, (root (n * k ^ 2)).ge (2 * (a * k)) ↔ n ≤ a ^ 2 := by
    intro a
    show 4 * (n * k ^ 2) ≤ (2 * (a * k)) ^ 2 ↔ _
    have e : (2 * (a * k)) ^ 2 = 4 * (a ^ 2 * k ^ 2) := by grind
    rw [e, Nat.mul_le_mul_left_iff (by decide), Nat.mul_le_mul_right_iff hk2]
  have c3 : ∀ p, (root (n * k ^ 2)).le (mid f k p) ↔ (scaled f p + scaled f (p + 1)) ^ 2 ≤ 4 * n := by
    intro p
    show mid f k p ^ 2 ≤ 4 * (n * k ^ 2) ↔ _
    unfold mid
    rw [Nat.mul_pow, ← Nat.mul_assoc, Nat.mul_le_mul_right_iff hk2]
  have c4 : ∀ p, (root (n * k ^ 2)).ge (mid f k p) ↔ 4 * n ≤ (scaled f p + scaled f (p + 1)) ^ 2 := by
    intro p
    show 4 * (n * k ^ 2) ≤ mid f k p ^ 2 ↔ _
    unfold mid
    rw [Nat.mul_pow, ← Nat.mul_assoc, Nat.mul_le_mul_right_iff hk2]
  have fl : ∀ p, Below f k (root (n * k ^ 2)) p ↔ scaled f p ^ 2 ≤ n ∧ n < scaled f (p + 1) ^ 2 := by
    intro p
    unfold Below
    rw [c1, c1, Nat.not_le]
    constructor
    · rintro ⟨h1, h2, h3⟩
      refine ⟨h2, h3 fun e => ?_⟩
      rw [e] at h2; omega
    · rintro ⟨h1, h2⟩
      refine ⟨?_, h1, fun _ => h2⟩
      have : scaled f p < scaled f (infPat f) := (le2 _ _).mp (by omega)
      exact Nat.le_of_lt (scaled_lt_iff.mp this)
  unfold Rounds
  refine exists_congr fun p => ?_
  rw [fl, and_assoc]
  refine and_congr_right fun h1 => and_congr_right fun h2 => ?_
  have a : p ≠ infPat f := by
    intro e
    rw [e] at h1; omega
  unfold Choice FpArith.Spec.sqrtPat
  cases o with
  | down => simp [a]
  | up =>
    simp only [c2, a, false_or]
    by_cases b : scaled f p ^ 2 = n
    · rw [if_pos b]
      simp [b]
    · rw [if_neg b]
      have : ¬ (n ≤ scaled f p ^ 2) := by omega
      simp [this]
  | nearestEven =>
    simp only [c3, c4, a, false_implies, true_and, not_false_eq_true, true_implies, ne_eq]
    generalize (scaled f p + scaled f (p + 1)) ^ 2 = c
    generalize (if p % 2 = 0 then p else p + 1) = e
    rcases Nat.lt_trichotomy (4 * n) c with b | b | b
    · rw [if_pos b]
      constructor
      · intro h; exact h.1 (by omega)
      · intro h; exact ⟨fun _ => h, fun q => by omega, fun q => by omega⟩
    · rw [if_neg (c := 4 * n < c) (by omega), if_neg (c := c < 4 * n) (by omega)]
      constructor
      · intro h; exact h.2.2 (by omega) (by omega)
      · intro h; exact ⟨fun q => by omega, fun q => by omega, fun _ _ => h⟩
    · rw [if_neg (c := 4 * n < c) (by omega), if_pos b]
      constructor
      · intro h; exact h.2.1 (by omega)
      · intro h; exact ⟨fun q => by omega, fun _ => h, fun _ q => by omega⟩
  | nearestAway =>
    simp only [c3, a, false_implies, true_and, not_false_eq_true, true_implies, ne_eq]
    generalize (scaled f p + scaled f (p + 1)) ^ 2 = c
    rcases Nat.lt_or_ge (4 * n) c with b | b
    · rw [if_pos b]
      constructor
      · intro h; exact h.1 (by omega)
      · intro h; exact ⟨fun _ => h, fun q => by omega⟩
    · rw [if_neg (by omega)]
      constructor
      · intro h; exact h.2 (by omega)
      · intro h; exact ⟨fun q => by omega, fun _ => h⟩

end Verif.HalfArith
