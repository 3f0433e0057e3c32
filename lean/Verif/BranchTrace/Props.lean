import Verif.BranchTrace.Spec
/-
C55: the branch trace holds the most recent runs of identical branches, through any sequence of branches
and resizes.
-/
namespace Verif.BranchTrace
open Spec

/-! ### Powers of two -/

theorem popcount_zero (n x : Nat) (hx : x < 2 ^ n) : popcount n x = 0 ↔ x = 0 := by
  induction n generalizing x with
  | zero => simp [popcount]; omega
  | succ n ih =>
    have := ih (x / 2) (by rw [Nat.pow_succ] at hx; omega)
    unfold popcount
    omega

theorem popcount_one (n x : Nat) (hx : x < 2 ^ n) : popcount n x = 1 ↔ PowerOfTwo x := by
  induction n generalizing x with
  | zero =>
    have : x = 0 := by omega
    subst this
    simp only [popcount, PowerOfTwo]
    constructor
    · omega
    · rintro ⟨k, hk⟩
      have := Nat.two_pow_pos k
      omega
  | succ n ih =>
    have hx' : x / 2 < 2 ^ n := by rw [Nat.pow_succ] at hx; omega
    have h1 := ih (x / 2) hx'
    have h0 := popcount_zero n (x / 2) hx'
    unfold popcount
    constructor
    · intro h
      by_cases e : x % 2 = 1
      · exact ⟨0, by have := h0.1 (by omega); simp; omega⟩
      · obtain ⟨k, hk⟩ := h1.1 (by omega)
        exact ⟨k + 1, by rw [Nat.pow_succ]; omega⟩
    · rintro ⟨k, hk⟩
      cases k with
      | zero =>
        have : popcount n (x / 2) = 0 := h0.2 (by simp at hk; omega)
        simp at hk; omega
      | succ k =>
        rw [Nat.pow_succ] at hk
        have := h1.2 ⟨k, by omega⟩
        omega

/-! ### The ring buffer -/

/-- Structural facts about the buffer. -/
structure Wf (s : State) : Prop where
  pow : PowerOfTwo s.size
  mask : s.mask = s.size - 1
  head : s.head < s.size

theorem wf_pos {s : State} (h : Wf s) : 0 < s.size := by
  obtain ⟨k, hk⟩ := h.pow
  have := Nat.two_pow_pos k
  omega

theorem wrap (s : State) (h : Wf s) : (s.head + 1) &&& s.mask = (s.head + 1) % s.size := by
  obtain ⟨k, hk⟩ := h.pow
  rw [h.mask, hk, Nat.and_two_pow_sub_one_eq_mod]

/-- Index of the entry `j` places before the head. -/
theorem index (h n j : Nat) (hh : h < n) (hj : j < n) :
    (h + n - j) % n = if j ≤ h then h - j else h + n - j := by
  split
  · rw [show h + n - j = (h - j) + n by omega, Nat.add_mod_right, Nat.mod_eq_of_lt (by omega)]
  · rw [Nat.mod_eq_of_lt (by omega)]

theorem index_succ (h n : Nat) (hh : h < n) : (h + 1) % n = if h + 1 = n then 0 else h + 1 := by
  split
  · rename_i e; rw [e, Nat.mod_self]
  · rw [Nat.mod_eq_of_lt (by omega)]

/-- The head entry updated in place. -/
theorem entry_update (s : State) (h : Wf s) (e : Entry) (j : Nat) (hj : j < s.size) :
    entry { s with buf := setBuf s.buf s.head e } j = if j = 0 then e else entry s j := by
  have hh := h.head
  show setBuf s.buf s.head e ((s.head + s.size - j) % s.size) = _
  unfold entry setBuf
  rw [index _ _ _ hh hj]
  by_cases hj0 : j = 0
  · subst hj0; simp
  · rw [if_neg hj0, if_neg]
    split <;> omega

/-- A new entry put in front. -/
theorem entry_push (s : State) (h : Wf s) (e : Entry) (j : Nat) (hj : j < s.size) :
    entry { s with head := (s.head + 1) &&& s.mask,
                   buf := setBuf s.buf ((s.head + 1) &&& s.mask) e } j
      = if j = 0 then e else entry s (j - 1) := by
  have hh := h.head
  rw [wrap s h, index_succ _ _ hh]
  show setBuf s.buf _ e ((_ + s.size - j) % s.size) = _
  unfold entry setBuf
  by_cases c : s.head + 1 = s.size
  · simp only [if_pos c]
    rw [index 0 _ _ (by omega) hj, index _ _ _ hh (by omega)]
    by_cases hj0 : j = 0
    · subst hj0; simp
    · rw [if_neg hj0, if_neg (show ¬(j ≤ 0) by omega), if_neg (show ¬(0 + s.size - j = 0) by omega),
        if_pos (show j - 1 ≤ s.head by omega)]
      congr 1; omega
  · simp only [if_neg c]
    rw [index _ _ _ (by omega) hj, index _ _ _ hh (by omega)]
    by_cases hj0 : j = 0
    · subst hj0; simp
    · rw [if_neg hj0]
      by_cases c' : j ≤ s.head + 1
      · rw [if_pos c', if_neg (show ¬(s.head + 1 - j = s.head + 1) by omega),
          if_pos (show j - 1 ≤ s.head by omega)]
        congr 1; omega
      · rw [if_neg c', if_neg (show ¬(s.head + 1 + s.size - j = s.head + 1) by omega),
          if_neg (show ¬(j - 1 ≤ s.head) by omega)]
        congr 1; omega

/-- The copying loop, started `j` entries back with `r` free slots: it copies entries `j, j+1, …` up
to the first empty one, the end of the old buffer or the last free slot. -/
theorem copy_spec (s : State) (h : Wf s) (u : Nat) (hu : u ≤ s.size)
    (used : ∀ j, j < u → (entry s j).count ≠ 0#32)
    (unused : ∀ j, u ≤ j → j < s.size → (entry s j).count = 0#32) (new : Nat → Entry) (r j : Nat)
    (hj : j < s.size) (hju : j ≤ u) :
    let c := copy s new r ((s.head + s.size - j) % s.size)
    c.2 = r - (u - j) ∧
      (∀ i, i < min r (u - j) → c.1 (r - 1 - i) = entry s (j + i)) ∧
      (∀ i, r ≤ i → c.1 i = new i) := by
  have hh := h.head
  induction r generalizing j new with
  | zero => simp [copy]
  | succ r ih =>
    simp only
    unfold copy
    have e0 : s.buf ((s.head + s.size - j) % s.size) = entry s j := rfl
    rw [e0]
    by_cases c : j < u
    · have hc := used j c
      have hp : 0 < (entry s j).count.toNat := by
        apply Nat.pos_of_ne_zero
        intro hz
        exact hc (BitVec.eq_of_toNat_eq (by simpa using hz))
      rw [if_pos hp]
      simp only
      have hold : (if (s.head + s.size - j) % s.size = 0 then s.size - 1
          else (s.head + s.size - j) % s.size - 1) = (s.head + s.size - (j + 1)) % s.size := by
        by_cases cl : j + 1 < s.size
        · rw [index _ _ _ hh hj, index _ _ _ hh cl]
          split <;> split <;> split <;> omega
        · have : j + 1 = s.size := by omega
          rw [index _ _ _ hh hj, this, Nat.add_sub_cancel, Nat.mod_eq_of_lt hh]
          split <;> split <;> omega
      rw [hold]
      by_cases cl : j + 1 < s.size
      · have hne : (s.head + s.size - (j + 1)) % s.size ≠ s.head := by
          rw [index _ _ _ hh cl]
          split <;> omega
        rw [if_neg hne]
        obtain ⟨i1, i2, i3⟩ := ih (setBuf new r (entry s j)) (j + 1) cl c
        refine ⟨by rw [i1]; omega, ?_, ?_⟩
        · intro i hi
          cases i with
          | zero =>
            rw [show r + 1 - 1 - 0 = r by omega, i3 r (Nat.le_refl r)]
            simp [setBuf]
          | succ i =>
            rw [show r + 1 - 1 - (i + 1) = r - 1 - i by omega, i2 i (by omega)]
            congr 1; omega
        · intro i hi
          rw [i3 i (by omega), setBuf, if_neg (by omega)]
      · have e : j + 1 = s.size := by omega
        have heq : (s.head + s.size - (j + 1)) % s.size = s.head := by
          rw [e, Nat.add_sub_cancel, Nat.mod_eq_of_lt hh]
        rw [if_pos heq]
        refine ⟨by show r = _; omega, ?_, ?_⟩
        · intro i hi
          have : i = 0 := by omega
          subst this
          show setBuf new r (entry s j) r = _
          simp [setBuf]
        · intro i hi
          show setBuf new r (entry s j) i = _
          rw [setBuf, if_neg (by omega)]
    · have : j = u := by omega
      have hz : (entry s j).count = 0#32 := unused j (by omega) hj
      rw [if_neg (by rw [hz]; simp)]
      refine ⟨by show r + 1 = _; omega, ?_, fun _ _ => rfl⟩
      intro i hi
      omega

/-! ### The refinement -/

/-- Runs fit the entries' 32-bit fields. -/
def Small (b : Nat) (l : List Run) : Prop :=
  ∀ r, r ∈ l → r.src.toNat < 2 ^ 32 ∧ r.dst.toNat < 2 ^ 32 ∧ 0 < r.count ∧ r.count ≤ b

theorem small_take {b : Nat} {l : List Run} (h : Small b l) (n : Nat) : Small b (l.take n) :=
  fun r hr => h r (List.mem_of_mem_take hr)

theorem push_cons (src dst : BitVec 64) (x : Run) (l : List Run) :
    push src dst (x :: l) = if src = x.src ∧ dst = x.dst then { x with count := x.count + 1 } :: l
      else ⟨src, dst, 1⟩ :: x :: l := rfl

theorem next_pow {n : BitVec 64} (h : PowerOfTwo n.toNat) (t : Trace) (junk : Nat → Entry) :
    next t (.resize n junk) = ⟨t.runs.take n.toNat, n.toNat⟩ := by
  simp only [next]; rw [if_pos h]

theorem next_other {n : BitVec 64} (h : ¬PowerOfTwo n.toNat) (t : Trace) (junk : Nat → Entry) :
    next t (.resize n junk) = t := by
  simp only [next]; rw [if_neg h]

theorem small_push {b : Nat} {l : List Run} (h : Small b l) (src dst : BitVec 64)
    (hs : src.toNat < 2 ^ 32) (hd : dst.toNat < 2 ^ 32) : Small (b + 1) (push src dst l) := by
  intro r hr
  cases l with
  | nil =>
    simp only [push, List.mem_singleton] at hr
    subst hr
    exact ⟨hs, hd, by simp, by simp⟩
  | cons x l =>
    rw [push_cons] at hr
    split at hr
    · rcases List.mem_cons.1 hr with rfl | hr
      · have := h x (List.mem_cons_self ..)
        exact ⟨this.1, this.2.1, by simp, by simp; omega⟩
      · have := h r (List.mem_cons_of_mem _ hr)
        exact ⟨this.1, this.2.1, this.2.2.1, by omega⟩
    · rcases List.mem_cons.1 hr with rfl | hr
      · exact ⟨hs, hd, by simp, by simp⟩
      · have := h r hr
        exact ⟨this.1, this.2.1, this.2.2.1, by omega⟩

theorem widen (x : BitVec 64) (h : x.toNat < 2 ^ 32) : (x.setWidth 32).setWidth 64 = x := by
  apply BitVec.eq_of_toNat_eq
  rw [BitVec.toNat_setWidth, BitVec.toNat_setWidth]
  omega

/-- The entry at the head compares equal to a branch exactly when the spec merges it. -/
theorem add_shows (s : State) (t : Trace) (b : Nat) (src dst : BitVec 64) (hs : src.toNat < 2 ^ 32)
    (hd : dst.toNat < 2 ^ 32) (w : Wf s) (h : Shows s t) (sm : Small b t.runs) (hb : b + 1 < 2 ^ 32) :
    Wf (add s src dst) ∧ Shows (add s src dst) { t with runs := (push src dst t.runs).take t.cap } := by
  have hpos := wf_pos w
  have hcap := h.size
  have e0 : s.buf s.head = entry s 0 := by
    unfold entry
    rw [Nat.sub_zero, Nat.add_mod_right, Nat.mod_eq_of_lt w.head]
  unfold add
  simp only [e0]
  by_cases c : src = (entry s 0).src.setWidth 64 ∧ dst = (entry s 0).dst.setWidth 64
  · rw [if_pos c]
    refine ⟨⟨w.pow, w.mask, w.head⟩, ?_⟩
    cases hl : t.runs with
    | nil =>
      have hz := h.empty 0 (by rw [hl]; simp) hpos
      have hp : (push src dst []).take t.cap = [⟨src, dst, 1⟩] := by
        rw [push, List.take_of_length_le (by simp; omega)]
      rw [hp]
      refine ⟨hcap, by simp; omega, ?_, ?_⟩
      · intro j r hr
        cases j with
        | succ j => simp at hr
        | zero =>
          simp only [List.getElem?_cons_zero, Option.some.injEq] at hr
          subst hr
          rw [entry_update s w _ 0 hpos, if_pos rfl]
          refine ⟨c.1.symm, c.2.symm, ?_⟩
          rw [hz]; rfl
      · intro j hj hjs
        simp at hj
        have hjs : j < s.size := hjs
        rw [entry_update s w _ j hjs, if_neg (by omega)]
        exact h.empty j (by rw [hl]; simp) hjs
    | cons x l =>
      have h0 := h.held 0 x (by rw [hl]; rfl)
      have hx := sm x (by rw [hl]; exact List.mem_cons_self ..)
      have hm : src = x.src ∧ dst = x.dst := ⟨c.1.trans h0.1, c.2.trans h0.2.1⟩
      have hlen := h.fits
      rw [hl] at hlen
      have hp : (push src dst (x :: l)).take t.cap = { x with count := x.count + 1 } :: l := by
        rw [push, if_pos hm, List.take_of_length_le (by simpa using hlen)]
      rw [hp]
      refine ⟨hcap, by simpa using hlen, ?_, ?_⟩
      · intro j r hr
        have hjl : j < s.size := by
          have := (List.getElem?_eq_some_iff.1 hr).1
          simp at this hlen
          omega
        rw [entry_update s w _ j hjl]
        cases j with
        | zero =>
          simp only [List.getElem?_cons_zero, Option.some.injEq] at hr
          subst hr
          rw [if_pos rfl]
          refine ⟨h0.1, h0.2.1, ?_⟩
          rw [BitVec.toNat_add, h0.2.2]
          show (x.count + 1) % 2 ^ 32 = x.count + 1
          omega
        | succ j =>
          rw [if_neg (by omega)]
          exact h.held (j + 1) r (by rw [hl]; exact hr)
      · intro j hj hjs
        have hjs : j < s.size := hjs
        simp at hj
        rw [entry_update s w _ j hjs, if_neg (by omega)]
        exact h.empty j (by rw [hl]; simpa using hj) hjs
  · rw [if_neg c]
    have hp : push src dst t.runs = ⟨src, dst, 1⟩ :: t.runs := by
      cases hl : t.runs with
      | nil => rfl
      | cons x l =>
        have h0 := h.held 0 x (by rw [hl]; rfl)
        rw [push, if_neg]
        rw [h0.1, h0.2.1] at c
        exact c
    rw [hp]
    refine ⟨⟨w.pow, w.mask, ?_⟩, hcap, by simp; omega, ?_, ?_⟩
    · show (s.head + 1) &&& s.mask < s.size
      rw [wrap s w]
      exact Nat.mod_lt _ hpos
    · intro j r hr
      rw [List.getElem?_take] at hr
      by_cases hj : j < t.cap
      · rw [if_pos hj] at hr
        rw [entry_push s w _ j (by omega)]
        cases j with
        | zero =>
          simp only [List.getElem?_cons_zero, Option.some.injEq] at hr
          subst hr
          rw [if_pos rfl]
          exact ⟨widen src hs, widen dst hd, rfl⟩
        | succ j =>
          rw [if_neg (by omega)]
          exact h.held j r hr
      · rw [if_neg hj] at hr
        exact absurd hr (by simp)
    · intro j hj hjs
      have hjs : j < s.size := hjs
      have hj : (List.take t.cap (({ src := src, dst := dst, count := 1 } : Run) :: t.runs)).length
        ≤ j := hj
      rw [List.length_take, List.length_cons] at hj
      rw [entry_push s w _ j hjs, if_neg (by omega)]
      exact h.empty (j - 1) (by omega) (by omega)

theorem resize_shows (s : State) (t : Trace) (b : Nat) (n : BitVec 64) (junk : Nat → Entry)
    (hp : PowerOfTwo n.toNat) (w : Wf s) (h : Shows s t) (sm : Small b t.runs) :
    ∃ s', resize s n junk = some s' ∧ Wf s' ∧ Shows s' ⟨t.runs.take n.toNat, n.toNat⟩ := by
  have hpos := wf_pos w
  have hcap := h.size
  have hn : 0 < n.toNat := by
    obtain ⟨k, hk⟩ := hp
    have := Nat.two_pow_pos k
    omega
  unfold resize
  rw [if_neg (by simpa using (popcount_one 64 n.toNat n.isLt).2 hp)]
  have he : (s.head + s.size - 0) % s.size = s.head := by
    rw [Nat.sub_zero, Nat.add_mod_right, Nat.mod_eq_of_lt w.head]
  have hfits := h.fits
  obtain ⟨c1, c2, -⟩ := copy_spec s w t.runs.length (by omega)
    (by
      intro j hj hz
      have := h.held j _ (List.getElem?_eq_getElem hj)
      have hs := sm _ (List.getElem_mem hj)
      rw [hz] at this
      have e := this.2.2
      simp only [BitVec.toNat_ofNat, Nat.zero_mod] at e
      omega)
    (by
      intro j hj hjs
      rw [h.empty j hj hjs]; rfl)
    junk n.toNat 0 hpos (Nat.zero_le _)
  rw [he] at c1 c2
  refine ⟨_, rfl, ⟨hp, rfl, by show n.toNat - 1 < n.toNat; omega⟩, rfl, by simp; omega, ?_, ?_⟩
  · intro j r hr
    rw [List.getElem?_take] at hr
    by_cases hj : j < n.toNat
    · rw [if_pos hj] at hr
      have hjl := (List.getElem?_eq_some_iff.1 hr).1
      unfold entry
      simp only [Nat.sub_zero] at c1 c2 ⊢
      rw [index _ _ _ (by omega) hj, if_pos (show j ≤ n.toNat - 1 by omega),
        if_neg (show ¬(n.toNat - 1 - j < _) by omega), c2 j (by omega), Nat.zero_add]
      exact h.held j r hr
    · rw [if_neg hj] at hr
      exact absurd hr (by simp)
  · intro j hj hjs
    have hj : (List.take n.toNat t.runs).length ≤ j := hj
    have hjs : j < n.toNat := hjs
    rw [List.length_take] at hj
    unfold entry
    simp only [Nat.sub_zero] at c1 c2 ⊢
    rw [index _ _ _ (by omega) hjs, if_pos (show j ≤ n.toNat - 1 by omega),
      if_pos (show n.toNat - 1 - j < _ by omega)]

/-- The addresses of a history fit 32 bits. -/
def Narrow (ops : List Op) : Prop :=
  ∀ s d, Op.branch s d ∈ ops → s.toNat < 2 ^ 32 ∧ d.toNat < 2 ^ 32

theorem refine_run (ops rest : List Op) (s : State) (t : Trace) (b : Nat) (w : Wf s)
    (h : Shows s t) (sm : Small b t.runs) (hb : b + ops.length < 2 ^ 32) (nar : Narrow ops) :
    Wf (ops.foldl step s) ∧ Shows (ops.foldl step s) (ops.foldl next t)
      ∧ Small (b + ops.length) (ops.foldl next t).runs := by
  induction ops generalizing s t b with
  | nil => exact ⟨w, h, sm⟩
  | cons op ops ih =>
    have nar' : Narrow ops := fun x y hm => nar x y (List.mem_cons_of_mem _ hm)
    rw [List.length_cons] at hb
    have key : Wf (step s op) ∧ Shows (step s op) (next t op) ∧ Small (b + 1) (next t op).runs := by
      cases op with
      | branch x y =>
        obtain ⟨hx, hy⟩ := nar x y (List.mem_cons_self ..)
        obtain ⟨w', h'⟩ := add_shows s t b x y hx hy w h sm (by omega)
        exact ⟨w', h', small_take (small_push sm x y hx hy) _⟩
      | resize n junk =>
        have weak : ∀ l, Small b l → Small (b + 1) l := fun l hl r hr => by
          have := hl r hr
          exact ⟨this.1, this.2.1, this.2.2.1, by omega⟩
        by_cases hp : PowerOfTwo n.toNat
        · obtain ⟨s', e, w', h'⟩ := resize_shows s t b n junk hp w h sm
          have e' : step s (.resize n junk) = s' := by
            show (resize s n junk).getD s = s'
            rw [e]; rfl
          have e'' := next_pow hp t junk
          rw [e', e'']
          exact ⟨w', h', weak _ (small_take sm _)⟩
        · have e' : step s (.resize n junk) = s := by
            show (resize s n junk).getD s = s
            unfold resize
            rw [if_pos (fun hh => hp ((popcount_one 64 n.toNat n.isLt).1 hh))]; rfl
          have e'' := next_other hp t junk
          rw [e', e'']
          exact ⟨w, h, weak _ sm⟩
    obtain ⟨w', h', sm'⟩ := key
    have := ih (step s op) (next t op) (b + 1) w' h' sm' (by omega) nar'
    rw [List.length_cons, show b + (ops.length + 1) = b + 1 + ops.length by omega]
    exact this

theorem init_wf : Wf init := ⟨⟨4, rfl⟩, rfl, by decide⟩
theorem init_shows : Shows init ⟨[], 16⟩ :=
  ⟨rfl, by simp, fun j r h => by simp at h, fun j _ _ => rfl⟩

/-- C55: after any sequence of branches and resizes the buffer shows exactly the runs that the list
with a capacity has: the most recent at the head, older ones going back, empty entries beyond, a resize
keeping the most recent runs. Partial: addresses must fit 32 bits (always so on RV32), and the history
have fewer than 2^32 events, so that no repeat count overflows; see the two violations. -/
theorem C55_trace_partial (ops : List Op) (nar : Narrow ops) (hl : ops.length < 2 ^ 32) :
    Shows (run ops) (trace ops) := by
  have := refine_run ops [] init ⟨[], 16⟩ 0 init_wf init_shows (fun r h => by simp at h) (by omega) nar
  exact this.2.1

/-! ### Relation to the whole history -/

theorem push_take (src dst : BitVec 64) (l : List Run) (m cap : Nat) (hm : 0 < m) :
    ∃ m', min m cap ≤ m' ∧ (push src dst (l.take m)).take cap = (push src dst l).take m' := by
  cases l with
  | nil => exact ⟨cap, by omega, by simp⟩
  | cons x l =>
    obtain ⟨k, rfl⟩ : ∃ k, m = k + 1 := ⟨m - 1, by omega⟩
    rw [List.take_succ_cons, push_cons, push_cons]
    split
    · refine ⟨min (k + 1) cap, by omega, ?_⟩
      rw [← List.take_succ_cons, List.take_take, Nat.min_comm]
    · refine ⟨min (k + 2) cap, by omega, ?_⟩
      rw [← List.take_succ_cons, ← List.take_succ_cons, List.take_take, Nat.min_comm]

/-- The capacities a history goes through are at least `c`. -/
def Roomy (c : Nat) (ops : List Op) : Prop :=
  ∀ n junk, Op.resize n junk ∈ ops → PowerOfTwo n.toNat → c ≤ n.toNat

theorem trace_prefix_aux (c : Nat) (hc : 0 < c) (ops : List Op) (l : List Run) (t : Trace)
    (m : Nat) (hm : c ≤ m) (ht : t.runs = l.take m) (hcap : c ≤ t.cap) (hr : Roomy c ops) :
    ∃ m', c ≤ m' ∧ (ops.foldl next t).runs = (ops.foldl (fun l op => match op with
      | .branch s d => push s d l
      | .resize _ _ => l) l).take m' := by
  induction ops generalizing l t m with
  | nil => exact ⟨m, hm, ht⟩
  | cons op ops ih =>
    have hr' : Roomy c ops := fun n j h => hr n j (List.mem_cons_of_mem _ h)
    cases op with
    | branch s d =>
      obtain ⟨m', h1, h2⟩ := push_take s d l m t.cap (by omega)
      exact ih (push s d l) _ m' (by omega) (by show (push s d t.runs).take t.cap = _; rw [ht, h2])
        hcap hr'
    | resize n junk =>
      simp only [List.foldl_cons]
      by_cases hp : PowerOfTwo n.toNat
      · have hn := hr n junk (List.mem_cons_self ..) hp
        have e := next_pow hp t junk
        rw [e]
        exact ih l _ (min n.toNat m) (by omega) (by simp [ht, List.take_take]) hn hr'
      · have e := next_other hp t junk
        rw [e]
        exact ih l t m hm ht hcap hr'

/-- C55: what the trace lists is a prefix of the run-length encoding, most recent first, of all the
branches ever taken, and it has at least `c` runs (or all of them) if the size was never below `c`.
In particular nothing in between is lost and repeat counts are complete. -/
theorem C55_suffix (ops : List Op) (c : Nat) (h0 : 0 < c) (h16 : c ≤ 16) (hr : Roomy c ops) :
    ∃ m, c ≤ m ∧ (trace ops).runs = (encode ops).take m :=
  trace_prefix_aux c h0 ops [] ⟨[], 16⟩ c (Nat.le_refl c) (by simp) h16 hr

/-- C55: the trace never lists more runs than its size, and after a resize to a power of two `n` it
lists the `n` most recent runs it had. -/
theorem C55_resize (ops : List Op) (n : BitVec 64) (junk : Nat → Entry) (h : PowerOfTwo n.toNat) :
    (trace (ops ++ [.resize n junk])).runs = (trace ops).runs.take n.toNat
      ∧ (trace (ops ++ [.resize n junk])).cap = n.toNat := by
  unfold trace
  rw [List.foldl_append]
  rw [List.foldl_cons, List.foldl_nil, next_pow h]
  exact ⟨rfl, rfl⟩

/-- A loop taken three times, a call, a resize to one entry and the call again. -/
def sample : List Op :=
  [.branch 0x110#64 0x100#64, .branch 0x110#64 0x100#64, .branch 0x110#64 0x100#64,
   .branch 0x114#64 0x200#64, .resize 1#64 (fun _ => ⟨9, 9, 9⟩), .branch 0x114#64 0x200#64]

theorem sample_narrow : Narrow sample := by
  intro s d h
  simp only [sample, List.mem_cons, Op.branch.injEq, reduceCtorEq, List.not_mem_nil, or_false,
    false_or] at h
  rcases h with ⟨rfl, rfl⟩ | ⟨rfl, rfl⟩ | ⟨rfl, rfl⟩ | ⟨rfl, rfl⟩ | ⟨rfl, rfl⟩ <;> decide

example : Shows (run sample) (trace sample) := C55_trace_partial _ sample_narrow (by decide)
example : (run sample).buf (run sample).head = ⟨0x114, 0x200, 2⟩ := by decide
example : encode sample = [⟨0x114, 0x200, 2⟩, ⟨0x110, 0x100, 3⟩] := by decide
example : Roomy 1 sample := by
  intro n j h _
  simp only [sample, List.mem_cons, Op.resize.injEq, reduceCtorEq, List.not_mem_nil, or_false,
    false_or] at h
  obtain ⟨rfl, -⟩ := h
  decide

/-! ### Violations -/

/-- On RV64, a branch at an address above 4 GiB is recorded with a truncated address and is never
merged with its repetition: whatever the state, taking it twice uses two new entries of count one. -/
theorem C55_wide_violated (s : State) (w : Wf s) (h2 : 2 ≤ s.size) (src dst : BitVec 64)
    (hs : 2 ^ 32 ≤ src.toNat) :
    entry (add (add s src dst) src dst) 0 = ⟨src.setWidth 32, dst.setWidth 32, 1⟩ ∧
    entry (add (add s src dst) src dst) 1 = ⟨src.setWidth 32, dst.setWidth 32, 1⟩ ∧
    (entry (add (add s src dst) src dst) 0).src.setWidth 64 ≠ src := by
  have ne : ∀ x : BitVec 32, src ≠ x.setWidth 64 := by
    intro x e
    have := x.isLt
    rw [e, BitVec.toNat_setWidth] at hs
    omega
  have add_eq : ∀ s : State, add s src dst = { s with
      head := (s.head + 1) &&& s.mask,
      buf := setBuf s.buf ((s.head + 1) &&& s.mask) ⟨src.setWidth 32, dst.setWidth 32, 1⟩ } := by
    intro s
    unfold add
    simp only
    rw [if_neg (fun h => ne _ h.1)]
  have w' : Wf (add s src dst) := by
    rw [add_eq s]
    refine ⟨w.pow, w.mask, ?_⟩
    show (s.head + 1) &&& s.mask < s.size
    rw [wrap s w]
    exact Nat.mod_lt _ (wf_pos w)
  have hsz : (add s src dst).size = s.size := by rw [add_eq s]
  have e0 : entry (add (add s src dst) src dst) 0 = ⟨src.setWidth 32, dst.setWidth 32, 1⟩ := by
    rw [add_eq (add s src dst), entry_push _ w' _ 0 (by omega), if_pos rfl]
  refine ⟨e0, ?_, ?_⟩
  · rw [add_eq (add s src dst), entry_push _ w' _ 1 (by omega), if_neg (by omega), add_eq s,
      entry_push _ w _ 0 (by omega), if_pos rfl]
  · rw [e0]
    exact fun e => ne _ e.symm

example : Wf init ∧ 2 ≤ init.size ∧ 2 ^ 32 ≤ (0x100000000#64).toNat := ⟨init_wf, by decide, by decide⟩

/-- The count of a run is 32 bits wide: once it is 2^32 - 1, the next repetition makes it zero, which
means "empty", and a resize then keeps nothing. -/
theorem C55_count_violated (s : State) (w : Wf s) (src dst : BitVec 32)
    (h : entry s 0 = ⟨src, dst, 0xffffffff#32⟩) (n : BitVec 64) (hn : PowerOfTwo n.toNat)
    (junk : Nat → Entry) :
    (entry (add s (src.setWidth 64) (dst.setWidth 64)) 0).count = 0#32 ∧
    ∃ s', resize (add s (src.setWidth 64) (dst.setWidth 64)) n junk = some s' ∧
      ∀ j, j < n.toNat → entry s' j = zero := by
  have e0 : s.buf s.head = entry s 0 := by
    unfold entry
    rw [Nat.sub_zero, Nat.add_mod_right, Nat.mod_eq_of_lt w.head]
  have ha : add s (src.setWidth 64) (dst.setWidth 64)
      = { s with buf := setBuf s.buf s.head ⟨src, dst, 0#32⟩ } := by
    unfold add
    simp only [e0, h]
    simp
  rw [ha]
  have hbuf : setBuf s.buf s.head ⟨src, dst, 0#32⟩ s.head = ⟨src, dst, 0#32⟩ := by simp [setBuf]
  constructor
  · rw [entry_update s w _ 0 (wf_pos w)]; rfl
  · unfold resize
    rw [if_neg (by simpa using (popcount_one 64 n.toNat n.isLt).2 hn)]
    refine ⟨_, rfl, ?_⟩
    intro j hj
    obtain ⟨k, hk⟩ : ∃ k, n.toNat = k + 1 := ⟨n.toNat - 1, by omega⟩
    unfold entry
    simp only
    have hc : ∀ new, copy { s with buf := setBuf s.buf s.head ⟨src, dst, 0#32⟩ } new n.toNat s.head
        = (new, n.toNat) := by
      intro new
      rw [hk]
      unfold copy
      simp only [hbuf]
      rw [if_neg (by simp)]
    rw [hc]
    rw [if_pos]
    exact Nat.mod_lt _ (by omega)

/-- Such a state is reached by taking one branch 2^32 - 1 times. -/
theorem repeated (n : Nat) :
    let s := run (List.replicate (n + 1) (.branch 0x110#64 0x100#64))
    Wf s ∧ entry s 0 = ⟨0x110, 0x100, BitVec.ofNat 32 (n + 1)⟩ := by
  induction n with
  | zero => exact ⟨⟨⟨4, rfl⟩, rfl, by decide⟩, by decide⟩
  | succ n ih =>
    simp only at ih ⊢
    have e : run (List.replicate (n + 1 + 1) (.branch 0x110#64 0x100#64))
        = add (run (List.replicate (n + 1) (.branch 0x110#64 0x100#64))) 0x110#64 0x100#64 := by
      rw [List.replicate_succ', run, List.foldl_append]; rfl
    rw [e]
    generalize run (List.replicate (n + 1) (.branch 0x110#64 0x100#64)) = s at ih
    obtain ⟨w, h⟩ := ih
    have e0 : s.buf s.head = entry s 0 := by
      unfold entry
      rw [Nat.sub_zero, Nat.add_mod_right, Nat.mod_eq_of_lt w.head]
    have ha : add s 0x110#64 0x100#64
        = { s with buf := setBuf s.buf s.head ⟨0x110, 0x100, BitVec.ofNat 32 (n + 1) + 1⟩ } := by
      unfold add
      simp only [e0, h]
      rw [if_pos ⟨rfl, rfl⟩]
    rw [ha]
    refine ⟨⟨w.pow, w.mask, w.head⟩, ?_⟩
    rw [entry_update s w _ 0 (wf_pos w), if_pos rfl]
    rw [BitVec.ofNat_add (n + 1) 1]
    rfl

example : ∃ ops, Wf (run ops) ∧ entry (run ops) 0 = ⟨0x110, 0x100, 0xffffffff#32⟩ :=
  ⟨_, repeated 0xfffffffe⟩

end Verif.BranchTrace
