import Verif.Plic.Spec
/-
Properties of the PLIC: C23, C24, C25, C63.
-/
namespace Verif.Plic
open Verif.Plic.Plic

/-! ### Words and bits -/

theorem getLsbD_one_shl (k b : Nat) (hb : b < 32) : (1#32 <<< k).getLsbD b = decide (b = k) := by
  rw [BitVec.getLsbD_shiftLeft, BitVec.getLsbD_one]
  by_cases h : b = k
  · subst h; simp [hb]
  · by_cases h2 : b < k
    · simp [h, h2]
    · simp [h, h2, hb]; omega

theorem mod_div_eq {s t : Nat} (h1 : s / 32 = t / 32) (h2 : s % 32 = t % 32) : s = t := by omega

theorem pending_setPending (p : Plic) (s t : Nat) (v : Bool) :
    Spec.pending (p.setPending s v) t = if t = s then v else Spec.pending p t := by
  unfold Spec.pending setPending upd
  have hb : t % 32 < 32 := Nat.mod_lt _ (by decide)
  by_cases h : t = s
  · subst h
    cases v <;> simp [hb]
  · simp only [h, if_false]
    by_cases hw : t / 32 = s / 32
    · have hm : t % 32 ≠ s % 32 := fun e => h (mod_div_eq hw e)
      rw [hw]
      cases v <;> simp only [if_true, Bool.false_eq_true, if_false, BitVec.getLsbD_and,
        BitVec.getLsbD_or, BitVec.getLsbD_not, getLsbD_one_shl _ _ hb] <;> simp [hb, hm]
    · simp [hw]

theorem mem_bitsOf (w : BitVec 32) (b : Nat) : b ∈ bitsOf w ↔ w.getLsbD b = true := by
  unfold bitsOf
  rw [List.mem_filter, List.mem_range]
  constructor
  · exact fun h => h.2
  · intro h
    refine ⟨?_, h⟩
    by_cases hb : b < 32
    · exact hb
    · rw [BitVec.getLsbD_of_ge _ _ (by omega)] at h; exact absurd h (by decide)

/-! ### The claim scan -/

/-- The scan state describes a source, or nothing yet. -/
def ScanOk (p : Plic) (a : Scan) : Prop :=
  (a.id = 0 ∧ a.priority = 0#32) ∨
  (a.id ≠ 0 ∧ a.priority = p.prio a.id ∧ a.priority ≠ 0#32 ∧ Spec.pending p a.id = true)

/-- Source `s` is not better than what the scan has found. -/
def Dom (p : Plic) (a : Scan) (s : Nat) : Prop :=
  (p.prio s).toNat < a.priority.toNat ∨ ((p.prio s).toNat = a.priority.toNat ∧ a.id ≤ s)

theorem toNat_ne_zero {x : BitVec 32} : x ≠ 0#32 ↔ x.toNat ≠ 0 := by
  constructor
  · intro h e; exact h (BitVec.eq_of_toNat_eq e)
  · intro h e; exact h (by rw [e]; rfl)

theorem scan_spec (p : Plic) (hp : ∀ s, Spec.pending p s = true → 0 < s ∧ s < p.nS)
    (l : List Nat) (hl : ∀ s ∈ l, s / 32 ≤ p.nS / 32) (a : Scan) (ha : ScanOk p a) :
    ∃ b, l.foldlM (scan1 p) a = some b ∧ ScanOk p b ∧ (b.id = a.id ∨ b.id ∈ l) ∧
      (a.id ≠ 0 → b.id ≠ 0 ∧ Dom p b a.id) ∧
      (∀ s ∈ l, Spec.pending p s = true → p.prio s ≠ 0#32 → b.id ≠ 0 ∧ Dom p b s) := by
  induction l generalizing a with
  | nil =>
    refine ⟨a, rfl, ha, Or.inl rfl, fun h => ⟨h, ?_⟩, fun s hs => absurd hs (by simp)⟩
    rcases ha with h' | h'
    · exact absurd h'.1 h
    · exact Or.inr ⟨by rw [h'.2.1], Nat.le_refl _⟩
  | cons s l ih =>
    have hs := hl s (List.mem_cons_self ..)
    have hl' : ∀ t ∈ l, t / 32 ≤ p.nS / 32 := fun t ht => hl t (List.mem_cons_of_mem _ ht)
    -- the state after `s`
    have key : ∃ a', scan1 p a s = some a' ∧ ScanOk p a' ∧ (a'.id = a.id ∨ a'.id = s) ∧
        (a.id ≠ 0 → a'.id ≠ 0 ∧ Dom p a' a.id) ∧
        (Spec.pending p s = true → p.prio s ≠ 0#32 → a'.id ≠ 0 ∧ Dom p a' s) := by
      have self : a.id ≠ 0 → a.id ≠ 0 ∧ Dom p a a.id := by
        intro h
        rcases ha with h' | h'
        · exact absurd h'.1 h
        · exact ⟨h, Or.inr ⟨by rw [h'.2.1], Nat.le_refl _⟩⟩
      unfold scan1
      rw [if_neg (by omega)]
      by_cases hpend : Spec.pending p s = true
      · have hpend' : p.isPending s = true := hpend
        obtain ⟨h0, h1⟩ := hp s hpend
        rw [if_neg (by rw [hpend']; decide), if_neg (by omega)]
        by_cases hlt : p.prio s < a.priority
        · rw [if_pos hlt]
          have hlt' : (p.prio s).toNat < a.priority.toNat := hlt
          refine ⟨a, rfl, ha, Or.inl rfl, self, fun _ _ => ⟨?_, Or.inl hlt'⟩⟩
          rcases ha with h' | h'
          · rw [h'.2] at hlt'; exact absurd hlt' (by simp)
          · exact h'.1
        · rw [if_neg hlt]
          have hge : a.priority.toNat ≤ (p.prio s).toNat := Nat.le_of_not_lt hlt
          by_cases heq : a.priority = p.prio s ∧ a.id < s
          · rw [if_pos heq]
            refine ⟨a, rfl, ha, Or.inl rfl, self,
              fun _ hne => ⟨?_, Or.inr ⟨by rw [heq.1], Nat.le_of_lt heq.2⟩⟩⟩
            rcases ha with h' | h'
            · exact absurd (heq.1.symm.trans h'.2) hne
            · exact h'.1
          · rw [if_neg heq]
            have hne : p.prio s ≠ 0#32 := by
              intro e
              rcases ha with h' | h'
              · exact heq ⟨by rw [h'.2, e], by rw [h'.1]; exact h0⟩
              · have : a.priority.toNat = 0 := by rw [e] at hge; simpa using hge
                exact h'.2.2.1 (BitVec.eq_of_toNat_eq this)
            refine ⟨_, rfl, Or.inr ⟨by simp only; omega, rfl, hne, hpend⟩, Or.inr rfl, ?_,
              fun _ _ => ⟨by simp only; omega, Or.inr ⟨rfl, Nat.le_refl _⟩⟩⟩
            intro hid
            refine ⟨by simp only; omega, ?_⟩
            rcases ha with h' | h'
            · exact absurd h'.1 hid
            · unfold Dom
              simp only
              rw [← h'.2.1]
              by_cases e : a.priority.toNat = (p.prio s).toNat
              · refine Or.inr ⟨e, ?_⟩
                by_cases hh : a.id < s
                · exact absurd ⟨BitVec.eq_of_toNat_eq e, hh⟩ heq
                · omega
              · left; omega
      · have hpend' : p.isPending s = false := by
          have : ¬ p.isPending s = true := hpend
          simpa using this
        rw [if_pos hpend']
        exact ⟨a, rfl, ha, Or.inl rfl, self, fun h => absurd h hpend⟩
    obtain ⟨a', e1, ok, hid, hdom, hs'⟩ := key
    obtain ⟨b, f1, okb, hidb, hdomb, hsb⟩ := ih hl' a' ok
    have trans : ∀ t, a'.id ≠ 0 → Dom p a' t → b.id ≠ 0 ∧ Dom p b t := by
      intro t hne ht
      obtain ⟨g1, g2⟩ := hdomb hne
      refine ⟨g1, ?_⟩
      have hpr : a'.priority = p.prio a'.id := by
        rcases ok with h | h
        · exact absurd h.1 hne
        · exact h.2.1
      unfold Dom at ht g2 ⊢
      rw [hpr] at ht
      omega
    refine ⟨b, ?_, okb, ?_, ?_, ?_⟩
    · rw [List.foldlM_cons, e1]; exact f1
    · rcases hidb with h | h
      · rw [h]; rcases hid with h | h
        · exact Or.inl h
        · exact Or.inr (by rw [h]; exact List.mem_cons_self ..)
      · exact Or.inr (List.mem_cons_of_mem _ h)
    · intro h
      obtain ⟨g1, g2⟩ := hdom h
      exact trans _ g1 g2
    · intro t ht hpt hpr
      rcases List.mem_cons.1 ht with rfl | ht
      · obtain ⟨g1, g2⟩ := hs' hpt hpr
        exact trans _ g1 g2
      · exact hsb t ht hpt hpr

/-! ### What each operation leaves alone -/

theorem trigger_fold (p : Plic) (s : Nat) (l : List Nat) :
    ∃ i, l.foldl (fun q c => q.trigger s c) p = { p with irq := i } := by
  induction l generalizing p with
  | nil => exact ⟨p.irq, rfl⟩
  | cons c l ih =>
    have h : ∃ i, p.trigger s c = { p with irq := i } := by
      unfold trigger
      split
      · exact ⟨p.irq, rfl⟩
      · split
        · exact ⟨p.irq, rfl⟩
        · exact ⟨_, rfl⟩
    obtain ⟨i, hi⟩ := h
    obtain ⟨j, hj⟩ := ih (p.trigger s c)
    refine ⟨j, ?_⟩
    rw [List.foldl_cons, hj, hi]

theorem setPlicPending_frame (p : Plic) (s : Nat) :
    (∃ i w, p.setPlicPending s = { p with irq := i, pend := w }) ∧
    ∀ t, Spec.pending (p.setPlicPending s) t = true ↔
      Spec.pending p t = true ∨ (t = s ∧ s ≠ 0 ∧ s < p.nS ∧ p.prio s ≠ 0#32) := by
  unfold setPlicPending
  by_cases h1 : s = 0 ∨ p.nS ≤ s
  · rw [if_pos h1]
    refine ⟨⟨_, _, rfl⟩, fun t => ⟨Or.inl, fun h => ?_⟩⟩
    rcases h with h | h
    · exact h
    · omega
  rw [if_neg h1]
  by_cases h2 : p.isPending s = true
  · rw [if_pos h2]
    refine ⟨⟨_, _, rfl⟩, fun t => ⟨Or.inl, fun h => ?_⟩⟩
    rcases h with h | h
    · exact h
    · rw [h.1]; exact h2
  rw [if_neg h2]
  by_cases h3 : p.prio s = 0#32
  · rw [if_pos h3]
    refine ⟨⟨_, _, rfl⟩, fun t => ⟨Or.inl, fun h => ?_⟩⟩
    rcases h with h | h
    · exact h
    · exact absurd h3 h.2.2.2
  rw [if_neg h3]
  obtain ⟨i, hi⟩ := trigger_fold (p.setPending s true) s (p.s2c s)
  rw [hi]
  refine ⟨⟨i, _, rfl⟩, fun t => ?_⟩
  show Spec.pending (p.setPending s true) t = true ↔ _
  rw [pending_setPending]
  by_cases ht : t = s
  · rw [if_pos ht]
    refine ⟨fun _ => Or.inr ⟨ht, by omega, by omega, h3⟩, fun _ => rfl⟩
  · rw [if_neg ht]
    refine ⟨Or.inl, fun h => ?_⟩
    rcases h with h | h
    · exact h
    · exact absurd h.1 ht

/-! ### The maps agree with the enable bits -/

/-- The two maps hold exactly the pairs in `E`, each once. -/
structure SyncE (p : Plic) (E : Nat → Nat → Prop) : Prop where
  c2s : ∀ c s, c < p.nC → (s ∈ p.c2s c ↔ E c s)
  c2sN : ∀ c, (p.c2s c).Nodup
  s2c : ∀ c s, c ∈ p.s2c s ↔ c < p.nC ∧ E c s
  s2cN : ∀ s, (p.s2c s).Nodup

theorem SyncE.congr {p : Plic} {E F : Nat → Nat → Prop} (h : SyncE p E)
    (e : ∀ c s, c < p.nC → (E c s ↔ F c s)) : SyncE p F :=
  ⟨fun c s hc => (h.c2s c s hc).trans (e c s hc), h.c2sN,
    fun c s => (h.s2c c s).trans ⟨fun x => ⟨x.1, (e c s x.1).1 x.2⟩, fun x => ⟨x.1, (e c s x.1).2 x.2⟩⟩,
    h.s2cN⟩

theorem add_sync {p : Plic} {E : Nat → Nat → Prop} (h : SyncE p E) (c s : Nat) (hc : c < p.nC)
    (hn : ¬ E c s) :
    SyncE { p with s2c := upd p.s2c s (p.s2c s ++ [c]), c2s := upd p.c2s c (p.c2s c ++ [s]) }
      (fun c' s' => E c' s' ∨ (c' = c ∧ s' = s)) := by
  refine ⟨fun c' s' hc' => ?_, fun c' => ?_, fun c' s' => ?_, fun s' => ?_⟩
  · have hc' : c' < p.nC := hc'
    simp only [upd]
    split
    · next e => subst e; rw [List.mem_append, h.c2s c' s' hc', List.mem_singleton]; simp
    · next e => rw [h.c2s c' s' hc']; simp [e]
  · simp only [upd]
    split
    · rw [List.nodup_append]
      refine ⟨h.c2sN c, by simp, fun a ha b hb e => ?_⟩
      rw [List.mem_singleton] at hb
      subst e; subst hb
      exact hn ((h.c2s c a hc).1 ha)
    · exact h.c2sN c'
  · simp only [upd]
    split
    · next e =>
      subst e
      rw [List.mem_append, h.s2c c' s', List.mem_singleton]
      constructor
      · rintro (x | x)
        · exact ⟨x.1, Or.inl x.2⟩
        · rw [x]; exact ⟨hc, Or.inr ⟨rfl, rfl⟩⟩
      · rintro ⟨x, y | y⟩
        · exact Or.inl ⟨x, y⟩
        · exact Or.inr y.1
    · next e => rw [h.s2c c' s']; simp [e]
  · simp only [upd]
    split
    · rw [List.nodup_append]
      refine ⟨h.s2cN s, by simp, fun a ha b hb e => ?_⟩
      rw [List.mem_singleton] at hb
      subst e; subst hb
      exact hn ((h.s2c a s).1 ha).2
    · exact h.s2cN s'

theorem disable_sync {p : Plic} {E : Nat → Nat → Prop} (h : SyncE p E) (c s : Nat) (hc : c < p.nC) :
    SyncE (p.disable1 c s) (fun c' s' => E c' s' ∧ ¬ (c' = c ∧ s' = s)) := by
  unfold disable1
  refine ⟨fun c' s' hc' => ?_, fun c' => ?_, fun c' s' => ?_, fun s' => ?_⟩
  · have hc' : c' < p.nC := hc'
    simp only [upd]
    split
    · next e =>
      subst e
      rw [(h.c2sN c').mem_erase_iff, h.c2s c' s' hc']
      constructor
      · exact fun x => ⟨x.2, fun y => x.1 y.2⟩
      · exact fun x => ⟨fun y => x.2 ⟨rfl, y⟩, x.1⟩
    · next e => rw [h.c2s c' s' hc']; simp [e]
  · simp only [upd]
    split
    · exact (h.c2sN c).erase s
    · exact h.c2sN c'
  · simp only [upd]
    split
    · next e =>
      subst e
      rw [(h.s2cN s').mem_erase_iff, h.s2c c' s']
      constructor
      · exact fun x => ⟨x.2.1, x.2.2, fun y => x.1 y.1⟩
      · exact fun x => ⟨fun y => x.2.2 ⟨y, rfl⟩, x.1, x.2.1⟩
    · next e => rw [h.s2c c' s']; simp [e]
  · simp only [upd]
    split
    · exact (h.s2cN s).erase c
    · exact h.s2cN s'

/-- Only the maps and the lines differ. -/
def MapFrame (p q : Plic) : Prop := ∃ i a b, q = { p with irq := i, s2c := a, c2s := b }

theorem MapFrame.refl (p : Plic) : MapFrame p p := ⟨p.irq, p.s2c, p.c2s, rfl⟩

theorem MapFrame.trans {p q r : Plic} (h : MapFrame p q) (h' : MapFrame q r) : MapFrame p r := by
  obtain ⟨_, _, _, rfl⟩ := h
  obtain ⟨i, a, b, rfl⟩ := h'
  exact ⟨i, a, b, rfl⟩

theorem enable1_sync {p q : Plic} {E : Nat → Nat → Prop} (h : SyncE p E) (c s : Nat) (hc : c < p.nC)
    (hn : ¬ E c s) (e : p.enable1 c s = some q) :
    SyncE q (fun c' s' => E c' s' ∨ (c' = c ∧ s' = s)) ∧ MapFrame p q := by
  have hs := add_sync h c s hc hn
  unfold enable1 at e
  simp only at e
  split at e
  · cases e; exact ⟨hs, _, _, _, rfl⟩
  · split at e
    · cases e; exact ⟨hs, _, _, _, rfl⟩
    · split at e
      · cases e
      · split at e
        · cases e
          exact ⟨⟨hs.c2s, hs.c2sN, hs.s2c, hs.s2cN⟩, _, _, _, rfl⟩
        · cases e; exact ⟨hs, _, _, _, rfl⟩

theorem enable_fold {c word : Nat} (bs : List Nat) (hbs : bs.Nodup) {p q : Plic}
    {E : Nat → Nat → Prop} (h : SyncE p E) (hc : c < p.nC)
    (hn : ∀ b ∈ bs, ¬ E c (word * 32 + b))
    (e : bs.foldlM (fun q b => q.enable1 c (word * 32 + b)) p = some q) :
    SyncE q (fun c' s' => E c' s' ∨ (c' = c ∧ ∃ b ∈ bs, s' = word * 32 + b)) ∧ MapFrame p q := by
  induction bs generalizing p E with
  | nil => cases e; exact ⟨h.congr (by simp), MapFrame.refl _⟩
  | cons b bs ih =>
    rw [List.foldlM_cons] at e
    cases e1 : p.enable1 c (word * 32 + b) with
    | none => rw [e1] at e; cases e
    | some r =>
      rw [e1] at e
      obtain ⟨s1, f1⟩ := enable1_sync h c _ hc (hn b (List.mem_cons_self ..)) e1
      have hr : c < r.nC := by obtain ⟨_, _, _, rfl⟩ := f1; exact hc
      rw [List.nodup_cons] at hbs
      obtain ⟨s2, f2⟩ := ih hbs.2 s1 hr (by
        intro b' hb' x
        rcases x with x | x
        · exact hn b' (List.mem_cons_of_mem _ hb') x
        · have : b' = b := by omega
          exact hbs.1 (this ▸ hb')) e
      refine ⟨s2.congr fun c' s' _ => ?_, f1.trans f2⟩
      simp only [List.mem_cons, exists_eq_or_imp]
      constructor
      · rintro ((x | x) | x)
        · exact Or.inl x
        · exact Or.inr ⟨x.1, Or.inl x.2⟩
        · exact Or.inr ⟨x.1, Or.inr x.2⟩
      · rintro (x | ⟨x, y | y⟩)
        · exact Or.inl (Or.inl x)
        · exact Or.inl (Or.inr ⟨x, y⟩)
        · exact Or.inr ⟨x, y⟩

theorem disable_fold {c word : Nat} (bs : List Nat) {p : Plic}
    {E : Nat → Nat → Prop} (h : SyncE p E) (hc : c < p.nC) :
    SyncE (bs.foldl (fun q b => q.disable1 c (word * 32 + b)) p)
      (fun c' s' => E c' s' ∧ ¬ (c' = c ∧ ∃ b ∈ bs, s' = word * 32 + b)) ∧
    MapFrame p (bs.foldl (fun q b => q.disable1 c (word * 32 + b)) p) := by
  induction bs generalizing p E with
  | nil => exact ⟨h.congr (by simp), MapFrame.refl p⟩
  | cons b bs ih =>
    rw [List.foldl_cons]
    obtain ⟨s2, f2⟩ := ih (disable_sync h c (word * 32 + b) hc) hc
    refine ⟨s2.congr fun c' s' _ => ?_, MapFrame.trans ⟨_, _, _, rfl⟩ f2⟩
    simp only [List.mem_cons, exists_eq_or_imp]
    constructor
    · rintro ⟨⟨x, y⟩, z⟩
      refine ⟨x, ?_⟩
      rintro ⟨u, v | v⟩
      · exact y ⟨u, v⟩
      · exact z ⟨u, v⟩
    · rintro ⟨x, y⟩
      exact ⟨⟨x, fun z => y ⟨z.1, Or.inl z.2⟩⟩, fun z => y ⟨z.1, Or.inr z.2⟩⟩

/-- Agreement of the maps with the enable bits, and sanity of enable and pending bits. -/
structure Inv (p : Plic) : Prop where
  sync : SyncE p (fun c s => Spec.enabled p c s = true)
  word : ∀ c s, c < p.nC → Spec.enabled p c s = true → s / 32 ≤ p.nS / 32
  pend : ∀ s, Spec.pending p s = true → 0 < s ∧ s < p.nS

theorem split_word (s word b : Nat) (hb : b < 32) : s = word * 32 + b ↔ s / 32 = word ∧ s % 32 = b := by
  omega

theorem writeEnableWord_inv {p q : Plic} (h : Inv p) (c word : Nat) (v : BitVec 32)
    (e : p.writeEnableWord c word v = some q) :
    Inv q ∧ (∀ c' w', q.enabled c' w' = if c' = c ∧ w' = word then v else p.enabled c' w') ∧
    q.pend = p.pend ∧ q.nS = p.nS ∧ q.nC = p.nC ∧ q.hasIf = p.hasIf ∧ q.prio = p.prio ∧
    q.thresh = p.thresh ∧ q.ready = p.ready ∧ q.gpend = p.gpend ∧ q.claimed = p.claimed := by
  unfold writeEnableWord at e
  split at e
  · cases e
  next hcw =>
  have hc : c < p.nC := by omega
  have hw : word ≤ p.nS / 32 := by omega
  simp only at e
  generalize hp1 : ({ p with enabled := upd p.enabled c (upd (p.enabled c) word v) } : Plic) = p1 at e
  have hs1 : SyncE p1 (fun c s => Spec.enabled p c s = true) := by
    rw [← hp1]; exact ⟨h.sync.c2s, h.sync.c2sN, h.sync.s2c, h.sync.s2cN⟩
  have hc1 : c < p1.nC := by rw [← hp1]; exact hc
  split at e
  · cases e
  next p2 e2 =>
  cases e
  have nd : ∀ w : BitVec 32, (bitsOf w).Nodup := fun w => (List.nodup_range).filter _
  obtain ⟨s2, f2⟩ := enable_fold _ (nd _) hs1 hc1 (by
    intro b hb x
    rw [mem_bitsOf, BitVec.getLsbD_and, BitVec.getLsbD_xor] at hb
    have hb32 : b < 32 := by
      rcases Nat.lt_or_ge b 32 with h | h
      · exact h
      · rw [BitVec.getLsbD_of_ge v b h] at hb; simp at hb
    obtain ⟨d1, d2⟩ := (split_word _ word b hb32).1 rfl
    unfold Spec.enabled at x
    rw [d1, d2] at x
    rw [x] at hb
    cases hv : v.getLsbD b <;> rw [hv] at hb <;> exact absurd hb (by decide)) e2
  have hc2 : c < p2.nC := by obtain ⟨_, _, _, rfl⟩ := f2; exact hc1
  obtain ⟨s3, f3⟩ := disable_fold (word := word) (bitsOf ((v ^^^ p.enabled c word) &&& ~~~v)) s2 hc2
  generalize hq : (bitsOf ((v ^^^ p.enabled c word) &&& ~~~v)).foldl
    (fun q b => q.disable1 c (word * 32 + b)) p2 = q at s3 f3
  obtain ⟨i, a, b, f⟩ := f2.trans f3
  have en : ∀ c' w', q.enabled c' w' = if c' = c ∧ w' = word then v else p.enabled c' w' := by
    intro c' w'
    rw [f, ← hp1]
    simp only [upd]
    by_cases e1 : c' = c
    · subst e1; by_cases e2 : w' = word <;> simp [e2, upd]
    · simp [e1]
  have fr : q.pend = p.pend ∧ q.nS = p.nS ∧ q.nC = p.nC ∧ q.hasIf = p.hasIf ∧ q.prio = p.prio ∧
    q.thresh = p.thresh ∧ q.ready = p.ready ∧ q.gpend = p.gpend ∧ q.claimed = p.claimed := by
    rw [f, ← hp1]; exact ⟨rfl, rfl, rfl, rfl, rfl, rfl, rfl, rfl, rfl⟩
  have bit : ∀ c' s', Spec.enabled q c' s' =
      if c' = c ∧ s' / 32 = word then v.getLsbD (s' % 32) else Spec.enabled p c' s' := by
    intro c' s'
    unfold Spec.enabled
    rw [en]; split <;> rfl
  refine ⟨⟨s3.congr fun c' s' _ => ?_, ?_, ?_⟩, en, fr⟩
  · rw [bit]
    have hm : s' % 32 < 32 := Nat.mod_lt _ (by decide)
    have ex : ∀ w : BitVec 32, (∃ b ∈ bitsOf w, s' = word * 32 + b) ↔
        s' / 32 = word ∧ w.getLsbD (s' % 32) = true := by
      intro w
      constructor
      · rintro ⟨b, hb, rfl⟩
        have hb' := (mem_bitsOf w b).1 hb
        have hb32 : b < 32 := by
          rcases Nat.lt_or_ge b 32 with h | h
          · exact h
          · rw [BitVec.getLsbD_of_ge w b h] at hb'; exact absurd hb' (by decide)
        obtain ⟨d1, d2⟩ := (split_word _ word b hb32).1 rfl
        exact ⟨d1, by rw [d2]; exact hb'⟩
      · rintro ⟨h1, h2⟩
        exact ⟨s' % 32, (mem_bitsOf w _).2 h2, (split_word s' word _ hm).2 ⟨h1, rfl⟩⟩
    rw [ex, ex]
    by_cases hcc : c' = c
    · by_cases hww : s' / 32 = word
      · simp only [hcc, hww, true_and, and_self, if_true]
        have hold : Spec.enabled p c s' = (p.enabled c word).getLsbD (s' % 32) := by
          unfold Spec.enabled; rw [hww]
        rw [hold]
        simp only [BitVec.getLsbD_and, BitVec.getLsbD_xor, BitVec.getLsbD_not, hm, decide_true,
          Bool.true_and]
        generalize v.getLsbD (s' % 32) = x
        generalize (p.enabled c word).getLsbD (s' % 32) = y
        revert x y; decide
      · simp [hww]
    · simp [hcc]
  · intro c' s' hc' x
    rw [bit] at x
    rw [fr.2.1]
    split at x
    · next y => omega
    · exact h.word c' s' (by rw [← fr.2.2.1]; exact hc') x
  · intro s' x
    rw [fr.2.1]
    refine h.pend s' ?_
    unfold Spec.pending at x ⊢
    rw [← fr.1]; exact x

theorem Inv.frame {p q : Plic} (h : Inv p) (h1 : q.nS = p.nS) (h2 : q.nC = p.nC)
    (h3 : q.enabled = p.enabled) (h4 : q.s2c = p.s2c) (h5 : q.c2s = p.c2s)
    (hp : ∀ s, Spec.pending q s = true → Spec.pending p s = true ∨ (0 < s ∧ s < p.nS)) : Inv q := by
  have en : ∀ c s, Spec.enabled q c s = Spec.enabled p c s := by
    intro c s; unfold Spec.enabled; rw [h3]
  refine ⟨⟨fun c s hc => ?_, fun c => ?_, fun c s => ?_, fun s => ?_⟩, fun c s hc x => ?_, fun s x => ?_⟩
  · rw [h5, en]; exact h.sync.c2s c s (h2 ▸ hc)
  · rw [h5]; exact h.sync.c2sN c
  · rw [h4, h2, en]; exact h.sync.s2c c s
  · rw [h4]; exact h.sync.s2cN s
  · rw [h1]; rw [en] at x; exact h.word c s (h2 ▸ hc) x
  · rw [h1]
    rcases hp s x with y | y
    · exact h.pend s y
    · exact y

theorem inv_setPlicPending {p : Plic} (h : Inv p) (s : Nat) : Inv (p.setPlicPending s) := by
  obtain ⟨⟨i, w, f⟩, hp⟩ := setPlicPending_frame p s
  refine h.frame (by rw [f]) (by rw [f]) (by rw [f]) (by rw [f]) (by rw [f]) fun t ht => ?_
  rcases (hp t).1 ht with x | x
  · exact Or.inl x
  · exact Or.inr (by omega)

theorem inv_setInterrupt {p : Plic} (h : Inv p) (s : Nat) (v l : Bool) : Inv (p.setInterrupt s v l) := by
  have fr : ∀ r g, Inv { p with ready := r, gpend := g } := fun r g =>
    h.frame rfl rfl rfl rfl rfl (fun _ x => Or.inl x)
  unfold setInterrupt
  split
  · exact h
  split
  · exact h
  split
  · split
    · exact fr _ _
    · exact h
  cases l
  · simp only [Bool.false_eq_true, if_false]
    split
    · exact h
    · exact inv_setPlicPending (fr _ _) s
  · simp only [if_true]
    split
    · exact fr _ _
    · exact inv_setPlicPending (fr _ _) s

theorem inv_complete {p q : Plic} (h : Inv p) (c id : Nat) (e : p.complete c id = some q) : Inv q := by
  unfold complete at e
  split at e
  · cases e; exact h
  split at e
  · cases e; exact h
  simp only at e
  split at e
  · cases e
  split at e
  · cases e
    have h' : Inv { p with claimed := upd p.claimed c 0 } :=
      h.frame rfl rfl rfl rfl rfl (fun _ x => Or.inl x)
    exact inv_setPlicPending h' _
  · cases e; exact h.frame rfl rfl rfl rfl rfl (fun _ x => Or.inl x)

theorem inv_writeThresh {p q : Plic} (h : Inv p) (c : Nat) (v : BitVec 32)
    (e : p.writeThresh c v = some q) : Inv q := by
  have fr : ∀ t i, Inv { p with thresh := t, irq := i } := fun r g =>
    h.frame rfl rfl rfl rfl rfl (fun _ x => Or.inl x)
  unfold writeThresh at e
  simp only at e
  split at e
  · split at e
    · cases e; exact fr _ _
    · split at e
      · cases e
      · cases e; exact fr _ _
  · cases e; exact fr _ _

theorem inv_writePrio {p : Plic} (h : Inv p) (o : Nat) (v : BitVec 32) : Inv (p.writePrio o v) := by
  have fr : ∀ r, Inv { p with prio := r } := fun r =>
    h.frame rfl rfl rfl rfl rfl (fun _ x => Or.inl x)
  unfold writePrio
  simp only
  split
  · exact h
  split
  · exact inv_setPlicPending (fr _) _
  · exact fr _

theorem inv_cfgEnable {p : Plic} (h : Inv p) (c s : Nat) (hc : c < p.nC) (hs : s < p.nS)
    (hn : Spec.enabled p c s = false) : Inv (p.cfgEnable c s true) := by
  have hsy := add_sync h.sync c s hc (by rw [hn]; decide)
  have e : p.cfgEnable c s true = { p with
      s2c := upd p.s2c s (p.s2c s ++ [c])
      c2s := upd p.c2s c (p.c2s c ++ [s])
      enabled := upd p.enabled c (upd (p.enabled c) (s / 32)
        ((p.enabled c (s / 32) &&& ~~~(1#32 <<< (s % 32))) ||| (1#32 <<< (s % 32)))) } := by
    unfold cfgEnable; rw [if_neg (by omega)]; rfl
  have bit : ∀ c' s', Spec.enabled (p.cfgEnable c s true) c' s' = true ↔
      Spec.enabled p c' s' = true ∨ (c' = c ∧ s' = s) := by
    intro c' s'
    have hm : s' % 32 < 32 := Nat.mod_lt _ (by decide)
    rw [e]
    unfold Spec.enabled
    simp only [upd]
    by_cases e1 : c' = c
    · subst e1
      simp only [if_true, true_and, upd]
      by_cases e2 : s' / 32 = s / 32
      · rw [if_pos e2, e2]
        simp only [BitVec.getLsbD_or, BitVec.getLsbD_and, BitVec.getLsbD_not, hm, decide_true,
          Bool.true_and, getLsbD_one_shl _ _ hm]
        by_cases e3 : s' = s
        · subst e3; simp
        · have : s' % 32 ≠ s % 32 := fun x => e3 (mod_div_eq e2 x)
          simp [e3, this]
      · have e3 : s' ≠ s := fun x => e2 (by rw [x])
        simp [e2, e3]
    · simp [e1]
  have hfr : (p.cfgEnable c s true).nS = p.nS ∧ (p.cfgEnable c s true).nC = p.nC ∧
      (p.cfgEnable c s true).pend = p.pend := by rw [e]; exact ⟨rfl, rfl, rfl⟩
  refine ⟨?_, fun c' s' hc' x => ?_, fun s' x => ?_⟩
  · have : SyncE (p.cfgEnable c s true)
        (fun c' s' => Spec.enabled p c' s' = true ∨ (c' = c ∧ s' = s)) := by
      rw [e]; exact ⟨hsy.c2s, hsy.c2sN, hsy.s2c, hsy.s2cN⟩
    exact this.congr fun c' s' _ => (bit c' s').symm
  · rw [hfr.1]
    rcases (bit c' s').1 x with y | y
    · exact h.word c' s' (hfr.2.1 ▸ hc') y
    · rw [y.2]; exact Nat.div_le_div_right (Nat.le_of_lt hs)
  · rw [hfr.1]; unfold Spec.pending at x; rw [hfr.2.2] at x; exact h.pend s' x

/-! ### C23 -/

/-- Claim in a state that satisfies the invariant. -/
theorem claim_spec {p : Plic} (h : Inv p) (c : Nat) (hc : c < p.nC) (hi : p.hasIf c = true) :
    ∃ id q, p.claim c = some (id, q) ∧ Spec.claimResult p c id ∧
      (∀ s, Spec.pending q s = if s = id then false else Spec.pending p s) ∧
      (∃ i w, q = { p with pend := w, claimed := q.claimed, irq := i }) ∧
      (id ≠ 0 → q.claimed = upd p.claimed c id) ∧ (id = 0 → q.claimed = p.claimed) := by
  obtain ⟨a, e, ok, hid, _, hdom⟩ := scan_spec p h.pend (p.c2s c)
    (fun s hs => h.word c s hc ((h.sync.c2s c s hc).1 hs)) {} (Or.inl ⟨rfl, rfl⟩)
  have best : Spec.claimResult p c a.id := by
    have noc : ∀ s, Spec.candidate p c s → a.id ≠ 0 ∧ Dom p a s := fun s hs =>
      hdom s ((h.sync.c2s c s hc).2 hs.1) hs.2.1 (toNat_ne_zero.2 hs.2.2)
    rcases ok with ok | ok
    · exact Or.inl ⟨ok.1, fun s hs => (noc s hs).1 ok.1⟩
    · refine Or.inr ⟨⟨?_, ok.2.2.2, ?_⟩, fun s hs => ?_⟩
      · rcases hid with x | x
        · exact absurd x ok.1
        · exact (h.sync.c2s c _ hc).1 x
      · rw [← ok.2.1]; exact toNat_ne_zero.1 ok.2.2.1
      · have := (noc s hs).2
        unfold Dom at this
        rw [ok.2.1] at this
        exact this
  unfold claim
  rw [if_neg (by omega), e]
  simp only
  by_cases h0 : a.id = 0
  · have p0 : Spec.pending p 0 = false := by
      cases x : Spec.pending p 0
      · rfl
      · exact absurd (h.pend 0 x).1 (by decide)
    have pn : ∀ s, Spec.pending p s = if s = a.id then false else Spec.pending p s := by
      intro s; split
      · next e => rw [e, h0]; exact p0
      · rfl
    simp only [h0, ne_eq, not_true_eq_false, if_false]
    simp only [h0] at pn best
    by_cases hcount : a.count = 0
    · simp only [hcount, if_true, hi]
      exact ⟨0, _, rfl, best, pn, ⟨_, _, rfl⟩, fun x => absurd rfl x, fun _ => rfl⟩
    · simp only [if_neg hcount]
      exact ⟨0, p, rfl, best, pn, ⟨p.irq, p.pend, rfl⟩, fun x => absurd rfl x, fun _ => rfl⟩
  · simp only [ne_eq, h0, not_false_eq_true, if_true]
    by_cases hcount : a.count - 1 = 0
    · simp only [hcount, if_true, hi]
      exact ⟨a.id, _, rfl, best, fun s => pending_setPending p a.id s false, ⟨_, _, rfl⟩,
        fun _ => rfl, fun x => absurd x h0⟩
    · simp only [if_neg hcount]
      exact ⟨a.id, _, rfl, best, fun s => pending_setPending p a.id s false, ⟨p.irq, _, rfl⟩,
        fun _ => rfl, fun x => absurd x h0⟩

theorem inv_claim {p q : Plic} (h : Inv p) (c id : Nat) (e : p.claim c = some (id, q)) : Inv q := by
  -- pending bits are only cleared, whatever the scan found
  unfold claim at e
  split at e
  · cases e; exact h
  split at e
  · cases e
  next a _ =>
  simp only at e
  have hq : ∀ (i : Nat → Bool) (k : Nat → Nat), Inv { p.setPending a.id false with claimed := k, irq := i } := by
    intro i k
    refine h.frame rfl rfl rfl rfl rfl fun s hs => Or.inl ?_
    have hs : Spec.pending (p.setPending a.id false) s = true := hs
    rw [pending_setPending] at hs
    split at hs
    · cases hs
    · exact hs
  have hp : ∀ i, Inv { p with irq := i } := fun i =>
    h.frame rfl rfl rfl rfl rfl (fun _ x => Or.inl x)
  by_cases h0 : a.id = 0
  · simp only [h0, ne_eq, not_true_eq_false, if_false] at e
    split at e
    · split at e
      · cases e; exact hp _
      · cases e
    · cases e; exact h
  · simp only [ne_eq, h0, not_false_eq_true, if_true] at e
    split at e
    · split at e
      · cases e; exact hq _ _
      · cases e
    · cases e; exact hq p.irq _

/-- Operations under which the maps stay in step with the enable bits: no write of the pending
registers (read-only in the PLIC specification), and configuration items only enable sources that
are not enabled yet. -/
def Good (p : Plic) : Op → Prop
  | .write o _ => ¬ (0x1000 ≤ o ∧ o < 0x2000)
  | .cfgEnable c s e => c < p.nC → s < p.nS → e = true ∧ Spec.enabled p c s = false
  | _ => True

/-- All operations of a history are good, in the state in which they happen. -/
def GoodRun (p : Plic) : List Op → Prop
  | [] => True
  | o :: l => Good p o ∧ ∀ q, p.step o = some q → GoodRun q l

theorem inv_step {p q : Plic} (h : Inv p) (o : Op) (hg : Good p o) (e : p.step o = some q) : Inv q := by
  cases o with
  | set s v l => cases e; exact inv_setInterrupt h s v l
  | claim c =>
    simp only [step] at e
    cases e1 : p.claim c with
    | none => rw [e1] at e; cases e
    | some r => rw [e1] at e; cases e; exact inv_claim h c r.1 e1
  | cfgPrio s v =>
    cases e
    unfold cfgPrio
    split
    · exact h
    · exact h.frame rfl rfl rfl rfl rfl (fun _ x => Or.inl x)
  | cfgEnable c s en =>
    cases e
    by_cases hr : p.nC ≤ c ∨ p.nS ≤ s
    · unfold cfgEnable; rw [if_pos hr]; exact h
    · obtain ⟨rfl, hn⟩ := hg (by omega) (by omega)
      exact inv_cfgEnable h c s (by omega) (by omega) hn
  | write o v =>
    simp only [step, Plic.write] at e
    split at e
    · cases e; exact inv_writePrio h o v
    split at e
    · next h1 h2 => exact absurd ⟨by omega, h2⟩ hg
    split at e
    · exact (writeEnableWord_inv h _ _ v e).1
    split at e
    · cases e; exact h
    split at e
    · exact inv_writeThresh h _ v e
    split at e
    · exact inv_complete h _ _ e
    · cases e; exact h

theorem init_inv (nS nC : Nat) (ifs : Nat → Bool) : Inv (init nS nC ifs) := by
  refine ⟨⟨fun c s _ => ?_, fun c => List.nodup_nil, fun c s => ?_, fun s => List.nodup_nil⟩,
    fun c s _ x => ?_, fun s x => ?_⟩
  · simp [init, Spec.enabled]
  · simp [init, Spec.enabled]
  · simp [init, Spec.enabled] at x
  · simp [init, Spec.pending] at x

theorem inv_run {p q : Plic} (h : Inv p) (l : List Op) (hg : GoodRun p l) (e : p.run l = some q) :
    Inv q := by
  induction l generalizing p with
  | nil => cases e; exact h
  | cons o l ih =>
    unfold Plic.run at e
    rw [List.foldlM_cons] at e
    cases e1 : p.step o with
    | none => rw [e1] at e; cases e
    | some r => rw [e1] at e; exact ih (inv_step h o hg.1 e1) (hg.2 r e1) e

/-- **C23.** After any history of source changes, claims, completions, register writes (other than
to the pending registers) and enabling configuration, a claim by a context returns 0 if no enabled
source of non-zero priority is pending, otherwise such a source of maximal priority, the lowest id
among equals; it clears the pending bit of the returned source and no other, and leaves priorities,
thresholds, enable bits and gateways alone. Missing: histories that write the pending registers or
whose configuration names a source with enable 0 (`C23_config_violated`). -/
theorem C23_claim_partial (nS nC : Nat) (ifs : Nat → Bool) (l : List Op) (p : Plic)
    (hg : GoodRun (init nS nC ifs) l) (hr : (init nS nC ifs).run l = some p)
    (c : Nat) (hc : c < p.nC) (hi : p.hasIf c = true) :
    ∃ id q, p.claim c = some (id, q) ∧ Spec.claimResult p c id ∧
      (∀ s, Spec.pending q s = if s = id then false else Spec.pending p s) ∧
      q.prio = p.prio ∧ q.thresh = p.thresh ∧ q.enabled = p.enabled ∧ q.ready = p.ready ∧
      q.gpend = p.gpend := by
  obtain ⟨id, q, h1, h2, h3, ⟨i, w, h4⟩, _⟩ := claim_spec (inv_run (init_inv nS nC ifs) l hg hr) c hc hi
  refine ⟨id, q, h1, h2, h3, ?_⟩
  rw [h4]; exact ⟨rfl, rfl, rfl, rfl, rfl⟩

/-- A small configured PLIC: sources 1, 2, 3 with priorities 3, 7, 7, enabled for context 0. -/
def demoOps : List Op :=
  [.cfgPrio 1 3, .cfgPrio 2 7, .cfgPrio 3 7, .cfgEnable 0 1 true, .cfgEnable 0 3 true,
    .cfgEnable 0 2 true, .set 1 true false, .set 3 true true, .set 2 true false]

/-- Non-vacuity: three sources pending; source 2 is claimed although 3 comes first in the map. -/
example :
    (match (init 8 2 (fun _ => true)).run demoOps with
      | some p => ((p.claim 0).map Prod.fst, p.nC, p.irq 0, Spec.pending p 1, Spec.pending p 3)
      | none => (none, 0, false, false, false)) = (some 2, 2, true, true, true) := by decide

example : GoodRun (init 8 2 (fun _ => true)) demoOps := by
  refine ⟨trivial, fun _ h => ?_⟩; cases h
  refine ⟨trivial, fun _ h => ?_⟩; cases h
  refine ⟨trivial, fun _ h => ?_⟩; cases h
  refine ⟨fun _ _ => ⟨rfl, by decide⟩, fun _ h => ?_⟩; cases h
  refine ⟨fun _ _ => ⟨rfl, by decide⟩, fun _ h => ?_⟩; cases h
  refine ⟨fun _ _ => ⟨rfl, by decide⟩, fun _ h => ?_⟩; cases h
  refine ⟨trivial, fun _ h => ?_⟩; cases h
  refine ⟨trivial, fun _ h => ?_⟩; cases h
  refine ⟨trivial, fun _ h => ?_⟩; cases h
  trivial

/-- **C23 is violated by configuration items with enable 0**: the source is claimed although its
enable bit is clear. -/
theorem C23_config_violated :
    (match (init 8 1 (fun _ => true)).run [.cfgPrio 1 3, .cfgEnable 0 1 false, .set 1 true false] with
      | some p => ((p.claim 0).map Prod.fst, Spec.enabled p 0 1)
      | none => (none, true)) = (some 1, false) := by decide

/-! ### C24 -/

/-- **C24 (thresholds).** A threshold register reads back the stored value; no other threshold
changes. -/
theorem C24_threshold_partial (p q : Plic) (c : Nat) (v : BitVec 32) (hc : c < p.nC)
    (e : p.write (Spec.threshAddr c) v = some q) :
    q.read (Spec.threshAddr c) = some (v, q) ∧
    ∀ c', c' ≠ c → c' < p.nC → q.read (Spec.threshAddr c') = some (p.thresh c', q) := by
  have addr : ∀ k, ¬ Spec.threshAddr k < 0x1000 ∧ ¬ Spec.threshAddr k < 0x2000 ∧
      ¬ Spec.threshAddr k < 0x200000 ∧ (Spec.threshAddr k - 0x200000) / 4096 = k ∧
      (Spec.threshAddr k - 0x200000) % 4096 = 0 := by
    intro k; unfold Spec.threshAddr; omega
  have hq : q.nC = p.nC ∧ q.thresh = upd p.thresh c v := by
    obtain ⟨h1, h2, h3, h4, h5⟩ := addr c
    simp only [Plic.write, if_neg h1, if_neg h2, if_neg h3, h4, h5, if_true,
      if_neg (show ¬ p.nC ≤ c by omega), writeThresh] at e
    split at e
    · split at e
      · cases e; exact ⟨rfl, rfl⟩
      · split at e
        · cases e
        · cases e; exact ⟨rfl, rfl⟩
    · cases e; exact ⟨rfl, rfl⟩
  have rd : ∀ k, k < p.nC → q.read (Spec.threshAddr k) = some (q.thresh k, q) := by
    intro k hk
    obtain ⟨h1, h2, h3, h4, h5⟩ := addr k
    simp only [Plic.read, if_neg h1, if_neg h2, if_neg h3, h4, h5, if_true, hq.1,
      if_neg (show ¬ p.nC ≤ k by omega)]
  refine ⟨by rw [rd c hc, hq.2]; simp [upd], fun c' h hc' => by rw [rd c' hc', hq.2]; simp [upd, h]⟩

example : (((init 8 4 (fun _ => true)).write (Spec.threshAddr 3) 9).bind
    fun q => (q.read (Spec.threshAddr 3)).map Prod.fst) = some 9#32 := by decide

/-- **C24 is violated for every priority register**: a store to the priority register of a source
`s ≥ 1` is not seen by a load from the same address (it goes to source `s / 2`). -/
theorem C24_priority_violated (p : Plic) (s : Nat) (v : BitVec 32) (h0 : 0 < s) (h1 : s < p.nS)
    (h2 : s < 1024) :
    ∃ q, p.write (Spec.prioAddr s) v = some q ∧
      (q.read (Spec.prioAddr s)).map Prod.fst = some (p.prio s) := by
  have a1 : Spec.prioAddr s < 0x1000 := by unfold Spec.prioAddr; omega
  have a2 : Spec.prioAddr s / 8 = s / 2 := by unfold Spec.prioAddr; omega
  have a3 : Spec.prioAddr s / 4 = s := by unfold Spec.prioAddr; omega
  refine ⟨_, by unfold Plic.write; rw [if_pos a1], ?_⟩
  have hq : (p.writePrio (Spec.prioAddr s) v).nS = p.nS ∧
      (p.writePrio (Spec.prioAddr s) v).prio s = p.prio s := by
    simp only [writePrio, a2, if_neg (show ¬ p.nS ≤ s / 2 by omega)]
    have hne : s ≠ s / 2 := by omega
    split
    · obtain ⟨⟨i, w, f⟩, _⟩ := setPlicPending_frame { p with prio := upd p.prio (s / 2) v } (s / 2)
      rw [f]
      exact ⟨rfl, by simp [upd, hne]⟩
    · exact ⟨rfl, by simp [upd, hne]⟩
  simp only [Plic.read, if_pos a1, a3, hq.1, if_pos h1, hq.2, Option.map_some]

example : (init 8 1 (fun _ => true)).nS = 8 ∧ Spec.prioAddr 5 = 20 := by decide

/-- **C24 is violated for every enable register but the first**: a store to an enable register is
not seen by a load from the same address. -/
theorem C24_enable_violated (p q : Plic) (hi : Inv p) (c word : Nat) (v x : BitVec 32)
    (hw : word < 32) (hne : ¬ (c = 0 ∧ word = 0)) (ha : Spec.enableAddr c word < 0x200000)
    (e : p.write (Spec.enableAddr c word) v = some q)
    (hx : p.read (Spec.enableAddr c word) = some (x, p)) :
    (q.read (Spec.enableAddr c word)).map Prod.fst = some x := by
  have ea : Spec.enableAddr c word = 8192 + 128 * c + 4 * word := rfl
  have h1 : ¬ Spec.enableAddr c word < 0x1000 := by omega
  have h2 : ¬ Spec.enableAddr c word < 0x2000 := by omega
  have h3 : (Spec.enableAddr c word - 0x2000) / 128 = c := by omega
  have h4 : (Spec.enableAddr c word - 0x2000) % 128 = 4 * word := by omega
  have h5 : (Spec.enableAddr c word - 0x2000) / 4 = 32 * c + word := by omega
  simp only [Plic.write, if_neg h1, if_neg h2, if_pos ha, writeEnable, h5] at e
  obtain ⟨_, en, _, hS, hC, _⟩ := writeEnableWord_inv hi _ _ v e
  have far : ¬ (c = (32 * c + word) / 128 ∧ 4 * word = (32 * c + word) / 4 % 32) := by
    clear h3 h4 h5 ea ha
    rintro ⟨x1, x2⟩
    have : c = 0 := by omega
    subst this
    have : (32 * 0 + word) / 4 % 32 = word / 4 := by
      rw [Nat.mod_eq_of_lt] <;> omega
    omega
  simp only [Plic.read, if_neg h1, if_neg h2, if_pos ha, h3, h4] at hx ⊢
  rw [hC, hS, en, if_neg far]
  split at hx
  · next y => rw [if_pos y]; cases hx; rfl
  · next y =>
    rw [if_neg y]
    split at hx
    · next z => rw [if_pos z]; cases hx; rfl
    · next z =>
      rw [if_neg z]
      split at hx
      · next u => rw [if_pos u]; cases hx; rfl
      · cases hx

/-- Instance: enabling source 33 of context 0 at its documented address enables nothing there. -/
example :
    (((init 64 1 (fun _ => true)).write (Spec.enableAddr 0 1) 2).bind
      fun q => (q.read (Spec.enableAddr 0 1)).map Prod.fst) = some 0#32 := by decide

/-- **C24 is violated: undefined accesses.** Reading the priority register of an unconfigured source
or an enable word just past the end, and writing the enable register of an unconfigured context,
access memory outside the arrays. -/
theorem C24_bounds_violated :
    (init 8 1 (fun _ => true)).read (Spec.prioAddr 8) = none ∧
    (init 33 1 (fun _ => true)).read 0x2002 = none ∧
    (init 8 1 (fun _ => true)).write 0x2200 1 = none ∧
    (init 8 1 (fun _ => true)).write 0x2000 0x80000000 = none := by
  refine ⟨rfl, rfl, ?_, ?_⟩ <;> decide

/-! ### C25 -/

theorem scan_pending (p : Plic) (l : List Nat) (a b : Scan)
    (ha : a.id = 0 ∨ Spec.pending p a.id = true) (e : l.foldlM (scan1 p) a = some b) :
    b.id = 0 ∨ Spec.pending p b.id = true := by
  induction l generalizing a with
  | nil => cases e; exact ha
  | cons s l ih =>
    rw [List.foldlM_cons] at e
    cases e1 : scan1 p a s with
    | none => rw [e1] at e; cases e
    | some a' =>
      rw [e1] at e
      refine ih a' ?_ e
      unfold scan1 at e1
      split at e1
      · cases e1
      split at e1
      · cases e1; exact ha
      next hp =>
      split at e1
      · cases e1
      split at e1
      · cases e1; exact ha
      split at e1
      · cases e1; exact ha
      · cases e1
        right
        show p.isPending s = true
        simpa using hp

/-- What a claim does. -/
theorem claim_cases {p q : Plic} {c id : Nat} (e : p.claim c = some (id, q)) :
    (id = 0 ∧ ∃ i, q = { p with irq := i }) ∨
    (id ≠ 0 ∧ Spec.pending p id = true ∧
      ∃ i, q = { p.setPending id false with claimed := upd p.claimed c id, irq := i }) := by
  unfold claim at e
  split at e
  · cases e; exact Or.inl ⟨rfl, p.irq, rfl⟩
  split at e
  · cases e
  next a ea =>
  have hp := scan_pending p _ _ a (Or.inl rfl) ea
  simp only at e
  by_cases h0 : a.id = 0
  · simp only [h0, ne_eq, not_true_eq_false, if_false] at e
    split at e
    · split at e
      · cases e; exact Or.inl ⟨rfl, _, rfl⟩
      · cases e
    · cases e; exact Or.inl ⟨rfl, p.irq, rfl⟩
  · have hp : Spec.pending p a.id = true := hp.resolve_left h0
    simp only [ne_eq, h0, not_false_eq_true, if_true] at e
    split at e
    · split at e
      · cases e; exact Or.inr ⟨h0, hp, _, rfl⟩
      · cases e
    · cases e; exact Or.inr ⟨h0, hp, p.irq, rfl⟩

/-- Gateway protocol: a pending or claimed source does not accept requests; a claimed source is not
pending and is claimed by one context. -/
structure Gate (p : Plic) : Prop where
  zero : Spec.pending p 0 = false
  pend : ∀ s, Spec.pending p s = true → p.ready s = false
  claimed : ∀ c, p.claimed c ≠ 0 → p.ready (p.claimed c) = false ∧ Spec.pending p (p.claimed c) = false
  unique : ∀ c c', p.claimed c ≠ 0 → p.claimed c = p.claimed c' → c = c'

/-- Operations covered: those of `Good`, that is no write of the pending
registers and only enabling configuration, and no priority write that makes a waiting level interrupt of a disabled source pending. -/
def Covered (p : Plic) (op : Op) : Prop :=
  Good p op ∧ ∀ o v, op = .write o v → o < 0x1000 →
    ¬ (p.prio (o / 8) = 0#32 ∧ v ≠ 0#32 ∧ p.ready (o / 8) = true ∧ p.gpend (o / 8) = true)

def CoveredRun (p : Plic) : List Op → Prop
  | [] => True
  | o :: l => Covered p o ∧ ∀ q, p.step o = some q → CoveredRun q l

theorem Gate.frame {p q : Plic} (h : Gate p) (h1 : q.pend = p.pend) (h2 : q.ready = p.ready)
    (h3 : q.claimed = p.claimed) : Gate q := by
  have hp : ∀ s, Spec.pending q s = Spec.pending p s := by
    intro s; unfold Spec.pending; rw [h1]
  refine ⟨by rw [hp]; exact h.zero, fun s x => ?_, fun c x => ?_, fun c c' x y => ?_⟩
  · rw [h2]; rw [hp] at x; exact h.pend s x
  · rw [h2, hp]; rw [h3] at x ⊢; exact h.claimed c x
  · rw [h3] at x y; exact h.unique c c' x y

theorem gate_setPlicPending {p : Plic} (h : Gate p) (s : Nat) (hr : s ≠ 0 → p.ready s = false)
    (hc : ∀ c, s ≠ 0 → p.claimed c ≠ s) : Gate (p.setPlicPending s) := by
  obtain ⟨⟨i, w, f⟩, hp⟩ := setPlicPending_frame p s
  have h2 : (p.setPlicPending s).ready = p.ready := by rw [f]
  have h3 : (p.setPlicPending s).claimed = p.claimed := by rw [f]
  refine ⟨?_, fun t x => ?_, fun c x => ?_, fun c c' x y => ?_⟩
  · cases y : Spec.pending (p.setPlicPending s) 0
    · rfl
    · rcases (hp 0).1 y with z | z
      · rw [h.zero] at z; exact z.symm
      · exact absurd z.1.symm z.2.1
  · rw [h2]
    rcases (hp t).1 x with y | y
    · exact h.pend t y
    · rw [y.1]; exact hr y.2.1
  · rw [h2, h3]; rw [h3] at x
    refine ⟨(h.claimed c x).1, ?_⟩
    cases y : Spec.pending (p.setPlicPending s) (p.claimed c)
    · rfl
    · rcases (hp _).1 y with z | z
      · rw [(h.claimed c x).2] at z; exact z.symm
      · exact absurd z.1 (hc c z.2.1)
  · rw [h3] at x y; exact h.unique c c' x y

theorem gate_setInterrupt {p : Plic} (h : Gate p) (s : Nat) (v l : Bool) : Gate (p.setInterrupt s v l) := by
  have main : ∀ g, p.ready s = true →
      Gate (({ p with gpend := g, ready := upd p.ready s false } : Plic).setPlicPending s) := by
    intro g hr
    have hnc : ∀ c, p.claimed c ≠ s ∨ s = 0 := by
      intro c
      by_cases e : p.claimed c = s
      · by_cases e0 : s = 0
        · exact Or.inr e0
        · have := (h.claimed c (by rw [e]; exact e0)).1
          rw [e, hr] at this; cases this
      · exact Or.inl e
    have h' : Gate { p with gpend := g, ready := upd p.ready s false } := by
      refine ⟨h.zero, fun t x => ?_, fun c x => ⟨?_, (h.claimed c x).2⟩, h.unique⟩
      · simp only [upd]; split
        · rfl
        · exact h.pend t x
      · simp only [upd]; split
        · rfl
        · exact (h.claimed c x).1
    exact gate_setPlicPending h' s (fun _ => by simp [upd]) (fun c h0 => (hnc c).resolve_right h0)
  unfold setInterrupt
  split
  · exact h
  split
  · exact h
  split
  · split
    · exact h.frame rfl rfl rfl
    · exact h
  next hrv =>
  have hr : p.ready s = true := by
    cases x : p.ready s
    · rw [x] at hrv; simp at hrv
    · rfl
  cases l
  · simp only [Bool.false_eq_true, if_false]
    split
    · exact h
    · exact main p.gpend hr
  · simp only [if_true]
    split
    · exact h.frame rfl rfl rfl
    · exact main _ hr

theorem gate_claim {p q : Plic} (h : Gate p) (c id : Nat) (e : p.claim c = some (id, q)) : Gate q := by
  rcases claim_cases e with ⟨_, i, rfl⟩ | ⟨h0, hp, i, rfl⟩
  · exact h.frame rfl rfl rfl
  have hpend : ∀ s, Spec.pending
      ({ p.setPending id false with claimed := upd p.claimed c id, irq := i } : Plic) s =
      if s = id then false else Spec.pending p s := fun s => pending_setPending p id s false
  have hnc : ∀ c', p.claimed c' ≠ id := by
    intro c' e
    have := (h.claimed c' (by rw [e]; exact h0)).2
    rw [e, hp] at this; cases this
  refine ⟨by rw [hpend, h.zero]; split <;> rfl, fun s x => ?_, fun c' x => ?_, fun c' c'' x y => ?_⟩
  · rw [hpend] at x
    split at x
    · cases x
    · exact h.pend s x
  · rw [hpend]
    have x : upd p.claimed c id c' ≠ 0 := x
    show p.ready (upd p.claimed c id c') = false ∧ _ = false
    unfold upd at x ⊢
    by_cases e : c' = c
    · simp only [e, if_true]; exact ⟨h.pend id hp, trivial⟩
    · simp only [e, if_false] at x ⊢
      rw [if_neg (hnc c')]; exact h.claimed c' x
  · have x : upd p.claimed c id c' ≠ 0 := x
    have y : upd p.claimed c id c' = upd p.claimed c id c'' := y
    unfold upd at x y
    by_cases e : c' = c
    · by_cases e2 : c'' = c
      · rw [e, e2]
      · simp only [e, if_true, e2, if_false] at y; exact absurd y.symm (hnc c'')
    · by_cases e2 : c'' = c
      · simp only [e, if_false, e2, if_true] at y; exact absurd y (hnc c')
      · simp only [e, e2, if_false] at x y; exact h.unique c' c'' x y

theorem gate_complete {p q : Plic} (h : Gate p) (c id : Nat) (e : p.complete c id = some q) : Gate q := by
  unfold complete at e
  split at e
  · cases e; exact h
  split at e
  · cases e; exact h
  simp only at e
  split at e
  · cases e
  have h' : Gate { p with claimed := upd p.claimed c 0 } := by
    refine ⟨h.zero, h.pend, fun c' x => ?_, fun c' c'' x y => ?_⟩
    · have x : upd p.claimed c 0 c' ≠ 0 := x
      show p.ready (upd p.claimed c 0 c') = false ∧ Spec.pending p (upd p.claimed c 0 c') = false
      unfold upd at x ⊢
      by_cases e : c' = c
      · simp [e] at x
      · simp only [e, if_false] at x ⊢; exact h.claimed c' x
    · have x : upd p.claimed c 0 c' ≠ 0 := x
      have y : upd p.claimed c 0 c' = upd p.claimed c 0 c'' := y
      unfold upd at x y
      by_cases e : c' = c
      · simp [e] at x
      · by_cases e2 : c'' = c
        · simp only [e, e2, if_true, if_false] at x y; exact absurd y x
        · simp only [e, e2, if_false] at x y; exact h.unique c' c'' x y
  have hnc : ∀ c', p.claimed c ≠ 0 → upd p.claimed c 0 c' ≠ p.claimed c := by
    intro c' h0 y
    unfold upd at y
    by_cases e : c' = c
    · simp only [e, if_true] at y; exact h0 y.symm
    · simp only [e, if_false] at y
      exact e (h.unique c' c (by rw [y]; exact h0) y)
  split at e
  · cases e
    exact gate_setPlicPending h' (p.claimed c) (fun h0 => (h.claimed c h0).1) (fun c' h0 => hnc c' h0)
  · cases e
    refine ⟨h'.zero, fun s x => ?_, fun c' x => ⟨?_, (h'.claimed c' x).2⟩, h'.unique⟩
    · have x : Spec.pending p s = true := x
      show upd p.ready (p.claimed c) true s = false
      unfold upd
      split
      · next es =>
        exfalso
        by_cases h0 : p.claimed c = 0
        · rw [es, h0, h.zero] at x; cases x
        · rw [es, (h.claimed c h0).2] at x; cases x
      · exact h.pend s x
    · have x : upd p.claimed c 0 c' ≠ 0 := x
      show upd p.ready (p.claimed c) true (upd p.claimed c 0 c') = false
      by_cases h0 : p.claimed c = 0
      · have : upd p.claimed c 0 c' ≠ p.claimed c := by rw [h0]; exact x
        rw [show upd p.ready (p.claimed c) true (upd p.claimed c 0 c') = p.ready (upd p.claimed c 0 c')
          from if_neg this]
        exact (h'.claimed c' x).1
      · rw [show upd p.ready (p.claimed c) true (upd p.claimed c 0 c') = p.ready (upd p.claimed c 0 c')
          from if_neg (hnc c' h0)]
        exact (h'.claimed c' x).1

theorem writeThresh_frame {p q : Plic} {c : Nat} {v : BitVec 32} (e : p.writeThresh c v = some q) :
    ∃ i, q = { p with thresh := upd p.thresh c v, irq := i } := by
  simp only [writeThresh] at e
  split at e
  · split at e
    · cases e; exact ⟨_, rfl⟩
    · split at e
      · cases e
      · cases e; exact ⟨_, rfl⟩
  · cases e; exact ⟨_, rfl⟩

theorem gate_step {p q : Plic} (hi : Inv p) (h : Gate p) (o : Op) (hc : Covered p o)
    (e : p.step o = some q) : Gate q := by
  cases o with
  | set s v l => cases e; exact gate_setInterrupt h s v l
  | claim c =>
    simp only [step] at e
    cases e1 : p.claim c with
    | none => rw [e1] at e; cases e
    | some r => rw [e1] at e; cases e; exact gate_claim h c r.1 e1
  | cfgPrio s v =>
    cases e; unfold cfgPrio; split
    · exact h
    · exact h.frame rfl rfl rfl
  | cfgEnable c s v =>
    cases e; unfold cfgEnable; split
    · exact h
    · exact h.frame rfl rfl rfl
  | write o v =>
    obtain ⟨h1, h2⟩ := hc
    have h2 := h2 o v rfl
    have h1 : ¬ (0x1000 ≤ o ∧ o < 0x2000) := h1
    simp only [step, write] at e
    split at e
    · next ho =>
      have h2 := h2 ho
      cases e
      simp only [writePrio]
      split
      · exact h
      exact h.frame rfl rfl rfl
    split at e
    · exact absurd ⟨by omega, by assumption⟩ h1
    split at e
    · obtain ⟨_, _, a1, _, _, _, _, _, a2, _, a3⟩ := writeEnableWord_inv hi _ _ v e
      exact h.frame a1 a2 a3
    split at e
    · cases e; exact h
    split at e
    · obtain ⟨i, rfl⟩ := writeThresh_frame e
      exact h.frame rfl rfl rfl
    split at e
    · exact gate_complete h _ _ e
    · cases e; exact h

theorem gate_run {p q : Plic} (hi : Inv p) (h : Gate p) (l : List Op) (hc : CoveredRun p l)
    (e : p.run l = some q) : Inv q ∧ Gate q := by
  induction l generalizing p with
  | nil => cases e; exact ⟨hi, h⟩
  | cons o l ih =>
    unfold run at e
    rw [List.foldlM_cons] at e
    cases e1 : p.step o with
    | none => rw [e1] at e; cases e
    | some r =>
      rw [e1] at e
      exact ih (inv_step hi o hc.1.1 e1) (gate_step hi h o hc.1 e1) (hc.2 r e1) e

theorem gate_init (nS nC : Nat) (ifs : Nat → Bool) : Gate (init nS nC ifs) := by
  refine ⟨?_, fun s x => ?_, fun c x => absurd rfl x, fun c c' x => absurd rfl x⟩
  · simp [Spec.pending, init]
  · simp [Spec.pending, init] at x

/-- The operation completes source `s`: a write to the claim/complete register of a context whose
last claim is `s`. -/
def Completes (p : Plic) (s : Nat) : Op → Prop
  | .write o _ => ∃ c, o = Spec.claimAddr c ∧ p.claimed c = s
  | _ => False

def NotCompleted (p : Plic) (s : Nat) : List Op → Prop
  | [] => True
  | o :: l => ¬ Completes p s o ∧ ∀ q, p.step o = some q → NotCompleted q s l

theorem quiet_step {p q : Plic} (hi : Inv p) (s : Nat) (hr : p.ready s = false)
    (hp : Spec.pending p s = false) (o : Op) (hg : Good p o) (hn : ¬ Completes p s o)
    (e : p.step o = some q) : q.ready s = false ∧ Spec.pending q s = false := by
  have spp : ∀ (p' : Plic) (t : Nat), t ≠ s → p'.ready s = false → Spec.pending p' s = false →
      (p'.setPlicPending t).ready s = false ∧ Spec.pending (p'.setPlicPending t) s = false := by
    intro p' t hne h1 h2
    obtain ⟨⟨i, w, f⟩, hq⟩ := setPlicPending_frame p' t
    refine ⟨by rw [f]; exact h1, ?_⟩
    cases y : Spec.pending (p'.setPlicPending t) s
    · rfl
    · rcases (hq s).1 y with z | z
      · rw [h2] at z; exact z.symm
      · exact absurd z.1.symm hne
  cases o with
  | set t v l =>
    cases e
    unfold setInterrupt
    split
    · exact ⟨hr, hp⟩
    split
    · exact ⟨hr, hp⟩
    split
    · split
      · exact ⟨hr, hp⟩
      · exact ⟨hr, hp⟩
    next hrv =>
    have hne : t ≠ s := by
      intro x; rw [x, hr] at hrv; simp at hrv
    have hne' : s ≠ t := Ne.symm hne
    cases l
    · simp only [Bool.false_eq_true, if_false]
      split
      · exact ⟨hr, hp⟩
      · exact spp _ t hne (by simp [upd, hne', hr]) hp
    · simp only [if_true]
      split
      · exact ⟨hr, hp⟩
      · exact spp _ t hne (by simp [upd, hne', hr]) hp
  | claim c =>
    simp only [step] at e
    cases e1 : p.claim c with
    | none => rw [e1] at e; cases e
    | some r =>
      rw [e1] at e; cases e
      obtain ⟨id, q⟩ := r
      rcases claim_cases e1 with ⟨_, i, rfl⟩ | ⟨h0, _, i, rfl⟩
      · exact ⟨hr, hp⟩
      · refine ⟨hr, (pending_setPending p id s false).trans ?_⟩
        rw [hp]; split <;> rfl
  | cfgPrio t v =>
    cases e; unfold cfgPrio; split <;> exact ⟨hr, hp⟩
  | cfgEnable c t v =>
    cases e; unfold cfgEnable; split <;> exact ⟨hr, hp⟩
  | write o v =>
    have hg : ¬ (0x1000 ≤ o ∧ o < 0x2000) := hg
    simp only [step, write] at e
    split at e
    · cases e
      simp only [writePrio]
      split
      · exact ⟨hr, hp⟩
      split
      · next h =>
        have h3 : p.ready (o / 8) = true := h.2.2.1
        have hne : o / 8 ≠ s := by intro x; rw [x, hr] at h3; cases h3
        exact spp _ (o / 8) hne hr hp
      · exact ⟨hr, hp⟩
    split at e
    · exact absurd ⟨by omega, by assumption⟩ hg
    split at e
    · obtain ⟨_, _, a1, _, _, _, _, _, a2, _, a3⟩ := writeEnableWord_inv hi _ _ v e
      exact ⟨by rw [a2]; exact hr, by unfold Spec.pending; rw [a1]; exact hp⟩
    next ho =>
    split at e
    · cases e; exact ⟨hr, hp⟩
    split at e
    · obtain ⟨i, rfl⟩ := writeThresh_frame e
      exact ⟨hr, hp⟩
    split at e
    · next h4 =>
      have hcl : p.claimed ((o - 0x200000) / 4096) ≠ s := by
        intro x
        exact hn ⟨_, by unfold Spec.claimAddr; omega, x⟩
      simp only [complete] at e
      split at e
      · cases e; exact ⟨hr, hp⟩
      split at e
      · cases e; exact ⟨hr, hp⟩
      split at e
      · cases e
      split at e
      · cases e; exact spp _ _ hcl hr hp
      · cases e
        exact ⟨by simp [upd, Ne.symm hcl, hr], hp⟩
    · cases e; exact ⟨hr, hp⟩

theorem quiet_run {p q : Plic} (hi : Inv p) (s : Nat) (hr : p.ready s = false)
    (hp : Spec.pending p s = false) (l : List Op) (hg : GoodRun p l) (hn : NotCompleted p s l)
    (e : p.run l = some q) : Spec.pending q s = false := by
  induction l generalizing p with
  | nil => cases e; exact hp
  | cons o l ih =>
    unfold run at e
    rw [List.foldlM_cons] at e
    cases e1 : p.step o with
    | none => rw [e1] at e; cases e
    | some r =>
      rw [e1] at e
      obtain ⟨h1, h2⟩ := quiet_step hi s hr hp o hg.1 hn.1 e1
      exact ih (inv_step hi o hg.1 e1) h1 h2 (hg.2 r e1) (hn.2 r e1) e

/-- **C25 (at most one request in service).** Whatever happened before, once a source has been
claimed, no sequence of source changes, claims and register writes makes it pending again before a
completion is written for it. Missing: writes of the pending registers, and the priority write of
`C25_priority_violated`. -/
theorem C25_once_partial (nS nC : Nat) (ifs : Nat → Bool) (l1 l2 : List Op) (p q r : Plic)
    (h1 : CoveredRun (init nS nC ifs) l1) (e1 : (init nS nC ifs).run l1 = some p)
    (c s : Nat) (hs : s ≠ 0) (ec : p.claim c = some (s, q))
    (h2 : GoodRun q l2) (hn : NotCompleted q s l2) (e2 : q.run l2 = some r) :
    Spec.pending r s = false := by
  obtain ⟨hi, hg⟩ := gate_run (init_inv nS nC ifs) (gate_init nS nC ifs) l1 h1 e1
  have hi' := inv_claim hi c s ec
  rcases claim_cases ec with ⟨h0, _⟩ | ⟨_, hp, i, rfl⟩
  · exact absurd h0 hs
  · refine quiet_run hi' s (hg.pend s hp) ?_ l2 h2 hn e2
    exact (pending_setPending p s s false).trans (by simp)

/-- Non-vacuity: source 2 claimed, raised again twice, still not pending; after the completion it is. -/
example :
    ((init 8 1 (fun _ => true)).run [.cfgPrio 2 7, .cfgEnable 0 2 true, .set 2 true true, .claim 0,
        .set 2 true true, .set 2 true false]).map (fun p => (Spec.pending p 2, p.claimed 0)) =
      some (false, 2) ∧
    ((init 8 1 (fun _ => true)).run [.cfgPrio 2 7, .cfgEnable 0 2 true, .set 2 true true, .claim 0,
        .set 2 true true, .write (Spec.claimAddr 0) 2]).map (fun p => Spec.pending p 2) =
      some true := by decide

/-- **C25 (level).** The gateway remembers the last level signalled for a source, whether or not the
source can currently be forwarded, and no other source's. -/
theorem C25_level (p : Plic) (s : Nat) (v : Bool) (h : s < p.nS) (t : Nat) :
    (p.setInterrupt s v true).gpend t = if t = s then v else p.gpend t := by
  have hn : ¬ p.nS ≤ s := by omega
  cases v
  · simp [setInterrupt, hn, upd]
  · simp only [setInterrupt, if_neg hn, Bool.not_true, Bool.and_false, Bool.or_false,
      Bool.false_eq_true, if_false, if_true]
    split
    · rfl
    split
    · rfl
    · obtain ⟨⟨i, w, f⟩, _⟩ := setPlicPending_frame
        { p with gpend := upd p.gpend s true, ready := upd p.ready s false } s
      rw [f]; rfl

/-- **C25 (completion).** In any covered history, a completion for the source last claimed by the
context makes it pending again exactly if its level is still asserted (and its priority non-zero),
and otherwise lets the gateway accept a new request. -/
theorem C25_complete_partial (nS nC : Nat) (ifs : Nat → Bool) (l : List Op) (p q : Plic)
    (h1 : CoveredRun (init nS nC ifs) l) (e1 : (init nS nC ifs).run l = some p)
    (c : Nat) (hc : c < p.nC) (hs : p.claimed c ≠ 0) (id : BitVec 32)
    (hid : Spec.enabled p c id.toNat = true)
    (e : p.write (Spec.claimAddr c) id = some q) :
    Spec.pending q (p.claimed c) = (p.gpend (p.claimed c) && decide (p.prio (p.claimed c) ≠ 0#32)) ∧
    q.ready (p.claimed c) = !(p.gpend (p.claimed c) && decide (p.prio (p.claimed c) ≠ 0#32)) ∧
    (∀ s, s ≠ p.claimed c → Spec.pending q s = Spec.pending p s ∧ q.ready s = p.ready s) := by
  obtain ⟨hi, hg⟩ := gate_run (init_inv nS nC ifs) (gate_init nS nC ifs) l h1 e1
  have ca : Spec.claimAddr c = 2097156 + 4096 * c := rfl
  have mem : id.toNat ∈ p.c2s c := (hi.sync.c2s c _ hc).2 hid
  simp only [Plic.write, if_neg (show ¬ Spec.claimAddr c < 0x1000 by omega),
    if_neg (show ¬ Spec.claimAddr c < 0x2000 by omega),
    if_neg (show ¬ Spec.claimAddr c < 0x200000 by omega),
    show (Spec.claimAddr c - 0x200000) / 4096 = c by omega,
    if_neg (show ¬ p.nC ≤ c by omega),
    if_neg (show ¬ (Spec.claimAddr c - 0x200000) % 4096 = 0 by omega),
    if_pos (show (Spec.claimAddr c - 0x200000) % 4096 = 4 by omega), complete,
    if_neg (not_not_intro mem)] at e
  split at e
  · cases e
  next hns =>
  have gt0 : ∀ x : BitVec 32, 0#32 < x ↔ x ≠ 0#32 := by
    intro x; rw [BitVec.lt_def, toNat_ne_zero]; simp; omega
  simp only [gt0] at e
  split at e
  · next h =>
    cases e
    obtain ⟨⟨i, w, f⟩, hq⟩ := setPlicPending_frame { p with claimed := upd p.claimed c 0 } (p.claimed c)
    rw [h.1]; simp only [h.2, ne_eq, not_false_eq_true, decide_true, Bool.and_self, Bool.not_true]
    refine ⟨(hq _).2 (Or.inr ⟨rfl, hs, by show p.claimed c < p.nS; omega, h.2⟩), ?_, ?_⟩
    · rw [f]; exact (hg.claimed c hs).1
    · intro s hne
      refine ⟨?_, by rw [f]⟩
      rw [Bool.eq_iff_iff, hq s]
      exact ⟨fun x => x.elim (fun y => y) (fun y => absurd y.1 hne), Or.inl⟩
  · next h =>
    cases e
    have hb : (p.gpend (p.claimed c) && decide (p.prio (p.claimed c) ≠ 0#32)) = false := by
      cases x : p.gpend (p.claimed c)
      · rfl
      · simp only [x, true_and] at h
        simpa using h
    rw [hb]
    refine ⟨(hg.claimed c hs).2, by simp [upd], fun s hne => ⟨rfl, by simp [upd, hne]⟩⟩

/-- **C25 is violated by a priority write**: the level of source 2 is asserted while its priority is
0; the later priority write (the register of source 4, by `C24_priority_violated`) makes it pending
without closing the gateway, so a second request becomes pending while the first is in service. -/
theorem C25_priority_violated :
    ((init 8 1 (fun _ => true)).run [.cfgEnable 0 2 true, .set 2 true true, .write 16 5, .claim 0,
        .set 2 true true]).map (fun p => (p.claimed 0, Spec.pending p 2)) = some (2, true) := by decide

/-- **C25 is violated by nested claims**: a context claims 1, then the more urgent 2, completes 2 and
then 1; source 1 is never accepted again. -/
theorem C25_nested_violated :
    ((init 8 1 (fun _ => true)).run [.cfgPrio 1 1, .cfgPrio 2 2, .cfgEnable 0 1 true, .cfgEnable 0 2 true,
        .set 1 true false, .claim 0, .set 2 true false, .claim 0, .write (Spec.claimAddr 0) 2,
        .write (Spec.claimAddr 0) 1, .set 1 true false]).map
      (fun p => (p.ready 1, Spec.pending p 1, p.claimed 0)) = some (false, false, 0) := by decide

/-! ### C63 -/

theorem raise_fold (p : Plic) (s c : Nat) (l : List Nat) (hc : c ∈ l) (hi : p.hasIf c = true)
    (hp : p.thresh c < p.prio s) : ((l.foldl (fun q c => q.trigger s c) p)).irq c = true := by
  have keep : ∀ (l : List Nat) (q : Plic), q.irq c = true →
      (l.foldl (fun q c => q.trigger s c) q).irq c = true := by
    intro l
    induction l with
    | nil => intro q h; exact h
    | cons d l ih =>
      intro q h
      apply ih
      show (q.trigger s d).irq c = true
      unfold trigger
      split
      · exact h
      split
      · exact h
      · unfold raise upd; simp only; split
        · rfl
        · exact h
  induction l generalizing p with
  | nil => cases hc
  | cons d l ih =>
    rw [List.foldl_cons]
    rcases List.mem_cons.1 hc with rfl | hc
    · apply keep
      have : ¬ p.prio s ≤ p.thresh c := by rw [BitVec.not_le]; exact hp
      simp [trigger, this, hi, raise, upd]
    · have fr : (p.trigger s d).hasIf = p.hasIf ∧ (p.trigger s d).thresh = p.thresh ∧
          (p.trigger s d).prio = p.prio := by
        unfold trigger; split
        · exact ⟨rfl, rfl, rfl⟩
        split
        · exact ⟨rfl, rfl, rfl⟩
        · exact ⟨rfl, rfl, rfl⟩
      exact ih _ hc (by rw [fr.1]; exact hi) (by rw [fr.2.1, fr.2.2]; exact hp)

/-- **C63 (raising).** In any good history, when an idle source accepts a request, the line of every
connected context that enables it with a threshold below its priority is high afterwards. -/
theorem C63_raise_partial (nS nC : Nat) (ifs : Nat → Bool) (l : List Op) (p : Plic)
    (hg : GoodRun (init nS nC ifs) l) (hr : (init nS nC ifs).run l = some p)
    (s c : Nat) (lvl : Bool) (hs : s ≠ 0) (hn : s < p.nS) (hrdy : p.ready s = true)
    (hp : Spec.pending p s = false) (hc : c < p.nC) (hi : p.hasIf c = true)
    (he : Spec.enabled p c s = true) (ht : p.thresh c < p.prio s) :
    Spec.pending (p.setInterrupt s true lvl) s = true ∧ (p.setInterrupt s true lvl).irq c = true := by
  have inv := inv_run (init_inv nS nC ifs) l hg hr
  have mem : c ∈ p.s2c s := (inv.sync.s2c c s).2 ⟨hc, he⟩
  have hp0 : p.prio s ≠ 0#32 := by
    rw [toNat_ne_zero]; rw [BitVec.lt_def] at ht; omega
  have key : ∀ g : Nat → Bool, Spec.pending
        (({ p with gpend := g, ready := upd p.ready s false } : Plic).setPlicPending s) s = true ∧
      (({ p with gpend := g, ready := upd p.ready s false } : Plic).setPlicPending s).irq c = true := by
    intro g
    refine ⟨((setPlicPending_frame _ s).2 s).2 (Or.inr ⟨rfl, hs, hn, hp0⟩), ?_⟩
    unfold setPlicPending
    rw [if_neg (show ¬ (s = 0 ∨ p.nS ≤ s) by omega)]
    rw [if_neg (show ¬ Plic.isPending { p with gpend := g, ready := upd p.ready s false } s = true by
      show ¬ Spec.pending p s = true; rw [hp]; simp)]
    rw [if_neg (show ¬ p.prio s = 0#32 from hp0)]
    exact raise_fold _ s c _ mem hi ht
  unfold setInterrupt
  rw [if_neg (show ¬ p.nS ≤ s by omega)]
  simp only [Bool.not_true, Bool.false_and, Bool.false_eq_true, if_false, hrdy, Bool.or_self]
  cases lvl
  · simp only [Bool.false_eq_true, if_false, if_neg hp0]; exact key p.gpend
  · simp only [if_true, if_neg hp0]; exact key _

theorem raise_fold_only (p : Plic) (s d : Nat) (l : List Nat)
    (h : ((l.foldl (fun q c => q.trigger s c) p)).irq d = true) :
    p.irq d = true ∨ (d ∈ l ∧ p.hasIf d = true ∧ p.thresh d < p.prio s) := by
  induction l generalizing p with
  | nil => exact Or.inl h
  | cons e l ih =>
    rw [List.foldl_cons] at h
    have tr : p.trigger s e = p ∨
        (p.hasIf e = true ∧ p.thresh e < p.prio s ∧ p.trigger s e = p.raise e) := by
      unfold trigger
      split
      · exact Or.inl rfl
      next x =>
      split
      · exact Or.inl rfl
      next y => exact Or.inr ⟨by simpa using y, BitVec.not_le.1 x, rfl⟩
    rcases tr with tr | ⟨t1, t2, tr⟩
    · rw [tr] at h
      rcases ih p h with x | x
      · exact Or.inl x
      · exact Or.inr ⟨List.mem_cons_of_mem _ x.1, x.2⟩
    · rw [tr] at h
      rcases ih _ h with x | x
      · by_cases e1 : d = e
        · subst e1; exact Or.inr ⟨List.mem_cons_self, t1, t2⟩
        · left; simpa [raise, upd, e1] using x
      · exact Or.inr ⟨List.mem_cons_of_mem _ x.1, x.2⟩

/-- **C63 (no spurious raise).** A source change raises only lines of connected contexts that enable
the source with a threshold below its priority, and only if the source is pending afterwards; it
lowers none. -/
theorem C63_source_partial (nS nC : Nat) (ifs : Nat → Bool) (l : List Op) (p : Plic)
    (hg : GoodRun (init nS nC ifs) l) (hr : (init nS nC ifs).run l = some p)
    (s c : Nat) (v lvl : Bool) (h : (p.setInterrupt s v lvl).irq c = true) :
    p.irq c = true ∨ (c < p.nC ∧ p.hasIf c = true ∧ Spec.enabled p c s = true ∧
      p.thresh c < p.prio s ∧ Spec.pending (p.setInterrupt s v lvl) s = true) := by
  have inv := inv_run (init_inv nS nC ifs) l hg hr
  have key : ∀ g : Nat → Bool,
      (({ p with gpend := g, ready := upd p.ready s false } : Plic).setPlicPending s).irq c = true →
      p.irq c = true ∨ (c < p.nC ∧ p.hasIf c = true ∧ Spec.enabled p c s = true ∧
      p.thresh c < p.prio s ∧ Spec.pending
        (({ p with gpend := g, ready := upd p.ready s false } : Plic).setPlicPending s) s = true) := by
    intro g h
    have h' := h
    unfold setPlicPending at h
    split at h
    · exact Or.inl h
    next h0 =>
    split at h
    · exact Or.inl h
    split at h
    · exact Or.inl h
    next h1 =>
    have h1 : p.prio s ≠ 0#32 := h1
    have h0 : ¬ (s = 0 ∨ p.nS ≤ s) := h0
    rcases raise_fold_only _ s c _ h with x | ⟨x, y, z⟩
    · exact Or.inl x
    · have m := (inv.sync.s2c c s).1 x
      exact Or.inr ⟨m.1, y, m.2, z, ((setPlicPending_frame _ s).2 s).2
        (Or.inr ⟨rfl, fun e => h0 (Or.inl e), by show s < p.nS; omega, h1⟩)⟩
  revert h
  unfold setInterrupt
  split
  · exact fun h => Or.inl h
  split
  · exact fun h => Or.inl h
  split
  · split
    · exact fun h => Or.inl h
    · exact fun h => Or.inl h
  cases lvl
  · simp only [Bool.false_eq_true, if_false]
    split
    · exact fun h => Or.inl h
    · exact key p.gpend
  · simp only [if_true]
    split
    · exact fun h => Or.inl h
    · exact key _

/-- **C63 is violated by a claim**: two sources pending, the more urgent one enabled first; claiming it
lowers the line although the other is still pending above the threshold, and nothing raises the line
again when the first is completed. -/
theorem C63_lost_violated :
    ((init 8 1 (fun _ => true)).run [.cfgPrio 1 5, .cfgPrio 2 3, .cfgEnable 0 1 true, .cfgEnable 0 2 true,
        .set 1 true false, .set 2 true false, .claim 0, .write (Spec.claimAddr 0) 1]).map
      (fun p => (p.irq 0, Spec.pending p 2, Spec.enabled p 0 2, decide (p.thresh 0 < p.prio 2))) =
      some (false, true, true, true) := by decide

/-- **C63 is violated by an enable write**: enabling a source that is not pending raises the line. -/
theorem C63_spurious_violated :
    ((init 8 1 (fun _ => true)).run [.cfgPrio 1 5, .write 0x2000 2]).map
      (fun p => (p.irq 0, p.pend 0)) = some (true, 0#32) := by decide

theorem scan_skip (p : Plic) (hp : ∀ s, Spec.pending p s = true → 0 < s ∧ s < p.nS)
    (l : List Nat) (hl : ∀ s ∈ l, s / 32 ≤ p.nS / 32)
    (hn : ∀ s ∈ l, ¬ (Spec.pending p s = true ∧ p.prio s ≠ 0#32)) (a : Scan) (ha : ScanOk p a) :
    l.foldlM (scan1 p) a = some a := by
  induction l with
  | nil => rfl
  | cons s l ih =>
    have e : scan1 p a s = some a := by
      have h1 := hl s List.mem_cons_self
      have h2 := hn s List.mem_cons_self
      unfold scan1
      rw [if_neg (by omega)]
      split
      · rfl
      next h3 =>
      have h3 : Spec.pending p s = true := by simpa [Spec.pending, isPending] using h3
      have h4 : p.prio s = 0#32 := by
        by_cases x : p.prio s = 0#32
        · exact x
        · exact absurd ⟨h3, x⟩ h2
      have h5 := hp s h3
      rw [if_neg (by omega)]
      split
      · rfl
      next h6 =>
      rcases ha with ⟨a1, a2⟩ | ⟨_, _, a3, _⟩
      · rw [if_pos ⟨by rw [a2, h4], by omega⟩]
      · exfalso; apply h6
        rw [h4, BitVec.lt_def]
        rw [toNat_ne_zero] at a3
        simp; omega
    rw [List.foldlM_cons, e]
    exact ih (fun s hs => hl s (List.mem_cons_of_mem _ hs)) (fun s hs => hn s (List.mem_cons_of_mem _ hs))

theorem scan_single (p : Plic) (hp : ∀ s, Spec.pending p s = true → 0 < s ∧ s < p.nS)
    (l : List Nat) (hN : l.Nodup) (hl : ∀ s ∈ l, s / 32 ≤ p.nS / 32) (t : Nat) (ht : t ∈ l)
    (h1 : Spec.pending p t = true) (h2 : p.prio t ≠ 0#32)
    (hn : ∀ s ∈ l, Spec.pending p s = true → p.prio s ≠ 0#32 → s = t) :
    l.foldlM (scan1 p) ({} : Scan) = some ⟨t, p.prio t, 1⟩ := by
  induction l with
  | nil => cases ht
  | cons s l ih =>
    rw [List.foldlM_cons]
    by_cases e : s = t
    · subst e
      have h5 := hp s h1
      have hl0 := hl s List.mem_cons_self
      have e1 : scan1 p {} s = some ⟨s, p.prio s, 1⟩ := by
        unfold scan1
        rw [if_neg (by omega)]
        have : ¬ p.isPending s = false := by
          have : p.isPending s = true := h1
          rw [this]; simp
        rw [if_neg this, if_neg (by omega)]
        rw [if_neg (show ¬ p.prio s < 0#32 by rw [BitVec.lt_def]; simp)]
        rw [if_neg (fun x => h2 x.1.symm)]
        rfl
      rw [e1]
      refine scan_skip p hp l (fun s hs => hl s (List.mem_cons_of_mem _ hs)) ?_ _
        (Or.inr ⟨by show s ≠ 0; omega, rfl, h2, h1⟩)
      intro u hu ⟨x, y⟩
      have := hn u (List.mem_cons_of_mem _ hu) x y
      subst this
      exact (List.nodup_cons.1 hN).1 hu
    · have e1 : scan1 p {} s = some {} := by
        have := scan_skip p hp [s] (fun u hu => hl u (by
            rw [List.mem_singleton] at hu; rw [hu]; exact List.mem_cons_self)) (fun u hu x => by
            rw [List.mem_singleton] at hu; subst hu
            exact e (hn u List.mem_cons_self x.1 x.2)) {} (Or.inl ⟨rfl, rfl⟩)
        rw [List.foldlM_cons] at this
        cases h : scan1 p {} s with
        | none => rw [h] at this; cases this
        | some b => rw [h] at this; exact this
      rw [e1]
      exact ih (List.nodup_cons.1 hN).2 (fun s hs => hl s (List.mem_cons_of_mem _ hs))
        ((List.mem_cons.1 ht).resolve_left (Ne.symm e))
        (fun u hu => hn u (List.mem_cons_of_mem _ hu))

/-- **C63 (lowering).** In any good history, claiming when there is no candidate, or exactly one, leaves
the line low. Missing: with several candidates the line must stay high (`C63_lost_violated`). -/
theorem C63_lower_partial (nS nC : Nat) (ifs : Nat → Bool) (l : List Op) (p : Plic)
    (hg : GoodRun (init nS nC ifs) l) (hr : (init nS nC ifs).run l = some p)
    (c : Nat) (hc : c < p.nC) (hi : p.hasIf c = true)
    (hu : ∀ s t, Spec.candidate p c s → Spec.candidate p c t → s = t) :
    ∃ id q, p.claim c = some (id, q) ∧ q.irq c = false ∧
      (∀ d, d ≠ c → q.irq d = p.irq d) ∧ ∀ s, ¬ Spec.candidate q c s := by
  have inv := inv_run (init_inv nS nC ifs) l hg hr
  have hl : ∀ s ∈ p.c2s c, s / 32 ≤ p.nS / 32 := fun s hs =>
    inv.word c s hc ((inv.sync.c2s c s hc).1 hs)
  by_cases ex : ∃ t, Spec.candidate p c t
  · obtain ⟨t, ht⟩ := ex
    have h2 : p.prio t ≠ 0#32 := toNat_ne_zero.2 ht.2.2
    have e := scan_single p inv.pend (p.c2s c) (inv.sync.c2sN c) hl t
      ((inv.sync.c2s c t hc).2 ht.1) ht.2.1 h2
      (fun s hs x y => hu s t ⟨(inv.sync.c2s c s hc).1 hs, x, toNat_ne_zero.1 y⟩ ht)
    have h0 : t ≠ 0 := by have := inv.pend t ht.2.1; omega
    have ec : p.claim c = some (t, { ({ p.setPending t false with claimed := upd p.claimed c t } : Plic)
        with irq := upd p.irq c false }) := by
      unfold claim
      rw [if_neg (by omega), e]
      simp [h0, hi, setPending]
    refine ⟨t, _, ec, by simp [upd], fun d hd => by simp [upd, hd], fun s hs => ?_⟩
    have hs2 := hs.2.1
    have hp : Spec.pending ({ ({ p.setPending t false with claimed := upd p.claimed c t } : Plic)
        with irq := upd p.irq c false }) s = if s = t then false else Spec.pending p s :=
      pending_setPending p t s false
    rw [hp] at hs2
    split at hs2
    · cases hs2
    · next hne => exact hne (hu s t ⟨hs.1, hs2, hs.2.2⟩ ht)
  · have e := scan_skip p inv.pend (p.c2s c) hl (fun s hs x =>
      ex ⟨s, (inv.sync.c2s c s hc).1 hs, x.1, toNat_ne_zero.1 x.2⟩) {} (Or.inl ⟨rfl, rfl⟩)
    have ec : p.claim c = some (0, { p with irq := upd p.irq c false }) := by
      unfold claim
      rw [if_neg (by omega), e]
      simp [hi]
    exact ⟨0, _, ec, by simp [upd], fun d hd => by simp [upd, hd], fun s hs => ex ⟨s, hs⟩⟩

example :
    ((init 8 1 (fun _ => true)).run [.cfgPrio 2 7, .cfgEnable 0 2 true, .set 2 true true]).bind
      (fun p => (p.claim 0).map fun r => (p.irq 0, r.1, r.2.irq 0)) = some (true, 2, false) := by decide

end Verif.Plic
