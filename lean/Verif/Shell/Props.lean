import Verif.Shell.Rows
/-
C109: what the command shell understands by a line.
-/
namespace Verif.Shell
open Spec (tokens tokensFrom IsWord IsName IsNumber IsFormat IsKeyword IsAccess IsElement Documented Deviates)

theorem cradix_value {n : Text} (h0 : n.head? ≠ some '0') (hv : Spec.value n < 2 ^ 31) :
    cradix n = some (Spec.value n) := by
  unfold cradix
  split
  · exact absurd rfl h0
  · exact if_pos hv

theorem plain_of {s : Text} {cmd : Cmd} (h : ¬ Deviates s (tokens s) cmd) : Plain s := by
  rintro ⟨ht, ts, t, he, hr⟩
  rw [he] at h
  exact h (.watchTab ts t cmd ht hr)

/-- The access as the code finds it. -/
theorem access2_spec {r : List Text} {acc : Access} (h : IsAccess r acc) :
    (r = [] ∧ acc = .store) ∨ ∃ t, r = [t] ∧ isRw t = true ∧ access2 t = acc := by
  match r with
  | [] => exact .inl ⟨rfl, h⟩
  | [t] =>
    rcases h with ⟨rfl, rfl⟩ | ⟨rfl, rfl⟩ | ⟨rfl, rfl⟩
    · exact .inr ⟨_, rfl, by decide, by decide⟩
    · exact .inr ⟨_, rfl, by decide, by decide⟩
    · exact .inr ⟨_, rfl, by decide, by decide⟩
  | _ :: _ :: _ => exact absurd h id

theorem kw1 : isMarked '#' ['c', 'l', 'e', 'a', 'r', '-', 'a', 'l', 'l'] = false := by decide
theorem kw2 : isDname ['c', 'l', 'e', 'a', 'r', '-', 'a', 'l', 'l'] = false := by decide
theorem kw3 : allOf wrd ['c', 'l', 'e', 'a', 'r', '-', 'a', 'l', 'l'] = false := by decide
theorem kw4 : isMarked '#' ['c', 'l', 'e', 'a', 'r'] = false := by decide
theorem kw5 : isDname ['c', 'l', 'e', 'a', 'r'] = true := by decide
theorem kw6 : allOf wrd ['c', 'l', 'e', 'a', 'r'] = true := by decide
theorem kw7 : isMarked '#' ['s', 'e', 't'] = false := by decide
theorem kw8 : isDname ['s', 'e', 't'] = true := by decide
theorem kw9 : allOf wrd ['s', 'e', 't'] = true := by decide
theorem access_none : access1 [] = .store ∧ access2 [] = .store := by decide

macro "row" h:term "," "[" ls:Lean.Parser.Tactic.simpLemma,* "]" : tactic =>
  `(tactic| simp [$h:term, byWords, tm, tmTail, firstOf, full_k, full_num, full_word, full_dname,
      full_dotted, full_run, hash, full_hash, full_asterisk, hash_word, hash_dname, hash_dotted, cap,
      dottedCaps, kw1, kw2, kw3, kw4, kw5, kw6, kw7, kw8, kw9, access_none, $ls,*])

theorem row_simple (s : Text) (t : Text) (ts : List Text) (hp : Plain s) (h : tokens s = t :: ts)
    (h1 : t ≠ "vreg".toList) (h2 : t ≠ "mem".toList) (h3 : t ≠ "exec".toList) :
    read s = firstOf (byWords (t :: ts) none none none none) := by
  rw [read_eq s hp, h, vgRule_none h h1, vsRule_none h h1, msRule_none h h2, exRule_none h h3]

theorem row_mem (s : Text) (u : Text) (ts : List Text) (hp : Plain s) (h : tokens s = "mem".toList :: u :: ts)
    (hu : u ≠ "set".toList) :
    read s = firstOf (byWords ("mem".toList :: u :: ts) none none none none) := by
  rw [read_eq s hp, h, vgRule_none h (by decide), vsRule_none h (by decide), msRule_none2 h hu,
    exRule_none h (by decide)]

theorem elem_spec {t n i : Text} (h : IsElement t n i) : ∃ o : Option Text, t = elem n o ∧ i = o.getD [] ∧
    (∀ x, o = some x → allOf dig x = true) ∧ isDname n = true := by
  rcases h with ⟨hn, ⟨rfl, rfl⟩ | ⟨rfl, hi⟩⟩
  · exact ⟨none, rfl, rfl, (fun x h => by cases h), word_dname hn⟩
  · exact ⟨some i, rfl, rfl, (fun x h => by cases h; exact number_dig hi), word_dname hn⟩

theorem row_vregGet (s n : Text) (o f : Option Text) (hp : Plain s) (hn : isDname n = true)
    (hi : ∀ x, o = some x → allOf dig x = true) (hf : ∀ x, f = some x → isFw x = true)
    (h : tokens s = "vreg".toList :: "get".toList :: elem n o :: fwToks f) :
    read s = .vregGet n (o.getD []) ((f.map (·.take 1)).getD "x".toList)
      ((f.map (·.drop 1)).getD "32".toList) := by
  rw [read_eq s hp, h, wordRules _ _ (by decide)]
  have := full_vregGet s n o f hn hi hf h
  rw [vgRule, this, Option.bind_some, firstOf]
  cases f with
  | none => rfl
  | some f =>
    have := hf f rfl
    cases f with
    | nil => cases this
    | cons x u =>
      cases u with
      | nil =>
        simp only [isFw, Bool.and_eq_true] at this
        exact absurd this.2 (by decide)
      | cons y u => rfl

theorem row_vregSet (s n i f v : Text) (hp : Plain s) (hn : isDname n = true) (hi : allOf dig i = true)
    (hf : isFw f = true) (hv : allOf wrd v = true)
    (h : tokens s = ["vreg".toList, "set".toList, n ++ ':' :: i, f, v]) :
    read s = .vregSet n i (f.take 1) (f.drop 1) v := by
  rw [read_eq s hp, h, wordRules _ _ (by decide), vgRule, full_vregGet_set s n i f v hn h, vsRule,
    full_vregSet s n i f v hn hi hf hv h]
  rfl

theorem row_memSet (s a f v : Text) (hp : Plain s) (ha : allOf wrd a = true) (hf : isFmt "oduxX" f = true)
    (hv : allOf wrd v = true) (h : tokens s = ["mem".toList, "set".toList, a, f, v]) :
    read s = .memSet a f v := by
  rw [read_eq s hp, h, vgRule_none h (by decide), vsRule_none h (by decide), exRule_none h (by decide),
    msRule, full_memSet s a f v h ha hf hv]
  row h, []

theorem row_exec (s f : Text) (hp : Plain s) (h : tokens s = ["exec".toList, f])
    (hl : ∀ x, s.getLast? = some x → sp x = false) : read s = .exec f := by
  rw [read_eq s hp, h, wordRules _ _ (by decide), vgRule_none h (by decide), vsRule_none h (by decide),
    msRule_none h (by decide), exRule, full_exec s f h hl]
  rfl

/-- C109: every line of the help text is understood as it says, however many blanks it has, except
for the rows listed in `Deviates`. -/
theorem C109_commands_partial (s : Text) (cmd : Cmd) (hd : Documented (tokens s) cmd)
    (hn : ¬ Deviates s (tokens s) cmd) : read s = cmd := by
  have hp := plain_of hn
  generalize h : tokens s = ts at hd hn
  cases hd with
  | core0 => exact absurd .core0 hn
  | core n hnum =>
    rw [row_simple s _ _ hp h (by decide) (by decide) (by decide)]
    have hc : cradix n = some (Spec.value n) := cradix_value (fun h => hn (.core n (.inl h)))
      (Nat.lt_of_not_le fun h => hn (.core n (.inr h)))
    row h, [number_dig hnum, hc]
  | step n hnum =>
    rw [row_simple s _ _ hp h (by decide) (by decide) (by decide)]
    have hc : cradix n = some (Spec.value n) := cradix_value (fun h => hn (.step n (.inl h)))
      (Nat.lt_of_not_le fun h => hn (.step n (.inr h)))
    row h, [number_dig hnum, hc]
  | quit | run | runFree | wait | step1 | halt | breakList | breakClearAll | watchList | watchClearAll
  | actionList | actionClearAll | branchTrace | help =>
    rw [row_simple s _ _ hp h (by decide) (by decide) (by decide)]
    row h, []
  | regGet n h1 =>
    rw [row_simple s _ _ hp h (by decide) (by decide) (by decide)]
    row h, [name_dotted h1]
  | regGetF n f h1 h2 =>
    rw [row_simple s _ _ hp h (by decide) (by decide) (by decide)]
    row h, [name_dotted h1, (format_fmt h2).1]
  | reg n h1 h2 =>
    rw [row_simple s _ _ hp h (by decide) (by decide) (by decide)]
    obtain ⟨k1, k2, k3⟩ := kw_ne h2
    simp at k1 k2 k3
    row h, [name_dotted h1, k1, k2, k3]
  | regF n f h1 h2 h3 =>
    rw [row_simple s _ _ hp h (by decide) (by decide) (by decide)]
    obtain ⟨k1, k2, k3⟩ := kw_ne h2
    simp at k1 k2 k3
    row h, [name_dotted h1, k1, k2, k3, (format_fmt h3).1]
  | regSet n v h1 h2 =>
    rw [row_simple s _ _ hp h (by decide) (by decide) (by decide)]
    row h, [name_dname h1, word_wrd h2]
  | vregGet t n i h1 =>
    obtain ⟨o, rfl, rfl, ho, hd⟩ := elem_spec h1
    exact row_vregGet s n o none hp hd ho (fun x h => by cases h) h
  | vregGetF t n i l w h1 h2 =>
    obtain ⟨o, rfl, rfl, ho, hd⟩ := elem_spec h1
    exact row_vregGet s n o (some (l :: w)) hp hd ho (fun x h => by cases h; exact (format_fmt h2).2.2) h
  | vregSet t n i l w v h1 h2 h3 =>
    rcases h1 with ⟨h1, ⟨rfl, rfl⟩ | ⟨rfl, hi⟩⟩
    · exact absurd (.vregSet _ _ l w v) hn
    · exact row_vregSet s n i (l :: w) v hp (word_dname h1) (number_dig hi) (format_fmt h2).2.2 (word_wrd h3) h
  | vregSetD t n i v h1 h2 => exact absurd (.vregSetD t n i v) hn
  | memGet a h1 =>
    rw [row_mem s _ _ hp h (by decide)]
    row h, [word_wrd h1]
  | memGetF a f h1 h2 =>
    rw [row_mem s _ _ hp h (by decide)]
    row h, [word_wrd h1, isMemFmt, (format_fmt h2).1]
  | mem a h1 h2 =>
    obtain ⟨k1, k2, k3⟩ := kw_ne h2
    rw [row_mem s _ _ hp h k2]
    simp at k1 k2 k3
    row h, [word_wrd h1, k1, k2, k3]
  | memF a f h1 h2 h3 =>
    obtain ⟨k1, k2, k3⟩ := kw_ne h2
    rw [row_mem s _ _ hp h k2]
    simp at k1 k2 k3
    row h, [word_wrd h1, isMemFmt, (format_fmt h3).1, k1, k2, k3]
  | memSet a v => exact absurd (.memSet a v) hn
  | memSetF a f v h1 h2 h3 =>
    exact row_memSet s a f v hp (word_wrd h1) (format_fmt h2).2.1 (word_wrd h3) h
  | breakSet a => exact absurd (.breakSet a) hn
  | «break» a h1 h2 =>
    obtain ⟨k1, k2, k3⟩ := kw_ne h2
    have k4 := word_ne h1 "clear-all".toList (by decide)
    rw [row_simple s _ _ hp h (by decide) (by decide) (by decide)]
    simp at k1 k2 k3 k4
    row h, [word_dname h1, k1, k2, k3, k4, word_marked h1 '#' (by decide)]
  | breakSetN n h1 =>
    rw [row_simple s _ _ hp h (by decide) (by decide) (by decide)]
    row h, [hash_marked h1]
  | breakN n h1 =>
    rw [row_simple s _ _ hp h (by decide) (by decide) (by decide)]
    row h, [hash_marked h1]
  | breakClear a h1 =>
    rw [row_simple s _ _ hp h (by decide) (by decide) (by decide)]
    row h, [word_dname h1, word_marked h1 '#' (by decide)]
  | breakClearN n h1 =>
    rw [row_simple s _ _ hp h (by decide) (by decide) (by decide)]
    row h, [hash_marked h1]
  | watchSet a n r acc h1 h2 h3 =>
    rw [row_simple s _ _ hp h (by decide) (by decide) (by decide)]
    rcases access2_spec h3 with ⟨rfl, rfl⟩ | ⟨t, rfl, ht, h4⟩
    · row h, [word_wrd h1, word_wrd h2]
    · have h5 : access1 t = acc := by
        simp only [isRw, Bool.or_eq_true, decide_eq_true_eq] at ht
        rcases ht with (rfl | rfl) | rfl
        · rw [← h4]; decide
        · rw [← h4]; decide
        · have : acc = .loadStore := by rw [← h4]; decide
          subst this
          exact absurd (.watchSetRw a n) hn
      row h, [word_wrd h1, word_wrd h2, ht, h5]
  | watch a n r acc h1 hk h2 h3 =>
    obtain ⟨k1, k2, k3⟩ := kw_ne hk
    have k4 := word_ne h1 "clear-all".toList (by decide)
    rw [row_simple s _ _ hp h (by decide) (by decide) (by decide)]
    simp at k1 k2 k3 k4
    rcases access2_spec h3 with ⟨rfl, rfl⟩ | ⟨t, rfl, ht, h4⟩
    · row h, [word_wrd h1, word_wrd h2, k1, k2, k3, k4, word_marked h1 '#' (by decide)]
    · row h, [word_wrd h1, word_wrd h2, ht, h4, k1, k2, k3, k4, word_marked h1 '#' (by decide)]
  | watchSetN n h1 =>
    rw [row_simple s _ _ hp h (by decide) (by decide) (by decide)]
    row h, [hash_marked h1]
  | watchClear a r acc h1 h3 =>
    rw [row_simple s _ _ hp h (by decide) (by decide) (by decide)]
    rcases access2_spec h3 with ⟨rfl, rfl⟩ | ⟨t, rfl, ht, h4⟩
    · row h, [word_wrd h1, word_marked h1 '#' (by decide)]
    · row h, [word_wrd h1, ht, h4, word_marked h1 '#' (by decide)]
  | watchClearN n h1 =>
    rw [row_simple s _ _ hp h (by decide) (by decide) (by decide)]
    row h, [hash_marked h1]
  | actionEnable n => exact absurd (.actionEnable n) hn
  | actionDisable n => exact absurd (.actionDisable n) hn
  | actionClear n => exact absurd (.actionClear n) hn
  | exec f h1 =>
    refine row_exec s f hp h (fun x hx => ?_)
    rw [← sp_eq]
    cases e : Spec.blank x with
    | false => rfl
    | true => exact absurd (.exec f x hx e) hn

example : Documented (tokens "  mem  set 0x1000 x16\t 12".toList) (.memSet "0x1000".toList "x16".toList "12".toList)
    ∧ read "  mem  set 0x1000 x16\t 12".toList = .memSet "0x1000".toList "x16".toList "12".toList := by
  refine ⟨.memSetF _ _ _ (by unfold IsWord; decide) ⟨'x', "16".toList, by decide, by decide, rfl⟩
    (by unfold IsWord; decide), by decide +kernel⟩

example : Documented (tokens "watch buf 8 rw".toList) (.watchSet "buf".toList "8".toList .loadStore)
    ∧ read "watch buf 8 rw".toList = .watchSet "buf".toList "8".toList .loadStore :=
  ⟨.watch _ _ _ _ (by unfold IsWord; decide) (by unfold IsKeyword; decide) (by unfold IsWord; decide)
    (.inr (.inr ⟨rfl, rfl⟩)), by decide +kernel⟩

/-! ## The rows that are not followed -/

theorem tokens_plain {s t : Text} {ts : List Text} (h : tokens s = t :: ts) (ht : t ≠ "watch".toList) : Plain s := by
  rintro ⟨_, us, u, hu, _⟩
  rw [h] at hu
  exact ht (List.cons.inj hu).1

/-- `core` alone is not understood. -/
theorem C109_core_violated (s : Text) (h : tokens s = ["core".toList]) :
    Documented (tokens s) (.core 0) ∧ read s = .unrecognized := by
  refine ⟨by rw [h]; exact .core0, ?_⟩
  rw [row_simple s _ _ (tokens_plain h (by decide)) h (by decide) (by decide) (by decide)]
  row h, []

/-- `step 010` steps eight instructions and `step 08` is not understood. -/
theorem C109_number_violated :
    (Documented (tokens "step 010".toList) (.step 10) ∧ read "step 010".toList = .step 8)
    ∧ (Documented (tokens "step 08".toList) (.step 8) ∧ read "step 08".toList = .unrecognized)
    ∧ (Documented (tokens "step 2147483648".toList) (.step 2147483648)
        ∧ read "step 2147483648".toList = .unrecognized) :=
  ⟨⟨.step _ (by unfold IsNumber; decide), by decide +kernel⟩,
   ⟨.step _ (by unfold IsNumber; decide), by decide +kernel⟩,
   ⟨.step _ (by unfold IsNumber; decide), by decide +kernel⟩⟩

/-- `break set` sets the breakpoint without listing it: it gets no number. -/
theorem C109_break_set_violated (s a : Text) (ha : IsWord a) (h : tokens s = ["break".toList, "set".toList, a]) :
    Documented (tokens s) (.breakSet a true) ∧ read s = .breakSet a false := by
  refine ⟨by rw [h]; exact .breakSet a ha, ?_⟩
  rw [row_simple s _ _ (tokens_plain h (by decide)) h (by decide) (by decide) (by decide)]
  row h, [word_dname ha]

/-- `watch set ... rw` watches only writes. -/
theorem C109_watch_set_rw_violated (s a n : Text) (ha : IsWord a) (hn : IsWord n) (ht : ¬ Spec.HasTab s)
    (h : tokens s = ["watch".toList, "set".toList, a, n, "rw".toList]) :
    Documented (tokens s) (.watchSet a n .loadStore) ∧ read s = .watchSet a n .store := by
  refine ⟨?_, ?_⟩
  · rw [h]
    exact .watchSet a n ["rw".toList] .loadStore ha hn (.inr (.inr ⟨rfl, rfl⟩))
  · rw [row_simple s _ _ (fun h => ht h.1) h (by decide) (by decide) (by decide)]
    have h1 : isRw ['r', 'w'] = true := by decide
    have h2 : access1 ['r', 'w'] = .store := by decide
    row h, [word_wrd ha, word_wrd hn, h1, h2]

/-- After a tab an access is taken for a write. -/
theorem C109_watch_tab_violated :
    Documented (tokens "watch 100 4\tr".toList) (.watchSet "100".toList "4".toList .load)
    ∧ read "watch 100 4\tr".toList = .watchSet "100".toList "4".toList .store :=
  ⟨.watch _ _ _ _ (by unfold IsWord; decide) (by unfold IsKeyword; decide) (by unfold IsWord; decide)
    (.inl ⟨rfl, rfl⟩), by decide +kernel⟩

theorem star_marked (n : Text) : isMarked '*' ('#' :: n) = false := by
  simp [isMarked]

/-- Action points cannot be named as the help says. -/
theorem C109_action_violated (s n : Text) (hn : IsNumber n) :
    (tokens s = ["action".toList, "enable".toList, '#' :: n] →
      Documented (tokens s) (.actionEnable n) ∧ read s = .unrecognized)
    ∧ (tokens s = ["action".toList, "disable".toList, '#' :: n] →
      Documented (tokens s) (.actionDisable n) ∧ read s = .unrecognized)
    ∧ (tokens s = ["action".toList, "clear".toList, '#' :: n] →
      Documented (tokens s) (.actionClear n) ∧ read s = .unrecognized) := by
  refine ⟨fun h => ⟨by rw [h]; exact .actionEnable n hn, ?_⟩,
    fun h => ⟨by rw [h]; exact .actionDisable n hn, ?_⟩, fun h => ⟨by rw [h]; exact .actionClear n hn, ?_⟩⟩
  all_goals
    rw [row_simple s _ _ (tokens_plain h (by decide)) h (by decide) (by decide) (by decide)]
    row h, [star_marked n]

/-- They take `*N` instead, which the help does not mention. -/
theorem C109_action_star_partial (s n : Text) (hn : IsNumber n) :
    (tokens s = ["action".toList, "enable".toList, '*' :: n] → read s = .actionEnable n)
    ∧ (tokens s = ["action".toList, "disable".toList, '*' :: n] → read s = .actionDisable n)
    ∧ (tokens s = ["action".toList, "clear".toList, '*' :: n] → read s = .actionClear n) := by
  have hm : isMarked '*' ('*' :: n) = true := by simp only [isMarked, number_dig hn]; decide
  refine ⟨fun h => ?_, fun h => ?_, fun h => ?_⟩
  all_goals
    rw [row_simple s _ _ (tokens_plain h (by decide)) h (by decide) (by decide) (by decide)]
    row h, [hm]

/-- Without a format, `mem set` is understood only if there are two blanks before the value. -/
theorem C109_mem_set_violated (s a v : Text) (ha : IsWord a) (hv : IsWord v) (hf : ¬ IsFormat v)
    (h : tokens s = ["mem".toList, "set".toList, a, v])
    (hs : ∀ p x y q, s = p ++ x :: y :: q → Spec.blank x = true → Spec.blank y = false) :
    Documented (tokens s) (.memSet a [] v) ∧ read s = .unrecognized := by
  refine ⟨by rw [h]; exact .memSet a v ha hv hf, ?_⟩
  have hm : msRule s = none := by
    unfold msRule
    rw [full_none]; · rfl
    intro c hc
    obtain ⟨a', _, ⟨f, v', h1, _⟩ | ⟨v', h1, _, _, p, g, r, hs', hg, _, hlen⟩⟩ := lang_memSet s c hc
    · rw [h] at h1; cases h1
    · match g, hlen with
      | x :: y :: g, _ =>
        simp only [Blank, List.all_cons, Bool.and_eq_true] at hg
        have := hs p x y (g ++ v' ++ r) (by rw [hs']; simp) (by rw [sp_eq]; exact hg.1)
        rw [sp_eq, hg.2.1] at this
        cases this
  rw [read_eq s (tokens_plain h (by decide)), h, vgRule_none h (by decide), vsRule_none h (by decide), hm,
    exRule_none h (by decide)]
  row h, []

example : read "mem set 100 5".toList = .unrecognized ∧ read "mem set 100  5".toList =
    .memSet "100".toList [] "5".toList := by decide +kernel

/-- `vreg set` without an index is not understood. -/
theorem C109_vreg_set_violated (s n l w v : Text) (hn : IsWord n) (hf : IsFormat (l ++ w)) (hl : l.length = 1)
    (hv : IsWord v) (h : tokens s = ["vreg".toList, "set".toList, n, l ++ w, v]) :
    Documented (tokens s) (.vregSet n [] l w v) ∧ read s = .unrecognized := by
  match l, hl with
  | [l], _ =>
  refine ⟨by rw [h]; exact .vregSet n n [] l w v ⟨hn, .inl ⟨rfl, rfl⟩⟩ hf hv, ?_⟩
  have hcol : ':' ∉ s := by
    refine no_colon ?_
    rw [h]
    intro t ht
    simp only [List.mem_cons, List.not_mem_nil, or_false] at ht
    rcases ht with rfl | rfl | rfl | rfl | rfl
    · decide
    · decide
    · exact colon_dname (word_dname hn)
    · exact colon_fw (format_fmt hf).2.2
    · exact colon_dname (word_dname hv)
  have hs : vsRule s = none := by
    unfold vsRule
    rw [full_none]; · rfl
    intro c hc
    obtain ⟨A, B, n', cb, rfl, _⟩ := lang_wrVreg s c hc
    exact hcol (by simp)
  have hg : vgRule s = none := by
    unfold vgRule
    rw [full_none]; · rfl
    intro c hc
    obtain ⟨w0, r, rfl, hw0, he, hform⟩ := lang_rdVreg s c hc
    rw [tokens_cons w0 _ r hw0 ⟨by decide, by decide⟩ he] at h
    have hr := (List.cons.inj h).2
    rcases hform with hform | ⟨g, r', rfl, hg, hg0, he', _⟩
    · cases hform with
      | plain n' ts cz h1 h2 h3 h4 =>
        rw [hr] at h1
        cases h1
        rcases h3 with ⟨h3, _⟩ | ⟨f', h3, _⟩ <;> cases h3
      | index A B n' i' ts cz h1 h2 h3 => exact hcol (by rw [h1]; simp)
    · rw [tokens_cons g _ r' hg ⟨by decide, by decide⟩ he'] at hr
      exact absurd (List.cons.inj hr).1 (by decide)
  rw [read_eq s (tokens_plain h (by decide)), h, wordRules _ _ (by decide), hs, hg,
    msRule_none h (by decide), exRule_none h (by decide)]
  rfl

/-- A blank after the name of the file becomes part of the name. -/
theorem C109_exec_violated :
    Documented (tokens "exec f ".toList) (.exec "f".toList) ∧ read "exec f ".toList = .exec "f ".toList :=
  ⟨.exec _ (by decide), by decide +kernel⟩

end Verif.Shell
