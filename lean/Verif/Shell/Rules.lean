import Verif.Shell.Match
/-
Proof infrastructure for the command shell: each regular expression in terms of the words of the
line.
-/
namespace Verif.Shell
open Spec (tokens tokensFrom)

/-! ## Optional last words -/

theorem edge_gap {g r : Text} (hg : Blank g) (h0 : g ≠ []) : Edge (g ++ r) := by
  cases g with
  | nil => exact absurd rfl h0
  | cons x g =>
    simp only [Blank, List.all_cons, Bool.and_eq_true] at hg
    exact .inr ⟨x, g ++ r, rfl, hg.1⟩

theorem tokens_one (g t r : Text) (hg : Blank g) (ht : Solid t) (hr : Blank r) :
    tokens (g ++ t ++ r) = [t] := by
  rw [tokens_cons g t r hg ht (edge_of_blank hr), tokens_blank r hr]

/-- From one word after an edge to the blanks around it. -/
theorem one_word {s t : Text} (he : Edge s) (h : tokens s = [t]) :
    ∃ g r, s = g ++ t ++ r ∧ Blank g ∧ g ≠ [] ∧ Solid t ∧ Blank r := by
  obtain ⟨g, r, rfl, hg, ht, _, hr⟩ := tokens_cons_inv h
  refine ⟨g, r, rfl, hg, ?_, ht, (tokens_nil r).mp hr⟩
  rintro rfl
  rcases he with h0 | ⟨x, q, h0, hx⟩
  · simp only [List.nil_append, List.append_eq_nil_iff] at h0
    exact ht.1 h0.1
  · cases t with
    | nil => exact ht.1 rfl
    | cons y t =>
      simp only [List.nil_append, List.cons_append, List.cons.injEq] at h0
      have := ht.2
      simp only [List.all_cons, Bool.and_eq_true, Bool.not_eq_true'] at this
      rw [← h0.1, this.1] at hx; cases hx

/-- `(\s+y)?\s*`. -/
theorem tail_grp {y : Re} {q : Text → Bool} (hy : Is y q (fun _ => [])) (hn : y.nones = [])
    (hs : ∀ t, q t = true → Solid t) : TailOk false (.seq (.opt (.grp (.seq gap y))) ws) q where
  fwd := by
    rintro rest c ⟨w1, w2, c1, c2, rfl, rfl, h1, hw2, rfl⟩
    have hw2 : Blank w2 := hw2
    rcases h1 with ⟨c3, rfl, g, t, c4, c5, rfl, rfl, ⟨hg0, hg, rfl⟩, h2⟩ | ⟨rfl, rfl⟩
    · obtain ⟨hq, rfl⟩ := (hy t c5).mp h2
      refine ⟨by rw [List.append_assoc]; exact edge_gap hg hg0, .inr ⟨t, g, ?_, hq, hg, ?_, (fun h => by cases h), rfl⟩⟩
      · exact tokens_one g t w2 hg (hs t hq) hw2
      · intro x hx
        exact List.mem_append_left _ (List.mem_append_left _ hx)
    · refine ⟨by rw [List.nil_append]; exact edge_of_blank hw2, .inl ⟨?_, ?_⟩⟩
      · rw [List.nil_append]; exact tokens_blank w2 hw2
      · simp only [Re.nones, gap, hn, List.append_nil]
  none := by
    intro rest h
    exact ⟨[], rest, [none], [], rfl, rfl, .inr ⟨rfl, by simp only [Re.nones, gap, hn, List.append_nil]⟩,
      h, rfl⟩
  word := by
    intro rest t he h hq
    obtain ⟨g, r, rfl, hg, hg0, ht, hr⟩ := one_word he h
    exact ⟨[some (g ++ t)], g ++ t, r, [some (g ++ t)], [], rfl, rfl,
      .inl ⟨[], rfl, g, t, [], [], rfl, rfl, ⟨hg0, hg, rfl⟩, (hy t []).mpr ⟨hq, rfl⟩⟩, hr, rfl⟩

/-- A letter out of `s` and digits. -/
def isFmt (s : String) (t : Text) : Bool :=
  match t with
  | [] => false
  | x :: u => oneOf s x && allOf dig u

theorem is_fmt (s : String) : Is (.seq (.one (oneOf s)) (.plus dig)) (isFmt s) (fun _ => []) := by
  intro t c
  simp only [Lang]
  constructor
  · rintro ⟨w1, w2, c1, c2, rfl, rfl, ⟨⟨x, rfl, hx⟩, rfl⟩, h2⟩
    obtain ⟨h3, rfl⟩ := (is_plus dig w2 c2).mp h2
    exact ⟨by simp only [isFmt, List.cons_append, List.nil_append, hx, h3]; rfl, rfl⟩
  · rintro ⟨h1, rfl⟩
    cases t with
    | nil => cases h1
    | cons x u =>
      simp only [isFmt, Bool.and_eq_true] at h1
      exact ⟨[x], u, [], [], rfl, rfl, ⟨⟨x, rfl, h1.1⟩, rfl⟩, (is_plus dig u _).mpr ⟨h1.2, rfl⟩⟩

theorem fmt_solid (s : String) (hs : s.toList.all (fun c => !sp c) = true) (t : Text)
    (h : isFmt s t = true) : Solid t := by
  cases t with
  | nil => cases h
  | cons x u =>
    simp only [isFmt, Bool.and_eq_true, oneOf, List.contains_iff_mem] at h
    refine solid_cons ?_ (allOf_solid (fun c hc => wrd_sp c (dig_wrd c hc)) h.2)
    have := List.all_eq_true.mp hs x h.1
    simpa using this

theorem tail_fmt : TailOk false fmtTail (isFmt "foduxX") :=
  tail_grp (is_fmt "foduxX") rfl (fmt_solid "foduxX" (by decide))

/-- r, w or rw. -/
def isRw (t : Text) : Bool := t = "r".toList || t = "w".toList || t = "rw".toList

def rwWord : Re := .alt (k "r") (.alt (k "w") (k "rw"))

theorem is_rw : Is rwWord isRw (fun _ => []) := by
  intro t c
  simp only [rwWord, Lang, k, Re.nones, isRw, Bool.or_eq_true, decide_eq_true_eq]
  constructor
  · rintro (⟨c1, rfl, rfl, rfl⟩ | ⟨c1, rfl, ⟨c2, rfl, rfl, rfl⟩ | ⟨c2, rfl, rfl, rfl⟩⟩)
    · exact ⟨.inl (.inl rfl), rfl⟩
    · exact ⟨.inl (.inr rfl), rfl⟩
    · exact ⟨.inr rfl, rfl⟩
  · rintro ⟨(rfl | rfl) | rfl, rfl⟩
    · exact .inl ⟨[], rfl, rfl, rfl⟩
    · exact .inr ⟨[], rfl, .inl ⟨[], rfl, rfl, rfl⟩⟩
    · exact .inr ⟨[], rfl, .inr ⟨[], rfl, rfl, rfl⟩⟩

theorem lang_rwTail (s : Text) (c : Caps) :
    Lang rwTail s c ↔ Lang (.seq (.opt (.grp (.seq gap rwWord))) ws) s c := by
  have key : ∀ w c, Lang (.alt (.seq gap (k "r")) (.alt (.seq gap (k "w")) (.seq gap (k "rw")))) w c
      ↔ Lang (.seq gap rwWord) w c := by
    intro w c
    simp only [rwWord, Lang, k, gap, Re.nones]
    constructor
    · rintro (⟨c1, rfl, g, t, c2, c3, rfl, rfl, h1, rfl, rfl⟩ |
        ⟨c1, rfl, ⟨c1, rfl, g, t, c2, c3, rfl, rfl, h1, rfl, rfl⟩ |
          ⟨c1, rfl, g, t, c2, c3, rfl, rfl, h1, rfl, rfl⟩⟩)
      · exact ⟨g, _, c2, [], rfl, by simp, h1, .inl ⟨[], rfl, rfl, rfl⟩⟩
      · exact ⟨g, _, c2, [], rfl, by simp, h1, .inr ⟨[], rfl, .inl ⟨[], rfl, rfl, rfl⟩⟩⟩
      · exact ⟨g, _, c2, [], rfl, by simp, h1, .inr ⟨[], rfl, .inr ⟨[], rfl, rfl, rfl⟩⟩⟩
    · rintro ⟨g, t, c2, c3, rfl, rfl, h1, (⟨c4, rfl, rfl, rfl⟩ | ⟨c4, rfl, ⟨c5, rfl, rfl, rfl⟩ | ⟨c5, rfl, rfl, rfl⟩⟩)⟩
      · exact .inl ⟨c2, by simp, g, _, c2, [], rfl, by simp, h1, rfl, rfl⟩
      · exact .inr ⟨c2, by simp, .inl ⟨c2, by simp, g, _, c2, [], rfl, by simp, h1, rfl, rfl⟩⟩
      · exact .inr ⟨c2, by simp, .inr ⟨c2, by simp, g, _, c2, [], rfl, by simp, h1, rfl, rfl⟩⟩
  rw [rwTail]
  constructor
  · rintro ⟨w1, w2, c1, c2, rfl, rfl, h1, h2⟩
    refine ⟨w1, w2, c1, c2, rfl, rfl, ?_, h2⟩
    rcases h1 with ⟨c3, rfl, h3⟩ | ⟨rfl, rfl⟩
    · exact .inl ⟨c3, rfl, (key _ _).mp h3⟩
    · exact .inr ⟨rfl, rfl⟩
  · rintro ⟨w1, w2, c1, c2, rfl, rfl, h1, h2⟩
    refine ⟨w1, w2, c1, c2, rfl, rfl, ?_, h2⟩
    rcases h1 with ⟨c3, rfl, h3⟩ | ⟨rfl, rfl⟩
    · exact .inl ⟨c3, rfl, (key _ _).mpr h3⟩
    · exact .inr ⟨rfl, rfl⟩

theorem rw_solid (t : Text) (h : isRw t = true) : Solid t := by
  simp only [isRw, Bool.or_eq_true, decide_eq_true_eq] at h
  rcases h with (rfl | rfl) | rfl <;> exact ⟨by decide, by decide⟩

theorem tail_rw : TailOk false rwTail isRw := by
  have h := tail_grp is_rw rfl rw_solid
  exact ⟨fun rest c hc => h.fwd rest c ((lang_rwTail rest c).mp hc),
    fun rest hb => (lang_rwTail rest _).mpr (h.none rest hb),
    fun rest t he ht hq => by
      obtain ⟨c, hc⟩ := h.word rest t he ht hq
      exact ⟨c, (lang_rwTail rest c).mpr hc⟩⟩

def isMemFmt (t : Text) : Bool := isFmt "foduxX" t || t = "i".toList

theorem is_memFmt : Is (.grp (.alt fmtF (k "i"))) isMemFmt (fun t => [some t]) := by
  refine Is.grp (f := fun _ => []) ?_
  intro t c
  have hf := fun c => is_fmt "foduxX" t c
  rw [show (Re.one (oneOf "foduxX")).seq (.plus dig) = fmtF from rfl] at hf
  simp only [Lang, isMemFmt, Bool.or_eq_true, decide_eq_true_eq, k, Re.nones]
  constructor
  · rintro (⟨c1, rfl, h⟩ | ⟨c1, rfl, rfl, rfl⟩)
    · obtain ⟨h1, rfl⟩ := (hf c1).mp h
      exact ⟨.inl h1, rfl⟩
    · exact ⟨.inr rfl, rfl⟩
  · rintro ⟨h1 | rfl, rfl⟩
    · exact .inl ⟨[], rfl, (hf []).mpr ⟨h1, rfl⟩⟩
    · exact .inr ⟨[], rfl, rfl, rfl⟩

theorem memFmt_solid (t : Text) (h : isMemFmt t = true) : Solid t := by
  simp only [isMemFmt, Bool.or_eq_true, decide_eq_true_eq] at h
  rcases h with h | rfl
  · exact fmt_solid "foduxX" (by decide) t h
  · exact ⟨by decide, by decide⟩

theorem blank_append {a b : Text} (ha : Blank a) (hb : Blank b) : Blank (a ++ b) := by
  simp only [Blank, List.all_append, Bool.and_eq_true]; exact ⟨ha, hb⟩

theorem tail_mem : TailOk true memTail isMemFmt where
  fwd := by
    rintro rest c ⟨w1, w2, c1, c2, rfl, rfl, h1, hw2, rfl⟩
    have hw2 : Blank w2 := hw2
    rcases h1 with ⟨g, u, c3, c4, rfl, rfl, ⟨hg0, hg, rfl⟩, h2⟩ | ⟨rfl, rfl⟩
    · refine ⟨by rw [List.append_assoc]; exact edge_gap hg hg0, ?_⟩
      rcases h2 with h2 | ⟨rfl, rfl⟩
      · obtain ⟨hq, rfl⟩ := (is_memFmt u c4).mp h2
        refine .inr ⟨u, [], tokens_one g u w2 hg (memFmt_solid u hq) hw2, hq, rfl, ?_, (fun _ => rfl), rfl⟩
        intro x hx; cases hx
      · refine .inl ⟨?_, rfl⟩
        rw [List.append_nil]
        exact tokens_blank _ (blank_append hg hw2)
    · refine ⟨by rw [List.nil_append]; exact edge_of_blank hw2, .inl ⟨?_, rfl⟩⟩
      rw [List.nil_append]; exact tokens_blank w2 hw2
  none := by
    intro rest h
    exact ⟨[], rest, [none], [], rfl, rfl, .inr ⟨rfl, rfl⟩, h, rfl⟩
  word := by
    intro rest t he h hq
    obtain ⟨g, r, rfl, hg, hg0, ht, hr⟩ := one_word he h
    exact ⟨[some t], g ++ t, r, [some t], [], rfl, rfl,
      .inl ⟨g, t, [], [some t], rfl, rfl, ⟨hg0, hg, rfl⟩, .inl ((is_memFmt t _).mpr ⟨hq, rfl⟩)⟩, hr, rfl⟩

/-! ## Numbers of breakpoints and watchpoints -/

def nRe (s : String) : Re :=
  .seq ws (.seq (k s) (.seq gap (.seq (.opt (.grp (.seq (k "set") gap))) (.seq (k "#") (.seq num ws)))))

def hash : Re := .seq (k "#") num

theorem lang_nRe (s : String) (t : Text) (c : Caps) (h : Lang (nRe s) t c) :
    (∃ c', Lang (line [k s, hash]) t c' ∧ c = none :: c')
    ∨ (∃ c' w, Lang (line [k s, k "set", hash]) t c' ∧ c = some w :: c') := by
  obtain ⟨w0, _, _, _, rfl, rfl, ⟨hw0, rfl⟩, w1, _, _, _, rfl, rfl, ⟨rfl, rfl⟩, g, _, _, _, rfl, rfl,
    ⟨hg0, hg, rfl⟩, w2, _, c2, _, rfl, rfl, h2, w3, _, _, _, rfl, rfl, ⟨rfl, rfl⟩, n, w4, c4, _, rfl,
    rfl, hn, hw4, rfl⟩ := h
  rcases h2 with ⟨c5, rfl, w5, g2, _, _, rfl, rfl, ⟨rfl, rfl⟩, hg20, hg2, rfl⟩ | ⟨rfl, rfl⟩
  · refine .inr ⟨c4 ++ [], _, ?_, by simp; rfl⟩
    exact ⟨w0, _, [], c4 ++ [], rfl, rfl, ⟨hw0, rfl⟩, _, _, [], c4 ++ [], rfl, rfl, ⟨rfl, rfl⟩, g, _, [],
      c4 ++ [], rfl, rfl, ⟨hg0, hg, rfl⟩, "set".toList, g2 ++ ("#".toList ++ (n ++ w4)), [], c4 ++ [],
      by first | rfl | simp only [List.append_assoc], rfl, ⟨rfl, rfl⟩, g2, _, [], c4 ++ [], rfl, rfl, ⟨hg20, hg2, rfl⟩,
      "#".toList ++ n, w4, c4, [], by first | rfl | simp only [List.append_assoc], rfl, ⟨_, n, [], c4, rfl, rfl,
        ⟨rfl, rfl⟩, hn⟩, hw4, rfl⟩
  · refine .inl ⟨c4 ++ [], ?_, by simp; rfl⟩
    exact ⟨w0, _, [], c4 ++ [], rfl, rfl, ⟨hw0, rfl⟩, _, _, [], c4 ++ [], rfl, rfl, ⟨rfl, rfl⟩, g, _, [],
      c4 ++ [], rfl, rfl, ⟨hg0, hg, rfl⟩,
      "#".toList ++ n, w4, c4, [], by first | rfl | simp only [List.append_assoc, List.nil_append], rfl, ⟨_, n, [], c4,
        rfl, rfl, ⟨rfl, rfl⟩, hn⟩, hw4, rfl⟩

theorem lang_nRe1 (s : String) (t : Text) (c' : Caps) (h : Lang (line [k s, hash]) t c') :
    Lang (nRe s) t (none :: c') := by
  obtain ⟨w0, _, _, _, rfl, rfl, ⟨hw0, rfl⟩, w1, _, _, _, rfl, rfl, ⟨rfl, rfl⟩, g, _, _, _, rfl, rfl,
    ⟨hg0, hg, rfl⟩, _, w4, _, _, rfl, rfl, ⟨_, n, _, c4, rfl, rfl, ⟨rfl, rfl⟩, hn⟩, hw4, rfl⟩ := h
  exact ⟨w0, _, [], none :: (c4 ++ []), rfl, rfl, ⟨hw0, rfl⟩, _, _, [], none :: (c4 ++ []), rfl, rfl,
    ⟨rfl, rfl⟩, g, _, [], none :: (c4 ++ []), rfl, rfl, ⟨hg0, hg, rfl⟩, [], _, [none], c4 ++ [], rfl, rfl,
    .inr ⟨rfl, rfl⟩, "#".toList, n ++ w4, [], c4 ++ [], by first | rfl | simp only [List.append_assoc], rfl, ⟨rfl, rfl⟩,
    n, w4, c4, [], rfl, rfl, hn, hw4, rfl⟩

theorem lang_nRe2 (s : String) (t : Text) (c' : Caps) (h : Lang (line [k s, k "set", hash]) t c') :
    ∃ w, Lang (nRe s) t (some w :: c') := by
  obtain ⟨w0, _, _, _, rfl, rfl, ⟨hw0, rfl⟩, w1, _, _, _, rfl, rfl, ⟨rfl, rfl⟩, g, _, _, _, rfl, rfl,
    ⟨hg0, hg, rfl⟩, w2, _, _, _, rfl, rfl, ⟨rfl, rfl⟩, g2, _, _, _, rfl, rfl, ⟨hg20, hg2, rfl⟩,
    _, w4, _, _, rfl, rfl, ⟨_, n, _, c4, rfl, rfl, ⟨rfl, rfl⟩, hn⟩, hw4, rfl⟩ := h
  refine ⟨"set".toList ++ g2, ?_⟩
  exact ⟨w0, _, [], some ("set".toList ++ g2) :: (c4 ++ []), rfl, rfl, ⟨hw0, rfl⟩, _, _, [],
    some ("set".toList ++ g2) :: (c4 ++ []), rfl, rfl,
    ⟨rfl, rfl⟩, g, _, [], some ("set".toList ++ g2) :: (c4 ++ []), rfl, rfl, ⟨hg0, hg, rfl⟩,
    "set".toList ++ g2, "#".toList ++ (n ++ w4), [some ("set".toList ++ g2)], c4 ++ [],
    by first | rfl | simp only [List.append_assoc], rfl,
    .inl ⟨[], rfl, _, g2, [], [], rfl, rfl, ⟨rfl, rfl⟩, hg20, hg2, rfl⟩, _, _, [], c4 ++ [], rfl, rfl,
    ⟨rfl, rfl⟩, n, w4, c4, [], rfl, rfl, hn, hw4, rfl⟩

theorem good_hash : Good hash := good_marked "#" '#' rfl (by decide)

theorem full_nRe (s : String) (hs : s.toList ≠ [] ∧ s.toList.all (fun c => !sp c) = true) (t : Text)
    (mk : Text → Cmd) :
    (full (nRe s) t).bind (fun c => some (mk (cap c 1)))
      = ((tm [k s, hash] (tokens t)).orElse (fun _ => tm [k s, k "set", hash] (tokens t))).map
          (fun c => mk (cap c 0)) := by
  have h1 : full (line [k s, hash]) t = tm [k s, hash] (tokens t) :=
    full_line (by simp) (by
      intro r hr
      simp only [List.mem_cons, List.not_mem_nil, or_false] at hr
      rcases hr with rfl | rfl
      · exact good_k s hs
      · exact good_hash) t
  have h2 : full (line [k s, k "set", hash]) t = tm [k s, k "set", hash] (tokens t) :=
    full_line (by simp) (by
      intro r hr
      simp only [List.mem_cons, List.not_mem_nil, or_false] at hr
      rcases hr with rfl | rfl | rfl
      · exact good_k s hs
      · exact good_k "set" (by decide)
      · exact good_hash) t
  have d1 : ∀ c c', full (line [k s, hash]) t = some c → Lang (line [k s, hash]) t c' → c' = c := by
    intro c c' ha hb
    have := (lang_line [k s, hash] (by simp) (by
      intro r hr
      simp only [List.mem_cons, List.not_mem_nil, or_false] at hr
      rcases hr with rfl | rfl
      · exact (good_k s hs).1
      · exact good_hash.1) t c').mp hb
    have := (langT_tm [k s, hash] (tokens t) c' (by
      intro r hr
      simp only [List.mem_cons, List.not_mem_nil, or_false] at hr
      rcases hr with rfl | rfl
      · exact (good_k s hs).2
      · exact good_hash.2)).mp this
    rw [← h1, ha] at this
    exact (Option.some.inj this).symm
  have d2 : ∀ c c', full (line [k s, k "set", hash]) t = some c →
      Lang (line [k s, k "set", hash]) t c' → c' = c := by
    intro c c' ha hb
    have := (lang_line [k s, k "set", hash] (by simp) (by
      intro r hr
      simp only [List.mem_cons, List.not_mem_nil, or_false] at hr
      rcases hr with rfl | rfl | rfl
      · exact (good_k s hs).1
      · exact (good_k "set" (by decide)).1
      · exact good_hash.1) t c').mp hb
    have := (langT_tm [k s, k "set", hash] (tokens t) c' (by
      intro r hr
      simp only [List.mem_cons, List.not_mem_nil, or_false] at hr
      rcases hr with rfl | rfl | rfl
      · exact (good_k s hs).2
      · exact (good_k "set" (by decide)).2
      · exact good_hash.2)).mp this
    rw [← h2, ha] at this
    exact (Option.some.inj this).symm
  have len : ∀ c, tm [k s, hash] (tokens t) = some c → tm [k s, k "set", hash] (tokens t) = none := by
    intro c hc
    match hts : tokens t with
    | [] => rfl
    | [_] => simp only [tm]; split <;> rfl
    | [a, b] =>
      simp only [tm]
      cases full (k s) a with
      | none => rfl
      | some _ => cases full (k "set") b <;> rfl
    | a :: b :: x :: l =>
      rw [hts] at hc
      simp only [tm] at hc
      exfalso
      revert hc
      cases full (k s) a with
      | none => simp
      | some _ => cases full hash b <;> simp
  cases e1 : tm [k s, hash] (tokens t) with
  | some c =>
    obtain ⟨c'', hf, hl⟩ := full_of (lang_nRe1 s t c (full_some (h1.trans e1)))
    rw [hf]
    simp only [Option.bind_some, Option.orElse, Option.map_some]
    rcases lang_nRe s t c'' hl with ⟨c', hc', rfl⟩ | ⟨c', w, hc', rfl⟩
    · rw [d1 c c' (h1.trans e1) hc']; rfl
    · exfalso
      obtain ⟨c3, h3, _⟩ := full_of hc'
      rw [h2, len c e1] at h3; cases h3
  | none =>
    simp only [Option.orElse]
    cases e2 : tm [k s, k "set", hash] (tokens t) with
    | some c =>
      obtain ⟨w, hw⟩ := lang_nRe2 s t c (full_some (h2.trans e2))
      obtain ⟨c'', hf, hl⟩ := full_of hw
      rw [hf]
      simp only [Option.bind_some, Option.map_some]
      rcases lang_nRe s t c'' hl with ⟨c', hc', rfl⟩ | ⟨c', w, hc', rfl⟩
      · exfalso
        obtain ⟨c3, h3, _⟩ := full_of hc'
        rw [h1, e1] at h3; cases h3
      · rw [d2 c c' (h2.trans e2) hc']; rfl
    | none =>
      rw [full_none]
      · rfl
      · intro c hc
        rcases lang_nRe s t c hc with ⟨c', hc', rfl⟩ | ⟨c', w, hc', rfl⟩
        · obtain ⟨c3, h3, _⟩ := full_of hc'
          rw [h1, e1] at h3; cases h3
        · obtain ⟨c3, h3, _⟩ := full_of hc'
          rw [h2, e2] at h3; cases h3

end Verif.Shell
