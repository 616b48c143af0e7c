import Verif.CommandLine
import Verif.Spec.CommandLine
import Verif.Lemmas.Dict
/-
Lemmas on the model of `argparse`.
-/

namespace Verif
open Spec

theorem cutAt_none {c : Char} {s : Str} : cutAt c s = none ↔ c ∉ s := by
  induction s with
  | nil => simp [cutAt]
  | cons a s ih =>
    simp only [cutAt]
    by_cases h : a = c
    · simp [h]
    · simp [h, ih, Ne.symm h]

theorem cutAt_some {c : Char} {s p x : Str} : cutAt c s = some (p, x) ↔ s = p ++ c :: x ∧ c ∉ p := by
  induction s generalizing p with
  | nil => simp [cutAt]
  | cons a s ih =>
    simp only [cutAt]
    by_cases h : a = c
    · subst h
      cases p with
      | nil => simp [eq_comm]
      | cons b p => simp; intro h1; simp [h1]
    · cases p with
      | nil => simp [h]
      | cons b p =>
        simp only [if_neg h, Option.map_eq_some_iff, Prod.exists, Prod.mk.injEq, List.cons.injEq, List.cons_append, List.mem_cons, not_or]
        constructor
        · rintro ⟨q, y, h1, ⟨rfl, rfl⟩, rfl⟩
          obtain ⟨rfl, h2⟩ := ih.1 h1
          exact ⟨⟨rfl, rfl⟩, Ne.symm h, h2⟩
        · rintro ⟨⟨rfl, rfl⟩, h1, h2⟩
          exact ⟨p, x, ih.2 ⟨rfl, h2⟩, ⟨rfl, rfl⟩, rfl⟩

theorem get?_cons' {α : Type} (k k' : Str) (v : α) (d : Dict α) : Dict.get? ((k', v) :: d) k = if k' = k then some v else Dict.get? d k := by
  simp [Dict.get?]

theorem mem_optionStrings {t : List OptDecl} {n : Str} {d : OptDecl} : (n, d) ∈ optionStrings t ↔ Called t n d := by
  simp only [optionStrings, List.mem_flatMap, List.mem_map, Prod.mk.injEq, Called]
  constructor
  · rintro ⟨d', h1, n', h2, rfl, rfl⟩; exact ⟨h1, h2⟩
  · rintro ⟨h1, h2⟩; exact ⟨d, h1, n, h2, rfl, rfl⟩

theorem keys_optionStrings (t : List OptDecl) : (optionStrings t).keys = t.flatMap (·.names) := by
  simp [optionStrings, Dict.keys, List.map_flatMap, Function.comp_def]

theorem get_iff {t : List OptDecl} (ht : Sensible t) {n : Str} {d : OptDecl} : (optionStrings t).get? n = some d ↔ Called t n d := by
  rw [← mem_optionStrings, Dict.mem_iff_get? (by rw [keys_optionStrings]; exact ht.unique)]

theorem get_none {t : List OptDecl} (ht : Sensible t) {n : Str} : (optionStrings t).get? n = none ↔ ∀ d, ¬ Called t n d := by
  cases h : (optionStrings t).get? n with
  | none => simp only [true_iff]; intro d hd; rw [(get_iff ht).2 hd] at h; cases h
  | some d => simp only [reduceCtorEq, false_iff]; exact fun h' => h' d ((get_iff ht).1 h)

theorem called_unique {t : List OptDecl} (ht : Sensible t) {n : Str} {d d' : OptDecl} (h : Called t n d) (h' : Called t n d') : d = d' := by
  have := (get_iff ht).2 h
  rw [(get_iff ht).2 h'] at this
  exact (Option.some.inj this).symm

theorem nodup_of_map {α β : Type} {f : α → β} {l : List α} (h : (l.map f).Nodup) : l.Nodup := by
  unfold List.Nodup at h ⊢
  rw [List.pairwise_map] at h
  exact h.imp (fun {a b} h e => h (congrArg f e))

theorem optionStrings_nodup {t : List OptDecl} (ht : Sensible t) : (optionStrings t).Nodup :=
  nodup_of_map (by have := ht.unique; rw [← keys_optionStrings] at this; exact this)

theorem filterMap_congr' {α β : Type} {f g : α → Option β} {l : List α} (h : ∀ x ∈ l, f x = g x) : l.filterMap f = l.filterMap g := by
  induction l with
  | nil => rfl
  | cons a l ih => rw [List.filterMap_cons, List.filterMap_cons, h a (by simp), ih (fun x hx => h x (by simp [hx]))]

theorem filterMap_if {α β : Type} (P : α → Prop) [DecidablePred P] (f : α → β) (m : List α) :
    m.filterMap (fun q => if P q then some (f q) else none) = (m.filter (fun q => P q)).map f := by
  induction m with
  | nil => rfl
  | cons a m ih => by_cases h : P a <;> simp [h, ih]

theorem filter_singleton {α : Type} [DecidableEq α] (P : α → Prop) [DecidablePred P] {m : List α} (hn : m.Nodup) (q : α) :
    m.filter (fun q => P q) = [q] ↔ q ∈ m ∧ P q ∧ ∀ x ∈ m, P x → x = q := by
  constructor
  · intro h
    have h1 : q ∈ m.filter (fun q => P q) := by rw [h]; simp
    simp only [List.mem_filter, decide_eq_true_eq] at h1
    refine ⟨h1.1, h1.2, fun x hx hp => ?_⟩
    have : x ∈ m.filter (fun q => P q) := by simp [hx, hp]
    rw [h] at this
    simpa using this
  · rintro ⟨h1, h2, h3⟩
    have hm : ∀ x, x ∈ m.filter (fun q => P q) ↔ x = q := by
      intro x
      simp only [List.mem_filter, decide_eq_true_eq]
      exact ⟨fun h => h3 x h.1 h.2, fun h => h ▸ ⟨h1, h2⟩⟩
    have hnd : (m.filter (fun q => P q)).Nodup := hn.filter _
    match hl : m.filter (fun q => P q), hm, hnd with
    | [], hm, _ => exact absurd ((hm q).2 rfl) (by simp)
    | [a], hm, _ => rw [(hm a).1 (by simp)]
    | a :: b :: l, hm, hnd =>
      have := (hm a).1 (by simp)
      have h2 := (hm b).1 (by simp)
      subst this
      subst h2
      simp at hnd

theorem startsWith_iff {s p : Str} : startsWith s p = true ↔ p <+: s := by simp [startsWith]

/-- What is attached to an option of one character. -/
def attach : Str → Option (Str × Str)
  | [] => none
  | e :: y => if e = '=' then some (c!"=", y) else some ([], e :: y)

/-- An option of one character with what is attached to it. -/
def hitOf (d : OptDecl) (e : Char) (y : Str) : Hit := ⟨d, ['-', e], attach y⟩

/-- The ways in which an option is found in a word. -/
inductive Found (t : List OptDecl) (w : Str) : Hit → Prop
  | alone (d : OptDecl) (n : Str) (h : StandsFor t w d) : Found t w ⟨d, n, none⟩
  | equals (d : OptDecl) (p n x : Str) (e : w = p ++ '=' :: x) (ne : '=' ∉ p) (h : StandsFor t p d) : Found t w ⟨d, n, some (c!"=", x)⟩
  | attached (d : OptDecl) (c : Char) (x : Str) (e : w = '-' :: c :: x) (ne : x ≠ []) (he : x.head? ≠ some '=') (h : Called t ['-', c] d) : Found t w ⟨d, ['-', c], some ([], x)⟩

theorem no_equals {t : List OptDecl} (ht : Sensible t) {n : Str} {d : OptDecl} (h : Called t n d) : '=' ∉ n := by
  rcases ht.shape d h.1 n h.2 with ⟨c, rfl, h1, h2⟩ | ⟨a, s, rfl, h1⟩
  · simp [Ne.symm h2]
  · exact h1

theorem named_head {t : List OptDecl} (ht : Sensible t) {n : Str} {d : OptDecl} (h : Called t n d) : n.head? = some '-' := by
  rcases ht.shape d h.1 n h.2 with ⟨c, rfl, h1, h2⟩ | ⟨a, s, rfl, h1⟩ <;> rfl

theorem named_length {t : List OptDecl} (ht : Sensible t) {n : Str} {d : OptDecl} (h : Called t n d) : 2 ≤ n.length := by
  rcases ht.shape d h.1 n h.2 with ⟨c, rfl, h1, h2⟩ | ⟨a, s, rfl, h1⟩ <;> simp

theorem named_short {t : List OptDecl} (ht : Sensible t) {c : Char} {x : Str} {d : OptDecl} (h : Called t ('-' :: c :: x) d) (hc : c ≠ '-') : x = [] := by
  rcases ht.shape d h.1 _ h.2 with ⟨c, h0, h1, h2⟩ | ⟨a, s, h0, h1⟩
  · simp only [List.cons.injEq] at h0; exact h0.2.2
  · simp only [List.cons.injEq] at h0; exact absurd h0.2.1 hc

theorem called_char {t : List OptDecl} (ht : Sensible t) {c : Char} {d : OptDecl} (h : Called t ['-', c] d) : c ≠ '-' ∧ c ≠ '=' := by
  rcases ht.shape d h.1 _ h.2 with ⟨c', h0, h1, h2⟩ | ⟨a, s, h0, h1⟩
  · simp only [List.cons.injEq, and_true, true_and] at h0; subst h0; exact ⟨h1, h2⟩
  · simp at h0

theorem called_two {t : List OptDecl} (ht : Sensible t) {n : Str} {d : OptDecl} (h : Called t n d) (hl : n.length = 2) : ∃ c, n = ['-', c] := by
  rcases ht.shape d h.1 n h.2 with ⟨c, rfl, h1, h2⟩ | ⟨a, s, rfl, h1⟩
  · exact ⟨c, rfl⟩
  · simp at hl

theorem digits_iff {s : Str} : (s ≠ [] && s.all isDigitA) = true ↔ Figures s := by
  simp [Figures, isDigitA]

theorem all_digits_iff {s : Str} : s.all isDigitA = true ↔ s = [] ∨ Figures s := by
  by_cases h : s = []
  · simp [h]
  · simp [Figures, isDigitA, h]

theorem number_iff {x : Str} : plainNumber x = true ↔ (Figures x ∨ (∃ a b, x = a ++ '.' :: b ∧ (a = [] ∨ Figures a) ∧ Figures b)) := by
  have hdot : ∀ {s : Str}, Figures s → '.' ∉ s := fun h hm => absurd (h.2 _ hm) (by decide)
  unfold plainNumber
  cases h : cutAt '.' x with
  | none =>
    simp only
    rw [digits_iff]
    refine ⟨Or.inl, fun h' => h'.resolve_right ?_⟩
    rintro ⟨a, b, rfl, -, -⟩
    exact absurd (cutAt_none.1 h) (by simp)
  | some p =>
    obtain ⟨a, b⟩ := p
    obtain ⟨rfl, ha⟩ := cutAt_some.1 h
    simp only
    rw [Bool.and_assoc, Bool.and_eq_true, digits_iff, all_digits_iff]
    refine ⟨fun h' => Or.inr ⟨a, b, rfl, h'⟩, ?_⟩
    rintro (h' | ⟨a', b', e, h1, h2⟩)
    · exact absurd (hdot h') (by simp)
    · have h3 : '.' ∉ a' := by
        rcases h1 with rfl | h1
        · simp
        · exact hdot h1
      have := cutAt_some.2 ⟨e, h3⟩
      rw [h] at this
      cases this
      exact ⟨h1, h2⟩

theorem negativeNumber_iff {s : Str} : negativeNumber s = true ↔ NegativeNumber s := by
  cases s with
  | nil => simp [negativeNumber, NegativeNumber]
  | cons c s =>
    simp only [negativeNumber, Bool.and_eq_true, beq_iff_eq]
    rw [number_iff]
    have hnl : ∀ {x : Str}, (Figures x ∨ (∃ a b, x = a ++ '.' :: b ∧ (a = [] ∨ Figures a) ∧ Figures b)) → '\n' ∉ x := by
      have h0 : ∀ {s : Str}, Figures s → '\n' ∉ s := fun h hm => absurd (h.2 _ hm) (by decide)
      rintro x (h | ⟨a, b, rfl, h1, h2⟩)
      · exact h0 h
      · intro hm
        simp only [List.mem_append, List.mem_cons] at hm
        rcases hm with hm | hm | hm
        · rcases h1 with rfl | h1
          · simp at hm
          · exact h0 h1 hm
        · exact absurd hm (by decide)
        · exact h0 h2 hm
    constructor
    · rintro ⟨rfl, h⟩
      by_cases hl : s.getLast? = some '\n'
      · rw [if_pos hl] at h
        refine ⟨s.dropLast, ['\n'], ?_, Or.inr rfl, h⟩
        congr 1
        obtain ⟨ys, rfl⟩ := List.getLast?_eq_some_iff.1 hl
        simp
      · rw [if_neg hl] at h
        exact ⟨s, [], by simp, Or.inl rfl, h⟩
    · rintro ⟨x, y, e, hy, h⟩
      simp only [List.cons.injEq] at e
      obtain ⟨rfl, rfl⟩ := e
      refine ⟨rfl, ?_⟩
      rcases hy with rfl | rfl
      · have : (x ++ []).getLast? ≠ some '\n' := by
          intro hl
          obtain ⟨ys, h2⟩ := List.getLast?_eq_some_iff.1 hl
          rw [List.append_nil] at h2
          exact hnl h (by rw [h2]; simp)
        rw [if_neg this, List.append_nil]
        exact h
      · rw [if_pos (by simp), List.dropLast_concat]
        exact h

theorem tuples_long {m : Dict OptDecl} {p : Str} (hd : ['-', '-'] <+: p) (he : '=' ∉ p) :
    optionTuples m p = (m.filter (fun q => p <+: q.1)).map (fun q => ⟨q.2, q.1, none⟩) := by
  rw [optionTuples, if_pos (startsWith_iff.2 hd), cutAt_none.2 he]
  simp only [startsWith_iff]
  exact filterMap_if (fun q : Str × OptDecl => p <+: q.1) _ m

theorem tuples_equals {m : Dict OptDecl} {p x : Str} (hd : ['-', '-'] <+: p) (he : '=' ∉ p) :
    optionTuples m (p ++ '=' :: x) = (m.filter (fun q => p <+: q.1)).map (fun q => ⟨q.2, q.1, some (c!"=", x)⟩) := by
  rw [optionTuples, if_pos (startsWith_iff.2 (hd.trans (List.prefix_append _ _))), cutAt_some.2 ⟨rfl, he⟩]
  simp only [startsWith_iff]
  exact filterMap_if (fun q : Str × OptDecl => p <+: q.1) _ m

theorem tuples_short {t : List OptDecl} (ht : Sensible t) {c : Char} {x : Str} (hc : c ≠ '-') (hn : ∀ d, ¬ Called t ('-' :: c :: x) d) :
    optionTuples (optionStrings t) ('-' :: c :: x) = ((optionStrings t).filter (fun q => q.1 = ['-', c])).map (fun q => ⟨q.2, q.1, some ([], x)⟩) := by
  rw [optionTuples, if_neg (by rw [startsWith_iff]; simp [Ne.symm hc])]
  rw [← filterMap_if (fun q : Str × OptDecl => q.1 = ['-', c])]
  apply filterMap_congr'
  rintro ⟨n, d⟩ hq
  have hq := mem_optionStrings.1 hq
  simp only [List.take_succ_cons, List.take_zero, List.drop_succ_cons, List.drop_zero]
  by_cases h : n = ['-', c]
  · simp [h]
  · rw [if_neg h, if_neg h, if_neg]
    rw [startsWith_iff]
    intro hp
    rcases ht.shape d hq.1 n hq.2 with ⟨c', rfl, h1, h2⟩ | ⟨a, s, rfl, h1⟩
    · have h3 := hp.length_le
      simp only [List.length_cons, List.length_nil] at h3
      have h4 : x = [] := List.length_eq_zero_iff.1 (by omega)
      subst h4
      have := hp.eq_of_length rfl
      exact h this.symm
    · simp only [List.cons_prefix_cons, true_and] at hp
      exact hc hp.1

/-- The options in question for a word with two dashes. -/
theorem only_one {t : List OptDecl} (ht : Sensible t) {p : Str} {f : Str × OptDecl → Hit} {h : Hit}
    (e : ((optionStrings t).filter (fun q => p <+: q.1)).map f = [h]) :
    ∃ n d, Called t n d ∧ p <+: n ∧ (∀ n' d', Called t n' d' → p <+: n' → n' = n) ∧ f (n, d) = h := by
  obtain ⟨⟨n, d⟩, h1, h2⟩ := List.map_eq_singleton_iff.1 e
  have := (filter_singleton (fun q : Str × OptDecl => p <+: q.1) (optionStrings_nodup ht) (n, d)).1 h1
  refine ⟨n, d, mem_optionStrings.1 this.1, this.2.1, fun n' d' hc hp => ?_, h2⟩
  have := this.2.2 (n', d') (mem_optionStrings.2 hc) hp
  cases this
  rfl

theorem one_only {t : List OptDecl} (ht : Sensible t) {p n : Str} {d : OptDecl} (hc : Called t n d) (hp : p <+: n)
    (ho : ∀ n' d', Called t n' d' → p <+: n' → n' = n) : (optionStrings t).filter (fun q => p <+: q.1) = [(n, d)] := by
  rw [filter_singleton (fun q : Str × OptDecl => p <+: q.1) (optionStrings_nodup ht)]
  refine ⟨mem_optionStrings.2 hc, hp, ?_⟩
  rintro ⟨n', d'⟩ hm hp'
  have hm := mem_optionStrings.1 hm
  have := ho n' d' hm hp'
  subst this
  rw [called_unique ht hc hm]

theorem short_only {t : List OptDecl} (ht : Sensible t) {n : Str} {d : OptDecl} (hc : Called t n d) :
    (optionStrings t).filter (fun q => q.1 = n) = [(n, d)] := by
  rw [filter_singleton (fun q : Str × OptDecl => q.1 = n) (optionStrings_nodup ht)]
  refine ⟨mem_optionStrings.2 hc, rfl, ?_⟩
  rintro ⟨n', d'⟩ hm h
  dsimp only at h
  subst h
  rw [called_unique ht hc (mem_optionStrings.1 hm)]

theorem dashes_head {p w : Str} (hd : ['-', '-'] <+: p) (hp : p <+: w) : w.head? = some '-' := by
  obtain ⟨x, rfl⟩ := hd.trans hp
  rfl

theorem dashes_length {p : Str} (hd : ['-', '-'] <+: p) : p.length ≠ 1 := by
  have := hd.length_le
  simp only [List.length_cons, List.length_nil] at this
  omega

theorem standsFor_head {t : List OptDecl} (ht : Sensible t) {w : Str} {d : OptDecl} (h : StandsFor t w d) : w.head? = some '-' := by
  cases h with
  | name h => exact named_head ht h
  | short n h dashes pre only => exact dashes_head dashes (List.prefix_refl _)

theorem equals_not_named {t : List OptDecl} (ht : Sensible t) (p x : Str) : (optionStrings t).get? (p ++ '=' :: x) = none :=
  (get_none ht).2 (fun _ h => no_equals ht h (by simp))

theorem parseOptional_alone {t : List OptDecl} (ht : Sensible t) {w : Str} {d : OptDecl} (h : StandsFor t w d) :
    ∃ n, parseOptional (optionStrings t) w = .ok (.option ⟨d, n, none⟩) := by
  unfold parseOptional
  rw [if_neg (by rw [standsFor_head ht h]; simp)]
  cases h with
  | name h => rw [(get_iff ht).2 h]; exact ⟨_, rfl⟩
  | short n h dashes pre only =>
    cases hg : (optionStrings t).get? w with
    | some d' =>
      have hc := (get_iff ht).1 hg
      have := only w d' hc (List.prefix_refl _)
      subst this
      rw [called_unique ht h hc]
      exact ⟨_, rfl⟩
    | none =>
      have he : '=' ∉ w := fun hm => no_equals ht h (pre.subset hm)
      simp only
      rw [if_neg (dashes_length dashes), beforeEquals, cutAt_none.2 he, tuples_long dashes he, one_only ht h pre only]
      exact ⟨_, rfl⟩

theorem parseOptional_equals {t : List OptDecl} (ht : Sensible t) {w x : Str} {d : OptDecl} (h : StandsFor t w d) (he : '=' ∉ w) :
    ∃ n, parseOptional (optionStrings t) (w ++ '=' :: x) = .ok (.option ⟨d, n, some (c!"=", x)⟩) := by
  unfold parseOptional
  have hw := standsFor_head ht h
  rw [if_neg (by rw [List.head?_append, hw]; simp), equals_not_named ht]
  simp only
  rw [if_neg (by have : w ≠ [] := by rintro rfl; simp at hw
                 have := List.length_pos_iff.2 this
                 simp only [List.length_append, List.length_cons]; omega)]
  rw [beforeEquals, cutAt_some.2 ⟨rfl, he⟩]
  cases h with
  | name h => simp only [(get_iff ht).2 h]; exact ⟨_, rfl⟩
  | short n h dashes pre only =>
    cases hg : (optionStrings t).get? w with
    | some d' =>
      have hc := (get_iff ht).1 hg
      have := only w d' hc (List.prefix_refl _)
      subst this
      rw [called_unique ht h hc]
      simp only [hg]
      exact ⟨_, rfl⟩
    | none =>
      simp only [hg, Option.map_none]
      rw [tuples_equals dashes he, one_only ht h pre only]
      exact ⟨_, rfl⟩

theorem cut_short {c : Char} {x p y : Str} (hc : c ≠ '=') (h : cutAt '=' ('-' :: c :: x) = some (p, y)) : ∃ q, p = '-' :: c :: q ∧ x = q ++ '=' :: y := by
  obtain ⟨e, hp⟩ := cutAt_some.1 h
  match p with
  | [] => simp at e
  | [a] => simp only [List.cons_append, List.nil_append, List.cons.injEq] at e; exact absurd e.2.1 hc
  | a :: b :: q =>
    simp only [List.cons_append, List.cons.injEq] at e
    exact ⟨q, by rw [e.1, e.2.1], e.2.2⟩

theorem parseOptional_attached {t : List OptDecl} (ht : Sensible t) {c : Char} {x : Str} {d : OptDecl} (h : Called t ['-', c] d) (hx : x ≠ [])
    (he : x.head? ≠ some '=') : parseOptional (optionStrings t) ('-' :: c :: x) = .ok (.option ⟨d, ['-', c], some ([], x)⟩) := by
  obtain ⟨hc, hc'⟩ := called_char ht h
  have hn : ∀ d, ¬ Called t ('-' :: c :: x) d := fun d hd => hx (named_short ht hd hc)
  unfold parseOptional
  rw [if_neg (by simp), (get_none ht).2 hn]
  simp only
  rw [if_neg (by simp)]
  have hb : beforeEquals (optionStrings t) ('-' :: c :: x) = none := by
    unfold beforeEquals
    cases h2 : cutAt '=' ('-' :: c :: x) with
    | none => rfl
    | some q =>
      obtain ⟨p, y⟩ := q
      obtain ⟨q, rfl, rfl⟩ := cut_short hc' h2
      simp only
      rw [(get_none ht).2, Option.map_none]
      intro d' hd
      have := named_short ht hd hc
      subst this
      simp at he
  rw [hb]
  simp only
  rw [tuples_short ht hc hn, short_only ht h]
  rfl

theorem parseOptional_hitOf {t : List OptDecl} (ht : Sensible t) {e : Char} {d : OptDecl} (h : Called t ['-', e] d) (y : Str) :
    parseOptional (optionStrings t) ('-' :: e :: y) = .ok (.option (hitOf d e y)) := by
  obtain ⟨hc, hc'⟩ := called_char ht h
  cases y with
  | nil =>
    unfold parseOptional
    rw [if_neg (by simp), (get_iff ht).2 h]
    rfl
  | cons a y =>
    by_cases ha : a = '='
    · subst ha
      have hn : (optionStrings t).get? ('-' :: e :: '=' :: y) = none := equals_not_named ht ['-', e] y
      unfold parseOptional
      rw [if_neg (by simp), hn]
      simp only
      rw [if_neg (by simp), beforeEquals, show ('-' :: e :: '=' :: y) = ['-', e] ++ '=' :: y from rfl, cutAt_some.2 ⟨rfl, by simp [Ne.symm hc']⟩]
      simp only [(get_iff ht).2 h, Option.map_some, hitOf, attach, if_pos]
    · rw [parseOptional_attached ht h (by simp) (by simpa using ha)]
      simp [hitOf, attach, ha]

theorem parseOptional_found {t : List OptDecl} (ht : Sensible t) {w : Str} {h : Hit} (e : parseOptional (optionStrings t) w = .ok (.option h)) : Found t w h := by
  unfold parseOptional at e
  by_cases h1 : w.head? ≠ some '-'
  · rw [if_pos h1] at e; cases e
  rw [if_neg h1] at e
  have h1 := Decidable.not_not.1 h1
  cases h2 : (optionStrings t).get? w with
  | some d => rw [h2] at e; cases e; exact .alone d w (.name ((get_iff ht).1 h2))
  | none =>
    rw [h2] at e
    simp only at e
    by_cases h3 : w.length = 1
    · rw [if_pos h3] at e; cases e
    rw [if_neg h3] at e
    cases h4 : beforeEquals (optionStrings t) w with
    | some b =>
      rw [h4] at e
      cases e
      unfold beforeEquals at h4
      cases h5 : cutAt '=' w with
      | none => rw [h5] at h4; cases h4
      | some q =>
        obtain ⟨p, x⟩ := q
        rw [h5] at h4
        simp only [Option.map_eq_some_iff] at h4
        obtain ⟨d, h6, rfl⟩ := h4
        obtain ⟨rfl, h7⟩ := cutAt_some.1 h5
        exact .equals d p p x rfl h7 (.name ((get_iff ht).1 h6))
    | none =>
      rw [h4] at e
      simp only at e
      by_cases hd : ['-', '-'] <+: w
      · cases h5 : cutAt '=' w with
        | none =>
          rw [tuples_long hd (cutAt_none.1 h5)] at e
          split at e
          · next h6 =>
            obtain ⟨n, d, h7, h8, h9, rfl⟩ := only_one ht h6
            cases e
            exact .alone d n (.short n h7 hd h8 h9)
          · split at e <;> cases e
          · cases e
        | some q =>
          obtain ⟨p, x⟩ := q
          obtain ⟨rfl, h7⟩ := cutAt_some.1 h5
          have hp : ['-', '-'] <+: p := by
            match p with
            | [] => simp at hd
            | [a] => simp [List.cons_prefix_cons] at hd
            | a :: b :: p => simp only [List.cons_append, List.cons_prefix_cons] at hd; obtain ⟨rfl, rfl, -⟩ := hd; simp
          rw [tuples_equals hp h7] at e
          split at e
          · next h6 =>
            obtain ⟨n, d, h8, h9, h10, rfl⟩ := only_one ht h6
            cases e
            exact .equals d p n x rfl h7 (.short n h8 hp h9 h10)
          · split at e <;> cases e
          · cases e
      · match w with
        | [] => simp at h1
        | [a] => simp at h3
        | a :: c :: x =>
          simp only [List.head?_cons, Option.some.injEq] at h1
          subst h1
          have hc : c ≠ '-' := by rintro rfl; simp at hd
          have hn := (get_none ht).1 h2
          rw [tuples_short ht hc hn] at e
          split at e
          · next h6 =>
            obtain ⟨⟨n, d⟩, h7, rfl⟩ := List.map_eq_singleton_iff.1 h6
            have h8 := (filter_singleton (fun q : Str × OptDecl => q.1 = ['-', c]) (optionStrings_nodup ht) (n, d)).1 h7
            have h9 := mem_optionStrings.1 h8.1
            have h10 : n = ['-', c] := h8.2.1
            subst h10
            cases e
            have hx : x ≠ [] := by rintro rfl; exact hn d h9
            refine .attached d c x rfl hx ?_ h9
            intro hh
            cases x with
            | nil => simp at hx
            | cons b y =>
              simp only [List.head?_cons, Option.some.injEq] at hh
              subst hh
              have := called_char ht h9
              unfold beforeEquals at h4
              rw [show ('-' :: c :: '=' :: y) = ['-', c] ++ '=' :: y from rfl, cutAt_some.2 ⟨rfl, by simp [Ne.symm this.2]⟩] at h4
              simp only [(get_iff ht).2 h9, Option.map_some, reduceCtorEq] at h4
          · split at e <;> cases e
          · cases e

theorem prefix_equals {n w p x : Str} (hn : '=' ∉ n) (hp : '=' ∉ p) (e : w = p ++ '=' :: x) (h : n ++ ['='] <+: w) : n = p := by
  obtain ⟨y, rfl⟩ := h
  have h1 := cutAt_some.2 ⟨e, hp⟩
  rw [cutAt_some.2 ⟨show n ++ ['='] ++ y = n ++ '=' :: y by simp, hn⟩] at h1
  cases h1
  rfl

/-- Nothing is found in a word exactly if no option can be seen in it. -/
theorem nothing_iff {t : List OptDecl} (ht : Sensible t) {w : Str} (hw : w.head? = some '-') (hl : w.length ≠ 1) :
    ((optionStrings t).get? w = none ∧ beforeEquals (optionStrings t) w = none ∧ optionTuples (optionStrings t) w = []) ↔ NoOption t w := by
  constructor
  · rintro ⟨h1, h2, h3⟩ n d hc
    refine ⟨fun e => (get_none ht).1 h1 d (e ▸ hc), ?_, ?_, ?_⟩
    · rintro ⟨y, rfl⟩
      unfold beforeEquals at h2
      rw [cutAt_some.2 ⟨show n ++ ['='] ++ y = n ++ '=' :: y by simp, no_equals ht hc⟩] at h2
      simp only [(get_iff ht).2 hc, Option.map_some, reduceCtorEq] at h2
    · rintro hn ⟨y, rfl⟩
      obtain ⟨c, rfl⟩ := called_two ht hc hn
      obtain ⟨hc1, hc2⟩ := called_char ht hc
      have := tuples_short (x := y) ht hc1 ((get_none ht).1 h1)
      rw [short_only ht hc] at this
      rw [List.cons_append, List.cons_append, List.nil_append] at h3
      rw [h3] at this
      cases this
    · rintro hd p hp (rfl | hpw) hpn
      · rw [tuples_long hd hp] at h3
        have : (n, d) ∈ (optionStrings t).filter (fun q => p <+: q.1) := by simp [mem_optionStrings.2 hc, hpn]
        rw [List.map_eq_nil_iff.1 h3] at this
        cases this
      · obtain ⟨y, rfl⟩ := hpw
        rw [List.append_assoc] at h3 hd
        have hpd : ['-', '-'] <+: p := by
          match p with
          | [] => simp at hd
          | [a] => simp [List.cons_prefix_cons] at hd
          | a :: b :: p => simp only [List.cons_append, List.cons_prefix_cons] at hd; obtain ⟨rfl, rfl, -⟩ := hd; simp
        rw [List.singleton_append, tuples_equals hpd hp] at h3
        have : (n, d) ∈ (optionStrings t).filter (fun q => p <+: q.1) := by simp [mem_optionStrings.2 hc, hpn]
        rw [List.map_eq_nil_iff.1 h3] at this
        cases this
  · intro hno
    have h1 : (optionStrings t).get? w = none := (get_none ht).2 (fun d hc => (hno w d hc).1 rfl)
    refine ⟨h1, ?_, ?_⟩
    · unfold beforeEquals
      cases h : cutAt '=' w with
      | none => rfl
      | some q =>
        obtain ⟨p, x⟩ := q
        obtain ⟨rfl, hp⟩ := cutAt_some.1 h
        simp only
        rw [(get_none ht).2, Option.map_none]
        intro d hc
        exact (hno p d hc).2.1 ⟨x, by simp⟩
    · by_cases hd : ['-', '-'] <+: w
      · have hfil : ∀ p, '=' ∉ p → (p = w ∨ p ++ ['='] <+: w) → (optionStrings t).filter (fun q => p <+: q.1) = [] := by
          intro p hp hpw
          rw [List.filter_eq_nil_iff]
          rintro ⟨n, d⟩ hm
          simp only [decide_eq_true_eq]
          exact (hno n d (mem_optionStrings.1 hm)).2.2.2 hd p hp hpw
        cases h : cutAt '=' w with
        | none =>
          have hp := cutAt_none.1 h
          rw [tuples_long hd hp, hfil w hp (Or.inl rfl)]
          rfl
        | some q =>
          obtain ⟨p, x⟩ := q
          obtain ⟨rfl, hp⟩ := cutAt_some.1 h
          have hpd : ['-', '-'] <+: p := by
            match p with
            | [] => simp at hd
            | [a] => simp [List.cons_prefix_cons] at hd
            | a :: b :: p => simp only [List.cons_append, List.cons_prefix_cons] at hd; obtain ⟨rfl, rfl, -⟩ := hd; simp
          rw [tuples_equals hpd hp, hfil p hp (Or.inr ⟨x, by simp⟩)]
          rfl
      · match w with
        | [] => simp at hw
        | [a] => simp at hl
        | a :: c :: x =>
          simp only [List.head?_cons, Option.some.injEq] at hw
          subst hw
          have hc : c ≠ '-' := by rintro rfl; simp at hd
          rw [tuples_short ht hc ((get_none ht).1 h1), List.map_eq_nil_iff, List.filter_eq_nil_iff]
          rintro ⟨n, d⟩ hm
          simp only [decide_eq_true_eq]
          rintro rfl
          exact (hno _ d (mem_optionStrings.1 hm)).2.2.1 rfl (by simp)

theorem parseOptional_plain {t : List OptDecl} (ht : Sensible t) {w : Str} (hne : w ≠ ['-', '-']) :
    parseOptional (optionStrings t) w = .ok .plain ↔ Argument t w := by
  by_cases h1 : w.head? ≠ some '-'
  · unfold parseOptional
    rw [if_pos h1]
    exact ⟨fun _ => Or.inl h1, fun _ => rfl⟩
  have h1 := Decidable.not_not.1 h1
  by_cases h2 : w.length = 1
  · have hw : w = ['-'] := by
      match w with
      | [a] => simp only [List.head?_cons, Option.some.injEq] at h1; rw [h1]
    subst hw
    have hg : (optionStrings t).get? ['-'] = none := (get_none ht).2 (fun d hd => absurd (named_length ht hd) (by simp))
    unfold parseOptional
    rw [if_neg (by simp), hg]
    exact ⟨fun _ => Or.inr (Or.inl rfl), fun _ => rfl⟩
  have hno := nothing_iff ht h1 h2
  unfold parseOptional
  rw [if_neg (by simp [h1])]
  constructor
  · intro e
    refine Or.inr (Or.inr ⟨hne, ?_⟩)
    cases h3 : (optionStrings t).get? w with
    | some d => rw [h3] at e; cases e
    | none =>
      rw [h3] at e
      simp only at e
      rw [if_neg h2] at e
      cases h4 : beforeEquals (optionStrings t) w with
      | some b => rw [h4] at e; cases e
      | none =>
        rw [h4] at e
        simp only at e
        split at e
        · cases e
        · next h5 =>
          refine ⟨hno.1 ⟨h3, h4, h5⟩, ?_⟩
          split at e
          · next h6 =>
            rw [Bool.or_eq_true, negativeNumber_iff] at h6
            simpa using h6
          · cases e
        · cases e
  · rintro (h | h | ⟨-, h, h'⟩)
    · exact absurd h1 h
    · rw [h] at h2; simp at h2
    · obtain ⟨h3, h4, h5⟩ := hno.2 h
      rw [h3]
      simp only
      rw [if_neg h2, h4]
      simp only
      rw [h5]
      simp only
      rw [if_pos]
      rw [Bool.or_eq_true, negativeNumber_iff]
      simpa using h'

/-! ## The second pass -/

/-- Settings taken over into a namespace. -/
def setAll (ns : Dict ArgVal) (l : List (Str × ArgVal)) : Dict ArgVal := l.foldl (fun ns p => ns.set p.1 p.2) ns

theorem consume_extra (m : Dict OptDecl) (ns : Dict ArgVal) (ex : List Str) (toks : List (Str × ArgTok)) (ns' : Dict ArgVal) (ex' : List Str)
    (h : consumeArgs m ns ex toks = .ok (ns', ex')) : ex <+: ex' := by
  fun_induction consumeArgs m ns ex toks with
  | case1 => cases h; exact List.prefix_refl _
  | case2 _ _ _ _ ih => exact (List.prefix_append _ _).trans (ih h)
  | case3 _ _ _ _ ih => exact (List.prefix_append _ _).trans (ih h)
  | case4 _ _ _ _ ih => exact (List.prefix_append _ _).trans (ih h)
  | case5 => cases h
  | case6 => cases h
  | case7 _ _ _ _ _ _ _ _ _ _ ih => exact (List.prefix_append _ _).trans (ih h)
  | case8 => cases h
  | case9 _ _ _ _ _ _ _ _ _ _ _ _ _ ih => exact ih h
  | case10 => cases h
  | case11 => cases h
  | case12 _ _ _ _ _ _ _ _ _ _ _ _ ih => exact ih h

/-- A flag in front of another option in the same word is taken first. -/
theorem consume_after {m : Dict OptDecl} {h h' : Hit} {d : OptDecl} (hk : d.kind = .flag) (e : opening m h = (opening m h').map (Cluster.after d)) (ns : Dict ArgVal)
    (ex : List Str) (s s' : Str) (r : List (Str × ArgTok)) :
    consumeArgs m ns ex ((s, .option h) :: r) = consumeArgs m (ns.set d.dest (.flag true)) ex ((s', .option h') :: r) := by
  have ht : ∀ l, takeAll ns ((d, none) :: l) = takeAll (ns.set d.dest (.flag true)) l := by
    intro l
    simp [takeAll, takeAction, hk]
  rw [consumeArgs, consumeArgs, e]
  cases opening m h' with
  | error => rfl
  | ok c =>
    simp only [Except.map, Cluster.after, List.cons_append, ht]

theorem cluster_flag {t : List OptDecl} (ht : Sensible t) {f e : Char} {d d' : OptDecl} (hk : d.kind ≠ .value) (hf : f ≠ '-') (hm : e ≠ '-') (h : Called t ['-', e] d') (y : Str) :
    cluster (optionStrings t) d ['-', f] [] (e :: y) = (opening (optionStrings t) (hitOf d' e y)).map (Cluster.after d) := by
  rw [cluster.eq_def]
  simp only
  rw [if_neg hk, if_neg (by rw [startsWith_iff]; simp [Ne.symm hf, hm]), (get_iff ht).2 h]
  cases y with
  | nil => rfl
  | cons a y =>
    simp only
    by_cases ha : a = '='
    · rw [if_pos ha]; simp [opening, hitOf, attach, ha]
    · rw [if_neg ha]; simp [opening, hitOf, attach, ha]

theorem classify_cons {m : Dict OptDecl} {w : Str} {r : List Str} (h : w ≠ ['-', '-']) {k : ArgTok} {l : List (Str × ArgTok)} (h1 : parseOptional m w = .ok k)
    (h2 : classifyArgs m r = .ok l) : classifyArgs m (w :: r) = .ok ((w, k) :: l) := by
  rw [classifyArgs, if_neg h, h1, h2]

theorem classify_inv {m : Dict OptDecl} {w : Str} {r : List Str} (h : w ≠ ['-', '-']) {toks : List (Str × ArgTok)} (e : classifyArgs m (w :: r) = .ok toks) :
    ∃ k l, parseOptional m w = .ok k ∧ classifyArgs m r = .ok l ∧ toks = (w, k) :: l := by
  rw [classifyArgs, if_neg h] at e
  cases h1 : parseOptional m w with
  | error => rw [h1] at e; cases e
  | ok k =>
    rw [h1] at e
    simp only at e
    cases h2 : classifyArgs m r with
    | error => rw [h2] at e; cases e
    | ok l => rw [h2] at e; cases e; exact ⟨k, l, rfl, rfl, rfl⟩

theorem cluster_value {m : Dict OptDecl} {d : OptDecl} (hk : d.kind = .value) (n sep x : Str) : cluster m d n sep x = .ok ⟨[(d, some x)], none, none⟩ := by
  cases x <;> rw [cluster.eq_def] <;> simp [hk]

theorem argument_ne {t : List OptDecl} {v : Str} (h : Argument t v) : v ≠ ['-', '-'] := by
  rintro rfl
  rcases h with h | h | h
  · exact h rfl
  · cases h
  · exact h.1 rfl

/-- The first two characters of a word with one dash that can be read are a name. -/
theorem reads_called {t : List OptDecl} (ht : Sensible t) {e : Char} {y : Str} {r : List Str} {l : List (Str × ArgVal)} (he : e ≠ '-') (he' : e ≠ '=')
    (hr : Reads t (('-' :: e :: y) :: r) l) : ∃ d, Called t ['-', e] d := by
  have key : ∀ {w : Str} {d : OptDecl}, StandsFor t w d → w <+: '-' :: e :: y → w.length = 1 ∨ ∃ d, Called t ['-', e] d := by
    intro w d hs hp
    cases hs with
    | name hn =>
      have := named_length ht hn
      match w, hp with
      | a :: b :: w, hp =>
        simp only [List.cons_prefix_cons] at hp
        obtain ⟨rfl, rfl, -⟩ := hp
        have := named_short ht hn he
        subst this
        exact Or.inr ⟨d, hn⟩
    | short n h dashes pre only =>
      have := dashes.trans hp
      simp only [List.cons_prefix_cons, true_and] at this
      exact absurd this.1.symm he
  have h1 : ∀ {w : Str} {d : OptDecl}, StandsFor t w d → w.length ≠ 1 := by
    intro w d hs
    cases hs with
    | name h => have := named_length ht h; omega
    | short n h dashes pre only => exact dashes_length dashes
  generalize ha : ('-' :: e :: y) :: r = argv at hr
  cases hr with
  | done => cases ha
  | flag w d r l ne h k rest => cases ha; exact (key h (List.prefix_refl _)).resolve_left (h1 h)
  | value w v d r l ne h k arg rest => cases ha; exact (key h (List.prefix_refl _)).resolve_left (h1 h)
  | attached o v d r l h k ne he rest => cases ha; exact ⟨d, h⟩
  | flags f x d r l h k ne hd he rest => cases ha; exact ⟨d, h⟩
  | equals w v d r l ne h k rest =>
    have eq := (List.cons.inj ha).1
    exact (key h (by rw [eq]; exact List.prefix_append _ _)).resolve_left (h1 h)

theorem complete {t : List OptDecl} (ht : Sensible t) {argv : List Str} {l : List (Str × ArgVal)} (h : Reads t argv l) :
    ∃ toks, classifyArgs (optionStrings t) argv = .ok toks ∧ ∀ ns ex, consumeArgs (optionStrings t) ns ex toks = .ok (setAll ns l, ex) := by
  induction h with
  | done => exact ⟨[], rfl, fun ns ex => rfl⟩
  | flag w d r l ne h k rest ih =>
    obtain ⟨toks, h1, h2⟩ := ih
    obtain ⟨n, h3⟩ := parseOptional_alone ht h
    refine ⟨_, classify_cons ne h3 h1, fun ns ex => ?_⟩
    rw [consumeArgs]
    simp only [opening, k, reduceCtorEq, if_false, List.nil_append, takeAll, takeAction]
    rw [h2]
    rfl
  | value w v d r l ne h k arg rest ih =>
    obtain ⟨toks, h1, h2⟩ := ih
    obtain ⟨n, h3⟩ := parseOptional_alone ht h
    refine ⟨_, classify_cons ne h3 (classify_cons (argument_ne arg) ((parseOptional_plain ht (argument_ne arg)).2 arg) h1), fun ns ex => ?_⟩
    rw [consumeArgs.eq_def]
    simp only [opening, k, if_true, List.nil_append, takeAll, takeAction, Option.getD_some]
    rw [h2]
    rfl
  | equals w v d r l ne h k rest ih =>
    obtain ⟨toks, h1, h2⟩ := ih
    obtain ⟨n, h3⟩ := parseOptional_equals (x := v) ht h ne
    have hne : w ++ '=' :: v ≠ ['-', '-'] := by
      intro e
      have : '=' ∈ ['-', '-'] := by rw [← e]; simp
      simp at this
    refine ⟨_, classify_cons hne h3 h1, fun ns ex => ?_⟩
    rw [consumeArgs]
    simp only [opening, cluster_value k, takeAll, takeAction, k, Option.getD_some, Option.toList_none, List.append_nil]
    rw [h2]
    rfl
  | attached o v d r l h k ne he rest ih =>
    obtain ⟨toks, h1, h2⟩ := ih
    have h3 := parseOptional_attached ht h ne he
    have hne : '-' :: o :: v ≠ ['-', '-'] := by
      intro e
      simp only [List.cons.injEq] at e
      exact ne e.2.2
    refine ⟨_, classify_cons hne h3 h1, fun ns ex => ?_⟩
    rw [consumeArgs]
    simp only [opening, cluster_value k, takeAll, takeAction, k, Option.getD_some, Option.toList_none, List.append_nil]
    rw [h2]
    rfl
  | flags f x d r l h k ne hd he rest ih =>
    obtain ⟨toks, h1, h2⟩ := ih
    cases x with
    | nil => exact absurd rfl ne
    | cons e y =>
      simp only [List.head?_cons, ne_eq, Option.some.injEq] at hd he
      obtain ⟨d', hc⟩ := reads_called ht hd he rest
      obtain ⟨k', toks', h3, h4, rfl⟩ := classify_inv (by simp [hd]) h1
      rw [parseOptional_hitOf ht hc] at h3
      cases h3
      have hf := called_char ht h
      refine ⟨_, classify_cons (by simp [hf.1]) (parseOptional_attached ht h (by simp) (by simpa using he)) h4, fun ns ex => ?_⟩
      rw [consume_after k (h' := hitOf d' e y) (s' := '-' :: e :: y), h2]
      · rfl
      · exact cluster_flag ht (by rw [k]; decide) hf.1 hd hc y

theorem sound {t : List OptDecl} (ht : Sensible t) (N : Nat) : ∀ {argv : List Str} {toks : List (Str × ArgTok)} {ns ns' : Dict ArgVal},
    (argv.map (fun s => s.length + 1)).sum ≤ N → classifyArgs (optionStrings t) argv = .ok toks → consumeArgs (optionStrings t) ns [] toks = .ok (ns', []) →
    ∃ l, Reads t argv l ∧ ns' = setAll ns l := by
  induction N with
  | zero =>
    intro argv toks ns ns' hN h1 h2
    cases argv with
    | nil => cases h1; cases h2; exact ⟨[], .done, rfl⟩
    | cons w r => simp at hN
  | succ N IH =>
    intro argv toks ns ns' hN h1 h2
    cases argv with
    | nil => cases h1; cases h2; exact ⟨[], .done, rfl⟩
    | cons w r =>
      simp only [List.map_cons, List.sum_cons] at hN
      by_cases hw : w = ['-', '-']
      · subst hw
        rw [classifyArgs, if_pos rfl] at h1
        cases h1
        rw [consumeArgs] at h2
        have := consume_extra _ _ _ _ _ _ h2
        simp at this
      obtain ⟨k, toks', h3, h4, rfl⟩ := classify_inv hw h1
      cases k with
      | dashes => rw [consumeArgs] at h2; have := consume_extra _ _ _ _ _ _ h2; simp at this
      | plain => rw [consumeArgs] at h2; have := consume_extra _ _ _ _ _ _ h2; simp at this
      | unknown => rw [consumeArgs] at h2; have := consume_extra _ _ _ _ _ _ h2; simp at this
      | option h =>
        have hf := parseOptional_found ht h3
        cases hf with
        | alone d n hs =>
          rw [consumeArgs.eq_def] at h2
          simp only [opening] at h2
          cases hk : d.kind with
          | help => simp [hk, takeAll, takeAction] at h2
          | flag =>
            simp only [hk, reduceCtorEq, if_false, List.nil_append, takeAll, takeAction] at h2
            obtain ⟨l, h5, h6⟩ := IH (by omega) h4 h2
            exact ⟨_, .flag w d r l hw hs hk h5, h6⟩
          | value =>
            simp only [hk, if_true] at h2
            match r, toks', h4, h2 with
            | [], _, h4, h2 => cases h4; cases h2
            | v :: r, _, h4, h2 =>
              by_cases hv : v = ['-', '-']
              · subst hv
                rw [classifyArgs, if_pos rfl] at h4
                cases h4
                cases h2
              obtain ⟨k', toks'', h7, h8, rfl⟩ := classify_inv hv h4
              cases k' with
              | dashes => cases h2
              | unknown => cases h2
              | option => cases h2
              | plain =>
                simp only [List.nil_append, takeAll, takeAction, hk, Option.getD_some] at h2
                simp only [List.map_cons, List.sum_cons] at hN
                obtain ⟨l, h5, h6⟩ := IH (by omega) h8 h2
                exact ⟨_, .value w v d r l hw hs hk ((parseOptional_plain ht hv).1 h7) h5, h6⟩
        | equals d p n x e ne hs =>
          rw [consumeArgs] at h2
          simp only [opening] at h2
          by_cases hk : d.kind = .value
          · rw [cluster_value hk] at h2
            simp only [takeAll, takeAction, hk, Option.getD_some, Option.toList_none, List.append_nil] at h2
            obtain ⟨l, h5, h6⟩ := IH (by omega) h4 h2
            subst e
            exact ⟨_, .equals p x d r l ne hs hk h5, h6⟩
          · rw [cluster.eq_def] at h2
            cases x with
            | nil => simp only [if_neg hk, reduceCtorEq] at h2
            | cons a x => simp [hk] at h2
        | attached d c x e ne he hc =>
          subst e
          have hcc := called_char ht hc
          rw [consumeArgs] at h2
          simp only [opening] at h2
          by_cases hk : d.kind = .value
          · rw [cluster_value hk] at h2
            simp only [takeAll, takeAction, hk, Option.getD_some, Option.toList_none, List.append_nil] at h2
            obtain ⟨l, h5, h6⟩ := IH (by omega) h4 h2
            exact ⟨_, .attached c x d r l hc hk ne he h5, h6⟩
          · cases x with
            | nil => exact absurd rfl ne
            | cons a y =>
              simp only [List.head?_cons, ne_eq, Option.some.injEq] at he
              by_cases ha : a = '-'
              · rw [cluster.eq_def] at h2
                simp [hk, ha] at h2
              · cases hg : (optionStrings t).get? ['-', a] with
                | none =>
                  rw [cluster.eq_def] at h2
                  simp only [hk, if_false, startsWith_iff, ha, or_false, hg] at h2
                  rw [if_neg (by simp [Ne.symm hcc.1])] at h2
                  simp only at h2
                  split at h2
                  · cases h2
                  · have := consume_extra _ _ _ _ _ _ h2
                    simp at this
                | some d' =>
                  have hc' := (get_iff ht).1 hg
                  have hcl := cluster_flag (f := c) ht hk hcc.1 ha hc' y
                  cases hk' : d.kind with
                  | value => exact absurd hk' hk
                  | help =>
                    rw [hcl] at h2
                    cases ho : opening (optionStrings t) (hitOf d' a y) with
                    | error => rw [ho] at h2; cases h2
                    | ok cl =>
                      rw [ho] at h2
                      simp only [Except.map, Cluster.after, takeAll, takeAction, hk', List.cons_append] at h2
                      repeat' split at h2
                      all_goals cases h2
                  | flag =>
                    have h9 : consumeArgs (optionStrings t) ns [] (('-' :: c :: a :: y, .option ⟨d, ['-', c], some ([], a :: y)⟩) :: toks') = .ok (ns', []) := by
                      rw [consumeArgs]
                      exact h2
                    rw [consume_after (s' := '-' :: a :: y) hk' (h := ⟨d, ['-', c], some ([], a :: y)⟩) (h' := hitOf d' a y) hcl] at h9
                    obtain ⟨l, h5, h6⟩ := IH (argv := ('-' :: a :: y) :: r) (by simp only [List.map_cons, List.sum_cons, List.length_cons] at hN ⊢; omega)
                      (classify_cons (by simp [ha]) (parseOptional_hitOf ht hc' y) h4) h9
                    exact ⟨_, .flags c (a :: y) d r l hc hk' (by simp) (by simpa using ha) (by simpa using he) h5, h6⟩

/-- A command line is accepted exactly if it can be read, and then the settings are those it is read as. -/
theorem parseArgs_iff {t : List OptDecl} (ht : Sensible t) (argv : List Str) (ns : Dict ArgVal) :
    parseArgs t argv = .ok ns ↔ ∃ l, Reads t argv l ∧ ns = setAll (argDefaults t) l := by
  unfold parseArgs
  constructor
  · intro h
    cases h1 : classifyArgs (optionStrings t) argv with
    | error => rw [h1] at h; cases h
    | ok toks =>
      rw [h1] at h
      simp only at h
      cases h2 : consumeArgs (optionStrings t) (argDefaults t) [] toks with
      | error => rw [h2] at h; cases h
      | ok p =>
        obtain ⟨ns', ex⟩ := p
        rw [h2] at h
        cases ex with
        | cons => cases h
        | nil => cases h; exact sound ht _ (Nat.le_refl _) h1 h2
  · rintro ⟨l, h, rfl⟩
    obtain ⟨toks, h1, h2⟩ := complete ht h
    rw [h1]
    simp only
    rw [h2]

end Verif
