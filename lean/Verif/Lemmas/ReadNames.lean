import Verif.Lemmas.TqlOk
import Verif.Lemmas.Greedy
/-
Reading quoted names.
-/

namespace Verif
open Spec

theorem name_not_mem {n : Str} (h : ReadableName n) {c : Char} (hc : (isSpace c && c != ' ' || (c!"\"'`[]().,;").contains c) = true) : c ∉ n := by
  intro hm
  have := h.chars c hm
  simp only [Bool.or_eq_true, Bool.and_eq_true, bne_iff_ne, List.contains_iff_mem] at hc
  rcases hc with hc | hc
  · exact hc.2 (this.1 hc.1)
  · exact this.2 hc

theorem inline_not_mem {n : Str} (h : InlineName n) {c : Char} (hc : (isSpace c && c != ' ' || (c!"\"[];").contains c) = true) : c ∉ n := by
  intro hm
  have := h.chars c hm
  simp only [Bool.or_eq_true, Bool.and_eq_true, bne_iff_ne, List.contains_iff_mem] at hc
  rcases hc with hc | hc
  · exact hc.2 (this.1 hc.1)
  · exact this.2 hc

theorem name_trim {n : Str} (h : ReadableName n) : Trim n := by
  constructor
  · intro c hc
    by_contra hs
    rw [Bool.not_eq_false] at hs
    rw [(h.chars c (List.mem_of_head? hc)).1 hs] at hc
    exact h.first hc
  · intro c hc
    by_contra hs
    rw [Bool.not_eq_false] at hs
    rw [(h.chars c (List.mem_of_getLast? hc)).1 hs] at hc
    exact h.last hc

/-- The name between double quotes. -/
def qname (n : Str) : Str := '"' :: (n ++ ['"'])

theorem qname_trim (n : Str) : Trim (qname n) := by
  constructor
  · intro c hc
    simp only [qname, List.head?_cons, Option.some.injEq] at hc
    subst hc; decide
  · intro c hc
    simp only [qname, ← List.cons_append, List.getLast?_append, List.getLast?_singleton, Option.some_or, Option.some.injEq] at hc
    subst hc; decide

theorem clean_core {n : Str} (h : ReadableName n) {s : Str} (hs : s = n ∨ s = qname n) :
    replace c!"]" [] (replace c!"[" [] (replace c!"'" [] (replace c!"\"" [] (replace c!"\t" [] s)))) = n := by
  have hf : ∀ c : Char, c ∉ n → n.filter (· ≠ c) = n := by
    intro c hc
    rw [List.filter_eq_self]
    intro x hx
    simp only [ne_eq, decide_eq_true_eq]
    rintro rfl
    exact hc hx
  have e1 : replace c!"\"" [] (replace c!"\t" [] s) = n := by
    rcases hs with rfl | rfl
    · rw [replace_absent (name_not_mem h (by decide)), replace_absent (name_not_mem h (by decide))]
    · rw [replace_absent (s := qname n), replace_char_nil]
      · rw [qname, List.filter_cons_of_neg (by simp), List.filter_append, hf _ (name_not_mem h (by decide)), List.filter_cons_of_neg (by simp),
          List.filter_nil, List.append_nil]
      · simp only [qname, List.mem_cons, List.mem_append, List.not_mem_nil, or_false, not_or]
        exact ⟨by decide, name_not_mem h (by decide), by decide⟩
  rw [e1, replace_absent (name_not_mem h (by decide)), replace_absent (name_not_mem h (by decide)), replace_absent (name_not_mem h (by decide))]

theorem cleanName_of {n s : Str} (h : ReadableName n) (hs : ∃ a b, (∀ c ∈ a, isSpace c = true) ∧ (∀ c ∈ b, isSpace c = true) ∧
    ((splitC '.' s).getLastD [] = a ++ n ++ b ∨ (splitC '.' s).getLastD [] = a ++ qname n ++ b)) : cleanName s = n := by
  obtain ⟨a, b, ha, hb, e | e⟩ := hs
  · unfold cleanName
    rw [e, strip_pads ha hb (name_trim h)]
    exact clean_core h (.inl rfl)
  · unfold cleanName
    rw [e, strip_pads ha hb (qname_trim n)]
    exact clean_core h (.inr rfl)

theorem cleanName_name {n : Str} (h : ReadableName n) : cleanName n = n :=
  cleanName_of h ⟨[], [], by simp, by simp, .inl (by rw [splitC_plain (name_not_mem h (by decide))]; simp)⟩

theorem dot_qname {n : Str} (h : ReadableName n) : '.' ∉ qname n := by
  simp only [qname, List.mem_cons, List.mem_append, List.not_mem_nil, or_false, not_or]
  exact ⟨by decide, name_not_mem h (by decide), by decide⟩

theorem cleanName_qname {n : Str} (h : ReadableName n) : cleanName (qname n) = n :=
  cleanName_of h ⟨[], [], by simp, by simp, .inr (by rw [splitC_plain (dot_qname h)]; simp)⟩

/-- A schema and a name. -/
def qpath (s n : Str) : Str := qname s ++ '.' :: qname n

theorem splitC_qpath {s n : Str} (hs : ReadableName s) (h : ReadableName n) : (splitC '.' (qpath s n)).getLastD [] = qname n := by
  unfold qpath
  rw [splitC_cons (dot_qname hs), splitC_plain (dot_qname h)]
  rfl

theorem cleanName_qpath {s n : Str} (hs : ReadableName s) (h : ReadableName n) : cleanName (qpath s n) = n :=
  cleanName_of h ⟨[], [], by simp, by simp, .inr (by rw [splitC_qpath hs h]; simp)⟩

theorem extractTableName_qpath {s n : Str} (hs : ReadableName s) (h : ReadableName n) : extractTableName (qpath s n) = some n := by
  unfold extractTableName
  rw [splitC_qpath hs h]
  simp only [qname, extractName]
  rw [splitC_cons (name_not_mem h (by decide))]
  simp only [List.headD_cons, Option.map_some, cleanName_name h]

/-- Lists of quoted names. -/
theorem cleanNames_list {ns : List Str} (hne : ns ≠ []) (h : ∀ n ∈ ns, ReadableName n) : cleanNames (listToString ns true) = ns := by
  cases ns with
  | nil => exact absurd rfl hne
  | cons n ns =>
    rw [listToString_cons]
    have comma : ∀ {n : Str}, ReadableName n → ∀ {p : Str}, (∀ c ∈ p, c = ' ') → ',' ∉ p ++ qname n := by
      intro n h p hp
      simp only [qname, List.mem_cons, List.mem_append, List.not_mem_nil, or_false, not_or]
      exact ⟨fun hc => absurd (hp _ hc) (by decide), by decide, name_not_mem h (by decide), by decide⟩
    have clean : ∀ {n : Str}, ReadableName n → ∀ {p : Str}, (∀ c ∈ p, c = ' ') → cleanName (p ++ qname n) = n := by
      intro n h p hp
      refine cleanName_of h ⟨p, [], fun c hc => by rw [hp c hc]; decide, by simp, .inr ?_⟩
      rw [splitC_plain]
      · simp
      · simp only [List.mem_append, not_or]
        exact ⟨fun hc => absurd (hp _ hc) (by decide), dot_qname h⟩
    have key : ∀ (ns : List Str) (n p : Str), (∀ m ∈ n :: ns, ReadableName m) → (∀ c ∈ p, c = ' ') →
        cleanNames (p ++ '"' :: (n ++ '"' :: moreNames ns)) = n :: ns := by
      intro ns
      induction ns with
      | nil =>
        intro n p h hp
        have e : p ++ '"' :: (n ++ '"' :: moreNames []) = p ++ qname n := by simp [moreNames, qname]
        rw [e]
        unfold cleanNames
        rw [splitC_plain (comma (h n (by simp)) hp)]
        simp [clean (h n (by simp)) hp]
      | cons m ns ih =>
        intro n p h hp
        have e : p ++ '"' :: (n ++ '"' :: moreNames (m :: ns)) = (p ++ qname n) ++ ',' :: ([' '] ++ '"' :: (m ++ '"' :: moreNames ns)) := by
          simp [moreNames, qname]
        have ih := ih m [' '] (fun x hx => h x (List.mem_cons_of_mem _ hx)) (by simp)
        unfold cleanNames at ih ⊢
        rw [e, splitC_cons (comma (h n (by simp)) hp), List.map_cons, clean (h n (by simp)) hp, ih]
    exact key ns n [] h (by simp)

/-- The keys of a primary key field. -/
theorem fieldKeys_list {ns : List Str} (hne : ns ≠ []) (h : ∀ n ∈ ns, ReadablePrimary n) (a b : Str) (ha : '(' ∉ a) :
    fieldKeys (a ++ '(' :: (listToString ns true ++ ')' :: b)) = ns := by
  have hp : ')' ∉ listToString ns true := by
    intro hc
    rcases mem_names hc with hc | ⟨n, hn, hc⟩
    · revert hc; decide
    · exact (h n hn).chars _ (by decide) hc
  unfold fieldKeys
  rw [partitionS_char ha, partitionS_char hp]
  simp only
  rw [replace_char_nil, replace_char_nil]
  cases ns with
  | nil => exact absurd rfl hne
  | cons n ns =>
    rw [listToString_cons]
    clear hp hne
    have hf : ∀ {n : Str}, ReadablePrimary n → (n.filter (· ≠ ' ')).filter (· ≠ '"') = n := by
      intro n hn
      have : ∀ c : Char, c ∉ n → n.filter (· ≠ c) = n := by
        intro c hc
        rw [List.filter_eq_self]
        intro x hx
        simp only [ne_eq, decide_eq_true_eq]
        rintro rfl
        exact hc hx
      rw [this _ (hn.chars _ (by decide)), this _ (inline_not_mem hn.inline (by decide))]
    induction ns generalizing n with
    | nil =>
      have hn := h n (by simp)
      have e := hf hn
      have e2 : ((('"' :: (n ++ '"' :: moreNames [])).filter (· ≠ ' ')).filter (· ≠ '"')) = n := by
        simp only [moreNames]
        rw [List.filter_cons_of_pos (by decide), List.filter_cons_of_neg (by decide), List.filter_append, List.filter_append, e,
          List.filter_cons_of_pos (by decide), List.filter_cons_of_neg (by decide)]
        simp
      rw [e2, splitC_plain (hn.chars _ (by decide))]
    | cons m ns ih =>
      have hn := h n (by simp)
      have e := hf hn
      have ih := ih m (fun x hx => h x (List.mem_cons_of_mem _ hx))
      have e2 : ((('"' :: (n ++ '"' :: moreNames (m :: ns))).filter (· ≠ ' ')).filter (· ≠ '"')) =
          n ++ ',' :: ((('"' :: (m ++ '"' :: moreNames ns)).filter (· ≠ ' ')).filter (· ≠ '"')) := by
        simp only [moreNames, List.cons_append, List.nil_append]
        rw [List.filter_cons_of_pos (by decide), List.filter_cons_of_neg (by decide), List.filter_append, List.filter_append, e,
          List.filter_cons_of_pos (by decide), List.filter_cons_of_neg (by decide), List.filter_cons_of_pos (by decide), List.filter_cons_of_pos (by decide),
          List.filter_cons_of_neg (by decide)]
      rw [e2, splitC_cons (hn.chars _ (by decide)), ih]

/-! ## Phrases that do not occur -/

theorem lacks_lit {w s : Str} (h : hasSub w (lower s) = false) : Lacks w s := by
  rw [hasSub_false_iff] at h
  exact without_eq.2 h

/-- A text that occurs neither in names nor between them. -/
theorem lacks_line {w t : Str} {l : List (Str × Str)} (hb : offName w = true) (hq : '"' ∉ w) (h0 : Lacks w t)
    (h : ∀ p ∈ l, ReadableName p.1 ∧ Lacks w p.2) : Lacks w (quoteLine t l) :=
  quoteLine_without hq h0 (fun p hp => ⟨without_name hb (h p hp).1, (h p hp).2⟩)

theorem lacks_infix {w s u : Str} (h : Lacks w u) (hs : s <:+: u) : Lacks w s := by
  intro h'
  obtain ⟨a, b, rfl⟩ := hs
  apply h
  simp only [List.map_append]
  exact h'.trans ⟨_, _, rfl⟩

theorem not_infix {w s : Str} (hw : lower w = w) (h : Lacks w s) : ¬ lower w <:+: lower s := by rw [hw]; exact without_eq.1 h

end Verif
