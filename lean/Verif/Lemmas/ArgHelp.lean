import Verif.Lemmas.Argparse
/-
When the help is printed.
-/

namespace Verif
open Verif.Spec

/-- A word with something before an equals sign has only one such part without another equals sign. -/
theorem part_unique {p q w : Str} (hp : '=' ∉ p) (hq : '=' ∉ q) (h : p = w ∨ p ++ ['='] <+: w) (h' : q = w ∨ q ++ ['='] <+: w) : p = q := by
  have key : ∀ {p q : Str}, '=' ∉ p → q ++ ['='] <+: p → False := by
    rintro p q hp ⟨y, rfl⟩
    exact hp (by simp)
  rcases h with rfl | ⟨y, rfl⟩
  · rcases h' with h' | h'
    · exact h'.symm
    · exact (key hp h').elim
  · rcases h' with h' | h'
    · exact (hq (by rw [h']; simp)).elim
    · exact (prefix_equals (x := y) hq hp (by simp) h').symm

theorem two_of_filter {t : List OptDecl} (ht : Sensible t) {p : Str} :
    2 ≤ ((optionStrings t).filter (fun q => p <+: q.1)).length ↔ ∃ n d n' d', Called t n d ∧ Called t n' d' ∧ n ≠ n' ∧ p <+: n ∧ p <+: n' := by
  have hnd := (optionStrings_nodup ht).filter (fun q => decide (p <+: q.1))
  have hmem : ∀ n d, (n, d) ∈ (optionStrings t).filter (fun q => p <+: q.1) ↔ Called t n d ∧ p <+: n := by
    intro n d
    simp [mem_optionStrings]
  generalize (optionStrings t).filter (fun q => p <+: q.1) = l at hnd hmem
  constructor
  · intro h
    match l, hnd, hmem, h with
    | (n, d) :: (n', d') :: l, hnd, hmem, _ =>
      have h1 := (hmem n d).1 (by simp)
      have h2 := (hmem n' d').1 (by simp)
      refine ⟨n, d, n', d', h1.1, h2.1, ?_, h1.2, h2.2⟩
      rintro rfl
      have := called_unique ht h1.1 h2.1
      subst this
      simp at hnd
  · rintro ⟨n, d, n', d', h1, h2, hne, h3, h4⟩
    have m1 := (hmem n d).2 ⟨h1, h3⟩
    have m2 := (hmem n' d').2 ⟨h2, h4⟩
    match l, m1, m2 with
    | [a], m1, m2 =>
      simp only [List.mem_singleton] at m1 m2
      rw [← m1] at m2
      exact absurd (congrArg Prod.fst m2).symm hne
    | a :: b :: l, _, _ => simp

/-- A word is refused by itself exactly if it is ambiguous. -/
theorem parseOptional_ambiguous {t : List OptDecl} (ht : Sensible t) {w : Str} : (∃ e, parseOptional (optionStrings t) w = .error e) ↔ Ambiguous t w := by
  by_cases h1 : w.head? ≠ some '-'
  · unfold parseOptional
    rw [if_pos h1]
    constructor
    · rintro ⟨_, h⟩; cases h
    · rintro ⟨h, -⟩; exact absurd (dashes_head h (List.prefix_refl _)) h1
  have h1 := Decidable.not_not.1 h1
  unfold parseOptional
  rw [if_neg (by simp [h1])]
  cases h2 : (optionStrings t).get? w with
  | some d =>
    simp only [reduceCtorEq, exists_false, false_iff]
    rintro ⟨-, p, hp, hw, hn, -⟩
    have hc := (get_iff ht).1 h2
    rcases hw with rfl | ⟨y, rfl⟩
    · exact hn d hc
    · exact no_equals ht hc (by simp)
  | none =>
    simp only
    by_cases h3 : w.length = 1
    · rw [if_pos h3]
      simp only [reduceCtorEq, exists_false, false_iff]
      rintro ⟨h, -⟩
      exact dashes_length h h3
    rw [if_neg h3]
    cases h4 : beforeEquals (optionStrings t) w with
    | some b =>
      simp only [reduceCtorEq, exists_false, false_iff]
      rintro ⟨-, p, hp, hw, hn, -⟩
      unfold beforeEquals at h4
      cases h5 : cutAt '=' w with
      | none => rw [h5] at h4; cases h4
      | some q =>
        obtain ⟨q, x⟩ := q
        rw [h5] at h4
        simp only [Option.map_eq_some_iff] at h4
        obtain ⟨d, h6, -⟩ := h4
        obtain ⟨rfl, h7⟩ := cutAt_some.1 h5
        have := part_unique hp h7 hw (.inr ⟨x, by simp⟩)
        subst this
        exact hn d ((get_iff ht).1 h6)
    | none =>
      simp only
      refine Iff.trans (b := 2 ≤ (optionTuples (optionStrings t) w).length) ?_ ?_
      · generalize optionTuples (optionStrings t) w = l
        match l with
        | [] =>
          simp only [List.length_nil]
          constructor
          · rintro ⟨e, h⟩; split at h <;> cases h
          · intro h; omega
        | [a] => simp
        | a :: b :: l => simp
      by_cases hd : ['-', '-'] <+: w
      · cases h5 : cutAt '=' w with
        | none =>
          have hp := cutAt_none.1 h5
          rw [tuples_long hd hp, List.length_map, two_of_filter ht]
          constructor
          · intro h; exact ⟨hd, w, hp, .inl rfl, (get_none ht).1 h2, h⟩
          · rintro ⟨-, p, hp', hw, -, h⟩
            have := part_unique hp' hp hw (.inl rfl)
            subst this
            exact h
        | some q =>
          obtain ⟨q, x⟩ := q
          obtain ⟨rfl, h7⟩ := cutAt_some.1 h5
          have hq : ['-', '-'] <+: q := by
            match q with
            | [] => simp at hd
            | [a] => simp [List.cons_prefix_cons] at hd
            | a :: b :: p => simp only [List.cons_append, List.cons_prefix_cons] at hd; obtain ⟨rfl, rfl, -⟩ := hd; simp
          rw [tuples_equals hq h7, List.length_map, two_of_filter ht]
          constructor
          · intro h
            refine ⟨hd, q, h7, .inr ⟨x, by simp⟩, ?_, h⟩
            unfold beforeEquals at h4
            rw [h5] at h4
            simp only [Option.map_eq_none_iff] at h4
            exact (get_none ht).1 h4
          · rintro ⟨-, p, hp', hw, -, h⟩
            have := part_unique hp' h7 hw (.inr ⟨x, by simp⟩)
            subst this
            exact h
      · constructor
        · intro h
          match w with
          | [] => simp at h1
          | [a] => simp at h3
          | a :: c :: x =>
            simp only [List.head?_cons, Option.some.injEq] at h1
            subst h1
            have hc : c ≠ '-' := by rintro rfl; simp at hd
            rw [tuples_short ht hc ((get_none ht).1 h2), List.length_map] at h
            exfalso
            cases h6 : (optionStrings t).filter (fun q => q.1 = ['-', c]) with
            | nil => rw [h6] at h; simp at h
            | cons q l =>
              have hq : q ∈ (optionStrings t).filter (fun q => q.1 = ['-', c]) := by rw [h6]; simp
              obtain ⟨n, d⟩ := q
              simp only [List.mem_filter, decide_eq_true_eq] at hq
              obtain ⟨h7, rfl⟩ := hq
              rw [short_only ht (mem_optionStrings.1 h7)] at h
              simp at h
        · rintro ⟨h, -⟩; exact absurd h hd

theorem classify_clear {t : List OptDecl} (ht : Sensible t) (argv : List Str) : (∃ l, classifyArgs (optionStrings t) argv = .ok l) ↔ Clear t argv := by
  induction argv with
  | nil => exact ⟨fun _ a w b h => by simp at h, fun _ => ⟨[], rfl⟩⟩
  | cons s r ih =>
    by_cases hs : s = ['-', '-']
    · refine ⟨fun _ a w b h ha hw => ?_, fun _ => ⟨_, by rw [classifyArgs, if_pos hs]⟩⟩
      cases a with
      | nil => simp only [List.nil_append, List.cons.injEq] at h; exact absurd (h.1.symm.trans hs) hw
      | cons c a => simp only [List.cons_append, List.cons.injEq] at h; exact absurd (by rw [← h.1, hs]; simp) ha
    have hcl : Clear t (s :: r) ↔ ¬ Ambiguous t s ∧ Clear t r := by
      constructor
      · intro h
        refine ⟨h [] s r rfl (by simp) hs, fun a w b e ha hw => h (s :: a) w b (by rw [e]; rfl) ?_ hw⟩
        simp only [List.mem_cons, not_or]
        exact ⟨Ne.symm hs, ha⟩
      · rintro ⟨h1, h2⟩ a w b e ha hw
        cases a with
        | nil => simp only [List.nil_append, List.cons.injEq] at e; rw [← e.1]; exact h1
        | cons c a =>
          simp only [List.cons_append, List.cons.injEq] at e
          simp only [List.mem_cons, not_or] at ha
          exact h2 a w b e.2 ha.2 hw
    rw [hcl, ← ih, ← parseOptional_ambiguous ht, classifyArgs, if_neg hs]
    cases h1 : parseOptional (optionStrings t) s with
    | error e => simp
    | ok k =>
      simp only [reduceCtorEq, exists_false, not_false_eq_true, true_and]
      cases h2 : classifyArgs (optionStrings t) r with
      | error e => simp
      | ok l => simp

/-- A word without an option in it is passed over. -/
theorem parseOptional_stray {t : List OptDecl} (ht : Sensible t) {w : Str} (ne : w ≠ ['-', '-']) :
    (parseOptional (optionStrings t) w = .ok .plain ∨ parseOptional (optionStrings t) w = .ok .unknown) ↔ (w.head? ≠ some '-' ∨ NoOption t w) := by
  constructor
  · rintro (h | h)
    · rcases (parseOptional_plain ht ne).1 h with h | rfl | h
      · exact .inl h
      · refine .inr (fun n d hc => ?_)
        have hl := named_length ht hc
        refine ⟨?_, ?_, ?_, ?_⟩
        · rintro rfl; simp at hl
        · intro h; have := h.length_le; simp only [List.length_append, List.length_cons, List.length_nil] at this; omega
        · intro _ h; have := h.length_le; simp only [List.length_cons, List.length_nil] at this; omega
        · intro h; have := h.length_le; simp at this
      · exact .inr h.2.1
    · right
      unfold parseOptional at h
      by_cases h1 : w.head? ≠ some '-'
      · rw [if_pos h1] at h; cases h
      rw [if_neg h1] at h
      have h1 := Decidable.not_not.1 h1
      cases h2 : (optionStrings t).get? w with
      | some d => rw [h2] at h; cases h
      | none =>
        rw [h2] at h
        simp only at h
        by_cases h3 : w.length = 1
        · rw [if_pos h3] at h; cases h
        rw [if_neg h3] at h
        cases h4 : beforeEquals (optionStrings t) w with
        | some b => rw [h4] at h; cases h
        | none =>
          rw [h4] at h
          simp only at h
          split at h
          · cases h
          · next h5 => exact (nothing_iff ht h1 h3).1 ⟨h2, h4, h5⟩
          · cases h
  · intro h
    by_cases h1 : w.head? ≠ some '-'
    · left; unfold parseOptional; rw [if_pos h1]
    have h := h.resolve_left h1
    have h1 := Decidable.not_not.1 h1
    by_cases h3 : w.length = 1
    · left
      refine (parseOptional_plain ht ne).2 (.inr (.inl ?_))
      match w with
      | [a] => simp only [List.head?_cons, Option.some.injEq] at h1; rw [h1]
    obtain ⟨h2, h4, h5⟩ := (nothing_iff ht h1 h3).2 h
    unfold parseOptional
    rw [if_neg (by simp [h1]), h2]
    simp only
    rw [if_neg h3, h4]
    simp only
    rw [h5]
    simp only
    split
    · exact .inl rfl
    · exact .inr rfl

/-- A dash and a character that is no option, with anything behind it. -/
theorem noOption_short {t : List OptDecl} (ht : Sensible t) {c : Char} {y : Str} (hc : c ≠ '-') (h : ∀ d, ¬ Called t ['-', c] d) : NoOption t ('-' :: c :: y) := by
  have key : ∀ n d, Called t n d → ¬ n <+: '-' :: c :: y := by
    intro n d hn hp
    have hl := named_length ht hn
    match n, hp with
    | a :: b :: n, hp =>
      simp only [List.cons_prefix_cons] at hp
      obtain ⟨rfl, rfl, -⟩ := hp
      have := named_short ht hn hc
      subst this
      exact h d hn
  intro n d hn
  refine ⟨?_, fun hp => key n d hn ((List.prefix_append _ _).trans hp), fun _ => key n d hn, ?_⟩
  · rintro rfl; exact key _ d hn (List.prefix_refl _)
  · intro hp; simp only [List.cons_prefix_cons, true_and] at hp; exact absurd hp.1.symm hc

theorem plain_no_help (m : Dict OptDecl) (r : List Str) (ns : Dict ArgVal) (ex : List Str) : consumeArgs m ns ex (r.map (fun x => (x, .plain))) ≠ .error .help := by
  induction r generalizing ex with
  | nil => simp [consumeArgs]
  | cons a r ih => rw [List.map_cons, consumeArgs]; exact ih _

/-- What stands behind `-h` in its word is all right for the scanner. -/
def Scanned (m : Dict OptDecl) (d : OptDecl) (f : Char) (x : Str) (l : List (Str × ArgTok)) : Prop :=
  ∃ cl, cluster m d ['-', f] [] x = .ok cl ∧ ∀ d', cl.pending = some d' → d'.kind = .value → ∃ v l', l = (v, .plain) :: l'

theorem scanned_next {t : List OptDecl} (ht : Sensible t) {d d' : OptDecl} {f c a : Char} {y : Str} {l : List (Str × ArgTok)} (hk : d.kind ≠ .value) (hf : f ≠ '-') (hc : Called t ['-', c] d')
    (ha : a ≠ '=') : Scanned (optionStrings t) d f (c :: a :: y) l ↔ Scanned (optionStrings t) d' c (a :: y) l := by
  have h := cluster_flag (f := f) (d := d) ht hk hf (called_char ht hc).1 hc (a :: y)
  simp only [opening, hitOf, attach, if_neg ha] at h
  unfold Scanned
  rw [h]
  cases cluster (optionStrings t) d' ['-', c] [] (a :: y) with
  | error e => simp [Except.map]
  | ok cl => simp [Except.map, Cluster.after]

theorem plain_iff {t : List OptDecl} (ht : Sensible t) {r : List Str} {l : List (Str × ArgTok)} (h : classifyArgs (optionStrings t) r = .ok l) :
    (∃ v l', l = (v, .plain) :: l') ↔ ∃ v r', r = v :: r' ∧ Argument t v := by
  cases r with
  | nil => cases h; simp
  | cons v r =>
    by_cases hv : v = ['-', '-']
    · subst hv
      rw [classifyArgs, if_pos rfl] at h
      cases h
      constructor
      · rintro ⟨_, _, h⟩; cases h
      · rintro ⟨v, r', h, ha⟩
        simp only [List.cons.injEq] at h
        rw [← h.1] at ha
        exact absurd rfl (argument_ne ha)
    · obtain ⟨k, l', h1, h2, rfl⟩ := classify_inv hv h
      constructor
      · rintro ⟨v', l'', e⟩
        simp only [List.cons.injEq, Prod.mk.injEq] at e
        obtain ⟨⟨rfl, rfl⟩, -⟩ := e
        exact ⟨v, r, rfl, (parseOptional_plain ht hv).1 h1⟩
      · rintro ⟨v', r', e, ha⟩
        simp only [List.cons.injEq] at e
        obtain ⟨rfl, rfl⟩ := e
        rw [(parseOptional_plain ht hv).2 ha] at h1
        cases h1
        exact ⟨_, _, rfl⟩

theorem scanned_iff {t : List OptDecl} (ht : Sensible t) {r : List Str} {l : List (Str × ArgTok)} (hl : classifyArgs (optionStrings t) r = .ok l) {x : Str} :
    ∀ {d : OptDecl} {f : Char}, d.kind ≠ .value → f ≠ '-' → x ≠ [] → (Scanned (optionStrings t) d f x l ↔ Fits t x r) := by
  induction x with
  | nil => intro d f _ _ h; exact absurd rfl h
  | cons c x ih =>
    intro d f hk hf _
    by_cases hc : c = '-'
    · constructor
      · rintro ⟨cl, h, -⟩
        rw [cluster.eq_def] at h
        simp [hk, hc] at h
      · intro h
        exfalso
        cases h with
        | unknown _ _ _ h1 => exact h1 hc
        | last _ _ _ h1 => exact (called_char ht h1).1 hc
        | value _ _ _ _ h1 => exact (called_char ht h1).1 hc
        | attached _ _ _ _ h1 => exact (called_char ht h1).1 hc
        | more _ _ _ _ _ h1 => exact (called_char ht h1).1 hc
    cases hg : (optionStrings t).get? ['-', c] with
    | none =>
      refine iff_of_true ?_ (.unknown c x r hc ((get_none ht).1 hg))
      refine ⟨⟨[(d, none)], none, some ('-' :: c :: x)⟩, ?_, fun d' h => by cases h⟩
      rw [cluster.eq_def]
      simp only [hk, if_false, startsWith_iff, hc, or_false, hg]
      rw [if_neg (by simp [Ne.symm hf])]
    | some d' =>
      have hc' := (get_iff ht).1 hg
      have hcl := cluster_flag (f := f) (d := d) ht hk hf hc hc' x
      cases x with
      | nil =>
        simp only [opening, hitOf, attach] at hcl
        unfold Scanned
        rw [hcl]
        simp only [Except.map, Cluster.after, Except.ok.injEq, exists_eq_left', Option.some.injEq, forall_eq']
        by_cases hk' : d'.kind = .value
        · simp only [hk', true_implies]
          rw [plain_iff ht hl]
          constructor
          · rintro ⟨v, r', rfl, ha⟩; exact .value c v d' r' hc' hk' ha
          · intro h
            generalize hz : [c] = z at h
            cases h with
            | unknown _ _ _ _ h1 => cases hz; exact absurd hc' (h1 d')
            | last _ d2 _ h1 k => cases hz; rw [called_unique ht h1 hc'] at k; exact absurd hk' k
            | value _ v _ r' h1 k ha => exact ⟨v, r', rfl, ha⟩
            | attached _ _ _ _ h1 k ne => cases hz; exact absurd rfl ne
            | more => cases hz
        · exact iff_of_true (fun h => absurd h hk') (.last c d' r hc' hk')
      | cons a y =>
        by_cases hk' : d'.kind = .value
        · refine iff_of_true ?_ (.attached c (a :: y) d' r hc' hk' (by simp))
          have ho : opening (optionStrings t) (hitOf d' c (a :: y)) = .ok ⟨[(d', some (if a = '=' then y else a :: y))], none, none⟩ := by
            by_cases ha : a = '='
            · simp [opening, hitOf, attach, ha, cluster_value hk']
            · simp [opening, hitOf, attach, ha, cluster_value hk']
          rw [ho] at hcl
          exact ⟨_, hcl, fun d h => by cases h⟩
        by_cases ha : a = '='
        · refine iff_of_false ?_ ?_
          · rintro ⟨cl, h, -⟩
            rw [hcl] at h
            simp only [opening, hitOf, attach, if_pos ha] at h
            rw [cluster.eq_def] at h
            cases y with
            | nil => simp [hk', Except.map] at h
            | cons b y => simp [hk', Except.map] at h
          · intro h
            generalize hz : c :: a :: y = z at h
            cases h with
            | unknown _ _ _ _ h1 => cases hz; exact absurd hc' (h1 d')
            | last => cases hz
            | value => cases hz
            | attached _ _ _ _ h1 k ne => cases hz; rw [called_unique ht h1 hc'] at k; exact hk' k
            | more _ _ _ _ _ _ _ ne => cases hz; exact ne ha
        · rw [scanned_next ht hk hf hc' ha, ih hk' hc (by simp)]
          constructor
          · exact fun h => .more c a y d' r hc' hk' ha h
          · intro h
            generalize hz : c :: a :: y = z at h
            cases h with
            | unknown _ _ _ _ h1 => cases hz; exact absurd hc' (h1 d')
            | last => cases hz
            | value => cases hz
            | attached _ _ _ _ h1 k ne => cases hz; rw [called_unique ht h1 hc'] at k; exact absurd k hk'
            | more _ _ _ _ _ _ _ _ rest => cases hz; exact rest

theorem map_ok {α β ε : Type} {f : α → β} {z : Except ε α} {b : β} (h : z.map f = .ok b) : ∃ a, f a = b := by
  cases z with
  | error => cases h
  | ok a => cases h; exact ⟨a, rfl⟩

theorem cluster_head {m : Dict OptDecl} {d : OptDecl} {n : Str} {x : Str} {cl : Cluster} (hk : d.kind ≠ .value) (h : cluster m d n [] x = .ok cl) : ∃ l, cl.actions = (d, none) :: l := by
  rw [cluster.eq_def] at h
  split at h
  · rw [if_neg hk] at h; cases h
  · rw [if_neg hk] at h
    split at h
    · cases h
    · split at h
      · cases h; exact ⟨_, rfl⟩
      · split at h
        · cases h; exact ⟨_, rfl⟩
        · split at h
          all_goals
            obtain ⟨cl', rfl⟩ := map_ok h
            exact ⟨_, rfl⟩

/-- A word that begins with `-h` and goes on. -/
theorem consume_help {m : Dict OptDecl} {d : OptDecl} {f : Char} {x w : Str} {l : List (Str × ArgTok)} (hk : d.kind = .help) (ns : Dict ArgVal) (ex : List Str) :
    consumeArgs m ns ex ((w, .option ⟨d, ['-', f], some ([], x)⟩) :: l) = .error .help ↔ Scanned m d f x l := by
  have hk' : d.kind ≠ .value := by rw [hk]; decide
  rw [consumeArgs.eq_def]
  simp only [opening]
  unfold Scanned
  cases h : cluster m d ['-', f] [] x with
  | error e => simp
  | ok cl =>
    obtain ⟨acts, ha⟩ := cluster_head hk' h
    have ht : ∀ z, takeAll ns ((d, none) :: z) = .error .help := by intro z; simp [takeAll, takeAction, hk]
    simp only [Except.ok.injEq, exists_eq_left']
    cases hp : cl.pending with
    | none => simp [ha, ht]
    | some d' =>
      simp only [Option.some.injEq, forall_eq']
      by_cases hv : d'.kind = .value
      · simp only [hv, if_true, true_implies]
        split
        · next v r' => simp [ha, ht]
        · next hn => exact iff_of_false (by simp) (by rintro ⟨v, l', rfl⟩; exact hn v l' rfl)
      · simp [hv, ha, ht]

theorem help_complete {t : List OptDecl} (ht : Sensible t) {argv : List Str} (h : AsksHelp t argv) :
    ∀ {toks : List (Str × ArgTok)}, classifyArgs (optionStrings t) argv = .ok toks → ∀ ns ex, consumeArgs (optionStrings t) ns ex toks = .error .help := by
  induction h with
  | here w d r ne h k =>
    intro toks e ns ex
    obtain ⟨n, h3⟩ := parseOptional_alone ht h
    obtain ⟨k', l, h1, h2, rfl⟩ := classify_inv ne e
    rw [h3] at h1
    cases h1
    rw [consumeArgs.eq_def]
    simp [opening, k, takeAll, takeAction]
  | first f x d r h k he rest =>
    intro toks e ns ex
    have hx : x ≠ [] := by cases rest <;> simp
    have hf := called_char ht h
    obtain ⟨k', l, h1, h2, rfl⟩ := classify_inv (by simp [hf.1]) e
    rw [parseOptional_attached ht h hx he] at h1
    cases h1
    exact (consume_help k ns ex).2 ((scanned_iff ht h2 (by rw [k]; decide) hf.1 hx).2 rest)
  | stray w r ne h rest ih =>
    intro toks e ns ex
    obtain ⟨k', l, h1, h2, rfl⟩ := classify_inv ne e
    rcases (parseOptional_stray ht ne).2 h with h3 | h3 <;> rw [h3] at h1 <;> cases h1 <;> rw [consumeArgs] <;> exact ih h2 _ _
  | flag w d r ne h k rest ih =>
    intro toks e ns ex
    obtain ⟨n, h3⟩ := parseOptional_alone ht h
    obtain ⟨k', l, h1, h2, rfl⟩ := classify_inv ne e
    rw [h3] at h1
    cases h1
    rw [consumeArgs]
    simp only [opening, k, reduceCtorEq, if_false, List.nil_append, takeAll, takeAction]
    exact ih h2 _ _
  | value w v d r ne h k arg rest ih =>
    intro toks e ns ex
    obtain ⟨n, h3⟩ := parseOptional_alone ht h
    obtain ⟨k', l, h1, h2, rfl⟩ := classify_inv ne e
    obtain ⟨k'', l', h4, h5, rfl⟩ := classify_inv (argument_ne arg) h2
    rw [h3] at h1
    cases h1
    rw [(parseOptional_plain ht (argument_ne arg)).2 arg] at h4
    cases h4
    rw [consumeArgs.eq_def]
    simp only [opening, k, if_true, List.nil_append, takeAll, takeAction, Option.getD_some]
    exact ih h5 _ _
  | equals w v d r ne h k rest ih =>
    intro toks e ns ex
    obtain ⟨n, h3⟩ := parseOptional_equals (x := v) ht h ne
    have hne : w ++ '=' :: v ≠ ['-', '-'] := by
      intro e
      have : '=' ∈ ['-', '-'] := by rw [← e]; simp
      simp at this
    obtain ⟨k', l, h1, h2, rfl⟩ := classify_inv hne e
    rw [h3] at h1
    cases h1
    rw [consumeArgs]
    simp only [opening, cluster_value k, takeAll, takeAction, k, Option.getD_some, Option.toList_none, List.append_nil]
    exact ih h2 _ _
  | attached o v d r h k ne he rest ih =>
    intro toks e ns ex
    have h3 := parseOptional_attached ht h ne he
    have hne : '-' :: o :: v ≠ ['-', '-'] := by
      intro e
      simp only [List.cons.injEq] at e
      exact ne e.2.2
    obtain ⟨k', l, h1, h2, rfl⟩ := classify_inv hne e
    rw [h3] at h1
    cases h1
    rw [consumeArgs]
    simp only [opening, cluster_value k, takeAll, takeAction, k, Option.getD_some, Option.toList_none, List.append_nil]
    exact ih h2 _ _
  | flags f x d r h k ne hd he rest ih =>
    intro toks e ns ex
    have hf := called_char ht h
    obtain ⟨k', l, h1, h2, rfl⟩ := classify_inv (by simp [hf.1]) e
    rw [parseOptional_attached ht h ne he] at h1
    cases h1
    cases x with
    | nil => exact absurd rfl ne
    | cons c y =>
      simp only [List.head?_cons, ne_eq, Option.some.injEq] at hd he
      cases hg : (optionStrings t).get? ['-', c] with
      | some d' =>
        have hc := (get_iff ht).1 hg
        rw [consume_after k (h' := hitOf d' c y) (s' := '-' :: c :: y)]
        · exact ih (classify_cons (by simp [hd]) (parseOptional_hitOf ht hc y) h2) _ _
        · exact cluster_flag ht (by rw [k]; decide) hf.1 hd hc y
      | none =>
        have hw := (parseOptional_stray (t := t) (w := '-' :: c :: y) ht (by simp [hd])).2 (.inr (noOption_short ht hd ((get_none ht).1 hg)))
        have hrest : consumeArgs (optionStrings t) (ns.set d.dest (.flag true)) (ex ++ ['-' :: c :: y]) l = .error .help := by
          rcases hw with hw | hw
          · have := ih (classify_cons (by simp [hd]) hw h2) (ns.set d.dest (.flag true)) ex
            rwa [consumeArgs] at this
          · have := ih (classify_cons (by simp [hd]) hw h2) (ns.set d.dest (.flag true)) ex
            rwa [consumeArgs] at this
        have hcl : cluster (optionStrings t) d ['-', f] [] (c :: y) = .ok ⟨[(d, none)], none, some ('-' :: c :: y)⟩ := by
          rw [cluster.eq_def]
          simp only [k, reduceCtorEq, if_false, startsWith_iff, hd, or_false, hg]
          rw [if_neg (by simp [Ne.symm hf.1])]
        rw [consumeArgs]
        simp only [opening, hcl, takeAll, takeAction, k, Option.toList_some]
        exact hrest

theorem help_sound {t : List OptDecl} (ht : Sensible t) (N : Nat) : ∀ {argv : List Str} {toks : List (Str × ArgTok)} {ns : Dict ArgVal} {ex : List Str},
    (argv.map (fun s => s.length + 1)).sum ≤ N → classifyArgs (optionStrings t) argv = .ok toks → consumeArgs (optionStrings t) ns ex toks = .error .help → AsksHelp t argv := by
  induction N with
  | zero =>
    intro argv toks ns ex hN h1 h2
    cases argv with
    | nil => cases h1; cases h2
    | cons w r => simp at hN
  | succ N IH =>
    intro argv toks ns ex hN h1 h2
    cases argv with
    | nil => cases h1; cases h2
    | cons w r =>
      simp only [List.map_cons, List.sum_cons] at hN
      by_cases hw : w = ['-', '-']
      · subst hw
        rw [classifyArgs, if_pos rfl] at h1
        cases h1
        rw [consumeArgs] at h2
        exact absurd h2 (plain_no_help _ _ _ _)
      obtain ⟨k, toks', h3, h4, rfl⟩ := classify_inv hw h1
      cases k with
      | dashes =>
        exfalso
        unfold parseOptional at h3
        repeat' split at h3
        all_goals cases h3
      | plain => rw [consumeArgs] at h2; exact .stray w r hw ((parseOptional_stray ht hw).1 (.inl h3)) (IH (by omega) h4 h2)
      | unknown => rw [consumeArgs] at h2; exact .stray w r hw ((parseOptional_stray ht hw).1 (.inr h3)) (IH (by omega) h4 h2)
      | option h =>
        have hf := parseOptional_found ht h3
        cases hf with
        | alone d n hs =>
          rw [consumeArgs.eq_def] at h2
          simp only [opening] at h2
          cases hk : d.kind with
          | help => exact .here w d r hw hs hk
          | flag =>
            simp only [hk, reduceCtorEq, if_false, List.nil_append, takeAll, takeAction] at h2
            exact .flag w d r hw hs hk (IH (by omega) h4 h2)
          | value =>
            simp only [hk, if_true] at h2
            match r, toks', h4, h2 with
            | [], _, h4, h2 => cases h4; cases h2
            | v :: r, _, h4, h2 =>
              by_cases hv : v = ['-', '-']
              · subst hv
                rw [classifyArgs, if_pos rfl] at h4
                cases h4
                cases h2
              obtain ⟨k', toks'', h7, h8, rfl⟩ := classify_inv hv h4
              cases k' with
              | dashes => cases h2
              | unknown => cases h2
              | option => cases h2
              | plain =>
                simp only [List.nil_append, takeAll, takeAction, hk, Option.getD_some] at h2
                simp only [List.map_cons, List.sum_cons] at hN
                exact .value w v d r hw hs hk ((parseOptional_plain ht hv).1 h7) (IH (by omega) h8 h2)
        | equals d p n x e ne hs =>
          rw [consumeArgs] at h2
          simp only [opening] at h2
          by_cases hk : d.kind = .value
          · rw [cluster_value hk] at h2
            simp only [takeAll, takeAction, hk, Option.getD_some, Option.toList_none, List.append_nil] at h2
            subst e
            exact .equals p x d r ne hs hk (IH (by omega) h4 h2)
          · rw [cluster.eq_def] at h2
            cases x with
            | nil => simp only [if_neg hk] at h2; cases h2
            | cons a x => simp [hk] at h2
        | attached d c x e ne he hc =>
          subst e
          have hcc := called_char ht hc
          cases hk : d.kind with
          | help => exact .first c x d r hc hk he ((scanned_iff ht h4 (by rw [hk]; decide) hcc.1 ne).1 ((consume_help hk ns ex).1 h2))
          | value =>
            rw [consumeArgs] at h2
            simp only [opening] at h2
            rw [cluster_value hk] at h2
            simp only [takeAll, takeAction, hk, Option.getD_some, Option.toList_none, List.append_nil] at h2
            exact .attached c x d r hc hk ne he (IH (by omega) h4 h2)
          | flag =>
            have hkv : d.kind ≠ .value := by rw [hk]; decide
            cases x with
            | nil => exact absurd rfl ne
            | cons a y =>
              simp only [List.head?_cons, ne_eq, Option.some.injEq] at he
              by_cases ha : a = '-'
              · rw [consumeArgs] at h2
                simp only [opening] at h2
                rw [cluster.eq_def] at h2
                simp [hkv, ha] at h2
              refine .flags c (a :: y) d r hc hk (by simp) (by simpa using ha) (by simpa using he) ?_
              have hlen : ((('-' :: a :: y) :: r).map (fun s : Str => s.length + 1)).sum ≤ N := by
                simp only [List.map_cons, List.sum_cons, List.length_cons] at hN ⊢; omega
              cases hg : (optionStrings t).get? ['-', a] with
              | none =>
                have hno := noOption_short (y := y) ht ha ((get_none ht).1 hg)
                refine .stray _ r (by simp [ha]) (.inr hno) ?_
                have hcl : cluster (optionStrings t) d ['-', c] [] (a :: y) = .ok ⟨[(d, none)], none, some ('-' :: a :: y)⟩ := by
                  rw [cluster.eq_def]
                  simp only [hkv, if_false, startsWith_iff, ha, or_false, hg]
                  rw [if_neg (by simp [Ne.symm hcc.1])]
                rw [consumeArgs] at h2
                simp only [opening, hcl, takeAll, takeAction, hk] at h2
                exact IH (by simp only [List.map_cons, List.sum_cons] at hlen; omega) h4 h2
              | some d' =>
                have hc' := (get_iff ht).1 hg
                rw [consume_after (s' := '-' :: a :: y) hk (h := ⟨d, ['-', c], some ([], a :: y)⟩) (h' := hitOf d' a y) (cluster_flag (f := c) ht hkv hcc.1 ha hc' y)] at h2
                exact IH (argv := ('-' :: a :: y) :: r) hlen (classify_cons (by simp [ha]) (parseOptional_hitOf ht hc' y) h4) h2

/-- The help is printed exactly if the command line asks for it and no word is ambiguous. -/
theorem parseArgs_help {t : List OptDecl} (ht : Sensible t) (argv : List Str) : parseArgs t argv = .error .help ↔ Clear t argv ∧ AsksHelp t argv := by
  rw [← classify_clear ht]
  unfold parseArgs
  cases h1 : classifyArgs (optionStrings t) argv with
  | error e => simp
  | ok toks =>
    simp only [Except.ok.injEq, exists_eq', true_and]
    constructor
    · intro h
      refine help_sound ht _ (Nat.le_refl _) h1 (ns := argDefaults t) (ex := []) ?_
      cases h2 : consumeArgs (optionStrings t) (argDefaults t) [] toks with
      | error e => rw [h2] at h; simpa using h
      | ok q =>
        obtain ⟨ns, ex⟩ := q
        rw [h2] at h
        cases ex <;> cases h
    · intro h
      rw [help_complete ht h h1]

end Verif
