import Verif.Lemmas.Fields
import Verif.Props.Types
/-
Reading a CREATE TABLE.
-/

namespace Verif
open Spec

/-- Brackets read as double quotes. -/
def ub (c : Char) : Char := if c = '[' ∨ c = ']' then '"' else c

theorem unbracket (s : Str) : replace c!"]" c!"\"" (replace c!"[" c!"\"" s) = s.map ub := by
  rw [replace_char, replace_char]
  induction s with
  | nil => rfl
  | cons x t ih =>
    simp only [List.flatMap_cons, List.flatMap_append, ih, List.map_cons]
    unfold ub
    by_cases h1 : x = '['
    · subst h1; rfl
    · by_cases h2 : x = ']'
      · subst h2; rfl
      · simp [h1, h2]

theorem map_ub {s : Str} (h : ∀ c ∈ s, c ≠ '[' ∧ c ≠ ']') : s.map ub = s := by
  conv => rhs; rw [← List.map_id s]
  apply List.map_congr_left
  intro c hc
  simp [ub, (h c hc).1, (h c hc).2]

theorem map_ub_space {s : Str} (h : ∀ c ∈ s, isSpace c = true) : s.map ub = s :=
  map_ub (fun c hc => ⟨by rintro rfl; exact absurd (h _ hc) (by decide), by rintro rfl; exact absurd (h _ hc) (by decide)⟩)

theorem map_ub_list {fs : List Str} {s : Str} (h : FieldList fs s) : FieldList (fs.map (·.map ub)) (s.map ub) := by
  induction h with
  | one ha hb =>
    simp only [List.map_cons, List.map_nil, List.map_append, map_ub_space ha, map_ub_space hb]
    exact .one ha hb
  | cons ha hb _ ih =>
    simp only [List.map_cons, List.map_append, map_ub_space ha, map_ub_space hb]
    exact .cons ha hb ih

/-- The quote after brackets are replaced. -/
def ubQuote : Quote → Quote
  | .bracket => .double
  | q => q

theorem map_ub_wrap {q : Quote} {n : Str} (h : ∀ c ∈ n, c ≠ '[' ∧ c ≠ ']') : (q.wrap n).map ub = (ubQuote q).wrap n := by
  cases q <;> simp only [Quote.wrap, ubQuote, List.map_append, map_ub h] <;> rfl

theorem ubQuote_fits {q : Quote} {n : Str} (h : q.fits n) : (ubQuote q).fits n := by cases q <;> exact h

theorem small_lower (s : Str) : s.map small = lower s := (Props.lower_eq s).symm

/-! ## The name -/

theorem getTableName_eq {k path w rest m p : Str} (hk : CreateHead k) (hp : '(' ∉ k ++ path ++ w) (hw : ∀ c ∈ w, isSpace c = true)
    (hpath : path = p ++ m) (hpre : p = [] ∨ ∃ p', p = p' ++ ['.']) (hdot : '.' ∉ m) (hl : ∃ c, m.getLast? = some c ∧ isSpace c = false)
    (hr : ¬ c!"or replace" <:+: lower path) : getTableName (k ++ path ++ w ++ '(' :: rest) = stripQuotes m := by
  obtain ⟨c, hc, hcs⟩ := hl
  obtain ⟨m', rfl⟩ : ∃ m', m = m' ++ [c] := by
    rcases List.eq_nil_or_concat m with rfl | ⟨m', x, rfl⟩
    · simp at hc
    · simp only [List.concat_eq_append, List.getLast?_append, List.getLast?_singleton, Option.some_or, Option.some.injEq] at hc
      exact ⟨m', by simp [hc]⟩
  have e1 : pySlice (k ++ path ++ w ++ '(' :: rest) 0 (pyFind c!"(" (k ++ path ++ w ++ '(' :: rest)) = k ++ path ++ w := by
    rw [pyFind_char hp, pySlice_zero, List.take_left]
  have e2 : rstrip (k ++ path ++ w) = k ++ path := by
    rw [rstrip_append_space hw, hpath, ← List.append_assoc, ← List.append_assoc]
    exact rstrip_id hcs
  have e3 : (splitC '.' path).getLastD [] = m' ++ [c] := by
    rw [hpath]
    rcases hpre with rfl | ⟨p', rfl⟩
    · rw [List.nil_append, splitC_plain hdot]; rfl
    · rw [List.append_assoc, List.singleton_append, splitC_append, splitC_plain hdot]
      simp
  unfold getTableName
  simp only [e1, e2]
  have hlen : (if hasSub c!"or replace" (lower (k ++ path)) = true then c!"create or replace table ".length else c!"create table ".length) =
      k.length := by
    cases hk with
    | create hk =>
      have hlk : k.length = 13 := by rw [← length_lower k, ← small_lower, hk]; rfl
      rw [if_neg]
      · rw [hlk]; decide
      · rw [lower_append, ← small_lower k, hk, hasSub_iff]
        intro h
        obtain ⟨a, b, e⟩ := h
        apply hr
        -- the phrase cannot start inside the key words
        have hlen : 13 ≤ a.length := by
          by_contra hlt
          have hi : a.length < 13 := by omega
          have hd := congrArg (fun l => (l.drop a.length).head?) e
          have h2 := congrArg (fun l => ((l.drop a.length).drop 1).head?) e
          simp only [List.append_assoc, List.drop_left] at hd h2
          simp only [List.drop_append, List.length_cons, List.length_nil] at hd h2
          generalize a.length = i at *
          interval_cases i <;> simp at hd h2
        have := congrArg (List.drop 13) e
        rw [List.drop_left' (show (c!"create table ").length = 13 from by decide)] at this
        refine ⟨a.drop 13, b, ?_⟩
        rw [← this, List.append_assoc, List.append_assoc, List.drop_append_of_le_length hlen]
    | replace hk =>
      have hlk : k.length = 24 := by rw [← length_lower k, ← small_lower, hk]; rfl
      rw [if_pos]
      · rw [hlk]; decide
      · rw [lower_append, ← small_lower k, hk, hasSub_iff]
        exact List.IsInfix.trans (by decide) (List.prefix_append _ _).isInfix
  rw [hlen, List.drop_left, e3]

theorem stripQuotes_wrap {q : Quote} {n : Str} (hq : q ≠ .bracket) (h : ∀ c ∈ n, c ∉ c!"\"'`") : stripQuotes (q.wrap n) = n := by
  have hf : ∀ d ∈ c!"\"'`", n.filter (· ≠ d) = n := by
    intro d hd
    rw [List.filter_eq_self]
    intro c hc
    have := h c hc
    simp only [ne_eq, decide_eq_true_eq]
    rintro rfl
    exact this hd
  have h1 := hf '"' (by decide)
  have h2 := hf '\'' (by decide)
  have h3 := hf '`' (by decide)
  unfold stripQuotes
  rw [replace_char_nil, replace_char_nil, replace_char_nil]
  cases q with
  | bracket => exact absurd rfl hq
  | plain => simp only [Quote.wrap]; rw [h2, h3, h1]
  | double => simp only [Quote.wrap, List.filter_append]; rw [h2, h3, h1]; simp
  | single => simp only [Quote.wrap, List.filter_append]; rw [h2, h3, h1]; simp
  | back => simp only [Quote.wrap, List.filter_append]; rw [h2, h3, h1]; simp

/-! ## Declarations -/

theorem typeText_mem {ty : Str} (h : TypeText ty) : ∀ c ∈ ty, c ≠ '[' ∧ c ≠ ']' := by
  have key : ∀ {w : Str}, (∀ c ∈ w, isSpace c = false ∧ c ∉ structural) → ∀ c ∈ w, c ≠ '[' ∧ c ≠ ']' := by
    intro w hw c hc
    have := (hw c hc).2
    exact ⟨by rintro rfl; exact this (by decide), by rintro rfl; exact this (by decide)⟩
  cases h with
  | word _ hw => exact key hw
  | @sized w args _ hw ha =>
    intro c hc
    simp only [List.mem_append, List.mem_singleton] at hc
    rcases hc with ((hc | rfl) | hc) | rfl
    · exact key hw c hc
    · decide
    · have := ha c hc
      exact ⟨by rintro rfl; exact this (by decide), by rintro rfl; exact this (by decide)⟩
    · decide

theorem typeText_flat {ty : Str} (h : TypeText ty) : Flat ty := by
  have key : ∀ {w : Str}, (∀ c ∈ w, isSpace c = false ∧ c ∉ structural) → Flat w := by
    intro w hw
    apply flat_plain
    intro c hc
    have := (hw c hc).2
    exact ⟨by rintro rfl; exact this (by decide), by rintro rfl; exact this (by decide)⟩
  cases h with
  | word _ hw => exact key hw
  | @sized w args _ hw ha =>
    rw [List.append_assoc, List.append_assoc]
    refine (key hw).append ?_
    have : ')' ∉ args := fun hc => ha _ hc (by decide)
    exact Flat.paren (t := []) this .nil

theorem typeText_last {ty : Str} (h : TypeText ty) : ∃ t c, ty = t ++ [c] ∧ isSpace c = false := by
  cases h with
  | word hne hw =>
    obtain ⟨t, c, rfl⟩ := (List.eq_nil_or_concat ty).resolve_left hne
    exact ⟨t, c, by simp, (hw c (by simp)).1⟩
  | @sized w args _ hw ha => exact ⟨_, ')', rfl, by decide⟩

theorem typeText_at {ty rest : Str} (h : TypeText ty) (hr : rest = [] ∨ ∃ r c, rest = c!" " ++ r ++ [c] ∧ isSpace c = false)
    (hp : ∀ c ∈ rest, c ∉ structural) : TypeAt (ty ++ rest) ty := by
  cases h with
  | word hne hw =>
    have h1 : ')' ∉ ty := fun hc => (hw _ hc).2 (by decide)
    have h2 : ' ' ∉ ty := fun hc => absurd (hw _ hc).1 (by decide)
    have h3 : ',' ∉ ty := fun hc => (hw _ hc).2 (by decide)
    rcases hr with rfl | ⟨r, c, rfl, _⟩
    · rw [List.append_nil]; exact .whole h1 h2 h3
    · rw [List.append_assoc, List.singleton_append] at hp ⊢
      refine .blank ?_ h2 h3
      intro hc
      rcases List.mem_append.1 hc with hc | hc
      · exact h1 hc
      · exact hp _ hc (by decide)
  | @sized w args _ hw ha =>
    have : ')' ∉ w ++ c!"(" ++ args := by
      intro hc
      simp only [List.mem_append, List.mem_singleton] at hc
      rcases hc with (hc | hc) | hc
      · exact (hw _ hc).2 (by decide)
      · exact absurd hc (by decide)
      · exact ha _ hc (by decide)
    have h2 := TypeAt.paren (b := rest) this
    rw [List.append_assoc _ c!")" rest]
    exact h2

/-- The text of a declaration after brackets are replaced. -/
theorem decl_ub {d : Decl} (h : DeclOk d) : d.text.map ub = (ubQuote d.quote).wrap d.name ++ ' ' :: (d.type ++ d.rest) := by
  have key : ∀ {w : Str}, (∀ c ∈ w, c ∉ structural) → ∀ c ∈ w, c ≠ '[' ∧ c ≠ ']' := by
    intro w hw c hc
    have := hw c hc
    exact ⟨by rintro rfl; exact this (by decide), by rintro rfl; exact this (by decide)⟩
  unfold Decl.text
  rw [List.map_append, List.map_append, List.map_append, map_ub_wrap (key h.name), map_ub (typeText_mem h.type), map_ub (key h.restPlain),
    show (c!" ").map ub = c!" " from by decide]
  simp

theorem wrap_flat {q : Quote} {n : Str} (h : ∀ c ∈ n, c ∉ structural) : Flat (q.wrap n) := by
  have hn : Flat n := flat_plain (fun c hc => ⟨by rintro rfl; exact h _ hc (by decide), by rintro rfl; exact h _ hc (by decide)⟩)
  have one : ∀ {c : Char}, c ≠ '(' → c ≠ ',' → Flat [c] := fun h1 h2 => .char h1 h2 .nil
  cases q <;> simp only [Quote.wrap]
  · exact hn
  all_goals exact ((one (by decide) (by decide)).append hn).append (one (by decide) (by decide))

theorem wrap_head {q : Quote} {n : Str} (h : q.fits n) : ∃ c t, q.wrap n = c :: t ∧ isSpace c = false := by
  cases q with
  | plain =>
    cases n with
    | nil => exact absurd rfl h.1
    | cons c t => exact ⟨c, t, rfl, h.2.1 c (by simp)⟩
  | double => exact ⟨_, _, rfl, by decide⟩
  | single => exact ⟨_, _, rfl, by decide⟩
  | back => exact ⟨_, _, rfl, by decide⟩
  | bracket => exact ⟨_, _, rfl, by decide⟩

theorem wrap_last {q : Quote} {n : Str} (h : q.fits n) : ∃ c, (q.wrap n).getLast? = some c ∧ isSpace c = false := by
  cases q with
  | plain =>
    obtain ⟨t, c, rfl⟩ := (List.eq_nil_or_concat n).resolve_left h.1
    exact ⟨c, by simp [Quote.wrap], h.2.1 c (by simp)⟩
  | double => exact ⟨'"', by simp only [Quote.wrap, List.getLast?_append]; rfl, by decide⟩
  | single => exact ⟨'\'', by simp only [Quote.wrap, List.getLast?_append]; rfl, by decide⟩
  | back => exact ⟨'`', by simp only [Quote.wrap, List.getLast?_append]; rfl, by decide⟩
  | bracket => exact ⟨']', by simp only [Quote.wrap, List.getLast?_append]; rfl, by decide⟩

theorem decl_field {d : Decl} (h : DeclOk d) : Flat (d.text.map ub) ∧ Trim (d.text.map ub) ∧ d.text.map ub ≠ [] := by
  rw [decl_ub h]
  obtain ⟨c, t, e, hc⟩ := wrap_head (ubQuote_fits h.fits)
  have hr : Flat d.rest := flat_plain (fun c hc => ⟨by rintro rfl; exact h.restPlain _ hc (by decide), by rintro rfl; exact h.restPlain _ hc (by decide)⟩)
  refine ⟨(wrap_flat h.name).append (.char (by decide) (by decide) ((typeText_flat h.type).append hr)), ⟨?_, ?_⟩, ?_⟩
  · rw [e]
    intro x hx
    simp only [List.cons_append, List.head?_cons, Option.some.injEq] at hx
    rw [← hx]; exact hc
  · have : ∃ u x, d.type ++ d.rest = u ++ [x] ∧ isSpace x = false := by
      rcases h.rest with hr | ⟨r, x, hr, hx⟩
      · rw [hr, List.append_nil]; exact typeText_last h.type
      · exact ⟨_, x, by rw [hr, ← List.append_assoc], hx⟩
    obtain ⟨u, x, e2, hx⟩ := this
    rw [e2]
    intro y hy
    rw [show (ubQuote d.quote).wrap d.name ++ ' ' :: (u ++ [x]) = ((ubQuote d.quote).wrap d.name ++ ' ' :: u) ++ [x] from by simp] at hy
    rw [List.getLast?_append] at hy
    simp only [List.getLast?_singleton, Option.some_or, Option.some.injEq] at hy
    rw [← hy]; exact hx
  · rw [e]; simp

theorem wrap_column {q : Quote} {n u ty : Str} (hq : q ≠ .bracket) (h : q.fits n) (hu : TypeAt u ty) :
    fieldColumn (q.wrap n ++ ' ' :: u) = (convertType ty).bind (fun t => mkColumn (some n) (some t)) := by
  cases q with
  | bracket => exact absurd rfl hq
  | plain => exact fieldColumn_plain h.1 (fun hb => absurd (h.2.1 _ hb) (by decide)) h.2.2 hu
  | double =>
    have := fieldColumn_quoted (q := '"') (.inl rfl) h hu
    simpa [Quote.wrap] using this
  | single =>
    have := fieldColumn_quoted (q := '\'') (.inr (.inl rfl)) h hu
    simpa [Quote.wrap] using this
  | back =>
    have := fieldColumn_quoted (q := '`') (.inr (.inr rfl)) h hu
    simpa [Quote.wrap] using this

theorem ubQuote_ne (q : Quote) : ubQuote q ≠ .bracket := by cases q <;> simp [ubQuote]

theorem mkColumn_converted {ty t n : Str} (h : convertType ty = .ok t) : mkColumn (some n) (some t) = .ok ⟨n, t⟩ := by
  rcases Props.C29_type_is_valid ty n with ⟨t', h1, _, h2⟩ | h1
  · rw [h, Except.ok.injEq] at h1; rw [h1]; exact h2
  · rw [h] at h1; simp at h1

theorem infix_map {f : Char → Char} {sub s : Str} (h : ∀ d ∈ sub, ∀ c, f c = d ↔ c = d) : sub <:+: s.map f ↔ sub <:+: s := by
  have hid : ∀ {x : Str}, x.map f = sub ↔ x = sub := by
    intro x
    constructor
    · intro e
      have : x.map f = x.map id := by
        apply List.map_congr_left
        intro c hc
        have hm : f c ∈ sub := by rw [← e]; exact List.mem_map_of_mem hc
        exact ((h _ hm c).1 rfl).symm
      rw [← e, this, List.map_id]
    · rintro rfl
      conv => rhs; rw [← List.map_id x]
      exact List.map_congr_left (fun c hc => (h c hc c).2 rfl)
  constructor
  · rintro ⟨a, b, e⟩
    obtain ⟨x, y, rfl, hx, _⟩ := List.map_eq_append_iff.1 e.symm
    obtain ⟨x1, x2, rfl, _, hx2⟩ := List.map_eq_append_iff.1 hx
    rw [hid] at hx2
    exact ⟨x1, y, by rw [hx2]⟩
  · rintro ⟨a, b, rfl⟩
    exact ⟨a.map f, b.map f, by rw [List.map_append, List.map_append, hid.2 rfl]⟩

theorem lower_ub (s : Str) : lower (s.map ub) = (lower s).map ub := by
  simp only [lower, List.map_map]
  apply List.map_congr_left
  intro c _
  simp only [Function.comp, ub]
  have h1 : lowerC c = '[' ↔ c = '[' := lowerC_special (by decide) (by decide)
  have h2 : lowerC c = ']' ↔ c = ']' := lowerC_special (by decide) (by decide)
  simp only [h1, h2]
  split
  · decide
  · rfl

theorem ub_iff {d : Char} (h1 : d ≠ '"') (h2 : d ≠ '[') (h3 : d ≠ ']') (c : Char) : ub c = d ↔ c = d := by
  unfold ub
  split
  · rename_i h
    constructor
    · intro e; exact absurd e.symm h1
    · rintro rfl
      rcases h with h | h
      · exact absurd h h2
      · exact absurd h h3
  · rfl

theorem hasSub_lower_ub {sub s : Str} (h : ∀ d ∈ sub, d ≠ '"' ∧ d ≠ '[' ∧ d ≠ ']') : hasSub sub (lower (s.map ub)) = hasSub sub (lower s) := by
  rw [Bool.eq_iff_iff, hasSub_iff, hasSub_iff, lower_ub]
  exact infix_map (fun d hd c => ub_iff (h d hd).1 (h d hd).2.1 (h d hd).2.2 c)

theorem decl_column {d : Decl} (h : DeclOk d) {t : Str} (ht : convertType d.type = .ok t) :
    hasSub c!"key " (lower (d.text.map ub)) = false ∧ fieldColumn (d.text.map ub) = .ok ⟨d.name, t⟩ := by
  refine ⟨?_, ?_⟩
  · rw [hasSub_lower_ub (by decide), hasSub_false_iff, ← small_lower]; exact h.noKey
  · rw [decl_ub h, wrap_column (ubQuote_ne _) (ubQuote_fits h.fits) (typeText_at h.type h.rest h.restPlain), ht]
    exact mkColumn_converted ht

theorem createHead_ub {k : Str} (h : CreateHead k) : k.map ub = k ∧ '(' ∉ k := by
  have key : ∀ {k k' : Str}, k.map small = k' → (∀ c ∈ k', c ≠ '[' ∧ c ≠ ']' ∧ c ≠ '(') → k.map ub = k ∧ '(' ∉ k := by
    intro k k' e hk
    rw [small_lower] at e
    have hm : ∀ d : Char, isLowerA d = false → isUpperA d = false → d ∈ k → d ∈ k' := by
      intro d h1 h2 hd
      rw [← e]
      exact (mem_lower_special h1 h2).2 hd
    refine ⟨map_ub (fun c hc => ⟨?_, ?_⟩), fun hc => (hk _ (hm _ (by decide) (by decide) hc)).2.2 rfl⟩
    · rintro rfl; exact (hk _ (hm _ (by decide) (by decide) hc)).1 rfl
    · rintro rfl; exact (hk _ (hm _ (by decide) (by decide) hc)).2.1 rfl
  cases h with
  | create h => exact key h (by decide)
  | replace h => exact key h (by decide)

/-- The name of the table in a statement after brackets are replaced. -/
theorem getTableName_path {k path n w rest : Str} (hk : CreateHead k) (hp : TablePath path n) (hw : ∀ c ∈ w, isSpace c = true) :
    getTableName (k ++ path.map ub ++ w ++ '(' :: rest) = n := by
  obtain ⟨pre, q, e, hpre, hfit⟩ := hp.shape
  have hn : ∀ c ∈ n, c ≠ '[' ∧ c ≠ ']' := fun c hc => ⟨by rintro rfl; exact hp.name _ hc (by decide), by rintro rfl; exact hp.name _ hc (by decide)⟩
  have hnq : ∀ c ∈ n, c ∉ c!"\"'`" := by
    intro c hc hq
    apply hp.name c hc
    revert hq
    simp only [List.mem_cons, List.not_mem_nil, or_false]
    tauto
  have hparen : '(' ∉ path.map ub := by
    simp only [List.mem_map, not_exists, not_and]
    intro c hc e
    exact hp.noParen (((ub_iff (by decide) (by decide) (by decide) c).1 e) ▸ hc)
  have hdot : '.' ∉ (ubQuote q).wrap n := by
    have hd : '.' ∉ n := fun h => hp.name _ h (by decide)
    cases q <;> simp [ubQuote, Quote.wrap, hd]
  rw [getTableName_eq hk (m := (ubQuote q).wrap n) (p := pre.map ub) ?_ hw ?_ ?_ hdot (wrap_last (ubQuote_fits hfit)) ?_,
    stripQuotes_wrap (ubQuote_ne q) hnq]
  · simp only [List.mem_append, not_or]
    exact ⟨⟨(createHead_ub hk).2, hparen⟩, fun hc => absurd (hw _ hc) (by decide)⟩
  · rw [e, List.map_append, map_ub_wrap hn]
  · rcases hpre with rfl | ⟨p, rfl⟩
    · exact .inl rfl
    · exact .inr ⟨p.map ub, by simp [ub]⟩
  · have := hp.noReplace
    rw [small_lower] at this
    rwa [lower_ub, infix_map (fun d hd c => ub_iff (by revert hd; revert d; decide) (by revert hd; revert d; decide) (by revert hd; revert d; decide) c)]

/-- What a CREATE TABLE with declarations only leads to. -/
theorem parseCreateTable_decls {schema : Str} {db : Database} {k path n w body tail : Str} {ds : List Decl} {tys : List Str} (hk : CreateHead k)
    (hp : TablePath path n) (hw : ∀ c ∈ w, isSpace c = true) (hb : FieldList (ds.map Decl.text) body) (ht : ')' ∉ tail)
    (hd : ∀ d ∈ ds, DeclOk d) (hty : ds.map (fun d => convertType d.type) = tys.map .ok) (hn : (ds.map (·.name)).Nodup) :
    ∃ sh, parseCreateTable schema db (k ++ path ++ w ++ '(' :: body ++ ')' :: tail) = .ok (db.addTable
      { name := n, schema := schema, pk := [], shard := sh, cols := (ds.zip tys).map (fun p => (p.1.name, ⟨p.1.name, p.2⟩)), fks := [], rels := [] }) ∧
      (hasSub c!"partition by hash" (lower (k ++ path ++ w ++ '(' :: body ++ ')' :: tail)) = false → sh = none) := by
  have hforall : List.Forall₂ (fun f c => hasSub c!"key " (lower f) = false ∧ fieldColumn f = .ok c) (ds.map (fun d => d.text.map ub))
      ((ds.zip tys).map (fun p => (⟨p.1.name, p.2⟩ : Column))) := by
    clear hb hn
    induction ds generalizing tys with
    | nil => simp
    | cons d ds ih =>
      cases tys with
      | nil => simp at hty
      | cons t tys =>
        simp only [List.map_cons, List.cons.injEq] at hty
        exact .cons (decl_column (hd d (by simp)) hty.1) (ih (fun x hx => hd x (by simp [hx])) hty.2)
  have hlen : ds.length = tys.length := by simpa using congrArg List.length hty
  have hnames : ((ds.zip tys).map (fun p => (⟨p.1.name, p.2⟩ : Column))).map (·.name) = ds.map (·.name) := by
    rw [List.map_map, show (fun c : Column => c.name) ∘ (fun p : Decl × Str => (⟨p.1.name, p.2⟩ : Column)) = (fun d : Decl => d.name) ∘ Prod.fst from rfl,
      ← List.map_map, List.map_fst_zip (by omega)]
  have hparen : '(' ∉ k ++ path.map ub ++ w := by
    have hparen : '(' ∉ path.map ub := by
      simp only [List.mem_map, not_exists, not_and]
      intro c hc e
      exact hp.noParen (((ub_iff (by decide) (by decide) (by decide) c).1 e) ▸ hc)
    simp only [List.mem_append, not_or]
    exact ⟨⟨(createHead_ub hk).2, hparen⟩, fun hc => absurd (hw _ hc) (by decide)⟩
  have htail : ')' ∉ tail.map ub := by
    simp only [List.mem_map, not_exists, not_and]
    intro c hc e
    exact ht (((ub_iff (by decide) (by decide) (by decide) c).1 e) ▸ hc)
  have estmt : (k ++ path ++ w ++ '(' :: body ++ ')' :: tail).map ub =
      k ++ path.map ub ++ w ++ '(' :: (body.map ub) ++ ')' :: (tail.map ub) := by
    simp only [List.map_append, List.map_cons, (createHead_ub hk).1, map_ub_space hw]
    rfl
  have hraw : rawFields (k ++ path.map ub ++ w ++ '(' :: (body.map ub) ++ ')' :: (tail.map ub)) = ds.map (fun d => d.text.map ub) := by
    have hl := map_ub_list hb
    rw [List.map_map] at hl
    exact rawFields_list hparen htail hl (by
      intro f hf
      simp only [List.mem_map, Function.comp] at hf
      obtain ⟨d, hd', rfl⟩ := hf
      exact decl_field (hd d hd'))
  have hname := getTableName_path hk hp hw (rest := body.map ub ++ ')' :: (tail.map ub))
  have hcols := addColumns_cols ((ds.zip tys).map (fun p => (⟨p.1.name, p.2⟩ : Column))) ⟨n, schema, [], none, [], [], []⟩ (by
    rw [hnames]; simpa [Dict.keys] using hn)
  have hadd : addColumnsOf ⟨n, schema, [], none, [], [], []⟩ (k ++ path.map ub ++ w ++ '(' :: (body.map ub) ++ ')' :: (tail.map ub)) =
      .ok { name := n, schema := schema, pk := [], shard := none, cols := (ds.zip tys).map (fun p => (p.1.name, ⟨p.1.name, p.2⟩)), fks := [], rels := [] } := by
    unfold addColumnsOf
    rw [hraw, foldlM_columns hforall]
    simp only [bind, Except.bind, List.nil_append]
    rw [hcols]
    simp [Function.comp_def]
  unfold parseCreateTable
  simp only [unbracket, estmt]
  rw [show k ++ path.map ub ++ w ++ '(' :: (body.map ub ++ ')' :: (tail.map ub)) = k ++ path.map ub ++ w ++ '(' :: (body.map ub) ++ ')' :: (tail.map ub)
    from by simp] at hname
  rw [hname]
  simp only [mkTable, bind, Except.bind, hadd]
  rw [← estmt, hasSub_lower_ub (by decide), estmt]
  split
  · rename_i hp
    refine ⟨(addHashKey ⟨n, schema, [], none, (ds.zip tys).map (fun p => (p.1.name, ⟨p.1.name, p.2⟩)), [], []⟩
        (k ++ path.map ub ++ w ++ '(' :: (body.map ub) ++ ')' :: (tail.map ub))).shard, ?_, fun h => absurd (h ▸ hp) (by decide)⟩
    unfold addHashKey
    split
    · split <;> rfl
    · rfl
  · exact ⟨none, rfl, fun _ => rfl⟩

end Verif
