import Verif.Lemmas.NamesRead
/-
Statements that give names.
-/

namespace Verif
open Verif.Spec

/-! ## A name with a quote after every character -/

def sprinkle (n : Str) : Str := '"' :: n.flatMap (fun c => [c, '"'])

theorem sprinkle_cons (c : Char) (n : Str) : sprinkle (c :: n) = '"' :: c :: sprinkle n := by simp [sprinkle]

theorem mem_sprinkle {n : Str} {c : Char} (h : c ∈ sprinkle n) : c = '"' ∨ c ∈ n := by
  induction n with
  | nil => left; simpa [sprinkle] using h
  | cons d n ih =>
    rw [sprinkle_cons] at h
    simp only [List.mem_cons] at h ⊢
    rcases h with h | h | h
    · exact .inl h
    · exact .inr (.inl h)
    · rcases ih h with h | h
      · exact .inl h
      · exact .inr (.inr h)

theorem sprinkle_last (n : Str) : ∃ x, sprinkle n = x ++ ['"'] := by
  induction n with
  | nil => exact ⟨[], rfl⟩
  | cons d n ih =>
    obtain ⟨x, e⟩ := ih
    exact ⟨'"' :: d :: x, by rw [sprinkle_cons, e]; rfl⟩

theorem sprinkle_filter {p : Char → Bool} (hq : p '"' = false) : ∀ {n : Str}, (∀ c ∈ n, p c = true) → (sprinkle n).filter p = n
  | [], _ => by simp [sprinkle, hq]
  | c :: n, h => by
    rw [sprinkle_cons, List.filter_cons_of_neg (by simp [hq]), List.filter_cons_of_pos (by simp [h c]), sprinkle_filter hq (fun d hd => h d (by simp [hd]))]

theorem sprinkle_spelling {n : Str} (h : Bare c!".\t\"'[]" n) : Spelling (sprinkle n) n := by
  refine ⟨sprinkle_filter (by decide) ?_, ?_, ?_, ?_⟩
  · intro c hc
    have := h c hc
    simp only [Bool.not_eq_true', List.contains_eq_mem, decide_eq_false_iff_not]
    exact fun h' => this ((by decide : ∀ c ∈ noise, c ∈ c!".\t\"'[]") c h')
  · intro hc
    rcases mem_sprinkle hc with h' | h'
    · exact absurd h' (by decide)
    · exact h _ h' (by decide)
  · intro c hc
    simp only [sprinkle, List.head?_cons, Option.some.injEq] at hc
    subst hc; decide
  · intro c hc
    obtain ⟨x, e⟩ := sprinkle_last n
    rw [e, List.getLast?_append] at hc
    simp at hc
    subst hc; decide

theorem sprinkle_infix {w b : Str} (hl : 2 ≤ w.length) (hq : '"' ∉ w) : ∀ {a : Str} (n : Str), w <:+: a ++ (sprinkle n ++ b) → w <:+: a ∨ w <:+: b
  | a, [], h => infix_sep hq (by simpa [sprinkle] using h)
  | a, c :: n, h => by
    rw [sprinkle_cons] at h
    rcases infix_sep hq (a := a) (b := c :: sprinkle n ++ b) (by simpa using h) with h | h
    · exact .inl h
    · rcases sprinkle_infix hl hq (a := [c]) n (by simpa using h) with h | h
      · have := h.length_le
        simp at this
        omega
      · exact .inr h

theorem map_sprinkle (n : Str) : (sprinkle n).map small = sprinkle (n.map small) := by
  induction n with
  | nil => rfl
  | cons c n ih => rw [sprinkle_cons, List.map_cons, List.map_cons, ih, List.map_cons, sprinkle_cons]; rfl

theorem lacks_sprinkle {w a b n : Str} (hl : 2 ≤ w.length ∧ '"' ∉ w) (ha : Lacks w a) (hb : Lacks w b) : Lacks w (a ++ (sprinkle n ++ b)) := by
  intro h
  rw [List.map_append, List.map_append, map_sprinkle] at h
  rcases sprinkle_infix hl.1 hl.2 _ h with h | h
  · exact ha h
  · exact hb h

theorem lacks_of_parts {w a b n : Str} (h : 2 ≤ w.length ∧ '"' ∉ w ∧ ¬ (w <:+: a.map small) ∧ ¬ (w <:+: b.map small)) : Lacks w (a ++ (sprinkle n ++ b)) :=
  lacks_sprinkle ⟨h.1, h.2.1⟩ h.2.2.1 h.2.2.2

theorem bare_sprinkle {bad n : Str} (hq : '"' ∉ bad) (h : Bare bad n) : Bare bad (sprinkle n) := by
  intro c hc
  rcases mem_sprinkle hc with rfl | hc
  · exact hq
  · exact h c hc

theorem Spec.Bare.mono {bad bad' s : Str} (h : Bare bad s) (hs : ∀ c ∈ bad', c ∈ bad) : Bare bad' s := fun c hc hb => h c hc (hs c hb)

theorem bare_not_mem {bad s : Str} {c : Char} (h : Bare bad s) (hc : c ∈ bad) : c ∉ s := fun hs => h c hs hc

/-! ## Statements in a file -/

theorem single_sprinkle {a b n : Str} (ha : ¬ c!"  " <:+: a) (hb : ¬ c!"  " <:+: b) : ¬ c!"  " <:+: a ++ (sprinkle n ++ b) := by
  intro h
  rcases sprinkle_infix (by decide) (by decide) _ h with h | h
  · exact ha h
  · exact hb h

theorem statementText_of {a n b : Str} (h1 : Bare c!";\t\n\r" a) (h2 : Bare c!";\t\n\r" n) (h3 : Bare c!";\t\n\r" b)
    (h4 : ¬ c!"  " <:+: a) (h5 : ¬ c!"  " <:+: b) (h6 : ∀ c, a.head? = some c → isSpace c = false) (h7 : a ≠ [])
    (h8 : ∀ c, b.getLast? = some c → isSpace c = false) (h9 : b ≠ []) : StatementText (a ++ (sprinkle n ++ b)) := by
  refine ⟨?_, ?_, ?_, ?_⟩
  · intro c hc
    simp only [List.mem_append] at hc
    rcases hc with hc | hc | hc
    · exact h1 c hc
    · exact bare_sprinkle (by decide) h2 c hc
    · exact h3 c hc
  · intro h
    rcases sprinkle_infix (by decide) (by decide) _ h with h | h
    · exact h4 h
    · exact h5 h
  · intro c hc
    apply h6
    rw [List.head?_append] at hc
    cases a with
    | nil => exact absurd rfl h7
    | cons => simpa using hc
  · intro c hc
    apply h8
    rw [List.getLast?_append, List.getLast?_append] at hc
    cases hb : b.getLast? with
    | none => exact absurd (List.getLast?_eq_none_iff.1 hb) h9
    | some d => rw [hb] at hc; simpa using hc

/-- A file from which the database is read. -/
theorem read_of {p : ParserSt} {l : List Str} {db : Database} (hl : ∀ s ∈ l, StatementText s)
    (h : parseStatements p.schemaName (Database.empty p.databaseName) l = (db, none)) : ∃ fs f, (parseDdl fs p f).2 = .ok (some db) := by
  refine ⟨fun _ => some (.text (spelledFile l)), some c!"f", ?_⟩
  simp only [parseDdl, getStatements_spelled hl, h]

theorem infix_first {w s : Str} {c : Char} (hc : c ∉ s) (h : (c :: w) <:+: s) : False := by
  obtain ⟨u, v, e⟩ := h
  exact hc (by rw [← e]; simp)

/-! ## Tables -/

theorem rawFieldsGo_one : ∀ (t : Str) (o : Bool) (cur : Str), (o = false → ∀ x y, cur = x ++ '(' :: y → ')' ∈ y) → CommasIn (cur ++ t) → cur ++ t ≠ [] →
    rawFieldsGo o cur t = [strip (cur ++ t)]
  | [], o, cur, _, _, hne => by
    rw [List.append_nil] at hne
    cases o <;> simp [rawFieldsGo, hne]
  | c :: t, true, cur, _, hc, hne => by
    rw [rawFieldsGo, rawFieldsGo_one t _ (cur ++ [c]) ?_ (by simpa using hc) (by simp)]
    · simp
    · intro ho x y e
      simp only [ne_eq, decide_not, Bool.not_eq_eq_eq_not, Bool.not_false, decide_eq_true_eq] at ho
      subst ho
      rcases List.eq_nil_or_concat y with rfl | ⟨y', d, rfl⟩
      · have := List.append_inj_right' e rfl
        simp at this
      · have e' : cur ++ [')'] = (x ++ '(' :: y') ++ [d] := by rw [e]; simp
        have := List.append_inj_right' e' rfl
        simp only [List.cons.injEq, and_true] at this
        rw [← this]; simp
  | c :: t, false, cur, ho, hc, hne => by
    have keep : c ≠ '(' → ∀ x y, cur ++ [c] = x ++ '(' :: y → ')' ∈ y := by
      intro h1 x y e
      rcases List.eq_nil_or_concat y with rfl | ⟨y', d, rfl⟩
      · have := List.append_inj_right' e rfl
        simp at this
        exact absurd this h1
      · have e' : cur ++ [c] = (x ++ '(' :: y') ++ [d] := by rw [e]; simp
        have := ho rfl x y' (List.append_inj_left' e' rfl)
        simp [this]
    rw [rawFieldsGo]
    split
    · rw [rawFieldsGo_one t _ (cur ++ [c]) (by simp) (by simpa using hc) (by simp)]; simp
    · rename_i h1
      rw [if_neg, rawFieldsGo_one t _ (cur ++ [c]) (fun _ => keep h1) (by simpa using hc) (by simp)]
      · simp
      · rintro rfl
        obtain ⟨x, y, e, h⟩ := hc cur t rfl
        exact h (ho rfl x y e)

theorem rawFields_one {k f : Str} (hk : '(' ∉ k) (hf : Trim f) (hc : CommasIn f) (hne : f ≠ []) : rawFields (k ++ '(' :: f ++ [')']) = [f] := by
  rw [rawFields_body hk (by simp), hf.strip, rawFieldsGo_one f false [] (by intro _ x y e; simp at e) (by simpa using hc) (by simpa using hne)]
  simp [hf.strip]

/-- What a CREATE TABLE with one field gives. -/
theorem create_one {schema k m w n f : Str} {acc : Table × List Column} (db : Database) (hk0 : k = c!"create table ") (hw : w = [' ']) (hm : Bare c!"([].;" m) (hl : ∃ c, m.getLast? = some c ∧ isSpace c = false)
    (hr : ¬ c!"or replace" <:+: lower m) (hn : stripQuotes m = n) (hf : Trim f) (hc : CommasIn f) (hne : f ≠ []) (hb : Bare c!"[]" f)
    (hd : Lacks c!"create database" (k ++ m ++ w ++ '(' :: f ++ [')']))
    (ha : addField ({ name := n, schema := schema, pk := [], shard := none, cols := [], fks := [], rels := [] }, []) f = .ok acc) :
    parseStatement schema db (k ++ m ++ w ++ '(' :: f ++ [')']) =
      .ok (db.addTable (if hasSub c!"partition by hash" (lower (k ++ m ++ w ++ '(' :: f ++ [')'])) then
        addHashKey (acc.1.addColumns acc.2) (k ++ m ++ w ++ '(' :: f ++ [')']) else acc.1.addColumns acc.2)) := by
  have hk : '(' ∉ k ++ m ++ w := by
    simp only [List.mem_append, not_or]
    exact ⟨⟨by rw [hk0]; decide, bare_not_mem hm (by decide)⟩, by rw [hw]; decide⟩
  have h2 : hasSub c!"create table" (lower (k ++ m ++ w ++ '(' :: f ++ [')'])) = true := by
    rw [hasSub_iff, List.append_assoc, List.append_assoc, List.append_assoc, lower_append]
    exact (show c!"create table" <:+: lower k by rw [hk0]; decide).trans (List.prefix_append _ _).isInfix
  have hu : (k ++ m ++ w ++ '(' :: f ++ [')']).map ub = k ++ m ++ w ++ '(' :: f ++ [')'] := by
    apply map_ub
    have : Bare c!"[]" (k ++ m ++ w ++ '(' :: f ++ [')']) := by
      intro c hc
      simp only [List.mem_append, List.mem_cons, List.not_mem_nil, or_false] at hc
      rcases hc with (((hc | hc) | hc) | hc | hc) | hc
      · exact (show ∀ c ∈ k, c ∉ c!"[]" by rw [hk0]; decide) c hc
      · exact hm.mono (by decide) c hc
      · exact (show ∀ c ∈ w, c ∉ c!"[]" by rw [hw]; decide) c hc
      · rw [hc]; decide
      · exact hb c hc
      · rw [hc]; decide
    intro c hc
    have := this c hc
    simpa using this
  have hname : getTableName (k ++ m ++ w ++ '(' :: f ++ [')']) = n := by
    rw [← hn, List.append_assoc, List.cons_append]
    exact getTableName_eq (.create (by rw [hk0]; decide)) hk (by rw [hw]; decide) (p := []) rfl (.inl rfl) (bare_not_mem hm (by decide)) hl hr
  unfold parseStatement
  simp only [hasSub_without hd, h2, Bool.true_or, if_true, Bool.false_eq_true, if_false]
  unfold Verif.parseCreateTable addColumnsOf
  simp only [unbracket, hu, hname, mkTable, bind, Except.bind, rawFields_one hk hf hc hne, List.foldlM, ha, pure, Except.pure]

theorem tables_addTable {db : Database} {t : Table} : (t.name, t) ∈ (db.addTable t).tables :=
  Dict.mem_of_get? (Dict.get?_set_self _ _ _)

theorem stripQuotes_sprinkle {n : Str} (h : Bare c!"'`\"" n) : stripQuotes (sprinkle n) = n := by
  rw [stripQuotes_filter]
  apply sprinkle_filter (by decide)
  intro c hc
  have := h c hc
  simp at this ⊢
  exact ⟨this.2.2, this.2.1, this.1⟩

theorem sprinkle_getLast (n : Str) : ∃ c, (sprinkle n).getLast? = some c ∧ isSpace c = false := by
  obtain ⟨x, e⟩ := sprinkle_last n
  exact ⟨'"', by rw [e]; simp, by decide⟩

theorem lower_sprinkle_infix {w n : Str} (h : 2 ≤ w.length ∧ '"' ∉ w) : ¬ w <:+: lower (sprinkle n) := by
  have : Lacks w ([] ++ (sprinkle n ++ [])) := by
    apply lacks_of_parts
    refine ⟨h.1, h.2, ?_, ?_⟩ <;> (intro h'; have := h'.length_le; rw [List.map_nil, List.length_nil] at this; omega)
  have := without_eq.1 this
  simpa using this

/-- Any table name. -/
theorem make_table {n : Str} (h : TableName n) : ∃ s t, StatementText s ∧ t.name = n ∧ ∀ db : Database, parseStatement schema db s = .ok (db.addTable t) := by
  have hd : Lacks c!"create database" (c!"create table " ++ (sprinkle n ++ c!" (c int)")) := lacks_of_parts (by decide)
  have hp : Lacks c!"partition by hash" (c!"create table " ++ (sprinkle n ++ c!" (c int)")) := lacks_of_parts (by decide)
  refine ⟨c!"create table " ++ (sprinkle n ++ c!" (c int)"), { name := n, schema := schema, pk := [], shard := none, cols := [(c!"c", ⟨c!"c", c!"BIGINT"⟩)], fks := [], rels := [] }, ?_, rfl, fun db => ?_⟩
  · exact statementText_of (by unfold Bare; decide) (h.mono (by decide)) (by unfold Bare; decide) (by decide) (by decide) (by simp; decide) (by decide) (by simp; decide) (by decide)
  · have e : c!"create table " ++ (sprinkle n ++ c!" (c int)") = c!"create table " ++ sprinkle n ++ c!" " ++ '(' :: c!"c int" ++ [')'] := by simp
    rw [e] at hd hp ⊢
    rw [create_one (n := n) (acc := ({ name := n, schema := schema, pk := [], shard := none, cols := [], fks := [], rels := [] }, [⟨c!"c", c!"BIGINT"⟩])) db rfl rfl
      (bare_sprinkle (by decide) (h.mono (by decide))) (sprinkle_getLast n) (lower_sprinkle_infix (by decide)) (stripQuotes_sprinkle (h.mono (by decide))) (by decide)
      (by intro a b e; have : ',' ∈ c!"c int" := by rw [e]; simp
          exact absurd this (by decide)) (by decide) (by unfold Bare; decide) hd rfl, hasSub_without hp]
    rfl

/-! ## Columns -/

theorem create_column {schema f : Str} {c : Column} (db : Database) (hf : Trim f) (hc : CommasIn f) (hne : f ≠ []) (hb : Bare c!"[]" f) (hk : Lacks c!"key " f)
    (hd : Lacks c!"create database" (c!"create table t (" ++ f ++ [')'])) (hcol : fieldColumn f = .ok c) :
    ∃ t : Table, parseStatement schema db (c!"create table t (" ++ f ++ [')']) = .ok (db.addTable t) ∧ (c.name, c) ∈ t.cols := by
  have e : c!"create table t (" ++ f ++ [')'] = c!"create table " ++ c!"t" ++ c!" " ++ '(' :: f ++ [')'] := by simp
  rw [e] at hd ⊢
  have ha : ∀ acc, addField acc f = .ok (acc.1, acc.2 ++ [c]) := by
    intro acc
    unfold addField
    simp only [hasSub_without hk, hcol, Bool.false_eq_true, if_false]
  rw [create_one (n := c!"t") db rfl rfl (by unfold Bare; decide) ⟨'t', rfl, by decide⟩ (by decide) (by decide) hf hc hne hb hd (ha _)]
  refine ⟨_, rfl, ?_⟩
  generalize hg : (c!"create table " ++ c!"t" ++ c!" " ++ '(' :: f ++ [')']) = g
  clear hd hg
  split
  · unfold addHashKey
    split
    · split
      · exact Dict.mem_of_get? (Dict.get?_set_self _ _ _)
      · exact Dict.mem_of_get? (Dict.get?_set_self _ _ _)
    · exact Dict.mem_of_get? (Dict.get?_set_self _ _ _)
  · exact Dict.mem_of_get? (Dict.get?_set_self _ _ _)

theorem commasIn_middle {p n s : Str} (h : CommasIn n) (hp : ',' ∉ p) (hs : ',' ∉ s) : CommasIn (p ++ (n ++ s)) := by
  intro a b e
  rcases List.append_eq_append_iff.1 e with ⟨u, rfl, e2⟩ | ⟨u, e1, e2⟩
  · rcases List.append_eq_append_iff.1 e2 with ⟨v, rfl, e3⟩ | ⟨v, e3, e4⟩
    · exact absurd (show ',' ∈ s by rw [e3]; simp) hs
    · cases v with
      | nil => exact absurd (show ',' ∈ s by simp at e4; rw [← e4]; simp) hs
      | cons d v =>
        simp only [List.cons_append, List.cons.injEq] at e4
        obtain ⟨x, y, e5, h5⟩ := h u v (by rw [e3, ← e4.1])
        exact ⟨p ++ x, y, by rw [e5]; simp, h5⟩
  · cases u with
    | nil =>
      simp at e1 e2
      cases n with
      | nil => exact absurd (show ',' ∈ s by simp at e2; rw [← e2]; simp) hs
      | cons d n =>
        simp only [List.cons_append, List.cons.injEq] at e2
        obtain ⟨x, y, e5, -⟩ := h [] n (by rw [← e2.1]; rfl)
        simp at e5
    | cons d u =>
      simp only [List.cons_append, List.cons.injEq] at e2
      exact absurd (show ',' ∈ p by rw [e1, ← e2.1]; simp) hp

theorem single_sep {a b : Str} {c : Char} (hc : c ≠ ' ') (ha : ¬ c!"  " <:+: a) (hb : ¬ c!"  " <:+: b) : ¬ c!"  " <:+: a ++ c :: b := by
  intro h
  rcases infix_sep (by simp [hc]) h with h | h
  · exact ha h
  · exact hb h

theorem bare_append {bad a b : Str} (ha : Bare bad a) (hb : Bare bad b) : Bare bad (a ++ b) := by
  intro c hc
  rcases List.mem_append.1 hc with h | h
  · exact ha c h
  · exact hb c h

theorem bare_cons {bad a : Str} {c : Char} (hc : c ∉ bad) (ha : Bare bad a) : Bare bad (c :: a) := by
  intro d hd
  rcases List.mem_cons.1 hd with rfl | h
  · exact hc
  · exact ha d h

/-- A column name in quotes. -/
theorem make_column_quoted {n : Str} {q : Char} (h : ColumnName n) (hq : q ∈ c!"\"'`") (hn : q ∉ n) :
    ∃ s, StatementText s ∧ ∀ schema (db : Database), ∃ t : Table, parseStatement schema db s = .ok (db.addTable t) ∧ ∃ p ∈ t.cols, p.2.name = n := by
  have hq' : q ∉ c!";\t\n\r" ∧ q ∉ c!"[]" ∧ q ≠ ' ' ∧ q ≠ ',' ∧ isSpace q = false ∧ small q ∉ c!"key " ∧ small q ∉ c!"create database" := by
    simp only [List.mem_cons, List.not_mem_nil, or_false] at hq
    rcases hq with rfl | rfl | rfl <;> decide
  obtain ⟨q1, q2, q3, q4, q5, q6, q7⟩ := hq'
  have hcol : fieldColumn (q :: (n ++ (q :: c!" int"))) = .ok ⟨n, c!"BIGINT"⟩ := by
    have ht : TypeAt c!"int" c!"int" := .whole (by decide) (by decide) (by decide)
    have : fieldColumn (q :: n ++ q :: ' ' :: c!"int") = (convertType c!"int").bind (fun t => mkColumn (some n) (some t)) := by
      apply fieldColumn_quoted _ hn ht
      simpa using hq
    rw [show q :: (n ++ (q :: c!" int")) = q :: n ++ q :: ' ' :: c!"int" by simp, this]; rfl
  refine ⟨c!"create table t (" ++ (q :: (n ++ (q :: c!" int"))) ++ [')'], ⟨?_, ?_, ?_, ?_⟩, fun schema db => ?_⟩
  · refine bare_append (bare_append (by unfold Bare; decide) (bare_cons q1 (bare_append (h.chars.mono (by decide)) (bare_cons q1 (by unfold Bare; decide))))) (by unfold Bare; decide)
  · rw [show c!"create table t (" ++ (q :: (n ++ (q :: c!" int"))) ++ [')'] = c!"create table t (" ++ q :: (n ++ q :: c!" int)") by simp]
    exact single_sep q3 (by decide) (single_sep q3 h.single (by decide))
  · simp; decide
  · intro c hc
    rw [List.getLast?_append] at hc
    simp at hc
    subst hc; decide
  · have g1 : Trim (q :: (n ++ (q :: c!" int"))) := by
      refine ⟨by simpa using q5, fun c hc => ?_⟩
      rw [List.getLast?_cons, List.getLast?_append] at hc
      simp at hc
      subst hc; decide
    have g2 : CommasIn (q :: (n ++ (q :: c!" int"))) := by
      have := commasIn_middle (p := [q]) (s := q :: c!" int") h.commas (by simpa using fun h => q4 h.symm) (by
        simp only [List.mem_cons, not_or]
        exact ⟨fun h => q4 h.symm, by decide⟩)
      simpa using this
    have g3 : Lacks c!"key " (q :: (n ++ (q :: c!" int"))) :=
      without_sep (a := []) q6 (by unfold Lacks; decide) (without_sep q6 h.noKey (by unfold Lacks; decide))
    have g4 : Lacks c!"create database" (c!"create table t (" ++ (q :: (n ++ (q :: c!" int"))) ++ [')']) := by
      rw [show c!"create table t (" ++ (q :: (n ++ (q :: c!" int"))) ++ [')'] = c!"create table t (" ++ q :: (n ++ q :: c!" int)") by simp]
      exact without_sep q7 (by unfold Lacks; decide) (without_sep q7 h.noDatabase (by unfold Lacks; decide))
    obtain ⟨t, h1, h2⟩ := create_column (schema := schema) db g1 g2 (by simp)
      (bare_cons q2 (bare_append (h.chars.mono (by decide)) (bare_cons q2 (by unfold Bare; decide)))) g3 g4 hcol
    exact ⟨t, h1, _, h2, rfl⟩

/-- A column name without a blank, at the end of the list. -/
theorem make_column_plain {n : Str} (h : ColumnName n) (hb : ' ' ∉ n) (hh : ∀ c, n.head? = some c → c ∉ c!"\"'`" ∧ isSpace c = false) :
    ∃ s, StatementText s ∧ ∀ schema (db : Database), ∃ t : Table, parseStatement schema db s = .ok (db.addTable t) ∧ ∃ p ∈ t.cols, p.2.name = n := by
  have hcol : fieldColumn (n ++ ['x']) = .ok ⟨n, c!"UNKNOWN"⟩ := by
    have hsp : ' ' ∉ n ++ ['x'] := by simp [hb]
    have hq : ∃ c r, n ++ ['x'] = c :: r ∧ (c == '"' || c == '\'' || c == '`') = false := by
      cases n with
      | nil => exact ⟨'x', [], rfl, by decide⟩
      | cons c r =>
        refine ⟨c, r ++ ['x'], rfl, ?_⟩
        have := (hh c rfl).1
        simp at this
        simp [this]
    obtain ⟨c, r, e, hq⟩ := hq
    have e1 : pySlice (n ++ ['x']) 0 (-1) = n := by
      simp [pySlice, sliceBound]
    have e2 : ∀ c : Char, pyFindFrom [c] (n ++ ['x']) (n.length + 1) = -1 := by
      intro c
      have := pyFindFrom_none (c := c) (pre := n ++ ['x']) (u := []) (start := n.length + 1) (by simp) (by simp)
      simpa using this
    have e3 : pyFindFrom c!")" (lower (n ++ ['x'])) (n.length + 1) = -1 := by
      have := pyFindFrom_none (c := ')') (pre := lower (n ++ ['x'])) (u := []) (start := n.length + 1) (by simp [length_lower]) (by simp)
      simpa using this
    have e4 : pyFind c!" " (n ++ ['x']) = -1 := pyFind_char_none hsp
    have e5 : pySlice (n ++ ['x']) ((n.length + 1 : Nat) : Int) ((n ++ ['x']).length : Int) = [] := by
      rw [List.length_append]
      simp [pySlice, sliceBound]
    unfold fieldColumn
    rw [e]
    dsimp only
    rw [← e, hq]
    simp only [Bool.false_eq_true, if_false, e4, e1, e3, typeEnd, e2, if_true, e5]
    rfl
  refine ⟨c!"create table t (" ++ (n ++ ['x']) ++ [')'], ⟨?_, ?_, ?_, ?_⟩, fun schema db => ?_⟩
  · refine bare_append (bare_append (by unfold Bare; decide) (bare_append (h.chars.mono (by decide)) (by unfold Bare; decide))) (by unfold Bare; decide)
  · have : c!"create table t (" ++ (n ++ ['x']) ++ [')'] = c!"create table t " ++ '(' :: (n ++ 'x' :: c!")") := by simp
    rw [this]
    exact single_sep (by decide) (by decide) (single_sep (by decide) h.single (by decide))
  · simp; decide
  · intro c hc
    rw [List.getLast?_append] at hc
    simp at hc
    subst hc; decide
  · have g1 : Trim (n ++ ['x']) := by
      refine ⟨?_, fun c hc => ?_⟩
      · cases n with
        | nil => simp; decide
        | cons c r => exact fun d hd => (hh d (by simpa using hd)).2
      · rw [List.getLast?_append] at hc
        simp at hc
        subst hc; decide
    have g2 : CommasIn (n ++ ['x']) := by
      have := commasIn_middle (p := []) (s := ['x']) h.commas (by decide) (by decide)
      simpa using this
    have g3 : Lacks c!"key " (n ++ ['x']) := without_sep (by decide) h.noKey (by unfold Lacks; decide)
    have g4 : Lacks c!"create database" (c!"create table t (" ++ (n ++ ['x']) ++ [')']) := by
      rw [show c!"create table t (" ++ (n ++ ['x']) ++ [')'] = c!"create table t " ++ '(' :: (n ++ 'x' :: c!")") by simp]
      exact without_sep (by decide) (by unfold Lacks; decide) (without_sep (by decide) h.noDatabase (by unfold Lacks; decide))
    obtain ⟨t, h1, h2⟩ := create_column (schema := schema) db g1 g2 (by simp) (bare_append (h.chars.mono (by decide)) (by unfold Bare; decide)) g3 g4 hcol
    exact ⟨t, h1, _, h2, rfl⟩

/-! ## Keys in a CREATE TABLE -/

theorem infix_wordless {w a n b : Str} {c d : Char} (h1 : ' ' ∈ w) (h2 : c ∉ w) (h3 : d ∉ w) (hn : ' ' ∉ n) (ha : ¬ w <:+: a) (hb : ¬ w <:+: b) : ¬ w <:+: a ++ c :: (n ++ d :: b) := by
  intro h
  rcases infix_sep h2 h with h | h
  · exact ha h
  · rcases infix_sep h3 h with h | h
    · exact hn (h.subset h1)
    · exact hb h

theorem lacks_wordless {w a n b : Str} {c d : Char} (h1 : ' ' ∈ w) (h2 : small c ∉ w) (h3 : small d ∉ w) (hn : ' ' ∉ n) (ha : Lacks w a) (hb : Lacks w b) :
    Lacks w (a ++ c :: (n ++ d :: b)) := by
  unfold Lacks
  rw [List.map_append, List.map_cons, List.map_append, List.map_cons]
  refine infix_wordless h1 h2 h3 ?_ ha hb
  intro h'
  rw [small_lower] at h'
  exact hn ((mem_lower_special (by decide) (by decide)).1 h')

/-- A name in the primary key of a CREATE TABLE. -/
theorem make_primary_create {n : Str} (h : Bare c!",\"[];\t\n\r )" n) :
    ∃ s, StatementText s ∧ ∀ schema (db : Database), ∃ t : Table, parseStatement schema db s = .ok (db.addTable t) ∧ t.pk = [n] := by
  have e : c!"create table " ++ c!"t" ++ c!" " ++ '(' :: (c!"primary key (" ++ (n ++ [')'])) ++ ')' :: [] = c!"create table t (primary key " ++ '(' :: (n ++ ')' :: c!")") := by simp
  have hn : ' ' ∉ n := bare_not_mem h (by decide)
  refine ⟨c!"create table " ++ c!"t" ++ c!" " ++ '(' :: (c!"primary key (" ++ (n ++ [')'])) ++ ')' :: [], ⟨?_, ?_, ?_, ?_⟩, fun schema db => ?_⟩
  · rw [e]
    exact bare_append (by unfold Bare; decide) (bare_cons (by decide) (bare_append (h.mono (by decide)) (by unfold Bare; decide)))
  · rw [e]
    exact infix_wordless (by decide) (by decide) (by decide) hn (by decide) (by decide)
  · simp; decide
  · intro c hc
    rw [List.getLast?_append] at hc
    simp at hc
    subst hc; decide
  · refine ⟨_, parse_create_keys (fs := [.primary (c!"primary key (" ++ (n ++ [')'])) [n]]) (tys := []) (.create (by decide)) (n := c!"t") ?_ (by decide) ?_ ?_ (by decide) rfl List.nodup_nil ?_ ?_, rfl⟩
    · exact ⟨⟨[], .plain, rfl, .inl rfl, by decide, by decide, by simp⟩, by decide, by decide, by decide⟩
    · have := FieldList.one (f := c!"primary key (" ++ (n ++ [')'])) (a := []) (b := []) (by decide) (by decide)
      simpa [Field.text] using this
    · intro f hf
      simp only [List.mem_cons, List.not_mem_nil, or_false] at hf
      subst hf
      refine ⟨⟨c!"primary key ", n, [], rfl, by decide, by decide, ⟨[n], by simp, by simp, .cons ⟨[], .plain, [], by simp [Quote.wrap], by simp, by simp, .inl rfl, ?_⟩ .nil⟩, .plain (by decide) (by decide)⟩, ⟨?_, ?_⟩, ?_, ?_⟩
      · exact h.mono (by decide)
      · simp; decide
      · intro c hc
        rw [List.getLast?_append, List.getLast?_append] at hc
        simp at hc
        subst hc; decide
      · intro h'
        apply h'
        exact ⟨c!"primary ", (c!"(" ++ (n ++ [')'])).map small, rfl⟩
      · intro h'
        apply h'
        exact ⟨[], (c!" key (" ++ (n ++ [')'])).map small, rfl⟩
    · rw [e]
      exact lacks_wordless (by decide) (by decide) (by decide) hn (by unfold Lacks; decide) (by unfold Lacks; decide)
    · rw [e]
      exact lacks_wordless (by decide) (by decide) (by decide) hn (by unfold Lacks; decide) (by unfold Lacks; decide)

/-- A phrase that is not in `A` begins in the text after it, or ends there. -/
theorem late_suffix {w A s y : Str} (hy : y <:+ A ++ s) (hp : lower w <+: lower y) (hA : ¬ lower w <:+: lower A) : y.drop w.length <:+ s := by
  obtain ⟨p, e⟩ := hy
  rcases List.append_eq_append_iff.1 e with ⟨A2, e1, e⟩ | ⟨u, -, e⟩
  · subst e
    have hA2 : A2 <:+ A := ⟨p, e1.symm⟩
    rcases Nat.lt_or_ge A2.length w.length with hl | hl
    · rw [List.drop_append, List.drop_eq_nil_of_le (by omega), List.nil_append]
      exact List.drop_suffix _ _
    · exfalso
      apply hA
      rw [lower_append] at hp
      have : lower w <+: lower A2 := List.prefix_of_prefix_length_le hp (List.prefix_append _ _) (by simpa [length_lower] using hl)
      obtain ⟨u, rfl⟩ := hA2
      rw [lower_append]
      exact this.isInfix.trans (List.suffix_append _ _).isInfix
  · exact (List.drop_suffix _ _).trans ⟨u, e.symm⟩

/-- A name in a shard key. -/
theorem make_shard {n : Str} (h : Bare c!"(,.\"'[];\t\n\r" n) :
    ∃ s, StatementText s ∧ ∀ schema (db : Database), ∃ t : Table, parseStatement schema db s = .ok (db.addTable t) ∧ ∃ k, t.shard = some k ∧ k.keys = [n] := by
  have e : c!"create table " ++ c!"t" ++ c!" " ++ '(' :: (c!"x) partition by hash (4) key (" ++ (sprinkle n ++ [])) ++ [')'] =
    c!"create table t (x) partition by hash (4) key (" ++ (sprinkle n ++ c!")") := by simp
  have hsb : Bare c!"(,.'[];\t\n\r" (sprinkle n) := bare_sprinkle (by decide) (h.mono (by decide))
  have hnl : '\n' ∉ sprinkle n := bare_not_mem hsb (by decide)
  have hop : '(' ∉ sprinkle n := bare_not_mem hsb (by decide)
  have lowP : ∀ {c : Char} {s : Str}, isLowerA c = false → isUpperA c = false → c ∉ s → c ∉ lower s := fun h1 h2 h h' => h ((mem_lower_special h1 h2).1 h')
  refine ⟨c!"create table " ++ c!"t" ++ c!" " ++ '(' :: (c!"x) partition by hash (4) key (" ++ (sprinkle n ++ [])) ++ [')'], ?_, fun schema db => ?_⟩
  · rw [e]
    exact statementText_of (by unfold Bare; decide) (h.mono (by decide)) (by unfold Bare; decide) (by decide) (by decide) (by simp; decide) (by decide) (by simp; decide) (by decide)
  · have g1 : Trim (c!"x) partition by hash (4) key (" ++ (sprinkle n ++ [])) := by
      refine ⟨by simp; decide, ?_⟩
      obtain ⟨x, e⟩ := sprinkle_last n
      rw [e]
      intro c hc
      simp [List.getLast?_append, List.getLast?_cons] at hc
      subst hc; decide
    have g2 : CommasIn (c!"x) partition by hash (4) key (" ++ (sprinkle n ++ [])) := by
      intro a b e
      have : ',' ∈ c!"x) partition by hash (4) key (" ++ (sprinkle n ++ []) := by rw [e]; simp
      simp only [List.append_nil] at this
      rcases List.mem_append.1 this with h' | h'
      · exact absurd h' (by decide)
      · exact absurd h' (bare_not_mem hsb (by decide))
    have g3 : Bare c!"[]" (c!"x) partition by hash (4) key (" ++ (sprinkle n ++ [])) :=
      bare_append (by unfold Bare; decide) (bare_append (hsb.mono (by decide)) (by unfold Bare; decide))
    have g4 : Lacks c!"create database" (c!"create table " ++ c!"t" ++ c!" " ++ '(' :: (c!"x) partition by hash (4) key (" ++ (sprinkle n ++ [])) ++ [')']) := by
      rw [e]; exact lacks_of_parts (by decide)
    have ha : ∀ acc : Table × List Column, addField acc (c!"x) partition by hash (4) key (" ++ (sprinkle n ++ [])) = .ok acc := by
      intro acc
      have k1 : hasSub c!"key " (lower (c!"x) partition by hash (4) key (" ++ (sprinkle n ++ []))) = true := by
        rw [hasSub_iff, lower_append]
        exact (show c!"key " <:+: lower c!"x) partition by hash (4) key (" by decide).trans (List.prefix_append _ _).isInfix
      have k2 : Lacks c!"primary" (c!"x) partition by hash (4) key (" ++ (sprinkle n ++ [])) := lacks_of_parts (by decide)
      unfold addField
      simp only [k1, hasSub_without k2, if_true, Bool.false_eq_true, if_false]
    have hm : reSearch patHash (c!"create table t (x) partition by hash (4) key (" ++ (sprinkle n ++ c!")")) = some [c!"4", sprinkle n] := by
      have m1 : reMatch (group ++ (lit c!")" ++ [])) (sprinkle n ++ (c!")" ++ [])) = some [sprinkle n] :=
        reMatch_star_last hnl rfl rfl (by decide)
      have m2 : reMatch (dots ++ (lit c!"(" ++ (group ++ (lit c!")" ++ [])))) (c!" " ++ (c!"(" ++ (sprinkle n ++ (c!")" ++ [])))) = some [sprinkle n] := by
        refine reMatch_star_last (by decide) rfl m1 ?_
        intro hi
        have := hi.subset (show '(' ∈ lower c!"(" by decide)
        refine lowP (by decide) (by decide) ?_ this
        simp [hop]
      have m3 : reMatch (group ++ (lit c!") key" ++ (dots ++ (lit c!"(" ++ (group ++ (lit c!")" ++ [])))))) (c!"4" ++ (c!") key" ++ (c!" " ++ (c!"(" ++ (sprinkle n ++ (c!")" ++ [])))))) =
          some [c!"4", sprinkle n] := by
        refine reMatch_star_last (by decide) rfl m2 ?_
        have : Lacks c!") key" (c!" key (" ++ (sprinkle n ++ c!")")) := lacks_of_parts (by decide)
        exact not_infix (by decide) this
      have m4 : reMatch (dots ++ (lit c!"(" ++ (group ++ (lit c!") key" ++ (dots ++ (lit c!"(" ++ (group ++ (lit c!")" ++ [])))))))) (c!" " ++ (c!"(" ++ (c!"4" ++ (c!") key" ++ (c!" " ++ (c!"(" ++ (sprinkle n ++ (c!")" ++ [])))))))) =
          some [c!"4", sprinkle n] := by
        refine reMatch_star (by decide) rfl m3 ?_
        intro y hy hp
        have hy' : y.drop 1 <:+ c!" (" ++ (sprinkle n ++ c!")") := late_suffix (w := c!"(") (A := c!"4) key") hy hp (by decide)
        refine reMatch_missing group ?_
        have l : Lacks c!") key" (c!" (" ++ (sprinkle n ++ c!")")) := lacks_of_parts (by decide)
        exact not_infix (by decide) (lacks_infix l hy'.isInfix)
      have m5 : reMatch (dots ++ (lit c!"partition by hash" ++ (dots ++ (lit c!"(" ++ (group ++ (lit c!") key" ++ (dots ++ (lit c!"(" ++ (group ++ (lit c!")" ++ []))))))))))
          (c!" t (x) " ++ (c!"partition by hash" ++ (c!" " ++ (c!"(" ++ (c!"4" ++ (c!") key" ++ (c!" " ++ (c!"(" ++ (sprinkle n ++ (c!")" ++ [])))))))))) = some [c!"4", sprinkle n] := by
        refine reMatch_star_last (by decide) rfl m4 ?_
        have : Lacks c!"partition by hash" (c!"artition by hash (4) key (" ++ (sprinkle n ++ c!")")) := lacks_of_parts (by decide)
        exact not_infix (by decide) this
      apply reSearch_first
      rw [show patHash = lit c!"create table" ++ (dots ++ (lit c!"partition by hash" ++ (dots ++ (lit c!"(" ++ (group ++ (lit c!") key" ++ (dots ++ (lit c!"(" ++ (group ++ (lit c!")" ++ [])))))))))) by
        simp [patHash]]
      rw [reMatch_lit, if_pos]
      · exact m5
      · exact ⟨lower (c!" t (x) partition by hash (4) key (" ++ (sprinkle n ++ c!")")), by rw [← lower_append]; rfl⟩
    have hh : hasSub c!"partition by hash" (lower (c!"create table t (x) partition by hash (4) key (" ++ (sprinkle n ++ c!")"))) = true := by
      rw [hasSub_iff, lower_append]
      exact (show c!"partition by hash" <:+: lower c!"create table t (x) partition by hash (4) key (" by decide).trans (List.prefix_append _ _).isInfix
    refine ⟨_, create_one (n := c!"t") db rfl rfl (by unfold Bare; decide) ⟨'t', rfl, by decide⟩ (by decide) (by decide) g1 g2 (by simp) g3 g4 (ha _), ?_⟩
    rw [e, hh, if_pos rfl]
    unfold addHashKey
    rw [hm]
    refine ⟨_, rfl, ?_⟩
    rw [cleanNames, splitC_plain (bare_not_mem hsb (by decide)), List.map_cons, List.map_nil,
      cleanName_written ⟨[], [], sprinkle n, [], by simp, .inl rfl, by unfold White; decide, by unfold White; decide, sprinkle_spelling (h.mono (by decide))⟩]

/-! ## ALTER TABLE -/

def smallTable (schema : Str) : Table := { name := c!"t", schema := schema, pk := [], shard := none, cols := [(c!"c", ⟨c!"c", c!"BIGINT"⟩)], fks := [], rels := [] }

theorem parse_small (schema : Str) (db : Database) : parseStatement schema db c!"create table t (c int)" = .ok (db.addTable (smallTable schema)) := by
  rw [show c!"create table t (c int)" = c!"create table " ++ c!"t" ++ c!" " ++ '(' :: c!"c int" ++ [')'] from rfl]
  rw [create_one (n := c!"t") (acc := ({ name := c!"t", schema := schema, pk := [], shard := none, cols := [], fks := [], rels := [] }, [⟨c!"c", c!"BIGINT"⟩])) db rfl rfl
      (by unfold Bare; decide) ⟨'t', rfl, by decide⟩ (by decide) (by decide) (by decide)
      (by intro a b e; have : ',' ∈ c!"c int" := by rw [e]; simp
          exact absurd this (by decide)) (by decide) (by unfold Bare; decide) (by unfold Lacks; decide) rfl]
  rfl

theorem altered {schema name s : Str} {f : Table → Table}
    (h : ∀ db, WellKeyed db → parseStatement schema db s = .ok (changed db c!"t" f)) :
    ∃ db, parseStatements schema (Database.empty name) [c!"create table t (c int)", s] = (db, none) ∧ (c!"t", f (smallTable schema)) ∈ db.tables := by
  refine ⟨changed ((Database.empty name).addTable (smallTable schema)) c!"t" f, ?_, ?_⟩
  · rw [parseStatements, parse_small]
    dsimp only
    rw [parseStatements, h]
    · rfl
    · constructor <;> simp [Database.addTable, Database.empty, Dict.set, smallTable]
  · simp [changed, Database.addTable, Database.empty, Dict.set, smallTable]

theorem smallText : StatementText c!"create table t (c int)" := ⟨by unfold Bare; decide, by decide, by simp; decide, by simp; decide⟩

theorem written_sprinkle {n : Str} (h : Bare c!".\t\"'[]" n) : Written (sprinkle n) n :=
  ⟨[], [], sprinkle n, [], by simp, .inl rfl, by unfold White; decide, by unfold White; decide, sprinkle_spelling h⟩

theorem leading_sprinkle {n : Str} (h : Bare c!".\t\"'[]" n) : Leading ('\'' :: (sprinkle n ++ ['\''])) n := by
  have hb : Bare c!".'" (sprinkle n) := bare_sprinkle (by decide) (h.mono (by decide))
  refine ⟨[], '\'' :: (sprinkle n ++ ['\'']), [], by simp, .inl rfl, ?_, by simp, .inl ⟨'\'', sprinkle n, .inr rfl, rfl, bare_not_mem hb (by decide), written_sprinkle h⟩⟩
  simp only [List.mem_cons, List.mem_append, List.not_mem_nil, or_false, not_or]
  exact ⟨by decide, bare_not_mem hb (by decide), by decide⟩

theorem columns_sprinkle {n : Str} (h : Bare c!",.\t\"'[]" n) : Columns (sprinkle n) [n] :=
  ⟨[sprinkle n], by simp, by simp, .cons ⟨written_sprinkle (h.mono (by decide)), bare_not_mem (bare_sprinkle (bad := c!",") (by decide) (h.mono (by decide))) (by decide)⟩ .nil⟩

/-- A foreign key with any names. -/
theorem make_foreign {a b c d : Str} (ha : Bare c!".\"'[];\t\n\r" a) (hb : Bare c!",.\"'[];\t\n\r" b) (hc : Bare c!".\"'[];\t\n\r" c) (hd : Bare c!",.\"'[];\t\n\r" d) :
    ∃ s, StatementText s ∧ AddsForeignKeys s c!"t" [⟨some a, [b], c, [d]⟩] := by
  have hw : ∀ {w : Str}, 2 ≤ w.length ∧ '"' ∉ w ∧ ¬ (w <:+: c!") references '") ∧ ¬ (w <:+: c!"' (") ∧ ¬ (w <:+: c!")") →
      Lacks w (c!") references '" ++ (sprinkle c ++ (c!"' (" ++ (sprinkle d ++ c!")")))) := fun h =>
    lacks_sprinkle ⟨h.1, h.2.1⟩ h.2.2.1 (lacks_sprinkle ⟨h.1, h.2.1⟩ h.2.2.2.1 h.2.2.2.2)
  have lk : ∀ {w : Str}, 2 ≤ w.length ∧ '"' ∉ w ∧ ¬ (w <:+: c!") references '") ∧ ¬ (w <:+: c!"' (") ∧ ¬ (w <:+: c!")") → ¬ (w <:+: c!"alter table t add constraint ") ∧ ¬ (w <:+: c!" foreign key (") →
      Lacks w (c!"alter table t add constraint " ++ (sprinkle a ++ (c!" foreign key (" ++ (sprinkle b ++ (c!") references '" ++ (sprinkle c ++ (c!"' (" ++ (sprinkle d ++ c!")")))))))) := fun h h' =>
    lacks_sprinkle ⟨h.1, h.2.1⟩ h'.1 (lacks_sprinkle ⟨h.1, h.2.1⟩ h'.2 (hw h))
  have hb2 : Bare c!";\t\n\r" (c!"alter table t add constraint " ++ (sprinkle a ++ (c!" foreign key (" ++ (sprinkle b ++ (c!") references '" ++ (sprinkle c ++ (c!"' (" ++ (sprinkle d ++ c!")")))))))) :=
    bare_append (by unfold Bare; decide) (bare_append (bare_sprinkle (by decide) (ha.mono (by decide))) (bare_append (by unfold Bare; decide) (bare_append (bare_sprinkle (by decide) (hb.mono (by decide)))
      (bare_append (by unfold Bare; decide) (bare_append (bare_sprinkle (by decide) (hc.mono (by decide))) (bare_append (by unfold Bare; decide) (bare_append (bare_sprinkle (by decide) (hd.mono (by decide)))
      (by unfold Bare; decide))))))))
  have hr : References (c!" (" ++ (sprinkle b ++ (c!") references '" ++ (sprinkle c ++ (c!"' (" ++ (sprinkle d ++ c!")")))))) ⟨some a, [b], c, [d]⟩ := by
    refine ⟨⟨c!" ", sprinkle b, c!") references", c!" ", '\'' :: (sprinkle c ++ ['\'']), sprinkle d, [], by simp, by decide, columns_sprinkle (hb.mono (by decide)), by decide, by decide,
      leading_sprinkle (hc.mono (by decide)), by simp, columns_sprinkle (hd.mono (by decide)), by simp, ?_, ?_⟩, ?_, rfl⟩
    · have : Lacks c!") references" (c!" references '" ++ (sprinkle c ++ (c!"' (" ++ (sprinkle d ++ c!")")))) :=
        lacks_sprinkle (by decide) (by unfold Lacks; decide) (lacks_of_parts (by decide))
      simpa using this
    · exact lacks_of_parts (a := c!"(") (by decide)
    · exact fun h' => hb2 '\n' (by
        rw [List.mem_append, List.mem_append]
        right; right
        rw [show c!" foreign key (" = c!" foreign key" ++ c!" (" from rfl, List.append_assoc, List.mem_append]
        exact .inr h') (by decide)
  refine ⟨c!"alter table t add constraint " ++ (sprinkle a ++ (c!" foreign key (" ++ (sprinkle b ++ (c!") references '" ++ (sprinkle c ++ (c!"' (" ++ (sprinkle d ++ c!")"))))))), ⟨hb2, ?_, ?_, ?_⟩, ⟨⟨c!"alter table ", c!"t", c!" add", c!" ",
    c!"constraint" ++ (c!" " ++ (sprinkle a ++ (c!" foreign key" ++ (c!" (" ++ (sprinkle b ++ (c!") references '" ++ (sprinkle c ++ (c!"' (" ++ (sprinkle d ++ c!")"))))))))), by simp, by decide, ?_, by decide, by decide, by decide, ?_, by unfold Lacks; decide, ?_⟩, ?_, ?_, ?_⟩⟩
  · exact single_sprinkle (by decide) (single_sprinkle (by decide) (single_sprinkle (by decide) (single_sprinkle (by decide) (by decide))))
  · simp; decide
  · intro c hc
    simp [List.getLast?_append, List.getLast?_cons] at hc
    subst hc; decide
  · exact ⟨[], [], c!"t", [], rfl, .inl rfl, by unfold White; decide, by unfold White; decide, ⟨by decide, by decide, by simp; decide, by simp; decide⟩⟩
  · refine .one (by decide) ⟨⟨c!" ", sprinkle a ++ (c!" foreign key" ++ (c!" (" ++ (sprinkle b ++ (c!") references '" ++ (sprinkle c ++ (c!"' (" ++ (sprinkle d ++ c!")"))))))), [], [], [], by simp, by unfold White; decide, by unfold White; decide, by decide, by unfold White; decide,
      .named (written_sprinkle (ha.mono (by decide))) (bare_not_mem (bare_sprinkle (bad := c!"\n") (by decide) (ha.mono (by decide))) (by decide)) (by decide) hr ?_ rfl, ?_, ?_⟩, ?_⟩
    · exact lacks_sprinkle (a := c!"foreign key (") (by decide) (by unfold Lacks; decide) (hw (by decide))
    · intro c hc
      simp [sprinkle] at hc
      subst hc; decide
    · intro c hc
      simp [List.getLast?_append, List.getLast?_cons] at hc
      subst hc; decide
    · exact lacks_sprinkle (a := c!" ") (by decide) (by unfold Lacks; decide) (lacks_sprinkle (a := c!" foreign key (") (by decide) (by unfold Lacks; decide) (hw (by decide)))
  · exact lacks_sprinkle (a := c!"add constraint ") (by decide) (by unfold Lacks; decide) (lacks_sprinkle (a := c!" foreign key (") (by decide) (by unfold Lacks; decide) (hw (by decide)))
  · exact bare_not_mem hb2 (by decide)
  · intro w hw'
    simp only [List.mem_cons, List.not_mem_nil, or_false] at hw'
    rcases hw' with rfl | rfl | rfl <;> exact lk (by decide) (by decide)
  · exact lk (by decide) (by decide)

theorem leading_t : Leading c!"t" c!"t" :=
  ⟨[], c!"t", [], rfl, .inl rfl, by decide, by decide, .inr ⟨⟨[], [], c!"t", [], rfl, .inl rfl, by unfold White; decide, by unfold White; decide,
    ⟨by decide, by decide, by simp; decide, by simp; decide⟩⟩, ⟨'t', rfl, by decide, by decide⟩, by decide, .inl rfl⟩⟩

/-- A name in the primary key of an ALTER TABLE. -/
theorem make_primary_alter {n : Str} (h : Bare c!",\"[];\t\n\r(.'" n) : ∃ s, StatementText s ∧ SetsPrimaryKey s c!"t" [n] := by
  have hb : Bare c!";\t\n\r(" (sprinkle n) := bare_sprinkle (by decide) (h.mono (by decide))
  refine ⟨c!"alter table t primary key (" ++ (sprinkle n ++ c!")"), ?_, ⟨⟨c!"alter table ", c!"t", [], c!"primary key", c!" ", sprinkle n, [], by simp, by decide, leading_t, by simp, by decide,
    columns_sprinkle (h.mono (by decide)), bare_not_mem hb (by decide), by simp, by simp, ?_⟩, ?_, ?_⟩⟩
  · exact statementText_of (by unfold Bare; decide) (h.mono (by decide)) (by unfold Bare; decide) (by decide) (by decide) (by simp; decide) (by decide) (by simp; decide) (by decide)
  · exact lacks_of_parts (a := c!"rimary key (") (by decide)
  · simp [bare_not_mem hb]
  · intro w hw'
    simp only [List.mem_cons, List.not_mem_nil, or_false] at hw'
    rcases hw' with rfl | rfl | rfl <;> exact lacks_of_parts (by decide)

/-- A relationship with any names. -/
theorem make_relationship {a b : Str} (ha : Bare c!".\"'[];\t\n\r" a) (hb : Bare c!".\"'[];\t\n\r" b) :
    ∃ s, StatementText s ∧ AddsRelationship s c!"t" ⟨some a, b, c!"x"⟩ := by
  have lk : ∀ {w : Str}, 2 ≤ w.length ∧ '"' ∉ w ∧ ¬ (w <:+: c!"alter table t add relationship ") ∧ ¬ (w <:+: c!" with '") ∧ ¬ (w <:+: c!"' as x") →
      Lacks w (c!"alter table t add relationship " ++ (sprinkle a ++ (c!" with '" ++ (sprinkle b ++ c!"' as x")))) := fun h =>
    lacks_sprinkle ⟨h.1, h.2.1⟩ h.2.2.1 (lacks_sprinkle ⟨h.1, h.2.1⟩ h.2.2.2.1 h.2.2.2.2)
  have hb2 : Bare c!";\t\n\r" (c!"alter table t add relationship " ++ (sprinkle a ++ (c!" with '" ++ (sprinkle b ++ c!"' as x")))) :=
    bare_append (by unfold Bare; decide) (bare_append (bare_sprinkle (by decide) (ha.mono (by decide))) (bare_append (by unfold Bare; decide) (bare_append (bare_sprinkle (by decide) (hb.mono (by decide)))
      (by unfold Bare; decide))))
  refine ⟨c!"alter table t add relationship " ++ (sprinkle a ++ (c!" with '" ++ (sprinkle b ++ c!"' as x"))), ⟨hb2, ?_, ?_, ?_⟩, ⟨⟨c!"alter table ", c!"t", c!" add relationship ",
    sprinkle a ++ (c!" with " ++ (('\'' :: (sprinkle b ++ ['\''])) ++ (c!" as " ++ c!"x"))), by simp, by decide, leading_t, by decide, ?_, by unfold Lacks; decide, ?_⟩, ?_, ?_, ?_, ?_⟩⟩
  · exact single_sprinkle (by decide) (single_sprinkle (by decide) (by decide))
  · simp; decide
  · intro c hc
    simp [List.getLast?_append, List.getLast?_cons] at hc
    subst hc; decide
  · refine .named (written_sprinkle (ha.mono (by decide))) (by decide) (leading_sprinkle (hb.mono (by decide))) (by decide) rfl rfl ?_ (by unfold Lacks; decide)
    exact lacks_of_parts (a := c!"with '") (by decide)
  · have : Lacks c!" add relationship " (c!"add relationship " ++ (sprinkle a ++ (c!" with '" ++ (sprinkle b ++ c!"' as x")))) :=
      lacks_sprinkle (by decide) (by unfold Lacks; decide) (lacks_of_parts (by decide))
    simpa using this
  · exact bare_not_mem hb2 (by decide)
  · intro w hw'
    simp only [List.mem_cons, List.not_mem_nil, or_false] at hw'
    rcases hw' with rfl | rfl | rfl <;> exact lk (by decide)
  · exact lk (by decide)
  · exact lk (by decide)

theorem lower_suffix {y s : Str} (h : y <:+ s) : lower y <:+ lower s := by
  obtain ⟨u, rfl⟩ := h
  rw [lower_append]
  exact List.suffix_append _ _

theorem infix_across {w a s : Str} (h : w <:+: a ++ s) : w <:+: a ∨ w <:+: s ∨ ∃ k, 0 < k ∧ k < w.length ∧ w.take k <:+ a := by
  obtain ⟨u, v, e⟩ := h
  rw [List.append_assoc] at e
  rcases List.append_eq_append_iff.1 e with ⟨a', rfl, e2⟩ | ⟨b', rfl, e2⟩
  · rcases List.append_eq_append_iff.1 e2 with ⟨x, rfl, -⟩ | ⟨w', rfl, rfl⟩
    · exact .inl ⟨u, x, by simp⟩
    · cases a' with
      | nil => exact .inr (.inl ⟨[], v, by simp⟩)
      | cons p a' =>
        cases w' with
        | nil => exact .inl ⟨u, [], by simp⟩
        | cons q w' => exact .inr (.inr ⟨(p :: a').length, by simp, by simp, by rw [List.take_left]; exact ⟨u, rfl⟩⟩)
  · exact .inr (.inl ⟨b', v, by rw [e2]; simp⟩)

/-- A relationship with any condition. -/
theorem make_condition {c : Str} (h : ConditionText c) : ∃ s, StatementText s ∧ ∀ schema db, WellKeyed db →
    parseStatement schema db s = .ok (changed db c!"t" (fun t => { t with rels := t.rels.set c!"r" ⟨c!"r", c!"t", c!"u", c⟩ })) := by
  have hnl : '\n' ∉ c := bare_not_mem h.chars (by decide)
  -- the statement lacks a phrase that is neither in the condition nor begins before it
  have lk : ∀ {w : Str}, (¬ (w <:+: c!"alter table t add relationship r with u as ") ∧ ∀ k < w.length, 0 < k → ¬ (w.take k <:+ c!"alter table t add relationship r with u as ")) → Lacks w c →
      Lacks w (c!"alter table t add relationship r with u as " ++ c) := by
    intro w h1 h2 hi
    rw [List.map_append] at hi
    rcases infix_across hi with h' | h' | ⟨k, k1, k2, h'⟩
    · exact h1.1 h'
    · exact h2 h'
    · exact h1.2 k k2 k1 h'
  refine ⟨c!"alter table t add relationship r with u as " ++ c, ⟨?_, ?_, ?_, ?_⟩, fun schema db hdb => ?_⟩
  · exact bare_append (by unfold Bare; decide) h.chars
  · have e : c!"alter table t add relationship r with u as " ++ c = c!"alter table t add relationship r with u a" ++ 's' :: (' ' :: c) := by simp
    rw [e]
    exact single_sep (by decide) (by decide) h.single
  · simp; decide
  · intro d hd
    rw [List.getLast?_append] at hd
    cases hl : c.getLast? with
    | none => exact absurd (List.getLast?_eq_none_iff.1 hl) h.nonempty
    | some e => rw [hl] at hd; exact h.last d (by rw [hl]; simpa using hd)
  · have hr : readRelationship (c!"alter table t add relationship r with u as " ++ c) = some (c!"t", some c!"r", c!"u", c) := by
      have las : ¬ lower c!" as " <:+: lower (' ' :: c) := not_infix rfl h.noAs
      have m0 : reMatch group c = some [c] := reMatch_rest hnl
      have m1 : reMatch (group ++ (lit c!" as " ++ group)) (c!"u" ++ (c!" as " ++ c)) = some [c!"u", c] := by
        refine reMatch_star_last (by decide) rfl m0 ?_
        intro hi
        rcases infix_across (a := c!"as") (s := lower (' ' :: c)) (w := c!" as ") hi with h' | h' | ⟨k, k1, k2, h'⟩
        · revert h'; decide
        · exact las h'
        · revert h'; revert k1; revert k2; revert k; decide
      have m2 : reMatch (group ++ (lit c!" with " ++ (group ++ (lit c!" as " ++ group)))) (c!"r" ++ (c!" with " ++ (c!"u" ++ (c!" as " ++ c)))) = some [c!"r", c!"u", c] := by
        refine reMatch_star (by decide) rfl m1 ?_
        intro y hy hp
        have hy' : y.drop 6 <:+ ' ' :: c := late_suffix (w := c!" with ") (A := c!"with u as") (by simpa using hy) hp (by decide)
        exact reMatch_missing group (fun hi => las (hi.trans (lower_suffix hy').isInfix))
      have m3 : reMatch (group ++ (lit c!" add relationship " ++ (group ++ (lit c!" with " ++ (group ++ (lit c!" as " ++ group)))))) (c!"t" ++ (c!" add relationship " ++ (c!"r" ++ (c!" with " ++ (c!"u" ++ (c!" as " ++ c)))))) =
          some [c!"t", c!"r", c!"u", c] := by
        refine reMatch_star (by decide) rfl m2 ?_
        intro y hy hp
        have hy' : y.drop 18 <:+ ' ' :: c := late_suffix (w := c!" add relationship ") (A := c!"add relationship r with u as") (by simpa using hy) hp (by decide)
        have := reMatch_missing (w := c!" as ") (us := group) (group ++ (lit c!" with " ++ group)) (s := y.drop 18) (fun hi => las (hi.trans (lower_suffix hy').isInfix))
        simpa using this
      have m4 : reMatch patRel (c!"alter table t add relationship r with u as " ++ c) = some [c!"t", c!"r", c!"u", c] := by
        rw [show patRel = lit c!"alter table " ++ (group ++ (lit c!" add relationship " ++ (group ++ (lit c!" with " ++ (group ++ (lit c!" as " ++ group)))))) by simp [patRel]]
        rw [reMatch_lit, if_pos]
        · exact m3
        · exact ⟨lower (c!"t add relationship r with u as " ++ c), by rw [← lower_append]; rfl⟩
      unfold readRelationship
      rw [m4]
      rfl
    have n1 := hasSub_without (lk (by decide) (h.phrases c!"create database" (by simp)))
    have n2 := hasSub_without (lk (by decide) (h.phrases c!"create table" (by simp)))
    have n3 := hasSub_without (lk (by decide) (h.phrases c!"create or replace table" (by simp)))
    have n4 := hasSub_without (lk (by decide) (h.phrases c!"primary key" (by simp)))
    have n5 := hasSub_without (lk (by decide) (h.phrases c!"foreign" (by simp)))
    have p1 : hasSub c!"alter table" (lower (c!"alter table t add relationship r with u as " ++ c)) = true := by
      rw [hasSub_iff, lower_append]
      exact (show c!"alter table" <:+: lower c!"alter table t add relationship r with u as " by decide).trans (List.prefix_append _ _).isInfix
    have p2 : hasSub c!"relationship" (lower (c!"alter table t add relationship r with u as " ++ c)) = true := by
      rw [hasSub_iff, lower_append]
      exact (show c!"relationship" <:+: lower c!"alter table t add relationship r with u as " by decide).trans (List.prefix_append _ _).isInfix
    generalize c!"alter table t add relationship r with u as " ++ c = stmt at hr n1 n2 n3 n4 n5 p1 p2
    unfold parseStatement
    simp only [n1, n2, n3, n4, n5, p1, p2, Bool.false_eq_true, if_false, Bool.or_false, if_true, Except.ok.injEq]
    unfold addGenericRelationship
    rw [hr]
    simp only
    cases hg : db.getTable c!"t" with
    | none => simp only [changed_absent hg]
    | some u =>
      have hn := table_name hdb hg
      have e : u.addRelationship (some c!"u") (some c!"r") (some c) = .ok { u with rels := u.rels.set c!"r" ⟨c!"r", c!"t", c!"u", c⟩ } := by
        simp only [Table.addRelationship, mkRel, bind, Except.bind, hn, Table.addRelationshipObj]
      simp only [e]
      rw [changed_present hdb hg (fun u => { u with rels := u.rels.set c!"r" ⟨c!"r", c!"t", c!"u", c⟩ })]

/-! ## Files -/

theorem fileGives_iff {p : ParserSt} {db : Database} :
    FileGives p db ↔ ∃ l : List Str, (∀ s ∈ l, StatementText s) ∧ parseStatements p.schemaName (Database.empty p.databaseName) l = (db, none) := by
  constructor
  · rintro ⟨fs, f, h⟩
    have key : ∀ content, (match parseStatements p.schemaName (Database.empty p.databaseName) (getStatements (fileLines content)) with
        | (db, none) => (({ p with database := some db } : ParserSt), (.ok (some db) : Except PyErr (Option Database)))
        | (db, some e) => ({ p with database := some db }, .error e)).2 = .ok (some db) →
        ∃ l : List Str, (∀ s ∈ l, StatementText s) ∧ parseStatements p.schemaName (Database.empty p.databaseName) l = (db, none) := by
      intro content h
      refine ⟨getStatements (fileLines content), fun s hs => statementText_of_mem hs, ?_⟩
      split at h
      · rename_i db' e
        simp only [Except.ok.injEq, Option.some.injEq] at h
        rw [e, h]
      · cases h
    unfold parseDdl at h
    split at h
    · cases h
    · cases h
    · split at h
      · cases h
      · cases h
      · exact key _ h
      · exact key _ h
  · rintro ⟨l, hl, h⟩
    exact read_of hl h

/-- Some file gives the database after one statement. -/
theorem fileGives_one {p : ParserSt} {s : Str} {t : Table} (hs : StatementText s)
    (h : ∀ db : Database, parseStatement p.schemaName db s = .ok (db.addTable t)) : FileGives p ((Database.empty p.databaseName).addTable t) := by
  refine fileGives_iff.2 ⟨[s], by simpa using hs, ?_⟩
  rw [parseStatements, h]
  rfl

/-- Some file gives the table `t` with an alteration. -/
theorem fileGives_altered {p : ParserSt} {s : Str} {f : Table → Table} (hs : StatementText s)
    (h : ∀ db, WellKeyed db → parseStatement p.schemaName db s = .ok (changed db c!"t" f)) : ∃ db, FileGives p db ∧ (c!"t", f (smallTable p.schemaName)) ∈ db.tables := by
  obtain ⟨db, h1, h2⟩ := altered (name := p.databaseName) h
  exact ⟨db, fileGives_iff.2 ⟨_, by simpa using ⟨smallText, hs⟩, h1⟩, h2⟩

end Verif
