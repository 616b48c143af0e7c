import Verif.Lemmas.Review
import Verif.Props.Graph
/-
Properties of the reviews of primary keys, sharding, joins and worksheets, and of the reviewer: C46 (sharding), C50-C55.
-/

namespace Verif.Props
open Verif Verif.Spec

/-! ## C50 -/

/-- What is said about a table without primary key. -/
def pkMessage (db : Str) (t : Table) : Str := c!"No primary key on table " ++ db ++ c!"." ++ t.schema ++ c!"." ++ t.name

/-- C50: one message for every table with an empty primary key, in the order of the tables. -/
theorem C50_missing_pks (db : Database) :
    reviewPks db = ((db.tables.map Prod.snd).filter (fun t => t.pk = [])).map
      (fun t => c!"No primary key on table " ++ db.name ++ c!"." ++ t.schema ++ c!"." ++ t.name) := by
  unfold reviewPks Database.iter
  show List.flatMap _ (db.tables.map Prod.snd) = _
  induction db.tables.map Prod.snd with
  | nil => rfl
  | cons t ts ih =>
    rw [List.flatMap_cons, ih, List.filter_cons]
    by_cases h : t.pk = [] <;> simp [h]

example : reviewPks circleDb = [c!"No primary key on table d.s.a", c!"No primary key on table d.s.b", c!"No primary key on table d.s.c",
    c!"No primary key on table d.s.d", c!"No primary key on table d.s.e", c!"No primary key on table d.s.f"] ∧
    reviewPks { circleDb with tables := circleDb.tables.take 2 |>.map (fun p => (p.1, { p.2 with pk := if p.1 = c!"a" then [c!"x"] else [] })) } =
      [c!"No primary key on table d.s.b"] := by decide +kernel

/-! ## C51 -/

theorem shardingRows_spec {f : StatRow → Except PyErr (List Str)} {R : StatRow → List Str → Prop} (rows : List StatRow)
    (h : ∀ r ∈ rows, ∃ l, f r = .ok l ∧ R r l) : ∃ ls, List.Forall₂ R rows ls ∧ shardingRows f rows = .ok ls.flatten := by
  induction rows with
  | nil => exact ⟨[], .nil, rfl⟩
  | cons r rs ih =>
    obtain ⟨l, e, hr⟩ := h r (by simp)
    obtain ⟨ls, hf, es⟩ := ih (fun r' hr' => h r' (by simp [hr']))
    refine ⟨l :: ls, .cons hr hf, ?_⟩
    simp [shardingRows, e, es, bind, Except.bind]

/-- C51: with numeric limits and statistics in which the rows of the database carry numbers that are not astronomically large and at least one
shard, the review returns, row by row, exactly the findings the limits call for.  The quotients are floats. -/
theorem C51_thresholds (floatRepr : Rat → Str) (db : Database) (cfg : Config) (hc : (cfg.map Prod.fst).Nodup)
    (vmax vmin vskew : CfgVal) (max min ratio : Rat)
    (h1 : Setting cfg c!"max_rows_per_shard" (.int 50000000) vmax) (n1 : Number vmax max)
    (h2 : Setting cfg c!"min_rows_per_shard" (.int 20000000) vmin) (n2 : Number vmin min)
    (h3 : Setting cfg c!"min_skew_ratio" (.flt minSkewRatio) vskew) (n3 : Number vskew ratio)
    (rows : List StatRow) (hrows : ∀ r ∈ rows, r.database = db.name → ∃ n m k : Int, IntValue r.rowCount n ∧ IntValue r.shards m ∧
      IntValue r.skew k ∧ 1 ≤ m ∧ |n| ≤ 2 ^ 500 ∧ m ≤ 2 ^ 500 ∧ |k| ≤ 2 ^ 500) :
    ∃ ls, List.Forall₂ (RowReport floatRepr vmax vmin max min ratio db.name) rows ls ∧
      reviewSharding floatRepr db (.ok rows) cfg = .ok ls.flatten := by
  unfold reviewSharding
  rw [setting_value hc h1, setting_value hc h2, setting_value hc h3]
  show ∃ ls, _ ∧ shardingRows _ rows = _
  refine shardingRows_spec rows ?_
  intro r hr
  by_cases hdb : r.database = db.name
  · obtain ⟨n, m, k, hn, hm, hk, hpos, b1, b2, b3⟩ := hrows r hr hdb
    obtain ⟨l, fs, p, z, e, hz, hfs, hsub, hsays⟩ := shardingCase_spec floatRepr n1 n2 n3 r n m k hpos b1 b2 b3
    refine ⟨l, ?_, .own n m k p z fs l hdb hn hm hk (fun _ => hz) hfs hsub hsays⟩
    rw [shardingRow, if_pos hdb, (pyInt_value _ _).2 hn, (pyInt_value _ _).2 hm, (pyInt_value _ _).2 hk]
    exact e
  · exact ⟨[], by rw [shardingRow, if_neg hdb], .other hdb⟩

/-- C51: with whole numbers as limits of the rows, the default limit of the skew ratio and fewer than 2^50 rows, floats make no difference: the
findings are those of the exact quotients. -/
theorem C51_exact (floatRepr : Rat → Str) (db : Database) (cfg : Config) (hc : (cfg.map Prod.fst).Nodup) (max min : Int)
    (h1 : Setting cfg c!"max_rows_per_shard" (.int 50000000) (.int max))
    (h2 : Setting cfg c!"min_rows_per_shard" (.int 20000000) (.int min))
    (h3 : Setting cfg c!"min_skew_ratio" (.flt minSkewRatio) (.flt minSkewRatio))
    (rows : List StatRow) (hrows : ∀ r ∈ rows, r.database = db.name → ∃ n m k : Int, IntValue r.rowCount n ∧ IntValue r.shards m ∧
      IntValue r.skew k ∧ 1 ≤ m ∧ |n| < 2 ^ 50 ∧ m < 2 ^ 50 ∧ |k| < 2 ^ 53 ∧ |max| * m < 2 ^ 52 ∧ |min| * m < 2 ^ 52) :
    ∃ ls, List.Forall₂ (ExactReport floatRepr (.int max) (.int min) max min minSkewRatio db.name) rows ls ∧
      reviewSharding floatRepr db (.ok rows) cfg = .ok ls.flatten := by
  unfold reviewSharding
  rw [setting_value hc h1, setting_value hc h2, setting_value hc h3]
  show ∃ ls, _ ∧ shardingRows _ rows = _
  refine shardingRows_spec rows ?_
  intro r hr
  by_cases hdb : r.database = db.name
  · obtain ⟨n, m, k, hn, hm, hk, hpos, b1, b2, b3, b4, b5⟩ := hrows r hr hdb
    obtain ⟨l, fs, p, z, e, hz, hfs, hsub, hsays⟩ := shardingCase_spec floatRepr (.int max) (.int min) (.flt minSkewRatio) r n m k hpos
      (b1.le.trans (by decide +kernel)) (b2.le.trans (by decide +kernel)) (b3.le.trans (by decide +kernel))
    refine ⟨l, ?_, .own n m k p z fs l hdb hn hm hk (fun _ => hz) (fun f => (hfs f).trans ?_) hsub hsays⟩
    · rw [shardingRow, if_pos hdb, (pyInt_value _ _).2 hn, (pyInt_value _ _).2 hm, (pyInt_value _ _).2 hk]
      exact e
    · have hp : Rounds ((n : Rat) / m) p := by cases hz <;> assumption
      have q1 := (rounds_lt_int hpos (b2.trans (by norm_num)) b5 hp).1
      have q2 := (rounds_lt_int hpos (b2.trans (by norm_num)) b4 hp).2
      cases f with
      | unsharded => exact Iff.rfl
      | few => simp only [Found, Exactly, q1]
      | many => simp only [Found, Exactly, q1, q2]
      | skewed =>
        simp only [Found, Exactly]
        by_cases hr : 0 < n
        · simp only [rounds_skew hr (lt_of_abs_lt b1) hpos b2 b3 hz, hr, true_and, not_true, false_and, or_false]
        · have : z = 0 := by
            cases hz with
            | some _ _ h => exact absurd h hr
            | empty => rfl
          simp only [this, hr, false_and, not_false_iff, true_and, false_or]
  · exact ⟨[], by rw [shardingRow, if_neg hdb], .other hdb⟩

/-- C51: with more rows floats do make a difference.  A table with one row less than 20,000,000 for each of 2^53 shards is not reported. -/
theorem C51_rounding : ∃ r : StatRow, ∃ n m k : Int, IntValue r.rowCount n ∧ IntValue r.shards m ∧ IntValue r.skew k ∧ r.database = circleDb.name ∧
    Exactly 50000000 20000000 minSkewRatio n m k .few ∧ reviewSharding (fun _ => []) circleDb (.ok [r]) [] = .ok [] :=
  ⟨⟨c!"d", c!"s", c!"a", c!"180143985094819839999999", c!"9007199254740992", c!"0"⟩, 180143985094819839999999, 9007199254740992, 0,
    (pyInt_value _ _).1 (by decide +kernel), (pyInt_value _ _).1 (by decide +kernel), (pyInt_value _ _).1 (by decide +kernel), rfl,
    by unfold Exactly; norm_num, by decide +kernel⟩

/-- C51: a row with zero shards makes the review raise `ZeroDivisionError`. -/
theorem C51_zero_shards (floatRepr : Rat → Str) (db : Database) (cfg : Config) (r : StatRow) (rows : List StatRow) (n k : Int)
    (hdb : r.database = db.name) (hn : IntValue r.rowCount n) (hm : IntValue r.shards 0) (hk : IntValue r.skew k) :
    reviewSharding floatRepr db (.ok (r :: rows)) cfg = .error .zeroDiv := by
  simp [reviewSharding, shardingRows, shardingRow, hdb, (pyInt_value _ _).2 hn, (pyInt_value _ _).2 hm, (pyInt_value _ _).2 hk,
    shardingCase, intDiv, bind, Except.bind]

-- Numbers beyond the floats make the review raise `OverflowError`.
example : reviewSharding (fun _ => []) circleDb (.ok [⟨c!"d", c!"s", c!"a", '1' :: List.replicate 309 '0', c!"2", c!"0"⟩]) [] = .error .overflow := by
  decide +kernel

/-- Statistics for the examples: two tables of the database `d` and one of another database. -/
def sampleStats : List StatRow :=
  [⟨c!"d", c!"s", c!"a", c!"50000001", c!"1", c!"0"⟩, ⟨c!"e", c!"s", c!"x", c!"n/a", c!"0", c!"0"⟩,
   ⟨c!"d", c!"s", c!"b", c!" 100 ", c!"4", c!"1"⟩, ⟨c!"d", c!"s", c!"c", c!"100_000_000", c!"4", c!"0"⟩]

example : reviewSharding (fun _ => c!"q") circleDb (.ok sampleStats) [] =
    .ok [c!"d.s.a is not sharded and has more than 50,000,000 rows total", c!"d.s.b is sharded and has less than 20,000,000 rows per shard",
      c!"d.s.b has a high skew of q"] := by decide +kernel

-- A limit that is a number with a fraction is shown with separators as well.
example : reviewSharding (fun _ => c!"1234567.5") circleDb (.ok (sampleStats.take 1)) [(c!"max_rows_per_shard", .flt (2469135 / 2))] =
    .ok [c!"d.s.a is not sharded and has more than 1,234,567.5 rows total"] := by decide +kernel

example : ∀ r ∈ sampleStats, r.database = circleDb.name → ∃ n m k : Int, IntValue r.rowCount n ∧ IntValue r.shards m ∧
      IntValue r.skew k ∧ 1 ≤ m ∧ |n| < 2 ^ 50 ∧ m < 2 ^ 50 ∧ |k| < 2 ^ 53 ∧ |(50000000 : Int)| * m < 2 ^ 52 ∧ |(20000000 : Int)| * m < 2 ^ 52 := by
  intro r hr hd
  simp only [sampleStats, List.mem_cons, List.not_mem_nil, or_false] at hr
  rcases hr with rfl | rfl | rfl | rfl
  · exact ⟨50000001, 1, 0, (pyInt_value _ _).1 (by decide), (pyInt_value _ _).1 (by decide), (pyInt_value _ _).1 (by decide), by decide⟩
  · exact absurd hd (by decide)
  · exact ⟨100, 4, 1, (pyInt_value _ _).1 (by decide), (pyInt_value _ _).1 (by decide), (pyInt_value _ _).1 (by decide), by decide⟩
  · exact ⟨100000000, 4, 0, (pyInt_value _ _).1 (by decide), (pyInt_value _ _).1 (by decide), (pyInt_value _ _).1 (by decide), by decide⟩

/-! ## C46: sharding -/

/-- C46 fails: with a file that sets `max_rows_per_shard`, the review raises `TypeError` whenever the statistics start with an unsharded table
of the database. -/
theorem C46_sharding_raises (floatRepr : Rat → Str) (db : Database) (fs : FS) (f content : Str) (h : fs f = some (.text content))
    (ls : List Str) (hls : Lines (newlines content) ls) (line v : Str) (hline : line ∈ ls) (hset : Sets line c!"max_rows_per_shard" v)
    (r : StatRow) (rows : List StatRow) (n k : Int) (hdb : r.database = db.name) (hn : IntValue r.rowCount n)
    (hm : IntValue r.shards 1) (hk : IntValue r.skew k) :
    reviewSharding floatRepr db (.ok (r :: rows)) (loadConfig fs [] f).1 = .error .type := by
  obtain ⟨w, hw⟩ : ∃ w, Dict.get? (loadConfig fs [] f).1 c!"max_rows_per_shard" = some (.text w) := by
    rcases (C45_last_setting_wins fs [] f content h ls hls c!"max_rows_per_shard").2 with ⟨_, _, _, s, -, -, -, e⟩ | ⟨h', -⟩
    · exact ⟨s, e⟩
    · exact absurd hset (h' line hline v)
  have hval : Config.value (loadConfig fs [] f).1 c!"max_rows_per_shard" (.int 50000000) = .text w := by
    unfold Config.value
    rw [hw]
    rfl
  unfold reviewSharding
  rw [hval]
  simp [shardingRows, shardingRow, hdb, (pyInt_value _ _).2 hn, (pyInt_value _ _).2 hm, (pyInt_value _ _).2 hk,
    shardingCase, gtCfg, bind, Except.bind]

example : reviewSharding (fun _ => []) circleDb (.ok sampleStats)
    (loadConfig (oneFile c!"review.cfg" c!"max_rows_per_shard = 50000000\n") [] c!"review.cfg").1 = .error .type := by decide +kernel

/-- C46, in part: if the keys are not set, or set to numbers from Python code, the sharding review does not raise on good statistics. -/
theorem C46_sharding_partial (floatRepr : Rat → Str) (db : Database) (cfg : Config) (hc : (cfg.map Prod.fst).Nodup)
    (h : ∀ name v, (name, v) ∈ cfg → name ∈ [c!"max_rows_per_shard", c!"min_rows_per_shard", c!"min_skew_ratio"] → ∃ q, Number v q)
    (rows : List StatRow) (hrows : ∀ r ∈ rows, r.database = db.name → ∃ n m k : Int, IntValue r.rowCount n ∧ IntValue r.shards m ∧
      IntValue r.skew k ∧ 1 ≤ m ∧ |n| ≤ 2 ^ 500 ∧ m ≤ 2 ^ 500 ∧ |k| ≤ 2 ^ 500) : ∃ issues, reviewSharding floatRepr db (.ok rows) cfg = .ok issues := by
  have key : ∀ name d, name ∈ [c!"max_rows_per_shard", c!"min_rows_per_shard", c!"min_skew_ratio"] → (∃ q, Number d q) →
      ∃ v q, Setting cfg name d v ∧ Number v q := by
    rintro name d hname ⟨q, hq⟩
    by_cases hs : ∃ v, (name, v) ∈ cfg
    · obtain ⟨v, hv⟩ := hs
      obtain ⟨q, hq⟩ := h name v hv hname
      exact ⟨v, q, .given _ hv, hq⟩
    · exact ⟨d, q, .missing (fun v hv => hs ⟨v, hv⟩), hq⟩
  obtain ⟨v1, q1, s1, n1⟩ := key c!"max_rows_per_shard" (.int 50000000) (by decide) ⟨_, .int _⟩
  obtain ⟨v2, q2, s2, n2⟩ := key c!"min_rows_per_shard" (.int 20000000) (by decide) ⟨_, .int _⟩
  obtain ⟨v3, q3, s3, n3⟩ := key c!"min_skew_ratio" (.flt minSkewRatio) (by decide) ⟨_, .flt _⟩
  obtain ⟨ls, -, e⟩ := C51_thresholds floatRepr db cfg hc v1 v2 v3 q1 q2 q3 s1 n1 s2 n2 s3 n3 rows hrows
  exact ⟨_, e⟩

/-! ## C52, C53 -/

theorem forall₂_exists_of_mem_right {α β : Type} {R : α → β → Prop} {l : List α} {m : List β} (h : List.Forall₂ R l m) :
    ∀ b ∈ m, ∃ a ∈ l, R a b := by
  induction h with
  | nil => simp
  | cons hab _ ih =>
    intro b hb
    rcases List.mem_cons.1 hb with rfl | hb
    · exact ⟨_, by simp, hab⟩
    · obtain ⟨a, ha, r⟩ := ih b hb
      exact ⟨a, by simp [ha], r⟩

theorem joinsOf_spec {db : Database} (hk : WellKeyed db) (hd : ¬ Dangling db)
    (hl : ∀ p ∈ db.tables, ∀ q ∈ p.2.fks, q.2.fromKeys.length ≤ q.2.toKeys.length) (n : Str) (t : Table) (ht : (n, t) ∈ db.tables) :
    ∃ ps js, joinsOf db t = .ok ps ∧ TableJoins db t js ∧ List.Forall₂ (PartsOf db.name) js ps := by
  have exists_to : ∀ b, Refers db n b → ∃ u, TableOf db b u := by
    intro b hb
    by_contra h
    exact hd ⟨n, b, hb, h⟩
  obtain ⟨ps1, js1, e1, f1, g1⟩ := mapM_spec (f := fkJoinParts db t) (R := FkJoin db t) (S := PartsOf db.name) (l := t.fks.map Prod.snd) (by
    intro k hkm
    obtain ⟨⟨m, k⟩, hq, rfl⟩ := List.mem_map.1 hkm
    refine fkJoinParts_spec hk t k (exists_to _ ⟨t, ht, .inl ⟨m, k, hq, rfl⟩⟩) (hl _ ht _ hq))
  obtain ⟨ps2, js2, e2, f2, g2⟩ := mapM_spec (f := relJoinParts db t) (R := RelJoin db t) (S := PartsOf db.name) (l := t.rels.map Prod.snd) (by
    intro r hrm
    obtain ⟨⟨m, r⟩, hq, rfl⟩ := List.mem_map.1 hrm
    refine relJoinParts_spec hk t r (exists_to _ ⟨t, ht, .inr ⟨m, r, hq, rfl⟩⟩))
  refine ⟨ps1 ++ ps2, js1 ++ js2, ?_, .mk js1 js2 f1 f2, List.rel_append g1 g2⟩
  unfold joinsOf Dict.vals
  rw [e1, e2]
  rfl

theorem forall₂_of_forall {α β γ : Type} {P : α → β → Prop} {Q : α → γ → Prop} {S : γ → β → Prop} {l : List α}
    (h : ∀ a ∈ l, ∃ b c, P a b ∧ Q a c ∧ S c b) : ∃ bs cs, List.Forall₂ P l bs ∧ List.Forall₂ Q l cs ∧ List.Forall₂ S cs bs := by
  induction l with
  | nil => exact ⟨[], [], .nil, .nil, .nil⟩
  | cons a l ih =>
    obtain ⟨b, c, h1, h2, h3⟩ := h a (by simp)
    obtain ⟨bs, cs, g1, g2, g3⟩ := ih (fun a' ha' => h a' (by simp [ha']))
    exact ⟨b :: bs, c :: cs, .cons h1 g1, .cons h2 g2, .cons h3 g3⟩

theorem forall₂_flatten {α β : Type} {R : α → β → Prop} {l : List (List α)} {m : List (List β)} (h : List.Forall₂ (List.Forall₂ R) l m) :
    List.Forall₂ R l.flatten m.flatten := by
  induction h with
  | nil => exact .nil
  | cons h _ ih => exact List.rel_append h ih

/-- C52, in part (the tables must have columns and the keys equal lengths, which the code does not enforce): the review asks for every foreign
key and relationship, in order, its two questions and reports exactly the verdicts. -/
theorem C52_join_cardinality_partial (srv : QueryServer) (db : Database) (hk : WellKeyed db) (hd : ¬ Dangling db)
    (hl : ∀ p ∈ db.tables, ∀ q ∈ p.2.fks, q.2.fromKeys.length ≤ q.2.toKeys.length)
    (hcols : ∀ p ∈ db.tables, p.2.pk ≠ [] ∨ p.2.cols ≠ []) :
    ∃ (joins : List (List Join)) (issues : List Str), List.Forall₂ (TableJoins db) (db.tables.map Prod.snd) joins ∧
      JoinReport db.name srv [] joins.flatten issues ∧ reviewTableJoins srv db = .ok issues := by
  have hkey : ∀ n u, TableOf db n u → keyCols u ≠ [] := by
    intro n u hu
    unfold keyCols
    rcases hcols _ hu with h | h
    · rw [if_neg h]; exact h
    · by_cases hp : u.pk = []
      · rw [if_pos hp]; simpa [Dict.keys] using h
      · rw [if_neg hp]; exact hp
  obtain ⟨pss, joins, f1, f2, f3⟩ := forall₂_of_forall (P := fun t ps => joinsOf db t = .ok ps) (Q := TableJoins db)
    (S := List.Forall₂ (PartsOf db.name)) (l := db.tables.map Prod.snd) (by
      intro t ht
      obtain ⟨⟨n, t⟩, hq, rfl⟩ := List.mem_map.1 ht
      exact joinsOf_spec hk hd hl n t hq)
  have hne : ∀ j ∈ joins.flatten, keyCols j.source ≠ [] ∧ keyCols j.target ≠ [] := by
    intro j hj
    obtain ⟨js, hjs, hj⟩ := List.mem_flatten.1 hj
    obtain ⟨t, ht, hT⟩ := forall₂_exists_of_mem_right f2 js hjs
    obtain ⟨⟨n, t⟩, hq, rfl⟩ := List.mem_map.1 ht
    cases hT with
    | mk a b ha hb =>
      rcases List.mem_append.1 hj with hj | hj
      · obtain ⟨k, -, hJ⟩ := forall₂_exists_of_mem_right ha j hj
        cases hJ with
        | mk u cond hu _ => exact ⟨hkey _ _ hq, hkey _ _ hu⟩
      · obtain ⟨k, -, hJ⟩ := forall₂_exists_of_mem_right hb j hj
        cases hJ with
        | mk u hu => exact ⟨hkey _ _ hq, hkey _ _ hu⟩
  obtain ⟨asked', issues, e, hrep⟩ := runJoins_spec srv joins.flatten pss.flatten (forall₂_flatten f3) hne []
  refine ⟨joins, issues, f2, hrep, ?_⟩
  unfold reviewTableJoins Database.iter Dict.vals
  rw [joinTables_eq srv db _ pss f1 [] asked' issues e]
  rfl

/-- C52: a joined table with neither primary key nor columns makes the review raise `IndexError`. -/
theorem C52_no_columns_raises : reviewTableJoins (fun _ _ => .ok [])
    { name := c!"d", schemas := [], tables := [refTable c!"a" [c!"a"]] } = .error .index := by decide

/-- C52: a foreign key with fewer to-columns than from-columns makes the review raise `IndexError`. -/
theorem C52_short_key_raises : reviewTableJoins (fun _ _ => .ok [])
    { name := c!"d", schemas := []
      tables := [(c!"a", { name := c!"a", schema := c!"s", pk := [c!"x"], shard := none, cols := [], rels := [],
                           fks := [(c!"k", ⟨c!"k", c!"a", [c!"x", c!"y"], c!"a", [c!"x"]⟩)] })] } = .error .index := by decide

/-- A foreign key over two columns. -/
def joinKey : FK := ⟨c!"k", c!"a", [c!"p", c!"q"], c!"b", [c!"x", c!"y"]⟩

/-- A table with this key. -/
def joinA : Table := { name := c!"a", schema := c!"s", pk := [c!"x", c!"y"], shard := none, cols := [], fks := [(c!"k", joinKey)], rels := [] }

/-- The table it refers to, with a relationship in the other direction. -/
def joinB : Table :=
  { name := c!"b", schema := c!"s", pk := [], shard := none, cols := [(c!"x", { name := c!"x", type := c!"INT" }), (c!"y", { name := c!"y", type := c!"INT" })]
    fks := [], rels := [(c!"r", { name := c!"r", fromTable := c!"b", toTable := c!"a", conditions := c!"b.x = a.x" })] }

/-- A database with both. -/
def joinDb : Database := { name := c!"d", schemas := [], tables := [(c!"a", joinA), (c!"b", joinB)] }

/-- A server that counts 3, 1, 2, 5 in this order. -/
def sampleServer : QueryServer := fun asked _ => .ok [some ([c!"3", c!"1", c!"2", c!"5"].getD asked.length [])]

example : WellKeyed joinDb ∧ ¬ Dangling joinDb ∧ (∀ p ∈ joinDb.tables, ∀ q ∈ p.2.fks, q.2.fromKeys.length ≤ q.2.toKeys.length) ∧
    (∀ p ∈ joinDb.tables, p.2.pk ≠ [] ∨ p.2.cols ≠ []) ∧
    reviewTableJoins sampleServer joinDb = .ok [c!"k is a 1:M join.", c!"r is a M:M join."] ∧
    reviewTableJoins (fun _ _ => .error .value) joinDb = .ok [c!"k didn't return data.", c!"r didn't return data."] := by
  have hk : WellKeyed joinDb := by decide +kernel
  refine ⟨hk, ?_, by decide, by decide, by decide +kernel, by decide +kernel⟩
  rw [dangling_iff hk]
  decide +kernel

/-- C53: the condition for a foreign key is the conjunction, in balanced parentheses, of the equations of its columns in order. -/
theorem C53_join_condition (db : Database) (hk : WellKeyed db) (t u : Table) (k : FK) (hu : TableOf db k.toTable u)
    (hl : k.fromKeys.length = k.toKeys.length) :
    ∃ p, fkJoinParts db t k = .ok p ∧ Conj (equations t u k) p.condition ∧ (equations t u k).length = k.fromKeys.length ∧
      p.fromTable = t.name ∧ p.toTable = u.name := by
  obtain ⟨p, j, e, hj, hp⟩ := fkJoinParts_spec hk t k ⟨u, hu⟩ (by omega)
  cases hj with
  | mk u' cond hu' hc =>
    have : u' = u := by
      have h1 := (tableOf_iff hk).1 hu'
      have h2 := (tableOf_iff hk).1 hu
      rw [h1] at h2
      exact Option.some.inj h2
    subst this
    refine ⟨p, e, ?_, by simp [equations, hl], hp.fromTable, hp.toTable⟩
    rw [hp.condition]
    exact hc

example : (match fkJoinParts joinDb joinA joinKey with
    | .ok p => p.condition | .error _ => []) = c!"((\"a\".\"p\" = \"b\".\"x\") AND \"a\".\"q\" = \"b\".\"y\")" := by decide +kernel

/-! ## C54 -/

/-- C54: the review returns exactly the report on the joins of the worksheet, and raises exactly if there is none. -/
theorem C54_worksheet_joins (srv : QueryServer) (db : Database) (hk : WellKeyed db) (w : Worksheet) (issues : List Str) :
    reviewWorksheetJoins srv db w = .ok issues ↔ WsReport srv db w [] w.joins issues := by
  rw [← wsJoins_ok_iff srv hk]
  unfold reviewWorksheetJoins Worksheet.getJoins
  rw [bind_ok_iff]
  constructor
  · rintro ⟨⟨a, b⟩, h, h'⟩
    cases h'
    exact ⟨a, h⟩
  · rintro ⟨a, h⟩
    exact ⟨(a, issues), h, rfl⟩

/-- A worksheet over the tables of `joinDb`. -/
def joinSheet (type : Str) : Worksheet :=
  { name := .str c!"w", description := .null, properties := []
    tables := [⟨.str c!"a", .str c!"table"⟩, ⟨.str c!"b", .str c!"table"⟩, ⟨.str c!"z", .str c!"alias"⟩]
    joins := [⟨.str c!"j", .str c!"z", .str c!"a", .str c!"INNER", .null⟩, ⟨.str c!"k", .str c!"a", .str c!"b", .str type, .null⟩] }

/-- A server on which only the question for rows of `a` without partner has an answer. -/
def leftServer : QueryServer := fun asked _ => .ok (if asked = [] then [some c!"1"] else [])

example : WellKeyed joinDb ∧
    reviewWorksheetJoins leftServer joinDb (joinSheet c!"INNER") = .ok [c!"Join k is type INNER, but should probably be LEFT_OUTER."] ∧
    reviewWorksheetJoins leftServer joinDb (joinSheet c!"LEFT_OUTER") = .ok [] := by decide +kernel

/-- C54, what the code really asks: the column tested for missing rows is a from-column, looked up in the to-table, although this table need
not have such a column. -/
theorem C54_tests_foreign_column : ∃ asked : List Str,
    reviewWorksheetJoins (fun a q => if a = [] then (if q ∈ asked then .ok [] else .error .value) else .ok []) joinDb (joinSheet c!"INNER") =
      .ok [] ∧
    ∀ q ∈ asked, q = unmatchedQuery c!"d" (c!"a", joinA) (c!"b", joinB)
        joinKey c!"b" c!"p" ∧ c!"p" ∉ joinB.cols.map Prod.fst := by
  refine ⟨[unmatchedQuery c!"d" (c!"a", joinA) (c!"b", joinB)
        joinKey c!"b" c!"p"], by decide +kernel, ?_⟩
  intro q hq
  exact ⟨List.mem_singleton.1 hq, by decide +kernel⟩

/-! ## C55 -/

/-- C55, in part (every review must take one of the four known inputs): the reviewer calls exactly the applicable reviews, in order and with the
inputs they ask for, until one raises, and returns exactly the non-empty results. -/
theorem C55_applicable_partial (items : List TestItem) (hn : (items.map (·.name)).Nodup) (names : List Str) (i : Inputs)
    (run : Str → List Str → Except PyErr (List Str))
    (hin : ∀ t ∈ items, (∃ rest, t.name = c!"review_" ++ rest) → ∃ x ∈ t.params, x ∈ knownInputs) :
    ∃ app : List TestItem, app.Sublist items ∧ (∀ t, t ∈ app ↔ t ∈ items ∧ Applicable names i t) ∧
      Reviews run app (reviewModel items true names i run).calls (reviewModel items true names i run).result := by
  obtain ⟨app, r, h1, h2, h3, h4⟩ := reviewItems_spec names i run items hn (fun t ht hr => by
    obtain ⟨x, hx, hk⟩ := hin t ht hr
    exact List.ne_nil_of_mem (List.mem_filter.2 ⟨hk, by simpa using hx⟩)) [] (by simp [Dict.keys])
  refine ⟨app, h1, h2, ?_⟩
  have : (reviewModel items true names i run).result = r := by
    show (reviewItems names i run [] items).result = r
    rw [h4]
    cases r <;> simp [Except.map]
  rw [this]
  exact h3

/-- C55: without a database the reviewer raises and calls nothing. -/
theorem C55_database_needed (items : List TestItem) (names : List Str) (i : Inputs) (run : Str → List Str → Except PyErr (List Str)) :
    reviewModel items false names i run = { calls := [], result := .error .assertion } := rfl

/-- C55 fails without the condition: a review that needs no input is never called. -/
theorem C55_no_input_not_called : Applicable [] ⟨true, true⟩ ⟨c!"review_all", []⟩ ∧
    reviewModel [⟨c!"review_all", []⟩] true [] ⟨true, true⟩ (fun _ _ => .ok [c!"issue"]) = { calls := [], result := .ok [] } :=
  ⟨⟨⟨c!"all", rfl⟩, .inl rfl, by simp, by simp⟩, by decide⟩

example : (reviewFunctions.map (·.name)).Nodup ∧ (∀ t ∈ reviewFunctions, ∃ x ∈ t.params, x ∈ knownInputs) ∧
    reviewModel reviewFunctions true [] ⟨true, false⟩ (fun n _ => .ok (if n = c!"review_pks" then [c!"m"] else [])) =
      { calls := [(c!"review_circular_relationships", [c!"database"]),
          (c!"review_long_chain_relationships", [c!"database", c!"config_file"]), (c!"review_pks", [c!"database"]),
          (c!"review_relationships", [c!"database"]), (c!"review_sharding", [c!"database", c!"rtql", c!"config_file"]),
          (c!"review_table_joins", [c!"database", c!"rtql"])]
        result := .ok [(c!"review_pks", [c!"m"])] } := by decide +kernel

end Verif.Props
