import Verif.Lemmas.DanglingPaths
import Verif.Lemmas.Plain
import Verif.Props.Excel
import Verif.Props.Graph
import Verif.Props.Parse
import Verif.Props.Reading
import Verif.Props.Review
import Verif.Props.Statements
/-
Exactly when some of the claims hold that do not hold in general: C33, C34, C41, C43, C46, C49, C51, C55.
-/

namespace Verif.Props
open Spec

/-! ## C33 -/

/-- C33, for every text file: all its terminated statements are read, tidied up and in order, exactly if no end of the file has more semicolons than lines. -/
theorem C33_exactly {content : Str} {ls ts : List Str} {o : Bool} (hl : TextLines content ls) (h : Contributes false ls o ts) :
    List.Forall₂ StatementOf (terminated ts.flatten) (getStatements (fileLines content)) ↔ ∀ b, b <:+ ts → semicolons b ≤ b.length := by
  have hlen : (terminated ts.flatten).length = semicolons ts := length_terminated ts
  rw [← (C100_number hl h).2]
  constructor
  · intro hf
    rw [← hf.length_eq, hlen]
  · intro e
    obtain ⟨k, hk⟩ := late_total ts
    have hg := getStatements_contributes (fun l hx => (areLines_of hl l hx).1) h hk
    rw [← fileLines_of hl] at hg
    rw [statementOf_iff, hg]
    have hlen' := congrArg List.length hg
    rw [e, List.length_map, List.length_take, hlen] at hlen'
    rw [List.take_of_length_le (by omega)]

/-! ## C43 -/

/-- C43: whenever a workbook can be read, the rows of all three sheets that name tables without a row in "Tables" can be left out. -/
theorem C43_whenever_read {wb : Workbook} (hs : Shaped wb) {dbs : Dict Database} (hr : readXls wb = .ok dbs) (keep : Str → List XCell → List XCell → Bool)
    (hT : ∀ h row, keep c!"Tables" h row = true)
    (hC : ∀ sheet ∈ [c!"Columns", c!"Foreign Keys", c!"Relationships"], ∀ h rows, SheetIs wb sheet h rows → ∀ row ∈ rows, keep sheet h row = false →
      ∀ d n, Names h row sheet d n → ¬ Known wb d n) : readXls (restrict keep wb) = .ok dbs := by
  rw [← hr]
  apply C43_skipped_partial hs keep hT
  · intro sheet hsh
    apply hC
    simp only [List.mem_cons, List.not_mem_nil, or_false] at hsh ⊢
    rcases hsh with h | h
    · exact .inl h
    · exact .inr (.inl h)
  · intro h rows hsh row hrow hk d hd n hn
    obtain ⟨e, he⟩ := C43_relationships_raise hs hsh hrow hd hn (fun m hm => hC _ (by simp) h rows hsh row hrow hk d m ⟨hd, hm⟩)
    rw [he] at hr
    cases hr

/-! ## C46 -/

/-- C46: exactly when the review of long chains raises: the key is set to a text and some table refers to another one. -/
theorem C46_exactly (order : List Str → List Str) (ho : ∀ l, (order l).Perm l) (db : Database) (hk : WellKeyed db) (hd : ¬ Dangling db) (cfg : Config)
    (hc : (cfg.map Prod.fst).Nodup) (depth : Nat) (hdepth : db.tables.length ≤ depth) :
    (reviewLongChain order depth db cfg = .error .type ↔ (∃ s, (c!"max_reference_chain", CfgVal.text s) ∈ cfg) ∧ ∃ a b, Refers db a b ∧ a ≠ b) ∧
    ((∃ issues, reviewLongChain order depth db cfg = .ok issues) ∨ reviewLongChain order depth db cfg = .error .type) := by
  by_cases hnum : ∀ v, (c!"max_reference_chain", v) ∈ cfg → ∃ q, Number v q
  · obtain ⟨issues, e⟩ := C46_long_chain_partial order ho db hk hd cfg hc hnum depth hdepth
    rw [e]
    refine ⟨⟨(fun h => by cases h), ?_⟩, .inl ⟨_, rfl⟩⟩
    rintro ⟨⟨s, hs⟩, _⟩
    obtain ⟨q, hq⟩ := hnum _ hs
    cases hq
  · obtain ⟨w, hw⟩ : ∃ w, (c!"max_reference_chain", CfgVal.text w) ∈ cfg := by
      by_contra hcon
      apply hnum
      intro v hv
      cases v with
      | int n => exact ⟨_, .int n⟩
      | flt q => exact ⟨_, .flt q⟩
      | text s => exact absurd ⟨s, hv⟩ hcon
    have hval : Config.value cfg c!"max_reference_chain" (.int 3) = .text w := by
      unfold Config.value
      rw [Dict.get?_of_mem hc hw]
      rfl
    obtain ⟨ps, e, -, hm⟩ := (allPaths_db ho hk hd depth).2 (fun p hp => (simplePath_length hp).trans hdepth)
    unfold reviewLongChain
    simp only [e, hval]
    show (longIssues (.text w) ps = _ ↔ _) ∧ ((∃ issues, longIssues (.text w) ps = _) ∨ longIssues (.text w) ps = _)
    cases ps with
    | nil =>
      refine ⟨⟨(fun h => by cases h), ?_⟩, .inl ⟨_, rfl⟩⟩
      rintro ⟨_, a, b, hab, hne⟩
      have : [a, b] ∈ ([] : List (List Str)) := by
        rw [hm]
        refine ⟨⟨?_, by simpa using hab, by simpa using hne⟩, by simp⟩
        intro n hn
        simp only [List.mem_cons, List.not_mem_nil, or_false] at hn
        rcases hn with rfl | rfl
        · obtain ⟨t, ht, -⟩ := hab
          exact ⟨t, ht⟩
        · by_contra hb
          exact hd ⟨a, _, hab, hb⟩
      cases this
    | cons p ps =>
      have hp := (hm p).1 List.mem_cons_self
      refine ⟨⟨fun _ => ⟨⟨w, hw⟩, ?_⟩, fun _ => rfl⟩, .inr rfl⟩
      obtain ⟨⟨_, h2, h3⟩, h4⟩ := hp
      match p, h4 with
      | a :: b :: _, _ =>
        refine ⟨a, b, (List.isChain_cons_cons.1 h2).1, ?_⟩
        rintro rfl
        simp at h3

theorem loaded_nodup (fs : FS) (f : Str) : ((loadConfig fs [] f).1.map Prod.fst).Nodup := by
  have key : ∀ (ls : List Str) (cfg : Config), cfg.keys.Nodup → (ls.foldl configLine cfg).keys.Nodup := by
    intro ls
    induction ls with
    | nil => exact fun _ h => h
    | cons l ls ih =>
      intro cfg h
      apply ih
      unfold configLine
      dsimp only
      split_ifs
      all_goals first | exact h | exact Dict.nodup_set h _ _
  unfold loadConfig
  split
  · exact key _ [] List.nodup_nil
  · exact key _ [] List.nodup_nil
  · exact List.nodup_nil

/-- C46: with a configuration file, exactly if a line of it sets the key (to anything) and some table refers to another one. -/
theorem C46_file_exactly (order : List Str → List Str) (ho : ∀ l, (order l).Perm l) (db : Database) (hk : WellKeyed db) (hd : ¬ Dangling db)
    (depth : Nat) (hdepth : db.tables.length ≤ depth) (fs : FS) (f content : Str) (h : fs f = some (.text content)) (ls : List Str) (hls : Lines (newlines content) ls) :
    reviewLongChain order depth db (loadConfig fs [] f).1 = .error .type ↔
      (∃ line ∈ ls, ∃ v, Sets line c!"max_reference_chain" v) ∧ ∃ a b, Refers db a b ∧ a ≠ b := by
  have hc : ((loadConfig fs [] f).1.map Prod.fst).Nodup := loaded_nodup fs f
  rw [(C46_exactly order ho db hk hd _ hc depth hdepth).1]
  apply and_congr_left
  intro _
  constructor
  · rintro ⟨s, hs⟩
    rcases (C45_last_setting_wins fs [] f content h ls hls c!"max_reference_chain").2 with ⟨pre, line, post, v, rfl, h2, _, _⟩ | ⟨_, e⟩
    · exact ⟨line, by simp, v, h2⟩
    · rw [Dict.get?_of_mem hc hs] at e
      cases e
  · rintro ⟨line, hline, v, hv⟩
    rcases (C45_last_setting_wins fs [] f content h ls hls c!"max_reference_chain").2 with ⟨_, _, _, s, _, _, _, e⟩ | ⟨hno, _⟩
    · exact ⟨s, Dict.mem_of_get? e⟩
    · exact absurd hv (hno line hline v)

theorem cfg_cases (v : CfgVal) : (∃ s, v = .text s) ∨ ∃ q, Number v q := by
  cases v with
  | int n => exact .inr ⟨_, .int n⟩
  | flt q => exact .inr ⟨_, .flt q⟩
  | text s => exact .inl ⟨s, rfl⟩

theorem number_unique {v : CfgVal} {q q' : Rat} (h : Number v q) (h' : Number v q') : q = q' := by
  cases h <;> cases h' <;> rfl

theorem shardingRow_cases (fr : Rat → Str) (vmax vmin vskew : CfgVal) {r : StatRow} {n m k : Int} (hn : IntValue r.rowCount n) (hm : IntValue r.shards m)
    (hk : IntValue r.skew k) (h1 : 1 ≤ m) (b1 : |n| ≤ 2 ^ 500) (b2 : m ≤ 2 ^ 500) (b3 : |k| ≤ 2 ^ 500) :
    (shardingCase fr vmax vmin vskew r n m k = .error .type ∧ LooksAtText vmax vmin vskew r) ∨
    ((∃ l, shardingCase fr vmax vmin vskew r n m k = .ok l) ∧ ¬ LooksAtText vmax vmin vskew r) := by
  have hum : ∀ {m'}, IntValue r.shards m' → m' = m := fun h => Option.some.inj (((pyInt_value _ _).2 h).symm.trans ((pyInt_value _ _).2 hm))
  have hun : ∀ {n'}, IntValue r.rowCount n' → n' = n := fun h => Option.some.inj (((pyInt_value _ _).2 h).symm.trans ((pyInt_value _ _).2 hn))
  obtain ⟨p, ep, z, ez, hz⟩ := ratios_exist h1 b1 b2 b3
  have hp : Rounds ((n : Rat) / m) p := by cases hz <;> assumption
  unfold shardingCase
  by_cases hm1 : m = 1
  · rw [if_pos hm1]
    rcases cfg_cases vmax with ⟨s, rfl⟩ | ⟨q, hq⟩
    · exact .inl ⟨rfl, .unsharded (hm1 ▸ hm) rfl⟩
    · obtain ⟨smax, emax, _⟩ := fmtComma_limit fr hq
      refine .inr ⟨?_, ?_⟩
      · rw [gtCfg_number hq]
        by_cases hb : q < (n : Rat) <;> simp [hb, bind, Except.bind, emax]
      · intro hl
        cases hl with
        | unsharded _ e => rw [e] at hq; cases hq
        | few a b => exact b ((hum a).trans hm1)
        | skew a b => exact b ((hum a).trans hm1)
        | many _ a b => exact b ((hum a).trans hm1)
  · rw [if_neg hm1, ep]
    rcases cfg_cases vmin with ⟨s, rfl⟩ | ⟨q, hq⟩
    · exact .inl ⟨rfl, .few hm hm1 rfl⟩
    · obtain ⟨smin, emin, _⟩ := fmtComma_limit fr hq
      have fin : (∃ l, rowsPerShard fr vmax vmin r p = .ok l) → (∀ s, vmax = .text s → p < q) →
          ((intDiv n m = .ok p → (do let a ← rowsPerShard fr vmax vmin r p; let b ← skewIssue fr vskew r n k p; Except.ok (a ++ b) : Except PyErr (List Str)) = .error .type ∧
            LooksAtText vmax vmin vskew r) ∨
          ((∃ l, (do let a ← rowsPerShard fr vmax vmin r p; let b ← skewIssue fr vskew r n k p; Except.ok (a ++ b) : Except PyErr (List Str)) = .ok l) ∧
            ¬ LooksAtText vmax vmin vskew r)) := by
        rintro ⟨l, el⟩ hmax
        rw [el]
        rcases cfg_cases vskew with ⟨s, rfl⟩ | ⟨q3, hq3⟩
        · refine .inl fun _ => ⟨?_, .skew hm hm1 rfl⟩
          simp [skewIssue, ez, gtCfg, bind, Except.bind]
        · refine .inr ⟨?_, ?_⟩
          · unfold skewIssue
            rw [ez]
            simp [gtCfg_number hq3, bind, Except.bind]
          · intro hl
            cases hl with
            | unsharded a _ => exact hm1 (hum a).symm
            | few _ _ e => rw [e] at hq; cases hq
            | skew _ _ e => rw [e] at hq3; cases hq3
            | many a b _ e c d f =>
              obtain rfl := hun a
              obtain rfl := hum b
              rw [d.unique hp, number_unique c hq] at f
              exact f (hmax _ e)
      have go := fun a b => (fin a b).imp (fun f => f ep) id
      by_cases hf : p < q
      · refine go ⟨[r.label ++ c!" is sharded and has less than " ++ smin ++ c!" rows per shard"], ?_⟩ (fun _ _ => hf)
        simp [rowsPerShard, ltCfg_number hq, hf, emin, bind, Except.bind]
      · rcases cfg_cases vmax with ⟨s, rfl⟩ | ⟨q1, hq1⟩
        · refine .inl ⟨?_, .many hn hm hm1 rfl hq hp hf⟩
          simp [rowsPerShard, ltCfg_number hq, hf, gtCfg, bind, Except.bind]
        · obtain ⟨smax, emax, _⟩ := fmtComma_limit fr hq1
          refine go ?_ (fun s e => by rw [e] at hq1; cases hq1)
          by_cases hb : q1 < p <;> simp [rowsPerShard, ltCfg_number hq, hf, gtCfg_number hq1, hb, emax, bind, Except.bind]

/-- C46: exactly when the review of sharding raises on good statistics: a row of the database makes it look at a limit that is a text. -/
theorem C46_sharding_exactly (floatRepr : Rat → Str) (db : Database) (cfg : Config) (hc : (cfg.map Prod.fst).Nodup) (vmax vmin vskew : CfgVal)
    (h1 : Setting cfg c!"max_rows_per_shard" (.int 50000000) vmax) (h2 : Setting cfg c!"min_rows_per_shard" (.int 20000000) vmin)
    (h3 : Setting cfg c!"min_skew_ratio" (.flt minSkewRatio) vskew)
    (rows : List StatRow) (hrows : ∀ r ∈ rows, r.database = db.name → ∃ n m k : Int, IntValue r.rowCount n ∧ IntValue r.shards m ∧
      IntValue r.skew k ∧ 1 ≤ m ∧ |n| ≤ 2 ^ 500 ∧ m ≤ 2 ^ 500 ∧ |k| ≤ 2 ^ 500) :
    (reviewSharding floatRepr db (.ok rows) cfg = .error .type ↔ ∃ r ∈ rows, r.database = db.name ∧ LooksAtText vmax vmin vskew r) ∧
    ((∃ issues, reviewSharding floatRepr db (.ok rows) cfg = .ok issues) ∨ reviewSharding floatRepr db (.ok rows) cfg = .error .type) := by
  unfold reviewSharding
  rw [setting_value hc h1, setting_value hc h2, setting_value hc h3]
  show (shardingRows _ rows = _ ↔ _) ∧ ((∃ issues, shardingRows _ rows = _) ∨ shardingRows _ rows = _)
  induction rows with
  | nil => exact ⟨⟨(fun h => by cases h), (fun ⟨_, h, _⟩ => by cases h)⟩, .inl ⟨_, rfl⟩⟩
  | cons r rs ih =>
    have ih := ih (fun r' h => hrows r' (List.mem_cons_of_mem _ h))
    rw [shardingRows]
    have row : (shardingRow floatRepr vmax vmin vskew db.name r = .error .type ∧ r.database = db.name ∧ LooksAtText vmax vmin vskew r) ∨
        ((∃ l, shardingRow floatRepr vmax vmin vskew db.name r = .ok l) ∧ ¬ (r.database = db.name ∧ LooksAtText vmax vmin vskew r)) := by
      by_cases hdb : r.database = db.name
      · obtain ⟨n, m, k, hn, hm, hk, hpos, b1, b2, b3⟩ := hrows r List.mem_cons_self hdb
        unfold shardingRow
        rw [if_pos hdb, (pyInt_value _ _).2 hn, (pyInt_value _ _).2 hm, (pyInt_value _ _).2 hk]
        rcases shardingRow_cases floatRepr vmax vmin vskew hn hm hk hpos b1 b2 b3 with ⟨a, b⟩ | ⟨a, b⟩
        · exact .inl ⟨a, hdb, b⟩
        · exact .inr ⟨a, fun h => b h.2⟩
      · exact .inr ⟨⟨[], by rw [shardingRow, if_neg hdb]⟩, fun h => hdb h.1⟩
    rcases row with ⟨e, hdb, hl⟩ | ⟨⟨l, e⟩, hl⟩
    · rw [e]
      exact ⟨⟨fun _ => ⟨r, List.mem_cons_self, hdb, hl⟩, fun _ => rfl⟩, .inr rfl⟩
    · rw [e]
      have hex : (∃ r' ∈ r :: rs, r'.database = db.name ∧ LooksAtText vmax vmin vskew r') ↔ ∃ r' ∈ rs, r'.database = db.name ∧ LooksAtText vmax vmin vskew r' := by
        constructor
        · rintro ⟨r', h, h'⟩
          rcases List.mem_cons.1 h with rfl | h
          · exact absurd h' hl
          · exact ⟨r', h, h'⟩
        · rintro ⟨r', h, h'⟩
          exact ⟨r', List.mem_cons_of_mem _ h, h'⟩
      rw [hex, ← ih.1]
      rcases ih.2 with ⟨issues, e2⟩ | e2
      · rw [e2]
        exact ⟨⟨(fun h => by cases h), (fun h => by cases h)⟩, .inl ⟨_, rfl⟩⟩
      · rw [e2]
        exact ⟨⟨fun _ => rfl, fun _ => rfl⟩, .inr rfl⟩

/-! ## C49 -/

/-- C49, outside its claim: with room on the stack for a path through all tables and one more step, the review raises `KeyError` exactly if the database has a
dangling reference, whatever the configuration says. -/
theorem C49_dangling (order : List Str → List Str) (ho : ∀ l, (order l).Perm l) (db : Database) (hk : WellKeyed db) (cfg : Config) (depth : Nat)
    (hdepth : db.tables.length + 1 ≤ depth) : reviewLongChain order depth db cfg = .error .key ↔ Dangling db := by
  have hm := maps_getRelationships ho hk
  have hlen : (getRelationships order db).length = db.tables.length := by
    have := congrArg List.length hm.keys
    simpa [Dict.keys] using this
  constructor
  · intro h
    by_contra hd
    obtain ⟨ps, e, -, -⟩ := (allPaths_db ho hk hd depth).2 (fun p hp => (simplePath_length hp).trans (by omega))
    unfold reviewLongChain at h
    simp only [e] at h
    exact longIssues_not_key _ _ h
  · rintro ⟨a, b, hab, hb⟩
    have he := (hm.edge a b).2 hab
    have hb' : b ∉ (getRelationships order db).keys := by
      rw [hm.keys]
      exact fun h => hb (table_iff.2 h)
    unfold reviewLongChain
    simp only [allPaths_key (getRelationships order db) depth (by omega) _ he hb' he.mem]
    rfl

/-- C49_dangling is about a database where the table that is missing is two steps away, and a limit that is a text. -/
example : WellKeyed { circleDb with tables := circleDb.tables ++ [refTable c!"g" [c!"a", c!"h"], refTable c!"h" [c!"a", c!"x"]] } ∧
    reviewLongChain id 9 { circleDb with tables := circleDb.tables ++ [refTable c!"g" [c!"a", c!"h"], refTable c!"h" [c!"a", c!"x"]] }
      [(c!"max_reference_chain", .text c!"3")] = .error .key := by
  decide +kernel

/-! ## C51 -/

/-- The three numbers of a row of the statistics. -/
def Numbers (r : StatRow) (n m k : Int) : Prop := IntValue r.rowCount n ∧ IntValue r.shards m ∧ IntValue r.skew k

/-- C51: exactly when the review of sharding raises, with limits that are numbers: at the first row of the database that has a text that is no number it ends with
`ValueError`, at the first that has no shards with `ZeroDivisionError`, and if there is no such row it reports. -/
theorem C51_raises_exactly (floatRepr : Rat → Str) (db : Database) (cfg : Config) (hc : (cfg.map Prod.fst).Nodup) (vmax vmin vskew : CfgVal) (max min ratio : Rat)
    (h1 : Setting cfg c!"max_rows_per_shard" (.int 50000000) vmax) (n1 : Number vmax max)
    (h2 : Setting cfg c!"min_rows_per_shard" (.int 20000000) vmin) (n2 : Number vmin min)
    (h3 : Setting cfg c!"min_skew_ratio" (.flt minSkewRatio) vskew) (n3 : Number vskew ratio)
    (rows : List StatRow) (hrows : ∀ r ∈ rows, r.database = db.name → ∀ n m k, Numbers r n m k → 0 ≤ m ∧ |n| ≤ 2 ^ 500 ∧ m ≤ 2 ^ 500 ∧ |k| ≤ 2 ^ 500) :
    ((∀ r ∈ rows, r.database = db.name → ∃ n m k, Numbers r n m k ∧ m ≠ 0) ∧ ∃ issues, reviewSharding floatRepr db (.ok rows) cfg = .ok issues) ∨
    ∃ before r after, rows = before ++ r :: after ∧ (∀ x ∈ before, x.database = db.name → ∃ n m k, Numbers x n m k ∧ m ≠ 0) ∧ r.database = db.name ∧
      (((¬ ∃ n m k, Numbers r n m k) ∧ reviewSharding floatRepr db (.ok rows) cfg = .error .value) ∨
       ((∃ n k, Numbers r n 0 k) ∧ reviewSharding floatRepr db (.ok rows) cfg = .error .zeroDiv)) := by
  unfold reviewSharding
  rw [setting_value hc h1, setting_value hc h2, setting_value hc h3]
  show (_ ∧ ∃ issues, shardingRows _ rows = _) ∨ ∃ before r after, _ ∧ _ ∧ _ ∧ ((_ ∧ shardingRows _ rows = _) ∨ (_ ∧ shardingRows _ rows = _))
  induction rows with
  | nil => exact .inl ⟨by simp, _, rfl⟩
  | cons r rs ih =>
    have ih := ih (fun r' h => hrows r' (List.mem_cons_of_mem _ h))
    rw [shardingRows]
    -- a row that does not raise
    have go : (r.database = db.name → ∃ n m k, Numbers r n m k ∧ m ≠ 0) → (∃ l, shardingRow floatRepr vmax vmin vskew db.name r = .ok l) →
        ((∀ r' ∈ r :: rs, r'.database = db.name → ∃ n m k, Numbers r' n m k ∧ m ≠ 0) ∧ ∃ issues,
          (do let a ← shardingRow floatRepr vmax vmin vskew db.name r
              let b ← shardingRows (shardingRow floatRepr vmax vmin vskew db.name) rs
              .ok (a ++ b)) = Except.ok (ε := PyErr) issues) ∨
        ∃ before r' after, r :: rs = before ++ r' :: after ∧ (∀ x ∈ before, x.database = db.name → ∃ n m k, Numbers x n m k ∧ m ≠ 0) ∧ r'.database = db.name ∧
          (((¬ ∃ n m k, Numbers r' n m k) ∧
            (do let a ← shardingRow floatRepr vmax vmin vskew db.name r
                let b ← shardingRows (shardingRow floatRepr vmax vmin vskew db.name) rs
                .ok (a ++ b)) = Except.error (α := List Str) .value) ∨
           ((∃ n k, Numbers r' n 0 k) ∧
            (do let a ← shardingRow floatRepr vmax vmin vskew db.name r
                let b ← shardingRows (shardingRow floatRepr vmax vmin vskew db.name) rs
                .ok (a ++ b)) = Except.error (α := List Str) .zeroDiv)) := by
      rintro hg ⟨l, e⟩
      rw [e]
      rcases ih with ⟨hall, issues, e2⟩ | ⟨before, r', after, rfl, hb, hdb, h⟩
      · refine .inl ⟨?_, l ++ issues, by rw [e2]; rfl⟩
        intro x hx
        rcases List.mem_cons.1 hx with rfl | hx
        · exact hg
        · exact hall x hx
      · refine .inr ⟨r :: before, r', after, rfl, ?_, hdb, ?_⟩
        · intro x hx
          rcases List.mem_cons.1 hx with rfl | hx
          · exact hg
          · exact hb x hx
        · rcases h with ⟨a, e2⟩ | ⟨a, e2⟩
          · exact .inl ⟨a, by rw [e2]; rfl⟩
          · exact .inr ⟨a, by rw [e2]; rfl⟩
    by_cases hdb : r.database = db.name
    · by_cases hnum : ∃ n m k, Numbers r n m k
      · obtain ⟨n, m, k, hr⟩ := hnum
        obtain ⟨b0, b1, b2, b3⟩ := hrows r List.mem_cons_self hdb n m k hr
        have e : shardingRow floatRepr vmax vmin vskew db.name r = shardingCase floatRepr vmax vmin vskew r n m k := by
          unfold shardingRow
          rw [if_pos hdb, (pyInt_value _ _).2 hr.1, (pyInt_value _ _).2 hr.2.1, (pyInt_value _ _).2 hr.2.2]
        by_cases h0 : m = 0
        · subst h0
          refine .inr ⟨[], r, rs, rfl, by simp, hdb, .inr ⟨⟨n, k, hr⟩, ?_⟩⟩
          rw [e]
          simp [shardingCase, intDiv, bind, Except.bind]
        · obtain ⟨l, _, _, _, el, _⟩ := shardingCase_spec floatRepr n1 n2 n3 r n m k (by omega) b1 b2 b3
          exact go (fun _ => ⟨n, m, k, hr, h0⟩) ⟨l, e.trans el⟩
      · refine .inr ⟨[], r, rs, rfl, by simp, hdb, .inl ⟨hnum, ?_⟩⟩
        have e : shardingRow floatRepr vmax vmin vskew db.name r = .error .value := by
          unfold shardingRow
          rw [if_pos hdb]
          cases x : pyInt r.rowCount with
          | none => rfl
          | some n =>
            cases y : pyInt r.shards with
            | none => rfl
            | some m =>
              cases z : pyInt r.skew with
              | none => rfl
              | some k => exact absurd ⟨n, m, k, (pyInt_value _ _).1 x, (pyInt_value _ _).1 y, (pyInt_value _ _).1 z⟩ hnum
        rw [e]; rfl
    · exact go (fun h => absurd h hdb) ⟨[], by rw [shardingRow, if_neg hdb]⟩

/-- C51_raises_exactly, three ways: a good table before one without shards, one with a text before one without shards, and bad rows of other databases only. -/
example : reviewSharding (fun _ => []) circleDb (.ok [⟨c!"d", c!"s", c!"a", c!"5", c!"1", c!"0"⟩, ⟨c!"d", c!"s", c!"b", c!"5", c!"0", c!"0"⟩]) [] = .error .zeroDiv ∧
    reviewSharding (fun _ => []) circleDb (.ok [⟨c!"d", c!"s", c!"a", c!"5", c!"n/a", c!"0"⟩, ⟨c!"d", c!"s", c!"b", c!"5", c!"0", c!"0"⟩]) [] = .error .value ∧
    reviewSharding (fun _ => []) circleDb (.ok [⟨c!"e", c!"s", c!"a", c!"5", c!"n/a", c!"0"⟩, ⟨c!"e", c!"s", c!"b", c!"5", c!"0", c!"0"⟩]) [] = .ok [] := by
  decide +kernel

/-! ## C55 -/

theorem reviewItems_filter (names : List Str) (i : Inputs) (run : Str → List Str → Except PyErr (List Str)) : ∀ (items : List TestItem) (recs : Dict (List Str)),
    reviewItems names i run recs (items.filter (fun t => decide (inputsOf t ≠ []))) = reviewItems names i run recs items
  | [], _ => rfl
  | t :: ts, recs => by
    by_cases hi : inputsOf t = []
    · rw [List.filter_cons_of_neg (by simp [hi]), reviewItems_filter]
      have hc : callArgs i t = none := by
        cases hca : callArgs i t with
        | none => rfl
        | some args =>
          obtain ⟨_, _, h3, h4⟩ := (callArgs_spec i t args).1 hca
          exact absurd (h3.trans hi) h4
      rw [reviewItems]
      simp only [hc]
      split_ifs <;> rfl
    · rw [List.filter_cons_of_pos (by simp [hi])]
      unfold reviewItems
      simp only [reviewItems_filter names i run ts]

/-- C55, for every module of reviews: exactly the applicable functions that take one of the four known inputs are called, in order and with the inputs they ask for,
until one raises; the result has exactly the non-empty results. -/
theorem C55_exactly (items : List TestItem) (hn : (items.map (·.name)).Nodup) (names : List Str) (i : Inputs) (run : Str → List Str → Except PyErr (List Str)) :
    ∃ app : List TestItem, app.Sublist items ∧ (∀ t, t ∈ app ↔ t ∈ items ∧ Applicable names i t ∧ ∃ x ∈ t.params, x ∈ knownInputs) ∧
      Reviews run app (reviewModel items true names i run).calls (reviewModel items true names i run).result := by
  have key : ∀ t : TestItem, inputsOf t ≠ [] ↔ ∃ x ∈ t.params, x ∈ knownInputs := by
    intro t
    unfold inputsOf
    rw [Ne, List.filter_eq_nil_iff]
    push Not
    constructor
    · rintro ⟨x, h1, h2⟩; exact ⟨x, by simpa using h2, h1⟩
    · rintro ⟨x, h1, h2⟩; exact ⟨x, h2, by simpa using h1⟩
  have hsub : (items.filter (fun t => decide (inputsOf t ≠ []))).Sublist items := List.filter_sublist
  obtain ⟨app, h1, h2, h3⟩ := C55_applicable_partial (items.filter (fun t => decide (inputsOf t ≠ []))) (hn.sublist (hsub.map _)) names i run
    (fun t ht _ => (key t).1 (by simpa using (List.mem_filter.1 ht).2))
  refine ⟨app, h1.trans hsub, ?_, ?_⟩
  · intro t
    rw [h2, List.mem_filter, decide_eq_true_eq, key]
    tauto
  · unfold reviewModel at h3 ⊢
    simpa only [reviewItems_filter, if_true] using h3

/-! ## C34 -/

/-- C34, for every statement and every parsed database: the claim holds exactly if the statement is not taken for one that creates a table.  (Such a statement raises or
counts one more table for the schema.) -/
theorem C34_exactly {m : Str} (schema : Str) {db : Database} (hdb : Consistent m schema db) (stmt : Str) :
    (∃ db', parseStatement schema db stmt = .ok db' ∧ (db' = db ∨ ∃ n, Mentions stmt n ∧ ChangesKeysOf n db db')) ↔ ¬ CreatesTable stmt := by
  constructor
  · rintro ⟨db', e, h⟩ hc
    obtain ⟨t, -, rfl⟩ := (parseCreateTable_iff hc).1 e
    have hs : (withTable db t).schemas = db.schemas := by
      rcases h with h | ⟨n, -, h⟩
      · rw [h]
      · exact h.schemas
    have key : ∀ (d : List (Str × Int)) (k : Str) (v : Int), ((put d k v).find? (fun p => p.1 = k)).map Prod.snd = some v := by
      intro d k v
      unfold put
      rw [List.find?_append, List.find?_eq_none.2]
      · simp
      · intro x hx
        simpa using mem_takeWhile hx
    have h2 := key db.schemas t.schema (((db.schemas.find? (fun p => p.1 = t.schema)).map Prod.snd).getD 0 + 1)
    rw [show put db.schemas t.schema (((db.schemas.find? (fun p => p.1 = t.schema)).map Prod.snd).getD 0 + 1) = db.schemas from hs] at h2
    cases hf : (db.schemas.find? (fun p => p.1 = t.schema)).map Prod.snd with
    | none => rw [hf] at h2; cases h2
    | some v =>
      rw [hf] at h2
      simp only [Option.getD_some, Option.some.injEq] at h2
      omega
  · intro hc
    by_cases h0 : c!"create database" <:+: stmt.map small
    · refine ⟨db, ?_, .inl rfl⟩
      unfold parseStatement
      dsimp only
      rw [if_pos (by rw [lower_eq]; exact hasSub_iff.2 h0)]
    · have hct : ¬ (c!"create table" <:+: stmt.map small ∨ c!"create or replace table" <:+: stmt.map small) := fun h => hc ⟨h0, h⟩
      by_cases ha : c!"alter table" <:+: stmt.map small
      · exact C34_alter_partial schema hdb stmt ⟨ha, h0, fun h => hct (.inl h), fun h => hct (.inr h)⟩
      · refine ⟨db, ?_, .inl rfl⟩
        unfold parseStatement
        dsimp only
        rw [lower_eq, if_neg (by rw [hasSub_iff]; exact h0), if_neg (by rw [Bool.or_eq_true, hasSub_iff, hasSub_iff]; exact hct), if_neg (by rw [hasSub_iff]; exact ha)]

/-- C34_exactly: an ALTER TABLE with CREATE DATABASE in a name is harmless, one with CREATE TABLE is not: here it makes a table. -/
example : ¬ CreatesTable c!"ALTER TABLE \"create database create table\" ADD PRIMARY KEY (a)" ∧ CreatesTable c!"ALTER TABLE \"create table x\" ADD PRIMARY KEY (a)" ∧
    ((parseStatement c!"s" (Database.empty c!"d") c!"ALTER TABLE \"create table x\" ADD PRIMARY KEY (a)").toOption.map (fun db => db.tables.length)) = some 1 := by
  unfold CreatesTable
  decide +kernel

/-! ## C41 -/

theorem line_cut {c : Char} : ∀ {a b x y : Str}, c ∉ a → c ∉ b → a ++ c :: x = b ++ c :: y → a = b ∧ x = y
  | [], [], _, _, _, _, h => by simpa using h
  | [], b :: bs, _, _, _, hb, h => by
    simp only [List.nil_append, List.cons_append, List.cons.injEq] at h
    exact absurd (h.1 ▸ List.mem_cons_self) hb
  | a :: as, [], _, _, ha, _, h => by
    simp only [List.nil_append, List.cons_append, List.cons.injEq] at h
    exact absurd (h.1 ▸ List.mem_cons_self) ha
  | a :: as, b :: bs, _, _, ha, hb, h => by
    simp only [List.cons_append, List.cons.injEq] at h
    obtain ⟨e1, e2⟩ := line_cut (fun h => ha (List.mem_cons_of_mem _ h)) (fun h => hb (List.mem_cons_of_mem _ h)) h.2
    exact ⟨by rw [h.1, e1], e2⟩

theorem flatMap_lines {a b : Str} (ha : '\n' ∉ a) (hb : '\n' ∉ b) : ∀ {x y : List Str}, (∀ s ∈ x, '\n' ∉ s) → (∀ s ∈ y, '\n' ∉ s) →
    x.flatMap (fun s => a ++ s ++ b ++ ['\n']) = y.flatMap (fun s => a ++ s ++ b ++ ['\n']) → x = y
  | [], [], _, _, _ => rfl
  | [], y :: ys, _, _, h => by simp at h
  | x :: xs, [], _, _, h => by simp at h
  | x :: xs, y :: ys, hx, hy, h => by
    simp only [List.flatMap_cons] at h
    have nl : ∀ {s : Str}, '\n' ∉ s → '\n' ∉ a ++ s ++ b := by
      intro s hs
      simp only [List.mem_append, not_or]
      exact ⟨⟨ha, hs⟩, hb⟩
    rw [List.append_assoc, List.append_assoc (a ++ y ++ b)] at h
    obtain ⟨e1, e2⟩ := line_cut (c := '\n') (nl (hx x List.mem_cons_self)) (nl (hy y List.mem_cons_self)) h
    have e3 : x = y := by
      have := List.append_cancel_right e1
      exact List.append_cancel_left this
    rw [e3, flatMap_lines ha hb (fun s hs => hx s (List.mem_cons_of_mem _ hs)) (fun s hs => hy s (List.mem_cons_of_mem _ hs)) e2]

theorem writeAll_oks : ∀ (l : List Str) (r : List (Except PyErr Str)), writeAll (l.map .ok ++ r) = (l.flatten ++ (writeAll r).1, (writeAll r).2)
  | [], r => rfl
  | s :: l, r => by
    rw [List.map_cons, List.cons_append, writeAll, writeAll_oks l r, List.flatten_cons, List.append_assoc]

/-- C41: exactly which databases have the same TQL, for all options, after they went through a workbook: those whose schemas, but for the default one, are the
schemas of their tables in the order of their first use. -/
theorem C41_exactly {db : Database} (h : CellDb db) (hn : ∀ s ∈ db.schemas.keys ++ db.iter.map (·.schema), '\n' ∉ s) (other : PyCell → XCell) :
    ∃ back, readXls (saved other (writeXls db)) = .ok [(db.name, back)] ∧
      ((∀ o, writeTql o back = writeTql o db) ↔
        db.schemas.keys.filter (fun s => decide (s ≠ defaultSchema)) = (firstUses (db.iter.map (·.schema))).filter (fun s => decide (s ≠ defaultSchema))) := by
  obtain ⟨back, h1, h2, h3, h4, _⟩ := C38_round_trip_partial h other
  refine ⟨back, h1, ?_⟩
  have hi : back.iter = db.iter.map backTable := by
    simp only [Database.iter, h3, Dict.vals, List.map_map]
    rfl
  have p1 : ∀ (o : GenOpts) t, writeCreateTable o (backTable t) = writeCreateTable o t := by
    intro o t
    unfold writeCreateTable
    rw [genCreateTable_back]
    rfl
  have p2 : ∀ (o : GenOpts) t, writeForeignKeys o (backTable t) = writeForeignKeys o t := fun _ _ => rfl
  have p3 : ∀ (o : GenOpts) t, writeRelationships o (backTable t) = writeRelationships o t := fun _ _ => rfl
  constructor
  · intro he
    have e := he { createDb := true }
    unfold writeTql tqlPieces at e
    rw [hi, h2, List.flatMap_map, List.flatMap_map, List.flatMap_map] at e
    simp only [p1, p2, p3, Database.schemaNames, h4, if_true] at e
    have hg : genCreateSchema ({ createDb := true } : TqlOpts).toGenOpts = fun s => .ok (c!"CREATE SCHEMA \"" ++ s ++ c!"\";" ++ ['\n']) := by
      funext s
      simp [genCreateSchema, toCase, bind, Except.bind]
    have hcd : genCreateDatabase ({ createDb := true } : TqlOpts).toGenOpts db.name = .ok (c!"CREATE DATABASE \"" ++ db.name ++ c!"\";\n") := by
      simp [genCreateDatabase, toCase, bind, Except.bind]
    have hud : genUseDatabase ({ createDb := true } : TqlOpts).toGenOpts db.name = .ok (c!"USE \"" ++ db.name ++ c!"\";\n") := by
      simp [genUseDatabase, toCase, bind, Except.bind]
    rw [hg, hcd, hud] at e
    have hmap : ∀ l : List Str, l.map (fun s => (.ok (c!"CREATE SCHEMA \"" ++ s ++ c!"\";" ++ ['\n']) : Except PyErr Str)) =
        (l.map (fun s => c!"CREATE SCHEMA \"" ++ s ++ c!"\";" ++ ['\n'])).map .ok := by
      intro l
      rw [List.map_map]
      rfl
    rw [hmap, hmap] at e
    simp only [List.append_assoc, List.cons_append, List.nil_append, writeAll, writeAll_oks] at e
    have e' := congrArg Prod.fst e
    simp only [List.append_cancel_left_eq, List.cons.injEq, true_and] at e'
    have := List.append_cancel_right e'
    refine (flatMap_lines (a := c!"CREATE SCHEMA \"") (b := c!"\";") (by decide) (by decide) ?_ ?_ (by simpa [List.flatMap_def] using this)).symm
    · intro s hs
      exact hn s (List.mem_append_right _ ((mem_firstUses _ _).1 (List.mem_of_mem_filter hs)))
    · intro s hs
      exact hn s (List.mem_append_left _ (List.mem_of_mem_filter hs))
  · intro he o
    unfold writeTql tqlPieces
    rw [hi, h2, List.flatMap_map, List.flatMap_map, List.flatMap_map]
    simp only [p1, p2, p3, Database.schemaNames, h4, he]

/-! ## Cases -/

example (other : PyCell → XCell) : ∃ back, readXls (saved other (writeXls shopDb)) = .ok [(c!"shop_db", back)] ∧
    ((∀ o, writeTql o back = writeTql o shopDb) ↔ True) := by
  obtain ⟨back, h1, h2⟩ := C41_exactly shop_cells (by decide +kernel) other
  exact ⟨back, h1, by rw [h2]; exact iff_true_intro (by decide +kernel)⟩

/-- The database of `C41_schema_lost`: no. -/
example : ¬ (movedDb.schemas.keys.filter (fun s => decide (s ≠ defaultSchema)) = (firstUses (movedDb.iter.map (·.schema))).filter (fun s => decide (s ≠ defaultSchema))) := by
  decide +kernel

/-- Three statements on the last two lines: one is lost; on the first two of three lines none is. -/
example : ¬ (∀ b, b <:+ [c!"a;", c!"b; c;"] → semicolons b ≤ b.length) := fun h => absurd (h [c!"b; c;"] ⟨[c!"a;"], rfl⟩) (by decide)

example : ∀ b, b <:+ [c!"a;", c!"b; c;", c!""] → semicolons b ≤ b.length := by
  intro b hb
  rw [← List.mem_tails] at hb
  revert b
  decide

/-- The rows of the sample that name unknown tables can be left out. -/
example : ∃ dbs, readXls sampleBook = .ok dbs ∧ readXls (restrict keepKnown sampleBook) = .ok dbs := by
  cases h : readXls sampleBook with
  | ok dbs => exact ⟨dbs, rfl, by rw [show readXls (restrict keepKnown sampleBook) = readXls sampleBook from by decide +kernel, h]⟩
  | error e => exact absurd (show (readXls sampleBook).toBool = true from by decide +kernel) (by rw [h]; exact Bool.false_ne_true)

/-- A text as the setting: a database in which no table refers to another is reviewed, one with references is not. -/
example : reviewLongChain id 1000 (Database.empty c!"d") [(c!"max_reference_chain", .text c!"x")] = .ok [] ∧
    reviewLongChain id 1000 circleDb [(c!"max_reference_chain", .text c!"x")] = .error .type := by decide +kernel

/-- Statistics of an unsharded table: a text as the least number of rows per shard does no harm, one as the largest does. -/
example : reviewSharding (fun _ => []) circleDb (.ok (sampleStats.take 1)) [(c!"min_rows_per_shard", .text c!"x")] =
      .ok [c!"d.s.a is not sharded and has more than 50,000,000 rows total"] ∧
    reviewSharding (fun _ => []) circleDb (.ok (sampleStats.take 1)) [(c!"max_rows_per_shard", .text c!"x")] = .error .type ∧
    LooksAtText (.text c!"x") (.int 20000000) (.flt minSkewRatio) (sampleStats.headD ⟨[], [], [], [], [], []⟩) := by
  refine ⟨by decide +kernel, by decide +kernel, .unsharded (s := c!"x") ((pyInt_value _ _).1 (by decide +kernel)) rfl⟩

/-- A module with a review that takes no input, one that takes the database and something else, and one that takes a worksheet that is not there. -/
example : reviewModel [⟨c!"review_all", []⟩, ⟨c!"review_db", [c!"database", c!"more"]⟩, ⟨c!"review_ws", [c!"worksheet"]⟩] true [] ⟨true, false⟩ (fun _ _ => .ok [c!"issue"]) =
    { calls := [(c!"review_db", [c!"database"])], result := .ok [(c!"review_db", [c!"issue"])] } := by decide

end Verif.Props
