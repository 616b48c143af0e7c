import Verif.Lemmas.Graph
import Verif.Lemmas.Validator
import Verif.Props.Config
import Mathlib.Tactic.Linarith
/-
Properties of the reviews that follow references between tables: C46 (long chains), C47, C48, C49, C56.
-/

namespace Verif.Props
open Verif Verif.Spec

/-! ## Examples -/

/-- A table called `n` with one foreign key to each of the targets. -/
def refTable (n : Str) (targets : List Str) : Str × Table :=
  (n, { name := n, schema := c!"s", pk := [], shard := none, cols := [],
        fks := targets.map (fun m => (m, { name := m, fromTable := n, fromKeys := [], toTable := m, toKeys := [] })), rels := [] })

/-- The same with relationships. -/
def relTable (n : Str) (targets : List Str) : Str × Table :=
  (n, { name := n, schema := c!"s", pk := [], shard := none, cols := [], fks := [],
        rels := targets.map (fun m => (m, { name := m, fromTable := n, toTable := m, conditions := [] })) })

/-- Tables `a`, `b`, `c` in a circle, `d` pointing into it, `e` pointing to `d`, and `f` pointing to itself. -/
def circleDb : Database :=
  { name := c!"d", schemas := []
    tables := [refTable c!"a" [c!"b"], relTable c!"b" [c!"c"], refTable c!"c" [c!"a"], relTable c!"d" [c!"a", c!"b"],
      refTable c!"e" [c!"d"], relTable c!"f" [c!"f"]] }

instance (db : Database) : Decidable (WellKeyed db) := decidable_of_iff _ (WellKeyedD.iff db)

/-- The references of a database, as a list. -/
theorem dangling_iff {db : Database} (hk : WellKeyed db) :
    Dangling db ↔ ∃ p ∈ db.tables, ∃ b ∈ p.2.allRelated, b ∉ db.tables.keys := by
  unfold Dangling
  simp only [table_iff, refers_iff hk]
  constructor
  · rintro ⟨a, b, ⟨t, ht, hb⟩, hn⟩
    exact ⟨(a, t), Dict.mem_of_get? ht, b, hb, hn⟩
  · rintro ⟨⟨a, t⟩, ht, b, hb, hn⟩
    exact ⟨a, b, ⟨t, Dict.get?_of_mem hk.tables ht, hb⟩, hn⟩

/-! ## C47, C48 -/

theorem leads_iff {db : Database} {m : Dict (List Str)} (hm : Maps db m) (a b : Str) : Leads db a b ↔ Relation.TransGen (Edge m) a b := by
  have : Refers db = Edge m := by
    funext a b
    exact propext (hm.edge a b).symm
  unfold Leads
  rw [this]

theorem transGen_dangling {db : Database} {m : Dict (List Str)} (hm : Maps db m) {a x : Str} (h : Relation.TransGen (Edge m) a x)
    (hx : x ∉ m.keys) : Dangling db := by
  cases h with
  | single h => exact ⟨a, x, (hm.edge _ _).1 h, by rw [table_iff, ← hm.keys]; exact hx⟩
  | tail _ h => exact ⟨_, x, (hm.edge _ _).1 h, by rw [table_iff, ← hm.keys]; exact hx⟩

theorem reviewCircular_spec {order : List Str → List Str} (ho : ∀ l, (order l).Perm l) {db : Database} (hk : WellKeyed db) {rounds : Nat}
    (hr : db.tables.length + 2 ≤ rounds) :
    (∃ names : List Str, reviewCircular order rounds db = some (.ok (names.map circularIssue)) ∧ names.Sublist db.tables.keys ∧
      ¬ Dangling db ∧ ∀ n ∈ db.tables.keys, n ∈ names ↔ Leads db n n) ∨
    (reviewCircular order rounds db = some (.error .key) ∧ Dangling db) := by
  have hm := maps_relatedSets hk
  have hn : (relatedSets db).keys.Nodup := by rw [hm.keys]; exact hk.tables
  have hl : (relatedSets db).keys.length + 2 ≤ rounds := by rw [hm.keys]; simpa using hr
  rcases circularTables_spec ho (relatedSets db) hn hm.nodup rounds hl (relatedSets db) (fun p hp => Dict.get?_of_mem hn hp) with
    ⟨names, e, s, k, c⟩ | ⟨e, a, x, h, hx⟩
  · left
    have hkeys : (relatedSets db).map Prod.fst = db.tables.keys := hm.keys
    rw [hkeys] at s c
    refine ⟨names, e, s, ?_, ?_⟩
    · rintro ⟨a, b, hab, hb⟩
      obtain ⟨l, hl, hbl⟩ := (hm.edge _ _).2 hab
      exact hb (by rw [table_iff, ← hm.keys]; exact k _ (Dict.mem_of_get? hl) b hbl)
    · intro n hn
      rw [c n hn, leads_iff hm]
  · right
    exact ⟨e, transGen_dangling hm h hx⟩

/-- C47: on a database without dangling references the review ends within as many rounds per table as there are tables, plus two, and
names, in table order, each once, exactly the tables from which a chain of references leads back. -/
theorem C47_circular_exact (order : List Str → List Str) (ho : ∀ l, (order l).Perm l) (db : Database) (hk : WellKeyed db)
    (hd : ¬ Dangling db) (rounds : Nat) (hr : db.tables.length + 2 ≤ rounds) :
    ∃ names : List Str,
      reviewCircular order rounds db = some (.ok (names.map (fun n => n ++ c!" has circular relationship back to itself."))) ∧
      names.Sublist (db.tables.map Prod.fst) ∧ names.Nodup ∧ ∀ n, n ∈ names ↔ Leads db n n := by
  rcases reviewCircular_spec ho hk hr with ⟨names, e, s, -, c⟩ | ⟨-, h⟩
  · refine ⟨names, e, s, s.nodup hk.tables, ?_⟩
    intro n
    by_cases hn : n ∈ db.tables.keys
    · exact c n hn
    · constructor
      · intro h; exact absurd (s.subset h) hn
      · intro h
        obtain ⟨b, ⟨t, ht, -⟩, -⟩ := Relation.TransGen.head'_iff.1 h
        exact absurd (table_iff.1 ⟨t, ht⟩) hn
  · exact absurd h hd

/-- C48: the review raises exactly if the database has a dangling reference, and then it raises `KeyError`. -/
theorem C48_dangling_exact (order : List Str → List Str) (ho : ∀ l, (order l).Perm l) (db : Database) (hk : WellKeyed db)
    (rounds : Nat) (hr : db.tables.length + 2 ≤ rounds) :
    (reviewCircular order rounds db = some (.error .key) ↔ Dangling db) ∧
    ∀ e, reviewCircular order rounds db = some (.error e) → e = .key := by
  rcases reviewCircular_spec ho hk hr with ⟨names, e, -, h, -⟩ | ⟨e, h⟩
  · rw [e]
    exact ⟨⟨fun h => (by cases h), fun h' => absurd h' h⟩, fun e h => (by cases h)⟩
  · rw [e]
    exact ⟨⟨fun _ => h, fun _ => rfl⟩, fun e h => by cases h; rfl⟩

/-- The hypotheses of C47 hold for a database with cycles of one and three tables and tables that only lead into a cycle. -/
example : WellKeyed circleDb ∧ ¬ Dangling circleDb ∧ circleDb.tables.length + 2 ≤ 8 ∧
    reviewCircular List.reverse 8 circleDb = some (.ok [c!"a has circular relationship back to itself.",
      c!"b has circular relationship back to itself.", c!"c has circular relationship back to itself.",
      c!"f has circular relationship back to itself."]) := by
  have h : WellKeyed circleDb := by decide +kernel
  refine ⟨h, ?_, by decide, by decide +kernel⟩
  rw [dangling_iff h]
  decide +kernel

/-- The hypotheses of C48 hold for a database with a dangling reference, behind a table that is on a cycle. -/
example : WellKeyed { circleDb with tables := circleDb.tables ++ [refTable c!"g" [c!"g", c!"x"]] } ∧
    reviewCircular id 9 { circleDb with tables := circleDb.tables ++ [refTable c!"g" [c!"g", c!"x"]] } = some (.error .key) := by
  decide +kernel

/-! ## C49 -/

theorem longIssues_number {v : CfgVal} {q : Rat} (h : Number v q) (ps : List (List Str)) :
    longIssues v ps = .ok ((ps.filter (fun p => decide (q < ((p.length - 1 : Nat) : Rat)))).map longPathIssue) := by
  have hg : ∀ x, gtCfg x v = .ok (decide (q < x)) := by cases h <;> exact fun _ => rfl
  induction ps with
  | nil => rfl
  | cons p ps ih =>
    unfold longIssues
    rw [hg, ih]
    by_cases hq : q < ((p.length - 1 : Nat) : Rat)
    · simp [hq, bind, Except.bind]
    · simp [hq, bind, Except.bind]

theorem setting_value {cfg : Config} (hc : (cfg.map Prod.fst).Nodup) {name : Str} {default v : CfgVal} (h : Setting cfg name default v) :
    cfg.value name default = v := by
  unfold Config.value
  cases h with
  | given _ h => rw [Dict.get?_of_mem hc h]; rfl
  | missing h =>
    have : Dict.get? cfg name = none := by
      rw [Dict.get?_eq_none_iff]
      intro hm
      obtain ⟨⟨n, v⟩, hv, rfl⟩ := List.mem_map.1 hm
      exact h v hv
    rw [this]
    rfl

theorem simplePath_iff {db : Database} {m : Dict (List Str)} (hm : Maps db m) (hcl : ∀ a b, Edge m a b → b ∈ m.keys) {n : Str}
    (hn : n ∈ db.tables.keys) (e : List Str) : SimplePath db (n :: e) ↔ MapPath m (n :: e) := by
  have : Refers db = Edge m := by
    funext a b
    exact propext (hm.edge a b).symm
  constructor
  · rintro ⟨-, h2, h3⟩
    exact ⟨this ▸ h2, h3⟩
  · rintro ⟨h2, h3⟩
    refine ⟨?_, this ▸ h2, h3⟩
    intro x hx
    rw [table_iff, ← hm.keys]
    exact isChain_mem hcl (by rw [hm.keys]; exact hn) h2 x hx

theorem closed_of {db : Database} {m : Dict (List Str)} (hm : Maps db m) (hd : ¬ Dangling db) : ∀ a b, Edge m a b → b ∈ m.keys := by
  intro a b h
  rw [hm.keys]
  by_contra hb
  exact hd ⟨a, b, (hm.edge _ _).1 h, by rw [table_iff]; exact hb⟩

/-- All paths of the database: exact if the stack has room, otherwise the recursion error. -/
theorem allPaths_db {order : List Str → List Str} (ho : ∀ l, (order l).Perm l) {db : Database} (hk : WellKeyed db) (hd : ¬ Dangling db)
    (depth : Nat) :
    ((∃ p, SimplePath db p ∧ depth < p.length) →
      allPaths (getRelationships order db) depth (getRelationships order db).keys = .error .recursion) ∧
    ((∀ p, SimplePath db p → p.length ≤ depth) → ∃ ps, allPaths (getRelationships order db) depth (getRelationships order db).keys = .ok ps ∧
      ps.Nodup ∧ ∀ q, q ∈ ps ↔ SimplePath db q ∧ 2 ≤ q.length) := by
  have hm := maps_getRelationships ho hk
  have hcl := closed_of hm hd
  have hn : (getRelationships order db).keys.Nodup := by rw [hm.keys]; exact hk.tables
  obtain ⟨h1, h2⟩ := allPaths_spec (getRelationships order db) hm.nodup hcl depth (getRelationships order db).keys hn (fun n h => h)
  constructor
  · rintro ⟨p, hp, hl⟩
    apply h1
    match p, hp, hl with
    | n :: e, hp, hl =>
      have hnm : n ∈ db.tables.keys := table_iff.1 (hp.tables n (by simp))
      have hmp := (simplePath_iff hm hcl hnm e).1 hp
      refine ⟨n, by rw [hm.keys]; exact hnm, e.take depth, ?_, ?_⟩
      · simp only [List.length_cons] at hl
        rw [List.length_take]
        omega
      · have : n :: e = (n :: e.take depth) ++ e.drop depth := by simp
        rw [this] at hmp
        exact hmp.append_left _
  · intro hlen
    obtain ⟨ps, e, hnd, hmem⟩ := h2 (by
      rintro ⟨n, hn, e, he, hp⟩
      have := hlen _ ((simplePath_iff hm hcl (by rw [← hm.keys]; exact hn) e).2 hp)
      simp only [List.length_cons] at this
      omega)
    refine ⟨ps, e, hnd, ?_⟩
    intro q
    rw [hmem]
    constructor
    · rintro ⟨n, hn, e, he, rfl, hp⟩
      refine ⟨(simplePath_iff hm hcl (by rw [← hm.keys]; exact hn) e).2 hp, ?_⟩
      cases e with
      | nil => exact absurd rfl he
      | cons => simp
    · rintro ⟨hp, hl⟩
      match q, hp, hl with
      | n :: x :: e, hp, _ =>
        have hnm : n ∈ db.tables.keys := table_iff.1 (hp.tables n (by simp))
        exact ⟨n, by rw [hm.keys]; exact hnm, x :: e, by simp, rfl, (simplePath_iff hm hcl hnm _).1 hp⟩

/-- No simple path has more tables than the database. -/
theorem simplePath_length {db : Database} {p : List Str} (h : SimplePath db p) : p.length ≤ db.tables.length := by
  have : p.length ≤ db.tables.keys.length := (h.distinct.subperm (fun n hn => table_iff.1 (h.tables n hn))).length_le
  simpa using this

/-- C49: with room on the stack for the longest path, the review reports exactly the paths of pairwise distinct tables with more steps than
the limit, each once, whatever order sets are iterated in. -/
theorem C49_long_chains_exact (order : List Str → List Str) (ho : ∀ l, (order l).Perm l) (db : Database) (hk : WellKeyed db)
    (hd : ¬ Dangling db) (cfg : Config) (hc : (cfg.map Prod.fst).Nodup) (v : CfgVal) (max : Rat)
    (hs : Setting cfg c!"max_reference_chain" (.int 3) v) (hv : Number v max) (depth : Nat)
    (hdepth : ∀ p, SimplePath db p → p.length ≤ depth) :
    ∃ paths : List (List Str), paths.Nodup ∧
      (∀ p, p ∈ paths ↔ SimplePath db p ∧ 2 ≤ p.length ∧ max < ((p.length - 1 : Nat) : Rat)) ∧
      reviewLongChain order depth db cfg =
        .ok (paths.map (fun p => c!"Long path (" ++ Nat.toDigits 10 p.length ++ c!"):  " ++ showNames p ++ c!".")) := by
  obtain ⟨ps, e, hn, hm⟩ := (allPaths_db ho hk hd depth).2 hdepth
  refine ⟨ps.filter (fun p => decide (max < ((p.length - 1 : Nat) : Rat))), hn.filter _, ?_, ?_⟩
  · intro p
    simp only [List.mem_filter, hm, decide_eq_true_eq, and_assoc]
  · unfold reviewLongChain
    simp only [e, setting_value hc hs]
    show longIssues v ps = _
    rw [longIssues_number hv]
    congr 1
    apply List.map_congr_left
    intro p _
    unfold longPathIssue
    rw [reprList_eq]
    rfl

/-- C49: a stack with room for as many calls as there are tables is always enough. -/
theorem C49_enough_stack (db : Database) (p : List Str) (h : SimplePath db p) : p.length ≤ db.tables.length := simplePath_length h

/-- C49: without room for the longest path the review ends with `RecursionError`: it does not report a part. -/
theorem C49_stack (order : List Str → List Str) (ho : ∀ l, (order l).Perm l) (db : Database) (hk : WellKeyed db)
    (hd : ¬ Dangling db) (cfg : Config) (depth : Nat) (p : List Str) (hp : SimplePath db p) (hl : depth < p.length) :
    reviewLongChain order depth db cfg = .error .recursion := by
  have e := (allPaths_db ho hk hd depth).1 ⟨p, hp, hl⟩
  unfold reviewLongChain
  simp only [e]
  rfl

/-- The hypotheses of C49 hold for a database with a cycle and a limit of two steps. -/
example : WellKeyed circleDb ∧ Setting [(c!"max_reference_chain", .int 2)] c!"max_reference_chain" (.int 3) (.int 2) ∧
    circleDb.tables.length ≤ 6 ∧
    reviewLongChain id 6 circleDb [(c!"max_reference_chain", .int 2)] = .ok [c!"Long path (4):  ['d', 'a', 'b', 'c'].",
      c!"Long path (4):  ['d', 'b', 'c', 'a'].", c!"Long path (4):  ['e', 'd', 'a', 'b'].", c!"Long path (5):  ['e', 'd', 'a', 'b', 'c'].",
      c!"Long path (4):  ['e', 'd', 'b', 'c'].", c!"Long path (5):  ['e', 'd', 'b', 'c', 'a']."] := by
  refine ⟨by decide +kernel, .given _ (by simp), by decide, by decide +kernel⟩

/-! ## C46 for long chains -/

/-- Values loaded from a file are texts. -/
theorem loaded_text {fs : FS} {f content : Str} (h : fs f = some (.text content)) {k : Str} {v : CfgVal}
    (hv : Dict.get? (loadConfig fs [] f).1 k = some v) : ∃ s, v = .text s := by
  rcases (C45_last_setting_wins fs [] f content h (fileLines content) (fileLines_iff.2 rfl) k).2 with ⟨_, _, _, s, -, -, -, e⟩ | ⟨-, e⟩
  · rw [e] at hv
    exact ⟨s, (Option.some.inj hv).symm⟩
  · rw [e] at hv
    cases hv

/-- C46 fails: with a file that sets the documented key, the review raises `TypeError` on every database in which some table refers to
another one, whatever the value in the file is. -/
theorem C46_long_chain_raises (order : List Str → List Str) (ho : ∀ l, (order l).Perm l) (db : Database) (hk : WellKeyed db)
    (hd : ¬ Dangling db) (depth : Nat) (hdepth : db.tables.length ≤ depth) (a b : Str) (hab : Refers db a b) (hne : a ≠ b)
    (fs : FS) (f content : Str) (h : fs f = some (.text content)) (ls : List Str) (hls : Lines (newlines content) ls)
    (line v : Str) (hline : line ∈ ls) (hset : Sets line c!"max_reference_chain" v) :
    reviewLongChain order depth db (loadConfig fs [] f).1 = .error .type := by
  obtain ⟨ps, e, -, hm⟩ := (allPaths_db ho hk hd depth).2 (fun p hp => (simplePath_length hp).trans hdepth)
  have hta : ∃ t, TableOf db a t := by
    obtain ⟨t, ht, -⟩ := hab
    exact ⟨t, ht⟩
  have htb : ∃ t, TableOf db b t := by
    by_contra hb
    exact hd ⟨a, b, hab, hb⟩
  have hp : [a, b] ∈ ps := by
    rw [hm]
    refine ⟨⟨?_, by simpa using hab, by simpa using hne⟩, by simp⟩
    intro n hn
    simp only [List.mem_cons, List.not_mem_nil, or_false] at hn
    rcases hn with rfl | rfl <;> assumption
  obtain ⟨w, hw⟩ : ∃ w, Dict.get? (loadConfig fs [] f).1 c!"max_reference_chain" = some (.text w) := by
    rcases (C45_last_setting_wins fs [] f content h ls hls c!"max_reference_chain").2 with ⟨_, _, _, s, -, -, -, e⟩ | ⟨h', -⟩
    · exact ⟨s, e⟩
    · exact absurd hset (h' line hline v)
  unfold reviewLongChain
  simp only [e]
  show longIssues (Config.value _ _ _) ps = _
  have hval : Config.value (loadConfig fs [] f).1 c!"max_reference_chain" (.int 3) = .text w := by
    unfold Config.value
    rw [hw]
    rfl
  rw [hval]
  cases ps with
  | nil => simp at hp
  | cons p ps => rfl

/-- The start of ddltools/review.cfg. -/
def reviewCfg : Str := c!"# Default parameters for reviews.\n\nmax_reference_chain = 3\n"

/-- C46 fails: witness with the setting of ddltools/review.cfg. -/
theorem C46_review_cfg_raises :
    reviewLongChain id 1000 circleDb (loadConfig (oneFile c!"review.cfg" reviewCfg) [] c!"review.cfg").1 = .error .type := by
  decide +kernel

/-- C46, in part: a configuration that does not set the key, or sets it to a number from Python code, never makes the review raise. -/
theorem C46_long_chain_partial (order : List Str → List Str) (ho : ∀ l, (order l).Perm l) (db : Database) (hk : WellKeyed db)
    (hd : ¬ Dangling db) (cfg : Config) (hc : (cfg.map Prod.fst).Nodup) (h : ∀ v, (c!"max_reference_chain", v) ∈ cfg → ∃ q, Number v q)
    (depth : Nat) (hdepth : db.tables.length ≤ depth) : ∃ issues, reviewLongChain order depth db cfg = .ok issues := by
  have hdp : ∀ p, SimplePath db p → p.length ≤ depth := fun p hp => (simplePath_length hp).trans hdepth
  by_cases hset : ∃ v, (c!"max_reference_chain", v) ∈ cfg
  · obtain ⟨v, hv⟩ := hset
    obtain ⟨q, hq⟩ := h v hv
    obtain ⟨paths, -, -, e⟩ := C49_long_chains_exact order ho db hk hd cfg hc v q (.given _ hv) hq depth hdp
    exact ⟨_, e⟩
  · obtain ⟨paths, -, -, e⟩ := C49_long_chains_exact order ho db hk hd cfg hc (.int 3) 3
      (.missing (fun v hv => hset ⟨v, hv⟩)) (.int 3) depth hdp
    exact ⟨_, e⟩

/-! ## C56 -/

theorem transGen_listed {m : Dict (List Str)} (hm : m.keys.Nodup) (a b : Str) :
    Relation.TransGen (Listed m) a b ↔ Relation.TransGen (Edge m) a b := by
  have : Listed m = Edge m := by
    funext a b
    exact propext (listed_iff hm a b)
  rw [this]

/-- C56, in part: whenever `relates_to_previous` returns, its answer is right.  Missing for the full statement: that it returns (see
`C56_cyclic_never_returns`). -/
theorem C56_sound_partial (m : Dict (List Str)) (hm : (m.map Prod.fst).Nodup) (depth : Nat) (s t : Str) (b : Bool)
    (h : relatesToPrevious m depth s t = .ok b) : b = true ↔ Relation.TransGen (Listed m) s t := by
  rw [transGen_listed hm]
  exact relatesToPrevious_sound m depth s t b h

/-- C56, in part: on a map without cycles and dangling names it returns the right answer; a stack with room for as many calls as there
are names is enough. -/
theorem C56_acyclic_partial (m : Dict (List Str)) (hm : (m.map Prod.fst).Nodup) (hcl : ClosedMap m)
    (hac : ∀ a, ¬ Relation.TransGen (Listed m) a a) (s t : Str) (hs : ∃ l, (s, l) ∈ m) (depth : Nat) (hd : m.length ≤ depth) :
    ∃ b, relatesToPrevious m depth s t = .ok b ∧ (b = true ↔ Relation.TransGen (Listed m) s t) := by
  rw [closed_iff hm] at hcl
  have hsm : s ∈ m.keys := by
    obtain ⟨l, hl⟩ := hs
    exact List.mem_map.2 ⟨_, hl, rfl⟩
  obtain ⟨b, hb⟩ := relatesToPrevious_ok m hcl depth s t hsm (by
    intro p hp
    have hn : (s :: p).Nodup := isChain_nodup (fun a h => hac a ((transGen_listed hm a a).2 h)) hp
    have h1 : (s :: p).length ≤ m.keys.length := (hn.subperm (isChain_mem hcl hsm hp)).length_le
    simp only [Dict.length_keys] at h1
    omega)
  exact ⟨b, hb, C56_sound_partial m hm depth s t b hb⟩

/-- C56 fails: if the target cannot be reached but a cycle can, `relates_to_previous` does not answer, however large the stack. -/
theorem C56_cyclic_never_returns (m : Dict (List Str)) (hm : (m.map Prod.fst).Nodup) (hcl : ClosedMap m) (s t c : Str)
    (hs : ∃ l, (s, l) ∈ m) (hc : c = s ∨ Relation.TransGen (Listed m) s c) (hcyc : Relation.TransGen (Listed m) c c)
    (ht : ¬ Relation.TransGen (Listed m) s t) (depth : Nat) : relatesToPrevious m depth s t = .error .recursion := by
  rw [closed_iff hm] at hcl
  rw [transGen_listed hm] at ht hcyc
  rw [transGen_listed hm] at hc
  have hsm : s ∈ m.keys := by
    obtain ⟨l, hl⟩ := hs
    exact List.mem_map.2 ⟨_, hl, rfl⟩
  rcases relatesToPrevious_unreachable m hcl depth s t hsm ht with h | h
  · exfalso
    rcases hc with rfl | hc
    · obtain ⟨p, hp, hl⟩ := walk_of_cycle hcyc depth
      have := relatesToPrevious_false_walk m depth c t h p hp
      omega
    · -- a walk to the cycle, continued around it
      have key : ∀ s, Relation.TransGen (Edge m) s c → ∃ p : List Str, (s :: p).IsChain (Edge m) ∧ depth < (s :: p).length := by
        intro s hs
        induction hs using Relation.TransGen.head_induction_on with
        | single he =>
          obtain ⟨p, hp, hl⟩ := walk_of_cycle hcyc depth
          exact ⟨c :: p, List.IsChain.cons_cons he hp, by simp only [List.length_cons] at hl ⊢; omega⟩
        | head he _ ih =>
          obtain ⟨p, hp, hl⟩ := ih
          exact ⟨_ :: p, List.IsChain.cons_cons he hp, by simp only [List.length_cons] at hl ⊢; omega⟩
      obtain ⟨p, hp, hl⟩ := key s hc
      have := relatesToPrevious_false_walk m depth s t h p hp
      omega
  · exact h

/-- A map with a cycle behind its first name. -/
def cyclicMap : Dict (List Str) := [(c!"a", [c!"b"]), (c!"b", [c!"c"]), (c!"c", [c!"b"]), (c!"d", [])]

/-- The hypotheses of `C56_cyclic_never_returns` can hold: asked whether `a` leads to `d`, the function never answers. -/
example (depth : Nat) : relatesToPrevious cyclicMap depth c!"a" c!"d" = .error .recursion := by
  have hl : ∀ a b, Listed cyclicMap a b ↔ (a = c!"a" ∧ b = c!"b") ∨ (a = c!"b" ∧ b = c!"c") ∨ (a = c!"c" ∧ b = c!"b") := by
    intro a b
    simp only [Listed, cyclicMap, List.mem_cons, Prod.mk.injEq, List.not_mem_nil, or_false]
    constructor
    · rintro ⟨l, ⟨rfl, rfl⟩ | ⟨rfl, rfl⟩ | ⟨rfl, rfl⟩ | ⟨rfl, rfl⟩, h⟩ <;> simp at h <;> simp [h]
    · rintro (⟨rfl, rfl⟩ | ⟨rfl, rfl⟩ | ⟨rfl, rfl⟩)
      · exact ⟨[c!"b"], by simp, by simp⟩
      · exact ⟨[c!"c"], by simp, by simp⟩
      · exact ⟨[c!"b"], by simp, by simp⟩
  have hd : ∀ b, Relation.TransGen (Listed cyclicMap) c!"a" b → b ≠ c!"d" := by
    intro b h
    cases h with
    | single h => rcases (hl _ _).1 h with ⟨-, rfl⟩ | ⟨-, rfl⟩ | ⟨-, rfl⟩ <;> decide
    | tail _ h => rcases (hl _ _).1 h with ⟨-, rfl⟩ | ⟨-, rfl⟩ | ⟨-, rfl⟩ <;> decide
  refine C56_cyclic_never_returns cyclicMap (by decide) ?_ c!"a" c!"d" c!"b" ⟨[c!"b"], by simp [cyclicMap]⟩
    (.inr (.single ((hl _ _).2 (by simp)))) (.tail (.single ((hl _ c!"c").2 (by simp))) ((hl _ _).2 (by simp)))
    (fun h => hd _ h rfl) depth
  intro a b h
  rcases (hl _ _).1 h with ⟨-, rfl⟩ | ⟨-, rfl⟩ | ⟨-, rfl⟩
  · exact ⟨[c!"c"], by simp [cyclicMap]⟩
  · exact ⟨[c!"b"], by simp [cyclicMap]⟩
  · exact ⟨[c!"c"], by simp [cyclicMap]⟩

/-- A map without cycles on which both answers occur. -/
example : relatesToPrevious [(c!"a", [c!"b", c!"c"]), (c!"b", []), (c!"c", [c!"d"]), (c!"d", [c!"b"])] 4 c!"a" c!"d" = .ok true ∧
    relatesToPrevious [(c!"a", [c!"b", c!"c"]), (c!"b", []), (c!"c", [c!"d"]), (c!"d", [c!"b"])] 4 c!"d" c!"a" = .ok false := by
  decide +kernel

end Verif.Props
