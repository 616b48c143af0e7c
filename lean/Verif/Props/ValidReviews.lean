import Verif.Props.ValidKept
import Verif.Props.Graph
import Verif.Props.Review
/-
C110: the reviews of a valid database.
-/

namespace Verif.Props
open Verif Verif.Spec

theorem valid_not_dangling {db : Database} (h : WellFormed db) : ¬ Dangling db := by
  rintro ⟨a, b, ⟨t, ht, hr⟩, hb⟩
  refine hb (((wellFormed_iff db).1 h a t ht).refers ?_)
  rcases hr with ⟨m, k, hm, e⟩ | ⟨m, k, hm, e⟩
  · exact .inl ⟨m, k, hm, e⟩
  · exact .inr ⟨m, k, hm, e⟩

/-- C110: on a valid database whose tables have columns the reviews of relationships and of joins end with a report, whatever the server answers. -/
theorem C110_reviews_end (db : Database) (h : ApiDb db) (hv : Valid db) (hc : ∀ n t, TableOf db n t → ∃ m c, ColumnOf t m c)
    (order : List Str → List Str) (ho : ∀ l, (order l).Perm l) (srv : QueryServer) :
    (∃ names : List Str, reviewCircular order (db.tables.length + 2) db = some (.ok (names.map (fun n => n ++ c!" has circular relationship back to itself."))) ∧
      ∀ n, n ∈ names ↔ Leads db n n) ∧
    (∀ (cfg : Config) (v : CfgVal) (max : Rat), (cfg.map Prod.fst).Nodup → Setting cfg c!"max_reference_chain" (.int 3) v → Number v max →
      ∃ report, reviewLongChain order db.tables.length db cfg = .ok report) ∧
    ∃ (joins : List (List Join)) (issues : List Str), List.Forall₂ (TableJoins db) (db.tables.map Prod.snd) joins ∧
      JoinReport db.name srv [] joins.flatten issues ∧ reviewTableJoins srv db = .ok issues := by
  have hk := h.keyed.1
  have wf := (C08_valid_iff_well_formed_api db h).1 hv
  have hd := valid_not_dangling wf
  refine ⟨?_, ?_, ?_⟩
  · obtain ⟨names, e, -, -, hn⟩ := C47_circular_exact order ho db hk hd _ le_rfl
    exact ⟨names, e, hn⟩
  · intro cfg v max hcfg hs hn
    obtain ⟨paths, -, -, e⟩ := C49_long_chains_exact order ho db hk hd cfg hcfg v max hs hn db.tables.length (fun p hp => C49_enough_stack db p hp)
    exact ⟨_, e⟩
  · refine C52_join_cardinality_partial srv db hk hd (fun p hp q hq => ?_) (fun p hp => ?_)
    · obtain ⟨u, -, hl, -⟩ := wf.fks p.1 p.2 hp q.1 q.2 hq
      exact hl.le
    · obtain ⟨m, c, hm⟩ := hc p.1 p.2 hp
      exact .inr (List.ne_nil_of_mem hm)

/-- A valid database with a table that has no columns. -/
def bareTables : Database := (Database.empty c!"d").addTable (Table.addRelationshipObj ⟨c!"order", c!"s", [], none, [], [], []⟩ ⟨c!"r", c!"order", c!"order", c!"cond"⟩)

/-- C110: tables without columns are valid, but the review of joins raises `IndexError`. -/
theorem C110_no_columns : ApiDb bareTables ∧ Valid bareTables ∧ reviewTableJoins (fun _ _ => .ok []) bareTables = .error .index :=
  ⟨.addTable _ _ (.new _) (.addRelationshipObj _ _ (.new (some c!"order") (some c!"s") none none _ rfl)), ⟨⟨true, []⟩, by decide, rfl⟩, by decide⟩

/-- The hypotheses are met by two tables with columns and a relationship. -/
def reviewedDb : Database := (Database.empty c!"d").addTable keptCustomers |>.addTable (Table.addColumn keptOrders ⟨c!"id", c!"INT"⟩)

example : ApiDb reviewedDb ∧ Valid reviewedDb ∧ ∀ n t, TableOf reviewedDb n t → ∃ m c, ColumnOf t m c := by
  refine ⟨.addTable _ _ (.addTable _ _ (.new _) keptCustomers_api) (.addColumn _ (some c!"id") (some c!"INT") _ keptOrders_api rfl), ⟨⟨true, []⟩, by decide, rfl⟩, fun n t h => ?_⟩
  have h : (n, t) ∈ [(c!"customer", keptCustomers), (c!"order", Table.addColumn keptOrders ⟨c!"id", c!"INT"⟩)] := h
  simp only [List.mem_cons, List.not_mem_nil, or_false] at h
  rcases h with h | h <;> cases h <;> exact ⟨c!"id", ⟨c!"id", c!"INT"⟩, List.mem_singleton.2 rfl⟩

end Verif.Props
