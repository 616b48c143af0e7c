import Verif.Review
import Verif.Spec.Graph
import Verif.Lemmas.Dict
import Mathlib.Logic.Relation
import Mathlib.Data.List.Nodup
import Mathlib.Data.List.Perm.Subperm
import Mathlib.Tactic.Tauto
/-
Lemmas about sets of names, and about the graph reviews on a map from names to names.
-/

namespace Verif
open Spec

/-! ## Sets -/

theorem mem_setAdd {s : List Str} {x y : Str} : y ∈ setAdd s x ↔ y ∈ s ∨ y = x := by
  unfold setAdd
  split
  · rename_i h
    simp only [List.contains_iff_mem] at h
    constructor
    · exact .inl
    · rintro (h' | rfl) <;> assumption
  · simp

theorem nodup_setAdd {s : List Str} (h : s.Nodup) (x : Str) : (setAdd s x).Nodup := by
  unfold setAdd
  split
  · exact h
  · rename_i hx
    simp only [List.contains_iff_mem] at hx
    rw [List.nodup_append]
    refine ⟨h, by simp, ?_⟩
    intro a ha b hb
    simp only [List.mem_singleton] at hb
    rintro rfl
    exact hx (hb ▸ ha)

theorem prefix_setAdd (s : List Str) (x : Str) : s <+: setAdd s x := by
  unfold setAdd
  split
  · exact List.prefix_refl _
  · exact List.prefix_append _ _

theorem foldl_setAdd (l s : List Str) :
    s <+: l.foldl setAdd s ∧ (∀ y, y ∈ l.foldl setAdd s ↔ y ∈ s ∨ y ∈ l) ∧ (s.Nodup → (l.foldl setAdd s).Nodup) := by
  induction l generalizing s with
  | nil => simp
  | cons x l ih =>
    obtain ⟨h1, h2, h3⟩ := ih (setAdd s x)
    simp only [List.foldl_cons]
    refine ⟨(prefix_setAdd s x).trans h1, ?_, fun hs => h3 (nodup_setAdd hs x)⟩
    intro y
    rw [h2, mem_setAdd, List.mem_cons]
    tauto

theorem mem_setOf {l : List Str} {x : Str} : x ∈ setOf l ↔ x ∈ l := by
  unfold setOf
  rw [(foldl_setAdd l []).2.1]
  simp

theorem nodup_setOf (l : List Str) : (setOf l).Nodup := (foldl_setAdd l []).2.2 List.nodup_nil

/-! ## Maps from names to names -/

/-- The edges of a map. -/
def Edge (m : Dict (List Str)) (a b : Str) : Prop := ∃ l, m.get? a = some l ∧ b ∈ l

theorem Edge.mem {m : Dict (List Str)} {a b : Str} (h : Edge m a b) : a ∈ m.keys := by
  obtain ⟨l, hl, -⟩ := h
  exact (Dict.get?_isSome_iff m a).1 (by simp [hl])

/-- Setting each table's entry in turn. -/
theorem fill_map {α : Type} (f : Table → α) (l : List (Str × Table)) (hn : (l.map Prod.fst).Nodup) (hk : ∀ n t, (n, t) ∈ l → n = t.name)
    (m0 : Dict α) (hm : ∀ n ∈ m0.keys, n ∉ l.map Prod.fst) :
    (l.map Prod.snd).foldl (fun (m : Dict α) t => m.set t.name (f t)) m0 = m0 ++ l.map (fun p => (p.1, f p.2)) := by
  induction l generalizing m0 with
  | nil => simp
  | cons p l ih =>
    obtain ⟨n, t⟩ := p
    have hnt := hk n t (by simp)
    subst hnt
    simp only [List.map_cons, List.foldl_cons, List.nodup_cons] at hn ⊢
    have h1 : t.name ∉ Dict.keys m0 := fun h => hm _ h (by simp)
    rw [Dict.set_of_not_mem _ h1, ih hn.2 (fun n t h => hk n t (by simp [h]))]
    · simp
    · intro n h
      simp only [Dict.keys_append, List.mem_append] at h
      rcases h with h | h
      · have := hm n h
        simp only [List.map_cons, List.mem_cons, not_or] at this
        exact this.2
      · simp only [Dict.keys_cons, Dict.keys_nil, List.mem_singleton] at h
        subst h
        exact hn.1

theorem fill_db {α : Type} (f : Table → α) {db : Database} (hk : WellKeyed db) :
    db.tables.vals.foldl (fun (m : Dict α) t => m.set t.name (f t)) [] = db.tables.map (fun p => (p.1, f p.2)) := by
  have := fill_map f db.tables hk.tables hk.tableNames [] (by simp)
  simpa [Dict.vals] using this

theorem get?_map {α β : Type} (f : α → β) (d : Dict α) (n : Str) :
    Dict.get? (d.map (fun p => (p.1, f p.2)) : Dict β) n = (d.get? n).map f := by
  induction d with
  | nil => rfl
  | cons p d ih =>
    simp only [List.map_cons, Dict.get?_cons, ih]
    split <;> simp_all

theorem keys_map {α β : Type} (f : α → β) (d : Dict α) : Dict.keys (d.map (fun p => (p.1, f p.2)) : Dict β) = d.keys := by
  simp [Dict.keys]

theorem tableOf_iff {db : Database} (hk : WellKeyed db) {n : Str} {t : Table} : TableOf db n t ↔ db.tables.get? n = some t :=
  Dict.mem_iff_get? hk.tables

theorem table_iff {db : Database} {n : Str} : (∃ t, TableOf db n t) ↔ n ∈ db.tables.keys := by
  unfold TableOf Dict.keys
  simp

/-- A map that lists for each table the targets of its references. -/
structure Maps (db : Database) (m : Dict (List Str)) : Prop where
  keys : m.keys = db.tables.keys
  edge : ∀ a b, Edge m a b ↔ Refers db a b
  nodup : ∀ a l, m.get? a = some l → l.Nodup

theorem refers_iff {db : Database} (hk : WellKeyed db) {a b : Str} :
    Refers db a b ↔ ∃ t, db.tables.get? a = some t ∧ b ∈ t.allRelated := by
  unfold Refers
  constructor
  · rintro ⟨t, ht, h⟩
    refine ⟨t, (tableOf_iff hk).1 ht, ?_⟩
    unfold Table.allRelated Dict.vals
    rcases h with ⟨m, k, h, rfl⟩ | ⟨m, k, h, rfl⟩
    · simp only [List.nil_append, List.mem_append, List.mem_map]
      exact .inl ⟨k, ⟨_, h, rfl⟩, rfl⟩
    · simp only [List.nil_append, List.mem_append, List.mem_map]
      exact .inr ⟨k, ⟨_, h, rfl⟩, rfl⟩
  · rintro ⟨t, ht, h⟩
    refine ⟨t, (tableOf_iff hk).2 ht, ?_⟩
    unfold Table.allRelated Dict.vals at h
    simp only [List.nil_append, List.mem_append, List.mem_map] at h
    rcases h with ⟨k, ⟨⟨m, k'⟩, h, rfl⟩, rfl⟩ | ⟨k, ⟨⟨m, k'⟩, h, rfl⟩, rfl⟩
    · exact .inl ⟨_, _, h, rfl⟩
    · exact .inr ⟨_, _, h, rfl⟩

theorem maps_relatedSets {db : Database} (hk : WellKeyed db) : Maps db (relatedSets db) := by
  have e : relatedSets db = db.tables.map (fun p => (p.1, setOf p.2.allRelated)) := fill_db _ hk
  rw [e]
  refine ⟨keys_map (fun t : Table => setOf t.allRelated) _, ?_, ?_⟩
  · intro a b
    rw [refers_iff hk]
    unfold Edge
    simp only [get?_map (fun t : Table => setOf t.allRelated), Option.map_eq_some_iff]
    constructor
    · rintro ⟨l, ⟨t, ht, rfl⟩, h⟩; exact ⟨t, ht, mem_setOf.1 h⟩
    · rintro ⟨t, ht, h⟩; exact ⟨_, ⟨t, ht, rfl⟩, mem_setOf.2 h⟩
  · intro a l h
    simp only [get?_map (fun t : Table => setOf t.allRelated), Option.map_eq_some_iff] at h
    obtain ⟨t, -, rfl⟩ := h
    exact nodup_setOf _

theorem maps_getRelationships {order : List Str → List Str} (ho : ∀ l, (order l).Perm l) {db : Database} (hk : WellKeyed db) :
    Maps db (getRelationships order db) := by
  have e : getRelationships order db = db.tables.map (fun p => (p.1, order (setOf p.2.allRelated))) := by
    have h := fill_db (fun t : Table => order (setOf t.allRelated)) hk
    rw [← h]
    unfold getRelationships
    congr 1
    funext m t
    simp [setOf, Table.allRelated, List.foldl_append, List.foldl_map]
  rw [e]
  refine ⟨keys_map (fun t : Table => order (setOf t.allRelated)) _, ?_, ?_⟩
  · intro a b
    rw [refers_iff hk]
    unfold Edge
    simp only [get?_map (fun t : Table => order (setOf t.allRelated)), Option.map_eq_some_iff]
    constructor
    · rintro ⟨l, ⟨t, ht, rfl⟩, h⟩; exact ⟨t, ht, mem_setOf.1 ((ho _).mem_iff.1 h)⟩
    · rintro ⟨t, ht, h⟩; exact ⟨_, ⟨t, ht, rfl⟩, (ho _).mem_iff.2 (mem_setOf.2 h)⟩
  · intro a l h
    simp only [get?_map (fun t : Table => order (setOf t.allRelated)), Option.map_eq_some_iff] at h
    obtain ⟨t, -, rfl⟩ := h
    exact (ho _).nodup_iff.2 (nodup_setOf _)

/-! ## Circular relationships -/

section
variable {order : List Str → List Str} (ho : ∀ l, (order l).Perm l) (m : Dict (List Str))
include ho

theorem stepFold (l acc : List Str) :
    ((∀ r ∈ l, r ∈ m.keys) → ∃ new, l.foldlM (fun (acc : List Str) r =>
        match m.get? r with
        | none => (.error .key : Except PyErr (List Str))
        | some l => .ok ((order l).foldl setAdd acc)) acc = .ok new ∧
      acc <+: new ∧ (∀ x, x ∈ new ↔ x ∈ acc ∨ ∃ r ∈ l, Edge m r x) ∧ (acc.Nodup → new.Nodup)) ∧
    ((∃ r ∈ l, r ∉ m.keys) → l.foldlM (fun (acc : List Str) r =>
        match m.get? r with
        | none => (.error .key : Except PyErr (List Str))
        | some l => .ok ((order l).foldl setAdd acc)) acc = .error .key) := by
  induction l generalizing acc with
  | nil => exact ⟨fun _ => ⟨acc, rfl, List.prefix_refl _, by simp, id⟩, by simp⟩
  | cons r l ih =>
    simp only [List.foldlM_cons]
    cases hr : m.get? r with
    | none =>
      have hr' := (Dict.get?_eq_none_iff m r).1 hr
      exact ⟨fun h => absurd (h r (by simp)) hr', fun _ => rfl⟩
    | some t =>
      have hr' : r ∈ m.keys := (Dict.get?_isSome_iff m r).1 (by simp [hr])
      obtain ⟨h1, h2, h3⟩ := foldl_setAdd (order t) acc
      obtain ⟨i1, i2⟩ := ih ((order t).foldl setAdd acc)
      constructor
      · intro h
        obtain ⟨new, e, p, q, n⟩ := i1 (fun x hx => h x (by simp [hx]))
        refine ⟨new, e, h1.trans p, ?_, fun ha => n (h3 ha)⟩
        intro x
        rw [q, h2, (ho t).mem_iff]
        constructor
        · rintro ((h | h) | ⟨r', hr', h⟩)
          · exact .inl h
          · exact .inr ⟨r, by simp, t, hr, h⟩
          · exact .inr ⟨r', by simp [hr'], h⟩
        · rintro (h | ⟨r', hr'', h⟩)
          · exact .inl (.inl h)
          · rcases List.mem_cons.1 hr'' with he | hr''
            · obtain ⟨t', ht', hx⟩ := h
              rw [he, hr] at ht'
              cases ht'
              exact .inl (.inr hx)
            · exact .inr ⟨r', hr'', h⟩
      · rintro ⟨x, hx, hxm⟩
        apply i2
        rcases List.mem_cons.1 hx with rfl | hx
        · exact absurd hr' hxm
        · exact ⟨x, hx, hxm⟩

theorem circularStep_ok {related : List Str} (h : ∀ r ∈ related, r ∈ m.keys) :
    ∃ new, circularStep order m related = .ok new ∧ related <+: new ∧
      (∀ x, x ∈ new ↔ x ∈ related ∨ ∃ r ∈ related, Edge m r x) ∧ (related.Nodup → new.Nodup) := by
  obtain ⟨new, e, p, q, n⟩ := (stepFold ho m (order related) related).1 (fun r hr => h r ((ho _).mem_iff.1 hr))
  refine ⟨new, e, p, ?_, n⟩
  intro x
  rw [q]
  simp [(ho related).mem_iff]

theorem circularStep_error {related : List Str} (h : ∃ r ∈ related, r ∉ m.keys) : circularStep order m related = .error .key := by
  obtain ⟨r, hr, hm⟩ := h
  exact (stepFold ho m (order related) related).2 ⟨r, (ho _).mem_iff.2 hr, hm⟩

/-- The loop ends, and its answer is right; it fails only at a name that is not in the map. -/
theorem circularLoop_spec (hm : m.keys.Nodup) (name : Str) (rounds : Nat) (related : List Str) (hn : related.Nodup) (h0 : 1 ≤ rounds)
    (hr : m.keys.length + 2 ≤ rounds + related.length)
    (hfrom : ∀ x ∈ related, Relation.TransGen (Edge m) name x) (hdir : ∀ x, Edge m name x → x ∈ related) :
    (∃ b, circularLoop order m name rounds related = some (.ok b) ∧ (∀ r ∈ related, r ∈ m.keys) ∧
      (b = true ↔ Relation.TransGen (Edge m) name name)) ∨
    (circularLoop order m name rounds related = some (.error .key) ∧ ∃ x, Relation.TransGen (Edge m) name x ∧ x ∉ m.keys) := by
  induction rounds generalizing related with
  | zero => omega
  | succ n ih =>
    by_cases hall : ∀ r ∈ related, r ∈ m.keys
    · have hlen : related.length ≤ m.keys.length := (hn.subperm hall).length_le
      obtain ⟨new, e, p, q, nd⟩ := circularStep_ok ho m hall
      have hnew : ∀ x ∈ new, Relation.TransGen (Edge m) name x := by
        intro x hx
        rcases (q x).1 hx with hx | ⟨r, hr, hx⟩
        · exact hfrom x hx
        · exact (hfrom r hr).tail hx
      unfold circularLoop
      rw [e]
      dsimp only
      by_cases hc : name ∈ new
      · left
        refine ⟨true, ?_, hall, ?_⟩
        · simp [hc]
        · simpa using hnew _ hc
      · by_cases hl : new.length = related.length
        · left
          have : related = new := p.eq_of_length hl.symm
          subst this
          refine ⟨false, ?_, hall, ?_⟩
          · simp [hc]
          · simp only [Bool.false_eq_true, false_iff]
            intro ht
            have key : ∀ x, Relation.TransGen (Edge m) name x → x ∈ related := by
              intro x hx
              induction hx with
              | single h => exact hdir _ h
              | tail _ h ih' => exact (q _).2 (.inr ⟨_, ih', h⟩)
            exact hc (key _ ht)
        · have hle := p.length_le
          have h1 : 1 ≤ n := by omega
          rcases ih new (nd hn) h1 (by omega) hnew (fun x hx => p.subset (hdir x hx)) with ⟨b, hb, hk, hi⟩ | ⟨hb, hx⟩
          · left
            exact ⟨b, by simp [hc, hl, hb], hall, hi⟩
          · right
            exact ⟨by simp [hc, hl, hb], hx⟩
    · right
      push Not at hall
      unfold circularLoop
      rw [circularStep_error ho m hall]
      obtain ⟨x, hx, hk⟩ := hall
      exact ⟨rfl, x, hfrom x hx, hk⟩

/-- The loop over the tables. -/
theorem circularTables_spec (hm : m.keys.Nodup) (hnd : ∀ a l, m.get? a = some l → l.Nodup) (rounds : Nat) (hr : m.keys.length + 2 ≤ rounds)
    (todo : List (Str × List Str)) (ht : ∀ p ∈ todo, m.get? p.1 = some p.2) :
    (∃ names : List Str, circularTables order m rounds todo = some (.ok (names.map circularIssue)) ∧ names.Sublist (todo.map Prod.fst) ∧
      (∀ p ∈ todo, ∀ r ∈ p.2, r ∈ m.keys) ∧ ∀ n ∈ todo.map Prod.fst, n ∈ names ↔ Relation.TransGen (Edge m) n n) ∨
    (circularTables order m rounds todo = some (.error .key) ∧ ∃ a x, Relation.TransGen (Edge m) a x ∧ x ∉ m.keys) := by
  induction todo with
  | nil => left; exact ⟨[], rfl, List.Sublist.slnil, by simp, by simp⟩
  | cons p todo ih =>
    obtain ⟨n, related⟩ := p
    have hp := ht (n, related) (by simp)
    have hl := circularLoop_spec ho m hm n rounds related (hnd _ _ hp) (by omega) (by omega) (fun x hx => .single ⟨_, hp, hx⟩)
      (by rintro x ⟨l, hl, hx⟩; rw [hp] at hl; cases hl; exact hx)
    unfold circularTables
    rcases hl with ⟨b, hb, hall, hi⟩ | ⟨hb, hx⟩
    · rw [hb]
      dsimp only
      rcases ih (fun p hp => ht p (by simp [hp])) with ⟨names, e, s, k, c⟩ | ⟨e, h⟩
      · left
        rw [e]
        dsimp only
        cases b with
        | true =>
          refine ⟨n :: names, by simp, by simpa using s, ?_, ?_⟩
          · intro p hp
            rcases List.mem_cons.1 hp with rfl | hp
            · exact hall
            · exact k p hp
          · intro x hx
            simp only [List.mem_cons, List.map_cons] at hx ⊢
            rcases hx with rfl | hx
            · simpa using hi
            · rw [c x hx]
              constructor
              · rintro (rfl | h)
                · exact hi.1 rfl
                · exact h
              · exact .inr
        | false =>
          refine ⟨names, by simp, List.Sublist.cons _ s, ?_, ?_⟩
          · intro p hp
            rcases List.mem_cons.1 hp with rfl | hp
            · exact hall
            · exact k p hp
          · intro x hx
            simp only [List.mem_cons, List.map_cons] at hx
            by_cases hxm : x ∈ todo.map Prod.fst
            · exact c x hxm
            · rcases hx with rfl | hx
              · constructor
                · intro h; exact absurd (s.subset h) hxm
                · intro h; exact absurd (hi.2 h) (by simp)
              · exact absurd hx hxm
      · right
        rw [e]
        exact ⟨rfl, h⟩
    · right
      rw [hb]
      obtain ⟨x, hx⟩ := hx
      exact ⟨rfl, n, x, hx⟩

end

/-! ## Paths -/

section
variable (m : Dict (List Str))

/-- A path of pairwise distinct names along the map. -/
structure MapPath (p : List Str) : Prop where
  steps : p.IsChain (Edge m)
  distinct : p.Nodup

theorem MapPath.append_left {p q : List Str} (h : MapPath m (p ++ q)) : MapPath m p :=
  ⟨h.steps.left_of_append, (List.nodup_append.1 h.distinct).1⟩

theorem mapPath_snoc {p : List Str} (hp : MapPath m p) {last r : Str} (hlast : p.getLast? = some last) (he : Edge m last r) (hr : r ∉ p) :
    MapPath m (p ++ [r]) := by
  refine ⟨?_, ?_⟩
  · rw [List.isChain_append]
    refine ⟨hp.steps, by simp, ?_⟩
    intro x hx y hy
    simp only [List.head?_cons, Option.mem_def, Option.some.injEq] at hy
    subst hy
    rw [Option.mem_def, hlast] at hx
    cases hx
    exact he
  · rw [List.nodup_append]
    refine ⟨hp.distinct, by simp, ?_⟩
    intro a ha b hb
    simp only [List.mem_singleton] at hb
    rintro rfl
    exact hr (hb ▸ ha)

theorem collectPaths_spec (f : List Str → Except PyErr (List (List Str))) (d : Nat) (path : List Str)
    (hf : ∀ r, MapPath m (path ++ [r]) →
      ((∃ e, e.length = d ∧ MapPath m (path ++ [r] ++ e)) → f (path ++ [r]) = .error .recursion) ∧
      ((¬ ∃ e, e.length = d ∧ MapPath m (path ++ [r] ++ e)) → ∃ ps, f (path ++ [r]) = .ok ps ∧ ps.Nodup ∧
        ∀ q, q ∈ ps ↔ ∃ e, e ≠ [] ∧ q = path ++ [r] ++ e ∧ MapPath m q))
    (hp : MapPath m path) {last : Str} (hlast : path.getLast? = some last) (l : List Str) (hl : l.Nodup) (hle : ∀ r ∈ l, Edge m last r) :
    ((∃ r ∈ l, ∃ e, e.length = d ∧ MapPath m (path ++ [r] ++ e)) → collectPaths f path l = .error .recursion) ∧
    ((¬ ∃ r ∈ l, ∃ e, e.length = d ∧ MapPath m (path ++ [r] ++ e)) → ∃ ps, collectPaths f path l = .ok ps ∧ ps.Nodup ∧
      ∀ q, q ∈ ps ↔ ∃ r ∈ l, ∃ e, q = path ++ [r] ++ e ∧ MapPath m q) := by
  induction l with
  | nil => exact ⟨by simp, fun _ => ⟨[], rfl, by simp, by simp⟩⟩
  | cons r l ih =>
    have ih' := ih (List.nodup_cons.1 hl).2 (fun x hx => hle x (by simp [hx]))
    unfold collectPaths
    by_cases hr : r ∈ path
    · have hno : ∀ e, ¬ MapPath m (path ++ [r] ++ e) := by
        intro e h
        have h1 := (h.append_left m).distinct
        rw [List.nodup_append] at h1
        exact h1.2.2 r hr r (by simp) rfl
      simp only [List.contains_iff_mem, hr, if_true]
      refine ⟨?_, ?_⟩
      · rintro ⟨x, hx, e, he, h⟩
        rcases List.mem_cons.1 hx with rfl | hx
        · exact absurd h (hno e)
        · exact ih'.1 ⟨x, hx, e, he, h⟩
      · intro h
        obtain ⟨ps, h1, h2, h3⟩ := ih'.2 (by rintro ⟨x, hx, e, he⟩; exact h ⟨x, by simp [hx], e, he⟩)
        refine ⟨ps, h1, h2, ?_⟩
        intro q
        rw [h3]
        constructor
        · rintro ⟨x, hx, e⟩; exact ⟨x, by simp [hx], e⟩
        · rintro ⟨x, hx, e, he, hq⟩
          rcases List.mem_cons.1 hx with rfl | hx
          · exact absurd (he ▸ hq) (hno e)
          · exact ⟨x, hx, e, he, hq⟩
    · have hpr := mapPath_snoc m hp hlast (hle r (by simp)) hr
      simp only [List.contains_iff_mem, hr, if_false]
      by_cases hd : ∃ e, e.length = d ∧ MapPath m (path ++ [r] ++ e)
      · rw [(hf r hpr).1 hd]
        refine ⟨fun _ => rfl, fun h => ?_⟩
        obtain ⟨e, he⟩ := hd
        exact absurd ⟨r, by simp, e, he⟩ h
      · obtain ⟨added, ha, hn, hm⟩ := (hf r hpr).2 hd
        rw [ha]
        refine ⟨?_, ?_⟩
        · rintro ⟨x, hx, e, he⟩
          rcases List.mem_cons.1 hx with rfl | hx
          · exact absurd ⟨e, he⟩ hd
          · have := ih'.1 ⟨x, hx, e, he⟩
            rw [this]
            rfl
        · intro h
          obtain ⟨ps, h1, h2, h3⟩ := ih'.2 (by rintro ⟨x, hx, e, he⟩; exact h ⟨x, by simp [hx], e, he⟩)
          rw [h1]
          refine ⟨(path ++ [r]) :: added ++ ps, rfl, ?_, ?_⟩
          · rw [List.nodup_append]
            refine ⟨?_, h2, ?_⟩
            · rw [List.nodup_cons]
              refine ⟨?_, hn⟩
              intro hmem
              obtain ⟨e, he, heq, -⟩ := (hm _).1 hmem
              have := congrArg List.length heq
              simp only [List.length_append, List.length_cons, List.length_nil] at this
              exact he (List.length_eq_zero_iff.1 (by omega))
            · intro a ha b hb heq
              subst heq
              have hra : ∃ e, a = path ++ [r] ++ e := by
                rcases List.mem_cons.1 ha with rfl | ha
                · exact ⟨[], by simp⟩
                · obtain ⟨e, -, h, -⟩ := (hm _).1 ha
                  exact ⟨e, h⟩
              obtain ⟨e, he⟩ := hra
              obtain ⟨x, hx, e2, he2, -⟩ := (h3 _).1 hb
              rw [he] at he2
              simp only [List.append_assoc, List.append_cancel_left_eq, List.cons_append, List.nil_append, List.cons.injEq] at he2
              exact (List.nodup_cons.1 hl).1 (he2.1 ▸ hx)
          · intro q
            simp only [List.cons_append, List.mem_cons, List.mem_append, hm, h3]
            constructor
            · rintro (rfl | ⟨e, -, he, hq⟩ | ⟨x, hx, e⟩)
              · exact ⟨r, .inl rfl, [], by simp, hpr⟩
              · exact ⟨r, .inl rfl, e, he, hq⟩
              · exact ⟨x, .inr hx, e⟩
            · rintro ⟨x, rfl | hx, e, he, hq⟩
              · by_cases he0 : e = []
                · left; simp [he, he0]
                · exact .inr (.inl ⟨e, he0, he, hq⟩)
              · exact .inr (.inr ⟨x, hx, e, he, hq⟩)

/-- All continuations of a path: exact if the stack has room for the longest, otherwise the recursion error. -/
theorem relatedPaths_spec (hnd : ∀ a l, m.get? a = some l → l.Nodup) (hcl : ∀ a b, Edge m a b → b ∈ m.keys) (d : Nat) (path : List Str)
    (hp : MapPath m path) (hne : path ≠ []) (hin : ∀ n ∈ path, n ∈ m.keys) :
    ((∃ e, e.length = d ∧ MapPath m (path ++ e)) → relatedPaths m d path = .error .recursion) ∧
    ((¬ ∃ e, e.length = d ∧ MapPath m (path ++ e)) → ∃ ps, relatedPaths m d path = .ok ps ∧ ps.Nodup ∧
      ∀ q, q ∈ ps ↔ ∃ e, e ≠ [] ∧ q = path ++ e ∧ MapPath m q) := by
  induction d generalizing path with
  | zero =>
    refine ⟨fun _ => rfl, fun h => absurd ⟨[], rfl, by simpa using hp⟩ h⟩
  | succ d ih =>
    obtain ⟨last, hlast⟩ : ∃ last, path.getLast? = some last := ⟨_, List.getLast?_eq_some_getLast hne⟩
    have hlm : last ∈ m.keys := hin _ (List.mem_of_getLast? hlast)
    obtain ⟨l, hl⟩ := Option.isSome_iff_exists.1 ((Dict.get?_isSome_iff m last).2 hlm)
    have hle : ∀ r ∈ l, Edge m last r := fun r hr => ⟨l, hl, hr⟩
    have hstep : ∀ r e, MapPath m (path ++ r :: e) → r ∈ l := by
      intro r e h
      have := h.steps
      rw [List.isChain_append] at this
      obtain ⟨l', hl', hr⟩ := this.2.2 last hlast r (by simp)
      rw [hl] at hl'
      cases hl'
      exact hr
    have hf : ∀ r, MapPath m (path ++ [r]) →
      ((∃ e, e.length = d ∧ MapPath m (path ++ [r] ++ e)) → relatedPaths m d (path ++ [r]) = .error .recursion) ∧
      ((¬ ∃ e, e.length = d ∧ MapPath m (path ++ [r] ++ e)) → ∃ ps, relatedPaths m d (path ++ [r]) = .ok ps ∧ ps.Nodup ∧
        ∀ q, q ∈ ps ↔ ∃ e, e ≠ [] ∧ q = path ++ [r] ++ e ∧ MapPath m q) := by
      intro r hr
      refine ih (path ++ [r]) hr (by simp) ?_
      intro n hn
      rcases List.mem_append.1 hn with hn | hn
      · exact hin n hn
      · rw [List.mem_singleton.1 hn]
        exact hcl last r (hle r (hstep r [] hr))
    have hc := collectPaths_spec m (relatedPaths m d) d path hf hp hlast l (hnd _ _ hl) hle
    have e1 : relatedPaths m (d + 1) path = collectPaths (relatedPaths m d) path l := by
      unfold relatedPaths
      rw [hlast]
      simp only [hl]
    rw [e1]
    have conv : (∃ e, e.length = d + 1 ∧ MapPath m (path ++ e)) ↔ ∃ r ∈ l, ∃ e, e.length = d ∧ MapPath m (path ++ [r] ++ e) := by
      constructor
      · rintro ⟨e, he, h⟩
        match e, he, h with
        | r :: e, he, h => exact ⟨r, hstep r e h, e, by simpa using he, by simpa using h⟩
      · rintro ⟨r, -, e, he, h⟩
        exact ⟨r :: e, by simp [he], by simpa using h⟩
    rw [conv]
    refine ⟨hc.1, fun h => ?_⟩
    obtain ⟨ps, h1, h2, h3⟩ := hc.2 h
    refine ⟨ps, h1, h2, ?_⟩
    intro q
    rw [h3]
    constructor
    · rintro ⟨r, -, e, he, hq⟩
      exact ⟨r :: e, by simp, by simpa using he, hq⟩
    · rintro ⟨e, he, hq, hm⟩
      match e, he, hq with
      | r :: e, _, hq => exact ⟨r, hstep r e (hq ▸ hm), e, by simpa using hq, hm⟩

theorem allPaths_spec (hnd : ∀ a l, m.get? a = some l → l.Nodup) (hcl : ∀ a b, Edge m a b → b ∈ m.keys) (d : Nat) (names : List Str)
    (hn : names.Nodup) (hin : ∀ n ∈ names, n ∈ m.keys) :
    ((∃ n ∈ names, ∃ e, e.length = d ∧ MapPath m (n :: e)) → allPaths m d names = .error .recursion) ∧
    ((¬ ∃ n ∈ names, ∃ e, e.length = d ∧ MapPath m (n :: e)) → ∃ ps, allPaths m d names = .ok ps ∧ ps.Nodup ∧
      ∀ q, q ∈ ps ↔ ∃ n ∈ names, ∃ e, e ≠ [] ∧ q = n :: e ∧ MapPath m q) := by
  induction names with
  | nil => exact ⟨by simp, fun _ => ⟨[], rfl, by simp, by simp⟩⟩
  | cons n names ih =>
    obtain ⟨i1, i2⟩ := ih (List.nodup_cons.1 hn).2 (fun x hx => hin x (by simp [hx]))
    have h1 := relatedPaths_spec m hnd hcl d [n] ⟨by simp, by simp⟩ (by simp) (by simpa using hin n (by simp))
    unfold allPaths
    by_cases hd : ∃ e, e.length = d ∧ MapPath m ([n] ++ e)
    · rw [h1.1 hd]
      refine ⟨fun _ => rfl, fun h => ?_⟩
      obtain ⟨e, he⟩ := hd
      exact absurd ⟨n, by simp, e, he⟩ h
    · obtain ⟨added, ha, hna, hma⟩ := h1.2 hd
      rw [ha]
      refine ⟨?_, ?_⟩
      · rintro ⟨x, hx, e, he⟩
        rcases List.mem_cons.1 hx with rfl | hx
        · exact absurd ⟨e, he⟩ hd
        · rw [i1 ⟨x, hx, e, he⟩]
          rfl
      · intro h
        obtain ⟨ps, e1, e2, e3⟩ := i2 (by rintro ⟨x, hx, e, he⟩; exact h ⟨x, by simp [hx], e, he⟩)
        rw [e1]
        refine ⟨added ++ ps, rfl, ?_, ?_⟩
        · rw [List.nodup_append]
          refine ⟨hna, e2, ?_⟩
          intro a ha b hb heq
          subst heq
          obtain ⟨e, -, h1, -⟩ := (hma _).1 ha
          obtain ⟨x, hx, e', -, h2, -⟩ := (e3 _).1 hb
          rw [h1] at h2
          simp only [List.cons_append, List.nil_append, List.cons.injEq] at h2
          exact (List.nodup_cons.1 hn).1 (h2.1 ▸ hx)
        · intro q
          simp only [List.mem_append, hma, e3, List.mem_cons]
          constructor
          · rintro (⟨e, he⟩ | ⟨x, hx, e⟩)
            · exact ⟨n, .inl rfl, e, he⟩
            · exact ⟨x, .inr hx, e⟩
          · rintro ⟨x, rfl | hx, e⟩
            · exact .inl e
            · exact .inr ⟨x, hx, e⟩

end

/-! ## Reachability -/

theorem listed_iff {m : Dict (List Str)} (hm : m.keys.Nodup) (a b : Str) : Listed m a b ↔ Edge m a b := by
  unfold Listed Edge
  simp only [Dict.mem_iff_get? hm]

theorem closed_iff {m : Dict (List Str)} (hm : m.keys.Nodup) : ClosedMap m ↔ ∀ a b, Edge m a b → b ∈ m.keys := by
  unfold ClosedMap
  simp only [listed_iff hm]
  constructor
  · intro h a b hab
    obtain ⟨l, hl⟩ := h a b hab
    exact List.mem_map.2 ⟨_, hl, rfl⟩
  · intro h a b hab
    obtain ⟨⟨b', l⟩, hl, rfl⟩ := List.mem_map.1 (h a b hab)
    exact ⟨l, hl⟩

theorem anyFound_true {f : Str → Except PyErr Bool} {l : List Str} (h : anyFound f l = .ok true) : ∃ n ∈ l, f n = .ok true := by
  induction l with
  | nil => cases h
  | cons n l ih =>
    unfold anyFound at h
    cases hf : f n with
    | error e => rw [hf] at h; cases h
    | ok b =>
      cases b with
      | true => exact ⟨n, by simp, hf⟩
      | false =>
        rw [hf] at h
        obtain ⟨x, hx, h⟩ := ih h
        exact ⟨x, by simp [hx], h⟩

theorem anyFound_false {f : Str → Except PyErr Bool} {l : List Str} (h : anyFound f l = .ok false) : ∀ n ∈ l, f n = .ok false := by
  induction l with
  | nil => simp
  | cons n l ih =>
    unfold anyFound at h
    cases hf : f n with
    | error e => rw [hf] at h; cases h
    | ok b =>
      cases b with
      | true => rw [hf] at h; cases h
      | false =>
        rw [hf] at h
        intro x hx
        rcases List.mem_cons.1 hx with rfl | hx
        · exact hf
        · exact ih h x hx

theorem anyFound_ok {f : Str → Except PyErr Bool} {l : List Str} (h : ∀ n ∈ l, ∃ b, f n = .ok b) : ∃ b, anyFound f l = .ok b := by
  induction l with
  | nil => exact ⟨false, rfl⟩
  | cons n l ih =>
    obtain ⟨b, hb⟩ := h n (by simp)
    unfold anyFound
    rw [hb]
    cases b with
    | true => exact ⟨true, rfl⟩
    | false => exact ih (fun x hx => h x (by simp [hx]))

theorem anyFound_error {f : Str → Except PyErr Bool} {l : List Str} {e : PyErr}
    (h : ∀ n ∈ l, f n = .ok false ∨ f n = .error e) (hx : ∃ n ∈ l, f n = .error e) : anyFound f l = .error e := by
  induction l with
  | nil => obtain ⟨n, hn, -⟩ := hx; simp at hn
  | cons n l ih =>
    unfold anyFound
    rcases h n (by simp) with hf | hf
    · rw [hf]
      refine ih (fun x hx => h x (by simp [hx])) ?_
      obtain ⟨x, hx, h'⟩ := hx
      rcases List.mem_cons.1 hx with rfl | hx
      · rw [hf] at h'; cases h'
      · exact ⟨x, hx, h'⟩
    · rw [hf]
      rfl

theorem transGen_head {m : Dict (List Str)} {s t : Str} {l : List Str} (hl : m.get? s = some l) :
    Relation.TransGen (Edge m) s t ↔ t ∈ l ∨ ∃ n ∈ l, Relation.TransGen (Edge m) n t := by
  rw [Relation.TransGen.head'_iff]
  constructor
  · rintro ⟨b, ⟨l', hl', hb⟩, h⟩
    rw [hl] at hl'
    cases hl'
    rcases Relation.reflTransGen_iff_eq_or_transGen.1 h with rfl | h
    · exact .inl hb
    · exact .inr ⟨b, hb, h⟩
  · rintro (h | ⟨n, hn, h⟩)
    · exact ⟨t, ⟨l, hl, h⟩, .refl⟩
    · exact ⟨n, ⟨l, hl, hn⟩, h.to_reflTransGen⟩

theorem relatesToPrevious_sound (m : Dict (List Str)) (d : Nat) (s t : Str) (b : Bool) (h : relatesToPrevious m d s t = .ok b) :
    b = true ↔ Relation.TransGen (Edge m) s t := by
  induction d generalizing s b with
  | zero => cases h
  | succ d ih =>
    unfold relatesToPrevious at h
    cases hl : m.get? s with
    | none => rw [hl] at h; cases h
    | some l =>
      rw [hl] at h
      dsimp only at h
      rw [transGen_head hl]
      by_cases ht : t ∈ l
      · simp only [List.contains_iff_mem, ht, if_true, Except.ok.injEq] at h
        simp [← h, ht]
      · simp only [List.contains_iff_mem, ht, if_false] at h
        cases b with
        | true =>
          obtain ⟨n, hn, h⟩ := anyFound_true h
          simp only [true_iff]
          exact .inr ⟨n, hn, (ih n true h).1 rfl⟩
        | false =>
          simp only [Bool.false_eq_true, false_iff]
          rintro (h' | ⟨n, hn, h'⟩)
          · exact ht h'
          · have := (ih n false (anyFound_false h n hn)).2 h'
            cases this

theorem relatesToPrevious_ok (m : Dict (List Str)) (hcl : ∀ a b, Edge m a b → b ∈ m.keys) (d : Nat) (s t : Str) (hs : s ∈ m.keys)
    (hw : ∀ p : List Str, (s :: p).IsChain (Edge m) → (s :: p).length ≤ d) : ∃ b, relatesToPrevious m d s t = .ok b := by
  induction d generalizing s with
  | zero => have := hw [] (by simp); simp at this
  | succ d ih =>
    obtain ⟨l, hl⟩ := Option.isSome_iff_exists.1 ((Dict.get?_isSome_iff m s).2 hs)
    unfold relatesToPrevious
    rw [hl]
    dsimp only
    split
    · exact ⟨true, rfl⟩
    · apply anyFound_ok
      intro n hn
      have he : Edge m s n := ⟨l, hl, hn⟩
      apply ih n (hcl s n he)
      intro p hp
      have := hw (n :: p) (List.IsChain.cons_cons he hp)
      simp only [List.length_cons] at this ⊢
      omega

theorem relatesToPrevious_unreachable (m : Dict (List Str)) (hcl : ∀ a b, Edge m a b → b ∈ m.keys) (d : Nat) (s t : Str) (hs : s ∈ m.keys)
    (ht : ¬ Relation.TransGen (Edge m) s t) :
    relatesToPrevious m d s t = .ok false ∨ relatesToPrevious m d s t = .error .recursion := by
  induction d generalizing s with
  | zero => exact .inr rfl
  | succ d ih =>
    obtain ⟨l, hl⟩ := Option.isSome_iff_exists.1 ((Dict.get?_isSome_iff m s).2 hs)
    rw [transGen_head hl] at ht
    push Not at ht
    unfold relatesToPrevious
    rw [hl]
    simp only [List.contains_iff_mem, ht.1, if_false]
    have hall : ∀ n ∈ l, relatesToPrevious m d n t = .ok false ∨ relatesToPrevious m d n t = .error .recursion :=
      fun n hn => ih n (hcl s n ⟨l, hl, hn⟩) (ht.2 n hn)
    by_cases hx : ∃ n ∈ l, relatesToPrevious m d n t = .error .recursion
    · exact .inr (anyFound_error hall hx)
    · obtain ⟨b, hb⟩ := anyFound_ok (f := fun n => relatesToPrevious m d n t) (l := l) (by
        intro n hn
        rcases hall n hn with h | h
        · exact ⟨_, h⟩
        · exact absurd ⟨n, hn, h⟩ hx)
      rw [hb]
      cases b with
      | false => exact .inl rfl
      | true =>
        obtain ⟨n, hn, h⟩ := anyFound_true hb
        rcases hall n hn with h' | h' <;> rw [h'] at h <;> cases h

/-- Whoever answers "no" has seen every walk end. -/
theorem relatesToPrevious_false_walk (m : Dict (List Str)) (d : Nat) (s t : Str) (h : relatesToPrevious m d s t = .ok false)
    (p : List Str) (hp : (s :: p).IsChain (Edge m)) : (s :: p).length ≤ d := by
  induction d generalizing s p with
  | zero => cases h
  | succ d ih =>
    unfold relatesToPrevious at h
    cases hl : m.get? s with
    | none => rw [hl] at h; cases h
    | some l =>
      rw [hl] at h
      dsimp only at h
      split at h
      · cases h
      · cases p with
        | nil => simp
        | cons n p =>
          rw [List.isChain_cons_cons] at hp
          obtain ⟨⟨l', hl', hn⟩, hp⟩ := hp
          rw [hl] at hl'
          cases hl'
          have := ih n (anyFound_false h n hn) p hp
          simp only [List.length_cons] at this ⊢
          omega

theorem isChain_transGen {R : Str → Str → Prop} {a : Str} {p : List Str} (h : (a :: p).IsChain R) : ∀ b ∈ p, Relation.TransGen R a b := by
  induction p generalizing a with
  | nil => simp
  | cons x p ih =>
    rw [List.isChain_cons_cons] at h
    intro b hb
    rcases List.mem_cons.1 hb with rfl | hb
    · exact .single h.1
    · exact .head h.1 (ih h.2 b hb)

theorem isChain_nodup {R : Str → Str → Prop} (hirr : ∀ a, ¬ Relation.TransGen R a a) {p : List Str} (h : p.IsChain R) : p.Nodup := by
  induction p with
  | nil => exact List.nodup_nil
  | cons a p ih =>
    rw [List.nodup_cons]
    exact ⟨fun ha => hirr a (isChain_transGen h a ha), ih h.tail⟩

theorem isChain_mem {m : Dict (List Str)} (hcl : ∀ a b, Edge m a b → b ∈ m.keys) {a : Str} {p : List Str} (ha : a ∈ m.keys)
    (h : (a :: p).IsChain (Edge m)) : ∀ x ∈ a :: p, x ∈ m.keys := by
  induction p generalizing a with
  | nil => simpa using ha
  | cons y p ih =>
    rw [List.isChain_cons_cons] at h
    intro x hx
    rcases List.mem_cons.1 hx with rfl | hx
    · exact ha
    · exact ih (hcl _ _ h.1) h.2 x hx

/-- From a name on a cycle walks of every length start. -/
theorem walk_of_cycle {m : Dict (List Str)} {a : Str} (h : Relation.TransGen (Edge m) a a) (d : Nat) :
    ∃ p : List Str, (a :: p).IsChain (Edge m) ∧ d < (a :: p).length := by
  have key : ∀ b, Relation.TransGen (Edge m) b a → ∃ p : List Str, (b :: p).IsChain (Edge m) ∧ d < (b :: p).length := by
    induction d with
    | zero => intro b _; exact ⟨[], by simp, by simp⟩
    | succ d ih =>
      intro b hb
      obtain ⟨c, hbc, hca⟩ := Relation.TransGen.head'_iff.1 hb
      have hc : Relation.TransGen (Edge m) c a := by
        rcases Relation.reflTransGen_iff_eq_or_transGen.1 hca with rfl | h'
        · exact h
        · exact h'
      obtain ⟨p, hp, hd⟩ := ih c hc
      exact ⟨c :: p, List.IsChain.cons_cons hbc hp, by simpa using hd⟩
  exact key a h

end Verif
