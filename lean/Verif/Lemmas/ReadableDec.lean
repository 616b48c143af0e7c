import Verif.Spec.RoundTrip
import Verif.Lemmas.WellKeyed
/-
The conditions of the round trip can be decided.
-/

namespace Verif
open Spec

instance (w s : Str) : Decidable (Lacks w s) := inferInstanceAs (Decidable (¬ w <:+: s.map small))

instance (n : Str) : Decidable (ReadableName n) :=
  decidable_of_iff ((∀ c ∈ n, (isSpace c = true → c = ' ') ∧ c ∉ c!"\"'`[]().,;") ∧ n.head? ≠ some ' ' ∧ n.getLast? ≠ some ' ' ∧ ¬ c!"  " <:+: n ∧
      ¬ c!"--" <:+: n ∧ ¬ c!"/*" <:+: n ∧ ∀ w ∈ statementPhrases, Lacks w n)
    ⟨fun ⟨a, b, c, d, e, f, g⟩ => ⟨a, b, c, d, e, f, g⟩, fun ⟨a, b, c, d, e, f, g⟩ => ⟨a, b, c, d, e, f, g⟩⟩

/-- Commas in closed parentheses, by the state of the parentheses. -/
def enclosed : Bool → Str → Bool
  | b, [] => !b
  | true, c :: s => enclosed (c != ')') s
  | false, c :: s => c != ',' && enclosed (c == '(') s

theorem enclosed_plain {s t : Str} (h1 : '(' ∉ s) (h2 : ',' ∉ s) : enclosed false (s ++ t) = enclosed false t := by
  induction s with
  | nil => rfl
  | cons c s ih =>
    simp only [List.mem_cons, not_or] at h1 h2
    rw [List.cons_append, enclosed, show (c == '(') = false from by simpa using Ne.symm h1.1, ih h1.2 h2.2]
    simp [Ne.symm h2.1]

theorem enclosed_open {a t : Str} (h : ')' ∉ a) : enclosed true (a ++ ')' :: t) = enclosed false t := by
  induction a with
  | nil => rfl
  | cons c a ih =>
    simp only [List.mem_cons, not_or] at h
    rw [List.cons_append, enclosed, show (c != ')') = true from by simpa using Ne.symm h.1, ih h.2]

theorem enclosed_split {s : Str} (h : enclosed true s = true) : ∃ a t, s = a ++ ')' :: t ∧ ')' ∉ a ∧ enclosed false t = true := by
  induction s with
  | nil => simp [enclosed] at h
  | cons c s ih =>
    rw [enclosed] at h
    by_cases hc : c = ')'
    · subst hc
      exact ⟨[], s, rfl, by simp, h⟩
    · rw [show (c != ')') = true from by simpa using hc] at h
      obtain ⟨a, t, rfl, h1, h2⟩ := ih h
      exact ⟨c :: a, t, rfl, by simp [Ne.symm hc, h1], h2⟩

theorem enclosed_iff {s : Str} : Enclosed s ↔ enclosed false s = true := by
  constructor
  · intro h
    induction h with
    | @plain s h1 h2 =>
      have := enclosed_plain (t := []) h1 h2
      rw [List.append_nil] at this
      rw [this]; rfl
    | paren h1 h2 h3 _ ih =>
      rw [enclosed_plain h1 h2, enclosed]
      simp only [bne_iff_ne, ne_eq, Char.reduceEq, not_false_eq_true, beq_self_eq_true, Bool.and_eq_true]
      exact ⟨by decide, by rw [enclosed_open h3]; exact ih⟩
  · suffices H : ∀ (n : Nat) (s p : Str), s.length ≤ n → '(' ∉ p → ',' ∉ p → enclosed false s = true → Enclosed (p ++ s) from
      fun h => H s.length s [] (Nat.le_refl _) (by simp) (by simp) h
    intro n
    induction n with
    | zero =>
      intro s p hs h1 h2 _
      have : s = [] := List.length_eq_zero_iff.1 (by omega)
      subst this
      rw [List.append_nil]
      exact .plain h1 h2
    | succ n ih =>
      intro s p hs h1 h2 h
      cases s with
      | nil => rw [List.append_nil]; exact .plain h1 h2
      | cons c s =>
        rw [enclosed, Bool.and_eq_true, bne_iff_ne] at h
        rw [List.length_cons] at hs
        by_cases hc : c = '('
        · subst hc
          obtain ⟨a, t, rfl, h3, h4⟩ := enclosed_split (by simpa using h.2)
          refine .paren h1 h2 h3 (ih t [] ?_ (by simp) (by simp) h4)
          simp only [List.length_append, List.length_cons] at hs
          omega
        · have := ih s (p ++ [c]) (by omega) (by simp [h1, Ne.symm hc]) (by simp [h2, Ne.symm h.1]) (by
            have := h.2
            rwa [show (c == '(') = false from by simpa using hc] at this)
          rwa [List.append_assoc] at this

instance (s : Str) : Decidable (Enclosed s) := decidable_of_iff _ enclosed_iff.symm

instance (n : Str) : Decidable (InlineName n) :=
  decidable_of_iff ((∀ c ∈ n, (isSpace c = true → c = ' ') ∧ c ∉ c!"\"[];") ∧ ¬ c!"  " <:+: n ∧ ¬ c!"--" <:+: n ∧ ¬ c!"/*" <:+: n)
    ⟨fun ⟨a, b, c, d⟩ => ⟨a, b, c, d⟩, fun ⟨a, b, c, d⟩ => ⟨a, b, c, d⟩⟩

instance (n : Str) : Decidable (ReadableColumn n) :=
  decidable_of_iff (InlineName n ∧ Enclosed n ∧ ∀ w ∈ [c!"key ", c!"create database", c!"partition by hash"], Lacks w n)
    ⟨fun ⟨a, b, c⟩ => ⟨a, b, c⟩, fun ⟨a, b, c⟩ => ⟨a, b, c⟩⟩

instance (n : Str) : Decidable (ReadablePrimary n) :=
  decidable_of_iff (InlineName n ∧ ∀ c ∈ c!" ),", c ∉ n) ⟨fun ⟨a, b⟩ => ⟨a, b⟩, fun ⟨a, b⟩ => ⟨a, b⟩⟩

/-- The types of the list. -/
def listedTypes : List Str := [c!"VARCHAR", c!"DOUBLE", c!"FLOAT", c!"BOOL", c!"INT", c!"BIGINT", c!"DATE", c!"DATETIME", c!"TIMESTAMP", c!"TIME", c!"UNKNOWN"]

instance (ty : Str) : Decidable (ReadableType ty) :=
  decidable_of_iff (ty ∈ listedTypes ∨ ((∀ c ∈ (ty.drop 8).dropLast, c ∈ c!"0123456789") ∧ ty = c!"VARCHAR(" ++ (ty.drop 8).dropLast ++ c!")"))
    ⟨fun h => h.imp id (fun h => ⟨_, h.1, h.2⟩), fun h => h.imp id (fun ⟨ds, h1, h2⟩ => by
      have : (ty.drop 8).dropLast = ds := by rw [h2]; simp
      rw [this]
      exact ⟨h1, h2⟩)⟩

/-- The count is a text. -/
def textual : ShardCount → Bool
  | .text _ => true
  | _ => false

instance (k : ShardKey) : Decidable (ReadableShard k) :=
  decidable_of_iff (k.keys ≠ [] ∧ (∀ n ∈ k.keys, ReadableName n) ∧ (∀ n ∈ k.keys, Lacks c!"key " n) ∧ textual k.number = false)
    ⟨fun ⟨a, b, c, d⟩ => ⟨a, b, c, fun s e => by rw [e] at d; simp [textual] at d⟩, fun ⟨a, b, c, d⟩ => ⟨a, b, c, by
      cases e : k.number with
      | text s => exact absurd e (d s)
      | int n => rfl
      | flt q => rfl⟩⟩

instance (t : Table) (k : FK) : Decidable (ReadableFK t k) :=
  decidable_of_iff (k.fromTable = t.name ∧ k.fromKeys ≠ [] ∧ k.fromKeys.length = k.toKeys.length ∧ (∀ n ∈ k.name :: k.toTable :: (k.fromKeys ++ k.toKeys), ReadableName n) ∧
      (∀ n ∈ t.schema :: t.name :: k.name :: k.toTable :: (k.fromKeys ++ k.toKeys), Lacks c!"constraint" n) ∧
      (∀ n ∈ t.schema :: k.name :: k.toTable :: (k.fromKeys ++ k.toKeys), Lacks c!" add" n) ∧
      (∀ n ∈ t.schema :: k.toTable :: (k.fromKeys ++ k.toKeys), Lacks c!" foreign key" n))
    ⟨fun ⟨a, b, c, d, e, f, g⟩ => ⟨a, b, c, d, e, f, g⟩, fun ⟨a, b, c, d, e, f, g⟩ => ⟨a, b, c, d, e, f, g⟩⟩

instance (s : Str) : Decidable (ReadableCondition s) :=
  decidable_of_iff (s ≠ [] ∧ (∀ c ∈ s, isSpace c = true → c = ' ') ∧ tidy s = s ∧ ';' ∉ s ∧ ¬ c!"--" <:+: s ∧ ¬ c!"/*" <:+: s ∧
      (∀ w ∈ [c!"create table", c!"create or replace table", c!"create database", c!"primary key", c!"foreign"], Lacks w s) ∧ Lacks c!" as " (' ' :: s))
    ⟨fun ⟨a, b, c, d, e, f, g, h⟩ => ⟨a, b, c, d, e, f, g, h⟩, fun ⟨a, b, c, d, e, f, g, h⟩ => ⟨a, b, c, d, e, f, g, h⟩⟩

instance (t : Table) (r : Rel) : Decidable (ReadableRel t r) :=
  decidable_of_iff (r.fromTable = t.name ∧ (∀ n ∈ [r.name, r.toTable], ReadableName n) ∧ (∀ n ∈ [t.schema, t.name, r.name, r.toTable], Lacks c!"foreign" n) ∧
      (∀ n ∈ [t.schema, r.toTable], Lacks c!" with " n) ∧ (∀ n ∈ [t.schema, r.name, r.toTable], Lacks c!" add relationship " n) ∧ ReadableCondition r.conditions)
    ⟨fun ⟨a, b, c, d, e, f⟩ => ⟨a, b, c, d, e, f⟩, fun ⟨a, b, c, d, e, f⟩ => ⟨a, b, c, d, e, f⟩⟩

instance (t : Table) : Decidable (ReadableTable t) :=
  decidable_of_iff (ReadableName t.name ∧ (∀ p ∈ t.cols, ReadableColumn p.2.name ∧ ReadableType p.2.type) ∧ (∀ n ∈ t.pk, ReadablePrimary n) ∧ (∀ k ∈ t.shard, ReadableShard k) ∧ (t.pk ≠ [] ∨ t.shard ≠ none → t.cols ≠ []) ∧
      (∀ p ∈ t.fks, ReadableFK t p.2) ∧ (∀ p ∈ t.rels, ReadableRel t p.2))
    ⟨fun ⟨a, b, c, d, e, f, g⟩ => ⟨a, b, c, d, e, f, g⟩, fun ⟨a, b, c, d, e, f, g⟩ => ⟨a, b, c, d, e, f, g⟩⟩

instance (db : Database) : Decidable (ReadableDb db) :=
  decidable_of_iff (WellKeyed db ∧ ReadableName db.name ∧ (∀ p ∈ db.schemas, ReadableName p.1) ∧ (∀ p ∈ db.tables, ReadableName p.2.schema) ∧
      ∀ p ∈ db.tables, ReadableTable p.2)
    ⟨fun ⟨a, b, c, d, e⟩ => ⟨a, b, c, d, e⟩, fun ⟨a, b, c, d, e⟩ => ⟨a, b, c, d, e⟩⟩

instance (s : Str) : Decidable (ReadableSchema s) :=
  decidable_of_iff (ReadableName s ∧ Lacks c!"constraint" s ∧ Lacks c!"foreign" s ∧ Lacks c!" add" s ∧ Lacks c!" with " s)
    ⟨fun ⟨a, b, c, d, e⟩ => ⟨a, b, c, d, e⟩, fun ⟨a, b, c, d, e⟩ => ⟨a, b, c, d, e⟩⟩

end Verif
