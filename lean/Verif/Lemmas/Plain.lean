import Verif.Spec.TQL
/-
Executable sufficient tests for the predicates at the end of Spec/TQL.lean, used for the examples.
-/

namespace Verif
open Verif.Spec

theorem mem_takeWhile {α : Type} {p : α → Bool} {c : α} : ∀ {l : List α}, c ∈ l.takeWhile p → p c = true
  | [], h => by simp at h
  | a :: l, h => by
    rw [List.takeWhile_cons] at h
    split at h
    · rename_i ha
      rcases List.mem_cons.1 h with rfl | h
      · exact ha
      · exact mem_takeWhile h
    · simp at h

theorem dropLast_last {α : Type} {a : α} {l : List α} (h : l.getLast? = some a) : l.dropLast ++ [a] = l := by
  induction l with
  | nil => simp at h
  | cons b l ih =>
    cases l with
    | nil => simpa using h.symm
    | cons c l => simpa using ih (by simpa [List.getLast?_cons_cons] using h)

/-- Test for `PlainType`. -/
def plainTypeB (ty : Str) : Bool :=
  match ty.takeWhile wordC, ty.dropWhile wordC with
  | [], _ => false
  | _ :: _, [] => true
  | _ :: _, c :: r => c == '(' && r.getLast? == some ')' && r.dropLast.all (fun c => c ≠ ')' ∧ c ≠ ';' ∧ c ≠ '"' ∧ c ≠ '\'')

theorem plainTypeB_sound {ty : Str} (h : plainTypeB ty = true) : PlainType ty := by
  have e := List.takeWhile_append_dropWhile (p := wordC) (l := ty)
  have hw : ∀ c ∈ ty.takeWhile wordC, wordC c = true := fun c hc => mem_takeWhile hc
  unfold plainTypeB at h
  cases h1 : ty.takeWhile wordC with
  | nil => simp [h1] at h
  | cons a w =>
    cases h2 : ty.dropWhile wordC with
    | nil =>
      refine ⟨ty.takeWhile wordC, by simp [h1], hw, .inl ?_⟩
      rw [h2, List.append_nil] at e; exact e.symm
    | cons c r =>
      simp only [h1, h2, Bool.and_eq_true, beq_iff_eq, List.all_eq_true, decide_eq_true_eq] at h
      obtain ⟨⟨rfl, hl⟩, ha⟩ := h
      refine ⟨ty.takeWhile wordC, by simp [h1], hw, .inr ⟨r.dropLast, ha, ?_⟩⟩
      have hr : r.dropLast ++ [')'] = r := dropLast_last hl
      rw [List.append_assoc, hr, List.append_assoc]
      rw [h2] at e
      exact e.symm

/-- Test for `PlainCondition`. -/
def plainConditionB (s : Str) : Bool := decide (Closed s) && skip s == s && skip s.reverse == s.reverse

theorem plainConditionB_sound {s : Str} (h : plainConditionB s = true) : PlainCondition s := by
  simp only [plainConditionB, Bool.and_eq_true, decide_eq_true_eq, beq_iff_eq] at h
  exact ⟨h.1.1, h.1.2, h.2⟩

/-- Test for `PlainTable`. -/
def plainTableB (t : Table) : Bool :=
  decide ('"' ∉ t.name) && decide ('"' ∉ t.schema) && t.cols.all (fun p => decide ('"' ∉ p.2.name) && plainTypeB p.2.type) &&
  t.pk.all (fun k => decide ('"' ∉ k)) && (!t.cols.isEmpty || t.pk.isEmpty) &&
  (match t.shard with
   | none => true
   | some k => (match k.number with | .text _ => false | _ => true) && k.keys.all (fun k => decide ('"' ∉ k)))

theorem plainTableB_sound {t : Table} (h : plainTableB t = true) : PlainTable t := by
  simp only [plainTableB, Bool.and_eq_true, decide_eq_true_eq, List.all_eq_true, Bool.or_eq_true] at h
  obtain ⟨⟨⟨⟨⟨h1, h2⟩, h3⟩, h4⟩, h5⟩, h6⟩ := h
  refine ⟨h1, h2, fun p hp => ⟨(h3 p hp).1, plainTypeB_sound (h3 p hp).2⟩, h4, ?_, ?_⟩
  · intro e
    simpa [e] using h5
  · intro sk e
    rw [e] at h6
    simp only [Bool.and_eq_true, List.all_eq_true, decide_eq_true_eq] at h6
    refine ⟨?_, h6.2⟩
    intro s hs
    rw [hs] at h6
    simp at h6

/-- Test for `PlainFK`. -/
def plainFKB (k : FK) : Bool :=
  decide ('"' ∉ k.name) && decide ('"' ∉ k.fromTable) && k.fromKeys.all (fun x => decide ('"' ∉ x)) &&
  decide ('"' ∉ k.toTable) && k.toKeys.all (fun x => decide ('"' ∉ x))

/-- Test for `PlainRel`. -/
def plainRelB (r : Rel) : Bool :=
  decide ('"' ∉ r.name) && decide ('"' ∉ r.fromTable) && decide ('"' ∉ r.toTable) && plainConditionB r.conditions

/-- Test for `PlainDb`. -/
def plainDbB (db : Database) : Bool :=
  decide ('"' ∉ db.name) && db.schemas.all (fun p => decide ('"' ∉ p.1)) && db.tables.all (fun p => plainTableB p.2 &&
    p.2.fks.all (fun q => plainFKB q.2) && p.2.rels.all (fun q => plainRelB q.2))

theorem plainDbB_sound {db : Database} (h : plainDbB db = true) : PlainDb db := by
  simp only [plainDbB, Bool.and_eq_true, decide_eq_true_eq, List.all_eq_true] at h
  obtain ⟨⟨h1, h2⟩, h3⟩ := h
  refine ⟨h1, h2, fun p hp => plainTableB_sound (h3 p hp).1.1, ?_, ?_⟩
  · intro p hp q hq
    have := (h3 p hp).1.2 q hq
    simp only [plainFKB, Bool.and_eq_true, decide_eq_true_eq, List.all_eq_true] at this
    exact ⟨this.1.1.1.1, this.1.1.1.2, this.1.1.2, this.1.2, this.2⟩
  · intro p hp q hq
    have := (h3 p hp).2 q hq
    simp only [plainRelB, Bool.and_eq_true, decide_eq_true_eq] at this
    exact ⟨this.1.1.1, this.1.1.2, this.1.2, plainConditionB_sound this.2⟩

end Verif
