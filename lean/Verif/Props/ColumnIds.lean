import Verif.Props.Worksheet
/-
C57 for column ids of every form.
-/

namespace Verif.Props
open Verif Verif.Spec

/-- What a column id says: the path is what stands before the first `::`, or all of it; the source is what stands between the first `::` and the next one, or the end. -/
inductive ColumnId : Str → Str → Option Str → Prop where
  | whole {s} : Without c!"::" s → ColumnId s s none
  | last {p s} : Without c!"::" (p ++ c!":") → Without c!"::" s → ColumnId (p ++ c!"::" ++ s) p (some s)
  | more {p s r} : Without c!"::" (p ++ c!":") → Without c!"::" (s ++ c!":") → ColumnId (p ++ c!"::" ++ (s ++ c!"::" ++ r)) p (some s)

/-- A text has no `::`, or it has a first one. -/
theorem first_colons (s : Str) : Without c!"::" s ∨ ∃ p r, Without c!"::" (p ++ c!":") ∧ s = p ++ c!"::" ++ r := by
  induction s with
  | nil => exact .inl (by rintro ⟨a, b, e⟩; cases a <;> cases e)
  | cons c s ih =>
    by_cases h : ∃ r, c :: s = c!"::" ++ r
    · obtain ⟨r, e⟩ := h
      exact .inr ⟨[], r, without_of_hasSub (by decide), e⟩
    · rcases ih with ih | ⟨p, r, hp, rfl⟩
      · left
        rintro ⟨a, b, e⟩
        cases a with
        | nil => exact h ⟨b, e⟩
        | cons d a => cases e; exact ih ⟨a, b, rfl⟩
      · right
        refine ⟨c :: p, r, ?_, rfl⟩
        rintro ⟨a, b, e⟩
        cases a with
        | nil =>
          refine h ?_
          cases p with
          | nil => cases e; exact ⟨':' :: r, rfl⟩
          | cons d p => cases e; exact ⟨p ++ c!"::" ++ r, rfl⟩
        | cons d a => exact hp ⟨a, b, (List.cons.inj e).2⟩

/-- C57: every text as column id has one path and at most one source. -/
theorem C57_every_id (s : Str) : ∃ p src, ColumnId s p src := by
  rcases first_colons s with h | ⟨p, r, hp, rfl⟩
  · exact ⟨_, _, .whole h⟩
  · rcases first_colons r with h | ⟨q, r, hq, rfl⟩
    · exact ⟨_, _, .last hp h⟩
    · exact ⟨_, _, .more hp hq⟩

/-- C57: `get_path` and `get_source` of a column that is no formula: those of its id, `IndexError` if there is no source, and `AttributeError` if the id is no text. -/
theorem C57_id_exact (c : WsColumn) (hf : c.isFormula = false) :
    (∀ s p src, c.columnId = .str s → (ColumnId s p src ↔ c.getPath = .ok (some p) ∧ c.getSource = match src with | some q => .ok (some q) | none => .error .index)) ∧
    ((∀ s, c.columnId ≠ .str s) → c.getPath = .error .attribute ∧ c.getSource = .error .attribute) := by
  have fwd : ∀ s p src, c.columnId = .str s → ColumnId s p src →
      c.getPath = .ok (some p) ∧ c.getSource = match src with | some q => .ok (some q) | none => .error .index := by
    intro s p src e h
    unfold WsColumn.getPath WsColumn.getSource WsColumn.idParts
    rw [e, hf]
    dsimp only
    cases h with
    | whole h => rw [splitS_none _ h]; exact ⟨rfl, rfl⟩
    | last hp hs => rw [splitS_here _ _ hp, splitS_none _ hs]; exact ⟨rfl, rfl⟩
    | more hp hs => rw [splitS_here _ _ hp, splitS_here _ _ hs]; exact ⟨rfl, rfl⟩
  refine ⟨fun s p src e => ⟨fwd s p src e, fun ⟨h1, h2⟩ => ?_⟩, fun h => ?_⟩
  · obtain ⟨p', src', h'⟩ := C57_every_id s
    obtain ⟨h3, h4⟩ := fwd s p' src' e h'
    rw [h1] at h3
    cases h3
    have : src = src' := by
      rw [h2] at h4
      cases src <;> cases src' <;> cases h4 <;> rfl
    exact this ▸ h'
  · unfold WsColumn.getPath WsColumn.getSource WsColumn.idParts
    rw [hf]
    cases e : c.columnId with
    | str s => exact absurd e (h s)
    | _ => exact ⟨rfl, rfl⟩

example : ColumnId c!"a:::b::c::d" c!"a" (some c!":b") :=
  .more (p := c!"a") (s := c!":b") (r := c!"c::d") (without_of_hasSub (by decide)) (without_of_hasSub (by decide))

end Verif.Props
