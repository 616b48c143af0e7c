import Verif.Lemmas.WorkbookSays
import Verif.Props.Workbook
/-
C104: what the workbook reader says about every workbook.
-/

namespace Verif.Props
open Spec

/-- C104: which messages a workbook causes, whatever its sheets say and also if its reading ends in an exception (unless that is due to a number
used as a name, which is outside the model). -/
theorem C104_exactly {wb : Workbook} (hm : readXls wb ≠ .error .unmodelled) (ms : List XReport) : (readXlsTold wb).1 = ms ↔ BookSays wb ms := by
  constructor
  · rintro rfl
    by_cases hh : Headed wb
    · by_cases hs : Shaped wb
      · obtain ⟨_, _, _, _, _, _, _, _, S⟩ := shaped_sheets hs
        rcases S.outcome hs with ⟨e, hr, hf⟩ | ⟨dbs, hr, hp⟩
        · obtain ⟨before, sheet, after, ho, hb, h, pre, row, post, hsh, hp, hrow⟩ := hf
          have hne : e ≠ .unmodelled := fun h => hm (h ▸ hr)
          obtain ⟨f, ms, h1, h2, h3⟩ := S.saysFails hs ho hb hsh hp hrow hne
          rw [h3]
          exact .fails hs ho (fun s hs h rows hsh => ⟨hb s hs h rows hsh, h1 s hs h rows hsh⟩) hsh hp hrow hne h2
        · obtain ⟨f, h1, h2⟩ := S.saysRead hs hr
          rw [h2]
          exact .read hs hp h1
      · rw [(C81_missing hh hs).1]
        exact .misshaped hh hs
    · have hex : ∃ pre p post, needed = pre ++ p :: post ∧ wb.get? p.1 = some [] ∧ ∀ q ∈ pre, wb.get? q.1 ≠ some [] := by
        have key : ∀ l : List (Str × List Str), (¬ ∀ p ∈ l, wb.get? p.1 ≠ some []) →
            ∃ pre p post, l = pre ++ p :: post ∧ wb.get? p.1 = some [] ∧ ∀ q ∈ pre, wb.get? q.1 ≠ some [] := by
          intro l
          induction l with
          | nil => intro h; exact absurd (by simp) h
          | cons a l ih =>
            intro h
            by_cases ha : wb.get? a.1 = some []
            · exact ⟨[], a, l, rfl, ha, by simp⟩
            · obtain ⟨pre, p, post, rfl, h1, h2⟩ := ih (fun hl => h (fun p hp => (List.mem_cons.1 hp).elim (fun e => e ▸ ha) (hl p)))
              exact ⟨a :: pre, p, post, rfl, h1, fun q hq => (List.mem_cons.1 hq).elim (fun e => e ▸ ha) (h2 q)⟩
        exact key needed hh
      obtain ⟨pre, p, post, h1, h2, h3⟩ := hex
      rw [says_headless h1 h2 h3]
      exact .headless h1 h2 h3
  · intro h
    cases h with
    | headless h1 h2 h3 => exact says_headless h1 h2 h3
    | misshaped hh hs => rw [(C81_missing hh hs).1]; rfl
    | read hs hp h1 =>
      obtain ⟨_, _, _, _, _, _, _, _, S⟩ := shaped_sheets hs
      obtain ⟨dbs, hr⟩ := (C103_reads hs).2 hp
      obtain ⟨f, g1, g2⟩ := S.saysRead hs hr
      rw [g2]
      exact S.says_congr (fun _ h => h) g1 h1
    | fails hs ho hb hsh hp hrow hne h2 =>
      obtain ⟨_, _, _, _, _, _, _, _, S⟩ := shaped_sheets hs
      obtain ⟨f, ms, g1, g2, g3⟩ := S.saysFails hs ho (fun s hs h rows hsh => (hb s hs h rows hsh).1) hsh hp hrow hne
      rw [g3, sheetSays_unique g2 h2, S.says_congr (fun s h => by rw [ho]; simp [h]) g1 (fun s hs h rows hsh => (hb s hs h rows hsh).2)]

/-- C104: what is said and what is read go together. -/
theorem C104_outcome (wb : Workbook) (r : Except PyErr (Dict Database)) : (readXlsTold wb).2 = r ↔ Makes wb r := by
  rw [readXlsTold_snd]
  exact C103_exactly wb r

/-! ### Cases -/

-- a relationship of an unknown table is reported before it ends the reading; the relationship after it is not looked at
example : (readXlsTold (failingBook (.text c!"INT") c!"zz")).1.map (XReport.line (fun _ => [])) = [
    c!"ERROR:  b need to provide both a shard key name and number of shards.",
    c!"ERROR:  Table zz from the Columns tab is not known.",
    c!"ERROR:  Database zz from the Foreign Keys tab is not known.",
    c!"ERROR:  Database zz from the Relationships tab is not known.",
    c!"ERROR:  Table zz from the Relationships tab is not known."] := by decide +kernel
example : BookSays (failingBook (.text c!"INT") c!"zz") (readXlsTold (failingBook (.text c!"INT") c!"zz")).1 :=
  (C104_exactly (by decide +kernel) _).1 rfl
-- a type that is none ends it without a message of its own
example : (readXlsTold (failingBook (.text c!"TEXT") c!"zz")).1.map (XReport.line (fun _ => [])) = [
    c!"ERROR:  b need to provide both a shard key name and number of shards.",
    c!"ERROR:  Table zz from the Columns tab is not known."] := by decide +kernel
-- a sheet without a header row after a sheet that is missing
example : BookSays ((c!"Foreign Keys", []) :: sampleBook.tail) [.noSheet c!"Columns"] := (C104_exactly (by decide +kernel) _).1 (by decide +kernel)

end Verif.Props
