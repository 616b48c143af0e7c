import Verif.Lemmas.Argparse
import Verif.Lemmas.Dict
import Mathlib.Data.List.Perm.Basic
/-
Lemmas about settings, the tables of options, and command lines that give all arguments.
-/

namespace Verif
open Spec

/-! ## The last setting -/

/-- The last value set for a name. -/
def lastOf (k : Str) : List (Str × ArgVal) → Option ArgVal
  | [] => none
  | p :: l => (lastOf k l).or (if p.1 = k then some p.2 else none)

theorem lastOf_append (k : Str) (l m : List (Str × ArgVal)) : lastOf k (l ++ m) = (lastOf k m).or (lastOf k l) := by
  induction l with
  | nil => simp [lastOf]
  | cons p l ih => simp only [List.cons_append, lastOf, ih, Option.or_assoc]

theorem lastOf_none {k : Str} {l : List (Str × ArgVal)} : lastOf k l = none ↔ Silent l k := by
  unfold Silent
  induction l with
  | nil => simp [lastOf]
  | cons p l ih =>
    simp only [lastOf, Option.or_eq_none_iff, ih, List.forall_mem_cons]
    constructor
    · rintro ⟨h1, h2⟩
      refine ⟨fun e => ?_, h1⟩
      simp [e] at h2
    · rintro ⟨h1, h2⟩
      exact ⟨h2, by simp [h1]⟩

theorem lastOf_some {k : Str} {v : ArgVal} {l : List (Str × ArgVal)} : lastOf k l = some v ↔ Gives l k v := by
  unfold Gives
  induction l with
  | nil => simp [lastOf]
  | cons p l ih =>
    obtain ⟨q, x⟩ := p
    simp only [lastOf]
    cases hl : lastOf k l with
    | some y =>
      rw [hl] at ih
      simp only [Option.some_or]
      rw [ih]
      constructor
      · rintro ⟨a, b, rfl, h⟩
        exact ⟨(q, x) :: a, b, rfl, h⟩
      · rintro ⟨a, b, e, h⟩
        cases a with
        | nil =>
          simp only [List.nil_append, List.cons.injEq] at e
          obtain ⟨-, rfl⟩ := e
          rw [lastOf_none.2 h] at hl
          cases hl
        | cons c a =>
          simp only [List.cons_append, List.cons.injEq] at e
          exact ⟨a, b, e.2, h⟩
    | none =>
      have hs := lastOf_none.1 hl
      simp only [Option.none_or]
      constructor
      · intro h
        split at h
        · next e => cases h; exact ⟨[], l, by rw [← e]; rfl, hs⟩
        · cases h
      · rintro ⟨a, b, e, h⟩
        cases a with
        | nil =>
          simp only [List.nil_append, List.cons.injEq, Prod.mk.injEq] at e
          obtain ⟨⟨rfl, rfl⟩, rfl⟩ := e
          simp
        | cons c a =>
          simp only [List.cons_append, List.cons.injEq] at e
          exact absurd rfl (hs (k, v) (by rw [e.2]; simp))

theorem setAll_get (d : Dict ArgVal) (l : List (Str × ArgVal)) (k : Str) : (setAll d l).get? k = (lastOf k l).or (d.get? k) := by
  induction l generalizing d with
  | nil => simp [setAll, lastOf]
  | cons p l ih =>
    obtain ⟨q, x⟩ := p
    have : setAll d ((q, x) :: l) = setAll (d.set q x) l := rfl
    rw [this, ih, Dict.get?_set, lastOf, Option.or_assoc]
    congr 1
    by_cases h : k = q
    · simp [h]
    · simp [h, Ne.symm h]

theorem lastOf_perm {l m : List (Str × ArgVal)} (h : l.Perm m) (hn : (m.map (·.1)).Nodup) (k : Str) : lastOf k l = lastOf k m := by
  induction h with
  | nil => rfl
  | cons p _ ih =>
    simp only [List.map_cons, List.nodup_cons] at hn
    simp only [lastOf, ih hn.2]
  | swap p q l =>
    simp only [List.map_cons, List.nodup_cons, List.mem_cons, not_or] at hn
    simp only [lastOf, Option.or_assoc]
    congr 1
    by_cases h1 : p.1 = k <;> by_cases h2 : q.1 = k <;> simp [h1, h2]
    exact absurd (h1.trans h2.symm) hn.1.1
  | trans h1 h2 ih1 ih2 => exact (ih1 ((h2.map _).nodup_iff.2 hn)).trans (ih2 hn)

theorem perm_lift {α β : Type} {f : α → β} : ∀ {l : List β} {m : List α}, l.Perm (m.map f) → ∃ m' : List α, m'.Perm m ∧ m'.map f = l := by
  intro l
  induction l with
  | nil =>
    intro m h
    have := h.symm.eq_nil
    rw [List.map_eq_nil_iff] at this
    subst this
    exact ⟨[], List.Perm.refl _, rfl⟩
  | cons b l ih =>
    intro m h
    have hb : b ∈ m.map f := h.subset List.mem_cons_self
    obtain ⟨a, ha, rfl⟩ := List.mem_map.1 hb
    obtain ⟨x, y, rfl⟩ := List.append_of_mem ha
    have hp : (x ++ a :: y).Perm (a :: (x ++ y)) := List.perm_middle
    have h2 : l.Perm ((x ++ y).map f) := by
      have := h.trans (hp.map f)
      exact List.Perm.cons_inv this
    obtain ⟨m', h3, h4⟩ := ih h2
    exact ⟨a :: m', (h3.cons a).trans hp.symm, by simp [h4]⟩

/-! ## The tables -/

/-- A name has a sensible shape. -/
def nameOk : Str → Bool
  | ['-', c] => c ≠ '-' && c ≠ '='
  | '-' :: '-' :: _ :: s => !(s.contains '=')
  | _ => false

theorem nameOk_shape {n : Str} (h : nameOk n = true) (h3 : n[2]? ≠ some '=') : (∃ c, n = ['-', c] ∧ c ≠ '-' ∧ c ≠ '=') ∨ (∃ a s, n = '-' :: '-' :: a :: s ∧ '=' ∉ n) := by
  unfold nameOk at h
  split at h
  · simp at h
    exact .inl ⟨_, rfl, h⟩
  · next a s =>
    refine .inr ⟨a, s, rfl, ?_⟩
    simp at h h3
    simp [h, Ne.symm h3]
  · cases h

/-- A table is sensible, as a check. -/
def tableOk (t : List OptDecl) : Bool :=
  t.all (fun d => d.names.all (fun n => nameOk n && decide (n[2]? ≠ some '='))) && decide ((t.flatMap (·.names)).Nodup) &&
    decide (((t.filter (fun d => d.kind ≠ .help)).map (·.dest)).Nodup)

theorem tableOk_sensible {t : List OptDecl} (h : tableOk t = true) : Sensible t := by
  simp only [tableOk, Bool.and_eq_true, List.all_eq_true, decide_eq_true_eq] at h
  exact ⟨fun d hd n hn => nameOk_shape (h.1.1 d hd n hn).1 (h.1.1 d hd n hn).2, h.1.2, h.2⟩

theorem convert_sensible : Sensible convertOpts := tableOk_sensible (by decide)
theorem diff_sensible : Sensible diffOpts := tableOk_sensible (by decide)
theorem review_sensible : Sensible reviewOpts := tableOk_sensible (by decide)

theorem defaults_get {t : List OptDecl} (ht : Sensible t) (k : Str) (v : ArgVal) : (argDefaults t).get? k = some v ↔ ∃ d ∈ t, d.kind ≠ .help ∧ d.dest = k ∧ d.default = v := by
  have hn : (argDefaults t).keys.Nodup := by
    have := ht.places
    simpa [argDefaults, Dict.keys, List.map_map, Function.comp_def] using this
  rw [← Dict.mem_iff_get? hn]
  unfold argDefaults
  simp only [List.mem_map, List.mem_filter, decide_eq_true_eq, Prod.mk.injEq]
  constructor
  · rintro ⟨d, ⟨h1, h2⟩, h3, h4⟩; exact ⟨d, h1, h2, h3, h4⟩
  · rintro ⟨d, h1, h2, h3, h4⟩; exact ⟨d, ⟨h1, h2⟩, h3, h4⟩

theorem value_after {t : List OptDecl} (ht : Sensible t) (l : List (Str × ArgVal)) (k : Str) (v : ArgVal) :
    (setAll (argDefaults t) l).get? k = some v ↔ ValueAfter t l k v := by
  rw [setAll_get]
  unfold ValueAfter
  rw [← lastOf_none, ← lastOf_some, ← defaults_get ht]
  cases lastOf k l <;> simp

/-! ## Words that set one thing -/

/-- A word that sets one thing. -/
inductive OneWord (t : List OptDecl) : Str → Str × ArgVal → Prop where
  | flag (n : Str) (d : OptDecl) (h : Called t n d) (k : d.kind = .flag) : OneWord t n (d.dest, .flag true)
  | value (n v : Str) (d : OptDecl) (h : Called t n d) (k : d.kind = .value) : OneWord t (n ++ '=' :: v) (d.dest, .text v)

theorem words_read {t : List OptDecl} (ht : Sensible t) (l : List (Str × Str × ArgVal)) (h : ∀ p ∈ l, OneWord t p.1 p.2) : Reads t (l.map (·.1)) (l.map (·.2)) := by
  have hname : ∀ {n d}, Called t n d → n ≠ ['-', '-'] ∧ '=' ∉ n := by
    intro n d hc
    rcases ht.shape d hc.1 n hc.2 with ⟨c, rfl, h1, h2⟩ | ⟨a, s, rfl, h1⟩
    · exact ⟨by simp [h1], by simp [Ne.symm h2]⟩
    · exact ⟨by simp, h1⟩
  induction l with
  | nil => exact .done
  | cons p l ih =>
    obtain ⟨w, s⟩ := p
    have hw := h _ List.mem_cons_self
    have hr := ih (fun q hq => h q (List.mem_cons_of_mem _ hq))
    simp only [List.map_cons]
    simp only at hw
    generalize e : s = s' at hw
    cases hw with
    | flag n d hc k => subst e; exact .flag w d _ _ (hname hc).1 (.name hc) k hr
    | value n v d hc k => subst e; exact .equals n v d _ _ (hname hc).2 (.name hc) k hr

/-- A flag with its setting. -/
def flagPiece (n dest : Str) (b : Bool) : List (Str × Str × ArgVal) := if b then [(n, dest, .flag true)] else []

/-- An option with its setting. -/
def valuePiece (n dest : Str) (v : Option Str) : List (Str × Str × ArgVal) := v.toList.map (fun x => (n ++ '=' :: x, dest, .text x))

theorem flagPiece_word (n dest : Str) (b : Bool) : (flagPiece n dest b).map (·.1) = flagWord n b := by cases b <;> rfl
theorem valuePiece_word (n dest : Str) (v : Option Str) : (valuePiece n dest v).map (·.1) = valueWord n v := by cases v <;> rfl

theorem lastOf_flag (k n dest : Str) (b : Bool) : lastOf k ((flagPiece n dest b).map (·.2)) = if dest = k ∧ b = true then some (.flag true) else none := by
  cases b <;> simp [flagPiece, lastOf]
theorem lastOf_value (k n dest : Str) (v : Option Str) : lastOf k ((valuePiece n dest v).map (·.2)) = if dest = k then v.map .text else none := by
  cases v <;> simp [valuePiece, lastOf]

theorem flagPiece_sub (n dest : Str) (b : Bool) : ((flagPiece n dest b).map (fun p => p.2.1)).Sublist [dest] := by cases b <;> simp [flagPiece]
theorem valuePiece_sub (n dest : Str) (v : Option Str) : ((valuePiece n dest v).map (fun p => p.2.1)).Sublist [dest] := by cases v <;> simp [valuePiece]

theorem flagPiece_ok {t : List OptDecl} {n dest : Str} {b : Bool} (d : OptDecl) (h : d ∈ t ∧ n ∈ d.names ∧ d.kind = .flag ∧ d.dest = dest) :
    ∀ p ∈ flagPiece n dest b, OneWord t p.1 p.2 := by
  obtain ⟨h1, h2, h3, rfl⟩ := h
  cases b
  · intro p hp; cases hp
  · intro p hp
    simp only [flagPiece, if_true, List.mem_singleton] at hp
    subst hp
    exact .flag n d ⟨h1, h2⟩ h3

theorem valuePiece_ok {t : List OptDecl} {n dest : Str} {v : Option Str} (d : OptDecl) (h : d ∈ t ∧ n ∈ d.names ∧ d.kind = .value ∧ d.dest = dest) :
    ∀ p ∈ valuePiece n dest v, OneWord t p.1 p.2 := by
  obtain ⟨h1, h2, h3, rfl⟩ := h
  cases v with
  | none => intro p hp; cases hp
  | some v =>
    intro p hp
    simp only [valuePiece, Option.toList_some, List.map_cons, List.map_nil, List.mem_singleton] at hp
    subst hp
    exact .value n v d ⟨h1, h2⟩ h3

/-- Words in any order set what they set in the given order. -/
theorem pieces_read {t : List OptDecl} (ht : Sensible t) {L : List (Str × Str × ArgVal)} (hw : ∀ p ∈ L, OneWord t p.1 p.2) (hn : (L.map (fun p => p.2.1)).Nodup) {argv : List Str}
    (h : argv.Perm (L.map (·.1))) : ∃ ns, parseArgs t argv = .ok ns ∧ ∀ k, ns.get? k = (lastOf k (L.map (·.2))).or ((argDefaults t).get? k) := by
  obtain ⟨L', h1, rfl⟩ := perm_lift h
  refine ⟨_, (parseArgs_iff ht _ _).2 ⟨_, words_read ht L' (fun p hp => hw p (h1.subset hp)), rfl⟩, fun k => ?_⟩
  rw [setAll_get, lastOf_perm (h1.map _)]
  simpa [List.map_map, Function.comp_def] using hn

/-- The words of convert_ddl with what they set. -/
def convertPieces (user password : Option Str) (debug : Bool) (a : ConvertArgs) : List (Str × Str × ArgVal) :=
  flagPiece c!"--version" c!"version" a.version ++ flagPiece c!"--empty" c!"empty" a.empty ++ valuePiece c!"--from_ddl" c!"from_ddl" a.fromDdl ++ valuePiece c!"--to_tql" c!"to_tql" a.toTql ++
  valuePiece c!"--from_ts" c!"from_ts" a.fromTs ++ valuePiece c!"--to_ts" c!"to_ts" a.toTs ++ valuePiece c!"--username" c!"username" user ++ valuePiece c!"--password" c!"password" password ++
  valuePiece c!"--from_excel" c!"from_excel" a.fromExcel ++ valuePiece c!"--to_excel" c!"to_excel" a.toExcel ++ valuePiece c!"--database" c!"database" a.database ++
  valuePiece c!"--schema" c!"schema" (some a.schema) ++ flagPiece c!"--create_db" c!"create_db" a.createDb ++ flagPiece c!"--lowercase" c!"lowercase" a.lowercase ++
  flagPiece c!"--uppercase" c!"uppercase" a.uppercase ++ flagPiece c!"--camelcase" c!"camelcase" a.camelcase ++ flagPiece c!"--validate" c!"validate" a.validate ++ flagPiece c!"--debug" c!"debug" debug

theorem convertPieces_keys (user password : Option Str) (debug : Bool) (a : ConvertArgs) : ((convertPieces user password debug a).map (fun p => p.2.1)).Nodup := by
  have : ([c!"version"] ++ [c!"empty"] ++ [c!"from_ddl"] ++ [c!"to_tql"] ++ [c!"from_ts"] ++ [c!"to_ts"] ++ [c!"username"] ++ [c!"password"] ++ [c!"from_excel"] ++ [c!"to_excel"] ++
    [c!"database"] ++ [c!"schema"] ++ [c!"create_db"] ++ [c!"lowercase"] ++ [c!"uppercase"] ++ [c!"camelcase"] ++ [c!"validate"] ++ [c!"debug"]).Nodup := by decide
  refine List.Sublist.nodup ?_ this
  unfold convertPieces
  simp only [List.map_append]
  repeat' apply List.Sublist.append
  all_goals first | exact flagPiece_sub _ _ _ | exact valuePiece_sub _ _ _

theorem convertPieces_words (user password : Option Str) (debug : Bool) (a : ConvertArgs) : (convertPieces user password debug a).map (·.1) = convertWords user password debug a := by
  simp only [convertPieces, convertWords, List.map_append, flagPiece_word, valuePiece_word]

theorem convertPieces_ok (user password : Option Str) (debug : Bool) (a : ConvertArgs) : ∀ p ∈ convertPieces user password debug a, OneWord convertOpts p.1 p.2 := by
  simp only [convertPieces, List.forall_mem_append]
  refine ⟨⟨⟨⟨⟨⟨⟨⟨⟨⟨⟨⟨⟨⟨⟨⟨⟨?_, ?_⟩, ?_⟩, ?_⟩, ?_⟩, ?_⟩, ?_⟩, ?_⟩, ?_⟩, ?_⟩, ?_⟩, ?_⟩, ?_⟩, ?_⟩, ?_⟩, ?_⟩, ?_⟩, ?_⟩
  · exact flagPiece_ok convertOpts[1] (by decide)
  · exact flagPiece_ok convertOpts[2] (by decide)
  · exact valuePiece_ok convertOpts[3] (by decide)
  · exact valuePiece_ok convertOpts[4] (by decide)
  · exact valuePiece_ok convertOpts[5] (by decide)
  · exact valuePiece_ok convertOpts[6] (by decide)
  · exact valuePiece_ok convertOpts[7] (by decide)
  · exact valuePiece_ok convertOpts[8] (by decide)
  · exact valuePiece_ok convertOpts[9] (by decide)
  · exact valuePiece_ok convertOpts[10] (by decide)
  · exact valuePiece_ok convertOpts[11] (by decide)
  · exact valuePiece_ok convertOpts[12] (by decide)
  · exact flagPiece_ok convertOpts[13] (by decide)
  · exact flagPiece_ok convertOpts[14] (by decide)
  · exact flagPiece_ok convertOpts[15] (by decide)
  · exact flagPiece_ok convertOpts[16] (by decide)
  · exact flagPiece_ok convertOpts[17] (by decide)
  · exact flagPiece_ok convertOpts[18] (by decide)

theorem flagOf_eq {ns : Dict ArgVal} {k : Str} {b : Bool} (h : ns.get? k = (if b = true then some (.flag true) else none).or (some (.flag false))) : flagOf ns k = b := by
  unfold flagOf
  rw [h]
  cases b <;> rfl

theorem textOf_eq {ns : Dict ArgVal} {k : Str} {v : Option Str} (h : ns.get? k = (v.map ArgVal.text).or (some .none)) : textOf ns k = v := by
  unfold textOf
  rw [h]
  cases v <;> rfl

theorem textOf_getD {ns : Dict ArgVal} {k v : Str} (h : ns.get? k = some (.text v)) : (textOf ns k).getD [] = v := by
  unfold textOf
  rw [h]
  rfl

/-- The words of ddldiff with what they set. -/
def diffPieces (a : DiffArgs) : List (Str × Str × ArgVal) :=
  valuePiece c!"--ddl1" c!"ddl1" a.ddl1 ++
  valuePiece c!"--ddl2" c!"ddl2" a.ddl2 ++
  valuePiece c!"--database" c!"database" (some a.database) ++
  valuePiece c!"--schema" c!"schema" (some a.schema) ++
  flagPiece c!"--alter1" c!"alter1" a.alter1 ++
  flagPiece c!"--alter2" c!"alter2" a.alter2 ++
  flagPiece c!"--ignore_case" c!"ignore_case" a.ignoreCase

theorem diffPieces_keys (a : DiffArgs) : ((diffPieces a).map (fun p => p.2.1)).Nodup := by
  have : ([c!"ddl1"] ++ [c!"ddl2"] ++ [c!"database"] ++ [c!"schema"] ++ [c!"alter1"] ++ [c!"alter2"] ++ [c!"ignore_case"]).Nodup := by decide
  refine List.Sublist.nodup ?_ this
  unfold diffPieces
  simp only [List.map_append]
  repeat' apply List.Sublist.append
  all_goals first | exact flagPiece_sub _ _ _ | exact valuePiece_sub _ _ _

theorem diffPieces_words (a : DiffArgs) : (diffPieces a).map (·.1) = diffWords a := by
  simp only [diffPieces, diffWords, List.map_append, flagPiece_word, valuePiece_word]

theorem diffPieces_ok (a : DiffArgs) : ∀ p ∈ diffPieces a, OneWord diffOpts p.1 p.2 := by
  simp only [diffPieces, List.forall_mem_append]
  refine ⟨⟨⟨⟨⟨⟨?_, ?_⟩, ?_⟩, ?_⟩, ?_⟩, ?_⟩, ?_⟩
  · exact valuePiece_ok diffOpts[1] (by decide)
  · exact valuePiece_ok diffOpts[2] (by decide)
  · exact valuePiece_ok diffOpts[3] (by decide)
  · exact valuePiece_ok diffOpts[4] (by decide)
  · exact flagPiece_ok diffOpts[5] (by decide)
  · exact flagPiece_ok diffOpts[6] (by decide)
  · exact flagPiece_ok diffOpts[7] (by decide)

/-- The words of review_model with what they set. -/
def reviewPieces (user password : Option Str) (debug : Bool) (a : ReviewArgs) : List (Str × Str × ArgVal) :=
  flagPiece c!"--version" c!"version" a.version ++
  flagPiece c!"--show_tests" c!"show_tests" a.showTests ++
  valuePiece c!"--database_file" c!"database_file" a.databaseFile ++
  valuePiece c!"--worksheet_file" c!"worksheet_file" a.worksheetFile ++
  valuePiece c!"--ts_ip" c!"ts_ip" a.tsIp ++
  valuePiece c!"--username" c!"username" user ++
  valuePiece c!"--password" c!"password" password ++
  valuePiece c!"--database" c!"database" a.database ++
  flagPiece c!"--debug" c!"debug" debug ++
  valuePiece c!"--config_file" c!"config_file" a.configFile

theorem reviewPieces_keys (user password : Option Str) (debug : Bool) (a : ReviewArgs) : ((reviewPieces user password debug a).map (fun p => p.2.1)).Nodup := by
  have : ([c!"version"] ++ [c!"show_tests"] ++ [c!"database_file"] ++ [c!"worksheet_file"] ++ [c!"ts_ip"] ++ [c!"username"] ++ [c!"password"] ++ [c!"database"] ++ [c!"debug"] ++ [c!"config_file"]).Nodup := by decide
  refine List.Sublist.nodup ?_ this
  unfold reviewPieces
  simp only [List.map_append]
  repeat' apply List.Sublist.append
  all_goals first | exact flagPiece_sub _ _ _ | exact valuePiece_sub _ _ _

theorem reviewPieces_words (user password : Option Str) (debug : Bool) (a : ReviewArgs) : (reviewPieces user password debug a).map (·.1) = reviewWords user password debug a := by
  simp only [reviewPieces, reviewWords, List.map_append, flagPiece_word, valuePiece_word]

theorem reviewPieces_ok (user password : Option Str) (debug : Bool) (a : ReviewArgs) : ∀ p ∈ reviewPieces user password debug a, OneWord reviewOpts p.1 p.2 := by
  simp only [reviewPieces, List.forall_mem_append]
  refine ⟨⟨⟨⟨⟨⟨⟨⟨⟨?_, ?_⟩, ?_⟩, ?_⟩, ?_⟩, ?_⟩, ?_⟩, ?_⟩, ?_⟩, ?_⟩
  · exact flagPiece_ok reviewOpts[1] (by decide)
  · exact flagPiece_ok reviewOpts[2] (by decide)
  · exact valuePiece_ok reviewOpts[3] (by decide)
  · exact valuePiece_ok reviewOpts[4] (by decide)
  · exact valuePiece_ok reviewOpts[5] (by decide)
  · exact valuePiece_ok reviewOpts[6] (by decide)
  · exact valuePiece_ok reviewOpts[7] (by decide)
  · exact valuePiece_ok reviewOpts[8] (by decide)
  · exact flagPiece_ok reviewOpts[9] (by decide)
  · exact valuePiece_ok reviewOpts[10] (by decide)

/-! ## Runs -/

theorem ended_out {α : Type} {ns : Dict ArgVal} {l : List Said} {r : Except PyErr α} (h : l.head? = some .args) : ∃ x, (ended ns l r).out = namespaceText ns ++ c!"\n" ++ x := by
  cases l with
  | nil => cases h
  | cons s l => cases h; exact ⟨l.flatMap (Said.printed ns), by simp [ended, Said.printed]⟩

theorem convert_args {env : Env} {dir : Str} {a : ConvertArgs} (h : validConvert a = true) (w : World) : (convertTalk env dir a w).2.1.head? = some .args := by
  unfold convertTalk
  rw [if_pos h]
  rfl

theorem diff_args {fr : Rat → Str} {d : Disk} {a : DiffArgs} (h : validDiff d a = true) : ∃ l, (diffTalk fr d a).1 = .args :: l ∧ .args ∉ l := by
  have hp : ∀ f, .args ∉ parserSays d.fs (some a.database) a.schema f := by
    intro f hm
    unfold parserSays at hm
    simp only [List.mem_map] at hm
    obtain ⟨x, -, hx⟩ := hm
    cases hx
  have hand : ∀ x y : List Said × Option PyErr, .args ∉ x.1 → .args ∉ y.1 → .args ∉ (andThen x y).1 := by
    rintro ⟨x, _ | e⟩ ⟨y, e'⟩ hx hy <;> simp_all [andThen]
  have hd : ∀ db1 db2, .args ∉ (diffsTalk fr a db1 db2).1 := by
    intro db1 db2
    unfold diffsTalk
    dsimp only
    refine hand _ _ ?_ (hand _ _ ?_ ?_)
    · split
      · exact hand _ _ (by simp) (by simp [altersTalk])
      · simp
    · split
      · exact hand _ _ (by simp) (by simp [altersTalk])
      · simp
    · split
      · simp [listTalk]
      · simp
  unfold diffTalk
  rw [h]
  simp only [Bool.not_true, Bool.false_eq_true, if_false]
  split
  · exact ⟨_, rfl, hp _⟩
  · split
    · exact ⟨_, rfl, by simp [hp]⟩
    · split
      · refine ⟨_, rfl, ?_⟩
        simp [hp, hd]
      · exact ⟨_, rfl, by simp [hp]⟩

theorem review_args {env : Env} {r : ReviewEnv} {tests : List (TestItem × Str)} {dir : Str} {a : ReviewArgs} {w : World} (h : validReview w.disk a = true) :
    (reviewTalk env r tests dir a w).2.1.head? = some .args := by
  unfold reviewTalk
  rw [h]
  rfl

theorem namespace_begins (ns : Dict ArgVal) (x : Str) : ∃ y, namespaceText ns ++ c!"\n" ++ x = c!"Namespace(" ++ y := ⟨_, by unfold namespaceText; simp only [List.append_assoc]; rfl⟩

theorem cut_first : ∀ (x cur : Str) (m : Option Char), cut m cur x = [] ∨ ∃ y r, cut m cur x = (cur.reverse ++ y) :: r := by
  intro x
  induction x with
  | nil => intro cur m; left; cases m <;> rfl
  | cons c x ih =>
    intro cur m
    have step : ∀ m', cut m' (c :: cur) x = [] ∨ ∃ y r, cut m' (c :: cur) x = (cur.reverse ++ y) :: r := by
      intro m'
      rcases ih (c :: cur) m' with h | ⟨y, r, h⟩
      · exact .inl h
      · exact .inr ⟨c :: y, r, by rw [h]; simp⟩
    cases m with
    | none =>
      rw [cut]
      by_cases hc : c = ';'
      · rw [if_pos hc]; exact .inr ⟨[], cut none [] x, by simp⟩
      · rw [if_neg hc]; exact step _
    | some q => rw [cut]; exact step _

theorem read_namespace (x : Str) (l : List Stmt) (h : readScript (c!"Namespace(" ++ x) = some l) : l = [] := by
  have h1 : cut none [] (c!"Namespace(" ++ x) = cut none (c!"Namespace(").reverse x := rfl
  unfold readScript at h
  rw [h1] at h
  rcases cut_first x (c!"Namespace(").reverse none with h2 | ⟨y, r, h2⟩
  · rw [h2] at h; cases h; rfl
  · rw [h2] at h
    have h3 : readStmt ((c!"Namespace(").reverse.reverse ++ y) = none := rfl
    rw [List.map_cons, h3] at h
    cases h

theorem joinS_mem {sep x : Str} {l : List Str} (h : x ∈ l) : ∃ a b, joinS sep l = a ++ x ++ b := by
  induction l with
  | nil => cases h
  | cons y l ih =>
    rcases List.mem_cons.1 h with rfl | h
    · cases l with
      | nil => exact ⟨[], [], by simp [joinS]⟩
      | cons z l => exact ⟨[], sep ++ joinS sep (z :: l), by simp [joinS]⟩
    · obtain ⟨a, b, e⟩ := ih h
      cases l with
      | nil => cases h
      | cons z l => exact ⟨y ++ sep ++ a, b, by simp only [joinS]; rw [e]; simp⟩

theorem namespace_shows {ns : Dict ArgVal} {k : Str} {v : ArgVal} (h : ns.get? k = some v) : ∃ a b, namespaceText ns = a ++ (k ++ c!"=" ++ v.repr) ++ b := by
  have hm : (k, v) ∈ ns := Dict.mem_of_get? h
  obtain ⟨a, b, e⟩ := joinS_mem (sep := c!", ") (List.mem_map_of_mem (f := fun p : Str × ArgVal => p.1 ++ c!"=" ++ p.2.repr) hm)
  refine ⟨c!"Namespace(" ++ a, b ++ c!")", ?_⟩
  unfold namespaceText
  rw [e]
  simp only [List.append_assoc]

end Verif
