import Verif.Spec.ReviewConsole
import Verif.Lemmas.Review
import Verif.Lemmas.Console
import Verif.Lemmas.Config
import Verif.Lemmas.AlterText
/-
Lemmas on what the reviews and review_model say.
-/

namespace Verif
open Verif Verif.Spec

namespace Rv

/-- The review without what it says. -/
def plain {α : Type} (x : Rv α) (asked : List Str) : Except PyErr (List Str × α) :=
  match x asked with
  | (_, _, .error e) => .error e
  | (q, _, .ok a) => .ok (q, a)

theorem bind_eq {α β : Type} (x : Rv α) (f : α → Rv β) (asked : List Str) :
    (x >>= f) asked = match x asked with
      | (asked, l, .error e) => (asked, l, .error e)
      | (asked, l, .ok a) => ((f a asked).1, l ++ (f a asked).2.1, (f a asked).2.2) := rfl

theorem pure_eq {α : Type} (a : α) (asked : List Str) : (pure a : Rv α) asked = (asked, [], .ok a) := rfl

theorem lift_ok {α β : Type} (a : α) (f : α → Rv β) : (Rv.lift (.ok a) >>= f) = f a := by
  funext asked
  simp [bind_eq, Rv.lift]

theorem lift_error {α β : Type} (e : PyErr) (f : α → Rv β) : (Rv.lift (.error e) >>= f) = Rv.lift (.error e) := by
  funext asked
  simp [bind_eq, Rv.lift]

theorem ask_bind {β : Type} (srv : QueryServer) (q : Str) (f : Except PyErr (List (Option Str)) → Rv β) (asked : List Str) :
    (Rv.ask srv q >>= f) asked = ((f (srv asked q) (asked ++ [q])).1, .out q :: (f (srv asked q) (asked ++ [q])).2.1, (f (srv asked q) (asked ++ [q])).2.2) := rfl

theorem plain_bind {α β : Type} (x : Rv α) (f : α → Rv β) (asked : List Str) :
    plain (x >>= f) asked = (plain x asked >>= fun r => plain (f r.2) r.1) := by
  simp only [plain, bind_eq]
  rcases x asked with ⟨q, l, e | a⟩
  · rfl
  · dsimp only
    show _ = (match f a q with
      | (_, _, .error e) => Except.error e
      | (q, _, .ok a) => .ok (q, a))
    rcases f a q with ⟨q', l', e | b⟩ <;> rfl

theorem plain_pure {α : Type} (a : α) (asked : List Str) : plain (pure a : Rv α) asked = .ok (asked, a) := rfl

theorem plain_lift {α : Type} (x : Except PyErr α) (asked : List Str) : plain (Rv.lift x) asked = x.map (fun a => (asked, a)) := by
  cases x <;> rfl

theorem plain_say (s : Said) (asked : List Str) : plain (Rv.say s) asked = .ok (asked, ()) := rfl

theorem plain_ask (srv : QueryServer) (q : Str) (asked : List Str) : plain (Rv.ask srv q) asked = .ok (asked ++ [q], srv asked q) := rfl

end Rv

open Rv

theorem ok_bind {α β : Type} (a : α) (f : α → Except PyErr β) : (Except.ok a >>= f) = f a := rfl

theorem error_bind {α β : Type} (e : PyErr) (f : α → Except PyErr β) : ((Except.error e : Except PyErr α) >>= f) = .error e := rfl

/-! ## Joins of tables -/

theorem plain_cardinality (srv : QueryServer) (q : Str) (asked : List Str) :
    plain (cardinalityTalk srv q) asked = .ok (asked ++ [q], cardinality srv asked q) := by
  unfold cardinalityTalk
  rw [plain_bind, plain_ask, ok_bind]
  dsimp only
  have hc : cardinality srv asked q = (countIn (srv asked q)).getD (-1) := by
    unfold cardinality countIn
    rcases srv asked q with e | ⟨_ | ⟨_ | t, rest⟩⟩ <;> rfl
  rw [hc]
  cases countIn (srv asked q) <;> rfl

theorem plain_runJoins (srv : QueryServer) : ∀ (ps : List QueryParts) (asked : List Str), plain (runJoinsTalk srv ps) asked = runJoins srv asked ps
  | [], _ => rfl
  | p :: ps, asked => by
    unfold runJoinsTalk runJoins
    rw [plain_bind, plain_say, ok_bind, plain_bind, plain_lift]
    rcases toQuery p with e | q1
    · rfl
    · simp only [Except.map, ok_bind]
      rw [plain_bind, plain_cardinality, ok_bind, plain_bind, plain_lift]
      rcases fromQuery p with e | q2
      · rfl
      · simp only [Except.map, ok_bind]
        rw [plain_bind, plain_cardinality, ok_bind, plain_bind, plain_runJoins srv ps]
        simp only [List.append_assoc, List.cons_append, List.nil_append]
        rcases runJoins srv (asked ++ [q1, q2]) ps with e | r <;> rfl

theorem plain_joinTables (srv : QueryServer) (db : Database) : ∀ (ts : List Table) (asked : List Str), plain (joinTablesTalk srv db ts) asked = joinTables srv db asked ts
  | [], _ => rfl
  | t :: ts, asked => by
    unfold joinTablesTalk joinTables
    rw [plain_bind, plain_lift]
    rcases joinsOf db t with e | js
    · rfl
    · simp only [Except.map, ok_bind]
      rw [plain_bind, plain_runJoins]
      rcases runJoins srv asked js with e | r
      · rfl
      · simp only [ok_bind]
        rw [plain_bind, plain_joinTables srv db ts]
        rcases joinTables srv db r.1 ts with e | r' <;> rfl

theorem result_of_plain {α : Type} {x : Rv α} {asked : List Str} : (x asked).2.2 = (plain x asked).map Prod.snd := by
  unfold plain
  rcases x asked with ⟨q, l, e | a⟩ <;> rfl

theorem tableJoins_same (srv : QueryServer) (db : Database) : (reviewTableJoinsTalk srv db []).2.2 = reviewTableJoins srv db := by
  rw [result_of_plain]
  unfold reviewTableJoinsTalk reviewTableJoins
  rw [plain_bind, plain_say, ok_bind, plain_joinTables]
  rcases joinTables srv db [] db.iter with e | r <;> rfl

/-! ## Joins of worksheets -/

theorem plain_runWsJoin (srv : QueryServer) (asked : List Str) (db s1 t1 s2 t2 name actual : Str) (fk : FK) :
    plain (runWsJoinTalk srv db s1 t1 s2 t2 name actual fk) asked = runWsJoin srv asked db s1 t1 s2 t2 name actual fk := by
  unfold runWsJoinTalk runWsJoin
  rw [plain_bind, plain_lift]
  rcases wsCondition db s1 t1 s2 t2 fk with e | on
  · rfl
  · simp only [Except.map, ok_bind]
    rcases fk.fromKeys with _ | ⟨a, as⟩
    · rfl
    · rcases fk.toKeys with _ | ⟨b, bs⟩
      · rfl
      · simp only
        rw [plain_bind, plain_ask, ok_bind, plain_bind, plain_lift]
        generalize srv asked _ = r1
        rcases r1 with e | r1
        · rfl
        · simp only [Except.map, ok_bind]
          rw [plain_bind, plain_ask, ok_bind, plain_bind, plain_lift]
          simp only [List.append_assoc, List.cons_append, List.nil_append]
          generalize srv (asked ++ _) _ = r2
          rcases r2 with e | r2
          · rfl
          · simp only [Except.map, ok_bind]
            rfl

theorem plain_wsJoin (nested : Yaml → Str) (srv : QueryServer) (db : Database) (w : Worksheet) (j : WsJoin) (asked : List Str) :
    plain (wsJoinTalk nested srv db w j) asked = wsJoin srv db w asked j := by
  unfold wsJoinTalk wsJoin
  rw [plain_bind, plain_lift]
  rcases j.source.text with e | s
  · rfl
  simp only [Except.map, ok_bind]
  rw [plain_bind, plain_lift]
  rcases wsTableType w s with e | ty
  · rfl
  simp only [Except.map, ok_bind]
  split
  · rfl
  rw [plain_bind, plain_lift]
  rcases schemaOf (db.getTable s) with e | s1
  · rfl
  simp only [Except.map, ok_bind]
  rw [plain_bind, plain_lift]
  rcases j.destination.text with e | d
  · rfl
  simp only [Except.map, ok_bind]
  rw [plain_bind, plain_lift]
  rcases wsTableType w d with e | ty
  · rfl
  simp only [Except.map, ok_bind]
  split
  · rfl
  rw [plain_bind, plain_lift]
  rcases schemaOf (db.getTable d) with e | s2
  · rfl
  simp only [Except.map, ok_bind]
  rw [plain_bind, plain_lift]
  rcases j.name.text with e | n
  · rfl
  simp only [Except.map, ok_bind]
  rw [plain_bind, plain_lift]
  rcases j.type.text with e | ac
  · rfl
  simp only [Except.map, ok_bind]
  unfold withForeignKeyTalk withForeignKey
  split
  · rename_i h; rw [h]; rfl
  · rename_i h; rw [h]; exact plain_runWsJoin _ _ _ _ _ _ _ _ _ _

theorem plain_wsJoins (nested : Yaml → Str) (srv : QueryServer) (db : Database) (w : Worksheet) :
    ∀ (js : List WsJoin) (asked : List Str), plain (wsJoinsTalk nested srv db w js) asked = wsJoins srv db w asked js
  | [], _ => rfl
  | j :: js, asked => by
    unfold wsJoinsTalk wsJoins
    rw [plain_bind, plain_wsJoin]
    rcases wsJoin srv db w asked j with e | r
    · rfl
    · simp only [ok_bind]
      rw [plain_bind, plain_wsJoins nested srv db w js]
      rcases wsJoins srv db w r.1 js with e | r' <;> rfl

theorem worksheetJoins_same (nested : Yaml → Str) (srv : QueryServer) (db : Database) (w : Worksheet) :
    (reviewWorksheetJoinsTalk nested srv db w []).2.2 = reviewWorksheetJoins srv db w := by
  rw [result_of_plain]
  unfold reviewWorksheetJoinsTalk reviewWorksheetJoins
  rw [plain_bind, plain_say, ok_bind, plain_wsJoins]
  rcases wsJoins srv db w [] w.getJoins with e | r <;> rfl

/-! ## Queries -/

theorem Spec.Asked.append {srv : QueryServer} {a b c : List Str} {l m : List Said} (h : Asked srv a l b) (h' : Asked srv b m c) : Asked srv a (l ++ m) c := by
  induction h with
  | done => exact h'
  | note a b s l h1 _ ih => exact .note _ _ _ _ h1 (ih h')
  | answered a b q t n rest l h1 h2 h3 _ ih => exact .answered _ _ _ _ _ _ _ h1 h2 h3 (ih h')
  | failed a b q l h1 h2 _ ih => exact .failed _ _ _ _ h1 h2 (ih h')

/-- The review follows the specification from every state. -/
def Follows {α : Type} (srv : QueryServer) (x : Rv α) : Prop := ∀ asked, Asked srv asked (x asked).2.1 (x asked).1

theorem Follows.bind {α β : Type} {srv : QueryServer} {x : Rv α} {f : α → Rv β} (h : Follows srv x) (h' : ∀ a, Follows srv (f a)) : Follows srv (x >>= f) := by
  intro asked
  rw [bind_eq]
  have := h asked
  rcases hx : x asked with ⟨q, l, e | a⟩
  · rw [hx] at this; exact this
  · rw [hx] at this; exact this.append (h' a q)

theorem Follows.pure {α : Type} {srv : QueryServer} (a : α) : Follows srv (pure a : Rv α) := fun asked => .done asked

theorem Follows.lift {α : Type} {srv : QueryServer} (x : Except PyErr α) : Follows srv (Rv.lift x) := fun asked => .done asked

theorem Follows.note {srv : QueryServer} {s : Str} (h : ¬ c!"select " <+: s) : Follows srv (Rv.say (.out s)) := fun asked => .note _ _ _ _ h (.done asked)

theorem Follows.cardinality {srv : QueryServer} {q : Str} (h : c!"select " <+: q) : Follows srv (cardinalityTalk srv q) := by
  intro asked
  unfold cardinalityTalk
  rw [bind_eq]
  simp only [Rv.ask]
  have hc : ∀ n, countIn (srv asked q) = some n → ∃ t rest, srv asked q = .ok (some t :: rest) ∧ IntValue t n := by
    intro n hn
    unfold countIn at hn
    split at hn
    · rename_i t rest e; exact ⟨t, rest, e, (pyInt_value _ _).1 hn⟩
    · cases hn
  have hc' : (∃ t n rest, srv asked q = .ok (some t :: rest) ∧ IntValue t n) → ∃ n, countIn (srv asked q) = some n := by
    rintro ⟨t, n, rest, e, hi⟩
    exact ⟨n, by rw [e]; exact (pyInt_value _ _).2 hi⟩
  cases e : countIn (srv asked q) with
  | some n =>
    obtain ⟨t, rest, h1, h2⟩ := hc n e
    simp only [pure_eq, List.append_nil]
    exact .answered _ _ _ t n rest _ h h1 h2 (.done _)
  | none =>
    simp only [bind_eq, Rv.say, pure_eq, List.append_nil]
    refine .failed _ _ _ _ h (fun h' => ?_) (.done _)
    obtain ⟨n, hn⟩ := hc' h'
    rw [e] at hn; cases hn

theorem toQuery_select {p : QueryParts} {q : Str} (h : toQuery p = .ok q) : c!"select " <+: q := by
  unfold toQuery cardinalityQuery at h
  split at h
  · cases h
  · simp only [Except.ok.injEq] at h
    rw [← h]
    simp only [List.append_assoc]
    exact List.prefix_append _ _

theorem fromQuery_select {p : QueryParts} {q : Str} (h : fromQuery p = .ok q) : c!"select " <+: q := by
  unfold fromQuery cardinalityQuery at h
  split at h
  · cases h
  · simp only [Except.ok.injEq] at h
    rw [← h]
    simp only [List.append_assoc]
    exact List.prefix_append _ _

theorem not_select {a b : Str} {c : Char} (h : c ≠ 's') : ¬ c!"select " <+: (c :: a) ++ b := by
  rintro ⟨t, ht⟩
  exact h (List.cons.inj ht).1.symm

theorem follows_runJoins (srv : QueryServer) : ∀ ps, Follows srv (runJoinsTalk srv ps)
  | [] => .pure _
  | p :: ps => by
    unfold runJoinsTalk
    refine .bind (.note ?_) (fun _ => ?_)
    · simp only [List.append_assoc]
      exact not_select (by decide)
    · cases h1 : toQuery p with
      | error e => rw [lift_error]; exact .lift _
      | ok q1 =>
        rw [lift_ok]
        refine .bind (.cardinality (toQuery_select h1)) (fun _ => ?_)
        cases h2 : fromQuery p with
        | error e => rw [lift_error]; exact .lift _
        | ok q2 =>
          rw [lift_ok]
          exact .bind (.cardinality (fromQuery_select h2)) (fun _ => .bind (follows_runJoins srv ps) (fun _ => .pure _))

theorem follows_joinTables (srv : QueryServer) (db : Database) : ∀ ts, Follows srv (joinTablesTalk srv db ts)
  | [] => .pure _
  | t :: ts => .bind (.lift _) (fun _ => .bind (follows_runJoins srv _) (fun _ => .bind (follows_joinTables srv db ts) (fun _ => .pure _)))

theorem follows_tableJoins (srv : QueryServer) (db : Database) : Follows srv (reviewTableJoinsTalk srv db) :=
  .bind (.note (by simp only [List.append_assoc]; exact not_select (by decide))) (fun _ => follows_joinTables srv db _)

/-! ## What is said about the joins of a worksheet -/

theorem runWsJoinTalk_said {srv : QueryServer} {asked asked' : List Str} {db s1 t1 s2 t2 name actual : Str} {fk : FK} {l : List Said} {is : List Str}
    (h : runWsJoinTalk srv db s1 t1 s2 t2 name actual fk asked = (asked', l, .ok is)) : ∃ q1 q2, asked' = asked ++ [q1, q2] ∧ l = [.out q1, .out q2] := by
  unfold runWsJoinTalk at h
  cases hc : wsCondition db s1 t1 s2 t2 fk with
  | error e => rw [hc, lift_error] at h; simp [Rv.lift] at h
  | ok on =>
    rw [hc, lift_ok] at h
    rcases e1 : fk.fromKeys with _ | ⟨a, as⟩
    · rw [e1] at h; simp [Rv.lift] at h
    · rcases e2 : fk.toKeys with _ | ⟨b, bs⟩
      · rw [e1, e2] at h; simp [Rv.lift] at h
      · rw [e1, e2] at h
        simp only [ask_bind] at h
        rcases h1 : srv asked (missingQuery db s1 t1 s2 t2 fk on t2 a) with e | r1
        · rw [h1, lift_error] at h
          simp [Rv.lift] at h
        · rw [h1, lift_ok] at h
          simp only [ask_bind] at h
          rcases h2 : srv (asked ++ [missingQuery db s1 t1 s2 t2 fk on t2 a]) (missingQuery db s1 t1 s2 t2 fk on t1 b) with e | r2
          · rw [h2, lift_error] at h
            simp [Rv.lift] at h
          · rw [h2, lift_ok] at h
            simp only [pure_eq, Prod.mk.injEq, List.append_assoc, List.cons_append, List.nil_append] at h
            exact ⟨_, _, h.1.symm, h.2.1.symm⟩

theorem wsJoinTalk_said {nested : Yaml → Str} {srv : QueryServer} {db : Database} (hk : WellKeyed db) {w : Worksheet} {j : WsJoin} {asked asked' : List Str} {l : List Said}
    {is : List Str} (h : wsJoinTalk nested srv db w j asked = (asked', l, .ok is)) :
    ∃ qs, asked' = asked ++ qs ∧ WsVerdict srv db w asked j qs is ∧ JoinSaid nested db w j qs l := by
  have hp : wsJoin srv db w asked j = .ok (asked', is) := by
    rw [← plain_wsJoin nested]
    unfold plain
    rw [h]
  obtain ⟨qs, e, hv⟩ := (wsJoin_ok_iff srv hk w asked j _).1 hp
  simp only at e hv
  refine ⟨qs, e, hv, ?_⟩
  subst e
  clear hp
  cases hv with
  | otherSource s ty hs hty hne =>
    have e1 : wsJoinTalk nested srv db w j asked =
        (asked, [.err (c!"Table " ++ s ++ c!" of type " ++ ty.print nested ++ c!" not supported.  Only 'table' type supported.")], .ok []) := by
      unfold wsJoinTalk
      rw [(text_ok_iff _ _).2 hs, lift_ok, (wsTableType_ok_iff _ _ _).2 hty, lift_ok, if_pos (by simpa [isStr_iff] using hne)]
      rfl
    rw [e1] at h
    simp only [Prod.mk.injEq] at h
    rw [← h.2.1]
    exact .source s ty hs hty hne
  | otherTarget s d t1 ty hs hty1 ht1 hd hty hne =>
    have e1 : wsJoinTalk nested srv db w j asked =
        (asked, [.err (c!"Table " ++ d ++ c!" of type " ++ ty.print nested ++ c!" not supported. Only 'table' type supported.")], .ok []) := by
      unfold wsJoinTalk
      rw [(text_ok_iff _ _).2 hs, lift_ok, (wsTableType_ok_iff _ _ _).2 hty1, lift_ok, if_neg (by simp [isStr_iff]), (schemaOf_ok_iff hk _ _).2 ⟨t1, ht1, rfl⟩, lift_ok,
        (text_ok_iff _ _).2 hd, lift_ok, (wsTableType_ok_iff _ _ _).2 hty, lift_ok, if_pos (by simpa [isStr_iff] using hne)]
      rfl
    rw [e1] at h
    simp only [Prod.mk.injEq] at h
    rw [← h.2.1]
    exact .target s d ty hs hty1 hd hty hne
  | noKey s d n actual t1 t2 hs hty1 ht1 hd hty2 ht2 hn hac hno =>
    have e1 : wsJoinTalk nested srv db w j asked = (asked, [.err (c!"Unable to access None for join " ++ n ++ c!".  Only foreign keys supported.")], .ok []) := by
      unfold wsJoinTalk
      rw [(text_ok_iff _ _).2 hs, lift_ok, (wsTableType_ok_iff _ _ _).2 hty1, lift_ok, if_neg (by simp [isStr_iff]), (schemaOf_ok_iff hk _ _).2 ⟨t1, ht1, rfl⟩, lift_ok,
        (text_ok_iff _ _).2 hd, lift_ok, (wsTableType_ok_iff _ _ _).2 hty2, lift_ok, if_neg (by simp [isStr_iff]), (schemaOf_ok_iff hk _ _).2 ⟨t2, ht2, rfl⟩, lift_ok,
        (text_ok_iff _ _).2 hn, lift_ok, (text_ok_iff _ _).2 hac, lift_ok]
      have hg : db.getTable s = some t1 := (tableOf_iff hk).1 ht1
      have hfk : t1.getForeignKey n = none := by
        unfold Table.getForeignKey
        cases h : t1.fks.get? n with
        | none => rfl
        | some k => exact absurd (Dict.mem_of_get? h) (hno k)
      rw [hg]
      simp only [Option.bind_some, hfk, withForeignKeyTalk]
      rfl
    rw [e1] at h
    simp only [Prod.mk.injEq] at h
    rw [← h.2.1]
    exact .noKey s d n t1 hs hty1 hd hty2 ht1 hn hno
  | checked s d n actual t1 t2 k a b as bs r1 r2 should hs hty1 ht1 hd hty2 ht2 hn hac hkm ha hb hl h1 h2 hnd =>
    have hg : db.getTable s = some t1 := (tableOf_iff hk).1 ht1
    have hfk : t1.getForeignKey n = some k := Dict.get?_of_mem (hk.fks _ _ ht1) hkm
    unfold wsJoinTalk at h
    rw [(text_ok_iff _ _).2 hs, lift_ok, (wsTableType_ok_iff _ _ _).2 hty1, lift_ok, if_neg (by simp [isStr_iff]), (schemaOf_ok_iff hk _ _).2 ⟨t1, ht1, rfl⟩, lift_ok,
      (text_ok_iff _ _).2 hd, lift_ok, (wsTableType_ok_iff _ _ _).2 hty2, lift_ok, if_neg (by simp [isStr_iff]), (schemaOf_ok_iff hk _ _).2 ⟨t2, ht2, rfl⟩, lift_ok,
      (text_ok_iff _ _).2 hn, lift_ok, (text_ok_iff _ _).2 hac, lift_ok, hg] at h
    simp only [Option.bind_some, hfk, withForeignKeyTalk] at h
    obtain ⟨q1, q2, e1, e2⟩ := runWsJoinTalk_said h
    have := List.append_cancel_left e1
    rw [this, e2]
    exact .asked q1 q2

theorem wsJoinsTalk_said {nested : Yaml → Str} {srv : QueryServer} {db : Database} (hk : WellKeyed db) {w : Worksheet} : ∀ {js : List WsJoin} {asked asked' : List Str} {l : List Said}
    {is : List Str}, wsJoinsTalk nested srv db w js asked = (asked', l, .ok is) → SheetSaid nested srv db w asked js is l
  | [], asked, _, _, _, h => by
    cases h; exact .nil _
  | j :: js, asked, asked', l, is, h => by
    unfold wsJoinsTalk at h
    rw [bind_eq] at h
    rcases h1 : wsJoinTalk nested srv db w j asked with ⟨q, l1, e | i1⟩
    · rw [h1] at h; simp at h
    · rw [h1] at h
      simp only [bind_eq] at h
      rcases h2 : wsJoinsTalk nested srv db w js q with ⟨q', l2, e | i2⟩
      · rw [h2] at h; simp at h
      · rw [h2] at h
        simp only [pure_eq, List.append_nil, Prod.mk.injEq, Except.ok.injEq] at h
        obtain ⟨qs, e, hv, hsaid⟩ := wsJoinTalk_said hk h1
        subst e
        rw [← h.2.1, ← h.2.2]
        exact .cons _ _ _ _ _ _ _ _ hv hsaid (wsJoinsTalk_said hk h2)

/-! ## The reviewer -/

theorem startsWith_review {s : Str} : startsWith s c!"review_" = true ↔ ∃ rest, s = c!"review_" ++ rest := by
  unfold startsWith
  rw [List.isPrefixOf_iff_prefix]
  exact ⟨fun ⟨t, h⟩ => ⟨t, h.symm⟩, fun ⟨t, h⟩ => ⟨t, h.symm⟩⟩

theorem reviewItems_same (names : List Str) (i : Inputs) (run : Str → List Str → List Said × Except PyErr (List Str)) : ∀ (items : List TestItem) (recs : Dict (List Str)),
    (reviewItemsTalk names i run recs items).2 = (reviewItems names i (fun n a => (run n a).2) recs items).result
  | [], _ => rfl
  | t :: ts, recs => by
    unfold reviewItemsTalk reviewItems
    split
    · exact reviewItems_same names i run ts recs
    · split
      · cases callArgs i t with
        | none => exact reviewItems_same names i run ts recs
        | some args =>
          simp only
          rcases h : run t.name args with ⟨l, e | r⟩
          · simp
          · simp only
            exact reviewItems_same names i run ts _
      · exact reviewItems_same names i run ts recs

/-- What the reviewer says. -/
theorem reviewItems_said (names : List Str) (i : Inputs) (run : Str → List Said × Except PyErr (List Str)) : ∀ (items : List TestItem),
    (∀ t ∈ items, (∃ rest, t.name = c!"review_" ++ rest) → inputsOf t ≠ []) → ∀ recs : Dict (List Str),
    ReviewerSaid names i run items (reviewItemsTalk names i (fun n _ => run n) recs items).1
  | [], _, _ => .nil
  | t :: ts, hin, recs => by
    have ih := reviewItems_said names i run ts (fun t' ht' => hin t' (List.mem_cons_of_mem _ ht'))
    unfold reviewItemsTalk
    split
    · rename_i hc
      refine .other _ _ _ ?_ (ih recs)
      rintro ⟨-, h | h⟩
      · exact hc.1 h
      · exact hc.2 (by simpa using h)
    · rename_i hc
      have hsel : names = [] ∨ t.name ∈ names := by
        by_cases h : names = []
        · exact .inl h
        · by_cases h' : t.name ∈ names
          · exact .inr h'
          · exact absurd ⟨h, by simpa using h'⟩ hc
      split
      · rename_i hr
        have hr := startsWith_review.1 hr
        cases hcall : callArgs i t with
        | none =>
          have hna : ¬ ((c!"rtql" ∈ t.params → i.rtql = true) ∧ (c!"worksheet" ∈ t.params → i.worksheet = true)) := by
            rintro ⟨h1, h2⟩
            have := (callArgs_spec i t (inputsOf t)).2 ⟨h1, h2, rfl, hin t (by simp) hr⟩
            rw [hcall] at this; cases this
          have hskip : skipLine i t = [.out (c!"Skipping " ++ t.name ++ c!"(" ++ (t.params.intersperse c!", ").flatten ++ c!")")] := by
            unfold skipLine
            rw [if_pos, joinS_intersperse]
            by_cases h1 : c!"rtql" ∈ t.params → i.rtql = true
            · have h2 : ¬ (c!"worksheet" ∈ t.params → i.worksheet = true) := fun h => hna ⟨h1, h⟩
              simp only [Classical.not_imp] at h2
              exact .inr ⟨by simpa using h2.1, h2.2⟩
            · simp only [Classical.not_imp] at h1
              exact .inl ⟨by simpa using h1.1, h1.2⟩
          simp only [hskip, List.singleton_append]
          exact .skipped _ _ _ hr hsel (fun h => hna ⟨h.rtql, h.worksheet⟩) (ih recs)
        | some args =>
          obtain ⟨h1, h2, -, -⟩ := (callArgs_spec i t args).1 hcall
          have happ : Applicable names i t := ⟨hr, hsel, h1, h2⟩
          simp only
          rcases h : run t.name with ⟨l, e | r⟩
          · have := ReviewerSaid.raises (run := run) t ts e happ (by rw [h])
            rw [h] at this
            exact this
          · have := ReviewerSaid.called (run := run) t ts _ r happ (by rw [h]) (ih (if r ≠ [] then recs.set t.name r else recs))
            rw [h] at this
            exact this
      · rename_i hr
        exact .other _ _ _ (fun h => hr (startsWith_review.2 h.1)) (ih recs)

theorem theReviewer_same (r : ReviewEnv) (fs : FS) (db : Option Database) (ws host : Option Str) (cfg : Config) :
    (reviewerTalk r fs db ws host cfg).2 = theReviewer r fs db ws host cfg := by
  unfold reviewerTalk theReviewer
  rcases readWsFile r fs ws with e | w
  · rfl
  · cases db with
    | none => rfl
    | some db => exact reviewItems_same _ _ _ _ _

/-! ## review_model -/

open Talk in
/-- Without what it says review_model is the program of Cli.lean with the reviewer of dt/review. -/
theorem mute_review (env : Env) (r : ReviewEnv) (tests : List (TestItem × Str)) (dir : Str) (a : ReviewArgs) (w : World) :
    ((reviewTalk env r tests dir a w).1, (reviewTalk env r tests dir a w).2.2) = reviewMain env (theReviewer r (reviewTalk env r tests dir a w).1.disk.fs) a w := by
  have hpart : ∀ (db : Option Database) (host : Option Str) (w : World), (reviewPart r a db host w).1 = w ∧
      (reviewPart r a db host w).2.2 = (theReviewer r w.disk.fs db (argOf a.worksheetFile) host []).map .results := by
    intro db host w
    have := theReviewer_same r w.disk.fs db (argOf a.worksheetFile) host []
    unfold reviewPart
    rcases h : reviewerTalk r w.disk.fs db (argOf a.worksheetFile) host [] with ⟨l, e | res⟩
    · rw [h] at this; rw [← this]; exact ⟨rfl, rfl⟩
    · rw [h] at this; rw [← this]; exact ⟨rfl, rfl⟩
  unfold reviewTalk reviewMain
  cases hv : validReview w.disk a
  · simp
  · simp only [Bool.not_true, Bool.false_eq_true, if_false]
    cases hver : a.version
    · simp only [Bool.false_eq_true, if_false, Talk.bind_eq, Talk.say]
      have hshow : Talk.when a.showTests (Talk.sayAll (listTests tests)) w = (w, if a.showTests then listTests tests else [], .ok ()) := by
        cases a.showTests <;> rfl
      rw [hshow]
      simp only
      cases hts : given a.tsIp
      · simp only [Bool.false_eq_true, if_false]
        cases hf : given a.databaseFile
        · simp [Talk.pure_eq]
        · simp only [if_true, Talk.bind_eq, readDdlTalk]
          rcases parseFor w.disk.fs a.database defaultSchema a.databaseFile with e | db
          · rfl
          · simp only
            obtain ⟨h1, h2⟩ := hpart db none w
            rw [h1, h2]
      · simp only [if_true, Talk.bind_eq]
        have hm := congrFun (mute_readFromTs env (a.tsIp.getD []) a.database) w
        simp only [mute] at hm
        rcases hr : readFromTsTalk env (a.tsIp.getD []) a.database w with ⟨w1, l, e | db⟩
        · rw [hr] at hm
          simp only at hm
          rw [← hm]
        · rw [hr] at hm
          simp only at hm
          rw [← hm]
          simp only
          obtain ⟨h1, h2⟩ := hpart db (argOf a.tsIp) w1
          rw [h1, h2]
    · simp [Talk.bind_eq, Talk.say, Talk.pure_eq]

theorem onDisk_iff {d : Disk} {f : Str} : (d f).isSome = true ↔ OnDisk d f := by
  rw [Option.isSome_iff_exists]; rfl

/-- The mistakes in order. -/
theorem mistakes_spec (d : Disk) (a : ReviewArgs) : ∃ ms : List ReviewMistake, ms.Pairwise (fun x y => x.rank < y.rank) ∧ (∀ m, m ∈ ms ↔ Made d a m) ∧
    reviewMistakes d a = ms.map (fun m => .err m.line) ∧ (validReview d a = true ↔ ms = []) := by
  have hg : ∀ o : Option Str, given o = false ↔ ¬ Given o := fun o => by rw [← given_iff]; simp
  have hnd : ∀ f, (d f).isSome = false ↔ ¬ OnDisk d f := fun f => by rw [← onDisk_iff]; simp
  refine ⟨(if !a.showTests && !given a.database then [.noDatabase] else []) ++ (if !a.showTests && (!given a.databaseFile && !given a.tsIp) then [.noSource] else []) ++
    (if given a.databaseFile && given a.tsIp then [.twoSources] else []) ++
    (if given a.worksheetFile && !(d (a.worksheetFile.getD [])).isSome then [.noWorksheet (a.worksheetFile.getD [])] else []) ++
    (if given a.configFile && !(d (a.configFile.getD [])).isSome then [.noConfig (a.configFile.getD [])] else []), ?_, ?_, ?_, ?_⟩
  · generalize (!a.showTests && !given a.database) = b1
    generalize (!a.showTests && (!given a.databaseFile && !given a.tsIp)) = b2
    generalize (given a.databaseFile && given a.tsIp) = b3
    generalize (given a.worksheetFile && !(d (a.worksheetFile.getD [])).isSome) = b4
    generalize (given a.configFile && !(d (a.configFile.getD [])).isSome) = b5
    cases b1 <;> cases b2 <;> cases b3 <;> cases b4 <;> cases b5 <;> simp [ReviewMistake.rank]
  · have hw : ∀ f, a.worksheetFile = some f → f ≠ [] → given a.worksheetFile = true ∧ a.worksheetFile.getD [] = f := by
      intro f h h'; rw [h]; exact ⟨by simp [given, h'], rfl⟩
    have hc : ∀ f, a.configFile = some f → f ≠ [] → given a.configFile = true ∧ a.configFile.getD [] = f := by
      intro f h h'; rw [h]; exact ⟨by simp [given, h'], rfl⟩
    intro m
    simp only [List.mem_append]
    constructor
    · rintro ((((h | h) | h) | h) | h) <;> split at h <;> try (simp at h; done)
      all_goals
        rename_i hcond
        simp only [List.mem_singleton] at h
        subst h
        simp only [Bool.and_eq_true, Bool.not_eq_true', hg, hnd, given_iff] at hcond
      · exact .noDatabase hcond.1 hcond.2
      · exact .noSource hcond.1 hcond.2.1 hcond.2.2
      · exact .twoSources hcond.1 hcond.2
      · obtain ⟨⟨f, hf, hne⟩, h2⟩ := hcond
        rw [hf] at h2 ⊢
        exact .noWorksheet f hf hne h2
      · obtain ⟨⟨f, hf, hne⟩, h2⟩ := hcond
        rw [hf] at h2 ⊢
        exact .noConfig f hf hne h2
    · intro h
      cases h with
      | noDatabase h1 h2 => left; left; left; left; rw [if_pos (by simp [h1, (hg _).2 h2])]; simp
      | noSource h1 h2 h3 => left; left; left; right; rw [if_pos (by simp [h1, (hg _).2 h2, (hg _).2 h3])]; simp
      | twoSources h1 h2 => left; left; right; rw [if_pos (by simp [given_iff.2 h1, given_iff.2 h2])]; simp
      | noWorksheet f h1 h2 h3 =>
        left; right
        obtain ⟨e1, e2⟩ := hw f h1 h2
        rw [e1, e2, (hnd f).2 h3]; simp
      | noConfig f h1 h2 h3 =>
        right
        obtain ⟨e1, e2⟩ := hc f h1 h2
        rw [e1, e2, (hnd f).2 h3]; simp
  · unfold reviewMistakes
    generalize a.worksheetFile.getD [] = f
    generalize a.configFile.getD [] = g
    cases a.showTests <;> cases given a.database <;> cases given a.databaseFile <;> cases given a.tsIp <;> cases given a.worksheetFile <;> cases given a.configFile <;>
      cases (d f).isSome <;> cases (d g).isSome <;> simp [ReviewMistake.line]
  · have hb : ∀ (b : Bool) (m : ReviewMistake), ((if b then [m] else []) = []) ↔ b = false := by intro b m; cases b <;> simp
    simp only [List.append_eq_nil_iff, hb]
    unfold validReview
    generalize (d (a.worksheetFile.getD [])).isSome = x
    generalize (d (a.configFile.getD [])).isSome = y
    generalize given a.database = p
    generalize given a.databaseFile = q
    generalize given a.tsIp = r
    generalize given a.worksheetFile = s
    generalize given a.configFile = t
    generalize a.showTests = u
    revert x y p q r s t u
    decide

/-! ## The list of tests -/

theorem described_go : ∀ ls : List Str, Described ls (describeGo (ls.map strip))
  | [] => .nil
  | l :: ls => by
    rw [List.map_cons]
    unfold describeGo
    split
    · rename_i h
      exact .blank l ls _ (strip_nil_iff.1 h) (described_go ls)
    · rename_i h
      split
      · rename_i h'
        unfold startsWith at h'
        rw [List.isPrefixOf_iff_prefix] at h'
        obtain ⟨t, ht⟩ := h'
        exact .stop l t ls (padded_iff.2 ht)
      · rename_i h'
        refine .text l _ ls _ (padded_iff.2 rfl) h (fun t ht => h' ?_) (described_go ls)
        unfold startsWith
        rw [List.isPrefixOf_iff_prefix]
        exact ⟨t, ht.symm⟩

theorem described_unique : ∀ {ls a b : List Str}, Described ls a → Described ls b → a = b := by
  intro ls a b h
  induction h generalizing b with
  | nil => intro h'; cases h'; rfl
  | blank l ls ds hw _ ih =>
    intro h'
    cases h' with
    | blank _ _ _ _ h2 => exact ih h2
    | stop _ t _ hp => rw [padded_iff, strip_nil_iff.2 hw] at hp; cases hp
    | text _ core _ _ hp hne => rw [padded_iff, strip_nil_iff.2 hw] at hp; exact absurd hp hne
  | stop l t ls hp =>
    intro h'
    rw [padded_iff] at hp
    cases h' with
    | blank _ _ _ hw _ => rw [strip_nil_iff.2 hw] at hp; cases hp
    | stop _ t _ _ => rfl
    | text _ core _ _ hp' _ hn => rw [padded_iff] at hp'; exact absurd (hp'.trans hp.symm) (hn t)
  | text l core ls ds hp hne hn _ ih =>
    intro h'
    rw [padded_iff] at hp
    cases h' with
    | blank _ _ _ hw _ => rw [strip_nil_iff.2 hw] at hp; exact absurd hp hne
    | stop _ t _ hp' => rw [padded_iff] at hp'; exact absurd (hp.trans hp'.symm) (hn t)
    | text _ core' _ _ hp' _ _ h2 => rw [padded_iff] at hp'; rw [hp, hp', ih h2]

theorem testListed (p : TestItem × Str) :
    TestListed p (.out [] :: .out (p.1.name ++ c!"(" ++ joinS c!", " p.1.params ++ c!")" ++ c!":") :: (describe p.2).map (fun x => .out ('\t' :: x))) := by
  have := TestListed.mk p.1 p.2 (splitC '\n' p.2) _ (splitC_ne_nil _ _) (fun l hl => not_mem_splitC l hl) (by rw [← joinS_intersperse]; exact (joinS_splitC '\n' p.2).symm)
    (described_go (splitC '\n' p.2))
  simp only [List.append_assoc, List.cons_append, List.nil_append, joinS_intersperse, describe] at this ⊢
  exact this

theorem testDescriptions_eq (tests : List (TestItem × Str)) (hn : ((tests.map (·.1.name))).Nodup) (hp : ∀ p ∈ tests, '(' ∉ p.1.name) :
    testDescriptions tests = (tests.filter (fun p => startsWith p.1.name c!"review_")).map (fun p => (p.1.name ++ c!"(" ++ joinS c!", " p.1.params ++ c!")", describe p.2)) := by
  have hkey : ∀ {x y : Str} {u v : Str}, '(' ∉ x → '(' ∉ y → x ++ '(' :: u = y ++ '(' :: v → x = y := by
    intro x y u v hx hy h
    have := congrArg (splitC '(') h
    rw [splitC_cons hx, splitC_cons hy] at this
    exact (List.cons.inj this).1
  have fold : ∀ (ts : List (TestItem × Str)) (acc : Dict (List Str)), (∀ p ∈ ts, '(' ∉ p.1.name) → (ts.map (·.1.name)).Nodup →
      (∀ p ∈ ts, ∀ k ∈ acc.keys, ∃ n u, k = n ++ '(' :: u ∧ '(' ∉ n ∧ n ≠ p.1.name) →
      ts.foldl (fun d p => if startsWith p.1.name c!"review_" then Dict.set d (p.1.name ++ c!"(" ++ joinS c!", " p.1.params ++ c!")") (describe p.2) else d) acc =
        acc ++ (ts.filter (fun p => startsWith p.1.name c!"review_")).map (fun p => (p.1.name ++ c!"(" ++ joinS c!", " p.1.params ++ c!")", describe p.2)) := by
    intro ts
    induction ts with
    | nil => intro acc _ _ _; simp
    | cons p ts ih =>
      intro acc hp hn hacc
      rw [List.map_cons, List.nodup_cons] at hn
      rw [List.foldl_cons, List.filter_cons]
      split
      · have hnew : p.1.name ++ c!"(" ++ joinS c!", " p.1.params ++ c!")" ∉ Dict.keys acc := by
          intro hm
          obtain ⟨n, u, e, h1, h2⟩ := hacc p (by simp) _ hm
          simp only [List.append_assoc, List.cons_append, List.nil_append] at e
          exact h2 (hkey (hp p (by simp)) h1 e).symm
        rw [Dict.set_of_not_mem _ hnew, ih _ (fun q hq => hp q (List.mem_cons_of_mem _ hq)) hn.2]
        · simp
        · intro q hq k hk
          simp only [Dict.keys, List.map_append, List.mem_append, List.map_cons, List.map_nil, List.mem_singleton] at hk
          rcases hk with hk | rfl
          · exact hacc q (List.mem_cons_of_mem _ hq) k hk
          · refine ⟨p.1.name, joinS c!", " p.1.params ++ c!")", by simp, hp p (by simp), fun e => hn.1 ?_⟩
            rw [e]
            exact List.mem_map.2 ⟨q, hq, rfl⟩
      · exact ih acc (fun q hq => hp q (List.mem_cons_of_mem _ hq)) hn.2 (fun q hq => hacc q (List.mem_cons_of_mem _ hq))
  have := fold tests [] hp hn (by simp [Dict.keys])
  simpa [testDescriptions] using this

/-! ## Sections -/

/-- The lines of one review. -/
def sectionOf (name : Str) (issues : List Str) : List Said := if issues = [] then [] else .out (name ++ c!":") :: issues.map (fun x => .out ('\t' :: x))

theorem section_of (name : Str) (issues : List Str) : Section name issues (sectionOf name issues) := by
  unfold sectionOf
  split
  · rename_i h; rw [h]; exact .none name
  · rename_i h; exact .some name issues h

theorem section_unique {name : Str} {issues : List Str} {l : List Said} (h : Section name issues l) : l = sectionOf name issues := by
  cases h with
  | none => rfl
  | some _ hne => simp [sectionOf, hne]

end Verif
