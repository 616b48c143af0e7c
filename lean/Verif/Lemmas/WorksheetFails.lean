import Verif.Spec.WorksheetFails
import Verif.Lemmas.Worksheet
/-
Lemmas on documents that do not describe a worksheet.
-/

namespace Verif
open Spec

theorem item_error_iff (v : Yaml) (k : Str) (e : PyErr) : v.item k = .error e ↔ Missing v k e := by
  constructor
  · intro h
    cases v with
    | map m =>
      have : e = .key := by
        unfold Yaml.item at h
        dsimp only at h
        split at h <;> cases h
        rfl
      subst this
      exact .key ((item_key_iff _ _).1 h)
    | _ => cases h; exact .type (fun m => by simp)
  · intro h
    cases h with
    | key h => exact (item_key_iff _ _).2 h
    | type h =>
      cases v with
      | map m => exact absurd rfl (h m)
      | _ => rfl

theorem getD_error_iff (v : Yaml) (k : Str) (d : Yaml) (e : PyErr) : v.getD k d = .error e ↔ NoMap v ∧ e = .attribute := by
  cases v with
  | map m => simp [Yaml.getD, NoMap]
  | _ => simp [Yaml.getD, NoMap, eq_comm]

theorem iter_error_iff (v : Yaml) (e : PyErr) : v.iter = .error e ↔ NoLoop v ∧ e = .type := by
  constructor
  · intro h
    refine ⟨fun l hl => ?_, ?_⟩
    · rw [(iter_ok_iff _ _).2 hl] at h; cases h
    · cases v <;> cases h <;> rfl
  · rintro ⟨h, rfl⟩
    cases hv : v.iter with
    | ok l => exact absurd ((iter_ok_iff _ _).1 hv) (h l)
    | error e => cases v <;> cases hv <;> rfl

theorem items_error_iff (v : Yaml) (e : PyErr) : v.items = .error e ↔ NoMap v ∧ e = .attribute := by
  cases v with
  | map m => simp [Yaml.items, NoMap]
  | _ => simp [Yaml.items, NoMap, eq_comm]

theorem HasKey.map {v : Yaml} {k : Str} {x : Yaml} (h : HasKey v k x) : ∃ m, v = .map m := by
  obtain ⟨a, b, e, -⟩ := h
  exact ⟨_, e⟩

theorem NoMap.not_hasKey {v : Yaml} {k : Str} {x : Yaml} (h : NoMap v) (hk : HasKey v k x) : False := by
  obtain ⟨m, e⟩ := HasKey.map hk
  exact h m e

theorem hasKey_or {v : Yaml} {k : Str} (h : ∃ m, v = .map m) : (∃ x, HasKey v k x) ∨ NoKey v k := by
  cases hi : v.item k with
  | ok x => exact .inl ⟨x, (item_ok_iff _ _ _).1 hi⟩
  | error e =>
    cases (item_error_iff _ _ _).1 hi with
    | key h => exact .inr h
    | type h' => obtain ⟨m, rfl⟩ := h; exact absurd rfl (h' m)

theorem keyOr_exists {v : Yaml} {k : Str} (d : Yaml) (h : ∃ m, v = .map m) : ∃ x, KeyOr v k d x := by
  rcases hasKey_or (k := k) h with ⟨x, hx⟩ | hx
  · exact ⟨x, .inl hx⟩
  · exact ⟨d, .inr ⟨hx, rfl⟩⟩

theorem noKey_map {v : Yaml} {k : Str} (h : NoKey v k) : ∃ m, v = .map m := by
  obtain ⟨m, e, -⟩ := h
  exact ⟨m, e⟩

theorem Spec.HasKey.unique {v : Yaml} {k : Str} {x y : Yaml} (h : HasKey v k x) (h' : HasKey v k y) : x = y := by
  rw [← item_ok_iff] at h h'
  rw [h] at h'
  exact Except.ok.inj h'

theorem Spec.Elements.unique {v : Yaml} {l l' : List Yaml} (h : Elements v l) (h' : Elements v l') : l = l' := by
  rw [← iter_ok_iff] at h h'
  rw [h] at h'
  exact Except.ok.inj h'

theorem Spec.KeyOr.unique {v : Yaml} {k : Str} {d x y : Yaml} (h : KeyOr v k d x) (h' : KeyOr v k d y) : x = y := by
  rw [← getD_ok_iff] at h h'
  rw [h] at h'
  exact Except.ok.inj h'

theorem mkWsTable_error_iff (n ty : Yaml) (e : PyErr) : mkWsTable n ty = .error e ↔
    (Falsy n ∨ ty ∉ [.str c!"table", .str c!"alias", .str c!"fqn"]) ∧ e = .assertion := by
  constructor
  · intro h
    refine ⟨?_, ?_⟩
    · by_contra hc
      obtain ⟨h1, h2⟩ := not_or.1 hc
      have h3 := not_not.1 h2
      simp only [List.mem_cons, List.not_mem_nil, or_false] at h3
      rw [(mkWsTable_ok_iff n ty _).2 ⟨rfl, h1, h3⟩] at h
      cases h
    · unfold mkWsTable at h
      split at h
      · cases h; rfl
      · split at h <;> cases h
        rfl
  · rintro ⟨h, rfl⟩
    cases hm : mkWsTable n ty with
    | ok t =>
      obtain ⟨-, h1, h2⟩ := (mkWsTable_ok_iff _ _ _).1 hm
      rcases h with h | h
      · exact absurd h h1
      · exact absurd (by simpa using h2) h
    | error e =>
      unfold mkWsTable at hm
      split at hm
      · exact hm.symm
      · split at hm
        · exact hm.symm
        · cases hm

theorem mkWsFormula_error_iff (n x i : Yaml) (e : PyErr) : mkWsFormula n x i = .error e ↔ (Falsy n ∨ Falsy x) ∧ e = .assertion := by
  have t : ∀ v : Yaml, v.truthy = false ↔ Falsy v := by
    intro v
    rw [← Bool.not_eq_true, truthy_iff, not_not]
  unfold mkWsFormula
  rw [← t n, ← t x]
  cases h1 : n.truthy <;> cases h2 : x.truthy <;> simp [eq_comm]

theorem mkWsColumn_error_iff (n i : Yaml) (p : List (Str × Yaml)) (b : Bool) (e : PyErr) : mkWsColumn n i p b = .error e ↔ Falsy n ∧ e = .assertion := by
  have t : n.truthy = false ↔ Falsy n := by rw [← Bool.not_eq_true, truthy_iff, not_not]
  unfold mkWsColumn
  rw [← t]
  cases h1 : n.truthy <;> simp [eq_comm]

theorem readWsTable_error_iff (w : Worksheet) (x : Yaml) (e : PyErr) : readWsTable w x = .error e ↔ TableWrong x e := by
  unfold readWsTable
  simp only [bind_error_iff, item_error_iff, item_ok_iff, getD_error_iff, getD_ok_iff, mkWsTable_error_iff]
  constructor
  · rintro (h | ⟨n, hn, h | ⟨t, ht, h | ⟨_, _, h⟩⟩⟩)
    · exact .name h
    · exact (NoMap.not_hasKey h.1 hn).elim
    · obtain ⟨h, rfl⟩ := h; exact .value hn ht h
    · cases h
  · intro h
    cases h with
    | name h => exact .inl h
    | value hn ht h => exact .inr ⟨_, hn, .inr ⟨_, ht, .inl ⟨h, rfl⟩⟩⟩

theorem readWsJoin_error_iff (w : Worksheet) (x : Yaml) (e : PyErr) : readWsJoin w x = .error e ↔ JoinWrong x e := by
  unfold readWsJoin
  simp only [bind_error_iff, item_error_iff, item_ok_iff]
  constructor
  · rintro (h | ⟨_, _, h | ⟨_, _, h | ⟨_, _, h | ⟨_, _, h | ⟨_, _, h⟩⟩⟩⟩⟩)
    · exact .lacks (by simp) h
    · exact .lacks (by simp) h
    · exact .lacks (by simp) h
    · exact .lacks (by simp) h
    · exact .lacks (by simp) h
    · cases h
  · intro h
    cases h with
    | lacks hk h =>
      cases h with
      | type h => exact .inl (.type h)
      | key h =>
        have hm := noKey_map h
        -- the first key that is missing
        rcases hasKey_or (k := c!"name") hm with ⟨a, ha⟩ | ha
        swap; · exact .inl (.key ha)
        refine .inr ⟨a, ha, ?_⟩
        rcases hasKey_or (k := c!"source") hm with ⟨b, hb⟩ | hb
        swap; · exact .inl (.key hb)
        refine .inr ⟨b, hb, ?_⟩
        rcases hasKey_or (k := c!"destination") hm with ⟨c, hc⟩ | hc
        swap; · exact .inl (.key hc)
        refine .inr ⟨c, hc, ?_⟩
        rcases hasKey_or (k := c!"type") hm with ⟨d, hd⟩ | hd
        swap; · exact .inl (.key hd)
        refine .inr ⟨d, hd, ?_⟩
        rcases hasKey_or (k := c!"is_one_to_one") hm with ⟨f, hf⟩ | hf
        swap; · exact .inl (.key hf)
        have no : ∀ {k y}, NoKey x k → HasKey x k y → False := by
          intro k y h1 h2
          rw [← item_key_iff] at h1
          rw [← item_ok_iff, h1] at h2
          cases h2
        simp only [List.mem_cons, List.not_mem_nil, or_false] at hk
        rcases hk with rfl | rfl | rfl | rfl | rfl
        · exact (no h ha).elim
        · exact (no h hb).elim
        · exact (no h hc).elim
        · exact (no h hd).elim
        · exact (no h hf).elim

theorem readJoinPath_error_iff (acc : List Yaml) (x : Yaml) (e : PyErr) : readJoinPath acc x = .error e ↔ StepWrong x e := by
  unfold readJoinPath
  rw [bind_error_iff]
  simp only [getD_error_iff, getD_ok_iff]
  constructor
  · rintro (⟨h, rfl⟩ | ⟨v, hv, h⟩)
    · exact .kind h
    · split at h
      · rename_i ht
        rw [bind_error_iff] at h
        rcases h with h | ⟨_, _, h⟩
        · obtain ⟨hl, rfl⟩ := (iter_error_iff _ _).1 h
          rw [truthy_iff] at ht
          rcases hv with hv | ⟨_, rfl⟩
          · exact .joins hv ht hl
          · exact absurd .null ht
        · cases h
      · cases h
  · intro h
    cases h with
    | kind h => exact .inl ⟨h, rfl⟩
    | joins hv ht h =>
      refine .inr ⟨_, .inl hv, ?_⟩
      rw [if_pos ((truthy_iff _).2 ht), (iter_error_iff _ _).2 ⟨h, rfl⟩]
      rfl

/-- A loop that ends at the first entry that raises. -/
theorem foldlM_wrong {σ α : Type} {f : σ → α → Except PyErr σ} {good : α → Prop} {wrong : α → PyErr → Prop}
    (hg : ∀ w x, good x ↔ ∃ w', f w x = .ok w') (hw : ∀ w x e, f w x = .error e ↔ wrong x e) (l : List α) (w : σ) (e : PyErr) :
    l.foldlM f w = .error e ↔ ∃ pre x post, l = pre ++ x :: post ∧ (∀ y ∈ pre, good y) ∧ wrong x e := by
  induction l generalizing w with
  | nil =>
    constructor
    · intro h; cases h
    · rintro ⟨pre, x, post, h, -⟩; simp at h
  | cons a l ih =>
    rw [List.foldlM_cons, bind_error_iff]
    constructor
    · rintro (h | ⟨w', h1, h2⟩)
      · exact ⟨[], a, l, rfl, by simp, (hw _ _ _).1 h⟩
      · obtain ⟨pre, x, post, rfl, hp, hx⟩ := (ih _).1 h2
        refine ⟨a :: pre, x, post, rfl, ?_, hx⟩
        intro y hy
        rcases List.mem_cons.1 hy with rfl | hy
        · exact (hg w _).2 ⟨_, h1⟩
        · exact hp y hy
    · rintro ⟨pre, x, post, h, hp, hx⟩
      cases pre with
      | nil => cases h; exact .inl ((hw _ _ _).2 hx)
      | cons b pre =>
        cases h
        obtain ⟨w', h1⟩ := (hg w a).1 (hp a (by simp))
        exact .inr ⟨w', h1, (ih _).2 ⟨pre, x, post, rfl, fun y hy => hp y (by simp [hy]), hx⟩⟩

theorem good_of_ok {σ β : Type} {f : σ → Yaml → Except PyErr σ} {add : σ → β → σ} {R : Yaml → β → Prop}
    (h : ∀ w e w', f w e = .ok w' ↔ ∃ x, R e x ∧ w' = add w x) (w : σ) (x : Yaml) : (∃ y, R x y) ↔ ∃ w', f w x = .ok w' := by
  constructor
  · rintro ⟨y, hy⟩; exact ⟨_, (h _ _ _).2 ⟨y, hy, rfl⟩⟩
  · rintro ⟨w', hw⟩
    obtain ⟨y, hy, -⟩ := (h _ _ _).1 hw
    exact ⟨y, hy⟩

theorem forall₂_exists {α β : Type} {R : α → β → Prop} {l : List α} : (∃ xs, List.Forall₂ R l xs) ↔ ∀ x ∈ l, ∃ y, R x y := by
  induction l with
  | nil => exact ⟨by simp, fun _ => ⟨[], .nil⟩⟩
  | cons a l ih =>
    constructor
    · rintro ⟨xs, h⟩
      cases h with
      | cons h h' =>
        intro x hx
        rcases List.mem_cons.1 hx with rfl | hx
        · exact ⟨_, h⟩
        · exact ih.1 ⟨_, h'⟩ x hx
    · intro h
      obtain ⟨y, hy⟩ := h a (by simp)
      obtain ⟨ys, hys⟩ := ih.2 (fun x hx => h x (by simp [hx]))
      exact ⟨y :: ys, .cons hy hys⟩

theorem readWsPath_error_iff (w : Worksheet) (x : Yaml) (e : PyErr) : readWsPath w x = .error e ↔ PathWrong x e := by
  unfold readWsPath
  simp only [bind_error_iff, item_error_iff, item_ok_iff, iter_error_iff, iter_ok_iff,
    foldlM_wrong (f := readJoinPath) (good := fun x => ∃ l, StepEntry x l) (wrong := StepWrong) (good_of_ok (add := fun a b => a ++ b) readJoinPath_ok_iff) readJoinPath_error_iff,
    foldlM_add (f := readJoinPath) (add := fun a b => a ++ b) (R := StepEntry) readJoinPath_ok_iff]
  constructor
  · rintro (h | ⟨v, hv, ⟨h, rfl⟩ | ⟨es, he, h | ⟨js, ⟨xs, hxs, rfl⟩, h | ⟨i, hi, h | ⟨_, _, h⟩⟩⟩⟩⟩)
    · exact .lacks h
    · exact .loop hv h
    · exact .step hv he h
    · cases h with
      | key h => exact .value (k := c!"id") hv he (forall₂_exists.1 ⟨_, hxs⟩) (by simp) h
      | type h => exact (NoMap.not_hasKey h hv).elim
    · cases h with
      | key h => exact .value (k := c!"table") hv he (forall₂_exists.1 ⟨_, hxs⟩) (by simp) h
      | type h => exact (NoMap.not_hasKey h hv).elim
    · cases h
  · intro h
    cases h with
    | lacks h => exact .inl h
    | loop hv h => exact .inr ⟨_, hv, .inl ⟨h, rfl⟩⟩
    | step hv he h => exact .inr ⟨_, hv, .inr ⟨_, he, .inl h⟩⟩
    | value hv he hg hk h =>
      obtain ⟨xs, hxs⟩ := forall₂_exists.2 hg
      refine .inr ⟨_, hv, .inr ⟨_, he, .inr ⟨_, ⟨xs, hxs, rfl⟩, ?_⟩⟩⟩
      rcases hasKey_or (k := c!"id") (HasKey.map hv) with ⟨i, hi⟩ | hi
      · refine .inr ⟨i, hi, .inl (.key ?_)⟩
        simp only [List.mem_cons, List.not_mem_nil, or_false] at hk
        rcases hk with rfl | rfl
        · rw [← item_key_iff] at h
          rw [← item_ok_iff, h] at hi
          cases hi
        · exact h
      · exact .inl (.key hi)

theorem readWsFormula_error_iff (w : Worksheet) (x : Yaml) (e : PyErr) : (readWsFormula w x = .error e ∧ e ≠ .key) ↔ FormulaWrong x e := by
  unfold readWsFormula
  simp only [bind_error_iff, item_error_iff, item_ok_iff, getD_error_iff, getD_ok_iff, mkWsFormula_error_iff]
  constructor
  · rintro ⟨h | ⟨n, hn, h | ⟨y, hy, h | ⟨i, hi, h | ⟨_, _, h⟩⟩⟩⟩, hne⟩
    · cases h with
      | key => exact absurd rfl hne
      | type h => exact .kind h
    · cases h with
      | key => exact absurd rfl hne
      | type h => exact .kind h
    · exact (NoMap.not_hasKey h.1 hn).elim
    · obtain ⟨h, rfl⟩ := h; exact .value hn hy h
    · cases h
  · intro h
    cases h with
    | kind h => exact ⟨.inl (.type h), by decide⟩
    | value hn hy h =>
      obtain ⟨i, hi⟩ := keyOr_exists (k := c!"id") .null (HasKey.map hn)
      exact ⟨.inr ⟨_, hn, .inr ⟨_, hy, .inr ⟨i, hi, .inl ⟨h, rfl⟩⟩⟩⟩, by decide⟩

theorem readFormulas_error_iff (w : Worksheet) (l : List Yaml) (e : PyErr) :
    readFormulas w l = .error e ↔ FirstWrong (fun x => ∃ f, FormulaEntry x f) FormulaWrong l e := by
  induction l generalizing w with
  | nil =>
    constructor
    · intro h; cases h
    · rintro ⟨pre, x, post, h, -⟩; simp at h
  | cons a l ih =>
    rw [readFormulas]
    constructor
    · intro h
      split at h
      · rename_i w' h1
        obtain ⟨pre, x, post, rfl, hp, hx⟩ := (ih _).1 h
        refine ⟨a :: pre, x, post, rfl, ?_, hx⟩
        intro y hy
        rcases List.mem_cons.1 hy with rfl | hy
        · obtain ⟨f, hf, -⟩ := (readWsFormula_ok_iff _ _ _).1 h1
          exact ⟨f, hf⟩
        · exact hp y hy
      · cases h
      · rename_i e' hne h1
        cases h
        exact ⟨[], a, l, rfl, by simp, (readWsFormula_error_iff w _ _).1 ⟨h1, hne⟩⟩
    · rintro ⟨pre, x, post, h, hp, hx⟩
      cases pre with
      | nil =>
        cases h
        obtain ⟨h1, h2⟩ := (readWsFormula_error_iff w _ _).2 hx
        rw [h1]
        cases e <;> first | rfl | exact absurd rfl h2
      | cons b pre =>
        cases h
        obtain ⟨f, hf⟩ := hp a (by simp)
        rw [(readWsFormula_ok_iff _ _ _).2 ⟨f, hf, rfl⟩]
        exact (ih _).2 ⟨pre, x, post, rfl, fun y hy => hp y (by simp [hy]), hx⟩

theorem readFormulasOf_error_iff (w : Worksheet) {doc : Yaml} (hm : ∃ m, doc = .map m) (e : PyErr) : readFormulasOf w doc = .error e ↔ FormulasWrong doc e := by
  unfold readFormulasOf
  rcases hasKey_or (k := c!"formulas") hm with ⟨v, hv⟩ | hn
  · rw [(item_ok_iff _ _ _).2 hv]
    dsimp only
    cases hi : v.iter with
    | error e' =>
      obtain ⟨h, rfl⟩ := (iter_error_iff _ _).1 hi
      constructor
      · intro h'; cases h'; exact .loop hv h
      · intro h'
        cases h' with
        | loop => rfl
        | entry hv' he _ => rw [hv'.unique hv] at he; exact absurd he (h _)
    | ok l =>
      rw [iter_ok_iff] at hi
      dsimp only
      rw [readFormulas_error_iff]
      constructor
      · intro h; exact .entry hv hi h
      · intro h
        cases h with
        | loop hv' h => rw [hv'.unique hv] at h; exact absurd hi (h _)
        | entry hv' he h =>
          rw [hv'.unique hv] at he
          rwa [he.unique hi] at h
  · have e1 := (item_key_iff _ _).2 hn
    rw [e1]
    constructor
    · intro h; cases h
    · intro h
      cases h with
      | loop hv _ => rw [← item_ok_iff, e1] at hv; cases hv
      | entry hv _ _ => rw [← item_ok_iff, e1] at hv; cases hv

theorem readWsColumn_error_iff (w : Worksheet) (x : Yaml) (e : PyErr) : readWsColumn w x = .error e ↔ ColumnWrong x e := by
  unfold readWsColumn
  simp only [bind_error_iff, item_error_iff, item_ok_iff, getD_error_iff, getD_ok_iff, items_error_iff, items_ok_iff, mkWsColumn_error_iff]
  constructor
  · rintro (h | ⟨p, hp, ⟨h, rfl⟩ | ⟨m, rfl, h | ⟨c, hc, h | ⟨f, hf, h | ⟨n, hn, h | ⟨_, _, h⟩⟩⟩⟩⟩⟩)
    · exact .lacks h
    · exact .kind hp h
    · exact (NoMap.not_hasKey h.1 hp).elim
    · exact (NoMap.not_hasKey h.1 hp).elim
    · cases h with
      | key h => exact .name hp h
      | type h => exact (NoMap.not_hasKey h hp).elim
    · obtain ⟨h, rfl⟩ := h; exact .value hp hn h
    · cases h
  · intro h
    cases h with
    | lacks h => exact .inl h
    | kind hp h => exact .inr ⟨_, hp, .inl ⟨h, rfl⟩⟩
    | name hp h =>
      obtain ⟨c, hc⟩ := keyOr_exists (k := c!"column_id") .null (HasKey.map hp)
      obtain ⟨f, hf⟩ := keyOr_exists (k := c!"formula_id") .null (HasKey.map hp)
      exact .inr ⟨_, hp, .inr ⟨_, rfl, .inr ⟨c, hc, .inr ⟨f, hf, .inl (.key h)⟩⟩⟩⟩
    | value hp hn h =>
      obtain ⟨c, hc⟩ := keyOr_exists (k := c!"column_id") .null (HasKey.map hp)
      obtain ⟨f, hf⟩ := keyOr_exists (k := c!"formula_id") .null (HasKey.map hp)
      exact .inr ⟨_, hp, .inr ⟨_, rfl, .inr ⟨c, hc, .inr ⟨f, hf, .inr ⟨_, hn, .inl ⟨h, rfl⟩⟩⟩⟩⟩⟩

theorem pairStep_error_iff (d : List (Str × Yaml)) (x : Yaml) (e : PyErr) : pairStep d x = .error e ↔ PairWrong x e := by
  unfold pairStep
  constructor
  · intro h
    split at h
    · rename_i he
      cases h
      exact .loop ((iter_error_iff _ _).1 he).1
    · rename_i k v he
      rw [iter_ok_iff] at he
      cases k <;> cases h
      · exact .null he
      · exact .other he
      · exact .list he
      · exact .mapping he
    · rename_i l hl he
      cases h
      refine .length ((iter_ok_iff _ _).1 he) fun hlen => ?_
      obtain ⟨k, v, rfl⟩ := List.length_eq_two.1 hlen
      exact hl k v rfl
  · intro h
    cases h with
    | loop h => rw [(iter_error_iff x .type).2 ⟨h, rfl⟩]
    | length h hl =>
      rw [(iter_ok_iff _ _).2 h]
      split
      · rename_i h; cases h
      · rename_i h; cases h; exact absurd rfl hl
      · rfl
    | list h => rw [(iter_ok_iff _ _).2 h]
    | mapping h => rw [(iter_ok_iff _ _).2 h]
    | null h => rw [(iter_ok_iff _ _).2 h]
    | other h => rw [(iter_ok_iff _ _).2 h]

theorem toDict_error_iff (p : Yaml) (e : PyErr) : p.toDict = .error e ↔ PropertiesWrong p e := by
  have main : (p.iter >>= fun l => l.foldlM pairStep []) = .error e ↔ (NoLoop p ∧ e = .type) ∨ ∃ es, Elements p es ∧ FirstWrong (fun x => ∃ y, PairEntry x y) PairWrong es e := by
    simp only [bind_error_iff, iter_ok_iff, iter_error_iff, FirstWrong,
      foldlM_wrong (good := fun x => ∃ y, PairEntry x y) (good_of_ok (add := fun d p => Dict.set d p.1 p.2) pairStep_ok_iff) pairStep_error_iff]
  have other : ∀ (h : NoMap p), (p.iter >>= fun l => l.foldlM pairStep []) = .error e ↔ PropertiesWrong p e := by
    intro hm
    rw [main]
    constructor
    · rintro (⟨h, rfl⟩ | ⟨es, he, h⟩)
      · exact .loop h
      · exact .pair hm he h
    · intro h
      cases h with
      | loop h => exact .inl ⟨h, rfl⟩
      | pair _ he h => exact .inr ⟨_, he, h⟩
  cases p with
  | map m =>
    simp only [Yaml.toDict]
    constructor
    · intro h; cases h
    · intro h
      cases h with
      | loop h => exact absurd (.keys m) (h _)
      | pair h => exact absurd rfl (h m)
  | _ => exact other fun m h => by cases h

theorem mkWorksheet_error_iff (n d p : Yaml) (e : PyErr) : mkWorksheet n d p = .error e ↔
    (Falsy n ∧ e = .assertion) ∨ (¬ Falsy n ∧ ¬ Falsy p ∧ PropertiesWrong p e) := by
  rw [← toDict_error_iff, ← truthy_iff, ← truthy_iff]
  have t : Falsy n ↔ n.truthy = false := by
    rw [← Bool.not_eq_true, truthy_iff, not_not]
  rw [t]
  unfold mkWorksheet
  cases h1 : n.truthy with
  | false =>
    constructor
    · intro h
      cases h
      exact .inl ⟨rfl, rfl⟩
    · rintro (⟨-, rfl⟩ | ⟨h, -⟩)
      · rfl
      · cases h
  | true =>
    cases h2 : p.truthy with
    | false => simp
    | true =>
      cases p.toDict <;> simp

theorem head_wrong_iff (doc : Yaml) (e : PyErr) :
    (Missing doc c!"name" e ∨ ∃ n, HasKey doc c!"name" n ∧ ((NoMap doc ∧ e = .attribute) ∨ ∃ d, KeyOr doc c!"description" .null d ∧ (Missing doc c!"properties" e ∨
      ∃ p, HasKey doc c!"properties" p ∧ mkWorksheet n d p = .error e))) ↔ HeadWrong doc e := by
  simp only [mkWorksheet_error_iff]
  constructor
  · rintro (h | ⟨n, hn, ⟨h, rfl⟩ | ⟨d, hd, h | ⟨p, hp, ⟨h, rfl⟩ | ⟨h1, h2, h3⟩⟩⟩⟩)
    · exact .lacks (by simp) h
    · exact (NoMap.not_hasKey h hn).elim
    · exact .lacks (by simp) h
    · exact .name hn hp h
    · exact .properties hn hp h1 h2 h3
  · intro h
    cases h with
    | lacks hk h =>
      cases h with
      | type h => exact .inl (.type h)
      | key h =>
        have hm := noKey_map h
        rcases hasKey_or (k := c!"name") hm with ⟨n, hn⟩ | hn
        · obtain ⟨d, hd⟩ := keyOr_exists (k := c!"description") .null hm
          refine .inr ⟨n, hn, .inr ⟨d, hd, .inl (.key ?_)⟩⟩
          simp only [List.mem_cons, List.not_mem_nil, or_false] at hk
          rcases hk with rfl | rfl
          · rw [← item_key_iff] at h
            rw [← item_ok_iff, h] at hn
            cases hn
          · exact h
        · exact .inl (.key hn)
    | name hn hp h =>
      obtain ⟨d, hd⟩ := keyOr_exists (k := c!"description") .null (HasKey.map hn)
      exact .inr ⟨_, hn, .inr ⟨d, hd, .inr ⟨_, hp, .inl ⟨h, rfl⟩⟩⟩⟩
    | properties hn hp h1 h2 h3 =>
      obtain ⟨d, hd⟩ := keyOr_exists (k := c!"description") .null (HasKey.map hn)
      exact .inr ⟨_, hn, .inr ⟨d, hd, .inr ⟨_, hp, .inr ⟨h1, h2, h3⟩⟩⟩⟩

/-- A list of the worksheet: the part of the code that gets it, loops and raises. -/
theorem list_error_iff {σ β : Type} {f : σ → Yaml → Except PyErr σ} {add : σ → β → σ} {R : Yaml → β → Prop} {wrong : Yaml → PyErr → Prop}
    (h : ∀ w e w', f w e = .ok w' ↔ ∃ x, R e x ∧ w' = add w x) (hw : ∀ w x e, f w x = .error e ↔ wrong x e)
    {doc : Yaml} (hm : ∃ m, doc = .map m) (k : Str) (w : σ) (e : PyErr) :
    (Missing doc k e ∨ ∃ v, HasKey doc k v ∧ ((NoLoop v ∧ e = .type) ∨ ∃ l, Elements v l ∧ l.foldlM f w = .error e)) ↔
      ListWrong doc k (fun x => ∃ y, R x y) wrong e := by
  simp only [foldlM_wrong (good := fun x => ∃ y, R x y) (good_of_ok h) hw]
  constructor
  · rintro (h | ⟨v, hv, ⟨h, rfl⟩ | ⟨l, hl, h⟩⟩)
    · cases h with
      | key h => exact .lacks h
      | type h => obtain ⟨m, e⟩ := hm; exact absurd e (h m)
    · exact .loop hv h
    · exact .entry hv hl h
  · intro h
    cases h with
    | lacks h => exact .inl (.key h)
    | loop hv h => exact .inr ⟨_, hv, .inl ⟨h, rfl⟩⟩
    | entry hv hl h => exact .inr ⟨_, hv, .inr ⟨_, hl, h⟩⟩

/-- The head of a worksheet that can be made. -/
theorem head_entry {doc : Yaml} {w : Worksheet} : HeadEntry doc w ↔ ∃ n d p, HasKey doc c!"name" n ∧ KeyOr doc c!"description" .null d ∧ HasKey doc c!"properties" p ∧
    mkWorksheet n d p = .ok { name := w.name, description := w.description, properties := w.properties } := by
  unfold HeadEntry
  simp only [mkWorksheet_ok_iff]
  constructor
  · rintro ⟨hn, hne, ⟨d, hd, hdesc⟩, p, hp, hprops⟩
    exact ⟨_, d, p, hn, hd, hp, hne, _, hprops, _, hdesc, rfl⟩
  · rintro ⟨n, d, p, hn, hd, hp, hne, props, hprops, desc, hdesc, e⟩
    simp only [Worksheet.mk.injEq, and_true] at e
    obtain ⟨e1, e2, e3⟩ := e
    rw [e1, e2, e3]
    exact ⟨hn, hne, ⟨d, hd, hdesc⟩, p, hp, hprops⟩

/-- Exactly when a document is not read, and with what exception. -/
theorem createWorksheet_error_iff (document : Yaml) (e : PyErr) : createWorksheet document = .error e ↔ DocumentWrong document e := by
  unfold createWorksheet
  simp only [bind_error_iff, item_error_iff, item_ok_iff, getD_error_iff, getD_ok_iff, iter_error_iff, iter_ok_iff,
    foldlM_add readWsTable_ok_iff, foldlM_add readWsJoin_ok_iff, foldlM_add readWsPath_ok_iff, readFormulasOf_ok_iff,
    foldl_addTable, foldl_addJoin, foldl_addPath, foldl_addFormula]
  constructor
  · rintro (h | ⟨doc, h0, h⟩)
    · exact .lacks h
    refine .sheet h0 ?_
    rcases h with h | ⟨n, hn, h⟩
    · exact .head ((head_wrong_iff _ _).1 (.inl h))
    have hm := HasKey.map hn
    rcases h with h | ⟨d, hd, h⟩
    · exact .head ((head_wrong_iff _ _).1 (.inr ⟨n, hn, .inl h⟩))
    rcases h with h | ⟨p, hp, h⟩
    · exact .head ((head_wrong_iff _ _).1 (.inr ⟨n, hn, .inr ⟨d, hd, .inl h⟩⟩))
    rcases h with h | ⟨w0, hw0, h⟩
    · exact .head ((head_wrong_iff _ _).1 (.inr ⟨n, hn, .inr ⟨d, hd, .inr ⟨p, hp, h⟩⟩⟩))
    obtain ⟨props, desc, rfl⟩ : ∃ props desc, w0 = { name := n, description := desc, properties := props } := by
      obtain ⟨-, props, -, desc, -, e⟩ := (mkWorksheet_ok_iff _ _ _ _).1 hw0
      exact ⟨props, desc, e⟩
    have hh : ∀ (ts : List WsTable) (js : List WsJoin) (ps : List WsPath) (fs : List WsFormula) (cs : List WsColumn),
        HeadEntry doc { name := n, description := desc, properties := props, tables := ts, joins := js, paths := ps, formulas := fs, columns := cs } :=
      fun ts js ps fs cs => head_entry.2 ⟨n, d, p, hn, hd, hp, hw0⟩
    have T := fun w => (list_error_iff readWsTable_ok_iff readWsTable_error_iff hm c!"tables" w e).1
    rcases h with h | ⟨v1, hv1, h | ⟨l1, hl1, h | ⟨w1, ⟨ts, hts, rfl⟩, h⟩⟩⟩
    · exact .tables (hh [] [] [] [] []) (T ⟨.null, .null, [], [], [], [], [], []⟩ (.inl h))
    · exact .tables (hh [] [] [] [] []) (T ⟨.null, .null, [], [], [], [], [], []⟩ (.inr ⟨v1, hv1, .inl h⟩))
    · exact .tables (hh [] [] [] [] []) (T _ (.inr ⟨v1, hv1, .inr ⟨l1, hl1, h⟩⟩))
    have ht : EntriesOf doc c!"tables" TableEntry ts := ⟨v1, l1, hv1, hl1, hts⟩
    have J := fun w => (list_error_iff readWsJoin_ok_iff readWsJoin_error_iff hm c!"joins" w e).1
    rcases h with h | ⟨v2, hv2, h | ⟨l2, hl2, h | ⟨w2, ⟨js, hjs, rfl⟩, h⟩⟩⟩
    · exact .joins (hh ts [] [] [] []) ht (J ⟨.null, .null, [], [], [], [], [], []⟩ (.inl h))
    · exact .joins (hh ts [] [] [] []) ht (J ⟨.null, .null, [], [], [], [], [], []⟩ (.inr ⟨v2, hv2, .inl h⟩))
    · exact .joins (hh ts [] [] [] []) ht (J _ (.inr ⟨v2, hv2, .inr ⟨l2, hl2, h⟩⟩))
    have hj : EntriesOf doc c!"joins" JoinEntry js := ⟨v2, l2, hv2, hl2, hjs⟩
    have P := fun w => (list_error_iff readWsPath_ok_iff readWsPath_error_iff hm c!"table_paths" w e).1
    rcases h with h | ⟨v3, hv3, h | ⟨l3, hl3, h | ⟨w3, ⟨ps, hps, rfl⟩, h⟩⟩⟩
    · exact .paths (hh ts js [] [] []) ht hj (P ⟨.null, .null, [], [], [], [], [], []⟩ (.inl h))
    · exact .paths (hh ts js [] [] []) ht hj (P ⟨.null, .null, [], [], [], [], [], []⟩ (.inr ⟨v3, hv3, .inl h⟩))
    · exact .paths (hh ts js [] [] []) ht hj (P _ (.inr ⟨v3, hv3, .inr ⟨l3, hl3, h⟩⟩))
    have hq : EntriesOf doc c!"table_paths" PathEntry ps := ⟨v3, l3, hv3, hl3, hps⟩
    rcases h with h | ⟨w4, ⟨fs, rfl, hfs⟩, h⟩
    · exact .formulas (hh ts js ps [] []) ht hj hq ((readFormulasOf_error_iff _ hm e).1 h)
    have C := fun w => (list_error_iff readWsColumn_ok_iff readWsColumn_error_iff hm c!"worksheet_columns" w e).1
    rcases h with h | ⟨v5, hv5, h | ⟨l5, hl5, h⟩⟩
    · exact .columns (hh ts js ps fs []) ht hj hq hfs (C ⟨.null, .null, [], [], [], [], [], []⟩ (.inl h))
    · exact .columns (hh ts js ps fs []) ht hj hq hfs (C ⟨.null, .null, [], [], [], [], [], []⟩ (.inr ⟨v5, hv5, .inl h⟩))
    · exact .columns (hh ts js ps fs []) ht hj hq hfs (C _ (.inr ⟨v5, hv5, .inr ⟨l5, hl5, h⟩⟩))
  · intro h
    cases h with
    | lacks h => exact .inl h
    | sheet h0 h =>
      rename_i doc
      refine .inr ⟨doc, h0, ?_⟩
      by_cases hw : HeadWrong doc e
      · rcases (head_wrong_iff _ _).2 hw with h | ⟨n, hn, h | ⟨d, hd, h | ⟨p, hp, h⟩⟩⟩
        · exact .inl h
        · exact .inr ⟨n, hn, .inl h⟩
        · exact .inr ⟨n, hn, .inr ⟨d, hd, .inl h⟩⟩
        · exact .inr ⟨n, hn, .inr ⟨d, hd, .inr ⟨p, hp, .inl h⟩⟩⟩
      have step : ∀ {w : Worksheet}, HeadEntry doc w → ∃ n d p, HasKey doc c!"name" n ∧ KeyOr doc c!"description" .null d ∧ HasKey doc c!"properties" p ∧
          mkWorksheet n d p = .ok { name := w.name, description := w.description, properties := w.properties } := fun h => head_entry.1 h
      cases h with
      | head h => exact absurd h hw
      | tables hh h =>
        obtain ⟨n, d, p, hn, hd, hp, hk⟩ := step hh
        refine .inr ⟨n, hn, .inr ⟨d, hd, .inr ⟨p, hp, .inr ⟨_, hk, ?_⟩⟩⟩⟩
        rcases (list_error_iff readWsTable_ok_iff readWsTable_error_iff (HasKey.map hn) _ _ e).2 h with h | ⟨v, hv, h | ⟨l, hl, h⟩⟩
        · exact .inl h
        · exact .inr ⟨v, hv, .inl h⟩
        · exact .inr ⟨v, hv, .inr ⟨l, hl, .inl h⟩⟩
      | joins hh ht h =>
        obtain ⟨n, d, p, hn, hd, hp, hk⟩ := step hh
        obtain ⟨v1, l1, hv1, hl1, hts⟩ := ht
        refine .inr ⟨n, hn, .inr ⟨d, hd, .inr ⟨p, hp, .inr ⟨_, hk, .inr ⟨v1, hv1, .inr ⟨l1, hl1, .inr ⟨_, ⟨_, hts, rfl⟩, ?_⟩⟩⟩⟩⟩⟩⟩
        rcases (list_error_iff readWsJoin_ok_iff readWsJoin_error_iff (HasKey.map hn) _ _ e).2 h with h | ⟨v, hv, h | ⟨l, hl, h⟩⟩
        · exact .inl h
        · exact .inr ⟨v, hv, .inl h⟩
        · exact .inr ⟨v, hv, .inr ⟨l, hl, .inl h⟩⟩
      | paths hh ht hj h =>
        obtain ⟨n, d, p, hn, hd, hp, hk⟩ := step hh
        obtain ⟨v1, l1, hv1, hl1, hts⟩ := ht
        obtain ⟨v2, l2, hv2, hl2, hjs⟩ := hj
        refine .inr ⟨n, hn, .inr ⟨d, hd, .inr ⟨p, hp, .inr ⟨_, hk, .inr ⟨v1, hv1, .inr ⟨l1, hl1, .inr ⟨_, ⟨_, hts, rfl⟩,
          .inr ⟨v2, hv2, .inr ⟨l2, hl2, .inr ⟨_, ⟨_, hjs, rfl⟩, ?_⟩⟩⟩⟩⟩⟩⟩⟩⟩⟩
        rcases (list_error_iff readWsPath_ok_iff readWsPath_error_iff (HasKey.map hn) _ _ e).2 h with h | ⟨v, hv, h | ⟨l, hl, h⟩⟩
        · exact .inl h
        · exact .inr ⟨v, hv, .inl h⟩
        · exact .inr ⟨v, hv, .inr ⟨l, hl, .inl h⟩⟩
      | formulas hh ht hj hq h =>
        obtain ⟨n, d, p, hn, hd, hp, hk⟩ := step hh
        obtain ⟨v1, l1, hv1, hl1, hts⟩ := ht
        obtain ⟨v2, l2, hv2, hl2, hjs⟩ := hj
        obtain ⟨v3, l3, hv3, hl3, hps⟩ := hq
        exact .inr ⟨n, hn, .inr ⟨d, hd, .inr ⟨p, hp, .inr ⟨_, hk, .inr ⟨v1, hv1, .inr ⟨l1, hl1, .inr ⟨_, ⟨_, hts, rfl⟩,
          .inr ⟨v2, hv2, .inr ⟨l2, hl2, .inr ⟨_, ⟨_, hjs, rfl⟩, .inr ⟨v3, hv3, .inr ⟨l3, hl3, .inr ⟨_, ⟨_, hps, rfl⟩,
          .inl ((readFormulasOf_error_iff _ (HasKey.map hn) e).2 h)⟩⟩⟩⟩⟩⟩⟩⟩⟩⟩⟩⟩⟩
      | columns hh ht hj hq hf h =>
        obtain ⟨n, d, p, hn, hd, hp, hk⟩ := step hh
        obtain ⟨v1, l1, hv1, hl1, hts⟩ := ht
        obtain ⟨v2, l2, hv2, hl2, hjs⟩ := hj
        obtain ⟨v3, l3, hv3, hl3, hps⟩ := hq
        refine .inr ⟨n, hn, .inr ⟨d, hd, .inr ⟨p, hp, .inr ⟨_, hk, .inr ⟨v1, hv1, .inr ⟨l1, hl1, .inr ⟨_, ⟨_, hts, rfl⟩,
          .inr ⟨v2, hv2, .inr ⟨l2, hl2, .inr ⟨_, ⟨_, hjs, rfl⟩, .inr ⟨v3, hv3, .inr ⟨l3, hl3, .inr ⟨_, ⟨_, hps, rfl⟩,
          .inr ⟨_, ⟨_, rfl, hf⟩, ?_⟩⟩⟩⟩⟩⟩⟩⟩⟩⟩⟩⟩⟩⟩
        rcases (list_error_iff readWsColumn_ok_iff readWsColumn_error_iff (HasKey.map hn) _ _ e).2 h with h | ⟨v, hv, h | ⟨l, hl, h⟩⟩
        · exact .inl h
        · exact .inr ⟨v, hv, .inl h⟩
        · exact .inr ⟨v, hv, .inr ⟨l, hl, h⟩⟩

end Verif
