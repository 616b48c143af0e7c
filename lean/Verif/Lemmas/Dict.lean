import Verif.Py.Dict
import Verif.Spec.History
/-
Lemmas about the ordered dictionary and about histories of dictionary operations.
-/

namespace Verif

/-- Induction on a list from the right. -/
theorem snocInd {α : Type} {P : List α → Prop} (nil : P []) (append_singleton : ∀ l a, P l → P (l ++ [a]))
    (l : List α) : P l := by
  rw [← List.reverse_reverse l]
  induction l.reverse with
  | nil => exact nil
  | cons a l ih => rw [List.reverse_cons]; exact append_singleton _ _ ih

namespace Dict
variable {α β : Type}

@[simp] theorem get?_nil (k : Str) : get? ([] : Dict α) k = none := rfl
@[simp] theorem keys_nil : keys ([] : Dict α) = [] := rfl
@[simp] theorem vals_nil : vals ([] : Dict α) = [] := rfl
@[simp] theorem keys_cons (p : Str × α) (d : Dict α) : keys (p :: d) = p.1 :: keys d := rfl
@[simp] theorem vals_cons (p : Str × α) (d : Dict α) : vals (p :: d) = p.2 :: vals d := rfl
theorem get?_cons (p : Str × α) (d : Dict α) (k : Str) :
    get? (p :: d) k = if p.1 = k then some p.2 else get? d k := rfl

theorem get?_eq_none_iff (d : Dict α) (k : Str) : d.get? k = none ↔ k ∉ d.keys := by
  induction d with
  | nil => simp
  | cons p d ih =>
    rw [get?_cons]
    by_cases h : p.1 = k
    · simp [h]
    · simp [h, ih, Ne.symm h]

theorem get?_isSome_iff (d : Dict α) (k : Str) : (d.get? k).isSome ↔ k ∈ d.keys := by
  have := get?_eq_none_iff d k
  cases h : d.get? k with
  | none => simp [h] at this ⊢; exact this
  | some v => simp [h] at this ⊢; exact this

theorem has_iff (d : Dict α) (k : Str) : d.has k = true ↔ k ∈ d.keys := get?_isSome_iff d k

theorem mem_of_get? {d : Dict α} {k : Str} {v : α} (h : d.get? k = some v) : (k, v) ∈ d := by
  induction d with
  | nil => simp at h
  | cons p d ih =>
    rw [get?_cons] at h
    by_cases hk : p.1 = k
    · simp [hk] at h; subst h; subst hk; simp
    · simp [hk] at h; exact List.mem_cons_of_mem _ (ih h)

theorem get?_of_mem {d : Dict α} (hd : d.keys.Nodup) {k : Str} {v : α} (h : (k, v) ∈ d) : d.get? k = some v := by
  induction d with
  | nil => simp at h
  | cons p d ih =>
    rw [get?_cons]
    simp at hd
    rcases List.mem_cons.1 h with rfl | h'
    · simp
    · have : k ∈ keys d := List.mem_map.2 ⟨_, h', rfl⟩
      have hne : p.1 ≠ k := fun e => hd.1 (e ▸ this)
      simp [hne, ih hd.2 h']

theorem mem_iff_get? {d : Dict α} (hd : d.keys.Nodup) {k : Str} {v : α} : (k, v) ∈ d ↔ d.get? k = some v :=
  ⟨get?_of_mem hd, mem_of_get?⟩

theorem mem_vals_iff {d : Dict α} (hd : d.keys.Nodup) {v : α} : v ∈ d.vals ↔ ∃ k, d.get? k = some v := by
  simp only [vals, List.mem_map]
  constructor
  · rintro ⟨⟨k, v'⟩, h, rfl⟩; exact ⟨k, get?_of_mem hd h⟩
  · rintro ⟨k, h⟩; exact ⟨(k, v), mem_of_get? h, rfl⟩

@[simp] theorem get?_set_self (d : Dict α) (k : Str) (v : α) : (d.set k v).get? k = some v := by
  induction d with
  | nil => simp [set, get?_cons]
  | cons p d ih =>
    obtain ⟨k', v'⟩ := p
    simp only [set]
    by_cases h : k' = k
    · simp [h, get?_cons]
    · simp [h, get?_cons, ih]

theorem get?_set_ne (d : Dict α) {k k2 : Str} (v : α) (hne : k2 ≠ k) : (d.set k v).get? k2 = d.get? k2 := by
  induction d with
  | nil => simp [set, get?_cons, Ne.symm hne]
  | cons p d ih =>
    obtain ⟨k', v'⟩ := p
    simp only [set]
    by_cases h : k' = k
    · subst h; simp [get?_cons, Ne.symm hne]
    · simp [h, get?_cons, ih]

theorem get?_set (d : Dict α) (k k2 : Str) (v : α) :
    (d.set k v).get? k2 = if k2 = k then some v else d.get? k2 := by
  by_cases h : k2 = k
  · subst h; simp
  · simp [h, get?_set_ne]

theorem keys_set (d : Dict α) (k : Str) (v : α) :
    (d.set k v).keys = if k ∈ d.keys then d.keys else d.keys ++ [k] := by
  induction d with
  | nil => simp [set]
  | cons p d ih =>
    obtain ⟨k', v'⟩ := p
    simp only [set]
    by_cases h : k' = k
    · simp [h]
    · simp only [h, if_false, keys_cons, ih]
      have hk : k ≠ k' := Ne.symm h
      by_cases h2 : k ∈ keys d <;> simp [h2, hk]

theorem mem_keys_set (d : Dict α) (k k2 : Str) (v : α) : k2 ∈ (d.set k v).keys ↔ k2 = k ∨ k2 ∈ d.keys := by
  rw [keys_set]
  by_cases h : k ∈ d.keys
  · simp only [h, if_true]
    constructor
    · exact Or.inr
    · rintro (rfl | h2) <;> assumption
  · simp only [h, if_false, List.mem_append, List.mem_singleton]
    exact or_comm

theorem nodup_set {d : Dict α} (hd : d.keys.Nodup) (k : Str) (v : α) : (d.set k v).keys.Nodup := by
  rw [keys_set]
  by_cases h : k ∈ d.keys
  · simpa [h] using hd
  · simp only [h, if_false]
    rw [List.nodup_append]
    refine ⟨hd, by simp, ?_⟩
    intro a ha b hb
    simp at hb; subst hb
    intro e; exact h (e ▸ ha)

theorem keys_erase (d : Dict α) (k : Str) : (d.erase k).keys = d.keys.erase k := by
  induction d with
  | nil => simp [erase]
  | cons p d ih =>
    obtain ⟨k', v'⟩ := p
    simp only [erase]
    by_cases h : k' = k
    · simp [h]
    · simp [h, ih]

theorem nodup_erase {d : Dict α} (hd : d.keys.Nodup) (k : Str) : (d.erase k).keys.Nodup := by
  rw [keys_erase]; exact hd.erase k

theorem get?_erase {d : Dict α} (hd : d.keys.Nodup) (k k2 : Str) :
    (d.erase k).get? k2 = if k2 = k then none else d.get? k2 := by
  induction d with
  | nil => simp [erase]
  | cons p d ih =>
    obtain ⟨k', v'⟩ := p
    simp at hd
    simp only [erase]
    by_cases h : k' = k
    · subst h
      simp only [if_true]
      by_cases h2 : k2 = k'
      · subst h2; simp [get?_eq_none_iff, hd.1]
      · simp [h2, get?_cons, Ne.symm h2]
    · simp only [h, if_false, get?_cons, ih hd.2]
      by_cases h2 : k2 = k
      · subst h2; simp [h]
      · simp [h2]

theorem mem_keys_erase {d : Dict α} (hd : d.keys.Nodup) (k k2 : Str) :
    k2 ∈ (d.erase k).keys ↔ k2 ≠ k ∧ k2 ∈ d.keys := by
  rw [keys_erase, hd.mem_erase_iff]

theorem mem_set {d : Dict α} (hd : d.keys.Nodup) {k : Str} {v : α} {p : Str × α} :
    p ∈ d.set k v ↔ p = (k, v) ∨ (p.1 ≠ k ∧ p ∈ d) := by
  obtain ⟨k2, v2⟩ := p
  rw [mem_iff_get? (nodup_set hd k v), get?_set]
  by_cases h : k2 = k
  · subst h; simp [eq_comm]
  · simp [h, mem_iff_get? hd]

theorem mem_set_of {d : Dict α} {k : Str} {v : α} {p : Str × α} (h : p ∈ d.set k v) : p = (k, v) ∨ p ∈ d := by
  induction d with
  | nil => simpa [set] using h
  | cons q d ih =>
    obtain ⟨k', v'⟩ := q
    simp only [set] at h
    by_cases hk : k' = k
    · subst hk; simp only [if_true, List.mem_cons] at h ⊢
      rcases h with h | h
      · exact Or.inl h
      · exact Or.inr (Or.inr h)
    · simp only [hk, if_false, List.mem_cons] at h ⊢
      rcases h with h | h
      · exact Or.inr (Or.inl h)
      · rcases ih h with h | h
        · exact Or.inl h
        · exact Or.inr (Or.inr h)

theorem mem_of_mem_erase {d : Dict α} {k : Str} {p : Str × α} (h : p ∈ d.erase k) : p ∈ d := by
  induction d with
  | nil => simp [erase] at h
  | cons q d ih =>
    obtain ⟨k', v'⟩ := q
    simp only [erase] at h
    by_cases hk : k' = k
    · simp only [hk, if_true] at h; exact List.mem_cons_of_mem _ h
    · simp only [hk, if_false, List.mem_cons] at h ⊢
      rcases h with h | h
      · exact Or.inl h
      · exact Or.inr (ih h)

/-- Setting a key that is not there appends. -/
theorem set_of_not_mem {d : Dict α} {k : Str} (v : α) (h : k ∉ d.keys) : d.set k v = d ++ [(k, v)] := by
  induction d with
  | nil => simp [set]
  | cons p d ih =>
    obtain ⟨k', v'⟩ := p
    simp only [keys_cons, List.mem_cons, not_or] at h
    simp [set, Ne.symm h.1, ih h.2]

@[simp] theorem keys_append (d e : Dict α) : keys (d ++ e) = keys d ++ keys e := by simp [keys]
@[simp] theorem vals_append (d e : Dict α) : vals (d ++ e) = vals d ++ vals e := by simp [vals]
@[simp] theorem length_keys (d : Dict α) : (keys d).length = d.length := by simp [keys]
@[simp] theorem length_vals (d : Dict α) : (vals d).length = d.length := by simp [vals]

theorem ext_of_keys {d e : Dict α} (hd : d.keys.Nodup) (hk : d.keys = e.keys)
    (hv : ∀ k, d.get? k = e.get? k) : d = e := by
  induction d generalizing e with
  | nil => cases e with
    | nil => rfl
    | cons q e => simp at hk
  | cons p d ih =>
    cases e with
    | nil => simp at hk
    | cons q e =>
      simp at hk hd
      have h1 := hv p.1
      simp [get?_cons, ← hk.1] at h1
      have : p = q := Prod.ext hk.1 h1
      subst this
      congr 1
      apply ih hd.2 hk.2
      intro k
      by_cases h : p.1 = k
      · have h1 : get? d k = none := by rw [get?_eq_none_iff, ← h]; exact hd.1
        have h2 : get? e k = none := by rw [get?_eq_none_iff, ← h, ← hk.2]; exact hd.1
        rw [h1, h2]
      · have := hv k; simpa [get?_cons, h] using this

end Dict

/-! ### Histories -/

namespace Spec.Ev
variable {α : Type}

/-- Effect of one change. -/
def apply (d : Dict α) : Ev α → Dict α
  | .put k v => d.set k v
  | .del k => d.erase k

/-- Effect of a history on the empty dictionary. -/
def run (h : List (Ev α)) : Dict α := h.foldl apply []

theorem run_snoc (h : List (Ev α)) (o : Ev α) : run (h ++ [o]) = apply (run h) o := by simp [run]

theorem Born.unique {h : List (Ev α)} {k : Str} {i j : Nat} (hi : Born h k i) (hj : Born h k j) : i = j := by
  rcases Nat.lt_trichotomy i j with hlt | he | hlt
  · obtain ⟨v, hv⟩ := hi.1
    obtain ⟨l, h1, _, h3⟩ := hj.2.2 i v hlt hv
    exact absurd h3 (hi.2.1 l h1)
  · exact he
  · obtain ⟨v, hv⟩ := hj.1
    obtain ⟨l, h1, _, h3⟩ := hi.2.2 j v hlt hv
    exact absurd h3 (hj.2.1 l h1)

theorem nodup_run (h : List (Ev α)) : (run h).keys.Nodup := by
  induction h using snocInd with
  | nil => simp [run]
  | append_singleton h o ih =>
    rw [run_snoc]
    cases o with
    | put k v => exact Dict.nodup_set ih k v
    | del k => exact Dict.nodup_erase ih k

theorem LastPut.snoc {h : List (Ev α)} {o : Ev α} {k : Str} {v : α} (hne : o.key ≠ k) :
    LastPut (h ++ [o]) k v ↔ LastPut h k v := by
  constructor
  · rintro ⟨h1, h2, he, hl⟩
    rcases List.eq_nil_or_concat h2 with rfl | ⟨h2', o', rfl⟩
    · have := List.append_inj_right' he rfl
      simp at this; subst this; simp [key] at hne
    · have he' : h ++ [o] = (h1 ++ .put k v :: h2') ++ [o'] := by simpa using he
      have := List.append_inj' he' rfl
      exact ⟨h1, h2', this.1, fun o ho => hl o (by simp [ho])⟩
  · rintro ⟨h1, h2, rfl, hl⟩
    refine ⟨h1, h2 ++ [o], by simp, ?_⟩
    intro o' ho'
    rcases List.mem_append.1 ho' with h | h
    · exact hl o' h
    · simp at h; subst h; exact hne

theorem get?_run (h : List (Ev α)) (k : Str) (v : α) : (run h).get? k = some v ↔ LastPut h k v := by
  induction h using snocInd with
  | nil => simp [run, LastPut]
  | append_singleton h o ih =>
    rw [run_snoc]
    by_cases hk : o.key = k
    · cases o with
      | put k' v' =>
        simp only [key] at hk; subst hk
        simp only [apply, Dict.get?_set_self, Option.some.injEq]
        constructor
        · rintro rfl; exact ⟨h, [], by simp, by simp⟩
        · rintro ⟨h1, h2, he, hl⟩
          rcases List.eq_nil_or_concat h2 with rfl | ⟨h2', o', rfl⟩
          · have := List.append_inj_right' he rfl
            simpa using this
          · have he' : h ++ [.put k' v'] = (h1 ++ .put k' v :: h2') ++ [o'] := by simpa using he
            have := List.append_inj_right' he' rfl
            simp at this; subst this
            exact absurd rfl (hl (.put k' v') (by simp))
      | del k' =>
        simp only [key] at hk; subst hk
        simp only [apply, Dict.get?_erase (nodup_run h), if_true]
        constructor
        · intro h; simp at h
        · rintro ⟨h1, h2, he, hl⟩
          rcases List.eq_nil_or_concat h2 with rfl | ⟨h2', o', rfl⟩
          · have := List.append_inj_right' he rfl
            simp at this
          · have he' : h ++ [.del k'] = (h1 ++ .put k' v :: h2') ++ [o'] := by simpa using he
            have := List.append_inj_right' he' rfl
            simp at this; subst this
            exact absurd rfl (hl (.del k') (by simp))
    · rw [LastPut.snoc hk, ← ih]
      cases o with
      | put k' v' =>
        simp only [key] at hk
        simp [apply, Dict.get?_set, Ne.symm hk]
      | del k' =>
        simp only [key] at hk
        simp [apply, Dict.get?_erase (nodup_run h), Ne.symm hk]

/-- A key that is absent was erased after each of its sets. -/
theorem erased_of_absent (h : List (Ev α)) (k : Str) (hk : k ∉ (run h).keys) :
    ∀ j v, h[j]? = some (.put k v) → ∃ l, j < l ∧ l < h.length ∧ h[l]? = some (.del k) := by
  induction h using snocInd with
  | nil => simp
  | append_singleton h o ih =>
    rw [run_snoc] at hk
    intro j v hj
    have hjlt : j < (h ++ [o]).length := by
      rcases Nat.lt_or_ge j (h ++ [o]).length with h' | h'
      · exact h'
      · rw [List.getElem?_eq_none h'] at hj; simp at hj
    simp at hjlt
    by_cases hlast : j = h.length
    · subst hlast
      simp at hj; subst hj
      simp [apply, Dict.mem_keys_set] at hk
    · have hjl : j < h.length := by omega
      rw [List.getElem?_append_left hjl] at hj
      by_cases he : o = .del k
      · subst he
        exact ⟨h.length, hjl, by simp, by simp⟩
      · have hk' : k ∉ (run h).keys := by
          cases o with
          | put k' v' => intro hm; exact hk (by simp [apply, Dict.mem_keys_set, hm])
          | del k' =>
            intro hm
            apply hk
            simp only [apply, Dict.mem_keys_erase (nodup_run h)]
            exact ⟨fun e => he (by rw [e]), hm⟩
        obtain ⟨l, h1, h2, h3⟩ := ih hk' j v hj
        refine ⟨l, h1, by simp; omega, ?_⟩
        rw [List.getElem?_append_left h2]; exact h3

theorem Born.lt {h : List (Ev α)} {k : Str} {i : Nat} (hb : Born h k i) : i < h.length := by
  obtain ⟨v, hv⟩ := hb.1
  rcases Nat.lt_or_ge i h.length with h' | h'
  · exact h'
  · rw [List.getElem?_eq_none h'] at hv; simp at hv

theorem Born.snoc {h : List (Ev α)} {o : Ev α} {k : Str} {i : Nat} (hb : Born h k i) (ho : o ≠ .del k) :
    Born (h ++ [o]) k i := by
  have hlt := hb.lt
  obtain ⟨⟨v, hv⟩, h2, h3⟩ := hb
  refine ⟨⟨v, by rw [List.getElem?_append_left hlt]; exact hv⟩, ?_, ?_⟩
  · intro j hj
    rcases Nat.lt_trichotomy j h.length with hl | hl | hl
    · rw [List.getElem?_append_left hl]; exact h2 j hj
    · subst hl; simpa using ho
    · rw [List.getElem?_eq_none (by simp; omega)]; simp
  · intro j w hj hw
    rw [List.getElem?_append_left (by omega)] at hw
    obtain ⟨l, a, b, c⟩ := h3 j w hj hw
    exact ⟨l, a, b, by rw [List.getElem?_append_left (by omega)]; exact c⟩

/-- The keys of the dictionary are listed in birth order. -/
theorem order_run (h : List (Ev α)) :
    (∀ k ∈ (run h).keys, ∃ i, Born h k i) ∧
    (run h).keys.Pairwise (fun a b => ∀ i j, Born h a i → Born h b j → i < j) := by
  suffices H : (∀ k ∈ (run h).keys, ∃ i, Born h k i) ∧
      (run h).keys.Pairwise (fun a b => ∃ i j, Born h a i ∧ Born h b j ∧ i < j) by
    refine ⟨H.1, H.2.imp ?_⟩
    rintro a b ⟨i, j, hi, hj, hlt⟩ i' j' hi' hj'
    rw [hi'.unique hi, hj'.unique hj]; exact hlt
  induction h using snocInd with
  | nil => simp [run]
  | append_singleton h o ih =>
    obtain ⟨ih1, ih2⟩ := ih
    rw [run_snoc]
    cases o with
    | put k v =>
      have keep : ∀ {a i}, Born h a i → Born (h ++ [Ev.put k v]) a i :=
        fun hb => hb.snoc (by simp)
      simp only [apply, Dict.keys_set]
      by_cases hk : k ∈ (run h).keys
      · simp only [hk, if_true]
        refine ⟨fun k' hk' => ?_, ih2.imp ?_⟩
        · obtain ⟨i, hi⟩ := ih1 k' hk'; exact ⟨i, keep hi⟩
        · rintro a b ⟨i, j, hi, hj, hlt⟩; exact ⟨i, j, keep hi, keep hj, hlt⟩
      · simp only [hk, if_false]
        have hnew : Born (h ++ [Ev.put k v]) k h.length := by
          refine ⟨⟨v, by simp⟩, ?_, ?_⟩
          · intro j hj
            rw [List.getElem?_eq_none (by simp; omega)]; simp
          · intro j w hj hw
            rw [List.getElem?_append_left hj] at hw
            obtain ⟨l, a, b, c⟩ := erased_of_absent h k hk j w hw
            exact ⟨l, a, b, by rw [List.getElem?_append_left b]; exact c⟩
        refine ⟨fun k' hk' => ?_, ?_⟩
        · rcases List.mem_append.1 hk' with hm | hm
          · obtain ⟨i, hi⟩ := ih1 k' hm; exact ⟨i, keep hi⟩
          · simp at hm; subst hm; exact ⟨_, hnew⟩
        · rw [List.pairwise_append]
          refine ⟨ih2.imp ?_, by simp, ?_⟩
          · rintro a b ⟨i, j, hi, hj, hlt⟩; exact ⟨i, j, keep hi, keep hj, hlt⟩
          · intro a ha b hb
            simp at hb; subst hb
            obtain ⟨i, hi⟩ := ih1 a ha
            exact ⟨i, _, keep hi, hnew, hi.lt⟩
    | del k =>
      simp only [apply, Dict.keys_erase]
      have keep : ∀ {a i}, a ≠ k → Born h a i → Born (h ++ [Ev.del k]) a i :=
        fun hne hb => hb.snoc (by simp [Ne.symm hne])
      have hnd := nodup_run h
      have hmem : ∀ a ∈ (run h).keys.erase k, a ≠ k ∧ a ∈ (run h).keys := fun a ha => (hnd.mem_erase_iff).1 ha
      refine ⟨fun a ha => ?_, ?_⟩
      · obtain ⟨hne, hm⟩ := hmem a ha
        obtain ⟨i, hi⟩ := ih1 a hm; exact ⟨i, keep hne hi⟩
      · have hp := ih2.sublist (List.erase_sublist (a := k) (l := (run h).keys))
        refine hp.imp_of_mem ?_
        rintro a b ha hb ⟨i, j, hi, hj, hlt⟩
        exact ⟨i, j, keep (hmem a ha).1 hi, keep (hmem b hb).1 hj, hlt⟩

end Spec.Ev
end Verif

namespace Verif.Spec.Ev
variable {α : Type}

theorem mem_keys_run (h : List (Ev α)) (k : Str) : k ∈ (run h).keys ↔ ∃ v, LastPut h k v := by
  constructor
  · intro hk
    cases hg : (run h).get? k with
    | none => exact absurd hk ((Dict.get?_eq_none_iff _ _).1 hg)
    | some v => exact ⟨v, (get?_run h k v).1 hg⟩
  · rintro ⟨v, hv⟩
    have := (get?_run h k v).2 hv
    rw [← Dict.get?_isSome_iff, this]; rfl

theorem lists_run (h : List (Ev α)) : Lists h (run h).keys :=
  ⟨nodup_run h, mem_keys_run h, (order_run h).1, (order_run h).2⟩

theorem run_append (h1 h2 : List (Ev α)) : run (h1 ++ h2) = h2.foldl apply (run h1) := by simp [run]

end Verif.Spec.Ev
