import Verif.Lemmas.Config
import Verif.Props.Parse
/-
Properties of configuration files: C44, C45, C84.
-/

namespace Verif.Props
open Verif Verif.Spec

/-! ## C45 -/

/-- C45: after loading, every name has the value of the last line that sets it, or the value it had. -/
theorem C45_last_setting_wins (fs : FS) (cfg : Config) (f content : Str) (h : fs f = some (.text content)) (ls : List Str)
    (hls : Lines (newlines content) ls) (k : Str) :
    (loadConfig fs cfg f).2 = .ok true ∧
    ((∃ pre line post v, ls = pre ++ line :: post ∧ Sets line k v ∧ (∀ l ∈ post, ∀ v', ¬ Sets l k v') ∧
        Dict.get? (loadConfig fs cfg f).1 k = some (.text v)) ∨
      ((∀ l ∈ ls, ∀ v, ¬ Sets l k v) ∧ Dict.get? (loadConfig fs cfg f).1 k = Dict.get? cfg k)) := by
  rw [fileLines_iff] at hls
  unfold loadConfig
  rw [h]
  dsimp only
  rw [hls]
  refine ⟨rfl, ?_⟩
  clear hls
  induction ls using snocInd generalizing cfg with
  | nil => exact .inr ⟨by simp, rfl⟩
  | append_singleton ls l ih =>
    rw [List.foldl_append, List.foldl_cons, List.foldl_nil, configLine_setting]
    cases hs : configSetting l with
    | none =>
      have hn : ∀ v, ¬ Sets l k v := fun v hv => by rw [sets_iff, hs] at hv; cases hv
      rcases ih cfg with ⟨pre, line, post, v, e, h1, h2, h3⟩ | ⟨h1, h2⟩
      · refine .inl ⟨pre, line, post ++ [l], v, by rw [e]; simp, h1, ?_, h3⟩
        intro l' hl'
        rcases List.mem_append.1 hl' with h | h
        · exact h2 l' h
        · rw [List.mem_singleton.1 h]; exact hn
      · refine .inr ⟨?_, h2⟩
        intro l' hl'
        rcases List.mem_append.1 hl' with h | h
        · exact h1 l' h
        · rw [List.mem_singleton.1 h]; exact hn
    | some kv =>
      obtain ⟨k', v'⟩ := kv
      dsimp only
      by_cases hk : k = k'
      · subst hk
        exact .inl ⟨ls, l, [], v', rfl, sets_iff.2 hs, by simp, Dict.get?_set_self _ _ _⟩
      · rw [Dict.get?_set_ne _ _ hk]
        have hn : ∀ v, ¬ Sets l k v := fun v hv => by
          rw [sets_iff, hs] at hv; cases hv; exact hk rfl
        rcases ih cfg with ⟨pre, line, post, v, e, h1, h2, h3⟩ | ⟨h1, h2⟩
        · refine .inl ⟨pre, line, post ++ [l], v, by rw [e]; simp, h1, ?_, h3⟩
          intro l' hl'
          rcases List.mem_append.1 hl' with h | h
          · exact h2 l' h
          · rw [List.mem_singleton.1 h]; exact hn
        · refine .inr ⟨?_, h2⟩
          intro l' hl'
          rcases List.mem_append.1 hl' with h | h
          · exact h1 l' h
          · rw [List.mem_singleton.1 h]; exact hn

/-- C45: a file that cannot be opened changes nothing and is reported. -/
theorem C45_unreadable (fs : FS) (cfg : Config) (f : Str) (h : fs f = none ∨ fs f = some .unreadable) :
    loadConfig fs cfg f = (cfg, .ok false) := by
  unfold loadConfig
  rcases h with h | h <;> rw [h]

/-- C45: a file that cannot be decoded raises and leaves the settings of the lines before: what it changes is what a file with these lines would change. -/
theorem C45_undecodable (fs fs' : FS) (cfg : Config) {f before m : Str} (h : fs f = some (.undecodable before m)) (h' : fs' f = some (.text before)) :
    loadConfig fs cfg f = ((loadConfig fs' cfg f).1, .error .value) := by
  unfold loadConfig
  rw [h, h']

/-- The hypotheses of C45 hold for a file with comments, junk and two settings of one name. -/
example : (loadConfig (oneFile c!"f" c!"# a = 0\na = 1 # one\n\njunk\n= 4\nb=\n a=x = y\r\nc=2") [(c!"b", .int 0)] c!"f").1 =
    [(c!"b", .int 0), (c!"a", .text c!"x = y"), (c!"c", .text c!"2")] := by decide +kernel

/-! ## C44 -/

/-- A configuration whose values are texts. -/
def texts (d : Dict Str) : Config := d.map (fun p => (p.1, .text p.2))

/-- C44: a configuration written to a file is read back. -/
theorem C44_round_trip (fr : Rat → Str) (fs : FS) (d : Dict Str) (f : Str) (hk : d.keys.Nodup)
    (h : ∀ p ∈ d, CfgText p.1 ∧ '=' ∉ p.1 ∧ CfgText p.2) :
    loadConfig (writeConfig fr fs true (texts d) f).1 [] f = (texts d, .ok true) := by
  have hr : '\r' ∉ configText fr (texts d) := by
    unfold configText texts
    intro hm
    obtain ⟨l, hl, hc⟩ := List.mem_flatten.1 hm
    rw [List.map_map] at hl
    obtain ⟨p, hp, rfl⟩ := List.mem_map.1 hl
    obtain ⟨h1, -, h2⟩ := h p hp
    simp only [List.mem_append, Function.comp_apply, CfgVal.str] at hc
    rcases hc with ((hc | hc) | hc) | hc
    · exact h1.2.2.2.1 hc
    · revert hc; decide
    · exact h2.2.2.2.1 hc
    · revert hc; decide
  have hl : ∀ d : Dict Str, (∀ p ∈ d, CfgText p.1 ∧ '=' ∉ p.1 ∧ CfgText p.2) →
      Lines (configText fr (texts d)) (d.map (fun p => p.1 ++ c!" = " ++ p.2)) := by
    intro d hd
    induction d with
    | nil => exact .nil
    | cons p d ih =>
      have e : configText fr (texts (p :: d)) = (p.1 ++ c!" = " ++ p.2) ++ '\n' :: configText fr (texts d) := by
        simp [configText, texts, CfgVal.str]
      rw [e, List.map_cons]
      obtain ⟨h1, -, h2⟩ := hd p (by simp)
      refine .line _ _ _ ?_ (ih (fun q hq => hd q (List.mem_cons_of_mem _ hq)))
      simp only [List.mem_append, not_or]
      exact ⟨⟨h1.2.2.1, by decide⟩, h2.2.2.1⟩
  have hf : fileLines (configText fr (texts d)) = d.map (fun p => p.1 ++ c!" = " ++ p.2) := by
    rw [← fileLines_iff, newlines_id hr]
    exact hl d h
  unfold loadConfig writeConfig
  simp only [if_true, hf]
  congr 1
  have step : ∀ (acc : Config) p, p ∈ d → configLine acc (p.1 ++ c!" = " ++ p.2) = Dict.set acc p.1 (.text p.2) := by
    intro acc p hp
    obtain ⟨h1, h3, h2⟩ := h p hp
    have hs : Sets (p.1 ++ c!" = " ++ p.2) p.1 p.2 := by
      refine ⟨_, p.1 ++ c!" ", c!" " ++ p.2, ⟨?_, .inl rfl⟩, by simp, ?_, ?_, ?_, h1.1, h2.1⟩
      · simp only [List.mem_append, not_or]
        exact ⟨⟨h1.2.2.2.2, by decide⟩, h2.2.2.2.2⟩
      · simp only [List.mem_append, not_or]
        exact ⟨h3, by decide⟩
      · have e : p.1 = strip p.1 := padded_iff.1 h1.2.1
        rw [padded_iff, strip_white_right (by intro c hc; simp at hc; subst hc; decide)]
        exact e
      · have e : p.2 = strip p.2 := padded_iff.1 h2.2.1
        rw [padded_iff, strip_white_left (by intro c hc; simp at hc; subst hc; decide)]
        exact e
    rw [configLine_setting, sets_iff.1 hs]
  have fold : ∀ (e acc : Dict Str), (∀ p ∈ e, p ∈ d) → (acc ++ e).keys.Nodup →
      (e.map (fun p => p.1 ++ c!" = " ++ p.2)).foldl configLine (texts acc) = texts (acc ++ e) := by
    intro e
    induction e with
    | nil => intro acc _ _; simp
    | cons p e ih =>
      intro acc hd hn
      rw [List.map_cons, List.foldl_cons, step _ p (hd p (by simp))]
      have hnew : Dict.set (texts acc) p.1 (.text p.2) = texts (acc ++ [p]) := by
        rw [Dict.set_of_not_mem]
        · simp [texts]
        · simp only [Dict.keys, List.map_append, List.map_cons, List.nodup_append] at hn
          intro hm
          refine hn.2.2 _ ?_ p.1 (by simp) rfl
          simpa [texts, Dict.keys] using hm
      rw [hnew, ih (acc ++ [p]) (fun q hq => hd q (List.mem_cons_of_mem _ hq)) (by simpa using hn)]
      simp
  have := fold d [] (fun _ h => h) (by simpa using hk)
  simpa [texts] using this

/-- A configuration that meets the hypotheses of C44. -/
example : ∀ p ∈ ([(c!"max rows", c!"a=b"), (c!"x", c!"10 000")] : Dict Str), CfgText p.1 ∧ '=' ∉ p.1 ∧ CfgText p.2 := by
  intro p hp
  have : ∀ s : Str, s ≠ [] → strip s = s → '\n' ∉ s → '\r' ∉ s → '#' ∉ s → CfgText s :=
    fun s h1 h2 h3 h4 h5 => ⟨h1, padded_iff.2 h2.symm, h3, h4, h5⟩
  simp only [List.mem_cons, List.not_mem_nil, or_false] at hp
  rcases hp with rfl | rfl
  · exact ⟨this _ (by decide) (by decide) (by decide) (by decide) (by decide), by decide,
      this _ (by decide) (by decide) (by decide) (by decide) (by decide)⟩
  · exact ⟨this _ (by decide) (by decide) (by decide) (by decide) (by decide), by decide,
      this _ (by decide) (by decide) (by decide) (by decide) (by decide)⟩

/-! ## C84 -/

/-- C84: loading a file says, line by line and in order, what the specification says about each line, and otherwise does what `loadConfig` does. -/
theorem C84_messages (fs : FS) (cfg : Config) (f content : Str) (h : fs f = some (.text content)) (ls : List Str) (hls : Lines (newlines content) ls) :
    (loadConfigTold fs cfg f).2 = loadConfig fs cfg f ∧ ∃ ms, List.Forall₂ (CfgTold f) ls ms ∧ (loadConfigTold fs cfg f).1 = ms.flatten := by
  refine ⟨loadConfigTold_eq fs cfg f, ls.map (configNote f), ?_, ?_⟩
  · rw [List.forall₂_map_right_iff, List.forall₂_same]
    exact fun l _ => cfgTold_iff.2 rfl
  · rw [loadConfigTold_told (.inl h), fileLines_iff.1 hls]

/-- C84: the specification leaves no choice: one answer for every line. -/
theorem C84_determined (f line : Str) : ∃! m, CfgTold f line m :=
  ⟨configNote f line, cfgTold_iff.2 rfl, fun _ h => (cfgTold_iff.1 h).symm⟩

/-- C84: nothing is said exactly if every line with code sets a name: no setting is dropped silently. -/
theorem C84_silent (fs : FS) (cfg : Config) (f : Str) : (loadConfigTold fs cfg f).1 = [] ↔
    ∃ content ls, (fs f = some (.text content) ∨ ∃ m, fs f = some (.undecodable content m)) ∧ Lines (newlines content) ls ∧ ∀ l ∈ ls, (∃ k v, Sets l k v) ∨ ∃ code, Code l code ∧ White code := by
  constructor
  · intro h
    have hf : ∃ content, fs f = some (.text content) ∨ ∃ m, fs f = some (.undecodable content m) := by
      unfold loadConfigTold at h
      split at h
      · exact ⟨_, .inl (by assumption)⟩
      · exact ⟨_, .inr ⟨_, by assumption⟩⟩
      · cases h
    obtain ⟨content, hc⟩ := hf
    refine ⟨content, _, hc, fileLines_iff.2 rfl, fun l hl => ?_⟩
    rw [loadConfigTold_told hc] at h
    have hn := List.flatten_eq_nil_iff.1 h _ (List.mem_map.2 ⟨l, hl, rfl⟩)
    have ht := cfgTold_iff.2 hn
    generalize hm : ([] : List Str) = m at ht
    cases ht with
    | set k v hs => exact .inl ⟨k, v, hs⟩
    | blank code h1 h2 => exact .inr ⟨code, h1, h2⟩
    | noName => cases hm
    | noValue => cases hm
    | noSign => cases hm
  · rintro ⟨content, ls, hc, hls, h⟩
    rw [loadConfigTold_told hc, fileLines_iff.1 hls, List.flatten_eq_nil_iff]
    intro m hm
    obtain ⟨l, hl, rfl⟩ := List.mem_map.1 hm
    rcases h l hl with ⟨k, v, hs⟩ | ⟨code, h1, h2⟩
    · exact cfgTold_iff.1 (.set k v hs)
    · exact cfgTold_iff.1 (.blank code h1 h2)

/-- C84: a file that cannot be read or written is named in one message. -/
theorem C84_unusable (fr : Rat → Str) (fs : FS) (cfg : Config) (f : Str) :
    ((fs f = none ∨ fs f = some .unreadable) →
      loadConfigTold fs cfg f = ([c!"Unable to open file " ++ f ++ c!".  No configuration loaded."], cfg, .ok false)) ∧
    writeConfigTold fr fs false cfg f = ([c!"Unable to open file " ++ f ++ c!".  No configuration written."], fs, false) ∧
    (writeConfigTold fr fs true cfg f).1 = [] := by
  refine ⟨fun h => ?_, rfl, rfl⟩
  unfold loadConfigTold
  rcases h with h | h <;> rw [h]

/-- C84: a file that cannot be decoded is not reported by a message; the lines before are, as for a file with these lines, and an exception is raised. -/
theorem C84_undecodable (fs fs' : FS) (cfg : Config) {f before m : Str} (h : fs f = some (.undecodable before m)) (h' : fs' f = some (.text before)) :
    loadConfigTold fs cfg f = ((loadConfigTold fs' cfg f).1, (loadConfigTold fs' cfg f).2.1, .error .value) := by
  unfold loadConfigTold
  rw [h, h']

/-- A file with three settings, one of which cannot be decoded; nothing is said. -/
example : loadConfigTold (fun _ => some (.undecodable c!"a = 1\nb = 2\n" c!"no")) [] c!"f" = ([], [(c!"a", .text c!"1"), (c!"b", .text c!"2")], .error .value) := by decide +kernel

/-- A file with lines of every kind. -/
example : (loadConfigTold (oneFile c!"f" c!"# a = 0\na = 1 # one\n\n junk \n= 4\nb= # two\n a=x = y\r\n = \n") [] c!"f") =
    ([c!"f: ignoring line 'junk'", c!"f: badly formed line '= 4'", c!"f: badly formed line 'b='", c!"f: badly formed line '='"], [(c!"a", .text c!"x = y")], .ok true) := by
  decide +kernel

end Verif.Props
